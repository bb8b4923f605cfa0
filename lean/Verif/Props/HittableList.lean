import Verif.Model.Hittable
import Verif.Scalar.IEEE

/-! # C39-C42: `hittable_list` -/

namespace DRT
open Scalar Fl

variable {F : Fmt} {M : Type}

/-- What an object reports along one ray: `first` is the parameter of its first hit after `tmin`, if any.
A call succeeds exactly when that parameter does not exceed the given `tmax`, and then the record carries it.
Nothing is assumed about the other fields, about the record after a failed call, or about calls with a NaN bound. -/
structure Reports (o : Hittable (Fl F)) (r : Ray (Fl F)) (tmin : Fl F) (first : Option (Fl F)) : Prop where
  hit : ∀ t, first = some t → ∀ tmax rec, Scalar.le t tmax = true →
    (o.hit r tmin tmax rec).1 = true ∧ (o.hit r tmin tmax rec).2.t = t
  miss : ∀ tmax rec, isNaN tmax = false → (∀ t, first = some t → Scalar.le t tmax = false) → (o.hit r tmin tmax rec).1 = false

/-- As `Reports`, but a call that should fail may also succeed with a parameter that is not a number. -/
structure ReportsNumber (o : Hittable (Fl F)) (r : Ray (Fl F)) (tmin : Fl F) (first : Option (Fl F)) : Prop where
  hit : ∀ t, first = some t → ∀ tmax rec, Scalar.le t tmax = true →
    (o.hit r tmin tmax rec).1 = true ∧ (o.hit r tmin tmax rec).2.t = t
  miss : ∀ tmax rec, isNaN tmax = false → (∀ t, first = some t → Scalar.le t tmax = false) →
    (o.hit r tmin tmax rec).1 = true → (o.hit r tmin tmax rec).2.t = Fl.nan

theorem Reports.number {o : Hittable (Fl F)} {r : Ray (Fl F)} {tmin : Fl F} {first : Option (Fl F)} (h : Reports o r tmin first) :
    ReportsNumber o r tmin first :=
  ⟨h.hit, fun tmax rec hn hm ht => by rw [h.miss tmax rec hn hm] at ht; cases ht⟩

namespace HittableList

/-- The state reached by the loop, for arbitrary objects. -/
theorem loop_inv (r : Ray (Fl F)) (tmin tmax : Fl F) (rec : HitRecord (Fl F)) (all : List (Hittable (Fl F)))
    (os : List (Hittable (Fl F))) : ∀ (i : ℕ) (s : State (Fl F)), all.drop i = os →
      (s.idx = none → s.out = rec ∧ s.closest = tmax) →
      (∀ j, s.idx = some j → s.closest = s.out.t ∧ Scalar.lt s.out.t tmax = true ∧
        ∃ o, all[j]? = some o ∧ ∃ c temp, Scalar.lt s.out.t c = true ∧ o.hit r tmin c temp = (true, s.out)) →
      let s' := loop r tmin os i s
      (s'.idx = none → s'.out = rec ∧ s'.closest = tmax) ∧
      (∀ j, s'.idx = some j → s'.closest = s'.out.t ∧ Scalar.lt s'.out.t tmax = true ∧
        ∃ o, all[j]? = some o ∧ ∃ c temp, Scalar.lt s'.out.t c = true ∧ o.hit r tmin c temp = (true, s'.out)) := by
  induction os with
  | nil => intro i s _ h1 h2; exact ⟨h1, h2⟩
  | cons o os ih =>
    intro i s hd h1 h2
    have hi : all[i]? = some o := by
      have : (all.drop i)[0]? = some o := by rw [hd]; rfl
      rwa [List.getElem?_drop, Nat.add_zero] at this
    apply ih (i + 1)
    · rw [← List.drop_drop, hd]; rfl
    · unfold step
      dsimp only
      split_ifs
      · intro h; cases h
      · exact h1
      · exact h1
    · unfold step
      dsimp only
      split_ifs with ha hb
      · intro j hj
        injection hj with hj; subst hj
        refine ⟨rfl, ?_, o, hi, s.closest, s.temp, hb, Prod.ext ha rfl⟩
        cases hidx : s.idx with
        | none => rw [(h1 hidx).2] at hb; rw [(h1 hidx).2]; exact hb
        | some k =>
          obtain ⟨e, hlt, -⟩ := h2 k hidx
          rw [e] at hb
          rw [← e] at hb hlt
          exact Fl.lt_trans hb hlt
      · exact h2
      · exact h2

/-- The state reached by the loop, for objects with a first hit. -/
theorem loop_reports (r : Ray (Fl F)) (tmin : Fl F) (first : ℕ → Option (Fl F)) (os : List (Hittable (Fl F))) :
    ∀ (i : ℕ) (s : State (Fl F)), (∀ k o, os[k]? = some o → ReportsNumber o r tmin (first (i + k))) →
      let s' := loop r tmin os i s
      ((s'.idx = s.idx ∧ s'.closest = s.closest ∧ s'.out = s.out ∧
          ∀ k < os.length, ∀ t, first (i + k) = some t → Scalar.lt t s.closest = false) ∨
       (∃ k < os.length, s'.idx = some (i + k) ∧ first (i + k) = some s'.out.t ∧ s'.closest = s'.out.t ∧
          Scalar.lt s'.out.t s.closest = true ∧
          (∀ j < os.length, ∀ t, first (i + j) = some t → Scalar.lt t s'.out.t = false) ∧
          (∀ j < k, ∀ t, first (i + j) = some t → Scalar.le t s'.out.t = false))) := by
  induction os with
  | nil => intro i s _; exact Or.inl ⟨rfl, rfl, rfl, by simp⟩
  | cons o os ih =>
    intro i s hr
    have hro := hr 0 o rfl
    rw [Nat.add_zero] at hro
    have hrest : ∀ k o', os[k]? = some o' → ReportsNumber o' r tmin (first (i + 1 + k)) := by
      intro k o' hk
      have := hr (k + 1) o' (by simpa using hk)
      rwa [show i + (k + 1) = i + 1 + k by omega] at this
    have ih' := ih (i + 1) (step r tmin s i o) hrest
    dsimp only at ih' ⊢
    rw [loop]
    -- effect of this object
    have hstep : (step r tmin s i o = { s with temp := (o.hit r tmin s.closest s.temp).2 } ∧
        ∀ t, first i = some t → Scalar.lt t s.closest = false) ∨
        (∃ t, first i = some t ∧ Scalar.lt t s.closest = true ∧ (step r tmin s i o).closest = t ∧
          (step r tmin s i o).out.t = t ∧ (step r tmin s i o).idx = some i) := by
      by_cases hc : ∃ t, first i = some t ∧ Scalar.lt t s.closest = true
      · obtain ⟨t, ht, hlt⟩ := hc
        obtain ⟨h1, h2⟩ := hro.hit t ht s.closest s.temp (Fl.le_of_lt hlt)
        right
        refine ⟨t, ht, hlt, ?_⟩
        unfold step
        dsimp only
        rw [if_pos h1, h2, if_pos hlt]
        exact ⟨rfl, h2, rfl⟩
      · left
        refine ⟨?_, fun t ht => by
          by_contra h; exact hc ⟨t, ht, by simpa using h⟩⟩
        unfold step
        dsimp only
        split_ifs with ha hb
        · exfalso
          by_cases hm : ∀ t, first i = some t → Scalar.le t s.closest = false
          · rw [hro.miss _ _ (not_nan_of_lt_right hb) hm ha] at hb; simp at hb
          · push Not at hm
            obtain ⟨t, ht, hle⟩ := hm
            have h2 := (hro.hit t ht s.closest s.temp (by simpa using hle)).2
            rw [h2] at hb
            exact hc ⟨t, ht, hb⟩
        · rfl
        · rfl
    rcases hstep with ⟨he, hno⟩ | ⟨t, ht, hlt, hcl, hout, hidx⟩
    · rw [he] at ih' ⊢
      rcases ih' with ⟨h1, h2, h3, h4⟩ | ⟨k, hk, h1, h2, h3, h4, h5, h6⟩
      · left
        refine ⟨h1, h2, h3, fun k hk t ht => ?_⟩
        cases k with
        | zero => exact hno t ht
        | succ k => exact h4 k (by simpa using hk) t (by rwa [show i + 1 + k = i + (k + 1) by omega])
      · right
        refine ⟨k + 1, by simpa using hk, by rw [h1]; congr 1; omega, by rw [← h2]; congr 1; omega, h3, h4, ?_, ?_⟩
        · intro j hj t ht
          cases j with
          | zero =>
            have := hno t ht
            by_contra hc
            have hc' := Bool.eq_true_of_not_eq_false hc
            rw [Fl.lt_trans hc' h4] at this; cases this
          | succ j => exact h5 j (by simpa using hj) t (by rwa [show i + 1 + j = i + (j + 1) by omega])
        · intro j hj t ht
          cases j with
          | zero =>
            have := hno t ht
            by_contra hc
            have hc' := Bool.eq_true_of_not_eq_false hc
            rw [Fl.lt_of_le_of_lt hc' h4] at this; cases this
          | succ j => exact h6 j (by omega) t (by rwa [show i + 1 + j = i + (j + 1) by omega])
    · rcases ih' with ⟨h1, h2, h3, h4⟩ | ⟨k, hk, h1, h2, h3, h4, h5, h6⟩
      · right
        rw [hcl] at h2 h4
        rw [hidx] at h1
        refine ⟨0, by simp, h1, ?_, ?_, ?_, ?_, by simp⟩
        · rw [h3, hout]; exact ht
        · rw [h2, h3, hout]
        · rw [h3, hout]; exact hlt
        · rw [h3, hout]
          intro j hj t' ht'
          cases j with
          | zero =>
            rw [Nat.add_zero, ht] at ht'
            injection ht' with ht'; subst ht'
            exact Fl.lt_irrefl t
          | succ j => exact h4 j (by simpa using hj) t' (by rwa [show i + 1 + j = i + (j + 1) by omega])
      · right
        rw [hcl] at h4
        refine ⟨k + 1, by simpa using hk, by rw [h1]; congr 1; omega, by rw [← h2]; congr 1; omega, h3,
          Fl.lt_trans h4 hlt, ?_, ?_⟩
        · intro j hj t' ht'
          cases j with
          | zero =>
            rw [Nat.add_zero, ht] at ht'
            injection ht' with ht'; subst ht'
            exact Fl.not_lt_of_le (Fl.le_of_lt h4)
          | succ j => exact h5 j (by simpa using hj) t' (by rwa [show i + 1 + j = i + (j + 1) by omega])
        · intro j hj t' ht'
          cases j with
          | zero =>
            rw [Nat.add_zero, ht] at ht'
            injection ht' with ht'; subst ht'
            by_contra hc
            have hc' := Bool.eq_true_of_not_eq_false hc
            have := Fl.not_lt_of_le hc'
            rw [h4] at this; cases this
          | succ j => exact h6 j (by omega) t' (by rwa [show i + 1 + j = i + (j + 1) by omega])

end HittableList

/-! ## C39 -/

/-- C39, any rounding: over objects that report their first hit, or one whose parameter is not a number, `hit` returns null iff no object is hit before
`tmax`; otherwise it returns the material of the first object (in insertion order) among those with the least
parameter, and the record is the one that object wrote, carrying that parameter. -/
theorem C39_nearest_number (l : HittableList (Fl F) M) (hal : l.materials.length = l.objects.length) (r : Ray (Fl F))
    (tmin tmax : Fl F) (rec temp0 : HitRecord (Fl F)) (first : ℕ → Option (Fl F))
    (hr : ∀ k o, l.objects[k]? = some o → ReportsNumber o r tmin (first k)) :
    ((l.hit r tmin tmax rec temp0).1 = some none ↔
      ∀ k < l.objects.length, ∀ t, first k = some t → Scalar.lt t tmax = false) ∧
    (∀ m, (l.hit r tmin tmax rec temp0).1 = some (some m) → ∃ k, l.materials[k]? = some m ∧
      first k = some (l.hit r tmin tmax rec temp0).2.t ∧ Scalar.lt (l.hit r tmin tmax rec temp0).2.t tmax = true ∧
      (∃ o, l.objects[k]? = some o ∧ ∃ c temp, Scalar.lt (l.hit r tmin tmax rec temp0).2.t c = true ∧
        o.hit r tmin c temp = (true, (l.hit r tmin tmax rec temp0).2)) ∧
      (∀ j < l.objects.length, ∀ t, first j = some t → Scalar.lt t (l.hit r tmin tmax rec temp0).2.t = false) ∧
      (∀ j < k, ∀ t, first j = some t → Scalar.le t (l.hit r tmin tmax rec temp0).2.t = false)) ∧
    (l.hit r tmin tmax rec temp0).1 ≠ none := by
  have h := HittableList.loop_reports r tmin first l.objects 0 ⟨temp0, tmax, rec, none⟩ (by simpa using hr)
  have hinv := HittableList.loop_inv r tmin tmax rec l.objects l.objects 0 ⟨temp0, tmax, rec, none⟩ rfl
    (fun _ => ⟨rfl, rfl⟩) (by intro j hj; cases hj)
  unfold HittableList.hit
  dsimp only at h hinv ⊢
  generalize HittableList.loop r tmin l.objects 0 ⟨temp0, tmax, rec, none⟩ = s at *
  simp only [Nat.zero_add] at h
  rcases h with ⟨h1, h2, h3, h4⟩ | ⟨k, hk, h1, h2, h3, h4, h5, h6⟩
  · rw [h1]
    refine ⟨⟨fun _ => h4, fun _ => rfl⟩, fun m hm => by simp at hm, by simp⟩
  · rw [h1]
    have hkm : k < l.materials.length := by rw [hal]; exact hk
    dsimp only
    rw [List.getElem?_eq_getElem hkm]
    refine ⟨⟨fun hc => by simp at hc, fun hc => ?_⟩, fun m hm => ?_, by simp⟩
    · have := hc k hk _ h2
      rw [h4] at this; cases this
    · simp only [Option.map_some, Option.some.injEq] at hm
      obtain ⟨-, -, o, ho, c, temp, hlt, hc⟩ := hinv.2 k h1
      exact ⟨k, by rw [List.getElem?_eq_getElem hkm, hm], h2, h4, ⟨o, ho, c, temp, hlt, hc⟩, h5, h6⟩

/-- C39, any rounding: over objects that report their first hit, `hit` returns null iff no object is hit before
`tmax`; otherwise it returns the material of the first object (in insertion order) among those with the least
parameter, and the record is the one that object wrote, carrying that parameter. -/
theorem C39_nearest (l : HittableList (Fl F) M) (hal : l.materials.length = l.objects.length) (r : Ray (Fl F))
    (tmin tmax : Fl F) (rec temp0 : HitRecord (Fl F)) (first : ℕ → Option (Fl F))
    (hr : ∀ k o, l.objects[k]? = some o → Reports o r tmin (first k)) :
    ((l.hit r tmin tmax rec temp0).1 = some none ↔
      ∀ k < l.objects.length, ∀ t, first k = some t → Scalar.lt t tmax = false) ∧
    (∀ m, (l.hit r tmin tmax rec temp0).1 = some (some m) → ∃ k, l.materials[k]? = some m ∧
      first k = some (l.hit r tmin tmax rec temp0).2.t ∧ Scalar.lt (l.hit r tmin tmax rec temp0).2.t tmax = true ∧
      (∃ o, l.objects[k]? = some o ∧ ∃ c temp, Scalar.lt (l.hit r tmin tmax rec temp0).2.t c = true ∧
        o.hit r tmin c temp = (true, (l.hit r tmin tmax rec temp0).2)) ∧
      (∀ j < l.objects.length, ∀ t, first j = some t → Scalar.lt t (l.hit r tmin tmax rec temp0).2.t = false) ∧
      (∀ j < k, ∀ t, first j = some t → Scalar.le t (l.hit r tmin tmax rec temp0).2.t = false)) ∧
    (l.hit r tmin tmax rec temp0).1 ≠ none :=
  C39_nearest_number l hal r tmin tmax rec temp0 first fun k o h => (hr k o h).number

/-- An object that is hit once, at parameter `t`. -/
noncomputable def spike (t : Fl F) : Hittable (Fl F) where
  hit _ _ tmax rec := if Scalar.le t tmax then (true, { rec with t := t }) else (false, rec)
  bbox := (true, ⟨fun _ => ninf, fun _ => pinf⟩)

theorem spike_reports (t : Fl F) (r : Ray (Fl F)) (tmin : Fl F) : Reports (spike t) r tmin (some t) where
  hit t' h tmax rec hle := by
    injection h with h; subst h
    simp [spike, hle]
  miss tmax rec _ h := by simp [spike, h t rfl]

/-- An object that always reports a hit whose parameter is not a number. -/
noncomputable def nanSpike : Hittable (Fl F) where
  hit _ _ _ rec := (true, { rec with t := Fl.nan })
  bbox := (true, ⟨fun _ => ninf, fun _ => pinf⟩)

/-- The hit that is not a number does not hide the other. -/
example (r : Ray (Fl binary64)) (rec : HitRecord (Fl binary64)) :
    ((⟨[nanSpike, spike (fin 1)], ["a", "b"]⟩ : HittableList (Fl binary64) String).hit r (fin 0) pinf rec rec).1 = some (some "b") := by
  have h := C39_nearest_number (M := String) ⟨[nanSpike, spike (fin 1 : Fl binary64)], ["a", "b"]⟩ rfl
    r (fin 0) pinf rec rec (fun k => [none, some (fin 1)].getD k none) (by
      intro k o hk
      match k, hk with
      | 0, hk => injection hk with hk; subst hk; exact ⟨by simp, fun _ _ _ _ _ => rfl⟩
      | 1, hk => injection hk with hk; subst hk; exact (spike_reports _ _ _).number
      | k + 2, hk => simp at hk)
  revert h
  generalize HittableList.hit (M := String) _ r (fin 0) pinf rec rec = res
  intro h
  obtain ⟨h1, h2, h3⟩ := h
  match hres : res.1 with
  | none => exact absurd hres h3
  | some none =>
    have := h1.mp hres 1 (by simp) (fin 1) rfl
    simp at this
  | some (some m) =>
    obtain ⟨k, hk, hf, -⟩ := h2 m hres
    match k, hk, hf with
    | 0, hk, hf => simp at hf
    | 1, hk, hf => simp at hk; rw [hk]

example (r : Ray (Fl binary64)) (rec : HitRecord (Fl binary64)) :
    ((⟨[spike (fin 3), spike (fin 1), spike (fin 2)], ["a", "b", "c"]⟩ : HittableList (Fl binary64) String).hit
      r (fin 0) pinf rec rec).1 = some (some "b") := by
  have h := C39_nearest (M := String) ⟨[spike (fin 3 : Fl binary64), spike (fin 1), spike (fin 2)], ["a", "b", "c"]⟩ rfl
    r (fin 0) pinf rec rec (fun k => [some (fin 3), some (fin 1), some (fin 2)].getD k none) (by
      intro k o hk
      match k, hk with
      | 0, hk => injection hk with hk; subst hk; exact spike_reports _ _ _
      | 1, hk => injection hk with hk; subst hk; exact spike_reports _ _ _
      | 2, hk => injection hk with hk; subst hk; exact spike_reports _ _ _
      | k + 3, hk => simp at hk)
  revert h
  generalize HittableList.hit (M := String) _ r (fin 0) pinf rec rec = res
  intro h
  obtain ⟨h1, h2, h3⟩ := h
  match hres : res.1 with
  | none => exact absurd hres h3
  | some none =>
    have := h1.mp hres 0 (by simp) (fin 3) rfl
    simp at this
  | some (some m) =>
    obtain ⟨k, hk, hf, hlt, -, hmin, -⟩ := h2 m hres
    match k, hk, hf with
    | 0, hk, hf =>
      simp at hf
      have := hmin 1 (by simp) (fin 1) rfl
      rw [← hf] at this; norm_num at this
    | 1, hk, hf => simp at hk; rw [hk]
    | 2, hk, hf =>
      simp at hf
      have := hmin 1 (by simp) (fin 1) rfl
      rw [← hf] at this; norm_num at this
    | k + 3, hk, hf => simp at hf

/-! ## C40 -/

/-- C40, any rounding, arbitrary objects: if null is returned the caller's record is unchanged. -/
theorem C40_miss_untouched (l : HittableList (Fl F) M) (r : Ray (Fl F)) (tmin tmax : Fl F)
    (rec temp0 : HitRecord (Fl F)) (h : (l.hit r tmin tmax rec temp0).1 = some none) :
    (l.hit r tmin tmax rec temp0).2 = rec := by
  have hinv := HittableList.loop_inv r tmin tmax rec l.objects l.objects 0 ⟨temp0, tmax, rec, none⟩ rfl
    (fun _ => ⟨rfl, rfl⟩) (by intro j hj; cases hj)
  unfold HittableList.hit at h ⊢
  dsimp only at h hinv ⊢
  generalize HittableList.loop r tmin l.objects 0 ⟨temp0, tmax, rec, none⟩ = s at *
  cases hs : s.idx with
  | none => exact (hinv.1 hs).1
  | some i =>
    rw [hs] at h
    cases hm : l.materials[i]? <;> simp [hm] at h

/-- C40, any rounding, arbitrary objects: if a material is returned, the record's parameter is a number below `tmax`
and the record is exactly what one of the objects wrote when it reported a hit. -/
theorem C40_hit_sane (l : HittableList (Fl F) M) (r : Ray (Fl F)) (tmin tmax : Fl F)
    (rec temp0 : HitRecord (Fl F)) (m : M) (h : (l.hit r tmin tmax rec temp0).1 = some (some m)) :
    isNaN (l.hit r tmin tmax rec temp0).2.t = false ∧ Scalar.lt (l.hit r tmin tmax rec temp0).2.t tmax = true ∧
    ∃ (k : ℕ) (o : Hittable (Fl F)), l.materials[k]? = some m ∧ l.objects[k]? = some o ∧
      ∃ c temp, o.hit r tmin c temp = (true, (l.hit r tmin tmax rec temp0).2) := by
  have hinv := HittableList.loop_inv r tmin tmax rec l.objects l.objects 0 ⟨temp0, tmax, rec, none⟩ rfl
    (fun _ => ⟨rfl, rfl⟩) (by intro j hj; cases hj)
  unfold HittableList.hit at h ⊢
  dsimp only at h hinv ⊢
  generalize HittableList.loop r tmin l.objects 0 ⟨temp0, tmax, rec, none⟩ = s at *
  cases hs : s.idx with
  | none => rw [hs] at h; simp at h
  | some i =>
    rw [hs] at h
    obtain ⟨-, hlt, o, ho, c, temp, -, hc⟩ := hinv.2 i hs
    dsimp only at h ⊢
    cases hm : l.materials[i]? with
    | none => simp [hm] at h
    | some m' =>
      simp [hm] at h
      exact ⟨not_nan_of_lt_left hlt, hlt, i, o, by rw [hm, h], ho, c, temp, hc⟩

/-- An adversarial object that writes NaN into the record and claims a hit; the list does not report it. -/
noncomputable def liar : Hittable (Fl F) where
  hit _ _ _ rec := (true, { rec with t := Fl.nan })
  bbox := (true, ⟨fun _ => ninf, fun _ => pinf⟩)

example (r : Ray (Fl binary32)) (rec temp0 : HitRecord (Fl binary32)) :
    ((⟨[liar, liar], [0, 1]⟩ : HittableList (Fl binary32) ℕ).hit r (fin 0) pinf rec temp0) = (some none, rec) := by
  simp [HittableList.hit, HittableList.loop, HittableList.step, liar]

/-! ## C41 -/

/-- A history of calls. -/
inductive ListOp (F : Fmt) (M : Type) where
  | add (o : Hittable (Fl F)) (m : M)
  | clear

/-- Effect of one call on a list. -/
def ListOp.run (l : HittableList (Fl F) M) : ListOp F M → HittableList (Fl F) M
  | add o m => l.add o m
  | clear => l.clear

/-- Specification: the pairs added since the last `clear`. -/
def ListOp.pairs (ps : List (Hittable (Fl F) × M)) : ListOp F M → List (Hittable (Fl F) × M)
  | add o m => ps ++ [(o, m)]
  | clear => []

/-- C41: after any history the two vectors are the components of the pairs added since the last `clear`. -/
theorem C41_aligned (ops : List (ListOp F M)) :
    let l := ops.foldl ListOp.run (HittableList.empty : HittableList (Fl F) M)
    let ps := ops.foldl ListOp.pairs []
    l.objects = ps.map Prod.fst ∧ l.materials = ps.map Prod.snd ∧ l.materials.length = l.objects.length := by
  have key : ∀ (ops : List (ListOp F M)) (l : HittableList (Fl F) M) (ps : List (Hittable (Fl F) × M)),
      l.objects = ps.map Prod.fst → l.materials = ps.map Prod.snd →
      (ops.foldl ListOp.run l).objects = (ops.foldl ListOp.pairs ps).map Prod.fst ∧
      (ops.foldl ListOp.run l).materials = (ops.foldl ListOp.pairs ps).map Prod.snd := by
    intro ops
    induction ops with
    | nil => intro l ps h1 h2; exact ⟨h1, h2⟩
    | cons op ops ih =>
      intro l ps h1 h2
      rw [List.foldl_cons, List.foldl_cons]
      cases op with
      | add o m =>
        exact ih _ _ (by simp [ListOp.run, ListOp.pairs, HittableList.add, h1])
          (by simp [ListOp.run, ListOp.pairs, HittableList.add, h2])
      | clear => exact ih _ _ rfl rfl
  obtain ⟨h1, h2⟩ := key ops HittableList.empty [] rfl rfl
  exact ⟨h1, h2, by rw [h1, h2]; simp⟩

/-- C41: consequently `hit` never indexes `materials` out of range, whatever the history and the objects. -/
theorem C41_no_out_of_range (ops : List (ListOp F M)) (r : Ray (Fl F)) (tmin tmax : Fl F) (rec temp0 : HitRecord (Fl F)) :
    ((ops.foldl ListOp.run (HittableList.empty : HittableList (Fl F) M)).hit r tmin tmax rec temp0).1 ≠ none := by
  obtain ⟨-, -, hal⟩ := C41_aligned (M := M) ops
  generalize ops.foldl ListOp.run (HittableList.empty : HittableList (Fl F) M) = l at *
  have hinv := HittableList.loop_inv r tmin tmax rec l.objects l.objects 0 ⟨temp0, tmax, rec, none⟩ rfl
    (fun _ => ⟨rfl, rfl⟩) (by intro j hj; cases hj)
  unfold HittableList.hit
  dsimp only at hinv ⊢
  generalize HittableList.loop r tmin l.objects 0 ⟨temp0, tmax, rec, none⟩ = s at *
  cases hs : s.idx with
  | none => simp
  | some i =>
    obtain ⟨-, -, o, ho, -⟩ := hinv.2 i hs
    have : i < l.materials.length := by rw [hal]; exact (List.getElem?_eq_some_iff.mp ho).1
    simp [List.getElem?_eq_getElem this]

example : ([ListOp.add (spike (fin 1)) 7, .clear, .add (spike (fin 2)) 8].foldl ListOp.run
    (HittableList.empty : HittableList (Fl binary64) ℕ)).materials = [8] := by
  rw [(C41_aligned _).2.1]; rfl

/-! ## C42 -/

/-- Specification: box `a` lies inside box `b` (finite or infinite corners, no NaN). -/
def BoxLe (a b : AABB (Fl F)) : Prop := ∀ i, Scalar.le (b.lo i) (a.lo i) = true ∧ Scalar.le (a.hi i) (b.hi i) = true

/-- No NaN coordinate. -/
def BoxOK (a : AABB (Fl F)) : Prop := ∀ i, isNaN (a.lo i) = false ∧ isNaN (a.hi i) = false

theorem BoxLe.refl {a : AABB (Fl F)} (h : BoxOK a) : BoxLe a a := fun i => ⟨Fl.le_refl (h i).1, Fl.le_refl (h i).2⟩
theorem BoxLe.trans {a b c : AABB (Fl F)} (h1 : BoxLe a b) (h2 : BoxLe b c) : BoxLe a c :=
  fun i => ⟨Fl.le_trans (h2 i).1 (h1 i).1, Fl.le_trans (h1 i).2 (h2 i).2⟩

theorem fmin_spec {a b : Fl F} (ha : isNaN a = false) (hb : isNaN b = false) :
    isNaN (fmin a b) = false ∧ Scalar.le (fmin a b) a = true ∧ Scalar.le (fmin a b) b = true ∧
    ∀ c, Scalar.le c a = true → Scalar.le c b = true → Scalar.le c (fmin a b) = true := by
  unfold fmin
  simp only [ha, hb, Bool.false_eq_true, if_false]
  split_ifs with h
  · exact ⟨hb, Fl.le_of_lt h, Fl.le_refl hb, fun c _ h2 => h2⟩
  · exact ⟨ha, Fl.le_refl ha, Fl.le_of_not_lt hb ha (by simpa using h), fun c h1 _ => h1⟩
theorem fmax_spec {a b : Fl F} (ha : isNaN a = false) (hb : isNaN b = false) :
    isNaN (fmax a b) = false ∧ Scalar.le a (fmax a b) = true ∧ Scalar.le b (fmax a b) = true ∧
    ∀ c, Scalar.le a c = true → Scalar.le b c = true → Scalar.le (fmax a b) c = true := by
  unfold fmax
  simp only [ha, hb, Bool.false_eq_true, if_false]
  split_ifs with h
  · exact ⟨hb, Fl.le_of_lt h, Fl.le_refl hb, fun c _ h2 => h2⟩
  · exact ⟨ha, Fl.le_refl ha, Fl.le_of_not_lt ha hb (by simpa using h), fun c h1 _ => h1⟩

/-- `surrounding_box` is the least upper bound. -/
theorem surrounding_spec {a b : AABB (Fl F)} (ha : BoxOK a) (hb : BoxOK b) :
    BoxOK (AABB.surrounding a b) ∧ BoxLe a (AABB.surrounding a b) ∧ BoxLe b (AABB.surrounding a b) ∧
    ∀ c, BoxLe a c → BoxLe b c → BoxLe (AABB.surrounding a b) c := by
  refine ⟨fun i => ⟨(fmin_spec (ha i).1 (hb i).1).1, (fmax_spec (ha i).2 (hb i).2).1⟩,
    fun i => ⟨(fmin_spec (ha i).1 (hb i).1).2.1, (fmax_spec (ha i).2 (hb i).2).2.1⟩,
    fun i => ⟨(fmin_spec (ha i).1 (hb i).1).2.2.1, (fmax_spec (ha i).2 (hb i).2).2.2.1⟩,
    fun c h1 h2 i => ⟨(fmin_spec (ha i).1 (hb i).1).2.2.2 _ (h1 i).1 (h2 i).1,
      (fmax_spec (ha i).2 (hb i).2).2.2.2 _ (h1 i).2 (h2 i).2⟩⟩

theorem boxLoop_spec (os : List (Hittable (Fl F))) (hb : ∀ o ∈ os, o.bbox.1 = true ∧ BoxOK o.bbox.2) :
    ∀ out : AABB (Fl F), BoxOK out →
      (HittableList.boxLoop os false out).1 = true ∧ BoxOK (HittableList.boxLoop os false out).2 ∧
      BoxLe out (HittableList.boxLoop os false out).2 ∧
      (∀ o ∈ os, BoxLe o.bbox.2 (HittableList.boxLoop os false out).2) ∧
      ∀ c, BoxLe out c → (∀ o ∈ os, BoxLe o.bbox.2 c) → BoxLe (HittableList.boxLoop os false out).2 c := by
  induction os with
  | nil => intro out ho; exact ⟨rfl, ho, BoxLe.refl ho, by simp, fun c h _ => h⟩
  | cons o os ih =>
    intro out ho
    obtain ⟨hf, hok⟩ := hb o (by simp)
    obtain ⟨s1, s2, s3, s4⟩ := surrounding_spec ho hok
    obtain ⟨i1, i2, i3, i4, i5⟩ := ih (fun o' h => hb o' (by simp [h])) _ s1
    rw [HittableList.boxLoop, if_pos hf]
    refine ⟨i1, i2, s2.trans i3, ?_, ?_⟩
    · intro o' ho'
      rcases List.mem_cons.mp ho' with rfl | h
      · exact s3.trans i3
      · exact i4 o' h
    · intro c h1 h2
      exact i5 c (s4 c h1 (h2 o (by simp))) (fun o' h => h2 o' (by simp [h]))

/-- C42, any rounding: if the list is nonempty and every member supplies a NaN-free box, the result contains every
member box and is contained in every box that does. -/
theorem C42_least_box (l : HittableList (Fl F) M) (out : AABB (Fl F)) (hne : l.objects ≠ [])
    (hb : ∀ o ∈ l.objects, o.bbox.1 = true ∧ BoxOK o.bbox.2) :
    (l.boundingBox out).1 = true ∧ (∀ o ∈ l.objects, BoxLe o.bbox.2 (l.boundingBox out).2) ∧
    ∀ c, (∀ o ∈ l.objects, BoxLe o.bbox.2 c) → BoxLe (l.boundingBox out).2 c := by
  unfold HittableList.boundingBox
  cases hos : l.objects with
  | nil => exact absurd hos hne
  | cons o os =>
    rw [hos] at hb
    obtain ⟨hf, hok⟩ := hb o (by simp)
    obtain ⟨i1, i2, i3, i4, i5⟩ := boxLoop_spec os (fun o' h => hb o' (by simp [h])) o.bbox.2 hok
    dsimp only
    rw [HittableList.boxLoop, if_pos hf]
    refine ⟨i1, ?_, ?_⟩
    · intro o' ho'
      rcases List.mem_cons.mp ho' with rfl | h
      · exact i3
      · exact i4 o' h
    · intro c hc
      exact i5 c (hc o (by simp)) (fun o' h => hc o' (by simp [h]))

/-- C42: an empty list, or a member without a box, gives `false`. -/
theorem C42_no_box (l : HittableList (Fl F) M) (out : AABB (Fl F))
    (h : l.objects = [] ∨ ∃ o ∈ l.objects, o.bbox.1 = false) : (l.boundingBox out).1 = false := by
  have key : ∀ (os : List (Hittable (Fl F))) (b : Bool) (out : AABB (Fl F)), (∃ o ∈ os, o.bbox.1 = false) →
      (HittableList.boxLoop os b out).1 = false := by
    intro os
    induction os with
    | nil => intro b out h; simp at h
    | cons o os ih =>
      intro b out ⟨o', ho', hf⟩
      rw [HittableList.boxLoop]
      by_cases hc : o.bbox.1 = true
      · rw [if_pos hc]
        rcases List.mem_cons.mp ho' with rfl | h
        · rw [hc] at hf; cases hf
        · exact ih _ _ ⟨o', h, hf⟩
      · rw [if_neg hc]
  unfold HittableList.boundingBox
  rcases h with h | h
  · rw [h]
  · cases hos : l.objects with
    | nil => rfl
    | cons o os => rw [hos] at h; exact key _ _ _ h

example : ∀ o ∈ [spike (fin 1 : Fl binary64), spike (fin 2)], o.bbox.1 = true ∧ BoxOK o.bbox.2 := by
  intro o ho
  simp at ho
  rcases ho with rfl | rfl <;> exact ⟨rfl, fun i => ⟨rfl, rfl⟩⟩

end DRT
