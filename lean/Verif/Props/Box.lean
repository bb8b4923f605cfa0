import Mathlib.Tactic.IntervalCases
import Verif.Lemmas.Surface
import Verif.Model.Scenes
import Verif.Props.HittableList
import Verif.Props.Rect

/-! # C106, C107: lists of surfaces, and the box -/

namespace DRT
open Scalar Fl

variable {F : Fmt} {M : Type}

/-- The parameter lies in the half-open range of a list: not below `tmin`, below `tmax`. -/
def Before (t : Fl F × Fl F) (x : ℝ) : Prop := Scalar.le t.1 (fin x) = true ∧ Scalar.lt (fin x) t.2 = true

/-- C106: let every object of a list find the nearest point of its surface along a ray; hits whose parameter is not a
number do not count. Then the list finds nothing exactly if
the ray meets no surface in the range, and otherwise it yields the material of an object whose surface contains the
first point at which the ray meets any of the surfaces, together with the parameter and the point. -/
theorem C106_scene_number (l : HittableList (Fl F) M) (hal : l.materials.length = l.objects.length) (S : ℕ → Set (Fin 3 → ℝ))
    (o d : Fin 3 → ℝ) (tmin tmax : Fl F) (hm : isNaN tmax = false) (rec temp0 : HitRecord (Fl F))
    (hS : ∀ k ob, l.objects[k]? = some ob → FindsNumber (S k) o d tmin (ob.hit ⟨cv o, cv d⟩ tmin)) :
    ((l.hit ⟨cv o, cv d⟩ tmin tmax rec temp0).1 = some none ↔
      ∀ k < l.objects.length, ∀ z, Before (tmin, tmax) z → o + z • d ∉ S k) ∧
    (∀ m, (l.hit ⟨cv o, cv d⟩ tmin tmax rec temp0).1 = some (some m) → ∃ (k : ℕ) (z : ℝ), l.materials[k]? = some m ∧
      (l.hit ⟨cv o, cv d⟩ tmin tmax rec temp0).2.t = fin z ∧ (l.hit ⟨cv o, cv d⟩ tmin tmax rec temp0).2.p = cv (o + z • d) ∧
      o + z • d ∈ S k ∧ Before (tmin, tmax) z ∧
      ∀ j < l.objects.length, ∀ w, Before (tmin, tmax) w → o + w • d ∈ S j → z ≤ w) ∧
    (l.hit ⟨cv o, cv d⟩ tmin tmax rec temp0).1 ≠ none := by
  classical
  -- the first parameter of each object
  have hfirst : ∀ k, ∃ first : Option (Fl F), ∀ ob, l.objects[k]? = some ob → ReportsNumber ob ⟨cv o, cv d⟩ tmin first ∧
      (∀ t, first = some t ↔ ∃ z, t = fin z ∧ InRange (tmin, pinf) z ∧ o + z • d ∈ S k ∧
        ∀ w, InRange (tmin, pinf) w → o + w • d ∈ S k → z ≤ w) ∧
      (first = none ↔ ¬ ∃ z, InRange (tmin, (pinf : Fl F)) z ∧ o + z • d ∈ S k) := by
    intro k
    cases h : l.objects[k]? with
    | none => exact ⟨none, fun ob hob => by cases hob⟩
    | some ob =>
      obtain ⟨first, h1⟩ := (hS k ob h).reports
      exact ⟨first, fun ob' hob => by cases hob; exact h1⟩
  choose first hf using hfirst
  obtain ⟨h1, h2, h3⟩ := C39_nearest_number l hal ⟨cv o, cv d⟩ tmin tmax rec temp0 first (fun k ob h => (hf k ob h).1)
  have hget : ∀ k < l.objects.length, ∃ ob, l.objects[k]? = some ob := fun k hk => ⟨_, List.getElem?_eq_getElem hk⟩
  -- the ray meets surface `k` before `tmax` iff its first parameter is there
  have hmeet : ∀ k < l.objects.length, ∀ w, InRange (tmin, (pinf : Fl F)) w → o + w • d ∈ S k →
      ∃ z, first k = some (fin z) ∧ z ≤ w := by
    intro k hk w hw hwS
    obtain ⟨ob, hob⟩ := hget k hk
    obtain ⟨-, h4, h5⟩ := hf k ob hob
    cases hfk : first k with
    | none => exact absurd ⟨w, hw, hwS⟩ (h5.mp hfk)
    | some t =>
      obtain ⟨z, rfl, -, -, hz⟩ := (h4 t).mp hfk
      exact ⟨z, rfl, hz w hw hwS⟩
  have hltle : ∀ {a b : ℝ} {t : Fl F}, a ≤ b → Scalar.lt (fin b) t = true → Scalar.lt (fin a) t = true := by
    intro a b t hab hb
    cases t with
    | nan => simp at hb
    | ninf => simp at hb
    | pinf => simp
    | fin c => simp only [lt_fin, decide_eq_true_eq] at hb ⊢; linarith
  refine ⟨?_, ?_, h3⟩
  · rw [h1]
    constructor
    · intro h k hk z hz hzS
      obtain ⟨a, ha, haz⟩ := hmeet k hk z ⟨hz.1, by simp⟩ hzS
      have := h k hk _ ha
      rw [hltle haz hz.2] at this
      cases this
    · intro h k hk t ht
      obtain ⟨ob, hob⟩ := hget k hk
      obtain ⟨z, rfl, hz, hzS, -⟩ := ((hf k ob hob).2.1 t).mp ht
      rw [← Bool.not_eq_true]
      intro hlt
      exact h k hk z ⟨hz.1, hlt⟩ hzS
  · intro m hmm
    obtain ⟨k, hk, hft, hlt, ⟨ob, hob, c, temp, hlc, hhit⟩, hmin, -⟩ := h2 m hmm
    obtain ⟨z, hz, hzr, hzS, -⟩ := ((hf k ob hob).2.1 _).mp hft
    refine ⟨k, z, hk, hz, ?_, hzS, ⟨hzr.1, by rw [← hz]; exact hlt⟩, ?_⟩
    · obtain ⟨w, hw, hwp, -⟩ := (hS k ob hob c temp (not_nan_of_lt_right hlc)).2 (by rw [hhit]) (by rw [hhit, hz]; exact fun h => by cases h)
      rw [hhit] at hw hwp
      rw [hz, fin_inj] at hw
      rw [hwp, hw]
    · intro j hj w hw hwS
      obtain ⟨a, ha, haw⟩ := hmeet j hj w ⟨hw.1, by simp⟩ hwS
      have := hmin j hj _ ha
      rw [hz, lt_fin, decide_eq_false_iff_not, not_lt] at this
      linarith

/-- C106: let every object of a list find the nearest point of its surface along a ray. Then the list finds nothing exactly if
the ray meets no surface in the range, and otherwise it yields the material of an object whose surface contains the
first point at which the ray meets any of the surfaces, together with the parameter and the point. -/
theorem C106_scene (l : HittableList (Fl F) M) (hal : l.materials.length = l.objects.length) (S : ℕ → Set (Fin 3 → ℝ))
    (o d : Fin 3 → ℝ) (tmin tmax : Fl F) (hm : isNaN tmax = false) (rec temp0 : HitRecord (Fl F))
    (hS : ∀ k ob, l.objects[k]? = some ob → FindsNearest (S k) o d tmin (ob.hit ⟨cv o, cv d⟩ tmin)) :
    ((l.hit ⟨cv o, cv d⟩ tmin tmax rec temp0).1 = some none ↔
      ∀ k < l.objects.length, ∀ z, Before (tmin, tmax) z → o + z • d ∉ S k) ∧
    (∀ m, (l.hit ⟨cv o, cv d⟩ tmin tmax rec temp0).1 = some (some m) → ∃ (k : ℕ) (z : ℝ), l.materials[k]? = some m ∧
      (l.hit ⟨cv o, cv d⟩ tmin tmax rec temp0).2.t = fin z ∧ (l.hit ⟨cv o, cv d⟩ tmin tmax rec temp0).2.p = cv (o + z • d) ∧
      o + z • d ∈ S k ∧ Before (tmin, tmax) z ∧
      ∀ j < l.objects.length, ∀ w, Before (tmin, tmax) w → o + w • d ∈ S j → z ≤ w) ∧
    (l.hit ⟨cv o, cv d⟩ tmin tmax rec temp0).1 ≠ none :=
  C106_scene_number l hal S o d tmin tmax hm rec temp0 fun k ob h => (hS k ob h).number

/-- Two squares, one above the other, and a ray from above: the material is the upper one's. -/
example (rec temp0 : HitRecord (Fl exact64)) :
    (((HittableList.empty.add (Rect.xy (Rect.ofReal (F := exact64) 0 1 0 1 0)) "low").add
      (Rect.xy (Rect.ofReal 0 1 0 1 1)) "high").hit ⟨cv ![1/2, 1/2, 3], cv ![0, 0, -1]⟩ (fin 0) pinf rec temp0).1 =
      some (some "high") := by
  obtain ⟨l, hl⟩ : ∃ l, l = (HittableList.empty.add (Rect.xy (Rect.ofReal (F := exact64) 0 1 0 1 0)) "low").add
    (Rect.xy (Rect.ofReal 0 1 0 1 1)) "high" := ⟨_, rfl⟩
  rw [← hl]
  have hlen : l.objects.length = 2 := by rw [hl]; rfl
  have hS : ∀ (k : ℕ) (ob : Hittable (Fl exact64)), l.objects[k]? = some ob →
      FindsNearest (rectSet 0 1 2 0 1 0 1 (k : ℝ)) ![1/2, 1/2, 3] ![0, 0, -1] (fin 0)
        (ob.hit ⟨cv ![1/2, 1/2, 3], cv ![0, 0, -1]⟩ (fin 0)) := by
    intro k ob hk
    have hk2 : k < 2 := hlen ▸ (List.getElem?_eq_some_iff.mp hk).1
    rw [hl] at hk
    interval_cases k <;> cases hk
    · rw [Nat.cast_zero]
      exact (C59_exact_partial (F := exact64) _ _ _ _ _ _ _ (fin 0) rfl).1 (by show (-1:ℝ) ≠ 0; norm_num)
    · rw [Nat.cast_one]
      exact (C59_exact_partial (F := exact64) _ _ _ _ _ _ _ (fin 0) rfl).1 (by show (-1:ℝ) ≠ 0; norm_num)
  have hset : ∀ (k : ℕ) (z : ℝ), (![1/2, 1/2, 3] + z • ![0, 0, -1] : Fin 3 → ℝ) ∈ rectSet 0 1 2 0 1 0 1 (k : ℝ) ↔ z = 3 - k := by
    intro k z
    unfold rectSet
    simp
    constructor
    · intro h; linarith [h.1]
    · intro h; exact ⟨by linarith, by norm_num⟩
  obtain ⟨h1, h2, h3⟩ := C106_scene l (by rw [hl]; rfl) (fun k => rectSet 0 1 2 0 1 0 1 (k : ℝ)) _ _ (fin 0) pinf rfl rec temp0 hS
  have hb : ∀ z : ℝ, 0 ≤ z → Before ((fin 0 : Fl exact64), pinf) z := fun z hz => by simpa [Before] using hz
  rcases hc : (l.hit ⟨cv ![1/2, 1/2, 3], cv ![0, 0, -1]⟩ (fin 0) pinf rec temp0).1 with _ | _ | m
  · exact absurd hc h3
  · exact absurd ((hset 0 3).mpr (by norm_num)) (h1.mp hc 0 (by rw [hlen]; norm_num) 3 (hb 3 (by norm_num)))
  · obtain ⟨k, z, hk, -, -, hz, -, hmin⟩ := h2 m hc
    have h4 := hmin 1 (by rw [hlen]; norm_num) 2 (hb 2 (by norm_num)) ((hset 1 2).mpr (by norm_num))
    have h5 := (hset k z).mp hz
    have h6 : (1:ℝ) ≤ k := by linarith
    have h7 : 1 ≤ k := by exact_mod_cast h6
    have h8 : k < 2 := by
      have := (List.getElem?_eq_some_iff.mp hk).1
      rw [hl] at this
      exact this
    obtain rfl : k = 1 := by omega
    rw [hl] at hk
    cases hk
    rfl

/-! ## the box -/

/-- The surface of the cuboid with the corners `lo` and `hi`. -/
def cuboidSet (lo hi : Fin 3 → ℝ) : Set (Fin 3 → ℝ) := {p | (∀ i, lo i ≤ p i ∧ p i ≤ hi i) ∧ ∃ i, p i = lo i ∨ p i = hi i}

/-- The model object with real corners. -/
def Cuboid.ofReal (lo hi : Fin 3 → ℝ) : Cuboid (Fl F) := ⟨cv lo, cv hi⟩

/-- The face that the `k`-th side covers. -/
def cuboidFace (lo hi : Fin 3 → ℝ) : ℕ → Set (Fin 3 → ℝ)
  | 0 => rectSet 0 1 2 (lo 0) (hi 0) (lo 1) (hi 1) (hi 2)
  | 1 => rectSet 0 1 2 (lo 0) (hi 0) (lo 1) (hi 1) (lo 2)
  | 2 => rectSet 0 2 1 (lo 0) (hi 0) (lo 2) (hi 2) (hi 1)
  | 3 => rectSet 0 2 1 (lo 0) (hi 0) (lo 2) (hi 2) (lo 1)
  | 4 => rectSet 1 2 0 (lo 1) (hi 1) (lo 2) (hi 2) (hi 0)
  | 5 => rectSet 1 2 0 (lo 1) (hi 1) (lo 2) (hi 2) (lo 0)
  | _ => ∅

theorem cuboidFace_union {lo hi : Fin 3 → ℝ} (hlh : ∀ i, lo i ≤ hi i) (p : Fin 3 → ℝ) :
    p ∈ cuboidSet lo hi ↔ ∃ k < 6, p ∈ cuboidFace lo hi k := by
  constructor
  · rintro ⟨hb, i, hi'⟩
    fin_cases i <;> rcases hi' with h | h
    · exact ⟨5, by norm_num, h, hb 1, hb 2⟩
    · exact ⟨4, by norm_num, h, hb 1, hb 2⟩
    · exact ⟨3, by norm_num, h, hb 0, hb 2⟩
    · exact ⟨2, by norm_num, h, hb 0, hb 2⟩
    · exact ⟨1, by norm_num, h, hb 0, hb 1⟩
    · exact ⟨0, by norm_num, h, hb 0, hb 1⟩
  · have h3 : ∀ P : Fin 3 → Prop, P 0 → P 1 → P 2 → ∀ i, P i := by
      intro P h0 h1 h2 i; fin_cases i <;> assumption
    have hl := hlh
    rintro ⟨k, hk, hp⟩
    interval_cases k
    · exact ⟨h3 _ hp.2.1 hp.2.2 (by rw [hp.1]; exact ⟨hl 2, le_rfl⟩), 2, Or.inr hp.1⟩
    · exact ⟨h3 _ hp.2.1 hp.2.2 (by rw [hp.1]; exact ⟨le_rfl, hl 2⟩), 2, Or.inl hp.1⟩
    · exact ⟨h3 _ hp.2.1 (by rw [hp.1]; exact ⟨hl 1, le_rfl⟩) hp.2.2, 1, Or.inr hp.1⟩
    · exact ⟨h3 _ hp.2.1 (by rw [hp.1]; exact ⟨le_rfl, hl 1⟩) hp.2.2, 1, Or.inl hp.1⟩
    · exact ⟨h3 _ (by rw [hp.1]; exact ⟨hl 0, le_rfl⟩) hp.2.1 hp.2.2, 0, Or.inr hp.1⟩
    · exact ⟨h3 _ (by rw [hp.1]; exact ⟨le_rfl, hl 0⟩) hp.2.1 hp.2.2, 0, Or.inl hp.1⟩

/-- The part of the surface that a ray in direction `d` crosses: the faces that it is not parallel to. -/
def crossedSet (lo hi d : Fin 3 → ℝ) : Set (Fin 3 → ℝ) :=
  {p | (∀ i, lo i ≤ p i ∧ p i ≤ hi i) ∧ ∃ i, d i ≠ 0 ∧ (p i = lo i ∨ p i = hi i)}

/-- The coordinate across the `k`-th side. -/
def cuboidAxis : ℕ → Fin 3
  | 0 => 2
  | 1 => 2
  | 2 => 1
  | 3 => 1
  | _ => 0

theorem crossedSet_union {lo hi : Fin 3 → ℝ} (hlh : ∀ i, lo i ≤ hi i) (d p : Fin 3 → ℝ) :
    p ∈ crossedSet lo hi d ↔ ∃ k < 6, d (cuboidAxis k) ≠ 0 ∧ p ∈ cuboidFace lo hi k := by
  constructor
  · rintro ⟨hb, i, hd, hi'⟩
    fin_cases i <;> rcases hi' with h | h
    · exact ⟨5, by norm_num, hd, h, hb 1, hb 2⟩
    · exact ⟨4, by norm_num, hd, h, hb 1, hb 2⟩
    · exact ⟨3, by norm_num, hd, h, hb 0, hb 2⟩
    · exact ⟨2, by norm_num, hd, h, hb 0, hb 2⟩
    · exact ⟨1, by norm_num, hd, h, hb 0, hb 1⟩
    · exact ⟨0, by norm_num, hd, h, hb 0, hb 1⟩
  · rintro ⟨k, hk, hd, hp⟩
    refine ⟨((cuboidFace_union hlh p).mpr ⟨k, hk, hp⟩).1, ?_⟩
    interval_cases k
    · exact ⟨2, hd, Or.inr hp.1⟩
    · exact ⟨2, hd, Or.inl hp.1⟩
    · exact ⟨1, hd, Or.inr hp.1⟩
    · exact ⟨1, hd, Or.inl hp.1⟩
    · exact ⟨0, hd, Or.inr hp.1⟩
    · exact ⟨0, hd, Or.inl hp.1⟩

/-- Up to NaN hits a rectangle finds its points on every ray that is not parallel to it, and nothing on the others. -/
theorem Rect.number [F.Exact] {S : Set (Fin 3 → ℝ)} {n : Fin 3} {k : ℝ} {o d : Fin 3 → ℝ} {tmin : Fl F}
    {g : Fl F → HitRecord (Fl F) → Bool × HitRecord (Fl F)} (h1 : d n ≠ 0 → FindsNearest S o d tmin g)
    (h2 : d n = 0 → o n ≠ k → ∀ tmax rec, g tmax rec = (false, rec))
    (h3 : d n = 0 → o n = k → ∀ tmax rec, (g tmax rec).2.t = Fl.nan) :
    FindsNumber {p | d n ≠ 0 ∧ p ∈ S} o d tmin g := by
  rcases eq_or_ne (d n) 0 with h0 | h0
  · have hS : {p | d n ≠ 0 ∧ p ∈ S} = ∅ := by
      ext p
      simp [h0]
    rw [hS]
    intro tmax rec _
    rcases eq_or_ne (o n) k with hk | hk
    · have := h3 h0 hk tmax rec
      exact ⟨⟨fun h => absurd this h.2, fun ⟨_, _, h⟩ => h.elim⟩, fun _ h => absurd this h⟩
    · rw [h2 h0 hk]
      exact ⟨⟨fun h => absurd h.1 Bool.false_ne_true, fun ⟨_, _, h⟩ => h.elim⟩, fun h => absurd h Bool.false_ne_true⟩
  · have hS : {p | d n ≠ 0 ∧ p ∈ S} = S := by
      ext p
      simp [h0]
    rw [hS]
    exact (h1 h0).number

/-- C107: for every ray the box finds the first point in the range at which the ray crosses a face, faces that contain
the ray or are parallel to it not counting. -/
theorem C107_crossing [F.Exact] (lo hi : Fin 3 → ℝ) (hlh : ∀ i, lo i ≤ hi i) (o d : Fin 3 → ℝ) (hd : d ≠ 0)
    (tmin tmax : Fl F) (hn : isNaN tmin = false) (hm : isNaN tmax = false) (rec temp0 : HitRecord (Fl F)) :
    let h := (Cuboid.ofReal lo hi).hit temp0 ⟨cv o, cv d⟩ tmin tmax rec
    (h.1 = true ↔ ∃ z, Before (tmin, tmax) z ∧ o + z • d ∈ crossedSet lo hi d) ∧
    (h.1 = true → ∃ z, h.2.t = fin z ∧ h.2.p = cv (o + z • d) ∧ Before (tmin, tmax) z ∧ o + z • d ∈ crossedSet lo hi d ∧
      ∀ w, Before (tmin, tmax) w → o + w • d ∈ crossedSet lo hi d → z ≤ w) ∧
    (h.1 = false → h.2 = rec) := by
  intro h
  have hS : ∀ k ob, ((Cuboid.ofReal lo hi : Cuboid (Fl F)).sides ()).objects[k]? = some ob →
      FindsNumber {p | d (cuboidAxis k) ≠ 0 ∧ p ∈ cuboidFace lo hi k} o d tmin (ob.hit ⟨cv o, cv d⟩ tmin) := by
    intro k ob hk
    have hlen : k < 6 := by
      have := (List.getElem?_eq_some_iff.mp hk).1
      simpa [Cuboid.sides, HittableList.add, HittableList.empty] using this
    have hp := fun a0 a1 b0 b1 k tmax rec => C59_parallel (F := F) a0 a1 b0 b1 k o d hd tmin tmax rec
    have hc := fun a0 a1 b0 b1 k tmax rec => C59_coplanar_false (F := F) a0 a1 b0 b1 k o d tmin tmax rec
    interval_cases k <;> (
      simp only [Cuboid.sides, HittableList.add, HittableList.empty, List.nil_append, List.cons_append, List.getElem?_cons_zero,
        List.getElem?_cons_succ, Option.some.injEq] at hk
      subst hk)
    · exact Rect.number (C59_exact_partial (F := F) _ _ _ _ _ o d tmin hn).1 (fun a b _ _ => (hp _ _ _ _ _ _ _).1 a b)
        (fun a b _ _ => ((hc _ _ _ _ _ _ _).1 a b).2)
    · exact Rect.number (C59_exact_partial (F := F) _ _ _ _ _ o d tmin hn).1 (fun a b _ _ => (hp _ _ _ _ _ _ _).1 a b)
        (fun a b _ _ => ((hc _ _ _ _ _ _ _).1 a b).2)
    · exact Rect.number (C59_exact_partial (F := F) _ _ _ _ _ o d tmin hn).2.1 (fun a b _ _ => (hp _ _ _ _ _ _ _).2.1 a b)
        (fun a b _ _ => ((hc _ _ _ _ _ _ _).2.1 a b).2)
    · exact Rect.number (C59_exact_partial (F := F) _ _ _ _ _ o d tmin hn).2.1 (fun a b _ _ => (hp _ _ _ _ _ _ _).2.1 a b)
        (fun a b _ _ => ((hc _ _ _ _ _ _ _).2.1 a b).2)
    · exact Rect.number (C59_exact_partial (F := F) _ _ _ _ _ o d tmin hn).2.2 (fun a b _ _ => (hp _ _ _ _ _ _ _).2.2 a b)
        (fun a b _ _ => ((hc _ _ _ _ _ _ _).2.2 a b).2)
    · exact Rect.number (C59_exact_partial (F := F) _ _ _ _ _ o d tmin hn).2.2 (fun a b _ _ => (hp _ _ _ _ _ _ _).2.2 a b)
        (fun a b _ _ => ((hc _ _ _ _ _ _ _).2.2 a b).2)
  have hl : ((Cuboid.ofReal lo hi : Cuboid (Fl F)).sides ()).objects.length = 6 := rfl
  obtain ⟨h1, h2, h3⟩ := C106_scene_number ((Cuboid.ofReal lo hi : Cuboid (Fl F)).sides ()) rfl (fun k => {p | d (cuboidAxis k) ≠ 0 ∧ p ∈ cuboidFace lo hi k}) o d tmin tmax hm rec temp0 hS
  have h4 := C40_miss_untouched ((Cuboid.ofReal lo hi : Cuboid (Fl F)).sides ()) ⟨cv o, cv d⟩ tmin tmax rec temp0
  rw [hl] at h1 h2
  have e1 : h.1 = true ↔ (((Cuboid.ofReal lo hi : Cuboid (Fl F)).sides ()).hit ⟨cv o, cv d⟩ tmin tmax rec temp0).1 = some (some ()) := by
    show ((((Cuboid.ofReal lo hi : Cuboid (Fl F)).sides ()).hit ⟨cv o, cv d⟩ tmin tmax rec temp0).1 == some (some ())) = true ↔ _
    rw [beq_iff_eq]
  have e2 : h.2 = (((Cuboid.ofReal lo hi : Cuboid (Fl F)).sides ()).hit ⟨cv o, cv d⟩ tmin tmax rec temp0).2 := rfl
  rw [e1, e2]
  have e3 : h.1 = false ↔ (((Cuboid.ofReal lo hi : Cuboid (Fl F)).sides ()).hit ⟨cv o, cv d⟩ tmin tmax rec temp0).1 = some none := by
    rw [← Bool.not_eq_true, e1]
    rcases hc : (((Cuboid.ofReal lo hi : Cuboid (Fl F)).sides ()).hit ⟨cv o, cv d⟩ tmin tmax rec temp0).1 with _ | _ | _
    · exact absurd hc h3
    · simp
    · simp
  refine ⟨?_, ?_, fun h5 => h4 (e3.mp h5)⟩
  · rw [← e1, ← not_iff_not, Bool.not_eq_true, e3, h1]
    constructor
    · rintro h5 ⟨z, hz, hzS⟩
      obtain ⟨k, hk, hkS⟩ := (crossedSet_union hlh d _).mp hzS
      exact h5 k hk z hz hkS
    · intro h5 k hk z hz hzS
      exact h5 ⟨z, hz, (crossedSet_union hlh d _).mpr ⟨k, hk, hzS⟩⟩
  · intro h5
    obtain ⟨k, z, -, hz, hp, hzS, hzr, hmin⟩ := h2 () h5
    have hk : k < 6 := by
      by_contra hk
      have : cuboidFace lo hi k = ∅ := by
        obtain ⟨j, rfl⟩ := Nat.exists_eq_add_of_le (not_lt.mp hk)
        rw [add_comm]
        rfl
      have h7 := hzS.2
      rw [this] at h7
      exact h7
    refine ⟨z, hz, hp, hzr, (crossedSet_union hlh d _).mpr ⟨k, hk, hzS⟩, fun w hw hwS => ?_⟩
    obtain ⟨j, hj, hjS⟩ := (crossedSet_union hlh d _).mp hwS
    exact hmin j hj w hw hjS

/-- A ray along the third axis enters the unit cube. -/
example (rec temp0 : HitRecord (Fl exact64)) :
    ((Cuboid.ofReal (F := exact64) 0 1).hit temp0 ⟨cv ![1 / 2, 1 / 2, -1], cv ![0, 0, 1]⟩ (fin 0) pinf rec).1 = true := by
  refine (C107_crossing 0 1 (fun i => zero_le_one) ![1 / 2, 1 / 2, -1] ![0, 0, 1] (fun h => by simpa using congrFun h 2) (fin 0) pinf rfl rfl rec
    temp0).1.2 ⟨1, by simp [Before], fun i => ?_, 2, by simp, Or.inl ?_⟩
  · fin_cases i <;> norm_num
  · simp

/-- A ray that starts outside the cuboid meets the surface first at a face that it crosses. -/
theorem crossed_before {lo hi o d : Fin 3 → ℝ} {t0 w : ℝ} (ht : t0 ≤ w)
    (hout : ¬ ∀ i, lo i ≤ (o + t0 • d) i ∧ (o + t0 • d) i ≤ hi i) (hw : ∀ i, lo i ≤ (o + w • d) i ∧ (o + w • d) i ≤ hi i) :
    ∃ z, t0 ≤ z ∧ z ≤ w ∧ o + z • d ∈ crossedSet lo hi d := by
  -- the parameter at which the ray enters the slab of coordinate `i`
  have hent : ∀ i, ∃ z, t0 ≤ z ∧ z ≤ w ∧ (lo i ≤ o i + z * d i ∧ o i + z * d i ≤ hi i) ∧
      (z = t0 ∨ d i ≠ 0 ∧ (o i + z * d i = lo i ∨ o i + z * d i = hi i)) := by
    intro i
    obtain ⟨hw1, hw2⟩ := hw i
    have e : (o + w • d) i = o i + w * d i := rfl
    rw [e] at hw1 hw2
    by_cases hin : lo i ≤ o i + t0 * d i ∧ o i + t0 * d i ≤ hi i
    · exact ⟨t0, le_rfl, ht, hin, Or.inl rfl⟩
    · rcases lt_or_ge (o i + t0 * d i) (lo i) with h1 | h1
      · have hd : 0 < d i := by
          by_contra hc
          nlinarith [mul_le_mul_of_nonpos_right ht (not_lt.mp hc)]
        refine ⟨(lo i - o i) / d i, ?_, ?_, ?_, Or.inr ⟨hd.ne', Or.inl ?_⟩⟩
        · rw [le_div_iff₀ hd]; linarith
        · rw [div_le_iff₀ hd]; linarith
        · rw [div_mul_cancel₀ _ hd.ne']; constructor <;> linarith
        · rw [div_mul_cancel₀ _ hd.ne']; ring
      · have h2 : hi i < o i + t0 * d i := by
          by_contra hc
          exact hin ⟨h1, not_lt.mp hc⟩
        have hd : d i < 0 := by
          by_contra hc
          nlinarith [mul_le_mul_of_nonneg_right ht (not_lt.mp hc)]
        refine ⟨(hi i - o i) / d i, ?_, ?_, ?_, Or.inr ⟨hd.ne, Or.inr ?_⟩⟩
        · rw [le_div_iff_of_neg hd]; linarith
        · rw [div_le_iff_of_neg hd]; linarith
        · rw [div_mul_cancel₀ _ hd.ne]; constructor <;> linarith
        · rw [div_mul_cancel₀ _ hd.ne]; ring
  choose z hz0 hzw hzin hzc using hent
  obtain ⟨i, hi'⟩ : ∃ i, ∀ j, z j ≤ z i := Finite.exists_max z
  have hall : ∀ j, lo j ≤ (o + z i • d) j ∧ (o + z i • d) j ≤ hi j := by
    intro j
    have e : (o + z i • d) j = o j + z i * d j := rfl
    have e' : (o + w • d) j = o j + w * d j := rfl
    have h1 := hzin j
    have h2 := hw j
    rw [e'] at h2
    rw [e]
    have h3 := hi' j
    have h4 := hzw i
    rcases le_total 0 (d j) with hd | hd
    · have := mul_le_mul_of_nonneg_right h3 hd
      have := mul_le_mul_of_nonneg_right h4 hd
      constructor <;> linarith
    · have := mul_le_mul_of_nonpos_right h3 hd
      have := mul_le_mul_of_nonpos_right h4 hd
      constructor <;> linarith
  refine ⟨z i, hz0 i, hzw i, hall, i, ?_⟩
  rcases hzc i with h | h
  · exact absurd (h ▸ hall) hout
  · exact h

/-- C107: a ray that is not in the plane of a face, or that starts outside the cuboid: the box is hit exactly if the ray
meets the surface of the cuboid in the range, and then the record has the first such parameter and the point there.
Missing: rays that start on a face and run along it, see `C107_along_false`. -/
theorem C107_nearest_partial [F.Exact] (lo hi : Fin 3 → ℝ) (hlh : ∀ i, lo i ≤ hi i) (o d : Fin 3 → ℝ) (hd : d ≠ 0)
    (tmin tmax : Fl F) (hn : isNaN tmin = false) (hm : isNaN tmax = false)
    (hpl : (∀ i, d i ≠ 0 ∨ (o i ≠ lo i ∧ o i ≠ hi i)) ∨
      ∃ t0, tmin = fin t0 ∧ ¬ ∀ i, lo i ≤ (o + t0 • d) i ∧ (o + t0 • d) i ≤ hi i) (rec temp0 : HitRecord (Fl F)) :
    let h := (Cuboid.ofReal lo hi).hit temp0 ⟨cv o, cv d⟩ tmin tmax rec
    (h.1 = true ↔ ∃ z, Before (tmin, tmax) z ∧ o + z • d ∈ cuboidSet lo hi) ∧
    (h.1 = true → ∃ z, h.2.t = fin z ∧ h.2.p = cv (o + z • d) ∧ Before (tmin, tmax) z ∧ o + z • d ∈ cuboidSet lo hi ∧
      ∀ w, Before (tmin, tmax) w → o + w • d ∈ cuboidSet lo hi → z ≤ w) ∧
    (h.1 = false → h.2 = rec) := by
  intro h
  have hsub : ∀ p, p ∈ crossedSet lo hi d → p ∈ cuboidSet lo hi := fun p ⟨h1, i, _, h2⟩ => ⟨h1, i, h2⟩
  -- a crossing of a face comes no later than any point of the surface
  have hcr : ∀ w, Before (tmin, tmax) w → o + w • d ∈ cuboidSet lo hi →
      ∃ z ≤ w, Before (tmin, tmax) z ∧ o + z • d ∈ crossedSet lo hi d := by
    rintro w hw ⟨hwb, i, hwi⟩
    rcases hpl with hpl | ⟨t0, rfl, hout⟩
    · refine ⟨w, le_rfl, hw, hwb, i, ?_, hwi⟩
      rcases hpl i with h1 | ⟨h1, h2⟩
      · exact h1
      · intro h0
        have e : (o + w • d) i = o i := by simp [h0]
        rw [e] at hwi
        rcases hwi with h3 | h3
        · exact h1 h3
        · exact h2 h3
    · have ht : t0 ≤ w := by simpa using hw.1
      obtain ⟨z, hz0, hzw, hz⟩ := crossed_before ht hout hwb
      refine ⟨z, hzw, ⟨by rw [le_fin]; simpa using hz0, ?_⟩, hz⟩
      have := hw.2
      cases tmax with
      | nan => simp at this
      | ninf => simp at this
      | pinf => simp
      | fin c => simp only [lt_fin, decide_eq_true_eq] at this ⊢; linarith
  obtain ⟨h1, h2, h3⟩ := C107_crossing lo hi hlh o d hd tmin tmax hn hm rec temp0
  refine ⟨h1.trans ⟨fun ⟨z, hz, hzS⟩ => ⟨z, hz, hsub _ hzS⟩, fun ⟨w, hw, hwS⟩ => ?_⟩, fun ht => ?_, h3⟩
  · obtain ⟨z, -, hz, hzS⟩ := hcr w hw hwS
    exact ⟨z, hz, hzS⟩
  · obtain ⟨z, hz, hp, hzr, hzS, hmin⟩ := h2 ht
    refine ⟨z, hz, hp, hzr, hsub _ hzS, fun w hw hwS => ?_⟩
    obtain ⟨y, hyw, hy, hyS⟩ := hcr w hw hwS
    exact (hmin y hy hyS).trans hyw

/-- C107: the bounding box of the box is the cuboid. -/
theorem C107_bounding_box (lo hi p : Fin 3 → ℝ) (hp : p ∈ cuboidSet lo hi) :
    ((Cuboid.ofReal lo hi : Cuboid (Fl F)).bbox).1 = true ∧
    ∀ i, Scalar.le (((Cuboid.ofReal lo hi : Cuboid (Fl F)).bbox).2.lo i) (fin (p i)) = true ∧
      Scalar.le (fin (p i)) (((Cuboid.ofReal lo hi : Cuboid (Fl F)).bbox).2.hi i) = true := by
  refine ⟨rfl, fun i => ⟨?_, ?_⟩⟩
  · show Scalar.le (fin (lo i)) (fin (p i)) = true
    rw [le_fin, decide_eq_true_eq]
    exact (hp.1 i).1
  · show Scalar.le (fin (p i)) (fin (hi i)) = true
    rw [le_fin, decide_eq_true_eq]
    exact (hp.1 i).2

/-- A ray down through the unit cube hits its top. -/
example (rec temp0 : HitRecord (Fl exact64)) : ∃ rec', (Cuboid.ofReal (F := exact64) 0 1).hit temp0
    ⟨cv ![1/2, 1/2, 3], cv ![0, 0, -1]⟩ (fin 0) pinf rec = (true, rec') ∧ rec'.t = fin 2 ∧ rec'.p = cv ![1/2, 1/2, 1] := by
  have h := C107_nearest_partial (F := exact64) 0 1 (fun _ => zero_le_one) ![1/2, 1/2, 3] ![0, 0, -1]
    (fun h => by have := congrFun h 2; simp at this) (fin 0) pinf rfl rfl (Or.inl (by
      intro i
      fin_cases i
      · right; constructor <;> norm_num
      · right; constructor <;> norm_num
      · left; norm_num)) rec temp0
  have hset : ∀ z : ℝ, (![1/2, 1/2, 3] + z • ![0, 0, -1] : Fin 3 → ℝ) ∈ cuboidSet 0 1 ↔ z = 2 ∨ z = 3 := by
    intro z
    constructor
    · rintro ⟨-, i, hi⟩
      fin_cases i
      · exfalso; norm_num at hi
      · exfalso; norm_num at hi
      · simp at hi
        rcases hi with hi | hi
        · right; linarith
        · left; linarith
    · intro hz
      refine ⟨fun i => ?_, 2, ?_⟩
      · rcases hz with rfl | rfl <;> fin_cases i <;> norm_num
      · rcases hz with rfl | rfl
        · right; show (3:ℝ) + 2 * -1 = 1; norm_num
        · left; show (3:ℝ) + 3 * -1 = 0; norm_num
  have hb : ∀ z : ℝ, Before ((fin 0 : Fl exact64), pinf) z ↔ 0 ≤ z := by
    intro z
    simp [Before]
  obtain ⟨z, ht, hp, -, hzS, hmin⟩ := h.2.1 (h.1.mpr ⟨2, (hb 2).mpr (by norm_num), (hset 2).mpr (Or.inl rfl)⟩)
  have hz : z = 2 := by
    rcases (hset z).mp hzS with h1 | h1
    · exact h1
    · have := hmin 2 ((hb 2).mpr (by norm_num)) ((hset 2).mpr (Or.inl rfl))
      linarith
  subst hz
  refine ⟨_, Prod.ext (h.1.mpr ⟨2, (hb 2).mpr (by norm_num), (hset 2).mpr (Or.inl rfl)⟩) rfl, ht, ?_⟩
  rw [hp]
  congr 1
  funext i
  fin_cases i <;> norm_num

/-- A ray in the plane of the top of the unit cube, from outside: it hits the edge of the top. -/
example (rec temp0 : HitRecord (Fl exact64)) : ∃ rec', (Cuboid.ofReal (F := exact64) 0 1).hit temp0
    ⟨cv ![-1, 1/2, 1], cv ![1, 0, 0]⟩ (fin 0) pinf rec = (true, rec') ∧ rec'.t = fin 1 := by
  have h := C107_nearest_partial (F := exact64) 0 1 (fun _ => zero_le_one) ![-1, 1/2, 1] ![1, 0, 0]
    (fun h => by have := congrFun h 0; simp at this) (fin 0) pinf rfl rfl
    (Or.inr ⟨0, rfl, fun h => by have := (h 0).1; norm_num at this⟩) rec temp0
  have hset : ∀ z : ℝ, 1 ≤ z → z ≤ 2 → (![-1, 1/2, 1] + z • ![1, 0, 0] : Fin 3 → ℝ) ∈ cuboidSet 0 1 := by
    intro z h1 h2
    refine ⟨fun i => ?_, 2, Or.inr ?_⟩
    · fin_cases i
      · show (0:ℝ) ≤ -1 + z * 1 ∧ -1 + z * 1 ≤ 1
        constructor <;> linarith
      · norm_num
      · norm_num
    · show (1:ℝ) + z * 0 = 1
      ring
  have hb : ∀ z : ℝ, 0 ≤ z → Before ((fin 0 : Fl exact64), pinf) z := fun z hz => by simpa [Before] using hz
  have ht := h.1.mpr ⟨1, hb 1 zero_le_one, hset 1 le_rfl one_le_two⟩
  obtain ⟨z, hz, -, -, hzS, hmin⟩ := h.2.1 ht
  have h1 := hmin 1 (hb 1 zero_le_one) (hset 1 le_rfl one_le_two)
  have h2 : (0:ℝ) ≤ -1 + z * 1 := (hzS.1 0).1
  obtain rfl : z = 1 := by linarith
  exact ⟨_, Prod.ext ht rfl, hz⟩

/-- C107, refuted: a ray that starts on a face and runs along it is not found there, whatever the range; the first
point of the surface on the ray is where it starts. -/
theorem C107_along_false [F.Exact] (lo hi : Fin 3 → ℝ) (o d : Fin 3 → ℝ) (hd : d ≠ 0) (n : Fin 3) (hdn : d n = 0)
    (hon : o n = lo n ∨ o n = hi n) (hin : ∀ i, i ≠ n → lo i < o i ∧ o i < hi i) (hlh : lo n ≤ hi n) (tmax : Fl F)
    (hm : Scalar.lt (fin 0) tmax = true) (rec temp0 : HitRecord (Fl F)) :
    o ∈ cuboidSet lo hi ∧
    ¬ (((Cuboid.ofReal lo hi).hit temp0 ⟨cv o, cv d⟩ (fin 0) tmax rec).1 = true ∧
      ((Cuboid.ofReal lo hi).hit temp0 ⟨cv o, cv d⟩ (fin 0) tmax rec).2.t = fin 0) := by
  have hall : ∀ i, lo i ≤ hi i := by
    intro i
    rcases eq_or_ne i n with rfl | h
    · exact hlh
    · exact ((hin i h).1.trans (hin i h).2).le
  refine ⟨⟨fun i => ?_, n, hon⟩, ?_⟩
  · rcases eq_or_ne i n with rfl | h
    · rcases hon with h | h <;> rw [h]
      · exact ⟨le_rfl, hlh⟩
      · exact ⟨hlh, le_rfl⟩
    · exact ⟨(hin i h).1.le, (hin i h).2.le⟩
  · rintro ⟨h1, h2⟩
    obtain ⟨z, hz, -, -, ⟨-, i, hi1, hi2⟩, -⟩ :=
      (C107_crossing lo hi hall o d hd (fin 0) tmax rfl (not_nan_of_lt_right hm) rec temp0).2.1 h1
    rw [h2, fin_inj] at hz
    rw [← hz, zero_smul, add_zero] at hi2
    have hne : i ≠ n := fun h => hi1 (h ▸ hdn)
    rcases hi2 with h | h
    · exact (hin i hne).1.ne' h
    · exact (hin i hne).2.ne h

/-- On the top of the unit cube. -/
example (rec temp0 : HitRecord (Fl exact64)) : ¬ (((Cuboid.ofReal (F := exact64) 0 1).hit temp0
    ⟨cv ![1/2, 1/2, 1], cv ![1, 0, 0]⟩ (fin 0) pinf rec).1 = true ∧ ((Cuboid.ofReal (F := exact64) 0 1).hit temp0
    ⟨cv ![1/2, 1/2, 1], cv ![1, 0, 0]⟩ (fin 0) pinf rec).2.t = fin 0) :=
  (C107_along_false 0 1 ![1/2, 1/2, 1] ![1, 0, 0] (fun h => by have := congrFun h 0; simp at this) 2 rfl (Or.inr rfl)
    (fun i hi => by fin_cases i <;> first | exact absurd rfl hi | norm_num) zero_le_one pinf rfl rec temp0).2

end DRT
