import Verif.Props.Aabb
import Mathlib.Data.Nat.Log

/-! # C44, C45: `bvh_node` -/

namespace DRT
open Scalar Fl

variable {F : Fmt}

/-- An object that reports its first hit and leaves the record alone when it reports a miss. -/
structure Clean (o : Hittable (Fl F)) (r : Ray (Fl F)) (tmin : Fl F) (first : Option (Fl F)) : Prop
    extends Reports o r tmin first where
  untouched : ∀ tmax rec, (o.hit r tmin tmax rec).1 = false → (o.hit r tmin tmax rec).2 = rec

/-- Specification: the finite box of `o` bounds its hit at `t`: the ray is in the box at `t` and at another parameter
not below `tmin`. -/
def BoxBounds (o : Hittable (Fl F)) (og d : Fin 3 → ℝ) (tmin : Fl F) (t : ℝ) : Prop :=
  ∃ lo hi, o.bbox.2 = AABB.ofReal lo hi ∧ Scalar.le tmin (fin t) = true ∧ InBox lo hi (fun i => og i + t * d i) ∧
    ∃ s, s ≠ t ∧ Scalar.le tmin (fin s) = true ∧ InBox lo hi (fun i => og i + s * d i)

namespace Bvh

/-- Every node carries the box surrounding its children. -/
def Boxed : Bvh (Fl F) → Prop
  | obj _ => True
  | node l r b => b = AABB.surrounding l.bbox.2 r.bbox.2 ∧ Boxed l ∧ Boxed r

theorem surrounding_ofReal (a b c d : Fin 3 → ℝ) :
    (AABB.surrounding (AABB.ofReal a b) (AABB.ofReal c d) : AABB (Fl F)) =
      AABB.ofReal (fun i => min (a i) (c i)) (fun i => max (b i) (d i)) := by
  unfold AABB.surrounding AABB.ofReal cv fmin fmax
  congr 1
  · funext i
    simp only [isNaN_fin, Bool.false_eq_true, if_false, lt_fin, decide_eq_true_eq]
    split_ifs with h
    · rw [min_eq_right h.le]
    · rw [min_eq_left (not_lt.mp h)]
  · funext i
    simp only [isNaN_fin, Bool.false_eq_true, if_false, lt_fin, decide_eq_true_eq]
    split_ifs with h
    · rw [max_eq_right h.le]
    · rw [max_eq_left (not_lt.mp h)]

/-- The box of a tree is finite and contains the box of every leaf. -/
theorem box_spec (T : Bvh (Fl F)) (hT : Boxed T) (hb : ∀ o ∈ T.leaves, ∃ lo hi, o.bbox.2 = AABB.ofReal lo hi) :
    ∃ lo hi, T.bbox.2 = AABB.ofReal lo hi ∧ ∀ o ∈ T.leaves, ∀ l h, o.bbox.2 = AABB.ofReal l h →
      ∀ i, lo i ≤ l i ∧ h i ≤ hi i := by
  induction T with
  | obj o =>
    obtain ⟨lo, hi, h⟩ := hb o (by simp [leaves])
    refine ⟨lo, hi, h, ?_⟩
    intro o' ho' l h' hh i
    simp [leaves] at ho'
    subst ho'
    rw [h] at hh
    have h1 := congrArg AABB.lo hh
    have h2 := congrArg AABB.hi hh
    have e1 := congrFun h1 i
    have e2 := congrFun h2 i
    simp [AABB.ofReal, cv] at e1 e2
    exact ⟨e1.le, e2.ge⟩
  | node l r b ihl ihr =>
    obtain ⟨e, hl, hr⟩ := hT
    obtain ⟨l1, h1, e1, c1⟩ := ihl hl (fun o ho => hb o (by simp [leaves, ho]))
    obtain ⟨l2, h2, e2, c2⟩ := ihr hr (fun o ho => hb o (by simp [leaves, ho]))
    refine ⟨_, _, by rw [bbox, e, e1, e2, surrounding_ofReal], ?_⟩
    intro o ho l h hh i
    rcases List.mem_append.mp ho with ho | ho
    · have := c1 o ho l h hh i
      exact ⟨(min_le_left _ _).trans this.1, this.2.trans (le_max_left _ _)⟩
    · have := c2 o ho l h hh i
      exact ⟨(min_le_right _ _).trans this.1, this.2.trans (le_max_right _ _)⟩

/-- A box containing the box of an object is hit before any `tmax` beyond the object's hit. -/
theorem hit_of_bounds [Fmt.Exact F] {o : Hittable (Fl F)} {og d : Fin 3 → ℝ} {tmin : Fl F} {t : ℝ}
    (h : BoxBounds o og d tmin t)
    {lo hi : Fin 3 → ℝ} (hc : ∀ l h, o.bbox.2 = AABB.ofReal l h → ∀ i, lo i ≤ l i ∧ h i ≤ hi i) {tmax : Fl F}
    (hlt : Scalar.lt (fin t) tmax = true) : (AABB.ofReal lo hi).hit ⟨cv og, cv d⟩ tmin tmax = true := by
  obtain ⟨l, h, e, htm, hbt, s, hst, hs, hbs⟩ := h
  have hin := hc l h e
  have big : ∀ p, InBox l h p → InBox lo hi p := fun p hp i => ⟨(hin i).1.trans (hp i).1, (hp i).2.trans (hin i).2⟩
  rw [C43_hit_iff _ _ _ _ _ _ (not_nan_of_le_left htm) (not_nan_of_lt_right hlt)]
  rcases lt_or_gt_of_ne hst with hl | hg
  · exact ⟨s, t, hl, ⟨hs, Fl.le_trans (by simpa using hl.le) (Fl.le_of_lt hlt)⟩, ⟨htm, Fl.le_of_lt hlt⟩, big _ hbs, big _ hbt⟩
  · -- a point between `t` and `min s tmax`
    obtain ⟨u, hu1, hu2, hu3⟩ : ∃ u, t < u ∧ u ≤ s ∧ Scalar.le (fin u) tmax = true := by
      cases tmax with
      | nan => simp at hlt
      | ninf => simp at hlt
      | pinf => exact ⟨s, hg, le_rfl, by simp⟩
      | fin m =>
        have : t < m := by simpa using hlt
        exact ⟨min s m, lt_min hg this, min_le_left _ _, by simp⟩
    refine ⟨t, u, hu1, ⟨htm, Fl.le_of_lt hlt⟩, ⟨Fl.le_trans htm (by simpa using hu1.le), hu3⟩, big _ hbt, big _ ?_⟩
    intro i
    have b1 := hbt i
    have b2 := hbs i
    dsimp only at b1 b2 ⊢
    rcases le_total 0 (d i) with hd | hd
    · have m1 := mul_le_mul_of_nonneg_right hu1.le hd
      have m2 := mul_le_mul_of_nonneg_right hu2 hd
      constructor <;> linarith
    · have m1 := mul_le_mul_of_nonpos_right hu1.le hd
      have m2 := mul_le_mul_of_nonpos_right hu2 hd
      constructor <;> linarith

/-- The result of `hit` on a tree. -/
theorem hit_spec [Fmt.Exact F] (og d : Fin 3 → ℝ) (tmin : Fl F) (first : Hittable (Fl F) → Option (Fl F)) (T : Bvh (Fl F))
    (hT : Boxed T) (hfin : ∀ o ∈ T.leaves, ∃ lo hi, o.bbox.2 = AABB.ofReal lo hi)
    (hcl : ∀ o ∈ T.leaves, Clean o ⟨cv og, cv d⟩ tmin (first o))
    (hbb : ∀ o ∈ T.leaves, ∀ t, first o = some t → ∃ x : ℝ, t = fin x ∧ BoxBounds o og d tmin x) :
    ∀ tmax rec, isNaN tmax = false →
      ((T.hit ⟨cv og, cv d⟩ tmin tmax rec).1 = true →
        (∃ o ∈ T.leaves, first o = some (T.hit ⟨cv og, cv d⟩ tmin tmax rec).2.t ∧
          ∃ c temp, o.hit ⟨cv og, cv d⟩ tmin c temp = (true, (T.hit ⟨cv og, cv d⟩ tmin tmax rec).2)) ∧
        Scalar.le (T.hit ⟨cv og, cv d⟩ tmin tmax rec).2.t tmax = true ∧
        ∀ o ∈ T.leaves, ∀ t, first o = some t → Scalar.lt t (T.hit ⟨cv og, cv d⟩ tmin tmax rec).2.t = false) ∧
      ((T.hit ⟨cv og, cv d⟩ tmin tmax rec).1 = false → (T.hit ⟨cv og, cv d⟩ tmin tmax rec).2 = rec ∧
        ∀ o ∈ T.leaves, ∀ t, first o = some t → Scalar.lt t tmax = false) := by
  induction T with
  | obj o =>
    intro tmax rec htm
    have hc := hcl o (by simp [leaves])
    simp only [leaves, List.mem_singleton, forall_eq, exists_eq_left, hit]
    by_cases hx : ∃ t, first o = some t ∧ Scalar.le t tmax = true
    · obtain ⟨t, ht, hle⟩ := hx
      obtain ⟨h1, h2⟩ := hc.hit t ht tmax rec hle
      refine ⟨fun _ => ⟨⟨by rw [h2]; exact ht, tmax, rec, Prod.ext h1 rfl⟩, by rw [h2]; exact hle, ?_⟩, ?_⟩
      · intro t' ht'
        rw [ht] at ht'
        injection ht' with ht'
        rw [h2, ht']
        exact Fl.lt_irrefl _
      · intro hc; rw [h1] at hc; cases hc
    · have hm : ∀ t, first o = some t → Scalar.le t tmax = false := by
        intro t ht
        by_contra hc
        exact hx ⟨t, ht, Bool.eq_true_of_not_eq_false hc⟩
      have h1 := hc.miss tmax rec htm hm
      refine ⟨fun h => (by rw [h1] at h; cases h), fun _ => ⟨hc.untouched tmax rec h1, fun t ht => ?_⟩⟩
      by_contra hc
      have := Fl.le_of_lt (Bool.eq_true_of_not_eq_false hc)
      rw [hm t ht] at this; cases this
  | node l r b ihl ihr =>
    intro tmax rec htm
    obtain ⟨lo, hi, eb, cb⟩ := box_spec (node l r b) hT hfin
    obtain ⟨-, hTl, hTr⟩ := hT
    have ml : ∀ o ∈ l.leaves, o ∈ (node l r b).leaves := fun o ho => by simp [leaves, ho]
    have mr : ∀ o ∈ r.leaves, o ∈ (node l r b).leaves := fun o ho => by simp [leaves, ho]
    have mem : ∀ o ∈ (node l r b).leaves, o ∈ l.leaves ∨ o ∈ r.leaves := fun o ho => List.mem_append.mp ho
    have il := ihl hTl (fun o ho => hfin o (ml o ho)) (fun o ho => hcl o (ml o ho)) (fun o ho => hbb o (ml o ho)) tmax rec htm
    have ir := ihr hTr (fun o ho => hfin o (mr o ho)) (fun o ho => hcl o (mr o ho)) (fun o ho => hbb o (mr o ho))
    have hbox : (node l r b).bbox.2 = b := rfl
    rw [hbox] at eb
    rw [hit]
    by_cases hb : b.hit ⟨cv og, cv d⟩ tmin tmax = true
    · rw [if_pos hb]
      dsimp only
      generalize l.hit ⟨cv og, cv d⟩ tmin tmax rec = hl at *
      cases h1 : hl.1 with
      | true =>
        obtain ⟨⟨o, ho, fo, wo⟩, hle, hmin⟩ := il.1 h1
        simp only [if_true, Bool.true_or, true_implies]
        have ir' := ir hl.2.t hl.2 (not_nan_of_le_left hle)
        generalize r.hit ⟨cv og, cv d⟩ tmin hl.2.t hl.2 = hr at *
        refine ⟨?_, fun h => by cases h⟩
        cases h2 : hr.1 with
        | true =>
          obtain ⟨⟨o', ho', fo', wo'⟩, hle', hmin'⟩ := ir'.1 h2
          refine ⟨⟨o', mr o' ho', fo', wo'⟩, Fl.le_trans hle' hle, fun o'' ho'' t ht => ?_⟩
          rcases mem o'' ho'' with h | h
          · by_contra hc
            have := Fl.lt_of_lt_of_le (Bool.eq_true_of_not_eq_false hc) hle'
            rw [hmin o'' h t ht] at this; cases this
          · exact hmin' o'' h t ht
        | false =>
          obtain ⟨e, hno⟩ := ir'.2 h2
          rw [e]
          refine ⟨⟨o, ml o ho, fo, wo⟩, hle, fun o'' ho'' t ht => ?_⟩
          rcases mem o'' ho'' with h | h
          · exact hmin o'' h t ht
          · exact hno o'' h t ht
      | false =>
        obtain ⟨e, hno⟩ := il.2 h1
        simp only [Bool.false_eq_true, if_false, Bool.false_or]
        rw [e]
        have ir' := ir tmax rec htm
        generalize r.hit ⟨cv og, cv d⟩ tmin tmax rec = hr at *
        constructor
        · intro h2
          obtain ⟨⟨o', ho', fo', wo'⟩, hle', hmin'⟩ := ir'.1 h2
          refine ⟨⟨o', mr o' ho', fo', wo'⟩, hle', fun o'' ho'' t ht => ?_⟩
          rcases mem o'' ho'' with h | h
          · by_contra hc
            have := Fl.lt_of_lt_of_le (Bool.eq_true_of_not_eq_false hc) hle'
            rw [hno o'' h t ht] at this; cases this
          · exact hmin' o'' h t ht
        · intro h2
          obtain ⟨e', hno'⟩ := ir'.2 h2
          refine ⟨e', fun o'' ho'' t ht => ?_⟩
          rcases mem o'' ho'' with h | h
          · exact hno o'' h t ht
          · exact hno' o'' h t ht
    · rw [if_neg hb]
      refine ⟨fun h => (by cases h), fun _ => ⟨rfl, fun o ho t ht => ?_⟩⟩
      obtain ⟨x, rfl, hx⟩ := hbb o ho t ht
      by_contra hc
      exact hb (by rw [eb]; exact hit_of_bounds hx (cb o ho) (Bool.eq_true_of_not_eq_false hc))

variable (axis : List Bool → Fin 4)
  (srt : List Bool → (Hittable (Fl F) → Hittable (Fl F) → Bool) → List (Hittable (Fl F)) → List (Hittable (Fl F)))

/-- Whatever the draws and however the sort permutes, a constructed tree is boxed and has exactly the given objects. -/
theorem build_spec (hs : ∀ p c l, (srt p c l).Perm l) : ∀ fuel path objs T, build axis srt fuel path objs = some T →
    Boxed T ∧ ∀ o, o ∈ T.leaves ↔ o ∈ objs := by
  intro fuel
  induction fuel with
  | zero => intro path objs T h; simp [build] at h
  | succ fuel ih =>
    intro path objs T h
    unfold build at h
    split at h
    · injection h with h; subst h
      exact ⟨⟨rfl, trivial, trivial⟩, by simp [close, leaves]⟩
    · injection h with h; subst h
      split_ifs
      · exact ⟨⟨rfl, trivial, trivial⟩, by simp [close, leaves]⟩
      · exact ⟨⟨rfl, trivial, trivial⟩, by simp [close, leaves, or_comm]⟩
    · dsimp only at h
      split at h
      · rename_i l r hl hr
        injection h with h; subst h
        obtain ⟨b1, m1⟩ := ih _ _ _ hl
        obtain ⟨b2, m2⟩ := ih _ _ _ hr
        refine ⟨⟨rfl, b1, b2⟩, fun o => ?_⟩
        rw [close, leaves, List.mem_append, m1, m2, ← List.mem_append, List.take_append_drop]
        exact (hs _ _ _).mem_iff
      · cases h

end Bvh

/-! ## C44 -/

section
variable [Fmt.Exact F] (axis : List Bool → Fin 4)
  (srt : List Bool → (Hittable (Fl F) → Hittable (Fl F) → Bool) → List (Hittable (Fl F)) → List (Hittable (Fl F)))
  (hs : ∀ p c l, (srt p c l).Perm l) (fuel : ℕ) (objs : List (Hittable (Fl F))) (T : Bvh (Fl F))
  (hT : Bvh.build axis srt fuel [] objs = some T) (og d : Fin 3 → ℝ) (tmin : Fl F)
  (first : Hittable (Fl F) → Option (Fl F))
  (hfin : ∀ o ∈ objs, ∃ lo hi, o.bbox.2 = AABB.ofReal lo hi)
  (hcl : ∀ o ∈ objs, Clean o ⟨cv og, cv d⟩ tmin (first o))
  (hbb : ∀ o ∈ objs, ∀ t, first o = some t → ∃ x : ℝ, t = fin x ∧ BoxBounds o og d tmin x)
  (tmax : Fl F) (htm : isNaN tmax = false) (rec : HitRecord (Fl F))
include hs hT hfin hcl hbb htm

/-- C44: for every list of objects with finite boxes that bound their hits, every sequence of axis draws and every
permutation made by the sorts: if some object has a hit before `tmax`, the tree reports one; if the tree reports a
hit then the record was written by one of the objects, carries that object's parameter, which is at most `tmax`, and no
object has a smaller one; if it reports a miss the record is unchanged. -/
theorem C44_nearest :
    ((∃ o ∈ objs, ∃ t, first o = some t ∧ Scalar.lt t tmax = true) → (T.hit ⟨cv og, cv d⟩ tmin tmax rec).1 = true) ∧
    ((T.hit ⟨cv og, cv d⟩ tmin tmax rec).1 = true →
      (∃ o ∈ objs, first o = some (T.hit ⟨cv og, cv d⟩ tmin tmax rec).2.t ∧
        ∃ c temp, o.hit ⟨cv og, cv d⟩ tmin c temp = (true, (T.hit ⟨cv og, cv d⟩ tmin tmax rec).2)) ∧
      Scalar.le (T.hit ⟨cv og, cv d⟩ tmin tmax rec).2.t tmax = true ∧
      ∀ o ∈ objs, ∀ t, first o = some t → Scalar.lt t (T.hit ⟨cv og, cv d⟩ tmin tmax rec).2.t = false) ∧
    ((T.hit ⟨cv og, cv d⟩ tmin tmax rec).1 = false → (T.hit ⟨cv og, cv d⟩ tmin tmax rec).2 = rec) := by
  obtain ⟨hB, hm⟩ := Bvh.build_spec axis srt hs fuel [] objs T hT
  have h := Bvh.hit_spec og d tmin first T hB (fun o ho => hfin o ((hm o).mp ho)) (fun o ho => hcl o ((hm o).mp ho))
    (fun o ho => hbb o ((hm o).mp ho)) tmax rec htm
  generalize T.hit ⟨cv og, cv d⟩ tmin tmax rec = res at *
  refine ⟨?_, ?_, fun hf => (h.2 hf).1⟩
  · rintro ⟨o, ho, t, ht, hlt⟩
    by_contra hc
    have := (h.2 (by simpa using hc)).2 o ((hm o).mpr ho) t ht
    rw [hlt] at this; cases this
  · intro ht
    obtain ⟨⟨o, ho, a, b⟩, c, e⟩ := h.1 ht
    exact ⟨⟨o, (hm o).mp ho, a, b⟩, c, fun o ho => e o ((hm o).mpr ho)⟩

/-- C44, agreement with `hittable_list`: over the same objects, the tree and the list (with any materials) agree on
whether there is a hit before `tmax`, and on its parameter. -/
theorem C44_same_as_list {M : Type} (ms : List M) (hms : ms.length = objs.length) (rec' temp0 : HitRecord (Fl F))
    (m : M) (h : (HittableList.hit ⟨objs, ms⟩ ⟨cv og, cv d⟩ tmin tmax rec' temp0).1 = some (some m)) :
    (T.hit ⟨cv og, cv d⟩ tmin tmax rec).1 = true ∧ (T.hit ⟨cv og, cv d⟩ tmin tmax rec).2.t =
      (HittableList.hit ⟨objs, ms⟩ ⟨cv og, cv d⟩ tmin tmax rec' temp0).2.t := by
  obtain ⟨h1, h2, -⟩ := C44_nearest axis srt hs fuel objs T hT og d tmin first hfin hcl hbb tmax htm rec
  obtain ⟨-, h4, -⟩ := C39_nearest ⟨objs, ms⟩ hms ⟨cv og, cv d⟩ tmin tmax rec' temp0 (fun k => (objs[k]?).bind first) (by
    intro k o hk
    have hk' : objs[k]? = some o := hk
    rw [hk', Option.bind_some]
    exact (hcl o (List.mem_of_getElem? hk')).toReports)
  obtain ⟨k, -, hf, hlt, -, hmin, -⟩ := h4 m h
  obtain ⟨o, hk, ho⟩ := Option.bind_eq_some_iff.mp hf
  have hmem := List.mem_of_getElem? hk
  have ht := h1 ⟨o, hmem, _, ho, hlt⟩
  obtain ⟨⟨o', ho', fo', -⟩, -, hmin'⟩ := h2 ht
  refine ⟨ht, ?_⟩
  generalize T.hit ⟨cv og, cv d⟩ tmin tmax rec = res at *
  generalize HittableList.hit ⟨objs, ms⟩ ⟨cv og, cv d⟩ tmin tmax rec' temp0 = res' at *
  obtain ⟨j, hj, hjo⟩ := List.getElem_of_mem ho'
  have a := hmin j hj res.2.t (by rw [List.getElem?_eq_getElem hj, hjo, Option.bind_some]; exact fo')
  have b := hmin' o hmem _ ho
  have n1 : isNaN res'.2.t = false := not_nan_of_lt_left hlt
  obtain ⟨x, hx, -⟩ := hbb o' ho' _ fo'
  have n2 : isNaN res.2.t = false := by rw [hx]; rfl
  exact Fl.le_antisymm (Fl.le_of_not_lt n1 n2 b) (Fl.le_of_not_lt n2 n1 a)

end

/-- The converse of the list comparison: a list miss is a tree miss up to hits exactly at `tmax`. -/
theorem C44_list_miss [Fmt.Exact F] (axis : List Bool → Fin 4)
    (srt : List Bool → (Hittable (Fl F) → Hittable (Fl F) → Bool) → List (Hittable (Fl F)) → List (Hittable (Fl F)))
    (hs : ∀ p c l, (srt p c l).Perm l) (fuel : ℕ) (objs : List (Hittable (Fl F))) (T : Bvh (Fl F))
    (hT : Bvh.build axis srt fuel [] objs = some T) (og d : Fin 3 → ℝ) (tmin : Fl F)
    (first : Hittable (Fl F) → Option (Fl F))
    (hfin : ∀ o ∈ objs, ∃ lo hi, o.bbox.2 = AABB.ofReal lo hi)
    (hcl : ∀ o ∈ objs, Clean o ⟨cv og, cv d⟩ tmin (first o))
    (hbb : ∀ o ∈ objs, ∀ t, first o = some t → ∃ x : ℝ, t = fin x ∧ BoxBounds o og d tmin x)
    (tmax : Fl F) (htm : isNaN tmax = false) (rec : HitRecord (Fl F)) {M : Type} (ms : List M)
    (hms : ms.length = objs.length) (rec' temp0 : HitRecord (Fl F))
    (h : (HittableList.hit ⟨objs, ms⟩ ⟨cv og, cv d⟩ tmin tmax rec' temp0).1 = some none) :
    (T.hit ⟨cv og, cv d⟩ tmin tmax rec).1 = true → (T.hit ⟨cv og, cv d⟩ tmin tmax rec).2.t = tmax := by
  intro ht
  obtain ⟨-, h2, -⟩ := C44_nearest axis srt hs fuel objs T hT og d tmin first hfin hcl hbb tmax htm rec
  obtain ⟨h3, -, -⟩ := C39_nearest ⟨objs, ms⟩ hms ⟨cv og, cv d⟩ tmin tmax rec' temp0 (fun k => (objs[k]?).bind first) (by
    intro k o hk
    have hk' : objs[k]? = some o := hk
    rw [hk', Option.bind_some]
    exact (hcl o (List.mem_of_getElem? hk')).toReports)
  obtain ⟨⟨o, ho, fo, -⟩, hle, -⟩ := h2 ht
  obtain ⟨j, hj, hjo⟩ := List.getElem_of_mem ho
  have := h3.mp h j hj _ (by rw [List.getElem?_eq_getElem hj, hjo, Option.bind_some]; exact fo)
  exact Fl.le_antisymm hle (Fl.le_of_not_lt (not_nan_of_le_left hle) htm this)

/-! ## C45 -/

/-- C45, nonempty lists: construction finishes within `⌈log₂ n⌉ + 1` nested calls, for all draws and sorts. -/
theorem C45_terminates_partial (axis : List Bool → Fin 4)
    (srt : List Bool → (Hittable (Fl F) → Hittable (Fl F) → Bool) → List (Hittable (Fl F)) → List (Hittable (Fl F)))
    (hs : ∀ p c l, (srt p c l).Perm l) : ∀ (fuel : ℕ) (path : List Bool) (objs : List (Hittable (Fl F))), objs ≠ [] →
      Nat.clog 2 objs.length + 1 ≤ fuel → ∃ T, Bvh.build axis srt fuel path objs = some T := by
  intro fuel
  induction fuel with
  | zero => intro path objs _ h; omega
  | succ fuel ih =>
    intro path objs hne hf
    unfold Bvh.build
    split
    · exact ⟨_, rfl⟩
    · exact ⟨_, rfl⟩
    · rename_i n1 n2
      have hlen : 3 ≤ objs.length := by
        match objs, hne, n1, n2 with
        | [a], _, n1, _ => exact absurd rfl (n1 a)
        | [a, b], _, _, n2 => exact absurd rfl (n2 a b)
        | a :: b :: c :: l, _, _, _ => simp
      have hl := (hs path (Bvh.comparator (axis path)) objs).length_eq
      have hclog : Nat.clog 2 objs.length = Nat.clog 2 ((objs.length + 1) / 2) + 1 := by
        rw [Nat.clog_of_two_le (by norm_num) (by omega), show objs.length + 2 - 1 = objs.length + 1 by omega]
      have l1 : ((srt path (Bvh.comparator (axis path)) objs).take (objs.length / 2)).length = objs.length / 2 := by
        rw [List.length_take, hl]; omega
      have l2 : ((srt path (Bvh.comparator (axis path)) objs).drop (objs.length / 2)).length = (objs.length + 1) / 2 := by
        rw [List.length_drop, hl]; omega
      have m : Nat.clog 2 (objs.length / 2) ≤ Nat.clog 2 ((objs.length + 1) / 2) := Nat.clog_mono_right _ (by omega)
      obtain ⟨T1, h1⟩ := ih (false :: path) _ (by rw [← List.length_pos_iff, l1]; omega) (by rw [l1]; omega)
      obtain ⟨T2, h2⟩ := ih (true :: path) _ (by rw [← List.length_pos_iff, l2]; omega) (by rw [l2]; omega)
      dsimp only
      rw [h1, h2]
      exact ⟨_, rfl⟩

/-- C45 fails for the empty list: no number of nested calls is enough. -/
theorem C45_empty_false (axis : List Bool → Fin 4)
    (srt : List Bool → (Hittable (Fl F) → Hittable (Fl F) → Bool) → List (Hittable (Fl F)) → List (Hittable (Fl F)))
    (hs : ∀ p c l, (srt p c l).Perm l) (fuel : ℕ) : ∀ path, Bvh.build axis srt fuel path [] = none := by
  induction fuel with
  | zero => intro path; rfl
  | succ fuel ih =>
    intro path
    have : srt path (Bvh.comparator (axis path)) [] = [] := (hs _ _ _).eq_nil
    unfold Bvh.build
    dsimp only
    rw [this, List.take_nil, ih]

/-! ## Cases -/

/-- A unit cube hit where the ray along the x axis enters it, at `t`. -/
noncomputable def cubeAt (t : ℝ) : Hittable (Fl F) where
  hit _ _ tmax rec := if Scalar.le (fin t) tmax then (true, { rec with t := fin t }) else (false, rec)
  bbox := (true, AABB.ofReal ![t, 0, 0] ![t + 1, 1, 1])

theorem cubeAt_clean (t : ℝ) (r : Ray (Fl F)) (tmin : Fl F) : Clean (cubeAt t) r tmin (some (fin t)) where
  hit t' h tmax rec hle := by
    injection h with h; subst h
    simp [cubeAt, hle]
  miss tmax rec _ h := by
    have := h _ rfl
    simp [cubeAt, this]
  untouched tmax rec := by
    unfold cubeAt
    dsimp only
    split_ifs <;> simp

theorem cubeAt_bounds {t : ℝ} (ht : 0 ≤ t) :
    BoxBounds (cubeAt t : Hittable (Fl F)) ![0, 1/2, 1/2] ![1, 0, 0] (fin 0) t := by
  refine ⟨_, _, rfl, by simpa using ht, ?_, t + 1, by linarith, by simp; linarith, ?_⟩ <;>
  · intro i
    fin_cases i <;> simp <;> norm_num

/-- Three cubes in a row: every tree over them reports the nearest. -/
example (axis : List Bool → Fin 4) (rec : HitRecord (Fl exact64)) : ∃ T,
    Bvh.build axis (fun _ _ l => l.reverse) 3 [] [cubeAt 5, cubeAt 2, cubeAt 9] = some T ∧
    (T.hit ⟨cv ![0, 1/2, 1/2], cv ![1, 0, 0]⟩ (fin 0) pinf rec).1 = true := by
  obtain ⟨T, hT⟩ := C45_terminates_partial axis (fun _ _ l => l.reverse) (fun _ _ l => l.reverse_perm) 3 []
    [cubeAt (F := exact64) 5, cubeAt 2, cubeAt 9] (by simp) (by
      have h2 : Nat.clog 2 2 = 1 := by rw [Nat.clog_of_two_le] <;> norm_num
      have : Nat.clog 2 3 = 2 := by rw [Nat.clog_of_two_le] <;> norm_num [h2]
      simp [this])
  refine ⟨T, hT, ?_⟩
  let first : Hittable (Fl exact64) → Option (Fl exact64) := fun o => some (o.hit ⟨0, 0⟩ 0 pinf rec).2.t
  have hf : ∀ t : ℝ, first (cubeAt t) = some (fin t) := fun t => by simp [first, cubeAt]
  have key : ∀ o ∈ [cubeAt (F := exact64) 5, cubeAt 2, cubeAt 9], ∃ t : ℝ, 0 ≤ t ∧ o = cubeAt t := by
    intro o ho
    simp at ho
    rcases ho with rfl | rfl | rfl
    · exact ⟨5, by norm_num, rfl⟩
    · exact ⟨2, by norm_num, rfl⟩
    · exact ⟨9, by norm_num, rfl⟩
  refine (C44_nearest axis _ (fun _ _ l => l.reverse_perm) 3 _ T hT _ _ (fin 0) first ?_ ?_ ?_ pinf rfl rec).1
    ⟨cubeAt 2, by simp, fin 2, hf 2, rfl⟩
  · intro o ho; obtain ⟨t, -, rfl⟩ := key o ho; exact ⟨_, _, rfl⟩
  · intro o ho; obtain ⟨t, -, rfl⟩ := key o ho; rw [hf]; exact cubeAt_clean _ _ _
  · intro o ho t ht
    obtain ⟨t', h0, rfl⟩ := key o ho
    rw [hf] at ht
    injection ht with ht
    exact ⟨t', ht.symm, cubeAt_bounds h0⟩

/-- An object that is never hit but overwrites the parameter of the record, as `torus::hit` does. -/
noncomputable def scribbler (t : ℝ) : Hittable (Fl F) where
  hit _ _ _ rec := (false, { rec with t := Fl.nan })
  bbox := (true, AABB.ofReal (fun _ => t) (fun _ => t + 1))

/-- C44 needs objects that leave the record alone on a miss: `bvh_node::hit` hands the record itself to both children.
With one that does not, the tree reports a hit with a NaN parameter, for every draw, while the list reports 1. -/
theorem C44_dirty_miss_false [Fmt.Exact F] (axis : List Bool → Fin 4)
    (srt : List Bool → (Hittable (Fl F) → Hittable (Fl F) → Bool) → List (Hittable (Fl F)) → List (Hittable (Fl F)))
    (rec temp0 : HitRecord (Fl F)) : ∃ (a b : Hittable (Fl F)) (og d : Fin 3 → ℝ) (T : Bvh (Fl F)),
    Reports a ⟨cv og, cv d⟩ (fin 0) (some (fin 1)) ∧ Reports b ⟨cv og, cv d⟩ (fin 0) none ∧
    BoxBounds a og d (fin 0) 1 ∧ Bvh.build axis srt 1 [] [a, b] = some T ∧
    (T.hit ⟨cv og, cv d⟩ (fin 0) pinf rec).1 = true ∧ (T.hit ⟨cv og, cv d⟩ (fin 0) pinf rec).2.t = Fl.nan ∧
    (HittableList.hit ⟨[a, b], ["a", "b"]⟩ ⟨cv og, cv d⟩ (fin 0) pinf rec temp0).1 = some (some "a") ∧
    (HittableList.hit ⟨[a, b], ["a", "b"]⟩ ⟨cv og, cv d⟩ (fin 0) pinf rec temp0).2.t = fin 1 := by
  have hbd := cubeAt_bounds (F := F) (t := 1) (by norm_num)
  have hcmp : Bvh.comparator (axis []) (cubeAt 1 : Hittable (Fl F)) (scribbler 2) = true := by
    have : ∀ i : Fin 3, Bvh.boxCompare i (cubeAt 1 : Hittable (Fl F)) (scribbler 2) = true := by
      intro i
      fin_cases i <;> simp [Bvh.boxCompare, cubeAt, scribbler, AABB.ofReal, cv]
    unfold Bvh.comparator
    split_ifs <;> exact this _
  refine ⟨cubeAt 1, scribbler 2, ![0, 1/2, 1/2], ![1, 0, 0], _, (cubeAt_clean _ _ _).toReports, ⟨by simp, fun _ _ _ _ => rfl⟩,
    hbd, by rw [Bvh.build, if_pos hcmp], ?_, ?_, ?_, ?_⟩
  · have hb : (AABB.surrounding (Bvh.obj (cubeAt 1 : Hittable (Fl F))).bbox.2 (Bvh.obj (scribbler 2)).bbox.2).hit
        ⟨cv ![0, 1/2, 1/2], cv ![1, 0, 0]⟩ (fin 0) pinf = true := by
      rw [Bvh.bbox, Bvh.bbox, cubeAt, scribbler, Bvh.surrounding_ofReal]
      refine Bvh.hit_of_bounds hbd ?_ rfl
      intro l h e i
      have e1 := congrFun (congrArg AABB.lo e) i
      have e2 := congrFun (congrArg AABB.hi e) i
      simp [cubeAt, AABB.ofReal, cv] at e1 e2
      rw [← e1, ← e2]
      exact ⟨min_le_left _ _, le_max_left _ _⟩
    rw [Bvh.close, Bvh.hit, if_pos hb]
    simp [Bvh.hit, cubeAt, scribbler]
  · have hb : (AABB.surrounding (Bvh.obj (cubeAt 1 : Hittable (Fl F))).bbox.2 (Bvh.obj (scribbler 2)).bbox.2).hit
        ⟨cv ![0, 1/2, 1/2], cv ![1, 0, 0]⟩ (fin 0) pinf = true := by
      rw [Bvh.bbox, Bvh.bbox, cubeAt, scribbler, Bvh.surrounding_ofReal]
      refine Bvh.hit_of_bounds hbd ?_ rfl
      intro l h e i
      have e1 := congrFun (congrArg AABB.lo e) i
      have e2 := congrFun (congrArg AABB.hi e) i
      simp [cubeAt, AABB.ofReal, cv] at e1 e2
      rw [← e1, ← e2]
      exact ⟨min_le_left _ _, le_max_left _ _⟩
    rw [Bvh.close, Bvh.hit, if_pos hb]
    simp [Bvh.hit, cubeAt, scribbler]
  · simp [HittableList.hit, HittableList.loop, HittableList.step, cubeAt, scribbler]
  · simp [HittableList.hit, HittableList.loop, HittableList.step, cubeAt, scribbler]

end DRT
