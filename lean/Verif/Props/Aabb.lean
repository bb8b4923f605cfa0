import Verif.Model.Hittable
import Verif.Lemmas.Vec
import Verif.Props.HittableList
import Verif.Spec.Surface

/-! # C43: `aabb::hit` -/

namespace DRT
open Scalar Fl

variable {F : Fmt}

/-- A box with real corners. -/
noncomputable def AABB.ofReal (lo hi : Fin 3 → ℝ) : AABB (Fl F) := ⟨cv lo, cv hi⟩

/-- Specification: the point `p` lies in the closed box. -/
def InBox (lo hi p : Fin 3 → ℝ) : Prop := ∀ i, lo i ≤ p i ∧ p i ≤ hi i

namespace AABB

theorem narrow_lo {a t : Fl F} (ht : isNaN t = false) (x : ℝ) :
    isNaN (if gt a t then a else t) = false ∧
    (Scalar.le (if gt a t then a else t) (fin x) = true ↔
      Scalar.le t (fin x) = true ∧ (isNaN a = true ∨ Scalar.le a (fin x) = true)) := by
  unfold Scalar.gt
  split_ifs with h
  · have ha := not_nan_of_lt_right h
    refine ⟨ha, fun h' => ⟨Fl.le_trans (Fl.le_of_lt h) h', Or.inr h'⟩, fun h' => ?_⟩
    rcases h'.2 with h'' | h''
    · rw [ha] at h''; cases h''
    · exact h''
  · refine ⟨ht, fun h' => ⟨h', ?_⟩, fun h' => h'.1⟩
    by_cases ha : isNaN a = true
    · exact Or.inl ha
    · exact Or.inr (Fl.le_trans (Fl.le_of_not_lt ht (by simpa using ha) (by simpa using h)) h')

theorem narrow_hi {a t : Fl F} (ht : isNaN t = false) (x : ℝ) :
    isNaN (if Scalar.lt a t then a else t) = false ∧
    (Scalar.le (fin x) (if Scalar.lt a t then a else t) = true ↔
      Scalar.le (fin x) t = true ∧ (isNaN a = true ∨ Scalar.le (fin x) a = true)) := by
  split_ifs with h
  · have ha := not_nan_of_lt_left h
    refine ⟨ha, fun h' => ⟨Fl.le_trans h' (Fl.le_of_lt h), Or.inr h'⟩, fun h' => ?_⟩
    rcases h'.2 with h'' | h''
    · rw [ha] at h''; cases h''
    · exact h''
  · refine ⟨ht, fun h' => ⟨h', ?_⟩, fun h' => h'.1⟩
    by_cases ha : isNaN a = true
    · exact Or.inl ha
    · exact Or.inr (Fl.le_trans h' (Fl.le_of_not_lt (by simpa using ha) ht (by simpa using h)))

/-- The ends computed for one axis, in order. -/
noncomputable def ends (l h o d : Fl F) : Fl F × Fl F :=
  if Scalar.lt (1 / d) 0 then ((h - o) * (1 / d), (l - o) * (1 / d)) else ((l - o) * (1 / d), (h - o) * (1 / d))

/-- The rest of one iteration. -/
noncomputable def narrow (t e : Fl F × Fl F) : Option (Fl F × Fl F) :=
  if Scalar.le (if Scalar.lt e.2 t.2 then e.2 else t.2) (if gt e.1 t.1 then e.1 else t.1) then none
  else some (if gt e.1 t.1 then e.1 else t.1, if Scalar.lt e.2 t.2 then e.2 else t.2)

theorem slab_eq (b : AABB (Fl F)) (r : Ray (Fl F)) (i : Fin 3) (t : Fl F × Fl F) :
    b.slab r i t = narrow t (ends (b.lo i) (b.hi i) (r.origin i) (r.dir i)) := rfl

theorem two_of_lt {a b : Fl F} (h : Scalar.lt a b = true) : ∃ x y : ℝ, x < y ∧ InRange (a, b) x ∧ InRange (a, b) y := by
  unfold InRange
  cases a with
  | nan => simp at h
  | pinf => simp at h
  | ninf =>
    cases b with
    | nan => simp at h
    | ninf => simp at h
    | pinf => exact ⟨0, 1, by norm_num, by simp, by simp⟩
    | fin b => exact ⟨b - 1, b, by linarith, by simp, by simp⟩
  | fin a =>
    cases b with
    | nan => simp at h
    | ninf => simp at h
    | pinf => exact ⟨a, a + 1, by linarith, by simp, by simp⟩
    | fin b =>
      have h' : a < b := by simpa using h
      exact ⟨a, b, h', by simp [h'.le], by simp [h'.le]⟩


variable [Fmt.Exact F]

/-- The two ends computed for one axis describe exactly the parameters whose point lies between the two planes. -/
theorem slab_ends (l h o d x : ℝ) :
    let t01 : Fl F × Fl F := ends (fin l) (fin h) (fin o) (fin d)
    ((isNaN t01.1 = true ∨ Scalar.le t01.1 (fin x) = true) ∧ (isNaN t01.2 = true ∨ Scalar.le (fin x) t01.2 = true)) ↔
      (l ≤ o + x * d ∧ o + x * d ≤ h) := by
  dsimp only
  unfold ends
  rw [ofNat_one, ofNat_zero, sub_fin, sub_fin]
  by_cases hd : d = 0
  · subst hd
    have hmul : ∀ a : ℝ, (fin a : Fl F) * pinf = if a = 0 then Fl.nan else infOf a := fin_mul_pinf
    have e1 : ∀ a : ℝ, (isNaN ((fin a : Fl F) * pinf) = true ∨ Scalar.le ((fin a : Fl F) * pinf) (fin x) = true) ↔ a ≤ 0 := by
      intro a
      rw [fin_mul_pinf]
      rcases lt_trichotomy a 0 with h | h | h
      · rw [if_neg h.ne, infOf_neg h]; simp [h.le]
      · rw [if_pos h]; simp [h]
      · rw [if_neg h.ne', infOf_pos h]; simp [h]
    have e2 : ∀ a : ℝ, (isNaN ((fin a : Fl F) * pinf) = true ∨ Scalar.le (fin x) ((fin a : Fl F) * pinf) = true) ↔ 0 ≤ a := by
      intro a
      rw [fin_mul_pinf]
      rcases lt_trichotomy a 0 with h | h | h
      · rw [if_neg h.ne, infOf_neg h]; simp [h]
      · rw [if_pos h]; simp [h]
      · rw [if_neg h.ne', infOf_pos h]; simp [h.le]
    have e3 : ∀ a : ℝ, (isNaN ((fin a : Fl F) * ninf) = true ∨ Scalar.le ((fin a : Fl F) * ninf) (fin x) = true) ↔ 0 ≤ a := by
      intro a
      rw [fin_mul_ninf]
      rcases lt_trichotomy a 0 with h | h | h
      · rw [if_neg h.ne, infOf_pos (by linarith)]; simp [h]
      · rw [if_pos h]; simp [h]
      · rw [if_neg h.ne', infOf_neg (by linarith)]; simp [h.le]
    have e4 : ∀ a : ℝ, (isNaN ((fin a : Fl F) * ninf) = true ∨ Scalar.le (fin x) ((fin a : Fl F) * ninf) = true) ↔ a ≤ 0 := by
      intro a
      rw [fin_mul_ninf]
      rcases lt_trichotomy a 0 with h | h | h
      · rw [if_neg h.ne, infOf_pos (by linarith)]; simp [h.le]
      · rw [if_pos h]; simp [h]
      · rw [if_neg h.ne', infOf_neg (by linarith)]; simp [h]
    rcases fin_div_zero_cases (F := F) (one_ne_zero) with h1 | h1 <;> rw [h1]
    · rw [pinf_lt, if_neg (by simp)]
      dsimp only
      rw [e1, e2]
      constructor <;> rintro ⟨a, b⟩ <;> constructor <;> linarith
    · rw [ninf_lt_fin, if_pos rfl]
      dsimp only
      rw [e3, e4]
      constructor <;> rintro ⟨a, b⟩ <;> constructor <;> linarith
  · rw [div_fin _ hd, mul_fin, mul_fin, lt_fin]
    rcases lt_or_gt_of_ne hd with hn | hp
    · rw [if_pos (by simpa using one_div_neg.mpr hn)]
      simp only [isNaN_fin, le_fin, decide_eq_true_eq, Bool.false_eq_true, false_or]
      rw [mul_one_div, mul_one_div, div_le_iff_of_neg hn, le_div_iff_of_neg hn]
      constructor <;> rintro ⟨a, b⟩ <;> constructor <;> linarith
    · rw [if_neg (by simpa using hp.le)]
      simp only [isNaN_fin, le_fin, decide_eq_true_eq, Bool.false_eq_true, false_or]
      rw [mul_one_div, mul_one_div, div_le_iff₀ hp, le_div_iff₀ hp]
      constructor <;> rintro ⟨a, b⟩ <;> constructor <;> linarith

/-- One iteration of the loop. -/
theorem slab_spec (lo hi o d : Fin 3 → ℝ) (i : Fin 3) (t : Fl F × Fl F) (h1 : isNaN t.1 = false) (h2 : isNaN t.2 = false) :
    (∀ t', (AABB.ofReal lo hi).slab ⟨cv o, cv d⟩ i t = some t' → isNaN t'.1 = false ∧ isNaN t'.2 = false ∧
      Scalar.lt t'.1 t'.2 = true ∧
      ∀ x, InRange t' x ↔ InRange t x ∧ lo i ≤ o i + x * d i ∧ o i + x * d i ≤ hi i) ∧
    ((AABB.ofReal lo hi).slab ⟨cv o, cv d⟩ i t = none → ∀ x y, x < y → InRange t x → InRange t y →
      (lo i ≤ o i + x * d i ∧ o i + x * d i ≤ hi i) → (lo i ≤ o i + y * d i ∧ o i + y * d i ≤ hi i) → False) := by
  have ends := slab_ends (F := F) (lo i) (hi i) (o i) (d i)
  rw [slab_eq]
  unfold AABB.ofReal cv narrow
  dsimp only at ends ⊢
  generalize AABB.ends (fin (lo i) : Fl F) (fin (hi i)) (fin (o i)) (fin (d i)) = t01 at *
  have range : ∀ x, InRange (if gt t01.1 t.1 then t01.1 else t.1, if Scalar.lt t01.2 t.2 then t01.2 else t.2) x ↔
      InRange t x ∧ lo i ≤ o i + x * d i ∧ o i + x * d i ≤ hi i := by
    intro x
    unfold InRange
    dsimp only
    rw [(narrow_lo h1 x).2, (narrow_hi h2 x).2, ← ends x]
    tauto
  have n1 := (narrow_lo (a := t01.1) h1 0).1
  have n2 := (narrow_hi (a := t01.2) h2 0).1
  generalize (if gt t01.1 t.1 then t01.1 else t.1) = a at *
  generalize (if Scalar.lt t01.2 t.2 then t01.2 else t.2) = b at *
  constructor
  · intro t' ht
    split_ifs at ht with hc
    injection ht with ht
    subst ht
    exact ⟨n1, n2, Fl.lt_of_not_le n2 n1 (by simpa using hc), range⟩
  · intro ht x y hxy hx hy hx' hy'
    split_ifs at ht with hc
    have r1 := ((range x).mpr ⟨hx, hx'⟩)
    have r2 := ((range y).mpr ⟨hy, hy'⟩)
    have := Fl.le_trans (Fl.le_trans r2.2 hc) r1.1
    rw [le_fin, decide_eq_true_eq] at this
    linarith

end AABB

variable [Fmt.Exact F]

/-- C43: for every box with finite corners, every finite ray (zero direction components, origin on a face, degenerate or
inverted box included) and every range with possibly infinite ends, `hit` is true exactly when the ray stays in the
closed box for a parameter interval of positive length inside the range. -/
theorem C43_hit_iff (lo hi o d : Fin 3 → ℝ) (tmin tmax : Fl F) (h1 : isNaN tmin = false) (h2 : isNaN tmax = false) :
    (AABB.ofReal lo hi).hit ⟨cv o, cv d⟩ tmin tmax = true ↔
      ∃ s t : ℝ, s < t ∧ InRange (tmin, tmax) s ∧ InRange (tmin, tmax) t ∧
        InBox lo hi (fun i => o i + s * d i) ∧ InBox lo hi (fun i => o i + t * d i) := by
  unfold AABB.hit InBox
  obtain ⟨a1, b1⟩ := AABB.slab_spec (F := F) lo hi o d 0 (tmin, tmax) h1 h2
  cases e0 : (AABB.ofReal lo hi).slab ⟨cv o, cv d⟩ 0 (tmin, tmax) with
  | none =>
    simp only [Option.bind_none, Option.isSome_none, Bool.false_eq_true, false_iff]
    rintro ⟨s, t, hst, hs, ht, bs, bt⟩
    exact b1 e0 s t hst hs ht (bs 0) (bt 0)
  | some t0 =>
    obtain ⟨n1, n2, -, r0⟩ := a1 t0 e0
    rw [Option.bind_some]
    obtain ⟨a2, b2⟩ := AABB.slab_spec (F := F) lo hi o d 1 t0 n1 n2
    cases e1 : (AABB.ofReal lo hi).slab ⟨cv o, cv d⟩ 1 t0 with
    | none =>
      simp only [Option.bind_none, Option.isSome_none, Bool.false_eq_true, false_iff]
      rintro ⟨s, t, hst, hs, ht, bs, bt⟩
      exact b2 e1 s t hst ((r0 s).mpr ⟨hs, bs 0⟩) ((r0 t).mpr ⟨ht, bt 0⟩) (bs 1) (bt 1)
    | some t1 =>
      obtain ⟨m1, m2, -, r1⟩ := a2 t1 e1
      rw [Option.bind_some]
      obtain ⟨a3, b3⟩ := AABB.slab_spec (F := F) lo hi o d 2 t1 m1 m2
      cases e2 : (AABB.ofReal lo hi).slab ⟨cv o, cv d⟩ 2 t1 with
      | none =>
        simp only [Option.isSome_none, Bool.false_eq_true, false_iff]
        rintro ⟨s, t, hst, hs, ht, bs, bt⟩
        exact b3 e2 s t hst ((r1 s).mpr ⟨(r0 s).mpr ⟨hs, bs 0⟩, bs 1⟩) ((r1 t).mpr ⟨(r0 t).mpr ⟨ht, bt 0⟩, bt 1⟩)
          (bs 2) (bt 2)
      | some t2 =>
        simp only [Option.isSome_some, true_iff]
        obtain ⟨-, -, hlt, r2⟩ := a3 t2 e2
        obtain ⟨x, y, hxy, hx, hy⟩ := AABB.two_of_lt hlt
        have unpack : ∀ z, InRange (t2.1, t2.2) z → InRange (tmin, tmax) z ∧
            ∀ i, lo i ≤ o i + z * d i ∧ o i + z * d i ≤ hi i := by
          intro z hz
          obtain ⟨g1, g2⟩ := (r2 z).mp hz
          obtain ⟨g3, g4⟩ := (r1 z).mp g1
          obtain ⟨g5, g6⟩ := (r0 z).mp g3
          exact ⟨g5, fun i => by fin_cases i <;> assumption⟩
        exact ⟨x, y, hxy, (unpack x hx).1, (unpack y hy).1, (unpack x hx).2, (unpack y hy).2⟩

/-- C43, monotonicity: a box hit inside a range is also hit when it is enlarged. -/
theorem C43_enlarge {a b : AABB (Fl F)} {la ha lb hb : Fin 3 → ℝ} (ea : a = AABB.ofReal la ha) (eb : b = AABB.ofReal lb hb)
    (hab : BoxLe a b) (o d : Fin 3 → ℝ) (tmin tmax : Fl F) (h1 : isNaN tmin = false) (h2 : isNaN tmax = false)
    (h : a.hit ⟨cv o, cv d⟩ tmin tmax = true) : b.hit ⟨cv o, cv d⟩ tmin tmax = true := by
  subst ea eb
  rw [C43_hit_iff _ _ _ _ _ _ h1 h2] at h ⊢
  obtain ⟨s, t, hst, hs, ht, bs, bt⟩ := h
  have hab' : ∀ i, lb i ≤ la i ∧ ha i ≤ hb i := by
    intro i
    have := hab i
    simpa [AABB.ofReal, cv] using this
  exact ⟨s, t, hst, hs, ht, fun i => ⟨(hab' i).1.trans (bs i).1, (bs i).2.trans (hab' i).2⟩,
    fun i => ⟨(hab' i).1.trans (bt i).1, (bt i).2.trans (hab' i).2⟩⟩

/-- A ray parallel to two of the axes with its origin on a face is covered. -/
example : (AABB.ofReal 0 1 : AABB (Fl exact64)).hit ⟨cv ![0, 1, 1/2], cv ![1, 0, 0]⟩ (fin 0) pinf = true := by
  rw [C43_hit_iff _ _ _ _ _ _ rfl rfl]
  refine ⟨0, 1, by norm_num, by simp [InRange], by simp [InRange], ?_, ?_⟩ <;>
  · intro i
    fin_cases i <;> norm_num

/-- C43 needs a positive length: a ray that crosses a box of zero thickness, such as the box of a disk or
of an axis-aligned plane figure, meets the closed box but is reported as a miss. -/
theorem C43_flat_box_missed : ∃ (lo hi o d : Fin 3 → ℝ) (s : ℝ), (∀ i, lo i ≤ hi i) ∧ 0 < s ∧
    InBox lo hi (fun i => o i + s * d i) ∧
    (AABB.ofReal lo hi : AABB (Fl F)).hit ⟨cv o, cv d⟩ (fin 0) pinf = false := by
  refine ⟨![-1, -1, 0], ![1, 1, 0], ![0, 0, 1], ![0, 0, -1], 1, ?_, by norm_num, ?_, ?_⟩
  · intro i; fin_cases i <;> norm_num
  · intro i; fin_cases i <;> norm_num
  · rw [Bool.eq_false_iff, ne_eq, C43_hit_iff _ _ _ _ _ _ rfl rfl]
    rintro ⟨s, t, hst, -, -, bs, bt⟩
    have h1 : (0 : ℝ) ≤ 1 + s * (-1) ∧ 1 + s * (-1) ≤ 0 := bs 2
    have h2 : (0 : ℝ) ≤ 1 + t * (-1) ∧ 1 + t * (-1) ≤ 0 := bt 2
    linarith [h1.1, h1.2, h2.1, h2.2]

end DRT
