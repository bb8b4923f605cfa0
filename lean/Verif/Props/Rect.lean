import Verif.Model.Rect
import Verif.Lemmas.Surface
import Verif.Props.HitRecord

/-! # C59, C60: axis-aligned rectangles -/

namespace DRT
open Scalar Fl Matrix

variable {F : Fmt}

/-- The rectangle `[a0,a1] × [b0,b1]` in the coordinates `i`, `j`, at position `k` in coordinate `n`. -/
def rectSet (i j n : Fin 3) (a0 a1 b0 b1 k : ℝ) : Set (Fin 3 → ℝ) :=
  {p | p n = k ∧ (a0 ≤ p i ∧ p i ≤ a1) ∧ b0 ≤ p j ∧ p j ≤ b1}

namespace Rect

/-- The model object with real ranges and position. -/
def ofReal (a0 a1 b0 b1 k : ℝ) : Rect (Fl F) := ⟨fin a0, fin a1, fin b0, fin b1, fin k⟩

/-- The parameter at which a transversal ray crosses the plane, and what `hit` does with it. -/
theorem hitPlane_fin [F.Exact] (i j n : Fin 3) (m : Vec (Fl F) 3) (a0 a1 b0 b1 k : ℝ) (o d : Fin 3 → ℝ) (hd : d n ≠ 0)
    (tmin tmax : Fl F) (rec : HitRecord (Fl F)) :
    let t := (k - o n) / d n
    let x := o i + t * d i
    let y := o j + t * d j
    hitPlane i j n m (ofReal a0 a1 b0 b1 k) ⟨cv o, cv d⟩ tmin tmax rec =
      if Scalar.lt (fin t) tmin || Scalar.gt (fin t) tmax then (false, rec)
      else if x < a0 ∨ a1 < x ∨ y < b0 ∨ b1 < y then (false, rec)
      else (true, { ({ rec with u := (fin (x - a0) : Fl F) / fin (a1 - a0), v := (fin (y - b0) : Fl F) / fin (b1 - b0), t := fin t } :
        HitRecord (Fl F)).setFaceNormal ⟨cv o, cv d⟩ m with p := cv (o + t • d) }) := by
  intro t x y
  have e : (fin (k - o n) : Fl F) / fin (d n) = fin t := by rw [div_fin _ hd]
  unfold hitPlane ofReal
  simp only [cv_apply, sub_fin, e, mul_fin, add_fin, ray_at_cv]
  congr 1
  have : (Scalar.lt (fin x : Fl F) (fin a0) || Scalar.gt (fin x : Fl F) (fin a1) || Scalar.lt (fin y : Fl F) (fin b0) ||
      Scalar.gt (fin y : Fl F) (fin b1)) = decide (x < a0 ∨ a1 < x ∨ y < b0 ∨ b1 < y) := by
    simp [Scalar.gt, Bool.decide_or, Bool.or_assoc]
  show (if (Scalar.lt (fin x : Fl F) (fin a0) || Scalar.gt (fin x : Fl F) (fin a1) || Scalar.lt (fin y : Fl F) (fin b0) ||
      Scalar.gt (fin y : Fl F) (fin b1)) = true then _ else _) = _
  rw [this]
  by_cases hc : x < a0 ∨ a1 < x ∨ y < b0 ∨ b1 < y
  · rw [if_pos (by simpa using hc), if_pos hc]
  · rw [if_neg (by simpa using hc), if_neg hc]

theorem hitPlane_nearest [F.Exact] (i j n : Fin 3) (m : Vec (Fl F) 3) (a0 a1 b0 b1 k : ℝ) (o d : Fin 3 → ℝ) (hd : d n ≠ 0)
    (tmin : Fl F) (hn : isNaN tmin = false) :
    FindsNearest (rectSet i j n a0 a1 b0 b1 k) o d tmin (hitPlane i j n m (ofReal a0 a1 b0 b1 k) ⟨cv o, cv d⟩ tmin) := by
  intro tmax rec hm
  have hz : ∀ z : ℝ, o + z • d ∈ rectSet i j n a0 a1 b0 b1 k ↔ z = (k - o n) / d n ∧
      (a0 ≤ o i + z * d i ∧ o i + z * d i ≤ a1) ∧ b0 ≤ o j + z * d j ∧ o j + z * d j ≤ b1 := by
    intro z
    simp only [rectSet, Set.mem_setOf_eq, Pi.add_apply, Pi.smul_apply, smul_eq_mul]
    rw [eq_div_iff hd]
    constructor
    · rintro ⟨h, h'⟩; exact ⟨by linarith, h'⟩
    · rintro ⟨h, h'⟩; exact ⟨by linarith, h'⟩
  rw [hitPlane_fin i j n m a0 a1 b0 b1 k o d hd tmin tmax rec]
  obtain ⟨t, ht⟩ : ∃ t, t = (k - o n) / d n := ⟨_, rfl⟩
  simp only [← ht] at hz ⊢
  have hr : (Scalar.lt (fin t) tmin || Scalar.gt (fin t) tmax) = false ↔ InRange (tmin, tmax) t := by
    simp only [Scalar.gt, Bool.or_eq_false_iff, InRange]
    constructor
    · rintro ⟨h1, h2⟩; exact ⟨Fl.le_of_not_lt rfl hn h1, Fl.le_of_not_lt hm rfl h2⟩
    · rintro ⟨h1, h2⟩; exact ⟨Fl.not_lt_of_le h1, Fl.not_lt_of_le h2⟩
  by_cases h1 : InRange (tmin, tmax) t
  · rw [hr.mpr h1]
    simp only [Bool.false_eq_true, if_false]
    by_cases h2 : o i + t * d i < a0 ∨ a1 < o i + t * d i ∨ o j + t * d j < b0 ∨ b1 < o j + t * d j
    · rw [if_pos h2]
      refine ⟨⟨by simp, ?_⟩, by simp⟩
      rintro ⟨z, -, hz'⟩
      obtain ⟨rfl, ⟨g1, g2⟩, g3, g4⟩ := (hz z).mp hz'
      rcases h2 with h | h | h | h <;> linarith
    · rw [if_neg h2]
      push Not at h2
      have hS : o + t • d ∈ rectSet i j n a0 a1 b0 b1 k := (hz t).mpr ⟨rfl, ⟨h2.1, h2.2.1⟩, h2.2.2.1, h2.2.2.2⟩
      refine ⟨⟨fun _ => ⟨t, h1, hS⟩, fun _ => rfl⟩, fun _ => ⟨t, rfl, rfl, h1, hS, fun w _ hw => ?_⟩⟩
      rw [((hz w).mp hw).1]
  · have : (Scalar.lt (fin t) tmin || Scalar.gt (fin t) tmax) = true := by
      by_contra hc; exact h1 (hr.mp (by simpa using hc))
    rw [this]
    simp only [if_true]
    refine ⟨⟨by simp, ?_⟩, by simp⟩
    rintro ⟨z, hzr, hz'⟩
    obtain ⟨rfl, -⟩ := (hz z).mp hz'
    exact absurd hzr h1

/-- A ray parallel to the plane but not in it. -/
theorem hitPlane_parallel [F.Exact] (i j n : Fin 3) (m : Vec (Fl F) 3) (a0 a1 b0 b1 k : ℝ) (o d : Fin 3 → ℝ) (hd : d n = 0)
    (ho : o n ≠ k) (hij : d i ≠ 0 ∨ d j ≠ 0) (tmin tmax : Fl F) (rec : HitRecord (Fl F)) :
    hitPlane i j n m (ofReal a0 a1 b0 b1 k) ⟨cv o, cv d⟩ tmin tmax rec = (false, rec) := by
  have hx : ∀ l, d l ≠ 0 → ∀ t : Fl F, t = pinf ∨ t = ninf → ∀ a b : ℝ,
      Scalar.lt ((fin (o l) : Fl F) + t * fin (d l)) (fin a) = true ∨ Scalar.lt (fin b) ((fin (o l) : Fl F) + t * fin (d l)) = true := by
    intro l hl t ht a b
    rcases lt_or_gt_of_ne hl with h | h <;> rcases ht with rfl | rfl
    · rw [pinf_mul_fin, if_neg hl, infOf_neg h]; left; rfl
    · rw [ninf_mul_fin, if_neg hl, infOf_pos (by linarith)]; right; rfl
    · rw [pinf_mul_fin, if_neg hl, infOf_pos h]; right; rfl
    · rw [ninf_mul_fin, if_neg hl, infOf_neg (by linarith)]; left; rfl
  have ht : (fin (k - o n) : Fl F) / fin 0 = pinf ∨ (fin (k - o n) : Fl F) / fin 0 = ninf :=
    fin_div_zero_cases (sub_ne_zero.mpr (Ne.symm ho))
  unfold hitPlane ofReal
  simp only [cv_apply, sub_fin, hd]
  generalize (fin (k - o n) : Fl F) / fin 0 = t at ht
  split_ifs with h1 h2
  · rfl
  · rfl
  · exfalso
    apply h2
    simp only [Scalar.gt, Bool.or_eq_true]
    rcases hij with h | h
    · rcases hx i h t ht a0 a1 with h | h
      · exact Or.inl (Or.inl (Or.inl h))
      · exact Or.inl (Or.inl (Or.inr h))
    · rcases hx j h t ht b0 b1 with h | h
      · exact Or.inl (Or.inr h)
      · exact Or.inr h

/-- A ray in the plane. -/
theorem hitPlane_coplanar [F.Exact] (i j n : Fin 3) (m : Vec (Fl F) 3) (a0 a1 b0 b1 k : ℝ) (o d : Fin 3 → ℝ) (hd : d n = 0)
    (ho : o n = k) (tmin tmax : Fl F) (rec : HitRecord (Fl F)) :
    (hitPlane i j n m (ofReal a0 a1 b0 b1 k) ⟨cv o, cv d⟩ tmin tmax rec).1 = true ∧
      (hitPlane i j n m (ofReal a0 a1 b0 b1 k) ⟨cv o, cv d⟩ tmin tmax rec).2.t = Fl.nan := by
  unfold hitPlane ofReal
  simp only [cv_apply, sub_fin, hd, ho, sub_self, Fl.zero_div_zero, nan_lt, lt_nan, Scalar.gt, nan_mul, add_nan, Bool.or_false,
    Bool.false_eq_true, if_false]
  exact ⟨trivial, rfl⟩

end Rect

/-! ## C59 -/

/-- C59: for a ray that is not parallel to the rectangle, each of the three classes reports a hit exactly when the ray
meets the rectangle, edges included, in the range, with the parameter of the crossing.
Missing: rays within the plane, see `C59_coplanar_false`. -/
theorem C59_exact_partial [F.Exact] (a0 a1 b0 b1 k : ℝ) (o d : Fin 3 → ℝ) (tmin : Fl F) (hn : isNaN tmin = false) :
    (d 2 ≠ 0 → FindsNearest (rectSet 0 1 2 a0 a1 b0 b1 k) o d tmin ((Rect.ofReal a0 a1 b0 b1 k).hitXY ⟨cv o, cv d⟩ tmin)) ∧
    (d 1 ≠ 0 → FindsNearest (rectSet 0 2 1 a0 a1 b0 b1 k) o d tmin ((Rect.ofReal a0 a1 b0 b1 k).hitXZ ⟨cv o, cv d⟩ tmin)) ∧
    (d 0 ≠ 0 → FindsNearest (rectSet 1 2 0 a0 a1 b0 b1 k) o d tmin ((Rect.ofReal a0 a1 b0 b1 k).hitYZ ⟨cv o, cv d⟩ tmin)) :=
  ⟨fun h => Rect.hitPlane_nearest _ _ _ _ _ _ _ _ _ o d h tmin hn,
   fun h => Rect.hitPlane_nearest _ _ _ _ _ _ _ _ _ o d h tmin hn,
   fun h => Rect.hitPlane_nearest _ _ _ _ _ _ _ _ _ o d h tmin hn⟩

/-- A ray down through the unit square. -/
example : ((Rect.ofReal (F := exact64) 0 1 0 1 0).hitXY ⟨cv ![1/2, 1, 3], cv ![0, 0, -1]⟩ (fin 0) pinf
    (HitRecord.default Vec.nans Vec.nans true)).1 = true := by
  have h := (C59_exact_partial (F := exact64) 0 1 0 1 0 ![1/2, 1, 3] ![0, 0, -1] (fin 0) rfl).1
    (by show (-1:ℝ) ≠ 0; norm_num) pinf (HitRecord.default Vec.nans Vec.nans true) rfl
  refine h.1.mpr ⟨3, ⟨by rw [le_fin]; norm_num, by simp⟩, ?_⟩
  show (3:ℝ) + 3 * -1 = 0 ∧ (0 ≤ (1:ℝ)/2 + 3 * 0 ∧ (1:ℝ)/2 + 3 * 0 ≤ 1) ∧ 0 ≤ (1:ℝ) + 3 * 0 ∧ (1:ℝ) + 3 * 0 ≤ 1
  norm_num

/-- C59: a ray parallel to the plane and off it is never reported, whatever the range, even an infinite one. -/
theorem C59_parallel [F.Exact] (a0 a1 b0 b1 k : ℝ) (o d : Fin 3 → ℝ) (hd : d ≠ 0) (tmin tmax : Fl F) (rec : HitRecord (Fl F)) :
    (d 2 = 0 → o 2 ≠ k → (Rect.ofReal a0 a1 b0 b1 k).hitXY ⟨cv o, cv d⟩ tmin tmax rec = (false, rec)) ∧
    (d 1 = 0 → o 1 ≠ k → (Rect.ofReal a0 a1 b0 b1 k).hitXZ ⟨cv o, cv d⟩ tmin tmax rec = (false, rec)) ∧
    (d 0 = 0 → o 0 ≠ k → (Rect.ofReal a0 a1 b0 b1 k).hitYZ ⟨cv o, cv d⟩ tmin tmax rec = (false, rec)) := by
  have hne : ∀ i j n : Fin 3, (∀ l, l = i ∨ l = j ∨ l = n) → d n = 0 → d i ≠ 0 ∨ d j ≠ 0 := by
    intro i j n hl hn
    by_contra hc
    push Not at hc
    apply hd
    funext l
    rcases hl l with rfl | rfl | rfl
    · exact hc.1
    · exact hc.2
    · exact hn
  exact ⟨fun h h' => Rect.hitPlane_parallel _ _ _ _ _ _ _ _ _ o d h h' (hne 0 1 2 (by decide) h) _ _ _,
    fun h h' => Rect.hitPlane_parallel _ _ _ _ _ _ _ _ _ o d h h' (hne 0 2 1 (by decide) h) _ _ _,
    fun h h' => Rect.hitPlane_parallel _ _ _ _ _ _ _ _ _ o d h h' (hne 1 2 0 (by decide) h) _ _ _⟩

/-- A ray one unit above the unit square, with an infinite range. -/
example (rec : HitRecord (Fl exact64)) :
    (Rect.ofReal 0 1 0 1 0).hitXY ⟨cv ![0, 0, 1], cv ![1, 0, 0]⟩ (fin 0) pinf rec = (false, rec) :=
  (C59_parallel 0 1 0 1 0 ![0, 0, 1] ![1, 0, 0] (fun h => one_ne_zero (congrFun h 0)) (fin 0) pinf rec).1 rfl one_ne_zero

/-- C59, refuted: every ray that runs within the plane of the rectangle is reported as a hit, however far from the
rectangle it passes and whatever the range, with a parameter that is not a number. -/
theorem C59_coplanar_false [F.Exact] (a0 a1 b0 b1 k : ℝ) (o d : Fin 3 → ℝ) (tmin tmax : Fl F) (rec : HitRecord (Fl F)) :
    (d 2 = 0 → o 2 = k → ((Rect.ofReal a0 a1 b0 b1 k).hitXY ⟨cv o, cv d⟩ tmin tmax rec).1 = true ∧
      ((Rect.ofReal a0 a1 b0 b1 k).hitXY ⟨cv o, cv d⟩ tmin tmax rec).2.t = Fl.nan) ∧
    (d 1 = 0 → o 1 = k → ((Rect.ofReal a0 a1 b0 b1 k).hitXZ ⟨cv o, cv d⟩ tmin tmax rec).1 = true ∧
      ((Rect.ofReal a0 a1 b0 b1 k).hitXZ ⟨cv o, cv d⟩ tmin tmax rec).2.t = Fl.nan) ∧
    (d 0 = 0 → o 0 = k → ((Rect.ofReal a0 a1 b0 b1 k).hitYZ ⟨cv o, cv d⟩ tmin tmax rec).1 = true ∧
      ((Rect.ofReal a0 a1 b0 b1 k).hitYZ ⟨cv o, cv d⟩ tmin tmax rec).2.t = Fl.nan) :=
  ⟨fun h h' => Rect.hitPlane_coplanar _ _ _ _ _ _ _ _ _ o d h h' _ _ _,
   fun h h' => Rect.hitPlane_coplanar _ _ _ _ _ _ _ _ _ o d h h' _ _ _,
   fun h h' => Rect.hitPlane_coplanar _ _ _ _ _ _ _ _ _ o d h h' _ _ _⟩

/-- The unit square "hit" by a ray that passes ten units beside it. -/
example (rec : HitRecord (Fl exact64)) :
    ((Rect.ofReal 0 1 0 1 0).hitXY ⟨cv ![0, 10, 0], cv ![1, 0, 0]⟩ (fin 0) (fin 1) rec).1 = true :=
  ((C59_coplanar_false 0 1 0 1 0 ![0, 10, 0] ![1, 0, 0] (fin 0) (fin 1) rec).1 rfl rfl).1

/-! ## C60 -/

namespace Rect

theorem hitPlane_record [F.Exact] (i j n : Fin 3) (m : Fin 3 → ℝ) (a0 a1 b0 b1 k : ℝ) (ha : a0 < a1) (hb : b0 < b1)
    (o d : Fin 3 → ℝ) (hd : d n ≠ 0) (tmin tmax : Fl F) (rec : HitRecord (Fl F))
    (h : (hitPlane i j n (cv m) (ofReal a0 a1 b0 b1 k) ⟨cv o, cv d⟩ tmin tmax rec).1 = true) :
    let rec' := (hitPlane i j n (cv m) (ofReal a0 a1 b0 b1 k) ⟨cv o, cv d⟩ tmin tmax rec).2
    ∃ p ∈ rectSet i j n a0 a1 b0 b1 k, rec'.p = cv p ∧ ∃ u v : ℝ, rec'.u = fin u ∧ rec'.v = fin v ∧
      0 ≤ u ∧ u ≤ 1 ∧ 0 ≤ v ∧ v ≤ 1 ∧ p i = a0 + u * (a1 - a0) ∧ p j = b0 + v * (b1 - b0) ∧
      ∃ m', rec'.normal = cv m' ∧ (m' = m ∨ m' = -m) ∧ d ⬝ᵥ m' ≤ 0 := by
  have ha' : a1 - a0 ≠ 0 := by linarith
  have hb' : b1 - b0 ≠ 0 := by linarith
  rw [hitPlane_fin i j n (cv m) a0 a1 b0 b1 k o d hd tmin tmax rec] at h ⊢
  obtain ⟨t, ht⟩ : ∃ t, t = (k - o n) / d n := ⟨_, rfl⟩
  simp only [← ht] at h ⊢
  split_ifs at h ⊢ with h1 h2
  push Not at h2
  obtain ⟨g1, g2, g3, g4⟩ := h2
  refine ⟨o + t • d, ⟨?_, ⟨g1, g2⟩, g3, g4⟩, rfl, (o i + t * d i - a0) / (a1 - a0), (o j + t * d j - b0) / (b1 - b0), ?_, ?_,
    ?_, ?_, ?_, ?_, ?_, ?_, ?_⟩
  · show o n + t * d n = k
    rw [ht]; field_simp; ring
  · show (fin _ : Fl F) / fin _ = _
    rw [div_fin _ ha']
  · show (fin _ : Fl F) / fin _ = _
    rw [div_fin _ hb']
  · exact div_nonneg (by linarith) (by linarith)
  · rw [div_le_one (by linarith)]; linarith
  · exact div_nonneg (by linarith) (by linarith)
  · rw [div_le_one (by linarith)]; linarith
  · show o i + t * d i = _
    field_simp; ring
  · show o j + t * d j = _
    field_simp; ring
  · obtain ⟨m', hm, hdm, hmm, -⟩ := C37_opposes (F := F) ({ rec with
        u := (fin (o i + t * d i - a0) : Fl F) / fin (a1 - a0), v := (fin (o j + t * d j - b0) : Fl F) / fin (b1 - b0), t := fin t }) o d m
    exact ⟨m', hm, hmm, hdm⟩

end Rect

/-- C60: on a hit by a transversal ray the point is on the rectangle, `u` and `v` are in the unit interval and are the
relative position of the point in the two coordinates, and the normal is a unit coordinate vector across the rectangle that
does not point along the ray. -/
theorem C60_record [F.Exact] (a0 a1 b0 b1 k : ℝ) (ha : a0 < a1) (hb : b0 < b1) (o d : Fin 3 → ℝ) (tmin tmax : Fl F)
    (rec : HitRecord (Fl F)) :
    (∀ rec', d 2 ≠ 0 → (Rect.ofReal a0 a1 b0 b1 k).hitXY ⟨cv o, cv d⟩ tmin tmax rec = (true, rec') →
      ∃ p ∈ rectSet 0 1 2 a0 a1 b0 b1 k, rec'.p = cv p ∧ ∃ u v : ℝ, rec'.u = fin u ∧ rec'.v = fin v ∧
        0 ≤ u ∧ u ≤ 1 ∧ 0 ≤ v ∧ v ≤ 1 ∧ p 0 = a0 + u * (a1 - a0) ∧ p 1 = b0 + v * (b1 - b0) ∧
        ∃ m, rec'.normal = cv m ∧ (m = ![0, 0, 1] ∨ m = -![0, 0, 1]) ∧ d ⬝ᵥ m ≤ 0) ∧
    (∀ rec', d 1 ≠ 0 → (Rect.ofReal a0 a1 b0 b1 k).hitXZ ⟨cv o, cv d⟩ tmin tmax rec = (true, rec') →
      ∃ p ∈ rectSet 0 2 1 a0 a1 b0 b1 k, rec'.p = cv p ∧ ∃ u v : ℝ, rec'.u = fin u ∧ rec'.v = fin v ∧
        0 ≤ u ∧ u ≤ 1 ∧ 0 ≤ v ∧ v ≤ 1 ∧ p 0 = a0 + u * (a1 - a0) ∧ p 2 = b0 + v * (b1 - b0) ∧
        ∃ m, rec'.normal = cv m ∧ (m = ![0, 1, 0] ∨ m = -![0, 1, 0]) ∧ d ⬝ᵥ m ≤ 0) ∧
    (∀ rec', d 0 ≠ 0 → (Rect.ofReal a0 a1 b0 b1 k).hitYZ ⟨cv o, cv d⟩ tmin tmax rec = (true, rec') →
      ∃ p ∈ rectSet 1 2 0 a0 a1 b0 b1 k, rec'.p = cv p ∧ ∃ u v : ℝ, rec'.u = fin u ∧ rec'.v = fin v ∧
        0 ≤ u ∧ u ≤ 1 ∧ 0 ≤ v ∧ v ≤ 1 ∧ p 1 = a0 + u * (a1 - a0) ∧ p 2 = b0 + v * (b1 - b0) ∧
        ∃ m, rec'.normal = cv m ∧ (m = ![1, 0, 0] ∨ m = -![1, 0, 0]) ∧ d ⬝ᵥ m ≤ 0) := by
  have e : ∀ a b c : ℕ, (![(OfNat.ofNat a : Fl F), OfNat.ofNat b, OfNat.ofNat c] : Vec (Fl F) 3) = cv ![(a:ℝ), b, c] := by
    intro a b c; rw [ofNat_def, ofNat_def, ofNat_def, cv_vec3]
  refine ⟨fun rec' hd h => ?_, fun rec' hd h => ?_, fun rec' hd h => ?_⟩
  · have em : (![0, 0, 1] : Vec (Fl F) 3) = cv ![0, 0, 1] := by simpa using e 0 0 1
    unfold Rect.hitXY at h
    rw [em] at h
    have := Rect.hitPlane_record 0 1 2 ![0, 0, 1] a0 a1 b0 b1 k ha hb o d hd tmin tmax rec (by rw [h])
    rwa [h] at this
  · have em : (![0, 1, 0] : Vec (Fl F) 3) = cv ![0, 1, 0] := by simpa using e 0 1 0
    unfold Rect.hitXZ at h
    rw [em] at h
    have := Rect.hitPlane_record 0 2 1 ![0, 1, 0] a0 a1 b0 b1 k ha hb o d hd tmin tmax rec (by rw [h])
    rwa [h] at this
  · have em : (![1, 0, 0] : Vec (Fl F) 3) = cv ![1, 0, 0] := by simpa using e 1 0 0
    unfold Rect.hitYZ at h
    rw [em] at h
    have := Rect.hitPlane_record 1 2 0 ![1, 0, 0] a0 a1 b0 b1 k ha hb o d hd tmin tmax rec (by rw [h])
    rwa [h] at this

example (rec : HitRecord (Fl exact64)) : ∃ rec', (Rect.ofReal 0 1 0 1 0).hitXY ⟨cv ![1/2, 1, 3], cv ![0, 0, -1]⟩ (fin 0) pinf rec = (true, rec') ∧
    ∃ p ∈ rectSet 0 1 2 0 1 0 1 0, rec'.p = cv p := by
  have h := (C59_exact_partial (F := exact64) 0 1 0 1 0 ![1/2, 1, 3] ![0, 0, -1] (fin 0) rfl).1
    (by show (-1:ℝ) ≠ 0; norm_num) pinf rec rfl
  have h1 := h.1.mpr ⟨3, ⟨by rw [le_fin]; norm_num, by simp⟩, by
    show (3:ℝ) + 3 * -1 = 0 ∧ (0 ≤ (1:ℝ)/2 + 3 * 0 ∧ (1:ℝ)/2 + 3 * 0 ≤ 1) ∧ 0 ≤ (1:ℝ) + 3 * 0 ∧ (1:ℝ) + 3 * 0 ≤ 1
    norm_num⟩
  obtain ⟨p, hp, hrp, -⟩ := (C60_record (F := exact64) 0 1 0 1 0 one_pos one_pos ![1/2, 1, 3] ![0, 0, -1] (fin 0) pinf rec).1 _
    (by show (-1:ℝ) ≠ 0; norm_num) (Prod.ext h1 rfl)
  exact ⟨_, Prod.ext h1 rfl, p, hp, hrp⟩

/-- C60, refuted in one clause: `operator()` never gives back the point, it returns NaNs for all parameters. -/
theorem C60_eval_false [F.Exact] (s : Rect (Fl F)) (u v : Fl F) (p : Fin 3 → ℝ) : s.eval u v ≠ cv p := by
  intro h
  have := congrFun h 0
  exact nan_ne_fin this

/-- C60: a rectangle writes no fundamental form, so the curvature read from the record is the one it held before. -/
theorem C60_forms_kept (i j n : Fin 3) (m : Vec (Fl F) 3) (s : Rect (Fl F)) (r : Ray (Fl F)) (tmin tmax : Fl F)
    (rec : HitRecord (Fl F)) :
    (Rect.hitPlane i j n m s r tmin tmax rec).2.gaussianCurvature = rec.gaussianCurvature ∧
    (Rect.hitPlane i j n m s r tmin tmax rec).2.gradMag = rec.gradMag := by
  unfold Rect.hitPlane
  dsimp only
  split_ifs <;> exact ⟨rfl, rfl⟩

/-- C60: each box contains its rectangle and has positive thickness across it. -/
theorem C60_box [F.Exact] (a0 a1 b0 b1 k : ℝ) :
    (∃ lo hi : Fin 3 → ℝ, (Rect.ofReal a0 a1 b0 b1 k : Rect (Fl F)).bboxXY = (true, ⟨cv lo, cv hi⟩) ∧
      (∀ p ∈ rectSet 0 1 2 a0 a1 b0 b1 k, ∀ i, lo i ≤ p i ∧ p i ≤ hi i) ∧ lo 2 < hi 2 ∧ lo 0 = a0 ∧ hi 0 = a1 ∧ lo 1 = b0 ∧ hi 1 = b1) ∧
    (∃ lo hi : Fin 3 → ℝ, (Rect.ofReal a0 a1 b0 b1 k : Rect (Fl F)).bboxXZ = (true, ⟨cv lo, cv hi⟩) ∧
      (∀ p ∈ rectSet 0 2 1 a0 a1 b0 b1 k, ∀ i, lo i ≤ p i ∧ p i ≤ hi i) ∧ lo 1 < hi 1 ∧ lo 0 = a0 ∧ hi 0 = a1 ∧ lo 2 = b0 ∧ hi 2 = b1) ∧
    (∃ lo hi : Fin 3 → ℝ, (Rect.ofReal a0 a1 b0 b1 k : Rect (Fl F)).bboxYZ = (true, ⟨cv lo, cv hi⟩) ∧
      (∀ p ∈ rectSet 1 2 0 a0 a1 b0 b1 k, ∀ i, lo i ≤ p i ∧ p i ≤ hi i) ∧ lo 0 < hi 0 ∧ lo 1 = a0 ∧ hi 1 = a1 ∧ lo 2 = b0 ∧ hi 2 = b1) := by
  have heps := Fmt.Exact.eps_pos (F := F)
  obtain ⟨e, he⟩ : ∃ e, e = Real.sqrt F.eps / 100 := ⟨_, rfl⟩
  have he0 : 0 < e := by rw [he]; exact div_pos (Real.sqrt_pos.mpr heps) (by norm_num)
  have hpad : (Rect.pad : Fl F) = fin e := by
    unfold Rect.pad
    rw [eps_def, sqrt_fin heps.le, ofNat_def, div_fin _ (by norm_num), he]; norm_num
  refine ⟨⟨![a0, b0, k - e], ![a1, b1, k + e], ?_, ?_, ?_, rfl, rfl, rfl, rfl⟩,
    ⟨![a0, k - e, b0], ![a1, k + e, b1], ?_, ?_, ?_, rfl, rfl, rfl, rfl⟩,
    ⟨![k - e, a0, b0], ![k + e, a1, b1], ?_, ?_, ?_, rfl, rfl, rfl, rfl⟩⟩
  · unfold Rect.bboxXY Rect.ofReal; simp only [hpad, sub_fin, add_fin, cv_vec3]
  · rintro p ⟨hk, ⟨h1, h2⟩, h3, h4⟩ i
    match i with
    | 0 => exact ⟨h1, h2⟩
    | 1 => exact ⟨h3, h4⟩
    | 2 => exact ⟨by show k - e ≤ _; linarith, by show _ ≤ k + e; linarith⟩
  · show k - e < k + e; linarith
  · unfold Rect.bboxXZ Rect.ofReal; simp only [hpad, sub_fin, add_fin, cv_vec3]
  · rintro p ⟨hk, ⟨h1, h2⟩, h3, h4⟩ i
    match i with
    | 0 => exact ⟨h1, h2⟩
    | 2 => exact ⟨h3, h4⟩
    | 1 => exact ⟨by show k - e ≤ _; linarith, by show _ ≤ k + e; linarith⟩
  · show k - e < k + e; linarith
  · unfold Rect.bboxYZ Rect.ofReal; simp only [hpad, sub_fin, add_fin, cv_vec3]
  · rintro p ⟨hk, ⟨h1, h2⟩, h3, h4⟩ i
    match i with
    | 1 => exact ⟨h1, h2⟩
    | 2 => exact ⟨h3, h4⟩
    | 0 => exact ⟨by show k - e ≤ _; linarith, by show _ ≤ k + e; linarith⟩
  · show k - e < k + e; linarith

/-- C93: a rectangle that is missed leaves the record as it was, for any rounding. -/
theorem C93_rect (i j n : Fin 3) (m : Vec (Fl F) 3) (s : Rect (Fl F)) (r : Ray (Fl F)) (tmin tmax : Fl F) (rec : HitRecord (Fl F))
    (h : (Rect.hitPlane i j n m s r tmin tmax rec).1 = false) : (Rect.hitPlane i j n m s r tmin tmax rec).2 = rec := by
  unfold Rect.hitPlane at h ⊢
  dsimp only at h ⊢
  split_ifs at h ⊢ <;> rfl

/-- A miss: the parallel ray of the example above. -/
example (rec : HitRecord (Fl exact64)) :
    ((Rect.ofReal 0 1 0 1 0).hitXY ⟨cv ![0, 0, 1], cv ![1, 0, 0]⟩ (fin 0) pinf rec).2 = rec :=
  C93_rect _ _ _ _ _ _ _ _ rec (by
    have := (C59_parallel 0 1 0 1 0 ![0, 0, 1] ![1, 0, 0] (fun h => one_ne_zero (congrFun h 0)) (fin 0) pinf rec).1 rfl one_ne_zero
    exact congrArg Prod.fst this)

end DRT
