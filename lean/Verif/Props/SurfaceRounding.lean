import Verif.Props.TorusRounding
import Verif.Props.Cylinder
import Verif.Props.Ellipsoid
import Verif.Model.Rect

/-! # C118: hit points of rectangles, cylinders and ellipsoids up to rounding -/

namespace DRT
open Scalar Vec Fl

variable {F : Fmt} [F.Free]

/-! ## Rectangles -/

/-- The coordinate across the rectangle, as computed: there and back again. -/
theorem plane_coordinate {k o d : ℝ} (hd : d ≠ 0) : ∃ t p : ℝ, ((fin k : Fl F) - fin o) / fin d = fin t ∧
    (fin o : Fl F) + fin t * fin d = fin p ∧ |p - k| ≤ F.eps * |k| + 3.1 * F.eps * |k - o| := by
  have e0 := eps_pos' (F := F)
  have e1 := eps_le' (F := F)
  obtain ⟨δ1, h1, q1⟩ := sub_rel (F := F) k o
  obtain ⟨δ2, h2, q2⟩ := div_rel (F := F) ((k - o) * (1 + δ1)) hd
  obtain ⟨δ3, h3, q3⟩ := mul_rel (F := F) ((k - o) * (1 + δ1) / d * (1 + δ2)) d
  obtain ⟨δ4, h4, q4⟩ := add_rel (F := F) o ((k - o) * (1 + δ1) / d * (1 + δ2) * d * (1 + δ3))
  refine ⟨_, _, by rw [q1, q2], by rw [q3, q4], ?_⟩
  have e : (k - o) * (1 + δ1) / d * (1 + δ2) * d * (1 + δ3) = (k - o) * ((1 + δ1) * (1 + δ2) * (1 + δ3)) := by field_simp
  rw [e]
  obtain ⟨a1, b1⟩ := abs_le.mp h1
  obtain ⟨a2, b2⟩ := abs_le.mp h2
  obtain ⟨a3, b3⟩ := abs_le.mp h3
  generalize F.eps = ε at *
  have hm : |(1 + δ1) * (1 + δ2) * (1 + δ3) - 1| ≤ 3.03 * ε := by
    have u12 : (1 + δ1) * (1 + δ2) ≤ (1 + ε) * (1 + ε) := mul_le_mul (by linarith) (by linarith) (by linarith) (by linarith)
    have l12 : (1 - ε) * (1 - ε) ≤ (1 + δ1) * (1 + δ2) := mul_le_mul (by linarith) (by linarith) (by linarith) (by linarith)
    have p12 : 0 ≤ (1 + δ1) * (1 + δ2) := mul_nonneg (by linarith) (by linarith)
    have u : (1 + δ1) * (1 + δ2) * (1 + δ3) ≤ (1 + ε) * (1 + ε) * (1 + ε) := mul_le_mul u12 (by linarith) (by linarith) (by positivity)
    have l : (1 - ε) * (1 - ε) * (1 - ε) ≤ (1 + δ1) * (1 + δ2) * (1 + δ3) := mul_le_mul l12 (by linarith) (by linarith) p12
    rw [abs_le]
    constructor
    · refine le_trans ?_ (sub_le_sub_right l 1); nlinarith [sq_nonneg ε]
    · refine (sub_le_sub_right u 1).trans ?_; nlinarith [sq_nonneg ε]
  generalize (1 + δ1) * (1 + δ2) * (1 + δ3) = m at *
  have e2 : (o + (k - o) * m) * (1 + δ4) - k = k * δ4 + (k - o) * (m - 1) * (1 + δ4) := by ring
  rw [e2]
  refine (abs_add_le _ _).trans ?_
  rw [abs_mul, abs_mul, abs_mul]
  have h5 : |1 + δ4| ≤ 1 + ε := by
    have := abs_add_le 1 δ4; rw [abs_one] at this; linarith
  have c1 : |k| * |δ4| ≤ ε * |k| := by nlinarith [abs_nonneg k]
  have c2 : |m - 1| * |1 + δ4| ≤ 3.03 * ε * (1 + ε) := mul_le_mul hm h5 (abs_nonneg _) (by linarith)
  have c3 : |k - o| * (|m - 1| * |1 + δ4|) ≤ |k - o| * (3.1 * ε) :=
    mul_le_mul_of_nonneg_left (c2.trans (by nlinarith)) (abs_nonneg _)
  nlinarith

/-- The rectangle as the set of its points: coordinates `i`, `j` in the sides, coordinate `n` equal to `k` up to `η`. -/
def NearRect (i j n : Fin 3) (a0 a1 b0 b1 k η : ℝ) (p : Fin 3 → ℝ) : Prop :=
  a0 ≤ p i ∧ p i ≤ a1 ∧ b0 ≤ p j ∧ p j ≤ b1 ∧ |p n - k| ≤ η

theorem Rect.plane_near (i j n : Fin 3) (nrm : Vec (Fl F) 3) {a0 a1 b0 b1 k : ℝ} {o d : Fin 3 → ℝ} (hd : d n ≠ 0)
    {tmin tmax : Fl F} {rec out : HitRecord (Fl F)}
    (h : Rect.hitPlane i j n nrm ⟨fin a0, fin a1, fin b0, fin b1, fin k⟩ ⟨fun i => fin (o i), fun i => fin (d i)⟩ tmin tmax rec =
      (true, out)) :
    ∃ p : Fin 3 → ℝ, out.p = (fun i => fin (p i)) ∧
      NearRect i j n a0 a1 b0 b1 k (F.eps * |k| + 3.1 * F.eps * |k - o n|) p := by
  obtain ⟨t, pn, ht, hpn, hk⟩ := plane_coordinate (F := F) (k := k) (o := o n) hd
  unfold Rect.hitPlane at h
  simp only [ht] at h
  split_ifs at h with h1 h2
  · exact absurd (congrArg Prod.fst h) Bool.false_ne_true
  · exact absurd (congrArg Prod.fst h) Bool.false_ne_true
  have hnum : ∀ l, IsNum ((fin (o l) : Fl F) + fin t * fin (d l)) := fun l => (IsNum.of _).add ((IsNum.of _).mul (IsNum.of _))
  choose p hp using hnum
  refine ⟨p, ?_, ?_⟩
  · rw [← congrArg HitRecord.p (congrArg Prod.snd h)]
    exact funext hp
  · rw [hp i, hp j] at h2
    simp only [Scalar.gt, lt_fin, Bool.or_eq_true, decide_eq_true_eq, not_or, not_lt] at h2
    obtain ⟨⟨⟨q1, q2⟩, q3⟩, q4⟩ := h2
    refine ⟨q1, q2, q3, q4, ?_⟩
    have : p n = pn := by rw [← fin_inj (F := F), ← hp n, hpn]
    rw [this]; exact hk

/-- C118 for the rectangles of each orientation. Inside the rectangle no error is made at all; across it the error is
a few machine epsilons of the distance that the ray starts from the plane, for glancing rays too. -/
theorem C118_rect {a0 a1 b0 b1 k : ℝ} {o d : Fin 3 → ℝ} {tmin tmax : Fl F} {rec out : HitRecord (Fl F)} :
    (Rect.hitXY ⟨fin a0, fin a1, fin b0, fin b1, fin k⟩ ⟨fun i => fin (o i), fun i => fin (d i)⟩ tmin tmax rec = (true, out) →
      d 2 ≠ 0 → ∃ p : Fin 3 → ℝ, out.p = (fun i => fin (p i)) ∧
        NearRect 0 1 2 a0 a1 b0 b1 k (F.eps * |k| + 3.1 * F.eps * |k - o 2|) p) ∧
    (Rect.hitXZ ⟨fin a0, fin a1, fin b0, fin b1, fin k⟩ ⟨fun i => fin (o i), fun i => fin (d i)⟩ tmin tmax rec = (true, out) →
      d 1 ≠ 0 → ∃ p : Fin 3 → ℝ, out.p = (fun i => fin (p i)) ∧
        NearRect 0 2 1 a0 a1 b0 b1 k (F.eps * |k| + 3.1 * F.eps * |k - o 1|) p) ∧
    (Rect.hitYZ ⟨fin a0, fin a1, fin b0, fin b1, fin k⟩ ⟨fun i => fin (o i), fun i => fin (d i)⟩ tmin tmax rec = (true, out) →
      d 0 ≠ 0 → ∃ p : Fin 3 → ℝ, out.p = (fun i => fin (p i)) ∧
        NearRect 1 2 0 a0 a1 b0 b1 k (F.eps * |k| + 3.1 * F.eps * |k - o 0|) p) :=
  ⟨fun h hd => Rect.plane_near 0 1 2 _ hd h, fun h hd => Rect.plane_near 0 2 1 _ hd h, fun h hd => Rect.plane_near 1 2 0 _ hd h⟩

/-- A ray up through the unit square at height 3, with 53 bits and rounding. -/
example (rec : HitRecord (Fl (unbounded 53))) :
    ∃ out, Rect.hitXY ⟨fin 0, fin 1, fin 0, fin 1, fin 3⟩
      ⟨fun i => fin ((![0, 1, 0] : Fin 3 → ℝ) i), fun i => fin ((![0, 0, 1] : Fin 3 → ℝ) i)⟩ (fin 0) pinf rec = (true, out) := by
  have hn : ∀ (n : ℕ) (x : ℝ), n ≤ 256 → x = n → rnd (unbounded 53) x = fin x := by
    rintro n x h rfl; exact Fmt.Rounding.small n h
  have ht : ((fin 3 : Fl (unbounded 53)) - fin 0) / fin 1 = fin 3 := by
    have h1 : (fin 3 : Fl (unbounded 53)) - fin 0 = fin 3 := by
      rw [Fl.sub_eq, Fl.neg_fin]
      show rnd (unbounded 53) (3 + -0) = _
      rw [hn 3 _ (by norm_num) (by norm_num)]; norm_num
    rw [h1, show (fin 3 : Fl (unbounded 53)) / fin 1 = rnd (unbounded 53) (3 / 1) from if_neg one_ne_zero,
      hn 3 _ (by norm_num) (by norm_num)]
    norm_num
  have h0 : (fin 3 : Fl (unbounded 53)) * fin 0 = fin 0 := by
    show rnd (unbounded 53) (3 * 0) = _; rw [hn 0 _ (by norm_num) (by norm_num)]; norm_num
  have hx : (fin 0 : Fl (unbounded 53)) + fin 0 = fin 0 := by
    show rnd (unbounded 53) (0 + 0) = _; rw [hn 0 _ (by norm_num) (by norm_num)]; norm_num
  have hy : (fin 1 : Fl (unbounded 53)) + fin 0 = fin 1 := by
    show rnd (unbounded 53) (1 + 0) = _; rw [hn 1 _ (by norm_num) (by norm_num)]; norm_num
  unfold Rect.hitXY Rect.hitPlane
  simp only [Fin.isValue, Matrix.cons_val_zero, Matrix.cons_val_one, Matrix.cons_val, ht, h0, hx, hy, Scalar.gt, lt_fin]
  norm_num

/-! ## Cylinders -/

/-- C118 for cylinders: a recorded point that is finite is on the (infinite) cylinder up to 27 machine epsilons of the radius,
whatever the record held before; unless it is the point that the record held before, its height is in the range exactly. -/
theorem C118_cylinder {ρ zmin zmax : ℝ} {r : Ray (Fl F)} {tmin tmax : Fl F} {rec out : HitRecord (Fl F)} {p : Fin 3 → ℝ}
    (h : Cylinder.hit ⟨fin ρ, fin zmin, fin zmax⟩ r tmin tmax rec = (true, out)) (hp : out.p = fun i => fin (p i)) :
    |Real.sqrt (p 0 ^ 2 + p 1 ^ 2) - (|ρ|)| ≤ 27 * F.eps * |ρ| ∧ (out.p = rec.p ∨ zmin ≤ p 2 ∧ p 2 ≤ zmax) := by
  have e0 := eps_pos' (F := F)
  have e1 := eps_le' (F := F)
  have key : ∀ rc : HitRecord (Fl F), Cylinder.finish ⟨fin ρ, fin zmin, fin zmax⟩ r rc = (true, out) → out.p = rc.p ∧
      Scalar.gt (Scalar.abs (Cylinder.residual (⟨fin ρ, fin zmin, fin zmax⟩ : Cylinder (Fl F)) out.p))
        (Cylinder.expectedResidual (⟨fin ρ, fin zmin, fin zmax⟩ : Cylinder (Fl F)) out.p) = false := by
    intro rc hf
    unfold Cylinder.finish at hf
    dsimp only at hf
    split_ifs at hf with hg
    · exact absurd (congrArg Prod.fst hf) Bool.false_ne_true
    · obtain rfl : _ = out := congrArg Prod.snd hf
      exact ⟨rfl, by simpa using hg⟩
  have hmain : (out.p = rec.p ∨ zmin ≤ p 2 ∧ p 2 ≤ zmax) ∧
      Scalar.gt (Scalar.abs (Cylinder.residual (⟨fin ρ, fin zmin, fin zmax⟩ : Cylinder (Fl F)) out.p))
        (Cylinder.expectedResidual (⟨fin ρ, fin zmin, fin zmax⟩ : Cylinder (Fl F)) out.p) = false := by
    have hz : ∀ rc : HitRecord (Fl F), Cylinder.finish ⟨fin ρ, fin zmin, fin zmax⟩ r rc = (true, out) →
        ¬ (Scalar.gt (rc.p 2) (fin zmax) || Scalar.lt (rc.p 2) (fin zmin)) = true → zmin ≤ p 2 ∧ p 2 ≤ zmax := by
      intro rc hf hn
      rw [← (key rc hf).1, hp] at hn
      simp only [Scalar.gt, lt_fin, Bool.or_eq_true, decide_eq_true_eq, not_or, not_lt] at hn
      exact ⟨hn.2, hn.1⟩
    unfold Cylinder.hit at h
    dsimp only at h
    split at h
    · split_ifs at h with g1 g2 g3 g4 g5
      · exact absurd (congrArg Prod.fst h) Bool.false_ne_true
      · exact ⟨Or.inl (key _ h).1, (key _ h).2⟩
      · exact absurd (congrArg Prod.fst h) Bool.false_ne_true
      · exact absurd (congrArg Prod.fst h) Bool.false_ne_true
      · exact ⟨Or.inr (hz _ h g5), (key _ h).2⟩
      · exact ⟨Or.inr (hz _ h g3), (key _ h).2⟩
    · exact absurd (congrArg Prod.fst h) Bool.false_ne_true
  refine ⟨?_, hmain.1⟩
  have hres := hmain.2
  rw [hp] at hres
  have A1 : App 3 (Cylinder.residual (⟨fin ρ, fin zmin, fin zmax⟩ : Cylinder (Fl F)) (fun i => fin (p i)))
      (p 0 * p 0 + p 1 * p 1 - ρ * ρ) (p 0 ^ 2 + p 1 ^ 2 + ρ ^ 2) :=
    ((((App.fin' (p 0)).mul (App.fin' (p 0))).add ((App.fin' (p 1)).mul (App.fin' (p 1)))).sub
      ((App.fin' ρ).mul (App.fin' ρ))).weaken (by norm_num) (by simp only [abs_mul_abs_self]; exact le_of_eq (by ring))
  have A2 : App 3 (Cylinder.expectedResidual (⟨fin ρ, fin zmin, fin zmax⟩ : Cylinder (Fl F)) (fun i => fin (p i)))
      (((20 : ℕ) : ℝ) * F.eps * ρ * ρ) (20 * F.eps * ρ ^ 2) :=
    (((((App.lit 20 (by norm_num)).mul (App.fin' F.eps)).mul (App.fin' ρ)).mul (App.fin' ρ)).weaken (by norm_num) (by
      rw [abs_of_pos e0, mul_assoc, abs_mul_abs_self]; push_cast; exact le_of_eq (by ring)))
  obtain ⟨y, hy, y1, y2⟩ := A1
  obtain ⟨w, hw, w1, w2⟩ := A2
  rw [hy, hw, abs_fin, Scalar.gt, lt_fin, decide_eq_false_iff_not, not_lt] at hres
  have hq : 0 ≤ p 0 ^ 2 + p 1 ^ 2 := by positivity
  have hs := Real.sq_sqrt hq
  have hs0 := Real.sqrt_nonneg (p 0 ^ 2 + p 1 ^ 2)
  have hr2 : |ρ| ^ 2 = ρ ^ 2 := sq_abs ρ
  have hr0 := abs_nonneg ρ
  have hc : p 0 * p 0 + p 1 * p 1 - ρ * ρ = Real.sqrt (p 0 ^ 2 + p 1 ^ 2) ^ 2 - |ρ| ^ 2 := by rw [hs, hr2]; ring
  rw [hc] at y2
  obtain ⟨q, hqd⟩ : ∃ q, Real.sqrt (p 0 ^ 2 + p 1 ^ 2) = q := ⟨_, rfl⟩
  rw [hqd] at hs hs0 y2 ⊢
  rw [← hs, ← hr2] at y2
  rw [← hr2] at w1 w2
  have hwu : w ≤ 20 * F.eps * |ρ| ^ 2 + ((1 + F.eps) ^ 3 - 1) * (20 * F.eps * |ρ| ^ 2) := by
    have := le_abs_self (w - ((20 : ℕ) : ℝ) * F.eps * ρ * ρ)
    have := le_abs_self (((20 : ℕ) : ℝ) * F.eps * ρ * ρ)
    linarith
  clear hqd hc
  generalize |ρ| = s at *
  generalize F.eps = ε at *
  have g3 : (1 + ε) ^ 3 - 1 ≤ 3.02 * ε := by nlinarith [sq_nonneg ε]
  have b1 : |q ^ 2 - s ^ 2| ≤ |y| + |y - (q ^ 2 - s ^ 2)| := by
    have := abs_sub y (y - (q ^ 2 - s ^ 2)); rwa [show y - (y - (q ^ 2 - s ^ 2)) = q ^ 2 - s ^ 2 by ring] at this
  have b2 : |y - (q ^ 2 - s ^ 2)| ≤ 3.02 * ε * (q ^ 2 + s ^ 2) := y2.trans (mul_le_mul_of_nonneg_right g3 (by positivity))
  have b3 : w ≤ 20.3 * ε * s ^ 2 := by
    have : ((1 + ε) ^ 3 - 1) * (20 * ε * s ^ 2) ≤ 0.012 * (20 * ε * s ^ 2) := mul_le_mul_of_nonneg_right (by linarith) (by positivity)
    nlinarith [mul_nonneg e0.le (sq_nonneg s)]
  have b4 : |q ^ 2 - s ^ 2| ≤ 20.3 * ε * s ^ 2 + 3.02 * ε * (q ^ 2 + s ^ 2) := by linarith
  have e3 : 0 ≤ ε * s ^ 2 := by positivity
  have b5 : q ^ 2 ≤ 1.11 * s ^ 2 := by
    have := le_abs_self (q ^ 2 - s ^ 2)
    nlinarith [sq_nonneg q, sq_nonneg s]
  have b6 : |q ^ 2 - s ^ 2| ≤ 27 * ε * s ^ 2 := by nlinarith
  rw [show q ^ 2 - s ^ 2 = (q - s) * (q + s) by ring, abs_mul, abs_of_nonneg (by linarith : 0 ≤ q + s)] at b6
  rcases hr0.eq_or_lt with rfl | hpos
  · have : q = 0 := by nlinarith
    simp [this]
  · have : |q - s| * s ≤ 27 * ε * s * s := by nlinarith [abs_nonneg (q - s)]
    exact le_of_mul_le_mul_right this hpos

/-- A ray that passes over the near rim and hits the far wall. -/
example : ∃ out, (Cylinder.ofReal (F := exact0) 1 0 1).hit ⟨cv ![-2, 0, 2], cv ![1, 0, -1/2]⟩ (fin 0) pinf
      (HitRecord.default Vec.nans Vec.nans true) = (true, out) ∧ ∃ p : Fin 3 → ℝ, out.p = fun i => fin (p i) := by
  have key := C65_outside_partial (F := exact0) 1 0 1 ![-2, 0, 2] ![1, 0, -1/2] (fin 0) rfl
    (by show (0:ℝ) < 1 ^ 2 + 0 ^ 2; norm_num) (by right; show (0:ℝ) < |2 * (-2 * 1 + 0 * 0)|; norm_num)
    (by intro t ht
        rw [fin_inj] at ht; subst ht
        show (1:ℝ) ^ 2 < (-2 + 0 * 1) ^ 2 + (0 + 0 * 0) ^ 2; norm_num) pinf (HitRecord.default Vec.nans Vec.nans true) rfl
  have h1 := key.1.mpr ⟨3, ⟨by rw [le_fin]; norm_num, by simp⟩, by
    refine ⟨?_, ?_, ?_⟩
    · show (-2 + 3 * 1 : ℝ) ^ 2 + (0 + 3 * 0) ^ 2 = 1 ^ 2; norm_num
    · show (0:ℝ) ≤ 2 + 3 * (-1/2); norm_num
    · show (2 + 3 * (-1/2) : ℝ) ≤ 1; norm_num⟩
  obtain ⟨z, -, h2, -⟩ := key.2 h1
  exact ⟨_, Prod.ext h1 rfl, _, h2⟩

/-! ## Ellipsoids -/

theorem App.div_fin {k : ℕ} {z : Fl F} {x M s : ℝ} (h : App k z x M) (hs : s ≠ 0) : App (k + 1) (z / fin s) (x / s) (M / |s|) := by
  obtain ⟨y, rfl, h1, h2⟩ := h
  have hs' := abs_pos.mpr hs
  rw [show (fin y : Fl F) / fin s = rnd F (y / s) from if_neg hs]
  refine App.round ?_ ?_
  · rw [abs_div]; exact div_le_div_of_nonneg_right h1 hs'.le
  · rw [← sub_div, abs_div, ← mul_div_assoc]; exact div_le_div_of_nonneg_right h2 hs'.le

theorem pow9_bound {ε : ℝ} (e0 : 0 < ε) (e1 : ε ≤ 1 / 256) : (1 + ε) ^ 9 - 1 ≤ 9.2 * ε := by
  obtain ⟨h7, h2⟩ := pow_eps_bound e0 e1
  have : (1 + ε) ^ 7 * (1 + ε) ^ 2 ≤ (1 + 7.1 * ε) * (1 + 2.01 * ε) := mul_le_mul (by linarith) (by linarith) (by positivity) (by positivity)
  nlinarith

omit [F.Free] in
/-- As `coefficients_shift`, with two more roundings in the coefficients. -/
theorem coefficients_shift9 {ε A B C a b c t Nb Nc : ℝ} (e0 : 0 < ε) (e1 : ε ≤ 1 / 256) (hA : 0 ≤ A) (hB : |B| ≤ Nb)
    (hC : |C| ≤ Nc)
    (ha : |a - A| ≤ 9.2 * ε * A) (hb : |b - B| ≤ 9.2 * ε * Nb) (hc : |c - C| ≤ 9.2 * ε * Nc)
    (h : |a * t ^ 2 + b * t + c| ≤ 12 * ε * (|a| * t ^ 2 + |b| * |t| + |c|)) :
    |A * t ^ 2 + B * t + C| ≤ 22 * ε * (A * t ^ 2 + Nb * |t| + Nc) := by
  have ht := sq_nonneg t
  have ht' := abs_nonneg t
  have hNb : 0 ≤ Nb := (abs_nonneg B).trans hB
  have hNc : 0 ≤ Nc := (abs_nonneg C).trans hC
  have k1 : |a| ≤ 1.04 * A := by
    have := abs_add_le A (a - A)
    rw [show A + (a - A) = a by ring, abs_of_nonneg hA] at this
    nlinarith
  have k2 : |b| ≤ 1.04 * Nb := by
    have := abs_add_le B (b - B)
    rw [show B + (b - B) = b by ring] at this
    nlinarith
  have k3 : |c| ≤ 1.04 * Nc := by
    have := abs_add_le C (c - C)
    rw [show C + (c - C) = c by ring] at this
    nlinarith
  have m1 : |(a - A) * t ^ 2| ≤ 9.2 * ε * A * t ^ 2 := by
    rw [abs_mul, abs_of_nonneg ht]; exact mul_le_mul_of_nonneg_right ha ht
  have m2 : |(b - B) * t| ≤ 9.2 * ε * Nb * |t| := by
    rw [abs_mul]; exact mul_le_mul_of_nonneg_right hb ht'
  have n1 := mul_le_mul_of_nonneg_right k1 ht
  have n2 := mul_le_mul_of_nonneg_right k2 ht'
  have s1 : |A * t ^ 2 + B * t + C| ≤
      |a * t ^ 2 + b * t + c| + (|(a - A) * t ^ 2| + |(b - B) * t| + |c - C|) := by
    have w1 := abs_sub (a * t ^ 2 + b * t + c) ((a - A) * t ^ 2 + (b - B) * t + (c - C))
    have w2 := abs_add_le ((a - A) * t ^ 2 + (b - B) * t) (c - C)
    have w3 := abs_add_le ((a - A) * t ^ 2) ((b - B) * t)
    rw [show a * t ^ 2 + b * t + c - ((a - A) * t ^ 2 + (b - B) * t + (c - C)) = A * t ^ 2 + B * t + C by ring] at w1
    linarith
  have s2 : 12 * ε * (|a| * t ^ 2 + |b| * |t| + |c|) ≤ 12 * ε * (1.04 * A * t ^ 2 + 1.04 * Nb * |t| + 1.04 * Nc) :=
    mul_le_mul_of_nonneg_left (by linarith) (by linarith)
  have p1 : 0 ≤ ε * (A * t ^ 2) := by positivity
  have p2 : 0 ≤ ε * (Nb * |t|) := by positivity
  have p3 : 0 ≤ ε * Nc := by positivity
  nlinarith

theorem vec3_eq {α : Type} (f : Fin 3 → α) : ![f 0, f 1, f 2] = f := by
  funext i; fin_cases i <;> rfl

/-- C118 for ellipsoids: as C104 for spheres, with every coordinate measured in the semi-axis of its direction. -/
theorem C118_ellipsoid {C S o d : Fin 3 → ℝ} (hS : ∀ i, S i ≠ 0) (hd : d ≠ 0) {tmin tmax : Fl F} {rec out : HitRecord (Fl F)}
    (h : Ellipsoid.hit ⟨fun i => fin (C i), fun i => fin (S i)⟩ ⟨fun i => fin (o i), fun i => fin (d i)⟩ tmin tmax rec = (true, out)) :
    ∃ (t : ℝ) (p : Fin 3 → ℝ), out.t = fin t ∧ out.p = (fun i => fin (p i)) ∧
      Scalar.le tmin (fin t) = true ∧ Scalar.le (fin t) tmax = true ∧
      |∑ i, ((p i - C i) / S i) ^ 2 - 1| ≤ 27 * F.eps * (∑ i, ((|o i| + |C i| + |t| * |d i|) / |S i|) ^ 2 + 1) := by
  have e0 := eps_pos' (F := F)
  have e1 := eps_le' (F := F)
  have g9 := pow9_bound e0 e1
  obtain ⟨-, g2⟩ := pow_eps_bound e0 e1
  have hS' : ∀ i, 0 < |S i| := fun i => abs_pos.mpr (hS i)
  -- the scaled ray
  have hoc : ∀ i, App 2 (((fin (o i) : Fl F) - fin (C i)) / fin (S i)) ((o i - C i) / S i) ((|o i| + |C i|) / |S i|) :=
    fun i => App.div_fin App.fin_sub (hS i)
  have hsd : ∀ i, App 1 ((fin (d i) : Fl F) / fin (S i)) (d i / S i) (|d i| / |S i|) := fun i => App.div_fin (App.fin' _) (hS i)
  have hnum : ∀ i, IsNum ((fin (d i) : Fl F) / fin (S i)) := fun i => by obtain ⟨y, hy, -⟩ := hsd i; exact ⟨y, hy⟩
  choose e he using hnum
  have hed : ∀ i, d i ≠ 0 → e i ≠ 0 := by
    intro i hi h0
    obtain ⟨y, hy, -, h2⟩ := hsd i
    rw [he i, fin_inj] at hy
    rw [← hy, h0, zero_sub, abs_neg, abs_div, pow_one] at h2
    have : 0 < |d i| / |S i| := div_pos (abs_pos.mpr hi) (hS' i)
    nlinarith
  have v1 : (![((fun i => fin (o i)) - (fun i => fin (C i)) : Vec (Fl F) 3) 0 / fin (S 0),
      ((fun i => fin (o i)) - (fun i => fin (C i)) : Vec (Fl F) 3) 1 / fin (S 1),
      ((fun i => fin (o i)) - (fun i => fin (C i)) : Vec (Fl F) 3) 2 / fin (S 2)] : Vec (Fl F) 3) =
      fun i => ((fin (o i) : Fl F) - fin (C i)) / fin (S i) := vec3_eq (fun i => ((fin (o i) : Fl F) - fin (C i)) / fin (S i))
  have v2 : (![fin (d 0) / fin (S 0), fin (d 1) / fin (S 1), fin (d 2) / fin (S 2)] : Vec (Fl F) 3) = fun i => fin (e i) := by
    rw [he, he, he]; exact vec3_eq (fun i => fin (e i))
  obtain ⟨a, ha, hA1, hA2⟩ := sum_sq_bounds (F := F) e
  have Aa : App 9 (squaredNorm (fun i => fin (e i)) : Fl F) (∑ i, d i / S i * (d i / S i)) (∑ i, |d i| / |S i| * (|d i| / |S i|)) := by
    refine App.weaken (App.loopSum (k := 3) fun i => ?_) (by norm_num) (le_refl _)
    show App 3 (fin (e i) * fin (e i)) _ _
    rw [← he i]; exact (hsd i).mul (hsd i)
  have Ab : App 9 ((2 : Fl F) * dot (fun i => ((fin (o i) : Fl F) - fin (C i)) / fin (S i)) (fun i => fin (e i)))
      (((2 : ℕ) : ℝ) * ∑ i, (o i - C i) / S i * (d i / S i)) (((2 : ℕ) : ℝ) * ∑ i, (|o i| + |C i|) / |S i| * (|d i| / |S i|)) := by
    refine App.weaken ((App.lit 2 (by norm_num)).mul (App.loopSum (k := 4) fun i => ?_)) (by norm_num) (le_refl _)
    show App 4 (_ * fin (e i)) _ _
    rw [← he i]; exact (hoc i).mul (hsd i)
  have Ac : App 9 (squaredNorm (fun i => ((fin (o i) : Fl F) - fin (C i)) / fin (S i)) - (1 : Fl F))
      (∑ i, (o i - C i) / S i * ((o i - C i) / S i) - ((1 : ℕ) : ℝ))
      (∑ i, (|o i| + |C i|) / |S i| * ((|o i| + |C i|) / |S i|) + ((1 : ℕ) : ℝ)) :=
    App.weaken ((App.loopSum (k := 5) fun i => (hoc i).mul (hoc i)).sub (App.lit 1 (by norm_num))) (by norm_num) (le_refl _)
  obtain ⟨a', ha', hA3, hA4⟩ := Aa
  rw [ha, fin_inj] at ha'
  subst ha'
  obtain ⟨b, hb, hB1, hB2⟩ := Ab
  obtain ⟨c, hc, hC1, hC2⟩ := Ac
  have hAA : ∀ i, |d i| / |S i| * (|d i| / |S i|) = d i / S i * (d i / S i) := fun i => by
    rw [← abs_div, abs_mul_abs_self]
  simp only [hAA] at hA3 hA4
  unfold Ellipsoid.hit at h
  simp only [v1, v2, ha, hb, hc] at h
  split at h
  · exact absurd (congrArg Prod.fst h) (by simp)
  rename_i t' ht'
  obtain ⟨hmem, hlo, hhi⟩ := first_root_mem ht'
  have hN : 0 < ∑ j, e j ^ 2 := by
    obtain ⟨j, hj⟩ := Function.ne_iff.mp hd
    have hj' : e j ≠ 0 := hed j hj
    exact Finset.sum_pos' (fun i _ => sq_nonneg _) ⟨j, Finset.mem_univ _, by positivity⟩
  have ha0 : 0 < a := lt_of_lt_of_le (mul_pos (pow_pos (by linarith) _) hN) hA1
  obtain ⟨t, rfl⟩ := C103_finite (Or.inl ha0.ne') t' hmem
  have hra : rnd F a = fin a := by
    have h1 : squaredNorm (fun i => fin (e i)) = (fin a : Fl F) := ha
    unfold squaredNorm at h1
    rw [loopSum_succ] at h1
    obtain ⟨_, _, _, _, h2⟩ := add_eq_fin h1
    exact Fmt.Free.idem h2
  have hres := C103_residual hra hmem
  have hpt : ∀ i, App 2 ((fin (o i) : Fl F) + fin t * fin (d i)) (o i + t * d i) (|o i| + |t| * |d i|) := fun i =>
    App.weaken ((App.fin' (o i)).add ((App.fin' t).mul (App.fin' (d i)))) (by norm_num) (le_refl _)
  choose p hp hp1 hp2 using hpt
  have hout : out = _ := (congrArg Prod.snd h).symm
  refine ⟨t, p, ?_, ?_, hlo, hhi, ?_⟩
  · exact congrArg HitRecord.t hout
  · refine (congrArg HitRecord.p hout).trans ?_
    funext i
    exact hp i
  · have hsh := coefficients_shift9 (t := t) e0 e1 (Finset.sum_nonneg fun i _ => mul_self_nonneg (d i / S i)) hB1 hC1
      (hA4.trans (mul_le_mul_of_nonneg_right g9 (Finset.sum_nonneg fun i _ => mul_self_nonneg (d i / S i))))
      (hB2.trans (mul_le_mul_of_nonneg_right g9 ((abs_nonneg _).trans hB1)))
      (hC2.trans (mul_le_mul_of_nonneg_right g9 ((abs_nonneg _).trans hC1))) hres
    have hco : ∀ i, |((p i - C i) / S i) ^ 2 - ((o i + t * d i - C i) / S i) ^ 2| ≤
        4.2 * F.eps * ((|o i| + |C i| + |t| * |d i|) / |S i|) ^ 2 := by
      intro i
      have := coordinate_shift (C := C i) e0 e1 ((hp2 i).trans (mul_le_mul_of_nonneg_right g2 (by positivity)))
      rw [div_pow, div_pow, div_pow, ← sub_div, abs_div, abs_pow, ← mul_div_assoc]
      exact div_le_div_of_nonneg_right this (by positivity)
    have hsum : |∑ i, (((p i - C i) / S i) ^ 2 - ((o i + t * d i - C i) / S i) ^ 2)| ≤
        ∑ i, 4.2 * F.eps * ((|o i| + |C i| + |t| * |d i|) / |S i|) ^ 2 :=
      (Finset.abs_sum_le_sum_abs _ _).trans (Finset.sum_le_sum fun i _ => hco i)
    rw [← Finset.mul_sum, Finset.sum_sub_distrib] at hsum
    have e2 : (∑ i, d i / S i * (d i / S i)) * t ^ 2 + ((2 : ℕ) : ℝ) * (∑ i, (o i - C i) / S i * (d i / S i)) * t +
        (∑ i, (o i - C i) / S i * ((o i - C i) / S i) - ((1 : ℕ) : ℝ)) = ∑ i, ((o i + t * d i - C i) / S i) ^ 2 - 1 := by
      simp only [Fin.sum_univ_three]; push_cast; ring
    have e3 : (∑ i, d i / S i * (d i / S i)) * t ^ 2 + ((2 : ℕ) : ℝ) * (∑ i, (|o i| + |C i|) / |S i| * (|d i| / |S i|)) * |t| +
        (∑ i, (|o i| + |C i|) / |S i| * ((|o i| + |C i|) / |S i|) + ((1 : ℕ) : ℝ)) =
        ∑ i, ((|o i| + |C i| + |t| * |d i|) / |S i|) ^ 2 + 1 := by
      rw [Finset.sum_congr rfl fun i _ => (hAA i).symm, ← sq_abs t]
      simp only [Fin.sum_univ_three]; push_cast; ring
    rw [e2, e3] at hsh
    have hfin := abs_add_le (∑ i, ((p i - C i) / S i) ^ 2 - ∑ i, ((o i + t * d i - C i) / S i) ^ 2)
      (∑ i, ((o i + t * d i - C i) / S i) ^ 2 - 1)
    rw [sub_add_sub_cancel] at hfin
    have n1 : 0 ≤ ∑ i, ((|o i| + |C i| + |t| * |d i|) / |S i|) ^ 2 := Finset.sum_nonneg fun i _ => sq_nonneg _
    generalize ∑ i, ((|o i| + |C i| + |t| * |d i|) / |S i|) ^ 2 = L at *
    have n3 := mul_nonneg e0.le n1
    nlinarith

/-- The ray along x hits the ellipsoid with semi-axes 1, 2, 3. -/
example : ∃ out, (Ellipsoid.ofReal (F := exact0) 0 ![1,2,3]).hit ⟨cv ![-5,0,0], cv ![1,0,0]⟩ (fin 0) pinf
      (HitRecord.default Vec.nans Vec.nans true) = (true, out) := by
  have h := C51_nearest_ideal (F := exact0) rfl 0 ![1,2,3] (by intro i; fin_cases i <;> simp) ![-5,0,0] ![1,0,0] (fin 0)
    (by intro h; have := congrFun h 0; simp at this) pinf (HitRecord.default Vec.nans Vec.nans true) rfl
  refine ⟨_, Prod.ext (h.1.mpr ⟨4, ⟨by rw [le_fin]; norm_num, by simp⟩, ?_⟩) rfl⟩
  simp [ellipsoidSet]; norm_num

end DRT
