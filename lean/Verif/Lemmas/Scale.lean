import Verif.Lemmas.Roots
import Verif.Lemmas.Vec
import Verif.Model.Matrix
import Verif.Scalar.Standard

/-! # Multiplying all lengths by a constant -/

namespace DRT
open Scalar Vec

variable {F : Fmt} {k : ℝ}

namespace Fl

/-- The value multiplied by `k > 0`, without rounding. -/
noncomputable def scale (k : ℝ) : Fl F → Fl F
  | Ext.nan => Ext.nan
  | Ext.ninf => Ext.ninf
  | Ext.fin x => Ext.fin (k * x)
  | Ext.pinf => Ext.pinf

@[simp] theorem scale_nan : scale k (Fl.nan : Fl F) = Fl.nan := rfl
@[simp] theorem scale_ninf : scale k (ninf : Fl F) = ninf := rfl
@[simp] theorem scale_pinf : scale k (pinf : Fl F) = pinf := rfl
@[simp] theorem scale_fin (x : ℝ) : scale k (fin x : Fl F) = fin (k * x) := rfl

end Fl
open Fl

/-- Multiplication by `k` commutes with the rounding of the format. -/
structure Scales (F : Fmt) (k : ℝ) : Prop where
  pos : 0 < k
  rnd : ∀ x, rnd F (k * x) = scale k (rnd F x)
  zdiv : ∀ x, F.zdiv (k * x) = F.zdiv x

namespace Scales

theorem mul {j : ℝ} (h : Scales F k) (h' : Scales F j) : Scales F (k * j) where
  pos := _root_.mul_pos h.pos h'.pos
  rnd x := by
    rw [mul_assoc, h.rnd, h'.rnd]
    generalize Fl.rnd F x = y
    cases y <;> simp [mul_assoc]
  zdiv x := by rw [mul_assoc, h.zdiv, h'.zdiv]

/-- In exact arithmetic every positive factor will do. -/
theorem of_exact [F.Exact] (hk : 0 < k) (hz : ∀ x, F.zdiv (k * x) = F.zdiv x) : Scales F k where
  pos := hk
  rnd x := by rw [rnd_eq, rnd_eq]; rfl
  zdiv := hz

variable (h : Scales F k)
include h

theorem ne : k ≠ 0 := h.pos.ne'

theorem infOf (x : ℝ) : (Fl.infOf (k * x) : Fl F) = Fl.infOf x := by
  show (if 0 < k * x then pinf else ninf : Fl F) = if 0 < x then pinf else ninf
  simp only [mul_pos_iff_of_pos_left h.pos]

omit h in
theorem scale_infOf (x : ℝ) : scale k (Fl.infOf x : Fl F) = Fl.infOf x := by
  show scale k (if 0 < x then pinf else ninf : Fl F) = if 0 < x then pinf else ninf
  split_ifs <;> rfl

theorem add (x y : Fl F) : scale k x + scale k y = scale k (x + y) := by
  show Fl.add _ _ = scale k (Fl.add _ _)
  cases x <;> cases y <;> first | rfl | skip
  show Fl.rnd F _ = scale k (Fl.rnd F _)
  rw [← mul_add, h.rnd]

omit h in
theorem neg (x : Fl F) : -scale k x = scale k (-x) := by
  show Fl.neg _ = scale k (Fl.neg _)
  cases x <;> first | rfl | skip
  show fin _ = fin _
  rw [mul_neg]

theorem sub (x y : Fl F) : scale k x - scale k y = scale k (x - y) := by
  show scale k x + -scale k y = scale k (x + -y)
  rw [Scales.neg, h.add]

theorem mul_left (x y : Fl F) : scale k x * y = scale k (x * y) := by
  show Fl.mul _ _ = scale k (Fl.mul _ _)
  cases x <;> cases y <;> first | rfl | skip
  · show (if _ then Fl.nan else Fl.infOf _ : Fl F) = scale k (if _ then Fl.nan else Fl.infOf _ : Fl F)
    split_ifs
    · rfl
    · rw [scale_infOf]
  · next a =>
    show (if k * a = 0 then Fl.nan else Fl.infOf (-(k * a)) : Fl F) = scale k (if a = 0 then Fl.nan else Fl.infOf (-a) : Fl F)
    simp only [mul_eq_zero, h.ne, false_or]
    split_ifs
    · rfl
    · rw [← mul_neg, h.infOf, scale_infOf]
  · show Fl.rnd F _ = scale k (Fl.rnd F _)
    rw [mul_assoc, h.rnd]
  · next a =>
    show (if k * a = 0 then Fl.nan else Fl.infOf (k * a) : Fl F) = scale k (if a = 0 then Fl.nan else Fl.infOf a : Fl F)
    simp only [mul_eq_zero, h.ne, false_or]
    split_ifs
    · rfl
    · rw [h.infOf, scale_infOf]
  · show (if _ then Fl.nan else Fl.infOf _ : Fl F) = scale k (if _ then Fl.nan else Fl.infOf _ : Fl F)
    split_ifs
    · rfl
    · rw [scale_infOf]

omit h in
theorem _root_.DRT.Fl.mul_comm' (x y : Fl F) : x * y = y * x := by
  show Fl.mul _ _ = Fl.mul _ _
  cases x <;> cases y <;> first | rfl | skip
  show Fl.rnd F _ = Fl.rnd F _
  rw [mul_comm]

theorem mul_right (x y : Fl F) : x * scale k y = scale k (x * y) := by
  rw [Fl.mul_comm', h.mul_left, Fl.mul_comm']

theorem div_left (x y : Fl F) : scale k x / y = scale k (x / y) := by
  show Fl.div _ _ = scale k (Fl.div _ _)
  cases x <;> cases y <;> first | rfl | skip
  · next b =>
    show (if b = 0 then (if F.zdiv (-1) then pinf else ninf) else Fl.infOf _ : Fl F) = scale k (if b = 0 then (if F.zdiv (-1) then pinf else ninf) else Fl.infOf _ : Fl F)
    split_ifs
    · rfl
    · rfl
    · rw [scale_infOf]
  · show fin 0 = (scale k (fin 0) : Fl F)
    simp
  · next a b =>
    show (if b = 0 then (if k * a = 0 then Fl.nan else if F.zdiv (k * a) then pinf else ninf) else Fl.rnd F (k * a / b) : Fl F) =
      scale k (if b = 0 then (if a = 0 then Fl.nan else if F.zdiv a then pinf else ninf) else Fl.rnd F (a / b) : Fl F)
    simp only [mul_eq_zero, h.ne, false_or, h.zdiv]
    split_ifs
    · rfl
    · rfl
    · rfl
    · rw [mul_div_assoc, h.rnd]
  · show fin 0 = (scale k (fin 0) : Fl F)
    simp
  · next b =>
    show (if b = 0 then (if F.zdiv 1 then pinf else ninf) else Fl.infOf _ : Fl F) = scale k (if b = 0 then (if F.zdiv 1 then pinf else ninf) else Fl.infOf _ : Fl F)
    split_ifs
    · rfl
    · rfl
    · rw [scale_infOf]

theorem div (x y : Fl F) : scale k x / scale k y = x / y := by
  show Fl.div _ _ = Fl.div _ _
  cases x <;> cases y <;> first | rfl | skip
  · next b =>
    show (if k * b = 0 then (if F.zdiv (-1) then pinf else ninf) else Fl.infOf (-(k * b)) : Fl F) = (if b = 0 then (if F.zdiv (-1) then pinf else ninf) else Fl.infOf (-b) : Fl F)
    simp only [mul_eq_zero, h.ne, false_or, ← mul_neg, h.infOf]
  · next a b =>
    show (if k * b = 0 then (if k * a = 0 then Fl.nan else if F.zdiv (k * a) then pinf else ninf) else Fl.rnd F (k * a / (k * b)) : Fl F) =
      (if b = 0 then (if a = 0 then Fl.nan else if F.zdiv a then pinf else ninf) else Fl.rnd F (a / b) : Fl F)
    simp only [mul_eq_zero, h.ne, false_or, h.zdiv, mul_div_mul_left _ _ h.ne]
  · next b =>
    show (if k * b = 0 then (if F.zdiv 1 then pinf else ninf) else Fl.infOf (k * b) : Fl F) = (if b = 0 then (if F.zdiv 1 then pinf else ninf) else Fl.infOf b : Fl F)
    simp only [mul_eq_zero, h.ne, false_or, h.infOf]

theorem undiv (x y : Fl F) : scale k (x / scale k y) = x / y := by rw [← h.div_left, h.div]

omit h in
theorem _root_.DRT.Fl.scale_scale (j : ℝ) (x : Fl F) : scale k (scale j x) = scale (k * j) x := by
  cases x <;> first | rfl | skip
  rw [scale_fin, scale_fin, scale_fin, mul_assoc]

omit h in
@[simp] theorem _root_.DRT.Fl.scale_one (x : Fl F) : scale 1 x = x := by
  cases x <;> first | rfl | skip
  rw [scale_fin, one_mul]

theorem inv : Scales F k⁻¹ where
  pos := inv_pos.mpr h.pos
  rnd x := by
    have := h.rnd (k⁻¹ * x)
    rw [mul_inv_cancel_left₀ h.ne] at this
    rw [this, scale_scale, inv_mul_cancel₀ h.ne, scale_one]
  zdiv x := by rw [← h.zdiv, mul_inv_cancel_left₀ h.ne]

theorem div_right (x y : Fl F) : x / scale k y = scale k⁻¹ (x / y) := by
  rw [← h.inv.div_left, ← h.div (scale k⁻¹ x), scale_scale, mul_inv_cancel₀ h.ne, scale_one]

theorem lt (x y : Fl F) : Scalar.lt (scale k x) (scale k y) = Scalar.lt x y := by
  show Fl.lt _ _ = Fl.lt _ _
  cases x <;> cases y <;> first | rfl | skip
  show decide _ = decide _
  simp only [mul_lt_mul_iff_right₀ h.pos]

theorem eq (x y : Fl F) : Scalar.eq (scale k x) (scale k y) = Scalar.eq x y := by
  show Fl.eq _ _ = Fl.eq _ _
  cases x <;> cases y <;> first | rfl | skip
  show decide _ = decide _
  simp only [mul_right_inj' h.ne]

theorem le (x y : Fl F) : Scalar.le (scale k x) (scale k y) = Scalar.le x y := by
  show (Scalar.lt (scale k x) (scale k y) || Scalar.eq (scale k x) (scale k y)) = (Scalar.lt x y || Scalar.eq x y)
  rw [h.lt, h.eq]

theorem gt (x y : Fl F) : Scalar.gt (scale k x) (scale k y) = Scalar.gt x y := h.lt y x
theorem ge (x y : Fl F) : Scalar.ge (scale k x) (scale k y) = Scalar.ge x y := h.le y x

theorem zero : scale k (0 : Fl F) = 0 := by
  have := h.rnd 0
  rw [mul_zero] at this
  show scale k (Fl.rnd F ((0 : ℕ) : ℚ)) = Fl.rnd F ((0 : ℕ) : ℚ)
  simpa using this.symm

theorem lt_zero (x : Fl F) : Scalar.lt (scale k x) 0 = Scalar.lt x 0 := by rw [← h.lt x 0, h.zero]
theorem eq_zero (x : Fl F) : Scalar.eq (scale k x) 0 = Scalar.eq x 0 := by rw [← h.eq x 0, h.zero]
theorem ne_zero (x : Fl F) : Scalar.ne (scale k x) 0 = Scalar.ne x 0 := congrArg (!·) (h.eq_zero x)

theorem abs (x : Fl F) : Scalar.abs (scale k x) = scale k (Scalar.abs x) := by
  show Fl.abs _ = scale k (Fl.abs _)
  cases x <;> first | rfl | skip
  show fin _ = fin _
  rw [abs_mul, abs_of_pos h.pos]

theorem copysign (x y : Fl F) : Scalar.copysign (scale k x) (scale k y) = scale k (Scalar.copysign x y) := by
  have e (x : Fl F) : Fl.neg (Fl.abs (scale k x)) = scale k (Fl.neg (Fl.abs x)) := by
    rw [show Fl.abs (scale k x) = scale k (Fl.abs x) from h.abs x]; exact Scales.neg _
  show Fl.copysign _ _ = scale k (Fl.copysign _ _)
  cases y
  · exact h.abs x
  · exact e x
  · next b =>
    show (if k * b < 0 then Fl.neg (Fl.abs (scale k x)) else Fl.abs (scale k x)) = scale k (if b < 0 then Fl.neg (Fl.abs x) else Fl.abs x)
    have : k * b < 0 ↔ b < 0 := by
      constructor
      · intro h1; by_contra h2; exact absurd h1 (not_lt.mpr (mul_nonneg h.pos.le (not_lt.mp h2)))
      · intro h1; exact mul_neg_of_pos_of_neg h.pos h1
    simp only [this]
    split_ifs
    · exact e x
    · exact h.abs x
  · exact h.abs x

theorem sqrt (x : Fl F) : Scalar.sqrt (scale (k * k) x) = scale k (Scalar.sqrt x) := by
  show Fl.sqrt _ = scale k (Fl.sqrt _)
  cases x <;> first | rfl | skip
  next a =>
  have hk := _root_.mul_pos h.pos h.pos
  show (if k * k * a < 0 then Fl.nan else Fl.rnd F (√(k * k * a)) : Fl F) = scale k (if a < 0 then Fl.nan else Fl.rnd F (√a) : Fl F)
  have : k * k * a < 0 ↔ a < 0 := by
    constructor
    · intro h1; by_contra h2; exact absurd h1 (not_lt.mpr (mul_nonneg hk.le (not_lt.mp h2)))
    · intro h1; exact mul_neg_of_pos_of_neg hk h1
  simp only [this]
  split_ifs
  · rfl
  · rw [Real.sqrt_mul hk.le, Real.sqrt_mul_self h.pos.le, h.rnd]

omit h in
theorem fma_comm (x y z : Fl F) : Scalar.fma x y z = Scalar.fma y x z := by
  have e : Fl.add (Fl.mul x y) z = Fl.add (Fl.mul y x) z := congrArg (Fl.add · z) (Fl.mul_comm' x y)
  show Fl.fma _ _ _ = Fl.fma _ _ _
  cases x <;> cases y <;> cases z <;> first | exact e | skip
  show Fl.rnd F _ = Fl.rnd F _
  rw [mul_comm]

theorem fma_left (x y z : Fl F) : Scalar.fma (scale k x) y (scale k z) = scale k (Scalar.fma x y z) := by
  have e : Fl.add (Fl.mul (scale k x) y) (scale k z) = scale k (Fl.add (Fl.mul x y) z) := by
    rw [show Fl.mul (scale k x) y = scale k (Fl.mul x y) from h.mul_left x y]; exact h.add _ _
  show Fl.fma _ _ _ = scale k (Fl.fma _ _ _)
  cases x <;> cases y <;> cases z <;> first | exact e | skip
  show Fl.rnd F _ = scale k (Fl.rnd F _)
  rw [mul_assoc, ← mul_add, h.rnd]

theorem fma_sq (x z : Fl F) : Scalar.fma (scale k x) (scale k x) (scale (k * k) z) = scale (k * k) (Scalar.fma x x z) := by
  rw [← scale_scale, h.fma_left, fma_comm, h.fma_left, fma_comm, scale_scale]

/-! ## Vectors -/

omit h in
/-- The vector multiplied by `k > 0`. -/
noncomputable def _root_.DRT.scaleV {n : ℕ} (k : ℝ) (v : Vec (Fl F) n) : Vec (Fl F) n := fun i => scale k (v i)

omit h in
@[simp] theorem scaleV_apply {n : ℕ} (v : Vec (Fl F) n) (i : Fin n) : scaleV k v i = scale k (v i) := rfl

theorem addV {n : ℕ} (u v : Vec (Fl F) n) : scaleV k u + scaleV k v = scaleV k (u + v) := funext fun _ => h.add _ _
theorem subV {n : ℕ} (u v : Vec (Fl F) n) : scaleV k u - scaleV k v = scaleV k (u - v) := funext fun _ => h.sub _ _
theorem smulV {n : ℕ} (t : Fl F) (v : Vec (Fl F) n) : scale k t •. v = scaleV k (t •. v) := funext fun _ => h.mul_left _ _
theorem sdivV {n : ℕ} (v : Vec (Fl F) n) (t : Fl F) : scaleV k v /. scale k t = v /. t := funext fun _ => h.div _ _

theorem loopSum {n : ℕ} (f : Fin n → Fl F) : (Scalar.loopSum n fun i => scale k (f i)) = scale k (Scalar.loopSum n f) := by
  induction n with
  | zero => simp [Scalar.loopSum, h.zero]
  | succ n ih => rw [loopSum_succ, loopSum_succ, ih, h.add]

theorem dot_left {n : ℕ} (u v : Vec (Fl F) n) : Vec.dot (scaleV k u) v = scale k (Vec.dot u v) := by
  unfold Vec.dot
  simp only [scaleV_apply, h.mul_left]
  exact h.loopSum _

theorem dot_right {n : ℕ} (u v : Vec (Fl F) n) : Vec.dot u (scaleV k v) = scale k (Vec.dot u v) := by
  unfold Vec.dot
  simp only [scaleV_apply, h.mul_right]
  exact h.loopSum _

theorem squaredNorm {n : ℕ} (u : Vec (Fl F) n) : Vec.squaredNorm (scaleV k u) = scale (k * k) (Vec.squaredNorm u) := by
  unfold Vec.squaredNorm
  simp only [scaleV_apply, h.mul_left, h.mul_right, scale_scale]
  exact (h.mul h).loopSum _

theorem norm {n : ℕ} (u : Vec (Fl F) n) : Vec.norm (scaleV k u) = scale k (Vec.norm u) := by
  unfold Vec.norm
  rw [h.squaredNorm, h.sqrt]

theorem normalize {n : ℕ} (u : Vec (Fl F) n) : Vec.normalize (scaleV k u) = Vec.normalize u := by
  unfold Vec.normalize
  simp only [h.norm, scaleV_apply, h.div]

theorem mulVec {r c : ℕ} (M : Mat (Fl F) r c) (v : Vec (Fl F) c) : Mat.mulVec M (scaleV k v) = scaleV k (Mat.mulVec M v) := by
  funext i
  unfold Mat.mulVec
  simp only [scaleV_apply, h.mul_right]
  exact h.loopSum _

/-! ## Quadratic equations -/

theorem discriminant (a b c : Fl F) : DRT.discriminant a (scale k b) (scale (k * k) c) = scale (k * k) (DRT.discriminant a b c) := by
  have h2 := h.mul h
  unfold DRT.discriminant
  simp only [h2.mul_right, Scales.neg, h.fma_sq, h2.fma_left, h2.add]

/-- If the middle coefficient is multiplied by `k` and the last one by its square, the roots are multiplied by `k`. -/
theorem quadraticRoots (ht : F.tiny = 0) (a b c : Fl F) :
    DRT.quadraticRoots a (scale k b) (scale (k * k) c) = (DRT.quadraticRoots a b c).map (scale k) := by
  have h2 := h.mul h
  have e1 : Scalar.le (Scalar.abs (scale k b)) tiny = Scalar.le (Scalar.abs b) tiny := by
    rw [h.abs, ← h.le (Scalar.abs b)]
    congr 1
    show fin _ = fin _
    rw [ht, mul_zero]
  have e2 (x y : Fl F) : scale (k * k) x / scale k y = scale k (x / y) := by
    rw [← scale_scale, h.div, h.div_left]
  unfold DRT.quadraticRoots
  rw [e1]
  simp only [h.eq_zero, h2.ne_zero, Scales.neg, e2, h2.div_left, h2.lt_zero, h.sqrt, h.discriminant, h.copysign, h.add, h.div_left, h.lt]
  split_ifs <;> simp [h.zero]
/-- Multiplying all coefficients by the same number does not change the roots. -/
theorem quadraticRoots_all (ht : F.tiny = 0) (a b c : Fl F) :
    DRT.quadraticRoots (scale k a) (scale k b) (scale k c) = DRT.quadraticRoots a b c := by
  have h2 := h.mul h
  have e1 (b : Fl F) : Scalar.le (Scalar.abs (scale k b)) tiny = Scalar.le (Scalar.abs b) tiny := by
    rw [h.abs, ← h.le (Scalar.abs b)]
    congr 1
    show fin _ = fin _
    rw [ht, mul_zero]
  have e2 : DRT.discriminant (scale k a) (scale k b) (scale k c) = scale (k * k) (DRT.discriminant a b c) := by
    unfold DRT.discriminant
    have e3 (x y z : Fl F) : Scalar.fma (scale k x) (scale k y) (scale (k * k) z) = scale (k * k) (Scalar.fma x y z) := by
      rw [← scale_scale, h.fma_left, fma_comm, h.fma_left, fma_comm, scale_scale]
    simp only [h.mul_right, h.mul_left, scale_scale, Scales.neg, e3, h2.add]
  unfold DRT.quadraticRoots
  simp only [e1, h.eq_zero, h.ne_zero, Scales.neg, h.div, e2, h2.lt_zero, h.sqrt, h.copysign, h.add, h.div_left]

theorem firstRoot (ht : F.tiny = 0) (a b c tmin tmax : Fl F) :
    firstQuadraticRootInRange a (scale k b) (scale (k * k) c) (scale k tmin) (scale k tmax) =
      (firstQuadraticRootInRange a b c tmin tmax).map (scale k) := by
  unfold firstQuadraticRootInRange
  rw [h.quadraticRoots ht]
  rcases DRT.quadraticRoots a b c with _ | ⟨x, _ | ⟨y, _ | ⟨z, l⟩⟩⟩ <;> try rfl
  simp only [List.map_cons, List.map_nil, h.ge, h.le]
  split_ifs <;> rfl

/-- The same with the powers of `k` taken out of the first coefficients. -/
theorem firstRoot' (ht : F.tiny = 0) (a b c tmin tmax : Fl F) :
    firstQuadraticRootInRange (scale (k⁻¹ * k⁻¹) a) (scale k⁻¹ b) c (scale k tmin) (scale k tmax) =
      (firstQuadraticRootInRange a b c tmin tmax).map (scale k) := by
  have h1 : scale k⁻¹ b = scale (k⁻¹ * k⁻¹) (scale k b) := by rw [scale_scale, mul_assoc, inv_mul_cancel₀ h.ne, mul_one]
  have h2 : c = scale (k⁻¹ * k⁻¹) (scale (k * k) c) := by
    rw [scale_scale, show k⁻¹ * k⁻¹ * (k * k) = 1 by have := h.ne; field_simp, scale_one]
  rw [← h.firstRoot ht]
  unfold firstQuadraticRootInRange
  rw [h1]
  conv_lhs => rw [h2]
  rw [(h.inv.mul h.inv).quadraticRoots_all ht]

theorem atan2 (y x : Fl F) : Scalar.atan2 (scale k y) (scale k x) = Scalar.atan2 y x := by
  show Fl.atan2 _ _ = Fl.atan2 _ _
  cases y <;> cases x <;> try rfl
  · next b =>
    show (if 0 ≤ k * b then _ else _) = (if 0 ≤ b then _ else _)
    simp only [mul_nonneg_iff_of_pos_left h.pos]
  · next b a =>
    show Fl.rnd F _ = Fl.rnd F _
    unfold realAtan2
    rw [← Complex.arg_real_mul ⟨a, b⟩ h.pos]
    congr 2
    apply Complex.ext <;> simp

theorem at_ (o d : Vec (Fl F) 3) (t : Fl F) : (Ray.mk (scaleV k o) d).at (scale k t) = scaleV k ((Ray.mk o d).at t) := by
  show scaleV k o + scale k t •. d = _
  rw [h.smulV, h.addV]
  rfl

end Scales

/-! ## Rounding to `p` bits -/

theorem log_two_zpow_mul (n : ℤ) {x : ℝ} (hx : 0 < x) : Int.log 2 (2 ^ n * x) = n + Int.log 2 x := by
  have h2 : (0 : ℝ) < 2 ^ n := by positivity
  apply le_antisymm
  · rw [← Int.lt_add_one_iff, ← Int.lt_zpow_iff_log_lt (by norm_num) (by positivity)]
    have := Int.lt_zpow_succ_log_self (b := 2) (by norm_num) x
    rw [show n + Int.log 2 x + 1 = n + (Int.log 2 x + 1) by ring, zpow_add₀ (by norm_num)]
    exact_mod_cast mul_lt_mul_of_pos_left this h2
  · rw [← Int.zpow_le_iff_le_log (by norm_num) (by positivity)]
    have := Int.zpow_log_le_self (b := 2) (by norm_num) hx
    push_cast at this ⊢
    rw [zpow_add₀ (by norm_num)]
    exact mul_le_mul_of_nonneg_left this h2.le

theorem roundFree_scale (p : ℕ) (n : ℤ) {x : ℝ} (hx : 0 ≤ x) : roundFree p (2 ^ n * x) = 2 ^ n * roundFree p x := by
  rcases hx.eq_or_lt with rfl | hx
  · rw [mul_zero, roundFree_zero, mul_zero]
  · have h2 : (2 : ℝ) ^ n ≠ 0 := by positivity
    unfold roundFree roundPos lastPlace
    rw [max_self, max_self, log_two_zpow_mul n hx, show n + Int.log 2 x - ((p : ℤ) - 1) = n + (Int.log 2 x - ((p : ℤ) - 1)) by ring,
      zpow_add₀ (by norm_num), mul_div_mul_left _ _ h2]
    ring

/-- Rounding to `p` bits commutes with multiplication by a power of two. -/
theorem scales_unbounded (p : ℕ) (n : ℤ) : Scales (unbounded p) (2 ^ n) where
  pos := by positivity
  rnd x := by
    have h2 : (0 : ℝ) < 2 ^ n := by positivity
    rcases lt_or_ge x 0 with h | h
    · rw [unbounded_neg h, unbounded_neg (mul_neg_of_pos_of_neg h2 h), ← mul_neg, roundFree_scale _ _ (by linarith), scale_fin, mul_neg]
    · rw [unbounded_nonneg h, unbounded_nonneg (by positivity), roundFree_scale _ _ h, scale_fin]
  zdiv x := by
    have h2 : (0 : ℝ) < 2 ^ n := by positivity
    show decide _ = decide _
    simp only [mul_pos_iff_of_pos_left h2]

theorem scales_exact0 {k : ℝ} (hk : 0 < k) : Scales exact0 k :=
  .of_exact hk fun x => by
    show decide _ = decide _
    simp only [mul_pos_iff_of_pos_left hk]

end DRT
