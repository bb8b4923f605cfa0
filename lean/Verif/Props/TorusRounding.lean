import Verif.Props.RoundingError
import Verif.Props.Torus

/-! # C117: hit points of a torus lie on the torus up to rounding -/

namespace DRT
open Scalar Vec Fl

variable {F : Fmt} [F.Free]

/-- The difference of two numbers has an error relative to the difference. -/
theorem App.sub_fin (x y : ℝ) : App 1 ((fin x : Fl F) - fin y) (x - y) |x - y| := by
  have h := App.round (F := F) (k := 0) (x := x - y) (y := x - y) (le_refl _) (by simp)
  rw [sub_eq_add_neg x y] at h ⊢
  exact h

theorem App.abs {k : ℕ} {z : Fl F} {x M : ℝ} (h : App k z x M) : App k (Scalar.abs z) |x| M := by
  obtain ⟨p, rfl, a1, a2⟩ := h
  exact ⟨|p|, abs_fin _, by rwa [abs_abs], (abs_abs_sub_abs_le p x).trans a2⟩

theorem pow16_bound {ε : ℝ} (e0 : 0 < ε) (e1 : ε ≤ 1 / 256) : (1 + ε) ^ 16 ≤ 1 + 16.5 * ε := by
  have h2 : (1 + ε) ^ 2 ≤ 1 + 2.004 * ε := by nlinarith
  have h4 : (1 + ε) ^ 4 ≤ 1 + 4.024 * ε := by
    have : ((1 + ε) ^ 2) ^ 2 ≤ (1 + 2.004 * ε) ^ 2 := pow_le_pow_left₀ (by positivity) h2 2
    nlinarith
  have h8 : (1 + ε) ^ 8 ≤ 1 + 8.112 * ε := by
    have : ((1 + ε) ^ 4) ^ 2 ≤ (1 + 4.024 * ε) ^ 2 := pow_le_pow_left₀ (by positivity) h4 2
    nlinarith
  have : ((1 + ε) ^ 8) ^ 2 ≤ (1 + 8.112 * ε) ^ 2 := pow_le_pow_left₀ (by positivity) h8 2
  nlinarith

/-- The magnitude to which the errors of the implicit function are relative. -/
def torusMag (c : Fin 3 → ℝ) (R r : ℝ) (p : Fin 3 → ℝ) : ℝ :=
  (p 0 - c 0) ^ 2 + (p 1 - c 1) ^ 2 + (p 2 - c 2) ^ 2 + R ^ 2 + r ^ 2

/-- `residual(p)` as computed. -/
theorem Torus.residual_app (c p : Fin 3 → ℝ) (R r : ℝ) :
    App 16 ((⟨fun i => fin (c i), fin R, fin r⟩ : Torus (Fl F)).residual (fun i => fin (p i))) (torusF c R r p)
      (2 * torusMag c R r p ^ 2) := by
  have hx := App.sub_fin (F := F) (p 0) (c 0)
  have hy := App.sub_fin (F := F) (p 1) (c 1)
  have hz := App.sub_fin (F := F) (p 2) (c 2)
  have hR := App.fin' (F := F) R
  have hr := App.fin' (F := F) r
  have ht := (((((hx.mul hx).add (hy.mul hy)).add (hz.mul hz)).add (hR.mul hR)).sub (hr.mul hr))
  have h := (ht.mul ht).sub ((((App.lit (F := F) 4 (by norm_num)).mul hR).mul hR).mul ((hx.mul hx).add (hy.mul hy)))
  have hw := h.weaken (l := 16) (N := 2 * torusMag c R r p ^ 2) (by norm_num) (by
    simp only [abs_mul_abs_self]
    unfold torusMag
    have e : ((4 : ℕ) : ℝ) * |R| * |R| = 4 * (R * R) := by rw [mul_assoc, abs_mul_abs_self]; norm_num
    rw [e]
    have k := sq_nonneg (p 2 - c 2)
    have k2 := sq_nonneg r
    have k0 := sq_nonneg (p 0 - c 0)
    have k1 := sq_nonneg (p 1 - c 1)
    have k3 := sq_nonneg R
    generalize p 0 - c 0 = x at *
    generalize p 1 - c 1 = y at *
    generalize p 2 - c 2 = z at *
    have : 4 * (R * R) * (x * x + y * y) ≤ (x ^ 2 + y ^ 2 + R ^ 2) ^ 2 := by nlinarith [sq_nonneg (x ^ 2 + y ^ 2 - R ^ 2)]
    have : (x ^ 2 + y ^ 2 + R ^ 2) ^ 2 ≤ (x ^ 2 + y ^ 2 + z ^ 2 + R ^ 2 + r ^ 2) ^ 2 :=
      pow_le_pow_left₀ (by positivity) (by linarith) 2
    nlinarith)
  have e : (((p 0 - c 0) * (p 0 - c 0) + (p 1 - c 1) * (p 1 - c 1) + (p 2 - c 2) * (p 2 - c 2) + R * R - r * r) *
      ((p 0 - c 0) * (p 0 - c 0) + (p 1 - c 1) * (p 1 - c 1) + (p 2 - c 2) * (p 2 - c 2) + R * R - r * r) -
      ((4 : ℕ) : ℝ) * R * R * ((p 0 - c 0) * (p 0 - c 0) + (p 1 - c 1) * (p 1 - c 1))) = torusF c R r p := by
    unfold torusF; push_cast; ring
  rw [e] at hw
  exact hw

/-- `expected_residual(p)` as computed. -/
theorem Torus.expected_app (c p : Fin 3 → ℝ) (R r : ℝ) :
    ∃ x, App 16 ((⟨fun i => fin (c i), fin R, fin r⟩ : Torus (Fl F)).expectedResidual (fun i => fin (p i))) x
      (80 * F.eps * torusMag c R r p ^ 2) := by
  have e0 := eps_pos' (F := F)
  have hx := App.sub_fin (F := F) (p 0) (c 0)
  have hy := App.sub_fin (F := F) (p 1) (c 1)
  have hz := App.sub_fin (F := F) (p 2) (c 2)
  have hR := App.fin' (F := F) R
  have hr := App.fin' (F := F) r
  have hl := ((hx.mul hx).add (hy.mul hy)).add (hz.mul hz)
  have h4 := App.lit (F := F) 4 (by norm_num)
  have dx := (h4.mul hx).mul ((hl.sub (hR.mul hR)).sub (hr.mul hr))
  have dy := (h4.mul hy).mul ((hl.sub (hR.mul hR)).sub (hr.mul hr))
  have dz := (h4.mul hz).mul ((hl.add (hR.mul hR)).sub (hr.mul hr))
  have h := ((((hx.mul dx).abs).add ((hy.mul dy).abs)).add ((hz.mul dz).abs)).mul
    ((App.lit (F := F) 20 (by norm_num)).mul (App.fin' F.eps))
  refine ⟨_, h.weaken (l := 16) (N := 80 * F.eps * torusMag c R r p ^ 2) (by norm_num) ?_⟩
  rw [abs_of_pos e0]
  simp only [abs_mul_abs_self]
  unfold torusMag
  have e : ∀ x Q : ℝ, |x| * (((4 : ℕ) : ℝ) * |x| * Q) = 4 * x ^ 2 * Q := by
    intro x Q; rw [← sq_abs x]; push_cast; ring
  rw [e, e, e]
  have k := sq_nonneg (p 2 - c 2)
  have k2 := sq_nonneg r
  have k0 := sq_nonneg (p 0 - c 0)
  have k1 := sq_nonneg (p 1 - c 1)
  have k3 := sq_nonneg R
  generalize p 0 - c 0 = x at *
  generalize p 1 - c 1 = y at *
  generalize p 2 - c 2 = z at *
  push_cast
  have h1 : x * x + y * y + z * z + R * R + r * r = x ^ 2 + y ^ 2 + z ^ 2 + R ^ 2 + r ^ 2 := by ring
  rw [h1]
  have h0 : 0 ≤ x ^ 2 + y ^ 2 + z ^ 2 + R ^ 2 + r ^ 2 := by positivity
  have h2 : x ^ 2 + y ^ 2 + z ^ 2 ≤ x ^ 2 + y ^ 2 + z ^ 2 + R ^ 2 + r ^ 2 := by linarith
  generalize x ^ 2 + y ^ 2 + z ^ 2 + R ^ 2 + r ^ 2 = Q at *
  have h3 : (x ^ 2 + y ^ 2 + z ^ 2) * Q ≤ Q ^ 2 := by nlinarith
  nlinarith

/-- The residual test in real terms: a point with small coordinates that passes it. -/
theorem Torus.passed {c p : Fin 3 → ℝ} {R r : ℝ}
    (h : Scalar.gt (Scalar.abs ((⟨fun i => fin (c i), fin R, fin r⟩ : Torus (Fl F)).residual (fun i => fin (p i))))
      ((⟨fun i => fin (c i), fin R, fin r⟩ : Torus (Fl F)).expectedResidual (fun i => fin (p i))) = false) :
    |torusF c R r p| ≤ 119 * F.eps * torusMag c R r p ^ 2 := by
  have e0 := eps_pos' (F := F)
  have e1 := eps_le' (F := F)
  have g := pow16_bound e0 e1
  obtain ⟨y, hy, y1, y2⟩ := Torus.residual_app (F := F) c p R r
  obtain ⟨x, w, hw, w1, w2⟩ := Torus.expected_app (F := F) c p R r
  rw [hy, hw, abs_fin, Scalar.gt, lt_fin, decide_eq_false_iff_not, not_lt] at h
  have hQ : 0 ≤ torusMag c R r p ^ 2 := sq_nonneg _
  generalize torusMag c R r p ^ 2 = Q at *
  have b1 : |torusF c R r p| ≤ |y| + |y - torusF c R r p| := by
    have := abs_sub y (y - torusF c R r p); rwa [show y - (y - torusF c R r p) = torusF c R r p by ring] at this
  have b2 : |y - torusF c R r p| ≤ 16.5 * F.eps * (2 * Q) :=
    y2.trans (mul_le_mul_of_nonneg_right (by linarith) (by linarith))
  have b3 : w ≤ (1 + 16.5 * F.eps) * (80 * F.eps * Q) := by
    have h1 := le_abs_self (w - x)
    have h2 := le_abs_self x
    have h3 : ((1 + F.eps) ^ 16 - 1) * (80 * F.eps * Q) ≤ 16.5 * F.eps * (80 * F.eps * Q) :=
      mul_le_mul_of_nonneg_right (by linarith) (by positivity)
    linarith
  generalize F.eps = ε at *
  have b4 : (1 + 16.5 * ε) * (80 * ε * Q) ≤ 1.07 * (80 * ε * Q) := mul_le_mul_of_nonneg_right (by linarith) (by positivity)
  nlinarith [mul_nonneg e0.le hQ]

/-- The value is a number. -/
def IsNum (z : Fl F) : Prop := ∃ x : ℝ, z = fin x

omit [F.Free] in
theorem IsNum.of (x : ℝ) : IsNum (fin x : Fl F) := ⟨x, rfl⟩
theorem IsNum.rnd (x : ℝ) : IsNum (rnd F x) := Fmt.NoOverflow.finite x
theorem IsNum.lit (n : ℕ) : IsNum (@OfNat.ofNat (Fl F) n (Scalar.instOfNat n)) := IsNum.rnd _
theorem IsNum.add {a b : Fl F} (ha : IsNum a) (hb : IsNum b) : IsNum (a + b) := by
  obtain ⟨x, rfl⟩ := ha; obtain ⟨y, rfl⟩ := hb; exact IsNum.rnd _
omit [F.Free] in
theorem IsNum.neg {a : Fl F} (ha : IsNum a) : IsNum (-a) := by obtain ⟨x, rfl⟩ := ha; exact ⟨-x, Fl.neg_fin _⟩
theorem IsNum.sub {a b : Fl F} (ha : IsNum a) (hb : IsNum b) : IsNum (a - b) := by
  rw [Fl.sub_eq]; exact ha.add hb.neg
theorem IsNum.mul {a b : Fl F} (ha : IsNum a) (hb : IsNum b) : IsNum (a * b) := by
  obtain ⟨x, rfl⟩ := ha; obtain ⟨y, rfl⟩ := hb; exact IsNum.rnd _
theorem IsNum.div {a b : Fl F} (ha : IsNum a) (hb : IsNum b) (h : Scalar.ne b 0 = true) : IsNum (a / b) := by
  obtain ⟨x, rfl⟩ := ha; obtain ⟨y, rfl⟩ := hb
  have hy : y ≠ 0 := by
    rintro rfl
    rw [rzero] at h
    simp [Scalar.ne] at h
  obtain ⟨δ, -, e⟩ := div_rel (F := F) x hy
  exact ⟨_, e⟩
theorem IsNum.loopSum {n : ℕ} {f : Fin n → Fl F} (h : ∀ i, IsNum (f i)) : IsNum (loopSum n f) := by
  induction n with
  | zero => exact IsNum.lit 0
  | succ m ih => rw [loopSum_succ]; exact (ih fun i => h i.castSucc).add (h (Fin.last m))
omit [F.Free] in
theorem IsNum.clamp {v lo hi : Fl F} (hv : IsNum v) (hl : IsNum lo) (hh : IsNum hi) : IsNum (clamp v lo hi) := by
  unfold Scalar.clamp; split_ifs <;> assumption

theorem Torus.newtonStep_num (s : Torus (Fl F)) (hc : ∀ i, IsNum (s.center i)) (hR : IsNum s.major) (hr : IsNum s.minor)
    {p d : Vec (Fl F) 3} (hp : ∀ i, IsNum (p i)) (hd : ∀ i, IsNum (d i)) (i : Fin 3) : IsNum (s.newtonStep p d i) := by
  have hx := (hp 0).sub (hc 0)
  have hy := (hp 1).sub (hc 1)
  have hz := (hp 2).sub (hc 2)
  have hl := ((hx.mul hx).add (hy.mul hy)).add (hz.mul hz)
  have ht := (hl.add (hR.mul hR)).sub (hr.mul hr)
  have h4 := IsNum.lit (F := F) 4
  have hf := (ht.mul ht).sub (((h4.mul hR).mul hR).mul ((hx.mul hx).add (hy.mul hy)))
  have hn : ∀ i, IsNum ((![4 * (p 0 - s.center 0) * ((p 0 - s.center 0) * (p 0 - s.center 0) + (p 1 - s.center 1) * (p 1 - s.center 1) +
        (p 2 - s.center 2) * (p 2 - s.center 2) - s.major * s.major - s.minor * s.minor),
      4 * (p 1 - s.center 1) * ((p 0 - s.center 0) * (p 0 - s.center 0) + (p 1 - s.center 1) * (p 1 - s.center 1) +
        (p 2 - s.center 2) * (p 2 - s.center 2) - s.major * s.major - s.minor * s.minor),
      4 * (p 2 - s.center 2) * ((p 0 - s.center 0) * (p 0 - s.center 0) + (p 1 - s.center 1) * (p 1 - s.center 1) +
        (p 2 - s.center 2) * (p 2 - s.center 2) + s.major * s.major - s.minor * s.minor)] : Vec (Fl F) 3) i) := by
    intro i
    fin_cases i
    · exact (h4.mul hx).mul ((hl.sub (hR.mul hR)).sub (hr.mul hr))
    · exact (h4.mul hy).mul ((hl.sub (hR.mul hR)).sub (hr.mul hr))
    · exact (h4.mul hz).mul ht
  have hdot := IsNum.loopSum (fun i => (hn i).mul (hd i))
  unfold Torus.newtonStep
  dsimp only
  split_ifs with hne
  · have hdt := (hf.neg).div hdot hne
    fin_cases i
    · exact (hp 0).add (hdt.mul (hd 0))
    · exact (hp 1).add (hdt.mul (hd 1))
    · exact (hp 2).add (hdt.mul (hd 2))
  · exact hp i

theorem Torus.refine_num (s : Torus (Fl F)) (hc : ∀ i, IsNum (s.center i)) (hR : IsNum s.major) (hr : IsNum s.minor)
    {p d : Vec (Fl F) 3} (hp : ∀ i, IsNum (p i)) (hd : ∀ i, IsNum (d i)) (i : Fin 3) : IsNum (s.refine p d i) := by
  have h := Torus.newtonStep_num s hc hR hr hp hd
  fin_cases i
  · exact (h 0).clamp ((hc 0).sub (hR.add hr)) ((hc 0).add (hR.add hr))
  · exact (h 1).clamp ((hc 1).sub (hR.add hr)) ((hc 1).add (hR.add hr))
  · exact (h 2).clamp ((hc 2).sub hr) ((hc 2).add hr)

/-- C117. Whatever the accuracy of the quartic's solver, and for every ray: the point that a hit reports satisfies the
equation of the torus up to 119 machine epsilons of the fourth power of the lengths involved. -/
theorem C117_equation {c o d : Fin 3 → ℝ} {R r t : ℝ} {tmin tmax : Fl F} {rec out : HitRecord (Fl F)}
    (h : Torus.hit ⟨fun i => fin (c i), fin R, fin r⟩ ⟨fun i => fin (o i), fun i => fin (d i)⟩ tmin tmax rec = (true, out))
    (ht : out.t = fin t) :
    ∃ p : Fin 3 → ℝ, out.p = (fun i => fin (p i)) ∧
      |((p 0 - c 0) ^ 2 + (p 1 - c 1) ^ 2 + (p 2 - c 2) ^ 2 + R ^ 2 - r ^ 2) ^ 2 -
          4 * R ^ 2 * ((p 0 - c 0) ^ 2 + (p 1 - c 1) ^ 2)| ≤
        119 * F.eps * ((p 0 - c 0) ^ 2 + (p 1 - c 1) ^ 2 + (p 2 - c 2) ^ 2 + R ^ 2 + r ^ 2) ^ 2 := by
  obtain ⟨-, -, hp, hres⟩ := C56_in_range _ _ _ _ _ _ h
  have hnum : ∀ i, IsNum (out.p i) := by
    intro i
    rw [hp, ht]
    exact Torus.refine_num _ (fun i => IsNum.of _) (IsNum.of _) (IsNum.of _)
      (fun i => (IsNum.of (o i)).add ((IsNum.of t).mul (IsNum.of (d i)))) (fun i => IsNum.of _) i
  choose p hp' using hnum
  have e : out.p = fun i => fin (p i) := funext hp'
  rw [e] at hres
  exact ⟨p, e, Torus.passed hres⟩

/-- The distance of a point from the torus is bounded by its value of the equation. -/
theorem torus_distance {c p : Fin 3 → ℝ} {R r : ℝ} (hr : 0 < r) (hR : r < R) :
    ∃ q ∈ torusSet c R r, Real.sqrt ((p 0 - q 0) ^ 2 + (p 1 - q 1) ^ 2 + (p 2 - q 2) ^ 2) * (r * (R ^ 2 - r ^ 2)) ≤ |torusF c R r p| := by
  obtain ⟨ρ, hρ⟩ : ∃ ρ, ρ = Real.sqrt ((p 0 - c 0) ^ 2 + (p 1 - c 1) ^ 2) := ⟨_, rfl⟩
  have hρ0 : 0 ≤ ρ := by rw [hρ]; exact Real.sqrt_nonneg _
  have hρ2 : ρ ^ 2 = (p 0 - c 0) ^ 2 + (p 1 - c 1) ^ 2 := by rw [hρ, Real.sq_sqrt (by positivity)]
  obtain ⟨a, ha1, ha2⟩ := exists_angle ρ (p 0 - c 0) (p 1 - c 1) hρ2.symm
  obtain ⟨δ, hδ⟩ : ∃ δ, δ = Real.sqrt ((ρ - R) ^ 2 + (p 2 - c 2) ^ 2) := ⟨_, rfl⟩
  have hδ0 : 0 ≤ δ := by rw [hδ]; exact Real.sqrt_nonneg _
  have hδ2 : δ ^ 2 = (ρ - R) ^ 2 + (p 2 - c 2) ^ 2 := by rw [hδ, Real.sq_sqrt (by positivity)]
  obtain ⟨b, hb1, hb2⟩ := exists_angle δ (ρ - R) (p 2 - c 2) hδ2.symm
  refine ⟨torusAt c R r a b, ⟨a, b, rfl⟩, ?_⟩
  have hF : torusF c R r p = (δ - r) * ((δ + r) * ((ρ + R) ^ 2 + (p 2 - c 2) ^ 2 - r ^ 2)) := by
    have : torusF c R r p = (ρ ^ 2 + (p 2 - c 2) ^ 2 + R ^ 2 - r ^ 2) ^ 2 - 4 * R ^ 2 * ρ ^ 2 := by rw [hρ2]; rfl
    rw [this]
    linear_combination (-1) * ((ρ + R) ^ 2 + (p 2 - c 2) ^ 2 - r ^ 2) * hδ2
  have hD : (p 0 - torusAt c R r a b 0) ^ 2 + (p 1 - torusAt c R r a b 1) ^ 2 + (p 2 - torusAt c R r a b 2) ^ 2 = (δ - r) ^ 2 := by
    simp only [torusAt, Fin.isValue, Matrix.cons_val_zero, Matrix.cons_val_one, Matrix.cons_val]
    have t1 := Real.sin_sq_add_cos_sq a
    have t2 := Real.sin_sq_add_cos_sq b
    have e0 : p 0 = c 0 + ρ * Real.cos a := by linarith
    have e1 : p 1 = c 1 + ρ * Real.sin a := by linarith
    have e2 : p 2 = c 2 + δ * Real.sin b := by linarith
    have e3 : ρ = R + δ * Real.cos b := by linarith
    rw [e0, e1, e2, e3]
    linear_combination (δ - r) ^ 2 * (Real.cos b) ^ 2 * t1 + (δ - r) ^ 2 * t2
  rw [hD, Real.sqrt_sq_eq_abs, hF, abs_mul]
  refine mul_le_mul_of_nonneg_left ?_ (abs_nonneg _)
  have h1 : R ^ 2 - r ^ 2 ≤ (ρ + R) ^ 2 + (p 2 - c 2) ^ 2 - r ^ 2 := by nlinarith [sq_nonneg (p 2 - c 2), mul_nonneg hρ0 (hr.le.trans hR.le)]
  have h2 : 0 < R ^ 2 - r ^ 2 := by nlinarith
  rw [abs_of_nonneg (mul_nonneg (by linarith) (by linarith))]
  exact mul_le_mul (by linarith) h1 h2.le (by linarith)

omit [F.Free] in
/-- A point that nearly satisfies the equation is not far away. -/
theorem torus_near {c p : Fin 3 → ℝ} {R r ε : ℝ} (e0 : 0 < ε) (hε : ε ≤ 1 / 1024) (hr : 0 < r) (hR : r < R)
    (hF : |torusF c R r p| ≤ 119 * ε * torusMag c R r p ^ 2) : |torusF c R r p| ≤ 3000 * ε * (R + r) ^ 4 := by
  refine hF.trans ?_
  unfold torusMag at hF ⊢
  unfold torusF at hF
  -- the point is not far away
  obtain ⟨L, hL⟩ : ∃ L, L = Real.sqrt ((p 0 - c 0) ^ 2 + (p 1 - c 1) ^ 2 + (p 2 - c 2) ^ 2) := ⟨_, rfl⟩
  have hL0 : 0 ≤ L := by rw [hL]; exact Real.sqrt_nonneg _
  have hL2 : L ^ 2 = (p 0 - c 0) ^ 2 + (p 1 - c 1) ^ 2 + (p 2 - c 2) ^ 2 := by rw [hL, Real.sq_sqrt (by positivity)]
  have hz := sq_nonneg (p 2 - c 2)
  rw [← hL2] at hF ⊢
  have hlo : (L ^ 2 + R ^ 2 - r ^ 2) ^ 2 - 4 * R ^ 2 * L ^ 2 ≤ 119 * ε * (L ^ 2 + R ^ 2 + r ^ 2) ^ 2 := by
    refine le_trans ?_ ((le_abs_self _).trans hF)
    nlinarith [sq_nonneg R]
  have hLb : L ≤ 2 * (R + r) := by
    by_contra hc
    push Not at hc
    have f1 : (L ^ 2 + R ^ 2 - r ^ 2) ^ 2 - 4 * R ^ 2 * L ^ 2 = ((L - R - r) * (L - R + r)) * ((L + R - r) * (L + R + r)) := by ring
    have f2 : (L / 2) * (L / 2) ≤ (L - R - r) * (L - R + r) := mul_le_mul (by linarith) (by linarith) (by linarith) (by linarith)
    have f3 : L * L ≤ (L + R - r) * (L + R + r) := mul_le_mul (by linarith) (by linarith) hL0 (by linarith)
    have f4 : ((L / 2) * (L / 2)) * (L * L) ≤ ((L - R - r) * (L - R + r)) * ((L + R - r) * (L + R + r)) :=
      mul_le_mul f2 f3 (by positivity) (le_trans (by positivity) f2)
    have f5 : L ^ 2 + R ^ 2 + r ^ 2 ≤ 5 / 4 * L ^ 2 := by nlinarith
    have f6 : (L ^ 2 + R ^ 2 + r ^ 2) ^ 2 ≤ (5 / 4 * L ^ 2) ^ 2 := pow_le_pow_left₀ (by positivity) f5 2
    have f7 : 119 * ε * (L ^ 2 + R ^ 2 + r ^ 2) ^ 2 ≤ 119 * (1 / 1024) * (5 / 4 * L ^ 2) ^ 2 :=
      mul_le_mul (by linarith) f6 (by positivity) (by norm_num)
    have f8 : 0 < L ^ 4 := by have : 0 < L := by linarith
                              positivity
    nlinarith
  have hQ : L ^ 2 + R ^ 2 + r ^ 2 ≤ 5 * (R + r) ^ 2 := by nlinarith
  have hQ2 : (L ^ 2 + R ^ 2 + r ^ 2) ^ 2 ≤ (5 * (R + r) ^ 2) ^ 2 := pow_le_pow_left₀ (by positivity) hQ 2
  have : 119 * ε * (L ^ 2 + R ^ 2 + r ^ 2) ^ 2 ≤ 119 * ε * (5 * (R + r) ^ 2) ^ 2 :=
    mul_le_mul_of_nonneg_left hQ2 (by positivity)
  have h4 : 0 ≤ ε * (R + r) ^ 4 := by positivity
  nlinarith

/-- C117. In a format of at least 11 bits the point that a hit reports is that close to a point of the torus. -/
theorem C117_distance {c o d : Fin 3 → ℝ} {R r t : ℝ} (hr : 0 < r) (hR : r < R) (hε : F.eps ≤ 1 / 1024) {tmin tmax : Fl F}
    {rec out : HitRecord (Fl F)}
    (h : Torus.hit ⟨fun i => fin (c i), fin R, fin r⟩ ⟨fun i => fin (o i), fun i => fin (d i)⟩ tmin tmax rec = (true, out))
    (ht : out.t = fin t) :
    ∃ p : Fin 3 → ℝ, out.p = (fun i => fin (p i)) ∧ ∃ q ∈ torusSet c R r,
      Real.sqrt ((p 0 - q 0) ^ 2 + (p 1 - q 1) ^ 2 + (p 2 - q 2) ^ 2) ≤ 3000 * F.eps * (R + r) ^ 4 / (r * (R ^ 2 - r ^ 2)) := by
  obtain ⟨p, hp, hF⟩ := C117_equation h ht
  refine ⟨p, hp, ?_⟩
  obtain ⟨q, hq, hd⟩ := torus_distance (c := c) (p := p) hr hR
  refine ⟨q, hq, ?_⟩
  have h2 : 0 < R ^ 2 - r ^ 2 := by nlinarith
  rw [le_div_iff₀ (by positivity)]
  exact hd.trans (torus_near (eps_pos' (F := F)) hε hr hR hF)

/-- The ray along x through the torus with radii 2 and 1. -/
example : ∃ rec' : HitRecord (Fl exact0), (Torus.ofReal (F := exact0) 0 2 1).hit ⟨cv ![-10, 0, 0], cv ![1, 0, 0]⟩ (fin 1) pinf
      (HitRecord.default Vec.nans Vec.nans true) = (true, rec') ∧
    ∃ p : Fin 3 → ℝ, rec'.p = (fun i => fin (p i)) ∧ ∃ q ∈ torusSet 0 2 1,
      Real.sqrt ((p 0 - q 0) ^ 2 + (p 1 - q 1) ^ 2 + (p 2 - q 2) ^ 2) ≤ 3000 * exact0.eps * (2 + 1) ^ 4 / (1 * (2 ^ 2 - 1 ^ 2)) := by
  obtain ⟨rec', h, ht⟩ := Torus.hit_case
  exact ⟨rec', h, C117_distance (by norm_num) (by norm_num) (by simp only [exact0, exact64]; norm_num) h ht⟩

end DRT
