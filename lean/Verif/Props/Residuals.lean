import Verif.Props.Torus
import Verif.Props.Cylinder
import Verif.Props.Helicoid
import Verif.Props.NewtonExact
import Mathlib.Analysis.Calculus.Deriv.Prod
import Mathlib.Topology.Algebra.Module.FiniteDimension

/-! # Expected residuals: C132

`torus`, `cylinder`, `helicoid` and the solvers accept a point if its residual is at most an expected residual, which is meant to be
the residual caused by relative errors of the coordinates (torus.hpp:92-93). -/

namespace DRT
open Scalar Vec Fl Matrix

variable {F : Fmt} {n : ℕ}

/-- Specification: the rate at which `f` changes at `x` when coordinate `j` has a relative error `δ j`. -/
noncomputable def relativeChange (f : (Fin n → ℝ) → ℝ) (x δ : Fin n → ℝ) : ℝ :=
  deriv (fun s : ℝ => f fun j => x j * (1 + s * δ j)) 0

/-- Specification: `m` is the greatest change of `f` at `x`, to first order, for relative errors of the coordinates of at most one
unit each. -/
def WorstChange (f : (Fin n → ℝ) → ℝ) (x : Fin n → ℝ) (m : ℝ) : Prop :=
  IsGreatest {y | ∃ δ : Fin n → ℝ, (∀ j, |δ j| ≤ 1) ∧ y = |relativeChange f x δ|} m

/-- The greatest value of a linear function on a cube. -/
theorem worst_linear {f : (Fin n → ℝ) → ℝ} {x a : Fin n → ℝ} (h : ∀ δ, relativeChange f x δ = ∑ j, a j * δ j) :
    WorstChange f x (∑ j, |a j|) := by
  constructor
  · refine ⟨fun j => SignType.sign (a j), fun j => ?_, ?_⟩
    · rcases lt_trichotomy (a j) 0 with h | h | h <;> simp [h]
    · rw [h, abs_of_nonneg]
      · exact Finset.sum_congr rfl fun j _ => (self_mul_sign (a j)).symm
      · exact Finset.sum_nonneg fun j _ => by rw [self_mul_sign]; exact abs_nonneg _
  · rintro y ⟨δ, h1, rfl⟩
    rw [h]
    refine (Finset.abs_sum_le_sum_abs _ _).trans (Finset.sum_le_sum fun j _ => ?_)
    rw [abs_mul]
    exact mul_le_of_le_one_right (abs_nonneg _) (h1 j)

theorem deriv_quartic {φ : ℝ → ℝ} {a k b c d : ℝ} (h : ∀ s, φ s = a + k * s + b * s ^ 2 + c * s ^ 3 + d * s ^ 4) : deriv φ 0 = k := by
  have h1 : HasDerivAt (fun s : ℝ => a + k * s + b * s ^ 2 + c * s ^ 3 + d * s ^ 4) k 0 := by
    have := ((((((hasDerivAt_id (0 : ℝ)).const_mul k).const_add a).add ((hasDerivAt_pow 2 (0 : ℝ)).const_mul b)).add
      ((hasDerivAt_pow 3 (0 : ℝ)).const_mul c)).add ((hasDerivAt_pow 4 (0 : ℝ)).const_mul d))
    exact this.congr_deriv (by simp)
  rw [funext h]
  exact h1.deriv

/-- C132 for the torus: the expected residual at a point is the greatest first-order change of the implicit equation of the torus
under relative errors of `20 eps` in the coordinates relative to the centre. -/
theorem C132_torus [F.Exact] (c : Fin 3 → ℝ) (R r : ℝ) (p : Fin 3 → ℝ) :
    ∃ m, (Torus.ofReal c R r : Torus (Fl F)).expectedResidual (cv p) = fin (20 * F.eps * m) ∧
      WorstChange (fun q => torusF c R r (c + q)) (p - c) m := by
  have hw := worst_linear (f := fun q => torusF c R r (c + q)) (x := p - c)
    (a := ![(p 0 - c 0) * (4 * (p 0 - c 0) * ((p 0 - c 0) ^ 2 + (p 1 - c 1) ^ 2 + (p 2 - c 2) ^ 2 - R ^ 2 - r ^ 2)),
      (p 1 - c 1) * (4 * (p 1 - c 1) * ((p 0 - c 0) ^ 2 + (p 1 - c 1) ^ 2 + (p 2 - c 2) ^ 2 - R ^ 2 - r ^ 2)),
      (p 2 - c 2) * (4 * (p 2 - c 2) * ((p 0 - c 0) ^ 2 + (p 1 - c 1) ^ 2 + (p 2 - c 2) ^ 2 + R ^ 2 - r ^ 2))]) ?_
  · refine ⟨_, ?_, hw⟩
    unfold Torus.expectedResidual Torus.ofReal
    simp only [fl, Nat.cast_ofNat, fin_inj, Fin.sum_univ_three, cons_val_zero, cons_val_one, cons_val]
    ring_nf
  · intro δ
    unfold relativeChange
    simp only [Fin.sum_univ_three, cons_val_zero, cons_val_one, cons_val]
    generalize hx : p - c = x
    have e : ∀ i, p i - c i = x i := fun i => by rw [← hx]; rfl
    simp only [e, torusF, Pi.add_apply, add_sub_cancel_left]
    generalize x 0 = X, x 1 = Y, x 2 = Z, δ 0 = u, δ 1 = v, δ 2 = w
    refine deriv_quartic (a := (X ^ 2 + Y ^ 2 + Z ^ 2 + R ^ 2 - r ^ 2) ^ 2 - 4 * R ^ 2 * (X ^ 2 + Y ^ 2))
      (b := 2 * (X ^ 2 + Y ^ 2 + Z ^ 2 + R ^ 2 - r ^ 2) * (X ^ 2 * u ^ 2 + Y ^ 2 * v ^ 2 + Z ^ 2 * w ^ 2) +
        4 * (X ^ 2 * u + Y ^ 2 * v + Z ^ 2 * w) ^ 2 - 4 * R ^ 2 * (X ^ 2 * u ^ 2 + Y ^ 2 * v ^ 2))
      (c := 4 * (X ^ 2 * u + Y ^ 2 * v + Z ^ 2 * w) * (X ^ 2 * u ^ 2 + Y ^ 2 * v ^ 2 + Z ^ 2 * w ^ 2))
      (d := (X ^ 2 * u ^ 2 + Y ^ 2 * v ^ 2 + Z ^ 2 * w ^ 2) ^ 2) fun s => ?_
    ring

/-- C132: on the torus the expected residual is positive, so that the test leaves room for rounding at every point. -/
theorem C132_torus_positive [F.Exact] (c : Fin 3 → ℝ) {R r : ℝ} (hr : 0 < r) (hR : r < R) (p : Fin 3 → ℝ) (hp : p ∈ torusSet c R r) :
    ∃ e, (Torus.ofReal c R r : Torus (Fl F)).expectedResidual (cv p) = fin e ∧ 0 < e := by
  have hf := (torusF_eq_zero c R r p).mpr hp
  have he := Fmt.Exact.eps_pos (F := F)
  unfold Torus.expectedResidual Torus.ofReal
  simp only [fl, Nat.cast_ofNat, fin_inj]
  refine ⟨_, rfl, mul_pos ?_ (by positivity)⟩
  unfold torusF at hf
  generalize p 0 - c 0 = x at *
  generalize p 1 - c 1 = y at *
  generalize p 2 - c 2 = z at *
  by_contra hn
  have h0 := abs_nonneg (x * (4 * x * (x * x + y * y + z * z - R * R - r * r)))
  have h1 := abs_nonneg (y * (4 * y * (x * x + y * y + z * z - R * R - r * r)))
  have h2 := abs_nonneg (z * (4 * z * (x * x + y * y + z * z + R * R - r * r)))
  have g0 := abs_eq_zero.mp (show |x * (4 * x * (x * x + y * y + z * z - R * R - r * r))| = 0 by linarith)
  have g1 := abs_eq_zero.mp (show |y * (4 * y * (x * x + y * y + z * z - R * R - r * r))| = 0 by linarith)
  have g2 := abs_eq_zero.mp (show |z * (4 * z * (x * x + y * y + z * z + R * R - r * r))| = 0 by linarith)
  have hpos : 0 < x * x + y * y + z * z + R * R - r * r := by nlinarith [mul_self_nonneg x, mul_self_nonneg y, mul_self_nonneg z]
  have hz : z = 0 := by
    rcases mul_eq_zero.mp g2 with h | h
    · exact h
    · rcases mul_eq_zero.mp h with h | h
      · linarith
      · exact absurd h hpos.ne'
  subst hz
  have hs : (x ^ 2 + y ^ 2) * (x ^ 2 + y ^ 2 - R ^ 2 - r ^ 2) = 0 := by linear_combination g0 / 4 + g1 / 4
  have hRr : 0 < R ^ 2 - r ^ 2 := by nlinarith
  rcases mul_eq_zero.mp hs with h | h
  · rw [h] at hf
    nlinarith [pow_pos hRr 2]
  · have : x ^ 2 + y ^ 2 = R ^ 2 + r ^ 2 := by linarith
    rw [this] at hf
    nlinarith [mul_pos (pow_pos (hr.trans hR) 2) (pow_pos hr 2)]

/-- C132 for the cylinder: at a point of the surface the expected residual is the greatest first-order change of the implicit equation
under relative errors of `10 eps` in the coordinates. -/
theorem C132_cylinder [F.Exact] (r z0 z1 : ℝ) (p : Fin 3 → ℝ) (hp : p 0 ^ 2 + p 1 ^ 2 = r ^ 2) :
    ∃ m, (Cylinder.ofReal r z0 z1 : Cylinder (Fl F)).expectedResidual (cv p) = fin (10 * F.eps * m) ∧
      WorstChange (fun q => q 0 ^ 2 + q 1 ^ 2 - r ^ 2) p m := by
  refine ⟨_, ?_, worst_linear (a := ![2 * p 0 ^ 2, 2 * p 1 ^ 2, 0]) ?_⟩
  · unfold Cylinder.expectedResidual Cylinder.ofReal
    simp only [fl, Nat.cast_ofNat, fin_inj, Fin.sum_univ_three, cons_val_zero, cons_val_one, cons_val, abs_zero, add_zero]
    rw [abs_of_nonneg (by positivity), abs_of_nonneg (by positivity)]
    linear_combination -20 * F.eps * hp
  · intro δ
    unfold relativeChange
    simp only [Fin.sum_univ_three, cons_val_zero, cons_val_one, cons_val]
    refine deriv_quartic (a := p 0 ^ 2 + p 1 ^ 2 - r ^ 2) (b := p 0 ^ 2 * δ 0 ^ 2 + p 1 ^ 2 * δ 1 ^ 2) (c := 0) (d := 0) fun s => ?_
    ring

/-- C132 for the solvers of several variables: the expected residual is `eps` times the greatest first-order change of any component
under relative errors of the unknowns. -/
theorem C132_newton [F.Exact] (f : (Fin (n + 1) → ℝ) → Fin (n + 1) → ℝ) (J : Matrix (Fin (n + 1)) (Fin (n + 1)) ℝ)
    (x : Fin (n + 1) → ℝ) (hf : HasFDerivAt f (toLin' J).toContinuousLinearMap x) :
    ∃ m : Fin (n + 1) → ℝ, (∀ i, WorstChange (fun y => f y i) x (m i)) ∧
      ∃ k, expectedResidual (cm J : Mat (Fl F) (n + 1) (n + 1)) (cv x) = fin (F.eps * m k) ∧ ∀ i, m i ≤ m k := by
  have he := Fmt.Exact.eps_pos (F := F)
  refine ⟨fun i => ∑ j, |J i j * x j|, fun i => worst_linear fun δ => ?_, ?_⟩
  · unfold relativeChange
    have hc : HasDerivAt (fun (s : ℝ) j => x j * (1 + s * δ j)) (fun j => x j * δ j) 0 := by
      rw [hasDerivAt_pi]
      intro j
      exact ((((hasDerivAt_id (0 : ℝ)).mul_const (δ j)).const_add 1).const_mul (x j)).congr_deriv (by simp)
    have hx : (fun j => x j * (1 + (0 : ℝ) * δ j)) = x := by funext j; simp
    have h1 := HasFDerivAt.comp_hasDerivAt (0 : ℝ) (by rw [hx]; exact hf) hc
    have h2 := (hasDerivAt_pi.mp h1) i
    refine h2.deriv.trans ?_
    simp only [LinearMap.coe_toContinuousLinearMap', toLin'_apply, mulVec, dotProduct]
    exact Finset.sum_congr rfl fun j _ => by ring
  · obtain ⟨e, h1, h2, h3, h4⟩ := expectedResidual_fin (F := F) J x
    have hk : ∃ k, e = F.eps * ∑ j, |J k j * x j| := by
      rcases h4 with h | h
      · refine ⟨0, le_antisymm ?_ (h3 0)⟩
        rw [h]
        exact mul_nonneg he.le (Finset.sum_nonneg fun j _ => abs_nonneg _)
      · exact h
    obtain ⟨k, rfl⟩ := hk
    exact ⟨k, h1, fun i => le_of_mul_le_mul_left (h3 i) he⟩

/-- C132 for the helicoid: the threshold of the test is `10 eps` times the greatest first-order change of any coordinate of the
distance between the ray and the surface under relative errors of `t`, `u` and `v`. -/
theorem C132_helicoid [F.Exact] (ρ l : ℝ) (o d : Fin 3 → ℝ) (t u v : ℝ) (rec : HitRecord (Fl F)) (ht : rec.t = fin t) (hu : rec.u = fin u)
    (hv : rec.v = fin v) :
    ∃ m : Fin 3 → ℝ, (∀ i, WorstChange (fun q : Fin 3 → ℝ => (o + q 0 • d - helPt ρ l (q 1) (q 2)) i) ![t, u, v] (m i)) ∧
      ∃ k, 10 * (Helicoid.ofReal ρ l : Helicoid (Fl F)).expectedRes ⟨cv o, cv d⟩ rec = fin (10 * F.eps * m k) ∧ ∀ i, m i ≤ m k := by
  refine ⟨fun i => helScale ρ l d t u v i, fun i => ?_, ?_⟩
  · have hw := worst_linear (f := fun q : Fin 3 → ℝ => (o + q 0 • d - helPt ρ l (q 1) (q 2)) i) (x := ![t, u, v])
      (a := ![t * d i, -(helU ρ l u v i * u), -(helV ρ u i * v)]) ?_
    · simpa [Fin.sum_univ_three, helScale] using hw
    · intro δ
      unfold relativeChange
      simp only [Fin.sum_univ_three, cons_val_zero, cons_val_one, cons_val]
      have lin : ∀ a b : ℝ, HasDerivAt (fun s : ℝ => a * (1 + s * b)) (a * b) 0 := fun a b =>
        ((((hasDerivAt_id (0 : ℝ)).mul_const b).const_add 1).const_mul a).congr_deriv (by simp)
      have hc : HasDerivAt (fun s : ℝ => Real.cos (2 * Real.pi * (u * (1 + s * δ 1)))) (-Real.sin (2 * Real.pi * u) * (2 * Real.pi * (u * δ 1))) 0 := by
        have := ((lin u (δ 1)).const_mul (2 * Real.pi)).cos
        simpa using this
      have hs : HasDerivAt (fun s : ℝ => Real.sin (2 * Real.pi * (u * (1 + s * δ 1)))) (Real.cos (2 * Real.pi * u) * (2 * Real.pi * (u * δ 1))) 0 := by
        have := ((lin u (δ 1)).const_mul (2 * Real.pi)).sin
        simpa using this
      have ho : HasDerivAt (fun s : ℝ => o i + t * (1 + s * δ 0) * d i) (t * δ 0 * d i) 0 :=
        ((lin t (δ 0)).mul_const (d i)).const_add (o i)
      refine HasDerivAt.deriv (f := fun s : ℝ => o i + t * (1 + s * δ 0) * d i - helPt ρ l (u * (1 + s * δ 1)) (v * (1 + s * δ 2)) i) ?_
      match i with
      | 0 =>
        exact (ho.sub (((lin v (δ 2)).const_mul ρ).mul hc)).congr_deriv (by simp [helU, helV]; ring)
      | 1 =>
        exact (ho.sub (((lin v (δ 2)).const_mul ρ).mul hs)).congr_deriv (by simp [helU, helV]; ring)
      | 2 =>
        exact (ho.sub (((lin u (δ 1)).sub_const (1 / 2)).const_mul l)).congr_deriv (by simp [helU, helV]; ring)
  · obtain ⟨k, h1, h2⟩ := Helicoid.expectedRes_fin (F := F) ρ l o d t u v rec ht hu hv
    refine ⟨k, ?_, h2⟩
    rw [h1]
    simp only [fl, Nat.cast_ofNat, fin_inj]
    ring

/-- An instance: the outermost point of the torus of `torus_curvature.cpp`. -/
example : ∃ e, (Torus.ofReal 0 3 1 : Torus (Fl exact64)).expectedResidual (cv ![4, 0, 0]) = fin e ∧ 0 < e :=
  C132_torus_positive _ (by norm_num) (by norm_num) _ ((torusF_eq_zero _ _ _ _).mp (by unfold torusF; simp only [cons_val_zero, cons_val_one, cons_val, Pi.zero_apply]; norm_num))

/-- An instance: a point of the unit cylinder. -/
example : ∃ m, (Cylinder.ofReal 1 0 1 : Cylinder (Fl exact64)).expectedResidual (cv ![3 / 5, 4 / 5, 1 / 2]) = fin (10 * exact64.eps * m) ∧
    WorstChange (fun q => q 0 ^ 2 + q 1 ^ 2 - 1 ^ 2) ![3 / 5, 4 / 5, 1 / 2] m :=
  C132_cylinder _ _ _ _ (by norm_num [cons_val_zero, cons_val_one])

/-- An instance: an invertible linear system. -/
example : ∃ m : Fin 2 → ℝ, (∀ i, WorstChange (fun y => toLin' !![2, 1; 1, 3] y i) ![1, -4] (m i)) ∧
    ∃ k, expectedResidual (cm !![2, 1; 1, 3] : Mat (Fl exact64) 2 2) (cv ![1, -4]) = fin (exact64.eps * m k) ∧ ∀ i, m i ≤ m k :=
  C132_newton (fun y => toLin' !![2, 1; 1, 3] y) _ _ (LinearMap.toContinuousLinearMap (toLin' (!![2, 1; 1, 3] : Matrix (Fin 2) (Fin 2) ℝ))).hasFDerivAt

end DRT
