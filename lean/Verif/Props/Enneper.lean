import Verif.Model.Enneper
import Verif.Props.NewtonFinite
import Verif.Props.HitRecord
import Verif.Lemmas.Surface
import Mathlib.Analysis.Calculus.Deriv.Pow
import Mathlib.Tactic.LinearCombination

/-! # C70-C72: Enneper's surface -/

namespace DRT
open Scalar Fl Matrix Vec

variable {F : Fmt}

/-- Enneper's surface `(u - u³/3 + uv², v - v³/3 + vu², u² - v²)`. -/
noncomputable def enneperPt (u v : ℝ) : Fin 3 → ℝ := ![u - u ^ 3 / 3 + u * v ^ 2, v - v ^ 3 / 3 + v * u ^ 2, u ^ 2 - v ^ 2]

/-- Its partial derivative in `u`. -/
noncomputable def enneperU (u v : ℝ) : Fin 3 → ℝ := ![1 - u ^ 2 + v ^ 2, 2 * u * v, 2 * u]

/-- Its partial derivative in `v`. -/
noncomputable def enneperV (u v : ℝ) : Fin 3 → ℝ := ![2 * u * v, 1 - v ^ 2 + u ^ 2, -2 * v]

/-- Its second partial derivatives. -/
noncomputable def enneperH (u v : ℝ) : Fin 3 → Fin 2 → Fin 2 → ℝ :=
  ![![![-2 * u, 2 * v], ![2 * v, 2 * u]], ![![2 * v, 2 * u], ![2 * u, -2 * v]], ![![2, 0], ![0, -2]]]

/-- Its unit normal. -/
noncomputable def enneperN (u v : ℝ) : Fin 3 → ℝ :=
  ![-2 * u / (1 + u ^ 2 + v ^ 2), 2 * v / (1 + u ^ 2 + v ^ 2), (1 - u ^ 2 - v ^ 2) / (1 + u ^ 2 + v ^ 2)]

theorem hasDerivAt_cubic (a b c e x : ℝ) :
    HasDerivAt (fun x => a * x ^ 3 + b * x ^ 2 + c * x + e) (3 * a * x ^ 2 + 2 * b * x + c) x := by
  have := ((((hasDerivAt_pow 3 x).const_mul a).add ((hasDerivAt_pow 2 x).const_mul b)).add
    ((hasDerivAt_id x).const_mul c)).add_const e
  refine this.congr_deriv ?_
  simp
  ring

theorem enneper_deriv (u v : ℝ) (i : Fin 3) :
    HasDerivAt (fun x => enneperPt x v i) (enneperU u v i) u ∧
    HasDerivAt (fun y => enneperPt u y i) (enneperV u v i) v := by
  match i with
  | 0 =>
    constructor
    · have := hasDerivAt_cubic (-1 / 3) 0 (1 + v ^ 2) 0 u
      convert this using 1
      · funext x; simp [enneperPt]; ring
      · simp [enneperU]; ring
    · have := hasDerivAt_cubic 0 u 0 (u - u ^ 3 / 3) v
      convert this using 1
      · funext x; simp [enneperPt]; ring
      · simp [enneperV]
  | 1 =>
    constructor
    · have := hasDerivAt_cubic 0 v 0 (v - v ^ 3 / 3) u
      convert this using 1
      · funext x; simp [enneperPt]; ring
      · simp [enneperU]; ring
    · have := hasDerivAt_cubic (-1 / 3) 0 (1 + u ^ 2) 0 v
      convert this using 1
      · funext x; simp [enneperPt]; ring
      · simp [enneperV]; ring
  | 2 =>
    constructor
    · have := hasDerivAt_cubic 0 1 0 (-v ^ 2) u
      convert this using 1
      · funext x; simp [enneperPt]; ring
      · simp [enneperU]
    · have := hasDerivAt_cubic 0 (-1) 0 (u ^ 2) v
      convert this using 1
      · funext x; simp [enneperPt]; ring
      · simp [enneperV]

theorem enneper_deriv2 (u v : ℝ) (i : Fin 3) :
    HasDerivAt (fun x => enneperU x v i) (enneperH u v i 0 0) u ∧
    HasDerivAt (fun y => enneperU u y i) (enneperH u v i 0 1) v ∧
    HasDerivAt (fun x => enneperV x v i) (enneperH u v i 1 0) u ∧
    HasDerivAt (fun y => enneperV u y i) (enneperH u v i 1 1) v := by
  have mk : ∀ (f : ℝ → ℝ) (b c e x d : ℝ), (∀ x, f x = b * x ^ 2 + c * x + e) → d = 2 * b * x + c → HasDerivAt f d x := by
    intro f b c e x d h1 h2
    have := hasDerivAt_cubic 0 b c e x
    convert this using 1
    · funext x; rw [h1]; ring
    · rw [h2]; ring
  match i with
  | 0 =>
    exact ⟨mk _ (-1) 0 (1 + v ^ 2) _ _ (fun x => by simp [enneperU]; ring) (by simp [enneperH]),
      mk _ 1 0 (1 - u ^ 2) _ _ (fun x => by simp [enneperU]; ring) (by simp [enneperH]),
      mk _ 0 (2 * v) 0 _ _ (fun x => by simp [enneperV]; ring) (by simp [enneperH]),
      mk _ 0 (2 * u) 0 _ _ (fun x => by simp [enneperV]) (by simp [enneperH])⟩
  | 1 =>
    exact ⟨mk _ 0 (2 * v) 0 _ _ (fun x => by simp [enneperU]; ring) (by simp [enneperH]),
      mk _ 0 (2 * u) 0 _ _ (fun x => by simp [enneperU]) (by simp [enneperH]),
      mk _ 1 0 (1 - v ^ 2) _ _ (fun x => by simp [enneperV]; ring) (by simp [enneperH]),
      mk _ (-1) 0 (1 + u ^ 2) _ _ (fun x => by simp [enneperV]; ring) (by simp [enneperH])⟩
  | 2 =>
    exact ⟨mk _ 0 2 0 _ _ (fun x => by simp [enneperU]) (by simp [enneperH]),
      mk _ 0 0 (2 * u) _ _ (fun x => by simp [enneperU]) (by simp [enneperH]),
      mk _ 0 0 (-2 * v) _ _ (fun x => by simp [enneperV]) (by simp [enneperH]),
      mk _ 0 (-2) 0 _ _ (fun x => by simp [enneperV]) (by simp [enneperH])⟩

theorem Enneper.eval_fin [F.Exact] (u v : ℝ) : Enneper.eval (fin u : Fl F) (fin v) = cv (enneperPt u v) := by
  unfold Enneper.eval
  simp only [fl, Nat.cast_ofNat, Nat.cast_one, div_fin _ (show (3 : ℝ) ≠ 0 by norm_num), cv_vec3, cv_inj]
  unfold enneperPt
  congr 1
  · ring
  · congr 1
    · ring
    · congr 1; ring

/-- C70: the `J` and `H` overloads return the first and second partial derivatives of `operator()`, for all real
parameters and whatever the tensor held before. -/
theorem C70_derivatives [F.Exact] (T : Tensor (Fl F) 3 2 2) :
    SecondDerivatives (F := F) Enneper.eval Enneper.jac
      (fun u v i j k => ((Enneper.hess T u v).get i j k).getD Fl.nan) := by
  refine ⟨enneperPt, enneperU, enneperV, Enneper.eval_fin, ?_, enneper_deriv, enneperH, ?_, ?_⟩
  · intro u v i
    unfold Enneper.jac
    rw [Enneper.eval_fin]
    constructor <;> fin_cases i <;> simp [fl, enneperPt, enneperU, enneperV] <;> ring
  · intro u v i j k
    have hl : T.cells.length = 12 := T.len
    fin_cases i <;> fin_cases j <;> fin_cases k <;>
      simp [Enneper.hess, Tensor.get, Tensor.set, List.getElem?_set, hl, enneperH]
  · intro u v i
    obtain ⟨h1, h2, h3, h4⟩ := enneper_deriv2 u v i
    refine ⟨h1, h2, h3, h4, ?_⟩
    fin_cases i <;> simp [enneperH]

example : ∃ s : ℝ → ℝ → Fin 3 → ℝ, Enneper.eval (fin 1 : Fl exact64) (fin 2) = cv (s 1 2) ∧ s 1 2 0 = 14 / 3 :=
  ⟨enneperPt, Enneper.eval_fin 1 2, by norm_num [enneperPt]⟩

/-! ## C71 -/

theorem enneper_cross (u v : ℝ) : (enneperU u v) ⨯₃ (enneperV u v) = ((1 + u ^ 2 + v ^ 2) ^ 2) • enneperN u v := by
  have hw : (1 + u ^ 2 + v ^ 2) ≠ 0 := by positivity
  rw [cross_apply]
  ext i
  fin_cases i <;> simp [enneperU, enneperV, enneperN] <;> field_simp <;> ring

theorem enneperN_unit (u v : ℝ) : enneperN u v ⬝ᵥ enneperN u v = 1 := by
  have hw : (1 + u ^ 2 + v ^ 2) ≠ 0 := by positivity
  simp [dotProduct, Fin.sum_univ_three, enneperN]
  field_simp
  ring

theorem Enneper.forms_fin [F.Exact] (r : Ray (Fl F)) (rec : HitRecord (Fl F)) (u v : ℝ) (hu : rec.u = fin u)
    (hv : rec.v = fin v) :
    let rec' := Enneper.forms r rec
    rec'.E = fin ((1 + u ^ 2 + v ^ 2) ^ 2) ∧ rec'.F = fin 0 ∧ rec'.G = fin ((1 + u ^ 2 + v ^ 2) ^ 2) ∧
    rec'.e = fin 2 ∧ rec'.f = fin 0 ∧ rec'.g = fin (-2) ∧ rec'.gradMag = fin ((1 + u ^ 2 + v ^ 2) ^ 2) ∧
    (rec'.normal = cv (enneperN u v) ∨ rec'.normal = cv (-enneperN u v)) ∧
    (rec'.frontFace = lt (Vec.dot r.dir (cv (enneperN u v))) 0) ∧
    rec'.t = rec.t ∧ rec'.p = rec.p ∧ rec'.u = rec.u ∧ rec'.v = rec.v := by
  have hw : 0 < (1 + u ^ 2 + v ^ 2) ^ 2 := by positivity
  have e1 : (![1 - fin u * fin u + fin v * fin v, 2 * fin u * fin v, 2 * fin u] : Vec (Fl F) 3) = cv (enneperU u v) := by
    simp only [fl, Nat.cast_ofNat, Nat.cast_one, cv_vec3, cv_inj, enneperU]
    rw [← pow_two, ← pow_two]
  have e2 : (![2 * fin u * fin v, 1 - fin v * fin v + fin u * fin u, -2 * fin v] : Vec (Fl F) 3) = cv (enneperV u v) := by
    simp only [fl, Nat.cast_ofNat, Nat.cast_one, cv_vec3, cv_inj, enneperV]
    rw [← pow_two, ← pow_two]
  have e3 : Vec.norm (cv (((1 + u ^ 2 + v ^ 2) ^ 2) • enneperN u v) : Vec (Fl F) 3) = fin ((1 + u ^ 2 + v ^ 2) ^ 2) := by
    rw [cv_norm, smul_dotProduct, dotProduct_smul, enneperN_unit, fin_inj, smul_eq_mul, smul_eq_mul, mul_one,
      Real.sqrt_mul_self hw.le]
  unfold Enneper.forms
  dsimp only
  rw [hu, hv, e1, e2, cv_cross, enneper_cross, e3, cv_sdiv hw.ne', smul_smul, inv_mul_cancel₀ hw.ne', one_smul]
  obtain ⟨c1, c2, c3, c4⟩ := C37_either { rec with gradMag := fin ((1 + u ^ 2 + v ^ 2) ^ 2) } r (cv (enneperN u v))
  refine ⟨?_, ofNat_zero, ?_, ?_, ofNat_zero, ?_, ?_, ?_, ?_, ?_⟩
  · rw [cv_squaredNorm, fin_inj]
    simp [dotProduct, Fin.sum_univ_three, enneperU]; ring
  · rw [cv_squaredNorm, fin_inj]
    simp [dotProduct, Fin.sum_univ_three, enneperV]; ring
  · rw [ofNat_def]; norm_num
  · rw [ofNat_def, Fl.neg_fin]; norm_num
  · rfl
  · cases h : (HitRecord.setFaceNormal { rec with gradMag := fin ((1 + u ^ 2 + v ^ 2) ^ 2) } r (cv (enneperN u v))).frontFace
    · exact Or.inr (c2 h)
    · exact Or.inl (c1 h)
  · rfl
  · exact ⟨rfl, rfl, hu.symm ▸ rfl, hv.symm ▸ rfl⟩

/-- C71: for all real parameters the values written by `hit` are the fundamental forms of the parametrization for the
unit normal along `σ_u × σ_v`, the recorded normal is that one or its negative, the mean curvature of the record is 0 and
its gaussian curvature is `-4/(1+u²+v²)⁴`. -/
theorem C71_forms [F.Exact] (r : Ray (Fl F)) (rec : HitRecord (Fl F)) (u v : ℝ) (hu : rec.u = fin u) (hv : rec.v = fin v) :
    ∃ n : Fin 3 → ℝ, HasForms (Enneper.forms r rec) enneperPt n u v ∧
      ((Enneper.forms r rec).normal = cv n ∨ (Enneper.forms r rec).normal = cv (-n)) ∧
      (Enneper.forms r rec).meanCurvature = fin 0 ∧
      (Enneper.forms r rec).gaussianCurvature = fin (-4 / (1 + u ^ 2 + v ^ 2) ^ 4) := by
  have hw : (0 : ℝ) < 1 + u ^ 2 + v ^ 2 := by positivity
  obtain ⟨h1, h2, h3, h4, h5, h6, h7, h8, -⟩ := Enneper.forms_fin r rec u v hu hv
  refine ⟨enneperN u v, ⟨enneperU, enneperV, enneper_deriv, fun i => enneperH u v i 0 0, fun i => enneperH u v i 0 1,
    fun i => enneperH u v i 1 1, fun i => ?_, ?_⟩, h8, ?_, ?_⟩
  · obtain ⟨d1, d2, d3, d4⟩ := enneper_deriv2 u v i
    exact ⟨d1, d2, d4⟩
  · rw [h1, h2, h3, h4, h5, h6]
    simp only [fin_inj, enneperN_unit]
    refine ⟨?_, ?_, ?_, ?_, ?_, ?_, trivial, ?_, ?_⟩ <;>
      simp [dotProduct, Fin.sum_univ_three, enneperU, enneperV, enneperN, enneperH] <;> (try field_simp) <;> ring
  · unfold HitRecord.meanCurvature
    rw [h1, h2, h3, h4, h5, h6]
    simp only [fl, Nat.cast_ofNat]
    rw [div_fin _ (by rw [mul_zero, sub_zero]; positivity), fin_inj]
    rw [div_eq_zero_iff]; left; ring
  · unfold HitRecord.gaussianCurvature
    rw [h1, h2, h3, h4, h5, h6]
    simp only [fl]
    rw [div_fin _ (by simp; positivity), fin_inj]
    field_simp
    ring

/-- C71: for `|u|, |v| ≤ 2` the gaussian curvature lies within `gaussian_curvature_bounds()`. -/
theorem C71_bounds [F.Exact] (u v : ℝ) (hu : |u| ≤ 2) (hv : |v| ≤ 2) :
    ∃ a b : ℝ, Enneper.curvatureBounds (R := Fl F) = (fin a, fin b) ∧
      a ≤ -4 / (1 + u ^ 2 + v ^ 2) ^ 4 ∧ -4 / (1 + u ^ 2 + v ^ 2) ^ 4 ≤ b := by
  refine ⟨-4, -4 / 9 ^ 4, ?_, ?_, ?_⟩
  · unfold Enneper.curvatureBounds
    rw [ofNat_def, ofNat_def, Fl.neg_fin, powi_fin _ (by norm_num), div_fin _ (by norm_num)]
    norm_num
  · have h1 : 1 ≤ (1 + u ^ 2 + v ^ 2) ^ 4 := one_le_pow₀ (by nlinarith [sq_nonneg u, sq_nonneg v])
    rw [le_div_iff₀ (by positivity)]
    linarith
  · have hu2 : u ^ 2 ≤ 4 := by nlinarith [abs_nonneg u, sq_abs u]
    have hv2 : v ^ 2 ≤ 4 := by nlinarith [abs_nonneg v, sq_abs v]
    have h1 : (1 + u ^ 2 + v ^ 2) ^ 4 ≤ 9 ^ 4 := pow_le_pow_left₀ (by positivity) (by linarith) 4
    rw [div_le_div_iff₀ (by positivity) (by positivity)]
    linarith

example : ∃ a b : ℝ, Enneper.curvatureBounds (R := Fl exact64) = (fin a, fin b) ∧ a ≤ -4 / 81 ∧ -4 / 81 ≤ b := by
  have := C71_bounds (F := exact64) 1 (-1) (by norm_num) (by norm_num)
  norm_num at this ⊢
  exact this

/-! ## C72 -/

section
variable {R : Type} [Scalar R]

/-- C72, the end of `hit` (every arithmetic, every answer `w` of the solver, every range and prior record): on a hit the
record holds the solver's parameters, `rec.p = r(rec.t)`, `rec.t` is neither below nor above the range, and the distance
from `rec.p` to the surface point at `(rec.u, rec.v)` is not above `1e-5`. -/
theorem C72_any_solver (r : Ray R) (tmin tmax : R) (w : Vec R 3) (rec rec' : HitRecord R)
    (h : Enneper.finish r tmin tmax w rec = (true, rec')) :
    rec'.t = w 2 ∧ rec'.u = w 0 ∧ rec'.v = w 1 ∧ rec'.p = r.at rec'.t ∧ lt rec'.t tmin = false ∧ gt rec'.t tmax = false ∧
      gt (Vec.norm (rec'.p - Enneper.eval rec'.u rec'.v)) (lit (1 / 100000)) = false ∧ isNaN rec'.u = false := by
  unfold Enneper.finish at h
  dsimp only at h
  split_ifs at h with h1 h2 h3
  · exact absurd (congrArg Prod.fst h) Bool.false_ne_true
  · exact absurd (congrArg Prod.fst h) Bool.false_ne_true
  · exact absurd (congrArg Prod.fst h) Bool.false_ne_true
  · simp only [Prod.mk.injEq, true_and] at h
    subst h
    simp only [Bool.or_eq_true, not_or, Bool.not_eq_true] at h1 h2 h3
    exact ⟨rfl, rfl, rfl, rfl, h2.1, h2.2, h3, h1⟩

theorem Enneper.pick_mem (first : Vec R 3) (sols : List (Vec R 3)) : Enneper.pick first sols ∈ first :: sols := by
  unfold Enneper.pick
  have key : ∀ (l : List (Vec R 3)) (s : Vec R 3 × R), (∀ x ∈ l, x ∈ first :: sols) → s.1 ∈ first :: sols →
      (l.foldl (fun (s : Vec R 3 × R) sol => if lt (sol 2) s.2 then (sol, sol 2) else s) s).1 ∈ first :: sols := by
    intro l
    induction l with
    | nil => intro s _ hs; exact hs
    | cons x l ih =>
      intro s hl hs
      rw [List.foldl_cons]
      refine ih _ (fun y hy => hl y (List.mem_cons_of_mem _ hy)) ?_
      split_ifs
      · exact hl x List.mem_cons_self
      · exact hs
  exact key sols _ (fun x hx => List.mem_cons_of_mem _ hx) List.mem_cons_self

/-- What every answer of Newton's method satisfies. -/
def Enneper.Answer (o d : Vec R 3) (x : Vec R 3) : Prop :=
  x = Vec.nans ∨ ∃ e, Scalar.le (maxNorm (Enneper.objective o d x).1) e = true

theorem Enneper.randomStarts_answer {solve : Mat R 3 3 → Vec R 3 → Option (Vec R 3)} {o d : Vec R 3} (k : ℕ)
    {b : Bounds R 3} {l : List (Vec R 3)} (h : Enneper.randomStarts solve o d k b = some l) : ∀ x ∈ l, Enneper.Answer o d x := by
  induction k generalizing b l with
  | zero => simp only [Enneper.randomStarts, Option.some.injEq] at h; subst h; simp
  | succ k ih =>
    unfold Enneper.randomStarts at h
    simp only [Option.bind_eq_bind, Option.bind_eq_some_iff, Option.pure_def, Option.some.injEq] at h
    obtain ⟨s, hs, ss, hss, rfl⟩ := h
    intro x hx
    rcases List.mem_cons.mp hx with rfl | hx
    · rcases C21_residual _ _ _ _ _ _ hs with h | h
      · exact Or.inl h
      · exact Or.inr ⟨_, h⟩
    · exact ih hss x hx

theorem Enneper.computeUVT_answer {solve : Mat R 3 3 → Vec R 3 → Option (Vec R 3)} {o d : Vec R 3} {tmin tmax : R} {w : Vec R 3}
    (h : Enneper.computeUVT solve o d tmin tmax = some w) : Enneper.Answer o d w := by
  have nt : ∀ {b g s}, newtonN solve (Enneper.objective o d) b g 16 = some s → Enneper.Answer o d s.x := by
    intro b g s hs
    rcases C21_residual _ _ _ _ _ _ hs with h | h
    · exact Or.inl h
    · exact Or.inr ⟨_, h⟩
  unfold Enneper.computeUVT at h
  simp only [Option.bind_eq_bind, Option.bind_eq_some_iff, Option.pure_def, Option.some.injEq] at h
  obtain ⟨b0, -, s0, h0, s1, h1, s2, h2, ss, h3, rfl⟩ := h
  have := Enneper.pick_mem s0.x (s0.x :: s1.x :: s2.x :: ss)
  simp only [List.mem_cons] at this
  rcases this with e | e | e | e | e
  · rw [e]; exact nt h0
  · rw [e]; exact nt h0
  · rw [e]; exact nt h1
  · rw [e]; exact nt h2
  · exact Enneper.randomStarts_answer 9 h3 _ e

end

/-- C72 (every rounding, all rays and ranges, whatever the solver does): when `hit` returns true, `rec.p = r(rec.t)`,
`rec.t` is not NaN and lies in `[t_min, t_max]`, and the distance from `rec.p` to `operator()(rec.u, rec.v)` passes the
test against `1e-5`. -/
theorem C72_range (solve : Mat (Fl F) 3 3 → Vec (Fl F) 3 → Option (Vec (Fl F) 3)) (s : Enneper (Fl F)) (r : Ray (Fl F)) (tmin tmax : Fl F) (rec rec' : HitRecord (Fl F))
    (h1 : isNaN tmin = false) (h2 : isNaN tmax = false) (h : Enneper.hitWith solve s r tmin tmax rec = some (true, rec')) :
    isNaN rec'.t = false ∧ Scalar.le tmin rec'.t = true ∧ Scalar.le rec'.t tmax = true ∧ rec'.p = r.at rec'.t ∧
      gt (Vec.norm (rec'.p - Enneper.eval rec'.u rec'.v)) (lit (1 / 100000)) = false := by
  unfold Enneper.hitWith at h
  dsimp only at h
  split at h
  · rename_i r0 r1 hr
    split_ifs at h with q1 q2
    · simp at h
    · simp at h
    · obtain ⟨w, hw, hf⟩ := Option.map_eq_some_iff.mp h
      obtain ⟨a1, a2, a3, a4, a5, a6, a7, a8⟩ := C72_any_solver _ _ _ _ _ _ hf
      have hans := Enneper.computeUVT_answer hw
      have ht : isNaN rec'.t = false := by
        rcases hans with rfl | ⟨e, he⟩
        · rw [a2] at a8; exact absurd a8 (by simp [Vec.nans])
        · rw [a1]
          by_contra hc
          have hc := eq_nan_of_isNaN (Bool.eq_true_of_not_eq_false hc)
          have h0 : (Enneper.objective r.origin r.dir w).1 0 = Fl.nan := by
            show (Enneper.eval (w 0) (w 1) 0 - r.origin 0) - w 2 * r.dir 0 = _
            rw [hc, nan_mul, sub_nan]
          rw [C05_nan_first_partial _ h0, nan_le] at he
          exact absurd he Bool.false_ne_true
      have mx : ∀ a b : Fl F, isNaN a = false → lt rec'.t (Scalar.max a b) = false → lt rec'.t a = false := by
        intro a b ha hlt
        unfold Scalar.max at hlt
        split_ifs at hlt with hab
        · by_contra hc
          rw [Fl.lt_trans (Bool.eq_true_of_not_eq_false hc) hab] at hlt
          exact absurd hlt Bool.true_eq_false.mp
        · exact hlt
      have mn : ∀ a b : Fl F, isNaN a = false → lt (Scalar.min a b) rec'.t = false → lt a rec'.t = false := by
        intro a b ha hlt
        unfold Scalar.min at hlt
        split_ifs at hlt with hab
        · by_contra hc
          rw [Fl.lt_trans hab (Bool.eq_true_of_not_eq_false hc)] at hlt
          exact absurd hlt Bool.true_eq_false.mp
        · exact hlt
      exact ⟨ht, Fl.le_of_not_lt ht h1 (mx _ _ h1 a5), Fl.le_of_not_lt h2 ht (mn _ _ h2 a6), a4, a7⟩
  · simp at h

theorem Enneper.objective_robust [F.Exact] (o d : Fin 3 → ℝ) :
    Robust (F := F) (n := 2) (Enneper.objective (cv o) (cv d)) := by
  constructor
  · intro x
    refine ⟨enneperPt (x 0) (x 1) - o - x 2 • d, !![enneperU (x 0) (x 1) 0, enneperV (x 0) (x 1) 0, -d 0;
      enneperU (x 0) (x 1) 1, enneperV (x 0) (x 1) 1, -d 1; enneperU (x 0) (x 1) 2, enneperV (x 0) (x 1) 2, -d 2], ?_⟩
    unfold Enneper.objective Enneper.jac
    simp only [cv_apply, Enneper.eval_fin]
    refine Prod.ext ?_ ?_
    · simp only [fl]
    · funext i j
      fin_cases i <;> fin_cases j <;> simp [fl, cm, enneperPt, enneperU, enneperV] <;> ring
  · intro x i hi
    show (Enneper.eval (x 0) (x 1) 0 - (cv o : Vec (Fl F) 3) 0) - x 2 * (cv d : Vec (Fl F) 3) 0 = _
    unfold Enneper.eval
    simp only [cons_val_zero]
    fin_cases i
    · rw [show x 0 = Fl.nan from hi]; simp
    · rw [show x 1 = Fl.nan from hi]; simp
    · rw [show x 2 = Fl.nan from hi]; simp
  · intro x hx
    show (Enneper.eval (x 0) (x 1) 0 - (cv o : Vec (Fl F) 3) 0) - x 2 * (cv d : Vec (Fl F) 3) 0 = _
    have h3 : ((3 : Fl F)) = fin 3 := by rw [ofNat_def]; norm_num
    have pd : (Fl.pinf / fin 3 : Fl F) = Fl.pinf := by
      show (if (3 : ℝ) = 0 then _ else (infOf 3 : Fl F)) = _
      rw [if_neg (by norm_num), infOf_pos (by norm_num)]
    have key : Enneper.eval (x 0) (x 1) 0 = Fl.nan := by
      unfold Enneper.eval
      simp only [cons_val_zero]
      have h0 := hx 0
      have h1 := hx 1
      generalize x 0 = a at h0
      generalize x 1 = b at h1
      rw [h3, ofNat_one]
      cases a with
      | nan => exact nan_mul _
      | fin t => exact absurd rfl (h0 t)
      | pinf =>
        cases b with
        | nan => show Fl.pinf * (_ + Fl.nan * Fl.nan) = _; simp
        | fin t => exact absurd rfl (h1 t)
        | pinf => show Fl.pinf * (fin 1 - Fl.pinf * Fl.pinf / fin 3 + Fl.pinf * Fl.pinf) = _; simp [pd]
        | ninf => show Fl.pinf * (fin 1 - Fl.pinf * Fl.pinf / fin 3 + Fl.ninf * Fl.ninf) = _; simp [pd]
      | ninf =>
        cases b with
        | nan => show Fl.ninf * (_ + Fl.nan * Fl.nan) = _; simp
        | fin t => exact absurd rfl (h1 t)
        | pinf => show Fl.ninf * (fin 1 - Fl.ninf * Fl.ninf / fin 3 + Fl.pinf * Fl.pinf) = _; simp [pd]
        | ninf => show Fl.ninf * (fin 1 - Fl.ninf * Fl.ninf / fin 3 + Fl.ninf * Fl.ninf) = _; simp [pd]
    rw [key, nan_sub, nan_sub]

theorem quadraticRoots_finite [F.Exact] (a b c : ℝ) (ha : F.tiny < |a|) (r0 r1 : Fl F)
    (h : quadraticRoots (fin a : Fl F) (fin b) (fin c) = [r0, r1]) : ∃ x y : ℝ, r0 = fin x ∧ r1 = fin y := by
  have ht : (0 : ℝ) ≤ F.tiny := Fmt.Exact.tiny_nonneg
  have ha0 : a ≠ 0 := fun h => by rw [h, abs_zero] at ha; linarith
  have use : ∀ b : ℝ, (b = 0 ∨ F.tiny < |b|) → quadraticRoots (fin a : Fl F) (fin b) (fin c) = [r0, r1] →
      ∃ x y : ℝ, r0 = fin x ∧ r1 = fin y := by
    intro b hb h
    rcases quadraticRoots_spec (F := F) a b c (Or.inr ha) (Or.inr hb) (fun h => ha0 h.1) with h' | ⟨x, y, -, h', -⟩
    · rw [h'.1] at h; cases h
    · rw [h'] at h
      simp only [List.cons.injEq, and_true] at h
      exact ⟨x, y, h.1.symm, h.2.symm⟩
  by_cases hb : F.tiny < |b|
  · exact use b (Or.inr hb) h
  · refine use 0 (Or.inl rfl) ?_
    rw [← h]
    unfold quadraticRoots
    simp only [abs_fin, tiny_def, le_fin, decide_eq_true_eq, not_le.mpr ha, not_lt.mp hb, abs_zero, ht, if_true, if_false]

theorem Enneper.randomStarts_finite [F.Exact] {solve : Mat (Fl F) 3 3 → Vec (Fl F) 3 → Option (Vec (Fl F) 3)} {o d : Fin 3 → ℝ} (k : ℕ) {lo hi : Fin 3 → ℝ} (hlh : ∀ i, lo i ≤ hi i)
    {b : Bounds (Fl F) 3} (hb : ∃ g, b = Bounds.ofReal lo hi g) {l : List (Vec (Fl F) 3)}
    (h : Enneper.randomStarts solve (cv o) (cv d) k b = some l) : ∀ x ∈ l, x = Vec.nans ∨ ∃ z, x = cv z := by
  induction k generalizing b l with
  | zero => simp only [Enneper.randomStarts, Option.some.injEq] at h; subst h; simp
  | succ k ih =>
    obtain ⟨g, rfl⟩ := hb
    unfold Enneper.randomStarts at h
    obtain ⟨y, g', hr, -⟩ := random_cv (F := F) hlh g
    simp only [hr, Option.bind_eq_bind, Option.bind_eq_some_iff, Option.pure_def, Option.some.injEq] at h
    obtain ⟨s, hs, ss, hss, rfl⟩ := h
    intro x hx
    rcases List.mem_cons.mp hx with rfl | hx
    · exact newtonN_finite _ _ (Enneper.objective_robust o d) lo hi g' y 16 s hs
    · refine ih ⟨s.bound.pcg, ?_⟩ hss x hx
      have := newtonN_box _ _ _ _ _ _ hs
      rw [show s.bound = ⟨s.bound.box, s.bound.pcg⟩ from rfl, this]
      rfl

theorem Enneper.computeUVT_finite [F.Exact] {solve : Mat (Fl F) 3 3 → Vec (Fl F) 3 → Option (Vec (Fl F) 3)} {o d : Fin 3 → ℝ} {p q : ℝ} {w : Vec (Fl F) 3}
    (h : Enneper.computeUVT solve (cv o) (cv d) (fin p) (fin q) = some w) : w = Vec.nans ∨ ∃ z, w = cv z := by
  unfold Enneper.computeUVT at h
  simp only [Option.bind_eq_bind, Option.bind_eq_some_iff, Option.pure_def, Option.some.injEq] at h
  obtain ⟨b0, hb0, s0, h0, s1, h1, s2, h2, ss, h3, rfl⟩ := h
  have hpq : p ≤ q ∧ ∃ g, b0 = Bounds.ofReal ![-2, -2, p] ![0, 0, q] g := by
    unfold Bounds.init at hb0
    split_ifs at hb0 with hc
    rw [Option.some.injEq] at hb0
    subst hb0
    constructor
    · rcases hc with hc | hc
      · omega
      · rw [List.all_eq_true] at hc
        have := hc 2 (List.mem_finRange 2)
        simpa using this
    · refine ⟨⟨1235123#64, 234121#64⟩, ?_⟩
      unfold Bounds.ofReal
      congr 1
      funext i
      fin_cases i <;> simp
  obtain ⟨hpq, g, rfl⟩ := hpq
  have cen : ∀ (lo hi : Fin 3 → ℝ) (g : Pcg), (Bounds.ofReal (F := F) lo hi g).center = cv (fun i => (lo i + hi i) / 2) := by
    intro lo hi g
    funext i
    show ((fin (lo i) + fin (hi i)) / 2 : Fl F) = _
    rw [add_fin, ofNat_def, div_fin _ (by norm_num)]
    simp [cv]
  have nt : ∀ {lo hi : Fin 3 → ℝ} {g : Pcg} {s}, (∀ i, lo i ≤ hi i) →
      newtonN solve (Enneper.objective (cv o) (cv d)) (Bounds.ofReal lo hi g) (Bounds.ofReal (F := F) lo hi g).center 16 = some s →
      (s.x = Vec.nans ∨ ∃ z, s.x = cv z) ∧ s.bound = Bounds.ofReal lo hi s.bound.pcg := by
    intro lo hi g s hlh hs
    constructor
    · rw [cen] at hs
      exact newtonN_finite _ _ (Enneper.objective_robust o d) lo hi g _ 16 s hs
    · have := newtonN_box _ _ _ _ _ _ hs
      rw [show s.bound = ⟨s.bound.box, s.bound.pcg⟩ from rfl, this]
      rfl
  have setuv : ∀ (lo hi : Fin 3 → ℝ) (g : Pcg) (a b c e : ℝ), Enneper.setUV (Bounds.ofReal (F := F) lo hi g)
      (fin a, fin b) (fin c, fin e) = Bounds.ofReal ![a, c, lo 2] ![b, e, hi 2] g := by
    intro lo hi g a b c e
    unfold Enneper.setUV Bounds.ofReal
    congr 1
    funext i
    fin_cases i <;> rfl
  have le3 : ∀ a b c e : ℝ, a ≤ b → c ≤ e → ∀ i : Fin 3, ![a, c, p] i ≤ ![b, e, q] i := by
    intro a b c e h1 h2 i
    fin_cases i
    · exact h1
    · exact h2
    · exact hpq
  obtain ⟨f0, g0⟩ := nt (le3 _ _ _ _ (by norm_num) (by norm_num)) h0
  have n2 : (2 : Fl F) = fin 2 := by rw [ofNat_def]; norm_num
  rw [g0, n2, ofNat_zero, setuv] at h1
  obtain ⟨f1, g1⟩ := nt (le3 _ _ _ _ (by norm_num) (by norm_num)) h1
  rw [g1, ofNat_one, Fl.neg_fin, setuv] at h2
  obtain ⟨f2, g2⟩ := nt (le3 _ _ _ _ (by norm_num) (by norm_num)) h2
  rw [g2, n2, Fl.neg_fin, setuv] at h3
  have f3 := Enneper.randomStarts_finite 9 (le3 (-2) 2 (-2) 2 (by norm_num) (by norm_num)) ⟨_, rfl⟩ h3
  have := Enneper.pick_mem s0.x (s0.x :: s1.x :: s2.x :: ss)
  simp only [List.mem_cons] at this
  rcases this with e | e | e | e | e
  · rw [e]; exact f0
  · rw [e]; exact f0
  · rw [e]; exact f1
  · rw [e]; exact f2
  · exact f3 _ e

/-- C72 in exact arithmetic, for all real rays whose direction is not tiny, all ranges without NaN, and whatever the
linear solver inside Newton's method answers: on a hit all recorded parameters are real numbers, `rec.t` lies in the
range, `rec.p = r(rec.t)`, and the distance from `rec.p` to the surface point at `(rec.u, rec.v)` is at most `1e-5`. -/
theorem C72_distance [F.Exact] (solve : Mat (Fl F) 3 3 → Vec (Fl F) 3 → Option (Vec (Fl F) 3)) (ρ : ℝ) (o d : Fin 3 → ℝ) (hd : F.tiny < d ⬝ᵥ d) (tmin tmax : Fl F)
    (rec rec' : HitRecord (Fl F)) (h1 : isNaN tmin = false) (h2 : isNaN tmax = false)
    (h : Enneper.hitWith solve (⟨fin ρ⟩ : Enneper (Fl F)) ⟨cv o, cv d⟩ tmin tmax rec = some (true, rec')) :
    ∃ t u v : ℝ, rec'.t = fin t ∧ rec'.u = fin u ∧ rec'.v = fin v ∧ InRange (tmin, tmax) t ∧
      rec'.p = cv (o + t • d) ∧
      Real.sqrt ((o + t • d - enneperPt u v) ⬝ᵥ (o + t • d - enneperPt u v)) ≤ 1 / 100000 := by
  obtain ⟨b1, b2, b3, b4, b5⟩ := C72_range _ _ _ _ _ _ _ h1 h2 h
  unfold Enneper.hitWith at h
  dsimp only at h
  rw [cv_squaredNorm, cv_squaredNorm, cv_dot, ofNat_def, mul_fin, mul_fin, sub_fin] at h
  split at h
  · rename_i r0 r1 hr
    obtain ⟨x, y, rfl, rfl⟩ := quadraticRoots_finite _ _ _ (by rwa [abs_of_nonneg (dotProduct_self_nonneg' d)]) _ _ hr
    split_ifs at h with q1 q2
    · simp at h
    · simp at h
    · obtain ⟨w, hw, hf⟩ := Option.map_eq_some_iff.mp h
      obtain ⟨a1, a2, a3, a4, a5, a6, a7, a8⟩ := C72_any_solver _ _ _ _ _ _ hf
      -- the clipped range is finite
      obtain ⟨p, hp⟩ : ∃ p : ℝ, Scalar.max tmin (fin x) = fin p := by
        cases tmin with
        | nan => exact absurd h1 (by simp)
        | fin a => exact ⟨_, max_fin a x⟩
        | ninf => exact ⟨x, rfl⟩
        | pinf => exact absurd (fin_lt_pinf (F := F) y) q1
      obtain ⟨q, hq⟩ : ∃ q : ℝ, Scalar.min tmax (fin y) = fin q := by
        cases tmax with
        | nan => exact absurd h2 (by simp)
        | fin a => exact ⟨_, min_fin a y⟩
        | ninf => exact absurd (ninf_lt_fin (F := F) x) q2
        | pinf => exact ⟨y, rfl⟩
      rw [hp, hq] at hw
      have hfin : w = Vec.nans ∨ ∃ z, w = cv z := Enneper.computeUVT_finite hw
      rcases hfin with rfl | ⟨z, rfl⟩
      · rw [a2] at a8; exact absurd a8 (by simp [Vec.nans])
      · refine ⟨z 2, z 0, z 1, a1, a2, a3, ?_, ?_, ?_⟩
        · rw [a1] at b2 b3
          exact ⟨b2, b3⟩
        · rw [b4, a1]; exact ray_at_cv o d (z 2)
        · rw [b4, a1, a2, a3, cv_apply, cv_apply, cv_apply, ray_at_cv, Enneper.eval_fin, cv_sub, cv_norm, lit_def] at b5
          simpa [gt] using b5
  · simp at h

/-! ## Concrete cases -/

theorem Enneper.finish_fin [F.Exact] (o d : Fin 3 → ℝ) (w : Fin 3 → ℝ) (rec : HitRecord (Fl F)) (hw : 0 ≤ w 2) :
    Enneper.finish (R := Fl F) ⟨cv o, cv d⟩ 0 Scalar.inf (cv w) rec =
      if 1 / 100000 < Real.sqrt ((o + w 2 • d - enneperPt (w 0) (w 1)) ⬝ᵥ (o + w 2 • d - enneperPt (w 0) (w 1))) then
        (false, Enneper.place ⟨cv o, cv d⟩ (cv w) rec)
      else (true, Enneper.forms ⟨cv o, cv d⟩ (Enneper.place ⟨cv o, cv d⟩ (cv w) rec)) := by
  have e1 : lt (fin (w 2)) (0 : Fl F) = false := by rw [ofNat_zero]; simp [hw]
  have e2 : gt (fin (w 2)) (Scalar.inf : Fl F) = false := rfl
  have e3 : gt (Vec.norm ((Enneper.place ⟨cv o, cv d⟩ (cv w) rec).p - Enneper.eval (fin (w 0)) (fin (w 1))) : Fl F)
      (lit (1 / 100000)) =
      decide (1 / 100000 < Real.sqrt ((o + w 2 • d - enneperPt (w 0) (w 1)) ⬝ᵥ (o + w 2 • d - enneperPt (w 0) (w 1)))) := by
    show gt (Vec.norm (Ray.at ⟨cv o, cv d⟩ (fin (w 2)) - _)) _ = _
    rw [ray_at_cv, Enneper.eval_fin, cv_sub, cv_norm, lit_def]
    simp [gt]
  unfold Enneper.finish
  simp only [cv_apply, e1, e2, e3, isNaN_fin, Bool.or_self, Bool.false_eq_true, if_false, decide_eq_true_eq]

/-- A case of `C72_any_solver` and `C71_forms`: the ray down from `(2/3, 0, 3)` and the solver's answer `(1, 0, 2)`; the
surface point there is `(2/3, 0, 1)`, the end of `hit` accepts it, and the gaussian curvature recorded is `-1/4`. -/
example (rec : HitRecord (Fl exact64)) :
    ∃ rec', Enneper.finish (R := Fl exact64) ⟨cv ![2 / 3, 0, 3], cv ![0, 0, -1]⟩ 0 Scalar.inf (cv ![1, 0, 2]) rec =
      (true, rec') ∧ rec'.p = cv ![2 / 3, 0, 1] ∧ rec'.gaussianCurvature = fin (-1 / 4) := by
  rw [Enneper.finish_fin _ _ _ _ (by simp), if_neg]
  · refine ⟨_, rfl, ?_, ?_⟩
    · show Ray.at ⟨cv ![2 / 3, 0, 3], cv ![0, 0, -1]⟩ (fin 2) = _
      rw [ray_at_cv]
      congr 1; ext i; fin_cases i <;> norm_num
    · obtain ⟨n, -, -, -, h⟩ := C71_forms (F := exact64) ⟨cv ![2 / 3, 0, 3], cv ![0, 0, -1]⟩
        (Enneper.place ⟨cv ![2 / 3, 0, 3], cv ![0, 0, -1]⟩ (cv ![1, 0, 2]) rec) 1 0 rfl rfl
      rw [h]; norm_num
  · have : (![2 / 3, 0, 3] + (![1, 0, 2] : Fin 3 → ℝ) 2 • ![0, 0, -1] - enneperPt ((![1, 0, 2] : Fin 3 → ℝ) 0)
        ((![1, 0, 2] : Fin 3 → ℝ) 1)) = 0 := by
      ext i; fin_cases i <;> simp [enneperPt] <;> norm_num
    rw [this]; simp

/-- An implementation of `matrix::solve` that, for the ray down from `(0, 0, 3)`, answers every call with the step to the solution
`(0, 0, 3)`. -/
def Enneper.jump {R : Type} [Scalar R] (M : Mat R 3 3) (b : Vec R 3) : Option (Vec R 3) :=
  some ![-(M 2 0) / 2, M 2 1 / 2, b 2 + M 2 0 / 2 * (M 2 0 / 2) - M 2 1 / 2 * (M 2 1 / 2)]

theorem Enneper.jump_newton [F.Exact] (lo hi x : Fin 3 → ℝ) (g : Pcg) (hw : Inside lo hi ![0, 0, 3]) :
    ∃ s, newtonN Enneper.jump (Enneper.objective (cv ![0, 0, 3]) (cv ![0, 0, -1] : Vec (Fl F) 3)) (Bounds.ofReal lo hi g) (cv x) 16 = some s ∧
      s.x = cv ![0, 0, 3] ∧ s.bound = Bounds.ofReal lo hi g := by
  have hobj : ∀ y : Fin 3 → ℝ, (Enneper.objective (cv ![0, 0, 3]) (cv ![0, 0, -1]) (cv y : Vec (Fl F) 3)).1 =
      cv (enneperPt (y 0) (y 1) - ![0, 0, 3] - y 2 • ![0, 0, -1]) := by
    intro y
    simp only [Enneper.objective, cv_apply, Enneper.eval_fin, cv_sub, cv_smul]
  have hstep : Enneper.jump (Enneper.objective (cv ![0, 0, 3]) (cv ![0, 0, -1]) (cv x : Vec (Fl F) 3)).2
      (-(Enneper.objective (cv ![0, 0, 3]) (cv ![0, 0, -1]) (cv x : Vec (Fl F) 3)).1) = some (cv (![0, 0, 3] - x)) := by
    rw [hobj]
    have e0 : (Enneper.objective (cv ![0, 0, 3]) (cv ![0, 0, -1]) (cv x : Vec (Fl F) 3)).2 2 0 = fin (2 * x 0) := by
      show (2 * fin (x 0) : Fl F) = _
      rw [ofNat_def, mul_fin]; norm_num
    have e1 : (Enneper.objective (cv ![0, 0, 3]) (cv ![0, 0, -1]) (cv x : Vec (Fl F) 3)).2 2 1 = fin (-2 * x 1) := by
      show (-2 * fin (x 1) : Fl F) = _
      rw [ofNat_def, Fl.neg_fin, mul_fin]; norm_num
    unfold Enneper.jump
    rw [e0, e1, cv_neg, cv_apply, ofNat_def, Fl.neg_fin, div_fin _ (by norm_num), div_fin _ (by norm_num), div_fin _ (by norm_num),
      mul_fin, mul_fin, add_fin, sub_fin, cv_vec3]
    congr 2
    funext i
    fin_cases i <;> simp [enneperPt] <;> ring
  have hroot : (Enneper.objective (cv ![0, 0, 3]) (cv ![0, 0, -1]) (cv ![0, 0, 3] : Vec (Fl F) 3)).1 = cv 0 := by
    rw [hobj]
    congr 1
    funext i
    fin_cases i <;> simp [enneperPt]
  have hJ : (Enneper.objective (cv ![0, 0, 3]) (cv ![0, 0, -1]) (cv ![0, 0, 3] : Vec (Fl F) 3)).2 = cm 1 := by
    funext i j
    simp only [Enneper.objective, Enneper.jac, cv_apply, cons_val_zero, cons_val_one, Enneper.eval_fin]
    fin_cases i <;> fin_cases j <;> simp [fl, enneperPt, cm]
  obtain ⟨e, he, he0, -⟩ := expectedResidual_fin (F := F) (1 : Matrix (Fin 3) (Fin 3) ℝ) ![0, 0, 3]
  have hx1 : (cv x : Vec (Fl F) 3) + cv (![0, 0, 3] - x) = cv ![0, 0, 3] := by rw [cv_add]; congr 1; abel
  have hg1 : (squaredNorm (cv 0 : Vec (Fl F) 3) / 2 : Fl F) = fin 0 := by
    rw [cv_squaredNorm, ofNat_def, div_fin _ (by norm_num)]; simp
  have hg0 : ∃ q : ℝ, 0 ≤ q ∧ (squaredNorm (Enneper.objective (cv ![0, 0, 3]) (cv ![0, 0, -1]) (cv x : Vec (Fl F) 3)).1 / 2 : Fl F) = fin q := by
    rw [hobj, cv_squaredNorm, ofNat_def, div_fin _ (by norm_num)]
    exact ⟨_, div_nonneg (dotProduct_self_nonneg' _) (by norm_num), rfl⟩
  obtain ⟨q, hq0, hq⟩ := hg0
  have hbody : ∃ s', NewtonN.body Enneper.jump (Enneper.objective (cv ![0, 0, 3]) (cv ![0, 0, -1] : Vec (Fl F) 3))
      (NewtonN.start (Enneper.objective (cv ![0, 0, 3]) (cv ![0, 0, -1])) (Bounds.ofReal lo hi g) (cv x)) = some (.inl s') ∧
      s'.guess = cv ![0, 0, 3] ∧ s'.v = cv 0 ∧ s'.expected = fin e ∧ s'.bound = Bounds.ofReal lo hi g := by
    unfold NewtonN.body NewtonN.start
    dsimp only
    rw [hstep]
    dsimp only
    rw [hx1, if_pos ((contains_cv lo hi _ g).mpr hw)]
    unfold NewtonN.advance
    dsimp only
    rw [hx1, hroot, hg1, hq, if_neg (by simp [gt, hq0]), hJ, he]
    exact ⟨_, rfl, rfl, rfl, rfl, rfl⟩
  obtain ⟨s', hb, h1, h2, h3, h4⟩ := hbody
  have hm : (maxNorm s'.v : Fl F) = fin 0 := by
    rw [h2]
    obtain ⟨m, hm, -, i, hi⟩ := C05_max_norm_finite_partial (F := F) (0 : Fin 3 → ℝ)
    rw [hm, hi]; simp
  refine ⟨NewtonN.finish s', ?_, ?_, ?_⟩
  · unfold newtonN
    rw [NewtonN.loop, hb]
    dsimp only
    rw [hm, h3, if_neg (by simp [gt, he0])]
  · unfold NewtonN.finish
    rw [hm, h3, if_pos (by simpa using he0)]
    exact h1
  · unfold NewtonN.finish
    rw [hm, h3, if_pos (by simpa using he0)]
    exact h4

theorem Enneper.jump_starts [F.Exact] (k : ℕ) (lo hi : Fin 3 → ℝ) (hlh : ∀ i, lo i ≤ hi i) (hw : Inside lo hi ![0, 0, 3]) (g : Pcg) :
    ∃ l, Enneper.randomStarts Enneper.jump (cv ![0, 0, 3]) (cv ![0, 0, -1] : Vec (Fl F) 3) k (Bounds.ofReal lo hi g) = some l ∧
      ∀ x ∈ l, x = cv ![0, 0, 3] := by
  induction k generalizing g with
  | zero => exact ⟨[], rfl, by simp⟩
  | succ k ih =>
    obtain ⟨y, g', hr, -⟩ := random_cv (F := F) hlh g
    obtain ⟨s, hs, hx, hb⟩ := Enneper.jump_newton (F := F) lo hi y g' hw
    obtain ⟨l, hl, hall⟩ := ih g'
    refine ⟨s.x :: l, ?_, ?_⟩
    · simp only [Enneper.randomStarts, hr, hs, hb, hl, Option.bind_eq_bind, Option.bind_some, Option.pure_def]
    · intro x hm
      rcases List.mem_cons.mp hm with rfl | hm
      · exact hx
      · exact hall x hm

theorem Enneper.jump_uvt [F.Exact] :
    Enneper.computeUVT Enneper.jump (cv ![0, 0, 3]) (cv ![0, 0, -1] : Vec (Fl F) 3) (fin 0) (fin 7) = some (cv ![0, 0, 3]) := by
  have cen : ∀ (lo hi : Fin 3 → ℝ) (g : Pcg), (Bounds.ofReal (F := F) lo hi g).center = cv (fun i => (lo i + hi i) / 2) := by
    intro lo hi g
    funext i
    show ((fin (lo i) + fin (hi i)) / 2 : Fl F) = _
    rw [add_fin, ofNat_def, div_fin _ (by norm_num)]
    simp [cv]
  have setuv : ∀ (lo hi : Fin 3 → ℝ) (g : Pcg) (a b c e : ℝ), Enneper.setUV (Bounds.ofReal (F := F) lo hi g)
      (fin a, fin b) (fin c, fin e) = Bounds.ofReal ![a, c, lo 2] ![b, e, hi 2] g := by
    intro lo hi g a b c e
    unfold Enneper.setUV Bounds.ofReal
    congr 1
    funext i
    fin_cases i <;> rfl
  have n2 : (2 : Fl F) = fin 2 := by rw [ofNat_def]; norm_num
  have hin : ∀ a b : ℝ, a ≤ 0 → 0 ≤ b → Inside ![a, a, 0] ![b, b, 7] ![0, 0, 3] := by
    intro a b h1 h2 i
    fin_cases i
    · exact ⟨h1, h2⟩
    · exact ⟨h1, h2⟩
    · exact ⟨by norm_num, by norm_num⟩
  have hinit : Bounds.init ![(-2, 0), (-2, 0), ((fin 0, fin 7) : Fl F × Fl F)] = some (Bounds.ofReal ![-2, -2, 0] ![0, 0, 7] ⟨1235123#64, 234121#64⟩) := by
    unfold Bounds.init
    rw [if_pos]
    · unfold Bounds.ofReal
      congr 2
      funext i
      fin_cases i <;> simp
    · right
      rw [List.all_eq_true]
      intro i _
      fin_cases i <;> simp
  obtain ⟨s0, h0, x0, b0⟩ := Enneper.jump_newton (F := F) ![-2, -2, 0] ![0, 0, 7] (fun i => ((![-2, -2, 0] : Fin 3 → ℝ) i + ![0, 0, 7] i) / 2)
    ⟨1235123#64, 234121#64⟩ (hin _ _ (by norm_num) le_rfl)
  obtain ⟨s1, h1, x1, b1⟩ := Enneper.jump_newton (F := F) ![0, 0, 0] ![2, 2, 7] (fun i => ((![0, 0, 0] : Fin 3 → ℝ) i + ![2, 2, 7] i) / 2)
    ⟨1235123#64, 234121#64⟩ (hin _ _ le_rfl (by norm_num))
  obtain ⟨s2, h2, x2, b2⟩ := Enneper.jump_newton (F := F) ![-1, -1, 0] ![1, 1, 7] (fun i => ((![-1, -1, 0] : Fin 3 → ℝ) i + ![1, 1, 7] i) / 2)
    ⟨1235123#64, 234121#64⟩ (hin _ _ (by norm_num) (by norm_num))
  obtain ⟨l, hl, hall⟩ := Enneper.jump_starts (F := F) 9 ![-2, -2, 0] ![2, 2, 7] (by intro i; fin_cases i <;> norm_num)
    (hin _ _ (by norm_num) (by norm_num)) ⟨1235123#64, 234121#64⟩
  unfold Enneper.computeUVT
  have c0 : Enneper.setUV (Bounds.ofReal (F := F) ![-2, -2, 0] ![0, 0, 7] ⟨1235123#64, 234121#64⟩) (0, 2) (0, 2) =
      Bounds.ofReal ![0, 0, 0] ![2, 2, 7] ⟨1235123#64, 234121#64⟩ := by rw [n2, ofNat_zero, setuv]; rfl
  have c1 : Enneper.setUV (Bounds.ofReal (F := F) ![0, 0, 0] ![2, 2, 7] ⟨1235123#64, 234121#64⟩) (-1, 1) (-1, 1) =
      Bounds.ofReal ![-1, -1, 0] ![1, 1, 7] ⟨1235123#64, 234121#64⟩ := by rw [ofNat_one, Fl.neg_fin, setuv]; rfl
  have c2 : Enneper.setUV (Bounds.ofReal (F := F) ![-1, -1, 0] ![1, 1, 7] ⟨1235123#64, 234121#64⟩) (-2, 2) (-2, 2) =
      Bounds.ofReal ![-2, -2, 0] ![2, 2, 7] ⟨1235123#64, 234121#64⟩ := by rw [n2, Fl.neg_fin, setuv]; rfl
  simp only [hinit, Option.bind_eq_bind, Option.bind_some, cen, h0, b0, c0, h1, b1, c1, h2, b2, c2, hl, Option.pure_def]
  congr 1
  have hm := Enneper.pick_mem s0.x (s0.x :: s1.x :: s2.x :: l)
  simp only [List.mem_cons] at hm
  rcases hm with e | e | e | e | e
  · rw [e, x0]
  · rw [e, x0]
  · rw [e, x1]
  · rw [e, x2]
  · exact hall _ e

/-- A case of `C72_range`, `C72_distance` and `C105_enneper_hit`: the ray down from `(0, 0, 3)` and a solver that finds the origin. -/
theorem Enneper.jump_hit [F.Exact] (rec : HitRecord (Fl F)) :
    ∃ rec', Enneper.hitWith Enneper.jump ⟨fin 4⟩ ⟨cv ![0, 0, 3], cv ![0, 0, -1]⟩ (fin 0) (Scalar.inf : Fl F) rec = some (true, rec') ∧
      rec'.p = cv 0 := by
  have htiny : F.tiny < 1 := Fmt.Exact.tiny_lt
  have hroots : quadraticRoots (fin (1 : ℝ)) (fin (-6)) (fin (-7) : Fl F) = [fin (-1), fin 7] := by
    rcases quadraticRoots_spec (F := F) 1 (-6) (-7) (Or.inr (by norm_num; exact htiny)) (Or.inr (Or.inr (by norm_num; linarith))) (by norm_num) with
      ⟨-, h⟩ | ⟨x, y, hxy, h, -, hz⟩
    · exact absurd (by norm_num) (h 7)
    · have h1 := (hz (-1)).mp (by norm_num)
      have h7 := (hz 7).mp (by norm_num)
      have hx := (hz x).mpr (Or.inl rfl)
      rw [h]
      rcases h1 with h1 | h1 <;> rcases h7 with h7 | h7
      · linarith
      · rw [← h1, ← h7]
      · linarith
      · linarith
  have ha : (squaredNorm (cv ![0, 0, -1] : Vec (Fl F) 3)) = fin 1 := by rw [cv_squaredNorm]; simp [dotProduct, Fin.sum_univ_three]
  have hb : (2 * dot (cv ![0, 0, 3]) (cv ![0, 0, -1] : Vec (Fl F) 3)) = fin (-6) := by
    rw [cv_dot, ofNat_def, mul_fin]; simp [dotProduct, Fin.sum_univ_three]; norm_num
  have hc : (squaredNorm (cv ![0, 0, 3] : Vec (Fl F) 3) - fin 4 * fin 4) = fin (-7) := by
    rw [cv_squaredNorm, mul_fin, sub_fin]; simp [dotProduct, Fin.sum_univ_three]; norm_num
  have hmax : Scalar.max (fin 0) (fin (-1) : Fl F) = fin 0 := by rw [max_fin]; norm_num
  have hmin : Scalar.min Scalar.inf (fin 7 : Fl F) = fin 7 := rfl
  unfold Enneper.hitWith
  dsimp only
  rw [ha, hb, hc, hroots]
  dsimp only
  rw [if_neg (by simp), if_neg (by intro h; cases h), hmax, hmin, Enneper.jump_uvt]
  have hp : (Enneper.place ⟨cv ![0, 0, 3], cv ![0, 0, -1]⟩ (cv ![0, 0, 3]) rec).p = (cv 0 : Vec (Fl F) 3) := by
    show Ray.at ⟨cv ![0, 0, 3], cv ![0, 0, -1]⟩ (fin 3) = _
    rw [ray_at_cv]
    congr 1
    funext i
    fin_cases i <;> simp
  have hf : Enneper.finish ⟨cv ![0, 0, 3], cv ![0, 0, -1]⟩ (fin 0) (fin 7) (cv ![0, 0, 3]) rec =
      (true, Enneper.forms ⟨cv ![0, 0, 3], cv ![0, 0, -1]⟩ (Enneper.place ⟨cv ![0, 0, 3], cv ![0, 0, -1]⟩ (cv ![0, 0, 3] : Vec (Fl F) 3) rec)) := by
    have e1 : lt (fin 3) (fin 0 : Fl F) = false := by simp
    have e2 : gt (fin 3) (fin 7 : Fl F) = false := by simp [gt]; norm_num
    have e3 : gt (Vec.norm (cv 0 - Enneper.eval (fin 0) (fin 0)) : Fl F) (lit (1 / 100000)) = false := by
      rw [Enneper.eval_fin, cv_sub, cv_norm, lit_def]
      simp [gt, enneperPt, dotProduct, Fin.sum_univ_three]
    unfold Enneper.finish
    dsimp only
    rw [hp]
    simp only [cv_apply, cons_val_zero, cons_val_one, cons_val, isNaN_fin, e1, e2, e3, Bool.or_self, Bool.false_eq_true, if_false]
  refine ⟨_, by rw [Option.map_some, hf], ?_⟩
  rw [← hp]
  unfold Enneper.forms HitRecord.setFaceNormal
  dsimp only
/-- `C72_distance` for this ray. -/
example (rec : HitRecord (Fl exact64)) :
    ∃ rec' : HitRecord (Fl exact64), rec'.p = cv 0 ∧ ∃ t u v : ℝ, rec'.t = fin t ∧ rec'.u = fin u ∧ rec'.v = fin v ∧ InRange (F := exact64) (fin 0, Scalar.inf) t ∧
      rec'.p = cv (![0, 0, 3] + t • ![0, 0, -1]) ∧
      Real.sqrt ((![0, 0, 3] + t • ![0, 0, -1] - enneperPt u v) ⬝ᵥ (![0, 0, 3] + t • ![0, 0, -1] - enneperPt u v)) ≤ 1 / 100000 := by
  obtain ⟨rec', h, hp⟩ := Enneper.jump_hit (F := exact64) rec
  refine ⟨rec', hp, C72_distance (F := exact64) Enneper.jump 4 ![0, 0, 3] ![0, 0, -1] ?_ (fin 0) Scalar.inf rec rec' rfl rfl h⟩
  simp [dotProduct, Fin.sum_univ_three]
  exact Fmt.Exact.tiny_lt

/-- C93 for enneper (every arithmetic): a miss leaves the record as it was, except when the residual test rejects the
solver's answer. Missing: in that case `t`, `p`, `u` and `v` have already been overwritten. -/
theorem C93_enneper_partial {R : Type} [Scalar R] (solve : Mat R 3 3 → Vec R 3 → Option (Vec R 3)) (s : Enneper R) (r : Ray R) (tmin tmax : R) (rec rec' : HitRecord R)
    (h : Enneper.hitWith solve s r tmin tmax rec = some (false, rec')) :
    rec' = rec ∨ ∃ w : Vec R 3, gt (Vec.norm (r.at (w 2) - Enneper.eval (w 0) (w 1))) (lit (1 / 100000)) = true ∧
      rec' = { rec with t := w 2, p := r.at (w 2), u := w 0, v := w 1 } := by
  unfold Enneper.hitWith at h
  dsimp only at h
  split at h
  · split_ifs at h
    · left; simp at h; exact h.symm
    · left; simp at h; exact h.symm
    · obtain ⟨w, -, hf⟩ := Option.map_eq_some_iff.mp h
      unfold Enneper.finish at hf
      dsimp only at hf
      split_ifs at hf with h1 h2 h3
      · left; exact (congrArg Prod.snd hf).symm
      · left; exact (congrArg Prod.snd hf).symm
      · right
        exact ⟨w, h3, (congrArg Prod.snd hf).symm⟩
      · exact absurd (congrArg Prod.fst hf).symm Bool.false_ne_true
  · left; simp at h; exact h.symm

/-- The case `C93_enneper_partial` leaves out: for the answer `(0, 0, 2)` on the same ray the end of `hit` reports a miss
and has changed the record. -/
example (rec : HitRecord (Fl exact64)) :
    Enneper.finish (R := Fl exact64) ⟨cv ![2 / 3, 0, 3], cv ![0, 0, -1]⟩ 0 Scalar.inf (cv ![0, 0, 2]) rec =
      (false, { rec with t := fin 2, p := cv ![2 / 3, 0, 1], u := fin 0, v := fin 0 }) := by
  rw [Enneper.finish_fin _ _ _ _ (by simp), if_pos]
  · unfold Enneper.place
    rw [cv_apply]
    simp only [cons_val, cv_apply]
    rw [ray_at_cv]
    have : (![2 / 3, 0, 3] + (2 : ℝ) • ![0, 0, -1] : Fin 3 → ℝ) = ![2 / 3, 0, 1] := by
      ext i; fin_cases i <;> norm_num
    rw [this]
  · have : (![2 / 3, 0, 3] + (![0, 0, 2] : Fin 3 → ℝ) 2 • ![0, 0, -1] - enneperPt ((![0, 0, 2] : Fin 3 → ℝ) 0)
        ((![0, 0, 2] : Fin 3 → ℝ) 1)) = ![2 / 3, 0, 1] := by
      ext i; fin_cases i <;> simp [enneperPt] <;> norm_num
    rw [this]
    refine Real.lt_sqrt_of_sq_lt ?_
    simp [dotProduct, Fin.sum_univ_three]; norm_num

end DRT
