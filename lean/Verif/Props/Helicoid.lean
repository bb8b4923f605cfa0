import Verif.Model.Helicoid
import Verif.Lemmas.Surface
import Verif.Lemmas.Angle
import Verif.Props.Enneper

/-! # C67-C69: the helicoid -/

namespace DRT
open Scalar Fl Matrix

variable {F : Fmt}

/-- The helicoid with real radius and speed. -/
def Helicoid.ofReal (ρ l : ℝ) : Helicoid (Fl F) := ⟨fin ρ, fin l⟩

/-- The documented parametrization (helicoid.hpp:22). -/
noncomputable def helPt (ρ l u v : ℝ) : Fin 3 → ℝ :=
  ![ρ * v * Real.cos (2 * Real.pi * u), ρ * v * Real.sin (2 * Real.pi * u), l * (u - 1 / 2)]

/-- Its partial derivative in `u`. -/
noncomputable def helU (ρ l u v : ℝ) : Fin 3 → ℝ :=
  ![-2 * Real.pi * (ρ * v * Real.sin (2 * Real.pi * u)), 2 * Real.pi * (ρ * v * Real.cos (2 * Real.pi * u)), l]

/-- Its partial derivative in `v`. -/
noncomputable def helV (ρ u : ℝ) : Fin 3 → ℝ :=
  ![ρ * Real.cos (2 * Real.pi * u), ρ * Real.sin (2 * Real.pi * u), 0]

/-- Its second partial derivative in `u`. -/
noncomputable def helUU (ρ u v : ℝ) : Fin 3 → ℝ :=
  ![-4 * Real.pi ^ 2 * (ρ * v * Real.cos (2 * Real.pi * u)), -4 * Real.pi ^ 2 * (ρ * v * Real.sin (2 * Real.pi * u)), 0]

/-- Its mixed partial derivative. -/
noncomputable def helUV (ρ u : ℝ) : Fin 3 → ℝ :=
  ![-2 * Real.pi * (ρ * Real.sin (2 * Real.pi * u)), 2 * Real.pi * (ρ * Real.cos (2 * Real.pi * u)), 0]

theorem hel_deriv (ρ l u v : ℝ) (i : Fin 3) :
    HasDerivAt (fun x => helPt ρ l x v i) (helU ρ l u v i) u ∧ HasDerivAt (fun y => helPt ρ l u y i) (helV ρ u i) v := by
  have hc := hasDerivAt_cos_mul (2 * Real.pi) u
  have hs := hasDerivAt_sin_mul (2 * Real.pi) u
  have lin : ∀ k : ℝ, HasDerivAt (fun y => ρ * y * k) (ρ * k) v := fun k =>
    (((hasDerivAt_id v).const_mul ρ).mul_const k).congr_deriv (by simp)
  match i with
  | 0 => exact ⟨(hc.const_mul (ρ * v)).congr_deriv (by simp [helU]; ring), lin _⟩
  | 1 => exact ⟨(hs.const_mul (ρ * v)).congr_deriv (by simp [helU]; ring), lin _⟩
  | 2 => exact ⟨(((hasDerivAt_id u).sub_const (1 / 2)).const_mul l).congr_deriv (by simp [helU]), hasDerivAt_const _ _⟩

theorem hel_deriv2 (ρ l u v : ℝ) (i : Fin 3) :
    HasDerivAt (fun x => helU ρ l x v i) (helUU ρ u v i) u ∧ HasDerivAt (fun y => helU ρ l u y i) (helUV ρ u i) v ∧
      HasDerivAt (fun x => helV ρ x i) (helUV ρ u i) u ∧ HasDerivAt (fun _ => helV ρ u i) 0 v := by
  have hc := hasDerivAt_cos_mul (2 * Real.pi) u
  have hs := hasDerivAt_sin_mul (2 * Real.pi) u
  have lin : ∀ c k : ℝ, HasDerivAt (fun y => c * (ρ * y * k)) (c * (ρ * k)) v := fun c k =>
    ((((hasDerivAt_id v).const_mul ρ).mul_const k).const_mul c).congr_deriv (by simp)
  match i with
  | 0 =>
    exact ⟨((hs.const_mul (ρ * v)).const_mul (-2 * Real.pi)).congr_deriv (by simp [helUU]; ring), lin _ _,
      (hc.const_mul ρ).congr_deriv (by simp [helUV]; ring), hasDerivAt_const _ _⟩
  | 1 =>
    exact ⟨((hc.const_mul (ρ * v)).const_mul (2 * Real.pi)).congr_deriv (by simp [helUU]; ring), lin _ _,
      (hs.const_mul ρ).congr_deriv (by simp [helUV]; ring), hasDerivAt_const _ _⟩
  | 2 => exact ⟨hasDerivAt_const _ _, hasDerivAt_const _ _, hasDerivAt_const _ _, hasDerivAt_const _ _⟩

theorem Helicoid.eval_fin [F.Exact] (ρ l u v : ℝ) :
    (Helicoid.ofReal ρ l : Helicoid (Fl F)).eval (fin u) (fin v) = cv (helPt ρ l u v) := by
  unfold Helicoid.eval Helicoid.ofReal
  simp only [fl, Nat.cast_ofNat, cv_vec3, cv_inj]
  unfold helPt
  norm_num

theorem Helicoid.jac_fin [F.Exact] (ρ l u v : ℝ) (i : Fin 3) :
    (Helicoid.ofReal ρ l : Helicoid (Fl F)).jac (fin u) (fin v) i 0 = fin (helU ρ l u v i) ∧
    (Helicoid.ofReal ρ l : Helicoid (Fl F)).jac (fin u) (fin v) i 1 = fin (helV ρ u i) := by
  unfold Helicoid.jac
  rw [Helicoid.eval_fin]
  constructor <;> fin_cases i <;> simp [fl, Helicoid.ofReal, helPt, helU, helV]

/-- C67: the matrix holds the first partial derivatives of `operator()`, for all radii, speeds and parameters. -/
theorem C67_first [F.Exact] (ρ l : ℝ) :
    FirstDerivatives (F := F) (Helicoid.ofReal ρ l).eval (Helicoid.ofReal ρ l).jac :=
  ⟨helPt ρ l, helU ρ l, fun u _ => helV ρ u, Helicoid.eval_fin ρ l, Helicoid.jac_fin ρ l, hel_deriv ρ l⟩

example : ∃ s : ℝ → ℝ → Fin 3 → ℝ, (Helicoid.ofReal 2 1 : Helicoid (Fl exact64)).eval (fin (1 / 4)) (fin (1 / 2)) =
    cv (s (1 / 4) (1 / 2)) ∧ s (1 / 4) (1 / 2) 1 = 1 :=
  ⟨helPt 2 1, Helicoid.eval_fin 2 1 _ _, by
    have : (2 * Real.pi * (1 / 4) : ℝ) = Real.pi / 2 := by ring
    simp only [helPt, cons_val_one, cons_val_zero, this]; simp⟩

/-- The values the code writes into `H`. -/
noncomputable def helH (ρ u v : ℝ) (i : Fin 3) (j k : Fin 2) : ℝ :=
  ![![helUU ρ u v i, helUV 1 u i], ![helUV 1 u i, 0]] j k

theorem Helicoid.hess_fin [F.Exact] (ρ l : ℝ) (T : Tensor (Fl F) 3 2 2) (u v : ℝ) (i : Fin 3) (j k : Fin 2) :
    (((Helicoid.ofReal ρ l : Helicoid (Fl F)).hess T (fin u) (fin v)).get i j k).getD Fl.nan = fin (helH ρ u v i j k) := by
  have hl : T.cells.length = 12 := T.len
  unfold Helicoid.hess
  rw [Helicoid.eval_fin]
  fin_cases i <;> fin_cases j <;> fin_cases k <;>
    simp [Tensor.get, Tensor.set, List.getElem?_set, hl, helH, helUU, helUV, helPt, fl] <;> exact Or.inl (by ring)

/-- C67 for radius 1: the tensor holds the second partial derivatives. Missing: every other radius, see
`C67_second_false`. -/
theorem C67_second_partial [F.Exact] (l : ℝ) (T : Tensor (Fl F) 3 2 2) :
    SecondDerivatives (F := F) (Helicoid.ofReal 1 l).eval (Helicoid.ofReal 1 l).jac
      (fun u v i j k => (((Helicoid.ofReal 1 l).hess T u v).get i j k).getD Fl.nan) := by
  refine ⟨helPt 1 l, helU 1 l, fun u _ => helV 1 u, Helicoid.eval_fin 1 l, Helicoid.jac_fin 1 l, hel_deriv 1 l,
    helH 1, fun u v i j k => Helicoid.hess_fin 1 l T u v i j k, fun u v i => ?_⟩
  obtain ⟨h1, h2, h3, h4⟩ := hel_deriv2 1 l u v i
  exact ⟨h1, h2, h3, h4, rfl⟩

/-- C67, refuted: for every radius but 1 the mixed entries of the tensor are not the mixed second derivatives (they lack
the factor `radius_`). -/
theorem C67_second_false [F.Exact] (ρ l : ℝ) (hρ : ρ ≠ 1) (T : Tensor (Fl F) 3 2 2) :
    ¬ SecondDerivatives (F := F) (Helicoid.ofReal ρ l).eval (Helicoid.ofReal ρ l).jac
      (fun u v i j k => (((Helicoid.ofReal ρ l).hess T u v).get i j k).getD Fl.nan) := by
  rintro ⟨s, su, sv, -, hJ, -, h, hH, hd⟩
  have e : (fun y => su 0 y 1) = fun y => helU ρ l 0 y 1 := by
    funext y
    have := (hJ 0 y 1).1
    rw [(Helicoid.jac_fin ρ l 0 y 1).1, fin_inj] at this
    exact this.symm
  have h1 := (hd 0 0 1).2.1
  rw [e] at h1
  have h2 := h1.unique (hel_deriv2 ρ l 0 0 1).2.1
  have h3 := hH 0 0 1 0 1
  rw [h2] at h3
  have h4 := Helicoid.hess_fin (F := F) ρ l T 0 0 1 0 1
  replace h3 := h4.symm.trans h3
  rw [fin_inj] at h3
  have hp := Real.pi_pos
  simp [helH, helUV] at h3
  exact hρ h3

/-! ## C68 -/

/-- The unit normal along `σ_u × σ_v` at positive radius and speed. -/
noncomputable def helN (ρ l u v : ℝ) : Fin 3 → ℝ :=
  (Real.sqrt (l ^ 2 + (2 * Real.pi * ρ * v) ^ 2))⁻¹ •
    ![-l * Real.sin (2 * Real.pi * u), l * Real.cos (2 * Real.pi * u), -(2 * Real.pi * ρ * v)]

theorem hel_cross (ρ l u v : ℝ) : (helU ρ l u v) ⨯₃ (helV ρ u) =
    ρ • ![-l * Real.sin (2 * Real.pi * u), l * Real.cos (2 * Real.pi * u), -(2 * Real.pi * ρ * v)] := by
  have t := Real.sin_sq_add_cos_sq (2 * Real.pi * u)
  rw [cross_apply]
  unfold helU helV
  generalize Real.sin (2 * Real.pi * u) = s at *
  generalize Real.cos (2 * Real.pi * u) = c at *
  ext i
  fin_cases i
  · simp; ring
  · simp; ring
  · simp; linear_combination (-2 * Real.pi * ρ ^ 2 * v) * t

theorem helN_unit (ρ l u v : ℝ) (hl : 0 < l) : helN ρ l u v ⬝ᵥ helN ρ l u v = 1 := by
  have hw : 0 < l ^ 2 + (2 * Real.pi * ρ * v) ^ 2 := by positivity
  have t := Real.sin_sq_add_cos_sq (2 * Real.pi * u)
  unfold helN
  rw [smul_dotProduct, dotProduct_smul, smul_eq_mul, smul_eq_mul, ← mul_assoc, ← mul_inv, Real.mul_self_sqrt hw.le,
    inv_mul_eq_one₀ hw.ne']
  simp [dotProduct, Fin.sum_univ_three]
  linear_combination -l ^ 2 * t

/-- What the end of `hit` writes, at positive radius and speed. -/
theorem Helicoid.forms_fin [F.Exact] (ρ l : ℝ) (hρ : 0 < ρ) (hl : 0 < l) (r : Ray (Fl F)) (rec : HitRecord (Fl F)) (u v : ℝ)
    (hu : rec.u = fin u) (hv : rec.v = fin v) :
    let rec' := (Helicoid.ofReal ρ l).forms r rec
    let W := l ^ 2 + (2 * Real.pi * ρ * v) ^ 2
    rec'.E = fin W ∧ rec'.F = fin 0 ∧ rec'.G = fin (4 * Real.pi ^ 2 * ρ ^ 2) ∧
    rec'.e = fin 0 ∧ rec'.f = fin (2 * Real.pi * ρ * l / Real.sqrt W) ∧ rec'.g = fin 0 ∧
    rec'.gradMag = fin (ρ * Real.sqrt W) ∧
    (rec'.normal = cv (helN ρ l u v) ∨ rec'.normal = cv (-helN ρ l u v)) ∧
    rec'.t = rec.t ∧ rec'.p = r.at rec.t ∧ rec'.u = rec.u ∧ rec'.v = rec.v := by
  have hw : 0 < l ^ 2 + (2 * Real.pi * ρ * v) ^ 2 := by positivity
  have t := Real.sin_sq_add_cos_sq (2 * Real.pi * u)
  have hq : 0 < Real.sqrt (l ^ 2 + (2 * Real.pi * ρ * v) ^ 2) := Real.sqrt_pos.mpr hw
  have e1 : (![-2 * pi * fin ρ * fin v * sin (2 * pi * fin u), 2 * pi * fin ρ * fin v * cos (2 * pi * fin u), fin l] :
      Vec (Fl F) 3) = cv (helU ρ l u v) := by
    simp only [fl, Nat.cast_ofNat, cv_vec3, cv_inj, helU]
    congr 1
    · ring
    · congr 1; ring
  have e2 : (![fin ρ * cos (2 * pi * fin u), fin ρ * sin (2 * pi * fin u), 0] : Vec (Fl F) 3) = cv (helV ρ u) := by
    simp only [fl, Nat.cast_ofNat, Nat.cast_zero, cv_vec3, cv_inj, helV]
  have e4 : (![-2 * pi * fin ρ * sin (2 * pi * fin u), 2 * pi * fin ρ * cos (2 * pi * fin u), 0] : Vec (Fl F) 3) =
      cv (helUV ρ u) := by
    simp only [fl, Nat.cast_ofNat, Nat.cast_zero, cv_vec3, cv_inj, helUV]
    congr 1
    · ring
    · congr 1; ring
  have ec : (helU ρ l u v) ⨯₃ (helV ρ u) = (ρ * Real.sqrt (l ^ 2 + (2 * Real.pi * ρ * v) ^ 2)) • helN ρ l u v := by
    rw [hel_cross, helN, smul_smul, mul_assoc ρ, mul_inv_cancel₀ hq.ne', mul_one]
  have hk : 0 < ρ * Real.sqrt (l ^ 2 + (2 * Real.pi * ρ * v) ^ 2) := mul_pos hρ hq
  have e3 : Vec.norm (cv ((ρ * Real.sqrt (l ^ 2 + (2 * Real.pi * ρ * v) ^ 2)) • helN ρ l u v) : Vec (Fl F) 3) =
      fin (ρ * Real.sqrt (l ^ 2 + (2 * Real.pi * ρ * v) ^ 2)) := by
    rw [cv_norm, smul_dotProduct, dotProduct_smul, helN_unit ρ l u v hl, fin_inj, smul_eq_mul, smul_eq_mul, mul_one,
      Real.sqrt_mul_self hk.le]
  unfold Helicoid.forms Helicoid.ofReal
  dsimp only
  rw [hu, hv, e1, e2, e4, cv_cross, ec, e3, cv_sdiv hk.ne', smul_smul, inv_mul_cancel₀ hk.ne', one_smul]
  refine ⟨?_, ofNat_zero, ?_, ofNat_zero, ?_, ofNat_zero, rfl, ?_, rfl, rfl, hu.symm ▸ rfl, hv.symm ▸ rfl⟩
  · simp only [HitRecord.setFaceNormal]
    rw [cv_dot, fin_inj]
    simp [dotProduct, Fin.sum_univ_three, helU]
    linear_combination (4 * Real.pi ^ 2 * ρ ^ 2 * v ^ 2) * t
  · simp only [HitRecord.setFaceNormal]
    simp only [fl, Nat.cast_ofNat, fin_inj]; ring
  · simp only [HitRecord.setFaceNormal]
    rw [cv_dot, fin_inj]
    simp only [dotProduct, Fin.sum_univ_three, helUV, helN, Pi.smul_apply, smul_eq_mul]
    generalize Real.sqrt (l ^ 2 + (2 * Real.pi * ρ * v) ^ 2) = q at *
    generalize Real.sin (2 * Real.pi * u) = s at *
    generalize Real.cos (2 * Real.pi * u) = c at *
    simp
    field_simp
    linear_combination t
  · generalize rec.gradMag = gm
    unfold HitRecord.setFaceNormal
    dsimp only
    split_ifs
    · exact Or.inl rfl
    · exact Or.inr (cv_neg _)

theorem hel_dots (ρ l : ℝ) (hl : 0 < l) (u v : ℝ) :
    helU ρ l u v ⬝ᵥ helU ρ l u v = l ^ 2 + (2 * Real.pi * ρ * v) ^ 2 ∧ helU ρ l u v ⬝ᵥ helV ρ u = 0 ∧
    helV ρ u ⬝ᵥ helV ρ u = ρ ^ 2 ∧ helUU ρ u v ⬝ᵥ helN ρ l u v = 0 ∧
    helUV ρ u ⬝ᵥ helN ρ l u v = 2 * Real.pi * ρ * l / Real.sqrt (l ^ 2 + (2 * Real.pi * ρ * v) ^ 2) ∧
    helU ρ l u v ⬝ᵥ helN ρ l u v = 0 ∧ helV ρ u ⬝ᵥ helN ρ l u v = 0 := by
  have hw : 0 < l ^ 2 + (2 * Real.pi * ρ * v) ^ 2 := by positivity
  have t := Real.sin_sq_add_cos_sq (2 * Real.pi * u)
  have hq : 0 < Real.sqrt (l ^ 2 + (2 * Real.pi * ρ * v) ^ 2) := Real.sqrt_pos.mpr hw
  simp only [dotProduct, Fin.sum_univ_three, helU, helV, helUU, helUV, helN, Pi.smul_apply, smul_eq_mul]
  generalize Real.sqrt (l ^ 2 + (2 * Real.pi * ρ * v) ^ 2) = q at *
  generalize Real.sin (2 * Real.pi * u) = s at *
  generalize Real.cos (2 * Real.pi * u) = c at *
  simp only [cons_val_zero, cons_val_one, cons_val]
  refine ⟨?_, ?_, ?_, ?_, ?_, ?_, ?_⟩
  · linear_combination (4 * Real.pi ^ 2 * ρ ^ 2 * v ^ 2) * t
  · ring
  · linear_combination ρ ^ 2 * t
  · ring
  · field_simp
    linear_combination (ρ * l) * t
  · field_simp
    linear_combination (2 * Real.pi * ρ * v * l) * t
  · ring

/-- The true curvature of the helicoid. -/
theorem hel_curvature (ρ l : ℝ) (hρ : 0 < ρ) (hl : 0 < l) (u v : ℝ) :
    GaussianCurvatureAt (helPt ρ l) u v (-(2 * Real.pi * l) ^ 2 / (l ^ 2 + (2 * Real.pi * ρ * v) ^ 2) ^ 2) := by
  have hw : 0 < l ^ 2 + (2 * Real.pi * ρ * v) ^ 2 := by positivity
  obtain ⟨h1, h2, h3, h4, h5, h6, h7⟩ := hel_dots ρ l hl u v
  refine ⟨helU ρ l, fun u _ => helV ρ u, hel_deriv ρ l, helUU ρ u v, helUV ρ u, 0, helN ρ l u v, fun i => ?_,
    helN_unit ρ l u v hl, h6, h7, ?_, ?_⟩
  · obtain ⟨h1, h2, h3, h4⟩ := hel_deriv2 ρ l u v i
    exact ⟨h1, h2, h4⟩
  · rw [h1, h2, h3]
    have : 0 < (l ^ 2 + (2 * Real.pi * ρ * v) ^ 2) * ρ ^ 2 := by positivity
    simpa using this.ne'
  · rw [h1, h2, h3, h4, h5, div_pow, Real.sq_sqrt hw.le]
    field_simp
    ring

/-- C68: the mean curvature of the recorded forms is 0, for all positive radii and speeds and all parameters. -/
theorem C68_mean [F.Exact] (ρ l : ℝ) (hρ : 0 < ρ) (hl : 0 < l) (r : Ray (Fl F)) (rec : HitRecord (Fl F)) (u v : ℝ)
    (hu : rec.u = fin u) (hv : rec.v = fin v) : ((Helicoid.ofReal ρ l).forms r rec).meanCurvature = fin 0 := by
  have hw : 0 < l ^ 2 + (2 * Real.pi * ρ * v) ^ 2 := by positivity
  have hp := Real.pi_pos
  obtain ⟨h1, h2, h3, h4, h5, h6, -⟩ := Helicoid.forms_fin ρ l hρ hl r rec u v hu hv
  unfold HitRecord.meanCurvature
  rw [h1, h2, h3, h4, h5, h6]
  simp only [fl, Nat.cast_ofNat]
  rw [div_fin _ (by rw [mul_zero, sub_zero]; positivity), fin_inj, div_eq_zero_iff]
  left; ring

example (r : Ray (Fl exact64)) (rec : HitRecord (Fl exact64)) :
    ((Helicoid.ofReal 1 3).forms r { rec with u := fin (1 / 4), v := fin (1 / 2) }).meanCurvature = fin 0 :=
  C68_mean 1 3 (by norm_num) (by norm_num) r _ (1 / 4) (1 / 2) rfl rfl

/-- The gaussian curvature of the recorded forms. -/
theorem Helicoid.gaussian_fin [F.Exact] (ρ l : ℝ) (hρ : 0 < ρ) (hl : 0 < l) (r : Ray (Fl F)) (rec : HitRecord (Fl F)) (u v : ℝ)
    (hu : rec.u = fin u) (hv : rec.v = fin v) :
    ((Helicoid.ofReal ρ l).forms r rec).gaussianCurvature = fin (-l ^ 2 / (l ^ 2 + (2 * Real.pi * ρ * v) ^ 2) ^ 2) := by
  have hw : 0 < l ^ 2 + (2 * Real.pi * ρ * v) ^ 2 := by positivity
  have hp := Real.pi_pos
  obtain ⟨h1, h2, h3, h4, h5, h6, -⟩ := Helicoid.forms_fin ρ l hρ hl r rec u v hu hv
  unfold HitRecord.gaussianCurvature
  rw [h1, h2, h3, h4, h5, h6]
  simp only [fl]
  rw [div_fin _ (by rw [mul_zero, sub_zero]; positivity), fin_inj, div_mul_div_comm, Real.mul_self_sqrt hw.le]
  field_simp
  ring

theorem normal_products {a b n x y : Fin 3 → ℝ} (hn : n ⬝ᵥ n = 1) (ha : a ⬝ᵥ n = 0) (hb : b ⬝ᵥ n = 0) :
    (x ⬝ᵥ n) * (y ⬝ᵥ n) * ((a ⨯₃ b) ⬝ᵥ (a ⨯₃ b)) = (x ⬝ᵥ (a ⨯₃ b)) * (y ⬝ᵥ (a ⨯₃ b)) := by
  have key : ∀ i j, (a ⨯₃ b) i * n j = (a ⨯₃ b) j * n i := by
    intro i j
    simp only [dotProduct, Fin.sum_univ_three] at ha hb
    rw [cross_apply]
    fin_cases i <;> fin_cases j <;> simp <;> first | ring | skip
    · linear_combination b 2 * ha - a 2 * hb
    · linear_combination a 1 * hb - b 1 * ha
    · linear_combination a 2 * hb - b 2 * ha
    · linear_combination b 0 * ha - a 0 * hb
    · linear_combination b 1 * ha - a 1 * hb
    · linear_combination a 0 * hb - b 0 * ha
  generalize a ⨯₃ b = c at key ⊢
  simp only [dotProduct, Fin.sum_univ_three] at hn ⊢
  have mi : ∀ i, n i * (n 0 * c 0 + n 1 * c 1 + n 2 * c 2) = c i := by
    intro i
    linear_combination (c i) * hn + n 0 * key 0 i + n 1 * key 1 i + n 2 * key 2 i
  obtain ⟨m, hm⟩ : ∃ m, m = n 0 * c 0 + n 1 * c 1 + n 2 * c 2 := ⟨_, rfl⟩
  simp only [← hm] at mi
  rw [← mi 0, ← mi 1, ← mi 2]
  linear_combination (x 0 * n 0 + x 1 * n 1 + x 2 * n 2) * (y 0 * n 0 + y 1 * n 1 + y 2 * n 2) * m ^ 2 * hn

/-- A regular parametrization has one gaussian curvature at a point. -/
theorem GaussianCurvatureAt.unique {s : ℝ → ℝ → Fin 3 → ℝ} {u v K K' : ℝ} (h : GaussianCurvatureAt s u v K)
    (h' : GaussianCurvatureAt s u v K') : K = K' := by
  obtain ⟨su, sv, hd, suu, suv, svv, n, h2, hn, hu, hv, hr, hK⟩ := h
  obtain ⟨su', sv', hd', suu', suv', svv', n', h2', hn', hu', hv', hr', hK'⟩ := h'
  obtain rfl : su = su' := by funext a b i; exact (hd a b i).1.unique (hd' a b i).1
  obtain rfl : sv = sv' := by funext a b i; exact (hd a b i).2.unique (hd' a b i).2
  obtain rfl : suu = suu' := by funext i; exact (h2 i).1.unique (h2' i).1
  obtain rfl : suv = suv' := by funext i; exact (h2 i).2.1.unique (h2' i).2.1
  obtain rfl : svv = svv' := by funext i; exact (h2 i).2.2.unique (h2' i).2.2
  have hc : su u v ⨯₃ sv u v ⬝ᵥ su u v ⨯₃ sv u v =
      (su u v ⬝ᵥ su u v) * (sv u v ⬝ᵥ sv u v) - (su u v ⬝ᵥ sv u v) ^ 2 := by
    rw [cross_dot_cross, dotProduct_comm (sv u v) (su u v)]; ring
  rw [← hc] at hr hK hK'
  refine mul_right_cancel₀ hr (mul_right_cancel₀ hr ?_)
  rw [hK, hK', sub_mul, sub_mul, pow_two, pow_two, normal_products hn hu hv, normal_products hn hu hv,
    normal_products hn' hu' hv', normal_products hn' hu' hv']

/-- C68, refuted: at no point is the gaussian curvature of the recorded forms the curvature of the surface. The recorded
`G` is `4π²` times the true one, and the curvature is too small by that factor. -/
theorem C68_curvature_false [F.Exact] (ρ l : ℝ) (hρ : 0 < ρ) (hl : 0 < l) (r : Ray (Fl F)) (rec : HitRecord (Fl F)) (u v : ℝ)
    (hu : rec.u = fin u) (hv : rec.v = fin v) :
    ∃ K : ℝ, ((Helicoid.ofReal ρ l).forms r rec).gaussianCurvature = fin K ∧
      GaussianCurvatureAt (helPt ρ l) u v (4 * Real.pi ^ 2 * K) ∧ ¬ GaussianCurvatureAt (helPt ρ l) u v K := by
  have hw : 0 < l ^ 2 + (2 * Real.pi * ρ * v) ^ 2 := by positivity
  have hp := Real.two_le_pi
  have ht : GaussianCurvatureAt (helPt ρ l) u v (4 * Real.pi ^ 2 * (-l ^ 2 / (l ^ 2 + (2 * Real.pi * ρ * v) ^ 2) ^ 2)) := by
    have := hel_curvature ρ l hρ hl u v
    convert this using 1
    ring
  refine ⟨_, Helicoid.gaussian_fin ρ l hρ hl r rec u v hu hv, ht, fun h => ?_⟩
  have e := h.unique ht
  have hneg : -l ^ 2 / (l ^ 2 + (2 * Real.pi * ρ * v) ^ 2) ^ 2 < 0 :=
    div_neg_of_neg_of_pos (by nlinarith) (by positivity)
  generalize -l ^ 2 / (l ^ 2 + (2 * Real.pi * ρ * v) ^ 2) ^ 2 = x at e hneg
  have h1 : 0 < 4 * Real.pi ^ 2 - 1 := by nlinarith
  nlinarith [mul_neg_of_pos_of_neg h1 hneg]

theorem Helicoid.bounds_fin [F.Exact] (ρ l : ℝ) (hl : 0 < l) :
    (Helicoid.ofReal ρ l : Helicoid (Fl F)).curvatureBounds =
      (fin (-1 / l ^ 2), fin (-l ^ 2 / (l ^ 2 + (2 * Real.pi * ρ) ^ 2) ^ 2)) := by
  unfold Helicoid.curvatureBounds Helicoid.ofReal
  simp only [fl, Nat.cast_ofNat, Nat.cast_one]
  have h1 : 0 < l * l + 4 * Real.pi * Real.pi * ρ * ρ := by nlinarith [sq_nonneg (Real.pi * ρ), mul_pos hl hl]
  rw [div_fin _ (by positivity), div_fin _ (by positivity)]
  refine Prod.ext ?_ ?_
  · simp only [fin_inj]; ring
  · simp only [fin_inj]
    congr 1
    · ring
    · ring

/-- C68: the advertised bounds enclose the recorded curvature for `0 ≤ v ≤ 1`. Missing: the curvature of the surface,
see `C68_bounds_false`. -/
theorem C68_bounds_partial [F.Exact] (ρ l : ℝ) (hρ : 0 < ρ) (hl : 0 < l) (r : Ray (Fl F)) (rec : HitRecord (Fl F)) (u v : ℝ)
    (hu : rec.u = fin u) (hv : rec.v = fin v) (h0 : 0 ≤ v) (h1 : v ≤ 1) :
    ∃ lo hi K : ℝ, (Helicoid.ofReal ρ l : Helicoid (Fl F)).curvatureBounds = (fin lo, fin hi) ∧
      ((Helicoid.ofReal ρ l).forms r rec).gaussianCurvature = fin K ∧ lo ≤ K ∧ K ≤ hi := by
  have hp := Real.pi_pos
  have hw : 0 < l ^ 2 + (2 * Real.pi * ρ * v) ^ 2 := by positivity
  refine ⟨_, _, _, Helicoid.bounds_fin ρ l hl, Helicoid.gaussian_fin ρ l hρ hl r rec u v hu hv, ?_, ?_⟩
  · rw [div_le_div_iff₀ (by positivity) (by positivity)]
    have : l ^ 2 ≤ l ^ 2 + (2 * Real.pi * ρ * v) ^ 2 := by nlinarith [sq_nonneg (2 * Real.pi * ρ * v)]
    nlinarith [mul_self_le_mul_self (by positivity) this]
  · rw [div_le_div_iff₀ (by positivity) (by positivity)]
    have h2 : (2 * Real.pi * ρ * v) ^ 2 ≤ (2 * Real.pi * ρ) ^ 2 := by
      apply pow_le_pow_left₀ (by positivity)
      nlinarith [mul_pos hp hρ]
    have h3 : (l ^ 2 + (2 * Real.pi * ρ * v) ^ 2) ^ 2 ≤ (l ^ 2 + (2 * Real.pi * ρ) ^ 2) ^ 2 :=
      pow_le_pow_left₀ hw.le (by linarith) 2
    nlinarith [mul_le_mul_of_nonneg_left h3 (by positivity : (0 : ℝ) ≤ l ^ 2)]

example (r : Ray (Fl exact64)) (rec : HitRecord (Fl exact64)) : ∃ lo hi K : ℝ,
    (Helicoid.ofReal 1 3 : Helicoid (Fl exact64)).curvatureBounds = (fin lo, fin hi) ∧
    ((Helicoid.ofReal 1 3).forms r { rec with u := fin (1 / 4), v := fin (1 / 2) }).gaussianCurvature = fin K ∧ lo ≤ K ∧ K ≤ hi :=
  C68_bounds_partial 1 3 (by norm_num) (by norm_num) r _ (1 / 4) (1 / 2) rfl rfl (by norm_num) (by norm_num)

/-- C68, refuted: for all positive radii and speeds the curvature of the surface on the axis is below the advertised
lower bound. -/
theorem C68_bounds_false [F.Exact] (ρ l : ℝ) (hρ : 0 < ρ) (hl : 0 < l) (u : ℝ) :
    ∃ lo hi K : ℝ, (Helicoid.ofReal ρ l : Helicoid (Fl F)).curvatureBounds = (fin lo, fin hi) ∧
      GaussianCurvatureAt (helPt ρ l) u 0 K ∧ K < lo := by
  have hp := Real.two_le_pi
  refine ⟨_, _, _, Helicoid.bounds_fin ρ l hl, hel_curvature ρ l hρ hl u 0, ?_⟩
  rw [div_lt_div_iff₀ (by positivity) (by positivity)]
  have : 0 < l ^ 4 := by positivity
  nlinarith [mul_pos this (by nlinarith : (0 : ℝ) < 4 * Real.pi ^ 2 - 1)]

/-- A case of the theorems above: radius 1, speed 1, at `(0, 0)`; the record has curvature -1, the surface `-4π²`. -/
example (r : Ray (Fl exact64)) (rec : HitRecord (Fl exact64)) (hu : rec.u = fin 0) (hv : rec.v = fin 0) :
    ((Helicoid.ofReal 1 1).forms r rec).gaussianCurvature = fin (-1) ∧ GaussianCurvatureAt (helPt 1 1) 0 0 (-4 * Real.pi ^ 2) := by
  constructor
  · rw [Helicoid.gaussian_fin 1 1 one_pos one_pos r rec 0 0 hu hv]; norm_num
  · have := hel_curvature 1 1 one_pos one_pos 0 0
    convert this using 1
    ring

/-! ## C69 -/

/-- C69, the end of `hit` (every arithmetic, every answer `w` of the solver): on a hit the record holds the solver's
parameters, `rec.t` is not NaN, `rec.p = r(rec.t)` and the distance in the maximum norm from `rec.p` to the surface point
at `(rec.u, rec.v)` is not above ten times the expected residual. -/
theorem C69_any_solver {R : Type} [Scalar R] (s : Helicoid R) (r : Ray R) (w : R × R × R) (junk : R) (rec rec' : HitRecord R)
    (h : s.finish r w junk rec = (true, rec')) :
    rec'.t = w.1 ∧ rec'.u = w.2.1 ∧ rec'.v = w.2.2 ∧ isNaN rec'.t = false ∧ rec'.p = r.at rec'.t ∧
      gt (Vec.maxNorm (rec'.p - s.eval rec'.u rec'.v)) (10 * s.expectedRes r rec') = false := by
  unfold Helicoid.finish at h
  dsimp only at h
  split_ifs at h with h1 h2
  · exact absurd (congrArg Prod.fst h) Bool.false_ne_true
  · exact absurd (congrArg Prod.fst h) Bool.false_ne_true
  · simp only [Prod.mk.injEq, true_and] at h
    subst h
    simp only [Bool.not_eq_true] at h1 h2
    exact ⟨rfl, rfl, rfl, h1, rfl, h2⟩

theorem clamp01_fin [F.Exact] (x : ℝ) : ∃ y : ℝ, Scalar.clamp (fin x : Fl F) 0 1 = fin y ∧ 0 ≤ y ∧ y ≤ 1 ∧
    (0 ≤ x → x ≤ 1 → y = x) := by
  unfold Scalar.clamp
  rw [ofNat_zero, ofNat_one, lt_fin, lt_fin]
  by_cases h0 : x < 0
  · exact ⟨0, by simp [h0], le_rfl, zero_le_one, fun h => absurd h (not_le.mpr h0)⟩
  · by_cases h1 : 1 < x
    · exact ⟨1, by simp [h0, h1], zero_le_one, le_rfl, fun _ h => absurd h (not_le.mpr h1)⟩
    · exact ⟨x, by simp [h0, h1], not_lt.mp h0, not_lt.mp h1, fun _ _ => rfl⟩

theorem Helicoid.axisDist_fin [F.Exact] {ρ : ℝ} (l : ℝ) (hρ : 0 < ρ) (o d : Fin 3 → ℝ) (t : ℝ) :
    (Helicoid.ofReal ρ l : Helicoid (Fl F)).axisDist (cv o) (cv d) (fin t) =
      fin (Real.sqrt ((o 0 + t * d 0) ^ 2 + (o 1 + t * d 1) ^ 2) / ρ) := by
  unfold Helicoid.axisDist Helicoid.ofReal
  simp only [fl]
  rw [sqrt_fin (by nlinarith [sq_nonneg (o 0 + t * d 0), sq_nonneg (o 1 + t * d 1)]), div_fin _ hρ.ne', ← pow_two,
    ← pow_two]

/-- The clipped range is real when the ray is not parallel to the axis. -/
theorem Helicoid.clip_fin [F.Exact] {ρ l : ℝ} {o d : Fin 3 → ℝ} (ha : F.tiny < d 0 * d 0 + d 1 * d 1) {tmin tmax : Fl F}
    (h1 : isNaN tmin = false) (h2 : isNaN tmax = false) (h3 : tmax ≠ Fl.ninf) {w : Fl F × Fl F}
    (h : (Helicoid.ofReal ρ l : Helicoid (Fl F)).clip ⟨cv o, cv d⟩ tmin tmax = some w) :
    ∃ p q : ℝ, w = (fin p, fin q) ∧ Scalar.le tmin (fin p) = true ∧ Scalar.le (fin q) tmax = true := by
  unfold Helicoid.clip at h
  dsimp only at h
  have ea : (cv d 0 * cv d 0 + cv d 1 * cv d 1 : Fl F) = fin (d 0 * d 0 + d 1 * d 1) := by simp only [fl]
  have eg : gt (fin (d 0 * d 0 + d 1 * d 1) : Fl F) tiny = true := by rw [tiny_def]; simpa [gt] using ha
  rw [ea, if_pos eg] at h
  have e1 : (2 * (cv o 0 * cv d 0 + cv o 1 * cv d 1) : Fl F) = fin (2 * (o 0 * d 0 + o 1 * d 1)) := by
    simp only [fl, Nat.cast_ofNat]
  have e2 : (cv o 0 * cv o 0 + cv o 1 * cv o 1 - (Helicoid.ofReal ρ l : Helicoid (Fl F)).radius *
      (Helicoid.ofReal ρ l : Helicoid (Fl F)).radius : Fl F) = fin (o 0 * o 0 + o 1 * o 1 - ρ * ρ) := by
    simp only [fl, Helicoid.ofReal]
  rw [e1, e2] at h
  split at h
  · rename_i r0 r1 hr
    obtain ⟨x, y, rfl, rfl⟩ := quadraticRoots_finite _ _ _
      (by rwa [abs_of_nonneg (by nlinarith [sq_nonneg (d 0), sq_nonneg (d 1)])]) _ _ hr
    by_cases q1 : lt (fin y) tmin = true
    · rw [if_pos q1] at h; exact absurd h (by simp)
    · rw [if_neg q1] at h
      obtain ⟨p, hp, hp'⟩ : ∃ p : ℝ, Scalar.max tmin (fin x) = fin p ∧ Scalar.le tmin (fin p) = true := by
        cases tmin with
        | nan => exact absurd h1 (by simp)
        | fin a => exact ⟨_, max_fin a x, by simp⟩
        | ninf => exact ⟨x, rfl, rfl⟩
        | pinf => exact absurd (fin_lt_pinf (F := F) y) q1
      obtain ⟨q, hq, hq'⟩ : ∃ q : ℝ, Scalar.min tmax (fin y) = fin q ∧ Scalar.le (fin q) tmax = true := by
        cases tmax with
        | nan => exact absurd h2 (by simp)
        | fin a => exact ⟨_, min_fin a y, by simp⟩
        | ninf => exact absurd rfl h3
        | pinf => exact ⟨y, rfl, rfl⟩
      rw [hp, hq] at h
      split_ifs at h
      simp only [Option.some.injEq] at h
      exact ⟨p, q, h.symm, hp', hq'⟩
  · exact absurd h (by simp)

theorem Helicoid.vbounds_fin [F.Exact] {ρ : ℝ} (l : ℝ) (hρ : 0 < ρ) (o d : Fin 3 → ℝ) (hd : 0 < d 0 * d 0 + d 1 * d 1)
    (p q : ℝ) :
    (Helicoid.ofReal ρ l : Helicoid (Fl F)).vbounds (cv o) (cv d) (fin p) (fin q) = (Fl.nan, Fl.nan) ∨
    ∃ lo hi : ℝ, (Helicoid.ofReal ρ l : Helicoid (Fl F)).vbounds (cv o) (cv d) (fin p) (fin q) = (fin lo, fin hi) := by
  have etc : (-((cv o : Vec (Fl F) 3) 0 * cv d 0 + cv o 1 * cv d 1) / (cv d 0 * cv d 0 + cv d 1 * cv d 1) : Fl F) =
      fin (-(o 0 * d 0 + o 1 * d 1) / (d 0 * d 0 + d 1 * d 1)) := by
    simp only [fl]
    rw [div_fin _ hd.ne']
  unfold Helicoid.vbounds
  dsimp only
  rw [etc, Helicoid.axisDist_fin l hρ, Helicoid.axisDist_fin l hρ, Helicoid.axisDist_fin l hρ]
  split_ifs
  · exact Or.inr ⟨0, 1, by rw [ofNat_zero, ofNat_one]⟩
  all_goals first | exact Or.inl rfl | exact Or.inr ⟨_, _, rfl⟩

theorem Helicoid.objective_fin [F.Exact] {l : ℝ} (ρ : ℝ) (hl : 0 < l) (o d : Fin 3 → ℝ) (x : Fin 2 → ℝ) :
    (Helicoid.ofReal ρ l : Helicoid (Fl F)).objective (cv o) (cv d) (cv x) =
      (cv ![o 0 + x 0 * d 0 + x 1 * (ρ * Real.cos (2 * Real.pi / l * (o 2 + x 0 * d 2))),
        o 1 + x 0 * d 1 + x 1 * (ρ * Real.sin (2 * Real.pi / l * (o 2 + x 0 * d 2)))],
      cm !![d 0 - 2 * Real.pi / l * d 2 * (x 1 * (ρ * Real.sin (2 * Real.pi / l * (o 2 + x 0 * d 2)))),
          ρ * Real.cos (2 * Real.pi / l * (o 2 + x 0 * d 2));
        d 1 + 2 * Real.pi / l * d 2 * (x 1 * (ρ * Real.cos (2 * Real.pi / l * (o 2 + x 0 * d 2)))),
          ρ * Real.sin (2 * Real.pi / l * (o 2 + x 0 * d 2))]) := by
  have hk : (2 * pi / (Helicoid.ofReal ρ l : Helicoid (Fl F)).speed : Fl F) = fin (2 * Real.pi / l) := by
    unfold Helicoid.ofReal
    simp only [fl, Nat.cast_ofNat]
    rw [div_fin _ hl.ne']
  unfold Helicoid.objective
  rw [hk]
  unfold Helicoid.ofReal
  refine Prod.ext ?_ ?_
  · funext i
    fin_cases i <;> simp [fl]
  · funext i j
    fin_cases i <;> fin_cases j <;> simp [fl, cm]

theorem Nonfinite.mul_fin {z : Fl F} (h : Nonfinite z) (a : ℝ) : Nonfinite (z * fin a) := by
  intro x
  cases z with
  | nan => simp
  | fin t => exact absurd rfl (h t)
  | pinf =>
    rw [pinf_mul_fin]
    split_ifs with ha
    · simp
    · rcases lt_or_gt_of_ne ha with ha | ha
      · rw [infOf_neg ha]; simp
      · rw [infOf_pos ha]; simp
  | ninf =>
    rw [ninf_mul_fin]
    split_ifs with ha
    · simp
    · rcases lt_or_gt_of_ne ha with ha | ha
      · rw [infOf_pos (by linarith)]; simp
      · rw [infOf_neg (by linarith)]; simp

theorem Nonfinite.fin_mul {z : Fl F} (h : Nonfinite z) (a : ℝ) : Nonfinite (fin a * z) := by
  intro x
  cases z with
  | nan => simp
  | fin t => exact absurd rfl (h t)
  | pinf =>
    rw [fin_mul_pinf]
    split_ifs with ha
    · simp
    · rcases lt_or_gt_of_ne ha with ha | ha
      · rw [infOf_neg ha]; simp
      · rw [infOf_pos ha]; simp
  | ninf =>
    rw [fin_mul_ninf]
    split_ifs with ha
    · simp
    · rcases lt_or_gt_of_ne ha with ha | ha
      · rw [infOf_pos (by linarith)]; simp
      · rw [infOf_neg (by linarith)]; simp

theorem Nonfinite.fin_add {z : Fl F} (h : Nonfinite z) (a : ℝ) : Nonfinite (fin a + z) := by
  intro x
  cases z with
  | fin t => exact absurd rfl (h t)
  | nan => simp
  | pinf => simp
  | ninf => simp

theorem cos_nonfinite {z : Fl F} (h : Nonfinite z) : Scalar.cos z = Fl.nan := by
  cases z with
  | fin t => exact absurd rfl (h t)
  | nan => rfl
  | pinf => rfl
  | ninf => rfl

theorem Helicoid.objective_robust [F.Exact] {ρ l : ℝ} (hρ : 0 < ρ) (hl : 0 < l) (o d : Fin 3 → ℝ) (hd : d 2 ≠ 0) :
    Robust (F := F) (n := 1) ((Helicoid.ofReal ρ l : Helicoid (Fl F)).objective (cv o) (cv d)) := by
  have hp := Real.pi_pos
  have hk : (2 * pi / fin l : Fl F) = fin (2 * Real.pi / l) := by
    simp only [fl, Nat.cast_ofNat]
    rw [div_fin _ hl.ne']
  constructor
  · intro x
    exact ⟨_, _, Helicoid.objective_fin ρ hl o d x⟩
  · intro x i hi
    show (fin (o 0) + x 0 * fin (d 0)) + x 1 * (fin ρ * Scalar.cos (2 * pi / fin l * (fin (o 2) + x 0 * fin (d 2)))) = _
    fin_cases i
    · rw [show x 0 = Fl.nan from hi]; simp
    · rw [show x 1 = Fl.nan from hi]; simp
  · intro x hx
    show (fin (o 0) + x 0 * fin (d 0)) + x 1 * (fin ρ * Scalar.cos (2 * pi / fin l * (fin (o 2) + x 0 * fin (d 2)))) = _
    have h0 := hx 0
    generalize x 0 = a at h0
    have key : Scalar.cos (2 * pi / fin l * (fin (o 2) + a * fin (d 2)) : Fl F) = Fl.nan := by
      rw [hk]
      exact cos_nonfinite ((h0.mul_fin _).fin_add _ |>.fin_mul _)
    rw [key]; simp

/-- A starting point with a NaN in the second component makes Newton's method return NaNs. -/
theorem Helicoid.newton_nan [F.Exact] {ρ l : ℝ} (hρ : 0 < ρ) (hl : 0 < l) (o d : Fin 3 → ℝ) (hd : d 2 ≠ 0) (b : Bounds (Fl F) 2)
    (t : Fl F) {out : NewtonOut (Fl F) 2}
    (h : newton2 ((Helicoid.ofReal ρ l : Helicoid (Fl F)).objective (cv o) (cv d)) b ![t, Fl.nan] 16 = some out) :
    out.x = Vec.nans := by
  have hrob := Helicoid.objective_robust (F := F) hρ hl o d hd
  unfold newton2 newtonN at h
  have e16 : ((16 : ℤ) - 1).toNat = 15 := rfl
  rw [e16] at h
  unfold NewtonN.loop at h
  set f := (Helicoid.ofReal ρ l : Helicoid (Fl F)).objective (cv o) (cv d) with hf
  have hJ : (f ![t, Fl.nan]).2 1 0 = Fl.nan := by
    show fin (d 1) + 2 * pi / fin l * fin (d 2) * (Fl.nan * _) = _
    simp
  have hsol : Mat.solve2 (f ![t, Fl.nan]).2 (-(f ![t, Fl.nan]).1) = ![Fl.nan, Fl.nan] := by
    unfold Mat.solve2
    rw [hJ]
    simp
  have hng : ∀ x : Vec (Fl F) 2, x + ![Fl.nan, Fl.nan] = ![Fl.nan, Fl.nan] := by
    intro x; funext i
    show x i + (![Fl.nan, Fl.nan] : Vec (Fl F) 2) i = _
    fin_cases i <;> simp
  have hcon : b.contains ![Fl.nan, Fl.nan] = true := by
    unfold Bounds.contains
    simp [gt, List.finRange_succ]
  have h0 : (f ![Fl.nan, Fl.nan]).1 0 = Fl.nan := hrob.nan _ 0 rfl
  have hbody : NewtonN.body (fun M v => some (Mat.solve2 M v)) f (NewtonN.start f b ![t, Fl.nan]) =
      some (.inl { NewtonN.start f b ![t, Fl.nan] with
        bodies := 1, guess := ![Fl.nan, Fl.nan], v := (f ![Fl.nan, Fl.nan]).1, J := (f ![Fl.nan, Fl.nan]).2, g := Fl.nan,
        expected := expectedResidual (f ![Fl.nan, Fl.nan]).2 ![Fl.nan, Fl.nan] }) := by
    unfold NewtonN.body NewtonN.start
    dsimp only
    rw [hsol]
    rw [hng, if_pos hcon]
    unfold NewtonN.advance
    dsimp only
    rw [hng, squaredNorm_nan _ 0 h0, nan_div, show gt (Fl.nan : Fl F) _ = false from lt_nan _]
    rfl
  rw [hbody] at h
  dsimp only at h
  rw [C05_nan_first_partial _ h0, show gt (Fl.nan : Fl F) _ = false from lt_nan _] at h
  simp only [Bool.false_eq_true, if_false, Option.some.injEq] at h
  subst h
  unfold NewtonN.finish
  dsimp only
  rw [C05_nan_first_partial _ h0, nan_le]
  rfl

/-- The clamped triple of real parameters. -/
theorem Helicoid.clampTUV_fin [F.Exact] (t u v : ℝ) : ∃ u' v' : ℝ, Helicoid.clampTUV (fin t, fin u, fin v) =
    ((fin t, fin u', fin v') : Fl F × Fl F × Fl F) ∧ 0 ≤ u' ∧ u' ≤ 1 ∧ 0 ≤ v' ∧ v' ≤ 1 := by
  obtain ⟨u', h1, h2, h3, -⟩ := clamp01_fin (F := F) u
  obtain ⟨v', h4, h5, h6, -⟩ := clamp01_fin (F := F) v
  exact ⟨u', v', by unfold Helicoid.clampTUV; rw [h1, h4], h2, h3, h5, h6⟩

/-- A ray orthogonal to the axis: parameters before the range test. -/
theorem Helicoid.level_fin [F.Exact] {ρ l : ℝ} (hρ : 0 < ρ) (hl : 0 < l) {o d : Fin 3 → ℝ}
    (ha : F.tiny < d 0 * d 0 + d 1 * d 1) {p : ℝ} {w : Fl F × Fl F × Fl F}
    (h : (Helicoid.ofReal ρ l : Helicoid (Fl F)).levelTUV (cv o) (cv d) (fin p) = some w) :
    Nonfinite w.1 ∨ ∃ t u v : ℝ, w = (fin t, fin u, fin v) := by
  have ht0 : (0 : ℝ) ≤ F.tiny := Fmt.Exact.tiny_nonneg
  have ht1 : F.tiny < 1 := Fmt.Exact.tiny_lt
  unfold Helicoid.levelTUV at h
  dsimp only at h
  have eu : (cv o 2 / (Helicoid.ofReal ρ l : Helicoid (Fl F)).speed + 1 / 2 : Fl F) = fin (o 2 / l + 1 / 2) := by
    unfold Helicoid.ofReal
    simp only [fl, Nat.cast_ofNat, Nat.cast_one]
    rw [div_fin _ hl.ne', div_fin _ (by norm_num : (2 : ℝ) ≠ 0), add_fin]
  have eth : (2 * pi * cv o 2 / (Helicoid.ofReal ρ l : Helicoid (Fl F)).speed : Fl F) = fin (2 * Real.pi * o 2 / l) := by
    unfold Helicoid.ofReal
    simp only [fl, Nat.cast_ofNat]
    rw [div_fin _ hl.ne']
  rw [eu, eth] at h
  by_cases hc : Real.cos (2 * Real.pi * o 2 / l) = 0
  · -- a pole of the tangent
    rw [tan_pole hc] at h
    split_ifs at h with h1 h2 h3 h4 h5
    all_goals first | (simp at h2; done) | skip
    all_goals simp only [Option.some.injEq] at h
    subst h
    left
    intro a
    simp
  · rw [tan_fin hc] at h
    generalize hT : Real.tan (2 * Real.pi * o 2 / l) = T at h
    split_ifs at h with h1 h2 h3 h4 h5
    all_goals simp only [Option.some.injEq] at h
    · -- along the ruling
      rw [tiny_def, cv_apply, abs_fin, le_fin, decide_eq_true_eq] at h3
      have hd0 : d 0 ≠ 0 := by
        intro h0
        rw [h0] at ha
        have : d 1 * d 1 = |d 1| * |d 1| := (abs_mul_abs_self _).symm
        nlinarith [abs_nonneg (d 1)]
      subst h
      right
      refine ⟨-o 0 / d 0, o 2 / l + 1 / 2, 0, ?_⟩
      rw [cv_apply, cv_apply, Fl.neg_fin, div_fin _ hd0, ofNat_zero]
    · rw [tiny_def, cv_apply, abs_fin, le_fin, decide_eq_true_eq] at h3
      have hd0 : d 0 ≠ 0 := by
        intro h0
        rw [h0] at ha
        have : d 1 * d 1 = |d 1| * |d 1| := (abs_mul_abs_self _).symm
        nlinarith [abs_nonneg (d 1)]
      subst h
      right
      refine ⟨-(o 0 + 1) / d 0, o 2 / l + 1 / 2, 1, ?_⟩
      rw [cv_apply, cv_apply, ofNat_one, add_fin, Fl.neg_fin, div_fin _ hd0]
    · have hd1 : d 1 ≠ 0 := by
        intro h0
        apply h3
        rw [tiny_def, cv_apply, h0, abs_fin, le_fin]
        simpa using ht0
      have hcu : Real.cos (2 * Real.pi * (o 2 / l + 1 / 2)) ≠ 0 := by
        rw [show 2 * Real.pi * (o 2 / l + 1 / 2) = 2 * Real.pi * o 2 / l + Real.pi by ring, Real.cos_add_pi]
        simpa using hc
      subst h
      right
      refine ⟨-o 1 / d 1, o 2 / l + 1 / 2, (o 0 + -o 1 / d 1 * d 0) / (ρ * Real.cos (2 * Real.pi * (o 2 / l + 1 / 2))), ?_⟩
      have : (Helicoid.ofReal ρ l : Helicoid (Fl F)).radius = fin ρ := rfl
      rw [this]
      simp only [fl, Nat.cast_ofNat]
      rw [div_fin _ hd1, mul_fin, add_fin, div_fin _ (mul_ne_zero hρ.ne' hcu)]
    · subst h
      have e1 : (cv o 0 * fin T - cv o 1 : Fl F) = fin (o 0 * T - o 1) := by simp only [fl]
      have e2 : (cv d 1 - cv d 0 * fin T : Fl F) = fin (d 1 - d 0 * T) := by simp only [fl]
      rw [e1, e2]
      by_cases h0 : d 1 - d 0 * T = 0
      · left
        rw [h0]
        exact fin_div_zero_ne _
      · right
        rw [div_fin _ h0, Helicoid.axisDist_fin l hρ]
        exact ⟨_, _, _, rfl⟩

/-- A ray parallel to the axis. -/
theorem Helicoid.axial_fin [F.Exact] {ρ l : ℝ} (hρ : 0 < ρ) {o d : Fin 3 → ℝ} (hd : d 2 ≠ 0) {w : Fl F × Fl F × Fl F}
    (h : (Helicoid.ofReal ρ l : Helicoid (Fl F)).axialTUV (cv o) (cv d) = some w) :
    w.1 = Fl.nan ∨ ∃ t u v : ℝ, w = (fin t, fin u, fin v) := by
  have ht0 : (0 : ℝ) ≤ F.tiny := Fmt.Exact.tiny_nonneg
  unfold Helicoid.axialTUV at h
  dsimp only at h
  have er : (Helicoid.ofReal ρ l : Helicoid (Fl F)).radius = fin ρ := rfl
  have es : (Helicoid.ofReal ρ l : Helicoid (Fl F)).speed = fin l := rfl
  have ev : (Scalar.sqrt (cv o 0 * cv o 0 + cv o 1 * cv o 1) / fin ρ : Fl F) =
      fin (Real.sqrt (o 0 * o 0 + o 1 * o 1) / ρ) := by
    simp only [fl]
    rw [sqrt_fin (by nlinarith [sq_nonneg (o 0), sq_nonneg (o 1)]), div_fin _ hρ.ne']
  rw [er, es, ev] at h
  generalize hV : Real.sqrt (o 0 * o 0 + o 1 * o 1) / ρ = V at h
  have hV0 : 0 ≤ V := by rw [← hV]; positivity
  by_cases h1 : gt (fin V : Fl F) 1 = true
  · rw [if_pos h1] at h; exact absurd h (by simp)
  rw [if_neg h1] at h
  by_cases h2 : lt (fin V : Fl F) tiny = true
  · right
    rw [if_pos h2] at h
    split_ifs at h
    · simp only [Option.some.injEq] at h
      subst h
      refine ⟨(-l / 2 - o 2) / d 2, 0, V, ?_⟩
      simp only [fl, Nat.cast_ofNat, Nat.cast_zero]
      rw [div_fin _ (by norm_num : (2 : ℝ) ≠ 0), sub_fin, div_fin _ hd]
    · simp only [Option.some.injEq] at h
      subst h
      refine ⟨(l / 2 - o 2) / d 2, 1, V, ?_⟩
      simp only [fl, Nat.cast_ofNat, Nat.cast_one]
      rw [div_fin _ (by norm_num : (2 : ℝ) ≠ 0), sub_fin, div_fin _ hd]
  · rw [if_neg h2] at h
    simp only [Option.some.injEq] at h
    have hpi : (2 * Real.pi) ≠ 0 := by have := Real.pi_pos; positivity
    by_cases hV1 : V = 0
    · left
      have ho0 : o 0 = 0 ∧ o 1 = 0 := by
        rw [hV1, div_eq_zero_iff, or_iff_left hρ.ne', Real.sqrt_eq_zero (by nlinarith [sq_nonneg (o 0), sq_nonneg (o 1)])] at hV
        constructor <;> nlinarith [sq_nonneg (o 0), sq_nonneg (o 1)]
      have e0 : (cv o 1 / (fin ρ * fin V) : Fl F) = Fl.nan := by
        rw [cv_apply, ho0.2, hV1, mul_fin, mul_zero, Fl.zero_div_zero]
      rw [e0] at h
      subst h
      have e1 : (Scalar.atan2 (Fl.nan : Fl F) (cv o 0 / (fin ρ * fin V)) / (2 * pi) : Fl F) = Fl.nan := by
        have : (Scalar.atan2 (Fl.nan : Fl F) (cv o 0 / (fin ρ * fin V)) : Fl F) = Fl.nan := rfl
        rw [this]; simp
      rw [e1]
      simp
    · right
      have hne : ρ * V ≠ 0 := mul_ne_zero hρ.ne' hV1
      have e1 : (Scalar.atan2 (cv o 1 / (fin ρ * fin V)) (cv o 0 / (fin ρ * fin V)) / (2 * pi) : Fl F) =
          fin (realAtan2 (o 1 / (ρ * V)) (o 0 / (ρ * V)) / (2 * Real.pi)) := by
        simp only [fl, Nat.cast_ofNat]
        rw [div_fin _ hne, div_fin _ hne, atan2_fin, div_fin _ hpi]
      rw [e1] at h
      generalize realAtan2 (o 1 / (ρ * V)) (o 0 / (ρ * V)) / (2 * Real.pi) = A at h
      obtain ⟨u, hu⟩ : ∃ u : ℝ, (if lt (fin A : Fl F) 0 = true then (fin A + 1 : Fl F) else fin A) = fin u := by
        split_ifs
        · exact ⟨A + 1, by rw [ofNat_one, add_fin]⟩
        · exact ⟨A, rfl⟩
      rw [hu] at h
      subst h
      refine ⟨(l * (u - ((1 / 2 : ℚ) : ℝ)) - o 2) / d 2, u, V, ?_⟩
      rw [lit_def, sub_fin, mul_fin, cv_apply, sub_fin, cv_apply, div_fin _ hd]

/-- Every answer of the parameter search that is not NaN is real, with `u` and `v` in `[0, 1]`, and for rays orthogonal
to the axis `t` is in the range searched. -/
theorem Helicoid.computeTUV_real [F.Exact] {ρ l : ℝ} (hρ : 0 < ρ) (hl : 0 < l) {o d : Fin 3 → ℝ}
    (hd : F.tiny < d 0 * d 0 + d 1 * d 1 ∨ F.tiny < |d 2|) {P Q : Fl F}
    (hPQ : F.tiny < d 0 * d 0 + d 1 * d 1 → ∃ p q : ℝ, P = fin p ∧ Q = fin q) {w : Fl F × Fl F × Fl F}
    (h : (Helicoid.ofReal ρ l : Helicoid (Fl F)).computeTUV (cv o) (cv d) P Q = some w) (hn : isNaN w.1 = false) :
    ∃ t u v : ℝ, w = (fin t, fin u, fin v) ∧ 0 ≤ u ∧ u ≤ 1 ∧ 0 ≤ v ∧ v ≤ 1 ∧
      (|d 2| ≤ F.tiny → Scalar.le P (fin t) = true ∧ Scalar.le (fin t) Q = true) := by
  have ht0 : (0 : ℝ) ≤ F.tiny := Fmt.Exact.tiny_nonneg
  have hnan : ∀ w : Fl F × Fl F × Fl F, some ((Fl.nan, Fl.nan, Fl.nan) : Fl F × Fl F × Fl F) = some w →
      isNaN w.1 = false → False := by
    intro w h hn
    simp only [Option.some.injEq] at h
    subst h
    exact absurd hn (by simp)
  unfold Helicoid.computeTUV at h
  by_cases hlev : |d 2| ≤ F.tiny
  · have ha := hd.resolve_right (not_lt.mpr hlev)
    obtain ⟨p, q, rfl, rfl⟩ := hPQ ha
    have e : Scalar.le (Scalar.abs (cv d 2)) (tiny : Fl F) = true := by
      rw [tiny_def, cv_apply, abs_fin, le_fin]; simpa using hlev
    rw [if_pos e] at h
    split at h
    · exact (hnan w h hn).elim
    · rename_i w0 hw0
      split_ifs at h with hr
      · simp only [Bool.and_eq_true] at hr
        simp only [Option.some.injEq] at h
        rcases Helicoid.level_fin hρ hl ha hw0 with hnf | ⟨t, u, v, rfl⟩
        · exfalso
          obtain ⟨r1, r2⟩ := hr
          generalize w0.1 = z at hnf r1 r2
          cases z with
          | fin t => exact hnf t rfl
          | nan => exact absurd r2 (by simp)
          | pinf => exact absurd r2 (by simp)
          | ninf => exact absurd r1 (by simp [ge])
        · obtain ⟨u', v', e1, e2, e3, e4, e5⟩ := Helicoid.clampTUV_fin (F := F) t u v
          rw [e1] at h
          exact ⟨t, u', v', h.symm, e2, e3, e4, e5, fun _ => hr⟩
      · exact (hnan w h hn).elim
  · have e : ¬ Scalar.le (Scalar.abs (cv d 2)) (tiny : Fl F) = true := by
      rw [tiny_def, cv_apply, abs_fin, le_fin]; simpa using hlev
    have hd2 : d 2 ≠ 0 := by
      intro h0
      apply hlev
      rw [h0, abs_zero]
      exact ht0
    rw [if_neg e] at h
    have ea : (cv d 0 * cv d 0 + cv d 1 * cv d 1 : Fl F) = fin (d 0 * d 0 + d 1 * d 1) := by simp only [fl]
    rw [ea] at h
    by_cases hax : d 0 * d 0 + d 1 * d 1 ≤ F.tiny
    · rw [if_pos (by rw [tiny_def, le_fin]; simpa using hax)] at h
      split at h
      · exact (hnan w h hn).elim
      · rename_i w0 hw0
        simp only [Option.some.injEq] at h
        rcases Helicoid.axial_fin hρ hd2 hw0 with hnf | ⟨t, u, v, rfl⟩
        · rw [← h] at hn
          exact absurd hn (by simp [Helicoid.clampTUV, hnf])
        · obtain ⟨u', v', e1, e2, e3, e4, e5⟩ := Helicoid.clampTUV_fin (F := F) t u v
          rw [e1] at h
          exact ⟨t, u', v', h.symm, e2, e3, e4, e5, fun h => absurd h hlev⟩
    · rw [if_neg (by rw [tiny_def, le_fin]; simpa using hax)] at h
      have ha := not_le.mp hax
      obtain ⟨p, q, rfl, rfl⟩ := hPQ ha
      simp only [Option.bind_eq_bind, Option.bind_eq_some_iff, Option.pure_def, Option.some.injEq] at h
      obtain ⟨b, hb, sol, hs, rfl⟩ := h
      rcases Helicoid.vbounds_fin (F := F) l hρ o d (ht0.trans_lt ha) p q with hv | ⟨lo, hi, hv⟩
      · rw [hv] at hs
        rw [show (Fl.nan * (1 - 1000 * eps) : Fl F) = Fl.nan from nan_mul _] at hs
        rw [Helicoid.newton_nan (F := F) hρ hl o d hd2 b _ hs] at hn
        exact absurd hn (by simp [Helicoid.clampTUV, Vec.nans])
      · rw [hv] at hs hb
        obtain ⟨g, rfl⟩ : ∃ g, b = Bounds.ofReal ![p, lo] ![q, hi] g := by
          unfold Bounds.init at hb
          split_ifs at hb with hc
          rw [Option.some.injEq] at hb
          subst hb
          refine ⟨⟨1235123#64, 234121#64⟩, ?_⟩
          unfold Bounds.ofReal
          congr 1
          funext i
          fin_cases i <;> simp
        have hg : (![fin p, fin hi * (1 - 1000 * eps)] : Vec (Fl F) 2) = cv ![p, hi * (1 - 1000 * F.eps)] := by
          funext i
          fin_cases i <;> simp [fl]
        rw [hg] at hs
        rcases newtonN_finite (F := F) _ _ (Helicoid.objective_robust hρ hl o d hd2) _ _ _ _ _ _ hs with hx | ⟨x, hx⟩
        · rw [hx] at hn
          exact absurd hn (by simp [Helicoid.clampTUV, Vec.nans])
        · rw [hx]
          have eu : ((cv o 2 + cv x 0 * cv d 2) / (Helicoid.ofReal ρ l : Helicoid (Fl F)).speed + lit (1 / 2) : Fl F) =
              fin ((o 2 + x 0 * d 2) / l + 1 / 2) := by
            unfold Helicoid.ofReal
            simp only [fl]
            rw [div_fin _ hl.ne', add_fin]
            norm_num
          rw [eu]
          obtain ⟨u', v', e1, e2, e3, e4, e5⟩ := Helicoid.clampTUV_fin (F := F) (x 0) ((o 2 + x 0 * d 2) / l + 1 / 2) (x 1)
          exact ⟨x 0, u', v', e1, e2, e3, e4, e5, fun h => absurd h hlev⟩

/-- The threshold of the residual test divided by `eps`, row `i`: the size of the terms that cancel there. -/
noncomputable def helScale (ρ l : ℝ) (d : Fin 3 → ℝ) (t u v : ℝ) (i : Fin 3) : ℝ :=
  |t * d i| + |helU ρ l u v i * u| + |helV ρ u i * v|

theorem Helicoid.expectedRes_fin [F.Exact] (ρ l : ℝ) (o d : Fin 3 → ℝ) (t u v : ℝ) (rec : HitRecord (Fl F))
    (ht : rec.t = fin t) (hu : rec.u = fin u) (hv : rec.v = fin v) :
    ∃ k : Fin 3, (Helicoid.ofReal ρ l : Helicoid (Fl F)).expectedRes ⟨cv o, cv d⟩ rec =
      fin (helScale ρ l d t u v k * F.eps) ∧ ∀ i, helScale ρ l d t u v i ≤ helScale ρ l d t u v k := by
  have row : ∀ i : Fin 3, Scalar.abs (rec.t * (Helicoid.ofReal ρ l : Helicoid (Fl F)).fullJac ⟨cv o, cv d⟩ rec.u rec.v i 2) +
      Scalar.abs ((Helicoid.ofReal ρ l : Helicoid (Fl F)).fullJac ⟨cv o, cv d⟩ rec.u rec.v i 0 * rec.u) +
      Scalar.abs ((Helicoid.ofReal ρ l : Helicoid (Fl F)).fullJac ⟨cv o, cv d⟩ rec.u rec.v i 1 * rec.v) =
      fin (helScale ρ l d t u v i) := by
    intro i
    obtain ⟨j0, j1⟩ := Helicoid.jac_fin (F := F) ρ l u v i
    have e0 : (Helicoid.ofReal ρ l : Helicoid (Fl F)).fullJac ⟨cv o, cv d⟩ (fin u) (fin v) i 0 = fin (helU ρ l u v i) := by
      rw [← j0]; fin_cases i <;> rfl
    have e1 : (Helicoid.ofReal ρ l : Helicoid (Fl F)).fullJac ⟨cv o, cv d⟩ (fin u) (fin v) i 1 = fin (helV ρ u i) := by
      rw [← j1]; fin_cases i <;> rfl
    have e2 : (Helicoid.ofReal ρ l : Helicoid (Fl F)).fullJac ⟨cv o, cv d⟩ (fin u) (fin v) i 2 = fin (-d i) := by
      rw [← Fl.neg_fin]; fin_cases i <;> rfl
    rw [ht, hu, hv, e0, e1, e2, mul_fin, mul_fin, mul_fin, abs_fin, abs_fin, abs_fin, add_fin, add_fin]
    unfold helScale
    rw [mul_neg, abs_neg]
  unfold Helicoid.expectedRes
  dsimp only
  rw [row, row, row, max_fin, max_fin, eps_def, mul_fin]
  generalize helScale ρ l d t u v = h
  have three : ∀ k, (∀ i, h i ≤ h k) ↔ h 0 ≤ h k ∧ h 1 ≤ h k ∧ h 2 ≤ h k := fun k =>
    ⟨fun H => ⟨H 0, H 1, H 2⟩, fun H i => by fin_cases i <;> simp [H.1, H.2.1, H.2.2]⟩
  rcases le_total (h 0) (h 1) with h01 | h01
  · rw [max_eq_right h01]
    rcases le_total (h 1) (h 2) with h12 | h12
    · exact ⟨2, by rw [max_eq_right h12], (three 2).mpr ⟨h01.trans h12, h12, le_rfl⟩⟩
    · exact ⟨1, by rw [max_eq_left h12], (three 1).mpr ⟨h01, le_rfl, h12⟩⟩
  · rw [max_eq_left h01]
    rcases le_total (h 0) (h 2) with h12 | h12
    · exact ⟨2, by rw [max_eq_right h12], (three 2).mpr ⟨h12, h01.trans h12, le_rfl⟩⟩
    · exact ⟨0, by rw [max_eq_left h12], (three 0).mpr ⟨le_rfl, h01, h12⟩⟩

/-- C69 (exact arithmetic, every helicoid of positive radius and speed, every real ray whose direction is not degenerate,
every range without NaN): whenever `hit` reports a hit, `rec.u` and `rec.v` are in `[0, 1]`, `rec.p = r(rec.t)`, every
coordinate of `rec.p` is within `10 eps` times the size of the cancelling terms of the surface point at `(rec.u, rec.v)`,
and for rays orthogonal to the axis `rec.t` is in the range. Missing: the range of `rec.t` for other rays
(`C69_axial_false`). -/
theorem C69_distance_partial [F.Exact] {ρ l : ℝ} (hρ : 0 < ρ) (hl : 0 < l) (o d : Fin 3 → ℝ)
    (hd : F.tiny < d 0 * d 0 + d 1 * d 1 ∨ F.tiny < |d 2|) (junk tmin tmax : Fl F) (rec rec' : HitRecord (Fl F))
    (h1 : isNaN tmin = false) (h2 : isNaN tmax = false) (h3 : tmax ≠ Fl.ninf)
    (h : (Helicoid.ofReal ρ l : Helicoid (Fl F)).hit junk ⟨cv o, cv d⟩ tmin tmax rec = some (true, rec')) :
    ∃ t u v : ℝ, rec'.t = fin t ∧ rec'.u = fin u ∧ rec'.v = fin v ∧ 0 ≤ u ∧ u ≤ 1 ∧ 0 ≤ v ∧ v ≤ 1 ∧
      rec'.p = cv (o + t • d) ∧
      (∃ k, ∀ i, |(o + t • d) i - helPt ρ l u v i| ≤ 10 * F.eps * helScale ρ l d t u v k) ∧
      (|d 2| ≤ F.tiny → InRange (tmin, tmax) t) := by
  unfold Helicoid.hit at h
  split at h
  · simp at h
  · rename_i P Q hc
    obtain ⟨w, hw, hf⟩ := Option.map_eq_some_iff.mp h
    obtain ⟨a1, a2, a3, a4, a5, a6⟩ := C69_any_solver _ _ _ _ _ _ hf
    have hPQ : F.tiny < d 0 * d 0 + d 1 * d 1 → ∃ p q : ℝ, (P = fin p ∧ Q = fin q) ∧ Scalar.le tmin (fin p) = true ∧
        Scalar.le (fin q) tmax = true := by
      intro ha
      obtain ⟨p, q, hpq, g1, g2⟩ := Helicoid.clip_fin ha h1 h2 h3 hc
      simp only [Prod.mk.injEq] at hpq
      exact ⟨p, q, hpq, g1, g2⟩
    rw [a1] at a4
    obtain ⟨t, u, v, rfl, u0, u1, v0, v1, hr⟩ := Helicoid.computeTUV_real hρ hl hd
      (fun ha => by obtain ⟨p, q, e, -, -⟩ := hPQ ha; exact ⟨p, q, e⟩) hw a4
    dsimp only at a1 a2 a3
    refine ⟨t, u, v, a1, a2, a3, u0, u1, v0, v1, ?_, ?_, ?_⟩
    · rw [a5, a1, ray_at_cv]
    · obtain ⟨k, hk, -⟩ := Helicoid.expectedRes_fin (F := F) ρ l o d t u v rec' a1 a2 a3
      refine ⟨k, fun i => ?_⟩
      obtain ⟨m, hm, hm1, -⟩ := C05_max_norm_finite_partial (F := F) (o + t • d - helPt ρ l u v)
      rw [hk, a5, a1, a2, a3, ray_at_cv, Helicoid.eval_fin, cv_sub, hm, ofNat_def, mul_fin, gt, lt_fin,
        decide_eq_false_iff_not, not_lt] at a6
      have := hm1 i
      rw [Pi.sub_apply] at this
      push_cast at a6
      linarith
    · intro hlev
      obtain ⟨p, q, ⟨rfl, rfl⟩, g1, g2⟩ := hPQ (hd.resolve_right (not_lt.mpr hlev))
      exact ⟨Fl.le_trans g1 (hr hlev).1, Fl.le_trans (hr hlev).2 g2⟩

/-- Parameters of a common point of ray and surface pass the residual test. -/
theorem Helicoid.finish_params [F.Exact] (ρ l : ℝ) (o d : Fin 3 → ℝ) (t u v : ℝ) (h : o + t • d = helPt ρ l u v) (junk : Fl F)
    (rec : HitRecord (Fl F)) : ∃ rec', (Helicoid.ofReal ρ l : Helicoid (Fl F)).finish ⟨cv o, cv d⟩ (fin t, fin u, fin v) junk rec =
      (true, rec') ∧ rec'.t = fin t ∧ rec'.u = fin u ∧ rec'.v = fin v := by
  have key : ∀ rc : HitRecord (Fl F), rc.t = fin t → rc.u = fin u → rc.v = fin v → rc.p = cv (o + t • d) →
      (if gt (Vec.maxNorm (rc.p - (Helicoid.ofReal ρ l : Helicoid (Fl F)).eval rc.u rc.v))
        (10 * (Helicoid.ofReal ρ l : Helicoid (Fl F)).expectedRes ⟨cv o, cv d⟩ rc) = true then (false, rc) else (true, rc)) =
      (true, rc) := by
    intro rc ht hu hv hp
    obtain ⟨k, hk, -⟩ := Helicoid.expectedRes_fin (F := F) ρ l o d t u v rc ht hu hv
    obtain ⟨m, hm, -, i, hm2⟩ := C05_max_norm_finite_partial (F := F) (0 : Fin 3 → ℝ)
    have he : 0 ≤ F.eps := (Fmt.Exact.eps_pos (F := F)).le
    have hs : 0 ≤ helScale ρ l d t u v k := by unfold helScale; positivity
    refine if_neg ?_
    rw [hk, hp, hu, hv, Helicoid.eval_fin, ← h, cv_sub, sub_self, hm, hm2, ofNat_def, mul_fin, gt, lt_fin,
      decide_eq_true_eq, not_lt]
    simp only [Pi.zero_apply, abs_zero]
    positivity
  unfold Helicoid.finish
  dsimp only
  rw [if_neg (by simp [Helicoid.place])]
  exact ⟨_, key { (Helicoid.ofReal ρ l : Helicoid (Fl F)).forms ⟨cv o, cv d⟩ (Helicoid.place (fin t, fin u, fin v) rec) with
    cond := (Helicoid.ofReal ρ l : Helicoid (Fl F)).condition ⟨cv o, cv d⟩ ((Helicoid.ofReal ρ l : Helicoid (Fl F)).forms
      ⟨cv o, cv d⟩ (Helicoid.place (fin t, fin u, fin v) rec)) junk } rfl rfl rfl (ray_at_cv o d t), rfl, rfl, rfl⟩

theorem Helicoid.finish_exact [F.Exact] (ρ l : ℝ) (o d : Fin 3 → ℝ) (t u v : ℝ) (h : o + t • d = helPt ρ l u v) (junk : Fl F)
    (rec : HitRecord (Fl F)) : ∃ rec', (Helicoid.ofReal ρ l : Helicoid (Fl F)).finish ⟨cv o, cv d⟩ (fin t, fin u, fin v) junk rec =
      (true, rec') ∧ rec'.t = fin t := by
  obtain ⟨rec', h1, h2, -⟩ := Helicoid.finish_params (F := F) ρ l o d t u v h junk rec
  exact ⟨rec', h1, h2⟩

/-- A ray parallel to the axis. -/
theorem Helicoid.axial_hit [F.Exact] (junk tmax : Fl F) (rec : HitRecord (Fl F)) :
    ∃ rec', (Helicoid.ofReal 1 2 : Helicoid (Fl F)).hit junk ⟨cv ![1 / 2, 0, 0], cv ![0, 0, 1]⟩ (fin 0) tmax rec =
      some (true, rec') ∧ rec'.t = fin (-1) ∧ rec'.u = fin 0 ∧ rec'.v = fin (1 / 2) := by
  have ht0 : (0 : ℝ) ≤ F.tiny := Fmt.Exact.tiny_nonneg
  have ht1 : F.tiny < 1 := Fmt.Exact.tiny_lt
  have hc : (Helicoid.ofReal 1 2 : Helicoid (Fl F)).clip ⟨cv ![1 / 2, 0, 0], cv ![0, 0, 1]⟩ (fin 0) tmax = some (fin 0, tmax) := by
    unfold Helicoid.clip
    dsimp only
    rw [if_neg]
    simp [fl, gt, ht0]
  have hax : (Helicoid.ofReal 1 2 : Helicoid (Fl F)).axialTUV (cv ![1 / 2, 0, 0]) (cv ![0, 0, 1]) =
      some (fin (-1), fin 0, fin (1 / 2)) := by
    have ev : (Scalar.sqrt (cv ![1 / 2, 0, 0] 0 * cv ![1 / 2, 0, 0] 0 + cv ![1 / 2, 0, 0] 1 * cv ![1 / 2, 0, 0] 1) /
        (Helicoid.ofReal 1 2 : Helicoid (Fl F)).radius : Fl F) = fin (1 / 2) := by
      unfold Helicoid.ofReal
      simp only [fl, cons_val]
      rw [sqrt_fin (by norm_num), div_fin _ one_ne_zero, fin_inj]
      rw [show (1 / 2 * (1 / 2) + 0 * 0 : ℝ) = (1 / 2) ^ 2 by norm_num, Real.sqrt_sq (by norm_num)]
      norm_num
    unfold Helicoid.axialTUV
    dsimp only
    rw [ev, if_neg (by simp [fl, gt]; norm_num)]
    have es : (Helicoid.ofReal 1 2 : Helicoid (Fl F)).speed = fin 2 := rfl
    have er : (Helicoid.ofReal 1 2 : Helicoid (Fl F)).radius = fin 1 := rfl
    rw [es, er]
    split_ifs with q1 q2 q3
    · simp only [fl, Nat.cast_ofNat, cons_val, Nat.cast_zero]
      rw [div_fin _ (by norm_num), sub_fin, div_fin _ one_ne_zero]
      norm_num
    · exact absurd (by simp [fl, gt]) q2
    · exfalso
      have hz : realAtan2 0 1 = 0 := by
        unfold realAtan2
        exact Complex.arg_one
      simp only [fl, Nat.cast_ofNat, cons_val] at q3
      rw [div_fin _ (by norm_num), div_fin _ (by norm_num), atan2_fin,
        div_fin _ (by have := Real.pi_pos; positivity)] at q3
      norm_num [hz] at q3
    · have hz : realAtan2 0 1 = 0 := by
        unfold realAtan2
        exact Complex.arg_one
      simp only [fl, Nat.cast_ofNat, cons_val]
      rw [div_fin _ (by norm_num), div_fin _ (by norm_num), atan2_fin,
        div_fin _ (by have := Real.pi_pos; positivity), sub_fin, mul_fin, sub_fin, div_fin _ one_ne_zero]
      norm_num [hz]
  have hcomp : (Helicoid.ofReal 1 2 : Helicoid (Fl F)).computeTUV (cv ![1 / 2, 0, 0]) (cv ![0, 0, 1]) (fin 0) tmax =
      some (fin (-1), fin 0, fin (1 / 2)) := by
    unfold Helicoid.computeTUV
    rw [if_neg (by simp [fl]; exact ht1), if_pos (by simp [fl]; exact ht0), hax]
    simp [Helicoid.clampTUV, Scalar.clamp, fl]
    norm_num
  obtain ⟨rec', e1, e2⟩ := Helicoid.finish_params (F := F) 1 2 ![1 / 2, 0, 0] ![0, 0, 1] (-1) 0 (1 / 2)
    (by ext i; fin_cases i <;> simp [helPt]) junk rec
  refine ⟨rec', ?_, e2⟩
  unfold Helicoid.hit
  rw [hc]
  dsimp only
  rw [hcomp, Option.map_some, e1]

/-- C69 fails as stated for rays parallel to the axis, whose parameter is never compared with the range: for radius 1
and speed 2, the ray from `(1/2, 0, 0)` upwards and `t_min = 0` (any `t_max`), `hit` reports a hit at `t = -1`. -/
theorem C69_axial_false [F.Exact] (junk tmax : Fl F) (rec : HitRecord (Fl F)) :
    ∃ rec', (Helicoid.ofReal 1 2 : Helicoid (Fl F)).hit junk ⟨cv ![1 / 2, 0, 0], cv ![0, 0, 1]⟩ (fin 0) tmax rec =
      some (true, rec') ∧ rec'.t = fin (-1) := by
  obtain ⟨rec', h1, h2, -⟩ := Helicoid.axial_hit (F := F) junk tmax rec
  exact ⟨rec', h1, h2⟩

/-- Non-vacuity of `C69_distance_partial`: the same ray is a hit. -/
example (junk : Fl exact64) (rec : HitRecord (Fl exact64)) : ∃ t u v : ℝ, 0 ≤ u ∧ u ≤ 1 ∧ 0 ≤ v ∧ v ≤ 1 ∧
    ∃ k, ∀ i, |(![1 / 2, 0, 0] + t • ![0, 0, 1] : Fin 3 → ℝ) i - helPt 1 2 u v i| ≤
      10 * exact64.eps * helScale 1 2 ![0, 0, 1] t u v k := by
  obtain ⟨rec', h, -⟩ := C69_axial_false (F := exact64) junk (fin 5) rec
  have ht1 : exact64.tiny < 1 := Fmt.Exact.tiny_lt
  obtain ⟨t, u, v, -, -, -, h1, h2, h3, h4, -, h5, -⟩ := C69_distance_partial (F := exact64) one_pos two_pos _ _
    (Or.inr (by simpa using ht1)) _ _ _ _ _ rfl rfl (by simp) h
  exact ⟨t, u, v, h1, h2, h3, h4, h5⟩

/-- A quadratic with negative constant term has a root on either side of zero. -/
theorem quadraticRoots_straddle [F.Exact] (a b c : ℝ) (ha : F.tiny < a) (hc : c < 0) :
    ∃ x y : ℝ, quadraticRoots (fin a : Fl F) (fin b) (fin c) = [fin x, fin y] ∧ x < 0 ∧ 0 < y := by
  have ht : (0 : ℝ) ≤ F.tiny := Fmt.Exact.tiny_nonneg
  have ha0 : 0 < a := ht.trans_lt ha
  have use : ∀ b : ℝ, (b = 0 ∨ F.tiny < |b|) →
      ∃ x y : ℝ, quadraticRoots (fin a : Fl F) (fin b) (fin c) = [fin x, fin y] ∧ x < 0 ∧ 0 < y := by
    intro b hb
    rcases quadraticRoots_spec (F := F) a b c (Or.inr (by rwa [abs_of_pos ha0])) (Or.inr hb) (fun h => ha0.ne' h.1) with
      h' | ⟨x, y, hxy, h', hv, -⟩
    · exfalso
      -- the discriminant is positive
      have hD : 0 ≤ b ^ 2 - 4 * a * c := by nlinarith [sq_nonneg b]
      refine h'.2 ((-b + Real.sqrt (b ^ 2 - 4 * a * c)) / (2 * a)) ?_
      have hs := Real.sq_sqrt hD
      generalize Real.sqrt (b ^ 2 - 4 * a * c) = S at hs
      have : a * ((-b + S) / (2 * a)) ^ 2 + b * ((-b + S) / (2 * a)) + c = (S ^ 2 - (b ^ 2 - 4 * a * c)) / (4 * a) := by
        field_simp
        ring
      rw [this, hs, sub_self, zero_div]
    · obtain ⟨-, hp⟩ := hv ha0.ne'
      have hneg : x * y < 0 := by
        by_contra hcon
        have := mul_nonneg ha0.le (not_lt.mp hcon)
        linarith
      refine ⟨x, y, h', ?_, ?_⟩
      · by_contra hx
        nlinarith
      · by_contra hy
        nlinarith
  by_cases hb : F.tiny < |b|
  · exact use b (Or.inr hb)
  · obtain ⟨x, y, h, h2⟩ := use 0 (Or.inl rfl)
    refine ⟨x, y, ?_, h2⟩
    rw [← h]
    unfold quadraticRoots
    simp only [abs_fin, tiny_def, le_fin, decide_eq_true_eq, not_le.mpr (by rwa [abs_of_pos ha0] : F.tiny < |a|), not_lt.mp hb,
      abs_zero, ht, if_true, if_false]

/-- C69 for slanted rays that start inside the enclosing cylinder: if the Jacobian of the system solved is nonsingular
over the range and its lower left entry is zero or above `eps²` (the window of `matrix::solve`), then `hit` returns and
every hit it reports is in the range. Missing: the other slanted rays. -/
theorem C69_inside_partial [F.Exact] {ρ l : ℝ} (hρ : 0 < ρ) (hl : 0 < l) (heps : F.eps ≤ 1 / 1000) (o d : Fin 3 → ℝ)
    (ha : F.tiny < d 0 * d 0 + d 1 * d 1) (hd : F.tiny < |d 2|) (hin : o 0 * o 0 + o 1 * o 1 < ρ * ρ) (hz : |o 2| < l / 2)
    (a b : ℝ) (ha0 : 0 ≤ a) (hab : a ≤ b)
    (hJ : ∀ t v, a ≤ t → t ≤ b → 0 ≤ v → v ≤ 1 →
      d 0 * Real.sin (2 * Real.pi / l * (o 2 + t * d 2)) - d 1 * Real.cos (2 * Real.pi / l * (o 2 + t * d 2)) ≠
        2 * Real.pi / l * d 2 * (v * ρ) ∧
      (d 1 + 2 * Real.pi / l * d 2 * (v * (ρ * Real.cos (2 * Real.pi / l * (o 2 + t * d 2)))) = 0 ∨
        F.eps * F.eps < |d 1 + 2 * Real.pi / l * d 2 * (v * (ρ * Real.cos (2 * Real.pi / l * (o 2 + t * d 2))))|))
    (junk : Fl F) (rec : HitRecord (Fl F)) :
    ∃ res, (Helicoid.ofReal ρ l : Helicoid (Fl F)).hit junk ⟨cv o, cv d⟩ (fin a) (fin b) rec = some res ∧
      (res.1 = true → ∃ t : ℝ, res.2.t = fin t ∧ a ≤ t ∧ t ≤ b) := by
  have ht0 : (0 : ℝ) ≤ F.tiny := Fmt.Exact.tiny_nonneg
  have he0 : 0 < F.eps := Fmt.Exact.eps_pos
  obtain ⟨x, y, hr, hx, hy⟩ := quadraticRoots_straddle (F := F) (d 0 * d 0 + d 1 * d 1) (2 * (o 0 * d 0 + o 1 * d 1))
    (o 0 * o 0 + o 1 * o 1 - ρ * ρ) ha (by linarith)
  have hclip : (Helicoid.ofReal ρ l : Helicoid (Fl F)).clip ⟨cv o, cv d⟩ (fin a) (fin b) = none ∨
      ∃ q, a ≤ q ∧ q ≤ b ∧ (Helicoid.ofReal ρ l : Helicoid (Fl F)).clip ⟨cv o, cv d⟩ (fin a) (fin b) = some (fin a, fin q) := by
    unfold Helicoid.clip
    dsimp only
    have ea : (cv d 0 * cv d 0 + cv d 1 * cv d 1 : Fl F) = fin (d 0 * d 0 + d 1 * d 1) := by simp only [fl]
    have eg : gt (fin (d 0 * d 0 + d 1 * d 1) : Fl F) tiny = true := by rw [tiny_def]; simpa [gt] using ha
    have e1 : (2 * (cv o 0 * cv d 0 + cv o 1 * cv d 1) : Fl F) = fin (2 * (o 0 * d 0 + o 1 * d 1)) := by
      simp only [fl, Nat.cast_ofNat]
    have e2 : (cv o 0 * cv o 0 + cv o 1 * cv o 1 - (Helicoid.ofReal ρ l : Helicoid (Fl F)).radius *
        (Helicoid.ofReal ρ l : Helicoid (Fl F)).radius : Fl F) = fin (o 0 * o 0 + o 1 * o 1 - ρ * ρ) := by
      unfold Helicoid.ofReal
      simp only [fl]
    rw [ea, if_pos eg, e1, e2, hr]
    dsimp only
    rw [max_fin, min_fin, max_eq_left (by linarith)]
    by_cases q1 : lt (fin y : Fl F) (fin a) = true
    · rw [if_pos q1]; exact Or.inl rfl
    · rw [if_neg q1]
      rw [lt_fin, decide_eq_true_eq, not_lt] at q1
      split_ifs
      · exact Or.inl rfl
      · exact Or.inl rfl
      · exact Or.inr ⟨min b y, le_min hab q1, min_le_left _ _, rfl⟩
  unfold Helicoid.hit
  rcases hclip with hc | ⟨q, hq1, hq2, hc⟩
  · rw [hc]
    exact ⟨_, rfl, fun h => absurd h (by simp)⟩
  rw [hc]
  dsimp only
  have hvb : (Helicoid.ofReal ρ l : Helicoid (Fl F)).vbounds (cv o) (cv d) (fin a) (fin q) = (fin 0, fin 1) := by
    unfold Helicoid.vbounds
    rw [if_pos, ofNat_zero, ofNat_one]
    unfold Helicoid.inCylinder Helicoid.ofReal
    obtain ⟨z1, z2⟩ := abs_lt.mp hz
    simp only [fl, Nat.cast_ofNat, div_fin _ (two_ne_zero (α := ℝ)), gt, Bool.and_eq_true, decide_eq_true_eq]
    exact ⟨⟨hin, z2⟩, by linarith⟩
  obtain ⟨out, hout, hx⟩ := C23_newton2_partial (F := F) ((Helicoid.ofReal ρ l : Helicoid (Fl F)).objective (cv o) (cv d))
    _ _ ![a, 0] ![q, 1] (fun i => by fin_cases i <;> simp [hq1])
    (fun x _ => Helicoid.objective_fin ρ hl o d x)
    (fun x hx => by
      obtain ⟨h1, h2⟩ := hJ (x 0) (x 1) (hx 0).1 ((hx 0).2.trans hq2) (hx 1).1 (hx 1).2
      have t := Real.sin_sq_add_cos_sq (2 * Real.pi / l * (o 2 + x 0 * d 2))
      refine ⟨fun hdet => h1 ?_, by simpa using h2⟩
      rw [Matrix.det_fin_two_of] at hdet
      have : ρ * (d 0 * Real.sin (2 * Real.pi / l * (o 2 + x 0 * d 2)) - d 1 * Real.cos (2 * Real.pi / l * (o 2 + x 0 * d 2)) -
        2 * Real.pi / l * d 2 * (x 1 * ρ)) = 0 := by
        linear_combination hdet + (2 * Real.pi / l * d 2 * (x 1 * ρ)) * ρ * t
      have := (mul_eq_zero.mp this).resolve_left hρ.ne'
      linarith)
    ⟨1235123#64, 234121#64⟩ ![a, 1 * (1 - 1000 * F.eps)]
    (fun i => by fin_cases i <;> simp [hq1] <;> constructor <;> linarith) 16
  have hcomp : (Helicoid.ofReal ρ l : Helicoid (Fl F)).computeTUV (cv o) (cv d) (fin a) (fin q) =
      some (Helicoid.clampTUV (out.x 0, (cv o 2 + out.x 0 * cv d 2) / (Helicoid.ofReal ρ l : Helicoid (Fl F)).speed +
        lit (1 / 2), out.x 1)) := by
    unfold Helicoid.computeTUV
    have ea : (cv d 0 * cv d 0 + cv d 1 * cv d 1 : Fl F) = fin (d 0 * d 0 + d 1 * d 1) := by simp only [fl]
    rw [if_neg (by rw [tiny_def, cv_apply, abs_fin, le_fin]; simpa using hd), ea,
      if_neg (by rw [tiny_def, le_fin]; simpa using ha), hvb]
    have hg : (![fin a, fin 1 * (1 - 1000 * eps)] : Vec (Fl F) 2) = cv ![a, 1 * (1 - 1000 * F.eps)] := by
      funext i
      fin_cases i <;> simp [fl]
    have hb : Bounds.init (R := Fl F) ![(fin a, fin q), (fin 0, fin 1)] = some (Bounds.ofReal ![a, 0] ![q, 1] ⟨1235123#64, 234121#64⟩) := by
      unfold Bounds.init
      rw [if_pos (Or.inl rfl)]
      unfold Bounds.ofReal
      congr 2
      funext i
      fin_cases i <;> simp
    dsimp only
    rw [hb, hg]
    simp only [Option.bind_eq_bind, Option.bind_some, hout]
    rfl
  rw [hcomp, Option.map_some]
  refine ⟨_, rfl, fun h => ?_⟩
  obtain ⟨a1, -, -, a4, -⟩ := C69_any_solver _ _ _ _ _ _ (Prod.ext h rfl)
  rw [a1] at a4 ⊢
  rcases hx with hx | ⟨z, hx, hz⟩
  · rw [hx] at a4
    exact absurd a4 (by simp [Helicoid.clampTUV, Vec.nans])
  · exact ⟨z 0, by rw [hx]; rfl, (hz 0).1, (hz 0).2.trans hq2⟩

/-- Non-vacuity of `C69_inside_partial`: radius 1, speed 8, the ray from the origin along `(0, 1, 1)`, range `[0, 1]`. -/
example (junk : Fl exact64) (rec : HitRecord (Fl exact64)) :
    ∃ res, (Helicoid.ofReal 1 8 : Helicoid (Fl exact64)).hit junk ⟨cv ![0, 0, 0], cv ![0, 1, 1]⟩ (fin 0) (fin 1) rec = some res ∧
      (res.1 = true → ∃ t : ℝ, res.2.t = fin t ∧ 0 ≤ t ∧ t ≤ 1) := by
  have ht1 : exact64.tiny < 1 := Fmt.Exact.tiny_lt
  have he : exact64.eps ≤ 1 / 1000 := by unfold exact64; norm_num
  have he0 : 0 < exact64.eps := Fmt.Exact.eps_pos
  refine C69_inside_partial (F := exact64) one_pos (by norm_num) he _ _ (by simpa using ht1) (by simpa using ht1)
    (by simp) (by simp) 0 1 le_rfl zero_le_one ?_ junk rec
  intro t v h1 h2 h3 h4
  have hp := Real.pi_pos
  have hc : 0 < Real.cos (2 * Real.pi / 8 * (0 + t * 1)) := Real.cos_pos_of_mem_Ioo ⟨by nlinarith, by nlinarith⟩
  simp only [cons_val]
  generalize Real.cos (2 * Real.pi / 8 * (0 + t * 1)) = c at hc
  have hm : 0 ≤ 2 * Real.pi / 8 * 1 * (v * 1) := by positivity
  have hm2 : 0 ≤ 2 * Real.pi / 8 * 1 * (v * (1 * c)) := by positivity
  refine ⟨by intro hh; nlinarith, Or.inr ?_⟩
  rw [abs_of_pos (by linarith)]
  nlinarith

/-- C93 fails for the helicoid: for radius 1 and speed 2 and an upward ray outside the enclosing cylinder, `hit` reports a
miss and has overwritten `t`, `u` and `v` with NaN. -/
theorem C93_helicoid_false [F.Exact] (junk : Fl F) (rec : HitRecord (Fl F)) :
    (Helicoid.ofReal 1 2 : Helicoid (Fl F)).hit junk ⟨cv ![5, 0, 0], cv ![0, 0, 1]⟩ (fin 0) (fin 1) rec =
      some (false, { rec with t := Fl.nan, u := Fl.nan, v := Fl.nan }) := by
  have ht0 : (0 : ℝ) ≤ F.tiny := Fmt.Exact.tiny_nonneg
  have ht1 : F.tiny < 1 := Fmt.Exact.tiny_lt
  have hc : (Helicoid.ofReal 1 2 : Helicoid (Fl F)).clip ⟨cv ![5, 0, 0], cv ![0, 0, 1]⟩ (fin 0) (fin 1) = some (fin 0, fin 1) := by
    unfold Helicoid.clip
    dsimp only
    rw [if_neg]
    simp [fl, gt, ht0]
  have hax : (Helicoid.ofReal 1 2 : Helicoid (Fl F)).axialTUV (cv ![5, 0, 0]) (cv ![0, 0, 1]) = none := by
    unfold Helicoid.axialTUV
    dsimp only
    rw [if_pos]
    unfold Helicoid.ofReal
    simp only [fl, cons_val]
    rw [sqrt_fin (by norm_num), div_fin _ one_ne_zero]
    rw [show (5 * 5 + 0 * 0 : ℝ) = 5 ^ 2 by norm_num, Real.sqrt_sq (by norm_num)]
    simp only [fl, gt, Nat.cast_one]
    norm_num
  have hcomp : (Helicoid.ofReal 1 2 : Helicoid (Fl F)).computeTUV (cv ![5, 0, 0]) (cv ![0, 0, 1]) (fin 0) (fin 1) =
      some (Fl.nan, Fl.nan, Fl.nan) := by
    unfold Helicoid.computeTUV
    rw [if_neg (by simp [fl]; exact ht1), if_pos (by simp [fl]; exact ht0), hax]
    rfl
  unfold Helicoid.hit
  rw [hc]
  dsimp only
  rw [hcomp, Option.map_some]
  rfl

/-- C95 fails for the helicoid. `hit` does not compare the entry into the enclosing cylinder with `t_max`, so a caller
that already has a nearer hit makes it search an inverted range, and the assertion `bound.contains(...)` of
newton.hpp:122 fails: radius 1, speed 1, the ray from `(-3, 0, -7/4)` along `(1, 0, 1)`, range `[0, 1]`. -/
theorem C95_helicoid_false [F.Exact] (heps : F.eps ≤ 1 / 2000) (junk : Fl F) (rec : HitRecord (Fl F)) :
    (Helicoid.ofReal 1 1 : Helicoid (Fl F)).hit junk ⟨cv ![-3, 0, -7 / 4], cv ![1, 0, 1]⟩ (fin 0) (fin 1) rec = none := by
  have ht0 : (0 : ℝ) ≤ F.tiny := Fmt.Exact.tiny_nonneg
  have ht1 : F.tiny < 1 := Fmt.Exact.tiny_lt
  have he0 : 0 < F.eps := Fmt.Exact.eps_pos
  have hroots : quadraticRoots (fin 1 : Fl F) (fin (-6)) (fin 8) = [fin 2, fin 4] := by
    rcases quadraticRoots_spec (F := F) 1 (-6) 8 (Or.inr (by simpa using ht1))
      (Or.inr (Or.inr (by rw [abs_neg, abs_of_pos (by norm_num)]; linarith))) (by norm_num) with h | ⟨x, y, hxy, h, h1, h2⟩
    · exact absurd (by norm_num) (h.2 2)
    · obtain ⟨e1, e2⟩ := h1 one_ne_zero
      have hx : (x - 2) * (x - 4) = 0 := by nlinarith
      rcases mul_eq_zero.mp hx with hx | hx
      · obtain rfl : x = 2 := by linarith
        obtain rfl : y = 4 := by linarith
        exact h
      · exfalso; linarith
  have hclip : (Helicoid.ofReal 1 1 : Helicoid (Fl F)).clip ⟨cv ![-3, 0, -7 / 4], cv ![1, 0, 1]⟩ (fin 0) (fin 1) =
      some (fin 2, fin 1) := by
    unfold Helicoid.clip
    dsimp only
    have ea : (cv ![1, 0, 1] 0 * cv ![1, 0, 1] 0 + cv ![1, 0, 1] 1 * cv ![1, 0, 1] 1 : Fl F) = fin 1 := by
      simp [fl]
    have e1 : (2 * (cv ![-3, 0, -7 / 4] 0 * cv ![1, 0, 1] 0 + cv ![-3, 0, -7 / 4] 1 * cv ![1, 0, 1] 1) : Fl F) = fin (-6) := by
      simp [fl]; norm_num
    have e2 : (cv ![-3, 0, -7 / 4] 0 * cv ![-3, 0, -7 / 4] 0 + cv ![-3, 0, -7 / 4] 1 * cv ![-3, 0, -7 / 4] 1 -
        (Helicoid.ofReal 1 1 : Helicoid (Fl F)).radius * (Helicoid.ofReal 1 1 : Helicoid (Fl F)).radius : Fl F) = fin 8 := by
      unfold Helicoid.ofReal
      simp [fl]; norm_num
    rw [ea, if_pos (by simpa [fl, gt] using ht1), e1, e2, hroots]
    dsimp only
    rw [max_fin, min_fin, ray_at_cv, ray_at_cv, cv_apply, cv_apply, min_fin, max_fin]
    unfold Helicoid.ofReal
    simp only [fl, Nat.cast_ofNat, div_fin _ (two_ne_zero (α := ℝ)), gt]
    have z1 : (![-3, 0, -7 / 4] + (min 1 4 : ℝ) • ![1, 0, 1] : Fin 3 → ℝ) 2 = -3 / 4 := by simp; norm_num
    have z2 : (![-3, 0, -7 / 4] + (max 0 2 : ℝ) • ![1, 0, 1] : Fin 3 → ℝ) 2 = 1 / 4 := by simp; norm_num
    rw [z1, z2]
    norm_num
  have hp := Real.two_le_pi
  -- the first Newton step
  have hv : 1 / 2 ≤ 1 - 1000 * F.eps := by linarith
  generalize hvv : 1 - 1000 * F.eps = v at hv
  have hv1 : v ≤ 1 := by linarith
  have hs : 1 - 2 * Real.pi * v ≤ -1 := by nlinarith
  have hcomp : (Helicoid.ofReal 1 1 : Helicoid (Fl F)).computeTUV (cv ![-3, 0, -7 / 4]) (cv ![1, 0, 1]) (fin 2) (fin 1) = none := by
    have hax : ∀ t : ℝ, (Helicoid.ofReal 1 1 : Helicoid (Fl F)).axisDist (cv ![-3, 0, -7 / 4]) (cv ![1, 0, 1]) (fin t) =
        fin |t - 3| := by
      intro t
      rw [Helicoid.axisDist_fin 1 one_pos, fin_inj]
      simp
      rw [show t - 3 = -3 + t by ring]
      first | rw [Real.sqrt_sq_eq_abs] | rw [← sq, Real.sqrt_sq_eq_abs] | skip
    have hvb : (Helicoid.ofReal 1 1 : Helicoid (Fl F)).vbounds (cv ![-3, 0, -7 / 4]) (cv ![1, 0, 1]) (fin 2) (fin 1) =
        (fin 0, fin 1) := by
      unfold Helicoid.vbounds
      rw [if_neg (by unfold Helicoid.inCylinder Helicoid.ofReal; simp [fl]; norm_num)]
      dsimp only
      have etc : (-((cv ![-3, 0, -7 / 4] : Vec (Fl F) 3) 0 * cv ![1, 0, 1] 0 + cv ![-3, 0, -7 / 4] 1 * cv ![1, 0, 1] 1) /
          (cv ![1, 0, 1] 0 * cv ![1, 0, 1] 0 + cv ![1, 0, 1] 1 * cv ![1, 0, 1] 1) : Fl F) = fin 3 := by
        simp only [fl, cons_val]
        rw [div_fin _ (by norm_num)]
        norm_num
      rw [etc, hax, hax, hax]
      simp [fl, gt, abs_of_neg (show (2 - 3 : ℝ) < 0 by norm_num), abs_of_neg (show (1 - 3 : ℝ) < 0 by norm_num)]
      norm_num
    unfold Helicoid.computeTUV
    have ea : (cv ![1, 0, 1] 0 * cv ![1, 0, 1] 0 + cv ![1, 0, 1] 1 * cv ![1, 0, 1] 1 : Fl F) = fin 1 := by simp [fl]
    rw [if_neg (by simpa [fl] using ht1), ea, if_neg (by simpa [fl] using ht1), hvb]
    have hg : (![fin 2, fin 1 * (1 - 1000 * eps)] : Vec (Fl F) 2) = cv ![2, v] := by
      funext i
      fin_cases i <;> simp [fl, hvv]
    have hb : Bounds.init (R := Fl F) ![(fin 2, fin 1), (fin 0, fin 1)] =
        some (Bounds.ofReal ![2, 0] ![1, 1] ⟨1235123#64, 234121#64⟩) := by
      unfold Bounds.init
      rw [if_pos (Or.inl rfl)]
      unfold Bounds.ofReal
      congr 2
      funext i
      fin_cases i <;> simp
    dsimp only
    rw [hb, hg]
    simp only [Option.bind_eq_bind, Option.bind_some]
    generalize (⟨1235123#64, 234121#64⟩ : Pcg) = g
    have hcon : ∀ z : Fin 2 → ℝ, (Bounds.ofReal (F := F) ![2, 0] ![1, 1] g).contains (cv z) = false := by
      intro z
      by_contra hh
      have := (contains_cv _ _ _ _).mp (Bool.eq_true_of_not_eq_false hh) 0
      simp at this
      linarith
    have hf : (Helicoid.ofReal 1 1 : Helicoid (Fl F)).objective (cv ![-3, 0, -7 / 4]) (cv ![1, 0, 1]) (cv ![2, v]) =
        (cv ![-1, v], cm !![1 - 2 * Real.pi * v, 0; 0, 1]) := by
      rw [Helicoid.objective_fin 1 one_pos]
      have e : 2 * Real.pi / 1 * ((![-3, 0, -7 / 4] : Fin 3 → ℝ) 2 + (![2, v] : Fin 2 → ℝ) 0 * (![1, 0, 1] : Fin 3 → ℝ) 2) =
          Real.pi / 2 := by
        simp; ring
      rw [e, Real.cos_pi_div_two, Real.sin_pi_div_two]
      simp
      norm_num
    have hN : newton2 ((Helicoid.ofReal 1 1 : Helicoid (Fl F)).objective (cv ![-3, 0, -7 / 4]) (cv ![1, 0, 1]))
        (Bounds.ofReal ![2, 0] ![1, 1] g) (cv ![2, v]) 16 = none := by
      unfold newton2 newtonN NewtonN.loop
      have hbody : NewtonN.body (fun M v => some (Mat.solve2 M v))
          ((Helicoid.ofReal 1 1 : Helicoid (Fl F)).objective (cv ![-3, 0, -7 / 4]) (cv ![1, 0, 1]))
          (NewtonN.start ((Helicoid.ofReal 1 1 : Helicoid (Fl F)).objective (cv ![-3, 0, -7 / 4]) (cv ![1, 0, 1]))
            (Bounds.ofReal ![2, 0] ![1, 1] g) (cv ![2, v])) = none := by
        unfold NewtonN.body NewtonN.start
        dsimp only
        rw [hf]
        dsimp only
        have hneg : (-(cv ![-1, v]) : Vec (Fl F) 2) = cv ![1, -v] := by
          rw [cv_neg, cv_inj]; simp
        have hS : (1 - 2 * Real.pi * v) ≠ 0 := by linarith
        rw [hneg, solve2_diag hS one_ne_zero, cv_add, hcon]
        obtain ⟨z, g', hz⟩ := random_real (F := F) ![2, 0] ![1, 1] g
        have hl : NewtonN.lambdaMax (Bounds.ofReal (F := F) ![2, 0] ![1, 1] g) (cv ![2, v])
            (cv ![1 / (1 - 2 * Real.pi * v), -v / 1]) (cv (![2, v] + ![1 / (1 - 2 * Real.pi * v), -v / 1])) = fin 0 := by
          have hD : 1 / (1 - 2 * Real.pi * v) < 0 := one_div_neg.mpr (by linarith)
          have hD1 : 0 < -1 / (1 / (1 - 2 * Real.pi * v)) := div_pos_of_neg_of_neg (by norm_num) hD
          generalize 1 / (1 - 2 * Real.pi * v) = D at hD hD1
          unfold NewtonN.lambdaMax Bounds.ofReal
          have e0 : (![2, v] + ![D, -v / 1] : Fin 2 → ℝ) 0 = 2 + D := rfl
          have e1 : (![2, v] + ![D, -v / 1] : Fin 2 → ℝ) 1 = 0 := by simp
          simp only [Fin.foldl_succ, Fin.foldl_zero, cv_apply, ofNat_one, Fin.succ_zero_eq_one, e0, e1]
          simp only [cons_val_zero, cons_val_one, cons_val_fin_one, sub_fin, div_fin _ hD.ne, lt_fin, gt, sub_self, zero_div,
            min_fin, decide_eq_true_eq]
          simp only [show 2 + D < 2 by linarith, lt_irrefl, show ¬ (1 : ℝ) < 0 by norm_num, if_true, if_false,
            min_eq_left (zero_le_one (α := ℝ))]
          split_ifs
          · rw [show (1 : ℝ) - 2 = -1 by norm_num, min_fin, min_eq_right hD1.le]
          · rfl
        rw [hl, hz]
        dsimp only
        rw [hcon]
        simp [fl]
      rw [hbody]
    rw [hN]
    rfl
  unfold Helicoid.hit
  rw [hclip]
  dsimp only
  rw [hcomp]
  rfl

end DRT
