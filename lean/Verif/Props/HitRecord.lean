import Verif.Model.Hittable
import Verif.Lemmas.Vec
import Verif.Lemmas.Roots
import Verif.Scalar.IEEE
import Mathlib.LinearAlgebra.Matrix.NonsingularInverse
import Mathlib.LinearAlgebra.Matrix.Trace

/-! # C37, C38: hit records -/

namespace DRT
open Scalar Fl Matrix

variable {F : Fmt}

/-- C37, any rounding: the stored normal is the given one or its negative, and `front_face` says which; the other
fields keep their contents. -/
theorem C37_either (rec : HitRecord (Fl F)) (r : Ray (Fl F)) (m : Vec (Fl F) 3) :
    let rec' := rec.setFaceNormal r m
    (rec'.frontFace = true → rec'.normal = m) ∧ (rec'.frontFace = false → rec'.normal = -m) ∧
    (rec'.frontFace = true ↔ Scalar.lt (Vec.dot r.dir m) 0 = true) ∧
    rec' = { rec with normal := rec'.normal, frontFace := rec'.frontFace } := by
  unfold HitRecord.setFaceNormal
  refine ⟨fun h => if_pos h, fun h => if_neg (by simpa using h), Iff.rfl, rfl⟩

/-- C37: the stored normal never points along the ray, and `front_face` is true iff the given normal opposes it. -/
theorem C37_opposes [F.Exact] (rec : HitRecord (Fl F)) (o d m : Fin 3 → ℝ) :
    let rec' := rec.setFaceNormal ⟨cv o, cv d⟩ (cv m)
    ∃ m' : Fin 3 → ℝ, rec'.normal = cv m' ∧ d ⬝ᵥ m' ≤ 0 ∧ (m' = m ∨ m' = -m) ∧
      (rec'.frontFace = true ↔ d ⬝ᵥ m < 0) := by
  unfold HitRecord.setFaceNormal
  simp only [cv_dot, ofNat_zero, lt_fin, decide_eq_true_eq]
  by_cases h : d ⬝ᵥ m < 0
  · exact ⟨m, by rw [if_pos h], h.le, Or.inl rfl, by simp⟩
  · exact ⟨-m, by rw [if_neg h, cv_neg], by rw [dotProduct_neg]; linarith, Or.inr rfl, by simp⟩

example : (HitRecord.setFaceNormal (HitRecord.default (R := Fl exact64) Vec.nans Vec.nans true)
    ⟨cv ![0,0,0], cv ![0,0,1]⟩ (cv ![0,0,1])).frontFace = false := by
  obtain ⟨m', -, -, -, h⟩ := C37_opposes (F := exact64) (HitRecord.default Vec.nans Vec.nans true) ![0,0,0] ![0,0,1] ![0,0,1]
  rw [← Bool.not_eq_true]
  intro hc
  have := h.mp hc
  simp [dotProduct, Fin.sum_univ_three] at this
  linarith

/-! ## C38 -/

/-- A record whose fundamental forms have the given real coefficients. -/
def withForms (rec : HitRecord (Fl F)) (E Fm G e f g : ℝ) : HitRecord (Fl F) :=
  { rec with E := fin E, F := fin Fm, G := fin G, e := fin e, f := fin f, g := fin g }

/-- C38: for a positive definite first form, the reported curvatures are half the trace and the determinant of the
shape operator, which is the product of the inverse first form and the second form. -/
theorem C38_shape_operator [F.Exact] (rec : HitRecord (Fl F)) (E Fm G e f g : ℝ) (hpos : 0 < E * G - Fm * Fm) :
    let S : Matrix (Fin 2) (Fin 2) ℝ := (!![E, Fm; Fm, G])⁻¹ * !![e, f; f, g]
    (withForms rec E Fm G e f g).gaussianCurvature = fin S.det ∧
    (withForms rec E Fm G e f g).meanCurvature = fin (S.trace / 2) := by
  have hne := hpos.ne'
  have hI : (!![E, Fm; Fm, G] : Matrix (Fin 2) (Fin 2) ℝ)⁻¹ =
      (E * G - Fm * Fm)⁻¹ • !![G, -Fm; -Fm, E] := by
    rw [Matrix.inv_def, det_fin_two_of, adjugate_fin_two_of, Ring.inverse_eq_inv']
  dsimp only
  rw [hI]
  obtain ⟨D, hD⟩ : ∃ D, D = E * G - Fm * Fm := ⟨_, rfl⟩
  rw [← hD] at hne ⊢
  constructor
  · simp only [HitRecord.gaussianCurvature, withForms, fl]
    rw [← hD, div_fin _ hne, fin_inj, det_mul, det_smul, det_fin_two_of, det_fin_two_of]
    simp only [Fintype.card_fin]
    field_simp
    rw [hD]; ring
  · simp only [HitRecord.meanCurvature, withForms, fl]
    rw [← hD, div_fin _ (by simpa using hne), fin_inj, smul_mul, trace_smul, trace_fin_two]
    simp [Matrix.mul_apply, Fin.sum_univ_two]
    field_simp
    ring

/-- The forms of a sphere of radius 2 at a point where `E = 4`, `G = 1`: both curvatures follow. -/
example (rec : HitRecord (Fl exact64)) : (withForms rec 4 0 1 2 0 (1 / 2)).gaussianCurvature = fin (1 / 4) ∧
    (withForms rec 4 0 1 2 0 (1 / 2)).meanCurvature = fin (1 / 2) := by
  have h := C38_shape_operator rec 4 0 1 2 0 (1 / 2) (by norm_num)
  have hI : (!![4, 0; 0, 1] : Matrix (Fin 2) (Fin 2) ℝ)⁻¹ = !![1 / 4, 0; 0, 1] := by
    refine Matrix.inv_eq_right_inv ?_
    ext i j; fin_cases i <;> fin_cases j <;> simp [Matrix.mul_apply, Fin.sum_univ_two]
  dsimp only at h
  rw [hI] at h
  rw [h.1, h.2]
  constructor <;> (congr 1; simp [Matrix.det_fin_two, Matrix.trace, Fin.sum_univ_two] <;> norm_num)

/-- Real principal curvatures exist: the discriminant `H² - K` is nonnegative. -/
theorem mean_sq_ge {E Fm G e f g : ℝ} (hE : 0 < E) (hpos : 0 < E * G - Fm * Fm) :
    (e * g - f * f) * (4 * (E * G - Fm * Fm)) ≤ (e * G - 2 * f * Fm + g * E) ^ 2 := by
  have key : E ^ 2 * ((e * G - 2 * f * Fm + g * E) ^ 2 - (e * g - f * f) * (4 * (E * G - Fm * Fm))) =
      4 * (E * G - Fm * Fm) * (E * f - Fm * e) ^ 2 + (E * (E * g - G * e) - 2 * Fm * (E * f - Fm * e)) ^ 2 := by ring
  have h1 : 0 ≤ E ^ 2 * ((e * G - 2 * f * Fm + g * E) ^ 2 - (e * g - f * f) * (4 * (E * G - Fm * Fm))) := by
    rw [key]; positivity
  have h2 := nonneg_of_mul_nonneg_right h1 (by positivity)
  linarith

/-- C38: `principal_curvatures()` are two ordered real numbers, the roots of `det(II - k I) = 0`, with sum `2H` and
product `K`, for every positive definite first form. Missing: mean curvature in the window `0 < |2H| ≤ min()`. -/
theorem C38_principal_partial [F.Exact] (rec : HitRecord (Fl F)) (E Fm G e f g : ℝ) (hE : 0 < E)
    (hpos : 0 < E * G - Fm * Fm)
    (hw : e * G - 2 * f * Fm + g * E = 0 ∨ F.tiny < |(e * G - 2 * f * Fm + g * E) / (E * G - Fm * Fm)|) :
    ∃ k1 k2 : ℝ, (withForms rec E Fm G e f g).principalCurvatures = (fin k1, fin k2) ∧ k1 ≤ k2 ∧
      (withForms rec E Fm G e f g).meanCurvature = fin ((k1 + k2) / 2) ∧
      (withForms rec E Fm G e f g).gaussianCurvature = fin (k1 * k2) ∧
      ∀ k, (!![e - k * E, f - k * Fm; f - k * Fm, g - k * G] : Matrix (Fin 2) (Fin 2) ℝ).det = 0 ↔ k = k1 ∨ k = k2 := by
  have hge := mean_sq_ge (e := e) (f := f) (g := g) hE hpos
  have hne := hpos.ne'
  have hH : (withForms rec E Fm G e f g).meanCurvature =
      fin ((e * G - 2 * f * Fm + g * E) / (2 * (E * G - Fm * Fm))) := by
    simp only [HitRecord.meanCurvature, withForms, fl]
    rw [div_fin _ (by simpa using hne)]; norm_num
  have hK : (withForms rec E Fm G e f g).gaussianCurvature = fin ((e * g - f * f) / (E * G - Fm * Fm)) := by
    simp only [HitRecord.gaussianCurvature, withForms, fl]
    rw [div_fin _ hne]
  obtain ⟨D, hD⟩ : ∃ D, D = E * G - Fm * Fm := ⟨_, rfl⟩
  obtain ⟨N, hN⟩ : ∃ N, N = e * G - 2 * f * Fm + g * E := ⟨_, rfl⟩
  rw [← hD] at hpos hne hH hK hge hw
  rw [← hN] at hH hge hw
  have hb : (-2 : Fl F) * fin (N / (2 * D)) = fin (-(N / D)) := by
    have : (-2 : Fl F) = fin (-2) := by rw [ofNat_def]; simp
    rw [this, mul_fin, fin_inj]; field_simp
  have h1 : F.tiny < |(1:ℝ)| := by rw [abs_one]; exact Fmt.Exact.tiny_lt
  have hspec := quadraticRoots_spec (F := F) 1 (-(N / D)) ((e * g - f * f) / D) (Or.inr h1)
    (Or.inr (by rcases hw with h | h
                · left; rw [h]; simp
                · right; rwa [abs_neg])) (by norm_num)
  have hdet : ∀ k, (!![e - k * E, f - k * Fm; f - k * Fm, g - k * G] : Matrix (Fin 2) (Fin 2) ℝ).det = 0 ↔
      1 * k ^ 2 + -(N / D) * k + (e * g - f * f) / D = 0 := by
    intro k
    rw [det_fin_two_of]
    have : (e - k * E) * (g - k * G) - (f - k * Fm) * (f - k * Fm) =
        D * (1 * k ^ 2 + -(N / D) * k + (e * g - f * f) / D) := by
      field_simp; rw [hD, hN]; ring
    rw [this, mul_eq_zero]
    exact ⟨fun h => h.resolve_left hne, Or.inr⟩
  rcases hspec with ⟨-, hno⟩ | ⟨x, y, hxy, hl, hf, hiff⟩
  · exfalso
    have hdisc : 0 ≤ (N / D) ^ 2 - 4 * ((e * g - f * f) / D) := by
      have : (N / D) ^ 2 - 4 * ((e * g - f * f) / D) = (N ^ 2 - (e * g - f * f) * (4 * D)) / D ^ 2 := by field_simp
      rw [this]
      exact div_nonneg (by linarith) (by positivity)
    refine hno ((N / D + √((N / D) ^ 2 - 4 * ((e * g - f * f) / D))) / 2) ?_
    have := Real.sq_sqrt hdisc
    generalize √((N / D) ^ 2 - 4 * ((e * g - f * f) / D)) = s at *
    linear_combination this / 4
  · obtain ⟨hs, hp⟩ := hf one_ne_zero
    refine ⟨x, y, ?_, hxy, ?_, ?_, fun k => by rw [hdet, hiff]⟩
    · unfold HitRecord.principalCurvatures
      rw [hH, hb, hK, ofNat_one, hl]
    · rw [hH, fin_inj]
      have : x + y = N / D := by linarith
      rw [this]; field_simp
    · rw [hK, fin_inj]; linarith

/-- A sphere of radius 2 in its own coordinates: `I = diag(4,4)`, `II = diag(2,2)`. -/
example : ∃ k1 k2 : ℝ, (withForms (HitRecord.default (R := Fl exact64) Vec.nans Vec.nans true) 4 0 4 2 0 2).principalCurvatures =
    (fin k1, fin k2) ∧ (withForms (HitRecord.default (R := Fl exact64) Vec.nans Vec.nans true) 4 0 4 2 0 2).gaussianCurvature = fin (k1 * k2) := by
  obtain ⟨k1, k2, h, -, -, hK, -⟩ := C38_principal_partial (F := exact64) (HitRecord.default Vec.nans Vec.nans true) 4 0 4 2 0 2
    (by norm_num) (by norm_num) (Or.inr (by
      have : exact64.tiny < 1 := Fmt.Exact.tiny_lt
      norm_num; linarith))
  exact ⟨k1, k2, h, hK⟩

/-- C38 fails in the window: a surface with both principal curvatures equal to `tiny/2` (a huge sphere) is reported to
have NaN principal curvatures. -/
theorem C38_window_false [F.Exact] (ht : 0 < F.tiny) (rec : HitRecord (Fl F)) :
    (withForms rec 1 0 1 (F.tiny / 2) 0 (F.tiny / 2)).principalCurvatures = (Fl.nan, Fl.nan) := by
  have h1 : F.tiny < 1 := Fmt.Exact.tiny_lt
  have hH : (withForms rec 1 0 1 (F.tiny / 2) 0 (F.tiny / 2)).meanCurvature = fin (F.tiny / 2) := by
    simp only [HitRecord.meanCurvature, withForms, fl]
    rw [div_fin _ (by norm_num), fin_inj]; norm_num
  have hK : (withForms rec 1 0 1 (F.tiny / 2) 0 (F.tiny / 2)).gaussianCurvature = fin (F.tiny / 2 * (F.tiny / 2)) := by
    simp only [HitRecord.gaussianCurvature, withForms, fl]
    rw [div_fin _ (by norm_num), fin_inj]; norm_num
  unfold HitRecord.principalCurvatures
  have hb : (-2 : Fl F) * fin (F.tiny / 2) = fin (-F.tiny) := by
    have : (-2 : Fl F) = fin (-2) := by rw [ofNat_def]; simp
    rw [this, mul_fin, fin_inj]; ring
  rw [hH, hK, hb]
  have hneg : -(F.tiny / 2 * (F.tiny / 2)) < 0 := by nlinarith
  have : quadraticRoots (1 : Fl F) (fin (-F.tiny)) (fin (F.tiny / 2 * (F.tiny / 2))) = [] := by
    rw [ofNat_one]
    unfold quadraticRoots
    simp only [tiny_def, abs_fin, abs_one, le_fin, abs_neg, abs_of_pos ht, Fl.neg_fin, div_fin _ one_ne_zero, div_one,
      ofNat_zero, lt_fin]
    rw [if_neg (by simpa using h1), if_pos (by simp), if_pos (by simpa using hneg)]
  rw [this]
  rfl

end DRT
