import Verif.Props.Helicoid
import Mathlib.Analysis.Real.Pi.Bounds

/-!
# C157: the condition number of a hit

`helicoid::hit` (helicoid.hpp:461-471) stores a condition number in the record, and helicoid.cpp paints it. Let the target point, where ray
and surface meet, move with the velocity `δ`. Then the parameters `u`, `v` and `t` of the intersection move with a velocity `w`, and the condition number
says how fast.
-/

namespace DRT
open Scalar Fl Matrix

variable {F : Fmt}

/-- If `u`, `v` and `t` move with the velocities `w 0`, `w 1` and `w 2`, the gap between the point of the helicoid and the point of a ray with the
direction `d` moves with the velocity `δ`. -/
def Shifts (ρ l : ℝ) (d : Fin 3 → ℝ) (u v : ℝ) (w δ : Fin 3 → ℝ) : Prop :=
  ∀ i, HasDerivAt (fun s => helPt ρ l (u + s * w 0) (v + s * w 1) i - s * w 2 * d i) (δ i) 0

/-- The matrix of the linear equation. -/
noncomputable def shiftMatrix (ρ l : ℝ) (d : Fin 3 → ℝ) (u v : ℝ) : Matrix (Fin 3) (Fin 3) ℝ :=
  Matrix.of fun i => ![helU ρ l u v i, helV ρ u i, -d i]

theorem shifts_iff (ρ l : ℝ) (d : Fin 3 → ℝ) (u v : ℝ) (w δ : Fin 3 → ℝ) :
    Shifts ρ l d u v w δ ↔ shiftMatrix ρ l d u v *ᵥ w = δ := by
  have h : ∀ i, HasDerivAt (fun s => helPt ρ l (u + s * w 0) (v + s * w 1) i - s * w 2 * d i) ((shiftMatrix ρ l d u v *ᵥ w) i) 0 := by
    intro i
    have hu : HasDerivAt (fun s : ℝ => u + s * w 0) (w 0) 0 := by simpa using ((hasDerivAt_id (0 : ℝ)).mul_const (w 0)).const_add u
    have hv : HasDerivAt (fun s : ℝ => v + s * w 1) (w 1) 0 := by simpa using ((hasDerivAt_id (0 : ℝ)).mul_const (w 1)).const_add v
    have ht : HasDerivAt (fun s : ℝ => s * w 2 * d i) (w 2 * d i) 0 := by
      simpa using ((hasDerivAt_id (0 : ℝ)).mul_const (w 2)).mul_const (d i)
    have h2 : HasDerivAt (fun s : ℝ => 2 * Real.pi * (u + s * w 0)) (2 * Real.pi * w 0) 0 := hu.const_mul _
    have hcos := h2.cos
    have hsin := h2.sin
    have hrv : HasDerivAt (fun s : ℝ => ρ * (v + s * w 1)) (ρ * w 1) 0 := hv.const_mul _
    have hz : HasDerivAt (fun s : ℝ => l * (u + s * w 0 - 1 / 2)) (l * w 0) 0 := (hu.sub_const _).const_mul _
    have e : (shiftMatrix ρ l d u v *ᵥ w) i = helU ρ l u v i * w 0 + helV ρ u i * w 1 - w 2 * d i := by
      unfold shiftMatrix
      simp [mulVec, dotProduct, Fin.sum_univ_three]
      ring
    rw [e]
    fin_cases i
    · refine ((hrv.mul hcos).sub ht).congr_deriv ?_
      simp [helU, helV]
      ring
    · refine ((hrv.mul hsin).sub ht).congr_deriv ?_
      simp [helU, helV]
      ring
    · refine (hz.sub ht).congr_deriv ?_
      simp [helU, helV]
  constructor
  · intro hs
    funext i
    exact (h i).unique (hs i)
  · rintro rfl
    exact h

theorem shiftMatrix_det (ρ l : ℝ) (d : Fin 3 → ℝ) (u v : ℝ) :
    (shiftMatrix ρ l d u v).det = -((helU ρ l u v ⨯₃ helV ρ u) ⬝ᵥ d) := by
  rw [det_fin_three]
  unfold shiftMatrix
  simp [cross_apply, dotProduct, Fin.sum_univ_three]
  ring

theorem Helicoid.fullJac_column {R : Type} [Scalar R] (s : Helicoid R) (r : Ray R) (u v : R) (i : Fin 3) :
    s.fullJac r u v i 0 = s.jac u v i 0 ∧ s.fullJac r u v i 1 = s.jac u v i 1 ∧ s.fullJac r u v i 2 = -(r.dir i) := by
  unfold Helicoid.fullJac
  fin_cases i <;> simp

theorem Helicoid.fullJac_fin [F.Exact] (ρ l : ℝ) (o d : Fin 3 → ℝ) (u v : ℝ) :
    (Helicoid.ofReal ρ l : Helicoid (Fl F)).fullJac ⟨cv o, cv d⟩ (fin u) (fin v) = cm (shiftMatrix ρ l d u v) := by
  funext i j
  obtain ⟨j0, j1⟩ := Helicoid.jac_fin (F := F) ρ l u v i
  obtain ⟨e0, e1, e2⟩ := Helicoid.fullJac_column (Helicoid.ofReal ρ l : Helicoid (Fl F)) ⟨cv o, cv d⟩ (fin u) (fin v) i
  have c : ∀ j, (cm (shiftMatrix ρ l d u v) : Mat (Fl F) 3 3) i j = fin (shiftMatrix ρ l d u v i j) := fun _ => rfl
  have m0 : shiftMatrix ρ l d u v i 0 = helU ρ l u v i := by simp [shiftMatrix]
  have m1 : shiftMatrix ρ l d u v i 1 = helV ρ u i := by simp [shiftMatrix]
  have m2 : shiftMatrix ρ l d u v i 2 = -d i := by simp [shiftMatrix]
  rw [c]
  match j with
  | 0 => rw [m0, e0, j0]
  | 1 => rw [m1, e1, j1]
  | 2 => rw [m2, e2, ← Fl.neg_fin]; rfl

/-- The record that `hit` returns holds the condition number for its own parameters. -/
theorem Helicoid.hit_cond {R : Type} [Scalar R] {s : Helicoid R} {junk tmin tmax : R} {r : Ray R} {rec rec' : HitRecord R}
    (h : s.hit junk r tmin tmax rec = some (true, rec')) : rec'.cond = s.condition r rec' junk := by
  unfold Helicoid.hit at h
  rcases hc : s.clip r tmin tmax with _ | ⟨a, b⟩
  · rw [hc] at h; simp at h
  · rw [hc] at h
    dsimp only at h
    rcases hw : s.computeTUV r.origin r.dir a b with _ | w
    · rw [hw] at h; simp at h
    · rw [hw] at h
      simp only [Option.map_some, Option.some.injEq] at h
      unfold Helicoid.finish at h
      dsimp only at h
      split_ifs at h <;> simp only [Prod.mk.injEq, Bool.false_eq_true, false_and, true_and] at h
      subst h
      rfl

/-- C157: the recorded condition number times the largest of `u`, `v` and `t` is the greatest speed of a parameter when the target point moves with
speed one along one of the axes; in general the parameters move at most three times as fast relative to the largest coordinate of the velocity. -/
theorem C157_speed [F.Exact] (ρ l : ℝ) (o d : Fin 3 → ℝ) (junk tmin tmax : Fl F) (rec rec' : HitRecord (Fl F))
    (h : (Helicoid.ofReal ρ l : Helicoid (Fl F)).hit junk ⟨cv o, cv d⟩ tmin tmax rec = some (true, rec')) {t u v : ℝ}
    (ht : rec'.t = fin t) (hu : rec'.u = fin u) (hv : rec'.v = fin v) (hdet : F.tiny < |(helU ρ l u v ⨯₃ helV ρ u) ⬝ᵥ d|)
    (size : ℝ) (hsize : IsGreatest {u, v, t} size) (hpos : 0 < size) :
    ∃ κ : ℝ, rec'.cond = fin κ ∧
      IsGreatest {x | ∃ i j w, Shifts ρ l d u v w (Pi.single j 1) ∧ x = |w i|} (κ * size) ∧
      ∀ w δ c, Shifts ρ l d u v w δ → (∀ j, |δ j| ≤ c) → ∀ i, |w i| ≤ 3 * (κ * size) * c := by
  have hmax : size = max (max u v) t := by
    obtain ⟨h1, h2⟩ := hsize
    have b1 := h2 (show u ∈ ({u, v, t} : Set ℝ) by simp)
    have b2 := h2 (show v ∈ ({u, v, t} : Set ℝ) by simp)
    have b3 := h2 (show t ∈ ({u, v, t} : Set ℝ) by simp)
    refine le_antisymm ?_ (max_le (max_le b1 b2) b3)
    rcases h1 with h1 | h1 | h1 <;> rw [h1] <;> simp
  obtain ⟨K, hK, hJK, hKJ⟩ : ∃ K : Matrix (Fin 3) (Fin 3) ℝ, Mat.inverseVal3 (cm (shiftMatrix ρ l d u v) : Mat (Fl F) 3 3) = some (cm K) ∧
      shiftMatrix ρ l d u v * K = 1 ∧ K * shiftMatrix ρ l d u v = 1 := by
    obtain ⟨i1, i2, -⟩ := C07_inverse3 (F := F) (shiftMatrix ρ l d u v) (fun _ _ => (Scalar.nan : Fl F))
    have hs := i1.mpr (by rw [shiftMatrix_det, abs_neg]; exact hdet)
    obtain ⟨K, k1, k2, k3⟩ := i2 hs
    refine ⟨K, ?_, k2, k3⟩
    unfold Mat.inverseVal3
    rcases hh : Mat.inverse3 (cm (shiftMatrix ρ l d u v)) (fun _ _ => (Scalar.nan : Fl F)) with ⟨b, x⟩
    rw [hh] at hs k1
    dsimp only at hs k1
    subst hs; subst k1
    rfl
  have hW : ∀ w δ, Shifts ρ l d u v w δ ↔ w = K *ᵥ δ := by
    intro w δ
    rw [shifts_iff]
    constructor
    · rintro rfl; rw [mulVec_mulVec, hKJ, one_mulVec]
    · rintro rfl; rw [mulVec_mulVec, hJK, one_mulVec]
  obtain ⟨m, hm, hm1, k, hm2⟩ := C05_max_norm_finite_partial (F := F) (n := 8) ![K 0 0, K 0 1, K 0 2, K 1 0, K 1 1, K 1 2, K 2 0, K 2 1, K 2 2]
  have hle : ∀ i j, |K i j| ≤ m := by
    intro i j
    fin_cases i <;> fin_cases j
    · exact hm1 0
    · exact hm1 1
    · exact hm1 2
    · exact hm1 3
    · exact hm1 4
    · exact hm1 5
    · exact hm1 6
    · exact hm1 7
    · exact hm1 8
  have hex : ∃ i j, m = |K i j| := by
    fin_cases k
    · exact ⟨0, 0, hm2⟩
    · exact ⟨0, 1, hm2⟩
    · exact ⟨0, 2, hm2⟩
    · exact ⟨1, 0, hm2⟩
    · exact ⟨1, 1, hm2⟩
    · exact ⟨1, 2, hm2⟩
    · exact ⟨2, 0, hm2⟩
    · exact ⟨2, 1, hm2⟩
    · exact ⟨2, 2, hm2⟩
  have hcond : rec'.cond = fin (m / size) := by
    rw [Helicoid.hit_cond h]
    unfold Helicoid.condition
    rw [ht, hu, hv, Helicoid.fullJac_fin, hK, max_fin, max_fin, ← hmax]
    dsimp only
    have e : (![cm K 0 0, cm K 0 1, cm K 0 2, cm K 1 0, cm K 1 1, cm K 1 2, cm K 2 0, cm K 2 1, cm K 2 2] : Fin 9 → Fl F) =
        cv ![K 0 0, K 0 1, K 0 2, K 1 0, K 1 1, K 1 2, K 2 0, K 2 1, K 2 2] := by
      funext i; fin_cases i <;> rfl
    rw [e]
    have e2 : Mat.maxNorm (cv ![K 0 0, K 0 1, K 0 2, K 1 0, K 1 1, K 1 2, K 2 0, K 2 1, K 2 2] : Fin 9 → Fl F) = fin m := hm
    rw [e2, div_fin _ hpos.ne']
  refine ⟨m / size, hcond, ?_, ?_⟩
  · rw [div_mul_cancel₀ _ hpos.ne']
    constructor
    · obtain ⟨i, j, hij⟩ := hex
      exact ⟨i, j, _, (hW _ _).mpr rfl, by rw [hij, mulVec_single_one]; rfl⟩
    · rintro x ⟨i, j, w, hw, rfl⟩
      rw [(hW _ _).mp hw, mulVec_single_one]
      exact hle i j
  · intro w δ c hw hc i
    rw [div_mul_cancel₀ _ hpos.ne', (hW _ _).mp hw]
    simp only [mulVec, dotProduct, Fin.sum_univ_three]
    have hm0 : 0 ≤ m := (abs_nonneg _).trans (hle 0 0)
    have b : ∀ j, |K i j * δ j| ≤ m * c := fun j => by
      rw [abs_mul]; exact mul_le_mul (hle i j) (hc j) (abs_nonneg _) hm0
    have := abs_add_three (K i 0 * δ 0) (K i 1 * δ 1) (K i 2 * δ 2)
    linarith [b 0, b 1, b 2]

/-- C157: the factor is needed. On a helicoid with radius 1 and speed 2 the ray along the axis through `(1/2, 0, 0)` has the condition number 2,
but there is a movement of the target point with coordinates of at most one for which a parameter moves faster than that, relative to the largest
parameter. -/
theorem C157_norm_false [F.Exact] (junk tmax : Fl F) (rec : HitRecord (Fl F)) :
    ∃ rec', (Helicoid.ofReal 1 2 : Helicoid (Fl F)).hit junk ⟨cv ![1 / 2, 0, 0], cv ![0, 0, 1]⟩ (fin 0) tmax rec = some (true, rec') ∧
      rec'.t = fin (-1) ∧ rec'.u = fin 0 ∧ rec'.v = fin (1 / 2) ∧ rec'.cond = fin 2 ∧
      ∃ w δ, Shifts 1 2 ![0, 0, 1] 0 (1 / 2) w δ ∧ (∀ j, |δ j| ≤ 1) ∧ 2 * (1 / 2) < |w 2| := by
  obtain ⟨rec', h1, h2, h3, h4⟩ := Helicoid.axial_hit (F := F) junk tmax rec
  have hπ := Real.pi_gt_three
  have hπ0 := Real.pi_pos
  have hJ : shiftMatrix 1 2 ![0, 0, 1] 0 (1 / 2) = !![0, 1, 0; Real.pi, 0, 0; 2, 0, -1] := by
    ext i j; fin_cases i <;> fin_cases j <;> simp [shiftMatrix, helU, helV]
    ring
  have hS : ∀ w δ, Shifts 1 2 ![0, 0, 1] 0 (1 / 2) w δ ↔ w = ![δ 1 / Real.pi, δ 0, 2 * δ 1 / Real.pi - δ 2] := by
    intro w δ
    rw [shifts_iff, hJ, funext_iff, funext_iff, Fin.forall_fin_succ, Fin.forall_fin_succ, Fin.forall_fin_one, Fin.forall_fin_succ,
      Fin.forall_fin_succ, Fin.forall_fin_one]
    simp [mulVec, dotProduct, Fin.sum_univ_three]
    constructor
    · rintro ⟨a1, a2, a3⟩
      refine ⟨?_, a1, ?_⟩
      · rw [← a2]; field_simp
      · rw [← a2, ← a3]; field_simp; ring
    · rintro ⟨a1, a2, a3⟩
      refine ⟨a2, ?_, ?_⟩
      · rw [a1]; field_simp
      · rw [a1, a3]; field_simp; ring
  have hsize : IsGreatest ({0, 1 / 2, -1} : Set ℝ) (1 / 2) := by
    refine ⟨by simp, ?_⟩
    rintro x (rfl | rfl | rfl) <;> norm_num
  obtain ⟨κ, hκ, ⟨⟨i, j, w, hw, he⟩, hup⟩, -⟩ := C157_speed 1 2 _ _ junk (fin 0) tmax rec rec' h1 h2 h3 h4 (by
      have : (helU 1 2 0 (1 / 2) ⨯₃ helV 1 0) ⬝ᵥ ![0, 0, 1] = -Real.pi := by
        simp [helU, helV, cross_apply, dotProduct, Fin.sum_univ_three]
        ring
      rw [this, abs_neg, abs_of_pos hπ0]
      linarith [Fmt.Exact.tiny_lt (F := F)]) (1 / 2) hsize (by norm_num)
  have hκ2 : κ = 2 := by
    have h5 : (1 : ℝ) ≤ κ * (1 / 2) := hup ⟨1, 0, _, (hS _ (Pi.single 0 1)).mpr rfl, by simp⟩
    have h6 : κ * (1 / 2) ≤ 1 := by
      rw [he, (hS _ _).mp hw]
      have d1 : Real.pi⁻¹ ≤ 1 := by rw [inv_le_one₀ hπ0]; linarith
      have d2 : 2 / Real.pi ≤ 1 := by rw [div_le_one hπ0]; linarith
      have d3 : 0 < Real.pi⁻¹ := by positivity
      have d4 : 0 < 2 / Real.pi := by positivity
      rw [abs_le]
      fin_cases i <;> fin_cases j <;> simp <;> constructor
      all_goals linarith
    linarith
  subst hκ2
  refine ⟨rec', h1, h2, h3, h4, hκ, ![1 / Real.pi, 0, 2 * 1 / Real.pi - (-1)], ![0, 1, -1], (hS _ _).mpr (by simp), ?_, ?_⟩
  · intro j; fin_cases j <;> simp
  · show _ < |2 * 1 / Real.pi - (-1)|
    have : 0 < 2 * 1 / Real.pi := by positivity
    rw [abs_of_pos (by linarith)]
    linarith

/-- The record of that ray meets the hypotheses of `C157_speed`. -/
example (junk tmax : Fl exact64) (rec : HitRecord (Fl exact64)) : ∃ rec' κ, (Helicoid.ofReal 1 2 : Helicoid (Fl exact64)).hit junk
    ⟨cv ![1 / 2, 0, 0], cv ![0, 0, 1]⟩ (fin 0) tmax rec = some (true, rec') ∧ rec'.cond = fin κ ∧
    IsGreatest {x | ∃ i j w, Shifts 1 2 ![0, 0, 1] 0 (1 / 2) w (Pi.single j 1) ∧ x = |w i|} (κ * (1 / 2)) := by
  obtain ⟨rec', h1, h2, h3, h4⟩ := Helicoid.axial_hit (F := exact64) junk tmax rec
  obtain ⟨κ, hκ, hg, -⟩ := C157_speed 1 2 _ _ junk (fin 0) tmax rec rec' h1 h2 h3 h4 (by
      have : (helU 1 2 0 (1 / 2) ⨯₃ helV 1 0) ⬝ᵥ ![0, 0, 1] = -Real.pi := by
        simp [helU, helV, cross_apply, dotProduct, Fin.sum_univ_three]
        ring
      rw [this, abs_neg, abs_of_pos Real.pi_pos]
      linarith [Fmt.Exact.tiny_lt (F := exact64), Real.pi_gt_three]) (1 / 2)
    ⟨by simp, by rintro x (rfl | rfl | rfl) <;> norm_num⟩ (by norm_num)
  exact ⟨rec', κ, h1, hκ, hg⟩

end DRT
