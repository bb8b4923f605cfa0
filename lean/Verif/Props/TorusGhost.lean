import Verif.Props.Torus
import Verif.Props.Picture

/-!
# C56: a torus that is hit by a ray through its hole

`quartic_roots` (roots.hpp:159-259) takes the constant term of the depressed polynomial for zero when it is at most the smallest normal number.
-/

namespace DRT
open Scalar Fl Matrix

variable {F : Fmt}

/-- The roots of the quartic of a ray along the axis, just inside the hole. -/
theorem ghost_roots [F.Exact] (s : ℝ) (h1 : s * (8 + s) ≤ F.tiny) (hs : 0 < s) (hs1 : s < 1) :
    quarticRoots (fin 1 : Fl F) (fin (-20)) (fin (150 + 2 * (4 - s))) (fin (-500 - 20 * (4 - s))) (fin (625 + 50 * (4 - s) + s * (8 + s))) =
      [fin 5, fin 5] := by
  have ht : F.tiny < 1 := Fmt.Exact.tiny_lt
  have h0 : 0 ≤ F.tiny := Fmt.Exact.tiny_nonneg
  have hr0 : 0 ≤ s * (8 + s) := by positivity
  unfold quarticRoots
  simp only [fl, Nat.cast_ofNat, Nat.cast_one, Nat.cast_zero]
  rw [if_neg (by simpa using ht), if_neg (by
    rw [decide_eq_true_eq, not_le, abs_of_pos (by nlinarith)]; nlinarith)]
  simp only [div_one, div_fin _ (show (1 : ℝ) ≠ 0 by norm_num), div_fin _ (show (8 : ℝ) ≠ 0 by norm_num), div_fin _ (show (2 : ℝ) ≠ 0 by norm_num),
    div_fin _ (show (4 : ℝ) ≠ 0 by norm_num), div_fin _ (show (16 : ℝ) ≠ 0 by norm_num), div_fin _ (show (256 : ℝ) ≠ 0 by norm_num), fl]
  have e1 : (150 + 2 * (4 - s) - 3 * (-20 * -20) / 8 : ℝ) = 2 * (4 - s) := by ring
  have e2 : (-500 - 20 * (4 - s) - -20 * (150 + 2 * (4 - s)) / 2 + -20 * -20 * -20 / 8 : ℝ) = 0 := by ring
  have e3 : (625 + 50 * (4 - s) + s * (8 + s) - -20 * (-500 - 20 * (4 - s)) / 4 + -20 * -20 * (150 + 2 * (4 - s)) / 16 -
      3 * (-20 * -20) * (-20 * -20) / 256 : ℝ) = s * (8 + s) := by ring
  rw [e1, e2, e3, if_pos (by rw [decide_eq_true_eq, abs_of_nonneg hr0]; exact h1)]
  have hc : cubicRoots (fin 1 : Fl F) (fin 0) (fin (2 * (4 - s))) (fin 0) = [fin 0] := by
    unfold cubicRoots quadraticRoots
    simp only [fl, abs_one, abs_zero, Nat.cast_zero]
    rw [if_neg (by simpa using ht), if_pos (by simpa using h0), if_neg (by simpa using ht), if_pos (by simpa using h0),
      div_fin _ (show (1 : ℝ) ≠ 0 by norm_num), lt_fin, if_pos (by rw [decide_eq_true_eq]; linarith)]
    rfl
  rw [hc]
  norm_num [sortAsc, insertAsc]

/-- C56 fails: there is a ray through the hole of the torus, parallel to its axis, that nowhere meets the torus, and `hit` says that it does. -/
theorem C56_ghost_false [F.Exact] (ht : 0 < F.tiny) : ∃ x : ℝ, 0 < x ∧ x < 1 ∧ (∀ t : ℝ, ![x, 0, -5] + t • ![0, 0, 1] ∉ torusSet 0 2 1) ∧
    ∀ (tmin tmax : Fl F) (rec : HitRecord (Fl F)), InRange (tmin, tmax) 5 → ∃ rec',
      (Torus.ofReal 0 2 1).hit ⟨cv ![x, 0, -5], cv ![0, 0, 1]⟩ tmin tmax rec = (true, rec') ∧ rec'.t = fin 5 ∧ rec'.p = cv ![x, 0, 0] := by
  have he := Fmt.Exact.eps_pos (F := F)
  have he1 := Fmt.Exact.eps_lt (F := F)
  obtain ⟨s, h0, h1, h2, h3⟩ : ∃ s, 0 < s ∧ s ≤ 1 / 9 ∧ 9 * s ≤ F.tiny ∧ 9 * s ≤ F.eps := by
    refine ⟨min F.tiny F.eps / 9, by positivity, ?_, ?_, ?_⟩
    · have := min_le_right F.tiny F.eps; linarith
    · have := min_le_left F.tiny F.eps; linarith
    · have := min_le_right F.tiny F.eps; linarith
  obtain ⟨x, hx⟩ : ∃ x, x = Real.sqrt (1 - s) := ⟨_, rfl⟩
  have hx0 : 0 < x := by rw [hx]; exact Real.sqrt_pos.mpr (by linarith)
  have hxx : x * x = 1 - s := by rw [hx]; exact Real.mul_self_sqrt (by linarith)
  have hx1 : x < 1 := by nlinarith
  refine ⟨x, hx0, hx1, fun t hc => ?_, fun tmin tmax rec hr => ?_⟩
  · rw [← torusF_eq_zero] at hc
    unfold torusF at hc
    simp only [Pi.add_apply, Pi.smul_apply, cons_val_zero, cons_val_one, cons_val, smul_eq_mul, Pi.zero_apply] at hc
    have : (s * (8 + s) : ℝ) + 2 * (4 - s) * (t - 5) ^ 2 + (t - 5) ^ 4 = 0 := by
      rw [← hc]
      linear_combination (-(x ^ 2) + s - 1 + 16 - 2 * 3 - 2 * (t - 5) ^ 2) * hxx
    have h4 : 0 ≤ (4 - s) * (t - 5) ^ 2 := mul_nonneg (by linarith) (sq_nonneg _)
    have h5 : 0 ≤ (t - 5) ^ 4 := by positivity
    nlinarith
  · have hC : torusC 2 1 (![x, 0, -5] - 0) ![0, 0, 1] = ![625 + 50 * (4 - s) + s * (8 + s), -500 - 20 * (4 - s), 150 + 2 * (4 - s), -20, 1] := by
      unfold torusC
      funext i
      match i with
      | 0 => simp [dotProduct, Fin.sum_univ_three, hxx]; ring
      | 1 => simp [dotProduct, Fin.sum_univ_three, hxx]; ring
      | 2 => simp [dotProduct, Fin.sum_univ_three, hxx]; ring
      | 3 => simp [dotProduct, Fin.sum_univ_three]; norm_num
      | 4 => simp [dotProduct, Fin.sum_univ_three]
    have e1 : Torus.signChanges (cv (torusC 2 1 (![x, 0, -5] - 0) ![0, 0, 1]) : Vec (Fl F) 5) = true := by
      rw [hC]; unfold Torus.signChanges; simp [cv_apply]
    have hp : (Torus.ofReal 0 2 1 : Torus (Fl F)).refine ((⟨cv ![x, 0, -5], cv ![0, 0, 1]⟩ : Ray (Fl F)).at (fin 5)) (cv ![0, 0, 1]) = cv ![x, 0, 0] := by
      rw [ray_at_cv, show (![x, 0, -5] + (5 : ℝ) • ![0, 0, 1] : Fin 3 → ℝ) = ![x, 0, 0] by
        ext i; fin_cases i <;> simp]
      have hn : (Torus.ofReal 0 2 1 : Torus (Fl F)).newtonStep (cv ![x, 0, 0]) (cv ![0, 0, 1]) = cv ![x, 0, 0] := by
        unfold Torus.newtonStep Torus.ofReal
        simp only [fl, Nat.cast_ofNat, Scalar.ne, cv_vec3]
        rw [if_neg (by simp [dotProduct, Fin.sum_univ_three])]
      unfold Torus.refine Torus.clampToBox
      rw [hn]
      unfold Torus.ofReal
      simp only [cv_apply, add_fin, sub_fin, Pi.zero_apply, cons_val_zero, cons_val_one, cons_val]
      rw [clamp_fin_of_mem (by linarith) (by linarith), clamp_fin_of_mem (by norm_num) (by norm_num),
        clamp_fin_of_mem (by norm_num) (by norm_num), cv_vec3]
    have hfind : ([fin 5, fin 5] : List (Fl F)).find? (fun z => Scalar.ge z tmin && Scalar.le z tmax) = some (fin 5) := by
      rw [List.find?_cons, Scalar.ge, hr.1, hr.2]; rfl
    have hhit : (Torus.ofReal 0 2 1).hit ⟨cv ![x, 0, -5], cv ![0, 0, 1]⟩ tmin tmax rec =
        (Torus.ofReal 0 2 1 : Torus (Fl F)).finish ⟨cv ![x, 0, -5], cv ![0, 0, 1]⟩ { rec with t := fin 5 } := by
      unfold Torus.hit
      rw [Torus.coeffs_fin]
      dsimp only
      rw [e1, hC]
      simp only [cv_apply, cons_val_zero, cons_val_one, cons_val]
      rw [ghost_roots s (by nlinarith) h0 (by linarith), hfind]
      rfl
    rw [hhit]
    refine ⟨_, Prod.ext ?_ rfl, (congrArg HitRecord.t (Torus.finish_snd _ _ _)).trans rfl, (congrArg HitRecord.p (Torus.finish_snd _ _ _)).trans hp⟩
    rw [Torus.finish_eq]
    dsimp only
    rw [hp, Torus.residual_fin]
    have hk : (Torus.ofReal 0 2 1 : Torus (Fl F)).expectedResidual (cv ![x, 0, 0]) = fin (4 * (1 - s) * (4 + s) * (20 * F.eps)) := by
      unfold Torus.expectedResidual Torus.ofReal
      simp only [fl, Nat.cast_ofNat, Pi.zero_apply, cons_val_zero, cons_val_one, cons_val, fin_inj]
      rw [abs_of_nonpos (a := (x - 0) * _) (by nlinarith)]
      simp
      linear_combination (-4 * (x * x + (1 - s) - 5)) * (20 * F.eps) * hxx
    have hf : torusF 0 2 1 ![x, 0, 0] = s * (8 + s) := by
      unfold torusF
      simp only [cons_val_zero, cons_val_one, cons_val, Pi.zero_apply]
      linear_combination (x ^ 2 + 1 - s - 10) * hxx
    rw [hk, hf, abs_fin, abs_of_nonneg (by positivity), Scalar.gt, lt_fin, if_neg]
    rw [decide_eq_true_eq, not_lt]
    have h4 : s * (8 + s) ≤ F.eps := by nlinarith
    have h5 : 1 ≤ 4 * (1 - s) * (4 + s) * 20 := by nlinarith
    nlinarith

/-- In the double precision numbers without rounding, from the range in which `ray_color` looks. -/
example : ∃ x : ℝ, 0 < x ∧ x < 1 ∧ (∀ t : ℝ, ![x, 0, -5] + t • ![0, 0, 1] ∉ torusSet 0 2 1) ∧ ∀ rec : HitRecord (Fl exact64), ∃ rec',
    (Torus.ofReal 0 2 1).hit ⟨cv ![x, 0, -5], cv ![0, 0, 1]⟩ (1000 * eps) inf rec = (true, rec') := by
  obtain ⟨x, h0, h1, h2, h3⟩ := C56_ghost_false (F := exact64) (by norm_num [exact64])
  refine ⟨x, h0, h1, h2, fun rec => ?_⟩
  obtain ⟨rec', h, -⟩ := h3 (1000 * eps) inf rec ⟨by show Scalar.le (1000 * eps : Fl exact64) (fin 5) = true; rw [offset_exact, le_fin]; norm_num [exact64], rfl⟩
  exact ⟨rec', h⟩

end DRT
