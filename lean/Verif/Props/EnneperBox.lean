import Verif.Props.Enneper
import Verif.Props.Aabb

/-! # C72: the hits of Enneper's surface lie in its bounding sphere and its bounding box -/

namespace DRT
open Scalar Fl Matrix

variable {F : Fmt}

/-- C72 in exact arithmetic, for all real rays whose direction is not tiny and which do not fall in the window of the root
finder, all ranges without NaN, and whatever the linear solver inside Newton's method answers: the point of a hit lies in the
ball of radius `radius` around the origin, and `bounding_box` returns true with the least box that contains this ball. -/
theorem C72_box [F.Exact] (solve : Mat (Fl F) 3 3 → Vec (Fl F) 3 → Option (Vec (Fl F) 3)) (ρ : ℝ) (hρ : 0 ≤ ρ) (o d : Fin 3 → ℝ)
    (hd : F.tiny < d ⬝ᵥ d) (hb : 2 * (o ⬝ᵥ d) = 0 ∨ F.tiny < |2 * (o ⬝ᵥ d)|) (tmin tmax : Fl F)
    (rec rec' : HitRecord (Fl F)) (h1 : isNaN tmin = false) (h2 : isNaN tmax = false)
    (h : Enneper.hitWith solve (⟨fin ρ⟩ : Enneper (Fl F)) ⟨cv o, cv d⟩ tmin tmax rec = some (true, rec')) :
    ∃ q lo hi : Fin 3 → ℝ, rec'.p = cv q ∧ q ⬝ᵥ q ≤ ρ ^ 2 ∧
      (⟨fin ρ⟩ : Enneper (Fl F)).bbox = (true, AABB.ofReal lo hi) ∧ (∀ q : Fin 3 → ℝ, q ⬝ᵥ q ≤ ρ ^ 2 → InBox lo hi q) ∧
      ∀ i, ∃ a b : Fin 3 → ℝ, a ⬝ᵥ a ≤ ρ ^ 2 ∧ b ⬝ᵥ b ≤ ρ ^ 2 ∧ a i = lo i ∧ b i = hi i := by
  obtain ⟨t, u, v, ht, -, -, -, hp, -⟩ := C72_distance solve ρ o d hd tmin tmax rec rec' h1 h2 h
  have hball : (o + t • d) ⬝ᵥ (o + t • d) ≤ ρ ^ 2 := by
    have hd0 : (0 : ℝ) < d ⬝ᵥ d := lt_of_le_of_lt Fmt.Exact.tiny_nonneg hd
    unfold Enneper.hitWith at h
    dsimp only at h
    rw [cv_squaredNorm, cv_squaredNorm, cv_dot, ofNat_def, mul_fin, mul_fin, sub_fin] at h
    rcases quadraticRoots_spec (F := F) (d ⬝ᵥ d) (2 * (o ⬝ᵥ d)) (o ⬝ᵥ o - ρ * ρ) (Or.inr (by rwa [abs_of_pos hd0])) (Or.inr hb)
      (fun h => hd0.ne' h.1) with ⟨hl, -⟩ | ⟨x, y, hxy, hl, hv, -⟩
    · push_cast at h; rw [hl] at h; simp at h
    · push_cast at h
      rw [hl] at h
      dsimp only at h
      split_ifs at h with q1 q2
      · simp at h
      · simp at h
      · obtain ⟨w, -, hf⟩ := Option.map_eq_some_iff.mp h
        obtain ⟨-, -, -, -, a5, a6, -, -⟩ := C72_any_solver _ _ _ _ _ _ hf
        rw [ht] at a5 a6
        have hx : x ≤ t := by
          unfold Scalar.max at a5
          split_ifs at a5 with c
          · simpa using a5
          · cases tmin with
            | nan => simp at h1
            | fin a => simp at a5 c; linarith
            | ninf => exact absurd (ninf_lt_fin (F := F) x) c
            | pinf => exact absurd (fin_lt_pinf (F := F) t) (by rw [a5]; simp)
        have hy : t ≤ y := by
          unfold Scalar.min at a6
          split_ifs at a6 with c
          · simpa [gt] using a6
          · cases tmax with
            | nan => simp at h2
            | fin a => simp [gt] at a6 c; linarith
            | pinf => exact absurd (fin_lt_pinf (F := F) y) c
            | ninf => exact absurd (ninf_lt_fin (F := F) t) (by rw [gt] at a6; rw [a6]; simp)
        obtain ⟨e1, e2⟩ := hv hd0.ne'
        have e3 : (o + t • d) ⬝ᵥ (o + t • d) - ρ ^ 2 = (d ⬝ᵥ d) * ((t - x) * (t - y)) := by
          simp only [add_dotProduct, dotProduct_add, smul_dotProduct, dotProduct_smul, smul_eq_mul]
          rw [dotProduct_comm d o]
          linear_combination t * e1 - e2
        nlinarith [mul_nonneg (sub_nonneg.mpr hx) (sub_nonneg.mpr hy), mul_nonneg hd0.le (mul_nonneg (sub_nonneg.mpr hx) (sub_nonneg.mpr hy))]
  refine ⟨_, fun _ => -ρ, fun _ => ρ, hp, hball, ?_, ?_, fun i => ⟨Pi.single i (-ρ), Pi.single i ρ, ?_, ?_, by simp, by simp⟩⟩
  · unfold Enneper.bbox AABB.ofReal
    congr 2 <;> funext i <;> fin_cases i <;> simp [cv]
  · intro q hq i
    rw [dotProduct, Fin.sum_univ_three] at hq
    refine abs_le.mp (abs_le_of_sq_le_sq ?_ hρ)
    fin_cases i <;> simp only [Fin.zero_eta, Fin.mk_one, Fin.reduceFinMk] <;> nlinarith [sq_nonneg (q 0), sq_nonneg (q 1), sq_nonneg (q 2)]
  · simp [sq]
  · simp [sq]

/-- The ray down from `(0, 0, 3)` and a solver that finds the origin. -/
example (rec : HitRecord (Fl exact64)) :
    ∃ (rec' : HitRecord (Fl exact64)) (lo hi : Fin 3 → ℝ), rec'.p = cv 0 ∧
      Enneper.hitWith Enneper.jump ⟨fin 4⟩ ⟨cv ![0, 0, 3], cv ![0, 0, -1]⟩ (fin 0) (Scalar.inf : Fl exact64) rec = some (true, rec') ∧
      (⟨fin 4⟩ : Enneper (Fl exact64)).bbox = (true, AABB.ofReal lo hi) ∧ InBox lo hi 0 := by
  have ht : exact64.tiny < 1 := Fmt.Exact.tiny_lt
  obtain ⟨rec', h, hp⟩ := Enneper.jump_hit (F := exact64) rec
  obtain ⟨-, lo, hi, -, -, hbox, hin, -⟩ := C72_box (F := exact64) Enneper.jump 4 (by norm_num) ![0, 0, 3] ![0, 0, -1]
    (by simpa [dotProduct, Fin.sum_univ_three] using ht)
    (Or.inr (by simp [dotProduct, Fin.sum_univ_three]; linarith)) (fin 0) Scalar.inf rec rec' rfl rfl h
  exact ⟨rec', lo, hi, hp, h, hbox, hin 0 (by simp)⟩

end DRT
