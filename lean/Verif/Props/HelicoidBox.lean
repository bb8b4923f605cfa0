import Verif.Props.Helicoid
import Verif.Props.Aabb

/-! # C69: the bounding box of the helicoid -/

namespace DRT
open Scalar Fl Matrix

variable {F : Fmt}

/-- C69 in exact arithmetic, for all radii and speeds that are not negative: `bounding_box` returns true with the least box that contains all
points of the surface with parameters in the unit square. -/
theorem C69_box [F.Exact] {ρ l : ℝ} (hρ : 0 ≤ ρ) (hl : 0 ≤ l) : ∃ lo hi : Fin 3 → ℝ,
    (Helicoid.ofReal ρ l : Helicoid (Fl F)).bbox = (true, AABB.ofReal lo hi) ∧
    (∀ u v : ℝ, 0 ≤ u → u ≤ 1 → 0 ≤ v → v ≤ 1 → InBox lo hi (helPt ρ l u v)) ∧
    ∀ i, (∃ u v : ℝ, 0 ≤ u ∧ u ≤ 1 ∧ 0 ≤ v ∧ v ≤ 1 ∧ helPt ρ l u v i = lo i) ∧
      ∃ u v : ℝ, 0 ≤ u ∧ u ≤ 1 ∧ 0 ≤ v ∧ v ≤ 1 ∧ helPt ρ l u v i = hi i := by
  refine ⟨![-ρ, -ρ, -l / 2], ![ρ, ρ, l / 2], ?_, fun u v h0 h1 h2 h3 => ?_, fun i => ?_⟩
  · unfold Helicoid.bbox AABB.ofReal Helicoid.ofReal
    congr 2 <;> funext i <;> fin_cases i <;> simp [cv, ofNat_def, div_fin]
  · have key : ∀ c : ℝ, -1 ≤ c → c ≤ 1 → -ρ ≤ ρ * v * c ∧ ρ * v * c ≤ ρ := by
      intro c c1 c2
      have h : |ρ * v * c| ≤ ρ := by
        rw [abs_mul, abs_of_nonneg (mul_nonneg hρ h2)]
        calc ρ * v * |c| ≤ ρ * 1 * 1 := by gcongr; exact abs_le.mpr ⟨c1, c2⟩
          _ = ρ := by ring
      exact abs_le.mp h
    intro i
    fin_cases i
    · exact key _ (Real.neg_one_le_cos _) (Real.cos_le_one _)
    · exact key _ (Real.neg_one_le_sin _) (Real.sin_le_one _)
    · constructor
      · show -l / 2 ≤ l * (u - 1 / 2); nlinarith
      · show l * (u - 1 / 2) ≤ l / 2; nlinarith
  · have e1 : 2 * Real.pi * (1 / 2) = Real.pi := by ring
    have e2 : 2 * Real.pi * (1 / 4) = Real.pi / 2 := by ring
    have e3 : 2 * Real.pi * (3 / 4) = Real.pi / 2 + Real.pi := by ring
    fin_cases i
    · exact ⟨⟨1 / 2, 1, by norm_num, by norm_num, by norm_num, by norm_num, 
        by show ρ * 1 * Real.cos (2 * Real.pi * (1 / 2)) = -ρ; rw [e1, Real.cos_pi]; ring⟩,
        0, 1, by norm_num, by norm_num, by norm_num, by norm_num, by simp [helPt]⟩
    · exact ⟨⟨3 / 4, 1, by norm_num, by norm_num, by norm_num, by norm_num,
        by show ρ * 1 * Real.sin (2 * Real.pi * (3 / 4)) = -ρ; rw [e3, Real.sin_add_pi, Real.sin_pi_div_two]; ring⟩,
        1 / 4, 1, by norm_num, by norm_num, by norm_num, by norm_num,
        by show ρ * 1 * Real.sin (2 * Real.pi * (1 / 4)) = ρ; rw [e2, Real.sin_pi_div_two]; ring⟩
    · exact ⟨⟨0, 0, by norm_num, by norm_num, by norm_num, by norm_num, by show l * (0 - 1 / 2) = -l / 2; ring⟩,
        1, 0, by norm_num, by norm_num, by norm_num, by norm_num, by show l * (1 - 1 / 2) = l / 2; ring⟩

/-- C69: the hits lie in that box up to the distance from the surface that `C69_distance_partial` allows. Missing: hits that are not in the box,
by that distance. -/
theorem C69_hits_in_box_partial [F.Exact] {ρ l : ℝ} (hρ : 0 < ρ) (hl : 0 < l) (o d : Fin 3 → ℝ)
    (hd : F.tiny < d 0 * d 0 + d 1 * d 1 ∨ F.tiny < |d 2|) (junk tmin tmax : Fl F) (rec rec' : HitRecord (Fl F))
    (h1 : isNaN tmin = false) (h2 : isNaN tmax = false) (h3 : tmax ≠ Fl.ninf)
    (h : (Helicoid.ofReal ρ l : Helicoid (Fl F)).hit junk ⟨cv o, cv d⟩ tmin tmax rec = some (true, rec')) :
    ∃ lo hi p : Fin 3 → ℝ, (Helicoid.ofReal ρ l : Helicoid (Fl F)).bbox = (true, AABB.ofReal lo hi) ∧ rec'.p = cv p ∧
      ∃ δ t u v k, δ = 10 * F.eps * helScale ρ l d t u v k ∧ rec'.t = fin t ∧ rec'.u = fin u ∧ rec'.v = fin v ∧
        ∀ i, lo i - δ ≤ p i ∧ p i ≤ hi i + δ := by
  obtain ⟨lo, hi, hb, hin, -⟩ := C69_box (F := F) hρ.le hl.le
  obtain ⟨t, u, v, ht, hu, hv, hu0, hu1, hv0, hv1, hp, ⟨k, hk⟩, -⟩ := C69_distance_partial hρ hl o d hd junk tmin tmax rec rec' h1 h2 h3 h
  refine ⟨lo, hi, _, hb, hp, _, t, u, v, k, rfl, ht, hu, hv, fun i => ?_⟩
  have a := abs_le.mp (hk i)
  have b := hin u v hu0 hu1 hv0 hv1 i
  exact ⟨by linarith, by linarith⟩

/-- Radius 2, speed 3: a point on the side of the box. -/
example : ∃ lo hi : Fin 3 → ℝ, (Helicoid.ofReal 2 3 : Helicoid (Fl exact64)).bbox = (true, AABB.ofReal lo hi) ∧ InBox lo hi ![2, 0, -3 / 2] := by
  obtain ⟨lo, hi, hb, h1, -⟩ := C69_box (F := exact64) (ρ := 2) (l := 3) (by norm_num) (by norm_num)
  have h := h1 0 1 le_rfl zero_le_one zero_le_one le_rfl
  have e : helPt 2 3 0 1 = ![2, 0, -3 / 2] := by unfold helPt; ext i; fin_cases i <;> simp; norm_num
  exact ⟨lo, hi, hb, e ▸ h⟩

/-- The hit of `C69_axial_false` is in the box up to that distance. -/
example (junk : Fl exact64) (rec : HitRecord (Fl exact64)) : ∃ (rec' : HitRecord (Fl exact64)) (lo hi p : Fin 3 → ℝ) (δ : ℝ),
    (Helicoid.ofReal 1 2 : Helicoid (Fl exact64)).hit junk ⟨cv ![1 / 2, 0, 0], cv ![0, 0, 1]⟩ (fin 0) pinf rec = some (true, rec') ∧
      (Helicoid.ofReal 1 2 : Helicoid (Fl exact64)).bbox = (true, AABB.ofReal lo hi) ∧ rec'.p = cv p ∧
      ∀ i, lo i - δ ≤ p i ∧ p i ≤ hi i + δ := by
  have ht : exact64.tiny < 1 := Fmt.Exact.tiny_lt
  obtain ⟨rec', h, -⟩ := C69_axial_false (F := exact64) junk pinf rec
  obtain ⟨lo, hi, p, hb, hp, δ, -, -, -, -, -, -, -, -, hi'⟩ := C69_hits_in_box_partial (F := exact64) one_pos two_pos _ _
    (Or.inr (by simpa using ht)) junk _ _ rec rec' rfl rfl (by simp) h
  exact ⟨rec', lo, hi, p, δ, h, hb, hp, hi'⟩

end DRT
