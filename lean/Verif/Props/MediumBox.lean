import Verif.Props.Medium
import Verif.Props.Aabb
import Verif.Props.Png

/-! # C73: the box of a medium; C88: four channels -/

namespace DRT
open Scalar Fl Matrix Vec

variable {F : Fmt}

/-- C73: the bounding box of a medium (constant_medium.hpp:23-25) is the box of its boundary, and holds every point where
the medium scatters if it holds the two points where the ray crosses the boundary. -/
theorem C73_box [F.Exact] (b : Hittable (Fl F)) {k ξ : ℝ} (hk : 0 < k) (h0 : 0 ≤ ξ) (h1 : ξ < 1) (o d : Fin 3 → ℝ)
    {tmin tmax : Fl F} (hmin : isNaN tmin = false) (hmax : isNaN tmax = false) (rec1 rec2 rec : HitRecord (Fl F)) {e x : ℝ}
    (he : (b.hit ⟨cv o, cv d⟩ (-inf) inf rec1).2.t = fin e)
    (hx : (b.hit ⟨cv o, cv d⟩ (fin e + 100 * eps) inf rec2).2.t = fin x) (lo hi : Fin 3 → ℝ)
    (hbox : (ConstantMedium.make b (fin k)).bbox = (true, AABB.ofReal lo hi))
    (hle : ∀ i, lo i ≤ (o + e • d) i ∧ (o + e • d) i ≤ hi i) (hlx : ∀ i, lo i ≤ (o + x • d) i ∧ (o + x • d) i ≤ hi i)
    (hit : ((ConstantMedium.make b (fin k)).hit (fin ξ) rec1 rec2 ⟨cv o, cv d⟩ tmin tmax rec).1 = true) :
    b.bbox = (true, AABB.ofReal lo hi) ∧
    ∃ p : Fin 3 → ℝ, ((ConstantMedium.make b (fin k)).hit (fin ξ) rec1 rec2 ⟨cv o, cv d⟩ tmin tmax rec).2.p = cv p ∧
      ∀ i, lo i ≤ p i ∧ p i ≤ hi i := by
  obtain ⟨-, -, t, -, hp, t1, t2, -, -⟩ := C73_inside b hk h0 h1 o d hmin hmax rec1 rec2 rec he hx hit
  refine ⟨hbox, o + t • d, hp, fun i => ?_⟩
  have e1 := hle i
  have e2 := hlx i
  simp only [Pi.add_apply, Pi.smul_apply, smul_eq_mul] at e1 e2 ⊢
  rcases le_total 0 (d i) with h | h
  · constructor <;> nlinarith
  · constructor <;> nlinarith

/-- C88: with four channels the last one, the opacity, is put through the square root as the colours are: in exact
arithmetic opacity 1/4 becomes 127 of 255. A four-channel colour with nonnegative channels always has a value. -/
theorem C88_alpha_false [F.Exact] (r g b : ℝ) (hr : 0 ≤ r) (hg : 0 ≤ g) (hb : 0 ≤ b) :
    ∃ p, to8bit4 (cv ![r, g, b, 1 / 4] : Vec (Fl F) 4) = some p ∧ (p 3).toNat = 127 ∧ (p 3).toNat ≠ ⌊255 * (1 / 4 : ℝ)⌋₊ := by
  obtain ⟨p0, e0, -⟩ := C88_value (F := F) r hr
  obtain ⟨p1, e1, -⟩ := C88_value (F := F) g hg
  obtain ⟨p2, e2, -⟩ := C88_value (F := F) b hb
  obtain ⟨p3, e3, h3⟩ := C88_value (F := F) (1 / 4) (by norm_num)
  have hs : Real.sqrt (1 / 4) = 1 / 2 := by
    rw [show (1 / 4 : ℝ) = (1 / 2) ^ 2 by norm_num, Real.sqrt_sq (by norm_num)]
  have hf : ⌊255 * (1 / 2 : ℝ)⌋₊ = 127 := by rw [Nat.floor_eq_iff (by norm_num)]; norm_num
  have hf' : ⌊255 * (1 / 4 : ℝ)⌋₊ = 63 := by rw [Nat.floor_eq_iff (by norm_num)]; norm_num
  rw [hs, hf] at h3
  refine ⟨![p0, p1, p2, p3], ?_, h3, ?_⟩
  · unfold to8bit4
    simp only [cv_apply, cons_val, e0, e1, e2, e3]
  · rw [hf']
    show p3.toNat ≠ 63
    rw [h3]; decide

/-- `C73_box` for fog of density 1 in the unit ball, seen from `(0, 0, -3)`. -/
example (b : Hittable (Fl exact64)) (hb : b.hit = (Sphere.ofReal (F := exact64) 0 1).hit)
    (hbox : b.bbox = (true, AABB.ofReal ![-1, -1, -1] ![1, 1, 1])) (rec1 rec2 rec : HitRecord (Fl exact64)) :
    ∃ p : Fin 3 → ℝ, ((ConstantMedium.make b (fin 1)).hit (fin (1 / 2)) rec1 rec2 ⟨cv ![0, 0, -3], cv ![0, 0, 1]⟩ (fin 0) pinf rec).2.p =
      cv p ∧ ∀ i, (![-1, -1, -1] : Fin 3 → ℝ) i ≤ p i ∧ p i ≤ (![1, 1, 1] : Fin 3 → ℝ) i := by
  obtain ⟨b1, he, b2, hx⟩ := mediumExample b hb rec1 rec2
  refine (C73_box b (by norm_num) (by norm_num) (by norm_num) _ _ rfl rfl rec1 rec2 rec he hx _ _ hbox ?_ ?_
    (mediumExample_hit b hb rec1 rec2 rec)).2
  · intro i; fin_cases i <;> (simp; try norm_num)
  · intro i; fin_cases i <;> (simp; try norm_num)

end DRT
