import Verif.Model.Material
import Verif.Props.Vec

/-! # C76-C79: `metal`, `dielectric`, `diffuse_light` and the textures -/

namespace DRT
open Scalar Fl Matrix

variable {F : Fmt}

/-- `w` is the mirror image of `u` at the plane with unit normal `n`. -/
def Mirrors (n u w : Fin 3 → ℝ) : Prop := w ⬝ᵥ n = -(u ⬝ᵥ n) ∧ w ⨯₃ n = u ⨯₃ n

/-- Snell's law in vector form: `w` is on the far side of the surface with unit normal `n`; it has the same
direction along the surface as `u`; and the sine of its angle to the normal is `ratio` times that of `u`. -/
def Refracts (n u w : Fin 3 → ℝ) (ratio : ℝ) : Prop := w ⬝ᵥ n ≤ 0 ∧ w ⨯₃ n = ratio • (u ⨯₃ n)

/-- The direction `d` has length `‖d‖ > 0` and unit direction `u`. -/
def UnitOf (d u : Fin 3 → ℝ) : Prop := u ⬝ᵥ u = 1 ∧ ∃ c : ℝ, 0 < c ∧ d = c • u

theorem normalize_unitOf [F.Exact] {d u : Fin 3 → ℝ} (h : UnitOf d u) : Vec.normalize (cv d : Vec (Fl F) 3) = cv u := by
  obtain ⟨h1, c, hc, rfl⟩ := h
  have hn : Real.sqrt ((c • u) ⬝ᵥ (c • u)) = c := by
    rw [smul_dotProduct, dotProduct_smul, h1, smul_eq_mul, smul_eq_mul, mul_one, Real.sqrt_mul_self hc.le]
  funext i
  simp only [Vec.normalize, cv_norm, hn, cv_apply, div_fin _ hc.ne', Pi.smul_apply, smul_eq_mul]
  rw [fin_inj, mul_div_cancel_left₀ _ hc.ne']

theorem reflect_mirrors (u n : Fin 3 → ℝ) (hn : n ⬝ᵥ n = 1) : Mirrors n u (u - (2 * (u ⬝ᵥ n)) • n) := by
  constructor
  · rw [sub_dotProduct, smul_dotProduct, hn, smul_eq_mul]; ring
  · rw [LinearMap.map_sub₂, LinearMap.map_smul₂, cross_self, smul_zero, sub_zero]

theorem Mirrors.unit {n u w : Fin 3 → ℝ} (hn : n ⬝ᵥ n = 1) (h : Mirrors n u w) : w ⬝ᵥ w = u ⬝ᵥ u := by
  have e : ∀ a : Fin 3 → ℝ, a ⬝ᵥ a = (a ⬝ᵥ n) ^ 2 + (a ⨯₃ n) ⬝ᵥ (a ⨯₃ n) := by
    intro a
    rw [cross_dot_cross, hn, dotProduct_comm n a]; ring
  rw [e w, e u, h.1, h.2]; ring

/-- A vector is determined by its component along `n` and its cross product with `n`; so `Mirrors` determines the image. -/
theorem Mirrors.unique {n u w w' : Fin 3 → ℝ} (hn : n ⬝ᵥ n = 1) (h : Mirrors n u w) (h' : Mirrors n u w') : w = w' := by
  have h1 : (w - w') ⬝ᵥ n = 0 := by rw [sub_dotProduct, h.1, h'.1]; ring
  have h2 : (w - w') ⨯₃ n = 0 := by rw [LinearMap.map_sub₂, h.2, h'.2, sub_self]
  have h3 : (w - w') ⬝ᵥ (w - w') = 0 := by
    have : (w - w') ⬝ᵥ (w - w') = ((w - w') ⬝ᵥ n) ^ 2 + ((w - w') ⨯₃ n) ⬝ᵥ ((w - w') ⨯₃ n) := by
      rw [cross_dot_cross, hn, dotProduct_comm n]; ring
    rw [this, h1, h2]; simp
  exact sub_eq_zero.mp (dotProduct_self_eq_zero.mp h3)

/-! ## C76 -/

/-- C76: `metal::scatter` yields a ray from the hit point whose unit direction is the mirror image of the unit incoming
direction; it returns true exactly when the incoming ray runs against the normal. -/
theorem C76_metal [F.Exact] (albedo : Texture (Fl F)) (o d u n : Fin 3 → ℝ) (hu : UnitOf d u) (rec : HitRecord (Fl F))
    (hr : rec.normal = cv n) (hn : n ⬝ᵥ n = 1) :
    ∃ w : Fin 3 → ℝ, (Metal.scatter albedo ⟨cv o, cv d⟩ rec).ray = some ⟨rec.p, cv w⟩ ∧ Mirrors n u w ∧ w ⬝ᵥ w = 1 ∧
      (Metal.scatter albedo ⟨cv o, cv d⟩ rec).attenuation = some (albedo rec) ∧
      ((Metal.scatter albedo ⟨cv o, cv d⟩ rec).ok = true ↔ 0 < w ⬝ᵥ n) ∧
      ((Metal.scatter albedo ⟨cv o, cv d⟩ rec).ok = true ↔ d ⬝ᵥ n < 0) := by
  have hm := reflect_mirrors u n hn
  have e : Metal.scatter albedo ⟨cv o, cv d⟩ rec = ⟨gt (Vec.dot (cv (u - (2 * (u ⬝ᵥ n)) • n) : Vec (Fl F) 3) (cv n)) 0, some (albedo rec),
      some ⟨rec.p, cv (u - (2 * (u ⬝ᵥ n)) • n)⟩⟩ := by
    unfold Metal.scatter
    simp only [normalize_unitOf hu, hr, cv_reflect]
  have hok : (gt (Vec.dot (cv (u - (2 * (u ⬝ᵥ n)) • n) : Vec (Fl F) 3) (cv n)) 0 = true) ↔ 0 < (u - (2 * (u ⬝ᵥ n)) • n) ⬝ᵥ n := by
    rw [cv_dot, gt, ofNat_zero]; simp
  refine ⟨u - (2 * (u ⬝ᵥ n)) • n, by rw [e], hm, by rw [hm.unit hn, hu.1], by rw [e], by rw [e]; exact hok, ?_⟩
  rw [e]
  refine hok.trans ?_
  rw [hm.1]
  obtain ⟨-, c, hc, rfl⟩ := hu
  rw [smul_dotProduct, smul_eq_mul]
  constructor
  · intro h; nlinarith
  · intro h; nlinarith

example (rec : HitRecord (Fl exact64)) (hr : rec.normal = cv ![0, 0, 1]) :
    (Metal.scatter (solidColor (cv ![1, 1, 1])) ⟨cv ![0, 0, 5], cv ![3, 0, -4]⟩ rec).ok = true := by
  obtain ⟨w, -, -, -, -, -, h⟩ := C76_metal (solidColor (cv ![1, 1, 1])) ![0, 0, 5] ![3, 0, -4] ![3 / 5, 0, -4 / 5] ![0, 0, 1]
    ⟨by simp [dotProduct, Fin.sum_univ_three]; norm_num, 5, by norm_num, by ext i; fin_cases i <;> simp <;> norm_num⟩ rec hr
    (by simp [dotProduct, Fin.sum_univ_three])
  rw [h]
  simp [dotProduct, Fin.sum_univ_three]

/-! ## C77 -/

/-- C77: `refract` on unit vectors that face each other, when the sine of the refracted angle is at most 1: the result
has unit length and obeys Snell's law. -/
theorem C77_refract [F.Exact] (u n : Fin 3 → ℝ) (ratio : ℝ) (hu : u ⬝ᵥ u = 1) (hn : n ⬝ᵥ n = 1)
    (hs : ratio ^ 2 * (1 - (u ⬝ᵥ n) ^ 2) ≤ 1) :
    ∃ w : Fin 3 → ℝ, refract (cv u : Vec (Fl F) 3) (cv n) (fin ratio) = cv w ∧ w ⬝ᵥ w = 1 ∧ Refracts n u w ratio := by
  have hcs : (u ⬝ᵥ n) ^ 2 ≤ 1 := by
    have h := dotProduct_self_nonneg' (u ⨯₃ n)
    rw [cross_dot_cross, hu, hn, dotProduct_comm n u] at h
    nlinarith
  have hc1 : -(u ⬝ᵥ n) ≤ 1 := by nlinarith
  have hperp : (u + (-(u ⬝ᵥ n)) • n) ⬝ᵥ n = 0 := by
    rw [add_dotProduct, smul_dotProduct, hn, smul_eq_mul]; ring
  have hpp : (u + (-(u ⬝ᵥ n)) • n) ⬝ᵥ (u + (-(u ⬝ᵥ n)) • n) = 1 - (u ⬝ᵥ n) ^ 2 := by
    rw [dotProduct_add, dotProduct_smul, hperp, smul_zero, add_zero, add_dotProduct, smul_dotProduct, hu, dotProduct_comm n u,
      smul_eq_mul]
    ring
  set q := u + (-(u ⬝ᵥ n)) • n with hq
  set S := Real.sqrt (1 - ratio ^ 2 * (1 - (u ⬝ᵥ n) ^ 2)) with hS
  have hS2 : S * S = 1 - ratio ^ 2 * (1 - (u ⬝ᵥ n) ^ 2) := Real.mul_self_sqrt (by linarith)
  have hS0 : 0 ≤ S := Real.sqrt_nonneg _
  refine ⟨ratio • q + (-S) • n, ?_, ?_, ?_, ?_⟩
  · unfold refract
    have e1 : Scalar.min (Vec.dot (-(cv u : Vec (Fl F) 3)) (cv n)) (fin 1) = fin (-(u ⬝ᵥ n)) := by
      rw [cv_neg, cv_dot, neg_dotProduct, min_fin, min_eq_left hc1]
    have e2 : (ratio • q) ⬝ᵥ (ratio • q) = ratio ^ 2 * (1 - (u ⬝ᵥ n) ^ 2) := by
      rw [smul_dotProduct, dotProduct_smul, hpp, smul_eq_mul, smul_eq_mul]; ring
    simp only [ofNat_one, e1, cv_smul, cv_add, ← hq, cv_squaredNorm, e2, sub_fin, abs_fin]
    rw [abs_of_nonneg (by linarith : 0 ≤ 1 - ratio ^ 2 * (1 - (u ⬝ᵥ n) ^ 2)), sqrt_fin (by linarith), Fl.neg_fin, cv_smul, cv_add]
  · have hnq : n ⬝ᵥ q = 0 := by rw [dotProduct_comm]; exact hperp
    simp only [dotProduct_add, add_dotProduct, smul_dotProduct, dotProduct_smul, hpp, hperp, hnq, hn, smul_eq_mul]
    linear_combination hS2
  · simp only [add_dotProduct, smul_dotProduct, hperp, hn, smul_eq_mul]
    linarith
  · rw [LinearMap.map_add₂, LinearMap.map_smul₂, LinearMap.map_smul₂, cross_self, smul_zero, add_zero, hq, LinearMap.map_add₂,
      LinearMap.map_smul₂, cross_self, smul_zero, add_zero]

example : ∃ w : Fin 3 → ℝ, refract (cv ![3 / 5, 0, -4 / 5] : Vec (Fl exact64) 3) (cv ![0, 0, 1]) (fin (4 / 5)) = cv w ∧
    w ⬝ᵥ w = 1 ∧ Refracts ![0, 0, 1] ![3 / 5, 0, -4 / 5] w (4 / 5) :=
  C77_refract _ _ _ (by simp [dotProduct, Fin.sum_univ_three]; norm_num) (by simp [dotProduct, Fin.sum_univ_three])
    (by simp [dotProduct, Fin.sum_univ_three]; norm_num)

/-- The value of Schlick's formula. -/
noncomputable def schlick (cosine idx : ℝ) : ℝ := ((1 - idx) / (1 + idx)) ^ 2 + (1 - ((1 - idx) / (1 + idx)) ^ 2) * (1 - cosine) ^ 5

theorem reflectance_fin [F.Exact] (c idx : ℝ) (hi : 0 < idx) :
    Dielectric.reflectance (fin c : Fl F) (fin idx) = fin (schlick c idx) := by
  unfold Dielectric.reflectance schlick
  have h : (1 : ℝ) + idx ≠ 0 := by linarith
  simp only [ofNat_one, sub_fin, add_fin, div_fin _ h, mul_fin]
  rw [powi_fin _ (by norm_num)]
  simp only [mul_fin, add_fin]
  rw [fin_inj]
  norm_num
  ring

/-- C77: what `dielectric::scatter` does, for a unit normal that the incoming ray does not run along with: it always
returns true, attenuates nothing and starts at the hit point; the direction has unit length. When the sine of the
refracted angle would exceed 1 the ray is mirrored, whatever the random number `ξ`; otherwise it is mirrored when
Schlick's reflectance exceeds `ξ` and else refracted by Snell's law. -/
theorem C77_scatter [F.Exact] (ir ξ : ℝ) (hir : 0 < ir) (o d u n : Fin 3 → ℝ) (hu : UnitOf d u) (rec : HitRecord (Fl F))
    (hr : rec.normal = cv n) (hn : n ⬝ᵥ n = 1) (hface : d ⬝ᵥ n ≤ 0) :
    ∃ w : Fin 3 → ℝ, Dielectric.scatter (fin ir) (fin ξ) ⟨cv o, cv d⟩ rec = ⟨true, some (cv ![1, 1, 1]), some ⟨rec.p, cv w⟩⟩ ∧
      w ⬝ᵥ w = 1 ∧ ∃ ratio : ℝ, ratio = (if rec.frontFace then 1 / ir else ir) ∧
      (1 < ratio ^ 2 * (1 - (u ⬝ᵥ n) ^ 2) → Mirrors n u w) ∧
      (ratio ^ 2 * (1 - (u ⬝ᵥ n) ^ 2) ≤ 1 → ξ < schlick (-(u ⬝ᵥ n)) ratio → Mirrors n u w) ∧
      (ratio ^ 2 * (1 - (u ⬝ᵥ n) ^ 2) ≤ 1 → schlick (-(u ⬝ᵥ n)) ratio ≤ ξ → Refracts n u w ratio) := by
  have hcs : (u ⬝ᵥ n) ^ 2 ≤ 1 := by
    have h := dotProduct_self_nonneg' (u ⨯₃ n)
    rw [cross_dot_cross, hu.1, hn, dotProduct_comm n u] at h
    nlinarith
  have hc1 : -(u ⬝ᵥ n) ≤ 1 := by nlinarith
  obtain ⟨ratio, hratio⟩ : ∃ ratio : ℝ, ratio = (if rec.frontFace then 1 / ir else ir) := ⟨_, rfl⟩
  have hpos : 0 < ratio := by
    rw [hratio]; split
    · positivity
    · exact hir
  have e0 : (if rec.frontFace then (1 : Fl F) / fin ir else fin ir) = fin ratio := by
    rw [hratio]; split
    · rw [ofNat_one, div_fin _ hir.ne']
    · rfl
  have e1 : fmin (Vec.dot (-(cv u : Vec (Fl F) 3)) (cv n)) 1 = fin (-(u ⬝ᵥ n)) := by
    rw [cv_neg, cv_dot, neg_dotProduct, ofNat_one]
    unfold fmin
    simp
    intro h
    linarith
  set c := -(u ⬝ᵥ n) with hc
  have hcc : 1 - c * c = 1 - (u ⬝ᵥ n) ^ 2 := by rw [hc]; ring
  have e2 : Scalar.sqrt ((1 : Fl F) - fin c * fin c) = fin (Real.sqrt (1 - (u ⬝ᵥ n) ^ 2)) := by
    rw [ofNat_one, mul_fin, sub_fin, hcc, sqrt_fin (by linarith)]
  have e3 : gt (fin ratio * fin (Real.sqrt (1 - (u ⬝ᵥ n) ^ 2)) : Fl F) 1 = decide (1 < ratio ^ 2 * (1 - (u ⬝ᵥ n) ^ 2)) := by
    rw [mul_fin, ofNat_one, gt, lt_fin]
    congr 1
    have hs := Real.sqrt_nonneg (1 - (u ⬝ᵥ n) ^ 2)
    have h2 : ratio ^ 2 * (1 - (u ⬝ᵥ n) ^ 2) = (ratio * Real.sqrt (1 - (u ⬝ᵥ n) ^ 2)) ^ 2 := by
      rw [mul_pow, Real.sq_sqrt (by linarith)]
    rw [h2, eq_iff_iff, one_lt_sq_iff₀ (by positivity)]
  have e4 : gt (Dielectric.reflectance (fin c) (fin ratio)) (fin ξ : Fl F) = decide (ξ < schlick c ratio) := by
    rw [reflectance_fin _ _ hpos, gt, lt_fin]
  have e : Dielectric.scatter (fin ir) (fin ξ) ⟨cv o, cv d⟩ rec = ⟨true, some (cv ![1, 1, 1]), some ⟨rec.p,
      if decide (1 < ratio ^ 2 * (1 - (u ⬝ᵥ n) ^ 2)) || decide (ξ < schlick c ratio) then cv (u - (2 * (u ⬝ᵥ n)) • n)
      else refract (cv u) (cv n) (fin ratio)⟩⟩ := by
    unfold Dielectric.scatter
    simp only [e0, normalize_unitOf hu, hr, e1, e2, e3, e4, cv_reflect]
    simp only [ofNat_one, cv_vec3]
  have hm := reflect_mirrors u n hn
  by_cases h1 : 1 < ratio ^ 2 * (1 - (u ⬝ᵥ n) ^ 2)
  · refine ⟨u - (2 * (u ⬝ᵥ n)) • n, ?_, by rw [hm.unit hn, hu.1], ratio, hratio, fun _ => hm, fun h => absurd h (not_le.mpr h1),
      fun h => absurd h (not_le.mpr h1)⟩
    rw [e]; simp [h1]
  · by_cases h2 : ξ < schlick c ratio
    · refine ⟨u - (2 * (u ⬝ᵥ n)) • n, ?_, by rw [hm.unit hn, hu.1], ratio, hratio, fun _ => hm, fun _ _ => hm,
        fun _ h => absurd h (not_le.mpr h2)⟩
      rw [e]; simp [h2]
    · obtain ⟨w, hw, w1, w2⟩ := C77_refract (F := F) u n ratio hu.1 hn (not_lt.mp h1)
      refine ⟨w, ?_, w1, ratio, hratio, fun h => absurd h h1, fun _ h => absurd h h2, fun _ _ => w2⟩
      rw [e, hw]; simp [h1, h2]

/-- Total internal reflection in glass of index 2: from inside, 3/5 is the sine of the incoming angle. -/
example (rec : HitRecord (Fl exact64)) (hf : rec.frontFace = false) (hr : rec.normal = cv ![0, 0, 1]) (ξ : ℝ) :
    ∃ w : Fin 3 → ℝ, (Dielectric.scatter (fin 2) (fin ξ) ⟨cv ![0, 0, 5], cv ![3, 0, -4]⟩ rec).ray = some ⟨rec.p, cv w⟩ ∧
      Mirrors ![0, 0, 1] ![3 / 5, 0, -4 / 5] w := by
  obtain ⟨w, h, -, ratio, h2, h3, -⟩ := C77_scatter (F := exact64) 2 ξ (by norm_num) ![0, 0, 5] ![3, 0, -4] ![3 / 5, 0, -4 / 5] ![0, 0, 1]
    ⟨by simp [dotProduct, Fin.sum_univ_three]; norm_num, 5, by norm_num, by ext i; fin_cases i <;> simp <;> norm_num⟩ rec hr
    (by simp [dotProduct, Fin.sum_univ_three]) (by simp [dotProduct, Fin.sum_univ_three])
  refine ⟨w, by rw [h], h3 ?_⟩
  rw [h2, hf]
  simp [dotProduct, Fin.sum_univ_three]
  norm_num

/-- Entering glass of index 2, with a random number above the reflectance. -/
example (rec : HitRecord (Fl exact64)) (hf : rec.frontFace = true) (hr : rec.normal = cv ![0, 0, 1]) :
    ∃ w : Fin 3 → ℝ, (Dielectric.scatter (fin 2) (fin (1 / 2)) ⟨cv ![0, 0, 5], cv ![3, 0, -4]⟩ rec).ray = some ⟨rec.p, cv w⟩ ∧
      Refracts ![0, 0, 1] ![3 / 5, 0, -4 / 5] w (1 / 2) := by
  obtain ⟨w, h, -, ratio, h2, -, -, h3⟩ := C77_scatter (F := exact64) 2 (1 / 2) (by norm_num) ![0, 0, 5] ![3, 0, -4] ![3 / 5, 0, -4 / 5] ![0, 0, 1]
    ⟨by simp [dotProduct, Fin.sum_univ_three]; norm_num, 5, by norm_num, by ext i; fin_cases i <;> simp <;> norm_num⟩ rec hr
    (by simp [dotProduct, Fin.sum_univ_three]) (by simp [dotProduct, Fin.sum_univ_three])
  rw [hf, if_pos rfl] at h2
  subst h2
  refine ⟨w, by rw [h], h3 ?_ ?_⟩
  · simp [dotProduct, Fin.sum_univ_three]; norm_num
  · simp [dotProduct, Fin.sum_univ_three, schlick]; norm_num

/-! ## C78 -/

theorem r0_lt (idx : ℝ) (hi : 0 < idx) : ((1 - idx) / (1 + idx)) ^ 2 < 1 := by
  rw [div_pow, div_lt_one (by positivity)]
  nlinarith

/-- C78: for a positive index and cosines in `[0,1]` the reflectance is a real number between its value at normal incidence,
`((1-n)/(1+n))²`, and 1. -/
theorem C78_range [F.Exact] (c idx : ℝ) (hi : 0 < idx) (h0 : 0 ≤ c) (h1 : c ≤ 1) :
    ∃ y : ℝ, Dielectric.reflectance (fin c : Fl F) (fin idx) = fin y ∧ ((1 - idx) / (1 + idx)) ^ 2 ≤ y ∧ y ≤ 1 := by
  refine ⟨_, reflectance_fin c idx hi, ?_, ?_⟩
  · have : 0 ≤ (1 - c) ^ 5 := pow_nonneg (by linarith) 5
    unfold schlick
    nlinarith [r0_lt idx hi]
  · have : (1 - c) ^ 5 ≤ 1 := pow_le_one₀ (by linarith) (by linarith)
    unfold schlick
    nlinarith [r0_lt idx hi]

/-- C78: at grazing incidence the reflectance is 1, at normal incidence `((1-n)/(1+n))²`. -/
theorem C78_ends [F.Exact] (idx : ℝ) (hi : 0 < idx) :
    Dielectric.reflectance (fin 0 : Fl F) (fin idx) = fin 1 ∧
    Dielectric.reflectance (fin 1 : Fl F) (fin idx) = fin (((1 - idx) / (1 + idx)) ^ 2) := by
  rw [reflectance_fin _ _ hi, reflectance_fin _ _ hi]
  constructor <;> rw [fin_inj] <;> unfold schlick <;> ring

example : Dielectric.reflectance (fin 1 : Fl exact64) (fin (3 / 2)) = fin (1 / 25) := by
  rw [(C78_ends (F := exact64) (3 / 2) (by norm_num)).2]; norm_num

/-- C78: the reflectance does not increase with the cosine. -/
theorem C78_antitone [F.Exact] (c c' idx : ℝ) (hi : 0 < idx) (h : c ≤ c') (h1 : c' ≤ 1) :
    Scalar.le (Dielectric.reflectance (fin c' : Fl F) (fin idx)) (Dielectric.reflectance (fin c) (fin idx)) = true := by
  rw [reflectance_fin _ _ hi, reflectance_fin _ _ hi, le_fin, decide_eq_true_iff]
  have : (1 - c') ^ 5 ≤ (1 - c) ^ 5 := pow_le_pow_left₀ (by linarith) (by linarith) 5
  unfold schlick
  nlinarith [r0_lt idx hi]

example : ∃ y : ℝ, Dielectric.reflectance (fin (1 / 2) : Fl exact64) (fin (3 / 2)) = fin y ∧ 1 / 25 ≤ y ∧ y ≤ 1 := by
  obtain ⟨y, h, h1, h2⟩ := C78_range (F := exact64) (1 / 2) (3 / 2) (by norm_num) (by norm_num) (by norm_num)
  exact ⟨y, h, by norm_num at h1; linarith, h2⟩

/-! ## C79 -/

/-- C79: a light never scatters and emits the colour of its texture at the hit. -/
theorem C79_light {R : Type} [Scalar R] (emit : Texture R) (r : Ray R) (rec : HitRecord R) :
    (DiffuseLight.scatter r rec).ok = false ∧ DiffuseLight.emitted emit rec = emit rec := ⟨rfl, rfl⟩

/-- C79: materials that do not override `emitted` (lambertian, metal, isotropic) emit black, and so does a dielectric built
without an emission texture (dielectric.hpp:30-31). -/
theorem C79_black [F.Exact] (rec : HitRecord (Fl F)) :
    Material.emittedDefault rec = cv ![0, 0, 0] ∧ Dielectric.emitted (solidColor ![0, 0, 0]) rec = cv ![0, 0, 0] := by
  constructor
  · simp only [Material.emittedDefault, ofNat_zero, cv_vec3]
  · simp only [Dielectric.emitted, solidColor, ofNat_zero, cv_vec3]

/-- C79 as worded fails: a dielectric built with an emission texture emits its colour and still scatters. -/
theorem C79_dielectric_false [F.Exact] : ∃ (emit : Texture (Fl F)) (rec : HitRecord (Fl F)) (r : Ray (Fl F)),
    Dielectric.emitted emit rec ≠ cv ![0, 0, 0] ∧ (Dielectric.scatter (fin 1) (fin 0) r rec).ok = true := by
  refine ⟨solidColor (cv ![1, 1, 1]), HitRecord.default (cv 0) (cv 0) true, ⟨cv 0, cv 0⟩, ?_, rfl⟩
  intro h
  have := cv_inj.mp h
  have := congrFun this 0
  simp at this

/-- C79: the textures return the stored colour, or the value of the function. -/
theorem C79_textures {R : Type} [Scalar R] (c : Vec R 3) (f : HitRecord R → Vec R 3) (rec : HitRecord R) :
    solidColor c rec = c ∧ lambdaTexture f rec = f rec := ⟨rfl, rfl⟩

/-- C79: the checker texture is the odd one exactly where the product of the sines is negative. -/
theorem C79_checker [F.Exact] (even odd : Texture (Fl F)) (rec : HitRecord (Fl F)) (p : Fin 3 → ℝ) (hp : rec.p = cv p) :
    (Real.sin (10 * p 0) * Real.sin (10 * p 1) * Real.sin (10 * p 2) < 0 → checkerTexture even odd rec = odd rec) ∧
    (0 ≤ Real.sin (10 * p 0) * Real.sin (10 * p 1) * Real.sin (10 * p 2) → checkerTexture even odd rec = even rec) := by
  have e : checkerTexture even odd rec = if Real.sin (10 * p 0) * Real.sin (10 * p 1) * Real.sin (10 * p 2) < 0 then odd rec else even rec := by
    unfold checkerTexture
    simp only [hp, fl, Nat.cast_ofNat, Nat.cast_zero, decide_eq_true_eq]
  constructor
  · intro h; rw [e, if_pos h]
  · intro h; rw [e, if_neg (not_lt.mpr h)]

/-- C79: neighbouring cells of the checker, one period of half a sine apart in `x`, have different textures. -/
theorem C79_checker_alternates [F.Exact] (even odd : Texture (Fl F)) (rec rec' : HitRecord (Fl F)) (p : Fin 3 → ℝ) (hp : rec.p = cv p)
    (hp' : rec'.p = cv ![p 0 + Real.pi / 10, p 1, p 2])
    (h0 : Real.sin (10 * p 0) * Real.sin (10 * p 1) * Real.sin (10 * p 2) ≠ 0) :
    (checkerTexture even odd rec = even rec ∧ checkerTexture even odd rec' = odd rec') ∨
    (checkerTexture even odd rec = odd rec ∧ checkerTexture even odd rec' = even rec') := by
  have hs : Real.sin (10 * (![p 0 + Real.pi / 10, p 1, p 2] : Fin 3 → ℝ) 0) * Real.sin (10 * (![p 0 + Real.pi / 10, p 1, p 2] : Fin 3 → ℝ) 1) *
      Real.sin (10 * (![p 0 + Real.pi / 10, p 1, p 2] : Fin 3 → ℝ) 2) =
      -(Real.sin (10 * p 0) * Real.sin (10 * p 1) * Real.sin (10 * p 2)) := by
    simp only [Matrix.cons_val_zero, Matrix.cons_val_one, Matrix.cons_val]
    rw [show 10 * (p 0 + Real.pi / 10) = 10 * p 0 + Real.pi by ring, Real.sin_add_pi]
    ring
  have a := C79_checker even odd rec p hp
  have b := C79_checker even odd rec' _ hp'
  rw [hs] at b
  rcases lt_or_gt_of_ne h0 with h | h
  · exact Or.inr ⟨a.1 h, b.2 (by linarith)⟩
  · exact Or.inl ⟨a.2 h.le, b.1 (by linarith)⟩

/-- At `(1/20, 1/20, -1/20)` the sines are `sin (1/2)`, `sin (1/2)` and `-sin (1/2)`. -/
example (even odd : Texture (Fl exact64)) (rec : HitRecord (Fl exact64)) (hp : rec.p = cv ![1 / 20, 1 / 20, -1 / 20]) :
    checkerTexture even odd rec = odd rec := by
  refine (C79_checker even odd rec _ hp).1 ?_
  have h : 0 < Real.sin (1 / 2) := Real.sin_pos_of_pos_of_lt_pi (by norm_num) (by linarith [Real.two_le_pi])
  have e1 : (10 : ℝ) * (1 / 20) = 1 / 2 := by norm_num
  have e2 : (10 : ℝ) * (-1 / 20) = -(1 / 2) := by norm_num
  simp only [Matrix.cons_val_zero, Matrix.cons_val_one, Matrix.cons_val, e1, e2, Real.sin_neg]
  have : 0 < Real.sin (1 / 2) * Real.sin (1 / 2) * Real.sin (1 / 2) := by positivity
  linarith

end DRT
