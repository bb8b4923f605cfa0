import Verif.Props.Material
import Verif.Props.Sphere
import Verif.Props.Picture

/-!
# C128: light paths can be followed backwards

The program traces paths from the camera to the lights, while light goes the other way. That gives the right picture only if
mirrors and glass send light back the way it came: a ray that is sent from `u` to `w` must be sent from `-w` to `-u`. The
theorems follow `metal::scatter` (metal.hpp:18-27), `dielectric::scatter` (dielectric.hpp:33-56) and `sphere::hit`.
-/

namespace DRT
open Scalar Fl Matrix

variable {F : Fmt}

/-! ## Directions are determined by Snell's law -/

theorem cross_sq (a n : Fin 3 → ℝ) (hn : n ⬝ᵥ n = 1) : (a ⨯₃ n) ⬝ᵥ (a ⨯₃ n) = a ⬝ᵥ a - (a ⬝ᵥ n) ^ 2 := by
  rw [cross_dot_cross, hn, dotProduct_comm n a]; ring

/-- A unit vector on the far side is determined by Snell's law. -/
theorem Refracts.unique {n u w w' : Fin 3 → ℝ} {ratio : ℝ} (hn : n ⬝ᵥ n = 1) (hw : w ⬝ᵥ w = 1) (hw' : w' ⬝ᵥ w' = 1)
    (h : Refracts n u w ratio) (h' : Refracts n u w' ratio) : w = w' := by
  have e : (w ⬝ᵥ n) ^ 2 = (w' ⬝ᵥ n) ^ 2 := by
    have h1 := cross_sq w n hn
    have h2 := cross_sq w' n hn
    rw [h.2, hw] at h1
    rw [h'.2, hw'] at h2
    linarith
  have e1 : w ⬝ᵥ n = w' ⬝ᵥ n := by
    have a := h.1
    have b := h'.1
    rcases sq_eq_sq_iff_eq_or_eq_neg.mp e with h | h
    · exact h
    · linarith
  have h1 : (w - w') ⬝ᵥ n = 0 := by rw [sub_dotProduct, e1, sub_self]
  have h2 : (w - w') ⨯₃ n = 0 := by rw [LinearMap.map_sub₂, h.2, h'.2, sub_self]
  have h3 := cross_sq (w - w') n hn
  rw [h1, h2, dotProduct_zero, zero_pow two_ne_zero, sub_zero] at h3
  exact sub_eq_zero.mp (dotProduct_self_eq_zero.mp h3.symm)

/-- The sine of the incoming angle, from that of the outgoing one. -/
theorem Refracts.sine {n u w : Fin 3 → ℝ} {ratio : ℝ} (hn : n ⬝ᵥ n = 1) (hu : u ⬝ᵥ u = 1) (hw : w ⬝ᵥ w = 1) (h : Refracts n u w ratio) :
    1 - (w ⬝ᵥ n) ^ 2 = ratio ^ 2 * (1 - (u ⬝ᵥ n) ^ 2) := by
  have h1 := cross_sq w n hn
  have h2 := cross_sq u n hn
  rw [h.2, smul_dotProduct, dotProduct_smul, h2, hu, hw, smul_eq_mul, smul_eq_mul] at h1
  linarith

/-- Whatever glass does, it mirrors the ray or refracts it. -/
theorem Dielectric.scatter_cases [F.Exact] {ir ξ : ℝ} (hir : 0 < ir) {o d u n w : Fin 3 → ℝ} (hu : UnitOf d u) {rec : HitRecord (Fl F)}
    (hr : rec.normal = cv n) (hn : n ⬝ᵥ n = 1) (hface : d ⬝ᵥ n ≤ 0) {p : Vec (Fl F) 3}
    (h : (Dielectric.scatter (fin ir) (fin ξ) ⟨cv o, cv d⟩ rec).ray = some ⟨p, cv w⟩) :
    w ⬝ᵥ w = 1 ∧ (Mirrors n u w ∨ Refracts n u w (if rec.frontFace then 1 / ir else ir)) := by
  obtain ⟨w', hs, hw', ratio, rfl, h1, h2, h3⟩ := C77_scatter ir ξ hir o d u n hu rec hr hn hface
  rw [hs] at h
  simp only [Option.some.injEq, Ray.mk.injEq] at h
  have hw : w' = w := cv_inj.mp h.2
  subst hw
  refine ⟨hw', ?_⟩
  by_cases c1 : (if rec.frontFace then 1 / ir else ir) ^ 2 * (1 - (u ⬝ᵥ n) ^ 2) ≤ 1
  · by_cases c2 : schlick (-(u ⬝ᵥ n)) (if rec.frontFace then 1 / ir else ir) ≤ ξ
    · exact Or.inr (h3 c1 c2)
    · exact Or.inl (h2 c1 (not_le.mp c2))
  · exact Or.inl (h1 (not_le.mp c1))

theorem UnitOf.self {u : Fin 3 → ℝ} (h : u ⬝ᵥ u = 1) : UnitOf u u := ⟨h, 1, one_pos, (one_smul _ _).symm⟩

theorem UnitOf.facing {d u n : Fin 3 → ℝ} (h : UnitOf d u) (hd : d ⬝ᵥ n ≤ 0) : u ⬝ᵥ n ≤ 0 := by
  obtain ⟨-, c, hc, rfl⟩ := h
  rw [smul_dotProduct, smul_eq_mul] at hd
  by_contra h'
  have := mul_pos hc (not_le.mp h')
  linarith

/-! ## Water: index 4/3, sines 4/5 outside and 3/5 inside -/

theorem water_unit : UnitOf ![4, 0, -3] ![4 / 5, 0, -3 / 5] :=
  ⟨by simp [dotProduct, Fin.sum_univ_three]; norm_num, 5, by norm_num, by ext i; fin_cases i <;> simp <;> norm_num⟩

/-- A ray along `(4,0,-3)` onto level water goes on along `(3,0,-4)`. -/
theorem water_enters [F.Exact] (o : Fin 3 → ℝ) (rec : HitRecord (Fl F)) (hf : rec.frontFace = true) (hr : rec.normal = cv ![0, 0, 1]) :
    (Dielectric.scatter (fin (4 / 3)) (fin (1 / 2)) ⟨cv o, cv ![4, 0, -3]⟩ rec).ray = some ⟨rec.p, cv ![3 / 5, 0, -4 / 5]⟩ := by
  have hn : (![0, 0, 1] : Fin 3 → ℝ) ⬝ᵥ ![0, 0, 1] = 1 := by simp [dotProduct, Fin.sum_univ_three]
  obtain ⟨w, h, hw, ratio, h2, -, -, h3⟩ := C77_scatter (F := F) (4 / 3) (1 / 2) (by norm_num) o ![4, 0, -3] ![4 / 5, 0, -3 / 5] ![0, 0, 1]
    water_unit rec hr hn (by simp [dotProduct, Fin.sum_univ_three])
  rw [hf, if_pos rfl] at h2
  subst h2
  have hR := h3 (by simp [dotProduct, Fin.sum_univ_three]; norm_num) (by simp [dotProduct, Fin.sum_univ_three, schlick]; norm_num)
  have e : w = ![3 / 5, 0, -4 / 5] := hR.unique hn hw (by simp [dotProduct, Fin.sum_univ_three]; norm_num)
    ⟨by simp [dotProduct, Fin.sum_univ_three]; norm_num, by
      ext i; fin_cases i <;> simp [cross_apply] <;> norm_num⟩
  rw [h, e]

/-! ## Reversal -/

/-- C128 for mirrors: if `metal` sends a ray from the unit direction `u` to `w`, it sends a ray that arrives along `-w` to `-u`. -/
theorem C128_mirror [F.Exact] (albedo : Texture (Fl F)) (o o' d u w n : Fin 3 → ℝ) (hu : UnitOf d u) (rec : HitRecord (Fl F))
    (hr : rec.normal = cv n) (hn : n ⬝ᵥ n = 1) {p : Vec (Fl F) 3}
    (h : Metal.scatter albedo ⟨cv o, cv d⟩ rec = ⟨true, some (albedo rec), some ⟨p, cv w⟩⟩) :
    Metal.scatter albedo ⟨cv o', cv (-w)⟩ rec = ⟨true, some (albedo rec), some ⟨p, cv (-u)⟩⟩ := by
  obtain ⟨w1, a1, a2, a3, a4, a5, a6⟩ := C76_metal albedo o d u n hu rec hr hn
  rw [h] at a1 a6
  simp only [Option.some.injEq, Ray.mk.injEq] at a1
  obtain rfl : w = w1 := cv_inj.mp a1.2
  have hw : UnitOf (-w) (-w) := UnitOf.self (by rw [neg_dotProduct_neg]; exact a3)
  obtain ⟨v, b1, b2, b3, b4, b5, b6⟩ := C76_metal albedo o' (-w) (-w) n hw rec hr hn
  have hv : v = -u := by
    refine b2.unique hn ⟨?_, ?_⟩
    · rw [neg_dotProduct, neg_dotProduct, a2.1]; ring
    · rw [LinearMap.map_neg₂, LinearMap.map_neg₂, a2.2]
  subst hv
  have hok : (Metal.scatter albedo ⟨cv o', cv (-w)⟩ rec).ok = true := by
    rw [b6, neg_dotProduct, a2.1, neg_neg]
    have h1 : d ⬝ᵥ n < 0 := a6.mp rfl
    obtain ⟨-, c, hc, rfl⟩ := hu
    rw [smul_dotProduct, smul_eq_mul] at h1
    by_contra h'
    have := mul_nonneg hc.le (not_lt.mp h')
    linarith
  rw [a1.1]
  cases hm : Metal.scatter albedo ⟨cv o', cv (-w)⟩ rec with
  | mk ok att ray =>
    rw [hm] at hok b1 b4
    simp only at hok b1 b4
    rw [hok, b1, b4]

/-- A mirror on the ground: from `(4,0,-3)` to `(4,0,3)`, and from `(-4,0,-3)` back to `(-4,0,3)`. -/
example (albedo : Texture (Fl exact64)) (rec : HitRecord (Fl exact64)) (hr : rec.normal = cv ![0, 0, 1]) (o o' : Fin 3 → ℝ) :
    Metal.scatter albedo ⟨cv o', cv (-![4 / 5, 0, 3 / 5])⟩ rec = ⟨true, some (albedo rec), some ⟨rec.p, cv (-![4 / 5, 0, -3 / 5])⟩⟩ := by
  have hn : (![0, 0, 1] : Fin 3 → ℝ) ⬝ᵥ ![0, 0, 1] = 1 := by simp [dotProduct, Fin.sum_univ_three]
  refine C128_mirror albedo o o' ![4, 0, -3] _ _ ![0, 0, 1] water_unit rec hr hn ?_
  obtain ⟨w, a1, a2, a3, a4, a5, a6⟩ := C76_metal albedo o ![4, 0, -3] _ ![0, 0, 1] water_unit rec hr hn
  have hw : w = ![4 / 5, 0, 3 / 5] := a2.unique hn
    ⟨by simp [dotProduct, Fin.sum_univ_three]; norm_num, by ext i; fin_cases i <;> simp [cross_apply]⟩
  have hok := a6.mpr (by simp [dotProduct, Fin.sum_univ_three])
  cases hm : Metal.scatter albedo ⟨cv o, cv ![4, 0, -3]⟩ rec with
  | mk ok att ray =>
    rw [hm] at hok a1 a4
    simp only at hok a1 a4
    rw [hok, a1, a4, hw]

/-- C128 for glass: if `dielectric` refracts a ray from the unit direction `u` to `w`, then a ray that arrives from the other side along `-w` is
never totally reflected, and whenever it is not mirrored at random it is refracted to `-u`. The record of the other side has
the opposite normal and flag, as `set_face_normal` writes them. -/
theorem C128_reverse [F.Exact] (ir ξ ξ' : ℝ) (hir : 0 < ir) (o o' d u w n : Fin 3 → ℝ) (hu : UnitOf d u) (rec rec' : HitRecord (Fl F))
    (hr : rec.normal = cv n) (hr' : rec'.normal = cv (-n)) (hface : rec'.frontFace = !rec.frontFace) (hn : n ⬝ᵥ n = 1) (hd : d ⬝ᵥ n ≤ 0) {p : Vec (Fl F) 3}
    (h : (Dielectric.scatter (fin ir) (fin ξ) ⟨cv o, cv d⟩ rec).ray = some ⟨p, cv w⟩) (hin : w ⬝ᵥ n < 0)
    (hξ : schlick (-(w ⬝ᵥ n)) (if rec'.frontFace then 1 / ir else ir) ≤ ξ') :
    (Dielectric.scatter (fin ir) (fin ξ') ⟨cv o', cv (-w)⟩ rec').ray = some ⟨rec'.p, cv (-u)⟩ := by
  obtain ⟨hw, hc⟩ := Dielectric.scatter_cases hir hu hr hn hd h
  have hun := hu.facing hd
  have hR : Refracts n u w (if rec.frontFace then 1 / ir else ir) := by
    rcases hc with hm | hm
    · rw [hm.1] at hin; linarith
    · exact hm
  have hrr : (if rec'.frontFace then 1 / ir else ir) * (if rec.frontFace then 1 / ir else ir) = 1 := by
    rw [hface]
    cases rec.frontFace <;> simp [hir.ne']
  have hn' : (-n) ⬝ᵥ (-n) = 1 := by rw [neg_dotProduct_neg]; exact hn
  have hdot : (-w) ⬝ᵥ (-n) = w ⬝ᵥ n := neg_dotProduct_neg _ _
  obtain ⟨v, hs, hv, ratio, hratio, -, -, h3⟩ := C77_scatter ir ξ' hir o' (-w) (-w) (-n)
    (UnitOf.self (by rw [neg_dotProduct_neg]; exact hw)) rec' hr' hn' (by rw [hdot]; exact hin.le)
  rw [← hratio] at hξ hrr
  rw [hdot] at h3
  have hsine := hR.sine hn hu.1 hw
  have c1 : ratio ^ 2 * (1 - (w ⬝ᵥ n) ^ 2) ≤ 1 := by
    rw [hsine, ← mul_assoc, ← mul_pow, hrr, one_pow, one_mul]
    nlinarith [sq_nonneg (u ⬝ᵥ n)]
  have hv2 := h3 c1 hξ
  have : v = -u := by
    refine hv2.unique hn' hv (by rw [neg_dotProduct_neg]; exact hu.1) ⟨?_, ?_⟩
    · rw [neg_dotProduct_neg]; exact hun
    · rw [LinearMap.map_neg₂, LinearMap.map_neg₂, map_neg, map_neg, hR.2, neg_neg, neg_neg, smul_smul, hrr, one_smul]
  rw [hs, this]

/-- Out of the water the way it came in. -/
example (rec rec' : HitRecord (Fl exact64)) (hf : rec.frontFace = true) (hr : rec.normal = cv ![0, 0, 1]) (hf' : rec'.frontFace = false)
    (hr' : rec'.normal = cv (-![0, 0, 1])) (o o' : Fin 3 → ℝ) :
    (Dielectric.scatter (fin (4 / 3)) (fin (1 / 2)) ⟨cv o', cv (-![3 / 5, 0, -4 / 5])⟩ rec').ray = some ⟨rec'.p, cv (-![4 / 5, 0, -3 / 5])⟩ :=
  C128_reverse (4 / 3) (1 / 2) (1 / 2) (by norm_num) o o' ![4, 0, -3] _ _ ![0, 0, 1] water_unit rec rec' hr hr' (by rw [hf, hf']; rfl)
    (by simp [dotProduct, Fin.sum_univ_three]) (by simp [dotProduct, Fin.sum_univ_three]) (water_enters o rec hf hr)
    (by simp [dotProduct, Fin.sum_univ_three]; norm_num) (by rw [hf', if_neg (by simp)]; simp [dotProduct, Fin.sum_univ_three, schlick]; norm_num)

/-- C128: behind a pane of glass, a plate with parallel faces, a ray goes on in the direction in which it came, unless it is mirrored at random; it is never
totally reflected inside. -/
theorem C128_pane [F.Exact] (ir ξ ξ' : ℝ) (hir : 0 < ir) (o o' d u w n : Fin 3 → ℝ) (hu : UnitOf d u) (rec rec' : HitRecord (Fl F))
    (hr : rec.normal = cv n) (hr' : rec'.normal = cv n) (hf : rec.frontFace = true) (hf' : rec'.frontFace = false) (hn : n ⬝ᵥ n = 1)
    (hd : d ⬝ᵥ n ≤ 0) {p : Vec (Fl F) 3}
    (h : (Dielectric.scatter (fin ir) (fin ξ) ⟨cv o, cv d⟩ rec).ray = some ⟨p, cv w⟩) (hin : w ⬝ᵥ n < 0)
    (hξ : schlick (-(w ⬝ᵥ n)) ir ≤ ξ') :
    (Dielectric.scatter (fin ir) (fin ξ') ⟨cv o', cv w⟩ rec').ray = some ⟨rec'.p, cv u⟩ := by
  obtain ⟨hw, hc⟩ := Dielectric.scatter_cases hir hu hr hn hd h
  have hun := hu.facing hd
  rw [hf, if_pos rfl] at hc
  have hR : Refracts n u w (1 / ir) := by
    rcases hc with hm | hm
    · rw [hm.1] at hin; linarith
    · exact hm
  obtain ⟨v, hs, hv, ratio, hratio, -, -, h3⟩ := C77_scatter ir ξ' hir o' w w n (UnitOf.self hw) rec' hr' hn hin.le
  rw [hf', if_neg (by simp)] at hratio
  subst hratio
  have hsine := hR.sine hn hu.1 hw
  have hii : ratio * (1 / ratio) = 1 := mul_one_div_cancel hir.ne'
  have c1 : ratio ^ 2 * (1 - (w ⬝ᵥ n) ^ 2) ≤ 1 := by
    rw [hsine, ← mul_assoc, ← mul_pow, hii, one_pow, one_mul]
    nlinarith [sq_nonneg (u ⬝ᵥ n)]
  have hv2 := h3 c1 hξ
  have : v = u := by
    refine hv2.unique hn hv hu.1 ⟨hun, ?_⟩
    rw [hR.2, smul_smul, hii, one_smul]
  rw [hs, this]

/-- Through a sheet of water. -/
example (rec rec' : HitRecord (Fl exact64)) (hf : rec.frontFace = true) (hr : rec.normal = cv ![0, 0, 1]) (hf' : rec'.frontFace = false)
    (hr' : rec'.normal = cv ![0, 0, 1]) (o o' : Fin 3 → ℝ) :
    (Dielectric.scatter (fin (4 / 3)) (fin (1 / 2)) ⟨cv o', cv ![3 / 5, 0, -4 / 5]⟩ rec').ray = some ⟨rec'.p, cv ![4 / 5, 0, -3 / 5]⟩ :=
  C128_pane (4 / 3) (1 / 2) (1 / 2) (by norm_num) o o' ![4, 0, -3] _ _ ![0, 0, 1] water_unit rec rec' hr hr' hf hf'
    (by simp [dotProduct, Fin.sum_univ_three]) (by simp [dotProduct, Fin.sum_univ_three]) (water_enters o rec hf hr)
    (by simp [dotProduct, Fin.sum_univ_three]; norm_num) (by simp [dotProduct, Fin.sum_univ_three, schlick]; norm_num)

/-- C128: a glass ball. A ray from outside that goes into the ball meets the ball again from inside; there it under the angle of its refraction, and is
never totally reflected, whatever the index, and whenever it is not mirrored at random it leaves under the angle at which it entered: its direction `v` has the same
component along the outward normal as the incoming direction `u` had against it. The way inside is assumed longer than the offset `1000*eps` and the threshold of the
root finder. -/
theorem C128_ball [F.Exact] (c : Fin 3 → ℝ) (R : ℝ) (hR : 0 < R) (ir : ℝ) (hir : 0 < ir) (o d u p w : Fin 3 → ℝ) (hu : UnitOf d u) (ξ : ℝ)
    (tmin tmax : Fl F) (rec rec2 : HitRecord (Fl F)) (h1 : ((Sphere.ofReal c R).hit ⟨cv o, cv d⟩ tmin tmax rec).1 = true)
    (hp : p ∈ sphereSet c R) (hrp : ((Sphere.ofReal c R).hit ⟨cv o, cv d⟩ tmin tmax rec).2.p = cv p) (hout : d ⬝ᵥ (p - c) < 0)
    (hs : (Dielectric.scatter (fin ir) (fin ξ) ⟨cv o, cv d⟩ ((Sphere.ofReal c R).hit ⟨cv o, cv d⟩ tmin tmax rec).2).ray = some ⟨cv p, cv w⟩)
    (hin : w ⬝ᵥ (p - c) < 0) (hfar : 1000 * F.eps ≤ -2 * (w ⬝ᵥ (p - c))) (htiny : F.tiny < -2 * (w ⬝ᵥ (p - c))) :
    ∃ q ∈ sphereSet c R, ((Sphere.ofReal c R).hit ⟨cv p, cv w⟩ (1000 * eps) inf rec2).1 = true ∧
      ((Sphere.ofReal c R).hit ⟨cv p, cv w⟩ (1000 * eps) inf rec2).2.p = cv q ∧
      ((Sphere.ofReal c R).hit ⟨cv p, cv w⟩ (1000 * eps) inf rec2).2.frontFace = false ∧
      w ⬝ᵥ (q - c) = -(w ⬝ᵥ (p - c)) ∧
      ∀ ξ', schlick (w ⬝ᵥ (R⁻¹ • (q - c))) ir ≤ ξ' → ∃ v : Fin 3 → ℝ,
        (Dielectric.scatter (fin ir) (fin ξ') ⟨cv p, cv w⟩ ((Sphere.ofReal c R).hit ⟨cv p, cv w⟩ (1000 * eps) inf rec2).2).ray = some ⟨cv q, cv v⟩ ∧
        v ⬝ᵥ v = 1 ∧ v ⬝ᵥ (q - c) = -(u ⬝ᵥ (p - c)) := by
  obtain ⟨⟨m, hm, hmm, hmn, hmd⟩, hff, -⟩ := C47_record c R hR o d tmin tmax rec p hp h1 hrp
  set n := R⁻¹ • (p - c) with hn
  have hRi : 0 < R⁻¹ := inv_pos.mpr hR
  have hdn : d ⬝ᵥ n < 0 := by rw [hn, dotProduct_smul, smul_eq_mul]; exact mul_neg_of_pos_of_neg hRi hout
  have hmeq : m = n := by
    rcases hmn with h | h
    · exact h
    · rw [h, dotProduct_neg] at hmd; linarith
  rw [hmeq] at hm hmm
  clear hmd hmn hmeq m
  have hfront := hff.mpr hout
  obtain ⟨hw, hc⟩ := Dielectric.scatter_cases hir hu hm hmm hdn.le hs
  rw [hfront, if_pos rfl] at hc
  have hun := hu.facing hdn.le
  have hwn : w ⬝ᵥ n < 0 := by rw [hn, dotProduct_smul, smul_eq_mul]; exact mul_neg_of_pos_of_neg hRi hin
  have hRef : Refracts n u w (1 / ir) := by
    rcases hc with hm | hm
    · rw [hm.1] at hwn; linarith
    · exact hm
  set s := -2 * (w ⬝ᵥ (p - c)) with hsdef
  have e0 := Fmt.Exact.eps_pos (F := F)
  have ht1 := Fmt.Exact.tiny_lt (F := F)
  -- the chord
  have hline : ∀ t : ℝ, p + t • w ∈ sphereSet c R ↔ t = 0 ∨ t = s := by
    intro t
    simp only [sphereSet, Set.mem_ofPred_eq, Pi.add_apply, Pi.smul_apply, smul_eq_mul] at hp ⊢
    have hw' : w 0 ^ 2 + w 1 ^ 2 + w 2 ^ 2 = 1 := by
      rw [← hw]; simp [dotProduct, Fin.sum_univ_three]; ring
    have hs' : s = -2 * (w 0 * (p 0 - c 0) + w 1 * (p 1 - c 1) + w 2 * (p 2 - c 2)) := by
      rw [hsdef]; simp [dotProduct, Fin.sum_univ_three]
    have key : (p 0 + t * w 0 - c 0) ^ 2 + (p 1 + t * w 1 - c 1) ^ 2 + (p 2 + t * w 2 - c 2) ^ 2 - R ^ 2 = t * (t - s) := by
      linear_combination hp + t ^ 2 * hw' + t * hs'
    constructor
    · intro h
      have h2 : t * (t - s) = 0 := by linarith
      rcases mul_eq_zero.mp h2 with h | h
      · exact Or.inl h
      · exact Or.inr (by linarith)
    · intro h
      have h2 : t * (t - s) = 0 := by rcases h with h | h <;> rw [h] <;> ring
      linarith
  have hdotpc : (p - c) ⬝ᵥ w = w ⬝ᵥ (p - c) := dotProduct_comm _ _
  have hnear := C46_nearest_partial (F := F) c R p w (1000 * eps) (by rw [hw]; exact ht1)
    (Or.inr (by rw [hdotpc]; refine lt_of_lt_of_le htiny ?_; rw [← abs_neg]; refine le_trans (le_of_eq ?_) (le_abs_self _); rw [hsdef]; ring)) inf rec2 rfl
  have hrange : ∀ z : ℝ, InRange ((1000 * eps : Fl F), inf) z ↔ 1000 * F.eps ≤ z := by
    intro z; rw [offset_exact]; simp [InRange]
  have b1 := hnear.1.mpr ⟨s, (hrange s).mpr hfar, (hline s).mpr (Or.inr rfl)⟩
  obtain ⟨z, z1, z2, z3, z4, -⟩ := hnear.2 b1
  have hz : z = s := by
    rcases (hline z).mp z4 with h | h
    · have := (hrange z).mp z3; linarith
    · exact h
  rw [hz] at z2 z4
  obtain ⟨⟨m, hm2, hmm2, hmn2, hmd2⟩, hff2, -⟩ := C47_record c R hR p w (1000 * eps) inf rec2 (p + s • w) z4 b1 z2
  have hwq : w ⬝ᵥ (p + s • w - c) = -(w ⬝ᵥ (p - c)) := by
    rw [show p + s • w - c = (p - c) + s • w by abel, dotProduct_add, dotProduct_smul, hw, smul_eq_mul, hsdef]; ring
  have hwq0 : 0 < w ⬝ᵥ (p + s • w - c) := by rw [hwq]; linarith
  have hback : ((Sphere.ofReal c R).hit ⟨cv p, cv w⟩ (1000 * eps : Fl F) inf rec2).2.frontFace = false := by
    rw [← Bool.not_eq_true, hff2]; linarith
  set k := R⁻¹ • (p + s • w - c) with hk
  have hwk : w ⬝ᵥ k = -(w ⬝ᵥ n) := by rw [hk, hn, dotProduct_smul, dotProduct_smul, hwq, smul_eq_mul, smul_eq_mul]; ring
  have hmk : m = -k := by
    rcases hmn2 with h | h
    · rw [h, hwk] at hmd2; linarith
    · exact h
  rw [hmk] at hm2 hmm2 hmd2
  have hwm : w ⬝ᵥ (-k) = w ⬝ᵥ n := by rw [dotProduct_neg, hwk, neg_neg]
  refine ⟨p + s • w, z4, b1, z2, hback, hwq, fun ξ' hξ => ?_⟩
  obtain ⟨v, hsc, hv, ratio, hratio, -, -, h3⟩ := C77_scatter ir ξ' hir p w w (-k) (UnitOf.self hw) _ hm2 hmm2 hmd2
  rw [hback, if_neg (by simp)] at hratio
  subst hratio
  rw [hwm] at h3
  have hsine := hRef.sine hmm hu.1 hw
  have hii : ratio * (1 / ratio) = 1 := mul_one_div_cancel hir.ne'
  have hprod : ratio ^ 2 * (1 - (w ⬝ᵥ n) ^ 2) = 1 - (u ⬝ᵥ n) ^ 2 := by
    rw [hsine, ← mul_assoc, ← mul_pow, hii, one_pow, one_mul]
  have hv2 := h3 (by rw [hprod]; nlinarith [sq_nonneg (u ⬝ᵥ n)]) (by rw [hwk] at hξ; exact hξ)
  have hsine2 := hv2.sine hmm2 hw hv
  rw [hwm, hprod] at hsine2
  have hvk : v ⬝ᵥ (-k) = u ⬝ᵥ n := by
    have h0 := hv2.1
    rcases sq_eq_sq_iff_eq_or_eq_neg.mp (by linarith : (v ⬝ᵥ (-k)) ^ 2 = (u ⬝ᵥ n) ^ 2) with h | h
    · exact h
    · linarith
  refine ⟨v, by rw [hsc, z2], hv, ?_⟩
  rw [hk, hn, dotProduct_neg, dotProduct_smul, dotProduct_smul, smul_eq_mul, smul_eq_mul, ← mul_neg] at hvk
  have := mul_left_cancel₀ hRi.ne' hvk
  linarith

/-- A drop of water of radius 1, met at its top along `(4,0,-3)`: the way inside has length 8/5, and the ray leaves with the component 3/5 along the outward normal. -/
example (rec rec2 : HitRecord (Fl exact64)) : ∃ q ∈ sphereSet 0 1, ((Sphere.ofReal (F := exact64) 0 1).hit ⟨cv ![0, 0, 1], cv ![3 / 5, 0, -4 / 5]⟩ (1000 * eps) inf rec2).2.p = cv q ∧
    ∃ v : Fin 3 → ℝ, (Dielectric.scatter (fin (4 / 3)) (fin 1) ⟨cv ![0, 0, 1], cv ![3 / 5, 0, -4 / 5]⟩
      ((Sphere.ofReal (F := exact64) 0 1).hit ⟨cv ![0, 0, 1], cv ![3 / 5, 0, -4 / 5]⟩ (1000 * eps) inf rec2).2).ray = some ⟨cv q, cv v⟩ ∧ v ⬝ᵥ q = 3 / 5 := by
  have ht := Fmt.Exact.tiny_lt (F := exact64)
  have hS : ∀ z : ℝ, (![-4, 0, 4] + z • ![4, 0, -3] : Fin 3 → ℝ) ∈ sphereSet 0 1 ↔ (z = 1 ∨ z = 31 / 25) := by
    intro z
    simp only [sphereSet, Set.mem_ofPred_eq]
    simp
    constructor
    · intro h
      have : (z - 1) * (z - 31 / 25) = 0 := by linear_combination h / 25
      rcases mul_eq_zero.mp this with h | h
      · left; linarith
      · right; linarith
    · rintro (rfl | rfl) <;> norm_num
  have h := C46_nearest_partial (F := exact64) 0 1 ![-4, 0, 4] ![4, 0, -3] (fin 0)
    (by simp [dotProduct, Fin.sum_univ_three]; norm_num; linarith)
    (Or.inr (by simp [dotProduct, Fin.sum_univ_three]; norm_num; linarith)) pinf rec rfl
  have hr : ∀ z : ℝ, InRange ((fin 0 : Fl exact64), pinf) z ↔ 0 ≤ z := by intro z; simp [InRange]
  have b1 := h.1.mpr ⟨1, (hr 1).mpr (by norm_num), (hS 1).mpr (Or.inl rfl)⟩
  obtain ⟨z, z1, z2, z3, z4, z5⟩ := h.2 b1
  have hz : z = 1 := by
    have := z5 1 ((hr 1).mpr (by norm_num)) ((hS 1).mpr (Or.inl rfl))
    rcases (hS z).mp z4 with h | h
    · exact h
    · linarith
  have hq : (![-4, 0, 4] + z • ![4, 0, -3] : Fin 3 → ℝ) = ![0, 0, 1] := by
    rw [hz]; ext i; fin_cases i <;> simp; norm_num
  rw [hq] at z2 z4
  have hout : (![4, 0, -3] : Fin 3 → ℝ) ⬝ᵥ (![0, 0, 1] - 0) < 0 := by simp [dotProduct, Fin.sum_univ_three]
  obtain ⟨⟨m, hm, -, hmn, hmd⟩, hff, -⟩ := C47_record (F := exact64) 0 1 one_pos _ _ _ _ _ _ z4 b1 z2
  have hm1 : m = ![0, 0, 1] := by
    rcases hmn with h | h
    · rw [h]; simp
    · rw [h] at hmd; simp [dotProduct, Fin.sum_univ_three] at hmd; linarith
  rw [hm1] at hm
  have hsc := water_enters ![-4, 0, 4] _ (hff.mpr hout) hm
  rw [z2] at hsc
  have hdot : (![3 / 5, 0, -4 / 5] : Fin 3 → ℝ) ⬝ᵥ (![0, 0, 1] - 0) = -4 / 5 := by simp [dotProduct, Fin.sum_univ_three]
  obtain ⟨q, q1, q2, q3, q4, q6, q5⟩ := C128_ball (F := exact64) 0 1 one_pos (4 / 3) (by norm_num) _ _ _ _ _ water_unit (1 / 2) _ _ rec rec2 b1 z4 z2 hout hsc
    (by rw [hdot]; norm_num) (by rw [hdot]; simp only [exact64]; norm_num) (by rw [hdot]; linarith)
  refine ⟨q, q1, q3, ?_⟩
  have hsch : schlick (![3 / 5, 0, -4 / 5] ⬝ᵥ ((1 : ℝ)⁻¹ • (q - 0))) (4 / 3) ≤ 1 := by
    rw [dotProduct_smul, q6, hdot]
    norm_num [schlick]
  obtain ⟨v, v1, v2, v3⟩ := q5 1 hsch
  refine ⟨v, v1, ?_⟩
  rw [sub_zero] at v3
  rw [v3]
  simp [dotProduct, Fin.sum_univ_three]
  norm_num

/-! ## What is not reversible -/

/-- C128, refuted for the probabilities: the chance of being mirrored, which is `reflectance`, is not the same both ways along a path. A ray that grazes glass of index 2
from outside (cosine 0, ratio 1/2) is mirrored with probability 1. The path backwards has, by Snell's law, the cosine `√3/2` inside and the ratio 2, and there
light is mirrored with probability below 1/8. The code puts the cosine of the incoming angle into Schlick's formula on both sides. -/
theorem C128_probability_false [F.Exact] :
    ¬ ∀ (ir a b : ℝ), 1 < ir → 0 ≤ a → 0 ≤ b → 1 - b ^ 2 = (1 / ir) ^ 2 * (1 - a ^ 2) →
      Dielectric.reflectance (fin a : Fl F) (fin (1 / ir)) = Dielectric.reflectance (fin b) (fin ir) := by
  intro h
  have h3 : Real.sqrt 3 ^ 2 = 3 := Real.sq_sqrt (by norm_num)
  have h1 : (17 / 10 : ℝ) ≤ Real.sqrt 3 := Real.le_sqrt_of_sq_le (by norm_num)
  have h2 : Real.sqrt 3 ≤ 2 := Real.sqrt_le_iff.mpr ⟨by norm_num, by norm_num⟩
  have := h 2 0 (Real.sqrt 3 / 2) (by norm_num) le_rfl (by positivity) (by rw [div_pow, h3]; norm_num)
  rw [reflectance_fin _ _ (by norm_num), reflectance_fin _ _ (by norm_num)] at this
  have e : schlick 0 (1 / 2) = schlick (Real.sqrt 3 / 2) 2 := by injection this
  have h5 : (1 - Real.sqrt 3 / 2) ^ 5 ≤ (3 / 20 : ℝ) ^ 5 := pow_le_pow_left₀ (by linarith) (by linarith) 5
  unfold schlick at e
  norm_num at e h5
  linarith

end DRT
