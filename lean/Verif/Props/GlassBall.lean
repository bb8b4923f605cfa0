import Verif.Props.Glass
import Verif.Scalar.Standard

/-!
# C145: light in a glass ball

The theorems follow `sphere::hit` (sphere.hpp:145-163) and `dielectric::scatter` (dielectric.hpp:33-56) along paths of any
length, as `ray_color` (ray_color.hpp) puts them together.
-/

namespace DRT
open Scalar Fl Matrix

variable {F : Fmt}

/-- The ray `y`, an origin and a direction, is what the glass ball makes of the ray `x`: for some random number `ξ` and some
range from `1000*eps` on, `hit` reports a point of the sphere, and `scatter` sends `y` from there. -/
def GlassStep (F : Fmt) (c : Fin 3 → ℝ) (R ir : ℝ) (x y : (Fin 3 → ℝ) × (Fin 3 → ℝ)) : Prop :=
  ∃ (ξ : ℝ) (tmax : Fl F) (rec : HitRecord (Fl F)), y.1 ∈ sphereSet c R ∧
    ((Sphere.ofReal c R).hit ⟨cv x.1, cv x.2⟩ (1000 * eps) tmax rec).1 = true ∧
    ((Sphere.ofReal c R).hit ⟨cv x.1, cv x.2⟩ (1000 * eps) tmax rec).2.p = cv y.1 ∧
    (Dielectric.scatter (fin ir) (fin ξ) ⟨cv x.1, cv x.2⟩ ((Sphere.ofReal c R).hit ⟨cv x.1, cv x.2⟩ (1000 * eps) tmax rec).2).ray =
      some ⟨cv y.1, cv y.2⟩

/-- The ray `x`, which starts on the sphere, goes into the ball. -/
def GoesIn (c : Fin 3 → ℝ) (x : (Fin 3 → ℝ) × (Fin 3 → ℝ)) : Prop := x.2 ⬝ᵥ (x.1 - c) < 0

/-- The rays inside of the ball that come from `y`, after any number of reflections. -/
inductive Remains (F : Fmt) (c : Fin 3 → ℝ) (R ir : ℝ) (y : (Fin 3 → ℝ) × (Fin 3 → ℝ)) : (Fin 3 → ℝ) × (Fin 3 → ℝ) → Prop
  | start : Remains F c R ir y y
  | bounce {x z} : Remains F c R ir y x → GlassStep F c R ir x z → GoesIn c z → Remains F c R ir y z

theorem ray_at_finite {o d p : Fin 3 → ℝ} {t : Fl F} (h : (Ray.mk (cv o) (cv d) : Ray (Fl F)).at t = cv p) : ∃ z : ℝ, t = fin z := by
  have h0 := congrFun h 0
  have e : (Ray.mk (cv o) (cv d) : Ray (Fl F)).at t 0 = fin (o 0) + t * fin (d 0) := rfl
  rw [e, cv_apply] at h0
  obtain ⟨_, b, -, hb, -⟩ := Fl.add_eq_fin h0
  obtain ⟨z, _, hz, -⟩ := Fl.mul_eq_fin hb
  exact ⟨z, hz⟩

/-- What the ball does at one hit. -/
theorem GlassStep.spec [F.Exact] {c : Fin 3 → ℝ} {R ir : ℝ} (hR : 0 < R) (hir : 0 < ir) {x y : (Fin 3 → ℝ) × (Fin 3 → ℝ)}
    {u : Fin 3 → ℝ} (hu : UnitOf x.2 u) (h : GlassStep F c R ir x y) :
    y.1 ∈ sphereSet c R ∧ y.2 ⬝ᵥ y.2 = 1 ∧ (∃ z : ℝ, 0 < z ∧ y.1 = x.1 + z • x.2) ∧
      ∃ m : Fin 3 → ℝ, m ⬝ᵥ m = 1 ∧ u ⬝ᵥ m ≤ 0 ∧ ∃ ratio : ℝ, (Mirrors m u y.2 ∨ ratio ^ 2 * (1 - (u ⬝ᵥ m) ^ 2) ≤ 1 ∧ Refracts m u y.2 ratio) ∧
        ((x.2 ⬝ᵥ (y.1 - c) < 0 ∧ m = R⁻¹ • (y.1 - c) ∧ ratio = 1 / ir) ∨
          (0 ≤ x.2 ⬝ᵥ (y.1 - c) ∧ (m = R⁻¹ • (y.1 - c) ∨ m = -(R⁻¹ • (y.1 - c))) ∧ ratio = ir)) := by
  obtain ⟨ξ, tmax, rec, hp, h1, h2, h3⟩ := h
  obtain ⟨⟨m, hm, hmm, hmn, hmd⟩, hff, -⟩ := C47_record c R hR _ _ _ _ rec _ hp h1 h2
  obtain ⟨r1, r2, r3⟩ := C46_in_range _ _ _ _ rec h1
  obtain ⟨w, hs, hw, ratio, hratio, k1, k2, k3⟩ := C77_scatter ir ξ hir x.1 x.2 u m hu _ hm hmm hmd
  rw [hs] at h3
  simp only [Option.some.injEq, Ray.mk.injEq] at h3
  obtain rfl : w = y.2 := cv_inj.mp h3.2
  rw [h2] at r3
  obtain ⟨z, hz⟩ := ray_at_finite r3.symm
  rw [hz, ray_at_cv] at r3
  rw [hz, offset_exact, le_fin, decide_eq_true_eq] at r1
  have e0 := Fmt.Exact.eps_pos (F := F)
  refine ⟨hp, hw, ⟨z, by linarith, cv_inj.mp r3⟩, m, hmm, hu.facing hmd, ratio, ?_, ?_⟩
  · by_cases hc : 1 < ratio ^ 2 * (1 - (u ⬝ᵥ m) ^ 2)
    · exact Or.inl (k1 hc)
    · rcases lt_or_ge ξ (schlick (-(u ⬝ᵥ m)) ratio) with h | h
      · exact Or.inl (k2 (not_lt.mp hc) h)
      · exact Or.inr ⟨not_lt.mp hc, k3 (not_lt.mp hc) h⟩
  · by_cases hd : x.2 ⬝ᵥ (y.1 - c) < 0
    · rw [hff.mpr hd, if_pos rfl] at hratio
      refine Or.inl ⟨hd, ?_, hratio⟩
      rcases hmn with h | h
      · exact h
      · rw [h, dotProduct_neg, dotProduct_smul, smul_eq_mul] at hmd
        have := mul_neg_of_pos_of_neg (inv_pos.mpr hR) hd
        linarith
    · rw [if_neg (by rwa [hff])] at hratio
      exact Or.inr ⟨not_lt.mp hd, hmn, hratio⟩

/-- `(p - c) × u` is the same for all points of the ray. -/
theorem cross_along (c o u : Fin 3 → ℝ) (z : ℝ) : (o + z • u - c) ⨯₃ u = (o - c) ⨯₃ u := by
  rw [show o + z • u - c = (o - c) + z • u by abel, LinearMap.map_add₂, LinearMap.map_smul₂, cross_self, smul_zero, add_zero]

theorem cross_len {c q w : Fin 3 → ℝ} {R : ℝ} (hq : q ∈ sphereSet c R) (hw : w ⬝ᵥ w = 1) :
    ((q - c) ⨯₃ w) ⬝ᵥ ((q - c) ⨯₃ w) = R ^ 2 - (w ⬝ᵥ (q - c)) ^ 2 := by
  have hq' : (q - c) ⬝ᵥ (q - c) = R ^ 2 := by
    rw [← (hq : (q 0 - c 0) ^ 2 + (q 1 - c 1) ^ 2 + (q 2 - c 2) ^ 2 = R ^ 2)]
    simp [dotProduct, Fin.sum_univ_three, sq]
  rw [cross_dot_cross, hw, hq', dotProduct_comm w]; ring

theorem cross_of_normal {c q u w m : Fin 3 → ℝ} {R k : ℝ} (hR : 0 < R) (hm : m = R⁻¹ • (q - c) ∨ m = -(R⁻¹ • (q - c)))
    (h : w ⨯₃ m = k • (u ⨯₃ m)) : (q - c) ⨯₃ w = k • ((q - c) ⨯₃ u) := by
  have e : ∀ v : Fin 3 → ℝ, v ⨯₃ (q - c) = k • (u ⨯₃ (q - c)) → (q - c) ⨯₃ v = k • ((q - c) ⨯₃ u) := by
    intro v hv
    rw [← cross_anticomm v, ← cross_anticomm u, hv, smul_neg]
  apply e
  rcases hm with rfl | rfl
  · rw [map_smul, map_smul, smul_comm] at h
    exact smul_right_injective _ (inv_pos.mpr hR).ne' h
  · rw [map_neg, map_neg, map_smul, map_smul, smul_neg, smul_comm, neg_inj] at h
    exact smul_right_injective _ (inv_pos.mpr hR).ne' h

/-- A ray inside of the ball arrives at the sphere from inside, where it is mirrored or leaves. -/
theorem GlassStep.inside [F.Exact] {c : Fin 3 → ℝ} {R ir : ℝ} (hR : 0 < R) (hir : 0 < ir) {x y : (Fin 3 → ℝ) × (Fin 3 → ℝ)}
    (hx : x.1 ∈ sphereSet c R) (hu : x.2 ⬝ᵥ x.2 = 1) (hin : GoesIn c x) (h : GlassStep F c R ir x y) :
    y.1 ∈ sphereSet c R ∧ y.2 ⬝ᵥ y.2 = 1 ∧
      (GoesIn c y ∧ (y.1 - c) ⨯₃ y.2 = (x.1 - c) ⨯₃ x.2 ∨
        ¬ GoesIn c y ∧ (y.1 - c) ⨯₃ y.2 = ir • ((x.1 - c) ⨯₃ x.2) ∧
          ir ^ 2 * (((x.1 - c) ⨯₃ x.2) ⬝ᵥ ((x.1 - c) ⨯₃ x.2)) ≤ R ^ 2) := by
  obtain ⟨hp, hw, ⟨z, hz, hy⟩, m, hmm, hum, ratio, hmr, hcase⟩ := h.spec hR hir (UnitOf.self hu)
  have hRi := inv_pos.mpr hR
  have hcr : (y.1 - c) ⨯₃ x.2 = (x.1 - c) ⨯₃ x.2 := by rw [hy, cross_along]
  have hdot : x.2 ⬝ᵥ (y.1 - c) = -(x.2 ⬝ᵥ (x.1 - c)) := by
    have h1 := cross_len hp hu
    rw [hcr, cross_len hx hu] at h1
    have h2 : x.2 ⬝ᵥ (y.1 - c) = x.2 ⬝ᵥ (x.1 - c) + z := by
      rw [hy, show x.1 + z • x.2 - c = (x.1 - c) + z • x.2 by abel, dotProduct_add, dotProduct_smul, hu, smul_eq_mul, mul_one]
    have h3 : (x.2 ⬝ᵥ (y.1 - c)) ^ 2 = (x.2 ⬝ᵥ (x.1 - c)) ^ 2 := by linarith
    rcases sq_eq_sq_iff_eq_or_eq_neg.mp h3 with h | h
    · rw [h] at h2; linarith
    · exact h
  have hpos : 0 < x.2 ⬝ᵥ (y.1 - c) := by rw [hdot]; exact neg_pos.mpr hin
  rcases hcase with ⟨h', -⟩ | ⟨-, hm, rfl⟩
  · linarith
  have hm' : m = -(R⁻¹ • (y.1 - c)) := by
    rcases hm with h | h
    · rw [h, dotProduct_smul, smul_eq_mul] at hum
      have := mul_pos hRi hpos
      linarith
    · exact h
  have hdm : ∀ v : Fin 3 → ℝ, v ⬝ᵥ m = -(R⁻¹ * (v ⬝ᵥ (y.1 - c))) := by
    intro v; rw [hm', dotProduct_neg, dotProduct_smul, smul_eq_mul]
  refine ⟨hp, hw, ?_⟩
  rcases hmr with hM | ⟨hle, hM⟩
  · left
    constructor
    · have h1 := hM.1
      rw [hdm, hdm] at h1
      have h2 : R⁻¹ * (y.2 ⬝ᵥ (y.1 - c) + x.2 ⬝ᵥ (y.1 - c)) = 0 := by linarith
      rcases mul_eq_zero.mp h2 with h | h
      · exact absurd h hRi.ne'
      · show y.2 ⬝ᵥ (y.1 - c) < 0
        linarith
    · have := cross_of_normal (k := 1) hR (Or.inr hm') (hM.2.trans (one_smul ℝ (x.2 ⨯₃ m)).symm)
      rw [this, one_smul, hcr]
  · right
    refine ⟨?_, ?_, ?_⟩
    · have h1 := hM.1
      rw [hdm] at h1
      intro h2
      have := mul_neg_of_pos_of_neg hRi h2
      linarith
    · rw [cross_of_normal hR (Or.inr hm') hM.2, hcr]
    · rw [← hcr, cross_len hp hu]
      rw [hdm] at hle
      have h1 : ratio ^ 2 * (R ^ 2 - (x.2 ⬝ᵥ (y.1 - c)) ^ 2) = R ^ 2 * (ratio ^ 2 * (1 - (-(R⁻¹ * (x.2 ⬝ᵥ (y.1 - c)))) ^ 2)) := by
        field_simp
      rw [h1]
      exact mul_le_of_le_one_right (sq_nonneg R) hle

/-- A ray from outside that goes into the ball. -/
theorem GlassStep.enters [F.Exact] {c : Fin 3 → ℝ} {R ir : ℝ} (hR : 0 < R) (hir : 0 < ir) {x y : (Fin 3 → ℝ) × (Fin 3 → ℝ)}
    {u : Fin 3 → ℝ} (hu : UnitOf x.2 u) (hout : u ⬝ᵥ (y.1 - c) < 0) (hin : GoesIn c y) (h : GlassStep F c R ir x y) :
    y.1 ∈ sphereSet c R ∧ y.2 ⬝ᵥ y.2 = 1 ∧ ir • ((y.1 - c) ⨯₃ y.2) = (x.1 - c) ⨯₃ u ∧ (y.1 - c) ⨯₃ u = (x.1 - c) ⨯₃ u := by
  obtain ⟨hp, hw, ⟨z, hz, hy⟩, m, hmm, hum, ratio, hmr, hcase⟩ := h.spec hR hir hu
  have hRi := inv_pos.mpr hR
  obtain ⟨hu1, k, hk, hxk⟩ := hu
  have hcr : (y.1 - c) ⨯₃ u = (x.1 - c) ⨯₃ u := by rw [hy, hxk, smul_smul, cross_along]
  have hneg : x.2 ⬝ᵥ (y.1 - c) < 0 := by
    rw [hxk, smul_dotProduct, smul_eq_mul]; exact mul_neg_of_pos_of_neg hk hout
  rcases hcase with ⟨-, hm, rfl⟩ | ⟨h', -⟩
  · refine ⟨hp, hw, ?_, hcr⟩
    have hdm : ∀ v : Fin 3 → ℝ, v ⬝ᵥ m = R⁻¹ * (v ⬝ᵥ (y.1 - c)) := by
      intro v; rw [hm, dotProduct_smul, smul_eq_mul]
    rcases hmr with hM | ⟨-, hM⟩
    · have h1 := hM.1
      rw [hdm, hdm] at h1
      have h2 : R⁻¹ * (y.2 ⬝ᵥ (y.1 - c) + u ⬝ᵥ (y.1 - c)) = 0 := by linarith
      rcases mul_eq_zero.mp h2 with h | h
      · exact absurd h hRi.ne'
      · have : y.2 ⬝ᵥ (y.1 - c) < 0 := hin
        linarith
    · rw [cross_of_normal hR (Or.inl hm) hM.2, smul_smul, mul_one_div_cancel hir.ne', one_smul, hcr]
  · linarith

/-- Inside of the ball `(p - c) × u` does not change. -/
theorem Remains.cross [F.Exact] {c : Fin 3 → ℝ} {R ir : ℝ} (hR : 0 < R) (hir : 0 < ir) {y x : (Fin 3 → ℝ) × (Fin 3 → ℝ)}
    (hy : y.1 ∈ sphereSet c R) (hu : y.2 ⬝ᵥ y.2 = 1) (hin : GoesIn c y) (h : Remains F c R ir y x) :
    x.1 ∈ sphereSet c R ∧ x.2 ⬝ᵥ x.2 = 1 ∧ GoesIn c x ∧ (x.1 - c) ⨯₃ x.2 = (y.1 - c) ⨯₃ y.2 := by
  induction h with
  | start => exact ⟨hy, hu, hin, rfl⟩
  | bounce _ hs hz ih =>
    obtain ⟨i1, i2, i3, i4⟩ := ih
    obtain ⟨j1, j2, ⟨-, j3⟩ | ⟨j3, -⟩⟩ := hs.inside hR hir i1 i2 i3
    · exact ⟨j1, j2, hz, j3.trans i4⟩
    · exact absurd hz j3

/-- C145: light that went into a glass ball and comes out of it after any number of reflections inside, leaves under the angle
at which it arrived, in the plane in which it arrived: it is as far from the centre, in the same sense. -/
theorem C145_leaves [F.Exact] (c : Fin 3 → ℝ) (R ir : ℝ) (hR : 0 < R) (hir : 0 < ir) (o d u : Fin 3 → ℝ) (hu : UnitOf d u)
    (p w q v : Fin 3 → ℝ) (x : (Fin 3 → ℝ) × (Fin 3 → ℝ)) (hout : u ⬝ᵥ (p - c) < 0) (henter : GlassStep F c R ir (o, d) (p, w))
    (hin : w ⬝ᵥ (p - c) < 0) (hx : Remains F c R ir (p, w) x) (hleave : GlassStep F c R ir x (q, v)) (hv : 0 ≤ v ⬝ᵥ (q - c)) :
    v ⬝ᵥ v = 1 ∧ v ⬝ᵥ (q - c) = -(u ⬝ᵥ (p - c)) ∧ (q - c) ⨯₃ v = (o - c) ⨯₃ u := by
  obtain ⟨a1, a2, a3, a4⟩ := GlassStep.enters (y := (p, w)) hR hir hu hout hin henter
  obtain ⟨b1, b2, b3, b4⟩ := Remains.cross (y := (p, w)) hR hir a1 a2 hin hx
  obtain ⟨c1, c2, ⟨c3, -⟩ | ⟨-, c3, -⟩⟩ := hleave.inside hR hir b1 b2 b3
  · exact absurd c3 (not_lt.mpr hv)
  dsimp only at a1 a2 a3 a4 b4 c1 c2 c3
  rw [b4, a3] at c3
  refine ⟨c2, ?_, c3⟩
  have h1 := cross_len c1 c2
  have h2 := cross_len a1 hu.1
  rw [c3] at h1
  rw [a4] at h2
  have h3 : (v ⬝ᵥ (q - c)) ^ 2 = (u ⬝ᵥ (p - c)) ^ 2 := by linarith
  rcases sq_eq_sq_iff_eq_or_eq_neg.mp h3 with h | h
  · linarith
  · exact h

/-- C145: light that starts inside of a glass ball, so flat that its sine times the index is above 1, never leaves it. -/
theorem C145_trapped [F.Exact] (c : Fin 3 → ℝ) (R ir : ℝ) (hR : 0 < R) (hir : 0 < ir) (p w : Fin 3 → ℝ) (hp : p ∈ sphereSet c R)
    (hw : w ⬝ᵥ w = 1) (hin : w ⬝ᵥ (p - c) < 0) (hflat : R ^ 2 < ir ^ 2 * (((p - c) ⨯₃ w) ⬝ᵥ ((p - c) ⨯₃ w)))
    (y : (Fin 3 → ℝ) × (Fin 3 → ℝ)) (h : Relation.ReflTransGen (GlassStep F c R ir) (p, w) y) : GoesIn c y := by
  suffices h : Remains F c R ir (p, w) y from (Remains.cross (y := (p, w)) hR hir hp hw hin h).2.2.1
  induction h with
  | refl => exact .start
  | tail _ hs ih =>
    refine .bounce ih hs ?_
    obtain ⟨b1, b2, b3, b4⟩ := Remains.cross (y := (p, w)) hR hir hp hw hin ih
    obtain ⟨-, -, ⟨h, -⟩ | ⟨-, -, h⟩⟩ := hs.inside hR hir b1 b2 b3
    · exact h
    · rw [b4] at h
      exact absurd h (not_le.mpr hflat)

/-- A ray inside of the ball meets the sphere again, at the other end of its chord. -/
theorem chord_hit [F.Exact] {c : Fin 3 → ℝ} {R : ℝ} {p w : Fin 3 → ℝ} (hp : p ∈ sphereSet c R) (hw : w ⬝ᵥ w = 1)
    (hfar : 1000 * F.eps ≤ -2 * (w ⬝ᵥ (p - c))) (htiny : F.tiny < -2 * (w ⬝ᵥ (p - c))) (rec : HitRecord (Fl F)) :
    ∃ q ∈ sphereSet c R, ((Sphere.ofReal c R).hit ⟨cv p, cv w⟩ (1000 * eps) inf rec).1 = true ∧
      ((Sphere.ofReal c R).hit ⟨cv p, cv w⟩ (1000 * eps) inf rec).2.p = cv q ∧ w ⬝ᵥ (q - c) = -(w ⬝ᵥ (p - c)) := by
  set s := -2 * (w ⬝ᵥ (p - c)) with hsdef
  have e0 := Fmt.Exact.eps_pos (F := F)
  have ht1 := Fmt.Exact.tiny_lt (F := F)
  have hline : ∀ t : ℝ, p + t • w ∈ sphereSet c R ↔ t = 0 ∨ t = s := by
    intro t
    simp only [sphereSet, Set.mem_ofPred_eq, Pi.add_apply, Pi.smul_apply, smul_eq_mul] at hp ⊢
    have hw' : w 0 ^ 2 + w 1 ^ 2 + w 2 ^ 2 = 1 := by
      rw [← hw]; simp [dotProduct, Fin.sum_univ_three]; ring
    have hs' : s = -2 * (w 0 * (p 0 - c 0) + w 1 * (p 1 - c 1) + w 2 * (p 2 - c 2)) := by
      rw [hsdef]; simp [dotProduct, Fin.sum_univ_three]
    have key : (p 0 + t * w 0 - c 0) ^ 2 + (p 1 + t * w 1 - c 1) ^ 2 + (p 2 + t * w 2 - c 2) ^ 2 - R ^ 2 = t * (t - s) := by
      linear_combination hp + t ^ 2 * hw' + t * hs'
    constructor
    · intro h
      have h2 : t * (t - s) = 0 := by linarith
      rcases mul_eq_zero.mp h2 with h | h
      · exact Or.inl h
      · exact Or.inr (by linarith)
    · intro h
      have h2 : t * (t - s) = 0 := by rcases h with h | h <;> rw [h] <;> ring
      linarith
  have hdotpc : (p - c) ⬝ᵥ w = w ⬝ᵥ (p - c) := dotProduct_comm _ _
  have hnear := C46_nearest_partial (F := F) c R p w (1000 * eps) (by rw [hw]; exact ht1)
    (Or.inr (by rw [hdotpc]; refine lt_of_lt_of_le htiny ?_; rw [← abs_neg]; refine le_trans (le_of_eq ?_) (le_abs_self _); rw [hsdef]; ring)) inf rec rfl
  have hrange : ∀ z : ℝ, InRange ((1000 * eps : Fl F), inf) z ↔ 1000 * F.eps ≤ z := by
    intro z; rw [offset_exact]; simp [InRange]
  have b1 := hnear.1.mpr ⟨s, (hrange s).mpr hfar, (hline s).mpr (Or.inr rfl)⟩
  obtain ⟨z, z1, z2, z3, z4, -⟩ := hnear.2 b1
  have hz : z = s := by
    rcases (hline z).mp z4 with h | h
    · have := (hrange z).mp z3; linarith
    · exact h
  rw [hz] at z2 z4
  refine ⟨_, z4, b1, z2, ?_⟩
  rw [show p + s • w - c = (p - c) + s • w by abel, dotProduct_add, dotProduct_smul, hw, smul_eq_mul, hsdef]; ring

theorem schlick_lt_one {x ir : ℝ} (hir : 0 < ir) (h0 : 0 < x) (h1 : x ≤ 1) : schlick x ir < 1 := by
  have hr : ((1 - ir) / (1 + ir)) ^ 2 < 1 := by
    rw [sq_lt_one_iff_abs_lt_one, abs_lt]
    constructor
    · rw [lt_div_iff₀ (by linarith)]; linarith
    · rw [div_lt_one (by linarith)]; linarith
  have ht : (1 - x) ^ 5 < 1 := pow_lt_one₀ (by linarith) (by linarith) (by norm_num)
  unfold schlick
  nlinarith

/-- C145: light that went into a glass ball is never caught: there is a number `s` below 1 such that after any number of
reflections the ray meets the sphere again, and leaves the ball there exactly if the random number is at least `s`. The way
through the ball is assumed longer than the offset `1000*eps` and the threshold of the root finder. -/
theorem C145_may_leave [F.Exact] (c : Fin 3 → ℝ) (R ir : ℝ) (hR : 0 < R) (hir : 0 < ir) (o d u : Fin 3 → ℝ) (hu : UnitOf d u)
    (p w : Fin 3 → ℝ) (hout : u ⬝ᵥ (p - c) < 0) (henter : GlassStep F c R ir (o, d) (p, w)) (hin : w ⬝ᵥ (p - c) < 0)
    (hfar : 1000 * F.eps ≤ -2 * (w ⬝ᵥ (p - c))) (htiny : F.tiny < -2 * (w ⬝ᵥ (p - c))) :
    ∃ s : ℝ, s < 1 ∧ ∀ x, Remains F c R ir (p, w) x → ∀ rec : HitRecord (Fl F), ∃ q ∈ sphereSet c R,
      ((Sphere.ofReal c R).hit ⟨cv x.1, cv x.2⟩ (1000 * eps) inf rec).1 = true ∧
      ((Sphere.ofReal c R).hit ⟨cv x.1, cv x.2⟩ (1000 * eps) inf rec).2.p = cv q ∧ ∀ ξ : ℝ, ∃ v : Fin 3 → ℝ,
        (Dielectric.scatter (fin ir) (fin ξ) ⟨cv x.1, cv x.2⟩ ((Sphere.ofReal c R).hit ⟨cv x.1, cv x.2⟩ (1000 * eps) inf rec).2).ray =
          some ⟨cv q, cv v⟩ ∧ (s ≤ ξ ↔ 0 ≤ v ⬝ᵥ (q - c)) := by
  obtain ⟨a1, a2, a3, a4⟩ := GlassStep.enters (y := (p, w)) hR hir hu hout hin henter
  dsimp only at a1 a2 a3 a4
  have hRi := inv_pos.mpr hR
  have hlen := cross_len a1 a2
  have hnn := dotProduct_self_nonneg' ((p - c) ⨯₃ w)
  -- the cosine of the angle inside
  have hk0 : 0 < -(R⁻¹ * (w ⬝ᵥ (p - c))) := neg_pos.mpr (mul_neg_of_pos_of_neg hRi hin)
  have hk1 : -(R⁻¹ * (w ⬝ᵥ (p - c))) ≤ 1 := by
    have : -(w ⬝ᵥ (p - c)) ≤ R := by nlinarith
    rw [← mul_neg, inv_mul_le_iff₀ hR, mul_one]
    exact this
  -- no total reflection
  have hno : ir ^ 2 * (((p - c) ⨯₃ w) ⬝ᵥ ((p - c) ⨯₃ w)) ≤ R ^ 2 := by
    have h1 : ir ^ 2 * (((p - c) ⨯₃ w) ⬝ᵥ ((p - c) ⨯₃ w)) = (ir • ((p - c) ⨯₃ w)) ⬝ᵥ (ir • ((p - c) ⨯₃ w)) := by
      rw [smul_dotProduct, dotProduct_smul, smul_eq_mul, smul_eq_mul]; ring
    rw [h1, a3, ← a4, cross_len a1 hu.1]
    nlinarith [sq_nonneg (u ⬝ᵥ (p - c))]
  refine ⟨schlick (-(R⁻¹ * (w ⬝ᵥ (p - c)))) ir, schlick_lt_one hir hk0 hk1, fun x hx rec => ?_⟩
  obtain ⟨b1, b2, b3, b4⟩ := Remains.cross (y := (p, w)) hR hir a1 a2 hin hx
  dsimp only at b4
  have hxw : x.2 ⬝ᵥ (x.1 - c) = w ⬝ᵥ (p - c) := by
    have h1 := cross_len b1 b2
    rw [b4, hlen] at h1
    rcases sq_eq_sq_iff_eq_or_eq_neg.mp (by linarith : (x.2 ⬝ᵥ (x.1 - c)) ^ 2 = (w ⬝ᵥ (p - c)) ^ 2) with h | h
    · exact h
    · have : x.2 ⬝ᵥ (x.1 - c) < 0 := b3
      linarith
  obtain ⟨q, hq, h1, h2, h3⟩ := chord_hit (F := F) b1 b2 (by rw [hxw]; exact hfar) (by rw [hxw]; exact htiny) rec
  refine ⟨q, hq, h1, h2, fun ξ => ?_⟩
  obtain ⟨⟨m, hm, hmm, hmn, hmd⟩, hff, -⟩ := C47_record c R hR _ _ _ _ rec _ hq h1 h2
  rw [hxw] at h3
  have hpos : 0 < x.2 ⬝ᵥ (q - c) := by rw [h3]; linarith
  have hm' : m = -(R⁻¹ • (q - c)) := by
    rcases hmn with h | h
    · rw [h, dotProduct_smul, smul_eq_mul] at hmd
      have := mul_pos hRi hpos
      linarith
    · exact h
  have hdm : ∀ v : Fin 3 → ℝ, v ⬝ᵥ m = -(R⁻¹ * (v ⬝ᵥ (q - c))) := by
    intro v; rw [hm', dotProduct_neg, dotProduct_smul, smul_eq_mul]
  have hxm : x.2 ⬝ᵥ m = R⁻¹ * (w ⬝ᵥ (p - c)) := by rw [hdm, h3]; ring
  obtain ⟨v, hs, hv, ratio, hratio, -, k2, k3⟩ := C77_scatter ir ξ hir x.1 x.2 x.2 m (UnitOf.self b2) _ hm hmm hmd
  rw [if_neg (by rw [hff]; linarith)] at hratio
  subst hratio
  rw [hxm] at k2 k3
  have hle : ratio ^ 2 * (1 - (R⁻¹ * (w ⬝ᵥ (p - c))) ^ 2) ≤ 1 := by
    rw [hlen] at hno
    have h1 : ratio ^ 2 * (R ^ 2 - (w ⬝ᵥ (p - c)) ^ 2) = R ^ 2 * (ratio ^ 2 * (1 - (R⁻¹ * (w ⬝ᵥ (p - c))) ^ 2)) := by
      field_simp
    rw [h1] at hno
    have := pow_pos hR 2
    exact le_of_mul_le_mul_left (by linarith) this
  refine ⟨v, by rw [hs, h2], ?_⟩
  constructor
  · intro hξ
    have := (k3 hle hξ).1
    rw [hdm] at this
    by_contra hc
    have := mul_neg_of_pos_of_neg hRi (not_le.mp hc)
    linarith
  · intro hv
    by_contra hc
    have := (k2 hle (not_le.mp hc)).1
    rw [hdm, hxm] at this
    have := mul_nonneg hRi.le hv
    linarith

/-! ## A drop of water -/

/-- The drop of radius 1, met at its top along `(4,0,-3)`. -/
theorem drop_enters : GlassStep exact64 0 1 (4 / 3) (![-4, 0, 4], ![4, 0, -3]) (![0, 0, 1], ![3 / 5, 0, -4 / 5]) := by
  have ht := Fmt.Exact.tiny_lt (F := exact64)
  have hS : ∀ z : ℝ, (![-4, 0, 4] + z • ![4, 0, -3] : Fin 3 → ℝ) ∈ sphereSet 0 1 ↔ (z = 1 ∨ z = 31 / 25) := by
    intro z
    simp only [sphereSet, Set.mem_ofPred_eq]
    simp
    constructor
    · intro h
      have : (z - 1) * (z - 31 / 25) = 0 := by linear_combination h / 25
      rcases mul_eq_zero.mp this with h | h
      · left; linarith
      · right; linarith
    · rintro (rfl | rfl) <;> norm_num
  have h := C46_nearest_partial (F := exact64) 0 1 ![-4, 0, 4] ![4, 0, -3] (1000 * eps)
    (by simp [dotProduct, Fin.sum_univ_three]; norm_num; linarith)
    (Or.inr (by simp [dotProduct, Fin.sum_univ_three]; norm_num; linarith)) pinf (HitRecord.default ![fin 0, fin 0, fin 0] ![fin 0, fin 0, fin 0] false) rfl
  have hr : InRange ((1000 * eps : Fl exact64), pinf) 1 := by
    rw [offset_exact]; simp [InRange]; simp only [exact64]; norm_num
  have b1 := h.1.mpr ⟨1, hr, (hS 1).mpr (Or.inl rfl)⟩
  obtain ⟨z, z1, z2, z3, z4, z5⟩ := h.2 b1
  have hz : z = 1 := by
    have := z5 1 hr ((hS 1).mpr (Or.inl rfl))
    rcases (hS z).mp z4 with h | h
    · exact h
    · linarith
  have hq : (![-4, 0, 4] + z • ![4, 0, -3] : Fin 3 → ℝ) = ![0, 0, 1] := by
    rw [hz]; ext i; fin_cases i <;> simp; norm_num
  rw [hq] at z2 z4
  have hout : (![4, 0, -3] : Fin 3 → ℝ) ⬝ᵥ (![0, 0, 1] - 0) < 0 := by simp [dotProduct, Fin.sum_univ_three]
  obtain ⟨⟨m, hm, -, hmn, hmd⟩, hff, -⟩ := C47_record (F := exact64) 0 1 one_pos _ _ _ _ _ _ z4 b1 z2
  have hm1 : m = ![0, 0, 1] := by
    rcases hmn with h | h
    · rw [h]; simp
    · rw [h] at hmd; simp [dotProduct, Fin.sum_univ_three] at hmd; linarith
  rw [hm1] at hm
  have hsc := water_enters ![-4, 0, 4] _ (hff.mpr hout) hm
  rw [z2] at hsc
  exact ⟨1 / 2, pinf, (HitRecord.default ![fin 0, fin 0, fin 0] ![fin 0, fin 0, fin 0] false), z4, b1, z2, hsc⟩

/-- Light inside of the drop may be mirrored as often as one likes, and leaves with the component 3/5 along the outward normal. -/
example (n : ℕ) : ∃ x : ℕ → (Fin 3 → ℝ) × (Fin 3 → ℝ), x 0 = (![0, 0, 1], ![3 / 5, 0, -4 / 5]) ∧
    (∀ k < n, GlassStep exact64 0 1 (4 / 3) (x k) (x (k + 1)) ∧ GoesIn 0 (x (k + 1))) ∧
    GlassStep exact64 0 1 (4 / 3) (x n) (x (n + 1)) ∧ (x (n + 1)).2 ⬝ᵥ (x (n + 1)).1 = 3 / 5 := by
  have ht := Fmt.Exact.tiny_lt (F := exact64)
  have hdot : (![3 / 5, 0, -4 / 5] : Fin 3 → ℝ) ⬝ᵥ (![0, 0, 1] - 0) = -4 / 5 := by simp [dotProduct, Fin.sum_univ_three]
  have hout : (![4 / 5, 0, -3 / 5] : Fin 3 → ℝ) ⬝ᵥ (![0, 0, 1] - 0) = -3 / 5 := by simp [dotProduct, Fin.sum_univ_three]
  obtain ⟨s, hs, h⟩ := C145_may_leave (F := exact64) 0 1 (4 / 3) one_pos (by norm_num) _ _ _ water_unit _ _ (by rw [hout]; norm_num)
    drop_enters (by rw [hdot]; norm_num) (by rw [hdot]; simp only [exact64]; norm_num) (by rw [hdot]; linarith)
  have step : ∀ (ξ : ℝ) x, Remains exact64 0 1 (4 / 3) (![0, 0, 1], ![3 / 5, 0, -4 / 5]) x → ∃ y, GlassStep exact64 0 1 (4 / 3) x y ∧
      (s ≤ ξ ↔ 0 ≤ y.2 ⬝ᵥ (y.1 - 0)) := by
    intro ξ x hx
    obtain ⟨q, h1, h2, h3, h4⟩ := h x hx (HitRecord.default ![fin 0, fin 0, fin 0] ![fin 0, fin 0, fin 0] false)
    obtain ⟨v, h5, h6⟩ := h4 ξ
    exact ⟨(q, v), ⟨ξ, inf, (HitRecord.default ![fin 0, fin 0, fin 0] ![fin 0, fin 0, fin 0] false), h1, h2, h3, h5⟩, h6⟩
  suffices hk : ∀ k, ∃ x : ℕ → (Fin 3 → ℝ) × (Fin 3 → ℝ), x 0 = (![0, 0, 1], ![3 / 5, 0, -4 / 5]) ∧
      (∀ j < k, GlassStep exact64 0 1 (4 / 3) (x j) (x (j + 1)) ∧ GoesIn 0 (x (j + 1))) ∧
      Remains exact64 0 1 (4 / 3) (![0, 0, 1], ![3 / 5, 0, -4 / 5]) (x k) by
    obtain ⟨x, x0, x1, x2⟩ := hk n
    obtain ⟨y, y1, y2⟩ := step 1 _ x2
    have hv := y2.mp hs.le
    have := C145_leaves (F := exact64) 0 1 (4 / 3) one_pos (by norm_num) _ _ _ water_unit _ _ y.1 y.2 _ (by rw [hout]; norm_num)
      drop_enters (by rw [hdot]; norm_num) x2 y1 hv
    refine ⟨Function.update x (n + 1) y, ?_, ?_, ?_, ?_⟩
    · rw [Function.update_of_ne (by omega)]; exact x0
    · intro k hk
      rw [Function.update_of_ne (by omega), Function.update_of_ne (by omega)]
      exact x1 k hk
    · rw [Function.update_of_ne (by omega), Function.update_self]; exact y1
    · rw [Function.update_self]
      have h2 := this.2.1
      rw [hout, sub_zero] at h2
      rw [h2]; norm_num
  intro k
  induction k with
  | zero => exact ⟨fun _ => (![0, 0, 1], ![3 / 5, 0, -4 / 5]), rfl, fun j hj => absurd hj (Nat.not_lt_zero j), .start⟩
  | succ k ih =>
    obtain ⟨x, x0, x1, x2⟩ := ih
    obtain ⟨y, y1, y2⟩ := step (s - 1) _ x2
    have hy : GoesIn 0 y := by
      by_contra hc
      have := y2.mpr (not_lt.mp hc)
      linarith
    refine ⟨Function.update x (k + 1) y, ?_, ?_, ?_⟩
    · rw [Function.update_of_ne (by omega)]; exact x0
    · intro j hj
      rcases Nat.lt_succ_iff_lt_or_eq.mp hj with hj | rfl
      · rw [Function.update_of_ne (by omega), Function.update_of_ne (by omega)]
        exact x1 j hj
      · rw [Function.update_of_ne (by omega), Function.update_self]
        exact ⟨y1, hy⟩
    · rw [Function.update_self]
      exact .bounce x2 y1 hy

/-- A ray that is caught in the drop: it starts at the top along `(4,0,-3)`. -/
example (y : (Fin 3 → ℝ) × (Fin 3 → ℝ))
    (h : Relation.ReflTransGen (GlassStep exact64 0 1 (4 / 3)) (![0, 0, 1], ![4 / 5, 0, -3 / 5]) y) : GoesIn 0 y :=
  C145_trapped (F := exact64) 0 1 (4 / 3) one_pos (by norm_num) _ _ (by simp [sphereSet])
    (by simp [dotProduct, Fin.sum_univ_three]; norm_num) (by simp [dotProduct, Fin.sum_univ_three]; norm_num)
    (by simp [cross_apply, dotProduct, Fin.sum_univ_three]; norm_num) y h

end DRT
