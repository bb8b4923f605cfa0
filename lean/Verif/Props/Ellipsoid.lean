import Verif.Model.Ellipsoid
import Verif.Props.Sphere

/-! # C51-C54: ellipsoids -/

namespace DRT
open Scalar Fl Matrix

variable {F : Fmt}

/-- The axis-aligned ellipsoid with centre `c` and semi-axes `s`, as a set of points. -/
def ellipsoidSet (c s : Fin 3 → ℝ) : Set (Fin 3 → ℝ) :=
  {p | ((p 0 - c 0) / s 0) ^ 2 + ((p 1 - c 1) / s 1) ^ 2 + ((p 2 - c 2) / s 2) ^ 2 = 1}

/-- The gradient at `p` of the function whose zero set is the ellipsoid. -/
noncomputable def ellipsoidGradient (c s p : Fin 3 → ℝ) : Fin 3 → ℝ := fun i => 2 * (p i - c i) / s i ^ 2

namespace Ellipsoid

/-- The model object with real centre and semi-axes. -/
def ofReal (c s : Fin 3 → ℝ) : Ellipsoid (Fl F) := ⟨cv c, cv s⟩

/-- What `hit` writes once it has the parameter. -/
def record {R : Type} [Scalar R] (s : Ellipsoid R) (r : Ray R) (t : R) (rec : HitRecord R) : HitRecord R :=
  let rc := { rec with t := t, p := r.at t }
  let n := s.gradient rc.p
  let rc := { rc with gradMag := Vec.norm n }
  let n := n /. rc.gradMag
  let uv := s.getUV rc.p
  let rc := { rc with u := uv.1, v := uv.2 }
  let rc := s.setForms rc
  rc.setFaceNormal r n

/-- The root that decides `hit`. -/
def root {R : Type} [Scalar R] (s : Ellipsoid R) (r : Ray R) (tmin tmax : R) : Option R :=
  let oc : Vec R 3 := ![(r.origin - s.center) 0 / s.scales 0, (r.origin - s.center) 1 / s.scales 1, (r.origin - s.center) 2 / s.scales 2]
  let sd : Vec R 3 := ![r.dir 0 / s.scales 0, r.dir 1 / s.scales 1, r.dir 2 / s.scales 2]
  firstQuadraticRootInRange (Vec.squaredNorm sd) (2 * Vec.dot oc sd) (Vec.squaredNorm oc - 1) tmin tmax

theorem hit_none {R : Type} [Scalar R] {s : Ellipsoid R} {r : Ray R} {tmin tmax : R} {rec : HitRecord R}
    (h : s.root r tmin tmax = none) : s.hit r tmin tmax rec = (false, rec) := by
  unfold root at h; dsimp only at h; unfold hit; simp only [h]

theorem hit_some {R : Type} [Scalar R] {s : Ellipsoid R} {r : Ray R} {tmin tmax t : R} {rec : HitRecord R}
    (h : s.root r tmin tmax = some t) : s.hit r tmin tmax rec = (true, s.record r t rec) := by
  unfold root at h; dsimp only at h; unfold hit; simp only [h]; rfl

theorem hit_cases {R : Type} [Scalar R] (s : Ellipsoid R) (r : Ray R) (tmin tmax : R) (rec : HitRecord R) :
    s.hit r tmin tmax rec = (false, rec) ∨ ∃ t, s.hit r tmin tmax rec = (true, s.record r t rec) := by
  rcases h : s.root r tmin tmax with _ | t
  · exact Or.inl (hit_none h)
  · exact Or.inr ⟨t, hit_some h⟩

theorem hit_true {R : Type} [Scalar R] {s : Ellipsoid R} {r : Ray R} {tmin tmax : R} {rec : HitRecord R}
    (h : (s.hit r tmin tmax rec).1 = true) :
    (s.hit r tmin tmax rec).2 = s.record r (s.hit r tmin tmax rec).2.t rec := by
  rcases hit_cases s r tmin tmax rec with hc | ⟨t, hc⟩
  · rw [hc] at h; cases h
  · rw [hc]; rfl

end Ellipsoid

/-! ## C51 -/

/-- Componentwise quotient. -/
noncomputable def scaled (v s : Fin 3 → ℝ) : Fin 3 → ℝ := fun i => v i / s i

theorem ellipsoid_quadratic (c s o d : Fin 3 → ℝ) (z : ℝ) :
    o + z • d ∈ ellipsoidSet c s ↔ (scaled d s ⬝ᵥ scaled d s) * z ^ 2 + (2 * (scaled (o - c) s ⬝ᵥ scaled d s)) * z +
      (scaled (o - c) s ⬝ᵥ scaled (o - c) s - 1) = 0 := by
  simp only [ellipsoidSet, scaled, Set.mem_setOf_eq, dotProduct, Fin.sum_univ_three, Pi.add_apply, Pi.sub_apply, Pi.smul_apply, smul_eq_mul]
  have e : ∀ i, (o i + z * d i - c i) / s i = (o i - c i) / s i + z * (d i / s i) := by intro i; ring
  rw [e, e, e]
  constructor <;> intro h <;> linarith

theorem cv_scaled [F.Exact] (v : Fin 3 → ℝ) {s : Fin 3 → ℝ} (hs : ∀ i, s i ≠ 0) :
    (![(cv v : Vec (Fl F) 3) 0 / (cv s : Vec (Fl F) 3) 0, (cv v : Vec (Fl F) 3) 1 / (cv s : Vec (Fl F) 3) 1,
      (cv v : Vec (Fl F) 3) 2 / (cv s : Vec (Fl F) 3) 2] : Vec (Fl F) 3) = cv (scaled v s) := by
  simp only [cv_apply, div_fin _ (hs _), cv_vec3]
  congr 1
  funext i; fin_cases i <;> rfl

/-- C51: `hit` returns true iff the ray meets the ellipsoid in the range, and then `rec.t` is the smallest such
parameter and `rec.p` the point there. Missing: coefficients of the quadratic between zero and
`numeric_limits<Real>::min()`. -/
theorem C51_nearest_partial [F.Exact] (c s : Fin 3 → ℝ) (hs : ∀ i, s i ≠ 0) (o d : Fin 3 → ℝ) (tmin : Fl F)
    (hd : F.tiny < scaled d s ⬝ᵥ scaled d s)
    (hb : scaled (o - c) s ⬝ᵥ scaled d s = 0 ∨ F.tiny < |2 * (scaled (o - c) s ⬝ᵥ scaled d s)|) :
    FindsNearest (ellipsoidSet c s) o d tmin ((Ellipsoid.ofReal c s).hit ⟨cv o, cv d⟩ tmin) := by
  have hroot : ∀ tmax : Fl F, (Ellipsoid.ofReal c s).root ⟨cv o, cv d⟩ tmin tmax =
      firstQuadraticRootInRange (fin (scaled d s ⬝ᵥ scaled d s)) (fin (2 * (scaled (o - c) s ⬝ᵥ scaled d s)))
        (fin (scaled (o - c) s ⬝ᵥ scaled (o - c) s - 1)) tmin tmax := by
    intro tmax
    unfold Ellipsoid.root Ellipsoid.ofReal
    simp only [cv_sub, cv_scaled _ hs]
    simp only [fl, Nat.cast_ofNat, Nat.cast_one]
  refine FindsNearest.of_quadratic (ellipsoid_quadratic c s o d) (lt_of_lt_of_le hd (le_abs_self _))
    (hb.imp (fun h => by rw [h, mul_zero]) id) ?_ ?_
  · intro tmax rec h
    rw [Ellipsoid.hit_none (by rw [hroot]; exact h)]
  · intro tmax rec z h
    rw [Ellipsoid.hit_some (t := fin z) (by rw [hroot]; exact h)]
    refine ⟨rfl, rfl, ?_⟩
    show (Ray.mk (cv o) (cv d) : Ray (Fl F)).at (fin z) = _
    rw [ray_at_cv]

example : FindsNearest (ellipsoidSet 0 ![1, 1, 2]) ![-3, 0, 0] ![1, 0, 0] (fin 0)
    ((Ellipsoid.ofReal (F := exact64) 0 ![1, 1, 2]).hit ⟨cv ![-3, 0, 0], cv ![1, 0, 0]⟩ (fin 0)) := by
  have ht := Fmt.Exact.tiny_lt (F := exact64)
  refine C51_nearest_partial 0 ![1, 1, 2] (by intro i; fin_cases i <;> simp) _ _ _ ?_ (Or.inr ?_)
  · simpa [scaled, dotProduct, Fin.sum_univ_three] using ht
  · have e : (2 : ℝ) * (scaled (![-3, 0, 0] - 0) ![1, 1, 2] ⬝ᵥ scaled ![1, 0, 0] ![1, 1, 2]) = -6 := by
      simp [scaled, dotProduct, Fin.sum_univ_three]; norm_num
    rw [e]
    norm_num
    linarith

/-- C51 when the threshold of the root finder is zero: all ellipsoids, all rays with nonzero direction, all ranges. -/
theorem C51_nearest_ideal [F.Exact] (ht : F.tiny = 0) (c s : Fin 3 → ℝ) (hs : ∀ i, s i ≠ 0) (o d : Fin 3 → ℝ)
    (tmin : Fl F) (hd : d ≠ 0) :
    FindsNearest (ellipsoidSet c s) o d tmin ((Ellipsoid.ofReal c s).hit ⟨cv o, cv d⟩ tmin) := by
  apply C51_nearest_partial _ _ hs
  · rw [ht]
    refine lt_of_le_of_ne (dotProduct_self_nonneg' _) (fun h => hd ?_)
    have h0 := dotProduct_self_eq_zero.1 h.symm
    funext i
    have := congrFun h0 i
    simpa [scaled, hs i] using this
  · rw [ht, abs_pos]
    by_cases h : scaled (o - c) s ⬝ᵥ scaled d s = 0
    · exact Or.inl h
    · exact Or.inr (mul_ne_zero two_ne_zero h)

/-- C51 fails when the square of the scaled direction is positive but at most `numeric_limits::min()`: the point reported
for the unit sphere as an ellipsoid is `(0,0,-5/4)`. -/
theorem C51_window_false [F.Exact] (ht : 0 < F.tiny) (rec : HitRecord (Fl F)) :
    ∃ rec', (Ellipsoid.ofReal 0 ![1, 1, 1]).hit ⟨cv ![0, 0, -2], cv ![0, 0, Real.sqrt F.tiny]⟩ (fin 0) pinf rec =
      (true, rec') ∧ rec'.p = cv ![0, 0, -(5 / 4)] ∧ (![0, 0, -(5 / 4)] : Fin 3 → ℝ) ∉ ellipsoidSet 0 ![1, 1, 1] := by
  have hs : 0 < Real.sqrt F.tiny := Real.sqrt_pos.mpr ht
  have hss : Real.sqrt F.tiny * Real.sqrt F.tiny = F.tiny := Real.mul_self_sqrt ht.le
  have h := first_root_window (F := F) (a := F.tiny) (b := -4 * Real.sqrt F.tiny) (c := 3) (by rw [abs_of_pos ht])
    (mul_ne_zero (by norm_num) hs.ne') (by rw [neg_mul, neg_div_neg_eq]; positivity)
  refine ⟨_, Ellipsoid.hit_some (t := fin (-3 / (-4 * Real.sqrt F.tiny))) ?_, ?_, ?_⟩
  · rw [← h]
    unfold Ellipsoid.root Ellipsoid.ofReal
    simp only [cv_sub, cv_scaled _ (show ∀ i, (![1, 1, 1] : Fin 3 → ℝ) i ≠ 0 by intro i; fin_cases i <;> simp)]
    simp only [fl, Nat.cast_ofNat, Nat.cast_one]
    congr 2
    · simp [dotProduct, Fin.sum_univ_three, scaled, hss]
    · simp [dotProduct, Fin.sum_univ_three, scaled]; ring
    · simp [dotProduct, Fin.sum_univ_three, scaled]; norm_num
  · show (Ray.mk (cv ![0, 0, -2]) (cv ![0, 0, Real.sqrt F.tiny]) : Ray (Fl F)).at _ = _
    rw [ray_at_cv]
    congr 1
    funext i
    fin_cases i
    · simp
    · simp
    · simp
      field_simp
      norm_num
  · simp [ellipsoidSet]; norm_num

/-- A ray along `x` through the centre of the ellipsoid with semi-axes 1, 2, 3 meets it. -/
example : ((Ellipsoid.ofReal (F := exact0) 0 ![1,2,3]).hit ⟨cv ![-5,0,0], cv ![1,0,0]⟩ (fin 0) pinf
      (HitRecord.default Vec.nans Vec.nans true)).1 = true := by
  have h := C51_nearest_ideal (F := exact0) rfl 0 ![1,2,3] (by intro i; fin_cases i <;> simp) ![-5,0,0] ![1,0,0] (fin 0)
    (by intro h; have := congrFun h 0; simp at this) pinf (HitRecord.default Vec.nans Vec.nans true) rfl
  refine h.1.mpr ⟨4, ⟨by rw [le_fin]; norm_num, by simp⟩, ?_⟩
  simp [ellipsoidSet]; norm_num

/-- C51 for any rounding: a hit has its parameter in range, and the point is the ray at that parameter. -/
theorem C51_in_range (s : Ellipsoid (Fl F)) (r : Ray (Fl F)) (tmin tmax : Fl F) (rec : HitRecord (Fl F))
    (h : (s.hit r tmin tmax rec).1 = true) :
    Scalar.le tmin (s.hit r tmin tmax rec).2.t = true ∧ Scalar.le (s.hit r tmin tmax rec).2.t tmax = true ∧
      (s.hit r tmin tmax rec).2.p = r.at (s.hit r tmin tmax rec).2.t := by
  rcases hf : s.root r tmin tmax with _ | t
  · rw [Ellipsoid.hit_none hf] at h; cases h
  · rw [Ellipsoid.hit_some hf]
    obtain ⟨-, h1, h2, -⟩ := C14_in_range _ _ _ _ _ hf
    exact ⟨h1, h2, rfl⟩

/-- The first of two crossings. -/
theorem Ellipsoid.hit_case (rec : HitRecord (Fl exact0)) :
    ((Ellipsoid.ofReal (F := exact0) 0 ![1,2,3]).hit ⟨cv ![-5,0,0], cv ![1,0,0]⟩ (fin 0) pinf rec).1 = true ∧
    ((Ellipsoid.ofReal (F := exact0) 0 ![1,2,3]).hit ⟨cv ![-5,0,0], cv ![1,0,0]⟩ (fin 0) pinf rec).2.p = cv ![-1, 0, 0] := by
  have hS : ∀ z : ℝ, (![-5,0,0] + z • ![1,0,0] : Fin 3 → ℝ) ∈ ellipsoidSet 0 ![1,2,3] ↔ (z = 4 ∨ z = 6) := by
    intro z
    have e : (![-5,0,0] + z • ![1,0,0] : Fin 3 → ℝ) ∈ ellipsoidSet 0 ![1,2,3] ↔
        ((-5 + z * 1 - 0) / 1) ^ 2 + ((0 + z * 0 - 0) / 2) ^ 2 + ((0 + z * 0 - 0) / 3) ^ 2 = (1 : ℝ) := Iff.rfl
    rw [e]
    constructor
    · intro h
      have : (z - 4) * (z - 6) = 0 := by linarith
      rcases mul_eq_zero.mp this with h | h
      · left; linarith
      · right; linarith
    · rintro (rfl | rfl) <;> norm_num
  have h := C51_nearest_ideal (F := exact0) rfl 0 ![1,2,3] (by intro i; fin_cases i <;> simp) ![-5,0,0] ![1,0,0] (fin 0)
    (by intro h; have := congrFun h 0; simp at this)
  have := h.at (tmax := pinf) (z := 4) rfl ⟨by rw [le_fin]; norm_num, by simp⟩ ((hS 4).mpr (Or.inl rfl)) (fun w _ hw => by
    rcases (hS w).mp hw with rfl | rfl <;> norm_num) rec
  refine ⟨this.1, this.2.2.trans ?_⟩
  rw [cv_inj]
  funext i
  fin_cases i <;> norm_num

example (rec : HitRecord (Fl exact0)) :
    Scalar.le (fin 0) ((Ellipsoid.ofReal (F := exact0) 0 ![1,2,3]).hit ⟨cv ![-5,0,0], cv ![1,0,0]⟩ (fin 0) pinf rec).2.t = true :=
  (C51_in_range _ _ _ _ rec (Ellipsoid.hit_case rec).1).1

/-! ## C52 -/

/-- The parametrization on the reals. -/
noncomputable def ellipsoidPoint (c s : Fin 3 → ℝ) (u v : ℝ) : Fin 3 → ℝ :=
  ![c 0 + s 0 * Real.cos (2 * Real.pi * u) * Real.sin (Real.pi * v),
    c 1 + s 1 * Real.sin (2 * Real.pi * u) * Real.sin (Real.pi * v),
    c 2 + s 2 * Real.cos (Real.pi * v)]

theorem Ellipsoid.eval_fin [F.Exact] (c s : Fin 3 → ℝ) (u v : ℝ) :
    (Ellipsoid.ofReal c s : Ellipsoid (Fl F)).eval (fin u) (fin v) = cv (ellipsoidPoint c s u v) := by
  unfold Ellipsoid.eval ellipsoidPoint Ellipsoid.ofReal
  simp only [fl, Nat.cast_ofNat, cv_vec3]

/-- Along with the point itself, the angles give back the scaled coordinates. -/
theorem Ellipsoid.getUV_spec [F.Exact] (c : Fin 3 → ℝ) {s : Fin 3 → ℝ} (hs : ∀ i, s i ≠ 0) {p : Fin 3 → ℝ}
    (hp : p ∈ ellipsoidSet c s) :
    ∃ u v : ℝ, (Ellipsoid.ofReal c s : Ellipsoid (Fl F)).getUV (cv p) = (fin u, fin v) ∧ 0 ≤ u ∧ u < 1 ∧ 0 ≤ v ∧ v ≤ 1 ∧
      ellipsoidPoint c s u v = p := by
  have hp' : scaled (p - c) s ∈ sphereSet 0 1 := by
    have : ((p 0 - c 0) / s 0) ^ 2 + ((p 1 - c 1) / s 1) ^ 2 + ((p 2 - c 2) / s 2) ^ 2 = 1 := hp
    simpa [sphereSet, scaled] using this
  obtain ⟨u, v, huv, h0, h1, h2, h3, hpt⟩ := Sphere.getUV_spec (F := F) 0 one_ne_zero hp'
  refine ⟨u, v, ?_, h0, h1, h2, h3, ?_⟩
  · rw [← huv]
    unfold Ellipsoid.getUV Sphere.getUV Ellipsoid.ofReal Sphere.ofReal
    simp only [cv_apply, sub_fin, div_fin _ (hs _), div_fin _ one_ne_zero, scaled, Pi.sub_apply, Pi.zero_apply, sub_zero, div_one]
  · have hi : ∀ i, spherePoint 0 1 u v i = (p i - c i) / s i := fun i => congrFun hpt i
    funext i
    match i with
    | 0 =>
      have := hi 0
      simp [spherePoint] at this
      show c 0 + s 0 * _ * _ = _
      rw [mul_assoc, this]; field_simp [hs 0]; ring
    | 1 =>
      have := hi 1
      simp [spherePoint] at this
      show c 1 + s 1 * _ * _ = _
      rw [mul_assoc, this]; field_simp [hs 1]; ring
    | 2 =>
      have := hi 2
      simp [spherePoint] at this
      show c 2 + s 2 * _ = _
      rw [this]; field_simp [hs 2]; ring

theorem Ellipsoid.gradient_fin [F.Exact] (c : Fin 3 → ℝ) {s : Fin 3 → ℝ} (hs : ∀ i, s i ≠ 0) (p : Fin 3 → ℝ) :
    (Ellipsoid.ofReal c s : Ellipsoid (Fl F)).gradient (cv p) = cv (ellipsoidGradient c s p) := by
  have h2 : ∀ i, s i * s i ≠ 0 := fun i => mul_self_ne_zero.mpr (hs i)
  unfold Ellipsoid.gradient Ellipsoid.ofReal
  simp only [cv_sub, cv_apply, mul_fin, ofNat_def, div_fin _ (h2 _), cv_vec3]
  rw [cv_inj]
  funext i
  fin_cases i <;> simp [ellipsoidGradient] <;> ring

/-- On the surface the gradient is not zero. -/
theorem ellipsoidGradient_pos (c : Fin 3 → ℝ) {s : Fin 3 → ℝ} (hs : ∀ i, s i ≠ 0) {p : Fin 3 → ℝ}
    (hp : p ∈ ellipsoidSet c s) : 0 < ellipsoidGradient c s p ⬝ᵥ ellipsoidGradient c s p := by
  refine lt_of_le_of_ne (dotProduct_self_nonneg' _) (fun h => ?_)
  have h0 := dotProduct_self_eq_zero.1 h.symm
  have : ∀ i, (p i - c i) / s i = 0 := by
    intro i
    have := congrFun h0 i
    simp only [ellipsoidGradient, Pi.zero_apply, div_eq_zero_iff, mul_eq_zero, two_ne_zero, false_or, pow_eq_zero_iff] at this
    rcases this with h | h
    · rw [h, zero_div]
    · exact absurd h (pow_ne_zero 2 (hs i))
  have hp' : ((p 0 - c 0) / s 0) ^ 2 + ((p 1 - c 1) / s 1) ^ 2 + ((p 2 - c 2) / s 2) ^ 2 = 1 := hp
  rw [this, this, this] at hp'
  norm_num at hp'

/-- C52: whenever the recorded point is on the ellipsoid, the recorded normal is plus or minus the normalized gradient of
the implicit function and does not point along the ray, the recorded magnitude is that of the gradient, and the
parametrization takes the recorded `u`, `v` in the unit square back to the point. -/
theorem C52_record [F.Exact] (c s : Fin 3 → ℝ) (hs : ∀ i, 0 < s i) (o d : Fin 3 → ℝ) (tmin tmax : Fl F)
    (rec : HitRecord (Fl F)) (p : Fin 3 → ℝ) (hp : p ∈ ellipsoidSet c s)
    (h : ((Ellipsoid.ofReal c s).hit ⟨cv o, cv d⟩ tmin tmax rec).1 = true)
    (hrp : ((Ellipsoid.ofReal c s).hit ⟨cv o, cv d⟩ tmin tmax rec).2.p = cv p) :
    let rec' := ((Ellipsoid.ofReal c s).hit ⟨cv o, cv d⟩ tmin tmax rec).2
    let g := ellipsoidGradient c s p
    (∃ m, rec'.normal = cv m ∧ m ⬝ᵥ m = 1 ∧ (m = (Real.sqrt (g ⬝ᵥ g))⁻¹ • g ∨ m = -((Real.sqrt (g ⬝ᵥ g))⁻¹ • g)) ∧ d ⬝ᵥ m ≤ 0) ∧
    (rec'.frontFace = true ↔ d ⬝ᵥ g < 0) ∧
    rec'.gradMag = fin (Real.sqrt (g ⬝ᵥ g)) ∧
    ∃ u v : ℝ, rec'.u = fin u ∧ rec'.v = fin v ∧ 0 ≤ u ∧ u < 1 ∧ 0 ≤ v ∧ v ≤ 1 ∧
      (Ellipsoid.ofReal c s).eval rec'.u rec'.v = rec'.p := by
  have hs0 : ∀ i, s i ≠ 0 := fun i => (hs i).ne'
  have hrec := Ellipsoid.hit_true h
  obtain ⟨t, ht⟩ : ∃ t, t = ((Ellipsoid.ofReal c s).hit ⟨cv o, cv d⟩ tmin tmax rec).2.t := ⟨_, rfl⟩
  rw [← ht] at hrec
  rw [hrec] at hrp ⊢
  have hat : (Ray.mk (cv o) (cv d) : Ray (Fl F)).at t = cv p := hrp
  intro rec' g
  have hg : 0 < g ⬝ᵥ g := ellipsoidGradient_pos c hs0 hp
  have hsq : 0 < Real.sqrt (g ⬝ᵥ g) := Real.sqrt_pos.mpr hg
  have hgr : (Ellipsoid.ofReal c s : Ellipsoid (Fl F)).gradient ((Ray.mk (cv o) (cv d) : Ray (Fl F)).at t) = cv g := by
    rw [hat]; exact Ellipsoid.gradient_fin c hs0 p
  have hn : (Ellipsoid.ofReal c s : Ellipsoid (Fl F)).gradient ((Ray.mk (cv o) (cv d) : Ray (Fl F)).at t) /.
      Vec.norm ((Ellipsoid.ofReal c s : Ellipsoid (Fl F)).gradient ((Ray.mk (cv o) (cv d) : Ray (Fl F)).at t)) =
      cv ((Real.sqrt (g ⬝ᵥ g))⁻¹ • g) := by
    rw [hgr, cv_norm, cv_sdiv hsq.ne']
  obtain ⟨u, v, huv, hu0, hu1, hv0, hv1, hpt⟩ := Ellipsoid.getUV_spec (F := F) c hs0 hp
  have hu : rec'.u = fin u := by
    show ((Ellipsoid.ofReal c s : Ellipsoid (Fl F)).getUV ((Ray.mk (cv o) (cv d) : Ray (Fl F)).at t)).1 = _
    rw [hat, huv]
  have hv : rec'.v = fin v := by
    show ((Ellipsoid.ofReal c s : Ellipsoid (Fl F)).getUV ((Ray.mk (cv o) (cv d) : Ray (Fl F)).at t)).2 = _
    rw [hat, huv]
  obtain ⟨rc, hrc⟩ : ∃ rc : HitRecord (Fl F), rec' = rc.setFaceNormal ⟨cv o, cv d⟩ (cv ((Real.sqrt (g ⬝ᵥ g))⁻¹ • g)) := by
    rw [← hn]; exact ⟨_, rfl⟩
  obtain ⟨m, hm, hdm, hmm, hff⟩ := C37_opposes (F := F) rc o d ((Real.sqrt (g ⬝ᵥ g))⁻¹ • g)
  refine ⟨⟨m, ?_, ?_, hmm, hdm⟩, ?_, ?_, u, v, hu, hv, hu0, hu1, hv0, hv1, ?_⟩
  · rw [hrc, hm]
  · have : ((Real.sqrt (g ⬝ᵥ g))⁻¹ • g) ⬝ᵥ ((Real.sqrt (g ⬝ᵥ g))⁻¹ • g) = 1 := by
      rw [smul_dotProduct, dotProduct_smul, smul_eq_mul, smul_eq_mul]
      nth_rewrite 3 [← Real.mul_self_sqrt hg.le]
      field_simp
    rcases hmm with rfl | rfl
    · exact this
    · rw [neg_dotProduct_neg, this]
  · rw [hrc, hff, dotProduct_smul, smul_eq_mul, mul_neg_iff]
    constructor
    · rintro (⟨_, h⟩ | ⟨h, _⟩)
      · exact h
      · exact absurd h (not_lt.mpr (inv_pos.mpr hsq).le)
    · intro h; exact Or.inl ⟨inv_pos.mpr hsq, h⟩
  · show Vec.norm ((Ellipsoid.ofReal c s : Ellipsoid (Fl F)).gradient ((Ray.mk (cv o) (cv d) : Ray (Fl F)).at t)) = _
    rw [hgr, cv_norm]
  · rw [hu, hv, Ellipsoid.eval_fin, hpt]; exact hat.symm

/-- A point of the ellipsoid with semi-axes 1, 2, 3. -/
theorem ellipsoid_point : (![-1, 0, 0] : Fin 3 → ℝ) ∈ ellipsoidSet 0 ![1,2,3] := by
  show (((-1:ℝ) - 0) / 1) ^ 2 + ((0 - 0) / 2) ^ 2 + ((0 - 0) / 3) ^ 2 = 1
  norm_num

theorem ellipsoid_axes : ∀ i, (0 : ℝ) < (![1,2,3] : Fin 3 → ℝ) i := by
  intro i
  fin_cases i <;> simp

example (rec : HitRecord (Fl exact0)) :
    ∃ m, ((Ellipsoid.ofReal (F := exact0) 0 ![1,2,3]).hit ⟨cv ![-5,0,0], cv ![1,0,0]⟩ (fin 0) pinf rec).2.normal = cv m ∧ m ⬝ᵥ m = 1 := by
  obtain ⟨⟨m, h1, h2, -⟩, -⟩ := C52_record 0 ![1,2,3] ellipsoid_axes _ _ _ _ rec _ ellipsoid_point (Ellipsoid.hit_case rec).1 (Ellipsoid.hit_case rec).2
  exact ⟨m, h1, h2⟩

/-! ## C53 -/

/-- The derivatives of the parametrization in the first parameter, on the reals. -/
noncomputable def ellipsoidPointU (s : Fin 3 → ℝ) (u v : ℝ) : Fin 3 → ℝ :=
  ![-2 * Real.pi * s 0 * Real.sin (2 * Real.pi * u) * Real.sin (Real.pi * v),
    2 * Real.pi * s 1 * Real.cos (2 * Real.pi * u) * Real.sin (Real.pi * v), 0]

/-- The derivatives of the parametrization in the second parameter, on the reals. -/
noncomputable def ellipsoidPointV (s : Fin 3 → ℝ) (u v : ℝ) : Fin 3 → ℝ :=
  ![Real.pi * s 0 * Real.cos (2 * Real.pi * u) * Real.cos (Real.pi * v),
    Real.pi * s 1 * Real.sin (2 * Real.pi * u) * Real.cos (Real.pi * v), -Real.pi * s 2 * Real.sin (Real.pi * v)]

theorem ellipsoidPoint_deriv (c s : Fin 3 → ℝ) (u v : ℝ) (i : Fin 3) :
    HasDerivAt (fun x => ellipsoidPoint c s x v i) (ellipsoidPointU s u v i) u ∧
    HasDerivAt (fun y => ellipsoidPoint c s u y i) (ellipsoidPointV s u v i) v := by
  have c1 := hasDerivAt_cos_mul (2 * Real.pi) u
  have s1 := hasDerivAt_sin_mul (2 * Real.pi) u
  have c2 := hasDerivAt_cos_mul Real.pi v
  have s2 := hasDerivAt_sin_mul Real.pi v
  match i with
  | 0 => exact ⟨(((c1.const_mul (s 0)).mul_const _).const_add (c 0)).congr_deriv (by simp only [ellipsoidPointU, cons_val_zero, cons_val_one, cons_val]; ring),
      ((s2.const_mul _).const_add (c 0)).congr_deriv (by simp only [ellipsoidPointV, cons_val_zero, cons_val_one, cons_val]; ring)⟩
  | 1 => exact ⟨(((s1.const_mul (s 1)).mul_const _).const_add (c 1)).congr_deriv (by simp only [ellipsoidPointU, cons_val_zero, cons_val_one, cons_val]; ring),
      ((s2.const_mul _).const_add (c 1)).congr_deriv (by simp only [ellipsoidPointV, cons_val_zero, cons_val_one, cons_val]; ring)⟩
  | 2 => exact ⟨hasDerivAt_const u _, ((c2.const_mul (s 2)).const_add (c 2)).congr_deriv (by simp only [ellipsoidPointV, cons_val_zero, cons_val_one, cons_val]; ring)⟩

theorem ellipsoidPoint_deriv2 (s : Fin 3 → ℝ) (u v : ℝ) (i : Fin 3) :
    HasDerivAt (fun x => ellipsoidPointU s x v i) ((![-4 * Real.pi ^ 2 * s 0 * Real.cos (2 * Real.pi * u) * Real.sin (Real.pi * v),
      -4 * Real.pi ^ 2 * s 1 * Real.sin (2 * Real.pi * u) * Real.sin (Real.pi * v), 0] : Fin 3 → ℝ) i) u ∧
    HasDerivAt (fun y => ellipsoidPointU s u y i) ((![-2 * Real.pi ^ 2 * s 0 * Real.sin (2 * Real.pi * u) * Real.cos (Real.pi * v),
      2 * Real.pi ^ 2 * s 1 * Real.cos (2 * Real.pi * u) * Real.cos (Real.pi * v), 0] : Fin 3 → ℝ) i) v ∧
    HasDerivAt (fun y => ellipsoidPointV s u y i) ((![-Real.pi ^ 2 * s 0 * Real.cos (2 * Real.pi * u) * Real.sin (Real.pi * v),
      -Real.pi ^ 2 * s 1 * Real.sin (2 * Real.pi * u) * Real.sin (Real.pi * v), -Real.pi ^ 2 * s 2 * Real.cos (Real.pi * v)] : Fin 3 → ℝ) i) v := by
  have c1 := hasDerivAt_cos_mul (2 * Real.pi) u
  have s1 := hasDerivAt_sin_mul (2 * Real.pi) u
  have c2 := hasDerivAt_cos_mul Real.pi v
  have s2 := hasDerivAt_sin_mul Real.pi v
  match i with
  | 0 => exact ⟨((s1.const_mul _).mul_const _).congr_deriv (by simp only [cons_val_zero, cons_val_one, cons_val]; ring),
      (s2.const_mul _).congr_deriv (by simp only [cons_val_zero, cons_val_one, cons_val]; ring),
      (c2.const_mul _).congr_deriv (by simp only [cons_val_zero, cons_val_one, cons_val]; ring)⟩
  | 1 => exact ⟨((c1.const_mul _).mul_const _).congr_deriv (by simp only [cons_val_zero, cons_val_one, cons_val]; ring),
      (s2.const_mul _).congr_deriv (by simp only [cons_val_zero, cons_val_one, cons_val]; ring),
      (c2.const_mul _).congr_deriv (by simp only [cons_val_zero, cons_val_one, cons_val]; ring)⟩
  | 2 => exact ⟨hasDerivAt_const u _, hasDerivAt_const v _,
      (s2.const_mul _).congr_deriv (by simp only [cons_val_zero, cons_val_one, cons_val]; ring)⟩

/-- The number under the root in `set_fundamental_forms`. -/
noncomputable def ellipsoidDenom (s : Fin 3 → ℝ) (u v : ℝ) : ℝ :=
  s 0 * s 0 * s 1 * s 1 * Real.cos (Real.pi * v) * Real.cos (Real.pi * v) +
    s 2 * s 2 * (s 1 * s 1 * Real.cos (2 * Real.pi * u) * Real.cos (2 * Real.pi * u) +
      s 0 * s 0 * Real.sin (2 * Real.pi * u) * Real.sin (2 * Real.pi * u)) * Real.sin (Real.pi * v) * Real.sin (Real.pi * v)

theorem ellipsoidDenom_pos {s : Fin 3 → ℝ} (hs : ∀ i, 0 < s i) (u v : ℝ) : 0 < ellipsoidDenom s u v := by
  have t1 := Real.sin_sq_add_cos_sq (2 * Real.pi * u)
  have t2 := Real.sin_sq_add_cos_sq (Real.pi * v)
  have a := hs 0; have b := hs 1; have c := hs 2
  unfold ellipsoidDenom
  generalize Real.sin (2 * Real.pi * u) = s1 at t1 ⊢
  generalize Real.cos (2 * Real.pi * u) = k1 at t1 ⊢
  generalize Real.sin (Real.pi * v) = s2 at t2 ⊢
  generalize Real.cos (Real.pi * v) = k2 at t2 ⊢
  have hin : 0 < s 1 ^ 2 * k1 ^ 2 + s 0 ^ 2 * s1 ^ 2 := by
    by_cases h : k1 = 0
    · have : s1 ^ 2 = 1 := by rw [h] at t1; linarith
      rw [this, h]; positivity
    · positivity
  have : s 0 * s 0 * s 1 * s 1 * k2 * k2 + s 2 * s 2 * (s 1 * s 1 * k1 * k1 + s 0 * s 0 * s1 * s1) * s2 * s2 =
      (s 0 * s 1) ^ 2 * k2 ^ 2 + s 2 ^ 2 * (s 1 ^ 2 * k1 ^ 2 + s 0 ^ 2 * s1 ^ 2) * s2 ^ 2 := by ring
  rw [this]
  by_cases h : k2 = 0
  · have h2 : s2 ^ 2 = 1 := by rw [h] at t2; linarith
    rw [h2, h]; positivity
  · positivity

/-- The six numbers `set_fundamental_forms` writes for real `u` and `v`. -/
theorem Ellipsoid.record_forms [F.Exact] (c : Fin 3 → ℝ) {s : Fin 3 → ℝ} (hs : ∀ i, 0 < s i) (r : Ray (Fl F)) (t : Fl F)
    (rec : HitRecord (Fl F)) {u v : ℝ} (hu : ((Ellipsoid.ofReal c s).record r t rec).u = fin u)
    (hv : ((Ellipsoid.ofReal c s).record r t rec).v = fin v) :
    let rec' := (Ellipsoid.ofReal c s).record r t rec
    let D := Real.sqrt (ellipsoidDenom s u v)
    rec'.E = fin (4 * Real.pi * Real.pi * Real.sin (Real.pi * v) * Real.sin (Real.pi * v) *
      (s 0 * s 0 * Real.sin (2 * Real.pi * u) * Real.sin (2 * Real.pi * u) + s 1 * s 1 * Real.cos (2 * Real.pi * u) * Real.cos (2 * Real.pi * u))) ∧
    rec'.F = fin (2 * Real.pi * Real.pi * Real.cos (2 * Real.pi * u) * Real.sin (2 * Real.pi * u) * Real.cos (Real.pi * v) *
      Real.sin (Real.pi * v) * (s 1 * s 1 - s 0 * s 0)) ∧
    rec'.G = fin (Real.pi * Real.pi * (s 0 * s 0 * Real.cos (Real.pi * v) * Real.cos (Real.pi * v) * Real.cos (2 * Real.pi * u) * Real.cos (2 * Real.pi * u) +
      s 1 * s 1 * Real.sin (2 * Real.pi * u) * Real.sin (2 * Real.pi * u) * Real.cos (Real.pi * v) * Real.cos (Real.pi * v) +
      s 2 * s 2 * Real.sin (Real.pi * v) * Real.sin (Real.pi * v))) ∧
    rec'.e = fin (4 * Real.pi * Real.pi * s 0 * s 1 * s 2 * Real.sin (Real.pi * v) * Real.sin (Real.pi * v) / D) ∧
    rec'.f = fin 0 ∧ rec'.g = fin (Real.pi * Real.pi * s 0 * s 1 * s 2 / D) := by
  intro rec' D
  have hpos := ellipsoidDenom_pos hs u v
  have hD : D ≠ 0 := (Real.sqrt_pos.mpr hpos).ne'
  have h1 : sin (pi * rec'.v) = fin (Real.sin (Real.pi * v)) := by rw [hv]; simp only [fl]
  have h2 : cos (pi * rec'.v) = fin (Real.cos (Real.pi * v)) := by rw [hv]; simp only [fl]
  have h3 : sin (2 * pi * rec'.u) = fin (Real.sin (2 * Real.pi * u)) := by rw [hu]; simp only [fl, Nat.cast_ofNat]
  have h4 : cos (2 * pi * rec'.u) = fin (Real.cos (2 * Real.pi * u)) := by rw [hu]; simp only [fl, Nat.cast_ofNat]
  have hd : sqrt ((fin (s 0) : Fl F) * fin (s 0) * fin (s 1) * fin (s 1) * cos (pi * rec'.v) * cos (pi * rec'.v) +
      fin (s 2) * fin (s 2) * (fin (s 1) * fin (s 1) * cos (2 * pi * rec'.u) * cos (2 * pi * rec'.u) +
        fin (s 0) * fin (s 0) * sin (2 * pi * rec'.u) * sin (2 * pi * rec'.u)) * sin (pi * rec'.v) * sin (pi * rec'.v)) = fin D := by
    rw [h1, h2, h3, h4]
    simp only [mul_fin, add_fin]
    exact sqrt_fin hpos.le
  refine ⟨?_, ?_, ?_, ?_, ?_, ?_⟩
  · show (4 : Fl F) * pi * pi * sin (pi * rec'.v) * sin (pi * rec'.v) * (fin (s 0) * fin (s 0) * sin (2 * pi * rec'.u) * sin (2 * pi * rec'.u) +
      fin (s 1) * fin (s 1) * cos (2 * pi * rec'.u) * cos (2 * pi * rec'.u)) = _
    rw [h1, h3, h4]; simp only [fl, Nat.cast_ofNat]
  · show (2 : Fl F) * pi * pi * cos (2 * pi * rec'.u) * sin (2 * pi * rec'.u) * cos (pi * rec'.v) * sin (pi * rec'.v) *
      (fin (s 1) * fin (s 1) - fin (s 0) * fin (s 0)) = _
    rw [h1, h2, h3, h4]; simp only [fl, Nat.cast_ofNat]
  · show (pi : Fl F) * pi * (fin (s 0) * fin (s 0) * cos (pi * rec'.v) * cos (pi * rec'.v) * cos (2 * pi * rec'.u) * cos (2 * pi * rec'.u) +
      fin (s 1) * fin (s 1) * sin (2 * pi * rec'.u) * sin (2 * pi * rec'.u) * cos (pi * rec'.v) * cos (pi * rec'.v) +
      fin (s 2) * fin (s 2) * sin (pi * rec'.v) * sin (pi * rec'.v)) = _
    rw [h1, h2, h3, h4]; simp only [fl, Nat.cast_ofNat]
  · rw [← div_fin _ hD, ← hd]
    show (4 : Fl F) * pi * pi * fin (s 0) * fin (s 1) * fin (s 2) * sin (pi * rec'.v) * sin (pi * rec'.v) / _ = _
    congr 1
    rw [h1]; simp only [fl, Nat.cast_ofNat]
  · rw [← ofNat_zero]; rfl
  · rw [← div_fin _ hD, ← hd]
    show (pi : Fl F) * pi * fin (s 0) * fin (s 1) * fin (s 2) / _ = _
    congr 1
    simp only [fl]

/-- The scaled gradient in terms of the angles. -/
theorem ellipsoid_normal (c : Fin 3 → ℝ) {s : Fin 3 → ℝ} (hs : ∀ i, 0 < s i) (u v : ℝ) :
    let g := ellipsoidGradient c s (ellipsoidPoint c s u v)
    (Real.sqrt (g ⬝ᵥ g))⁻¹ • g = (Real.sqrt (ellipsoidDenom s u v))⁻¹ •
      ![s 1 * s 2 * Real.cos (2 * Real.pi * u) * Real.sin (Real.pi * v),
        s 0 * s 2 * Real.sin (2 * Real.pi * u) * Real.sin (Real.pi * v), s 0 * s 1 * Real.cos (Real.pi * v)] := by
  intro g
  have h0 := (hs 0).ne'; have h1 := (hs 1).ne'; have h2 := (hs 2).ne'
  have hK : 0 < 2 / (s 0 * s 1 * s 2) := div_pos two_pos (mul_pos (mul_pos (hs 0) (hs 1)) (hs 2))
  have hg : g = (2 / (s 0 * s 1 * s 2)) • ![s 1 * s 2 * Real.cos (2 * Real.pi * u) * Real.sin (Real.pi * v),
        s 0 * s 2 * Real.sin (2 * Real.pi * u) * Real.sin (Real.pi * v), s 0 * s 1 * Real.cos (Real.pi * v)] := by
    funext i
    match i with
    | 0 => show 2 * (c 0 + _ - c 0) / _ = _ * (s 1 * s 2 * _ * _); field_simp; ring
    | 1 => show 2 * (c 1 + _ - c 1) / _ = _ * (s 0 * s 2 * _ * _); field_simp; ring
    | 2 => show 2 * (c 2 + _ - c 2) / _ = _ * (s 0 * s 1 * _); field_simp; ring
  rw [hg]
  generalize hw : (![s 1 * s 2 * Real.cos (2 * Real.pi * u) * Real.sin (Real.pi * v),
        s 0 * s 2 * Real.sin (2 * Real.pi * u) * Real.sin (Real.pi * v), s 0 * s 1 * Real.cos (Real.pi * v)] : Fin 3 → ℝ) = w
  have hww : w ⬝ᵥ w = ellipsoidDenom s u v := by
    rw [← hw]
    simp only [dotProduct, Fin.sum_univ_three, cons_val_zero, cons_val_one, cons_val, ellipsoidDenom]
    ring
  rw [smul_dotProduct, dotProduct_smul, smul_eq_mul, smul_eq_mul, hww, ← mul_assoc,
    Real.sqrt_mul (mul_self_nonneg _), Real.sqrt_mul_self hK.le, smul_smul]
  congr 1
  have := (Real.sqrt_pos.mpr (ellipsoidDenom_pos hs u v)).ne'
  field_simp

/-- C53: the numbers written on a hit are the two fundamental forms of the parametrization at `(rec.u, rec.v)`, the
second one for the inward unit normal. -/
theorem C53_forms [F.Exact] (c s : Fin 3 → ℝ) (hs : ∀ i, 0 < s i) (o d : Fin 3 → ℝ) (tmin tmax : Fl F)
    (rec : HitRecord (Fl F)) (p : Fin 3 → ℝ) (hp : p ∈ ellipsoidSet c s)
    (h : ((Ellipsoid.ofReal c s).hit ⟨cv o, cv d⟩ tmin tmax rec).1 = true)
    (hrp : ((Ellipsoid.ofReal c s).hit ⟨cv o, cv d⟩ tmin tmax rec).2.p = cv p) :
    let rec' := ((Ellipsoid.ofReal c s).hit ⟨cv o, cv d⟩ tmin tmax rec).2
    let g := ellipsoidGradient c s p
    ∃ (u v : ℝ) (σ : ℝ → ℝ → Fin 3 → ℝ), rec'.u = fin u ∧ rec'.v = fin v ∧
      (∀ u v : ℝ, (Ellipsoid.ofReal c s : Ellipsoid (Fl F)).eval (fin u) (fin v) = cv (σ u v)) ∧
      HasForms rec' σ (-((Real.sqrt (g ⬝ᵥ g))⁻¹ • g)) u v := by
  obtain ⟨-, -, -, u, v, hu, hv, -, -, -, -, hpt⟩ := C52_record c s hs o d tmin tmax rec p hp h hrp
  intro rec' g
  have hpt' : ellipsoidPoint c s u v = p := by
    have := hpt
    rw [hu, hv, Ellipsoid.eval_fin, hrp] at this
    exact cv_inj.mp this
  refine ⟨u, v, ellipsoidPoint c s, hu, hv, Ellipsoid.eval_fin c s, ellipsoidPointU s, ellipsoidPointV s,
    ellipsoidPoint_deriv c s, _, _, _, fun i => ellipsoidPoint_deriv2 s u v i, ?_⟩
  have hrec : rec' = (Ellipsoid.ofReal c s : Ellipsoid (Fl F)).record ⟨cv o, cv d⟩ rec'.t rec := Ellipsoid.hit_true h
  obtain ⟨hRE, hRF, hRG, hRe, hRf, hRg⟩ := Ellipsoid.record_forms (F := F) c hs ⟨cv o, cv d⟩ rec'.t rec (u := u) (v := v)
    (by rw [← hrec]; exact hu) (by rw [← hrec]; exact hv)
  rw [← hrec] at hRE hRF hRG hRe hRf hRg
  have hn := ellipsoid_normal c hs u v
  rw [hpt'] at hn
  have hD := Real.mul_self_sqrt (ellipsoidDenom_pos hs u v).le
  have hD0 := (Real.sqrt_pos.mpr (ellipsoidDenom_pos hs u v)).ne'
  rw [hRE, hRF, hRG, hRe, hRf, hRg]
  dsimp only at hn
  rw [show g = ellipsoidGradient c s p from rfl, hn]
  have t1 := Real.sin_sq_add_cos_sq (2 * Real.pi * u)
  have t2 := Real.sin_sq_add_cos_sq (Real.pi * v)
  generalize Real.sqrt (ellipsoidDenom s u v) = D at hD hD0
  unfold ellipsoidDenom at hD
  simp only [fin_inj, dotProduct, Fin.sum_univ_three, ellipsoidPointU, ellipsoidPointV, Pi.neg_apply, Pi.smul_apply, smul_eq_mul,
    cons_val_zero, cons_val_one, cons_val]
  generalize Real.sin (2 * Real.pi * u) = s1 at t1 hD ⊢
  generalize Real.cos (2 * Real.pi * u) = k1 at t1 hD ⊢
  generalize Real.sin (Real.pi * v) = s2 at t2 hD ⊢
  generalize Real.cos (Real.pi * v) = k2 at t2 hD ⊢
  clear hRE hRF hRG hRe hRf hRg hn hrec hpt'
  refine ⟨?_, ?_, ?_, ?_, ?_, ?_, ?_, ?_, ?_⟩
  · ring
  · ring
  · ring
  · rw [div_eq_mul_inv]
    linear_combination (-4 * s2 ^ 2 * s 0 * s 1 * s 2 * Real.pi ^ 2 * D⁻¹) * t1
  · ring
  · rw [div_eq_mul_inv]
    linear_combination (-s 0 * s 1 * s 2 * Real.pi ^ 2 * s2 ^ 2 * D⁻¹) * t1 - s 0 * s 1 * s 2 * Real.pi ^ 2 * D⁻¹ * t2
  · field_simp
    linear_combination -hD
  · ring
  · linear_combination (-s 0 * s 1 * s 2 * Real.pi * s2 * k2 * D⁻¹) * t1

example (rec : HitRecord (Fl exact0)) : ∃ (u v : ℝ) (σ : ℝ → ℝ → Fin 3 → ℝ) (n : Fin 3 → ℝ),
    HasForms ((Ellipsoid.ofReal (F := exact0) 0 ![1,2,3]).hit ⟨cv ![-5,0,0], cv ![1,0,0]⟩ (fin 0) pinf rec).2 σ n u v := by
  obtain ⟨u, v, σ, -, -, -, h⟩ := C53_forms 0 ![1,2,3] ellipsoid_axes _ _ _ _ rec _ ellipsoid_point (Ellipsoid.hit_case rec).1 (Ellipsoid.hit_case rec).2
  exact ⟨u, v, σ, _, h⟩

/-- `gaussian_curvature(p)` in terms of the angles. -/
theorem Ellipsoid.curvatureAt_point [F.Exact] (c : Fin 3 → ℝ) {s : Fin 3 → ℝ} (hs : ∀ i, 0 < s i) (u v : ℝ) :
    (Ellipsoid.ofReal c s : Ellipsoid (Fl F)).curvatureAt (cv (ellipsoidPoint c s u v)) =
      fin ((s 0 * s 1 * s 2) ^ 2 / ellipsoidDenom s u v ^ 2) := by
  have h0 := (hs 0).ne'; have h1 := (hs 1).ne'; have h2 := (hs 2).ne'
  have hD := ellipsoidDenom_pos hs u v
  have t1 := Real.sin_sq_add_cos_sq (2 * Real.pi * u)
  have t2 := Real.sin_sq_add_cos_sq (Real.pi * v)
  unfold Ellipsoid.curvatureAt Ellipsoid.ofReal
  simp only [cv_apply, mul_fin, sub_fin, add_fin]
  have key : s 2 * s 2 * (s 2 * s 2) * (s 1 * s 1) * (s 1 * s 1) + s 2 * s 2 * (s 2 * s 2) * (s 0 * s 0 - s 1 * s 1) *
      ((ellipsoidPoint c s u v 1 - c 1) * (ellipsoidPoint c s u v 1 - c 1)) + s 1 * s 1 * (s 1 * s 1) * (s 0 * s 0 - s 2 * s 2) *
      ((ellipsoidPoint c s u v 2 - c 2) * (ellipsoidPoint c s u v 2 - c 2)) = s 1 ^ 2 * s 2 ^ 2 * ellipsoidDenom s u v := by
    have e1 : ellipsoidPoint c s u v 1 - c 1 = s 1 * Real.sin (2 * Real.pi * u) * Real.sin (Real.pi * v) := by
      show c 1 + _ - c 1 = _; ring
    have e2 : ellipsoidPoint c s u v 2 - c 2 = s 2 * Real.cos (Real.pi * v) := by
      show c 2 + _ - c 2 = _; ring
    rw [e1, e2]
    unfold ellipsoidDenom
    generalize Real.sin (2 * Real.pi * u) = s1 at t1 ⊢
    generalize Real.cos (2 * Real.pi * u) = k1 at t1 ⊢
    generalize Real.sin (Real.pi * v) = s2 at t2 ⊢
    generalize Real.cos (Real.pi * v) = k2 at t2 ⊢
    linear_combination (-(s 1 ^ 4 * s 2 ^ 4 * s2 ^ 2)) * t1 - s 1 ^ 4 * s 2 ^ 4 * t2
  rw [key]
  have hne : s 1 ^ 2 * s 2 ^ 2 * ellipsoidDenom s u v ≠ 0 :=
    mul_ne_zero (mul_ne_zero (pow_ne_zero 2 h1) (pow_ne_zero 2 h2)) hD.ne'
  rw [div_fin _ (mul_self_ne_zero.mpr hne), fin_inj]
  have := hD.ne'
  field_simp

/-- C53: away from the poles `gaussian_curvature(p)` equals the curvature from the recorded fundamental forms.
Missing: the two poles, where the recorded one is not a number (`C53_pole_false`). -/
theorem C53_agree_partial [F.Exact] (c s : Fin 3 → ℝ) (hs : ∀ i, 0 < s i) (o d : Fin 3 → ℝ) (tmin tmax : Fl F)
    (rec : HitRecord (Fl F)) (p : Fin 3 → ℝ) (hp : p ∈ ellipsoidSet c s) (hpole : p 0 ≠ c 0 ∨ p 1 ≠ c 1)
    (h : ((Ellipsoid.ofReal c s).hit ⟨cv o, cv d⟩ tmin tmax rec).1 = true)
    (hrp : ((Ellipsoid.ofReal c s).hit ⟨cv o, cv d⟩ tmin tmax rec).2.p = cv p) :
    let rec' := ((Ellipsoid.ofReal c s).hit ⟨cv o, cv d⟩ tmin tmax rec).2
    rec'.gaussianCurvature = (Ellipsoid.ofReal c s).curvatureAt rec'.p ∧ Scalar.isNaN rec'.gaussianCurvature = false := by
  obtain ⟨-, -, -, u, v, hu, hv, -, -, -, -, hpt⟩ := C52_record c s hs o d tmin tmax rec p hp h hrp
  intro rec'
  have hpt' : ellipsoidPoint c s u v = p := by
    have := hpt
    rw [hu, hv, Ellipsoid.eval_fin, hrp] at this
    exact cv_inj.mp this
  have hs2 : Real.sin (Real.pi * v) ≠ 0 := by
    intro h0
    rw [← hpt'] at hpole
    simp [ellipsoidPoint, h0] at hpole
  have hrec : rec' = (Ellipsoid.ofReal c s : Ellipsoid (Fl F)).record ⟨cv o, cv d⟩ rec'.t rec := Ellipsoid.hit_true h
  obtain ⟨hRE, hRF, hRG, hRe, hRf, hRg⟩ := Ellipsoid.record_forms (F := F) c hs ⟨cv o, cv d⟩ rec'.t rec (u := u) (v := v)
    (by rw [← hrec]; exact hu) (by rw [← hrec]; exact hv)
  rw [← hrec] at hRE hRF hRG hRe hRf hRg
  have hDp := ellipsoidDenom_pos hs u v
  have hD := Real.mul_self_sqrt hDp.le
  have hD0 := (Real.sqrt_pos.mpr hDp).ne'
  have hK : rec'.gaussianCurvature = fin ((s 0 * s 1 * s 2) ^ 2 / ellipsoidDenom s u v ^ 2) := by
    unfold HitRecord.gaussianCurvature
    rw [hRE, hRF, hRG, hRe, hRf, hRg]
    simp only [mul_fin, sub_fin]
    have t1 := Real.sin_sq_add_cos_sq (2 * Real.pi * u)
    have key : 4 * Real.pi * Real.pi * Real.sin (Real.pi * v) * Real.sin (Real.pi * v) *
        (s 0 * s 0 * Real.sin (2 * Real.pi * u) * Real.sin (2 * Real.pi * u) + s 1 * s 1 * Real.cos (2 * Real.pi * u) * Real.cos (2 * Real.pi * u)) *
        (Real.pi * Real.pi * (s 0 * s 0 * Real.cos (Real.pi * v) * Real.cos (Real.pi * v) * Real.cos (2 * Real.pi * u) * Real.cos (2 * Real.pi * u) +
          s 1 * s 1 * Real.sin (2 * Real.pi * u) * Real.sin (2 * Real.pi * u) * Real.cos (Real.pi * v) * Real.cos (Real.pi * v) +
          s 2 * s 2 * Real.sin (Real.pi * v) * Real.sin (Real.pi * v))) -
        2 * Real.pi * Real.pi * Real.cos (2 * Real.pi * u) * Real.sin (2 * Real.pi * u) * Real.cos (Real.pi * v) * Real.sin (Real.pi * v) * (s 1 * s 1 - s 0 * s 0) *
        (2 * Real.pi * Real.pi * Real.cos (2 * Real.pi * u) * Real.sin (2 * Real.pi * u) * Real.cos (Real.pi * v) * Real.sin (Real.pi * v) * (s 1 * s 1 - s 0 * s 0)) =
        4 * Real.pi ^ 4 * Real.sin (Real.pi * v) ^ 2 * ellipsoidDenom s u v := by
      unfold ellipsoidDenom
      generalize Real.sin (2 * Real.pi * u) = s1 at t1 ⊢
      generalize Real.cos (2 * Real.pi * u) = k1 at t1 ⊢
      generalize Real.sin (Real.pi * v) = s2
      generalize Real.cos (Real.pi * v) = k2
      linear_combination (4 * Real.pi ^ 4 * s2 ^ 2 * s 0 ^ 2 * s 1 ^ 2 * k2 ^ 2 * (s1 ^ 2 + k1 ^ 2 + 1)) * t1
    have hne : 4 * Real.pi ^ 4 * Real.sin (Real.pi * v) ^ 2 * ellipsoidDenom s u v ≠ 0 := by
      have := Real.pi_ne_zero; have := hDp.ne'; positivity
    rw [key, div_fin _ hne, fin_inj]
    obtain ⟨D, hDe⟩ : ∃ D, D = Real.sqrt (ellipsoidDenom s u v) := ⟨_, rfl⟩
    rw [← hDe] at hD hD0 ⊢
    rw [← hD]
    have := Real.pi_ne_zero
    field_simp
    ring
  constructor
  · rw [hK, hrp, ← hpt', Ellipsoid.curvatureAt_point c hs]
  · rw [hK]; rfl

example (rec : HitRecord (Fl exact0)) : Scalar.isNaN
    ((Ellipsoid.ofReal (F := exact0) 0 ![1,2,3]).hit ⟨cv ![-5,0,0], cv ![1,0,0]⟩ (fin 0) pinf rec).2.gaussianCurvature = false :=
  (C53_agree_partial 0 ![1,2,3] ellipsoid_axes _ _ _ _ rec _ ellipsoid_point (Or.inl (by simp)) (Ellipsoid.hit_case rec).1
    (Ellipsoid.hit_case rec).2).2

/-- C53, refuted at the poles: for a ray along the `z` axis the recorded curvature is not a number, while
`gaussian_curvature(p)` is one. -/
theorem C53_pole_false :
    let E : Ellipsoid (Fl exact0) := Ellipsoid.ofReal 0 ![1, 2, 3]
    ∃ rec', E.hit ⟨cv ![0, 0, -5], cv ![0, 0, 1]⟩ (fin 0) pinf (HitRecord.default Vec.nans Vec.nans true) = (true, rec') ∧
      rec'.gaussianCurvature = Fl.nan ∧ Scalar.isNaN (E.curvatureAt rec'.p) = false := by
  intro E
  have hs : ∀ i, 0 < (![1, 2, 3] : Fin 3 → ℝ) i := by intro i; fin_cases i <;> norm_num
  have hf := C51_nearest_ideal (F := exact0) rfl 0 ![1,2,3] (fun i => (hs i).ne') ![0,0,-5] ![0,0,1] (fin 0)
    (by intro h; have h2 : (1:ℝ) = 0 := congrFun h 2; norm_num at h2) pinf (HitRecord.default Vec.nans Vec.nans true) rfl
  have hS : ∀ z : ℝ, (![0,0,-5] + z • ![0,0,1] : Fin 3 → ℝ) ∈ ellipsoidSet 0 ![1,2,3] ↔ (z = 2 ∨ z = 8) := by
    intro z
    have e : (![0,0,-5] + z • ![0,0,1] : Fin 3 → ℝ) ∈ ellipsoidSet 0 ![1,2,3] ↔
        ((0 + z * 0 - 0) / 1) ^ 2 + ((0 + z * 0 - 0) / 2) ^ 2 + ((-5 + z * 1 - 0) / 3) ^ 2 = 1 := Iff.rfl
    rw [e]
    constructor
    · intro h
      have : (z - 2) * (z - 8) = 0 := by linarith
      rcases mul_eq_zero.mp this with h | h
      · left; linarith
      · right; linarith
    · rintro (rfl | rfl) <;> norm_num
  have h1 := hf.1.mpr ⟨2, ⟨by rw [le_fin]; norm_num, by simp⟩, (hS 2).mpr (Or.inl rfl)⟩
  obtain ⟨z, -, hpz, -, hz, -⟩ := hf.2 h1
  obtain ⟨-, -, -, u, v, hu, hv, -, -, hv0, hv1, hpt⟩ := C52_record (F := exact0) 0 ![1,2,3] hs ![0,0,-5] ![0,0,1] (fin 0) pinf
    (HitRecord.default Vec.nans Vec.nans true) _ hz h1 hpz
  obtain ⟨rec', hrec'⟩ : ∃ rec', rec' = (E.hit ⟨cv ![0,0,-5], cv ![0,0,1]⟩ (fin 0) pinf (HitRecord.default Vec.nans Vec.nans true)).2 := ⟨_, rfl⟩
  refine ⟨rec', Prod.ext h1 hrec'.symm, ?_, ?_⟩
  · have hrec : rec' = E.record ⟨cv ![0,0,-5], cv ![0,0,1]⟩ rec'.t (HitRecord.default Vec.nans Vec.nans true) := by
      rw [hrec']; exact Ellipsoid.hit_true h1
    obtain ⟨hRE, hRF, hRG, hRe, hRf, hRg⟩ := Ellipsoid.record_forms (F := exact0) 0 hs ⟨cv ![0,0,-5], cv ![0,0,1]⟩ rec'.t
      (HitRecord.default Vec.nans Vec.nans true) (u := u) (v := v)
      ((congrArg HitRecord.u hrec.symm).trans (by rw [hrec']; exact hu)) ((congrArg HitRecord.v hrec.symm).trans (by rw [hrec']; exact hv))
    have hsin : Real.sin (Real.pi * v) = 0 := by
      rw [hu, hv, Ellipsoid.eval_fin, hpz, cv_inj] at hpt
      have hx : (0:ℝ) + 1 * Real.cos (2 * Real.pi * u) * Real.sin (Real.pi * v) = 0 + z * 0 := congrFun hpt 0
      have hy : (0:ℝ) + 2 * Real.sin (2 * Real.pi * u) * Real.sin (Real.pi * v) = 0 + z * 0 := congrFun hpt 1
      have t1 := Real.sin_sq_add_cos_sq (2 * Real.pi * u)
      by_contra hne
      have h3 : Real.cos (2 * Real.pi * u) = 0 := by
        rcases mul_eq_zero.mp (show Real.cos (2 * Real.pi * u) * Real.sin (Real.pi * v) = 0 by linarith) with h | h
        · exact h
        · exact absurd h hne
      have h4 : Real.sin (2 * Real.pi * u) = 0 := by
        rcases mul_eq_zero.mp (show Real.sin (2 * Real.pi * u) * Real.sin (Real.pi * v) = 0 by linarith) with h | h
        · exact h
        · exact absurd h hne
      rw [h3, h4] at t1; norm_num at t1
    rw [← show rec' = E.record _ _ _ from hrec] at hRE hRF hRG hRe hRf hRg
    unfold HitRecord.gaussianCurvature
    rw [hRE, hRF, hRG, hRe, hRf, hRg, hsin]
    simp only [mul_fin, sub_fin, mul_zero, zero_mul, zero_div, sub_zero]
    exact Fl.zero_div_zero
  · have hp : rec'.p = cv (ellipsoidPoint 0 ![1,2,3] u v) := by
      rw [hu, hv, Ellipsoid.eval_fin] at hpt
      rw [hrec', hpt]
    rw [hp, Ellipsoid.curvatureAt_point 0 hs]; rfl

/-- C53: at every point of the ellipsoid `gaussian_curvature(p)` lies within `gaussian_curvature_bounds()`, and both
bounds are attained. -/
theorem C53_bounds [F.Exact] (c s : Fin 3 → ℝ) (hs : ∀ i, 0 < s i) :
    ∃ lo hi : ℝ, (Ellipsoid.ofReal c s : Ellipsoid (Fl F)).curvatureBounds = (fin lo, fin hi) ∧
      (∀ p ∈ ellipsoidSet c s, ∃ K : ℝ, (Ellipsoid.ofReal c s : Ellipsoid (Fl F)).curvatureAt (cv p) = fin K ∧ lo ≤ K ∧ K ≤ hi) ∧
      (∃ p ∈ ellipsoidSet c s, (Ellipsoid.ofReal c s : Ellipsoid (Fl F)).curvatureAt (cv p) = fin lo) ∧
      (∃ p ∈ ellipsoidSet c s, (Ellipsoid.ofReal c s : Ellipsoid (Fl F)).curvatureAt (cv p) = fin hi) := by
  have h0 := hs 0; have h1 := hs 1; have h2 := hs 2
  obtain ⟨k0, hk0⟩ : ∃ k, k = s 0 * s 0 / (s 2 * s 2 * (s 1 * s 1)) := ⟨_, rfl⟩
  obtain ⟨k1, hk1⟩ : ∃ k, k = s 1 * s 1 / (s 0 * s 0 * (s 2 * s 2)) := ⟨_, rfl⟩
  obtain ⟨k2, hk2⟩ : ∃ k, k = s 2 * s 2 / (s 0 * s 0 * (s 1 * s 1)) := ⟨_, rfl⟩
  have hb : (Ellipsoid.ofReal c s : Ellipsoid (Fl F)).curvatureBounds =
      (fin (Min.min (Min.min k2 k0) k1), fin (Max.max (Max.max k2 k0) k1)) := by
    have n1 : s 0 * s 0 * (s 1 * s 1) ≠ 0 := by positivity
    have n2 : s 2 * s 2 * (s 1 * s 1) ≠ 0 := by positivity
    have n3 : s 0 * s 0 * (s 2 * s 2) ≠ 0 := by positivity
    unfold Ellipsoid.curvatureBounds Ellipsoid.ofReal
    simp only [cv_apply, mul_fin, div_fin _ n1, div_fin _ n2, div_fin _ n3, min_fin, max_fin, hk0, hk1, hk2]
  -- the three axis ends
  have hax : ∀ u v : ℝ, ellipsoidPoint c s u v ∈ ellipsoidSet c s := by
    intro u v
    have e : ∀ x y : ℝ, y ≠ 0 → ∀ w, (w + y * x - w) / y = x := by intro x y hy w; field_simp; ring
    show ((c 0 + _ - c 0) / s 0) ^ 2 + ((c 1 + _ - c 1) / s 1) ^ 2 + ((c 2 + _ - c 2) / s 2) ^ 2 = 1
    rw [mul_assoc (s 0), mul_assoc (s 1), e _ _ h0.ne', e _ _ h1.ne', e _ _ h2.ne']
    linear_combination Real.sin (Real.pi * v) ^ 2 * Real.sin_sq_add_cos_sq (2 * Real.pi * u) + Real.sin_sq_add_cos_sq (Real.pi * v)
  have a2 : ∃ p ∈ ellipsoidSet c s, (Ellipsoid.ofReal c s : Ellipsoid (Fl F)).curvatureAt (cv p) = fin k2 := by
    refine ⟨_, hax 0 0, ?_⟩
    rw [Ellipsoid.curvatureAt_point c hs, fin_inj, hk2]
    simp only [ellipsoidDenom, mul_zero, Real.sin_zero, Real.cos_zero, mul_one, add_zero]
    field_simp
  have a0 : ∃ p ∈ ellipsoidSet c s, (Ellipsoid.ofReal c s : Ellipsoid (Fl F)).curvatureAt (cv p) = fin k0 := by
    refine ⟨_, hax 0 (1 / 2), ?_⟩
    rw [Ellipsoid.curvatureAt_point c hs, fin_inj, hk0]
    simp only [ellipsoidDenom, show Real.pi * (1 / 2) = Real.pi / 2 by ring, mul_zero, Real.sin_zero, Real.cos_zero, mul_one, add_zero,
      Real.sin_pi_div_two, Real.cos_pi_div_two, zero_add]
    field_simp
  have a1 : ∃ p ∈ ellipsoidSet c s, (Ellipsoid.ofReal c s : Ellipsoid (Fl F)).curvatureAt (cv p) = fin k1 := by
    refine ⟨_, hax (1 / 4) (1 / 2), ?_⟩
    rw [Ellipsoid.curvatureAt_point c hs, fin_inj, hk1]
    simp only [ellipsoidDenom, show Real.pi * (1 / 2) = Real.pi / 2 by ring, show 2 * Real.pi * (1 / 4) = Real.pi / 2 by ring, mul_zero, mul_one, add_zero,
      Real.sin_pi_div_two, Real.cos_pi_div_two, zero_add]
    field_simp
  refine ⟨_, _, hb, ?_, ?_, ?_⟩
  · intro p hp
    obtain ⟨u, v, -, -, -, -, -, hpt⟩ := Ellipsoid.getUV_spec (F := F) c (fun i => (hs i).ne') hp
    refine ⟨_, by rw [← hpt]; exact Ellipsoid.curvatureAt_point c hs u v, ?_⟩
    have hD := ellipsoidDenom_pos hs u v
    have t1 := Real.sin_sq_add_cos_sq (2 * Real.pi * u)
    have t2 := Real.sin_sq_add_cos_sq (Real.pi * v)
    -- the number under the root is a convex combination of the three products
    obtain ⟨w, hw⟩ : ∃ w, w = ellipsoidDenom s u v := ⟨_, rfl⟩
    rw [← hw] at hD ⊢
    obtain ⟨x, hx⟩ : ∃ x, x = (Real.cos (2 * Real.pi * u) * Real.sin (Real.pi * v)) ^ 2 := ⟨_, rfl⟩
    obtain ⟨y, hy⟩ : ∃ y, y = (Real.sin (2 * Real.pi * u) * Real.sin (Real.pi * v)) ^ 2 := ⟨_, rfl⟩
    obtain ⟨z, hz⟩ : ∃ z, z = Real.cos (Real.pi * v) ^ 2 := ⟨_, rfl⟩
    have hx0 : 0 ≤ x := by rw [hx]; positivity
    have hy0 : 0 ≤ y := by rw [hy]; positivity
    have hz0 : 0 ≤ z := by rw [hz]; positivity
    have hsum : x + y + z = 1 := by
      rw [hx, hy, hz]; linear_combination Real.sin (Real.pi * v) ^ 2 * t1 + t2
    have hwc : w = (s 1 * s 2) ^ 2 * x + (s 0 * s 2) ^ 2 * y + (s 0 * s 1) ^ 2 * z := by
      rw [hw, hx, hy, hz, ellipsoidDenom]; ring
    have e0 : k0 = (s 0 * s 1 * s 2) ^ 2 / ((s 1 * s 2) ^ 2) ^ 2 := by rw [hk0]; field_simp
    have e1 : k1 = (s 0 * s 1 * s 2) ^ 2 / ((s 0 * s 2) ^ 2) ^ 2 := by rw [hk1]; field_simp
    have e2 : k2 = (s 0 * s 1 * s 2) ^ 2 / ((s 0 * s 1) ^ 2) ^ 2 := by rw [hk2]; field_simp
    obtain ⟨A, hA⟩ : ∃ A, A = (s 1 * s 2) ^ 2 := ⟨_, rfl⟩
    obtain ⟨B, hB⟩ : ∃ B, B = (s 0 * s 2) ^ 2 := ⟨_, rfl⟩
    obtain ⟨C, hC⟩ : ∃ C, C = (s 0 * s 1) ^ 2 := ⟨_, rfl⟩
    have hAp : 0 < A := by rw [hA]; positivity
    have hBp : 0 < B := by rw [hB]; positivity
    have hCp : 0 < C := by rw [hC]; positivity
    rw [← hA] at e0 hwc; rw [← hB] at e1 hwc; rw [← hC] at e2 hwc
    have hN : 0 ≤ (s 0 * s 1 * s 2) ^ 2 := sq_nonneg _
    have mono : ∀ {a b : ℝ}, 0 < a → a ≤ b → (s 0 * s 1 * s 2) ^ 2 / b ^ 2 ≤ (s 0 * s 1 * s 2) ^ 2 / a ^ 2 := by
      intro a b ha hab
      exact div_le_div_of_nonneg_left hN (by positivity) (pow_le_pow_left₀ ha.le hab 2)
    constructor
    · have : w ≤ A ∨ w ≤ B ∨ w ≤ C := by
        by_contra hcon
        push Not at hcon
        obtain ⟨g1, g2, g3⟩ := hcon
        have : A * x + B * y + C * z < w * x + w * y + w * z := by
          rcases hx0.lt_or_eq with hx' | hx'
          · have := mul_lt_mul_of_pos_right g1 hx'
            have := mul_le_mul_of_nonneg_right g2.le hy0
            have := mul_le_mul_of_nonneg_right g3.le hz0
            linarith
          · rcases hy0.lt_or_eq with hy' | hy'
            · have := mul_lt_mul_of_pos_right g2 hy'
              have := mul_le_mul_of_nonneg_right g1.le hx0
              have := mul_le_mul_of_nonneg_right g3.le hz0
              linarith
            · have hz' : 0 < z := by linarith
              have := mul_lt_mul_of_pos_right g3 hz'
              have := mul_le_mul_of_nonneg_right g1.le hx0
              have := mul_le_mul_of_nonneg_right g2.le hy0
              linarith
        have e : w * x + w * y + w * z = w := by linear_combination w * hsum
        linarith
      rcases this with h | h | h
      · exact le_trans (le_trans (min_le_left _ _) (min_le_right _ _)) (by rw [e0]; exact mono hD h)
      · exact le_trans (min_le_right _ _) (by rw [e1]; exact mono hD h)
      · exact le_trans (le_trans (min_le_left _ _) (min_le_left _ _)) (by rw [e2]; exact mono hD h)
    · have : A ≤ w ∨ B ≤ w ∨ C ≤ w := by
        by_contra hcon
        push Not at hcon
        obtain ⟨g1, g2, g3⟩ := hcon
        have : w * x + w * y + w * z < A * x + B * y + C * z := by
          rcases hx0.lt_or_eq with hx' | hx'
          · have := mul_lt_mul_of_pos_right g1 hx'
            have := mul_le_mul_of_nonneg_right g2.le hy0
            have := mul_le_mul_of_nonneg_right g3.le hz0
            linarith
          · rcases hy0.lt_or_eq with hy' | hy'
            · have := mul_lt_mul_of_pos_right g2 hy'
              have := mul_le_mul_of_nonneg_right g1.le hx0
              have := mul_le_mul_of_nonneg_right g3.le hz0
              linarith
            · have hz' : 0 < z := by linarith
              have := mul_lt_mul_of_pos_right g3 hz'
              have := mul_le_mul_of_nonneg_right g1.le hx0
              have := mul_le_mul_of_nonneg_right g2.le hy0
              linarith
        have e : w * x + w * y + w * z = w := by linear_combination w * hsum
        linarith
      rcases this with h | h | h
      · exact le_trans (by rw [e0]; exact mono hAp h) (le_trans (le_max_right k2 k0) (le_max_left _ _))
      · exact le_trans (by rw [e1]; exact mono hBp h) (le_max_right _ k1)
      · exact le_trans (by rw [e2]; exact mono hCp h) (le_trans (le_max_left k2 k0) (le_max_left _ _))
  · rcases min_choice (Min.min k2 k0) k1 with h | h <;> rw [h]
    · rcases min_choice k2 k0 with h | h <;> rw [h]
      · exact a2
      · exact a0
    · exact a1
  · rcases max_choice (Max.max k2 k0) k1 with h | h <;> rw [h]
    · rcases max_choice k2 k0 with h | h <;> rw [h]
      · exact a2
      · exact a0
    · exact a1

example : ∃ lo hi : ℝ, (Ellipsoid.ofReal 0 ![1, 2, 3] : Ellipsoid (Fl exact64)).curvatureBounds = (fin lo, fin hi) := by
  obtain ⟨lo, hi, h, -⟩ := C53_bounds (F := exact64) 0 ![1, 2, 3] (by intro i; fin_cases i <;> norm_num)
  exact ⟨lo, hi, h⟩

/-! ## C54 -/

/-- C54: the box contains every point of the ellipsoid and each of its six faces touches it. -/
theorem C54_box [F.Exact] (c s : Fin 3 → ℝ) (hs : ∀ i, 0 < s i) :
    ∃ lo hi : Fin 3 → ℝ, (Ellipsoid.ofReal c s : Ellipsoid (Fl F)).bbox = (true, ⟨cv lo, cv hi⟩) ∧
      (∀ p ∈ ellipsoidSet c s, ∀ i, lo i ≤ p i ∧ p i ≤ hi i) ∧
      ∀ i, (∃ p ∈ ellipsoidSet c s, p i = lo i) ∧ ∃ p ∈ ellipsoidSet c s, p i = hi i := by
  refine ⟨c - s, c + s, ?_, ?_, ?_⟩
  · unfold Ellipsoid.bbox Ellipsoid.ofReal
    simp only [cv_sub, cv_add]
  · intro p hp i
    have hp' : ((p 0 - c 0) / s 0) ^ 2 + ((p 1 - c 1) / s 1) ^ 2 + ((p 2 - c 2) / s 2) ^ 2 = 1 := hp
    have h0 := sq_nonneg ((p 0 - c 0) / s 0)
    have h1 := sq_nonneg ((p 1 - c 1) / s 1)
    have h2 := sq_nonneg ((p 2 - c 2) / s 2)
    have key : ((p i - c i) / s i) ^ 2 ≤ 1 ^ 2 := by
      rw [one_pow]
      match i with
      | 0 => linarith
      | 1 => linarith
      | 2 => linarith
    have := abs_le_of_sq_le_sq' key zero_le_one
    rw [div_le_iff₀ (hs i), le_div_iff₀ (hs i)] at this
    rw [Pi.sub_apply, Pi.add_apply]
    constructor <;> linarith
  · intro i
    have h0 := (hs 0).ne'; have h1 := (hs 1).ne'; have h2 := (hs 2).ne'
    refine ⟨⟨Function.update c i (c i - s i), ?_, ?_⟩, ⟨Function.update c i (c i + s i), ?_, ?_⟩⟩ <;>
      fin_cases i <;> simp [ellipsoidSet, neg_div, div_self, h0, h1, h2]

example : ∃ p ∈ ellipsoidSet 0 ![1,2,3], p 1 = -2 :=
  ⟨![0,-2,0], by show (((0:ℝ) - 0) / 1) ^ 2 + ((-2 - 0) / 2) ^ 2 + ((0 - 0) / 3) ^ 2 = 1; norm_num, rfl⟩

/-- C93: an ellipsoid that is missed leaves the record as it was, for any rounding. -/
theorem C93_ellipsoid (s : Ellipsoid (Fl F)) (r : Ray (Fl F)) (tmin tmax : Fl F) (rec : HitRecord (Fl F))
    (h : (s.hit r tmin tmax rec).1 = false) : (s.hit r tmin tmax rec).2 = rec := by
  rcases Ellipsoid.hit_cases s r tmin tmax rec with hc | ⟨t, hc⟩
  · rw [hc]
  · rw [hc] at h; cases h

/-- A miss: the surface is behind the origin of the ray. -/
example (rec : HitRecord (Fl exact0)) :
    ((Ellipsoid.ofReal (F := exact0) 0 ![1,2,3]).hit ⟨cv ![5,0,0], cv ![1,0,0]⟩ (fin 0) pinf rec).2 = rec := by
  refine C93_ellipsoid _ _ _ _ rec ?_
  have h := (C51_nearest_ideal (F := exact0) rfl 0 ![1,2,3] (by intro i; fin_cases i <;> simp) ![5,0,0] ![1,0,0] (fin 0)
    (by intro h; have := congrFun h 0; simp at this) pinf rec rfl).1
  rw [← Bool.not_eq_true, h]
  rintro ⟨z, hz, hS⟩
  have e : ((5 + z * 1 - 0) / 1) ^ 2 + ((0 + z * 0 - 0) / 2) ^ 2 + ((0 + z * 0 - 0) / 3) ^ 2 = (1 : ℝ) := hS
  have h0 := hz.1
  simp only [le_fin, decide_eq_true_eq] at h0
  nlinarith

end DRT
