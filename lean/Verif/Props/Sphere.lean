import Verif.Model.Sphere
import Verif.Lemmas.Surface
import Verif.Lemmas.Angle
import Verif.Props.HitRecord
import Mathlib.Analysis.SpecialFunctions.Trigonometric.Deriv
import Mathlib.LinearAlgebra.Matrix.DotProduct

/-! # C46-C50: spheres -/

namespace DRT
open Scalar Fl Matrix

variable {F : Fmt}

/-- The sphere with centre `c` and radius `R`, as a set of points. -/
def sphereSet (c : Fin 3 → ℝ) (R : ℝ) : Set (Fin 3 → ℝ) :=
  {p | (p 0 - c 0) ^ 2 + (p 1 - c 1) ^ 2 + (p 2 - c 2) ^ 2 = R ^ 2}

namespace Sphere

/-- The model object with real centre and radius. -/
def ofReal (c : Fin 3 → ℝ) (R : ℝ) : Sphere (Fl F) := ⟨cv c, fin R⟩

/-- What `hit` writes once it has the parameter. -/
def record {R : Type} [Scalar R] (s : Sphere R) (r : Ray R) (t : R) (rec : HitRecord R) : HitRecord R :=
  let rc := { rec with t := t, p := r.at t }
  let n := (rc.p - s.center) /. s.radius
  let rc := rc.setFaceNormal r n
  let uv := s.getUV rc.p
  let rc := { rc with u := uv.1, v := uv.2, gradMag := 2 * s.radius }
  s.setForms rc

theorem hit_none {R : Type} [Scalar R] {s : Sphere R} {r : Ray R} {tmin tmax : R} {rec : HitRecord R}
    (h : firstQuadraticRootInRange (Vec.squaredNorm r.dir) (2 * Vec.dot (r.origin - s.center) r.dir)
      (Vec.squaredNorm (r.origin - s.center) - s.radius * s.radius) tmin tmax = none) :
    s.hit r tmin tmax rec = (false, rec) := by
  unfold hit; simp only [h]

theorem hit_some {R : Type} [Scalar R] {s : Sphere R} {r : Ray R} {tmin tmax t : R} {rec : HitRecord R}
    (h : firstQuadraticRootInRange (Vec.squaredNorm r.dir) (2 * Vec.dot (r.origin - s.center) r.dir)
      (Vec.squaredNorm (r.origin - s.center) - s.radius * s.radius) tmin tmax = some t) :
    s.hit r tmin tmax rec = (true, s.record r t rec) := by
  unfold hit; simp only [h]; rfl

/-- Either a miss with the record untouched, or the record of one parameter. -/
theorem hit_cases {R : Type} [Scalar R] (s : Sphere R) (r : Ray R) (tmin tmax : R) (rec : HitRecord R) :
    s.hit r tmin tmax rec = (false, rec) ∨ ∃ t, s.hit r tmin tmax rec = (true, s.record r t rec) := by
  rcases h : firstQuadraticRootInRange (Vec.squaredNorm r.dir) (2 * Vec.dot (r.origin - s.center) r.dir)
      (Vec.squaredNorm (r.origin - s.center) - s.radius * s.radius) tmin tmax with _ | t
  · exact Or.inl (hit_none h)
  · exact Or.inr ⟨t, hit_some h⟩

theorem hit_true {R : Type} [Scalar R] {s : Sphere R} {r : Ray R} {tmin tmax : R} {rec : HitRecord R}
    (h : (s.hit r tmin tmax rec).1 = true) :
    (s.hit r tmin tmax rec).2 = s.record r (s.hit r tmin tmax rec).2.t rec := by
  rcases hit_cases s r tmin tmax rec with hc | ⟨t, hc⟩
  · rw [hc] at h; cases h
  · rw [hc]; rfl

end Sphere

/-! ## C46 -/

theorem sphere_quadratic (c : Fin 3 → ℝ) (R : ℝ) (o d : Fin 3 → ℝ) (z : ℝ) :
    o + z • d ∈ sphereSet c R ↔
      (d ⬝ᵥ d) * z ^ 2 + (2 * ((o - c) ⬝ᵥ d)) * z + ((o - c) ⬝ᵥ (o - c) - R * R) = 0 := by
  simp only [sphereSet, Set.mem_setOf_eq, dotProduct, Fin.sum_univ_three, Pi.add_apply, Pi.sub_apply, Pi.smul_apply, smul_eq_mul]
  constructor <;> intro h <;> linarith

/-- C46: `hit` returns true iff the ray meets the sphere in the range, and then `rec.t` is the smallest such parameter
and `rec.p` the point there. Missing: directions and offsets so small that a coefficient of the quadratic lies
between zero and `numeric_limits<Real>::min()`, which the root finder rounds to zero. -/
theorem C46_nearest_partial [F.Exact] (c : Fin 3 → ℝ) (R : ℝ) (o d : Fin 3 → ℝ) (tmin : Fl F)
    (hd : F.tiny < d ⬝ᵥ d) (hb : (o - c) ⬝ᵥ d = 0 ∨ F.tiny < |2 * ((o - c) ⬝ᵥ d)|) :
    FindsNearest (sphereSet c R) o d tmin ((Sphere.ofReal c R).hit ⟨cv o, cv d⟩ tmin) := by
  have e1 : Vec.squaredNorm (cv d : Vec (Fl F) 3) = fin (d ⬝ᵥ d) := by simp only [fl]
  have e2 : (2 : Fl F) * Vec.dot ((cv o : Vec (Fl F) 3) - cv c) (cv d) = fin (2 * ((o - c) ⬝ᵥ d)) := by
    simp only [fl, Nat.cast_ofNat]
  have e3 : Vec.squaredNorm ((cv o : Vec (Fl F) 3) - cv c) - (fin R : Fl F) * fin R = fin ((o - c) ⬝ᵥ (o - c) - R * R) := by
    simp only [fl]
  refine FindsNearest.of_quadratic (sphere_quadratic c R o d) (lt_of_lt_of_le hd (le_abs_self _))
    (hb.imp (fun h => by rw [h, mul_zero]) id) ?_ ?_
  · intro tmax rec h
    rw [Sphere.hit_none (by show firstQuadraticRootInRange _ _ _ _ _ = _
                            simp only [Sphere.ofReal, e1, e2, e3]; exact h)]
  · intro tmax rec z h
    rw [Sphere.hit_some (t := fin z) (by simp only [Sphere.ofReal, e1, e2, e3]; exact h)]
    refine ⟨rfl, rfl, ?_⟩
    show (Ray.mk (cv o) (cv d) : Ray (Fl F)).at (fin z) = _
    rw [ray_at_cv]

/-- C46 when the threshold of the root finder is zero: all spheres, all rays with nonzero direction, all ranges. -/
theorem C46_nearest_ideal [F.Exact] (ht : F.tiny = 0) (c : Fin 3 → ℝ) (R : ℝ) (o d : Fin 3 → ℝ) (tmin : Fl F) (hd : d ≠ 0) :
    FindsNearest (sphereSet c R) o d tmin ((Sphere.ofReal c R).hit ⟨cv o, cv d⟩ tmin) := by
  apply C46_nearest_partial
  · rw [ht]
    exact lt_of_le_of_ne (dotProduct_self_nonneg' d) (fun h => hd (dotProduct_self_eq_zero.1 h.symm))
  · rw [ht, abs_pos]
    by_cases h : (o - c) ⬝ᵥ d = 0
    · exact Or.inl h
    · exact Or.inr (mul_ne_zero two_ne_zero h)

/-- A ray from `(0,0,-3)` along `z` meets the unit sphere first at parameter 2. -/
example : ∃ rec', (Sphere.ofReal (F := exact64) 0 1).hit ⟨cv ![0,0,-3], cv ![0,0,1]⟩ (fin 0) pinf
      (HitRecord.default Vec.nans Vec.nans true) = (true, rec') ∧ rec'.t = fin 2 := by
  have h := C46_nearest_partial (F := exact64) 0 1 ![0,0,-3] ![0,0,1] (fin 0)
    (by simp [dotProduct, Fin.sum_univ_three]; exact Fmt.Exact.tiny_lt)
    (Or.inr (by simp [dotProduct, Fin.sum_univ_three]
                have := Fmt.Exact.tiny_lt (F := exact64)
                norm_num; linarith)) pinf (HitRecord.default Vec.nans Vec.nans true) rfl
  have hS : ∀ z : ℝ, (![0,0,-3] + z • ![0,0,1] : Fin 3 → ℝ) ∈ sphereSet 0 1 ↔ (z = 2 ∨ z = 4) := by
    intro z
    simp [sphereSet]
    constructor
    · rintro (hz | hz)
      · right; linarith
      · left; linarith
    · rintro (rfl | rfl) <;> norm_num
  have h1 := h.1.mpr ⟨2, ⟨by rw [le_fin]; norm_num, by simp⟩, (hS 2).mpr (Or.inl rfl)⟩
  obtain ⟨z, hz, -, hr, hz', hm⟩ := h.2 h1
  refine ⟨_, Prod.ext h1 rfl, ?_⟩
  rw [hz, fin_inj]
  have := hm 2 ⟨by rw [le_fin]; norm_num, by simp⟩ ((hS 2).mpr (Or.inl rfl))
  rcases (hS z).mp hz' with h | h
  · exact h
  · linarith

/-- When the leading coefficient lies in the window, the quadratic is solved as a linear equation. -/
theorem first_root_window [F.Exact] {a b c : ℝ} (ha : |a| ≤ F.tiny) (hb : b ≠ 0) (h0 : 0 ≤ -c / b) :
    firstQuadraticRootInRange (fin a) (fin b) (fin c) (fin 0) (pinf : Fl F) = some (fin (-c / b)) := by
  unfold firstQuadraticRootInRange quadraticRoots
  rw [tiny_def, abs_fin, le_fin, decide_eq_true ha, ofNat_zero]
  simp [hb, h0, Scalar.ge, div_fin _ hb]

/-- C46 fails when the square of the direction is positive but at most `numeric_limits::min()`: the ray from `(0,0,-2)`
toward the unit sphere with a direction of length `sqrt(min())` is reported to hit it at `(0,0,-5/4)`, which is not on
the sphere. For `double` the direction has length about 1.5e-154. -/
theorem C46_window_false [F.Exact] (ht : 0 < F.tiny) (rec : HitRecord (Fl F)) :
    ∃ rec', (Sphere.ofReal 0 1).hit ⟨cv ![0, 0, -2], cv ![0, 0, Real.sqrt F.tiny]⟩ (fin 0) pinf rec = (true, rec') ∧
      rec'.p = cv ![0, 0, -(5 / 4)] ∧ (![0, 0, -(5 / 4)] : Fin 3 → ℝ) ∉ sphereSet 0 1 := by
  have hs : 0 < Real.sqrt F.tiny := Real.sqrt_pos.mpr ht
  have hss : Real.sqrt F.tiny * Real.sqrt F.tiny = F.tiny := Real.mul_self_sqrt ht.le
  have h := first_root_window (F := F) (a := F.tiny) (b := -4 * Real.sqrt F.tiny) (c := 3) (by rw [abs_of_pos ht])
    (mul_ne_zero (by norm_num) hs.ne') (by rw [neg_mul, neg_div_neg_eq]; positivity)
  refine ⟨_, Sphere.hit_some (t := fin (-3 / (-4 * Real.sqrt F.tiny))) ?_, ?_, ?_⟩
  · rw [← h]
    simp only [Sphere.ofReal, fl, Nat.cast_ofNat]
    congr 2
    · simp [dotProduct, Fin.sum_univ_three, hss]
    · simp [dotProduct, Fin.sum_univ_three]; ring
    · simp [dotProduct, Fin.sum_univ_three]; norm_num
  · show (Ray.mk (cv ![0, 0, -2]) (cv ![0, 0, Real.sqrt F.tiny]) : Ray (Fl F)).at _ = _
    rw [ray_at_cv]
    congr 1
    funext i
    fin_cases i
    · simp
    · simp
    · simp
      field_simp
      norm_num
  · simp [sphereSet]; norm_num

/-- C46 for any rounding: a hit has its parameter in range, and the point is the ray at that parameter. -/
theorem C46_in_range (s : Sphere (Fl F)) (r : Ray (Fl F)) (tmin tmax : Fl F) (rec : HitRecord (Fl F))
    (h : (s.hit r tmin tmax rec).1 = true) :
    Scalar.le tmin (s.hit r tmin tmax rec).2.t = true ∧ Scalar.le (s.hit r tmin tmax rec).2.t tmax = true ∧
      (s.hit r tmin tmax rec).2.p = r.at (s.hit r tmin tmax rec).2.t := by
  rcases hf : firstQuadraticRootInRange (Vec.squaredNorm r.dir) (2 * Vec.dot (r.origin - s.center) r.dir)
      (Vec.squaredNorm (r.origin - s.center) - s.radius * s.radius) tmin tmax with _ | t
  · rw [Sphere.hit_none hf] at h; cases h
  · rw [Sphere.hit_some hf]
    obtain ⟨-, h1, h2, -⟩ := C14_in_range _ _ _ _ _ hf
    exact ⟨h1, h2, rfl⟩

/-- The first of two crossings. -/
theorem Sphere.hit_case (rec : HitRecord (Fl exact0)) :
    ((Sphere.ofReal (F := exact0) 0 1).hit ⟨cv ![-3,0,0], cv ![1,0,0]⟩ (fin 0) pinf rec).1 = true ∧
    ((Sphere.ofReal (F := exact0) 0 1).hit ⟨cv ![-3,0,0], cv ![1,0,0]⟩ (fin 0) pinf rec).2.p = cv ![-1, 0, 0] := by
  have hS : ∀ z : ℝ, (![-3,0,0] + z • ![1,0,0] : Fin 3 → ℝ) ∈ sphereSet 0 1 ↔ (z = 2 ∨ z = 4) := by
    intro z
    have e : (![-3,0,0] + z • ![1,0,0] : Fin 3 → ℝ) ∈ sphereSet 0 1 ↔
        (-3 + z * 1 - 0) ^ 2 + (0 + z * 0 - 0) ^ 2 + (0 + z * 0 - 0) ^ 2 = (1 : ℝ) ^ 2 := Iff.rfl
    rw [e]
    constructor
    · intro h
      have : (z - 2) * (z - 4) = 0 := by linarith
      rcases mul_eq_zero.mp this with h | h
      · left; linarith
      · right; linarith
    · rintro (rfl | rfl) <;> norm_num
  have h := C46_nearest_ideal (F := exact0) rfl 0 1 ![-3,0,0] ![1,0,0] (fin 0) (by intro h; have := congrFun h 0; simp at this)
  have := h.at (tmax := pinf) (z := 2) rfl ⟨by rw [le_fin]; norm_num, by simp⟩ ((hS 2).mpr (Or.inl rfl)) (fun w _ hw => by
    rcases (hS w).mp hw with rfl | rfl <;> norm_num) rec
  refine ⟨this.1, this.2.2.trans ?_⟩
  rw [cv_inj]
  funext i
  fin_cases i <;> norm_num

example (rec : HitRecord (Fl exact0)) :
    Scalar.le (fin 0) ((Sphere.ofReal (F := exact0) 0 1).hit ⟨cv ![-3,0,0], cv ![1,0,0]⟩ (fin 0) pinf rec).2.t = true :=
  (C46_in_range _ _ _ _ rec (Sphere.hit_case rec).1).1

/-! ## C47 -/

/-- The parametrization on the reals. -/
noncomputable def spherePoint (c : Fin 3 → ℝ) (R u v : ℝ) : Fin 3 → ℝ :=
  ![c 0 + R * Real.cos (2 * Real.pi * u) * Real.sin (Real.pi * v),
    c 1 + R * Real.sin (2 * Real.pi * u) * Real.sin (Real.pi * v),
    c 2 + R * Real.cos (Real.pi * v)]

theorem Sphere.eval_fin [F.Exact] (c : Fin 3 → ℝ) (R u v : ℝ) :
    (Sphere.ofReal c R : Sphere (Fl F)).eval (fin u) (fin v) = cv (spherePoint c R u v) := by
  unfold Sphere.eval spherePoint Sphere.ofReal
  simp only [fl, Nat.cast_ofNat, cv_vec3]

/-- `get_uv` inverts the parametrization on the sphere. -/
theorem Sphere.getUV_spec [F.Exact] (c : Fin 3 → ℝ) {R : ℝ} (hR : R ≠ 0) {p : Fin 3 → ℝ} (hp : p ∈ sphereSet c R) :
    ∃ u v : ℝ, (Sphere.ofReal c R : Sphere (Fl F)).getUV (cv p) = (fin u, fin v) ∧ 0 ≤ u ∧ u < 1 ∧ 0 ≤ v ∧ v ≤ 1 ∧
      spherePoint c R u v = p := by
  obtain ⟨x, hx⟩ : ∃ x, x = (p 0 - c 0) / R := ⟨_, rfl⟩
  obtain ⟨y, hy⟩ : ∃ y, y = (p 1 - c 1) / R := ⟨_, rfl⟩
  obtain ⟨z, hz⟩ : ∃ z, z = (p 2 - c 2) / R := ⟨_, rfl⟩
  have hs : x ^ 2 + y ^ 2 + z ^ 2 = 1 := by
    have hp' : (p 0 - c 0) ^ 2 + (p 1 - c 1) ^ 2 + (p 2 - c 2) ^ 2 = R ^ 2 := hp
    rw [hx, hy, hz, div_pow, div_pow, div_pow, ← add_div, ← add_div, hp', div_self (pow_ne_zero 2 hR)]
  have hz1 : -1 ≤ z := by nlinarith [sq_nonneg x, sq_nonneg y]
  have hz2 : z ≤ 1 := by nlinarith [sq_nonneg x, sq_nonneg y]
  obtain ⟨u, hu, hu0, hu1, huc, hus⟩ := turn_atan2 (F := F) y x
  have hv0 : 0 ≤ Real.arccos z / Real.pi := div_nonneg (Real.arccos_nonneg z) Real.pi_pos.le
  have hsin : Real.sin (Real.pi * (Real.arccos z / Real.pi)) = Real.sqrt (x ^ 2 + y ^ 2) := by
    rw [mul_div_cancel₀ _ Real.pi_ne_zero, Real.sin_arccos]; congr 1; linarith
  have hcos : Real.cos (Real.pi * (Real.arccos z / Real.pi)) = z := by
    rw [mul_div_cancel₀ _ Real.pi_ne_zero, Real.cos_arccos hz1 hz2]
  refine ⟨u, Real.arccos z / Real.pi, ?_, hu0, hu1, hv0, ?_, ?_⟩
  · have e0 : ∀ i, ((cv p : Vec (Fl F) 3) i - (cv c : Vec (Fl F) 3) i) / fin R = fin ((p i - c i) / R) := by
      intro i; simp only [cv_apply, sub_fin, div_fin _ hR]
    unfold Sphere.getUV Sphere.ofReal
    simp only [e0]
    rw [← hx, ← hy, ← hz, acos_turn hz1 hz2, hu, ofNat_zero, lt_fin, if_neg (by simpa using hv0)]
  · rw [div_le_one Real.pi_pos]; exact Real.arccos_le_pi z
  · unfold spherePoint
    rw [hsin, hcos]
    funext i
    fin_cases i
    · show c 0 + R * Real.cos (2 * Real.pi * u) * Real.sqrt (x ^ 2 + y ^ 2) = p 0
      rw [mul_assoc, mul_comm (Real.cos _), huc, hx]; field_simp; ring
    · show c 1 + R * Real.sin (2 * Real.pi * u) * Real.sqrt (x ^ 2 + y ^ 2) = p 1
      rw [mul_assoc, mul_comm (Real.sin _), hus, hy]; field_simp; ring
    · show c 2 + R * z = p 2
      rw [hz]; field_simp; ring

/-- C47: whenever the recorded point is on the sphere, the recorded normal is the unit radial vector up to sign and does
not point along the ray, `front_face` tells whether the ray comes from outside, `u` and `v` are in the unit square, and
the parametrization takes them back to the point. -/
theorem C47_record [F.Exact] (c : Fin 3 → ℝ) (R : ℝ) (hR : 0 < R) (o d : Fin 3 → ℝ) (tmin tmax : Fl F)
    (rec : HitRecord (Fl F)) (p : Fin 3 → ℝ) (hp : p ∈ sphereSet c R)
    (h : ((Sphere.ofReal c R).hit ⟨cv o, cv d⟩ tmin tmax rec).1 = true)
    (hrp : ((Sphere.ofReal c R).hit ⟨cv o, cv d⟩ tmin tmax rec).2.p = cv p) :
    let rec' := ((Sphere.ofReal c R).hit ⟨cv o, cv d⟩ tmin tmax rec).2
    (∃ m, rec'.normal = cv m ∧ m ⬝ᵥ m = 1 ∧ (m = R⁻¹ • (p - c) ∨ m = -(R⁻¹ • (p - c))) ∧ d ⬝ᵥ m ≤ 0) ∧
    (rec'.frontFace = true ↔ d ⬝ᵥ (p - c) < 0) ∧
    ∃ u v : ℝ, rec'.u = fin u ∧ rec'.v = fin v ∧ 0 ≤ u ∧ u < 1 ∧ 0 ≤ v ∧ v ≤ 1 ∧
      (Sphere.ofReal c R).eval rec'.u rec'.v = rec'.p := by
  have hrec := Sphere.hit_true h
  obtain ⟨t, ht⟩ : ∃ t, t = ((Sphere.ofReal c R).hit ⟨cv o, cv d⟩ tmin tmax rec).2.t := ⟨_, rfl⟩
  rw [← ht] at hrec
  rw [hrec] at hrp ⊢
  have hat : (Ray.mk (cv o) (cv d) : Ray (Fl F)).at t = cv p := hrp
  intro rec'
  obtain ⟨m, hm, hdm, hmm, hff⟩ := C37_opposes (F := F)
    { rec with t := t, p := (Ray.mk (cv o) (cv d) : Ray (Fl F)).at t } o d (R⁻¹ • (p - c))
  have hn : ((Ray.mk (cv o) (cv d) : Ray (Fl F)).at t - (Sphere.ofReal c R : Sphere (Fl F)).center) /.
      (Sphere.ofReal c R : Sphere (Fl F)).radius = cv (R⁻¹ • (p - c)) := by
    rw [hat]; show (cv p - cv c) /. (fin R : Fl F) = _
    rw [cv_sub, cv_sdiv hR.ne']
  obtain ⟨u, v, huv, hu0, hu1, hv0, hv1, hpt⟩ := Sphere.getUV_spec (F := F) c hR.ne' hp
  have hu : rec'.u = fin u := by
    show ((Sphere.ofReal c R : Sphere (Fl F)).getUV ((Ray.mk (cv o) (cv d) : Ray (Fl F)).at t)).1 = _
    rw [hat, huv]
  have hv : rec'.v = fin v := by
    show ((Sphere.ofReal c R : Sphere (Fl F)).getUV ((Ray.mk (cv o) (cv d) : Ray (Fl F)).at t)).2 = _
    rw [hat, huv]
  refine ⟨⟨m, ?_, ?_, hmm, hdm⟩, ?_, u, v, hu, hv, hu0, hu1, hv0, hv1, ?_⟩
  · rw [← hm, ← hn]; rfl
  · have hq : (p - c) ⬝ᵥ (p - c) = R ^ 2 := by
      rw [← show _ = R ^ 2 from hp]
      simp only [dotProduct, Fin.sum_univ_three, Pi.sub_apply]; ring
    have : (R⁻¹ • (p - c)) ⬝ᵥ (R⁻¹ • (p - c)) = 1 := by
      rw [smul_dotProduct, dotProduct_smul, hq, smul_eq_mul, smul_eq_mul]; field_simp
    rcases hmm with rfl | rfl
    · exact this
    · rw [neg_dotProduct_neg, this]
  · have e : rec'.frontFace = (HitRecord.setFaceNormal
      { rec with t := t, p := (Ray.mk (cv o) (cv d) : Ray (Fl F)).at t } ⟨cv o, cv d⟩ (cv (R⁻¹ • (p - c)))).frontFace := by
      rw [← hn]; rfl
    rw [e, hff, dotProduct_smul, smul_eq_mul, mul_neg_iff]
    constructor
    · rintro (⟨_, h⟩ | ⟨h, _⟩)
      · exact h
      · exact absurd h (not_lt.mpr (inv_pos.mpr hR).le)
    · intro h; exact Or.inl ⟨inv_pos.mpr hR, h⟩
  · rw [hu, hv, Sphere.eval_fin, hpt]; exact hat.symm

theorem sphere_point : (![-1, 0, 0] : Fin 3 → ℝ) ∈ sphereSet 0 1 := by
  show ((-1:ℝ) - 0) ^ 2 + (0 - 0) ^ 2 + (0 - 0) ^ 2 = 1 ^ 2
  norm_num

example (rec : HitRecord (Fl exact0)) :
    ((Sphere.ofReal (F := exact0) 0 1).hit ⟨cv ![-3,0,0], cv ![1,0,0]⟩ (fin 0) pinf rec).2.frontFace = true := by
  refine (C47_record 0 1 one_pos _ _ _ _ rec _ sphere_point (Sphere.hit_case rec).1 (Sphere.hit_case rec).2).2.1.mpr ?_
  simp [dotProduct, Fin.sum_univ_three]

/-! ## C48 -/

/-- The first column of the Jacobian on the reals. -/
noncomputable def spherePointU (R u v : ℝ) : Fin 3 → ℝ :=
  ![-2 * Real.pi * R * Real.sin (2 * Real.pi * u) * Real.sin (Real.pi * v),
    2 * Real.pi * R * Real.cos (2 * Real.pi * u) * Real.sin (Real.pi * v), 0]

/-- The second column of the Jacobian on the reals. -/
noncomputable def spherePointV (R u v : ℝ) : Fin 3 → ℝ :=
  ![Real.pi * R * Real.cos (2 * Real.pi * u) * Real.cos (Real.pi * v),
    Real.pi * R * Real.sin (2 * Real.pi * u) * Real.cos (Real.pi * v), -Real.pi * R * Real.sin (Real.pi * v)]

/-- The second derivatives on the reals. -/
noncomputable def spherePointH (R u v : ℝ) : Fin 3 → Fin 2 → Fin 2 → ℝ :=
  ![![![-4 * Real.pi * Real.pi * R * Real.cos (2 * Real.pi * u) * Real.sin (Real.pi * v), -2 * Real.pi * Real.pi * R * Real.sin (2 * Real.pi * u) * Real.cos (Real.pi * v)],
      ![-2 * Real.pi * Real.pi * R * Real.sin (2 * Real.pi * u) * Real.cos (Real.pi * v), -Real.pi * Real.pi * R * Real.cos (2 * Real.pi * u) * Real.sin (Real.pi * v)]],
    ![![-4 * Real.pi * Real.pi * R * Real.sin (2 * Real.pi * u) * Real.sin (Real.pi * v), 2 * Real.pi * Real.pi * R * Real.cos (2 * Real.pi * u) * Real.cos (Real.pi * v)],
      ![2 * Real.pi * Real.pi * R * Real.cos (2 * Real.pi * u) * Real.cos (Real.pi * v), -Real.pi * Real.pi * R * Real.sin (2 * Real.pi * u) * Real.sin (Real.pi * v)]],
    ![![0, 0],
      ![0, -Real.pi * Real.pi * R * Real.cos (Real.pi * v)]]]

theorem spherePoint_deriv (c : Fin 3 → ℝ) (R u v : ℝ) (i : Fin 3) :
    HasDerivAt (fun x => spherePoint c R x v i) (spherePointU R u v i) u ∧
    HasDerivAt (fun y => spherePoint c R u y i) (spherePointV R u v i) v := by
  have c1 := hasDerivAt_cos_mul (2 * Real.pi) u
  have s1 := hasDerivAt_sin_mul (2 * Real.pi) u
  have c2 := hasDerivAt_cos_mul Real.pi v
  have s2 := hasDerivAt_sin_mul Real.pi v
  match i with
  | 0 => exact ⟨(((c1.const_mul R).mul_const _).const_add (c 0)).congr_deriv (by simp only [spherePointU, cons_val_zero, cons_val_one, cons_val]; ring),
      ((s2.const_mul _).const_add (c 0)).congr_deriv (by simp only [spherePointV, cons_val_zero, cons_val_one, cons_val]; ring)⟩
  | 1 => exact ⟨(((s1.const_mul R).mul_const _).const_add (c 1)).congr_deriv (by simp only [spherePointU, cons_val_zero, cons_val_one, cons_val]; ring),
      ((s2.const_mul _).const_add (c 1)).congr_deriv (by simp only [spherePointV, cons_val_zero, cons_val_one, cons_val]; ring)⟩
  | 2 => exact ⟨hasDerivAt_const u _, ((c2.const_mul R).const_add (c 2)).congr_deriv (by simp only [spherePointV, cons_val_zero, cons_val_one, cons_val]; ring)⟩

theorem spherePoint_deriv2 (R u v : ℝ) (i : Fin 3) :
    HasDerivAt (fun x => spherePointU R x v i) (spherePointH R u v i 0 0) u ∧
    HasDerivAt (fun y => spherePointU R u y i) (spherePointH R u v i 0 1) v ∧
    HasDerivAt (fun x => spherePointV R x v i) (spherePointH R u v i 1 0) u ∧
    HasDerivAt (fun y => spherePointV R u y i) (spherePointH R u v i 1 1) v := by
  have c1 := hasDerivAt_cos_mul (2 * Real.pi) u
  have s1 := hasDerivAt_sin_mul (2 * Real.pi) u
  have c2 := hasDerivAt_cos_mul Real.pi v
  have s2 := hasDerivAt_sin_mul Real.pi v
  match i with
  | 0 => exact ⟨((s1.const_mul _).mul_const _).congr_deriv (by simp only [spherePointH, cons_val_zero, cons_val_one, cons_val]; ring),
      (s2.const_mul _).congr_deriv (by simp only [spherePointH, cons_val_zero, cons_val_one, cons_val]; ring),
      ((c1.const_mul _).mul_const _).congr_deriv (by simp only [spherePointH, cons_val_zero, cons_val_one, cons_val]; ring),
      (c2.const_mul _).congr_deriv (by simp only [spherePointH, cons_val_zero, cons_val_one, cons_val]; ring)⟩
  | 1 => exact ⟨((c1.const_mul _).mul_const _).congr_deriv (by simp only [spherePointH, cons_val_zero, cons_val_one, cons_val]; ring),
      (s2.const_mul _).congr_deriv (by simp only [spherePointH, cons_val_zero, cons_val_one, cons_val]; ring),
      ((s1.const_mul _).mul_const _).congr_deriv (by simp only [spherePointH, cons_val_zero, cons_val_one, cons_val]; ring),
      (c2.const_mul _).congr_deriv (by simp only [spherePointH, cons_val_zero, cons_val_one, cons_val]; ring)⟩
  | 2 => exact ⟨hasDerivAt_const u _, hasDerivAt_const v _, hasDerivAt_const u _,
      (s2.const_mul _).congr_deriv (by simp only [spherePointH, cons_val_zero, cons_val_one, cons_val]; ring)⟩

/-- C48: the `J` and `H` overloads return the partial derivatives of `operator()`, and `H` is symmetric. -/
theorem C48_derivatives [F.Exact] (c : Fin 3 → ℝ) (R : ℝ) :
    SecondDerivatives (Sphere.ofReal c R : Sphere (Fl F)).eval (Sphere.ofReal c R : Sphere (Fl F)).jac
      (Sphere.ofReal c R : Sphere (Fl F)).hess := by
  refine ⟨spherePoint c R, spherePointU R, spherePointV R, Sphere.eval_fin c R, ?_, spherePoint_deriv c R,
    spherePointH R, ?_, ?_⟩
  · intro u v i
    constructor <;> fin_cases i <;>
      simp [Sphere.jac, Sphere.ofReal, spherePointU, spherePointV, fl]
  · intro u v i j k
    fin_cases i <;> fin_cases j <;> fin_cases k <;> simp [Sphere.hess, Sphere.ofReal, spherePointH, fl]
  · intro u v i
    obtain ⟨h1, h2, h3, h4⟩ := spherePoint_deriv2 R u v i
    refine ⟨h1, h2, h3, h4, ?_⟩
    fin_cases i <;> simp [spherePointH]

/-- The columns are not identically zero: at `u = v = 1/2` on the unit sphere the first one is `(0, -2π, 0)`. -/
example : (Sphere.ofReal (F := exact64) 0 1).jac (fin (1/2)) (fin (1/2)) 1 0 = fin (-2 * Real.pi) := by
  simp only [Sphere.jac, Sphere.ofReal, fl, Nat.cast_ofNat]
  show (fin _ : Fl exact64) = _
  rw [fin_inj, show (2:ℝ) * Real.pi * (1 / 2) = Real.pi by ring, show Real.pi * (1 / 2) = Real.pi / 2 by ring]
  simp

/-! ## C49 -/

/-- The six numbers `set_fundamental_forms` writes for a real `v`. -/
theorem Sphere.record_forms [F.Exact] (c : Fin 3 → ℝ) {R : ℝ} (hR : R ≠ 0) (r : Ray (Fl F)) (t : Fl F)
    (rec : HitRecord (Fl F)) {v : ℝ} (hv : ((Sphere.ofReal c R).record r t rec).v = fin v) :
    let rec' := (Sphere.ofReal c R).record r t rec
    let E := 2 * Real.pi * R * Real.sin (Real.pi * v)
    rec'.E = fin (E * E) ∧ rec'.F = fin 0 ∧ rec'.G = fin (Real.pi * Real.pi * R * R) ∧
      rec'.e = fin (E * E / R) ∧ rec'.f = fin 0 ∧ rec'.g = fin (Real.pi * Real.pi * R) := by
  intro rec' E
  have hds : (2 : Fl F) * pi * fin R * sin (pi * fin v) = fin E := by
    simp only [fl, Nat.cast_ofNat, E]
  have hE : rec'.E = fin (E * E) := by
    have : rec'.E = ((2 : Fl F) * pi * fin R * sin (pi * rec'.v)) * ((2 : Fl F) * pi * fin R * sin (pi * rec'.v)) := rfl
    rw [this, hv, hds, mul_fin]
  refine ⟨hE, ?_, ?_, ?_, ?_, ?_⟩
  · rw [← ofNat_zero]; rfl
  · show (pi : Fl F) * pi * fin R * fin R = _
    simp only [fl]
  · have : rec'.e = rec'.E / fin R := rfl
    rw [this, hE, div_fin _ hR]
  · rw [← ofNat_zero]; rfl
  · show (pi : Fl F) * pi * fin R = _
    simp only [fl]

/-- C49: the six numbers written on a hit are the two fundamental forms of the parametrization at `(rec.u, rec.v)`,
the second one for the inward normal. -/
theorem C49_forms [F.Exact] (c : Fin 3 → ℝ) (R : ℝ) (hR : 0 < R) (o d : Fin 3 → ℝ) (tmin tmax : Fl F)
    (rec : HitRecord (Fl F)) (p : Fin 3 → ℝ) (hp : p ∈ sphereSet c R)
    (h : ((Sphere.ofReal c R).hit ⟨cv o, cv d⟩ tmin tmax rec).1 = true)
    (hrp : ((Sphere.ofReal c R).hit ⟨cv o, cv d⟩ tmin tmax rec).2.p = cv p) :
    let rec' := ((Sphere.ofReal c R).hit ⟨cv o, cv d⟩ tmin tmax rec).2
    ∃ (u v : ℝ) (s : ℝ → ℝ → Fin 3 → ℝ), rec'.u = fin u ∧ rec'.v = fin v ∧
      (∀ u v : ℝ, (Sphere.ofReal c R : Sphere (Fl F)).eval (fin u) (fin v) = cv (s u v)) ∧
      HasForms rec' s (-(R⁻¹ • (p - c))) u v := by
  obtain ⟨-, -, u, v, hu, hv, -, -, -, -, hpt⟩ := C47_record c R hR o d tmin tmax rec p hp h hrp
  intro rec'
  have hpt' : spherePoint c R u v = p := by
    have := hpt
    rw [hu, hv, Sphere.eval_fin, hrp] at this
    exact cv_inj.mp this
  refine ⟨u, v, spherePoint c R, hu, hv, Sphere.eval_fin c R, spherePointU R, spherePointV R, spherePoint_deriv c R,
    fun i => spherePointH R u v i 0 0, fun i => spherePointH R u v i 0 1, fun i => spherePointH R u v i 1 1,
    fun i => ?_, ?_⟩
  · obtain ⟨h1, h2, h3, h4⟩ := spherePoint_deriv2 R u v i
    exact ⟨h1, h2, h4⟩
  have hrec : rec' = (Sphere.ofReal c R : Sphere (Fl F)).record ⟨cv o, cv d⟩ rec'.t rec := Sphere.hit_true h
  obtain ⟨hRE, hRF, hRG, hRe, hRf, hRg⟩ := Sphere.record_forms (F := F) c hR.ne' ⟨cv o, cv d⟩ rec'.t rec (v := v)
    (by rw [← hrec]; exact hv)
  rw [← hrec] at hRE hRF hRG hRe hRf hRg
  have hn : -(R⁻¹ • (p - c)) = ![-(Real.cos (2 * Real.pi * u) * Real.sin (Real.pi * v)),
      -(Real.sin (2 * Real.pi * u) * Real.sin (Real.pi * v)), -Real.cos (Real.pi * v)] := by
    rw [← hpt']
    funext i
    have hR0 := hR.ne'
    match i with
    | 0 => show -(R⁻¹ * (c 0 + _ - c 0)) = -_; field_simp; ring
    | 1 => show -(R⁻¹ * (c 1 + _ - c 1)) = -_; field_simp; ring
    | 2 => show -(R⁻¹ * (c 2 + _ - c 2)) = -_; field_simp; ring
  rw [hRE, hRF, hRG, hRe, hRf, hRg, hn]
  simp only [fin_inj, dotProduct, Fin.sum_univ_three, spherePointU, spherePointV, spherePointH]
  simp only [Fin.isValue, cons_val_zero, cons_val_one, cons_val]
  have t1 := Real.sin_sq_add_cos_sq (2 * Real.pi * u)
  have t2 := Real.sin_sq_add_cos_sq (Real.pi * v)
  refine ⟨?_, ?_, ?_, ?_, ?_, ?_, ?_, ?_, ?_⟩
  · linear_combination (-4 * Real.pi ^ 2 * R ^ 2 * Real.sin (Real.pi * v) ^ 2) * t1
  · ring
  · linear_combination (-Real.pi ^ 2 * R ^ 2 * Real.cos (Real.pi * v) ^ 2) * t1 - Real.pi ^ 2 * R ^ 2 * t2
  · field_simp; linear_combination (-4 * R * Real.pi ^ 2 * Real.sin (Real.pi * v) ^ 2) * t1
  · ring
  · linear_combination (-Real.pi ^ 2 * R * Real.sin (Real.pi * v) ^ 2) * t1 - Real.pi ^ 2 * R * t2
  · linear_combination (Real.sin (Real.pi * v) ^ 2) * t1 + t2
  · ring
  · linear_combination (-Real.pi * R * Real.sin (Real.pi * v) * Real.cos (Real.pi * v)) * t1

example (rec : HitRecord (Fl exact0)) : ∃ (u v : ℝ) (s : ℝ → ℝ → Fin 3 → ℝ) (n : Fin 3 → ℝ),
    HasForms ((Sphere.ofReal (F := exact0) 0 1).hit ⟨cv ![-3,0,0], cv ![1,0,0]⟩ (fin 0) pinf rec).2 s n u v := by
  obtain ⟨u, v, s, -, -, -, h⟩ := C49_forms 0 1 one_pos _ _ _ _ rec _ sphere_point (Sphere.hit_case rec).1 (Sphere.hit_case rec).2
  exact ⟨u, v, s, _, h⟩

/-- C49: away from the poles the reported curvatures are `1/R²` and `1/R`. -/
theorem C49_curvature [F.Exact] (c : Fin 3 → ℝ) (R : ℝ) (hR : 0 < R) (o d : Fin 3 → ℝ) (tmin tmax : Fl F)
    (rec : HitRecord (Fl F)) (p : Fin 3 → ℝ) (hp : p ∈ sphereSet c R) (hpole : p 0 ≠ c 0 ∨ p 1 ≠ c 1)
    (h : ((Sphere.ofReal c R).hit ⟨cv o, cv d⟩ tmin tmax rec).1 = true)
    (hrp : ((Sphere.ofReal c R).hit ⟨cv o, cv d⟩ tmin tmax rec).2.p = cv p) :
    let rec' := ((Sphere.ofReal c R).hit ⟨cv o, cv d⟩ tmin tmax rec).2
    rec'.gaussianCurvature = fin (1 / R ^ 2) ∧ rec'.meanCurvature = fin (1 / R) := by
  obtain ⟨-, -, u, v, hu, hv, -, -, -, -, hpt⟩ := C47_record c R hR o d tmin tmax rec p hp h hrp
  intro rec'
  have hpt' : spherePoint c R u v = p := by
    have := hpt
    rw [hu, hv, Sphere.eval_fin, hrp] at this
    exact cv_inj.mp this
  have hs : Real.sin (Real.pi * v) ≠ 0 := by
    intro h0
    rw [← hpt'] at hpole
    simp [spherePoint, h0] at hpole
  have hrec : rec' = (Sphere.ofReal c R : Sphere (Fl F)).record ⟨cv o, cv d⟩ rec'.t rec := Sphere.hit_true h
  obtain ⟨hRE, hRF, hRG, hRe, hRf, hRg⟩ := Sphere.record_forms (F := F) c hR.ne' ⟨cv o, cv d⟩ rec'.t rec (v := v)
    (by rw [← hrec]; exact hv)
  rw [← hrec] at hRE hRF hRG hRe hRf hRg
  obtain ⟨E, hE⟩ : ∃ E, E = 2 * Real.pi * R * Real.sin (Real.pi * v) := ⟨_, rfl⟩
  have hE0 : E ≠ 0 := by
    rw [hE]; exact mul_ne_zero (mul_ne_zero (mul_ne_zero two_ne_zero Real.pi_ne_zero) hR.ne') hs
  rw [← hE] at hRE hRe
  have hden : E * E * (Real.pi * Real.pi * R * R) - 0 * 0 ≠ 0 := by
    have := Real.pi_ne_zero
    have := hR.ne'
    rw [mul_zero, sub_zero]; positivity
  have hden2 : 2 * (E * E * (Real.pi * Real.pi * R * R) - 0 * 0) ≠ 0 := mul_ne_zero two_ne_zero hden
  constructor
  · unfold HitRecord.gaussianCurvature
    rw [hRE, hRF, hRG, hRe, hRf, hRg]
    simp only [fl]
    rw [div_fin _ hden, fin_inj]
    have := Real.pi_ne_zero
    field_simp
    simp
    ring
  · unfold HitRecord.meanCurvature
    rw [hRE, hRF, hRG, hRe, hRf, hRg]
    simp only [fl, Nat.cast_ofNat]
    rw [div_fin _ hden2, fin_inj]
    have := Real.pi_ne_zero
    field_simp
    ring

example (rec : HitRecord (Fl exact0)) :
    ((Sphere.ofReal (F := exact0) 0 1).hit ⟨cv ![-3,0,0], cv ![1,0,0]⟩ (fin 0) pinf rec).2.gaussianCurvature = fin (1 / 1 ^ 2) :=
  (C49_curvature 0 1 one_pos _ _ _ _ rec _ sphere_point (Or.inl (by simp)) (Sphere.hit_case rec).1 (Sphere.hit_case rec).2).1

/-! ## C50 -/

/-- C50: the box contains every point of the sphere and each of its six faces touches it. -/
theorem C50_box [F.Exact] (c : Fin 3 → ℝ) (R : ℝ) (hR : 0 ≤ R) :
    ∃ lo hi : Fin 3 → ℝ, (Sphere.ofReal c R : Sphere (Fl F)).bbox = (true, ⟨cv lo, cv hi⟩) ∧
      (∀ p ∈ sphereSet c R, ∀ i, lo i ≤ p i ∧ p i ≤ hi i) ∧
      ∀ i, (∃ p ∈ sphereSet c R, p i = lo i) ∧ ∃ p ∈ sphereSet c R, p i = hi i := by
  refine ⟨c - ![R, R, R], c + ![R, R, R], ?_, ?_, ?_⟩
  · unfold Sphere.bbox Sphere.ofReal
    simp only [cv_vec3, cv_sub, cv_add]
  · intro p hp i
    have hp' : (p 0 - c 0) ^ 2 + (p 1 - c 1) ^ 2 + (p 2 - c 2) ^ 2 = R ^ 2 := hp
    have h0 := sq_nonneg (p 0 - c 0)
    have h1 := sq_nonneg (p 1 - c 1)
    have h2 := sq_nonneg (p 2 - c 2)
    have key : (p i - c i) ^ 2 ≤ R ^ 2 := by fin_cases i <;> simp <;> linarith
    have := abs_le_of_sq_le_sq' key hR
    have e : (![R, R, R] : Fin 3 → ℝ) i = R := by fin_cases i <;> rfl
    rw [Pi.sub_apply, Pi.add_apply, e]
    constructor <;> linarith
  · intro i
    refine ⟨⟨Function.update c i (c i - R), ?_, ?_⟩, ⟨Function.update c i (c i + R), ?_, ?_⟩⟩ <;>
      fin_cases i <;> simp [sphereSet]

example : ∃ p ∈ sphereSet ![1,2,3] 2, p 1 = 4 := ⟨![1,4,3], by show ((1:ℝ) - 1) ^ 2 + (4 - 2) ^ 2 + (3 - 3) ^ 2 = 2 ^ 2; norm_num, rfl⟩

/-! ## C93 for spheres -/

/-- C93: a sphere that is missed leaves the record as it was, for any rounding. -/
theorem C93_sphere (s : Sphere (Fl F)) (r : Ray (Fl F)) (tmin tmax : Fl F) (rec : HitRecord (Fl F))
    (h : (s.hit r tmin tmax rec).1 = false) : (s.hit r tmin tmax rec).2 = rec := by
  rcases Sphere.hit_cases s r tmin tmax rec with hc | ⟨t, hc⟩
  · rw [hc]
  · rw [hc] at h; cases h

/-- A miss: the surface is behind the origin of the ray. -/
example (rec : HitRecord (Fl exact0)) : ((Sphere.ofReal (F := exact0) 0 1).hit ⟨cv ![3,0,0], cv ![1,0,0]⟩ (fin 0) pinf rec).2 = rec := by
  refine C93_sphere _ _ _ _ rec ?_
  have h := (C46_nearest_ideal (F := exact0) rfl 0 1 ![3,0,0] ![1,0,0] (fin 0)
    (by intro h; have := congrFun h 0; simp at this) pinf rec rfl).1
  rw [← Bool.not_eq_true, h]
  rintro ⟨z, hz, hS⟩
  have e : (3 + z * 1 - 0) ^ 2 + (0 + z * 0 - 0) ^ 2 + (0 + z * 0 - 0) ^ 2 = (1 : ℝ) ^ 2 := hS
  have h0 := hz.1
  simp only [le_fin, decide_eq_true_eq] at h0
  nlinarith

end DRT
