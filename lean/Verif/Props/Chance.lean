import Verif.Props.Fog
import Verif.Props.Areas
import Verif.Props.Lambert
import Verif.Props.Material
import Mathlib.Probability.Distributions.Gaussian.Multivariate
import Mathlib.Analysis.InnerProductSpace.Projection.Reflection

/-!
# C147: the chances of the random choices

The random numbers are ideal here: independent, and uniform or normally distributed real numbers. What the code makes of them is
`isotropic::scatter` (isotropic.hpp:20-44), `lambertian::scatter` (lambertian.hpp:23-52), `dielectric::scatter` (dielectric.hpp:33-56)
and `constant_medium::hit` (constant_medium.hpp:41-75).
-/

namespace DRT
open Scalar Fl Matrix MeasureTheory ProbabilityTheory

variable {F : Fmt}

/-! ## Rotations -/

/-- The space of three real numbers with its length. -/
abbrev E3 := EuclideanSpace ℝ (Fin 3)

theorem E3.inner_dot (x y : E3) : inner ℝ x y = x.ofLp ⬝ᵥ y.ofLp := by
  rw [EuclideanSpace.inner_eq_star_dotProduct, dotProduct_comm]; simp

/-- A rotation or reflection of the space, given by a matrix. -/
noncomputable def rot (Q : Matrix (Fin 3) (Fin 3) ℝ) (hQ : Qᵀ * Q = 1) : E3 ≃ₗᵢ[ℝ] E3 :=
  ⟨(WithLp.linearEquiv 2 ℝ (Fin 3 → ℝ)).trans ((Matrix.toLin'OfInv hQ (mul_eq_one_comm.mp hQ)).trans (WithLp.linearEquiv 2 ℝ (Fin 3 → ℝ)).symm), by
    intro x
    have h : ∀ y : E3, ‖y‖ ^ 2 = y.ofLp ⬝ᵥ y.ofLp := fun y => by rw [← E3.inner_dot, real_inner_self_eq_norm_sq]
    have : ‖((WithLp.linearEquiv 2 ℝ (Fin 3 → ℝ)).trans ((Matrix.toLin'OfInv hQ (mul_eq_one_comm.mp hQ)).trans
        (WithLp.linearEquiv 2 ℝ (Fin 3 → ℝ)).symm)) x‖ ^ 2 = ‖x‖ ^ 2 := by
      rw [h, h]
      show (Q *ᵥ x.ofLp) ⬝ᵥ (Q *ᵥ x.ofLp) = _
      rw [dotProduct_mulVec, vecMul_mulVec, hQ, vecMul_one]
    exact (sq_eq_sq₀ (norm_nonneg _) (norm_nonneg _)).mp this⟩

/-- An isometry as a map of triples. -/
noncomputable def asMap (f : E3 ≃ₗᵢ[ℝ] E3) : (Fin 3 → ℝ) ≃ᵐ (Fin 3 → ℝ) :=
  (MeasurableEquiv.toLp 2 (Fin 3 → ℝ)).trans (f.toHomeomorph.toMeasurableEquiv.trans (MeasurableEquiv.toLp 2 (Fin 3 → ℝ)).symm)

theorem asMap_dot (f : E3 ≃ₗᵢ[ℝ] E3) (x y : Fin 3 → ℝ) : asMap f x ⬝ᵥ asMap f y = x ⬝ᵥ y := by
  have := f.inner_map_map (WithLp.toLp 2 x) (WithLp.toLp 2 y)
  rw [E3.inner_dot, E3.inner_dot] at this
  exact this

theorem asMap_volume (f : E3 ≃ₗᵢ[ℝ] E3) : MeasurePreserving (asMap f) volume volume :=
  ((PiLp.volume_preserving_ofLp (Fin 3)).comp f.measurePreserving).comp (PiLp.volume_preserving_toLp (Fin 3))

/-- Three independent normal deviates. -/
noncomputable def normal3 : Measure (Fin 3 → ℝ) := Measure.pi fun _ => gaussianReal 0 1

theorem asMap_normal (f : E3 ≃ₗᵢ[ℝ] E3) : MeasurePreserving (asMap f) normal3 normal3 := by
  have h1 : normal3.map (WithLp.toLp 2) = stdGaussian E3 := map_pi_eq_stdGaussian
  have m1 : MeasurePreserving (MeasurableEquiv.toLp 2 (Fin 3 → ℝ)) normal3 (stdGaussian E3) := ⟨(MeasurableEquiv.toLp 2 (Fin 3 → ℝ)).measurable, h1⟩
  have m2 : MeasurePreserving f (stdGaussian E3) (stdGaussian E3) := ⟨f.continuous.measurable, stdGaussian_map f⟩
  exact (m1.symm.comp m2).comp m1

/-! ## isotropic -/

/-- The draws for which `isotropic` scatters into a direction of `A`. -/
def isotropicInto (F : Fmt) (albedo : Texture (Fl F)) (r : Ray (Fl F)) (rec : HitRecord (Fl F)) (A : Set (Fin 3 → ℝ)) : Set (Fin 3 → ℝ) :=
  {g | ∃ w ∈ A, (Isotropic.scatter albedo (cv g) r rec).ray = some ⟨rec.p, cv w⟩}

theorem isotropic_zero [F.Exact] : (Isotropic.randomInUnitSphere (cv 0 : Vec (Fl F) 3)) 0 = Fl.nan := by
  simp only [Isotropic.randomInUnitSphere, Vec.divAssign, cv_norm, cv_apply, ofNat_one]
  rw [show Real.sqrt ((0 : Fin 3 → ℝ) ⬝ᵥ 0) = 0 by simp]
  rcases fin_div_zero_cases (F := F) (one_ne_zero (α := ℝ)) with h | h <;> rw [h]
  · rw [show (0 : Fin 3 → ℝ) 0 = 0 from rfl, fin_mul_pinf, if_pos rfl]
  · rw [show (0 : Fin 3 → ℝ) 0 = 0 from rfl, fin_mul_ninf, if_pos rfl]

theorem mem_isotropicInto [F.Exact] (albedo : Texture (Fl F)) (r : Ray (Fl F)) (rec : HitRecord (Fl F)) (A : Set (Fin 3 → ℝ)) (g : Fin 3 → ℝ) :
    g ∈ isotropicInto F albedo r rec A ↔ g ≠ 0 ∧ (Real.sqrt (g ⬝ᵥ g))⁻¹ • g ∈ A := by
  unfold isotropicInto
  rw [Set.mem_ofPred_eq]
  by_cases hg : g = 0
  · subst hg
    refine ⟨?_, fun h => absurd rfl h.1⟩
    rintro ⟨w, -, h⟩
    have := congrFun (congrArg Ray.dir (Option.some.inj h)) 0
    dsimp only at this
    rw [isotropic_zero, cv_apply] at this
    cases this
  · obtain ⟨w, h1, h2, c, hc, h3⟩ := C75_isotropic (F := F) g hg
    have e : w = (Real.sqrt (g ⬝ᵥ g))⁻¹ • g := by
      have h4 : g = c⁻¹ • w := by rw [h3, smul_smul, inv_mul_cancel₀ hc.ne', one_smul]
      have h5 : g ⬝ᵥ g = c⁻¹ ^ 2 := by rw [h4, smul_dotProduct, dotProduct_smul, h2]; simp [sq]
      rw [h5, Real.sqrt_sq (inv_nonneg.mpr hc.le), inv_inv, h3]
    have h4 : (Isotropic.scatter albedo (cv g) r rec).ray = some ⟨rec.p, cv w⟩ := by
      unfold Isotropic.scatter; rw [h1]
    rw [h4, ← e]
    constructor
    · rintro ⟨v, hv, h⟩
      have := cv_inj.mp (congrArg Ray.dir (Option.some.inj h))
      exact ⟨hg, this ▸ hv⟩
    · exact fun h => ⟨w, h.2, rfl⟩

/-- C147: `isotropic` prefers no direction: with independent normal deviates, any set of directions is as probable as the set that a rotation
makes of it. -/
theorem C147_isotropic [F.Exact] (albedo : Texture (Fl F)) (r : Ray (Fl F)) (rec : HitRecord (Fl F)) (Q : Matrix (Fin 3) (Fin 3) ℝ)
    (hQ : Qᵀ * Q = 1) (A : Set (Fin 3 → ℝ)) :
    normal3 (isotropicInto F albedo r rec ((Q *ᵥ ·) '' A)) = normal3 (isotropicInto F albedo r rec A) := by
  have hm := (asMap_normal (rot Q hQ)).measure_preimage_equiv (isotropicInto F albedo r rec ((Q *ᵥ ·) '' A))
  rw [← hm]
  congr 1
  ext g
  have e : asMap (rot Q hQ) g = Q *ᵥ g := rfl
  rw [Set.mem_preimage, mem_isotropicInto, mem_isotropicInto, asMap_dot, e]
  have inj : Function.Injective (Q *ᵥ ·) := fun x y h => by
    have := congrArg (Qᵀ *ᵥ ·) h
    simpa [mulVec_mulVec, hQ] using this
  have h0 : Q *ᵥ g = 0 ↔ g = 0 := ⟨fun h => inj (h.trans (mulVec_zero Q).symm), fun h => by rw [h, mulVec_zero]⟩
  rw [ne_eq, h0, ← mulVec_smul]
  exact and_congr_right fun _ => inj.mem_set_image

/-- C147: almost surely the direction has length one. -/
theorem C147_isotropic_unit [F.Exact] (albedo : Texture (Fl F)) (r : Ray (Fl F)) (rec : HitRecord (Fl F)) :
    normal3 (isotropicInto F albedo r rec {w | w ⬝ᵥ w = 1}) = 1 := by
  have e : isotropicInto F albedo r rec {w | w ⬝ᵥ w = 1} = {0}ᶜ := by
    ext g
    rw [mem_isotropicInto, Set.mem_compl_singleton_iff]
    refine ⟨fun h => h.1, fun h => ⟨h, ?_⟩⟩
    have hs : 0 < g ⬝ᵥ g := lt_of_le_of_ne (dotProduct_self_nonneg' g) fun h' => h (dotProduct_self_eq_zero.mp h'.symm)
    rw [Set.mem_ofPred_eq, smul_dotProduct, dotProduct_smul, smul_eq_mul, smul_eq_mul, ← mul_assoc, ← mul_inv, Real.mul_self_sqrt hs.le,
      inv_mul_cancel₀ hs.ne']
  have h0 : normal3 {0} = 0 := by
    unfold normal3
    have := nullSingletonClass_gaussianReal (μ := 0) (v := 1) one_ne_zero
    rw [Measure.pi_singleton]
    simp
  have : IsProbabilityMeasure normal3 := by unfold normal3; infer_instance
  rw [e, prob_compl_eq_one_sub (measurableSet_singleton 0), h0, tsub_zero]

/-- A material in a room: upwards is as probable as to the right, with a quarter turn about the y axis. -/
example (albedo : Texture (Fl exact64)) (r : Ray (Fl exact64)) (rec : HitRecord (Fl exact64)) :
    normal3 (isotropicInto exact64 albedo r rec {w | 9 / 10 < w 2}) = normal3 (isotropicInto exact64 albedo r rec {w | 9 / 10 < w 0}) := by
  rw [← C147_isotropic albedo r rec !![0, 0, -1; 0, 1, 0; 1, 0, 0] (by
    ext i j; fin_cases i <;> fin_cases j <;> simp [Matrix.mul_apply, Fin.sum_univ_three]) {w | 9 / 10 < w 0}]
  congr 2
  ext w
  constructor
  · intro h
    refine ⟨![w 2, w 1, -w 0], by simpa using h, ?_⟩
    ext i; fin_cases i <;> simp [Matrix.mulVec, dotProduct, Fin.sum_univ_three]
  · rintro ⟨v, hv, rfl⟩
    simpa [Matrix.mulVec, dotProduct, Fin.sum_univ_three] using hv

/-! ## lambertian -/

/-- Sets of vectors given by their lengths and their components along a unit vector have the same volume for each unit vector. -/
theorem volume_axis (n : Fin 3 → ℝ) (hn : n ⬝ᵥ n = 1) (P : ℝ → ℝ → Prop) :
    volume {v : Fin 3 → ℝ | P (v ⬝ᵥ v) (v ⬝ᵥ n)} = volume {v : Fin 3 → ℝ | P (v ⬝ᵥ v) (v 2)} := by
  have hz : (Pi.single 2 1 : Fin 3 → ℝ) ⬝ᵥ Pi.single 2 1 = 1 := by simp
  have hnorm : ‖(WithLp.toLp 2 n : E3)‖ = ‖(WithLp.toLp 2 (Pi.single 2 1 : Fin 3 → ℝ) : E3)‖ := by
    have h : ∀ y : E3, ‖y‖ ^ 2 = y.ofLp ⬝ᵥ y.ofLp := fun y => by rw [← E3.inner_dot, real_inner_self_eq_norm_sq]
    refine (sq_eq_sq₀ (norm_nonneg _) (norm_nonneg _)).mp ?_
    rw [h, h]
    exact hn.trans hz.symm
  obtain ⟨f, hf⟩ : ∃ f : E3 ≃ₗᵢ[ℝ] E3, f (WithLp.toLp 2 n) = WithLp.toLp 2 (Pi.single 2 1 : Fin 3 → ℝ) :=
    ⟨_, Submodule.reflection_sub hnorm⟩
  have hf' : asMap f n = Pi.single 2 1 := congrArg WithLp.ofLp hf
  rw [← (asMap_volume f).measure_preimage_equiv {v : Fin 3 → ℝ | P (v ⬝ᵥ v) (v 2)}]
  congr 1
  ext v
  rw [Set.mem_preimage, Set.mem_ofPred_eq, Set.mem_ofPred_eq, asMap_dot]
  have : asMap f v 2 = v ⬝ᵥ n := by
    rw [← asMap_dot f v n, hf']; simp
  rw [this]

/-- Volumes by slices across the third axis. -/
theorem volume_slices (P : ℝ → ℝ → Prop) (hP : MeasurableSet {q : ℝ × ℝ | P q.1 q.2}) :
    volume {v : Fin 3 → ℝ | P (v ⬝ᵥ v) (v 2)} = ∫⁻ z : ℝ, volume {y : Fin 2 → ℝ | P (y 0 ^ 2 + y 1 ^ 2 + z ^ 2) z} := by
  let K' : Set (ℝ × (Fin 2 → ℝ)) := {q | P (q.2 0 ^ 2 + q.2 1 ^ 2 + q.1 ^ 2) q.1}
  have hm : MeasurableSet K' :=
    measurableSet_preimage (f := fun q : ℝ × (Fin 2 → ℝ) => (q.2 0 ^ 2 + q.2 1 ^ 2 + q.1 ^ 2, q.1)) (by fun_prop) hP
  have h := (volume_preserving_piFinSuccAbove (fun _ : Fin 3 => ℝ) 2).measure_preimage_equiv K'
  have e : (MeasurableEquiv.piFinSuccAbove (fun _ : Fin 3 => ℝ) 2) ⁻¹' K' = {v : Fin 3 → ℝ | P (v ⬝ᵥ v) (v 2)} := by
    ext p
    simp only [K', Set.mem_preimage, Set.mem_ofPred_eq]
    have : p ⬝ᵥ p = p 0 ^ 2 + p 1 ^ 2 + p 2 ^ 2 := by rw [dotProduct, Fin.sum_univ_three]; ring
    rw [this]
    rfl
  rw [← e, h, Measure.volume_eq_prod, Measure.prod_apply hm]
  rfl

/-- The direction for the vector `v` of the unit ball. -/
noncomputable def lambertDirection (n v : Fin 3 → ℝ) : Fin 3 → ℝ := n + if 0 < v ⬝ᵥ n then v else -v

/-- C147: what `lambertian` does with the vector of the unit ball at which its loop ends. -/
theorem C147_lambertian_draw [F.Exact] (albedo : Texture (Fl F)) (fuel : ℕ) (g g' : Pcg) (r : Ray (Fl F)) (rec : HitRecord (Fl F))
    (n v : Fin 3 → ℝ) (hr : rec.normal = cv n) (hn : n ⬝ᵥ n = 1) (h : Lambertian.randomUnitVector fuel g = some ((cv v : Vec (Fl F) 3), g')) :
    v ⬝ᵥ v ≤ 1 ∧ Lambertian.scatter albedo fuel g r rec = some (⟨true, some (albedo rec), some ⟨rec.p, cv (lambertDirection n v)⟩⟩, g') := by
  obtain ⟨w, hw, h1⟩ := C75_ball fuel g _ h
  obtain rfl : v = w := cv_inj.mp hw
  refine ⟨h1, ?_⟩
  have hh : Lambertian.randomInHemisphere fuel g rec.normal = some (cv (if 0 < v ⬝ᵥ n then v else -v), g') := by
    unfold Lambertian.randomInHemisphere
    rw [h, hr]
    simp only [cv_dot, cv_neg, gt, ofNat_zero, lt_fin, decide_eq_true_eq]
    split_ifs <;> rfl
  have hlong : 1 ≤ lambertDirection n v ⬝ᵥ lambertDirection n v := by
    unfold lambertDirection
    rw [add_dotProduct, dotProduct_add, dotProduct_add, hn]
    split_ifs with hc
    · rw [dotProduct_comm n v]
      have := dotProduct_self_nonneg' v
      linarith
    · rw [dotProduct_comm n (-v), neg_dotProduct, neg_dotProduct, dotProduct_neg]
      have := dotProduct_self_nonneg' v
      linarith
  have heps := Fmt.Exact.eps_lt (F := F)
  have hlt : lt (Vec.squaredNorm (cv (lambertDirection n v) : Vec (Fl F) 3)) (Scalar.sqrt eps) = false := by
    rw [eps_def, sqrt_fin (Fmt.Exact.eps_pos (F := F)).le]
    simp only [fl, decide_eq_false_iff_not, not_lt]
    refine le_trans ?_ hlong
    rw [Real.sqrt_le_one]
    exact heps.le
  unfold Lambertian.scatter
  rw [hh]
  dsimp only
  rw [hr, cv_add]
  change some (_, _) = _
  rw [show n + (if 0 < v ⬝ᵥ n then v else -v) = lambertDirection n v from rfl, hlt]
  rfl

theorem volume_annulus (a b : ℝ) (ha : 0 ≤ a) :
    volume {y : Fin 2 → ℝ | y 0 ^ 2 + y 1 ^ 2 ≤ b ∧ a < y 0 ^ 2 + y 1 ^ 2} = ENNReal.ofReal (Real.pi * (b - a)) := by
  rcases le_total b a with h | h
  · have e : {y : Fin 2 → ℝ | y 0 ^ 2 + y 1 ^ 2 ≤ b ∧ a < y 0 ^ 2 + y 1 ^ 2} = ∅ := by
      ext y
      simp only [Set.mem_ofPred_eq, Set.mem_empty_iff_false, iff_false]
      rintro ⟨h1, h2⟩
      linarith
    rw [e, measure_empty, ENNReal.ofReal_of_nonpos]
    have := Real.pi_pos
    nlinarith
  · have hd : ∀ q : ℝ, 0 ≤ q → volume {y : Fin 2 → ℝ | y 0 ^ 2 + y 1 ^ 2 ≤ q} = ENNReal.ofReal (Real.pi * q) := by
      intro q hq
      have := volume_disc (Real.sqrt q) (Real.sqrt_nonneg q)
      rwa [Real.sq_sqrt hq] at this
    have e : {y : Fin 2 → ℝ | y 0 ^ 2 + y 1 ^ 2 ≤ b ∧ a < y 0 ^ 2 + y 1 ^ 2} =
        {y : Fin 2 → ℝ | y 0 ^ 2 + y 1 ^ 2 ≤ b} \ {y : Fin 2 → ℝ | y 0 ^ 2 + y 1 ^ 2 ≤ a} := by
      ext y
      simp only [Set.mem_ofPred_eq, Set.mem_sdiff, not_le]
    have hm : MeasurableSet {y : Fin 2 → ℝ | y 0 ^ 2 + y 1 ^ 2 ≤ a} := (isClosed_le (by fun_prop) (by fun_prop)).measurableSet
    have hsub : {y : Fin 2 → ℝ | y 0 ^ 2 + y 1 ^ 2 ≤ a} ⊆ {y : Fin 2 → ℝ | y 0 ^ 2 + y 1 ^ 2 ≤ b} := by
      intro y hy
      rw [Set.mem_ofPred_eq] at hy ⊢
      exact hy.trans h
    rw [e, measure_sdiff hsub hm.nullMeasurableSet (by rw [hd a ha]; exact ENNReal.ofReal_ne_top),
      hd a ha, hd b (ha.trans h), ← ENNReal.ofReal_sub _ (by have := Real.pi_pos; positivity)]
    congr 1; ring

/-- The volume between a sphere and a cone. -/
theorem lintegral_cap (K : ℝ) (h0 : 0 ≤ K) (h1 : K ≤ 1) :
    ∫⁻ z : ℝ, ENNReal.ofReal (Real.pi * (1 - z ^ 2 - K * (1 + |z|) ^ 2)) =
      ENNReal.ofReal (2 * Real.pi * (((1 - K) / (1 + K)) - ((1 - K) / (1 + K)) ^ 3 / 3 - K * ((1 + (1 - K) / (1 + K)) ^ 3 - 1) / 3)) := by
  have hpi := Real.pi_pos
  obtain ⟨q, hq⟩ : ∃ q, q = (1 - K) / (1 + K) := ⟨_, rfl⟩
  have hq0 : 0 ≤ q := by rw [hq]; exact div_nonneg (by linarith) (by linarith)
  have hqK : q * (1 + K) = 1 - K := by rw [hq, div_mul_cancel₀]; linarith
  rw [← hq]
  have hf : Continuous fun z : ℝ => Real.pi * (1 - z ^ 2 - K * (1 + |z|) ^ 2) := by fun_prop
  -- the sign
  have hsign : ∀ z : ℝ, 1 - z ^ 2 - K * (1 + |z|) ^ 2 = (1 + |z|) * (1 + K) * (q - |z|) := by
    intro z
    rw [← sq_abs z]
    linear_combination (1 + |z|) * hqK.symm
  have hind : (fun z : ℝ => ENNReal.ofReal (Real.pi * (1 - z ^ 2 - K * (1 + |z|) ^ 2))) =
      (Set.Icc (-q) q).indicator fun z => ENNReal.ofReal (Real.pi * (1 - z ^ 2 - K * (1 + |z|) ^ 2)) := by
    funext z
    by_cases hz : z ∈ Set.Icc (-q) q
    · rw [Set.indicator_of_mem hz]
    · rw [Set.indicator_of_notMem hz, ENNReal.ofReal_of_nonpos]
      have : q < |z| := by
        by_contra hc
        exact hz ⟨(abs_le.mp (not_lt.mp hc)).1, (abs_le.mp (not_lt.mp hc)).2⟩
      rw [hsign]
      have h2 : 0 < (1 + |z|) * (1 + K) := by positivity
      have : (1 + |z|) * (1 + K) * (q - |z|) ≤ 0 := mul_nonpos_of_nonneg_of_nonpos h2.le (by linarith)
      nlinarith
  rw [hind, lintegral_indicator measurableSet_Icc, ← ofReal_integral_eq_lintegral_ofReal]
  · congr 1
    rw [integral_Icc_eq_integral_Ioc, ← intervalIntegral.integral_of_le (by linarith),
      ← intervalIntegral.integral_add_adjacent_intervals (b := 0) (hf.intervalIntegrable _ _) (hf.intervalIntegrable _ _)]
    have i1 : ∫ z in (-q)..0, Real.pi * (1 - z ^ 2 - K * (1 + |z|) ^ 2) = ∫ z in (-q)..0, Real.pi * (1 - z ^ 2 - K * (1 - z) ^ 2) := by
      refine intervalIntegral.integral_congr fun z hz => ?_
      rw [Set.uIcc_of_le (by linarith)] at hz
      simp only [abs_of_nonpos hz.2, sub_eq_add_neg]
    have i2 : ∫ z in (0 : ℝ)..q, Real.pi * (1 - z ^ 2 - K * (1 + |z|) ^ 2) = ∫ z in (0 : ℝ)..q, Real.pi * (1 - z ^ 2 - K * (1 + z) ^ 2) := by
      refine intervalIntegral.integral_congr fun z hz => ?_
      rw [Set.uIcc_of_le hq0] at hz
      simp only [abs_of_nonneg hz.1]
    have d1 : ∀ z : ℝ, HasDerivAt (fun z => Real.pi * (z - z ^ 3 / 3 + K * (1 - z) ^ 3 / 3)) (Real.pi * (1 - z ^ 2 - K * (1 - z) ^ 2)) z := by
      intro z
      have a := ((hasDerivAt_id' z).pow 3).div_const 3
      have b := ((((hasDerivAt_id' z).const_sub 1).pow 3).const_mul K).div_const 3
      convert! (((hasDerivAt_id' z).sub a).add b).const_mul Real.pi using 1
      simp
      ring
    have d2 : ∀ z : ℝ, HasDerivAt (fun z => Real.pi * (z - z ^ 3 / 3 - K * (1 + z) ^ 3 / 3)) (Real.pi * (1 - z ^ 2 - K * (1 + z) ^ 2)) z := by
      intro z
      have a := ((hasDerivAt_id' z).pow 3).div_const 3
      have b := ((((hasDerivAt_id' z).const_add 1).pow 3).const_mul K).div_const 3
      convert! (((hasDerivAt_id' z).sub a).sub b).const_mul Real.pi using 1
      simp
      ring
    rw [i1, i2, intervalIntegral.integral_eq_sub_of_hasDerivAt (fun z _ => d1 z) (by apply Continuous.intervalIntegrable; fun_prop),
      intervalIntegral.integral_eq_sub_of_hasDerivAt (fun z _ => d2 z) (by apply Continuous.intervalIntegrable; fun_prop)]
    ring
  · exact hf.integrableOn_Icc
  · refine (ae_restrict_iff' measurableSet_Icc).mpr (Filter.Eventually.of_forall fun z hz => ?_)
    show 0 ≤ Real.pi * (1 - z ^ 2 - K * (1 + |z|) ^ 2)
    rw [hsign]
    have : |z| ≤ q := abs_le.mpr hz
    have : 0 ≤ q - |z| := by linarith
    positivity

/-- C147: with uniformly distributed vectors of the unit ball, the share of the rays that `lambertian` sends at more than the angle `α` from the
normal is `2 cos⁴ α - 3/2 + 1 / (2 cos² α)`, up to 45 degrees. -/
theorem C147_lambertian (n : Fin 3 → ℝ) (hn : n ⬝ᵥ n = 1) (α : ℝ) (h0 : 0 ≤ α) (h1 : α ≤ Real.pi / 4) :
    volume {v : Fin 3 → ℝ | v ⬝ᵥ v ≤ 1 ∧ ¬ Within α n (lambertDirection n v)} =
      ENNReal.ofReal (2 * Real.cos α ^ 4 - 3 / 2 + 1 / (2 * Real.cos α ^ 2)) * volume {v : Fin 3 → ℝ | v ⬝ᵥ v ≤ 1} := by
  have hpi := Real.pi_pos
  obtain ⟨c, hc⟩ : ∃ c, c = Real.cos α := ⟨_, rfl⟩
  have hc2 : 1 / 2 ≤ c ^ 2 := by
    have : Real.cos (Real.pi / 4) ≤ c := by rw [hc]; exact Real.cos_le_cos_of_nonneg_of_le_pi h0 (by linarith) h1
    rw [Real.cos_pi_div_four] at this
    have h3 : (Real.sqrt 2 / 2) ^ 2 = 1 / 2 := by rw [div_pow, Real.sq_sqrt (by norm_num)]; norm_num
    rw [← h3]
    exact pow_le_pow_left₀ (by positivity) this 2
  have hc0 : 0 < c := by
    rw [hc]; exact Real.cos_pos_of_mem_Ioo ⟨by linarith, by linarith⟩
  have hc1 : c ^ 2 ≤ 1 := by rw [hc]; exact pow_le_one₀ (by rw [← hc]; exact hc0.le) (Real.cos_le_one α)
  rw [← hc]
  obtain ⟨P, hP⟩ : ∃ P : ℝ → ℝ → Prop, ∀ a b, P a b ↔ a ≤ 1 ∧ ¬ c * Real.sqrt (1 + 2 * |b| + a) ≤ 1 + |b| := ⟨_, fun _ _ => Iff.rfl⟩
  have hset : {v : Fin 3 → ℝ | v ⬝ᵥ v ≤ 1 ∧ ¬ Within α n (lambertDirection n v)} =
      {v : Fin 3 → ℝ | P (v ⬝ᵥ v) (v ⬝ᵥ n)} := by
    ext v
    simp only [Set.mem_ofPred_eq, Within, ← hc, hP]
    have e1 : lambertDirection n v ⬝ᵥ n = 1 + |v ⬝ᵥ n| := by
      unfold lambertDirection
      split_ifs with h
      · rw [add_dotProduct, hn, abs_of_pos h]
      · rw [add_dotProduct, hn, neg_dotProduct, abs_of_nonpos (not_lt.mp h)]
    have e2 : lambertDirection n v ⬝ᵥ lambertDirection n v = 1 + 2 * |v ⬝ᵥ n| + v ⬝ᵥ v := by
      unfold lambertDirection
      split_ifs with h
      · rw [add_dotProduct, dotProduct_add, dotProduct_add, hn, dotProduct_comm n v, abs_of_pos h]; ring
      · rw [add_dotProduct, dotProduct_add, dotProduct_add, hn, dotProduct_comm n (-v), neg_dotProduct, neg_dotProduct, dotProduct_neg,
          abs_of_nonpos (not_lt.mp h)]; ring
    rw [e1, e2]
  have hball : volume {v : Fin 3 → ℝ | v ⬝ᵥ v ≤ 1} = ENNReal.ofReal (4 * Real.pi / 3) := by
    obtain ⟨V, hV, h⟩ := C116_sphere_volume (F := exact64) 0 1 zero_le_one
    have e : {v : Fin 3 → ℝ | v ⬝ᵥ v ≤ 1} = {p : Fin 3 → ℝ | (p 0 - (0 : Fin 3 → ℝ) 0) ^ 2 + (p 1 - (0 : Fin 3 → ℝ) 1) ^ 2 + (p 2 - (0 : Fin 3 → ℝ) 2) ^ 2 ≤ 1 ^ 2} := by
      ext v
      simp only [Set.mem_ofPred_eq, dotProduct, Fin.sum_univ_three, Pi.zero_apply, sub_zero, one_pow]
      constructor <;> intro h <;> linarith
    rw [e, h]
    simp only [Sphere.volume, Sphere.ofReal, fl] at hV
    rw [div_fin _ (by norm_num)] at hV
    push_cast at hV
    rw [← fin_inj.mp hV]
    congr 1; ring
  have hm : MeasurableSet {q : ℝ × ℝ | P q.1 q.2} := by
    have e : {q : ℝ × ℝ | P q.1 q.2} = {q | q.1 ≤ 1} ∩ {q | c * Real.sqrt (1 + 2 * |q.2| + q.1) ≤ 1 + |q.2|}ᶜ := by
      ext q
      simp only [Set.mem_ofPred_eq, Set.mem_inter_iff, Set.mem_compl_iff, hP]
    rw [e]
    exact (isClosed_le (by fun_prop) (by fun_prop)).measurableSet.inter (isClosed_le (by fun_prop) (by fun_prop)).measurableSet.compl
  obtain ⟨K, hK⟩ : ∃ K, K = (1 - c ^ 2) / c ^ 2 := ⟨_, rfl⟩
  have hK0 : 0 ≤ K := by rw [hK]; exact div_nonneg (by linarith) (by positivity)
  have hK1 : K ≤ 1 := by rw [hK, div_le_one (by positivity)]; linarith
  have hKc : K * c ^ 2 = 1 - c ^ 2 := by rw [hK, div_mul_cancel₀]; positivity
  have hs : ∀ z : ℝ, volume {y : Fin 2 → ℝ | P (y 0 ^ 2 + y 1 ^ 2 + z ^ 2) z} =
      ENNReal.ofReal (Real.pi * (1 - z ^ 2 - K * (1 + |z|) ^ 2)) := by
    intro z
    rw [← volume_annulus (K * (1 + |z|) ^ 2) (1 - z ^ 2) (by positivity)]
    congr 1
    ext y
    simp only [Set.mem_ofPred_eq, hP]
    refine and_congr (by constructor <;> intro h <;> linarith) ?_
    have e : 1 + 2 * |z| + (y 0 ^ 2 + y 1 ^ 2 + z ^ 2) = (y 0 ^ 2 + y 1 ^ 2) + (1 + |z|) ^ 2 := by rw [← sq_abs z]; ring
    rw [not_le, e, ← Real.sqrt_sq (by positivity : 0 ≤ 1 + |z|)]
    rw [Real.sqrt_sq (by positivity : 0 ≤ 1 + |z|)]
    have hp : 0 ≤ c * Real.sqrt ((y 0 ^ 2 + y 1 ^ 2) + (1 + |z|) ^ 2) := by positivity
    rw [← sq_lt_sq₀ (by positivity) hp, mul_pow, Real.sq_sqrt (by positivity)]
    have hcc : 0 < c ^ 2 := by positivity
    constructor
    · intro h
      have : K * (1 + |z|) ^ 2 * c ^ 2 < (y 0 ^ 2 + y 1 ^ 2) * c ^ 2 := by
        have : K * (1 + |z|) ^ 2 * c ^ 2 = (1 - c ^ 2) * (1 + |z|) ^ 2 := by rw [← hKc]; ring
        rw [this]; linarith
      exact lt_of_mul_lt_mul_right this hcc.le
    · intro h
      have h2 := mul_lt_mul_of_pos_right h hcc
      have : K * (1 + |z|) ^ 2 * c ^ 2 = (1 - c ^ 2) * (1 + |z|) ^ 2 := by rw [← hKc]; ring
      rw [this] at h2; linarith
  rw [hset, volume_axis n hn, volume_slices _ hm]
  simp only [hs]
  have hpos : 0 ≤ 2 * c ^ 4 - 3 / 2 + 1 / (2 * c ^ 2) := by
    have : 2 * c ^ 4 - 3 / 2 + 1 / (2 * c ^ 2) = (2 * c ^ 2 - 1) ^ 2 * (1 + c ^ 2) / (2 * c ^ 2) := by field_simp; ring
    rw [this]; positivity
  rw [lintegral_cap K hK0 hK1, hball, ← ENNReal.ofReal_mul hpos]
  congr 1
  have e1 : (1 - K) / (1 + K) = 2 * c ^ 2 - 1 := by rw [hK]; field_simp; ring
  rw [e1, hK]
  field_simp
  ring

/-- Light that falls on the floor of a room: 7/24 of the light that `lambertian` scatters leaves at more than 30 degrees; by Lambert's law it
would be three quarters. -/
example : volume {v : Fin 3 → ℝ | v ⬝ᵥ v ≤ 1 ∧ ¬ Within (Real.pi / 6) ![0, 0, 1] (lambertDirection ![0, 0, 1] v)} =
    ENNReal.ofReal (7 / 24) * volume {v : Fin 3 → ℝ | v ⬝ᵥ v ≤ 1} := by
  rw [C147_lambertian _ (by simp [dotProduct, Fin.sum_univ_three]) _ (by positivity) (by linarith [Real.pi_pos])]
  have h : Real.cos (Real.pi / 6) ^ 2 = 3 / 4 := by
    rw [Real.cos_pi_div_six, div_pow, Real.sq_sqrt (by norm_num)]; norm_num
  rw [show Real.cos (Real.pi / 6) ^ 4 = (Real.cos (Real.pi / 6) ^ 2) ^ 2 by ring, h]
  norm_num

/-! ## constant_medium -/

/-- The random numbers for which a medium lets a ray pass. -/
theorem medium_passes [F.Exact] {S K : Set (Fin 3 → ℝ)} {o d : Fin 3 → ℝ} {e x : ℝ} (b : Hittable (Fl F))
    (hb : ∀ tmin : Fl F, FindsNearest S o d tmin (b.hit ⟨cv o, cv d⟩ tmin))
    (hS : ∀ t, o + t • d ∈ S ↔ t = e ∨ t = x) (hK : ∀ t, o + t • d ∈ K ↔ e ≤ t ∧ t ≤ x) (hgap : e + 100 * F.eps ≤ x)
    {k : ℝ} (hk : 0 < k) {tmin tmax : Fl F} (hmin : isNaN tmin = false) (hmax : isNaN tmax = false) (rec1 rec2 rec : HitRecord (Fl F)) :
    Real.exp (-(k * fogLength K o d (tmin, tmax))) ≤ 1 ∧
    {ξ : ℝ | (0 ≤ ξ ∧ ξ < 1) ∧
        ((ConstantMedium.make b (fin k)).hit (fin ξ) rec1 rec2 ⟨cv o, cv d⟩ tmin tmax rec).1 = false} =
      Set.Ico 0 (Real.exp (-(k * fogLength K o d (tmin, tmax)))) := by
  have hL : 0 ≤ fogLength K o d (tmin, tmax) := mul_nonneg ENNReal.toReal_nonneg (Real.sqrt_nonneg _)
  have he : Real.exp (-(k * fogLength K o d (tmin, tmax))) ≤ 1 := by
    rw [Real.exp_le_one_iff]; have := mul_nonneg hk.le hL; linarith
  refine ⟨he, ?_⟩
  ext ξ
  rw [Set.mem_ofPred_eq, Set.mem_Ico]
  constructor
  · rintro ⟨⟨h0, h1⟩, h⟩
    refine ⟨h0, ?_⟩
    by_contra hc
    have := (C126_law b hb hS hK hgap hk h0 h1 hmin hmax rec1 rec2 rec).mpr (not_lt.mp hc)
    rw [h] at this
    cases this
  · rintro ⟨h0, h1⟩
    have h1' := h1.trans_le he
    refine ⟨⟨h0, h1'⟩, ?_⟩
    rw [← Bool.not_eq_true, C126_law b hb hS hK hgap hk h0 h1' hmin hmax rec1 rec2 rec, not_le]
    exact h1

/-- C147: with a uniform random number, a medium lets the share `exp (-k L)` of the rays pass, where `L` is the length of the way through the
body. -/
theorem C147_medium [F.Exact] {S K : Set (Fin 3 → ℝ)} {o d : Fin 3 → ℝ} {e x : ℝ} (b : Hittable (Fl F))
    (hb : ∀ tmin : Fl F, FindsNearest S o d tmin (b.hit ⟨cv o, cv d⟩ tmin))
    (hS : ∀ t, o + t • d ∈ S ↔ t = e ∨ t = x) (hK : ∀ t, o + t • d ∈ K ↔ e ≤ t ∧ t ≤ x) (hgap : e + 100 * F.eps ≤ x)
    {k : ℝ} (hk : 0 < k) {tmin tmax : Fl F} (hmin : isNaN tmin = false) (hmax : isNaN tmax = false) (rec1 rec2 rec : HitRecord (Fl F)) :
    volume {ξ : ℝ | (0 ≤ ξ ∧ ξ < 1) ∧
        ((ConstantMedium.make b (fin k)).hit (fin ξ) rec1 rec2 ⟨cv o, cv d⟩ tmin tmax rec).1 = false} =
      ENNReal.ofReal (Real.exp (-(k * fogLength K o d (tmin, tmax)))) := by
  rw [(medium_passes b hb hS hK hgap hk hmin hmax rec1 rec2 rec).2, Real.volume_Ico, sub_zero]

/-! ## dielectric -/

/-- C147: with a uniform random number, glass mirrors the share of the rays that Schlick's formula gives, unless all of them are mirrored. -/
theorem C147_glass [F.Exact] (ir : ℝ) (hir : 0 < ir) (o d u n : Fin 3 → ℝ) (hu : UnitOf d u) (rec : HitRecord (Fl F))
    (hr : rec.normal = cv n) (hn : n ⬝ᵥ n = 1) (hface : d ⬝ᵥ n ≤ 0) :
    let ratio := if rec.frontFace then 1 / ir else ir
    volume {ξ : ℝ | (0 ≤ ξ ∧ ξ < 1) ∧ ∃ w, (Dielectric.scatter (fin ir) (fin ξ) ⟨cv o, cv d⟩ rec).ray = some ⟨rec.p, cv w⟩ ∧ Mirrors n u w} =
      ENNReal.ofReal (if ratio ^ 2 * (1 - (u ⬝ᵥ n) ^ 2) ≤ 1 then schlick (-(u ⬝ᵥ n)) ratio else 1) := by
  intro ratio
  have hpos : 0 < ratio := by
    show 0 < (if rec.frontFace then 1 / ir else ir)
    split
    · positivity
    · exact hir
  have hun : u ⬝ᵥ n ≤ 0 := by
    obtain ⟨-, c, hc, rfl⟩ := hu
    rw [smul_dotProduct, smul_eq_mul] at hface
    by_contra h
    have := mul_pos hc (not_le.mp h)
    linarith
  have hcs : (u ⬝ᵥ n) ^ 2 ≤ 1 := by
    have h := dotProduct_self_nonneg' (u ⨯₃ n)
    rw [cross_dot_cross, hu.1, hn, dotProduct_comm n u] at h
    nlinarith
  have hc1 : -(u ⬝ᵥ n) ≤ 1 := by nlinarith
  have hs1 : schlick (-(u ⬝ᵥ n)) ratio ≤ 1 := by
    obtain ⟨y, h1, -, h2⟩ := C78_range (F := F) (-(u ⬝ᵥ n)) ratio hpos (by linarith) hc1
    rw [reflectance_fin _ _ hpos] at h1
    rwa [← fin_inj.mp h1] at h2
  have key : ∀ ξ : ℝ, 0 ≤ ξ → ξ < 1 →
      ((∃ w, (Dielectric.scatter (fin ir : Fl F) (fin ξ) ⟨cv o, cv d⟩ rec).ray = some ⟨rec.p, cv w⟩ ∧ Mirrors n u w) ↔
        ξ < (if ratio ^ 2 * (1 - (u ⬝ᵥ n) ^ 2) ≤ 1 then schlick (-(u ⬝ᵥ n)) ratio else 1)) := by
    intro ξ h0 h1
    obtain ⟨w, w1, w2, ratio', rfl, w3, w4, w5⟩ := C77_scatter (F := F) ir ξ hir o d u n hu rec hr hn hface
    rw [w1]
    by_cases ht : ratio ^ 2 * (1 - (u ⬝ᵥ n) ^ 2) ≤ 1
    · rw [if_pos ht]
      by_cases hx : ξ < schlick (-(u ⬝ᵥ n)) ratio
      · exact ⟨fun _ => hx, fun _ => ⟨w, rfl, w4 ht hx⟩⟩
      · refine ⟨?_, fun h => absurd h hx⟩
        rintro ⟨v, hv, hm⟩
        exfalso
        obtain rfl : w = v := cv_inj.mp (congrArg Ray.dir (Option.some.inj hv))
        have hR := w5 ht (not_lt.mp hx)
        have e1 := hm.1
        have e2 := hR.1
        have e3 : u ⬝ᵥ n = 0 := by linarith
        rw [e3, neg_zero] at hx
        have : schlick 0 ratio = 1 := by unfold schlick; ring
        rw [this] at hx
        exact hx h1
    · rw [if_neg ht]
      exact ⟨fun _ => h1, fun _ => ⟨w, rfl, w3 (not_le.mp ht)⟩⟩
  have hset : {ξ : ℝ | (0 ≤ ξ ∧ ξ < 1) ∧ ∃ w, (Dielectric.scatter (fin ir : Fl F) (fin ξ) ⟨cv o, cv d⟩ rec).ray = some ⟨rec.p, cv w⟩ ∧ Mirrors n u w} =
      Set.Ico 0 (if ratio ^ 2 * (1 - (u ⬝ᵥ n) ^ 2) ≤ 1 then schlick (-(u ⬝ᵥ n)) ratio else 1) := by
    ext ξ
    rw [Set.mem_ofPred_eq, Set.mem_Ico]
    constructor
    · rintro ⟨⟨h0, h1⟩, h⟩
      exact ⟨h0, (key ξ h0 h1).mp h⟩
    · rintro ⟨h0, h⟩
      have h1 : ξ < 1 := by
        refine h.trans_le ?_
        split
        · exact hs1
        · exact le_rfl
      exact ⟨⟨h0, h1⟩, (key ξ h0 h1).mpr h⟩
  rw [hset, Real.volume_Ico, sub_zero]

/-- Light that falls straight on a window of index 3/2: four percent is mirrored. -/
example (rec : HitRecord (Fl exact64)) (hr : rec.normal = cv ![0, 0, 1]) (hf : rec.frontFace = true) :
    volume {ξ : ℝ | (0 ≤ ξ ∧ ξ < 1) ∧ ∃ w, (Dielectric.scatter (fin (3 / 2)) (fin ξ) ⟨cv ![0, 0, 5], cv ![0, 0, -1]⟩ rec).ray =
      some ⟨rec.p, cv w⟩ ∧ Mirrors ![0, 0, 1] ![0, 0, -1] w} = ENNReal.ofReal (1 / 25) := by
  have h := C147_glass (F := exact64) (3 / 2) (by norm_num) ![0, 0, 5] ![0, 0, -1] ![0, 0, -1] ![0, 0, 1]
    ⟨by simp [dotProduct, Fin.sum_univ_three], 1, one_pos, (one_smul _ _).symm⟩ rec hr (by simp [dotProduct, Fin.sum_univ_three])
    (by simp [dotProduct, Fin.sum_univ_three])
  dsimp only at h
  rw [h, hf]
  congr 1
  simp [dotProduct, Fin.sum_univ_three, schlick]
  norm_num

/-- Half of the light passes through a ball of fog of radius 1 and density `log 2 / 2`. -/
example (b : Hittable (Fl exact64)) (hb : b.hit = (Sphere.ofReal (F := exact64) 0 1).hit) (rec1 rec2 rec : HitRecord (Fl exact64)) :
    volume {ξ : ℝ | (0 ≤ ξ ∧ ξ < 1) ∧ ((ConstantMedium.make b (fin (Real.log 2 / 2))).hit (fin ξ) rec1 rec2 ⟨cv ![0, 0, -3], cv ![0, 0, 1]⟩
      (fin 0) pinf rec).1 = false} = ENNReal.ofReal (1 / 2) := by
  have e1 : 100 * exact64.eps < 1 := by norm_num [exact64]
  have tv : exact64.tiny < 1 := Fmt.Exact.tiny_lt
  rw [C147_medium (K := ballSet 0 1) (e := 2) (x := 4) b (fun tmin => by
      rw [hb]
      refine C46_nearest_partial 0 1 ![0, 0, -3] ![0, 0, 1] tmin (by simpa [dotProduct, Fin.sum_univ_three] using tv) (Or.inr ?_)
      simp [dotProduct, Fin.sum_univ_three]; linarith)
    fogExample_crossings (fun t => ?_) (by linarith) (by have := Real.log_pos one_lt_two; positivity) rfl rfl rec1 rec2 rec, fogExample]
  · rw [show -(Real.log 2 / 2 * 2) = -Real.log 2 by ring, Real.exp_neg, Real.exp_log two_pos, one_div]
  · simp only [ballSet, Set.mem_ofPred_eq]
    simp
    rw [abs_le]
    constructor
    · rintro ⟨h1, h2⟩; constructor <;> linarith
    · rintro ⟨h1, h2⟩; constructor <;> linarith

end DRT
