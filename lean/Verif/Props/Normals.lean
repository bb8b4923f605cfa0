import Verif.Props.Sphere
import Verif.Props.Ellipsoid
import Verif.Props.Cylinder
import Verif.Props.Torus
import Verif.Props.Disk
import Verif.Props.Rect
import Verif.Props.Fog
import Mathlib.Analysis.Calculus.Deriv.Slope

/-! # C137: what the recorded normal and `front_face` mean, for every shape -/

namespace DRT
open Scalar Fl Matrix Filter Topology

variable {F : Fmt}

/-- `n` is perpendicular to the set `S` at `p`: it is perpendicular to the velocity at `p` of every curve in `S`. -/
def NormalTo (S : Set (Fin 3 → ℝ)) (p n : Fin 3 → ℝ) : Prop :=
  ∀ (γ : ℝ → Fin 3 → ℝ) (w : Fin 3 → ℝ), γ 0 = p → (∀ᶠ s in 𝓝 0, γ s ∈ S) →
    (∀ i, HasDerivAt (fun s => γ s i) (w i) 0) → n ⬝ᵥ w = 0

/-- What the record of a ray in direction `d` should say at the point `p` of the surface `S` that bounds `body`. The normal
has length one, is perpendicular to the surface and does not point along the ray. If `front_face` is true, the normal
points out of the body and the ray comes from outside. If it is false, the normal points into the body and the ray
comes from inside, unless it is tangent. -/
def ShowsSide (S body : Set (Fin 3 → ℝ)) (p d : Fin 3 → ℝ) (rec : HitRecord (Fl F)) : Prop :=
  ∃ n : Fin 3 → ℝ, rec.normal = cv n ∧ n ⬝ᵥ n = 1 ∧ d ⬝ᵥ n ≤ 0 ∧ NormalTo S p n ∧
    (rec.frontFace = true → (∀ᶠ ε : ℝ in 𝓝[>] 0, p + ε • n ∉ body) ∧ ∀ᶠ ε : ℝ in 𝓝[>] 0, p - ε • d ∉ body) ∧
    (rec.frontFace = false → (∀ᶠ ε : ℝ in 𝓝[>] 0, p + ε • n ∈ body) ∧
      (d ⬝ᵥ n ≠ 0 → ∀ᶠ ε : ℝ in 𝓝[>] 0, p - ε • d ∈ body))

/-! ## The general argument -/

theorem eventually_pos_of_deriv {f : ℝ → ℝ} {k : ℝ} (h0 : f 0 = 0) (h : HasDerivAt f k 0) (hk : 0 < k) :
    ∀ᶠ ε : ℝ in 𝓝[>] 0, 0 < f ε := by
  have h1 : Tendsto (slope f 0) (𝓝[>] 0) (𝓝 k) :=
    (hasDerivAt_iff_tendsto_slope.mp h).mono_left (nhdsWithin_mono _ (fun x (hx : 0 < x) => hx.ne'))
  filter_upwards [h1.eventually (lt_mem_nhds hk), self_mem_nhdsWithin] with ε h2 (h3 : 0 < ε)
  rw [slope_def_field, h0, sub_zero, sub_zero, div_pos_iff] at h2
  rcases h2 with h | h
  · exact h.1
  · linarith [h.2]

/-- The function `f` has the gradient `g` at `p`, along all curves. -/
def GradAt (f : (Fin 3 → ℝ) → ℝ) (g p : Fin 3 → ℝ) : Prop :=
  ∀ (γ : ℝ → Fin 3 → ℝ) (w : Fin 3 → ℝ), γ 0 = p → (∀ i, HasDerivAt (fun s => γ s i) (w i) 0) →
    HasDerivAt (fun s => f (γ s)) (g ⬝ᵥ w) 0

theorem line_deriv (p v : Fin 3 → ℝ) (i : Fin 3) : HasDerivAt (fun ε : ℝ => (p + ε • v) i) (v i) 0 := by
  simpa using ((hasDerivAt_id (0 : ℝ)).mul_const (v i)).const_add (p i)

/-- A function with gradient `k n` that vanishes on `S` and is positive exactly outside `body`: a record whose normal is
`n` or `-n`, as `set_face_normal` chooses, is as it should be. -/
theorem ShowsSide.of_gradient [F.Exact] {S body : Set (Fin 3 → ℝ)} {p d n : Fin 3 → ℝ} {rec : HitRecord (Fl F)}
    (f : (Fin 3 → ℝ) → ℝ) (k : ℝ) (hk : 0 < k) (hn : n ⬝ᵥ n = 1) (hg : GradAt f (k • n) p) (h0 : f p = 0)
    (hS : ∀ q ∈ S, f q = 0) (hb : ∀ q, q ∈ body ↔ f q ≤ 0)
    (hf : rec.frontFace = lt (Vec.dot (cv d : Vec (Fl F) 3) (cv n)) 0)
    (hm : rec.normal = if rec.frontFace = true then cv n else -cv n) : ShowsSide S body p d rec := by
  have hline : ∀ v : Fin 3 → ℝ, HasDerivAt (fun ε : ℝ => f (p + ε • v)) (k * (n ⬝ᵥ v)) 0 := by
    intro v
    have := hg (fun ε => p + ε • v) v (by simp) (line_deriv p v)
    rwa [smul_dotProduct, smul_eq_mul] at this
  have out : ∀ v : Fin 3 → ℝ, 0 < n ⬝ᵥ v → ∀ᶠ ε : ℝ in 𝓝[>] 0, p + ε • v ∉ body := by
    intro v hv
    filter_upwards [eventually_pos_of_deriv (by simpa using h0) (hline v) (mul_pos hk hv)] with ε h
    rw [hb]; exact not_le.mpr h
  have ins : ∀ v : Fin 3 → ℝ, n ⬝ᵥ v < 0 → ∀ᶠ ε : ℝ in 𝓝[>] 0, p + ε • v ∈ body := by
    intro v hv
    filter_upwards [eventually_pos_of_deriv (f := fun ε => -f (p + ε • v)) (by simpa using h0) (hline v).neg
      (by nlinarith)] with ε h
    rw [hb]; linarith
  have perp : NormalTo S p n := by
    intro γ w hγ hev hw
    have h1 := hg γ w hγ hw
    have h2 : (fun s => f (γ s)) =ᶠ[𝓝 0] fun _ => (0 : ℝ) := hev.mono fun s hs => hS _ hs
    have h3 := (h1.congr_of_eventuallyEq h2.symm).unique (hasDerivAt_const (0 : ℝ) (0 : ℝ))
    rw [smul_dotProduct, smul_eq_mul] at h3
    exact (mul_eq_zero.mp h3).resolve_left hk.ne'
  rw [cv_dot, ofNat_zero, lt_fin] at hf
  have hsub : ∀ ε : ℝ, p - ε • d = p + ε • (-d) := fun ε => by rw [smul_neg, sub_eq_add_neg]
  by_cases hd : d ⬝ᵥ n < 0
  · have hft : rec.frontFace = true := by rw [hf]; simpa using hd
    rw [if_pos hft] at hm
    refine ⟨n, hm, hn, hd.le, perp, fun _ => ⟨out n (by rw [hn]; norm_num), ?_⟩, fun h => by rw [hft] at h; cases h⟩
    simp only [hsub]
    exact out (-d) (by rw [dotProduct_neg, dotProduct_comm]; linarith)
  · have hft : rec.frontFace = false := by rw [hf]; simpa using hd
    rw [if_neg (by rw [hft]; exact Bool.false_ne_true), cv_neg] at hm
    push Not at hd
    refine ⟨-n, hm, by rw [neg_dotProduct_neg, hn], by rw [dotProduct_neg]; linarith, ?_,
      (fun h => by rw [hft] at h; cases h), fun _ => ⟨ins (-n) (by rw [dotProduct_neg, hn]; norm_num), fun hne => ?_⟩⟩
    · intro γ w h1 h2 h3
      rw [neg_dotProduct, perp γ w h1 h2 h3, neg_zero]
    · simp only [hsub]
      rw [dotProduct_neg, neg_ne_zero] at hne
      refine ins (-d) ?_
      rw [dotProduct_neg, dotProduct_comm]
      have := lt_of_le_of_ne hd (Ne.symm hne)
      linarith

/-! ## The shapes -/

/-- A point of the surface in range makes a hit at some point of the surface. -/
theorem FindsNearest.exists_hit {S : Set (Fin 3 → ℝ)} {o d : Fin 3 → ℝ} {tmin tmax : Fl F}
    {h : Fl F → HitRecord (Fl F) → Bool × HitRecord (Fl F)} (hf : FindsNearest S o d tmin h) (hm : isNaN tmax = false)
    (rec : HitRecord (Fl F)) (z : ℝ) (hz : InRange (tmin, tmax) z) (hS : o + z • d ∈ S) :
    ∃ rec' p, h tmax rec = (true, rec') ∧ rec'.p = cv p ∧ p ∈ S := by
  have h1 := (hf tmax rec hm).1.mpr ⟨z, hz, hS⟩
  obtain ⟨w, -, hp, -, hw, -⟩ := (hf tmax rec hm).2 h1
  exact ⟨_, _, Prod.ext h1 rfl, hp, hw⟩

/-- C137, sphere: whenever the recorded point is on the sphere. -/
theorem C137_sphere [F.Exact] (c : Fin 3 → ℝ) (R : ℝ) (hR : 0 < R) (o d : Fin 3 → ℝ) (tmin tmax : Fl F)
    (rec rec' : HitRecord (Fl F)) (p : Fin 3 → ℝ) (hp : p ∈ sphereSet c R)
    (h : (Sphere.ofReal c R).hit ⟨cv o, cv d⟩ tmin tmax rec = (true, rec')) (hrp : rec'.p = cv p) :
    ShowsSide (sphereSet c R) {q | (q 0 - c 0) ^ 2 + (q 1 - c 1) ^ 2 + (q 2 - c 2) ^ 2 ≤ R ^ 2} p d rec' := by
  have hp' : (p 0 - c 0) ^ 2 + (p 1 - c 1) ^ 2 + (p 2 - c 2) ^ 2 = R ^ 2 := hp
  have hrec := Sphere.hit_true (by rw [h] : ((Sphere.ofReal c R).hit ⟨cv o, cv d⟩ tmin tmax rec).1 = true)
  rw [h] at hrec
  dsimp only at hrec
  have hat : (Ray.mk (cv o) (cv d) : Ray (Fl F)).at rec'.t = cv p := by
    rw [← hrp]; conv_rhs => rw [hrec]
    rfl
  have hnn : ((Ray.mk (cv o) (cv d) : Ray (Fl F)).at rec'.t - cv c) /. (fin R : Fl F) = cv (R⁻¹ • (p - c)) := by
    rw [hat, cv_sub, cv_sdiv hR.ne']
  refine ShowsSide.of_gradient (n := R⁻¹ • (p - c)) (fun q => (q 0 - c 0) ^ 2 + (q 1 - c 1) ^ 2 + (q 2 - c 2) ^ 2 - R ^ 2)
    (2 * R) (by linarith) ?_ ?_ (by linarith) (fun q hq => ?_) (fun q => ?_) ?_ ?_
  · rw [smul_dotProduct, dotProduct_smul, smul_eq_mul, smul_eq_mul]
    simp only [dotProduct, Fin.sum_univ_three, Pi.sub_apply]
    field_simp
    linarith
  · intro γ w h1 h2
    have e : ∀ i, γ 0 i = p i := fun i => by rw [h1]
    have := (((((h2 0).sub_const (c 0)).pow 2).add (((h2 1).sub_const (c 1)).pow 2)).add
      (((h2 2).sub_const (c 2)).pow 2)).sub_const (R ^ 2)
    refine this.congr_deriv ?_
    simp only [e, dotProduct, Fin.sum_univ_three, Pi.smul_apply, Pi.sub_apply, smul_eq_mul]
    field_simp
    ring
  · have : (q 0 - c 0) ^ 2 + (q 1 - c 1) ^ 2 + (q 2 - c 2) ^ 2 = R ^ 2 := hq
    linarith
  · rw [Set.mem_ofPred_eq]
    constructor <;> intro h <;> linarith
  · rw [← hnn, hrec]; rfl
  · rw [← hnn, hrec]; rfl

/-- A ray from the centre of a sphere hits it from inside. -/
example (rec : HitRecord (Fl exact0)) : ∃ rec' p, (Sphere.ofReal (F := exact0) 0 1).hit ⟨cv 0, cv ![0, 0, 1]⟩ (fin 0) pinf rec = (true, rec') ∧
    ShowsSide (sphereSet 0 1) {q | (q 0 - 0) ^ 2 + (q 1 - 0) ^ 2 + (q 2 - 0) ^ 2 ≤ 1 ^ 2} p ![0, 0, 1] rec' := by
  obtain ⟨rec', p, h, hp, hS⟩ := (C46_nearest_ideal (F := exact0) rfl 0 1 0 ![0, 0, 1] (fin 0) (by simp)).exists_hit
    (tmax := pinf) rfl rec 1 ⟨by rw [le_fin]; norm_num, rfl⟩ (by simp [sphereSet])
  exact ⟨rec', p, h, C137_sphere 0 1 one_pos 0 _ _ _ rec rec' p hS h hp⟩

/-- C137, ellipsoid: whenever the recorded point is on the ellipsoid. -/
theorem C137_ellipsoid [F.Exact] (c s : Fin 3 → ℝ) (hs : ∀ i, 0 < s i) (o d : Fin 3 → ℝ) (tmin tmax : Fl F)
    (rec rec' : HitRecord (Fl F)) (p : Fin 3 → ℝ) (hp : p ∈ ellipsoidSet c s)
    (h : (Ellipsoid.ofReal c s).hit ⟨cv o, cv d⟩ tmin tmax rec = (true, rec')) (hrp : rec'.p = cv p) :
    ShowsSide (ellipsoidSet c s) {q | ((q 0 - c 0) / s 0) ^ 2 + ((q 1 - c 1) / s 1) ^ 2 + ((q 2 - c 2) / s 2) ^ 2 ≤ 1} p d rec' := by
  have hp' : ((p 0 - c 0) / s 0) ^ 2 + ((p 1 - c 1) / s 1) ^ 2 + ((p 2 - c 2) / s 2) ^ 2 = 1 := hp
  have hs0 : ∀ i, s i ≠ 0 := fun i => (hs i).ne'
  have hrec := Ellipsoid.hit_true (by rw [h] : ((Ellipsoid.ofReal c s).hit ⟨cv o, cv d⟩ tmin tmax rec).1 = true)
  rw [h] at hrec
  dsimp only at hrec
  have hat : (Ray.mk (cv o) (cv d) : Ray (Fl F)).at rec'.t = cv p := by
    rw [← hrp]; conv_rhs => rw [hrec]
    rfl
  obtain ⟨g, hgdef⟩ : ∃ g, g = ellipsoidGradient c s p := ⟨_, rfl⟩
  have hg : 0 < g ⬝ᵥ g := by rw [hgdef]; exact ellipsoidGradient_pos c hs0 hp
  have hsq : 0 < Real.sqrt (g ⬝ᵥ g) := Real.sqrt_pos.mpr hg
  have hnn : (Ellipsoid.ofReal c s : Ellipsoid (Fl F)).gradient ((Ray.mk (cv o) (cv d) : Ray (Fl F)).at rec'.t) /.
      Vec.norm ((Ellipsoid.ofReal c s : Ellipsoid (Fl F)).gradient ((Ray.mk (cv o) (cv d) : Ray (Fl F)).at rec'.t)) =
      cv ((Real.sqrt (g ⬝ᵥ g))⁻¹ • g) := by
    rw [hat, Ellipsoid.gradient_fin c hs0 p, ← hgdef, cv_norm, cv_sdiv hsq.ne']
  refine ShowsSide.of_gradient (n := (Real.sqrt (g ⬝ᵥ g))⁻¹ • g)
    (fun q => ((q 0 - c 0) / s 0) ^ 2 + ((q 1 - c 1) / s 1) ^ 2 + ((q 2 - c 2) / s 2) ^ 2 - 1)
    (Real.sqrt (g ⬝ᵥ g)) hsq ?_ ?_ (by linarith) (fun q hq => ?_) (fun q => ?_) ?_ ?_
  · rw [smul_dotProduct, dotProduct_smul, smul_eq_mul, smul_eq_mul]
    nth_rewrite 3 [← Real.mul_self_sqrt hg.le]
    field_simp
  · rw [smul_smul, mul_inv_cancel₀ hsq.ne', one_smul, hgdef]
    intro γ w h1 h2
    have e : ∀ i, γ 0 i = p i := fun i => by rw [h1]
    have := ((((((h2 0).sub_const (c 0)).div_const (s 0)).pow 2).add ((((h2 1).sub_const (c 1)).div_const (s 1)).pow 2)).add
      ((((h2 2).sub_const (c 2)).div_const (s 2)).pow 2)).sub_const 1
    refine this.congr_deriv ?_
    have a0 := hs0 0; have a1 := hs0 1; have a2 := hs0 2
    simp only [e, ellipsoidGradient, dotProduct, Fin.sum_univ_three, Nat.cast_ofNat, Nat.add_one_sub_one, pow_one]
    field_simp
  · have : ((q 0 - c 0) / s 0) ^ 2 + ((q 1 - c 1) / s 1) ^ 2 + ((q 2 - c 2) / s 2) ^ 2 = 1 := hq
    linarith
  · rw [Set.mem_ofPred_eq]
    constructor <;> intro h <;> linarith
  · rw [← hnn, hrec]; rfl
  · rw [← hnn, hrec]; rfl

/-- A ray towards an ellipsoid from outside. -/
example (rec : HitRecord (Fl exact0)) :
    ∃ rec' p, (Ellipsoid.ofReal (F := exact0) 0 ![1, 2, 3]).hit ⟨cv ![0, 0, -5], cv ![0, 0, 1]⟩ (fin 0) pinf rec = (true, rec') ∧
    ShowsSide (ellipsoidSet 0 ![1, 2, 3]) {q | ((q 0 - 0) / 1) ^ 2 + ((q 1 - 0) / 2) ^ 2 + ((q 2 - 0) / 3) ^ 2 ≤ 1} p ![0, 0, 1] rec' := by
  have hs : ∀ i, 0 < (![1, 2, 3] : Fin 3 → ℝ) i := by intro i; fin_cases i <;> norm_num
  obtain ⟨rec', p, h, hp, hS⟩ := (C51_nearest_ideal (F := exact0) rfl 0 ![1, 2, 3] (fun i => (hs i).ne') ![0, 0, -5] ![0, 0, 1] (fin 0)
    (by simp)).exists_hit (tmax := pinf) rfl rec 2 ⟨by rw [le_fin]; norm_num, rfl⟩ (by simp [ellipsoidSet]; norm_num)
  exact ⟨rec', p, h, C137_ellipsoid 0 ![1, 2, 3] hs _ _ _ _ rec rec' p hS h hp⟩

theorem Cylinder.hit_true {s : Cylinder (Fl F)} {ry : Ray (Fl F)} {tmin tmax : Fl F} {rec rec' : HitRecord (Fl F)}
    (h : s.hit ry tmin tmax rec = (true, rec')) : ∃ rc, rec' = s.complete ry rc := by
  have fin' : ∀ rc, s.finish ry rc = (true, rec') → ∃ rc, rec' = s.complete ry rc := by
    intro rc h
    have := Cylinder.finish_snd s ry rc
    rw [h] at this
    exact ⟨rc, this⟩
  unfold Cylinder.hit at h
  dsimp only at h
  split at h
  · split_ifs at h <;> first | (exact fin' _ h) | (exact absurd (congrArg Prod.fst h) Bool.false_ne_true)
  · exact absurd (congrArg Prod.fst h) Bool.false_ne_true

/-- C137, cylinder: whenever the recorded point is on the cylinder, which it is when the range starts outside
(`C64_outside_partial`). The body is the solid cylinder without ends. -/
theorem C137_cylinder [F.Exact] (r z0 z1 : ℝ) (hr : 0 < r) (o d : Fin 3 → ℝ) (tmin tmax : Fl F)
    (rec rec' : HitRecord (Fl F)) (p : Fin 3 → ℝ) (hp : p ∈ cylinderSet r z0 z1)
    (h : (Cylinder.ofReal r z0 z1).hit ⟨cv o, cv d⟩ tmin tmax rec = (true, rec')) (hrp : rec'.p = cv p) :
    ShowsSide (cylinderSet r z0 z1) {q | q 0 ^ 2 + q 1 ^ 2 ≤ r ^ 2} p d rec' := by
  obtain ⟨rc, hrec⟩ := Cylinder.hit_true h
  have hat : rc.p = cv p := by rw [← hrp, hrec]; rfl
  have hp1 := hp.1
  have hgr : (![2 * rc.p 0, 2 * rc.p 1, 0] : Vec (Fl F) 3) = cv ![2 * p 0, 2 * p 1, 0] := by
    rw [hat, cv_apply, cv_apply, ofNat_def, ofNat_zero, mul_fin, mul_fin, cv_vec3]; norm_num
  have hno : Vec.norm (![2 * rc.p 0, 2 * rc.p 1, 0] : Vec (Fl F) 3) = fin (2 * r) := by
    rw [hgr, cv_norm]
    congr 1
    rw [show (![2 * p 0, 2 * p 1, 0] : Fin 3 → ℝ) ⬝ᵥ ![2 * p 0, 2 * p 1, 0] = (2 * r) ^ 2 by
      simp only [dotProduct, Fin.sum_univ_three, cons_val_zero, cons_val_one, cons_val]; linear_combination 4 * hp1]
    exact Real.sqrt_sq (by linarith)
  have hnn : (![2 * rc.p 0, 2 * rc.p 1, 0] : Vec (Fl F) 3) /. Vec.norm (![2 * rc.p 0, 2 * rc.p 1, 0] : Vec (Fl F) 3) =
      cv (r⁻¹ • ![p 0, p 1, 0]) := by
    rw [hno, hgr, cv_sdiv (by linarith)]
    congr 1
    funext i
    fin_cases i <;> simp <;> field_simp
  refine ShowsSide.of_gradient (n := r⁻¹ • ![p 0, p 1, 0]) (fun q => q 0 ^ 2 + q 1 ^ 2 - r ^ 2)
    (2 * r) (by linarith) ?_ ?_ (by linarith) (fun q hq => by linarith [hq.1]) (fun q => ?_) ?_ ?_
  · rw [smul_dotProduct, dotProduct_smul, smul_eq_mul, smul_eq_mul]
    simp only [dotProduct, Fin.sum_univ_three, cons_val_zero, cons_val_one, cons_val]
    field_simp
    linarith
  · intro γ w h1 h2
    have e : ∀ i, γ 0 i = p i := fun i => by rw [h1]
    refine ((((h2 0).pow 2).add ((h2 1).pow 2)).sub_const (r ^ 2)).congr_deriv ?_
    simp only [e, dotProduct, Fin.sum_univ_three, Pi.smul_apply, cons_val_zero, cons_val_one, cons_val, smul_eq_mul]
    field_simp
    ring
  · rw [Set.mem_ofPred_eq]
    constructor <;> intro h <;> linarith
  · rw [← hnn, hrec]; rfl
  · rw [← hnn, hrec]; rfl

/-- A ray over the rim of a cylinder onto the wall opposite, which it hits from inside. -/
example (rec : HitRecord (Fl exact0)) :
    ∃ rec' p, (Cylinder.ofReal (F := exact0) 1 0 1).hit ⟨cv ![-2, 0, 2], cv ![1, 0, -1/2]⟩ (fin 0) pinf rec = (true, rec') ∧
    ShowsSide (cylinderSet 1 0 1) {q | q 0 ^ 2 + q 1 ^ 2 ≤ 1 ^ 2} p ![1, 0, -1/2] rec' := by
  obtain ⟨rec', p, h, hp, hS⟩ := (C65_outside_partial (F := exact0) 1 0 1 ![-2, 0, 2] ![1, 0, -1/2] (fin 0) rfl
    (by show (0:ℝ) < 1 ^ 2 + 0 ^ 2; norm_num) (Or.inr (by show (0:ℝ) < |2 * (-2 * 1 + 0 * 0)|; norm_num)) (by
      intro t ht
      rw [fin_inj] at ht; subst ht
      show (1:ℝ) ^ 2 < (-2 + 0 * 1) ^ 2 + (0 + 0 * 0) ^ 2; norm_num)).exists_hit (tmax := pinf) rfl rec 3
    ⟨by rw [le_fin]; norm_num, rfl⟩ ⟨by show (-2 + 3 * 1 : ℝ) ^ 2 + (0 + 3 * 0) ^ 2 = 1 ^ 2; norm_num,
      by show (0:ℝ) ≤ 2 + 3 * (-1/2); norm_num, by show (2 + 3 * (-1/2) : ℝ) ≤ 1; norm_num⟩
  exact ⟨rec', p, h, C137_cylinder 1 0 1 one_pos _ _ _ _ rec rec' p hS h hp⟩

/-- The solid torus: the points at most `r` away from the circle of radius `R` around the axis. -/
def solidTorus (c : Fin 3 → ℝ) (R r : ℝ) : Set (Fin 3 → ℝ) :=
  {q | (Real.sqrt ((q 0 - c 0) ^ 2 + (q 1 - c 1) ^ 2) - R) ^ 2 + (q 2 - c 2) ^ 2 ≤ r ^ 2}

theorem mem_solidTorus (c : Fin 3 → ℝ) {R r : ℝ} (hr : 0 < r) (hR : r < R) (q : Fin 3 → ℝ) :
    q ∈ solidTorus c R r ↔ torusF c R r q ≤ 0 := by
  unfold solidTorus torusF
  obtain ⟨x, hx⟩ : ∃ x, x = Real.sqrt ((q 0 - c 0) ^ 2 + (q 1 - c 1) ^ 2) := ⟨_, rfl⟩
  have hx0 : 0 ≤ x := by rw [hx]; exact Real.sqrt_nonneg _
  have hxx : (q 0 - c 0) ^ 2 + (q 1 - c 1) ^ 2 = x ^ 2 := by rw [hx, Real.sq_sqrt (by positivity)]
  rw [Set.mem_ofPred_eq, ← hx, hxx]
  have hpos : 0 < (x + R) ^ 2 + (q 2 - c 2) ^ 2 - r ^ 2 := by nlinarith [sq_nonneg (q 2 - c 2)]
  rw [show (x ^ 2 + (q 2 - c 2) ^ 2 + R ^ 2 - r ^ 2) ^ 2 - 4 * R ^ 2 * x ^ 2 =
    ((x + R) ^ 2 + (q 2 - c 2) ^ 2 - r ^ 2) * ((x - R) ^ 2 + (q 2 - c 2) ^ 2 - r ^ 2) by ring, mul_nonpos_iff]
  constructor
  · intro h; exact Or.inl ⟨hpos.le, by linarith⟩
  · rintro (⟨-, h⟩ | ⟨h, -⟩) <;> linarith

/-- C137, torus: whenever the recorded point is on a ring torus. -/
theorem C137_torus [F.Exact] (c : Fin 3 → ℝ) (R r : ℝ) (hr : 0 < r) (hR : r < R) (o d : Fin 3 → ℝ) (tmin tmax : Fl F)
    (rec rec' : HitRecord (Fl F)) (p : Fin 3 → ℝ) (hp : p ∈ torusSet c R r)
    (h : (Torus.ofReal c R r).hit ⟨cv o, cv d⟩ tmin tmax rec = (true, rec')) (hrp : rec'.p = cv p) :
    ShowsSide (torusSet c R r) (solidTorus c R r) p d rec' := by
  obtain ⟨t, hrec⟩ := Torus.hit_true h
  have hat : (Torus.ofReal c R r : Torus (Fl F)).refine ((Ray.mk (cv o) (cv d) : Ray (Fl F)).at t) (cv d) = cv p := by
    rw [← hrp, hrec]; rfl
  obtain ⟨a, b, rfl⟩ := hp
  have hb := abs_le.mp (Real.abs_cos_le_one b)
  have hq : 0 < R + r * Real.cos b := by nlinarith
  have hR0 : 0 < R := by linarith
  obtain ⟨k, hkdef⟩ : ∃ k, k = 8 * R * r * (R + r * Real.cos b) := ⟨_, rfl⟩
  have hk : 0 < k := by rw [hkdef]; positivity
  have hgf : (Torus.ofReal c R r : Torus (Fl F)).gradient (cv (torusAt c R r a b)) = cv (k • torusNormal a b) := by
    rw [Torus.gradient_fin, hkdef]
  have hgrad : torusGrad c R r (torusAt c R r a b) = k • torusNormal a b := by
    have h' : (Torus.ofReal c R r : Torus (Fl F)).gradient (cv (torusAt c R r a b)) = cv (torusGrad c R r (torusAt c R r a b)) := by
      unfold Torus.gradient Torus.ofReal torusGrad
      simp only [fl, Nat.cast_ofNat, cv_vec3, cv_inj]
      simp only [sq]
    rwa [hgf, cv_inj, eq_comm] at h'
  have hnn : (Torus.ofReal c R r : Torus (Fl F)).gradient ((Torus.ofReal c R r : Torus (Fl F)).refine ((Ray.mk (cv o) (cv d) : Ray (Fl F)).at t) (cv d)) /.
      Vec.norm ((Torus.ofReal c R r : Torus (Fl F)).gradient ((Torus.ofReal c R r : Torus (Fl F)).refine ((Ray.mk (cv o) (cv d) : Ray (Fl F)).at t) (cv d))) =
      cv (torusNormal a b) := by
    rw [hat, hgf, cv_norm, smul_dotProduct, dotProduct_smul, torusNormal_unit, smul_eq_mul, smul_eq_mul, mul_one,
      Real.sqrt_mul_self hk.le, cv_sdiv hk.ne', smul_smul, inv_mul_cancel₀ hk.ne', one_smul]
  have hzero : ∀ q ∈ torusSet c R r, torusF c R r q = 0 := by
    rintro q ⟨x, y, rfl⟩
    have t1 := Real.sin_sq_add_cos_sq x
    have t2 := Real.sin_sq_add_cos_sq y
    have e : ((R + r * Real.cos y) * Real.cos x) ^ 2 + ((R + r * Real.cos y) * Real.sin x) ^ 2 = (R + r * Real.cos y) ^ 2 := by
      linear_combination (R + r * Real.cos y) ^ 2 * t1
    unfold torusF torusAt
    simp only [cons_val_zero, cons_val_one, cons_val, add_sub_cancel_left]
    rw [e, show (R + r * Real.cos y) ^ 2 + (r * Real.sin y) ^ 2 + R ^ 2 - r ^ 2 = 2 * R * (R + r * Real.cos y) by
      linear_combination r ^ 2 * t2]
    ring
  refine ShowsSide.of_gradient (n := torusNormal a b) (torusF c R r) k hk (torusNormal_unit a b) ?_ (hzero _ ⟨a, b, rfl⟩) hzero
    (mem_solidTorus c hr hR) ?_ ?_
  · rw [← hgrad]
    generalize torusAt c R r a b = p at *
    intro γ w h1 h2
    have e : ∀ i, γ 0 i = p i := fun i => by rw [h1]
    have x0 := ((h2 0).sub_const (c 0)).pow 2
    have x1 := ((h2 1).sub_const (c 1)).pow 2
    have x2 := ((h2 2).sub_const (c 2)).pow 2
    have := (((((x0.add x1).add x2).add_const (R ^ 2)).sub_const (r ^ 2)).pow 2).sub ((x0.add x1).const_mul (4 * R ^ 2))
    refine this.congr_deriv ?_
    simp only [e, torusGrad, dotProduct, Fin.sum_univ_three, cons_val_zero, cons_val_one, cons_val, Pi.add_apply, Pi.pow_apply]
    push_cast
    ring
  · rw [← hnn, hrec]; rfl
  · rw [← hnn, hrec]; rfl

/-- A ray from the hole of a ring torus meets it from outside. -/
example (rec : HitRecord (Fl exact0)) :
    ∃ rec' p, (Torus.ofReal (F := exact0) 0 2 1).hit ⟨cv ![0, 0, 0], cv ![1, 0, 0]⟩ (fin 0) pinf rec = (true, rec') ∧
    ShowsSide (torusSet 0 2 1) (solidTorus 0 2 1) p ![1, 0, 0] rec' := by
  obtain ⟨rec', p, h, hp, hS⟩ := (torus_axis_hit 0 (Or.inr rfl) (fin 0)).exists_hit (tmax := pinf) rfl rec 1
    ⟨by rw [le_fin]; norm_num, rfl⟩ ((torus_axis 0 1).mpr (by norm_num))
  exact ⟨rec', p, h, C137_torus 0 2 1 (by norm_num) (by norm_num) _ _ _ _ rec rec' p hS h hp⟩

/-- A plane with unit normal `n` through `c`. -/
theorem ShowsSide.of_plane [F.Exact] {S : Set (Fin 3 → ℝ)} {p d n : Fin 3 → ℝ} {rec : HitRecord (Fl F)} (c : Fin 3 → ℝ)
    (hn : n ⬝ᵥ n = 1) (hS : ∀ q ∈ S, (q - c) ⬝ᵥ n = 0) (hp : (p - c) ⬝ᵥ n = 0)
    (hf : rec.frontFace = lt (Vec.dot (cv d : Vec (Fl F) 3) (cv n)) 0)
    (hm : rec.normal = if rec.frontFace = true then cv n else -cv n) : ShowsSide S {q | (q - c) ⬝ᵥ n ≤ 0} p d rec := by
  refine ShowsSide.of_gradient (n := n) (fun q => (q - c) ⬝ᵥ n) 1 one_pos hn ?_ hp hS (fun q => Iff.rfl) hf hm
  intro γ w h1 h2
  have := ((((h2 0).sub_const (c 0)).mul_const (n 0)).add (((h2 1).sub_const (c 1)).mul_const (n 1))).add
    (((h2 2).sub_const (c 2)).mul_const (n 2))
  refine (this.congr_deriv ?_).congr_of_eventuallyEq (Eventually.of_forall fun s => ?_)
  · simp only [one_smul, dotProduct, Fin.sum_univ_three]; ring
  · simp [dotProduct, Fin.sum_univ_three]

/-- C137, disk: on every hit. The body is the half space behind the disk. -/
theorem C137_disk [F.Exact] (r : ℝ) (c n : Fin 3 → ℝ) (hn : n ⬝ᵥ n = 1) (o d : Fin 3 → ℝ)
    (s : Disk (Fl F)) (hs : Disk.make (fin r) (cv c) (cv n) = some s) (tmin tmax : Fl F) (rec rec' : HitRecord (Fl F))
    (h : s.hit ⟨cv o, cv d⟩ tmin tmax rec = (true, rec')) :
    ∃ p ∈ diskSet r c n, rec'.p = cv p ∧ ShowsSide (diskSet r c n) {q | (q - c) ⬝ᵥ n ≤ 0} p d rec' := by
  rw [Disk.make_eq r c n hn] at hs
  cases hs
  by_cases hd : d ⬝ᵥ n = 0
  · rw [Disk.hit_parallel r c n hn o d hd] at h; cases h
  rw [Disk.hit_fin r c n hn o d hd tmin tmax rec] at h
  obtain ⟨t, ht⟩ : ∃ t, t = -((o - c) ⬝ᵥ n) / (d ⬝ᵥ n) := ⟨_, rfl⟩
  simp only [← ht] at h
  split_ifs at h with h1 h2
  · simp at h
  · simp at h
  have hrec := (congrArg Prod.snd h).symm
  dsimp only at hrec
  have hplane : (o + t • d - c) ⬝ᵥ n = 0 := by
    rw [show o + t • d - c = (o - c) + t • d by abel, add_dotProduct, smul_dotProduct, smul_eq_mul, ht]
    field_simp; ring
  refine ⟨o + t • d, ⟨hplane, not_lt.mp h2⟩, ?_, ShowsSide.of_plane c hn (fun q hq => hq.1) hplane ?_ ?_⟩
  · rw [hrec]; show (Ray.mk (cv o) (cv d) : Ray (Fl F)).at (fin t) = _
    rw [ray_at_cv]
  · rw [hrec]; rfl
  · rw [hrec]; rfl

/-- A ray onto a slanted disk from behind. -/
example (rec : HitRecord (Fl exact64)) : ∃ (s : Disk (Fl exact64)) (rec' : _) (p : Fin 3 → ℝ),
    s.hit ⟨cv ![0, 0, -1], cv ![0, 0, 1]⟩ (fin 0) pinf rec = (true, rec') ∧
    ShowsSide (diskSet 1 0 ![3/5, 0, 4/5]) {q | (q - 0) ⬝ᵥ ![3/5, 0, 4/5] ≤ 0} p ![0, 0, 1] rec' := by
  have hn : (![3/5, 0, 4/5] : Fin 3 → ℝ) ⬝ᵥ ![3/5, 0, 4/5] = 1 := by simp [dotProduct, Fin.sum_univ_three]; norm_num
  obtain ⟨rec', -, h, -, -⟩ := (C62_nearest (F := exact64) 1 0 ![3/5, 0, 4/5] hn ![0, 0, -1] ![0, 0, 1]
    (by simp [dotProduct, Fin.sum_univ_three]) (fin 0) rfl _ (Disk.make_eq 1 0 _ hn)).exists_hit (tmax := pinf) rfl rec 1
    ⟨by rw [le_fin]; norm_num, rfl⟩ (by simp [diskSet])
  obtain ⟨p, -, -, hs⟩ := C137_disk 1 0 _ hn _ _ _ (Disk.make_eq 1 0 _ hn) _ _ rec rec' h
  exact ⟨_, rec', p, h, hs⟩

theorem Rect.showsSide [F.Exact] (i j n : Fin 3) (m : Fin 3 → ℝ) (hm1 : m ⬝ᵥ m = 1) (hmn : ∀ q : Fin 3 → ℝ, q ⬝ᵥ m = q n)
    (a0 a1 b0 b1 k : ℝ) (o d : Fin 3 → ℝ) (hd : d n ≠ 0) (tmin tmax : Fl F) (rec rec' : HitRecord (Fl F))
    (h : Rect.hitPlane i j n (cv m) (Rect.ofReal a0 a1 b0 b1 k) ⟨cv o, cv d⟩ tmin tmax rec = (true, rec')) :
    ∃ p ∈ rectSet i j n a0 a1 b0 b1 k, rec'.p = cv p ∧ ShowsSide (rectSet i j n a0 a1 b0 b1 k) {q | q n ≤ k} p d rec' := by
  rw [Rect.hitPlane_fin i j n (cv m) a0 a1 b0 b1 k o d hd tmin tmax rec] at h
  obtain ⟨t, ht⟩ : ∃ t, t = (k - o n) / d n := ⟨_, rfl⟩
  simp only [← ht] at h
  split_ifs at h with h1 h2
  · simp at h
  · simp at h
  have hrec := (congrArg Prod.snd h).symm
  dsimp only at hrec
  push Not at h2
  have hplane : (o + t • d) n = k := by
    show o n + t * d n = k
    rw [ht]; field_simp; ring
  have key : ShowsSide (rectSet i j n a0 a1 b0 b1 k) {q | (q - k • m) ⬝ᵥ m ≤ 0} (o + t • d) d rec' := by
    have e : ∀ q : Fin 3 → ℝ, (q - k • m) ⬝ᵥ m = q n - k := by
      intro q; rw [sub_dotProduct, smul_dotProduct, hm1, hmn, smul_eq_mul, mul_one]
    refine ShowsSide.of_plane (k • m) hm1 (fun q hq => ?_) ?_ ?_ ?_
    · rw [e, hq.1, sub_self]
    · rw [e, hplane, sub_self]
    · rw [hrec]; rfl
    · rw [hrec]; rfl
  refine ⟨o + t • d, ⟨hplane, ⟨h2.1, h2.2.1⟩, h2.2.2.1, h2.2.2.2⟩, by rw [hrec], ?_⟩
  convert key using 1
  ext q
  rw [Set.mem_ofPred_eq, Set.mem_ofPred_eq, sub_dotProduct, smul_dotProduct, hm1, hmn, smul_eq_mul, mul_one, sub_nonpos]

/-- C137, rectangles: on every hit by a transversal ray. The body is the half space below the rectangle. -/
theorem C137_rectangles [F.Exact] (a0 a1 b0 b1 k : ℝ) (o d : Fin 3 → ℝ) (tmin tmax : Fl F) (rec rec' : HitRecord (Fl F)) :
    (d 2 ≠ 0 → (Rect.ofReal a0 a1 b0 b1 k).hitXY ⟨cv o, cv d⟩ tmin tmax rec = (true, rec') →
      ∃ p ∈ rectSet 0 1 2 a0 a1 b0 b1 k, rec'.p = cv p ∧ ShowsSide (rectSet 0 1 2 a0 a1 b0 b1 k) {q | q 2 ≤ k} p d rec') ∧
    (d 1 ≠ 0 → (Rect.ofReal a0 a1 b0 b1 k).hitXZ ⟨cv o, cv d⟩ tmin tmax rec = (true, rec') →
      ∃ p ∈ rectSet 0 2 1 a0 a1 b0 b1 k, rec'.p = cv p ∧ ShowsSide (rectSet 0 2 1 a0 a1 b0 b1 k) {q | q 1 ≤ k} p d rec') ∧
    (d 0 ≠ 0 → (Rect.ofReal a0 a1 b0 b1 k).hitYZ ⟨cv o, cv d⟩ tmin tmax rec = (true, rec') →
      ∃ p ∈ rectSet 1 2 0 a0 a1 b0 b1 k, rec'.p = cv p ∧ ShowsSide (rectSet 1 2 0 a0 a1 b0 b1 k) {q | q 0 ≤ k} p d rec') := by
  have e : ∀ a b c : ℕ, (![(OfNat.ofNat a : Fl F), OfNat.ofNat b, OfNat.ofNat c] : Vec (Fl F) 3) = cv ![(a:ℝ), b, c] := by
    intro a b c; rw [ofNat_def, ofNat_def, ofNat_def, cv_vec3]
  refine ⟨fun hd h => ?_, fun hd h => ?_, fun hd h => ?_⟩
  · have em : (![0, 0, 1] : Vec (Fl F) 3) = cv ![0, 0, 1] := by simpa using e 0 0 1
    unfold Rect.hitXY at h
    rw [em] at h
    exact Rect.showsSide 0 1 2 ![0, 0, 1] (by simp [dotProduct, Fin.sum_univ_three]) (by simp [dotProduct, Fin.sum_univ_three])
      a0 a1 b0 b1 k o d hd tmin tmax rec rec' h
  · have em : (![0, 1, 0] : Vec (Fl F) 3) = cv ![0, 1, 0] := by simpa using e 0 1 0
    unfold Rect.hitXZ at h
    rw [em] at h
    exact Rect.showsSide 0 2 1 ![0, 1, 0] (by simp [dotProduct, Fin.sum_univ_three]) (by simp [dotProduct, Fin.sum_univ_three])
      a0 a1 b0 b1 k o d hd tmin tmax rec rec' h
  · have em : (![1, 0, 0] : Vec (Fl F) 3) = cv ![1, 0, 0] := by simpa using e 1 0 0
    unfold Rect.hitYZ at h
    rw [em] at h
    exact Rect.showsSide 1 2 0 ![1, 0, 0] (by simp [dotProduct, Fin.sum_univ_three]) (by simp [dotProduct, Fin.sum_univ_three])
      a0 a1 b0 b1 k o d hd tmin tmax rec rec' h

/-- A ray down through the unit square. -/
example (rec : HitRecord (Fl exact64)) :
    ∃ rec' p, (Rect.ofReal (F := exact64) 0 1 0 1 0).hitXY ⟨cv ![1/2, 1, 3], cv ![0, 0, -1]⟩ (fin 0) pinf rec = (true, rec') ∧
    ShowsSide (rectSet 0 1 2 0 1 0 1 0) {q | q 2 ≤ 0} p ![0, 0, -1] rec' := by
  have hd : (![0, 0, -1] : Fin 3 → ℝ) 2 ≠ 0 := by show (-1:ℝ) ≠ 0; norm_num
  obtain ⟨rec', -, h, -, -⟩ := ((C59_exact_partial (F := exact64) 0 1 0 1 0 ![1/2, 1, 3] ![0, 0, -1] (fin 0) rfl).1 hd).exists_hit
    (tmax := pinf) rfl rec 3 ⟨by rw [le_fin]; norm_num, rfl⟩ (by
      show (3:ℝ) + 3 * -1 = 0 ∧ (0 ≤ (1:ℝ)/2 + 3 * 0 ∧ (1:ℝ)/2 + 3 * 0 ≤ 1) ∧ 0 ≤ (1:ℝ) + 3 * 0 ∧ (1:ℝ) + 3 * 0 ≤ 1
      norm_num)
  obtain ⟨p, -, -, hs⟩ := (C137_rectangles 0 1 0 1 0 _ _ _ _ rec rec').1 hd h
  exact ⟨rec', p, h, hs⟩

end DRT
