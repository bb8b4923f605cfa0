import Verif.Model.Scenes
import Verif.Props.ColorMaps
import Verif.Props.Disk
import Verif.Props.Ellipsoid
import Verif.Props.Enneper
import Verif.Props.Helicoid
import Verif.Props.Torus

/-! # C105: the pictures that show the curvature -/

namespace DRT
open Scalar Fl Matrix

variable {F : Fmt}

/-- A record that carries the fundamental forms of a parametrization and whose curvature is a number carries the
curvature of the surface. -/
theorem HasForms.curvature [F.Exact] {rec : HitRecord (Fl F)} {s : ℝ → ℝ → Fin 3 → ℝ} {n : Fin 3 → ℝ} {u v K : ℝ}
    (h : HasForms rec s n u v) (hK : rec.gaussianCurvature = fin K) : GaussianCurvatureAt s u v K := by
  obtain ⟨su, sv, h1, suu, suv, svv, h2, hE, hF, hG, he, hf, hg, hn, hnu, hnv⟩ := h
  unfold HitRecord.gaussianCurvature at hK
  rw [hE, hF, hG, he, hf, hg] at hK
  simp only [fl] at hK
  have hne : (su u v ⬝ᵥ su u v) * (sv u v ⬝ᵥ sv u v) - (su u v ⬝ᵥ sv u v) * (su u v ⬝ᵥ sv u v) ≠ 0 := by
    intro h0
    rw [h0] at hK
    have : ∀ x : ℝ, (fin x : Fl F) / fin 0 ≠ fin K := by
      intro x hx
      change (if (0 : ℝ) = 0 then (if x = 0 then Fl.nan else if F.zdiv x then pinf else ninf) else rnd F (x / 0)) = _ at hx
      rw [if_pos rfl] at hx
      revert hx
      split_ifs <;> exact fun hx => by cases hx
    exact this _ hK
  rw [div_fin _ hne, fin_inj, div_eq_iff hne] at hK
  refine ⟨su, sv, h1, suu, suv, svv, n, h2, hn, hnu, hnv, ?_, ?_⟩
  · rwa [sq]
  · rw [sq, sq]; exact hK.symm

/-! ## the linear scale -/

theorem linearScale_fin [F.Exact] {lo hi : ℝ} (h : lo < hi) (K : ℝ) :
    linearScale ((fin lo, fin hi) : Fl F × Fl F) (fin K) = fin ((K - lo) / (hi - lo)) := by
  unfold linearScale
  simp only [sub_fin, div_fin _ (sub_pos.mpr h).ne']

/-- C105, ellipsoid_curvature.cpp: let the semi-axes not be all equal. At every hit on the ellipsoid away from the poles, the
colour is the value of `viridis` at the number in `[0, 1]` that says where the gaussian curvature of the surface at the
point lies between its least value `lo` and its greatest value `hi`. -/
theorem C105_ellipsoid [F.Exact] (c s : Fin 3 → ℝ) (hs : ∀ i, 0 < s i) (hne : s 0 ≠ s 1 ∨ s 1 ≠ s 2) (o d : Fin 3 → ℝ)
    (tmin tmax : Fl F) (rec : HitRecord (Fl F)) (p : Fin 3 → ℝ) (hp : p ∈ ellipsoidSet c s) (hpole : p 0 ≠ c 0 ∨ p 1 ≠ c 1)
    (h : ((Ellipsoid.ofReal c s).hit ⟨cv o, cv d⟩ tmin tmax rec).1 = true)
    (hrp : ((Ellipsoid.ofReal c s).hit ⟨cv o, cv d⟩ tmin tmax rec).2.p = cv p) :
    let E : Ellipsoid (Fl F) := Ellipsoid.ofReal c s
    let rec' := (E.hit ⟨cv o, cv d⟩ tmin tmax rec).2
    ∃ (lo hi K x u v : ℝ) (σ : ℝ → ℝ → Fin 3 → ℝ), (∀ u v : ℝ, E.eval (fin u) (fin v) = cv (σ u v)) ∧ σ u v = p ∧
      GaussianCurvatureAt σ u v K ∧ lo < hi ∧
      (∀ q ∈ ellipsoidSet c s, ∃ k, E.curvatureAt (cv q) = fin k ∧ lo ≤ k ∧ k ≤ hi) ∧
      (∃ q ∈ ellipsoidSet c s, E.curvatureAt (cv q) = fin lo) ∧ (∃ q ∈ ellipsoidSet c s, E.curvatureAt (cv q) = fin hi) ∧
      0 ≤ x ∧ x ≤ 1 ∧ K = lo + x * (hi - lo) ∧ ellipsoidColor E rec' = ColorTables.viridis (fin x) := by
  intro E rec'
  obtain ⟨u, v, σ, hu, hv, hσ, hforms⟩ := C53_forms (F := F) c s hs o d tmin tmax rec p hp h hrp
  obtain ⟨-, -, -, u', v', hu', hv', -, -, -, -, hev⟩ := C52_record (F := F) c s hs o d tmin tmax rec p hp h hrp
  obtain ⟨lo, hi, hb, hall, hlo, hhi⟩ := C53_bounds (F := F) c s hs
  obtain ⟨K, hK, hK1, hK2⟩ := hall p hp
  have hagree := (C53_agree_partial (F := F) c s hs o d tmin tmax rec p hp hpole h hrp).1
  rw [hrp, hK] at hagree
  have hlt : lo < hi := by
    rcases lt_or_ge lo hi with h | h
    · exact h
    · exfalso
      have key : ∀ q ∈ ellipsoidSet c s, E.curvatureAt (cv q) = fin lo := by
        intro q hq
        obtain ⟨k, hk, h1, h2⟩ := hall q hq
        rw [hk, fin_inj]; linarith
      have h0 := hs 0; have h1 := hs 1; have h2 := hs 2
      have hax : ∀ u v : ℝ, (s 0 * s 1 * s 2) ^ 2 / ellipsoidDenom s u v ^ 2 = lo := by
        intro u v
        have hmem : ellipsoidPoint c s u v ∈ ellipsoidSet c s := by
          have e : ∀ x y : ℝ, y ≠ 0 → ∀ w, (w + y * x - w) / y = x := by intro x y hy w; field_simp; ring
          show ((c 0 + _ - c 0) / s 0) ^ 2 + ((c 1 + _ - c 1) / s 1) ^ 2 + ((c 2 + _ - c 2) / s 2) ^ 2 = 1
          rw [mul_assoc (s 0), mul_assoc (s 1), e _ _ h0.ne', e _ _ h1.ne', e _ _ h2.ne']
          linear_combination Real.sin (Real.pi * v) ^ 2 * Real.sin_sq_add_cos_sq (2 * Real.pi * u) + Real.sin_sq_add_cos_sq (Real.pi * v)
        have := key _ hmem
        rw [Ellipsoid.curvatureAt_point c hs, fin_inj] at this
        exact this
      have a0 := hax 0 (1 / 2)
      have a1 := hax (1 / 4) (1 / 2)
      have a2 := hax 0 0
      simp only [ellipsoidDenom, show Real.pi * (1 / 2) = Real.pi / 2 by ring, show 2 * Real.pi * (1 / 4) = Real.pi / 2 by ring, mul_zero,
        Real.sin_zero, Real.cos_zero, mul_one, add_zero, Real.sin_pi_div_two, Real.cos_pi_div_two, zero_add, ne_eq, OfNat.ofNat_ne_zero,
        not_false_eq_true, zero_pow] at a0 a1 a2
      have p01 : ∀ a b : ℝ, 0 < a → 0 < b → a ^ 4 = b ^ 4 → a = b := fun a b ha hb h =>
        (pow_left_inj₀ ha.le hb.le (by norm_num)).mp h
      rw [← a0] at a1 a2
      rw [div_eq_div_iff (by positivity) (by positivity)] at a1 a2
      have e1 : s 0 = s 1 := by
        apply p01 _ _ h0 h1
        have : (s 0 * s 1 * s 2) ^ 2 * s 2 ^ 4 ≠ 0 := by positivity
        apply mul_left_cancel₀ this
        linear_combination -a1
      have e2 : s 0 = s 2 := by
        apply p01 _ _ h0 h2
        have : (s 0 * s 1 * s 2) ^ 2 * s 1 ^ 4 ≠ 0 := by positivity
        apply mul_left_cancel₀ this
        linear_combination -a2
      rcases hne with h | h
      · exact h e1
      · exact h (e1.symm.trans e2)
  have hσp : σ u v = p := by
    rw [hu, hv, hσ, hrp, cv_inj] at hev
    exact hev
  refine ⟨lo, hi, K, (K - lo) / (hi - lo), u, v, σ, hσ, hσp, hforms.curvature hagree, hlt, hall, hlo, hhi, ?_, ?_, ?_, ?_⟩
  · exact div_nonneg (by linarith) (by linarith)
  · rw [div_le_one (by linarith)]; linarith
  · rw [div_mul_cancel₀ _ (sub_pos.mpr hlt).ne']; ring
  · unfold ellipsoidColor
    rw [hb, hagree, linearScale_fin hlt]

/-- A case of the theorem: the ellipsoid with semi-axes 1, 2, 3, hit from the left. -/
example : ∃ (rec' : HitRecord (Fl exact0)) (x : ℝ), (Ellipsoid.ofReal 0 ![1, 2, 3]).hit ⟨cv ![-5, 0, 0], cv ![1, 0, 0]⟩ (fin 0) pinf
      (HitRecord.default Vec.nans Vec.nans true) = (true, rec') ∧ 0 ≤ x ∧ x ≤ 1 ∧
      ellipsoidColor (Ellipsoid.ofReal 0 ![1, 2, 3]) rec' = ColorTables.viridis (fin x) := by
  have hs : ∀ i, (0 : ℝ) < (![1, 2, 3] : Fin 3 → ℝ) i := by intro i; fin_cases i <;> norm_num
  have hd : (![1, 0, 0] : Fin 3 → ℝ) ≠ 0 := fun h => by have := congrFun h 0; norm_num at this
  have hN := C51_nearest_ideal (F := exact0) rfl 0 ![1, 2, 3] (fun i => (hs i).ne') ![-5, 0, 0] ![1, 0, 0] (fin 0) hd pinf
    (HitRecord.default Vec.nans Vec.nans true) rfl
  have hz : ∀ z : ℝ, (![-5, 0, 0] + z • ![1, 0, 0] : Fin 3 → ℝ) ∈ ellipsoidSet 0 ![1, 2, 3] ↔ (z - 5) ^ 2 = 1 := by
    intro z
    show (((![-5, 0, 0] + z • ![1, 0, 0] : Fin 3 → ℝ) 0 - 0) / 1) ^ 2 + (((![-5, 0, 0] + z • ![1, 0, 0] : Fin 3 → ℝ) 1 - 0) / 2) ^ 2 +
      (((![-5, 0, 0] + z • ![1, 0, 0] : Fin 3 → ℝ) 2 - 0) / 3) ^ 2 = 1 ↔ _
    simp
    constructor <;> rintro (h | h) <;> [left; right; left; right] <;> linarith
  have hh := hN.1.mpr ⟨4, ⟨by simp, by simp⟩, (hz 4).mpr (by norm_num)⟩
  obtain ⟨z, -, hp, -, hS, -⟩ := hN.2 hh
  have h0 : z ≠ 5 := by
    rintro rfl
    have := (hz 5).mp hS
    norm_num at this
  obtain ⟨-, -, -, x, -, -, -, -, -, -, -, -, -, -, hx0, hx1, -, hc⟩ := C105_ellipsoid (F := exact0) 0 ![1, 2, 3] hs (by norm_num) _ _ _ _ _ _ hS
    (Or.inl (by simp; intro h; apply h0; linarith)) hh hp
  exact ⟨_, x, Prod.ext hh rfl, hx0, hx1, hc⟩

/-- C105, refuted for spheres: if the semi-axes are equal, the bounds coincide and the colour of every hit is undefined. -/
theorem C105_sphere_false [F.Exact] (c : Fin 3 → ℝ) (a : ℝ) (ha : 0 < a) (o d : Fin 3 → ℝ) (tmin tmax : Fl F)
    (rec : HitRecord (Fl F)) (p : Fin 3 → ℝ) (hp : p ∈ ellipsoidSet c (fun _ => a)) (hpole : p 0 ≠ c 0 ∨ p 1 ≠ c 1)
    (h : ((Ellipsoid.ofReal c (fun _ => a)).hit ⟨cv o, cv d⟩ tmin tmax rec).1 = true)
    (hrp : ((Ellipsoid.ofReal c (fun _ => a)).hit ⟨cv o, cv d⟩ tmin tmax rec).2.p = cv p) :
    ellipsoidColor (Ellipsoid.ofReal c (fun _ => a)) ((Ellipsoid.ofReal c (fun _ => a)).hit ⟨cv o, cv d⟩ tmin tmax rec).2 = none := by
  have hs : ∀ i : Fin 3, 0 < (fun _ => a : Fin 3 → ℝ) i := fun _ => ha
  obtain ⟨lo, hi, hb, hall, hlo, hhi⟩ := C53_bounds (F := F) c _ hs
  have hb' : (Ellipsoid.ofReal c (fun _ => a) : Ellipsoid (Fl F)).curvatureBounds = (fin (1 / a ^ 2), fin (1 / a ^ 2)) := by
    have n1 : a * a * (a * a) ≠ 0 := by positivity
    unfold Ellipsoid.curvatureBounds Ellipsoid.ofReal
    simp only [cv_apply, mul_fin, div_fin _ n1, min_fin, max_fin, min_self, max_self, Prod.mk.injEq, fin_inj, and_self]
    field_simp
  have hlh : lo = 1 / a ^ 2 ∧ hi = 1 / a ^ 2 := by
    rw [hb', Prod.mk.injEq, fin_inj, fin_inj] at hb
    exact ⟨hb.1.symm, hb.2.symm⟩
  obtain ⟨K, hK, hK1, hK2⟩ := hall p hp
  have hagree := (C53_agree_partial (F := F) c _ hs o d tmin tmax rec p hp hpole h hrp).1
  rw [hrp, hK, show K = 1 / a ^ 2 by rw [hlh.1] at hK1; rw [hlh.2] at hK2; linarith] at hagree
  unfold ellipsoidColor linearScale
  rw [hb', hagree]
  simp only [sub_fin, sub_self]
  rw [Fl.zero_div_zero]
  exact C89_nan _ (by simp)

/-- C105, refuted at the poles: the ray along the third axis of the ellipsoid with semi-axes 1, 2, 3 finds a point whose
colour is undefined. -/
theorem C105_pole_false :
    let E : Ellipsoid (Fl exact0) := Ellipsoid.ofReal 0 ![1, 2, 3]
    ∃ rec', E.hit ⟨cv ![0, 0, -5], cv ![0, 0, 1]⟩ (fin 0) pinf (HitRecord.default Vec.nans Vec.nans true) = (true, rec') ∧
      ellipsoidColor E rec' = none := by
  obtain ⟨rec', h, hK, -⟩ := C53_pole_false
  refine ⟨rec', h, ?_⟩
  obtain ⟨lo, hi, hb, -⟩ := C53_bounds (F := exact0) 0 ![1, 2, 3] (by intro i; fin_cases i <;> norm_num)
  unfold ellipsoidColor linearScale
  rw [hb, hK]
  have : (Fl.nan - fin lo) / (fin hi - fin lo) = (Fl.nan : Fl exact0) := by simp only [sub_fin]; rfl
  rw [this]
  exact C89_nan _ (by simp)

/-- C105, torus_curvature.cpp: at every hit on a ring torus the colour is the value of `smooth_cool_warm` at the number in
`[0, 1]` that says where the gaussian curvature of the surface at the point lies between its least and its greatest value. -/
theorem C105_torus [F.Exact] (c : Fin 3 → ℝ) (R r : ℝ) (hr : 0 < r) (hR : r < R) (o d : Fin 3 → ℝ) (tmin tmax : Fl F)
    (rec rec' : HitRecord (Fl F)) (p : Fin 3 → ℝ) (hp : p ∈ torusSet c R r)
    (h : (Torus.ofReal c R r).hit ⟨cv o, cv d⟩ tmin tmax rec = (true, rec')) (hrp : rec'.p = cv p) :
    let T : Torus (Fl F) := Torus.ofReal c R r
    ∃ (K x u v : ℝ) (σ : ℝ → ℝ → Fin 3 → ℝ), (∀ u v : ℝ, T.eval (fin u) (fin v) = cv (σ u v)) ∧ σ u v = p ∧
      GaussianCurvatureAt σ u v K ∧ 0 ≤ x ∧ x ≤ 1 ∧ K = -1 / (r * (R - r)) + x * (1 / (r * (R + r)) - -1 / (r * (R - r))) ∧
      torusColor T rec' = ColorTables.smoothCoolWarm (fin x) := by
  intro T
  have h1 : 0 < R - r := by linarith
  have h2 : 0 < R + r := by linarith
  obtain ⟨n, m, u, v, σ, -, -, -, -, -, -, hu, hv, -, -, -, -, hσp, hσ, hforms, hagree⟩ :=
    C58_record (F := F) c R r hr hR o d tmin tmax rec rec' p hp h hrp
  obtain ⟨lo, hi, hb, hall, -, -⟩ := C58_curvature_bounds (F := F) c R r hr hR
  have hb' : T.curvatureBounds = (fin (-1 / (r * (R - r))), fin (1 / (r * (R + r)))) := by
    simp only [T]
    unfold Torus.curvatureBounds Torus.ofReal
    simp only [fl, Nat.cast_one]
    rw [div_fin _ (by positivity), div_fin _ (by positivity)]
  obtain ⟨rfl, rfl⟩ : -1 / (r * (R - r)) = lo ∧ 1 / (r * (R + r)) = hi := by
    rw [hb', Prod.mk.injEq, fin_inj, fin_inj] at hb
    exact hb
  obtain ⟨K, hK, hK1, hK2⟩ := hall p hp
  rw [hK] at hagree
  have hlt : -1 / (r * (R - r)) < 1 / (r * (R + r)) :=
    lt_trans (div_neg_of_neg_of_pos (by norm_num) (by positivity)) (by positivity)
  refine ⟨K, (K - -1 / (r * (R - r))) / (1 / (r * (R + r)) - -1 / (r * (R - r))), u, v, σ, hσ, hσp, hforms.curvature hagree, ?_, ?_, ?_, ?_⟩
  · exact div_nonneg (by linarith) (by linarith)
  · rw [div_le_one (by linarith)]; linarith
  · rw [div_mul_cancel₀ _ (sub_pos.mpr hlt).ne']; ring
  · unfold torusColor
    rw [hb', hagree, linearScale_fin hlt]

/-- A case of the theorem: a ray along the first axis. -/
example : ∃ (rec' : HitRecord (Fl exact0)) (x : ℝ), (Torus.ofReal 0 2 1).hit ⟨cv ![-10, 0, 0], cv ![1, 0, 0]⟩ (fin 1) pinf
      (HitRecord.default Vec.nans Vec.nans true) = (true, rec') ∧ 0 ≤ x ∧ x ≤ 1 ∧
      torusColor (Torus.ofReal 0 2 1) rec' = ColorTables.smoothCoolWarm (fin x) := by
  obtain ⟨rec', h, -⟩ := Torus.hit_case
  have hd : (![1, 0, 0] : Fin 3 → ℝ) ≠ 0 := fun h => by have := congrFun h 0; norm_num at this
  obtain ⟨t, -, -, hp, hS⟩ := C56_ideal (F := exact0) rfl 0 2 1 (by norm_num) (by norm_num) _ _ hd _ _ _ _ h
  obtain ⟨-, x, -, -, -, -, -, -, h0, h1, -, hc⟩ := C105_torus (F := exact0) 0 2 1 (by norm_num) (by norm_num) _ _ _ _ _ _ _ hS h hp
  exact ⟨rec', x, h, h0, h1, hc⟩

/-! ## the logarithmic scale -/

theorem logScale_fin [F.Exact] {lo hi K : ℝ} (h : lo < hi) (hhi : hi < 0) (hK : K < 0) :
    logScale ((fin lo, fin hi) : Fl F × Fl F) (fin K) =
      fin ((Real.log (-K) - Real.log (-hi)) / (Real.log (-lo) - Real.log (-hi))) := by
  have h1 : Real.log (-hi) < Real.log (-lo) := Real.log_lt_log (by linarith) (by linarith)
  unfold logScale
  simp only [Fl.neg_fin]
  rw [log_fin (by linarith), log_fin (by linarith), log_fin (by linarith)]
  simp only [sub_fin]
  rw [div_fin _ (sub_pos.mpr h1).ne']

/-- The position of a negative number between two others on the logarithmic scale lies in `[0, 1]`. -/
theorem logScale_mem {lo hi K : ℝ} (h : lo < hi) (hhi : hi < 0) (h1 : lo ≤ K) (h2 : K ≤ hi) :
    0 ≤ (Real.log (-K) - Real.log (-hi)) / (Real.log (-lo) - Real.log (-hi)) ∧
      (Real.log (-K) - Real.log (-hi)) / (Real.log (-lo) - Real.log (-hi)) ≤ 1 := by
  have h3 : Real.log (-hi) < Real.log (-lo) := Real.log_lt_log (by linarith) (by linarith)
  have h4 : Real.log (-hi) ≤ Real.log (-K) := Real.log_le_log (by linarith) (by linarith)
  have h5 : Real.log (-K) ≤ Real.log (-lo) := Real.log_le_log (by linarith) (by linarith)
  exact ⟨div_nonneg (by linarith) (by linarith), by rw [div_le_one (by linarith)]; linarith⟩

/-- C105, enneper.cpp: the colour at the parameters `(u, v)` is the value of `viridis` at a number `x ≤ 1`; if `|u|, |v| ≤ 2`, the
square that the search covers, it is in `[0, 1]`. It says where the gaussian curvature of the surface lies between -4,
the value at the origin, and `-4/9^4`, the value at the corners of the square, on a logarithmic scale. -/
theorem C105_enneper [F.Exact] (r : Ray (Fl F)) (rec : HitRecord (Fl F)) (u v : ℝ) (hu : rec.u = fin u) (hv : rec.v = fin v) :
    ∃ K x : ℝ, GaussianCurvatureAt enneperPt u v K ∧ K < 0 ∧ x ≤ 1 ∧ (|u| ≤ 2 → |v| ≤ 2 → 0 ≤ x) ∧
      Real.log (-K) = Real.log (4 / 9 ^ 4) + x * (Real.log 4 - Real.log (4 / 9 ^ 4)) ∧
      enneperColor (Enneper.forms r rec) = ColorTables.viridis (fin x) := by
  obtain ⟨n, hforms, -, -, hK⟩ := C71_forms (F := F) r rec u v hu hv
  have hpos : 1 ≤ (1 + u ^ 2 + v ^ 2) ^ 4 := one_le_pow₀ (by nlinarith [sq_nonneg u, sq_nonneg v])
  have hneg : -4 / (1 + u ^ 2 + v ^ 2) ^ 4 < 0 := div_neg_of_neg_of_pos (by norm_num) (by positivity)
  have hb : (Enneper.curvatureBounds : Fl F × Fl F) = (fin (-4), fin (-(4 / 9 ^ 4))) := by
    unfold Enneper.curvatureBounds
    rw [ofNat_def, ofNat_def, Fl.neg_fin, powi_fin _ (by norm_num), div_fin _ (by norm_num)]
    norm_num
  have hl : Real.log (4 / 9 ^ 4) < Real.log 4 := Real.log_lt_log (by norm_num) (by norm_num)
  refine ⟨_, (Real.log (4 / (1 + u ^ 2 + v ^ 2) ^ 4) - Real.log (4 / 9 ^ 4)) / (Real.log 4 - Real.log (4 / 9 ^ 4)),
    hforms.curvature hK, hneg, ?_, ?_, ?_, ?_⟩
  · rw [div_le_one (by linarith)]
    have : Real.log (4 / (1 + u ^ 2 + v ^ 2) ^ 4) ≤ Real.log 4 := by
      apply Real.log_le_log (by positivity)
      rw [div_le_iff₀ (by positivity)]; linarith
    linarith
  · intro hu2 hv2
    obtain ⟨a, b, hab, -, hle⟩ := C71_bounds (F := F) u v hu2 hv2
    rw [hb, Prod.mk.injEq, fin_inj, fin_inj] at hab
    rw [← hab.2] at hle
    apply div_nonneg _ (by linarith)
    have : Real.log (4 / 9 ^ 4) ≤ Real.log (4 / (1 + u ^ 2 + v ^ 2) ^ 4) := by
      apply Real.log_le_log (by norm_num)
      rw [neg_div] at hle
      linarith
    linarith
  · rw [div_mul_cancel₀ _ (by linarith)]
    rw [neg_div, neg_neg]
    ring
  · unfold enneperColor
    rw [hb, hK, logScale_fin (by norm_num) (by norm_num) hneg, neg_neg, neg_neg, neg_div, neg_neg]

/-- C105: every record of a hit on Enneper's surface is one of the previous theorem. -/
theorem C105_enneper_hit [F.Exact] (solve : Mat (Fl F) 3 3 → Vec (Fl F) 3 → Option (Vec (Fl F) 3)) (ρ : ℝ) (o d : Fin 3 → ℝ) (hd : F.tiny < d ⬝ᵥ d) (tmin tmax : Fl F)
    (rec rec' : HitRecord (Fl F)) (h1 : isNaN tmin = false) (h2 : isNaN tmax = false)
    (h : Enneper.hitWith solve (⟨fin ρ⟩ : Enneper (Fl F)) ⟨cv o, cv d⟩ tmin tmax rec = some (true, rec')) :
    ∃ u v K x : ℝ, rec'.u = fin u ∧ rec'.v = fin v ∧ GaussianCurvatureAt enneperPt u v K ∧ x ≤ 1 ∧
      (|u| ≤ 2 → |v| ≤ 2 → 0 ≤ x) ∧
      Real.log (-K) = Real.log (4 / 9 ^ 4) + x * (Real.log 4 - Real.log (4 / 9 ^ 4)) ∧
      enneperColor rec' = ColorTables.viridis (fin x) := by
  obtain ⟨t, u, v, -, hu, hv, -, -, -⟩ := C72_distance (F := F) solve ρ o d hd tmin tmax rec rec' h1 h2 h
  obtain ⟨q, rfl⟩ : ∃ q, rec' = Enneper.forms ⟨cv o, cv d⟩ q := by
    unfold Enneper.hitWith at h
    dsimp only at h
    split at h
    · split_ifs at h
      · exact absurd (congrArg Prod.fst (Option.some.inj h)) Bool.false_ne_true
      · exact absurd (congrArg Prod.fst (Option.some.inj h)) Bool.false_ne_true
      · rw [Option.map_eq_some_iff] at h
        obtain ⟨w, -, hf⟩ := h
        unfold Enneper.finish at hf
        dsimp only at hf
        split_ifs at hf
        · exact absurd (congrArg Prod.fst hf) Bool.false_ne_true
        · exact absurd (congrArg Prod.fst hf) Bool.false_ne_true
        · exact absurd (congrArg Prod.fst hf) Bool.false_ne_true
        · exact ⟨_, (congrArg Prod.snd hf).symm⟩
    · exact absurd (congrArg Prod.fst (Option.some.inj h)) Bool.false_ne_true
  obtain ⟨K, x, hK, -, h3, h4, h5, h6⟩ := C105_enneper (F := F) ⟨cv o, cv d⟩ q u v hu hv
  exact ⟨u, v, K, x, hu, hv, hK, h3, h4, h5, h6⟩

/-- A case of the theorem: the parameters `(1, -1)`. -/
example (r : Ray (Fl exact64)) (rec : HitRecord (Fl exact64)) (hu : rec.u = fin 1) (hv : rec.v = fin (-1)) :
    ∃ x : ℝ, 0 ≤ x ∧ x ≤ 1 ∧ enneperColor (Enneper.forms r rec) = ColorTables.viridis (fin x) := by
  obtain ⟨-, x, -, -, h1, h0, -, h⟩ := C105_enneper (F := exact64) r rec 1 (-1) hu hv
  exact ⟨x, h0 (by norm_num) (by norm_num), h1, h⟩

/-- C105, helicoid.cpp: at every hit with `0 ≤ v ≤ 1` the colour is the value of `smooth_cool_warm` at the number in `[0, 1]`
that says where the gaussian curvature of the surface at `(u, v)` lies between its value on the rim and its value on
the axis, on a logarithmic scale. The record and the bounds are both too small by the factor `4 pi^2`
(`C68_curvature_false`, `C68_bounds_false`), which cancels. -/
theorem C105_helicoid [F.Exact] (ρ l : ℝ) (hρ : 0 < ρ) (hl : 0 < l) (r : Ray (Fl F)) (rec : HitRecord (Fl F)) (u v : ℝ)
    (hu : rec.u = fin u) (hv : rec.v = fin v) (h0 : 0 ≤ v) (h1 : v ≤ 1) :
    ∃ K rim axis x : ℝ, GaussianCurvatureAt (helPt ρ l) u v K ∧ GaussianCurvatureAt (helPt ρ l) u 0 axis ∧
      GaussianCurvatureAt (helPt ρ l) u 1 rim ∧ axis ≤ K ∧ K ≤ rim ∧ axis < rim ∧ rim < 0 ∧ 0 ≤ x ∧ x ≤ 1 ∧
      Real.log (-K) = Real.log (-rim) + x * (Real.log (-axis) - Real.log (-rim)) ∧
      helicoidColor (Helicoid.ofReal ρ l) ((Helicoid.ofReal ρ l).forms r rec) = ColorTables.smoothCoolWarm (fin x) := by
  have hp := Real.pi_pos
  obtain ⟨k, hk⟩ : ∃ k : ℝ, k = 4 * Real.pi ^ 2 := ⟨_, rfl⟩
  have hk0 : 0 < k := by rw [hk]; positivity
  have hcurv : ∀ w : ℝ, GaussianCurvatureAt (helPt ρ l) u w (k * (-l ^ 2 / (l ^ 2 + (2 * Real.pi * ρ * w) ^ 2) ^ 2)) := by
    intro w
    have := hel_curvature ρ l hρ hl u w
    convert this using 1
    rw [hk]; ring
  obtain ⟨lo, hlo⟩ : ∃ lo : ℝ, lo = -1 / l ^ 2 := ⟨_, rfl⟩
  obtain ⟨hi, hhi⟩ : ∃ hi : ℝ, hi = -l ^ 2 / (l ^ 2 + (2 * Real.pi * ρ) ^ 2) ^ 2 := ⟨_, rfl⟩
  obtain ⟨K, hK⟩ : ∃ K : ℝ, K = -l ^ 2 / (l ^ 2 + (2 * Real.pi * ρ * v) ^ 2) ^ 2 := ⟨_, rfl⟩
  have hg := Helicoid.gaussian_fin (F := F) ρ l hρ hl r rec u v hu hv
  have hb := Helicoid.bounds_fin (F := F) ρ l hl
  rw [← hK] at hg
  rw [← hlo, ← hhi] at hb
  obtain ⟨lo', hi', K', hb', hg', hle1, hle2⟩ := C68_bounds_partial (F := F) ρ l hρ hl r rec u v hu hv h0 h1
  rw [hb, Prod.mk.injEq, fin_inj, fin_inj] at hb'
  rw [hg, fin_inj] at hg'
  rw [← hb'.1, ← hg'] at hle1
  rw [← hb'.2, ← hg'] at hle2
  have hhi0 : hi < 0 := by rw [hhi]; exact div_neg_of_neg_of_pos (by nlinarith [mul_pos hl hl]) (by positivity)
  have hlt : lo < hi := by
    rw [hlo, hhi, div_lt_div_iff₀ (by positivity) (by positivity)]
    have h3 : 0 < (2 * Real.pi * ρ) ^ 2 := by positivity
    have h4 : 0 < l ^ 2 := by positivity
    nlinarith [mul_pos h3 h4, mul_pos h3 h3]
  have c0 := hcurv 0
  have c1 := hcurv 1
  have cv' := hcurv v
  rw [← hK] at cv'
  rw [mul_one, ← hhi] at c1
  rw [mul_zero, show -l ^ 2 / (l ^ 2 + (0 : ℝ) ^ 2) ^ 2 = lo by rw [hlo]; field_simp; ring] at c0
  have hlog : ∀ y : ℝ, y < 0 → Real.log (-(k * y)) = Real.log k + Real.log (-y) := by
    intro y hy
    rw [← mul_neg, Real.log_mul hk0.ne' (by linarith)]
  have hlt' : Real.log (-hi) < Real.log (-lo) := Real.log_lt_log (by linarith) (by linarith)
  obtain ⟨hx0, hx1⟩ := logScale_mem hlt hhi0 hle1 hle2
  refine ⟨_, _, _, (Real.log (-K) - Real.log (-hi)) / (Real.log (-lo) - Real.log (-hi)), cv', c0, c1,
    mul_le_mul_of_nonneg_left hle1 hk0.le, mul_le_mul_of_nonneg_left hle2 hk0.le, mul_lt_mul_of_pos_left hlt hk0,
    mul_neg_of_pos_of_neg hk0 hhi0, hx0, hx1, ?_, ?_⟩
  · rw [hlog _ (by linarith), hlog _ (by linarith), hlog _ (by linarith), add_sub_add_left_eq_sub,
      div_mul_cancel₀ _ (sub_pos.mpr hlt').ne']
    ring
  · unfold helicoidColor
    rw [hb, hg, logScale_fin hlt hhi0 (by linarith)]

/-- The helicoid of helicoid.cpp, halfway between the axis and the rim. -/
example (r : Ray (Fl exact64)) (rec : HitRecord (Fl exact64)) (hu : rec.u = fin (1 / 4)) (hv : rec.v = fin (1 / 2)) :
    ∃ x : ℝ, 0 ≤ x ∧ x ≤ 1 ∧
      helicoidColor (Helicoid.ofReal 1 3) ((Helicoid.ofReal 1 3).forms r rec) = ColorTables.smoothCoolWarm (fin x) := by
  obtain ⟨-, -, -, x, -, -, -, -, -, -, -, h0, h1, -, h⟩ :=
    C105_helicoid (F := exact64) 1 3 one_pos (by norm_num) r rec (1 / 4) (1 / 2) hu hv (by norm_num) (by norm_num)
  exact ⟨x, h0, h1, h⟩

/-- C105, disk.cpp: the colour of a hit on a disk is the value of `viridis` at a number in `[0, 1)`, the angle as a fraction of
a full turn. -/
theorem C105_disk [F.Exact] (r : ℝ) (hr : 0 < r) (c n : Fin 3 → ℝ) (hn : n ⬝ᵥ n = 1) (o d : Fin 3 → ℝ)
    (s : Disk (Fl F)) (hs : Disk.make (fin r) (cv c) (cv n) = some s) (tmin tmax : Fl F) (rec rec' : HitRecord (Fl F))
    (h : s.hit ⟨cv o, cv d⟩ tmin tmax rec = (true, rec')) :
    ∃ x : ℝ, 0 ≤ x ∧ x < 1 ∧ diskColor rec' = ColorTables.viridis (fin x) ∧ ∃ v, s.eval (fin x) v = rec'.p := by
  obtain ⟨p, -, hp, ⟨u, v, hu, hv, h0, h1, -⟩, hev, -⟩ := C62_record (F := F) r hr c n hn o d s hs tmin tmax rec rec' h
  refine ⟨u, h0, h1, ?_, rec'.v, ?_⟩
  · unfold diskColor; rw [hu]
  · rw [← hu]; exact hev

/-- The slanted unit disk seen from above. -/
example : ∃ (s : Disk (Fl exact64)) (rec' : HitRecord (Fl exact64)), s.hit ⟨cv ![0, 1/2, 2], cv ![0, 0, -1]⟩ (fin 0) pinf
      (HitRecord.default Vec.nans Vec.nans true) = (true, rec') ∧
    ∃ x : ℝ, 0 ≤ x ∧ x < 1 ∧ diskColor rec' = ColorTables.viridis (fin x) := by
  obtain ⟨s, rec', hs, h⟩ := Disk.hit_case
  obtain ⟨x, h0, h1, hx, -⟩ := C105_disk (F := exact64) 1 one_pos 0 ![3/5, 0, 4/5]
    (by simp [dotProduct, Fin.sum_univ_three] <;> norm_num) ![0, 1/2, 2] ![0, 0, -1] s hs (fin 0) pinf _ rec' h
  exact ⟨s, rec', h, x, h0, h1, hx⟩

end DRT
