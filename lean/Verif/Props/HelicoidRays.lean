import Verif.Props.HelicoidWindow

/-! # C143: rays parallel and orthogonal to the axis of a helicoid -/

namespace DRT
open Scalar Fl Matrix Vec

variable {F : Fmt}

theorem Helicoid.clampTUV_id [F.Exact] {t u v : ℝ} (hu0 : 0 ≤ u) (hu1 : u ≤ 1) (hv0 : 0 ≤ v) (hv1 : v ≤ 1) :
    Helicoid.clampTUV (fin t, fin u, fin v) = ((fin t, fin u, fin v) : Fl F × Fl F × Fl F) := by
  obtain ⟨u', h1, -, -, h2⟩ := clamp01_fin (F := F) u
  obtain ⟨v', h3, -, -, h4⟩ := clamp01_fin (F := F) v
  unfold Helicoid.clampTUV
  rw [h1, h3, h2 hu0 hu1, h4 hv0 hv1]

/-- A common point of ray and surface that the search finds is reported. -/
theorem Helicoid.hit_of_found [F.Exact] {ρ l : ℝ} {o d : Fin 3 → ℝ} {tmin tmax a b : Fl F} {t u v : ℝ}
    (hc : (Helicoid.ofReal ρ l : Helicoid (Fl F)).clip ⟨cv o, cv d⟩ tmin tmax = some (a, b))
    (hs : (Helicoid.ofReal ρ l : Helicoid (Fl F)).computeTUV (cv o) (cv d) a b = some (fin t, fin u, fin v))
    (hp : o + t • d = helPt ρ l u v) (junk : Fl F) (rec : HitRecord (Fl F)) :
    ∃ out, (Helicoid.ofReal ρ l : Helicoid (Fl F)).hit junk ⟨cv o, cv d⟩ tmin tmax rec = some (true, out) ∧
      out.t = fin t ∧ out.u = fin u ∧ out.v = fin v ∧ out.p = cv (o + t • d) := by
  obtain ⟨out, h1, h2⟩ := Helicoid.finish_exact (F := F) ρ l o d t u v hp junk rec
  obtain ⟨h3, h4, h5, -, h6, -⟩ := C69_any_solver _ _ _ _ _ _ h1
  refine ⟨out, ?_, h3, h4, h5, ?_⟩
  · unfold Helicoid.hit
    rw [hc]
    dsimp only
    rw [hs, Option.map_some, h1]
  · rw [h6, h2, ray_at_cv]

/-- The angle that `atan2` finds, made non-negative: the first coordinate of the helicoid at a point off the axis. -/
theorem angle_turn {x y r : ℝ} (hr : 0 < r) (h : x ^ 2 + y ^ 2 = r ^ 2) :
    ∃ u : ℝ, (u = realAtan2 (y / r) (x / r) / (2 * Real.pi) ∧ 0 ≤ u ∨
        realAtan2 (y / r) (x / r) / (2 * Real.pi) < 0 ∧ u = realAtan2 (y / r) (x / r) / (2 * Real.pi) + 1) ∧
      0 ≤ u ∧ u < 1 ∧ r * Real.cos (2 * Real.pi * u) = x ∧ r * Real.sin (2 * Real.pi * u) = y := by
  have hp := Real.pi_pos
  set z : ℂ := Complex.mk (x / r) (y / r) with hz
  have hn : ‖z‖ = 1 := by
    rw [Complex.norm_def, Complex.normSq_mk, Real.sqrt_eq_one]
    field_simp
    linarith
  have hz0 : z ≠ 0 := by
    intro h0
    rw [h0] at hn
    simp at hn
  have hcos : Real.cos (Complex.arg z) = x / r := by rw [Complex.cos_arg hz0, hn, div_one]
  have hsin : Real.sin (Complex.arg z) = y / r := by rw [Complex.sin_arg, hn, div_one]
  have h1 := Complex.neg_pi_lt_arg z
  have h2 := Complex.arg_le_pi z
  have ha : realAtan2 (y / r) (x / r) = Complex.arg z := rfl
  rw [ha]
  set A := Complex.arg z with hA
  have h3 : -(1 / 2) < A / (2 * Real.pi) := by rw [lt_div_iff₀ (by positivity)]; linarith
  have h4 : A / (2 * Real.pi) ≤ 1 / 2 := by rw [div_le_iff₀ (by positivity)]; linarith
  have h5 : 2 * Real.pi * (A / (2 * Real.pi)) = A := by field_simp
  by_cases h0 : A / (2 * Real.pi) < 0
  · refine ⟨A / (2 * Real.pi) + 1, Or.inr ⟨h0, rfl⟩, by linarith, by linarith, ?_, ?_⟩
    · rw [mul_add, mul_one, h5, Real.cos_add_two_pi, hcos]; field_simp
    · rw [mul_add, mul_one, h5, Real.sin_add_two_pi, hsin]; field_simp
  · refine ⟨A / (2 * Real.pi), Or.inl ⟨rfl, not_lt.mp h0⟩, not_lt.mp h0, by linarith, ?_, ?_⟩
    · rw [h5, hcos]; field_simp
    · rw [h5, hsin]; field_simp

/-- Two points of one turn at the same angle. -/
theorem turn_unique {u u' : ℝ} (h0 : 0 ≤ u) (h1 : u < 1) (h0' : 0 ≤ u') (h1' : u' < 1)
    (hc : Real.cos (2 * Real.pi * u') = Real.cos (2 * Real.pi * u)) (hs : Real.sin (2 * Real.pi * u') = Real.sin (2 * Real.pi * u)) :
    u' = u := by
  have hp := Real.pi_pos
  have h : Real.cos (2 * Real.pi * (u' - u)) = 1 := by
    rw [mul_sub, Real.cos_sub, hc, hs]
    have := Real.sin_sq_add_cos_sq (2 * Real.pi * u)
    nlinarith
  have := (Real.cos_eq_one_iff_of_lt_of_lt (x := 2 * Real.pi * (u' - u)) (by nlinarith) (by nlinarith)).mp h
  have h2 : 2 * Real.pi ≠ 0 := by positivity
  have := (mul_eq_zero.mp this).resolve_left h2
  linarith

/-- C143 for rays parallel to the axis (exact arithmetic): such a ray, not on the axis and inside the enclosing cylinder, is reported
as a hit; the recorded parameters are those of the one point, with `u` below 1, where the line of the ray meets the surface. (The range
is not looked at, `C69_axial_false`, and for points above `u = 0` see `C143_seam_false`.) -/
theorem C143_axial [F.Exact] {ρ l : ℝ} (hρ : 0 < ρ) (o d : Fin 3 → ℝ) (h0 : d 0 = 0) (h1 : d 1 = 0) (h2 : F.tiny < |d 2|)
    (hr0 : 0 < o 0 ^ 2 + o 1 ^ 2) (hr1 : F.tiny * ρ ≤ Real.sqrt (o 0 ^ 2 + o 1 ^ 2)) (hr : o 0 ^ 2 + o 1 ^ 2 ≤ ρ ^ 2)
    (junk tmin tmax : Fl F) (rec : HitRecord (Fl F)) :
    ∃ out, ∃ t u v : ℝ, (Helicoid.ofReal ρ l : Helicoid (Fl F)).hit junk ⟨cv o, cv d⟩ tmin tmax rec = some (true, out) ∧
      out.t = fin t ∧ out.u = fin u ∧ out.v = fin v ∧ 0 ≤ u ∧ u < 1 ∧ 0 < v ∧ v ≤ 1 ∧ o + t • d = helPt ρ l u v ∧
      ∀ t' u' v', 0 ≤ u' → u' < 1 → 0 ≤ v' → o + t' • d = helPt ρ l u' v' → t' = t ∧ u' = u ∧ v' = v := by
  have ht0 : (0 : ℝ) ≤ F.tiny := Fmt.Exact.tiny_nonneg
  have hd2 : d 2 ≠ 0 := by
    intro h
    rw [h, abs_zero] at h2
    linarith
  have hp := Real.pi_pos
  set r := Real.sqrt (o 0 ^ 2 + o 1 ^ 2) with hrdef
  have hrpos : 0 < r := Real.sqrt_pos.mpr hr0
  have hrsq : o 0 ^ 2 + o 1 ^ 2 = r ^ 2 := (Real.sq_sqrt hr0.le).symm
  have hrρ : r ≤ ρ := Real.sqrt_le_iff.mpr ⟨hρ.le, hr⟩
  obtain ⟨u, hu, hu0, hu1, hcos, hsin⟩ := angle_turn hrpos hrsq
  have hv0 : 0 < r / ρ := by positivity
  have hv1 : r / ρ ≤ 1 := by rw [div_le_one hρ]; exact hrρ
  have hrv : ρ * (r / ρ) = r := by field_simp
  set t := (l * (u - 1 / 2) - o 2) / d 2 with ht
  have hpt : o + t • d = helPt ρ l u (r / ρ) := by
    funext i
    fin_cases i
    · simp [helPt, h0, hrv, hcos]
    · simp [helPt, h1, hrv, hsin]
    · simp only [helPt, Pi.add_apply, Pi.smul_apply, smul_eq_mul, ht]
      simp
      rw [div_mul_cancel₀ _ hd2]
      ring
  have hclip : (Helicoid.ofReal ρ l : Helicoid (Fl F)).clip ⟨cv o, cv d⟩ tmin tmax = some (tmin, tmax) := by
    unfold Helicoid.clip
    dsimp only
    rw [if_neg]
    simp [fl, gt, h0, h1, ht0]
  have hax : (Helicoid.ofReal ρ l : Helicoid (Fl F)).axialTUV (cv o) (cv d) = some (fin t, fin u, fin (r / ρ)) := by
    have ev : (Scalar.sqrt (cv o 0 * cv o 0 + cv o 1 * cv o 1) / (Helicoid.ofReal ρ l : Helicoid (Fl F)).radius : Fl F) = fin (r / ρ) := by
      unfold Helicoid.ofReal
      simp only [fl]
      rw [sqrt_fin (by nlinarith), div_fin _ hρ.ne', hrdef, pow_two, pow_two]
    have er : (Helicoid.ofReal ρ l : Helicoid (Fl F)).radius = fin ρ := rfl
    have es : (Helicoid.ofReal ρ l : Helicoid (Fl F)).speed = fin l := rfl
    have eu : (atan2 (cv o 1 / (fin ρ * fin (r / ρ))) (cv o 0 / (fin ρ * fin (r / ρ))) / (2 * pi) : Fl F) =
        fin (realAtan2 (o 1 / r) (o 0 / r) / (2 * Real.pi)) := by
      simp only [fl, Nat.cast_ofNat]
      rw [hrv, div_fin _ hrpos.ne', div_fin _ hrpos.ne', atan2_fin, div_fin _ (by positivity)]
    unfold Helicoid.axialTUV
    dsimp only
    rw [ev, if_neg (by simp [fl, gt]; linarith), if_neg (by
      rw [tiny_def, lt_fin, decide_eq_true_eq, not_lt, le_div_iff₀ hρ]; exact hr1), er, es, eu]
    have eu' : (if lt (fin (realAtan2 (o 1 / r) (o 0 / r) / (2 * Real.pi)) : Fl F) 0 = true then
        fin (realAtan2 (o 1 / r) (o 0 / r) / (2 * Real.pi)) + 1 else fin (realAtan2 (o 1 / r) (o 0 / r) / (2 * Real.pi)) : Fl F) = fin u := by
      simp only [ofNat_zero, ofNat_one, lt_fin, decide_eq_true_eq]
      rcases hu with ⟨h, h'⟩ | ⟨h, h'⟩
      · rw [if_neg (by rw [← h]; exact not_lt.mpr h'), h]
      · rw [if_pos h, add_fin, h']
    rw [eu']
    simp only [fl]
    rw [div_fin _ hd2]
    norm_num [ht]
  have hcomp : (Helicoid.ofReal ρ l : Helicoid (Fl F)).computeTUV (cv o) (cv d) tmin tmax = some (fin t, fin u, fin (r / ρ)) := by
    unfold Helicoid.computeTUV
    rw [if_neg (by simp [fl]; exact h2), if_pos (by simp [fl, h0, h1, ht0]), hax]
    dsimp only
    rw [Helicoid.clampTUV_id hu0 hu1.le hv0.le hv1]
  obtain ⟨out, e1, e2, e3, e4, -⟩ := Helicoid.hit_of_found hclip hcomp hpt junk rec
  refine ⟨out, t, u, r / ρ, e1, e2, e3, e4, hu0, hu1, hv0, hv1, hpt, ?_⟩
  intro t' u' v' hu0' hu1' hv0' h
  obtain ⟨q1, q2⟩ := helPt_axis h
  have q3 := congrFun h 0
  have q4 := congrFun h 1
  simp only [Pi.add_apply, Pi.smul_apply, smul_eq_mul, helPt, cons_val, h0, h1, mul_zero, add_zero] at q1 q3 q4
  have hv' : ρ * v' = r := by
    have : (ρ * v') ^ 2 = r ^ 2 := by rw [← q1, hrsq]
    exact (pow_left_inj₀ (by positivity) hrpos.le two_ne_zero).mp this
  rw [hv'] at q3 q4
  have hu' : u' = u := turn_unique hu0 hu1 hu0' hu1' (mul_left_cancel₀ hrpos.ne' (by rw [← q3, hcos])) (mul_left_cancel₀ hrpos.ne' (by rw [← q4, hsin]))
  refine ⟨?_, hu', ?_⟩
  · rw [ht, eq_div_iff hd2]
    rw [hu'] at q2
    linarith
  · rw [eq_div_iff hρ.ne', mul_comm]
    exact hv'

/-- C143 for rays orthogonal to the axis (exact arithmetic): if such a ray meets the surface inside the range, crossing the line of
the surface at its height, then `hit` reports that point. The tangent of the angle at this height must exist, and be zero or above
the threshold; where it is zero, so must be `d[1]`. -/
theorem C143_level [F.Exact] {ρ l : ℝ} (hρ : 0 < ρ) (hl : 0 < l) (o d : Fin 3 → ℝ) (h2 : d 2 = 0)
    (hb : d 0 * d 0 + d 1 * d 1 ≤ F.tiny ∨ o 0 * d 0 + o 1 * d 1 = 0 ∨ F.tiny < |2 * (o 0 * d 0 + o 1 * d 1)|)
    (hc : Real.cos (2 * Real.pi * o 2 / l) ≠ 0)
    (hw : F.tiny < |Real.tan (2 * Real.pi * o 2 / l)| ∨ Real.tan (2 * Real.pi * o 2 / l) = 0 ∧ F.tiny < |d 1|)
    (hx : d 1 - d 0 * Real.tan (2 * Real.pi * o 2 / l) ≠ 0)
    (tmin tmax : Fl F) (t u v : ℝ) (hu0 : 0 ≤ u) (hu1 : u ≤ 1) (hv0 : 0 ≤ v) (hv1 : v ≤ 1)
    (hp : o + t • d = helPt ρ l u v) (hr : InRange (tmin, tmax) t) (junk : Fl F) (rec : HitRecord (Fl F)) :
    ∃ out, (Helicoid.ofReal ρ l : Helicoid (Fl F)).hit junk ⟨cv o, cv d⟩ tmin tmax rec = some (true, out) ∧
      out.t = fin t ∧ out.u = fin u ∧ out.v = fin v := by
  have ht0 : (0 : ℝ) ≤ F.tiny := Fmt.Exact.tiny_nonneg
  obtain ⟨a, b, hclip, hab⟩ := C141_clip hl o d hb tmin tmax t u v hu0 hu1 hv0 hv1 hp hr
  obtain ⟨q1, q2⟩ := helPt_axis hp
  have q3 := congrFun hp 0
  have q4 := congrFun hp 1
  simp only [Pi.add_apply, Pi.smul_apply, smul_eq_mul, helPt, cons_val] at q3 q4
  rw [h2, mul_zero, add_zero] at q2
  have hu : o 2 / l + 1 / 2 = u := by
    rw [q2]
    field_simp
    ring
  set θ := 2 * Real.pi * o 2 / l with hθ
  have hang : 2 * Real.pi * u = θ + Real.pi := by rw [← hu, hθ]; ring
  rw [hang, Real.cos_add_pi] at q3
  rw [hang, Real.sin_add_pi] at q4
  have htan : Real.tan θ * Real.cos θ = Real.sin θ := Real.tan_mul_cos hc
  have hline : o 1 + t * d 1 = Real.tan θ * (o 0 + t * d 0) := by rw [q3, q4, ← htan]; ring
  have eu : (cv o 2 / (Helicoid.ofReal ρ l : Helicoid (Fl F)).speed + 1 / 2 : Fl F) = fin u := by
    unfold Helicoid.ofReal
    simp only [fl, Nat.cast_ofNat, Nat.cast_one]
    rw [div_fin _ hl.ne', div_fin _ (by norm_num : (2 : ℝ) ≠ 0), add_fin, hu]
  have eth : (2 * pi * cv o 2 / (Helicoid.ofReal ρ l : Helicoid (Fl F)).speed : Fl F) = fin θ := by
    unfold Helicoid.ofReal
    simp only [fl, Nat.cast_ofNat]
    rw [div_fin _ hl.ne']
  have hlevel : (Helicoid.ofReal ρ l : Helicoid (Fl F)).levelTUV (cv o) (cv d) a = some (fin t, fin u, fin v) := by
    unfold Helicoid.levelTUV
    dsimp only
    rw [eu, eth, tan_fin hc, abs_fin, tiny_def, le_fin, if_neg (by simp [fl, gt]; exact ⟨hu0, hu1⟩)]
    rcases hw with hw | ⟨hw, hd1⟩
    · rw [if_neg (by simpa using hw)]
      have e1 : (cv o 0 * fin (Real.tan θ) - cv o 1 : Fl F) = fin (o 0 * Real.tan θ - o 1) := by simp only [fl]
      have e2 : (cv d 1 - cv d 0 * fin (Real.tan θ) : Fl F) = fin (d 1 - d 0 * Real.tan θ) := by simp only [fl]
      have e3 : (o 0 * Real.tan θ - o 1) / (d 1 - d 0 * Real.tan θ) = t := by
        rw [div_eq_iff hx]
        linear_combination -hline
      rw [e1, e2, div_fin _ hx, e3, Helicoid.axisDist_fin l hρ, q1, Real.sqrt_sq (by positivity)]
      congr 3
      field_simp
    · have hd10 : d 1 ≠ 0 := by
        intro h
        rw [h, abs_zero] at hd1
        linarith
      rw [if_pos (by simp [hw, ht0]), if_neg (by rw [cv_apply, abs_fin, le_fin]; simpa using hd1)]
      have er : (Helicoid.ofReal ρ l : Helicoid (Fl F)).radius = fin ρ := rfl
      have e3 : -o 1 / d 1 = t := by
        rw [div_eq_iff hd10]
        rw [hw] at hline
        linarith
      rw [er]
      simp only [fl, Nat.cast_ofNat]
      rw [div_fin _ hd10, mul_fin, add_fin, e3, hang, Real.cos_add_pi, div_fin _ (mul_ne_zero hρ.ne' (neg_ne_zero.mpr hc)), q3]
      congr 3
      have : ρ ≠ 0 := hρ.ne'
      field_simp
  have hcomp : (Helicoid.ofReal ρ l : Helicoid (Fl F)).computeTUV (cv o) (cv d) a b = some (fin t, fin u, fin v) := by
    unfold Helicoid.computeTUV
    rw [if_pos (by simp [fl, h2, ht0]), hlevel]
    dsimp only
    rw [if_pos (by simp only [Bool.and_eq_true]; exact hab), Helicoid.clampTUV_id hu0 hu1 hv0 hv1]
  obtain ⟨out, e1, e2, e3, e4, -⟩ := Helicoid.hit_of_found hclip hcomp hp junk rec
  exact ⟨out, e1, e2, e3, e4⟩

/-- `C143_axial` and `C143_level` apply: a ray straight down at distance 1 from the axis, and a ray along `(0, 1, 0)` at height 0,
where the line of the surface is the negative first axis. -/
example (junk : Fl exact64) (rec : HitRecord (Fl exact64)) :
    (∃ out, (Helicoid.ofReal 2 8 : Helicoid (Fl exact64)).hit junk ⟨cv ![0, 1, 9], cv ![0, 0, -1]⟩ (fin 0) (fin 20) rec = some (true, out)) ∧
    ∃ out, (Helicoid.ofReal 2 8 : Helicoid (Fl exact64)).hit junk ⟨cv ![-1, -3, 0], cv ![0, 1, 0]⟩ (fin 0) (fin 20) rec = some (true, out) ∧
      out.t = fin 3 := by
  have ht1 : exact64.tiny < 1 := Fmt.Exact.tiny_lt
  have ht2 : exact64.tiny * 2 ≤ 1 := by
    have : exact64.tiny ≤ 1 / 2 := by
      show (1 / 2 ^ 1022 : ℝ) ≤ 1 / 2
      gcongr
      exact le_self_pow₀ (by norm_num) (by norm_num)
    linarith
  constructor
  · obtain ⟨out, t, u, v, h, -⟩ := C143_axial (F := exact64) (ρ := 2) (l := 8) two_pos ![0, 1, 9] ![0, 0, -1] rfl rfl
      (by simpa using ht1) (by norm_num) (by simpa using ht2) (by norm_num) junk (fin 0) (fin 20) rec
    exact ⟨out, h⟩
  · obtain ⟨out, h, h', -⟩ := C143_level (F := exact64) (ρ := 2) (l := 8) two_pos (by norm_num) ![-1, -3, 0] ![0, 1, 0] rfl
      (Or.inr (Or.inr (by norm_num; linarith))) (by simp) (Or.inr ⟨by simp, by simpa using ht1⟩) (by simp) (fin 0) (fin 20) 3 (1 / 2) (1 / 2)
      (by norm_num) (by norm_num) (by norm_num) (by norm_num)
      (by
        have h : 2 * Real.pi * 2⁻¹ = Real.pi := by ring
        funext i
        fin_cases i <;> simp [helPt, h]) (by constructor <;> simp [fl] <;> norm_num) junk rec
    exact ⟨out, h, h'⟩

/-- C143, refuted for rays above the line `u = 0`, which is also the line `u = 1`, half a turn higher each: for radius 2 and speed 2 a ray
straight down from `(1, 0, 5)` first meets the surface at parameter 4, but `hit` reports the point at parameter 6. -/
theorem C143_seam_false [F.Exact] (htiny : F.tiny ≤ 1 / 2) (junk : Fl F) (rec : HitRecord (Fl F)) :
    (![1, 0, 5] + (4 : ℝ) • ![0, 0, -1] : Fin 3 → ℝ) = helPt 2 2 1 (1 / 2) ∧
    ∃ out, (Helicoid.ofReal 2 2 : Helicoid (Fl F)).hit junk ⟨cv ![1, 0, 5], cv ![0, 0, -1]⟩ (fin 0) (fin 10) rec = some (true, out) ∧
      out.t = fin 6 := by
  have ht0 : (0 : ℝ) ≤ F.tiny := Fmt.Exact.tiny_nonneg
  have ht1 : F.tiny < 1 := Fmt.Exact.tiny_lt
  refine ⟨by funext i; fin_cases i <;> simp [helPt] <;> norm_num, ?_⟩
  obtain ⟨out, t, u, v, h, e1, -, -, -, -, -, -, -, huniq⟩ := C143_axial (F := F) (ρ := 2) (l := 2) two_pos ![1, 0, 5] ![0, 0, -1] rfl rfl
      (by simpa using ht1) (by norm_num) (by simp; linarith) (by norm_num) junk (fin 0) (fin 10) rec
  obtain ⟨h6, -⟩ := huniq 6 0 (1 / 2) le_rfl one_pos (by norm_num) (by funext i; fin_cases i <;> simp [helPt] <;> norm_num)
  exact ⟨out, h, by rw [e1, h6]⟩

/-- C143, refuted for rays along a line of the surface, where the code assumes the radius 1: for radius 2 and speed 2 a ray from
`(-5, 0, 0)` along `(1, 0, 0)` meets the surface from parameter 3 on, but `hit` reports a miss. -/
theorem C143_ruling_false [F.Exact] (heps : F.eps ≤ 1 / 1000) (junk : Fl F) (rec : HitRecord (Fl F)) :
    (∀ t : ℝ, 3 ≤ t → t ≤ 5 → (![-5, 0, 0] + t • ![1, 0, 0] : Fin 3 → ℝ) = helPt 2 2 (1 / 2) ((5 - t) / 2)) ∧
    ∃ out, (Helicoid.ofReal 2 2 : Helicoid (Fl F)).hit junk ⟨cv ![-5, 0, 0], cv ![1, 0, 0]⟩ (fin 0) (fin 10) rec = some (false, out) := by
  have ht0 : (0 : ℝ) ≤ F.tiny := Fmt.Exact.tiny_nonneg
  have ht1 : F.tiny < 1 := Fmt.Exact.tiny_lt
  have he0 : 0 < F.eps := Fmt.Exact.eps_pos
  have hhalf : 2 * Real.pi * (1 / 2) = Real.pi := by ring
  have hhalf' : 2 * Real.pi * 2⁻¹ = Real.pi := by ring
  have hon : ∀ t : ℝ, (![-5, 0, 0] + t • ![1, 0, 0] : Fin 3 → ℝ) = helPt 2 2 (1 / 2) ((5 - t) / 2) := by
    intro t
    funext i
    fin_cases i <;> simp [helPt, hhalf']
    ring
  refine ⟨fun t _ _ => hon t, ?_⟩
  have hne : ∃ a b : Fl F, (Helicoid.ofReal 2 2 : Helicoid (Fl F)).clip ⟨cv ![-5, 0, 0], cv ![1, 0, 0]⟩ (fin 0) (fin 10) = some (a, b) ∧
      InRange (a, b) 4 := by
    refine C141_clip two_pos _ _ (Or.inr (Or.inr (by norm_num; linarith))) (fin 0) (fin 10) 4 (1 / 2) ((5 - 4) / 2) (by norm_num) (by norm_num)
      (by norm_num) (by norm_num) (hon 4) (by constructor <;> simp [fl] <;> norm_num)
  obtain ⟨a, b, hclip, hab⟩ := hne
  have hlevel : (Helicoid.ofReal 2 2 : Helicoid (Fl F)).levelTUV (cv ![-5, 0, 0]) (cv ![1, 0, 0]) a = some (fin 4, fin (1 / 2), fin 1) := by
    unfold Helicoid.levelTUV
    have es : (Helicoid.ofReal 2 2 : Helicoid (Fl F)).speed = fin 2 := rfl
    have eu : (cv ![-5, 0, 0] 2 / fin 2 + 1 / 2 : Fl F) = fin (1 / 2) := by
      simp only [fl, Nat.cast_ofNat, Nat.cast_one, cons_val]
      rw [div_fin _ two_ne_zero, div_fin _ two_ne_zero, add_fin]
      norm_num
    have eth : (2 * pi * cv ![-5, 0, 0] 2 / fin 2 : Fl F) = fin 0 := by
      simp only [fl, Nat.cast_ofNat, cons_val]
      rw [div_fin _ two_ne_zero]
      norm_num
    have e0 : (-(cv ![-5, 0, 0] 0) / cv ![1, 0, 0] 0 : Fl F) = fin 5 := by
      simp only [fl, cons_val]
      rw [div_fin _ one_ne_zero]
      norm_num
    have e1 : (-(cv ![-5, 0, 0] 0 + 1) / cv ![1, 0, 0] 0 : Fl F) = fin 4 := by
      simp only [fl, cons_val, Nat.cast_one]
      rw [div_fin _ one_ne_zero]
      norm_num
    dsimp only
    rw [es, eu, eth, tan_fin (by simp), e0, e1, if_neg (by simp [fl, gt]; norm_num), if_pos (by simp [fl, ht0]), if_pos (by simp [fl, ht0]),
      if_neg (by simp [fl, gt, ht0]), if_neg (by simp [fl]; norm_num), ofNat_one]
  have hcomp : (Helicoid.ofReal 2 2 : Helicoid (Fl F)).computeTUV (cv ![-5, 0, 0]) (cv ![1, 0, 0]) a b = some (fin 4, fin (1 / 2), fin 1) := by
    unfold Helicoid.computeTUV
    rw [if_pos (by simp [fl, ht0]), hlevel]
    dsimp only
    rw [if_pos (by simp only [Bool.and_eq_true]; exact hab), Helicoid.clampTUV_id (by norm_num) (by norm_num) (by norm_num) (by norm_num)]
  have hit : (Helicoid.ofReal 2 2 : Helicoid (Fl F)).hit junk ⟨cv ![-5, 0, 0], cv ![1, 0, 0]⟩ (fin 0) (fin 10) rec =
      some ((Helicoid.ofReal 2 2 : Helicoid (Fl F)).finish ⟨cv ![-5, 0, 0], cv ![1, 0, 0]⟩ (fin 4, fin (1 / 2), fin 1) junk rec) := by
    unfold Helicoid.hit
    rw [hclip]
    dsimp only
    rw [hcomp, Option.map_some]
  rw [hit]
  rcases hfin : (Helicoid.ofReal 2 2 : Helicoid (Fl F)).finish ⟨cv ![-5, 0, 0], cv ![1, 0, 0]⟩ (fin 4, fin (1 / 2), fin 1) junk rec with ⟨_ | _, out⟩
  · exact ⟨out, rfl⟩
  exfalso
  obtain ⟨g1, g2, g3, -, g4, g5⟩ := C69_any_solver _ _ _ _ _ _ hfin
  simp only at g1 g2 g3
  obtain ⟨k, hk, -⟩ := Helicoid.expectedRes_fin (F := F) 2 2 ![-5, 0, 0] ![1, 0, 0] 4 (1 / 2) 1 out g1 g2 g3
  rw [hk, g4, g1, g2, g3, Helicoid.eval_fin, ray_at_cv, cv_sub] at g5
  obtain ⟨m, hm, hm1, -⟩ := C05_max_norm_finite_partial (F := F) ((![-5, 0, 0] + (4 : ℝ) • ![1, 0, 0]) - helPt 2 2 (1 / 2) 1)
  rw [hm, ofNat_def, mul_fin, gt, lt_fin, decide_eq_false_iff_not, not_lt] at g5
  have hm2 := hm1 0
  simp [helPt, hhalf'] at hm2
  have hp := Real.pi_pos
  have hp' := Real.pi_lt_d2
  have hsc : helScale 2 2 ![1, 0, 0] 4 (1 / 2) 1 k ≤ 10 := by
    unfold helScale helU helV
    rw [hhalf]
    fin_cases k <;> simp [abs_of_pos hp]
    all_goals norm_num
    all_goals linarith
  have : helScale 2 2 ![1, 0, 0] 4 (1 / 2) 1 k * F.eps ≤ 10 * F.eps := by gcongr
  norm_num at hm2 g5
  linarith

end DRT
