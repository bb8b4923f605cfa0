import Verif.Props.Newton
import Mathlib.Analysis.Calculus.MeanValue

/-! # C113: how fast the one-dimensional Newton and Halley searches converge -/

namespace DRT
open Scalar Fl

variable {F : Fmt}

/-- The remainder of the tangent is of second order. -/
theorem tangent_remainder {g g' : ℝ → ℝ} {L t x : ℝ} (hg : ∀ z, HasDerivAt g (g' z) z)
    (hL : ∀ z, |z - t| ≤ |x - t| → |g' z - g' t| ≤ L * |z - t|) (hL0 : 0 ≤ L) :
    |g x - g t - g' t * (x - t)| ≤ L * |x - t| ^ 2 := by
  have hseg : ∀ z ∈ Set.uIcc t x, |z - t| ≤ |x - t| := fun z hz => Set.abs_sub_left_of_mem_uIcc hz
  have hd : ∀ z ∈ Set.uIcc t x, HasDerivWithinAt (fun z => g z - g' t * z) (g' z - g' t) (Set.uIcc t x) z := fun z _ => by
    have := ((hg z).sub ((hasDerivAt_id z).const_mul (g' t))).hasDerivWithinAt (s := Set.uIcc t x)
    refine this.congr_deriv ?_
    simp
  have hb : ∀ z ∈ Set.uIcc t x, ‖g' z - g' t‖ ≤ L * |x - t| := fun z hz => by
    rw [Real.norm_eq_abs]
    exact (hL z (hseg z hz)).trans (mul_le_mul_of_nonneg_left (hseg z hz) hL0)
  have := (convex_uIcc t x).norm_image_sub_le_of_norm_hasDerivWithin_le hd hb Set.left_mem_uIcc Set.right_mem_uIcc
  rw [Real.norm_eq_abs, Real.norm_eq_abs] at this
  calc |g x - g t - g' t * (x - t)| = |(g x - g' t * x) - (g t - g' t * t)| := by congr 1; ring
    _ ≤ L * |x - t| * |x - t| := this
    _ = _ := by ring

/-- The remainder of the osculating parabola is of third order. -/
theorem parabola_remainder {g g' g'' : ℝ → ℝ} {L t x : ℝ} (hg : ∀ z, HasDerivAt g (g' z) z) (hg' : ∀ z, HasDerivAt g' (g'' z) z)
    (hL : ∀ z, |z - t| ≤ |x - t| → |g'' z - g'' t| ≤ L * |z - t|) (hL0 : 0 ≤ L) :
    |g x - g t - g' t * (x - t) - g'' t * (x - t) ^ 2 / 2| ≤ L * |x - t| ^ 3 := by
  have hseg : ∀ z ∈ Set.uIcc t x, |z - t| ≤ |x - t| := fun z hz => Set.abs_sub_left_of_mem_uIcc hz
  have hd : ∀ z ∈ Set.uIcc t x, HasDerivWithinAt (fun z => g z - g' t * z - g'' t * (z - t) ^ 2 / 2)
      (g' z - g' t - g'' t * (z - t)) (Set.uIcc t x) z := fun z _ => by
    have h1 := (hg z).sub ((hasDerivAt_id z).const_mul (g' t))
    have h2 := ((((hasDerivAt_id z).sub_const t).pow 2).const_mul (g'' t)).div_const 2
    have := (h1.sub h2).hasDerivWithinAt (s := Set.uIcc t x)
    refine this.congr_deriv ?_
    simp
    ring
  have hb : ∀ z ∈ Set.uIcc t x, ‖g' z - g' t - g'' t * (z - t)‖ ≤ L * |x - t| ^ 2 := fun z hz => by
    rw [Real.norm_eq_abs]
    have h1 := hseg z hz
    exact (tangent_remainder hg' (fun y hy => hL y (hy.trans h1)) hL0).trans
      (mul_le_mul_of_nonneg_left (pow_le_pow_left₀ (abs_nonneg _) h1 2) hL0)
  have := (convex_uIcc t x).norm_image_sub_le_of_norm_hasDerivWithin_le hd hb Set.left_mem_uIcc Set.right_mem_uIcc
  rw [Real.norm_eq_abs, Real.norm_eq_abs] at this
  calc |g x - g t - g' t * (x - t) - g'' t * (x - t) ^ 2 / 2| =
        |(g x - g' t * x - g'' t * (x - t) ^ 2 / 2) - (g t - g' t * t - g'' t * (t - t) ^ 2 / 2)| := by congr 1; ring
    _ ≤ L * |x - t| ^ 2 * |x - t| := this
    _ = _ := by ring

/-- C113: one step of `newton` inside the range squares the distance to a root `a`, up to the factor `L / |g' t|`, where `L` is a
Lipschitz constant of the derivative near `t`. -/
theorem C113_newton_quadratic [F.Exact] (f : Fl F → Fl F × Fl F) (fuel : ℕ) (tmin tmax : Fl F) (g g' : ℝ → ℝ) (t a L : ℝ)
    (hg : ∀ z, HasDerivAt g (g' z) z) (hL : ∀ z, |z - t| ≤ |a - t| → |g' z - g' t| ≤ L * |z - t|) (hL0 : 0 ≤ L)
    (ha : g a = 0) (hd : g' t ≠ 0) (h1 : Scalar.lt (fin (t - g t / g' t)) tmin = false) (h2 : Scalar.lt tmax (fin (t - g t / g' t)) = false) :
    ∃ t', Newton1.next f fuel tmin tmax (fin t) (fin (g t)) (fin (g' t)) = some (fin t') ∧ |t' - a| ≤ L / |g' t| * |t - a| ^ 2 := by
  refine ⟨t - g t / g' t, ?_, ?_⟩
  · unfold Newton1.next
    rw [ofNat_zero, Fl.eq_fin, if_neg (by simpa using hd)]
    dsimp only
    rw [div_fin _ hd, sub_fin, h1]
    unfold Scalar.gt
    rw [h2]
    simp
  · have h := tangent_remainder (x := a) hg hL hL0
    rw [ha] at h
    have e : t - g t / g' t - a = (0 - g t - g' t * (a - t)) / g' t := by field_simp; ring
    rw [e, abs_div, div_le_iff₀ (abs_pos.mpr hd)]
    calc |0 - g t - g' t * (a - t)| ≤ L * |a - t| ^ 2 := h
      _ = L / |g' t| * |t - a| ^ 2 * |g' t| := by rw [abs_sub_comm a t]; field_simp

/-- C113: one step of `halley` inside the range cubes the distance `e` to a root `a`, up to a factor that depends on the first two
derivatives and on a Lipschitz constant `L` of the second derivative near `t`. -/
theorem C113_halley_cubic [F.Exact] (f : Fl F → Fl F × Fl F × Fl F) (fuel : ℕ) (tmin tmax : Fl F) (g g' g'' : ℝ → ℝ) (t a L : ℝ)
    (hg : ∀ z, HasDerivAt g (g' z) z) (hg' : ∀ z, HasDerivAt g' (g'' z) z)
    (hL : ∀ z, |z - t| ≤ |a - t| → |g'' z - g'' t| ≤ L * |z - t|) (hL0 : 0 ≤ L)
    (ha : g a = 0) (hd : g' t ≠ 0) (hq : 2 * g' t * g' t - g t * g'' t ≠ 0)
    (h1 : Scalar.lt (fin (t + -2 * g t * g' t / (2 * g' t * g' t - g t * g'' t))) tmin = false)
    (h2 : Scalar.lt tmax (fin (t + -2 * g t * g' t / (2 * g' t * g' t - g t * g'' t))) = false) :
    ∃ t', Halley1.next f fuel tmin tmax (fin t) (fin (g t)) (fin (g' t)) (fin (g'' t)) = some (fin t') ∧
      |t' - a| ≤ (2 * L * |g' t| + g'' t ^ 2 / 2 + L * |g'' t| * |t - a|) / |2 * g' t * g' t - g t * g'' t| * |t - a| ^ 3 := by
  refine ⟨t + -2 * g t * g' t / (2 * g' t * g' t - g t * g'' t), ?_, ?_⟩
  · have e : (-2 * fin (g t) * fin (g' t) / (2 * fin (g' t) * fin (g' t) - fin (g t) * fin (g'' t)) : Fl F) =
        fin (-2 * g t * g' t / (2 * g' t * g' t - g t * g'' t)) := by
      simp only [ofNat_def, Fl.neg_fin, Fl.mul_fin, sub_fin]
      push_cast
      rw [div_fin _ hq]
    unfold Halley1.next
    dsimp only
    rw [ofNat_zero, Fl.eq_fin, if_neg (by simpa using hd), e, add_fin, h1]
    unfold Scalar.gt
    rw [h2]
    simp
  · obtain ⟨e, he⟩ : ∃ e, e = a - t := ⟨_, rfl⟩
    have h := parabola_remainder (x := a) hg hg' hL hL0
    rw [ha, ← he] at h
    obtain ⟨r, hr⟩ : ∃ r, r = 0 - g t - g' t * e - g'' t * e ^ 2 / 2 := ⟨_, rfl⟩
    rw [← hr] at h
    have hy : g t = -(g' t * e + g'' t * e ^ 2 / 2 + r) := by rw [hr]; ring
    have hnum : (t + -2 * g t * g' t / (2 * g' t * g' t - g t * g'' t) - a) * (2 * g' t * g' t - g t * g'' t) =
        2 * g' t * r - g'' t ^ 2 * e ^ 3 / 2 - e * g'' t * r := by
      have : (t + -2 * g t * g' t / (2 * g' t * g' t - g t * g'' t) - a) * (2 * g' t * g' t - g t * g'' t) =
          -2 * g t * g' t - e * (2 * g' t * g' t - g t * g'' t) := by
        rw [sub_mul, add_mul, div_mul_cancel₀ _ hq, he]; ring
      rw [this, hy]; ring
    have hB : |2 * g' t * r - g'' t ^ 2 * e ^ 3 / 2 - e * g'' t * r| ≤
        (2 * L * |g' t| + g'' t ^ 2 / 2 + L * |g'' t| * |e|) * |e| ^ 3 := by
      calc |2 * g' t * r - g'' t ^ 2 * e ^ 3 / 2 - e * g'' t * r| ≤ |2 * g' t * r| + |g'' t ^ 2 * e ^ 3 / 2| + |e * g'' t * r| :=
            (abs_sub _ _).trans (add_le_add_left (abs_sub _ _) _)
        _ = 2 * |g' t| * |r| + g'' t ^ 2 * |e| ^ 3 / 2 + |e| * |g'' t| * |r| := by
            simp only [abs_mul, abs_div, abs_pow, sq_abs, abs_two]
        _ ≤ 2 * |g' t| * (L * |e| ^ 3) + g'' t ^ 2 * |e| ^ 3 / 2 + |e| * |g'' t| * (L * |e| ^ 3) := by gcongr
        _ = _ := by ring
    have hea : |t - a| = |e| := by rw [he, abs_sub_comm]
    rw [hea, div_mul_eq_mul_div, le_div_iff₀ (abs_pos.mpr hq), ← abs_mul, hnum]
    exact hB

/-! ## Functions solved by a single step -/

theorem zero_converged [F.Exact] (t d : ℝ) : Newton1.unconverged (fin t : Fl F) (fin 0) (fin d) = false := by
  have he : (0 : ℝ) < F.eps := Fmt.Exact.eps_pos
  simp only [Newton1.unconverged, gt, abs_fin, Fl.mul_fin, eps_def, lt_fin, decide_eq_false_iff_not, not_lt, abs_zero]; positivity

/-- A step of `newton` that lands on a zero is the result. -/
theorem newton1_lands [F.Exact] {f : Fl F → Fl F × Fl F} {fuel : ℕ} {tmin tmax : Fl F} {t d : ℝ}
    (h0 : Scalar.eq (f tmin).1 0 = false) (hn : Newton1.next f fuel tmin tmax tmin (f tmin).1 (f tmin).2 = some (fin t))
    (hf : f (fin t) = (fin 0, fin d)) : newton1 f fuel tmin tmax = some (fin t) := by
  unfold newton1 Newton1.loop
  simp only [h0, hn, hf, zero_converged]
  simp [hf, zero_converged]

/-- A step of `halley` that lands on a zero is the result. -/
theorem halley1_lands [F.Exact] {f : Fl F → Fl F × Fl F × Fl F} {fuel : ℕ} {tmin tmax : Fl F} {t d d2 : ℝ}
    (h0 : Scalar.eq (f tmin).1 0 = false)
    (hn : Halley1.next f fuel tmin tmax tmin (f tmin).1 (f tmin).2.1 (f tmin).2.2 = some (fin t))
    (hf : f (fin t) = (fin 0, fin d, fin d2)) : halley1 f fuel tmin tmax = some (fin t) := by
  unfold halley1 Halley1.loop
  simp only [h0, hn, hf, zero_converged]
  simp [hf, zero_converged]

/-- C113: `newton` finds the zero of an affine function in the range exactly. -/
theorem C113_newton_affine [F.Exact] (f : Fl F → Fl F × Fl F) (fuel : ℕ) (a b tmin tmax : ℝ) (ha : a ≠ 0)
    (hf : ∀ t : ℝ, f (fin t) = (fin (a * t + b), fin a)) (h1 : tmin ≤ -b / a) (h2 : -b / a ≤ tmax) :
    newton1 f fuel (fin tmin) (fin tmax) = some (fin (-b / a)) := by
  have hr : f (fin (-b / a)) = (fin 0, fin a) := by rw [hf, mul_div_cancel₀ _ ha, neg_add_cancel]
  by_cases h0 : a * tmin + b = 0
  · have : tmin = -b / a := by rw [eq_div_iff ha]; linarith
    rw [this]
    unfold newton1 Newton1.loop
    simp [hr, ofNat_zero]
  · refine newton1_lands (by rw [hf, ofNat_zero, Fl.eq_fin]; simpa using h0) ?_ hr
    have e : tmin - (a * tmin + b) / a = -b / a := by field_simp; ring
    rw [hf]
    unfold Newton1.next
    rw [ofNat_zero, Fl.eq_fin, if_neg (by simpa using ha)]
    dsimp only
    rw [div_fin _ ha, sub_fin, e, lt_fin, Scalar.gt, lt_fin, decide_eq_false (not_lt.mpr h1), decide_eq_false (not_lt.mpr h2)]
    rfl

/-- C113: `halley` finds the zero of a quotient of two affine functions in the range exactly, from every start where the
denominator is not zero. -/
theorem C113_halley_moebius [F.Exact] (f : Fl F → Fl F × Fl F × Fl F) (fuel : ℕ) (a b c d tmin tmax : ℝ) (ha : a ≠ 0)
    (hD : a * d - b * c ≠ 0)
    (hf : ∀ t : ℝ, c * t + d ≠ 0 → f (fin t) = (fin ((a * t + b) / (c * t + d)), fin ((a * d - b * c) / (c * t + d) ^ 2),
      fin (-2 * c * (a * d - b * c) / (c * t + d) ^ 3)))
    (hs : c * tmin + d ≠ 0) (h1 : tmin ≤ -b / a) (h2 : -b / a ≤ tmax) :
    halley1 f fuel (fin tmin) (fin tmax) = some (fin (-b / a)) := by
  have hz : c * (-b / a) + d ≠ 0 := by
    have : c * (-b / a) + d = (a * d - b * c) / a := by field_simp; ring
    rw [this]; exact div_ne_zero hD ha
  have hr := hf _ hz
  rw [mul_div_cancel₀ _ ha, neg_add_cancel, zero_div] at hr
  by_cases h0 : a * tmin + b = 0
  · have : tmin = -b / a := by rw [eq_div_iff ha]; linarith
    rw [this]
    unfold halley1 Halley1.loop
    simp [hr, ofNat_zero]
  · refine halley1_lands (by rw [hf _ hs, ofNat_zero, Fl.eq_fin]; simp [h0, hs]) ?_ hr
    rw [hf _ hs]
    obtain ⟨q, hq⟩ : ∃ q, q = c * tmin + d := ⟨_, rfl⟩
    obtain ⟨D, hDe⟩ : ∃ D, D = a * d - b * c := ⟨_, rfl⟩
    rw [← hq] at hs
    rw [← hDe] at hD
    have eD : D + c * (a * tmin + b) = a * q := by rw [hDe, hq]; ring
    have e1 : 2 * (D / q ^ 2) * (D / q ^ 2) - (a * tmin + b) / q * (-2 * c * D / q ^ 3) = 2 * D * a / q ^ 3 := by
      calc _ = 2 * D * (D + c * (a * tmin + b)) / q ^ 4 := by field_simp; ring
        _ = _ := by rw [eD]; field_simp
    have hden : 2 * D * a / q ^ 3 ≠ 0 := div_ne_zero (mul_ne_zero (mul_ne_zero two_ne_zero hD) ha) (pow_ne_zero _ hs)
    have e2 : tmin + -2 * ((a * tmin + b) / q) * (D / q ^ 2) / (2 * D * a / q ^ 3) = -b / a := by field_simp; ring
    have e3 : (-2 * fin ((a * tmin + b) / q) * fin (D / q ^ 2) / (2 * fin (D / q ^ 2) * fin (D / q ^ 2) -
        fin ((a * tmin + b) / q) * fin (-2 * c * D / q ^ 3)) : Fl F) =
        fin (-2 * ((a * tmin + b) / q) * (D / q ^ 2) / (2 * D * a / q ^ 3)) := by
      simp only [ofNat_def, Fl.neg_fin, Fl.mul_fin, sub_fin]
      push_cast
      rw [e1, div_fin _ hden]
    rw [← hq, ← hDe]
    unfold Halley1.next
    dsimp only
    rw [e3, add_fin, e2, ofNat_zero, Fl.eq_fin, if_neg (by simp [hD, hs]), lt_fin, Scalar.gt, lt_fin,
      decide_eq_false (not_lt.mpr h1), decide_eq_false (not_lt.mpr h2)]
    rfl

/-- C113: started at the vertex of a parabola that has zeros, `halley` returns the zero to the right of the vertex. -/
theorem C113_halley_vertex [F.Exact] (f : Fl F → Fl F × Fl F × Fl F) (fuel : ℕ) (y c tmin : ℝ) (tmax : Fl F) (hyc : y * c < 0)
    (hf : ∀ t : ℝ, f (fin t) = (fin (y + c * (t - tmin) ^ 2), fin (2 * c * (t - tmin)), fin (2 * c))) :
    halley1 f fuel (fin tmin) tmax = some (fin (tmin + Real.sqrt (-y / c))) := by
  have hc : c ≠ 0 := by rintro rfl; simp at hyc
  have hy : y ≠ 0 := by rintro rfl; simp at hyc
  have hpos : 0 < -y / c := by
    have : -y / c = -(y * c) / c ^ 2 := by field_simp
    rw [this]; exact div_pos (by linarith) (by positivity)
  have hs : 0 < Real.sqrt (-y / c) := Real.sqrt_pos.mpr hpos
  have hr : f (fin (tmin + Real.sqrt (-y / c))) = (fin 0, fin (2 * c * Real.sqrt (-y / c)), fin (2 * c)) := by
    rw [hf, add_sub_cancel_left, Real.sq_sqrt hpos.le, mul_div_cancel₀ _ hc, add_neg_cancel]
  have h0 : f (fin tmin) = (fin y, fin 0, fin (2 * c)) := by rw [hf]; simp
  refine halley1_lands (by rw [h0, ofNat_zero, Fl.eq_fin]; simpa using hy) ?_ hr
  have e2 : (-2 * fin y / fin (2 * c) : Fl F) = fin (-y / c) := by
    rw [ofNat_def, Fl.neg_fin, Fl.mul_fin, div_fin _ (mul_ne_zero two_ne_zero hc)]
    congr 1; push_cast; field_simp
  rw [h0]
  unfold Halley1.next
  dsimp only
  rw [e2, sqrt_fin hpos.le]
  simp only [ofNat_zero, Fl.eq_fin, lt_fin, sub_fin, ofNat_def, Fl.mul_fin, add_fin]
  have h3 : tmin - Real.sqrt (-y / c) < tmin := by linarith
  have h4 : tmin - Real.sqrt (-y / c) + (2 : ℕ) * Real.sqrt (-y / c) = tmin + Real.sqrt (-y / c) := by push_cast; ring
  simp [hc, not_lt.mpr hpos.le, h3, h4]
  push_cast at h4
  try exact h4

/-- The hypotheses are met: `newton` on `2t - 3` over `[0, 5]` returns `3/2`. -/
example (fuel : ℕ) : newton1 (fun t : Fl exact64 => (fin 2 * t + fin (-3), fin 2)) fuel (fin 0) (fin 5) = some (fin (3 / 2)) := by
  have := C113_newton_affine (F := exact64) (fun t => (fin 2 * t + fin (-3), fin 2)) fuel 2 (-3) 0 5 (by norm_num)
    (fun t => by simp) (by norm_num) (by norm_num)
  rw [this]; norm_num

/-- The hypotheses are met: `halley` on `(t - 1)/(t + 2)` over `[0, 4]` returns 1. -/
example (fuel : ℕ) : halley1 (fun t : Fl exact64 => ((t - fin 1) / (t + fin 2), fin 3 / ((t + fin 2) * (t + fin 2)),
    fin (-6) / ((t + fin 2) * (t + fin 2) * (t + fin 2)))) fuel (fin 0) (fin 4) = some (fin 1) := by
  have := C113_halley_moebius (F := exact64) (fun t => ((t - fin 1) / (t + fin 2), fin 3 / ((t + fin 2) * (t + fin 2)),
    fin (-6) / ((t + fin 2) * (t + fin 2) * (t + fin 2)))) fuel 1 (-1) 1 2 0 4 (by norm_num) (by norm_num)
    (fun t ht => by
      rw [one_mul] at ht
      simp only [sub_fin, add_fin, Fl.mul_fin]
      rw [div_fin _ ht, div_fin _ (mul_ne_zero ht ht), div_fin _ (mul_ne_zero (mul_ne_zero ht ht) ht)]
      refine Prod.ext ?_ (Prod.ext ?_ ?_) <;> · dsimp only; congr 1; field_simp; try ring) (by norm_num) (by norm_num) (by norm_num)
  rw [this]; norm_num

/-- The hypotheses are met: `halley` on `t² - 9`, started at its vertex 0, returns 3. -/
example (fuel : ℕ) : halley1 (fun t : Fl exact64 => (t * t - fin 9, fin 2 * t, fin 2)) fuel (fin 0) (fin 10) = some (fin 3) := by
  have := C113_halley_vertex (F := exact64) (fun t => (t * t - fin 9, fin 2 * t, fin 2)) fuel (-9) 1 0 (fin 10) (by norm_num)
    (fun t => by
      simp only [sub_fin, Fl.mul_fin]
      refine Prod.ext ?_ (Prod.ext ?_ ?_) <;> · dsimp only; congr 1; ring)
  rw [this, show (-(-9) / 1 : ℝ) = 3 ^ 2 by norm_num, Real.sqrt_sq (by norm_num)]; norm_num

/-- The hypotheses are met: a step of `newton` for `t² - 2` from `3/2`, with the constant 2 for the Lipschitz bound. -/
example (f : Fl exact64 → Fl exact64 × Fl exact64) (fuel : ℕ) :
    ∃ t', Newton1.next f fuel (fin 0) (fin 2) (fin (3 / 2)) (fin (1 / 4)) (fin 3) = some (fin t') ∧
      |t' - Real.sqrt 2| ≤ 2 / 3 * (3 / 2 - Real.sqrt 2) ^ 2 := by
  have := C113_newton_quadratic (F := exact64) f fuel (fin 0) (fin 2) (fun t => t ^ 2 - 2) (fun t => 2 * t) (3 / 2) (Real.sqrt 2) 2
    (fun z => by simpa using ((hasDerivAt_id z).pow 2).sub_const 2)
    (fun z _ => by rw [← mul_sub, abs_mul, abs_two]) (by norm_num) (by simp) (by norm_num)
    (by rw [lt_fin]; norm_num) (by rw [lt_fin]; norm_num)
  norm_num at this
  exact this

/-- The hypotheses are met: a step of `halley` for `t² - 2` from `3/2`; the second derivative is constant. -/
example (f : Fl exact64 → Fl exact64 × Fl exact64 × Fl exact64) (fuel : ℕ) :
    ∃ t', Halley1.next f fuel (fin 0) (fin 2) (fin (3 / 2)) (fin (1 / 4)) (fin 3) (fin 2) = some (fin t') ∧
      |t' - Real.sqrt 2| ≤ 4 / 35 * |3 / 2 - Real.sqrt 2| ^ 3 := by
  have := C113_halley_cubic (F := exact64) f fuel (fin 0) (fin 2) (fun t => t ^ 2 - 2) (fun t => 2 * t) (fun _ => 2) (3 / 2)
    (Real.sqrt 2) 0 (fun z => by simpa using ((hasDerivAt_id z).pow 2).sub_const 2)
    (fun z => by simpa using (hasDerivAt_id z).const_mul 2)
    (fun z _ => by simp) le_rfl (by simp) (by norm_num) (by norm_num) (by rw [lt_fin]; norm_num) (by rw [lt_fin]; norm_num)
  norm_num at this
  exact this

end DRT
