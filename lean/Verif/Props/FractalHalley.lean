import Verif.Props.Fractal

/-! # C99: what is true of `complex_halley` -/

namespace DRT
open Scalar Fl Fractal

variable {F : Fmt} [F.Exact]

/-- The denominator of Halley's step for `z⁵ - 1`. -/
theorem halley_denominator (z : ℂ) : 2 * (5 * z ^ 4) * (5 * z ^ 4) - (z ^ 5 - 1) * (20 * z ^ 3) = 10 * z ^ 3 * (3 * z ^ 5 + 2) := by ring

theorem fifth_values (z : ℂ) : fifthRootsHalley (cx z : Cx (Fl F)) = (cx (z ^ 5 - 1), cx (5 * z ^ 4), cx (20 * z ^ 3)) := by
  obtain ⟨w, dw, ddw, -, hh, hw, -, hdd, hdw⟩ := C96_fifth (F := F) z
  have hddw : ddw = 20 * z ^ 3 := by
    refine hdd.unique ?_
    refine ((hasDerivAt_pow 4 z).const_mul 5).congr_deriv ?_
    push_cast
    ring
  rw [hh, hw, hdw, hddw]

/-- One body of the loop, at a point where Halley's step is defined. -/
theorem halley_step (fuel : ℕ) (z : ℂ) (h : 10 * z ^ 3 * (3 * z ^ 5 + 2) ≠ 0) :
    complexHalley fifthRootsHalley (fuel + 1) (cx z : Cx (Fl F)) =
      if ‖z ^ 5 - 1‖ ≤ F.eps * ‖z * (2 * z ^ 5 + 3) / (3 * z ^ 5 + 2) * (5 * z ^ 4)‖ / 2 then some (cx (z * (2 * z ^ 5 + 3) / (3 * z ^ 5 + 2)))
      else complexHalley fifthRootsHalley fuel (cx (z * (2 * z ^ 5 + 3) / (3 * z ^ 5 + 2))) := by
  have hz : z ≠ 0 := by rintro rfl; simp at h
  have hD : 3 * z ^ 5 + 2 ≠ 0 := by intro h'; rw [h'] at h; simp at h
  have hstep : z - 2 * (z ^ 5 - 1) * (5 * z ^ 4) / (2 * (5 * z ^ 4) * (5 * z ^ 4) - (z ^ 5 - 1) * (20 * z ^ 3)) = z * (2 * z ^ 5 + 3) / (3 * z ^ 5 + 2) := by
    rw [halley_denominator]
    generalize hD' : 3 * z ^ 5 + 2 = D at hD ⊢
    field_simp
    rw [← hD']
    ring
  conv_lhs => unfold complexHalley
  simp only [fifth_values, ofNat_def, cx_smul, cx_mul, cx_sub]
  have e2 : ((((2 : ℕ) : ℝ) : ℂ)) = 2 := by norm_num
  rw [e2, cx_div _ (by rw [halley_denominator]; exact h), cx_sub, hstep]
  simp only [cx_mul, cx_abs]
  rw [show (eps : Fl F) = fin F.eps from rfl, Fl.mul_fin, div_fin _ (by norm_num), le_fin]
  simp only [decide_eq_true_eq, Nat.cast_ofNat]

theorem halley_nan (fuel : ℕ) : complexHalley fifthRootsHalley fuel (nanCx : Cx (Fl F)) = none := by
  induction fuel with
  | zero => rfl
  | succ n ih =>
    unfold complexHalley
    have h : ∀ b : Cx (Fl F), (nanCx : Cx (Fl F)) - b = nanCx := by
      intro b
      show (⟨_, _⟩ : Cx (Fl F)) = ⟨.nan, .nan⟩
      congr 1
    simp only [h, nanCx_mul]
    rw [nan_abs nanCx rfl, mul_nanv, show (.nan : Fl F) / 2 = .nan from rfl, le_nan, if_neg (by simp)]
    exact ih

/-- At a point where Halley's step is not defined the search never ends. -/
theorem halley_critical (fuel : ℕ) (z : ℂ) (h : 10 * z ^ 3 * (3 * z ^ 5 + 2) = 0) : complexHalley fifthRootsHalley fuel (cx z : Cx (Fl F)) = none := by
  cases fuel with
  | zero => rfl
  | succ fuel =>
    unfold complexHalley
    simp only [fifth_values, ofNat_def, cx_smul, cx_mul, cx_sub]
    have e2 : ((((2 : ℕ) : ℝ) : ℂ)) = 2 := by norm_num
    rw [e2, halley_denominator, h, cx_div_zero, sub_nanCx]
    simp only [nanCx_mul]
    rw [nan_abs nanCx rfl, mul_nanv]
    rw [show (.nan : Fl F) / fin ((2 : ℕ) : ℝ) = .nan from rfl, le_nan, if_neg (by simp)]
    exact halley_nan fuel

/-- A value that passes the test and is not huge is near a root. -/
theorem halley_near {ε : ℝ} (h0 : 0 < ε) (h1 : ε < 1 / 100) (z : ℂ) (h : 10 * z ^ 3 * (3 * z ^ 5 + 2) ≠ 0)
    (ht : ‖z ^ 5 - 1‖ ≤ ε * ‖z * (2 * z ^ 5 + 3) / (3 * z ^ 5 + 2) * (5 * z ^ 4)‖ / 2) (hs : ‖z * (2 * z ^ 5 + 3) / (3 * z ^ 5 + 2)‖ ≤ 1 / (100 * ε)) :
    ∃ ρ : ℂ, ρ ^ 5 = 1 ∧ ‖z * (2 * z ^ 5 + 3) / (3 * z ^ 5 + 2) - ρ‖ ≤ 4 * ε := by
  have hz : z ≠ 0 := by rintro rfl; simp at h
  have hD : 3 * z ^ 5 + 2 ≠ 0 := by intro h'; rw [h'] at h; simp at h
  set ζ := z * (2 * z ^ 5 + 3) / (3 * z ^ 5 + 2) with hζ
  let p : Polynomial ℂ := Polynomial.X ^ 5 - 1
  have hpe : ∀ z : ℂ, p.eval z = z ^ 5 - 1 := fun z => by simp [p]
  have hpd : ∀ z : ℂ, (Polynomial.derivative p).eval z = 5 * z ^ 4 := fun z => by simp [p]; norm_num
  have hpn : p.natDegree = 5 := by
    show (Polynomial.X ^ 5 - 1 : Polynomial ℂ).natDegree = 5
    compute_degree!
  obtain ⟨ρ, hρ, hb⟩ := root_within p z (by rw [hpd]; exact mul_ne_zero (by norm_num) (pow_ne_zero _ hz))
  rw [hpe, hpd, hpn] at hb
  have hρ5 : ρ ^ 5 = 1 := by
    have : p.eval ρ = 0 := hρ
    rw [hpe] at this
    exact sub_eq_zero.1 this
  have hρ1 : ‖ρ‖ = 1 := by
    have : ‖ρ‖ ^ 5 = 1 := by rw [← norm_pow, hρ5, norm_one]
    exact (pow_eq_one_iff_of_nonneg (norm_nonneg _) (by norm_num)).1 this
  have hd4 : 0 < ‖5 * z ^ 4‖ := norm_pos_iff.2 (mul_ne_zero (by norm_num) (pow_ne_zero _ hz))
  -- the Newton step
  have hn : ‖(z ^ 5 - 1) / (5 * z ^ 4)‖ ≤ ε * ‖ζ‖ / 2 := by
    rw [norm_div, div_le_iff₀ hd4]
    rw [norm_mul] at ht
    linarith
  have hs' : ε * ‖ζ‖ ≤ 1 / 100 := by
    rw [le_div_iff₀ (by positivity)] at hs
    linarith
  have hzρ : ‖z - ρ‖ ≤ 5 / 2 * (ε * ‖ζ‖) := by push_cast at hb; linarith
  have hz1 : 39 / 40 ≤ ‖z‖ := by
    have := norm_sub_norm_le ρ z
    rw [norm_sub_rev] at this
    linarith
  have hz2 : ‖z‖ ≤ 41 / 40 := by
    have := norm_sub_norm_le z ρ
    linarith
  -- Halley's step against Newton's
  have hq : (ζ - z) * (1 - 2 * ((z ^ 5 - 1) / (5 * z ^ 4)) / z) = -((z ^ 5 - 1) / (5 * z ^ 4)) := by
    rw [hζ]
    generalize hD' : 3 * z ^ 5 + 2 = D at hD ⊢
    field_simp
    rw [← hD']
    ring
  set q := (z ^ 5 - 1) / (5 * z ^ 4) with hqd
  have hq1 : ‖2 * q / z‖ ≤ 1 / 50 := by
    rw [norm_div, norm_mul, div_le_iff₀ (by linarith)]
    simp only [Complex.norm_ofNat]
    nlinarith
  have hq2 : 49 / 50 ≤ ‖1 - 2 * q / z‖ := by
    have := norm_sub_norm_le (1 : ℂ) (2 * q / z)
    rw [norm_one] at this
    linarith
  have hq3 : ‖ζ - z‖ * (49 / 50) ≤ ε * ‖ζ‖ / 2 := by
    calc ‖ζ - z‖ * (49 / 50) ≤ ‖ζ - z‖ * ‖1 - 2 * q / z‖ := mul_le_mul_of_nonneg_left hq2 (norm_nonneg _)
      _ = ‖q‖ := by rw [← norm_mul, hq, norm_neg]
      _ ≤ _ := hn
  have hζ2 : ‖ζ‖ ≤ 11 / 10 := by
    have := norm_sub_norm_le ζ z
    linarith
  refine ⟨ρ, hρ5, ?_⟩
  have h3 : ‖ζ - ρ‖ ≤ ‖ζ - z‖ + ‖z - ρ‖ := norm_sub_le_norm_sub_add_norm_sub _ _ _
  have h4 : ε * ‖ζ‖ ≤ 11 / 10 * ε := by nlinarith
  linarith

/-- C99, the part that is true: wherever the search starts, a value that `complex_halley` returns is within 4 units in the last place of a fifth root of unity, unless
its modulus is at least `1/(100ε)`. The second possibility is real (`C99_halley_false`). -/
theorem C99_near_partial (heps : F.eps < 1 / 100) (fuel : ℕ) (z : ℂ) (w : Cx (Fl F)) (h : complexHalley fifthRootsHalley fuel (cx z) = some w) :
    ∃ ζ : ℂ, w = cx ζ ∧ (1 / (100 * F.eps) < ‖ζ‖ ∨ ∃ ρ : ℂ, ρ ^ 5 = 1 ∧ ‖ζ - ρ‖ ≤ 4 * F.eps) := by
  induction fuel generalizing z with
  | zero => simp [complexHalley] at h
  | succ fuel ih =>
    by_cases hd : 10 * z ^ 3 * (3 * z ^ 5 + 2) = 0
    · rw [halley_critical _ _ hd] at h
      simp at h
    rw [halley_step _ _ hd] at h
    split at h
    · rename_i ht
      simp only [Option.some.injEq] at h
      refine ⟨_, h.symm, ?_⟩
      rcases lt_or_ge (1 / (100 * F.eps)) ‖z * (2 * z ^ 5 + 3) / (3 * z ^ 5 + 2)‖ with hs | hs
      · exact .inl hs
      · exact .inr (halley_near Fmt.Exact.eps_pos heps z hd ht hs)
    · exact ih _ h

/-! ## The positive real axis -/

/-- Halley's step for `x⁵ - 1` on the real axis. -/
noncomputable def halleyReal (x : ℝ) : ℝ := x * (2 * x ^ 5 + 3) / (3 * x ^ 5 + 2)

theorem halleyReal_sub (x : ℝ) (hx : 0 < x) : halleyReal x - 1 = (x - 1) * (1 - (x ^ 5 + x ^ 4 + x ^ 3 + x ^ 2 + x) / (3 * x ^ 5 + 2)) := by
  unfold halleyReal
  have hD : 3 * x ^ 5 + 2 ≠ 0 := by positivity
  generalize hD' : 3 * x ^ 5 + 2 = D at hD ⊢
  field_simp
  rw [← hD']
  ring

theorem halleyReal_ratio (x : ℝ) (hx : 0 < x) : (x ^ 5 + x ^ 4 + x ^ 3 + x ^ 2 + x) / (3 * x ^ 5 + 2) ≤ 1 := by
  rw [div_le_one (by positivity)]
  nlinarith [mul_nonneg (sq_nonneg (x - 1)) (by positivity : 0 ≤ 2 * x ^ 3 + 3 * x ^ 2 + 3 * x + 2)]

theorem halleyReal_rate {m x : ℝ} (hm : 0 < m) (hm1 : m ≤ 1) (hx : m ≤ x) : m / 5 ≤ (x ^ 5 + x ^ 4 + x ^ 3 + x ^ 2 + x) / (3 * x ^ 5 + 2) := by
  have h0 : 0 < x := by linarith
  rw [div_le_div_iff₀ (by norm_num) (by positivity)]
  have h2 : 0 < x ^ 2 := by positivity
  have h3 : 0 < x ^ 3 := by positivity
  have h4 : 0 < x ^ 4 := by positivity
  have h5 : 0 < x ^ 5 := by positivity
  nlinarith

theorem halleyReal_min {m x : ℝ} (hm : 0 < m) (hm1 : m ≤ 1) (hx : m ≤ x) : m ≤ halleyReal x := by
  have h0 : 0 < x := by linarith
  have h1 := halleyReal_sub x h0
  have h2 := halleyReal_ratio x h0
  have h3 := halleyReal_rate hm hm1 hx
  rcases le_total x 1 with h | h <;> nlinarith

theorem halley_real_step (fuel : ℕ) (x : ℝ) (hx : 0 < x) :
    complexHalley fifthRootsHalley (fuel + 1) (cx (x : ℂ) : Cx (Fl F)) =
      if |x ^ 5 - 1| ≤ F.eps * (halleyReal x * (5 * x ^ 4)) / 2 then some (cx ((halleyReal x : ℝ) : ℂ))
      else complexHalley fifthRootsHalley fuel (cx ((halleyReal x : ℝ) : ℂ)) := by
  have e : (x : ℂ) * (2 * (x : ℂ) ^ 5 + 3) / (3 * (x : ℂ) ^ 5 + 2) = ((halleyReal x : ℝ) : ℂ) := by unfold halleyReal; push_cast; rfl
  have hpos : 0 < halleyReal x := by unfold halleyReal; positivity
  rw [halley_step _ _ (by
    have : (10 * x ^ 3 * (3 * x ^ 5 + 2) : ℝ) ≠ 0 := by positivity
    exact_mod_cast this), e]
  have n1 : ‖(x : ℂ) ^ 5 - 1‖ = |x ^ 5 - 1| := by rw [← Real.norm_eq_abs, ← Complex.norm_real]; push_cast; rfl
  have n2 : ‖((halleyReal x : ℝ) : ℂ) * (5 * (x : ℂ) ^ 4)‖ = halleyReal x * (5 * x ^ 4) := by
    rw [← abs_of_pos (by positivity : 0 < halleyReal x * (5 * x ^ 4)), ← Real.norm_eq_abs, ← Complex.norm_real]; push_cast; rfl
  rw [n1, n2]

/-- A value that passes the test on the positive real axis is near 1. -/
theorem halleyReal_near {ε x : ℝ} (hx : 0 < x) (ht : |x ^ 5 - 1| ≤ ε * (halleyReal x * (5 * x ^ 4)) / 2) : |halleyReal x - 1| ≤ 5 / 2 * ε * halleyReal x := by
  have h1 := halleyReal_sub x hx
  have h2 := halleyReal_ratio x hx
  have h3 : 0 ≤ (x ^ 5 + x ^ 4 + x ^ 3 + x ^ 2 + x) / (3 * x ^ 5 + 2) := by positivity
  have h4 : |halleyReal x - 1| ≤ |x - 1| := by
    rw [h1, abs_mul, abs_of_nonneg (by linarith : 0 ≤ 1 - (x ^ 5 + x ^ 4 + x ^ 3 + x ^ 2 + x) / (3 * x ^ 5 + 2))]
    nlinarith [abs_nonneg (x - 1)]
  have h5 : x ^ 5 - 1 = (x - 1) * (x ^ 4 + x ^ 3 + x ^ 2 + x + 1) := by ring
  rw [h5, abs_mul, abs_of_pos (by positivity : 0 < x ^ 4 + x ^ 3 + x ^ 2 + x + 1)] at ht
  have h6 : 0 < x ^ 4 := by positivity
  have h7 : |x - 1| * x ^ 4 ≤ 5 / 2 * ε * halleyReal x * x ^ 4 := by
    have : |x - 1| * x ^ 4 ≤ |x - 1| * (x ^ 4 + x ^ 3 + x ^ 2 + x + 1) := mul_le_mul_of_nonneg_left (by
      have : 0 < x ^ 3 + x ^ 2 + x + 1 := by positivity
      linarith) (abs_nonneg _)
    linarith
  exact h4.trans (le_of_mul_le_mul_right h7 h6)

/-- C99: the search from every point of the positive real axis ends, with 1 up to `5/2` units in the last place. -/
theorem C99_positive (x : ℝ) (hx : 0 < x) : ∃ (fuel : ℕ) (ζ : ℝ), complexHalley fifthRootsHalley fuel (cx (x : ℂ) : Cx (Fl F)) = some (cx (ζ : ℂ)) ∧
    |ζ - 1| ≤ 5 / 2 * F.eps * ζ := by
  -- it ends when a test succeeds
  have hloop : ∀ (n : ℕ) (x : ℝ), 0 < x → |(halleyReal^[n] x) ^ 5 - 1| ≤ F.eps * (halleyReal (halleyReal^[n] x) * (5 * (halleyReal^[n] x) ^ 4)) / 2 →
      ∃ (fuel : ℕ) (ζ : ℝ), complexHalley fifthRootsHalley fuel (cx (x : ℂ) : Cx (Fl F)) = some (cx (ζ : ℂ)) ∧ |ζ - 1| ≤ 5 / 2 * F.eps * ζ := by
    intro n
    induction n with
    | zero =>
      intro x hx ht
      simp only [Function.iterate_zero, id] at ht
      exact ⟨1, halleyReal x, by rw [halley_real_step 0 x hx, if_pos ht], halleyReal_near hx ht⟩
    | succ n ih =>
      intro x hx ht
      by_cases h0 : |x ^ 5 - 1| ≤ F.eps * (halleyReal x * (5 * x ^ 4)) / 2
      · exact ⟨1, halleyReal x, by rw [halley_real_step 0 x hx, if_pos h0], halleyReal_near hx h0⟩
      · obtain ⟨fuel, ζ, h1, h2⟩ := ih (halleyReal x) (by unfold halleyReal; positivity) (by rwa [← Function.iterate_succ_apply])
        exact ⟨fuel + 1, ζ, by rw [halley_real_step fuel x hx, if_neg h0, h1], h2⟩
  set m := min x 1 with hm
  have hm0 : 0 < m := lt_min hx one_pos
  have hm1 : m ≤ 1 := min_le_right _ _
  have hmin : ∀ k, m ≤ halleyReal^[k] x := by
    intro k
    induction k with
    | zero => exact min_le_left _ _
    | succ k ih => rw [Function.iterate_succ_apply']; exact halleyReal_min hm0 hm1 ih
  have hrate : ∀ k, |halleyReal^[k] x - 1| ≤ (1 - m / 5) ^ k * |x - 1| := by
    intro k
    induction k with
    | zero => simp
    | succ k ih =>
      have hk : 0 < halleyReal^[k] x := hm0.trans_le (hmin k)
      have h2 := halleyReal_ratio _ hk
      have h3 := halleyReal_rate hm0 hm1 (hmin k)
      rw [Function.iterate_succ_apply', halleyReal_sub _ hk, abs_mul, abs_of_nonneg (by linarith : 0 ≤ 1 - (_ : ℝ) / _), pow_succ (1 - m / 5)]
      calc _ ≤ ((1 - m / 5) ^ k * |x - 1|) * (1 - m / 5) := mul_le_mul ih (by linarith) (by linarith) (by
            have : 0 ≤ 1 - m / 5 := by linarith
            positivity)
        _ = _ := by ring
  have hlim : Filter.Tendsto (fun k => halleyReal^[k] x) Filter.atTop (nhds 1) := by
    rw [tendsto_iff_norm_sub_tendsto_zero]
    refine squeeze_zero (fun k => norm_nonneg _) (fun k => hrate k) ?_
    have := (tendsto_pow_atTop_nhds_zero_of_lt_one (r := 1 - m / 5) (by linarith) (by linarith)).mul_const |x - 1|
    simpa using this
  have hlim5 : Filter.Tendsto (fun k => |(halleyReal^[k] x) ^ 5 - 1|) Filter.atTop (nhds 0) := by
    have := ((hlim.pow 5).sub_const 1).abs
    simpa using this
  have heps := Fmt.Exact.eps_pos (F := F)
  obtain ⟨n, hn⟩ := (hlim5.eventually_lt_const (u := F.eps * (m * (5 * m ^ 4)) / 2) (by positivity)).exists
  refine hloop n x hx (hn.le.trans ?_)
  have h1 := hmin n
  have h2 : m ≤ halleyReal (halleyReal^[n] x) := by rw [← Function.iterate_succ_apply' halleyReal]; exact hmin (n + 1)
  have h3 : 0 < halleyReal (halleyReal^[n] x) := hm0.trans_le h2
  gcongr

/-- A case of C99_near_partial and C99_positive in a format with the machine epsilon of `double`: from 3 the search ends, within 4 units of a root. -/
example : ∃ (fuel : ℕ) (ζ : ℝ), complexHalley fifthRootsHalley fuel (cx ((3 : ℝ) : ℂ) : Cx (Fl exact64)) = some (cx (ζ : ℂ)) ∧ |ζ - 1| ≤ 5 / 2 * exact64.eps * ζ ∧
    ∃ ζ' : ℂ, (cx (ζ : ℂ) : Cx (Fl exact64)) = cx ζ' ∧ (1 / (100 * exact64.eps) < ‖ζ'‖ ∨ ∃ ρ : ℂ, ρ ^ 5 = 1 ∧ ‖ζ' - ρ‖ ≤ 4 * exact64.eps) := by
  obtain ⟨fuel, ζ, h1, h2⟩ := C99_positive (F := exact64) 3 (by norm_num)
  exact ⟨fuel, ζ, h1, h2, C99_near_partial (by show (1 : ℝ) / 2 ^ 52 < _; norm_num) fuel _ _ h1⟩

end DRT
