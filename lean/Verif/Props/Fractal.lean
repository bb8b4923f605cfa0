import Verif.Model.Fractal
import Verif.Props.RenderStores
import Verif.Props.ColorMaps
import Mathlib.Analysis.Complex.Norm
import Mathlib.Analysis.Calculus.Deriv.Pow
import Mathlib.Analysis.Complex.Polynomial.Basic

/-! # C91, C96-C99: the Newton fractal -/

namespace DRT
open Scalar Fl Fractal Render

variable {F : Fmt}

/-- A complex number as a value of the program. -/
def cx (z : ℂ) : Cx (Fl F) := ⟨fin z.re, fin z.im⟩

section
variable [F.Exact]

theorem cx_add (a b : ℂ) : (cx a : Cx (Fl F)) + cx b = cx (a + b) := by
  show (⟨_, _⟩ : Cx (Fl F)) = ⟨_, _⟩
  simp [cx]
theorem cx_sub (a b : ℂ) : (cx a : Cx (Fl F)) - cx b = cx (a - b) := by
  show (⟨_, _⟩ : Cx (Fl F)) = ⟨_, _⟩
  simp [cx]
theorem cx_mul (a b : ℂ) : (cx a : Cx (Fl F)) * cx b = cx (a * b) := by
  show (⟨_, _⟩ : Cx (Fl F)) = ⟨_, _⟩
  simp [cx]
theorem cx_div (a : ℂ) {b : ℂ} (hb : b ≠ 0) : (cx a : Cx (Fl F)) / cx b = cx (a / b) := by
  have h : b.re * b.re + b.im * b.im ≠ 0 := by
    have := Complex.normSq_apply b
    rw [← this]
    exact (Complex.normSq_pos.2 hb).ne'
  show (⟨_, _⟩ : Cx (Fl F)) = ⟨_, _⟩
  simp only [cx, Fl.mul_fin, Fl.add_fin, Fl.sub_fin]
  rw [div_fin _ h, div_fin _ h]
  have hn := Complex.normSq_apply b
  congr 2
  · rw [Complex.div_re, hn]; ring
  · rw [Complex.div_im, hn]; ring
theorem cx_smul (c : ℝ) (z : ℂ) : Cx.smul (fin c) (cx z : Cx (Fl F)) = cx (c * z) := by
  simp [Cx.smul, cx]
theorem cx_addReal (z : ℂ) (c : ℝ) : Cx.addReal (cx z : Cx (Fl F)) (fin c) = cx (z + c) := by
  simp [Cx.addReal, cx]
theorem cx_subReal (z : ℂ) (c : ℝ) : Cx.subReal (cx z : Cx (Fl F)) (fin c) = cx (z - c) := by
  simp [Cx.subReal, cx]
theorem cx_abs (z : ℂ) : Cx.abs (cx z : Cx (Fl F)) = fin ‖z‖ := by
  unfold Cx.abs cx
  simp only [Fl.mul_fin, Fl.add_fin]
  rw [sqrt_fin (by nlinarith [mul_self_nonneg z.re, mul_self_nonneg z.im]), ← Complex.normSq_apply, Complex.norm_def]

/-! ## C91 -/

/-- C91: a pixel's point of the plane is mapped back to that pixel, for images of at least two by two pixels and windows that do not
begin at 0. -/
theorem C91_inverse (W H : ℕ) (hW : 2 ≤ W) (hH : 2 ≤ H) (xmin ymin : ℝ) (hx : xmin ≠ 0) (hy : ymin ≠ 0) (i j : ℕ) :
    PlaneMap.toPixel (⟨W, H, fin xmin, fin ymin⟩ : PlaneMap (Fl F)) (PlaneMap.toComplex ⟨W, H, fin xmin, fin ymin⟩ i j) = some ((i : ℤ), (j : ℤ)) := by
  have key : ∀ (n : ℕ) (_ : 2 ≤ n) (x : ℝ) (_ : x ≠ 0) (k : ℕ),
      llround (lit ((n : ℚ) - 1) * (fin x + 2 * Scalar.abs (fin x) * lit (k : ℚ) / lit ((n : ℚ) - 1) - fin x) / (2 * Scalar.abs (fin x)) : Fl F) =
        some (k : ℤ) := by
    intro n hn x hx k
    have hn' : (n : ℝ) - 1 ≠ 0 := by
      have : (2 : ℝ) ≤ n := by exact_mod_cast hn
      linarith
    have hx' : |x| ≠ 0 := abs_ne_zero.2 hx
    rw [lit_def, lit_def, ofNat_def]
    simp only [abs_fin, Fl.mul_fin, Rat.cast_natCast, Rat.cast_sub, Rat.cast_one]
    rw [div_fin _ hn', Fl.add_fin, Fl.sub_fin, Fl.mul_fin, div_fin _ (by simpa using hx')]
    have e : ((n : ℝ) - 1) * (x + ((2 : ℕ) : ℝ) * |x| * k / (n - 1) - x) / (((2 : ℕ) : ℝ) * |x|) = k := by
      push_cast
      field_simp
      ring
    rw [e, llround_fin, if_pos (by positivity), Int.floor_natCast_add]
    norm_num
  unfold PlaneMap.toPixel PlaneMap.toComplex
  simp only [key W hW xmin hx i, key H hH ymin hy j]

/-- C91 fails for a window that begins at 0, and for images one pixel wide: there the pixel of a point is undefined. -/
theorem C91_degenerate_false (W H : ℕ) (ymin : ℝ) (i j : ℕ) (hW : 2 ≤ W) :
    PlaneMap.toPixel (⟨W, H, fin 0, fin ymin⟩ : PlaneMap (Fl F)) (PlaneMap.toComplex ⟨W, H, fin 0, fin ymin⟩ i j) = none ∧
      ∀ xmin, PlaneMap.toPixel (⟨1, H, fin xmin, fin ymin⟩ : PlaneMap (Fl F)) (PlaneMap.toComplex ⟨1, H, fin xmin, fin ymin⟩ 0 j) = none := by
  have hn' : (W : ℝ) - 1 ≠ 0 := by
    have : (2 : ℝ) ≤ W := by exact_mod_cast hW
    linarith
  constructor
  · have e : llround (lit ((W : ℚ) - 1) * (fin 0 + 2 * Scalar.abs (fin 0) * lit (i : ℚ) / lit ((W : ℚ) - 1) - fin 0) / (2 * Scalar.abs (fin 0)) : Fl F) =
        none := by
      rw [lit_def, lit_def, ofNat_def]
      simp only [abs_fin, Fl.mul_fin, Rat.cast_natCast, Rat.cast_sub, Rat.cast_one]
      rw [div_fin _ hn']
      simp
      rfl
    unfold PlaneMap.toPixel PlaneMap.toComplex
    simp only [e]
  · intro xmin
    have e : llround (lit (((1 : ℕ) : ℚ) - 1) * (fin xmin + 2 * Scalar.abs (fin xmin) * lit ((0 : ℕ) : ℚ) / lit (((1 : ℕ) : ℚ) - 1) - fin xmin) /
        (2 * Scalar.abs (fin xmin)) : Fl F) = none := by
      rw [lit_def, lit_def, ofNat_def]
      simp
      rfl
    unfold PlaneMap.toPixel PlaneMap.toComplex
    simp only [e]

/-- The window and size of `main`. -/
example : PlaneMap.toPixel (mainMap : PlaneMap (Fl F)) (PlaneMap.toComplex mainMap 17 4000) = some (17, 4000) := by
  have := C91_inverse (F := F) 4096 4096 (by norm_num) (by norm_num) (-2) (-2) (by norm_num) (by norm_num) 17 4000
  have e : (mainMap : PlaneMap (Fl F)) = ⟨4096, 4096, fin (-2), fin (-2)⟩ := by
    unfold mainMap
    rw [ofNat_def, Fl.neg_fin]
    norm_num
  rw [e]
  exact this

/-! ## C96 -/

/-- The polynomial of `g`. -/
noncomputable def gPoly : Polynomial ℂ := Polynomial.X ^ 8 + Polynomial.C 15 * Polynomial.X ^ 4 - Polynomial.C 16

theorem gPoly_eval (z : ℂ) : gPoly.eval z = z ^ 8 + 15 * z ^ 4 - 16 := by simp [gPoly]
theorem gPoly_deriv (z : ℂ) : (Polynomial.derivative gPoly).eval z = 8 * z ^ 7 + 60 * z ^ 3 := by
  simp [gPoly]
  ring
theorem gPoly_degree : gPoly.natDegree = 8 := by unfold gPoly; compute_degree!

/-- C96: `g` returns the value of `z⁸ + 15z⁴ - 16` and its derivative. -/
theorem C96_g (z : ℂ) : ∃ w dw : ℂ, g (cx z : Cx (Fl F)) = (cx w, cx dw) ∧ w = z ^ 8 + 15 * z ^ 4 - 16 ∧
    HasDerivAt (fun z : ℂ => z ^ 8 + 15 * z ^ 4 - 16) dw z := by
  refine ⟨_, 8 * z ^ 7 + 60 * z ^ 3, ?_, rfl, ?_⟩
  · unfold g
    simp only [ofNat_def, cx_mul, cx_addReal, cx_subReal, cx_smul]
    refine Prod.ext ?_ ?_
    · simp only
      congr 1
      push_cast
      ring
    · simp only
      congr 1
      push_cast
      ring
  · have h := ((hasDerivAt_pow 8 z).add ((hasDerivAt_pow 4 z).const_mul 15)).sub_const 16
    refine h.congr_deriv ?_
    push_cast
    ring

/-- C96: `fifth_roots` returns the value of `z⁵ - 1` and its derivative, and `fifth_roots_halley` also the second derivative. -/
theorem C96_fifth (z : ℂ) : ∃ w dw ddw : ℂ, fifthRoots (cx z : Cx (Fl F)) = (cx w, cx dw) ∧
    fifthRootsHalley (cx z : Cx (Fl F)) = (cx w, cx dw, cx ddw) ∧ w = z ^ 5 - 1 ∧ HasDerivAt (fun z : ℂ => z ^ 5 - 1) dw z ∧
    HasDerivAt (fun z : ℂ => 5 * z ^ 4) ddw z ∧ dw = 5 * z ^ 4 := by
  refine ⟨_, 5 * z ^ 4, 20 * z ^ 3, ?_, ?_, rfl, ?_, ?_, rfl⟩
  · unfold fifthRoots
    simp only [ofNat_def, cx_mul, cx_subReal, cx_smul]
    refine Prod.ext ?_ ?_ <;> simp only <;> congr 1 <;> push_cast <;> ring
  · unfold fifthRootsHalley
    simp only [ofNat_def, cx_mul, cx_subReal, cx_smul]
    refine Prod.ext ?_ (Prod.ext ?_ ?_) <;> simp only <;> congr 1 <;> push_cast <;> ring
  · refine ((hasDerivAt_pow 5 z).sub_const 1).congr_deriv ?_
    push_cast
    ring
  · refine ((hasDerivAt_pow 4 z).const_mul 5).congr_deriv ?_
    push_cast
    ring

/-- The eight roots as complex numbers, in the order of the program. -/
noncomputable def eightRoots : List ℂ :=
  [-1, 1, Complex.I, -Complex.I, ⟨Real.sqrt 2, Real.sqrt 2⟩, ⟨Real.sqrt 2, -Real.sqrt 2⟩, ⟨-Real.sqrt 2, -Real.sqrt 2⟩,
    ⟨-Real.sqrt 2, Real.sqrt 2⟩]

theorem roots_eq : (roots : List (Cx (Fl F))) = eightRoots.map cx := by
  have h2 : Scalar.sqrt (2 : Fl F) = fin (Real.sqrt 2) := by rw [ofNat_def, sqrt_fin (by norm_num)]; norm_num
  unfold roots eightRoots
  simp only [h2, ofNat_zero, ofNat_one, Fl.neg_fin, List.map_cons, List.map_nil, cx]
  simp

/-- C96: the roots that are marked are all the zeros of `g`, and no others. -/
theorem C96_roots (z : ℂ) : z ^ 8 + 15 * z ^ 4 - 16 = 0 ↔ ∃ k ∈ (roots : List (Cx (Fl F))), k = cx z := by
  rw [roots_eq]
  have hinj : ∀ a b : ℂ, (cx a : Cx (Fl F)) = cx b ↔ a = b := by
    intro a b
    constructor
    · intro h
      have h1 := congrArg Cx.re h
      have h2 := congrArg Cx.im h
      simp only [cx, fin_inj] at h1 h2
      exact Complex.ext h1 h2
    · rintro rfl; rfl
  have h2 : Real.sqrt 2 * Real.sqrt 2 = 2 := Real.mul_self_sqrt (by norm_num)
  obtain ⟨s, hs⟩ : ∃ s : ℂ, s = ((Real.sqrt 2 : ℝ) : ℂ) := ⟨_, rfl⟩
  have hss : s ^ 2 = 2 := by rw [hs, sq]; exact_mod_cast h2
  have e5 : (⟨Real.sqrt 2, Real.sqrt 2⟩ : ℂ) = s * (1 + Complex.I) := by apply Complex.ext <;> simp [hs]
  have e6 : (⟨Real.sqrt 2, -Real.sqrt 2⟩ : ℂ) = s * (1 - Complex.I) := by apply Complex.ext <;> simp [hs]
  have e7 : (⟨-Real.sqrt 2, -Real.sqrt 2⟩ : ℂ) = -(s * (1 + Complex.I)) := by apply Complex.ext <;> simp [hs]
  have e8 : (⟨-Real.sqrt 2, Real.sqrt 2⟩ : ℂ) = -(s * (1 - Complex.I)) := by apply Complex.ext <;> simp [hs]
  have fac : z ^ 8 + 15 * z ^ 4 - 16 = (z - -1) * (z - 1) * (z - Complex.I) * (z - -Complex.I) * (z - s * (1 + Complex.I)) *
      (z - s * (1 - Complex.I)) * (z - -(s * (1 + Complex.I))) * (z - -(s * (1 - Complex.I))) := by
    have hI : Complex.I ^ 2 = -1 := Complex.I_sq
    have f1 : (z - Complex.I) * (z - -Complex.I) = z ^ 2 + 1 := by linear_combination -hI
    have f2 : (z - s * (1 + Complex.I)) * (z - -(s * (1 + Complex.I))) = z ^ 2 - 4 * Complex.I := by
      linear_combination -(1 + Complex.I) ^ 2 * hss - 2 * hI
    have f3 : (z - s * (1 - Complex.I)) * (z - -(s * (1 - Complex.I))) = z ^ 2 + 4 * Complex.I := by
      linear_combination -(1 - Complex.I) ^ 2 * hss - 2 * hI
    calc z ^ 8 + 15 * z ^ 4 - 16 = (z - -1) * (z - 1) * (z ^ 2 + 1) * ((z ^ 2 - 4 * Complex.I) * (z ^ 2 + 4 * Complex.I)) := by
          linear_combination 16 * (z ^ 4 - 1) * hI
      _ = _ := by rw [← f1, ← f2, ← f3]; ring
  rw [fac]
  simp only [mul_eq_zero, sub_eq_zero, eightRoots, List.map_cons, List.map_nil, List.mem_cons, List.not_mem_nil, or_false, e5, e6, e7, e8]
  constructor
  · intro h
    refine ⟨cx z, ?_, rfl⟩
    simp only [hinj]
    tauto
  · rintro ⟨k, hk, rfl⟩
    simp only [hinj] at hk
    tauto

/-! ## C97 -/

/-- Some zero of a polynomial is within `degree` Newton steps. -/
theorem root_within (p : Polynomial ℂ) (z : ℂ) (hd : (Polynomial.derivative p).eval z ≠ 0) :
    ∃ r, p.IsRoot r ∧ ‖z - r‖ ≤ p.natDegree * ‖p.eval z / (Polynomial.derivative p).eval z‖ := by
  by_cases h0 : p.eval z = 0
  · exact ⟨z, h0, by simp [h0]⟩
  by_contra hcon
  push Not at hcon
  have hs := (IsAlgClosed.splits p).eval_derivative_div_eval_of_ne_zero h0
  have hp0 : p ≠ 0 := by rintro rfl; simp at h0
  have hD : 0 < ‖p.eval z / (Polynomial.derivative p).eval z‖ := norm_pos_iff.2 (div_ne_zero h0 hd)
  have hcard : p.roots.card = p.natDegree := (IsAlgClosed.splits p).natDegree_eq_card_roots.symm
  have hroots : ∀ r ∈ p.roots, p.natDegree * ‖p.eval z / (Polynomial.derivative p).eval z‖ < ‖z - r‖ := fun r hr =>
    hcon r (Polynomial.isRoot_of_mem_roots hr)
  have hn : p.natDegree ≠ 0 := by
    intro h
    rw [Polynomial.eq_C_of_natDegree_eq_zero h] at hd
    simp at hd
  have hcpos : 0 < 1 / (p.natDegree * ‖p.eval z / (Polynomial.derivative p).eval z‖) := by positivity
  have hne : p.roots ≠ ∅ := by
    intro h
    rw [h] at hcard
    exact hn (by simpa using hcard.symm)
  have h1 : ‖(p.roots.map fun r => 1 / (z - r)).sum‖ < (p.roots.map fun _ =>
      1 / (p.natDegree * ‖p.eval z / (Polynomial.derivative p).eval z‖)).sum := by
    refine lt_of_le_of_lt (norm_multiset_sum_le _) ?_
    rw [Multiset.map_map]
    refine Multiset.sum_lt_sum_of_nonempty hne fun r hr => ?_
    simp only [Function.comp, norm_div, norm_one]
    have h := hroots r hr
    rw [norm_div] at h
    exact one_div_lt_one_div_of_lt (by rw [← norm_div]; positivity) h
  rw [← hs, Multiset.map_const', Multiset.sum_replicate, hcard, nsmul_eq_mul] at h1
  have h2 : ‖p.eval z / (Polynomial.derivative p).eval z‖ = 1 / ‖(Polynomial.derivative p).eval z / p.eval z‖ := by
    rw [norm_div, norm_div, one_div_div]
  have h3 : 0 < ‖(Polynomial.derivative p).eval z / p.eval z‖ := norm_pos_iff.2 (div_ne_zero hd h0)
  rw [h2] at h1
  have hn' : (p.natDegree : ℝ) ≠ 0 := by exact_mod_cast hn
  field_simp at h1
  exact lt_irrefl _ h1

/-- The value with both parts NaN. -/
def nanCx : Cx (Fl F) := ⟨.nan, .nan⟩

theorem nan_abs (a : Cx (Fl F)) (h : a.re = .nan) : Cx.abs a = .nan := by
  unfold Cx.abs
  rw [h]
  rfl

theorem sub_nanCx (a : Cx (Fl F)) : a - nanCx = nanCx := by
  show (⟨a.re - .nan, a.im - .nan⟩ : Cx (Fl F)) = ⟨.nan, .nan⟩
  have h : ∀ x : Fl F, x - Fl.nan = Fl.nan := by intro x; cases x <;> rfl
  rw [h, h]

theorem nanCx_div (b : Cx (Fl F)) : (nanCx : Cx (Fl F)) / b = nanCx := by
  show (⟨_, _⟩ : Cx (Fl F)) = ⟨.nan, .nan⟩
  congr 1

theorem cx_div_zero (a : ℂ) : (cx a : Cx (Fl F)) / cx 0 = nanCx := by
  show (⟨_, _⟩ : Cx (Fl F)) = ⟨.nan, .nan⟩
  simp only [cx, Complex.zero_re, Complex.zero_im, fl, mul_zero, add_zero, sub_zero]

theorem nanCx_mul (b : Cx (Fl F)) : (nanCx : Cx (Fl F)) * b = nanCx := by
  show (⟨_, _⟩ : Cx (Fl F)) = ⟨.nan, .nan⟩
  congr 1

theorem nan_not_le (b : Fl F) : le (.nan : Fl F) b = false := rfl
theorem le_nan (a : Fl F) : le a (.nan : Fl F) = false := by cases a <;> rfl

theorem mul_nanv (a : Fl F) : a * (.nan : Fl F) = .nan := by cases a <;> rfl

theorem newton_nan (f : Cx (Fl F) → Cx (Fl F) × Cx (Fl F)) (fuel : ℕ) : complexNewton f fuel nanCx = none := by
  induction fuel with
  | zero => rfl
  | succ n ih =>
    unfold complexNewton
    have h : (nanCx : Cx (Fl F)) - (f nanCx).1 / (f nanCx).2 = nanCx := by
      show (⟨_, _⟩ : Cx (Fl F)) = ⟨.nan, .nan⟩
      congr 1
    simp only [h, nanCx_mul]
    rw [nan_abs nanCx rfl, mul_nanv, le_nan, if_neg (by simp)]
    exact ih

/-- The program's function computes the polynomial and its derivative. -/
def Computes (f : Cx (Fl F) → Cx (Fl F) × Cx (Fl F)) (p : Polynomial ℂ) : Prop :=
  ∀ z : ℂ, f (cx z) = (cx (p.eval z), cx ((Polynomial.derivative p).eval z))

/-- One step of the loop away from the critical points. -/
theorem newton_step {f : Cx (Fl F) → Cx (Fl F) × Cx (Fl F)} {p : Polynomial ℂ} (hf : Computes f p) (fuel : ℕ) (z : ℂ)
    (hd : (Polynomial.derivative p).eval z ≠ 0) :
    complexNewton f (fuel + 1) (cx z) =
      if ‖p.eval z‖ ≤ 7 / 5 * F.eps * ‖(z - p.eval z / (Polynomial.derivative p).eval z) * (Polynomial.derivative p).eval z‖ then
        some (cx (z - p.eval z / (Polynomial.derivative p).eval z))
      else complexNewton f fuel (cx (z - p.eval z / (Polynomial.derivative p).eval z)) := by
  conv_lhs => unfold complexNewton
  simp only [hf z, cx_div _ hd, cx_sub, cx_mul, cx_abs, lit_def, fl]
  norm_num

theorem newton_critical {f : Cx (Fl F) → Cx (Fl F) × Cx (Fl F)} {p : Polynomial ℂ} (hf : Computes f p) (fuel : ℕ) (z : ℂ)
    (hd : (Polynomial.derivative p).eval z = 0) : complexNewton f fuel (cx z) = none := by
  cases fuel with
  | zero => rfl
  | succ fuel =>
    unfold complexNewton
    simp only [hf z, hd, cx_div_zero, sub_nanCx, nanCx_mul]
    rw [nan_abs nanCx rfl, mul_nanv, le_nan, if_neg (by simp)]
    exact newton_nan f fuel

/-- C97: whatever polynomial is passed and wherever the search starts, a value that `complex_newton` returns is, up to
`7/5 (degree + 1)` units of its last place, a zero of the polynomial. -/
theorem C97_root {f : Cx (Fl F) → Cx (Fl F) × Cx (Fl F)} {p : Polynomial ℂ} (hf : Computes f p) (fuel : ℕ) (z : ℂ) (w : Cx (Fl F))
    (h : complexNewton f fuel (cx z) = some w) :
    ∃ ζ ρ : ℂ, w = cx ζ ∧ p.eval ρ = 0 ∧ ‖ζ - ρ‖ ≤ 7 / 5 * (p.natDegree + 1) * F.eps * ‖ζ‖ := by
  induction fuel generalizing z with
  | zero => simp [complexNewton] at h
  | succ fuel ih =>
    by_cases hd : (Polynomial.derivative p).eval z = 0
    · rw [newton_critical hf _ _ hd] at h
      simp at h
    rw [newton_step hf _ _ hd] at h
    split at h
    · rename_i ht
      obtain ⟨ρ, hρ, hb⟩ := root_within p z hd
      simp only [Option.some.injEq] at h
      refine ⟨_, ρ, h.symm, hρ, ?_⟩
      have hd' : 0 < ‖(Polynomial.derivative p).eval z‖ := norm_pos_iff.2 hd
      have ht' : ‖p.eval z / (Polynomial.derivative p).eval z‖ ≤ 7 / 5 * F.eps * ‖z - p.eval z / (Polynomial.derivative p).eval z‖ := by
        rw [norm_div, div_le_iff₀ hd']
        rw [norm_mul] at ht
        linarith
      generalize hq : p.eval z / (Polynomial.derivative p).eval z = q at *
      have h1 : ‖z - q - ρ‖ ≤ ‖z - ρ‖ + ‖q‖ := by
        calc ‖z - q - ρ‖ = ‖(z - ρ) - q‖ := by ring_nf
          _ ≤ _ := norm_sub_le _ _
      have hn : (0:ℝ) ≤ p.natDegree + 1 := by positivity
      nlinarith [mul_le_mul_of_nonneg_left ht' hn]
    · exact ih _ h

theorem computes_g : Computes (F := F) g gPoly := by
  intro z
  obtain ⟨w, dw, h, hw, hd⟩ := C96_g (F := F) z
  rw [h, gPoly_eval, gPoly_deriv, hw]
  congr 2
  have h2 : HasDerivAt (fun z : ℂ => z ^ 8 + 15 * z ^ 4 - 16) (8 * z ^ 7 + 60 * z ^ 3) z := by
    have h := ((hasDerivAt_pow 8 z).add ((hasDerivAt_pow 4 z).const_mul 15)).sub_const 16
    refine h.congr_deriv ?_
    push_cast
    ring
  exact hd.unique h2

/-- C97: a pixel of the fractal is coloured by a value within `63/5` units in the last place of one of the eight marked roots. -/
theorem C97_fractal (fuel : ℕ) (z : ℂ) (w : Cx (Fl F)) (h : complexNewton g fuel (cx z) = some w) :
    ∃ ζ ρ : ℂ, w = cx ζ ∧ (∃ k ∈ (roots : List (Cx (Fl F))), k = cx ρ) ∧ ‖ζ - ρ‖ ≤ 63 / 5 * F.eps * ‖ζ‖ := by
  obtain ⟨ζ, ρ, h1, h2, h3⟩ := C97_root computes_g fuel z w h
  rw [gPoly_eval] at h2
  refine ⟨ζ, ρ, h1, (C96_roots ρ).1 h2, ?_⟩
  rw [gPoly_degree] at h3
  push_cast at h3
  linarith

/-- C97: the search from the origin, a critical point, never ends. -/
theorem C97_zero_false (fuel : ℕ) : complexNewton g fuel (cx 0 : Cx (Fl F)) = none :=
  newton_critical computes_g fuel 0 (by rw [gPoly_deriv]; norm_num)

/-! ## C91: the marks -/

/-- Stores in range that may repeat addresses, but agree on what they store. -/
theorem foldl_store_agree {α : Type} (v : ℕ → α) (ws : List (ℤ × α)) (a : List α) (hr : ∀ w ∈ ws, 0 ≤ w.1 ∧ w.1 < a.length)
    (hv : ∀ w ∈ ws, w.2 = v w.1.toNat) :
    ∃ b, ws.foldl store (some a) = some b ∧ b.length = a.length ∧
      ∀ n < a.length, ((n : ℤ) ∈ ws.map Prod.fst → b[n]? = some (v n)) ∧ ((n : ℤ) ∉ ws.map Prod.fst → b[n]? = a[n]?) := by
  induction ws generalizing a with
  | nil => exact ⟨a, rfl, rfl, by simp⟩
  | cons w ws ih =>
    have hw := hr w (by simp)
    obtain ⟨b, h1, h2, h3⟩ := ih (a.set w.1.toNat w.2) (by simpa using fun x y h => hr (x, y) (by simp [h]))
      (fun x hx => hv x (by simp [hx]))
    refine ⟨b, ?_, by simpa using h2, fun n hn => ?_⟩
    · rw [List.foldl_cons]
      have : store (some a) w = some (a.set w.1.toNat w.2) := by unfold store; simp [hw.1, hw.2]
      rw [this, h1]
    obtain ⟨h4, h5⟩ := h3 n (by simpa using hn)
    have hw2 := hv w (by simp)
    rw [List.map_cons]
    constructor
    · intro h
      by_cases h6 : (n : ℤ) ∈ ws.map Prod.fst
      · exact h4 h6
      · rw [h5 h6]
        have h7 : (n : ℤ) = w.1 := by
          rcases List.mem_cons.1 h with h | h
          · exact h
          · exact absurd h h6
        have h8 : w.1.toNat = n := by omega
        rw [h8, List.getElem?_set_self hn, hw2, h8]
    · intro h
      rw [List.mem_cons, not_or] at h
      rw [h5 h.2, List.getElem?_set_ne]
      have := h.1
      omega

/-- The pixel in which a coordinate lies. -/
noncomputable def centre (x : ℝ) : ℤ := ⌊4095 * (x + 2) / 4 + 1 / 2⌋

/-- The pixels of the black discs: at most 7 pixels from a root, without the rightmost and the topmost pixel. -/
def Marked (i j : ℕ) : Prop :=
  ∃ ρ : ℂ, ρ ^ 8 + 15 * ρ ^ 4 - 16 = 0 ∧ ((i : ℤ) - centre ρ.re) ^ 2 + ((j : ℤ) - centre ρ.im) ^ 2 ≤ 49 ∧ (i : ℤ) < centre ρ.re + 7 ∧
    (j : ℤ) < centre ρ.im + 7

theorem eightRoots_bound : ∀ ρ ∈ eightRoots, |ρ.re| ≤ 3 / 2 ∧ |ρ.im| ≤ 3 / 2 := by
  have h0 := Real.sqrt_nonneg 2
  have h1 : Real.sqrt 2 ≤ 3 / 2 := by rw [Real.sqrt_le_left (by norm_num)]; norm_num
  intro ρ hρ
  simp only [eightRoots, List.mem_cons, List.not_mem_nil, or_false] at hρ
  rcases hρ with rfl | rfl | rfl | rfl | rfl | rfl | rfl | rfl <;> simp [abs_of_nonneg h0, h1] <;> norm_num

theorem mem_eightRoots (z : ℂ) : z ∈ eightRoots ↔ z ^ 8 + 15 * z ^ 4 - 16 = 0 := by
  rw [C96_roots (F := exact64), roots_eq]
  constructor
  · intro h; exact ⟨_, List.mem_map_of_mem h, rfl⟩
  · rintro ⟨k, hk, rfl⟩
    obtain ⟨a, ha, he⟩ := List.mem_map.1 hk
    have h1 := congrArg Cx.re he
    have h2 := congrArg Cx.im he
    simp only [cx, fin_inj] at h1 h2
    rw [← Complex.ext h1 h2]
    exact ha

theorem toPixel_main (z : ℂ) (h : |z.re| ≤ 3 / 2 ∧ |z.im| ≤ 3 / 2) :
    PlaneMap.toPixel (mainMap : PlaneMap (Fl F)) (cx z) = some (centre z.re, centre z.im) ∧
      511 ≤ centre z.re ∧ centre z.re ≤ 3585 ∧ 511 ≤ centre z.im ∧ centre z.im ≤ 3585 := by
  have key : ∀ x : ℝ, |x| ≤ 3 / 2 → llround (lit (((4096 : ℕ) : ℚ) - 1) * (fin x - -2) / (2 * Scalar.abs (-2)) : Fl F) = some (centre x) ∧
      511 ≤ centre x ∧ centre x ≤ 3585 := by
    intro x hx
    rw [abs_le] at hx
    refine ⟨?_, ?_, ?_⟩
    · rw [lit_def, ofNat_def, Fl.neg_fin, abs_fin, Fl.sub_fin, Fl.mul_fin, Fl.mul_fin, div_fin _ (by norm_num), llround_fin, if_pos]
      · congr 2
        norm_num
      · norm_num
        linarith
    · rw [centre, Int.le_floor]; push_cast; linarith
    · have h := Int.floor_le (4095 * (x + 2) / 4 + 1 / 2)
      have h2 : ((centre x : ℤ) : ℝ) < 3586 := by unfold centre; linarith
      have : centre x < 3586 := by exact_mod_cast h2
      omega
  obtain ⟨a1, a2, a3⟩ := key z.re h.1
  obtain ⟨b1, b2, b3⟩ := key z.im h.2
  refine ⟨?_, a2, a3, b2, b3⟩
  unfold PlaneMap.toPixel mainMap cx
  simp only
  rw [a1, b1]

theorem mem_disc (ic jc i j : ℤ) : (i, j) ∈ disc ic jc ↔ (i - ic) ^ 2 + (j - jc) ^ 2 ≤ 49 ∧ i < ic + 7 ∧ j < jc + 7 := by
  unfold disc
  simp only [List.mem_filter, List.mem_flatMap, List.mem_map, List.mem_range, Prod.mk.injEq, decide_eq_true_eq, not_lt, gt_iff_lt]
  constructor
  · rintro ⟨⟨a, ha, b, hb, rfl, rfl⟩, h⟩
    exact ⟨by nlinarith, by omega, by omega⟩
  · rintro ⟨h1, h2, h3⟩
    have h4 : -7 ≤ i - ic := by nlinarith [sq_nonneg (j - jc)]
    have h5 : -7 ≤ j - jc := by nlinarith [sq_nonneg (i - ic)]
    exact ⟨⟨(i - ic + 7).toNat, by omega, (j - jc + 7).toNat, by omega, by omega, by omega⟩, by nlinarith⟩

/-- The stores of the marks of roots with small coordinates. -/
theorem marks_main (zs : List ℂ) (h : ∀ z ∈ zs, |z.re| ≤ 3 / 2 ∧ |z.im| ≤ 3 / 2) :
    ∃ ws, marks (mainMap : PlaneMap (Fl F)) (zs.map cx) = some ws ∧
      ∀ w : ℤ × UInt8, w ∈ ws ↔ ∃ z ∈ zs, ∃ i j k : ℤ, (i - centre z.re) ^ 2 + (j - centre z.im) ^ 2 ≤ 49 ∧ i < centre z.re + 7 ∧
        j < centre z.im + 7 ∧ 0 ≤ k ∧ k < 4 ∧ w = (byteIndex 4096 4096 i j + k, if k = 3 then 255 else 0) := by
  induction zs with
  | nil => exact ⟨[], rfl, by simp⟩
  | cons z zs ih =>
    obtain ⟨ws, h1, h2⟩ := ih fun x hx => h x (by simp [hx])
    obtain ⟨h3, -⟩ := toPixel_main (F := F) z (h z (by simp))
    refine ⟨markStores 4096 4096 (disc (centre z.re) (centre z.im)) ++ ws, ?_, fun w => ?_⟩
    · rw [List.map_cons, marks, h3]
      simp only [h1, Option.map_some]
      rfl
    · rw [List.mem_append, h2 w]
      have h4 : w ∈ markStores 4096 4096 (disc (centre z.re) (centre z.im)) ↔ ∃ i j k : ℤ, (i - centre z.re) ^ 2 + (j - centre z.im) ^ 2 ≤ 49 ∧
          i < centre z.re + 7 ∧ j < centre z.im + 7 ∧ 0 ≤ k ∧ k < 4 ∧ w = (byteIndex 4096 4096 i j + k, if k = 3 then 255 else 0) := by
        unfold markStores
        rw [List.mem_flatMap]
        constructor
        · rintro ⟨⟨i, j⟩, hp, hw⟩
          obtain ⟨a, b, c⟩ := (mem_disc _ _ _ _).1 hp
          simp only [List.mem_cons, List.not_mem_nil, or_false] at hw
          rcases hw with rfl | rfl | rfl | rfl
          · exact ⟨i, j, 0, a, b, c, by norm_num, by norm_num, by simp⟩
          · exact ⟨i, j, 1, a, b, c, by norm_num, by norm_num, by simp⟩
          · exact ⟨i, j, 2, a, b, c, by norm_num, by norm_num, by simp⟩
          · exact ⟨i, j, 3, a, b, c, by norm_num, by norm_num, by simp⟩
        · rintro ⟨i, j, k, a, b, c, k0, k4, rfl⟩
          refine ⟨(i, j), (mem_disc _ _ _ _).2 ⟨a, b, c⟩, ?_⟩
          have : k = 0 ∨ k = 1 ∨ k = 2 ∨ k = 3 := by omega
          rcases this with rfl | rfl | rfl | rfl <;> simp
      rw [h4]
      simp

/-- C91: the marks only touch the pixels of the eight discs, all of which lie in the image, and make them black and opaque; every other
pixel keeps its own colour. -/
theorem C91_marks (l : List ((ℕ × ℕ) × (Fin 4 → UInt8))) (h : l.map Prod.fst = tasks 4096 (List.range 4096)) :
    ∃ ws img, marks (mainMap : PlaneMap (Fl F)) roots = some ws ∧
      (stores 4096 4096 l ++ ws).foldl store (some (blank 4096 4096)) = some img ∧ img.length = 4 * 4096 * 4096 ∧
      ∀ i j p, ((i, j), p) ∈ l → i < 4096 ∧ j < 4096 ∧ ∀ k : Fin 4,
        (Marked i j → img[4 * (4096 * (4095 - j) + i) + k]? = some (if k = 3 then 255 else 0)) ∧
        (¬ Marked i j → img[4 * (4096 * (4095 - j) + i) + k]? = some (p k)) := by
  obtain ⟨ws, h1, h2⟩ := marks_main (F := F) eightRoots eightRoots_bound
  obtain ⟨img, h3, h4, h5⟩ := C83_schedule 4096 4096 l (by rw [h]) _ (List.Perm.refl _)
  have hb : ∀ z ∈ eightRoots, ∀ i j : ℤ, (i - centre z.re) ^ 2 + (j - centre z.im) ^ 2 ≤ 49 → 0 ≤ i ∧ i < 4096 ∧ 0 ≤ j ∧ j < 4096 := by
    intro z hz i j hij
    obtain ⟨-, a, b, c, d⟩ := toPixel_main (F := F) z (eightRoots_bound z hz)
    have e1 : -7 ≤ i - centre z.re ∧ i - centre z.re ≤ 7 := abs_le_of_sq_le_sq' (by nlinarith [sq_nonneg (j - centre z.im)]) (by norm_num)
    have e2 : -7 ≤ j - centre z.im ∧ j - centre z.im ≤ 7 := abs_le_of_sq_le_sq' (by nlinarith [sq_nonneg (i - centre z.re)]) (by norm_num)
    omega
  obtain ⟨img', h6, h7, h8⟩ := foldl_store_agree (fun n => if n % 4 = 3 then 255 else 0) ws img (by
    intro w hw
    obtain ⟨z, hz, i, j, k, hij, -, -, k0, k4, rfl⟩ := (h2 w).1 hw
    have := hb z hz i j hij
    rw [h4]
    unfold byteIndex
    simp only
    push_cast
    omega) (by
    intro w hw
    obtain ⟨z, hz, i, j, k, hij, -, -, k0, k4, rfl⟩ := (h2 w).1 hw
    have := hb z hz i j hij
    simp only
    congr 1
    unfold byteIndex
    rw [eq_iff_iff]
    omega)
  refine ⟨ws, img', by rw [roots_eq, h1], by rw [List.foldl_append, h3, h6], by rw [h7, h4], fun i j p hp => ?_⟩
  obtain ⟨hi, hj, hk⟩ := h5 i j p hp
  refine ⟨hi, hj, fun k => ?_⟩
  obtain ⟨h9, h10⟩ := h8 (4 * (4096 * (4095 - j) + i) + k) (by rw [h4]; omega)
  have hk3 : (k = 3) ↔ (4 * (4096 * (4095 - j) + i) + (k : ℕ)) % 4 = 3 := by
    have := k.isLt
    constructor
    · intro h; rw [h]; show (_ + 3) % 4 = 3; omega
    · intro h; apply Fin.ext; show (k : ℕ) = 3; omega
  have hmem : ((4 * (4096 * (4095 - j) + i) + k : ℕ) : ℤ) ∈ ws.map Prod.fst ↔ Marked i j := by
    rw [List.mem_map]
    constructor
    · rintro ⟨w, hw, he⟩
      obtain ⟨z, hz, i', j', k', hij, hi', hj', k0, k4, rfl⟩ := (h2 w).1 hw
      have hb' := hb z hz i' j' hij
      have hkl := k.isLt
      unfold byteIndex at he
      simp only at he
      have e : i' = i ∧ j' = j := by push_cast [Nat.cast_sub (show j ≤ 4095 by omega)] at he; omega
      obtain ⟨rfl, rfl⟩ := e
      exact ⟨z, (mem_eightRoots z).1 hz, hij, hi', hj'⟩
    · rintro ⟨z, hz, hij, hi', hj'⟩
      refine ⟨_, (h2 _).2 ⟨z, (mem_eightRoots z).2 hz, i, j, k, hij, hi', hj', by positivity, by exact_mod_cast k.isLt, rfl⟩, ?_⟩
      unfold byteIndex
      simp only
      push_cast [Nat.cast_sub (show j ≤ 4095 by omega)]
      omega
  constructor
  · intro hm
    rw [h9 (hmem.2 hm)]
    simp only [hk3]
  · intro hm
    rw [h10 (fun h => hm (hmem.1 h)), ← hk k]

theorem raster_fst (fuel : ℕ) (m : PlaneMap (Fl F)) (ts : List (ℕ × ℕ)) (l : List ((ℕ × ℕ) × (Fin 4 → UInt8))) (h : raster fuel m ts = some l) :
    l.map Prod.fst = ts ∧ ∀ i j p, ((i, j), p) ∈ l → pixel fuel m i j = some p := by
  induction ts generalizing l with
  | nil => simp only [raster, Option.some.injEq] at h; subst h; simp
  | cons t ts ih =>
    obtain ⟨i, j⟩ := t
    rw [raster] at h
    split at h
    · cases h
    · rename_i p hp
      rw [Option.map_eq_some_iff] at h
      obtain ⟨l', hl', rfl⟩ := h
      obtain ⟨h1, h2⟩ := ih l' hl'
      refine ⟨by rw [List.map_cons, h1], fun a b q hq => ?_⟩
      rcases List.mem_cons.1 hq with hq | hq
      · simp only [Prod.mk.injEq] at hq
        obtain ⟨⟨rfl, rfl⟩, rfl⟩ := hq
        exact hp
      · exact h2 a b q hq

theorem raster_some (fuel : ℕ) (m : PlaneMap (Fl F)) (ts : List (ℕ × ℕ)) (h : ∀ t ∈ ts, (pixel fuel m t.1 t.2).isSome) :
    ∃ l, raster fuel m ts = some l := by
  induction ts with
  | nil => exact ⟨[], rfl⟩
  | cons t ts ih =>
    obtain ⟨i, j⟩ := t
    obtain ⟨l, hl⟩ := ih fun t ht => h t (by simp [ht])
    obtain ⟨p, hp⟩ := Option.isSome_iff_exists.1 (h (i, j) (by simp))
    exact ⟨((i, j), p) :: l, by rw [raster, hp]; simp [hl]⟩

/-- C91: if the searches from all pixels end, `main` has no undefined behaviour, the image has four bytes for each of its 4096² pixels, the
pixel `(i, j)` counted from the lower left is black and opaque if it belongs to a mark, and otherwise has the colour of the root that the
search from its own point of the plane returns. -/
theorem C91_image (fuel : ℕ) (h : ∀ i j, i < 4096 → j < 4096 → (pixel fuel (mainMap : PlaneMap (Fl F)) i j).isSome) :
    ∃ img, Fractal.image fuel (mainMap : PlaneMap (Fl F)) = some img ∧ img.length = 4 * 4096 * 4096 ∧
      ∀ i j, i < 4096 → j < 4096 → ∀ k : Fin 4,
        (Marked i j → img[4 * (4096 * (4095 - j) + i) + k]? = some (if k = 3 then 255 else 0)) ∧
        (¬ Marked i j → ∃ p, pixel fuel (mainMap : PlaneMap (Fl F)) i j = some p ∧ img[4 * (4096 * (4095 - j) + i) + k]? = some (p k)) := by
  obtain ⟨l, hl⟩ := raster_some fuel (mainMap : PlaneMap (Fl F)) (tasks 4096 (List.range 4096)) (by
    rintro ⟨i, j⟩ ht
    rw [mem_tasks, List.mem_range] at ht
    exact h i j ht.1 ht.2)
  obtain ⟨h1, h2⟩ := raster_fst _ _ _ _ hl
  obtain ⟨ws, img, h3, h4, h5, h6⟩ := C91_marks (F := F) l h1
  refine ⟨img, ?_, h5, fun i j hi hj k => ?_⟩
  · unfold Fractal.image
    have e1 : (mainMap : PlaneMap (Fl F)).width = 4096 := rfl
    have e2 : (mainMap : PlaneMap (Fl F)).height = 4096 := rfl
    rw [e1, e2, hl, h3]
    exact h4
  · have hm : (i, j) ∈ l.map Prod.fst := by rw [h1, mem_tasks, List.mem_range]; exact ⟨hi, hj⟩
    obtain ⟨⟨⟨a, b⟩, p⟩, hp, he⟩ := List.mem_map.1 hm
    simp only [Prod.mk.injEq] at he
    obtain ⟨rfl, rfl⟩ := he
    obtain ⟨-, -, h7⟩ := h6 _ _ p hp
    exact ⟨(h7 k).1, fun hn => ⟨p, h2 _ _ p hp, (h7 k).2 hn⟩⟩

/-! ## C97: termination -/

/-- One step of Newton's method. -/
noncomputable def newtonStep (p : Polynomial ℂ) (z : ℂ) : ℂ := z - p.eval z / (Polynomial.derivative p).eval z

theorem newton_reaches {f : Cx (Fl F) → Cx (Fl F) × Cx (Fl F)} {p : Polynomial ℂ} (hf : Computes f p) (n : ℕ) (z : ℂ)
    (hd : ∀ k ≤ n, (Polynomial.derivative p).eval ((newtonStep p)^[k] z) ≠ 0)
    (ht : ‖(newtonStep p)^[n] z - (newtonStep p)^[n + 1] z‖ ≤ 7 / 5 * F.eps * ‖(newtonStep p)^[n + 1] z‖) :
    ∃ w, complexNewton f (n + 1) (cx z) = some w := by
  induction n generalizing z with
  | zero =>
    have hd0 := hd 0 le_rfl
    simp only [Function.iterate_zero, id] at hd0
    rw [newton_step hf _ _ hd0, if_pos]
    · exact ⟨_, rfl⟩
    · simp only [Function.iterate_zero, id, zero_add, Function.iterate_one, newtonStep, sub_sub_cancel] at ht
      have hd' : 0 < ‖(Polynomial.derivative p).eval z‖ := norm_pos_iff.2 hd0
      rw [norm_div, div_le_iff₀ hd'] at ht
      rw [norm_mul]
      linarith
  | succ n ih =>
    have hd0 := hd 0 (by omega)
    simp only [Function.iterate_zero, id] at hd0
    rw [newton_step hf _ _ hd0]
    split
    · exact ⟨_, rfl⟩
    · exact ih (newtonStep p z) (fun k hk => by rw [← Function.iterate_succ_apply]; exact hd (k + 1) (by omega))
        (by rw [← Function.iterate_succ_apply, ← Function.iterate_succ_apply]; exact ht)

/-- C97: the loop returns from every starting point from which Newton's method converges, unless it converges to 0. -/
theorem C97_converges {f : Cx (Fl F) → Cx (Fl F) × Cx (Fl F)} {p : Polynomial ℂ} (hf : Computes f p) (z ρ : ℂ) (hρ : ρ ≠ 0)
    (hd : ∀ k, (Polynomial.derivative p).eval ((newtonStep p)^[k] z) ≠ 0)
    (hc : Filter.Tendsto (fun k => (newtonStep p)^[k] z) Filter.atTop (nhds ρ)) :
    ∃ fuel w, complexNewton f fuel (cx z) = some w := by
  have h1 : Filter.Tendsto (fun k => (newtonStep p)^[k + 1] z) Filter.atTop (nhds ρ) := hc.comp (Filter.tendsto_add_atTop_nat 1)
  have h2 : Filter.Tendsto (fun k => ‖(newtonStep p)^[k] z - (newtonStep p)^[k + 1] z‖) Filter.atTop (nhds 0) := by
    have := (hc.sub h1).norm
    simpa using this
  have h3 : Filter.Tendsto (fun k => 7 / 5 * F.eps * ‖(newtonStep p)^[k + 1] z‖) Filter.atTop (nhds (7 / 5 * F.eps * ‖ρ‖)) :=
    (h1.norm).const_mul _
  have heps := Fmt.Exact.eps_pos (F := F)
  have hpos : 0 < 7 / 5 * F.eps * ‖ρ‖ := by
    have := norm_pos_iff.2 hρ
    positivity
  obtain ⟨n, hn⟩ := ((h2.eventually_lt h3 hpos)).exists
  obtain ⟨w, hw⟩ := newton_reaches hf n z (fun k _ => hd k) hn.le
  exact ⟨n + 1, w, hw⟩

/-- The polynomial of `g` and its derivative at real points. -/
theorem newtonStep_real (x : ℝ) : newtonStep gPoly (x : ℂ) = ((x - (x ^ 8 + 15 * x ^ 4 - 16) / (8 * x ^ 7 + 60 * x ^ 3) : ℝ) : ℂ) := by
  rw [newtonStep, gPoly_eval, gPoly_deriv]
  push_cast
  rfl

/-- C97: the search from every point of the positive real axis ends. -/
theorem C97_positive (x : ℝ) (hx : 0 < x) : ∃ fuel w, complexNewton g fuel (cx (x : ℂ) : Cx (Fl F)) = some w := by
  set N : ℝ → ℝ := fun x => x - (x ^ 8 + 15 * x ^ 4 - 16) / (8 * x ^ 7 + 60 * x ^ 3) with hN
  have hit : ∀ k, (newtonStep gPoly)^[k] (x : ℂ) = ((N^[k] x : ℝ) : ℂ) := by
    intro k
    induction k with
    | zero => rfl
    | succ k ih => rw [Function.iterate_succ_apply', Function.iterate_succ_apply', ih, newtonStep_real]
  have hd : ∀ y : ℝ, 0 < y → 0 < 8 * y ^ 7 + 60 * y ^ 3 := fun y hy => by positivity
  have h1 : ∀ y : ℝ, 0 < y → 1 ≤ N y := by
    intro y hy
    have e : N y - 1 = (y - 1) ^ 2 * ((7 * y ^ 6 + 6 * y ^ 5 + 5 * y ^ 4 + 4 * y ^ 3 + 3 * y ^ 2 + 2 * y + 1) + 15 * (3 * y ^ 2 + 2 * y + 1)) /
        (8 * y ^ 7 + 60 * y ^ 3) := by
      have := (hd y hy).ne'
      rw [hN]
      simp only
      field_simp
      ring
    have : 0 ≤ N y - 1 := by rw [e]; exact div_nonneg (by positivity) (hd y hy).le
    linarith
  have h2 : ∀ y : ℝ, 1 ≤ y → N y ≤ y := by
    intro y hy
    have h4 : 1 ≤ y ^ 4 := one_le_pow₀ hy
    have : 0 ≤ (y ^ 8 + 15 * y ^ 4 - 16) / (8 * y ^ 7 + 60 * y ^ 3) :=
      div_nonneg (by nlinarith [show y ^ 8 = y ^ 4 * y ^ 4 by ring]) (hd y (by linarith)).le
    rw [hN]
    simp only
    linarith
  have hpos : ∀ k, 0 < N^[k] x := by
    intro k
    induction k with
    | zero => exact hx
    | succ k ih => rw [Function.iterate_succ_apply']; linarith [h1 _ ih]
  have hge : ∀ k, 1 ≤ N^[k + 1] x := fun k => by rw [Function.iterate_succ_apply']; exact h1 _ (hpos k)
  have hanti : Antitone fun k => N^[k + 1] x := antitone_nat_of_succ_le fun k => by
    rw [Function.iterate_succ_apply' _ (k + 1)]
    exact h2 _ (hge k)
  obtain ⟨L, hL⟩ : ∃ L, Filter.Tendsto (fun k => N^[k + 1] x) Filter.atTop (nhds L) :=
    ⟨_, tendsto_atTop_ciInf hanti ⟨1, by rintro _ ⟨k, rfl⟩; exact hge k⟩⟩
  have hL1 : 1 ≤ L := ge_of_tendsto' hL hge
  refine C97_converges computes_g x L (by exact_mod_cast (by linarith : L ≠ 0)) (fun k => ?_) ?_
  · rw [hit, gPoly_deriv]
    exact_mod_cast (hd _ (hpos k)).ne'
  · have : Filter.Tendsto (fun k => N^[k] x) Filter.atTop (nhds L) := (Filter.tendsto_add_atTop_iff_nat 1).1 hL
    simp only [hit]
    exact (Complex.continuous_ofReal.tendsto L).comp this

/-! ## C98 -/

/-- C98: the position of a finite value on the colour map is its angle, as a fraction of a turn. -/
theorem C98_angle (z : ℂ) : ∃ u : ℝ, angle (cx z : Cx (Fl F)) = fin u ∧ 0 ≤ u ∧ u < 1 ∧ z = ‖z‖ * Complex.exp (2 * Real.pi * u * Complex.I) := by
  have hp := Real.pi_pos
  have hn : ‖z‖ = Real.sqrt (z.re ^ 2 + z.im ^ 2) := by rw [Complex.norm_def, Complex.normSq_apply]; ring_nf
  have harg : atan2 (fin z.im : Fl F) (fin z.re) = fin z.arg := by rw [atan2_fin]; rfl
  have h1 := Complex.neg_pi_lt_arg z
  have h2 := Complex.arg_le_pi z
  have h2p : (2 : ℝ) * Real.pi ≠ 0 := by positivity
  have h2pi : (2 : Fl F) * pi = fin (2 * Real.pi) := by rw [ofNat_def, pi_def, Fl.mul_fin]; norm_num
  have key : ∀ t : ℝ, (t = z.arg ∨ t = z.arg + 2 * Real.pi) → z = ‖z‖ * Complex.exp (2 * Real.pi * ((t / (2 * Real.pi) : ℝ) : ℂ) * Complex.I) := by
    intro t ht
    have e : (2 * Real.pi * ((t / (2 * Real.pi) : ℝ) : ℂ) : ℂ) = t := by
      rw [Complex.ofReal_div]
      push_cast
      have : (2 * Real.pi : ℂ) ≠ 0 := by exact_mod_cast h2p
      field_simp
    rw [e]
    rcases ht with rfl | rfl
    · exact (Complex.norm_mul_exp_arg_mul_I z).symm
    · push_cast
      rw [add_mul, Complex.exp_add, Complex.exp_two_pi_mul_I, mul_one]
      exact (Complex.norm_mul_exp_arg_mul_I z).symm
  unfold angle
  simp only [cx, harg, ofNat_zero, lt_fin, h2pi]
  by_cases h : z.arg < 0
  · rw [if_pos (by simpa using h), Fl.add_fin, div_fin _ h2p]
    exact ⟨_, rfl, div_nonneg (by linarith) (by linarith), (div_lt_one (by linarith)).2 (by linarith), key _ (Or.inr rfl)⟩
  · rw [if_neg (by simpa using h), div_fin _ h2p]
    push Not at h
    exact ⟨_, rfl, div_nonneg h (by linarith), (div_lt_one (by linarith)).2 (by linarith), key _ (Or.inl rfl)⟩

/-- C98: every finite value has a colour, which is opaque; so the program has no undefined behaviour once the searches end. -/
theorem C98_defined (z : ℂ) : ∃ p, rootPixel (cx z : Cx (Fl F)) = some p ∧ p 3 = 255 := by
  obtain ⟨u, hu, -⟩ := C98_angle (F := F) z
  obtain ⟨v, h2, h3⟩ := C89_range (F := F) ColorTables.smoothCoolWarm (by simp) (fin u) (by simp)
  obtain ⟨p, h4, -, -, -, h5⟩ := C88_pixel (F := F) (cv v) (fun i => by rw [cv_apply, le_fin]; simpa using (h3 i).1)
  exact ⟨p, by rw [rootPixel, hu, h2, Option.bind_some, h4], h5⟩

/-- C98: the pixel is defined exactly if the search from it ends. -/
theorem C98_pixel (fuel : ℕ) (z : ℂ) : ((complexNewton g fuel (cx z : Cx (Fl F))).bind rootPixel).isSome = (complexNewton g fuel (cx z : Cx (Fl F))).isSome := by
  rcases h : complexNewton g fuel (cx z : Cx (Fl F)) with _ | w
  · rfl
  · obtain ⟨ζ, -, rfl, -⟩ := C97_fractal fuel z w h
    obtain ⟨p, hp, -⟩ := C98_defined (F := F) ζ
    simp [hp]

theorem angle_upper {z : ℂ} (h : 0 ≤ z.im) : angle (cx z : Cx (Fl F)) = fin (z.arg / (2 * Real.pi)) := by
  have harg : atan2 (fin z.im : Fl F) (fin z.re) = fin z.arg := by rw [atan2_fin]; rfl
  have h2p : (2 : ℝ) * Real.pi ≠ 0 := by have := Real.pi_pos; positivity
  have h2pi : (2 : Fl F) * pi = fin (2 * Real.pi) := by rw [ofNat_def, pi_def, Fl.mul_fin]; norm_num
  unfold angle
  simp only [cx, harg, ofNat_zero, lt_fin, h2pi]
  rw [if_neg (by simpa using Complex.arg_nonneg_iff.2 h), div_fin _ h2p]

theorem angle_lower {z : ℂ} (h : z.im < 0) : angle (cx z : Cx (Fl F)) = fin (1 + z.arg / (2 * Real.pi)) := by
  have harg : atan2 (fin z.im : Fl F) (fin z.re) = fin z.arg := by rw [atan2_fin]; rfl
  have h2p : (2 : ℝ) * Real.pi ≠ 0 := by have := Real.pi_pos; positivity
  have h2pi : (2 : Fl F) * pi = fin (2 * Real.pi) := by rw [ofNat_def, pi_def, Fl.mul_fin]; norm_num
  unfold angle
  simp only [cx, harg, ofNat_zero, lt_fin, h2pi]
  rw [if_pos (by simpa using Complex.arg_neg_iff.2 h), Fl.add_fin, div_fin _ h2p]
  congr 1
  field_simp
  ring

/-- The quotient in the error of one step from near the root 1. -/
noncomputable def errorFactor (z : ℂ) : ℂ :=
  (7 * z ^ 6 + 6 * z ^ 5 + 5 * z ^ 4 + 4 * z ^ 3 + 3 * z ^ 2 + 2 * z + 1 + 15 * (3 * z ^ 2 + 2 * z + 1)) / (8 * z ^ 7 + 60 * z ^ 3)

theorem newtonStep_near_one {z : ℂ} (h : 8 * z ^ 7 + 60 * z ^ 3 ≠ 0) : newtonStep gPoly z = 1 + (z - 1) ^ 2 * errorFactor z := by
  rw [newtonStep, gPoly_eval, gPoly_deriv, errorFactor]
  generalize hD : 8 * z ^ 7 + 60 * z ^ 3 = D at h ⊢
  field_simp
  rw [← hD]
  ring

theorem near_one (c : ℂ) (ε : ℝ) (hε : 0 < ε) : ∀ᶠ δ : ℝ in nhdsWithin 0 (Set.Ioi 0), ∃ h : ℂ, ‖δ * c‖ < ε ∧
    complexNewton g 1 (cx (1 + δ * c) : Cx (Fl F)) = some (cx (1 + δ ^ 2 * c ^ 2 * h)) ∧ ‖h - 59 / 34‖ < 1 ∧
    |Complex.arg (1 + δ ^ 2 * c ^ 2 * h)| < ε := by
  have cont : Continuous fun δ : ℝ => (1 + δ * c : ℂ) := by fun_prop
  have hz0 : (1 + ((0 : ℝ) : ℂ) * c : ℂ) = 1 := by simp
  have hden : ∀ᶠ δ : ℝ in nhds 0, 8 * (1 + δ * c : ℂ) ^ 7 + 60 * (1 + δ * c : ℂ) ^ 3 ≠ 0 := by
    have : ContinuousAt (fun δ : ℝ => 8 * (1 + δ * c : ℂ) ^ 7 + 60 * (1 + δ * c : ℂ) ^ 3) 0 := by fun_prop
    refine this.eventually_ne ?_
    rw [hz0]
    norm_num
  have hcE : ContinuousAt (fun δ : ℝ => errorFactor (1 + δ * c)) 0 := by
    unfold errorFactor
    refine ContinuousAt.div (by fun_prop) (by fun_prop) ?_
    rw [hz0]
    norm_num
  have hE0 : errorFactor (1 + ((0 : ℝ) : ℂ) * c) = 59 / 34 := by rw [hz0, errorFactor]; norm_num
  have hE : ∀ᶠ δ : ℝ in nhds 0, ‖errorFactor (1 + δ * c) - 59 / 34‖ < 1 := by
    have : ContinuousAt (fun δ : ℝ => ‖errorFactor (1 + δ * c) - 59 / 34‖) 0 := (hcE.sub continuousAt_const).norm
    exact this.eventually_lt continuousAt_const (by rw [hE0]; simp)
  have hw : ∀ᶠ δ : ℝ in nhds 0, ‖(δ * c : ℂ)‖ < ε := by
    have : ContinuousAt (fun δ : ℝ => ‖(δ * c : ℂ)‖) 0 := by fun_prop
    exact this.eventually_lt continuousAt_const (by simpa using hε)
  have hcS : ContinuousAt (fun δ : ℝ => (1 + δ ^ 2 * c ^ 2 * errorFactor (1 + δ * c) : ℂ)) 0 :=
    continuousAt_const.add (ContinuousAt.mul (by fun_prop) hcE)
  have hS0 : (1 + ((0 : ℝ) : ℂ) ^ 2 * c ^ 2 * errorFactor (1 + ((0 : ℝ) : ℂ) * c) : ℂ) = 1 := by simp
  have harg : ∀ᶠ δ : ℝ in nhds 0, |Complex.arg (1 + δ ^ 2 * c ^ 2 * errorFactor (1 + δ * c))| < ε := by
    have hca : ContinuousAt Complex.arg (1 + ((0 : ℝ) : ℂ) ^ 2 * c ^ 2 * errorFactor (1 + ((0 : ℝ) : ℂ) * c)) := by
      rw [hS0]
      exact Complex.continuousAt_arg (by simp)
    have : ContinuousAt (fun δ : ℝ => |Complex.arg (1 + δ ^ 2 * c ^ 2 * errorFactor (1 + δ * c))|) 0 :=
      (ContinuousAt.comp (f := fun δ : ℝ => (1 + δ ^ 2 * c ^ 2 * errorFactor (1 + δ * c) : ℂ)) hca hcS).abs
    refine this.eventually_lt continuousAt_const ?_
    rw [hS0]
    simpa using hε
  have heps := Fmt.Exact.eps_pos (F := F)
  have htest : ∀ᶠ δ : ℝ in nhds 0, ‖(1 + δ * c : ℂ) - (1 + δ ^ 2 * c ^ 2 * errorFactor (1 + δ * c) : ℂ)‖ <
      7 / 5 * F.eps * ‖(1 + δ ^ 2 * c ^ 2 * errorFactor (1 + δ * c) : ℂ)‖ := by
    refine ContinuousAt.eventually_lt ((cont.continuousAt.sub hcS).norm) (continuousAt_const.mul hcS.norm) ?_
    rw [hS0, hz0]
    simpa using heps
  have hall := hden.and (hE.and (hw.and (harg.and htest)))
  filter_upwards [nhdsWithin_le_nhds hall] with δ hδ
  obtain ⟨h1, h2, h3, h4, h5⟩ := hδ
  refine ⟨errorFactor (1 + δ * c), h3, ?_, h2, h4⟩
  have hd : (Polynomial.derivative gPoly).eval (1 + δ * c) ≠ 0 := by rw [gPoly_deriv]; exact h1
  have hstep : 1 + δ * c - gPoly.eval (1 + δ * c) / (Polynomial.derivative gPoly).eval (1 + δ * c) =
      1 + δ ^ 2 * c ^ 2 * errorFactor (1 + δ * c) := by
    have := newtonStep_near_one h1
    rw [newtonStep] at this
    rw [this]
    ring
  rw [show (1 : ℕ) = 0 + 1 from rfl, newton_step computes_g _ _ hd, hstep, if_pos]
  rw [norm_mul, ← mul_assoc]
  have hd' : 0 < ‖(Polynomial.derivative gPoly).eval (1 + δ * c)‖ := norm_pos_iff.2 hd
  rw [← div_le_iff₀ hd', ← norm_div]
  have e : gPoly.eval (1 + δ * c) / (Polynomial.derivative gPoly).eval (1 + δ * c) = (1 + δ * c) - (1 + δ ^ 2 * c ^ 2 * errorFactor (1 + δ * c)) := by
    rw [← hstep]; ring
  rw [e]
  exact h5.le

/-- C98 fails at the root 1, where the ends of the colour map meet: arbitrarily near it there are two starting points, one whose search returns
a value coloured from the cool end of the map (red below 3/10) and one whose search returns a value coloured from its warm end (red
above 6/10). -/
theorem C98_seam_false (ε : ℝ) (hε : 0 < ε) : ∃ z z' ζ ζ' : ℂ, ∃ u u' : ℝ, ‖z - 1‖ < ε ∧ ‖z' - 1‖ < ε ∧
    complexNewton g 1 (cx z : Cx (Fl F)) = some (cx ζ) ∧ complexNewton g 1 (cx z' : Cx (Fl F)) = some (cx ζ') ∧
    angle (cx ζ : Cx (Fl F)) = fin u ∧ angle (cx ζ' : Cx (Fl F)) = fin u' ∧ u < ε ∧ 1 - ε < u' ∧
    ∃ v v' : Fin 3 → ℝ, ColorTables.smoothCoolWarm (fin u : Fl F) = some (cv v) ∧ ColorTables.smoothCoolWarm (fin u' : Fl F) = some (cv v') ∧
      v 0 < 3 / 10 ∧ 6 / 10 < v' 0 := by
  have hη : 0 < Min.min ε (1 / 1000) := by positivity
  obtain ⟨δ, ⟨⟨h, a1, a2, a3, a4⟩, ⟨h', b1, b2, b3, b4⟩⟩, hδ⟩ :=
    (((near_one (F := F) (1 + Complex.I) _ hη).and (near_one (F := F) (1 - Complex.I) _ hη)).and self_mem_nhdsWithin).exists
  have hδ : 0 < δ := hδ
  have hm1 := min_le_left ε (1 / 1000)
  have hm2 := min_le_right ε (1 / 1000)
  have hp := Real.two_le_pi
  have c1 : (1 + Complex.I : ℂ) ^ 2 = 2 * Complex.I := by linear_combination Complex.I_sq
  have c2 : (1 - Complex.I : ℂ) ^ 2 = -(2 * Complex.I) := by linear_combination Complex.I_sq
  have re_pos : ∀ h : ℂ, ‖h - 59 / 34‖ < 1 → 0 < h.re := by
    intro h hh
    have := (Complex.abs_re_le_norm (h - 59 / 34)).trans_lt hh
    rw [abs_lt] at this
    have e : (h - 59 / 34).re = h.re - 59 / 34 := by
      have : (59 / 34 : ℂ) = ((59 / 34 : ℝ) : ℂ) := by push_cast; rfl
      rw [this, Complex.sub_re, Complex.ofReal_re]
    rw [e] at this
    linarith [this.1]
  have im1 : (1 + δ ^ 2 * (1 + Complex.I) ^ 2 * h : ℂ).im = 2 * δ ^ 2 * h.re := by
    rw [c1, ← Complex.ofReal_pow]
    generalize δ ^ 2 = d
    simp
    ring_nf
    simp
  have im2 : (1 + δ ^ 2 * (1 - Complex.I) ^ 2 * h' : ℂ).im = -(2 * δ ^ 2 * h'.re) := by
    rw [c2, ← Complex.ofReal_pow]
    generalize δ ^ 2 = d
    simp
    ring_nf
    simp
  have p1 : 0 < (1 + δ ^ 2 * (1 + Complex.I) ^ 2 * h : ℂ).im := by rw [im1]; have := re_pos h a3; positivity
  have p2 : (1 + δ ^ 2 * (1 - Complex.I) ^ 2 * h' : ℂ).im < 0 := by
    rw [im2, neg_lt_zero]
    have := re_pos h' b3
    positivity
  rw [abs_lt] at a4 b4
  generalize (1 + δ ^ 2 * (1 + Complex.I) ^ 2 * h : ℂ) = ζ at *
  generalize (1 + δ ^ 2 * (1 - Complex.I) ^ 2 * h' : ℂ) = ζ' at *
  have g0 : 0 ≤ ζ.arg := Complex.arg_nonneg_iff.2 p1.le
  have g0' : ζ'.arg < 0 := Complex.arg_neg_iff.2 p2
  have q1 : ζ.arg / (2 * Real.pi) < Min.min ε (1 / 1000) := by rw [div_lt_iff₀ (by linarith)]; nlinarith
  have q2 : -Min.min ε (1 / 1000) < ζ'.arg / (2 * Real.pi) := by rw [lt_div_iff₀ (by linarith)]; nlinarith
  have q3 : 0 ≤ ζ.arg / (2 * Real.pi) := by positivity
  have q4 : ζ'.arg / (2 * Real.pi) < 0 := div_neg_of_neg_of_pos g0' (by linarith)
  have hmem : (ColorTables.smooth_cool_warm_r, ColorTables.smooth_cool_warm_g, ColorTables.smooth_cool_warm_b) ∈ colorMaps := by simp [colorMaps]
  have n0 := C90_nodes (F := F) _ hmem 0 (by norm_num)
  have n1 := C90_nodes (F := F) _ hmem 255 (by norm_num)
  have r0 : valueAt ColorTables.smooth_cool_warm_r 0 < 0.24 := by
    have : ColorTables.smooth_cool_warm_r.getD 0 0 < 24000000000000000000 := by decide +kernel
    unfold valueAt
    rw [div_lt_iff₀ (by positivity)]
    have : (ColorTables.smooth_cool_warm_r.getD 0 0 : ℝ) < 24000000000000000000 := by exact_mod_cast this
    linarith
  have r1 : 0.7 < valueAt ColorTables.smooth_cool_warm_r 255 := by
    have : 70000000000000000000 < ColorTables.smooth_cool_warm_r.getD 255 0 := by decide +kernel
    unfold valueAt
    rw [lt_div_iff₀ (by positivity)]
    have : (70000000000000000000 : ℝ) < (ColorTables.smooth_cool_warm_r.getD 255 0 : ℝ) := by exact_mod_cast this
    linarith
  obtain ⟨v, v0, e1, e2, e3⟩ := C90_lipschitz (F := F) ColorTables.smoothCoolWarm (by simp) (ζ.arg / (2 * Real.pi)) (((0 : ℕ) : ℝ) / 255)
  obtain ⟨w, w0, f1, f2, f3⟩ := C90_lipschitz (F := F) ColorTables.smoothCoolWarm (by simp) (1 + ζ'.arg / (2 * Real.pi)) (((255 : ℕ) : ℝ) / 255)
  have hv0 : v0 0 = valueAt ColorTables.smooth_cool_warm_r 0 := by
    have := Option.some.inj (e2.symm.trans n0)
    have := congrFun this 0
    simpa [cv_apply] using this
  have hw0 : w0 0 = valueAt ColorTables.smooth_cool_warm_r 255 := by
    have := Option.some.inj (f2.symm.trans n1)
    have := congrFun this 0
    simpa [cv_apply] using this
  have e4 := e3 0
  have f4 := f3 0
  refine ⟨_, _, ζ, ζ', _, _, ?_, ?_, a2, b2, angle_upper p1.le, angle_lower p2, by linarith, by linarith, v, w, e1, f1, ?_, ?_⟩
  · rw [add_sub_cancel_left]; linarith
  · rw [add_sub_cancel_left]; linarith
  · rw [hv0] at e4
    norm_num at e4
    rw [abs_of_nonneg q3, abs_le] at e4
    linarith [e4.2]
  · rw [hw0] at f4
    norm_num at f4
    rw [abs_of_neg q4, abs_le] at f4
    linarith [f4.1]

/-! ## C99 -/

/-- C99 fails: the test of `complex_halley` uses the derivative at the old point and the size of the new one, so one step that jumps far away is
accepted. There are starting points from which `z⁵ - 1` is said to have a zero of modulus above `1/ε`; all its zeros have modulus 1. -/
theorem C99_halley_false : ∃ z ζ : ℂ, (∀ fuel, complexHalley fifthRootsHalley (fuel + 1) (cx z : Cx (Fl F)) = some (cx ζ)) ∧ 1 / F.eps < ‖ζ‖ ∧
    ∀ ρ : ℂ, ρ ^ 5 - 1 = 0 → 1 / F.eps - 1 < ‖ζ - ρ‖ := by
  have h0 := Fmt.Exact.eps_pos (F := F)
  have h1 := Fmt.Exact.eps_lt (F := F)
  obtain ⟨x, hx⟩ : ∃ x : ℝ, x ^ 5 = -((2 - F.eps / 2) / 3) := by
    refine ⟨-((2 - F.eps / 2) / 3) ^ ((5 : ℕ) : ℝ)⁻¹, ?_⟩
    rw [Odd.neg_pow (by decide), Real.rpow_inv_natCast_pow (by linarith) (by norm_num)]
  have hxneg : x < 0 := by
    by_contra hc
    push Not at hc
    have : 0 ≤ x ^ 5 := by positivity
    linarith
  have hx3 : x < -(1 / 3) := by
    by_contra hc
    push Not at hc
    have h4 : x ^ 4 ≤ 1 := by
      have : |x| ≤ 1 := by rw [abs_le]; constructor <;> linarith
      have := pow_le_one₀ (n := 4) (abs_nonneg x) this
      rwa [Even.pow_abs (by decide)] at this
    have h5 : x ^ 5 = x ^ 4 * x := by ring
    nlinarith
  have hne : x ≠ 0 := hxneg.ne
  set ζ : ℝ := x * (2 * x ^ 5 + 3) / (3 * x ^ 5 + 2) with hζ
  have hden : 3 * x ^ 5 + 2 = F.eps / 2 := by rw [hx]; ring
  have hnum : 2 * x ^ 5 + 3 = 5 / 3 + F.eps / 3 := by rw [hx]; ring
  have hbig : 1 / F.eps < |ζ| := by
    rw [hζ, hden, hnum, abs_div, abs_mul, abs_of_neg hxneg, abs_of_pos (by linarith : 0 < 5 / 3 + F.eps / 3), abs_of_pos (by linarith : 0 < F.eps / 2),
      div_lt_div_iff₀ h0 (by linarith)]
    have : 1 / 2 < -x * (5 / 3 + F.eps / 3) := by nlinarith
    nlinarith
  have hnorm : ‖(ζ : ℂ)‖ = |ζ| := by rw [Complex.norm_real]; rfl
  refine ⟨x, ζ, fun fuel => ?_, by rw [hnorm]; exact hbig, fun ρ hρ => ?_⟩
  · obtain ⟨w, dw, ddw, -, hh, hw, -, hdd, hdw⟩ := C96_fifth (F := F) (x : ℂ)
    have hddw : ddw = 20 * (x : ℂ) ^ 3 := by
      refine hdd.unique ?_
      refine ((hasDerivAt_pow 4 (x : ℂ)).const_mul 5).congr_deriv ?_
      push_cast
      ring
    have hq : 2 * dw * dw - w * ddw = ((10 * x ^ 3 * (3 * x ^ 5 + 2) : ℝ) : ℂ) := by
      rw [hw, hdw, hddw]; push_cast; ring
    have hq0 : (10 * x ^ 3 * (3 * x ^ 5 + 2) : ℝ) ≠ 0 := by
      rw [hden]
      have := h0.ne'
      positivity
    have hstep : (x : ℂ) - 2 * w * dw / (2 * dw * dw - w * ddw) = (ζ : ℂ) := by
      rw [hq, hw, hdw]
      have : (x : ℝ) - 2 * (x ^ 5 - 1) * (5 * x ^ 4) / (10 * x ^ 3 * (3 * x ^ 5 + 2)) = ζ := by
        rw [hζ]
        have h3 : 3 * x ^ 5 + 2 ≠ 0 := by rw [hden]; linarith
        generalize hD : 3 * x ^ 5 + 2 = D at h3 ⊢
        field_simp
        rw [← hD]
        ring
      rw [← this]
      push_cast
      ring
    unfold complexHalley
    simp only [hh, ofNat_def, cx_smul, cx_mul, cx_sub]
    have e2 : ((((2 : ℕ) : ℝ) : ℂ)) = 2 := by norm_num
    rw [e2, cx_div _ (by rw [hq]; exact_mod_cast hq0), cx_sub, hstep]
    simp only [cx_mul, cx_abs]
    rw [if_pos]
    rw [show (eps : Fl F) = fin F.eps from rfl, Fl.mul_fin, div_fin _ (by norm_num), le_fin, decide_eq_true_eq]
    have n1 : ‖w‖ = |x ^ 5 - 1| := by
      rw [hw, ← Real.norm_eq_abs, ← Complex.norm_real]; push_cast; rfl
    have n2 : ‖(ζ : ℂ) * dw‖ = |ζ * (5 * x ^ 4)| := by
      rw [hdw, ← Real.norm_eq_abs, ← Complex.norm_real]; push_cast; rfl
    rw [n1, n2]
    have e1 : ζ * (5 * x ^ 4) = 5 * x ^ 5 * (5 / 3 + F.eps / 3) / (F.eps / 2) := by
      rw [hζ, hden, hnum]
      ring
    rw [e1, hx, abs_div, abs_of_neg (by linarith), abs_of_pos (by linarith : 0 < F.eps / 2), abs_of_neg (by nlinarith)]
    rw [show F.eps * (-(5 * -((2 - F.eps / 2) / 3) * (5 / 3 + F.eps / 3)) / (F.eps / 2)) / ((2 : ℕ) : ℝ) =
      5 * ((2 - F.eps / 2) / 3) * (5 / 3 + F.eps / 3) by field_simp; push_cast; ring]
    nlinarith
  · have hρ1 : ‖ρ‖ = 1 := by
      have : ‖ρ‖ ^ 5 = 1 := by rw [← norm_pow, sub_eq_zero.1 hρ, norm_one]
      exact (pow_eq_one_iff_of_nonneg (norm_nonneg _) (by norm_num)).1 this
    have := norm_sub_norm_le (ζ : ℂ) ρ
    rw [hnorm, hρ1] at this
    linarith

/-! ## Cases that meet the hypotheses -/

/-- The search from 1 returns 1. -/
theorem newton_at_one : complexNewton g 1 (cx 1 : Cx (Fl F)) = some (cx 1) := by
  have hd : (Polynomial.derivative gPoly).eval 1 ≠ 0 := by rw [gPoly_deriv]; norm_num
  have h0 : gPoly.eval 1 = 0 := by rw [gPoly_eval]; norm_num
  have heps := Fmt.Exact.eps_pos (F := F)
  rw [show (1 : ℕ) = 0 + 1 from rfl, newton_step computes_g _ _ hd, if_pos]
  · rw [h0]; simp
  · rw [h0]; simp only [norm_zero]; positivity

/-- C97_fractal applies to the search from 1 and to some search from 3. -/
example : (∃ ζ ρ : ℂ, (cx 1 : Cx (Fl F)) = cx ζ ∧ (∃ k ∈ (roots : List (Cx (Fl F))), k = cx ρ) ∧ ‖ζ - ρ‖ ≤ 63 / 5 * F.eps * ‖ζ‖) ∧
    ∃ fuel w, complexNewton g fuel (cx (3 : ℝ) : Cx (Fl F)) = some w ∧ ∃ ζ : ℂ, w = cx ζ := by
  refine ⟨C97_fractal 1 1 _ newton_at_one, ?_⟩
  obtain ⟨fuel, w, h⟩ := C97_positive (F := F) 3 (by norm_num)
  obtain ⟨ζ, -, h1, -⟩ := C97_fractal fuel _ w h
  exact ⟨fuel, w, h, ζ, h1⟩

/-- C91_marks applies to an image of any single colour; the mark of the root 1 covers its pixel. -/
example (c : Fin 4 → UInt8) : ∃ l : List ((ℕ × ℕ) × (Fin 4 → UInt8)), l.map Prod.fst = tasks 4096 (List.range 4096) ∧ Marked 3071 2048 ∧
    ¬ Marked 0 0 ∧ ((0, 0), c) ∈ l := by
  refine ⟨(tasks 4096 (List.range 4096)).map fun t => (t, c), ?_, ?_, ?_, ?_⟩
  · rw [List.map_map]; exact List.map_id _
  · have h1 : centre 1 = 3071 := by unfold centre; rw [Int.floor_eq_iff]; norm_num
    have h0 : centre 0 = 2048 := by unfold centre; rw [Int.floor_eq_iff]; norm_num
    exact ⟨1, by norm_num, by simp [h1, h0], by simp [h1], by simp [h0]⟩
  · rintro ⟨ρ, hρ, h, -⟩
    obtain ⟨-, a, -, b, -⟩ := toPixel_main (F := F) ρ (eightRoots_bound ρ ((mem_eightRoots ρ).2 hρ))
    push_cast at h
    nlinarith
  · exact List.mem_map_of_mem (mem_tasks.2 ⟨by norm_num, by simp⟩)

end

end DRT
