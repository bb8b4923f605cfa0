import Verif.Lemmas.Quartic
import Verif.Scalar.Rounding

/-!
# C12-C19: polynomial roots and bisection

`tiny` is `numeric_limits<Real>::min()`, the threshold below which the code treats a coefficient as zero.
Exact theorems assume that no coefficient lies strictly between zero and that threshold; the `_window_false`
theorems show what happens if one does.
-/

namespace DRT
open Scalar Fl

variable {F : Fmt}

/-! ## C15 -/

/-- C15: the compensated discriminant equals `b² - 4ac`. -/
theorem C15_discriminant [F.Exact] (a b c : ℝ) :
    discriminant (fin a : Fl F) (fin b) (fin c) = fin (b ^ 2 - 4 * a * c) := discriminant_fin a b c

/-- C15: its sign decides whether there are no, one or two real roots. -/
theorem C15_sign_decides [F.Exact] (a b c : ℝ) (ha : a ≠ 0) :
    (Scalar.lt (discriminant (fin a : Fl F) (fin b) (fin c)) (fin 0) = true ↔ ∀ z : ℝ, a * z ^ 2 + b * z + c ≠ 0) ∧
    (Scalar.eq (discriminant (fin a : Fl F) (fin b) (fin c)) (fin 0) = true ↔ ∃! z : ℝ, a * z ^ 2 + b * z + c = 0) ∧
    (Scalar.lt (fin 0) (discriminant (fin a : Fl F) (fin b) (fin c)) = true ↔
      ∃ x y : ℝ, x ≠ y ∧ a * x ^ 2 + b * x + c = 0 ∧ a * y ^ 2 + b * y + c = 0) := by
  simp only [discriminant_fin, lt_fin, eq_fin, decide_eq_true_eq]
  have sq : ∀ z : ℝ, 4 * a * (a * z ^ 2 + b * z + c) = (2 * a * z + b) ^ 2 - (b ^ 2 - 4 * a * c) := by intro z; ring
  have iff : ∀ z : ℝ, a * z ^ 2 + b * z + c = 0 ↔ (2 * a * z + b) ^ 2 = b ^ 2 - 4 * a * c := by
    intro z
    constructor
    · intro h; have := sq z; rw [h] at this; linarith
    · intro h
      have := sq z; rw [h, sub_self] at this
      rcases mul_eq_zero.mp this with h | h
      · exact absurd h (mul_ne_zero (by norm_num) ha)
      · exact h
  have mk : ∀ s : ℝ, s ^ 2 = b ^ 2 - 4 * a * c → a * ((s - b) / (2 * a)) ^ 2 + b * ((s - b) / (2 * a)) + c = 0 := by
    intro s hs
    rw [iff, ← hs]; field_simp; ring
  simp only [ne_eq, iff]
  generalize b ^ 2 - 4 * a * c = D at *
  refine ⟨⟨fun h z hz => ?_, fun h => ?_⟩, ⟨fun h => ?_, ?_⟩, ⟨fun h => ?_, ?_⟩⟩
  · rw [← hz] at h; exact absurd (sq_nonneg _) (not_le.mpr h)
  · by_contra hD
    exact h _ ((iff _).mp (mk (√D) (Real.sq_sqrt (not_lt.mp hD))))
  · refine ⟨-b / (2 * a), ?_, fun z hz => ?_⟩
    · simp only [h]; field_simp; ring
    · simp only [h] at hz
      have := pow_eq_zero_iff (two_ne_zero) |>.mp hz
      field_simp; linarith
  · rintro ⟨z, hz, hu⟩
    by_contra hD
    have hz' := hu ((-(2 * a * z + b) - b) / (2 * a)) (by field_simp; rw [← hz]; ring)
    have h0 : 2 * a * z + b = 0 := by
      rw [div_eq_iff (by simpa using ha)] at hz'; linarith
    rw [h0] at hz; simp at hz; exact hD hz.symm
  · have hs := Real.sq_sqrt h.le
    have hp := Real.sqrt_pos.mpr h
    refine ⟨(√D - b) / (2 * a), (-√D - b) / (2 * a), ?_, (iff _).mp (mk _ hs), (iff _).mp (mk _ (by rw [neg_sq, hs]))⟩
    intro he
    field_simp at he
    linarith
  · rintro ⟨x, y, hne, hx, hy⟩
    by_contra hD
    have hx0 : 2 * a * x + b = 0 := pow_eq_zero_iff (two_ne_zero) |>.mp (by nlinarith [sq_nonneg (2 * a * x + b)])
    have hy0 : 2 * a * y + b = 0 := pow_eq_zero_iff (two_ne_zero) |>.mp (by nlinarith [sq_nonneg (2 * a * y + b)])
    apply hne
    have : 2 * a * (x - y) = 0 := by linarith
    rcases mul_eq_zero.mp this with h | h
    · exact absurd h (mul_ne_zero two_ne_zero ha)
    · linarith

example : discriminant (fin 1 : Fl exact64) (fin 3) (fin 2) = fin 1 := by rw [C15_discriminant]; norm_num

/-! ## C12 -/

/-- C12 outside the threshold windows: zero or two values in nondecreasing order that are exactly the real
solutions. Missing: coefficients with `0 < |·| ≤ tiny`, and `a=b=c=0`; see the two theorems below. -/
theorem C12_quadratic_roots_partial [F.Exact] (a b c : ℝ) (ha : a = 0 ∨ F.tiny < |a|)
    (hb : a = 0 ∨ b = 0 ∨ F.tiny < |b|) (h0 : ¬ (a = 0 ∧ b = 0 ∧ c = 0)) :
    ∃ l : List ℝ, quadraticRoots (fin a : Fl F) (fin b) (fin c) = l.map fin ∧
      (l = [] ∨ ∃ x y, x ≤ y ∧ l = [x, y]) ∧ ∀ z, z ∈ l ↔ a * z ^ 2 + b * z + c = 0 := by
  rcases quadraticRoots_spec (F := F) a b c ha hb h0 with ⟨hl, hno⟩ | ⟨x, y, hxy, hl, -, hiff⟩
  · exact ⟨[], hl, Or.inl rfl, fun z => by simpa using hno z⟩
  · exact ⟨[x, y], hl, Or.inr ⟨x, y, hxy, rfl⟩, fun z => by rw [hiff]; simp⟩

/-- C12, multiplicities: with `a ≠ 0` the two values are the linear factors, so a double root is listed twice. -/
theorem C12_multiplicity [F.Exact] (a b c : ℝ) (ha : F.tiny < |a|) (hb : b = 0 ∨ F.tiny < |b|)
    {u v : Fl F} (h : quadraticRoots (fin a : Fl F) (fin b) (fin c) = [u, v]) :
    ∃ x y : ℝ, u = fin x ∧ v = fin y ∧ x ≤ y ∧ ∀ z, a * z ^ 2 + b * z + c = a * (z - x) * (z - y) := by
  have ht : (0 : ℝ) ≤ F.tiny := Fmt.Exact.tiny_nonneg
  have ha0 : a ≠ 0 := by rintro rfl; rw [abs_zero] at ha; linarith
  rcases quadraticRoots_spec (F := F) a b c (Or.inr ha) (Or.inr hb) (fun h => ha0 h.1) with
    ⟨hl, -⟩ | ⟨x, y, hxy, hl, hf, -⟩
  · rw [hl] at h; cases h
  · rw [hl] at h
    injection h with h1 h2; injection h2 with h2 _
    obtain ⟨hs, hp⟩ := hf ha0
    exact ⟨x, y, h1.symm, h2.symm, hxy, quad_factor hs hp⟩

example : ∃ x y : ℝ, quadraticRoots (fin 1 : Fl exact64) (fin (-4)) (fin 4) = [fin x, fin y] ∧
    ∀ z : ℝ, 1 * z ^ 2 + -4 * z + 4 = 1 * (z - x) * (z - y) := by
  have ht : exact64.tiny < 1 := Fmt.Exact.tiny_lt
  have ha : exact64.tiny < |(1 : ℝ)| := by rw [abs_one]; exact ht
  have hb : exact64.tiny < |(-4 : ℝ)| := by norm_num; linarith
  rcases quadraticRoots_spec (F := exact64) 1 (-4) 4 (Or.inr ha) (Or.inr (Or.inr hb)) (by norm_num) with
    ⟨-, h⟩ | ⟨x, y, -, hl, -⟩
  · exact absurd (by norm_num) (h 2)
  · obtain ⟨x', y', h1, h2, -, h3⟩ := C12_multiplicity (F := exact64) 1 (-4) 4 ha (Or.inr hb) hl
    exact ⟨x', y', by rw [hl, h1, h2], h3⟩

/-- C12 in an idealised format with threshold zero holds for all coefficients that are not all zero. -/
theorem C12_quadratic_roots_ideal [F.Exact] (ht : F.tiny = 0) (a b c : ℝ) (h0 : ¬ (a = 0 ∧ b = 0 ∧ c = 0)) :
    ∃ l : List ℝ, quadraticRoots (fin a : Fl F) (fin b) (fin c) = l.map fin ∧
      (l = [] ∨ ∃ x y, x ≤ y ∧ l = [x, y]) ∧ ∀ z, z ∈ l ↔ a * z ^ 2 + b * z + c = 0 := by
  apply C12_quadratic_roots_partial _ _ _ _ _ h0
  · rw [ht, abs_pos]; exact em _
  · rw [ht, abs_pos]; right; exact em _

example : ∃ l : List ℝ, quadraticRoots (fin 1 : Fl exact64) (fin (-3)) (fin 2) = l.map fin ∧ ∀ z, z ∈ l ↔ z = 1 ∨ z = 2 := by
  have ht : exact64.tiny < 1 := Fmt.Exact.tiny_lt
  obtain ⟨l, h, -, hi⟩ := C12_quadratic_roots_partial (F := exact64) 1 (-3) 2 (by rw [abs_one]; exact Or.inr ht)
    (Or.inr (Or.inr (by rw [abs_neg]; norm_num; linarith))) (by norm_num)
  refine ⟨l, h, fun z => ?_⟩
  rw [hi, show (1 : ℝ) * z ^ 2 + -3 * z + 2 = (z - 1) * (z - 2) by ring, mul_eq_zero, sub_eq_zero, sub_eq_zero]

/-- C12 fails for the zero polynomial: two NaNs are returned (the branch meant to return zeros is dead). -/
theorem C12_zero_polynomial_false [F.Exact] :
    quadraticRoots (fin 0 : Fl F) (fin 0) (fin 0) = [Fl.nan, Fl.nan] := by
  have ht : (0 : ℝ) ≤ F.tiny := Fmt.Exact.tiny_nonneg
  simp [quadraticRoots, fl, ht]

/-- C12 fails inside the window: `x² + tiny·x` has the roots `-tiny` and `0`, and `[0, 0]` is returned. -/
theorem C12_window_false [F.Exact] (ht : 0 < F.tiny) :
    quadraticRoots (fin 1 : Fl F) (fin F.tiny) (fin 0) = [fin 0, fin 0] ∧
    1 * (-F.tiny) ^ 2 + F.tiny * (-F.tiny) + 0 = 0 ∧ -F.tiny ≠ 0 := by
  have h1 : F.tiny < 1 := Fmt.Exact.tiny_lt
  refine ⟨?_, by ring, (neg_neg_of_pos ht).ne⟩
  simp [quadraticRoots, fl, not_le.mpr h1, abs_of_pos ht, div_fin _ one_ne_zero, sqrt_fin le_rfl]

/-! ## C13 -/

/-- C13: under every rounding the result has length 0 or 2. -/
theorem C13_size (a b c : Fl F) :
    (quadraticRoots a b c).length = 0 ∨ (quadraticRoots a b c).length = 2 := by
  unfold quadraticRoots
  dsimp only
  split_ifs <;> simp

/-- C13: under every monotone rounding, if neither value is NaN, the first is not greater than the second. -/
theorem C13_ordered [F.Rounding] (a b c : Fl F) {x y : Fl F} (h : quadraticRoots a b c = [x, y])
    (hx : isNaN x = false) (hy : isNaN y = false) : Scalar.le x y = true := by
  unfold quadraticRoots at h
  dsimp only at h
  split_ifs at h with h1 h2 h3 h4 h5 h6 h7 <;>
    first
    | (injection h with e1 e2; injection e2 with e2 _; subst e1; subst e2)
    | (exact absurd h (by simp))
  · exact Fl.le_refl hx
  · exact Fl.le_refl hx
  · rcases sqrt_nonneg_or_nan (-c / a) with hs | hs
    · rw [hs] at hy; simp at hy
    · generalize Scalar.sqrt (-c / a) = s at *
      cases s with
      | nan => simp at hy
      | ninf => simp at hs
      | pinf => simp
      | fin r => simp at hs ⊢; linarith
  · exact Fl.le_of_lt h7
  · exact Fl.le_of_not_lt hy hx (by simpa using h7)

example : ∃ x y, quadraticRoots (fin 1 : Fl floor8) (fin 0) (fin (-4)) = [x, y] ∧
    isNaN x = false ∧ isNaN y = false := by
  refine ⟨-rnd floor8 √(4:ℝ), rnd floor8 √(4:ℝ), ?_, rfl, rfl⟩
  have h4 : (fin (4 : ℝ) : Fl floor8) / fin 1 = fin 4 := by
    show (if (1:ℝ) = 0 then _ else rnd floor8 (4 / 1)) = _
    rw [if_neg one_ne_zero, div_one]
    exact_mod_cast Fmt.Rounding.small (F := floor8) 4 (by norm_num)
  have ht : floor8.tiny = 1 / 256 := rfl
  unfold quadraticRoots
  simp only [tiny_def, ht, abs_fin, le_fin, abs_one, abs_zero, Fl.neg_fin, neg_neg, h4, rzero, lt_fin]
  have hs : Scalar.sqrt (fin 4 : Fl floor8) = rnd floor8 √(4:ℝ) := by
    show (if (4:ℝ) < 0 then Fl.nan else rnd floor8 √(4:ℝ)) = _
    rw [if_neg (by norm_num)]
  rw [hs]
  norm_num

/-! ## C14 -/

/-- C14, any rounding: a returned value is a number inside the range. -/
theorem C14_in_range (a b c tmin tmax : Fl F) {t : Fl F}
    (h : firstQuadraticRootInRange a b c tmin tmax = some t) :
    isNaN t = false ∧ Scalar.le tmin t = true ∧ Scalar.le t tmax = true ∧ t ∈ quadraticRoots a b c := by
  unfold firstQuadraticRootInRange at h
  split at h
  · next r0 r1 hr =>
    rw [hr]
    split_ifs at h with h1 h2
    · simp [ge] at h1 h; subst h
      exact ⟨not_nan_of_le_left h1.2, h1.1, h1.2, by simp⟩
    · simp [ge] at h2 h; subst h
      exact ⟨not_nan_of_le_left h2.2, h2.1, h2.2, by simp⟩
  · cases h

/-- C14, exact: the result is empty iff no real root lies in the range, and otherwise the least root in the range.
The ends of the range may be infinite. -/
theorem C14_least_root [F.Exact] (a b c : ℝ) (tmin tmax : Fl F) (ha : a = 0 ∨ F.tiny < |a|)
    (hb : a = 0 ∨ b = 0 ∨ F.tiny < |b|) (h0 : ¬ (a = 0 ∧ b = 0 ∧ c = 0)) :
    (firstQuadraticRootInRange (fin a) (fin b) (fin c) tmin tmax = none ↔
      ¬ ∃ z : ℝ, a * z ^ 2 + b * z + c = 0 ∧ Scalar.le tmin (fin z) = true ∧ Scalar.le (fin z) tmax = true) ∧
    (∀ t, firstQuadraticRootInRange (fin a) (fin b) (fin c) tmin tmax = some t →
      ∃ z : ℝ, t = fin z ∧ a * z ^ 2 + b * z + c = 0 ∧ Scalar.le tmin (fin z) = true ∧ Scalar.le (fin z) tmax = true ∧
        ∀ w : ℝ, a * w ^ 2 + b * w + c = 0 → Scalar.le tmin (fin w) = true → Scalar.le (fin w) tmax = true → z ≤ w) := by
  unfold firstQuadraticRootInRange
  rcases quadraticRoots_spec (F := F) a b c ha hb h0 with ⟨hl, hno⟩ | ⟨x, y, hxy, hl, -, hiff⟩
  · rw [hl]
    simp only [reduceCtorEq, false_imp_iff, implies_true, and_true, true_iff]
    rintro ⟨z, hz, -⟩; exact hno z hz
  · rw [hl]
    simp only [ge, Bool.and_eq_true, hiff]
    split_ifs with h1 h2
    · refine ⟨?_, ?_⟩
      · simp only [reduceCtorEq, false_iff, not_not]; exact ⟨x, Or.inl rfl, h1⟩
      · intro t ht; injection ht with ht; subst ht
        refine ⟨x, rfl, Or.inl rfl, h1.1, h1.2, ?_⟩
        rintro w (rfl | rfl) _ _
        · exact le_rfl
        · exact hxy
    · refine ⟨?_, ?_⟩
      · simp only [reduceCtorEq, false_iff, not_not]; exact ⟨y, Or.inr rfl, h2⟩
      · intro t ht; injection ht with ht; subst ht
        refine ⟨y, rfl, Or.inr rfl, h2.1, h2.2, ?_⟩
        rintro w (rfl | rfl) hw1 hw2
        · exact absurd ⟨hw1, hw2⟩ h1
        · exact le_rfl
    · refine ⟨?_, by simp⟩
      simp only [true_iff]
      rintro ⟨z, rfl | rfl, h3⟩
      · exact h1 h3
      · exact h2 h3

/-- `(x - 1)(x - 2)` has a root after 3/2, and what is reported is in the range. -/
example : ∃ t : Fl exact0, firstQuadraticRootInRange (fin 1) (fin (-3)) (fin 2) (fin (3/2)) pinf = some t ∧ Scalar.le (fin (3/2)) t = true := by
  obtain ⟨t, ht⟩ : ∃ t : Fl exact0, firstQuadraticRootInRange (fin 1) (fin (-3)) (fin 2) (fin (3/2)) pinf = some t := by
    rw [← Option.ne_none_iff_exists', Ne, (C14_least_root (F := exact0) 1 (-3) 2 _ _ (by simp [exact0]) (by simp [exact0]) (by norm_num)).1, not_not]
    exact ⟨2, by norm_num, by rw [le_fin]; norm_num, by simp⟩
  exact ⟨t, ht, (C14_in_range _ _ _ _ _ ht).2.1⟩

example : firstQuadraticRootInRange (fin 1 : Fl exact0) (fin (-3)) (fin 2) (fin (3/2)) pinf ≠ none := by
  rw [Ne, (C14_least_root (F := exact0) 1 (-3) 2 _ _ (by simp [exact0]) (by simp [exact0]) (by norm_num)).1, not_not]
  exact ⟨2, by norm_num, by rw [le_fin]; norm_num, by simp⟩

/-! ## C16 -/

/-- The discriminant of `ax³+bx²+cx+d`; it is zero exactly when the cubic has a multiple root. -/
def cubicDisc (a b c d : ℝ) : ℝ :=
  18 * a * b * c * d - 4 * b ^ 3 * d + b ^ 2 * c ^ 2 - 4 * a * c ^ 3 - 27 * a ^ 2 * d ^ 2

theorem cubicDisc_eq {a : ℝ} (ha : a ≠ 0) (b c d : ℝ) :
    cubicDisc a b c d = 108 * a ^ 4 * (cubQ a b c ^ 3 - cubR a b c d ^ 2) := by
  unfold cubicDisc cubQ cubR; field_simp; ring

theorem CubicClear.ne {t a b c d : ℝ} (ht : 0 ≤ t) (h : CubicClear t a b c d) : a ≠ 0 := by
  intro h0; have := h.lead; rw [h0, abs_zero] at this; linarith

/-- C16, soundness: outside the windows every returned value is a real root, at least one is returned, and the
values are in nondecreasing order; a root that is not returned is a double root. -/
theorem C16_cubic_sound_partial [F.Exact] (a b c d : ℝ) (h : CubicClear F.tiny a b c d) :
    ∃ l : List ℝ, cubicRoots (fin a : Fl F) (fin b) (fin c) (fin d) = l.map fin ∧ l ≠ [] ∧ l.Pairwise (· ≤ ·) ∧
      (∀ z ∈ l, a * z ^ 3 + b * z ^ 2 + c * z + d = 0) ∧
      (∀ z0, a * z0 ^ 3 + b * z0 ^ 2 + c * z0 + d = 0 → z0 ∉ l → ∃ w ∈ l, w ≠ z0 ∧
        ∀ z, a * z ^ 3 + b * z ^ 2 + c * z + d = a * (z - w) * (z - z0) ^ 2) := by
  obtain ⟨l, hl, hne, hs, hr, hc, -⟩ := cubicRoots_spec (F := F) a b c d h
  exact ⟨l, hl, hne, hs, hr, fun z0 hz hn => ((hc z0 hz).resolve_left hn).2⟩

/-- C16 for cubics without a double root (nonzero discriminant, or a triple root), and for zero constant term:
the returned values are exactly the real roots. Missing: cubics with a double root and nonzero constant term,
where the property fails (`C16_double_root_false`). -/
theorem C16_cubic_complete_partial [F.Exact] (a b c d : ℝ) (h : CubicClear F.tiny a b c d)
    (hdisc : d = 0 ∨ cubicDisc a b c d ≠ 0 ∨ b ^ 2 = 3 * a * c) :
    ∃ l : List ℝ, cubicRoots (fin a : Fl F) (fin b) (fin c) (fin d) = l.map fin ∧ l.Pairwise (· ≤ ·) ∧
      ∀ z, z ∈ l ↔ a * z ^ 3 + b * z ^ 2 + c * z + d = 0 := by
  have ha0 := h.ne Fmt.Exact.tiny_nonneg
  obtain ⟨l, hl, -, hs, hr, hc, -⟩ := cubicRoots_spec (F := F) a b c d h
  refine ⟨l, hl, hs, fun z => ⟨hr z, fun hz => ?_⟩⟩
  rcases hc z hz with h1 | ⟨hd, w, hw, hne, hf⟩
  · exact h1
  exfalso
  have e0 := hf 0
  have e1 := hf 1
  have e2 := hf (-1)
  have hd' : d = -a * w * z ^ 2 := by linear_combination e0
  have hb' : b = -a * (w + 2 * z) := by linear_combination (e1 + e2) / 2 - e0
  have hc' : c = a * (2 * w * z + z ^ 2) := by linear_combination (e1 - e2) / 2
  rcases hdisc with h1 | h1 | h1
  · exact hd h1
  · apply h1; unfold cubicDisc; rw [hd', hb', hc']; ring
  · have : a ^ 2 * (w - z) ^ 2 = 0 := by rw [hb', hc'] at h1; linear_combination h1
    rcases mul_eq_zero.mp this with h2 | h2
    · exact ha0 (pow_eq_zero_iff two_ne_zero |>.mp h2)
    · exact hne (sub_eq_zero.mp (pow_eq_zero_iff two_ne_zero |>.mp h2))

/-- C16 fails for every cubic with a double (not triple) root and nonzero constant term: some real root is missing. -/
theorem C16_double_root_false [F.Exact] (a b c d : ℝ) (h : CubicClear F.tiny a b c d) (hd : d ≠ 0)
    (hdisc : cubicDisc a b c d = 0) (h3 : b ^ 2 ≠ 3 * a * c) :
    ∃ z : ℝ, a * z ^ 3 + b * z ^ 2 + c * z + d = 0 ∧ fin z ∉ cubicRoots (fin a : Fl F) (fin b) (fin c) (fin d) := by
  have ha0 := h.ne Fmt.Exact.tiny_nonneg
  obtain ⟨l, hl, -, -, -, -, hlen⟩ := cubicRoots_spec (F := F) a b c d h
  have hRQ : cubR a b c d ^ 2 = cubQ a b c ^ 3 := by
    rw [cubicDisc_eq ha0] at hdisc
    have h4 : (108 : ℝ) * a ^ 4 ≠ 0 := mul_ne_zero (by norm_num) (pow_ne_zero _ ha0)
    have := (mul_eq_zero.mp hdisc).resolve_left h4
    linarith
  have hQ0 : cubQ a b c ≠ 0 := by
    intro h0; apply h3; unfold cubQ at h0; field_simp at h0; linarith
  have hlen1 := hlen hd hRQ
  obtain ⟨w, hw⟩ := List.length_eq_one_iff.mp hlen1
  have dep := cub_depress ha0 b c d
  rw [hl, hw]
  obtain ⟨k, hk⟩ : ∃ k, k = cubR a b c d / cubQ a b c := ⟨_, rfl⟩
  have hk2 : k ^ 2 = cubQ a b c := by rw [hk, div_pow, hRQ]; field_simp
  have hk3 : k ^ 3 = cubR a b c d := by
    rw [pow_succ, hk2, hk]; field_simp
  have hk0 : k ≠ 0 := by rintro rfl; apply hQ0; rw [← hk2]; norm_num
  have r1 : a * (k - b / a / 3) ^ 3 + b * (k - b / a / 3) ^ 2 + c * (k - b / a / 3) + d = 0 := by
    rw [dep, ← hk2, ← hk3]; ring
  have r2 : a * (-2 * k - b / a / 3) ^ 3 + b * (-2 * k - b / a / 3) ^ 2 + c * (-2 * k - b / a / 3) + d = 0 := by
    rw [dep, ← hk2, ← hk3]; ring
  by_cases hwk : w = k - b / a / 3
  · refine ⟨_, r2, ?_⟩
    simp only [List.map_cons, List.map_nil, List.mem_singleton, fin_inj, hwk]
    intro h; apply hk0; linarith
  · refine ⟨_, r1, ?_⟩
    simp only [List.map_cons, List.map_nil, List.mem_singleton, fin_inj]
    exact fun h => hwk h.symm

example : CubicClear exact64.tiny 1 (-3) 2 (-4) ∧ cubicDisc 1 (-3) 2 (-4) ≠ 0 := by
  have ht : exact64.tiny < 1 := Fmt.Exact.tiny_lt
  have h0 : 0 ≤ exact64.tiny := Fmt.Exact.tiny_nonneg
  refine ⟨⟨by rw [abs_one]; exact ht, Or.inr (by rw [abs_neg]; norm_num; linarith), by norm_num, Or.inr ?_⟩, by norm_num [cubicDisc]⟩
  have : exact64.tiny ^ 3 ≤ 1 := pow_le_one₀ h0 ht.le
  have h2 : cubR 1 (-3) 2 (-4) = -2 := by norm_num [cubR]
  rw [h2]; norm_num; linarith

/-- `x³ - 3x + 2 = (x-1)²(x+2)`: the root 1 is not returned. -/
example : ∃ z : ℝ, 1 * z ^ 3 + 0 * z ^ 2 + (-3) * z + 2 = 0 ∧
    fin z ∉ cubicRoots (fin 1 : Fl exact0) (fin 0) (fin (-3)) (fin 2) :=
  C16_double_root_false (F := exact0) 1 0 (-3) 2 (CubicClear.of_zero one_ne_zero _ _ _) (by norm_num)
    (by norm_num [cubicDisc]) (by norm_num)

/-! ## C17 -/

/-- C17: outside the windows every returned value is a real root of the quartic. -/
theorem C17_quartic_sound_partial [F.Exact] (a b c d e : ℝ) (h : QuarticClear F.tiny a b c d e) :
    ∃ l : List ℝ, quarticRoots (fin a : Fl F) (fin b) (fin c) (fin d) (fin e) = l.map fin ∧
      (∀ z ∈ l, a * z ^ 4 + b * z ^ 3 + c * z ^ 2 + d * z + e = 0) ∧
      (∀ z0, a * z0 ^ 4 + b * z0 ^ 3 + c * z0 ^ 2 + d * z0 + e = 0 → z0 ∉ l → ∃ x ∈ l, ∃ w ∈ l,
        ∀ z, a * z ^ 4 + b * z ^ 3 + c * z ^ 2 + d * z + e = a * (z - x) * (z - w) * (z - z0) ^ 2) := by
  obtain ⟨l, hl, -, hr, hc⟩ := quarticRoots_spec (F := F) a b c d e h
  refine ⟨l, hl, hr, fun z0 hz hn => ?_⟩
  obtain ⟨-, x, hx, w, hw, -, hf⟩ := (hc z0 hz).resolve_left hn
  exact ⟨x, hx, w, hw, hf⟩

/-- C17: if neither 0 nor the mean `-b/(4a)` of the four complex roots is a root, the returned values are exactly
the real roots. Missing: the threshold windows, and quartics with the root 0 or `-b/(4a)`, where a double root
can be missed (`C17_missed_false`). -/
theorem C17_quartic_complete_partial [F.Exact] (a b c d e : ℝ) (h : QuarticClear F.tiny a b c d e) (he : e ≠ 0)
    (hmean : a * (-(b / a / 4)) ^ 4 + b * (-(b / a / 4)) ^ 3 + c * (-(b / a / 4)) ^ 2 + d * (-(b / a / 4)) + e ≠ 0) :
    ∃ l : List ℝ, quarticRoots (fin a : Fl F) (fin b) (fin c) (fin d) (fin e) = l.map fin ∧
      l.Pairwise (· ≤ ·) ∧ ∀ z, z ∈ l ↔ a * z ^ 4 + b * z ^ 3 + c * z ^ 2 + d * z + e = 0 := by
  obtain ⟨l, hl, hs, hr, hc⟩ := quarticRoots_spec (F := F) a b c d e h
  have ha0 : a ≠ 0 := by
    have ht : (0 : ℝ) ≤ F.tiny := Fmt.Exact.tiny_nonneg
    intro h0; have := h.lead; rw [h0, abs_zero] at this; linarith
  have hs' : l.Pairwise (· ≤ ·) := by
    obtain ⟨l', hs', h1 | h1⟩ := hs
    · rw [h1]; exact hs'
    · exact absurd h1.1 he
  refine ⟨l, hl, hs', fun z => ⟨hr z, fun hz => ?_⟩⟩
  rcases hc z hz with h1 | ⟨h1 | h1, -⟩
  · exact h1
  · exact absurd h1 he
  · exfalso; apply hmean
    have := qua_depress ha0 b c d e 0
    rw [zero_sub] at this
    rw [this, h1]; ring

/-- C17 with all thresholds idealised to zero. -/
theorem C17_quartic_ideal_partial [F.Exact] (ht : F.tiny = 0) (a b c d e : ℝ) (ha : a ≠ 0) (he : e ≠ 0)
    (hmean : a * (-(b / a / 4)) ^ 4 + b * (-(b / a / 4)) ^ 3 + c * (-(b / a / 4)) ^ 2 + d * (-(b / a / 4)) + e ≠ 0) :
    ∃ l : List ℝ, quarticRoots (fin a : Fl F) (fin b) (fin c) (fin d) (fin e) = l.map fin ∧
      l.Pairwise (· ≤ ·) ∧ ∀ z, z ∈ l ↔ a * z ^ 4 + b * z ^ 3 + c * z ^ 2 + d * z + e = 0 :=
  C17_quartic_complete_partial a b c d e (by rw [ht]; exact QuarticClear.of_zero ha _ _ _ _) he hmean

example : ∃ l : List ℝ, quarticRoots (fin 1 : Fl exact0) (fin (-10)) (fin 35) (fin (-50)) (fin 24) = l.map fin ∧
    l.Pairwise (· ≤ ·) ∧ ∀ z, z ∈ l ↔ 1 * z ^ 4 + (-10) * z ^ 3 + 35 * z ^ 2 + (-50) * z + 24 = 0 :=
  C17_quartic_ideal_partial (F := exact0) rfl 1 (-10) 35 (-50) 24 one_ne_zero (by norm_num) (by norm_num)

/-- C17 fails: `x(x-1)²(x+2)` has the root 1, which is not returned. -/
theorem C17_missed_false [F.Exact] :
    1 * (1 : ℝ) ^ 4 + 0 * 1 ^ 3 + (-3) * 1 ^ 2 + 2 * 1 + 0 = 0 ∧
    fin 1 ∉ quarticRoots (fin 1 : Fl F) (fin 0) (fin (-3)) (fin 2) (fin 0) := by
  refine ⟨by norm_num, ?_⟩
  have ht : F.tiny < 1 := Fmt.Exact.tiny_lt
  have h0 : 0 ≤ F.tiny := Fmt.Exact.tiny_nonneg
  have hR : cubR 1 0 (-3) 2 = 1 := by norm_num [cubR]
  have hQ : cubQ 1 0 (-3) = 1 := by norm_num [cubQ]
  have hcl : CubicClear F.tiny 1 0 (-3) 2 := by
    refine ⟨by rw [abs_one]; exact ht, Or.inr (by norm_num; linarith), by norm_num, Or.inr ?_⟩
    rw [hR, abs_one]; exact pow_lt_one₀ h0 ht (by norm_num)
  obtain ⟨l, hl, -, -, hr, hc, hlen⟩ := cubicRoots_spec (F := F) 1 0 (-3) 2 hcl
  obtain ⟨w, hw⟩ := List.length_eq_one_iff.mp (hlen two_ne_zero (by rw [hR, hQ]; norm_num))
  unfold quarticRoots
  rw [tiny_def, abs_fin, abs_fin, le_fin, le_fin, if_neg (by simpa using ht), if_pos (by simpa using h0), hl, hw]
  rw [ofNat_zero]
  simp only [List.map_cons, List.map_nil, List.cons_append, List.nil_append, List.mem_cons, fin_inj, one_ne_zero,
    List.not_mem_nil, or_false]
  rintro rfl
  -- then 1 would be the only returned value, but -2 is a root that is neither returned nor double
  rcases hc (-2) (by norm_num) with h | ⟨-, w', hw', -, hf⟩
  · rw [hw] at h; norm_num at h
  · rw [hw, List.mem_singleton] at hw'
    have := hf 0; rw [hw'] at this; norm_num at this

/-! ## C18 -/

/-- C18, any rounding: if neither the leading nor the constant coefficient passes the zero test and no NaN is
returned, the result is in nondecreasing order. Missing: constant coefficient zero (`C18_unsorted_false`). -/
theorem C18_sorted_partial (a b c d e : Fl F) (ha : Scalar.le (Scalar.abs a) tiny = false)
    (he : Scalar.le (Scalar.abs e) tiny = false) (hn : ∀ x ∈ quarticRoots a b c d e, isNaN x = false) :
    (quarticRoots a b c d e).Pairwise (fun x y => Scalar.le x y = true) := by
  unfold quarticRoots at hn ⊢
  simp only [ha, he, Bool.false_eq_true, if_false] at hn ⊢
  split_ifs at hn ⊢
  · exact sortAsc_sorted fun y hy => hn y (mem_sortAsc.mpr hy)
  · exact sortAsc_sorted fun y hy => hn y (mem_sortAsc.mpr hy)
  · exact List.Pairwise.nil
  · exact sortAsc_sorted fun y hy => hn y (mem_sortAsc.mpr hy)

/-- C18, any rounding: consequently the first element in a range is the least element in that range. -/
theorem C18_first_is_nearest_partial (a b c d e tmin tmax : Fl F) (ha : Scalar.le (Scalar.abs a) tiny = false)
    (he : Scalar.le (Scalar.abs e) tiny = false) (hn : ∀ x ∈ quarticRoots a b c d e, isNaN x = false) {t : Fl F}
    (ht : (quarticRoots a b c d e).find? (fun x => Scalar.le tmin x && Scalar.le x tmax) = some t) :
    ∀ x ∈ quarticRoots a b c d e, Scalar.le tmin x = true → Scalar.le x tmax = true → Scalar.le t x = true := by
  have hs := C18_sorted_partial a b c d e ha he hn
  generalize quarticRoots a b c d e = l at *
  induction l with
  | nil => simp at ht
  | cons y ys ih =>
    rw [List.pairwise_cons] at hs
    rw [List.find?_cons] at ht
    intro x hx h1 h2
    split at ht
    · next hp =>
      injection ht with ht; subst ht
      rcases List.mem_cons.mp hx with rfl | hx
      · exact Fl.le_refl (hn x (by simp))
      · exact hs.1 x hx
    · next hp =>
      rcases List.mem_cons.mp hx with rfl | hx
      · simp [h1, h2] at hp
      · exact ih (fun z hz => hn z (by simp [hz])) ht hs.2 x hx h1 h2

example : Scalar.le (Scalar.abs (fin 1 : Fl exact64)) tiny = false := by
  have ht : exact64.tiny < 1 := Fmt.Exact.tiny_lt
  rw [abs_fin, tiny_def, le_fin]; simpa using ht

/-- C18 fails: on `x(x-1)(x-2)(x-3)` the returned list `[1,2,3,0]` is not sorted, and the first element in
`[0,10]` is not the nearest root 0. -/
theorem C18_unsorted_false [F.Exact] :
    ∃ x xs, quarticRoots (fin 1 : Fl F) (fin (-6)) (fin 11) (fin (-6)) (fin 0) = x :: xs ∧
      fin 0 ∈ xs ∧ Scalar.lt (fin 0) x = true ∧ Scalar.le x (fin 10) = true := by
  have ht : F.tiny < 1 := Fmt.Exact.tiny_lt
  have h0 : 0 ≤ F.tiny := Fmt.Exact.tiny_nonneg
  have hR : cubR 1 (-6) 11 (-6) = 0 := by norm_num [cubR]
  have hcl : CubicClear F.tiny 1 (-6) 11 (-6) :=
    ⟨by rw [abs_one]; exact ht, Or.inr (by rw [abs_neg]; norm_num; linarith), by norm_num, Or.inl hR⟩
  obtain ⟨l, hl, hne, -, hr, -, -⟩ := cubicRoots_spec (F := F) 1 (-6) 11 (-6) hcl
  unfold quarticRoots
  rw [tiny_def, abs_fin, abs_fin, le_fin, le_fin, if_neg (by simpa using ht), if_pos (by simpa using h0), hl, ofNat_zero]
  cases l with
  | nil => exact absurd rfl hne
  | cons x xs =>
    have hx := hr x (by simp)
    have hfac : (x - 1) * (x - 2) * (x - 3) = 0 := by linear_combination hx
    refine ⟨fin x, _, rfl, by simp, ?_, ?_⟩ <;>
    · simp only [lt_fin, le_fin, decide_eq_true_eq]
      rcases mul_eq_zero.mp hfac with h | h
      · rcases mul_eq_zero.mp h with h | h <;> linarith
      · linarith

/-! ## C19 -/

/-- The step of the sign-change scan of `bisect` on `[a,b]`. -/
noncomputable def scanStep (eps a b : ℝ) : ℝ := max (min ((b - a) / 8) 1) (10 * eps * |a|)

theorem bisectRefine_spec [F.Exact] {g : Fl F → Fl F} {f : ℝ → ℝ} (hg : ∀ x : ℝ, g (fin x) = fin (f x)) (n : ℕ) :
    ∀ a b fa : ℝ, a < b →
      (∃ m, a < m ∧ m < b ∧ f m = 0 ∧ bisectRefine g n (fin a) (fin b) (fin fa) = (fin m, fin m)) ∨
      bisectRefine g n (fin a) (fin b) (fin fa) = (fin (b - (b - a) / 2 ^ n), fin b) := by
  induction n with
  | zero => intro a b fa _; right; simp [bisectRefine]
  | succ n ih =>
    intro a b fa hab
    have hmid : ((fin a : Fl F) + fin b) / 2 = fin ((a + b) / 2) := by
      rw [add_fin, ofNat_def, div_fin _ (by norm_num)]; norm_num
    have h1 : (a + b) / 2 ≠ b := ne_of_lt (by linarith)
    have h2 : (a + b) / 2 ≠ a := ne_of_gt (by linarith)
    have h3 : ¬ fa * fa < 0 := not_lt.mpr (mul_self_nonneg fa)
    rw [bisectRefine]
    simp only [hmid, hg, mul_fin, ofNat_zero, eq_fin, lt_fin, h1, h2, h3, decide_false, Bool.or_self,
      Bool.false_eq_true, if_false]
    by_cases hf : f ((a + b) / 2) = 0
    · left
      refine ⟨(a + b) / 2, by linarith, by linarith, hf, ?_⟩
      rw [if_pos (by simpa using hf)]
    · rw [if_neg (by simpa using hf)]
      rcases ih ((a + b) / 2) b (f ((a + b) / 2)) (by linarith) with ⟨m, hm1, hm2, hm3, hm4⟩ | h
      · left; exact ⟨m, by linarith, hm2, hm3, hm4⟩
      · right; rw [h]
        congr 2
        rw [pow_succ]; ring

theorem bisectScan_spec [F.Exact] {g : Fl F → Fl F} {f : ℝ → ℝ} (hg : ∀ x : ℝ, g (fin x) = fin (f x))
    (dt b : ℝ) (fuel : ℕ) : ∀ (a : ℝ) (r : Fl F × Fl F),
      bisectScan g (fin dt) (fin b) fuel (fin a) (fin (f a)) (fin (f (a + dt))) = some r →
      ∃ k : ℕ, r = (fin (a + k * dt), fin (f (a + k * dt))) ∧
        (∀ j : ℕ, j < k → 0 < f (a + j * dt) * f (a + (j + 1) * dt) ∧ a + j * dt < b) ∧
        ¬ (0 < f (a + k * dt) * f (a + (k + 1) * dt) ∧ a + k * dt < b) := by
  induction fuel with
  | zero => intro a r h; cases h
  | succ n ih =>
    intro a r h
    rw [bisectScan] at h
    simp only [gt, mul_fin, ofNat_zero, lt_fin, add_fin, hg, Bool.and_eq_true, decide_eq_true_eq] at h
    split_ifs at h with hc
    · obtain ⟨k, hk1, hk2, hk3⟩ := ih (a + dt) r h
      refine ⟨k + 1, ?_, ?_, ?_⟩
      · rw [hk1]; push_cast; ring_nf
      · intro j hj
        cases j with
        | zero => simpa using hc
        | succ j =>
          have := hk2 j (by omega)
          push_cast
          ring_nf at this ⊢
          exact this
      · push_cast
        ring_nf at hk3 ⊢
        exact hk3
    · injection h with h
      exact ⟨0, by simp [← h], by simp, by simpa using hc⟩

theorem bisectScan_terminates [F.Exact] {g : Fl F → Fl F} {f : ℝ → ℝ} (hg : ∀ x : ℝ, g (fin x) = fin (f x))
    (dt b : ℝ) (N : ℕ) : ∀ (a : ℝ) (fuel : ℕ), b - a ≤ N * dt → N < fuel →
      bisectScan g (fin dt) (fin b) fuel (fin a) (fin (f a)) (fin (f (a + dt))) ≠ none := by
  induction N with
  | zero =>
    intro a fuel h hf
    obtain ⟨n, rfl⟩ : ∃ n, fuel = n + 1 := ⟨fuel - 1, by omega⟩
    rw [bisectScan]
    have : ¬ a < b := by simp at h; linarith
    simp only [lt_fin, this, decide_false, Bool.and_false, Bool.false_eq_true, if_false]
    simp
  | succ N ih =>
    intro a fuel h hf
    obtain ⟨n, rfl⟩ : ∃ n, fuel = n + 1 := ⟨fuel - 1, by omega⟩
    rw [bisectScan]
    simp only [add_fin, hg]
    split_ifs
    · exact ih (a + dt) n (by push_cast at h; linarith) (by omega)
    · simp

theorem bisect_step [F.Exact] (a b : ℝ) :
    (let dt := Scalar.min ((fin b - fin a : Fl F) / 8) 1
     if Scalar.lt dt (10 * Scalar.eps * Scalar.abs (fin a)) then 10 * Scalar.eps * Scalar.abs (fin a) else dt) =
      fin (scanStep F.eps a b) := by
  have h8 : ((fin b : Fl F) - fin a) / 8 = fin ((b - a) / 8) := by
    rw [sub_fin, ofNat_def, div_fin _ (by norm_num)]; norm_num
  have hm : Scalar.min (fin ((b - a) / 8) : Fl F) 1 = fin (min ((b - a) / 8) 1) := by
    unfold Scalar.min
    rw [ofNat_one, lt_fin]
    by_cases h : 1 < (b - a) / 8
    · rw [if_pos (by simpa using h), min_eq_right h.le]
    · rw [if_neg (by simpa using h), min_eq_left (not_lt.mp h)]
  dsimp only
  rw [h8, hm, eps_def, abs_fin, ofNat_def, mul_fin, mul_fin, lt_fin]
  unfold scanStep
  by_cases h : min ((b - a) / 8) 1 < (10 : ℕ) * F.eps * |a|
  · rw [if_pos (by simpa using h), fin_inj, max_eq_right (by push_cast at h; linarith)]; norm_num
  · rw [if_neg (by simpa using h), fin_inj, max_eq_left (by push_cast at h; linarith)]

/-- C19, what `bisect` really computes on `[a,b]` with `a < b`, for every real function. Three outcomes:
an exact zero in the scanned range; NaNs, if no scanned cell has a sign change; otherwise the last `2⁻⁴⁰`th of the
first scanned cell on which the sign changes, whatever the location of the zero in that cell. -/
theorem C19_bisect_partial [F.Exact] {g : Fl F → Fl F} {f : ℝ → ℝ} (hg : ∀ x : ℝ, g (fin x) = fin (f x))
    (a b : ℝ) (hab : a < b) (fuel : ℕ) (x y : Fl F) (h : bisect g fuel (fin a) (fin b) = some (x, y)) :
    (∃ z : ℝ, x = fin z ∧ y = fin z ∧ f z = 0 ∧ a ≤ z ∧ z < b + scanStep F.eps a b) ∨
    (x = Fl.nan ∧ y = Fl.nan ∧ ∀ j : ℕ, a + j * scanStep F.eps a b < b →
      0 < f (a + j * scanStep F.eps a b) * f (a + (j + 1) * scanStep F.eps a b)) ∨
    (∃ p : ℝ, a ≤ p ∧ p < b ∧ f p * f (p + scanStep F.eps a b) ≤ 0 ∧
      y = fin (p + scanStep F.eps a b) ∧ x = fin (p + scanStep F.eps a b - scanStep F.eps a b / 2 ^ 40)) := by
  have hdt : 0 < scanStep F.eps a b := lt_max_of_lt_left (lt_min (by linarith) one_pos)
  unfold bisect at h
  have hs := bisect_step (F := F) a b
  dsimp only at hs h
  rw [hs, hg, ofNat_zero, eq_fin] at h
  by_cases h0 : f a = 0
  · rw [if_pos (by simpa using h0)] at h
    simp only [Option.some.injEq, Prod.mk.injEq] at h
    exact Or.inl ⟨a, h.1.symm, h.2.symm, h0, le_rfl, by linarith⟩
  rw [if_neg (by simpa using h0), add_fin, hg] at h
  generalize scanStep F.eps a b = dt at *
  cases hsc : bisectScan g (fin dt) (fin b) fuel (fin a) (fin (f a)) (fin (f (a + dt))) with
  | none => rw [hsc] at h; cases h
  | some r =>
    obtain ⟨k, hk1, hk2, hk3⟩ := bisectScan_spec hg dt b fuel a r hsc
    rw [hsc, hk1] at h
    simp only [ge, le_fin, decide_eq_true_eq, add_fin] at h
    split_ifs at h with hb
    · simp only [Option.some.injEq, Prod.mk.injEq] at h
      refine Or.inr (Or.inl ⟨h.1.symm, h.2.symm, fun j hj => (hk2 j ?_).1⟩)
      by_contra hjk
      have : (k : ℝ) ≤ j := by exact_mod_cast not_lt.mp hjk
      nlinarith
    · have hp : a ≤ a + k * dt := by have : (0 : ℝ) ≤ k := Nat.cast_nonneg k; nlinarith
      have hpb := not_le.mp hb
      simp only [Option.some.injEq] at h
      rcases bisectRefine_spec hg 40 (a + k * dt) (a + k * dt + dt) (f (a + k * dt)) (by linarith) with
        ⟨m, hm1, hm2, hm3, hm4⟩ | hr
      · rw [hm4, Prod.mk.injEq] at h
        exact Or.inl ⟨m, h.1.symm, h.2.symm, hm3, by linarith, by linarith⟩
      · rw [hr, Prod.mk.injEq] at h
        refine Or.inr (Or.inr ⟨a + k * dt, hp, hpb, ?_, h.2.symm, ?_⟩)
        · by_contra hpos
          apply hk3
          refine ⟨?_, hpb⟩
          rw [show a + ((k : ℝ) + 1) * dt = a + k * dt + dt by ring]
          exact not_le.mp hpos
        · rw [← h.1]; congr 1; ring

/-- C19: `bisect` terminates on every range `a < b` for every real function. -/
theorem C19_terminates [F.Exact] {g : Fl F → Fl F} {f : ℝ → ℝ} (hg : ∀ x : ℝ, g (fin x) = fin (f x))
    (a b : ℝ) (hab : a < b) : ∃ N, ∀ fuel, N < fuel → bisect g fuel (fin a) (fin b) ≠ none := by
  have hdt : 0 < scanStep F.eps a b := lt_max_of_lt_left (lt_min (by linarith) one_pos)
  obtain ⟨N, hN⟩ := exists_nat_ge ((b - a) / scanStep F.eps a b)
  refine ⟨N, fun fuel hf => ?_⟩
  have ht := bisectScan_terminates (F := F) hg (scanStep F.eps a b) b N a fuel (by rwa [div_le_iff₀ hdt] at hN) hf
  unfold bisect
  have hs := bisect_step (F := F) a b
  dsimp only at hs ⊢
  rw [hs, hg, ofNat_zero, eq_fin, add_fin, hg]
  split_ifs
  · simp
  · generalize bisectScan g _ _ fuel _ _ _ = o at *
    cases o with
    | none => exact absurd rfl ht
    | some r => dsimp only; split_ifs <;> simp

/-- A finite real function as the `std::function` argument (NaN in, NaN out). -/
noncomputable def liftFun (f : ℝ → ℝ) : Fl F → Fl F
  | Ext.fin x => fin (f x)
  | _ => Fl.nan

example : ∃ N, ∀ fuel, N < fuel → bisect (liftFun (F := exact64) (fun t => t ^ 3 - 2)) fuel (fin 1) (fin 2) ≠ none :=
  C19_terminates (fun _ => rfl) 1 2 (by norm_num)

theorem scanStep_04 [F.Exact] : scanStep F.eps 0 4 = 1 / 2 := by
  unfold scanStep; rw [abs_zero, mul_zero]; norm_num

/-- C19 fails: on `[0,4]` for `f(t) = t - 1/10`, the returned bracket has no sign change and does not contain the
zero (the test at roots.hpp:305 multiplies `f_min` by itself). -/
theorem C19_bracket_false [F.Exact] : ∃ N, ∀ fuel, N < fuel → ∃ x y : ℝ,
    bisect (liftFun (F := F) (fun t => t - 1 / 10)) fuel (fin 0) (fin 4) = some (fin x, fin y) ∧ x < y ∧
      0 < x - 1 / 10 ∧ 0 < y - 1 / 10 ∧ 1 / 10 < x := by
  have hg : ∀ x : ℝ, liftFun (F := F) (fun t => t - 1 / 10) (fin x) = fin (x - 1 / 10) := fun _ => rfl
  obtain ⟨N, hN⟩ := C19_terminates (F := F) hg 0 4 (by norm_num)
  refine ⟨N, fun fuel hf => ?_⟩
  cases h : bisect (liftFun (F := F) (fun t => t - 1 / 10)) fuel (fin 0) (fin 4) with
  | none => exact absurd h (hN fuel hf)
  | some r =>
    obtain ⟨x, y⟩ := r
    have key := C19_bisect_partial (F := F) hg 0 4 (by norm_num) fuel x y h
    rw [scanStep_04] at key
    -- the zero 1/10 is never a midpoint, so the first outcome is refuted by unfolding
    rcases key with ⟨z, hxz, hyz, hz, -, -⟩ | ⟨-, -, hj⟩ | ⟨p, hp1, hp2, hp3, hy, hx⟩
    · exfalso
      have hz' : z = 1 / 10 := by linarith
      unfold bisect at h
      have hs := bisect_step (F := F) 0 4
      dsimp only at hs h
      rw [hs, hg, ofNat_zero, eq_fin, if_neg (by norm_num), scanStep_04, add_fin, hg] at h
      cases fuel with
      | zero => cases h
      | succ n =>
        rw [bisectScan] at h
        have hc : (gt ((fin ((0:ℝ) - 1 / 10) : Fl F) * fin (0 + 1 / 2 - 1 / 10)) 0 &&
            Scalar.lt (fin 0 : Fl F) (fin 4)) = false := by
          simp only [gt, mul_fin, ofNat_zero, lt_fin]; norm_num
        rw [hc] at h
        simp only [Bool.false_eq_true, if_false, ge, le_fin, add_fin] at h
        rw [if_neg (by norm_num)] at h
        simp only [Option.some.injEq] at h
        -- after the first midpoint 1/4 the bracket is [1/4, 1/2]
        rw [show (40 : ℕ) = 39 + 1 from rfl, bisectRefine] at h
        have hmid : ((fin 0 : Fl F) + fin (0 + 1 / 2)) / 2 = fin (1 / 4) := by
          rw [add_fin, ofNat_def, div_fin _ (by norm_num)]; norm_num
        simp only [hmid, hg, eq_fin, mul_fin, ofNat_zero, lt_fin] at h
        norm_num at h
        rcases bisectRefine_spec (F := F) hg 39 (1 / 4) (1 / 2) (1 / 4 - 1 / 10) (by norm_num) with
          ⟨m, hm1, hm2, hm3, hm4⟩ | hr
        · linarith
        · norm_num at hr
          rw [hr, Prod.mk.injEq, hyz, fin_inj] at h
          linarith [h.2]
    · have := hj 0 (by norm_num)
      norm_num at this
    · have h3 : 1 / 10 < p + 1 / 2 - 1 / 2 / 2 ^ 40 := by
        have : (1 : ℝ) / 2 / 2 ^ 40 ≤ 1 / 4 := by norm_num
        linarith
      exact ⟨_, _, by rw [hx, hy], by norm_num, by linarith, by
        have : (0:ℝ) < 1 / 2 / 2 ^ 40 := by positivity
        linarith, h3⟩

/-- C19 fails: the scan overshoots; on `[0, 17/2]` the zero `35/4 > 17/2` of `t - 35/4` is returned. -/
theorem C19_overshoot_false [F.Exact] (fuel : ℕ) (hf : 20 < fuel) :
    ∃ x y : ℝ, bisect (liftFun (F := F) (fun t => t - 35 / 4)) fuel (fin 0) (fin (17 / 2)) = some (fin x, fin y) ∧
      17 / 2 < x ∧ 17 / 2 < y := by
  have hg : ∀ x : ℝ, liftFun (F := F) (fun t => t - 35 / 4) (fin x) = fin (x - 35 / 4) := fun _ => rfl
  have hst : scanStep F.eps 0 (17 / 2) = 1 := by
    unfold scanStep; rw [abs_zero, mul_zero]; norm_num
  have ht : bisect (liftFun (F := F) (fun t => t - 35 / 4)) fuel (fin 0) (fin (17 / 2)) ≠ none := by
    have ht := bisectScan_terminates (F := F) hg 1 (17 / 2) 20 0 fuel (by norm_num) hf
    unfold bisect
    have hs := bisect_step (F := F) 0 (17 / 2)
    dsimp only at hs ⊢
    rw [hs, hst, hg, ofNat_zero, eq_fin, add_fin, hg]
    split_ifs
    · simp
    · generalize bisectScan (liftFun (F := F) (fun t => t - 35 / 4)) _ _ fuel _ _ _ = o at *
      cases o with
      | none => exact absurd rfl ht
      | some r => dsimp only; split_ifs <;> simp
  cases h : bisect (liftFun (F := F) (fun t => t - 35 / 4)) fuel (fin 0) (fin (17 / 2)) with
  | none => exact absurd h ht
  | some r =>
    obtain ⟨x, y⟩ := r
    have key := C19_bisect_partial (F := F) hg 0 (17 / 2) (by norm_num) fuel x y h
    rw [hst] at key
    rcases key with ⟨z, rfl, rfl, hz, -, -⟩ | ⟨-, -, hj⟩ | ⟨p, hp1, hp2, hp3, hy, hx⟩
    · exact ⟨z, z, rfl, by linarith, by linarith⟩
    · have := hj 8 (by norm_num)
      norm_num at this
    · refine ⟨_, _, by rw [hx, hy], ?_, ?_⟩
      all_goals
        have h1 : (1 : ℝ) / 2 ^ 40 ≤ 1 / 8 := by norm_num
        have h2 : 0 ≤ p + 1 - 35 / 4 := by nlinarith
        linarith

end DRT
