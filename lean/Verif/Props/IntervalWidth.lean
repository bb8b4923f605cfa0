import Verif.Props.IntervalExpr
import Mathlib.Analysis.SpecialFunctions.ExpDeriv

/-! # C158: the width of an interval -/

namespace DRT
open Scalar Fl

variable {F : Fmt} {ι : Type}

/-- C158 in exact arithmetic: `width()` of an interval that is not empty is the greatest distance of two of its members. -/
theorem C158_greatest [F.Exact] (a b : ℝ) (hab : a ≤ b) : ∃ w : ℝ, (⟨fin a, fin b⟩ : Interval (Fl F)).width = fin w ∧
    IsGreatest {d | ∃ x y, (⟨fin a, fin b⟩ : Interval (Fl F)).Has x ∧ (⟨fin a, fin b⟩ : Interval (Fl F)).Has y ∧ d = |x - y|} w := by
  refine ⟨b - a, by simp [Interval.width], ⟨b, a, has_fin.mpr ⟨hab, le_rfl⟩, has_fin.mpr ⟨le_rfl, hab⟩, ?_⟩, ?_⟩
  · rw [abs_of_nonneg (by linarith)]
  · rintro d ⟨x, y, hx, hy, rfl⟩
    rw [has_fin] at hx hy
    exact abs_le.mpr ⟨by linarith, by linarith⟩

example : ∃ w : ℝ, (⟨fin (-1), fin 4⟩ : Interval (Fl exact64)).width = fin w ∧ 5 ≤ w := by
  obtain ⟨w, h1, h2⟩ := C158_greatest (F := exact64) (-1) 4 (by norm_num)
  exact ⟨w, h1, h2.2 ⟨-1, 4, by constructor <;> norm_num, by constructor <;> norm_num, by norm_num⟩⟩

/-- C158 with any rounding: `width()` of an interval with a member is not negative, and an interval inside another, bounded or
not, is not wider. -/
theorem C158_monotone [F.Rounding] (X Y : Interval (Fl F)) (hX : ∃ z, X.Has z) (hsub : ∀ z, X.Has z → Y.Has z) :
    Scalar.le (fin 0) X.width = true ∧ Scalar.le X.width Y.width = true := by
  obtain ⟨z, hz⟩ := hX
  obtain ⟨a, b⟩ := X
  obtain ⟨c, d⟩ := Y
  have hY := hsub z hz
  have key : ∀ a b c d : ℝ, a ≤ b → c ≤ a → b ≤ d → Scalar.le (fin 0 : Fl F) (rnd F (b - a)) = true ∧
      Scalar.le (rnd F (b - a)) (rnd F (d - c)) = true := fun a b c d h1 h2 h3 =>
    ⟨rnd_nonneg (by linarith), Fmt.Rounding.mono (by linarith)⟩
  -- the lower ends
  have hlow : (a = ninf ∧ c = ninf) ∨ ∃ p, a = fin p ∧ (c = ninf ∨ ∃ r, c = fin r ∧ r ≤ p) := by
    have h1 := hz.1
    have h2 := hY.1
    cases a with
    | nan => simp at h1
    | pinf => simp at h1
    | ninf =>
      left
      refine ⟨rfl, ?_⟩
      cases c with
      | nan => simp at h2
      | pinf => simp at h2
      | ninf => rfl
      | fin r =>
        exfalso
        have h3 := (hsub (min z (r - 1)) ⟨by simp, Fl.le_trans (by simp) hz.2⟩).1
        simp only [le_fin, decide_eq_true_eq] at h3
        linarith [min_le_right z (r - 1)]
    | fin p =>
      right
      refine ⟨p, rfl, ?_⟩
      simp only [le_fin, decide_eq_true_eq] at h1
      have h3 := (hsub p ⟨by simp, Fl.le_trans (by simpa using h1) hz.2⟩).1
      cases c with
      | nan => simp at h2
      | pinf => simp at h2
      | ninf => exact Or.inl rfl
      | fin r => exact Or.inr ⟨r, rfl, by simpa using h3⟩
  have hupp : (b = pinf ∧ d = pinf) ∨ ∃ q, b = fin q ∧ (d = pinf ∨ ∃ s, d = fin s ∧ q ≤ s) := by
    have h1 := hz.2
    have h2 := hY.2
    cases b with
    | nan => simp at h1
    | ninf => simp at h1
    | pinf =>
      left
      refine ⟨rfl, ?_⟩
      cases d with
      | nan => simp at h2
      | ninf => simp at h2
      | pinf => rfl
      | fin s =>
        exfalso
        have h3 := (hsub (max z (s + 1)) ⟨Fl.le_trans hz.1 (by simp), by simp⟩).2
        simp only [le_fin, decide_eq_true_eq] at h3
        linarith [le_max_right z (s + 1)]
    | fin q =>
      right
      refine ⟨q, rfl, ?_⟩
      simp only [le_fin, decide_eq_true_eq] at h1
      have h3 := (hsub q ⟨Fl.le_trans hz.1 (by simpa using h1), by simp⟩).2
      cases d with
      | nan => simp at h2
      | ninf => simp at h2
      | pinf => exact Or.inl rfl
      | fin s => exact Or.inr ⟨s, rfl, by simpa using h3⟩
  have hnn : ∀ x : ℝ, Scalar.le (rnd F x) (pinf : Fl F) = true := by
    intro x
    have := rnd_not_nan (F := F) x
    cases h : rnd F x <;> simp_all
  have hm : a = ninf ∨ b = pinf ∨ ∃ p q, a = fin p ∧ b = fin q ∧ p ≤ q := by
    rcases hlow with ⟨rfl, -⟩ | ⟨p, rfl, -⟩
    · exact Or.inl rfl
    · rcases hupp with ⟨rfl, -⟩ | ⟨q, rfl, -⟩
      · exact Or.inr (Or.inl rfl)
      · have := has_fin.mp hz
        exact Or.inr (Or.inr ⟨p, q, rfl, rfl, this.1.trans this.2⟩)
  rcases hlow with ⟨rfl, rfl⟩ | ⟨p, rfl, rfl | ⟨r, rfl, hr⟩⟩ <;> rcases hupp with ⟨rfl, rfl⟩ | ⟨q, rfl, rfl | ⟨s, rfl, hs⟩⟩
  · exact ⟨rfl, rfl⟩
  · exact ⟨rfl, rfl⟩
  · exact ⟨rfl, rfl⟩
  · exact ⟨rfl, rfl⟩
  · have := has_fin.mp hz
    exact ⟨rnd_nonneg (by linarith), hnn _⟩
  · have := has_fin.mp hz
    exact ⟨rnd_nonneg (by linarith), hnn _⟩
  · exact ⟨rfl, rfl⟩
  · have := has_fin.mp hz
    exact ⟨rnd_nonneg (by linarith), hnn _⟩
  · have := has_fin.mp hz
    exact key p q r s (this.1.trans this.2) hr hs

/-- An instance in single precision: `[0, 1]` in `[-∞, 2]`. -/
example : Scalar.le (⟨fin 0, fin 1⟩ : Interval (Fl binary32)).width (⟨ninf, fin 2⟩ : Interval (Fl binary32)).width = true :=
  (C158_monotone (F := binary32) ⟨fin 0, fin 1⟩ ⟨ninf, fin 2⟩ ⟨0, by norm_num [Interval.Has]⟩ fun z hz => by
    have := has_fin.mp hz
    exact ⟨by simp, by simp only [le_fin, decide_eq_true_eq]; linarith⟩).2

/-- C158, refuted for the rounded width: `width()` does not switch the rounding mode, so in single precision two members of an
interval can be farther apart than its width. -/
theorem C158_rounded_false : ∃ (X : Interval (Fl binary32)) (x y w : ℝ), rnd binary32 x = fin x ∧ rnd binary32 y = fin y ∧
    X.Has x ∧ X.Has y ∧ X.width = fin w ∧ w < |x - y| := by
  have hx : rnd binary32 ((1 : ℕ) * 2 ^ (0 : ℤ)) = fin ((1 : ℕ) * 2 ^ (0 : ℤ)) :=
    ieee_rep (by norm_num) (by norm_num) (by norm_num)
  have hy : rnd binary32 ((1 : ℕ) * 2 ^ (-30 : ℤ)) = fin ((1 : ℕ) * 2 ^ (-30 : ℤ)) :=
    ieee_rep (by norm_num) (by norm_num) (by norm_num [zpow_neg])
  have hy' : rnd binary32 (-(((1 : ℕ) : ℝ) * 2 ^ (-30 : ℤ))) = fin (-(((1 : ℕ) : ℝ) * 2 ^ (-30 : ℤ))) := by
    have h0 : 0 ≤ ((1 : ℕ) : ℝ) * 2 ^ (-30 : ℤ) := by positivity
    unfold binary32 at hy ⊢
    rw [ieee_round_nonneg h0] at hy
    rw [ieee_round_neg (by norm_num [zpow_neg]), neg_neg]
    split_ifs at hy ⊢ with h
    · rw [fin_inj] at hy
      rw [hy]
    · cases hy
  have hw : rnd binary32 (1 + 1 / 2 ^ 30) = fin 1 := by
    have hlog : Int.log 2 ((1 : ℝ) + 1 / 2 ^ 30) = 0 := by
      apply le_antisymm
      · rw [← Int.lt_add_one_iff, ← Int.lt_zpow_iff_log_lt (by norm_num) (by norm_num)]; norm_num
      · rw [← Int.zpow_le_iff_le_log (by norm_num) (by norm_num)]; norm_num
    have hr : roundPos 24 (-126) ((1 : ℝ) + 1 / 2 ^ 30) = 1 := by
      unfold roundPos
      have hq : lastPlace 24 (-126) ((1 : ℝ) + 1 / 2 ^ 30) = -23 := by
        unfold lastPlace; rw [hlog]; norm_num
      rw [hq]
      have ht : ((1 : ℝ) + 1 / 2 ^ 30) / 2 ^ (-23 : ℤ) = 8388608 + 1 / 128 := by norm_num [zpow_neg]
      rw [ht]
      have hf : ⌊(8388608 : ℝ) + 1 / 128⌋ = 8388608 := by
        rw [Int.floor_eq_iff]; norm_num
      have he : roundEven ((8388608 : ℝ) + 1 / 128) = 8388608 := by
        unfold roundEven; rw [hf]; norm_num
      rw [he]; norm_num [zpow_neg]
    unfold binary32
    rw [ieee_round_nonneg (by norm_num), hr, if_pos (by norm_num)]
  refine ⟨⟨fin (-(((1 : ℕ) : ℝ) * 2 ^ (-30 : ℤ))), fin (((1 : ℕ) : ℝ) * 2 ^ (0 : ℤ))⟩, _, _, 1, hx, hy', ?_, ?_, ?_, ?_⟩
  · rw [has_fin]; norm_num [zpow_neg]
  · rw [has_fin]; norm_num [zpow_neg]
  · rw [← hw]
    show rnd binary32 _ = _
    congr 1
    norm_num [zpow_neg]
  · norm_num [zpow_neg]

/-- C158 in exact arithmetic: the width of a sum and the width of a difference are the sum of the widths; a product is at most as
wide as the largest magnitude of each factor times the width of the other. -/
theorem C158_arithmetic [F.Exact] (m : Mode) (a b c d : ℝ) (hab : a ≤ b) (hcd : c ≤ d) :
    (Interval.add (modal F fun _ => F) ⟨fin a, fin b⟩ ⟨fin c, fin d⟩ m).1.width =
      (⟨fin a, fin b⟩ : Interval (Fl F)).width + (⟨fin c, fin d⟩ : Interval (Fl F)).width ∧
    (Interval.sub (modal F fun _ => F) ⟨fin a, fin b⟩ ⟨fin c, fin d⟩ m).1.width =
      (⟨fin a, fin b⟩ : Interval (Fl F)).width + (⟨fin c, fin d⟩ : Interval (Fl F)).width ∧
    ∃ w, (Interval.mul ⟨fin a, fin b⟩ ⟨fin c, fin d⟩ : Interval (Fl F)).width = fin w ∧
      w ≤ max |a| |b| * (d - c) + max |c| |d| * (b - a) := by
  refine ⟨?_, ?_, ?_⟩
  · have e : (Interval.add (modal F fun _ => F) ⟨fin a, fin b⟩ ⟨fin c, fin d⟩ m).1 = ⟨fin (a + c), fin (b + d)⟩ :=
      congrArg₂ Interval.mk (Fl.add_fin (F := F) a c) (Fl.add_fin (F := F) b d)
    rw [e]
    simp only [Interval.width, sub_fin, add_fin, fin_inj]
    ring
  · have e : (Interval.sub (modal F fun _ => F) ⟨fin a, fin b⟩ ⟨fin c, fin d⟩ m).1 = ⟨fin (a - d), fin (b - c)⟩ :=
      congrArg₂ Interval.mk (Fl.sub_fin (F := F) a d) (Fl.sub_fin (F := F) b c)
    rw [e]
    simp only [Interval.width, sub_fin, add_fin, fin_inj]
    ring
  · obtain ⟨p, q, e, h⟩ := Interval.mul_set (F := F) hab hcd
    refine ⟨q - p, by rw [e]; simp [Interval.width], ?_⟩
    have hpq : p ≤ q := by
      have := (h (a * c)).mpr ⟨a, ⟨le_rfl, hab⟩, c, ⟨le_rfl, hcd⟩, rfl⟩
      exact this.1.trans this.2
    obtain ⟨x, hx, y, hy, rfl⟩ := (h q).mp ⟨hpq, le_rfl⟩
    obtain ⟨u, hu, v, hv, rfl⟩ := (h p).mp ⟨le_rfl, hpq⟩
    have hx' : |x| ≤ max |a| |b| := abs_le_max_abs_abs hx.1 hx.2
    have hv' : |v| ≤ max |c| |d| := abs_le_max_abs_abs hv.1 hv.2
    have h1 : |y - v| ≤ d - c := abs_le.mpr ⟨by linarith, by linarith⟩
    have h2 : |x - u| ≤ b - a := abs_le.mpr ⟨by linarith, by linarith⟩
    calc x * y - u * v = x * (y - v) + v * (x - u) := by ring
      _ ≤ |x * (y - v)| + |v * (x - u)| := add_le_add (le_abs_self _) (le_abs_self _)
      _ = |x| * |y - v| + |v| * |x - u| := by rw [abs_mul, abs_mul]
      _ ≤ _ := by gcongr

/-- An instance: subtracting an interval from itself doubles its width. -/
example (a b : ℝ) (hab : a ≤ b) : (Interval.sub (modal exact64 fun _ => exact64) ⟨fin a, fin b⟩ ⟨fin a, fin b⟩ .nearest).1.width =
    (⟨fin a, fin b⟩ : Interval (Fl exact64)).width + (⟨fin a, fin b⟩ : Interval (Fl exact64)).width :=
  (C158_arithmetic (F := exact64) .nearest a b a b hab hab).2.1

/-- The values with every occurrence of a variable varying by itself stay bounded, and their spread is at most proportional to that
of the variables. -/
theorem IExpr.loose_spread (e : IExpr ι) (M : ℝ) : ∃ K L : ℝ, 0 ≤ K ∧ 0 ≤ L ∧ ∀ (S : ι → Set ℝ) (δ : ℝ), 0 ≤ δ →
    (∀ i, ∀ x ∈ S i, |x| ≤ M) → (∀ i, ∀ x ∈ S i, ∀ y ∈ S i, |x - y| ≤ δ) →
    (∀ x ∈ e.loose S, |x| ≤ K) ∧ ∀ x ∈ e.loose S, ∀ y ∈ e.loose S, |x - y| ≤ L * δ := by
  induction e with
  | var i =>
    refine ⟨max M 0, 1, le_max_right _ _, zero_le_one, fun S δ _ h1 h2 => ⟨fun x hx => (h1 i x hx).trans (le_max_left _ _), fun x hx y hy => ?_⟩⟩
    rw [one_mul]
    exact h2 i x hx y hy
  | const c =>
    refine ⟨|c|, 0, abs_nonneg _, le_rfl, fun S δ _ h1 h2 => ⟨?_, ?_⟩⟩
    · rintro x rfl; exact le_rfl
    · rintro x rfl y rfl; simp
  | add e f ihe ihf =>
    obtain ⟨K, L, hK, hL, h⟩ := ihe
    obtain ⟨K', L', hK', hL', h'⟩ := ihf
    refine ⟨K + K', L + L', by positivity, by positivity, fun S δ hδ h1 h2 => ⟨?_, ?_⟩⟩
    · rintro _ ⟨x, hx, y, hy, rfl⟩
      exact (abs_add_le _ _).trans (add_le_add ((h S δ hδ h1 h2).1 x hx) ((h' S δ hδ h1 h2).1 y hy))
    · rintro _ ⟨x, hx, y, hy, rfl⟩ _ ⟨u, hu, v, hv, rfl⟩
      have k1 := (h S δ hδ h1 h2).2 x hx u hu
      have k2 := (h' S δ hδ h1 h2).2 y hy v hv
      rw [abs_le] at *
      constructor <;> linarith
  | sub e f ihe ihf =>
    obtain ⟨K, L, hK, hL, h⟩ := ihe
    obtain ⟨K', L', hK', hL', h'⟩ := ihf
    refine ⟨K + K', L + L', by positivity, by positivity, fun S δ hδ h1 h2 => ⟨?_, ?_⟩⟩
    · rintro _ ⟨x, hx, y, hy, rfl⟩
      exact (abs_sub _ _).trans (add_le_add ((h S δ hδ h1 h2).1 x hx) ((h' S δ hδ h1 h2).1 y hy))
    · rintro _ ⟨x, hx, y, hy, rfl⟩ _ ⟨u, hu, v, hv, rfl⟩
      have k1 := (h S δ hδ h1 h2).2 x hx u hu
      have k2 := (h' S δ hδ h1 h2).2 y hy v hv
      rw [abs_le] at *
      constructor <;> linarith
  | mul e f ihe ihf =>
    obtain ⟨K, L, hK, hL, h⟩ := ihe
    obtain ⟨K', L', hK', hL', h'⟩ := ihf
    refine ⟨K * K', K * L' + K' * L, by positivity, by positivity, fun S δ hδ h1 h2 => ⟨?_, ?_⟩⟩
    · rintro _ ⟨x, hx, y, hy, rfl⟩
      rw [abs_mul]
      have := (h S δ hδ h1 h2).1 x hx
      have := (h' S δ hδ h1 h2).1 y hy
      gcongr
    · rintro _ ⟨x, hx, y, hy, rfl⟩ _ ⟨u, hu, v, hv, rfl⟩
      have k1 := (h S δ hδ h1 h2).2 x hx u hu
      have k2 := (h' S δ hδ h1 h2).2 y hy v hv
      have k3 := (h S δ hδ h1 h2).1 x hx
      have k4 := (h' S δ hδ h1 h2).1 v hv
      calc |x * y - u * v| = |x * (y - v) + v * (x - u)| := by ring_nf
        _ ≤ |x| * |y - v| + |v| * |x - u| := by rw [← abs_mul, ← abs_mul]; exact abs_add_le _ _
        _ ≤ K * (L' * δ) + K' * (L * δ) := by gcongr
        _ = _ := by ring
  | abs e ih =>
    obtain ⟨K, L, hK, hL, h⟩ := ih
    refine ⟨K, L, hK, hL, fun S δ hδ h1 h2 => ⟨?_, ?_⟩⟩
    · rintro _ ⟨x, hx, rfl⟩
      rw [abs_abs]
      exact (h S δ hδ h1 h2).1 x hx
    · rintro _ ⟨x, hx, rfl⟩ _ ⟨y, hy, rfl⟩
      exact (abs_abs_sub_abs_le _ _).trans ((h S δ hδ h1 h2).2 x hx y hy)
  | exp e ih =>
    obtain ⟨K, L, hK, hL, h⟩ := ih
    refine ⟨Real.exp K, Real.exp K * L, (Real.exp_pos _).le, by positivity, fun S δ hδ h1 h2 => ⟨?_, ?_⟩⟩
    · rintro _ ⟨x, hx, rfl⟩
      rw [abs_of_pos (Real.exp_pos _)]
      exact Real.exp_le_exp.mpr ((le_abs_self x).trans ((h S δ hδ h1 h2).1 x hx))
    · have one : ∀ x ∈ e.loose S, ∀ y ∈ e.loose S, Real.exp x - Real.exp y ≤ Real.exp K * L * δ := by
        intro x hx y hy
        have k1 := (h S δ hδ h1 h2).2 x hx y hy
        have k2 : Real.exp x ≤ Real.exp K := Real.exp_le_exp.mpr ((le_abs_self x).trans ((h S δ hδ h1 h2).1 x hx))
        have k3 := Real.add_one_le_exp (y - x)
        have k4 : Real.exp y = Real.exp x * Real.exp (y - x) := by rw [← Real.exp_add]; ring_nf
        have k5 : Real.exp x * (x - y) ≤ Real.exp K * (L * δ) := by
          have := (le_abs_self _).trans k1
          have := Real.exp_pos x
          calc Real.exp x * (x - y) ≤ Real.exp x * (L * δ) := by gcongr
            _ ≤ _ := by gcongr
        have k6 : Real.exp x - Real.exp y ≤ Real.exp x * (x - y) := by
          rw [k4]
          nlinarith [Real.exp_pos x]
        linarith
      rintro _ ⟨x, hx, rfl⟩ _ ⟨y, hy, rfl⟩
      rw [abs_le]
      have := one x hx y hy
      have := one y hy x hx
      constructor <;> linarith

/-- C158 in exact arithmetic: the interval computed for an expression of any size becomes narrow in proportion to the intervals of
its variables. There is one number for all intervals in a bounded region such that the width of the answer is at most this
number times the largest width. -/
theorem C158_converges [F.Exact] (e : IExpr ι) (M : ℝ) : ∃ L : ℝ, 0 ≤ L ∧ ∀ (m : Mode) (a b : ι → ℝ) (δ : ℝ),
    (∀ i, -M ≤ a i ∧ a i ≤ b i ∧ b i ≤ M) → 0 ≤ δ → (∀ i, b i - a i ≤ δ) →
    ∃ w, (e.eval (fun _ => F) m fun i => (⟨fin (a i), fin (b i)⟩ : Interval (Fl F))).width = fin w ∧ 0 ≤ w ∧ w ≤ L * δ := by
  obtain ⟨K, L, -, hL, h⟩ := e.loose_spread M
  refine ⟨L, hL, fun m a b δ hab hδ hw => ?_⟩
  obtain ⟨p, q, hpq, he, hz⟩ := e.eval_loose (F := F) m a b fun i => (hab i).2.1
  refine ⟨q - p, by rw [he]; simp [Interval.width], by linarith, ?_⟩
  refine (le_abs_self _).trans ((h _ δ hδ ?_ ?_).2 q ((hz q).mp ⟨hpq, le_rfl⟩) p ((hz p).mp ⟨le_rfl, hpq⟩))
  · rintro i x ⟨h1, h2⟩
    have := hab i
    exact abs_le.mpr ⟨by linarith, by linarith⟩
  · rintro i x ⟨h1, h2⟩ y ⟨h3, h4⟩
    have := hw i
    exact abs_le.mpr ⟨by linarith, by linarith⟩

/-- An instance: `exp(x) * y - x` on small squares around (1, 2). -/
example : ∃ L : ℝ, 0 ≤ L ∧ ∀ n : ℕ, ∃ w, ((IExpr.sub (.mul (.exp (.var true)) (.var false)) (.var true) : IExpr Bool).eval (fun _ => exact64)
    .nearest fun i => (⟨fin (if i then 1 else 2), fin ((if i then 1 else 2) + 1 / (n + 1))⟩ : Interval (Fl exact64))).width = fin w ∧
    0 ≤ w ∧ w ≤ L * (1 / (n + 1)) := by
  obtain ⟨L, hL, h⟩ := C158_converges (F := exact64) (IExpr.sub (.mul (.exp (.var true)) (.var false)) (.var true) : IExpr Bool) 3
  refine ⟨L, hL, fun n => h _ _ _ _ (fun i => ?_) (by positivity) fun i => by linarith⟩
  have h0 : (0 : ℝ) < 1 / (n + 1) := by positivity
  have h1 : (1 : ℝ) / (n + 1) ≤ 1 := by
    rw [div_le_one (by positivity)]
    have : (0 : ℝ) ≤ n := n.cast_nonneg
    linarith
  cases i <;> simp only [Bool.false_eq_true, if_false, if_true] <;> exact ⟨by norm_num, by linarith, by linarith⟩

end DRT
