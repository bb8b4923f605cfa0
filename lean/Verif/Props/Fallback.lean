import Verif.Props.Newton
import Mathlib.Topology.Order.IntermediateValue
import Mathlib.Analysis.Calculus.Deriv.Pow
import Mathlib.Analysis.Calculus.Deriv.Add
import Mathlib.Analysis.Calculus.Deriv.Mul

/-!
# Where the bisection fallback leaves a search in one dimension

C159: the place of the number that `newton` and `halley` return, in terms of the zeros of the function alone.
-/

namespace DRT
open Scalar Fl

variable {F : Fmt}

/-- A real function with its derivative as the `std::function` argument of `newton` (NaN in, NaN out). -/
noncomputable def liftPair (f f' : ℝ → ℝ) : Fl F → Fl F × Fl F
  | Ext.fin x => (fin (f x), fin (f' x))
  | _ => (Fl.nan, Fl.nan)

/-- The number that the fallback returns, in exact arithmetic: a zero, or the last `2⁻⁴¹`th of a cell with a change of
sign. -/
theorem backup_place [F.Exact] {g : Fl F → Fl F} {f : ℝ → ℝ} (hg : ∀ x : ℝ, g (fin x) = fin (f x)) (a b : ℝ)
    (hab : a < b) (fuel : ℕ) (t : Fl F) (h : bisectBackup g fuel (fin a) (fin b) = some t) :
    (∃ x, t = fin x ∧ f x = 0 ∧ a ≤ x ∧ x < b + scanStep F.eps a b) ∨
    (t = Fl.nan ∧ ∀ j : ℕ, a + j * scanStep F.eps a b < b →
      0 < f (a + j * scanStep F.eps a b) * f (a + (j + 1) * scanStep F.eps a b)) ∨
    (∃ p, a ≤ p ∧ p < b ∧ f p * f (p + scanStep F.eps a b) ≤ 0 ∧
      t = fin (p + scanStep F.eps a b - scanStep F.eps a b / 2 ^ 41)) := by
  unfold bisectBackup at h
  cases hx : bisect g fuel (fin a) (fin b) with
  | none => rw [hx] at h; cases h
  | some r =>
    obtain ⟨x, y⟩ := r
    rw [hx] at h
    simp only [Option.some.injEq] at h
    rcases C19_bisect_partial hg a b hab fuel x y hx with ⟨z, rfl, rfl, h1, h2, h3⟩ | ⟨rfl, rfl, hj⟩ | ⟨p, h1, h2, h3, rfl, rfl⟩
    · refine Or.inl ⟨z, ?_, h1, h2, h3⟩
      rw [← h, add_fin, ofNat_def, div_fin _ (by norm_num), fin_inj]; push_cast; ring
    · exact Or.inr (Or.inl ⟨by rw [← h]; simp, hj⟩)
    · refine Or.inr (Or.inr ⟨p, h1, h2, h3, ?_⟩)
      rw [← h, add_fin, ofNat_def, div_fin _ (by norm_num), fin_inj]; push_cast; ring

theorem scanStep_pos {e a b : ℝ} (hab : a < b) : 0 < scanStep e a b :=
  lt_max_of_lt_left (lt_min (by linarith) one_pos)

/-- C159, the fallback by itself: for a continuous function every number it returns is within one scanning step of a
zero, and the zero is not before the range. -/
theorem C159_backup [F.Exact] {g : Fl F → Fl F} {f : ℝ → ℝ} (hg : ∀ x : ℝ, g (fin x) = fin (f x)) (hf : Continuous f)
    (a b : ℝ) (hab : a < b) (fuel : ℕ) (t : Fl F) (h : bisectBackup g fuel (fin a) (fin b) = some t)
    (hn : isNaN t = false) :
    ∃ x z, t = fin x ∧ f z = 0 ∧ a ≤ z ∧ z < b + scanStep F.eps a b ∧ a ≤ x ∧ x < b + scanStep F.eps a b ∧
      |x - z| ≤ scanStep F.eps a b := by
  have hs := scanStep_pos (e := F.eps) hab
  generalize he : scanStep F.eps a b = s at *
  rcases backup_place hg a b hab fuel t h with ⟨x, rfl, h1, h2, h3⟩ | ⟨rfl, -⟩ | ⟨p, h1, h2, h3, rfl⟩
  · rw [he] at h3
    exact ⟨x, x, rfl, h1, h2, h3, h2, h3, by rw [sub_self, abs_zero]; exact hs.le⟩
  · cases hn
  · rw [he] at h3 ⊢
    have hz : ∃ z ∈ Set.Icc p (p + s), f z = 0 := by
      have hps : p ≤ p + s := by linarith
      rcases le_total (f p) 0 with hp | hp
      · rcases le_total 0 (f (p + s)) with hq | hq
        · exact intermediate_value_Icc hps hf.continuousOn ⟨hp, hq⟩
        · rcases eq_or_lt_of_le hp with hp | hp
          · exact ⟨p, ⟨le_rfl, hps⟩, hp⟩
          · rcases eq_or_lt_of_le hq with hq | hq
            · exact ⟨p + s, ⟨hps, le_rfl⟩, hq⟩
            · exact absurd (mul_pos_of_neg_of_neg hp hq) (not_lt.mpr h3)
      · rcases le_total (f (p + s)) 0 with hq | hq
        · exact intermediate_value_Icc' hps hf.continuousOn ⟨hq, hp⟩
        · rcases eq_or_lt_of_le hp with hp | hp
          · exact ⟨p, ⟨le_rfl, hps⟩, hp.symm⟩
          · rcases eq_or_lt_of_le hq with hq | hq
            · exact ⟨p + s, ⟨hps, le_rfl⟩, hq.symm⟩
            · exact absurd (mul_pos hp hq) (not_lt.mpr h3)
    obtain ⟨z, ⟨hz1, hz2⟩, hz⟩ := hz
    have e1 : 0 < s / 2 ^ 41 := by positivity
    have e2 : s / 2 ^ 41 ≤ s := div_le_self hs.le (by norm_num)
    refine ⟨_, z, rfl, hz, by linarith, by linarith, by linarith, by linarith, ?_⟩
    rw [abs_le]; constructor <;> linarith

/-- C159, `newton`: the result is a point of the range that passed the residual test, or it is within one scanning step
of a zero. -/
theorem C159_newton [F.Exact] (f : Fl F → Fl F × Fl F) (φ φ' : ℝ → ℝ) (hφ : Continuous φ)
    (hf : ∀ x, f (fin x) = (fin (φ x), fin (φ' x))) (a b : ℝ) (hab : a < b) (fuel : ℕ) (t : Fl F)
    (h : newton1 f fuel (fin a) (fin b) = some t) (hn : isNaN t = false) :
    ∃ x, t = fin x ∧ ((a ≤ x ∧ x ≤ b ∧ |φ x| ≤ F.eps * |x * φ' x|) ∨
      ∃ z, φ z = 0 ∧ a ≤ z ∧ z < b + scanStep F.eps a b ∧ |x - z| ≤ scanStep F.eps a b) := by
  rcases C20_newton_exact f φ φ' a b hab.le (fun x _ _ => hf x) fuel t h hn with ⟨x, h1, h2, h3, h4⟩ | h
  · exact ⟨x, h1, Or.inl ⟨h2, h3, h4⟩⟩
  · obtain ⟨x, z, h1, h2, h3, h4, -, -, h5⟩ :=
      C159_backup (g := fun x => (f x).1) (fun x => by rw [hf]) hφ a b hab fuel t h hn
    exact ⟨x, h1, Or.inr ⟨z, h2, h3, h4, h5⟩⟩

/-- C159, `halley`: the same, except that a result with a small residual may be outside of the range. -/
theorem C159_halley [F.Exact] (f : Fl F → Fl F × Fl F × Fl F) (φ φ' φ'' : ℝ → ℝ) (hφ : Continuous φ)
    (hf : ∀ x, f (fin x) = (fin (φ x), fin (φ' x), fin (φ'' x))) (a b : ℝ) (hab : a < b) (fuel : ℕ) (x : ℝ)
    (h : halley1 f fuel (fin a) (fin b) = some (fin x)) :
    |φ x| ≤ F.eps * |x * φ' x| ∨
      ∃ z, φ z = 0 ∧ a ≤ z ∧ z < b + scanStep F.eps a b ∧ |x - z| ≤ scanStep F.eps a b := by
  rcases C20_halley_exact f _ _ fuel x _ _ _ h (hf x) with h | h
  · exact Or.inl h
  · obtain ⟨x', z, h1, h2, h3, h4, -, -, h5⟩ :=
      C159_backup (g := fun x => (f x).1) (fun x => by rw [hf]) hφ a b hab fuel _ h rfl
    rw [fin_inj] at h1
    subst h1
    exact Or.inr ⟨z, h2, h3, h4, h5⟩

/-- The run of `C20_halley_leaves_range`. -/
example (fuel : ℕ) : |(4 : ℝ) - 2 * 2| ≤ exact64.eps * |2 * (-2 * 2)| ∨ ∃ z : ℝ, 4 - z * z = 0 ∧ 0 ≤ z ∧
    z < 1 + scanStep exact64.eps 0 1 ∧ |2 - z| ≤ scanStep exact64.eps 0 1 := by
  have h := C20_halley_leaves_range (F := exact64) (fuel + 1)
  exact C159_halley (fun t : Fl exact64 => (fin 4 - t * t, fin (-2) * t, fin (-2))) (fun t => 4 - t * t) (fun t => -2 * t) (fun _ => -2)
    (by fun_prop) (fun x => by simp) 0 1 one_pos (fuel + 1) 2 h

/-- NaN enters the loop of `newton` through the fallback alone. -/
theorem Newton1.next_number [F.Exact] {f : Fl F → Fl F × Fl F} {φ φ' : ℝ → ℝ}
    (hf : ∀ x, f (fin x) = (fin (φ x), fin (φ' x))) {a b : ℝ} (hab : a < b) {fuel : ℕ} {t t' : Fl F}
    (ht : (∃ x, t = fin x) ∨ t = Fl.nan ∧ bisectBackup (fun x => (f x).1) fuel (fin a) (fin b) = some Fl.nan)
    (h : Newton1.next f fuel (fin a) (fin b) t (f t).1 (f t).2 = some t') :
    (∃ x, t' = fin x) ∨ t' = Fl.nan ∧ bisectBackup (fun x => (f x).1) fuel (fin a) (fin b) = some Fl.nan := by
  have hb : ∀ u, bisectBackup (fun x => (f x).1) fuel (fin a) (fin b) = some u →
      (∃ x, u = fin x) ∨ u = Fl.nan ∧ bisectBackup (fun x => (f x).1) fuel (fin a) (fin b) = some Fl.nan := by
    intro u hu
    rcases backup_place (f := φ) (fun x => by rw [hf]) a b hab fuel u hu with ⟨x, h1, -⟩ | ⟨rfl, -⟩ | ⟨p, -, -, -, h1⟩
    · exact Or.inl ⟨x, h1⟩
    · exact Or.inr ⟨rfl, hu⟩
    · exact Or.inl ⟨_, h1⟩
  unfold Newton1.next at h
  dsimp only at h
  split_ifs at h with h0 h1
  · exact hb _ h
  · exact hb _ h
  · simp only [Option.some.injEq] at h
    rcases ht with ⟨x, rfl⟩ | ⟨rfl, ht⟩
    · left
      rw [hf] at h h0
      rw [ofNat_zero, Fl.eq_fin, decide_eq_true_eq] at h0
      rw [← h]
      dsimp only
      rw [div_fin _ h0, sub_fin]
      exact ⟨_, rfl⟩
    · right
      exact ⟨by rw [← h]; simp, ht⟩

theorem Newton1.loop_number [F.Exact] {f : Fl F → Fl F × Fl F} {φ φ' : ℝ → ℝ}
    (hf : ∀ x, f (fin x) = (fin (φ x), fin (φ' x))) {a b : ℝ} (hab : a < b) {fuel : ℕ} (k : ℕ) {t : Fl F} {r : Fl F ⊕ Fl F}
    (ht : (∃ x, t = fin x) ∨ t = Fl.nan ∧ bisectBackup (fun x => (f x).1) fuel (fin a) (fin b) = some Fl.nan)
    (h : Newton1.loop f fuel (fin a) (fin b) k t (f t).1 (f t).2 = some r) :
    (∃ x, r.elim id id = fin x) ∨
      r.elim id id = Fl.nan ∧ bisectBackup (fun x => (f x).1) fuel (fin a) (fin b) = some Fl.nan := by
  induction k generalizing t with
  | zero =>
    unfold Newton1.loop at h
    split_ifs at h with h0
    · simp only [Option.some.injEq] at h; subst h; exact ht
    · rcases hn : Newton1.next f fuel (fin a) (fin b) t (f t).1 (f t).2 with _ | u
      · rw [hn] at h; exact absurd h (by simp)
      · rw [hn] at h
        dsimp only at h
        have hu := Newton1.next_number hf hab ht hn
        split_ifs at h <;> (simp only [Option.some.injEq] at h; subst h; exact hu)
  | succ k ih =>
    unfold Newton1.loop at h
    split_ifs at h with h0
    · simp only [Option.some.injEq] at h; subst h; exact ht
    · rcases hn : Newton1.next f fuel (fin a) (fin b) t (f t).1 (f t).2 with _ | u
      · rw [hn] at h; exact absurd h (by simp)
      · rw [hn] at h
        dsimp only at h
        have hu := Newton1.next_number hf hab ht hn
        split_ifs at h
        · exact ih hu h
        · simp only [Option.some.injEq] at h; subst h; exact hu

/-- C159: `newton` returns NaN only if the function has one sign at all the places that the fallback looks at; it never
returns an infinity. -/
theorem C159_nan [F.Exact] (f : Fl F → Fl F × Fl F) (φ φ' : ℝ → ℝ)
    (hf : ∀ x, f (fin x) = (fin (φ x), fin (φ' x))) (a b : ℝ) (hab : a < b) (fuel : ℕ) (t : Fl F)
    (h : newton1 f fuel (fin a) (fin b) = some t) :
    (∃ x, t = fin x) ∨ t = Fl.nan ∧ ∀ j : ℕ, a + j * scanStep F.eps a b < b →
      0 < φ (a + j * scanStep F.eps a b) * φ (a + (j + 1) * scanStep F.eps a b) := by
  have hb : ∀ u, bisectBackup (fun x => (f x).1) fuel (fin a) (fin b) = some u → (∃ x, u = fin x) ∨ u = Fl.nan ∧
      ∀ j : ℕ, a + j * scanStep F.eps a b < b →
        0 < φ (a + j * scanStep F.eps a b) * φ (a + (j + 1) * scanStep F.eps a b) := by
    intro u hu
    rcases backup_place (f := φ) (fun x => by rw [hf]) a b hab fuel u hu with ⟨x, h1, -⟩ | ⟨h1, h2⟩ | ⟨p, -, -, -, h1⟩
    · exact Or.inl ⟨x, h1⟩
    · exact Or.inr ⟨h1, h2⟩
    · exact Or.inl ⟨_, h1⟩
  have hr : ∀ r, Newton1.loop f fuel (fin a) (fin b) 32 (fin a) (f (fin a)).1 (f (fin a)).2 = some r →
      (∃ x, r.elim id id = fin x) ∨ r.elim id id = Fl.nan ∧ ∀ j : ℕ, a + j * scanStep F.eps a b < b →
        0 < φ (a + j * scanStep F.eps a b) * φ (a + (j + 1) * scanStep F.eps a b) := by
    intro r hr
    rcases Newton1.loop_number hf hab 32 (Or.inl ⟨a, rfl⟩) hr with h1 | ⟨h1, h2⟩
    · exact Or.inl h1
    · rcases hb _ h2 with ⟨x, h3⟩ | h3
      · cases h3
      · exact Or.inr ⟨h1, h3.2⟩
  unfold newton1 at h
  rcases hl : Newton1.loop f fuel (fin a) (fin b) 32 (fin a) (f (fin a)).1 (f (fin a)).2 with _ | (u | u)
  · rw [hl] at h; exact absurd h (by simp)
  · rw [hl] at h; simp only [Option.some.injEq] at h; subst h
    exact hr _ hl
  · rw [hl] at h; dsimp only at h
    split_ifs at h
    · exact hb _ h
    · simp only [Option.some.injEq] at h; subst h
      exact hr _ hl

/-- A function without a zero: `t² + 1` on `[0, 1]` gives NaN. -/
example : ∃ N, ∀ fuel, N < fuel →
    newton1 (liftPair (F := exact64) (fun t => t ^ 2 + 1) (fun t => 2 * t)) fuel (fin 0) (fin 1) = some Fl.nan := by
  have he : exact64.eps ≤ 1 / 2 := by show (1 : ℝ) / 2 ^ 52 ≤ 1 / 2; norm_num
  obtain ⟨N, hN⟩ := C22_one_dimension_terminates (F := exact64) (liftPair (fun t => t ^ 2 + 1) (fun t => 2 * t))
    (fun t => ((liftPair (fun t => t ^ 2 + 1) (fun t => 2 * t) t).1, fin 0, fin 0)) (fun t => t ^ 2 + 1) (fun _ => rfl)
    (fun _ => rfl) 0 1 one_pos
  refine ⟨N, fun fuel hf => ?_⟩
  cases h : newton1 (liftPair (F := exact64) (fun t => t ^ 2 + 1) (fun t => 2 * t)) fuel (fin 0) (fin 1) with
  | none => exact absurd h (hN fuel hf).1
  | some t =>
    rcases C159_nan _ (fun t => t ^ 2 + 1) (fun t => 2 * t) (fun _ => rfl) 0 1 one_pos fuel t h with ⟨x, rfl⟩ | ⟨rfl, -⟩
    · exfalso
      obtain ⟨y, -, ⟨-, -, h1⟩ | ⟨z, h1, -⟩⟩ :=
        C159_newton _ (fun t => t ^ 2 + 1) (fun t => 2 * t) (by fun_prop) (fun _ => rfl) 0 1 one_pos fuel _ h rfl
      · rw [abs_of_pos (by positivity), abs_of_nonneg (by nlinarith [sq_nonneg y])] at h1
        nlinarith [sq_nonneg y]
      · nlinarith [sq_nonneg z]
    · rfl

/-- C159: if the function changes its sign from one end of the range to the other, the range is at most 8 long, and not
tiny beside its lower end, then `newton` ends and returns a number, with a small residual or within an eighth of the
range of a zero. -/
theorem C159_found [F.Exact] (f : Fl F → Fl F × Fl F) (φ φ' : ℝ → ℝ) (hφ : Continuous φ)
    (hf : ∀ x, f (fin x) = (fin (φ x), fin (φ' x))) (a b : ℝ) (hab : a < b) (h8 : b - a ≤ 8)
    (ht : 80 * F.eps * |a| ≤ b - a) (hs : φ a * φ b ≤ 0) :
    ∃ N, ∀ fuel, N < fuel → ∃ x, newton1 f fuel (fin a) (fin b) = some (fin x) ∧
      ((a ≤ x ∧ x ≤ b ∧ |φ x| ≤ F.eps * |x * φ' x|) ∨
        ∃ z, φ z = 0 ∧ a ≤ z ∧ z < b + (b - a) / 8 ∧ |x - z| ≤ (b - a) / 8) := by
  obtain ⟨N, hN⟩ := C22_one_dimension_terminates f (fun t => ((f t).1, (f t).2, fin 0)) φ (fun x => by rw [hf])
    (fun x => by dsimp only; rw [hf]) a b hab
  have he : scanStep F.eps a b = (b - a) / 8 := by
    unfold scanStep
    rw [min_eq_left (by linarith), max_eq_left (by linarith)]
  refine ⟨N, fun fuel hfuel => ?_⟩
  cases h : newton1 f fuel (fin a) (fin b) with
  | none => exact absurd h (hN fuel hfuel).1
  | some t =>
    rcases C159_nan f φ φ' hf a b hab fuel t h with ⟨x, rfl⟩ | ⟨-, hj⟩
    · obtain ⟨x', h1, h2⟩ := C159_newton f φ φ' hφ hf a b hab fuel _ h rfl
      rw [fin_inj] at h1
      subst h1
      rw [he] at h2
      exact ⟨x, rfl, h2⟩
    · exfalso
      rw [he] at hj
      have hk : ∀ k : ℕ, k < 9 → 0 < φ a * φ (a + k * ((b - a) / 8)) := by
        intro k
        induction k with
        | zero =>
          intro _
          have h0 := hj 0 (by simpa using hab)
          simp only [Nat.cast_zero, zero_mul, add_zero] at h0 ⊢
          exact mul_self_pos.mpr (left_ne_zero_of_mul h0.ne')
        | succ k ih =>
          intro hk
          have h1 := ih (by omega)
          have hk' : (k : ℝ) ≤ 7 := by exact_mod_cast (by omega : k ≤ 7)
          have h2 := hj k (by nlinarith)
          have h3 := mul_pos h1 h2
          push_cast
          have h4 : 0 < φ (a + k * ((b - a) / 8)) ^ 2 * (φ a * φ (a + (k + 1) * ((b - a) / 8))) := by
            calc _ < _ := h3
              _ = _ := by ring
          exact (mul_pos_iff_of_pos_left (by
            have := right_ne_zero_of_mul h1.ne'
            positivity)).mp h4
      have := hk 8 (by norm_num)
      rw [show a + ((8 : ℕ) : ℝ) * ((b - a) / 8) = b by push_cast; ring] at this
      linarith

/-- The square root of 2, searched for between 1 and 2. -/
example : ∃ N, ∀ fuel, N < fuel → ∃ x,
    newton1 (liftPair (F := exact64) (fun t => t ^ 2 - 2) (fun t => 2 * t)) fuel (fin 1) (fin 2) = some (fin x) := by
  obtain ⟨N, h⟩ := C159_found (liftPair (F := exact64) (fun t => t ^ 2 - 2) (fun t => 2 * t)) _ _ (by fun_prop)
    (fun x => rfl) 1 2 (by norm_num) (by norm_num) (by
      have : exact64.eps ≤ 1 / 100 := by show (1 : ℝ) / 2 ^ 52 ≤ 1 / 100; norm_num
      rw [abs_one]; linarith) (by norm_num)
  exact ⟨N, fun fuel hf => (h fuel hf).imp fun x hx => hx.1⟩

/-- The cubic of the refutation, with the critical points 0 and `1/2 - 2⁻⁴²`. -/
noncomputable def trap (t : ℝ) : ℝ := 3 * (1 / 2 - 1 / 2 ^ 42) * t ^ 2 - 2 * t ^ 3 - 1 / 100

/-- Its derivative. -/
noncomputable def trap' (t : ℝ) : ℝ := 6 * (1 / 2 - 1 / 2 ^ 42) * t - 6 * t ^ 2

theorem trap_backup [F.Exact] (fuel : ℕ) :
    bisectBackup (fun x => (liftPair (F := F) trap trap' x).1) (fuel + 1) (fin 0) (fin 4) = some (fin (1 / 2 - 1 / 2 ^ 42)) := by
  have hg : ∀ x : ℝ, (liftPair (F := F) trap trap' (fin x)).1 = fin (trap x) := fun _ => rfl
  have hs := bisect_step (F := F) 0 4
  have e0 : trap 0 = -1 / 100 := by unfold trap; norm_num
  have e1 : 0 < trap (1 / 2) := by unfold trap; norm_num
  have e2 : 0 < trap (1 / 4) := by unfold trap; norm_num
  have e3 : ∀ m, 1 / 4 < m → m < 1 / 2 → trap m ≠ 0 := by
    intro m h1 h2 h
    unfold trap at h
    have h3 : (1 / 16) * (3 * (1 / 2 - 1 / 2 ^ 42) - 1) ≤ m ^ 2 * (3 * (1 / 2 - 1 / 2 ^ 42) - 2 * m) :=
      mul_le_mul (by nlinarith) (by linarith) (by norm_num) (by positivity)
    have h4 : (1 : ℝ) / 100 < (1 / 16) * (3 * (1 / 2 - 1 / 2 ^ 42) - 1) := by norm_num
    nlinarith
  have hb : bisect (fun x => (liftPair (F := F) trap trap' x).1) (fuel + 1) (fin 0) (fin 4) =
      some (fin (1 / 2 - 1 / 2 ^ 41), fin (1 / 2)) := by
    unfold bisect
    dsimp only at hs ⊢
    rw [hs, hg, ofNat_zero, eq_fin, if_neg (by rw [e0]; norm_num), scanStep_04, add_fin, hg, bisectScan]
    have hc : (gt ((fin (trap 0) : Fl F) * fin (trap (0 + 1 / 2))) 0 && Scalar.lt (fin 0 : Fl F) (fin 4)) = false := by
      have : ¬ 0 < trap 0 * trap (0 + 1 / 2) := by rw [e0, zero_add]; nlinarith
      simp only [gt, mul_fin, ofNat_zero, lt_fin, this, decide_false, Bool.false_and]
    rw [hc]
    simp only [Bool.false_eq_true, if_false, ge, le_fin, add_fin]
    rw [if_neg (by norm_num), show (40 : ℕ) = 39 + 1 from rfl, bisectRefine]
    have hmid : ((fin 0 : Fl F) + fin (0 + 1 / 2)) / 2 = fin (1 / 4) := by
      rw [add_fin, ofNat_def, div_fin _ (by norm_num)]; norm_num
    have h3 : ¬ trap 0 * trap 0 < 0 := not_lt.mpr (mul_self_nonneg _)
    simp only [hmid, hg, eq_fin, mul_fin, ofNat_zero, lt_fin, h3, e2.ne', decide_false, Bool.false_eq_true, if_false]
    rw [if_neg (by norm_num), zero_add]
    rcases bisectRefine_spec (F := F) (g := fun x => (liftPair (F := F) trap trap' x).1) hg 39 (1 / 4) (1 / 2) (trap (1 / 4)) (by norm_num) with
      ⟨m, hm1, hm2, hm3, hm4⟩ | hr
    · exact absurd hm3 (e3 m hm1 hm2)
    · rw [hr]; norm_num
  unfold bisectBackup
  rw [hb]
  dsimp only
  rw [add_fin, ofNat_def, div_fin _ (by norm_num)]
  norm_num

/-- C159, refuted in its plain form: the function is a cubic with its true derivative, it has a zero between 0 and 1/10,
and the arithmetic is exact; `newton` returns a number near 1/2, where the function is above 1/10. The fallback lands
on the critical point each time. -/
theorem C159_zero_false [F.Exact] : ∃ (φ φ' : ℝ → ℝ) (x : ℝ), (∀ t, HasDerivAt φ (φ' t) t) ∧
    (∃ z, 0 < z ∧ z < 1 / 10 ∧ φ z = 0) ∧ 1 / 10 < φ x ∧ 2 / 5 < x ∧
    ∀ fuel, newton1 (liftPair (F := F) φ φ') (fuel + 1) (fin 0) (fin 4) = some (fin x) := by
  have hd : ∀ t, HasDerivAt trap (trap' t) t := by
    intro t
    unfold trap trap'
    have h := (((hasDerivAt_pow 2 t).const_mul (3 * (1 / 2 - 1 / 2 ^ 42 : ℝ))).sub
      ((hasDerivAt_pow 3 t).const_mul 2)).sub_const (1 / 100 : ℝ)
    refine h.congr_deriv ?_
    norm_num; ring
  obtain ⟨m, hm⟩ : ∃ m : ℝ, m = 1 / 2 - 1 / 2 ^ 42 := ⟨_, rfl⟩
  have hD : trap' m = 0 := by unfold trap'; rw [hm]; ring
  have hY : 1 / 10 < trap m := by unfold trap; rw [hm]; norm_num
  refine ⟨trap, trap', m, hd, ?_, hY, by rw [hm]; norm_num, fun fuel => ?_⟩
  · have hc : Continuous trap := continuous_iff_continuousAt.mpr fun t => (hd t).continuousAt
    obtain ⟨z, ⟨hz1, hz2⟩, hz⟩ := intermediate_value_Icc (show (0 : ℝ) ≤ 1 / 10 by norm_num) hc.continuousOn
      (show (0 : ℝ) ∈ Set.Icc (trap 0) (trap (1 / 10)) by constructor <;> (unfold trap; norm_num))
    refine ⟨z, lt_of_le_of_ne hz1 ?_, lt_of_le_of_ne hz2 ?_, hz⟩
    · rintro rfl; unfold trap at hz; norm_num at hz
    · rintro rfl; unfold trap at hz; norm_num at hz
  · have hb := trap_backup (F := F) fuel
    rw [← hm] at hb
    have hf : ∀ x : ℝ, liftPair (F := F) trap trap' (fin x) = (fin (trap x), fin (trap' x)) := fun _ => rfl
    have hu : Newton1.unconverged (fin m : Fl F) (fin (trap m)) (fin (trap' m)) = true := by
      unfold Newton1.unconverged
      rw [hD, eps_def, mul_fin, abs_fin, abs_fin, mul_fin]
      simp only [gt, lt_fin, mul_zero, abs_zero, decide_eq_true_eq]
      exact abs_pos.mpr (by linarith)
    have hnext : ∀ (t : Fl F) y, Newton1.next (liftPair (F := F) trap trap') (fuel + 1) (fin 0) (fin 4) t y (fin 0) = some (fin m) := by
      intro t y
      unfold Newton1.next
      rw [ofNat_zero, eq_fin, if_pos (by simp), hb]
    have hloop : ∀ k, ∀ (t y : ℝ), y ≠ 0 → Newton1.loop (liftPair (F := F) trap trap') (fuel + 1) (fin 0) (fin 4) k (fin t) (fin y) (fin 0) =
        some (.inr (fin m)) := by
      intro k
      induction k with
      | zero =>
        intro t y hy
        unfold Newton1.loop
        rw [ofNat_zero, eq_fin, if_neg (by simpa using hy), hnext]
        dsimp only
        rw [hf]
        dsimp only
        rw [hu, if_pos rfl]
      | succ k ih =>
        intro t y hy
        unfold Newton1.loop
        rw [ofNat_zero, eq_fin, if_neg (by simpa using hy), hnext]
        dsimp only
        rw [hf]
        dsimp only
        rw [hu, if_pos rfl, hD]
        exact ih m _ (by linarith)
    have h0 : trap' 0 = 0 := by unfold trap'; norm_num
    unfold newton1
    rw [hf]
    dsimp only
    rw [h0, hloop 32 0 _ (by unfold trap; norm_num)]
    dsimp only
    rw [hf]
    dsimp only
    rw [hu, if_pos rfl, hb]

/-- The fallback of that search is half a unit from its zero, which the bound of `C159_backup` allows. -/
example : ∃ z, trap z = 0 ∧ 0 ≤ z ∧ |1 / 2 - 1 / 2 ^ 42 - z| ≤ 1 / 2 := by
  have hc : Continuous trap := by unfold trap; fun_prop
  obtain ⟨x, z, h1, h2, h3, -, -, -, h4⟩ := C159_backup (F := exact64) (fun _ => rfl) hc 0 4 (by norm_num) 1 _ (trap_backup 0) rfl
  rw [fin_inj] at h1
  rw [scanStep_04, ← h1] at h4
  exact ⟨z, h2, h3, h4⟩

end DRT
