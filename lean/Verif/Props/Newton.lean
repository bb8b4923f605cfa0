import Verif.Model.Newton
import Verif.Props.Matrix
import Verif.Props.Bounds
import Verif.Props.Roots

/-! # Newton's and Halley's methods: C20, C21, C22, C23 -/

namespace DRT
open Scalar Vec Fl Matrix

variable {F : Fmt} {n : ℕ}

/-! ## C20: the one-dimensional solvers -/

section C20
variable {R : Type} [Scalar R]

/-- What is known of a point returned by the one-dimensional solvers: `y` is zero, or `|y|` does not exceed the
relative tolerance, or the point is the midpoint found by bisection. -/
def Accepted (y dy : R → R) (fuel : ℕ) (tmin tmax t : R) : Prop :=
  Scalar.eq (y t) 0 = true ∨ gt (Scalar.abs (y t)) (eps * Scalar.abs (t * dy t)) = false ∨
    bisectBackup y fuel tmin tmax = some t

theorem Newton1.loop_inl (f : R → R × R) (fuel : ℕ) (tmin tmax : R) (k : ℕ) (t : R) {t' : R}
    (h : Newton1.loop f fuel tmin tmax k t (f t).1 (f t).2 = some (.inl t')) : Scalar.eq (f t').1 0 = true := by
  induction k generalizing t with
  | zero =>
    unfold Newton1.loop at h
    split_ifs at h with h0
    · simp only [Option.some.injEq, Sum.inl.injEq] at h; subst h; exact h0
    · revert h; cases Newton1.next f fuel tmin tmax t (f t).1 (f t).2 <;> simp
  | succ k ih =>
    unfold Newton1.loop at h
    split_ifs at h with h0
    · simp only [Option.some.injEq, Sum.inl.injEq] at h; subst h; exact h0
    · revert h
      cases Newton1.next f fuel tmin tmax t (f t).1 (f t).2 with
      | none => simp
      | some u =>
        dsimp only
        split_ifs
        · exact ih u
        · simp

/-- C20 (what holds for every arithmetic, function, range and fuel): a point returned by `newton(f, tmin, tmax)` is a
zero, or its residual does not exceed `eps |t f'(t)|`, or it is the midpoint returned by the bisection fallback.
Missing from the full claim: the comparison is also passed by a NaN residual, see `C20_nan_false`. -/
theorem C20_newton_partial (f : R → R × R) (fuel : ℕ) (tmin tmax t : R) (h : newton1 f fuel tmin tmax = some t) :
    Accepted (fun x => (f x).1) (fun x => (f x).2) fuel tmin tmax t := by
  unfold newton1 at h
  rcases hl : Newton1.loop f fuel tmin tmax 32 tmin (f tmin).1 (f tmin).2 with _ | (u | u)
  · rw [hl] at h; exact absurd h (by simp)
  · rw [hl] at h
    simp only [Option.some.injEq] at h; subst h
    exact Or.inl (Newton1.loop_inl f fuel tmin tmax 32 tmin hl)
  · rw [hl] at h
    dsimp only at h
    split_ifs at h with hu
    · exact Or.inr (Or.inr h)
    · simp only [Option.some.injEq] at h; subst h
      exact Or.inr (Or.inl (Bool.eq_false_of_not_eq_true hu))

theorem Halley1.loop_inl (f : R → R × R × R) (fuel : ℕ) (tmin tmax : R) (k : ℕ) (t : R) {t' : R}
    (h : Halley1.loop f fuel tmin tmax k t (f t).1 (f t).2.1 (f t).2.2 = some (.inl t')) :
    Scalar.eq (f t').1 0 = true := by
  induction k generalizing t with
  | zero =>
    unfold Halley1.loop at h
    split_ifs at h with h0
    · simp only [Option.some.injEq, Sum.inl.injEq] at h; subst h; exact h0
    · revert h; cases Halley1.next f fuel tmin tmax t (f t).1 (f t).2.1 (f t).2.2 <;> simp
  | succ k ih =>
    unfold Halley1.loop at h
    split_ifs at h with h0
    · simp only [Option.some.injEq, Sum.inl.injEq] at h; subst h; exact h0
    · revert h
      cases Halley1.next f fuel tmin tmax t (f t).1 (f t).2.1 (f t).2.2 with
      | none => simp
      | some u =>
        dsimp only
        split_ifs
        · exact ih u
        · simp

/-- C20 for `halley(f, tmin, tmax)`, in the form of `C20_newton_partial`. -/
theorem C20_halley_partial (f : R → R × R × R) (fuel : ℕ) (tmin tmax t : R) (h : halley1 f fuel tmin tmax = some t) :
    Accepted (fun x => (f x).1) (fun x => (f x).2.1) fuel tmin tmax t := by
  unfold halley1 at h
  rcases hl : Halley1.loop f fuel tmin tmax 32 tmin (f tmin).1 (f tmin).2.1 (f tmin).2.2 with _ | (u | u)
  · rw [hl] at h; exact absurd h (by simp)
  · rw [hl] at h
    simp only [Option.some.injEq] at h; subst h
    exact Or.inl (Halley1.loop_inl f fuel tmin tmax 32 tmin hl)
  · rw [hl] at h
    dsimp only at h
    split_ifs at h with hu
    · exact Or.inr (Or.inr h)
    · simp only [Option.some.injEq] at h; subst h
      exact Or.inr (Or.inl (Bool.eq_false_of_not_eq_true hu))

end C20

theorem accepted_fin [F.Exact] {y dy : Fl F → Fl F} {fuel : ℕ} {tmin tmax : Fl F} {x : ℝ} {Y D : ℝ}
    (hy : y (fin x) = fin Y) (hd : dy (fin x) = fin D) (h : Accepted y dy fuel tmin tmax (fin x)) :
    |Y| ≤ F.eps * |x * D| ∨ bisectBackup y fuel tmin tmax = some (fin x) := by
  have he : (0 : ℝ) < F.eps := Fmt.Exact.eps_pos
  rcases h with h | h | h
  · left
    rw [hy, ofNat_zero, Fl.eq_fin, decide_eq_true_eq] at h
    rw [h, abs_zero]; positivity
  · left
    rw [hy, hd] at h
    simp only [fl, gt, decide_eq_false_iff_not, not_lt] at h
    exact h
  · exact Or.inr h

/-- The `t` reached by a body of `newton` is inside the range, or NaN, or the bisection midpoint. -/
theorem Newton1.next_range {f : Fl F → Fl F × Fl F} {fuel : ℕ} {tmin tmax t y dy t' : Fl F}
    (h : Newton1.next f fuel tmin tmax t y dy = some t') :
    (lt t' tmin = false ∧ gt t' tmax = false) ∨ bisectBackup (fun x => (f x).1) fuel tmin tmax = some t' := by
  unfold Newton1.next at h
  dsimp only at h
  split_ifs at h with h0 h1
  · exact Or.inr h
  · exact Or.inr h
  · left
    simp only [Option.some.injEq] at h; subst h
    simpa using h1

theorem Newton1.loop_range {f : Fl F → Fl F × Fl F} {fuel : ℕ} {tmin tmax : Fl F} (k : ℕ) {t y dy : Fl F}
    {r : Fl F ⊕ Fl F} (h : Newton1.loop f fuel tmin tmax k t y dy = some r)
    (ht : (lt t tmin = false ∧ gt t tmax = false) ∨ bisectBackup (fun x => (f x).1) fuel tmin tmax = some t) :
    (lt (r.elim id id) tmin = false ∧ gt (r.elim id id) tmax = false) ∨
      bisectBackup (fun x => (f x).1) fuel tmin tmax = some (r.elim id id) := by
  induction k generalizing t y dy with
  | zero =>
    unfold Newton1.loop at h
    split_ifs at h with h0
    · simp only [Option.some.injEq] at h; subst h; exact ht
    · rcases hn : Newton1.next f fuel tmin tmax t y dy with _ | u
      · rw [hn] at h; exact absurd h (by simp)
      · rw [hn] at h
        dsimp only at h
        have hu := Newton1.next_range hn
        split_ifs at h <;>
          (simp only [Option.some.injEq] at h; subst h; exact hu)
  | succ k ih =>
    unfold Newton1.loop at h
    split_ifs at h with h0
    · simp only [Option.some.injEq] at h; subst h; exact ht
    · rcases hn : Newton1.next f fuel tmin tmax t y dy with _ | u
      · rw [hn] at h; exact absurd h (by simp)
      · rw [hn] at h
        dsimp only at h
        have hu := Newton1.next_range hn
        split_ifs at h
        · exact ih h hu
        · simp only [Option.some.injEq] at h; subst h; exact hu

/-- C20, `newton` in exact arithmetic for a function that is finite inside the range: a non-NaN result is a real
number inside the range with `|f| ≤ eps |x f'|` there, or the midpoint returned by bisection. -/
theorem C20_newton_exact [F.Exact] (f : Fl F → Fl F × Fl F) (φ φ' : ℝ → ℝ) (a b : ℝ) (hab : a ≤ b)
    (hf : ∀ x, a ≤ x → x ≤ b → f (fin x) = (fin (φ x), fin (φ' x))) (fuel : ℕ) (t : Fl F)
    (h : newton1 f fuel (fin a) (fin b) = some t) (hn : isNaN t = false) :
    (∃ x, t = fin x ∧ a ≤ x ∧ x ≤ b ∧ |φ x| ≤ F.eps * |x * φ' x|) ∨
      bisectBackup (fun x => (f x).1) fuel (fin a) (fin b) = some t := by
  have hacc := C20_newton_partial f fuel _ _ t h
  have hr : (lt t (fin a) = false ∧ gt t (fin b) = false) ∨
      bisectBackup (fun x => (f x).1) fuel (fin a) (fin b) = some t := by
    have h0 : (lt (fin a : Fl F) (fin a) = false ∧ gt (fin a : Fl F) (fin b) = false) := by simp [gt, hab]
    unfold newton1 at h
    rcases hl : Newton1.loop f fuel (fin a) (fin b) 32 (fin a) (f (fin a)).1 (f (fin a)).2 with _ | (u | u)
    · rw [hl] at h; exact absurd h (by simp)
    · rw [hl] at h; simp only [Option.some.injEq] at h; subst h
      exact Newton1.loop_range 32 hl (Or.inl h0)
    · rw [hl] at h; dsimp only at h
      split_ifs at h
      · exact Or.inr h
      · simp only [Option.some.injEq] at h; subst h
        exact Newton1.loop_range 32 hl (Or.inl h0)
  rcases hr with ⟨h1, h2⟩ | hr
  · match t, hn, h1, h2 with
    | .fin x, _, h1, h2 =>
      have hx1 : a ≤ x := by simpa using h1
      have hx2 : x ≤ b := by simpa [gt] using h2
      rcases accepted_fin (Y := φ x) (D := φ' x) (by rw [hf x hx1 hx2]) (by rw [hf x hx1 hx2]) hacc with h | h
      · exact Or.inl ⟨x, rfl, hx1, hx2, h⟩
      · exact Or.inr h
    | .ninf, _, h1, _ => simp at h1
    | .pinf, _, _, h2 => simp [gt] at h2
  · exact Or.inr hr

/-- A run that meets the hypotheses: `f(t) = t - 1` on `[0,2]` yields 1. -/
example (fuel : ℕ) : newton1 (fun t : Fl exact64 => (t - fin 1, fin 1)) fuel (fin 0) (fin 2) = some (fin 1) := by
  have e1 : (fin 0 - fin 1 : Fl exact64) = fin (-1) := by rw [sub_fin]; norm_num
  have e2 : (fin 1 - fin 1 : Fl exact64) = fin 0 := by rw [sub_fin]; norm_num
  have e : Newton1.next (fun t : Fl exact64 => (t - fin 1, fin 1)) fuel (fin 0) (fin 2) (fin 0) (fin (-1)) (fin 1) =
      some (fin 1) := by
    unfold Newton1.next
    rw [ofNat_zero, Fl.eq_fin, if_neg (by simp), div_fin _ (by norm_num)]
    norm_num [gt]
  have e5 : gt (Scalar.abs (fin 0 : Fl exact64)) (eps * Scalar.abs (fin 1 * fin 1)) = false := by
    have he : (0 : ℝ) < exact64.eps := Fmt.Exact.eps_pos
    simp only [gt, abs_fin, mul_fin, eps_def, lt_fin, decide_eq_false_iff_not, not_lt, abs_zero]; positivity
  unfold newton1 Newton1.loop Newton1.unconverged
  simp only [e1, e, ofNat_zero, Fl.eq_fin, e2, e5]
  rw [if_neg (by norm_num)]
  rw [abs_fin, abs_zero] at e5
  simp [-mul_fin, -sub_fin, e2, e5]

/-- C20, `halley` in exact arithmetic at a finite result where the function is finite. -/
theorem C20_halley_exact [F.Exact] (f : Fl F → Fl F × Fl F × Fl F) (tmin tmax : Fl F) (fuel : ℕ) (x Y D D2 : ℝ)
    (h : halley1 f fuel tmin tmax = some (fin x)) (hf : f (fin x) = (fin Y, fin D, fin D2)) :
    |Y| ≤ F.eps * |x * D| ∨ bisectBackup (fun x => (f x).1) fuel tmin tmax = some (fin x) :=
  accepted_fin (by rw [hf]) (by rw [hf]) (C20_halley_partial f fuel _ _ _ h)

/-- C20 fails when a NaN appears: here `y = 1` everywhere and the derivative is NaN at `t = 1`, the first Newton
iterate. The comparison `abs(y) > eps*abs(t*dydt)` is false there, so 1 is returned although it is neither close to a
zero nor a bisection midpoint. -/
theorem C20_nan_false [F.Exact] (fuel : ℕ) :
    ∃ f : Fl F → Fl F × Fl F, newton1 f fuel (fin 0) (fin 2) = some (fin 1) ∧ (f (fin 1)).1 = fin 1 ∧
      Scalar.le (Scalar.abs (f (fin 1)).1) (eps * Scalar.abs (fin 1 * (f (fin 1)).2)) = false ∧
      bisectBackup (fun x => (f x).1) fuel (fin 0) (fin 2) ≠ some (fin 1) := by
  classical
  refine ⟨fun t => (fin 1, if t = fin 0 then fin (-1) else Fl.nan), ?_, rfl, by simp, ?_⟩
  · have e : Newton1.next (fun t : Fl F => ((fin 1 : Fl F), if t = fin 0 then fin (-1) else (Fl.nan : Fl F))) fuel
        (fin 0) (fin 2) (fin 0) (fin 1) (fin (-1)) = some (fin 1) := by
      unfold Newton1.next
      rw [ofNat_zero, Fl.eq_fin, if_neg (by simp), div_fin _ (by norm_num)]
      simp [gt, show ¬ (1 : ℝ) < 0 by norm_num]
    unfold newton1 Newton1.loop Newton1.unconverged
    simp only [if_true, e, ofNat_zero, Fl.eq_fin]
    simp [gt]
  · unfold bisectBackup
    cases h : bisect (fun x : Fl F => ((fin 1 : Fl F), if x = fin 0 then fin (-1) else (Fl.nan : Fl F)).1) fuel (fin 0)
      (fin 2) with
    | none => simp
    | some r =>
      obtain ⟨x, y⟩ := r
      rcases C19_bisect_partial (F := F) (f := fun _ => 1) (fun _ => rfl) 0 2 (by norm_num) fuel x y h with
        ⟨z, _, _, hz, _⟩ | ⟨rfl, rfl, _⟩ | ⟨p, _, _, hp, _⟩
      · norm_num at hz
      · simp
      · norm_num at hp

/-- The range is not respected by `halley`: for `f(t) = 4 - t²` on `[0,1]` the result is 2 (halley.hpp:60-62 adds
`2h` without a second range test). -/
theorem C20_halley_leaves_range [F.Exact] (fuel : ℕ) :
    halley1 (fun t : Fl F => (fin 4 - t * t, fin (-2) * t, fin (-2))) fuel (fin 0) (fin 1) = some (fin 2) := by
  have hs : Real.sqrt 4 = 2 := by rw [show (4 : ℝ) = 2 ^ 2 by norm_num]; exact Real.sqrt_sq (by norm_num)
  have e : Halley1.next (fun t : Fl F => (fin 4 - t * t, fin (-2) * t, (fin (-2) : Fl F))) fuel
      (fin 0) (fin 1) (fin 0) (fin 4) (fin 0) (fin (-2)) = some (fin 2) := by
    have e2 : (-2 * fin 4 / fin (-2) : Fl F) = fin 4 := by
      rw [ofNat_def, Fl.neg_fin, mul_fin, div_fin _ (by norm_num)]; norm_num
    unfold Halley1.next
    dsimp only
    rw [e2, sqrt_fin (by norm_num), hs]
    simp only [ofNat_zero, Fl.eq_fin, lt_fin, gt, sub_fin, ofNat_def, mul_fin, add_fin]
    norm_num
  have e3 : (fin 4 - fin 0 * fin 0 : Fl F) = fin 4 ∧ (fin (-2) * fin 0 : Fl F) = fin 0 := by simp
  have e4 : (fin 4 - fin 2 * fin 2 : Fl F) = fin 0 := by rw [mul_fin, sub_fin]; norm_num
  have e5 : gt (Scalar.abs (fin 0 : Fl F)) (eps * Scalar.abs (fin 2 * (fin (-2) * fin 2))) = false := by
    have he : (0 : ℝ) < F.eps := Fmt.Exact.eps_pos
    simp only [gt, abs_fin, mul_fin, eps_def, lt_fin, decide_eq_false_iff_not, not_lt, abs_zero]; positivity
  unfold halley1 Halley1.loop Newton1.unconverged
  simp only [e3, e, ofNat_zero, Fl.eq_fin, e4, e5]
  rw [if_neg (by norm_num)]
  rw [abs_fin, abs_zero] at e5
  simp [-mul_fin, -sub_fin, e4, e5]

/-- C20/C22: `newton` and `halley` in one dimension finish for every real function on every range `a < b`, since the
only unbounded loop is the scan of `bisect`. -/
theorem C22_one_dimension_terminates [F.Exact] (f : Fl F → Fl F × Fl F) (h : Fl F → Fl F × Fl F × Fl F) (φ : ℝ → ℝ)
    (hf : ∀ x : ℝ, (f (fin x)).1 = fin (φ x)) (hh : ∀ x : ℝ, (h (fin x)).1 = fin (φ x)) (a b : ℝ) (hab : a < b) :
    ∃ N, ∀ fuel, N < fuel → newton1 f fuel (fin a) (fin b) ≠ none ∧ halley1 h fuel (fin a) (fin b) ≠ none := by
  obtain ⟨N, hN⟩ := C19_terminates (F := F) (g := fun x => (f x).1) hf a b hab
  obtain ⟨M, hM⟩ := C19_terminates (F := F) (g := fun x => (h x).1) hh a b hab
  refine ⟨max N M, fun fuel hfuel => ⟨?_, ?_⟩⟩
  · have hb : bisectBackup (fun x => (f x).1) fuel (fin a) (fin b) ≠ none := by
      have := hN fuel (lt_of_le_of_lt (le_max_left _ _) hfuel)
      unfold bisectBackup
      cases hx : bisect (fun x => (f x).1) fuel (fin a) (fin b) with
      | none => exact absurd hx this
      | some r => simp
    have hnext : ∀ t y dy, Newton1.next f fuel (fin a) (fin b) t y dy ≠ none := by
      intro t y dy; unfold Newton1.next; dsimp only; split_ifs <;> first | exact hb | simp
    have hl : ∀ k t y dy, Newton1.loop f fuel (fin a) (fin b) k t y dy ≠ none := by
      intro k
      induction k with
      | zero =>
        intro t y dy; unfold Newton1.loop
        have := hnext t y dy
        cases hx : Newton1.next f fuel (fin a) (fin b) t y dy with
        | none => exact absurd hx this
        | some t' => dsimp only; split_ifs <;> simp
      | succ k ih =>
        intro t y dy; unfold Newton1.loop
        have := hnext t y dy
        cases hx : Newton1.next f fuel (fin a) (fin b) t y dy with
        | none => exact absurd hx this
        | some t' => dsimp only; split_ifs <;> first | exact ih _ _ _ | simp
    unfold newton1
    have := hl 32 (fin a) (f (fin a)).1 (f (fin a)).2
    cases hx : Newton1.loop f fuel (fin a) (fin b) 32 (fin a) (f (fin a)).1 (f (fin a)).2 with
    | none => exact absurd hx this
    | some r => rcases r with r | r <;> dsimp only <;> (try split_ifs) <;> first | exact hb | simp
  · have hb : bisectBackup (fun x => (h x).1) fuel (fin a) (fin b) ≠ none := by
      have := hM fuel (lt_of_le_of_lt (le_max_right _ _) hfuel)
      unfold bisectBackup
      cases hx : bisect (fun x => (h x).1) fuel (fin a) (fin b) with
      | none => exact absurd hx this
      | some r => simp
    have hnext : ∀ t y dy d2, Halley1.next h fuel (fin a) (fin b) t y dy d2 ≠ none := by
      intro t y dy d2; unfold Halley1.next; dsimp only
      cases hx : bisectBackup (fun x => (h x).1) fuel (fin a) (fin b) with
      | none => exact absurd hx hb
      | some u =>
        split_ifs <;> simp only [Option.bind_eq_bind, Option.bind_some, ne_eq, reduceCtorEq, not_false_eq_true] <;>
          split_ifs <;> simp
    have hl : ∀ k t y dy d2, Halley1.loop h fuel (fin a) (fin b) k t y dy d2 ≠ none := by
      intro k
      induction k with
      | zero =>
        intro t y dy d2; unfold Halley1.loop
        have := hnext t y dy d2
        cases hx : Halley1.next h fuel (fin a) (fin b) t y dy d2 with
        | none => exact absurd hx this
        | some t' => dsimp only; split_ifs <;> simp
      | succ k ih =>
        intro t y dy d2; unfold Halley1.loop
        have := hnext t y dy d2
        cases hx : Halley1.next h fuel (fin a) (fin b) t y dy d2 with
        | none => exact absurd hx this
        | some t' => dsimp only; split_ifs <;> first | exact ih _ _ _ _ | simp
    unfold halley1
    have := hl 32 (fin a) (h (fin a)).1 (h (fin a)).2.1 (h (fin a)).2.2
    cases hx : Halley1.loop h fuel (fin a) (fin b) 32 (fin a) (h (fin a)).1 (h (fin a)).2.1 (h (fin a)).2.2 with
    | none => exact absurd hx this
    | some r => rcases r with r | r <;> dsimp only <;> (try split_ifs) <;> first | exact hb | simp

example : ∃ N, ∀ fuel, N < fuel → newton1 (fun t : Fl exact64 => (t * t + fin 1, fin 2 * t)) fuel (fin (-1)) (fin 3) ≠ none :=
  let ⟨N, h⟩ := C22_one_dimension_terminates (F := exact64) (fun t => (t * t + fin 1, fin 2 * t)) (fun t => (t * t + fin 1, fin 2 * t, fin 2))
    (fun x => x * x + 1) (fun x => by simp) (fun x => by simp) (-1) 3 (by norm_num)
  ⟨N, fun fuel hf => (h fuel hf).1⟩

/-! ## C21 and C22: the `n`-dimensional solvers, for every arithmetic, function and linear solver -/

section C21
variable {R : Type} [Scalar R]

/-- `v` and `J` belong to the current guess. -/
def NewtonN.Synced (f : Vec R n → Vec R n × Mat R n n) (s : NewtonN.State R n) : Prop :=
  s.v = (f s.guess).1 ∧ s.J = (f s.guess).2

theorem NewtonN.advance_spec {f : Vec R n → Vec R n × Mat R n n} {s s' : NewtonN.State R n} {dw : Vec R n}
    (h : NewtonN.advance f s dw = some s') :
    NewtonN.Synced f s' ∧ s'.expected = expectedResidual (f s'.guess).2 s'.guess ∧ s'.left = s.left ∧
      s'.bodies = s.bodies ∧ (s'.restarts = s.restarts ∨ s'.restarts = s.restarts + 1) := by
  unfold NewtonN.advance at h
  dsimp only at h
  split_ifs at h <;> simp only [Option.some.injEq] at h <;> subst h <;>
    exact ⟨⟨rfl, rfl⟩, rfl, rfl, rfl, by simp⟩

theorem NewtonN.body_spec {solve : Mat R n n → Vec R n → Option (Vec R n)} {f : Vec R n → Vec R n × Mat R n n}
    {s : NewtonN.State R n} {r : NewtonN.State R n ⊕ NewtonN.State R n} (h : NewtonN.body solve f s = some r) :
    (∃ s', r = .inr s' ∧ s'.left = s.left + 1 ∧ 6 < s'.left ∧ s'.bodies = s.bodies + 1 ∧
      s'.restarts = s.restarts + 1) ∨
    (∃ s', r = .inl s' ∧ NewtonN.Synced f s' ∧ s'.bodies = s.bodies + 1 ∧
      ((s'.left = s.left + 1 ∧ s'.left ≤ 6 ∧ s'.expected = s.expected ∧ s'.restarts = s.restarts + 1) ∨
       (s'.left = s.left ∧ s'.expected = expectedResidual (f s'.guess).2 s'.guess ∧
        (s'.restarts = s.restarts ∨ s'.restarts = s.restarts + 1)))) := by
  unfold NewtonN.body at h
  dsimp only at h
  cases hs : solve s.J (-s.v) with
  | none => rw [hs] at h; cases h
  | some dw =>
    rw [hs] at h
    dsimp only at h
    split_ifs at h with h1 h2 h3 h4 h5
    · obtain ⟨s', ha, rfl⟩ := Option.map_eq_some_iff.mp h
      obtain ⟨q1, q2, q3, q4, q5⟩ := NewtonN.advance_spec ha
      exact Or.inr ⟨s', rfl, q1, q4, Or.inr ⟨q3, q2, q5⟩⟩
    · simp only [Option.some.injEq] at h; subst h
      exact Or.inl ⟨_, rfl, rfl, h4, rfl, rfl⟩
    · simp only [Option.some.injEq] at h; subst h
      exact Or.inr ⟨_, rfl, ⟨rfl, rfl⟩, rfl, Or.inl ⟨rfl, by simpa using h4, rfl, rfl⟩⟩
    · obtain ⟨s', ha, rfl⟩ := Option.map_eq_some_iff.mp h
      obtain ⟨q1, q2, q3, q4, q5⟩ := NewtonN.advance_spec ha
      exact Or.inr ⟨s', rfl, q1, q4, Or.inr ⟨q3, q2, q5⟩⟩

/-- What the loop guarantees about its outcome, started with `k` further bodies allowed. -/
theorem NewtonN.loop_spec {solve : Mat R (n + 1) (n + 1) → Vec R (n + 1) → Option (Vec R (n + 1))}
    {f : Vec R (n + 1) → Vec R (n + 1) × Mat R (n + 1) (n + 1)} (k : ℕ) {s : NewtonN.State R (n + 1)}
    {out : NewtonOut R (n + 1)} (h : NewtonN.loop solve f k s = some out) (hl : s.left ≤ 6) :
    (out.x = Vec.nans ∨ Scalar.le (maxNorm (f out.x).1) out.expected = true ∧
      (out.left = s.left → out.expected = expectedResidual (f out.x).2 out.x)) ∧
    s.left ≤ out.left ∧
    out.bodies ≤ s.bodies + k + 1 ∧ s.bodies < out.bodies ∧ out.left ≤ 7 ∧ out.restarts + s.bodies ≤ s.restarts + out.bodies ∧
      s.restarts + out.left ≤ s.left + out.restarts := by
  induction k generalizing s with
  | zero =>
    unfold NewtonN.loop at h
    cases hb : NewtonN.body solve f s with
    | none => rw [hb] at h; cases h
    | some r =>
      rw [hb] at h
      rcases NewtonN.body_spec hb with ⟨s', rfl, q1, q2, q3, q4⟩ | ⟨s', rfl, q1, q2, q3⟩
      · simp only [Option.some.injEq] at h; subst h
        refine ⟨Or.inl rfl, ?_⟩
        simp only [NewtonN.State.out]; omega
      · dsimp only at h
        rw [ite_self] at h
        simp only [Option.some.injEq] at h; subst h
        unfold NewtonN.finish
        split_ifs with hle
        · refine ⟨Or.inr ⟨by rw [q1.1] at hle; exact hle, fun hl' => ?_⟩, ?_⟩
          · simp only [NewtonN.State.out] at hl' ⊢
            rcases q3 with q3 | q3
            · omega
            · exact q3.2.1
          · simp only [NewtonN.State.out]; omega
        · refine ⟨Or.inl rfl, ?_⟩
          simp only [NewtonN.State.out]; omega
  | succ k ih =>
    unfold NewtonN.loop at h
    cases hb : NewtonN.body solve f s with
    | none => rw [hb] at h; cases h
    | some r =>
      rw [hb] at h
      rcases NewtonN.body_spec hb with ⟨s', rfl, q1, q2, q3, q4⟩ | ⟨s', rfl, q1, q2, q3⟩
      · simp only [Option.some.injEq] at h; subst h
        refine ⟨Or.inl rfl, ?_⟩
        simp only [NewtonN.State.out]; omega
      · dsimp only at h
        split_ifs at h with hgt
        · obtain ⟨i1, i2, i3, i4, i5, i6, i7⟩ := ih h (by omega)
          refine ⟨?_, by omega⟩
          rcases i1 with i1 | ⟨i1, i8⟩
          · exact Or.inl i1
          · exact Or.inr ⟨i1, fun hl' => i8 (by omega)⟩
        simp only [Option.some.injEq] at h; subst h
        unfold NewtonN.finish
        split_ifs with hle
        · refine ⟨Or.inr ⟨by rw [q1.1] at hle; exact hle, fun hl' => ?_⟩, ?_⟩
          · simp only [NewtonN.State.out] at hl' ⊢
            rcases q3 with q3 | q3
            · omega
            · exact q3.2.1
          · simp only [NewtonN.State.out]; omega
        · refine ⟨Or.inl rfl, ?_⟩
          simp only [NewtonN.State.out]; omega

/-- C21: if `newton(f, bound, guess, max_iterations)` does not return the NaN vector, then at the returned vector the
max-norm of `f` is at most the expected residual computed last. -/
theorem C21_residual (solve : Mat R (n + 1) (n + 1) → Vec R (n + 1) → Option (Vec R (n + 1)))
    (f : Vec R (n + 1) → Vec R (n + 1) × Mat R (n + 1) (n + 1)) (b : Bounds R (n + 1)) (guess : Vec R (n + 1))
    (maxIter : ℤ) (out : NewtonOut R (n + 1)) (h : newtonN solve f b guess maxIter = some out) :
    out.x = Vec.nans ∨ Scalar.le (maxNorm (f out.x).1) out.expected = true := by
  rcases (NewtonN.loop_spec _ h (by simp [NewtonN.start])).1 with h | h
  · exact Or.inl h
  · exact Or.inr h.1

/-- C21: if no step left the domain, the expected residual computed last is the one of the returned vector,
`max_i eps Σ_j |J(i,j) x[j]|`. (After a restart it may belong to an earlier point, see `C21_stale`.) -/
theorem C21_expected (solve : Mat R (n + 1) (n + 1) → Vec R (n + 1) → Option (Vec R (n + 1)))
    (f : Vec R (n + 1) → Vec R (n + 1) × Mat R (n + 1) (n + 1)) (b : Bounds R (n + 1)) (guess : Vec R (n + 1))
    (maxIter : ℤ) (out : NewtonOut R (n + 1)) (h : newtonN solve f b guess maxIter = some out) (h0 : out.left = 0) :
    out.x = Vec.nans ∨ Scalar.le (maxNorm (f out.x).1) (expectedResidual (f out.x).2 out.x) = true := by
  rcases (NewtonN.loop_spec _ h (by simp [NewtonN.start])).1 with h | h
  · exact Or.inl h
  · rw [← h.2 (by rw [h0]; rfl)]; exact Or.inr h.1

/-- C22: `newton` runs between one and `max(1, max_iterations)` loop bodies, leaves the domain at most 7 times and
draws at most one random vector per body, whatever the function and the linear solver do.
Missing from the full claim: random restarts after failed backtracking are not limited by 7, see
`C22_restarts_false`. -/
theorem C22_newton_partial (solve : Mat R (n + 1) (n + 1) → Vec R (n + 1) → Option (Vec R (n + 1)))
    (f : Vec R (n + 1) → Vec R (n + 1) × Mat R (n + 1) (n + 1)) (b : Bounds R (n + 1)) (guess : Vec R (n + 1))
    (maxIter : ℤ) (out : NewtonOut R (n + 1)) (h : newtonN solve f b guess maxIter = some out) :
    1 ≤ out.bodies ∧ (out.bodies : ℤ) ≤ max 1 maxIter ∧ out.left ≤ 7 ∧ out.left ≤ out.restarts ∧
      out.restarts ≤ out.bodies := by
  have := (NewtonN.loop_spec _ h (by simp [NewtonN.start])).2
  simp only [NewtonN.start] at this
  omega

theorem HalleyN.body_spec {solve : Mat R n n → Vec R n → Option (Vec R n)}
    {f : Vec R n → Vec R n × Mat R n n × Tensor R n n n}
    {s : HalleyN.State R n} {r : HalleyN.State R n ⊕ HalleyN.State R n} (h : HalleyN.body solve f s = some r) :
    (∃ s', r = .inr s' ∧ 5 ≤ s.randomizations ∧ s'.restarts = s.restarts ∧ s'.bodies = s.bodies + 1) ∨
    (∃ s', r = .inl s' ∧ s'.v = (f s'.guess).1 ∧ s'.expected = expectedResidual (f s'.guess).2.1 s'.guess ∧
      s'.bodies = s.bodies + 1 ∧
      ((s.randomizations < 5 ∧ s'.restarts = s.restarts + 1 ∧ s'.randomizations = s.randomizations + 1 ∧
        s'.guess = s.bound.random.1) ∨
       (s'.restarts = s.restarts ∧ s'.randomizations = s.randomizations ∧ s.bound.contains s'.guess = true ∧
        s'.bound = s.bound))) := by
  unfold HalleyN.body at h
  simp only [Option.bind_eq_bind, Option.bind_eq_some_iff, Option.pure_def] at h
  obtain ⟨a, -, c, -, e, -, h⟩ := h
  split_ifs at h with h1 h2 <;> simp only [Option.some.injEq] at h <;> subst h
  · exact Or.inr ⟨_, rfl, rfl, rfl, rfl, Or.inr ⟨rfl, rfl, h1, rfl⟩⟩
  · exact Or.inr ⟨_, rfl, rfl, rfl, rfl, Or.inl ⟨h2, rfl, rfl, rfl⟩⟩
  · exact Or.inl ⟨_, rfl, not_lt.mp h2, rfl, rfl⟩

theorem HalleyN.loop_spec {solve : Mat R (n + 1) (n + 1) → Vec R (n + 1) → Option (Vec R (n + 1))}
    {f : Vec R (n + 1) → Vec R (n + 1) × Mat R (n + 1) (n + 1) × Tensor R (n + 1) (n + 1) (n + 1)} (k : ℕ)
    {s : HalleyN.State R (n + 1)} {x : Vec R (n + 1)} {out : HalleyN.State R (n + 1)}
    (h : HalleyN.loop solve f k s = some (x, out)) (hs : s.restarts = s.randomizations) (hs5 : s.restarts ≤ 5) :
    (x = Vec.nans ∨ Scalar.le (maxNorm (f x).1) (expectedResidual (f x).2.1 x) = true) ∧
    out.bodies ≤ s.bodies + k + 1 ∧ s.bodies < out.bodies ∧ out.restarts ≤ 5 := by
  have fin' : ∀ s' : HalleyN.State R (n + 1), s'.v = (f s'.guess).1 →
      s'.expected = expectedResidual (f s'.guess).2.1 s'.guess → HalleyN.finish s' = (x, out) →
      (x = Vec.nans ∨ Scalar.le (maxNorm (f x).1) (expectedResidual (f x).2.1 x) = true) ∧ out = s' := by
    intro s' e1 e2 e3
    unfold HalleyN.finish at e3
    split_ifs at e3 with hle <;> simp only [Prod.mk.injEq] at e3 <;> obtain ⟨rfl, rfl⟩ := e3
    · rw [e1, e2] at hle; exact ⟨Or.inr hle, rfl⟩
    · exact ⟨Or.inl rfl, rfl⟩
  induction k generalizing s with
  | zero =>
    unfold HalleyN.loop at h
    cases hb : HalleyN.body solve f s with
    | none => rw [hb] at h; cases h
    | some r =>
      rw [hb] at h
      rcases HalleyN.body_spec hb with ⟨s', rfl, q1, q2, q3⟩ | ⟨s', rfl, q1, q2, q3, q4⟩
      · simp only [Option.some.injEq, Prod.mk.injEq] at h; obtain ⟨rfl, rfl⟩ := h
        exact ⟨Or.inl rfl, by omega⟩
      · dsimp only at h
        rw [ite_self] at h
        simp only [Option.some.injEq] at h
        obtain ⟨e1, rfl⟩ := fin' s' q1 q2 h
        exact ⟨e1, by omega⟩
  | succ k ih =>
    unfold HalleyN.loop at h
    cases hb : HalleyN.body solve f s with
    | none => rw [hb] at h; cases h
    | some r =>
      rw [hb] at h
      rcases HalleyN.body_spec hb with ⟨s', rfl, q1, q2, q3⟩ | ⟨s', rfl, q1, q2, q3, q4⟩
      · simp only [Option.some.injEq, Prod.mk.injEq] at h; obtain ⟨rfl, rfl⟩ := h
        exact ⟨Or.inl rfl, by omega⟩
      · dsimp only at h
        split_ifs at h with hgt
        · obtain ⟨i1, i2⟩ := ih h (by omega) (by omega)
          exact ⟨i1, by omega⟩
        simp only [Option.some.injEq] at h
        obtain ⟨e1, rfl⟩ := fin' s' q1 q2 h
        exact ⟨e1, by omega⟩

/-- C21 and C22 for `halley(f, bound, guess, max_iterations)`: the residual at a returned vector is at most the expected
residual of that vector; between one and `max(1, max_iterations)` bodies; at most 5 random restarts. -/
theorem C22_halley (solve : Mat R (n + 1) (n + 1) → Vec R (n + 1) → Option (Vec R (n + 1)))
    (f : Vec R (n + 1) → Vec R (n + 1) × Mat R (n + 1) (n + 1) × Tensor R (n + 1) (n + 1) (n + 1))
    (b : Bounds R (n + 1)) (guess : Vec R (n + 1)) (maxIter : ℤ) (x : Vec R (n + 1)) (out : HalleyN.State R (n + 1))
    (h : halleyN solve f b guess maxIter = some (x, out)) :
    (x = Vec.nans ∨ Scalar.le (maxNorm (f x).1) (expectedResidual (f x).2.1 x) = true) ∧
    1 ≤ out.bodies ∧ (out.bodies : ℤ) ≤ max 1 maxIter ∧ out.restarts ≤ 5 := by
  have := HalleyN.loop_spec _ h rfl (by simp [HalleyN.start])
  simp only [HalleyN.start] at this
  refine ⟨this.1, ?_⟩
  omega

end C21

end DRT
