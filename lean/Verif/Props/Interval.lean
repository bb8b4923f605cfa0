import Verif.Model.Interval
import Verif.Scalar.IEEE

/-! # C25-C31: `interval` -/

namespace DRT
open Scalar Fl

variable {F : Fmt}

/-- Specification: the real number `z` lies in the interval (ends may be infinite; an end that is NaN excludes
everything). -/
def Interval.Has (x : Interval (Fl F)) (z : ℝ) : Prop := Scalar.le x.a (fin z) = true ∧ Scalar.le (fin z) x.b = true

/-- The operations of the format `G m` in each mode `m`, on the values shared by all formats. -/
noncomputable def modal (F : Fmt) (G : Mode → Fmt) : Mode → Scalar (Fl F) :=
  fun m => (inferInstance : Scalar (Fl (G m)))

/-- Downward rounding is never above the exact result, upward rounding never below. -/
structure Directed (F : Fmt) (G : Mode → Fmt) : Prop where
  down : ∀ x, @Scalar.le (Fl F) _ ((G .down).round x) (fin x) = true
  up : ∀ x, @Scalar.le (Fl F) _ (fin x) ((G .up).round x) = true

/-- Rounding toward plus infinity with 8 fractional bits. -/
noncomputable def ceil8 : Fmt := { floor8 with round := fun x => .fin (⌈x * 256⌉ / 256) }

/-- A family whose directed modes really round. -/
noncomputable def modes8 : Mode → Fmt
  | .up => ceil8
  | _ => floor8

theorem modes8_directed (F : Fmt) : Directed F modes8 where
  down x := by
    show Scalar.le (fin (⌊x * 256⌋ / 256) : Fl F) (fin x) = true
    rw [le_fin, decide_eq_true_eq]
    have := Int.floor_le (x * 256)
    linarith
  up x := by
    show Scalar.le (fin x : Fl F) (fin (⌈x * 256⌉ / 256)) = true
    rw [le_fin, decide_eq_true_eq]
    have := Int.le_ceil (x * 256)
    linarith

/-! ## C25 -/

section modal
variable {G : Mode → Fmt} (hG : Directed F G)
include hG

theorem addIn_down {x y : Fl F} {s t : ℝ} (hx : Scalar.le x (fin s) = true) (hy : Scalar.le y (fin t) = true) :
    Scalar.le (Interval.addIn (modal F G) .down x y) (fin (s + t)) = true := by
  cases x with
  | nan => simp at hx
  | pinf => simp at hx
  | ninf =>
    cases y with
    | nan => simp at hy
    | pinf => simp at hy
    | ninf => exact ninf_le_fin (F := F) _
    | fin b => exact ninf_le_fin (F := F) _
  | fin a =>
    cases y with
    | nan => simp at hy
    | pinf => simp at hy
    | ninf => exact ninf_le_fin (F := F) _
    | fin b =>
      refine Fl.le_trans (hG.down (a + b)) ?_
      simp only [le_fin, decide_eq_true_eq] at hx hy ⊢
      linarith

theorem addIn_up {x y : Fl F} {s t : ℝ} (hx : Scalar.le (fin s) x = true) (hy : Scalar.le (fin t) y = true) :
    Scalar.le (fin (s + t)) (Interval.addIn (modal F G) .up x y) = true := by
  cases x with
  | nan => simp at hx
  | ninf => simp at hx
  | pinf =>
    cases y with
    | nan => simp at hy
    | ninf => simp at hy
    | pinf => exact fin_le_pinf (F := F) _
    | fin b => exact fin_le_pinf (F := F) _
  | fin a =>
    cases y with
    | nan => simp at hy
    | ninf => simp at hy
    | pinf => exact fin_le_pinf (F := F) _
    | fin b =>
      refine Fl.le_trans ?_ (hG.up (a + b))
      simp only [le_fin, decide_eq_true_eq] at hx hy ⊢
      linarith

theorem subIn_down {x y : Fl F} {s t : ℝ} (hx : Scalar.le x (fin s) = true) (hy : Scalar.le (fin t) y = true) :
    Scalar.le (Interval.subIn (modal F G) .down x y) (fin (s - t)) = true := by
  have : Interval.subIn (modal F G) .down x y = Interval.addIn (modal F G) .down x (-y) := by cases y <;> rfl
  rw [this, sub_eq_add_neg]
  refine addIn_down hG hx ?_
  cases y <;> simp at hy ⊢
  exact hy

theorem subIn_up {x y : Fl F} {s t : ℝ} (hx : Scalar.le (fin s) x = true) (hy : Scalar.le y (fin t) = true) :
    Scalar.le (fin (s - t)) (Interval.subIn (modal F G) .up x y) = true := by
  have : Interval.subIn (modal F G) .up x y = Interval.addIn (modal F G) .up x (-y) := by cases y <;> rfl
  rw [this, sub_eq_add_neg]
  refine addIn_up hG hx ?_
  cases y <;> simp at hy ⊢
  exact hy

/-- C25: sums of members are members of the sum, for all intervals (unbounded ones too) and directed roundings. -/
theorem C25_add (X Y : Interval (Fl F)) (m : Mode) {x y : ℝ} (hx : X.Has x) (hy : Y.Has y) :
    (Interval.add (modal F G) X Y m).1.Has (x + y) :=
  ⟨addIn_down hG hx.1 hy.1, addIn_up hG hx.2 hy.2⟩

/-- C25: differences. -/
theorem C25_sub (X Y : Interval (Fl F)) (m : Mode) {x y : ℝ} (hx : X.Has x) (hy : Y.Has y) :
    (Interval.sub (modal F G) X Y m).1.Has (x - y) :=
  ⟨subIn_down hG hx.1 hy.2, subIn_up hG hx.2 hy.1⟩

example : (Interval.sub (modal exact64 modes8) ⟨fin (1/3), fin (1/2)⟩ ⟨ninf, fin (1/3)⟩ .nearest).1.Has (1/3 - -1000) :=
  C25_sub (modes8_directed _) _ _ _ (by constructor <;> norm_num) (by constructor <;> norm_num)

/-- C25: in-place differences with a distinct argument. -/
theorem C25_sub_assign (X Y : Interval (Fl F)) (m : Mode) {x y : ℝ} (hx : X.Has x) (hy : Y.Has y) :
    (Interval.subAssign (modal F G) X Y m).1.Has (x - y) :=
  ⟨subIn_down hG hx.1 hy.2, subIn_up hG hx.2 hy.1⟩

example : (Interval.subAssign (modal exact64 modes8) ⟨fin (1/3), fin (1/2)⟩ ⟨ninf, fin (1/3)⟩ .nearest).1.Has (1/2 - -7) :=
  C25_sub_assign (modes8_directed _) _ _ _ (by constructor <;> norm_num) (by constructor <;> norm_num)

end modal

/-- C25: every function that switches the rounding mode restores it (any scalar type, any mode). -/
theorem C25_mode_restored {R : Type} (S : Mode → Scalar R) (X Y : Interval R) (m : Mode) :
    (Interval.add S X Y m).2 = m ∧ (Interval.sub S X Y m).2 = m ∧ (Interval.subAssign S X Y m).2 = m ∧
    (Interval.subAssignSelf S X m).2 = m ∧ (Interval.exp S X m).2 = m ∧ (Interval.log S X m).2 = m ∧
    (Interval.sqrt S X m).2 = m := ⟨rfl, rfl, rfl, rfl, rfl, rfl, rfl⟩

/-- `x -= x` reads the lower end it has just overwritten, so C25 fails for it, even without rounding error:
from [-2,-1] it yields [-1,0], which does not contain (-1) - (-2). -/
theorem C25_self_subtract_false : ∃ X : Interval (Fl exact64), X.Has (-1) ∧ X.Has (-2) ∧
    ¬ (Interval.subAssignSelf (modal exact64 (fun _ => exact64)) X .nearest).1.Has (-1 - -2) := by
  refine ⟨⟨fin (-2), fin (-1)⟩, ?_, ?_, ?_⟩
  · norm_num [Interval.Has]
  · norm_num [Interval.Has]
  · have e : (Interval.subAssignSelf (modal exact64 (fun _ => exact64)) ⟨fin (-2), fin (-1)⟩ .nearest).1.b =
        (fin (-1) - (fin (-2) - fin (-1)) : Fl exact64) := rfl
    rintro ⟨-, h⟩
    rw [e] at h
    norm_num at h

example : (Interval.add (modal exact64 modes8) ⟨fin (1/3), fin (1/2)⟩ ⟨fin (1/3), pinf⟩ .nearest).1.Has (1/3 + 1000) :=
  C25_add (modes8_directed _) _ _ _ (by constructor <;> norm_num) (by constructor <;> norm_num)

/-! ## C26 -/

/-- The loop of `operator*` finds the least and greatest product, ignoring NaN. -/
theorem mul_fold_spec (l : List (Fl F)) : ∀ ab : Interval (Fl F), isNaN ab.a = false → isNaN ab.b = false →
    let r := l.foldl (fun ab p => (⟨if gt ab.a p then p else ab.a, if Scalar.lt ab.b p then p else ab.b⟩ : Interval (Fl F))) ab
    (Scalar.le r.a ab.a = true ∧ ∀ p ∈ l, isNaN p = false → Scalar.le r.a p = true) ∧
    (Scalar.le ab.b r.b = true ∧ ∀ p ∈ l, isNaN p = false → Scalar.le p r.b = true) := by
  induction l with
  | nil => intro ab h1 h2; exact ⟨⟨Fl.le_refl h1, by simp⟩, ⟨Fl.le_refl h2, by simp⟩⟩
  | cons p l ih =>
    intro ab h1 h2
    have ha : isNaN (if gt ab.a p then p else ab.a) = false ∧ Scalar.le (if gt ab.a p then p else ab.a) ab.a = true ∧
        (isNaN p = false → Scalar.le (if gt ab.a p then p else ab.a) p = true) := by
      unfold Scalar.gt
      split_ifs with h
      · exact ⟨not_nan_of_lt_left h, Fl.le_of_lt h, fun hp => Fl.le_refl hp⟩
      · exact ⟨h1, Fl.le_refl h1, fun hp => Fl.le_of_not_lt hp h1 (by simpa using h)⟩
    have hb : isNaN (if Scalar.lt ab.b p then p else ab.b) = false ∧
        Scalar.le ab.b (if Scalar.lt ab.b p then p else ab.b) = true ∧
        (isNaN p = false → Scalar.le p (if Scalar.lt ab.b p then p else ab.b) = true) := by
      split_ifs with h
      · exact ⟨not_nan_of_lt_right h, Fl.le_of_lt h, fun hp => Fl.le_refl hp⟩
      · exact ⟨h2, Fl.le_refl h2, fun hp => Fl.le_of_not_lt h2 hp (by simpa using h)⟩
    obtain ⟨⟨i1, i2⟩, i3, i4⟩ := ih ⟨_, _⟩ ha.1 hb.1
    dsimp only at i1 i2 i3 i4 ⊢
    rw [List.foldl_cons]
    refine ⟨⟨Fl.le_trans i1 ha.2.1, ?_⟩, Fl.le_trans hb.2.1 i3, ?_⟩
    · intro q hq
      rcases List.mem_cons.mp hq with rfl | h
      · exact fun hn => Fl.le_trans i1 (ha.2.2 hn)
      · exact i2 q h
    · intro q hq
      rcases List.mem_cons.mp hq with rfl | h
      · exact fun hn => Fl.le_trans (hb.2.2 hn) i3
      · exact i4 q h

/-- Every product of ends that is not NaN lies in the product interval. -/
theorem mul_ends (X Y : Interval (Fl F)) {p : Fl F}
    (hp : p = X.a * Y.a ∨ p = X.a * Y.b ∨ p = X.b * Y.a ∨ p = X.b * Y.b) (hn : isNaN p = false) :
    Scalar.le (Interval.mul X Y).a p = true ∧ Scalar.le p (Interval.mul X Y).b = true := by
  obtain ⟨⟨-, h1⟩, -, h2⟩ := mul_fold_spec [X.a * Y.a, X.a * Y.b, X.b * Y.a, X.b * Y.b] ⟨inf, -inf⟩ rfl rfl
  have : p ∈ [X.a * Y.a, X.a * Y.b, X.b * Y.a, X.b * Y.b] := by simpa using hp
  exact ⟨h1 p this hn, h2 p this hn⟩

theorem real_mul_bounds {a b c d x y : ℝ} (hax : a ≤ x) (hxb : x ≤ b) (hcy : c ≤ y) (hyd : y ≤ d) :
    (a * c ≤ x * y ∨ a * d ≤ x * y ∨ b * c ≤ x * y ∨ b * d ≤ x * y) ∧
    (x * y ≤ a * c ∨ x * y ≤ a * d ∨ x * y ≤ b * c ∨ x * y ≤ b * d) := by
  rcases le_total 0 y with hy | hy
  · have l1 := mul_le_mul_of_nonneg_right hax hy
    have l2 := mul_le_mul_of_nonneg_right hxb hy
    constructor
    · rcases le_total 0 a with h | h
      · left; exact (mul_le_mul_of_nonneg_left hcy h).trans l1
      · right; left; exact (mul_le_mul_of_nonpos_left hyd h).trans l1
    · rcases le_total 0 b with h | h
      · right; right; right; exact l2.trans (mul_le_mul_of_nonneg_left hyd h)
      · right; right; left; exact l2.trans (mul_le_mul_of_nonpos_left hcy h)
  · have l1 := mul_le_mul_of_nonpos_right hax hy
    have l2 := mul_le_mul_of_nonpos_right hxb hy
    constructor
    · rcases le_total 0 b with h | h
      · right; right; left; exact (mul_le_mul_of_nonneg_left hcy h).trans l2
      · right; right; right; exact (mul_le_mul_of_nonpos_left hyd h).trans l2
    · rcases le_total 0 a with h | h
      · right; left; exact l1.trans (mul_le_mul_of_nonneg_left hyd h)
      · left; exact l1.trans (mul_le_mul_of_nonpos_left hcy h)

theorem has_fin {a b z : ℝ} : (⟨fin a, fin b⟩ : Interval (Fl F)).Has z ↔ a ≤ z ∧ z ≤ b := by
  simp [Interval.Has]

/-- C26 with rounding: for every monotone rounding, the product interval contains the *rounded* product of any two
members. -/
theorem C26_contains_rounded [F.Rounding] (a b c d : ℝ) {x y : ℝ} (hx : (⟨fin a, fin b⟩ : Interval (Fl F)).Has x)
    (hy : (⟨fin c, fin d⟩ : Interval (Fl F)).Has y) :
    Scalar.le (Interval.mul ⟨fin a, fin b⟩ ⟨fin c, fin d⟩).a (fin x * fin y : Fl F) = true ∧
    Scalar.le (fin x * fin y : Fl F) (Interval.mul ⟨fin a, fin b⟩ ⟨fin c, fin d⟩).b = true := by
  rw [has_fin] at hx hy
  have ends := fun (p : Fl F) => mul_ends (⟨fin a, fin b⟩ : Interval (Fl F)) ⟨fin c, fin d⟩ (p := p)
  have mono : ∀ {p q r s : ℝ}, p * q ≤ r * s → Scalar.le (fin p * fin q : Fl F) (fin r * fin s) = true :=
    fun h => Fmt.Rounding.mono h
  obtain ⟨hl, hu⟩ := real_mul_bounds hx.1 hx.2 hy.1 hy.2
  constructor
  · rcases hl with h | h | h | h
    · exact Fl.le_trans (ends (fin a * fin c) (by simp) (rnd_not_nan _)).1 (mono h)
    · exact Fl.le_trans (ends (fin a * fin d) (by simp) (rnd_not_nan _)).1 (mono h)
    · exact Fl.le_trans (ends (fin b * fin c) (by simp) (rnd_not_nan _)).1 (mono h)
    · exact Fl.le_trans (ends (fin b * fin d) (by simp) (rnd_not_nan _)).1 (mono h)
  · rcases hu with h | h | h | h
    · exact Fl.le_trans (mono h) (ends (fin a * fin c) (by simp) (rnd_not_nan _)).2
    · exact Fl.le_trans (mono h) (ends (fin a * fin d) (by simp) (rnd_not_nan _)).2
    · exact Fl.le_trans (mono h) (ends (fin b * fin c) (by simp) (rnd_not_nan _)).2
    · exact Fl.le_trans (mono h) (ends (fin b * fin d) (by simp) (rnd_not_nan _)).2

example : Scalar.le (Interval.mul ⟨fin (-2), fin 3⟩ ⟨fin (-5), fin 1⟩ : Interval (Fl binary32)).a (fin (1 / 3) * fin (1 / 7) : Fl binary32) = true :=
  (C26_contains_rounded _ _ _ _ (by constructor <;> norm_num) (by constructor <;> norm_num)).1

/-- C26 without rounding error: the product interval contains every product of members. -/
theorem C26_contains_partial [F.Exact] (a b c d : ℝ) {x y : ℝ} (hx : (⟨fin a, fin b⟩ : Interval (Fl F)).Has x)
    (hy : (⟨fin c, fin d⟩ : Interval (Fl F)).Has y) :
    (Interval.mul ⟨fin a, fin b⟩ ⟨fin c, fin d⟩ : Interval (Fl F)).Has (x * y) := by
  have h := C26_contains_rounded a b c d hx hy
  rwa [mul_fin] at h

example : (Interval.mul ⟨fin (-2), fin 3⟩ ⟨fin (-5), fin 1⟩ : Interval (Fl exact64)).Has (3 * (-5)) :=
  C26_contains_partial _ _ _ _ (by norm_num [Interval.Has]) (by norm_num [Interval.Has])

/-- The product of degenerate intervals is the degenerate interval of the rounded product. -/
theorem mul_degenerate (x y : ℝ) (h : isNaN (fin x * fin y : Fl F) = false) {z : ℝ}
    (hz : (Interval.mul ⟨fin x, fin x⟩ ⟨fin y, fin y⟩ : Interval (Fl F)).Has z) : (fin x * fin y : Fl F) = fin z := by
  unfold Interval.Has Interval.mul at hz
  simp only [List.foldl_cons, List.foldl_nil] at hz
  generalize (fin x * fin y : Fl F) = p at *
  cases p with
  | nan => simp at h
  | ninf => simp [Scalar.gt] at hz
  | pinf => simp [Scalar.gt] at hz
  | fin p =>
    simp [Scalar.gt] at hz
    rw [le_antisymm hz.1 hz.2]

/-- `operator*` does not switch the rounding mode, so C26 fails in `float`: with x = 1 + 2^-23, [x,x]*[x,x] does not
contain x². -/
theorem C26_rounding_false : ∃ x : ℝ, rnd binary32 x = fin x ∧ (⟨fin x, fin x⟩ : Interval (Fl binary32)).Has x ∧
    ¬ (Interval.mul ⟨fin x, fin x⟩ ⟨fin x, fin x⟩ : Interval (Fl binary32)).Has (x * x) := by
  refine ⟨(8388609 : ℕ) * 2 ^ (-23 : ℤ), ?_, by simp [Interval.Has], fun h => ?_⟩
  · exact ieee_rep (by norm_num) (by norm_num) (by norm_num [zpow_neg])
  · have h2 := mul_degenerate _ _ (rnd_not_nan _) h
    have hx : (((8388609 : ℕ) : ℝ) * 2 ^ (-23 : ℤ)) * (((8388609 : ℕ) : ℝ) * 2 ^ (-23 : ℤ)) =
        1 + 1 / 2 ^ 22 + 1 / 2 ^ 46 := by norm_num [zpow_neg]
    have h3 : rnd binary32 ((((8388609 : ℕ) : ℝ) * 2 ^ (-23 : ℤ)) * (((8388609 : ℕ) : ℝ) * 2 ^ (-23 : ℤ))) =
        fin ((((8388609 : ℕ) : ℝ) * 2 ^ (-23 : ℤ)) * (((8388609 : ℕ) : ℝ) * 2 ^ (-23 : ℤ))) := h2
    rw [hx] at h3
    have hlog : Int.log 2 ((1 : ℝ) + 1 / 2 ^ 22 + 1 / 2 ^ 46) = 0 := by
      apply le_antisymm
      · rw [← Int.lt_add_one_iff, ← Int.lt_zpow_iff_log_lt (by norm_num) (by norm_num)]; norm_num
      · rw [← Int.zpow_le_iff_le_log (by norm_num) (by norm_num)]; norm_num
    have hr : roundPos 24 (-126) ((1 : ℝ) + 1 / 2 ^ 22 + 1 / 2 ^ 46) = 8388610 * (1 / 8388608) := by
      unfold roundPos
      have hq : lastPlace 24 (-126) ((1 : ℝ) + 1 / 2 ^ 22 + 1 / 2 ^ 46) = -23 := by
        unfold lastPlace; rw [hlog]; norm_num
      rw [hq]
      have ht : ((1 : ℝ) + 1 / 2 ^ 22 + 1 / 2 ^ 46) / 2 ^ (-23 : ℤ) = 8388610 + 1 / 8388608 := by norm_num [zpow_neg]
      rw [ht]
      have hf : ⌊(8388610 : ℝ) + 1 / 8388608⌋ = 8388610 := by
        rw [Int.floor_eq_iff]; norm_num
      have he : roundEven ((8388610 : ℝ) + 1 / 8388608) = 8388610 := by
        unfold roundEven; rw [hf]; norm_num
      rw [he]; norm_num [zpow_neg]
    unfold binary32 at h3
    rw [ieee_round_nonneg (by norm_num), hr, if_pos (by norm_num)] at h3
    rw [fin_inj] at h3
    norm_num at h3

/-! ## C27 -/

section
variable [F.Exact]

theorem mul_upper_unbounded {a b c x y : ℝ} (hx : a ≤ x ∧ x ≤ b) (hc : 0 < c) (hy : c ≤ y) :
    (Interval.mul ⟨fin a, fin b⟩ ⟨fin c, pinf⟩ : Interval (Fl F)).Has (x * y) := by
  have hy0 := hc.trans_le hy
  have l1 := mul_le_mul_of_nonneg_right hx.1 hy0.le
  have l2 := mul_le_mul_of_nonneg_right hx.2 hy0.le
  have ends := fun (p : Fl F) => mul_ends (⟨fin a, fin b⟩ : Interval (Fl F)) ⟨fin c, pinf⟩ (p := p)
  constructor
  · rcases lt_or_ge a 0 with h | h
    · have e : (fin a * pinf : Fl F) = ninf := by rw [fin_mul_pinf, if_neg h.ne, infOf_neg h]
      exact Fl.le_trans (ends ninf (by simp [e]) rfl).1 (ninf_le_fin _)
    · refine Fl.le_trans (ends (fin (a * c)) (by simp) rfl).1 ?_
      have := mul_le_mul_of_nonneg_left hy h
      simp; linarith
  · rcases lt_or_ge 0 b with h | h
    · have e : (fin b * pinf : Fl F) = pinf := by rw [fin_mul_pinf, if_neg h.ne', infOf_pos h]
      exact Fl.le_trans (fin_le_pinf _) (ends pinf (by simp [e]) rfl).2
    · refine Fl.le_trans ?_ (ends (fin (b * c)) (by simp) rfl).2
      have := mul_le_mul_of_nonpos_left hy h
      simp; linarith

theorem mul_lower_unbounded {a b c x y : ℝ} (hx : a ≤ x ∧ x ≤ b) (hc : c < 0) (hy : y ≤ c) :
    (Interval.mul ⟨fin a, fin b⟩ ⟨ninf, fin c⟩ : Interval (Fl F)).Has (x * y) := by
  have hy0 := hy.trans_lt hc
  have l1 := mul_le_mul_of_nonpos_right hx.1 hy0.le
  have l2 := mul_le_mul_of_nonpos_right hx.2 hy0.le
  have ends := fun (p : Fl F) => mul_ends (⟨fin a, fin b⟩ : Interval (Fl F)) ⟨ninf, fin c⟩ (p := p)
  constructor
  · rcases lt_or_ge 0 b with h | h
    · have e : (fin b * ninf : Fl F) = ninf := by rw [fin_mul_ninf, if_neg h.ne', infOf_neg (by linarith)]
      exact Fl.le_trans (ends ninf (by simp [e]) rfl).1 (ninf_le_fin _)
    · refine Fl.le_trans (ends (fin (b * c)) (by simp) rfl).1 ?_
      have := mul_le_mul_of_nonpos_left hy h
      simp; linarith
  · rcases lt_or_ge a 0 with h | h
    · have e : (fin a * ninf : Fl F) = pinf := by rw [fin_mul_ninf, if_neg h.ne, infOf_pos (by linarith)]
      exact Fl.le_trans (fin_le_pinf _) (ends pinf (by simp [e]) rfl).2
    · refine Fl.le_trans ?_ (ends (fin (a * c)) (by simp) rfl).2
      have := mul_le_mul_of_nonneg_left hy h
      simp; linarith

/-- C27 without rounding error, for divisors that do not contain zero or have it as lower end: the quotient interval
contains every quotient of members. Missing: divisors with zero as upper end or in the interior, see below. -/
theorem C27_contains_partial (a b c d : ℝ) (h0 : 0 ≤ c ∨ d < 0) {x y : ℝ}
    (hx : (⟨fin a, fin b⟩ : Interval (Fl F)).Has x) (hy : (⟨fin c, fin d⟩ : Interval (Fl F)).Has y) (hy0 : y ≠ 0) :
    (Interval.div ⟨fin a, fin b⟩ ⟨fin c, fin d⟩ : Interval (Fl F)).Has (x / y) := by
  rw [has_fin] at hx hy
  unfold Interval.div
  dsimp only
  rw [ofNat_zero, ofNat_one, Scalar.gt, le_fin, lt_fin, div_eq_mul_one_div]
  rcases h0 with hc | hd
  · have hypos : 0 < y := lt_of_le_of_ne (hc.trans hy.1) (Ne.symm hy0)
    have hdpos : 0 < d := hypos.trans_le hy.2
    have hyd : 1 / d ≤ 1 / y := one_div_le_one_div_of_le hypos hy.2
    rw [div_fin _ hdpos.ne']
    split_ifs with h
    · exact mul_upper_unbounded hx (by positivity) hyd
    · have hcpos : 0 < c := by
        by_contra hc'
        exact h (by simp [not_lt.mp hc', hdpos])
      rw [div_fin _ hcpos.ne']
      exact C26_contains_partial _ _ _ _ (has_fin.mpr hx) (has_fin.mpr ⟨hyd, one_div_le_one_div_of_le hcpos hy.1⟩)
  · have hyneg : y < 0 := hy.2.trans_lt hd
    have hcneg : c < 0 := hy.1.trans_lt hyneg
    rw [if_neg (by simp [hd.le]), div_fin _ hd.ne, div_fin _ hcneg.ne]
    exact C26_contains_partial _ _ _ _ (has_fin.mpr hx)
      (has_fin.mpr ⟨one_div_le_one_div_of_neg_of_le hd hy.2, one_div_le_one_div_of_neg_of_le hyneg hy.1⟩)

/-- C27 for a divisor whose upper end is a zero with `1/0 = -inf` (a negative zero): contained. -/
theorem C27_negative_zero_partial (hz : (1 / fin 0 : Fl F) = ninf) (a b c : ℝ) {x y : ℝ}
    (hx : (⟨fin a, fin b⟩ : Interval (Fl F)).Has x) (hy : (⟨fin c, fin 0⟩ : Interval (Fl F)).Has y) (hy0 : y ≠ 0) :
    (Interval.div ⟨fin a, fin b⟩ ⟨fin c, fin 0⟩ : Interval (Fl F)).Has (x / y) := by
  rw [has_fin] at hx hy
  have hyneg : y < 0 := lt_of_le_of_ne hy.2 hy0
  have hcneg : c < 0 := hy.1.trans_lt hyneg
  unfold Interval.div
  dsimp only
  rw [hz, ofNat_zero, ofNat_one, Scalar.gt, lt_fin, if_neg (by simp), div_fin _ hcneg.ne, div_eq_mul_one_div x y]
  exact mul_lower_unbounded hx (one_div_neg.mpr hcneg) (one_div_le_one_div_of_neg_of_le hyneg hy.1)

/-- C27 fails when the upper end of the divisor is a zero with `1/0 = +inf`: [1,2]/[-1,0] does not contain 2/(-1/2). -/
theorem C27_zero_upper_false (hz : (1 / fin 0 : Fl F) = pinf) : ∃ x y : ℝ, y ≠ 0 ∧
    (⟨fin 1, fin 2⟩ : Interval (Fl F)).Has x ∧ (⟨fin (-1), fin 0⟩ : Interval (Fl F)).Has y ∧
    ¬ (Interval.div ⟨fin 1, fin 2⟩ ⟨fin (-1), fin 0⟩ : Interval (Fl F)).Has (x / y) := by
  refine ⟨2, -1/2, by norm_num, by norm_num [Interval.Has], by norm_num [Interval.Has], ?_⟩
  have e : (Interval.div ⟨fin 1, fin 2⟩ ⟨fin (-1), fin 0⟩ : Interval (Fl F)) = ⟨fin (-2), pinf⟩ := by
    unfold Interval.div Interval.mul
    dsimp only
    rw [hz, ofNat_zero, ofNat_one, Scalar.gt, lt_fin, if_neg (by simp), div_fin _ (by norm_num)]
    simp only [List.foldl_cons, List.foldl_nil, mul_fin, fin_mul_pinf, inf_def, neg_pinf, Scalar.gt]
    rw [if_neg (by norm_num), if_neg (by norm_num), infOf_pos (by norm_num), infOf_pos (by norm_num)]
    norm_num
  rw [e]
  norm_num [Interval.Has]

/-- C27 fails when zero is in the interior of the divisor: only quotients by its positive part are kept.
[1,1]/[-1,1] does not contain 1/(-1). -/
theorem C27_straddle_false : ∃ x y : ℝ, y ≠ 0 ∧
    (⟨fin 1, fin 1⟩ : Interval (Fl F)).Has x ∧ (⟨fin (-1), fin 1⟩ : Interval (Fl F)).Has y ∧
    ¬ (Interval.div ⟨fin 1, fin 1⟩ ⟨fin (-1), fin 1⟩ : Interval (Fl F)).Has (x / y) := by
  refine ⟨1, -1, by norm_num, by norm_num [Interval.Has], by norm_num [Interval.Has], ?_⟩
  have e : (Interval.div ⟨fin 1, fin 1⟩ ⟨fin (-1), fin 1⟩ : Interval (Fl F)) = ⟨fin 1, pinf⟩ := by
    unfold Interval.div Interval.mul
    dsimp only
    rw [ofNat_zero, ofNat_one, Scalar.gt, lt_fin, le_fin, if_pos (by simp), div_fin _ (by norm_num)]
    simp only [List.foldl_cons, List.foldl_nil, mul_fin, fin_mul_pinf, inf_def, neg_pinf, Scalar.gt]
    rw [if_neg (by norm_num), infOf_pos (by norm_num)]
    norm_num
  rw [e]
  norm_num [Interval.Has]

example : (Interval.div ⟨fin (-1), fin 1⟩ ⟨fin 0, fin 1⟩ : Interval (Fl exact64)).Has (1 / (1/1000)) :=
  C27_contains_partial _ _ _ _ (Or.inl le_rfl) (by norm_num [Interval.Has]) (by norm_num [Interval.Has]) (by norm_num)
example : (Interval.div ⟨fin (-1), fin 1⟩ ⟨fin (-4), fin (-2)⟩ : Interval (Fl exact64)).Has (1 / (-3)) :=
  C27_contains_partial _ _ _ _ (Or.inr (by norm_num)) (by norm_num [Interval.Has]) (by norm_num [Interval.Has]) (by norm_num)

/-! ## C28 -/

/-- C28 without rounding error, unless the exponent is even and the negative end is the larger in magnitude. -/
theorem C28_contains_partial (a b : ℝ) (p : ℕ) (h : Odd p ∨ 0 ≤ a ∨ b ≤ 0 ∨ -a ≤ b) {x : ℝ}
    (hx : (⟨fin a, fin b⟩ : Interval (Fl F)).Has x) :
    (Interval.pow ⟨fin a, fin b⟩ p : Interval (Fl F)).Has (x ^ p) := by
  rw [has_fin] at hx
  have hp0 : (0 : ℤ) ≤ p := by positivity
  unfold Interval.pow
  dsimp only
  rw [powi_fin _ hp0, powi_fin _ hp0, zpow_natCast, zpow_natCast, ofNat_zero, Scalar.ge, le_fin, le_fin]
  rcases Nat.even_or_odd p with he | ho
  · rw [if_pos (by have := Nat.even_iff.mp he; omega)]
    by_cases ha : 0 ≤ a
    · rw [if_pos (by simpa using ha), has_fin]
      exact ⟨pow_le_pow_left₀ ha hx.1 p, pow_le_pow_left₀ (ha.trans hx.1) hx.2 p⟩
    · rw [if_neg (by simpa using ha)]
      by_cases hb : b ≤ 0
      · rw [if_pos (by simpa using hb), has_fin]
        have h1 := pow_le_pow_left₀ (neg_nonneg.mpr hb) (neg_le_neg hx.2) p
        have h2 := pow_le_pow_left₀ (neg_nonneg.mpr (hx.2.trans hb)) (neg_le_neg hx.1) p
        rw [he.neg_pow, he.neg_pow] at h1 h2
        exact ⟨h1, h2⟩
      · rw [if_neg (by simpa using hb), has_fin]
        have hab : -a ≤ b := by
          rcases h with h | h | h | h
          · exact absurd h (Nat.not_odd_iff_even.mpr he)
          · exact absurd h ha
          · exact absurd h hb
          · exact h
        refine ⟨he.pow_nonneg x, ?_⟩
        rw [← he.pow_abs]
        exact pow_le_pow_left₀ (abs_nonneg x) (abs_le.mpr ⟨by linarith [hx.1], hx.2⟩) p
  · rw [if_neg (by have := Nat.odd_iff.mp ho; omega), has_fin]
    exact ⟨ho.strictMono_pow.monotone hx.1, ho.strictMono_pow.monotone hx.2⟩

/-- C28 fails in every other case: an even positive power of an interval whose negative end is the larger in
magnitude never contains the power of that end. -/
theorem C28_mixed_sign_false (a b : ℝ) (p : ℕ) (hp : Even p) (hp0 : p ≠ 0) (hb : 0 < b) (hab : b < -a) :
    (⟨fin a, fin b⟩ : Interval (Fl F)).Has a ∧ ¬ (Interval.pow ⟨fin a, fin b⟩ p : Interval (Fl F)).Has (a ^ p) := by
  refine ⟨has_fin.mpr ⟨le_rfl, by linarith⟩, ?_⟩
  have hp0' : (0 : ℤ) ≤ p := by positivity
  unfold Interval.pow
  dsimp only
  rw [powi_fin _ hp0', powi_fin _ hp0', zpow_natCast, zpow_natCast, ofNat_zero, Scalar.ge, le_fin, le_fin,
    if_pos (by have := Nat.even_iff.mp hp; omega), if_neg (by simp; linarith), if_neg (by simp; linarith), has_fin]
  rintro ⟨-, h⟩
  rw [← hp.neg_pow] at h
  exact absurd h (not_le.mpr (pow_lt_pow_left₀ hab hb.le hp0))

example : (Interval.pow ⟨fin (-3), fin 5⟩ 4 : Interval (Fl exact64)).Has ((-3) ^ 4) :=
  C28_contains_partial _ _ 4 (by norm_num) (by norm_num [Interval.Has])
example : ¬ (Interval.pow ⟨fin (-3), fin 1⟩ 2 : Interval (Fl exact64)).Has ((-3) ^ 2) :=
  (C28_mixed_sign_false _ _ 2 (by decide) (by decide) (by norm_num) (by norm_num)).2

end

/-! ## C29 -/

theorem max_spec {a b : Fl F} (ha : isNaN a = false) (hb : isNaN b = false) (z : Fl F) :
    Scalar.le (Scalar.max a b) z = true ↔ Scalar.le a z = true ∧ Scalar.le b z = true := by
  unfold Scalar.max
  split_ifs with h
  · exact ⟨fun h' => ⟨Fl.le_trans (Fl.le_of_lt h) h', h'⟩, fun h' => h'.2⟩
  · exact ⟨fun h' => ⟨h', Fl.le_trans (Fl.le_of_not_lt ha hb (by simpa using h)) h'⟩, fun h' => h'.1⟩
theorem min_spec {a b : Fl F} (ha : isNaN a = false) (hb : isNaN b = false) (z : Fl F) :
    Scalar.le z (Scalar.min a b) = true ↔ Scalar.le z a = true ∧ Scalar.le z b = true := by
  unfold Scalar.min
  split_ifs with h
  · exact ⟨fun h' => ⟨Fl.le_trans h' (Fl.le_of_lt h), h'⟩, fun h' => h'.2⟩
  · exact ⟨fun h' => ⟨h', Fl.le_trans h' (Fl.le_of_not_lt hb ha (by simpa using h))⟩, fun h' => h'.1⟩

/-- C29, any rounding: membership in the intersection. -/
theorem C29_intersection (X Y : Interval (Fl F)) (hX : isNaN X.a = false ∧ isNaN X.b = false)
    (hY : isNaN Y.a = false ∧ isNaN Y.b = false) (z : ℝ) :
    (Interval.intersection X Y).Has z ↔ X.Has z ∧ Y.Has z := by
  unfold Interval.intersection
  split_ifs with h
  · constructor
    · rintro ⟨h1, -⟩; simp [Interval.default] at h1
    · rintro ⟨⟨a1, a2⟩, b1, b2⟩
      exfalso
      simp only [Scalar.gt, Bool.or_eq_true] at h
      rcases h with h | h
      · have := Fl.not_lt_of_le (Fl.le_trans b1 a2)
        rw [h] at this; cases this
      · have := Fl.not_lt_of_le (Fl.le_trans a1 b2)
        rw [h] at this; cases this
  · unfold Interval.Has
    dsimp only
    rw [max_spec hX.1 hY.1, min_spec hX.2 hY.2]
    tauto

example : ¬ (Interval.intersection ⟨fin 0, pinf⟩ ⟨fin (-1), fin 3⟩ : Interval (Fl binary64)).Has (-1 / 2) := by
  rw [C29_intersection _ _ ⟨rfl, rfl⟩ ⟨rfl, rfl⟩]
  rintro ⟨⟨h, -⟩, -⟩
  norm_num at h

/-- C29: an intersection of nonempty intervals reports `empty()` never, not even when they are disjoint: the
interval returned then has NaN ends. -/
theorem C29_disjoint_not_empty_false (X Y : Interval (Fl F)) (hX : isNaN X.a = false ∧ isNaN X.b = false)
    (hY : isNaN Y.a = false ∧ isNaN Y.b = false) (hXe : X.empty = false) (hYe : Y.empty = false) :
    (Interval.intersection X Y).empty = false := by
  unfold Interval.intersection
  split_ifs with h
  · simp [Interval.empty, Interval.default]
  · simp only [Scalar.gt, Bool.or_eq_true, not_or, Bool.not_eq_true] at h
    unfold Interval.empty at *
    dsimp only
    apply Fl.not_lt_of_le
    rw [max_spec hX.1 hY.1, min_spec hX.2 hY.2, min_spec hX.2 hY.2]
    exact ⟨⟨Fl.le_of_not_lt hX.2 hX.1 hXe, Fl.le_of_not_lt hY.2 hX.1 h.2⟩,
      Fl.le_of_not_lt hX.2 hY.1 h.1, Fl.le_of_not_lt hY.2 hY.1 hYe⟩

/-- The two intervals of the next `example` are disjoint. -/
example : (Interval.intersection ⟨fin 0, fin 1⟩ ⟨fin 2, fin 3⟩ : Interval (Fl binary64)).empty = false :=
  C29_disjoint_not_empty_false _ _ ⟨rfl, rfl⟩ ⟨rfl, rfl⟩ (by norm_num [Interval.empty]) (by norm_num [Interval.empty])

/-- C29, any rounding: what `hull` contains. Its lower end is right; its upper end is the smaller one. -/
theorem C29_hull_partial (X Y : Interval (Fl F)) (hX : isNaN X.a = false ∧ isNaN X.b = false)
    (hY : isNaN Y.a = false ∧ isNaN Y.b = false) (z : ℝ) :
    (Interval.hull X Y).Has z ↔ (Scalar.le X.a (fin z) = true ∨ Scalar.le Y.a (fin z) = true) ∧
      Scalar.le (fin z) X.b = true ∧ Scalar.le (fin z) Y.b = true := by
  unfold Interval.Has Interval.hull
  dsimp only
  rw [min_spec hX.2 hY.2]
  refine and_congr_left fun _ => ?_
  unfold Scalar.min
  split_ifs with h
  · exact ⟨Or.inr, fun h' => h'.elim (fun h' => Fl.le_trans (Fl.le_of_lt h) h') id⟩
  · exact ⟨Or.inl, fun h' => h'.elim id (fun h' => Fl.le_trans (Fl.le_of_not_lt hY.1 hX.1 (by simpa using h)) h')⟩

example : (Interval.hull ⟨fin 0, fin 3⟩ ⟨fin 2, pinf⟩ : Interval (Fl binary64)).Has 1 := by
  rw [C29_hull_partial _ _ ⟨rfl, rfl⟩ ⟨rfl, rfl⟩]
  norm_num

/-- C29 fails for `hull`: it takes the minimum of the upper ends, so it loses every point of one interval beyond the
end of the other. -/
theorem C29_hull_false (X Y : Interval (Fl F)) {z : ℝ} (hgt : Scalar.lt X.b (fin z) = true) :
    ¬ (Interval.hull X Y).Has z := by
  rintro ⟨-, h⟩
  unfold Interval.hull Scalar.min at h
  dsimp only at h
  split_ifs at h with hc
  · have := Fl.not_lt_of_le (Fl.le_trans h (Fl.le_of_lt hc))
    rw [hgt] at this; cases this
  · have := Fl.not_lt_of_le h
    rw [hgt] at this; cases this

example : (⟨fin 2, fin 3⟩ : Interval (Fl binary64)).Has 3 ∧
    ¬ (Interval.hull ⟨fin 0, fin 1⟩ ⟨fin 2, fin 3⟩ : Interval (Fl binary64)).Has 3 := by
  have h : (⟨fin 2, fin 3⟩ : Interval (Fl binary64)).Has 3 := by norm_num [Interval.Has]
  exact ⟨h, C29_hull_false _ _ (by norm_num)⟩

/-! ## C30 -/

theorem sqrtIn_fin (G : Mode → Fmt) (m : Mode) {a : ℝ} (h : 0 ≤ a) :
    Interval.sqrtIn (modal F G) m (fin a) = (G m).round (Real.sqrt a) := by
  show (if a < 0 then Fl.nan else rnd (G m) (Real.sqrt a) : Fl (G m)) = rnd (G m) (Real.sqrt a)
  rw [if_neg (not_lt.mpr h)]
theorem sqrtIn_neg (G : Mode → Fmt) (m : Mode) {a : ℝ} (h : a < 0) :
    Interval.sqrtIn (modal F G) m (fin a) = Fl.nan := by
  show (if a < 0 then Fl.nan else rnd (G m) (Real.sqrt a) : Fl (G m)) = Fl.nan
  rw [if_pos h]
theorem logIn_pos (G : Mode → Fmt) (m : Mode) {a : ℝ} (h : 0 < a) :
    Interval.logIn (modal F G) m (fin a) = (G m).round (Real.log a) := by
  show (if a < 0 then Fl.nan else if a = 0 then ninf else rnd (G m) (Real.log a) : Fl (G m)) = rnd (G m) (Real.log a)
  rw [if_neg (not_lt.mpr h.le), if_neg h.ne']
theorem logIn_zero (G : Mode → Fmt) (m : Mode) : Interval.logIn (modal F G) m (fin 0) = ninf := by
  show (if (0 : ℝ) < 0 then Fl.nan else if (0 : ℝ) = 0 then ninf else rnd (G m) (Real.log 0) : Fl (G m)) = ninf
  rw [if_neg (lt_irrefl _), if_pos rfl]
theorem logIn_neg (G : Mode → Fmt) (m : Mode) {a : ℝ} (h : a < 0) :
    Interval.logIn (modal F G) m (fin a) = Fl.nan := by
  show (if a < 0 then Fl.nan else if a = 0 then ninf else rnd (G m) (Real.log a) : Fl (G m)) = Fl.nan
  rw [if_pos h]

section
variable {G : Mode → Fmt} (hG : Directed F G)
include hG

/-- C30, directed rounding, all intervals: exponentials. -/
theorem C30_exp (X : Interval (Fl F)) (m : Mode) {x : ℝ} (hx : X.Has x) :
    (Interval.exp (modal F G) X m).1.Has (Real.exp x) := by
  obtain ⟨a, b⟩ := X
  obtain ⟨h1, h2⟩ := hx
  constructor
  · cases a with
    | nan => simp at h1
    | pinf => simp at h1
    | ninf => show Scalar.le (fin 0 : Fl F) (fin _) = true; simp [Real.exp_nonneg]
    | fin a =>
      refine Fl.le_trans (hG.down (Real.exp a)) ?_
      simp at h1 ⊢; exact h1
  · cases b with
    | nan => simp at h2
    | ninf => simp at h2
    | pinf => exact fin_le_pinf (F := F) _
    | fin b =>
      refine Fl.le_trans ?_ (hG.up (Real.exp b))
      simp at h2 ⊢; exact h2

/-- C30, directed rounding: logarithms of the positive members, if the lower end is not negative. -/
theorem C30_log_partial (X : Interval (Fl F)) (m : Mode) (h0 : Scalar.le (fin 0) X.a = true) {x : ℝ} (hx : X.Has x)
    (hx0 : 0 < x) : (Interval.log (modal F G) X m).1.Has (Real.log x) := by
  obtain ⟨a, b⟩ := X
  obtain ⟨h1, h2⟩ := hx
  constructor
  · cases a with
    | nan => simp at h1
    | pinf => simp at h1
    | ninf => simp at h0
    | fin a =>
      simp at h0 h1
      show Scalar.le (Interval.logIn (modal F G) .down (fin a)) (fin _) = true
      rcases h0.eq_or_lt with h | h
      · rw [← h, logIn_zero]; exact ninf_le_fin _
      · rw [logIn_pos G _ h]
        refine Fl.le_trans (hG.down (Real.log a)) ?_
        simp
        exact Real.log_le_log h h1
  · cases b with
    | nan => simp at h2
    | ninf => simp at h2
    | pinf => exact fin_le_pinf (F := F) _
    | fin b =>
      simp at h2
      have hb : 0 < b := hx0.trans_le h2
      show Scalar.le (fin _) (Interval.logIn (modal F G) .up (fin b)) = true
      rw [logIn_pos G _ hb]
      refine Fl.le_trans ?_ (hG.up (Real.log b))
      simp
      exact Real.log_le_log hx0 h2

example : (Interval.log (modal exact64 modes8) ⟨fin 0, fin 2⟩ .nearest).1.Has (Real.log (1 / 3)) :=
  C30_log_partial (modes8_directed _) _ _ (by norm_num) (by constructor <;> norm_num) (by norm_num)

/-- C30, directed rounding: square roots, if the lower end is not negative. -/
theorem C30_sqrt_partial (X : Interval (Fl F)) (m : Mode) (h0 : Scalar.le (fin 0) X.a = true) {x : ℝ} (hx : X.Has x) :
    (Interval.sqrt (modal F G) X m).1.Has (Real.sqrt x) := by
  obtain ⟨a, b⟩ := X
  obtain ⟨h1, h2⟩ := hx
  constructor
  · cases a with
    | nan => simp at h1
    | pinf => simp at h1
    | ninf => simp at h0
    | fin a =>
      simp at h0 h1
      show Scalar.le (Interval.sqrtIn (modal F G) .down (fin a)) (fin _) = true
      rw [sqrtIn_fin G _ h0]
      refine Fl.le_trans (hG.down (Real.sqrt a)) ?_
      simp
      exact Real.sqrt_le_sqrt h1
  · cases b with
    | nan => simp at h2
    | ninf => simp at h2
    | pinf => exact fin_le_pinf (F := F) _
    | fin b =>
      have hb : 0 ≤ b := by
        have := Fl.le_trans h0 (Fl.le_trans h1 h2)
        simpa using this
      simp at h2
      show Scalar.le (fin _) (Interval.sqrtIn (modal F G) .up (fin b)) = true
      rw [sqrtIn_fin G _ hb]
      refine Fl.le_trans ?_ (hG.up (Real.sqrt b))
      simp
      exact Real.sqrt_le_sqrt h2

example : (Interval.sqrt (modal exact64 modes8) ⟨fin 0, pinf⟩ .nearest).1.Has (Real.sqrt 2) :=
  C30_sqrt_partial (modes8_directed _) _ _ (by norm_num) (by constructor <;> norm_num)

end

/-- C30 fails for `log` and `sqrt` of an interval with a negative lower end: the result has a NaN end and contains
nothing, although the interval has members in the domain. -/
theorem C30_negative_lower_false (G : Mode → Fmt) (X : Interval (Fl F)) (m : Mode) (h0 : Scalar.lt X.a (fin 0) = true) (z : ℝ) :
    ¬ (Interval.log (modal F G) X m).1.Has z ∧ ¬ (Interval.sqrt (modal F G) X m).1.Has z := by
  obtain ⟨a, b⟩ := X
  have e1 : (Interval.log (modal F G) ⟨a, b⟩ m).1.a = Fl.nan := by
    cases a with
    | nan => simp at h0
    | pinf => simp at h0
    | ninf => rfl
    | fin a =>
      simp at h0
      exact logIn_neg G .down h0
  have e2 : (Interval.sqrt (modal F G) ⟨a, b⟩ m).1.a = Fl.nan := by
    cases a with
    | nan => simp at h0
    | pinf => simp at h0
    | ninf => rfl
    | fin a =>
      simp at h0
      exact sqrtIn_neg G .down h0
  constructor
  · rintro ⟨h, -⟩; rw [e1] at h; simp at h
  · rintro ⟨h, -⟩; rw [e2] at h; simp at h

example : (⟨fin (-1), fin 4⟩ : Interval (Fl binary64)).Has 4 ∧
    ¬ (Interval.sqrt (modal binary64 modes8) ⟨fin (-1), fin 4⟩ .nearest).1.Has (Real.sqrt 4) :=
  ⟨by norm_num [Interval.Has], (C30_negative_lower_false _ _ _ (by norm_num) _).2⟩

/-- C30, any rounding: absolute values, for finite ends. -/
theorem C30_abs [F.Rounding] (a b : ℝ) {x : ℝ} (hx : (⟨fin a, fin b⟩ : Interval (Fl F)).Has x) :
    (Interval.abs ⟨fin a, fin b⟩ : Interval (Fl F)).Has |x| := by
  rw [has_fin] at hx
  unfold Interval.abs Scalar.min Scalar.max
  dsimp only
  rw [rzero]
  simp only [abs_fin, lt_fin, Scalar.gt, decide_eq_true_eq, Bool.and_eq_true]
  constructor
  · dsimp only
    split_ifs with h h'
    · simp
    · simp
      by_cases hb : 0 < b
      · have ha : 0 ≤ a := by by_contra hc; exact h ⟨not_le.mp hc, hb⟩
        rw [abs_of_pos hb, abs_of_nonneg ha] at h'
        linarith [hx.1, hx.2]
      · rw [abs_of_nonpos (not_lt.mp hb), abs_of_nonpos (hx.2.trans (not_lt.mp hb))]
        linarith [hx.2]
    · simp
      by_cases ha : a < 0
      · have hb : b ≤ 0 := by by_contra hc; exact h ⟨ha, not_le.mp hc⟩
        rw [abs_of_neg ha, abs_of_nonpos hb] at h'
        rw [abs_of_neg ha, abs_of_nonpos (hx.2.trans hb)]
        linarith [hx.1, hx.2]
      · rw [abs_of_nonneg (not_lt.mp ha), abs_of_nonneg ((not_lt.mp ha).trans hx.1)]
        exact hx.1
  · dsimp only
    have := abs_le_max_abs_abs hx.1 hx.2
    split_ifs with h
    · rw [max_eq_right h.le] at this; simpa using this
    · rw [max_eq_left (not_lt.mp h)] at this; simpa using this

example : (Interval.exp (modal exact64 modes8) ⟨ninf, fin 1⟩ .nearest).1.Has (Real.exp 0) :=
  C30_exp (modes8_directed _) _ _ (by constructor <;> norm_num)

/-! ## C31 -/

/-- C31, any rounding: a true comparison is a comparison of all members. -/
theorem C31_ge (X Y : Interval (Fl F)) (h : X.ge Y = true) {x y : ℝ} (hx : X.Has x) (hy : Y.Has y) : y ≤ x := by
  unfold Interval.ge at h
  split_ifs at h with h1 h2
  have := Fl.le_trans hy.2 (Fl.le_trans h2 hx.1)
  simpa using this

example {x y : ℝ} (hx : (⟨fin 2, pinf⟩ : Interval (Fl binary64)).Has x) (hy : (⟨ninf, fin (3 / 2)⟩ : Interval (Fl binary64)).Has y) : y ≤ x :=
  C31_ge _ _ (by norm_num [Interval.ge, Interval.empty, ge]) hx hy

/-- C31, converse: for a nonempty interval, when every member is at least every member of the other the answer is
true. -/
theorem C31_ge_complete (a b c d : ℝ) (hab : a ≤ b) (hcd : c ≤ d)
    (h : ∀ x y, (⟨fin a, fin b⟩ : Interval (Fl F)).Has x → (⟨fin c, fin d⟩ : Interval (Fl F)).Has y → y ≤ x) :
    Interval.ge (⟨fin a, fin b⟩ : Interval (Fl F)) ⟨fin c, fin d⟩ = true := by
  have := h a d (has_fin.mpr ⟨le_rfl, hab⟩) (has_fin.mpr ⟨hcd, le_rfl⟩)
  simp [Interval.ge, Interval.empty, Scalar.ge, this, hab]

example : Interval.ge (⟨fin 1, fin 2⟩ : Interval (Fl binary64)) ⟨fin 0, fin 1⟩ = true :=
  C31_ge_complete _ _ _ _ (by norm_num) (by norm_num) fun x y hx hy => by
    have h1 := hx.1
    have h2 := hy.2
    simp only [le_fin, decide_eq_true_eq] at h1 h2
    linarith

/-- C31: `distance` is a metric on intervals with finite ends. -/
theorem C31_distance [F.Exact] (a b c d : ℝ) : ∃ δ : ℝ,
    Interval.distance (⟨fin a, fin b⟩ : Interval (Fl F)) ⟨fin c, fin d⟩ = fin δ ∧ 0 ≤ δ ∧
    Interval.distance (⟨fin c, fin d⟩ : Interval (Fl F)) ⟨fin a, fin b⟩ = fin δ ∧ (δ = 0 ↔ a = c ∧ b = d) ∧
    ∀ e f : ℝ, ∃ δ₁ δ₂ : ℝ, Interval.distance (⟨fin a, fin b⟩ : Interval (Fl F)) ⟨fin e, fin f⟩ = fin δ₁ ∧
      Interval.distance (⟨fin e, fin f⟩ : Interval (Fl F)) ⟨fin c, fin d⟩ = fin δ₂ ∧ δ ≤ δ₁ + δ₂ := by
  have key : ∀ a b c d : ℝ, Interval.distance (⟨fin a, fin b⟩ : Interval (Fl F)) ⟨fin c, fin d⟩ =
      fin (max |a - c| |b - d|) := by
    intro a b c d
    unfold Interval.distance Scalar.max
    simp only [sub_fin, abs_fin, lt_fin, decide_eq_true_eq]
    split_ifs with h
    · rw [max_eq_right h.le]
    · rw [max_eq_left (not_lt.mp h)]
  refine ⟨max |a - c| |b - d|, key _ _ _ _, (abs_nonneg _).trans (le_max_left _ _), ?_, ?_, ?_⟩
  · rw [key, abs_sub_comm c a, abs_sub_comm d b]
  · constructor
    · intro h
      have h1 := le_max_left |a - c| |b - d|
      have h2 := le_max_right |a - c| |b - d|
      rw [h] at h1 h2
      exact ⟨sub_eq_zero.mp (abs_nonpos_iff.mp h1), sub_eq_zero.mp (abs_nonpos_iff.mp h2)⟩
    · rintro ⟨rfl, rfl⟩; simp
  · intro e f
    refine ⟨_, _, key _ _ _ _, key _ _ _ _, max_le ?_ ?_⟩
    · exact (abs_sub_le a e c).trans (add_le_add (le_max_left _ _) (le_max_left _ _))
    · exact (abs_sub_le b f d).trans (add_le_add (le_max_right _ _) (le_max_right _ _))

/-- C31: `degenerate()` and zero `width()` both mean that there is exactly one member. -/
theorem C31_degenerate [F.Exact] (a b : ℝ) (hab : a ≤ b) :
    ((⟨fin a, fin b⟩ : Interval (Fl F)).degenerate = true ↔ ∃! z, (⟨fin a, fin b⟩ : Interval (Fl F)).Has z) ∧
    ((⟨fin a, fin b⟩ : Interval (Fl F)).width = fin 0 ↔ ∃! z, (⟨fin a, fin b⟩ : Interval (Fl F)).Has z) := by
  have key : (∃! z, (⟨fin a, fin b⟩ : Interval (Fl F)).Has z) ↔ a = b := by
    constructor
    · rintro ⟨z, -, hu⟩
      rw [hu a (has_fin.mpr ⟨le_rfl, hab⟩), hu b (has_fin.mpr ⟨hab, le_rfl⟩)]
    · rintro rfl
      exact ⟨a, has_fin.mpr ⟨le_rfl, le_rfl⟩, fun z hz => le_antisymm (has_fin.mp hz).2 (has_fin.mp hz).1⟩
  rw [key]
  constructor
  · simp [Interval.degenerate]
  · simp only [Interval.width, sub_fin, fin_inj]
    constructor <;> intro h <;> linarith

example : Interval.ge (⟨fin 2, fin 3⟩ : Interval (Fl binary64)) ⟨fin 0, fin 1⟩ = true := by
  norm_num [Interval.ge, Interval.empty, Scalar.ge]

end DRT
