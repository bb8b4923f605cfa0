import Verif.Props.Interval
import Verif.Lemmas.Vec
import Mathlib.Topology.Order.IntermediateValue
import Mathlib.Topology.Algebra.Order.Field

/-! # C144: expressions evaluated with intervals -/

namespace DRT
open Scalar Fl

variable {F : Fmt} {ι : Type}

/-- Expressions in variables `ι`, of any depth. -/
inductive IExpr (ι : Type) where
  | var (i : ι)
  | const (c : ℝ)
  | add (e f : IExpr ι)
  | sub (e f : IExpr ι)
  | mul (e f : IExpr ι)
  | abs (e : IExpr ι)
  | exp (e : IExpr ι)

namespace IExpr

/-- Specification: the value for numbers in place of the variables. -/
noncomputable def value (x : ι → ℝ) : IExpr ι → ℝ
  | var i => x i
  | const c => c
  | add e f => e.value x + f.value x
  | sub e f => e.value x - f.value x
  | mul e f => e.value x * f.value x
  | abs e => |e.value x|
  | exp e => Real.exp (e.value x)

/-- The operators and functions of interval.hpp, cited in `Model/Interval.lean`, for intervals in place of the variables; `m` is the
rounding mode at the start. A program that writes the expression with `interval<Real>` computes this. -/
noncomputable def eval (G : Mode → Fmt) (m : Mode) (X : ι → Interval (Fl F)) : IExpr ι → Interval (Fl F)
  | var i => X i
  | const c => ⟨fin c, fin c⟩
  | add e f => (Interval.add (modal F G) (e.eval G m X) (f.eval G m X) m).1
  | sub e f => (Interval.sub (modal F G) (e.eval G m X) (f.eval G m X) m).1
  | mul e f => Interval.mul (e.eval G m X) (f.eval G m X)
  | abs e => Interval.abs (e.eval G m X)
  | exp e => (Interval.exp (modal F G) (e.eval G m X) m).1

/-- No products and no absolute values, which are computed in the mode at the start. -/
def Switching : IExpr ι → Prop
  | var _ | const _ => True
  | add e f | sub e f => e.Switching ∧ f.Switching
  | mul _ _ | abs _ => False
  | exp e => e.Switching

/-- Specification: the variables of an expression. -/
def vars : IExpr ι → Set ι
  | var i => {i}
  | const _ => ∅
  | add e f | sub e f | mul e f => e.vars ∪ f.vars
  | abs e | exp e => e.vars

/-- Specification: no variable occurs twice. -/
def SingleUse : IExpr ι → Prop
  | var _ | const _ => True
  | add e f | sub e f | mul e f => e.SingleUse ∧ f.SingleUse ∧ Disjoint e.vars f.vars
  | abs e | exp e => e.SingleUse

/-- The values when every occurrence of a variable varies by itself. -/
def loose (S : ι → Set ℝ) : IExpr ι → Set ℝ
  | var i => S i
  | const c => {c}
  | add e f => {z | ∃ x ∈ e.loose S, ∃ y ∈ f.loose S, x + y = z}
  | sub e f => {z | ∃ x ∈ e.loose S, ∃ y ∈ f.loose S, x - y = z}
  | mul e f => {z | ∃ x ∈ e.loose S, ∃ y ∈ f.loose S, x * y = z}
  | abs e => {z | ∃ x ∈ e.loose S, |x| = z}
  | exp e => {z | ∃ x ∈ e.loose S, Real.exp x = z}

end IExpr

/-- C144 with directed rounding: an expression of any size, made of sums, differences and exponentials, evaluated with
intervals, contains its value at all numbers in the intervals. -/
theorem C144_directed {G : Mode → Fmt} (hG : Directed F G) (m : Mode) (e : IExpr ι) (he : e.Switching)
    (X : ι → Interval (Fl F)) (x : ι → ℝ) (hx : ∀ i, (X i).Has (x i)) : (e.eval G m X).Has (e.value x) := by
  induction e with
  | var i => exact hx i
  | const c => exact has_fin.mpr ⟨le_rfl, le_rfl⟩
  | add e f ihe ihf => exact C25_add hG _ _ _ (ihe he.1) (ihf he.2)
  | sub e f ihe ihf => exact C25_sub hG _ _ _ (ihe he.1) (ihf he.2)
  | mul e f => exact he.elim
  | abs e => exact he.elim
  | exp e ih => exact C30_exp hG _ _ (ih he)

/-- An instance: `exp(x) - (y + x)` with the directed roundings to 8 fractional bits. -/
example : ((IExpr.sub (.exp (.var true)) (.add (.var false) (.var true)) : IExpr Bool).eval modes8 .nearest
    (fun _ => (⟨fin 0, fin 1⟩ : Interval (Fl exact64)))).Has (Real.exp (1 / 3) - (1 / 7 + 1 / 3)) :=
  C144_directed (modes8_directed _) _ _ (by simp [IExpr.Switching]) _ (fun b : Bool => if b then 1 / 3 else 1 / 7)
    (by intro i; cases i <;> norm_num [Interval.Has])

/-- C144, refuted for products with rounding: `x * x` evaluated in single precision at one number does not contain its square. -/
theorem C144_product_false : ∃ x : ℝ, (⟨fin x, fin x⟩ : Interval (Fl binary32)).Has x ∧
    ¬ ((IExpr.mul (.var ()) (.var ())).eval (fun _ => binary32) .nearest (fun _ => (⟨fin x, fin x⟩ : Interval (Fl binary32)))).Has
      ((IExpr.mul (.var ()) (.var ())).value fun _ => x) := by
  obtain ⟨x, -, h, h'⟩ := C26_rounding_false
  exact ⟨x, h, h'⟩

namespace IExpr

theorem value_congr (e : IExpr ι) {x y : ι → ℝ} (h : ∀ i ∈ e.vars, x i = y i) : e.value x = e.value y := by
  induction e with
  | var i => exact h i rfl
  | const c => rfl
  | add e f ihe ihf => simp only [value]; rw [ihe fun i hi => h i (Or.inl hi), ihf fun i hi => h i (Or.inr hi)]
  | sub e f ihe ihf => simp only [value]; rw [ihe fun i hi => h i (Or.inl hi), ihf fun i hi => h i (Or.inr hi)]
  | mul e f ihe ihf => simp only [value]; rw [ihe fun i hi => h i (Or.inl hi), ihf fun i hi => h i (Or.inr hi)]
  | abs e ih => simp only [value]; rw [ih h]
  | exp e ih => simp only [value]; rw [ih h]

theorem value_mem_loose (e : IExpr ι) {S : ι → Set ℝ} {x : ι → ℝ} (hx : ∀ i, x i ∈ S i) : e.value x ∈ e.loose S := by
  induction e with
  | var i => exact hx i
  | const c => rfl
  | add e f ihe ihf => exact ⟨_, ihe, _, ihf, rfl⟩
  | sub e f ihe ihf => exact ⟨_, ihe, _, ihf, rfl⟩
  | mul e f ihe ihf => exact ⟨_, ihe, _, ihf, rfl⟩
  | abs e ih => exact ⟨_, ih, rfl⟩
  | exp e ih => exact ⟨_, ih, rfl⟩

/-- Two choices for disjoint sets of variables make one. -/
theorem merge {S : ι → Set ℝ} (e f : IExpr ι) (h : Disjoint e.vars f.vars) {x y : ι → ℝ} (hx : ∀ i, x i ∈ S i) (hy : ∀ i, y i ∈ S i) :
    ∃ w : ι → ℝ, (∀ i, w i ∈ S i) ∧ e.value w = e.value x ∧ f.value w = f.value y := by
  classical
  refine ⟨fun i => if i ∈ e.vars then x i else y i, fun i => ?_, ?_, ?_⟩
  · dsimp only
    split_ifs
    · exact hx i
    · exact hy i
  · exact e.value_congr fun i hi => if_pos hi
  · exact f.value_congr fun i hi => if_neg fun h' => Set.disjoint_left.mp h h' hi

theorem loose_single (e : IExpr ι) (he : e.SingleUse) {S : ι → Set ℝ} (hS : ∀ i, (S i).Nonempty) {z : ℝ} (hz : z ∈ e.loose S) :
    ∃ x : ι → ℝ, (∀ i, x i ∈ S i) ∧ e.value x = z := by
  classical
  induction e generalizing z with
  | var i =>
    refine ⟨Function.update (fun j => (hS j).some) i z, fun j => ?_, by simp [value]⟩
    by_cases h : j = i
    · subst h
      rw [Function.update_self]
      exact hz
    · rw [Function.update_of_ne h]
      exact (hS j).some_mem
  | const c => exact ⟨fun j => (hS j).some, fun j => (hS j).some_mem, hz.symm⟩
  | add e f ihe ihf =>
    obtain ⟨a, ha, b, hb, rfl⟩ := hz
    obtain ⟨x, hx, rfl⟩ := ihe he.1 ha
    obtain ⟨y, hy, rfl⟩ := ihf he.2.1 hb
    obtain ⟨w, hw, h1, h2⟩ := merge e f he.2.2 hx hy
    exact ⟨w, hw, by rw [value, h1, h2]⟩
  | sub e f ihe ihf =>
    obtain ⟨a, ha, b, hb, rfl⟩ := hz
    obtain ⟨x, hx, rfl⟩ := ihe he.1 ha
    obtain ⟨y, hy, rfl⟩ := ihf he.2.1 hb
    obtain ⟨w, hw, h1, h2⟩ := merge e f he.2.2 hx hy
    exact ⟨w, hw, by rw [value, h1, h2]⟩
  | mul e f ihe ihf =>
    obtain ⟨a, ha, b, hb, rfl⟩ := hz
    obtain ⟨x, hx, rfl⟩ := ihe he.1 ha
    obtain ⟨y, hy, rfl⟩ := ihf he.2.1 hb
    obtain ⟨w, hw, h1, h2⟩ := merge e f he.2.2 hx hy
    exact ⟨w, hw, by rw [value, h1, h2]⟩
  | abs e ih =>
    obtain ⟨a, ha, rfl⟩ := hz
    obtain ⟨x, hx, rfl⟩ := ih he ha
    exact ⟨x, hx, rfl⟩
  | exp e ih =>
    obtain ⟨a, ha, rfl⟩ := hz
    obtain ⟨x, hx, rfl⟩ := ih he ha
    exact ⟨x, hx, rfl⟩

end IExpr

theorem Interval.mul_exact [F.Exact] (a b c d : ℝ) : ∃ p q : ℝ,
    (Interval.mul ⟨fin a, fin b⟩ ⟨fin c, fin d⟩ : Interval (Fl F)) = ⟨fin p, fin q⟩ ∧
    (p = a * c ∨ p = a * d ∨ p = b * c ∨ p = b * d) ∧ (q = a * c ∨ q = a * d ∨ q = b * c ∨ q = b * d) := by
  have step : ∀ p q r : ℝ, ∃ p' q' : ℝ, (⟨if gt (fin p : Fl F) (fin r) then fin r else fin p, if lt (fin q : Fl F) (fin r) then fin r else fin q⟩ :
      Interval (Fl F)) = ⟨fin p', fin q'⟩ ∧ (p' = r ∨ p' = p) ∧ (q' = r ∨ q' = q) := by
    intro p q r
    by_cases h1 : r < p <;> by_cases h2 : q < r
    · exact ⟨r, r, by simp [gt, h1, h2], Or.inl rfl, Or.inl rfl⟩
    · exact ⟨r, q, by simp [gt, h1, h2], Or.inl rfl, Or.inr rfl⟩
    · exact ⟨p, r, by simp [gt, h1, h2], Or.inr rfl, Or.inl rfl⟩
    · exact ⟨p, q, by simp [gt, h1, h2], Or.inr rfl, Or.inr rfl⟩
  obtain ⟨p1, q1, e1, h1, k1⟩ := step (a * c) (a * c) (a * d)
  obtain ⟨p2, q2, e2, h2, k2⟩ := step p1 q1 (b * c)
  obtain ⟨p3, q3, e3, h3, k3⟩ := step p2 q2 (b * d)
  refine ⟨p3, q3, ?_, ?_, ?_⟩
  · have e0 : (⟨if gt (inf : Fl F) (fin (a * c)) then fin (a * c) else inf, if lt (-inf : Fl F) (fin (a * c)) then fin (a * c) else -inf⟩ :
        Interval (Fl F)) = ⟨fin (a * c), fin (a * c)⟩ := rfl
    obtain ⟨a0, b0⟩ := Interval.mk.inj e0
    obtain ⟨a1, b1⟩ := Interval.mk.inj e1
    obtain ⟨a2, b2⟩ := Interval.mk.inj e2
    obtain ⟨a3, b3⟩ := Interval.mk.inj e3
    unfold Interval.mul
    simp only [List.foldl, mul_fin]
    rw [a0, b0, a1, b1, a2, b2, a3, b3]
  · rcases h3 with rfl | rfl
    · simp
    · rcases h2 with rfl | rfl
      · simp
      · rcases h1 with rfl | rfl <;> simp
  · rcases k3 with rfl | rfl
    · simp
    · rcases k2 with rfl | rfl
      · simp
      · rcases k1 with rfl | rfl <;> simp

/-- The product interval is the set of products. -/
theorem Interval.mul_set [F.Exact] {a b c d : ℝ} (hab : a ≤ b) (hcd : c ≤ d) : ∃ p q : ℝ,
    (Interval.mul ⟨fin a, fin b⟩ ⟨fin c, fin d⟩ : Interval (Fl F)) = ⟨fin p, fin q⟩ ∧
    ∀ z, (p ≤ z ∧ z ≤ q) ↔ ∃ x, (a ≤ x ∧ x ≤ b) ∧ ∃ y, (c ≤ y ∧ y ≤ d) ∧ x * y = z := by
  obtain ⟨p, q, h, hp, hq⟩ := Interval.mul_exact (F := F) a b c d
  refine ⟨p, q, h, fun z => ⟨fun hz => ?_, ?_⟩⟩
  · have hpre : IsPreconnected ((fun w : ℝ × ℝ => w.1 * w.2) '' (Set.Icc a b ×ˢ Set.Icc c d)) :=
      (isPreconnected_Icc.prod isPreconnected_Icc).image _ (by fun_prop)
    have mem : ∀ x y : ℝ, x ∈ Set.Icc a b → y ∈ Set.Icc c d →
        x * y ∈ ((fun w : ℝ × ℝ => w.1 * w.2) '' (Set.Icc a b ×ˢ Set.Icc c d)) := fun x y hx hy => ⟨(x, y), ⟨hx, hy⟩, rfl⟩
    have hA : a ∈ Set.Icc a b := ⟨le_rfl, hab⟩
    have hB : b ∈ Set.Icc a b := ⟨hab, le_rfl⟩
    have hC : c ∈ Set.Icc c d := ⟨le_rfl, hcd⟩
    have hD : d ∈ Set.Icc c d := ⟨hcd, le_rfl⟩
    have hp' : p ∈ ((fun w : ℝ × ℝ => w.1 * w.2) '' (Set.Icc a b ×ˢ Set.Icc c d)) := by
      rcases hp with rfl | rfl | rfl | rfl
      · exact mem _ _ hA hC
      · exact mem _ _ hA hD
      · exact mem _ _ hB hC
      · exact mem _ _ hB hD
    have hq' : q ∈ ((fun w : ℝ × ℝ => w.1 * w.2) '' (Set.Icc a b ×ˢ Set.Icc c d)) := by
      rcases hq with rfl | rfl | rfl | rfl
      · exact mem _ _ hA hC
      · exact mem _ _ hA hD
      · exact mem _ _ hB hC
      · exact mem _ _ hB hD
    obtain ⟨⟨x, y⟩, ⟨hx, hy⟩, hxy⟩ := hpre.Icc_subset hp' hq' hz
    exact ⟨x, hx, y, hy, hxy⟩
  · rintro ⟨x, hx, y, hy, rfl⟩
    have := C26_contains_partial (F := F) a b c d (has_fin.mpr hx) (has_fin.mpr hy)
    rw [h, has_fin] at this
    exact this

/-- The absolute value of an interval is the set of absolute values. -/
theorem Interval.abs_set [F.Exact] {a b : ℝ} (hab : a ≤ b) : ∃ p q : ℝ,
    (Interval.abs ⟨fin a, fin b⟩ : Interval (Fl F)) = ⟨fin p, fin q⟩ ∧ ∀ z, (p ≤ z ∧ z ≤ q) ↔ ∃ x, (a ≤ x ∧ x ≤ b) ∧ |x| = z := by
  have hq : ∀ {z : ℝ} {p : ℝ}, (∃ x, (a ≤ x ∧ x ≤ b) ∧ |x| = p) → p ≤ z → z ≤ max |a| |b| → ∃ x, (a ≤ x ∧ x ≤ b) ∧ |x| = z := by
    rintro z p ⟨x, hx, rfl⟩ h1 h2
    have hpre : IsPreconnected ((fun w : ℝ => |w|) '' Set.Icc a b) := isPreconnected_Icc.image _ (by fun_prop)
    have hM : max |a| |b| ∈ ((fun w : ℝ => |w|) '' Set.Icc a b) := by
      rcases max_choice |a| |b| with h | h
      · exact ⟨a, ⟨le_rfl, hab⟩, h.symm⟩
      · exact ⟨b, ⟨hab, le_rfl⟩, h.symm⟩
    obtain ⟨y, hy, hyz⟩ := hpre.Icc_subset ⟨x, hx, rfl⟩ hM ⟨h1, h2⟩
    exact ⟨y, hy, hyz⟩
  by_cases h : a < 0 ∧ 0 < b
  · have e : (Interval.abs ⟨fin a, fin b⟩ : Interval (Fl F)) = ⟨fin 0, fin (max |a| |b|)⟩ := by
      unfold Interval.abs
      simp [fl, gt, h.1, h.2, max_fin]
    refine ⟨_, _, e, fun z => ⟨fun hz => hq ⟨0, ⟨h.1.le, h.2.le⟩, abs_zero⟩ hz.1 hz.2, ?_⟩⟩
    rintro ⟨x, hx, rfl⟩
    have := C30_abs (F := F) a b (has_fin.mpr hx)
    rw [e, has_fin] at this
    exact this
  · have e : (Interval.abs ⟨fin a, fin b⟩ : Interval (Fl F)) = ⟨fin (min |a| |b|), fin (max |a| |b|)⟩ := by
      unfold Interval.abs
      have h' : ¬ ((lt (fin a : Fl F) 0 && gt (fin b : Fl F) 0) = true) := by simpa [fl, gt] using h
      dsimp only
      rw [if_neg h']
      simp [fl, max_fin, min_fin]
    refine ⟨_, _, e, fun z => ⟨fun hz => hq ?_ hz.1 hz.2, ?_⟩⟩
    · rcases min_choice |a| |b| with h | h
      · exact ⟨a, ⟨le_rfl, hab⟩, h.symm⟩
      · exact ⟨b, ⟨hab, le_rfl⟩, h.symm⟩
    · rintro ⟨x, hx, rfl⟩
      have := C30_abs (F := F) a b (has_fin.mpr hx)
      rw [e, has_fin] at this
      exact this

/-- In exact arithmetic the computed interval is the set of values with every occurrence of a variable varying by itself. -/
theorem IExpr.eval_loose [F.Exact] (m : Mode) (e : IExpr ι) (a b : ι → ℝ) (hab : ∀ i, a i ≤ b i) : ∃ p q : ℝ, p ≤ q ∧
    e.eval (fun _ => F) m (fun i => (⟨fin (a i), fin (b i)⟩ : Interval (Fl F))) = ⟨fin p, fin q⟩ ∧
    ∀ z, (p ≤ z ∧ z ≤ q) ↔ z ∈ e.loose fun i => Set.Icc (a i) (b i) := by
  -- a nonempty set
  have two : ∀ {p q : ℝ} {S : Set ℝ}, S.Nonempty → (∀ z, (p ≤ z ∧ z ≤ q) ↔ z ∈ S) → p ≤ q := by
    rintro p q S ⟨z, hz⟩ h
    have := (h z).mpr hz
    exact this.1.trans this.2
  have ne : ∀ e : IExpr ι, (e.loose fun i => Set.Icc (a i) (b i)).Nonempty := fun e =>
    ⟨_, e.value_mem_loose (x := a) fun i => ⟨le_rfl, hab i⟩⟩
  suffices h : ∃ p q : ℝ, e.eval (fun _ => F) m (fun i => (⟨fin (a i), fin (b i)⟩ : Interval (Fl F))) = ⟨fin p, fin q⟩ ∧
      ∀ z, (p ≤ z ∧ z ≤ q) ↔ z ∈ e.loose fun i => Set.Icc (a i) (b i) by
    obtain ⟨p, q, h1, h2⟩ := h
    exact ⟨p, q, two (ne e) h2, h1, h2⟩
  induction e with
  | var i => exact ⟨a i, b i, rfl, fun z => Iff.rfl⟩
  | const c =>
    refine ⟨c, c, rfl, fun z => ?_⟩
    show _ ↔ z = c
    constructor
    · rintro ⟨h1, h2⟩; exact le_antisymm h2 h1
    · rintro rfl; exact ⟨le_rfl, le_rfl⟩
  | add e f ihe ihf =>
    obtain ⟨p, q, e1, h1⟩ := ihe
    obtain ⟨r, s, e2, h2⟩ := ihf
    have hpq := two (ne e) h1
    have hrs := two (ne f) h2
    refine ⟨p + r, q + s, ?_, fun z => ?_⟩
    · rw [IExpr.eval, e1, e2]
      exact congrArg₂ Interval.mk (Fl.add_fin (F := F) p r) (Fl.add_fin (F := F) q s)
    · constructor
      · rintro ⟨k1, k2⟩
        refine ⟨max p (z - s), (h1 _).mp ⟨le_max_left _ _, max_le hpq (by linarith)⟩, z - max p (z - s), (h2 _).mp ⟨?_, ?_⟩, by ring⟩
        · have : max p (z - s) ≤ z - r := max_le (by linarith) (by linarith)
          linarith
        · have := le_max_right p (z - s)
          linarith
      · rintro ⟨x, hx, y, hy, rfl⟩
        have := (h1 x).mpr hx
        have := (h2 y).mpr hy
        constructor <;> linarith
  | sub e f ihe ihf =>
    obtain ⟨p, q, e1, h1⟩ := ihe
    obtain ⟨r, s, e2, h2⟩ := ihf
    have hpq := two (ne e) h1
    have hrs := two (ne f) h2
    refine ⟨p - s, q - r, ?_, fun z => ?_⟩
    · rw [IExpr.eval, e1, e2]
      exact congrArg₂ Interval.mk (Fl.sub_fin (F := F) p s) (Fl.sub_fin (F := F) q r)
    · constructor
      · rintro ⟨k1, k2⟩
        refine ⟨max p (z + r), (h1 _).mp ⟨le_max_left _ _, max_le hpq (by linarith)⟩, max p (z + r) - z, (h2 _).mp ⟨?_, ?_⟩, by ring⟩
        · have := le_max_right p (z + r)
          linarith
        · have : max p (z + r) ≤ z + s := max_le (by linarith) (by linarith)
          linarith
      · rintro ⟨x, hx, y, hy, rfl⟩
        have := (h1 x).mpr hx
        have := (h2 y).mpr hy
        constructor <;> linarith
  | mul e f ihe ihf =>
    obtain ⟨p, q, e1, h1⟩ := ihe
    obtain ⟨r, s, e2, h2⟩ := ihf
    obtain ⟨v, w, e3, h3⟩ := Interval.mul_set (F := F) (two (ne e) h1) (two (ne f) h2)
    refine ⟨v, w, by rw [IExpr.eval, e1, e2, e3], fun z => (h3 z).trans ?_⟩
    constructor
    · rintro ⟨x, hx, y, hy, hz⟩
      exact ⟨x, (h1 x).mp hx, y, (h2 y).mp hy, hz⟩
    · rintro ⟨x, hx, y, hy, hz⟩
      exact ⟨x, (h1 x).mpr hx, y, (h2 y).mpr hy, hz⟩
  | abs e ih =>
    obtain ⟨p, q, e1, h1⟩ := ih
    obtain ⟨v, w, e3, h3⟩ := Interval.abs_set (F := F) (two (ne e) h1)
    refine ⟨v, w, by rw [IExpr.eval, e1, e3], fun z => (h3 z).trans ?_⟩
    constructor
    · rintro ⟨x, hx, hz⟩
      exact ⟨x, (h1 x).mp hx, hz⟩
    · rintro ⟨x, hx, hz⟩
      exact ⟨x, (h1 x).mpr hx, hz⟩
  | exp e ih =>
    obtain ⟨p, q, e1, h1⟩ := ih
    refine ⟨Real.exp p, Real.exp q, ?_, fun z => ?_⟩
    · rw [IExpr.eval, e1]
      exact congrArg₂ Interval.mk (Fl.exp_fin (F := F) p) (Fl.exp_fin (F := F) q)
    · constructor
      · rintro ⟨k1, k2⟩
        have hz : 0 < z := (Real.exp_pos p).trans_le k1
        refine ⟨Real.log z, (h1 _).mp ⟨?_, ?_⟩, Real.exp_log hz⟩
        · rwa [Real.le_log_iff_exp_le hz]
        · rwa [Real.log_le_iff_le_exp hz]
      · rintro ⟨x, hx, rfl⟩
        have := (h1 x).mpr hx
        exact ⟨Real.exp_le_exp.mpr this.1, Real.exp_le_exp.mpr this.2⟩

/-- C144 in exact arithmetic: an expression of any size, evaluated with intervals, contains its value at all numbers in the
intervals. -/
theorem C144_exact [F.Exact] (m : Mode) (e : IExpr ι) (a b x : ι → ℝ) (hx : ∀ i, a i ≤ x i ∧ x i ≤ b i) :
    (e.eval (fun _ => F) m (fun i => (⟨fin (a i), fin (b i)⟩ : Interval (Fl F)))).Has (e.value x) := by
  obtain ⟨p, q, -, h1, h2⟩ := e.eval_loose (F := F) m a b fun i => (hx i).1.trans (hx i).2
  rw [h1, has_fin]
  exact (h2 _).mpr (e.value_mem_loose hx)

/-- `x² - e^x` for `x` between `-1` and `2`. -/
example (x : ℝ) (h : -1 ≤ x ∧ x ≤ 2) : ((IExpr.sub (.mul (.var ()) (.var ())) (.exp (.var ()))).eval (fun _ => exact64) .nearest
    (fun _ => (⟨fin (-1), fin 2⟩ : Interval (Fl exact64)))).Has (x * x - Real.exp x) :=
  C144_exact (F := exact64) .nearest _ (fun _ => -1) (fun _ => 2) (fun _ => x) fun _ => h

/-- C144 in exact arithmetic: if no variable occurs twice, the computed interval has no other members than the values of the
expression. -/
theorem C144_tight [F.Exact] (m : Mode) (e : IExpr ι) (he : e.SingleUse) (a b : ι → ℝ) (hab : ∀ i, a i ≤ b i) (z : ℝ) :
    (e.eval (fun _ => F) m (fun i => (⟨fin (a i), fin (b i)⟩ : Interval (Fl F)))).Has z ↔
      ∃ x : ι → ℝ, (∀ i, a i ≤ x i ∧ x i ≤ b i) ∧ e.value x = z := by
  constructor
  · intro h
    obtain ⟨p, q, -, h1, h2⟩ := e.eval_loose (F := F) m a b hab
    rw [h1, has_fin] at h
    exact e.loose_single he (S := fun i => Set.Icc (a i) (b i)) (fun i => ⟨a i, le_rfl, hab i⟩) ((h2 z).mp h)
  · rintro ⟨x, hx, rfl⟩
    exact C144_exact m e a b x hx

/-- `x * |y| - z` uses no variable twice. -/
example : (IExpr.sub (.mul (.var 0) (.abs (.var 1))) (.var 2) : IExpr (Fin 3)).SingleUse := by
  simp [IExpr.SingleUse, IExpr.vars]

/-- The hypothesis of `C144_tight` is needed: `x - x` on `[0, 1]` contains 1. -/
example : ((IExpr.sub (.var ()) (.var ())).eval (fun _ => exact64) .nearest (fun _ => (⟨fin 0, fin 1⟩ : Interval (Fl exact64)))).Has 1 ∧
    ∀ x : Unit → ℝ, (IExpr.sub (.var ()) (.var ())).value x ≠ 1 := by
  constructor
  · have e : (IExpr.sub (.var ()) (.var ())).eval (fun _ => exact64) .nearest (fun _ => (⟨fin 0, fin 1⟩ : Interval (Fl exact64))) =
        ⟨fin (0 - 1), fin (1 - 0)⟩ := congrArg₂ Interval.mk (Fl.sub_fin (F := exact64) 0 1) (Fl.sub_fin (F := exact64) 1 0)
    rw [e, has_fin]
    norm_num
  · intro x
    simp [IExpr.value]

end DRT
