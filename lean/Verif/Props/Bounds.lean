import Verif.Model.Bounds
import Verif.Lemmas.Vec
import Verif.Lemmas.PcgOutput
import Verif.Scalar.IEEE

/-! # C32-C34: `bounds` -/

namespace DRT
open Scalar Fl

variable {F : Fmt} {n : ℕ}

/-! ## C32 -/

/-- C32, any rounding: for NaN-free vectors and bounds, `contains` decides membership in the closed box. The ends may
be infinite. Missing: a NaN component, see `C32_nan_false`. -/
theorem C32_contains_iff_partial (b : Bounds (Fl F) n) (v : Vec (Fl F) n) (hv : ∀ i, isNaN (v i) = false)
    (hb : ∀ i, isNaN (b.box i).1 = false ∧ isNaN (b.box i).2 = false) :
    b.contains v = true ↔ ∀ i, Scalar.le (b.box i).1 (v i) = true ∧ Scalar.le (v i) (b.box i).2 = true := by
  unfold Bounds.contains
  rw [List.all_eq_true]
  constructor
  · intro h i
    have := h i (List.mem_finRange i)
    simp only [gt, Bool.not_eq_true', Bool.or_eq_false_iff] at this
    exact ⟨Fl.le_of_not_lt (hv i) (hb i).1 this.1, Fl.le_of_not_lt (hb i).2 (hv i) this.2⟩
  · intro h i _
    simp only [gt, Bool.not_eq_true', Bool.or_eq_false_iff]
    exact ⟨Fl.not_lt_of_le (h i).1, Fl.not_lt_of_le (h i).2⟩

example : (⟨![(fin 0, fin 1), (ninf, fin 5)], ⟨0, 0⟩⟩ : Bounds (Fl binary32) 2).contains ![fin (1/2), fin (-7)] = true := by
  rw [C32_contains_iff_partial]
  · intro i; fin_cases i <;> simp <;> norm_num
  · intro i; fin_cases i <;> rfl
  · intro i; fin_cases i <;> simp

/-- C32 fails: a NaN component is accepted whatever the interval; only the other components are tested. -/
theorem C32_nan_false (b : Bounds (Fl F) n) (v : Vec (Fl F) n) (i : Fin n) (lo hi : Fl F) :
    b.contains (Function.update v i Fl.nan) =
      (⟨Function.update b.box i (lo, hi), b.pcg⟩ : Bounds (Fl F) n).contains (Function.update v i Fl.nan) := by
  unfold Bounds.contains
  congr 1
  funext j
  by_cases h : j = i
  · subst h; simp [gt]
  · simp [Function.update_of_ne h]

example : (⟨fun _ => (fin 0, fin 1), ⟨0, 0⟩⟩ : Bounds (Fl binary64) 3).contains (fun _ => Fl.nan) = true := by
  simp [Bounds.contains, gt]

/-! ## C33 -/

/-- C33, any rounding: the two-argument overload agrees with the vector overload exactly when comparing `x` with the
upper end of the second interval gives the same answer as comparing `y`, or another test already rejects. -/
theorem C33_contains2_partial (b : Bounds (Fl F) 2) (x y : Fl F) :
    b.contains2 x y = b.contains ![x, y] ↔
      (lt x (b.box 0).1 || gt x (b.box 0).2 || lt y (b.box 1).1) = true ∨ gt x (b.box 1).2 = gt y (b.box 1).2 := by
  simp only [Bounds.contains2, Bounds.contains, List.finRange_succ, List.finRange_zero, List.map_nil, List.map_cons,
    List.all_cons, List.all_nil]
  simp only [Matrix.cons_val_zero, Matrix.cons_val_one, Fin.succ_zero_eq_one]
  cases lt x (b.box 0).1 <;> cases gt x (b.box 0).2 <;> cases lt y (b.box 1).1 <;> cases gt x (b.box 1).2 <;>
    cases gt y (b.box 1).2 <;> simp

/-- C33 for the three-argument overload. -/
theorem C33_contains3_partial (b : Bounds (Fl F) 3) (x y z : Fl F) :
    b.contains3 x y z = b.contains ![x, y, z] ↔
      (lt x (b.box 0).1 || gt x (b.box 0).2 || lt y (b.box 1).1 || lt z (b.box 2).1 || gt z (b.box 2).2) = true ∨
        gt x (b.box 1).2 = gt y (b.box 1).2 := by
  simp only [Bounds.contains3, Bounds.contains, List.finRange_succ, List.finRange_zero, List.map_nil, List.map_cons,
    List.all_cons, List.all_nil]
  simp only [Matrix.cons_val_zero, Matrix.cons_val_one, Fin.succ_zero_eq_one, Matrix.cons_val, Fin.succ_one_eq_two]
  cases lt x (b.box 0).1 <;> cases gt x (b.box 0).2 <;> cases lt y (b.box 1).1 <;> cases gt x (b.box 1).2 <;>
    cases gt y (b.box 1).2 <;> cases lt z (b.box 2).1 <;> cases gt z (b.box 2).2 <;> simp

/-- C33 fails: any `y` at or above the lower end is accepted, however far above the upper end it is. -/
theorem C33_above_false (b0 b1 : ℝ × ℝ) (x y : ℝ) (hx : b0.1 ≤ x ∧ x ≤ b0.2) (hx1 : x ≤ b1.2) (hy : b1.2 < y)
    (h1 : b1.1 ≤ b1.2) (g : Pcg) :
    (⟨![(fin b0.1, fin b0.2), (fin b1.1, fin b1.2)], g⟩ : Bounds (Fl F) 2).contains2 (fin x) (fin y) = true ∧
    (⟨![(fin b0.1, fin b0.2), (fin b1.1, fin b1.2)], g⟩ : Bounds (Fl F) 2).contains ![fin x, fin y] = false := by
  constructor
  · simp [Bounds.contains2, gt, not_lt.mpr hx.1, not_lt.mpr hx.2, not_lt.mpr hx1, (not_lt.mpr (h1.trans hy.le))]
  · simp [Bounds.contains, List.finRange_succ, gt, hy]

/-- C33 fails the other way: a point inside the box is rejected when `x` exceeds the upper end of the second interval. -/
theorem C33_inside_rejected_false (b0 b1 : ℝ × ℝ) (x y : ℝ) (hx : b0.1 ≤ x ∧ x ≤ b0.2) (hy : b1.1 ≤ y ∧ y ≤ b1.2)
    (hx1 : b1.2 < x) (g : Pcg) :
    (⟨![(fin b0.1, fin b0.2), (fin b1.1, fin b1.2)], g⟩ : Bounds (Fl F) 2).contains2 (fin x) (fin y) = false ∧
    (⟨![(fin b0.1, fin b0.2), (fin b1.1, fin b1.2)], g⟩ : Bounds (Fl F) 2).contains ![fin x, fin y] = true := by
  constructor
  · simp [Bounds.contains2, gt, hx1]
  · simp [Bounds.contains, List.finRange_succ, gt, hx.1, hx.2, hy.1, hy.2]

example : (0:ℝ) ≤ 3 ∧ (3:ℝ) ≤ 4 ∧ (1:ℝ) < 3 ∧ (0:ℝ) ≤ 1/2 := by norm_num

/-! ## C34 -/

/-- Finite bounds with real ends. -/
def Bounds.ofReal (lo hi : Fin n → ℝ) (g : Pcg) : Bounds (Fl F) n := ⟨fun i => (fin (lo i), fin (hi i)), g⟩

theorem random_eq [F.Exact] (lo hi : Fin n → ℝ) (g : Pcg) :
    (Bounds.ofReal (F := F) lo hi g).random =
      (fun i => (Pcg.real01 (R := Fl F) (Pcg.advance^[i.1] g)).1 * (fin (hi i) - fin (lo i)) + fin (lo i),
        Bounds.ofReal lo hi (Pcg.advance^[n] g)) := by
  unfold Bounds.random
  have key : ∀ m (hm : m ≤ n), Fin.foldl m (fun (s : Vec (Fl F) n × Pcg) i =>
      (Function.update s.1 (Fin.castLE hm i) ((Pcg.real01 s.2).1 * (fin (hi (Fin.castLE hm i)) -
        fin (lo (Fin.castLE hm i))) + fin (lo (Fin.castLE hm i))), (Pcg.real01 (R := Fl F) s.2).2)) (Vec.nans, g) =
      (fun i => if i.1 < m then (Pcg.real01 (R := Fl F) (Pcg.advance^[i.1] g)).1 * (fin (hi i) - fin (lo i)) + fin (lo i)
        else Fl.nan, Pcg.advance^[m] g) := by
    intro m
    induction m with
    | zero => intro _; simp; rfl
    | succ m ih =>
      intro hm
      rw [Fin.foldl_succ_last]
      simp only [show ∀ i : Fin m, Fin.castLE hm i.castSucc = Fin.castLE (by omega : m ≤ n) i from fun _ => rfl]
      rw [ih (by omega)]
      refine Prod.ext ?_ ?_
      · funext i
        by_cases hi' : i.1 = m
        · have : i = Fin.castLE hm (Fin.last m) := Fin.ext hi'
          rw [this]
          simp
        · have hne : i ≠ Fin.castLE hm (Fin.last m) := fun h => hi' (congrArg Fin.val h)
          simp only [Function.update_of_ne hne]
          have : (i.1 < m + 1) = (i.1 < m) := by simp; omega
          simp only [this]
      · show Pcg.advance (Pcg.advance^[m] g) = _
        exact (Function.iterate_succ_apply' Pcg.advance m g).symm
  have := key n le_rfl
  simp only [Fin.castLE_rfl, id] at this
  dsimp only [Bounds.ofReal]
  rw [this]
  refine Prod.ext ?_ rfl
  funext i
  simp only [i.2, if_true]

/-- C34: `random()` returns a finite point of the box for every generator state; each draw uses the next state. -/
theorem C34_random_inside [F.Exact] (lo hi : Fin n → ℝ) (h : ∀ i, lo i ≤ hi i) (g : Pcg) :
    (Bounds.ofReal (F := F) lo hi g).contains (Bounds.ofReal (F := F) lo hi g).random.1 = true ∧
    (∀ i, ∃ x : ℝ, (Bounds.ofReal (F := F) lo hi g).random.1 i = fin x ∧ lo i ≤ x ∧ (lo i < hi i → x < hi i)) ∧
    (Bounds.ofReal (F := F) lo hi g).random.2 = Bounds.ofReal lo hi ((fun h => (Pcg.next h).2)^[n] g) := by
  have key : ∀ i, ∃ x : ℝ, (Bounds.ofReal (F := F) lo hi g).random.1 i = fin x ∧ lo i ≤ x ∧ x ≤ hi i ∧
      (lo i < hi i → x < hi i) := by
    intro i
    have e : (Pcg.real01 (R := Fl F) (Pcg.advance^[i.1] g)).1 =
      fin (((Pcg.advance^[i.1] g).next.1.toNat : ℝ) / 2 ^ 32) := ldexp32_def _
    have h0 : 0 ≤ ((Pcg.advance^[i.1] g).next.1.toNat : ℝ) / 2 ^ 32 := by positivity
    have h1 : ((Pcg.advance^[i.1] g).next.1.toNat : ℝ) / 2 ^ 32 < 1 := by
      rw [div_lt_one (by positivity)]
      exact_mod_cast (Pcg.advance^[i.1] g).next.1.isLt
    generalize ((Pcg.advance^[i.1] g).next.1.toNat : ℝ) / 2 ^ 32 = u at *
    have hi' := h i
    refine ⟨u * (hi i - lo i) + lo i, ?_, ?_, ?_, ?_⟩
    · rw [random_eq]; simp only [e, fl]
    · nlinarith
    · nlinarith
    · intro hlt; nlinarith
  refine ⟨?_, fun i => ?_, ?_⟩
  · unfold Bounds.contains
    rw [List.all_eq_true]
    intro i _
    obtain ⟨x, hx, h1, h2, -⟩ := key i
    rw [hx]
    simp [Bounds.ofReal, gt, h1, h2]
  · obtain ⟨x, hx, h1, -, h3⟩ := key i
    exact ⟨x, hx, h1, h3⟩
  · rw [random_eq]; rfl

example (g : Pcg) : (Bounds.ofReal (F := exact64) ![-1, 2] ![3, 2] g).contains (Bounds.ofReal (F := exact64) ![-1, 2] ![3, 2] g).random.1 = true :=
  (C34_random_inside ![-1, 2] ![3, 2] (by intro i; fin_cases i <;> norm_num) g).1

/-- C34: `center()` is the midpoint and is accepted by `contains`. -/
theorem C34_center [F.Exact] (lo hi : Fin n → ℝ) (h : ∀ i, lo i ≤ hi i) (g : Pcg) :
    (Bounds.ofReal (F := F) lo hi g).center = cv (fun i => (lo i + hi i) / 2) ∧
    (Bounds.ofReal (F := F) lo hi g).contains (Bounds.ofReal (F := F) lo hi g).center = true := by
  have e : (Bounds.ofReal (F := F) lo hi g).center = cv (fun i => (lo i + hi i) / 2) := by
    funext i
    simp only [Bounds.center, Bounds.ofReal, cv, add_fin]
    rw [ofNat_def, div_fin _ (by norm_num)]; norm_num
  refine ⟨e, ?_⟩
  rw [e]
  unfold Bounds.contains
  rw [List.all_eq_true]
  intro i _
  have := h i
  simp only [Bounds.ofReal, cv, gt, lt_fin, Bool.not_eq_true', Bool.or_eq_false_iff, decide_eq_false_iff_not, not_lt]
  constructor <;> linarith

example (g : Pcg) : (Bounds.ofReal (F := exact64) ![-1, 2] ![3, 2] g).contains (Bounds.ofReal (F := exact64) ![-1, 2] ![3, 2] g).center = true :=
  (C34_center ![-1, 2] ![3, 2] (by intro i; fin_cases i <;> norm_num) g).2

/-- C34: `volume()` is the product of the side lengths, in every dimension. -/
theorem C34_volume [F.Exact] (lo hi : Fin n → ℝ) (g : Pcg) :
    (Bounds.ofReal (F := F) lo hi g).volume = fin (∏ i, (hi i - lo i)) := by
  simp only [Bounds.volume, Bounds.ofReal, sub_fin]
  clear g
  induction n with
  | zero => simp [ofNat_one]
  | succ m ih =>
    rw [Fin.foldl_succ_last, ih (fun i => lo i.castSucc) (fun i => hi i.castSucc), mul_fin, Fin.prod_univ_castSucc]

/-- C34: for ordered bounds, `empty()` is true iff some side has length zero, that is, iff the open box has no point.
Missing: `empty()` is also claimed to mean that `contains` accepts nothing, which fails; see below. -/
theorem C34_empty_partial [F.Exact] (lo hi : Fin n → ℝ) (h : ∀ i, lo i ≤ hi i) (g : Pcg) :
    (Bounds.ofReal (F := F) lo hi g).empty = true ↔ ¬ ∃ v : Fin n → ℝ, ∀ i, lo i < v i ∧ v i < hi i := by
  unfold Bounds.empty
  rw [C34_volume, ofNat_zero, le_fin, decide_eq_true_eq]
  constructor
  · rintro h0 ⟨v, hv⟩
    have : 0 < ∏ i, (hi i - lo i) := Finset.prod_pos fun i _ => by have := hv i; linarith
    linarith
  · intro hno
    by_contra hpos
    apply hno
    refine ⟨fun i => (lo i + hi i) / 2, fun i => ?_⟩
    have hne : hi i - lo i ≠ 0 := by
      intro h0
      exact hpos (Finset.prod_eq_zero (Finset.mem_univ i) h0).le
    have : lo i < hi i := lt_of_le_of_ne (h i) (fun h' => hne (by linarith))
    constructor <;> linarith

example : (Bounds.ofReal (F := exact64) ![0, 0] ![1, 2] ⟨1, 1⟩).empty = false ∧
    (Bounds.ofReal (F := exact64) ![0, 0] ![1, 2] ⟨1, 1⟩).volume = fin 2 := by
  constructor
  · rw [← Bool.not_eq_true, C34_empty_partial _ _ (by intro i; fin_cases i <;> simp), not_not]
    exact ⟨![1/2, 1], by intro i; fin_cases i <;> norm_num⟩
  · rw [C34_volume]; simp [Fin.prod_univ_two]

/-- C34 fails: every degenerate box is reported empty although it contains its center. -/
theorem C34_degenerate_false [F.Exact] (lo hi : Fin n → ℝ) (h : ∀ i, lo i ≤ hi i) (j : Fin n) (hj : lo j = hi j) (g : Pcg) :
    (Bounds.ofReal (F := F) lo hi g).empty = true ∧
    (Bounds.ofReal (F := F) lo hi g).contains (Bounds.ofReal (F := F) lo hi g).center = true := by
  refine ⟨?_, (C34_center lo hi h g).2⟩
  rw [C34_empty_partial lo hi h]
  rintro ⟨v, hv⟩
  have := hv j; linarith

/-- C34 fails: with two inverted sides (the 2-D constructor only warns) `empty()` is false although nothing is
contained. -/
theorem C34_inverted_false [F.Exact] (g : Pcg) :
    (Bounds.ofReal (F := F) ![1, 1] ![0, 0] g).empty = false ∧
    Bounds.init (fun i => (Bounds.ofReal (F := F) ![1, 1] ![0, 0] g).box i) ≠ none ∧
    ∀ v : Fin 2 → ℝ, (Bounds.ofReal (F := F) ![1, 1] ![0, 0] g).contains (cv v) = false := by
  refine ⟨?_, by simp [Bounds.init], fun v => ?_⟩
  · unfold Bounds.empty
    rw [C34_volume, ofNat_zero, le_fin]
    simp [Fin.prod_univ_two]
  · simp only [Bounds.contains, List.finRange_succ, List.finRange_zero, List.map_nil, List.map_cons, List.all_cons,
      List.all_nil, Bounds.ofReal, cv, gt, lt_fin]
    simp
    intro h1 h2
    have h3 : ¬ v 0 < 1 := of_decide_eq_false h1
    have h4 : ¬ 0 < v 0 := of_decide_eq_false h2
    linarith

end DRT
