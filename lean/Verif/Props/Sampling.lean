import Verif.Props.Threads
import Verif.Props.Areas
import Mathlib.Analysis.Real.Pi.Bounds

/-!
# C148: the sampling loop of `lambertian` is fair

`random_unit_vector` (lambertian.hpp:36-44) draws points of a cube until one of them is in the unit ball. Here its generator is ideal: every
sequence of 32 bit numbers is equally probable. So probabilities are shares of the sequences.
-/

namespace DRT
open Scalar Fl Matrix MeasureTheory

variable {F : Fmt}

/-! ## Shares -/

/-- The share of those that have the property `P`. -/
noncomputable def share {T : Type} (P : T → Prop) : ℚ := ({t | P t}.ncard : ℚ) / Nat.card T

theorem share_congr {T : Type} {P Q : T → Prop} (h : ∀ t, P t ↔ Q t) : share P = share Q := by
  rw [show P = Q from funext fun t => propext (h t)]

theorem share_equiv {T U : Type} (e : T ≃ U) (P : U → Prop) : share (fun t => P (e t)) = share P := by
  unfold share
  rw [Nat.card_congr e]
  congr 2
  refine Set.ncard_congr (fun t _ => e t) (fun t h => h) (fun a b _ _ h => e.injective h) fun b hb => ⟨e.symm b, ?_, e.apply_symm_apply b⟩
  show P (e (e.symm b))
  rwa [e.apply_symm_apply]

theorem share_not {T : Type} [Finite T] [Nonempty T] (P : T → Prop) : share (fun t => ¬ P t) = 1 - share P := by
  have h : {t | P t}.ncard + {t | ¬ P t}.ncard = Nat.card T := Set.ncard_add_ncard_compl {t | P t}
  have hq : (Nat.card T : ℚ) ≠ 0 := Nat.cast_ne_zero.mpr Nat.card_pos.ne'
  unfold share
  rw [eq_sub_iff_add_eq, ← add_div, div_eq_one_iff_eq hq, ← h]
  push_cast
  ring

theorem share_nonneg {T : Type} (P : T → Prop) : 0 ≤ share P := by unfold share; positivity

/-- One draw decides, or else the others do. -/
theorem share_or_else {T U : Type} [Finite T] [Finite U] [Nonempty T] [Nonempty U] (P Q : T → Prop) (S : U → Prop) :
    share (fun x : T × U => (P x.1 ∧ Q x.1) ∨ (¬ P x.1 ∧ S x.2)) = share (fun t => P t ∧ Q t) + share (fun t => ¬ P t) * share S := by
  have e : {x : T × U | (P x.1 ∧ Q x.1) ∨ (¬ P x.1 ∧ S x.2)} = ({t | P t ∧ Q t} ×ˢ Set.univ) ∪ ({t | ¬ P t} ×ˢ {u | S u}) := by
    ext x; simp [Set.mem_prod]
  have hd : Disjoint ({t | P t ∧ Q t} ×ˢ (Set.univ : Set U)) ({t | ¬ P t} ×ˢ {u | S u}) := by
    rw [Set.disjoint_left]
    rintro x h1 h2
    exact h2.1 h1.1.1
  have hT : (Nat.card T : ℚ) ≠ 0 := Nat.cast_ne_zero.mpr Nat.card_pos.ne'
  have hU : (Nat.card U : ℚ) ≠ 0 := Nat.cast_ne_zero.mpr Nat.card_pos.ne'
  unfold share
  rw [e, Set.ncard_union_eq hd, Set.ncard_prod, Set.ncard_prod, Set.ncard_univ, Nat.card_prod]
  push_cast
  field_simp

/-! ## Words -/

/-- The three 32 bit numbers that one body of the loop draws. -/
abbrev Triple := BitVec 32 × BitVec 32 × BitVec 32

/-- The point of the cube for three draws. -/
def Triple.point (R : Type) [Scalar R] (t : Triple) : Vec R 3 :=
  ![2 * ldexp32 t.1.toNat - 1, 2 * ldexp32 t.2.1.toNat - 1, 2 * ldexp32 t.2.2.toNat - 1]

/-- The loop keeps the point: its square length is not greater than one. -/
def Triple.Kept (R : Type) [Scalar R] (t : Triple) : Prop := gt (Vec.squaredNorm (t.point R)) 1 = false

/-- A generator that gives the numbers of a list, in turn. -/
def Words.next (l : List (BitVec 32)) : BitVec 32 × List (BitVec 32) := (l.headD 0, l.tail)

/-- The numbers of `n` bodies, one after the other. -/
def Words.list {n : ℕ} (w : Fin n → Triple) : List (BitVec 32) := (List.ofFn w).flatMap fun t => [t.1, t.2.1, t.2.2]

/-- What the loop returns with the numbers `w`; nothing if `n` bodies do not suffice. -/
def outcome (R : Type) [Scalar R] {n : ℕ} (w : Fin n → Triple) : Option (Vec R 3) :=
  ((Comp.unitVector (R := R) 0 n).alone Words.next fun _ => Words.list w).map fun x => x.1

/-- The loop on a list. -/
def Words.loop (R : Type) [Scalar R] : ℕ → List (BitVec 32) → Option (Vec R 3 × List (BitVec 32))
  | 0, _ => none
  | n + 1, g =>
    let v : Vec R 3 := ![2 * ldexp32 (next g).1.toNat - 1, 2 * ldexp32 (next (next g).2).1.toNat - 1, 2 * ldexp32 (next (next (next g).2).2).1.toNat - 1]
    if gt (Vec.squaredNorm v) 1 then loop R n (next (next (next g).2).2).2 else some (v, (next (next (next g).2).2).2)

theorem outcome_loop {R : Type} [Scalar R] {n : ℕ} (w : Fin n → Triple) : outcome R w = (Words.loop R n (Words.list w)).map fun x => x.1 := by
  unfold outcome
  rw [unitVector_loop Words.next (Words.loop R) (fun _ => rfl) (fun _ _ => rfl), Option.map_map]
  rfl

theorem outcome_zero {R : Type} [Scalar R] (w : Fin 0 → Triple) : outcome R w = none := by rw [outcome_loop]; rfl

theorem outcome_succ {R : Type} [Scalar R] {n : ℕ} (t : Triple) (w : Fin n → Triple) : outcome R (Fin.cons t w : Fin (n + 1) → Triple) =
    if gt (Vec.squaredNorm (t.point R)) 1 then outcome R w else some (t.point R) := by
  have e : Words.list (Fin.cons t w : Fin (n + 1) → Triple) = t.1 :: t.2.1 :: t.2.2 :: Words.list w := by
    simp [Words.list, List.ofFn_succ]
  rw [outcome_loop, e, outcome_loop]
  show Option.map _ (if gt (Vec.squaredNorm (t.point R)) 1 then Words.loop R n (Words.list w) else some (t.point R, Words.list w)) = _
  split_ifs <;> rfl

instance : Finite (BitVec 32) := Finite.of_injective _ BitVec.toFin_injective

theorem card_word : Nat.card (BitVec 32) = 2 ^ 32 := by
  rw [Nat.card_congr (⟨BitVec.toFin, BitVec.ofFin, fun _ => rfl, fun _ => rfl⟩ : BitVec 32 ≃ Fin (2 ^ 32)), Nat.card_eq_fintype_card, Fintype.card_fin]

/-- C148: in every arithmetic, the loop prefers none of the points that it keeps. The probability that `n` bodies end the loop in a set `A` is
the share of `A` among the points kept, times the probability that one of the `n` points is kept. -/
theorem C148_fair {R : Type} [Scalar R] (n : ℕ) (A : Set (Vec R 3)) (h : ∃ t : Triple, t.Kept R) :
    share (fun w : Fin n → Triple => ∃ v ∈ A, outcome R w = some v) =
      share (fun t : Triple => t.Kept R ∧ t.point R ∈ A) / share (fun t : Triple => t.Kept R) * (1 - (1 - share (fun t : Triple => t.Kept R)) ^ n) := by
  have hk : share (fun t : Triple => t.Kept R) ≠ 0 := by
    unfold share
    rw [div_ne_zero_iff, Nat.cast_ne_zero, Nat.cast_ne_zero]
    refine ⟨?_, Nat.card_pos.ne'⟩
    exact ((Set.ncard_pos (Set.toFinite _)).mpr h).ne'
  induction n with
  | zero =>
    have : share (fun w : Fin 0 → Triple => ∃ v ∈ A, outcome R w = some v) = 0 := by
      unfold share
      rw [show {w : Fin 0 → Triple | ∃ v ∈ A, outcome R w = some v} = ∅ by
        ext w; simp [outcome_zero]]
      simp
    rw [this]; simp
  | succ n ih =>
    rw [← share_equiv (Fin.consEquiv fun _ => Triple) fun w : Fin (n + 1) → Triple => ∃ v ∈ A, outcome R w = some v]
    rw [share_congr (Q := fun x : Triple × (Fin n → Triple) => (x.1.Kept R ∧ x.1.point R ∈ A) ∨ (¬ x.1.Kept R ∧ ∃ v ∈ A, outcome R x.2 = some v)),
      share_or_else (fun t : Triple => t.Kept R) (fun t => t.point R ∈ A) (fun w : Fin n → Triple => ∃ v ∈ A, outcome R w = some v), ih, share_not]
    · generalize share (fun t : Triple => t.Kept R) = p at *
      generalize share (fun t : Triple => t.Kept R ∧ t.point R ∈ A) = q at *
      field_simp
      ring
    · rintro ⟨t, w⟩
      show (∃ v ∈ A, outcome R (Fin.cons t w : Fin (n + 1) → Triple) = some v) ↔ _
      rw [outcome_succ]
      unfold Triple.Kept
      cases hg : gt (Vec.squaredNorm (t.point R)) 1 with
      | true => simp
      | false => simp

/-- In single precision: the rounded points of the half of the cube with negative first coordinate. -/
example (n : ℕ) : share (fun w : Fin n → Triple => ∃ v ∈ {v : Vec (Fl binary32) 3 | lt (v 0) 0 = true}, outcome (Fl binary32) w = some v) =
    share (fun t : Triple => t.Kept (Fl binary32) ∧ t.point (Fl binary32) ∈ {v : Vec (Fl binary32) 3 | lt (v 0) 0 = true}) /
      share (fun t : Triple => t.Kept (Fl binary32)) * (1 - (1 - share (fun t : Triple => t.Kept (Fl binary32))) ^ n) := by
  refine C148_fair n _ ?_
  have h := good_accepted (F := binary32) (exactQuarters_ieee (by norm_num) (by norm_num) (by norm_num))
  rw [lambertian_draw] at h
  exact ⟨(_, _, _), h⟩

/-- C148: the probability that `n` bodies do not end the loop. -/
theorem C148_ends {R : Type} [Scalar R] (n : ℕ) :
    share (fun w : Fin n → Triple => outcome R w = none) = (1 - share (fun t : Triple => t.Kept R)) ^ n := by
  induction n with
  | zero =>
    unfold share
    rw [show {w : Fin 0 → Triple | outcome R w = none} = Set.univ by ext w; simp [outcome_zero], Set.ncard_univ]
    simp
  | succ n ih =>
    rw [← share_equiv (Fin.consEquiv fun _ => Triple) fun w : Fin (n + 1) → Triple => outcome R w = none]
    rw [share_congr (Q := fun x : Triple × (Fin n → Triple) => (x.1.Kept R ∧ False) ∨ (¬ x.1.Kept R ∧ outcome R x.2 = none)),
      share_or_else (fun t : Triple => t.Kept R) (fun _ => False) (fun w : Fin n → Triple => outcome R w = none), ih, share_not]
    · have : share (fun t : Triple => t.Kept R ∧ False) = 0 := by unfold share; simp
      rw [this, zero_add, pow_succ, mul_comm]
    · rintro ⟨t, w⟩
      show outcome R (Fin.cons t w : Fin (n + 1) → Triple) = none ↔ _
      rw [outcome_succ]
      unfold Triple.Kept
      cases hg : gt (Vec.squaredNorm (t.point R)) 1 with
      | true => simp
      | false => simp

/-! ## How many points are kept -/

/-- The point for three draws in exact arithmetic. -/
noncomputable def Triple.real (t : Triple) : Fin 3 → ℝ := ![(t.1.toNat : ℝ) / 2 ^ 31 - 1, t.2.1.toNat / 2 ^ 31 - 1, t.2.2.toNat / 2 ^ 31 - 1]

theorem Triple.point_real [F.Exact] (t : Triple) : t.point (Fl F) = cv t.real := by
  have e : ∀ k : ℕ, (2 : Fl F) * ldexp32 k - 1 = fin ((k : ℝ) / 2 ^ 31 - 1) := by
    intro k
    simp only [fl]
    push_cast
    ring
  unfold Triple.point Triple.real
  rw [e, e, e, cv_vec3]

theorem Triple.kept_real [F.Exact] (t : Triple) : t.Kept (Fl F) ↔ t.real ⬝ᵥ t.real ≤ 1 := by
  unfold Triple.Kept
  rw [Triple.point_real, cv_squaredNorm, gt, ofNat_one, lt_fin, decide_eq_false_iff_not, not_lt]

/-- The small cube at the point for three draws. -/
def Triple.cell (t : Triple) : Set (Fin 3 → ℝ) := Set.univ.pi fun i => Set.Ico (t.real i) (t.real i + 1 / 2 ^ 31)

theorem Triple.mem_cell {t : Triple} {x : Fin 3 → ℝ} : x ∈ t.cell ↔ ∀ i, t.real i ≤ x i ∧ x i < t.real i + 1 / 2 ^ 31 := by
  simp [Triple.cell, Set.mem_pi]

theorem Triple.measurable_cell (t : Triple) : MeasurableSet t.cell := MeasurableSet.univ_pi fun _ => measurableSet_Ico

theorem Triple.volume_cell (t : Triple) : volume t.cell = ENNReal.ofReal ((1 / 2 ^ 31) ^ 3) := by
  unfold Triple.cell
  rw [Real.volume_pi_Ico]
  simp only [add_sub_cancel_left, Finset.prod_const, Finset.card_univ, Fintype.card_fin]
  rw [ENNReal.ofReal_pow (by positivity)]

theorem word_eq {a b : BitVec 32} {x : ℝ} (h1 : (a.toNat : ℝ) / 2 ^ 31 - 1 ≤ x ∧ x < (a.toNat : ℝ) / 2 ^ 31 - 1 + 1 / 2 ^ 31)
    (h2 : (b.toNat : ℝ) / 2 ^ 31 - 1 ≤ x ∧ x < (b.toNat : ℝ) / 2 ^ 31 - 1 + 1 / 2 ^ 31) : a = b := by
  have e1 : (a.toNat : ℝ) < b.toNat + 1 := by linarith [h1.1, h2.2]
  have e2 : (b.toNat : ℝ) < a.toNat + 1 := by linarith [h1.2, h2.1]
  have e3 : a.toNat < b.toNat + 1 := by exact_mod_cast e1
  have e4 : b.toNat < a.toNat + 1 := by exact_mod_cast e2
  exact BitVec.eq_of_toNat_eq (by omega)

theorem Triple.disjoint_cell {s t : Triple} (h : s ≠ t) : Disjoint s.cell t.cell := by
  rw [Set.disjoint_left]
  intro x h1 h2
  rw [Triple.mem_cell] at h1 h2
  refine h (Prod.ext (word_eq (h1 0) (h2 0)) (Prod.ext (word_eq (h1 1) (h2 1)) (word_eq (h1 2) (h2 2))))

theorem Triple.volume_cells (K : Set Triple) : volume (⋃ t ∈ K, t.cell) = ENNReal.ofReal (K.ncard * (1 / 2 ^ 31) ^ 3) := by
  have hf := Set.toFinite K
  have e : (⋃ t ∈ K, t.cell) = ⋃ t ∈ hf.toFinset, t.cell := by simp
  rw [e, measure_biUnion_finset (fun s _ t _ h => Triple.disjoint_cell h) fun t _ => t.measurable_cell]
  simp only [Triple.volume_cell, Finset.sum_const]
  rw [Set.ncard_eq_toFinset_card K hf, nsmul_eq_mul, ENNReal.ofReal_mul (by positivity), ENNReal.ofReal_natCast]

/-- The ball about the origin. -/
theorem volume_ball3 (r : ℝ) (hr : 0 ≤ r) : volume {x : Fin 3 → ℝ | x ⬝ᵥ x ≤ r ^ 2} = ENNReal.ofReal (4 / 3 * Real.pi * r ^ 3) := by
  obtain ⟨V, h1, h2⟩ := C116_sphere_volume (F := exact64) 0 r hr
  have e : (Sphere.ofReal 0 r : Sphere (Fl exact64)).volume = fin (4 * Real.pi * r * r * r / 3) := by
    simp only [Sphere.volume, Sphere.ofReal, fl]
    rw [div_fin _ (by norm_num)]
    push_cast; rfl
  rw [e] at h1
  have h3 : 4 * Real.pi * r * r * r / 3 = V := Fl.fin_inj.mp h1
  rw [show 4 / 3 * Real.pi * r ^ 3 = V by rw [← h3]; ring, ← h2]
  congr 1
  ext x
  simp only [Set.mem_ofPred_eq, dotProduct, Fin.sum_univ_three, Pi.zero_apply, sub_zero, sq]

theorem share_triple (P : Triple → Prop) : (share P : ℝ) = {t | P t}.ncard * (1 / 2 ^ 31) ^ 3 / 8 := by
  unfold share
  rw [Nat.card_prod, Nat.card_prod, card_word]
  push_cast
  ring

/-- Every point of the cube is in one of the small cubes. -/
theorem exists_cell (x : Fin 3 → ℝ) (h : ∀ i, -1 ≤ x i ∧ x i < 1) : ∃ t : Triple, x ∈ t.cell := by
  have key : ∀ y : ℝ, -1 ≤ y → y < 1 → ∃ a : BitVec 32, (a.toNat : ℝ) / 2 ^ 31 - 1 ≤ y ∧ y < (a.toNat : ℝ) / 2 ^ 31 - 1 + 1 / 2 ^ 31 := by
    intro y h1 h2
    have h3 : 0 ≤ (y + 1) * 2 ^ 31 := mul_nonneg (by linarith) (by norm_num)
    have h4 := Nat.floor_le h3
    have h5 := Nat.lt_floor_add_one ((y + 1) * 2 ^ 31)
    have h6 : ⌊(y + 1) * 2 ^ 31⌋₊ < 2 ^ 32 := by
      rw [Nat.floor_lt h3]; push_cast; linarith
    generalize ⌊(y + 1) * 2 ^ 31⌋₊ = k at *
    refine ⟨BitVec.ofNat 32 k, ?_⟩
    rw [BitVec.toNat_ofNat, Nat.mod_eq_of_lt h6]
    have e : (k : ℝ) / 2 ^ 31 * 2 ^ 31 = k := div_mul_cancel₀ _ (by norm_num)
    constructor <;> linarith
  obtain ⟨a, ha⟩ := key (x 0) (h 0).1 (h 0).2
  obtain ⟨b, hb⟩ := key (x 1) (h 1).1 (h 1).2
  obtain ⟨c, hc⟩ := key (x 2) (h 2).1 (h 2).2
  refine ⟨(a, b, c), Triple.mem_cell.mpr fun i => ?_⟩
  fin_cases i
  · exact ha
  · exact hb
  · exact hc

/-- Two points of a small cube are near each other. -/
theorem near_cell {t : Triple} {x : Fin 3 → ℝ} (h : x ∈ t.cell) : (x - t.real) ⬝ᵥ (x - t.real) ≤ (1 / 2 ^ 30) ^ 2 := by
  rw [Triple.mem_cell] at h
  have key : ∀ i, (x i - t.real i) * (x i - t.real i) ≤ (1 / 2 ^ 31) ^ 2 := fun i => by
    rw [← sq]
    exact pow_le_pow_left₀ (by linarith [(h i).1]) (by linarith [(h i).2]) 2
  simp only [dotProduct, Fin.sum_univ_three, Pi.sub_apply]
  have := key 0
  have := key 1
  have := key 2
  have e : ((1 : ℝ) / 2 ^ 30) ^ 2 = 4 * (1 / 2 ^ 31) ^ 2 := by norm_num
  have : (0 : ℝ) ≤ (1 / 2 ^ 31) ^ 2 := by positivity
  linarith

/-- The triangle inequality. -/
theorem near_ball {x y : Fin 3 → ℝ} {r δ : ℝ} (hr : 0 ≤ r) (hδ : 0 ≤ δ) (h1 : x ⬝ᵥ x ≤ r ^ 2) (h2 : (y - x) ⬝ᵥ (y - x) ≤ δ ^ 2) :
    y ⬝ᵥ y ≤ (r + δ) ^ 2 := by
  have n : ∀ z : Fin 3 → ℝ, z ⬝ᵥ z = ‖WithLp.toLp 2 z‖ ^ 2 := fun z => by
    rw [EuclideanSpace.norm_sq_eq]; simp [dotProduct, sq]
  rw [n] at h1 h2 ⊢
  have h3 := (sq_le_sq₀ (norm_nonneg _) hr).mp h1
  have h4 := (sq_le_sq₀ (norm_nonneg _) hδ).mp h2
  refine pow_le_pow_left₀ (norm_nonneg _) ?_ 2
  calc ‖WithLp.toLp 2 y‖ = ‖WithLp.toLp 2 x + WithLp.toLp 2 (y - x)‖ := by rw [← WithLp.toLp_add, add_sub_cancel]
    _ ≤ _ := norm_add_le _ _
    _ ≤ _ := add_le_add h3 h4

/-- C148: the share of the points kept is that of the ball in the cube, `π / 6`, up to the distance of neighbouring points. -/
theorem C148_kept [F.Exact] : Real.pi / 6 * (1 - 1 / 2 ^ 30) ^ 3 ≤ share (fun t : Triple => t.Kept (Fl F)) ∧
    share (fun t : Triple => t.Kept (Fl F)) ≤ Real.pi / 6 * (1 + 1 / 2 ^ 30) ^ 3 := by
  rw [share_triple]
  obtain ⟨N, hN⟩ : ∃ N : ℝ, N = {t : Triple | t.Kept (Fl F)}.ncard * (1 / 2 ^ 31) ^ 3 := ⟨_, rfl⟩
  have hv := Triple.volume_cells {t : Triple | t.Kept (Fl F)}
  rw [← hN] at hv ⊢
  have h0 : 0 ≤ N := by rw [hN]; positivity
  constructor
  · have hs : {x : Fin 3 → ℝ | x ⬝ᵥ x ≤ (1 - 1 / 2 ^ 30) ^ 2} ⊆ ⋃ t ∈ {t : Triple | t.Kept (Fl F)}, t.cell := by
      intro x hx
      have hx' : x ⬝ᵥ x ≤ (1 - 1 / 2 ^ 30) ^ 2 := hx
      have hc : ∀ i, -1 ≤ x i ∧ x i < 1 := fun i => by
        have h1 : x i ^ 2 ≤ x ⬝ᵥ x := by
          rw [dotProduct, sq]
          exact Finset.single_le_sum (f := fun i => x i * x i) (fun i _ => mul_self_nonneg _) (Finset.mem_univ i)
        have h2 : ((1 : ℝ) - 1 / 2 ^ 30) ^ 2 < 1 := by norm_num
        exact ⟨by nlinarith, by nlinarith⟩
      obtain ⟨t, ht⟩ := exists_cell x hc
      refine Set.mem_biUnion (x := t) ?_ ht
      show t.Kept (Fl F)
      rw [Triple.kept_real]
      have h1 := near_cell ht
      have h2 : (t.real - x) ⬝ᵥ (t.real - x) ≤ (1 / 2 ^ 30) ^ 2 := by
        rw [← neg_sub x t.real, neg_dotProduct_neg]; exact h1
      have := near_ball (by norm_num) (by positivity) hx' h2
      simpa using this
    have := measure_mono (μ := volume) hs
    rw [hv, volume_ball3 _ (by norm_num), ENNReal.ofReal_le_ofReal_iff h0] at this
    linarith
  · have hs : (⋃ t ∈ {t : Triple | t.Kept (Fl F)}, t.cell) ⊆ {x : Fin 3 → ℝ | x ⬝ᵥ x ≤ (1 + 1 / 2 ^ 30) ^ 2} := by
      intro x hx
      simp only [Set.mem_iUnion] at hx
      obtain ⟨t, h1, h2⟩ := hx
      have h3 : t.real ⬝ᵥ t.real ≤ 1 ^ 2 := by rw [one_pow]; exact Triple.kept_real (F := F) t |>.mp h1
      exact near_ball zero_le_one (by positivity) h3 (near_cell h2)
    have := measure_mono (μ := volume) hs
    rw [hv, volume_ball3 _ (by positivity), ENNReal.ofReal_le_ofReal_iff (by positivity)] at this
    linarith

/-- C148: it is improbable that the loop takes long. -/
theorem C148_quick [F.Exact] (n : ℕ) : share (fun w : Fin n → Triple => outcome (Fl F) w = none) ≤ (1 / 2) ^ n := by
  rw [C148_ends]
  have h1 := (C148_kept (F := F)).1
  have h2 : (share (fun t : Triple => t.Kept (Fl F)) : ℚ) ≤ 1 := by
    have := share_nonneg fun t : Triple => ¬ t.Kept (Fl F)
    rw [share_not] at this
    linarith
  have h3 : ((1 / 2 : ℚ) : ℝ) ≤ share (fun t : Triple => t.Kept (Fl F)) := by
    refine le_trans ?_ h1
    have := Real.pi_gt_d2
    have e : (999 / 1000 : ℝ) ≤ (1 - 1 / 2 ^ 30) ^ 3 := by norm_num
    push_cast
    nlinarith
  rw [Rat.cast_le] at h3
  exact pow_le_pow_left₀ (by linarith) (by linarith) n

/-- At most the share `1/1024` of the sequences needs more than ten bodies of the loop. -/
example : share (fun w : Fin 10 → Triple => outcome (Fl exact64) w = none) ≤ 1 / 1024 := (C148_quick 10).trans (by norm_num)

theorem Triple.real_inj {s t : Triple} (h : s.real = t.real) : s = t := by
  have key : ∀ a b : BitVec 32, (a.toNat : ℝ) / 2 ^ 31 - 1 = b.toNat / 2 ^ 31 - 1 → a = b := by
    intro a b h
    have : (a.toNat : ℝ) = b.toNat := by linarith
    exact BitVec.eq_of_toNat_eq (by exact_mod_cast this)
  exact Prod.ext (key _ _ (congrFun h 0)) (Prod.ext (key _ _ (congrFun h 1)) (key _ _ (congrFun h 2)))

/-- C148: any two points that the loop keeps are equally probable. -/
theorem C148_points [F.Exact] (n : ℕ) (s t : Triple) (hs : s.real ⬝ᵥ s.real ≤ 1) (ht : t.real ⬝ᵥ t.real ≤ 1) :
    share (fun w : Fin n → Triple => outcome (Fl F) w = some (cv s.real)) = share (fun w : Fin n → Triple => outcome (Fl F) w = some (cv t.real)) := by
  have key : ∀ u : Triple, u.real ⬝ᵥ u.real ≤ 1 → share (fun w : Fin n → Triple => outcome (Fl F) w = some (cv u.real)) =
      1 / 2 ^ 96 / share (fun t : Triple => t.Kept (Fl F)) * (1 - (1 - share (fun t : Triple => t.Kept (Fl F))) ^ n) := by
    intro u hu
    have h := C148_fair (R := Fl F) n {cv u.real} ⟨u, Triple.kept_real u |>.mpr hu⟩
    have e : share (fun t : Triple => t.Kept (Fl F) ∧ t.point (Fl F) ∈ ({cv u.real} : Set (Vec (Fl F) 3))) = 1 / 2 ^ 96 := by
      unfold share
      rw [show {t : Triple | t.Kept (Fl F) ∧ t.point (Fl F) ∈ ({cv u.real} : Set (Vec (Fl F) 3))} = {u} by
        ext t
        rw [Set.mem_ofPred_eq, Set.mem_singleton_iff, Set.mem_singleton_iff, Triple.point_real, cv_inj, Triple.kept_real]
        exact ⟨fun h => Triple.real_inj h.2, by rintro rfl; exact ⟨hu, rfl⟩⟩, Set.ncard_singleton, Nat.card_prod, Nat.card_prod, card_word]
      norm_num
    rw [e] at h
    rw [← h]
    exact share_congr fun w => by simp
  rw [key s hs, key t ht]

/-- The middle of the ball and a point of its surface. -/
example (n : ℕ) : share (fun w : Fin n → Triple => outcome (Fl exact64) w = some (cv ![0, 0, 0])) =
    share (fun w : Fin n → Triple => outcome (Fl exact64) w = some (cv ![-1, 0, 0])) := by
  have h1 : Triple.real (2147483648#32, 2147483648#32, 2147483648#32) = ![0, 0, 0] := by
    unfold Triple.real; ext i; fin_cases i <;> norm_num
  have h2 : Triple.real (0#32, 2147483648#32, 2147483648#32) = ![-1, 0, 0] := by
    unfold Triple.real; ext i; fin_cases i <;> norm_num
  have := C148_points (F := exact64) n (2147483648#32, 2147483648#32, 2147483648#32) (0#32, 2147483648#32, 2147483648#32)
    (by rw [h1]; simp [dotProduct, Fin.sum_univ_three]) (by rw [h2]; simp [dotProduct, Fin.sum_univ_three])
  rwa [h1, h2] at this

/-- C148 fails: opposite directions are not equally probable. The point `(-1, 0, 0)` is kept, `(1, 0, 0)` is never drawn. -/
theorem C148_opposite_false [F.Exact] (n : ℕ) :
    0 < share (fun w : Fin (n + 1) → Triple => outcome (Fl F) w = some (cv ![-1, 0, 0])) ∧
    share (fun w : Fin (n + 1) → Triple => outcome (Fl F) w = some (cv ![1, 0, 0])) = 0 := by
  have h2 : Triple.real (0#32, 2147483648#32, 2147483648#32) = ![-1, 0, 0] := by
    unfold Triple.real; ext i; fin_cases i <;> norm_num
  have hk : Triple.Kept (Fl F) (0#32, 2147483648#32, 2147483648#32) := by
    rw [Triple.kept_real, h2]; simp [dotProduct, Fin.sum_univ_three]
  constructor
  · unfold share
    have : 0 < {w : Fin (n + 1) → Triple | outcome (Fl F) w = some (cv ![-1, 0, 0])}.ncard := by
      refine (Set.ncard_pos (Set.toFinite _)).mpr ⟨Fin.cons (0#32, 2147483648#32, 2147483648#32) fun _ => (0, 0, 0), ?_⟩
      show outcome _ _ = _
      rw [outcome_succ, if_neg (by unfold Triple.Kept at hk; rw [hk]; simp), Triple.point_real, h2]
    have hc : 0 < Nat.card (Fin (n + 1) → Triple) := Nat.card_pos
    positivity
  · have h := C148_fair (R := Fl F) (n + 1) {cv ![1, 0, 0]} ⟨_, hk⟩
    have e : share (fun t : Triple => t.Kept (Fl F) ∧ t.point (Fl F) ∈ ({cv ![1, 0, 0]} : Set (Vec (Fl F) 3))) = 0 := by
      unfold share
      rw [show {t : Triple | t.Kept (Fl F) ∧ t.point (Fl F) ∈ ({cv ![1, 0, 0]} : Set (Vec (Fl F) 3))} = ∅ by
        ext t
        rw [Set.mem_ofPred_eq, Set.mem_singleton_iff, Triple.point_real, cv_inj]
        simp only [Set.mem_empty_iff_false, iff_false, not_and]
        intro _ h
        have h0 : (t.1.toNat : ℝ) / 2 ^ 31 - 1 = 1 := congrFun h 0
        have h1 : (t.1.toNat : ℝ) < 2 ^ 32 := by exact_mod_cast t.1.isLt
        linarith]
      simp
    rw [e] at h
    rw [zero_div, zero_mul] at h
    rw [← h]
    exact share_congr fun w => by simp

end DRT
