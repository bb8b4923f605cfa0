import Verif.Model.Roots
import Verif.Scalar.Lemmas
import Verif.Lemmas.RealRoots
import Mathlib.Data.List.Sort

/-! # Helper lemmas for roots.hpp -/

namespace DRT
open Scalar Fl

section any
variable {R : Type} [Scalar R]

theorem insertAsc_perm (x : R) (l : List R) : (insertAsc x l).Perm (x :: l) := by
  induction l with
  | nil => exact List.Perm.refl _
  | cons y ys ih =>
    unfold insertAsc
    split
    · exact (ih.cons y).trans (List.Perm.swap x y ys)
    · exact List.Perm.refl _

theorem sortAsc_perm (l : List R) : (sortAsc l).Perm l := by
  induction l with
  | nil => exact List.Perm.refl _
  | cons x xs ih => exact (insertAsc_perm x _).trans (ih.cons x)

theorem sortAsc_length (l : List R) : (sortAsc l).length = l.length := (sortAsc_perm l).length_eq

theorem mem_sortAsc {l : List R} {x : R} : x ∈ sortAsc l ↔ x ∈ l := (sortAsc_perm l).mem_iff

end any

variable {F : Fmt}

theorem insertAsc_sorted {x : Fl F} {l : List (Fl F)} (hx : isNaN x = false) (hl : ∀ y ∈ l, isNaN y = false)
    (h : l.Pairwise (fun a b => Scalar.le a b = true)) :
    (insertAsc x l).Pairwise (fun a b => Scalar.le a b = true) := by
  induction l with
  | nil => simp [insertAsc]
  | cons y ys ih =>
    unfold insertAsc
    rw [List.pairwise_cons] at h
    have hy := hl y (by simp)
    split
    · next hlt =>
      rw [List.pairwise_cons]
      refine ⟨fun z hz => ?_, ih (fun z hz => hl z (by simp [hz])) h.2⟩
      rcases (List.mem_cons.mp ((insertAsc_perm x ys).mem_iff.mp hz)) with rfl | hz
      · exact Fl.le_of_lt hlt
      · exact h.1 z hz
    · next hlt =>
      have hxy := Fl.le_of_not_lt hy hx (by simpa using hlt)
      rw [List.pairwise_cons]
      refine ⟨fun z hz => ?_, List.pairwise_cons.mpr h⟩
      rcases List.mem_cons.mp hz with rfl | hz
      · exact hxy
      · exact Fl.le_trans hxy (h.1 z hz)

/-- The sort sorts when no element is NaN (any format). -/
theorem sortAsc_sorted {l : List (Fl F)} (hl : ∀ y ∈ l, isNaN y = false) :
    (sortAsc l).Pairwise (fun a b => Scalar.le a b = true) := by
  induction l with
  | nil => exact List.Pairwise.nil
  | cons x xs ih =>
    refine insertAsc_sorted (hl x (by simp)) (fun y hy => hl y ?_) (ih fun y hy => hl y (by simp [hy]))
    exact List.mem_cons_of_mem _ (mem_sortAsc.mp hy)

/-- Insertion on reals. -/
noncomputable def rinsert (x : ℝ) : List ℝ → List ℝ
  | [] => [x]
  | y :: ys => if y < x then y :: rinsert x ys else x :: y :: ys
/-- Sorting on reals. -/
noncomputable def rsort : List ℝ → List ℝ
  | [] => []
  | x :: xs => rinsert x (rsort xs)

theorem insertAsc_map (x : ℝ) (l : List ℝ) :
    insertAsc (fin x : Fl F) (l.map fin) = (rinsert x l).map fin := by
  induction l with
  | nil => rfl
  | cons y ys ih =>
    simp only [List.map_cons, insertAsc, rinsert, lt_fin, decide_eq_true_eq]
    split
    · simp [ih]
    · simp
@[fl] theorem sortAsc_map (l : List ℝ) : sortAsc (l.map (fin : ℝ → Fl F)) = (rsort l).map fin := by
  induction l with
  | nil => rfl
  | cons x xs ih => simp only [List.map_cons, sortAsc, ih, insertAsc_map, rsort]

theorem rinsert_perm (x : ℝ) (l : List ℝ) : (rinsert x l).Perm (x :: l) := by
  induction l with
  | nil => exact List.Perm.refl _
  | cons y ys ih =>
    unfold rinsert
    split
    · exact (ih.cons y).trans (List.Perm.swap x y ys)
    · exact List.Perm.refl _
theorem rsort_perm (l : List ℝ) : (rsort l).Perm l := by
  induction l with
  | nil => exact List.Perm.refl _
  | cons x xs ih => exact (rinsert_perm x _).trans (ih.cons x)
theorem mem_rsort {l : List ℝ} {x : ℝ} : x ∈ rsort l ↔ x ∈ l := (rsort_perm l).mem_iff
theorem rinsert_sorted {x : ℝ} {l : List ℝ} (h : l.Pairwise (· ≤ ·)) : (rinsert x l).Pairwise (· ≤ ·) := by
  induction l with
  | nil => simp [rinsert]
  | cons y ys ih =>
    unfold rinsert
    rw [List.pairwise_cons] at h
    split
    · next hlt =>
      rw [List.pairwise_cons]
      refine ⟨fun z hz => ?_, ih h.2⟩
      rcases (List.mem_cons.mp ((rinsert_perm x ys).mem_iff.mp hz)) with rfl | hz
      · exact hlt.le
      · exact h.1 z hz
    · next hlt =>
      rw [List.pairwise_cons]
      refine ⟨fun z hz => ?_, List.pairwise_cons.mpr h⟩
      rcases List.mem_cons.mp hz with rfl | hz
      · exact not_lt.mp hlt
      · exact (not_lt.mp hlt).trans (h.1 z hz)
theorem rsort_sorted (l : List ℝ) : (rsort l).Pairwise (· ≤ ·) := by
  induction l with
  | nil => exact List.Pairwise.nil
  | cons x xs ih => exact rinsert_sorted ih

variable [F.Exact]

@[fl] theorem discriminant_fin (a b c : ℝ) :
    discriminant (fin a : Fl F) (fin b) (fin c) = fin (b ^ 2 - 4 * a * c) := by
  simp only [discriminant, fl, Nat.cast_ofNat]; ring

/-- What `quadratic_roots` returns on finite coefficients that are not inside a threshold window. -/
theorem quadraticRoots_spec (a b c : ℝ) (ha : a = 0 ∨ F.tiny < |a|)
    (hb : a = 0 ∨ b = 0 ∨ F.tiny < |b|) (h0 : ¬ (a = 0 ∧ b = 0 ∧ c = 0)) :
    ((quadraticRoots (fin a : Fl F) (fin b) (fin c) = [] ∧ ∀ z : ℝ, a * z ^ 2 + b * z + c ≠ 0)) ∨
    (∃ x y : ℝ, x ≤ y ∧ quadraticRoots (fin a : Fl F) (fin b) (fin c) = [fin x, fin y] ∧
      (a ≠ 0 → a * (x + y) = -b ∧ a * (x * y) = c) ∧
      ∀ z : ℝ, a * z ^ 2 + b * z + c = 0 ↔ z = x ∨ z = y) := by
  have ht : (0 : ℝ) ≤ F.tiny := Fmt.Exact.tiny_nonneg
  unfold quadraticRoots
  simp only [fl, Nat.cast_zero, decide_eq_true_eq, Bool.and_eq_true, Bool.not_eq_true', decide_eq_false_iff_not,
    ne, Nat.cast_ofNat]
  by_cases ha0 : a = 0
  · subst ha0
    simp only [abs_zero, ht, if_true]
    by_cases hb0 : b = 0
    · subst hb0
      have hc : c ≠ 0 := fun h => h0 ⟨rfl, rfl, h⟩
      left
      simp [hc]
    · right
      refine ⟨-c / b, -c / b, le_rfl, by simp [hb0, div_fin _ hb0], fun h => absurd rfl h, fun z => ?_⟩
      rw [or_self, eq_div_iff hb0]
      constructor <;> intro h <;> linarith
  · have ha' : ¬ |a| ≤ F.tiny := by
      rcases ha with h | h
      · exact absurd h ha0
      · exact not_le.mpr h
    simp only [ha', if_false]
    by_cases hb0 : b = 0
    · subst hb0
      simp only [abs_zero, ht, if_true, div_fin _ ha0, lt_fin, decide_eq_true_eq]
      by_cases hneg : -c / a < 0
      · left
        refine ⟨by simp [hneg], fun z hz => ?_⟩
        have : z ^ 2 = -c / a := by rw [eq_div_iff ha0]; linarith
        rw [← this] at hneg
        exact absurd (sq_nonneg z) (not_le.mpr hneg)
      · right
        have hs := Real.sq_sqrt (not_lt.mp hneg)
        have hsum : a * (-√(-c / a) + √(-c / a)) = -0 := by ring
        have hprod : a * (-√(-c / a) * √(-c / a)) = c := by
          have : a * (-√(-c / a) * √(-c / a)) = -(a * √(-c / a) ^ 2) := by ring
          rw [this, hs]; field_simp
        refine ⟨-√(-c / a), √(-c / a), ?_, ?_, fun _ => ⟨hsum, hprod⟩, quad_root_iff ha0 hsum hprod⟩
        · have := Real.sqrt_nonneg (-c / a); linarith
        · simp [hneg, sqrt_fin (not_lt.mp hneg)]
    · have hb' : ¬ |b| ≤ F.tiny := by
        rcases hb with h | h | h
        · exact absurd h ha0
        · exact absurd h hb0
        · exact not_le.mpr h
      simp only [hb', if_false]
      by_cases hneg : b ^ 2 - 4 * a * c < 0
      · left
        exact ⟨by simp [hneg], quad_no_root hneg⟩
      · right
        have hnn := not_lt.mp hneg
        have hsq := Real.sq_sqrt hnn
        have hs0 := Real.sqrt_nonneg (b ^ 2 - 4 * a * c)
        simp only [hneg, if_false, sqrt_fin hnn]
        obtain ⟨s, hcs, hs2, hq0⟩ : ∃ s : ℝ, copysign (fin √(b ^ 2 - 4 * a * c) : Fl F) (fin b) = fin s ∧
            s ^ 2 = b ^ 2 - 4 * a * c ∧ -(b + s) / 2 ≠ 0 := by
          rcases lt_or_gt_of_ne hb0 with hbn | hbp
          · refine ⟨-√(b ^ 2 - 4 * a * c), ?_, by rw [neg_sq, hsq], ?_⟩
            · rw [copysign_fin_of_neg _ hbn, abs_fin, Fl.neg_fin, abs_of_nonneg hs0]
            · have : 0 < -(b + -√(b ^ 2 - 4 * a * c)) / 2 := by linarith
              exact this.ne'
          · refine ⟨√(b ^ 2 - 4 * a * c), ?_, hsq, ?_⟩
            · rw [copysign_fin_of_nonneg _ hbp.le, abs_fin, abs_of_nonneg hs0]
            · have : -(b + √(b ^ 2 - 4 * a * c)) / 2 < 0 := by linarith
              exact this.ne
        obtain ⟨hsum, hprod⟩ := stable_quad ha0 hq0 hs2 rfl
        simp only [hcs, add_fin, Fl.neg_fin, div_fin _ (two_ne_zero (α := ℝ)), div_fin _ ha0, div_fin _ hq0, lt_fin,
          decide_eq_true_eq]
        generalize -(b + s) / 2 = q at *
        by_cases hlt : q / a < c / q
        · refine ⟨_, _, hlt.le, by rw [if_pos hlt], fun _ => ⟨hsum, hprod⟩, quad_root_iff ha0 hsum hprod⟩
        · have hsum' : a * (c / q + q / a) = -b := by rw [← hsum]; ring
          have hprod' : a * (c / q * (q / a)) = c := by rw [mul_comm (c / q)]; exact hprod
          exact ⟨_, _, not_lt.mp hlt, by rw [if_neg hlt], fun _ => ⟨hsum', hprod'⟩, quad_root_iff ha0 hsum' hprod'⟩

/-- Numerical Recipes' `Q` for `ax³+bx²+cx+d`. -/
noncomputable def cubQ (a b c : ℝ) : ℝ := (b / a * (b / a) - 3 * (c / a)) / 9
/-- Numerical Recipes' `R` for `ax³+bx²+cx+d`. -/
noncomputable def cubR (a b c d : ℝ) : ℝ :=
  (2 * (b / a) * (b / a) * (b / a) - 9 * (b / a) * (c / a) + 27 * (d / a)) / 54

theorem cub_depress {a : ℝ} (ha : a ≠ 0) (b c d y : ℝ) :
    a * (y - b / a / 3) ^ 3 + b * (y - b / a / 3) ^ 2 + c * (y - b / a / 3) + d =
      a * (y ^ 3 - 3 * cubQ a b c * y + 2 * cubR a b c d) := by
  unfold cubQ cubR; field_simp; ring

theorem cub_depress' {a : ℝ} (ha : a ≠ 0) (b c d z : ℝ) :
    a * z ^ 3 + b * z ^ 2 + c * z + d =
      a * ((z + b / a / 3) ^ 3 - 3 * cubQ a b c * (z + b / a / 3) + 2 * cubR a b c d) := by
  rw [← cub_depress ha]; ring

/-- The threshold windows that `cubic_roots` is sensitive to do not apply. With `tiny = 0` this always holds
for `a ≠ 0`. -/
structure CubicClear (tiny a b c d : ℝ) : Prop where
  lead : tiny < |a|
  const : d = 0 ∨ tiny < |d|
  quad : d = 0 → b = 0 ∨ tiny < |b|
  cardano : cubR a b c d = 0 ∨ tiny ^ 3 < |cubR a b c d|

theorem CubicClear.of_zero {a : ℝ} (ha : a ≠ 0) (b c d : ℝ) : CubicClear 0 a b c d := by
  have key : ∀ x : ℝ, x = 0 ∨ 0 < |x| := fun x => by rw [abs_pos]; exact em _
  refine ⟨abs_pos.mpr ha, key d, fun _ => key b, ?_⟩
  rw [zero_pow three_ne_zero]; exact key _

/-- What `cubic_roots` returns on finite coefficients outside the threshold windows. -/
theorem cubicRoots_spec (a b c d : ℝ) (h : CubicClear F.tiny a b c d) :
    ∃ l : List ℝ, cubicRoots (fin a : Fl F) (fin b) (fin c) (fin d) = l.map fin ∧ l ≠ [] ∧
      l.Pairwise (· ≤ ·) ∧ (∀ z ∈ l, a * z ^ 3 + b * z ^ 2 + c * z + d = 0) ∧
      (∀ z0, a * z0 ^ 3 + b * z0 ^ 2 + c * z0 + d = 0 → z0 ∈ l ∨
        (d ≠ 0 ∧ ∃ w ∈ l, w ≠ z0 ∧ ∀ z, a * z ^ 3 + b * z ^ 2 + c * z + d = a * (z - w) * (z - z0) ^ 2)) ∧
      (d ≠ 0 → cubR a b c d ^ 2 = cubQ a b c ^ 3 → l.length = 1) := by
  have ht : (0 : ℝ) ≤ F.tiny := Fmt.Exact.tiny_nonneg
  have ha0 : a ≠ 0 := by
    intro h0; have := h.lead; rw [h0, abs_zero] at this; linarith
  have ha' : ¬ |a| ≤ F.tiny := not_le.mpr h.lead
  unfold cubicRoots
  simp only [fl, Nat.cast_zero, decide_eq_true_eq, Nat.cast_ofNat, ha', if_false]
  by_cases hd0 : d = 0
  · subst hd0
    simp only [abs_zero, ht, if_true]
    have hq := quadraticRoots_spec (F := F) a b c (Or.inr h.lead) (Or.inr (h.quad rfl)) (fun h => ha0 h.1)
    have hfac : ∀ z : ℝ, a * z ^ 3 + b * z ^ 2 + c * z + 0 = 0 ↔ z = 0 ∨ a * z ^ 2 + b * z + c = 0 := by
      intro z
      rw [show a * z ^ 3 + b * z ^ 2 + c * z + 0 = z * (a * z ^ 2 + b * z + c) by ring, mul_eq_zero]
    rcases hq with ⟨hl, hno⟩ | ⟨x, y, hxy, hl, -, hiff⟩
    · refine ⟨rsort [0], ?_, by simp [rsort, rinsert], rsort_sorted _, ?_, ?_, fun h => absurd rfl h⟩
      · rw [hl, ← sortAsc_map]; rfl
      · intro z hz; rw [mem_rsort] at hz; simp at hz; subst hz; simp
      · intro z hz
        rw [hfac] at hz
        left; rw [mem_rsort]; simpa [hno z] using hz
    · refine ⟨rsort [x, y, 0], ?_, ?_, rsort_sorted _, ?_, ?_, fun h => absurd rfl h⟩
      · rw [hl, ← sortAsc_map]; rfl
      · intro h0; have := (rsort_perm [x, y, 0]).length_eq; rw [h0] at this; simp at this
      · intro z hz
        rw [mem_rsort] at hz
        rw [hfac, hiff]
        simp at hz; tauto
      · intro z hz
        rw [hfac, hiff] at hz
        left; rw [mem_rsort]; simp; tauto
  · have hd' : ¬ |d| ≤ F.tiny := by
      rcases h.const with h | h
      · exact absurd h hd0
      · exact not_le.mpr h
    have n9 : (9 : ℝ) ≠ 0 := by norm_num
    have n54 : (54 : ℝ) ≠ 0 := by norm_num
    have n3 : (3 : ℝ) ≠ 0 := by norm_num
    simp only [hd', if_false, div_fin _ ha0, fl, div_fin _ n9, div_fin _ n54, div_fin _ n3]
    have hQ : (b / a * (b / a) - 3 * (c / a)) / 9 = cubQ a b c := rfl
    have hR : (2 * (b / a) * (b / a) * (b / a) - 9 * (b / a) * (c / a) + 27 * (d / a)) / 54 = cubR a b c d := rfl
    simp only [hQ, hR]
    have dep := cub_depress ha0 b c d
    have dep' := cub_depress' ha0 b c d
    have hcard := h.cardano
    generalize cubQ a b c = Q at *
    generalize cubR a b c d = R at *
    by_cases hlt : R * R < Q * Q * Q
    · have hQ0 : 0 < Q := by
        by_contra hq
        have h1 : 0 ≤ Q * Q := mul_self_nonneg Q
        nlinarith [mul_self_nonneg R]
      have hrt : 0 < √Q := Real.sqrt_pos.mpr hQ0
      have hD : 0 < Q * √Q := by positivity
      have hsq : √Q ^ 2 = Q := Real.sq_sqrt hQ0.le
      have hD2 : (Q * √Q) ^ 2 = Q * Q * Q := by rw [mul_pow, hsq]; ring
      have habs : |R| ≤ Q * √Q := by
        apply abs_le_of_sq_le_sq _ hD.le
        rw [hD2]; nlinarith
      have hx := abs_le.mp habs
      have hfac := trig_cubic hlt
      simp only [hlt, decide_true, if_true, sqrt_fin hQ0.le, mul_fin, div_fin _ hD.ne']
      rw [acos_fin (by rw [le_div_iff₀ hD]; linarith) (by rw [div_le_one hD]; linarith)]
      simp only [fl, div_fin _ n3, cos_fin, mul_fin, sub_fin]
      generalize (-2) * √Q * Real.cos (Real.arccos (R / (Q * √Q)) / 3) = y0 at *
      generalize (-2) * √Q * Real.cos ((Real.arccos (R / (Q * √Q)) + 2 * Real.pi) / 3) = y1 at *
      generalize (-2) * √Q * Real.cos ((Real.arccos (R / (Q * √Q)) - 2 * Real.pi) / 3) = y2 at *
      have hiff : ∀ z, a * z ^ 3 + b * z ^ 2 + c * z + d = 0 ↔
          z ∈ [y0 - b / a / 3, y1 - b / a / 3, y2 - b / a / 3] := by
        intro z
        rw [dep', hfac, mul_eq_zero, mul_eq_zero, mul_eq_zero]
        simp only [ha0, false_or, List.mem_cons, List.not_mem_nil, or_false]
        constructor
        · rintro ((h | h) | h)
          · left; linarith
          · right; left; linarith
          · right; right; linarith
        · rintro (h | h | h)
          · left; left; linarith
          · left; right; linarith
          · right; linarith
      refine ⟨rsort [y0 - b / a / 3, y1 - b / a / 3, y2 - b / a / 3], ?_, ?_, rsort_sorted _, ?_, ?_, ?_⟩
      · rw [← sortAsc_map]; rfl
      · intro h0
        have := (rsort_perm [y0 - b / a / 3, y1 - b / a / 3, y2 - b / a / 3]).length_eq
        rw [h0] at this; simp at this
      · intro z hz; rw [mem_rsort] at hz; rwa [hiff]
      · intro z hz; left; rw [mem_rsort]; rwa [hiff] at hz
      · intro _ he; exfalso; nlinarith
    · have harg : 0 ≤ R * R - Q * Q * Q := by linarith
      simp only [hlt, decide_false, Bool.false_eq_true, if_false, sqrt_fin harg, fl]
      by_cases hR0 : R = 0
      · subst hR0
        have hsg : sgn (fin 0 : Fl F) = 0 := by simp [sgn, fl]
        simp only [hsg, neg_zero, Int.cast_zero, Rat.cast_zero, zero_mul, abs_zero, ht, decide_true, if_true]
        have hroot : ∀ z, a * z ^ 3 + b * z ^ 2 + c * z + d = 0 ↔ z = 0 - b / a / 3 := by
          intro z
          rw [dep', mul_eq_zero]
          simp only [ha0, false_or]
          rw [show z = 0 - b / a / 3 ↔ z + b / a / 3 = 0 by constructor <;> intro h <;> linarith]
          generalize z + b / a / 3 = y
          constructor
          · intro h
            by_contra hy
            have h2 : y * (y ^ 2 - 3 * Q) = 0 := by linarith
            have h3 : y ^ 2 = 3 * Q := by
              rcases mul_eq_zero.mp h2 with h | h
              · exact absurd h hy
              · linarith
            have : 0 < y ^ 2 := by positivity
            have hQp : 0 < Q := by linarith
            have : 0 < Q * Q * Q := by positivity
            linarith
          · rintro rfl; ring
        refine ⟨[0 - b / a / 3], rfl, by simp, by simp, ?_, ?_, fun _ _ => rfl⟩
        · intro z hz; rw [hroot]; simpa using hz
        · intro z hz; rw [hroot] at hz; left; simpa using hz
      · have hc3 : F.tiny ^ 3 < |R| := by
          rcases hcard with h | h
          · exact absurd h hR0
          · exact h
        obtain ⟨σ, hσ, hσR, hσ2⟩ : ∃ σ : ℝ, (((-((sgn (fin R : Fl F) : ℤ) : ℚ)) : ℚ) : ℝ) = -σ ∧ σ * |R| = R ∧ σ ^ 2 = 1 := by
          rcases lt_or_gt_of_ne hR0 with hn | hp
          · refine ⟨-1, ?_, ?_, by norm_num⟩
            · simp [sgn, fl, hn, not_lt.mpr hn.le]
            · rw [abs_of_neg hn]; ring
          · refine ⟨1, ?_, ?_, by norm_num⟩
            · simp [sgn, fl, hp, not_lt.mpr hp.le]
            · rw [abs_of_pos hp]; ring
        have hs0 := Real.sqrt_nonneg (R * R - Q * Q * Q)
        have hs2 := Real.sq_sqrt harg
        have hRp : 0 < |R| := abs_pos.mpr hR0
        obtain ⟨k, hk⟩ : ∃ k, k = realCbrt (|R| + √(R * R - Q * Q * Q)) := ⟨_, rfl⟩
        have hk3 : k ^ 3 = |R| + √(R * R - Q * Q * Q) := by rw [hk, realCbrt_pow3]
        have hkp : 0 < k := by rw [hk]; exact realCbrt_pos (by linarith)
        have hkt : F.tiny < k := by
          apply lt_of_pow_lt_pow_left₀ 3 hkp.le
          rw [hk3]; linarith
        have habs : |(-σ) * k| = k := by
          have : |σ| = 1 := by
            have := sq_abs σ; rw [hσ2] at this
            nlinarith [abs_nonneg σ]
          rw [abs_mul, abs_neg, this, one_mul, abs_of_pos hkp]
        rw [← hk]
        simp only [hσ, habs, not_le.mpr hkt, decide_false, Bool.false_eq_true, if_false]
        obtain ⟨A, hA⟩ : ∃ A, A = (-σ) * k := ⟨_, rfl⟩
        have hA0 : A ≠ 0 := by
          intro h0; rw [← hA, h0, abs_zero] at habs; exact hkp.ne habs
        have hσ3 : σ ^ 3 = σ := by rw [pow_succ, hσ2, one_mul]
        have hA3 : A ^ 3 = -(R + σ * √(R * R - Q * Q * Q)) := by
          rw [hA, mul_pow, hk3, neg_pow, hσ3]
          linear_combination (-1) * hσR
        have hres : A ^ 6 + 2 * R * A ^ 3 + Q ^ 3 = 0 := by
          have h6 : A ^ 6 = (A ^ 3) ^ 2 := by ring
          rw [h6, hA3]
          have : σ ^ 2 * √(R * R - Q * Q * Q) ^ 2 = R * R - Q * Q * Q := by rw [hσ2, hs2, one_mul]
          linear_combination this
        rw [← hA]
        simp only [div_fin _ hA0, add_fin, sub_fin]
        refine ⟨[A + Q / A - b / a / 3], rfl, by simp, by simp, ?_, ?_, fun _ _ => rfl⟩
        · intro z hz
          simp at hz
          rw [hz, dep, cardano_root hA0 hres, mul_zero]
        · intro z hz
          have hz' := hz
          rw [dep', mul_eq_zero] at hz'
          rcases cardano_others hA0 hres (hz'.resolve_left ha0) with h1 | ⟨h1, h2⟩
          · left; simp; linarith
          · by_cases he : z = A + Q / A - b / a / 3
            · left; simp [he]
            right
            refine ⟨hd0, _, List.mem_singleton.mpr rfl, fun h => he h.symm, ?_⟩
            have hQA : Q / A = A := by rw [← h1]; field_simp
            have hzA : z + b / a / 3 = -A := by
              have : (z + b / a / 3 - A) * (z + b / a / 3 + A) = 0 := by linear_combination h2 - h1
              rcases mul_eq_zero.mp this with h | h
              · exfalso
                have hzz : z + b / a / 3 = A := by linarith
                have h3 := hz'.resolve_left ha0
                rw [hzz] at h3
                have h4 : R = A ^ 3 := by
                  have : A ^ 6 = A ^ 3 * A ^ 3 := by ring
                  rw [← h1] at h3; linarith
                rw [h4, ← h1] at hres
                have : A ^ 6 = 0 := by linarith
                exact hA0 (pow_eq_zero_iff (by norm_num) |>.mp this)
              · linarith
            have hRA : R = -A ^ 3 := by
              have h3 : A ^ 3 * (2 * A ^ 3 + 2 * R) = 0 := by rw [← h1] at hres; linarith
              rcases mul_eq_zero.mp h3 with h | h
              · exact absurd (pow_eq_zero_iff (by norm_num) |>.mp h) hA0
              · linarith
            intro t
            rw [dep', hQA, ← h1, hRA]
            have : z = -A - b / a / 3 := by linarith
            rw [this]; ring

end DRT
