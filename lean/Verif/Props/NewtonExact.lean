import Verif.Props.Newton
import Verif.Props.Vec
import Mathlib.NumberTheory.Real.Irrational

/-! # Newton's method in exact arithmetic: C21, C22, C23 -/

namespace DRT
open Scalar Vec Fl Matrix

variable {F : Fmt} {n : ℕ}

/-- Induction over a counted loop. -/
theorem foldl_inv {α : Type} (P : ℕ → α → Prop) {n : ℕ} (f : α → Fin n → α) (a : α) (h0 : P 0 a)
    (hs : ∀ (i : Fin n) a, P i a → P (i + 1) (f a i)) : P n (Fin.foldl n f a) := by
  induction n with
  | zero => simpa using h0
  | succ m ih =>
    rw [Fin.foldl_succ_last]
    have := ih (fun x i => f x i.castSucc) (fun i a h => hs i.castSucc a h)
    exact hs (Fin.last m) _ this

/-! ## C21 -/

theorem expectedResidual_fin [F.Exact] (J : Matrix (Fin n) (Fin n) ℝ) (x : Fin n → ℝ) :
    ∃ e : ℝ, expectedResidual (cm J : Mat (Fl F) n n) (cv x) = fin e ∧ 0 ≤ e ∧
      (∀ i, F.eps * ∑ j, |J i j * x j| ≤ e) ∧ (e = 0 ∨ ∃ i, e = F.eps * ∑ j, |J i j * x j|) := by
  have row : ∀ i : Fin n, (loopSum n (fun j => Scalar.abs ((cm J : Mat (Fl F) n n) i j * (cv x : Vec (Fl F) n) j)) * eps :
      Fl F) = fin (F.eps * ∑ j, |J i j * x j|) := by
    intro i
    simp only [fl, loopSum_fin]
    rw [mul_comm]
  unfold expectedResidual
  have key := foldl_inv (P := fun m (a : Fl F) => ∃ e : ℝ, a = fin e ∧ 0 ≤ e ∧
      (∀ i : Fin n, i.1 < m → F.eps * ∑ j, |J i j * x j| ≤ e) ∧ (e = 0 ∨ ∃ i, e = F.eps * ∑ j, |J i j * x j|))
    (fun er i => if gt (loopSum n (fun j => Scalar.abs ((cm J : Mat (Fl F) n n) i j * (cv x : Vec (Fl F) n) j)) * eps) er then
      loopSum n (fun j => Scalar.abs ((cm J : Mat (Fl F) n n) i j * (cv x : Vec (Fl F) n) j)) * eps else er) 0
    ⟨0, ofNat_zero, le_rfl, fun i h => absurd h (Nat.not_lt_zero _), Or.inl rfl⟩ ?_
  · obtain ⟨e, h1, h2, h3, h4⟩ := key
    exact ⟨e, h1, h2, fun i => h3 i i.2, h4⟩
  · rintro i a ⟨e, rfl, h2, h3, h4⟩
    rw [row i]
    simp only [gt, lt_fin, decide_eq_true_eq]
    by_cases hlt : e < F.eps * ∑ j, |J i j * x j|
    · rw [if_pos hlt]
      refine ⟨_, rfl, h2.trans hlt.le, fun k hk => ?_, Or.inr ⟨i, rfl⟩⟩
      rcases Nat.lt_succ_iff_lt_or_eq.mp hk with h | h
      · exact (h3 k h).trans hlt.le
      · rw [Fin.ext h]
    · rw [if_neg hlt]
      refine ⟨e, rfl, h2, fun k hk => ?_, h4⟩
      rcases Nat.lt_succ_iff_lt_or_eq.mp hk with h | h
      · exact h3 k h
      · rw [Fin.ext h]; exact not_lt.mp hlt

/-- C21 spelled out in exact arithmetic: if no step left the domain, then at a returned real vector `x` every component
of the residual is at most `eps Σ_j |J(k,j) x_j|` for some row `k`. -/
theorem C21_exact [F.Exact] (solve : Mat (Fl F) (n + 1) (n + 1) → Vec (Fl F) (n + 1) → Option (Vec (Fl F) (n + 1)))
    (f : Vec (Fl F) (n + 1) → Vec (Fl F) (n + 1) × Mat (Fl F) (n + 1) (n + 1)) (b : Bounds (Fl F) (n + 1))
    (guess : Vec (Fl F) (n + 1)) (maxIter : ℤ) (out : NewtonOut (Fl F) (n + 1))
    (h : newtonN solve f b guess maxIter = some out) (h0 : out.left = 0) (x v : Fin (n + 1) → ℝ)
    (J : Matrix (Fin (n + 1)) (Fin (n + 1)) ℝ) (hx : out.x = cv x) (hf : f (cv x) = (cv v, cm J)) :
    ∀ i, ∃ k, |v i| ≤ F.eps * ∑ j, |J k j * x j| := by
  have he : (0 : ℝ) < F.eps := Fmt.Exact.eps_pos
  intro i
  rcases C21_expected solve f b guess maxIter out h h0 with hn | hle
  · rw [hx] at hn
    exact absurd (congrFun hn 0) (by simp [Vec.nans, cv])
  · obtain ⟨e, he1, he2, he3, he4⟩ := expectedResidual_fin (F := F) J x
    obtain ⟨m, hm1, hm2, -⟩ := C05_max_norm_finite_partial (F := F) v
    rw [hx, hf, he1, hm1, le_fin, decide_eq_true_eq] at hle
    have hi := (hm2 i).trans hle
    rcases he4 with h4 | ⟨k, hk⟩
    · refine ⟨i, ?_⟩
      rw [h4] at hi
      exact hi.trans (mul_nonneg he.le (Finset.sum_nonneg fun j _ => abs_nonneg _))
    · exact ⟨k, hk ▸ hi⟩

/-! ## C23 -/

/-- `x` lies in the box with lower corner `lo` and upper corner `hi`. -/
def Inside (lo hi x : Fin n → ℝ) : Prop := ∀ i, lo i ≤ x i ∧ x i ≤ hi i

theorem contains_cv (lo hi x : Fin n → ℝ) (g : Pcg) :
    (Bounds.ofReal (F := F) lo hi g).contains (cv x) = true ↔ Inside lo hi x := by
  rw [C32_contains_iff_partial _ _ (fun i => rfl) (fun i => ⟨rfl, rfl⟩)]
  simp [Bounds.ofReal, cv, Inside]

theorem Inside.segment {lo hi x w : Fin n → ℝ} (h0 : Inside lo hi x) {l : ℝ} (h1 : Inside lo hi (x + l • w)) {m : ℝ}
    (hm0 : 0 ≤ m) (hm : m ≤ l) : Inside lo hi (x + m • w) := by
  intro i
  have a := h0 i
  have b := h1 i
  simp only [Pi.add_apply, Pi.smul_apply, smul_eq_mul] at b ⊢
  rcases le_total 0 (w i) with hw | hw
  · constructor <;> nlinarith [mul_le_mul_of_nonneg_right hm hw, mul_nonneg hm0 hw]
  · constructor <;> nlinarith [mul_le_mul_of_nonpos_right hm hw, mul_nonneg hm0 (neg_nonneg.mpr hw)]

theorem lambdaMax_spec [F.Exact] (lo hi x w : Fin n → ℝ) (g : Pcg) (hx : Inside lo hi x) :
    ∃ l : ℝ, NewtonN.lambdaMax (Bounds.ofReal (F := F) lo hi g) (cv x) (cv w) (cv (x + w)) = fin l ∧ 0 ≤ l ∧ l ≤ 1 ∧
      Inside lo hi (x + l • w) := by
  unfold NewtonN.lambdaMax
  dsimp only
  have key := foldl_inv (P := fun m (a : Fl F) => ∃ l : ℝ, a = fin l ∧ 0 ≤ l ∧ l ≤ 1 ∧
      ∀ i : Fin n, i.1 < m → lo i ≤ x i + l * w i ∧ x i + l * w i ≤ hi i)
    (fun l i =>
      if gt ((cv (x + w) : Vec (Fl F) n) i) ((Bounds.ofReal (F := F) lo hi g).box i).2 then
        Scalar.min ((((Bounds.ofReal (F := F) lo hi g).box i).2 - (cv x : Vec (Fl F) n) i) / (cv w : Vec (Fl F) n) i)
          (if lt ((cv (x + w) : Vec (Fl F) n) i) ((Bounds.ofReal (F := F) lo hi g).box i).1 then
            Scalar.min ((((Bounds.ofReal (F := F) lo hi g).box i).1 - (cv x : Vec (Fl F) n) i) / (cv w : Vec (Fl F) n) i) l
          else l)
      else if lt ((cv (x + w) : Vec (Fl F) n) i) ((Bounds.ofReal (F := F) lo hi g).box i).1 then
            Scalar.min ((((Bounds.ofReal (F := F) lo hi g).box i).1 - (cv x : Vec (Fl F) n) i) / (cv w : Vec (Fl F) n) i) l
          else l) 1
    ⟨1, ofNat_one, zero_le_one, le_rfl, fun i h => absurd h (Nat.not_lt_zero _)⟩ ?_
  · obtain ⟨l, h1, h2, h3, h4⟩ := key
    exact ⟨l, h1, h2, h3, fun i => h4 i i.2⟩
  · rintro i a ⟨l, rfl, h2, h3, h4⟩
    have hxi := hx i
    have hb : (Bounds.ofReal (F := F) lo hi g).box i = (fin (lo i), fin (hi i)) := rfl
    -- lowering `l` keeps the earlier coordinates inside
    have lower : ∀ m, 0 ≤ m → m ≤ l → ∀ k : Fin n, k.1 < i.1 → lo k ≤ x k + m * w k ∧ x k + m * w k ≤ hi k := by
      intro m hm0 hml k hk
      have b := h4 k hk
      have a := hx k
      rcases le_total 0 (w k) with hw | hw
      · constructor <;> nlinarith [mul_le_mul_of_nonneg_right hml hw, mul_nonneg hm0 hw]
      · constructor <;> nlinarith [mul_le_mul_of_nonpos_right hml hw, mul_nonneg hm0 (neg_nonneg.mpr hw)]
    have combine : ∀ m, 0 ≤ m → m ≤ l → lo i ≤ x i + m * w i → x i + m * w i ≤ hi i →
        ∀ k : Fin n, k.1 < i.1 + 1 → lo k ≤ x k + m * w k ∧ x k + m * w k ≤ hi k := by
      intro m hm0 hml hl hh k hk
      rcases Nat.lt_succ_iff_lt_or_eq.mp hk with h | h
      · exact lower m hm0 hml k h
      · rw [Fin.ext h]; exact ⟨hl, hh⟩
    have tgt : ∀ c m : ℝ, w i ≠ 0 → m ≤ (c - x i) / w i → 0 ≤ m →
        (0 ≤ w i → x i + m * w i ≤ c) ∧ (w i ≤ 0 → c ≤ x i + m * w i) := by
      intro c m hw hm hm0
      constructor
      · intro h
        have h := lt_of_le_of_ne h hw.symm
        rw [le_div_iff₀ h] at hm; linarith
      · intro h
        have h := lt_of_le_of_ne h hw
        rw [le_div_iff_of_neg h] at hm; linarith
    rw [hb]
    simp only [cv_apply, Pi.add_apply, gt, lt_fin, decide_eq_true_eq, sub_fin]
    by_cases hlo : x i + w i < lo i
    · have hw : w i < 0 := by linarith
      have hnhi : ¬ hi i < x i + w i := by linarith
      rw [if_neg hnhi, if_pos hlo, div_fin _ hw.ne, min_fin]
      have hq : 0 ≤ (lo i - x i) / w i := div_nonneg_of_nonpos (by linarith) hw.le
      have hm0 : 0 ≤ min ((lo i - x i) / w i) l := le_min hq h2
      refine ⟨_, rfl, hm0, (min_le_right _ _).trans h3, combine _ hm0 (min_le_right _ _) ?_ ?_⟩
      · exact (tgt _ _ hw.ne (min_le_left _ _) hm0).2 hw.le
      · nlinarith
    · by_cases hhi : hi i < x i + w i
      · have hw : 0 < w i := by linarith
        rw [if_pos hhi, if_neg hlo, div_fin _ hw.ne', min_fin]
        have hq : 0 ≤ (hi i - x i) / w i := div_nonneg (by linarith) hw.le
        have hm0 : 0 ≤ min ((hi i - x i) / w i) l := le_min hq h2
        refine ⟨_, rfl, hm0, (min_le_right _ _).trans h3, combine _ hm0 (min_le_right _ _) ?_ ?_⟩
        · nlinarith
        · exact (tgt _ _ hw.ne' (min_le_left _ _) hm0).1 hw.le
      · rw [if_neg hhi, if_neg hlo]
        push Not at hlo hhi
        refine ⟨l, rfl, h2, h3, combine l h2 le_rfl ?_ ?_⟩
        · rcases le_total 0 (w i) with h | h <;> nlinarith
        · rcases le_total 0 (w i) with h | h <;> nlinarith

/-- The hypotheses on the function: at every real point of the box it is finite and the linear solver really solves
`J dw = -v`. -/
def Solvable (solve : Mat (Fl F) n n → Vec (Fl F) n → Option (Vec (Fl F) n))
    (f : Vec (Fl F) n → Vec (Fl F) n × Mat (Fl F) n n) (lo hi : Fin n → ℝ) : Prop :=
  ∀ x, Inside lo hi x → ∃ v J w, f (cv x) = (cv v, cm J) ∧ solve (cm J) (cv (-v)) = some (cv w) ∧ J *ᵥ w = -v

/-- The invariant of C23. -/
def NewtonN.Inv (f : Vec (Fl F) n → Vec (Fl F) n × Mat (Fl F) n n) (lo hi : Fin n → ℝ) (s : NewtonN.State (Fl F) n) :
    Prop :=
  ∃ x, Inside lo hi x ∧ s.guess = cv x ∧ s.v = (f (cv x)).1 ∧ s.J = (f (cv x)).2 ∧ (∃ γ : ℝ, s.g = fin γ) ∧
    ∃ g, s.bound = Bounds.ofReal lo hi g

theorem NewtonN.advance_inv [F.Exact] {solve : Mat (Fl F) n n → Vec (Fl F) n → Option (Vec (Fl F) n)}
    {f : Vec (Fl F) n → Vec (Fl F) n × Mat (Fl F) n n} {lo hi : Fin n → ℝ} (hlh : ∀ i, lo i ≤ hi i)
    (hf : Solvable solve f lo hi) {s : NewtonN.State (Fl F) n} {x v w : Fin n → ℝ} {J : Matrix (Fin n) (Fin n) ℝ}
    {γ l : ℝ} {g : Pcg} (hx : Inside lo hi x) (h1 : s.guess = cv x) (h2 : s.v = cv v) (h3 : s.J = cm J)
    (h4 : s.g = fin γ) (h5 : s.bound = Bounds.ofReal lo hi g) (hJ : J *ᵥ w = -v) (hl0 : 0 ≤ l)
    (hl : Inside lo hi (x + l • w)) :
    ∃ s', NewtonN.advance f s (cv (l • w)) = some s' ∧ NewtonN.Inv f lo hi s' := by
  have mk : ∀ y, Inside lo hi y → ∃ γ : ℝ, squaredNorm (f (cv y)).1 / 2 = fin γ := by
    intro y hy
    obtain ⟨v, J, w, e, -, -⟩ := hf y hy
    refine ⟨(v ⬝ᵥ v) / 2, ?_⟩
    rw [e, cv_squaredNorm, ofNat_def, div_fin _ (by norm_num)]; norm_num
  obtain ⟨γ1, hγ1⟩ := mk _ hl
  unfold NewtonN.advance
  dsimp only
  rw [h1, h2, h3, h4, h5, cv_add, hγ1]
  simp only [gt, lt_fin, decide_eq_true_eq]
  by_cases hg : γ < γ1
  · rw [if_pos hg]
    have e1 : dot (Mat.mulVec (cm J) (cv (l • w))) (cv v) = (fin (-(l * (v ⬝ᵥ v))) : Fl F) := by
      rw [cm_mulVec, cv_dot, mulVec_smul, hJ, smul_dotProduct, neg_dotProduct, smul_eq_mul, mul_neg]
    have hvv : 0 ≤ l * (v ⬝ᵥ v) := mul_nonneg hl0 (dotProduct_self_nonneg' v)
    have hden : 0 < 2 * (γ1 - γ - -(l * (v ⬝ᵥ v))) := by linarith
    have e2 : (-(fin (-(l * (v ⬝ᵥ v)))) / (2 * (fin γ1 - fin γ - fin (-(l * (v ⬝ᵥ v))))) : Fl F) =
        fin (l * (v ⬝ᵥ v) / (2 * (γ1 - γ - -(l * (v ⬝ᵥ v))))) := by
      rw [ofNat_def, sub_fin, sub_fin, mul_fin, Fl.neg_fin, neg_neg]
      push_cast
      rw [div_fin _ hden.ne']
    rw [e1, e2, cv_smul, cv_add]
    set m := l * (v ⬝ᵥ v) / (2 * (γ1 - γ - -(l * (v ⬝ᵥ v)))) with hm
    have hm0 : 0 ≤ m := div_nonneg hvv hden.le
    have hm1 : m ≤ 1 := by rw [hm, div_le_one hden]; linarith
    have hin : Inside lo hi (x + m • l • w) := by
      rw [smul_smul]
      exact hx.segment hl (mul_nonneg hm0 hl0) (by nlinarith)
    obtain ⟨γ2, hγ2⟩ := mk _ hin
    rw [hγ2]
    simp only [lt_fin, decide_eq_true_eq]
    by_cases hg2 : γ < γ2
    · rw [if_pos hg2]
      obtain ⟨c1, c2, c3⟩ := C34_random_inside (F := F) lo hi hlh g
      choose y hy using c2
      have hyc : (Bounds.ofReal (F := F) lo hi g).random.1 = cv y := funext fun i => (hy i).1
      rw [if_pos c1]
      refine ⟨_, rfl, y, ?_, hyc, by simp only [hyc], by simp only [hyc], ⟨(v ⬝ᵥ v) / 2, ?_⟩, ⟨_, c3⟩⟩
      · rw [hyc] at c1
        exact (contains_cv lo hi y g).mp c1
      · rw [cv_squaredNorm, ofNat_def, div_fin _ (by norm_num)]; norm_num
    · rw [if_neg hg2]
      exact ⟨_, rfl, _, hin, rfl, rfl, rfl, ⟨γ2, rfl⟩, ⟨g, rfl⟩⟩
  · rw [if_neg hg]
    exact ⟨_, rfl, _, hl, rfl, rfl, rfl, ⟨γ1, rfl⟩, ⟨g, rfl⟩⟩

theorem NewtonN.body_inv [F.Exact] {solve : Mat (Fl F) n n → Vec (Fl F) n → Option (Vec (Fl F) n)}
    {f : Vec (Fl F) n → Vec (Fl F) n × Mat (Fl F) n n} {lo hi : Fin n → ℝ} (hlh : ∀ i, lo i ≤ hi i)
    (hf : Solvable solve f lo hi) {s : NewtonN.State (Fl F) n} (hs : NewtonN.Inv f lo hi s) :
    ∃ r, NewtonN.body solve f s = some r ∧ ∀ s', r = .inl s' → NewtonN.Inv f lo hi s' := by
  obtain ⟨x, hx, h1, h2, h3, ⟨γ, h4⟩, g, h5⟩ := hs
  obtain ⟨v, J, w, e, hsol, hJ⟩ := hf x hx
  rw [e] at h2 h3
  dsimp only at h2 h3
  unfold NewtonN.body
  dsimp only
  rw [h1, h2, h3, h5, cv_neg, hsol]
  dsimp only
  rw [cv_add]
  by_cases hc : (Bounds.ofReal (F := F) lo hi g).contains (cv (x + w)) = true
  · rw [if_pos hc]
    rw [contains_cv] at hc
    obtain ⟨s', e1, e2⟩ := NewtonN.advance_inv (s := ⟨cv x, cv v, cm J, s.g, s.expected, s.left, Bounds.ofReal lo hi g,
      s.bodies + 1, s.restarts⟩) (l := 1) hlh hf hx rfl rfl rfl h4 rfl hJ zero_le_one (by rwa [one_smul])
    rw [one_smul] at e1
    rw [e1]
    refine ⟨_, rfl, ?_⟩
    rintro s'' ⟨⟩
    exact e2
  · rw [if_neg hc]
    obtain ⟨l, hl1, hl2, hl3, hl4⟩ := lambdaMax_spec (F := F) lo hi x w g hx
    rw [hl1]
    split_ifs with q1 q2 q3 q4
    · exact ⟨_, rfl, fun s' h => by cases h⟩
    · refine ⟨_, rfl, ?_⟩
      rintro s' ⟨⟩
      obtain ⟨c1, c2, c3⟩ := C34_random_inside (F := F) lo hi hlh g
      choose y hy using c2
      have hyc : (Bounds.ofReal (F := F) lo hi g).random.1 = cv y := funext fun i => (hy i).1
      rw [hyc] at q2
      have hy' := (contains_cv lo hi y g).mp q2
      obtain ⟨v', J', w', e', -, -⟩ := hf y hy'
      refine ⟨y, hy', hyc, by simp only [hyc], by simp only [hyc], ⟨(v' ⬝ᵥ v') / 2, ?_⟩, ⟨_, c3⟩⟩
      simp only [hyc]
      rw [e', cv_squaredNorm, ofNat_def, div_fin _ (by norm_num)]; norm_num
    · exact absurd (C34_random_inside (F := F) lo hi hlh g).1 q2
    · obtain ⟨s', e1, e2⟩ := NewtonN.advance_inv (s := ⟨cv x, cv v, cm J, s.g, s.expected, s.left,
        Bounds.ofReal lo hi g, s.bodies + 1, s.restarts⟩) (l := l) hlh hf hx rfl rfl rfl h4 rfl hJ hl2 hl4
      rw [cv_smul, e1]
      refine ⟨_, rfl, ?_⟩
      rintro s'' ⟨⟩
      exact e2
    · rw [ofNat_one] at q4
      exact absurd (by simpa using hl3) q4

/-- C23 (exact arithmetic, every dimension, every linear solver that solves the systems it is given): started inside
the bounds, `newton` fails no assertion, reads no indeterminate value and returns a vector inside the bounds or the NaN
vector. Missing from the full claim: the library's own `solve` does not meet the hypothesis for every invertible
Jacobian, see `C23_window_false` and `C23_identity_false`. -/
theorem C23_inside_partial [F.Exact]
    (solve : Mat (Fl F) (n + 1) (n + 1) → Vec (Fl F) (n + 1) → Option (Vec (Fl F) (n + 1)))
    (f : Vec (Fl F) (n + 1) → Vec (Fl F) (n + 1) × Mat (Fl F) (n + 1) (n + 1)) (lo hi : Fin (n + 1) → ℝ)
    (hlh : ∀ i, lo i ≤ hi i) (hf : Solvable solve f lo hi) (g : Pcg) (guess : Fin (n + 1) → ℝ)
    (hguess : Inside lo hi guess) (maxIter : ℤ) :
    ∃ out, newtonN solve f (Bounds.ofReal lo hi g) (cv guess) maxIter = some out ∧
      (out.x = Vec.nans ∨ ∃ x, out.x = cv x ∧ Inside lo hi x) := by
  have fin' : ∀ s, NewtonN.Inv f lo hi s →
      (NewtonN.finish s).x = Vec.nans ∨ ∃ x, (NewtonN.finish s).x = cv x ∧ Inside lo hi x := by
    rintro s ⟨x, hx, h1, -⟩
    unfold NewtonN.finish
    split_ifs
    · exact Or.inr ⟨x, h1, hx⟩
    · exact Or.inl rfl
  have key : ∀ k s, NewtonN.Inv f lo hi s → ∃ out, NewtonN.loop solve f k s = some out ∧
      (out.x = Vec.nans ∨ ∃ x, out.x = cv x ∧ Inside lo hi x) := by
    intro k
    induction k with
    | zero =>
      intro s hs
      obtain ⟨r, hr, hr'⟩ := NewtonN.body_inv hlh hf hs
      unfold NewtonN.loop
      rw [hr]
      rcases r with s' | s'
      · dsimp only
        rw [ite_self]
        exact ⟨_, rfl, fin' s' (hr' s' rfl)⟩
      · exact ⟨_, rfl, Or.inl rfl⟩
    | succ k ih =>
      intro s hs
      obtain ⟨r, hr, hr'⟩ := NewtonN.body_inv hlh hf hs
      unfold NewtonN.loop
      rw [hr]
      rcases r with s' | s'
      · dsimp only
        split_ifs
        · exact ih s' (hr' s' rfl)
        · exact ⟨_, rfl, fin' s' (hr' s' rfl)⟩
      · exact ⟨_, rfl, Or.inl rfl⟩
  refine key _ _ ⟨guess, hguess, rfl, rfl, rfl, ?_, g, rfl⟩
  obtain ⟨v, J, w, e, -, -⟩ := hf guess hguess
  refine ⟨(v ⬝ᵥ v) / 2, ?_⟩
  simp only [NewtonN.start]
  rw [e, cv_squaredNorm, ofNat_def, div_fin _ (by norm_num)]; norm_num

/-- C23 for the two-dimensional `newton` of the library: the Jacobian must be invertible inside the box and its lower
left entry must be zero or larger than `eps²`. -/
theorem C23_newton2_partial [F.Exact] (f : Vec (Fl F) 2 → Vec (Fl F) 2 × Mat (Fl F) 2 2) (φ : (Fin 2 → ℝ) → Fin 2 → ℝ)
    (J : (Fin 2 → ℝ) → Matrix (Fin 2) (Fin 2) ℝ) (lo hi : Fin 2 → ℝ) (hlh : ∀ i, lo i ≤ hi i)
    (hf : ∀ x, Inside lo hi x → f (cv x) = (cv (φ x), cm (J x)))
    (hJ : ∀ x, Inside lo hi x → (J x).det ≠ 0 ∧ (J x 1 0 = 0 ∨ F.eps * F.eps < |J x 1 0|)) (g : Pcg)
    (guess : Fin 2 → ℝ) (hguess : Inside lo hi guess) (maxIter : ℤ) :
    ∃ out, newton2 f (Bounds.ofReal lo hi g) (cv guess) maxIter = some out ∧
      (out.x = Vec.nans ∨ ∃ x, out.x = cv x ∧ Inside lo hi x) := by
  refine C23_inside_partial _ f lo hi hlh (fun x hx => ?_) g guess hguess maxIter
  obtain ⟨w, h1, h2⟩ := C09_solve2_partial (F := F) (J x) (-φ x) (hJ x hx).1 (hJ x hx).2
  exact ⟨φ x, J x, w, hf x hx, by rw [h1], h2⟩

/-- C23_newton2_partial applies to the system `x² = 2, y = x` on the box `[1,2] × [1,2]`. -/
example (g : Pcg) : ∃ out, newton2 (R := Fl exact64)
      (fun p => (![p 0 * p 0 - fin 2, p 1 - p 0], ![![fin 2 * p 0, fin 0], ![fin (-1), fin 1]]))
      (Bounds.ofReal ![1, 1] ![2, 2] g) (cv ![1, 3 / 2]) 16 = some out ∧
    (out.x = Vec.nans ∨ ∃ x, out.x = cv x ∧ Inside ![1, 1] ![2, 2] x) := by
  refine C23_newton2_partial _ (fun x => ![x 0 * x 0 - 2, x 1 - x 0]) (fun x => !![2 * x 0, 0; -1, 1]) _ _ ?_ ?_ ?_ g _
    ?_ _
  · intro i; fin_cases i <;> norm_num
  · intro x _
    refine Prod.ext ?_ ?_
    · funext i; fin_cases i <;> simp [cv]
    · funext i j; fin_cases i <;> fin_cases j <;> simp [cm, cv]
  · intro x hx
    have := (hx 0).1
    simp only [cons_val_zero] at this
    refine ⟨by rw [det_fin_two]; simp; linarith, Or.inr ?_⟩
    have he0 : (0 : ℝ) < exact64.eps := Fmt.Exact.eps_pos
    have he1 : exact64.eps < 1 := Fmt.Exact.eps_lt
    simp; nlinarith
  · intro i; fin_cases i <;> norm_num

/-- C23 for the three-dimensional `newton` of the library: the Jacobian must be invertible inside the box and meet the
conditions under which `solve` works (`Solve3OK`). -/
theorem C23_newton3_partial [F.Exact] (f : Vec (Fl F) 3 → Vec (Fl F) 3 × Mat (Fl F) 3 3) (φ : (Fin 3 → ℝ) → Fin 3 → ℝ)
    (J : (Fin 3 → ℝ) → Matrix (Fin 3) (Fin 3) ℝ) (lo hi : Fin 3 → ℝ) (hlh : ∀ i, lo i ≤ hi i)
    (hf : ∀ x, Inside lo hi x → f (cv x) = (cv (φ x), cm (J x)))
    (hJ : ∀ x, Inside lo hi x → (J x).det ≠ 0 ∧ Solve3OK (J x)) (g : Pcg)
    (guess : Fin 3 → ℝ) (hguess : Inside lo hi guess) (maxIter : ℤ) :
    ∃ out, newton3 f (Bounds.ofReal lo hi g) (cv guess) maxIter = some out ∧
      (out.x = Vec.nans ∨ ∃ x, out.x = cv x ∧ Inside lo hi x) := by
  refine C23_inside_partial _ f lo hi hlh (fun x hx => ?_) g guess hguess maxIter
  obtain ⟨w, h1, h2⟩ := solve3_correct (F := F) (J x) (-φ x) (hJ x hx).1 (hJ x hx).2
  exact ⟨φ x, J x, w, hf x hx, h1, h2⟩

/-! ## Witnesses -/

theorem solve2_diag [F.Exact] {a d : ℝ} (ha : a ≠ 0) (hd : d ≠ 0) (p q : ℝ) :
    Mat.solve2 (cm !![a, 0; 0, d] : Mat (Fl F) 2 2) (cv ![p, q]) = cv ![p / a, q / d] := by
  have he : 0 ≤ F.eps * F.eps := mul_self_nonneg _
  unfold Mat.solve2
  simp only [cm_apply, cv_apply, Matrix.of_apply, Matrix.cons_val_zero, Matrix.cons_val_one, Matrix.cons_val_fin_one,
    abs_fin, abs_zero, eps_def, mul_fin, le_fin, he, decide_true, if_true, div_fin _ hd, zero_mul, sub_fin, sub_zero,
    div_fin _ ha, cv_vec2]

theorem random_rational [F.Exact] (lo hi : Fin n → ℚ) (g : Pcg) (i : Fin n) :
    ∃ q : ℚ, (Bounds.ofReal (F := F) (fun i => (lo i : ℝ)) (fun i => (hi i : ℝ)) g).random.1 i = fin (q : ℝ) := by
  rw [random_eq]
  have e : (Pcg.real01 (R := Fl F) (Pcg.advance^[i.1] g)).1 =
      fin (((Pcg.advance^[i.1] g).next.1.toNat : ℝ) / 2 ^ 32) := ldexp32_def _
  refine ⟨((Pcg.advance^[i.1] g).next.1.toNat : ℚ) / 2 ^ 32 * (hi i - lo i) + lo i, ?_⟩
  dsimp only
  rw [e, sub_fin, mul_fin, add_fin]
  push_cast
  rfl

/-- Where `bounceFun` sends a rational abscissa. -/
noncomputable def bounceTarget (x : ℝ) : ℝ := if x ≤ 0 then √2 / 2 else -(√2 / 2)

open Classical in
/-- A function on which every Newton step and every backtracking step raises the residual. -/
noncomputable def bounceFun (p : Vec (Fl F) 2) : Vec (Fl F) 2 × Mat (Fl F) 2 2 :=
  match p 0 with
  | Ext.fin x =>
    if Irrational x then (cv ![20, 0], cm 1) else (cv ![10, 0], cm !![-10 / (bounceTarget x - x), 0; 0, 1])
  | _ => (cv ![10, 0], cm 1)

open Classical in
theorem bounceFun_irr {x : ℝ} (h : Irrational x) (y : ℝ) :
    bounceFun (cv ![x, y] : Vec (Fl F) 2) = (cv ![20, 0], cm 1) := by
  show (if Irrational x then _ else _) = _
  rw [if_pos h]

open Classical in
theorem bounceFun_rat (q : ℚ) (y : ℝ) :
    bounceFun (cv ![(q : ℝ), y] : Vec (Fl F) 2) =
      (cv ![10, 0], cm !![-10 / (bounceTarget q - q), 0; 0, 1]) := by
  show (if Irrational (q : ℝ) then _ else _) = _
  rw [if_neg (Rat.not_irrational q)]
  rfl

theorem sqrt2_half : (0 : ℝ) < √2 / 2 ∧ √2 / 2 < 1 ∧ Irrational (√2 / 2) := by
  refine ⟨by positivity, ?_, ?_⟩
  · have : √2 < 2 := by rw [Real.sqrt_lt' (by norm_num)]; norm_num
    linarith
  · have := irrational_sqrt_two.div_natCast (m := 2) (by norm_num)
    exact_mod_cast this

theorem bounceTarget_spec (q : ℚ) : Irrational (bounceTarget q) ∧ |bounceTarget q| < 1 ∧
    |(q : ℝ)| < |bounceTarget q - q| := by
  obtain ⟨h0, h1, h2⟩ := sqrt2_half
  unfold bounceTarget
  split_ifs with h
  · refine ⟨h2, by rw [abs_of_pos h0]; exact h1, ?_⟩
    rw [abs_of_nonpos h, abs_of_nonneg (by linarith)]; linarith
  · push Not at h
    refine ⟨h2.neg, by rw [abs_neg, abs_of_pos h0]; exact h1, ?_⟩
    rw [abs_of_pos h, abs_of_neg (by linarith)]; linarith

/-- The invariant of the witness run. -/
def Bouncing (s : NewtonN.State (Fl F) 2) : Prop :=
  ∃ (q : ℚ) (y : ℝ) (g : Pcg), |(q : ℝ)| ≤ 1 ∧ |y| ≤ 1 ∧ s.guess = cv ![(q : ℝ), y] ∧
    s.v = cv ![10, 0] ∧ s.J = cm !![-10 / (bounceTarget q - q), 0; 0, 1] ∧ s.g = fin 50 ∧
    s.bound = Bounds.ofReal (fun _ => -1) (fun _ => 1) g ∧ s.left = 0 ∧ s.restarts = s.bodies

theorem Bouncing.body [F.Exact] {s : NewtonN.State (Fl F) 2} (h : Bouncing s) :
    ∃ s', NewtonN.body (fun M v => some (Mat.solve2 M v)) bounceFun s = some (.inl s') ∧ Bouncing s' ∧
      s'.bodies = s.bodies + 1 ∧ gt (maxNorm s'.v) s'.expected = true := by
  obtain ⟨q, y, g, hq, hy, h1, h2, h3, h4, h5, h6, h7⟩ := h
  obtain ⟨ht1, ht2, ht3⟩ := bounceTarget_spec q
  have hne : bounceTarget q - q ≠ 0 := fun h => by rw [h, abs_zero] at ht3; exact absurd ht3 (not_lt.mpr (abs_nonneg _))
  have hsol : Mat.solve2 (cm !![-10 / (bounceTarget q - q), 0; 0, 1] : Mat (Fl F) 2 2) (-(cv ![10, 0])) =
      cv ![bounceTarget q - q, 0] := by
    rw [cv_neg, show (-![(10 : ℝ), 0]) = ![-10, 0] by simp, solve2_diag (div_ne_zero (by norm_num) hne) one_ne_zero]
    congr 2
    · field_simp
    · norm_num
  have hadd : (cv ![(q : ℝ), y] : Vec (Fl F) 2) + cv ![bounceTarget q - q, 0] = cv ![bounceTarget q, y] := by
    rw [cv_add]; congr 1; ext i; fin_cases i <;> simp
  have hin : (Bounds.ofReal (F := F) (fun _ : Fin 2 => -1) (fun _ => 1) g).contains (cv ![bounceTarget q, y]) = true := by
    rw [contains_cv]
    intro i
    have := abs_le.mp ht2.le
    have := abs_le.mp hy
    fin_cases i
    · exact abs_le.mp ht2.le
    · exact abs_le.mp hy
  have e200 : squaredNorm (cv ![20, 0] : Vec (Fl F) 2) / 2 = fin 200 := by
    rw [cv_squaredNorm, ofNat_def, div_fin _ (by norm_num)]; norm_num [dotProduct, Fin.sum_univ_two]
  have e50 : squaredNorm (cv ![10, 0] : Vec (Fl F) 2) / 2 = fin 50 := by
    rw [cv_squaredNorm, ofNat_def, div_fin _ (by norm_num)]; norm_num [dotProduct, Fin.sum_univ_two]
  have egp : dot (Mat.mulVec (cm !![-10 / (bounceTarget q - q), 0; 0, 1]) (cv ![bounceTarget q - q, 0]))
      (cv ![10, 0]) = (fin (-100) : Fl F) := by
    rw [cm_mulVec, cv_dot, fin_inj]
    have : -10 / (bounceTarget q - q) * (bounceTarget q - q) = -10 := by field_simp
    simp [dotProduct, Fin.sum_univ_two, Matrix.mulVec, this]; norm_num
  have elam : (-(fin (-100)) / (2 * (fin 200 - fin 50 - fin (-100))) : Fl F) = fin (1 / 5) := by
    rw [ofNat_def, sub_fin, sub_fin, mul_fin, Fl.neg_fin, div_fin _ (by norm_num)]; norm_num
  have hx2 : (cv ![(q : ℝ), y] : Vec (Fl F) 2) + (fin (1 / 5)) •. cv ![bounceTarget q - q, 0] =
      cv ![bounceTarget q / 5 + (4 / 5 * q : ℚ), y] := by
    rw [cv_smul, cv_add]; congr 1; ext i; fin_cases i
    · simp; ring
    · simp
  have hirr : Irrational (bounceTarget q / 5 + ((4 / 5 * q : ℚ) : ℝ)) := by
    have := (ht1.div_natCast (m := 5) (by norm_num)).add_ratCast (4 / 5 * q)
    exact_mod_cast this
  obtain ⟨c1, c2, c3⟩ := C34_random_inside (F := F) (fun _ : Fin 2 => (-1 : ℝ)) (fun _ => 1) (by norm_num) g
  obtain ⟨q', hq'⟩ : ∃ q' : ℚ, (Bounds.ofReal (F := F) (fun _ : Fin 2 => (-1 : ℝ)) (fun _ => 1) g).random.1 0 =
      fin (q' : ℝ) := by
    have := random_rational (F := F) (fun _ : Fin 2 => -1) (fun _ => 1) g 0
    simpa using this
  obtain ⟨y', hy', hy1, hy2⟩ := c2 1
  have hr : (Bounds.ofReal (F := F) (fun _ : Fin 2 => (-1 : ℝ)) (fun _ => 1) g).random.1 = cv ![(q' : ℝ), y'] := by
    funext i; fin_cases i
    · exact hq'
    · exact hy'
  have hins := c1
  rw [hr, contains_cv] at hins
  obtain ⟨tt1, tt2, tt3⟩ := bounceTarget_spec q'
  have hq1 : |(q' : ℝ)| ≤ 1 := abs_le.mpr (hins 0)
  have hy1 : |y'| ≤ 1 := abs_le.mpr (hins 1)
  have he0 : (0 : ℝ) < F.eps := Fmt.Exact.eps_pos
  have he1 : F.eps < 1 := Fmt.Exact.eps_lt
  refine ⟨⟨cv ![(q' : ℝ), y'], cv ![10, 0], cm !![-10 / (bounceTarget q' - q'), 0; 0, 1], fin 50,
    expectedResidual (cm !![-10 / (bounceTarget q' - q'), 0; 0, 1]) (cv ![(q' : ℝ), y']), s.left,
    (Bounds.ofReal (F := F) (fun _ : Fin 2 => (-1 : ℝ)) (fun _ => 1) g).random.2, s.bodies + 1, s.restarts + 1⟩,
    ?_, ⟨q', y', _, hq1, hy1, rfl, rfl, rfl, rfl, c3, h6, ?_⟩, rfl, ?_⟩
  rotate_left
  · show s.restarts + 1 = s.bodies + 1
    rw [h7]
  · dsimp only
    obtain ⟨e, hE, -, -, he4⟩ := expectedResidual_fin (F := F) !![-10 / (bounceTarget q' - q'), 0; 0, 1] ![(q' : ℝ), y']
    obtain ⟨m, hm1, hm2, -⟩ := C05_max_norm_finite_partial (F := F) ![(10 : ℝ), 0]
    rw [hE, hm1, gt, lt_fin, decide_eq_true_eq]
    have hm10 : 10 ≤ m := by simpa using hm2 0
    refine lt_of_lt_of_le ?_ hm10
    rcases he4 with rfl | ⟨i, hi⟩
    · norm_num
    · rw [hi]
      fin_cases i
      · simp only [Fin.sum_univ_two]
        simp
        rw [abs_div, abs_neg, abs_of_pos (show (0 : ℝ) < 10 by norm_num), div_mul_eq_mul_div]
        have hpos : 0 < |bounceTarget q' - q'| := lt_of_le_of_lt (abs_nonneg _) tt3
        rw [← mul_div_assoc, div_lt_iff₀ hpos]
        have := abs_nonneg (q' : ℝ)
        nlinarith
      · simp only [Fin.sum_univ_two]
        simp
        nlinarith [abs_nonneg y']
  · unfold NewtonN.body
    dsimp only
    rw [h1, h2, h3, h5, hsol, hadd, if_pos hin]
    unfold NewtonN.advance
    dsimp only
    rw [hadd, bounceFun_irr ht1]
    dsimp only
    rw [e200, h4, egp, elam, hx2, bounceFun_irr hirr]
    dsimp only
    rw [e200, if_pos (by norm_num [gt]), if_pos (by norm_num [gt]), if_pos c1, hr, bounceFun_rat, e50]
    rfl

/-- C22 fails as stated: random restarts after failed backtracking (newton.hpp:149-158) are not counted against the
limit. For `bounceFun` every body ends with one, so there are `max(1, max_iterations)` of them, for every generator
state. -/
theorem C22_restarts_false [F.Exact] (g : Pcg) (maxIter : ℤ) :
    ∃ out, newton2 (R := Fl F) bounceFun (Bounds.ofReal (fun _ => -1) (fun _ => 1) g) (cv ![0, 0]) maxIter = some out ∧
      (out.restarts : ℤ) = max 1 maxIter := by
  have key : ∀ k (s : NewtonN.State (Fl F) 2), Bouncing s →
      ∃ out, NewtonN.loop (fun M v => some (Mat.solve2 M v)) bounceFun k s = some out ∧ out.restarts = s.bodies + k + 1 := by
    intro k
    induction k with
    | zero =>
      intro s hs
      obtain ⟨s', e, hs', hb, hgt⟩ := hs.body
      unfold NewtonN.loop
      rw [e]
      dsimp only
      rw [ite_self]
      refine ⟨_, rfl, ?_⟩
      obtain ⟨_, _, _, _, _, _, _, _, _, _, _, h7⟩ := hs'
      unfold NewtonN.finish
      split_ifs <;> simp only [NewtonN.State.out] <;> omega
    | succ k ih =>
      intro s hs
      obtain ⟨s', e, hs', hb, hgt⟩ := hs.body
      unfold NewtonN.loop
      rw [e]
      dsimp only
      rw [if_pos hgt]
      obtain ⟨out, h1, h2⟩ := ih s' hs'
      exact ⟨out, h1, by omega⟩
  obtain ⟨out, h1, h2⟩ := key (maxIter - 1).toNat (NewtonN.start bounceFun (Bounds.ofReal (fun _ => -1) (fun _ => 1) g)
    (cv ![0, 0])) (by
      have h0 := bounceFun_rat (F := F) 0 0
      rw [Rat.cast_zero] at h0
      refine ⟨0, 0, g, by simp, by simp, by simp [NewtonN.start], ?_, ?_, ?_, rfl, rfl, rfl⟩
      · simp only [NewtonN.start, h0]
      · simp only [NewtonN.start, h0, Rat.cast_zero]
      · simp only [NewtonN.start, h0]
        rw [cv_squaredNorm, ofNat_def, div_fin _ (by norm_num)]; norm_num [dotProduct, Fin.sum_univ_two])
  refine ⟨out, h1, ?_⟩
  simp only [NewtonN.start] at h2
  omega

open Classical in
/-- The function of `C21_stale`: a steep part on the upper edge of the box and a flat part with residual 1 elsewhere. -/
noncomputable def staleFun (p : Vec (Fl F) 2) : Vec (Fl F) 2 × Mat (Fl F) 2 2 :=
  if p 1 = fin 1 then
    if p 0 = fin 0 then (cv ![-20 / F.eps, 0], cm !![40 / F.eps, 0; 0, 1])
    else (cv ![-20 / F.eps, 0], cm !![2 / F.eps, 0; 0, 1])
  else (cv ![1, 0], cm 0)

/-- The limit of C21: after a step that leaves the domain, the random restart is compared with the expected residual of
an earlier point (newton.hpp:113-130 skip its update). For `staleFun` the random vector is returned although its
residual is 1 and its own expected residual is 0, for every generator state and every `max_iterations ≥ 2`. -/
theorem C21_stale [F.Exact] (g : Pcg) (maxIter : ℤ) (hk : 2 ≤ maxIter) :
    ∃ out, newton2 (R := Fl F) staleFun (Bounds.ofReal (fun _ => -1) (fun _ => 1) g) (cv ![0, 1]) maxIter = some out ∧
      out.x = (Bounds.ofReal (F := F) (fun _ : Fin 2 => (-1 : ℝ)) (fun _ => 1) g).random.1 ∧
      maxNorm (staleFun out.x).1 = fin 1 ∧ expectedResidual (staleFun out.x).2 out.x = fin 0 := by
  have he0 : (0 : ℝ) < F.eps := Fmt.Exact.eps_pos
  have he1 : F.eps < 1 := Fmt.Exact.eps_lt
  obtain ⟨c1, c2, c3⟩ := C34_random_inside (F := F) (fun _ : Fin 2 => (-1 : ℝ)) (fun _ => 1) (by norm_num) g
  choose r hr1 hr2 hr3 using c2
  have hr : (Bounds.ofReal (F := F) (fun _ : Fin 2 => (-1 : ℝ)) (fun _ => 1) g).random.1 = cv r := funext hr1
  have f0 : staleFun (cv ![0, 1] : Vec (Fl F) 2) = (cv ![-20 / F.eps, 0], cm !![40 / F.eps, 0; 0, 1]) := by
    simp [staleFun, cv_apply]
  have f1 : staleFun (cv ![1 / 2, 1] : Vec (Fl F) 2) = (cv ![-20 / F.eps, 0], cm !![2 / F.eps, 0; 0, 1]) := by
    simp [staleFun, cv_apply]
  have fr : staleFun (cv r : Vec (Fl F) 2) = (cv ![1, 0], cm 0) := by
    have := (hr3 1 (by norm_num)).ne
    simp [staleFun, this, cv_apply]
  have sol : ∀ a : ℝ, 0 < a → Mat.solve2 (cm !![a / F.eps, 0; 0, 1] : Mat (Fl F) 2 2) (-(cv ![-20 / F.eps, 0])) =
      cv ![20 / a, 0] := by
    intro a ha
    rw [cv_neg, show (-![-20 / F.eps, 0]) = ![20 / F.eps, 0] by ext i; fin_cases i <;> simp; ring,
      solve2_diag (by positivity) one_ne_zero]
    congr 2
    · field_simp
    · norm_num
  have a0 : (cv ![0, 1] : Vec (Fl F) 2) + cv ![20 / 40, 0] = cv ![1 / 2, 1] := by
    rw [cv_add]; congr 1; ext i; fin_cases i <;> norm_num
  have a1 : (cv ![1 / 2, 1] : Vec (Fl F) 2) + cv ![20 / 2, 0] = cv ![21 / 2, 1] := by
    rw [cv_add]; congr 1; ext i; fin_cases i <;> norm_num
  have in0 : (Bounds.ofReal (F := F) (fun _ : Fin 2 => (-1 : ℝ)) (fun _ => 1) g).contains (cv ![1 / 2, 1]) = true := by
    rw [contains_cv]; intro i; fin_cases i <;> norm_num
  have in1 : ¬ (Bounds.ofReal (F := F) (fun _ : Fin 2 => (-1 : ℝ)) (fun _ => 1) g).contains (cv ![21 / 2, 1]) = true := by
    rw [contains_cv]; intro h; have := (h 0).2; norm_num at this
  have lam : NewtonN.lambdaMax (Bounds.ofReal (F := F) (fun _ : Fin 2 => (-1 : ℝ)) (fun _ => 1) g) (cv ![1 / 2, 1])
      (cv ![20 / 2, 0]) (cv ![21 / 2, 1]) = fin (1 / 20) := by
    unfold NewtonN.lambdaMax
    simp only [Fin.foldl_succ, Fin.foldl_zero, cv_apply, Bounds.ofReal, gt, lt_fin]
    norm_num [div_fin]
    rw [ofNat_one, min_fin]; norm_num
  have e1 : expectedResidual (cm !![2 / F.eps, 0; 0, 1] : Mat (Fl F) 2 2) (cv ![1 / 2, 1]) = fin 1 := by
    obtain ⟨e, h1, h2, h3, h4⟩ := expectedResidual_fin (F := F) !![2 / F.eps, 0; 0, 1] ![1 / 2, 1]
    have r0 : F.eps * ∑ j, |(!![2 / F.eps, 0; 0, 1] : Matrix (Fin 2) (Fin 2) ℝ) 0 j * ![(1 / 2 : ℝ), 1] j| = 1 := by
      simp [Fin.sum_univ_two, abs_div, abs_of_pos he0]; field_simp
    have r1 : F.eps * ∑ j, |(!![2 / F.eps, 0; 0, 1] : Matrix (Fin 2) (Fin 2) ℝ) 1 j * ![(1 / 2 : ℝ), 1] j| = F.eps := by
      simp [Fin.sum_univ_two]
    have h30 := h3 0
    rw [r0] at h30
    rw [h1, fin_inj]
    rcases h4 with h4 | ⟨i, h4⟩
    · linarith
    · fin_cases i
      · exact h4.trans r0
      · have := h4.trans r1; linarith
  have er : expectedResidual (cm 0 : Mat (Fl F) 2 2) (cv r) = fin 0 := by
    obtain ⟨e, h1, h2, h3, h4⟩ := expectedResidual_fin (F := F) 0 r
    rw [h1, fin_inj]
    rcases h4 with h4 | ⟨i, h4⟩
    · exact h4
    · simpa using h4
  have m1 : maxNorm (cv ![1, 0] : Vec (Fl F) 2) = fin 1 := by
    simp [maxNorm, Fin.foldl_succ, gt, cv_apply]
  have m20 : maxNorm (cv ![-20 / F.eps, 0] : Vec (Fl F) 2) = fin (20 / F.eps) := by
    have : |-20 / F.eps| = 20 / F.eps := by rw [abs_div, abs_of_pos he0]; norm_num
    simp only [maxNorm, Fin.foldl_succ, Fin.foldl_zero, gt, cv_apply, abs_fin, cons_val_zero, this, Fin.succ_zero_eq_one,
      cons_val_one, cons_val_fin_one, abs_zero, lt_fin]
    rw [if_neg]
    rw [decide_eq_true_eq, not_lt]; positivity
  have g0 : squaredNorm (cv ![-20 / F.eps, 0] : Vec (Fl F) 2) / 2 = fin ((-20 / F.eps) * (-20 / F.eps) / 2) := by
    rw [cv_squaredNorm, ofNat_def, div_fin _ (by norm_num)]; simp [dotProduct, Fin.sum_univ_two]
  obtain ⟨k, hk⟩ : ∃ k, (maxIter - 1).toNat = k + 1 := ⟨(maxIter - 1).toNat - 1, by omega⟩
  refine ⟨⟨cv r, fin 1, 2, 1, 1, (Bounds.ofReal (F := F) (fun _ : Fin 2 => (-1 : ℝ)) (fun _ => 1) g).random.2⟩, ?_, hr.symm, ?_, ?_⟩
  · have b1 : NewtonN.body (R := Fl F) (fun M v => some (Mat.solve2 M v)) staleFun
        (NewtonN.start staleFun (Bounds.ofReal (fun _ => -1) (fun _ => 1) g) (cv ![0, 1])) =
        some (.inl ⟨cv ![1 / 2, 1], cv ![-20 / F.eps, 0], cm !![2 / F.eps, 0; 0, 1],
          fin ((-20 / F.eps) * (-20 / F.eps) / 2), fin 1, 0, Bounds.ofReal (fun _ => -1) (fun _ => 1) g, 1, 0⟩) := by
      unfold NewtonN.body NewtonN.start
      dsimp only
      rw [f0]
      dsimp only
      rw [sol 40 (by norm_num), a0, if_pos in0]
      unfold NewtonN.advance
      dsimp only
      rw [a0, f1]
      dsimp only
      rw [g0, if_neg (by simp [gt]), e1]
      rfl
    have b2 : NewtonN.body (R := Fl F) (fun M v => some (Mat.solve2 M v)) staleFun
        ⟨cv ![1 / 2, 1], cv ![-20 / F.eps, 0], cm !![2 / F.eps, 0; 0, 1],
          fin ((-20 / F.eps) * (-20 / F.eps) / 2), fin 1, 0, Bounds.ofReal (fun _ => -1) (fun _ => 1) g, 1, 0⟩ =
        some (.inl ⟨cv r, cv ![1, 0], cm 0, squaredNorm (cv ![1, 0]) / 2, fin 1, 1,
          (Bounds.ofReal (F := F) (fun _ : Fin 2 => (-1 : ℝ)) (fun _ => 1) g).random.2, 2, 1⟩) := by
      unfold NewtonN.body
      dsimp only
      rw [sol 2 (by norm_num), a1, if_neg in1, lam, if_pos (by rw [lit_def, le_fin]; norm_num), if_pos c1, if_neg (by norm_num), hr, fr]
    unfold newton2 newtonN
    rw [hk]
    unfold NewtonN.loop
    rw [b1]
    dsimp only
    rw [m20, if_pos (by rw [gt, lt_fin, decide_eq_true_eq, lt_div_iff₀ he0]; linarith)]
    have fin' : NewtonN.finish (R := Fl F) ⟨cv r, cv ![1, 0], cm 0, squaredNorm (cv ![1, 0]) / 2, fin 1, 1,
          (Bounds.ofReal (F := F) (fun _ : Fin 2 => (-1 : ℝ)) (fun _ => 1) g).random.2, 2, 1⟩ =
        ⟨cv r, fin 1, 2, 1, 1, (Bounds.ofReal (F := F) (fun _ : Fin 2 => (-1 : ℝ)) (fun _ => 1) g).random.2⟩ := by
      unfold NewtonN.finish
      rw [m1, if_pos (by simp)]; rfl
    cases k with
    | zero => unfold NewtonN.loop; rw [b2]; dsimp only; rw [ite_self, fin']
    | succ k => unfold NewtonN.loop; rw [b2]; dsimp only; rw [m1, if_neg (by simp [gt]), fin']
  · dsimp only; rw [fr]; exact m1
  · dsimp only; rw [fr]; exact er

/-- C23 fails for the library's 2x2 `solve`: where the lower left entry of the Jacobian is nonzero but at most `eps²`,
the computed step does not solve the linear system, backtracking extrapolates and the returned vector is outside the
bounds. The Jacobian at the starting point has determinant `-2 eps²`. -/
theorem C23_window_false [F.Exact] (g : Pcg) (maxIter : ℤ) :
    ∃ (f : Vec (Fl F) 2 → Vec (Fl F) 2 × Mat (Fl F) 2 2) (hi : Fin 2 → ℝ) (x : Fin 2 → ℝ) (out : NewtonOut (Fl F) 2),
      (∀ i, 0 < hi i) ∧ f (cv 0) = (cv ![0, 1], cm !![F.eps * F.eps, 3; F.eps * F.eps, 1]) ∧
      (∀ y, ∃ v J, f (cv y) = (cv v, cm J) ∧ J.det ≠ 0) ∧
      newton2 f (Bounds.ofReal (-hi) hi g) (cv 0) maxIter = some out ∧ out.x = cv x ∧ ¬ Inside (-hi) hi x := by
  classical
  have he0 : (0 : ℝ) < F.eps := Fmt.Exact.eps_pos
  set q := F.eps * F.eps with hq
  have hq0 : 0 < q := mul_pos he0 he0
  set f : Vec (Fl F) 2 → Vec (Fl F) 2 × Mat (Fl F) 2 2 := fun p =>
    if p = cv 0 then (cv ![0, 1], cm !![q, 3; q, 1])
    else if p = cv ![3 / q, -1] then (cv ![2, 0], cm 1) else (cv 0, cm 1) with hf
  have n1 : (cv ![3 / q, -1] : Vec (Fl F) 2) ≠ cv 0 := by
    intro h; have := congrFun (cv_inj.mp h) 1; norm_num at this
  have n2 : (cv ![6 / q, -2] : Vec (Fl F) 2) ≠ cv 0 := by
    intro h; have := congrFun (cv_inj.mp h) 1; norm_num at this
  have n3 : (cv ![6 / q, -2] : Vec (Fl F) 2) ≠ cv ![3 / q, -1] := by
    intro h; have := congrFun (cv_inj.mp h) 1; norm_num at this
  have f0 : f (cv 0) = (cv ![0, 1], cm !![q, 3; q, 1]) := by rw [hf]; exact if_pos rfl
  have f1 : f (cv ![3 / q, -1]) = (cv ![2, 0], cm 1) := by rw [hf]; dsimp only; rw [if_neg n1, if_pos rfl]
  have f2 : f (cv ![6 / q, -2]) = (cv 0, cm 1) := by rw [hf]; dsimp only; rw [if_neg n2, if_neg n3]
  have sol : Mat.solve2 (cm !![q, 3; q, 1] : Mat (Fl F) 2 2) (-(cv ![0, 1])) = cv ![3 / q, -1] := by
    rw [cv_neg]
    unfold Mat.solve2
    simp only [cm_apply, cv_apply, Matrix.of_apply, Matrix.cons_val_zero, Matrix.cons_val_one, Matrix.cons_val_fin_one,
      abs_fin, abs_of_pos hq0, eps_def, mul_fin, le_fin, ← hq, le_refl, decide_true, if_true, div_fin _ one_ne_zero,
      div_fin _ hq0.ne', sub_fin, Pi.neg_apply, cv_vec2]
    congr 2 <;> norm_num
  have add1 : (cv 0 : Vec (Fl F) 2) + cv ![3 / q, -1] = cv ![3 / q, -1] := by rw [cv_add, zero_add]
  have inb : (Bounds.ofReal (F := F) (-![4 / q, 4]) ![4 / q, 4] g).contains (cv ![3 / q, -1]) = true := by
    rw [contains_cv]
    intro i
    have : 3 / q ≤ 4 / q := by gcongr; norm_num
    have : 0 < 3 / q := by positivity
    have : 0 < 4 / q := by positivity
    fin_cases i
    · simp only [Pi.neg_apply, Fin.zero_eta, Fin.isValue, cons_val_zero]; constructor <;> linarith
    · norm_num
  have gp : dot (Mat.mulVec (cm !![q, 3; q, 1]) (cv ![3 / q, -1])) (cv ![0, 1]) = (fin 2 : Fl F) := by
    rw [cm_mulVec, cv_dot, fin_inj]
    have : q * (3 / q) = 3 := by field_simp
    simp [dotProduct, Fin.sum_univ_two, Matrix.mulVec, this]; norm_num
  have elam : (-(fin 2) / (2 * (fin 2 - fin (1 / 2) - fin 2)) : Fl F) = fin 2 := by
    rw [ofNat_def, sub_fin, sub_fin, mul_fin, Fl.neg_fin, div_fin _ (by norm_num)]; norm_num
  have add2 : (cv 0 : Vec (Fl F) 2) + (fin 2) •. cv ![3 / q, -1] = cv ![6 / q, -2] := by
    rw [cv_smul, cv_add]; congr 1; ext i; fin_cases i
    · simp; ring
    · simp
  have sn0 : squaredNorm (cv ![0, 1] : Vec (Fl F) 2) / 2 = fin (1 / 2) := by
    rw [cv_squaredNorm, ofNat_def, div_fin _ (by norm_num)]; norm_num [dotProduct, Fin.sum_univ_two]
  have sn1 : squaredNorm (cv ![2, 0] : Vec (Fl F) 2) / 2 = fin 2 := by
    rw [cv_squaredNorm, ofNat_def, div_fin _ (by norm_num)]; norm_num [dotProduct, Fin.sum_univ_two]
  have sn2 : squaredNorm (cv 0 : Vec (Fl F) 2) / 2 = fin 0 := by
    rw [cv_squaredNorm, ofNat_def, div_fin _ (by norm_num)]; norm_num [dotProduct, Fin.sum_univ_two]
  obtain ⟨e, he, hepos, -⟩ := expectedResidual_fin (F := F) 1 ![6 / q, -2]
  have m0 : maxNorm (cv 0 : Vec (Fl F) 2) = fin 0 := by simp [maxNorm, Fin.foldl_succ, gt, cv_apply]
  have b1 : NewtonN.body (R := Fl F) (fun M v => some (Mat.solve2 M v)) f
      (NewtonN.start f (Bounds.ofReal (-![4 / q, 4]) ![4 / q, 4] g) (cv 0)) =
      some (.inl ⟨cv ![6 / q, -2], cv 0, cm 1, fin 0, fin e, 0, Bounds.ofReal (-![4 / q, 4]) ![4 / q, 4] g, 1, 0⟩) := by
    unfold NewtonN.body NewtonN.start
    dsimp only
    rw [f0]
    dsimp only
    rw [sol, add1, if_pos inb]
    unfold NewtonN.advance
    dsimp only
    rw [add1, f1]
    dsimp only
    rw [sn1, sn0, if_pos (by norm_num [gt]), gp, elam, add2, f2]
    dsimp only
    rw [sn2, if_neg (by norm_num [gt]), he]
    rfl
  have fin' : NewtonN.finish (R := Fl F) ⟨cv ![6 / q, -2], cv 0, cm 1, fin 0, fin e, 0,
      Bounds.ofReal (-![4 / q, 4]) ![4 / q, 4] g, 1, 0⟩ =
      ⟨cv ![6 / q, -2], fin e, 1, 0, 0, Bounds.ofReal (-![4 / q, 4]) ![4 / q, 4] g⟩ := by
    unfold NewtonN.finish
    rw [m0, if_pos (by simpa using hepos)]; rfl
  refine ⟨f, ![4 / q, 4], ![6 / q, -2], ⟨cv ![6 / q, -2], fin e, 1, 0, 0, Bounds.ofReal (-![4 / q, 4]) ![4 / q, 4] g⟩,
    ?_, f0, ?_, ?_, rfl, ?_⟩
  · intro i; fin_cases i
    · show 0 < 4 / q
      positivity
    · norm_num
  · intro y
    rw [hf]
    dsimp only
    split_ifs
    · refine ⟨_, _, rfl, ?_⟩
      rw [det_fin_two]; simp; linarith
    · exact ⟨_, _, rfl, by simp⟩
    · exact ⟨_, _, rfl, by simp⟩
  · unfold newton2 newtonN NewtonN.loop
    rw [b1]
    dsimp only
    rw [m0, if_neg (by rw [gt, lt_fin, decide_eq_true_eq, not_lt]; exact hepos), fin']
  · intro h
    have := (h 0).2
    simp only [cons_val_zero] at this
    rw [div_le_div_iff_of_pos_right hq0] at this
    norm_num at this

/-- C23 fails for the library's 3x3 `solve`: for `f(x) = x` on any box the first call of `solve` reads indeterminate
values (its matrix is the identity). -/
theorem C23_identity_false [F.Exact] (lo hi x : Fin 3 → ℝ) (g : Pcg) (maxIter : ℤ) :
    newton3 (R := Fl F) (fun p => (p, cm 1)) (Bounds.ofReal lo hi g) (cv x) maxIter = none := by
  unfold newton3 newtonN NewtonN.loop NewtonN.body
  simp only [NewtonN.start, cv_neg, C10_identity_false]

end DRT
