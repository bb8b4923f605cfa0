import Verif.Props.NewtonExact
import Verif.Props.Convergence

/-! # C114: what the searches in several dimensions achieve -/

namespace DRT
open Scalar Vec Fl Matrix

variable {F : Fmt} {n : ℕ}

/-! ## Descent of `newton` -/

section
variable {R : Type} [Scalar R]

theorem NewtonN.advance_descent {f : Vec R n → Vec R n × Mat R n n} {s s' : NewtonN.State R n} {dw : Vec R n}
    (h : NewtonN.advance f s dw = some s') :
    s'.restarts = s.restarts + 1 ∨
      (s'.restarts = s.restarts ∧ gt s'.g s.g = false ∧ s'.g = squaredNorm s'.v / 2) := by
  unfold NewtonN.advance at h
  dsimp only at h
  split_ifs at h with h1 h2 h3 <;> simp only [Option.some.injEq] at h <;> subst h
  · exact Or.inl rfl
  · exact Or.inr ⟨rfl, Bool.eq_false_of_not_eq_true h2, rfl⟩
  · exact Or.inr ⟨rfl, Bool.eq_false_of_not_eq_true h1, rfl⟩

theorem NewtonN.body_descent {solve : Mat R n n → Vec R n → Option (Vec R n)} {f : Vec R n → Vec R n × Mat R n n}
    {s s' : NewtonN.State R n} (h : NewtonN.body solve f s = some (.inl s')) :
    s'.restarts = s.restarts + 1 ∨
      (s'.restarts = s.restarts ∧ gt s'.g s.g = false ∧ s'.g = squaredNorm s'.v / 2) := by
  unfold NewtonN.body at h
  dsimp only at h
  cases hs : solve s.J (-s.v) with
  | none => rw [hs] at h; cases h
  | some dw =>
    rw [hs] at h
    dsimp only at h
    have adv : ∀ w, Option.map Sum.inl (NewtonN.advance f { s with bodies := s.bodies + 1 } w) =
        some (Sum.inl s' : NewtonN.State R n ⊕ NewtonN.State R n) → s'.restarts = s.restarts + 1 ∨
        (s'.restarts = s.restarts ∧ gt s'.g s.g = false ∧ s'.g = squaredNorm s'.v / 2) := by
      intro w hw
      rw [Option.map_eq_some_iff] at hw
      obtain ⟨t, ht, e⟩ := hw
      cases e
      have := NewtonN.advance_descent ht
      exact this
    split_ifs at h
    · exact adv _ h
    · cases h
    · simp only [Option.some.injEq, Sum.inl.injEq] at h; subst h; exact Or.inl rfl
    · exact adv _ h

end

/-- C114: if `newton` makes no random restart and returns a vector, then the residual is not larger than at the first guess.
The hypotheses are those of `C23_inside_partial`. -/
theorem C114_descent [F.Exact]
    (solve : Mat (Fl F) (n + 1) (n + 1) → Vec (Fl F) (n + 1) → Option (Vec (Fl F) (n + 1)))
    (f : Vec (Fl F) (n + 1) → Vec (Fl F) (n + 1) × Mat (Fl F) (n + 1) (n + 1)) (lo hi : Fin (n + 1) → ℝ)
    (hlh : ∀ i, lo i ≤ hi i) (hf : Solvable solve f lo hi) (g : Pcg) (guess : Fin (n + 1) → ℝ)
    (hguess : Inside lo hi guess) (maxIter : ℤ) (out : NewtonOut (Fl F) (n + 1))
    (h : newtonN solve f (Bounds.ofReal lo hi g) (cv guess) maxIter = some out) (h0 : out.restarts = 0)
    (v₀ : Fin (n + 1) → ℝ) (hv₀ : (f (cv guess)).1 = cv v₀) :
    out.x = Vec.nans ∨ ∃ x v, out.x = cv x ∧ (f (cv x)).1 = cv v ∧ v ⬝ᵥ v ≤ v₀ ⬝ᵥ v₀ := by
  have half : ∀ v : Fin (n + 1) → ℝ, (squaredNorm (cv v : Vec (Fl F) (n + 1)) / 2 : Fl F) = fin ((v ⬝ᵥ v) / 2) := fun v => by
    rw [cv_squaredNorm, ofNat_def, div_fin _ (by norm_num)]; norm_num
  have key : ∀ k (s : NewtonN.State (Fl F) (n + 1)) γ, NewtonN.Inv f lo hi s → s.g = fin γ → γ ≤ (v₀ ⬝ᵥ v₀) / 2 → ∀ out, NewtonN.loop solve f k s = some out →
      s.restarts ≤ out.restarts ∧ (out.restarts = s.restarts → out.x = Vec.nans ∨
        ∃ x v, out.x = cv x ∧ (f (cv x)).1 = cv v ∧ v ⬝ᵥ v ≤ v₀ ⬝ᵥ v₀) := by
    have stepc : ∀ (s s' : NewtonN.State (Fl F) (n + 1)) γ, NewtonN.Inv f lo hi s' → s.g = fin γ → γ ≤ (v₀ ⬝ᵥ v₀) / 2 → gt s'.g s.g = false →
        s'.g = squaredNorm s'.v / 2 → ∃ x v, s'.guess = cv x ∧ (f (cv x)).1 = cv v ∧ s'.g = fin ((v ⬝ᵥ v) / 2) ∧
          (v ⬝ᵥ v) / 2 ≤ (v₀ ⬝ᵥ v₀) / 2 := by
      rintro s s' γ ⟨x, hx, e1, e2, -, -, -⟩ hg hγ hgt hsq
      obtain ⟨v, J, w, e, -, -⟩ := hf x hx
      rw [e] at e2
      dsimp only at e2
      rw [e2, half] at hsq
      refine ⟨x, v, e1, by rw [e], hsq, ?_⟩
      rw [hsq, hg, gt, lt_fin, decide_eq_false_iff_not, not_lt] at hgt
      exact hgt.trans hγ
    have fin' : ∀ s' : NewtonN.State (Fl F) (n + 1), (∃ x v, s'.guess = cv x ∧ (f (cv x)).1 = cv v ∧ s'.g = fin ((v ⬝ᵥ v) / 2) ∧
          (v ⬝ᵥ v) / 2 ≤ (v₀ ⬝ᵥ v₀) / 2) → (NewtonN.finish s').x = Vec.nans ∨
        ∃ x v, (NewtonN.finish s').x = cv x ∧ (f (cv x)).1 = cv v ∧ v ⬝ᵥ v ≤ v₀ ⬝ᵥ v₀ := by
      rintro s' ⟨x, v, e1, e2, -, e3⟩
      unfold NewtonN.finish
      split_ifs
      · exact Or.inr ⟨x, v, e1, e2, by linarith⟩
      · exact Or.inl rfl
    have finr : ∀ s' : NewtonN.State (Fl F) (n + 1), (NewtonN.finish s').restarts = s'.restarts := by
      intro s'; unfold NewtonN.finish; split_ifs <;> rfl
    have retr : ∀ s s' : NewtonN.State (Fl F) (n + 1), NewtonN.body solve f s = some (.inr s') → s'.restarts = s.restarts + 1 := by
      intro s s' hb
      unfold NewtonN.body at hb
      dsimp only at hb
      cases hs : solve s.J (-s.v) with
      | none => rw [hs] at hb; cases hb
      | some dw =>
        rw [hs] at hb
        dsimp only at hb
        split_ifs at hb
        · rw [Option.map_eq_some_iff] at hb; obtain ⟨t, -, e⟩ := hb; cases e
        · simp only [Option.some.injEq, Sum.inr.injEq] at hb; subst hb; rfl
        · cases hb
        · rw [Option.map_eq_some_iff] at hb; obtain ⟨t, -, e⟩ := hb; cases e
    intro k
    induction k with
    | zero =>
      intro s γ hs hg hγ out hl
      obtain ⟨r, hr, hr'⟩ := NewtonN.body_inv hlh hf hs
      unfold NewtonN.loop at hl
      rw [hr] at hl
      rcases r with s' | s'
      · dsimp only at hl
        rw [ite_self] at hl
        simp only [Option.some.injEq] at hl; subst hl
        rw [finr]
        rcases NewtonN.body_descent hr with q | ⟨q1, q2, q3⟩
        · exact ⟨by omega, fun e => by omega⟩
        · exact ⟨q1.ge, fun _ => fin' s' (stepc s s' γ (hr' s' rfl) hg hγ q2 q3)⟩
      · simp only [Option.some.injEq] at hl; subst hl
        have := retr s s' hr
        exact ⟨by simp only [NewtonN.State.out]; omega, fun _ => Or.inl rfl⟩
    | succ k ih =>
      intro s γ hs hg hγ out hl
      obtain ⟨r, hr, hr'⟩ := NewtonN.body_inv hlh hf hs
      unfold NewtonN.loop at hl
      rw [hr] at hl
      rcases r with s' | s'
      · dsimp only at hl
        rcases NewtonN.body_descent hr with q | ⟨q1, q2, q3⟩
        · split_ifs at hl
          · -- after a restart nothing is claimed, but the count cannot go down
            have mono : ∀ k (s : NewtonN.State (Fl F) (n + 1)) out, NewtonN.loop solve f k s = some out → s.restarts ≤ out.restarts := by
              intro k
              induction k with
              | zero =>
                intro s out hl
                unfold NewtonN.loop at hl
                cases hb : NewtonN.body solve f s with
                | none => rw [hb] at hl; cases hl
                | some r =>
                  rw [hb] at hl
                  rcases r with t | t
                  · dsimp only at hl
                    rw [ite_self] at hl
                    simp only [Option.some.injEq] at hl; subst hl
                    rw [finr]
                    rcases NewtonN.body_descent hb with q | ⟨q, -, -⟩ <;> omega
                  · simp only [Option.some.injEq] at hl; subst hl
                    have := retr s t hb
                    simp only [NewtonN.State.out]; omega
              | succ k ih =>
                intro s out hl
                unfold NewtonN.loop at hl
                cases hb : NewtonN.body solve f s with
                | none => rw [hb] at hl; cases hl
                | some r =>
                  rw [hb] at hl
                  rcases r with t | t
                  · dsimp only at hl
                    have ht : s.restarts ≤ t.restarts := by
                      rcases NewtonN.body_descent hb with q | ⟨q, -, -⟩ <;> omega
                    split_ifs at hl
                    · exact ht.trans (ih _ _ hl)
                    · simp only [Option.some.injEq] at hl; subst hl
                      rw [finr]; exact ht
                  · simp only [Option.some.injEq] at hl; subst hl
                    have := retr s t hb
                    simp only [NewtonN.State.out]; omega
            have := mono _ _ _ hl
            exact ⟨by omega, fun e => by omega⟩
          · simp only [Option.some.injEq] at hl; subst hl
            rw [finr]
            exact ⟨by omega, fun e => by omega⟩
        · have hst := stepc s s' γ (hr' s' rfl) hg hγ q2 q3
          split_ifs at hl
          · obtain ⟨x, v, -, -, e3, e4⟩ := hst
            have := ih s' _ (hr' s' rfl) e3 e4 out hl
            rw [q1] at this
            exact this
          · simp only [Option.some.injEq] at hl; subst hl
            rw [finr]
            exact ⟨q1.ge, fun _ => fin' s' hst⟩
      · simp only [Option.some.injEq] at hl; subst hl
        have := retr s s' hr
        exact ⟨by simp only [NewtonN.State.out]; omega, fun _ => Or.inl rfl⟩
  have hstart : (NewtonN.start f (Bounds.ofReal lo hi g) (cv guess)).g = fin ((v₀ ⬝ᵥ v₀) / 2) := by
    simp only [NewtonN.start]
    rw [hv₀, half]
  exact (key _ _ _ ⟨guess, hguess, rfl, rfl, rfl, ⟨_, hstart⟩, g, rfl⟩ hstart le_rfl out h).2 (by rw [h0]; rfl)

/-! ## Systems solved by a single step -/

theorem maxNorm_zero [F.Exact] (e : ℝ) (he : 0 ≤ e) :
    gt (maxNorm (cv 0 : Vec (Fl F) (n + 1))) (fin e) = false ∧ Scalar.le (maxNorm (cv 0 : Vec (Fl F) (n + 1))) (fin e) = true := by
  have : maxNorm (cv 0 : Vec (Fl F) (n + 1)) = fin 0 := by
    unfold maxNorm
    have := foldl_inv (P := fun _ (a : Fl F) => a = fin 0) (n := n)
      (fun (m : Fl F) (i : Fin n) => if gt (Scalar.abs ((cv 0 : Vec (Fl F) (n + 1)) i.succ)) m then
        Scalar.abs ((cv 0 : Vec (Fl F) (n + 1)) i.succ) else m) (Scalar.abs ((cv 0 : Vec (Fl F) (n + 1)) 0)) (by simp [cv]) (by
        rintro i a rfl; simp [cv, gt])
    exact this
  rw [this]
  simp [gt, he]

/-- C114: `newton` solves an invertible affine system in one loop body, from every guess, if the solution lies in the bounds. -/
theorem C114_newton_affine [F.Exact]
    (solve : Mat (Fl F) (n + 1) (n + 1) → Vec (Fl F) (n + 1) → Option (Vec (Fl F) (n + 1)))
    (f : Vec (Fl F) (n + 1) → Vec (Fl F) (n + 1) × Mat (Fl F) (n + 1) (n + 1)) (A : Matrix (Fin (n + 1)) (Fin (n + 1)) ℝ)
    (c z : Fin (n + 1) → ℝ) (hf : ∀ x, f (cv x) = (cv (A *ᵥ x + c), cm A)) (hA : A.det ≠ 0) (hz : A *ᵥ z + c = 0)
    (hsolve : ∀ b, ∃ w, solve (cm A) (cv b) = some (cv w) ∧ A *ᵥ w = b) (lo hi : Fin (n + 1) → ℝ) (hin : Inside lo hi z)
    (g : Pcg) (guess : Fin (n + 1) → ℝ) (maxIter : ℤ) :
    ∃ out, newtonN solve f (Bounds.ofReal lo hi g) (cv guess) maxIter = some out ∧ out.x = cv z ∧ out.bodies = 1 ∧
      out.restarts = 0 := by
  obtain ⟨w, hw, hAw⟩ := hsolve (-(A *ᵥ guess + c))
  have hgw : guess + w = z := by
    have h1 : A *ᵥ (guess + w) = A *ᵥ z := by rw [mulVec_add, hAw, eq_neg_of_add_eq_zero_left hz]; abel
    exact mulVec_injective_iff_isUnit.mpr ((isUnit_iff_isUnit_det A).mpr (isUnit_iff_ne_zero.mpr hA)) h1
  have hbody : NewtonN.body solve f (NewtonN.start f (Bounds.ofReal lo hi g) (cv guess)) = some (.inl
      ⟨cv z, cv 0, cm A, fin 0, expectedResidual (cm A) (cv z), 0, Bounds.ofReal lo hi g, 1, 0⟩) := by
    have q0 : (squaredNorm (cv (0 : Fin (n + 1) → ℝ) : Vec (Fl F) (n + 1)) / 2 : Fl F) = fin 0 := by
      rw [cv_squaredNorm, ofNat_def, div_fin _ (by norm_num)]; simp
    have q1 : (squaredNorm (cv (A *ᵥ guess + c) : Vec (Fl F) (n + 1)) / 2 : Fl F) =
        fin (((A *ᵥ guess + c) ⬝ᵥ (A *ᵥ guess + c)) / 2) := by
      rw [cv_squaredNorm, ofNat_def, div_fin _ (by norm_num)]; norm_num
    have hpos : 0 ≤ (A *ᵥ guess + c) ⬝ᵥ (A *ᵥ guess + c) := dotProduct_self_nonneg' _
    unfold NewtonN.body NewtonN.start
    simp only [hf, cv_neg, hw, cv_add, hgw]
    rw [if_pos ((contains_cv lo hi z g).mpr hin)]
    unfold NewtonN.advance
    simp only [cv_add, hgw, hf, hz, q0, q1]
    rw [if_neg (by simp only [gt, lt_fin, decide_eq_true_eq, not_lt]; positivity)]
    rfl
  obtain ⟨e, he, he0, -⟩ := expectedResidual_fin (F := F) A z
  rw [he] at hbody
  obtain ⟨m1, m2⟩ := maxNorm_zero (F := F) (n := n) e he0
  refine ⟨⟨cv z, fin e, 1, 0, 0, Bounds.ofReal lo hi g⟩, ?_, rfl, rfl, rfl⟩
  unfold newtonN NewtonN.loop
  rw [hbody]
  dsimp only
  rw [if_neg (by rw [m1]; exact Bool.false_ne_true)]
  unfold NewtonN.finish
  rw [if_pos m2]
  rfl

/-- C11: the contraction as a whole is undefined for `cols > rows ≥ 1`, whatever the vectors are. -/
theorem C11_vector_oob_false {p r c : ℕ} (hp : 0 < p) (hr : 0 < r) (hrc : r < c) (T : Tensor (Fl F) p r c)
    (x : Vec (Fl F) c) (y : Vec (Fl F) r) : T.contractVec x y = none := by
  unfold Tensor.contractVec
  rw [if_neg]
  intro h
  have h1 := List.all_eq_true.mp h ⟨p - 1, by omega⟩ (List.mem_finRange _)
  rw [C11_oob_false hp hr hrc T x y] at h1
  cases h1

example (T : Tensor (Fl exact64) 3 2 3) (x : Vec (Fl exact64) 3) (y : Vec (Fl exact64) 2) :
    T.contractVec x y = none := C11_vector_oob_false (by norm_num) (by norm_num) (by norm_num) T x y

theorem contractVec_fin [F.Exact] {p m : ℕ} (T : Tensor (Fl F) p m m) (t : Fin p → Fin m → Fin m → ℝ)
    (hT : ∀ (i : Fin p) (j k : Fin m), T.get i j k = some (fin (t i j k))) (x y : Fin m → ℝ) :
    T.contractVec (cv x) (cv y) = some (cv fun i => ∑ j, ∑ k, t i j k * x j * y k) := by
  have h := C11_contract_square T t hT x y
  unfold Tensor.contractVec
  rw [if_pos (by simp [h])]
  congr 1
  funext i
  rw [h]
  rfl

/-- C114: `halley` in any number of dimensions solves, in one loop body, every system `A m(x) = 0` with an invertible matrix `A`
where `m i` is a quotient of two affine functions of the `i`-th variable. -/
theorem C114_halley_moebius [F.Exact]
    (solve : Mat (Fl F) (n + 1) (n + 1) → Vec (Fl F) (n + 1) → Option (Vec (Fl F) (n + 1)))
    (f : Vec (Fl F) (n + 1) → Vec (Fl F) (n + 1) × Mat (Fl F) (n + 1) (n + 1) × Tensor (Fl F) (n + 1) (n + 1) (n + 1))
    (A : Matrix (Fin (n + 1)) (Fin (n + 1)) ℝ) (a b c d : Fin (n + 1) → ℝ)
    (hf : ∀ x : Fin (n + 1) → ℝ, (∀ i, c i * x i + d i ≠ 0) → ∃ T,
      f (cv x) = (cv (A *ᵥ fun i => (a i * x i + b i) / (c i * x i + d i)),
        cm (A * diagonal fun i => (a i * d i - b i * c i) / (c i * x i + d i) ^ 2), T) ∧
      ∀ i j k : Fin (n + 1), T.get i j k =
        some (fin (if j = k then A i j * (-2 * c j * (a j * d j - b j * c j) / (c j * x j + d j) ^ 3) else 0)))
    (hA : A.det ≠ 0) (ha : ∀ i, a i ≠ 0) (hD : ∀ i, a i * d i - b i * c i ≠ 0) (lo hi guess : Fin (n + 1) → ℝ)
    (hs : ∀ i, c i * guess i + d i ≠ 0)
    (hsolve : ∀ r, ∃ w, solve (cm (A * diagonal fun i => (a i * d i - b i * c i) / (c i * guess i + d i) ^ 2)) (cv r) =
      some (cv w) ∧ (A * diagonal fun i => (a i * d i - b i * c i) / (c i * guess i + d i) ^ 2) *ᵥ w = r)
    (hin : Inside lo hi fun i => -b i / a i) (g : Pcg) (maxIter : ℤ) :
    ∃ out, halleyN solve f (Bounds.ofReal lo hi g) (cv guess) maxIter = some (cv fun i => -b i / a i, out) ∧ out.bodies = 1 ∧
      out.restarts = 0 := by
  have hAinj : Function.Injective A.mulVec :=
    mulVec_injective_iff_isUnit.mpr ((isUnit_iff_isUnit_det A).mpr (isUnit_iff_ne_zero.mpr hA))
  obtain ⟨T, e1, hT⟩ := hf guess hs
  set q : Fin (n + 1) → ℝ := fun i => c i * guess i + d i with hq
  set D : Fin (n + 1) → ℝ := fun i => a i * d i - b i * c i with hDd
  have dm : ∀ w, (A * diagonal fun i => D i / q i ^ 2) *ᵥ w = A *ᵥ fun i => D i / q i ^ 2 * w i := by
    intro w
    rw [← mulVec_mulVec]
    congr 1
    funext i
    rw [mulVec_diagonal]
  -- the Newton step
  obtain ⟨w, hw, hJw⟩ := hsolve (-(A *ᵥ fun i => (a i * guess i + b i) / q i))
  have hwi : ∀ i, w i = -((a i * guess i + b i) * q i / D i) := by
    have h1 : (fun i => D i / q i ^ 2 * w i) = fun i => -((a i * guess i + b i) / q i) := by
      apply hAinj
      show A *ᵥ _ = A *ᵥ _
      rw [← dm w, hJw, ← mulVec_neg]
      rfl
    intro i
    have h2 := congrFun h1 i
    have hqi : q i ≠ 0 := hs i
    have hDi : D i ≠ 0 := hD i
    field_simp at h2 ⊢
    linarith
  -- the second-order term
  have hc := contractVec_fin T _ hT w w
  obtain ⟨u, hu, hJu⟩ := hsolve fun i => ∑ j, ∑ k, (if j = k then A i j * (-2 * c j * D j / q j ^ 3) else 0) * w j * w k
  have hui : ∀ i, u i = -2 * c i / q i * w i ^ 2 := by
    have h1 : (fun i => D i / q i ^ 2 * u i) = fun i => -2 * c i * D i / q i ^ 3 * w i ^ 2 := by
      apply hAinj
      show A *ᵥ _ = A *ᵥ _
      rw [← dm u, hJu]
      funext i
      rw [mulVec, dotProduct]
      refine Finset.sum_congr rfl fun j _ => ?_
      rw [Finset.sum_eq_single j (fun k _ hk => by rw [if_neg (Ne.symm hk)]; ring) (fun h => absurd (Finset.mem_univ _) h),
        if_pos rfl]
      ring
    intro i
    have h2 := congrFun h1 i
    have hqi : q i ≠ 0 := hs i
    have hDi : D i ≠ 0 := hD i
    field_simp at h2 ⊢
    linarith
  -- the update
  have hnew : HalleyN.newguess (cv guess) (cv w) (cv u) = (cv fun i => -b i / a i : Vec (Fl F) (n + 1)) := by
    funext i
    have hqi : q i ≠ 0 := hs i
    have hDi : D i ≠ 0 := hD i
    have hai := ha i
    have hND : D i + c i * (a i * guess i + b i) = a i * q i := by rw [hDd, hq]; ring
    have hden : w i + u i / 2 = w i * (a i * q i / D i) := by
      rw [hui i]
      have : -2 * c i / q i * w i ^ 2 / 2 = w i * (c i * (a i * guess i + b i) / D i) := by
        have := hwi i
        calc -2 * c i / q i * w i ^ 2 / 2 = w i * (-c i / q i * w i) := by ring
          _ = w i * (c i * (a i * guess i + b i) / D i) := by rw [this]; field_simp
      rw [this, ← hND]
      field_simp
    unfold HalleyN.newguess
    simp only [cv_apply, ofNat_def, ofNat_zero]
    rw [div_fin _ (by norm_num), add_fin, Fl.eq_fin]
    push_cast
    rw [hden]
    by_cases hw0 : w i = 0
    · rw [if_pos (by simp [hw0]), hw0, add_fin, add_zero]
      congr 1
      have := hwi i
      rw [hw0, eq_comm, neg_eq_zero, div_eq_zero_iff, mul_eq_zero] at this
      have h0 : a i * guess i + b i = 0 := by tauto
      rw [eq_div_iff hai]; linarith
    · have hne : w i * (a i * q i / D i) ≠ 0 := mul_ne_zero hw0 (div_ne_zero (mul_ne_zero hai hqi) hDi)
      rw [if_neg (by simpa using hne), Fl.mul_fin, div_fin _ hne, add_fin]
      congr 1
      have : w i * w i / (w i * (a i * q i / D i)) = w i * D i / (a i * q i) := by field_simp
      rw [this, hwi i]
      field_simp
      ring
  have hroot : ∀ i, c i * (-b i / a i) + d i ≠ 0 := fun i => by
    have hai := ha i
    have : c i * (-b i / a i) + d i = D i / a i := by rw [hDd]; field_simp; ring
    rw [this]; exact div_ne_zero (hD i) hai
  obtain ⟨T', e2, -⟩ := hf _ hroot
  have hz : (A *ᵥ fun i => (a i * (-b i / a i) + b i) / (c i * (-b i / a i) + d i)) = 0 := by
    have : (fun i => (a i * (-b i / a i) + b i) / (c i * (-b i / a i) + d i)) = 0 := by
      funext i; rw [mul_div_cancel₀ _ (ha i), neg_add_cancel, zero_div]; rfl
    rw [this, mulVec_zero]
  rw [hz] at e2
  set J' := A * diagonal fun i => (a i * d i - b i * c i) / (c i * (-b i / a i) + d i) ^ 2 with hJ'
  obtain ⟨e, he, he0, -⟩ := expectedResidual_fin (F := F) J' fun i => -b i / a i
  have hbody : HalleyN.body solve f (HalleyN.start f (Bounds.ofReal lo hi g) (cv guess)) = some (.inl
      ⟨cv fun i => -b i / a i, cv 0, cm J', T', fin e, 0, 0, Bounds.ofReal lo hi g, 1⟩) := by
    change solve (cm (A * diagonal fun i => (a i * d i - b i * c i) / (c i * guess i + d i) ^ 2))
      (cv (-(A *ᵥ fun i => (a i * guess i + b i) / (c i * guess i + d i)))) = _ at hw
    change solve (cm (A * diagonal fun i => (a i * d i - b i * c i) / (c i * guess i + d i) ^ 2))
      (cv fun i => ∑ j, ∑ k, (if j = k then A i j * (-2 * c j * (a j * d j - b j * c j) / (c j * guess j + d j) ^ 3) else 0) *
        w j * w k) = _ at hu
    unfold HalleyN.body HalleyN.start
    simp only [e1, cv_neg, hw, hc, hu, hnew, Option.bind_eq_bind, Option.bind_some]
    rw [if_pos ((contains_cv lo hi _ g).mpr hin)]
    simp only [e2, he]
    rfl
  obtain ⟨m1, m2⟩ := maxNorm_zero (F := F) (n := n) e he0
  refine ⟨⟨cv fun i => -b i / a i, cv 0, cm J', T', fin e, 0, 0, Bounds.ofReal lo hi g, 1⟩, ?_, rfl, rfl⟩
  unfold halleyN HalleyN.loop
  rw [hbody]
  dsimp only
  rw [if_neg (by rw [m1]; exact Bool.false_ne_true)]
  unfold HalleyN.finish
  rw [if_pos m2]

/-! ## The hypotheses are met -/

/-- The real value of a finite number. -/
noncomputable def realOf (x : Fl F) : ℝ := by
  classical exact if h : ∃ a : ℝ, x = fin a then h.choose else 0

theorem realOf_cv (x : Fin n → ℝ) : (fun i => realOf ((cv x : Vec (Fl F) n) i)) = x := by
  funext i
  have h : ∃ a : ℝ, (cv x : Vec (Fl F) n) i = fin a := ⟨x i, rfl⟩
  unfold realOf
  rw [dif_pos h]
  exact (fin_inj.mp (h.choose_spec)).symm

/-- `2x + y = 3`, `x + 3y = 4` from the guess `(5, -7)`, with the solver of the library: the result is `(1, 1)`, without a restart,
and `C114_descent` applies when the guess is inside the bounds. -/
example (g : Pcg) (maxIter : ℤ) (guess : Fin 2 → ℝ) (hguess : Inside ![-9, -9] ![9, 9] guess) :
    ∃ f : Vec (Fl exact64) 2 → Vec (Fl exact64) 2 × Mat (Fl exact64) 2 2, ∃ out,
      newton2 f (Bounds.ofReal ![-9, -9] ![9, 9] g) (cv guess) maxIter = some out ∧ out.x = cv ![1, 1] ∧ out.bodies = 1 ∧
      (out.x = Vec.nans ∨ ∃ x v, out.x = cv x ∧ (f (cv x)).1 = cv v ∧
        v ⬝ᵥ v ≤ (!![2, 1; 1, 3] *ᵥ guess + ![-3, -4]) ⬝ᵥ (!![2, 1; 1, 3] *ᵥ guess + ![-3, -4])) := by
  have hA : (!![2, 1; 1, 3] : Matrix (Fin 2) (Fin 2) ℝ).det ≠ 0 := by rw [det_fin_two]; norm_num
  have hs : ∀ b, ∃ w, (fun M v => some (Mat.solve2 (R := Fl exact64) M v)) (cm !![2, 1; 1, 3]) (cv b) = some (cv w) ∧
      !![2, 1; 1, 3] *ᵥ w = b := fun b => by
    have he0 : (0 : ℝ) < exact64.eps := Fmt.Exact.eps_pos
    have he1 : exact64.eps < 1 := Fmt.Exact.eps_lt
    obtain ⟨x, h1, h2⟩ := C09_solve2_partial (F := exact64) !![2, 1; 1, 3] b hA (Or.inr (by simp; nlinarith))
    exact ⟨x, congrArg some h1, h2⟩
  let f : Vec (Fl exact64) 2 → Vec (Fl exact64) 2 × Mat (Fl exact64) 2 2 := fun X =>
    (cv (!![2, 1; 1, 3] *ᵥ (fun i => realOf (X i)) + ![-3, -4]), cm !![2, 1; 1, 3])
  have hf : ∀ x : Fin 2 → ℝ, f (cv x) =
      (cv (!![2, 1; 1, 3] *ᵥ x + ![-3, -4]), cm !![2, 1; 1, 3]) := fun x => by
    dsimp only [f]; rw [realOf_cv]
  refine ⟨f, ?_⟩
  obtain ⟨out, h1, h2, h3, h4⟩ := C114_newton_affine (F := exact64) (n := 1) (fun M v => some (Mat.solve2 M v)) f _ _ ![1, 1] hf hA
    (by funext i; fin_cases i <;> simp [mulVec, dotProduct, Fin.sum_univ_two] <;> norm_num) hs ![-9, -9] ![9, 9]
    (by intro i; fin_cases i <;> norm_num) g guess maxIter
  refine ⟨out, h1, h2, h3, ?_⟩
  refine C114_descent (F := exact64) (n := 1) (fun M v => some (Mat.solve2 M v)) f ![-9, -9] ![9, 9] (by intro i; fin_cases i <;> norm_num) (fun x _ => ?_) g guess hguess
    maxIter out h1 h4 _ (by rw [hf])
  obtain ⟨w, w1, w2⟩ := hs (-(!![2, 1; 1, 3] *ᵥ x + ![-3, -4]))
  exact ⟨_, _, w, hf x, w1, w2⟩

/-- The system `m₀ + m₁ = 0`, `m₁ = 0` with `m₀ = (x - 1)/(x + 2)` and `m₁ = (y - 3)/(2 y - 1)`, from the guess `(0, 1)`, with the
solver of the library: the result is `(1, 3)`. -/
example (g : Pcg) (maxIter : ℤ) : ∃ f, ∃ out, halleyN (R := Fl exact64) (fun M v => some (Mat.solve2 M v)) f
    (Bounds.ofReal ![-9, -9] ![9, 9] g) (cv ![0, 1]) maxIter = some (cv fun i => -(![-1, -3] i) / ![1, 1] i, out) ∧
    out.bodies = 1 ∧ out.restarts = 0 := by
  let T : (Fin 2 → ℝ) → Tensor (Fl exact64) 2 2 2 := fun x =>
    ⟨[fin (-2 * 1 * (1 * 2 - -1 * 1) / (1 * x 0 + 2) ^ 3), fin 0, fin 0, fin (-2 * 2 * (1 * -1 - -3 * 2) / (2 * x 1 + -1) ^ 3),
      fin 0, fin 0, fin 0, fin (-2 * 2 * (1 * -1 - -3 * 2) / (2 * x 1 + -1) ^ 3)], rfl⟩
  refine ⟨fun X =>
    let x : Fin 2 → ℝ := fun i => realOf (X i)
    (cv (!![1, 1; 0, 1] *ᵥ fun i => (![1, 1] i * x i + ![-1, -3] i) / (![1, 2] i * x i + ![2, -1] i)),
      cm (!![1, 1; 0, 1] * diagonal fun i => (![1, 1] i * ![2, -1] i - ![-1, -3] i * ![1, 2] i) /
        (![1, 2] i * x i + ![2, -1] i) ^ 2),
      T x), ?_⟩
  refine C114_halley_moebius (F := exact64) _ _ !![1, 1; 0, 1] ![1, 1] ![-1, -3] ![1, 2] ![2, -1] (fun x _ => ⟨T x, ?_, ?_⟩) ?_ ?_ ?_
    _ _ _ ?_ (fun r => ?_) ?_ g maxIter
  · have h : ∀ i, realOf ((cv x : Vec (Fl exact64) 2) i) = x i := fun i => congrFun (realOf_cv (F := exact64) x) i
    simp only [h]
  · intro i j k
    fin_cases i <;> fin_cases j <;> fin_cases k <;> simp [Tensor.get, T]
  · rw [det_fin_two]; norm_num
  · intro i; fin_cases i <;> norm_num
  · intro i; fin_cases i <;> norm_num
  · intro i; fin_cases i <;> norm_num
  · obtain ⟨w, h1, h2⟩ := C09_solve2_partial (F := exact64) (!![1, 1; 0, 1] * diagonal fun i : Fin 2 =>
      (![1, 1] i * ![2, -1] i - ![-1, -3] i * ![1, 2] i) / (![1, 2] i * ![0, 1] i + ![2, -1] i : ℝ) ^ 2) r
      (by rw [det_mul, det_diagonal, Fin.prod_univ_two, det_fin_two]; norm_num)
      (Or.inl (by rw [mul_diagonal]; simp))
    exact ⟨w, congrArg some h1, h2⟩
  · intro i; fin_cases i <;> norm_num

end DRT
