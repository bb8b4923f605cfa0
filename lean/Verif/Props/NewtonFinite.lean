import Verif.Props.NewtonExact

/-! # Newton's method never returns an infinity, whatever the linear solver answers

`newton` leaves the linear solver unchecked. For a function that is finite at finite points and whose first component is
NaN at points with a NaN component and at points without a finite component, a returned vector is finite or the NaN
vector, for every linear solver. -/

namespace DRT
open Scalar Vec Fl Matrix

variable {F : Fmt} {n : ℕ}

/-- Not a finite number. -/
def Nonfinite (x : Fl F) : Prop := ∀ a : ℝ, x ≠ fin a

/-- The hypothesis on the function. -/
structure Robust (f : Vec (Fl F) (n + 1) → Vec (Fl F) (n + 1) × Mat (Fl F) (n + 1) (n + 1)) : Prop where
  finite : ∀ x, ∃ v J, f (cv x) = (cv v, cm J)
  nan : ∀ x i, x i = Fl.nan → (f x).1 0 = Fl.nan
  far : ∀ x, (∀ i, Nonfinite (x i)) → (f x).1 0 = Fl.nan

theorem eq_nan_of_isNaN {x : Fl F} (h : isNaN x = true) : x = Fl.nan := by
  cases x <;> first | rfl | exact absurd h (by simp)

theorem loopSum_nan {m : ℕ} (f : Fin m → Fl F) (i : Fin m) (h : f i = Fl.nan) : loopSum m f = Fl.nan := by
  induction m with
  | zero => exact i.elim0
  | succ m ih =>
    rw [loopSum_succ]
    refine Fin.lastCases (fun h => ?_) (fun j h => ?_) i h
    · rw [h, add_nan]
    · rw [ih _ j h, nan_add]

theorem squaredNorm_nan {m : ℕ} (v : Vec (Fl F) m) (i : Fin m) (h : v i = Fl.nan) : squaredNorm v = Fl.nan :=
  loopSum_nan _ i (by rw [h, nan_mul])

/-- The invariant: a finite guess, or a NaN in the first component of the residual. -/
def NewtonN.Fine (f : Vec (Fl F) (n + 1) → Vec (Fl F) (n + 1) × Mat (Fl F) (n + 1) (n + 1)) (lo hi : Fin (n + 1) → ℝ)
    (s : NewtonN.State (Fl F) (n + 1)) : Prop :=
  ∃ x, s.guess = cv x ∧ s.v = (f (cv x)).1 ∧ s.J = (f (cv x)).2 ∧ (∃ γ : ℝ, s.g = fin γ) ∧
    ∃ g, s.bound = Bounds.ofReal lo hi g

theorem random_cv [F.Exact] {lo hi : Fin n → ℝ} (h : ∀ i, lo i ≤ hi i) (g : Pcg) :
    ∃ y g', (Bounds.ofReal (F := F) lo hi g).random = (cv y, Bounds.ofReal lo hi g') ∧ Inside lo hi y := by
  obtain ⟨c1, c2, c3⟩ := C34_random_inside (F := F) lo hi h g
  choose y hy using c2
  have hyc : (Bounds.ofReal (F := F) lo hi g).random.1 = cv y := funext fun i => (hy i).1
  refine ⟨y, _, Prod.ext hyc c3, ?_⟩
  rw [hyc] at c1
  exact (contains_cv lo hi y g).mp c1

/-- A random vector of real bounds is real, whatever the order of the bounds. -/
theorem random_real [F.Exact] (lo hi : Fin n → ℝ) (g : Pcg) :
    ∃ y g', (Bounds.ofReal (F := F) lo hi g).random = (cv y, Bounds.ofReal lo hi g') := by
  rw [random_eq]
  have e : ∀ i : Fin n, (Pcg.real01 (R := Fl F) (Pcg.advance^[i.1] g)).1 =
      fin (((Pcg.advance^[i.1] g).next.1.toNat : ℝ) / 2 ^ 32) := fun i => ldexp32_def _
  refine ⟨fun i => ((Pcg.advance^[i.1] g).next.1.toNat : ℝ) / 2 ^ 32 * (hi i - lo i) + lo i, _, Prod.ext ?_ rfl⟩
  funext i
  dsimp only
  rw [e, sub_fin, mul_fin, add_fin]
  rfl

theorem Robust.g [F.Exact] {f : Vec (Fl F) (n + 1) → Vec (Fl F) (n + 1) × Mat (Fl F) (n + 1) (n + 1)} (hf : Robust f)
    (x : Fin (n + 1) → ℝ) : ∃ γ : ℝ, squaredNorm (f (cv x)).1 / 2 = fin γ := by
  obtain ⟨v, J, e⟩ := hf.finite x
  refine ⟨(v ⬝ᵥ v) / 2, ?_⟩
  rw [e, cv_squaredNorm, ofNat_def, div_fin _ (by norm_num)]; norm_num

theorem NewtonN.advance_fine [F.Exact] {f : Vec (Fl F) (n + 1) → Vec (Fl F) (n + 1) × Mat (Fl F) (n + 1) (n + 1)}
    (hf : Robust f) {lo hi : Fin (n + 1) → ℝ} {s s' : NewtonN.State (Fl F) (n + 1)}
    (hs : NewtonN.Fine f lo hi s) (dw : Vec (Fl F) (n + 1)) (hdw : (∃ i, dw i = Fl.nan) ∨ ∃ w, dw = cv w)
    (h : NewtonN.advance f s dw = some s') : NewtonN.Fine f lo hi s' ∨ s'.v 0 = Fl.nan := by
  obtain ⟨x, h1, h2, h3, ⟨γ, h4⟩, g, h5⟩ := hs
  unfold NewtonN.advance at h
  dsimp only at h
  rcases hdw with ⟨i, hi'⟩ | ⟨w, rfl⟩
  · have hn : (s.guess + dw) i = Fl.nan := by
      show s.guess i + dw i = _
      rw [hi', add_nan]
    have h0 := hf.nan _ i hn
    rw [squaredNorm_nan _ 0 h0, nan_div] at h
    rw [show gt (Fl.nan : Fl F) s.g = false from lt_nan _] at h
    simp only [Bool.false_eq_true, if_false, Option.some.injEq] at h
    subst h
    exact Or.inr h0
  · rw [h1, cv_add] at h
    obtain ⟨γ1, hγ1⟩ := hf.g (x + w)
    obtain ⟨v, J, e⟩ := hf.finite x
    rw [e] at h2 h3
    dsimp only at h2 h3
    rw [hγ1, h4, h2, h3, h5] at h
    split at h
    · rename_i hgt
      have e1 : dot (Mat.mulVec (cm J) (cv w)) (cv v) = (fin ((J *ᵥ w) ⬝ᵥ v) : Fl F) := by rw [cm_mulVec, cv_dot]
      rw [e1] at h
      generalize (J *ᵥ w) ⬝ᵥ v = gp at h
      have e2 : (2 * (fin γ1 - fin γ - fin gp) : Fl F) = fin (2 * (γ1 - γ - gp)) := by
        rw [ofNat_def, sub_fin, sub_fin, mul_fin]; norm_num
      rw [e2, Fl.neg_fin] at h
      by_cases hden : 2 * (γ1 - γ - gp) = 0
      · -- the step length is infinite or NaN
        have hlam : Nonfinite (fin (-gp) / fin (2 * (γ1 - γ - gp)) : Fl F) := by
          rw [hden]; exact fin_div_zero_ne _
        generalize (fin (-gp) / fin (2 * (γ1 - γ - gp)) : Fl F) = lam at h hlam
        have hfar : ∀ i, Nonfinite ((cv x + lam •. cv w : Vec (Fl F) (n + 1)) i) := by
          intro i a
          show (fin (x i) + lam * fin (w i) : Fl F) ≠ fin a
          cases lam with
          | nan => simp
          | fin l => exact absurd rfl (hlam l)
          | pinf =>
            show (fin (x i) + Fl.pinf * fin (w i) : Fl F) ≠ fin a
            rw [pinf_mul_fin]
            split_ifs with hw
            · simp
            · rcases lt_or_gt_of_ne hw with hw | hw
              · rw [infOf_neg hw]; simp
              · rw [infOf_pos hw]; simp
          | ninf =>
            show (fin (x i) + Fl.ninf * fin (w i) : Fl F) ≠ fin a
            rw [ninf_mul_fin]
            split_ifs with hw
            · simp
            · rcases lt_or_gt_of_ne hw with hw | hw
              · rw [infOf_pos (by linarith)]; simp
              · rw [infOf_neg (by linarith)]; simp
        have h0 := hf.far _ hfar
        rw [squaredNorm_nan _ 0 h0, nan_div, show gt (Fl.nan : Fl F) (fin γ) = false from lt_nan _] at h
        simp only [Bool.false_eq_true, if_false, Option.some.injEq] at h
        subst h
        exact Or.inr h0
      · rw [div_fin _ hden, cv_smul, cv_add] at h
        generalize (-gp / (2 * (γ1 - γ - gp))) = lam at h
        obtain ⟨γ2, hγ2⟩ := hf.g (x + lam • w)
        rw [hγ2] at h
        obtain ⟨y, g', hr⟩ := random_real (F := F) lo hi g
        rw [hr] at h
        split_ifs at h
        · simp only [Option.some.injEq] at h
          subst h
          refine Or.inl ⟨y, rfl, rfl, rfl, ⟨(v ⬝ᵥ v) / 2, ?_⟩, g', rfl⟩
          simp only
          rw [cv_squaredNorm, ofNat_def, div_fin _ (by norm_num)]; norm_num
        · simp only [Option.some.injEq] at h
          subst h
          exact Or.inl ⟨_, rfl, rfl, rfl, ⟨γ2, rfl⟩, g, rfl⟩
    · simp only [Option.some.injEq] at h
      subst h
      exact Or.inl ⟨_, rfl, rfl, rfl, ⟨γ1, rfl⟩, g, rfl⟩

theorem min_cases (a b : Fl F) : Scalar.min a b = a ∨ Scalar.min a b = b := by
  unfold Scalar.min; split_ifs <;> simp

theorem lambdaMax_nonan [F.Exact] (lo hi x : Fin n → ℝ) (dw : Vec (Fl F) n) (g : Pcg) (hdw : ∀ i, dw i ≠ Fl.nan) :
    isNaN (NewtonN.lambdaMax (Bounds.ofReal (F := F) lo hi g) (cv x) dw (cv x + dw)) = false ∧
    ((∃ i, Nonfinite (dw i)) →
      Scalar.le (NewtonN.lambdaMax (Bounds.ofReal (F := F) lo hi g) (cv x) dw (cv x + dw)) (fin 0) = true) := by
  unfold NewtonN.lambdaMax
  dsimp only
  -- the candidate step lengths
  have cand : ∀ (c : ℝ) (i : Fin n), (fin (x i) + dw i : Fl F) ≠ fin c →
      isNaN ((fin c - fin (x i)) / dw i : Fl F) = false ∧
      (Nonfinite (dw i) → ((fin c - fin (x i)) / dw i : Fl F) = fin 0) := by
    intro c i hne
    rw [sub_fin]
    cases hd : dw i with
    | nan => exact absurd hd (hdw i)
    | pinf => exact ⟨by show isNaN (fin _ / Fl.pinf : Fl F) = _; simp, fun _ => fin_div_pinf _⟩
    | ninf => exact ⟨by show isNaN (fin _ / Fl.ninf : Fl F) = _; simp, fun _ => fin_div_ninf _⟩
    | fin w =>
      refine ⟨?_, fun h => absurd rfl (h w)⟩
      show isNaN (fin _ / fin w : Fl F) = _
      by_cases hw : w = 0
      · subst hw
        have : c - x i ≠ 0 := by
          intro h
          apply hne
          rw [hd]
          show (fin (x i) + fin 0 : Fl F) = fin c
          rw [add_fin, fin_inj]; linarith
        rcases fin_div_zero_cases (F := F) this with e | e <;> rw [e] <;> rfl
      · rw [div_fin _ hw]; rfl
  have minle : ∀ a b : Fl F, isNaN a = false → isNaN b = false →
      isNaN (Scalar.min a b) = false ∧ Scalar.le (Scalar.min a b) a = true ∧ Scalar.le (Scalar.min a b) b = true := by
    intro a b ha hb
    unfold Scalar.min
    split_ifs with h
    · exact ⟨hb, Fl.le_of_lt h, Fl.le_refl hb⟩
    · exact ⟨ha, Fl.le_refl ha, Fl.le_of_not_lt hb ha (by simpa using h)⟩
  have key := foldl_inv (P := fun m (a : Fl F) => isNaN a = false ∧
      ((∃ i : Fin n, i.1 < m ∧ Nonfinite (dw i)) → Scalar.le a (fin 0) = true))
    (fun l i =>
      if gt ((cv x + dw : Vec (Fl F) n) i) ((Bounds.ofReal (F := F) lo hi g).box i).2 then
        Scalar.min ((((Bounds.ofReal (F := F) lo hi g).box i).2 - (cv x : Vec (Fl F) n) i) / dw i)
          (if lt ((cv x + dw : Vec (Fl F) n) i) ((Bounds.ofReal (F := F) lo hi g).box i).1 then
            Scalar.min ((((Bounds.ofReal (F := F) lo hi g).box i).1 - (cv x : Vec (Fl F) n) i) / dw i) l
          else l)
      else if lt ((cv x + dw : Vec (Fl F) n) i) ((Bounds.ofReal (F := F) lo hi g).box i).1 then
            Scalar.min ((((Bounds.ofReal (F := F) lo hi g).box i).1 - (cv x : Vec (Fl F) n) i) / dw i) l
          else l) 1
    ⟨by rw [ofNat_one]; rfl, fun ⟨i, h, _⟩ => absurd h (Nat.not_lt_zero _)⟩ ?_
  · exact ⟨key.1, fun ⟨i, h⟩ => key.2 ⟨i, i.2, h⟩⟩
  · rintro i a ⟨ha, hle⟩
    have hb : (Bounds.ofReal (F := F) lo hi g).box i = (fin (lo i), fin (hi i)) := rfl
    have hxd : (cv x + dw : Vec (Fl F) n) i = fin (x i) + dw i := rfl
    rw [hb, hxd]
    simp only [cv_apply]
    -- the value after the first test
    have step : ∀ (p : Bool) (c : ℝ) (b : Fl F), isNaN b = false → (p = true → (fin (x i) + dw i : Fl F) ≠ fin c) →
        isNaN (if p then Scalar.min ((fin c - fin (x i)) / dw i) b else b) = false ∧
        Scalar.le (if p then Scalar.min ((fin c - fin (x i)) / dw i) b else b) b = true ∧
        (p = true → Nonfinite (dw i) →
          Scalar.le (if p then Scalar.min ((fin c - fin (x i)) / dw i) b else b) (fin 0) = true) := by
      intro p c b hb hp
      cases p with
      | false => exact ⟨hb, Fl.le_refl hb, fun h => absurd h Bool.false_ne_true⟩
      | true =>
        obtain ⟨k1, k2⟩ := cand c i (hp rfl)
        obtain ⟨m1, m2, m3⟩ := minle _ b k1 hb
        refine ⟨m1, m3, fun _ hn => ?_⟩
        rw [k2 hn] at m2 ⊢
        exact m2
    have ne1 : lt (fin (x i) + dw i : Fl F) (fin (lo i)) = true → (fin (x i) + dw i : Fl F) ≠ fin (lo i) := by
      intro h e; rw [e, Fl.lt_irrefl] at h; exact absurd h Bool.false_ne_true
    have ne2 : gt (fin (x i) + dw i : Fl F) (fin (hi i)) = true → (fin (x i) + dw i : Fl F) ≠ fin (hi i) := by
      intro h e; rw [e] at h; exact absurd ((Fl.lt_irrefl _).symm.trans h) Bool.false_ne_true
    obtain ⟨a1, a2, a3⟩ := step _ (lo i) a ha ne1
    obtain ⟨b1, b2, b3⟩ := step _ (hi i) _ a1 ne2
    refine ⟨b1, ?_⟩
    rintro ⟨k, hk, hn⟩
    rcases Nat.lt_succ_iff_lt_or_eq.mp hk with h | h
    · exact Fl.le_trans b2 (Fl.le_trans a2 (hle ⟨k, h, hn⟩))
    · have hki : k = i := Fin.ext h
      subst hki
      have hc : dw k = Fl.pinf ∨ dw k = Fl.ninf := by
        cases hd : dw k with
        | nan => exact absurd hd (hdw k)
        | fin w => exact absurd hd (hn w)
        | pinf => exact Or.inl rfl
        | ninf => exact Or.inr rfl
      rcases hc with hd | hd
      · exact b3 (by rw [hd]; exact fin_lt_pinf _) hn
      · exact Fl.le_trans b2 (a3 (by rw [hd]; exact ninf_lt_fin _) hn)

theorem NewtonN.body_fine [F.Exact] {solve : Mat (Fl F) (n + 1) (n + 1) → Vec (Fl F) (n + 1) → Option (Vec (Fl F) (n + 1))}
    {f : Vec (Fl F) (n + 1) → Vec (Fl F) (n + 1) × Mat (Fl F) (n + 1) (n + 1)}
    (hf : Robust f) {lo hi : Fin (n + 1) → ℝ} {s s' : NewtonN.State (Fl F) (n + 1)}
    (hs : NewtonN.Fine f lo hi s) (h : NewtonN.body solve f s = some (.inl s')) :
    NewtonN.Fine f lo hi s' ∨ s'.v 0 = Fl.nan := by
  obtain ⟨x, h1, h2, h3, h4, g, h5⟩ := hs
  unfold NewtonN.body at h
  dsimp only at h
  have hs0 : NewtonN.Fine f lo hi { s with bodies := s.bodies + 1 } := ⟨x, h1, h2, h3, h4, g, h5⟩
  cases hsol : solve s.J (-s.v) with
  | none => rw [hsol] at h; cases h
  | some dw =>
    rw [hsol] at h
    dsimp only at h
    by_cases hn : ∃ i, dw i = Fl.nan
    · -- a NaN step
      have sm : ∀ l : Fl F, ∃ i, (l •. dw) i = Fl.nan := fun l => by
        obtain ⟨i, hi'⟩ := hn
        exact ⟨i, by show l * dw i = _; rw [hi', mul_nan]⟩
      split at h
      · obtain ⟨s1, e1, e2⟩ := Option.map_eq_some_iff.mp h
        simp only [Sum.inl.injEq] at e2; subst e2
        exact NewtonN.advance_fine hf hs0 dw (Or.inl hn) e1
      · split at h
        · obtain ⟨y, g', hr⟩ := random_real (F := F) lo hi g
          rw [h5, hr] at h
          split_ifs at h
          · simp at h
          simp only [Option.some.injEq, Sum.inl.injEq] at h
          subst h
          exact Or.inl ⟨y, rfl, rfl, rfl, hf.g y, g', rfl⟩
        · split at h
          · obtain ⟨s1, e1, e2⟩ := Option.map_eq_some_iff.mp h
            simp only [Sum.inl.injEq] at e2; subst e2
            exact NewtonN.advance_fine hf hs0 _ (Or.inl (sm _)) e1
          · cases h
    · push Not at hn
      split at h
      · rename_i hc
        obtain ⟨s1, e1, e2⟩ := Option.map_eq_some_iff.mp h
        simp only [Sum.inl.injEq] at e2; subst e2
        refine NewtonN.advance_fine hf hs0 dw (Or.inr ?_) e1
        have : ∀ i, ∃ w : ℝ, dw i = fin w := by
          intro i
          rw [h5, h1] at hc
          unfold Bounds.contains at hc
          rw [List.all_eq_true] at hc
          have hi' := hc i (List.mem_finRange i)
          have hb : (Bounds.ofReal (F := F) lo hi g).box i = (fin (lo i), fin (hi i)) := rfl
          rw [hb, show (cv x + dw : Vec (Fl F) (n + 1)) i = fin (x i) + dw i from rfl] at hi'
          cases hd : dw i with
          | nan => exact absurd hd (hn i)
          | fin w => exact ⟨w, rfl⟩
          | pinf => rw [hd] at hi'; exact absurd hi' (by simp [show (fin (x i) + Ext.pinf : Fl F) = Fl.pinf from rfl, gt])
          | ninf => rw [hd] at hi'; exact absurd hi' (by simp [show (fin (x i) + Ext.ninf : Fl F) = Fl.ninf from rfl, gt])
        choose w hw using this
        exact ⟨w, funext hw⟩
      · obtain ⟨l1, l2⟩ := lambdaMax_nonan lo hi x dw g hn
        rw [h1, h5] at h
        generalize NewtonN.lambdaMax (Bounds.ofReal lo hi g) (cv x) dw (cv x + dw) = l at h l1 l2
        split at h
        · obtain ⟨y, g', hr⟩ := random_real (F := F) lo hi g
          rw [hr] at h
          split_ifs at h
          · simp at h
          simp only [Option.some.injEq, Sum.inl.injEq] at h
          subst h
          exact Or.inl ⟨y, rfl, rfl, rfl, hf.g y, g', rfl⟩
        · rename_i hl
          split at h
          · rename_i hl1
            obtain ⟨s1, e1, e2⟩ := Option.map_eq_some_iff.mp h
            simp only [Sum.inl.injEq] at e2; subst e2
            rw [lit_def] at hl
            rw [ofNat_one] at hl1
            refine NewtonN.advance_fine hf (s := ⟨cv x, s.v, s.J, s.g, s.expected, s.left, Bounds.ofReal lo hi g,
              s.bodies + 1, s.restarts⟩) ⟨x, rfl, h2, h3, h4, g, rfl⟩ _ (Or.inr ?_) e1
            have hfin : ∀ i, ∃ w : ℝ, dw i = fin w := by
              intro i
              by_contra hno
              push Not at hno
              have := l2 ⟨i, hno⟩
              exact hl (Fl.le_trans this (by rw [le_fin]; norm_num))
            choose w hw using hfin
            have hw' : dw = cv w := funext hw
            cases l with
            | nan => exact absurd l1 (by simp)
            | pinf => exact absurd hl1 (by simp)
            | ninf => exact absurd (ninf_le_fin _) hl
            | fin a => exact ⟨a • w, by rw [hw']; exact cv_smul a w⟩
          · cases h

/-- For every linear solver, bound, finite starting point and iteration limit: the vector returned by `newton` for a
robust function is finite or the NaN vector. -/
theorem newtonN_finite [F.Exact] (solve : Mat (Fl F) (n + 1) (n + 1) → Vec (Fl F) (n + 1) → Option (Vec (Fl F) (n + 1)))
    (f : Vec (Fl F) (n + 1) → Vec (Fl F) (n + 1) × Mat (Fl F) (n + 1) (n + 1)) (hf : Robust f) (lo hi : Fin (n + 1) → ℝ)
    (g : Pcg) (guess : Fin (n + 1) → ℝ) (maxIter : ℤ) (out : NewtonOut (Fl F) (n + 1))
    (h : newtonN solve f (Bounds.ofReal lo hi g) (cv guess) maxIter = some out) :
    out.x = Vec.nans ∨ ∃ x, out.x = cv x := by
  have fin1 : ∀ s, NewtonN.Fine f lo hi s → (NewtonN.finish s).x = Vec.nans ∨ ∃ x, (NewtonN.finish s).x = cv x := by
    rintro s ⟨x, h1, -⟩
    unfold NewtonN.finish
    split_ifs
    · exact Or.inr ⟨x, h1⟩
    · exact Or.inl rfl
  have fin2 : ∀ s : NewtonN.State (Fl F) (n + 1), s.v 0 = Fl.nan → (NewtonN.finish s).x = Vec.nans ∧
      gt (maxNorm s.v) s.expected = false := by
    intro s hs
    have hm := C05_nan_first_partial s.v hs
    unfold NewtonN.finish
    rw [hm, nan_le]
    exact ⟨rfl, lt_nan _⟩
  have key : ∀ k s, NewtonN.Fine f lo hi s → NewtonN.loop solve f k s = some out →
      out.x = Vec.nans ∨ ∃ x, out.x = cv x := by
    intro k
    induction k with
    | zero =>
      intro s hs h
      unfold NewtonN.loop at h
      rcases hb : NewtonN.body solve f s with _ | (s' | s') <;> rw [hb] at h
      · cases h
      · dsimp only at h
        rw [ite_self, Option.some.injEq] at h
        subst h
        rcases NewtonN.body_fine hf hs hb with h' | h'
        · exact fin1 _ h'
        · exact Or.inl (fin2 _ h').1
      · simp only [Option.some.injEq] at h
        subst h
        exact Or.inl rfl
    | succ k ih =>
      intro s hs h
      unfold NewtonN.loop at h
      rcases hb : NewtonN.body solve f s with _ | (s' | s') <;> rw [hb] at h
      · cases h
      · dsimp only at h
        rcases NewtonN.body_fine hf hs hb with h' | h'
        · split at h
          · exact ih _ h' h
          · rw [Option.some.injEq] at h
            subst h
            exact fin1 _ h'
        · rw [(fin2 _ h').2] at h
          simp only [Bool.false_eq_true, if_false, Option.some.injEq] at h
          subst h
          exact Or.inl (fin2 _ h').1
      · simp only [Option.some.injEq] at h
        subst h
        exact Or.inl rfl
  exact key _ _ ⟨guess, rfl, rfl, rfl, hf.g guess, g, rfl⟩ h

section
variable {R : Type} [Scalar R]

theorem Bounds.random_box' {n : ℕ} (b : Bounds R n) : b.random.2.box = b.box := by
  unfold Bounds.random
  generalize Fin.foldl n _ _ = w
  dsimp only

theorem NewtonN.advance_box {f : Vec R n → Vec R n × Mat R n n} {s s' : NewtonN.State R n} {dw : Vec R n}
    (h : NewtonN.advance f s dw = some s') : s'.bound.box = s.bound.box := by
  unfold NewtonN.advance at h
  dsimp only at h
  have hb := s.bound.random_box'
  generalize s.bound.random = r at h hb
  split_ifs at h <;> simp only [Option.some.injEq] at h <;> subst h <;> first | rfl | exact hb

theorem NewtonN.body_box {solve : Mat R n n → Vec R n → Option (Vec R n)} {f : Vec R n → Vec R n × Mat R n n}
    {s s' : NewtonN.State R n}
    (h : NewtonN.body solve f s = some (.inl s') ∨ NewtonN.body solve f s = some (.inr s')) :
    s'.bound.box = s.bound.box := by
  unfold NewtonN.body at h
  dsimp only at h
  have hb := s.bound.random_box'
  generalize s.bound.random = r at h hb
  cases hsol : solve s.J (-s.v) with
  | none => rw [hsol] at h; rcases h with h | h <;> cases h
  | some dw =>
    rw [hsol] at h
    dsimp only at h
    split_ifs at h <;> simp only [Option.some.injEq, Sum.inl.injEq, Sum.inr.injEq, reduceCtorEq, or_false, false_or,
      Option.map_eq_some_iff, and_false, exists_false] at h
    · obtain ⟨s1, e1, rfl⟩ := h; have := NewtonN.advance_box e1; exact this
    · subst h; exact hb
    · subst h; exact hb
    · obtain ⟨s1, e1, rfl⟩ := h; have := NewtonN.advance_box e1; exact this

/-- `newton` changes the generator inside the bounds and nothing else. -/
theorem newtonN_box (solve : Mat R (n + 1) (n + 1) → Vec R (n + 1) → Option (Vec R (n + 1)))
    (f : Vec R (n + 1) → Vec R (n + 1) × Mat R (n + 1) (n + 1)) (b : Bounds R (n + 1)) (guess : Vec R (n + 1))
    (maxIter : ℤ) (out : NewtonOut R (n + 1)) (h : newtonN solve f b guess maxIter = some out) :
    out.bound.box = b.box := by
  have fin : ∀ s : NewtonN.State R (n + 1), (NewtonN.finish s).bound = s.bound := by
    intro s; unfold NewtonN.finish; split_ifs <;> rfl
  have key : ∀ k s, NewtonN.loop solve f k s = some out → out.bound.box = s.bound.box := by
    intro k
    induction k with
    | zero =>
      intro s h
      unfold NewtonN.loop at h
      rcases hb : NewtonN.body solve f s with _ | (s' | s') <;> rw [hb] at h
      · cases h
      · dsimp only at h
        rw [ite_self, Option.some.injEq] at h
        subst h
        rw [fin]; exact NewtonN.body_box (Or.inl hb)
      · simp only [Option.some.injEq] at h
        subst h
        exact NewtonN.body_box (Or.inr hb)
    | succ k ih =>
      intro s h
      unfold NewtonN.loop at h
      rcases hb : NewtonN.body solve f s with _ | (s' | s') <;> rw [hb] at h
      · cases h
      · dsimp only at h
        split at h
        · rw [ih _ h]; exact NewtonN.body_box (Or.inl hb)
        · rw [Option.some.injEq] at h
          subst h
          rw [fin]; exact NewtonN.body_box (Or.inl hb)
      · simp only [Option.some.injEq] at h
        subst h
        exact NewtonN.body_box (Or.inr hb)
  exact key _ _ h

end

end DRT
