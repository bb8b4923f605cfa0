import Verif.Props.Ko

/-! # C115: Ko's method on planes, and its default starting point -/

namespace DRT
open Scalar Vec Fl Matrix

variable {F : Fmt}

/-- C115: called without starting values, `ko_method` behaves as if started in the middle of the parameter range. -/
theorem C115_default [F.Exact] (h : Ko.Patch (Fl F)) (r : Ray (Fl F)) (lo hi : Fin 3 → ℝ) (g : Pcg) (u v : ℝ) :
    koMethod h r (Bounds.ofReal lo hi g) Fl.nan Fl.nan =
      koMethod h r (Bounds.ofReal lo hi g) (fin ((lo 0 + hi 0) / 2)) (fin ((lo 1 + hi 1) / 2)) ∧
    koMethod h r (Bounds.ofReal lo hi g) (fin u) Fl.nan =
      koMethod h r (Bounds.ofReal lo hi g) (fin u) (fin ((lo 1 + hi 1) / 2)) ∧
    koMethod h r (Bounds.ofReal lo hi g) Fl.nan (fin v) =
      koMethod h r (Bounds.ofReal lo hi g) (fin ((lo 0 + hi 0) / 2)) (fin v) := by
  have mid : ∀ i, ((((Bounds.ofReal (F := F) lo hi g).box i).1 + ((Bounds.ofReal (F := F) lo hi g).box i).2) / 2 : Fl F) =
      fin ((lo i + hi i) / 2) := fun i => by
    show ((fin (lo i) + fin (hi i)) / 2 : Fl F) = _
    rw [add_fin, ofNat_def, div_fin _ (by norm_num)]; norm_num
  unfold koMethod
  simp only [mid, isNaN_fin, isNaN_nan, if_true, Bool.false_eq_true, if_false, and_self]

/-- A vector orthogonal to two vectors and to their cross product is zero, if the cross product is not. -/
theorem orthogonal_zero {a b r : Fin 3 → ℝ} (h1 : r ⬝ᵥ a = 0) (h2 : r ⬝ᵥ b = 0) (h3 : r ⬝ᵥ (a ⨯₃ b) = 0)
    (hN : (a ⨯₃ b) ⬝ᵥ (a ⨯₃ b) ≠ 0) : r = 0 := by
  have e1 : r ⨯₃ (a ⨯₃ b) = 0 := by
    rw [cross_cross_eq_smul_sub_smul', h2, dotProduct_comm a r, h1, zero_smul, zero_smul, sub_zero]
  have e2 := cross_dot_cross r (a ⨯₃ b) r (a ⨯₃ b)
  rw [e1, h3, dotProduct_zero, zero_mul, sub_zero] at e2
  rcases mul_eq_zero.mp e2.symm with h | h
  · exact dotProduct_self_eq_zero.mp h
  · exact absurd h hN

theorem normalize_cv [F.Exact] {x : Fin 3 → ℝ} (hx : 0 < x ⬝ᵥ x) :
    Vec.normalize (cv x : Vec (Fl F) 3) = cv ((Real.sqrt (x ⬝ᵥ x))⁻¹ • x) := by
  have hs : Real.sqrt (x ⬝ᵥ x) ≠ 0 := (Real.sqrt_pos.mpr hx).ne'
  unfold Vec.normalize
  funext i
  rw [cv_norm, cv_apply, div_fin _ hs, cv_apply, Pi.smul_apply, smul_eq_mul, div_eq_inv_mul]

theorem form_zero [F.Exact] (H : Tensor (Fl F) 3 2 2) (hH : ∀ i j k, i < 3 → j < 2 → k < 2 → H.get i j k = some (fin 0))
    (n : Fin 3 → ℝ) {j k : ℕ} (hj : j < 2) (hk : k < 2) : Ko.form H (cv n) j k = some (fin 0) := by
  unfold Ko.form
  rw [hH 0 j k (by omega) hj hk, hH 1 j k (by omega) hj hk, hH 2 j k (by omega) hj hk]
  simp [fl]

/-- C115: on a plane `p + u a + v b` with vanishing second derivatives, `ko_method` finds the exact intersection with the ray in the
second loop body, from every starting point that is not yet accepted and for which the plane through it and the ray makes an angle
above `eps` with the surface. Outside the range of the ray parameter the result is NaN. -/
theorem C115_plane [F.Exact] (h : Ko.Patch (Fl F)) (p a b o d : Fin 3 → ℝ) (H : Tensor (Fl F) 3 2 2) (J : Mat (Fl F) 3 3)
    (hP : ∀ u v : ℝ, h (fin u) (fin v) = (cv (p + u • a + v • b), J, H)) (hJa : Mat.column J 0 = cv a)
    (hJb : Mat.column J 1 = cv b) (hH : ∀ i j k, i < 3 → j < 2 → k < 2 → H.get i j k = some (fin 0))
    (hN : F.eps ^ 2 ≤ (a ⨯₃ b) ⬝ᵥ (a ⨯₃ b)) (hNt : F.tiny < (a ⨯₃ b) ⬝ᵥ (a ⨯₃ b)) (hd : d ⬝ᵥ (a ⨯₃ b) ≠ 0)
    (u v : ℝ) (m : Fin 3 → ℝ) (hm : m = (p + u • a + v • b - o) ⨯₃ d) (hfar : 4 * F.eps ^ 2 ≤ m ⬝ᵥ m)
    (htan : F.eps ^ 2 * ((m ⬝ᵥ m) * ((a ⨯₃ b) ⬝ᵥ (a ⨯₃ b))) ≤ (m ⨯₃ (a ⨯₃ b)) ⬝ᵥ (m ⨯₃ (a ⨯₃ b)))
    (lo hi : Fin 3 → ℝ) (g : Pcg) (t : ℝ) (ht : t = ((p - o) ⬝ᵥ (a ⨯₃ b)) / (d ⬝ᵥ (a ⨯₃ b))) :
    ∃ u' v' out, p + u' • a + v' • b = o + t • d ∧
      koMethod h ⟨cv o, cv d⟩ (Bounds.ofReal lo hi g) (fin u) (fin v) =
        some (if lo 2 ≤ t ∧ t ≤ hi 2 then ![fin u', fin v', fin t] else Vec.nans, out) ∧ out.bodies = 2 ∧
      out.randomizations = 0 := by
  have he : 0 < F.eps := Fmt.Exact.eps_pos
  obtain ⟨N, hNdef⟩ : ∃ N, N = a ⨯₃ b := ⟨_, rfl⟩
  obtain ⟨P, hPdef⟩ : ∃ P, P = p + u • a + v • b := ⟨_, rfl⟩
  rw [← hNdef] at hN hNt hd htan ht
  rw [← hPdef] at hm
  have hNpos : 0 < N ⬝ᵥ N := lt_of_lt_of_le (by positivity) hN
  have hmpos : 0 < m ⬝ᵥ m := lt_of_lt_of_le (by positivity) hfar
  have aN : a ⬝ᵥ N = 0 := by rw [hNdef]; exact dot_self_cross a b
  have bN : b ⬝ᵥ N = 0 := by rw [hNdef]; exact dot_cross_self a b
  have htP : (P - o) ⬝ᵥ N = (p - o) ⬝ᵥ N := by
    rw [hPdef]
    simp only [sub_dotProduct, add_dotProduct, smul_dotProduct, aN, bN, smul_zero, add_zero]
  have hdd : d ⬝ᵥ d ≠ 0 := fun h0 => hd (by rw [dotProduct_self_eq_zero.mp h0, zero_dotProduct])
  -- the Gram matrix
  set G : Matrix (Fin 2) (Fin 2) ℝ := !![a ⬝ᵥ a, a ⬝ᵥ b; a ⬝ᵥ b, b ⬝ᵥ b] with hG
  have hdet : G.det = N ⬝ᵥ N := by
    rw [det_fin_two, hNdef, cross_dot_cross, dotProduct_comm b a]
    simp [hG]
  have hGm : (![![dot (cv a) (cv a), dot (cv a) (cv b)], ![dot (cv a) (cv b), dot (cv b) (cv b)]] : Mat (Fl F) 2 2) = cm G := by
    funext i j; fin_cases i <;> fin_cases j <;> simp [cv_dot, cm, hG]
  obtain ⟨K, hK, hGK⟩ : ∃ K : Matrix (Fin 2) (Fin 2) ℝ, Mat.inverseVal2 (cm G : Mat (Fl F) 2 2) = some (cm K) ∧ G * K = 1 := by
    obtain ⟨i1, i2, -⟩ := C07_inverse2 (F := F) G (fun _ _ => (Scalar.nan : Fl F))
    have hs := i1.mpr (by rw [hdet, abs_of_pos hNpos]; exact hNt)
    obtain ⟨K, k1, k2, -⟩ := i2 hs
    refine ⟨K, ?_, k2⟩
    unfold Mat.inverseVal2
    rcases hh : Mat.inverse2 (cm G) (fun _ _ => (Scalar.nan : Fl F)) with ⟨b, x⟩
    rw [hh] at hs k1
    dsimp only at hs k1
    subst hs; subst k1
    rfl
  -- the step
  set q := o + t • d - P with hq
  have qN : q ⬝ᵥ N = 0 := by
    have h1 : q = t • d - (P - o) := by rw [hq]; abel
    rw [h1, sub_dotProduct, htP, smul_dotProduct, smul_eq_mul, ht, div_mul_cancel₀ _ hd, sub_self]
  set w := K *ᵥ ![q ⬝ᵥ a, q ⬝ᵥ b] with hw
  have hGw : G *ᵥ w = ![q ⬝ᵥ a, q ⬝ᵥ b] := by rw [hw, mulVec_mulVec, hGK, one_mulVec]
  have hw0 : a ⬝ᵥ a * w 0 + a ⬝ᵥ b * w 1 = q ⬝ᵥ a := by
    have := congrFun hGw 0
    simpa [mulVec, dotProduct, Fin.sum_univ_two, hG] using this
  have hw1 : a ⬝ᵥ b * w 0 + b ⬝ᵥ b * w 1 = q ⬝ᵥ b := by
    have := congrFun hGw 1
    simpa [mulVec, dotProduct, Fin.sum_univ_two, hG] using this
  have hqw : q - w 0 • a - w 1 • b = 0 := by
    refine orthogonal_zero (a := a) (b := b) ?_ ?_ ?_ (by rw [← hNdef]; exact hNpos.ne')
    · simp only [sub_dotProduct, smul_dotProduct, smul_eq_mul, dotProduct_comm b a]; linarith
    · simp only [sub_dotProduct, smul_dotProduct, smul_eq_mul]; linarith
    · rw [← hNdef]; simp only [sub_dotProduct, smul_dotProduct, smul_eq_mul, aN, bN, qN]; ring
  have hland : p + (u + w 0) • a + (v + w 1) • b = o + t • d := by
    have : o + t • d = P + q := by rw [hq]; abel
    rw [this, hPdef, add_smul, add_smul]
    have hq' : q = w 0 • a + w 1 • b := by rw [sub_sub, sub_eq_zero] at hqw; exact hqw
    rw [hq']; abel
  refine ⟨u + w 0, v + w 1, ⟨fin (u + w 0), fin (v + w 1), 0, 2, Bounds.ofReal lo hi g⟩, hland, ?_, rfl, rfl⟩
  have nc : Ko.converged (cv P : Vec (Fl F) 3) (cv o) (cv d) = false := by
    unfold Ko.converged
    rw [cv_sub, cv_cross, ← hm, cv_squaredNorm, ofNat_def, eps_def, Fl.mul_fin, Fl.mul_fin, lt_fin, decide_eq_false_iff_not, not_lt]
    push_cast
    nlinarith
  -- the unit vectors
  set mh := (Real.sqrt (m ⬝ᵥ m))⁻¹ • m with hmh
  set nh := (Real.sqrt (N ⬝ᵥ N))⁻¹ • N with hnh
  have hT : mh ⨯₃ nh = ((Real.sqrt (m ⬝ᵥ m))⁻¹ * (Real.sqrt (N ⬝ᵥ N))⁻¹) • (m ⨯₃ N) := by
    rw [hmh, hnh, map_smul, map_smul, LinearMap.smul_apply, smul_smul, mul_comm]
  have hTT : F.eps ^ 2 ≤ (mh ⨯₃ nh) ⬝ᵥ (mh ⨯₃ nh) := by
    rw [hT, smul_dotProduct, dotProduct_smul, smul_eq_mul, smul_eq_mul]
    have s1 := Real.mul_self_sqrt hmpos.le
    have s2 := Real.mul_self_sqrt hNpos.le
    have e : (Real.sqrt (m ⬝ᵥ m))⁻¹ * (Real.sqrt (N ⬝ᵥ N))⁻¹ * ((Real.sqrt (m ⬝ᵥ m))⁻¹ * (Real.sqrt (N ⬝ᵥ N))⁻¹ *
        ((m ⨯₃ N) ⬝ᵥ (m ⨯₃ N))) = ((m ⨯₃ N) ⬝ᵥ (m ⨯₃ N)) / ((m ⬝ᵥ m) * (N ⬝ᵥ N)) := by
      calc _ = ((m ⨯₃ N) ⬝ᵥ (m ⨯₃ N)) / ((Real.sqrt (m ⬝ᵥ m) * Real.sqrt (m ⬝ᵥ m)) * (Real.sqrt (N ⬝ᵥ N) * Real.sqrt (N ⬝ᵥ N))) := by
            rw [div_eq_mul_inv, mul_inv, mul_inv, mul_inv]; ring
        _ = _ := by rw [s1, s2]
    rw [e, le_div_iff₀ (mul_pos hmpos hNpos)]
    exact htan
  have hTpos : 0 < (mh ⨯₃ nh) ⬝ᵥ (mh ⨯₃ nh) := lt_of_lt_of_le (by positivity) hTT
  have big : ∀ x : Fin 3 → ℝ, F.eps ^ 2 ≤ x ⬝ᵥ x → lt (squaredNorm (cv x : Vec (Fl F) 3)) (eps * eps) = false := by
    intro x hx
    rw [cv_squaredNorm, eps_def, Fl.mul_fin, lt_fin, decide_eq_false_iff_not, not_lt, ← sq]
    exact hx
  have hs : (Real.sqrt (N ⬝ᵥ N))⁻¹ ≠ 0 := inv_ne_zero (Real.sqrt_pos.mpr hNpos).ne'
  have dn : d ⬝ᵥ nh ≠ 0 := by rw [hnh, dotProduct_smul, smul_eq_mul]; exact mul_ne_zero hs hd
  have tq : (P - o) ⬝ᵥ nh / (d ⬝ᵥ nh) = t := by
    rw [hnh, dotProduct_smul, dotProduct_smul, smul_eq_mul, smul_eq_mul, mul_div_mul_left _ _ hs, htP, ht]
  have st : Ko.step h (cv o) (cv d) ⟨fin u, fin v, 0, 1, Bounds.ofReal lo hi g⟩ =
      some (.inl ⟨fin (u + w 0), fin (v + w 1), 0, 1, Bounds.ofReal lo hi g⟩) := by
    have mv : ∀ x y : ℝ, Mat.mulVec (cm K) (![fin x, fin y] : Vec (Fl F) 2) = cv (K *ᵥ ![x, y]) := fun x y => by
      rw [cv_vec2, cm_mulVec]
    unfold Ko.step
    have c1 : cross ((cv P : Vec (Fl F) 3) - cv o) (cv d) = cv m := by rw [cv_sub, cv_cross, ← hm]
    have c2 : cross (cv a : Vec (Fl F) 3) (cv b) = cv N := by rw [cv_cross, ← hNdef]
    have n1 : Vec.normalize (cv m : Vec (Fl F) 3) = cv mh := normalize_cv hmpos
    have n2 : Vec.normalize (cv N : Vec (Fl F) 3) = cv nh := normalize_cv hNpos
    have c3 : cross (cv mh : Vec (Fl F) 3) (cv nh) = cv (mh ⨯₃ nh) := cv_cross _ _
    simp only [hP, ← hPdef, hJa, hJb, hGm, hK, Option.bind_eq_bind, Option.bind_some, c1, c2, n1, n2, c3, normalize_cv hTpos,
      big _ hN, big _ hTT]
    simp only [cv_sub, Bool.false_eq_true, if_false, form_zero H hH nh (show 0 < 2 by omega) (show 0 < 2 by omega),
      form_zero H hH nh (show 0 < 2 by omega) (show 1 < 2 by omega),
      form_zero H hH nh (show 1 < 2 by omega) (show 1 < 2 by omega), Option.bind_some, cv_dot, mv, cv_apply]
    rw [if_pos (by
      simp only [ofNat_def, Fl.mul_fin, add_fin, zero_mul, mul_zero, add_zero, abs_fin, abs_zero, eps_def, lt_fin, decide_eq_true_eq]
      positivity)]
    rw [div_fin _ dn, tq, cv_smul, cv_add, cv_sub, ← hq, cv_dot, cv_dot, mv, ← hw]
    simp only [cv_apply, add_fin]
    rfl
  have cc : Ko.converged (cv (o + t • d) : Vec (Fl F) 3) (cv o) (cv d) = true := by
    unfold Ko.converged
    rw [cv_sub, add_sub_cancel_left, cv_cross, cv_squaredNorm, ofNat_def, eps_def, Fl.mul_fin, Fl.mul_fin, lt_fin, decide_eq_true_eq,
      map_smul, LinearMap.smul_apply, cross_self, smul_zero, dotProduct_zero]
    push_cast
    positivity
  have res : Ko.result (cv (o + t • d) : Vec (Fl F) 3) (cv o) (cv d) (fin (u + w 0)) (fin (v + w 1)) (Bounds.ofReal lo hi g) =
      if lo 2 ≤ t ∧ t ≤ hi 2 then ![fin (u + w 0), fin (v + w 1), fin t] else Vec.nans := by
    unfold Ko.result
    dsimp only
    rw [cv_sub, add_sub_cancel_left, cv_dot, cv_dot, div_fin _ hdd, smul_dotProduct, smul_eq_mul, mul_div_cancel_right₀ _ hdd]
    show (if (lt (fin t) (fin (lo 2)) || gt (fin t) (fin (hi 2)) : Bool) = true then _ else _) = _
    simp only [Scalar.gt, lt_fin, Bool.or_eq_true, decide_eq_true_eq]
    by_cases hr : lo 2 ≤ t ∧ t ≤ hi 2
    · rw [if_pos hr, if_neg (by push Not; exact hr)]
    · rw [if_neg hr, if_pos (by rw [not_and_or, not_le, not_le] at hr; exact hr)]
  unfold koMethod Ko.loop
  simp only [isNaN_fin, Bool.false_eq_true, if_false, hP, ← hPdef, nc, Nat.zero_add, st]
  unfold Ko.loop
  simp only [hP, hland, cc, if_true, res]

/-- The hypotheses are met by the plane `z = 0`, a slanted ray from `(0, 0, 1)` and the start `(3, 0)`: the intersection `(1, 2)` has
the ray parameter 1. -/
example (g : Pcg) : ∃ u' v' out, (![0, 0, 0] + u' • ![1, 0, 0] + v' • ![0, 1, 0] : Fin 3 → ℝ) = ![0, 0, 1] + (1 : ℝ) • ![1, 2, -1] ∧
      koMethod (R := Fl exact64) Ko.flat ⟨cv ![0, 0, 1], cv ![1, 2, -1]⟩ (Bounds.ofReal ![-2, -2, 0] ![2, 2, 5] g) (fin 3) (fin 0) =
        some (if (![-2, -2, 0] : Fin 3 → ℝ) 2 ≤ 1 ∧ 1 ≤ (![2, 2, 5] : Fin 3 → ℝ) 2 then ![fin u', fin v', fin 1] else Vec.nans, out) ∧
      out.bodies = 2 ∧ out.randomizations = 0 := by
  have he : exact64.eps ^ 2 < 1 / 100 := by simp only [exact64]; norm_num
  have ht : exact64.tiny < 1 := Fmt.Exact.tiny_lt
  have hN : (![1, 0, 0] ⨯₃ ![0, 1, 0] : Fin 3 → ℝ) = ![0, 0, 1] := by ext i; fin_cases i <;> simp [cross_apply]
  have hm : ((![0, 0, 0] + (3 : ℝ) • ![1, 0, 0] + (0 : ℝ) • ![0, 1, 0] - ![0, 0, 1]) ⨯₃ ![1, 2, -1] : Fin 3 → ℝ) = ![2, 2, 6] := by
    ext i; fin_cases i <;> simp [cross_apply] <;> norm_num
  refine C115_plane (F := exact64) Ko.flat ![0, 0, 0] ![1, 0, 0] ![0, 1, 0] ![0, 0, 1] ![1, 2, -1] ⟨List.replicate 12 (fin 0), rfl⟩
    (cm !![1, 0, 0; 0, 1, 0; 0, 0, 0]) (fun u v => ?_) ?_ ?_ ?_ ?_ ?_ ?_ 3 0 ![2, 2, 6] hm.symm ?_ ?_ _ _ g 1 ?_
  · refine Prod.ext ?_ rfl
    show ![fin u, fin v, fin 0] = _
    rw [cv_vec3, cv_inj]
    ext i; fin_cases i <;> simp
  · funext i; fin_cases i <;> rfl
  · funext i; fin_cases i <;> rfl
  · intro i j k hi hj hk
    unfold Tensor.get
    rw [List.getElem?_replicate, if_pos (by omega)]
  · rw [hN, show (![0, 0, 1] : Fin 3 → ℝ) ⬝ᵥ ![0, 0, 1] = 1 by simp [dotProduct, Fin.sum_univ_three]]; linarith
  · rw [hN]; simpa [dotProduct, Fin.sum_univ_three] using ht
  · rw [hN]; simp [dotProduct, Fin.sum_univ_three]
  · rw [show (![2, 2, 6] : Fin 3 → ℝ) ⬝ᵥ ![2, 2, 6] = 44 by simp [dotProduct, Fin.sum_univ_three]; norm_num]; linarith
  · have hc : (![2, 2, 6] ⨯₃ ![0, 0, 1] : Fin 3 → ℝ) = ![2, -2, 0] := by ext i; fin_cases i <;> simp [cross_apply]
    rw [hN, hc, show (![2, 2, 6] : Fin 3 → ℝ) ⬝ᵥ ![2, 2, 6] = 44 by simp [dotProduct, Fin.sum_univ_three]; norm_num,
      show (![0, 0, 1] : Fin 3 → ℝ) ⬝ᵥ ![0, 0, 1] = 1 by simp [dotProduct, Fin.sum_univ_three],
      show (![2, -2, 0] : Fin 3 → ℝ) ⬝ᵥ ![2, -2, 0] = 8 by simp [dotProduct, Fin.sum_univ_three]; norm_num]
    linarith
  · rw [hN]; simp [dotProduct, Fin.sum_univ_three]

end DRT
