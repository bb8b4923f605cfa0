import Verif.Props.Medium
import Verif.Props.Ellipsoid
import Verif.Props.Acne

/-!
# C127: fog is seen from afar

`constant_medium::hit` (constant_medium.hpp:41-75) looks for the second crossing of the boundary from `rec1.t + 100*eps` on. In floating point this
sum is `rec1.t` again as soon as `rec1.t` is at least 256, in every IEEE format. The first crossing is then found twice, and the medium does not scatter.
-/

namespace DRT
open Scalar Fl

variable {F : Fmt}

/-! ## Rounding -/

section
variable {p : ℕ} {emin emax : ℤ}

/-- Rounding twice is rounding once. -/
theorem roundPos_idem (hp : 1 ≤ p) {x : ℝ} (hx : 0 ≤ x) : roundPos p emin (roundPos p emin x) = roundPos p emin x := by
  have hm0 : 0 ≤ roundEven (x / 2 ^ lastPlace p emin x) := by
    have h1 := roundEven_mono (div_nonneg hx (two_zpow_pos (lastPlace p emin x)).le)
    have h0 := roundEven_int 0
    simp at h0
    rwa [h0] at h1
  have hlp : emin - ((p : ℤ) - 1) ≤ lastPlace p emin x := by
    unfold lastPlace; have := le_max_right (Int.log 2 x) emin; omega
  have hm1 : roundEven (x / 2 ^ lastPlace p emin x) ≤ 2 ^ p := by
    have h2 : x < 2 ^ (Int.log 2 x + 1) := by exact_mod_cast Int.lt_zpow_succ_log_self (b := 2) (by norm_num) x
    have h5 : (2 : ℝ) ^ (Int.log 2 x + 1) ≤ 2 ^ ((p : ℤ) + lastPlace p emin x) := by
      refine zpow_le_zpow_right₀ (by norm_num) ?_
      unfold lastPlace; have := le_max_left (Int.log 2 x) emin; omega
    have h3 : x / 2 ^ lastPlace p emin x ≤ ((2 ^ p : ℤ) : ℝ) := by
      rw [div_le_iff₀ (two_zpow_pos _)]
      refine h2.le.trans (h5.trans_eq ?_)
      push_cast
      rw [zpow_add₀ (by norm_num), zpow_natCast]
    have h4 := roundEven_mono h3
    rwa [roundEven_int] at h4
  obtain ⟨m, hm⟩ := Int.eq_ofNat_of_zero_le hm0
  have e : roundPos p emin x = (m : ℝ) * 2 ^ lastPlace p emin x := by
    unfold roundPos; rw [hm]; norm_cast
  rw [hm] at hm1
  rw [e]
  have hm1' : m ≤ 2 ^ p := by exact_mod_cast hm1
  rcases hm1'.lt_or_eq with h | h
  · exact roundPos_rep h hlp
  · have e : (m : ℝ) * 2 ^ lastPlace p emin x = 2 ^ ((p : ℤ) + lastPlace p emin x) := by
      rw [h]; push_cast
      rw [zpow_add₀ (by norm_num), zpow_natCast]
    rw [e]
    exact roundPos_pow hp (by omega)

theorem ieee_idem (hp : 1 ≤ p) {x y : ℝ} (h : rnd (ieee p emin emax) x = fin y) : rnd (ieee p emin emax) y = fin y := by
  rcases lt_or_ge x 0 with hx | hx
  · rw [ieee_round_neg hx] at h
    split_ifs at h with hc
    · rw [fin_inj] at h
      have hn := roundPos_nonneg (p := p) (emin := emin) (by linarith : 0 ≤ -x)
      have hi := roundPos_idem (emin := emin) hp (by linarith : 0 ≤ -x)
      rcases hn.eq_or_lt with h0 | h0
      · have : y = 0 := by linarith
        rw [this, ieee_round_nonneg (le_refl _), roundPos_zero, if_pos (two_zpow_pos _)]
      · rw [ieee_round_neg (by linarith), show -y = roundPos p emin (-x) by linarith, hi, if_pos hc, h]
    · cases h
  · rw [ieee_round_nonneg hx] at h
    split_ifs at h with hc
    · rw [fin_inj] at h
      have hn := roundPos_nonneg (p := p) (emin := emin) hx
      rw [← h, ieee_round_nonneg hn, roundPos_idem hp hx, if_pos hc]
    · cases h

/-- From 256 on, `100*eps` is less than half a unit in the last place. -/
theorem roundPos_absorb (hp : 9 ≤ p) (h0 : emin ≤ 0) {e : ℝ} (he : 256 ≤ e) (hr : roundPos p emin e = e) :
    roundPos p emin (e + 100 * 2 ^ (1 - (p : ℤ))) = e := by
  have hpos : 0 < e := by linarith
  obtain ⟨m, hm, hme⟩ := roundPos_fixed hpos hr
  set L := Int.log 2 e with hL
  have hL8 : 8 ≤ L := by
    rw [hL, ← Int.zpow_le_iff_le_log (by norm_num) hpos]
    norm_num; exact he
  have hlp : lastPlace p emin e = L - (p - 1) := by
    unfold lastPlace; rw [← hL, max_eq_left (by omega)]
  rw [hlp] at hme
  set u : ℝ := 2 ^ (L - ((p : ℤ) - 1)) with hu
  have hu0 : 0 < u := two_zpow_pos _
  have hd : (100 : ℝ) * 2 ^ (1 - (p : ℤ)) ≤ 100 / 256 * u := by
    have : (2 : ℝ) ^ (1 - (p : ℤ)) * 256 ≤ u := by
      have h256 : (256 : ℝ) = 2 ^ (8 : ℤ) := by norm_num
      rw [h256, ← zpow_add₀ (by norm_num), hu]
      exact zpow_le_zpow_right₀ (by norm_num) (by omega)
    linarith
  have hd0 : (0 : ℝ) < 100 * 2 ^ (1 - (p : ℤ)) := mul_pos (by norm_num) (two_zpow_pos _)
  have hlow : (2 : ℝ) ^ L ≤ e := by
    rw [hL]; exact_mod_cast Int.zpow_log_le_self (b := 2) (by norm_num) hpos
  have htop : (2 : ℝ) ^ (L + 1) = 2 ^ p * u := by
    rw [hu, ← zpow_natCast, ← zpow_add₀ (by norm_num)]
    congr 1; ring
  have hsum : e + 100 * 2 ^ (1 - (p : ℤ)) < 2 ^ (L + 1) := by
    rw [htop]
    have : (m : ℝ) + 1 ≤ 2 ^ p := by exact_mod_cast hm
    have h1 : ((m : ℝ) + 1) * u ≤ 2 ^ p * u := mul_le_mul_of_nonneg_right this hu0.le
    rw [add_mul, ← hme, one_mul] at h1
    linarith
  have hlog : Int.log 2 (e + 100 * 2 ^ (1 - (p : ℤ))) = L := by
    have hp' : 0 < e + 100 * 2 ^ (1 - (p : ℤ)) := by linarith
    apply le_antisymm
    · rw [← Int.lt_add_one_iff, ← Int.lt_zpow_iff_log_lt (by norm_num) hp']; exact_mod_cast hsum
    · rw [← Int.zpow_le_iff_le_log (by norm_num) hp']; push_cast; linarith
  have hlp' : lastPlace p emin (e + 100 * 2 ^ (1 - (p : ℤ))) = L - (p - 1) := by
    unfold lastPlace; rw [hlog, max_eq_left (by omega)]
  unfold roundPos
  rw [hlp', ← hu]
  have : roundEven ((e + 100 * 2 ^ (1 - (p : ℤ))) / u) = (m : ℤ) := by
    apply roundEven_eq
    have e1 : (e + 100 * 2 ^ (1 - (p : ℤ))) / u - ((m : ℤ) : ℝ) = 100 * 2 ^ (1 - (p : ℤ)) / u := by
      have : e / u = m := by rw [div_eq_iff hu0.ne']; exact hme
      rw [add_div, this]; push_cast; ring
    rw [e1, abs_of_pos (div_pos hd0 hu0), div_lt_iff₀ hu0]
    linarith
  rw [this]
  exact_mod_cast hme.symm

/-- Adding `100*eps` to a number of the format that is at least 256 does not change it. -/
theorem absorb (hp : 9 ≤ p) (h0 : emin ≤ 0) (h9 : 9 ≤ emax) {e : ℝ} (he : 256 ≤ e) (hr : rnd (ieee p emin emax) e = fin e) :
    (fin e : Fl (ieee p emin emax)) + 100 * eps = fin e := by
  have hR := ieee_rounding hp h0 h9
  have h100 : (100 : Fl (ieee p emin emax)) = fin 100 := by
    rw [lit_small 100 (by norm_num)]; norm_num
  have hb : ((100 : ℕ) : ℝ) * 2 ^ (1 - (p : ℤ)) < 2 ^ (emax + 1) := by
    have h1 : (2 : ℝ) ^ (1 - (p : ℤ)) ≤ 2 ^ (-8 : ℤ) := zpow_le_zpow_right₀ (by norm_num) (by omega)
    have h2 : (2 : ℝ) ^ (0 : ℤ) ≤ 2 ^ (emax + 1) := zpow_le_zpow_right₀ (by norm_num) (by omega)
    rw [show (2 : ℝ) ^ (-8 : ℤ) = 1 / 256 by norm_num] at h1
    rw [zpow_zero] at h2
    push_cast
    linarith
  have hm : (100 : Fl (ieee p emin emax)) * eps = fin (100 * 2 ^ (1 - (p : ℤ))) := by
    rw [h100, eps_def]
    show rnd (ieee p emin emax) (100 * 2 ^ (1 - (p : ℤ))) = _
    have : (100 : ℕ) < 2 ^ p := lt_of_lt_of_le (by norm_num : 100 < 2 ^ 9) (Nat.pow_le_pow_right (by norm_num) hp)
    have := ieee_rep (p := p) (emin := emin) (emax := emax) this (k := 1 - (p : ℤ)) (by omega) hb
    exact_mod_cast this
  rw [hm]
  show rnd (ieee p emin emax) (e + 100 * 2 ^ (1 - (p : ℤ))) = _
  have hd0 : (0 : ℝ) < 100 * 2 ^ (1 - (p : ℤ)) := mul_pos (by norm_num) (two_zpow_pos _)
  rw [ieee_round_nonneg (by linarith)] at hr ⊢
  split_ifs at hr with hc
  · rw [fin_inj] at hr
    rw [roundPos_absorb hp h0 he hr, if_pos (by rwa [hr] at hc)]
  · cases hr

end

/-! ## Boundaries given by a quadratic equation -/

theorem div_eq_fin {x y : Fl F} {z : ℝ} (h : x / y = fin z) : z = 0 ∨ ∃ w : ℝ, rnd F w = fin z := by
  change Fl.div x y = fin z at h
  cases x with
  | nan => cases h
  | ninf => cases y with
    | nan => cases h
    | ninf => cases h
    | fin b =>
      change (if b = 0 then (if F.zdiv (-1) then (pinf : Fl F) else ninf) else infOf (-b)) = fin z at h
      split_ifs at h
      · cases h
      · cases h
      · exact absurd h (infOf_ne_fin _ _)
    | pinf => cases h
  | fin a => cases y with
    | nan => cases h
    | ninf => left; change (fin 0 : Fl F) = fin z at h; rw [fin_inj] at h; exact h.symm
    | fin b =>
      change (if b = 0 then (if a = 0 then (Fl.nan : Fl F) else if F.zdiv a then pinf else ninf) else rnd F (a / b)) = fin z at h
      split_ifs at h
      · cases h
      · cases h
      · cases h
      · exact Or.inr ⟨_, h⟩
    | pinf => left; change (fin 0 : Fl F) = fin z at h; rw [fin_inj] at h; exact h.symm
  | pinf => cases y with
    | nan => cases h
    | ninf => cases h
    | fin b =>
      change (if b = 0 then (if F.zdiv 1 then (pinf : Fl F) else ninf) else infOf b) = fin z at h
      split_ifs at h
      · cases h
      · cases h
      · exact absurd h (infOf_ne_fin _ _)
    | pinf => cases h

/-- A positive root computed by `quadratic_roots` is a rounded number. -/
theorem quadraticRoots_rounded [F.Rounding] {a b c : Fl F} {e : ℝ} (he : 0 < e) (h : (fin e : Fl F) ∈ quadraticRoots a b c) :
    ∃ w : ℝ, rnd F w = fin e := by
  have hdiv : ∀ x y : Fl F, fin e = x / y → ∃ w : ℝ, rnd F w = fin e := by
    intro x y h
    rcases div_eq_fin h.symm with h | h
    · linarith
    · exact h
  have hneg : ∀ x : Fl F, fin e = -Scalar.sqrt x → ∃ w : ℝ, rnd F w = fin e := by
    intro x h
    have h1 := neg_eq_fin h.symm
    rcases sqrt_nonneg_or_nan x with h2 | h2
    · rw [h1] at h2; cases h2
    · rw [h1, le_fin] at h2
      have := of_decide_eq_true h2
      linarith
  have hsqrt : ∀ x : Fl F, fin e = Scalar.sqrt x → ∃ w : ℝ, rnd F w = fin e := by
    intro x h
    obtain ⟨w, -, -, hw⟩ := sqrt_eq_fin h.symm
    exact ⟨_, hw⟩
  have hzero : fin e = (0 : Fl F) → ∃ w : ℝ, rnd F w = fin e := by
    intro h
    rw [rzero, fin_inj] at h
    linarith
  unfold quadraticRoots at h
  simp only at h
  split_ifs at h <;> simp only [List.mem_cons, List.not_mem_nil, or_false] at h
  · exact h.elim hzero hzero
  · exact h.elim (hdiv _ _) (hdiv _ _)
  · exact h.elim (hneg _) (hsqrt _)
  · exact h.elim (hdiv _ _) (hdiv _ _)
  · exact h.elim (hdiv _ _) (hdiv _ _)

/-- A number found in one range is found again in the range that begins with it. -/
theorem firstQuadraticRootInRange_again {a b c : Fl F} {e : ℝ} (h : firstQuadraticRootInRange a b c (-inf) inf = some (fin e)) :
    firstQuadraticRootInRange a b c (fin e) inf = some (fin e) ∧ (fin e : Fl F) ∈ quadraticRoots a b c := by
  unfold firstQuadraticRootInRange at h ⊢
  split at h
  · rename_i r0 r1 hr
    rw [hr]
    have hself : (ge (fin e : Fl F) (fin e) && Scalar.le (fin e : Fl F) inf) = true := by simp [ge]
    by_cases h1 : (ge r0 (-inf) && Scalar.le r0 inf) = true
    · rw [if_pos h1, Option.some_inj] at h
      rw [h]
      simp only [hself, if_true]
      simp
    · rw [if_neg h1] at h
      split_ifs at h with h2
      · rw [Option.some_inj] at h
        rw [h]
        have hn : ge r0 (fin e : Fl F) = false := by
          cases r0 with
          | nan => rfl
          | ninf => rfl
          | pinf => simp [ge] at h1
          | fin q => simp [ge] at h1
        simp only [hn, hself, Bool.false_and, Bool.false_eq_true, if_false, if_true]
        simp
  · cases h

/-- The objects whose crossings come from a quadratic equation: `sphere` and `ellipsoid`. -/
theorem quadratic_boundary {b : Hittable (Fl F)} (hb : (∃ s : Sphere (Fl F), b.hit = s.hit) ∨ ∃ s : Ellipsoid (Fl F), b.hit = s.hit) (r : Ray (Fl F)) :
    ∃ A B C : Fl F, ∀ tmin tmax rec,
      ((b.hit r tmin tmax rec).1 = true ∧ firstQuadraticRootInRange A B C tmin tmax = some (b.hit r tmin tmax rec).2.t) ∨
      ((b.hit r tmin tmax rec).1 = false ∧ firstQuadraticRootInRange A B C tmin tmax = none) := by
  rcases hb with ⟨s, hs⟩ | ⟨s, hs⟩
  · refine ⟨Vec.squaredNorm r.dir, 2 * Vec.dot (r.origin - s.center) r.dir,
      Vec.squaredNorm (r.origin - s.center) - s.radius * s.radius, fun tmin tmax rec => ?_⟩
    rw [hs]
    rcases h : firstQuadraticRootInRange (Vec.squaredNorm r.dir) (2 * Vec.dot (r.origin - s.center) r.dir)
      (Vec.squaredNorm (r.origin - s.center) - s.radius * s.radius) tmin tmax with _ | t
    · rw [Sphere.hit_none h]; exact Or.inr ⟨rfl, rfl⟩
    · rw [Sphere.hit_some h]; exact Or.inl ⟨rfl, rfl⟩
  · obtain ⟨A, B, C, hr⟩ : ∃ A B C : Fl F, ∀ tmin tmax, s.root r tmin tmax = firstQuadraticRootInRange A B C tmin tmax :=
      ⟨_, _, _, fun _ _ => rfl⟩
    refine ⟨A, B, C, fun tmin tmax rec => ?_⟩
    rw [hs, ← hr]
    rcases h : s.root r tmin tmax with _ | t
    · rw [Ellipsoid.hit_none h]; exact Or.inr ⟨rfl, rfl⟩
    · rw [Ellipsoid.hit_some h]; exact Or.inl ⟨rfl, rfl⟩

/-- Nothing lies between a crossing and itself. -/
theorem ConstantMedium.finish_same (m : ConstantMedium (Fl F)) (ξ : Fl F) (r : Ray (Fl F)) (tmin tmax : Fl F) (e : ℝ) (rec : HitRecord (Fl F)) :
    m.finish ξ r tmin tmax (fin e) (fin e) rec = (false, rec) := by
  have h : ge (if lt (fin e) tmin then tmin else fin e) (if gt (fin e) tmax then tmax else fin e) = true := by
    have h1 : Scalar.le (fin e) (if lt (fin e) tmin then tmin else fin e) = true := by
      split_ifs with h
      · exact Fl.le_of_lt h
      · simp
    have h2 : Scalar.le (if gt (fin e) tmax then tmax else fin e) (fin e) = true := by
      split_ifs with h
      · exact Fl.le_of_lt h
      · simp
    exact Fl.le_trans h2 h1
  unfold finish
  simp only [h, if_true]

/-- C127, refuted in every IEEE format (9 bits or more): a medium bounded by a sphere or an ellipsoid never scatters a ray that
enters it at a parameter of 256 or more. No density, random number or range makes a difference. -/
theorem C127_far_false {p : ℕ} {emin emax : ℤ} (hp : 9 ≤ p) (h0 : emin ≤ 0) (h9 : 9 ≤ emax) (b : Hittable (Fl (ieee p emin emax)))
    (hb : (∃ s : Sphere (Fl (ieee p emin emax)), b.hit = s.hit) ∨ ∃ s : Ellipsoid (Fl (ieee p emin emax)), b.hit = s.hit)
    (r : Ray (Fl (ieee p emin emax))) (rec1 : HitRecord (Fl (ieee p emin emax))) {e : ℝ}
    (he : (b.hit r (-inf) inf rec1).2.t = fin e) (h256 : 256 ≤ e)
    (k ξ tmin tmax : Fl (ieee p emin emax)) (rec2 rec : HitRecord (Fl (ieee p emin emax))) :
    (ConstantMedium.make b k).hit ξ rec1 rec2 r tmin tmax rec = (false, rec) := by
  have hR := ieee_rounding hp h0 h9
  obtain ⟨A, B, C, hq⟩ := quadratic_boundary hb r
  unfold ConstantMedium.hit
  simp only [ConstantMedium.make]
  rcases hq (-inf) inf rec1 with ⟨b1, q1⟩ | ⟨b1, -⟩
  · rw [he] at q1
    obtain ⟨again, hmem⟩ := firstQuadraticRootInRange_again q1
    obtain ⟨w, hw⟩ := quadraticRoots_rounded (by linarith) hmem
    have hab := absorb hp h0 h9 h256 (ieee_idem (by omega) hw)
    simp only [b1, he, hab, if_true]
    rcases hq (fin e) inf rec2 with ⟨b2, q2⟩ | ⟨b2, q2⟩
    · rw [again, Option.some_inj] at q2
      simp only [b2, ← q2, if_true]
      exact ConstantMedium.finish_same _ _ _ _ _ _ _
    · rw [again] at q2; cases q2
  · simp only [b1, Bool.false_eq_true, if_false]

/-- C127 for crossings near the origin: in every standard arithmetic, if the first crossing is at a parameter between 0 and 64, the second query does not
return it again.
Missing: what the medium does with the second crossing when the roots carry rounding errors. -/
theorem C127_near_partial [F.Standard] (htiny : F.tiny ≤ 1) {e : ℝ} (hpos : 0 ≤ e) (he : e ≤ 64) (b : Hittable (Fl F))
    (hb : (∃ s : Sphere (Fl F), b.hit = s.hit) ∨ ∃ s : Ellipsoid (Fl F), b.hit = s.hit) (r : Ray (Fl F)) (rec2 : HitRecord (Fl F))
    (heps : rnd F (100 * F.eps) = fin (100 * F.eps)) (h2 : (b.hit r (fin e + 100 * eps) inf rec2).1 = true) :
    lt (fin e) (b.hit r (fin e + 100 * eps) inf rec2).2.t = true := by
  obtain ⟨A, B, C, hq⟩ := quadratic_boundary hb r
  have e0 : 0 < F.eps := Fmt.Standard.eps_pos
  have e1 : F.eps ≤ 1 / 256 := Fmt.Standard.eps_le
  have h100 : (100 : Fl F) * eps = fin (100 * F.eps) := by
    rw [lit_small 100 (by norm_num), eps_def]
    show rnd F _ = _
    exact_mod_cast heps
  have hadd : lt (fin e) ((fin e : Fl F) + 100 * eps) = true := by
    rw [h100]
    show lt (fin e) (rnd F (e + 100 * F.eps)) = true
    have hlow := rnd_nonneg (F := F) (by linarith : 0 ≤ e + 100 * F.eps)
    cases hy : rnd F (e + 100 * F.eps) with
    | nan => rw [hy] at hlow; cases hlow
    | ninf => rw [hy] at hlow; cases hlow
    | pinf => rfl
    | fin y =>
      rw [lt_fin, decide_eq_true_eq]
      have := Fmt.Standard.close hy
      rw [abs_of_nonneg (by linarith : 0 ≤ e + 100 * F.eps)] at this
      have h3 : F.eps * (e + 100 * F.eps) ≤ F.eps * 65 := mul_le_mul_of_nonneg_left (by linarith) e0.le
      have h4 : F.eps * F.tiny ≤ F.eps * 1 := mul_le_mul_of_nonneg_left htiny e0.le
      have := (abs_le.mp this).1
      linarith
  rcases hq (fin e + 100 * eps) inf rec2 with ⟨-, q⟩ | ⟨b2, -⟩
  · unfold firstQuadraticRootInRange at q
    split at q
    · split_ifs at q with c1 c2
      · rw [Option.some_inj] at q
        rw [Bool.and_eq_true] at c1
        rw [← q]; exact Fl.lt_of_lt_of_le hadd c1.1
      · rw [Option.some_inj] at q
        rw [Bool.and_eq_true] at c2
        rw [← q]; exact Fl.lt_of_lt_of_le hadd c2.1
    · cases q
  · rw [h2] at b2; cases b2

/-! ## A concrete case -/

/-- Small integers are numbers of binary64. -/
theorem binary64_int (n : ℤ) (h : |n| < 2 ^ 53) : rnd binary64 (n : ℝ) = fin (n : ℝ) := by
  have hrep : ∀ m : ℕ, m < 2 ^ 53 → rnd binary64 (m : ℝ) = fin (m : ℝ) := by
    intro m hm
    have h1 : (m : ℝ) < 2 ^ 53 := by exact_mod_cast hm
    have := ieee_rep (p := 53) (emin := -1022) (emax := 1023) hm (k := 0) (by norm_num)
      (by
        rw [zpow_zero, mul_one]
        have := zpow_lt_zpow_right₀ (a := (2 : ℝ)) one_lt_two (show (53 : ℤ) < 1023 + 1 by norm_num)
        exact h1.trans (by exact_mod_cast this))
    rwa [zpow_zero, mul_one] at this
  rw [abs_lt] at h
  rcases le_or_gt 0 n with hn | hn
  · obtain ⟨m, rfl⟩ := Int.eq_ofNat_of_zero_le hn
    exact_mod_cast hrep m (by omega)
  · obtain ⟨m, hm⟩ := Int.eq_ofNat_of_zero_le (by omega : 0 ≤ -n)
    have h1 := hrep m (by omega)
    have hnr : (n : ℝ) = -(m : ℝ) := by have : n = -(m : ℤ) := by omega
                                        rw [this]; push_cast; ring
    have hm0 : 0 < (m : ℝ) := by have : 0 < m := by omega
                                 exact_mod_cast this
    rw [hnr]
    unfold binary64 at h1 ⊢
    rw [ieee_round_nonneg hm0.le] at h1
    rw [ieee_round_neg (by linarith), neg_neg]
    split_ifs at h1 ⊢ with h2
    · rw [fin_inj] at h1
      rw [h1]
    · cases h1

/-- A ball of radius 100 about `(0,0,1000)`. -/
noncomputable def farBall : Sphere (Fl binary64) := ⟨![fin 0, fin 0, fin 1000], fin 100⟩

/-- Seen from the origin along `z`, it begins at 900, in binary64. -/
theorem farBall_first (rec : HitRecord (Fl binary64)) :
    (farBall.hit ⟨![fin 0, fin 0, fin 0], ![fin 0, fin 0, fin 1]⟩ (-inf) inf rec).1 = true ∧
    (farBall.hit ⟨![fin 0, fin 0, fin 0], ![fin 0, fin 0, fin 1]⟩ (-inf) inf rec).2.t = fin 900 := by
  have hi : ∀ (x : ℝ) (n : ℤ), x = n → |n| < 2 ^ 53 → rnd binary64 x = fin x := by
    rintro x n rfl h; exact binary64_int n h
  have hadd : ∀ (x y : ℝ) (n : ℤ), x + y = n → |n| < 2 ^ 53 → (fin x : Fl binary64) + fin y = fin (x + y) := fun _ _ n h h' => hi _ n h h'
  have hmul : ∀ (x y : ℝ) (n : ℤ), x * y = n → |n| < 2 ^ 53 → (fin x : Fl binary64) * fin y = fin (x * y) := fun _ _ n h h' => hi _ n h h'
  have hsub : ∀ (x y : ℝ) (n : ℤ), x - y = n → |n| < 2 ^ 53 → (fin x : Fl binary64) - fin y = fin (x - y) := fun x y n h h' => by
    rw [Fl.sub_eq, Fl.neg_fin, hadd x (-y) n (by linarith) h', sub_eq_add_neg]
  have hdiv : ∀ (x y : ℝ) (n : ℤ), y ≠ 0 → x / y = n → |n| < 2 ^ 53 → (fin x : Fl binary64) / fin y = fin (x / y) :=
    fun x y n h0 h h' => by
      show Fl.div _ _ = _
      exact (if_neg h0).trans (hi _ n h h')
  have hA : Vec.squaredNorm (![fin 0, fin 0, fin 1] : Vec (Fl binary64) 3) = fin 1 := by
    show (((0 : Fl binary64) + fin 0 * fin 0) + fin 0 * fin 0) + fin 1 * fin 1 = fin 1
    rw [rzero, hmul 0 0 0 (by norm_num) (by norm_num), hmul 1 1 1 (by norm_num) (by norm_num), mul_zero, mul_one,
      hadd 0 0 0 (by norm_num) (by norm_num), add_zero, hadd 0 0 0 (by norm_num) (by norm_num), add_zero, hadd 0 1 1 (by norm_num) (by norm_num), zero_add]
  have hoc : (![fin 0, fin 0, fin 0] : Vec (Fl binary64) 3) - ![fin 0, fin 0, fin 1000] = ![fin 0, fin 0, fin (-1000)] := by
    funext i
    show ![fin 0, fin 0, fin 0] i - ![fin 0, fin 0, fin 1000] i = _
    have h1 : (fin 0 : Fl binary64) - fin 0 = fin 0 := by rw [hsub 0 0 0 (by norm_num) (by norm_num), sub_zero]
    have h2 : (fin 0 : Fl binary64) - fin 1000 = fin (-1000) := by rw [hsub 0 1000 (-1000) (by norm_num) (by norm_num), zero_sub]
    match i with
    | 0 => exact h1
    | 1 => exact h1
    | 2 => exact h2
  have h2 : (2 : Fl binary64) = fin 2 := by rw [lit_small 2 (by norm_num)]; norm_num
  have h4 : (4 : Fl binary64) = fin 4 := by rw [lit_small 4 (by norm_num)]; norm_num
  have hB : (2 : Fl binary64) * Vec.dot (![fin 0, fin 0, fin (-1000)] : Vec (Fl binary64) 3) ![fin 0, fin 0, fin 1] = fin (-2000) := by
    show (2 : Fl binary64) * ((((0 : Fl binary64) + fin 0 * fin 0) + fin 0 * fin 0) + fin (-1000) * fin 1) = fin (-2000)
    rw [rzero, hmul 0 0 0 (by norm_num) (by norm_num), hmul (-1000) 1 (-1000) (by norm_num) (by norm_num), mul_zero, mul_one,
      hadd 0 0 0 (by norm_num) (by norm_num), add_zero, hadd 0 0 0 (by norm_num) (by norm_num), add_zero,
      hadd 0 (-1000) (-1000) (by norm_num) (by norm_num), zero_add, h2, hmul 2 (-1000) (-2000) (by norm_num) (by norm_num)]
    norm_num
  have hC : Vec.squaredNorm (![fin 0, fin 0, fin (-1000)] : Vec (Fl binary64) 3) - fin 100 * fin 100 = fin 990000 := by
    show (((0 : Fl binary64) + fin 0 * fin 0) + fin 0 * fin 0) + fin (-1000) * fin (-1000) - fin 100 * fin 100 = fin 990000
    rw [rzero, hmul 0 0 0 (by norm_num) (by norm_num), hmul (-1000) (-1000) 1000000 (by norm_num) (by norm_num), mul_zero,
      hadd 0 0 0 (by norm_num) (by norm_num), add_zero, hadd 0 0 0 (by norm_num) (by norm_num), add_zero,
      hadd 0 _ 1000000 (by norm_num) (by norm_num), zero_add, hmul 100 100 10000 (by norm_num) (by norm_num),
      hsub _ _ 990000 (by norm_num) (by norm_num)]
    norm_num
  have ht : binary64.tiny < 1 := by
    show (2 : ℝ) ^ (-1022 : ℤ) < 1
    exact zpow_lt_one_of_neg₀ (by norm_num) (by norm_num)
  have hD : discriminant (fin 1 : Fl binary64) (fin (-2000)) (fin 990000) = fin 40000 := by
    unfold discriminant
    have hw : (fin 4 : Fl binary64) * fin 990000 = fin 3960000 := by
      rw [hmul _ _ 3960000 (by norm_num) (by norm_num)]; norm_num
    have h41 : (4 : Fl binary64) * fin 1 = fin 4 := by rw [h4, hmul 4 1 4 (by norm_num) (by norm_num), mul_one]
    have hfma : ∀ (x y z : ℝ) (n : ℤ), x * y + z = n → |n| < 2 ^ 53 → Scalar.fma (fin x : Fl binary64) (fin y) (fin z) = fin (x * y + z) :=
      fun _ _ _ n h h' => hi _ n h h'
    simp only [h41, hw, Fl.neg_fin]
    rw [hfma (-990000) 4 3960000 0 (by norm_num) (by norm_num), hfma (-2000) (-2000) (-3960000) 40000 (by norm_num) (by norm_num), hadd _ _ 40000 (by norm_num) (by norm_num)]
    norm_num
  have hroots : quadraticRoots (fin 1 : Fl binary64) (fin (-2000)) (fin 990000) = [fin 900, fin 1100] := by
    unfold quadraticRoots
    have c1 : Scalar.le (Scalar.abs (fin 1 : Fl binary64)) tiny = false := by
      rw [tiny_def, abs_fin, le_fin, abs_one]; simpa using ht
    have c2 : Scalar.le (Scalar.abs (fin (-2000) : Fl binary64)) tiny = false := by
      rw [tiny_def, abs_fin, le_fin]; norm_num; linarith
    have hs : Scalar.sqrt (fin 40000 : Fl binary64) = fin 200 := by
      have : Scalar.sqrt (fin 40000 : Fl binary64) = rnd binary64 (Real.sqrt 40000) := if_neg (by norm_num)
      rw [this, show (40000 : ℝ) = 200 * 200 by norm_num, Real.sqrt_mul_self (by norm_num), hi 200 200 (by norm_num) (by norm_num)]
    have hq : -((fin (-2000) : Fl binary64) + copysign (fin 200) (fin (-2000))) / 2 = fin 1100 := by
      rw [copysign_fin_of_neg _ (by norm_num), abs_fin, Fl.neg_fin, abs_of_pos (by norm_num), hadd _ _ (-2200) (by norm_num) (by norm_num), Fl.neg_fin, h2,
        hdiv _ _ 1100 (by norm_num) (by norm_num) (by norm_num)]
      norm_num
    have hx0 : (fin 1100 : Fl binary64) / fin 1 = fin 1100 := by rw [hdiv _ _ 1100 (by norm_num) (by norm_num) (by norm_num), div_one]
    have hx1 : (fin 990000 : Fl binary64) / fin 1100 = fin 900 := by
      rw [hdiv _ _ 900 (by norm_num) (by norm_num) (by norm_num)]; norm_num
    have hl : lt (fin 1100 : Fl binary64) (fin 900) = false := by rw [lt_fin]; norm_num
    have hz : lt (fin 40000 : Fl binary64) 0 = false := by rw [rzero, lt_fin]; norm_num
    simp only [c1, c2, hD, hz, hs, hq, hx0, hx1, hl, Bool.false_eq_true, if_false]
  have hfirst : firstQuadraticRootInRange (fin 1 : Fl binary64) (fin (-2000)) (fin 990000) (-inf) inf = some (fin 900) := by
    unfold firstQuadraticRootInRange
    rw [hroots]
    simp [ge]
  have := Sphere.hit_some (s := farBall) (r := ⟨![fin 0, fin 0, fin 0], ![fin 0, fin 0, fin 1]⟩) (rec := rec) (tmin := -inf) (tmax := inf)
    (t := fin 900) (by
      show firstQuadraticRootInRange (Vec.squaredNorm (![fin 0, fin 0, fin 1] : Vec (Fl binary64) 3))
        (2 * Vec.dot ((![fin 0, fin 0, fin 0] : Vec (Fl binary64) 3) - ![fin 0, fin 0, fin 1000]) ![fin 0, fin 0, fin 1])
        (Vec.squaredNorm ((![fin 0, fin 0, fin 0] : Vec (Fl binary64) 3) - ![fin 0, fin 0, fin 1000]) - fin 100 * fin 100) (-inf) inf = _
      rw [hoc, hA, hB, hC, hfirst])
  rw [this]
  exact ⟨rfl, rfl⟩

/-- So in `double` a ball of fog of radius 100 in 1000 units' distance, crossed in the middle, is not seen, however dense. -/
example (k ξ tmin tmax : Fl binary64) (rec1 rec2 rec : HitRecord (Fl binary64)) :
    (ConstantMedium.make farBall.toHittable k).hit ξ rec1 rec2 ⟨![fin 0, fin 0, fin 0], ![fin 0, fin 0, fin 1]⟩ tmin tmax rec = (false, rec) :=
  C127_far_false (p := 53) (emin := -1022) (emax := 1023) (by norm_num) (by norm_num) (by norm_num) farBall.toHittable (Or.inl ⟨farBall, rfl⟩) _ rec1
    (farBall_first rec1).2 (by norm_num) k ξ tmin tmax rec2 rec

/-- The hypothesis of `C127_near_partial` on the format holds for `double`. -/
theorem binary64_offset : rnd binary64 (100 * binary64.eps) = fin (100 * binary64.eps) := by
  have h := ieee_rep (p := 53) (emin := -1022) (emax := 1023) (m := 100) (k := -52) (by norm_num) (by norm_num) (by
    have := zpow_lt_zpow_right₀ (a := (2 : ℝ)) one_lt_two (show (0 : ℤ) < 1023 + 1 by norm_num)
    rw [zpow_zero] at this
    refine lt_trans ?_ this
    norm_num)
  exact_mod_cast h

/-- The unit ball seen from `(0,0,-3)` begins at 2, and the second query returns more. -/
example (b : Hittable (Fl exact64)) (hb : b.hit = (Sphere.ofReal (F := exact64) 0 1).hit) (rec2 : HitRecord (Fl exact64)) :
    lt (fin 2) (b.hit ⟨cv ![0, 0, -3], cv ![0, 0, 1]⟩ (fin 2 + 100 * eps) inf rec2).2.t = true :=
  C127_near_partial (Fmt.Exact.tiny_lt (F := exact64)).le (by norm_num) (by norm_num) b (Or.inl ⟨_, hb⟩) _ rec2 (rnd_eq _)
    (mediumExample b hb rec2 rec2).2.2.1

end DRT
