import Verif.Lemmas.Roots

/-! # Roots are never infinite in exact arithmetic -/

namespace DRT
open Scalar Fl

variable {F : Fmt}

/-- A real number or NaN. -/
def NotInf (x : Fl F) : Prop := x = Fl.nan ∨ ∃ a : ℝ, x = fin a

theorem notInf_nan : NotInf (Fl.nan : Fl F) := Or.inl rfl
theorem notInf_fin (a : ℝ) : NotInf (fin a : Fl F) := Or.inr ⟨a, rfl⟩

section
variable [F.Exact]

theorem notInf_lit (q : ℚ) : NotInf (lit q : Fl F) := by rw [lit_def]; exact notInf_fin _
theorem notInf_nat (n : ℕ) : NotInf (@OfNat.ofNat (Fl F) n (Scalar.instOfNat n)) := by rw [ofNat_def]; exact notInf_fin _
theorem NotInf.neg {x : Fl F} (hx : NotInf x) : NotInf (-x) := by
  rcases hx with rfl | ⟨a, rfl⟩
  · exact notInf_nan
  · rw [Fl.neg_fin]; exact notInf_fin _
theorem NotInf.add {x y : Fl F} (hx : NotInf x) (hy : NotInf y) : NotInf (x + y) := by
  rcases hx with rfl | ⟨a, rfl⟩
  · cases y <;> exact notInf_nan
  rcases hy with rfl | ⟨b, rfl⟩
  · exact notInf_nan
  · rw [add_fin]; exact notInf_fin _
theorem NotInf.sub {x y : Fl F} (hx : NotInf x) (hy : NotInf y) : NotInf (x - y) := by
  rcases hx with rfl | ⟨a, rfl⟩
  · cases y <;> exact notInf_nan
  rcases hy with rfl | ⟨b, rfl⟩
  · exact notInf_nan
  · rw [sub_fin]; exact notInf_fin _
theorem NotInf.mul {x y : Fl F} (hx : NotInf x) (hy : NotInf y) : NotInf (x * y) := by
  rcases hx with rfl | ⟨a, rfl⟩
  · cases y <;> exact notInf_nan
  rcases hy with rfl | ⟨b, rfl⟩
  · exact notInf_nan
  · rw [mul_fin]; exact notInf_fin _
theorem NotInf.div {x y : Fl F} (hx : NotInf x) (hy : NotInf y) (h : y ≠ fin 0) : NotInf (x / y) := by
  rcases hy with rfl | ⟨b, rfl⟩
  · rw [div_nan]; exact notInf_nan
  rcases hx with rfl | ⟨a, rfl⟩
  · rw [nan_div]; exact notInf_nan
  · rw [div_fin _ (fun hb => h (by rw [hb]))]; exact notInf_fin _
theorem notInf_fma {x y z : Fl F} (hx : NotInf x) (hy : NotInf y) (hz : NotInf z) : NotInf (fma x y z) := by
  rcases hx with rfl | ⟨a, rfl⟩
  · cases y <;> cases z <;> exact notInf_nan
  rcases hy with rfl | ⟨b, rfl⟩
  · cases z <;> exact notInf_nan
  rcases hz with rfl | ⟨c, rfl⟩
  · have : fma (fin a : Fl F) (fin b) Fl.nan = Fl.nan := add_nan (fin a * fin b)
    rw [this]; exact notInf_nan
  · rw [fma_fin]; exact notInf_fin _
theorem notInf_sqrt {x : Fl F} (hx : NotInf x) : NotInf (Scalar.sqrt x) := by
  rcases hx with rfl | ⟨a, rfl⟩
  · exact notInf_nan
  · rcases lt_or_ge a 0 with h | h
    · rw [sqrt_neg h]; exact notInf_nan
    · rw [sqrt_fin h]; exact notInf_fin _

theorem ne_zero_of_not_tiny {x : Fl F} (h : Scalar.le (Scalar.abs x) tiny = false) : x ≠ fin 0 := by
  rintro rfl
  rw [show (tiny : Fl F) = fin F.tiny from rfl, abs_fin, le_fin, abs_zero, decide_eq_false_iff_not] at h
  exact h Fmt.Exact.tiny_nonneg

theorem notInf_discriminant {a b c : Fl F} (ha : NotInf a) (hb : NotInf b) (hc : NotInf c) : NotInf (discriminant a b c) := by
  have h4 := notInf_nat (F := F) 4
  exact (notInf_fma hb hb (((h4.mul ha).mul hc).neg)).add (notInf_fma hc.neg (h4.mul ha) ((h4.mul ha).mul hc))

theorem notInf_quadratic {a b c : Fl F} (ha : NotInf a) (hb : NotInf b) (hc : NotInf c) : ∀ x ∈ quadraticRoots a b c, NotInf x := by
  intro x hx
  unfold quadraticRoots at hx
  dsimp only at hx
  split_ifs at hx with h1 h2 h3 h4 h5 h6 h7
  · cases hx
  · simp only [List.mem_cons, List.not_mem_nil, or_false, or_self] at hx
    rw [hx]; exact notInf_nat 0
  · simp only [List.mem_cons, List.not_mem_nil, or_false, or_self] at hx
    rw [hx]
    rcases hb with rfl | ⟨b, rfl⟩
    · rw [div_nan]; exact notInf_nan
    rcases hc with rfl | ⟨c, rfl⟩
    · rw [show -(Fl.nan : Fl F) = Fl.nan from rfl, nan_div]; exact notInf_nan
    rcases eq_or_ne b 0 with rfl | hb
    · rcases eq_or_ne c 0 with rfl | hc
      · rw [Fl.neg_fin, neg_zero, Fl.zero_div_zero]; exact notInf_nan
      · exfalso
        apply h2
        rw [ofNat_zero]
        simp [fl, hc]
    · rw [Fl.neg_fin, div_fin _ hb]; exact notInf_fin _
  · cases hx
  · have h := ne_zero_of_not_tiny (eq_false_of_ne_true h1)
    simp only [List.mem_cons, List.not_mem_nil, or_false] at hx
    have ht := notInf_sqrt (hc.neg.div ha h)
    rcases hx with rfl | rfl
    · exact ht.neg
    · exact ht
  · cases hx
  all_goals
    have h := ne_zero_of_not_tiny (eq_false_of_ne_true h1)
    have h' := ne_zero_of_not_tiny (eq_false_of_ne_true h4)
    obtain ⟨q, hq⟩ : ∃ q, q = -(b + copysign (Scalar.sqrt (discriminant a b c)) b) / 2 := ⟨_, rfl⟩
    rw [← hq] at hx
    have hD := notInf_sqrt (notInf_discriminant ha hb hc)
    have key : NotInf q ∧ q ≠ fin 0 := by
      rw [hq]
      rcases hb with rfl | ⟨b, rfl⟩
      · rw [nan_add, show -(Fl.nan : Fl F) = Fl.nan from rfl, nan_div]
        exact ⟨notInf_nan, by intro h; cases h⟩
      rcases hD with hD | ⟨e, hD⟩
      · rw [hD]
        have e1 : copysign (Fl.nan : Fl F) (fin b) = Fl.nan := by
          rcases lt_or_ge b 0 with hb | hb
          · rw [copysign_fin_of_neg _ hb]; rfl
          · rw [copysign_fin_of_nonneg _ hb]; rfl
        rw [e1, add_nan, show -(Fl.nan : Fl F) = Fl.nan from rfl, nan_div]
        exact ⟨notInf_nan, by intro h; cases h⟩
      · have hb0 : b ≠ 0 := fun hb => h' (by rw [hb])
        rw [hD, show (2 : Fl F) = fin 2 by rw [ofNat_def]; norm_num]
        rcases lt_or_ge b 0 with hb | hb
        · rw [copysign_fin_of_neg _ hb, abs_fin, Fl.neg_fin, add_fin, Fl.neg_fin, div_fin _ two_ne_zero]
          refine ⟨notInf_fin _, fun h => ?_⟩
          rw [fin_inj] at h
          have := abs_nonneg e
          linarith
        · rw [copysign_fin_of_nonneg _ hb, abs_fin, add_fin, Fl.neg_fin, div_fin _ two_ne_zero]
          refine ⟨notInf_fin _, fun h => ?_⟩
          rw [fin_inj] at h
          have := abs_nonneg e
          rcases hb.lt_or_eq with hb | hb
          · linarith
          · exact hb0 hb.symm
    have hx0 := key.1.div ha h
    have hx1 := hc.div key.1 key.2
    simp only [List.mem_cons, List.not_mem_nil, or_false] at hx
    rcases hx with rfl | rfl <;> assumption

theorem notInf_cos {x : Fl F} (hx : NotInf x) : NotInf (Scalar.cos x) := by
  rcases hx with rfl | ⟨a, rfl⟩
  · exact notInf_nan
  · rw [cos_fin]; exact notInf_fin _
theorem notInf_acos {x : Fl F} (hx : NotInf x) : NotInf (Scalar.acos x) := by
  rcases hx with rfl | ⟨a, rfl⟩
  · exact notInf_nan
  · show NotInf (if -1 ≤ a ∧ a ≤ 1 then rnd F _ else Fl.nan)
    split_ifs
    · rw [rnd_eq]; exact notInf_fin _
    · exact notInf_nan
theorem notInf_cbrt {x : Fl F} (hx : NotInf x) : NotInf (Scalar.cbrt x) := by
  rcases hx with rfl | ⟨a, rfl⟩
  · exact notInf_nan
  · rw [cbrt_fin]; exact notInf_fin _
theorem notInf_abs {x : Fl F} (hx : NotInf x) : NotInf (Scalar.abs x) := by
  rcases hx with rfl | ⟨a, rfl⟩
  · exact notInf_nan
  · rw [abs_fin]; exact notInf_fin _
theorem nat_ne {n : ℕ} (h : n ≠ 0) : (@OfNat.ofNat (Fl F) n (Scalar.instOfNat n)) ≠ fin 0 := by
  rw [ofNat_def, Ne, fin_inj]; exact_mod_cast h
theorem notInf_pi : NotInf (pi : Fl F) := by rw [pi_def]; exact notInf_fin _

theorem notInf_cubic {a b c d : Fl F} (ha : NotInf a) (hb : NotInf b) (hc : NotInf c) (hd : NotInf d) : ∀ x ∈ cubicRoots a b c d, NotInf x := by
  have n := notInf_nat (F := F)
  have nz := fun k => nat_ne (F := F) (n := k)
  intro x hx
  unfold cubicRoots at hx
  dsimp only at hx
  split_ifs at hx with h1 h2 h3 h4
  · exact notInf_quadratic hb hc hd x hx
  · rw [mem_sortAsc, List.mem_append, List.mem_singleton] at hx
    rcases hx with hx | rfl
    · exact notInf_quadratic ha hb hc x hx
    · exact n 0
  all_goals
    have h := ne_zero_of_not_tiny (eq_false_of_ne_true h1)
    have hp := hb.div ha h
    have hq := hc.div ha h
    have hr := hd.div ha h
    generalize b / a = p at *
    generalize c / a = q at *
    generalize d / a = r at *
    have hQ := ((hp.mul hp).sub ((n 3).mul hq)).div (n 9) (nz 9 (by norm_num))
    have hR := ((((((n 2).mul hp).mul hp).mul hp).sub (((n 9).mul hp).mul hq)).add ((n 27).mul hr)).div (n 54) (nz 54 (by norm_num))
    generalize (p * p - 3 * q) / 9 = Q at *
    generalize (2 * p * p * p - 9 * p * q + 27 * r) / 54 = R at *
  · have hQ0 : Q * Scalar.sqrt Q ≠ fin 0 := by
      intro h0
      rcases hQ with rfl | ⟨Q, rfl⟩
      · rw [nan_mul] at h0; cases h0
      rcases hR with rfl | ⟨R, rfl⟩
      · rw [nan_mul] at h3; cases h3
      rw [mul_fin, mul_fin, mul_fin, lt_fin, decide_eq_true_eq] at h3
      have hQ : 0 < Q := by
        by_contra hQ
        push Not at hQ
        nlinarith [mul_self_nonneg R, mul_self_nonneg Q]
      rw [sqrt_fin hQ.le, mul_fin, fin_inj] at h0
      have := mul_pos hQ (Real.sqrt_pos.mpr hQ)
      linarith
    have hth := notInf_acos (hR.div (hQ.mul (notInf_sqrt hQ)) hQ0)
    generalize Scalar.acos (R / (Q * Scalar.sqrt Q)) = th at *
    have m2 : NotInf (-2 : Fl F) := (n 2).neg
    have s3 := notInf_sqrt hQ
    have n3 := nz 3 (by norm_num)
    have hpi := (n 2).mul (notInf_pi (F := F))
    rw [mem_sortAsc] at hx
    simp only [List.mem_cons, List.not_mem_nil, or_false] at hx
    rcases hx with rfl | rfl | rfl
    · exact ((m2.mul s3).mul (notInf_cos (hth.div (n 3) n3))).sub (hp.div (n 3) n3)
    · exact ((m2.mul s3).mul (notInf_cos ((hth.add hpi).div (n 3) n3))).sub (hp.div (n 3) n3)
    · exact ((m2.mul s3).mul (notInf_cos ((hth.sub hpi).div (n 3) n3))).sub (hp.div (n 3) n3)
  all_goals
    have hA := (notInf_lit (F := F) (-(sgn R))).mul
      (notInf_cbrt ((notInf_abs hR).add (notInf_sqrt ((hR.mul hR).sub ((hQ.mul hQ).mul hQ)))))
    generalize lit (-(sgn R) : ℚ) * Scalar.cbrt (Scalar.abs R + Scalar.sqrt (R * R - Q * Q * Q)) = A at *
    rw [List.mem_singleton] at hx
    rw [hx]
  · exact hA.sub (hp.div (n 3) (nz 3 (by norm_num)))
  · exact (hA.add (hQ.div hA (ne_zero_of_not_tiny (eq_false_of_ne_true h4)))).sub (hp.div (n 3) (nz 3 (by norm_num)))

theorem notInf_polish {a b c d e r : Fl F} (ha : NotInf a) (hb : NotInf b) (hc : NotInf c) (hd : NotInf d) (he : NotInf e) (hr : NotInf r) :
    NotInf (quarticPolish a b c d e r) := by
  have n := notInf_nat (F := F)
  have h1 := (((((((n 4).mul ha).mul hr).add ((n 3).mul hb)).mul hr).add ((n 2).mul hc)).mul hr).add hd
  have h2 := (((((n 12).mul ha).mul hr).add ((n 6).mul hb)).mul hr).add ((n 2).mul hc)
  have h3 := ((((((ha.mul hr).add hb).mul hr).add hc).mul hr).add hd).mul hr |>.add he
  unfold quarticPolish
  dsimp only
  split_ifs with h
  · refine hr.sub ((((n 2).mul h3).mul h1).div ((((n 2).mul h1).mul h1).sub (h3.mul h2)) ?_)
    intro h0
    rw [h0, abs_fin, abs_zero, tiny_def] at h
    have h' : Scalar.lt (fin F.tiny) (fin 0 : Fl F) = true := h
    rw [lt_fin, decide_eq_true_eq] at h'
    exact absurd h' (not_lt.mpr Fmt.Exact.tiny_nonneg)
  · exact hr

theorem notInf_quartic {a b c d e : Fl F} (ha : NotInf a) (hb : NotInf b) (hc : NotInf c) (hd : NotInf d) (he : NotInf e) :
    ∀ x ∈ quarticRoots a b c d e, NotInf x := by
  have n := notInf_nat (F := F)
  have nz := fun k => nat_ne (F := F) (n := k)
  intro x hx
  unfold quarticRoots at hx
  dsimp only at hx
  split_ifs at hx with h1 h2 h3 h4 h5
  · exact notInf_cubic hb hc hd he x hx
  · rw [List.mem_append, List.mem_singleton] at hx
    rcases hx with hx | rfl
    · exact notInf_cubic ha hb hc hd x hx
    · exact n 0
  all_goals
    have h := ne_zero_of_not_tiny (eq_false_of_ne_true h1)
    have hA := hb.div ha h
    have hB := hc.div ha h
    have hC := hd.div ha h
    have hD := he.div ha h
    generalize b / a = A at *
    generalize c / a = B at *
    generalize d / a = C at *
    generalize e / a = D at *
    have hp := hB.sub (((n 3).mul (hA.mul hA)).div (n 8) (nz 8 (by norm_num)))
    have hq := (hC.sub ((hA.mul hB).div (n 2) (nz 2 (by norm_num)))).add (((hA.mul hA).mul hA).div (n 8) (nz 8 (by norm_num)))
    have hr := ((hD.sub ((hA.mul hC).div (n 4) (nz 4 (by norm_num)))).add (((hA.mul hA).mul hB).div (n 16) (nz 16 (by norm_num)))).sub
      ((((n 3).mul (hA.mul hA)).mul (hA.mul hA)).div (n 256) (nz 256 (by norm_num)))
    have hA4 := hA.div (n 4) (nz 4 (by norm_num))
    generalize B - 3 * (A * A) / 8 = p at *
    generalize C - A * B / 2 + A * A * A / 8 = q at *
    generalize D - A * C / 4 + A * A * B / 16 - 3 * (A * A) * (A * A) / 256 = r at *
  · rw [mem_sortAsc, List.mem_map] at hx
    obtain ⟨y, hy, rfl⟩ := hx
    rw [List.mem_append, List.mem_singleton] at hy
    rcases hy with hy | rfl
    · exact (notInf_cubic (n 1) (n 0) hp hq y hy).sub hA4
    · exact (n 0).sub hA4
  · rw [mem_sortAsc, List.mem_flatMap] at hx
    obtain ⟨y, hy, hx⟩ := hx
    have hy := notInf_sqrt (notInf_quadratic (n 1) hp hr y hy)
    split_ifs at hx
    · simp only [List.mem_cons, List.not_mem_nil, or_false] at hx
      rcases hx with rfl | rfl
      · exact hy.sub hA4
      · exact hy.neg.sub hA4
    · cases hx
  · cases hx
  · have hz : NotInf ((cubicRoots 1 (2 * p) (p * p - 4 * r) (-q * q)).getLastD 0) := by
      have h := notInf_cubic (n 1) ((n 2).mul hp) ((hp.mul hp).sub ((n 4).mul hr)) (hq.neg.mul hq)
      generalize cubicRoots (1 : Fl F) (2 * p) (p * p - 4 * r) (-q * q) = l at *
      rcases l.eq_nil_or_concat with rfl | ⟨l', y, rfl⟩
      · exact n 0
      · simpa using h y (by simp)
    generalize (cubicRoots (1 : Fl F) (2 * p) (p * p - 4 * r) (-q * q)).getLastD 0 = z at *
    have hs := notInf_sqrt hz
    have hs0 : Scalar.sqrt z ≠ fin 0 := by
      intro h0
      rcases hz with rfl | ⟨z, rfl⟩
      · cases h0
      rw [ofNat_zero, le_fin, decide_eq_true_eq, not_le] at h5
      rw [sqrt_fin h5.le, fin_inj] at h0
      exact (Real.sqrt_pos.mpr h5).ne' h0
    generalize Scalar.sqrt z = s at *
    have hqs := hq.div hs hs0
    have hv := ((hp.add (hs.mul hs)).add hqs).div (n 2) (nz 2 (by norm_num))
    have hu := hv.sub hqs
    rw [mem_sortAsc] at hx
    simp only [List.mem_map, List.mem_append] at hx
    obtain ⟨y, ⟨w, hw, rfl⟩, rfl⟩ := hx
    have hw' : NotInf w := by
      rcases hw with hw | hw
      · exact notInf_quadratic (n 1) hs hu w hw
      · exact notInf_quadratic (n 1) hs.neg hv w hw
    exact notInf_polish ha hb hc hd he (hw'.sub hA4)

end

end DRT
