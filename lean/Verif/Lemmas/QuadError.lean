import Verif.Lemmas.Error

/-! # Error of the quadratic formula -/

namespace DRT
open Scalar Fl

/-- Product of two relative errors. -/
theorem rel_mul {ε δ₁ δ₂ : ℝ} (h0 : 0 ≤ ε) (h₁ : |δ₁| ≤ ε) (h₂ : |δ₂| ≤ ε) :
    |(1 + δ₁) * (1 + δ₂) - 1| ≤ 2 * ε + ε ^ 2 := by
  rw [show (1 + δ₁) * (1 + δ₂) - 1 = δ₁ + δ₂ + δ₁ * δ₂ by ring]
  have h3 : |δ₁ * δ₂| ≤ ε ^ 2 := by rw [abs_mul, sq]; exact mul_le_mul h₁ h₂ (abs_nonneg _) h0
  have := abs_add_le (δ₁ + δ₂) (δ₁ * δ₂)
  have := abs_add_le δ₁ δ₂
  linarith

/-- How far the square of the computed square root is from the discriminant. -/
theorem sqrt_disc_error {ε b2 Q D d s δ : ℝ} (e0 : 0 ≤ ε) (e1 : ε ≤ 1 / 256) (hb : 0 ≤ b2) (hQ : 0 ≤ Q)
    (hD : |D| ≤ b2 + Q) (hd : 0 ≤ d) (h : |d - D| ≤ 3 * ε * |D| + 3 * ε ^ 2 * Q) (hδ : |δ| ≤ ε)
    (hs : s = Real.sqrt d * (1 + δ)) : |s ^ 2 - D| ≤ ε * (5.1 * b2 + 5.2 * Q) := by
  have hs2 : s ^ 2 = d * ((1 + δ) * (1 + δ)) := by rw [hs, mul_pow, Real.sq_sqrt hd]; ring
  have h1 := rel_mul e0 hδ hδ
  have h2 : |s ^ 2 - d| ≤ d * (2 * ε + ε ^ 2) := by
    rw [hs2, show d * ((1 + δ) * (1 + δ)) - d = d * ((1 + δ) * (1 + δ) - 1) by ring, abs_mul, abs_of_nonneg hd]
    exact mul_le_mul_of_nonneg_left h1 hd
  have h3 : |s ^ 2 - D| ≤ |s ^ 2 - d| + |d - D| := by
    have := abs_add_le (s ^ 2 - d) (d - D); rwa [show s ^ 2 - d + (d - D) = s ^ 2 - D by ring] at this
  have h4 : d ≤ |D| + |d - D| := by
    have := abs_add_le D (d - D); rw [show D + (d - D) = d by ring, abs_of_nonneg hd] at this; linarith
  have e2 : 3 * ε ^ 2 * Q ≤ 0.012 * ε * Q := mul_le_mul_of_nonneg_right (by nlinarith) hQ
  have h5 : |d - D| ≤ 3 * ε * (b2 + Q) + 0.012 * ε * Q := by nlinarith
  have h6 : d ≤ 1.012 * (b2 + Q) + 0.012 * Q := by nlinarith
  have h7 : d * (2 * ε + ε ^ 2) ≤ (1.012 * (b2 + Q) + 0.012 * Q) * (2.004 * ε) :=
    mul_le_mul h6 (by nlinarith) (by positivity) (by positivity)
  nlinarith [mul_nonneg e0 hb, mul_nonneg e0 hQ]

/-- The residual at a slightly wrong place. -/
theorem residual_shift {ε a b c y θ A : ℝ} (e0 : 0 ≤ ε) (e1 : ε ≤ 1 / 256) (hθ : |θ| ≤ 3.1 * ε)
    (hA : 0 ≤ A) (hA5 : A ≤ 5.2)
    (hy : |a * y ^ 2 + b * y + c| ≤ ε * (A * |a| * y ^ 2 + 2.6 * |b| * |y| + 5.2 * |c|)) :
    |a * (y * (1 + θ)) ^ 2 + b * (y * (1 + θ)) + c| ≤
      12 * ε * (|a| * (y * (1 + θ)) ^ 2 + |b| * |y * (1 + θ)| + |c|) := by
  have hb : |b * y| = |b| * |y| := abs_mul _ _
  have ha : |a * y ^ 2| = |a| * y ^ 2 := by rw [abs_mul, abs_of_nonneg (sq_nonneg y)]
  have hx : |y * (1 + θ)| = |y| * |1 + θ| := abs_mul _ _
  have ht := abs_le.mp hθ
  have h1θ : |1 + θ| = 1 + θ := abs_of_nonneg (by linarith)
  have n1 : 0 ≤ |a| * y ^ 2 := by positivity
  have n2 : 0 ≤ |b| * |y| := by positivity
  have n3 := abs_nonneg c
  have hxy : |b| * |y * (1 + θ)| = |b| * |y| * (1 + θ) := by rw [hx, h1θ]; ring
  have hxx : |a| * (y * (1 + θ)) ^ 2 = |a| * y ^ 2 * (1 + θ) ^ 2 := by ring
  rw [hxy, hxx]
  have e : a * (y * (1 + θ)) ^ 2 + b * (y * (1 + θ)) + c =
      (a * y ^ 2 + b * y + c) + (a * y ^ 2 * (2 * θ + θ ^ 2) + b * y * θ) := by ring
  rw [e]
  have t1 : |2 * θ + θ ^ 2| ≤ 6.3 * ε := by
    have h2 : |2 * θ| = 2 * |θ| := by rw [abs_mul]; norm_num
    have h3 : |θ ^ 2| = |θ| ^ 2 := by rw [abs_pow]
    have := abs_add_le (2 * θ) (θ ^ 2)
    have h4 : |θ| ^ 2 ≤ 3.1 * ε * (3.1 / 256) := by
      have := abs_nonneg θ
      rw [sq]; exact mul_le_mul hθ (by linarith) this (by linarith)
    linarith
  have s1 : |a * y ^ 2 * (2 * θ + θ ^ 2)| ≤ |a| * y ^ 2 * (6.3 * ε) := by
    rw [abs_mul, ha]; exact mul_le_mul_of_nonneg_left t1 n1
  have s2 : |b * y * θ| ≤ |b| * |y| * (3.1 * ε) := by
    rw [abs_mul, hb]; exact mul_le_mul_of_nonneg_left hθ n2
  have s3 := abs_add_le (a * y ^ 2 + b * y + c) (a * y ^ 2 * (2 * θ + θ ^ 2) + b * y * θ)
  have s4 := abs_add_le (a * y ^ 2 * (2 * θ + θ ^ 2)) (b * y * θ)
  have u1 : |a| * y ^ 2 * 0.975 ≤ |a| * y ^ 2 * (1 + θ) ^ 2 := mul_le_mul_of_nonneg_left (by nlinarith) n1
  have u2 : |b| * |y| * 0.98 ≤ |b| * |y| * (1 + θ) := mul_le_mul_of_nonneg_left (by linarith) n2
  have u3 : A * |a| * y ^ 2 ≤ 5.2 * (|a| * y ^ 2) := by nlinarith
  have u4 : ε * (A * |a| * y ^ 2 + 2.6 * |b| * |y| + 5.2 * |c|) ≤
      ε * (5.2 * (|a| * y ^ 2) + 2.6 * (|b| * |y|) + 5.2 * |c|) := mul_le_mul_of_nonneg_left (by linarith) e0
  have u5 : 12 * ε * (|a| * y ^ 2 * 0.975 + |b| * |y| * 0.98 + |c|) ≤
      12 * ε * (|a| * y ^ 2 * (1 + θ) ^ 2 + |b| * |y| * (1 + θ) + |c|) :=
    mul_le_mul_of_nonneg_left (by linarith) (by linarith)
  have v1 := mul_nonneg e0 n1
  have v2 := mul_nonneg e0 n2
  have v3 := mul_nonneg e0 n3
  nlinarith

/-- The root `q/a`. -/
theorem residual_first {ε a b c q s θ : ℝ} (ha : a ≠ 0) (e0 : 0 ≤ ε) (e1 : ε ≤ 1 / 256) (hθ : |θ| ≤ 3.1 * ε)
    (hq : (2 * q + b) ^ 2 = s ^ 2) (hbq : |b| ≤ 2 * |q|)
    (hs : |s ^ 2 - (b * b - 4 * a * c)| ≤ ε * (5.1 * b ^ 2 + 5.2 * |4 * a * c|)) :
    |a * (q / a * (1 + θ)) ^ 2 + b * (q / a * (1 + θ)) + c| ≤
      12 * ε * (|a| * (q / a * (1 + θ)) ^ 2 + |b| * |q / a * (1 + θ)| + |c|) := by
  refine residual_shift (A := 0) e0 e1 hθ (le_refl _) (by norm_num) ?_
  have ha' := abs_pos.mpr ha
  have e : a * (q / a) ^ 2 + b * (q / a) + c = (s ^ 2 - (b * b - 4 * a * c)) / (4 * a) := by
    rw [← hq]; field_simp; ring
  rw [e, abs_div, abs_mul, abs_of_nonneg (by norm_num : (0 : ℝ) ≤ 4), div_le_iff₀ (by positivity), abs_div]
  refine hs.trans ?_
  rw [abs_mul, abs_mul, abs_of_nonneg (by norm_num : (0 : ℝ) ≤ 4)]
  have hb2 : b ^ 2 ≤ |b| * (2 * |q|) := by
    rw [← sq_abs, sq]; exact mul_le_mul_of_nonneg_left hbq (abs_nonneg b)
  have e3 : ε * (0 * |a| * (q / a) ^ 2 + 2.6 * |b| * (|q| / |a|) + 5.2 * |c|) * (4 * |a|) =
      ε * (5.2 * (|b| * (2 * |q|)) + 5.2 * (4 * |a| * |c|)) := by field_simp; ring
  rw [e3]
  refine mul_le_mul_of_nonneg_left ?_ e0
  have : 0 ≤ |b| * (2 * |q|) := by positivity
  linarith

/-- The root `c/q`. -/
theorem residual_second {ε a b c q s θ : ℝ} (hq0 : q ≠ 0) (e0 : 0 ≤ ε) (e1 : ε ≤ 1 / 256) (hθ : |θ| ≤ 3.1 * ε)
    (hq : (2 * q + b) ^ 2 = s ^ 2) (hbq : |b| ≤ 2 * |q|)
    (hs : |s ^ 2 - (b * b - 4 * a * c)| ≤ ε * (5.1 * b ^ 2 + 5.2 * |4 * a * c|)) :
    |a * (c / q * (1 + θ)) ^ 2 + b * (c / q * (1 + θ)) + c| ≤
      12 * ε * (|a| * (c / q * (1 + θ)) ^ 2 + |b| * |c / q * (1 + θ)| + |c|) := by
  refine residual_shift (A := 5.2) e0 e1 hθ (by norm_num) (le_refl _) ?_
  have hq' := abs_pos.mpr hq0
  have e : a * (c / q) ^ 2 + b * (c / q) + c = c * (s ^ 2 - (b * b - 4 * a * c)) / (4 * q ^ 2) := by
    rw [← hq]; field_simp; ring
  have hq2 : 0 < 4 * q ^ 2 := by positivity
  rw [e, abs_div, abs_mul, abs_of_pos hq2, div_le_iff₀ hq2]
  rw [abs_mul, abs_mul, abs_of_nonneg (by norm_num : (0 : ℝ) ≤ 4)] at hs
  refine (mul_le_mul_of_nonneg_left hs (abs_nonneg c)).trans ?_
  have hb2 : b ^ 2 ≤ 4 * q ^ 2 := by
    rw [← sq_abs b, ← sq_abs q]; nlinarith [abs_nonneg b]
  have hcq : (c / q) ^ 2 * (4 * q ^ 2) = 4 * (|c| * |c|) := by
    rw [← sq, sq_abs]; field_simp
  have n1 : 0 ≤ ε * (2.6 * |b| * |c / q|) * (4 * q ^ 2) := by positivity
  have h3 : |c| * (ε * (5.1 * b ^ 2)) ≤ |c| * (ε * (5.1 * (4 * q ^ 2))) :=
    mul_le_mul_of_nonneg_left (mul_le_mul_of_nonneg_left (by linarith) e0) (abs_nonneg c)
  have n2 : 0 ≤ |c| * ε * (4 * q ^ 2) := by positivity
  have e4 : ε * (5.2 * |a| * (c / q) ^ 2 + 2.6 * |b| * |c / q| + 5.2 * |c|) * (4 * q ^ 2) =
      5.2 * ε * |a| * ((c / q) ^ 2 * (4 * q ^ 2)) + ε * (2.6 * |b| * |c / q|) * (4 * q ^ 2)
        + 5.2 * (|c| * ε * (4 * q ^ 2)) := by ring
  rw [e4, hcq]
  nlinarith

theorem rel_mul3 {ε δ₁ δ₂ δ₃ : ℝ} (e0 : 0 ≤ ε) (e1 : ε ≤ 1 / 256) (h₁ : |δ₁| ≤ ε) (h₂ : |δ₂| ≤ ε) (h₃ : |δ₃| ≤ ε) :
    |(1 + δ₁) * (1 + δ₂) * (1 + δ₃) - 1| ≤ 3.1 * ε := by
  have h := rel_mul e0 h₁ h₂
  generalize (1 + δ₁) * (1 + δ₂) = P at *
  rw [show P * (1 + δ₃) - 1 = (P - 1) + (P - 1) * δ₃ + δ₃ by ring]
  have h4 : |(P - 1) * δ₃| ≤ (2 * ε + ε ^ 2) * ε := by
    rw [abs_mul]; exact mul_le_mul h h₃ (abs_nonneg _) (by positivity)
  have := abs_add_le ((P - 1) + (P - 1) * δ₃) δ₃
  have := abs_add_le (P - 1) ((P - 1) * δ₃)
  nlinarith [sq_nonneg ε]

theorem rel_div {ε δ₁ δ₂ δ₃ : ℝ} (e0 : 0 ≤ ε) (e1 : ε ≤ 1 / 256) (h₁ : |δ₁| ≤ ε) (h₂ : |δ₂| ≤ ε) (h₃ : |δ₃| ≤ ε) :
    |(1 + δ₃) / ((1 + δ₁) * (1 + δ₂)) - 1| ≤ 3.1 * ε := by
  have h := rel_mul e0 h₁ h₂
  generalize (1 + δ₁) * (1 + δ₂) = P at *
  have hP : 0.99 ≤ P := by have := (abs_le.mp h).1; nlinarith
  rw [show (1 + δ₃) / P - 1 = (δ₃ - (P - 1)) / P by field_simp; ring, abs_div, abs_of_pos (by linarith : 0 < P),
    div_le_iff₀ (by linarith)]
  have := abs_sub δ₃ (P - 1)
  have h5 : |δ₃ - (P - 1)| ≤ 3 * ε + ε ^ 2 := by linarith
  have : 3.1 * ε * 0.99 ≤ 3.1 * ε * P := mul_le_mul_of_nonneg_left hP (by linarith)
  nlinarith

section
variable {F : Fmt} [F.Free]

theorem discriminant_finite (a b c : ℝ) : ∃ d : ℝ, discriminant (fin a) (fin b) (fin c) = (fin d : Fl F) := by
  unfold discriminant
  rw [lit_small 4 (by norm_num)]
  obtain ⟨w, h1⟩ : ∃ w : ℝ, (fin ((4 : ℕ) : ℝ) : Fl F) * fin a = fin w := Fmt.NoOverflow.finite _
  obtain ⟨x, h2⟩ : ∃ x : ℝ, (fin w : Fl F) * fin c = fin x := Fmt.NoOverflow.finite _
  obtain ⟨y, h3⟩ : ∃ y : ℝ, Scalar.fma (-(fin c)) (fin w) (fin x : Fl F) = fin y := Fmt.NoOverflow.finite (-c * w + x)
  obtain ⟨z, h4⟩ : ∃ z : ℝ, Scalar.fma (fin b) (fin b) (-(fin x : Fl F)) = fin z := Fmt.NoOverflow.finite (b * b + -x)
  simp only [h1, h2, h3, h4]
  exact Fmt.NoOverflow.finite _

/-- The general branch of `quadratic_roots`: what it computes, in terms of the rounding errors. -/
theorem quadratic_branch {a b c d : ℝ} (ha : a ≠ 0) (hb : b ≠ 0)
    (hd : discriminant (fin a) (fin b) (fin c) = (fin d : Fl F)) (hd0 : 0 ≤ d) :
    ∃ q s δ θ₀ θ₁ : ℝ, s = Real.sqrt d * (1 + δ) ∧ |δ| ≤ F.eps ∧ |θ₀| ≤ 3.1 * F.eps ∧ |θ₁| ≤ 3.1 * F.eps ∧
      q ≠ 0 ∧ (2 * q + b) ^ 2 = s ^ 2 ∧ |b| ≤ 2 * |q| ∧
      quadraticRoots (fin a) (fin b) (fin c) =
        if q / a * (1 + θ₀) < c / q * (1 + θ₁) then ([fin (q / a * (1 + θ₀)), fin (c / q * (1 + θ₁))] : List (Fl F))
        else [fin (c / q * (1 + θ₁)), fin (q / a * (1 + θ₀))] := by
  have e0 := (eps_pos' (F := F)).le
  have e1 := eps_le' (F := F)
  obtain ⟨δ, hδ, hs⟩ := sqrt_rel (F := F) hd0
  have hs0 : 0 ≤ Real.sqrt d * (1 + δ) := mul_nonneg (Real.sqrt_nonneg d) (by have := (abs_le.mp hδ).1; linarith)
  obtain ⟨s, hsd⟩ : ∃ s : ℝ, s = Real.sqrt d * (1 + δ) := ⟨_, rfl⟩
  rw [← hsd] at hs hs0
  obtain ⟨σ, hσ, hσb⟩ : ∃ σ : ℝ, Scalar.copysign (fin s : Fl F) (fin b) = fin σ ∧
      (0 < b ∧ σ = s ∨ b < 0 ∧ σ = -s) := by
    rcases lt_or_gt_of_ne hb with h | h
    · exact ⟨-s, by rw [copysign_fin_of_neg _ h, abs_fin, abs_of_nonneg hs0, Fl.neg_fin], Or.inr ⟨h, rfl⟩⟩
    · exact ⟨s, by rw [copysign_fin_of_nonneg _ h.le, abs_fin, abs_of_nonneg hs0], Or.inl ⟨h, rfl⟩⟩
  obtain ⟨δ₁, hδ₁, h1⟩ := add_rel (F := F) b σ
  obtain ⟨δ₂, hδ₂, h2⟩ := div_rel (F := F) (-((b + σ) * (1 + δ₁))) (by norm_num : ((2 : ℕ) : ℝ) ≠ 0)
  have hP1 := (abs_le.mp hδ₁).1
  have hP2 := (abs_le.mp hδ₂).1
  have hp1 : (1 + δ₁) ≠ 0 := by linarith
  have hp2 : (1 + δ₂) ≠ 0 := by linarith
  obtain ⟨q, hq⟩ : ∃ q : ℝ, q = -(b + σ) / 2 := ⟨_, rfl⟩
  have hqb : |b| ≤ 2 * |q| := by
    rw [hq, abs_div, abs_neg, abs_of_pos (by norm_num : (0 : ℝ) < 2)]
    rcases hσb with ⟨h, rfl⟩ | ⟨h, rfl⟩
    · rw [abs_of_pos h, abs_of_pos (by linarith)]; linarith
    · rw [abs_of_neg h, abs_of_neg (by linarith)]; linarith
  have hq0 : q ≠ 0 := by
    rintro rfl
    rw [abs_zero, mul_zero] at hqb
    exact hb (abs_nonpos_iff.mp hqb)
  have hQ : -((b + σ) * (1 + δ₁)) / ((2 : ℕ) : ℝ) * (1 + δ₂) = q * ((1 + δ₁) * (1 + δ₂)) := by
    rw [hq]; push_cast; ring
  rw [hQ] at h2
  have hQ0 : q * ((1 + δ₁) * (1 + δ₂)) ≠ 0 := mul_ne_zero hq0 (mul_ne_zero hp1 hp2)
  obtain ⟨δ₃, hδ₃, h3⟩ := div_rel (F := F) (q * ((1 + δ₁) * (1 + δ₂))) ha
  obtain ⟨δ₄, hδ₄, h4⟩ := div_rel (F := F) c hQ0
  have hx0 : q * ((1 + δ₁) * (1 + δ₂)) / a * (1 + δ₃) = q / a * (1 + ((1 + δ₁) * (1 + δ₂) * (1 + δ₃) - 1)) := by ring
  have hx1 : c / (q * ((1 + δ₁) * (1 + δ₂))) * (1 + δ₄) =
      c / q * (1 + ((1 + δ₄) / ((1 + δ₁) * (1 + δ₂)) - 1)) := by field_simp; ring
  refine ⟨q, s, δ, (1 + δ₁) * (1 + δ₂) * (1 + δ₃) - 1, (1 + δ₄) / ((1 + δ₁) * (1 + δ₂)) - 1, hsd, hδ,
    rel_mul3 e0 e1 hδ₁ hδ₂ hδ₃, rel_div e0 e1 hδ₁ hδ₂ hδ₄, hq0, ?_, hqb, ?_⟩
  · rw [hq, show 2 * (-(b + σ) / 2) + b = -σ by ring]
    rcases hσb with ⟨-, rfl⟩ | ⟨-, rfl⟩ <;> ring
  · have t0 : (Scalar.tiny : Fl F) = fin 0 := by
      show fin F.tiny = fin 0
      rw [Fmt.Free.tiny_eq]
    have g1 : ¬ |a| ≤ 0 := fun h => ha (abs_nonpos_iff.mp h)
    have g2 : ¬ |b| ≤ 0 := fun h => hb (abs_nonpos_iff.mp h)
    unfold quadraticRoots
    rw [t0, abs_fin, abs_fin, le_fin, le_fin, decide_eq_false g1, decide_eq_false g2, hd, rzero]
    simp only [Bool.false_eq_true, if_false, lt_fin (a := d), decide_eq_false (not_lt.mpr hd0), hs, hσ, h1, lit_small 2 (by norm_num), Fl.neg_fin, h2, h3, h4, hx0, hx1,
      lt_fin, decide_eq_true_eq]

end
end DRT
