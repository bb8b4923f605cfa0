import Verif.Scalar.Standard
import Verif.Lemmas.Vec
import Verif.Model.Roots

/-! # Error bounds of the arithmetic kernels -/

namespace DRT
open Scalar Fl Vec

variable {F : Fmt} [F.Standard]

theorem eps_pos' : 0 < F.eps := Fmt.Standard.eps_pos
theorem eps_le' : F.eps ≤ 1 / 256 := Fmt.Standard.eps_le
theorem tiny_nonneg' : 0 ≤ F.tiny := Fmt.Standard.tiny_nonneg
theorem close' {x y : ℝ} (h : rnd F x = fin y) : |y - x| ≤ F.eps * |x| + F.eps * F.tiny := Fmt.Standard.close h

/-- The error of `fma(a, b, -cd) + fma(-c, d, cd)` where `cd` is the rounded product. -/
theorem kahan_error {ab cd w p q x : ℝ} (hw : rnd F cd = fin w) (hp : rnd F (ab - w) = fin p)
    (hq : rnd F (w - cd) = fin q) (hx : rnd F (p + q) = fin x) :
    |x - (ab - cd)| ≤ 3 * F.eps * |ab - cd| + 3 * F.eps ^ 2 * |cd| + 4 * (F.eps * F.tiny) := by
  have e0 := eps_pos' (F := F)
  have e1 := eps_le' (F := F)
  have e2 := tiny_nonneg' (F := F)
  have a1 := close' hw
  have a2 := close' hp
  have a3 := close' hq
  have a4 := close' hx
  have hη : 0 ≤ F.eps * F.tiny := by positivity
  generalize F.eps * F.tiny = η at *
  generalize F.eps = ε at *
  have b1 : |ab - w| ≤ |ab - cd| + |w - cd| := by
    have := abs_sub (ab - cd) (w - cd); rwa [show ab - cd - (w - cd) = ab - w by ring] at this
  have b2 : |p + q - (ab - cd)| ≤ |p - (ab - w)| + |q - (w - cd)| := by
    have := abs_add_le (p - (ab - w)) (q - (w - cd))
    rwa [show p - (ab - w) + (q - (w - cd)) = p + q - (ab - cd) by ring] at this
  have b3 : |p + q| ≤ |ab - cd| + |p + q - (ab - cd)| := by
    have := abs_add_le (ab - cd) (p + q - (ab - cd)); rwa [show ab - cd + (p + q - (ab - cd)) = p + q by ring] at this
  have b4 : |x - (ab - cd)| ≤ |x - (p + q)| + |p + q - (ab - cd)| := by
    have := abs_add_le (x - (p + q)) (p + q - (ab - cd))
    rwa [show x - (p + q) + (p + q - (ab - cd)) = x - (ab - cd) by ring] at this
  have n1 := abs_nonneg (ab - cd)
  have n2 := abs_nonneg cd
  generalize |ab - cd| = X at *
  generalize |cd| = Y at *
  generalize |w - cd| = W at *
  generalize |p + q - (ab - cd)| = Z at *
  have c3 : |q - (w - cd)| ≤ ε * (ε * Y + η) + η := a3.trans (by nlinarith)
  have c2 : |p - (ab - w)| ≤ ε * (X + (ε * Y + η)) + η := a2.trans (by nlinarith)
  have c4 : Z ≤ ε * X + 2 * ε ^ 2 * Y + (2 * ε + 2) * η := by nlinarith
  have c5 : |x - (ab - cd)| ≤ ε * X + η + (1 + ε) * (ε * X + 2 * ε ^ 2 * Y + (2 * ε + 2) * η) := by nlinarith
  refine c5.trans ?_
  have d1 : ε ^ 2 * X ≤ ε * X := by
    have : ε ^ 2 ≤ ε := by nlinarith
    nlinarith
  have d2 : ε ^ 3 * Y * 2 ≤ ε ^ 2 * Y := by
    have h2 : ε ^ 3 * 2 ≤ ε ^ 2 := by nlinarith [sq_nonneg ε]
    nlinarith
  have d3 : (1 + (1 + ε) * (2 * ε + 2)) * η ≤ 4 * η := mul_le_mul_of_nonneg_right (by nlinarith) hη
  nlinarith

theorem differenceOfProducts_error {a b c d x : ℝ}
    (h : differenceOfProducts (fin a) (fin b) (fin c) (fin d) = (fin x : Fl F)) :
    |x - (a * b - c * d)| ≤
      3 * F.eps * |a * b - c * d| + 3 * F.eps ^ 2 * |c * d| + 4 * (F.eps * F.tiny) := by
  obtain ⟨p, q, hp, hq, hx⟩ := add_eq_fin h
  obtain ⟨a', b', w', ha, hb, hw, hp⟩ := fma_eq_fin hp
  obtain ⟨c', d', w, hc, hd, hw2, hq⟩ := fma_eq_fin hq
  rw [hw2] at hw
  rw [Fl.neg_fin] at hw hc
  rw [fin_inj] at ha hb hw hc hd
  subst ha hb hw hc hd
  exact kahan_error hw2 (by rwa [sub_eq_add_neg]) (by rwa [show w - c * d = -c * d + w by ring]) hx

theorem discriminant_error {a b c x : ℝ} (h4 : rnd F (4 * a) = fin (4 * a))
    (h : discriminant (fin a) (fin b) (fin c) = (fin x : Fl F)) :
    |x - (b * b - 4 * a * c)| ≤
      3 * F.eps * |b * b - 4 * a * c| + 3 * F.eps ^ 2 * |4 * a * c| + 4 * (F.eps * F.tiny) := by
  have hl : (4 : Fl F) * fin a = fin (4 * a) := by
    rw [lit_small 4 (by norm_num)]; exact_mod_cast h4
  unfold discriminant at h
  simp only [hl] at h
  obtain ⟨p, q, hp, hq, hx⟩ := add_eq_fin h
  obtain ⟨a', b', w', ha, hb, hw, hp⟩ := fma_eq_fin hp
  obtain ⟨c', d', w, hc, hd, hw2, hq⟩ := fma_eq_fin hq
  rw [hw2] at hw
  rw [Fl.neg_fin] at hw hc
  rw [fin_inj] at ha hb hw hc hd
  subst ha hb hw hc hd
  exact kahan_error hw2 (by rwa [sub_eq_add_neg]) (by rwa [show w - 4 * a * c = -c * (4 * a) + w by ring]) hx

/-- Sums of rounded products, any number of terms. -/
theorem loopSum_error {n : ℕ} (u v : Fin n → ℝ) {x : ℝ}
    (h : loopSum n (fun i => (fin (u i) : Fl F) * fin (v i)) = fin x) :
    |x - ∑ i, u i * v i| ≤
      ((1 + F.eps) ^ (n + 1) - 1) * ∑ i, |u i * v i| + 3 * n * (1 + F.eps) ^ n * (F.eps * F.tiny) := by
  have e0 := eps_pos' (F := F)
  have e1 := eps_le' (F := F)
  have e2 := tiny_nonneg' (F := F)
  have hη : 0 ≤ F.eps * F.tiny := by positivity
  induction n generalizing x with
  | zero =>
    have : (0 : Fl F) = fin x := h
    rw [rzero, fin_inj] at this
    simp [← this]
  | succ k ih =>
    rw [loopSum_succ] at h
    obtain ⟨s, t, hs, ht, hx⟩ := add_eq_fin h
    obtain ⟨a, b, ha, hb, ht⟩ := mul_eq_fin ht
    rw [fin_inj] at ha hb
    have i1 := ih (fun i => u i.castSucc) (fun i => v i.castSucc) hs
    have i2 := close' ht
    have i3 := close' hx
    rw [Fin.sum_univ_castSucc, Fin.sum_univ_castSucc]
    rw [← ha, ← hb] at i2
    have hT : |∑ i : Fin k, u i.castSucc * v i.castSucc| ≤ ∑ i : Fin k, |u i.castSucc * v i.castSucc| :=
      Finset.abs_sum_le_sum_abs _ _
    generalize ∑ i : Fin k, u i.castSucc * v i.castSucc = S at *
    generalize ∑ i : Fin k, |u i.castSucc * v i.castSucc| = T at *
    generalize u (Fin.last k) * v (Fin.last k) = z at *
    have hz := abs_nonneg z
    have hT0 : 0 ≤ T := (abs_nonneg S).trans hT
    generalize F.eps * F.tiny = η at *
    generalize F.eps = ε at *
    have b1 : |s + t - (S + z)| ≤ |s - S| + |t - z| := by
      have := abs_add_le (s - S) (t - z); rwa [show s - S + (t - z) = s + t - (S + z) by ring] at this
    have b2 : |s + t| ≤ |S| + |z| + |s + t - (S + z)| := by
      have := abs_add_le (S + z) (s + t - (S + z))
      rw [show S + z + (s + t - (S + z)) = s + t by ring] at this
      exact this.trans (by have := abs_add_le S z; linarith)
    have b3 : |x - (S + z)| ≤ |x - (s + t)| + |s + t - (S + z)| := by
      have := abs_add_le (x - (s + t)) (s + t - (S + z))
      rwa [show x - (s + t) + (s + t - (S + z)) = x - (S + z) by ring] at this
    have p1 : 1 ≤ (1 + ε) ^ k := one_le_pow₀ (by linarith)
    have hk : (0 : ℝ) ≤ k := k.cast_nonneg
    have c1 : |x - (S + z)| ≤ (1 + ε) * (|s - S| + |t - z|) + ε * (|S| + |z|) + η := by nlinarith
    have c2 : (1 + ε) * (|s - S| + |t - z|) ≤
        (1 + ε) * ((((1 + ε) ^ (k + 1) - 1) * T + 3 * k * (1 + ε) ^ k * η) + (ε * |z| + η)) :=
      mul_le_mul_of_nonneg_left (add_le_add i1 i2) (by linarith)
    refine c1.trans ((add_le_add_left (add_le_add_left c2 _) _).trans ?_)
    have c3 : ε * (|S| + |z|) ≤ ε * (T + |z|) := mul_le_mul_of_nonneg_left (by linarith) e0.le
    refine (add_le_add_left (add_le_add_right c3 _) _).trans ?_
    push_cast
    rw [pow_succ (1 + ε) (k + 1), pow_succ (1 + ε) k]
    generalize (1 + ε) ^ k = P at *
    have d1 : (2 * ε + ε ^ 2) * |z| ≤ (P * (1 + ε) * (1 + ε) - 1) * |z| :=
      mul_le_mul_of_nonneg_right (by nlinarith) hz
    have d2 : (1 + ε + 1) * η ≤ 3 * P * (1 + ε) * η := mul_le_mul_of_nonneg_right (by nlinarith) hη
    nlinarith

/-! ## Formats without overflow and underflow -/

section free
omit [F.Standard]
variable [F.Free]

theorem rnd_rel (x : ℝ) : ∃ δ : ℝ, |δ| ≤ F.eps ∧ rnd F x = fin (x * (1 + δ)) := by
  obtain ⟨y, hy⟩ := Fmt.NoOverflow.finite (F := F) x
  have h := close' hy
  have e0 := eps_pos' (F := F)
  rw [Fmt.Free.tiny_eq, mul_zero, add_zero] at h
  rcases eq_or_ne x 0 with rfl | hx
  · refine ⟨0, by simpa using e0.le, ?_⟩
    rw [abs_zero, mul_zero, sub_zero] at h
    rw [hy, fin_inj, zero_mul]
    exact abs_nonpos_iff.mp h
  · refine ⟨(y - x) / x, ?_, ?_⟩
    · rw [abs_div, div_le_iff₀ (abs_pos.mpr hx)]; exact h
    · rw [hy, fin_inj]; field_simp; ring

theorem add_rel (x y : ℝ) : ∃ δ : ℝ, |δ| ≤ F.eps ∧ (fin x : Fl F) + fin y = fin ((x + y) * (1 + δ)) := rnd_rel _
theorem sub_rel (x y : ℝ) : ∃ δ : ℝ, |δ| ≤ F.eps ∧ (fin x : Fl F) - fin y = fin ((x - y) * (1 + δ)) := by
  rw [sub_eq_add_neg x y]; exact rnd_rel _
theorem mul_rel (x y : ℝ) : ∃ δ : ℝ, |δ| ≤ F.eps ∧ (fin x : Fl F) * fin y = fin ((x * y) * (1 + δ)) := rnd_rel _
theorem fma_rel (x y z : ℝ) :
    ∃ δ : ℝ, |δ| ≤ F.eps ∧ Scalar.fma (fin x : Fl F) (fin y) (fin z) = fin ((x * y + z) * (1 + δ)) := rnd_rel _
theorem div_rel (x : ℝ) {y : ℝ} (h : y ≠ 0) :
    ∃ δ : ℝ, |δ| ≤ F.eps ∧ (fin x : Fl F) / fin y = fin ((x / y) * (1 + δ)) := by
  rw [show (fin x : Fl F) / fin y = rnd F (x / y) from if_neg h]; exact rnd_rel _
theorem sqrt_rel {x : ℝ} (h : 0 ≤ x) :
    ∃ δ : ℝ, |δ| ≤ F.eps ∧ Scalar.sqrt (fin x : Fl F) = fin (Real.sqrt x * (1 + δ)) := by
  rw [show Scalar.sqrt (fin x : Fl F) = rnd F (Real.sqrt x) from if_neg (not_lt.mpr h)]; exact rnd_rel _

/-- `z` is a computed value of `x`, a polynomial whose terms have magnitudes that sum to `M`, with a relative error
of `k` roundings. -/
def App (k : ℕ) (z : Fl F) (x M : ℝ) : Prop :=
  ∃ y : ℝ, z = fin y ∧ |x| ≤ M ∧ |y - x| ≤ ((1 + F.eps) ^ k - 1) * M

theorem one_le_pow_eps (k : ℕ) : 1 ≤ (1 + F.eps) ^ k := one_le_pow₀ (by linarith [eps_pos' (F := F)])

theorem App.fin' (x : ℝ) : App 0 (fin x : Fl F) x |x| := ⟨x, rfl, le_refl _, by simp⟩

theorem App.weaken {k l : ℕ} {z : Fl F} {x M N : ℝ} (h : App k z x M) (hk : k ≤ l) (hM : M ≤ N) : App l z x N := by
  obtain ⟨y, hy, h1, h2⟩ := h
  refine ⟨y, hy, h1.trans hM, h2.trans ?_⟩
  have h3 : (1 + F.eps) ^ k ≤ (1 + F.eps) ^ l := pow_le_pow_right₀ (by linarith [eps_pos' (F := F)]) hk
  exact mul_le_mul (by linarith) hM ((abs_nonneg x).trans h1) (by linarith [one_le_pow_eps (F := F) l])

theorem App.round {k : ℕ} {x y M : ℝ} (h1 : |x| ≤ M) (h2 : |y - x| ≤ ((1 + F.eps) ^ k - 1) * M) :
    App (k + 1) (rnd F y) x M := by
  obtain ⟨δ, hδ, h⟩ := rnd_rel (F := F) y
  refine ⟨_, h, h1, ?_⟩
  have e0 := eps_pos' (F := F)
  have b1 : |y * (1 + δ) - x| ≤ |y - x| + |y| * |δ| := by
    have := abs_add_le (y - x) (y * δ); rwa [abs_mul, show y - x + y * δ = y * (1 + δ) - x by ring] at this
  have b2 : |y| ≤ M + |y - x| := by
    have := abs_add_le x (y - x); rw [show x + (y - x) = y by ring] at this; linarith
  have b3 : |y| * |δ| ≤ (M + ((1 + F.eps) ^ k - 1) * M) * F.eps :=
    mul_le_mul (b2.trans (by linarith)) hδ (abs_nonneg _) ((abs_nonneg y).trans (b2.trans (by linarith)))
  rw [pow_succ]
  nlinarith

theorem App.add {j k : ℕ} {z w : Fl F} {x y M N : ℝ} (h : App j z x M) (h' : App k w y N) :
    App (Max.max j k + 1) (z + w) (x + y) (M + N) := by
  obtain ⟨p, rfl, a1, a2⟩ := h.weaken (le_max_left j k) (le_refl M)
  obtain ⟨q, rfl, b1, b2⟩ := h'.weaken (le_max_right j k) (le_refl N)
  refine App.round ((abs_add_le x y).trans (add_le_add a1 b1)) ?_
  have := abs_add_le (p - x) (q - y)
  rw [show p - x + (q - y) = p + q - (x + y) by ring] at this
  linarith

theorem App.neg {k : ℕ} {z : Fl F} {x M : ℝ} (h : App k z x M) : App k (-z) (-x) M := by
  obtain ⟨p, rfl, a1, a2⟩ := h
  refine ⟨-p, Fl.neg_fin _, by rwa [abs_neg], ?_⟩
  rwa [show -p - -x = -(p - x) by ring, abs_neg]

theorem App.sub {j k : ℕ} {z w : Fl F} {x y M N : ℝ} (h : App j z x M) (h' : App k w y N) :
    App (Max.max j k + 1) (z - w) (x - y) (M + N) := by
  rw [Fl.sub_eq, sub_eq_add_neg]; exact h.add h'.neg

theorem App.mul {j k : ℕ} {z w : Fl F} {x y M N : ℝ} (h : App j z x M) (h' : App k w y N) :
    App (j + k + 1) (z * w) (x * y) (M * N) := by
  obtain ⟨p, rfl, a1, a2⟩ := h
  obtain ⟨q, rfl, b1, b2⟩ := h'
  have hM : 0 ≤ M := (abs_nonneg x).trans a1
  have hN : 0 ≤ N := (abs_nonneg y).trans b1
  have hj := one_le_pow_eps (F := F) j
  have hk := one_le_pow_eps (F := F) k
  refine App.round (by rw [abs_mul]; exact mul_le_mul a1 b1 (abs_nonneg _) hM) ?_
  have c1 : |p * q - x * y| ≤ |p - x| * |q| + |x| * |q - y| := by
    have := abs_add_le ((p - x) * q) (x * (q - y))
    rwa [abs_mul, abs_mul, show (p - x) * q + x * (q - y) = p * q - x * y by ring] at this
  have c2 : |q| ≤ (1 + F.eps) ^ k * N := by
    have := abs_add_le y (q - y); rw [show y + (q - y) = q by ring] at this; linarith
  have c3 : |p - x| * |q| ≤ (((1 + F.eps) ^ j - 1) * M) * ((1 + F.eps) ^ k * N) :=
    mul_le_mul a2 c2 (abs_nonneg _) (mul_nonneg (by linarith) hM)
  have c4 : |x| * |q - y| ≤ M * (((1 + F.eps) ^ k - 1) * N) := mul_le_mul a1 b2 (abs_nonneg _) hM
  rw [pow_add]
  nlinarith

theorem App.lit (n : ℕ) (h : n ≤ 256) : App 0 (@OfNat.ofNat (Fl F) n (Scalar.instOfNat n)) (n : ℝ) (n : ℝ) := by
  rw [lit_small n h]
  simpa using App.fin' (F := F) (n : ℝ)

theorem App.loopSum {n k : ℕ} {z : Fin n → Fl F} {x M : Fin n → ℝ} (h : ∀ i, App k (z i) (x i) (M i)) :
    App (k + n) (loopSum n z) (∑ i, x i) (∑ i, M i) := by
  induction n with
  | zero => simpa [Scalar.loopSum] using App.weaken (App.lit (F := F) 0 (by norm_num)) (Nat.zero_le k) (le_refl _)
  | succ m ih =>
    rw [loopSum_succ, Fin.sum_univ_castSucc, Fin.sum_univ_castSucc]
    exact ((ih fun i => h i.castSucc).add (h (Fin.last m))).weaken (by omega) (le_refl _)

end free
end DRT
