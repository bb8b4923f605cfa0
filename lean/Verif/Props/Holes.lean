import Verif.Props.Acne

/-!
# C130: a sphere has no holes in floating point

Rounding moves the coefficients of the quadratic equation that `sphere::hit` (sphere.hpp:145-163) solves. The theorems say by how much a ray must pass the
rim of the sphere inside or outside so that it is certain to hit or to miss, and how far the recorded parameter is from the first crossing.
-/

namespace DRT
open Scalar Fl

variable {F : Fmt} [F.Free]

/-- How far the discriminant moves with the coefficients. -/
theorem disc_shift {ε A B C a b c Nb M : ℝ} (e0 : 0 < ε) (e1 : ε ≤ 1 / 256) (hA : 0 ≤ A) (hB : |B| ≤ Nb) (hC : |C| ≤ M) (hN : Nb ^ 2 ≤ 4 * (A * M))
    (ha : |a - A| ≤ 7.1 * ε * A) (hb : |b - B| ≤ 7.1 * ε * Nb) (hc : |c - C| ≤ 7.1 * ε * M) :
    |(b ^ 2 - 4 * a * c) - (B ^ 2 - 4 * A * C)| ≤ 115.9 * ε * (A * M) ∧ |4 * a * c| ≤ 4.3 * (A * M) ∧ |b| ≤ 1.03 * Nb := by
  have hNb : 0 ≤ Nb := (abs_nonneg B).trans hB
  have hM : 0 ≤ M := (abs_nonneg C).trans hC
  have k1 : |a| ≤ 1.028 * A := by
    have := abs_add_le A (a - A)
    rw [show A + (a - A) = a by ring, abs_of_nonneg hA] at this
    nlinarith
  have k2 : |b| ≤ 1.028 * Nb := by
    have := abs_add_le B (b - B)
    rw [show B + (b - B) = b by ring] at this
    nlinarith
  have k3 : |c| ≤ 1.028 * M := by
    have := abs_add_le C (c - C)
    rw [show C + (c - C) = c by ring] at this
    nlinarith
  have hAM : 0 ≤ A * M := mul_nonneg hA hM
  have h4 : |4 * a * c| ≤ 4.3 * (A * M) := by
    rw [abs_mul, abs_mul, abs_of_pos (by norm_num : (0 : ℝ) < 4)]
    have := mul_le_mul k1 k3 (abs_nonneg c) (by positivity)
    nlinarith
  refine ⟨?_, h4, k2.trans (by linarith)⟩
  have h1 : |b ^ 2 - B ^ 2| ≤ 7.1 * ε * Nb * (2.028 * Nb) := by
    rw [show b ^ 2 - B ^ 2 = (b - B) * (b + B) by ring, abs_mul]
    refine mul_le_mul hb ?_ (abs_nonneg _) (by positivity)
    have := abs_add_le b B
    linarith
  have h2 : |(a - A) * c| ≤ 7.1 * ε * A * (1.028 * M) := by
    rw [abs_mul]
    exact mul_le_mul ha k3 (abs_nonneg _) (by positivity)
  have h3 : |A * (c - C)| ≤ A * (7.1 * ε * M) := by
    rw [abs_mul, abs_of_nonneg hA]
    exact mul_le_mul_of_nonneg_left hc hA
  have h5 : |(b ^ 2 - 4 * a * c) - (B ^ 2 - 4 * A * C)| ≤ |b ^ 2 - B ^ 2| + 4 * (|(a - A) * c| + |A * (c - C)|) := by
    have w1 := abs_sub (b ^ 2 - B ^ 2) (4 * ((a - A) * c + A * (c - C)))
    rw [abs_mul, abs_of_pos (by norm_num : (0 : ℝ) < 4)] at w1
    have w2 := abs_add_le ((a - A) * c) (A * (c - C))
    rw [show (b ^ 2 - 4 * a * c) - (B ^ 2 - 4 * A * C) = b ^ 2 - B ^ 2 - 4 * ((a - A) * c + A * (c - C)) by ring]
    linarith
  have h6 : ε * Nb ^ 2 ≤ ε * (4 * (A * M)) := mul_le_mul_of_nonneg_left hN e0.le
  have h7 : 0 ≤ ε * (A * M) := by positivity
  nlinarith

/-- The sum of the computed roots. -/
theorem roots_sum {ε a b c q s θ₀ θ₁ : ℝ} (ha : a ≠ 0) (hq0 : q ≠ 0) (e0 : 0 ≤ ε) (e1 : ε ≤ 1 / 256) (h0 : |θ₀| ≤ 3.1 * ε) (h1 : |θ₁| ≤ 3.1 * ε)
    (hq : (2 * q + b) ^ 2 = s ^ 2) (hbq : |b| ≤ 2 * |q|)
    (hs : |s ^ 2 - (b * b - 4 * a * c)| ≤ ε * (5.1 * b ^ 2 + 5.2 * |4 * a * c|)) :
    |a * (q / a * (1 + θ₀) + c / q * (1 + θ₁)) + b| ≤ 53 * ε * |q| := by
  have hq' := abs_pos.mpr hq0
  have hb2 : b ^ 2 ≤ 4 * |q| ^ 2 := by
    rw [← sq_abs b]; nlinarith [abs_nonneg b]
  have hs16 : s ^ 2 ≤ 16 * |q| ^ 2 := by
    rw [← hq, ← sq_abs]
    have := abs_add_le (2 * q) b
    rw [abs_mul, abs_of_pos (by norm_num : (0 : ℝ) < 2)] at this
    have h4 : |2 * q + b| ≤ 4 * |q| := by linarith
    nlinarith [abs_nonneg (2 * q + b)]
  have h4 : |4 * a * c| ≤ 21 * |q| ^ 2 := by
    have w1 := abs_add_le (s ^ 2 - (b * b - 4 * a * c)) (b * b - s ^ 2)
    rw [show s ^ 2 - (b * b - 4 * a * c) + (b * b - s ^ 2) = 4 * a * c by ring] at w1
    have w2 : |b * b - s ^ 2| ≤ 16 * |q| ^ 2 := by
      rw [abs_le]
      constructor <;> nlinarith [mul_self_nonneg b, sq_nonneg s]
    have w3 : ε * (5.1 * b ^ 2 + 5.2 * |4 * a * c|) ≤ 1 / 256 * (5.1 * b ^ 2 + 5.2 * |4 * a * c|) :=
      mul_le_mul_of_nonneg_right e1 (by positivity)
    nlinarith
  have he : |s ^ 2 - (b * b - 4 * a * c)| ≤ ε * (130 * |q| ^ 2) := hs.trans (mul_le_mul_of_nonneg_left (by nlinarith) e0)
  have key : a * (q / a * (1 + θ₀) + c / q * (1 + θ₁)) + b = (s ^ 2 - (b * b - 4 * a * c)) / (4 * q) + q * θ₀ + (4 * a * c) / (4 * q) * θ₁ := by
    rw [← hq]; field_simp; ring
  rw [key]
  have t1 : |(s ^ 2 - (b * b - 4 * a * c)) / (4 * q)| ≤ 32.5 * ε * |q| := by
    rw [abs_div, abs_mul, abs_of_pos (by norm_num : (0 : ℝ) < 4), div_le_iff₀ (by positivity)]
    nlinarith
  have t2 : |q * θ₀| ≤ |q| * (3.1 * ε) := by rw [abs_mul]; exact mul_le_mul_of_nonneg_left h0 hq'.le
  have t3 : |4 * a * c / (4 * q) * θ₁| ≤ 5.25 * |q| * (3.1 * ε) := by
    rw [abs_mul]
    refine mul_le_mul ?_ h1 (abs_nonneg _) (by positivity)
    rw [abs_div, abs_mul (4 : ℝ) q, abs_of_pos (by norm_num : (0 : ℝ) < 4), div_le_iff₀ (by positivity)]
    nlinarith
  have w1 := abs_add_le ((s ^ 2 - (b * b - 4 * a * c)) / (4 * q) + q * θ₀) (4 * a * c / (4 * q) * θ₁)
  have w2 := abs_add_le ((s ^ 2 - (b * b - 4 * a * c)) / (4 * q)) (q * θ₀)
  have := mul_nonneg e0 hq'.le
  nlinarith

/-- The two numbers that `quadratic_roots` returns are finite and in order, and their sum is nearly `-b/a`. -/
theorem quadratic_pair {a b c : ℝ} (ha : rnd F a = fin a) (ha0 : 0 < a) (hx : quadraticRoots (fin a) (fin b) (fin c) ≠ ([] : List (Fl F))) :
    ∃ x y : ℝ, quadraticRoots (fin a) (fin b) (fin c) = ([fin x, fin y] : List (Fl F)) ∧ x ≤ y ∧
      ∃ q s : ℝ, |a * (x + y) + b| ≤ 53 * F.eps * |q| ∧ 2 * |q| ≤ |b| + |s| ∧
        |s ^ 2 - (b * b - 4 * a * c)| ≤ F.eps * (5.1 * b ^ 2 + 5.2 * |4 * a * c|) := by
  have e0 := (eps_pos' (F := F)).le
  have e1 := eps_le' (F := F)
  rcases eq_or_ne b 0 with rfl | hb0
  · obtain ⟨δ, δ', hδ, hδ', h1⟩ := quadratic_pure (F := F) (c := c) ha0.ne'
    rw [h1] at hx ⊢
    split_ifs at hx ⊢ with h
    · exact absurd rfl hx
    · have hn : 0 ≤ Real.sqrt (-c / a * (1 + δ)) * (1 + δ') :=
        mul_nonneg (Real.sqrt_nonneg _) (by have := (abs_le.mp hδ').1; linarith)
      refine ⟨_, _, rfl, by linarith, 0, Real.sqrt (0 * 0 - 4 * a * c), by simp, by simp, ?_⟩
      rw [Real.sq_sqrt, sub_self, abs_zero]
      · positivity
      · have : 0 ≤ -c / a := not_lt.mp h
        have h3 : 0 ≤ -c := by
          rw [show -c = -c / a * a by field_simp]; positivity
        nlinarith
  · obtain ⟨d, hd⟩ := discriminant_finite (F := F) a b c
    rcases lt_or_ge d 0 with hd0 | hd0
    · rw [quadratic_general ha0.ne' hb0 hd hd0] at hx
      exact absurd rfl hx
    · obtain ⟨q, s, δ, θ₀, θ₁, hs, hδ, h0, h1, hq0, hq, hbq, hl⟩ := quadratic_branch ha0.ne' hb0 hd hd0
      have hD : |b * b - 4 * a * c| ≤ b ^ 2 + |4 * a * c| := by
        have := abs_sub (b * b) (4 * a * c)
        rw [← sq] at this ⊢
        rwa [abs_of_nonneg (sq_nonneg b)] at this
      have hs2 := sqrt_disc_error e0 e1 (sq_nonneg b) (abs_nonneg _) hD hd0 (discriminant_close ha hd) hδ hs
      have hsum := roots_sum ha0.ne' hq0 e0 e1 h0 h1 hq hbq hs2
      have h2q : 2 * |q| ≤ |b| + |s| := by
        have w := abs_sub (2 * q + b) b
        rw [show 2 * q + b - b = 2 * q by ring, abs_mul, abs_of_pos (by norm_num : (0 : ℝ) < 2), (sq_eq_sq_iff_abs_eq_abs _ _).mp hq] at w
        linarith
      rw [hl]
      split_ifs with hlt
      · exact ⟨_, _, rfl, hlt.le, q, s, hsum, h2q, hs2⟩
      · exact ⟨_, _, rfl, not_lt.mp hlt, q, s, by rwa [add_comm (c / q * (1 + θ₁))], h2q, hs2⟩

/-- The coefficients that `sphere::hit` computes, and what it does with them. -/
theorem sphere_coefficients (C o d : Fin 3 → ℝ) (r : ℝ) (hd : d ≠ 0) : ∃ a b c : ℝ,
    (∀ (tmin tmax : Fl F) (rec : HitRecord (Fl F)),
      (Sphere.hit ⟨fun i => fin (C i), fin r⟩ ⟨fun i => fin (o i), fun i => fin (d i)⟩ tmin tmax rec).1 =
        (firstQuadraticRootInRange (fin a) (fin b) (fin c) tmin tmax).isSome ∧
      ∀ t, firstQuadraticRootInRange (fin a) (fin b) (fin c) tmin tmax = some t →
        (Sphere.hit ⟨fun i => fin (C i), fin r⟩ ⟨fun i => fin (o i), fun i => fin (d i)⟩ tmin tmax rec).2.t = t) ∧
    rnd F a = fin a ∧ 0 < a ∧ |a - ∑ i, d i ^ 2| ≤ 7.1 * F.eps * ∑ i, d i ^ 2 ∧
    |b - 2 * ∑ i, (o i - C i) * d i| ≤ 7.1 * F.eps * (2 * ∑ i, (|o i| + |C i|) * |d i|) ∧
    |c - (∑ i, (o i - C i) ^ 2 - r ^ 2)| ≤ 7.1 * F.eps * (∑ i, (|o i| + |C i|) ^ 2 + r ^ 2) ∧
    |2 * ∑ i, (o i - C i) * d i| ≤ 2 * ∑ i, (|o i| + |C i|) * |d i| ∧
    |∑ i, (o i - C i) ^ 2 - r ^ 2| ≤ ∑ i, (|o i| + |C i|) ^ 2 + r ^ 2 := by
  have e0 := eps_pos' (F := F)
  have e1 := eps_le' (F := F)
  obtain ⟨g7, g2⟩ := pow_eps_bound e0 e1
  obtain ⟨a, ha, hA1, hA2⟩ := sum_sq_bounds (F := F) d
  have hoc : ∀ i, App 1 (((fun i => fin (o i)) - (fun i => fin (C i)) : Vec (Fl F) 3) i) (o i - C i) (|o i| + |C i|) :=
    fun i => App.fin_sub
  have Aa : App 7 (Vec.squaredNorm (fun i => fin (d i)) : Fl F) (∑ i, d i * d i) (∑ i, |d i| * |d i|) :=
    App.weaken (App.loopSum fun i => (App.fin' (d i)).mul (App.fin' (d i))) (by norm_num) (le_refl _)
  have Ab : App 7 ((2 : Fl F) * Vec.dot ((fun i => fin (o i)) - (fun i => fin (C i))) (fun i => fin (d i)))
      (((2 : ℕ) : ℝ) * ∑ i, (o i - C i) * d i) (((2 : ℕ) : ℝ) * ∑ i, (|o i| + |C i|) * |d i|) :=
    App.weaken ((App.lit 2 (by norm_num)).mul (App.loopSum fun i => (hoc i).mul (App.fin' (d i)))) (by norm_num)
      (le_refl _)
  have Ac : App 7 (Vec.squaredNorm ((fun i => fin (o i)) - (fun i => fin (C i))) - (fin r : Fl F) * fin r)
      (∑ i, (o i - C i) * (o i - C i) - r * r) (∑ i, (|o i| + |C i|) * (|o i| + |C i|) + |r| * |r|) :=
    App.weaken ((App.loopSum fun i => (hoc i).mul (hoc i)).sub ((App.fin' r).mul (App.fin' r))) (by norm_num)
      (le_refl _)
  obtain ⟨a', ha', hA3, hA4⟩ := Aa
  rw [ha, fin_inj] at ha'
  subst ha'
  obtain ⟨b, hb, hB1, hB2⟩ := Ab
  obtain ⟨c, hc, hC1, hC2⟩ := Ac
  simp only [abs_mul_abs_self] at hA3 hA4 hC1 hC2
  simp only [← sq, Nat.cast_ofNat] at hA3 hA4 hB1 hB2 hC1 hC2
  have hN : 0 < ∑ j, d j ^ 2 := by
    obtain ⟨j, hj⟩ := Function.ne_iff.mp hd
    have hj' : d j ≠ 0 := hj
    exact Finset.sum_pos' (fun i _ => sq_nonneg _) ⟨j, Finset.mem_univ _, by positivity⟩
  have ha0 : 0 < a := lt_of_lt_of_le (mul_pos (pow_pos (by linarith) _) hN) hA1
  have hra : rnd F a = fin a := by
    have h1 : Vec.squaredNorm (fun i => fin (d i)) = (fin a : Fl F) := ha
    unfold Vec.squaredNorm at h1
    rw [loopSum_succ] at h1
    obtain ⟨_, _, _, _, h2⟩ := add_eq_fin h1
    exact Fmt.Free.idem h2
  refine ⟨a, b, c, ?_, hra, ha0, hA4.trans (mul_le_mul_of_nonneg_right g7 hN.le),
    hB2.trans (mul_le_mul_of_nonneg_right g7 ((abs_nonneg _).trans hB1)),
    hC2.trans (mul_le_mul_of_nonneg_right g7 ((abs_nonneg _).trans hC1)), hB1, hC1⟩
  intro tmin tmax rec
  unfold Sphere.hit
  simp only [ha, hb, hc]
  constructor
  · split <;> rename_i h <;> rw [h] <;> rfl
  · intro t ht
    rw [ht]
    rfl

/-- The square of the distance from the centre `C` to the point of the ray with parameter `t`. -/
def dist2 (C o d : Fin 3 → ℝ) (t : ℝ) : ℝ := ∑ i, (o i + t * d i - C i) ^ 2

/-- The squares of the coordinates that are involved in finding that the ray meets the sphere at the parameter `t`. -/
def magnitude (C o d : Fin 3 → ℝ) (r t : ℝ) : ℝ := ∑ i, (|o i| + |C i| + |t| * |d i|) ^ 2 + r ^ 2

theorem magnitude_zero (C o d : Fin 3 → ℝ) (r : ℝ) : magnitude C o d r 0 = ∑ i, (|o i| + |C i|) ^ 2 + r ^ 2 := by simp [magnitude]

theorem dist2_quadratic (C o d : Fin 3 → ℝ) (r t : ℝ) :
    (∑ i, d i ^ 2) * t ^ 2 + (2 * ∑ i, (o i - C i) * d i) * t + (∑ i, (o i - C i) ^ 2 - r ^ 2) = dist2 C o d t - r ^ 2 := by
  simp only [dist2, Fin.sum_univ_three]; ring

theorem magnitude_quadratic (C o d : Fin 3 → ℝ) (r t : ℝ) :
    (∑ i, d i ^ 2) * t ^ 2 + (2 * ∑ i, (|o i| + |C i|) * |d i|) * |t| + (∑ i, (|o i| + |C i|) ^ 2 + r ^ 2) = magnitude C o d r t := by
  have h : ∀ i, d i ^ 2 * t ^ 2 = (|t| * |d i|) ^ 2 := fun i => by rw [mul_pow, sq_abs, sq_abs]; ring
  rw [Finset.sum_mul, Finset.sum_congr rfl fun i _ => h i]
  simp only [magnitude, Fin.sum_univ_three]; ring

theorem cross_bound (C o d : Fin 3 → ℝ) (r : ℝ) :
    (2 * ∑ i, (|o i| + |C i|) * |d i|) ^ 2 ≤ 4 * ((∑ i, d i ^ 2) * (∑ i, (|o i| + |C i|) ^ 2 + r ^ 2)) := by
  have h := Finset.sum_mul_sq_le_sq_mul_sq Finset.univ (fun i => |o i| + |C i|) (fun i => |d i|)
  simp only [sq_abs] at h
  have h2 : 0 ≤ (∑ i, d i ^ 2) * r ^ 2 := mul_nonneg (Finset.sum_nonneg fun i _ => sq_nonneg _) (sq_nonneg r)
  nlinarith

/-- C130: a ray that passes the sphere clearly on the outside is not reported, in whatever range. -/
theorem C130_miss {C o d : Fin 3 → ℝ} {r : ℝ} (hd : d ≠ 0) (h : ∀ t, r ^ 2 + 29 * F.eps * magnitude C o d r 0 < dist2 C o d t)
    (tmin tmax : Fl F) (rec : HitRecord (Fl F)) :
    (Sphere.hit ⟨fun i => fin (C i), fin r⟩ ⟨fun i => fin (o i), fun i => fin (d i)⟩ tmin tmax rec).1 = false := by
  have e0 := eps_pos' (F := F)
  have e1 := eps_le' (F := F)
  obtain ⟨a, b, c, h1, ha, ha0, hA, hB, hC, hB', hC'⟩ := sphere_coefficients (F := F) C o d r hd
  have hN : 0 < ∑ j, d j ^ 2 := by
    obtain ⟨j, hj⟩ := Function.ne_iff.mp hd
    have hj' : d j ≠ 0 := hj
    exact Finset.sum_pos' (fun i _ => sq_nonneg _) ⟨j, Finset.mem_univ _, by positivity⟩
  obtain ⟨k1, k2, -⟩ := disc_shift e0 e1 hN.le hB' hC' (cross_bound C o d r) hA hB hC
  rw [(h1 tmin tmax rec).1]
  have hnil : quadraticRoots (fin a) (fin b) (fin c) = ([] : List (Fl F)) := by
    by_contra hne
    have h2 := C103_nonempty ha hne
    have h3 := h (-(2 * ∑ i, (o i - C i) * d i) / (2 * ∑ i, d i ^ 2))
    have h4 := dist2_quadratic C o d r (-(2 * ∑ i, (o i - C i) * d i) / (2 * ∑ i, d i ^ 2))
    rw [magnitude_zero] at h3
    generalize dist2 C o d _ = D at *
    generalize (2 * ∑ i, (o i - C i) * d i) = B at *
    generalize (∑ i, (o i - C i) ^ 2 - r ^ 2) = G at *
    generalize (∑ i, (|o i| + |C i|) ^ 2 + r ^ 2) = M at *
    generalize (∑ j, d j ^ 2) = A at *
    have hM : 0 ≤ M := (abs_nonneg _).trans hC'
    have h5 : 4 * A * (D - r ^ 2) = 4 * A * G - B ^ 2 := by
      rw [← h4]; field_simp; ring
    have h6 : 4 * A * (29 * F.eps * M) < 4 * A * (D - r ^ 2) := mul_lt_mul_of_pos_left (by linarith) (by linarith)
    have h7 : 4 * F.eps ^ 2 * |4 * a * c| ≤ 4 * F.eps ^ 2 * (4.3 * (A * M)) := mul_le_mul_of_nonneg_left k2 (by positivity)
    have h8 : F.eps ^ 2 * (A * M) ≤ F.eps / 256 * (A * M) := mul_le_mul_of_nonneg_right (by nlinarith) (by positivity)
    have h9 : 0 ≤ F.eps * (A * M) := by positivity
    have := (abs_le.mp k1).2
    nlinarith
  rw [firstQuadraticRootInRange, hnil]
  rfl

/-- The parameters that `quadratic_roots` returns for a sphere are nearly on it. -/
theorem computed_root {C o d : Fin 3 → ℝ} {r : ℝ} {a b c x : ℝ} (ha : rnd F a = fin a)
    (hA : |a - ∑ i, d i ^ 2| ≤ 7.1 * F.eps * ∑ i, d i ^ 2)
    (hB : |b - 2 * ∑ i, (o i - C i) * d i| ≤ 7.1 * F.eps * (2 * ∑ i, (|o i| + |C i|) * |d i|))
    (hC : |c - (∑ i, (o i - C i) ^ 2 - r ^ 2)| ≤ 7.1 * F.eps * (∑ i, (|o i| + |C i|) ^ 2 + r ^ 2))
    (hB' : |2 * ∑ i, (o i - C i) * d i| ≤ 2 * ∑ i, (|o i| + |C i|) * |d i|)
    (hC' : |∑ i, (o i - C i) ^ 2 - r ^ 2| ≤ ∑ i, (|o i| + |C i|) ^ 2 + r ^ 2)
    (hx : (fin x : Fl F) ∈ quadraticRoots (fin a) (fin b) (fin c)) :
    |dist2 C o d x - r ^ 2| ≤ 19.5 * F.eps * magnitude C o d r x := by
  have h := coefficients_shift (t := x) (eps_pos' (F := F)) (eps_le' (F := F)) (Finset.sum_nonneg fun i _ => sq_nonneg (d i)) hB' hC' hA hB hC
    (C103_residual ha hx)
  rwa [dist2_quadratic, magnitude_quadratic] at h

/-- C130: a ray that passes through the sphere clearly inside the rim is reported, if the parameters outside the range are clearly off the surface. -/
theorem C130_hit {C o d : Fin 3 → ℝ} {r t₀ : ℝ} (hd : d ≠ 0) (h : dist2 C o d t₀ + 29.1 * F.eps * magnitude C o d r 0 ≤ r ^ 2) (h0 : r ≠ 0)
    {tmin tmax : Fl F} (hout : ∀ t : ℝ, Scalar.le tmin (fin t) = false ∨ Scalar.le (fin t) tmax = false →
      19.5 * F.eps * magnitude C o d r t < |dist2 C o d t - r ^ 2|) (rec : HitRecord (Fl F)) :
    (Sphere.hit ⟨fun i => fin (C i), fin r⟩ ⟨fun i => fin (o i), fun i => fin (d i)⟩ tmin tmax rec).1 = true := by
  have e0 := eps_pos' (F := F)
  have e1 := eps_le' (F := F)
  obtain ⟨a, b, c, h1, ha, ha0, hA, hB, hC, hB', hC'⟩ := sphere_coefficients (F := F) C o d r hd
  have hN : 0 < ∑ j, d j ^ 2 := by
    obtain ⟨j, hj⟩ := Function.ne_iff.mp hd
    have hj' : d j ≠ 0 := hj
    exact Finset.sum_pos' (fun i _ => sq_nonneg _) ⟨j, Finset.mem_univ _, by positivity⟩
  obtain ⟨k1, k2, -⟩ := disc_shift e0 e1 hN.le hB' hC' (cross_bound C o d r) hA hB hC
  rw [(h1 tmin tmax rec).1]
  have hne : quadraticRoots (fin a) (fin b) (fin c) ≠ ([] : List (Fl F)) := by
    intro hnil
    have h2 := C103_empty ha hnil
    have h4 := dist2_quadratic C o d r t₀
    have hM : 0 < ∑ i, (|o i| + |C i|) ^ 2 + r ^ 2 := by
      have : 0 ≤ ∑ i, (|o i| + |C i|) ^ 2 := Finset.sum_nonneg fun i _ => sq_nonneg _
      positivity
    rw [magnitude_zero] at h
    generalize dist2 C o d _ = D at *
    generalize (2 * ∑ i, (o i - C i) * d i) = B at *
    generalize (∑ i, (o i - C i) ^ 2 - r ^ 2) = G at *
    generalize (∑ i, (|o i| + |C i|) ^ 2 + r ^ 2) = M at *
    generalize (∑ j, d j ^ 2) = A at *
    have h5 : B ^ 2 - 4 * A * G = 4 * A * (r ^ 2 - D) + (2 * A * t₀ + B) ^ 2 := by
      rw [show r ^ 2 - D = -(A * t₀ ^ 2 + B * t₀ + G) by linarith]; ring
    have h6 : 4 * A * (29.1 * F.eps * M) ≤ 4 * A * (r ^ 2 - D) := mul_le_mul_of_nonneg_left (by linarith) (by linarith)
    have h7 : 4 * F.eps ^ 2 * |4 * a * c| ≤ 4 * F.eps ^ 2 * (4.3 * (A * M)) := mul_le_mul_of_nonneg_left k2 (by positivity)
    have h8 : F.eps ^ 2 * (A * M) ≤ F.eps / 256 * (A * M) := mul_le_mul_of_nonneg_right (by nlinarith) (by positivity)
    have h9 : 0 < F.eps * (A * M) := by positivity
    have := (abs_le.mp k1).1
    have := sq_nonneg (2 * A * t₀ + B)
    nlinarith
  obtain ⟨x, y, hxy, -, -⟩ := quadratic_pair ha ha0 hne
  have hx := computed_root ha hA hB hC hB' hC' (x := x) (by rw [hxy]; simp)
  have hin : Scalar.le tmin (fin x) = true ∧ Scalar.le (fin x) tmax = true := by
    by_contra hc
    have := hout x (by
      rcases Bool.eq_false_or_eq_true (Scalar.le tmin (fin x)) with h | h
      · rcases Bool.eq_false_or_eq_true (Scalar.le (fin x) tmax) with h' | h'
        · exact absurd ⟨h, h'⟩ hc
        · exact Or.inr h'
      · exact Or.inl h)
    linarith
  rw [firstQuadraticRootInRange, hxy]
  dsimp only
  rw [if_pos (by rw [Bool.and_eq_true]; exact hin)]
  rfl

/-- The smaller computed root is near the smaller exact one. -/
theorem first_root_real {ε A B G a b c q s x y t₁ t₂ Nb M E : ℝ} (e0 : 0 < ε) (e1 : ε ≤ 1 / 256) (hN : 0 < A) (ha0 : 0 < a) (hB' : |B| ≤ Nb) (hC' : |G| ≤ M)
    (hNM : Nb ^ 2 ≤ 4 * (A * M)) (hA : |a - A| ≤ 7.1 * ε * A) (hB : |b - B| ≤ 7.1 * ε * Nb) (k2 : |4 * a * c| ≤ 4.3 * (A * M)) (k3 : |b| ≤ 1.03 * Nb)
    (hle : x ≤ y) (p1 : |a * (x + y) + b| ≤ 53 * ε * |q|) (p2 : 2 * |q| ≤ |b| + |s|)
    (p3 : |s ^ 2 - (b * b - 4 * a * c)| ≤ ε * (5.1 * b ^ 2 + 5.2 * |4 * a * c|))
    (q1 : A * t₁ ^ 2 + B * t₁ + G = 0) (q2 : A * t₂ ^ 2 + B * t₂ + G = 0) (hlt : t₁ < t₂)
    (hgap : 336 * ε * Real.sqrt M ≤ (t₂ - t₁) * Real.sqrt A) (hx : |A * x ^ 2 + B * x + G| ≤ 19.5 * ε * E) :
    |x - t₁| * ((t₂ - t₁) * A) ≤ 78 * ε * E := by
  have hM : 0 ≤ M := (abs_nonneg _).trans hC'
  have hNb : 0 ≤ Nb := (abs_nonneg _).trans hB'
  -- the root of the product of the magnitudes
  obtain ⟨R, hR⟩ : ∃ R : ℝ, R = Real.sqrt A * Real.sqrt M := ⟨_, rfl⟩
  have hR0 : 0 ≤ R := by rw [hR]; positivity
  have hR2 : R ^ 2 = A * M := by rw [hR, mul_pow, Real.sq_sqrt hN.le, Real.sq_sqrt hM]
  have hNbR : Nb ≤ 2 * R := by
    refine abs_le_of_sq_le_sq' ?_ (by positivity) |>.2
    rw [mul_pow, hR2]; linarith
  have hgap' : 336 * (ε * R) ≤ (t₂ - t₁) * A := by
    have := mul_le_mul_of_nonneg_right hgap (Real.sqrt_nonneg A)
    rw [show (t₂ - t₁) * Real.sqrt A * Real.sqrt A = (t₂ - t₁) * (Real.sqrt A * Real.sqrt A) by ring, Real.mul_self_sqrt hN.le] at this
    rw [hR]; linarith
  clear hgap hR
  -- the sum of the exact roots
  have hsum : A * (t₁ + t₂) + B = 0 := by
    have : (t₂ - t₁) * (A * (t₁ + t₂) + B) = 0 := by linear_combination q2 - q1
    rcases mul_eq_zero.mp this with h | h
    · linarith
    · exact h
  have hfac : A * x ^ 2 + B * x + G = (x - t₁) * (A * (x - t₂)) := by
    rw [show G = -(A * t₁ ^ 2 + B * t₁) by linarith, show B = -(A * (t₁ + t₂)) by linarith]; ring
  -- the sum of the computed roots
  have hb : |b| ≤ 2.06 * R := by linarith
  have hs : |s| ≤ 3 * R := by
    refine abs_le_of_sq_le_sq' ?_ (by positivity) |>.2
    rw [sq_abs, mul_pow, hR2]
    have w1 : b ^ 2 ≤ 4.25 * (A * M) := by
      rw [← sq_abs, ← hR2]; nlinarith [abs_nonneg b]
    have w2 : |b * b - 4 * a * c| ≤ 8.55 * (A * M) := by
      have := abs_sub (b * b) (4 * a * c)
      rw [← sq, abs_of_nonneg (sq_nonneg b)] at this
      rw [← sq]
      linarith
    have w3 : ε * (5.1 * b ^ 2 + 5.2 * |4 * a * c|) ≤ 1 / 256 * (5.1 * (4.25 * (A * M)) + 5.2 * (4.3 * (A * M))) :=
      mul_le_mul e1 (by linarith) (by positivity) (by norm_num)
    have w4 := (abs_le.mp p3).2
    have w5 := (abs_le.mp w2).2
    have : 0 ≤ A * M := by positivity
    linarith
  have hq : |q| ≤ 2.53 * R := by linarith
  have hε : 0 ≤ ε * R := by positivity
  have t1 : |a * (x + y) + b| ≤ 134.1 * (ε * R) := by
    refine p1.trans ?_
    have := mul_le_mul_of_nonneg_left hq (by positivity : 0 ≤ 53 * ε)
    linarith
  have hεR : ε * R ≤ 1 / 256 * R := mul_le_mul_of_nonneg_right e1 hR0
  have t2 : a * |x + y| ≤ 2.6 * R := by
    have h1 : a * |x + y| = |a * (x + y)| := by rw [abs_mul, abs_of_pos ha0]
    rw [h1]
    have := abs_sub (a * (x + y) + b) b
    rw [show a * (x + y) + b - b = a * (x + y) by ring] at this
    linarith
  have t3 : |(A - a) * (x + y)| ≤ 19.1 * (ε * R) := by
    rw [abs_mul, abs_sub_comm]
    have w0 : ε * A ≤ 1 / 256 * A := mul_le_mul_of_nonneg_right e1 hN.le
    have w1 : A ≤ 1.03 * a := by
      have := (abs_le.mp hA).1
      linarith
    have w4 : ε * A ≤ ε * (1.03 * a) := mul_le_mul_of_nonneg_left w1 e0.le
    have w6 : 0 ≤ ε * a := by positivity
    have w2 : |a - A| ≤ 7.32 * (ε * a) := hA.trans (by linarith)
    have w5 := mul_le_mul_of_nonneg_right w2 (abs_nonneg (x + y))
    have w3 : ε * (a * |x + y|) ≤ ε * (2.6 * R) := mul_le_mul_of_nonneg_left t2 e0.le
    linarith
  have t4 : |b - B| ≤ 14.2 * (ε * R) := by
    have := mul_le_mul_of_nonneg_left hNbR e0.le
    linarith
  have t5 : |A * (x + y) + B| ≤ 168 * (ε * R) := by
    have w1 := abs_sub ((a * (x + y) + b) + (A - a) * (x + y)) (b - B)
    have w2 := abs_add_le (a * (x + y) + b) ((A - a) * (x + y))
    rw [show (a * (x + y) + b) + (A - a) * (x + y) - (b - B) = A * (x + y) + B by ring] at w1
    linarith
  -- so the smaller one is not near the second crossing
  have t6 : (t₂ - t₁) * A / 4 ≤ A * (t₂ - x) := by
    have w1 := (abs_le.mp t5).2
    have w2 : A * x ≤ A * y := mul_le_mul_of_nonneg_left hle hN.le
    linarith
  rw [hfac, abs_mul] at hx
  have t7 : A * (t₂ - x) ≤ |A * (x - t₂)| := by
    rw [← abs_neg]
    exact (le_abs_self _).trans_eq' (by ring)
  have t8 : |x - t₁| * ((t₂ - t₁) * A / 4) ≤ |x - t₁| * |A * (x - t₂)| := mul_le_mul_of_nonneg_left (t6.trans t7) (abs_nonneg _)
  linarith

/-- C130: the parameter recorded is that of the first crossing, up to rounding over the sine of the angle at which the ray meets the surface: `t₁` and
`t₂` are the crossings, and they are not closer together than a few hundred roundings. -/
theorem C130_first {C o d : Fin 3 → ℝ} {r t₁ t₂ : ℝ} (hd : d ≠ 0) (h₁ : dist2 C o d t₁ = r ^ 2) (h₂ : dist2 C o d t₂ = r ^ 2) (hlt : t₁ < t₂)
    (hgap : 336 * F.eps * Real.sqrt (magnitude C o d r 0) ≤ (t₂ - t₁) * Real.sqrt (∑ i, d i ^ 2))
    {tmin tmax : Fl F} (hout : ∀ t : ℝ, Scalar.le tmin (fin t) = false ∨ Scalar.le (fin t) tmax = false →
      19.5 * F.eps * magnitude C o d r t < |dist2 C o d t - r ^ 2|) {rec out : HitRecord (Fl F)}
    (h : Sphere.hit ⟨fun i => fin (C i), fin r⟩ ⟨fun i => fin (o i), fun i => fin (d i)⟩ tmin tmax rec = (true, out)) :
    ∃ t : ℝ, out.t = fin t ∧ |t - t₁| * ((t₂ - t₁) * ∑ i, d i ^ 2) ≤ 78 * F.eps * magnitude C o d r t := by
  have e0 := eps_pos' (F := F)
  have e1 := eps_le' (F := F)
  obtain ⟨a, b, c, h1, ha, ha0, hA, hB, hC, hB', hC'⟩ := sphere_coefficients (F := F) C o d r hd
  have hN : 0 < ∑ j, d j ^ 2 := by
    obtain ⟨j, hj⟩ := Function.ne_iff.mp hd
    have hj' : d j ≠ 0 := hj
    exact Finset.sum_pos' (fun i _ => sq_nonneg _) ⟨j, Finset.mem_univ _, by positivity⟩
  obtain ⟨k1, k2, k3⟩ := disc_shift e0 e1 hN.le hB' hC' (cross_bound C o d r) hA hB hC
  obtain ⟨f1, f2⟩ := h1 tmin tmax rec
  rw [h] at f1 f2
  have hne : quadraticRoots (fin a) (fin b) (fin c) ≠ ([] : List (Fl F)) := by
    intro hnil
    rw [firstQuadraticRootInRange, hnil] at f1
    exact absurd f1 (by simp)
  obtain ⟨x, y, hxy, hle, q, s, p1, p2, p3⟩ := quadratic_pair ha ha0 hne
  have hx := computed_root ha hA hB hC hB' hC' (x := x) (by rw [hxy]; simp)
  have hin : Scalar.le tmin (fin x) = true ∧ Scalar.le (fin x) tmax = true := by
    by_contra hc
    have := hout x (by
      rcases Bool.eq_false_or_eq_true (Scalar.le tmin (fin x)) with h | h
      · rcases Bool.eq_false_or_eq_true (Scalar.le (fin x) tmax) with h' | h'
        · exact absurd ⟨h, h'⟩ hc
        · exact Or.inr h'
      · exact Or.inl h)
    linarith
  have hsome : firstQuadraticRootInRange (fin a) (fin b) (fin c) tmin tmax = some (fin x) := by
    rw [firstQuadraticRootInRange, hxy]
    dsimp only
    rw [if_pos (by rw [Bool.and_eq_true]; exact hin)]
  refine ⟨x, f2 _ hsome, ?_⟩
  have q0 := dist2_quadratic C o d r x
  have q1 := dist2_quadratic C o d r t₁
  have q2 := dist2_quadratic C o d r t₂
  rw [h₁, sub_self] at q1
  rw [h₂, sub_self] at q2
  rw [magnitude_zero] at hgap
  have hNM := cross_bound C o d r
  rw [← q0] at hx
  exact first_root_real e0 e1 hN ha0 hB' hC' hNM hA hB k2 k3 hle p1 p2 p3 q1 q2 hlt hgap hx

/-- Before `τ` a ray that starts clearly outside the sphere and runs towards it is clearly off the surface. -/
theorem clear_before {C o d : Fin 3 → ℝ} {r τ : ℝ} (hτ : 0 ≤ τ) (htow : ∑ i, (o i - C i) * d i ≤ 0)
    (hstart : r ^ 2 + 39 * F.eps * magnitude C o d r 0 < dist2 C o d 0 + 2 * τ * ∑ i, (o i - C i) * d i) (t : ℝ)
    (ht : Scalar.le (fin τ : Fl F) (fin t) = false ∨ Scalar.le (fin t : Fl F) pinf = false) :
    19.5 * F.eps * magnitude C o d r t < |dist2 C o d t - r ^ 2| := by
  have e0 := eps_pos' (F := F)
  have e1 := eps_le' (F := F)
  have ht' : t < τ := by
    rcases ht with h | h
    · simpa using h
    · simp at h
  have q0 := dist2_quadratic C o d r 0
  have q1 := dist2_quadratic C o d r t
  have m1 : magnitude C o d r t ≤ 2 * magnitude C o d r 0 + 2 * ((∑ i, d i ^ 2) * t ^ 2) := by
    have hs : ∀ i, (|o i| + |C i| + |t| * |d i|) ^ 2 ≤ 2 * (|o i| + |C i|) ^ 2 + 2 * (d i ^ 2 * t ^ 2) := by
      intro i
      have : d i ^ 2 * t ^ 2 = (|t| * |d i|) ^ 2 := by rw [mul_pow, sq_abs, sq_abs]; ring
      rw [this]
      nlinarith [sq_nonneg (|o i| + |C i| - |t| * |d i|)]
    have := Finset.sum_le_sum fun i (_ : i ∈ Finset.univ) => hs i
    rw [Finset.sum_add_distrib, ← Finset.mul_sum, ← Finset.mul_sum, ← Finset.sum_mul] at this
    rw [magnitude_zero, magnitude]
    nlinarith [sq_nonneg r]
  have hN : 0 ≤ ∑ j, d j ^ 2 := Finset.sum_nonneg fun i _ => sq_nonneg _
  have hM : 0 ≤ magnitude C o d r 0 := by
    rw [magnitude_zero]
    exact add_nonneg (Finset.sum_nonneg fun i _ => sq_nonneg _) (sq_nonneg r)
  generalize magnitude C o d r t = E at *
  generalize magnitude C o d r 0 = M at *
  generalize dist2 C o d t = D at *
  generalize dist2 C o d 0 = D₀ at *
  generalize ∑ i, (o i - C i) * d i = B at *
  generalize ∑ i, (o i - C i) ^ 2 - r ^ 2 = G at *
  generalize ∑ j, d j ^ 2 = A at *
  have hA : 0 ≤ A * t ^ 2 := by positivity
  have hB : 2 * τ * B ≤ 2 * t * B := by nlinarith
  have h3 : F.eps * (A * t ^ 2) ≤ 1 / 256 * (A * t ^ 2) := mul_le_mul_of_nonneg_right e1 hA
  have h4 : F.eps * E ≤ F.eps * (2 * M + 2 * (A * t ^ 2)) := mul_le_mul_of_nonneg_left m1 e0.le
  refine lt_of_lt_of_le ?_ (le_abs_self _)
  nlinarith

/-- C130 for a ray that starts clearly outside the sphere and runs towards it, and for the range from `τ` on: if it passes clearly inside the rim, it is
reported. -/
theorem C130_seen {C o d : Fin 3 → ℝ} {r t₀ τ : ℝ} (hd : d ≠ 0) (h0 : r ≠ 0) (hτ : 0 ≤ τ)
    (h : dist2 C o d t₀ + 29.1 * F.eps * magnitude C o d r 0 ≤ r ^ 2) (htow : ∑ i, (o i - C i) * d i ≤ 0)
    (hstart : r ^ 2 + 39 * F.eps * magnitude C o d r 0 < dist2 C o d 0 + 2 * τ * ∑ i, (o i - C i) * d i) (rec : HitRecord (Fl F)) :
    (Sphere.hit ⟨fun i => fin (C i), fin r⟩ ⟨fun i => fin (o i), fun i => fin (d i)⟩ (fin τ) pinf rec).1 = true :=
  C130_hit hd h h0 (clear_before hτ htow hstart) rec

/-- In 24 bits, the precision of `float`: the unit sphere seen from 4 units away. Half a radius beside the centre the ray hits, and the recorded parameter is near
`4 - √(3/4)`; two radii beside it, it misses. -/
example (rec : HitRecord (Fl (unbounded 24))) :
    let s : Sphere (Fl (unbounded 24)) := ⟨fun i => fin ((0 : Fin 3 → ℝ) i), fin 1⟩
    let ray (y : ℝ) : Ray (Fl (unbounded 24)) := ⟨fun i => fin ((![-4, y, 0] : Fin 3 → ℝ) i), fun i => fin ((![1, 0, 0] : Fin 3 → ℝ) i)⟩
    (∃ (out : HitRecord (Fl (unbounded 24))) (t : ℝ), s.hit (ray (1 / 2)) (fin (1 / 1000)) pinf rec = (true, out) ∧ out.t = fin t ∧ |t - (4 - Real.sqrt (3 / 4))| ≤ (magnitude 0 ![-4, 1 / 2, 0] ![1, 0, 0] 1 t) / 10 ^ 5) ∧
    (s.hit (ray 2) (fin (1 / 1000)) pinf rec).1 = false := by
  intro s ray
  have he : (unbounded 24).eps = 1 / 2 ^ 23 := by simp only [unbounded]; norm_num
  have hd : (![1, 0, 0] : Fin 3 → ℝ) ≠ 0 := fun h => by simpa using congrFun h 0
  have hm : ∀ y t : ℝ, magnitude 0 ![-4, y, 0] ![1, 0, 0] 1 t = (4 + |t|) ^ 2 + y ^ 2 + 1 := by
    intro y t; simp [magnitude, Fin.sum_univ_three]
  have hD : ∀ y t : ℝ, dist2 0 ![-4, y, 0] ![1, 0, 0] t = (t - 4) ^ 2 + y ^ 2 := by
    intro y t; simp [dist2, Fin.sum_univ_three]; ring
  have hA : ∑ i, (![1, 0, 0] : Fin 3 → ℝ) i ^ 2 = 1 := by simp [Fin.sum_univ_three]
  haveI : (unbounded 24).Free := unbounded_free (by norm_num)
  have hsq := Real.sq_sqrt (by norm_num : (0 : ℝ) ≤ 3 / 4)
  have hs1 : 0.85 ≤ Real.sqrt (3 / 4) := Real.le_sqrt_of_sq_le (by norm_num)
  have hs2 : Real.sqrt (3 / 4) ≤ 1 := Real.sqrt_le_one.mpr (by norm_num)
  have htow : ∑ i, ((![-4, 1 / 2, 0] : Fin 3 → ℝ) i - (0 : Fin 3 → ℝ) i) * (![1, 0, 0] : Fin 3 → ℝ) i = -4 := by simp [Fin.sum_univ_three]
  have hstart : (1 : ℝ) ^ 2 + 39 * (unbounded 24).eps * magnitude 0 ![-4, 1 / 2, 0] ![1, 0, 0] 1 0 <
      dist2 0 ![-4, 1 / 2, 0] ![1, 0, 0] 0 + 2 * (1 / 1000) * ∑ i, ((![-4, 1 / 2, 0] : Fin 3 → ℝ) i - (0 : Fin 3 → ℝ) i) * (![1, 0, 0] : Fin 3 → ℝ) i := by
    rw [hm, hD, htow, he]; norm_num
  have hhit := C130_seen (F := unbounded 24) (C := 0) (t₀ := 4) hd one_ne_zero (by norm_num) (by rw [hm, hD, he]; norm_num) (by rw [htow]; norm_num) hstart rec
  refine ⟨⟨(s.hit (ray (1 / 2)) (fin (1 / 1000)) pinf rec).2, ?_⟩, C130_miss hd (by intro t; rw [hm, hD, he]; nlinarith [sq_nonneg (t - 4), abs_zero (α := ℝ)]) _ _ rec⟩
  have hpair := Prod.ext (x := s.hit (ray (1 / 2)) (fin (1 / 1000)) pinf rec) (y := (true, (s.hit (ray (1 / 2)) (fin (1 / 1000)) pinf rec).2)) hhit rfl
  obtain ⟨t, h1, h2⟩ := C130_first (F := unbounded 24) (C := 0) (t₁ := 4 - Real.sqrt (3 / 4)) (t₂ := 4 + Real.sqrt (3 / 4)) hd
    (by rw [hD]; nlinarith) (by rw [hD]; nlinarith) (by linarith) (by
      rw [hm, hA, he, Real.sqrt_one]
      have : Real.sqrt ((4 + |0|) ^ 2 + (1 / 2) ^ 2 + 1) ≤ 5 := Real.sqrt_le_iff.mpr ⟨by norm_num, by norm_num⟩
      nlinarith) (clear_before (by norm_num) (by rw [htow]; norm_num) hstart) hpair
  refine ⟨t, hpair, h1, ?_⟩
  rw [hA, he] at h2
  have hn : 0 ≤ magnitude 0 ![-4, 1 / 2, 0] ![1, 0, 0] 1 t := by rw [hm]; positivity
  generalize magnitude 0 ![-4, 1 / 2, 0] ![1, 0, 0] 1 t = E at *
  have h3 : |t - (4 - Real.sqrt (3 / 4))| * 1.7 ≤ |t - (4 - Real.sqrt (3 / 4))| * ((4 + Real.sqrt (3 / 4) - (4 - Real.sqrt (3 / 4))) * 1) :=
    mul_le_mul_of_nonneg_left (by linarith) (abs_nonneg _)
  rw [le_div_iff₀ (by norm_num)]
  nlinarith

/-! ## At the rim -/

theorem binary32_rep (m : ℕ) (k : ℤ) {x : ℝ} (hm : m < 2 ^ 24) (hk : -149 ≤ k) (hk' : k ≤ 20) (hx : x = m * 2 ^ k) : rnd binary32 x = fin x := by
  subst hx
  refine ieee_rep hm (by norm_num; omega) ?_
  have h1 : (m : ℝ) < 2 ^ 24 := by exact_mod_cast hm
  have h2 : (2:ℝ) ^ k ≤ 2 ^ (20 : ℤ) := zpow_le_zpow_right₀ (by norm_num) hk'
  have h3 := two_zpow_pos k
  have : (m : ℝ) * 2 ^ k < 2 ^ 24 * 2 ^ (20 : ℤ) := by nlinarith
  refine this.trans ?_
  norm_num

theorem binary32_rep_neg (m : ℕ) (k : ℤ) {x : ℝ} (hm : m < 2 ^ 24) (hk : -149 ≤ k) (hk' : k ≤ 20) (hx : -x = m * 2 ^ k) : rnd binary32 x = fin x := by
  rcases Nat.eq_zero_or_pos m with rfl | hm0
  · refine binary32_rep 0 0 (by norm_num) (by norm_num) (by norm_num) ?_
    have : -x = 0 := by simpa using hx
    simpa using this
  have hpos : 0 < -x := by rw [hx]; exact mul_pos (by exact_mod_cast hm0) (two_zpow_pos k)
  have h1 := binary32_rep m k hm hk hk' hx
  unfold binary32 at h1 ⊢
  rw [ieee_round_nonneg hpos.le] at h1
  rw [ieee_round_neg (by linarith)]
  split_ifs at h1 ⊢ with h2
  · rw [fin_inj] at h1
    rw [h1, neg_neg]
  · cases h1

/-- The rim of C130 is needed, in single precision: a ray along the first axis, 4096 units before the centre, passes at a distance of less than 1.503 from it,
but a sphere with a radius of more than 1.515 is not hit, in whatever range. All numbers are exactly representable. -/
theorem C130_rim (tmin tmax : Fl binary32) (rec : HitRecord (Fl binary32)) :
    let o : Fin 3 → ℝ := ![-4096, 17 / 16, 17 / 16]
    let d : Fin 3 → ℝ := ![1, 0, 0]
    let r : ℝ := 97 / 64
    dist2 0 o d 4096 < 1.503 ^ 2 ∧ 1.515 < r ∧
    (Sphere.hit ⟨fun i => fin ((0 : Fin 3 → ℝ) i), fin r⟩ ⟨fun i => fin (o i), fun i => fin (d i)⟩ tmin tmax rec).1 = false := by
  intro o d r
  refine ⟨?_, by norm_num [r], ?_⟩
  · simp [dist2, o, d, Fin.sum_univ_three]; norm_num
  have hadd : ∀ x y : ℝ, (fin x : Fl binary32) + fin y = rnd binary32 (x + y) := fun _ _ => rfl
  have hmul : ∀ x y : ℝ, (fin x : Fl binary32) * fin y = rnd binary32 (x * y) := fun _ _ => rfl
  have hfma : ∀ x y z : ℝ, Scalar.fma (fin x : Fl binary32) (fin y) (fin z) = rnd binary32 (x * y + z) := fun _ _ _ => rfl
  have hsub : ∀ x y : ℝ, (fin x : Fl binary32) - fin y = rnd binary32 (x - y) := fun x y => by
    rw [Fl.sub_eq, Fl.neg_fin, hadd, sub_eq_add_neg]
  have e0 : rnd binary32 0 = fin 0 := binary32_rep 0 0 (by norm_num) (by norm_num) (by norm_num) (by norm_num)
  have e1 : rnd binary32 1 = fin 1 := binary32_rep 1 0 (by norm_num) (by norm_num) (by norm_num) (by norm_num)
  have em : rnd binary32 (-4096) = fin (-4096) := binary32_rep_neg 1 12 (by norm_num) (by norm_num) (by norm_num) (by norm_num)
  have ey : rnd binary32 (17 / 16) = fin (17 / 16) := binary32_rep 17 (-4) (by norm_num) (by norm_num) (by norm_num) (by norm_num)
  have hoc : ((fun i => fin (o i)) - (fun i => fin ((0 : Fin 3 → ℝ) i)) : Vec (Fl binary32) 3) = fun i => fin (o i) := by
    funext i
    show (fin (o i) : Fl binary32) - fin ((0 : Fin 3 → ℝ) i) = _
    rw [hsub]
    fin_cases i
    · simpa [o] using em
    · simpa [o] using ey
    · simpa [o] using ey
  have l2 : (2 : Fl binary32) = fin 2 := by
    have := lit_small (F := binary32) 2 (by norm_num)
    simpa using this
  have l4 : (4 : Fl binary32) = fin 4 := by
    have := lit_small (F := binary32) 4 (by norm_num)
    simpa using this
  have ha : Vec.squaredNorm (fun i => fin (d i) : Vec (Fl binary32) 3) = fin 1 := by
    unfold Vec.squaredNorm
    rw [loopSum_succ, loopSum_succ, loopSum_succ]
    show (((0 : Fl binary32) + fin 1 * fin 1) + fin 0 * fin 0) + fin 0 * fin 0 = _
    rw [rzero]
    simp only [hmul, mul_zero, mul_one, e0, e1, hadd, zero_add, add_zero]
  have hb : (2 : Fl binary32) * Vec.dot (fun i => fin (o i)) (fun i => fin (d i)) = fin (-8192) := by
    unfold Vec.dot
    rw [loopSum_succ, loopSum_succ, loopSum_succ, l2]
    show (fin 2 : Fl binary32) * ((((0 : Fl binary32) + fin (-4096) * fin 1) + fin (17 / 16) * fin 0) + fin (17 / 16) * fin 0) = _
    rw [rzero]
    simp only [hmul, mul_zero, mul_one, e0, em, hadd, zero_add, add_zero]
    rw [show (2 : ℝ) * -4096 = -8192 by norm_num]
    exact binary32_rep_neg 1 13 (by norm_num) (by norm_num) (by norm_num) (by norm_num)
  have hc : Vec.squaredNorm (fun i => fin (o i) : Vec (Fl binary32) 3) - fin r * fin r = fin 16777218 := by
    unfold Vec.squaredNorm
    rw [loopSum_succ, loopSum_succ, loopSum_succ]
    show ((((0 : Fl binary32) + fin (-4096) * fin (-4096)) + fin (17 / 16) * fin (17 / 16)) + fin (17 / 16) * fin (17 / 16)) - fin (97 / 64) * fin (97 / 64) = _
    have s1 : rnd binary32 (-4096 * -4096) = fin 16777216 := by
      rw [show (-4096 : ℝ) * -4096 = 16777216 by norm_num]
      exact binary32_rep 16 20 (by norm_num) (by norm_num) (by norm_num) (by norm_num)
    have s2 : rnd binary32 16777216 = fin 16777216 := binary32_rep 16 20 (by norm_num) (by norm_num) (by norm_num) (by norm_num)
    have s3 : rnd binary32 (17 / 16 * (17 / 16)) = fin (289 / 256) := by
      rw [show (17 / 16 : ℝ) * (17 / 16) = 289 / 256 by norm_num]
      exact binary32_rep 289 (-8) (by norm_num) (by norm_num) (by norm_num) (by norm_num)
    have s4 : rnd binary32 (16777216 + 289 / 256) = fin 16777218 := by
      rw [binary32_round 24 8388609 (by norm_num) (by norm_num) (by norm_num) (by norm_num) (by norm_num [abs_lt])]
      norm_num
    have s5 : rnd binary32 (16777218 + 289 / 256) = fin 16777220 := by
      rw [binary32_round 24 8388610 (by norm_num) (by norm_num) (by norm_num) (by norm_num) (by norm_num [abs_lt])]
      norm_num
    have s6 : rnd binary32 (97 / 64 * (97 / 64)) = fin (9409 / 4096) := by
      rw [show (97 / 64 : ℝ) * (97 / 64) = 9409 / 4096 by norm_num]
      exact binary32_rep 9409 (-12) (by norm_num) (by norm_num) (by norm_num) (by norm_num)
    have s7 : rnd binary32 (16777220 - 9409 / 4096) = fin 16777218 := by
      rw [binary32_round 24 8388609 (by norm_num) (by norm_num) (by norm_num) (by norm_num) (by norm_num [abs_lt])]
      norm_num
    rw [rzero]
    simp only [hmul, s1, s3, hadd, zero_add, s2, s4, s5, s6, hsub, s7]
  have hdelta : discriminant (fin 1 : Fl binary32) (fin (-8192)) (fin 16777218) = fin (-8) := by
    have d1 : rnd binary32 4 = fin 4 := binary32_rep 4 0 (by norm_num) (by norm_num) (by norm_num) (by norm_num)
    have d2 : rnd binary32 (4 * 16777218) = fin 67108872 := by
      rw [show (4 : ℝ) * 16777218 = 67108872 by norm_num]
      exact binary32_rep 8388609 3 (by norm_num) (by norm_num) (by norm_num) (by norm_num)
    have d3 : rnd binary32 (-16777218 * 4 + 67108872) = fin 0 := by
      rw [show (-16777218 : ℝ) * 4 + 67108872 = 0 by norm_num, e0]
    have d4 : rnd binary32 (-8192 * -8192 + -67108872) = fin (-8) := by
      rw [show (-8192 : ℝ) * -8192 + -67108872 = -8 by norm_num]
      exact binary32_rep_neg 8 0 (by norm_num) (by norm_num) (by norm_num) (by norm_num)
    have d5 : rnd binary32 (-8) = fin (-8) := binary32_rep_neg 8 0 (by norm_num) (by norm_num) (by norm_num) (by norm_num)
    unfold discriminant
    rw [l4]
    simp only [hmul, mul_one, d1, d2, Fl.neg_fin, hfma, d3, d4, hadd, add_zero, d5]
  have htiny : (Scalar.tiny : Fl binary32) = fin (2 ^ (-126 : ℤ)) := rfl
  have hnil : quadraticRoots (fin 1 : Fl binary32) (fin (-8192)) (fin 16777218) = [] := by
    unfold quadraticRoots
    rw [htiny, abs_fin, abs_fin, le_fin, le_fin, decide_eq_false (by norm_num), decide_eq_false (by norm_num), hdelta, rzero]
    simp
  unfold Sphere.hit
  dsimp only
  rw [hoc, ha, hb, hc, firstQuadraticRootInRange, hnil]

end DRT
