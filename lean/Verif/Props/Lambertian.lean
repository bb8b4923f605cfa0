import Verif.Model.Material
import Verif.Lemmas.Pcg
import Verif.Lemmas.Vec
import Verif.Scalar.IEEE
import Mathlib.LinearAlgebra.Matrix.DotProduct

/-! # C74, C75: `lambertian`, and the sampling of `isotropic` -/

namespace DRT
open Scalar Fl Matrix

variable {F : Fmt}

namespace Lambertian

theorem draw_snd {R : Type} [Scalar R] (g : Pcg) : (draw g : Vec R 3 × Pcg).2 = Pcg.advance^[3] g := rfl

/-- The state from which the three draws are near the middle of the range. -/
def goodState : BitVec 64 := 12761316417082763257#64

theorem good_outputs (i : ℕ) (hi : i < 3) :
    2 ^ 31 ≤ (Pcg.output (Pcg.advance^[i] ⟨goodState, 234121#64⟩).state).toNat ∧
    (Pcg.output (Pcg.advance^[i] ⟨goodState, 234121#64⟩).state).toNat ≤ 3 * 2 ^ 30 := by
  have : i = 0 ∨ i = 1 ∨ i = 2 := by omega
  rcases this with rfl | rfl | rfl <;> decide +kernel

/-- The loop ends as soon as one of the draws it would make is accepted. -/
theorem ends {R : Type} [Scalar R] (n : ℕ) (g : Pcg)
    (h : gt (Vec.squaredNorm (draw (Pcg.advance^[3 * n] g) : Vec R 3 × Pcg).1) 1 = false) :
    ∃ out, (randomUnitVector (n + 1) g : Option (Vec R 3 × Pcg)) = some out := by
  induction n generalizing g with
  | zero =>
    refine ⟨draw g, ?_⟩
    rw [randomUnitVector]
    simp only [Nat.mul_zero, Function.iterate_zero, id_eq] at h
    simp only [h, Bool.false_eq_true, if_false]
  | succ n ih =>
    rw [randomUnitVector]
    by_cases hc : gt (Vec.squaredNorm (draw g : Vec R 3 × Pcg).1) 1 = true
    · simp only [hc, if_true]
      apply ih
      rw [draw_snd, ← Function.iterate_add_apply, ← Nat.mul_succ]
      exact h
    · simp only [hc, Bool.false_eq_true, if_false]
      exact ⟨_, rfl⟩

theorem fuel_mono {R : Type} [Scalar R] (n k : ℕ) (g : Pcg) (out : Vec R 3 × Pcg)
    (h : randomUnitVector n g = some out) : randomUnitVector (n + k) g = some out := by
  induction n generalizing g with
  | zero => cases h
  | succ n ih =>
    rw [Nat.succ_add, randomUnitVector]
    rw [randomUnitVector] at h
    by_cases hc : gt (Vec.squaredNorm (draw g : Vec R 3 × Pcg).1) 1 = true
    · simp only [hc, if_true] at h ⊢
      exact ih _ h
    · simp only [hc, Bool.false_eq_true, if_false] at h ⊢
      exact h

theorem accepted {R : Type} [Scalar R] (n : ℕ) (g : Pcg) (out : Vec R 3 × Pcg)
    (h : randomUnitVector n g = some out) : ∃ k < n, out = draw (Pcg.advance^[3 * k] g) ∧ gt (Vec.squaredNorm out.1) 1 = false ∧
      ∀ j < k, gt (Vec.squaredNorm (draw (Pcg.advance^[3 * j] g) : Vec R 3 × Pcg).1) 1 = true := by
  induction n generalizing g with
  | zero => cases h
  | succ n ih =>
    rw [randomUnitVector] at h
    by_cases hc : gt (Vec.squaredNorm (draw g : Vec R 3 × Pcg).1) 1 = true
    · simp only [hc, if_true] at h
      obtain ⟨k, hk, h1, h2, h3⟩ := ih _ h
      refine ⟨k + 1, by omega, ?_, h2, ?_⟩
      · rw [h1, draw_snd, ← Function.iterate_add_apply, ← Nat.mul_succ]
      · intro j hj
        rcases j with _ | j
        · exact hc
        · have := h3 j (by omega)
          rwa [draw_snd, ← Function.iterate_add_apply, ← Nat.mul_succ] at this
    · simp only [hc, Bool.false_eq_true, if_false, Option.some.injEq] at h
      subst h
      exact ⟨0, by omega, rfl, by simpa using hc, fun j hj => absurd hj (by omega)⟩

end Lambertian

/-- Rounding leaves the multiples of a quarter up to 2 as they are. -/
def ExactQuarters (F : Fmt) : Prop := ∀ n : ℕ, n ≤ 8 → rnd F ((n : ℝ) / 4) = fin ((n : ℝ) / 4)

theorem rnd_between [F.Rounding] {a b x : ℝ} (ha : rnd F a = fin a) (hb : rnd F b = fin b) (h1 : a ≤ x) (h2 : x ≤ b) :
    ∃ r, rnd F x = fin r ∧ a ≤ r ∧ r ≤ b := by
  have m1 := Fmt.Rounding.mono (F := F) h1
  have m2 := Fmt.Rounding.mono (F := F) h2
  rw [ha] at m1
  rw [hb] at m2
  generalize rnd F x = y at *
  cases y with
  | nan => simp at m1
  | ninf => simp at m1
  | pinf => simp at m2
  | fin r =>
    exact ⟨r, rfl, by simpa using m1, by simpa using m2⟩

theorem exactQuarters_of_exact [F.Exact] : ExactQuarters F := fun _ _ => rnd_eq _

theorem exactQuarters_ieee {p : ℕ} {emin emax : ℤ} (hp : 9 ≤ p) (h0 : emin ≤ 0) (h9 : 9 ≤ emax) : ExactQuarters (ieee p emin emax) := by
  intro n hn
  have e : (n : ℝ) / 4 = n * 2 ^ (-2 : ℤ) := by rw [zpow_neg]; norm_num; ring
  rw [e]
  refine ieee_rep (lt_of_le_of_lt hn (lt_of_lt_of_le (by norm_num) (Nat.pow_le_pow_right (by norm_num) hp))) (by omega) ?_
  have h8 : (n : ℝ) ≤ 8 := by exact_mod_cast hn
  calc (n : ℝ) * 2 ^ (-2 : ℤ) < 2 ^ (9 : ℤ) := by rw [zpow_neg]; norm_num; linarith
    _ ≤ _ := zpow_le_zpow_right₀ (by norm_num) (by omega)

/-- From the good state the first vector drawn is accepted. -/
theorem good_accepted [F.Rounding] (hq : ExactQuarters F) :
    gt (Vec.squaredNorm (Lambertian.draw ⟨Lambertian.goodState, 234121#64⟩ : Vec (Fl F) 3 × Pcg).1) 1 = false := by
  have q0 := rnd_zero (F := F)
  have q1 : rnd F (1 / 4) = fin (1 / 4) := by simpa using hq 1 (by norm_num)
  have q2 : rnd F (1 / 2) = fin (1 / 2) := by have := hq 2 (by norm_num); norm_num at this; simpa using this
  have q3 : rnd F (3 / 4) = fin (3 / 4) := by simpa using hq 3 (by norm_num)
  have q4 := rnd_one (F := F)
  have q6 : rnd F (3 / 2) = fin (3 / 2) := by have := hq 6 (by norm_num); norm_num at this; simpa using this
  have comp : ∀ w : ℕ, 2 ^ 31 ≤ w → w ≤ 3 * 2 ^ 30 → ∃ r : ℝ, (2 : Fl F) * ldexp32 w - 1 = fin r ∧ 0 ≤ r ∧ r ≤ 1 / 2 := by
    intro w h1 h2
    have h1' : (2 : ℝ) ^ 31 ≤ w := by exact_mod_cast h1
    have h2' : (w : ℝ) ≤ 3 * 2 ^ 30 := by exact_mod_cast h2
    obtain ⟨x, hx, x1, x2⟩ := rnd_between (x := (w : ℝ) / 2 ^ 32) q2 q3 (by linarith) (by linarith)
    obtain ⟨y, hy, y1, y2⟩ := rnd_between (x := 2 * x) q4 q6 (by linarith) (by linarith)
    obtain ⟨z, hz, z1, z2⟩ := rnd_between (x := y - 1) q0 q2 (by linarith) (by linarith)
    refine ⟨z, ?_, z1, z2⟩
    have e2 : (2 : Fl F) = fin 2 := by rw [lit_small 2 (by norm_num)]; norm_num
    rw [show (ldexp32 w : Fl F) = rnd F ((w : ℝ) / 2 ^ 32) from rfl, hx, e2, rone,
      show (fin 2 : Fl F) * fin x = rnd F (2 * x) from rfl, hy]
    exact hz
  have sq : ∀ r : ℝ, 0 ≤ r → r ≤ 1 / 2 → ∃ s, (fin r : Fl F) * fin r = fin s ∧ 0 ≤ s ∧ s ≤ 1 / 4 := fun r h1 h2 =>
    rnd_between q0 q1 (mul_self_nonneg r) (by nlinarith)
  obtain ⟨a, ha, a1, a2⟩ := comp _ (Lambertian.good_outputs 0 (by norm_num)).1 (Lambertian.good_outputs 0 (by norm_num)).2
  obtain ⟨b, hb, b1, b2⟩ := comp _ (Lambertian.good_outputs 1 (by norm_num)).1 (Lambertian.good_outputs 1 (by norm_num)).2
  obtain ⟨c, hc, c1, c2⟩ := comp _ (Lambertian.good_outputs 2 (by norm_num)).1 (Lambertian.good_outputs 2 (by norm_num)).2
  have hd : (Lambertian.draw ⟨Lambertian.goodState, 234121#64⟩ : Vec (Fl F) 3 × Pcg).1 = ![fin a, fin b, fin c] := by
    rw [← ha, ← hb, ← hc]
    rfl
  rw [hd]
  obtain ⟨a', ha', a3, a4⟩ := sq a a1 a2
  obtain ⟨b', hb', b3, b4⟩ := sq b b1 b2
  obtain ⟨c', hc', c3, c4⟩ := sq c c1 c2
  obtain ⟨s, hs, s1, s2⟩ := rnd_between (x := 0 + a') q0 q1 (by linarith) (by linarith)
  obtain ⟨t, ht, t1, t2⟩ := rnd_between (x := s + b') q0 q2 (by linarith) (by linarith)
  obtain ⟨u, hu, u1, u2⟩ := rnd_between (x := t + c') q0 q3 (by linarith) (by linarith)
  have : Vec.squaredNorm (![fin a, fin b, fin c] : Vec (Fl F) 3) = fin u := by
    rw [← hu, show rnd F (t + c') = (fin t : Fl F) + fin c' from rfl, ← ht, show rnd F (s + b') = (fin s : Fl F) + fin b' from rfl,
      ← hs, show rnd F (0 + a') = (fin 0 : Fl F) + fin a' from rfl, ← ha', ← hb', ← hc', ← rzero]
    simp [Vec.squaredNorm, loopSum, Fin.foldl_succ]
  rw [this, rone, gt]
  simp
  linarith

/-- C75: from every state of the generator of `lambertian` the loop ends, after at most `2^64` bodies, in exact arithmetic and in
every monotone rounding that keeps the multiples of a quarter. -/
theorem C75_terminates [F.Rounding] (hq : ExactQuarters F) (g : Pcg) (hg : g.inc = 234121#64) :
    ∃ out, (Lambertian.randomUnitVector (2 ^ 64) g : Option (Vec (Fl F) 3 × Pcg)) = some out := by
  obtain ⟨n, hn, hs⟩ := Pcg.visits g (j := 3) (by norm_num) Lambertian.goodState
  have he : Pcg.advance^[3 * n] g = ⟨Lambertian.goodState, 234121#64⟩ :=
    Pcg.ext_state hs (by rw [Pcg.inc_iterate, hg])
  obtain ⟨out, ho⟩ := Lambertian.ends (R := Fl F) n g (by rw [he]; exact good_accepted hq)
  refine ⟨out, ?_⟩
  have := Lambertian.fuel_mono (n + 1) (2 ^ 64 - (n + 1)) g out ho
  rwa [Nat.add_sub_cancel' hn] at this

example (g : Pcg) (hg : g.inc = 234121#64) :
    ∃ out, (Lambertian.randomUnitVector (2 ^ 64) g : Option (Vec (Fl binary32) 3 × Pcg)) = some out :=
  C75_terminates (F := binary32) (exactQuarters_ieee (by norm_num) (by norm_num) (by norm_num)) g hg

example (g : Pcg) (hg : g.inc = 234121#64) :
    ∃ out, (Lambertian.randomUnitVector (2 ^ 64) g : Option (Vec (Fl binary64) 3 × Pcg)) = some out :=
  C75_terminates (F := binary64) (exactQuarters_ieee (by norm_num) (by norm_num) (by norm_num)) g hg

/-- C75: a longer loop bound does not change the vector: what is returned is the first of the consecutive triples of draws that is not
rejected. Holds in every arithmetic. -/
theorem C75_first_accepted {R : Type} [Scalar R] (fuel : ℕ) (g : Pcg) (out : Vec R 3 × Pcg)
    (h : Lambertian.randomUnitVector fuel g = some out) :
    ∃ k : ℕ, out.2 = Pcg.advance^[3 * k + 3] g ∧
      (∀ i : Fin 3, out.1 i = 2 * (Pcg.real01 (Pcg.advance^[3 * k + i] g)).1 - 1) ∧ gt (Vec.squaredNorm out.1) 1 = false := by
  obtain ⟨k, -, h1, h2, -⟩ := Lambertian.accepted fuel g out h
  refine ⟨k, ?_, ?_, h2⟩
  · rw [h1, Lambertian.draw_snd, ← Function.iterate_add_apply, Nat.add_comm]
  · intro i
    have e : ∀ j : ℕ, Pcg.advance^[3 * k + j] g = Pcg.advance^[j] (Pcg.advance^[3 * k] g) := fun j => by
      rw [← Function.iterate_add_apply, Nat.add_comm]
    rw [h1, e]
    fin_cases i <;> rfl

/-- The search of `C75_terminates` in single precision. -/
example (g : Pcg) (hg : g.inc = 234121#64) : ∃ out, Lambertian.randomUnitVector (R := Fl binary32) (2 ^ 64) g = some out ∧
    gt (Vec.squaredNorm out.1) 1 = false := by
  obtain ⟨out, h⟩ := C75_terminates (F := binary32) (exactQuarters_ieee (by norm_num) (by norm_num) (by norm_num)) g hg
  obtain ⟨k, -, -, h1⟩ := C75_first_accepted _ _ _ h
  exact ⟨out, h, h1⟩

/-- C75: the vector returned is in the closed unit ball. -/
theorem C75_ball [F.Exact] (fuel : ℕ) (g : Pcg) (out : Vec (Fl F) 3 × Pcg) (h : Lambertian.randomUnitVector fuel g = some out) :
    ∃ v : Fin 3 → ℝ, out.1 = cv v ∧ v ⬝ᵥ v ≤ 1 := by
  obtain ⟨k, -, h1, h2⟩ := C75_first_accepted fuel g out h
  have e : ∀ i : Fin 3, out.1 i = fin (2 * (((Pcg.next (Pcg.advance^[3 * k + i] g)).1.toNat : ℝ) / 2 ^ 32) - 1) := by
    intro i
    rw [h1, Pcg.real01]
    simp only [fl, Nat.cast_ofNat, Nat.cast_one]
  have hv : out.1 = cv fun i : Fin 3 => 2 * (((Pcg.next (Pcg.advance^[3 * k + i] g)).1.toNat : ℝ) / 2 ^ 32) - 1 := by
    funext i
    rw [e]
    rfl
  refine ⟨_, hv, ?_⟩
  rw [hv, cv_squaredNorm, gt] at h2
  simpa using h2

example (g : Pcg) (hg : g.inc = 234121#64) : ∃ out, Lambertian.randomUnitVector (R := Fl exact64) (2 ^ 64) g = some out ∧
    ∃ v : Fin 3 → ℝ, out.1 = cv v ∧ v ⬝ᵥ v ≤ 1 := by
  obtain ⟨out, h⟩ := C75_terminates (F := exact64) exactQuarters_of_exact g hg
  exact ⟨out, h, C75_ball _ _ _ h⟩

/-- C75: `random_in_hemisphere` returns a vector in the unit ball on the side of the normal. -/
theorem C75_hemisphere [F.Exact] (fuel : ℕ) (g : Pcg) (n : Fin 3 → ℝ) (out : Vec (Fl F) 3 × Pcg)
    (h : Lambertian.randomInHemisphere fuel g (cv n) = some out) :
    ∃ v : Fin 3 → ℝ, out.1 = cv v ∧ v ⬝ᵥ v ≤ 1 ∧ 0 ≤ v ⬝ᵥ n := by
  unfold Lambertian.randomInHemisphere at h
  rcases hu : (Lambertian.randomUnitVector fuel g : Option (Vec (Fl F) 3 × Pcg)) with _ | ⟨v, g'⟩
  · rw [hu] at h; cases h
  · rw [hu] at h
    obtain ⟨w, hw, h1⟩ := C75_ball fuel g _ hu
    simp only [Option.some.injEq] at h hw
    subst h hw
    simp only [cv_dot, cv_neg, gt, ofNat_zero]
    by_cases hc : 0 < w ⬝ᵥ n
    · exact ⟨w, by simp [hc], h1, hc.le⟩
    · exact ⟨-w, by simp [hc], by simpa using h1, by simpa using hc⟩

/-- C75, `isotropic`: the direction has unit length unless the three numbers drawn are all zero. There is no loop. -/
theorem C75_isotropic [F.Exact] (x : Fin 3 → ℝ) (hx : x ≠ 0) :
    ∃ w : Fin 3 → ℝ, Isotropic.randomInUnitSphere (cv x : Vec (Fl F) 3) = cv w ∧ w ⬝ᵥ w = 1 ∧ ∃ c : ℝ, 0 < c ∧ w = c • x := by
  have hs : 0 < x ⬝ᵥ x := lt_of_le_of_ne (dotProduct_self_nonneg' x) fun h => hx (dotProduct_self_eq_zero.mp h.symm)
  have hm : 0 < Real.sqrt (x ⬝ᵥ x) := Real.sqrt_pos.mpr hs
  refine ⟨(1 / Real.sqrt (x ⬝ᵥ x)) • x, ?_, ?_, 1 / Real.sqrt (x ⬝ᵥ x), one_div_pos.mpr hm, rfl⟩
  · funext i
    simp only [Isotropic.randomInUnitSphere, Vec.divAssign, cv_norm, cv_apply, ofNat_one, div_fin _ hm.ne', mul_fin,
      Pi.smul_apply, smul_eq_mul]
    rw [fin_inj]; ring
  · rw [smul_dotProduct, dotProduct_smul, smul_eq_mul, smul_eq_mul]
    have := Real.mul_self_sqrt hs.le
    field_simp
    nlinarith

example : ∃ w : Fin 3 → ℝ, Isotropic.randomInUnitSphere (cv ![1, -2, 2] : Vec (Fl exact64) 3) = cv w ∧ w ⬝ᵥ w = 1 := by
  obtain ⟨w, h1, h2, -⟩ := C75_isotropic (F := exact64) ![1, -2, 2] (fun h => by have := congrFun h 0; simp at this)
  exact ⟨w, h1, h2⟩

/-! ## C74 -/

/-- C74: in every arithmetic in which the loop ends, `scatter` returns true, starts the new ray at the hit point, and attenuates
by the texture colour. -/
theorem C74_always {R : Type} [Scalar R] (albedo : Texture R) (fuel : ℕ) (g : Pcg) (r : Ray R) (rec : HitRecord R) (s : Scattered R)
    (g' : Pcg) (h : Lambertian.scatter albedo fuel g r rec = some (s, g')) :
    s.ok = true ∧ s.attenuation = some (albedo rec) ∧ ∃ d, s.ray = some ⟨rec.p, d⟩ := by
  unfold Lambertian.scatter at h
  split at h
  · cases h
  · simp only [Option.some.injEq, Prod.mk.injEq] at h
    obtain ⟨rfl, -⟩ := h
    exact ⟨rfl, rfl, _, rfl⟩

example (g : Pcg) (hg : g.inc = 234121#64) (rec : HitRecord (Fl exact64)) (r : Ray (Fl exact64)) :
    ∃ s g', Lambertian.scatter (solidColor (cv ![1 / 2, 1 / 3, 1])) (2 ^ 64) g r rec = some (s, g') ∧ s.ok = true := by
  obtain ⟨out, h⟩ := C75_terminates (F := exact64) exactQuarters_of_exact g hg
  cases hs : Lambertian.scatter (solidColor (cv ![1 / 2, 1 / 3, 1])) (2 ^ 64) g r rec with
  | none => unfold Lambertian.scatter Lambertian.randomInHemisphere at hs; rw [h] at hs; revert hs; dsimp only; split_ifs <;> simp
  | some x => exact ⟨x.1, x.2, rfl, (C74_always _ _ _ _ _ _ _ hs).1⟩

/-- C74: for a unit normal, from every generator state, `scatter` ends and the direction of the new ray is the normal plus a vector of the
unit ball, has dot product at least 1 with the normal, and is not zero. The generator keeps its increment, so the next call
ends too. -/
theorem C74_scatter [F.Exact] (albedo : Texture (Fl F)) (g : Pcg) (hg : g.inc = 234121#64) (r : Ray (Fl F)) (rec : HitRecord (Fl F))
    (n : Fin 3 → ℝ) (hn : rec.normal = cv n) (h1 : n ⬝ᵥ n = 1) :
    ∃ s g', Lambertian.scatter albedo (2 ^ 64) g r rec = some (s, g') ∧ s.ok = true ∧ s.attenuation = some (albedo rec) ∧
      g'.inc = 234121#64 ∧
      ∃ w : Fin 3 → ℝ, s.ray = some ⟨rec.p, cv w⟩ ∧ 1 ≤ w ⬝ᵥ n ∧ w ≠ 0 ∧ (w - n) ⬝ᵥ (w - n) ≤ 1 := by
  obtain ⟨out, ho⟩ := C75_terminates (exactQuarters_of_exact (F := F)) g hg
  have hh : Lambertian.randomInHemisphere (2 ^ 64) g rec.normal =
      some (if gt (Vec.dot out.1 rec.normal) 0 then out.1 else -out.1, out.2) := by
    unfold Lambertian.randomInHemisphere
    rw [ho]
  have hinc : out.2.inc = 234121#64 := by
    obtain ⟨k, hk, -⟩ := C75_first_accepted _ _ _ ho
    rw [hk, Pcg.inc_iterate, hg]
  rw [hn] at hh
  obtain ⟨v, hv, v1, v2⟩ := C75_hemisphere _ _ _ _ hh
  simp only at hv
  rw [hv] at hh
  have key : 1 ≤ (n + v) ⬝ᵥ n := by rw [add_dotProduct, h1]; linarith
  have hsq : 1 ≤ (n + v) ⬝ᵥ (n + v) := by
    rw [dotProduct_add, add_dotProduct n v v, dotProduct_comm n v]
    have := dotProduct_self_nonneg' v
    linarith
  have heps : Real.sqrt F.eps < 1 := by
    rw [Real.sqrt_lt' one_pos]
    have := Fmt.Exact.eps_lt (F := F)
    linarith
  have hlt : lt (Vec.squaredNorm (cv n + cv v : Vec (Fl F) 3)) (Scalar.sqrt eps) = false := by
    rw [cv_add, cv_squaredNorm, eps_def, sqrt_fin (Fmt.Exact.eps_pos (F := F)).le, lt_fin]
    rw [decide_eq_false_iff_not]
    linarith
  rw [cv_add] at hlt
  refine ⟨⟨true, some (albedo rec), some ⟨rec.p, cv (n + v)⟩⟩, out.2, ?_, rfl, rfl, hinc, n + v, rfl, key, ?_, ?_⟩
  · unfold Lambertian.scatter
    simp only [hn, hh, cv_add, hlt, Bool.false_eq_true, if_false]
  · intro h
    rw [h, zero_dotProduct] at key
    linarith
  · simpa using v1

/-- The generator as the constructor of `lambertian` seeds it, and the normal `(0, 0, 1)`. -/
example (rec : HitRecord (Fl exact64)) (hn : rec.normal = cv ![0, 0, 1]) (r : Ray (Fl exact64)) :
    ∃ s g', Lambertian.scatter (solidColor (cv ![1, 0, 0])) (2 ^ 64) ⟨1235123#64, 234121#64⟩ r rec = some (s, g') ∧
      ∃ w : Fin 3 → ℝ, s.ray = some ⟨rec.p, cv w⟩ ∧ 1 ≤ w ⬝ᵥ ![0, 0, 1] := by
  obtain ⟨s, g', h, -, -, -, w, hw, h1, -⟩ := C74_scatter (F := exact64) (solidColor (cv ![1, 0, 0])) ⟨1235123#64, 234121#64⟩ rfl r rec _ hn
    (by simp [dotProduct, Fin.sum_univ_three])
  exact ⟨s, g', h, w, hw, h1⟩

end DRT
