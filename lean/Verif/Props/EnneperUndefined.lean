import Verif.Props.Enneper
import Verif.Props.NewtonFinite

/-!
# C135: what a ray sees of Enneper's surface

`compute_uvt` calls Newton's method from the centre of `[-1,1]²`, where the entry `J(1,0)` of the matrix is zero, and `matrix::solve` then
reads an element that it never wrote.
-/

namespace DRT
open Scalar Vec Matrix Fl

variable {F : Fmt}

theorem Enneper.solve_none [F.Rounding] (o d w b : Vec (Fl F) 3) (h0 : w 0 = fin 0) (h1 : w 1 = fin 0) :
    Mat.solve3 (Enneper.objective o d w).2 b = none := by
  have r0 : rnd F 0 = fin 0 := Fl.rnd_zero
  have r1 : rnd F 1 = fin 1 := Fl.rnd_one
  have m0 : (fin 0 * fin 0 : Fl F) = fin 0 := by show rnd F (0 * 0) = _; rw [mul_zero, r0]
  have a00 : (Enneper.objective o d w).2 0 0 = fin 1 := by
    show (1 - (w 0 * w 0 - w 1 * w 1) : Fl F) = _
    rw [h0, h1, m0, rone]
    have : (fin 0 - fin 0 : Fl F) = fin 0 := by show rnd F (0 - 0) = _; rw [sub_zero, r0]
    rw [this]
    show rnd F (1 - 0) = _
    rw [sub_zero, r1]
  have a10 : (Enneper.objective o d w).2 1 0 = fin 0 := by
    show (2 * w 0 * w 1 : Fl F) = _
    rw [h0, h1, lit_small 2 (by norm_num)]
    have : (fin ((2 : ℕ) : ℝ) * fin 0 : Fl F) = fin 0 := by show rnd F (_ * 0) = _; rw [mul_zero, r0]
    rw [this, m0]
  unfold Mat.solve3
  rw [if_pos (by rw [a00, rzero]; simp [Scalar.ne])]
  dsimp only
  rw [if_neg (by rw [a10, rzero]; simp [Scalar.ne])]
  rfl

theorem Enneper.center_zero [F.Rounding] (b : Bounds (Fl F) 3) :
    (Enneper.setUV b (-1, 1) (-1, 1)).center 0 = fin 0 ∧ (Enneper.setUV b (-1, 1) (-1, 1)).center 1 = fin 0 := by
  have : ((-1 + 1) / 2 : Fl F) = fin 0 := by
    have h : (-1 + 1 : Fl F) = fin 0 := by
      rw [rone, Fl.neg_fin]
      show rnd F (-1 + 1) = _
      rw [neg_add_cancel, Fl.rnd_zero]
    rw [h, lit_small 2 (by norm_num)]
    show (if ((2 : ℕ) : ℝ) = 0 then _ else rnd F (0 / ((2 : ℕ) : ℝ))) = _
    rw [if_neg (by norm_num), zero_div, Fl.rnd_zero]
  exact ⟨this, this⟩

/-- Newton's method reads an indeterminate value when it starts from `u = v = 0`. -/
theorem Enneper.newton_none [F.Rounding] (o d : Vec (Fl F) 3) (b : Bounds (Fl F) 3) (w : Vec (Fl F) 3) (h0 : w 0 = fin 0)
    (h1 : w 1 = fin 0) (k) : newtonN Mat.solve3 (Enneper.objective o d) b w k = none := by
  unfold newtonN
  have : NewtonN.body Mat.solve3 (Enneper.objective o d) (NewtonN.start (Enneper.objective o d) b w) = none := by
    unfold NewtonN.body NewtonN.start
    dsimp only
    rw [Enneper.solve_none o d w _ h0 h1]
  rw [NewtonN.loop, this]

/-- `compute_uvt` never returns with defined behaviour. -/
theorem Enneper.computeUVT_none [F.Rounding] (o d : Vec (Fl F) 3) (tmin tmax : Fl F) : Enneper.computeUVT Mat.solve3 o d tmin tmax = none := by
  unfold Enneper.computeUVT
  rcases Bounds.init ![(-2, 0), (-2, 0), (tmin, tmax)] with _ | b0
  · rfl
  simp only [Option.bind_eq_bind, Option.bind_some]
  rcases newtonN Mat.solve3 (Enneper.objective o d) b0 b0.center 16 with _ | s0
  · rfl
  simp only [Option.bind_some]
  rcases newtonN Mat.solve3 (Enneper.objective o d) (Enneper.setUV s0.bound (0, 2) (0, 2)) (Enneper.setUV s0.bound (0, 2) (0, 2)).center 16 with _ | s1
  · rfl
  simp only [Option.bind_some]
  rw [Enneper.newton_none o d _ _ (Enneper.center_zero _).1 (Enneper.center_zero _).2]
  rfl

/-- C135: no ray hits Enneper's surface with defined behaviour, in any arithmetic with monotone rounding. -/
theorem C135_never_false [F.Rounding] (s : Enneper (Fl F)) (r : Ray (Fl F)) (tmin tmax : Fl F) (rec rec' : HitRecord (Fl F)) :
    s.hit r tmin tmax rec ≠ some (true, rec') := by
  unfold Enneper.hit Enneper.hitWith
  dsimp only
  split
  · split_ifs
    · simp
    · simp
    · rw [Enneper.computeUVT_none]; simp
  · simp

/-- C135: the whole of what `hit` does in exact arithmetic. It is undefined for a ray that meets the ball of radius `ρ` within its range and
reports a miss for every other ray. -/
theorem C135_ball_false [F.Exact] (ρ : ℝ) (o d : Fin 3 → ℝ) (hd : F.tiny < d ⬝ᵥ d) (hb : 2 * (o ⬝ᵥ d) = 0 ∨ F.tiny < |2 * (o ⬝ᵥ d)|)
    (tmin tmax : Fl F) (hle : Scalar.le tmin tmax = true) (rec : HitRecord (Fl F)) :
    ((∃ z : ℝ, InRange (tmin, tmax) z ∧ (o + z • d) ⬝ᵥ (o + z • d) ≤ ρ ^ 2) → (⟨fin ρ⟩ : Enneper (Fl F)).hit ⟨cv o, cv d⟩ tmin tmax rec = none) ∧
    ((∀ z : ℝ, InRange (tmin, tmax) z → ρ ^ 2 < (o + z • d) ⬝ᵥ (o + z • d)) →
      (⟨fin ρ⟩ : Enneper (Fl F)).hit ⟨cv o, cv d⟩ tmin tmax rec = some (false, rec)) := by
  have ht : 0 ≤ F.tiny := Fmt.Exact.tiny_nonneg
  have ha : 0 < d ⬝ᵥ d := ht.trans_lt hd
  have hq : ∀ z : ℝ, (o + z • d) ⬝ᵥ (o + z • d) - ρ ^ 2 = (d ⬝ᵥ d) * z ^ 2 + 2 * (o ⬝ᵥ d) * z + (o ⬝ᵥ o - ρ * ρ) := by
    intro z
    simp only [dotProduct, Fin.sum_univ_three, Pi.add_apply, Pi.smul_apply, smul_eq_mul]
    ring
  unfold Enneper.hit Enneper.hitWith
  dsimp only
  rw [cv_squaredNorm, cv_dot, cv_squaredNorm, ofNat_def, mul_fin, mul_fin, sub_fin]
  rcases quadraticRoots_spec (F := F) (d ⬝ᵥ d) (2 * (o ⬝ᵥ d)) (o ⬝ᵥ o - ρ * ρ) (Or.inr (by rwa [abs_of_pos ha])) (Or.inr hb)
    (fun h => ha.ne' h.1) with ⟨h, hne⟩ | ⟨x, y, hxy, h, hvi, hz⟩
  · push_cast
    rw [h]
    refine ⟨fun ⟨z, _, hz⟩ => ?_, fun _ => rfl⟩
    exfalso
    have hv : (d ⬝ᵥ d) * z ^ 2 + 2 * (o ⬝ᵥ d) * z + (o ⬝ᵥ o - ρ * ρ) ≤ 0 := by rw [← hq]; linarith
    have hD : 0 ≤ (2 * (o ⬝ᵥ d)) ^ 2 - 4 * (d ⬝ᵥ d) * (o ⬝ᵥ o - ρ * ρ) := by
      nlinarith [sq_nonneg (2 * (d ⬝ᵥ d) * z + 2 * (o ⬝ᵥ d)), mul_nonpos_of_nonneg_of_nonpos ha.le hv]
    have hs := Real.sq_sqrt hD
    refine hne ((-(2 * (o ⬝ᵥ d)) + Real.sqrt ((2 * (o ⬝ᵥ d)) ^ 2 - 4 * (d ⬝ᵥ d) * (o ⬝ᵥ o - ρ * ρ))) / (2 * (d ⬝ᵥ d))) ?_
    generalize Real.sqrt ((2 * (o ⬝ᵥ d)) ^ 2 - 4 * (d ⬝ᵥ d) * (o ⬝ᵥ o - ρ * ρ)) = q at hs
    generalize d ⬝ᵥ d = a at *
    field_simp
    nlinarith
  · push_cast
    rw [h]
    dsimp only
    obtain ⟨v1, v2⟩ := hvi ha.ne'
    have hfac : ∀ z : ℝ, (o + z • d) ⬝ᵥ (o + z • d) - ρ ^ 2 = (d ⬝ᵥ d) * ((z - x) * (z - y)) := by
      intro z
      rw [hq]
      linear_combination z * v1 - v2
    have hx : (o + x • d) ⬝ᵥ (o + x • d) - ρ ^ 2 = 0 := by rw [hfac]; ring
    have hy : (o + y • d) ⬝ᵥ (o + y • d) - ρ ^ 2 = 0 := by rw [hfac]; ring
    constructor
    · rintro ⟨z, ⟨hz1, hz2⟩, hzb⟩
      have hpos : (z - x) * (z - y) ≤ 0 := by
        by_contra hc
        push Not at hc
        have := mul_pos ha hc
        rw [← hfac] at this
        linarith
      have hzx : x ≤ z := by nlinarith
      have hzy : z ≤ y := by nlinarith
      rw [if_neg, if_neg, Enneper.computeUVT_none]
      · rfl
      · cases tmax <;> simp_all [gt]
        linarith
      · cases tmin <;> simp_all
        linarith
    · intro hout
      by_cases c1 : Scalar.lt (fin y) tmin = true
      · rw [if_pos c1]
      · rw [if_neg c1]
        by_cases c2 : Scalar.gt (fin x) tmax = true
        · rw [if_pos c2]
        · exfalso
          by_cases c3 : Scalar.le tmin (fin x) = true
          · refine absurd (hout x ⟨c3, ?_⟩) (by linarith)
            cases tmax <;> simp_all [gt]
          · cases tmin with
            | fin t =>
              have h1 : x < t := by simpa using c3
              have h2 : t ≤ y := by simpa using c1
              have := hout t ⟨by simp, hle⟩
              have h3 := hfac t
              nlinarith [mul_nonneg ha.le (mul_nonneg (sub_nonneg.2 h1.le) (sub_nonneg.2 h2))]
            | _ => simp_all

/-- Instances: a ray through the ball, and one that passes beside it. -/
example (rec : HitRecord (Fl exact64)) :
    (⟨fin 4⟩ : Enneper (Fl exact64)).hit ⟨cv ![10, 0, 0], cv ![-1, 0, 0]⟩ (fin 0) (inf : Fl exact64) rec = none ∧
    (⟨fin 4⟩ : Enneper (Fl exact64)).hit ⟨cv ![10, 0, 0], cv ![0, 1, 0]⟩ (fin 0) (inf : Fl exact64) rec = some (false, rec) := by
  have ht : exact64.tiny < 1 := Fmt.Exact.tiny_lt
  constructor
  · refine (C135_ball_false (F := exact64) 4 ![10, 0, 0] ![-1, 0, 0] (by simpa [dotProduct, Fin.sum_univ_three] using ht)
      (Or.inr (by simp [dotProduct, Fin.sum_univ_three]; linarith)) (fin 0) inf rfl rec).1 ⟨10, ⟨by simp, rfl⟩, ?_⟩
    simp [dotProduct, Fin.sum_univ_three]
  · refine (C135_ball_false (F := exact64) 4 ![10, 0, 0] ![0, 1, 0] (by simpa [dotProduct, Fin.sum_univ_three] using ht)
      (Or.inl (by simp [dotProduct, Fin.sum_univ_three])) (fin 0) inf rfl rec).2 fun z _ => ?_
    simp [dotProduct, Fin.sum_univ_three]
    nlinarith [mul_self_nonneg z]

end DRT
