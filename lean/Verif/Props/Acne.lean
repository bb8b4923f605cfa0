import Verif.Props.SurfaceRounding

/-! # C119: scattered rays and the surface that they leave, with rounding -/

namespace DRT
open Scalar Vec Fl

section
variable {F : Fmt} [F.Free]

/-- The lower end `1000*epsilon` of the range that `ray_color` searches, as computed. -/
theorem thousand_eps : ∃ τ : ℝ, (1000 : Fl F) * Scalar.eps = fin τ ∧ 992 * F.eps ≤ τ := by
  have e0 := eps_pos' (F := F)
  have e1 := eps_le' (F := F)
  obtain ⟨δ1, h1, q1⟩ := rnd_rel (F := F) 1000
  obtain ⟨δ2, h2, q2⟩ := mul_rel (F := F) (1000 * (1 + δ1)) F.eps
  refine ⟨1000 * (1 + δ1) * F.eps * (1 + δ2), ?_, ?_⟩
  · rw [← q2, ← q1, eps_def]
    congr 1
  · obtain ⟨a1, -⟩ := abs_le.mp h1
    obtain ⟨a2, -⟩ := abs_le.mp h2
    generalize F.eps = ε at *
    have : (1 - ε) * (1 - ε) ≤ (1 + δ1) * (1 + δ2) := mul_le_mul (by linarith) (by linarith) (by linarith) (by linarith)
    have h3 : 0.992 ≤ (1 + δ1) * (1 + δ2) := by nlinarith
    have h4 := mul_le_mul_of_nonneg_right h3 e0.le
    linarith [show 1000 * (1 + δ1) * ε * (1 + δ2) = 1000 * ((1 + δ1) * (1 + δ2) * ε) by ring]

/-! ## Rectangles -/

/-- The parameter at which the scattered ray meets the plane again, as computed, is small. -/
theorem Rect.plane_again (i j n : Fin 3) (nrm : Vec (Fl F) 3) {a0 a1 b0 b1 k : ℝ} {o d v : Fin 3 → ℝ} (hd : d n ≠ 0)
    {tmin tmax tmax' : Fl F} {rec out rec' : HitRecord (Fl F)}
    (h : Rect.hitPlane i j n nrm ⟨fin a0, fin a1, fin b0, fin b1, fin k⟩ ⟨fun i => fin (o i), fun i => fin (d i)⟩ tmin tmax rec =
      (true, out)) (hv : |k| + 3.1 * |k - o n| ≤ 980 * |v n|) (hv0 : v n ≠ 0) :
    Rect.hitPlane i j n nrm ⟨fin a0, fin a1, fin b0, fin b1, fin k⟩ ⟨out.p, fun i => fin (v i)⟩ (1000 * Scalar.eps) tmax' rec' =
      (false, rec') := by
  have e0 := eps_pos' (F := F)
  have e1 := eps_le' (F := F)
  obtain ⟨p, hp, -, -, -, -, hpk⟩ := Rect.plane_near i j n nrm hd h
  obtain ⟨τ, hτ, hτ1⟩ := thousand_eps (F := F)
  obtain ⟨δ1, h1, q1⟩ := sub_rel (F := F) k (p n)
  obtain ⟨δ2, h2, q2⟩ := div_rel (F := F) ((k - p n) * (1 + δ1)) hv0
  have hlt : (k - p n) * (1 + δ1) / v n * (1 + δ2) < τ := by
    have hvp := abs_pos.mpr hv0
    refine lt_of_le_of_lt (le_abs_self _) ?_
    rw [abs_mul, abs_div, abs_mul, div_mul_eq_mul_div, div_lt_iff₀ hvp, abs_sub_comm k]
    have u1 : |1 + δ1| ≤ 1 + F.eps := by have := abs_add_le 1 δ1; rw [abs_one] at this; linarith
    have u2 : |1 + δ2| ≤ 1 + F.eps := by have := abs_add_le 1 δ2; rw [abs_one] at this; linarith
    have u3 : |1 + δ1| * |1 + δ2| ≤ (1 + F.eps) * (1 + F.eps) := mul_le_mul u1 u2 (abs_nonneg _) (by linarith)
    have u4 : |p n - k| ≤ F.eps * (980 * |v n|) := by
      refine hpk.trans ?_
      nlinarith
    have u5 : |p n - k| * (|1 + δ1| * |1 + δ2|) ≤ F.eps * (980 * |v n|) * ((1 + F.eps) * (1 + F.eps)) :=
      mul_le_mul u4 u3 (by positivity) (by positivity)
    have u6 : (1 + F.eps) * (1 + F.eps) < 1.01 := by nlinarith
    have u7 : 0 < F.eps * |v n| := by positivity
    have u8 : 992 * F.eps * |v n| ≤ τ * |v n| := mul_le_mul_of_nonneg_right hτ1 hvp.le
    nlinarith
  unfold Rect.hitPlane
  simp only [hp, q1, q2, hτ, lt_fin, decide_eq_true hlt, Bool.true_or, if_true]

/-- C119 for rectangles: let a ray hit a rectangle and let `v` be any direction that is not too close to its plane. Then the
ray from the recorded point in direction `v` does not hit the rectangle again in the range that `ray_color` searches. -/
theorem C119_rect {a0 a1 b0 b1 k : ℝ} {o d v : Fin 3 → ℝ} {tmin tmax tmax' : Fl F} {rec out rec' : HitRecord (Fl F)} :
    (Rect.hitXY ⟨fin a0, fin a1, fin b0, fin b1, fin k⟩ ⟨fun i => fin (o i), fun i => fin (d i)⟩ tmin tmax rec = (true, out) →
      d 2 ≠ 0 → v 2 ≠ 0 → |k| + 3.1 * |k - o 2| ≤ 980 * |v 2| →
      Rect.hitXY ⟨fin a0, fin a1, fin b0, fin b1, fin k⟩ ⟨out.p, fun i => fin (v i)⟩ (1000 * Scalar.eps) tmax' rec' = (false, rec')) ∧
    (Rect.hitXZ ⟨fin a0, fin a1, fin b0, fin b1, fin k⟩ ⟨fun i => fin (o i), fun i => fin (d i)⟩ tmin tmax rec = (true, out) →
      d 1 ≠ 0 → v 1 ≠ 0 → |k| + 3.1 * |k - o 1| ≤ 980 * |v 1| →
      Rect.hitXZ ⟨fin a0, fin a1, fin b0, fin b1, fin k⟩ ⟨out.p, fun i => fin (v i)⟩ (1000 * Scalar.eps) tmax' rec' = (false, rec')) ∧
    (Rect.hitYZ ⟨fin a0, fin a1, fin b0, fin b1, fin k⟩ ⟨fun i => fin (o i), fun i => fin (d i)⟩ tmin tmax rec = (true, out) →
      d 0 ≠ 0 → v 0 ≠ 0 → |k| + 3.1 * |k - o 0| ≤ 980 * |v 0| →
      Rect.hitYZ ⟨fin a0, fin a1, fin b0, fin b1, fin k⟩ ⟨out.p, fun i => fin (v i)⟩ (1000 * Scalar.eps) tmax' rec' = (false, rec')) :=
  ⟨fun h hd hv0 hv => Rect.plane_again 0 1 2 _ hd h hv hv0, fun h hd hv0 hv => Rect.plane_again 0 2 1 _ hd h hv hv0,
    fun h hd hv0 hv => Rect.plane_again 1 2 0 _ hd h hv hv0⟩

/-! ## Spheres -/

/-- C119 for spheres: let a ray hit a sphere at the recorded point `p` with parameter `t`, and let `v` be a direction that
points out of the sphere by enough. Then the ray from `p` in direction `v` does not hit the sphere again in the range
that `ray_color` searches. Enough is one part in 41 of the squares of the coordinates involved. -/
theorem C119_sphere {C o d v : Fin 3 → ℝ} {r : ℝ} (hd : d ≠ 0) (hv : v ≠ 0) {tmin tmax tmax' : Fl F} {rec out rec' : HitRecord (Fl F)}
    (h : Sphere.hit ⟨fun i => fin (C i), fin r⟩ ⟨fun i => fin (o i), fun i => fin (d i)⟩ tmin tmax rec = (true, out)) :
    ∃ (t : ℝ) (p : Fin 3 → ℝ), out.t = fin t ∧ out.p = (fun i => fin (p i)) ∧
      (40 * F.eps * ∑ i, (|p i| + |C i|) * |v i| +
          (∑ i, (|o i| + |C i| + |t| * |d i|) ^ 2 + ∑ i, (|p i| + |C i|) ^ 2 + 2 * r ^ 2) / 41 ≤ 2 * ∑ i, (p i - C i) * v i →
        (Sphere.hit ⟨fun i => fin (C i), fin r⟩ ⟨out.p, fun i => fin (v i)⟩ (1000 * Scalar.eps) tmax' rec').1 = false) := by
  have e0 := eps_pos' (F := F)
  have e1 := eps_le' (F := F)
  obtain ⟨t, p, ht, hp, -, -, -, -, hon⟩ := C104_parameter hd h
  refine ⟨t, p, ht, hp, fun hout => ?_⟩
  rw [hp, ← Bool.not_eq_true]
  intro hhit
  obtain ⟨τ, hτ, hτ1⟩ := thousand_eps (F := F)
  obtain ⟨s, -, -, -, hs, -, hres, -, -⟩ := C104_parameter (F := F) (o := p) hv (Prod.ext hhit rfl :
    Sphere.hit ⟨fun i => fin (C i), fin r⟩ ⟨fun i => fin (p i), fun i => fin (v i)⟩ (1000 * Scalar.eps) tmax' rec' =
      (true, (Sphere.hit ⟨fun i => fin (C i), fin r⟩ ⟨fun i => fin (p i), fun i => fin (v i)⟩ (1000 * Scalar.eps) tmax' rec').2))
  rw [hτ, le_fin, decide_eq_true_eq] at hs
  have hs0 : 0 < s := by linarith
  have E1 : ∑ i, (p i + s * v i - C i) ^ 2 - r ^ 2 =
      (∑ i, v i ^ 2) * s ^ 2 + 2 * (∑ i, (p i - C i) * v i) * s + (∑ i, (p i - C i) ^ 2 - r ^ 2) := by
    simp only [Fin.sum_univ_three]; ring
  have E2 : ∑ i, (|p i| + |C i| + |s| * |v i|) ^ 2 + r ^ 2 =
      (∑ i, v i ^ 2) * s ^ 2 + 2 * (∑ i, (|p i| + |C i|) * |v i|) * s + (∑ i, (|p i| + |C i|) ^ 2 + r ^ 2) := by
    rw [abs_of_pos hs0]
    simp only [Fin.sum_univ_three, ← sq_abs (v 0), ← sq_abs (v 1), ← sq_abs (v 2)]; ring
  rw [E1, E2] at hres
  have n1 : 0 ≤ ∑ i, v i ^ 2 := Finset.sum_nonneg fun i _ => sq_nonneg _
  have n2 : 0 ≤ ∑ i, (|o i| + |C i| + |t| * |d i|) ^ 2 := Finset.sum_nonneg fun i _ => sq_nonneg _
  have n3 : 0 ≤ ∑ i, (|p i| + |C i|) ^ 2 := Finset.sum_nonneg fun i _ => sq_nonneg _
  have n4 : 0 ≤ ∑ i, (|p i| + |C i|) * |v i| := Finset.sum_nonneg fun i _ => by positivity
  have n5 : 0 < ∑ i, v i ^ 2 := by
    obtain ⟨j, hj⟩ := Function.ne_iff.mp hv
    have hj' : v j ≠ 0 := hj
    exact Finset.sum_pos' (fun i _ => sq_nonneg _) ⟨j, Finset.mem_univ _, by positivity⟩
  have n6 := sq_nonneg r
  have n7 : 0 < (∑ i, v i ^ 2) * s ^ 2 := by positivity
  generalize ∑ i, v i ^ 2 = A at *
  generalize ∑ i, (p i - C i) * v i = B at *
  generalize ∑ i, (p i - C i) ^ 2 - r ^ 2 = D at *
  generalize ∑ i, (|o i| + |C i| + |t| * |d i|) ^ 2 = Q at *
  generalize ∑ i, (|p i| + |C i|) ^ 2 = P at *
  generalize ∑ i, (|p i| + |C i|) * |v i| = N at *
  have hD := (abs_le.mp hon).1
  have hR := (abs_le.mp hres).2
  generalize F.eps = ε at *
  -- the linear term outweighs the constant one
  have m1 : (40 * ε * N + (Q + P + 2 * r ^ 2) / 41) * s ≤ 2 * B * s := mul_le_mul_of_nonneg_right hout hs0.le
  have m2 : 992 * ε * ((Q + P + 2 * r ^ 2) / 41) ≤ s * ((Q + P + 2 * r ^ 2) / 41) :=
    mul_le_mul_of_nonneg_right (by linarith) (by positivity)
  have m3 : 0 ≤ ε * N * s := by positivity
  have m4 : 19.5 * ε * (A * s ^ 2) ≤ 0.08 * (A * s ^ 2) := mul_le_mul_of_nonneg_right (by linarith) n7.le
  have m5 : 0 ≤ ε * Q := by positivity
  have m6 : 0 ≤ ε * P := by positivity
  have m7 : 0 ≤ ε * r ^ 2 := by positivity
  nlinarith

end

/-- A ray up to the unit square at height 3 and straight back, with 53 bits and rounding. -/
example (rec out rec' : HitRecord (Fl (unbounded 53))) (h : Rect.hitXY ⟨fin 0, fin 1, fin 0, fin 1, fin 3⟩
      ⟨fun i => fin ((![0, 1, 0] : Fin 3 → ℝ) i), fun i => fin ((![0, 0, 1] : Fin 3 → ℝ) i)⟩ (fin 0) pinf rec = (true, out)) :
    Rect.hitXY ⟨fin 0, fin 1, fin 0, fin 1, fin 3⟩ ⟨out.p, fun i => fin ((![0, 0, -1] : Fin 3 → ℝ) i)⟩ (1000 * Scalar.eps) pinf rec' =
      (false, rec') :=
  C119_rect.1 h (by show (1:ℝ) ≠ 0; norm_num) (by show (-1:ℝ) ≠ 0; norm_num) (by
    show |(3:ℝ)| + 3.1 * |(3:ℝ) - 0| ≤ 980 * |(-1:ℝ)|; norm_num [abs_of_pos])

/-- A ray to the unit sphere and straight back. -/
example (rec rec' : HitRecord (Fl exact0)) : ∃ out, (Sphere.ofReal (F := exact0) 0 1).hit ⟨cv ![2, 0, 0], cv ![-1, 0, 0]⟩ (fin 0) pinf rec =
    (true, out) ∧ ((Sphere.ofReal (F := exact0) 0 1).hit ⟨out.p, cv ![1, 0, 0]⟩ (1000 * Scalar.eps) pinf rec').1 = false := by
  have hn := C46_nearest_ideal (F := exact0) rfl 0 1 ![2, 0, 0] ![-1, 0, 0] (fin 0)
    (fun h => by have := congrFun h 0; norm_num at this) pinf rec rfl
  have hmem : ∀ z : ℝ, (![2, 0, 0] + z • ![-1, 0, 0] : Fin 3 → ℝ) ∈ sphereSet 0 1 ↔ (2 - z) ^ 2 = 1 := by
    intro z
    unfold sphereSet
    simp [sub_eq_add_neg]
  have hr : ∀ z : ℝ, 0 ≤ z → InRange ((fin 0 : Fl exact0), pinf) z := fun z hz => by simpa [InRange] using hz
  have ht := hn.1.mpr ⟨1, hr 1 zero_le_one, (hmem 1).mpr (by norm_num)⟩
  obtain ⟨z, hz, hzp, -, hzS, hmin⟩ := hn.2 ht
  have h1 := hmin 1 (hr 1 zero_le_one) ((hmem 1).mpr (by norm_num))
  have h2 := (hmem z).mp hzS
  obtain rfl : z = 1 := by nlinarith
  refine ⟨_, Prod.ext ht rfl, ?_⟩
  obtain ⟨t, p, hct, hcp, hc⟩ := C119_sphere (F := exact0) (C := 0) (r := 1) (o := ![2, 0, 0]) (d := ![-1, 0, 0]) (v := ![1, 0, 0])
    (tmax' := pinf) (rec' := rec') (fun h => by have := congrFun h 0; norm_num at this)
    (fun h => by have := congrFun h 0; norm_num at this) (Prod.ext ht rfl)
  refine hc ?_
  have et : (1:ℝ) = t := by rw [← fin_inj (F := exact0)]; exact hz.symm.trans hct
  have ep : p = ![1, 0, 0] := by
    have := hzp.symm.trans hcp
    have h3 : cv (![2, 0, 0] + (1:ℝ) • ![-1, 0, 0]) = (cv p : Vec (Fl exact0) 3) := this
    rw [cv_inj] at h3
    rw [← h3]
    funext i
    fin_cases i <;> norm_num
  have he : exact0.eps ≤ 1 / 256 := eps_le'
  rw [← et, ep]
  have v2 : ∀ a b c : ℝ, (![a, b, c] : Fin 3 → ℝ) 2 = c := fun _ _ _ => rfl
  simp only [Fin.sum_univ_three, v2]
  norm_num
  linarith

/-! ## Acne in single precision -/

theorem roundEven_eq {t : ℝ} {n : ℤ} (h : |t - n| < 1 / 2) : roundEven t = n := by
  have h1 := roundEven_close t
  have h2 : |((roundEven t - n : ℤ) : ℝ)| < 1 := by
    push_cast
    rw [show (roundEven t : ℝ) - n = (roundEven t - t) + (t - n) by ring]
    exact lt_of_le_of_lt (abs_add_le _ _) (by linarith)
  have h3 : |roundEven t - n| < 1 := by exact_mod_cast h2
  rw [Int.abs_lt_one_iff] at h3
  omega

/-- Rounding to the nearest `float` of a number between two powers of 2. -/
theorem binary32_round {x : ℝ} (e : ℤ) (n : ℤ) (h1 : (2:ℝ) ^ e ≤ x) (h2 : x < 2 ^ (e + 1)) (he : -126 ≤ e) (he' : e ≤ 100)
    (h3 : |x / 2 ^ (e - 23) - n| < 1 / 2) : rnd binary32 x = fin (n * 2 ^ (e - 23)) := by
  have hx : 0 < x := lt_of_lt_of_le (two_zpow_pos e) h1
  have hlog : Int.log 2 x = e := by
    apply le_antisymm
    · rw [← Int.lt_add_one_iff, ← Int.lt_zpow_iff_log_lt (by norm_num) hx]; exact_mod_cast h2
    · rw [← Int.zpow_le_iff_le_log (by norm_num) hx]; exact_mod_cast h1
  have hr : roundPos 24 (-126) x = n * 2 ^ (e - 23) := by
    unfold roundPos lastPlace
    rw [hlog, max_eq_left he]
    norm_num only
    rw [roundEven_eq h3]
  unfold binary32
  rw [ieee_round_nonneg hx.le, hr, if_pos]
  have hq := two_zpow_pos (e - 23)
  have h4 : (n : ℝ) < x / 2 ^ (e - 23) + 1 := by linarith [(abs_lt.mp h3).1]
  have h5 : (n : ℝ) * 2 ^ (e - 23) < x + 2 ^ (e - 23) := by
    have := mul_lt_mul_of_pos_right h4 hq
    rwa [add_mul, div_mul_cancel₀ _ hq.ne', one_mul] at this
  have h6 : (2:ℝ) ^ (e - 23) ≤ 2 ^ (e + 1) := zpow_le_zpow_right₀ (by norm_num) (by omega)
  have h7 : (2:ℝ) ^ (e + 1) ≤ 2 ^ (101 : ℤ) := zpow_le_zpow_right₀ (by norm_num) (by omega)
  have h8 : (2:ℝ) ^ (101:ℤ) + 2 ^ (101:ℤ) ≤ 2 ^ (127 + 1 : ℤ) := by norm_num
  linarith

/-- C119, refuted in single precision for directions near the plane: a ray from the origin straight up to a square at height 3
is recorded at `3 + 2^-22`, behind the square. A ray scattered back from there, at a slope of 1 to 1024, hits the
square again at `2^-12`, which is more than `1000*epsilon`. -/
theorem C119_rect_false (rec rec' : HitRecord (Fl binary32)) : ∃ out out' : HitRecord (Fl binary32),
    Rect.hitXY ⟨fin 0, fin 1, fin 0, fin 1, fin 3⟩
      ⟨fun i => fin ((![0, 0, 0] : Fin 3 → ℝ) i), fun i => fin ((![0, 0, 21] : Fin 3 → ℝ) i)⟩ (1000 * Scalar.eps) pinf rec = (true, out) ∧
    out.p = (fun i => fin ((![0, 0, 3 + 1 / 2 ^ 22] : Fin 3 → ℝ) i)) ∧
    Rect.hitXY ⟨fin 0, fin 1, fin 0, fin 1, fin 3⟩ ⟨out.p, fun i => fin ((![1, 0, -1 / 2 ^ 10] : Fin 3 → ℝ) i)⟩
      (1000 * Scalar.eps) pinf rec' = (true, out') ∧ out'.t = fin (1 / 2 ^ 12) := by
  have hrep : ∀ (m : ℕ) (k : ℤ) (x : ℝ), m < 2 ^ 24 → -149 ≤ k → k ≤ 0 → x = m * 2 ^ k → rnd binary32 x = fin x := by
    rintro m k x hm hk hk' rfl
    refine ieee_rep hm (by norm_num; omega) ?_
    have h1 : (m : ℝ) < 2 ^ 24 := by exact_mod_cast hm
    have h2 : (2:ℝ) ^ k ≤ 1 := by
      have := zpow_le_zpow_right₀ (a := (2:ℝ)) (by norm_num) hk'
      rwa [zpow_zero] at this
    have h3 := two_zpow_pos k
    have : (m : ℝ) * 2 ^ k < 2 ^ 24 * 1 := by nlinarith
    refine this.trans ?_
    norm_num
  have hneg : ∀ (m : ℕ) (k : ℤ) (x : ℝ), 0 < m → m < 2 ^ 24 → -149 ≤ k → k ≤ 0 → x = m * 2 ^ k → rnd binary32 (-x) = fin (-x) := by
    rintro m k x hm0 hm hk hk' rfl
    have hpos : 0 < (m : ℝ) * 2 ^ k := mul_pos (by exact_mod_cast hm0) (two_zpow_pos k)
    have h1 := hrep m k _ hm hk hk' rfl
    unfold binary32 at h1 ⊢
    rw [ieee_round_nonneg hpos.le] at h1
    rw [ieee_round_neg (by linarith), neg_neg]
    split_ifs at h1 ⊢ with h2
    · rw [fin_inj] at h1
      rw [h1]
    · cases h1
  have hadd : ∀ x y : ℝ, (fin x : Fl binary32) + fin y = rnd binary32 (x + y) := fun _ _ => rfl
  have hmul : ∀ x y : ℝ, (fin x : Fl binary32) * fin y = rnd binary32 (x * y) := fun _ _ => rfl
  have hsub : ∀ x y : ℝ, (fin x : Fl binary32) - fin y = rnd binary32 (x - y) := fun x y => by
    rw [Fl.sub_eq, Fl.neg_fin, hadd, sub_eq_add_neg]
  have hdiv : ∀ x y : ℝ, y ≠ 0 → (fin x : Fl binary32) / fin y = rnd binary32 (x / y) := fun _ _ h => if_neg h
  -- the first ray
  have t1 : ((fin 3 : Fl binary32) - fin 0) / fin 21 = fin (9586981 / 2 ^ 26) := by
    rw [hsub, hrep 3 0 _ (by norm_num) (by norm_num) le_rfl (by norm_num), hdiv _ _ (by norm_num),
      binary32_round (-3) 9586981 (by norm_num) (by norm_num) (by norm_num) (by norm_num) (by norm_num [abs_lt])]
    norm_num
  have z0 : ∀ x : ℝ, (fin 0 : Fl binary32) + fin x * fin 0 = fin 0 := by
    intro x
    rw [hmul, mul_zero, hrep 0 0 _ (by norm_num) (by norm_num) le_rfl (by norm_num), hadd, add_zero,
      hrep 0 0 _ (by norm_num) (by norm_num) le_rfl (by norm_num)]
  have p1 : (fin 0 : Fl binary32) + fin (9586981 / 2 ^ 26) * fin 21 = fin (3 + 1 / 2 ^ 22) := by
    rw [hmul, binary32_round 1 12582913 (by norm_num) (by norm_num) (by norm_num) (by norm_num) (by norm_num [abs_lt]), hadd,
      hrep 12582913 (-22) _ (by norm_num) (by norm_num) (by norm_num) (by norm_num)]
    norm_num
  have hτ : (1000 : Fl binary32) * Scalar.eps = fin (1000 / 2 ^ 23) := by
    have : (1000 : Fl binary32) = fin 1000 := by
      show rnd binary32 _ = _
      rw [hrep 1000 0 _ (by norm_num) (by norm_num) le_rfl (by norm_num)]
      norm_num
    have he : (Scalar.eps : Fl binary32) = fin (1 / 2 ^ 23) := by
      rw [eps_def]
      unfold binary32 ieee
      norm_num
    rw [this, he, hmul, hrep 1000 (-23) _ (by norm_num) (by norm_num) (by norm_num) (by norm_num)]
    norm_num
  -- the second ray
  have t2 : ((fin 3 : Fl binary32) - fin (3 + 1 / 2 ^ 22)) / fin (-1 / 2 ^ 10) = fin (1 / 2 ^ 12) := by
    rw [hsub, show (3:ℝ) - (3 + 1 / 2 ^ 22) = -(1 / 2 ^ 22) by norm_num,
      hneg 1 (-22) _ (by norm_num) (by norm_num) (by norm_num) (by norm_num) (by norm_num), hdiv _ _ (by norm_num),
      hrep 1 (-12) _ (by norm_num) (by norm_num) (by norm_num) (by norm_num)]
    norm_num
  have x2 : (fin 0 : Fl binary32) + fin (1 / 2 ^ 12) * fin 1 = fin (1 / 2 ^ 12) := by
    rw [hmul, mul_one, hrep 1 (-12) _ (by norm_num) (by norm_num) (by norm_num) (by norm_num), hadd, zero_add,
      hrep 1 (-12) _ (by norm_num) (by norm_num) (by norm_num) (by norm_num)]
  have hout : ∀ q : HitRecord (Fl binary32), q.p = (fun i => fin ((![0, 0, 3 + 1 / 2 ^ 22] : Fin 3 → ℝ) i)) →
      ∃ out', Rect.hitXY ⟨fin 0, fin 1, fin 0, fin 1, fin 3⟩ ⟨q.p, fun i => fin ((![1, 0, -1 / 2 ^ 10] : Fin 3 → ℝ) i)⟩
        (1000 * Scalar.eps) pinf rec' = (true, out') ∧ out'.t = fin (1 / 2 ^ 12) := by
    intro q hq
    rw [hq, hτ]
    unfold Rect.hitXY Rect.hitPlane
    simp only [Fin.isValue, Matrix.cons_val_zero, Matrix.cons_val_one, Matrix.cons_val, t2, x2, z0, Scalar.gt, lt_fin]
    norm_num
    rfl
  have hfirst : ∃ out, Rect.hitXY ⟨fin 0, fin 1, fin 0, fin 1, fin 3⟩
      ⟨fun i => fin ((![0, 0, 0] : Fin 3 → ℝ) i), fun i => fin ((![0, 0, 21] : Fin 3 → ℝ) i)⟩ (1000 * Scalar.eps) pinf rec = (true, out) ∧
      out.p = (fun i => fin ((![0, 0, 3 + 1 / 2 ^ 22] : Fin 3 → ℝ) i)) := by
    rw [hτ]
    unfold Rect.hitXY Rect.hitPlane
    simp only [Fin.isValue, Matrix.cons_val_zero, Matrix.cons_val_one, Matrix.cons_val, t1, z0, Scalar.gt, lt_fin]
    norm_num
    funext i
    fin_cases i
    · exact z0 _
    · exact z0 _
    · have h := p1
      norm_num at h ⊢
      exact h
  obtain ⟨out, h1, h2⟩ := hfirst
  obtain ⟨out', h3, h4⟩ := hout out h2
  exact ⟨out, out', h1, h2, h3, h4⟩

end DRT
