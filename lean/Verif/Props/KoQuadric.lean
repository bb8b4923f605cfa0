import Verif.Props.KoPlane

/-! # C156: Ko's method at the vertex of a curved surface -/

namespace DRT
open Scalar Vec Fl Matrix

variable {F : Fmt}

/-- A curved surface over its tangent plane at `p`, which is spanned by `a` and `b`; it is reached at the parameters `u₀` and `v₀`, and `E`,
`M` and `G` are its second derivatives there. -/
noncomputable def quadricGraph (p a b : Fin 3 → ℝ) (u₀ v₀ E M G : ℝ) (u v : ℝ) : Fin 3 → ℝ :=
  p + (u - u₀) • a + (v - v₀) • b + ((E * (u - u₀) ^ 2 + 2 * M * ((u - u₀) * (v - v₀)) + G * (v - v₀) ^ 2) / 2) • (a ⨯₃ b)

/-- `x` is in the box with the corners `lo` and `hi`. -/
def InRangeBox (lo hi x : Fin 3 → ℝ) : Prop := ∀ i, lo i ≤ x i ∧ x i ≤ hi i

theorem Bounds.contains_ofReal [F.Exact] (lo hi x : Fin 3 → ℝ) (g : Pcg) :
    (Bounds.ofReal (F := F) lo hi g).contains (cv x) = true ↔ InRangeBox lo hi x := by
  unfold Bounds.contains InRangeBox
  rw [List.all_eq_true]
  simp only [List.mem_finRange, true_implies, Bounds.ofReal, cv_apply, Scalar.gt, lt_fin, Bool.not_eq_true', Bool.or_eq_false_iff,
    decide_eq_false_iff_not, not_lt]

/-- Three orthonormal vectors: a vector is the sum of its components. -/
theorem frame_sum {x n t : Fin 3 → ℝ} (hn : n ⬝ᵥ n = 1) (ht : t ⬝ᵥ t = 1) (hnt : n ⬝ᵥ t = 0) (y : Fin 3 → ℝ)
    (hx : x = n ⨯₃ t) (hy : y ⬝ᵥ x = 0) : y = (y ⬝ᵥ n) • n + (y ⬝ᵥ t) • t := by
  have hc : (n ⨯₃ t) ⬝ᵥ (n ⨯₃ t) = 1 := by
    rw [cross_dot_cross, hn, ht, hnt, dotProduct_comm t n, hnt]; norm_num
  have h := orthogonal_zero (a := n) (b := t) (r := y - (y ⬝ᵥ n) • n - (y ⬝ᵥ t) • t)
    (by simp only [sub_dotProduct, smul_dotProduct, smul_eq_mul, hn, dotProduct_comm t n, hnt]; ring)
    (by simp only [sub_dotProduct, smul_dotProduct, smul_eq_mul, ht, hnt]; ring)
    (by rw [hx] at hy
        simp only [sub_dotProduct, smul_dotProduct, smul_eq_mul, hy, dot_self_cross, dot_cross_self]; ring)
    (by rw [hc]; norm_num)
  rw [sub_sub, sub_eq_zero] at h
  exact h

theorem form_rank_one [F.Exact] (H : Tensor (Fl F) 3 2 2) (n : Fin 3 → ℝ) (hn : n ⬝ᵥ n = 1) {j k : ℕ} {E : ℝ}
    (hH : ∀ i : Fin 3, H.get i j k = some (fin (E * n i))) : Ko.form H (cv n) j k = some (fin E) := by
  unfold Ko.form
  have h0 := hH 0
  have h1 := hH 1
  have h2 := hH 2
  simp only [Fin.val_zero, Fin.val_one, Fin.val_two] at h0 h1 h2
  rw [h0, h1, h2]
  simp only [fl, Option.bind_eq_bind, Option.bind_some, cv_apply, Nat.cast_zero, zero_add, Option.pure_def, Option.some.injEq, fin_inj]
  rw [dotProduct, Fin.sum_univ_three] at hn
  linear_combination E * hn

/-- The choice between two roots. -/
theorem Ko.choose_two [F.Exact] (lo hi : Fin 3 → ℝ) (g : Pcg) (u v : ℝ) (rd bd : ℕ) (x y up vp pt dt : ℝ) (hdt : dt ≠ 0)
    (hin : InRangeBox lo hi ![u + x * up, v + x * vp, (x + pt) / dt] ∨ InRangeBox lo hi ![u + y * up, v + y * vp, (y + pt) / dt]) :
    ∃ z, (z = x ∨ z = y) ∧ InRangeBox lo hi ![u + z * up, v + z * vp, (z + pt) / dt] ∧
      (∀ z', (z' = x ∨ z' = y) → InRangeBox lo hi ![u + z' * up, v + z' * vp, (z' + pt) / dt] → (z + pt) / dt ≤ (z' + pt) / dt) ∧
      Ko.choose (R := Fl F) ⟨fin u, fin v, rd, bd, Bounds.ofReal lo hi g⟩ [fin x, fin y] (fin up) (fin vp) (fin pt) (fin dt) =
        some (.inl ⟨fin (u + z * up), fin (v + z * vp), rd, bd, Bounds.ofReal lo hi g⟩) := by
  have sol : ∀ r : ℝ, (![fin u + fin r * fin up, fin v + fin r * fin vp, (fin r + fin pt) / fin dt] : Vec (Fl F) 3) =
      cv ![u + r * up, v + r * vp, (r + pt) / dt] := fun r => by
    rw [Fl.mul_fin, Fl.mul_fin, add_fin, add_fin, add_fin, div_fin _ hdt, cv_vec3]
  have s2 : ∀ r : ℝ, (cv ![u + r * up, v + r * vp, (r + pt) / dt] : Vec (Fl F) 3) 2 = fin ((r + pt) / dt) := fun r => rfl
  unfold Ko.choose
  simp only [sol, s2, lt_fin]
  by_cases hx : InRangeBox lo hi ![u + x * up, v + x * vp, (x + pt) / dt]
  · have cx := (Bounds.contains_ofReal (F := F) lo hi _ g).mpr hx
    by_cases hy : InRangeBox lo hi ![u + y * up, v + y * vp, (y + pt) / dt]
    · have cy := (Bounds.contains_ofReal (F := F) lo hi _ g).mpr hy
      simp only [cx, cy, Bool.not_true, Bool.and_self, Bool.false_eq_true, if_false, decide_eq_true_eq]
      by_cases hlt : (y + pt) / dt < (x + pt) / dt
      · refine ⟨y, .inr rfl, hy, ?_, ?_⟩
        · rintro z' (rfl | rfl) _
          · exact hlt.le
          · exact le_rfl
        · rw [if_pos hlt, Fl.mul_fin, Fl.mul_fin, add_fin, add_fin]
      · refine ⟨x, .inl rfl, hx, ?_, ?_⟩
        · rintro z' (rfl | rfl) _
          · exact le_rfl
          · exact not_lt.mp hlt
        · rw [if_neg hlt, Fl.mul_fin, Fl.mul_fin, add_fin, add_fin]
    · have cy : (Bounds.ofReal (F := F) lo hi g).contains (cv ![u + y * up, v + y * vp, (y + pt) / dt]) = false := by
        rw [← Bool.not_eq_true, Bounds.contains_ofReal]; exact hy
      simp only [cx, cy, Bool.not_true, Bool.not_false, Bool.false_and, Bool.false_eq_true, if_false, if_true]
      refine ⟨x, .inl rfl, hx, ?_, ?_⟩
      · rintro z' (rfl | rfl) h
        · exact le_rfl
        · exact absurd h hy
      · rw [Fl.mul_fin, Fl.mul_fin, add_fin, add_fin]
  · have hy := hin.resolve_left hx
    have cx : (Bounds.ofReal (F := F) lo hi g).contains (cv ![u + x * up, v + x * vp, (x + pt) / dt]) = false := by
      rw [← Bool.not_eq_true, Bounds.contains_ofReal]; exact hx
    have cy := (Bounds.contains_ofReal (F := F) lo hi _ g).mpr hy
    simp only [cx, cy, Bool.not_true, Bool.not_false, Bool.and_false, Bool.false_eq_true, if_false, if_true]
    refine ⟨y, .inr rfl, hy, ?_, ?_⟩
    · rintro z' (rfl | rfl) h
      · exact absurd h hx
      · exact le_rfl
    · rw [Fl.mul_fin, Fl.mul_fin, add_fin, add_fin]

/-- C156: a surface that is a quadratic graph over its tangent plane at the starting point, and a ray in a plane through the normal there. If
the ray meets the surface in the box, `ko_method` returns the nearest of these points exactly, in the second loop body and without a
random restart. -/
theorem C156_vertex [F.Exact] (h : Ko.Patch (Fl F)) (p a b o d : Fin 3 → ℝ) (u₀ v₀ E M G : ℝ) (haa : a ⬝ᵥ a = 1) (hbb : b ⬝ᵥ b = 1)
    (hab : a ⬝ᵥ b = 0) (hP : ∀ u v : ℝ, (h (fin u) (fin v)).1 = cv (quadricGraph p a b u₀ v₀ E M G u v))
    (hJa : Mat.column (h (fin u₀) (fin v₀)).2.1 0 = cv a) (hJb : Mat.column (h (fin u₀) (fin v₀)).2.1 1 = cv b)
    (hE : ∀ i : Fin 3, (h (fin u₀) (fin v₀)).2.2.get i 0 0 = some (fin (E * (a ⨯₃ b) i)))
    (hM : ∀ i : Fin 3, (h (fin u₀) (fin v₀)).2.2.get i 0 1 = some (fin (M * (a ⨯₃ b) i)))
    (hG : ∀ i : Fin 3, (h (fin u₀) (fin v₀)).2.2.get i 1 1 = some (fin (G * (a ⨯₃ b) i)))
    (m : Fin 3 → ℝ) (hm : m = (p - o) ⨯₃ d) (hfar : 4 * F.eps ^ 2 ≤ m ⬝ᵥ m) (hmN : m ⬝ᵥ (a ⨯₃ b) = 0)
    (T : Fin 3 → ℝ) (hT : T = (Real.sqrt (m ⬝ᵥ m))⁻¹ • (m ⨯₃ (a ⨯₃ b))) (κ : ℝ)
    (hκ : κ = E * (T ⬝ᵥ a) ^ 2 + 2 * M * ((T ⬝ᵥ a) * (T ⬝ᵥ b)) + G * (T ⬝ᵥ b) ^ 2) (hκe : F.eps ^ 2 ≤ |κ|) (hκt : 2 * F.tiny < |κ|)
    (hdT : d ⬝ᵥ T ≠ 0) (hdN : d ⬝ᵥ (a ⨯₃ b) = 0 ∨ F.tiny < |d ⬝ᵥ (a ⨯₃ b) / (d ⬝ᵥ T)|) (lo hi : Fin 3 → ℝ) (g : Pcg)
    (hX : ∃ u v t, quadricGraph p a b u₀ v₀ E M G u v = o + t • d ∧ InRangeBox lo hi ![u, v, t]) :
    ∃ u v t out, quadricGraph p a b u₀ v₀ E M G u v = o + t • d ∧ InRangeBox lo hi ![u, v, t] ∧
      (∀ u' v' t', quadricGraph p a b u₀ v₀ E M G u' v' = o + t' • d → InRangeBox lo hi ![u', v', t'] → t ≤ t') ∧
      koMethod h ⟨cv o, cv d⟩ (Bounds.ofReal lo hi g) (fin u₀) (fin v₀) = some (![fin u, fin v, fin t], out) ∧ out.bodies = 2 ∧
      out.randomizations = 0 := by
  have he : 0 < F.eps := Fmt.Exact.eps_pos
  have he1 : F.eps < 1 := Fmt.Exact.eps_lt
  obtain ⟨N, hN⟩ : ∃ N, N = a ⨯₃ b := ⟨_, rfl⟩
  rw [← hN] at hmN hT hdN
  simp only [← hN] at hE hM hG
  have aN : a ⬝ᵥ N = 0 := by rw [hN]; exact dot_self_cross a b
  have bN : b ⬝ᵥ N = 0 := by rw [hN]; exact dot_cross_self a b
  have NN : N ⬝ᵥ N = 1 := by rw [hN, cross_dot_cross, haa, hbb, hab, dotProduct_comm b a, hab]; norm_num
  have hmpos : 0 < m ⬝ᵥ m := lt_of_lt_of_le (by positivity) hfar
  obtain ⟨q, hq⟩ : ∃ q, q = (Real.sqrt (m ⬝ᵥ m))⁻¹ • m := ⟨_, rfl⟩
  have hsq : Real.sqrt (m ⬝ᵥ m) ≠ 0 := (Real.sqrt_pos.mpr hmpos).ne'
  have qq : q ⬝ᵥ q = 1 := by
    rw [hq, smul_dotProduct, dotProduct_smul, smul_eq_mul, smul_eq_mul, ← mul_assoc, ← mul_inv, Real.mul_self_sqrt hmpos.le,
      inv_mul_cancel₀ hmpos.ne']
  have qN : q ⬝ᵥ N = 0 := by rw [hq, smul_dotProduct, hmN, smul_zero]
  have hTq : T = q ⨯₃ N := by rw [hT, hq, map_smul, LinearMap.smul_apply]
  have TT : T ⬝ᵥ T = 1 := by rw [hTq, cross_dot_cross, qq, NN, qN, dotProduct_comm N q, qN]; norm_num
  have qT : q ⬝ᵥ T = 0 := by rw [hTq]; exact dot_self_cross q N
  have NT : N ⬝ᵥ T = 0 := by rw [hTq]; exact dot_cross_self q N
  have TN : T ⬝ᵥ N = 0 := by rw [dotProduct_comm]; exact NT
  have hqc : q = N ⨯₃ T := by
    rw [hTq, cross_cross_eq_smul_sub_smul', NN, qN]; simp
  have qd : d ⬝ᵥ q = 0 := by rw [hq, hm, dotProduct_smul, dot_cross_self, smul_zero]
  have qo : (p - o) ⬝ᵥ q = 0 := by rw [hq, hm, dotProduct_smul, dot_self_cross, smul_zero]
  have fra : ∀ y : Fin 3 → ℝ, y ⬝ᵥ N = 0 → y = (y ⬝ᵥ a) • a + (y ⬝ᵥ b) • b := fun y hy => frame_sum haa hbb hab y hN hy
  have frq : ∀ y : Fin 3 → ℝ, y ⬝ᵥ q = 0 → y = (y ⬝ᵥ N) • N + (y ⬝ᵥ T) • T := fun y hy => frame_sum NN TT NT y hqc hy
  obtain ⟨α, hα⟩ : ∃ α, α = T ⬝ᵥ a := ⟨_, rfl⟩
  obtain ⟨β, hβ⟩ : ∃ β, β = T ⬝ᵥ b := ⟨_, rfl⟩
  have hTab : T = α • a + β • b := by rw [hα, hβ]; exact fra T TN
  rw [← hα, ← hβ] at hκ
  -- the surface along the tangent
  have along : ∀ s, quadricGraph p a b u₀ v₀ E M G (u₀ + s * α) (v₀ + s * β) = p + s • T + (κ * s ^ 2 / 2) • N := by
    intro s
    unfold quadricGraph
    rw [← hN, hTab, hκ, smul_add, smul_smul, smul_smul]
    have e1 : u₀ + s * α - u₀ = s * α := by ring
    have e2 : v₀ + s * β - v₀ = s * β := by ring
    rw [e1, e2, ← add_assoc]
    congr 2
    ring
  obtain ⟨δ, hδ⟩ : ∃ δ, δ = d ⬝ᵥ T := ⟨_, rfl⟩
  obtain ⟨ν, hν⟩ : ∃ ν, ν = d ⬝ᵥ N := ⟨_, rfl⟩
  obtain ⟨τ, hτ⟩ : ∃ τ, τ = (p - o) ⬝ᵥ T := ⟨_, rfl⟩
  obtain ⟨η, hη⟩ : ∃ η, η = (p - o) ⬝ᵥ N := ⟨_, rfl⟩
  rw [← hδ] at hdT hdN
  rw [← hν] at hdN
  have hd : d = ν • N + δ • T := by rw [hν, hδ]; exact frq d qd
  have hpo : p - o = η • N + τ • T := by rw [hη, hτ]; exact frq _ qo
  -- the quadratic equation
  have meets : ∀ s, quadricGraph p a b u₀ v₀ E M G (u₀ + s * α) (v₀ + s * β) = o + ((s + τ) / δ) • d ↔
      κ / 2 * s ^ 2 - ν / δ * s + (η - ν * τ / δ) = 0 := by
    intro s
    rw [along]
    have hp : p = o + (η • N + τ • T) := by rw [← hpo]; abel
    have e1 : (s + τ) / δ * δ = s + τ := div_mul_cancel₀ _ hdT
    have e2 : o + ((s + τ) / δ) • d = o + (((s + τ) / δ * ν) • N + (s + τ) • T) := by
      rw [hd, smul_add, smul_smul, smul_smul, e1]
    have e3 : p + s • T + (κ * s ^ 2 / 2) • N = o + ((η + κ * s ^ 2 / 2) • N + (s + τ) • T) := by
      rw [hp]; module
    rw [e2, e3, add_right_inj, add_left_inj]
    constructor
    · intro hh
      have := congrArg (fun y => y ⬝ᵥ N) hh
      simp only [smul_dotProduct, NN, smul_eq_mul, mul_one] at this
      field_simp at this ⊢
      linarith
    · intro hh
      congr 1
      field_simp at hh ⊢
      linarith
  have only : ∀ u v t, quadricGraph p a b u₀ v₀ E M G u v = o + t • d →
      ∃ s, u = u₀ + s * α ∧ v = v₀ + s * β ∧ t = (s + τ) / δ := by
    intro u v t hh
    obtain ⟨y, hy⟩ : ∃ y, y = (u - u₀) • a + (v - v₀) • b := ⟨_, rfl⟩
    have hyq : y ⬝ᵥ q = 0 := by
      unfold quadricGraph at hh
      rw [← hN] at hh
      have h1 := congrArg (fun x => (x - p) ⬝ᵥ q) hh
      have h2 : o + t • d - p = t • d - (p - o) := by abel
      have h4 : (t • d - (p - o)) ⬝ᵥ q = 0 := by rw [sub_dotProduct, smul_dotProduct, qd, qo]; simp
      rw [h2, h4] at h1
      have h3 : p + (u - u₀) • a + (v - v₀) • b + ((E * (u - u₀) ^ 2 + 2 * M * ((u - u₀) * (v - v₀)) + G * (v - v₀) ^ 2) / 2) • N - p =
          y + ((E * (u - u₀) ^ 2 + 2 * M * ((u - u₀) * (v - v₀)) + G * (v - v₀) ^ 2) / 2) • N := by rw [hy]; abel
      rw [h3, add_dotProduct, smul_dotProduct, dotProduct_comm N q, qN] at h1
      simpa using h1
    have hyN : y ⬝ᵥ N = 0 := by rw [hy, add_dotProduct, smul_dotProduct, smul_dotProduct, aN, bN]; simp
    have hyT : y = (y ⬝ᵥ T) • T := by
      have := frq y hyq
      rw [hyN, zero_smul, zero_add] at this
      exact this
    refine ⟨y ⬝ᵥ T, ?_, ?_, ?_⟩
    · have h1 : y ⬝ᵥ a = u - u₀ := by
        rw [hy, add_dotProduct, smul_dotProduct, smul_dotProduct, haa, dotProduct_comm b a, hab]; simp
      rw [hyT, smul_dotProduct, ← hα, smul_eq_mul] at h1
      linarith
    · have h1 : y ⬝ᵥ b = v - v₀ := by
        rw [hy, add_dotProduct, smul_dotProduct, smul_dotProduct, hbb, hab]; simp
      rw [hyT, smul_dotProduct, ← hβ, smul_eq_mul] at h1
      linarith
    · rw [eq_div_iff hdT]
      unfold quadricGraph at hh
      rw [← hN] at hh
      have h1 := congrArg (fun x => (x - o) ⬝ᵥ T) hh
      have h2 : p + (u - u₀) • a + (v - v₀) • b + ((E * (u - u₀) ^ 2 + 2 * M * ((u - u₀) * (v - v₀)) + G * (v - v₀) ^ 2) / 2) • N - o =
          (p - o) + y + ((E * (u - u₀) ^ 2 + 2 * M * ((u - u₀) * (v - v₀)) + G * (v - v₀) ^ 2) / 2) • N := by rw [hy]; abel
      rw [h2, add_sub_cancel_left, add_dotProduct, add_dotProduct, smul_dotProduct, NT, smul_zero, add_zero, smul_dotProduct, ← hδ, ← hτ,
        smul_eq_mul] at h1
      linarith
  -- the roots
  have hκ0 : κ ≠ 0 := by
    intro h0
    rw [h0, abs_zero] at hκe
    have : 0 < F.eps ^ 2 := by positivity
    linarith
  have hκp : 0 < |κ| := abs_pos.mpr hκ0
  obtain ⟨sg, hsg⟩ : ∃ sg, sg = κ / |κ| := ⟨_, rfl⟩
  have sgκ : sg * κ = |κ| := by
    rw [hsg, div_mul_eq_mul_div, ← abs_mul_abs_self κ, mul_div_assoc, div_self hκp.ne', mul_one]
  have sg0 : sg ≠ 0 := by rw [hsg]; exact div_ne_zero hκ0 hκp.ne'
  have sg1 : |sg| = 1 := by rw [hsg, abs_div, abs_abs, div_self hκp.ne']
  have eqn : ∀ s, |κ| / 2 * s ^ 2 + -(sg * ν) / δ * s + (sg * ν * -τ / δ - -(sg * η)) = 0 ↔
      κ / 2 * s ^ 2 - ν / δ * s + (η - ν * τ / δ) = 0 := by
    intro s
    have : |κ| / 2 * s ^ 2 + -(sg * ν) / δ * s + (sg * ν * -τ / δ - -(sg * η)) =
        sg * (κ / 2 * s ^ 2 - ν / δ * s + (η - ν * τ / δ)) := by rw [← sgκ]; ring
    rw [this, mul_eq_zero, or_iff_right sg0]
  obtain ⟨u₁, v₁, t₁, hs1, hb1⟩ := hX
  obtain ⟨s₁, rfl, rfl, rfl⟩ := only _ _ _ hs1
  have spec := quadraticRoots_spec (F := F) (|κ| / 2) (-(sg * ν) / δ) (sg * ν * -τ / δ - -(sg * η))
    (Or.inr (by rw [abs_of_pos (by positivity)]; linarith))
    (Or.inr (by
      rcases hdN with h0 | h0
      · left; rw [h0, mul_zero, neg_zero, zero_div]
      · right
        rw [neg_div, abs_neg, mul_div_assoc, abs_mul, sg1, one_mul]
        exact h0))
    (fun hh => by linarith [hh.1])
  rcases spec with ⟨-, hno⟩ | ⟨x, y, -, hl, -, hiff⟩
  · exact absurd ((eqn s₁).mpr ((meets s₁).mp hs1)) (hno s₁)
  have root : ∀ s, (s = x ∨ s = y) ↔ quadricGraph p a b u₀ v₀ E M G (u₀ + s * α) (v₀ + s * β) = o + ((s + τ) / δ) • d := by
    intro s; rw [meets, ← eqn, hiff]
  obtain ⟨z, hz, hzb, hzmin, hch⟩ := Ko.choose_two (F := F) lo hi g u₀ v₀ 0 1 x y α β τ δ hdT (by
    rcases (root s₁).mpr hs1 with rfl | rfl
    · exact .inl hb1
    · exact .inr hb1)
  have hz' := (root z).mp hz
  refine ⟨u₀ + z * α, v₀ + z * β, (z + τ) / δ, ⟨fin (u₀ + z * α), fin (v₀ + z * β), 0, 2, Bounds.ofReal lo hi g⟩, hz', hzb, ?_, ?_, rfl, rfl⟩
  · intro u' v' t' hh hbx
    obtain ⟨s, rfl, rfl, rfl⟩ := only _ _ _ hh
    exact hzmin s ((root s).mpr hh) hbx
  -- the loop
  have hP0 : (h (fin u₀) (fin v₀)).1 = cv p := by
    rw [hP]
    have := along 0
    simp only [zero_mul, add_zero, zero_smul] at this
    rw [this]; simp
  have nc : Ko.converged (cv p : Vec (Fl F) 3) (cv o) (cv d) = false := by
    unfold Ko.converged
    rw [cv_sub, cv_cross, ← hm, cv_squaredNorm, ofNat_def, eps_def, Fl.mul_fin, Fl.mul_fin, lt_fin, decide_eq_false_iff_not, not_lt]
    push_cast
    nlinarith
  have big : ∀ x : Fin 3 → ℝ, x ⬝ᵥ x = 1 → lt (squaredNorm (cv x : Vec (Fl F) 3)) (eps * eps) = false := by
    intro x hx
    rw [cv_squaredNorm, eps_def, Fl.mul_fin, lt_fin, decide_eq_false_iff_not, not_lt, hx]
    nlinarith
  have unit : ∀ x : Fin 3 → ℝ, x ⬝ᵥ x = 1 → Vec.normalize (cv x : Vec (Fl F) 3) = cv x := by
    intro x hx
    rw [normalize_cv (by rw [hx]; norm_num), hx, Real.sqrt_one, inv_one, one_smul]
  have hGm : (![![dot (cv a) (cv a), dot (cv a) (cv b)], ![dot (cv a) (cv b), dot (cv b) (cv b)]] : Mat (Fl F) 2 2) = cm 1 := by
    funext i j; fin_cases i <;> fin_cases j <;> simp [cv_dot, cm, haa, hab, hbb]
  have hK : Mat.inverseVal2 (cm 1 : Mat (Fl F) 2 2) = some (cm 1) := by
    obtain ⟨i1, i2, -⟩ := C07_inverse2 (F := F) 1 (fun _ _ => (Scalar.nan : Fl F))
    have hs := i1.mpr (by rw [det_one, abs_one]; exact Fmt.Exact.tiny_lt)
    obtain ⟨K, k1, k2, -⟩ := i2 hs
    rw [one_mul] at k2
    subst k2
    unfold Mat.inverseVal2
    rcases hh : Mat.inverse2 (cm 1) (fun _ _ => (Scalar.nan : Fl F)) with ⟨b, x⟩
    rw [hh] at hs k1
    dsimp only at hs k1
    subst hs; subst k1
    rfl
  have st : Ko.step h (cv o) (cv d) ⟨fin u₀, fin v₀, 0, 1, Bounds.ofReal lo hi g⟩ =
      some (.inl ⟨fin (u₀ + z * α), fin (v₀ + z * β), 0, 1, Bounds.ofReal lo hi g⟩) := by
    have mv : ∀ x y : ℝ, Mat.mulVec (cm 1) (![fin x, fin y] : Vec (Fl F) 2) = cv ![x, y] := fun x y => by
      rw [cv_vec2, cm_mulVec, one_mulVec]
    unfold Ko.step
    have c1 : cross ((cv p : Vec (Fl F) 3) - cv o) (cv d) = cv m := by rw [cv_sub, cv_cross, ← hm]
    have c2 : cross (cv a : Vec (Fl F) 3) (cv b) = cv N := by rw [cv_cross, ← hN]
    have n1 : Vec.normalize (cv m : Vec (Fl F) 3) = cv q := by rw [normalize_cv hmpos, hq]
    have c3 : cross (cv q : Vec (Fl F) 3) (cv N) = cv T := by rw [cv_cross, ← hTq]
    simp only [hP0, hJa, hJb, hGm, hK, Option.bind_eq_bind, Option.bind_some, c1, c2, n1, unit N NN, c3, unit T TT, big N NN, big T TT]
    simp only [cv_sub, Bool.false_eq_true, if_false, form_rank_one _ N NN hE, form_rank_one _ N NN hM, form_rank_one _ N NN hG,
      Option.bind_some, cv_dot, mv, cv_apply]
    have w0 : (![T ⬝ᵥ a, T ⬝ᵥ b] : Fin 2 → ℝ) 0 = α := by rw [hα]; rfl
    have w1 : (![T ⬝ᵥ a, T ⬝ᵥ b] : Fin 2 → ℝ) 1 = β := by rw [hβ]; rfl
    have kB : (fin E * fin α * fin α + 2 * fin M * fin α * fin β + fin G * fin β * fin β : Fl F) = fin κ := by
      rw [ofNat_def]
      simp only [Fl.mul_fin, add_fin, fin_inj]
      rw [hκ]; push_cast; ring
    have Nq : N ⬝ᵥ q = 0 := by rw [dotProduct_comm]; exact qN
    have k1 : (fin κ / (1 - fin 0 * fin 0) : Fl F) = fin κ := by
      rw [ofNat_def, Fl.mul_fin, mul_zero, Fl.sub_fin, div_fin _ (by norm_num)]
      norm_num
    have k2 : (fin κ •. (-fin 0 •. (cv q : Vec (Fl F) 3) + cv N) : Vec (Fl F) 3) = cv (κ • N) := by
      rw [Fl.neg_fin, neg_zero, cv_smul, zero_smul, cv_add, zero_add, cv_smul]
    have k3 : Vec.norm (cv (κ • N) : Vec (Fl F) 3) = fin |κ| := by
      rw [cv_norm, smul_dotProduct, dotProduct_smul, NN, smul_eq_mul, smul_eq_mul, mul_one, Real.sqrt_mul_self_eq_abs]
    have k4 : ((cv (κ • N) : Vec (Fl F) 3) /. fin |κ| : Vec (Fl F) 3) = cv (sg • N) := by
      funext i
      show (cv (κ • N) : Vec (Fl F) 3) i / fin |κ| = _
      rw [cv_apply, cv_apply, div_fin _ hκp.ne', Pi.smul_apply, Pi.smul_apply, smul_eq_mul, smul_eq_mul, hsg, div_mul_eq_mul_div]
    have k5 : (fin |κ| / 2 : Fl F) = fin (|κ| / 2) := by rw [ofNat_def, div_fin _ (by norm_num)]; norm_num
    have k6 : d ⬝ᵥ sg • N = sg * ν := by rw [dotProduct_smul, smul_eq_mul, hν]
    have k7 : (o - p) ⬝ᵥ T = -τ := by rw [hτ, ← neg_sub p o, neg_dotProduct]
    have k8 : (o - p) ⬝ᵥ sg • N = -(sg * η) := by rw [hη, ← neg_sub p o, neg_dotProduct, dotProduct_smul, smul_eq_mul]
    have t1 : lt (Scalar.abs (fin κ : Fl F)) (eps * eps) = false := by
      rw [abs_fin, eps_def, Fl.mul_fin, lt_fin, decide_eq_false_iff_not, not_lt, ← sq]; exact hκe
    have t2 : Scalar.ge (fin 0 : Fl F) 1 = false := by
      rw [ofNat_def]; unfold Scalar.ge; rw [le_fin, decide_eq_false_iff_not]; norm_num
    simp only [w0, w1, kB, Nq]
    simp only [k1, k2, k3, k4, k5, t1, t2, Bool.false_eq_true, if_false]
    simp only [cv_dot, k6, k7, k8, ← hδ, ← hτ, Fl.neg_fin, Fl.mul_fin, div_fin _ hdT, Fl.sub_fin, hl, hch]
  have res : Ko.result (cv (o + ((z + τ) / δ) • d) : Vec (Fl F) 3) (cv o) (cv d) (fin (u₀ + z * α)) (fin (v₀ + z * β)) (Bounds.ofReal lo hi g) =
      ![fin (u₀ + z * α), fin (v₀ + z * β), fin ((z + τ) / δ)] := by
    have hdd : d ⬝ᵥ d ≠ 0 := fun h0 => hdT (by rw [hδ, dotProduct_self_eq_zero.mp h0, zero_dotProduct])
    unfold Ko.result
    dsimp only
    rw [cv_sub, add_sub_cancel_left, cv_dot, cv_dot, div_fin _ hdd, smul_dotProduct, smul_eq_mul, mul_div_cancel_right₀ _ hdd]
    show (if (lt (fin ((z + τ) / δ)) (fin (lo 2)) || gt (fin ((z + τ) / δ)) (fin (hi 2)) : Bool) = true then _ else _) = _
    simp only [Scalar.gt, lt_fin, Bool.or_eq_true, decide_eq_true_eq]
    have := hzb 2
    exact if_neg (by push Not; exact this)
  have cc : Ko.converged (cv (o + ((z + τ) / δ) • d) : Vec (Fl F) 3) (cv o) (cv d) = true := by
    unfold Ko.converged
    rw [cv_sub, add_sub_cancel_left, cv_cross, cv_squaredNorm, ofNat_def, eps_def, Fl.mul_fin, Fl.mul_fin, lt_fin, decide_eq_true_eq,
      map_smul, LinearMap.smul_apply, cross_self, smul_zero, dotProduct_zero]
    push_cast
    positivity
  unfold koMethod Ko.loop
  simp only [isNaN_fin, Bool.false_eq_true, if_false, hP0, nc, Nat.zero_add, st]
  unfold Ko.loop
  simp only [hP, hz', cc, if_true, res]

/-- The surface `z = u² + 3uv + 5v²/2` with its derivatives. -/
noncomputable def Ko.bowl : Ko.Patch (Fl F) := fun u v =>
  (![u, v, u * u + fin 3 * u * v + fin (5 / 2) * v * v],
    ![![fin 1, fin 0, fin 0], ![fin 0, fin 1, fin 0], ![fin 2 * u + fin 3 * v, fin 3 * u + fin 5 * v, fin 0]],
    ⟨[fin 0, fin 0, fin 0, fin 0, fin 0, fin 0, fin 0, fin 0, fin 2, fin 3, fin 3, fin 5], rfl⟩)

/-- A level ray at the height 1 meets the bowl at `u = -1` and `u = 1`; `ko_method`, started at the lowest point, returns the nearer one, at the
ray parameter 2. -/
example (g : Pcg) : ∃ out, koMethod (R := Fl exact64) Ko.bowl ⟨cv ![-3, 0, 1], cv ![1, 0, 0]⟩ (Bounds.ofReal ![-2, -1, 0] ![2, 1, 10] g)
    (fin 0) (fin 0) = some (![fin (-1), fin 0, fin 2], out) ∧ out.bodies = 2 := by
  have he : exact64.eps ^ 2 < 1 / 100 := by simp only [exact64]; norm_num
  have ht : exact64.tiny < 1 := Fmt.Exact.tiny_lt
  have hN : (![1, 0, 0] ⨯₃ ![0, 1, 0] : Fin 3 → ℝ) = ![0, 0, 1] := by ext i; fin_cases i <;> simp [cross_apply]
  have hm : ((0 - ![-3, 0, 1]) ⨯₃ ![1, 0, 0] : Fin 3 → ℝ) = ![0, -1, 0] := by
    ext i; fin_cases i <;> simp [cross_apply]
  have hT : (![0, -1, 0] ⨯₃ ![0, 0, 1] : Fin 3 → ℝ) = ![-1, 0, 0] := by ext i; fin_cases i <;> simp [cross_apply]
  have mm : (![0, -1, 0] : Fin 3 → ℝ) ⬝ᵥ ![0, -1, 0] = 1 := by simp [dotProduct, Fin.sum_univ_three]
  have eqn : ∀ u v t : ℝ, quadricGraph 0 ![1, 0, 0] ![0, 1, 0] 0 0 2 3 5 u v = ![-3, 0, 1] + t • ![1, 0, 0] ↔
      u = t - 3 ∧ v = 0 ∧ u ^ 2 + 3 * u * v + 5 / 2 * v ^ 2 = 1 := by
    intro u v t
    unfold quadricGraph
    rw [hN, funext_iff, Fin.forall_fin_succ, Fin.forall_fin_succ, Fin.forall_fin_one]
    simp
    constructor
    · rintro ⟨h1, h2, h3⟩; exact ⟨by linarith, h2, by linarith⟩
    · rintro ⟨h1, h2, h3⟩; exact ⟨by linarith, h2, by linarith⟩
  obtain ⟨u, v, t, out, h1, h2, h3, h4, h5, -⟩ := C156_vertex (F := exact64) Ko.bowl 0 ![1, 0, 0] ![0, 1, 0] ![-3, 0, 1] ![1, 0, 0] 0 0 2 3 5
    (by simp [dotProduct, Fin.sum_univ_three]) (by simp [dotProduct, Fin.sum_univ_three]) (by simp [dotProduct, Fin.sum_univ_three])
    (fun u v => by
      unfold Ko.bowl quadricGraph
      rw [hN]
      simp only [Fl.mul_fin, add_fin]
      rw [cv_vec3, cv_inj]
      ext i; fin_cases i <;> simp
      ring)
    (by funext i; fin_cases i <;> simp [Ko.bowl, Mat.column, cv_apply])
    (by funext i; fin_cases i <;> simp [Ko.bowl, Mat.column, cv_apply])
    (fun i => by rw [hN]; fin_cases i <;> simp [Ko.bowl, Tensor.get])
    (fun i => by rw [hN]; fin_cases i <;> simp [Ko.bowl, Tensor.get])
    (fun i => by rw [hN]; fin_cases i <;> simp [Ko.bowl, Tensor.get])
    ![0, -1, 0] hm.symm (by rw [mm]; linarith) (by rw [hN]; simp [dotProduct, Fin.sum_univ_three]) ![-1, 0, 0]
    (by rw [hN, hT, mm]; simp) 2 (by simp [dotProduct, Fin.sum_univ_three]) (by rw [abs_of_pos (by norm_num)]; linarith)
    (by rw [abs_of_pos (by norm_num)]; linarith) (by simp [dotProduct, Fin.sum_univ_three])
    (Or.inl (by rw [hN]; simp [dotProduct, Fin.sum_univ_three])) ![-2, -1, 0] ![2, 1, 10] g
    ⟨-1, 0, 2, (eqn _ _ _).mpr (by norm_num), fun i => by fin_cases i <;> simp <;> norm_num⟩
  obtain ⟨rfl, rfl, h6⟩ := (eqn _ _ _).mp h1
  have h7 := h3 (-1) 0 2 ((eqn _ _ _).mpr (by norm_num)) (fun i => by fin_cases i <;> simp <;> norm_num)
  have h8 : t = 2 := by
    have : (t - 2) * (t - 4) = 0 := by linarith
    rcases mul_eq_zero.mp this with h | h <;> linarith
  subst h8
  refine ⟨out, ?_, h5⟩
  rw [h4]
  norm_num

end DRT
