import Verif.Model.Ko
import Verif.Props.Newton
import Verif.Props.Vec

/-! # The Ko method for ray-surface intersection: C24 -/

namespace DRT
open Scalar Vec Fl Matrix

variable {F : Fmt}

section
variable {R : Type} [Scalar R]

theorem Bounds.random_box {n : ℕ} (b : Bounds R n) : b.random.2.box = b.box := by
  unfold Bounds.random
  generalize Fin.foldl n _ _ = w
  dsimp only

theorem Ko.randomize_spec {s s' : Ko.State R} :
    (Ko.randomize s = .inl s' → s.randomizations ≤ 20 ∧ s'.randomizations = s.randomizations + 1 ∧ s'.bodies = s.bodies ∧
      s'.bound.box = s.bound.box) ∧
    (Ko.randomize s = .inr s' → s'.bodies = s.bodies ∧ s'.bound = s.bound ∧ s'.randomizations ≤ s.randomizations + 1) := by
  have hb : s.bound.random.2.box = s.bound.box := Bounds.random_box _
  unfold Ko.randomize
  generalize s.bound.random = w at hb
  constructor
  · intro h
    split_ifs at h with h1
    simp only [Sum.inl.injEq] at h
    subst h
    exact ⟨by omega, rfl, rfl, hb⟩
  · intro h
    split_ifs at h with h1
    simp only [Sum.inr.injEq] at h
    subst h
    exact ⟨rfl, rfl, le_rfl⟩

theorem Ko.choose_spec {s : Ko.State R} {roots : List R} {a b c d : R} {r : Ko.State R ⊕ Ko.State R}
    (h : Ko.choose s roots a b c d = some r) :
    (∃ s', r = .inl s' ∧ s'.bodies = s.bodies ∧ s'.bound.box = s.bound.box ∧
      (s'.randomizations = s.randomizations ∨ s.randomizations ≤ 20 ∧ s'.randomizations = s.randomizations + 1)) ∨
    (∃ s', r = .inr s' ∧ s'.bodies = s.bodies ∧ s'.bound = s.bound ∧ s'.randomizations ≤ s.randomizations + 1) := by
  have rand : ∀ r, Ko.randomize s = r → (∃ s', r = .inl s' ∧ s'.bodies = s.bodies ∧ s'.bound.box = s.bound.box ∧
      (s'.randomizations = s.randomizations ∨ s.randomizations ≤ 20 ∧ s'.randomizations = s.randomizations + 1)) ∨
    (∃ s', r = .inr s' ∧ s'.bodies = s.bodies ∧ s'.bound = s.bound ∧ s'.randomizations ≤ s.randomizations + 1) := by
    intro r hr
    rcases r with s' | s'
    · obtain ⟨h1, h2, h3, h4⟩ := Ko.randomize_spec.1 hr
      exact Or.inl ⟨s', rfl, h3, h4, Or.inr ⟨h1, h2⟩⟩
    · obtain ⟨h1, h2, h3⟩ := Ko.randomize_spec.2 hr
      exact Or.inr ⟨s', rfl, h1, h2, h3⟩
  match roots, h with
  | [], h =>
    simp only [Ko.choose, Option.some.injEq] at h
    exact rand r h
  | [r0, r1], h =>
    simp only [Ko.choose] at h
    split_ifs at h with h1
    · simp only [Option.some.injEq] at h
      exact rand r h
    all_goals
      simp only [Option.some.injEq] at h; subst h
      exact Or.inl ⟨_, rfl, rfl, rfl, Or.inl rfl⟩
  | [_], h => exact absurd h (by simp [Ko.choose])
  | _ :: _ :: _ :: _, h => exact absurd h (by simp [Ko.choose])

theorem Ko.step_spec {h : Ko.Patch R} {O D : Vec R 3} {s : Ko.State R} {r : Ko.State R ⊕ Ko.State R}
    (hs : Ko.step h O D s = some r) :
    (∃ s', r = .inl s' ∧ s'.bodies = s.bodies ∧ s'.bound.box = s.bound.box ∧
      (s'.randomizations = s.randomizations ∨ s.randomizations ≤ 20 ∧ s'.randomizations = s.randomizations + 1)) ∨
    (∃ s', r = .inr s' ∧ s'.bodies = s.bodies ∧ s'.bound = s.bound ∧ s'.randomizations ≤ s.randomizations + 1) := by
  unfold Ko.step at hs
  dsimp only at hs
  split at hs
  · simp only [Option.some.injEq] at hs; subst hs
    exact Or.inr ⟨s, rfl, rfl, rfl, by omega⟩
  split at hs
  · simp only [Option.some.injEq] at hs; subst hs
    exact Or.inr ⟨s, rfl, rfl, rfl, by omega⟩
  · simp only [Option.bind_eq_bind, Option.bind_eq_some_iff, Option.pure_def] at hs
    obtain ⟨Mi, -, e, -, f, -, g, -, hs⟩ := hs
    split_ifs at hs
    · simp only [Option.some.injEq] at hs; subst hs
      exact Or.inl ⟨_, rfl, rfl, rfl, Or.inl rfl⟩
    · simp only [Option.some.injEq] at hs; subst hs
      exact Or.inr ⟨s, rfl, rfl, rfl, by omega⟩
    · exact Ko.choose_spec hs

/-- What is claimed of a returned vector: NaNs, or a converged point whose parameter is not outside the third bound. -/
def Ko.Good (h : Ko.Patch R) (O D : Vec R 3) (box : R × R) (x : Vec R 3) : Prop :=
  x = Vec.nans ∨ ∃ u v t : R, x = ![u, v, t] ∧
    lt (squaredNorm (cross ((h u v).1 - O) D)) (4 * eps * eps) = true ∧
    t = dot ((h u v).1 - O) D / dot D D ∧ lt t box.1 = false ∧ gt t box.2 = false

theorem Ko.loop_spec {h : Ko.Patch R} {O D : Vec R 3} (k : ℕ) {s : Ko.State R} {x : Vec R 3} {out : Ko.State R}
    (hl : Ko.loop h O D k s = some (x, out)) (hr : s.randomizations ≤ 21) :
    Ko.Good h O D (s.bound.box 2) x ∧ out.bodies ≤ s.bodies + k + 1 ∧ s.bodies < out.bodies ∧ out.randomizations ≤ 22 := by
  induction k generalizing s with
  | zero =>
    unfold Ko.loop at hl
    dsimp only at hl
    split_ifs at hl with hc
    · simp only [Option.some.injEq, Prod.mk.injEq] at hl
      obtain ⟨rfl, rfl⟩ := hl
      refine ⟨?_, by simp, by simp, by simp; omega⟩
      unfold Ko.result
      dsimp only
      split_ifs with ht
      · exact Or.inl rfl
      · simp only [Bool.or_eq_true, not_or, Bool.not_eq_true] at ht
        exact Or.inr ⟨s.u, s.v, _, rfl, hc, rfl, ht.1, ht.2⟩
    · cases hst : Ko.step h O D { s with bodies := s.bodies + 1 } with
      | none => rw [hst] at hl; cases hl
      | some r =>
        rw [hst] at hl
        rcases Ko.step_spec hst with ⟨s', rfl, q1, q2, q3⟩ | ⟨s', rfl, q1, q2, q3⟩ <;>
          simp only [Option.some.injEq, Prod.mk.injEq] at hl <;> obtain ⟨rfl, rfl⟩ := hl <;>
          refine ⟨Or.inl rfl, ?_⟩ <;> dsimp only at q1 q3 <;> omega
  | succ k ih =>
    unfold Ko.loop at hl
    dsimp only at hl
    split_ifs at hl with hc
    · simp only [Option.some.injEq, Prod.mk.injEq] at hl
      obtain ⟨rfl, rfl⟩ := hl
      refine ⟨?_, by simp, by simp, by simp; omega⟩
      unfold Ko.result
      dsimp only
      split_ifs with ht
      · exact Or.inl rfl
      · simp only [Bool.or_eq_true, not_or, Bool.not_eq_true] at ht
        exact Or.inr ⟨s.u, s.v, _, rfl, hc, rfl, ht.1, ht.2⟩
    · cases hst : Ko.step h O D { s with bodies := s.bodies + 1 } with
      | none => rw [hst] at hl; cases hl
      | some r =>
        rw [hst] at hl
        rcases Ko.step_spec hst with ⟨s', rfl, q1, q2, q3⟩ | ⟨s', rfl, q1, q2, q3⟩
        · dsimp only at hl q1 q2 q3
          obtain ⟨i1, i2⟩ := ih hl (by omega)
          rw [q2] at i1
          exact ⟨i1, by omega⟩
        · simp only [Option.some.injEq, Prod.mk.injEq] at hl
          obtain ⟨rfl, rfl⟩ := hl
          refine ⟨Or.inl rfl, ?_⟩
          dsimp only at q1 q3
          omega

/-- C24 (every arithmetic, surface, ray, bound and starting point): a vector returned by `ko_method` is the NaN vector
or `(u, v, t)` with `|(P - o) × d|² < 4 eps²` for `P` the surface point at `(u, v)`, `t = (P - o)·d / d·d`, and `t`
neither below nor above the third bound; the loop body runs at most 50 times, with at most 21 random restarts. -/
theorem C24_residual (h : Ko.Patch R) (r : Ray R) (b : Bounds R 3) (u0 v0 : R) (x : Vec R 3) (out : Ko.State R)
    (hx : koMethod h r b u0 v0 = some (x, out)) :
    (x = Vec.nans ∨ ∃ u v t : R, x = ![u, v, t] ∧
      lt (squaredNorm (cross ((h u v).1 - r.origin) r.dir)) (4 * eps * eps) = true ∧
      t = dot ((h u v).1 - r.origin) r.dir / dot r.dir r.dir ∧ lt t (b.box 2).1 = false ∧ gt t (b.box 2).2 = false) ∧
    1 ≤ out.bodies ∧ out.bodies ≤ 50 ∧ out.randomizations ≤ 22 := by
  have := Ko.loop_spec 49 hx (by simp)
  refine ⟨this.1, ?_⟩
  have := this.2
  dsimp only at this
  omega

end

/-- C24: if no component is NaN then `t` lies in the third bound (any arithmetic in which the bounds are not NaN). -/
theorem C24_in_bound (h : Ko.Patch (Fl F)) (r : Ray (Fl F)) (b : Bounds (Fl F) 3) (u0 v0 : Fl F) (x : Vec (Fl F) 3)
    (out : Ko.State (Fl F)) (hx : koMethod h r b u0 v0 = some (x, out)) (hn : ∀ i, isNaN (x i) = false)
    (hb : isNaN (b.box 2).1 = false ∧ isNaN (b.box 2).2 = false) :
    Scalar.le (b.box 2).1 (x 2) = true ∧ Scalar.le (x 2) (b.box 2).2 = true ∧
      lt (squaredNorm (cross ((h (x 0) (x 1)).1 - r.origin) r.dir)) (4 * eps * eps) = true := by
  obtain ⟨h1, -⟩ := C24_residual h r b u0 v0 x out hx
  rcases h1 with rfl | ⟨u, v, t, rfl, h1, -, h3, h4⟩
  · exact absurd (hn 0) (by simp [Vec.nans])
  · have ht := hn 2
    exact ⟨Fl.le_of_not_lt ht hb.1 h3, Fl.le_of_not_lt hb.2 ht h4, h1⟩

/-- C24 in exact arithmetic: the point of the ray at the returned parameter is closer than `2 eps / |d|` to the surface
point at the returned `(u, v)`, for every surface that is finite there and every nonzero direction. -/
theorem C24_distance [F.Exact] (h : Ko.Patch (Fl F)) (o d : Fin 3 → ℝ) (b : Bounds (Fl F) 3) (u0 v0 u v t : Fl F)
    (out : Ko.State (Fl F)) (hx : koMethod h ⟨cv o, cv d⟩ b u0 v0 = some (![u, v, t], out)) (ht : isNaN t = false)
    (P : Fin 3 → ℝ) (hP : (h u v).1 = cv P) (hd : d ≠ 0) :
    ∃ τ : ℝ, t = fin τ ∧ (P - (o + τ • d)) ⬝ᵥ (P - (o + τ • d)) * (d ⬝ᵥ d) < 4 * F.eps ^ 2 := by
  obtain ⟨h1, -⟩ := C24_residual h _ b u0 v0 _ out hx
  have hdd : 0 < d ⬝ᵥ d := lt_of_le_of_ne (dotProduct_self_nonneg' d) (fun h => hd (dotProduct_self_eq_zero.mp h.symm))
  rcases h1 with h1 | ⟨u', v', t', e, h2, h3, -, -⟩
  · have := congrFun h1 2
    rw [show (![u, v, t] : Vec (Fl F) 3) 2 = t from rfl] at this
    rw [this] at ht
    exact absurd ht (by simp [Vec.nans])
  · have eu : u = u' := congrFun e 0
    have ev : v = v' := congrFun e 1
    have et : t = t' := congrFun e 2
    subst eu ev et
    rw [hP, cv_sub, cv_cross, cv_squaredNorm, ofNat_def, eps_def, mul_fin, mul_fin, lt_fin, decide_eq_true_eq] at h2
    rw [hP, cv_sub, cv_dot, cv_dot, div_fin _ hdd.ne'] at h3
    refine ⟨_, h3, ?_⟩
    have lag : ((P - o) ⨯₃ d) ⬝ᵥ ((P - o) ⨯₃ d) = ((P - o) ⬝ᵥ (P - o)) * (d ⬝ᵥ d) - ((P - o) ⬝ᵥ d) ^ 2 := by
      rw [cross_dot_cross]; rw [dotProduct_comm d (P - o)]; ring
    rw [lag] at h2
    have hw : ∃ w, w = P - o := ⟨_, rfl⟩
    obtain ⟨w, hw⟩ := hw
    rw [← hw] at h2 h3 ⊢
    set q := w ⬝ᵥ d / (d ⬝ᵥ d) with hq
    have e1 : P - (o + q • d) = w - q • d := by rw [hw]; abel
    have e2 : (w - q • d) ⬝ᵥ (w - q • d) * (d ⬝ᵥ d) = w ⬝ᵥ w * (d ⬝ᵥ d) - (w ⬝ᵥ d) ^ 2 := by
      rw [sub_dotProduct, dotProduct_sub, dotProduct_sub, smul_dotProduct, smul_dotProduct, dotProduct_smul,
        dotProduct_smul, dotProduct_comm d w]
      simp only [smul_eq_mul]
      have : q * (d ⬝ᵥ d) = w ⬝ᵥ d := by rw [hq]; field_simp
      generalize q = q' at this ⊢
      linear_combination (q' * (d ⬝ᵥ d) - (w ⬝ᵥ d)) * this
    rw [e1, e2]
    push_cast at h2
    nlinarith

/-- The plane `z = 0` with its derivatives. -/
noncomputable def Ko.flat : Ko.Patch (Fl F) := fun u v =>
  (![u, v, fin 0], cm !![1, 0, 0; 0, 1, 0; 0, 0, 0], ⟨List.replicate 12 (fin 0), rfl⟩)

/-- C24, limitation: with the zero direction every starting point on every surface with finite points counts as
converged; `t` is NaN and is returned beside the unchanged `(u, v)`. -/
theorem C24_zero_direction [F.Exact] (h : Ko.Patch (Fl F)) (o P : Fin 3 → ℝ) (u v : ℝ)
    (hP : (h (fin u) (fin v)).1 = cv P) (b : Bounds (Fl F) 3) :
    ∃ out, koMethod h ⟨cv o, cv 0⟩ b (fin u) (fin v) = some (![fin u, fin v, Fl.nan], out) := by
  have he : 0 < 4 * F.eps * F.eps := by have := Fmt.Exact.eps_pos (F := F); positivity
  have hc : Ko.converged (h (fin u) (fin v)).1 (cv o) (cv 0) = true := by
    unfold Ko.converged
    rw [hP, cv_sub, cv_cross, cv_squaredNorm, ofNat_def, eps_def, mul_fin, mul_fin, lt_fin]
    simpa using he
  unfold koMethod Ko.loop
  simp only [isNaN_fin, Bool.false_eq_true, if_false, hc, if_true]
  refine ⟨⟨fin u, fin v, 0, 1, b⟩, ?_⟩
  have e : dot ((h (fin u) (fin v)).1 - cv o) (cv 0) / dot (cv 0 : Vec (Fl F) 3) (cv 0) = Fl.nan := by
    rw [hP, cv_sub, cv_dot, cv_dot, dotProduct_zero, dotProduct_zero]
    exact Fl.zero_div_zero
  unfold Ko.result
  dsimp only
  rw [e]
  simp [Scalar.gt]

/-- C24, limitation: `(u, v)` is not compared with the first two bounds. A starting point outside them whose surface
point lies on the ray is returned as it stands. -/
theorem C24_outside [F.Exact] (h : Ko.Patch (Fl F)) (o d : Fin 3 → ℝ) (u v t : ℝ) (b : Bounds (Fl F) 3) (hd : d ≠ 0)
    (hP : (h (fin u) (fin v)).1 = cv (o + t • d))
    (ht : lt (fin t) (b.box 2).1 = false ∧ gt (fin t) (b.box 2).2 = false) :
    ∃ out, koMethod h ⟨cv o, cv d⟩ b (fin u) (fin v) = some (![fin u, fin v, fin t], out) ∧ out.bodies = 1 := by
  have he : 0 < 4 * F.eps * F.eps := by have := Fmt.Exact.eps_pos (F := F); positivity
  have hdd : d ⬝ᵥ d ≠ 0 := fun h => hd (dotProduct_self_eq_zero.mp h)
  have hc : Ko.converged (h (fin u) (fin v)).1 (cv o) (cv d) = true := by
    unfold Ko.converged
    rw [hP, cv_sub, add_sub_cancel_left, cv_cross, cv_squaredNorm, ofNat_def, eps_def, mul_fin, mul_fin, lt_fin]
    simpa using he
  unfold koMethod Ko.loop
  simp only [isNaN_fin, Bool.false_eq_true, if_false, hc, if_true]
  refine ⟨⟨fin u, fin v, 0, 1, b⟩, ?_, rfl⟩
  have e : dot ((h (fin u) (fin v)).1 - cv o) (cv d) / dot (cv d : Vec (Fl F) 3) (cv d) = fin t := by
    rw [hP, cv_sub, add_sub_cancel_left, cv_dot, cv_dot, div_fin _ hdd, smul_dotProduct, smul_eq_mul, fin_inj]
    field_simp
  unfold Ko.result
  dsimp only
  rw [e, ht.1, ht.2]
  rfl

example : ∃ out, koMethod (R := Fl exact64) Ko.flat ⟨cv ![7, 0, 1], cv ![0, 0, -1]⟩
    (Bounds.ofReal ![-2, -2, 0] ![2, 2, 5] ⟨1, 1⟩) (fin 7) (fin 0) = some (![fin 7, fin 0, fin 1], out) ∧ out.bodies = 1 := by
  refine C24_outside _ _ _ 7 0 1 _ (fun h => by simpa using congrFun h 2) ?_ ?_
  · show ![fin 7, fin 0, fin 0] = _
    rw [cv_vec3, cv_inj]
    ext i; fin_cases i <;> simp
  · constructor
    · show lt (fin 1) (fin 0) = false
      rw [lt_fin]; norm_num
    · show lt (fin 5) (fin 1) = false
      rw [lt_fin]; norm_num

/-- A run meeting the hypotheses of `C24_residual`, `C24_in_bound` and `C24_distance` that takes a step: from `(1, 0)` on
the plane `z = 0`, with the ray from `(0, 0, 1)` downwards, the intersection `(0, 0)` with `t = 1` is found. -/
theorem Ko.flat_run (g : Pcg) : ∃ out, koMethod (R := Fl exact64) Ko.flat ⟨cv ![0, 0, 1], cv ![0, 0, -1]⟩
    (Bounds.ofReal ![-2, -2, 0] ![2, 2, 5] g) (fin 1) (fin 0) = some (![fin 0, fin 0, fin 1], out) ∧ out.bodies = 2 := by
  set B : Bounds (Fl exact64) 3 := Bounds.ofReal ![-2, -2, 0] ![2, 2, 5] g with hB
  have he : exact64.eps * exact64.eps < 1 / 4 := by simp only [exact64]; norm_num
  have he0 : 0 < exact64.eps * exact64.eps := by have := Fmt.Exact.eps_pos (F := exact64); positivity
  have hfl : ∀ a b : ℝ, (Ko.flat (F := exact64) (fin a) (fin b)).1 = cv ![a, b, 0] := fun a b => cv_vec3 a b 0
  have cr : cross ((cv ![1, 0, 0] : Vec (Fl exact64) 3) - cv ![0, 0, 1]) (cv ![0, 0, -1]) = cv ![0, 1, 0] := by
    rw [cv_sub, cv_cross, cv_inj]
    ext i; fin_cases i <;> simp [cross_apply]
  have unit : ∀ x : Fin 3 → ℝ, x ⬝ᵥ x = 1 → Vec.normalize (cv x : Vec (Fl exact64) 3) = cv x := by
    intro x hx
    unfold Vec.normalize
    funext i
    rw [cv_norm, hx, Real.sqrt_one, cv_apply, div_fin _ one_ne_zero, div_one]
  have nc : Ko.converged (cv ![1, 0, 0] : Vec (Fl exact64) 3) (cv ![0, 0, 1]) (cv ![0, 0, -1]) = false := by
    unfold Ko.converged
    rw [cr, cv_squaredNorm, ofNat_def, eps_def, mul_fin, mul_fin, lt_fin, decide_eq_false_iff_not]
    simp [dotProduct, Fin.sum_univ_three]
    push_cast
    nlinarith
  have st : Ko.step (R := Fl exact64) Ko.flat (cv ![0, 0, 1]) (cv ![0, 0, -1]) ⟨fin 1, fin 0, 0, 1, B⟩ =
      some (.inl ⟨fin 0, fin 0, 0, 1, B⟩) := by
    have c0 : Mat.column (cm !![1, 0, 0; 0, 1, 0; 0, 0, 0] : Mat (Fl exact64) 3 3) 0 = cv ![1, 0, 0] := by
      funext i; fin_cases i <;> rfl
    have c1 : Mat.column (cm !![1, 0, 0; 0, 1, 0; 0, 0, 0] : Mat (Fl exact64) 3 3) 1 = cv ![0, 1, 0] := by
      funext i; fin_cases i <;> rfl
    have sn : cross (cv ![1, 0, 0] : Vec (Fl exact64) 3) (cv ![0, 1, 0]) = cv ![0, 0, 1] := by
      rw [cv_cross, cv_inj]; ext i; fin_cases i <;> simp [cross_apply]
    have tn : cross (cv ![0, 1, 0] : Vec (Fl exact64) 3) (cv ![0, 0, 1]) = cv ![1, 0, 0] := by
      rw [cv_cross, cv_inj]; ext i; fin_cases i <;> simp [cross_apply]
    have small : ∀ x : Fin 3 → ℝ, x ⬝ᵥ x = 1 →
        lt (squaredNorm (cv x : Vec (Fl exact64) 3)) (eps * eps) = false := by
      intro x hx
      rw [cv_squaredNorm, hx, eps_def, mul_fin, lt_fin, decide_eq_false_iff_not]
      linarith
    have u0 : (![1, 0, 0] : Fin 3 → ℝ) ⬝ᵥ ![1, 0, 0] = 1 := by simp [dotProduct, Fin.sum_univ_three]
    have u1 : (![0, 1, 0] : Fin 3 → ℝ) ⬝ᵥ ![0, 1, 0] = 1 := by simp [dotProduct, Fin.sum_univ_three]
    have u2 : (![0, 0, 1] : Fin 3 → ℝ) ⬝ᵥ ![0, 0, 1] = 1 := by simp [dotProduct, Fin.sum_univ_three]
    have inv : Mat.inverseVal2 (![![fin 1, fin 0], ![fin 0, fin 1]] : Mat (Fl exact64) 2 2) =
        some ![![fin 1, fin 0], ![fin 0, fin 1]] := by
      have ht : ¬ (1 : ℝ) ≤ exact64.tiny := not_le.mpr Fmt.Exact.tiny_lt
      unfold Mat.inverseVal2 Mat.inverse2 Mat.det2
      have h1 : (fin 1 / fin 1 : Fl exact64) = fin 1 := by rw [div_fin _ one_ne_zero, div_one]
      simp [fl, ht, h1]
    have fm : ∀ n : Vec (Fl exact64) 3, ∀ a b c : ℝ, n = cv ![a, b, c] → ∀ j k, j < 2 → k < 2 →
        Ko.form (⟨List.replicate 12 (fin 0), rfl⟩ : Tensor (Fl exact64) 3 2 2) n j k = some (fin 0) := by
      rintro n a b c rfl j k hj hk
      have hg : ∀ i, i < 3 → Tensor.get (⟨List.replicate 12 (fin 0), rfl⟩ : Tensor (Fl exact64) 3 2 2) i j k = some (fin 0) := by
        intro i hi
        unfold Tensor.get
        rw [List.getElem?_replicate, if_pos (by omega)]
      unfold Ko.form
      rw [hg 0 (by omega), hg 1 (by omega), hg 2 (by omega)]
      simp [fl]
    unfold Ko.step
    simp only [hfl, show ∀ a b : Fl exact64, (Ko.flat a b).2.1 = cm !![1, 0, 0; 0, 1, 0; 0, 0, 0] from fun _ _ => rfl,
      show ∀ a b : Fl exact64, (Ko.flat a b).2.2 = ⟨List.replicate 12 (fin 0), rfl⟩ from fun _ _ => rfl,
      cr, c0, c1, sn, unit _ u0, unit _ u1, unit _ u2, small _ u0, small _ u2, tn, cv_dot, u0, u1]
    have d01 : (![1, 0, 0] : Fin 3 → ℝ) ⬝ᵥ ![0, 1, 0] = 0 := by simp [dotProduct, Fin.sum_univ_three]
    have mv : ∀ a b : ℝ, Mat.mulVec (![![fin 1, fin 0], ![fin 0, fin 1]] : Mat (Fl exact64) 2 2) ![fin a, fin b] =
        ![fin a, fin b] := by
      intro a b
      rw [cv_vec2 a b, show (![![fin 1, fin 0], ![fin 0, fin 1]] : Mat (Fl exact64) 2 2) = cm 1 from ?_, cm_mulVec,
        Matrix.one_mulVec]
      funext i j; fin_cases i <;> fin_cases j <;> simp [cm]
    have tq : (cv ![1, 0, 0] - cv ![0, 0, 1] : Vec (Fl exact64) 3).dot (cv ![0, 0, 1]) /
        (fin (![0, 0, -1] ⬝ᵥ ![0, 0, 1])) = fin 1 := by
      rw [cv_sub, cv_dot, div_fin _ (by simp [dotProduct, Fin.sum_univ_three])]
      simp [dotProduct, Fin.sum_univ_three]
    have q0 : (cv ![0, 0, 1] + (fin 1 : Fl exact64) •. cv ![0, 0, -1] - cv ![1, 0, 0]).dot (cv ![1, 0, 0]) = fin (-1) := by
      simp only [fl]; simp [dotProduct, Fin.sum_univ_three]
    have q1 : (cv ![0, 0, 1] + (fin 1 : Fl exact64) •. cv ![0, 0, -1] - cv ![1, 0, 0]).dot (cv ![0, 1, 0]) = fin 0 := by
      simp only [fl]; simp [dotProduct, Fin.sum_univ_three]
    simp only [d01, inv, fm _ 0 0 1 rfl 0 0 (by omega) (by omega), fm _ 0 0 1 rfl 0 1 (by omega) (by omega),
      fm _ 0 0 1 rfl 1 1 (by omega) (by omega), mv, tq, q0, q1, Bool.false_eq_true, if_false, Option.bind_eq_bind,
      Option.bind_some, Option.pure_def]
    rw [if_pos]
    · simp [fl]
    · simp only [fl, cons_val_zero, cons_val_one]
      simpa using he0
  have cc : Ko.converged (cv ![0, 0, 0] : Vec (Fl exact64) 3) (cv ![0, 0, 1]) (cv ![0, 0, -1]) = true := by
    unfold Ko.converged
    rw [cv_sub, cv_cross, cv_squaredNorm, ofNat_def, eps_def, mul_fin, mul_fin, lt_fin, decide_eq_true_eq]
    simp [cross_apply, dotProduct, Fin.sum_univ_three]
    rw [mul_assoc]; linarith
  have res : Ko.result (cv ![0, 0, 0] : Vec (Fl exact64) 3) (cv ![0, 0, 1]) (cv ![0, 0, -1]) (fin 0) (fin 0) B =
      ![fin 0, fin 0, fin 1] := by
    unfold Ko.result
    dsimp only
    rw [cv_sub, cv_dot, cv_dot, div_fin _ (by simp [dotProduct, Fin.sum_univ_three])]
    have e : (![0, 0, 0] - ![0, 0, 1] : Fin 3 → ℝ) ⬝ᵥ ![0, 0, -1] / (![0, 0, -1] ⬝ᵥ ![0, 0, -1] : ℝ) = 1 := by
      simp [dotProduct, Fin.sum_univ_three]
    rw [e, show (B.box 2).1 = fin 0 from rfl, show (B.box 2).2 = fin 5 from rfl, if_neg]
    simp only [Scalar.gt, lt_fin]
    norm_num
  refine ⟨⟨fin 0, fin 0, 0, 2, B⟩, ?_, rfl⟩
  unfold koMethod Ko.loop
  simp only [isNaN_fin, Bool.false_eq_true, if_false, hfl, nc, Nat.zero_add, st]
  unfold Ko.loop
  simp only [hfl, cc, if_true, res]

end DRT
