import Verif.Props.Acne
import Verif.Props.Lambertian
import Verif.Model.RayColor

/-! # C142: rectangles that share an edge leave no gap between them -/

namespace DRT
open Scalar Vec Fl

/-! ## Tiles of one rectangle, with any rounding -/

section
variable {F : Fmt}

theorem Fl.lt_asymm {x y : Fl F} (h : Scalar.lt x y = true) : Scalar.lt y x = false := by
  cases x <;> cases y <;> simp_all [fl]
  linarith

theorem Fl.lt_of_lt_of_le' {x y z : Fl F} (h : Scalar.lt x y = true) (h' : Scalar.le y z = true) : Scalar.lt x z = true := by
  cases x <;> cases y <;> cases z <;> simp_all [fl]
  linarith

theorem Fl.lt_of_le_of_lt' {x y z : Fl F} (h : Scalar.le x y = true) (h' : Scalar.lt y z = true) : Scalar.lt x z = true := by
  cases x <;> cases y <;> cases z <;> simp_all [fl]
  linarith

/-- Of the consecutive ranges between `e 0` and `e n`, one contains whatever lies between `e 0` and `e n`, in the sense of
the comparisons of aarect.hpp, which NaN passes. -/
theorem edges_cover (e : ℕ → Fl F) (x : Fl F) (h0 : Scalar.lt x (e 0) = false) : ∀ n, 0 < n → Scalar.lt (e n) x = false →
    ∃ i < n, Scalar.lt x (e i) = false ∧ Scalar.lt (e (i + 1)) x = false := by
  intro n
  induction n with
  | zero => intro h; omega
  | succ n ih =>
    intro _ hn
    by_cases h : Scalar.lt x (e n) = false
    · exact ⟨n, by omega, h, hn⟩
    · rw [Bool.not_eq_false] at h
      have : 0 < n := by
        rcases Nat.eq_zero_or_pos n with rfl | h'
        · rw [h0] at h; cases h
        · exact h'
      obtain ⟨i, hi, h1⟩ := ih this (Fl.lt_asymm h)
      exact ⟨i, by omega, h1⟩

theorem edges_down (e : ℕ → Fl F) (x : Fl F) (he : ∀ i, Scalar.le (e i) (e (i + 1)) = true) :
    ∀ i, Scalar.lt x (e i) = false → Scalar.lt x (e 0) = false := by
  intro i
  induction i with
  | zero => exact id
  | succ i ih =>
    intro h
    apply ih
    by_contra h'
    rw [Bool.not_eq_false] at h'
    rw [Fl.lt_of_lt_of_le' h' (he i)] at h
    cases h

theorem edges_up (e : ℕ → Fl F) (x : Fl F) (he : ∀ i, Scalar.le (e i) (e (i + 1)) = true) (i k : ℕ) :
    Scalar.lt (e i) x = false → Scalar.lt (e (i + k)) x = false := by
  induction k with
  | zero => exact id
  | succ k ih =>
    intro h
    have := ih h
    by_contra h'
    rw [Bool.not_eq_false] at h'
    rw [Fl.lt_of_le_of_lt' (he (i + k)) h'] at this
    cases this

theorem ite_pair_fst {β : Type} (c c' : Bool) (x y z : β) :
    (if c then (false, x) else if c' then (false, y) else (true, z)).1 = true ↔ c = false ∧ c' = false := by
  cases c <;> cases c' <;> simp

/-- A rectangle of aarect.hpp is hit exactly if the computed distance and the two computed coordinates pass the comparisons. -/
theorem hitPlane_iff (i j n : Fin 3) (normal : Vec (Fl F) 3) (s : Rect (Fl F)) (r : Ray (Fl F)) (tmin tmax : Fl F)
    (rec : HitRecord (Fl F)) :
    (Rect.hitPlane i j n normal s r tmin tmax rec).1 = true ↔
      let t := (s.k - r.origin n) / r.dir n
      (Scalar.lt t tmin = false ∧ Scalar.lt tmax t = false) ∧
      (Scalar.lt (r.origin i + t * r.dir i) s.a0 = false ∧ Scalar.lt s.a1 (r.origin i + t * r.dir i) = false) ∧
      (Scalar.lt (r.origin j + t * r.dir j) s.b0 = false ∧ Scalar.lt s.b1 (r.origin j + t * r.dir j) = false) := by
  unfold Rect.hitPlane
  refine (ite_pair_fst _ _ _ _ _).trans ?_
  simp only [Scalar.gt, Bool.or_eq_false_iff, and_assoc]

/-- C142 for rectangles in one plane: cut a rectangle along any numbers of lines in both directions. Whatever the rounding, a ray
hits the rectangle exactly if it hits one of the pieces, also where the pieces meet; and the piece reports the distance, the
point and the normal that the whole rectangle reports. -/
theorem C142_tiles (i j n : Fin 3) (normal : Vec (Fl F) 3) (e f : ℕ → Fl F) (he : ∀ i, Scalar.le (e i) (e (i + 1)) = true)
    (hf : ∀ i, Scalar.le (f i) (f (i + 1)) = true) (k : Fl F) {a b : ℕ} (ha : 0 < a) (hb : 0 < b) (r : Ray (Fl F))
    (tmin tmax : Fl F) (rec : HitRecord (Fl F)) :
    let tile (x y : ℕ) : Rect (Fl F) := ⟨e x, e (x + 1), f y, f (y + 1), k⟩
    let whole : Rect (Fl F) := ⟨e 0, e a, f 0, f b, k⟩
    let hit (s : Rect (Fl F)) := Rect.hitPlane i j n normal s r tmin tmax rec
    ((hit whole).1 = true ↔ ∃ x < a, ∃ y < b, (hit (tile x y)).1 = true) ∧
    ∀ x < a, ∀ y < b, (hit (tile x y)).1 = true →
      (hit (tile x y)).2.t = (hit whole).2.t ∧ (hit (tile x y)).2.p = (hit whole).2.p ∧
      (hit (tile x y)).2.normal = (hit whole).2.normal ∧ (hit (tile x y)).2.frontFace = (hit whole).2.frontFace := by
  intro tile whole hit
  have hback : ∀ x < a, ∀ y < b, (hit (tile x y)).1 = true → (hit whole).1 = true := by
    intro x hx y hy h
    rw [hitPlane_iff] at h ⊢
    obtain ⟨h1, ⟨h2, h3⟩, h4, h5⟩ := h
    refine ⟨h1, ⟨edges_down e _ he _ h2, ?_⟩, edges_down f _ hf _ h4, ?_⟩
    · have := edges_up e _ he (x + 1) (a - (x + 1)) h3
      rwa [show x + 1 + (a - (x + 1)) = a by omega] at this
    · have := edges_up f _ hf (y + 1) (b - (y + 1)) h5
      rwa [show y + 1 + (b - (y + 1)) = b by omega] at this
  refine ⟨⟨fun h => ?_, fun ⟨x, hx, y, hy, h⟩ => hback x hx y hy h⟩, fun x hx y hy h => ?_⟩
  · rw [hitPlane_iff] at h
    obtain ⟨h1, ⟨h2, h3⟩, h4, h5⟩ := h
    obtain ⟨x, hx, h6, h7⟩ := edges_cover e _ h2 a ha h3
    obtain ⟨y, hy, h8, h9⟩ := edges_cover f _ h4 b hb h5
    refine ⟨x, hx, y, hy, ?_⟩
    rw [hitPlane_iff]
    exact ⟨h1, ⟨h6, h7⟩, h8, h9⟩
  · have h' := hback x hx y hy h
    have key : ∀ s : Rect (Fl F), s.k = k → (hit s).1 = true →
        (hit s).2.t = (k - r.origin n) / r.dir n ∧ (hit s).2.p = r.at ((k - r.origin n) / r.dir n) ∧
        (hit s).2.normal = (rec.setFaceNormal r normal).normal ∧ (hit s).2.frontFace = (rec.setFaceNormal r normal).frontFace := by
      rintro s rfl hs
      simp only [hit] at hs ⊢
      unfold Rect.hitPlane at hs ⊢
      simp only at hs ⊢
      split_ifs at hs ⊢
      exact ⟨rfl, rfl, rfl, rfl⟩
    obtain ⟨p1, p2, p3, p4⟩ := key (tile x y) rfl h
    obtain ⟨q1, q2, q3, q4⟩ := key whole rfl h'
    exact ⟨p1.trans q1.symm, p2.trans q2.symm, p3.trans q3.symm, p4.trans q4.symm⟩

/-- C142, an instance in single precision: the edges 0, 1, 2, 3, … meet the hypotheses of `C142_tiles`. -/
example : ∀ i : ℕ, Scalar.le (fin (i : ℝ) : Fl binary32) (fin ((i + 1 : ℕ) : ℝ)) = true := by
  intro i
  simp [le_fin]

end

/-! ## Six rectangles that close a box, in exact arithmetic -/

section
variable {F : Fmt} [F.Exact]

/-- In exact arithmetic a ray that meets the plane of a rectangle inside it, within the range, hits it there. -/
theorem hitPlane_exact (i j n : Fin 3) (normal : Vec (Fl F) 3) {a0 a1 b0 b1 k : ℝ} {o d : Fin 3 → ℝ} {t tmin tmax : ℝ}
    (hd : d n ≠ 0) (hk : o n + t * d n = k) (h0 : tmin ≤ t) (h1 : t ≤ tmax) (hi : a0 ≤ o i + t * d i ∧ o i + t * d i ≤ a1)
    (hj : b0 ≤ o j + t * d j ∧ o j + t * d j ≤ b1) (rec : HitRecord (Fl F)) :
    ∃ out, Rect.hitPlane i j n normal ⟨fin a0, fin a1, fin b0, fin b1, fin k⟩ ⟨cv o, cv d⟩ (fin tmin) (fin tmax) rec = (true, out) ∧
      out.t = fin t := by
  have ht : ((fin k : Fl F) - cv o n) / cv d n = fin t := by
    show ((fin k : Fl F) - fin (o n)) / fin (d n) = fin t
    rw [Fl.sub_fin, div_fin _ hd]
    congr 1
    rw [← hk]
    field_simp
    ring
  have hit := (hitPlane_iff i j n normal ⟨fin a0, fin a1, fin b0, fin b1, fin k⟩ ⟨cv o, cv d⟩ (fin tmin) (fin tmax) rec).mpr (by
    simp only [ht]
    refine ⟨⟨?_, ?_⟩, ⟨?_, ?_⟩, ?_, ?_⟩ <;> simp only [cv, Fl.mul_fin, Fl.add_fin, lt_fin, decide_eq_false_iff_not, not_lt]
    · exact h0
    · exact h1
    · exact hi.1
    · exact hi.2
    · exact hj.1
    · exact hj.2)
  refine ⟨_, Prod.ext hit rfl, ?_⟩
  unfold Rect.hitPlane at hit ⊢
  simp only at hit ⊢
  split_ifs at hit ⊢
  exact ht

/-- The six faces of the box from `lo` to `hi`, as rectangles. -/
noncomputable def boxFaces (lo hi : Fin 3 → ℝ) : List (Hittable (Fl F)) :=
  [Rect.xy ⟨fin (lo 0), fin (hi 0), fin (lo 1), fin (hi 1), fin (lo 2)⟩, Rect.xy ⟨fin (lo 0), fin (hi 0), fin (lo 1), fin (hi 1), fin (hi 2)⟩,
    Rect.xz ⟨fin (lo 0), fin (hi 0), fin (lo 2), fin (hi 2), fin (lo 1)⟩, Rect.xz ⟨fin (lo 0), fin (hi 0), fin (lo 2), fin (hi 2), fin (hi 1)⟩,
    Rect.yz ⟨fin (lo 1), fin (hi 1), fin (lo 2), fin (hi 2), fin (lo 0)⟩, Rect.yz ⟨fin (lo 1), fin (hi 1), fin (lo 2), fin (hi 2), fin (hi 0)⟩]

/-- Where a ray that is outside a box at `s` and inside it at `t` enters: at a point of the box at which one coordinate has reached
the end of its range. -/
theorem box_entry {lo hi o d : Fin 3 → ℝ} {s t : ℝ} (hst : s ≤ t) (hin : ∀ i, lo i ≤ o i + t * d i ∧ o i + t * d i ≤ hi i)
    (hout : ∃ i, o i + s * d i < lo i ∨ hi i < o i + s * d i) :
    ∃ u, s ≤ u ∧ u ≤ t ∧ (∀ i, lo i ≤ o i + u * d i ∧ o i + u * d i ≤ hi i) ∧
      ∃ i, d i ≠ 0 ∧ (o i + u * d i = lo i ∨ o i + u * d i = hi i) := by
  -- the moment from which on coordinate `i` is in its range
  let T : Fin 3 → ℝ := fun i => if 0 < d i then (lo i - o i) / d i else (hi i - o i) / d i
  have hT : ∀ i, d i ≠ 0 → (o i + T i * d i = lo i ∨ o i + T i * d i = hi i) := by
    intro i hi'
    by_cases h : 0 < d i
    · left
      simp only [T, if_pos h, div_mul_cancel₀ _ hi']
      ring
    · right
      simp only [T, if_neg h, div_mul_cancel₀ _ hi']
      ring
  have hle : ∀ i, d i ≠ 0 → ∀ v, T i ≤ v → v ≤ t → lo i ≤ o i + v * d i ∧ o i + v * d i ≤ hi i := by
    intro i hi' v h1 h2
    obtain ⟨h3, h4⟩ := hin i
    by_cases h : 0 < d i
    · simp only [T, if_pos h] at h1
      rw [div_le_iff₀ h] at h1
      constructor
      · linarith
      · nlinarith
    · have h' : d i < 0 := lt_of_le_of_ne (not_lt.mp h) hi'
      simp only [T, if_neg h] at h1
      rw [div_le_iff_of_neg h'] at h1
      constructor
      · nlinarith
      · linarith
  have hTt : ∀ i, d i ≠ 0 → T i ≤ t := by
    intro i hi'
    obtain ⟨h3, h4⟩ := hin i
    by_cases h : 0 < d i
    · simp only [T, if_pos h]
      rw [div_le_iff₀ h]
      linarith
    · have h' : d i < 0 := lt_of_le_of_ne (not_lt.mp h) hi'
      simp only [T, if_neg h]
      rw [div_le_iff_of_neg h']
      linarith
  obtain ⟨i₀, hi₀⟩ := hout
  have hd0 : d i₀ ≠ 0 := by
    intro h
    have := hin i₀
    rw [h] at this hi₀
    rcases hi₀ with h' | h' <;> linarith [this.1, this.2]
  obtain ⟨m, hm, hmax⟩ := Finset.exists_max_image (Finset.univ.filter fun i => d i ≠ 0) T ⟨i₀, by simpa using hd0⟩
  simp only [Finset.mem_filter, Finset.mem_univ, true_and] at hm hmax
  refine ⟨T m, ?_, hTt m hm, fun i => ?_, m, hm, hT m hm⟩
  · by_contra h
    rw [not_le] at h
    have := hle i₀ hd0 s ((hmax i₀ hd0).trans h.le) hst
    rcases hi₀ with h' | h' <;> linarith [this.1, this.2]
  · by_cases hi' : d i = 0
    · have := hin i
      rw [hi'] at this ⊢
      simpa using this
    · exact hle i hi' _ (hmax i hi') (hTt m hm)

/-- C142 for a closed box, in exact arithmetic: a ray that is outside a box where its range begins, and inside it at `t`, hits one of
the six rectangles no later than at `t`. -/
theorem C142_box {lo hi o d : Fin 3 → ℝ} {tmin t tmax : ℝ} (h0 : tmin ≤ t) (h1 : t ≤ tmax)
    (hin : ∀ i, lo i ≤ o i + t * d i ∧ o i + t * d i ≤ hi i) (hout : ∃ i, o i + tmin * d i < lo i ∨ hi i < o i + tmin * d i)
    (rec : HitRecord (Fl F)) :
    ∃ face ∈ boxFaces (F := F) lo hi, ∃ out u, face.hit ⟨cv o, cv d⟩ (fin tmin) (fin tmax) rec = (true, out) ∧
      out.t = fin u ∧ tmin ≤ u ∧ u ≤ t ∧ ∀ i, lo i ≤ o i + u * d i ∧ o i + u * d i ≤ hi i := by
  obtain ⟨u, hu0, hu1, hbox, i, hd, he⟩ := box_entry h0 hin hout
  have hall : ∀ a b n : Fin 3, ∀ normal : Vec (Fl F) 3, d n ≠ 0 → ∀ k, o n + u * d n = k →
      ∃ out, Rect.hitPlane a b n normal ⟨fin (lo a), fin (hi a), fin (lo b), fin (hi b), fin k⟩ ⟨cv o, cv d⟩ (fin tmin) (fin tmax) rec =
        (true, out) ∧ out.t = fin u := fun a b n normal hn k hk =>
    hitPlane_exact a b n normal hn hk hu0 (hu1.trans h1) (hbox a) (hbox b) rec
  unfold boxFaces
  fin_cases i
  · rcases he with he | he
    · obtain ⟨out, p, q⟩ := hall 1 2 0 ![1, 0, 0] hd _ he
      exact ⟨Rect.yz _, by simp, out, u, p, q, hu0, hu1, hbox⟩
    · obtain ⟨out, p, q⟩ := hall 1 2 0 ![1, 0, 0] hd _ he
      exact ⟨Rect.yz _, by simp, out, u, p, q, hu0, hu1, hbox⟩
  · rcases he with he | he
    · obtain ⟨out, p, q⟩ := hall 0 2 1 ![0, 1, 0] hd _ he
      exact ⟨Rect.xz _, by simp, out, u, p, q, hu0, hu1, hbox⟩
    · obtain ⟨out, p, q⟩ := hall 0 2 1 ![0, 1, 0] hd _ he
      exact ⟨Rect.xz _, by simp, out, u, p, q, hu0, hu1, hbox⟩
  · rcases he with he | he
    · obtain ⟨out, p, q⟩ := hall 0 1 2 ![0, 0, 1] hd _ he
      exact ⟨Rect.xy _, by simp, out, u, p, q, hu0, hu1, hbox⟩
    · obtain ⟨out, p, q⟩ := hall 0 1 2 ![0, 0, 1] hd _ he
      exact ⟨Rect.xy _, by simp, out, u, p, q, hu0, hu1, hbox⟩

/-- C142, an instance: the ray from `(0, 1, 0)` along `(107, 0, 107)` passes through an edge of the box from `(1, 0, 1)` to `(2, 2, 2)`. -/
example (rec : HitRecord (Fl exact64)) : ∃ face ∈ boxFaces (F := exact64) ![1, 0, 1] ![2, 2, 2], ∃ out u,
    face.hit ⟨cv ![0, 1, 0], cv ![107, 0, 107]⟩ (fin 0) (fin 1) rec = (true, out) ∧ out.t = fin u ∧ 0 ≤ u ∧ u ≤ 1 / 107 := by
  obtain ⟨face, hf, out, u, h, ht, h0, h1, -⟩ := C142_box (F := exact64) (lo := ![1, 0, 1]) (hi := ![2, 2, 2]) (o := ![0, 1, 0])
    (d := ![107, 0, 107]) (tmin := 0) (t := 1 / 107) (tmax := 1) (by norm_num) (by norm_num)
    (by intro i; fin_cases i <;> norm_num) ⟨0, by norm_num⟩ rec
  exact ⟨face, hf, out, u, h, ht, h0, h1⟩

end

/-! ## A gap at the edge of a box, with rounding -/

/-- Rounding of a number between two powers of 2 to the nearest number of an IEEE format. -/
theorem ieee_round_at {p : ℕ} {emin emax : ℤ} {x : ℝ} (e n : ℤ) (h1 : (2:ℝ) ^ e ≤ x) (h2 : x < 2 ^ (e + 1)) (he : emin ≤ e)
    (h3 : |x / 2 ^ (e - (p - 1)) - n| < 1 / 2) (h4 : (n : ℝ) * 2 ^ (e - (p - 1)) < 2 ^ (emax + 1)) :
    rnd (ieee p emin emax) x = fin (n * 2 ^ (e - (p - 1))) := by
  have hx : 0 < x := lt_of_lt_of_le (two_zpow_pos e) h1
  have hlog : Int.log 2 x = e := by
    apply le_antisymm
    · rw [← Int.lt_add_one_iff, ← Int.lt_zpow_iff_log_lt (by norm_num) hx]; exact_mod_cast h2
    · rw [← Int.zpow_le_iff_le_log (by norm_num) hx]; exact_mod_cast h1
  have hr : roundPos p emin x = n * 2 ^ (e - (p - 1)) := by
    unfold roundPos lastPlace
    rw [hlog, max_eq_left he, roundEven_eq h3]
  rw [ieee_round_nonneg hx.le, hr, if_pos h4]

/-- Two walls of a box, perpendicular to each other, that meet in the line `x = z = 1`, and a lamp behind them. -/
noncomputable def cornerScene {F : Fmt} {S : Type} (m m' : Material (Fl F) S) (light : Fin 3 → ℝ) : HittableList (Fl F) (Material (Fl F) S) :=
  ⟨[Rect.xy ⟨fin 1, fin 2, fin 0, fin 2, fin 1⟩, Rect.yz ⟨fin 0, fin 2, fin 1, fin 2, fin 1⟩,
    Rect.xy ⟨fin 0, fin 256, fin 0, fin 2, fin 200⟩], [m, m', Material.diffuseLight (solidColor (cv light))]⟩

/-- What makes the ray slip through: one over 107, rounded and multiplied with 107, is rounded to less than 1. -/
structure Slips (F : Fmt) (τ ξ : ℝ) : Prop where
  quotient : rnd F (1 / 107) = fin τ
  product : rnd F (τ * 107) = fin ξ
  stable : rnd F ξ = fin ξ
  below : ξ < 1

theorem slips32 : Slips binary32 (5017485 / 536870912) (1 - 1 / 2 ^ 24) where
  quotient := by
    unfold binary32
    rw [ieee_round_at (-7) 10034970 (by norm_num) (by norm_num) (by norm_num) (by norm_num [abs_lt]) (by norm_num)]
    norm_num
  product := by
    unfold binary32
    rw [ieee_round_at (-1) 16777215 (by norm_num) (by norm_num) (by norm_num) (by norm_num [abs_lt]) (by norm_num)]
    norm_num
  stable := by
    unfold binary32
    rw [ieee_round_at (-1) 16777215 (by norm_num) (by norm_num) (by norm_num) (by norm_num [abs_lt]) (by norm_num)]
    norm_num
  below := by norm_num

theorem slips64 : Slips binary64 (5387483666387135 / 576460752303423488) (1 - 1 / 2 ^ 53) where
  quotient := by
    unfold binary64
    rw [ieee_round_at (-7) 5387483666387135 (by norm_num) (by norm_num) (by norm_num) (by norm_num [abs_lt])
      (lt_trans (by norm_num) (one_lt_zpow₀ (by norm_num : (1:ℝ) < 2) (by norm_num)))]
    norm_num
  product := by
    unfold binary64
    rw [ieee_round_at (-1) 9007199254740991 (by norm_num) (by norm_num) (by norm_num) (by norm_num [abs_lt])
      (lt_trans (by norm_num) (one_lt_zpow₀ (by norm_num : (1:ℝ) < 2) (by norm_num)))]
    norm_num
  stable := by
    unfold binary64
    rw [ieee_round_at (-1) 9007199254740991 (by norm_num) (by norm_num) (by norm_num) (by norm_num [abs_lt])
      (lt_trans (by norm_num) (one_lt_zpow₀ (by norm_num : (1:ℝ) < 2) (by norm_num)))]
    norm_num
  below := by norm_num

theorem slip_through {F : Fmt} [F.Rounding] {τ ξ c : ℝ} (h : Slips F τ ξ) (hc : (1000 : Fl F) * Scalar.eps = fin c) (hc1 : c ≤ 1)
    {S : Type} (m m' : Material (Fl F) S) (light : Fin 3 → ℝ) (background : Vec (Fl F) 3) (rec0 temp0 : HitRecord (Fl F)) (n : ℕ)
    (s : S) : rayColor ((cornerScene m m' light).world temp0) background rec0 (n + 1) s
      ⟨fun i => fin ((![0, 1, 0] : Fin 3 → ℝ) i), fun i => fin ((![107, 0, 107] : Fin 3 → ℝ) i)⟩ = some ⟨cv light, s, 1⟩ := by
  have hadd : ∀ x y : ℝ, (fin x : Fl F) + fin y = rnd F (x + y) := fun _ _ => rfl
  have hmul : ∀ x y : ℝ, (fin x : Fl F) * fin y = rnd F (x * y) := fun _ _ => rfl
  have hsub : ∀ x y : ℝ, (fin x : Fl F) - fin y = rnd F (x - y) := fun x y => by
    rw [Fl.sub_eq, Fl.neg_fin, hadd, sub_eq_add_neg]
  have hdiv : ∀ x y : ℝ, y ≠ 0 → (fin x : Fl F) / fin y = rnd F (x / y) := fun _ _ h => if_neg h
  have hnat : ∀ n : ℕ, n ≤ 256 → rnd F (n : ℝ) = fin (n : ℝ) := Fmt.Rounding.small
  have h0 : rnd F 0 = fin 0 := rnd_zero
  have h1 : rnd F 1 = fin 1 := rnd_one
  have h2 : rnd F 2 = fin 2 := by simpa using hnat 2 (by norm_num)
  have h107 : rnd F 107 = fin 107 := by simpa using hnat 107 (by norm_num)
  have h200 : rnd F 200 = fin 200 := by simpa using hnat 200 (by norm_num)
  have h214 : rnd F 214 = fin 214 := by simpa using hnat 214 (by norm_num)
  -- the walls
  have t1 : ((fin 1 : Fl F) - fin 0) / fin 107 = fin τ := by
    rw [hsub, sub_zero, h1, hdiv _ _ (by norm_num), h.quotient]
  have x1 : (fin 0 : Fl F) + fin τ * fin 107 = fin ξ := by
    rw [hmul, h.product, hadd, zero_add, h.stable]
  have y1 : ∀ x : ℝ, (fin 1 : Fl F) + fin x * fin 0 = fin 1 := by
    intro x
    rw [hmul, mul_zero, h0, hadd, add_zero, h1]
  -- the lamp
  obtain ⟨τ', q1, q2, q3⟩ := rnd_between (F := F) (x := 200 / 107) h1 h2 (by norm_num) (by norm_num)
  obtain ⟨ξ', q4, q5, q6⟩ := rnd_between (F := F) (x := τ' * 107) h107 h214 (by linarith) (by linarith)
  obtain ⟨ξ'', q7, q8, q9⟩ := rnd_between (F := F) (x := ξ') h107 h214 q5 q6
  have t2 : ((fin 200 : Fl F) - fin 0) / fin 107 = fin τ' := by
    rw [hsub, sub_zero, h200, hdiv _ _ (by norm_num), q1]
  have x2 : (fin 0 : Fl F) + fin τ' * fin 107 = fin ξ'' := by
    rw [hmul, q4, hadd, zero_add, q7]
  have hlt := h.below
  set r : Ray (Fl F) := ⟨fun i => fin ((![0, 1, 0] : Fin 3 → ℝ) i), fun i => fin ((![107, 0, 107] : Fin 3 → ℝ) i)⟩ with hr
  have w1 : ∀ rec, Rect.hitXY ⟨fin 1, fin 2, fin 0, fin 2, fin 1⟩ r (fin c) pinf rec = (false, rec) := by
    intro rec
    unfold Rect.hitXY Rect.hitPlane
    simp only [hr, Fin.isValue, Matrix.cons_val_zero, Matrix.cons_val_one, Matrix.cons_val, t1, x1, y1, Scalar.gt, lt_fin]
    simp [hlt]
  have w2 : ∀ rec, Rect.hitYZ ⟨fin 0, fin 2, fin 1, fin 2, fin 1⟩ r (fin c) pinf rec = (false, rec) := by
    intro rec
    unfold Rect.hitYZ Rect.hitPlane
    simp only [hr, Fin.isValue, Matrix.cons_val_zero, Matrix.cons_val_one, Matrix.cons_val, t1, x1, y1, Scalar.gt, lt_fin]
    simp [hlt]
  have w3 : ∀ rec, ∃ out, Rect.hitXY ⟨fin 0, fin 256, fin 0, fin 2, fin 200⟩ r (fin c) pinf rec = (true, out) ∧ out.t = fin τ' := by
    intro rec
    unfold Rect.hitXY Rect.hitPlane
    simp only [hr, Fin.isValue, Matrix.cons_val_zero, Matrix.cons_val_one, Matrix.cons_val, t2, x2, y1, Scalar.gt, lt_fin]
    have e1 : ¬ τ' < c := by linarith
    have e2 : ¬ ξ'' < 0 := by linarith
    have e3 : ¬ (256:ℝ) < ξ'' := by linarith
    have e4 : ¬ (1:ℝ) < 0 := by norm_num
    simp [e1, e2, e3, e4, HitRecord.setFaceNormal]
  obtain ⟨out, w3, w4⟩ := w3 temp0
  have hw : (cornerScene m m' light).world temp0 s r (1000 * Scalar.eps) Scalar.inf rec0 =
      some (some (Material.diffuseLight (solidColor (cv light))), out, s) := by
    have hinf : (Scalar.inf : Fl F) = pinf := rfl
    have hw4 : Scalar.lt (fin τ' : Fl F) pinf = true := rfl
    rw [hc, hinf]
    simp [HittableList.world, HittableList.hit, cornerScene, HittableList.loop, HittableList.step, Rect.xy, Rect.yz, w1, w2, w3, w4, hw4]
  simp only [rayColor, hw, Material.diffuseLight, DiffuseLight.scatter, DiffuseLight.emitted, solidColor]
  rfl

/-- C142, refuted with rounding for rectangles that meet at a right angle, in `float` and in `double`: the ray from `(0, 1, 0)` along
`(107, 0, 107)` passes through the point `(1, 1, 1)` of the common edge of two walls of a box, but the computed point lies beside both.
Whatever the walls are made of, the ray sees the lamp behind them. -/
theorem C142_edge_false (F : Fmt) (hF : F = binary32 ∨ F = binary64) :
    ((∀ i, (![0, 1, 0] : Fin 3 → ℝ) i + 1 / 107 * (![107, 0, 107] : Fin 3 → ℝ) i = 1)) ∧
    ∀ {S : Type} (m m' : Material (Fl F) S) (light : Fin 3 → ℝ) (background : Vec (Fl F) 3) (rec0 temp0 : HitRecord (Fl F)) (n : ℕ)
      (s : S), rayColor ((cornerScene m m' light).world temp0) background rec0 (n + 1) s
        ⟨fun i => fin ((![0, 1, 0] : Fin 3 → ℝ) i), fun i => fin ((![107, 0, 107] : Fin 3 → ℝ) i)⟩ = some ⟨cv light, s, 1⟩ := by
  refine ⟨fun i => by fin_cases i <;> norm_num, ?_⟩
  intro S m m' light background rec0 temp0 n s
  rcases hF with rfl | rfl
  · have hc : (1000 : Fl binary32) * Scalar.eps = fin (1000 / 2 ^ 23) := by
      have : (1000 : Fl binary32) = fin 1000 := by
        show rnd binary32 _ = _
        have := ieee_rep (p := 24) (emin := -126) (emax := 127) (m := 1000) (k := 0) (by norm_num) (by norm_num) (by norm_num)
        simpa [binary32] using this
      have he : (Scalar.eps : Fl binary32) = fin (1 / 2 ^ 23) := by
        rw [eps_def]
        unfold binary32 ieee
        norm_num
      rw [this, he]
      have := ieee_rep (p := 24) (emin := -126) (emax := 127) (m := 1000) (k := -23) (by norm_num) (by norm_num) (by norm_num)
      show rnd binary32 _ = _
      unfold binary32
      norm_num at this ⊢
      exact this
    exact slip_through slips32 hc (by norm_num) m m' light background rec0 temp0 n s
  · have hc : (1000 : Fl binary64) * Scalar.eps = fin (1000 / 2 ^ 52) := by
      have : (1000 : Fl binary64) = fin 1000 := by
        show rnd binary64 _ = _
        have := ieee_rep (p := 53) (emin := -1022) (emax := 1023) (m := 1000) (k := 0) (by norm_num) (by norm_num)
          (lt_of_lt_of_le (by norm_num) (zpow_le_zpow_right₀ (by norm_num : (1:ℝ) ≤ 2) (by norm_num : (10:ℤ) ≤ 1023 + 1)))
        simpa [binary64] using this
      have he : (Scalar.eps : Fl binary64) = fin (1 / 2 ^ 52) := by
        rw [eps_def]
        unfold binary64 ieee
        norm_num
      rw [this, he]
      have := ieee_rep (p := 53) (emin := -1022) (emax := 1023) (m := 1000) (k := -52) (by norm_num) (by norm_num)
        (lt_of_lt_of_le (by norm_num) (zpow_le_zpow_right₀ (by norm_num : (1:ℝ) ≤ 2) (by norm_num : (10:ℤ) ≤ 1023 + 1)))
      show rnd binary64 _ = _
      unfold binary64
      norm_num at this ⊢
      exact this
    exact slip_through slips64 hc (by norm_num) m m' light background rec0 temp0 n s

end DRT
