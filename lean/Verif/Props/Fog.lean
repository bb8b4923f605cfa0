import Verif.Props.Medium
import Verif.Props.Torus
import Mathlib.MeasureTheory.Measure.Lebesgue.Basic

/-!
# C126: a medium fills its boundary

`constant_medium` (constant_medium.hpp:41-75) asks its boundary for two crossings of the whole line of the ray and takes
what lies between them for the medium. A user thinks of a body of fog: along a ray the light is scattered according to
the length of the way that lies in the body. `fogLength` is that length. The theorems say for which bodies and rays `hit` follows
it: boundaries that the line crosses twice, at least `100 * eps` apart. A ring is not such a boundary.
-/

namespace DRT
open Scalar Fl Matrix MeasureTheory

variable {F : Fmt}

/-! ## The specification -/

/-- The length of the part of the ray from `o` in direction `d` that lies in the body `K`, in front of the origin and
in the range. -/
noncomputable def fogLength (K : Set (Fin 3 → ℝ)) (o d : Fin 3 → ℝ) (range : Fl F × Fl F) : ℝ :=
  (volume {t : ℝ | 0 ≤ t ∧ InRange range t ∧ o + t • d ∈ K}).toReal * Real.sqrt (d ⬝ᵥ d)

/-- The closed ball. -/
def ballSet (c : Fin 3 → ℝ) (R : ℝ) : Set (Fin 3 → ℝ) := {p | (p 0 - c 0) ^ 2 + (p 1 - c 1) ^ 2 + (p 2 - c 2) ^ 2 ≤ R ^ 2}

/-- The solid ring bounded by the torus with centre `c`, in the plane across `z`: points at most `r` from the
circle of radius `R`. -/
def ringSet (c : Fin 3 → ℝ) (R r : ℝ) : Set (Fin 3 → ℝ) :=
  {p | (Real.sqrt ((p 0 - c 0) ^ 2 + (p 1 - c 1) ^ 2) - R) ^ 2 + (p 2 - c 2) ^ 2 ≤ r ^ 2}

/-! ## Lengths -/

theorem fogLength_Icc {K : Set (Fin 3 → ℝ)} {o d : Fin 3 → ℝ} {range : Fl F × Fl F} {a b : ℝ}
    (h : ∀ t, (0 ≤ t ∧ InRange range t ∧ o + t • d ∈ K) ↔ a ≤ t ∧ t ≤ b) :
    fogLength K o d range = max 0 (b - a) * Real.sqrt (d ⬝ᵥ d) := by
  have : {t : ℝ | 0 ≤ t ∧ InRange range t ∧ o + t • d ∈ K} = Set.Icc a b := Set.ext h
  unfold fogLength
  rw [this, Real.volume_Icc, ENNReal.toReal_ofReal']
  rw [max_comm]

theorem fogLength_empty {K : Set (Fin 3 → ℝ)} {o d : Fin 3 → ℝ} {range : Fl F × Fl F}
    (h : ∀ t, ¬ (0 ≤ t ∧ InRange range t ∧ o + t • d ∈ K)) : fogLength K o d range = 0 := by
  rw [fogLength_Icc (a := 1) (b := 0) (fun t => ⟨fun ht => absurd ht (h t), fun ht => absurd (ht.1.trans ht.2) (by norm_num)⟩)]
  norm_num

/-- The part of a stretch in the range and in front of the origin, after clipping as the code does it. -/
theorem fog_clip [F.Exact] {K : Set (Fin 3 → ℝ)} {o d : Fin 3 → ℝ} {tmin tmax : Fl F} {e x e' x' : ℝ}
    (hK : ∀ t, o + t • d ∈ K ↔ e ≤ t ∧ t ≤ x)
    (he : (if lt (fin e) tmin then tmin else fin e) = fin e') (hx : (if gt (fin x) tmax then tmax else fin x) = fin x')
    (a1 : e ≤ e') (a2 : Scalar.le tmin (fin e') = true) (b1 : x' ≤ x) (b2 : Scalar.le (fin x') tmax = true) :
    fogLength K o d (tmin, tmax) = max 0 (x' - max e' 0) * Real.sqrt (d ⬝ᵥ d) := by
  apply fogLength_Icc
  intro t
  rw [hK, max_le_iff]
  constructor
  · rintro ⟨h0, ⟨r1, r2⟩, h1, h2⟩
    refine ⟨⟨?_, h0⟩, ?_⟩
    · split at he
      · subst he; simpa using r1
      · rw [fin_inj] at he; linarith
    · split at hx
      · subst hx; simpa using r2
      · rw [fin_inj] at hx; linarith
  · rintro ⟨⟨h1, h0⟩, h2⟩
    exact ⟨h0, ⟨Fl.le_trans a2 (by simpa using h1), Fl.le_trans (by simpa using h2) b2⟩, a1.trans h1, h2.trans b1⟩

/-! ## Two crossings -/

/-- What the medium asks of its boundary when the line crosses it at `e` and `x` only. -/
theorem ConstantMedium.crossings [F.Exact] {S : Set (Fin 3 → ℝ)} {o d : Fin 3 → ℝ} {e x : ℝ} (b : Hittable (Fl F))
    (hb : ∀ tmin : Fl F, FindsNearest S o d tmin (b.hit ⟨cv o, cv d⟩ tmin))
    (hS : ∀ t, o + t • d ∈ S ↔ t = e ∨ t = x) (hgap : e + 100 * F.eps ≤ x) (rec1 rec2 : HitRecord (Fl F)) :
    (b.hit ⟨cv o, cv d⟩ (-inf) inf rec1).1 = true ∧ (b.hit ⟨cv o, cv d⟩ (-inf) inf rec1).2.t = fin e ∧
    (b.hit ⟨cv o, cv d⟩ (fin e + 100 * eps) inf rec2).1 = true ∧
    (b.hit ⟨cv o, cv d⟩ (fin e + 100 * eps) inf rec2).2.t = fin x := by
  have e0 := Fmt.Exact.eps_pos (F := F)
  have he : (fin e : Fl F) + 100 * eps = fin (e + 100 * F.eps) := by simp [fl]
  have i1 : ∀ z : ℝ, InRange (-inf, (inf : Fl F)) z := fun z => by simp [InRange]
  have i2 : ∀ z : ℝ, InRange ((fin e : Fl F) + 100 * eps, inf) z ↔ e + 100 * F.eps ≤ z := fun z => by
    rw [he]; simp [InRange]
  obtain ⟨n1, n1'⟩ := hb (-inf) inf rec1 rfl
  obtain ⟨n2, n2'⟩ := hb (fin e + 100 * eps) inf rec2 rfl
  have b1 := n1.mpr ⟨e, i1 e, (hS e).mpr (Or.inl rfl)⟩
  have b2 := n2.mpr ⟨x, (i2 x).mpr hgap, (hS x).mpr (Or.inr rfl)⟩
  obtain ⟨z, z1, -, -, z2, z3⟩ := n1' b1
  obtain ⟨y, y1, -, y0, y2, y3⟩ := n2' b2
  refine ⟨b1, ?_, b2, ?_⟩
  · rw [z1]
    rcases (hS z).mp z2 with h | h
    · rw [h]
    · have := z3 e (i1 e) ((hS e).mpr (Or.inl rfl)); linarith
  · rw [y1]
    rcases (hS y).mp y2 with h | h
    · have := (i2 y).mp y0; linarith
    · rw [h]

/-- `hit` goes to `finish` with the two crossings. -/
theorem ConstantMedium.hit_crossings {b : Hittable (Fl F)} {k ξ : Fl F} {o d : Fin 3 → ℝ} {tmin tmax : Fl F} {rec1 rec2 rec : HitRecord (Fl F)}
    {e x : ℝ} (h : (b.hit ⟨cv o, cv d⟩ (-inf) inf rec1).1 = true ∧ (b.hit ⟨cv o, cv d⟩ (-inf) inf rec1).2.t = fin e ∧
      (b.hit ⟨cv o, cv d⟩ (fin e + 100 * eps) inf rec2).1 = true ∧
      (b.hit ⟨cv o, cv d⟩ (fin e + 100 * eps) inf rec2).2.t = fin x) :
    (make b k).hit ξ rec1 rec2 ⟨cv o, cv d⟩ tmin tmax rec = (make b k).finish ξ ⟨cv o, cv d⟩ tmin tmax (fin e) (fin x) rec := by
  obtain ⟨b1, he, b2, hx⟩ := h
  unfold ConstantMedium.hit
  simp only [ConstantMedium.make, b1, he, b2, hx, if_true]

/-- C126: the boundary is any object whose `hit` finds the nearest point of a surface `S`, and the line of the ray meets `S`
at `e` and `x` only and the body `K` in between, the crossings at least `100 * eps` apart. Then for every range, wherever the
origin is, the ray scatters exactly when the random number is at least `exp (-k L)`, where `L` is the length of the way through `K`. -/
theorem C126_law [F.Exact] {S K : Set (Fin 3 → ℝ)} {o d : Fin 3 → ℝ} {e x : ℝ} (b : Hittable (Fl F))
    (hb : ∀ tmin : Fl F, FindsNearest S o d tmin (b.hit ⟨cv o, cv d⟩ tmin))
    (hS : ∀ t, o + t • d ∈ S ↔ t = e ∨ t = x) (hK : ∀ t, o + t • d ∈ K ↔ e ≤ t ∧ t ≤ x) (hgap : e + 100 * F.eps ≤ x)
    {k ξ : ℝ} (hk : 0 < k) (h0 : 0 ≤ ξ) (h1 : ξ < 1) {tmin tmax : Fl F} (hmin : isNaN tmin = false) (hmax : isNaN tmax = false)
    (rec1 rec2 rec : HitRecord (Fl F)) :
    ((ConstantMedium.make b (fin k)).hit (fin ξ) rec1 rec2 ⟨cv o, cv d⟩ tmin tmax rec).1 = true ↔
      Real.exp (-(k * fogLength K o d (tmin, tmax))) ≤ ξ := by
  rw [ConstantMedium.hit_crossings (ConstantMedium.crossings b hb hS hgap rec1 rec2)]
  have none : fogLength K o d (tmin, tmax) = 0 → ¬ Real.exp (-(k * fogLength K o d (tmin, tmax))) ≤ ξ := by
    intro h
    rw [h, mul_zero, neg_zero, Real.exp_zero]
    linarith
  by_cases hge : ge (if lt (fin e) tmin then tmin else fin e) (if gt (fin x) tmax then tmax else fin x) = true
  · have hf : (ConstantMedium.make b (fin k)).finish (fin ξ) ⟨cv o, cv d⟩ tmin tmax (fin e) (fin x) rec = (false, rec) := by
      unfold ConstantMedium.finish
      simp only [hge, if_true]
    rw [hf]
    refine ⟨fun h => (by cases h), fun h => absurd h (none ?_)⟩
    rcases ConstantMedium.clip_lo hmin e with rfl | ⟨e', he, a1, a2, a3⟩
    · exact fogLength_empty fun t ht => by simpa [InRange] using ht.2.1.1
    · rcases ConstantMedium.clip_hi hmax x with rfl | ⟨x', hx, b1, b2, b3⟩
      · exact fogLength_empty fun t ht => by simpa [InRange] using ht.2.1.2
      · rw [fog_clip hK he hx a1 a2 b1 b2]
        rw [he, hx] at hge
        have : x' ≤ e' := by simpa [ge] using hge
        rw [max_eq_left, zero_mul]
        have := le_max_left e' 0
        linarith
  · rw [Bool.not_eq_true] at hge
    obtain ⟨e', x', e1, e2, e3, e4, e5, e6, e7, -, -⟩ := ConstantMedium.clip hmin hmax e x hge
    rw [ConstantMedium.finish_eq e1 e2 e7]
    have hfog := fog_clip hK e1 e2 e3 e5 e4 e6
    rcases ConstantMedium.dist_cases b hk h0 h1 with ⟨rfl, hd⟩ | ⟨hξ, hd, hpos⟩
    · rw [hd]
      simpa [gt] using Real.exp_pos _
    · rw [hd]
      have hg : gt (fin (-Real.log ξ / k) : Fl F) (fin ((x' - max e' 0) * Real.sqrt (d ⬝ᵥ d))) =
          decide ((x' - max e' 0) * Real.sqrt (d ⬝ᵥ d) < -Real.log ξ / k) := by simp [gt]
      rw [hg]
      rcases le_total 0 (x' - max e' 0) with hle | hle
      · rw [hfog, max_eq_right hle, ← Real.le_log_iff_exp_le hξ]
        have hiff : (x' - max e' 0) * Real.sqrt (d ⬝ᵥ d) < -Real.log ξ / k ↔
            ¬ -(k * ((x' - max e' 0) * Real.sqrt (d ⬝ᵥ d))) ≤ Real.log ξ := by
          rw [lt_div_iff₀ hk, not_le]
          constructor <;> intro h <;> linarith
        by_cases hc : (x' - max e' 0) * Real.sqrt (d ⬝ᵥ d) < -Real.log ξ / k
        · simp [hc, hiff.mp hc]
        · simp [hc, not_not.mp (fun h => hc (hiff.mpr h))]
      · have hc : (x' - max e' 0) * Real.sqrt (d ⬝ᵥ d) < -Real.log ξ / k :=
          lt_of_le_of_lt (mul_nonpos_of_nonpos_of_nonneg hle (Real.sqrt_nonneg _)) hpos
        refine ⟨fun h => ?_, fun h => absurd h (none ?_)⟩
        · rw [if_pos (by simpa using hc)] at h; cases h
        · rw [hfog, max_eq_left hle, zero_mul]

/-- C126: when it scatters, the way through the body up to the point reported is the free path `-log ξ / k`. -/
theorem C126_path [F.Exact] {S K : Set (Fin 3 → ℝ)} {o d : Fin 3 → ℝ} {e x : ℝ} (b : Hittable (Fl F))
    (hb : ∀ tmin : Fl F, FindsNearest S o d tmin (b.hit ⟨cv o, cv d⟩ tmin))
    (hS : ∀ t, o + t • d ∈ S ↔ t = e ∨ t = x) (hK : ∀ t, o + t • d ∈ K ↔ e ≤ t ∧ t ≤ x) (hgap : e + 100 * F.eps ≤ x)
    {k ξ : ℝ} (hk : 0 < k) (h0 : 0 ≤ ξ) (h1 : ξ < 1) {tmin tmax : Fl F} (hmin : isNaN tmin = false) (hmax : isNaN tmax = false)
    (rec1 rec2 rec : HitRecord (Fl F))
    (hit : ((ConstantMedium.make b (fin k)).hit (fin ξ) rec1 rec2 ⟨cv o, cv d⟩ tmin tmax rec).1 = true) :
    ∃ t : ℝ, ((ConstantMedium.make b (fin k)).hit (fin ξ) rec1 rec2 ⟨cv o, cv d⟩ tmin tmax rec).2.t = fin t ∧
      ((ConstantMedium.make b (fin k)).hit (fin ξ) rec1 rec2 ⟨cv o, cv d⟩ tmin tmax rec).2.p = cv (o + t • d) ∧
      o + t • d ∈ K ∧ fogLength K o d (tmin, (fin t : Fl F)) = -Real.log ξ / k := by
  have hc := ConstantMedium.crossings b hb hS hgap rec1 rec2
  obtain ⟨-, -, t, ht, hp, t1, t2, t0, hr⟩ := C73_inside b hk h0 h1 o d hmin hmax rec1 rec2 rec hc.2.1 hc.2.2.2 hit
  refine ⟨t, ht, hp, (hK t).mpr ⟨t1, t2⟩, ?_⟩
  rw [ConstantMedium.hit_crossings hc] at hit ht
  have hge : ge (if lt (fin e) tmin then tmin else fin e) (if gt (fin x) tmax then tmax else fin x) = false := by
    by_contra h
    rw [Bool.not_eq_false] at h
    unfold ConstantMedium.finish at hit
    simp only [h, if_true] at hit
    cases hit
  obtain ⟨e', x', e1, e2, e3, e4, e5, e6, e7, -, -⟩ := ConstantMedium.clip hmin hmax e x hge
  rw [ConstantMedium.finish_eq e1 e2 e7] at hit ht
  rcases ConstantMedium.dist_cases b hk h0 h1 with ⟨-, hd⟩ | ⟨-, hd, hpos⟩
  · rw [hd] at hit
    simp [gt] at hit
  rw [hd] at hit ht
  have hD : -Real.log ξ / k ≤ (x' - max e' 0) * Real.sqrt (d ⬝ᵥ d) := by
    by_contra h
    rw [if_pos (by simpa [gt] using h)] at hit
    cases hit
  rw [if_neg (by simpa [gt] using hD)] at ht
  have hL0 : Real.sqrt (d ⬝ᵥ d) ≠ 0 := by
    intro h
    rw [h, mul_zero] at hD
    linarith
  simp only [div_fin _ hL0, add_fin, fin_inj] at ht
  have e2' : (if gt (fin x : Fl F) (fin t) then (fin t : Fl F) else fin x) = fin t := by
    by_cases h : t < x
    · simp [gt, h]
    · have : x = t := by linarith
      simp [gt, this]
  rw [fog_clip hK e1 e2' e3 e5 t2 (by simp), ← ht]
  have hq0 : 0 < -Real.log ξ / k / Real.sqrt (d ⬝ᵥ d) := div_pos hpos (lt_of_le_of_ne (Real.sqrt_nonneg _) (Ne.symm hL0))
  rw [add_sub_cancel_left, max_eq_right hq0.le, div_mul_cancel₀ _ hL0]

/-- The medium does nothing when the line of the ray does not meet the boundary, or meets it once. -/
theorem ConstantMedium.grazing [F.Exact] {S : Set (Fin 3 → ℝ)} {o d : Fin 3 → ℝ} (b : Hittable (Fl F))
    (hb : ∀ tmin : Fl F, FindsNearest S o d tmin (b.hit ⟨cv o, cv d⟩ tmin))
    (hS : ∀ s t, o + s • d ∈ S → o + t • d ∈ S → t < s + 100 * F.eps) (k ξ : Fl F) (tmin tmax : Fl F) (rec1 rec2 rec : HitRecord (Fl F)) :
    (make b k).hit ξ rec1 rec2 ⟨cv o, cv d⟩ tmin tmax rec = (false, rec) := by
  unfold ConstantMedium.hit
  simp only [ConstantMedium.make]
  by_cases b1 : (b.hit ⟨cv o, cv d⟩ (-inf) inf rec1).1 = true
  · obtain ⟨e, he, -, -, heS, -⟩ := (hb (-inf) inf rec1 rfl).2 b1
    have : (fin e : Fl F) + 100 * eps = fin (e + 100 * F.eps) := by simp [fl]
    have b2 : (b.hit ⟨cv o, cv d⟩ (fin e + 100 * eps) inf rec2).1 = false := by
      rw [← Bool.not_eq_true, (hb _ inf rec2 rfl).1, this]
      rintro ⟨z, hz, hzS⟩
      have h1 : e + 100 * F.eps ≤ z := by simpa [InRange] using hz.1
      have h2 := hS e z heS hzS
      linarith
    simp only [b1, he, b2, if_true, Bool.false_eq_true, if_false]
  · simp only [b1, Bool.false_eq_true, if_false]

/-! ## Balls -/

/-- Where a line meets a ball. -/
theorem ball_line (c : Fin 3 → ℝ) (R : ℝ) (o d : Fin 3 → ℝ) (hd : 0 < d ⬝ᵥ d) :
    (∀ t : ℝ, o + t • d ∉ ballSet c R) ∨
    ∃ e x : ℝ, e ≤ x ∧ (∀ t : ℝ, o + t • d ∈ sphereSet c R ↔ t = e ∨ t = x) ∧ ∀ t : ℝ, o + t • d ∈ ballSet c R ↔ e ≤ t ∧ t ≤ x := by
  have hA : 0 < d 0 ^ 2 + d 1 ^ 2 + d 2 ^ 2 := by
    have : d ⬝ᵥ d = d 0 ^ 2 + d 1 ^ 2 + d 2 ^ 2 := by simp [dotProduct, Fin.sum_univ_three]; ring
    rwa [← this]
  set A := d 0 ^ 2 + d 1 ^ 2 + d 2 ^ 2 with hAdef
  set m := -((o 0 - c 0) * d 0 + (o 1 - c 1) * d 1 + (o 2 - c 2) * d 2) / A with hm
  set D := (R ^ 2 - ((o 0 - c 0) ^ 2 + (o 1 - c 1) ^ 2 + (o 2 - c 2) ^ 2)) / A + m ^ 2 with hD
  have key : ∀ t : ℝ, (o 0 + t * d 0 - c 0) ^ 2 + (o 1 + t * d 1 - c 1) ^ 2 + (o 2 + t * d 2 - c 2) ^ 2 - R ^ 2 = A * ((t - m) ^ 2 - D) := by
    intro t
    have h1 : A * m = -((o 0 - c 0) * d 0 + (o 1 - c 1) * d 1 + (o 2 - c 2) * d 2) := by
      rw [hm]; field_simp
    have h2 : A * (D - m ^ 2) = R ^ 2 - ((o 0 - c 0) ^ 2 + (o 1 - c 1) ^ 2 + (o 2 - c 2) ^ 2) := by
      rw [hD]; field_simp; ring
    have h3 : A * t ^ 2 = (d 0 ^ 2 + d 1 ^ 2 + d 2 ^ 2) * t ^ 2 := by rw [hAdef]
    linear_combination (-1) * h3 + 2 * t * h1 + h2
  have hball : ∀ t : ℝ, o + t • d ∈ ballSet c R ↔ (t - m) ^ 2 ≤ D := by
    intro t
    have := key t
    simp only [ballSet, Set.mem_ofPred_eq, Pi.add_apply, Pi.smul_apply, smul_eq_mul]
    constructor
    · intro h
      by_contra h'
      have : 0 < A * ((t - m) ^ 2 - D) := mul_pos hA (by linarith)
      linarith
    · intro h
      have : A * ((t - m) ^ 2 - D) ≤ 0 := mul_nonpos_of_nonneg_of_nonpos hA.le (by linarith)
      linarith
  have hsph : ∀ t : ℝ, o + t • d ∈ sphereSet c R ↔ (t - m) ^ 2 = D := by
    intro t
    have := key t
    simp only [sphereSet, Set.mem_ofPred_eq, Pi.add_apply, Pi.smul_apply, smul_eq_mul]
    constructor
    · intro h
      have : A * ((t - m) ^ 2 - D) = 0 := by linarith
      rcases mul_eq_zero.mp this with h | h <;> linarith
    · intro h
      have : A * ((t - m) ^ 2 - D) = 0 := by rw [h]; ring
      linarith
  rcases lt_or_ge D 0 with hneg | hpos
  · left
    intro t ht
    have := (hball t).mp ht
    nlinarith [sq_nonneg (t - m)]
  · right
    have hs := Real.sq_sqrt hpos
    have hs0 := Real.sqrt_nonneg D
    refine ⟨m - Real.sqrt D, m + Real.sqrt D, by linarith, fun t => ?_, fun t => ?_⟩
    · have h2 : (t - m) ^ 2 = D ↔ (t - m) ^ 2 = Real.sqrt D ^ 2 := by rw [hs]
      rw [hsph, h2, sq_eq_sq_iff_eq_or_eq_neg]
      constructor
      · rintro (h | h)
        · right; linarith
        · left; linarith
      · rintro (h | h)
        · right; linarith
        · left; linarith
    · rw [hball, Real.sq_le hpos]
      constructor <;> rintro ⟨h1, h2⟩ <;> constructor <;> linarith

/-- C126 for a ball: if the line of the ray does not cut off a chord of less than `100 * eps` in the parameter of the ray, a ray scatters exactly when the random
number is at least `exp (-k L)`, `L` being the length of its way through the ball.
Missing: the short chords, see `C126_thin_false`, and the threshold window of the root finder. -/
theorem C126_ball_partial [F.Exact] (c : Fin 3 → ℝ) (R : ℝ) (b : Hittable (Fl F)) (hb : b.hit = (Sphere.ofReal c R).hit) (o d : Fin 3 → ℝ)
    (hd : F.tiny < d ⬝ᵥ d) (hw : (o - c) ⬝ᵥ d = 0 ∨ F.tiny < |2 * ((o - c) ⬝ᵥ d)|)
    (hthin : ∀ s t, o + s • d ∈ sphereSet c R → o + t • d ∈ sphereSet c R → s < t → s + 100 * F.eps ≤ t)
    {k ξ : ℝ} (hk : 0 < k) (h0 : 0 ≤ ξ) (h1 : ξ < 1) {tmin tmax : Fl F} (hmin : isNaN tmin = false) (hmax : isNaN tmax = false)
    (rec1 rec2 rec : HitRecord (Fl F)) :
    ((ConstantMedium.make b (fin k)).hit (fin ξ) rec1 rec2 ⟨cv o, cv d⟩ tmin tmax rec).1 = true ↔
      Real.exp (-(k * fogLength (ballSet c R) o d (tmin, tmax))) ≤ ξ := by
  have hn : ∀ tmin : Fl F, FindsNearest (sphereSet c R) o d tmin (b.hit ⟨cv o, cv d⟩ tmin) := by
    intro tmin; rw [hb]; exact C46_nearest_partial c R o d tmin hd hw
  have e0 := Fmt.Exact.eps_pos (F := F)
  have none : fogLength (ballSet c R) o d (tmin, tmax) = 0 → ¬ Real.exp (-(k * fogLength (ballSet c R) o d (tmin, tmax))) ≤ ξ := by
    intro h
    rw [h, mul_zero, neg_zero, Real.exp_zero]
    linarith
  have sub : ∀ t : ℝ, o + t • d ∈ sphereSet c R → o + t • d ∈ ballSet c R := fun t h => le_of_eq h
  rcases ball_line c R o d (lt_of_le_of_lt (Fmt.Exact.tiny_nonneg (F := F)) hd) with hmiss | ⟨e, x, hex, hS, hK⟩
  · rw [ConstantMedium.grazing b hn (fun s t hs _ => absurd (sub s hs) (hmiss s))]
    exact ⟨fun h => (by cases h), fun h => absurd h (none (fogLength_empty fun t ht => hmiss t ht.2.2))⟩
  · rcases hex.eq_or_lt with rfl | hlt
    · rw [ConstantMedium.grazing b hn]
      · refine ⟨fun h => (by cases h), fun h => absurd h (none ?_)⟩
        have hsub : {t : ℝ | 0 ≤ t ∧ InRange (tmin, tmax) t ∧ o + t • d ∈ ballSet c R} ⊆ {e} := by
          intro t ht
          have := (hK t).mp ht.2.2
          exact le_antisymm this.2 this.1
        unfold fogLength
        rw [measure_mono_null hsub Real.volume_singleton]
        simp
      · intro s t hs ht
        have a := (hS s).mp hs
        have b := (hS t).mp ht
        rw [or_self] at a b
        rw [a, b]; linarith
    · exact C126_law b hn hS hK (hthin e x ((hS e).mpr (Or.inl rfl)) ((hS x).mpr (Or.inr rfl)) hlt) hk h0 h1 hmin hmax rec1 rec2 rec

/-- C126, refuted for short chords: a ray whose direction is a vector of length `1 / (40 eps)` runs through the middle of a ball of radius 1, so
`2` units of its way lie in the ball, and yet the medium never scatters it, however dense it is. The two crossings are `80 eps` apart in the
parameter of the ray, and the second is looked for only from `100 eps` after the first. -/
theorem C126_thin_false (b : Hittable (Fl exact64)) (hb : b.hit = (Sphere.ofReal (F := exact64) 0 1).hit) :
    fogLength (F := exact64) (ballSet 0 1) ![0, 0, -3] ![0, 0, 1 / (40 * exact64.eps)] (fin 0, pinf) = 2 ∧
    ∀ (k ξ tmin tmax : Fl exact64) (rec1 rec2 rec : HitRecord (Fl exact64)),
      (ConstantMedium.make b k).hit ξ rec1 rec2 ⟨cv ![0, 0, -3], cv ![0, 0, 1 / (40 * exact64.eps)]⟩ tmin tmax rec = (false, rec) := by
  have e0 := Fmt.Exact.eps_pos (F := exact64)
  have ev : exact64.eps = 1 / 2 ^ 52 := rfl
  have tv : exact64.tiny < 1 := Fmt.Exact.tiny_lt
  set g := 1 / (40 * exact64.eps) with hg
  have g1 : 1 < g := by rw [hg, ev]; norm_num
  have g0 : 0 < g := by linarith
  have hdd : (![0, 0, g] : Fin 3 → ℝ) ⬝ᵥ ![0, 0, g] = g * g := by simp [dotProduct, Fin.sum_univ_three]
  have hge : g * exact64.eps * 40 = 1 := by rw [hg]; field_simp
  constructor
  · rw [fogLength_Icc (a := 2 / g) (b := 4 / g), hdd, Real.sqrt_mul_self g0.le]
    · rw [max_eq_right]
      · field_simp; norm_num
      · rw [sub_nonneg]; exact div_le_div_of_nonneg_right (by norm_num) g0.le
    · intro t
      rw [div_le_iff₀ g0, le_div_iff₀ g0]
      simp only [InRange, ballSet, Set.mem_ofPred_eq]
      simp
      constructor
      · rintro ⟨h1, h2⟩
        rw [abs_le] at h2
        constructor <;> linarith [h2.1, h2.2]
      · rintro ⟨h1, h2⟩
        refine ⟨?_, abs_le.mpr ⟨by linarith, by linarith⟩⟩
        by_contra h
        nlinarith
  · intro k ξ tmin tmax rec1 rec2 rec
    refine ConstantMedium.grazing (S := sphereSet 0 1) b (fun tm => ?_) ?_ k ξ tmin tmax rec1 rec2 rec
    · rw [hb]
      refine C46_nearest_partial 0 1 _ _ tm ?_ (Or.inr ?_)
      · rw [hdd]; nlinarith
      · simp [dotProduct, Fin.sum_univ_three]
        rw [abs_of_pos g0]; linarith
    · intro s t hs ht
      simp only [sphereSet, Set.mem_ofPred_eq] at hs ht
      simp at hs ht
      have hs' : 2 ≤ s * g ∧ s * g ≤ 4 := by rcases hs with h | h <;> constructor <;> linarith
      have ht' : 2 ≤ t * g ∧ t * g ≤ 4 := by rcases ht with h | h <;> constructor <;> linarith
      by_contra h
      have : (s + 100 * exact64.eps) * g ≤ t * g := mul_le_mul_of_nonneg_right (not_lt.mp h) g0.le
      nlinarith

/-! ## Rings -/

/-- The part of the x axis in the ring with radii 2 and 1. -/
theorem ring_axis (a t : ℝ) : (![a, 0, 0] + t • ![1, 0, 0] : Fin 3 → ℝ) ∈ ringSet 0 2 1 ↔ 1 ≤ |a + t| ∧ |a + t| ≤ 3 := by
  simp only [ringSet, Set.mem_ofPred_eq]
  simp
  rw [Real.sqrt_sq_eq_abs, abs_le]
  constructor <;> rintro ⟨h1, h2⟩ <;> constructor <;> linarith

/-- The crossings of the x axis with the torus of radii 2 and 1, from `(a,0,0)`. -/
theorem torus_axis (a : ℝ) (z : ℝ) : (![a, 0, 0] + z • ![1, 0, 0] : Fin 3 → ℝ) ∈ torusSet 0 2 1 ↔
    (z = -3 - a ∨ z = -1 - a ∨ z = 1 - a ∨ z = 3 - a) := by
  have hf : torusF 0 2 1 (![a, 0, 0] + z • ![1, 0, 0]) = (z - (-3 - a)) * (z - (-1 - a)) * (z - (1 - a)) * (z - (3 - a)) := by
    unfold torusF; simp; ring
  rw [← torusF_eq_zero, hf, mul_eq_zero, mul_eq_zero, mul_eq_zero, sub_eq_zero, sub_eq_zero, sub_eq_zero, sub_eq_zero,
      or_assoc, or_assoc]

/-- `hit` finds the nearest crossing there, in every range, for `a = -10` and `a = 0`. -/
theorem torus_axis_hit (a : ℝ) (ha : a = -10 ∨ a = 0) (tmin : Fl exact0) :
    FindsNearest (torusSet 0 2 1) ![a, 0, 0] ![1, 0, 0] tmin ((Torus.ofReal (F := exact0) 0 2 1).hit ⟨cv ![a, 0, 0], cv ![1, 0, 0]⟩ tmin) := by
  have hf : ∀ t : ℝ, torusF 0 2 1 (![a, 0, 0] + t • ![1, 0, 0]) = (t - (-3 - a)) * (t - (-1 - a)) * (t - (1 - a)) * (t - (3 - a)) := by
    intro t; unfold torusF; simp; ring
  have hd : ∀ z : ℝ, deriv (fun t => torusF 0 2 1 (![a, 0, 0] + t • ![1, 0, 0])) z =
      (z - (-1 - a)) * (z - (1 - a)) * (z - (3 - a)) + (z - (-3 - a)) * (z - (1 - a)) * (z - (3 - a)) +
      (z - (-3 - a)) * (z - (-1 - a)) * (z - (3 - a)) + (z - (-3 - a)) * (z - (-1 - a)) * (z - (1 - a)) := by
    intro z
    simp only [hf]
    have h : ∀ a : ℝ, HasDerivAt (fun t : ℝ => t - a) 1 z := fun a => (hasDerivAt_id z).sub_const a
    exact ((((h (-3 - a)).mul (h (-1 - a))).mul (h (1 - a))).mul (h (3 - a))).deriv.trans (by simp only [Pi.mul_apply]; ring)
  refine Torus.nearest 0 2 1 (by norm_num) (by norm_num) _ _ ?_ tmin (Or.inr ⟨?_, ?_⟩) ?_
  · apply QuarticClear.of_zero
    simp [torusC, dotProduct, Fin.sum_univ_three]
  · rcases ha with rfl | rfl <;> simp [torusC, dotProduct, Fin.sum_univ_three] <;> norm_num
  · rcases ha with rfl | rfl
    · refine ⟨3, ?_⟩
      simp [torusC, dotProduct, Fin.sum_univ_three]
    · refine ⟨2, ?_⟩
      simp [torusC, dotProduct, Fin.sum_univ_three]
      norm_num
  · intro z _ hz
    rw [hd]
    rcases (torus_axis a z).mp hz with rfl | rfl | rfl | rfl <;> ring_nf <;> norm_num

/-- The two crossings the medium takes on the x axis: the first two of four. -/
theorem ring_crossings (a : ℝ) (ha : a = -10 ∨ a = 0) (b : Hittable (Fl exact0)) (hb : b.hit = (Torus.ofReal (F := exact0) 0 2 1).hit)
    (rec1 rec2 : HitRecord (Fl exact0)) :
    (b.hit ⟨cv ![a, 0, 0], cv ![1, 0, 0]⟩ (-inf) inf rec1).1 = true ∧
    (b.hit ⟨cv ![a, 0, 0], cv ![1, 0, 0]⟩ (-inf) inf rec1).2.t = fin (-3 - a) ∧
    (b.hit ⟨cv ![a, 0, 0], cv ![1, 0, 0]⟩ (fin (-3 - a) + 100 * eps) inf rec2).1 = true ∧
    (b.hit ⟨cv ![a, 0, 0], cv ![1, 0, 0]⟩ (fin (-3 - a) + 100 * eps) inf rec2).2.t = fin (-1 - a) := by
  have e0 := Fmt.Exact.eps_pos (F := exact0)
  have e1 : 100 * exact0.eps < 1 := by norm_num [exact0, exact64]
  have he : (fin (-3 - a) : Fl exact0) + 100 * eps = fin (-3 - a + 100 * exact0.eps) := by simp [fl]
  have i1 : ∀ z : ℝ, InRange (-inf, (inf : Fl exact0)) z := fun z => by simp [InRange]
  have i2 : ∀ z : ℝ, InRange ((fin (-3 - a) : Fl exact0) + 100 * eps, inf) z ↔ -3 - a + 100 * exact0.eps ≤ z := fun z => by
    rw [he]; simp [InRange]
  have hn := torus_axis_hit a ha
  rw [← hb] at hn
  obtain ⟨n1, n1'⟩ := hn (-inf) inf rec1 rfl
  obtain ⟨n2, n2'⟩ := hn (fin (-3 - a) + 100 * eps) inf rec2 rfl
  have s1 := (torus_axis a (-3 - a)).mpr (Or.inl rfl)
  have s2 := (torus_axis a (-1 - a)).mpr (Or.inr (Or.inl rfl))
  have b1 := n1.mpr ⟨_, i1 _, s1⟩
  have b2 := n2.mpr ⟨_, (i2 _).mpr (by linarith), s2⟩
  obtain ⟨z, z1, -, -, z2, z3⟩ := n1' b1
  obtain ⟨y, y1, -, y0, y2, y3⟩ := n2' b2
  refine ⟨b1, ?_, b2, ?_⟩
  · rw [z1, fin_inj]
    have := z3 _ (i1 _) s1
    rcases (torus_axis a z).mp z2 with h | h | h | h <;> first | exact h | linarith
  · rw [y1, fin_inj]
    have h1 := (i2 y).mp y0
    have h2 := y3 _ ((i2 _).mpr (by linarith)) s2
    rcases (torus_axis a y).mp y2 with h | h | h | h <;> first | exact h | linarith

/-- C126, refuted for a ring of fog, radii 2 and 1, density 1. A ray that crosses both sides of the ring goes through 4 units of fog; with the random number `exp (-3)` the
law wants it scattered, and it is not, because only the first side counts. -/
theorem C126_ring_false (b : Hittable (Fl exact0)) (hb : b.hit = (Torus.ofReal (F := exact0) 0 2 1).hit) (rec1 rec2 rec : HitRecord (Fl exact0)) :
    fogLength (F := exact0) (ringSet 0 2 1) ![-10, 0, 0] ![1, 0, 0] (fin 0, pinf) = 4 ∧
    Real.exp (-(1 * 4)) ≤ Real.exp (-3) ∧
    ((ConstantMedium.make b (fin 1)).hit (fin (Real.exp (-3))) rec1 rec2 ⟨cv ![-10, 0, 0], cv ![1, 0, 0]⟩ (fin 0) pinf rec).1 = false := by
  have hdd : (![1, 0, 0] : Fin 3 → ℝ) ⬝ᵥ ![1, 0, 0] = 1 := by simp [dotProduct, Fin.sum_univ_three]
  refine ⟨?_, Real.exp_le_exp.mpr (by norm_num), ?_⟩
  · have hset : {t : ℝ | 0 ≤ t ∧ InRange ((fin 0 : Fl exact0), pinf) t ∧ (![-10, 0, 0] + t • ![1, 0, 0] : Fin 3 → ℝ) ∈ ringSet 0 2 1} =
        Set.Icc 7 9 ∪ Set.Icc 11 13 := by
      ext t
      simp only [Set.mem_ofPred_eq, ring_axis, Set.mem_union, Set.mem_Icc]
      constructor
      · rintro ⟨-, -, h1, h2⟩
        rw [abs_le] at h2
        rcases le_abs.mp h1 with h | h
        · right; constructor <;> linarith [h2.1, h2.2]
        · left; constructor <;> linarith [h2.1, h2.2]
      · rintro (⟨h1, h2⟩ | ⟨h1, h2⟩)
        · exact ⟨by linarith, ⟨by simp; linarith, by simp⟩, le_abs.mpr (Or.inr (by linarith)), abs_le.mpr ⟨by linarith, by linarith⟩⟩
        · exact ⟨by linarith, ⟨by simp; linarith, by simp⟩, le_abs.mpr (Or.inl (by linarith)), abs_le.mpr ⟨by linarith, by linarith⟩⟩
    unfold fogLength
    rw [hset, hdd, Real.sqrt_one, mul_one, measure_union _ measurableSet_Icc, Real.volume_Icc, Real.volume_Icc]
    · norm_num
    · rw [Set.disjoint_left]
      intro t h1 h2
      linarith [h1.2, h2.1]
  · obtain ⟨b1, he, b2, hx⟩ := ring_crossings (-10) (Or.inl rfl) b hb rec1 rec2
    rw [← Bool.not_eq_true, C73_beer_lambert b (by norm_num) (Real.exp_pos _).le (by rw [Real.exp_lt_one_iff]; norm_num) _ _ rfl rfl rec1 rec2 rec b1 he b2 hx
      (by norm_num) (by norm_num) (by simp [InRange]; norm_num) (by simp [InRange]), hdd, Real.sqrt_one, Real.exp_le_exp]
    norm_num

/-- C126, refuted from inside the hole of the ring: 2 units of fog are in front, and no ray from the centre along `x` is ever scattered, however dense the fog,
because the two crossings taken are both behind. -/
theorem C126_hole_false (b : Hittable (Fl exact0)) (hb : b.hit = (Torus.ofReal (F := exact0) 0 2 1).hit) :
    fogLength (F := exact0) (ringSet 0 2 1) ![0, 0, 0] ![1, 0, 0] (fin (1 / 1000), pinf) = 2 ∧
    ∀ (k ξ : Fl exact0) (rec1 rec2 rec : HitRecord (Fl exact0)),
      (ConstantMedium.make b k).hit ξ rec1 rec2 ⟨cv ![0, 0, 0], cv ![1, 0, 0]⟩ (fin (1 / 1000)) pinf rec = (false, rec) := by
  have hdd : (![1, 0, 0] : Fin 3 → ℝ) ⬝ᵥ ![1, 0, 0] = 1 := by simp [dotProduct, Fin.sum_univ_three]
  constructor
  · rw [fogLength_Icc (a := 1) (b := 3), hdd, Real.sqrt_one]
    · norm_num
    · intro t
      rw [ring_axis, zero_add]
      constructor
      · rintro ⟨h0, -, h1, h2⟩
        rw [abs_of_nonneg h0] at h1 h2
        exact ⟨h1, h2⟩
      · rintro ⟨h1, h2⟩
        rw [abs_of_nonneg (by linarith)]
        exact ⟨by linarith, ⟨by simp; linarith, by simp⟩, h1, h2⟩
  · intro k ξ rec1 rec2 rec
    rw [ConstantMedium.hit_crossings (ring_crossings 0 (Or.inr rfl) b hb rec1 rec2)]
    unfold ConstantMedium.finish
    have h1 : lt (fin (-3 - 0) : Fl exact0) (fin (1 / 1000)) = true := by rw [lt_fin]; norm_num
    have h2 : gt (fin (-1 - 0) : Fl exact0) pinf = false := by simp [gt]
    have h3 : ge (fin (1 / 1000) : Fl exact0) (fin (-1 - 0)) = true := by simp [ge]; norm_num
    simp only [h1, h2, h3, if_true, Bool.false_eq_true, if_false]

/-! ## Concrete cases -/

/-- From `(0,0,-3)` along `z` to a unit ball: 2 units of fog. -/
theorem fogExample : fogLength (F := exact64) (ballSet 0 1) ![0, 0, -3] ![0, 0, 1] (fin 0, pinf) = 2 := by
  have hdd : (![0, 0, 1] : Fin 3 → ℝ) ⬝ᵥ ![0, 0, 1] = 1 := by simp [dotProduct, Fin.sum_univ_three]
  rw [fogLength_Icc (a := 2) (b := 4), hdd, Real.sqrt_one]
  · norm_num
  · intro t
    simp only [InRange, ballSet, Set.mem_ofPred_eq]
    simp
    rw [abs_le]
    constructor
    · rintro ⟨h, h1, h2⟩; constructor <;> linarith
    · rintro ⟨h1, h2⟩; exact ⟨by linarith, by linarith, by linarith⟩

theorem fogExample_crossings (z : ℝ) : (![0, 0, -3] : Fin 3 → ℝ) + z • ![0, 0, 1] ∈ sphereSet 0 1 ↔ z = 2 ∨ z = 4 := by
  simp only [sphereSet, Set.mem_ofPred_eq]
  simp
  constructor
  · intro h
    rcases h with h | h
    · right; linarith
    · left; linarith
  · rintro (rfl | rfl) <;> norm_num

/-- With density 1 the random number `exp (-1)` scatters, one unit into the ball. -/
example (b : Hittable (Fl exact64)) (hb : b.hit = (Sphere.ofReal (F := exact64) 0 1).hit) (rec1 rec2 rec : HitRecord (Fl exact64)) :
    ((ConstantMedium.make b (fin 1)).hit (fin (Real.exp (-1))) rec1 rec2 ⟨cv ![0, 0, -3], cv ![0, 0, 1]⟩ (fin 0) pinf rec).1 = true := by
  have e1 : 100 * exact64.eps < 1 := by norm_num [exact64]
  have tv : exact64.tiny < 1 := Fmt.Exact.tiny_lt
  rw [C126_ball_partial 0 1 b hb _ _ _ (Or.inr _) _ (by norm_num) (Real.exp_pos _).le (by rw [Real.exp_lt_one_iff]; norm_num) rfl rfl rec1 rec2 rec, fogExample, Real.exp_le_exp]
  · norm_num
  · simpa [dotProduct, Fin.sum_univ_three] using tv
  · simp [dotProduct, Fin.sum_univ_three]; linarith
  · intro s t hs ht hst
    rcases (fogExample_crossings s).mp hs with rfl | rfl <;> rcases (fogExample_crossings t).mp ht with rfl | rfl <;> linarith

end DRT
