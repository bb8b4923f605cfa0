import Verif.Props.Helicoid
import Mathlib.Analysis.Real.Pi.Bounds

/-! # C141: where the helicoid looks for an intersection -/

namespace DRT
open Scalar Fl Matrix Vec

variable {F : Fmt}

theorem Helicoid.le_max_real {x : Fl F} {t y : ℝ} (h : Scalar.le x (fin t) = true) :
    ∃ a : ℝ, Scalar.max x (fin y) = fin a ∧ y ≤ a ∧ (y ≤ t → a ≤ t) := by
  cases x with
  | nan => exact absurd h (by simp)
  | pinf => exact absurd h (by simp)
  | ninf => exact ⟨y, rfl, le_rfl, id⟩
  | fin x =>
    rw [le_fin, decide_eq_true_eq] at h
    exact ⟨_, max_fin x y, le_max_right _ _, max_le h⟩

theorem Helicoid.ge_min_real {x : Fl F} {t y : ℝ} (h : Scalar.le (fin t) x = true) :
    ∃ a : ℝ, Scalar.min x (fin y) = fin a ∧ a ≤ y ∧ (t ≤ y → t ≤ a) := by
  cases x with
  | nan => exact absurd h (by simp)
  | ninf => exact absurd h (by simp)
  | pinf => exact ⟨y, rfl, le_rfl, id⟩
  | fin x =>
    rw [le_fin, decide_eq_true_eq] at h
    exact ⟨_, min_fin x y, min_le_right _ _, le_min h⟩

/-- The squared distance from the axis of the helicoid's point `(u, v)`. -/
theorem helPt_axis {ρ l u v t : ℝ} {o d : Fin 3 → ℝ} (hp : o + t • d = helPt ρ l u v) :
    (o 0 + t * d 0) ^ 2 + (o 1 + t * d 1) ^ 2 = (ρ * v) ^ 2 ∧ o 2 + t * d 2 = l * (u - 1 / 2) := by
  have e0 := congrFun hp 0
  have e1 := congrFun hp 1
  have e2 := congrFun hp 2
  simp only [Pi.add_apply, Pi.smul_apply, smul_eq_mul, helPt, cons_val] at e0 e1 e2
  rw [e0, e1, e2]
  refine ⟨?_, rfl⟩
  have := Real.sin_sq_add_cos_sq (2 * Real.pi * u)
  linear_combination (ρ * v) ^ 2 * this

/-- C141 (exact arithmetic): clipping the range to the enclosing cylinder loses nothing. Wherever the ray meets the
surface inside the range, the clipped range is not empty and contains the parameter, if the linear coefficient of the
quadratic equation is zero or above the threshold of `quadratic_roots`. -/
theorem C141_clip [F.Exact] {ρ l : ℝ} (hl : 0 < l) (o d : Fin 3 → ℝ)
    (hb : d 0 * d 0 + d 1 * d 1 ≤ F.tiny ∨ o 0 * d 0 + o 1 * d 1 = 0 ∨ F.tiny < |2 * (o 0 * d 0 + o 1 * d 1)|)
    (tmin tmax : Fl F) (t u v : ℝ) (hu0 : 0 ≤ u) (hu1 : u ≤ 1) (hv0 : 0 ≤ v) (hv1 : v ≤ 1)
    (hp : o + t • d = helPt ρ l u v) (hr : InRange (tmin, tmax) t) :
    ∃ a b : Fl F, (Helicoid.ofReal ρ l : Helicoid (Fl F)).clip ⟨cv o, cv d⟩ tmin tmax = some (a, b) ∧ InRange (a, b) t := by
  have ht0 : (0 : ℝ) ≤ F.tiny := Fmt.Exact.tiny_nonneg
  obtain ⟨hax, hz⟩ := helPt_axis hp
  unfold Helicoid.clip
  dsimp only
  have ea : (cv d 0 * cv d 0 + cv d 1 * cv d 1 : Fl F) = fin (d 0 * d 0 + d 1 * d 1) := by simp only [fl]
  rw [ea]
  by_cases ha : d 0 * d 0 + d 1 * d 1 ≤ F.tiny
  · rw [if_neg (by rw [tiny_def]; simpa [gt] using ha)]
    exact ⟨_, _, rfl, hr⟩
  have hb := hb.resolve_left ha
  rw [not_le] at ha
  have ha0 : 0 < d 0 * d 0 + d 1 * d 1 := ht0.trans_lt ha
  rw [if_pos (by rw [tiny_def]; simpa [gt] using ha)]
  have e1 : (2 * (cv o 0 * cv d 0 + cv o 1 * cv d 1) : Fl F) = fin (2 * (o 0 * d 0 + o 1 * d 1)) := by
    simp only [fl, Nat.cast_ofNat]
  have e2 : (cv o 0 * cv o 0 + cv o 1 * cv o 1 - (Helicoid.ofReal ρ l : Helicoid (Fl F)).radius *
      (Helicoid.ofReal ρ l : Helicoid (Fl F)).radius : Fl F) = fin (o 0 * o 0 + o 1 * o 1 - ρ * ρ) := by
    simp only [fl, Helicoid.ofReal]
  rw [e1, e2]
  have hq : (d 0 * d 0 + d 1 * d 1) * t ^ 2 + 2 * (o 0 * d 0 + o 1 * d 1) * t + (o 0 * o 0 + o 1 * o 1 - ρ * ρ) ≤ 0 := by
    have : (ρ * v) ^ 2 ≤ ρ ^ 2 := by
      rw [mul_pow]
      exact mul_le_of_le_one_right (sq_nonneg _) (pow_le_one₀ hv0 hv1)
    nlinarith
  obtain ⟨x, y, hroots, hx, hy⟩ : ∃ x y : ℝ, quadraticRoots (fin (d 0 * d 0 + d 1 * d 1) : Fl F)
      (fin (2 * (o 0 * d 0 + o 1 * d 1))) (fin (o 0 * o 0 + o 1 * o 1 - ρ * ρ)) = [fin x, fin y] ∧ x ≤ t ∧ t ≤ y := by
    have hb' : 2 * (o 0 * d 0 + o 1 * d 1) = 0 ∨ F.tiny < |2 * (o 0 * d 0 + o 1 * d 1)| :=
      hb.imp (fun h => by rw [h, mul_zero]) id
    generalize d 0 * d 0 + d 1 * d 1 = A at *
    generalize 2 * (o 0 * d 0 + o 1 * d 1) = B at *
    generalize o 0 * o 0 + o 1 * o 1 - ρ * ρ = C at *
    rcases quadraticRoots_spec (F := F) A B C (Or.inr (by rwa [abs_of_pos ha0]))
      (Or.inr hb') (fun h => ha0.ne' h.1) with h | ⟨x, y, hxy, h, hv, -⟩
    · exfalso
      have hD : 0 ≤ B ^ 2 - 4 * A * C := by nlinarith [sq_nonneg (2 * A * t + B)]
      refine h.2 ((-B + Real.sqrt (B ^ 2 - 4 * A * C)) / (2 * A)) ?_
      have hs := Real.sq_sqrt hD
      generalize Real.sqrt (B ^ 2 - 4 * A * C) = S at hs
      have : A * ((-B + S) / (2 * A)) ^ 2 + B * ((-B + S) / (2 * A)) + C = (S ^ 2 - (B ^ 2 - 4 * A * C)) / (4 * A) := by
        field_simp
        ring
      rw [this, hs, sub_self, zero_div]
    · obtain ⟨s1, s2⟩ := hv ha0.ne'
      have hf : A * ((t - x) * (t - y)) ≤ 0 := by
        have : A * ((t - x) * (t - y)) = A * t ^ 2 + B * t + C := by linear_combination (-t) * s1 + s2
        rw [this]; exact hq
      have hf' : (t - x) * (t - y) ≤ 0 := by
        by_contra hc
        exact absurd hf (not_le.mpr (mul_pos ha0 (not_le.mp hc)))
      refine ⟨x, y, h, ?_, ?_⟩
      · by_contra hc; nlinarith
      · by_contra hc; nlinarith
  rw [hroots]
  dsimp only
  obtain ⟨a, ea', ha1, ha2⟩ := Helicoid.le_max_real (y := x) hr.1
  obtain ⟨b, eb', hb1, hb2⟩ := Helicoid.ge_min_real (y := y) hr.2
  have hyt : lt (fin y) tmin = false := by
    have h1 := hr.1
    cases tmin with
    | nan => simp
    | pinf => exact absurd h1 (by simp)
    | ninf => simp
    | fin m =>
      rw [show ((fin m, tmax) : Fl F × Fl F).1 = fin m from rfl, le_fin, decide_eq_true_eq] at h1
      rw [lt_fin, decide_eq_false_iff_not, not_lt]
      linarith
  rw [hyt, ea', eb', ray_at_cv, ray_at_cv, cv_apply, cv_apply, min_fin, max_fin]
  unfold Helicoid.ofReal
  simp only [fl, Nat.cast_ofNat, div_fin _ (two_ne_zero (α := ℝ)), gt, Pi.add_apply, Pi.smul_apply, smul_eq_mul]
  have hat := ha2 hx
  have htb := hb2 hy
  have hzb : o 2 + t * d 2 ≤ l / 2 ∧ -l / 2 ≤ o 2 + t * d 2 := by
    rw [hz]; constructor <;> nlinarith
  have hlo : min (o 2 + b * d 2) (o 2 + a * d 2) ≤ o 2 + t * d 2 := by
    rcases le_total 0 (d 2) with h | h
    · exact (min_le_right _ _).trans (by nlinarith)
    · exact (min_le_left _ _).trans (by nlinarith)
  have hhi : o 2 + t * d 2 ≤ max (o 2 + b * d 2) (o 2 + a * d 2) := by
    rcases le_total 0 (d 2) with h | h
    · exact le_trans (by nlinarith) (le_max_left _ _)
    · exact le_trans (by nlinarith) (le_max_right _ _)
  refine ⟨fin a, fin b, ?_, by simpa [InRange] using hat, by simpa [InRange] using htb⟩
  rw [if_neg (by simp), if_neg (by rw [decide_eq_true_eq, not_lt]; linarith),
    if_neg (by rw [decide_eq_true_eq, not_lt]; linarith)]

/-- C141 (exact arithmetic): the interval of `ubounds` contains the first surface coordinate of every intersection in
the range. -/
theorem C141_ubounds [F.Exact] {ρ l : ℝ} (hl : 0 < l) (o d : Fin 3 → ℝ) (a b t u v : ℝ) (hu0 : 0 ≤ u) (hu1 : u ≤ 1)
    (hp : o + t • d = helPt ρ l u v) (hat : a ≤ t) (htb : t ≤ b) :
    ∃ lo hi : ℝ, (Helicoid.ofReal ρ l : Helicoid (Fl F)).ubounds (cv o) (cv d) (fin a) (fin b) = (fin lo, fin hi) ∧
      lo ≤ u ∧ u ≤ hi ∧ 0 ≤ lo ∧ hi ≤ 1 := by
  obtain ⟨-, hz⟩ := helPt_axis hp
  unfold Helicoid.ubounds
  split_ifs with hc
  · exact ⟨0, 1, by rw [ofNat_zero, ofNat_one], hu0, hu1, le_rfl, le_rfl⟩
  have eu : ∀ s : ℝ, ((cv o 2 + fin s * cv d 2) / (Helicoid.ofReal ρ l : Helicoid (Fl F)).speed + 1 / 2 : Fl F) =
      fin ((o 2 + s * d 2) / l + 1 / 2) := by
    intro s
    unfold Helicoid.ofReal
    simp only [fl, Nat.cast_ofNat, Nat.cast_one]
    rw [div_fin _ hl.ne', div_fin _ (two_ne_zero (α := ℝ)), add_fin]
  have ht : u = (o 2 + t * d 2) / l + 1 / 2 := by rw [hz]; field_simp; ring
  dsimp only
  rw [eu, eu]
  have hmin : min ((o 2 + a * d 2) / l + 1 / 2) ((o 2 + b * d 2) / l + 1 / 2) ≤ u := by
    rw [ht]
    rcases le_total 0 (d 2) with h | h
    · refine (min_le_left _ _).trans ?_
      gcongr
    · refine (min_le_right _ _).trans ?_
      have : b * d 2 ≤ t * d 2 := mul_le_mul_of_nonpos_right htb h
      gcongr
  have hmax : u ≤ max ((o 2 + a * d 2) / l + 1 / 2) ((o 2 + b * d 2) / l + 1 / 2) := by
    rw [ht]
    rcases le_total 0 (d 2) with h | h
    · refine le_trans ?_ (le_max_right _ _)
      gcongr
    · refine le_trans ?_ (le_max_left _ _)
      have : t * d 2 ≤ a * d 2 := mul_le_mul_of_nonpos_right hat h
      gcongr
  generalize (o 2 + a * d 2) / l + 1 / 2 = A at *
  generalize (o 2 + b * d 2) / l + 1 / 2 = B at *
  have hab : (if gt (fin A : Fl F) (fin B) = true then ((fin B, fin A) : Fl F × Fl F) else (fin A, fin B)) =
      (fin (min A B), fin (max A B)) := by
    simp only [gt, lt_fin, decide_eq_true_eq]
    split_ifs with h
    · rw [min_eq_right h.le, max_eq_left h.le]
    · rw [min_eq_left (not_lt.mp h), max_eq_right (not_lt.mp h)]
  rw [hab]
  dsimp only
  rw [ofNat_zero, ofNat_one, max_fin, min_fin, gt, lt_fin, lt_fin]
  have h1 : max 0 (min A B) ≤ u := max_le hu0 hmin
  have h2 : u ≤ min 1 (max A B) := le_min hu1 hmax
  refine ⟨_, _, if_neg ?_, h1, h2, le_max_left _ _, min_le_left _ _⟩
  rw [Bool.or_eq_true, decide_eq_true_eq, decide_eq_true_eq, not_or, not_lt, not_lt]
  exact ⟨h1.trans hu1, hu0.trans h2⟩

/-- C141 (exact arithmetic, partial): for a range without NaN and any intersection in it, `vbounds` returns numbers, the
lower one is right, and for an origin inside the cylinder so is the upper one. For the other origins the upper one is right
if and only if the intersection is not further from the axis than the ray is at either end of the range. Missing: the
upper end when the ray is nearer to the axis at one end, see `C141_miss_false`. -/
theorem C141_vbounds_partial [F.Exact] {ρ l : ℝ} (hρ : 0 < ρ) (o d : Fin 3 → ℝ) (hd : 0 < d 0 * d 0 + d 1 * d 1)
    (a b t u v : ℝ) (hv0 : 0 ≤ v) (hv1 : v ≤ 1) (hp : o + t • d = helPt ρ l u v) (hat : a ≤ t) (htb : t ≤ b) :
    ∃ lo hi : ℝ, (Helicoid.ofReal ρ l : Helicoid (Fl F)).vbounds (cv o) (cv d) (fin a) (fin b) = (fin lo, fin hi) ∧
      lo ≤ v ∧
      ((o 0 * o 0 + o 1 * o 1 < ρ * ρ ∧ |o 2| < l / 2 → v ≤ hi) ∧
        (¬ (o 0 * o 0 + o 1 * o 1 < ρ * ρ ∧ |o 2| < l / 2) → (v ≤ hi ↔
          (ρ * v) ^ 2 ≤ (o 0 + a * d 0) ^ 2 + (o 1 + a * d 1) ^ 2 ∧
          (ρ * v) ^ 2 ≤ (o 0 + b * d 0) ^ 2 + (o 1 + b * d 1) ^ 2))) := by
  obtain ⟨hax, -⟩ := helPt_axis hp
  have hcyl : (Helicoid.ofReal ρ l : Helicoid (Fl F)).inCylinder (cv o) = true ↔
      (o 0 * o 0 + o 1 * o 1 < ρ * ρ ∧ |o 2| < l / 2) := by
    unfold Helicoid.inCylinder Helicoid.ofReal
    simp only [fl, Nat.cast_ofNat, div_fin _ (two_ne_zero (α := ℝ)), gt, Bool.and_eq_true, decide_eq_true_eq, abs_lt]
    constructor
    · rintro ⟨⟨h1, h2⟩, h3⟩; exact ⟨h1, by linarith, h2⟩
    · rintro ⟨h1, h2, h3⟩; exact ⟨⟨h1, h3⟩, by linarith⟩
  unfold Helicoid.vbounds
  by_cases hc : (Helicoid.ofReal ρ l : Helicoid (Fl F)).inCylinder (cv o) = true
  · rw [if_pos hc]
    exact ⟨0, 1, by rw [ofNat_zero, ofNat_one], hv0, fun _ => hv1, fun h => absurd (hcyl.mp hc) h⟩
  rw [if_neg hc]
  have hc' := fun h => hc (hcyl.mpr h)
  have etc : (-((cv o : Vec (Fl F) 3) 0 * cv d 0 + cv o 1 * cv d 1) / (cv d 0 * cv d 0 + cv d 1 * cv d 1) : Fl F) =
      fin (-(o 0 * d 0 + o 1 * d 1) / (d 0 * d 0 + d 1 * d 1)) := by
    simp only [fl]
    rw [div_fin _ hd.ne']
  dsimp only
  rw [etc, Helicoid.axisDist_fin l hρ, Helicoid.axisDist_fin l hρ, Helicoid.axisDist_fin l hρ]
  -- the squared distance as a function of the parameter
  set N : ℝ → ℝ := fun s => (o 0 + s * d 0) ^ 2 + (o 1 + s * d 1) ^ 2 with hN
  have hN0 : ∀ s, 0 ≤ N s := fun s => by rw [hN]; positivity
  set c := -(o 0 * d 0 + o 1 * d 1) / (d 0 * d 0 + d 1 * d 1) with hcdef
  have hcc : c * (d 0 * d 0 + d 1 * d 1) = -(o 0 * d 0 + o 1 * d 1) := by
    rw [hcdef, div_mul_cancel₀ _ hd.ne']
  have hNc : ∀ s, N s = N c + (d 0 * d 0 + d 1 * d 1) * (s - c) ^ 2 := by
    intro s
    simp only [hN]
    clear_value c
    linear_combination (2 * (s - c)) * hcc
  have hvt : v = Real.sqrt (N t) / ρ := by
    rw [show N t = (ρ * v) ^ 2 from hax, Real.sqrt_sq (by positivity)]
    field_simp
  have hmono : ∀ s s', N s ≤ N s' → Real.sqrt (N s) / ρ ≤ Real.sqrt (N s') / ρ := fun s s' h => by gcongr
  have hle : ∀ s, (v ≤ Real.sqrt (N s) / ρ ↔ (ρ * v) ^ 2 ≤ N s) := by
    intro s
    rw [le_div_iff₀ hρ, mul_comm]
    exact Real.le_sqrt (by positivity) (hN0 s)
  have hlo : Real.sqrt (N c) / ρ ≤ v := by
    rw [hvt]
    apply hmono
    rw [hNc t]
    nlinarith [mul_nonneg hd.le (sq_nonneg (t - c))]
  -- the ends are not both above one unless the critical point is inside
  have hnn : ¬ ((lt (fin c : Fl F) (fin a) || gt (fin c : Fl F) (fin b)) = true ∧
      (gt (if lt (if gt (fin (Real.sqrt (N a) / ρ) : Fl F) (fin (Real.sqrt (N b) / ρ)) = true then
        ((fin (Real.sqrt (N b) / ρ), fin (Real.sqrt (N a) / ρ)) : Fl F × Fl F)
        else (fin (Real.sqrt (N a) / ρ), fin (Real.sqrt (N b) / ρ))).1 0 = true then 0 else
        (if gt (fin (Real.sqrt (N a) / ρ) : Fl F) (fin (Real.sqrt (N b) / ρ)) = true then
        ((fin (Real.sqrt (N b) / ρ), fin (Real.sqrt (N a) / ρ)) : Fl F × Fl F)
        else (fin (Real.sqrt (N a) / ρ), fin (Real.sqrt (N b) / ρ))).1) 1 ||
      lt (if gt (if gt (fin (Real.sqrt (N a) / ρ) : Fl F) (fin (Real.sqrt (N b) / ρ)) = true then
        ((fin (Real.sqrt (N b) / ρ), fin (Real.sqrt (N a) / ρ)) : Fl F × Fl F)
        else (fin (Real.sqrt (N a) / ρ), fin (Real.sqrt (N b) / ρ))).2 1 = true then 1 else
        (if gt (fin (Real.sqrt (N a) / ρ) : Fl F) (fin (Real.sqrt (N b) / ρ)) = true then
        ((fin (Real.sqrt (N b) / ρ), fin (Real.sqrt (N a) / ρ)) : Fl F × Fl F)
        else (fin (Real.sqrt (N a) / ρ), fin (Real.sqrt (N b) / ρ))).2) 0) = true) := by
    have hab : (if gt (fin (Real.sqrt (N a) / ρ) : Fl F) (fin (Real.sqrt (N b) / ρ)) = true then
        ((fin (Real.sqrt (N b) / ρ), fin (Real.sqrt (N a) / ρ)) : Fl F × Fl F)
        else (fin (Real.sqrt (N a) / ρ), fin (Real.sqrt (N b) / ρ))) =
        (fin (min (Real.sqrt (N a) / ρ) (Real.sqrt (N b) / ρ)), fin (max (Real.sqrt (N a) / ρ) (Real.sqrt (N b) / ρ))) := by
      simp only [gt, lt_fin, decide_eq_true_eq]
      split_ifs with h
      · rw [min_eq_right h.le, max_eq_left h.le]
      · rw [min_eq_left (not_lt.mp h), max_eq_right (not_lt.mp h)]
    rw [hab]
    have pa : 0 ≤ Real.sqrt (N a) / ρ := by positivity
    have pb : 0 ≤ Real.sqrt (N b) / ρ := by positivity
    rintro ⟨h1, h2⟩
    have hm : min (Real.sqrt (N a) / ρ) (Real.sqrt (N b) / ρ) ≤ 1 := by
      rw [Bool.or_eq_true, gt, lt_fin, lt_fin, decide_eq_true_eq, decide_eq_true_eq] at h1
      rcases h1 with h1 | h1
      · refine (min_le_left _ _).trans ((hmono a t ?_).trans (hvt ▸ hv1))
        rw [hNc a, hNc t]
        have : (a - c) ^ 2 ≤ (t - c) ^ 2 := by nlinarith
        nlinarith
      · refine (min_le_right _ _).trans ((hmono b t ?_).trans (hvt ▸ hv1))
        rw [hNc b, hNc t]
        have : (b - c) ^ 2 ≤ (t - c) ^ 2 := by nlinarith
        nlinarith
    have hmx : 0 ≤ max (Real.sqrt (N a) / ρ) (Real.sqrt (N b) / ρ) := le_max_of_le_left pa
    have hmn : 0 ≤ min (Real.sqrt (N a) / ρ) (Real.sqrt (N b) / ρ) := le_min pa pb
    generalize min (Real.sqrt (N a) / ρ) (Real.sqrt (N b) / ρ) = m at *
    generalize max (Real.sqrt (N a) / ρ) (Real.sqrt (N b) / ρ) = M at *
    simp only [ofNat_zero, ofNat_one, gt, lt_fin, decide_eq_true_eq, not_lt.mpr hmn, if_false] at h2
    by_cases hM : 1 < M
    · simp only [hM, if_true, lt_fin, Bool.or_eq_true, decide_eq_true_eq] at h2
      rcases h2 with h2 | h2 <;> linarith
    · simp only [hM, if_false, lt_fin, Bool.or_eq_true, decide_eq_true_eq] at h2
      rcases h2 with h2 | h2 <;> linarith
  rw [← Bool.and_eq_true] at hnn
  rw [if_neg hnn, lt_fin]
  split_ifs with h
  · refine ⟨_, _, rfl, hlo, fun h => absurd h hc', fun _ => ?_⟩
    rw [decide_eq_true_eq] at h
    rw [← show N a = (o 0 + a * d 0) ^ 2 + (o 1 + a * d 1) ^ 2 from rfl, ← show N b = (o 0 + b * d 0) ^ 2 + (o 1 + b * d 1) ^ 2 from rfl,
      ← hle a, ← hle b]
    exact ⟨fun g => ⟨g, g.trans h.le⟩, fun g => g.1⟩
  · refine ⟨_, _, rfl, hlo, fun h => absurd h hc', fun _ => ?_⟩
    rw [decide_eq_true_eq, not_lt] at h
    rw [← show N a = (o 0 + a * d 0) ^ 2 + (o 1 + a * d 1) ^ 2 from rfl, ← show N b = (o 0 + b * d 0) ^ 2 + (o 1 + b * d 1) ^ 2 from rfl,
      ← hle a, ← hle b]
    exact ⟨fun g => ⟨g.trans h, g⟩, fun g => g.2⟩

/-- A slanted ray whose clipped range and whose bounds on `v` are real: if the Jacobian is nonsingular over the window and
its lower left entry is zero or above `eps²`, `hit` returns and every hit it reports is in the window. -/
theorem Helicoid.slanted [F.Exact] {ρ l : ℝ} (hρ : 0 < ρ) (hl : 0 < l) (o d : Fin 3 → ℝ)
    (ha : F.tiny < d 0 * d 0 + d 1 * d 1) (hd : F.tiny < |d 2|) (tmin tmax : Fl F) (a q lo hi : ℝ) (haq : a ≤ q)
    (hlh : lo ≤ hi * (1 - 1000 * F.eps)) (hhi : 0 ≤ hi)
    (hclip : (Helicoid.ofReal ρ l : Helicoid (Fl F)).clip ⟨cv o, cv d⟩ tmin tmax = some (fin a, fin q))
    (hvb : (Helicoid.ofReal ρ l : Helicoid (Fl F)).vbounds (cv o) (cv d) (fin a) (fin q) = (fin lo, fin hi))
    (hJ : ∀ t v, a ≤ t → t ≤ q → lo ≤ v → v ≤ hi →
      d 0 * Real.sin (2 * Real.pi / l * (o 2 + t * d 2)) - d 1 * Real.cos (2 * Real.pi / l * (o 2 + t * d 2)) ≠
        2 * Real.pi / l * d 2 * (v * ρ) ∧
      (d 1 + 2 * Real.pi / l * d 2 * (v * (ρ * Real.cos (2 * Real.pi / l * (o 2 + t * d 2)))) = 0 ∨
        F.eps * F.eps < |d 1 + 2 * Real.pi / l * d 2 * (v * (ρ * Real.cos (2 * Real.pi / l * (o 2 + t * d 2))))|))
    (junk : Fl F) (rec : HitRecord (Fl F)) :
    ∃ res, (Helicoid.ofReal ρ l : Helicoid (Fl F)).hit junk ⟨cv o, cv d⟩ tmin tmax rec = some res ∧
      (res.1 = true → ∃ t v : ℝ, a ≤ t ∧ t ≤ q ∧ lo ≤ v ∧ v ≤ hi ∧ res.2.t = fin t ∧
        res.2.v = Scalar.clamp (fin v) 0 1) := by
  have he0 : 0 < F.eps := Fmt.Exact.eps_pos
  have hg2 : hi * (1 - 1000 * F.eps) ≤ hi := by nlinarith
  unfold Helicoid.hit
  rw [hclip]
  dsimp only
  obtain ⟨out, hout, hx⟩ := C23_newton2_partial (F := F) ((Helicoid.ofReal ρ l : Helicoid (Fl F)).objective (cv o) (cv d))
    _ _ ![a, lo] ![q, hi] (fun i => by fin_cases i; exacts [haq, hlh.trans hg2])
    (fun x _ => Helicoid.objective_fin ρ hl o d x)
    (fun x hx => by
      obtain ⟨h1, h2⟩ := hJ (x 0) (x 1) (hx 0).1 (hx 0).2 (hx 1).1 (hx 1).2
      have t := Real.sin_sq_add_cos_sq (2 * Real.pi / l * (o 2 + x 0 * d 2))
      refine ⟨fun hdet => h1 ?_, by simpa using h2⟩
      rw [Matrix.det_fin_two_of] at hdet
      have : ρ * (d 0 * Real.sin (2 * Real.pi / l * (o 2 + x 0 * d 2)) - d 1 * Real.cos (2 * Real.pi / l * (o 2 + x 0 * d 2)) -
        2 * Real.pi / l * d 2 * (x 1 * ρ)) = 0 := by
        linear_combination hdet + (2 * Real.pi / l * d 2 * (x 1 * ρ)) * ρ * t
      have := (mul_eq_zero.mp this).resolve_left hρ.ne'
      linarith)
    ⟨1235123#64, 234121#64⟩ ![a, hi * (1 - 1000 * F.eps)]
    (fun i => by fin_cases i; exacts [⟨le_rfl, haq⟩, ⟨hlh, hg2⟩]) 16
  have hcomp : (Helicoid.ofReal ρ l : Helicoid (Fl F)).computeTUV (cv o) (cv d) (fin a) (fin q) =
      some (Helicoid.clampTUV (out.x 0, (cv o 2 + out.x 0 * cv d 2) / (Helicoid.ofReal ρ l : Helicoid (Fl F)).speed +
        lit (1 / 2), out.x 1)) := by
    unfold Helicoid.computeTUV
    have ea : (cv d 0 * cv d 0 + cv d 1 * cv d 1 : Fl F) = fin (d 0 * d 0 + d 1 * d 1) := by simp only [fl]
    rw [if_neg (by rw [tiny_def, cv_apply, abs_fin, le_fin]; simpa using hd), ea,
      if_neg (by rw [tiny_def, le_fin]; simpa using ha), hvb]
    have hg : (![fin a, fin hi * (1 - 1000 * eps)] : Vec (Fl F) 2) = cv ![a, hi * (1 - 1000 * F.eps)] := by
      funext i
      fin_cases i <;> simp [fl]
    have hb : Bounds.init (R := Fl F) ![(fin a, fin q), (fin lo, fin hi)] =
        some (Bounds.ofReal ![a, lo] ![q, hi] ⟨1235123#64, 234121#64⟩) := by
      unfold Bounds.init
      rw [if_pos (Or.inl rfl)]
      unfold Bounds.ofReal
      congr 2
      funext i
      fin_cases i <;> simp
    dsimp only
    rw [hb, hg]
    simp only [Option.bind_eq_bind, Option.bind_some, hout]
    rfl
  rw [hcomp, Option.map_some]
  refine ⟨_, rfl, fun h => ?_⟩
  obtain ⟨a1, -, a3, a4, -⟩ := C69_any_solver _ _ _ _ _ _ (Prod.ext h rfl)
  rw [a1] at a4
  rw [a1, a3]
  rcases hx with hx | ⟨z, hx, hz⟩
  · rw [hx] at a4
    exact absurd a4 (by simp [Helicoid.clampTUV, Vec.nans])
  · exact ⟨z 0, z 1, (hz 0).1, (hz 0).2, (hz 1).1, (hz 1).2, by rw [hx]; rfl, by rw [hx]; rfl⟩

namespace Helicoid.Miss

/-- The Jacobian along the ray of `C141_miss_false`. -/
theorem angle {t : ℝ} (h0 : 0 ≤ t) (h1 : t ≤ 3 / 2) :
    Real.cos (2 * Real.pi / 8 * (17 / 4 + t * (-5 / 4))) < 0 ∧
    0 < 2 * Real.sin (2 * Real.pi / 8 * (17 / 4 + t * (-5 / 4))) - Real.cos (2 * Real.pi / 8 * (17 / 4 + t * (-5 / 4))) := by
  have hp := Real.pi_gt_three
  have hp' := Real.pi_lt_d2
  have a1 : Real.pi / 2 < 2 * Real.pi / 8 * (17 / 4 + t * (-5 / 4)) := by nlinarith
  have a2 : 2 * Real.pi / 8 * (17 / 4 + t * (-5 / 4)) ≤ Real.pi + 1 / 5 := by nlinarith
  generalize 2 * Real.pi / 8 * (17 / 4 + t * (-5 / 4)) = θ at a1 a2
  have hc : Real.cos θ < 0 := Real.cos_neg_of_pi_div_two_lt_of_lt a1 (by linarith)
  refine ⟨hc, ?_⟩
  rcases le_total θ Real.pi with h | h
  · have := Real.sin_nonneg_of_nonneg_of_le_pi (by linarith) h
    linarith
  · have e1 : Real.sin θ = -Real.sin (θ - Real.pi) := by rw [Real.sin_sub_pi]; ring
    have e2 : Real.cos θ = -Real.cos (θ - Real.pi) := by rw [Real.cos_sub_pi]; ring
    have b1 := Real.sin_le (show 0 ≤ θ - Real.pi by linarith)
    have b2 := Real.one_sub_sq_div_two_le_cos (x := θ - Real.pi)
    rw [e1, e2]
    nlinarith

/-- No point of the window is near the ray of `C141_miss_false` once the ray is below the top of the surface. -/
theorem far {t v c s : ℝ} (ht : 19 / 100 ≤ t) (v0 : 0 ≤ v) (v1 : v ≤ 1) (hv : (10 * v) ^ 2 ≤ 65) (sc : s ^ 2 + c ^ 2 = 1)
    (hc : |c| ≤ 1) (hs : |s| ≤ 1) (k0 : |4 + t * 2 - 10 * v * c| ≤ 1 / 1000) (k1 : |-7 + t * 1 - 10 * v * s| ≤ 1 / 1000) : False := by
  have e : (4 + t * 2) ^ 2 + (-7 + t * 1) ^ 2 = (10 * v) ^ 2 * (s ^ 2 + c ^ 2) +
      20 * (v * ((4 + t * 2 - 10 * v * c) * c + (-7 + t * 1 - 10 * v * s) * s)) +
      (4 + t * 2 - 10 * v * c) ^ 2 + (-7 + t * 1 - 10 * v * s) ^ 2 := by ring
  generalize 4 + t * 2 - 10 * v * c = a at *
  generalize -7 + t * 1 - 10 * v * s = b at *
  have q : ∀ x y : ℝ, |x| ≤ 1 / 1000 → |y| ≤ 1 → x * y ≤ 1 / 1000 := fun x y hx hy =>
    (le_abs_self _).trans (by rw [abs_mul]; nlinarith [abs_nonneg x, abs_nonneg y])
  have q1 := q a c k0 hc
  have q2 := q b s k1 hs
  have q3 := q a a k0 (by linarith)
  have q4 := q b b k1 (by linarith)
  have q6 : v * (a * c + b * s) ≤ 2 / 1000 := by nlinarith
  rw [sc, sq a, sq b] at e
  nlinarith

theorem on : (![4, -7, 17 / 4] + (1 : ℝ) • ![2, 1, -5 / 4] : Fin 3 → ℝ) = helPt 10 8 (7 / 8) (3 * Real.sqrt 2 / 5) := by
  have s2 : Real.sqrt 2 * Real.sqrt 2 = 2 := Real.mul_self_sqrt (by norm_num)
  have ec : Real.cos (2 * Real.pi * (7 / 8)) = Real.sqrt 2 / 2 := by
    rw [show 2 * Real.pi * (7 / 8) = 2 * Real.pi - Real.pi / 4 by ring, Real.cos_two_pi_sub, Real.cos_pi_div_four]
  have es : Real.sin (2 * Real.pi * (7 / 8)) = -(Real.sqrt 2 / 2) := by
    rw [show 2 * Real.pi * (7 / 8) = 2 * Real.pi - Real.pi / 4 by ring, Real.sin_two_pi_sub, Real.sin_pi_div_four]
  funext i
  fin_cases i
  · simp [helPt, ec]; nlinarith
  · simp [helPt, es]; nlinarith
  · simp [helPt]; norm_num

theorem clip [F.Exact] : ∃ q : ℝ, 0 < q ∧ q ≤ 3 / 2 ∧
    (Helicoid.ofReal 10 8 : Helicoid (Fl F)).clip ⟨cv ![4, -7, 17 / 4], cv ![2, 1, -5 / 4]⟩ (fin 0) (fin (3 / 2)) =
      some (fin 0, fin q) := by
  have ht0 : (0 : ℝ) ≤ F.tiny := Fmt.Exact.tiny_nonneg
  have ht1 : F.tiny < 1 := Fmt.Exact.tiny_lt
  have s2 : Real.sqrt 2 * Real.sqrt 2 = 2 := Real.mul_self_sqrt (by norm_num)
  have s0 : 0 ≤ Real.sqrt 2 := Real.sqrt_nonneg 2
  obtain ⟨x, y, hroots, hx, hy⟩ := quadraticRoots_straddle (F := F) 5 2 (-35) (by linarith) (by norm_num)
  have hq0 : 0 < min (3 / 2) y := lt_min (by norm_num) hy
  have hq1 : min (3 / 2) y ≤ 3 / 2 := min_le_left _ _
  have hcl : (Helicoid.ofReal 10 8 : Helicoid (Fl F)).clip ⟨cv ![4, -7, 17 / 4], cv ![2, 1, -5 / 4]⟩ (fin 0) (fin (3 / 2)) = none ∨
      (Helicoid.ofReal 10 8 : Helicoid (Fl F)).clip ⟨cv ![4, -7, 17 / 4], cv ![2, 1, -5 / 4]⟩ (fin 0) (fin (3 / 2)) =
      some (fin 0, fin (min (3 / 2) y)) := by
    unfold Helicoid.clip
    dsimp only
    have ea : (cv ![2, 1, -5 / 4] 0 * cv ![2, 1, -5 / 4] 0 + cv ![2, 1, -5 / 4] 1 * cv ![2, 1, -5 / 4] 1 : Fl F) = fin 5 := by
      simp [fl]; norm_num
    have e1 : (2 * (cv ![4, -7, 17 / 4] 0 * cv ![2, 1, -5 / 4] 0 + cv ![4, -7, 17 / 4] 1 * cv ![2, 1, -5 / 4] 1) : Fl F) =
        fin 2 := by
      simp [fl]; norm_num
    have e2 : (cv ![4, -7, 17 / 4] 0 * cv ![4, -7, 17 / 4] 0 + cv ![4, -7, 17 / 4] 1 * cv ![4, -7, 17 / 4] 1 -
        (Helicoid.ofReal 10 8 : Helicoid (Fl F)).radius * (Helicoid.ofReal 10 8 : Helicoid (Fl F)).radius : Fl F) = fin (-35) := by
      unfold Helicoid.ofReal
      simp [fl]; norm_num
    rw [ea, if_pos (by rw [tiny_def, gt, lt_fin, decide_eq_true_eq]; linarith), e1, e2, hroots]
    dsimp only
    rw [lt_fin, if_neg (by rw [decide_eq_true_eq, not_lt]; exact hy.le), max_fin, min_fin, max_eq_left hx.le]
    split_ifs
    · exact Or.inl rfl
    · exact Or.inl rfl
    · exact Or.inr rfl
  have hclip := hcl.resolve_left (by
    obtain ⟨a, b, h, -⟩ := C141_clip (F := F) (ρ := 10) (by norm_num : (0 : ℝ) < 8) ![4, -7, 17 / 4] ![2, 1, -5 / 4]
      (Or.inr (Or.inr (by simp; norm_num; linarith))) (fin 0) (fin (3 / 2)) 1 (7 / 8) (3 * Real.sqrt 2 / 5)
      (by norm_num) (by norm_num) (by positivity) (by nlinarith) on ⟨by simp, by simp; norm_num⟩
    rw [h]; simp)
  exact ⟨_, hq0, hq1, hclip⟩

theorem window [F.Exact] {q : ℝ} (hq0 : 0 < q) :
    (Helicoid.ofReal 10 8 : Helicoid (Fl F)).vbounds (cv ![4, -7, 17 / 4]) (cv ![2, 1, -5 / 4]) (fin 0) (fin q) =
      (fin (Real.sqrt (324 / 5) / 10), fin (Real.sqrt 65 / 10)) := by
  have hdist : ∀ t : ℝ, (Helicoid.ofReal 10 8 : Helicoid (Fl F)).axisDist (cv ![4, -7, 17 / 4]) (cv ![2, 1, -5 / 4]) (fin t) =
      fin (Real.sqrt (65 + 2 * t + 5 * t ^ 2) / 10) := by
    intro t
    rw [Helicoid.axisDist_fin 8 (by norm_num : (0 : ℝ) < 10), fin_inj]
    simp only [cons_val]
    congr 2
    ring
  unfold Helicoid.vbounds
  rw [if_neg (by unfold Helicoid.inCylinder Helicoid.ofReal; simp [fl, div_fin _ (two_ne_zero (α := ℝ))]; norm_num)]
  dsimp only
  have etc : (-((cv ![4, -7, 17 / 4] : Vec (Fl F) 3) 0 * cv ![2, 1, -5 / 4] 0 + cv ![4, -7, 17 / 4] 1 * cv ![2, 1, -5 / 4] 1) /
      (cv ![2, 1, -5 / 4] 0 * cv ![2, 1, -5 / 4] 0 + cv ![2, 1, -5 / 4] 1 * cv ![2, 1, -5 / 4] 1) : Fl F) = fin (-1 / 5) := by
    simp only [fl, cons_val]
    rw [div_fin _ (by norm_num)]
    norm_num
  rw [etc, hdist, hdist, hdist]
  have h65 : Real.sqrt (65 + 2 * 0 + 5 * 0 ^ 2) < Real.sqrt (65 + 2 * q + 5 * q ^ 2) :=
    Real.sqrt_lt_sqrt (by norm_num) (by nlinarith)
  have h1 : Real.sqrt 65 / 10 ≤ 1 := by
    rw [div_le_one (by norm_num)]
    exact Real.sqrt_le_iff.mpr ⟨by norm_num, by norm_num⟩
  rw [show (65 + 2 * 0 + 5 * 0 ^ 2 : ℝ) = 65 by norm_num] at h65 ⊢
  rw [show (65 + 2 * (-1 / 5) + 5 * (-1 / 5) ^ 2 : ℝ) = 324 / 5 by norm_num]
  have hlt : Real.sqrt 65 / 10 < Real.sqrt (65 + 2 * q + 5 * q ^ 2) / 10 := by linarith
  have h0 : 0 ≤ Real.sqrt 65 / 10 := by positivity
  generalize Real.sqrt 65 / 10 = A at *
  generalize Real.sqrt (65 + 2 * q + 5 * q ^ 2) / 10 = B at *
  have hB : ¬ ((lt (if gt (fin B : Fl F) 1 = true then 1 else fin B : Fl F) 0) = true) := by
    simp only [ofNat_zero, ofNat_one, gt, lt_fin, decide_eq_true_eq]
    split_ifs
    · simp
    · simp; linarith
  simp only [gt, lt_fin, decide_eq_true_eq, not_lt.mpr hlt.le, hlt, if_false, if_true, ofNat_zero, ofNat_one] at hB ⊢
  rw [if_neg]
  rw [Bool.and_eq_true, Bool.or_eq_true, Bool.or_eq_true, not_and_or, not_or, not_or]
  right
  refine ⟨?_, hB⟩
  rw [if_neg (not_lt.mpr h0), lt_fin, decide_eq_true_eq, not_lt]
  exact h1

theorem scale {t u v : ℝ} (k : Fin 3) (t0 : 0 ≤ t) (t1 : t ≤ 3 / 2) (u0 : 0 ≤ u) (u1 : u ≤ 1) (v0' : 0 ≤ v) (v1' : v ≤ 1) :
    helScale 10 8 ![2, 1, -5 / 4] t u v k ≤ 80 := by
  have hp := Real.pi_pos
  have hp' := Real.pi_lt_d2
  have c1 := Real.abs_cos_le_one (2 * Real.pi * u)
  have c2 := Real.abs_sin_le_one (2 * Real.pi * u)
  have b1 : Real.pi * v ≤ 3.15 := by nlinarith
  have b0 : 0 ≤ Real.pi * v := by positivity
  have key : ∀ w : ℝ, |w| ≤ 1 → |Real.pi * v * w * u| ≤ 3.15 := by
    intro w hw
    rw [abs_mul, abs_mul, abs_of_nonneg b0, abs_of_nonneg u0]
    have : Real.pi * v * |w| ≤ 3.15 := by nlinarith [abs_nonneg w]
    nlinarith [mul_nonneg b0 (abs_nonneg w)]
  have key2 : ∀ w : ℝ, |w| ≤ 1 → |w * v| ≤ 1 := by
    intro w hw
    rw [abs_mul, abs_of_nonneg v0']
    nlinarith [abs_nonneg w]
  have e0 : ∀ w : ℝ, |-2 * Real.pi * (10 * v * w) * u| = 20 * |Real.pi * v * w * u| := by
    intro w
    rw [show -2 * Real.pi * (10 * v * w) * u = -20 * (Real.pi * v * w * u) by ring, abs_mul, abs_of_neg (by norm_num)]
    norm_num
  have e1 : ∀ w : ℝ, |2 * Real.pi * (10 * v * w) * u| = 20 * |Real.pi * v * w * u| := by
    intro w
    rw [show 2 * Real.pi * (10 * v * w) * u = 20 * (Real.pi * v * w * u) by ring, abs_mul, abs_of_pos (by norm_num)]
  have e2 : ∀ w : ℝ, |10 * w * v| = 10 * |w * v| := by
    intro w
    rw [show 10 * w * v = 10 * (w * v) by ring, abs_mul, abs_of_pos (by norm_num)]
  unfold helScale helU helV
  fin_cases k
  · simp only [Fin.zero_eta, cons_val]
    rw [e0, e2, abs_of_nonneg (by linarith : 0 ≤ t * 2)]
    linarith [key _ c2, key2 _ c1]
  · simp only [Fin.mk_one, cons_val]
    rw [e1, e2, abs_of_nonneg (by linarith : 0 ≤ t * 1)]
    linarith [key _ c1, key2 _ c2]
  · simp only [Fin.reduceFinMk, cons_val]
    rw [abs_of_nonpos (by linarith : t * (-5 / 4) ≤ 0), abs_of_nonneg (by linarith : 0 ≤ 8 * u), zero_mul, abs_zero]
    linarith

end Helicoid.Miss

/-- C141 fails: the upper end of `vbounds` is the smaller of the distances from the axis at the two ends of the range. For
radius 10 and speed 8, the ray from `(4, -7, 17/4)` along `(2, 1, -5/4)` meets the surface at parameter 1, well inside the
range `[0, 3/2]`, but `hit` reports a miss because the ray starts nearer to the axis. -/
theorem C141_miss_false [F.Exact] (heps : F.eps ≤ 1 / 1000000) (junk : Fl F) (rec : HitRecord (Fl F)) :
    (![4, -7, 17 / 4] + (1 : ℝ) • ![2, 1, -5 / 4] : Fin 3 → ℝ) = helPt 10 8 (7 / 8) (3 * Real.sqrt 2 / 5) ∧
    3 * Real.sqrt 2 / 5 ≤ 1 ∧
    ∃ rec', (Helicoid.ofReal 10 8 : Helicoid (Fl F)).hit junk ⟨cv ![4, -7, 17 / 4], cv ![2, 1, -5 / 4]⟩ (fin 0) (fin (3 / 2)) rec =
      some (false, rec') := by
  have ht0 : (0 : ℝ) ≤ F.tiny := Fmt.Exact.tiny_nonneg
  have ht1 : F.tiny < 1 := Fmt.Exact.tiny_lt
  have he0 : 0 < F.eps := Fmt.Exact.eps_pos
  have s2 : Real.sqrt 2 * Real.sqrt 2 = 2 := Real.mul_self_sqrt (by norm_num)
  have s0 : 0 ≤ Real.sqrt 2 := Real.sqrt_nonneg 2
  have hon := Helicoid.Miss.on
  refine ⟨hon, by nlinarith, ?_⟩
  obtain ⟨q, hq0, hq1, hclip⟩ := Helicoid.Miss.clip (F := F)
  have hvb := Helicoid.Miss.window (F := F) hq0
  have hV1 : Real.sqrt 65 ≤ 9 := Real.sqrt_le_iff.mpr ⟨by norm_num, by norm_num⟩
  have hV0 : 0 ≤ Real.sqrt 65 := Real.sqrt_nonneg _
  have hV : Real.sqrt 65 * Real.sqrt 65 = 65 := Real.mul_self_sqrt (by norm_num)
  have hlo : Real.sqrt (324 / 5) / 10 ≤ Real.sqrt 65 / 10 * (1 - 1000 * F.eps) := by
    have h1 : Real.sqrt (324 / 5) ≤ Real.sqrt 65 * (999 / 1000) :=
      Real.sqrt_le_iff.mpr ⟨by positivity, by nlinarith⟩
    nlinarith
  obtain ⟨res, hres, hw⟩ := Helicoid.slanted (F := F) (by norm_num : (0 : ℝ) < 10) (by norm_num : (0 : ℝ) < 8)
    ![4, -7, 17 / 4] ![2, 1, -5 / 4] (by simp; norm_num; linarith) (by simp; rw [abs_of_neg (by norm_num)]; linarith)
    (fin 0) (fin (3 / 2)) 0 q _ _ hq0.le hlo (by positivity) hclip hvb (by
      intro t v h1 h2 h3 h4
      obtain ⟨a1, a2⟩ := Helicoid.Miss.angle h1 (h2.trans hq1)
      have hv : 0 ≤ v := le_trans (by positivity) h3
      have hp := Real.pi_pos
      simp only [cons_val]
      generalize Real.cos (2 * Real.pi / 8 * (17 / 4 + t * (-5 / 4))) = c at a1 a2
      generalize Real.sin (2 * Real.pi / 8 * (17 / 4 + t * (-5 / 4))) = s at a2
      have m1 : 0 ≤ Real.pi * v := by positivity
      have m2 : 0 ≤ Real.pi * v * (-c) := mul_nonneg m1 (by linarith)
      refine ⟨by intro hh; nlinarith, Or.inr ?_⟩
      rw [abs_of_pos (by nlinarith)]
      nlinarith) junk rec
  rcases hb : res.1 with _ | _
  · exact ⟨res.2, by rw [hres, ← hb]⟩
  exfalso
  obtain ⟨t, v, t0, t1, v0, v1, et, ev⟩ := hw hb
  obtain ⟨t', u, v', et', eu', ev', u0, u1, v0', v1', -, ⟨k, hk⟩, -⟩ := C69_distance_partial (F := F)
    (by norm_num : (0 : ℝ) < 10) (by norm_num : (0 : ℝ) < 8) ![4, -7, 17 / 4] ![2, 1, -5 / 4]
    (Or.inl (by simp; norm_num; linarith)) junk (fin 0) (fin (3 / 2)) rec res.2 (by simp) (by simp) (by simp)
    (by rw [hres, ← hb])
  obtain rfl : t = t' := by rw [et, fin_inj] at et'; exact et'
  obtain rfl : v = v' := by
    obtain ⟨z, hz, -, -, hz'⟩ := clamp01_fin (F := F) v
    rw [ev, hz, fin_inj] at ev'
    rw [← ev', hz' (le_trans (by positivity) v0) (v1.trans (by linarith))]
  have hp := Real.pi_pos
  have hp' := Real.pi_lt_d2
  have hsc := Helicoid.Miss.scale k t0 (t1.trans hq1) u0 u1 v0' v1'
  have hD : 10 * F.eps * helScale 10 8 ![2, 1, -5 / 4] t u v k ≤ 1 / 1000 := by
    have : helScale 10 8 ![2, 1, -5 / 4] t u v k * F.eps ≤ 80 * F.eps := by gcongr
    linarith
  have k0 := (hk 0).trans hD
  have k1 := (hk 1).trans hD
  have k2 := (hk 2).trans hD
  simp only [Pi.add_apply, Pi.smul_apply, smul_eq_mul, helPt, cons_val] at k0 k1 k2
  have sc := Real.sin_sq_add_cos_sq (2 * Real.pi * u)
  have c1 := Real.abs_cos_le_one (2 * Real.pi * u)
  have c2 := Real.abs_sin_le_one (2 * Real.pi * u)
  generalize Real.cos (2 * Real.pi * u) = c at *
  generalize Real.sin (2 * Real.pi * u) = s at *
  rw [abs_le] at k0 k1 k2
  have ht : 19 / 100 ≤ t := by linarith [k2.2]
  exact Helicoid.Miss.far ht v0' v1' (by nlinarith) sc c1 c2 (abs_le.mpr k0) (abs_le.mpr k1)

/-- `C141_clip`, `C141_ubounds` and `C141_vbounds_partial` apply to the ray of `C141_miss_false`. The last then says that the
upper end of the window is below the coordinate of the intersection. -/
example : (∃ a b : Fl exact64, (Helicoid.ofReal 10 8 : Helicoid (Fl exact64)).clip ⟨cv ![4, -7, 17 / 4], cv ![2, 1, -5 / 4]⟩
      (fin 0) pinf = some (a, b) ∧ InRange (a, b) 1) ∧
    (∃ lo hi : ℝ, (Helicoid.ofReal 10 8 : Helicoid (Fl exact64)).ubounds (cv ![4, -7, 17 / 4]) (cv ![2, 1, -5 / 4])
      (fin 0) (fin 2) = (fin lo, fin hi) ∧ lo ≤ 7 / 8 ∧ 7 / 8 ≤ hi ∧ 0 ≤ lo ∧ hi ≤ 1) ∧
    ∃ lo hi : ℝ, (Helicoid.ofReal 10 8 : Helicoid (Fl exact64)).vbounds (cv ![4, -7, 17 / 4]) (cv ![2, 1, -5 / 4])
      (fin 0) (fin 2) = (fin lo, fin hi) ∧ lo ≤ 3 * Real.sqrt 2 / 5 ∧ hi < 3 * Real.sqrt 2 / 5 := by
  have ht1 : exact64.tiny < 1 := Fmt.Exact.tiny_lt
  have s2 : Real.sqrt 2 * Real.sqrt 2 = 2 := Real.mul_self_sqrt (by norm_num)
  have s0 : 0 ≤ Real.sqrt 2 := Real.sqrt_nonneg 2
  refine ⟨?_, ?_, ?_⟩
  · exact C141_clip (F := exact64) (by norm_num) _ _ (Or.inr (Or.inr (by simp; norm_num; linarith))) _ _ 1 (7 / 8) _ (by norm_num)
      (by norm_num) (by positivity) (by nlinarith) Helicoid.Miss.on ⟨by simp, by simp⟩
  · exact C141_ubounds (F := exact64) (by norm_num) _ _ 0 2 1 (7 / 8) _ (by norm_num) (by norm_num) Helicoid.Miss.on (by norm_num)
      (by norm_num)
  · obtain ⟨lo, hi, e, h1, -, h2⟩ := C141_vbounds_partial (F := exact64) (by norm_num) _ _ (by simp; norm_num) 0 2 1 (7 / 8) _
      (by positivity) (by nlinarith) Helicoid.Miss.on (by norm_num) (by norm_num)
    refine ⟨lo, hi, e, h1, not_le.mp fun h => ?_⟩
    have := ((h2 (by simp; norm_num)).mp h).1
    simp at this
    nlinarith

/-- For an origin inside the cylinder both ends are right: radius 1, speed 2, from the origin along `(0, 1, 1)`. -/
example : ∃ lo hi : ℝ, (Helicoid.ofReal 1 2 : Helicoid (Fl exact64)).vbounds (cv ![0, 0, 0]) (cv ![0, 1, 1])
      (fin 0) (fin 1) = (fin lo, fin hi) ∧ lo ≤ 0 ∧ 0 ≤ hi := by
  obtain ⟨lo, hi, e, h1, h2, -⟩ := C141_vbounds_partial (F := exact64) (l := 2) one_pos ![0, 0, 0] ![0, 1, 1] (by simp) 0 1 0 (1 / 2) 0
    le_rfl zero_le_one (by ext i; fin_cases i <;> simp [helPt]) le_rfl zero_le_one
  exact ⟨lo, hi, e, h1, h2 (by simp)⟩

/-- `C141_miss_false` is not vacuous: exact64 has a small enough `eps`. -/
example (junk : Fl exact64) (rec : HitRecord (Fl exact64)) :
    ∃ rec', (Helicoid.ofReal 10 8 : Helicoid (Fl exact64)).hit junk ⟨cv ![4, -7, 17 / 4], cv ![2, 1, -5 / 4]⟩ (fin 0) (fin (3 / 2)) rec =
      some (false, rec') :=
  (C141_miss_false (F := exact64) (by unfold exact64; norm_num) junk rec).2.2

end DRT
