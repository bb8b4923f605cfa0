import Verif.Model.Cylinder
import Verif.Lemmas.Surface
import Verif.Lemmas.Angle
import Verif.Props.HitRecord
import Verif.Props.Aabb

/-! # C64-C66: cylinders -/

namespace DRT
open Scalar Fl Matrix

variable {F : Fmt}

/-- The cylinder of radius `r` around the z axis between the heights `z0` and `z1`, as a set of points. -/
def cylinderSet (r z0 z1 : ℝ) : Set (Fin 3 → ℝ) := {p | p 0 ^ 2 + p 1 ^ 2 = r ^ 2 ∧ z0 ≤ p 2 ∧ p 2 ≤ z1}

namespace Cylinder

/-- The model object with real members. -/
def ofReal (r z0 z1 : ℝ) : Cylinder (Fl F) := ⟨fin r, fin z0, fin z1⟩

theorem finish_eq {R : Type} [Scalar R] (s : Cylinder R) (r : Ray R) (rec : HitRecord R) :
    s.finish r rec = if Scalar.gt (Scalar.abs (s.residual rec.p)) (s.expectedResidual rec.p) then (false, s.complete r rec)
      else (true, s.complete r rec) := rfl

theorem finish_snd {R : Type} [Scalar R] (s : Cylinder R) (r : Ray R) (rec : HitRecord R) :
    (s.finish r rec).2 = s.complete r rec := by
  rw [finish_eq]; split_ifs <;> rfl

theorem finish_tp {R : Type} [Scalar R] (s : Cylinder R) (r : Ray R) (rec : HitRecord R) :
    (s.finish r rec).2.t = rec.t ∧ (s.finish r rec).2.p = rec.p := by
  rw [finish_snd]; exact ⟨rfl, rfl⟩

/-- The residual test passes for a point on the infinite cylinder. -/
theorem finish_true [F.Exact] (r z0 z1 : ℝ) (ry : Ray (Fl F)) (rec : HitRecord (Fl F)) {p : Fin 3 → ℝ} (hp : rec.p = cv p)
    (h : p 0 ^ 2 + p 1 ^ 2 = r ^ 2) : ((ofReal r z0 z1).finish ry rec).1 = true := by
  have he := Fmt.Exact.eps_pos (F := F)
  have e : Scalar.gt (Scalar.abs ((ofReal r z0 z1).residual rec.p)) ((ofReal r z0 z1).expectedResidual rec.p) = false := by
    rw [hp]
    unfold residual expectedResidual ofReal
    simp only [fl, Scalar.gt, Nat.cast_ofNat]
    rw [show p 0 * p 0 + p 1 * p 1 - r * r = 0 by linarith, abs_zero]
    have : 0 ≤ 20 * F.eps * r * r := by
      rw [mul_assoc (20 * F.eps)]
      exact mul_nonneg (by linarith) (mul_self_nonneg r)
    simpa using this
  rw [finish_eq, e]; rfl

/-- The test fails for a point far from the cylinder. -/
theorem finish_false [F.Exact] (r z0 z1 : ℝ) (ry : Ray (Fl F)) (rec : HitRecord (Fl F)) {p : Fin 3 → ℝ} (hp : rec.p = cv p)
    (h : 20 * r ^ 2 ≤ |p 0 ^ 2 + p 1 ^ 2 - r ^ 2|) (hr : r ≠ 0) : ((ofReal r z0 z1).finish ry rec).1 = false := by
  have he := Fmt.Exact.eps_lt (F := F)
  have e : Scalar.gt (Scalar.abs ((ofReal r z0 z1).residual rec.p)) ((ofReal r z0 z1).expectedResidual rec.p) = true := by
    rw [hp]
    unfold residual expectedResidual ofReal
    simp only [fl, Scalar.gt, Nat.cast_ofNat]
    rw [show p 0 * p 0 + p 1 * p 1 - r * r = p 0 ^ 2 + p 1 ^ 2 - r ^ 2 by ring]
    have : 20 * F.eps * r * r < 20 * r ^ 2 := by nlinarith [pow_pos (abs_pos.mpr hr) 2, sq_abs r]
    simpa using lt_of_lt_of_le this h
  rw [finish_eq, e]; rfl

/-- The coefficients of the quadratic along the ray. -/
theorem coeffs [F.Exact] (r : ℝ) (o d : Fin 3 → ℝ) :
    ((fin (d 0) : Fl F) * fin (d 0) + fin (d 1) * fin (d 1) = fin (d 0 ^ 2 + d 1 ^ 2)) ∧
    ((2 : Fl F) * (fin (o 0) * fin (d 0) + fin (o 1) * fin (d 1)) = fin (2 * (o 0 * d 0 + o 1 * d 1))) ∧
    ((fin (o 0) : Fl F) * fin (o 0) + fin (o 1) * fin (o 1) - fin r * fin r = fin (o 0 ^ 2 + o 1 ^ 2 - r ^ 2)) := by
  simp only [fl, Nat.cast_ofNat, sq, and_self]

theorem hit_eq [F.Exact] (r z0 z1 : ℝ) (o d : Fin 3 → ℝ) (tmin tmax : Fl F) (rec : HitRecord (Fl F)) {x y : ℝ}
    (h : quadraticRoots (fin (d 0 ^ 2 + d 1 ^ 2) : Fl F) (fin (2 * (o 0 * d 0 + o 1 * d 1))) (fin (o 0 ^ 2 + o 1 ^ 2 - r ^ 2)) =
      [fin x, fin y]) :
    (ofReal r z0 z1).hit ⟨cv o, cv d⟩ tmin tmax rec =
      if Scalar.lt (fin x) tmin || Scalar.gt (fin x) tmax then
        if Scalar.lt (fin y) tmin || Scalar.gt (fin y) tmax then (false, rec) else (ofReal r z0 z1).finish ⟨cv o, cv d⟩ rec
      else if z1 < o 2 + x * d 2 ∨ o 2 + x * d 2 < z0 then
        if Scalar.lt (fin y) tmin || Scalar.gt (fin y) tmax then (false, { rec with t := fin y, p := cv (o + x • d) })
        else if z1 < o 2 + y * d 2 ∨ o 2 + y * d 2 < z0 then (false, { rec with t := fin y, p := cv (o + y • d) })
        else (ofReal r z0 z1).finish ⟨cv o, cv d⟩ { rec with t := fin y, p := cv (o + y • d) }
      else (ofReal r z0 z1).finish ⟨cv o, cv d⟩ { rec with t := fin x, p := cv (o + x • d) } := by
  obtain ⟨e1, e2, e3⟩ := coeffs (F := F) r o d
  have hz : ∀ t : ℝ, (Scalar.gt ((cv (o + t • d) : Vec (Fl F) 3) 2) (fin z1) || Scalar.lt ((cv (o + t • d) : Vec (Fl F) 3) 2) (fin z0)) =
      decide (z1 < o 2 + t * d 2 ∨ o 2 + t * d 2 < z0) := by
    intro t
    simp [Scalar.gt, cv_apply, Bool.decide_or]
  unfold hit
  simp only [cv_apply]
  rw [show (ofReal r z0 z1 : Cylinder (Fl F)).radius = fin r from rfl, e1, e2, e3, h]
  dsimp only
  rw [ray_at_cv, ray_at_cv]
  show (if _ then _ else if (Scalar.gt ((cv (o + x • d) : Vec (Fl F) 3) 2) (fin z1) || Scalar.lt ((cv (o + x • d) : Vec (Fl F) 3) 2) (fin z0)) = true then
    (if _ then _ else if (Scalar.gt ((cv (o + y • d) : Vec (Fl F) 3) 2) (fin z1) || Scalar.lt ((cv (o + y • d) : Vec (Fl F) 3) 2) (fin z0)) = true then _ else _) else _) = _
  rw [hz x, hz y]
  simp only [decide_eq_true_eq]

end Cylinder

/-! ## C64, C65 -/

theorem cylinder_quadratic (r z0 z1 : ℝ) (o d : Fin 3 → ℝ) (z : ℝ) :
    o + z • d ∈ cylinderSet r z0 z1 ↔
      (d 0 ^ 2 + d 1 ^ 2) * z ^ 2 + (2 * (o 0 * d 0 + o 1 * d 1)) * z + (o 0 ^ 2 + o 1 ^ 2 - r ^ 2) = 0 ∧
      z0 ≤ o 2 + z * d 2 ∧ o 2 + z * d 2 ≤ z1 := by
  simp only [cylinderSet, Set.mem_setOf_eq, Pi.add_apply, Pi.smul_apply, smul_eq_mul]
  constructor
  · rintro ⟨h, h'⟩; exact ⟨by linarith, h'⟩
  · rintro ⟨h, h'⟩; exact ⟨by linarith, h'⟩

/-- C65 for rays whose range starts outside the infinite cylinder: `hit` is exact. It is true iff the ray meets the
cylinder in the range, with the smallest parameter, whatever the record held.
Missing: ranges that start inside, see `C65_inside_false`; coefficients of the quadratic in the window between zero and
`numeric_limits<Real>::min()`. -/
theorem C65_outside_partial [F.Exact] (r z0 z1 : ℝ) (o d : Fin 3 → ℝ) (tmin : Fl F) (hn : isNaN tmin = false)
    (hd : F.tiny < d 0 ^ 2 + d 1 ^ 2) (hb : o 0 * d 0 + o 1 * d 1 = 0 ∨ F.tiny < |2 * (o 0 * d 0 + o 1 * d 1)|)
    (hout : ∀ t : ℝ, tmin = fin t → r ^ 2 < (o 0 + t * d 0) ^ 2 + (o 1 + t * d 1) ^ 2) :
    FindsNearest (cylinderSet r z0 z1) o d tmin ((Cylinder.ofReal r z0 z1).hit ⟨cv o, cv d⟩ tmin) := by
  intro tmax rec hm
  have htiny := Fmt.Exact.tiny_nonneg (F := F)
  have ha0 : d 0 ^ 2 + d 1 ^ 2 ≠ 0 := by linarith
  have hapos : 0 < d 0 ^ 2 + d 1 ^ 2 := by linarith
  have hb' : 2 * (o 0 * d 0 + o 1 * d 1) = 0 ∨ F.tiny < |2 * (o 0 * d 0 + o 1 * d 1)| := hb.imp (fun h => by rw [h, mul_zero]) id
  have hS := cylinder_quadratic r z0 z1 o d
  rcases quadraticRoots_spec (F := F) (d 0 ^ 2 + d 1 ^ 2) (2 * (o 0 * d 0 + o 1 * d 1)) (o 0 ^ 2 + o 1 ^ 2 - r ^ 2)
    (Or.inr (by rw [abs_of_pos hapos]; exact hd)) (Or.inr hb') (fun h => ha0 h.1) with ⟨hl, hno⟩ | ⟨x, y, hxy, hl, hf, hiff⟩
  · have : (Cylinder.ofReal r z0 z1).hit ⟨cv o, cv d⟩ tmin tmax rec = (false, rec) := by
      obtain ⟨e1, e2, e3⟩ := Cylinder.coeffs (F := F) r o d
      unfold Cylinder.hit
      simp only [cv_apply, Cylinder.ofReal, e1, e2, e3, hl]
    rw [this]
    refine ⟨⟨by simp, ?_⟩, by simp⟩
    rintro ⟨z, -, hz⟩
    exact absurd ((hS z).mp hz).1 (hno z)
  · obtain ⟨hs, hp⟩ := hf ha0
    have hfac := quad_factor hs hp
    have hin : ¬ InRange (tmin, tmax) x → ¬ InRange (tmin, tmax) y := by
      intro hx hy
      apply hx
      refine ⟨?_, Fl.le_trans (by rw [le_fin]; simpa using hxy) hy.2⟩
      have hy1 := hy.1
      match tmin, hn, hout, hy1 with
      | .ninf, _, _, _ => rfl
      | .fin t, _, hout, hy1 =>
        have ht : t ≤ y := by
          have : Scalar.le (fin t : Fl F) (fin y) = true := hy1
          rw [le_fin] at this; simpa using this
        have h3 := hout t rfl
        have h4 := hfac t
        have : 0 < (d 0 ^ 2 + d 1 ^ 2) * ((t - x) * (t - y)) := by
          rw [← mul_assoc, ← h4]; linarith
        have h5 := (pos_iff_pos_of_mul_pos this).mp hapos
        have h6 : t ≤ x := by
          by_contra hc
          push Not at hc
          nlinarith
        show Scalar.le (fin t : Fl F) (fin x) = true
        rw [le_fin]; simpa using h6
      | .pinf, _, _, hy1 =>
        have : Scalar.le (pinf : Fl F) (fin y) = true := hy1
        simp at this
    have hbt : ∀ w, o + w • d ∈ cylinderSet r z0 z1 → (w = x ∨ w = y) ∧ ¬ (z1 < o 2 + w * d 2 ∨ o 2 + w * d 2 < z0) := by
      intro w hw
      obtain ⟨g1, g2, g3⟩ := (hS w).mp hw
      exact ⟨(hiff w).mp g1, by push Not; exact ⟨g3, g2⟩⟩
    have hon : ∀ w, (w = x ∨ w = y) → (o 0 + w * d 0) ^ 2 + (o 1 + w * d 1) ^ 2 = r ^ 2 := by
      intro w hw
      have := (hiff w).mpr hw; linarith
    have hmk : ∀ w, (w = x ∨ w = y) → ¬ (z1 < o 2 + w * d 2 ∨ o 2 + w * d 2 < z0) → o + w • d ∈ cylinderSet r z0 z1 := by
      intro w hw h
      push Not at h
      exact (hS w).mpr ⟨(hiff w).mpr hw, h.2, h.1⟩
    have hfin : ∀ w, (w = x ∨ w = y) → ((Cylinder.ofReal r z0 z1).finish ⟨cv o, cv d⟩ { rec with t := fin w, p := cv (o + w • d) }).1 = true :=
      fun w hw => Cylinder.finish_true r z0 z1 _ _ (p := o + w • d) rfl (hon w hw)
    rw [Cylinder.hit_eq r z0 z1 o d tmin tmax rec hl]
    have hrx := range_test hn hm x
    have hry := range_test hn hm y
    by_cases hx : InRange (tmin, tmax) x
    · rw [hrx.mpr hx]
      simp only [Bool.false_eq_true, if_false]
      by_cases zx : z1 < o 2 + x * d 2 ∨ o 2 + x * d 2 < z0
      · rw [if_pos zx]
        by_cases hy : InRange (tmin, tmax) y
        · rw [hry.mpr hy]
          simp only [Bool.false_eq_true, if_false]
          by_cases zy : z1 < o 2 + y * d 2 ∨ o 2 + y * d 2 < z0
          · rw [if_pos zy]
            refine ⟨⟨by simp, ?_⟩, by simp⟩
            rintro ⟨w, -, hw⟩
            obtain ⟨rfl | rfl, h⟩ := hbt w hw
            · exact absurd zx h
            · exact absurd zy h
          · rw [if_neg zy]
            obtain ⟨f1, f2⟩ := Cylinder.finish_tp (Cylinder.ofReal r z0 z1) ⟨cv o, cv d⟩ { rec with t := fin y, p := cv (o + y • d) }
            refine ⟨⟨fun _ => ⟨y, hy, hmk y (Or.inr rfl) zy⟩, fun _ => hfin y (Or.inr rfl)⟩,
              fun _ => ⟨y, f1, f2, hy, hmk y (Or.inr rfl) zy, fun w _ hw => ?_⟩⟩
            obtain ⟨rfl | rfl, h⟩ := hbt w hw
            · exact absurd zx h
            · exact le_refl _
        · have : (Scalar.lt (fin y) tmin || Scalar.gt (fin y) tmax) = true := by
            by_contra hc; exact hy (hry.mp (by simpa using hc))
          rw [this]
          simp only [if_true]
          refine ⟨⟨by simp, ?_⟩, by simp⟩
          rintro ⟨w, hwr, hw⟩
          obtain ⟨rfl | rfl, h⟩ := hbt w hw
          · exact absurd zx h
          · exact absurd hwr hy
      · rw [if_neg zx]
        obtain ⟨f1, f2⟩ := Cylinder.finish_tp (Cylinder.ofReal r z0 z1) ⟨cv o, cv d⟩ { rec with t := fin x, p := cv (o + x • d) }
        refine ⟨⟨fun _ => ⟨x, hx, hmk x (Or.inl rfl) zx⟩, fun _ => hfin x (Or.inl rfl)⟩,
          fun _ => ⟨x, f1, f2, hx, hmk x (Or.inl rfl) zx, fun w _ hw => ?_⟩⟩
        obtain ⟨rfl | rfl, h⟩ := hbt w hw
        · exact le_refl _
        · exact hxy
    · have hy := hin hx
      have h1 : (Scalar.lt (fin x) tmin || Scalar.gt (fin x) tmax) = true := by
        by_contra hc; exact hx (hrx.mp (by simpa using hc))
      have h2 : (Scalar.lt (fin y) tmin || Scalar.gt (fin y) tmax) = true := by
        by_contra hc; exact hy (hry.mp (by simpa using hc))
      rw [h1, h2]
      simp only [if_true]
      refine ⟨⟨by simp, ?_⟩, by simp⟩
      rintro ⟨w, hwr, hw⟩
      obtain ⟨rfl | rfl, h⟩ := hbt w hw
      · exact absurd hwr hx
      · exact absurd hwr hy

/-- C64 under the same hypotheses: a reported hit is in range, on the ray and on the cylinder, whatever the record held.
Missing: ranges that start inside, see `C64_stale_false`. -/
theorem C64_outside_partial [F.Exact] (r z0 z1 : ℝ) (o d : Fin 3 → ℝ) (tmin tmax : Fl F) (hn : isNaN tmin = false)
    (hm : isNaN tmax = false)
    (hd : F.tiny < d 0 ^ 2 + d 1 ^ 2) (hb : o 0 * d 0 + o 1 * d 1 = 0 ∨ F.tiny < |2 * (o 0 * d 0 + o 1 * d 1)|)
    (hout : ∀ t : ℝ, tmin = fin t → r ^ 2 < (o 0 + t * d 0) ^ 2 + (o 1 + t * d 1) ^ 2) (rec rec' : HitRecord (Fl F))
    (h : (Cylinder.ofReal r z0 z1).hit ⟨cv o, cv d⟩ tmin tmax rec = (true, rec')) :
    ∃ z, rec'.t = fin z ∧ InRange (tmin, tmax) z ∧ rec'.p = cv (o + z • d) ∧ o + z • d ∈ cylinderSet r z0 z1 := by
  have := (C65_outside_partial r z0 z1 o d tmin hn hd hb hout tmax rec hm).2 (by rw [h])
  rw [h] at this
  obtain ⟨z, h1, h2, h3, h4, -⟩ := this
  exact ⟨z, h1, h3, h2, h4⟩

/-- A ray towards the axis from outside, with the first crossing above the cylinder and the second on it. -/
example : ((Cylinder.ofReal (F := exact0) 1 0 1).hit ⟨cv ![-2, 0, 2], cv ![1, 0, -1/2]⟩ (fin 0) pinf
    (HitRecord.default Vec.nans Vec.nans true)).1 = true := by
  refine ((C65_outside_partial (F := exact0) 1 0 1 ![-2, 0, 2] ![1, 0, -1/2] (fin 0) rfl ?_ ?_ ?_ pinf _ rfl).1).mpr
    ⟨3, ⟨by rw [le_fin]; norm_num, by simp⟩, ?_⟩
  · show (0:ℝ) < 1 ^ 2 + 0 ^ 2; norm_num
  · right; show (0:ℝ) < |2 * (-2 * 1 + 0 * 0)|; norm_num
  · intro t ht
    rw [fin_inj] at ht; subst ht
    show (1:ℝ) ^ 2 < (-2 + 0 * 1) ^ 2 + (0 + 0 * 0) ^ 2; norm_num
  · refine ⟨?_, ?_, ?_⟩
    · show (-2 + 3 * 1 : ℝ) ^ 2 + (0 + 3 * 0) ^ 2 = 1 ^ 2; norm_num
    · show (0:ℝ) ≤ 2 + 3 * (-1/2); norm_num
    · show (2 + 3 * (-1/2) : ℝ) ≤ 1; norm_num

/-- The equation `x² = 1`. -/
theorem quadraticRoots_unit [F.Exact] : quadraticRoots (fin 1 : Fl F) (fin 0) (fin (-1)) = [fin (-1), fin 1] := by
  have h1 := Fmt.Exact.tiny_lt (F := F)
  have h0 := Fmt.Exact.tiny_nonneg (F := F)
  simp [quadraticRoots, fl, not_le.mpr h1, h0, div_fin _ one_ne_zero, sqrt_fin zero_le_one, show ¬ (1:ℝ) < 0 by norm_num]

/-- A ray from `(0,0,z)` along x, in the range `[0,2]`, and the unit cylinder: the end of `hit` works on the old record. -/
theorem Cylinder.hit_axis [F.Exact] (z0 z1 z : ℝ) (rec : HitRecord (Fl F)) :
    (Cylinder.ofReal 1 z0 z1).hit ⟨cv ![0, 0, z], cv ![1, 0, 0]⟩ (fin 0) (fin 2) rec =
      (Cylinder.ofReal 1 z0 z1).finish ⟨cv ![0, 0, z], cv ![1, 0, 0]⟩ rec := by
  rw [Cylinder.hit_eq 1 z0 z1 ![0, 0, z] ![1, 0, 0] (fin 0) (fin 2) rec (x := -1) (y := 1)]
  · have e1 : (Scalar.lt (fin (-1) : Fl F) (fin 0) || Scalar.gt (fin (-1) : Fl F) (fin 2)) = true := by
      rw [lt_fin]; norm_num
    have e2 : (Scalar.lt (fin 1 : Fl F) (fin 0) || Scalar.gt (fin 1 : Fl F) (fin 2)) = false := by
      rw [Scalar.gt, lt_fin, lt_fin]; norm_num
    rw [e1, e2]; rfl
  · show quadraticRoots (fin ((1:ℝ) ^ 2 + 0 ^ 2) : Fl F) (fin (2 * ((0:ℝ) * 1 + 0 * 0))) (fin ((0:ℝ) ^ 2 + 0 ^ 2 - 1 ^ 2)) = _
    norm_num
    exact quadraticRoots_unit

/-- C64, refuted: when the first crossing with the infinite cylinder is before the range and the second inside it, the
parameter and the point of the record are those it held before, and the height is not checked. Here the ray from
`(0,0,5)` along x never meets the cylinder of height 1, and a record left over from an earlier object, with parameter 7,
is reported as a hit in the range `[0,2]`. -/
theorem C64_stale_false [F.Exact] (rec : HitRecord (Fl F)) (ht : rec.t = fin 7) (hp : rec.p = cv ![1, 0, 0]) :
    (¬ ∃ z : ℝ, (![0, 0, 5] + z • ![1, 0, 0] : Fin 3 → ℝ) ∈ cylinderSet 1 0 1) ∧
    ((Cylinder.ofReal 1 0 1).hit ⟨cv ![0, 0, 5], cv ![1, 0, 0]⟩ (fin 0) (fin 2) rec).1 = true ∧
    ((Cylinder.ofReal 1 0 1).hit ⟨cv ![0, 0, 5], cv ![1, 0, 0]⟩ (fin 0) (fin 2) rec).2.t = fin 7 := by
  refine ⟨?_, ?_, ?_⟩
  · rintro ⟨z, -, -, h⟩
    have : (5 + z * 0 : ℝ) ≤ 1 := h
    norm_num at this
  · rw [Cylinder.hit_axis]
    exact Cylinder.finish_true 1 0 1 _ rec hp (by norm_num)
  · rw [Cylinder.hit_axis, (Cylinder.finish_tp _ _ rec).1, ht]

/-- C65, refuted: a ray from the axis meets the cylinder at parameter 1, and whether this is reported depends on the point
the record held before. -/
theorem C65_inside_false [F.Exact] (rec : HitRecord (Fl F)) (hp : rec.p = cv ![100, 0, 0]) :
    (![0, 0, 1/2] + (1:ℝ) • ![1, 0, 0] : Fin 3 → ℝ) ∈ cylinderSet 1 0 1 ∧
    ((Cylinder.ofReal 1 0 1).hit ⟨cv ![0, 0, 1/2], cv ![1, 0, 0]⟩ (fin 0) (fin 2) rec).1 = false := by
  refine ⟨⟨?_, ?_, ?_⟩, ?_⟩
  · show (0 + 1 * 1 : ℝ) ^ 2 + (0 + 1 * 0) ^ 2 = 1 ^ 2; norm_num
  · show (0:ℝ) ≤ 1/2 + 1 * 0; norm_num
  · show (1/2 + 1 * 0 : ℝ) ≤ 1; norm_num
  · rw [Cylinder.hit_axis]
    exact Cylinder.finish_false 1 0 1 _ rec hp (by norm_num) one_ne_zero

/-- C64, refuted also for a ray inside the surface: it is reported with a parameter that is not a number. -/
theorem C64_tangent_false [F.Exact] (rec : HitRecord (Fl F)) :
    ((Cylinder.ofReal 1 0 1).hit ⟨cv ![1, 0, 5], cv ![0, 0, 1]⟩ (fin 0) (fin 2) rec).1 = true ∧
    ((Cylinder.ofReal 1 0 1).hit ⟨cv ![1, 0, 5], cv ![0, 0, 1]⟩ (fin 0) (fin 2) rec).2.t = Fl.nan := by
  have hq : quadraticRoots (fin 0 : Fl F) (fin 0) (fin 0) = [Fl.nan, Fl.nan] := C12_zero_polynomial_false
  obtain ⟨e1, e2, e3⟩ := Cylinder.coeffs (F := F) 1 ![1, 0, 5] ![0, 0, 1]
  have f1 : (![0, 0, 1] : Fin 3 → ℝ) 0 ^ 2 + (![0, 0, 1] : Fin 3 → ℝ) 1 ^ 2 = 0 := by norm_num
  have f2 : 2 * ((![1, 0, 5] : Fin 3 → ℝ) 0 * (![0, 0, 1] : Fin 3 → ℝ) 0 + (![1, 0, 5] : Fin 3 → ℝ) 1 * (![0, 0, 1] : Fin 3 → ℝ) 1) = 0 := by norm_num
  have f3 : (![1, 0, 5] : Fin 3 → ℝ) 0 ^ 2 + (![1, 0, 5] : Fin 3 → ℝ) 1 ^ 2 - 1 ^ 2 = 0 := by norm_num
  rw [f1] at e1
  rw [f2] at e2
  rw [f3] at e3
  have key : (Cylinder.ofReal 1 0 1).hit ⟨cv ![1, 0, 5], cv ![0, 0, 1]⟩ (fin 0) (fin 2) rec =
      (Cylinder.ofReal 1 0 1).finish ⟨cv ![1, 0, 5], cv ![0, 0, 1]⟩
        { rec with t := Fl.nan, p := (Ray.mk (cv ![1, 0, 5]) (cv ![0, 0, 1]) : Ray (Fl F)).at Fl.nan } := by
    unfold Cylinder.hit
    simp only [cv_apply]
    rw [show (Cylinder.ofReal 1 0 1 : Cylinder (Fl F)).radius = fin 1 from rfl, e1, e2, e3, hq]
    have hz : (Ray.mk (cv ![1, 0, 5]) (cv ![0, 0, 1]) : Ray (Fl F)).at Fl.nan 2 = Fl.nan := by
      show (fin _ : Fl F) + Fl.nan * fin _ = _
      simp
    simp only [hz, Scalar.gt, nan_lt, lt_nan, Bool.or_false, Bool.false_eq_true, if_false]
  rw [key]
  refine ⟨?_, by rw [(Cylinder.finish_tp _ _ _).1]⟩
  rw [Cylinder.finish_eq]
  have : (Cylinder.ofReal 1 0 1 : Cylinder (Fl F)).residual ((Ray.mk (cv ![1, 0, 5]) (cv ![0, 0, 1]) : Ray (Fl F)).at Fl.nan) = Fl.nan := by
    unfold Cylinder.residual
    have hz : (Ray.mk (cv ![1, 0, 5]) (cv ![0, 0, 1]) : Ray (Fl F)).at Fl.nan 0 = Fl.nan := by
      show (fin _ : Fl F) + Fl.nan * fin _ = _
      simp
    rw [hz]; simp
  dsimp only
  rw [this]
  simp [Scalar.gt]

/-! ## C66 -/

/-- The parametrization on the reals. -/
noncomputable def cylinderPoint (r z0 z1 u v : ℝ) : Fin 3 → ℝ :=
  ![r * Real.cos (2 * Real.pi * u), r * Real.sin (2 * Real.pi * u), z0 + v * (z1 - z0)]

theorem Cylinder.eval_fin [F.Exact] (r z0 z1 u v : ℝ) :
    (Cylinder.ofReal r z0 z1 : Cylinder (Fl F)).eval (fin u) (fin v) = cv (cylinderPoint r z0 z1 u v) := by
  unfold Cylinder.eval cylinderPoint Cylinder.ofReal
  simp only [fl, Nat.cast_ofNat, cv_vec3]

/-- C66: on the cylinder `get_uv` gives parameters in the unit square that `operator()` takes back to the point. -/
theorem C66_getUV [F.Exact] (r z0 z1 : ℝ) (hr : 0 < r) (hz : z0 < z1) (p : Fin 3 → ℝ) (hp : p ∈ cylinderSet r z0 z1) :
    ∃ u v : ℝ, (Cylinder.ofReal r z0 z1 : Cylinder (Fl F)).getUV (cv p) = (fin u, fin v) ∧ 0 ≤ u ∧ u < 1 ∧ 0 ≤ v ∧ v ≤ 1 ∧
      (Cylinder.ofReal r z0 z1 : Cylinder (Fl F)).eval (fin u) (fin v) = cv p := by
  obtain ⟨h1, h2, h3⟩ := hp
  have hz' : z1 - z0 ≠ 0 := by linarith
  obtain ⟨u, hu, hu0, hu1, huc, hus⟩ := turn_atan2 (F := F) (p 1) (p 0)
  rw [h1, Real.sqrt_sq hr.le] at huc hus
  have hv0 : 0 ≤ (p 2 - z0) / (z1 - z0) := div_nonneg (by linarith) (by linarith)
  have hv1 : (p 2 - z0) / (z1 - z0) ≤ 1 := by rw [div_le_one (by linarith)]; linarith
  refine ⟨u, (p 2 - z0) / (z1 - z0), ?_, hu0, hu1, hv0, hv1, ?_⟩
  · unfold Cylinder.getUV Cylinder.ofReal
    simp only [cv_apply, sub_fin, div_fin _ hz']
    refine Prod.ext hu ?_
    show Scalar.clamp _ _ _ = _
    unfold Scalar.clamp
    rw [ofNat_zero, ofNat_one, lt_fin, lt_fin, if_neg (by simpa using hv0), if_neg (by simpa using hv1)]
  · rw [Cylinder.eval_fin, cv_inj]
    funext i
    match i with
    | 0 => exact huc
    | 1 => exact hus
    | 2 => show z0 + (p 2 - z0) / (z1 - z0) * (z1 - z0) = p 2
           field_simp; ring

example : ∃ u v : ℝ, (Cylinder.ofReal 5 0 4 : Cylinder (Fl exact64)).getUV (cv ![3, -4, 1]) = (fin u, fin v) ∧
    (Cylinder.ofReal 5 0 4 : Cylinder (Fl exact64)).eval (fin u) (fin v) = cv ![3, -4, 1] := by
  obtain ⟨u, v, h1, -, -, -, -, h2⟩ := C66_getUV (F := exact64) 5 0 4 (by norm_num) (by norm_num) ![3, -4, 1]
    ⟨by show (3 : ℝ) ^ 2 + (-4) ^ 2 = 5 ^ 2; norm_num, by show (0 : ℝ) ≤ 1; norm_num, by show (1 : ℝ) ≤ 4; norm_num⟩
  exact ⟨u, v, h1, h2⟩

/-- C66: on every path on which `hit` returns true, the recorded forms are those of the parametrization, at any `(u, v)`,
for the inward normal, the Gaussian curvature is 0 and the mean curvature is `1/(2r)`. -/
theorem C66_forms [F.Exact] (r z0 z1 : ℝ) (hr : 0 < r) (hz : z0 < z1) (ry : Ray (Fl F)) (tmin tmax : Fl F) (rec rec' : HitRecord (Fl F))
    (h : (Cylinder.ofReal r z0 z1).hit ry tmin tmax rec = (true, rec')) (u v : ℝ) :
    HasForms rec' (cylinderPoint r z0 z1) ![-Real.cos (2 * Real.pi * u), -Real.sin (2 * Real.pi * u), 0] u v ∧
    rec'.gaussianCurvature = fin 0 ∧ rec'.meanCurvature = fin (1 / (2 * r)) := by
  have hrec : ∃ rc, rec' = (Cylinder.ofReal r z0 z1).complete ry rc := by
    have fin' : ∀ rc, (Cylinder.ofReal r z0 z1).finish ry rc = (true, rec') → ∃ rc, rec' = (Cylinder.ofReal r z0 z1).complete ry rc := by
      intro rc h
      have := Cylinder.finish_snd (Cylinder.ofReal r z0 z1) ry rc
      rw [h] at this
      exact ⟨rc, this⟩
    unfold Cylinder.hit at h
    dsimp only at h
    split at h
    · split_ifs at h <;> first | (exact fin' _ h) | (exact absurd (congrArg Prod.fst h) Bool.false_ne_true)
    · exact absurd (congrArg Prod.fst h) Bool.false_ne_true
  obtain ⟨rc, rfl⟩ := hrec
  have hE : ((Cylinder.ofReal r z0 z1).complete ry rc).E = fin (4 * Real.pi * Real.pi * r * r) := by
    show (4 : Fl F) * pi * pi * fin r * fin r = _
    simp only [fl, Nat.cast_ofNat]
  have hF : ((Cylinder.ofReal r z0 z1).complete ry rc).F = fin 0 := by rw [← ofNat_zero]; rfl
  have hG : ((Cylinder.ofReal r z0 z1).complete ry rc).G = fin ((z1 - z0) * (z1 - z0)) := by
    show ((fin z1 : Fl F) - fin z0) * (fin z1 - fin z0) = _
    simp only [fl]
  have he : ((Cylinder.ofReal r z0 z1).complete ry rc).e = fin (4 * Real.pi * Real.pi * r) := by
    show (4 : Fl F) * pi * pi * fin r = _
    simp only [fl, Nat.cast_ofNat]
  have hf : ((Cylinder.ofReal r z0 z1).complete ry rc).f = fin 0 := by rw [← ofNat_zero]; rfl
  have hg : ((Cylinder.ofReal r z0 z1).complete ry rc).g = fin 0 := by rw [← ofNat_zero]; rfl
  have hp := Real.pi_pos
  have hzz : 0 < z1 - z0 := by linarith
  have hEG : 4 * Real.pi * Real.pi * r * r * ((z1 - z0) * (z1 - z0)) - 0 * 0 ≠ 0 := by
    rw [mul_zero, sub_zero]; positivity
  refine ⟨⟨fun u _ => ![-(2 * Real.pi * r * Real.sin (2 * Real.pi * u)), 2 * Real.pi * r * Real.cos (2 * Real.pi * u), 0],
    fun _ _ => ![0, 0, z1 - z0], fun u v i => ?_,
    ![-(4 * Real.pi ^ 2 * r * Real.cos (2 * Real.pi * u)), -(4 * Real.pi ^ 2 * r * Real.sin (2 * Real.pi * u)), 0],
    ![0, 0, 0], ![0, 0, 0], fun i => ?_, ?_⟩, ?_, ?_⟩
  · have c1 := hasDerivAt_cos_mul (2 * Real.pi) u
    have s1 := hasDerivAt_sin_mul (2 * Real.pi) u
    match i with
    | 0 => exact ⟨(c1.const_mul r).congr_deriv (by simp only [cons_val_zero]; ring), hasDerivAt_const v _⟩
    | 1 => exact ⟨(s1.const_mul r).congr_deriv (by simp only [cons_val_one, cons_val_zero]; ring), hasDerivAt_const v _⟩
    | 2 => exact ⟨hasDerivAt_const u _, (((hasDerivAt_id v).mul_const (z1 - z0)).const_add z0).congr_deriv (by simp)⟩
  · have c1 := hasDerivAt_cos_mul (2 * Real.pi) u
    have s1 := hasDerivAt_sin_mul (2 * Real.pi) u
    match i with
    | 0 => exact ⟨((s1.const_mul (2 * Real.pi * r)).neg).congr_deriv (by simp only [cons_val_zero]; ring), hasDerivAt_const v _, hasDerivAt_const v _⟩
    | 1 => exact ⟨(c1.const_mul (2 * Real.pi * r)).congr_deriv (by simp only [cons_val_one, cons_val_zero]; ring), hasDerivAt_const v _, hasDerivAt_const v _⟩
    | 2 => exact ⟨hasDerivAt_const u _, hasDerivAt_const v _, hasDerivAt_const v _⟩
  · rw [hE, hF, hG, he, hf, hg]
    simp only [fin_inj, dotProduct, Fin.sum_univ_three]
    simp only [Fin.isValue, cons_val_zero, cons_val_one, cons_val]
    have t1 := Real.sin_sq_add_cos_sq (2 * Real.pi * u)
    refine ⟨?_, ?_, ?_, ?_, ?_, ?_, ?_, ?_, ?_⟩
    · linear_combination (-4 * Real.pi ^ 2 * r ^ 2) * t1
    · ring
    · ring
    · linear_combination (-4 * Real.pi ^ 2 * r) * t1
    · ring
    · ring
    · linear_combination t1
    · ring
    · ring
  · unfold HitRecord.gaussianCurvature
    rw [hE, hF, hG, he, hf, hg]
    simp only [fl]
    rw [div_fin _ hEG]; norm_num
  · unfold HitRecord.meanCurvature
    rw [hE, hF, hG, he, hf, hg]
    simp only [fl, Nat.cast_ofNat]
    rw [div_fin _ (by rw [mul_zero, sub_zero]; positivity), fin_inj]
    field_simp
    ring

/-- The hit of the example above. -/
example : ∃ rec', (Cylinder.ofReal (F := exact0) 1 0 1).hit ⟨cv ![-2, 0, 2], cv ![1, 0, -1/2]⟩ (fin 0) pinf
    (HitRecord.default Vec.nans Vec.nans true) = (true, rec') ∧ rec'.meanCurvature = fin (1 / (2 * 1)) := by
  have h : ((Cylinder.ofReal (F := exact0) 1 0 1).hit ⟨cv ![-2, 0, 2], cv ![1, 0, -1/2]⟩ (fin 0) pinf
      (HitRecord.default Vec.nans Vec.nans true)).1 = true := by
    refine ((C65_outside_partial (F := exact0) 1 0 1 ![-2, 0, 2] ![1, 0, -1/2] (fin 0) rfl ?_ ?_ ?_ pinf _ rfl).1).mpr
      ⟨3, ⟨by rw [le_fin]; norm_num, by simp⟩, ?_⟩
    · show (0:ℝ) < 1 ^ 2 + 0 ^ 2; norm_num
    · right; show (0:ℝ) < |2 * (-2 * 1 + 0 * 0)|; norm_num
    · intro t ht
      rw [fin_inj] at ht; subst ht
      show (1:ℝ) ^ 2 < (-2 + 0 * 1) ^ 2 + (0 + 0 * 0) ^ 2; norm_num
    · refine ⟨?_, ?_, ?_⟩
      · show (-2 + 3 * 1 : ℝ) ^ 2 + (0 + 3 * 0) ^ 2 = 1 ^ 2; norm_num
      · show (0:ℝ) ≤ 2 + 3 * (-1/2); norm_num
      · show (2 + 3 * (-1/2) : ℝ) ≤ 1; norm_num
  exact ⟨_, Prod.ext h rfl, (C66_forms (F := exact0) 1 0 1 one_pos one_pos _ _ _ _ _ (Prod.ext h rfl) 0 0).2.2⟩

/-- C66: the box contains the cylinder. -/
theorem C66_box [F.Exact] (r z0 z1 : ℝ) (hr : 0 ≤ r) :
    ∃ lo hi : Fin 3 → ℝ, (Cylinder.ofReal r z0 z1 : Cylinder (Fl F)).bbox = (true, AABB.ofReal lo hi) ∧
      ∀ p ∈ cylinderSet r z0 z1, InBox lo hi p := by
  refine ⟨![-r, -r, z0], ![r, r, z1], ?_, ?_⟩
  · unfold Cylinder.bbox Cylinder.ofReal AABB.ofReal
    simp only [Fl.neg_fin, cv_vec3]
  · rintro p ⟨h1, h2, h3⟩ i
    have b0 := abs_le_of_sq_le_sq' (show p 0 ^ 2 ≤ r ^ 2 by nlinarith [sq_nonneg (p 1)]) hr
    have b1 := abs_le_of_sq_le_sq' (show p 1 ^ 2 ≤ r ^ 2 by nlinarith [sq_nonneg (p 0)]) hr
    match i with
    | 0 => exact b0
    | 1 => exact b1
    | 2 => exact ⟨h2, h3⟩

example : ∃ lo hi : Fin 3 → ℝ, (Cylinder.ofReal 5 0 4 : Cylinder (Fl exact64)).bbox = (true, AABB.ofReal lo hi) ∧ InBox lo hi ![3, -4, 1] := by
  obtain ⟨lo, hi, h1, h2⟩ := C66_box (F := exact64) 5 0 4 (by norm_num)
  exact ⟨lo, hi, h1, h2 _ ⟨by show (3 : ℝ) ^ 2 + (-4) ^ 2 = 5 ^ 2; norm_num, by show (0 : ℝ) ≤ 1; norm_num, by show (1 : ℝ) ≤ 4; norm_num⟩⟩

/-- C93, refuted for the cylinder: a ray that crosses the infinite cylinder above the finite one is a miss, and the
record has a new parameter. -/
theorem C93_cylinder_false [F.Exact] (rec : HitRecord (Fl F)) (ht : rec.t = fin 7) :
    ((Cylinder.ofReal 1 0 1).hit ⟨cv ![0, 0, 5], cv ![1, 0, 0]⟩ (fin (-2)) (fin 2) rec).1 = false ∧
    ((Cylinder.ofReal 1 0 1).hit ⟨cv ![0, 0, 5], cv ![1, 0, 0]⟩ (fin (-2)) (fin 2) rec).2.t = fin 1 := by
  have key : (Cylinder.ofReal 1 0 1).hit ⟨cv ![0, 0, 5], cv ![1, 0, 0]⟩ (fin (-2)) (fin 2) rec =
      (false, { rec with t := fin 1, p := cv (![0, 0, 5] + (1:ℝ) • ![1, 0, 0]) }) := by
    rw [Cylinder.hit_eq 1 0 1 ![0, 0, 5] ![1, 0, 0] (fin (-2)) (fin 2) rec (x := -1) (y := 1)]
    · have e1 : (Scalar.lt (fin (-1) : Fl F) (fin (-2)) || Scalar.gt (fin (-1) : Fl F) (fin 2)) = false := by
        rw [Scalar.gt, lt_fin, lt_fin]; norm_num
      have e2 : (Scalar.lt (fin 1 : Fl F) (fin (-2)) || Scalar.gt (fin 1 : Fl F) (fin 2)) = false := by
        rw [Scalar.gt, lt_fin, lt_fin]; norm_num
      rw [e1, e2]
      simp only [Bool.false_eq_true, if_false]
      rw [if_pos (Or.inl (by show (1:ℝ) < 5 + -1 * 0; norm_num)), if_pos (Or.inl (by show (1:ℝ) < 5 + 1 * 0; norm_num))]
    · show quadraticRoots (fin ((1:ℝ) ^ 2 + 0 ^ 2) : Fl F) (fin (2 * ((0:ℝ) * 1 + 0 * 0))) (fin ((0:ℝ) ^ 2 + 0 ^ 2 - 1 ^ 2)) = _
      norm_num
      exact quadraticRoots_unit
  rw [key]
  exact ⟨rfl, rfl⟩

end DRT
