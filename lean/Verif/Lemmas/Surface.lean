import Verif.Spec.Surface
import Verif.Props.Roots
import Verif.Props.HittableList

/-! # From quadratics along a ray to `FindsNearest`, and from `FindsNearest` to `Reports` -/

namespace DRT
open Scalar Fl Matrix

variable {F : Fmt}

theorem inRange_trans {tmin tmax tmax' : Fl F} {x y : ℝ} (hx : InRange (tmin, tmax) x) (hy : InRange (tmin, tmax') y)
    (h : x ≤ y) : InRange (tmin, tmax') x :=
  ⟨hx.1, Fl.le_trans (by rw [le_fin]; simpa using h) hy.2⟩

/-- The usual range test `t < t_min || t > t_max`. -/
theorem range_test {tmin tmax : Fl F} (hn : isNaN tmin = false) (hm : isNaN tmax = false) (t : ℝ) :
    (Scalar.lt (fin t) tmin || Scalar.gt (fin t) tmax) = false ↔ InRange (tmin, tmax) t := by
  simp only [Scalar.gt, Bool.or_eq_false_iff, InRange]
  constructor
  · rintro ⟨h1, h2⟩; exact ⟨Fl.le_of_not_lt rfl hn h1, Fl.le_of_not_lt hm rfl h2⟩
  · rintro ⟨h1, h2⟩; exact ⟨Fl.not_lt_of_le h1, Fl.not_lt_of_le h2⟩

theorem FindsNearest.number {S : Set (Fin 3 → ℝ)} {o d : Fin 3 → ℝ} {tmin : Fl F}
    {h : Fl F → HitRecord (Fl F) → Bool × HitRecord (Fl F)} (hf : FindsNearest S o d tmin h) : FindsNumber S o d tmin h := by
  intro tmax rec hn
  obtain ⟨h1, h2⟩ := hf tmax rec hn
  refine ⟨⟨fun h => h1.mp h.1, fun h => ⟨h1.mpr h, ?_⟩⟩, fun h _ => h2 h⟩
  obtain ⟨z, hz, -⟩ := h2 (h1.mpr h)
  rw [hz]
  exact fun h => by cases h

/-- An object that finds the nearest point of a set, up to NaN hits, reports the first parameter at which the ray meets the set. -/
theorem FindsNumber.reports {S : Set (Fin 3 → ℝ)} {o d : Fin 3 → ℝ} {tmin : Fl F} {ob : Hittable (Fl F)}
    (h : FindsNumber S o d tmin (ob.hit ⟨cv o, cv d⟩ tmin)) :
    ∃ first : Option (Fl F), ReportsNumber ob ⟨cv o, cv d⟩ tmin first ∧
      (∀ t, first = some t ↔ ∃ z, t = fin z ∧ InRange (tmin, pinf) z ∧ o + z • d ∈ S ∧
        ∀ w, InRange (tmin, pinf) w → o + w • d ∈ S → z ≤ w) ∧
      (first = none ↔ ¬ ∃ z, InRange (tmin, (pinf : Fl F)) z ∧ o + z • d ∈ S) := by
  classical
  by_cases hex : ∃ z, InRange (tmin, (pinf : Fl F)) z ∧ o + z • d ∈ S
  · have rec0 : HitRecord (Fl F) := HitRecord.default Vec.nans Vec.nans true
    obtain ⟨z, -, -, hz, hS, hmin⟩ := (h pinf rec0 rfl).2 ((h pinf rec0 rfl).1.mpr hex).1 ((h pinf rec0 rfl).1.mpr hex).2
    refine ⟨some (fin z), ⟨?_, ?_⟩, ?_, by simpa using hex⟩
    · rintro t ht tmax rec hle
      cases ht
      have hr : InRange (tmin, tmax) z := ⟨hz.1, hle⟩
      have hn := not_nan_of_le_right hle
      have hh := (h tmax rec hn).1.mpr ⟨z, hr, hS⟩
      obtain ⟨w, hw, -, hwr, hwS, hwmin⟩ := (h tmax rec hn).2 hh.1 hh.2
      refine ⟨hh.1, ?_⟩
      rw [hw, fin_inj]
      exact le_antisymm (hwmin z hr hS) (hmin w ⟨hwr.1, by simp⟩ hwS)
    · intro tmax rec hn hm ht
      by_contra hnan
      obtain ⟨w, hw, hwS⟩ := (h tmax rec hn).1.mp ⟨ht, hnan⟩
      have := inRange_trans hz hw (hmin w ⟨hw.1, by simp⟩ hwS)
      have h2 := hm _ rfl
      rw [this.2] at h2; cases h2
    · intro t
      constructor
      · intro ht; cases ht; exact ⟨z, rfl, hz, hS, hmin⟩
      · rintro ⟨w, rfl, hw, hwS, hwm⟩
        rw [le_antisymm (hmin w hw hwS) (hwm z hz hS)]
  · refine ⟨none, ⟨by simp, ?_⟩, ?_, by simpa using hex⟩
    · intro tmax rec hn _ ht
      by_contra hnan
      obtain ⟨w, hw, hwS⟩ := (h tmax rec hn).1.mp ⟨ht, hnan⟩
      exact hex ⟨w, ⟨hw.1, by simp⟩, hwS⟩
    · intro t
      simp only [reduceCtorEq, false_iff]
      rintro ⟨w, -, hw, hwS, -⟩
      exact hex ⟨w, hw, hwS⟩

/-- Build `FindsNearest` for a surface that is a quadric along the ray. -/
theorem FindsNearest.of_quadratic [F.Exact] {S : Set (Fin 3 → ℝ)} {o d : Fin 3 → ℝ} {tmin : Fl F} {a b c : ℝ}
    {h : Fl F → HitRecord (Fl F) → Bool × HitRecord (Fl F)}
    (hq : ∀ z, o + z • d ∈ S ↔ a * z ^ 2 + b * z + c = 0)
    (ha : F.tiny < |a|) (hb : b = 0 ∨ F.tiny < |b|)
    (hnone : ∀ tmax rec, firstQuadraticRootInRange (fin a) (fin b) (fin c) tmin tmax = none → (h tmax rec).1 = false)
    (hsome : ∀ tmax rec z, firstQuadraticRootInRange (fin a) (fin b) (fin c) tmin tmax = some (fin z) →
      (h tmax rec).1 = true ∧ (h tmax rec).2.t = fin z ∧ (h tmax rec).2.p = cv (o + z • d)) :
    FindsNearest S o d tmin h := by
  intro tmax rec hn
  have ha0 : a ≠ 0 := by
    intro h0; rw [h0, abs_zero] at ha; exact absurd (Fmt.Exact.tiny_nonneg (F := F)) (not_le.mpr ha)
  obtain ⟨h1, h2⟩ := C14_least_root (F := F) a b c tmin tmax (Or.inr ha) (Or.inr hb) (fun h => ha0 h.1)
  rcases hf : firstQuadraticRootInRange (fin a) (fin b) (fin c) tmin tmax with _ | t
  · rw [hnone tmax rec hf]
    refine ⟨⟨by simp, ?_⟩, by simp⟩
    rintro ⟨z, hz, hS⟩
    exact absurd ⟨z, (hq z).mp hS, hz.1, hz.2⟩ (h1.mp hf)
  · obtain ⟨z, rfl, hz, hz1, hz2, hmin⟩ := h2 t hf
    obtain ⟨g1, g2, g3⟩ := hsome tmax rec z hf
    refine ⟨⟨fun _ => ⟨z, ⟨hz1, hz2⟩, (hq z).mpr hz⟩, fun _ => g1⟩, fun _ => ⟨z, g2, g3, ⟨hz1, hz2⟩, (hq z).mpr hz, ?_⟩⟩
    intro w hw hS
    exact hmin w ((hq w).mp hS) hw.1 hw.2

end DRT
