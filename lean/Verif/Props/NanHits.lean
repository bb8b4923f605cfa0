import Verif.Props.Box
import Verif.Props.Bvh

/-! # C44: a tree passes on hits that are not numbers, a list does not -/

namespace DRT
open Scalar Fl

variable {F : Fmt}

/-- C44, refuted for the rectangles of the library: a ray that runs within the plane of a rectangle and through it is
reported by the tree over the rectangle as a hit with a parameter that is not a number. The list reports no hit. -/
theorem C44_coplanar_false [F.Exact] (axis : List Bool → Fin 4)
    (srt : List Bool → (Hittable (Fl F) → Hittable (Fl F) → Bool) → List (Hittable (Fl F)) → List (Hittable (Fl F)))
    (a0 a1 b0 b1 k : ℝ) (o d : Fin 3 → ℝ) (hdn : d 2 = 0) (hon : o 2 = k) (s t : ℝ) (hst : s < t) (tmin tmax : Fl F)
    (hs : InRange (tmin, tmax) s) (ht : InRange (tmin, tmax) t) (hsS : o + s • d ∈ rectSet 0 1 2 a0 a1 b0 b1 k)
    (htS : o + t • d ∈ rectSet 0 1 2 a0 a1 b0 b1 k) (rec temp0 : HitRecord (Fl F)) :
    ∃ T, Bvh.build axis srt 1 [] [Rect.xy (Rect.ofReal (F := F) a0 a1 b0 b1 k)] = some T ∧
      (T.hit ⟨cv o, cv d⟩ tmin tmax rec).1 = true ∧ (T.hit ⟨cv o, cv d⟩ tmin tmax rec).2.t = Fl.nan ∧
      (HittableList.hit ⟨[Rect.xy (Rect.ofReal (F := F) a0 a1 b0 b1 k)], ["rect"]⟩ ⟨cv o, cv d⟩ tmin tmax rec temp0).1 =
        some none := by
  have hc := fun tmin tmax rec => (C59_coplanar_false (F := F) a0 a1 b0 b1 k o d tmin tmax rec).1 hdn hon
  refine ⟨_, rfl, ?_⟩
  obtain ⟨lo, hi, hbox, hin, -⟩ := (C60_box (F := F) a0 a1 b0 b1 k).1
  have hbox' : (Rect.xy (Rect.ofReal (F := F) a0 a1 b0 b1 k)).bbox.2 = AABB.ofReal lo hi := congrArg Prod.snd hbox
  have hn : isNaN tmin = false := not_nan_of_le_left hs.1
  have hm : isNaN tmax = false := not_nan_of_le_right ht.2
  have hb : (AABB.surrounding (Bvh.obj (Rect.xy (Rect.ofReal (F := F) a0 a1 b0 b1 k))).bbox.2
      (Bvh.obj (Rect.xy (Rect.ofReal (F := F) a0 a1 b0 b1 k))).bbox.2).hit ⟨cv o, cv d⟩ tmin tmax = true := by
    rw [Bvh.bbox, hbox', Bvh.surrounding_ofReal, C43_hit_iff _ _ _ _ _ _ hn hm]
    simp only [min_self, max_self]
    exact ⟨s, t, hst, hs, ht, hin _ hsS, hin _ htS⟩
  refine ⟨?_, ?_, ?_⟩
  · rw [Bvh.close, Bvh.hit, if_pos hb]
    show (_ || _) = true
    rw [Bool.or_eq_true]
    exact Or.inl (hc tmin tmax rec).1
  · rw [Bvh.close, Bvh.hit, if_pos hb]
    simp only [Bvh.hit]
    exact (hc _ _ _).2
  · obtain ⟨h1, -, -⟩ := C106_scene_number (F := F) (M := String) ⟨[Rect.xy (Rect.ofReal (F := F) a0 a1 b0 b1 k)], ["rect"]⟩ rfl
      (fun _ => ∅) o d tmin tmax hm rec temp0 (by
        intro k' ob hk
        cases k' with
        | zero =>
          cases hk
          intro tmax rec _
          have := (hc tmin tmax rec).2
          exact ⟨⟨fun h => absurd this h.2, fun ⟨_, _, h⟩ => h.elim⟩, fun _ h => absurd this h⟩
        | succ k' => simp at hk)
    exact h1.mpr fun _ _ _ _ h => h

/-- A ray along the floor, through a unit square on it. -/
example (rec temp0 : HitRecord (Fl exact64)) :
    ∃ T, Bvh.build (fun _ => 0) (fun _ _ l => l) 1 [] [Rect.xy (Rect.ofReal (F := exact64) 0 1 0 1 0)] = some T ∧
      (T.hit ⟨cv ![-1, 1/2, 0], cv ![1, 0, 0]⟩ (fin 0) pinf rec).2.t = Fl.nan := by
  obtain ⟨T, h1, -, h2, -⟩ := C44_coplanar_false (F := exact64) (fun _ => 0) (fun _ _ l => l) 0 1 0 1 0 ![-1, 1/2, 0] ![1, 0, 0]
    rfl rfl 1 2 (by norm_num) (fin 0) pinf (by simp [InRange]) (by simp [InRange])
    (by show (0:ℝ) + 1 * 0 = 0 ∧ ((0:ℝ) ≤ -1 + 1 * 1 ∧ (-1:ℝ) + 1 * 1 ≤ 1) ∧ (0:ℝ) ≤ 1/2 + 1 * 0 ∧ (1:ℝ)/2 + 1 * 0 ≤ 1; norm_num)
    (by show (0:ℝ) + 2 * 0 = 0 ∧ ((0:ℝ) ≤ -1 + 2 * 1 ∧ (-1:ℝ) + 2 * 1 ≤ 1) ∧ (0:ℝ) ≤ 1/2 + 2 * 0 ∧ (1:ℝ)/2 + 2 * 0 ≤ 1; norm_num)
    rec temp0
  exact ⟨T, h1, h2⟩

end DRT
