import Verif.Props.Translate
import Verif.Props.ScaleBvh

/-! # C124 for cylinders and for the construction of trees -/

namespace DRT
open Scalar Fl Render Vec

variable {F : Fmt} {S : Type}

theorem add_fin_zero [F.Exact] (a : Fl F) : a + fin 0 = a := by
  cases a <;> simp

/-- C124: a cylinder, moved along its axis. -/
theorem C124_cylinder [F.Exact] (v : Fin 3 → ℝ) (h0 : v 0 = 0) (h1 : v 1 = 0) (s : Cylinder (Fl F)) :
    Moved v s.toHittable (⟨s.radius, s.zmin + fin (v 2), s.zmax + fin (v 2)⟩ : Cylinder (Fl F)).toHittable := by
  intro r tmin tmax rec
  obtain ⟨o, d⟩ := r
  have m0 (a : Vec (Fl F) 3) : (a + cv v : Vec (Fl F) 3) 0 = a 0 := by rw [move_apply, h0, add_fin_zero]
  have m1 (a : Vec (Fl F) 3) : (a + cv v : Vec (Fl F) 3) 1 = a 1 := by rw [move_apply, h1, add_fin_zero]
  have m2 (a : Vec (Fl F) 3) : (a + cv v : Vec (Fl F) 3) 2 = a 2 + fin (v 2) := rfl
  have key : ∀ x : HitRecord (Fl F),
      (⟨s.radius, s.zmin + fin (v 2), s.zmax + fin (v 2)⟩ : Cylinder (Fl F)).finish ⟨o + cv v, d⟩ (x.moved v) =
        ((s.finish ⟨o, d⟩ x).1, (s.finish ⟨o, d⟩ x).2.moved v) := by
    intro x
    unfold Cylinder.finish Cylinder.complete Cylinder.setForms HitRecord.setFaceNormal Cylinder.getUV Cylinder.residual Cylinder.expectedResidual
      HitRecord.moved
    dsimp only
    simp only [m0, m1, m2, shift_sub]
    split_ifs <;> rfl
  show (⟨s.radius, s.zmin + fin (v 2), s.zmax + fin (v 2)⟩ : Cylinder (Fl F)).hit ⟨o + cv v, d⟩ tmin tmax (rec.moved v) =
    ((s.hit ⟨o, d⟩ tmin tmax rec).1, (s.hit ⟨o, d⟩ tmin tmax rec).2.moved v)
  unfold Cylinder.hit
  dsimp only
  rw [m0, m1]
  rcases quadraticRoots (d 0 * d 0 + d 1 * d 1) (2 * (o 0 * d 0 + o 1 * d 1)) (o 0 * o 0 + o 1 * o 1 - s.radius * s.radius) with
    _ | ⟨x, _ | ⟨y, _ | ⟨z, l⟩⟩⟩
  · rfl
  · rfl
  · have e (t : Fl F) : (Ray.mk (o + cv v) d).at t = (Ray.mk o d).at t + cv v := move_at v ⟨o, d⟩ t
    have sg (x : ℝ) (a b : Fl F) : Scalar.gt (a + fin x) (b + fin x) = Scalar.gt a b := shift_lt x b a
    simp only [e, m2, sg, shift_lt]
    have g : ∀ q : Bool × HitRecord (Fl F), (q.1, q.2.moved v) = (fun q : Bool × HitRecord (Fl F) => (q.1, q.2.moved v)) q := fun _ => rfl
    rw [g]
    have key' : ∀ x : HitRecord (Fl F), (fun q : Bool × HitRecord (Fl F) => (q.1, q.2.moved v)) (s.finish ⟨o, d⟩ x) = _ := fun x => (key x).symm
    generalize (fun q : Bool × HitRecord (Fl F) => (q.1, q.2.moved v)) = G at *
    have gf : ∀ x : HitRecord (Fl F), G (false, x) = (false, x.moved v) := fun x => (g (false, x)).symm
    simp only [apply_ite G, key', gf]
    rfl
  · rfl

/-- A cylinder of height 4 lifted by 5, in the scene of any ray. -/
example (r : Ray (Fl exact64)) (tmin tmax : Fl exact64) (rec : HitRecord (Fl exact64)) :
    ((Cylinder.toHittable ⟨fin 1, fin 0 + fin 5, fin 4 + fin 5⟩).hit (r.moved ![0, 0, 5]) tmin tmax (rec.moved ![0, 0, 5])).1 =
      ((Cylinder.toHittable ⟨fin 1, fin 0, fin 4⟩).hit r tmin tmax rec).1 := by
  have h := C124_cylinder ![0, 0, 5] rfl rfl (⟨fin 1, fin 0, fin 4⟩ : Cylinder (Fl exact64)) r tmin tmax rec
  exact (congrArg Prod.fst h :)

/-- `o'` is the object `o` moved by `v`, and so is its box. -/
def MovedBox (v : Fin 3 → ℝ) (o o' : Hittable (Fl F)) : Prop := Moved v o o' ∧ o'.bbox.2 = o.bbox.2.moved v

theorem MovedBox.comparator [F.Exact] {v : Fin 3 → ℝ} (axis : Fin 4) {a a' b b' : Hittable (Fl F)} (ha : MovedBox v a a') (hb : MovedBox v b b') :
    Bvh.comparator axis a' b' = Bvh.comparator axis a b := by
  have key (i : Fin 3) : Bvh.boxCompare i a' b' = Bvh.boxCompare i a b := by
    unfold Bvh.boxCompare
    rw [ha.2, hb.2]
    exact shift_lt _ _ _
  unfold Bvh.comparator
  split_ifs <;> exact key _

/-- C124: with the same draws of the axes, the moved objects are built into the moved tree, whatever the sort, if it goes by the comparisons
only. -/
theorem C124_build [F.Exact] (v : Fin 3 → ℝ) (axis : List Bool → Fin 4)
    (srt : List Bool → (Hittable (Fl F) → Hittable (Fl F) → Bool) → List (Hittable (Fl F)) → List (Hittable (Fl F))) (hs : SortsAlike srt)
    (fuel : ℕ) (path : List Bool) (os os' : List (Hittable (Fl F))) (ho : List.Forall₂ (MovedBox v) os os') :
    Option.Rel (fun t t' => TreeMoved v t t' ∧ t'.bbox.2 = t.bbox.2.moved v) (Bvh.build axis srt fuel path os) (Bvh.build axis srt fuel path os') := by
  refine Bvh.build_rel axis srt hs (fun x _ _ _ _ ha hb => ha.comparator x hb) (fun ha => ⟨.obj ha.1, ha.2⟩) (fun hl hr => ?_) fuel path os os' ho
  refine ⟨.close v hl.1 hr.1 hl.2 hr.2, ?_⟩
  show AABB.surrounding _ _ = (AABB.surrounding _ _).moved v
  rw [hl.2, hr.2]
  simp only [AABB.surrounding, AABB.moved, move_apply, fmin_shift, fmax_shift]
  rfl

/-- Three spheres moved by any vector, in a tree. -/
example (v : Fin 3 → ℝ) (axis : List Bool → Fin 4) (a b c : Sphere (Fl exact64)) :
    let m (s : Sphere (Fl exact64)) : Sphere (Fl exact64) := ⟨s.center + cv v, s.radius⟩
    Option.Rel (fun t t' => TreeMoved v t t' ∧ t'.bbox.2 = t.bbox.2.moved v)
      (Bvh.build axis (fun _ cmp os => os.insertionSort fun a b => cmp a b = true) 3 [] [a.toHittable, b.toHittable, c.toHittable])
      (Bvh.build axis (fun _ cmp os => os.insertionSort fun a b => cmp a b = true) 3 [] [(m a).toHittable, (m b).toHittable, (m c).toHittable]) := by
  intro m
  have hm (s : Sphere (Fl exact64)) : MovedBox v s.toHittable (m s).toHittable := ⟨s.moved v, s.bbox_moved v⟩
  exact C124_build v axis _ sortsAlike_insertion 3 [] _ _ (.cons (hm a) (.cons (hm b) (.cons (hm c) .nil)))

/-- C124, refuted for the boxes of disks, which do not depend on where the disk is in the first two coordinates (C63): moved sideways, a disk keeps
its box. -/
theorem C124_disk_box_false [F.Exact] (v : Fin 3 → ℝ) (hv : v 0 ≠ 0) (R : ℝ) (c n : Fin 3 → ℝ) :
    ¬ MovedBox v (Disk.ofReal (F := F) R c n).toHittable ({ Disk.ofReal (F := F) R c n with center := (Disk.ofReal (F := F) R c n).center + cv v } : Disk (Fl F)).toHittable := by
  intro h
  have h1 : -(fin R : Fl F) = -fin R + fin (v 0) := congrFun (congrArg AABB.lo h.2) 0
  simp at h1
  exact hv h1

/-- The unit disk moved by 5 along the first axis. -/
example : ¬ MovedBox ![5, 0, 0] (Disk.ofReal (F := exact64) 1 0 ![0, 0, 1]).toHittable
    ({ Disk.ofReal (F := exact64) 1 0 ![0, 0, 1] with center := (Disk.ofReal (F := exact64) 1 0 ![0, 0, 1]).center + cv ![5, 0, 0] } : Disk (Fl exact64)).toHittable :=
  C124_disk_box_false _ (by simp) _ _ _

end DRT
