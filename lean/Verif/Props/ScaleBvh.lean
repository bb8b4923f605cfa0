import Verif.Props.ScaleCylinder

/-! # C150 for trees: the unit of length -/

namespace DRT
open Scalar Fl Render Vec

variable {F : Fmt} {k : ℝ}

/-- The box in another unit. -/
noncomputable def AABB.scaled (k : ℝ) (b : AABB (Fl F)) : AABB (Fl F) := ⟨scaleV k b.lo, scaleV k b.hi⟩

theorem Scales.isNaN (_ : Scales F k) (x : Fl F) : Scalar.isNaN (scale k x) = Scalar.isNaN x := by
  cases x <;> rfl

theorem Scales.fmin (h : Scales F k) (x y : Fl F) : Scalar.fmin (scale k x) (scale k y) = scale k (Scalar.fmin x y) := by
  unfold Scalar.fmin
  rw [h.isNaN, h.isNaN, h.lt]
  split_ifs <;> rfl

theorem Scales.fmax (h : Scales F k) (x y : Fl F) : Scalar.fmax (scale k x) (scale k y) = scale k (Scalar.fmax x y) := by
  unfold Scalar.fmax
  rw [h.isNaN, h.isNaN, h.lt]
  split_ifs <;> rfl

theorem AABB.slab_scaled (h : Scales F k) (b : AABB (Fl F)) (r : Ray (Fl F)) (i : Fin 3) (t : Fl F × Fl F) :
    (b.scaled k).slab (r.scaled k) i (scale k t.1, scale k t.2) = (b.slab r i t).map fun x => (scale k x.1, scale k x.2) := by
  unfold AABB.slab AABB.scaled Ray.scaled
  dsimp only
  simp only [Scales.scaleV_apply, h.sub, h.mul_left]
  by_cases h0 : Scalar.lt (1 / r.dir i) 0 = true
  · simp only [h0, if_true, h.gt, h.lt, ← apply_ite (scale k), h.le]
    split_ifs <;> rfl
  · rw [Bool.not_eq_true] at h0
    simp only [h0, Bool.false_eq_true, if_false, h.gt, h.lt, ← apply_ite (scale k), h.le]
    split_ifs <;> rfl

/-- C150: a box is met in the one unit if and only if it is in the other. -/
theorem C150_box (h : Scales F k) (b : AABB (Fl F)) (r : Ray (Fl F)) (tmin tmax : Fl F) :
    (b.scaled k).hit (r.scaled k) (scale k tmin) (scale k tmax) = b.hit r tmin tmax := by
  unfold AABB.hit
  have e0 := AABB.slab_scaled h b r 0 (tmin, tmax)
  dsimp only at e0
  rw [e0]
  cases b.slab r 0 (tmin, tmax) with
  | none => rfl
  | some t =>
    simp only [Option.map_some, Option.bind_some]
    rw [AABB.slab_scaled h b r 1 t]
    cases b.slab r 1 t with
    | none => rfl
    | some t =>
      simp only [Option.map_some, Option.bind_some]
      rw [AABB.slab_scaled h b r 2 t]
      cases b.slab r 2 t <;> rfl

theorem AABB.surrounding_scaled (h : Scales F k) (a b : AABB (Fl F)) :
    AABB.surrounding (a.scaled k) (b.scaled k) = (AABB.surrounding a b).scaled k := by
  unfold AABB.surrounding AABB.scaled
  simp only [Scales.scaleV_apply, h.fmin, h.fmax]
  rfl

/-- `o'` is the object `o` in the other unit, and so is its box. -/
def FollowsBox (k : ℝ) (o o' : Hittable (Fl F)) : Prop := Follows k o o' ∧ o'.bbox = (o.bbox.1, o.bbox.2.scaled k)

/-- The tree in the other unit. -/
inductive TreeScaled (k : ℝ) : Bvh (Fl F) → Bvh (Fl F) → Prop
  | obj {o o'} : FollowsBox k o o' → TreeScaled k (.obj o) (.obj o')
  | node {l l' r r' b} : TreeScaled k l l' → TreeScaled k r r' → TreeScaled k (.node l r b) (.node l' r' (b.scaled k))

/-- C150: a tree, of any depth. -/
theorem C150_tree (h : Scales F k) {t t' : Bvh (Fl F)} (ht : TreeScaled k t t') : FollowsBox k ⟨t.hit, t.bbox⟩ ⟨t'.hit, t'.bbox⟩ := by
  induction ht with
  | obj ho => exact ho
  | @node l l' r r' b _ _ il ir =>
    refine ⟨fun ry tmin tmax rec rec' hr => ?_, rfl⟩
    simp only [Bvh.hit, C150_box h]
    cases b.hit ry tmin tmax with
    | false => exact ⟨rfl, hr⟩
    | true =>
      obtain ⟨e1, e2⟩ := il.1 ry tmin tmax rec rec' hr
      dsimp only at e1 e2
      have e3 : (if (l'.hit (ry.scaled k) (scale k tmin) (scale k tmax) rec').1 = true then
          (l'.hit (ry.scaled k) (scale k tmin) (scale k tmax) rec').2.t else scale k tmax) =
          scale k (if (l.hit ry tmin tmax rec).1 = true then (l.hit ry tmin tmax rec).2.t else tmax) := by
        rw [e1, e2.t]; split_ifs <;> rfl
      simp only [if_true, e3]
      obtain ⟨f1, f2⟩ := ir.1 ry tmin (if (l.hit ry tmin tmax rec).1 = true then (l.hit ry tmin tmax rec).2.t else tmax) _ _ e2
      dsimp only at f1 f2
      exact ⟨by rw [e1, f1], f2⟩

theorem FollowsBox.comparator (h : Scales F k) (axis : Fin 4) {a a' b b' : Hittable (Fl F)} (ha : FollowsBox k a a') (hb : FollowsBox k b b') :
    Bvh.comparator axis a' b' = Bvh.comparator axis a b := by
  have key (i : Fin 3) : Bvh.boxCompare i a' b' = Bvh.boxCompare i a b := by
    unfold Bvh.boxCompare
    rw [ha.2, hb.2]
    exact h.lt _ _
  unfold Bvh.comparator
  split_ifs <;> exact key _

theorem TreeScaled.close (h : Scales F k) {l l' r r' : Bvh (Fl F)} (hl : TreeScaled k l l') (hr : TreeScaled k r r') :
    TreeScaled k (Bvh.close l r) (Bvh.close l' r') := by
  have el := (C150_tree h hl).2
  have er := (C150_tree h hr).2
  dsimp only at el er
  unfold Bvh.close
  rw [el, er, AABB.surrounding_scaled h]
  exact .node hl hr

/-- A sort that goes by the comparisons only: on lists whose members compare alike it does the same moves. -/
def SortsAlike (srt : List Bool → (Hittable (Fl F) → Hittable (Fl F) → Bool) → List (Hittable (Fl F)) → List (Hittable (Fl F))) : Prop :=
  ∀ (Rel : Hittable (Fl F) → Hittable (Fl F) → Prop) path cmp, (∀ a a' b b', Rel a a' → Rel b b' → cmp a' b' = cmp a b) →
    ∀ os os', List.Forall₂ Rel os os' → List.Forall₂ Rel (srt path cmp os) (srt path cmp os')

theorem optionRel_cases {α : Type} {R : α → α → Prop} {x x' : Option α} (h : Option.Rel R x x') :
    (x = none ∧ x' = none) ∨ ∃ a a', x = some a ∧ x' = some a' ∧ R a a' := by
  cases h with
  | none => exact .inl ⟨rfl, rfl⟩
  | some h => exact .inr ⟨_, _, rfl, rfl, h⟩

/-- Objects that compare alike are built into trees alike, whatever the relation that the trees are to have. -/
theorem Bvh.build_rel {Rel : Hittable (Fl F) → Hittable (Fl F) → Prop} {TRel : Bvh (Fl F) → Bvh (Fl F) → Prop} (axis : List Bool → Fin 4)
    (srt : List Bool → (Hittable (Fl F) → Hittable (Fl F) → Bool) → List (Hittable (Fl F)) → List (Hittable (Fl F))) (hs : SortsAlike srt)
    (hc : ∀ (x : Fin 4) {a a' b b'}, Rel a a' → Rel b b' → Bvh.comparator x a' b' = Bvh.comparator x a b)
    (hb : ∀ {a a'}, Rel a a' → TRel (.obj a) (.obj a')) (hj : ∀ {l l' r r'}, TRel l l' → TRel r r' → TRel (Bvh.close l r) (Bvh.close l' r')) :
    ∀ (fuel : ℕ) (path : List Bool) (os os' : List (Hittable (Fl F))), List.Forall₂ Rel os os' →
      Option.Rel TRel (Bvh.build axis srt fuel path os) (Bvh.build axis srt fuel path os') := by
  intro fuel
  induction fuel with
  | zero => intro path os os' _; exact .none
  | succ fuel ih =>
    intro path os os' ho
    have halves : ∀ os os' : List (Hittable (Fl F)), List.Forall₂ Rel os os' →
        Option.Rel TRel (Bvh.build axis srt fuel (false :: path) ((srt path (Bvh.comparator (axis path)) os).take (os.length / 2)))
          (Bvh.build axis srt fuel (false :: path) ((srt path (Bvh.comparator (axis path)) os').take (os'.length / 2))) ∧
        Option.Rel TRel (Bvh.build axis srt fuel (true :: path) ((srt path (Bvh.comparator (axis path)) os).drop (os.length / 2)))
          (Bvh.build axis srt fuel (true :: path) ((srt path (Bvh.comparator (axis path)) os').drop (os'.length / 2))) := by
      intro os os' ho
      have hso := hs Rel path (Bvh.comparator (axis path)) (fun _ _ _ _ ha hb' => hc _ ha hb') os os' ho
      rw [ho.length_eq]
      exact ⟨ih (false :: path) _ _ (List.forall₂_take (os'.length / 2) hso), ih (true :: path) _ _ (List.forall₂_drop (os'.length / 2) hso)⟩
    cases ho with
    | nil =>
      unfold Bvh.build
      dsimp only
      rcases optionRel_cases (halves _ _ .nil).1 with ⟨e1, -⟩ | ⟨l, l', e1, e2, hl⟩
      · rw [e1]; exact .none
      · obtain rfl : l = l' := Option.some.inj (e1.symm.trans e2)
        rcases optionRel_cases (halves _ _ .nil).2 with ⟨e3, -⟩ | ⟨r, r', e3, e4, hr⟩
        · rw [e1, e3]; exact .none
        · obtain rfl : r = r' := Option.some.inj (e3.symm.trans e4)
          rw [e1, e3]; exact .some (hj hl hr)
    | cons h1 ho =>
      cases ho with
      | nil => exact .some (hj (hb h1) (hb h1))
      | cons h2 ho =>
        cases ho with
        | nil =>
          unfold Bvh.build
          dsimp only
          rw [hc _ h1 h2]
          split_ifs
          · exact .some (hj (hb h1) (hb h2))
          · exact .some (hj (hb h2) (hb h1))
        | cons h3 ho =>
          unfold Bvh.build
          dsimp only
          rcases optionRel_cases (halves _ _ (.cons h1 (.cons h2 (.cons h3 ho)))).1 with ⟨e1, e2⟩ | ⟨l, l', e1, e2, hl⟩
          · rw [e1, e2]; exact .none
          · rcases optionRel_cases (halves _ _ (.cons h1 (.cons h2 (.cons h3 ho)))).2 with ⟨e3, e4⟩ | ⟨r, r', e3, e4, hr⟩
            · rw [e1, e2, e3, e4]; exact .none
            · rw [e1, e2, e3, e4]; exact .some (hj hl hr)

/-- C150: with the same draws of the axes, the same tree is built in both units, whatever the sort, if it goes by the comparisons only. -/
theorem C150_build (h : Scales F k) (axis : List Bool → Fin 4)
    (srt : List Bool → (Hittable (Fl F) → Hittable (Fl F) → Bool) → List (Hittable (Fl F)) → List (Hittable (Fl F))) (hs : SortsAlike srt) :
    ∀ (fuel : ℕ) (path : List Bool) (os os' : List (Hittable (Fl F))), List.Forall₂ (FollowsBox k) os os' →
      Option.Rel (TreeScaled k) (Bvh.build axis srt fuel path os) (Bvh.build axis srt fuel path os') :=
  Bvh.build_rel axis srt hs (fun x _ _ _ _ ha hb => ha.comparator h x hb) .obj (.close h)

/-- Sorting by insertion goes by the comparisons only. -/
theorem sortsAlike_insertion : SortsAlike (F := F) fun _ cmp os => os.insertionSort fun a b => cmp a b = true := by
  intro Rel path cmp hc os os' ho
  have ins : ∀ {a a' : Hittable (Fl F)} {l l'}, Rel a a' → List.Forall₂ Rel l l' →
      List.Forall₂ Rel (l.orderedInsert (fun a b => cmp a b = true) a) (l'.orderedInsert (fun a b => cmp a b = true) a') := by
    intro a a' l l' ha hl
    induction hl with
    | nil => exact .cons ha .nil
    | cons h1 hl ih =>
      simp only [List.orderedInsert_cons, hc _ _ _ _ ha h1]
      split_ifs
      · exact .cons ha (.cons h1 hl)
      · exact .cons h1 ih
  induction ho with
  | nil => exact .nil
  | cons h1 _ ih => exact ins h1 ih

/-- A cylinder has its box in the other unit. -/
theorem followsBox_cylinder (h : Scales F k) (ht : F.tiny = 0) (s : Cylinder (Fl F)) : FollowsBox k s.toHittable (s.scaled k).toHittable := by
  refine ⟨C150_cylinder h ht s, ?_⟩
  show (true, _) = (true, _)
  congr 1
  unfold AABB.scaled Cylinder.scaled
  congr 1 <;> funext i <;> fin_cases i <;> first | rfl | exact Scales.neg _

/-- Three cylinders in a tree, in metres and in millimetres. -/
example (axis : List Bool → Fin 4) (a b c : Cylinder (Fl exact0)) :
    Option.Rel (TreeScaled 1000)
      (Bvh.build axis (fun _ cmp os => os.insertionSort fun a b => cmp a b = true) 3 [] [a.toHittable, b.toHittable, c.toHittable])
      (Bvh.build axis (fun _ cmp os => os.insertionSort fun a b => cmp a b = true) 3 []
        [(a.scaled 1000).toHittable, (b.scaled 1000).toHittable, (c.scaled 1000).toHittable]) := by
  have h : Scales exact0 1000 := scales_exact0 (by norm_num)
  exact C150_build h axis _ sortsAlike_insertion 3 [] _ _
    (.cons (followsBox_cylinder h rfl a) (.cons (followsBox_cylinder h rfl b) (.cons (followsBox_cylinder h rfl c) .nil)))

/-- A tree over one cylinder, in a unit 1024 times as long and rounded to 53 bits: it is met by the same rays. -/
example (s : Cylinder (Fl (unbounded 53))) (r : Ray (Fl (unbounded 53))) (tmin tmax : Fl (unbounded 53)) (rec rec' : HitRecord (Fl (unbounded 53)))
    (hr : RecScaled (2 ^ (-10 : ℤ)) rec rec') :
    let o := s.toHittable
    let o' := (s.scaled (2 ^ (-10 : ℤ))).toHittable
    ((Bvh.close (.obj o') (.obj o')).hit (r.scaled (2 ^ (-10 : ℤ))) (scale (2 ^ (-10 : ℤ)) tmin) (scale (2 ^ (-10 : ℤ)) tmax) rec').1 =
      ((Bvh.close (.obj o) (.obj o)).hit r tmin tmax rec).1 := by
  intro o o'
  have h : Scales (unbounded 53) (2 ^ (-10 : ℤ)) := scales_unbounded 53 (-10)
  have ho : TreeScaled (2 ^ (-10 : ℤ)) (.obj o) (.obj o') := .obj (followsBox_cylinder h rfl s)
  exact ((C150_tree h (ho.close h ho)).1 r tmin tmax rec rec' hr).1

/-! ## Boxes of the shapes -/

/-- A sphere has its box in the other unit. -/
theorem followsBox_sphere (h : Scales F k) (ht : F.tiny = 0) (s : Sphere (Fl F)) : FollowsBox k s.toHittable (s.scaled k).toHittable := by
  refine ⟨.of_scaled (C150_sphere h ht s) (fun _ _ _ _ => C93_sphere _ _ _ _ _) (fun _ _ _ _ => C93_sphere _ _ _ _ _), ?_⟩
  show (true, _) = (true, _)
  have e : (![scale k s.radius, scale k s.radius, scale k s.radius] : Vec (Fl F) 3) = scaleV k ![s.radius, s.radius, s.radius] := by
    funext i; fin_cases i <;> rfl
  simp only [Sphere.scaled, e, h.subV, h.addV]
  rfl

/-- An ellipsoid has its box in the other unit. -/
theorem followsBox_ellipsoid (h : Scales F k) (ht : F.tiny = 0) (s : Ellipsoid (Fl F)) : FollowsBox k s.toHittable (s.scaled k).toHittable := by
  refine ⟨.of_scaled (C150_ellipsoid h ht s) (fun _ _ _ _ => C93_ellipsoid _ _ _ _ _) (fun _ _ _ _ => C93_ellipsoid _ _ _ _ _), ?_⟩
  show (true, _) = (true, _)
  simp only [Ellipsoid.scaled, h.subV, h.addV]
  rfl

/-- C150, refuted for the boxes of rectangles, which are thickened by a number without a unit: in no other unit is the box the same box. -/
theorem C150_rect_box_false [F.Exact] {k : ℝ} (hk : k ≠ 1) (a0 a1 b0 b1 z : ℝ) :
    let s : Rect (Fl F) := ⟨fin a0, fin a1, fin b0, fin b1, fin z⟩
    ¬ FollowsBox k s.xy (s.scaled k).xy ∧ ¬ FollowsBox k s.xz (s.scaled k).xz ∧ ¬ FollowsBox k s.yz (s.scaled k).yz := by
  intro s
  have key : ¬ scale k (fin z : Fl F) - Rect.pad = scale k ((fin z : Fl F) - Rect.pad) := by
    have hp : (Rect.pad : Fl F) = fin (Real.sqrt F.eps / 100) := by
      unfold Rect.pad
      rw [eps_def, sqrt_fin Fmt.Exact.eps_pos.le, ofNat_def, div_fin _ (by norm_num)]; norm_num
    have h0 : 0 < Real.sqrt F.eps := Real.sqrt_pos.mpr Fmt.Exact.eps_pos
    rw [hp]
    intro h
    rw [sub_fin, scale_fin, scale_fin, sub_fin, fin_inj] at h
    exact hk (mul_right_cancel₀ h0.ne' (by linarith))
  refine ⟨fun h => key ?_, fun h => key ?_, fun h => key ?_⟩
  · exact congrFun (congrArg (fun x => x.2.lo) h.2) 2
  · exact congrFun (congrArg (fun x => x.2.lo) h.2) 1
  · exact congrFun (congrArg (fun x => x.2.lo) h.2) 0

/-- A square in metres and in millimetres. -/
example : ¬ FollowsBox 1000 (⟨fin 0, fin 1, fin 0, fin 1, fin 2⟩ : Rect (Fl exact64)).xy (Rect.scaled 1000 ⟨fin 0, fin 1, fin 0, fin 1, fin 2⟩).xy :=
  (C150_rect_box_false (by norm_num) 0 1 0 1 2).1

end DRT
