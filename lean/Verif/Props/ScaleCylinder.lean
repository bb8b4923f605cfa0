import Verif.Props.Scale
import Verif.Props.Cylinder
import Verif.Props.Ellipsoid
import Verif.Props.Rect

/-! # C150 for cylinders: the unit of length, and what the record held before -/

namespace DRT
open Scalar Fl Render Vec

variable {F : Fmt} {S : Type} {k : ℝ}

/-- `o'` is the object `o` in a unit that is `k` times smaller, if the records handed to them correspond; hit or missed, the records then correspond
afterwards. -/
def Follows (k : ℝ) (o o' : Hittable (Fl F)) : Prop := ∀ r tmin tmax rec rec', RecScaled k rec rec' →
  (o'.hit (r.scaled k) (scale k tmin) (scale k tmax) rec').1 = (o.hit r tmin tmax rec).1 ∧
    RecScaled k (o.hit r tmin tmax rec).2 (o'.hit (r.scaled k) (scale k tmin) (scale k tmax) rec').2

/-- The cylinder in another unit. -/
noncomputable def Cylinder.scaled (k : ℝ) (s : Cylinder (Fl F)) : Cylinder (Fl F) := ⟨scale k s.radius, scale k s.zmin, scale k s.zmax⟩

/-- C150: a cylinder. Since it may report what the record held before (C64), the records before must correspond too. -/
theorem C150_cylinder (h : Scales F k) (ht : F.tiny = 0) (s : Cylinder (Fl F)) : Follows k s.toHittable (s.scaled k).toHittable := by
  intro r tmin tmax rec rec' hr
  obtain ⟨o, d⟩ := r
  have h2 := h.mul h
  have v3 (x y : Fl F) : (![scale k x, scale k y, 0] : Vec (Fl F) 3) = scaleV k ![x, y, 0] := by
    funext i; fin_cases i
    · rfl
    · rfl
    · exact h.zero.symm
  have key : ∀ x x' : HitRecord (Fl F), RecScaled k x x' →
      ((s.scaled k).finish ⟨scaleV k o, d⟩ x').1 = (s.finish ⟨o, d⟩ x).1 ∧
      RecScaled k (s.finish ⟨o, d⟩ x).2 ((s.scaled k).finish ⟨scaleV k o, d⟩ x').2 := by
    intro x x' hx
    obtain ⟨xt, xp⟩ : x'.t = scale k x.t ∧ x'.p = scaleV k x.p := ⟨hx.t, hx.p⟩
    have uv : (s.scaled k).getUV (scaleV k x.p) = s.getUV x.p := by
      unfold Cylinder.getUV Cylinder.scaled
      simp only [Scales.scaleV_apply, h.sub, h.div, h.atan2]
    have c : RecScaled k (s.complete ⟨o, d⟩ x) ((s.scaled k).complete ⟨scaleV k o, d⟩ x') := by
      unfold Cylinder.complete Cylinder.setForms HitRecord.setFaceNormal
      dsimp only
      simp only [xp, Scales.scaleV_apply, h.mul_right, v3, h.norm, h.sdivV, uv]
      exact ⟨xt, rfl, rfl, rfl, rfl, rfl⟩
    unfold Cylinder.finish
    dsimp only
    have e1 : Scalar.gt (Scalar.abs ((s.scaled k).residual ((s.scaled k).complete ⟨scaleV k o, d⟩ x').p))
        ((s.scaled k).expectedResidual ((s.scaled k).complete ⟨scaleV k o, d⟩ x').p) =
        Scalar.gt (Scalar.abs (s.residual (s.complete ⟨o, d⟩ x).p)) (s.expectedResidual (s.complete ⟨o, d⟩ x).p) := by
      rw [c.p]
      unfold Cylinder.residual Cylinder.expectedResidual Cylinder.scaled
      simp only [Scales.scaleV_apply, h.mul_left, h.mul_right, scale_scale, h2.add, h2.sub, h2.abs, h2.gt]
    rw [e1]
    split_ifs
    · exact ⟨rfl, c⟩
    · exact ⟨rfl, c⟩
  show ((s.scaled k).hit ⟨scaleV k o, d⟩ _ _ _).1 = (s.hit _ _ _ _).1 ∧ RecScaled k (s.hit _ _ _ _).2 ((s.scaled k).hit ⟨scaleV k o, d⟩ _ _ _).2
  have hq : quadraticRoots (d 0 * d 0 + d 1 * d 1) (2 * (scaleV k o 0 * d 0 + scaleV k o 1 * d 1))
      (scaleV k o 0 * scaleV k o 0 + scaleV k o 1 * scaleV k o 1 - (s.scaled k).radius * (s.scaled k).radius) =
      (quadraticRoots (d 0 * d 0 + d 1 * d 1) (2 * (o 0 * d 0 + o 1 * d 1)) (o 0 * o 0 + o 1 * o 1 - s.radius * s.radius)).map (scale k) := by
    rw [← h.quadraticRoots ht]
    unfold Cylinder.scaled
    simp only [Scales.scaleV_apply, h.mul_left, h.mul_right, h.add, scale_scale, h2.add, h2.sub]
  unfold Cylinder.hit
  dsimp only
  rw [hq]
  rcases quadraticRoots (d 0 * d 0 + d 1 * d 1) (2 * (o 0 * d 0 + o 1 * d 1)) (o 0 * o 0 + o 1 * o 1 - s.radius * s.radius) with
    _ | ⟨x, _ | ⟨y, _ | ⟨z, l⟩⟩⟩
  · exact ⟨rfl, hr⟩
  · exact ⟨rfl, hr⟩
  · simp only [List.map_cons, List.map_nil, h.lt, h.gt, h.at_, Scales.scaleV_apply]
    have z0 : (s.scaled k).zmin = scale k s.zmin := rfl
    have z1 : (s.scaled k).zmax = scale k s.zmax := rfl
    simp only [z0, z1, h.lt, h.gt]
    split_ifs
    · exact ⟨rfl, hr⟩
    · exact key _ _ hr
    · exact ⟨rfl, rfl, rfl, hr.normal, hr.face, hr.u, hr.v⟩
    · exact ⟨rfl, rfl, rfl, hr.normal, hr.face, hr.u, hr.v⟩
    · exact key _ _ ⟨rfl, rfl, hr.normal, hr.face, hr.u, hr.v⟩
    · exact key _ _ ⟨rfl, rfl, hr.normal, hr.face, hr.u, hr.v⟩
  · exact ⟨rfl, hr⟩

/-- The cylinder of radius 3 in metres and of radius 3000 in millimetres. -/
example (rec rec' : HitRecord (Fl exact0)) (hr : RecScaled 1000 rec rec') (r : Ray (Fl exact0)) :
    ((Cylinder.scaled 1000 ⟨fin 3, fin (-10), fin 10⟩).toHittable.hit (r.scaled 1000) (scale 1000 (fin 1)) pinf rec').1 =
      ((⟨fin 3, fin (-10), fin 10⟩ : Cylinder (Fl exact0)).toHittable.hit r (fin 1) pinf rec).1 :=
  (C150_cylinder (scales_exact0 (by norm_num)) rfl _ r (fin 1) pinf rec rec' hr).1

/-- C150, refuted for cylinders with unrelated records: whether the cylinder is hit at all may depend on what the record
held before (C64, C65), so no object whatever stands for it in another unit. -/
theorem C150_cylinder_false [F.Exact] (k : ℝ) (rec : HitRecord (Fl F)) (o' : Hittable (Fl F)) : ¬ Scaled k (Cylinder.ofReal (F := F) 1 0 1).toHittable o' := by
  intro h
  let r : Ray (Fl F) := ⟨cv ![0, 0, 1/2], cv ![1, 0, 0]⟩
  let a : HitRecord (Fl F) := { rec with p := cv ![1, 0, 0] }
  let b : HitRecord (Fl F) := { rec with p := cv ![100, 0, 0] }
  have ha : ((Cylinder.ofReal (F := F) 1 0 1).hit r (fin 0) (fin 2) a).1 = true := by
    rw [Cylinder.hit_axis]
    exact Cylinder.finish_true 1 0 1 _ a rfl (by norm_num)
  have hb : ((Cylinder.ofReal (F := F) 1 0 1).hit r (fin 0) (fin 2) b).1 = false := (C65_inside_false b rfl).2
  have h1 := (h r (fin 0) (fin 2) a a).1
  have h2 := (h r (fin 0) (fin 2) b a).1
  have : true = false := by rw [← ha, ← hb]; exact h1.symm.trans h2
  cases this

/-! ## Lists with cylinders -/

/-- An object that is the same hit from any record, and leaves the record alone if missed. -/
theorem Follows.of_scaled {o o' : Hittable (Fl F)} (h : Scaled k o o')
    (hm : ∀ r tmin tmax rec, (o.hit r tmin tmax rec).1 = false → (o.hit r tmin tmax rec).2 = rec)
    (hm' : ∀ r tmin tmax rec, (o'.hit r tmin tmax rec).1 = false → (o'.hit r tmin tmax rec).2 = rec) : Follows k o o' := by
  intro r tmin tmax rec rec' hr
  obtain ⟨h1, h2⟩ := h r tmin tmax rec rec'
  refine ⟨h1, ?_⟩
  cases hb : (o.hit r tmin tmax rec).1 with
  | true => exact h2 hb
  | false => rw [hm _ _ _ _ hb, hm' _ _ _ _ (h1.trans hb)]; exact hr

theorem loop_follows (h : Scales F k) {r : Ray (Fl F)} {tmin : Fl F} {os os' : List (Hittable (Fl F))} (ho : List.Forall₂ (Follows k) os os') :
    ∀ (i : ℕ) (st st' : HittableList.State (Fl F)), (st'.closest = scale k st.closest ∧ st'.idx = st.idx ∧ RecScaled k st.temp st'.temp ∧
        (st.idx ≠ none → RecScaled k st.out st'.out)) →
      (HittableList.loop (r.scaled k) (scale k tmin) os' i st').idx = (HittableList.loop r tmin os i st).idx ∧
      ((HittableList.loop r tmin os i st).idx ≠ none →
        RecScaled k (HittableList.loop r tmin os i st).out (HittableList.loop (r.scaled k) (scale k tmin) os' i st').out) := by
  induction ho with
  | nil => intro i st st' h; exact ⟨h.2.1, h.2.2.2⟩
  | @cons o o' os os' h1 _ ih =>
    intro i st st' hs
    rw [HittableList.loop, HittableList.loop]
    refine ih _ _ _ ?_
    obtain ⟨hc, hi, ht, ho⟩ := hs
    obtain ⟨e1, e4⟩ := h1 r tmin st.closest st.temp st'.temp ht
    unfold HittableList.step
    simp only [hc, e1]
    cases hb : (o.hit r tmin st.closest st.temp).1 with
    | false => exact ⟨rfl, hi, e4, ho⟩
    | true =>
      simp only [if_true, e4.t, h.lt]
      split_ifs
      · exact ⟨rfl, rfl, e4, fun _ => e4⟩
      · exact ⟨rfl, hi, e4, ho⟩

/-- C150: a list of objects among which there may be cylinders is the same scene in the other unit, if the temporary records with which
`hittable_list::hit` begins correspond. Then `C150_ray` and `C150_image` apply. -/
theorem C150_list_with_cylinders (h : Scales F k) {os os' : List (Hittable (Fl F))} {ms ms' : List (Material (Fl F) S)}
    (ho : List.Forall₂ (Follows k) os os') (hm : List.Forall₂ (MatScaled k) ms ms') (temp0 temp0' : HitRecord (Fl F)) (ht : RecScaled k temp0 temp0') :
    ScaledWorld k ((⟨os, ms⟩ : HittableList _ _).world temp0) ((⟨os', ms'⟩ : HittableList _ _).world temp0') := by
  intro s r tmin tmax rec rec'
  have hl := loop_follows h (r := r) (tmin := tmin) ho 0 ⟨temp0, tmax, rec, none⟩ ⟨temp0', scale k tmax, rec', none⟩
    ⟨rfl, rfl, ht, fun h => absurd rfl h⟩
  unfold HittableList.world HittableList.hit
  dsimp only at hl ⊢
  generalize HittableList.loop r tmin os 0 ⟨temp0, tmax, rec, none⟩ = st at *
  generalize HittableList.loop (r.scaled k) (scale k tmin) os' 0 ⟨temp0', scale k tmax, rec', none⟩ = st' at *
  obtain ⟨tp, cl, out, idx⟩ := st
  obtain ⟨tp', cl', out', idx'⟩ := st'
  obtain ⟨h2, h3⟩ := hl
  dsimp only at h2 h3
  subst h2
  cases idx' with
  | none => exact ⟨_, rfl⟩
  | some i =>
    dsimp only
    rcases Nat.lt_or_ge i ms.length with h1 | h1
    · have h2 : i < ms'.length := hm.length_eq ▸ h1
      have h4 := List.forall₂_iff_get.mp hm |>.2 i h1 h2
      rw [List.getElem?_eq_getElem h1, List.getElem?_eq_getElem h2]
      exact ⟨_, _, h4, h3 (by simp), rfl⟩
    · have h2 : ms'.length ≤ i := hm.length_eq ▸ h1
      rw [List.getElem?_eq_none h1, List.getElem?_eq_none h2]
      rfl

/-- A lamp and a cylinder, as in cylinder.cpp, in metres and in millimetres. -/
example (temp0 temp0' : HitRecord (Fl exact0)) (ht : RecScaled 1000 temp0 temp0') :
    let lamp : Rect (Fl exact0) := ⟨fin (-10), fin 10, fin (-10), fin 10, fin 20⟩
    let wall : Cylinder (Fl exact0) := ⟨fin 3, fin (-10), fin 10⟩
    let ms : List (Material (Fl exact0) Pcg) := [Material.diffuseLight (solidColor (cv ![3, 3, 3])), Material.lambertian (solidColor (cv ![0, 0, 1])) id fun g _ => g]
    ScaledWorld 1000 ((⟨[lamp.yz, wall.toHittable], ms⟩ : HittableList _ _).world temp0)
      ((⟨[(lamp.scaled 1000).yz, (wall.scaled 1000).toHittable], ms⟩ : HittableList _ _).world temp0') := by
  intro lamp wall ms
  have hk : Scales exact0 1000 := scales_exact0 (by norm_num)
  refine C150_list_with_cylinders hk (.cons ?_ (.cons (C150_cylinder hk rfl wall) .nil)) (.cons ?_ (.cons ?_ .nil)) _ _ ht
  · exact .of_scaled (C150_rect hk lamp).2.2 (fun _ _ _ _ => C93_rect _ _ _ _ _ _ _ _ _) (fun _ _ _ _ => C93_rect _ _ _ _ _ _ _ _ _)
  · exact matScaled_light (texScaled_solid _)
  · exact matScaled_lambertian (texScaled_solid _) _ _

end DRT
