import Verif.Lemmas.Scale
import Verif.Props.Translate
import Verif.Props.Turn
import Verif.Props.Sphere
import Verif.Props.Disk
import Verif.Model.Rect
import Verif.Model.Ellipsoid

/-! # C150: the unit of length -/

namespace DRT
open Scalar Fl Render Vec

variable {F : Fmt} {S : Type} {k : ℝ}

/-! ## The same scene in another unit -/

/-- The ray with its origin in a unit that is `k` times smaller. -/
noncomputable def Ray.scaled (k : ℝ) (r : Ray (Fl F)) : Ray (Fl F) := ⟨scaleV k r.origin, r.dir⟩

/-- The hit `rec'` is the hit `rec` in a unit that is `k` times smaller. -/
structure RecScaled (k : ℝ) (rec rec' : HitRecord (Fl F)) : Prop where
  t : rec'.t = scale k rec.t
  p : rec'.p = scaleV k rec.p
  normal : rec'.normal = rec.normal
  face : rec'.frontFace = rec.frontFace
  u : rec'.u = rec.u
  v : rec'.v = rec.v

/-- `o'` is the object `o` in a unit that is `k` times smaller. -/
def Scaled (k : ℝ) (o o' : Hittable (Fl F)) : Prop := ∀ r tmin tmax rec rec',
  (o'.hit (r.scaled k) (scale k tmin) (scale k tmax) rec').1 = (o.hit r tmin tmax rec).1 ∧
    ((o.hit r tmin tmax rec).1 = true → RecScaled k (o.hit r tmin tmax rec).2 (o'.hit (r.scaled k) (scale k tmin) (scale k tmax) rec').2)

/-- The sphere in another unit. -/
noncomputable def Sphere.scaled (k : ℝ) (s : Sphere (Fl F)) : Sphere (Fl F) := ⟨scaleV k s.center, scale k s.radius⟩
/-- The ellipsoid in another unit. -/
noncomputable def Ellipsoid.scaled (k : ℝ) (s : Ellipsoid (Fl F)) : Ellipsoid (Fl F) := ⟨scaleV k s.center, scaleV k s.scales⟩
/-- The rectangle in another unit. -/
noncomputable def Rect.scaled (k : ℝ) (s : Rect (Fl F)) : Rect (Fl F) := ⟨scale k s.a0, scale k s.a1, scale k s.b0, scale k s.b1, scale k s.k⟩

/-- C150: a sphere. -/
theorem C150_sphere (h : Scales F k) (ht : F.tiny = 0) (s : Sphere (Fl F)) : Scaled k s.toHittable (s.scaled k).toHittable := by
  rintro ⟨o, d⟩ tmin tmax rec rec'
  show (Sphere.hit _ _ _ _ _).1 = (Sphere.hit _ _ _ _ _).1 ∧ ((Sphere.hit _ _ _ _ _).1 = true → RecScaled k (Sphere.hit _ _ _ _ _).2 (Sphere.hit _ _ _ _ _).2)
  have h2 := h.mul h
  unfold Sphere.hit Ray.scaled Sphere.scaled
  simp only [h.subV, h.dot_left, h.squaredNorm, h.mul_left, h.mul_right, scale_scale, h2.sub, h.firstRoot ht]
  cases firstQuadraticRootInRange (squaredNorm d) (2 * Vec.dot (o - s.center) d) (squaredNorm (o - s.center) - s.radius * s.radius) tmin tmax with
  | none => exact ⟨rfl, fun h => by cases h⟩
  | some t =>
    refine ⟨rfl, fun _ => ?_⟩
    simp only [Option.map_some, h.at_, h.subV, h.sdivV]
    have uv : Sphere.getUV ⟨scaleV k s.center, scale k s.radius⟩ (scaleV k ((Ray.mk o d).at t)) = s.getUV ((Ray.mk o d).at t) := by
      unfold Sphere.getUV
      simp only [Scales.scaleV_apply, h.sub, h.div]
    refine ⟨rfl, rfl, rfl, rfl, ?_, ?_⟩
    · exact congrArg Prod.fst uv
    · exact congrArg Prod.snd uv

/-- C150: the three kinds of rectangles. -/
theorem C150_rect (h : Scales F k) (s : Rect (Fl F)) :
    Scaled k s.xy (s.scaled k).xy ∧ Scaled k s.xz (s.scaled k).xz ∧ Scaled k s.yz (s.scaled k).yz := by
  have key : ∀ (i j n : Fin 3) (m : Vec (Fl F) 3) (r : Ray (Fl F)) (tmin tmax : Fl F) (rec rec' : HitRecord (Fl F)),
      (Rect.hitPlane i j n m (s.scaled k) (r.scaled k) (scale k tmin) (scale k tmax) rec').1 = (Rect.hitPlane i j n m s r tmin tmax rec).1 ∧
      ((Rect.hitPlane i j n m s r tmin tmax rec).1 = true →
        RecScaled k (Rect.hitPlane i j n m s r tmin tmax rec).2 (Rect.hitPlane i j n m (s.scaled k) (r.scaled k) (scale k tmin) (scale k tmax) rec').2) := by
    rintro i j n m ⟨o, d⟩ tmin tmax rec rec'
    unfold Rect.hitPlane Ray.scaled Rect.scaled
    simp only [Scales.scaleV_apply, h.sub, h.div_left, h.lt, h.gt, h.mul_left, h.add, h.at_, h.undiv]
    split_ifs
    · exact ⟨rfl, fun h => by cases h⟩
    · exact ⟨rfl, fun h => by cases h⟩
    · exact ⟨rfl, fun _ => ⟨rfl, rfl, rfl, rfl, rfl, rfl⟩⟩
  exact ⟨key 0 1 2 _, key 0 2 1 _, key 1 2 0 _⟩

/-- C150: a disk. Its matrices depend on the normal alone. -/
theorem C150_disk (h : Scales F k) (R : Fl F) (c n : Vec (Fl F) 3) (s : Disk (Fl F)) (hs : Disk.make R c n = some s) :
    ∃ s', Disk.make (scale k R) (scaleV k c) n = some s' ∧ Scaled k s.toHittable s'.toHittable := by
  have h2 := h.mul h
  refine ⟨⟨scale k s.radius, scaleV k s.center, s.normal, s.toWorld, s.toLocal⟩, ?_, ?_⟩
  · unfold Disk.make at hs ⊢
    split_ifs at hs ⊢
    · cases hs; rfl
    · cases hi : Mat.inverseVal3 (Disk.rotation n) with
      | none => rw [hi] at hs; cases hs
      | some inv => rw [hi] at hs; cases hs; rfl
  · rintro ⟨o, d⟩ tmin tmax rec rec'
    show (Disk.hit _ _ _ _ _).1 = (Disk.hit _ _ _ _ _).1 ∧ ((Disk.hit _ _ _ _ _).1 = true → RecScaled k (Disk.hit _ _ _ _ _).2 (Disk.hit _ _ _ _ _).2)
    unfold Disk.hit Ray.scaled Disk.record
    simp only [h.subV, h.mulVec, Scales.scaleV_apply, Scales.neg, h.div_left, h.lt, h.gt, h.mul_left, h.mul_right, h.add, scale_scale, h2.add, h2.gt,
      h.sqrt, h.undiv, h.atan2, h.at_]
    split_ifs
    · exact ⟨rfl, fun h => by cases h⟩
    · exact ⟨rfl, fun h => by cases h⟩
    · exact ⟨rfl, fun h => by cases h⟩
    all_goals exact ⟨rfl, fun _ => ⟨rfl, rfl, rfl, rfl, rfl, rfl⟩⟩

/-- The unit disk in metres and in millimetres. -/
example : ∃ s', Disk.make (scale 1000 (fin 1)) (scaleV 1000 (cv 0)) (cv ![0, 0, 1]) = some s' ∧
    Scaled 1000 (Disk.ofReal (F := exact0) 1 0 ![0, 0, 1]).toHittable s'.toHittable :=
  C150_disk (scales_exact0 (by norm_num)) _ _ _ _ (Disk.make_eq 1 0 ![0, 0, 1] (by simp [dotProduct, Fin.sum_univ_three]))

/-- C150: an ellipsoid. -/
theorem C150_ellipsoid (h : Scales F k) (ht : F.tiny = 0) (s : Ellipsoid (Fl F)) : Scaled k s.toHittable (s.scaled k).toHittable := by
  rintro ⟨o, d⟩ tmin tmax rec rec'
  show (Ellipsoid.hit _ _ _ _ _).1 = (Ellipsoid.hit _ _ _ _ _).1 ∧
    ((Ellipsoid.hit _ _ _ _ _).1 = true → RecScaled k (Ellipsoid.hit _ _ _ _ _).2 (Ellipsoid.hit _ _ _ _ _).2)
  have hi := h.inv
  have v3 (j : ℝ) (x y z : Fl F) : (![scale j x, scale j y, scale j z] : Vec (Fl F) 3) = scaleV j ![x, y, z] := by
    funext i; fin_cases i <;> rfl
  unfold Ellipsoid.hit Ray.scaled Ellipsoid.scaled
  simp only [h.subV, Scales.scaleV_apply, h.div, h.div_right, v3, hi.squaredNorm, hi.dot_right, hi.mul_right, h.firstRoot' ht]
  generalize firstQuadraticRootInRange _ _ _ tmin tmax = x
  cases x with
  | none => exact ⟨rfl, fun h => by cases h⟩
  | some t =>
    refine ⟨rfl, fun _ => ?_⟩
    have g : Ellipsoid.gradient ⟨scaleV k s.center, scaleV k s.scales⟩ (scaleV k ((Ray.mk o d).at t)) = scaleV k⁻¹ (s.gradient ((Ray.mk o d).at t)) := by
      unfold Ellipsoid.gradient
      simp only [h.subV, Scales.scaleV_apply, h.mul_left, h.mul_right, scale_scale, (h.mul h).div_right, (h.mul h).inv.mul_right, v3]
      rw [show k * (k * k)⁻¹ = k⁻¹ by have := h.ne; field_simp]
    have n : Vec.norm (scaleV k⁻¹ (s.gradient ((Ray.mk o d).at t))) = scale k⁻¹ (Vec.norm (s.gradient ((Ray.mk o d).at t))) := by
      unfold Vec.norm
      rw [hi.squaredNorm, hi.sqrt]
    have uv : Ellipsoid.getUV ⟨scaleV k s.center, scaleV k s.scales⟩ (scaleV k ((Ray.mk o d).at t)) = s.getUV ((Ray.mk o d).at t) := by
      unfold Ellipsoid.getUV
      simp only [Scales.scaleV_apply, h.sub, h.div]
    simp only [Option.map_some, h.at_, g, n, hi.sdivV, uv]
    exact ⟨rfl, rfl, rfl, rfl, rfl, rfl⟩

/-- An ellipsoid hit by a slanting ray, rounded to 53 bits: the same hit in a unit 1024 times as long. -/
example (rec rec' : HitRecord (Fl (unbounded 53))) :
    let s : Ellipsoid (Fl (unbounded 53)) := ⟨cv 0, cv ![1, 2, 3]⟩
    let r : Ray (Fl (unbounded 53)) := ⟨cv ![0, 1 / 3, 4], cv ![1 / 100, 0, -1]⟩
    ((s.scaled (2 ^ (-10 : ℤ))).toHittable.hit (r.scaled (2 ^ (-10 : ℤ))) (scale (2 ^ (-10 : ℤ)) (fin 0)) (scale (2 ^ (-10 : ℤ)) inf) rec').1 =
      (s.toHittable.hit r (fin 0) inf rec).1 :=
  (C150_ellipsoid (scales_unbounded 53 (-10)) rfl _ _ _ _ rec rec').1

/-! ## Materials -/

/-- What `scatter` yields, in another unit. -/
noncomputable def Scattered.scaled (k : ℝ) (x : Scattered (Fl F)) : Scattered (Fl F) := ⟨x.ok, x.attenuation, x.ray.map (Ray.scaled k)⟩

/-- `m'` behaves at the hits in the other unit like `m` at the original ones. -/
def MatScaled (k : ℝ) (m m' : Material (Fl F) S) : Prop := ∀ rec rec', RecScaled k rec rec' →
  m'.emitted rec' = m.emitted rec ∧ ∀ s r, m'.scatter s (r.scaled k) rec' = (m.scatter s r rec).map fun x => (x.1.scaled k, x.2)

/-- The texture has the same colours in the other unit. -/
def TexScaled (k : ℝ) (f f' : Texture (Fl F)) : Prop := ∀ rec rec', RecScaled k rec rec' → f' rec' = f rec

theorem texScaled_solid (c : Vec (Fl F) 3) : TexScaled k (solidColor c) (solidColor c) := fun _ _ _ => rfl

/-- A texture that looks at `u` and `v` alone. -/
theorem texScaled_uv (f : Fl F → Fl F → Vec (Fl F) 3) :
    TexScaled k (lambdaTexture fun rec => f rec.u rec.v) (lambdaTexture fun rec => f rec.u rec.v) := fun rec rec' h => by
  show f rec'.u rec'.v = f rec.u rec.v
  rw [h.u, h.v]

section
variable {f f' : Texture (Fl F)} (h : TexScaled k f f')
include h

theorem matScaled_light : MatScaled (S := S) k (Material.diffuseLight f) (Material.diffuseLight f') :=
  fun rec rec' hr => ⟨h rec rec' hr, fun _ _ => rfl⟩

theorem matScaled_metal : MatScaled (S := S) k (Material.metal f) (Material.metal f') := fun rec rec' hr => ⟨rfl, fun s r => by
  show some (Metal.scatter f' _ _, s) = some ((Metal.scatter f _ _).scaled k, s)
  unfold Metal.scatter
  rw [h rec rec' hr, hr.normal, hr.p]
  rfl⟩

theorem matScaled_dielectric (ir : Fl F) (draw : S → Fl F × S) : MatScaled k (Material.dielectric ir f draw) (Material.dielectric ir f' draw) :=
  fun rec rec' hr => ⟨h rec rec' hr, fun s r => by
    show some (Dielectric.scatter ir _ _ _, (draw s).2) = some ((Dielectric.scatter ir _ _ _).scaled k, (draw s).2)
    unfold Dielectric.scatter
    rw [hr.normal, hr.p, hr.face]
    rfl⟩

theorem matScaled_isotropic (draw : S → Vec (Fl F) 3 × S) : MatScaled k (Material.isotropic f draw) (Material.isotropic f' draw) :=
  fun rec rec' hr => ⟨rfl, fun s r => by
    show some (Isotropic.scatter f' _ (r.scaled k) _, (draw s).2) = some ((Isotropic.scatter f _ r _).scaled k, (draw s).2)
    unfold Isotropic.scatter
    rw [h rec rec' hr, hr.p]
    rfl⟩

theorem matScaled_lambertian (get : S → Pcg) (set : Pcg → S → S) : MatScaled k (Material.lambertian f get set) (Material.lambertian f' get set) :=
  fun rec rec' hr => ⟨rfl, fun s r => by
    show (Lambertian.scatter f' (2 ^ 64) (get s) (r.scaled k) rec').map (fun x => (x.1, set x.2 s)) =
      ((Lambertian.scatter f (2 ^ 64) (get s) r rec).map (fun x => (x.1, set x.2 s))).map fun x => (x.1.scaled k, x.2)
    generalize 2 ^ 64 = fuel
    unfold Lambertian.scatter
    rw [h rec rec' hr, hr.normal, hr.p]
    cases Lambertian.randomInHemisphere fuel (get s) rec.normal with
    | none => rfl
    | some x => rfl⟩
end

/-! ## Scenes -/

/-- `w'` is the scene `w` in a unit that is `k` times smaller. -/
def ScaledWorld (k : ℝ) (w w' : World (Fl F) S) : Prop := ∀ s r tmin tmax rec rec',
  match w s r tmin tmax rec with
  | none => w' s (r.scaled k) (scale k tmin) (scale k tmax) rec' = none
  | some (none, _, s₁) => ∃ rec₁, w' s (r.scaled k) (scale k tmin) (scale k tmax) rec' = some (none, rec₁, s₁)
  | some (some m, rec₁, s₁) => ∃ m' rec₁', MatScaled k m m' ∧ RecScaled k rec₁ rec₁' ∧
      w' s (r.scaled k) (scale k tmin) (scale k tmax) rec' = some (some m', rec₁', s₁)

theorem loop_scaled (h : Scales F k) {r : Ray (Fl F)} {tmin : Fl F} {os os' : List (Hittable (Fl F))} (ho : List.Forall₂ (Scaled k) os os') :
    ∀ (i : ℕ) (st st' : HittableList.State (Fl F)), (st'.closest = scale k st.closest ∧ st'.idx = st.idx ∧ (st.idx ≠ none → RecScaled k st.out st'.out)) →
      (HittableList.loop (r.scaled k) (scale k tmin) os' i st').idx = (HittableList.loop r tmin os i st).idx ∧
      ((HittableList.loop r tmin os i st).idx ≠ none →
        RecScaled k (HittableList.loop r tmin os i st).out (HittableList.loop (r.scaled k) (scale k tmin) os' i st').out) := by
  induction ho with
  | nil => intro i st st' h; exact h.2
  | @cons o o' os os' h1 _ ih =>
    intro i st st' hs
    rw [HittableList.loop, HittableList.loop]
    refine ih _ _ _ ?_
    obtain ⟨hc, hi, ho⟩ := hs
    obtain ⟨e1, e2⟩ := h1 r tmin st.closest st.temp st'.temp
    unfold HittableList.step
    simp only [hc, e1]
    cases hb : (o.hit r tmin st.closest st.temp).1 with
    | false => exact ⟨rfl, hi, ho⟩
    | true =>
      have e4 := e2 hb
      simp only [if_true, e4.t, h.lt]
      split_ifs
      · exact ⟨rfl, rfl, fun _ => e4⟩
      · exact ⟨rfl, hi, ho⟩

/-- A list of objects in another unit. -/
theorem scaledWorld_list (h : Scales F k) {os os' : List (Hittable (Fl F))} {ms ms' : List (Material (Fl F) S)} (ho : List.Forall₂ (Scaled k) os os')
    (hm : List.Forall₂ (MatScaled k) ms ms') (temp0 temp0' : HitRecord (Fl F)) :
    ScaledWorld k ((⟨os, ms⟩ : HittableList _ _).world temp0) ((⟨os', ms'⟩ : HittableList _ _).world temp0') := by
  intro s r tmin tmax rec rec'
  have hl := loop_scaled h (r := r) (tmin := tmin) ho 0 ⟨temp0, tmax, rec, none⟩ ⟨temp0', scale k tmax, rec', none⟩ ⟨rfl, rfl, fun h => absurd rfl h⟩
  unfold HittableList.world HittableList.hit
  dsimp only at hl ⊢
  generalize HittableList.loop r tmin os 0 ⟨temp0, tmax, rec, none⟩ = st at *
  generalize HittableList.loop (r.scaled k) (scale k tmin) os' 0 ⟨temp0', scale k tmax, rec', none⟩ = st' at *
  obtain ⟨tp, cl, out, idx⟩ := st
  obtain ⟨tp', cl', out', idx'⟩ := st'
  obtain ⟨h2, h3⟩ := hl
  dsimp only at h2 h3
  subst h2
  cases idx' with
  | none => exact ⟨_, rfl⟩
  | some i =>
    dsimp only
    rcases Nat.lt_or_ge i ms.length with h1 | h1
    · have h2 : i < ms'.length := hm.length_eq ▸ h1
      have h4 := List.forall₂_iff_get.mp hm |>.2 i h1 h2
      rw [List.getElem?_eq_getElem h1, List.getElem?_eq_getElem h2]
      exact ⟨_, _, h4, h3 (by simp), rfl⟩
    · have h2 : ms'.length ≤ i := hm.length_eq ▸ h1
      rw [List.getElem?_eq_none h1, List.getElem?_eq_none h2]
      rfl

/-- Nothing on the path of the ray `r` through the scene lies between the distances `off` and `1000 * eps`, so that `ray_color` meets the same
objects if it skips the hits before `off` instead of those before `1000 * eps`. -/
def SameAfter (w : World (Fl F) S) (rec0 : HitRecord (Fl F)) (off : Fl F) : ℕ → S → Ray (Fl F) → Prop
  | 0, _, _ => True
  | d + 1, s, r => w s r off inf rec0 = w s r (1000 * eps) inf rec0 ∧
      ∀ m rec s₁ a q s₂, w s r (1000 * eps) inf rec0 = some (some m, rec, s₁) → m.scatter s₁ r rec = some (⟨true, a, some q⟩, s₂) →
        SameAfter w rec0 off d s₂ q

/-- C150: the colour of a ray does not depend on the unit of length in which the scene is given, provided that nothing on its path lies between the
distance `1000 * eps` in the one unit and in the other. -/
theorem C150_ray {w w' : World (Fl F) S} (hw : ScaledWorld k w w') (bg : Vec (Fl F) 3) (rec0 rec0' : HitRecord (Fl F)) {off : Fl F}
    (ho : scale k off = 1000 * eps) (depth : ℕ) (s : S) (r : Ray (Fl F)) (hs : SameAfter w rec0 off depth s r) :
    rayColor w' bg rec0' depth s (r.scaled k) = rayColor w bg rec0 depth s r := by
  induction depth generalizing s r with
  | zero => rfl
  | succ d ih =>
    obtain ⟨he, hs⟩ := hs
    have h := hw s r off inf rec0 rec0'
    rw [ho, show scale k (inf : Fl F) = inf from rfl] at h
    rw [he] at h
    rw [rayColor, rayColor]
    rcases he : w s r (1000 * eps) inf rec0 with _ | ⟨_ | m, rec₁, s₁⟩
    · rw [he] at h
      rw [h]
    · rw [he] at h
      obtain ⟨_, h⟩ := h
      rw [h]
    · rw [he] at h
      obtain ⟨m', rec₁', hm, hrec, h⟩ := h
      rw [h]
      dsimp only
      have h2 := (hm rec₁ rec₁' hrec).2 s₁ r
      rw [(hm rec₁ rec₁' hrec).1, h2]
      cases hx : m.scatter s₁ r rec₁ with
      | none => rfl
      | some x =>
        obtain ⟨⟨ok, a, q⟩, s₂⟩ := x
        cases ok with
        | false => rfl
        | true =>
          cases a <;> cases q <;> try rfl
          next a q =>
          have := ih s₂ q (hs m rec₁ s₁ _ q s₂ he hx)
          simp only [Option.map_some, Scattered.scaled, if_true, this]

/-! ## Pictures -/

/-- The camera in another unit. -/
theorem camera_scaled [F.Exact] (h : Scales F k) (eye : Fin 3 → ℝ) (target up : Vec (Fl F) 3) (vfov aspect x y : Fl F) :
    (Camera.make (scaleV k (cv eye)) (scaleV k target) up vfov aspect).getRay x y = ((Camera.make (cv eye) target up vfov aspect).getRay x y).scaled k := by
  have e : scaleV k (cv eye : Vec (Fl F) 3) = cv eye + cv ((k - 1) • eye) := by
    rw [cv_add]
    funext i
    show scale k (fin (eye i)) = fin (eye i + (k - 1) * eye i)
    rw [scale_fin]
    congr 1
    ring
  unfold Camera.make Camera.getRay Ray.scaled
  simp only [h.subV, h.normalize]
  have key (a b c d e : Vec (Fl F) 3) (v : Fin 3 → ℝ) : (cv eye + cv v) - a - b - c + d + e - (cv eye + cv v) = cv eye - a - b - c + d + e - cv eye := by
    rw [move_minus, move_minus, move_minus, move_add, move_add, move_sub]
  rw [e, key]

/-- C150: if all objects of a scene and the camera are given in another unit of length, `render_scene` writes the same image, byte for byte, provided that
nothing on the path of a ray of the camera lies between the distance `1000 * eps` in the one unit and in the other. -/
theorem C150_image [F.Exact] (h : Scales F k) (sc : Scene (Fl F) S) {w' : World (Fl F) S} (hw : ScaledWorld k sc.world w') (eye : Fin 3 → ℝ)
    (target up : Vec (Fl F) 3) (vfov aspect : Fl F) (hc : sc.camera = Camera.make (cv eye) target up vfov aspect) (rec0' : HitRecord (Fl F)) {off : Fl F}
    (ho : scale k off = 1000 * eps) (rows : List ℕ) (s : S)
    (hs : ∀ i < sc.width, ∀ j ∈ rows, ∀ g g' s, SameAfter sc.world sc.rec0 off 8 s
      (sc.camera.getRay (coordinate i sc.width (Pcg.real01 g).1) (coordinate j sc.height (Pcg.real01 g').1))) :
    Render.image { sc with
      camera := Camera.make (scaleV k (cv eye)) (scaleV k target) up vfov aspect
      world := w'
      rec0 := rec0' } rows s = Render.image sc rows s := by
  obtain ⟨sc', hsc⟩ : ∃ sc' : Scene (Fl F) S, sc' = { sc with
    camera := Camera.make (scaleV k (cv eye)) (scaleV k target) up vfov aspect
    world := w'
    rec0 := rec0' } := ⟨_, rfl⟩
  rw [← hsc]
  have h1 : ∀ i < sc.width, ∀ j ∈ rows, ∀ st, sample sc' i j st = sample sc i j st := by
    intro i hi j hj st
    have := hs i hi j hj st.2.1 (Pcg.real01 (R := Fl F) st.2.1).2 st.2.2
    simp only [sample, hsc, camera_scaled h, ← hc]
    rw [C150_ray hw sc.background sc.rec0 rec0' ho 8 st.2.2 _ this]
  have h2 : ∀ i < sc.width, ∀ j ∈ rows, ∀ n st, sampleLoop sc' i j n st = sampleLoop sc i j n st := by
    intro i hi j hj n
    induction n with
    | zero => intro st; rfl
    | succ n ih =>
      intro st
      rw [sampleLoop, sampleLoop, h1 i hi j hj]
      cases sample sc i j st with
      | none => rfl
      | some st => exact ih st
  have h4 : ∀ ts : List (ℕ × ℕ), (∀ t ∈ ts, t.1 < sc.width ∧ t.2 ∈ rows) → ∀ g, run sc' ts g = run sc ts g := by
    intro ts
    induction ts with
    | nil => intro _ g; rfl
    | cons t ts ih =>
      intro ht g
      obtain ⟨hi, hj⟩ := ht t (by simp)
      rw [run, run, task, task, h2 _ hi _ hj, hsc]
      rw [hsc] at ih
      dsimp only
      have := ih (fun t h => ht t (by simp [h]))
      simp only [this]
  rw [Render.image, Render.image, show sc'.width = sc.width by rw [hsc], h4 _ (fun t ht => mem_tasks.mp ht)]
  rw [hsc]

/-! ## Lists -/

theorem world_material {l : HittableList (Fl F) (Material (Fl F) S)} {temp0 rec rec₁ : HitRecord (Fl F)} {s s₁ : S} {r : Ray (Fl F)} {tmin tmax : Fl F}
    {m : Material (Fl F) S} (h : l.world temp0 s r tmin tmax rec = some (some m, rec₁, s₁)) : m ∈ l.materials := by
  unfold HittableList.world HittableList.hit at h
  dsimp only at h
  generalize HittableList.loop r tmin l.objects 0 ⟨temp0, tmax, rec, none⟩ = st at h
  cases hi : st.idx with
  | none => rw [hi] at h; cases h
  | some i =>
    rw [hi] at h
    dsimp only at h
    cases hm : l.materials[i]? with
    | none => rw [hm] at h; cases h
    | some m' =>
      rw [hm] at h
      cases h
      exact List.mem_of_getElem? hm

theorem world_offset {l : HittableList (Fl F) (Material (Fl F) S)} {r : Ray (Fl F)} {tmin tmin' : Fl F}
    (h : ∀ o ∈ l.objects, ∀ tmax rec, o.hit r tmin tmax rec = o.hit r tmin' tmax rec) (temp0 rec : HitRecord (Fl F)) (s : S) (tmax : Fl F) :
    l.world temp0 s r tmin tmax rec = l.world temp0 s r tmin' tmax rec := by
  have : ∀ (os : List (Hittable (Fl F))) (i : ℕ) (st : HittableList.State (Fl F)), (∀ o ∈ os, ∀ tmax rec, o.hit r tmin tmax rec = o.hit r tmin' tmax rec) →
      HittableList.loop r tmin os i st = HittableList.loop r tmin' os i st := by
    intro os
    induction os with
    | nil => intro i st _; rfl
    | cons o os ih =>
      intro i st h
      rw [HittableList.loop, HittableList.loop, ih _ _ fun o ho => h o (by simp [ho])]
      unfold HittableList.step
      rw [h o (by simp)]
  unfold HittableList.world HittableList.hit
  rw [this _ _ _ h]

theorem world_miss {o : Hittable (Fl F)} {m : Material (Fl F) S} {r : Ray (Fl F)} {tmin tmax : Fl F} {temp0 : HitRecord (Fl F)}
    (h : (o.hit r tmin tmax temp0).1 = false) (s : S) (rec : HitRecord (Fl F)) :
    (⟨[o], [m]⟩ : HittableList _ _).world temp0 s r tmin tmax rec = some (none, rec, s) := by
  simp [HittableList.world, HittableList.hit, HittableList.loop, HittableList.step, h]

theorem world_hit {o : Hittable (Fl F)} {m : Material (Fl F) S} {r : Ray (Fl F)} {tmin tmax : Fl F} {temp0 : HitRecord (Fl F)}
    (h : (o.hit r tmin tmax temp0).1 = true) (ht : Scalar.lt (o.hit r tmin tmax temp0).2.t tmax = true) (s : S) (rec : HitRecord (Fl F)) :
    (⟨[o], [m]⟩ : HittableList _ _).world temp0 s r tmin tmax rec = some (some m, (o.hit r tmin tmax temp0).2, s) := by
  simp [HittableList.world, HittableList.hit, HittableList.loop, HittableList.step, h, ht]

theorem Rect.hitPlane_offset {i j n : Fin 3} {m : Vec (Fl F) 3} {s : Rect (Fl F)} {r : Ray (Fl F)} {tmin tmin' : Fl F}
    (h : Scalar.lt ((s.k - r.origin n) / r.dir n) tmin = Scalar.lt ((s.k - r.origin n) / r.dir n) tmin') (tmax : Fl F) (rec : HitRecord (Fl F)) :
    Rect.hitPlane i j n m s r tmin tmax rec = Rect.hitPlane i j n m s r tmin' tmax rec := by
  unfold Rect.hitPlane
  simp only [h]

/-! ## Examples -/

/-- In `unbounded 53`, binary64 without underflow and overflow, the unit can be changed by every power of two; in exact arithmetic by every factor. -/
example : Scales (unbounded 53) (2 ^ (-10 : ℤ)) ∧ Scales exact0 1000 := ⟨scales_unbounded 53 (-10), scales_exact0 (by norm_num)⟩

/-- A unit sphere hit by a slanting ray of binary64 numbers: the same hit on the sphere of radius 1/1024. -/
example (rec rec' : HitRecord (Fl (unbounded 53))) :
    let s : Sphere (Fl (unbounded 53)) := ⟨cv 0, fin 1⟩
    let r : Ray (Fl (unbounded 53)) := ⟨cv ![0, 1 / 3, 4], cv ![1 / 100, 0, -1]⟩
    ((s.scaled (2 ^ (-10 : ℤ))).toHittable.hit (r.scaled (2 ^ (-10 : ℤ))) (scale (2 ^ (-10 : ℤ)) (fin 0)) (scale (2 ^ (-10 : ℤ)) inf) rec').1 =
      (s.toHittable.hit r (fin 0) inf rec).1 :=
  (C150_sphere (scales_unbounded 53 (-10)) rfl _ _ _ _ rec rec').1

/-- A square lamp at distance 1 in front of the camera, and another behind it: its picture is the same in every unit in which the distance `1000 * eps` is at
most 1. -/
example {k : ℝ} (hk : 1000 * exact0.eps ≤ k) (temp0 rec0 : HitRecord (Fl exact0)) (rows : List ℕ) :
    let scene (k : ℝ) : Scene (Fl exact0) Unit := ⟨5, 5, cv 0,
      Camera.make (scaleV k (cv ![0, 0, 1])) (scaleV k (cv 0)) (cv ![0, 1, 0]) (fin 90) (fin 1),
      (⟨[((⟨fin (-1), fin 1, fin (-1), fin 1, fin 0⟩ : Rect (Fl exact0)).scaled k).xy, ((⟨fin (-1), fin 1, fin (-1), fin 1, fin 2⟩ : Rect (Fl exact0)).scaled k).xy],
        [Material.diffuseLight (solidColor (cv ![4, 4, 4])), Material.diffuseLight (solidColor (cv ![4, 0, 0]))]⟩ : HittableList _ _).world temp0, 4, rec0⟩
    Render.image (scene k) rows () = Render.image (scene 1) rows () := by
  intro scene
  have heps : 0 < exact0.eps := Fmt.Exact.eps_pos
  have hk0 : 0 < k := lt_of_lt_of_le (by linarith) hk
  have h := scales_exact0 hk0
  have e1 (v : Vec (Fl exact0) 3) : scaleV 1 v = v := funext fun i => scale_one _
  have e2 (r : Rect (Fl exact0)) : r.scaled 1 = r := by simp [Rect.scaled]
  have hoff : scale k (fin (1000 * exact0.eps / k) : Fl exact0) = 1000 * eps := by
    rw [offset_exact, scale_fin, mul_div_cancel₀ _ hk0.ne']
  refine C150_image h (scene 1) (w' := (scene k).world) ?_ ![0, 0, 1] (cv 0) (cv ![0, 1, 0]) (fin 90) (fin 1) (by simp only [scene, e1]) rec0
    hoff rows () ?_
  · refine scaledWorld_list h (.cons ?_ (.cons ?_ .nil)) (.cons (matScaled_light (texScaled_solid _)) (.cons (matScaled_light (texScaled_solid _)) .nil)) _ _
    · rw [e2]; exact (C150_rect h _).1
    · rw [e2]; exact (C150_rect h _).1
  · intro i _ j _ g g' s
    obtain ⟨x, hx⟩ : ∃ x, (coordinate i 5 (Pcg.real01 g).1 : Fl exact0) = fin x := by
      obtain ⟨x, hx, -⟩ := C36_range (F := exact0) g
      rw [coordinate, hx, lit_def, lit_def, add_fin, div_fin _ (by norm_num)]
      exact ⟨_, rfl⟩
    obtain ⟨y, hy⟩ : ∃ y, (coordinate j 5 (Pcg.real01 g').1 : Fl exact0) = fin y := by
      obtain ⟨x, hx, -⟩ := C36_range (F := exact0) g'
      rw [coordinate, hx, lit_def, lit_def, add_fin, div_fin _ (by norm_num)]
      exact ⟨_, rfl⟩
    have hr : (scene 1).camera.getRay (coordinate i (scene 1).width (Pcg.real01 g).1) (coordinate j (scene 1).height (Pcg.real01 g').1) =
        ⟨cv ![0, 0, 1], cv ![2 * x - 1, 2 * y - 1, -1]⟩ := by
      show (scene 1).camera.getRay (coordinate i 5 (Pcg.real01 g).1) (coordinate j 5 (Pcg.real01 g').1) = _
      rw [hx, hy]
      simp only [scene, e1]
      exact cameraExample_exact x y
    rw [hr]
    refine ⟨?_, ?_⟩
    · refine world_offset ?_ _ _ _ _
      have ha : ¬ 1 < 1000 * exact0.eps / k := not_lt.mpr ((div_le_one hk0).mpr hk)
      have hb : ¬ 1 < 1000 * exact0.eps := by simp only [exact0, exact64]; norm_num
      have hc : -1 < 1000 * exact0.eps / k := lt_of_lt_of_le (by norm_num) (by positivity : 0 ≤ 1000 * exact0.eps / k)
      have hd : -1 < 1000 * exact0.eps := by linarith
      simp only [List.mem_cons, List.not_mem_nil, or_false, forall_eq_or_imp, forall_eq, e2]
      constructor
      · intro tmax rec
        have ht : ((fin 0 : Fl exact0) - fin 1) / fin (-1) = fin 1 := by rw [sub_fin, div_fin _ (by norm_num)]; norm_num
        exact Rect.hitPlane_offset (by
          show Scalar.lt (((fin 0 : Fl exact0) - fin 1) / fin (-1)) _ = Scalar.lt (((fin 0 : Fl exact0) - fin 1) / fin (-1)) _
          rw [ht, offset_exact, lt_fin, lt_fin, decide_eq_false ha, decide_eq_false hb]) _ _
      · intro tmax rec
        have ht : ((fin 2 : Fl exact0) - fin 1) / fin (-1) = fin (-1) := by rw [sub_fin, div_fin _ (by norm_num)]; norm_num
        exact Rect.hitPlane_offset (by
          show Scalar.lt (((fin 2 : Fl exact0) - fin 1) / fin (-1)) _ = Scalar.lt (((fin 2 : Fl exact0) - fin 1) / fin (-1)) _
          rw [ht, offset_exact, lt_fin, lt_fin, decide_eq_true hc, decide_eq_true hd]) _ _
    · rintro m rec s₁ a q s₂ hm hsc
      have := world_material hm
      simp only [List.mem_cons, List.not_mem_nil, or_false] at this
      rcases this with rfl | rfl <;> cases hsc

/-! ## Small scenes -/

/-- C150 fails in general, because `ray_color` skips all hits before the distance `1000 * eps`, whatever the unit: a spherical lamp that is seen from
twice its radius disappears in a unit in which that distance is too large. -/
theorem C150_small_false [F.Exact] (heps : 1000 * F.eps < 1) (hk : F.tiny < k) (hk' : 3 * k < 1000 * F.eps) (c bg : Vec (Fl F) 3)
    (temp0 rec0 : HitRecord (Fl F)) (depth : ℕ) :
    let lamp (s : Sphere (Fl F)) : World (Fl F) Unit := (⟨[s.toHittable], [Material.diffuseLight (solidColor c)]⟩ : HittableList _ _).world temp0
    let r : Ray (Fl F) := ⟨cv ![0, 0, 2], cv ![0, 0, -1]⟩
    rayColor (lamp (Sphere.ofReal 0 1)) bg rec0 (depth + 1) () r = some ⟨c, (), 1⟩ ∧
      rayColor (lamp ((Sphere.ofReal 0 1).scaled k)) bg rec0 (depth + 1) () (r.scaled k) = some ⟨bg, (), 1⟩ := by
  intro lamp r
  have hk0 : 0 < k := lt_of_le_of_lt Fmt.Exact.tiny_nonneg hk
  have key : ∀ j : ℝ, 0 < j → F.tiny < j → FindsNearest (sphereSet 0 j) ![0, 0, 2 * j] ![0, 0, -1] (1000 * eps)
      ((Sphere.ofReal (F := F) 0 j).hit ⟨cv ![0, 0, 2 * j], cv ![0, 0, -1]⟩ (1000 * eps)) := by
    intro j hj ht
    refine C46_nearest_partial _ _ _ _ _ ?_ (.inr ?_)
    · simp [dotProduct, Fin.sum_univ_three]; exact Fmt.Exact.tiny_lt
    · simp [dotProduct, Fin.sum_univ_three, abs_of_pos hj]; linarith
  have hS : ∀ j z : ℝ, (![0, 0, 2 * j] + z • ![0, 0, -1] : Fin 3 → ℝ) ∈ sphereSet 0 j ↔ (z = j ∨ z = 3 * j) := by
    intro j z
    rw [sphere_quadratic]
    simp [dotProduct, Fin.sum_univ_three]
    rw [show z ^ 2 + -(2 * (2 * j) * z) + (2 * j * (2 * j) - j * j) = (z - j) * (z - 3 * j) by ring, mul_eq_zero, sub_eq_zero, sub_eq_zero]
  constructor
  · have h := key 1 one_pos Fmt.Exact.tiny_lt inf temp0 rfl
    have hh := h.1.mpr ⟨1, ⟨by rw [offset_exact, le_fin]; simpa using heps.le, rfl⟩, (hS 1 1).mpr (.inl rfl)⟩
    obtain ⟨z, hz, -⟩ := h.2 hh
    rw [mul_one] at hh hz
    rw [rayColor]
    simp only [lamp, r]
    rw [world_hit (o := Sphere.toHittable _) hh (by show Scalar.lt (Sphere.hit _ _ _ _ _).2.t inf = true; rw [hz]; rfl)]
    rfl
  · have h := key k hk0 hk inf temp0 rfl
    have hh : ((Sphere.ofReal (F := F) 0 k).hit ⟨cv ![0, 0, 2 * k], cv ![0, 0, -1]⟩ (1000 * eps) inf temp0).1 = false := by
      rw [Bool.eq_false_iff]
      intro hh
      obtain ⟨z, ⟨h1, -⟩, h2⟩ := h.1.mp hh
      rw [offset_exact, le_fin, decide_eq_true_eq] at h1
      rcases (hS k z).mp h2 with rfl | rfl <;> linarith
    have e1 : (Sphere.ofReal (F := F) 0 1).scaled k = Sphere.ofReal 0 k := by
      simp only [Sphere.scaled, Sphere.ofReal, scale_fin, mul_one]
      congr 1
      funext i
      show scale k (fin 0) = fin 0
      simp
    have e2 : r.scaled k = ⟨cv ![0, 0, 2 * k], cv ![0, 0, -1]⟩ := by
      simp only [Ray.scaled, r]
      congr 1
      funext i
      fin_cases i <;> simp [cv, scaleV, mul_comm]
    rw [e1, e2, rayColor]
    simp only [lamp]
    rw [world_miss (o := Sphere.toHittable _) hh]

/-- Lamps of the size of the period of a crystal, in metres. -/
example (c bg : Vec (Fl exact64) 3) (temp0 rec0 : HitRecord (Fl exact64)) :
    rayColor ((⟨[((Sphere.ofReal 0 1).scaled (1 / 2 ^ 45)).toHittable], [Material.diffuseLight (solidColor c)]⟩ : HittableList _ _).world temp0) bg rec0 8 ()
      (Ray.scaled (1 / 2 ^ 45) (⟨cv ![0, 0, 2], cv ![0, 0, -1]⟩ : Ray (Fl exact64))) = some ⟨bg, (), 1⟩ :=
  (C150_small_false (F := exact64) (by simp only [exact64]; norm_num)
    (by show 1 / 2 ^ 1022 < (1 : ℝ) / 2 ^ 45; exact one_div_lt_one_div_of_lt (by positivity) (pow_lt_pow_right₀ (by norm_num) (by norm_num)))
    (by simp only [exact64]; norm_num) c bg temp0 rec0 7).2
end DRT
