import Verif.Props.Lambert
import Verif.Props.Material

/-! # C124: moving the whole scene does not change the picture -/

namespace DRT
open Scalar Fl Render Vec

variable {F : Fmt} {S : Type}

/-! ## Moving points, rays and records -/

/-- The ray with its origin moved by `v`. -/
noncomputable def Ray.moved (v : Fin 3 → ℝ) (r : Ray (Fl F)) : Ray (Fl F) := ⟨r.origin + cv v, r.dir⟩

/-- The record of a hit, with the point moved by `v`. -/
noncomputable def HitRecord.moved (v : Fin 3 → ℝ) (rec : HitRecord (Fl F)) : HitRecord (Fl F) := { rec with p := rec.p + cv v }

/-- The box moved by `v`. -/
noncomputable def AABB.moved (v : Fin 3 → ℝ) (b : AABB (Fl F)) : AABB (Fl F) := ⟨b.lo + cv v, b.hi + cv v⟩

/-- `o'` is the object `o` moved by `v`: a moved ray finds the moved hit, with the same parameter, normal and so on. -/
def Moved (v : Fin 3 → ℝ) (o o' : Hittable (Fl F)) : Prop := ∀ r tmin tmax rec,
  o'.hit (r.moved v) tmin tmax (rec.moved v) = ((o.hit r tmin tmax rec).1, (o.hit r tmin tmax rec).2.moved v)

section
variable [F.Exact] (v : Fin 3 → ℝ)

theorem shift_sub (x : ℝ) (a b : Fl F) : (a + fin x) - (b + fin x) = a - b := by
  cases a <;> cases b <;> simp

theorem shift_add (x : ℝ) (a b : Fl F) : (a + fin x) + b = a + b + fin x := by
  cases a <;> cases b <;> simp [add_right_comm]

theorem shift_minus (x : ℝ) (a b : Fl F) : (a + fin x) - b = a - b + fin x := by
  cases a <;> cases b <;> simp [sub_add_eq_add_sub]

theorem shift_lt (x : ℝ) (a b : Fl F) : Scalar.lt (a + fin x) (b + fin x) = Scalar.lt a b := by
  cases a <;> cases b <;> simp

theorem shift_le (x : ℝ) (a b : Fl F) : Scalar.le (a + fin x) (b + fin x) = Scalar.le a b := by
  cases a <;> cases b <;> simp

theorem move_sub (a b : Vec (Fl F) 3) : (a + cv v) - (b + cv v) = a - b := by
  funext i; exact shift_sub _ _ _

theorem move_add (a b : Vec (Fl F) 3) : (a + cv v) + b = a + b + cv v := by
  funext i; exact shift_add _ _ _

theorem move_minus (a b : Vec (Fl F) 3) : (a + cv v) - b = a - b + cv v := by
  funext i; exact shift_minus _ _ _

theorem move_at (r : Ray (Fl F)) (t : Fl F) : (r.moved v).at t = r.at t + cv v := move_add _ _ _

theorem move_apply (a : Vec (Fl F) 3) (i : Fin 3) : (a + cv v : Vec (Fl F) 3) i = a i + fin (v i) := rfl

/-! ## The objects -/

theorem Sphere.moved (s : Sphere (Fl F)) : Moved v s.toHittable (⟨s.center + cv v, s.radius⟩ : Sphere (Fl F)).toHittable := by
  intro r tmin tmax rec
  show Sphere.hit _ _ _ _ _ = ((s.hit r tmin tmax rec).1, (s.hit r tmin tmax rec).2.moved v)
  unfold Sphere.hit
  have h : (r.moved v).origin - (s.center + cv v) = r.origin - s.center := move_sub _ _ _
  have hd : (r.moved v).dir = r.dir := rfl
  simp only [h, hd, move_at]
  cases firstQuadraticRootInRange (squaredNorm r.dir) (2 * dot (r.origin - s.center) r.dir) (squaredNorm (r.origin - s.center) - s.radius * s.radius) tmin tmax with
  | none => rfl
  | some t =>
    simp only [move_sub, Sphere.getUV, move_apply, shift_sub, HitRecord.setFaceNormal, hd]
    rfl

theorem Ellipsoid.moved (s : Ellipsoid (Fl F)) : Moved v s.toHittable (⟨s.center + cv v, s.scales⟩ : Ellipsoid (Fl F)).toHittable := by
  intro r tmin tmax rec
  show Ellipsoid.hit _ _ _ _ _ = ((s.hit r tmin tmax rec).1, (s.hit r tmin tmax rec).2.moved v)
  unfold Ellipsoid.hit
  have h : (r.moved v).origin - (s.center + cv v) = r.origin - s.center := move_sub _ _ _
  have hd : (r.moved v).dir = r.dir := rfl
  simp only [h, hd, move_at]
  split
  · rfl
  · simp only [move_sub, Ellipsoid.getUV, Ellipsoid.gradient, move_apply, shift_sub, HitRecord.setFaceNormal, hd]
    rfl

theorem Disk.moved (s : Disk (Fl F)) : Moved v s.toHittable ({ s with center := s.center + cv v } : Disk (Fl F)).toHittable := by
  intro r tmin tmax rec
  show Disk.hit _ _ _ _ _ = ((s.hit r tmin tmax rec).1, (s.hit r tmin tmax rec).2.moved v)
  unfold Disk.hit
  have h : (r.moved v).origin - (s.center + cv v) = r.origin - s.center := move_sub _ _ _
  have hd : (r.moved v).dir = r.dir := rfl
  simp only [h, hd]
  split_ifs <;> try rfl
  simp only [Disk.record, move_at, HitRecord.setFaceNormal, hd]
  rfl

theorem clamp_shift (x : ℝ) (a b c : Fl F) : clamp (a + fin x) (b + fin x) (c + fin x) = clamp a b c + fin x := by
  simp only [clamp, shift_lt]
  split_ifs <;> rfl

theorem Torus.moved (s : Torus (Fl F)) : Moved v s.toHittable ({ s with center := s.center + cv v } : Torus (Fl F)).toHittable := by
  have href : ∀ p dir : Vec (Fl F) 3, ({ s with center := s.center + cv v } : Torus (Fl F)).refine (p + cv v) dir = s.refine p dir + cv v := by
    intro p dir
    have h1 : ({ s with center := s.center + cv v } : Torus (Fl F)).newtonStep (p + cv v) dir = s.newtonStep p dir + cv v := by
      simp only [Torus.newtonStep, move_apply, shift_sub]
      split_ifs
      · funext i
        rw [move_apply]
        fin_cases i <;> exact shift_add _ _ _
      · rfl
    rw [Torus.refine, h1, Torus.refine]
    simp only [Torus.clampToBox, move_apply, shift_add, shift_minus, clamp_shift]
    funext i
    rw [move_apply]
    fin_cases i <;> rfl
  intro r tmin tmax rec
  show Torus.hit _ _ _ _ _ = ((s.hit r tmin tmax rec).1, (s.hit r tmin tmax rec).2.moved v)
  have h : (r.moved v).origin - (s.center + cv v) = r.origin - s.center := move_sub _ _ _
  have hd : (r.moved v).dir = r.dir := rfl
  have hco : ({ s with center := s.center + cv v } : Torus (Fl F)).coeffs (r.moved v) = s.coeffs r := by
    simp only [Torus.coeffs, h, hd]
  unfold Torus.hit
  simp only [hco]
  split_ifs
  · rfl
  · split
    · rfl
    · have e1 : ∀ p, ({ s with center := s.center + cv v } : Torus (Fl F)).gradient (p + cv v) = s.gradient p := fun p => by
        simp only [Torus.gradient, move_apply, shift_sub]
      have e2 : ∀ p, ({ s with center := s.center + cv v } : Torus (Fl F)).residual (p + cv v) = s.residual p := fun p => by
        simp only [Torus.residual, move_apply, shift_sub]
      have e3 : ∀ p, ({ s with center := s.center + cv v } : Torus (Fl F)).expectedResidual (p + cv v) = s.expectedResidual p := fun p => by
        simp only [Torus.expectedResidual, move_apply, shift_sub]
      have e4 : ∀ p, ({ s with center := s.center + cv v } : Torus (Fl F)).getUV (p + cv v) = s.getUV p := fun p => by
        simp only [Torus.getUV, move_apply, shift_sub]
      have e5 : ∀ t, ({ s with center := s.center + cv v } : Torus (Fl F)).complete (r.moved v) { rec.moved v with t := t } =
          (s.complete r { rec with t := t }).moved v := fun t => by
        unfold Torus.complete
        simp only [move_at, hd, href, e1, e4]
        rfl
      simp only [Torus.finish, e5]
      simp only [HitRecord.moved, e2, e3]
      split_ifs <;> rfl

theorem Rect.moved (i j n : Fin 3) (normal : Vec (Fl F) 3) (s : Rect (Fl F)) (r : Ray (Fl F)) (tmin tmax : Fl F) (rec : HitRecord (Fl F)) :
    Rect.hitPlane i j n normal ⟨s.a0 + fin (v i), s.a1 + fin (v i), s.b0 + fin (v j), s.b1 + fin (v j), s.k + fin (v n)⟩ (r.moved v) tmin tmax
      (rec.moved v) = ((s.hitPlane i j n normal r tmin tmax rec).1, (s.hitPlane i j n normal r tmin tmax rec).2.moved v) := by
  have h : ∀ i, (r.moved v).origin i = r.origin i + fin (v i) := fun _ => rfl
  have hd : (r.moved v).dir = r.dir := rfl
  unfold Rect.hitPlane
  simp only [h, hd, shift_sub, shift_add, Scalar.gt, shift_lt, move_at, HitRecord.setFaceNormal]
  rcases Bool.eq_false_or_eq_true (Scalar.lt ((s.k - r.origin n) / r.dir n) tmin || Scalar.lt tmax ((s.k - r.origin n) / r.dir n)) with h1 | h1
  · simp only [h1, ↓reduceIte]
  · rcases Bool.eq_false_or_eq_true (Scalar.lt (r.origin i + (s.k - r.origin n) / r.dir n * r.dir i) s.a0 ||
      Scalar.lt s.a1 (r.origin i + (s.k - r.origin n) / r.dir n * r.dir i) || Scalar.lt (r.origin j + (s.k - r.origin n) / r.dir n * r.dir j) s.b0 ||
      Scalar.lt s.b1 (r.origin j + (s.k - r.origin n) / r.dir n * r.dir j)) with h2 | h2
    · simp only [h1, h2, Bool.false_eq_true, ↓reduceIte]
    · simp only [h1, h2, Bool.false_eq_true, ↓reduceIte]
      rfl

theorem Rect.xy_moved (s : Rect (Fl F)) :
    Moved v s.xy (Rect.xy ⟨s.a0 + fin (v 0), s.a1 + fin (v 0), s.b0 + fin (v 1), s.b1 + fin (v 1), s.k + fin (v 2)⟩) :=
  Rect.moved v 0 1 2 _ s

theorem Rect.xz_moved (s : Rect (Fl F)) :
    Moved v s.xz (Rect.xz ⟨s.a0 + fin (v 0), s.a1 + fin (v 0), s.b0 + fin (v 2), s.b1 + fin (v 2), s.k + fin (v 1)⟩) :=
  Rect.moved v 0 2 1 _ s

theorem Rect.yz_moved (s : Rect (Fl F)) :
    Moved v s.yz (Rect.yz ⟨s.a0 + fin (v 1), s.a1 + fin (v 1), s.b0 + fin (v 2), s.b1 + fin (v 2), s.k + fin (v 0)⟩) :=
  Rect.moved v 1 2 0 _ s

/-! ## Boxes and trees -/

theorem AABB.hit_moved (b : AABB (Fl F)) (r : Ray (Fl F)) (tmin tmax : Fl F) : (b.moved v).hit (r.moved v) tmin tmax = b.hit r tmin tmax := by
  have h : ∀ i t, (b.moved v).slab (r.moved v) i t = b.slab r i t := by
    intro i t
    have e1 : (b.moved v).lo i - (r.moved v).origin i = b.lo i - r.origin i := shift_sub _ _ _
    have e2 : (b.moved v).hi i - (r.moved v).origin i = b.hi i - r.origin i := shift_sub _ _ _
    have e3 : (r.moved v).dir = r.dir := rfl
    simp only [AABB.slab, e1, e2, e3]
  have h' : ∀ i, (b.moved v).slab (r.moved v) i = b.slab r i := fun i => funext (h i)
  simp only [AABB.hit, h']

/-- `t'` is the tree `t` moved by `v`: the objects and the boxes are moved. -/
inductive TreeMoved (v : Fin 3 → ℝ) : Bvh (Fl F) → Bvh (Fl F) → Prop
  | obj {o o'} : Moved v o o' → TreeMoved v (Bvh.obj o) (Bvh.obj o')
  | node {l l' r r' b} : TreeMoved v l l' → TreeMoved v r r' → TreeMoved v (Bvh.node l r b) (Bvh.node l' r' (b.moved v))

theorem Bvh.moved {t t' : Bvh (Fl F)} (h : TreeMoved v t t') : Moved v ⟨t.hit, t.bbox⟩ ⟨t'.hit, t'.bbox⟩ := by
  induction h with
  | obj h => exact h
  | @node l l' r r' b hl hr ihl ihr =>
    intro q tmin tmax rec
    show Bvh.hit _ _ _ _ _ = ((Bvh.hit _ _ _ _ _).1, (Bvh.hit _ _ _ _ _).2.moved v)
    have el := ihl q tmin tmax rec
    dsimp only at el
    rw [Bvh.hit, Bvh.hit, AABB.hit_moved, el]
    cases b.hit q tmin tmax with
    | false => rfl
    | true =>
      have er := ihr q tmin (if (l.hit q tmin tmax rec).1 then (l.hit q tmin tmax rec).2.t else tmax) (l.hit q tmin tmax rec).2
      dsimp only at er
      simp only [if_true]
      rw [show (HitRecord.moved v (l.hit q tmin tmax rec).2).t = (l.hit q tmin tmax rec).2.t from rfl, er]

theorem fmin_shift (x : ℝ) (a b : Fl F) : fmin (a + fin x) (b + fin x) = fmin a b + fin x := by
  have hn : ∀ c : Fl F, isNaN (c + fin x) = isNaN c := fun c => by cases c <;> simp
  simp only [fmin, hn, shift_lt]
  split_ifs <;> rfl

theorem fmax_shift (x : ℝ) (a b : Fl F) : fmax (a + fin x) (b + fin x) = fmax a b + fin x := by
  have hn : ∀ c : Fl F, isNaN (c + fin x) = isNaN c := fun c => by cases c <;> simp
  simp only [fmax, hn, shift_lt]
  split_ifs <;> rfl

/-- A node closed over two moved children has the moved box. -/
theorem TreeMoved.close {l l' r r' : Bvh (Fl F)} (hl : TreeMoved v l l') (hr : TreeMoved v r r') (bl : l'.bbox.2 = l.bbox.2.moved v)
    (br : r'.bbox.2 = r.bbox.2.moved v) : TreeMoved v (Bvh.close l r) (Bvh.close l' r') := by
  have e : AABB.surrounding l'.bbox.2 r'.bbox.2 = (AABB.surrounding l.bbox.2 r.bbox.2).moved v := by
    rw [bl, br]
    simp only [AABB.surrounding, AABB.moved, move_apply, fmin_shift, fmax_shift]
    rfl
  rw [Bvh.close, Bvh.close, e]
  exact .node hl hr

theorem Sphere.bbox_moved (s : Sphere (Fl F)) : (⟨s.center + cv v, s.radius⟩ : Sphere (Fl F)).bbox.2 = s.bbox.2.moved v := by
  simp only [Sphere.bbox, AABB.moved, move_minus, move_add]

/-- A tree of two spheres. -/
example (a b : Sphere (Fl F)) : TreeMoved v (Bvh.close (Bvh.obj a.toHittable) (Bvh.obj b.toHittable))
    (Bvh.close (Bvh.obj (Sphere.toHittable ⟨a.center + cv v, a.radius⟩)) (Bvh.obj (Sphere.toHittable ⟨b.center + cv v, b.radius⟩))) :=
  .close v (.obj (a.moved v)) (.obj (b.moved v)) (a.bbox_moved v) (b.bbox_moved v)

end

/-! ## Materials and scenes -/

/-- `m'` behaves at the moved points like `m` at the original ones. -/
def SameMaterial (v : Fin 3 → ℝ) (m m' : Material (Fl F) S) : Prop :=
  ∀ rec, m'.emitted (rec.moved v) = m.emitted rec ∧ ∀ s r, m'.scatter s (r.moved v) (rec.moved v) =
    (m.scatter s r rec).map fun x => (⟨x.1.ok, x.1.attenuation, x.1.ray.map (Ray.moved v)⟩, x.2)

/-- The texture has the same colours at the moved points. -/
def SameTexture (v : Fin 3 → ℝ) (f f' : Texture (Fl F)) : Prop := ∀ rec, f' (rec.moved v) = f rec

theorem sameMaterial_lambertian {v : Fin 3 → ℝ} {f f' : Texture (Fl F)} (h : SameTexture v f f') (get : S → Pcg) (set : Pcg → S → S) :
    SameMaterial v (Material.lambertian f get set) (Material.lambertian f' get set) := by
  intro rec
  refine ⟨rfl, fun s r => ?_⟩
  simp only [Material.lambertian, Lambertian.scatter, show (rec.moved v).normal = rec.normal from rfl, h rec]
  cases Lambertian.randomInHemisphere (2 ^ 64) (get s) rec.normal <;> rfl

theorem sameMaterial_metal {v : Fin 3 → ℝ} {f f' : Texture (Fl F)} (h : SameTexture v f f') :
    SameMaterial (S := S) v (Material.metal f) (Material.metal f') := by
  intro rec
  refine ⟨rfl, fun s r => ?_⟩
  simp only [Material.metal, Metal.scatter, h rec]
  rfl

theorem sameMaterial_isotropic {v : Fin 3 → ℝ} {f f' : Texture (Fl F)} (h : SameTexture v f f') (draw : S → Vec (Fl F) 3 × S) :
    SameMaterial v (Material.isotropic f draw) (Material.isotropic f' draw) := by
  intro rec
  refine ⟨rfl, fun s r => ?_⟩
  simp only [Material.isotropic, Isotropic.scatter, h rec]
  rfl

theorem sameMaterial_dielectric {v : Fin 3 → ℝ} {f f' : Texture (Fl F)} (h : SameTexture v f f') (ir : Fl F) (draw : S → Fl F × S) :
    SameMaterial v (Material.dielectric ir f draw) (Material.dielectric ir f' draw) :=
  fun rec => ⟨h rec, fun _ _ => rfl⟩

theorem sameMaterial_light {v : Fin 3 → ℝ} {f f' : Texture (Fl F)} (h : SameTexture v f f') :
    SameMaterial (S := S) v (Material.diffuseLight f) (Material.diffuseLight f') :=
  fun rec => ⟨h rec, fun _ _ => rfl⟩

/-- `w'` is the scene `w` moved by `v`. -/
def MovedWorld (v : Fin 3 → ℝ) (w w' : World (Fl F) S) : Prop := ∀ s r tmin tmax rec,
  match w s r tmin tmax rec with
  | none => w' s (r.moved v) tmin tmax (rec.moved v) = none
  | some (none, rec₁, s₁) => w' s (r.moved v) tmin tmax (rec.moved v) = some (none, rec₁.moved v, s₁)
  | some (some m, rec₁, s₁) => ∃ m', SameMaterial v m m' ∧ w' s (r.moved v) tmin tmax (rec.moved v) = some (some m', rec₁.moved v, s₁)

theorem loop_moved {v : Fin 3 → ℝ} {r : Ray (Fl F)} {tmin : Fl F} {os os' : List (Hittable (Fl F))} (h : List.Forall₂ (Moved v) os os') :
    ∀ (i : ℕ) (st : HittableList.State (Fl F)),
      HittableList.loop (r.moved v) tmin os' i ⟨st.temp.moved v, st.closest, st.out.moved v, st.idx⟩ =
        ⟨(HittableList.loop r tmin os i st).temp.moved v, (HittableList.loop r tmin os i st).closest,
          (HittableList.loop r tmin os i st).out.moved v, (HittableList.loop r tmin os i st).idx⟩ := by
  induction h with
  | nil => intro i st; rfl
  | @cons o o' os os' h1 _ ih =>
    intro i st
    rw [HittableList.loop, HittableList.loop, ← ih]
    congr 1
    simp only [HittableList.step, h1 r tmin st.closest st.temp]
    rw [show (HitRecord.moved v (o.hit r tmin st.closest st.temp).2).t = (o.hit r tmin st.closest st.temp).2.t from rfl]
    split_ifs <;> rfl

/-- Moving every object of a list moves the scene. -/
theorem movedWorld_list {v : Fin 3 → ℝ} {os os' : List (Hittable (Fl F))} {ms ms' : List (Material (Fl F) S)} (ho : List.Forall₂ (Moved v) os os')
    (hm : List.Forall₂ (SameMaterial v) ms ms') (temp0 : HitRecord (Fl F)) :
    MovedWorld v ((⟨os, ms⟩ : HittableList _ _).world temp0) ((⟨os', ms'⟩ : HittableList _ _).world (temp0.moved v)) := by
  intro s r tmin tmax rec
  have hl := loop_moved (r := r) (tmin := tmin) ho 0 ⟨temp0, tmax, rec, none⟩
  unfold HittableList.world HittableList.hit
  dsimp only at hl ⊢
  rw [hl]
  generalize HittableList.loop r tmin os 0 ⟨temp0, tmax, rec, none⟩ = st
  obtain ⟨tp, cl, out, idx⟩ := st
  cases idx with
  | none => rfl
  | some i =>
    dsimp only
    rcases Nat.lt_or_ge i ms.length with h1 | h1
    · have h2 : i < ms'.length := hm.length_eq ▸ h1
      have h3 := List.forall₂_iff_get.mp hm |>.2 i h1 h2
      rw [List.getElem?_eq_getElem h1, List.getElem?_eq_getElem h2]
      exact ⟨_, h3, rfl⟩
    · have h2 : ms'.length ≤ i := hm.length_eq ▸ h1
      rw [List.getElem?_eq_none h1, List.getElem?_eq_none h2]
      rfl

/-- C124: moving a ray together with the whole scene changes neither its colour nor the random numbers that are drawn. -/
theorem C124_ray {v : Fin 3 → ℝ} {w w' : World (Fl F) S} (hw : MovedWorld v w w') (bg : Vec (Fl F) 3) (rec0 : HitRecord (Fl F)) (depth : ℕ) (s : S)
    (r : Ray (Fl F)) : rayColor w' bg (rec0.moved v) depth s (r.moved v) = rayColor w bg rec0 depth s r := by
  induction depth generalizing s r with
  | zero => rfl
  | succ d ih =>
    have h := hw s r (1000 * eps) inf rec0
    rw [rayColor, rayColor]
    rcases he : w s r (1000 * eps) inf rec0 with _ | ⟨_ | m, rec₁, s₁⟩
    · rw [he] at h
      rw [h]
    · rw [he] at h
      rw [h]
    · rw [he] at h
      obtain ⟨m', hm, h⟩ := h
      rw [h]
      dsimp only
      rw [(hm rec₁).2 s₁ r, (hm rec₁).1]
      rcases m.scatter s₁ r rec₁ with _ | ⟨⟨ok, a, q⟩, s₂⟩
      · rfl
      · dsimp only [Option.map_some]
        cases ok
        · rfl
        · simp only [if_true]
          cases a with
          | none => cases q <;> rfl
          | some a =>
            cases q with
            | none => rfl
            | some q => simp only [Option.map_some, ih]

/-- The camera moved by `v`. -/
noncomputable def Camera.moved (v : Fin 3 → ℝ) (c : Camera (Fl F)) : Camera (Fl F) :=
  ⟨c.origin + cv v, c.llc + cv v, c.horizontal, c.vertical, c.lookat + cv v⟩

/-- Constructing a camera with the two points moved yields the moved camera. -/
theorem Camera.make_moved [F.Exact] (v : Fin 3 → ℝ) (lookfrom lookat up : Vec (Fl F) 3) (vfov aspect : Fl F) :
    Camera.make (lookfrom + cv v) (lookat + cv v) up vfov aspect = (Camera.make lookfrom lookat up vfov aspect).moved v := by
  simp only [Camera.make, Camera.moved, move_sub]
  simp only [move_minus]

theorem Camera.ray_moved [F.Exact] (v : Fin 3 → ℝ) (c : Camera (Fl F)) (x y : Fl F) : (c.moved v).getRay x y = (c.getRay x y).moved v := by
  simp only [Camera.getRay, Camera.moved, Ray.moved, move_add, move_sub]

/-- The scene with another world, with the camera moved by `v`. -/
noncomputable def Render.Scene.moved (v : Fin 3 → ℝ) (sc : Scene (Fl F) S) (w : World (Fl F) S) : Scene (Fl F) S :=
  { sc with camera := sc.camera.moved v, world := w, rec0 := sc.rec0.moved v }

/-- C124: if all objects of a scene and the camera are moved by the same vector, `render_scene` writes the same image, byte for byte. -/
theorem C124_image [F.Exact] {v : Fin 3 → ℝ} (sc : Scene (Fl F) S) {w' : World (Fl F) S} (hw : MovedWorld v sc.world w') (rows : List ℕ) (s : S) :
    Render.image (sc.moved v w') rows s = Render.image sc rows s := by
  have h1 : ∀ i j st, sample (sc.moved v w') i j st = sample sc i j st := by
    intro i j st
    simp only [sample, Render.Scene.moved, Camera.ray_moved, C124_ray hw]
  have h2 : ∀ i j n st, sampleLoop (sc.moved v w') i j n st = sampleLoop sc i j n st := by
    intro i j n
    induction n with
    | zero => intro st; rfl
    | succ n ih =>
      intro st
      rw [sampleLoop, sampleLoop, h1]
      cases sample sc i j st with
      | none => rfl
      | some st => exact ih st
  have h3 : ∀ i j g, task (sc.moved v w') i j g = task sc i j g := by
    intro i j g
    rw [task, task, h2]
    rfl
  have h4 : ∀ ts g, run (sc.moved v w') ts g = run sc ts g := by
    intro ts
    induction ts with
    | nil => intro g; rfl
    | cons t ts ih =>
      intro g
      rw [run, run, h3]
      cases task sc t.1 t.2 g with
      | none => rfl
      | some p => simp only [ih]
  rw [Render.image, Render.image, h4]
  rfl

/-- A dull sphere, a mirror, a disk of glass and a lamp, seen by a camera: wherever the whole scene is put, the image is the same. -/
example (v : Fin 3 → ℝ) (temp0 rec0 : HitRecord (Fl exact64)) (rows : List ℕ) (g : Pcg) :
    let objects (v : Fin 3 → ℝ) : List (Hittable (Fl exact64)) := [Sphere.toHittable ⟨cv ![0, 0, -1] + cv v, fin 1⟩,
      Torus.toHittable ⟨cv ![3, 0, -1] + cv v, fin 2, fin 1⟩, Disk.toHittable ⟨fin 1, cv ![0, 0, -2] + cv v, cv ![0, 0, 1], fun i => cv fun j => if i = j then 1 else 0,
        fun i => cv fun j => if i = j then 1 else 0⟩, Rect.xz ⟨fin 0 + fin (v 0), fin 1 + fin (v 0), fin 0 + fin (v 2), fin 1 + fin (v 2), fin 5 + fin (v 1)⟩]
    let materials : List (Material (Fl exact64) Pcg) := [Material.lambertian (solidColor (cv ![1, 0, 0])) id fun g _ => g,
      Material.metal (solidColor (cv ![1, 1, 1])), Material.dielectric (fin (3 / 2)) (solidColor (cv 0)) Pcg.real01,
      Material.diffuseLight (solidColor (cv ![4, 4, 4]))]
    let scene (v : Fin 3 → ℝ) : Scene (Fl exact64) Pcg := ⟨5, 5, cv 0, Camera.make (cv ![0, 0, 1] + cv v) (cv 0 + cv v) (cv ![0, 1, 0]) (fin 90) (fin 1),
      (⟨objects v, materials⟩ : HittableList _ _).world (temp0.moved v), 16, rec0.moved v⟩
    Render.image (scene v) rows g = Render.image (scene 0) rows g := by
  intro objects materials scene
  have hz : ∀ a : Vec (Fl exact64) 3, a + cv 0 = a := fun a => funext fun i => by
    show a i + fin 0 = a i
    cases a i <;> simp
  have h0 : ∀ rec : HitRecord (Fl exact64), rec.moved 0 = rec := fun rec => by rw [HitRecord.moved, hz]
  have hr0 : ∀ a : Fl exact64, a + fin ((0 : Fin 3 → ℝ) 0) = a := fun a => by cases a <;> simp
  have ho : List.Forall₂ (Moved v) (objects 0) (objects v) := by
    simp only [objects, hz, Pi.zero_apply] at hr0 ⊢
    simp only [hr0]
    exact .cons (Sphere.moved v ⟨cv ![0, 0, -1], fin 1⟩) (.cons (Torus.moved v ⟨cv ![3, 0, -1], fin 2, fin 1⟩)
      (.cons (Disk.moved v ⟨fin 1, cv ![0, 0, -2], _, _, _⟩) (.cons (Rect.xz_moved v ⟨fin 0, fin 1, fin 0, fin 1, fin 5⟩) .nil)))
  have hm : List.Forall₂ (SameMaterial v) materials materials :=
    .cons (sameMaterial_lambertian (fun _ => rfl) _ _) (.cons (sameMaterial_metal fun _ => rfl)
      (.cons (sameMaterial_dielectric (fun _ => rfl) _ _) (.cons (sameMaterial_light fun _ => rfl) .nil)))
  have h := C124_image (scene 0) (w' := (⟨objects v, materials⟩ : HittableList _ _).world (temp0.moved v)) (by
    have := movedWorld_list ho hm temp0
    simpa only [scene, h0] using this) rows g
  rw [← h]
  simp only [scene, Render.Scene.moved, hz, h0, Camera.make_moved]

/-! ## Checkered surfaces -/

/-- C124 fails for checkered surfaces: the pattern stays where it is. Moved by `π/10` along the first axis, a checkered lamp has the other
colour wherever a ray sees it. -/
theorem C124_checker_false [F.Exact] (even odd : Vec (Fl F) 3) (w w' : World (Fl F) S) (s s' : S) (r : Ray (Fl F)) (rec0 rec rec0' rec' : HitRecord (Fl F))
    (p : Fin 3 → ℝ) (hp : rec.p = cv p) (hp' : rec'.p = cv (p + ![Real.pi / 10, 0, 0]))
    (h0 : Real.sin (10 * p 0) * Real.sin (10 * p 1) * Real.sin (10 * p 2) ≠ 0)
    (h : w s r (1000 * eps) inf rec0 = some (some (Material.diffuseLight (checkerTexture (solidColor even) (solidColor odd))), rec, s'))
    (h' : w' s (r.moved ![Real.pi / 10, 0, 0]) (1000 * eps) inf rec0' =
      some (some (Material.diffuseLight (checkerTexture (solidColor even) (solidColor odd))), rec', s'))
    (bg : Vec (Fl F) 3) (depth : ℕ) :
    ∃ c c', rayColor w bg rec0 (depth + 1) s r = some c ∧
      rayColor w' bg rec0' (depth + 1) s (r.moved ![Real.pi / 10, 0, 0]) = some c' ∧
      (c.color = even ∧ c'.color = odd ∨ c.color = odd ∧ c'.color = even) := by
  have e : p + ![Real.pi / 10, 0, 0] = ![p 0 + Real.pi / 10, p 1, p 2] := by
    funext i
    fin_cases i
    · rfl
    · exact add_zero _
    · exact add_zero _
  rw [e] at hp'
  refine ⟨⟨checkerTexture (solidColor even) (solidColor odd) rec, s', 1⟩, ⟨checkerTexture (solidColor even) (solidColor odd) rec', s', 1⟩, ?_, ?_,
    C79_checker_alternates (solidColor even) (solidColor odd) rec _ p hp hp' h0⟩
  · rw [rayColor, h]
    rfl
  · rw [rayColor, h']
    rfl

/-- A list of one object that is hit before infinity. -/
theorem one_hit (o : Hittable (Fl F)) (m : Material (Fl F) S) (s : S) (r : Ray (Fl F)) (tmin : Fl F) (rec temp0 x : HitRecord (Fl F)) (t : ℝ)
    (h : o.hit r tmin inf temp0 = (true, x)) (ht : x.t = fin t) :
    (HittableList.add HittableList.empty o m).world temp0 s r tmin inf rec = some (some m, x, s) := by
  rw [inf_def] at h
  simp [HittableList.world, HittableList.hit, HittableList.add, HittableList.empty, HittableList.loop, HittableList.step, h, ht]

/-- A square lamp at the height `π/20`, seen from above at `(π/20, π/20)`. -/
example (even odd : Vec (Fl exact64) 3) (temp0 rec0 : HitRecord (Fl exact64)) :
    let lamp (x : ℝ) : World (Fl exact64) Unit := (HittableList.add HittableList.empty (Rect.xy (Rect.ofReal x (1 + x) 0 1 (Real.pi / 20)))
      (Material.diffuseLight (checkerTexture (solidColor even) (solidColor odd)))).world temp0
    ∃ c c', rayColor (lamp 0) (cv 0) rec0 8 () ⟨cv ![Real.pi / 20, Real.pi / 20, Real.pi / 20 + 1], cv ![0, 0, -1]⟩ = some c ∧
      rayColor (lamp (Real.pi / 10)) (cv 0) rec0 8 () ⟨cv ![Real.pi / 20 + Real.pi / 10, Real.pi / 20, Real.pi / 20 + 1], cv ![0, 0, -1]⟩ = some c' ∧
      (c.color = even ∧ c'.color = odd ∨ c.color = odd ∧ c'.color = even) := by
  intro lamp
  have hpi := Real.pi_pos
  have hpi4 := Real.pi_le_four
  have key : ∀ x : ℝ, ∃ rec : HitRecord (Fl exact64), rec.p = cv ![Real.pi / 20 + x, Real.pi / 20, Real.pi / 20] ∧
      lamp x () ⟨cv ![Real.pi / 20 + x, Real.pi / 20, Real.pi / 20 + 1], cv ![0, 0, -1]⟩ (1000 * eps) inf rec0 =
        some (some (Material.diffuseLight (checkerTexture (solidColor even) (solidColor odd))), rec, ()) := by
    intro x
    have h := Rect.hitPlane_fin (F := exact64) 0 1 2 ![0, 0, 1] x (1 + x) 0 1 (Real.pi / 20) ![Real.pi / 20 + x, Real.pi / 20, Real.pi / 20 + 1]
      ![0, 0, -1] (by simp) (1000 * eps) inf temp0
    have ht : (Real.pi / 20 - (![Real.pi / 20 + x, Real.pi / 20, Real.pi / 20 + 1] : Fin 3 → ℝ) 2) / (![0, 0, -1] : Fin 3 → ℝ) 2 = 1 := by
      simp
    dsimp only at h
    rw [ht, if_neg, if_neg] at h
    · refine ⟨_, ?_, one_hit _ _ _ _ _ _ _ _ 1 h rfl⟩
      show cv _ = cv _
      congr 1
      funext i
      fin_cases i <;> simp
    · simp only [Matrix.cons_val_zero, Matrix.cons_val_one, mul_zero, add_zero]
      rintro (h | h | h | h) <;> linarith
    · rw [offset_exact]
      have e : 1000 * exact64.eps ≤ 1 := by simp [exact64]; norm_num
      simp [Scalar.gt, e]
  obtain ⟨rec, hp, h⟩ := key 0
  obtain ⟨rec', hp', h'⟩ := key (Real.pi / 10)
  rw [add_zero] at hp h
  have hs : Real.sin (10 * (Real.pi / 20)) = 1 := by rw [show 10 * (Real.pi / 20) = Real.pi / 2 by ring, Real.sin_pi_div_two]
  have hr : (⟨cv ![Real.pi / 20, Real.pi / 20, Real.pi / 20 + 1], cv ![0, 0, -1]⟩ : Ray (Fl exact64)).moved ![Real.pi / 10, 0, 0] =
      ⟨cv ![Real.pi / 20 + Real.pi / 10, Real.pi / 20, Real.pi / 20 + 1], cv ![0, 0, -1]⟩ := by
    simp only [Ray.moved, cv_add]
    congr 2
    simp
  have := C124_checker_false even odd (lamp 0) (lamp (Real.pi / 10)) () () _ rec0 rec rec0 rec' _ hp (by
    rw [hp']
    congr 1
    simp) (by simp [hs]) h (by rw [hr]; exact h') (cv 0) 7
  rw [hr] at this
  exact this

end DRT
