import Verif.Model.Programs

/-!
# Model of the threads of `render_scene.hpp`

The rows of the image are distributed over threads (`#pragma omp parallel for`, render_scene.hpp:31). The generator of
`render_scene` and those of the `lambertian`s are shared by the threads without a lock. Here a thread is a computation that
draws from shared generators, a draw is a load of the generator's state followed by a store of the advanced state, and the steps of the
threads may be interleaved in any way, so updates can be lost. The generators of `dielectric`, `isotropic` and `constant_medium`
(`std::mt19937_64`) are not modelled here.
-/

namespace DRT
open Scalar Vec

variable {R : Type} [Scalar R] {α β : Type}

/-! ## Computations -/

/-- A computation of a thread up to its end or up to its next draw. The generators are that of `render_scene` (`none`) and those of
the materials (`some k`). -/
inductive Comp (α : Type) where
  /-- the end, with a result -/
  | done (a : α)
  /-- undefined behaviour -/
  | stuck
  /-- a sampling loop has run more bodies than the bound that the model puts on it -/
  | tired
  /-- pcg.hpp:11-20: a draw from generator `k`; what follows depends on the number drawn -/
  | draw (k : Option ℕ) (next : BitVec 32 → Comp α)

namespace Comp

/-- One computation after another. -/
def bind : Comp α → (α → Comp β) → Comp β
  | done a, f => f a
  | stuck, _ => stuck
  | tired, _ => tired
  | draw k next, f => draw k fun x => (next x).bind f

/-- The states of the shared generators. The type `G` of these states is `Pcg` in the programs. -/
abbrev Memory (G : Type) := Option ℕ → G

/-- The computation when no other thread runs; `none` if it gets stuck or tired. `draw` makes a draw, `Pcg.next` in the programs. -/
def alone {G : Type} (draw : G → BitVec 32 × G) : Comp α → Memory G → Option (α × Memory G)
  | done a, m => some (a, m)
  | stuck, _ => none
  | tired, _ => none
  | .draw k next, m => (next (draw (m k)).1).alone draw (Function.update m k (draw (m k)).2)

end Comp

/-! ## Threads -/

/-- The state of a thread. -/
inductive Thread (G α : Type) where
  /-- about to load a generator, or at its end -/
  | running (c : Comp α)
  /-- pcg.hpp:13-15: it has loaded generator `k` and is about to store `g`; then it goes on as `c` -/
  | storing (k : Option ℕ) (g : G) (c : Comp α)

/-- All threads and the shared generators. -/
structure Machine (G ι α : Type) where
  /-- the shared generators -/
  memory : Comp.Memory G
  /-- the threads -/
  threads : ι → Thread G α

namespace Machine

variable {G ι : Type} [DecidableEq ι] (draw : G → BitVec 32 × G)

/-- pcg.hpp:11-20: the next load or store of thread `i`. A thread at its end stays there. -/
def step (m : Machine G ι α) (i : ι) : Machine G ι α :=
  match m.threads i with
  | .running (.draw k next) =>
    { m with threads := Function.update m.threads i (.storing k (draw (m.memory k)).2 (next (draw (m.memory k)).1)) }
  | .running _ => m
  | .storing k g c => ⟨Function.update m.memory k g, Function.update m.threads i (.running c)⟩

/-- The steps of a schedule, one after the other. -/
def exec (m : Machine G ι α) (schedule : List ι) : Machine G ι α := schedule.foldl (step draw) m

end Machine

/-! ## `ray_color` and `render_scene` as computations -/

/-- lambertian.hpp:36-44, `random_unit_vector()` with generator `k` and at most `fuel` bodies of the loop. -/
def Comp.unitVector (k : ℕ) : ℕ → Comp (Vec R 3)
  | 0 => .tired
  | fuel + 1 => .draw (some k) fun a => .draw (some k) fun b => .draw (some k) fun c =>
    let v : Vec R 3 := ![2 * ldexp32 a.toNat - 1, 2 * ldexp32 b.toNat - 1, 2 * ldexp32 c.toNat - 1]
    if gt (squaredNorm v) 1 then unitVector k fuel else .done v

/-- material.hpp:10-19: a material whose `scatter` may draw from shared generators. -/
structure SharedMaterial (R : Type) where
  /-- `emitted(hr)` -/
  emitted : HitRecord R → Vec R 3
  /-- `scatter(r_in, rec, attenuation, scattered)` -/
  scatter : Ray R → HitRecord R → Comp (Scattered R)

namespace SharedMaterial

/-- lambertian.hpp:13-59, with generator `k`; at most `2^64` bodies of the sampling loop are run. -/
def lambertian (albedo : Texture R) (k : ℕ) : SharedMaterial R where
  emitted := Material.emittedDefault
  scatter _ rec := (Comp.unitVector k (2 ^ 64)).bind fun v =>
    let h := if gt (dot v rec.normal) 0 then v else -v
    let d := rec.normal + h
    let d := if lt (squaredNorm d) (Scalar.sqrt eps) then rec.normal else d
    .done ⟨true, some (albedo rec), some ⟨rec.p, d⟩⟩

/-- metal.hpp:10-33. -/
def metal (albedo : Texture R) : SharedMaterial R := ⟨Material.emittedDefault, fun r rec => .done (Metal.scatter albedo r rec)⟩

/-- diffuse_light.hpp:11-31. -/
def diffuseLight (emit : Texture R) : SharedMaterial R := ⟨DiffuseLight.emitted emit, fun r rec => .done (DiffuseLight.scatter r rec)⟩

end SharedMaterial

namespace Threads

/-- render_scene.hpp:14-29, the arguments of `render_scene`. -/
structure Scene (R : Type) where
  /-- `image_width` -/
  width : ℕ
  /-- `image_height` -/
  height : ℕ
  /-- `background` -/
  background : Vec R 3
  /-- `cam` -/
  camera : Camera R
  /-- `world` -/
  world : HittableList R (SharedMaterial R)
  /-- `samples_per_pixel` -/
  samples : ℕ
  /-- the default-constructed record of `ray_color` -/
  rec0 : HitRecord R
  /-- the default-constructed record of `hittable_list::hit` -/
  temp0 : HitRecord R

/-- ray_color.hpp:9-33. -/
def rayColor (sc : Scene R) : ℕ → Ray R → Comp (Vec R 3)
  | 0, _ => .done ![0, 0, 0]
  | depth + 1, r =>
    let h := sc.world.hit r (1000 * eps) inf sc.rec0 sc.temp0
    match h.1 with
    | none => .stuck
    | some none => .done sc.background
    | some (some m) => (m.scatter r h.2).bind fun s =>
      if s.ok then
        match s.attenuation, s.ray with
        | some a, some q => (rayColor sc depth q).bind fun c => .done (m.emitted h.2 + fun i => c i * a i)
        | _, _ => .stuck
      else .done (m.emitted h.2)

/-- render_scene.hpp:40-45: `n` further samples of the pixel `(i, j)`. -/
def samples (sc : Scene R) (i j : ℕ) : ℕ → Vec R 3 → Comp (Vec R 3)
  | 0, color => .done color
  | n + 1, color => .draw none fun x => .draw none fun y =>
    let r := sc.camera.getRay (Render.coordinate i sc.width (ldexp32 x.toNat)) (Render.coordinate j sc.height (ldexp32 y.toNat))
    (rayColor sc 8 r).bind fun c => samples sc i j n (color + c)

/-- render_scene.hpp:39-46: the pixel `(i, j)`. -/
def pixel (sc : Scene R) (i j : ℕ) : Comp (Fin 4 → UInt8) :=
  (samples sc i j sc.samples ![0, 0, 0]).bind fun c =>
    match to8bit (c /. lit sc.samples) with
    | some p => .done p
    | none => .stuck

/-- render_scene.hpp:32-58: the work of a thread: pixels one after the other. -/
def work (sc : Scene R) : List (ℕ × ℕ) → Comp (List ((ℕ × ℕ) × (Fin 4 → UInt8)))
  | [] => .done []
  | (i, j) :: ts => (pixel sc i j).bind fun p => (work sc ts).bind fun l => .done (((i, j), p) :: l)

/-- render_scene.hpp:24-31: the machine when the loop begins and thread `i` is given the rows `rows i`. The materials' generators are
as `memory` says. -/
def start {ι : Type} (sc : Scene R) (rows : ι → List ℕ) (memory : ℕ → Pcg) : Machine Pcg ι (List ((ℕ × ℕ) × (Fin 4 → UInt8))) :=
  ⟨fun k => k.elim Render.seed memory, fun i => .running (work sc (Render.tasks sc.width (rows i)))⟩

end Threads

/-! ## Programs -/

/-- with_lights.cpp:30-65, as `WithLights.scene`. The ground has generator 0. -/
def WithLights.shared (rec0 temp0 : HitRecord R) : Threads.Scene R where
  width := 1800
  height := 1125
  background := ![lit (1 / 100), lit (2 / 100), lit (1 / 100)]
  camera := Camera.make ![26, 3, 6] ![0, 2, 0] ![0, 1, 0] 20 (lit (16 / 10))
  world := ((HittableList.empty.add (Sphere.toHittable ⟨![0, -1000, 0], 1000⟩)
      (.lambertian (checkerTexture (solidColor ![lit (8 / 10), 0, 1]) (solidColor ![0, lit (8 / 10), 1])) 0)).add
    (Sphere.toHittable ⟨![0, 2, 0], 2⟩) (.metal (solidColor ![lit (2 / 10), lit (4 / 10), lit (9 / 10)]))).add
    (Rect.xy ⟨3, 5, 1, 3, -2⟩) (.diffuseLight (solidColor ![4, 4, 4]))
  samples := 16
  rec0 := rec0
  temp0 := temp0

/-- cylinder.cpp:22-55, as `CylinderProgram.scene`. The cylinder has generator 0. -/
def CylinderProgram.shared (rec0 temp0 : HitRecord R) : Threads.Scene R where
  width := 1200
  height := 750
  background := ![0, 0, 0]
  camera := Camera.make ![10, 10, 0] ![0, 0, 0] ![0, 1, 0] 40 (lit (16 / 10))
  world := (HittableList.empty.add (Rect.yz ⟨-10, 10, -10, 10, 20⟩) (.diffuseLight (solidColor ![3, 3, 3]))).add
    (Cylinder.toHittable ⟨3, -10, 10⟩) (.lambertian (solidColor ![0, 0, 1]) 0)
  samples := 16
  rec0 := rec0
  temp0 := temp0

end DRT
