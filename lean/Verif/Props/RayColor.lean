import Verif.Model.RayColor
import Verif.Props.HittableList
import Verif.Props.Lambertian

/-! # C80, C81: `ray_color` -/

namespace DRT
open Scalar Fl Matrix

variable {F : Fmt} {S : Type}

/-! ## C80 -/

/-- C80: `ray_color` queries the scene at most `depth` times, in every arithmetic, scene and random history. -/
theorem C80_queries {R : Type} [Scalar R] (world : World R S) (bg : Vec R 3) (rec0 : HitRecord R) (depth : ℕ) (s : S) (r : Ray R)
    (c : Shade R S) (h : rayColor world bg rec0 depth s r = some c) : c.queries ≤ depth := by
  induction depth generalizing s r c with
  | zero =>
    simp only [rayColor, Option.some.injEq] at h
    subst h
    exact le_refl _
  | succ d ih =>
    rw [rayColor] at h
    split at h
    · cases h
    · simp only [Option.some.injEq] at h; subst h; simp
    · split at h
      · cases h
      · split at h
        · split at h
          · split at h
            · cases h
            · rename_i c' hc
              simp only [Option.some.injEq] at h
              subst h
              exact Nat.succ_le_succ (ih _ _ _ hc)
          · cases h
        · simp only [Option.some.injEq] at h; subst h; simp

/-- C80: with no depth left the colour is black, and the scene is not queried. -/
theorem C80_black [F.Exact] (world : World (Fl F) S) (bg : Vec (Fl F) 3) (rec0 : HitRecord (Fl F)) (depth : ℤ) (hd : depth ≤ 0) (s : S)
    (r : Ray (Fl F)) : rayColorInt world bg rec0 depth s r = some ⟨cv ![0, 0, 0], s, 0⟩ := by
  unfold rayColorInt
  rw [Int.toNat_of_nonpos hd, rayColor]
  simp only [ofNat_zero, cv_vec3]

example (rec0 : HitRecord (Fl exact64)) (r : Ray (Fl exact64)) :
    rayColorInt (fun s _ _ _ rec => some (none, rec, s) : World (Fl exact64) ℕ) (cv ![1, 2, 3]) rec0 (-7) 5 r = some ⟨cv ![0, 0, 0], 5, 0⟩ :=
  C80_black _ _ _ _ (by norm_num) _ _

/-- The scene's queries and scatterings come back, and a scattering that returns true sets its outputs. -/
def WellBehaved {R : Type} [Scalar R] (world : World R S) : Prop :=
  ∀ s r tmin tmax rec, ∃ m rec' s', world s r tmin tmax rec = some (m, rec', s') ∧
    ∀ mat, m = some mat → ∀ s r, ∃ sc s', mat.scatter s r rec' = some (sc, s') ∧
      (sc.ok = true → (∃ a, sc.attenuation = some a) ∧ ∃ q, sc.ray = some q)

/-- C80: then `ray_color` ends with a colour, for every depth. -/
theorem C80_defined {R : Type} [Scalar R] (world : World R S) (hw : WellBehaved world) (bg : Vec R 3) (rec0 : HitRecord R)
    (depth : ℤ) (s : S) (r : Ray R) : ∃ c, rayColorInt world bg rec0 depth s r = some c := by
  unfold rayColorInt
  generalize depth.toNat = d
  induction d generalizing s r with
  | zero => exact ⟨_, rfl⟩
  | succ d ih =>
    rw [rayColor]
    obtain ⟨m, rec', s', h1, h2⟩ := hw s r (1000 * eps) inf rec0
    rw [h1]
    rcases m with _ | m
    · exact ⟨_, rfl⟩
    · obtain ⟨sc, s'', h3, h4⟩ := h2 m rfl s' r
      simp only [h3]
      by_cases hk : sc.ok = true
      · obtain ⟨⟨a, ha⟩, q, hq⟩ := h4 hk
        obtain ⟨c, hc⟩ := ih s'' q
        simp only [hk, ha, hq, hc, if_true]
        exact ⟨_, rfl⟩
      · simp only [hk, Bool.false_eq_true, if_false]
        exact ⟨_, rfl⟩

/-- The colour has its components in `[0, L]`. -/
def ColorIn (L : ℝ) (c : Vec (Fl F) 3) : Prop := ∃ x : Fin 3 → ℝ, c = cv x ∧ ∀ i, 0 ≤ x i ∧ x i ≤ L

/-- At the hit `rec` the material emits at most `L` and attenuates by factors in `[0,1]`. -/
def Tame (L : ℝ) (m : Material (Fl F) S) (rec : HitRecord (Fl F)) : Prop :=
  ColorIn L (m.emitted rec) ∧ ∀ s r sc s', m.scatter s r rec = some (sc, s') → sc.ok = true → ∀ a, sc.attenuation = some a → ColorIn 1 a

/-- C80: if attenuations are in `[0,1]` and emissions and background in `[0,L]`, the colour is in `[0, depth * L]`. -/
theorem C80_bounded [F.Exact] (world : World (Fl F) S) (bg : Vec (Fl F) 3) (rec0 : HitRecord (Fl F)) (L : ℝ) (hb : ColorIn L bg)
    (hm : ∀ s r tmin tmax rec m rec' s', world s r tmin tmax rec = some (some m, rec', s') → Tame L m rec')
    (depth : ℕ) (s : S) (r : Ray (Fl F)) (c : Shade (Fl F) S) (h : rayColor world bg rec0 depth s r = some c) :
    ColorIn (depth * L) c.color := by
  have hL : 0 ≤ L := by
    obtain ⟨x, -, hx⟩ := hb
    exact (hx 0).1.trans (hx 0).2
  have mono : ∀ {a b : ℝ} {v : Vec (Fl F) 3}, a ≤ b → ColorIn a v → ColorIn b v := by
    rintro a b v hab ⟨x, hx, h⟩
    exact ⟨x, hx, fun i => ⟨(h i).1, (h i).2.trans hab⟩⟩
  induction depth generalizing s r c with
  | zero =>
    simp only [rayColor, Option.some.injEq] at h
    subst h
    refine ⟨![0, 0, 0], by simp only [ofNat_zero, cv_vec3], fun i => ?_⟩
    fin_cases i <;> simp
  | succ d ih =>
    have hd : L ≤ ((d + 1 : ℕ) : ℝ) * L := by push_cast; nlinarith [Nat.cast_nonneg (α := ℝ) d]
    rw [rayColor] at h
    split at h
    · cases h
    · simp only [Option.some.injEq] at h; subst h; exact mono hd hb
    · rename_i m rec s' hq
      have ht := hm _ _ _ _ _ _ _ _ hq
      split at h
      · cases h
      · rename_i sc s'' hsc
        split at h
        · rename_i hok
          split at h
          · rename_i a q ha hray
            split at h
            · cases h
            · rename_i c' hc
              simp only [Option.some.injEq] at h
              subst h
              obtain ⟨e, he, e1⟩ := ht.1
              obtain ⟨y, hy, y1⟩ := ht.2 _ _ _ _ hsc hok _ ha
              obtain ⟨x, hx, x1⟩ := ih _ _ _ hc
              refine ⟨fun i => e i + x i * y i, ?_, fun i => ?_⟩
              · funext i
                show m.emitted rec i + c'.color i * a i = _
                rw [he, hx, hy, cv_apply, cv_apply, cv_apply, mul_fin, add_fin]
                rfl
              · have := e1 i
                have := x1 i
                have := y1 i
                push_cast
                constructor
                · nlinarith
                · nlinarith
          · cases h
        · simp only [Option.some.injEq] at h; subst h; exact mono hd ht.1

/-! ### The materials of the library satisfy the hypotheses -/

theorem colorIn_black [F.Exact] {L : ℝ} (hL : 0 ≤ L) (rec : HitRecord (Fl F)) : ColorIn L (Material.emittedDefault rec) := by
  refine ⟨![0, 0, 0], by simp only [Material.emittedDefault, ofNat_zero, cv_vec3], fun i => ?_⟩
  fin_cases i <;> simp [hL]

/-- C80: every material of the library is tame at a hit where its texture is: lambertian, isotropic and metal with albedo in
`[0,1]`, dielectric and light with emission in `[0,L]`. -/
theorem C80_materials [F.Exact] (L : ℝ) (hL : 0 ≤ L) (rec : HitRecord (Fl F)) (albedo emit : Texture (Fl F))
    (ha : ColorIn 1 (albedo rec)) (he : ColorIn L (emit rec)) (get : S → Pcg) (set : Pcg → S → S) (draw : S → Fl F × S)
    (draw3 : S → Vec (Fl F) 3 × S) (ir : Fl F) :
    Tame L (Material.lambertian albedo get set) rec ∧ Tame L (Material.isotropic albedo draw3) rec ∧
    Tame L (Material.metal (S := S) albedo) rec ∧ Tame L (Material.dielectric ir emit draw) rec ∧
    Tame L (Material.diffuseLight (S := S) emit) rec := by
  refine ⟨⟨colorIn_black hL rec, ?_⟩, ⟨colorIn_black hL rec, ?_⟩, ⟨colorIn_black hL rec, ?_⟩, ⟨he, ?_⟩, ⟨he, ?_⟩⟩
  · intro s r sc s' h _ a hsc
    simp only [Material.lambertian, Option.map_eq_some_iff, Prod.mk.injEq] at h
    obtain ⟨⟨sc', g'⟩, h1, h2, -⟩ := h
    obtain ⟨-, h3, -⟩ := C74_always _ _ _ _ _ _ _ h1
    subst h2
    rw [h3] at hsc
    cases hsc
    exact ha
  · intro s r sc s' h _ a hsc
    simp only [Material.isotropic, Option.some.injEq, Prod.mk.injEq] at h
    obtain ⟨rfl, -⟩ := h
    cases hsc
    exact ha
  · intro s r sc s' h _ a hsc
    simp only [Material.metal, Option.some.injEq, Prod.mk.injEq] at h
    obtain ⟨rfl, -⟩ := h
    cases hsc
    exact ha
  · intro s r sc s' h _ a hsc
    simp only [Material.dielectric, Option.some.injEq, Prod.mk.injEq] at h
    obtain ⟨rfl, -⟩ := h
    cases hsc
    refine ⟨![1, 1, 1], by simp only [ofNat_one, cv_vec3], fun i => ?_⟩
    fin_cases i <;> simp
  · intro s r sc s' h hok a hsc
    simp only [Material.diffuseLight, Option.some.injEq, Prod.mk.injEq] at h
    obtain ⟨rfl, -⟩ := h
    cases hok

/-! ## C81 -/

/-- How a path ends. -/
inductive PathEnd | escaped | refused | exhausted

/-- The path of `ray_color` as a relation: from random state `s` the ray `r`, with `depth` bounces left, ends in the given way. -/
inductive Path {R : Type} [Scalar R] (world : World R S) (rec0 : HitRecord R) : ℕ → S → Ray R → PathEnd → Prop
  | exhausted (s r) : Path world rec0 0 s r .exhausted
  | escaped (d s r rec s') : world s r (1000 * eps) inf rec0 = some (none, rec, s') → Path world rec0 (d + 1) s r .escaped
  | refused (d s r m rec s' sc s'') : world s r (1000 * eps) inf rec0 = some (some m, rec, s') → m.scatter s' r rec = some (sc, s'') →
      sc.ok = false → Path world rec0 (d + 1) s r .refused
  | bounce (d s r m rec s' sc s'' q e) : world s r (1000 * eps) inf rec0 = some (some m, rec, s') → m.scatter s' r rec = some (sc, s'') →
      sc.ok = true → sc.ray = some q → Path world rec0 d s'' q e → Path world rec0 (d + 1) s r e

/-- C81: with no emission and attenuation 1 every colour computed is the background or black, the background exactly when the path
leaves the scene, and black when it runs out of depth or a material refuses to scatter. -/
theorem C81_furnace [F.Exact] (world : World (Fl F) S) (B : Fin 3 → ℝ) (rec0 : HitRecord (Fl F))
    (hm : ∀ s r tmin tmax rec m rec' s', world s r tmin tmax rec = some (some m, rec', s') → m.emitted rec' = cv 0 ∧
      ∀ s r sc s', m.scatter s r rec' = some (sc, s') → ∀ a, sc.attenuation = some a → a = cv 1)
    (depth : ℕ) (s : S) (r : Ray (Fl F)) (c : Shade (Fl F) S) (h : rayColor world (cv B) rec0 depth s r = some c) :
    ∃ e, Path world rec0 depth s r e ∧ (e = .escaped → c.color = cv B) ∧ (e ≠ .escaped → c.color = cv 0) := by
  induction depth generalizing s r c with
  | zero =>
    simp only [rayColor, Option.some.injEq] at h
    subst h
    refine ⟨.exhausted, .exhausted s r, fun h => (by cases h), fun _ => ?_⟩
    simp only [ofNat_zero, cv_vec3]
    rw [cv_inj]
    funext i; fin_cases i <;> rfl
  | succ d ih =>
    rw [rayColor] at h
    split at h
    · cases h
    · rename_i rec s' hq
      simp only [Option.some.injEq] at h; subst h
      exact ⟨.escaped, .escaped d s r rec s' hq, fun _ => rfl, fun h => absurd rfl h⟩
    · rename_i m rec s' hq
      obtain ⟨hm1, hm2⟩ := hm _ _ _ _ _ _ _ _ hq
      split at h
      · cases h
      · rename_i sc s'' hsc
        split at h
        · rename_i hok
          split at h
          · rename_i a q ha hray
            split at h
            · cases h
            · rename_i c' hc
              simp only [Option.some.injEq] at h
              subst h
              obtain ⟨e, he, e1, e2⟩ := ih _ _ _ hc
              have same : ∀ X : Fin 3 → ℝ, c'.color = cv X → (m.emitted rec + fun i => c'.color i * a i) = cv X := by
                intro X hX
                rw [hm1, hm2 _ _ _ _ hsc _ ha, hX]
                funext i
                show (cv 0 : Vec (Fl F) 3) i + (cv X : Vec (Fl F) 3) i * (cv 1 : Vec (Fl F) 3) i = _
                simp [cv_apply]
              exact ⟨e, .bounce d s r m rec s' sc s'' q e hq hsc hok hray he, fun h => same _ (e1 h), fun h => same _ (e2 h)⟩
          · cases h
        · rename_i hok
          simp only [Option.some.injEq] at h; subst h
          exact ⟨.refused, .refused d s r m rec s' sc s'' hq hsc (by simpa using hok), fun h => (by cases h), fun _ => hm1⟩

/-! ## Scenes that are lists of objects -/

theorem HittableList.world_mem {R : Type} [Scalar R] (l : HittableList R (Material R S)) (temp0 : HitRecord R) {s : S} {r : Ray R} {tmin tmax : R}
    {rec : HitRecord R} {m : Material R S} {rec' : HitRecord R} {s' : S}
    (h : l.world temp0 s r tmin tmax rec = some (some m, rec', s')) : m ∈ l.materials := by
  unfold HittableList.world HittableList.hit at h
  dsimp only at h
  generalize HittableList.loop r tmin l.objects 0 ⟨temp0, tmax, rec, none⟩ = st at h
  cases hs : st.idx with
  | none => simp [hs] at h
  | some i =>
    cases hm : l.materials[i]? with
    | none => simp [hs, hm] at h
    | some m' =>
      simp only [hs, hm, Option.map_some, Option.some.injEq, Prod.mk.injEq] at h
      obtain ⟨rfl, -⟩ := h
      exact List.mem_of_getElem? hm

/-- C80: in a scene given by a list of objects, it is enough that the materials in the list are tame. -/
theorem C80_scene [F.Exact] (l : HittableList (Fl F) (Material (Fl F) S)) (temp0 rec0 : HitRecord (Fl F)) (bg : Vec (Fl F) 3) (L : ℝ)
    (hb : ColorIn L bg) (hm : ∀ m ∈ l.materials, ∀ rec, Tame L m rec) (depth : ℕ) (s : S) (r : Ray (Fl F)) (c : Shade (Fl F) S)
    (h : rayColor (l.world temp0) bg rec0 depth s r = some c) : ColorIn (depth * L) c.color :=
  C80_bounded (l.world temp0) bg rec0 L hb (fun _ _ _ _ _ _ _ _ hq => hm _ (l.world_mem temp0 hq) _) depth s r c h

/-- C80: a scene built by `add` and `clear` is queried without undefined behaviour; with materials whose scattering comes back the colour
is defined. -/
theorem C80_scene_defined (ops : List (ListOp F (Material (Fl F) S))) (temp0 : HitRecord (Fl F))
    (hm : ∀ m ∈ (ops.foldl ListOp.run HittableList.empty).materials, ∀ s r rec, ∃ sc s', m.scatter s r rec = some (sc, s') ∧
      (sc.ok = true → (∃ a, sc.attenuation = some a) ∧ ∃ q, sc.ray = some q)) (bg : Vec (Fl F) 3) (rec0 : HitRecord (Fl F))
    (depth : ℤ) (s : S) (r : Ray (Fl F)) :
    ∃ c, rayColorInt ((ops.foldl ListOp.run HittableList.empty).world temp0) bg rec0 depth s r = some c := by
  refine C80_defined _ ?_ bg rec0 depth s r
  intro s r tmin tmax rec
  have h := C41_no_out_of_range (M := Material (Fl F) S) ops r tmin tmax rec temp0
  obtain ⟨m, hmm⟩ := Option.ne_none_iff_exists'.mp h
  refine ⟨m, _, s, by unfold HittableList.world; rw [hmm]; rfl, ?_⟩
  rintro mat rfl s₁ r₁
  have hmem : mat ∈ (ops.foldl ListOp.run HittableList.empty).materials := by
    apply HittableList.world_mem (S := S) (ops.foldl ListOp.run HittableList.empty) temp0 (s := s) (r := r) (tmin := tmin) (tmax := tmax) (rec := rec)
    unfold HittableList.world; rw [hmm]; rfl
  exact hm mat hmem s₁ r₁ _

/-- C80: every material of the library scatters in finite time and sets its outputs when it returns true, provided the increment of
the generator of a lambertian is the one its constructor sets. -/
theorem C80_materials_defined [F.Exact] (s : S) (r : Ray (Fl F)) (rec : HitRecord (Fl F)) (albedo emit : Texture (Fl F)) (get : S → Pcg)
    (set : Pcg → S → S) (hg : (get s).inc = 234121#64) (draw : S → Fl F × S) (draw3 : S → Vec (Fl F) 3 × S) (ir : Fl F)
    (m : Material (Fl F) S) (hm : m ∈ [Material.lambertian albedo get set, Material.isotropic albedo draw3, Material.metal albedo,
      Material.dielectric ir emit draw, Material.diffuseLight emit]) :
    ∃ sc s', m.scatter s r rec = some (sc, s') ∧ (sc.ok = true → (∃ a, sc.attenuation = some a) ∧ ∃ q, sc.ray = some q) := by
  simp only [List.mem_cons, List.not_mem_nil, or_false] at hm
  rcases hm with rfl | rfl | rfl | rfl | rfl
  · obtain ⟨out, ho⟩ := C75_terminates (exactQuarters_of_exact (F := F)) (get s) hg
    have hh : ∃ x, Lambertian.randomInHemisphere (2 ^ 64) (get s) rec.normal = some x := by
      unfold Lambertian.randomInHemisphere
      rw [ho]
      exact ⟨_, rfl⟩
    obtain ⟨x, hx⟩ := hh
    obtain ⟨sc, g', hs⟩ : ∃ sc g', Lambertian.scatter albedo (2 ^ 64) (get s) r rec = some (sc, g') := by
      unfold Lambertian.scatter
      rw [hx]
      exact ⟨_, _, rfl⟩
    refine ⟨sc, set g' s, ?_, fun _ => ?_⟩
    · simp only [Material.lambertian, hs, Option.map_some]
    · obtain ⟨-, h2, d, h3⟩ := C74_always _ _ _ _ _ _ _ hs
      exact ⟨⟨_, h2⟩, _, h3⟩
  · exact ⟨_, _, rfl, fun _ => ⟨⟨_, rfl⟩, _, rfl⟩⟩
  · exact ⟨_, _, rfl, fun _ => ⟨⟨_, rfl⟩, _, rfl⟩⟩
  · exact ⟨_, _, rfl, fun _ => ⟨⟨_, rfl⟩, _, rfl⟩⟩
  · exact ⟨_, _, rfl, fun h => by cases h⟩

/-- C80, sharper: if moreover every material that emits light refuses to scatter (as `diffuse_light` does), a colour never exceeds `L`,
however deep the recursion. -/
theorem C80_lights [F.Exact] (world : World (Fl F) S) (bg : Vec (Fl F) 3) (rec0 : HitRecord (Fl F)) (L : ℝ) (hb : ColorIn L bg)
    (hm : ∀ s r tmin tmax rec m rec' s', world s r tmin tmax rec = some (some m, rec', s') → Tame L m rec' ∧
      ∀ s r sc s', m.scatter s r rec' = some (sc, s') → sc.ok = true → m.emitted rec' = cv 0)
    (depth : ℕ) (s : S) (r : Ray (Fl F)) (c : Shade (Fl F) S) (h : rayColor world bg rec0 depth s r = some c) :
    ColorIn L c.color := by
  have hL : 0 ≤ L := by
    obtain ⟨x, -, hx⟩ := hb
    exact (hx 0).1.trans (hx 0).2
  induction depth generalizing s r c with
  | zero =>
    simp only [rayColor, Option.some.injEq] at h
    subst h
    refine ⟨![0, 0, 0], by simp only [ofNat_zero, cv_vec3], fun i => ?_⟩
    fin_cases i <;> simp [hL]
  | succ d ih =>
    rw [rayColor] at h
    split at h
    · cases h
    · simp only [Option.some.injEq] at h; subst h; exact hb
    · rename_i m rec s' hq
      obtain ⟨ht, hz⟩ := hm _ _ _ _ _ _ _ _ hq
      split at h
      · cases h
      · rename_i sc s'' hsc
        split at h
        · rename_i hok
          split at h
          · rename_i a q ha hray
            split at h
            · cases h
            · rename_i c' hc
              simp only [Option.some.injEq] at h
              subst h
              have he := hz _ _ _ _ hsc hok
              obtain ⟨y, hy, y1⟩ := ht.2 _ _ _ _ hsc hok _ ha
              obtain ⟨x, hx, x1⟩ := ih _ _ _ hc
              refine ⟨fun i => x i * y i, ?_, fun i => ?_⟩
              · funext i
                show m.emitted rec i + c'.color i * a i = _
                rw [he, hx, hy]
                simp [cv_apply]
              · have := x1 i
                have := y1 i
                constructor <;> nlinarith
          · cases h
        · simp only [Option.some.injEq] at h; subst h; exact ht.1

/-! ## A concrete scene -/

/-- A grey diffuse object, whose shape is arbitrary, and a lamp of brightness 4; the random state is the state of the generator. -/
noncomputable def sampleMaterials : List (Material (Fl exact64) (BitVec 64)) :=
  [Material.lambertian (solidColor (cv ![1 / 2, 1 / 2, 1 / 2])) (fun s => ⟨s, 234121#64⟩) (fun g _ => g.state),
    Material.diffuseLight (solidColor (cv ![4, 4, 4]))]

theorem sampleMaterials_tame : ∀ m ∈ sampleMaterials, ∀ rec, Tame 4 m rec := by
  intro m hm rec
  have h := C80_materials (F := exact64) (S := BitVec 64) 4 (by norm_num) rec (solidColor (cv ![1 / 2, 1 / 2, 1 / 2])) (solidColor (cv ![4, 4, 4]))
    ⟨_, rfl, fun i => by fin_cases i <;> simp <;> norm_num⟩ ⟨_, rfl, fun i => by fin_cases i <;> simp⟩ (fun s => ⟨s, 234121#64⟩) (fun g _ => g.state)
    (fun s => (0, s)) (fun s => (cv 0, s)) 0
  simp only [sampleMaterials, List.mem_cons, List.not_mem_nil, or_false] at hm
  rcases hm with rfl | rfl
  · exact h.1
  · exact h.2.2.2.2

/-- The colour of every ray is defined and between 0 and 32 at depth 8. -/
example (a b : Hittable (Fl exact64)) (temp0 rec0 : HitRecord (Fl exact64)) (r : Ray (Fl exact64)) :
    ∃ c, rayColor (([ListOp.add a sampleMaterials[0], ListOp.add b sampleMaterials[1]].foldl ListOp.run HittableList.empty).world temp0)
      (cv ![1, 1, 1]) rec0 8 1235123#64 r = some c ∧ ColorIn (8 * 4) c.color := by
  obtain ⟨c, hc⟩ := C80_scene_defined [ListOp.add a sampleMaterials[0], ListOp.add b sampleMaterials[1]] temp0 (by
    intro m hm s r rec
    have := C80_materials_defined (F := exact64) s r rec (solidColor (cv ![1 / 2, 1 / 2, 1 / 2])) (solidColor (cv ![4, 4, 4]))
      (fun s => ⟨s, 234121#64⟩) (fun g _ => g.state) rfl (fun s => (0, s)) (fun s => (cv 0, s)) 0 m
    apply this
    simp only [List.foldl, ListOp.run, HittableList.add, HittableList.empty, List.nil_append, sampleMaterials, List.getElem_cons_zero,
      List.getElem_cons_succ, List.cons_append, List.mem_cons, List.not_mem_nil, or_false] at hm ⊢
    rcases hm with rfl | rfl <;> simp) (cv ![1, 1, 1]) rec0 8 1235123#64 r
  refine ⟨c, hc, ?_⟩
  have := C80_scene _ temp0 rec0 (cv ![1, 1, 1]) 4 ⟨_, rfl, fun i => by fin_cases i <;> simp <;> norm_num⟩ (by
    intro m hm rec
    apply sampleMaterials_tame
    simp only [List.foldl, ListOp.run, HittableList.add, HittableList.empty, List.nil_append, sampleMaterials, List.getElem_cons_zero,
      List.getElem_cons_succ, List.cons_append] at hm ⊢
    exact hm) 8 _ r c hc
  simpa using this

/-- A furnace: white objects of any shape that scatter back along the ray, before a background of 3. -/
example (a : Hittable (Fl exact64)) (temp0 rec0 : HitRecord (Fl exact64)) (r : Ray (Fl exact64)) (depth : ℕ) (c : Shade (Fl exact64) Unit)
    (h : rayColor ((HittableList.add HittableList.empty a (Material.metal (solidColor (cv 1)))).world temp0) (cv ![3, 3, 3]) rec0 depth () r = some c) :
    c.color = cv ![3, 3, 3] ∨ c.color = cv 0 := by
  obtain ⟨e, -, h1, h2⟩ := C81_furnace _ ![3, 3, 3] rec0 (by
    intro s r tmin tmax rec m rec' s' hq
    have := HittableList.world_mem _ temp0 hq
    simp only [HittableList.add, HittableList.empty, List.nil_append, List.mem_singleton] at this
    subst this
    refine ⟨?_, ?_⟩
    · simp only [Material.metal, Material.emittedDefault, ofNat_zero, cv_vec3]
      rw [cv_inj]; funext i; fin_cases i <;> rfl
    · intro s r sc s' hs a ha
      simp only [Material.metal, Option.some.injEq, Prod.mk.injEq] at hs
      obtain ⟨rfl, -⟩ := hs
      cases ha
      rfl) depth () r c h
  by_cases he : e = .escaped
  · exact Or.inl (h1 he)
  · exact Or.inr (h2 he)

end DRT
