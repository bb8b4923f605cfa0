import Verif.Model.Surfaces
import Verif.Props.EnneperUndefined
import Verif.Props.Programs

/-!
# The programs `enneper.cpp` and `helicoid.cpp`: C135 and C136
-/

namespace DRT
open Scalar Vec Matrix Fl Render

variable {F : Fmt} {S : Type}

/-! ## Runs that are undefined -/

theorem run_none {R : Type} [Scalar R] (sc : Scene R S) (i j : ℕ) (h : ∀ g, task sc i j g = none) (ts : List (ℕ × ℕ)) (hm : (i, j) ∈ ts)
    (g : Pcg × S) : run sc ts g = none := by
  induction ts generalizing g with
  | nil => cases hm
  | cons t ts ih =>
    obtain ⟨a, b⟩ := t
    rw [run]
    rcases List.mem_cons.mp hm with e | hm
    · cases e
      rw [h]
    · rcases task sc a b g with _ | ⟨p, g'⟩
      · rfl
      · simp only [ih hm g', Option.map_none]

theorem image_none {R : Type} [Scalar R] (sc : Scene R S) (i j : ℕ) (hi : i < sc.width) (hj : j < sc.height) (h : ∀ g, task sc i j g = none)
    (rows : List ℕ) (hrows : rows.Perm (List.range sc.height)) (s : S) : image sc rows s = none := by
  unfold image
  rw [run_none sc i j h]
  unfold tasks
  rw [List.mem_flatMap]
  exact ⟨j, hrows.mem_iff.mpr (List.mem_range.mpr hj), List.mem_map.mpr ⟨i, List.mem_range.mpr hi, rfl⟩⟩

theorem task_none {R : Type} [Scalar R] (sc : Scene R S) (i j : ℕ) (hs : sc.samples ≠ 0)
    (h : ∀ (g : Pcg) (s : S), sc.world s (sc.camera.getRay (coordinate i sc.width (Pcg.real01 g).1)
      (coordinate j sc.height (Pcg.real01 (Pcg.real01 (R := R) g).2).1)) (1000 * eps) inf sc.rec0 = none) (g : Pcg × S) : task sc i j g = none := by
  obtain ⟨g, s⟩ := g
  obtain ⟨n, hn⟩ := Nat.exists_eq_succ_of_ne_zero hs
  unfold task
  rw [hn, sampleLoop]
  unfold sample
  dsimp only
  rw [rayColor, h]
  rfl

/-! ## The middle of the picture of Enneper's surface -/

theorem EnneperProgram.camera_eq [F.Exact] : (EnneperProgram.camera : Camera (Fl F)) =
    Camera.make (cv ![10, -10, 0]) (cv 0) (cv ![0, 0, 1]) (fin 40) (fin 1) := by
  unfold EnneperProgram.camera
  congr 1
  · simp only [fl, cv_vec3]; norm_num
  · exact cv_zero_vec
  · simp only [fl, cv_vec3]; norm_num
  · simp only [fl]; norm_num
  · simp only [fl]; norm_num

/-- The rays of the pixel in the middle pass close to the origin. -/
theorem EnneperProgram.middle [F.Exact] (g g' : Pcg) : ∃ d : Fin 3 → ℝ,
    (EnneperProgram.camera : Camera (Fl F)).getRay (coordinate 400 800 (Pcg.real01 g).1) (coordinate 400 800 (Pcg.real01 g').1) =
      ⟨cv ![10, -10, 0], cv d⟩ ∧ 1 ≤ d ⬝ᵥ d ∧ 1 ≤ |2 * (![10, -10, 0] ⬝ᵥ d)| ∧
      ∃ z : ℝ, 1 ≤ z ∧ (![10, -10, 0] + z • d) ⬝ᵥ (![10, -10, 0] + z • d) ≤ 4 ^ 2 := by
  obtain ⟨x, hx, x0, x1⟩ := C36_range (F := F) g
  obtain ⟨y, hy, y0, y1⟩ := C36_range (F := F) g'
  obtain ⟨u, hu, -, -, u0, u1⟩ := C85_range (F := F) 400 800 (by norm_num) (by norm_num) x x0 x1
  obtain ⟨v, hv, -, -, v0, v1⟩ := C85_range (F := F) 400 800 (by norm_num) (by norm_num) y y0 y1
  have hne : (![10, -10, 0] : Fin 3 → ℝ) ≠ 0 := fun h => by have := congrFun h 0; norm_num at this
  have hup : (![0, 0, 1] : Fin 3 → ℝ) ⨯₃ (![10, -10, 0] - 0) ≠ 0 := fun h => by
    have := congrFun h 0; simp [cross_apply] at this
  obtain ⟨a, b, w, ⟨aa, bb, ww, ab, bw, wa, -⟩, ⟨c, hc, he⟩, -, -, h⟩ := C82_rays (F := F) ![10, -10, 0] 0 ![0, 0, 1] 40 1 (by norm_num) (by norm_num) hne hup
  rw [EnneperProgram.camera_eq, hx, hy, hu, hv, h]
  have t0 : 0 ≤ Real.tan (40 * Real.pi / 180 / 2) := Real.tan_nonneg_of_nonneg_of_le_pi_div_two (by positivity) (by linarith [Real.pi_pos])
  have t1 : Real.tan (40 * Real.pi / 180 / 2) ≤ 1 := by
    rw [← Real.tan_pi_div_four]
    exact (Real.strictMonoOn_tan.monotoneOn ⟨by linarith [Real.pi_pos], by linarith [Real.pi_pos]⟩
      ⟨by linarith [Real.pi_pos], by linarith [Real.pi_pos]⟩ (by linarith [Real.pi_pos]))
  generalize Real.tan (40 * Real.pi / 180 / 2) = t at *
  norm_num at u0 u1 v0 v1
  obtain ⟨α, hα, α0, α1⟩ : ∃ α, α = (2 * u - 1) * (1 * t) ∧ 0 ≤ α ∧ α ≤ 1 / 100 := ⟨_, rfl, by nlinarith, by nlinarith⟩
  obtain ⟨β, hβ, β0, β1⟩ : ∃ β, β = (2 * v - 1) * t ∧ 0 ≤ β ∧ β ≤ 1 / 100 := ⟨_, rfl, by nlinarith, by nlinarith⟩
  rw [sub_zero] at he
  have hcc : c * c = 200 := by
    have h1 : (![10, -10, 0] : Fin 3 → ℝ) ⬝ᵥ ![10, -10, 0] = 200 := by simp [dotProduct, Fin.sum_univ_three]; norm_num
    rw [he, smul_dotProduct, dotProduct_smul, ww] at h1
    simpa using h1
  have hc1 : 1 ≤ c := by nlinarith
  have ba : b ⬝ᵥ a = 0 := by rw [dotProduct_comm]; exact ab
  have aw : a ⬝ᵥ w = 0 := by rw [dotProduct_comm]; exact wa
  have wb : w ⬝ᵥ b = 0 := by rw [dotProduct_comm]; exact bw
  refine ⟨_, rfl, ?_, ?_, c, hc1, ?_⟩
  · rw [← hα, ← hβ]
    simp only [add_dotProduct, dotProduct_add, neg_dotProduct, dotProduct_neg, smul_dotProduct, dotProduct_smul, aa, bb, ww, ab, aw, bw, ba, wa, wb,
      smul_eq_mul]
    nlinarith
  · rw [← hα, ← hβ, he]
    simp only [dotProduct_add, dotProduct_neg, smul_dotProduct, dotProduct_smul, ww, wa, wb, smul_eq_mul]
    rw [le_abs]; right; linarith
  · have : (![10, -10, 0] : Fin 3 → ℝ) + c • (-w + ((2 * u - 1) * (1 * t)) • a + ((2 * v - 1) * t) • b) = (c * α) • a + (c * β) • b := by
      rw [← hα, ← hβ, he]
      module
    rw [this]
    simp only [add_dotProduct, dotProduct_add, smul_dotProduct, dotProduct_smul, aa, bb, ab, ba, smul_eq_mul]
    have : c * α * (c * α * 1) + c * β * (c * α * 0) + (c * α * (c * β * 0) + c * β * (c * β * 1)) = 200 * (α * α + β * β) := by
      rw [← hcc]; ring
    nlinarith

/-- C135: in exact arithmetic `enneper.cpp` has undefined behaviour in whatever order the rows are computed: the rays of the pixel in the middle
pass through the ball around the surface. -/
theorem C135_program_false [F.Exact] (ht : F.tiny ≤ 1 / 2) (he : F.eps ≤ 1 / 1000) (rec0 temp0 : HitRecord (Fl F)) (rows : List ℕ)
    (hrows : rows.Perm (List.range 800)) (s : Pcg) :
    ∃ sc, EnneperProgram.scene Mat.solve3 rec0 temp0 = some sc ∧ image sc rows s = none := by
  have hne : (![10, -10, 0] : Fin 3 → ℝ) ≠ 0 := fun h => by have := congrFun h 0; norm_num at this
  obtain ⟨l, hl⟩ : ∃ l, backlightDisk (EnneperProgram.camera : Camera (Fl F)) = some l := by
    rw [EnneperProgram.camera_eq]
    obtain ⟨e, he, e1, -⟩ := C82_backlight (F := F) ![10, -10, 0] 0 ![0, 0, 1] 40 1 hne
    unfold backlightDisk
    rw [he, show (10 : Fl F) = fin 10 by rw [ofNat_def]; norm_num]
    exact ⟨_, Disk.make_eq 10 _ e e1⟩
  unfold EnneperProgram.scene EnneperProgram.objects
  rw [hl, Option.map_some, Option.map_some]
  refine ⟨_, rfl, image_none _ 400 400 (by norm_num) (by norm_num) (task_none _ 400 400 (by norm_num) fun g s => ?_) rows (by dsimp only; exact hrows) s⟩
  dsimp only
  obtain ⟨d, hr, d1, d2, z, z1, hz⟩ := EnneperProgram.middle (F := F) g (Pcg.real01 (R := Fl F) g).2
  rw [hr]
  have h1 : (1000 * eps : Fl F) = fin (1000 * F.eps) := by simp only [fl]; norm_num
  have := (C135_ball_false (F := F) 4 ![10, -10, 0] d (by linarith) (Or.inr (by linarith)) (fin (1000 * F.eps)) inf (by rfl) temp0).1
    ⟨z, ⟨by rw [le_fin, decide_eq_true_eq]; linarith, rfl⟩, hz⟩
  unfold partialWorld
  have h4 : (4 : Fl F) = fin 4 := by rw [ofNat_def]; norm_num
  simp only [partialLoop, partialStep]
  unfold Enneper.hit at this
  rw [h4, h1, this]
  rfl

/-- An instance: the rows from the top to the bottom. -/
example (rec0 temp0 : HitRecord (Fl exact64)) : ∃ sc, EnneperProgram.scene Mat.solve3 rec0 temp0 = some sc ∧
    image sc (List.range 800).reverse lambertianSeed = none :=
  C135_program_false (by show (_ : ℝ) ≤ _; simp only [exact64]; exact one_div_le_one_div_of_le (by norm_num) (le_self_pow₀ (by norm_num) (by norm_num))) (by norm_num [exact64]) rec0 temp0 _ (List.reverse_perm _) _

/-! ## Brightness -/

/-- At the hit `rec` the material either scatters with factors in `[0,1]` and does not shine, or shines with at most `L` and does not scatter. -/
def LampOrScatterer (L : ℝ) (m : Material (Fl F) S) (rec : HitRecord (Fl F)) : Prop :=
  (m.emitted rec = cv 0 ∧ ∀ s r sc s' a, m.scatter s r rec = some (sc, s') → sc.attenuation = some a → ColorIn 1 a) ∨
  (ColorIn L (m.emitted rec) ∧ ∀ s r sc s', m.scatter s r rec = some (sc, s') → sc.ok = false)

/-- C136: no colour exceeds the brightest lamp, at any depth, whatever the geometry and whether or not it is always defined, in any
arithmetic with monotone rounding. -/
theorem C136_peak [F.Rounding] (world : World (Fl F) S) (bg : Vec (Fl F) 3) (rec0 : HitRecord (Fl F)) (L : ℝ) (hL : 0 ≤ L)
    (hr : rnd F L = fin L) (hb : ColorIn L bg)
    (hm : ∀ s r tmin tmax rec m rec' s', world s r tmin tmax rec = some (some m, rec', s') → LampOrScatterer L m rec')
    (depth : ℕ) (s : S) (r : Ray (Fl F)) (c : Shade (Fl F) S) (h : rayColor world bg rec0 depth s r = some c) : ColorIn L c.color := by
  induction depth generalizing s r c with
  | zero =>
    simp only [rayColor, Option.some.injEq] at h
    subst h
    exact ⟨0, cv_zero_vec, fun i => ⟨le_rfl, hL⟩⟩
  | succ d ih =>
    rw [rayColor] at h
    split at h
    · cases h
    · simp only [Option.some.injEq] at h; subst h; exact hb
    · rename_i m rec s' hq
      have ht := hm _ _ _ _ _ _ _ _ hq
      split at h
      · cases h
      · rename_i sc s'' hsc
        split at h
        · rename_i hok
          rcases ht with ⟨he, hatt⟩ | ⟨-, hno⟩
          · split at h
            · rename_i a q ha hray
              split at h
              · cases h
              · rename_i c' hc
                simp only [Option.some.injEq] at h
                subst h
                obtain ⟨y, rfl, hy⟩ := hatt _ _ _ _ _ hsc ha
                obtain ⟨x, hx, hx'⟩ := ih _ _ _ hc
                have key : ∀ i, ∃ z, 0 ≤ z ∧ z ≤ L ∧ (fin 0 : Fl F) + fin (x i) * fin (y i) = fin z := by
                  intro i
                  obtain ⟨w, hw, w0, w1⟩ := rnd_between (F := F) (a := 0) (b := L) (x := x i * y i) rnd_zero hr
                    (mul_nonneg (hx' i).1 (hy i).1) (by nlinarith [hx' i, hy i])
                  obtain ⟨z, hz, z0, z1⟩ := rnd_between (F := F) (a := 0) (b := L) (x := 0 + w) rnd_zero hr (by linarith) (by linarith)
                  exact ⟨z, z0, z1, by rw [show (fin (x i) : Fl F) * fin (y i) = rnd F (x i * y i) from rfl, hw]; exact hz⟩
                choose z z0 z1 hz using key
                refine ⟨z, ?_, fun i => ⟨z0 i, z1 i⟩⟩
                funext i
                show m.emitted rec i + c'.color i * (cv y : Vec (Fl F) 3) i = _
                rw [he, hx]
                exact hz i
            · cases h
          · rw [hno _ _ _ _ hsc] at hok; cases hok
        · simp only [Option.some.injEq] at h
          subst h
          rcases ht with ⟨he, -⟩ | ⟨he, -⟩
          · dsimp only; rw [he]; exact ⟨0, rfl, fun i => ⟨le_rfl, hL⟩⟩
          · exact he

theorem partialWorld_material {R : Type} [Scalar R] {objects : List (PartialHittable R)} {materials : List (Material R S)} {temp0 : HitRecord R}
    {s : S} {r : Ray R} {tmin tmax : R} {rec rec' : HitRecord R} {m : Material R S} {s' : S}
    (h : partialWorld objects materials temp0 s r tmin tmax rec = some (some m, rec', s')) : m ∈ materials := by
  unfold partialWorld at h
  rw [Option.bind_eq_some_iff] at h
  obtain ⟨st, -, h⟩ := h
  split at h
  · cases h
  · rw [Option.map_eq_some_iff] at h
    obtain ⟨m', hm', e⟩ := h
    cases e
    exact List.mem_of_getElem? hm'

/-- A map of the library used as the albedo of a matte surface. -/
theorem lambertianMap_dim [F.Exact] {L : ℝ} (map : Fl F → Option (Vec (Fl F) 3))
    (hmap : map ∈ [ColorTables.plasma, ColorTables.viridis, ColorTables.inferno, ColorTables.blackbody, ColorTables.kindlmann,
      ColorTables.extendedKindlmann, ColorTables.smoothCoolWarm]) (scalar : HitRecord (Fl F) → Fl F) (get : S → Pcg) (set : Pcg → S → S)
    (rec : HitRecord (Fl F)) : LampOrScatterer L (Material.lambertianMap (fun hr => map (scalar hr)) get set) rec := by
  refine Or.inl ⟨cv_zero_vec, fun s r sc s' a h ha => ?_⟩
  simp only [Material.lambertianMap, Option.bind_eq_some_iff] at h
  obtain ⟨c, hc, h⟩ := h
  simp only [Material.lambertian, Option.map_eq_some_iff, Prod.mk.injEq] at h
  obtain ⟨⟨sc', g'⟩, h1, h2, -⟩ := h
  obtain ⟨-, h3, -⟩ := C74_always _ _ _ _ _ _ _ h1
  subst h2
  rw [h3] at ha
  cases ha
  cases hx : isNaN (scalar rec) with
  | true =>
    have : scalar rec = Fl.nan := by
      revert hx; cases scalar rec <;> simp
    rw [this, C89_nan map hmap] at hc
    cases hc
  | false =>
    obtain ⟨v, hv, hv'⟩ := C89_range map hmap (scalar rec) hx
    rw [hv] at hc
    cases hc
    exact ⟨v, rfl, hv'⟩

theorem light_dim {L : ℝ} {c : Vec (Fl F) 3} (hc : ColorIn L c) (rec : HitRecord (Fl F)) :
    LampOrScatterer L (Material.diffuseLight (S := S) (solidColor c)) rec :=
  Or.inr ⟨hc, fun s r sc s' h => by
    simp only [Material.diffuseLight, Option.some.injEq, Prod.mk.injEq] at h
    obtain ⟨rfl, -⟩ := h
    rfl⟩

/-- C136: every colour that `enneper.cpp` computes lies between black and `(2,2,2)`, whatever the elements that `matrix::solve` never wrote
happen to hold. -/
theorem C136_enneper [F.Exact] (solve : Mat (Fl F) 3 3 → Vec (Fl F) 3 → Option (Vec (Fl F) 3)) (rec0 temp0 : HitRecord (Fl F)) (sc : Scene (Fl F) Pcg)
    (hsc : EnneperProgram.scene solve rec0 temp0 = some sc) (depth : ℕ) (g : Pcg) (r : Ray (Fl F)) (c : Shade (Fl F) Pcg)
    (h : rayColor sc.world sc.background sc.rec0 depth g r = some c) : ColorIn 2 c.color := by
  unfold EnneperProgram.scene at hsc
  obtain ⟨l, -, rfl⟩ := Option.map_eq_some_iff.1 hsc
  refine C136_peak _ _ _ 2 (by norm_num) (rnd_eq _) ⟨0, cv_zero_vec, fun _ => ⟨le_rfl, by norm_num⟩⟩ (fun s r tmin tmax rec m rec' s' hw => ?_) depth g r c h
  have hm := partialWorld_material hw
  simp only [EnneperProgram.materials, List.mem_cons, List.not_mem_nil, or_false] at hm
  rcases hm with rfl | rfl
  · exact lambertianMap_dim ColorTables.viridis (by simp) _ _ _ _
  · exact light_dim (colorIn_vec (nat_between (by norm_num) (by norm_num)) (nat_between (by norm_num) (by norm_num))
      (nat_between (by norm_num) (by norm_num))) _

/-- C136: every colour that `helicoid.cpp` computes lies between black and white. -/
theorem C136_helicoid [F.Exact] (junk : Fl F) (rec0 temp0 : HitRecord (Fl F)) (sc : Scene (Fl F) (HelicoidProgram.State (Fl F)))
    (hsc : HelicoidProgram.scene junk rec0 temp0 = some sc) (depth : ℕ) (s : HelicoidProgram.State (Fl F)) (r : Ray (Fl F))
    (c : Shade (Fl F) (HelicoidProgram.State (Fl F))) (h : rayColor sc.world sc.background sc.rec0 depth s r = some c) : ColorIn 1 c.color := by
  unfold HelicoidProgram.scene at hsc
  obtain ⟨l, -, rfl⟩ := Option.map_eq_some_iff.1 hsc
  refine C136_peak _ _ _ 1 (by norm_num) (rnd_eq _) ⟨0, cv_zero_vec, fun _ => ⟨le_rfl, by norm_num⟩⟩ (fun s r tmin tmax rec m rec' s' hw => ?_) depth s r c h
  have hl : LampOrScatterer 1 (Material.diffuseLight (S := HelicoidProgram.State (Fl F)) (solidColor ![1, 1, 1])) rec' :=
    light_dim (colorIn_vec (nat_between (by norm_num) (by norm_num)) (nat_between (by norm_num) (by norm_num))
      (nat_between (by norm_num) (by norm_num))) _
  have hm := partialWorld_material hw
  simp only [HelicoidProgram.materials, List.mem_cons, List.not_mem_nil, or_false] at hm
  rcases hm with rfl | rfl | rfl | rfl | rfl
  · exact lambertianMap_dim ColorTables.smoothCoolWarm (by simp) _ _ _ _
  · refine Or.inl ⟨?_, fun s r sc s' a h ha => ?_⟩
    · show (0 : Fl F) •. _ = _
      funext i
      show (0 : Fl F) * _ = fin 0
      fin_cases i <;> simp [fl]
    · simp only [HelicoidProgram.glass, Material.dielectric, Option.some.injEq, Prod.mk.injEq] at h
      obtain ⟨rfl, -⟩ := h
      cases ha
      refine ⟨![1, 1, 1], by simp only [ofNat_one, cv_vec3], fun i => ?_⟩
      fin_cases i <;> simp
  · exact hl
  · exact hl
  · exact hl

/-- C136: the bound of `C136_enneper` is attained: the ray from the eye away from the surface sees the lamp. -/
theorem C136_sharp [F.Exact] (ht : F.tiny ≤ 1 / 2) (he : F.eps ≤ 1 / 1000) (rec0 temp0 : HitRecord (Fl F)) (depth : ℕ) (g : Pcg) :
    ∃ sc c, EnneperProgram.scene Mat.solve3 rec0 temp0 = some sc ∧
      rayColor sc.world sc.background sc.rec0 (depth + 1) g ⟨cv ![10, -10, 0], cv ![10, -10, 0]⟩ = some c ∧ c.color = cv ![2, 2, 2] := by
  have hne : (![10, -10, 0] : Fin 3 → ℝ) ≠ 0 := fun h => by have := congrFun h 0; norm_num at this
  obtain ⟨n, hn, n1, k, hk, hkn⟩ := C82_backlight (F := F) ![10, -10, 0] 0 ![0, 0, 1] 40 1 hne
  obtain ⟨l, hl⟩ : ∃ l, Disk.make (fin 10) (cv (![10, -10, 0] + (![10, -10, 0] - 0))) (cv n : Vec (Fl F) 3) = some l := ⟨_, Disk.make_eq 10 _ n n1⟩
  have hl' : backlightDisk (EnneperProgram.camera : Camera (Fl F)) = some l := by
    rw [EnneperProgram.camera_eq]
    unfold backlightDisk
    rw [hn, show (10 : Fl F) = fin 10 by rw [ofNat_def]; norm_num, hl]
  have e : (![10, -10, 0] : Fin 3 → ℝ) = -(k • n) := eq_neg_of_add_eq_zero_left hkn.symm
  have h200 : (![10, -10, 0] : Fin 3 → ℝ) ⬝ᵥ ![10, -10, 0] = 200 := by simp [dotProduct, Fin.sum_univ_three]; norm_num
  generalize hv : (![10, -10, 0] : Fin 3 → ℝ) = v at *
  have hdn : v ⬝ᵥ n = -k := by rw [e, neg_dotProduct, smul_dotProduct, n1, smul_eq_mul, mul_one]
  have h1 : (1000 * eps : Fl F) = fin (1000 * F.eps) := by simp only [fl]; norm_num
  have hmiss := (C135_ball_false (F := F) 4 v v (by rw [h200]; linarith) (Or.inr (by rw [h200]; norm_num; linarith)) (fin (1000 * F.eps)) inf
    (by rfl) temp0).2 (fun z hz => by
      have hz0 : 0 ≤ z := by
        have h2 : 1000 * F.eps ≤ z := by simpa using hz.1
        have := Fmt.Exact.eps_pos (F := F)
        linarith
      have : v + z • v = (1 + z) • v := by module
      rw [this, smul_dotProduct, dotProduct_smul, h200]
      simp only [smul_eq_mul]
      nlinarith)
  have hmem : v + (1 : ℝ) • v ∈ diskSet 10 (v + (v - 0)) n := by
    have : v + (1 : ℝ) • v - (v + (v - 0)) = 0 := by module
    unfold diskSet
    rw [Set.mem_ofPred_eq, this]
    simp
  have hf := C62_nearest (F := F) 10 (v + (v - 0)) n n1 v v (by rw [hdn]; linarith) (fin (1000 * F.eps)) rfl l hl inf temp0 rfl
  have hhit := hf.1.2 ⟨1, ⟨by simp; linarith, rfl⟩, hmem⟩
  obtain ⟨z, hz, -⟩ := hf.2 hhit
  obtain ⟨rec', hrec⟩ : ∃ rec', l.hit ⟨cv v, cv v⟩ (fin (1000 * F.eps)) inf temp0 = (true, rec') := ⟨_, Prod.ext hhit rfl⟩
  rw [hrec] at hz
  unfold EnneperProgram.scene EnneperProgram.objects
  rw [hl', Option.map_some, Option.map_some]
  have h4 : (4 : Fl F) = fin 4 := by rw [ofNat_def]; norm_num
  have hw : partialWorld [Enneper.hitWith Mat.solve3 (⟨4⟩ : Enneper (Fl F)), PartialHittable.ofHittable l.toHittable] EnneperProgram.materials temp0 g
      ⟨cv v, cv v⟩ (1000 * eps) inf rec0 = some (some (Material.diffuseLight (solidColor ![2, 2, 2])), rec', g) := by
    unfold Enneper.hit at hmiss
    have hd : l.toHittable.hit ⟨cv v, cv v⟩ (fin (1000 * F.eps)) inf temp0 = (true, rec') := hrec
    have hlt : Scalar.lt rec'.t (inf : Fl F) = true := by rw [hz]; rfl
    unfold partialWorld
    simp only [partialLoop, partialStep, PartialHittable.ofHittable, h4, h1, hmiss, hd, Option.map_some, Option.bind_some, Bool.false_eq_true, if_false,
      if_true, hlt]
    rfl
  have hc : ∃ c, rayColor (partialWorld [Enneper.hitWith Mat.solve3 (⟨4⟩ : Enneper (Fl F)), PartialHittable.ofHittable l.toHittable]
      EnneperProgram.materials temp0) ![0, 0, 0] rec0 (depth + 1) g ⟨cv v, cv v⟩ = some c ∧ c.color = ![2, 2, 2] := by
    rw [rayColor, hw]
    exact ⟨_, rfl, rfl⟩
  obtain ⟨c, hc, hcc⟩ := hc
  refine ⟨_, c, rfl, hc, ?_⟩
  rw [hcc]
  simp only [fl, cv_vec3]; norm_num

/-- The scene of `helicoid.cpp` can be built: `C136_helicoid` speaks of an actual scene. -/
theorem HelicoidProgram.scene_some [F.Exact] (junk : Fl F) (rec0 temp0 : HitRecord (Fl F)) : ∃ sc, HelicoidProgram.scene junk rec0 temp0 = some sc := by
  have hcam : (HelicoidProgram.camera : Camera (Fl F)) = Camera.make (cv ![0, -4, 0]) (cv 0) (cv ![0, 1, 1]) (fin 40) (fin 1) := by
    unfold HelicoidProgram.camera
    congr 1
    · simp only [fl, cv_vec3]; norm_num
    · exact cv_zero_vec
    · simp only [fl, cv_vec3]; norm_num
    · simp only [fl]; norm_num
    · simp only [fl]; norm_num
  have hne : (![0, -4, 0] : Fin 3 → ℝ) ≠ 0 := fun h => by have := congrFun h 1; norm_num at this
  obtain ⟨n, hn, n1, -⟩ := C82_backlight (F := F) ![0, -4, 0] 0 ![0, 1, 1] 40 1 hne
  have h10 : (10 : Fl F) = fin 10 := by rw [ofNat_def]; norm_num
  have hl : ∃ l, backlightDisk (HelicoidProgram.camera : Camera (Fl F)) = some l := by
    rw [hcam]
    unfold backlightDisk
    rw [hn, h10]
    exact ⟨_, Disk.make_eq 10 _ n n1⟩
  have hx : (![1, 0, 0] : Fin 3 → ℝ) ⬝ᵥ ![1, 0, 0] = 1 := by simp
  have h2 : ∃ l, Disk.make (10 : Fl F) ![8, 0, 0] ![1, 0, 0] = some l := by
    have := Disk.make_eq (F := F) 10 ![8, 0, 0] ![1, 0, 0] hx
    refine ⟨_, Eq.trans ?_ this⟩
    congr 1 <;> simp only [fl, cv_vec3] <;> norm_num
  have h3 : ∃ l, Disk.make (10 : Fl F) ![-8, 0, 0] ![1, 0, 0] = some l := by
    have := Disk.make_eq (F := F) 10 ![-8, 0, 0] ![1, 0, 0] hx
    refine ⟨_, Eq.trans ?_ this⟩
    congr 1 <;> simp only [fl, cv_vec3] <;> norm_num
  obtain ⟨l, hl⟩ := hl
  obtain ⟨l2, h2⟩ := h2
  obtain ⟨l3, h3⟩ := h3
  unfold HelicoidProgram.scene HelicoidProgram.objects
  rw [hl, Option.bind_some, h2, Option.bind_some, h3]
  exact ⟨_, rfl⟩

end DRT
