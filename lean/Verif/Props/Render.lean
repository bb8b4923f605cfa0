import Verif.Props.RenderStores
import Verif.Props.Png
import Verif.Props.Camera
import Verif.Model.Rect

/-! # C84: `render_scene` twice -/

namespace DRT
open Scalar Fl Render Matrix

variable {F : Fmt} {S : Type}

/-! ## A lamp that fills the image except for a stripe on the left -/

/-- An `xy_rect` at `z = 0` that shines white. -/
noncomputable def lampWorld (temp0 : HitRecord (Fl exact64)) : World (Fl exact64) Unit :=
  (HittableList.add HittableList.empty (Rect.xy ⟨fin (-(9 / 10)), fin 4, fin (-4), fin 4, fin 0⟩)
    (Material.diffuseLight (solidColor (cv ![1, 1, 1])))).world temp0

theorem lampColor (temp0 rec0 : HitRecord (Fl exact64)) (s t : ℝ) (hs0 : 0 ≤ s) (hs : s ≤ 2) (ht0 : 0 ≤ t) (ht : t ≤ 2) :
    rayColor (lampWorld temp0) (cv ![0, 0, 0]) rec0 8 () ⟨cv ![0, 0, 1], cv ![2 * s - 1, 2 * t - 1, -1]⟩ =
      some ⟨if 2 * s - 1 < -(9 / 10) then cv ![0, 0, 0] else cv ![1, 1, 1], (), 1⟩ := by
  have heps : (1000 * Scalar.eps : Fl exact64) = fin (1000 * (1 / 2 ^ 52)) := by
    rw [show (Scalar.eps : Fl exact64) = fin (1 / 2 ^ 52) from rfl, ofNat_def]; simp
  have hhit : ∀ rec, (Rect.hitXY (⟨fin (-(9 / 10)), fin 4, fin (-4), fin 4, fin 0⟩ : Rect (Fl exact64)) ⟨cv ![0, 0, 1], cv ![2 * s - 1, 2 * t - 1, -1]⟩
      (1000 * Scalar.eps) Scalar.inf rec).1 = !decide (2 * s - 1 < -(9 / 10)) ∧
      ((2 * s - 1 < -(9 / 10)) ∨ (Rect.hitXY (⟨fin (-(9 / 10)), fin 4, fin (-4), fin 4, fin 0⟩ : Rect (Fl exact64)) ⟨cv ![0, 0, 1], cv ![2 * s - 1, 2 * t - 1, -1]⟩
      (1000 * Scalar.eps) Scalar.inf rec).2.t = fin 1) := by
    intro rec
    rw [heps]
    unfold Rect.hitXY Rect.hitPlane
    have e : ((fin 0 : Fl exact64) - (cv ![0, 0, 1] : Vec (Fl exact64) 3) 2) / (cv ![2 * s - 1, 2 * t - 1, -1] : Vec (Fl exact64) 3) 2 = fin 1 := by
      simp only [cv_apply, Fl.sub_fin]
      rw [div_fin _ (by simp)]
      simp
    have ex : (cv ![0, 0, 1] : Vec (Fl exact64) 3) 0 + fin 1 * (cv ![2 * s - 1, 2 * t - 1, -1] : Vec (Fl exact64) 3) 0 = fin (2 * s - 1) := by
      simp [cv_apply]
    have ey : (cv ![0, 0, 1] : Vec (Fl exact64) 3) 1 + fin 1 * (cv ![2 * s - 1, 2 * t - 1, -1] : Vec (Fl exact64) 3) 1 = fin (2 * t - 1) := by
      simp [cv_apply]
    have g1 : Scalar.lt (fin 1 : Fl exact64) (fin (1000 * (1 / 2 ^ 52))) = false := by rw [lt_fin]; norm_num
    have g2 : Scalar.gt (fin 1 : Fl exact64) Scalar.inf = false := rfl
    simp only [e, ex, ey, g1, g2, Bool.or_self, Bool.false_eq_true, if_false]
    have k1 : Scalar.gt (fin (2 * s - 1) : Fl exact64) (fin 4) = false := by unfold gt; rw [lt_fin]; simp; linarith
    have k2 : Scalar.lt (fin (2 * t - 1) : Fl exact64) (fin (-4)) = false := by rw [lt_fin]; simp; linarith
    have k3 : Scalar.gt (fin (2 * t - 1) : Fl exact64) (fin 4) = false := by unfold gt; rw [lt_fin]; simp; linarith
    simp only [k1, k2, k3, Bool.or_false, lt_fin]
    by_cases h : 2 * s - 1 < -(9 / 10)
    · simp [h]
    · simp [h, HitRecord.setFaceNormal]
  rw [rayColor]
  have hq : ∃ rec', lampWorld temp0 () ⟨cv ![0, 0, 1], cv ![2 * s - 1, 2 * t - 1, -1]⟩ (1000 * Scalar.eps) Scalar.inf rec0 =
      some (if 2 * s - 1 < -(9 / 10) then none else some (Material.diffuseLight (solidColor (cv ![1, 1, 1]))), rec', ()) := by
    unfold lampWorld HittableList.world HittableList.add HittableList.empty HittableList.hit
    simp only [List.nil_append, HittableList.loop, HittableList.step, Rect.xy]
    obtain ⟨h1, h2⟩ := hhit temp0
    by_cases h : 2 * s - 1 < -(9 / 10)
    · simp only [h1, h, decide_true, Bool.not_true, Bool.false_eq_true, if_false, if_true, Option.map_some]
      exact ⟨_, rfl⟩
    · have h2 := h2.resolve_left h
      have h3 : Scalar.lt (fin 1 : Fl exact64) Scalar.inf = true := rfl
      simp only [h1, h, decide_false, Bool.not_false, if_false, if_true, h2, h3, List.getElem?_cons_zero, Option.map_some]
      exact ⟨_, rfl⟩
  obtain ⟨rec', hq⟩ := hq
  rw [hq]
  by_cases h : 2 * s - 1 < -(9 / 10)
  · simp only [h, if_true]
  · simp only [h, if_false, Material.diffuseLight, DiffuseLight.emitted, DiffuseLight.scatter, solidColor, Bool.false_eq_true]

/-- The scene: two by two pixels, one sample each, seen from `(0, 0, 1)`. -/
noncomputable def lampScene (rec0 : HitRecord (Fl exact64)) : Scene (Fl exact64) Unit where
  width := 2
  height := 2
  background := cv ![0, 0, 0]
  camera := Camera.make (cv ![0, 0, 1]) (cv 0) (cv ![0, 1, 0]) (fin 90) (fin 1)
  world := lampWorld rec0
  samples := 1
  rec0 := rec0

/-- The pixel drawn with the generator `g` in column `i`. -/
noncomputable def lampPixel (i : ℕ) (g : Pcg) : Fin 4 → UInt8 :=
  if 2 * ((i : ℝ) + (g.next.1.toNat : ℝ) / 2 ^ 32) - 1 < -(9 / 10) then ![0, 0, 0, 255] else ![255, 255, 255, 255]

theorem lampTask (rec0 : HitRecord (Fl exact64)) (i j : ℕ) (hi : i < 2) (hj : j < 2) (g : Pcg) :
    task (lampScene rec0) i j (g, ()) = some (lampPixel i g, g.advance.advance, ()) := by
  have hd : ∀ x : BitVec 32, 0 ≤ (x.toNat : ℝ) / 2 ^ 32 ∧ (x.toNat : ℝ) / 2 ^ 32 < 1 := by
    intro x
    refine ⟨by positivity, ?_⟩
    rw [div_lt_one (by positivity)]
    exact_mod_cast x.isLt
  have hc : ∀ k : ℕ, ∀ x : BitVec 32, coordinate k 2 (fin ((x.toNat : ℝ) / 2 ^ 32) : Fl exact64) = fin ((k : ℝ) + (x.toNat : ℝ) / 2 ^ 32) := by
    intro k x
    unfold coordinate
    rw [lit_def, lit_def, Fl.add_fin, div_fin _ (by norm_num)]
    norm_num
  have hs : sample (lampScene rec0) i j (![0, 0, 0], g, ()) =
      some (if 2 * ((i : ℝ) + (g.next.1.toNat : ℝ) / 2 ^ 32) - 1 < -(9 / 10) then cv ![0, 0, 0] else cv ![1, 1, 1], g.advance.advance, ()) := by
    unfold sample
    simp only [Pcg.real01, ldexp32_def]
    simp only [lampScene, hc]
    rw [cameraExample, lampColor]
    · simp only [Option.some.injEq, Prod.mk.injEq]
      refine ⟨?_, rfl, trivial⟩
      rw [ofNat_zero, cv_vec3]
      split
      · rw [cv_add, cv_inj]; funext a; fin_cases a <;> simp
      · rw [cv_add, cv_inj]; funext a; fin_cases a <;> simp
    all_goals
      have h1 := hd g.next.1
      have h2 := hd g.next.2.next.1
      have h3 : (i : ℝ) ≤ 1 := by exact_mod_cast (by omega : i ≤ 1)
      have h4 : (j : ℝ) ≤ 1 := by exact_mod_cast (by omega : j ≤ 1)
      have h5 : (0 : ℝ) ≤ i := by positivity
      have h6 : (0 : ℝ) ≤ j := by positivity
      linarith
  unfold task
  rw [show (lampScene rec0).samples = 1 from rfl]
  simp only [sampleLoop, hs, Option.bind_some]
  have hl : (Scalar.lit ((1 : ℕ) : ℚ) : Fl exact64) = fin 1 := by rw [lit_def]; simp
  have e : ∀ x : ℝ, (fin x : Fl exact64) / fin 1 = fin x := fun x => by rw [div_fin _ (by norm_num), div_one]
  have c0 := (C88_ends (F := exact64)).1
  have c1 := (C88_ends (F := exact64)).2.1 1 (le_refl _)
  have t0 : to8bit ((cv ![0, 0, 0] : Vec (Fl exact64) 3) /. fin 1) = some ![0, 0, 0, 255] := by
    have : (cv ![0, 0, 0] : Vec (Fl exact64) 3) /. fin 1 = cv ![0, 0, 0] := by
      funext a; fin_cases a <;> exact e _
    rw [this]
    simp [to8bit, cv_apply, c0]
  have t1 : to8bit ((cv ![1, 1, 1] : Vec (Fl exact64) 3) /. fin 1) = some ![255, 255, 255, 255] := by
    have : (cv ![1, 1, 1] : Vec (Fl exact64) 3) /. fin 1 = cv ![1, 1, 1] := by
      funext a; fin_cases a <;> exact e _
    rw [this]
    simp [to8bit, cv_apply, c1]
  rw [hl]
  unfold lampPixel
  split
  · rw [t0]; rfl
  · rw [t1]; rfl

/-- C84 fails: the threads share one generator, and if the upper row happens to be run before the lower one, the same scene gives a different
image. -/
theorem C84_schedule_false (rec0 : HitRecord (Fl exact64)) : ∃ img₁ img₂, image (lampScene rec0) [0, 1] () = some img₁ ∧
    image (lampScene rec0) [1, 0] () = some img₂ ∧ img₁ ≠ img₂ := by
  have r1 : ∀ g : Pcg, run (lampScene rec0) [(0, 0), (1, 0), (0, 1), (1, 1)] (g, ()) = some [((0, 0), lampPixel 0 g),
      ((1, 0), lampPixel 1 (Pcg.advance^[2] g)), ((0, 1), lampPixel 0 (Pcg.advance^[4] g)), ((1, 1), lampPixel 1 (Pcg.advance^[6] g))] := by
    intro g
    simp only [run, lampTask rec0 _ _ (by norm_num : 0 < 2) (by norm_num : 0 < 2), lampTask rec0 _ _ (by norm_num : 1 < 2) (by norm_num : 0 < 2),
      lampTask rec0 _ _ (by norm_num : 0 < 2) (by norm_num : 1 < 2), lampTask rec0 _ _ (by norm_num : 1 < 2) (by norm_num : 1 < 2),
      Option.map_some]
    rfl
  have r2 : ∀ g : Pcg, run (lampScene rec0) [(0, 1), (1, 1), (0, 0), (1, 0)] (g, ()) = some [((0, 1), lampPixel 0 g),
      ((1, 1), lampPixel 1 (Pcg.advance^[2] g)), ((0, 0), lampPixel 0 (Pcg.advance^[4] g)), ((1, 0), lampPixel 1 (Pcg.advance^[6] g))] := by
    intro g
    simp only [run, lampTask rec0 _ _ (by norm_num : 0 < 2) (by norm_num : 0 < 2), lampTask rec0 _ _ (by norm_num : 1 < 2) (by norm_num : 0 < 2),
      lampTask rec0 _ _ (by norm_num : 0 < 2) (by norm_num : 1 < 2), lampTask rec0 _ _ (by norm_num : 1 < 2) (by norm_num : 1 < 2),
      Option.map_some]
    rfl
  obtain ⟨img₁, h1, -, h2⟩ := C83_schedule 2 2 _ (by simp only [List.map_cons, List.map_nil]; decide) _ (List.Perm.refl (stores 2 2 [((0, 0), lampPixel 0 seed),
      ((1, 0), lampPixel 1 (Pcg.advance^[2] seed)), ((0, 1), lampPixel 0 (Pcg.advance^[4] seed)), ((1, 1), lampPixel 1 (Pcg.advance^[6] seed))]))
  obtain ⟨img₂, h3, -, h4⟩ := C83_schedule 2 2 _ (by simp only [List.map_cons, List.map_nil]; decide) _ (List.Perm.refl (stores 2 2 [((0, 1), lampPixel 0 seed),
      ((1, 1), lampPixel 1 (Pcg.advance^[2] seed)), ((0, 0), lampPixel 0 (Pcg.advance^[4] seed)), ((1, 0), lampPixel 1 (Pcg.advance^[6] seed))]))
  refine ⟨img₁, img₂, ?_, ?_, ?_⟩
  · unfold image
    rw [show tasks (lampScene rec0).width [0, 1] = [(0, 0), (1, 0), (0, 1), (1, 1)] from rfl, r1]
    exact h1
  · unfold image
    rw [show tasks (lampScene rec0).width [1, 0] = [(0, 1), (1, 1), (0, 0), (1, 0)] from rfl, r2]
    exact h3
  · intro he
    have a1 := (h2 0 0 (lampPixel 0 seed) (by simp)).2.2 0
    have a2 := (h4 0 0 (lampPixel 0 (Pcg.advance^[4] seed)) (by simp)).2.2 0
    rw [he, a2, Option.some.injEq] at a1
    have d0 : (Pcg.next seed).1.toNat = 0 := by decide +kernel
    have d4 : (Pcg.next (Pcg.advance^[4] seed)).1.toNat = 448442668 := by decide +kernel
    unfold lampPixel at a1
    rw [d0, d4, if_neg (by norm_num), if_pos (by norm_num)] at a1
    exact absurd a1 (by decide)

/-! ## What is true of all schedules -/

/-- Part of C84: if all rays have the same colour, for example because the scene is empty, the image does not depend on the order of
the rows, on the state of the generator, or on where it stands in the sequence. Missing: scenes whose colour varies, where it fails. -/
theorem C84_uniform_partial {R : Type} [Scalar R] (sc : Scene R S) (col : Vec R 3)
    (hc : ∀ s r, ∃ s' q, rayColor sc.world sc.background sc.rec0 8 s r = some ⟨col, s', q⟩)
    (rows rows' : List ℕ) (hr : rows.Perm (List.range sc.height)) (hr' : rows'.Perm (List.range sc.height)) (s s' : S) :
    image sc rows s = image sc rows' s' := by
  have hloop : ∀ n, ∀ c : Vec R 3, ∃ d, ∀ i j g, ∃ g', sampleLoop sc i j n (c, g) = some (d, g') := by
    intro n
    induction n with
    | zero => exact fun c => ⟨c, fun i j g => ⟨g, rfl⟩⟩
    | succ n ih =>
      intro c
      obtain ⟨d, hd⟩ := ih (c + col)
      refine ⟨d, fun i j g => ?_⟩
      obtain ⟨s', q, h1⟩ := hc g.2 (sc.camera.getRay (coordinate i sc.width (Pcg.real01 g.1).1)
        (coordinate j sc.height (Pcg.real01 (R := R) (Pcg.real01 (R := R) g.1).2).1))
      obtain ⟨g', h2⟩ := hd i j ((Pcg.real01 (R := R) (Pcg.real01 (R := R) g.1).2).2, s')
      refine ⟨g', ?_⟩
      rw [sampleLoop, sample]
      simp only [h1, Option.bind_some]
      exact h2
  obtain ⟨d, hd⟩ := hloop sc.samples ![0, 0, 0]
  have htask : ∀ i j g, ∃ g', task sc i j g = (to8bit (d /. lit sc.samples)).map fun p => (p, g') := by
    intro i j g
    obtain ⟨g', h⟩ := hd i j g
    exact ⟨g', by rw [task, h]⟩
  cases hp : to8bit (d /. lit sc.samples) with
  | none =>
    have hrun : ∀ ts g, run sc ts g = if ts = [] then some [] else none := by
      intro ts g
      cases ts with
      | nil => rfl
      | cons t ts =>
        obtain ⟨g', h⟩ := htask t.1 t.2 g
        rw [hp] at h
        obtain ⟨i, j⟩ := t
        simp only [run]
        rw [h]
        simp
    unfold image
    have : tasks sc.width rows = [] ↔ tasks sc.width rows' = [] := by
      rw [← List.length_eq_zero_iff, ← List.length_eq_zero_iff, length_tasks, length_tasks, hr.length_eq, hr'.length_eq]
    rw [hrun, hrun]
    simp only [this]
  | some p =>
    have hrun : ∀ ts g, run sc ts g = some (ts.map fun t => (t, p)) := by
      intro ts
      induction ts with
      | nil => exact fun g => rfl
      | cons t ts ih =>
        intro g
        obtain ⟨g', h⟩ := htask t.1 t.2 g
        rw [hp] at h
        obtain ⟨i, j⟩ := t
        simp only [run]
        rw [h]
        simp [ih]
    have himg : ∀ rows, rows.Perm (List.range sc.height) → ∀ s, image sc rows s =
        (stores sc.width sc.height ((tasks sc.width (List.range sc.height)).map fun t => (t, p))).foldl store
          (some (blank sc.width sc.height)) := by
      intro rows hr s
      unfold image
      rw [hrun]
      refine C83_order _ _ _ (by simp [Function.comp_def]) _ ?_
      exact ((tasks_perm hr).map _).flatMap_right _
    rw [himg rows hr, himg rows' hr']

/-- An empty scene before a background of any colour. -/
example (rec0 : HitRecord (Fl exact64)) (bg : Vec (Fl exact64) 3) (cam : Camera (Fl exact64)) (rows : List ℕ)
    (hr : rows.Perm (List.range 480)) :
    image ⟨640, 480, bg, cam, (HittableList.empty : HittableList (Fl exact64) (Material (Fl exact64) Unit)).world rec0, 16, rec0⟩ rows () =
      image ⟨640, 480, bg, cam, (HittableList.empty : HittableList (Fl exact64) (Material (Fl exact64) Unit)).world rec0, 16, rec0⟩
        (List.range 480) () :=
  C84_uniform_partial _ bg (fun s r => ⟨s, 1, by rw [rayColor]; rfl⟩) _ _ hr (List.Perm.refl _) _ _

end DRT
