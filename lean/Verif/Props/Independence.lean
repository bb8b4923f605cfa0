import Verif.Props.Lambertian
import Verif.Props.Render
import Verif.Model.Programs

/-!
# C139: different random choices are independent of each other

The pictures are averages over random choices: where in the pixel a ray starts, and where each matt surface sends it. Averages converge
to the right picture if these choices have nothing to do with each other. The theorems follow `render_scene` (render_scene.hpp:24-26 and
40-45), the constructor of `lambertian` (lambertian.hpp:16-19) and its `scatter` (lambertian.hpp:23-52).
-/

namespace DRT
open Scalar Fl

variable {R : Type} [Scalar R] {S : Type}

/-! ## Every matt material makes the same choices -/

/-- The directions into which a matt material with generator `g` scatters when it is hit again and again. -/
def scatterDirs (albedo : Texture R) (fuel : ℕ) : Pcg → List (Ray R × HitRecord R) → List (Option (Vec R 3))
  | _, [] => []
  | g, (r, rec) :: hits =>
    match Lambertian.scatter albedo fuel g r rec with
    | none => [none]
    | some (sc, g) => sc.ray.map Ray.dir :: scatterDirs albedo fuel g hits

/-- C139 is false: take two matt materials as their constructors make them, with any textures. If one is hit by any sequence of rays and
the other by any other sequence, at other points, but with the same normals, then both scatter into the same directions for ever. -/
theorem C139_twins_false (a b : Texture R) (fuel : ℕ) (hits : List ((Ray R × HitRecord R) × (Ray R × HitRecord R)))
    (h : ∀ x ∈ hits, x.1.2.normal = x.2.2.normal) :
    scatterDirs a fuel lambertianSeed (hits.map Prod.fst) = scatterDirs b fuel lambertianSeed (hits.map Prod.snd) := by
  generalize lambertianSeed = g
  induction hits generalizing g with
  | nil => rfl
  | cons x hits ih =>
    obtain ⟨⟨r, rec⟩, r', rec'⟩ := x
    have hx : rec.normal = rec'.normal := h _ (List.mem_cons_self ..)
    have ih' := ih fun y hy => h y (List.mem_cons_of_mem _ hy)
    simp only [List.map_cons, scatterDirs, Lambertian.scatter, hx]
    cases Lambertian.randomInHemisphere fuel g rec'.normal with
    | none => rfl
    | some y => simp [ih']

/-! ## The places in the pixels and the matt materials make the same choices -/

/-- Samples take two numbers each. -/
theorem Render.sample_gen {sc : Render.Scene R S} {i j : ℕ} {st st' : Vec R 3 × Pcg × S} (h : Render.sample sc i j st = some st') :
    st'.2.1 = Pcg.advance^[2] st.2.1 := by
  unfold Render.sample at h
  dsimp only at h
  split at h
  · cases h
  · simp only [Option.some.injEq] at h
    rw [← h]
    rfl

theorem Render.sampleLoop_gen {sc : Render.Scene R S} {i j : ℕ} (n : ℕ) {st st' : Vec R 3 × Pcg × S}
    (h : Render.sampleLoop sc i j n st = some st') : st'.2.1 = Pcg.advance^[2 * n] st.2.1 := by
  induction n generalizing st with
  | zero => simp only [Render.sampleLoop, Option.some.injEq] at h; rw [h]; rfl
  | succ n ih =>
    simp only [Render.sampleLoop, Option.bind_eq_some_iff] at h
    obtain ⟨s1, h1, h2⟩ := h
    rw [ih h2, Render.sample_gen h1, ← Function.iterate_add_apply, Nat.mul_succ]

theorem Render.task_gen {sc : Render.Scene R S} {i j : ℕ} {g : Pcg × S} {p : Fin 4 → UInt8} {g' : Pcg × S}
    (h : Render.task sc i j g = some (p, g')) : g'.1 = Pcg.advance^[2 * sc.samples] g.1 := by
  unfold Render.task at h
  split at h
  · cases h
  · rename_i hs
    simp only [Option.map_eq_some_iff, Prod.mk.injEq] at h
    obtain ⟨-, -, -, rfl⟩ := h
    exact Render.sampleLoop_gen _ hs

/-- C139: the number of random numbers that `render_scene` has drawn when it comes to a pixel depends on nothing but the number of pixels
before it: two for each sample. -/
theorem C139_tasks (sc : Render.Scene R S) (before rest : List (ℕ × ℕ)) (g : Pcg) (s : S)
    (l : List ((ℕ × ℕ) × (Fin 4 → UInt8))) (h : Render.run sc (before ++ rest) (g, s) = some l) :
    ∃ s', Render.run sc rest (Pcg.advance^[2 * sc.samples * before.length] g, s') = some (l.drop before.length) := by
  induction before generalizing g s l with
  | nil => exact ⟨s, h⟩
  | cons t before ih =>
    simp only [List.cons_append, Render.run] at h
    split at h
    · cases h
    · rename_i p g' ht
      simp only [Option.map_eq_some_iff] at h
      obtain ⟨l', hl, rfl⟩ := h
      obtain ⟨g1, s1⟩ := g'
      obtain ⟨s', h'⟩ := ih _ _ _ hl
      have hg : g1 = Pcg.advance^[2 * sc.samples] g := Render.task_gen ht
      refine ⟨s', ?_⟩
      have e : Pcg.advance^[2 * sc.samples * (before.length + 1)] g = Pcg.advance^[2 * sc.samples * before.length] g1 := by
        rw [Nat.mul_succ, Function.iterate_add_apply, hg]
      rw [List.length_cons, List.drop_succ_cons, e]
      exact h'

/-- Trials of a matt material take three numbers each. -/
theorem Lambertian.trials (k : ℕ) (g : Pcg) : (fun g => (Lambertian.draw (R := R) g).2)^[k] g = Pcg.advance^[3 * k] g := by
  induction k generalizing g with
  | zero => simp
  | succ k ih => rw [Function.iterate_succ_apply, ih, Nat.mul_succ, Function.iterate_add_apply]; rfl

/-- C139 is false: the places in the pixels and the directions of a matt material are the same numbers. In a picture with any contents, look
at the samples number `3 k`, counted from 0 over the whole picture: `a` samples were taken for earlier pixels and `n` for this one. The
sample takes the place `(x, y)` in the pixel; and the trial number `2 k` of each matt material is the vector `(2 x - 1, 2 y - 1, z)`. -/
theorem C139_sampler_false (sc : Render.Scene R S) (i j a n k : ℕ) (hk : a + n = 3 * k) (c : Vec R 3) (s : S) (st : Vec R 3 × Pcg × S)
    (h : Render.sampleLoop sc i j n (c, Pcg.advance^[2 * a] Render.seed, s) = some st) :
    ∃ x y z : R, (∃ g, Render.sample sc i j st =
        (rayColor sc.world sc.background sc.rec0 8 st.2.2
          (sc.camera.getRay (Render.coordinate i sc.width x) (Render.coordinate j sc.height y))).map
          fun q => (st.1 + q.color, g, q.state)) ∧
      (Lambertian.draw ((fun g => (Lambertian.draw (R := R) g).2)^[2 * k] lambertianSeed)).1 = ![2 * x - 1, 2 * y - 1, z] := by
  have hg : st.2.1 = Pcg.advance^[3 * (2 * k)] lambertianSeed := by
    rw [Render.sampleLoop_gen n h]
    show Pcg.advance^[2 * n] (Pcg.advance^[2 * a] lambertianSeed) = _
    rw [← Function.iterate_add_apply]
    congr 1
    omega
  rw [Lambertian.trials, ← hg]
  refine ⟨(Pcg.real01 st.2.1).1, (Pcg.real01 (Pcg.real01 (R := R) st.2.1).2).1, _,
    ⟨(Pcg.real01 (R := R) (Pcg.real01 (R := R) st.2.1).2).2, ?_⟩, rfl⟩
  unfold Render.sample
  dsimp only
  split
  · rename_i hn; rw [hn]; rfl
  · rename_i hn; rw [hn]; rfl

/-! ## The first choice -/

variable {F : Fmt}

/-- A trial, from the three numbers drawn. -/
theorem Lambertian.draw_fin [F.Exact] (g : Pcg) (a b c : ℕ) (ha : g.next.1.toNat = a) (hb : g.advance.next.1.toNat = b)
    (hc : g.advance.advance.next.1.toNat = c) :
    (Lambertian.draw g : Vec (Fl F) 3 × Pcg) = (cv ![(a : ℝ) / 2 ^ 31 - 1, b / 2 ^ 31 - 1, c / 2 ^ 31 - 1], g.advance.advance.advance) := by
  have e : ∀ k : ℕ, (2 : Fl F) * ldexp32 k - 1 = fin ((k : ℝ) / 2 ^ 31 - 1) := by
    intro k
    simp only [fl]
    push_cast
    ring
  unfold Lambertian.draw Pcg.real01
  refine Prod.ext ?_ rfl
  show ![(2 : Fl F) * ldexp32 g.next.1.toNat - 1, 2 * ldexp32 g.advance.next.1.toNat - 1, 2 * ldexp32 g.advance.advance.next.1.toNat - 1] = _
  rw [ha, hb, hc, e, e, e, cv_vec3]

/-- The first trial that a fresh matt material accepts is the fourth. -/
theorem Lambertian.first [F.Exact] (fuel : ℕ) : ∃ g, (Lambertian.randomUnitVector (fuel + 4) lambertianSeed : Option (Vec (Fl F) 3 × Pcg)) =
    some (cv ![(2027909788 : ℝ) / 2 ^ 31 - 1, 1966037002 / 2 ^ 31 - 1, 750944266 / 2 ^ 31 - 1], g) := by
  have d0 := Lambertian.draw_fin (F := F) lambertianSeed 0 2484769643 220887133 (by decide) (by decide) (by decide)
  have d1 := Lambertian.draw_fin (F := F) lambertianSeed.advance.advance.advance 3193637852 448442668 440261179 (by decide) (by decide) (by decide)
  have d2 := Lambertian.draw_fin (F := F) lambertianSeed.advance.advance.advance.advance.advance.advance 4189475875 1001958772 2971757098
    (by decide) (by decide) (by decide)
  have d3 := Lambertian.draw_fin (F := F) lambertianSeed.advance.advance.advance.advance.advance.advance.advance.advance.advance
    2027909788 1966037002 750944266 (by decide) (by decide) (by decide)
  generalize lambertianSeed = g0 at *
  have big : ∀ v : Fin 3 → ℝ, 1 < v ⬝ᵥ v → gt (Vec.squaredNorm (cv v : Vec (Fl F) 3)) 1 = true := by
    intro v h; rw [cv_squaredNorm, gt]; simpa using h
  have small : ∀ v : Fin 3 → ℝ, v ⬝ᵥ v ≤ 1 → gt (Vec.squaredNorm (cv v : Vec (Fl F) 3)) 1 = false := by
    intro v h; rw [cv_squaredNorm, gt]; simpa using h
  refine ⟨g0.advance.advance.advance.advance.advance.advance.advance.advance.advance.advance.advance.advance, ?_⟩
  rw [Lambertian.randomUnitVector, d0]
  dsimp only
  rw [big _ (by simp [dotProduct, Fin.sum_univ_three]; norm_num), if_pos rfl, Lambertian.randomUnitVector, d1]
  dsimp only
  rw [big _ (by simp [dotProduct, Fin.sum_univ_three]; norm_num), if_pos rfl, Lambertian.randomUnitVector, d2]
  dsimp only
  rw [big _ (by simp [dotProduct, Fin.sum_univ_three]; norm_num), if_pos rfl, Lambertian.randomUnitVector, d3]
  dsimp only
  rw [small _ (by simp [dotProduct, Fin.sum_univ_three]; norm_num), if_neg (by simp)]
  norm_num

/-- C139 is false: the first time that a matt material is hit in a run of a program, whichever material and program it is, it scatters
into the normal plus or minus one fixed vector. -/
theorem C139_first_false [F.Exact] (albedo : Texture (Fl F)) (fuel : ℕ) (hf : 4 ≤ fuel) (r : Ray (Fl F)) (rec : HitRecord (Fl F))
    (n : Fin 3 → ℝ) (hn : rec.normal = cv n) (hl : n ⬝ᵥ n = 1) :
    ∃ v : Fin 3 → ℝ, v = ![(2027909788 : ℝ) / 2 ^ 31 - 1, 1966037002 / 2 ^ 31 - 1, 750944266 / 2 ^ 31 - 1] ∧
    ∃ g, Lambertian.scatter albedo fuel lambertianSeed r rec =
      some (⟨true, some (albedo rec), some ⟨rec.p, cv (n + if 0 < v ⬝ᵥ n then v else -v)⟩⟩, g) := by
  obtain ⟨fuel, rfl⟩ := Nat.exists_eq_add_of_le' hf
  obtain ⟨g, hg⟩ := Lambertian.first (F := F) fuel
  refine ⟨_, rfl, g, ?_⟩
  generalize (![(2027909788 : ℝ) / 2 ^ 31 - 1, 1966037002 / 2 ^ 31 - 1, 750944266 / 2 ^ 31 - 1] : Fin 3 → ℝ) = v at *
  have h1 : Lambertian.randomInHemisphere (fuel + 4) lambertianSeed rec.normal = some (cv (F := F) (if 0 < v ⬝ᵥ n then v else -v), g) := by
    unfold Lambertian.randomInHemisphere
    rw [hg, hn]
    simp only [cv_dot, ofNat_zero, gt, lt_fin, decide_eq_true_eq]
    split <;> simp [cv_neg]
  have h2 : ¬ (n + if 0 < v ⬝ᵥ n then v else -v) ⬝ᵥ (n + if 0 < v ⬝ᵥ n then v else -v) < Real.sqrt F.eps := by
    have hs : Real.sqrt F.eps ≤ 1 := Real.sqrt_le_one.mpr (by linarith [Fmt.Exact.eps_lt (F := F)])
    have hw : 0 ≤ (if 0 < v ⬝ᵥ n then v else -v) ⬝ᵥ n := by
      split
      · linarith
      · rw [neg_dotProduct]; linarith
    generalize (if 0 < v ⬝ᵥ n then v else -v) = w at *
    have := dotProduct_self_nonneg' w
    rw [add_dotProduct, dotProduct_add, dotProduct_add, hl, dotProduct_comm n w]
    linarith
  unfold Lambertian.scatter
  rw [h1]
  dsimp only
  have e : (Scalar.sqrt eps : Fl F) = fin (Real.sqrt F.eps) := by
    rw [eps_def, sqrt_fin (Fmt.Exact.eps_pos (F := F)).le]
  rw [hn, cv_add, cv_squaredNorm, e, lt_fin, if_neg (by simpa using h2)]

/-- A blue material lit from above and a red one elsewhere: their first bounces are parallel. -/
example (r r' : Ray (Fl exact64)) (rec rec' : HitRecord (Fl exact64)) (h : rec.normal = cv ![0, 0, 1]) (h' : rec'.normal = cv ![0, 0, 1]) :
    scatterDirs (solidColor ![0, 0, 1]) (2 ^ 64) lambertianSeed [(r, rec)] = scatterDirs (solidColor ![1, 0, 0]) (2 ^ 64) lambertianSeed [(r', rec')] ∧
    ∃ g, Lambertian.scatter (solidColor ![0, 0, 1]) (2 ^ 64) lambertianSeed r rec = some (⟨true, some ![0, 0, 1],
      some ⟨rec.p, cv ![1 - 2027909788 / 2 ^ 31, 1 - 1966037002 / 2 ^ 31, 2 - 750944266 / 2 ^ 31]⟩⟩, g) := by
  constructor
  · exact C139_twins_false _ _ _ [((r, rec), (r', rec'))] (by simp [h, h'])
  · obtain ⟨v, rfl, g, hg⟩ := C139_first_false (F := exact64) (solidColor ![0, 0, 1]) (2 ^ 64) (by norm_num) r rec ![0, 0, 1] h
      (by simp [dotProduct, Fin.sum_univ_three])
    refine ⟨g, hg.trans ?_⟩
    rw [if_neg (by simp [dotProduct, Fin.sum_univ_three]; norm_num)]
    have e : (![0, 0, 1] + -![(2027909788 : ℝ) / 2 ^ 31 - 1, 1966037002 / 2 ^ 31 - 1, 750944266 / 2 ^ 31 - 1] : Fin 3 → ℝ) =
        ![1 - 2027909788 / 2 ^ 31, 1 - 1966037002 / 2 ^ 31, 2 - 750944266 / 2 ^ 31] := by
      ext i; fin_cases i <;> simp; norm_num
    rw [e]
    rfl

/-- An empty scene: the sample number 3 of the first pixel has the place of the third trial. -/
example (sc : Render.Scene (Fl exact64) Unit) (hw : sc.world = fun s _ _ _ rec => some (none, rec, s)) : ∃ st x y z,
    Render.sampleLoop sc 0 0 3 (![0, 0, 0], Render.seed, ()) = some st ∧
    (∃ g, Render.sample sc 0 0 st = (rayColor sc.world sc.background sc.rec0 8 st.2.2
      (sc.camera.getRay (Render.coordinate 0 sc.width x) (Render.coordinate 0 sc.height y))).map fun q => (st.1 + q.color, g, q.state)) ∧
    (Lambertian.draw ((fun g => (Lambertian.draw (R := Fl exact64) g).2)^[2 * 1] lambertianSeed)).1 = ![2 * x - 1, 2 * y - 1, z] := by
  have hs : ∀ st, ∃ st', Render.sample sc 0 0 st = some st' := by
    intro st
    unfold Render.sample rayColor
    rw [hw]
    exact ⟨_, rfl⟩
  obtain ⟨a, ha⟩ := hs (![0, 0, 0], Render.seed, ())
  obtain ⟨b, hb⟩ := hs a
  obtain ⟨c, hc⟩ := hs b
  have h : Render.sampleLoop sc 0 0 3 (![0, 0, 0], Render.seed, ()) = some c := by
    simp only [Render.sampleLoop, ha, hb, hc, Option.bind_some]
  obtain ⟨x, y, z, h1, h2⟩ := C139_sampler_false sc 0 0 0 3 1 (by norm_num) ![0, 0, 0] () c h
  exact ⟨c, x, y, z, h, h1, h2⟩

/-- Two rows of a picture: when the second is begun, each pixel of the first has taken two numbers for each sample. -/
example (rec0 : HitRecord (Fl exact64)) : ∃ (l : List ((ℕ × ℕ) × (Fin 4 → UInt8))) (s : Unit),
    Render.run (lampScene rec0) (Render.tasks (lampScene rec0).width [0] ++ Render.tasks (lampScene rec0).width [1])
      (Render.seed, ()) = some l ∧
    Render.run (lampScene rec0) (Render.tasks (lampScene rec0).width [1])
      (Pcg.advance^[2 * (lampScene rec0).samples * (Render.tasks (lampScene rec0).width [0]).length] Render.seed, s) =
      some (l.drop (Render.tasks (lampScene rec0).width [0]).length) := by
  obtain ⟨img, -, h, -⟩ := C84_schedule_false rec0
  unfold Render.image at h
  split at h
  · cases h
  · rename_i l hl
    obtain ⟨s, hs⟩ := C139_tasks (lampScene rec0) (Render.tasks (lampScene rec0).width [0])
      (Render.tasks (lampScene rec0).width [1]) Render.seed () l hl
    exact ⟨l, s, hl, hs⟩

end DRT
