import Verif.Model.Programs
import Verif.Props.Box
import Verif.Props.RandomSpheres
import Verif.Props.Sphere

/-! # C151: what is in the scene of random spheres -/

namespace DRT
open Scalar Fl Matrix

variable {F : Fmt}

/-- The numbers drawn for a cell, as values of the format. -/
def RenderSpheres.Cell.ofReal (c : RenderSpheres.Cell ℝ) : RenderSpheres.Cell (Fl F) := ⟨fin c.choose, fin c.x, fin c.z, fun i => fin (c.a i)⟩

/-- Half of the small balls are meant to be matt, with products of two random numbers as colours, a quarter bright metal, a quarter glass. -/
inductive SmallMaterial (n : ℕ) (c : RenderSpheres.Cell ℝ) : Material (Fl F) (RenderSpheres.State (Fl F)) → Prop
  /-- matt -/
  | matt (h : c.choose < 1 / 2) :
      SmallMaterial n c (RenderSpheres.dull n (solidColor (cv ![c.a 0 * c.a 1, c.a 2 * c.a 3, c.a 4 * c.a 5])))
  /-- metal -/
  | metal (h : 1 / 2 ≤ c.choose) (h' : c.choose < 3 / 4) :
      SmallMaterial n c (Material.metal (solidColor (cv ![(c.a 0 + 1) / 2, (c.a 1 + 1) / 2, (c.a 2 + 1) / 2])))
  /-- glass -/
  | glass (h : 3 / 4 ≤ c.choose) : SmallMaterial n c (RenderSpheres.glass n)

/-- What the program is meant to put into the scene, with its material. `n` numbers the random generators. -/
inductive InRandomScene (D : ℤ → ℤ → RenderSpheres.Cell ℝ) : Sphere (Fl F) → Material (Fl F) (RenderSpheres.State (Fl F)) → Prop
  /-- the chequered ground -/
  | ground (n : ℕ) : InRandomScene D ⟨cv ![0, -1000, 0], fin 1000⟩ (RenderSpheres.dull n
      (checkerTexture (solidColor (cv ![1 / 5, 3 / 10, 1 / 10])) (solidColor (cv ![9 / 10, 9 / 10, 9 / 10]))))
  /-- the large glass ball -/
  | glass (n : ℕ) : InRandomScene D ⟨cv ![0, 1, 0], fin 1⟩ (RenderSpheres.glass n)
  /-- the large brown ball -/
  | brown (n : ℕ) : InRandomScene D ⟨cv ![-4, 1, 0], fin 1⟩ (RenderSpheres.dull n (solidColor (cv ![2 / 5, 1 / 5, 1 / 10])))
  /-- the large metal ball -/
  | metal : InRandomScene D ⟨cv ![4, 1, 0], fin 1⟩ (Material.metal (solidColor (cv ![7 / 10, 3 / 5, 1 / 2])))
  /-- a small ball in each cell of a grid of 22 by 22, unless it is near the metal ball -/
  | small (n : ℕ) (a b : ℤ) (ha : -11 ≤ a ∧ a < 11) (hb : -11 ≤ b ∧ b < 11)
      (far : 9 / 10 < Real.sqrt ((a + 9 / 10 * (D a b).x - 4) ^ 2 + (b + 9 / 10 * (D a b).z) ^ 2))
      {m : Material (Fl F) (RenderSpheres.State (Fl F))} (hm : SmallMaterial n (D a b) m) :
      InRandomScene D ⟨cv ![a + 9 / 10 * (D a b).x, 1 / 5, b + 9 / 10 * (D a b).z], fin (1 / 5)⟩ m

namespace RenderSpheres

/-- The small spheres with their materials. -/
def smallPairs [Scalar R] (draws : ℤ → ℤ → Cell R) (cs : List (ℤ × ℤ)) : List (Sphere R × Material R (State R)) :=
  cs.filterMap fun ab => (smallSphere ab.1 ab.2 (draws ab.1 ab.2).x (draws ab.1 ab.2).z).map fun s =>
    (s, smallMaterial (22 * (ab.1 + 11) + (ab.2 + 11)).toNat (draws ab.1 ab.2))

/-- A list of spheres with materials as a `hittable_list`. -/
def ofPairs [Scalar R] (l : List (Sphere R × Material R (State R))) : HittableList R (Material R (State R)) :=
  ⟨l.map fun p => p.1.toHittable, l.map Prod.snd⟩

theorem ofPairs_add [Scalar R] (l : List (Sphere R × Material R (State R))) (s : Sphere R) (m : Material R (State R)) :
    (ofPairs l).add s.toHittable m = ofPairs (l ++ [(s, m)]) := by
  simp [ofPairs, HittableList.add]

theorem foldl_addCell [Scalar R] (draws : ℤ → ℤ → Cell R) (cs : List (ℤ × ℤ)) : ∀ l : List (Sphere R × Material R (State R)),
    cs.foldl (addCell draws) (ofPairs l) = ofPairs (l ++ smallPairs draws cs) := by
  induction cs with
  | nil => intro l; simp [smallPairs]
  | cons ab cs ih =>
    intro l
    have h1 : addCell draws (ofPairs l) ab = ofPairs (l ++ smallPairs draws [ab]) := by
      unfold addCell smallPairs
      dsimp only
      cases h : smallSphere ab.1 ab.2 (draws ab.1 ab.2).x (draws ab.1 ab.2).z with
      | none => simp [h]
      | some s => simp [h, ofPairs_add]
    have h2 : smallPairs draws (ab :: cs) = smallPairs draws [ab] ++ smallPairs draws cs := by
      unfold smallPairs
      rw [← List.filterMap_append]
      rfl
    rw [List.foldl_cons, h1, ih, List.append_assoc, h2]

/-- The scene as a list of pairs. -/
def pairs [Scalar R] (draws : ℤ → ℤ → Cell R) : List (Sphere R × Material R (State R)) :=
  [(groundSphere, dull 487 (checkerTexture (solidColor ![lit (2 / 10), lit (3 / 10), lit (1 / 10)])
    (solidColor ![lit (9 / 10), lit (9 / 10), lit (9 / 10)])))] ++ smallPairs draws cells ++
  [(glassSphere, glass 484), (dullSphere, dull 485 (solidColor ![lit (4 / 10), lit (2 / 10), lit (1 / 10)])),
    (metalSphere, Material.metal (solidColor ![lit (7 / 10), lit (6 / 10), lit (5 / 10)]))]

theorem objects_eq [Scalar R] (draws : ℤ → ℤ → Cell R) : objects draws = ofPairs (pairs draws) := by
  unfold objects pairs
  dsimp only
  rw [show (HittableList.empty : HittableList R (Material R (State R))) = ofPairs [] from rfl, ofPairs_add, foldl_addCell, ofPairs_add,
    ofPairs_add, ofPairs_add]
  simp

theorem mem_cells (a b : ℤ) : (a, b) ∈ cells ↔ (-11 ≤ a ∧ a < 11) ∧ -11 ≤ b ∧ b < 11 := by
  simp only [cells, List.bind_eq_flatMap, List.pure_def, List.mem_flatMap, List.mem_map, List.mem_range, List.mem_singleton, Prod.mk.injEq]
  constructor
  · rintro ⟨i, ⟨i', hi, rfl⟩, j, ⟨j', hj, rfl⟩, rfl, rfl⟩; omega
  · rintro ⟨h1, h2⟩
    exact ⟨a + 11, ⟨(a + 11).toNat, by omega, by omega⟩, b + 11, ⟨(b + 11).toNat, by omega, by omega⟩, by omega, by omega⟩

theorem lit3 [F.Exact] (a b c : ℚ) : (![lit a, lit b, lit c] : Vec (Fl F) 3) = cv ![(a : ℝ), b, c] := by
  funext k
  fin_cases k <;> exact lit_def _

theorem dullSphere_fin [F.Exact] : (dullSphere : Sphere (Fl F)) = ⟨cv ![-4, 1, 0], fin 1⟩ := by
  unfold dullSphere
  congr 1
  · funext k
    fin_cases k
    · show -(4 : Fl F) = fin _; rw [ofNat_def, Fl.neg_fin]; norm_num
    · show (1 : Fl F) = fin _; rw [ofNat_def]; norm_num
    · show (0 : Fl F) = fin _; rw [ofNat_def]; norm_num
  · rw [ofNat_def]; norm_num

theorem smallMaterial_ofReal [F.Exact] (n : ℕ) (c : Cell ℝ) : SmallMaterial n c (smallMaterial n (c.ofReal : Cell (Fl F))) := by
  have e1 : (lit (5 / 10) : Fl F) = fin (1 / 2) := by rw [lit_def]; norm_num
  have e2 : (lit (75 / 100) : Fl F) = fin (3 / 4) := by rw [lit_def]; norm_num
  have e3 : (2 : Fl F) = fin 2 := by rw [ofNat_def]; norm_num
  have e4 : ∀ x : ℝ, (fin x : Fl F) / 2 + lit (5 / 10) = fin ((x + 1) / 2) := fun x => by
    rw [e1, e3, div_fin _ two_ne_zero, Fl.add_fin]; congr 1; ring
  unfold smallMaterial
  have t1 : lt (c.ofReal : Cell (Fl F)).choose (lit (5 / 10)) = decide (c.choose < 1 / 2) := by rw [e1]; exact lt_fin _ _
  have t2 : lt (c.ofReal : Cell (Fl F)).choose (lit (75 / 100)) = decide (c.choose < 3 / 4) := by rw [e2]; exact lt_fin _ _
  simp only [t1, t2, decide_eq_true_eq]
  split_ifs with h h'
  · convert! SmallMaterial.matt (F := F) (n := n) h using 3
    funext k
    fin_cases k <;> exact Fl.mul_fin _ _
  · convert! SmallMaterial.metal (F := F) (n := n) (not_lt.mp h) h' using 2
    congr 1
    funext k
    fin_cases k <;> exact e4 _
  · exact .glass (not_lt.mp h')

/-- Every object of the scene is meant to be there. -/
theorem inScene_of_mem [F.Exact] {D : ℤ → ℤ → Cell ℝ}
    {s : Sphere (Fl F)} {m : Material (Fl F) (State (Fl F))} (h : (s, m) ∈ pairs fun a b => (D a b).ofReal) : InRandomScene D s m := by
  unfold pairs at h
  simp only [List.mem_append, List.mem_cons, List.not_mem_nil, or_false, Prod.mk.injEq] at h
  rcases h with (⟨rfl, rfl⟩ | h) | ⟨rfl, rfl⟩ | ⟨rfl, rfl⟩ | ⟨rfl, rfl⟩
  · have := InRandomScene.ground (F := F) (D := D) 487
    rw [groundSphere_fin, lit3, lit3]
    norm_num at this ⊢
    exact this
  · obtain ⟨⟨a, b⟩, hab, h⟩ := List.mem_filterMap.mp h
    obtain ⟨t, ht, h⟩ := Option.map_eq_some_iff.mp h
    obtain ⟨rfl, rfl⟩ := Prod.mk.inj h
    dsimp only [Cell.ofReal] at ht
    rw [smallSphere_fin] at ht
    split_ifs at ht with hf
    cases ht
    obtain ⟨ha, hb⟩ := (mem_cells a b).mp hab
    exact .small _ a b ha hb hf (smallMaterial_ofReal _ _)
  · rw [glassSphere_fin]; exact .glass 484
  · have := InRandomScene.brown (F := F) (D := D) 485
    rw [dullSphere_fin, lit3]
    norm_num at this ⊢
    exact this
  · have := InRandomScene.metal (F := F) (D := D)
    rw [metalSphere_fin, lit3]
    norm_num at this ⊢
    exact this

/-- Everything that is meant to be in the scene is there. -/
theorem mem_of_inScene [F.Exact] {D : ℤ → ℤ → Cell ℝ} {s : Sphere (Fl F)} {m : Material (Fl F) (State (Fl F))}
    (h : InRandomScene D s m) : ∃ m', (s, m') ∈ pairs fun a b => (D a b).ofReal := by
  unfold pairs
  simp only [List.mem_append, List.mem_cons, List.not_mem_nil, or_false, Prod.mk.injEq]
  cases h with
  | ground n => exact ⟨_, .inl (.inl ⟨groundSphere_fin.symm, rfl⟩)⟩
  | glass n => exact ⟨_, .inr (.inl ⟨glassSphere_fin.symm, rfl⟩)⟩
  | brown n => exact ⟨_, .inr (.inr (.inl ⟨dullSphere_fin.symm, rfl⟩))⟩
  | metal => exact ⟨_, .inr (.inr (.inr ⟨metalSphere_fin.symm, rfl⟩))⟩
  | small n a b ha hb hf hm =>
    refine ⟨smallMaterial (22 * (a + 11) + (b + 11)).toNat (D a b).ofReal,
      .inl (.inr (List.mem_filterMap.mpr ⟨(a, b), (mem_cells a b).mpr ⟨ha, hb⟩, ?_⟩))⟩
    dsimp only [Cell.ofReal]
    rw [smallSphere_fin, if_pos hf]
    rfl

end RenderSpheres

open RenderSpheres in
/-- C151: the scene of render_spheres.cpp consists of the ground, the three large balls and the small balls of all cells of a grid of 22 by 22
that are not near the metal ball, each with its own kind of material, and of nothing else. -/
theorem C151_contents [F.Exact] (D : ℤ → ℤ → Cell ℝ) (l : HittableList (Fl F) (Material (Fl F) (State (Fl F))))
    (hl : l = objects fun a b => (D a b).ofReal) :
    (∀ (k : ℕ) o, l.objects[k]? = some o → ∃ s m, l.materials[k]? = some m ∧ o = s.toHittable ∧ InRandomScene D s m) ∧
    l.materials.length = l.objects.length ∧
    ∀ s m, InRandomScene D s m → ∃ (k : ℕ) (m' : _), l.objects[k]? = some s.toHittable ∧ l.materials[k]? = some m' ∧
      InRandomScene D s m' := by
  subst hl
  rw [objects_eq]
  refine ⟨fun k o h => ?_, by simp [ofPairs], fun s m h => ?_⟩
  · simp only [ofPairs, List.getElem?_map, Option.map_eq_some_iff] at h ⊢
    obtain ⟨⟨s, m⟩, hk, rfl⟩ := h
    exact ⟨s, m, ⟨_, hk, rfl⟩, rfl, inScene_of_mem (List.mem_of_getElem? hk)⟩
  · obtain ⟨m', h'⟩ := mem_of_inScene h
    obtain ⟨k, hk⟩ := List.getElem?_of_mem h'
    exact ⟨k, m', by simp [ofPairs, hk], by simp [ofPairs, hk], inScene_of_mem h'⟩

/-- The ball that a cell loses is in one of the four cells around the metal ball. -/
theorem smallSphere_lost [F.Exact] (a b : ℤ) (x z : ℝ) (hx : 0 ≤ x ∧ x < 1) (hz : 0 ≤ z ∧ z < 1)
    (h : (smallSphere a b (fin x) (fin z) : Option (Sphere (Fl F))) = none) : (a = 3 ∨ a = 4) ∧ (b = -1 ∨ b = 0) := by
  rw [smallSphere_fin] at h
  split_ifs at h with hf
  rw [not_lt, Real.sqrt_le_left (by norm_num)] at hf
  have h1 : |(a : ℝ) + 9 / 10 * x - 4| ≤ 9 / 10 := abs_le_of_sq_le_sq (by nlinarith [sq_nonneg ((b : ℝ) + 9 / 10 * z)]) (by norm_num)
  have h2 : |(b : ℝ) + 9 / 10 * z| ≤ 9 / 10 := abs_le_of_sq_le_sq (by nlinarith [sq_nonneg ((a : ℝ) + 9 / 10 * x - 4)]) (by norm_num)
  rw [abs_le] at h1 h2
  have a1 : (2 : ℝ) < a := by linarith
  have a2 : (a : ℝ) < 5 := by linarith
  have b1 : (-2 : ℝ) < b := by linarith
  have b2 : (b : ℝ) < 1 := by linarith
  have a1' : 2 < a := by exact_mod_cast a1
  have a2' : a < 5 := by exact_mod_cast a2
  have b1' : -2 < b := by exact_mod_cast b1
  have b2' : b < 1 := by exact_mod_cast b2
  omega

open RenderSpheres in
/-- C151: whatever the random numbers, the scene has at least 484 and at most 488 balls: at most four small ones are left out. -/
theorem C151_count [F.Exact] (D : ℤ → ℤ → Cell ℝ) (hD : ∀ a b, (0 ≤ (D a b).x ∧ (D a b).x < 1) ∧ 0 ≤ (D a b).z ∧ (D a b).z < 1) :
    484 ≤ (objects fun a b => (D a b).ofReal (F := F)).objects.length ∧ (objects fun a b => (D a b).ofReal (F := F)).objects.length ≤ 488 := by
  obtain ⟨draws, hd⟩ : ∃ draws : ℤ → ℤ → Cell (Fl F), draws = fun a b => (D a b).ofReal := ⟨_, rfl⟩
  rw [← hd]
  rw [objects_eq]
  have e : (ofPairs (pairs draws)).objects.length = 4 + (smallPairs draws cells).length := by
    simp [ofPairs, pairs]; omega
  rw [e]
  have hlen : cells.length = 484 := by decide +kernel
  have h1 : (smallPairs draws cells).length ≤ 484 := hlen ▸ List.length_filterMap_le _ _
  have h2 : (smallPairs draws cells).length =
      cells.countP fun ab => (smallSphere ab.1 ab.2 (draws ab.1 ab.2).x (draws ab.1 ab.2).z).isSome := by
    unfold smallPairs
    rw [List.length_filterMap_eq_countP]
    congr 1
    funext ab
    simp
  have h3 := List.length_eq_countP_add_countP (l := cells)
    (fun ab => (smallSphere ab.1 ab.2 (draws ab.1 ab.2).x (draws ab.1 ab.2).z).isSome)
  have h4 : (cells.countP fun ab => decide ((ab.1 = 3 ∨ ab.1 = 4) ∧ (ab.2 = -1 ∨ ab.2 = 0))) = 4 := by decide +kernel
  have h5 := List.countP_mono_left (l := cells)
    (p := fun ab => decide (¬ (smallSphere ab.1 ab.2 (draws ab.1 ab.2).x (draws ab.1 ab.2).z).isSome = true))
    (q := fun ab => decide ((ab.1 = 3 ∨ ab.1 = 4) ∧ (ab.2 = -1 ∨ ab.2 = 0))) fun ab _ h => by
      rw [hd] at h
      simp only [decide_eq_true_eq, Option.not_isSome_iff_eq_none] at h ⊢
      exact smallSphere_lost (F := F) _ _ _ _ (hD _ _).1 (hD _ _).2 h
  omega

open RenderSpheres in
/-- C151: every small ball that is kept is seen from above: the ray down onto its centre ends at a point at least as high as its top, so it is
not lost in the ground. -/
theorem C151_seen [F.Exact] (D : ℤ → ℤ → Cell ℝ) (a b : ℤ) (ha : -11 ≤ a ∧ a < 11) (hb : -11 ≤ b ∧ b < 11)
    (far : 9 / 10 < Real.sqrt ((a + 9 / 10 * (D a b).x - 4) ^ 2 + (b + 9 / 10 * (D a b).z) ^ 2)) (h : ℝ) (hh : 3 ≤ h)
    (rec temp0 : HitRecord (Fl F)) (out : Option (Option (Material (Fl F) (State (Fl F)))) × HitRecord (Fl F))
    (hout : out = (objects fun a b => (D a b).ofReal).hit
      ⟨cv ![a + 9 / 10 * (D a b).x, h, b + 9 / 10 * (D a b).z], cv ![0, -1, 0]⟩ (fin 0) pinf rec temp0) :
    ∃ (m : _) (y : ℝ), out.1 = some (some m) ∧ out.2.p = cv ![a + 9 / 10 * (D a b).x, y, b + 9 / 10 * (D a b).z] ∧ 2 / 5 ≤ y := by
  obtain ⟨l, hl⟩ : ∃ l : List (Sphere (Fl F) × Material (Fl F) (State (Fl F))), l = pairs fun a b => (D a b).ofReal := ⟨_, rfl⟩
  obtain ⟨X, hX⟩ : ∃ X : ℝ, X = a + 9 / 10 * (D a b).x := ⟨_, rfl⟩
  obtain ⟨Z, hZ⟩ : ∃ Z : ℝ, Z = b + 9 / 10 * (D a b).z := ⟨_, rfl⟩
  have hin := InRandomScene.small (F := F) (D := D) 0 a b ha hb far (smallMaterial_ofReal 0 (D a b))
  rw [← hX, ← hZ] at hin hout ⊢
  rw [objects_eq, ← hl] at hout
  obtain ⟨m0, hm0⟩ := mem_of_inScene hin
  rw [← hl] at hm0
  obtain ⟨j, hj⟩ := List.getElem?_of_mem hm0
  have hreal : ∀ (k : ℕ) (s : Sphere (Fl F)) m, l[k]? = some (s, m) → ∃ c R, s = Sphere.ofReal c R ∧ c 1 ≤ 1 := by
    intro k s m hk
    have hk := inScene_of_mem (hl ▸ List.mem_of_getElem? hk)
    cases hk
    all_goals exact ⟨_, _, rfl, by norm_num⟩
  obtain ⟨S, hSdef⟩ : ∃ S : ℕ → Set (Fin 3 → ℝ), S = fun k => {p | ∃ c R m, l[k]? = some (Sphere.ofReal c R, m) ∧ p ∈ sphereSet c R} := ⟨_, rfl⟩
  have hS : ∀ (k : ℕ) ob, (ofPairs l).objects[k]? = some ob →
      FindsNearest (S k) ![X, h, Z] ![0, -1, 0] (fin 0) (ob.hit ⟨cv ![X, h, Z], cv ![0, -1, 0]⟩ (fin 0)) := by
    intro k ob hk
    simp only [ofPairs, List.getElem?_map, Option.map_eq_some_iff] at hk
    obtain ⟨⟨s, m⟩, hk, rfl⟩ := hk
    obtain ⟨c, R, rfl, hc⟩ := hreal k s m hk
    have : S k = sphereSet c R := by
      rw [hSdef]
      ext p
      constructor
      · rintro ⟨c', R', m', hk', hp⟩
        rw [hk] at hk'
        have h1 := (Prod.mk.inj (Option.some.inj hk')).1
        unfold Sphere.ofReal at h1
        obtain ⟨h2, h3⟩ := Sphere.mk.inj h1
        rw [cv_inj] at h2
        rw [fin_inj] at h3
        rw [h2, h3]; exact hp
      · exact fun hp => ⟨c, R, m, hk, hp⟩
    rw [this]
    have tv : F.tiny < 1 := Fmt.Exact.tiny_lt
    refine C46_nearest_partial c R _ _ _ (by simpa [dotProduct, Fin.sum_univ_three] using tv) (Or.inr ?_)
    have e : (![X, h, Z] - c) ⬝ᵥ ![0, -1, 0] = -(h - c 1) := by simp [dotProduct, Fin.sum_univ_three]
    rw [e, show 2 * -(h - c 1) = -(2 * (h - c 1)) by ring, abs_neg, abs_of_nonneg (by linarith)]
    linarith
  obtain ⟨h1, h2, h3⟩ := C106_scene (ofPairs l) (by simp [ofPairs]) S ![X, h, Z] ![0, -1, 0] (fin 0) pinf rfl rec temp0 hS
  rw [← hout] at h1 h2 h3
  have hjl : j < (ofPairs l).objects.length := by
    have := (List.getElem?_eq_some_iff.mp hj).1
    simpa [ofPairs] using this
  have hmeet : ![X, h, Z] + (h - 2 / 5) • ![0, -1, 0] ∈ S j := by
    rw [hSdef]
    refine ⟨_, _, m0, hj, ?_⟩
    simp only [sphereSet, Set.mem_ofPred_eq]
    simp
    norm_num
  have hbefore : Before (fin 0, (pinf : Fl F)) (h - 2 / 5) := ⟨by rw [le_fin, decide_eq_true_eq]; linarith, rfl⟩
  rcases ho : out.1 with _ | _ | m
  · exact absurd ho h3
  · exact absurd hmeet (h1.mp ho j hjl _ hbefore)
  · obtain ⟨k, z, -, -, hp, -, -, hmin⟩ := h2 m ho
    refine ⟨m, h - z, rfl, ?_, by linarith [hmin j hjl _ hbefore hmeet]⟩
    rw [hp, cv_inj]
    funext i
    fin_cases i
    · simp
    · simp; ring
    · simp

open RenderSpheres in
/-- All random numbers one half: the ball of the cell `(-11, 10)` is seen from the height 3. -/
example (rec temp0 : HitRecord (Fl exact64)) (c : Cell ℝ) (hc : c = ⟨1 / 2, 1 / 2, 1 / 2, fun _ => 1 / 2⟩)
    (out : Option (Option (Material (Fl exact64) (State (Fl exact64)))) × HitRecord (Fl exact64))
    (hout : out = (objects fun _ _ => c.ofReal).hit
      ⟨cv ![((-11 : ℤ) : ℝ) + 9 / 10 * c.x, 3, ((10 : ℤ) : ℝ) + 9 / 10 * c.z], cv ![0, -1, 0]⟩ (fin 0) pinf rec temp0) :
    484 ≤ (objects fun _ _ => c.ofReal (F := exact64)).objects.length ∧
    ∃ (m : _) (y : ℝ), out.1 = some (some m) ∧ out.2.p 1 = fin y ∧ 2 / 5 ≤ y := by
  subst hc
  refine ⟨(C151_count (F := exact64) (fun _ _ => _) fun _ _ => by norm_num).1, ?_⟩
  obtain ⟨m, y, h, hp, hy⟩ := C151_seen (F := exact64) (fun _ _ => ⟨1 / 2, 1 / 2, 1 / 2, fun _ => 1 / 2⟩) (-11) 10 (by norm_num) (by norm_num)
    (by rw [Real.lt_sqrt (by norm_num)]; norm_num) 3 le_rfl rec temp0 out hout
  exact ⟨m, y, h, by rw [hp]; rfl, hy⟩

end DRT
