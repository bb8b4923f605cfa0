import Verif.Props.Light
import Verif.Props.Box
import Verif.Props.Sphere

/-!
# C122: what a picture shows

Every pixel lies between the darkest and the brightest colour of the rays through its cell of the image plane. In a scene of lamps a ray has
the colour of the lamp it meets first.
-/

namespace DRT
open Scalar Fl Render Matrix

variable {F : Fmt} {S : Type}

/-- The byte a channel of brightness `c ≥ 0` should get: the square root of `c` on a scale of 255 steps, cut off at 255. -/
noncomputable def byteOf (c : ℝ) : ℕ := Min.min 255 ⌊255 * Real.sqrt c⌋₊

theorem byteOf_mono {a b : ℝ} (h : a ≤ b) : byteOf a ≤ byteOf b :=
  min_le_min le_rfl (Nat.floor_le_floor (mul_le_mul_of_nonneg_left (Real.sqrt_le_sqrt h) (by norm_num)))

/-- The parameters of the camera for the point of the image plane `x` cells from the left (or bottom) of `n`. -/
noncomputable def position (x : ℝ) (n : ℕ) : ℝ := x / (n - 1)

theorem coordinate_position [F.Exact] (k n : ℕ) (hn : 2 ≤ n) (x : ℝ) :
    coordinate k n (fin x : Fl F) = fin (position (k + x) n) := by
  have hn' : (2 : ℝ) ≤ n := by exact_mod_cast hn
  have hd : (n : ℝ) - 1 ≠ 0 := by linarith
  unfold coordinate position
  rw [lit_def, lit_def]
  simp only [Rat.cast_natCast, Rat.cast_sub, Rat.cast_one]
  rw [Fl.add_fin, div_fin _ hd]

/-- The ray of the camera through the point of the image plane `x` cells from the left and `y` cells from the bottom. -/
noncomputable def rayThrough (sc : Scene (Fl F) S) (x y : ℝ) : Ray (Fl F) :=
  sc.camera.getRay (fin (position x sc.width)) (fin (position y sc.height))

/-- C122: no pixel is darker than the darkest ray through its cell of the image plane, or brighter than the brightest, and the pixel of the
cell in column `i` from the left and row `j` from the bottom is the one in column `i` and row `H - 1 - j` from the top of the image. So if all
rays through the cell have one colour, the pixel has it. In exact arithmetic, for every order of the rows. -/
theorem C122_pixel [F.Exact] (sc : Scene (Fl F) S) (hn : 0 < sc.samples) (hW : 2 ≤ sc.width) (hH : 2 ≤ sc.height) {Inv : S → Prop}
    (dark bright : ℕ → ℕ → Fin 3 → ℝ) (h0 : ∀ i j k, 0 ≤ dark i j k)
    (hray : ∀ s i j x y, Inv s → i < sc.width → j < sc.height → (i : ℝ) ≤ x → x < i + 1 → (j : ℝ) ≤ y → y < j + 1 →
      ∃ c v, rayColor sc.world sc.background sc.rec0 8 s (rayThrough sc x y) = some c ∧ Inv c.state ∧ c.color = cv v ∧
        ∀ k, dark i j k ≤ v k ∧ v k ≤ bright i j k)
    (rows : List ℕ) (hrows : rows.Perm (List.range sc.height)) (s : S) (hs : Inv s) :
    ∃ img, image sc rows s = some img ∧ img.length = 4 * sc.width * sc.height ∧
      ∀ i j, i < sc.width → j < sc.height → ∀ k : Fin 3, ∃ b : UInt8, img[4 * (sc.width * (sc.height - 1 - j) + i) + k]? = some b ∧
        byteOf (dark i j k) ≤ b.toNat ∧ b.toNat ≤ byteOf (bright i j k) := by
  have hnr : (0 : ℝ) < sc.samples := by exact_mod_cast hn
  have htask : ∀ (i j : ℕ) (g : Pcg) (s : S), i < sc.width → j < sc.height → Inv s →
      ∃ p g' s', task sc i j (g, s) = some (p, g', s') ∧ Inv s' ∧
        ∀ k : Fin 3, byteOf (dark i j k) ≤ (p k.castSucc).toNat ∧ (p k.castSucc).toNat ≤ byteOf (bright i j k) := by
    intro i j g s hi hj h1
    have hloop : ∀ (m : ℕ) (c : Fin 3 → ℝ) (g : Pcg) (s : S), Inv s →
        ∃ c' g' s', sampleLoop sc i j m (cv c, g, s) = some (cv c', g', s') ∧ Inv s' ∧
          ∀ k, c k + m * dark i j k ≤ c' k ∧ c' k ≤ c k + m * bright i j k := by
      intro m
      induction m with
      | zero => exact fun c g s h1 => ⟨c, g, s, rfl, h1, fun k => by simp⟩
      | succ m ih =>
        intro c g s h1
        obtain ⟨x, hx, x0, x1⟩ := C36_range (F := F) g
        obtain ⟨y, hy, y0, y1⟩ := C36_range (F := F) (Pcg.real01 (R := Fl F) g).2
        obtain ⟨col, v, hcol, h2, h3, h4⟩ := hray s i j (i + x) (j + y) h1 hi hj (by linarith) (by linarith) (by linarith) (by linarith)
        obtain ⟨c', g', s', h5, h6, h7⟩ := ih (c + v) (Pcg.real01 (R := Fl F) (Pcg.real01 (R := Fl F) g).2).2 col.state h2
        refine ⟨c', g', s', ?_, h6, fun k => ?_⟩
        · rw [sampleLoop, sample]
          dsimp only
          rw [hx, hy, coordinate_position _ _ hW, coordinate_position _ _ hH]
          rw [show sc.camera.getRay (fin (position (i + x) sc.width)) (fin (position (j + y) sc.height)) = rayThrough sc (i + x) (j + y) from rfl,
            hcol]
          dsimp only
          rw [h3, cv_add]
          exact h5
        · have h8 := h7 k
          have h9 := h4 k
          simp only [Pi.add_apply] at h8
          push_cast
          constructor <;> linarith [h8.1, h8.2, h9.1, h9.2]
    obtain ⟨c, g', s', h2, h3, h4⟩ := hloop sc.samples 0 g s h1
    have h5 : ∀ k, dark i j k ≤ ((sc.samples : ℝ)⁻¹ • c) k ∧ ((sc.samples : ℝ)⁻¹ • c) k ≤ bright i j k := by
      intro k
      have h6 := h4 k
      simp only [Pi.zero_apply, zero_add] at h6
      simp only [Pi.smul_apply, smul_eq_mul]
      rw [inv_mul_eq_div, le_div_iff₀ hnr, div_le_iff₀ hnr]
      constructor <;> linarith [h6.1, h6.2]
    generalize hv : (sc.samples : ℝ)⁻¹ • c = v at h5
    have hval : ∀ k, ∃ b, channel (fin (v k) : Fl F) = some b ∧ b.toNat = byteOf (v k) :=
      fun k => C88_value _ ((h0 i j k).trans (h5 k).1)
    obtain ⟨p, hp, hp0, hp1, hp2, -⟩ := C88_pixel (F := F) (cv v) (fun k => by
      rw [cv_apply, le_fin]
      simpa using (h0 i j k).trans (h5 k).1)
    refine ⟨p, g', s', ?_, h3, fun k => ?_⟩
    · unfold task
      rw [cv_zero_vec, h2]
      dsimp only
      rw [lit_def, Rat.cast_natCast, cv_sdiv hnr.ne', hv, hp]
      rfl
    · have hk : (p k.castSucc).toNat = byteOf (v k) := by
        obtain ⟨b, hb, hb'⟩ := hval k
        have : channel (fin (v k) : Fl F) = some (p k.castSucc) := by
          fin_cases k
          · exact hp0
          · exact hp1
          · exact hp2
        rw [this] at hb
        rw [Option.some.inj hb, hb']
      rw [hk]
      exact ⟨byteOf_mono (h5 k).1, byteOf_mono (h5 k).2⟩
  have hrun : ∀ (ts : List (ℕ × ℕ)) (g : Pcg) (s : S), (∀ t ∈ ts, t.1 < sc.width ∧ t.2 < sc.height) → Inv s →
      ∃ l, run sc ts (g, s) = some l ∧ ∀ x ∈ l, ∀ k : Fin 3,
        byteOf (dark x.1.1 x.1.2 k) ≤ (x.2 k.castSucc).toNat ∧ (x.2 k.castSucc).toNat ≤ byteOf (bright x.1.1 x.1.2 k) := by
    intro ts
    induction ts with
    | nil => exact fun _ _ _ _ => ⟨[], rfl, fun x hx => by simp at hx⟩
    | cons t ts ih =>
      intro g s h1 h2
      obtain ⟨i, j⟩ := t
      obtain ⟨p, g', s', h3, h4, h5⟩ := htask i j g s (h1 _ List.mem_cons_self).1 (h1 _ List.mem_cons_self).2 h2
      obtain ⟨l, h6, h7⟩ := ih g' s' (fun t ht => h1 t (List.mem_cons_of_mem _ ht)) h4
      refine ⟨((i, j), p) :: l, ?_, fun x hx => ?_⟩
      · rw [run, h3]
        dsimp only
        rw [h6]
        rfl
      · rcases List.mem_cons.1 hx with rfl | hx
        · exact h5
        · exact h7 x hx
  obtain ⟨l, h1, h2⟩ := hrun (tasks sc.width rows) seed s (by
    rintro ⟨i, j⟩ ht
    rw [mem_tasks] at ht
    exact ⟨ht.1, List.mem_range.1 (hrows.mem_iff.1 ht.2)⟩) hs
  have h3 := (C83_pixels sc _ _ l h1).1
  obtain ⟨img, h4, h5, h6⟩ := C83_schedule sc.width sc.height l (by rw [h3]; exact tasks_perm hrows) _ (List.Perm.refl _)
  refine ⟨img, by rw [image, h1]; exact h4, h5, fun i j hi hj k => ?_⟩
  have hm : (i, j) ∈ l.map Prod.fst := by rw [h3, mem_tasks]; exact ⟨hi, hrows.mem_iff.2 (List.mem_range.2 hj)⟩
  obtain ⟨⟨⟨i', j'⟩, p⟩, hx, hxe⟩ := List.mem_map.1 hm
  obtain ⟨rfl, rfl⟩ : i' = i ∧ j' = j := by simpa using hxe
  exact ⟨p k.castSucc, (h6 i' j' p hx).2.2 k.castSucc, h2 _ hx k⟩

/-! ## Scenes of lamps -/

/-- There are `n` surfaces, `A k` with colour `e k`. Looking from `o` in direction `d` one sees the colour `c`: it is that of a surface which the ray
meets first, or that of the background if it meets none. What is nearer than `τ` times the direction is overlooked. -/
def Sees (n : ℕ) (A : ℕ → Set (Fin 3 → ℝ)) (e : ℕ → Fin 3 → ℝ) (bg : Fin 3 → ℝ) (τ : ℝ) (o d c : Fin 3 → ℝ) : Prop :=
  (∃ k < n, ∃ z, τ ≤ z ∧ o + z • d ∈ A k ∧ (∀ j < n, ∀ w, τ ≤ w → o + w • d ∈ A j → z ≤ w) ∧ c = e k) ∨
    ((∀ k < n, ∀ z, τ ≤ z → o + z • d ∉ A k) ∧ c = bg)

theorem offset_exact [F.Exact] : (1000 * Scalar.eps : Fl F) = fin (1000 * F.eps) := by
  rw [eps_def, ofNat_def, Fl.mul_fin]; simp

/-- C122: in a scene of lamps the colour of a ray is the one seen along it, for every depth but zero; the ray draws no random numbers and
asks the scene once. -/
theorem C122_seen [F.Exact] (l : HittableList (Fl F) (Material (Fl F) S)) (hal : l.materials.length = l.objects.length) (e : ℕ → Fin 3 → ℝ)
    (hlamp : ∀ k m, l.materials[k]? = some m → m = Material.diffuseLight (solidColor (cv (e k)))) (bg : Fin 3 → ℝ) (A : ℕ → Set (Fin 3 → ℝ))
    (o d : Fin 3 → ℝ) (hA : ∀ k ob, l.objects[k]? = some ob → FindsNearest (A k) o d (fin (1000 * F.eps)) (ob.hit ⟨cv o, cv d⟩ (fin (1000 * F.eps))))
    (rec0 temp0 : HitRecord (Fl F)) (depth : ℕ) (s : S) : ∃ c, Sees l.objects.length A e bg (1000 * F.eps) o d c ∧
      rayColor (l.world temp0) (cv bg) rec0 (depth + 1) s ⟨cv o, cv d⟩ = some ⟨cv c, s, 1⟩ := by
  obtain ⟨h1, h2, h3⟩ := C106_scene l hal A o d (fin (1000 * F.eps)) pinf rfl rec0 temp0 hA
  have hB : ∀ z, Before ((fin (1000 * F.eps) : Fl F), pinf) z ↔ 1000 * F.eps ≤ z := by
    intro z
    unfold Before
    rw [le_fin]
    simp only [decide_eq_true_eq]
    exact and_iff_left rfl
  simp only [hB] at h1 h2
  rw [rayColor, offset_exact]
  unfold HittableList.world
  rw [show (Scalar.inf : Fl F) = pinf from rfl]
  cases hh : (l.hit ⟨cv o, cv d⟩ (fin (1000 * F.eps)) pinf rec0 temp0).1 with
  | none => exact absurd hh h3
  | some x =>
    cases x with
    | none => exact ⟨bg, Or.inr ⟨h1.1 hh, rfl⟩, rfl⟩
    | some m =>
      obtain ⟨k, z, hk, -, -, hz, hzt, hmin⟩ := h2 m hh
      have hk' : k < l.objects.length := hal ▸ (List.getElem?_eq_some_iff.1 hk).1
      refine ⟨e k, Or.inl ⟨k, hk', z, hzt, hz, hmin, rfl⟩, ?_⟩
      rw [hlamp k m hk]
      rfl

/-- C122: the picture of a scene of lamps. Every byte lies between the darkest and the brightest colour seen through the cell of the
pixel; where only one colour is seen the pixel has it. -/
theorem C122_lamps [F.Exact] (l : HittableList (Fl F) (Material (Fl F) S)) (hal : l.materials.length = l.objects.length) (e : ℕ → Fin 3 → ℝ)
    (hlamp : ∀ k m, l.materials[k]? = some m → m = Material.diffuseLight (solidColor (cv (e k)))) (bg : Fin 3 → ℝ) (A : ℕ → Set (Fin 3 → ℝ))
    (o : Fin 3 → ℝ) (dir : ℝ → ℝ → Fin 3 → ℝ)
    (hA : ∀ u v k ob, l.objects[k]? = some ob →
      FindsNearest (A k) o (dir u v) (fin (1000 * F.eps)) (ob.hit ⟨cv o, cv (dir u v)⟩ (fin (1000 * F.eps))))
    (rec0 temp0 : HitRecord (Fl F)) (cam : Camera (Fl F)) (hcam : ∀ u v, cam.getRay (fin u) (fin v) = ⟨cv o, cv (dir u v)⟩)
    (W H n : ℕ) (hn : 0 < n) (hW : 2 ≤ W) (hH : 2 ≤ H) (dark bright : ℕ → ℕ → Fin 3 → ℝ) (h0 : ∀ i j k, 0 ≤ dark i j k)
    (hsee : ∀ i j x y c, i < W → j < H → (i : ℝ) ≤ x → x < i + 1 → (j : ℝ) ≤ y → y < j + 1 →
      Sees l.objects.length A e bg (1000 * F.eps) o (dir (position x W) (position y H)) c → ∀ k, dark i j k ≤ c k ∧ c k ≤ bright i j k)
    (rows : List ℕ) (hrows : rows.Perm (List.range H)) (s : S) :
    ∃ img, image ⟨W, H, cv bg, cam, l.world temp0, n, rec0⟩ rows s = some img ∧ img.length = 4 * W * H ∧
      ∀ i j, i < W → j < H → ∀ k : Fin 3, ∃ b : UInt8, img[4 * (W * (H - 1 - j) + i) + k]? = some b ∧
        byteOf (dark i j k) ≤ b.toNat ∧ b.toNat ≤ byteOf (bright i j k) := by
  refine C122_pixel ⟨W, H, cv bg, cam, l.world temp0, n, rec0⟩ hn hW hH (Inv := fun _ => True) dark bright h0 ?_ rows hrows s trivial
  intro s i j x y _ hi hj hx hx' hy hy'
  obtain ⟨c, hc, h⟩ := C122_seen l hal e hlamp bg A o (dir (position x W) (position y H)) (hA _ _) rec0 temp0 7 s
  refine ⟨⟨cv c, s, 1⟩, c, ?_, trivial, rfl, hsee i j x y c hi hj hx hx' hy hy' hc⟩
  rw [rayThrough]
  dsimp only
  rw [hcam]
  exact h

/-- C122: the picture of an empty scene is the background, in every pixel and whatever the camera. -/
theorem C122_empty [F.Exact] (rec0 temp0 : HitRecord (Fl F)) (cam : Camera (Fl F)) (bg : Fin 3 → ℝ) (h0 : ∀ k, 0 ≤ bg k)
    (W H n : ℕ) (hn : 0 < n) (hW : 2 ≤ W) (hH : 2 ≤ H) (rows : List ℕ) (hrows : rows.Perm (List.range H)) (s : S) :
    ∃ img, image ⟨W, H, cv bg, cam, (HittableList.empty : HittableList (Fl F) (Material (Fl F) S)).world temp0, n, rec0⟩ rows s = some img ∧
      img.length = 4 * W * H ∧ ∀ p < W * H, ∀ k : Fin 3, ∃ b : UInt8, img[4 * p + k]? = some b ∧ b.toNat = byteOf (bg k) := by
  obtain ⟨img, h1, h2, h3⟩ := C122_pixel ⟨W, H, cv bg, cam, (HittableList.empty : HittableList (Fl F) (Material (Fl F) S)).world temp0, n, rec0⟩
    hn hW hH (Inv := fun _ => True) (fun _ _ => bg) (fun _ _ => bg) (fun _ _ => h0)
    (fun s i j x y _ _ _ _ _ _ _ => ⟨⟨cv bg, s, 1⟩, bg, rfl, trivial, rfl, fun k => ⟨le_rfl, le_rfl⟩⟩) rows hrows s trivial
  refine ⟨img, h1, h2, fun p hp k => ?_⟩
  have hW0 : 0 < W := by omega
  have hq : p / W < H := (Nat.div_lt_iff_lt_mul hW0).2 (by rwa [mul_comm])
  have e1 : H - 1 - p / W < H := by clear * - hq; generalize p / W = q at *; omega
  have e2 : H - 1 - (H - 1 - p / W) = p / W := by clear * - hq; generalize p / W = q at *; omega
  obtain ⟨b, hb, hb1, hb2⟩ := h3 (p % W) (H - 1 - p / W) (Nat.mod_lt _ hW0) e1 k
  dsimp only at hb
  rw [e2, Nat.div_add_mod] at hb
  exact ⟨b, hb, le_antisymm hb2 hb1⟩

theorem byteOf_zero : byteOf 0 = 0 := by simp [byteOf]

theorem byteOf_one : byteOf 1 = 255 := by simp [byteOf]

theorem byteOf_quarter : byteOf (1 / 4) = 127 := by
  rw [byteOf, show Real.sqrt (1 / 4) = 1 / 2 by rw [show (1 / 4 : ℝ) = (1 / 2) ^ 2 by norm_num, Real.sqrt_sq (by norm_num)],
    show ⌊(255 : ℝ) * (1 / 2)⌋₊ = 127 by rw [Nat.floor_eq_iff (by norm_num)]; norm_num]
  rfl

/-- A blue screen, whatever the camera. -/
example (rec0 temp0 : HitRecord (Fl exact64)) (cam : Camera (Fl exact64)) : ∃ img,
    image ⟨640, 480, cv ![0, 0, 1], cam, (HittableList.empty : HittableList (Fl exact64) (Material (Fl exact64) Pcg)).world temp0, 4, rec0⟩
      (List.range 480).reverse seed = some img ∧ img.length = 1228800 ∧ ∀ p < 307200, ∃ b : UInt8, img[4 * p + 2]? = some b ∧ b.toNat = 255 := by
  obtain ⟨img, h1, h2, h3⟩ := C122_empty (F := exact64) (S := Pcg) rec0 temp0 cam ![0, 0, 1] (fun k => by fin_cases k <;> simp) 640 480 4
    (by norm_num) (by norm_num) (by norm_num) _ (List.reverse_perm _) seed
  refine ⟨img, h1, h2, fun p hp => ?_⟩
  obtain ⟨b, hb, hb'⟩ := h3 p hp 2
  exact ⟨b, hb, hb'.trans byteOf_one⟩

theorem ball_iff (x y z : ℝ) : (![0, 0, 1] : Fin 3 → ℝ) + z • ![x, y, -1] ∈ sphereSet ![0, 0, -1] (6 / 5) ↔
    z ^ 2 * (1 + (x ^ 2 + y ^ 2)) - 4 * z + 64 / 25 = 0 := by
  simp only [sphereSet, Set.mem_ofPred_eq, Pi.add_apply, Pi.smul_apply, smul_eq_mul, cons_val_zero, cons_val_one, cons_val]
  constructor <;> intro h <;> linarith

theorem ball_met {q : ℝ} (h0 : 0 ≤ q) (h1 : q ≤ 1 / 2) : ∃ z : ℝ, 1 / 2 ≤ z ∧ z ^ 2 * (1 + q) - 4 * z + 64 / 25 = 0 := by
  have hr : 0 ≤ 4 - (1 + q) * (64 / 25) := by linarith
  have hs := Real.sq_sqrt hr
  have hn := Real.sqrt_nonneg (4 - (1 + q) * (64 / 25))
  generalize Real.sqrt (4 - (1 + q) * (64 / 25)) = r at hs hn
  have hq : 1 + q ≠ 0 := by linarith
  refine ⟨(2 + r) / (1 + q), ?_, ?_⟩
  · rw [le_div_iff₀ (by linarith)]
    linarith
  · field_simp
    nlinarith

/-- A glowing ball of radius 6/5 two steps ahead, in five by five pixels: the four pixels in the columns 1, 2 and rows 1, 2 have its colour, and the
pixels of the last column have that of the background. -/
example (rec0 temp0 : HitRecord (Fl exact64)) : ∃ img,
    image ⟨5, 5, cv ![0, 0, 1], Camera.make (cv ![0, 0, 1]) (cv 0) (cv ![0, 1, 0]) (fin 90) (fin 1),
      (HittableList.add HittableList.empty (Sphere.ofReal ![0, 0, -1] (6 / 5)).toHittable
        (Material.diffuseLight (solidColor (cv ![1, 1 / 4, 0])))).world temp0, 16, rec0⟩ [3, 1, 4, 0, 2] () = some img ∧
    (∀ i j, (i = 1 ∨ i = 2) → (j = 1 ∨ j = 2) → img[4 * (5 * (4 - j) + i) + 0]? = some 255 ∧ img[4 * (5 * (4 - j) + i) + 1]? = some 127 ∧
      img[4 * (5 * (4 - j) + i) + 2]? = some 0) ∧
    ∀ j < 5, img[4 * (5 * (4 - j) + 4) + 0]? = some 0 ∧ img[4 * (5 * (4 - j) + 4) + 1]? = some 0 ∧ img[4 * (5 * (4 - j) + 4) + 2]? = some 255 := by
  classical
  obtain ⟨lo, hlo⟩ : ∃ lo : ℕ → ℕ → Fin 3 → ℝ, lo = fun i j => if (i = 1 ∨ i = 2) ∧ (j = 1 ∨ j = 2) then ![1, 1 / 4, 0] else
    if i = 4 then ![0, 0, 1] else 0 := ⟨_, rfl⟩
  obtain ⟨hi, hhi⟩ : ∃ hi : ℕ → ℕ → Fin 3 → ℝ, hi = fun i j => if (i = 1 ∨ i = 2) ∧ (j = 1 ∨ j = 2) then ![1, 1 / 4, 0] else
    if i = 4 then ![0, 0, 1] else 1 := ⟨_, rfl⟩
  have heps : (1000 : ℝ) * exact64.eps ≤ 1 / 2 := by simp only [exact64]; norm_num
  obtain ⟨img, h1, -, h2⟩ := C122_lamps (F := exact64) (HittableList.add HittableList.empty (Sphere.ofReal ![0, 0, -1] (6 / 5)).toHittable
      (Material.diffuseLight (S := Unit) (solidColor (cv ![1, 1 / 4, 0])))) rfl (fun _ => ![1, 1 / 4, 0]) (by
      intro k m hk
      simp only [HittableList.add, HittableList.empty, List.nil_append, List.getElem?_singleton] at hk
      split at hk
      · exact (Option.some.inj hk).symm
      · cases hk) ![0, 0, 1] (fun _ => sphereSet ![0, 0, -1] (6 / 5)) ![0, 0, 1] (fun u v => ![2 * u - 1, 2 * v - 1, -1]) (by
      intro u v k ob hk
      simp only [HittableList.add, HittableList.empty, List.nil_append, List.getElem?_singleton] at hk
      split at hk
      · obtain rfl := Option.some.inj hk
        refine C46_nearest_partial _ _ _ _ _ (lt_of_lt_of_le Fmt.Exact.tiny_lt ?_) (Or.inr (lt_of_lt_of_le Fmt.Exact.tiny_lt ?_))
        · simp [dotProduct, Fin.sum_univ_three]
          nlinarith [sq_nonneg (2 * u - 1), sq_nonneg (2 * v - 1)]
        · simp [dotProduct, Fin.sum_univ_three]
          norm_num
      · cases hk) rec0 temp0 _ cameraExample 5 5 16 (by norm_num) (by norm_num) (by norm_num) lo hi (by
      intro i j k
      rw [hlo]
      dsimp only
      split
      · fin_cases k <;> simp
      · split
        · fin_cases k <;> simp
        · simp) (by
      intro i j x y c hi' hj' x0 x1 y0 y1 hs
      have px : position x 5 = x / 4 := by unfold position; norm_num
      have py : position y 5 = y / 4 := by unfold position; norm_num
      rw [px, py] at hs
      obtain ⟨a, ha⟩ : ∃ a, a = 2 * (x / 4) - 1 := ⟨_, rfl⟩
      obtain ⟨b, hb⟩ : ∃ b, b = 2 * (y / 4) - 1 := ⟨_, rfl⟩
      rw [← ha, ← hb] at hs
      rw [hlo, hhi]
      dsimp only
      split
      · rename_i hij
        -- all rays meet the ball
        have hx : a ^ 2 + b ^ 2 ≤ 1 / 2 := by
          have a1 : -(1 / 2) ≤ a ∧ a ≤ 1 / 2 := by
            rcases hij.1 with rfl | rfl <;> push_cast at x0 x1 <;> constructor <;> linarith
          have b1 : -(1 / 2) ≤ b ∧ b ≤ 1 / 2 := by
            rcases hij.2 with rfl | rfl <;> push_cast at y0 y1 <;> constructor <;> linarith
          nlinarith [a1.1, a1.2, b1.1, b1.2]
        rcases hs with ⟨k, -, z, -, -, -, rfl⟩ | ⟨h, -⟩
        · exact fun k => ⟨le_rfl, le_rfl⟩
        · exfalso
          obtain ⟨z, hz, hz'⟩ := ball_met (q := a ^ 2 + b ^ 2) (by positivity) hx
          exact h 0 Nat.one_pos z (heps.trans hz) ((ball_iff _ _ _).2 hz')
      · split
        · rename_i hi4
          subst hi4
          have a1 : 1 ≤ a := by push_cast at x0; linarith
          rcases hs with ⟨k, -, z, -, h, -⟩ | ⟨-, rfl⟩
          · exfalso
            rw [ball_iff] at h
            nlinarith [sq_nonneg b, sq_nonneg (z * b), sq_nonneg (z - 1), mul_nonneg (sq_nonneg z) (show 0 ≤ a ^ 2 - 1 by nlinarith)]
          · exact fun k => ⟨le_rfl, le_rfl⟩
        · rcases hs with ⟨k, -, z, -, -, -, rfl⟩ | ⟨-, rfl⟩
          · intro k; fin_cases k <;> norm_num
          · intro k; fin_cases k <;> norm_num) [3, 1, 4, 0, 2] (by decide) ()
  have hb : ∀ (i j : ℕ) (k : Fin 3) (n : UInt8), i < 5 → j < 5 → byteOf (lo i j k) = n.toNat → byteOf (hi i j k) = n.toNat →
      img[4 * (5 * (4 - j) + i) + k]? = some n := by
    intro i j k n hi' hj' e1 e2
    obtain ⟨b, hb, hb1, hb2⟩ := h2 i j hi' hj' k
    rw [e1] at hb1
    rw [e2] at hb2
    rw [← UInt8.toNat_inj.1 (le_antisymm hb2 hb1)]
    exact hb
  refine ⟨img, h1, fun i j hi' hj' => ?_, fun j hj => ?_⟩
  · have hi5 : i < 5 := by omega
    have hj5 : j < 5 := by omega
    have e1 : lo i j = ![1, 1 / 4, 0] := by rw [hlo]; exact if_pos ⟨hi', hj'⟩
    have e2 : hi i j = ![1, 1 / 4, 0] := by rw [hhi]; exact if_pos ⟨hi', hj'⟩
    exact ⟨hb i j 0 255 hi5 hj5 (by rw [e1]; exact byteOf_one) (by rw [e2]; exact byteOf_one),
      hb i j 1 127 hi5 hj5 (by rw [e1]; exact byteOf_quarter) (by rw [e2]; exact byteOf_quarter),
      hb i j 2 0 hi5 hj5 (by rw [e1]; exact byteOf_zero) (by rw [e2]; exact byteOf_zero)⟩
  · have e1 : lo 4 j = ![0, 0, 1] := by rw [hlo]; rfl
    have e2 : hi 4 j = ![0, 0, 1] := by rw [hhi]; rfl
    exact ⟨hb 4 j 0 0 (by norm_num) hj (by rw [e1]; exact byteOf_zero) (by rw [e2]; exact byteOf_zero),
      hb 4 j 1 0 (by norm_num) hj (by rw [e1]; exact byteOf_zero) (by rw [e2]; exact byteOf_zero),
      hb 4 j 2 255 (by norm_num) hj (by rw [e1]; exact byteOf_one) (by rw [e2]; exact byteOf_one)⟩

end DRT
