import Verif.Lemmas.NotInf
import Verif.Model.Programs
import Verif.Props.Camera
import Verif.Props.Pcg
import Verif.Props.Png
import Verif.Props.RayColor
import Verif.Props.RenderStores
import Verif.Props.SceneColors

/-! # C120: the example programs come to an end with a complete image -/

namespace DRT
open Scalar Fl Render

variable {F : Fmt} {S : Type}

/-! ## Scenes in general -/

/-- The scene is sound for random states that satisfy `Inv` and rays that satisfy `Good`: every query comes back, with a hit whose
material comes back; a material that scatters emits nothing, attenuates by factors in `[0,1]` and sends on a good ray; one that
does not scatter emits at most `L`. The random state keeps its property. -/
def Sound (world : World (Fl F) S) (rec0 : HitRecord (Fl F)) (Inv : S → Prop) (Good : Ray (Fl F) → Prop) (L : ℝ) : Prop :=
  ∀ s r, Inv s → Good r → ∃ m rec s', world s r (1000 * eps) inf rec0 = some (m, rec, s') ∧ Inv s' ∧
    ∀ mat, m = some mat → ∃ sc s'', mat.scatter s' r rec = some (sc, s'') ∧ Inv s'' ∧
      (sc.ok = true → ∃ a q, sc.attenuation = some a ∧ sc.ray = some q ∧ ColorIn 1 a ∧ Good q ∧ mat.emitted rec = cv 0) ∧
      (sc.ok = false → ColorIn L (mat.emitted rec))

theorem cv_zero_vec [F.Rounding] : (![0, 0, 0] : Vec (Fl F) 3) = cv 0 := by
  funext i; fin_cases i <;> exact rzero

theorem Sound.color [F.Rounding] {world : World (Fl F) S} {rec0 : HitRecord (Fl F)} {Inv : S → Prop} {Good : Ray (Fl F) → Prop} {L : ℝ}
    (hs : Sound world rec0 Inv Good L) (hL : 0 ≤ L) (hr : rnd F L = fin L) {bg : Vec (Fl F) 3} (hb : ColorIn L bg) (depth : ℕ) (s : S)
    (r : Ray (Fl F)) (h1 : Inv s) (h2 : Good r) : ∃ c, rayColor world bg rec0 depth s r = some c ∧ Inv c.state ∧ ColorIn L c.color := by
  induction depth generalizing s r with
  | zero => exact ⟨_, rfl, h1, 0, cv_zero_vec, fun i => ⟨le_rfl, hL⟩⟩
  | succ d ih =>
    rw [rayColor]
    obtain ⟨m, rec, s', hq, h3, hm⟩ := hs s r h1 h2
    rw [hq]
    cases m with
    | none => exact ⟨_, rfl, h3, hb⟩
    | some mat =>
      obtain ⟨sc, s'', hsc, h4, h5, h6⟩ := hm mat rfl
      simp only [hsc]
      cases hok : sc.ok with
      | false => exact ⟨_, rfl, h4, h6 hok⟩
      | true =>
        obtain ⟨a, q, ha, hq', ⟨y, rfl, hy⟩, hg, he⟩ := h5 hok
        obtain ⟨c, hc, h7, x, hx, hx'⟩ := ih s'' q h4 hg
        simp only [ha, hq', hc, he, if_true]
        have key : ∀ i, ∃ z, 0 ≤ z ∧ z ≤ L ∧ (fin 0 : Fl F) + fin (x i) * fin (y i) = fin z := by
          intro i
          obtain ⟨w, hw, w0, w1⟩ := rnd_between (F := F) (a := 0) (b := L) (x := x i * y i) rnd_zero hr
            (mul_nonneg (hx' i).1 (hy i).1) (by nlinarith [hx' i, hy i])
          obtain ⟨z, hz, z0, z1⟩ := rnd_between (F := F) (a := 0) (b := L) (x := 0 + w) rnd_zero hr (by linarith) (by linarith)
          exact ⟨z, z0, z1, by rw [show (fin (x i) : Fl F) * fin (y i) = rnd F (x i * y i) from rfl, hw]; exact hz⟩
        choose z z0 z1 hz using key
        exact ⟨_, rfl, h7, z, by funext i; show (cv 0 : Vec (Fl F) 3) i + c.color i * (cv y : Vec (Fl F) 3) i = _; rw [hx]; exact hz i,
          fun i => ⟨z0 i, z1 i⟩⟩

/-- Every component is at least 0, possibly infinite. -/
def Bright (c : Vec (Fl F) 3) : Prop := ∀ i, Scalar.le (fin 0) (c i) = true

theorem Bright.add [F.Rounding] {a b : Vec (Fl F) 3} (ha : Bright a) (hb : ColorIn L b) : Bright (a + b) := by
  obtain ⟨x, rfl, hx⟩ := hb
  intro i
  have h := ha i
  show Scalar.le (fin 0) (a i + fin (x i)) = true
  cases hy : a i with
  | nan => rw [hy] at h; cases h
  | ninf => rw [hy] at h; cases h
  | fin y =>
    rw [hy, le_fin, decide_eq_true_eq] at h
    exact rnd_nonneg (add_nonneg h (hx i).1)
  | pinf => rfl

theorem Bright.div [F.Rounding] {a : Vec (Fl F) 3} (ha : Bright a) {n : ℝ} (hn : 0 < n) : Bright (a /. fin n) := by
  intro i
  have h := ha i
  show Scalar.le (fin 0) (a i / fin n) = true
  cases hy : a i with
  | nan => rw [hy] at h; cases h
  | ninf => rw [hy] at h; cases h
  | fin y =>
    rw [hy, le_fin, decide_eq_true_eq] at h
    rw [div_rounded _ hn.ne']
    exact rnd_nonneg (div_nonneg h hn.le)
  | pinf =>
    have : (pinf : Fl F) / fin n = pinf := by
      show (if n = 0 then _ else Fl.infOf (F := F) n) = _
      rw [if_neg hn.ne']
      exact if_pos hn
    rw [this]; rfl

/-- C120: whenever the scene is sound and the rays of the camera are good, the program computes all pixels, in whatever order the rows
are run: the image has four bytes for every pixel, and every pixel is opaque. -/
theorem C120_image [F.Rounding] (sc : Scene (Fl F) S) {Inv : S → Prop} {Good : Ray (Fl F) → Prop} {L : ℝ}
    (hs : Sound sc.world sc.rec0 Inv Good L) (hL : 0 ≤ L) (hr : rnd F L = fin L) (hb : ColorIn L sc.background)
    (hc : ∀ (i j : ℕ) (g : Pcg), i < sc.width → j < sc.height →
      Good (sc.camera.getRay (coordinate i sc.width (Pcg.real01 g).1) (coordinate j sc.height (Pcg.real01 (Pcg.real01 (R := Fl F) g).2).1)))
    (n : ℝ) (hn : 0 < n) (hn' : (lit (sc.samples : ℚ) : Fl F) = fin n) (rows : List ℕ) (hrows : rows.Perm (List.range sc.height)) (s : S)
    (hi : Inv s) : ∃ img, image sc rows s = some img ∧ img.length = 4 * sc.width * sc.height ∧
      ∀ p, p < sc.width * sc.height → img[4 * p + 3]? = some 255 := by
  refine C83_image sc rows hrows s ?_
  have htask : ∀ (i j : ℕ) (g : Pcg) (s : S), i < sc.width → j < sc.height → Inv s →
      ∃ p g' s', task sc i j (g, s) = some (p, g', s') ∧ Inv s' := by
    intro i j g s hi hj h1
    have hloop : ∀ (m : ℕ) (c : Vec (Fl F) 3) (g : Pcg) (s : S), Bright c → Inv s →
        ∃ c' g' s', sampleLoop sc i j m (c, g, s) = some (c', g', s') ∧ Bright c' ∧ Inv s' := by
      intro m
      induction m with
      | zero => exact fun c g s h1 h2 => ⟨c, g, s, rfl, h1, h2⟩
      | succ m ih =>
        intro c g s h1 h2
        obtain ⟨col, hcol, h3, h4⟩ := hs.color hL hr hb 8 s _ h2 (hc i j g hi hj)
        obtain ⟨c', g', s', h5, h6⟩ := ih (c + col.color) (Pcg.real01 (R := Fl F) (Pcg.real01 (R := Fl F) g).2).2 col.state (h1.add h4) h3
        refine ⟨c', g', s', ?_, h6⟩
        rw [sampleLoop, sample]
        dsimp only
        rw [hcol]
        exact h5
    obtain ⟨c, g', s', h2, h3, h4⟩ := hloop sc.samples ![0, 0, 0] g s (fun i => by rw [cv_zero_vec, cv_apply, le_fin]; simp) h1
    obtain ⟨p, hp, -⟩ := C88_pixel _ (h3.div hn)
    refine ⟨p, g', s', ?_, h4⟩
    unfold task
    rw [h2]
    dsimp only
    rw [hn', hp]
    rfl
  have hrun : ∀ (ts : List (ℕ × ℕ)) (g : Pcg) (s : S), (∀ t ∈ ts, t.1 < sc.width ∧ t.2 < sc.height) → Inv s →
      (run sc ts (g, s)).isSome = true := by
    intro ts
    induction ts with
    | nil => exact fun _ _ _ _ => rfl
    | cons t ts ih =>
      intro g s h1 h2
      obtain ⟨i, j⟩ := t
      obtain ⟨p, g', s', h3, h4⟩ := htask i j g s (h1 _ List.mem_cons_self).1 (h1 _ List.mem_cons_self).2 h2
      have := ih g' s' (fun t ht => h1 t (List.mem_cons_of_mem _ ht)) h4
      rw [run, h3]
      simpa using this
  refine hrun _ _ _ ?_ hi
  rintro ⟨i, j⟩ ht
  rw [mem_tasks] at ht
  exact ⟨ht.1, List.mem_range.1 (hrows.mem_iff.1 ht.2)⟩

/-! ## Materials whose colour does not depend on the point -/

/-- The material is fine at every hit: it comes back; if it scatters, it emits nothing and attenuates by factors in `[0,1]`; if not, it
emits at most `L`. -/
def Fine (Inv : S → Prop) (L : ℝ) (m : Material (Fl F) S) : Prop :=
  ∀ s r rec, Inv s → ∃ sc s', m.scatter s r rec = some (sc, s') ∧ Inv s' ∧
    (sc.ok = true → ∃ a q, sc.attenuation = some a ∧ sc.ray = some q ∧ ColorIn 1 a ∧ m.emitted rec = cv 0) ∧
    (sc.ok = false → ColorIn L (m.emitted rec))

theorem fine_lambertian [F.Rounding] (hq : ExactQuarters F) {Inv : S → Prop} {L : ℝ} {albedo : Texture (Fl F)} (ha : ∀ rec, ColorIn 1 (albedo rec))
    {get : S → Pcg} {set : Pcg → S → S} (h1 : ∀ s, Inv s → (get s).inc = 234121#64)
    (h2 : ∀ s g, Inv s → g.inc = 234121#64 → Inv (set g s)) : Fine Inv L (Material.lambertian albedo get set) := by
  intro s r rec hi
  obtain ⟨out, ho⟩ := C75_terminates hq (get s) (h1 s hi)
  have hinc : out.2.inc = 234121#64 := by
    obtain ⟨k, hk, -⟩ := C75_first_accepted _ _ _ ho
    rw [hk, Pcg.inc_iterate, h1 s hi]
  have hh : Lambertian.randomInHemisphere (2 ^ 64) (get s) rec.normal =
      some (if gt (Vec.dot out.1 rec.normal) 0 then out.1 else -out.1, out.2) := by
    unfold Lambertian.randomInHemisphere
    rw [ho]
  obtain ⟨sc, hsc⟩ : ∃ sc, Lambertian.scatter albedo (2 ^ 64) (get s) r rec = some (sc, out.2) := by
    unfold Lambertian.scatter
    rw [hh]
    exact ⟨_, rfl⟩
  obtain ⟨h3, h4, d, h5⟩ := C74_always _ _ _ _ _ _ _ hsc
  refine ⟨sc, set out.2 s, ?_, h2 s _ hi hinc, fun _ => ⟨_, _, h4, h5, ha rec, cv_zero_vec⟩, fun h => ?_⟩
  · simp only [Material.lambertian, hsc, Option.map_some]
  · rw [h3] at h; cases h

theorem fine_metal [F.Rounding] {Inv : S → Prop} {L : ℝ} (hL : 0 ≤ L) {albedo : Texture (Fl F)} (ha : ∀ rec, ColorIn 1 (albedo rec)) :
    Fine Inv L (Material.metal albedo) := by
  intro s r rec hi
  refine ⟨_, s, rfl, hi, fun _ => ⟨_, _, rfl, rfl, ha rec, cv_zero_vec⟩, fun _ => ⟨0, cv_zero_vec, fun _ => ⟨le_rfl, hL⟩⟩⟩

theorem fine_isotropic [F.Rounding] {Inv : S → Prop} {L : ℝ} {albedo : Texture (Fl F)} (ha : ∀ rec, ColorIn 1 (albedo rec))
    {draw : S → Vec (Fl F) 3 × S} (hd : ∀ s, Inv s → Inv (draw s).2) : Fine Inv L (Material.isotropic albedo draw) := by
  intro s r rec hi
  refine ⟨_, _, rfl, hd s hi, fun _ => ⟨_, _, rfl, rfl, ha rec, cv_zero_vec⟩, fun h => ?_⟩
  cases h

theorem fine_dielectric [F.Rounding] {Inv : S → Prop} {L : ℝ} (ir : Fl F) {draw : S → Fl F × S} (hd : ∀ s, Inv s → Inv (draw s).2) :
    Fine Inv L (Material.dielectric ir blackTexture draw) := by
  intro s r rec hi
  refine ⟨_, _, rfl, hd s hi, fun _ => ⟨_, _, rfl, rfl, ⟨1, ?_, fun i => ⟨zero_le_one, le_rfl⟩⟩, cv_zero_vec⟩, fun h => ?_⟩
  · funext i; fin_cases i <;> exact rone
  · cases h

theorem fine_light {Inv : S → Prop} {L : ℝ} {emit : Texture (Fl F)} (he : ∀ rec, ColorIn L (emit rec)) :
    Fine Inv L (Material.diffuseLight emit) := by
  intro s r rec hi
  refine ⟨_, s, rfl, hi, fun h => ?_, fun _ => he rec⟩
  cases h

theorem HittableList.sound {l : HittableList (Fl F) (Material (Fl F) S)} (hlen : l.materials.length = l.objects.length)
    {Inv : S → Prop} {L : ℝ} (hm : ∀ m ∈ l.materials, Fine Inv L m) (rec0 temp0 : HitRecord (Fl F)) :
    Sound (l.world temp0) rec0 Inv (fun _ => True) L := by
  intro s r h1 _
  have hdef : (l.hit r (1000 * eps) inf rec0 temp0).1 ≠ none := by
    have hinv := HittableList.loop_inv r (1000 * eps) inf rec0 l.objects l.objects 0 ⟨temp0, inf, rec0, none⟩ rfl
      (fun _ => ⟨rfl, rfl⟩) (by intro j hj; cases hj)
    unfold HittableList.hit
    dsimp only at hinv ⊢
    generalize HittableList.loop r (1000 * eps) l.objects 0 ⟨temp0, inf, rec0, none⟩ = s at *
    cases hs : s.idx with
    | none => simp
    | some i =>
      obtain ⟨-, -, o, ho, -⟩ := hinv.2 i hs
      have : i < l.materials.length := by rw [hlen]; exact (List.getElem?_eq_some_iff.mp ho).1
      simp [List.getElem?_eq_getElem this]
  obtain ⟨m, hmm⟩ := Option.ne_none_iff_exists'.mp hdef
  have hw : l.world temp0 s r (1000 * eps) inf rec0 = some (m, (l.hit r (1000 * eps) inf rec0 temp0).2, s) := by
    unfold HittableList.world; rw [hmm]; rfl
  refine ⟨m, _, s, hw, h1, ?_⟩
  rintro mat rfl
  obtain ⟨sc, s', h2, h3, h4, h5⟩ := hm mat (l.world_mem temp0 hw) s r _ h1
  refine ⟨sc, s', h2, h3, fun hok => ?_, h5⟩
  obtain ⟨a, q, h6, h7, h8, h9⟩ := h4 hok
  exact ⟨a, q, h6, h7, h8, trivial, h9⟩

theorem lit_between [F.Rounding] {q : ℚ} {b : ℝ} (h0 : 0 ≤ q) (h1 : (q : ℝ) ≤ b) (hb : rnd F b = fin b) :
    ∃ x, (lit q : Fl F) = fin x ∧ 0 ≤ x ∧ x ≤ b := rnd_between rnd_zero hb (by exact_mod_cast h0) h1

/-- A colour given by three literals. -/
theorem colorIn_vec [F.Rounding] {b : ℝ} {x y z : Fl F} (hx : ∃ a, x = fin a ∧ 0 ≤ a ∧ a ≤ b) (hy : ∃ a, y = fin a ∧ 0 ≤ a ∧ a ≤ b)
    (hz : ∃ a, z = fin a ∧ 0 ≤ a ∧ a ≤ b) : ColorIn b (![x, y, z] : Vec (Fl F) 3) := by
  obtain ⟨x, rfl, hx⟩ := hx
  obtain ⟨y, rfl, hy⟩ := hy
  obtain ⟨z, rfl, hz⟩ := hz
  refine ⟨![x, y, z], by rw [cv_vec3], fun i => ?_⟩
  fin_cases i
  · exact hx
  · exact hy
  · exact hz

theorem colorIn_checker {b : ℝ} {even odd : Texture (Fl F)} {rec : HitRecord (Fl F)} (h1 : ColorIn b (even rec)) (h2 : ColorIn b (odd rec)) :
    ColorIn b (checkerTexture even odd rec) := by
  unfold checkerTexture
  split
  · exact h2
  · exact h1

theorem nat_between [F.Rounding] {n : ℕ} {b : ℝ} (h : n ≤ 256) (hb : (n : ℝ) ≤ b) :
    ∃ x, (@OfNat.ofNat (Fl F) n (Scalar.instOfNat n)) = fin x ∧ 0 ≤ x ∧ x ≤ b := ⟨n, lit_small n h, Nat.cast_nonneg n, hb⟩

theorem lit_count [F.Rounding] {n : ℕ} (h : n ≤ 256) : (lit (n : ℚ) : Fl F) = fin (n : ℝ) := by
  show rnd F _ = _
  rw [Rat.cast_natCast, Fmt.Rounding.small _ h]

/-! ## with_lights.cpp -/

/-- C120: `with_lights.cpp` comes to an end with a complete image, in whatever order the rows are run. -/
theorem C120_with_lights [F.Rounding] (hq : ExactQuarters F) (rec0 temp0 : HitRecord (Fl F)) (rows : List ℕ)
    (hrows : rows.Perm (List.range 1125)) : ∃ img, image (WithLights.scene rec0 temp0) rows lambertianSeed = some img ∧
      img.length = 4 * 1800 * 1125 ∧ ∀ p, p < 1800 * 1125 → img[4 * p + 3]? = some 255 := by
  have h4 : rnd F 4 = fin 4 := Fmt.Rounding.small 4 (by norm_num)
  refine C120_image (WithLights.scene rec0 temp0) (Inv := fun g : Pcg => g.inc = 234121#64) (Good := fun _ => True) (L := 4)
    (HittableList.sound rfl ?_ rec0 temp0) (by norm_num) h4
    (colorIn_vec (lit_between (by norm_num) (by norm_num) h4) (lit_between (by norm_num) (by norm_num) h4)
      (lit_between (by norm_num) (by norm_num) h4))
    (fun _ _ _ _ _ => trivial) 16 (by norm_num) (lit_small 16 (by norm_num)) rows hrows lambertianSeed rfl
  intro m hm
  simp only [WithLights.objects, HittableList.add, HittableList.empty, List.nil_append, List.cons_append, List.mem_cons, List.not_mem_nil,
    or_false] at hm
  rcases hm with rfl | rfl | rfl
  · refine fine_lambertian hq (fun rec => colorIn_checker (colorIn_vec ?_ ?_ ?_) (colorIn_vec ?_ ?_ ?_)) (fun s h => h) (fun s g _ h => h)
    · exact lit_between (by norm_num) (by norm_num) rnd_one
    · exact nat_between (by norm_num) (by norm_num)
    · exact nat_between (by norm_num) (by norm_num)
    · exact nat_between (by norm_num) (by norm_num)
    · exact lit_between (by norm_num) (by norm_num) rnd_one
    · exact nat_between (by norm_num) (by norm_num)
  · exact fine_metal (by norm_num) fun rec => colorIn_vec (lit_between (by norm_num) (by norm_num) rnd_one)
      (lit_between (by norm_num) (by norm_num) rnd_one) (lit_between (by norm_num) (by norm_num) rnd_one)
  · exact fine_light fun rec => colorIn_vec (nat_between (by norm_num) (by norm_num)) (nat_between (by norm_num) (by norm_num))
      (nat_between (by norm_num) (by norm_num))

/-- In `float`, as the program runs, with the rows from the bottom to the top. -/
example (rec0 temp0 : HitRecord (Fl binary32)) : ∃ img, image (WithLights.scene rec0 temp0) (List.range 1125).reverse lambertianSeed = some img ∧
    img.length = 8100000 ∧ ∀ p, p < 1800 * 1125 → img[4 * p + 3]? = some 255 :=
  C120_with_lights (F := binary32) (exactQuarters_ieee (by norm_num) (by norm_num) (by norm_num)) rec0 temp0 _ (List.reverse_perm _)

/-! ## cylinder.cpp -/

/-- C120: so does `cylinder.cpp`. -/
theorem C120_cylinder [F.Rounding] (hq : ExactQuarters F) (rec0 temp0 : HitRecord (Fl F)) (rows : List ℕ)
    (hrows : rows.Perm (List.range 750)) : ∃ img, image (CylinderProgram.scene rec0 temp0) rows lambertianSeed = some img ∧
      img.length = 4 * 1200 * 750 ∧ ∀ p, p < 1200 * 750 → img[4 * p + 3]? = some 255 := by
  refine C120_image (CylinderProgram.scene rec0 temp0) (Inv := fun g : Pcg => g.inc = 234121#64) (Good := fun _ => True) (L := 3)
    (HittableList.sound rfl ?_ rec0 temp0) (by norm_num) (Fmt.Rounding.small 3 (by norm_num))
    ⟨0, cv_zero_vec, fun _ => ⟨le_rfl, by norm_num⟩⟩
    (fun _ _ _ _ _ => trivial) 16 (by norm_num) (lit_small 16 (by norm_num)) rows hrows lambertianSeed rfl
  intro m hm
  simp only [CylinderProgram.objects, HittableList.add, HittableList.empty, List.nil_append, List.cons_append, List.mem_cons, List.not_mem_nil,
    or_false] at hm
  rcases hm with rfl | rfl
  · exact fine_light fun rec => colorIn_vec (nat_between (by norm_num) (by norm_num)) (nat_between (by norm_num) (by norm_num))
      (nat_between (by norm_num) (by norm_num))
  · exact fine_lambertian hq (fun rec => colorIn_vec (nat_between (by norm_num) (by norm_num)) (nat_between (by norm_num) (by norm_num))
      (nat_between (by norm_num) (by norm_num))) (fun s h => h) (fun s g _ h => h)

/-- In `double`, as the program runs. -/
example (rec0 temp0 : HitRecord (Fl binary64)) : ∃ img, image (CylinderProgram.scene rec0 temp0) (List.range 750).reverse lambertianSeed = some img ∧
    img.length = 3600000 ∧ ∀ p, p < 1200 * 750 → img[4 * p + 3]? = some 255 :=
  C120_cylinder (F := binary64) (exactQuarters_ieee (by norm_num) (by norm_num) (by norm_num)) rec0 temp0 _ (List.reverse_perm _)

/-! ## render_spheres.cpp -/

/-- The numbers drawn for a cell lie between 0 and 1. -/
def RenderSpheres.Cell.Unit (c : RenderSpheres.Cell (Fl F)) : Prop := ∀ i, ∃ x, c.a i = fin x ∧ 0 ≤ x ∧ x ≤ 1

theorem RenderSpheres.fine_dull [F.Rounding] (hq : ExactQuarters F) (n : ℕ) {albedo : Texture (Fl F)} (ha : ∀ rec, ColorIn 1 (albedo rec)) :
    Fine (fun s : RenderSpheres.State (Fl F) => ∀ n, (s.1 n).inc = 234121#64) 1 (RenderSpheres.dull n albedo) := by
  refine fine_lambertian hq ha (fun s h => h n) (fun s g h hg k => ?_)
  rcases eq_or_ne k n with rfl | hk
  · simpa using hg
  · simpa [hk] using h k

theorem RenderSpheres.fine_glass [F.Rounding] (n : ℕ) :
    Fine (fun s : RenderSpheres.State (Fl F) => ∀ n, (s.1 n).inc = 234121#64) 1 (RenderSpheres.glass n) :=
  fine_dielectric _ fun _ h => h

theorem mul_unit [F.Rounding] {x y : Fl F} (hx : ∃ a, x = fin a ∧ 0 ≤ a ∧ a ≤ 1) (hy : ∃ a, y = fin a ∧ 0 ≤ a ∧ a ≤ 1) :
    ∃ a, x * y = fin a ∧ 0 ≤ a ∧ a ≤ 1 := by
  obtain ⟨x, rfl, x0, x1⟩ := hx
  obtain ⟨y, rfl, y0, y1⟩ := hy
  exact rnd_between rnd_zero rnd_one (mul_nonneg x0 y0) (mul_le_one₀ x1 y0 y1)

theorem half_unit [F.Rounding] (hq : ExactQuarters F) {x : Fl F} (hx : ∃ a, x = fin a ∧ 0 ≤ a ∧ a ≤ 1) :
    ∃ a, x / 2 + lit (5 / 10) = fin a ∧ 0 ≤ a ∧ a ≤ 1 := by
  obtain ⟨x, rfl, x0, x1⟩ := hx
  have e : rnd F (1 / 2) = fin (1 / 2) := by
    have := hq 2 (by norm_num)
    norm_num at this ⊢
    exact this
  have e1 : (lit (5 / 10) : Fl F) = fin (1 / 2) := by
    show rnd F _ = _
    rw [← e]; norm_num
  obtain ⟨y, hy, y0, y1⟩ := rnd_between (F := F) (x := x / 2) rnd_zero e (by linarith) (by linarith)
  rw [lit_small 2 (by norm_num), Nat.cast_ofNat, div_rounded _ two_ne_zero, hy, e1]
  exact rnd_between rnd_zero rnd_one (by linarith) (by linarith)

theorem RenderSpheres.fine_small [F.Rounding] (hq : ExactQuarters F) (n : ℕ) (c : RenderSpheres.Cell (Fl F)) (hc : c.Unit) :
    Fine (fun s : RenderSpheres.State (Fl F) => ∀ n, (s.1 n).inc = 234121#64) 1 (RenderSpheres.smallMaterial n c) := by
  unfold RenderSpheres.smallMaterial
  split
  · exact RenderSpheres.fine_dull hq n fun rec => colorIn_vec (mul_unit (hc 0) (hc 1)) (mul_unit (hc 2) (hc 3)) (mul_unit (hc 4) (hc 5))
  split
  · exact fine_metal zero_le_one fun rec => colorIn_vec (half_unit hq (hc 0)) (half_unit hq (hc 1)) (half_unit hq (hc 2))
  · exact RenderSpheres.fine_glass n

/-- C120: so does `render_spheres.cpp`, whatever numbers between 0 and 1 `random_scene` draws, so for whatever small spheres, and
whatever numbers the dielectrics draw. -/
theorem C120_spheres [F.Rounding] (hq : ExactQuarters F) (draws : ℤ → ℤ → RenderSpheres.Cell (Fl F)) (hd : ∀ a b, (draws a b).Unit)
    (glassDraws : ℕ → ℕ → Fl F) (rec0 temp0 : HitRecord (Fl F)) (rows : List ℕ) (hrows : rows.Perm (List.range 1125)) :
    ∃ img, image (RenderSpheres.scene draws rec0 temp0) rows (fun _ => lambertianSeed, glassDraws) = some img ∧
      img.length = 4 * 1800 * 1125 ∧ ∀ p, p < 1800 * 1125 → img[4 * p + 3]? = some 255 := by
  have hl := fun (q : ℚ) (h0 : 0 ≤ q) (h1 : q ≤ 1) => lit_between (F := F) (q := q) (b := 1) h0 (by exact_mod_cast h1) rnd_one
  let P : HittableList (Fl F) (Material (Fl F) (RenderSpheres.State (Fl F))) → Prop := fun l => l.materials.length = l.objects.length ∧
    ∀ m ∈ l.materials, Fine (fun s : RenderSpheres.State (Fl F) => ∀ n, (s.1 n).inc = 234121#64) 1 m
  have padd : ∀ l o m, P l → Fine (fun s : RenderSpheres.State (Fl F) => ∀ n, (s.1 n).inc = 234121#64) 1 m → P (l.add o m) := by
    intro l o m h1 h2
    refine ⟨by simp [HittableList.add, h1.1], fun m' h => ?_⟩
    simp only [HittableList.add, List.mem_append, List.mem_cons, List.not_mem_nil, or_false] at h
    rcases h with h | rfl
    · exact h1.2 _ h
    · exact h2
  have pfold : ∀ (cs : List (ℤ × ℤ)) l, P l → P (cs.foldl (RenderSpheres.addCell draws) l) := by
    intro cs
    induction cs with
    | nil => exact fun l h => h
    | cons c cs ih =>
      refine fun l h => ih _ ?_
      unfold RenderSpheres.addCell
      dsimp only
      split
      · exact h
      · exact padd _ _ _ h (RenderSpheres.fine_small hq _ _ (hd _ _))
  have hP : P (RenderSpheres.objects draws) := by
    refine padd _ _ _ (padd _ _ _ (padd _ _ _ (pfold _ _ (padd _ _ _ ⟨rfl, by intro m hm; cases hm⟩ ?_)) ?_) ?_) ?_
    · exact RenderSpheres.fine_dull hq _ fun rec => colorIn_checker
        (colorIn_vec (hl _ (by norm_num) (by norm_num)) (hl _ (by norm_num) (by norm_num)) (hl _ (by norm_num) (by norm_num)))
        (colorIn_vec (hl _ (by norm_num) (by norm_num)) (hl _ (by norm_num) (by norm_num)) (hl _ (by norm_num) (by norm_num)))
    · exact RenderSpheres.fine_glass _
    · exact RenderSpheres.fine_dull hq _ fun rec =>
        colorIn_vec (hl _ (by norm_num) (by norm_num)) (hl _ (by norm_num) (by norm_num)) (hl _ (by norm_num) (by norm_num))
    · exact fine_metal zero_le_one fun rec =>
        colorIn_vec (hl _ (by norm_num) (by norm_num)) (hl _ (by norm_num) (by norm_num)) (hl _ (by norm_num) (by norm_num))
  have hseed : ∀ n, (((fun _ => lambertianSeed, glassDraws) : RenderSpheres.State (Fl F)).1 n).inc = 234121#64 := fun _ => rfl
  have hsound : Sound (RenderSpheres.scene draws rec0 temp0).world (RenderSpheres.scene draws rec0 temp0).rec0
      (fun s : RenderSpheres.State (Fl F) => ∀ n, (s.1 n).inc = 234121#64) (fun _ => True) 1 := by
    have := HittableList.sound (l := RenderSpheres.objects draws) hP.1 hP.2 rec0 temp0
    delta RenderSpheres.scene
    dsimp only
    exact this
  exact C120_image (RenderSpheres.scene draws rec0 temp0) (L := 1) hsound zero_le_one rnd_one
    (colorIn_vec (hl _ (by norm_num) (by norm_num)) (hl _ (by norm_num) (by norm_num)) (nat_between (by norm_num) (by norm_num)))
    (fun _ _ _ _ _ => trivial) ((128 : ℕ) : ℝ) (by norm_num) (lit_count (n := 128) (by norm_num)) rows hrows (fun _ => lambertianSeed, glassDraws) hseed

/-- In `float`, as the program runs, if every number drawn is 1. -/
example (rec0 temp0 : HitRecord (Fl binary32)) : ∃ img,
    image (RenderSpheres.scene (fun _ _ => ⟨fin 1, fin 1, fin 1, fun _ => fin 1⟩) rec0 temp0) (List.range 1125).reverse
      (fun _ => lambertianSeed, fun _ _ => fin 1) = some img ∧ img.length = 8100000 ∧ ∀ p, p < 1800 * 1125 → img[4 * p + 3]? = some 255 :=
  C120_spheres (F := binary32) (exactQuarters_ieee (by norm_num) (by norm_num) (by norm_num)) _ (fun _ _ _ => ⟨1, rfl, zero_le_one, le_rfl⟩) _ rec0 temp0 _
    (List.reverse_perm _)

/-! ## Lists with media -/

theorem randomLoop_idx (r : Ray (Fl F)) (tmin : Fl F) {S : Type} (all os : List (RandomHittable (Fl F) S)) (i : ℕ) (hi : i + os.length = all.length)
    (st : HittableList.State (Fl F) × S) (h : ∀ j, st.1.idx = some j → j < all.length) :
    ∀ j, (randomLoop r tmin os i st).1.idx = some j → j < all.length := by
  induction os generalizing i st with
  | nil => exact h
  | cons o os ih =>
    rw [List.length_cons] at hi
    refine ih (i + 1) (by omega) _ ?_
    intro j hj
    unfold randomStep at hj
    dsimp only at hj
    split at hj
    · split at hj
      · simp only [Option.some.injEq] at hj; omega
      · exact h j hj
    · exact h j hj

theorem randomLoop_inv {S : Type} {Inv : S → Prop} (r : Ray (Fl F)) (tmin : Fl F) (os : List (RandomHittable (Fl F) S))
    (ho : ∀ o ∈ os, ∀ s a b rec, Inv s → Inv (o.hit s r a b rec).2.2) (i : ℕ) (st : HittableList.State (Fl F) × S) (h : Inv st.2) :
    Inv (randomLoop r tmin os i st).2 := by
  induction os generalizing i st with
  | nil => exact h
  | cons o os ih =>
    refine ih (fun o h => ho o (List.mem_cons_of_mem _ h)) (i + 1) _ ?_
    have := ho o List.mem_cons_self st.2 tmin st.1.closest st.1.temp h
    unfold randomStep
    dsimp only
    split
    · split <;> exact this
    · exact this

theorem randomWorld_sound {S : Type} {objects : List (RandomHittable (Fl F) S)} {materials : List (Material (Fl F) S)}
    (hlen : materials.length = objects.length) {Inv : S → Prop} {L : ℝ} (ho : ∀ o ∈ objects, ∀ s r a b rec, Inv s → Inv (o.hit s r a b rec).2.2)
    (hm : ∀ m ∈ materials, Fine Inv L m) (rec0 temp0 : HitRecord (Fl F)) :
    Sound (randomWorld objects materials temp0) rec0 Inv (fun _ => True) L := by
  intro s r h1 _
  have hi := randomLoop_idx r (1000 * eps) objects objects 0 (by simp) (⟨temp0, inf, rec0, none⟩, s) (by intro j hj; cases hj)
  have hs := randomLoop_inv (Inv := Inv) r (1000 * eps) objects (fun o h s a b rec => ho o h s r a b rec) 0 (⟨temp0, inf, rec0, none⟩, s) h1
  unfold randomWorld
  dsimp only at hi hs ⊢
  generalize randomLoop r (1000 * eps) objects 0 (⟨temp0, inf, rec0, none⟩, s) = st at *
  cases hx : st.1.idx with
  | none => exact ⟨none, _, _, rfl, hs, by intro mat h; cases h⟩
  | some i =>
    have hlt : i < materials.length := by rw [hlen]; exact hi i hx
    dsimp only
    rw [List.getElem?_eq_getElem hlt]
    refine ⟨_, _, _, rfl, hs, ?_⟩
    intro mat hmat
    obtain rfl := Option.some.inj hmat
    obtain ⟨sc, s', h2, h3, h4, h5⟩ := hm _ (List.getElem_mem hlt) st.2 r st.1.out hs
    refine ⟨sc, s', h2, h3, fun hok => ?_, h5⟩
    obtain ⟨a, q, h6, h7, h8, h9⟩ := h4 hok
    exact ⟨a, q, h6, h7, h8, trivial, h9⟩

/-- Without media, the loop is that of `hittable_list`. -/
theorem randomWorld_eq {R S : Type} [Scalar R] (l : HittableList R (Material R S)) (temp0 : HitRecord R) :
    randomWorld (l.objects.map .ofHittable) l.materials temp0 = l.world temp0 := by
  have key : ∀ (r : Ray R) (tmin : R) (os : List (Hittable R)) (i : ℕ) (st : HittableList.State R) (s : S),
      randomLoop r tmin (os.map .ofHittable) i (st, s) = (HittableList.loop r tmin os i st, s) := by
    intro r tmin os
    induction os with
    | nil => intro i st s; rfl
    | cons o os ih =>
      intro i st s
      rw [List.map_cons, randomLoop, HittableList.loop, ← ih]
      congr 1
      unfold randomStep HittableList.step RandomHittable.ofHittable
      dsimp only
      split
      · split <;> rfl
      · rfl
  funext s r tmin tmax rec
  unfold randomWorld HittableList.world HittableList.hit
  dsimp only
  rw [key]
  generalize HittableList.loop r tmin l.objects 0 ⟨temp0, tmax, rec, none⟩ = st
  cases st.idx with
  | none => rfl
  | some i => cases h : l.materials[i]? <;> simp [h]

/-! ## ellipsoid.cpp -/

/-- C120: so does `ellipsoid.cpp`, whatever numbers the dielectric, the medium and the isotropic material draw. -/
theorem C120_ellipsoid [F.Rounding] (draws : EllipsoidProgram.State (Fl F)) (rec0 rec1 rec2 temp0 : HitRecord (Fl F)) (rows : List ℕ)
    (hrows : rows.Perm (List.range 1800)) : ∃ img, image (EllipsoidProgram.scene rec0 rec1 rec2 temp0) rows draws = some img ∧
      img.length = 4 * 2880 * 1800 ∧ ∀ p, p < 2880 * 1800 → img[4 * p + 3]? = some 255 := by
  refine C120_image (EllipsoidProgram.scene rec0 rec1 rec2 temp0) (Inv := fun _ => True) (L := 7)
    (randomWorld_sound rfl (fun _ _ _ _ _ _ _ _ => trivial) ?_ rec0 temp0) (by norm_num) (Fmt.Rounding.small 7 (by norm_num))
    ⟨0, cv_zero_vec, fun _ => ⟨le_rfl, by norm_num⟩⟩
    (fun _ _ _ _ _ => trivial) 32 (by norm_num) (lit_small 32 (by norm_num)) rows hrows draws trivial
  intro m hm
  simp only [EllipsoidProgram.materials, List.mem_cons, List.not_mem_nil, or_false] at hm
  rcases hm with rfl | rfl | rfl
  · exact fine_light fun rec => colorIn_vec (nat_between (by norm_num) (by norm_num)) (nat_between (by norm_num) (by norm_num))
      (nat_between (by norm_num) (by norm_num))
  · exact fine_dielectric _ fun _ _ => trivial
  · exact fine_isotropic (fun rec => colorIn_vec (lit_between (by norm_num) (by norm_num) rnd_one)
      (lit_between (by norm_num) (by norm_num) rnd_one) (lit_between (by norm_num) (by norm_num) rnd_one)) fun _ _ => trivial

/-- In `double`, as the program runs. -/
example (draws : EllipsoidProgram.State (Fl binary64)) (rec : HitRecord (Fl binary64)) : ∃ img,
    image (EllipsoidProgram.scene rec rec rec rec) (List.range 1800).reverse draws = some img ∧
    img.length = 20736000 ∧ ∀ p, p < 2880 * 1800 → img[4 * p + 3]? = some 255 :=
  C120_ellipsoid draws rec rec rec rec _ (List.reverse_perm _)

/-! ## Scenes with a colour map -/

theorem HittableList.sound_at {l : HittableList (Fl F) (Material (Fl F) S)} (hlen : l.materials.length = l.objects.length)
    {Inv : S → Prop} {Good : Ray (Fl F) → Prop} {L : ℝ} (hm : ∀ (i : ℕ) o m, l.objects[i]? = some o → l.materials[i]? = some m →
      ∀ s r c temp out, Inv s → Good r → o.hit r (1000 * eps) c temp = (true, out) →
        ∃ sc s', m.scatter s r out = some (sc, s') ∧ Inv s' ∧
          (sc.ok = true → ∃ a q, sc.attenuation = some a ∧ sc.ray = some q ∧ ColorIn 1 a ∧ Good q ∧ m.emitted out = cv 0) ∧
          (sc.ok = false → ColorIn L (m.emitted out))) (rec0 temp0 : HitRecord (Fl F)) :
    Sound (l.world temp0) rec0 Inv Good L := by
  intro s r h1 h2
  have hinv := HittableList.loop_inv r (1000 * eps) inf rec0 l.objects l.objects 0 ⟨temp0, inf, rec0, none⟩ rfl
    (fun _ => ⟨rfl, rfl⟩) (by intro j hj; cases hj)
  unfold HittableList.world HittableList.hit
  dsimp only at hinv ⊢
  generalize HittableList.loop r (1000 * eps) l.objects 0 ⟨temp0, inf, rec0, none⟩ = st at *
  cases hs : st.idx with
  | none => exact ⟨none, st.out, s, rfl, h1, by intro mat h; cases h⟩
  | some i =>
    obtain ⟨-, -, o, ho, c, temp, -, hhit⟩ := hinv.2 i hs
    have hlt : i < l.materials.length := by rw [hlen]; exact (List.getElem?_eq_some_iff.mp ho).1
    have hmi := List.getElem?_eq_getElem hlt
    dsimp only
    rw [hmi]
    refine ⟨some _, st.out, s, rfl, h1, ?_⟩
    intro mat hmat
    obtain rfl := Option.some.inj hmat
    exact hm i o _ ho hmi s r c temp st.out h1 h2 hhit

/-- A ray with real origin and direction. -/
def FiniteRay (r : Ray (Fl F)) : Prop := ∃ o d : Fin 3 → ℝ, r = ⟨cv o, cv d⟩

theorem lambertianMap_at [F.Exact] {L : ℝ} {albedo : HitRecord (Fl F) → Option (Vec (Fl F) 3)} {out : HitRecord (Fl F)} {p n : Fin 3 → ℝ}
    (hp : out.p = cv p) (hn : out.normal = cv n) (h1 : n ⬝ᵥ n = 1) {c : Vec (Fl F) 3} (hc : albedo out = some c) (hc1 : ColorIn 1 c)
    (g : Pcg) (hg : g.inc = 234121#64) (r : Ray (Fl F)) :
    ∃ sc s', (Material.lambertianMap albedo id (fun g _ => g)).scatter g r out = some (sc, s') ∧ s'.inc = 234121#64 ∧
      (sc.ok = true → ∃ a q, sc.attenuation = some a ∧ sc.ray = some q ∧ ColorIn 1 a ∧ FiniteRay q ∧
        (Material.lambertianMap albedo id (fun g _ => g)).emitted out = cv 0) ∧
      (sc.ok = false → ColorIn L ((Material.lambertianMap (S := Pcg) albedo id (fun g _ => g)).emitted out)) := by
  obtain ⟨sc, g', h2, h3, h4, h5, w, h6, -⟩ := C74_scatter (F := F) (solidColor c) g hg r out n hn h1
  refine ⟨sc, g', ?_, h5, fun _ => ⟨c, _, h4, h6, hc1, ⟨p, w, by rw [hp]⟩, cv_zero_vec⟩, fun h => ?_⟩
  · simp only [Material.lambertianMap, Material.lambertian, hc, Option.bind_some, id, h2, Option.map_some]
  · rw [h3] at h; cases h

theorem light_at {Inv : S → Prop} {Good : Ray (Fl F) → Prop} {L : ℝ} {emit : Texture (Fl F)} (he : ∀ rec, ColorIn L (emit rec)) (s : S)
    (hs : Inv s) (r : Ray (Fl F)) (out : HitRecord (Fl F)) :
    ∃ sc s', (Material.diffuseLight emit).scatter s r out = some (sc, s') ∧ Inv s' ∧
      (sc.ok = true → ∃ a q, sc.attenuation = some a ∧ sc.ray = some q ∧ ColorIn 1 a ∧ Good q ∧
        (Material.diffuseLight (S := S) emit).emitted out = cv 0) ∧
      (sc.ok = false → ColorIn L ((Material.diffuseLight (S := S) emit).emitted out)) :=
  ⟨_, s, rfl, hs, (fun h => by cases h), fun _ => he out⟩

theorem colorIn_map [F.Exact] {r g b : List ℕ} (h : (r, g, b) ∈ colorMaps) (x : ℝ) :
    ∃ c, tableMap r g b (fin x : Fl F) = some c ∧ ColorIn 1 c := by
  obtain ⟨h1, h2, h3⟩ := colorMaps_good _ h
  refine ⟨_, tableMap_eq h1 h2 h3 x, _, rfl, fun i => ?_⟩
  fin_cases i
  · exact interpolate_range h1 _
  · exact interpolate_range h2 _
  · exact interpolate_range h3 _

open Matrix in
theorem camera_finite [F.Exact] (eye target up : Fin 3 → ℝ) (vfov aspect : ℝ) (h0 : 0 < vfov) (h1 : vfov < 180) (hw : eye ≠ target)
    (hup : up ⨯₃ (eye - target) ≠ 0) (W H : ℕ) (hW : 2 ≤ W) (hH : 2 ≤ H) (i j : ℕ) (g g' : Pcg) (hi : i < W) (hj : j < H) :
    FiniteRay ((Camera.make (cv eye) (cv target) (cv up) (fin vfov) (fin aspect : Fl F)).getRay (coordinate i W (Pcg.real01 g).1)
      (coordinate j H (Pcg.real01 g').1)) := by
  obtain ⟨x, hx, x0, x1⟩ := C36_range (F := F) g
  obtain ⟨y, hy, y0, y1⟩ := C36_range (F := F) g'
  obtain ⟨u, hu, -⟩ := C85_range (F := F) i W hi hW x x0 x1
  obtain ⟨v, hv, -⟩ := C85_range (F := F) j H hj hH y y0 y1
  obtain ⟨_, _, _, -, -, -, -, h⟩ := C82_rays (F := F) eye target up vfov aspect h0 h1 hw hup
  rw [hx, hy, hu, hv, h]
  exact ⟨_, _, rfl⟩

/-! ## disk.cpp -/

open Matrix in
/-- C120: in exact arithmetic, `disk.cpp` comes to an end with a complete image: the matrices of both disks have inverses, and the
colour map is defined at every hit. -/
theorem C120_disk [F.Exact] (rec0 temp0 : HitRecord (Fl F)) (rows : List ℕ) (hrows : rows.Perm (List.range 800)) :
    ∃ sc, DiskProgram.scene rec0 temp0 = some sc ∧ ∃ img, image sc rows lambertianSeed = some img ∧
      img.length = 4 * 800 * 800 ∧ ∀ p, p < 800 * 800 → img[4 * p + 3]? = some 255 := by
  have hcam : (DiskProgram.camera : Camera (Fl F)) = Camera.make (cv ![0, -4, 2]) (cv 0) (cv ![0, 0, 1]) (fin 40) (fin 1) := by
    unfold DiskProgram.camera
    congr 1
    · simp only [fl, cv_vec3]; norm_num
    · exact cv_zero_vec
    · simp only [fl, cv_vec3]; norm_num
    · simp only [fl]; norm_num
    · simp only [fl]; norm_num
  have hne : (![0, -4, 2] : Fin 3 → ℝ) ≠ 0 := fun h => by have := congrFun h 1; norm_num at this
  have hup : (![0, 0, 1] : Fin 3 → ℝ) ⨯₃ (![0, -4, 2] - 0) ≠ 0 := fun h => by
    have := congrFun h 0; simp [cross_apply] at this
  have h2 : (0 : ℝ) < Real.sqrt 2 := by positivity
  have hsq : Real.sqrt 2 * Real.sqrt 2 = 2 := Real.mul_self_sqrt (by norm_num)
  obtain ⟨q, hq⟩ : ∃ q : ℝ, q = 1 / Real.sqrt 2 := ⟨_, rfl⟩
  have hqq : q * q = 1 / 2 := by rw [hq, div_mul_div_comm, hsq]; norm_num
  have hn : (![q, 0, -q] : Fin 3 → ℝ) ⬝ᵥ ![q, 0, -q] = 1 := by
    have v2 : ∀ a b c : ℝ, (![a, b, c] : Fin 3 → ℝ) 2 = c := fun _ _ _ => rfl
    simp [dotProduct, Fin.sum_univ_three, v2]; linarith
  obtain ⟨s, hs, hs'⟩ : ∃ s, (DiskProgram.disk : Option (Disk (Fl F))) = some s ∧ Disk.make (fin 1) (cv 0) (cv ![q, 0, -q]) = some s := by
    refine ⟨_, ?_, Disk.make_eq 1 0 ![q, 0, -q] hn⟩
    rw [← Disk.make_eq 1 0 ![q, 0, -q] hn]
    unfold DiskProgram.disk
    congr 1
    · simp only [fl]; norm_num
    · exact cv_zero_vec
    · rw [ofNat_one, show (2 : Fl F) = fin 2 by rw [ofNat_def]; norm_num, sqrt_fin (by norm_num), div_fin _ h2.ne', ← hq, ofNat_zero,
        Fl.neg_fin, cv_vec3]
  obtain ⟨l, hl⟩ : ∃ l, backlightDisk (DiskProgram.camera : Camera (Fl F)) = some l := by
    rw [hcam]
    obtain ⟨e, he, e1, -⟩ := C82_backlight (F := F) ![0, -4, 2] 0 ![0, 0, 1] 40 1 hne
    unfold backlightDisk
    rw [he, show (10 : Fl F) = fin 10 by rw [ofNat_def]; norm_num]
    exact ⟨_, Disk.make_eq 10 _ e e1⟩
  unfold DiskProgram.scene DiskProgram.objects
  rw [hs, Option.bind_some, hl, Option.map_some, Option.map_some]
  refine ⟨_, rfl, ?_⟩
  refine C120_image _ (Inv := fun g : Pcg => g.inc = 234121#64) (Good := FiniteRay) (L := 5)
    (HittableList.sound_at rfl ?_ rec0 temp0) (by norm_num) (rnd_eq _) ⟨0, cv_zero_vec, fun _ => ⟨le_rfl, by norm_num⟩⟩ ?_
    ((256 : ℕ) : ℝ) (by norm_num) (lit_count (n := 256) (by norm_num)) rows (by dsimp only; exact hrows) lambertianSeed (by rfl)
  · intro i o m ho hm g r c temp out hg ⟨o', d, hr⟩ hhit
    match i with
    | 0 =>
      obtain rfl := Option.some.inj ho
      obtain rfl := Option.some.inj hm
      subst hr
      obtain ⟨p, -, hp, ⟨u, v, hu, -⟩, -, n, hn', hnn, -⟩ := C62_record (F := F) 1 one_pos 0 _ hn o' d s hs' _ _ _ _ hhit
      obtain ⟨k, hk, hk1⟩ := colorIn_map (F := F) (r := ColorTables.viridis_r) (g := ColorTables.viridis_g) (b := ColorTables.viridis_b)
        (by simp [colorMaps]) u
      refine lambertianMap_at hp hn' ?_ (c := k) (by unfold diskColor ColorTables.viridis; rw [hu, hk]) hk1 g hg _
      rcases hnn with rfl | rfl
      · exact hn
      · rw [neg_dotProduct_neg]; exact hn
    | 1 =>
      obtain rfl := Option.some.inj hm
      exact light_at (fun rec => colorIn_vec (nat_between (by norm_num) (by norm_num)) (nat_between (by norm_num) (by norm_num))
        (nat_between (by norm_num) (by norm_num))) g hg r out
    | k + 2 => cases ho
  · intro i j g hi hj
    dsimp only
    rw [hcam]
    exact camera_finite _ _ _ _ _ (by norm_num) (by norm_num) hne hup 800 800 (by norm_num) (by norm_num) i j _ _ hi hj

/-- An instance: the rows from the bottom to the top. -/
example (rec0 temp0 : HitRecord (Fl exact64)) : ∃ sc, DiskProgram.scene rec0 temp0 = some sc ∧
    ∃ img, image sc (List.range 800).reverse lambertianSeed = some img ∧ img.length = 2560000 ∧ ∀ p, p < 800 * 800 → img[4 * p + 3]? = some 255 :=
  C120_disk rec0 temp0 _ (List.reverse_perm _)

/-! ## torus_curvature.cpp -/

theorem clamp_fin_mem {x lo hi : ℝ} (h : lo ≤ hi) : ∃ y, Scalar.clamp (fin x : Fl F) (fin lo) (fin hi) = fin y ∧ lo ≤ y ∧ y ≤ hi := by
  unfold Scalar.clamp
  rw [lt_fin, lt_fin]
  split_ifs with h1 h2
  · exact ⟨lo, rfl, le_rfl, h⟩
  · exact ⟨hi, rfl, h, le_rfl⟩
  · rw [decide_eq_true_eq, not_lt] at h1 h2
    exact ⟨x, rfl, h1, h2⟩

theorem Torus.refine_fin [F.Exact] (c : Fin 3 → ℝ) {R r : ℝ} (hr : 0 < r) (hR : r < R) (p d : Fin 3 → ℝ) :
    ∃ p' : Fin 3 → ℝ, (Torus.ofReal c R r : Torus (Fl F)).refine (cv p) (cv d) = cv p' ∧ c 2 - r ≤ p' 2 ∧ p' 2 ≤ c 2 + r := by
  obtain ⟨q, hq⟩ : ∃ q : Fin 3 → ℝ, (Torus.ofReal c R r : Torus (Fl F)).newtonStep (cv p) (cv d) = cv q := by
    unfold Torus.newtonStep Torus.ofReal
    simp only [fl, Nat.cast_ofNat, Scalar.ne, cv_vec3]
    split_ifs with h
    · rw [div_fin _ (by simpa using h)]
      exact ⟨_, by simp only [fl]; rw [cv_vec3]⟩
    · exact ⟨_, rfl⟩
  unfold Torus.refine Torus.clampToBox
  rw [hq]
  unfold Torus.ofReal
  simp only [cv_apply, add_fin, sub_fin]
  obtain ⟨y0, h0, -⟩ := clamp_fin_mem (F := F) (x := q 0) (lo := c 0 - (R + r)) (hi := c 0 + (R + r)) (by linarith)
  obtain ⟨y1, h1, -⟩ := clamp_fin_mem (F := F) (x := q 1) (lo := c 1 - (R + r)) (hi := c 1 + (R + r)) (by linarith)
  obtain ⟨y2, h2, h3, h4⟩ := clamp_fin_mem (F := F) (x := q 2) (lo := c 2 - r) (hi := c 2 + r) (by linarith)
  rw [h0, h1, h2]
  exact ⟨![y0, y1, y2], by rw [cv_vec3], h3, h4⟩

theorem torus_singular {R r x y z : ℝ} (hr : 0 < r) (hR : r < R) (g0 : 4 * x * (x ^ 2 + y ^ 2 + z ^ 2 - r ^ 2 - R ^ 2) = 0)
    (g1 : 4 * y * (x ^ 2 + y ^ 2 + z ^ 2 - r ^ 2 - R ^ 2) = 0) (g2 : 4 * z * (x ^ 2 + y ^ 2 + z ^ 2 - r ^ 2 + R ^ 2) = 0)
    (hf : (x ^ 2 + y ^ 2 + z ^ 2 + R ^ 2 - r ^ 2) ^ 2 - 4 * R ^ 2 * (x ^ 2 + y ^ 2) = 0) : False := by
  have hR0 : 0 < R := by linarith
  have hz0 : z = 0 := by
    have : 0 < x ^ 2 + y ^ 2 + z ^ 2 - r ^ 2 + R ^ 2 := by nlinarith [sq_nonneg x, sq_nonneg y, sq_nonneg z]
    rcases mul_eq_zero.mp g2 with h | h <;> linarith
  subst hz0
  by_cases hs : x ^ 2 + y ^ 2 + 0 ^ 2 - r ^ 2 - R ^ 2 = 0
  · have e1 : x ^ 2 + y ^ 2 = R ^ 2 + r ^ 2 := by linarith
    rw [e1] at hf
    have : 0 < R ^ 2 * r ^ 2 := by positivity
    nlinarith
  · have x0 : x = 0 := by
      rcases mul_eq_zero.mp g0 with h | h
      · linarith
      · exact absurd h hs
    have y0 : y = 0 := by
      rcases mul_eq_zero.mp g1 with h | h
      · linarith
      · exact absurd h hs
    subst x0 y0
    have : 0 < R ^ 2 - r ^ 2 := by nlinarith
    nlinarith

/-- Where the gradient vanishes, so does the tolerance, and the point is not on the torus. -/
theorem torusGrad_ne_zero {c : Fin 3 → ℝ} {R r : ℝ} (hr : 0 < r) (hR : r < R) {p : Fin 3 → ℝ} {e : ℝ}
    (h : |torusF c R r p| ≤ (|(p 0 - c 0) * torusGrad c R r p 0| + |(p 1 - c 1) * torusGrad c R r p 1| +
      |(p 2 - c 2) * torusGrad c R r p 2|) * e) : torusGrad c R r p ≠ 0 := by
  intro h0
  rw [h0] at h
  simp only [Pi.zero_apply, mul_zero, abs_zero, add_zero, zero_mul] at h
  have hf : torusF c R r p = 0 := abs_nonpos_iff.mp h
  have g0 := congrFun h0 0
  have g1 := congrFun h0 1
  have g2 := congrFun h0 2
  unfold torusF at hf
  simp only [torusGrad, Pi.zero_apply] at g0 g1 g2
  simp only [Matrix.cons_val_zero, Matrix.cons_val_one, Matrix.cons_val] at g0 g1 g2
  exact torus_singular hr hR g0 g1 g2 hf

/-- Every hit of a ring torus by a ray with real coordinates, also one beside the torus, has a real point, a unit normal and real
forms; the colour is that of some real number. -/
theorem Torus.hit_colour [F.Exact] (c : Fin 3 → ℝ) {R r : ℝ} (hr : 0 < r) (hR : r < R) (o d : Fin 3 → ℝ) (tmin : ℝ) (tmax : Fl F)
    (rec rec' : HitRecord (Fl F)) (h : (Torus.ofReal c R r).hit ⟨cv o, cv d⟩ (fin tmin) tmax rec = (true, rec')) :
    ∃ (p n : Fin 3 → ℝ) (x : ℝ), rec'.p = cv p ∧ rec'.normal = cv n ∧ n ⬝ᵥ n = 1 ∧
      torusColor (Torus.ofReal c R r) rec' = ColorTables.smoothCoolWarm (fin x) := by
  have hR0 : 0 < R := by linarith
  unfold Torus.hit at h
  dsimp only at h
  rw [Torus.coeffs_fin] at h
  split_ifs at h
  · exact absurd (congrArg Prod.fst h) Bool.false_ne_true
  split at h
  · exact absurd (congrArg Prod.fst h) Bool.false_ne_true
  next t ht =>
  obtain ⟨t, rfl⟩ : ∃ t' : ℝ, t = fin t' := by
    have hmem := List.mem_of_find?_eq_some ht
    have hge := List.find?_some ht
    rcases notInf_quartic (F := F) (notInf_fin _) (notInf_fin _) (notInf_fin _) (notInf_fin _) (notInf_fin _) t hmem with rfl | h
    · simp [Scalar.ge] at hge
    · exact h
  obtain ⟨p, hp, z1, z2⟩ := Torus.refine_fin (F := F) c hr hR (o + t • d) d
  rw [Torus.finish_eq] at h
  dsimp only at h
  rw [ray_at_cv, hp, Torus.residual_fin] at h
  have hexp : (Torus.ofReal c R r : Torus (Fl F)).expectedResidual (cv p) = fin ((|(p 0 - c 0) * torusGrad c R r p 0| +
      |(p 1 - c 1) * torusGrad c R r p 1| + |(p 2 - c 2) * torusGrad c R r p 2|) * (20 * F.eps)) := by
    have v2 : ∀ a b c : ℝ, (![a, b, c] : Fin 3 → ℝ) 2 = c := fun _ _ _ => rfl
    unfold Torus.expectedResidual Torus.ofReal torusGrad
    simp only [fl, Nat.cast_ofNat, fin_inj, Matrix.cons_val_zero, Matrix.cons_val_one, v2]
    ring_nf
  rw [hexp, abs_fin, Scalar.gt, lt_fin] at h
  split_ifs at h with hres
  · exact absurd (congrArg Prod.fst h) Bool.false_ne_true
  rw [decide_eq_true_eq, not_lt] at hres
  have hg := torusGrad_ne_zero hr hR hres
  obtain rfl : _ = rec' := congrArg Prod.snd h
  have hgrad : (Torus.ofReal c R r : Torus (Fl F)).gradient (cv p) = cv (torusGrad c R r p) := by
    unfold Torus.gradient Torus.ofReal torusGrad
    simp only [fl, Nat.cast_ofNat, cv_vec3, cv_inj]
    ring_nf
  obtain ⟨n, hn, n1, -⟩ := C02_normalize_unit (F := F) (torusGrad c R r p) hg
  obtain ⟨m, hm, -, hmm, -⟩ := C37_opposes (F := F) { rec with t := fin t, p := cv p, gradMag := Vec.norm (cv (torusGrad c R r p)) } o d n
  have hz : -1 ≤ (p 2 - c 2) / r ∧ (p 2 - c 2) / r ≤ 1 := by
    rw [le_div_iff₀ hr, div_le_one hr]; constructor <;> linarith
  obtain ⟨u, v, huv⟩ : ∃ u v : ℝ, (Torus.ofReal c R r : Torus (Fl F)).getUV (cv p) = (fin u, fin v) := by
    have hpi := Real.pi_pos
    unfold Torus.getUV Torus.ofReal
    simp only [fl, Nat.cast_ofNat]
    rw [div_fin _ (by positivity), div_fin _ hr.ne', asin_fin hz.1 hz.2]
    simp only [fl, Nat.cast_zero, Nat.cast_one]
    split_ifs <;> exact ⟨_, _, by first | rw [add_fin, div_fin _ (by positivity)] | rw [div_fin _ (by positivity)]⟩
  have hcomp : (Torus.ofReal c R r).complete ⟨cv o, cv d⟩ { rec with t := fin t } = (Torus.ofReal c R r : Torus (Fl F)).setForms
      { HitRecord.setFaceNormal { rec with t := fin t, p := cv p, gradMag := Vec.norm (cv (torusGrad c R r p)) }
        ⟨cv o, cv d⟩ (cv n) with u := fin u, v := fin v } := by
    unfold Torus.complete
    dsimp only
    rw [ray_at_cv, hp, huv, hgrad]
    rw [← hn]; rfl
  obtain ⟨rc, hrc⟩ : ∃ rc, rc = (Torus.ofReal c R r).complete ⟨cv o, cv d⟩ { rec with t := fin t } := ⟨_, rfl⟩
  rw [← hrc] at hcomp ⊢
  have hq : 0 < R + r * Real.cos (2 * Real.pi * v) := by nlinarith [Real.neg_one_le_cos (2 * Real.pi * v)]
  have hpi := Real.pi_pos
  have hcurv : ∃ K : ℝ, rc.gaussianCurvature = fin K := by
    unfold HitRecord.gaussianCurvature
    rw [hcomp]
    unfold Torus.setForms Torus.ofReal
    simp only [fl, Nat.cast_ofNat, Nat.cast_zero]
    rw [div_fin _ (by rw [mul_zero, sub_zero]; positivity)]
    exact ⟨_, rfl⟩
  obtain ⟨K, hK⟩ := hcurv
  have h1 : 0 < R - r := by linarith
  have hb : (Torus.ofReal c R r : Torus (Fl F)).curvatureBounds = (fin (-1 / (r * (R - r))), fin (1 / (r * (R + r)))) := by
    unfold Torus.curvatureBounds Torus.ofReal
    simp only [fl, Nat.cast_one]
    rw [div_fin _ (by positivity), div_fin _ (by positivity)]
  have hlt : -1 / (r * (R - r)) < 1 / (r * (R + r)) :=
    lt_trans (div_neg_of_neg_of_pos (by norm_num) (by positivity)) (by positivity)
  refine ⟨p, m, (K - -1 / (r * (R - r))) / (1 / (r * (R + r)) - -1 / (r * (R - r))), by rw [hcomp]; rfl, by rw [hcomp]; exact hm, ?_, ?_⟩
  · rcases hmm with rfl | rfl
    · exact n1
    · rw [neg_dotProduct_neg]; exact n1
  · unfold torusColor
    rw [hb, hK, linearScale_fin hlt]

open Matrix in
/-- C120: in exact arithmetic, `torus_curvature.cpp` comes to an end with a complete image: the colour map is defined at every hit,
also where the root finder puts the hit beside the torus. -/
theorem C120_torus [F.Exact] (rec0 temp0 : HitRecord (Fl F)) (rows : List ℕ) (hrows : rows.Perm (List.range 1200)) :
    ∃ img, image (TorusProgram.scene rec0 temp0) rows lambertianSeed = some img ∧
      img.length = 4 * 1200 * 1200 ∧ ∀ p, p < 1200 * 1200 → img[4 * p + 3]? = some 255 := by
  have htor : (TorusProgram.torus : Torus (Fl F)) = Torus.ofReal 0 3 1 := by
    unfold TorusProgram.torus Torus.ofReal
    rw [cv_zero_vec]
    simp only [fl]; norm_num
  have hcam : (TorusProgram.scene rec0 temp0).camera = Camera.make (cv ![7 / 2, -7, -(21 / 2)]) (cv 0) (cv ![0, 1, 0]) (fin 40) (fin 1 : Fl F) := by
    show Camera.make _ _ _ _ _ = _
    congr 1
    · simp only [fl, cv_vec3]; norm_num
    · exact cv_zero_vec
    · simp only [fl, cv_vec3]; norm_num
    · simp only [fl]; norm_num
    · simp only [fl]; norm_num
  have hne : (![7 / 2, -7, -(21 / 2)] : Fin 3 → ℝ) ≠ 0 := fun h => by have := congrFun h 1; norm_num at this
  have hup : (![0, 1, 0] : Fin 3 → ℝ) ⨯₃ (![7 / 2, -7, -(21 / 2)] - 0) ≠ 0 := fun h => by
    have := congrFun h 0; simp [cross_apply] at this
  refine C120_image (TorusProgram.scene rec0 temp0) (Inv := fun g : Pcg => g.inc = 234121#64) (Good := FiniteRay) (L := 1)
    (HittableList.sound_at rfl ?_ rec0 temp0) (by norm_num) (rnd_eq _) ⟨0, cv_zero_vec, fun _ => ⟨le_rfl, by norm_num⟩⟩ ?_
    ((128 : ℕ) : ℝ) (by norm_num) (lit_count (n := 128) (by norm_num)) rows hrows lambertianSeed (by rfl)
  · have hlight : ∀ rec, ColorIn (F := F) 1 (solidColor ![1, 1, 1] rec) := fun rec =>
      colorIn_vec (nat_between (by norm_num) (by norm_num)) (nat_between (by norm_num) (by norm_num)) (nat_between (by norm_num) (by norm_num))
    intro i o m ho hm g r c temp out hg ⟨o', d, hr⟩ hhit
    match i with
    | 0 =>
      obtain rfl := Option.some.inj hm
      exact light_at hlight g hg r out
    | 1 =>
      obtain rfl := Option.some.inj hm
      exact light_at hlight g hg r out
    | 2 =>
      obtain rfl := Option.some.inj ho
      obtain rfl := Option.some.inj hm
      subst hr
      have hhit' : (Torus.ofReal 0 3 1).hit ⟨cv o', cv d⟩ (fin (1000 * F.eps)) c temp = (true, out) := by
        rw [← htor, ← hhit]
        simp only [fl]; norm_num; rfl
      obtain ⟨p, n, x, hp, hn, h1, hx⟩ := Torus.hit_colour (F := F) 0 (by norm_num) (by norm_num) o' d _ _ _ _ hhit'
      obtain ⟨k, hk, hk1⟩ := colorIn_map (F := F) (r := ColorTables.smooth_cool_warm_r) (g := ColorTables.smooth_cool_warm_g)
        (b := ColorTables.smooth_cool_warm_b) (by simp [colorMaps]) x
      exact lambertianMap_at hp hn h1 (c := k) (by rw [htor, hx]; exact hk) hk1 g hg _
    | k + 3 => cases ho
  · intro i j g hi hj
    rw [hcam]
    exact camera_finite _ _ _ _ _ (by norm_num) (by norm_num) hne hup 1200 1200 (by norm_num) (by norm_num) i j _ _ hi hj

/-- An instance: the rows from the bottom to the top. -/
example (rec0 temp0 : HitRecord (Fl exact64)) : ∃ img, image (TorusProgram.scene rec0 temp0) (List.range 1200).reverse lambertianSeed = some img ∧
    img.length = 5760000 ∧ ∀ p, p < 1200 * 1200 → img[4 * p + 3]? = some 255 :=
  C120_torus rec0 temp0 _ (List.reverse_perm _)

end DRT
