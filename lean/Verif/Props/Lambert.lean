import Verif.Props.Picture
import Verif.Props.Rect
import Verif.Props.Lambertian
import Mathlib.Analysis.SpecialFunctions.Integrals.Basic

/-!
# C123: `lambertian` and Lambert's cosine law

`lambertian::scatter` adds to the normal a vector of the half ball on the side of the normal. Lambert's law needs a vector of the whole
sphere. So no ray leaves at more than 45 degrees from the normal.
-/

namespace DRT
open Scalar Fl Render Matrix

variable {F : Fmt} {S : Type}

/-- The direction `w` is at most the angle `α` from the unit vector `n`. -/
def Within (α : ℝ) (n w : Fin 3 → ℝ) : Prop := Real.cos α * Real.sqrt (w ⬝ᵥ w) ≤ w ⬝ᵥ n

theorem within_of_ball {n w : Fin 3 → ℝ} (h1 : n ⬝ᵥ n = 1) (h2 : 1 ≤ w ⬝ᵥ n) (h3 : (w - n) ⬝ᵥ (w - n) ≤ 1) :
    Within (Real.pi / 4) n w := by
  have h4 : w ⬝ᵥ w ≤ 2 * (w ⬝ᵥ n) := by
    rw [sub_dotProduct, dotProduct_sub, dotProduct_sub, dotProduct_comm n w, h1] at h3
    linarith
  have h5 : w ⬝ᵥ w ≤ 2 * (w ⬝ᵥ n) ^ 2 := by nlinarith
  unfold Within
  rw [Real.cos_pi_div_four]
  have h6 : Real.sqrt (w ⬝ᵥ w) ≤ Real.sqrt 2 * (w ⬝ᵥ n) := by
    rw [Real.sqrt_le_left (by positivity)]
    rw [mul_pow, Real.sq_sqrt (by norm_num)]
    exact h5
  have h7 : Real.sqrt 2 * Real.sqrt 2 = 2 := Real.mul_self_sqrt (by norm_num)
  nlinarith [Real.sqrt_nonneg 2]

/-- C123: for a unit normal, from every state of its generator, `lambertian` scatters at an angle of at most 45 degrees from the normal. -/
theorem C123_cone [F.Exact] (albedo : Texture (Fl F)) (g : Pcg) (hg : g.inc = 234121#64) (r : Ray (Fl F)) (rec : HitRecord (Fl F))
    (n : Fin 3 → ℝ) (hn : rec.normal = cv n) (h1 : n ⬝ᵥ n = 1) :
    ∃ s g' w, Lambertian.scatter albedo (2 ^ 64) g r rec = some (s, g') ∧ s.ray = some ⟨rec.p, cv w⟩ ∧ w ≠ 0 ∧ Within (Real.pi / 4) n w := by
  obtain ⟨s, g', h2, -, -, -, w, h3, h4, h5, h6⟩ := C74_scatter albedo g hg r rec n hn h1
  exact ⟨s, g', w, h2, h3, h5, within_of_ball h1 h4 h6⟩

/-- The generator as the constructor seeds it, and the normal `(0, 0, 1)`: the slope is at least one. -/
example (rec : HitRecord (Fl exact64)) (hn : rec.normal = cv ![0, 0, 1]) (r : Ray (Fl exact64)) :
    ∃ s g' w, Lambertian.scatter (solidColor (cv ![1, 0, 0])) (2 ^ 64) lambertianSeed r rec = some (s, g') ∧ s.ray = some ⟨rec.p, cv w⟩ ∧
      w ≠ 0 ∧ Within (Real.pi / 4) ![0, 0, 1] w :=
  C123_cone _ _ rfl _ _ _ hn (by simp [dotProduct, Fin.sum_univ_three])

/-- Lambert's law: the share of the light that leaves at more than the angle `α` from the normal. The amount at angle `θ` is proportional to
`cos θ`, and the directions at angle `θ` fill a circle of radius `sin θ`. -/
noncomputable def lambertShare (α : ℝ) : ℝ :=
  (∫ θ in α..(Real.pi / 2), Real.sin θ * Real.cos θ) / ∫ θ in (0 : ℝ)..(Real.pi / 2), Real.sin θ * Real.cos θ

theorem lambertShare_half : lambertShare (Real.pi / 4) = 1 / 2 := by
  unfold lambertShare
  rw [integral_sin_mul_cos₁, integral_sin_mul_cos₁, Real.sin_pi_div_two, Real.sin_pi_div_four, Real.sin_zero]
  have : (Real.sqrt 2) ^ 2 = 2 := Real.sq_sqrt (by norm_num)
  rw [div_pow, this]
  norm_num

open Classical in
/-- C123 fails: by Lambert's law half of the light leaves at more than 45 degrees from the normal, but whatever the state of the generator,
however many rays are scattered, none of them does. -/
theorem C123_cosine_false [F.Exact] (albedo : Texture (Fl F)) (g : Pcg) (hg : g.inc = 234121#64) (r : Ray (Fl F)) (rec : HitRecord (Fl F))
    (n : Fin 3 → ℝ) (hn : rec.normal = cv n) (h1 : n ⬝ᵥ n = 1) :
    lambertShare (Real.pi / 4) = 1 / 2 ∧ ∀ N : ℕ, ((Finset.range N).filter fun k => ∃ s g' w,
      Lambertian.scatter albedo (2 ^ 64) (Pcg.advance^[k] g) r rec = some (s, g') ∧ s.ray = some ⟨rec.p, cv w⟩ ∧
        ¬ Within (Real.pi / 4) n w).card = 0 := by
  refine ⟨lambertShare_half, fun N => ?_⟩
  rw [Finset.card_eq_zero, Finset.filter_eq_empty_iff]
  rintro k - ⟨s, g', w, h2, h3, h4⟩
  obtain ⟨s', g'', w', h5, h6, -, h7⟩ := C123_cone albedo (Pcg.advance^[k] g) (by rw [Pcg.inc_iterate, hg]) r rec n hn h1
  rw [h2] at h5
  simp only [Option.some.injEq, Prod.mk.injEq] at h5
  obtain ⟨rfl, -⟩ := h5
  rw [h3] at h6
  simp only [Option.some.injEq, Ray.mk.injEq, true_and] at h6
  rw [cv_inj] at h6
  subst h6
  exact h4 h7

example (rec : HitRecord (Fl exact64)) (hn : rec.normal = cv ![0, 0, 1]) (r : Ray (Fl exact64)) : lambertShare (Real.pi / 4) = 1 / 2 :=
  (C123_cosine_false (solidColor (cv ![1, 0, 0])) lambertianSeed rfl r rec _ hn (by simp [dotProduct, Fin.sum_univ_three])).1

/-- C123: what this does to pictures. If a ray meets a `lambertian` surface at a point from which nothing lies within 45 degrees of the
normal, its colour is that of the background times that of the surface: lamps at larger angles do not light the surface. -/
theorem C123_unlit [F.Exact] (world : World (Fl F) S) (bg : Fin 3 → ℝ) (rec0 rec : HitRecord (Fl F)) (s s' : S) (r : Ray (Fl F))
    (albedo : Texture (Fl F)) (get : S → Pcg) (set : Pcg → S → S)
    (h : world s r (1000 * eps) inf rec0 = some (some (Material.lambertian albedo get set), rec, s')) (hg : (get s').inc = 234121#64)
    (a n : Fin 3 → ℝ) (ha : albedo rec = cv a) (hn : rec.normal = cv n) (h1 : n ⬝ᵥ n = 1)
    (hfree : ∀ s w, w ≠ 0 → Within (Real.pi / 4) n w → ∃ rec' s', world s ⟨rec.p, cv w⟩ (1000 * eps) inf rec0 = some (none, rec', s')) (depth : ℕ) :
    ∃ c, rayColor world (cv bg) rec0 (depth + 2) s r = some c ∧ c.color = cv fun i => bg i * a i := by
  obtain ⟨sc, g', h2, h3, h4, -, w, h5, h6, h7, h8⟩ := C74_scatter albedo (get s') hg r rec n hn h1
  obtain ⟨rec', s'', h9⟩ := hfree (set g' s') w h7 (within_of_ball h1 h6 h8)
  refine ⟨⟨cv fun i => bg i * a i, s'', 2⟩, ?_, rfl⟩
  rw [rayColor, h]
  simp only [Material.lambertian, h2, Option.map_some, h3, if_true, h4, h5]
  rw [rayColor, h9]
  simp only [Option.some.injEq, Shade.mk.injEq, and_true]
  rw [ha]
  funext i
  have : Material.emittedDefault rec = (cv 0 : Vec (Fl F) 3) := cv_zero_vec
  rw [this]
  simp [cv_apply]

/-! ## A floor beside a lamp -/

/-- A white floor, and a lamp that stands upright on it at `x = 1`, of height `h`. -/
noncomputable def wallScene (h : ℝ) (e : Fin 3 → ℝ) : HittableList (Fl F) (Material (Fl F) Pcg) :=
  ⟨[Rect.xy (Rect.ofReal (-2) 2 (-2) 2 0), Rect.yz (Rect.ofReal (-1) 1 0 h 1)],
    [Material.lambertian (solidColor (cv fun _ => 1)) id (fun g _ => g), Material.diffuseLight (solidColor (cv e))]⟩

/-- A ray from `x = 0` with no second chance at the floor either misses both or meets the lamp. -/
theorem wall_lamp [F.Exact] (h : ℝ) (o d : Fin 3 → ℝ) (h0 : o 0 = 0) (hd : d ≠ 0) (tmin tmax : Fl F) (hn : isNaN tmin = false)
    (hm : isNaN tmax = false) (rec : HitRecord (Fl F))
    (hmiss : ∀ z, Scalar.le tmin (fin z : Fl F) = true → z * d 0 = 1 → o 2 + z * d 2 < 0 ∨ h < o 2 + z * d 2) :
    ((Rect.ofReal (-1) 1 0 h 1 : Rect (Fl F)).hitYZ ⟨cv o, cv d⟩ tmin tmax rec).1 = false := by
  by_cases hx : d 0 = 0
  · rw [(C59_parallel (-1) 1 0 h 1 o d hd tmin tmax rec).2.2 hx (by rw [h0]; norm_num)]
  · by_contra hc
    rw [Bool.not_eq_false] at hc
    obtain ⟨z, hz, hz1, -, hz2⟩ := (((C59_exact_partial (-1) 1 0 h 1 o d tmin hn).2.2 hx) tmax rec hm).1.1 hc
    simp only [Pi.add_apply, Pi.smul_apply, smul_eq_mul, h0, zero_add] at hz1 hz2
    rcases hmiss z hz.1 hz1 with h | h <;> linarith

/-- A list of two objects of which the first is hit and the second is not. -/
theorem two_first {M : Type} (a b : Hittable (Fl F)) (m n : M) (r : Ray (Fl F)) (tmin : Fl F) (rec temp0 x : HitRecord (Fl F))
    (ha : a.hit r tmin pinf temp0 = (true, x)) (hx : Scalar.lt x.t pinf = true) (hb : (b.hit r tmin x.t x).1 = false) :
    HittableList.hit ⟨[a, b], [m, n]⟩ r tmin pinf rec temp0 = (some (some m), x) := by
  unfold HittableList.hit
  simp only [HittableList.loop]
  have h1 : HittableList.step r tmin ⟨temp0, pinf, rec, none⟩ 0 a = ⟨x, x.t, x, some 0⟩ := by
    unfold HittableList.step
    simp only [ha, hx, if_true]
  have h2 : HittableList.step r tmin ⟨x, x.t, x, some 0⟩ (0 + 1) b = ⟨(b.hit r tmin x.t x).2, x.t, x, some 0⟩ := by
    unfold HittableList.step
    simp only [hb, Bool.false_eq_true, if_false]
  rw [h1, h2]
  rfl

/-- A list of two objects of which neither is hit. -/
theorem two_none {M : Type} (a b : Hittable (Fl F)) (m n : M) (r : Ray (Fl F)) (tmin : Fl F) (rec temp0 : HitRecord (Fl F))
    (ha : (a.hit r tmin pinf temp0).1 = false) (hb : ∀ rec, (b.hit r tmin pinf rec).1 = false) :
    HittableList.hit ⟨[a, b], [m, n]⟩ r tmin pinf rec temp0 = (some none, rec) := by
  unfold HittableList.hit
  simp only [HittableList.loop]
  have h1 : HittableList.step r tmin ⟨temp0, pinf, rec, none⟩ 0 a = ⟨(a.hit r tmin pinf temp0).2, pinf, rec, none⟩ := by
    unfold HittableList.step
    simp only [ha, Bool.false_eq_true, if_false]
  have h2 : ∀ t, HittableList.step r tmin ⟨t, pinf, rec, none⟩ (0 + 1) b = ⟨(b.hit r tmin pinf t).2, pinf, rec, none⟩ := by
    intro t
    unfold HittableList.step
    simp only [hb, Bool.false_eq_true, if_false]
  rw [h1, h2]

/-- A list of two objects of which only the second is hit. -/
theorem two_second {M : Type} (a b : Hittable (Fl F)) (m n : M) (r : Ray (Fl F)) (tmin : Fl F) (rec temp0 : HitRecord (Fl F))
    (ha : (a.hit r tmin pinf temp0).1 = false)
    (hb : ∀ rec, (b.hit r tmin pinf rec).1 = true ∧ Scalar.lt (b.hit r tmin pinf rec).2.t pinf = true) :
    (HittableList.hit ⟨[a, b], [m, n]⟩ r tmin pinf rec temp0).1 = some (some n) := by
  unfold HittableList.hit
  simp only [HittableList.loop]
  have h1 : HittableList.step r tmin ⟨temp0, pinf, rec, none⟩ 0 a = ⟨(a.hit r tmin pinf temp0).2, pinf, rec, none⟩ := by
    unfold HittableList.step
    simp only [ha, Bool.false_eq_true, if_false]
  have h2 : ∀ t, HittableList.step r tmin ⟨t, pinf, rec, none⟩ (0 + 1) b =
      ⟨(b.hit r tmin pinf t).2, (b.hit r tmin pinf t).2.t, (b.hit r tmin pinf t).2, some 1⟩ := by
    intro t
    unfold HittableList.step
    simp only [hb, if_true]
  rw [h1, h2]
  rfl

/-- A ray that leaves the floor upwards does not meet it again. -/
theorem floor_left [F.Exact] (o d : Fin 3 → ℝ) (h0 : o 2 = 0) (hd : 0 < d 2) (rec : HitRecord (Fl F)) :
    ((Rect.xy (Rect.ofReal (-2) 2 (-2) 2 0 : Rect (Fl F))).hit ⟨cv o, cv d⟩ (1000 * eps) pinf rec).1 = false := by
  by_contra hc
  rw [Bool.not_eq_false] at hc
  obtain ⟨z, hz, hz1, -⟩ := (((C59_exact_partial (-2) 2 (-2) 2 0 o d (1000 * eps) (by rw [offset_exact]; rfl)).1 hd.ne') pinf rec rfl).1.1 hc
  have h1 := hz.1
  dsimp only at h1
  rw [offset_exact, le_fin, decide_eq_true_eq] at h1
  have heps0 := Fmt.Exact.eps_pos (F := F)
  simp only [Pi.add_apply, Pi.smul_apply, smul_eq_mul, h0, zero_add] at hz1
  have : 0 < z * d 2 := mul_pos (by linarith) hd
  linarith

theorem within_slope {w : Fin 3 → ℝ} (hw : w ≠ 0) (h : Within (Real.pi / 4) ![0, 0, 1] w) : 0 < w 2 ∧ w 0 ^ 2 + w 1 ^ 2 ≤ w 2 ^ 2 := by
  unfold Within at h
  have e : w ⬝ᵥ ![0, 0, 1] = w 2 := by simp [dotProduct, Fin.sum_univ_three]
  rw [e, Real.cos_pi_div_four] at h
  have hp : 0 < w ⬝ᵥ w := lt_of_le_of_ne (dotProduct_self_nonneg' w) fun h => hw (dotProduct_self_eq_zero.1 h.symm)
  have hs : 0 < Real.sqrt (w ⬝ᵥ w) := Real.sqrt_pos.2 hp
  have h2 : 0 < Real.sqrt 2 := Real.sqrt_pos.2 (by norm_num)
  have h3 : 0 < Real.sqrt 2 / 2 * Real.sqrt (w ⬝ᵥ w) := by positivity
  refine ⟨by linarith, ?_⟩
  have h4 : (Real.sqrt 2 / 2 * Real.sqrt (w ⬝ᵥ w)) ^ 2 ≤ w 2 ^ 2 := pow_le_pow_left₀ h3.le h 2
  rw [mul_pow, div_pow, Real.sq_sqrt (by norm_num), Real.sq_sqrt hp.le] at h4
  simp only [dotProduct, Fin.sum_univ_three] at h4
  nlinarith

/-- C123 fails visibly: look straight down at a white floor beside a lamp that stands on it, at a distance that exceeds the height of the lamp.
The floor is black for every state of the generator and every depth, although the lamp is in plain view from that point of the floor. -/
theorem C123_wall_false [F.Exact] (heps : 1000 * F.eps ≤ 1) (h c : ℝ) (h0 : 0 < h) (h1 : h < 1) (hc : 1 ≤ c) (e : Fin 3 → ℝ)
    (rec0 temp0 : HitRecord (Fl F)) :
    (∀ (g : Pcg) (depth : ℕ), g.inc = 234121#64 → ∃ x,
      rayColor ((wallScene h e).world temp0) (cv 0) rec0 (depth + 2) g ⟨cv ![0, 0, c], cv ![0, 0, -1]⟩ = some x ∧ x.color = cv 0) ∧
    ∀ (g : Pcg) (depth : ℕ), ∃ x,
      rayColor ((wallScene h e).world temp0) (cv 0) rec0 (depth + 1) g ⟨cv ![0, 0, 0], cv ![1, 0, h / 2]⟩ = some x ∧ x.color = cv e := by
  have heps0 := Fmt.Exact.eps_pos (F := F)
  constructor
  · intro g depth hg
    -- the floor, seen from above
    have hfl := Rect.hitPlane_fin (F := F) 0 1 2 ![0, 0, 1] (-2) 2 (-2) 2 0 ![0, 0, c] ![0, 0, -1] (by simp) (1000 * eps) pinf temp0
    have ht : (0 - (![0, 0, c] : Fin 3 → ℝ) 2) / (![0, 0, -1] : Fin 3 → ℝ) 2 = c := by simp
    dsimp only at hfl
    rw [ht] at hfl
    have hr : (Scalar.lt (fin c : Fl F) (1000 * eps) || Scalar.gt (fin c : Fl F) pinf) = false := by
      rw [offset_exact, lt_fin, Bool.or_eq_false_iff]
      exact ⟨by simpa using heps.trans hc, rfl⟩
    rw [hr, if_neg Bool.false_ne_true, if_neg (by simp)] at hfl
    obtain ⟨x, hx⟩ : ∃ x : HitRecord (Fl F), x = { ({ temp0 with
        u := (fin ((![0, 0, c] : Fin 3 → ℝ) 0 + c * (![0, 0, -1] : Fin 3 → ℝ) 0 - -2) : Fl F) / fin (2 - -2),
        v := (fin ((![0, 0, c] : Fin 3 → ℝ) 1 + c * (![0, 0, -1] : Fin 3 → ℝ) 1 - -2) : Fl F) / fin (2 - -2), t := fin c } :
        HitRecord (Fl F)).setFaceNormal ⟨cv ![0, 0, c], cv ![0, 0, -1]⟩ ![0, 0, 1] with p := cv (![0, 0, c] + c • ![0, 0, -1]) } := ⟨_, rfl⟩
    rw [← hx] at hfl
    have xt : x.t = fin c := by rw [hx]; rfl
    have xp : x.p = cv 0 := by
      rw [hx]
      dsimp only
      rw [cv_inj]
      funext i
      fin_cases i <;> simp
    have xn : x.normal = cv ![0, 0, 1] := by
      rw [hx]
      unfold HitRecord.setFaceNormal
      dsimp only
      have e1 : (![0, 0, 1] : Vec (Fl F) 3) = cv ![0, 0, 1] := by
        funext i
        fin_cases i
        · exact rzero
        · exact rzero
        · exact rone
      rw [e1, cv_dot, rzero, lt_fin, if_pos]
      simp [dotProduct, Fin.sum_univ_three]
    have hne : (![0, 0, -1] : Fin 3 → ℝ) ≠ 0 := fun h => by have := congrFun h 2; simp at this
    have hn : isNaN (1000 * eps : Fl F) = false := by rw [offset_exact]; rfl
    have hfirst : (wallScene h e).world temp0 g ⟨cv ![0, 0, c], cv ![0, 0, -1]⟩ (1000 * eps) inf rec0 =
        some (some (Material.lambertian (solidColor (cv fun _ => 1)) id (fun g _ => g)), x, g) := by
      unfold HittableList.world wallScene
      rw [show (inf : Fl F) = pinf from rfl, two_first _ _ _ _ _ _ _ _ x hfl (by rw [xt]; rfl)
        (wall_lamp h _ _ (by simp) hne _ _ hn (by rw [xt]; rfl) x (fun z _ hz => by simp at hz))]
      rfl
    obtain ⟨y, hy, hy'⟩ := C123_unlit _ 0 rec0 x g g _ _ id _ hfirst hg (fun _ => 1) ![0, 0, 1] rfl xn
      (by simp [dotProduct, Fin.sum_univ_three]) (by
        intro s w hw hin
        have w2 := within_slope hw hin
        refine ⟨rec0, s, ?_⟩
        unfold HittableList.world wallScene
        rw [xp, show (inf : Fl F) = pinf from rfl, two_none]
        · rfl
        · exact floor_left 0 w rfl w2.1 temp0
        · intro rec
          refine wall_lamp h _ _ (by simp) hw _ _ hn rfl rec (fun z hz hz1 => Or.inr ?_)
          rw [offset_exact, le_fin, decide_eq_true_eq] at hz
          have hz0 : 0 < z := by linarith
          have h3 : (z * w 0) ^ 2 ≤ (z * w 2) ^ 2 := by nlinarith [mul_le_mul_of_nonneg_left w2.2 (sq_nonneg z), sq_nonneg (z * w 1)]
          rw [hz1, one_pow] at h3
          have h4 : 0 < z * w 2 := mul_pos hz0 w2.1
          have : 1 ≤ z * w 2 := by nlinarith
          simp only [Pi.zero_apply, zero_add]
          linarith) depth
    exact ⟨y, hy, by rw [hy', cv_inj]; funext i; simp⟩
  · intro g depth
    have hn : isNaN (1000 * eps : Fl F) = false := by rw [offset_exact]; rfl
    have hb : ∀ rec, ((Rect.ofReal (-1) 1 0 h 1 : Rect (Fl F)).hitYZ ⟨cv ![0, 0, 0], cv ![1, 0, h / 2]⟩ (1000 * eps) pinf rec).1 = true ∧
        Scalar.lt ((Rect.ofReal (-1) 1 0 h 1 : Rect (Fl F)).hitYZ ⟨cv ![0, 0, 0], cv ![1, 0, h / 2]⟩ (1000 * eps) pinf rec).2.t pinf = true := by
      intro rec
      have h2 := (C59_exact_partial (F := F) (-1) 1 0 h 1 ![0, 0, 0] ![1, 0, h / 2] (1000 * eps) hn).2.2 (by simp) pinf rec rfl
      have h3 := h2.1.2 ⟨1, ⟨by rw [offset_exact, le_fin]; simpa using heps, rfl⟩, by
        simp only [rectSet, Set.mem_ofPred_eq, Pi.add_apply, Pi.smul_apply, smul_eq_mul, cons_val_zero, cons_val_one, cons_val]
        refine ⟨by norm_num, ⟨by norm_num, by norm_num⟩, by linarith, by linarith⟩⟩
      obtain ⟨z, hz, -⟩ := h2.2 h3
      exact ⟨h3, by rw [hz]; rfl⟩
    have h2 := two_second (Rect.xy (Rect.ofReal (-2) 2 (-2) 2 0)) (Rect.yz (Rect.ofReal (-1) 1 0 h 1))
      (Material.lambertian (R := Fl F) (S := Pcg) (solidColor (cv fun _ => 1)) id (fun g _ => g)) (Material.diffuseLight (solidColor (cv e)))
      ⟨cv ![0, 0, 0], cv ![1, 0, h / 2]⟩ (1000 * eps) rec0 temp0 (floor_left _ _ (by simp) (by simpa using h0) temp0) hb
    refine ⟨⟨cv e, g, 1⟩, ?_, rfl⟩
    rw [rayColor]
    unfold HittableList.world wallScene
    rw [show (inf : Fl F) = pinf from rfl, h2]
    rfl

/-- A lamp of height 9/10 at distance 1, in `double` without rounding. -/
example (rec0 temp0 : HitRecord (Fl exact64)) : ∃ x,
    rayColor ((wallScene (9 / 10) (fun _ => 1000)).world temp0) (cv 0) rec0 8 lambertianSeed ⟨cv ![0, 0, 3], cv ![0, 0, -1]⟩ = some x ∧ x.color = cv 0 :=
  (C123_wall_false (by simp only [exact64]; norm_num) (9 / 10) 3 (by norm_num) (by norm_num) (by norm_num) _ rec0 temp0).1 lambertianSeed 6 rfl

end DRT
