import Verif.Model.Animation
import Verif.Props.Programs
import Verif.Props.Views

/-! # The animation of the ellipsoid: C134 -/

namespace DRT
open Scalar Vec Fl Matrix Render

variable {F : Fmt}

/-- The semi-axes of the ellipsoid of the animation. -/
noncomputable def frameAxes : Fin 3 → ℝ := ![195 / 100, 15 / 10, 25 / 10]

theorem frameAxes_pos : ∀ i, 0 < frameAxes i := by
  intro i; fin_cases i <;> norm_num [frameAxes]

theorem frameEllipsoid_eq [F.Exact] : (frameEllipsoid : Ellipsoid (Fl F)) = Ellipsoid.ofReal 0 frameAxes := by
  unfold frameEllipsoid Ellipsoid.ofReal frameAxes
  rw [cv_zero_vec]
  simp only [fl, cv_vec3]; norm_num

/-- The derivative of the implicit function of an ellipsoid along a ray. -/
theorem gradient_dot (s o d : Fin 3 → ℝ) (z : ℝ) : d ⬝ᵥ ellipsoidGradient 0 s (o + z • d) =
    2 * (scaled d s ⬝ᵥ scaled d s) * z + 2 * (scaled (o - 0) s ⬝ᵥ scaled d s) := by
  simp only [ellipsoidGradient, scaled, dotProduct, Fin.sum_univ_three, Pi.add_apply, Pi.sub_apply, Pi.smul_apply, smul_eq_mul, Pi.zero_apply,
    sub_zero]
  ring

theorem scaled_pos {s d : Fin 3 → ℝ} (hs : ∀ i, 0 < s i) (hd : d ≠ 0) : 0 < scaled d s ⬝ᵥ scaled d s := by
  refine lt_of_le_of_ne (dotProduct_self_nonneg' _) fun h => hd ?_
  have h0 := dotProduct_self_eq_zero.1 h.symm
  funext i
  have := congrFun h0 i
  simpa [scaled, (hs i).ne'] using this

/-- A ray whose first point on the ellipsoid, if there is one, is no pole, and which enters the ellipsoid there. -/
def EntersBesidePoles (r : Ray (Fl F)) : Prop :=
  ∃ o d : Fin 3 → ℝ, r = ⟨cv o, cv d⟩ ∧ d ≠ 0 ∧ ∀ z, 1000 * F.eps ≤ z → o + z • d ∈ ellipsoidSet 0 frameAxes →
    (∀ w, 1000 * F.eps ≤ w → o + w • d ∈ ellipsoidSet 0 frameAxes → z ≤ w) →
    ((o + z • d) 0 ≠ 0 ∨ (o + z • d) 1 ≠ 0) ∧ d ⬝ᵥ ellipsoidGradient 0 frameAxes (o + z • d) < 0

/-- A ray that leaves a point of the ellipsoid outwards does not come back. -/
theorem leaves [F.Exact] {p w : Fin 3 → ℝ} (hp : p ∈ ellipsoidSet 0 frameAxes) (hw : 0 < w ⬝ᵥ ellipsoidGradient 0 frameAxes p) :
    EntersBesidePoles (⟨cv p, cv w⟩ : Ray (Fl F)) := by
  have hw0 : w ≠ 0 := by rintro rfl; simp at hw
  refine ⟨p, w, rfl, hw0, fun z hz hzE _ => ?_⟩
  exfalso
  have he := Fmt.Exact.eps_pos (F := F)
  have h0 := (ellipsoid_quadratic 0 frameAxes p w 0).mp (by simpa using hp)
  have h1 := (ellipsoid_quadratic 0 frameAxes p w z).mp hzE
  have h2 := gradient_dot frameAxes p w 0
  rw [zero_smul, add_zero] at h2
  rw [h2] at hw
  have hA := scaled_pos frameAxes_pos hw0
  nlinarith [mul_pos hA (show 0 < z by linarith), mul_pos (show 0 < z by linarith) (show 0 < z by linarith)]

theorem enters_hit [F.Exact] (ht : F.tiny = 0) {o d : Fin 3 → ℝ} (hd : d ≠ 0) {c : Fl F} {temp out : HitRecord (Fl F)}
    (h : (Ellipsoid.ofReal 0 frameAxes).hit ⟨cv o, cv d⟩ (fin (1000 * F.eps)) c temp = (true, out)) :
    ∃ z, out.p = cv (o + z • d) ∧ 1000 * F.eps ≤ z ∧ o + z • d ∈ ellipsoidSet 0 frameAxes ∧
      ∀ w, 1000 * F.eps ≤ w → o + w • d ∈ ellipsoidSet 0 frameAxes → z ≤ w := by
  have h1 : ((Ellipsoid.ofReal 0 frameAxes).hit ⟨cv o, cv d⟩ (fin (1000 * F.eps)) c temp).1 = true := by rw [h]
  have hc : isNaN c = false := by
    obtain ⟨-, h2, -⟩ := C51_in_range _ _ _ _ _ h1
    revert h2
    generalize ((Ellipsoid.ofReal 0 frameAxes).hit ⟨cv o, cv d⟩ (fin (1000 * F.eps)) c temp).2.t = t
    intro h2
    cases c with
    | nan => cases t <;> exact absurd h2 Bool.false_ne_true
    | _ => rfl
  obtain ⟨z, -, h2, ⟨h3, h5⟩, h4, h6⟩ := (C51_nearest_ideal (F := F) ht 0 frameAxes (fun i => (frameAxes_pos i).ne') o d
    (fin (1000 * F.eps)) hd c temp hc).2 h1
  rw [h] at h2
  rw [le_fin, decide_eq_true_eq] at h3
  refine ⟨z, h2, h3, h4, fun w hw hwE => ?_⟩
  by_cases hwc : Scalar.le (fin w) c = true
  · exact h6 w ⟨by rw [le_fin]; simpa using hw, hwc⟩ hwE
  · by_contra hlt
    apply hwc
    cases c with
    | nan => simp at h5
    | ninf => simp at h5
    | pinf => simp
    | fin c =>
      rw [le_fin, decide_eq_true_eq] at h5 ⊢
      linarith

/-- At a hit where the ray enters the ellipsoid beside the poles the colour is defined, and the scattered ray leaves. -/
theorem frame_scatter [F.Exact] (ht : F.tiny = 0) {L : ℝ} (g : Pcg) (hg : g.inc = 234121#64) (r : Ray (Fl F)) (hr : EntersBesidePoles r)
    {c : Fl F} {temp out : HitRecord (Fl F)} (h : (Ellipsoid.ofReal 0 frameAxes).hit r (fin (1000 * F.eps)) c temp = (true, out)) :
    ∃ sc s', (Material.lambertianMap (ellipsoidColor (Ellipsoid.ofReal 0 frameAxes)) id (fun g _ => g)).scatter g r out = some (sc, s') ∧
      s'.inc = 234121#64 ∧
      (sc.ok = true → ∃ a q, sc.attenuation = some a ∧ sc.ray = some q ∧ ColorIn 1 a ∧ EntersBesidePoles q ∧
        (Material.lambertianMap (ellipsoidColor (Ellipsoid.ofReal 0 frameAxes)) id (fun g _ => g)).emitted out = cv 0) ∧
      (sc.ok = false → ColorIn L ((Material.lambertianMap (S := Pcg) (ellipsoidColor (Ellipsoid.ofReal 0 frameAxes)) id (fun g _ => g)).emitted out)) := by
  obtain ⟨o, d, rfl, hd, hgood⟩ := hr
  obtain ⟨z, hp, h1, h2, h3⟩ := enters_hit ht hd h
  obtain ⟨hpole, hent⟩ := hgood z h1 h2 h3
  have ht' : ((Ellipsoid.ofReal 0 frameAxes).hit ⟨cv o, cv d⟩ (fin (1000 * F.eps)) c temp).1 = true := by rw [h]
  have hp' : ((Ellipsoid.ofReal 0 frameAxes).hit ⟨cv o, cv d⟩ (fin (1000 * F.eps)) c temp).2.p = cv (o + z • d) := by rw [h]; exact hp
  obtain ⟨⟨m, hm, hm1, hmm, hdm⟩, -⟩ := C52_record (F := F) 0 frameAxes frameAxes_pos o d _ c temp _ h2 ht' hp'
  rw [h] at hm
  obtain ⟨-, -, -, x, -, -, -, -, -, -, -, -, -, -, -, -, -, hcol⟩ := C105_ellipsoid (F := F) 0 frameAxes frameAxes_pos
    (Or.inl (by norm_num [frameAxes])) o d _ c temp _ h2 hpole ht' hp'
  rw [h] at hcol
  dsimp only at hm hcol
  obtain ⟨k, hk, hk1⟩ := colorIn_map (F := F) (r := ColorTables.viridis_r) (g := ColorTables.viridis_g) (b := ColorTables.viridis_b)
    (by simp [colorMaps]) x
  have hc : ellipsoidColor (Ellipsoid.ofReal 0 frameAxes) out = some k := by rw [hcol]; exact hk
  obtain ⟨sc, g', e2, e3, e4, e5, w, e6, e7, -⟩ := C74_scatter (F := F) (solidColor k) g hg ⟨cv o, cv d⟩ out m hm hm1
  refine ⟨sc, g', ?_, e5, fun _ => ⟨k, _, e4, e6, hk1, ?_, cv_zero_vec⟩, fun h => ?_⟩
  · simp only [Material.lambertianMap, Material.lambertian, hc, Option.bind_some, id, e2, Option.map_some]
  · rw [hp]
    refine leaves h2 ?_
    have hgpos : 0 < ellipsoidGradient 0 frameAxes (o + z • d) ⬝ᵥ ellipsoidGradient 0 frameAxes (o + z • d) := by
      refine lt_of_le_of_ne (dotProduct_self_nonneg' _) fun h => ?_
      rw [dotProduct_self_eq_zero.1 h.symm, dotProduct_zero] at hent
      exact lt_irrefl _ hent
    generalize ellipsoidGradient 0 frameAxes (o + z • d) = G at *
    have hs := Real.sqrt_pos.mpr hgpos
    have hs' := inv_pos.mpr hs
    rcases hmm with rfl | rfl
    · rw [dotProduct_smul, smul_eq_mul] at e7
      by_contra hn
      nlinarith [mul_nonneg hs'.le (neg_nonneg.mpr (not_lt.mp hn))]
    · exfalso
      rw [dotProduct_neg, dotProduct_smul, smul_eq_mul] at hdm
      nlinarith [mul_pos hs' (neg_pos.mpr hent)]
  · rw [e3] at h; cases h

/-- The scene of every frame can be built. -/
theorem frame_scene [F.Exact] (i : ℕ) (rec0 temp0 : HitRecord (Fl F)) :
    ∃ l : Disk (Fl F), backlightDisk (frameCamera i) = some l ∧ Animation.scene i rec0 temp0 = some
      { width := 1200, height := 750, background := ![0, 0, 0], camera := frameCamera i, samples := 1024, rec0 := rec0,
        world := ((HittableList.empty.add (frameEllipsoid (R := Fl F)).toHittable
          (Material.lambertianMap (ellipsoidColor frameEllipsoid) id (fun g _ => g))).add l.toHittable
          (Material.diffuseLight (solidColor ![1, 1, 1]))).world temp0 } ∧
      ∀ (s t tmin : ℝ) (tmax : Fl F) (rec : HitRecord (Fl F)), 0 ≤ tmin → isNaN tmax = false →
        (l.hit ((frameCamera i : Camera (Fl F)).getRay (fin s) (fin t)) (fin tmin) tmax rec).1 = false := by
  have hee := frameEye_sq i
  have e1 : frameEye i ≠ 0 := fun h => by rw [h] at hee; simp at hee
  have e2 : (![0, 1, 0] : Fin 3 → ℝ) ⨯₃ (frameEye i - 0) ≠ 0 := fun h => by
    have h0 := congrFun h 0
    have h2 := congrFun h 2
    simp [cross_apply] at h0 h2
    apply e1
    funext k
    fin_cases k
    · exact h2
    · rfl
    · exact h0
  obtain ⟨l, hl, hun⟩ := C109_unseen (F := F) (frameEye i) 0 ![0, 1, 0] 40 (16 / 10) (by norm_num) (by norm_num) e1 e2
  rw [← frameCamera_eq] at hl
  simp only [← frameCamera_eq] at hun
  refine ⟨l, hl, ?_, hun⟩
  unfold Animation.scene Animation.objects
  rw [hl]
  rfl

/-- The world of every frame, for rays that enter the ellipsoid beside its poles. -/
theorem frame_sound [F.Exact] (ht : F.tiny = 0) (l : Disk (Fl F)) (rec0 temp0 : HitRecord (Fl F)) :
    Sound (((HittableList.empty.add (frameEllipsoid (R := Fl F)).toHittable
      (Material.lambertianMap (ellipsoidColor frameEllipsoid) id (fun g _ => g))).add l.toHittable
      (Material.diffuseLight (solidColor ![1, 1, 1]))).world temp0) rec0 (fun g : Pcg => g.inc = 234121#64) EntersBesidePoles 1 := by
  refine HittableList.sound_at rfl ?_ rec0 temp0
  intro i o m ho hm g r c temp out hg hr hhit
  match i with
  | 0 =>
    obtain rfl := Option.some.inj ho
    obtain rfl := Option.some.inj hm
    rw [frameEllipsoid_eq] at hhit ⊢
    have e : (1000 * eps : Fl F) = fin (1000 * F.eps) := by simp only [fl]; norm_num
    rw [e] at hhit
    exact frame_scatter ht g hg r hr hhit
  | 1 =>
    obtain rfl := Option.some.inj hm
    exact light_at (fun rec => colorIn_vec (nat_between (by norm_num) (by norm_num)) (nat_between (by norm_num) (by norm_num))
      (nat_between (by norm_num) (by norm_num))) g hg r out
  | k + 2 => cases ho

/-- A ray of the camera that neither touches the ellipsoid nor passes through a pole. -/
theorem frame_enters [F.Exact] (heps : F.eps ≤ 1 / 1000) (i : ℕ) (s t : ℝ) (d : Fin 3 → ℝ)
    (hray : (frameCamera i : Camera (Fl F)).getRay (fin s) (fin t) = ⟨cv (frameEye i), cv d⟩)
    (htouch : ∀ z : ℝ, frameEye i + z • d ∈ ellipsoidSet 0 frameAxes → d ⬝ᵥ ellipsoidGradient 0 frameAxes (frameEye i + z • d) ≠ 0)
    (hpole : ∀ z : ℝ, frameEye i + z • d ≠ ![0, 0, 5 / 2] ∧ frameEye i + z • d ≠ ![0, 0, -(5 / 2)]) :
    EntersBesidePoles ((frameCamera i : Camera (Fl F)).getRay (fin s) (fin t)) := by
  have he := Fmt.Exact.eps_pos (F := F)
  have hee := frameEye_sq i
  have e1 : frameEye i ≠ 0 := fun h => by rw [h] at hee; simp at hee
  have e2 : (![0, 1, 0] : Fin 3 → ℝ) ⨯₃ (frameEye i - 0) ≠ 0 := fun h => by
    have h0 := congrFun h 0
    have h2 := congrFun h 2
    simp [cross_apply] at h0 h2
    apply e1
    funext k
    fin_cases k
    · exact h2
    · rfl
    · exact h0
  have hdepth : d ⬝ᵥ frameEye i = -7 := by
    obtain ⟨u, v, w, ⟨hu, hv, hw1, huv, hvw, hwu, -⟩, ⟨k, hk, hkw⟩, -, -, h⟩ := C82_rays (F := F) (frameEye i) 0 ![0, 1, 0] 40 (16 / 10)
      (by norm_num) (by norm_num) e1 e2
    rw [frameCamera_eq, h] at hray
    have hd : d = _ := (cv_inj.mp (congrArg Ray.dir hray)).symm
    rw [sub_zero] at hkw
    have hk7 : k = 7 := by
      rw [hkw] at hee
      simp only [smul_dotProduct, dotProduct_smul, smul_eq_mul, hw1] at hee
      nlinarith
    have huw : u ⬝ᵥ w = 0 := by rw [dotProduct_comm]; exact hwu
    rw [hkw, hd, hk7]
    simp only [add_dotProduct, neg_dotProduct, smul_dotProduct, dotProduct_smul, smul_eq_mul, hw1, huw, hvw]
    ring
  have hd0 : d ≠ 0 := by rintro rfl; simp at hdepth
  -- a point of the ellipsoid is far from the eye
  have hfar : ∀ z : ℝ, frameEye i + z • d ∈ ellipsoidSet 0 frameAxes → 9 / 2 ≤ z := by
    intro z hz
    obtain ⟨p, hp⟩ : ∃ p, p = frameEye i + z • d := ⟨_, rfl⟩
    rw [← hp] at hz
    have h1 : p ⬝ᵥ frameEye i = 49 - 7 * z := by
      rw [hp, add_dotProduct, smul_dotProduct, hee, hdepth, smul_eq_mul]; ring
    have hz' : (p 0 / (195 / 100)) ^ 2 + (p 1 / (15 / 10)) ^ 2 + (p 2 / (25 / 10)) ^ 2 = 1 := by
      simpa [ellipsoidSet, frameAxes] using hz
    have hpp : p ⬝ᵥ p ≤ (5 / 2) ^ 2 := by
      simp only [dotProduct, Fin.sum_univ_three]
      simp only [div_pow] at hz'
      nlinarith [sq_nonneg (p 0), sq_nonneg (p 1), sq_nonneg (p 2)]
    have h3 : (p ⬝ᵥ frameEye i) ^ 2 ≤ (p ⬝ᵥ p) * (frameEye i ⬝ᵥ frameEye i) := by
      generalize frameEye i = n
      simp only [dotProduct, Fin.sum_univ_three]
      nlinarith [sq_nonneg (p 0 * n 1 - p 1 * n 0), sq_nonneg (p 1 * n 2 - p 2 * n 1), sq_nonneg (p 2 * n 0 - p 0 * n 2)]
    rw [hee, h1] at h3
    by_contra hn
    nlinarith
  refine ⟨_, d, hray, hd0, fun z hz hzE hfirst => ⟨?_, ?_⟩⟩
  · by_contra hn
    push Not at hn
    obtain ⟨n0, n1⟩ := hn
    have hz' : ((frameEye i + z • d) 0 / (195 / 100)) ^ 2 + ((frameEye i + z • d) 1 / (15 / 10)) ^ 2 + ((frameEye i + z • d) 2 / (25 / 10)) ^ 2 = 1 := by
      have := hzE
      simp only [ellipsoidSet, frameAxes, Set.mem_ofPred_eq, Pi.zero_apply, sub_zero, cons_val_zero, cons_val_one, cons_val] at this
      exact this
    rw [n0, n1] at hz'
    obtain ⟨q1, q2⟩ := hpole z
    have : ((frameEye i + z • d) 2 - 5 / 2) * ((frameEye i + z • d) 2 + 5 / 2) = 0 := by linarith
    rcases mul_eq_zero.mp this with h | h
    · apply q1
      funext k
      match k with
      | 0 => exact n0
      | 1 => exact n1
      | 2 => exact sub_eq_zero.mp h
    · apply q2
      funext k
      match k with
      | 0 => exact n0
      | 1 => exact n1
      | 2 => exact eq_neg_of_add_eq_zero_left h
  · have hA := scaled_pos frameAxes_pos hd0
    have hq := (ellipsoid_quadratic 0 frameAxes (frameEye i) d z).mp hzE
    have hne := htouch z hzE
    rw [gradient_dot] at hne ⊢
    by_contra hn
    have hpos := lt_of_le_of_ne (not_lt.mp hn) (Ne.symm hne)
    have h9 := hfar z hzE
    have hC : 0 < scaled (frameEye i - 0) frameAxes ⬝ᵥ scaled (frameEye i - 0) frameAxes - 1 := by
      have e : scaled (frameEye i - 0) frameAxes ⬝ᵥ scaled (frameEye i - 0) frameAxes =
          (frameEye i 0 / (195 / 100)) ^ 2 + (frameEye i 1 / (15 / 10)) ^ 2 + (frameEye i 2 / (25 / 10)) ^ 2 := by
        simp only [scaled, frameAxes, dotProduct, Fin.sum_univ_three, sub_zero, cons_val_zero, cons_val_one, cons_val]
        ring
      have h49 : frameEye i 0 * frameEye i 0 + frameEye i 1 * frameEye i 1 + frameEye i 2 * frameEye i 2 = 49 := by
        rw [← hee]; simp only [dotProduct, Fin.sum_univ_three]
      rw [e]
      simp only [div_pow]
      nlinarith [sq_nonneg (frameEye i 0), sq_nonneg (frameEye i 1), sq_nonneg (frameEye i 2)]
    have hiff := ellipsoid_quadratic 0 frameAxes (frameEye i) d
    generalize scaled d frameAxes ⬝ᵥ scaled d frameAxes = A at *
    generalize scaled (frameEye i - 0) frameAxes ⬝ᵥ scaled (frameEye i - 0) frameAxes = C at *
    generalize scaled (frameEye i - 0) frameAxes ⬝ᵥ scaled d frameAxes = B at *
    have hz0 : 0 < z := by linarith
    have hAz : 0 < A * z := mul_pos hA hz0
    -- the other root of the quadratic
    have hroot : frameEye i + ((C - 1) / (A * z)) • d ∈ ellipsoidSet 0 frameAxes := by
      refine (hiff _).mpr ?_
      have hB : B = -(A * z ^ 2 + (C - 1)) / (2 * z) := by field_simp; linarith
      rw [hB]
      field_simp
      ring
    have h10 := hfar _ hroot
    have h11 := hfirst _ (by linarith) hroot
    rw [le_div_iff₀ hAz] at h11
    nlinarith

/-- C134: for every frame, the ray of the camera through any point of the picture that neither touches the ellipsoid nor passes through
one of its poles has a defined colour between 0 and 1, for every state of the generator and every depth. -/
theorem C134_colour [F.Exact] (ht : F.tiny = 0) (heps : F.eps ≤ 1 / 1000) (i : ℕ) (rec0 temp0 : HitRecord (Fl F)) (s t : ℝ)
    (d : Fin 3 → ℝ) (hray : (frameCamera i : Camera (Fl F)).getRay (fin s) (fin t) = ⟨cv (frameEye i), cv d⟩)
    (htouch : ∀ z : ℝ, frameEye i + z • d ∈ ellipsoidSet 0 frameAxes → d ⬝ᵥ ellipsoidGradient 0 frameAxes (frameEye i + z • d) ≠ 0)
    (hpole : ∀ z : ℝ, frameEye i + z • d ≠ ![0, 0, 5 / 2] ∧ frameEye i + z • d ≠ ![0, 0, -(5 / 2)]) (depth : ℕ) (g : Pcg)
    (hg : g.inc = 234121#64) :
    ∃ sc, Animation.scene i rec0 temp0 = some sc ∧
      ∃ c, rayColor sc.world sc.background sc.rec0 depth g (sc.camera.getRay (fin s) (fin t)) = some c ∧ ColorIn 1 c.color := by
  obtain ⟨l, hl, hsc, -⟩ := frame_scene (F := F) i rec0 temp0
  refine ⟨_, hsc, ?_⟩
  dsimp only
  have hbg : ColorIn 1 (![0, 0, 0] : Vec (Fl F) 3) := ⟨0, cv_zero_vec, fun _ => ⟨le_rfl, zero_le_one⟩⟩
  obtain ⟨c, hc, -, hc1⟩ := (frame_sound ht l rec0 temp0).color zero_le_one rnd_one hbg depth g _ hg (frame_enters heps i s t d hray htouch hpole)
  exact ⟨c, hc, hc1⟩

/-- At a pole the recorded curvature is not a number. -/
theorem pole_nan [F.Exact] {a : Fin 3 → ℝ} (ha : ∀ i, 0 < a i) (o d : Fin 3 → ℝ) (tmin tmax : Fl F) (rec : HitRecord (Fl F)) (p : Fin 3 → ℝ)
    (hp : p ∈ ellipsoidSet 0 a) (h0 : p 0 = 0) (h1 : p 1 = 0) (h : ((Ellipsoid.ofReal 0 a).hit ⟨cv o, cv d⟩ tmin tmax rec).1 = true)
    (hrp : ((Ellipsoid.ofReal 0 a).hit ⟨cv o, cv d⟩ tmin tmax rec).2.p = cv p) :
    ((Ellipsoid.ofReal 0 a).hit ⟨cv o, cv d⟩ tmin tmax rec).2.gaussianCurvature = nan := by
  obtain ⟨-, -, -, u, v, hu, hv, -, -, hv0, hv1, hpt⟩ := C52_record (F := F) 0 a ha o d tmin tmax rec p hp h hrp
  have hrec := Ellipsoid.hit_true h
  generalize ((Ellipsoid.ofReal 0 a).hit ⟨cv o, cv d⟩ tmin tmax rec).2 = rec' at *
  obtain ⟨hRE, hRF, hRG, hRe, hRf, hRg⟩ := Ellipsoid.record_forms (F := F) 0 ha ⟨cv o, cv d⟩ rec'.t rec (u := u) (v := v)
    ((congrArg HitRecord.u hrec.symm).trans hu) ((congrArg HitRecord.v hrec.symm).trans hv)
  have hsin : Real.sin (Real.pi * v) = 0 := by
    rw [hu, hv, Ellipsoid.eval_fin, hrp, cv_inj] at hpt
    have hx : (0:ℝ) + a 0 * Real.cos (2 * Real.pi * u) * Real.sin (Real.pi * v) = p 0 := congrFun hpt 0
    have hy : (0:ℝ) + a 1 * Real.sin (2 * Real.pi * u) * Real.sin (Real.pi * v) = p 1 := congrFun hpt 1
    have t1 := Real.sin_sq_add_cos_sq (2 * Real.pi * u)
    by_contra hne
    rw [h0, zero_add] at hx
    rw [h1, zero_add] at hy
    have h3 : Real.cos (2 * Real.pi * u) = 0 := by
      rcases mul_eq_zero.mp hx with h | h
      · exact (mul_eq_zero.mp h).resolve_left (ha 0).ne'
      · exact absurd h hne
    have h4 : Real.sin (2 * Real.pi * u) = 0 := by
      rcases mul_eq_zero.mp hy with h | h
      · exact (mul_eq_zero.mp h).resolve_left (ha 1).ne'
      · exact absurd h hne
    rw [h3, h4] at t1; norm_num at t1
  rw [← hrec] at hRE hRF hRG hRe hRf hRg
  unfold HitRecord.gaussianCurvature
  rw [hRE, hRF, hRG, hRe, hRf, hRg, hsin]
  simp only [mul_fin, sub_fin, mul_zero, zero_mul, zero_div, sub_zero]
  exact Fl.zero_div_zero

theorem frameEye_90 : frameEye 90 = ![0, 0, 7] := by
  unfold frameEye
  have e : 2 * Real.pi * ((90 : ℕ) : ℝ) / 360 = Real.pi / 2 := by push_cast; ring
  rw [e, Real.cos_pi_div_two, Real.sin_pi_div_two]
  norm_num

/-- The ray through the middle of frame 90 runs down the axis of the ellipsoid. -/
theorem frame_90_ray [F.Exact] :
    (frameCamera 90 : Camera (Fl F)).getRay (fin (1 / 2)) (fin (1 / 2)) = ⟨cv ![0, 0, 7], cv ![0, 0, -1]⟩ := by
  have e1 : (![0, 0, 7] : Fin 3 → ℝ) ≠ 0 := fun h => by
    have : (7 : ℝ) = 0 := congrFun h 2
    norm_num at this
  have e2 : (![0, 1, 0] : Fin 3 → ℝ) ⨯₃ (![0, 0, 7] - 0) ≠ 0 := fun h => by
    have h0 := congrFun h 0
    simp [cross_apply] at h0
  obtain ⟨u, v, w, ⟨-, -, hw1, -⟩, ⟨k, hk, hkw⟩, -, -, h⟩ := C82_rays (F := F) ![0, 0, 7] 0 ![0, 1, 0] 40 (16 / 10)
    (by norm_num) (by norm_num) e1 e2
  rw [frameCamera_eq, frameEye_90, h]
  have h0 : 0 - 0 = k * w 0 := congrFun hkw 0
  have h1 : 0 - 0 = k * w 1 := congrFun hkw 1
  have h2 : 7 - 0 = k * w 2 := congrFun hkw 2
  have hw0 : w 0 = 0 := by
    rcases mul_eq_zero.mp (show k * w 0 = 0 by linarith) with h | h
    · exact absurd h hk.ne'
    · exact h
  have hw1' : w 1 = 0 := by
    rcases mul_eq_zero.mp (show k * w 1 = 0 by linarith) with h | h
    · exact absurd h hk.ne'
    · exact h
  have hw2 : w 2 = 1 := by
    simp only [dotProduct, Fin.sum_univ_three, hw0, hw1'] at hw1
    have : 0 < w 2 := by by_contra hn; nlinarith
    nlinarith
  congr 2
  funext i
  fin_cases i <;> simp [hw0, hw1', hw2]

/-- C134, refuted for every ray: the ray through the middle of frame 90 meets the ellipsoid at a pole, where the colour map is
evaluated at something that is not a number; the program has no defined result. -/
theorem C134_pole_false [F.Exact] (ht : F.tiny = 0) (heps : F.eps ≤ 1 / 1000) (rec0 temp0 : HitRecord (Fl F)) (depth : ℕ) (g : Pcg) :
    ∃ sc, Animation.scene 90 rec0 temp0 = some sc ∧
      rayColor sc.world sc.background sc.rec0 (depth + 1) g (sc.camera.getRay (fin (1 / 2)) (fin (1 / 2))) = none := by
  have he := Fmt.Exact.eps_pos (F := F)
  obtain ⟨l, hl, hsc, hun⟩ := frame_scene (F := F) 90 rec0 temp0
  refine ⟨_, hsc, ?_⟩
  have hun' := hun (1 / 2) (1 / 2)
  dsimp only
  rw [frame_90_ray] at hun' ⊢
  have e : (1000 * eps : Fl F) = fin (1000 * F.eps) := by simp only [fl]; norm_num
  have hd0 : (![0, 0, -1] : Fin 3 → ℝ) ≠ 0 := fun h => by
    have : (-1 : ℝ) = 0 := congrFun h 2
    norm_num at this
  have hS : ∀ z : ℝ, (![0, 0, 7] + z • ![0, 0, -1] : Fin 3 → ℝ) ∈ ellipsoidSet 0 frameAxes ↔ (z = 9 / 2 ∨ z = 19 / 2) := by
    intro z
    have e : (![0, 0, 7] + z • ![0, 0, -1] : Fin 3 → ℝ) ∈ ellipsoidSet 0 frameAxes ↔
        ((0 + z * 0 - 0) / (195 / 100)) ^ 2 + ((0 + z * 0 - 0) / (15 / 10)) ^ 2 + ((7 + z * -1 - 0) / (25 / 10)) ^ 2 = 1 := Iff.rfl
    rw [e]
    constructor
    · intro h
      have : (z - 9 / 2) * (z - 19 / 2) = 0 := by linarith
      rcases mul_eq_zero.mp this with h | h
      · left; linarith
      · right; linarith
    · rintro (rfl | rfl) <;> norm_num
  have hf := C51_nearest_ideal (F := F) ht 0 frameAxes (fun i => (frameAxes_pos i).ne') ![0, 0, 7] ![0, 0, -1] (fin (1000 * F.eps)) hd0
    pinf temp0 rfl
  have h1 := hf.1.mpr ⟨9 / 2, ⟨by rw [le_fin, decide_eq_true_eq]; linarith, by simp⟩, (hS _).mpr (Or.inl rfl)⟩
  obtain ⟨z, htz, hpz, -, hz, -⟩ := hf.2 h1
  have hnan := pole_nan (F := F) frameAxes_pos _ _ _ _ _ _ hz (by simp) (by simp) h1 hpz
  generalize hout : (Ellipsoid.ofReal 0 frameAxes : Ellipsoid (Fl F)).hit ⟨cv ![0, 0, 7], cv ![0, 0, -1]⟩ (fin (1000 * F.eps)) pinf temp0 = res at *
  obtain ⟨ok, out⟩ := res
  dsimp only at h1 htz hpz hnan
  subst h1
  have hcol : ellipsoidColor (Ellipsoid.ofReal 0 frameAxes) out = none := by
    unfold ellipsoidColor linearScale
    rw [hnan]
    have : (nan - (Ellipsoid.ofReal 0 frameAxes : Ellipsoid (Fl F)).curvatureBounds.1) /
      ((Ellipsoid.ofReal 0 frameAxes : Ellipsoid (Fl F)).curvatureBounds.2 - (Ellipsoid.ofReal 0 frameAxes : Ellipsoid (Fl F)).curvatureBounds.1) = nan := rfl
    rw [this]
    exact C89_nan _ (by simp)
  have hmiss : (l.hit ⟨cv ![0, 0, 7], cv ![0, 0, -1]⟩ (fin (1000 * F.eps)) out.t out).1 = false :=
    hun' _ _ _ (by linarith) (by rw [htz]; rfl)
  have hworld : ((HittableList.empty.add (frameEllipsoid (R := Fl F)).toHittable
      (Material.lambertianMap (ellipsoidColor frameEllipsoid) id (fun g _ => g))).add l.toHittable
      (Material.diffuseLight (solidColor ![1, 1, 1]))).world temp0 g ⟨cv ![0, 0, 7], cv ![0, 0, -1]⟩ (1000 * eps) inf rec0 =
      some (some (Material.lambertianMap (ellipsoidColor (Ellipsoid.ofReal 0 frameAxes)) id (fun g _ => g)), out, g) := by
    rw [frameEllipsoid_eq, e]
    have hs0 : HittableList.step ⟨cv ![0, 0, 7], cv ![0, 0, -1]⟩ (fin (1000 * F.eps)) ⟨temp0, inf, rec0, none⟩ 0
        (Ellipsoid.ofReal 0 frameAxes).toHittable = (⟨out, out.t, out, some 0⟩ : HittableList.State (Fl F)) := by
      have hh : (Ellipsoid.ofReal 0 frameAxes : Ellipsoid (Fl F)).toHittable.hit ⟨cv ![0, 0, 7], cv ![0, 0, -1]⟩ (fin (1000 * F.eps)) inf temp0 =
        (true, out) := hout
      unfold HittableList.step
      dsimp only
      rw [hh]
      have : Scalar.lt out.t (inf : Fl F) = true := by rw [htz]; rfl
      simp only [this, if_true]
    have hs1 : HittableList.step ⟨cv ![0, 0, 7], cv ![0, 0, -1]⟩ (fin (1000 * F.eps)) ⟨out, out.t, out, some 0⟩ 1 l.toHittable =
        (⟨(l.hit ⟨cv ![0, 0, 7], cv ![0, 0, -1]⟩ (fin (1000 * F.eps)) out.t out).2, out.t, out, some 0⟩ : HittableList.State (Fl F)) := by
      have hh : (l.toHittable.hit ⟨cv ![0, 0, 7], cv ![0, 0, -1]⟩ (fin (1000 * F.eps)) out.t out).1 = false := hmiss
      unfold HittableList.step
      dsimp only
      rw [hh]
      rfl
    unfold HittableList.world HittableList.hit
    simp only [HittableList.add, HittableList.empty, List.nil_append, List.cons_append, HittableList.loop, hs0, hs1]
    rfl
  rw [rayColor, hworld]
  dsimp only
  rw [show (Material.lambertianMap (S := Pcg) (ellipsoidColor (Ellipsoid.ofReal 0 frameAxes : Ellipsoid (Fl F))) id (fun g _ => g)).scatter g
    ⟨cv ![0, 0, 7], cv ![0, 0, -1]⟩ out = none by simp only [Material.lambertianMap, hcol, Option.bind_none]]

theorem frameEye_0 : frameEye 0 = ![7, 0, 0] := by
  unfold frameEye
  norm_num

/-- An instance of `C134_colour`: the middle of frame 0. -/
example (rec0 temp0 : HitRecord (Fl exact0)) (depth : ℕ) :
    ∃ sc, Animation.scene 0 rec0 temp0 = some sc ∧
      ∃ c, rayColor sc.world sc.background sc.rec0 depth ⟨1235123#64, 234121#64⟩ (sc.camera.getRay (fin (1 / 2)) (fin (1 / 2))) = some c ∧
        ColorIn 1 c.color := by
  have e1 : (![7, 0, 0] : Fin 3 → ℝ) ≠ 0 := fun h => by
    have : (7 : ℝ) = 0 := congrFun h 0
    norm_num at this
  have e2 : (![0, 1, 0] : Fin 3 → ℝ) ⨯₃ (![7, 0, 0] - 0) ≠ 0 := fun h => by
    have h0 := congrFun h 2
    simp [cross_apply] at h0
  obtain ⟨u, v, w, ⟨-, -, hw1, -⟩, ⟨k, hk, hkw⟩, -, -, h⟩ := C82_rays (F := exact0) ![7, 0, 0] 0 ![0, 1, 0] 40 (16 / 10)
    (by norm_num) (by norm_num) e1 e2
  have h0 : 7 - 0 = k * w 0 := congrFun hkw 0
  have h1 : 0 - 0 = k * w 1 := congrFun hkw 1
  have h2 : 0 - 0 = k * w 2 := congrFun hkw 2
  have hw1' : w 1 = 0 := by
    rcases mul_eq_zero.mp (show k * w 1 = 0 by linarith) with h | h
    · exact absurd h hk.ne'
    · exact h
  have hw2 : w 2 = 0 := by
    rcases mul_eq_zero.mp (show k * w 2 = 0 by linarith) with h | h
    · exact absurd h hk.ne'
    · exact h
  have hw0 : w 0 = 1 := by
    simp only [dotProduct, Fin.sum_univ_three, hw2, hw1'] at hw1
    have : 0 < w 0 := by by_contra hn; nlinarith
    nlinarith
  have hw : w = ![1, 0, 0] := by
    funext i
    fin_cases i
    · exact hw0
    · exact hw1'
    · exact hw2
  refine C134_colour (F := exact0) rfl (by norm_num [exact0, exact64]) 0 rec0 temp0 (1 / 2) (1 / 2) ![-1, 0, 0] ?_ ?_ ?_ depth _ rfl
  · rw [frameCamera_eq, frameEye_0, h, hw]
    congr 2
    funext i
    fin_cases i <;> simp
  · intro z hz hg
    rw [frameEye_0] at hz hg
    have h3 : ((7 + z * -1 - 0) / (195 / 100)) ^ 2 + ((0 + z * 0 - 0) / (15 / 10)) ^ 2 + ((0 + z * 0 - 0) / (25 / 10)) ^ 2 = 1 := hz
    rw [gradient_dot] at hg
    simp only [scaled, frameAxes, dotProduct, Fin.sum_univ_three, sub_zero, cons_val_zero, cons_val_one, cons_val] at hg
    nlinarith
  · intro z
    rw [frameEye_0]
    constructor
    · intro h4
      have : 0 + z * 0 = 5 / 2 := congrFun h4 2
      norm_num at this
    · intro h4
      have : 0 + z * 0 = -(5 / 2) := congrFun h4 2
      norm_num at this

end DRT
