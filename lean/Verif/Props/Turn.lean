import Verif.Props.Translate
import Verif.Props.Camera
import Verif.Props.Disk
import Verif.Props.Independence
import Verif.Lemmas.NotInf

/-! # C149: turning the whole scene does not change the picture -/

namespace DRT
open Scalar Fl Render Vec Matrix

variable {F : Fmt} {S : Type}

/-! ## Turning points, rays and records -/

/-- The matrix of a rotation or a reflection. -/
def Orthogonal (Q : Matrix (Fin 3) (Fin 3) ℝ) : Prop := Qᵀ * Q = 1

/-- The ray `r'` is the ray `r` turned by `Q`. -/
def RayTurned (Q : Matrix (Fin 3) (Fin 3) ℝ) (r r' : Ray (Fl F)) : Prop :=
  (∃ o, r.origin = cv o ∧ r'.origin = cv (Q *ᵥ o)) ∧ ∃ d, r.dir = cv d ∧ r'.dir = cv (Q *ᵥ d)

/-- The hit `rec'` is the hit `rec` turned by `Q`. -/
structure RecTurned (Q : Matrix (Fin 3) (Fin 3) ℝ) (rec rec' : HitRecord (Fl F)) : Prop where
  t : rec'.t = rec.t
  p : ∃ p, rec.p = cv p ∧ rec'.p = cv (Q *ᵥ p)
  normal : ∃ n, rec.normal = cv n ∧ rec'.normal = cv (Q *ᵥ n)
  face : rec'.frontFace = rec.frontFace

/-- The ray has a direction. -/
def HasDirection (r : Ray (Fl F)) : Prop := ∃ d : Fin 3 → ℝ, d ≠ 0 ∧ r.dir = cv d

/-- `o'` is the object `o` turned by `Q`: a turned ray finds the turned hit. -/
def Turned (Q : Matrix (Fin 3) (Fin 3) ℝ) (o o' : Hittable (Fl F)) : Prop := ∀ r r' tmin tmax rec rec', RayTurned Q r r' →
  (o'.hit r' tmin tmax rec').1 = (o.hit r tmin tmax rec).1 ∧
    ((o.hit r tmin tmax rec).1 = true → HasDirection r ∧ RecTurned Q (o.hit r tmin tmax rec).2 (o'.hit r' tmin tmax rec').2)

variable {Q : Matrix (Fin 3) (Fin 3) ℝ}

theorem Orthogonal.dot (hQ : Orthogonal Q) (a b : Fin 3 → ℝ) : (Q *ᵥ a) ⬝ᵥ (Q *ᵥ b) = a ⬝ᵥ b := by
  rw [dotProduct_mulVec, vecMul_mulVec, hQ, vecMul_one]

theorem Orthogonal.ne (hQ : Orthogonal Q) {a : Fin 3 → ℝ} (h : a ≠ 0) : Q *ᵥ a ≠ 0 := fun h0 => h (by
  have := hQ.dot a a
  rw [h0, zero_dotProduct] at this
  exact dotProduct_self_eq_zero.mp this.symm)

section
variable [F.Exact]

theorem at_turned {r r' : Ray (Fl F)} {o d : Fin 3 → ℝ} (ho : r.origin = cv o) (hd : r.dir = cv d) (ho' : r'.origin = cv (Q *ᵥ o))
    (hd' : r'.dir = cv (Q *ᵥ d)) (t : ℝ) : r.at (fin t) = cv (o + t • d) ∧ r'.at (fin t) = cv (Q *ᵥ (o + t • d)) := by
  obtain ⟨a, b⟩ := r
  obtain ⟨a', b'⟩ := r'
  dsimp only at *
  subst ho hd ho' hd'
  rw [ray_at_cv, ray_at_cv, mulVec_add, mulVec_smul]
  exact ⟨rfl, rfl⟩

/-! ## The objects -/

omit [F.Exact] in
theorem first_mem {a b c tmin tmax t : Fl F} (h : firstQuadraticRootInRange a b c tmin tmax = some t) :
    t ∈ quadraticRoots a b c ∧ Scalar.ge t tmin = true := by
  unfold firstQuadraticRootInRange at h
  split at h
  · next x y hq =>
    rw [hq]
    split_ifs at h with h1 h2
    · cases h; simp at h1; exact ⟨by simp, h1.1⟩
    · cases h; simp at h2; exact ⟨by simp, h2.1⟩
  · cases h

theorem Sphere.turned (hQ : Orthogonal Q) (c : Fin 3 → ℝ) (R : ℝ) (hR : R ≠ 0) :
    Turned (F := F) Q (Sphere.ofReal c R).toHittable (Sphere.ofReal (Q *ᵥ c) R).toHittable := by
  rintro r r' tmin tmax rec rec' ⟨⟨o, ho, ho'⟩, d, hd, hd'⟩
  show (Sphere.hit _ _ _ _ _).1 = (Sphere.hit _ _ _ _ _).1 ∧ ((Sphere.hit _ _ _ _ _).1 = true → _ ∧ RecTurned Q (Sphere.hit _ _ _ _ _).2 (Sphere.hit _ _ _ _ _).2)
  have e : firstQuadraticRootInRange (squaredNorm r'.dir) (2 * Vec.dot (r'.origin - (Sphere.ofReal (F := F) (Q *ᵥ c) R).center) r'.dir)
      (squaredNorm (r'.origin - (Sphere.ofReal (F := F) (Q *ᵥ c) R).center) - (Sphere.ofReal (F := F) (Q *ᵥ c) R).radius * (Sphere.ofReal (F := F) (Q *ᵥ c) R).radius) tmin tmax =
      firstQuadraticRootInRange (squaredNorm r.dir) (2 * Vec.dot (r.origin - (Sphere.ofReal (F := F) c R).center) r.dir)
      (squaredNorm (r.origin - (Sphere.ofReal (F := F) c R).center) - (Sphere.ofReal (F := F) c R).radius * (Sphere.ofReal (F := F) c R).radius) tmin tmax := by
    rw [ho, hd, ho', hd']
    simp only [Sphere.ofReal, cv_sub, cv_dot, cv_squaredNorm, ← mulVec_sub, hQ.dot]
  unfold Sphere.hit
  dsimp only
  rw [e]
  have hmem : ∀ t, firstQuadraticRootInRange (squaredNorm r.dir) (2 * Vec.dot (r.origin - (Sphere.ofReal (F := F) c R).center) r.dir)
      (squaredNorm (r.origin - (Sphere.ofReal (F := F) c R).center) - (Sphere.ofReal (F := F) c R).radius * (Sphere.ofReal (F := F) c R).radius) tmin tmax = some t →
      d ≠ 0 ∧ ∃ z, t = fin z := by
    intro t ht
    obtain ⟨h1, h2⟩ := first_mem ht
    rw [ho, hd] at h1
    simp only [Sphere.ofReal, cv_sub, cv_dot, cv_squaredNorm, fl] at h1
    have hfin : ∃ z, t = fin z := by
      rcases notInf_quadratic (notInf_fin _) (notInf_fin _) (notInf_fin _) t h1 with rfl | h3
      · cases tmin <;> cases h2
      · exact h3
    refine ⟨?_, hfin⟩
    rintro rfl
    obtain ⟨z, rfl⟩ := hfin
    simp only [dotProduct_zero, mul_zero] at h1
    unfold quadraticRoots at h1
    rw [tiny_def, abs_fin, le_fin, abs_zero, if_pos (by simpa using Fmt.Exact.tiny_nonneg (F := F))] at h1
    generalize (o - c) ⬝ᵥ (o - c) - R * R = k at h1
    rcases eq_or_ne k 0 with h3 | h3
    · rw [h3] at h1
      simp [fl] at h1
    · simp [fl, h3] at h1
  cases hf : firstQuadraticRootInRange (squaredNorm r.dir) (2 * Vec.dot (r.origin - (Sphere.ofReal (F := F) c R).center) r.dir)
      (squaredNorm (r.origin - (Sphere.ofReal (F := F) c R).center) - (Sphere.ofReal (F := F) c R).radius * (Sphere.ofReal (F := F) c R).radius) tmin tmax with
  | none => exact ⟨rfl, fun h => by cases h⟩
  | some t =>
    obtain ⟨hd0, z, rfl⟩ := hmem t hf
    refine ⟨rfl, fun _ => ⟨⟨d, hd0, hd⟩, ?_⟩⟩
    obtain ⟨h1, h2⟩ := at_turned ho hd ho' hd' z
    have n1 : (r.at (fin z) - (Sphere.ofReal (F := F) c R).center) /. (Sphere.ofReal (F := F) c R).radius = cv (R⁻¹ • (o + z • d - c)) := by
      rw [h1]; simp only [Sphere.ofReal, cv_sub]; rw [cv_sdiv hR]
    have n2 : (r'.at (fin z) - (Sphere.ofReal (F := F) (Q *ᵥ c) R).center) /. (Sphere.ofReal (F := F) (Q *ᵥ c) R).radius = cv (Q *ᵥ (R⁻¹ • (o + z • d - c))) := by
      rw [h2]; simp only [Sphere.ofReal, cv_sub]; rw [cv_sdiv hR, mulVec_smul, mulVec_sub]
    have ff : Scalar.lt (Vec.dot r'.dir ((r'.at (fin z) - (Sphere.ofReal (F := F) (Q *ᵥ c) R).center) /. (Sphere.ofReal (F := F) (Q *ᵥ c) R).radius)) 0 =
        Scalar.lt (Vec.dot r.dir ((r.at (fin z) - (Sphere.ofReal (F := F) c R).center) /. (Sphere.ofReal (F := F) c R).radius)) 0 := by
      rw [n1, n2, hd, hd', cv_dot, cv_dot, hQ.dot]
    refine ⟨rfl, ⟨_, h1, h2⟩, ?_, ff⟩
    show ∃ n, (if Scalar.lt (Vec.dot r.dir ((r.at (fin z) - (Sphere.ofReal (F := F) c R).center) /. (Sphere.ofReal (F := F) c R).radius)) 0 then _ else _) = cv n ∧
      (if Scalar.lt (Vec.dot r'.dir ((r'.at (fin z) - (Sphere.ofReal (F := F) (Q *ᵥ c) R).center) /. (Sphere.ofReal (F := F) (Q *ᵥ c) R).radius)) 0 then _ else _) = _
    rw [ff, n1, n2]
    split_ifs
    · exact ⟨_, rfl, rfl⟩
    · exact ⟨-(R⁻¹ • (o + z • d - c)), rfl, by rw [mulVec_neg]; rfl⟩

/-- The disks about the center `c` with the unit normal `n`. -/
theorem Disk.turned (hQ : Orthogonal Q) (R : ℝ) (c n : Fin 3 → ℝ) (hn : n ⬝ᵥ n = 1) (s s' : Disk (Fl F))
    (hs : Disk.make (fin R) (cv c) (cv n) = some s) (hs' : Disk.make (fin R) (cv (Q *ᵥ c)) (cv (Q *ᵥ n)) = some s') :
    Turned Q s.toHittable s'.toHittable := by
  have hn' : (Q *ᵥ n) ⬝ᵥ (Q *ᵥ n) = 1 := by rw [hQ.dot, hn]
  rw [Disk.make_eq R c n hn] at hs
  rw [Disk.make_eq R _ _ hn'] at hs'
  cases hs
  cases hs'
  rintro r r' tmin tmax rec rec' ⟨⟨o, ho, ho'⟩, d, hd, hd'⟩
  show (Disk.hit _ _ _ _ _).1 = (Disk.hit _ _ _ _ _).1 ∧ ((Disk.hit _ _ _ _ _).1 = true → _ ∧ RecTurned Q (Disk.hit _ _ _ _ _).2 (Disk.hit _ _ _ _ _).2)
  obtain ⟨a, b⟩ := r
  obtain ⟨a', b'⟩ := r'
  dsimp only at *
  subst ho hd ho' hd'
  by_cases h0 : d ⬝ᵥ n = 0
  · rw [Disk.hit_parallel R c n hn o d h0, Disk.hit_parallel R _ _ hn' _ _ (by rw [hQ.dot, h0])]
    exact ⟨rfl, fun h => by cases h⟩
  · rw [Disk.hit_fin R c n hn o d h0, Disk.hit_fin R _ _ hn' _ _ (by rw [hQ.dot]; exact h0)]
    simp only [← mulVec_sub, hQ.dot]
    obtain ⟨t, ht⟩ : ∃ t, t = -((o - c) ⬝ᵥ n) / (d ⬝ᵥ n) := ⟨_, rfl⟩
    simp only [← ht, ← mulVec_smul, ← mulVec_add, ← mulVec_sub, hQ.dot]
    split_ifs
    · exact ⟨rfl, fun h => by cases h⟩
    · exact ⟨rfl, fun h => by cases h⟩
    · refine ⟨rfl, fun _ => ⟨⟨d, by rintro rfl; simp at h0, rfl⟩, rfl, ⟨o + t • d, ray_at_cv _ _ _, ?_⟩, ?_, ?_⟩⟩
      · show (⟨cv (Q *ᵥ o), cv (Q *ᵥ d)⟩ : Ray (Fl F)).at (fin t) = _
        rw [ray_at_cv, mulVec_add, mulVec_smul]
      · show ∃ m, (if Scalar.lt (Vec.dot (cv d : Vec (Fl F) 3) (cv n)) 0 then (cv n : Vec (Fl F) 3) else -(cv n)) = cv m ∧
          (if Scalar.lt (Vec.dot (cv (Q *ᵥ d) : Vec (Fl F) 3) (cv (Q *ᵥ n))) 0 then (cv (Q *ᵥ n) : Vec (Fl F) 3) else -(cv (Q *ᵥ n))) = cv (Q *ᵥ m)
        rw [cv_dot, cv_dot, hQ.dot]
        split_ifs
        · exact ⟨_, rfl, rfl⟩
        · exact ⟨-n, rfl, by rw [mulVec_neg]; rfl⟩
      · show Scalar.lt (Vec.dot (cv (Q *ᵥ d) : Vec (Fl F) 3) (cv (Q *ᵥ n))) 0 = Scalar.lt (Vec.dot (cv d : Vec (Fl F) 3) (cv n)) 0
        rw [cv_dot, cv_dot, hQ.dot]

/-! ## Materials -/

theorem normalize_turned (hQ : Orthogonal Q) {d : Fin 3 → ℝ} (hd : d ≠ 0) :
    ∃ w, Vec.normalize (cv d : Vec (Fl F) 3) = cv w ∧ Vec.normalize (cv (Q *ᵥ d) : Vec (Fl F) 3) = cv (Q *ᵥ w) := by
  obtain ⟨w, h, h1, c, hc, hw⟩ := C02_normalize_unit (F := F) d hd
  obtain ⟨w', h', h1', c', hc', hw'⟩ := C02_normalize_unit (F := F) (Q *ᵥ d) (hQ.ne hd)
  have e : d = c • w := funext hw
  have e' : Q *ᵥ d = c' • w' := funext hw'
  have k : c' = c := by
    have := hQ.dot d d
    rw [e'] at this
    rw [show d ⬝ᵥ d = (c • w) ⬝ᵥ (c • w) by rw [← e]] at this
    simp only [smul_dotProduct, dotProduct_smul, h1, h1', smul_eq_mul, mul_one] at this
    nlinarith
  refine ⟨w, h, ?_⟩
  rw [h']
  congr 1
  rw [e, mulVec_smul, k] at e'
  exact (smul_right_injective _ hc.ne' e').symm

theorem reflect_turned (hQ : Orthogonal Q) (v m : Fin 3 → ℝ) :
    reflect (cv (Q *ᵥ v) : Vec (Fl F) 3) (cv (Q *ᵥ m)) = cv (Q *ᵥ (v - (2 * (v ⬝ᵥ m)) • m)) := by
  rw [cv_reflect, hQ.dot, mulVec_sub, mulVec_smul]

theorem refract_turned (hQ : Orthogonal Q) (u m : Fin 3 → ℝ) (k : ℝ) :
    ∃ d, refract (cv u : Vec (Fl F) 3) (cv m) (fin k) = cv d ∧ refract (cv (Q *ᵥ u) : Vec (Fl F) 3) (cv (Q *ᵥ m)) (fin k) = cv (Q *ᵥ d) := by
  have hm : ∀ x y : ℝ, ∃ z, Scalar.min (fin x : Fl F) (fin y) = fin z := fun x y => ⟨_, min_fin x y⟩
  unfold refract
  simp only [cv_neg, cv_dot, ← mulVec_neg, hQ.dot]
  obtain ⟨z, hz⟩ := hm ((-u) ⬝ᵥ m) 1
  rw [← ofNat_one] at hz
  rw [hz]
  simp only [cv_smul, cv_add, cv_squaredNorm, ← mulVec_smul, ← mulVec_add, hQ.dot]
  obtain ⟨y, hy⟩ : ∃ y, -Scalar.sqrt (Scalar.abs (1 - fin ((k • (u + z • m)) ⬝ᵥ (k • (u + z • m))) : Fl F)) = fin y := by
    rw [ofNat_one, sub_fin, abs_fin, sqrt_fin (abs_nonneg _)]
    exact ⟨_, rfl⟩
  rw [hy]
  simp only [cv_smul, cv_add, ← mulVec_smul, ← mulVec_add]
  exact ⟨_, rfl, rfl⟩

/-- What `scatter` yields for the turned ray is what it yields for the ray, turned. -/
inductive ScatterTurned (Q : Matrix (Fin 3) (Fin 3) ℝ) : Option (Scattered (Fl F) × S) → Option (Scattered (Fl F) × S) → Prop
  | none : ScatterTurned Q none none
  | dark (ok a s) : ScatterTurned Q (some (⟨ok, a, .none⟩, s)) (some (⟨ok, a, .none⟩, s))
  | ray (ok a q q' s) : RayTurned Q q q' → ScatterTurned Q (some (⟨ok, a, some q⟩, s)) (some (⟨ok, a, some q'⟩, s))

/-- `m'` behaves at the turned hits like `m` at the original ones. -/
def MatTurned (Q : Matrix (Fin 3) (Fin 3) ℝ) (m m' : Material (Fl F) S) : Prop := ∀ rec rec', RecTurned Q rec rec' →
  m'.emitted rec' = m.emitted rec ∧ ∀ s r r', RayTurned Q r r' → HasDirection r → ScatterTurned Q (m.scatter s r rec) (m'.scatter s r' rec')

/-- The texture has the same colours at the turned hits. -/
def TexTurned (Q : Matrix (Fin 3) (Fin 3) ℝ) (f f' : Texture (Fl F)) : Prop := ∀ rec rec', RecTurned Q rec rec' → f' rec' = f rec

omit [F.Exact] in
theorem texTurned_solid (c : Vec (Fl F) 3) : TexTurned Q (solidColor c) (solidColor c) := fun _ _ _ => rfl

omit [F.Exact] in
theorem matTurned_light {f f' : Texture (Fl F)} (h : TexTurned Q f f') :
    MatTurned (S := S) Q (Material.diffuseLight f) (Material.diffuseLight f') :=
  fun rec rec' hr => ⟨h rec rec' hr, fun _ _ _ _ _ => .dark _ _ _⟩

theorem matTurned_metal (hQ : Orthogonal Q) {f f' : Texture (Fl F)} (h : TexTurned Q f f') :
    MatTurned (S := S) Q (Material.metal f) (Material.metal f') := by
  intro rec rec' hr
  refine ⟨rfl, ?_⟩
  rintro s r r' ⟨_, d, hd, hd'⟩ ⟨d₁, h0, hd₁⟩
  obtain rfl : d = d₁ := cv_inj.mp (hd.symm.trans hd₁)
  obtain ⟨w, h1, h2⟩ := normalize_turned (F := F) hQ h0
  obtain ⟨n, hn, hn'⟩ := hr.normal
  have e : Scalar.gt (Vec.dot (reflect (Vec.normalize r'.dir) rec'.normal) rec'.normal) 0 =
      Scalar.gt (Vec.dot (reflect (Vec.normalize r.dir) rec.normal) rec.normal) 0 := by
    rw [hd, hd', h1, h2, hn, hn', reflect_turned hQ, cv_reflect, cv_dot, cv_dot, hQ.dot]
  show ScatterTurned Q (some (⟨_, some (f rec), some ⟨rec.p, _⟩⟩, s)) (some (⟨Scalar.gt _ 0, some (f' rec'), some ⟨rec'.p, _⟩⟩, s))
  rw [h rec rec' hr, e]
  refine .ray _ _ _ _ _ ⟨hr.p, w - (2 * (w ⬝ᵥ n)) • n, ?_, ?_⟩
  · dsimp only
    rw [hd, h1, hn, cv_reflect]
  · dsimp only
    rw [hd', h2, hn', reflect_turned hQ]

theorem matTurned_dielectric (hQ : Orthogonal Q) {f f' : Texture (Fl F)} (h : TexTurned Q f f') {k : ℝ} (hk : k ≠ 0) (draw : S → Fl F × S) :
    MatTurned Q (Material.dielectric (fin k) f draw) (Material.dielectric (fin k) f' draw) := by
  intro rec rec' hr
  refine ⟨h rec rec' hr, ?_⟩
  rintro s r r' ⟨_, d, hd, hd'⟩ ⟨d₁, h0, hd₁⟩
  obtain rfl : d = d₁ := cv_inj.mp (hd.symm.trans hd₁)
  obtain ⟨w, h1, h2⟩ := normalize_turned (F := F) hQ h0
  obtain ⟨n, hn, hn'⟩ := hr.normal
  show ScatterTurned Q (some (Dielectric.scatter _ _ _ _, _)) (some (Dielectric.scatter _ _ _ _, _))
  unfold Dielectric.scatter
  dsimp only
  obtain ⟨x, hx⟩ : ∃ x, (if rec.frontFace then 1 / fin k else fin k : Fl F) = fin x := by
    split
    · rw [ofNat_one, div_fin _ hk]; exact ⟨_, rfl⟩
    · exact ⟨_, rfl⟩
  rw [hr.face, hx, hd, hd', h1, h2, hn, hn']
  have e : Vec.dot (-(cv (Q *ᵥ w)) : Vec (Fl F) 3) (cv (Q *ᵥ n)) = Vec.dot (-(cv w)) (cv n) := by
    rw [cv_neg, cv_neg, cv_dot, cv_dot, ← mulVec_neg, hQ.dot]
  rw [e]
  refine .ray _ _ _ _ _ ⟨hr.p, ?_⟩
  dsimp only
  split_ifs
  · exact ⟨_, cv_reflect _ _, reflect_turned hQ _ _⟩
  · exact refract_turned hQ _ _ _

/-! ## Scenes -/

/-- `w'` is the scene `w` turned by `Q`: turned rays find the turned hits, on materials that correspond. -/
def TurnedWorld (Q : Matrix (Fin 3) (Fin 3) ℝ) (w w' : World (Fl F) S) : Prop := ∀ s r r' tmin tmax rec rec', RayTurned Q r r' →
  match w s r tmin tmax rec with
  | none => w' s r' tmin tmax rec' = none
  | some (none, _, s₁) => ∃ rec₁, w' s r' tmin tmax rec' = some (none, rec₁, s₁)
  | some (some m, rec₁, s₁) => ∃ m' rec₁', MatTurned Q m m' ∧ HasDirection r ∧ RecTurned Q rec₁ rec₁' ∧
      w' s r' tmin tmax rec' = some (some m', rec₁', s₁)

/-- The states of the loop over the objects correspond. -/
def StateTurned (Q : Matrix (Fin 3) (Fin 3) ℝ) (r : Ray (Fl F)) (st st' : HittableList.State (Fl F)) : Prop :=
  st'.closest = st.closest ∧ st'.idx = st.idx ∧ (st.idx ≠ none → HasDirection r ∧ RecTurned Q st.out st'.out)

omit [F.Exact] in
theorem loop_turned {r r' : Ray (Fl F)} {tmin : Fl F} (hr : RayTurned Q r r') {os os' : List (Hittable (Fl F))} (h : List.Forall₂ (Turned Q) os os') :
    ∀ (i : ℕ) (st st' : HittableList.State (Fl F)), StateTurned Q r st st' →
      StateTurned Q r (HittableList.loop r tmin os i st) (HittableList.loop r' tmin os' i st') := by
  induction h with
  | nil => intro i st st' h; exact h
  | @cons o o' os os' h1 _ ih =>
    intro i st st' hs
    rw [HittableList.loop, HittableList.loop]
    refine ih _ _ _ ?_
    obtain ⟨hc, hi, ho⟩ := hs
    obtain ⟨e1, e2⟩ := h1 r r' tmin st.closest st.temp st'.temp hr
    unfold HittableList.step
    simp only [hc, e1]
    cases hb : (o.hit r tmin st.closest st.temp).1 with
    | false => exact ⟨rfl, hi, ho⟩
    | true =>
      obtain ⟨e3, e4⟩ := e2 hb
      simp only [if_true, e4.t]
      split_ifs
      · exact ⟨rfl, rfl, fun _ => ⟨e3, e4⟩⟩
      · exact ⟨rfl, hi, ho⟩

omit [F.Exact] in
/-- Turning every object of a list turns the scene. -/
theorem turnedWorld_list {os os' : List (Hittable (Fl F))} {ms ms' : List (Material (Fl F) S)} (ho : List.Forall₂ (Turned Q) os os')
    (hm : List.Forall₂ (MatTurned Q) ms ms') (temp0 temp0' : HitRecord (Fl F)) :
    TurnedWorld Q ((⟨os, ms⟩ : HittableList _ _).world temp0) ((⟨os', ms'⟩ : HittableList _ _).world temp0') := by
  intro s r r' tmin tmax rec rec' hr
  have hl := loop_turned (tmin := tmin) hr ho 0 ⟨temp0, tmax, rec, none⟩ ⟨temp0', tmax, rec', none⟩ ⟨rfl, rfl, fun h => absurd rfl h⟩
  unfold HittableList.world HittableList.hit
  dsimp only at hl ⊢
  generalize HittableList.loop r tmin os 0 ⟨temp0, tmax, rec, none⟩ = st at *
  generalize HittableList.loop r' tmin os' 0 ⟨temp0', tmax, rec', none⟩ = st' at *
  obtain ⟨tp, cl, out, idx⟩ := st
  obtain ⟨tp', cl', out', idx'⟩ := st'
  obtain ⟨h1, h2, h3⟩ := hl
  dsimp only at h1 h2 h3
  subst h1 h2
  cases idx' with
  | none => exact ⟨_, rfl⟩
  | some i =>
    dsimp only
    rcases Nat.lt_or_ge i ms.length with h1 | h1
    · have h2 : i < ms'.length := hm.length_eq ▸ h1
      have h4 := List.forall₂_iff_get.mp hm |>.2 i h1 h2
      rw [List.getElem?_eq_getElem h1, List.getElem?_eq_getElem h2]
      exact ⟨_, _, h4, (h3 (by simp)).1, (h3 (by simp)).2, rfl⟩
    · have h2 : ms'.length ≤ i := hm.length_eq ▸ h1
      rw [List.getElem?_eq_none h1, List.getElem?_eq_none h2]
      rfl

omit [F.Exact] in
/-- C149: turning a ray together with the whole scene changes neither its colour nor the random numbers that are drawn. -/
theorem C149_ray {w w' : World (Fl F) S} (hw : TurnedWorld Q w w') (bg : Vec (Fl F) 3) (rec0 rec0' : HitRecord (Fl F)) (depth : ℕ) (s : S)
    {r r' : Ray (Fl F)} (hr : RayTurned Q r r') : rayColor w' bg rec0' depth s r' = rayColor w bg rec0 depth s r := by
  induction depth generalizing s r r' with
  | zero => rfl
  | succ d ih =>
    have h := hw s r r' (1000 * eps) inf rec0 rec0' hr
    rw [rayColor, rayColor]
    rcases he : w s r (1000 * eps) inf rec0 with _ | ⟨_ | m, rec₁, s₁⟩
    · rw [he] at h
      rw [h]
    · rw [he] at h
      obtain ⟨_, h⟩ := h
      rw [h]
    · rw [he] at h
      obtain ⟨m', rec₁', hm, hd, hrec, h⟩ := h
      rw [h]
      dsimp only
      have h2 := (hm rec₁ rec₁' hrec).2 s₁ r r' hr hd
      rw [(hm rec₁ rec₁' hrec).1]
      generalize m.scatter s₁ r rec₁ = x at *
      generalize m'.scatter s₁ r' rec₁' = x' at *
      cases h2 with
      | none => rfl
      | dark ok a s => cases ok <;> cases a <;> rfl
      | ray ok a q q' s hq =>
        dsimp only
        cases ok
        · rfl
        · simp only [if_true]
          cases a with
          | none => rfl
          | some a => simp only [ih s hq]

/-! ## The camera -/

theorem Orthogonal.cross (hQ : Orthogonal Q) (a b : Fin 3 → ℝ) : (Q *ᵥ a) ⨯₃ (Q *ᵥ b) = Q.det • Q *ᵥ (a ⨯₃ b) := by
  have key : Qᵀ *ᵥ ((Q *ᵥ a) ⨯₃ (Q *ᵥ b)) = Q.det • (a ⨯₃ b) := by
    rw [det_fin_three]
    funext i
    fin_cases i <;> simp [cross_apply, mulVec, dotProduct, Fin.sum_univ_three] <;> ring
  have h2 : Q * Qᵀ = 1 := mul_eq_one_comm.mp hQ
  rw [← mulVec_smul, ← key, mulVec_mulVec, h2, one_mulVec]

/-- The ray through the point `(s, t)` of a turned camera; a mirrored camera has left and right exchanged. -/
theorem camera_turned (hQ : Orthogonal Q) (eye target up : Fin 3 → ℝ) (vfov aspect : ℝ) (h0 : 0 < vfov) (h1 : vfov < 180) (hw : eye ≠ target)
    (hup : up ⨯₃ (eye - target) ≠ 0) (s s' t : ℝ) (hs : 2 * s' - 1 = Q.det * (2 * s - 1)) :
    RayTurned Q ((Camera.make (cv eye) (cv target) (cv up) (fin vfov) (fin aspect : Fl F)).getRay (fin s) (fin t))
      ((Camera.make (cv (Q *ᵥ eye)) (cv (Q *ᵥ target)) (cv (Q *ᵥ up)) (fin vfov) (fin aspect : Fl F)).getRay (fin s') (fin t)) := by
  have hdet : Q.det * Q.det = 1 := by
    have := congrArg det hQ
    rwa [det_mul, det_transpose, det_one] at this
  have hcos : Real.cos (vfov * Real.pi / 180 / 2) ≠ 0 := by
    have hp := Real.pi_pos
    apply ne_of_gt
    apply Real.cos_pos_of_mem_Ioo
    constructor
    · have : 0 < vfov * Real.pi := by positivity
      linarith
    · have : vfov * Real.pi < 180 * Real.pi := by nlinarith
      linarith
  obtain ⟨w, w1, w2⟩ := normalize_turned (F := F) hQ (sub_ne_zero.mpr hw)
  have hx : up ⨯₃ w ≠ 0 := by
    obtain ⟨w', hwn, _, c, hc, hwc⟩ := C02_normalize_unit (F := F) (eye - target) (sub_ne_zero.mpr hw)
    obtain rfl : w = w' := cv_inj.mp (w1.symm.trans hwn)
    intro h
    apply hup
    rw [show eye - target = c • w from funext hwc, LinearMap.map_smul, h, smul_zero]
  obtain ⟨u, u1, u2⟩ := normalize_turned (F := F) hQ hx
  have u3 : Vec.normalize (cv ((Q *ᵥ up) ⨯₃ (Q *ᵥ w)) : Vec (Fl F) 3) = cv (Q.det • Q *ᵥ u) := by
    rw [hQ.cross]
    rcases mul_self_eq_one_iff.mp hdet with h | h
    · rw [h, one_smul, one_smul, u2]
    · rw [h]
      have hneg : Orthogonal (-Q) := by rw [Orthogonal, transpose_neg, neg_mul_neg]; exact hQ
      obtain ⟨u', e1, e2⟩ := normalize_turned (F := F) hneg hx
      obtain rfl : u = u' := cv_inj.mp (u1.symm.trans e1)
      rw [neg_mulVec, neg_mulVec] at e2
      rw [neg_one_smul, neg_one_smul, e2]
  have v1 : (Q *ᵥ w) ⨯₃ (Q.det • Q *ᵥ u) = Q *ᵥ (w ⨯₃ u) := by
    rw [LinearMap.map_smul, hQ.cross, smul_smul, hdet, one_smul]
  unfold Camera.make Camera.getRay
  simp only [cv_sub, w1, w2, ← mulVec_sub, cv_cross, u1, u3, v1, pi_def, ofNat_def, mul_fin, Nat.cast_ofNat, div_fin _ (by norm_num : (180 : ℝ) ≠ 0),
    div_fin _ (by norm_num : (2 : ℝ) ≠ 0), tan_fin hcos, cv_smul, cv_sdiv (by norm_num : (2 : ℝ) ≠ 0), cv_add]
  refine ⟨⟨_, rfl, rfl⟩, _, rfl, ?_⟩
  dsimp only
  congr 1
  generalize Real.tan (vfov * Real.pi / 180 / 2) = T
  generalize w ⨯₃ u = v
  simp only [mulVec_add, mulVec_sub, mulVec_smul]
  have : s' = (Q.det * (2 * s - 1) + 1) / 2 := by linarith
  subst this
  funext i
  simp only [Pi.sub_apply, Pi.add_apply, Pi.smul_apply, smul_eq_mul]
  linear_combination (aspect * (2 * T) * ((2 * s - 1) / 2) * (Q *ᵥ u) i) * hdet

/-- C149: if all objects of a scene and the camera are turned about the origin, `render_scene` writes the same image, byte for byte. -/
theorem C149_image (hQ : Orthogonal Q) (hdet : Q.det = 1) (sc : Scene (Fl F) S) {w' : World (Fl F) S} (hw : TurnedWorld Q sc.world w')
    (eye target up : Fin 3 → ℝ) (vfov aspect : ℝ) (h0 : 0 < vfov) (h1 : vfov < 180) (he : eye ≠ target) (hup : up ⨯₃ (eye - target) ≠ 0)
    (hc : sc.camera = Camera.make (cv eye) (cv target) (cv up) (fin vfov) (fin aspect)) (hx : 2 ≤ sc.width) (hy : 2 ≤ sc.height)
    (rec0' : HitRecord (Fl F)) (rows : List ℕ) (s : S) :
    Render.image { sc with
      camera := Camera.make (cv (Q *ᵥ eye)) (cv (Q *ᵥ target)) (cv (Q *ᵥ up)) (fin vfov) (fin aspect)
      world := w'
      rec0 := rec0' } rows s = Render.image sc rows s := by
  obtain ⟨sc', hsc⟩ : ∃ sc' : Scene (Fl F) S, sc' = { sc with
    camera := Camera.make (cv (Q *ᵥ eye)) (cv (Q *ᵥ target)) (cv (Q *ᵥ up)) (fin vfov) (fin aspect)
    world := w'
    rec0 := rec0' } := ⟨_, rfl⟩
  rw [← hsc]
  have hco : ∀ k n : ℕ, 2 ≤ n → ∀ g, ∃ x : ℝ, (coordinate k n (Pcg.real01 g).1 : Fl F) = fin x := by
    intro k n hn g
    obtain ⟨x, hx, -⟩ := C36_range (F := F) g
    have hn' : ((((n : ℚ) - 1 : ℚ)) : ℝ) ≠ 0 := by
      have : (2 : ℝ) ≤ n := by exact_mod_cast hn
      push_cast
      intro h
      linarith
    rw [coordinate, hx, lit_def, lit_def, add_fin, div_fin _ hn']
    exact ⟨_, rfl⟩
  have h1 : ∀ i j st, sample sc' i j st = sample sc i j st := by
    intro i j st
    obtain ⟨x, hx⟩ := hco i sc.width hx st.2.1
    obtain ⟨y, hy⟩ := hco j sc.height hy (Pcg.real01 (R := Fl F) st.2.1).2
    simp only [sample, hsc, hx, hy]
    rw [C149_ray hw sc.background sc.rec0 rec0' 8 st.2.2 (r := sc.camera.getRay (fin x) (fin y))]
    rw [hc]
    exact camera_turned hQ eye target up vfov aspect h0 h1 he hup x x y (by rw [hdet, one_mul])
  have h2 : ∀ i j n st, sampleLoop sc' i j n st = sampleLoop sc i j n st := by
    intro i j n
    induction n with
    | zero => intro st; rfl
    | succ n ih =>
      intro st
      rw [sampleLoop, sampleLoop, h1]
      cases sample sc i j st with
      | none => rfl
      | some st => exact ih st
  have h3 : ∀ i j g, task sc' i j g = task sc i j g := by
    intro i j g
    rw [task, task, h2, hsc]
  have h4 : ∀ ts g, run sc' ts g = run sc ts g := by
    intro ts
    induction ts with
    | nil => intro g; rfl
    | cons t ts ih =>
      intro g
      rw [run, run, h3]
      cases task sc t.1 t.2 g with
      | none => rfl
      | some p => simp only [ih]
  rw [Render.image, Render.image, h4, hsc]

/-- C149: if all objects of a scene and the camera are mirrored, what was seen at a place of the picture is seen at the place that
mirrors it. -/
theorem C149_mirror (hQ : Orthogonal Q) (hdet : Q.det = -1) {w w' : World (Fl F) S} (hw : TurnedWorld Q w w')
    (eye target up : Fin 3 → ℝ) (vfov aspect : ℝ) (h0 : 0 < vfov) (h1 : vfov < 180) (he : eye ≠ target) (hup : up ⨯₃ (eye - target) ≠ 0)
    (bg : Vec (Fl F) 3) (rec0 rec0' : HitRecord (Fl F)) (depth : ℕ) (s : S) (x y : ℝ) :
    rayColor w' bg rec0' depth s ((Camera.make (cv (Q *ᵥ eye)) (cv (Q *ᵥ target)) (cv (Q *ᵥ up)) (fin vfov) (fin aspect)).getRay (fin (1 - x)) (fin y)) =
      rayColor w bg rec0 depth s ((Camera.make (cv eye) (cv target) (cv up) (fin vfov) (fin aspect)).getRay (fin x) (fin y)) :=
  C149_ray hw bg rec0 rec0' depth s (camera_turned hQ eye target up vfov aspect h0 h1 he hup x (1 - x) y (by rw [hdet]; ring))
end

/-! ## Examples -/

/-- A turn by the angle `a` about the third axis. -/
noncomputable def turnZ (a : ℝ) : Matrix (Fin 3) (Fin 3) ℝ := !![Real.cos a, -Real.sin a, 0; Real.sin a, Real.cos a, 0; 0, 0, 1]

theorem turnZ_orthogonal (a : ℝ) : Orthogonal (turnZ a) := by
  have := Real.sin_sq_add_cos_sq a
  unfold Orthogonal turnZ
  ext i j
  fin_cases i <;> fin_cases j <;> simp [mul_apply, Fin.sum_univ_three] <;> nlinarith

theorem turnZ_det (a : ℝ) : (turnZ a).det = 1 := by
  have := Real.sin_sq_add_cos_sq a
  simp [turnZ, det_fin_three]
  nlinarith

/-- A mirror ball, a glass ball and a lamp, looked at from the side: turned by any angle, the picture is the same. -/
example (a : ℝ) (temp0 rec0 : HitRecord (Fl exact64)) (rows : List ℕ) (g : Pcg) :
    let scene (Q : Matrix (Fin 3) (Fin 3) ℝ) : Scene (Fl exact64) Pcg := ⟨5, 5, cv 0,
      Camera.make (cv (Q *ᵥ ![0, -5, 0])) (cv (Q *ᵥ 0)) (cv (Q *ᵥ ![0, 0, 1])) (fin 90) (fin 1),
      (⟨[(Sphere.ofReal (Q *ᵥ ![0, 0, 0]) 1).toHittable, (Sphere.ofReal (Q *ᵥ ![3, 0, 0]) 2).toHittable, (Sphere.ofReal (Q *ᵥ ![0, 9, 2]) 4).toHittable],
        [Material.metal (solidColor (cv ![1, 1, 1])), Material.dielectric (fin (3 / 2)) (solidColor (cv 0)) Pcg.real01,
          Material.diffuseLight (solidColor (cv ![4, 4, 4]))]⟩ : HittableList _ _).world temp0, 4, rec0⟩
    Render.image (scene (turnZ a)) rows g = Render.image (scene 1) rows g := by
  intro scene
  have hQ := turnZ_orthogonal a
  refine C149_image hQ (turnZ_det a) (scene 1) (w' := (scene (turnZ a)).world) (turnedWorld_list ?_ ?_ _ _) ![0, -5, 0] 0 ![0, 0, 1] 90 1
    (by norm_num) (by norm_num) ?_ ?_ ?_ (show 2 ≤ 5 by norm_num) (show 2 ≤ 5 by norm_num) rec0 rows g
  · simp only [one_mulVec]
    exact .cons (Sphere.turned hQ _ _ (by norm_num)) (.cons (Sphere.turned hQ _ _ (by norm_num)) (.cons (Sphere.turned hQ _ _ (by norm_num)) .nil))
  · exact .cons (matTurned_metal hQ (texTurned_solid _)) (.cons (matTurned_dielectric hQ (texTurned_solid _) (by norm_num) _)
      (.cons (matTurned_light (texTurned_solid _)) .nil))
  · intro h; have := congrFun h 1; simp at this
  · intro h; have := congrFun h 0; simp [cross_apply] at this
  · simp only [scene, one_mulVec]

/-- A lamp in the shape of a disk that faces the camera slantwise. -/
example (s s' : Disk (Fl exact64)) (hs : Disk.make (fin 1) (cv ![0, 2, 0]) (cv ![0, 3 / 5, 4 / 5]) = some s)
    (hs' : Disk.make (fin 1) (cv (!![-1, 0, 0; 0, 1, 0; 0, 0, 1] *ᵥ ![0, 2, 0])) (cv (!![-1, 0, 0; 0, 1, 0; 0, 0, 1] *ᵥ ![0, 3 / 5, 4 / 5])) = some s')
    (temp0 rec0 : HitRecord (Fl exact64)) (x y : ℝ) :
    let scene (s : Disk (Fl exact64)) : World (Fl exact64) Unit := (⟨[s.toHittable], [Material.diffuseLight (solidColor (cv ![4, 4, 4]))]⟩ : HittableList _ _).world temp0
    let Q : Matrix (Fin 3) (Fin 3) ℝ := !![-1, 0, 0; 0, 1, 0; 0, 0, 1]
    rayColor (scene s') (cv 0) rec0 8 () ((Camera.make (cv (Q *ᵥ ![0, -5, 0])) (cv (Q *ᵥ 0)) (cv (Q *ᵥ ![0, 0, 1])) (fin 90) (fin 1)).getRay (fin (1 - x)) (fin y)) =
      rayColor (scene s) (cv 0) rec0 8 () ((Camera.make (cv ![0, -5, 0]) (cv 0) (cv ![0, 0, 1]) (fin 90) (fin 1)).getRay (fin x) (fin y)) := by
  intro scene Q
  have hQ : Orthogonal Q := by
    unfold Orthogonal
    ext i j
    fin_cases i <;> fin_cases j <;> simp [Q, mul_apply, Fin.sum_univ_three]
  refine C149_mirror hQ (by simp [Q, det_fin_three]) (turnedWorld_list (.cons (Disk.turned hQ 1 _ _ ?_ _ _ hs hs') .nil)
    (.cons (matTurned_light (texTurned_solid _)) .nil) _ _) ![0, -5, 0] 0 ![0, 0, 1] 90 1 (by norm_num) (by norm_num) ?_ ?_ _ _ _ _ _ _ _
  · simp [dotProduct, Fin.sum_univ_three]; norm_num
  · intro h; have := congrFun h 1; simp at this
  · intro h; have := congrFun h 0; simp [cross_apply] at this

/-! ## Matt surfaces -/

/-- C149 fails for matt surfaces: the directions are drawn in the axes of space, whichever way the scene is turned. A half turn about
the normal of a surface leaves the first direction into which it scatters where it was, instead of turning it. -/
theorem C149_matt_false [F.Exact] (albedo : Texture (Fl F)) (r r' : Ray (Fl F)) (rec rec' : HitRecord (Fl F)) (hn : rec.normal = cv ![0, 0, 1])
    (hn' : rec'.normal = cv (turnZ Real.pi *ᵥ ![0, 0, 1])) :
    ∃ d d' g g', Lambertian.scatter albedo (2 ^ 64) lambertianSeed r rec = some (⟨true, some (albedo rec), some ⟨rec.p, cv d⟩⟩, g) ∧
      Lambertian.scatter albedo (2 ^ 64) lambertianSeed r' rec' = some (⟨true, some (albedo rec'), some ⟨rec'.p, cv d'⟩⟩, g') ∧
      d' = d ∧ d' ≠ turnZ Real.pi *ᵥ d := by
  have e : turnZ Real.pi *ᵥ ![0, 0, 1] = ![0, 0, 1] := by
    funext i
    fin_cases i <;> simp [turnZ, mulVec, dotProduct, Fin.sum_univ_three]
  rw [e] at hn'
  have h1 : (![0, 0, 1] : Fin 3 → ℝ) ⬝ᵥ ![0, 0, 1] = 1 := by simp [dotProduct, Fin.sum_univ_three]
  obtain ⟨v, hv, g, h⟩ := C139_first_false albedo (2 ^ 64) (by norm_num) r rec _ hn h1
  obtain ⟨v', hv', g', h'⟩ := C139_first_false albedo (2 ^ 64) (by norm_num) r' rec' _ hn' h1
  obtain rfl : v' = v := hv'.trans hv.symm
  refine ⟨_, _, g, g', h, h', rfl, fun hd => ?_⟩
  have := congrFun hd 0
  split_ifs at this <;> simp [turnZ, mulVec, dotProduct, Fin.sum_univ_three, hv'] at this <;> norm_num at this
end DRT
