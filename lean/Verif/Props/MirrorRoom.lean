import Verif.Props.Box
import Verif.Props.Picture
import Verif.Props.Material

/-!
# C146: rooms with axis-aligned walls

The theorems follow the rectangles (aarect.hpp:98-151), `metal::scatter` (metal.hpp:18-27), the box of six rectangles
(box.hpp:30-49) and `ray_color` (ray_color.hpp:9-33).
-/

namespace DRT
open Scalar Fl Matrix

variable {F : Fmt} {S : Type}

/-- The `hit` function of the rectangle class whose plane is across coordinate `n`. -/
noncomputable def wallHit (n : Fin 3) : Rect (Fl F) → Ray (Fl F) → Fl F → Fl F → HitRecord (Fl F) → Bool × HitRecord (Fl F) :=
  if n = 0 then Rect.hitYZ else if n = 1 then Rect.hitXZ else Rect.hitXY

/-- The ray `y`, an origin and a direction, is what a mirror across coordinate `n` makes of the ray `x`, which is not parallel to
it: `hit` reports a point, and `scatter` sends `y` from there. -/
def WallStep (F : Fmt) (n : Fin 3) (x y : (Fin 3 → ℝ) × (Fin 3 → ℝ)) : Prop :=
  x.2 n ≠ 0 ∧ ∃ (a0 a1 b0 b1 k : ℝ) (albedo : Texture (Fl F)) (tmin tmax : Fl F) (rec out : HitRecord (Fl F)),
    wallHit n (Rect.ofReal a0 a1 b0 b1 k) ⟨cv x.1, cv x.2⟩ tmin tmax rec = (true, out) ∧
    (Metal.scatter albedo ⟨cv x.1, cv x.2⟩ out).ok = true ∧ (Metal.scatter albedo ⟨cv x.1, cv x.2⟩ out).ray = some ⟨cv y.1, cv y.2⟩

/-- A path along mirrors across the coordinates of the list, of any length. -/
inductive Bounces (F : Fmt) : List (Fin 3) → (Fin 3 → ℝ) × (Fin 3 → ℝ) → (Fin 3 → ℝ) × (Fin 3 → ℝ) → Prop
  | nil (x) : Bounces F [] x x
  | cons {n ns x y z} : WallStep F n x y → Bounces F ns y z → Bounces F (n :: ns) x z

/-- The coordinate unit vector. -/
def axisVec (n : Fin 3) : Fin 3 → ℝ := Pi.single n 1

theorem wallHit_fin [F.Exact] (n : Fin 3) (a0 a1 b0 b1 k : ℝ) (o d : Fin 3 → ℝ) (hd : d n ≠ 0) (tmin tmax : Fl F)
    (rec out : HitRecord (Fl F)) (h : wallHit n (Rect.ofReal a0 a1 b0 b1 k) ⟨cv o, cv d⟩ tmin tmax rec = (true, out)) :
    out.p = cv (o + ((k - o n) / d n) • d) ∧ out.t = fin ((k - o n) / d n) ∧
      ∃ m, out.normal = cv m ∧ (m = axisVec n ∨ m = -axisVec n) ∧ m ⬝ᵥ m = 1 ∧ d ⬝ᵥ m < 0 := by
  have hone : axisVec n ⬝ᵥ axisVec n = 1 := by simp [axisVec]
  have hda : d ⬝ᵥ axisVec n = d n := by simp [axisVec]
  have e : ∀ a b c : ℕ, (![(OfNat.ofNat a : Fl F), OfNat.ofNat b, OfNat.ofNat c] : Vec (Fl F) 3) = cv ![(a:ℝ), b, c] := by
    intro a b c; rw [ofNat_def, ofNat_def, ofNat_def, cv_vec3]
  have key : ∀ i j : Fin 3, ∀ m : Fin 3 → ℝ, m = axisVec n →
      Rect.hitPlane i j n (cv m) (Rect.ofReal a0 a1 b0 b1 k) ⟨cv o, cv d⟩ tmin tmax rec = (true, out) →
      out.p = cv (o + ((k - o n) / d n) • d) ∧ out.t = fin ((k - o n) / d n) ∧
        ∃ m, out.normal = cv m ∧ (m = axisVec n ∨ m = -axisVec n) ∧ m ⬝ᵥ m = 1 ∧ d ⬝ᵥ m < 0 := by
    rintro i j m rfl h
    rw [Rect.hitPlane_fin i j n _ a0 a1 b0 b1 k o d hd] at h
    dsimp only at h
    split_ifs at h
    · exact absurd (congrArg Prod.fst h) (by simp)
    · exact absurd (congrArg Prod.fst h) (by simp)
    · obtain rfl := (Prod.mk.inj h).2
      refine ⟨rfl, rfl, ?_⟩
      unfold HitRecord.setFaceNormal
      dsimp only
      rw [cv_dot, hda, ofNat_zero, lt_fin]
      by_cases h : d n < 0
      · exact ⟨axisVec n, by simp [h], Or.inl rfl, hone, by rw [hda]; exact h⟩
      · refine ⟨-axisVec n, by simp [h, cv_neg], Or.inr rfl, by rw [neg_dotProduct, dotProduct_neg, neg_neg, hone], ?_⟩
        rw [dotProduct_neg, hda]
        have := lt_of_le_of_ne (not_lt.mp h) (Ne.symm hd)
        linarith
  have ax : ∀ n : Fin 3, axisVec n = ![if n = 0 then 1 else 0, if n = 1 then 1 else 0, if n = 2 then 1 else 0] := by
    intro n; ext i; fin_cases n <;> fin_cases i <;> simp [axisVec]
  unfold wallHit at h
  fin_cases n
  · refine key 1 2 ![1, 0, 0] (by rw [ax]; simp) ?_
    rw [show (cv ![1, 0, 0] : Vec (Fl F) 3) = ![1, 0, 0] by simpa using (e 1 0 0).symm]
    exact h
  · refine key 0 2 ![0, 1, 0] (by rw [ax]; simp) ?_
    rw [show (cv ![0, 1, 0] : Vec (Fl F) 3) = ![0, 1, 0] by simpa using (e 0 1 0).symm]
    exact h
  · refine key 0 1 ![0, 0, 1] (by rw [ax]; simp) ?_
    rw [show (cv ![0, 0, 1] : Vec (Fl F) 3) = ![0, 0, 1] by simpa using (e 0 0 1).symm]
    exact h

/-- The mirror image of `u` at the plane across coordinate `n`. -/
def flip (n : Fin 3) (u : Fin 3 → ℝ) : Fin 3 → ℝ := fun i => if i = n then -u i else u i

theorem mirrors_axis {n : Fin 3} {u w m : Fin 3 → ℝ} (hm : m = axisVec n ∨ m = -axisVec n) (h : Mirrors m u w) : w = flip n u := by
  obtain ⟨h1, h2⟩ := h
  have h3 : ∀ i, (w ⨯₃ m) i = (u ⨯₃ m) i := fun i => congrFun h2 i
  have c0 := h3 0
  have c1 := h3 1
  have c2 := h3 2
  simp only [cross_apply, dotProduct, Fin.sum_univ_three] at h1 c0 c1 c2
  ext i
  rcases hm with rfl | rfl <;> fin_cases n <;> fin_cases i <;> simp [axisVec, flip] at * <;> linarith

theorem WallStep.spec [F.Exact] {n : Fin 3} {x y : (Fin 3 → ℝ) × (Fin 3 → ℝ)} {u : Fin 3 → ℝ} (hu : UnitOf x.2 u)
    (h : WallStep F n x y) : y.2 = flip n u ∧ y.2 ⬝ᵥ y.2 = 1 := by
  obtain ⟨hd, a0, a1, b0, b1, k, albedo, tmin, tmax, rec, out, h1, -, h3⟩ := h
  obtain ⟨-, -, m, hm, hmn, hmm, -⟩ := wallHit_fin n a0 a1 b0 b1 k x.1 x.2 hd tmin tmax rec out h1
  obtain ⟨w, w1, w2, w3, -⟩ := C76_metal albedo x.1 x.2 u m hu out hm hmm
  rw [w1] at h3
  simp only [Option.some.injEq, Ray.mk.injEq] at h3
  obtain rfl : w = y.2 := cv_inj.mp h3.2
  exact ⟨mirrors_axis hmn w2, w3⟩

/-- C146: along any number of mirrors parallel to the coordinate planes, each component of the unit direction keeps its size, and its sign
tells whether the number of reflections across that coordinate was even. -/
theorem C146_directions [F.Exact] (ns : List (Fin 3)) (x y : (Fin 3 → ℝ) × (Fin 3 → ℝ)) (u : Fin 3 → ℝ) (hu : UnitOf x.2 u)
    (h : Bounces F ns x y) : UnitOf y.2 fun i => (-1) ^ ns.count i * u i := by
  induction h generalizing u with
  | nil x => simpa using hu
  | @cons n ns x y z hs _ ih =>
    obtain ⟨h1, h2⟩ := hs.spec hu
    have := ih y.2 ⟨h2, 1, one_pos, (one_smul _ _).symm⟩
    convert this using 2 with i
    rw [h1, flip, List.count_cons]
    by_cases hi : i = n
    · subst hi; simp [pow_succ]
    · rw [if_neg hi, if_neg (by simpa using fun h => hi h.symm), add_zero]

/-- C146: three perpendicular mirrors send light back where it came from, in whatever order they are met. -/
theorem C146_corner [F.Exact] (ns : List (Fin 3)) (hns : ns.Perm [0, 1, 2]) (x y : (Fin 3 → ℝ) × (Fin 3 → ℝ)) (u : Fin 3 → ℝ)
    (hu : UnitOf x.2 u) (h : Bounces F ns x y) : UnitOf y.2 (-u) := by
  have := C146_directions ns x y u hu h
  convert this using 1
  ext i
  rw [hns.count_eq]
  fin_cases i <;> simp

/-- A ray that met the three walls at the corner leaves against the direction it came in. -/
example (y : (Fin 3 → ℝ) × (Fin 3 → ℝ)) (h : Bounces exact64 [0, 1, 2] (![1, 4, 6], ![-1 / 3, -2 / 3, -2 / 3]) y) :
    UnitOf y.2 (-![-1 / 3, -2 / 3, -2 / 3]) :=
  C146_corner _ (List.Perm.refl _) _ y _ ⟨by simp [dotProduct, Fin.sum_univ_three]; norm_num, 1, one_pos, (one_smul _ _).symm⟩ h

/-- A mirror that is large enough in the plane with coordinate `k`. -/
theorem WallStep.of_plane [F.Exact] (n : Fin 3) (o d u : Fin 3 → ℝ) (hu : UnitOf d u) (hd : d n ≠ 0) (k : ℝ) (ht : 0 < (k - o n) / d n) :
    WallStep F n (o, d) (o + ((k - o n) / d n) • d, flip n u) := by
  have e : ∀ a b c : ℕ, (![(OfNat.ofNat a : Fl F), OfNat.ofNat b, OfNat.ofNat c] : Vec (Fl F) 3) = cv ![(a:ℝ), b, c] := by
    intro a b c; rw [ofNat_def, ofNat_def, ofNat_def, cv_vec3]
  have ax : ∀ n : Fin 3, axisVec n = ![if n = 0 then 1 else 0, if n = 1 then 1 else 0, if n = 2 then 1 else 0] := by
    intro n; ext i; fin_cases n <;> fin_cases i <;> simp [axisVec]
  set t := (k - o n) / d n with htdef
  have key : ∀ i j : Fin 3, ∃ (a0 a1 b0 b1 : ℝ) (out : HitRecord (Fl F)),
      Rect.hitPlane i j n (cv (axisVec n)) (Rect.ofReal a0 a1 b0 b1 k) ⟨cv o, cv d⟩ (fin 0) pinf
        (HitRecord.default ![fin 0, fin 0, fin 0] ![fin 0, fin 0, fin 0] false) = (true, out) := by
    intro i j
    have h := Rect.hitPlane_fin (F := F) i j n (cv (axisVec n)) (o i + t * d i) (o i + t * d i) (o j + t * d j) (o j + t * d j) k o d hd
      (fin 0) pinf (HitRecord.default ![fin 0, fin 0, fin 0] ![fin 0, fin 0, fin 0] false)
    dsimp only at h
    rw [← htdef, if_neg (by simp [Scalar.gt, ht.le]), if_neg (by simp)] at h
    exact ⟨_, _, _, _, _, h⟩
  have fin' : ∀ i j : Fin 3, (∀ s : Rect (Fl F), ∀ r a b c, wallHit n s r a b c = Rect.hitPlane i j n (cv (axisVec n)) s r a b c) →
      WallStep F n (o, d) (o + t • d, flip n u) := by
    intro i j hw
    obtain ⟨a0, a1, b0, b1, out, h1⟩ := key i j
    have hw1 := (hw _ _ _ _ _).trans h1
    obtain ⟨h2, -, m, m1, m2, m3, m4⟩ := wallHit_fin n a0 a1 b0 b1 k o d hd _ _ _ out hw1
    obtain ⟨w, w1, w2, w3, -, -, w6⟩ := C76_metal (fun _ => cv ![1, 1, 1]) o d u m hu out m1 m3
    refine ⟨hd, a0, a1, b0, b1, k, fun _ => cv ![1, 1, 1], fin 0, pinf, _, out, hw1, w6.mpr m4, ?_⟩
    rw [w1, h2, mirrors_axis m2 w2]
  fin_cases n
  · refine fin' 1 2 fun s r a b c => ?_
    show wallHit 0 s r a b c = Rect.hitPlane 1 2 0 (cv (axisVec 0)) s r a b c
    rw [show (cv (axisVec 0) : Vec (Fl F) 3) = ![1, 0, 0] by rw [ax]; simpa using (e 1 0 0).symm]; rfl
  · refine fin' 0 2 fun s r a b c => ?_
    show wallHit 1 s r a b c = Rect.hitPlane 0 2 1 (cv (axisVec 1)) s r a b c
    rw [show (cv (axisVec 1) : Vec (Fl F) 3) = ![0, 1, 0] by rw [ax]; simpa using (e 0 1 0).symm]; rfl
  · refine fin' 0 1 fun s r a b c => ?_
    show wallHit 2 s r a b c = Rect.hitPlane 0 1 2 (cv (axisVec 2)) s r a b c
    rw [show (cv (axisVec 2) : Vec (Fl F) 3) = ![0, 0, 1] by rw [ax]; simpa using (e 0 0 1).symm]; rfl

/-- A ray into the corner of three mirrors, and its path to where it leaves. -/
example : Bounces exact64 [0, 1, 2] (![1, 4, 6], ![-1 / 3, -2 / 3, -2 / 3]) (![2, 2, 0], ![1 / 3, 2 / 3, 2 / 3]) := by
  have unit : ∀ v : Fin 3 → ℝ, v ⬝ᵥ v = 1 → UnitOf v v := fun v h => ⟨h, 1, one_pos, (one_smul _ _).symm⟩
  have h1 := WallStep.of_plane (F := exact64) 0 ![1, 4, 6] ![-1 / 3, -2 / 3, -2 / 3] _
    (unit _ (by simp [dotProduct, Fin.sum_univ_three]; norm_num)) (by simp) 0 (by simp)
  have h2 := WallStep.of_plane (F := exact64) 1 ![0, 2, 4] ![1 / 3, -2 / 3, -2 / 3] _
    (unit _ (by simp [dotProduct, Fin.sum_univ_three]; norm_num)) (by simp) 0 (by simp)
  have h3 := WallStep.of_plane (F := exact64) 2 ![1, 0, 2] ![1 / 3, 2 / 3, -2 / 3] _
    (unit _ (by simp [dotProduct, Fin.sum_univ_three]; norm_num)) (by simp) 0 (by simp)
  refine .cons (y := (![0, 2, 4], ![1 / 3, -2 / 3, -2 / 3])) ?_ (.cons (y := (![1, 0, 2], ![1 / 3, 2 / 3, -2 / 3])) ?_ (.cons ?_ (.nil _)))
  · convert h1 using 2 <;> ext i <;> fin_cases i <;> simp [flip] <;> norm_num
  · convert h2 using 2 <;> ext i <;> fin_cases i <;> simp [flip] <;> norm_num
  · convert h3 using 2 <;> ext i <;> fin_cases i <;> simp [flip] <;> norm_num

/-! ## Closed rooms -/

/-- The record of a box: the nearest crossing lies on a wall that the ray is not parallel to, with the normal of that wall turned
against the ray; a list of the sides with one material yields that material. -/
theorem room_record [F.Exact] {M : Type} (lo hi : Fin 3 → ℝ) (hlh : ∀ i, lo i ≤ hi i) (m : M) (o d : Fin 3 → ℝ) (hd : d ≠ 0)
    (tmin tmax : Fl F) (hn : isNaN tmin = false) (hm : isNaN tmax = false) (rec temp0 : HitRecord (Fl F)) :
    ((¬ ∃ z, Before (tmin, tmax) z ∧ o + z • d ∈ crossedSet lo hi d) →
      ((Cuboid.ofReal lo hi : Cuboid (Fl F)).sides m).hit ⟨cv o, cv d⟩ tmin tmax rec temp0 = (some none, rec)) ∧
    ((∃ z, Before (tmin, tmax) z ∧ o + z • d ∈ crossedSet lo hi d) →
      ∃ out, ((Cuboid.ofReal lo hi : Cuboid (Fl F)).sides m).hit ⟨cv o, cv d⟩ tmin tmax rec temp0 = (some (some m), out) ∧
      ∃ z, out.t = fin z ∧ out.p = cv (o + z • d) ∧ Before (tmin, tmax) z ∧ o + z • d ∈ crossedSet lo hi d ∧
        (∀ w, Before (tmin, tmax) w → o + w • d ∈ crossedSet lo hi d → z ≤ w) ∧
        ∃ n, d n ≠ 0 ∧ ((o + z • d) n = lo n ∨ (o + z • d) n = hi n) ∧
          ∃ v, out.normal = cv v ∧ (v = axisVec n ∨ v = -axisVec n) ∧ v ⬝ᵥ v = 1 ∧ d ⬝ᵥ v < 0) := by
  obtain ⟨c1, c2, c3⟩ := C107_crossing lo hi hlh o d hd tmin tmax hn hm rec temp0
  have inv := HittableList.loop_inv ⟨cv o, cv d⟩ tmin tmax rec ((Cuboid.ofReal lo hi : Cuboid (Fl F)).sides ()).objects
    ((Cuboid.ofReal lo hi : Cuboid (Fl F)).sides ()).objects 0 ⟨temp0, tmax, rec, none⟩ rfl (fun _ => ⟨rfl, rfl⟩) (fun j h => by cases h)
  unfold Cuboid.hit HittableList.hit at c1 c2 c3
  unfold HittableList.hit
  have e : ((Cuboid.ofReal lo hi : Cuboid (Fl F)).sides m).objects = ((Cuboid.ofReal lo hi : Cuboid (Fl F)).sides ()).objects := rfl
  dsimp only at c1 c2 c3 inv ⊢
  rw [e]
  generalize HittableList.loop ⟨cv o, cv d⟩ tmin ((Cuboid.ofReal lo hi : Cuboid (Fl F)).sides ()).objects 0
      ⟨temp0, tmax, rec, none⟩ = s at c1 c2 c3 inv ⊢
  cases hs : s.idx with
  | none =>
    rw [hs] at c1
    exact ⟨fun _ => by rw [(inv.1 hs).1], fun h => absurd (c1.mpr h) (by simp)⟩
  | some k =>
    obtain ⟨-, -, ob, hob, c, temp, -, hh⟩ := inv.2 k hs
    have hk : k < 6 := by
      have := (List.getElem?_eq_some_iff.mp hob).1
      simpa [Cuboid.sides, HittableList.add, HittableList.empty] using this
    have e1 : ((Cuboid.ofReal lo hi : Cuboid (Fl F)).sides m).materials[k]? = some m := by
      show ([m, m, m, m, m, m] : List M)[k]? = some m
      interval_cases k <;> rfl
    have e2 : ((Cuboid.ofReal lo hi : Cuboid (Fl F)).sides ()).materials[k]? = some () := by
      show ([(), (), (), (), (), ()] : List Unit)[k]? = some ()
      interval_cases k <;> rfl
    rw [hs] at c1 c2
    simp only [e2] at c1 c2
    have htrue := c1.mp rfl
    refine ⟨fun h => absurd htrue h, fun _ => ⟨s.out, by simp only [e1, Option.map_some], ?_⟩⟩
    obtain ⟨z, z1, z2, z3, z4, z5⟩ := c2 rfl
    refine ⟨z, z1, z2, z3, z4, z5, ?_⟩
    have key : ∀ n : Fin 3, ∀ a0 a1 b0 b1 q : ℝ, (q = lo n ∨ q = hi n) →
        wallHit n (Rect.ofReal a0 a1 b0 b1 q) ⟨cv o, cv d⟩ tmin c temp = (true, s.out) →
        ∃ n, d n ≠ 0 ∧ ((o + z • d) n = lo n ∨ (o + z • d) n = hi n) ∧
          ∃ v, s.out.normal = cv v ∧ (v = axisVec n ∨ v = -axisVec n) ∧ v ⬝ᵥ v = 1 ∧ d ⬝ᵥ v < 0 := by
      intro n a0 a1 b0 b1 q hq hw
      have hdn : d n ≠ 0 := by
        intro h0
        have hp := C59_parallel (F := F) a0 a1 b0 b1 q o d hd tmin c temp
        have hc := C59_coplanar_false (F := F) a0 a1 b0 b1 q o d tmin c temp
        have h1 : o n ≠ q → wallHit n (Rect.ofReal a0 a1 b0 b1 q) ⟨cv o, cv d⟩ tmin c temp = (false, temp) := by
          fin_cases n
          · exact hp.2.2 h0
          · exact hp.2.1 h0
          · exact hp.1 h0
        have h2 : o n = q → (wallHit n (Rect.ofReal a0 a1 b0 b1 q) ⟨cv o, cv d⟩ tmin c temp).2.t = Fl.nan := by
          fin_cases n
          · exact fun h => (hc.2.2 h0 h).2
          · exact fun h => (hc.2.1 h0 h).2
          · exact fun h => (hc.1 h0 h).2
        by_cases hoq : o n = q
        · have := h2 hoq
          rw [hw, z1] at this
          cases this
        · have := h1 hoq
          rw [hw] at this
          cases this
      obtain ⟨-, w2, w3⟩ := wallHit_fin n a0 a1 b0 b1 q o d hdn tmin c temp s.out hw
      have hz : z = (q - o n) / d n := by rw [z1] at w2; simpa using w2
      have : (o + z • d) n = q := by
        rw [hz]
        show o n + (q - o n) / d n * d n = q
        rw [div_mul_cancel₀ _ hdn]; ring
      exact ⟨n, hdn, by rw [this]; exact hq, w3⟩
    interval_cases k <;> (
      simp only [Cuboid.sides, HittableList.add, HittableList.empty, List.nil_append, List.cons_append, List.getElem?_cons_zero,
        List.getElem?_cons_succ, Option.some.injEq] at hob
      subst hob)
    · exact key 2 _ _ _ _ _ (Or.inr rfl) hh
    · exact key 2 _ _ _ _ _ (Or.inl rfl) hh
    · exact key 1 _ _ _ _ _ (Or.inr rfl) hh
    · exact key 1 _ _ _ _ _ (Or.inl rfl) hh
    · exact key 0 _ _ _ _ _ (Or.inr rfl) hh
    · exact key 0 _ _ _ _ _ (Or.inl rfl) hh

/-- Rays leave a box through a wall that they are not parallel to. -/
theorem crossed_after {lo hi o d : Fin 3 → ℝ} (hd : d ≠ 0) {t : ℝ} (hin : ∀ i, lo i ≤ (o + t • d) i ∧ (o + t • d) i ≤ hi i) :
    ∃ z, t ≤ z ∧ o + z • d ∈ crossedSet lo hi d := by
  obtain ⟨i, hi'⟩ : ∃ i, d i ≠ 0 := by by_contra h; push Not at h; exact hd (funext h)
  set T := t + (hi i - lo i + 1) / |d i| with hT
  have ha : 0 < |d i| := abs_pos.mpr hi'
  have hlen : 0 ≤ hi i - lo i := by have := hin i; linarith
  have hout : ¬ ∀ j, lo j ≤ (o + (-T) • (-d)) j ∧ (o + (-T) • (-d)) j ≤ hi j := by
    intro h
    have h1 := h i
    have h2 := hin i
    have e1 : (o + (-T) • (-d)) i = o i + T * d i := by simp
    have e2 : (o + t • d) i = o i + t * d i := rfl
    rw [e1] at h1
    rw [e2] at h2
    have e3 : T * d i = t * d i + (hi i - lo i + 1) * (d i / |d i|) := by rw [hT]; ring
    rw [e3] at h1
    rcases lt_or_gt_of_ne hi' with h3 | h3
    · rw [abs_of_neg h3, div_neg, div_self hi'] at h1; linarith
    · rw [abs_of_pos h3, div_self hi'] at h1; linarith
  have hle : -T ≤ -t := by
    have : 0 ≤ (hi i - lo i + 1) / |d i| := by positivity
    linarith
  obtain ⟨z, -, hz, h⟩ := crossed_before (lo := lo) (hi := hi) (o := o) (d := -d) hle hout
    (by intro j; have := hin j; simpa using this)
  refine ⟨-z, by linarith, ?_⟩
  obtain ⟨h1, j, h2, h3⟩ := h
  have e : o + z • (-d) = o + (-z) • d := by simp
  rw [e] at h1 h3
  exact ⟨h1, j, by simpa using h2, h3⟩

/-- C146: no ray gets out of a room: whatever the ray, if it is still in the room at the offset with which `ray_color` starts, one sees the
wall and not the background. -/
theorem C146_closed [F.Exact] (lo hi : Fin 3 → ℝ) (o d : Fin 3 → ℝ) (hd : d ≠ 0)
    (hin : ∀ i, lo i ≤ (o + (1000 * F.eps) • d) i ∧ (o + (1000 * F.eps) • d) i ≤ hi i) (e background : Vec (Fl F) 3) (n : ℕ) (s : S)
    (rec0 temp0 : HitRecord (Fl F)) :
    rayColor (((Cuboid.ofReal lo hi).sides (Material.diffuseLight (solidColor e))).world temp0) background rec0 (n + 1) s ⟨cv o, cv d⟩ =
      some ⟨e, s, 1⟩ := by
  obtain ⟨z, hz, hc⟩ := crossed_after hd hin
  have hlh : ∀ i, lo i ≤ hi i := fun i => (hin i).1.trans (hin i).2
  obtain ⟨out, h, -⟩ := (room_record (F := F) lo hi hlh (Material.diffuseLight (S := S) (solidColor e)) o d hd (1000 * eps) inf
    (by rw [offset_exact]; rfl) rfl rec0 temp0).2 ⟨z, ⟨by rw [offset_exact, le_fin]; simpa using hz, rfl⟩, hc⟩
  unfold rayColor HittableList.world
  rw [h]
  rfl

/-- Looking in an arbitrary direction from the middle of the unit cube. -/
example (d : Fin 3 → ℝ) (hd : d ⬝ᵥ d = 1) (s : S) (rec0 temp0 : HitRecord (Fl exact64)) :
    rayColor (((Cuboid.ofReal 0 1).sides (Material.diffuseLight (solidColor (cv ![1, 1, 0])))).world temp0) (cv ![0, 0, 1]) rec0 50 s
      ⟨cv ![1 / 2, 1 / 2, 1 / 2], cv d⟩ = some ⟨cv ![1, 1, 0], s, 1⟩ := by
  refine C146_closed (F := exact64) 0 1 _ d (by rintro rfl; simp at hd) (fun i => ?_) _ _ 49 s rec0 temp0
  have hi : d i ^ 2 ≤ 1 := by
    rw [dotProduct, Fin.sum_univ_three] at hd
    fin_cases i
    · show d 0 ^ 2 ≤ 1; nlinarith [sq_nonneg (d 1), sq_nonneg (d 2)]
    · show d 1 ^ 2 ≤ 1; nlinarith [sq_nonneg (d 0), sq_nonneg (d 2)]
    · show d 2 ^ 2 ≤ 1; nlinarith [sq_nonneg (d 0), sq_nonneg (d 1)]
  have h1 : |d i| ≤ 1 := by rwa [← sq_le_one_iff_abs_le_one]
  have h2 := abs_le.mp h1
  have e : (![1 / 2, 1 / 2, 1 / 2] + (1000 * exact64.eps) • d : Fin 3 → ℝ) i = 1 / 2 + 1000 * (1 / 2 ^ 52) * d i := by
    fin_cases i <;> simp [exact64]
  rw [e]
  constructor
  · show (0:ℝ) ≤ _; linarith
  · show _ ≤ (1:ℝ); linarith

/-- C146: with mirrors as walls this fails: light that is mirrored within the offset from an edge of the room misses the other wall
of the edge, and one sees what is behind it. The walls are perfect mirrors, so a room without lamps would be black. -/
theorem C146_leak_false (b : Fin 3 → ℝ) (n : ℕ) (s : S) (rec0 temp0 : HitRecord (Fl exact64)) :
    ∃ o d : Fin 3 → ℝ, d ⬝ᵥ d = 1 ∧ (∀ i, 0 < o i ∧ o i < 1) ∧
      (∀ i, 0 ≤ (o + (1000 * exact64.eps) • d) i ∧ (o + (1000 * exact64.eps) • d) i ≤ 1) ∧
      rayColor (((Cuboid.ofReal 0 1).sides (Material.metal (solidColor (cv ![1, 1, 1])))).world temp0) (cv b) rec0 (n + 2) s
        ⟨cv o, cv d⟩ = some ⟨cv b, s, 2⟩ := by
  obtain ⟨δ, hδ⟩ : ∃ δ : ℝ, δ = 1 / 2 ^ 52 := ⟨_, rfl⟩
  have hδ0 : 0 < δ := by rw [hδ]; positivity
  have hδ1 : δ < 1 / 100000 := by rw [hδ]; norm_num
  have heps : exact64.eps = δ := hδ.symm
  set o : Fin 3 → ℝ := ![7 / 10, δ + 2 / 5, 1 / 2] with ho
  set d : Fin 3 → ℝ := ![3 / 5, -4 / 5, 0] with hdd
  have hunit : d ⬝ᵥ d = 1 := by simp [hdd, dotProduct, Fin.sum_univ_three]; norm_num
  have hd : d ≠ 0 := by intro h; have := congrFun h 0; simp [hdd] at this
  have hx : ∀ z : ℝ, o + z • d = ![7 / 10 + z * (3 / 5), δ + 2 / 5 + z * (-4 / 5), 1 / 2] := by
    intro z; ext i; fin_cases i <;> simp [ho, hdd]
  have hoff : ∀ z : ℝ, Before (F := exact64) (1000 * eps, inf) z ↔ 1000 * δ ≤ z := by
    intro z
    unfold Before
    dsimp only
    rw [offset_exact, le_fin, heps]
    exact ⟨fun h => by simpa using h.1, fun h => ⟨by simpa using h, rfl⟩⟩
  -- the first wall
  have hc1 : o + (1 / 2 : ℝ) • d ∈ crossedSet 0 1 d := by
    rw [hx]
    refine ⟨fun i => ?_, 0, by simp [hdd], Or.inr (by norm_num)⟩
    fin_cases i
    · constructor <;> norm_num
    · constructor
      · show (0:ℝ) ≤ δ + 2 / 5 + 1 / 2 * (-4 / 5); linarith
      · show δ + 2 / 5 + 1 / 2 * (-4 / 5) ≤ (1:ℝ); linarith
    · constructor <;> norm_num
  obtain ⟨out, h1, z, -, z2, z3, z4, z5, i, i1, i2, v, v1, v2, v3, v4⟩ :=
    (room_record (F := exact64) 0 1 (fun _ => zero_le_one) (Material.metal (S := S) (solidColor (cv ![1, 1, 1]))) o d hd (1000 * eps) inf
      (by rw [offset_exact]; rfl) rfl rec0 temp0).2 ⟨1 / 2, (hoff _).mpr (by linarith), hc1⟩
  have hz1 := z5 _ ((hoff _).mpr (by linarith)) hc1
  have hz0 := (hoff z).mp z3
  have hi0 : i = 0 ∧ z = 1 / 2 := by
    rw [hx] at i2
    fin_cases i
    · refine ⟨rfl, ?_⟩
      rcases i2 with h | h
      · have h : 7 / 10 + z * (3 / 5) = (0:ℝ) := h; linarith
      · have h : 7 / 10 + z * (3 / 5) = (1:ℝ) := h; linarith
    · exfalso
      rcases i2 with h | h
      · have h : δ + 2 / 5 + z * (-4 / 5) = (0:ℝ) := h; linarith
      · have h : δ + 2 / 5 + z * (-4 / 5) = (1:ℝ) := h; linarith
    · exact absurd rfl i1
  obtain ⟨rfl, rfl⟩ := hi0
  obtain ⟨w, w1, w2, w3, w4, w5, w6⟩ := C76_metal (F := exact64) (solidColor (cv ![1, 1, 1])) o d d v
    ⟨hunit, 1, one_pos, (one_smul _ _).symm⟩ out v1 v3
  have hw : w = ![-3 / 5, -4 / 5, 0] := by
    rw [mirrors_axis v2 w2]; ext i; fin_cases i <;> simp [flip, hdd] <;> norm_num
  subst hw
  have hok := w6.mpr v4
  rw [z2] at w1
  -- the second wall is skipped
  have hno : ¬ ∃ z, Before (F := exact64) (1000 * eps, inf) z ∧ o + (1 / 2 : ℝ) • d + z • ![-3 / 5, -4 / 5, 0] ∈
      crossedSet 0 1 ![-3 / 5, -4 / 5, 0] := by
    rintro ⟨t, t1, ⟨t2, -⟩⟩
    have t1 := (hoff t).mp t1
    have := (t2 1).1
    rw [hx] at this
    have : (0:ℝ) ≤ δ + 2 / 5 + 1 / 2 * (-4 / 5) + t * (-4 / 5) := this
    linarith
  have h2 := (room_record (F := exact64) 0 1 (fun _ => zero_le_one) (Material.metal (S := S) (solidColor (cv (F := exact64) ![1, 1, 1])))
      (o + (1 / 2 : ℝ) • d)
      ![-3 / 5, -4 / 5, 0] (by intro h; have := congrFun h 0; simp at this) (1000 * eps) inf
      (by rw [offset_exact]; rfl) rfl rec0 temp0).1 hno
  refine ⟨o, d, hunit, ?_, ?_, ?_⟩
  · intro i
    fin_cases i
    · constructor <;> norm_num [ho]
    · constructor
      · show (0:ℝ) < δ + 2 / 5; linarith
      · show δ + 2 / 5 < (1:ℝ); linarith
    · constructor <;> norm_num [ho]
  · intro i
    rw [hx, heps]
    fin_cases i
    · constructor
      · show (0:ℝ) ≤ 7 / 10 + 1000 * δ * (3 / 5); linarith
      · show 7 / 10 + 1000 * δ * (3 / 5) ≤ (1:ℝ); linarith
    · constructor
      · show (0:ℝ) ≤ δ + 2 / 5 + 1000 * δ * (-4 / 5); linarith
      · show δ + 2 / 5 + 1000 * δ * (-4 / 5) ≤ (1:ℝ); linarith
    · constructor <;> norm_num
  · have r2 : rayColor (((Cuboid.ofReal 0 1).sides (Material.metal (S := S) (solidColor (cv ![1, 1, 1])))).world temp0) (cv b) rec0 (n + 1) s
        (⟨cv (o + (1 / 2 : ℝ) • d), cv ![-3 / 5, -4 / 5, 0]⟩ : Ray (Fl exact64)) = some ⟨cv b, s, 1⟩ := by
      unfold rayColor HittableList.world
      rw [h2]
      rfl
    have r1 : ((Cuboid.ofReal 0 1).sides (Material.metal (S := S) (solidColor (cv ![1, 1, 1])))).world temp0 s ⟨cv o, cv d⟩ (1000 * eps) inf rec0 =
        some (some (Material.metal (solidColor (cv ![1, 1, 1]))), out, s) := by
      unfold HittableList.world
      rw [h1]
      rfl
    rw [rayColor, r1]
    dsimp only [Material.metal] at r2 ⊢
    rw [if_pos hok, w4, w1]
    dsimp only
    rw [r2]
    dsimp only
    congr 2
    ext i
    show (Material.emittedDefault out : Vec (Fl exact64) 3) i + (cv b : Vec (Fl exact64) 3) i * (cv ![1, 1, 1] : Vec (Fl exact64) 3) i = cv b i
    have e0 : (Material.emittedDefault out : Vec (Fl exact64) 3) i = fin 0 := by
      unfold Material.emittedDefault; fin_cases i <;> exact ofNat_zero
    have e1 : (![1, 1, 1] : Fin 3 → ℝ) i = 1 := by fin_cases i <;> rfl
    rw [e0, cv_apply, cv_apply, e1, Fl.mul_fin, Fl.add_fin, mul_one, zero_add]

end DRT
