import Verif.Props.Glass
import Verif.Props.Translate

/-!
# C129: the order in which objects are added does not matter

`hittable_list` (hittable_list.hpp:11-75) asks its objects one after the other, each for a hit that is not farther than the best one so far, and all of them write into the
same `temp_rec`. The theorems say when the picture does not depend on the order of the calls of `add`.
-/

namespace DRT
open Scalar Fl Matrix Vec Render

variable {F : Fmt} {M S : Type}

/-- The records agree in what a surface shows: the parameter, the point, the normal, the side and the texture coordinates. -/
def HitRecord.Shown (a b : HitRecord (Fl F)) : Prop :=
  a.t = b.t ∧ a.p = b.p ∧ a.normal = b.normal ∧ a.frontFace = b.frontFace ∧ a.u = b.u ∧ a.v = b.v

/-- An object that has a first hit on the ray, and shows the same there whatever the upper bound and the record it is given. -/
structure Steady (o : Hittable (Fl F)) (r : Ray (Fl F)) (tmin : Fl F) : Prop where
  reports : ∃ first, ReportsNumber o r tmin first
  shows : ∀ c c' x x' y y', o.hit r tmin c x = (true, y) → o.hit r tmin c' x' = (true, y') → y.t = y'.t → y.Shown y'

/-- The two objects, each asked alone, are not hit at the same parameter. -/
def NoTie (r : Ray (Fl F)) (tmin tmax : Fl F) (o o' : Hittable (Fl F)) : Prop := ∀ x x' y y',
  o.hit r tmin tmax x = (true, y) → o'.hit r tmin tmax x' = (true, y') → Scalar.eq y.t y'.t = false

theorem NoTie.symm {r : Ray (Fl F)} {tmin tmax : Fl F} {o o' : Hittable (Fl F)} (h : NoTie r tmin tmax o o') : NoTie r tmin tmax o' o := by
  intro x x' y y' h1 h2
  have := h x' x y' y h2 h1
  rw [← this]
  cases y.t <;> cases y'.t <;> try rfl
  simp only [eq_fin, eq_comm]

/-- A list filled by calling `add` for each pair in turn. -/
def addAll (ps : List (Hittable (Fl F) × M)) : HittableList (Fl F) M := ps.foldl (fun l p => l.add p.1 p.2) HittableList.empty

theorem addAll_eq (ps : List (Hittable (Fl F) × M)) : addAll ps = ⟨ps.map Prod.fst, ps.map Prod.snd⟩ := by
  have h : ∀ (ps : List (Hittable (Fl F) × M)) (l : HittableList (Fl F) M),
      ps.foldl (fun l p => l.add p.1 p.2) l = ⟨l.objects ++ ps.map Prod.fst, l.materials ++ ps.map Prod.snd⟩ := by
    intro ps
    induction ps with
    | nil => intro l; simp
    | cons p ps ih => intro l; rw [List.foldl_cons, ih]; simp [HittableList.add]
  rw [addAll, h]
  simp [HittableList.empty]

theorem eq_of_not_lt {a b : Fl F} (ha : isNaN a = false) (hb : isNaN b = false) (h1 : Scalar.lt a b = false) (h2 : Scalar.lt b a = false) : Scalar.eq a b = true := by
  revert ha hb h1 h2
  cases a <;> cases b <;> simp
  intro h1 h2
  exact le_antisymm h2 h1

/-- What C39 says about a list filled by `add`. -/
theorem addAll_hit (ps : List (Hittable (Fl F) × M)) (r : Ray (Fl F)) (tmin tmax : Fl F) (rec temp0 : HitRecord (Fl F))
    (first : Hittable (Fl F) → Option (Fl F)) (hr : ∀ p ∈ ps, ReportsNumber p.1 r tmin (first p.1)) :
    ((addAll ps).hit r tmin tmax rec temp0).1 ≠ none ∧
    (((addAll ps).hit r tmin tmax rec temp0).1 = some none → ∀ p ∈ ps, ∀ t, first p.1 = some t → Scalar.lt t tmax = false) ∧
    (∀ m, ((addAll ps).hit r tmin tmax rec temp0).1 = some (some m) → ∃ (k : ℕ) (o : Hittable (Fl F)), ps[k]? = some (o, m) ∧
      first o = some ((addAll ps).hit r tmin tmax rec temp0).2.t ∧ Scalar.lt ((addAll ps).hit r tmin tmax rec temp0).2.t tmax = true ∧
      (∃ c temp, Scalar.lt ((addAll ps).hit r tmin tmax rec temp0).2.t c = true ∧
        o.hit r tmin c temp = (true, ((addAll ps).hit r tmin tmax rec temp0).2)) ∧
      ∀ p ∈ ps, ∀ t, first p.1 = some t → Scalar.lt t ((addAll ps).hit r tmin tmax rec temp0).2.t = false) := by
  have key : ∀ (k : ℕ) (o : Hittable (Fl F)), (addAll ps).objects[k]? = some o → ∃ m, ps[k]? = some (o, m) := by
    intro k o h
    rw [addAll_eq] at h
    simp only [List.getElem?_map, Option.map_eq_some_iff] at h
    obtain ⟨⟨o', m⟩, h1, rfl⟩ := h
    exact ⟨m, h1⟩
  have hlen : (addAll ps).objects.length = ps.length := by rw [addAll_eq]; simp
  have hfirst : ∀ p ∈ ps, ∃ k < (addAll ps).objects.length, (ps[k]?.bind fun p => first p.1) = first p.1 := by
    intro p hp
    obtain ⟨k, hk, rfl⟩ := List.getElem_of_mem hp
    exact ⟨k, by rw [hlen]; exact hk, by rw [List.getElem?_eq_getElem hk]; rfl⟩
  obtain ⟨h1, h2, h3⟩ := C39_nearest_number (addAll ps) (by rw [addAll_eq]; simp) r tmin tmax rec temp0 (fun k => ps[k]?.bind fun p => first p.1) (by
    intro k o h
    obtain ⟨m, hm⟩ := key k o h
    rw [hm]
    exact hr _ (List.mem_of_getElem? hm))
  refine ⟨h3, fun h p hp t ht => ?_, fun m hm => ?_⟩
  · obtain ⟨k, hk, e⟩ := hfirst p hp
    exact h1.mp h k hk t (by rw [e, ht])
  · obtain ⟨k, a1, a2, a3, ⟨o, a4, c, temp, a7, a5⟩, a6, -⟩ := h2 m hm
    obtain ⟨m', hm'⟩ := key k o a4
    have : m' = m := by
      rw [addAll_eq] at a1
      simp only [List.getElem?_map, hm', Option.map_some, Option.some.injEq] at a1
      exact a1
    subst this
    refine ⟨k, o, hm', by rw [hm'] at a2; exact a2, a3, ⟨c, temp, a7, a5⟩, fun p hp t ht => ?_⟩
    obtain ⟨j, hj, e⟩ := hfirst p hp
    exact a6 j hj t (by rw [e, ht])

/-- C129, any rounding: adding the same objects in another order changes neither the material that `hit` returns nor what the record shows, if no two
objects are hit at the same parameter. -/
theorem C129_hit {ps qs : List (Hittable (Fl F) × M)} (hperm : ps.Perm qs) (r : Ray (Fl F)) (tmin tmax : Fl F) (rec temp0 rec' temp0' : HitRecord (Fl F))
    (hs : ∀ p ∈ ps, Steady p.1 r tmin) (hne : ps.Pairwise fun p q => NoTie r tmin tmax p.1 q.1) :
    ((addAll ps).hit r tmin tmax rec temp0).1 = ((addAll qs).hit r tmin tmax rec' temp0').1 ∧
    (((addAll ps).hit r tmin tmax rec temp0).1 ≠ some none →
      ((addAll ps).hit r tmin tmax rec temp0).2.Shown ((addAll qs).hit r tmin tmax rec' temp0').2) := by
  classical
  let first : Hittable (Fl F) → Option (Fl F) := fun o => if h : ∃ f, ReportsNumber o r tmin f then h.choose else none
  have hf : ∀ p ∈ ps, ReportsNumber p.1 r tmin (first p.1) := by
    intro p hp
    have h := (hs p hp).reports
    simp only [first, dif_pos h]
    exact h.choose_spec
  obtain ⟨a1, a2, a3⟩ := addAll_hit ps r tmin tmax rec temp0 first hf
  obtain ⟨b1, b2, b3⟩ := addAll_hit qs r tmin tmax rec' temp0' first fun p hp => hf p (hperm.mem_iff.mpr hp)
  generalize (addAll ps).hit r tmin tmax rec temp0 = h at *
  generalize (addAll qs).hit r tmin tmax rec' temp0' = h' at *
  obtain ⟨v, y⟩ := h
  obtain ⟨v', y'⟩ := h'
  dsimp only at *
  rcases v with _ | _ | m
  · exact absurd rfl a1
  · rcases v' with _ | _ | m'
    · exact absurd rfl b1
    · exact ⟨rfl, fun h => absurd rfl h⟩
    · obtain ⟨k, o, c1, c2, c3, -, -⟩ := b3 m' rfl
      have := a2 rfl _ (hperm.mem_iff.mpr (List.mem_of_getElem? c1)) _ c2
      rw [c3] at this
      cases this
  · obtain ⟨k, o, d1, d2, d3, ⟨c, temp, -, d4⟩, d5⟩ := a3 m rfl
    rcases v' with _ | _ | m'
    · exact absurd rfl b1
    · have := b2 rfl _ (hperm.mem_iff.mp (List.mem_of_getElem? d1)) _ d2
      rw [d3] at this
      cases this
    · obtain ⟨k', o', c1, c2, c3, ⟨c', temp', -, c4⟩, c5⟩ := b3 m' rfl
      have hmem := hperm.mem_iff.mpr (List.mem_of_getElem? c1)
      have e1 := d5 _ hmem _ c2
      have e2 := c5 _ (hperm.mem_iff.mp (List.mem_of_getElem? d1)) _ d2
      have heq := eq_of_not_lt (not_nan_of_lt_left d3) (not_nan_of_lt_left c3) e2 e1
      have ht : y.t = y'.t := by
        revert heq
        cases y.t <;> cases y'.t <;> simp
      obtain ⟨j, hj, hj'⟩ := List.getElem_of_mem hmem
      have hk := (List.getElem?_eq_some_iff.mp d1)
      obtain ⟨hk, hk'⟩ := hk
      have hjk : j = k := by
        by_contra hcon
        have hn : NoTie r tmin tmax o' o := by
          rcases Nat.lt_or_gt_of_ne hcon with h | h
          · have := List.pairwise_iff_getElem.mp hne j k hj hk h
            rw [hj', hk'] at this
            exact this
          · have := List.pairwise_iff_getElem.mp hne k j hk hj h
            rw [hj', hk'] at this
            exact this.symm
        have f1 := (hf _ hmem).hit _ c2 tmax rec (Fl.le_of_lt c3)
        have f2 := (hf _ (List.mem_of_getElem? d1)).hit _ d2 tmax rec (Fl.le_of_lt d3)
        have := hn rec rec _ _ (Prod.ext f1.1 rfl) (Prod.ext f2.1 rfl)
        dsimp only at f1 f2
        rw [f1.2, f2.2, ← ht] at this
        rw [← ht] at heq
        rw [heq] at this
        cases this
      subst hjk
      rw [hj'] at hk'
      simp only [Prod.mk.injEq] at hk'
      obtain ⟨rfl, rfl⟩ := hk'
      exact ⟨rfl, fun _ => (hs _ hmem).shows c c' temp temp' y y' d4 c4 ht⟩

/-! ## The objects of the library -/

theorem firstRoot_reports [F.Rounding] (a b c tmin : Fl F) : ∃ first : Option (Fl F),
    (∀ t, first = some t → ∀ tmax, Scalar.le t tmax = true → firstQuadraticRootInRange a b c tmin tmax = some t) ∧
    (∀ tmax, isNaN tmax = false → (∀ t, first = some t → Scalar.le t tmax = false) → firstQuadraticRootInRange a b c tmin tmax = none) := by
  unfold firstQuadraticRootInRange
  split
  · rename_i r0 r1 hr
    by_cases h0 : ge r0 tmin = true
    · refine ⟨some r0, fun t ht tmax hle => ?_, fun tmax hn hle => ?_⟩
      · injection ht with ht; subst ht
        simp [h0, hle]
      · have h1 := hle r0 rfl
        have h2 : (ge r1 tmin && Scalar.le r1 tmax) = false := by
          by_contra hcon
          rw [Bool.not_eq_false, Bool.and_eq_true] at hcon
          have := Fl.le_trans (C13_ordered a b c hr (not_nan_of_le_right h0) (not_nan_of_le_left hcon.2)) hcon.2
          rw [h1] at this
          cases this
        simp [h1, h2]
    · rw [Bool.not_eq_true] at h0
      by_cases h1 : ge r1 tmin = true
      · refine ⟨some r1, fun t ht tmax hle => ?_, fun tmax hn hle => ?_⟩
        · injection ht with ht; subst ht
          simp [h0, h1, hle]
        · simp [h0, hle r1 rfl]
      · rw [Bool.not_eq_true] at h1
        exact ⟨none, by simp, fun tmax _ _ => by simp [h0, h1]⟩
  · exact ⟨none, by simp, by simp⟩

theorem Sphere.steady [F.Rounding] (s : Sphere (Fl F)) (r : Ray (Fl F)) (tmin : Fl F) : Steady s.toHittable r tmin where
  reports := by
    obtain ⟨first, h1, h2⟩ := firstRoot_reports (Vec.squaredNorm r.dir) (2 * Vec.dot (r.origin - s.center) r.dir)
      (Vec.squaredNorm (r.origin - s.center) - s.radius * s.radius) tmin
    refine ⟨first, fun t ht tmax rec hle => ?_, fun tmax rec hn hle h => ?_⟩
    · show (s.hit r tmin tmax rec).1 = true ∧ (s.hit r tmin tmax rec).2.t = t
      rw [Sphere.hit_some (h1 t ht tmax hle)]
      exact ⟨rfl, rfl⟩
    · change (s.hit r tmin tmax rec).1 = true at h
      rw [Sphere.hit_none (h2 tmax hn hle)] at h
      cases h
  shows c c' x x' y y' h h' ht := by
    change s.hit r tmin c x = _ at h
    change s.hit r tmin c' x' = _ at h'
    have e := Sphere.hit_true (s := s) (r := r) (tmin := tmin) (tmax := c) (rec := x) (by rw [h])
    have e' := Sphere.hit_true (s := s) (r := r) (tmin := tmin) (tmax := c') (rec := x') (by rw [h'])
    rw [h] at e
    rw [h'] at e'
    dsimp only at e e'
    rw [e, e', ht]
    exact ⟨rfl, rfl, rfl, rfl, rfl, rfl⟩

theorem Ellipsoid.steady [F.Rounding] (s : Ellipsoid (Fl F)) (r : Ray (Fl F)) (tmin : Fl F) : Steady s.toHittable r tmin where
  reports := by
    let oc0 := r.origin - s.center
    let oc : Vec (Fl F) 3 := ![oc0 0 / s.scales 0, oc0 1 / s.scales 1, oc0 2 / s.scales 2]
    let sd : Vec (Fl F) 3 := ![r.dir 0 / s.scales 0, r.dir 1 / s.scales 1, r.dir 2 / s.scales 2]
    obtain ⟨first, h1, h2⟩ := firstRoot_reports (Vec.squaredNorm sd) (2 * Vec.dot oc sd) (Vec.squaredNorm oc - 1) tmin
    refine ⟨first, fun t ht tmax rec hle => ?_, fun tmax rec hn hle h => ?_⟩
    · show (s.hit r tmin tmax rec).1 = true ∧ (s.hit r tmin tmax rec).2.t = t
      rw [Ellipsoid.hit_some (h1 t ht tmax hle)]
      exact ⟨rfl, rfl⟩
    · change (s.hit r tmin tmax rec).1 = true at h
      rw [Ellipsoid.hit_none (h2 tmax hn hle)] at h
      cases h
  shows c c' x x' y y' h h' ht := by
    change s.hit r tmin c x = _ at h
    change s.hit r tmin c' x' = _ at h'
    have key : ∀ c x y, s.hit r tmin c x = (true, y) → y = s.record r y.t x := by
      intro c x y h
      rcases Ellipsoid.hit_cases s r tmin c x with hc | ⟨t, hc⟩
      · rw [hc] at h; cases h
      · rw [hc] at h
        simp only [Prod.mk.injEq, true_and] at h
        rw [← h]
        rfl
    rw [key c x y h, key c' x' y' h', ht]
    exact ⟨rfl, rfl, rfl, rfl, rfl, rfl⟩

theorem outside_iff {t tmax : Fl F} (ht : isNaN t = false) (hm : isNaN tmax = false) (h : Scalar.le t tmax = false) : gt t tmax = true :=
  Fl.lt_of_not_le ht hm h

/-- The rectangles, under any rounding; a ray in the plane of a rectangle may be hit at a parameter that is not a number. -/
theorem Rect.steady (i j n : Fin 3) (normal : Vec (Fl F) 3) (s : Rect (Fl F)) (b : Bool × AABB (Fl F)) (r : Ray (Fl F)) (tmin : Fl F) :
    Steady ⟨s.hitPlane i j n normal, b⟩ r tmin where
  reports := by
    obtain ⟨t, ht⟩ : ∃ t, t = (s.k - r.origin n) / r.dir n := ⟨_, rfl⟩
    obtain ⟨out, hout⟩ : ∃ out : Bool, out = (Scalar.lt (r.origin i + t * r.dir i) s.a0 || gt (r.origin i + t * r.dir i) s.a1 ||
      Scalar.lt (r.origin j + t * r.dir j) s.b0 || gt (r.origin j + t * r.dir j) s.b1) := ⟨_, rfl⟩
    by_cases h : isNaN t = true ∨ Scalar.lt t tmin = true ∨ out = true
    · refine ⟨none, by simp, fun tmax rec hn _ hhit => ?_⟩
      change (s.hitPlane i j n normal r tmin tmax rec).1 = true at hhit
      show (s.hitPlane i j n normal r tmin tmax rec).2.t = _
      unfold Rect.hitPlane at hhit ⊢
      dsimp only at hhit ⊢
      rw [← ht, ← hout] at hhit ⊢
      split_ifs at hhit ⊢ with h1 h2
      · rcases h with h | h | h
        · exact isNaN_iff.mp h
        · rw [h] at h1; simp at h1
        · exact absurd h h2
    · push Not at h
      obtain ⟨h1, h2, h3⟩ := h
      simp only [ne_eq, Bool.not_eq_true] at h1 h2 h3
      refine ⟨some t, fun t' ht' tmax rec hle => ?_, fun tmax rec hn hle hhit => ?_⟩
      · injection ht' with ht'; subst ht'
        show (s.hitPlane i j n normal r tmin tmax rec).1 = true ∧ (s.hitPlane i j n normal r tmin tmax rec).2.t = t
        unfold Rect.hitPlane
        dsimp only
        rw [← ht, ← hout, h2, h3, show gt t tmax = false from Fl.not_lt_of_le hle]
        exact ⟨rfl, rfl⟩
      · change (s.hitPlane i j n normal r tmin tmax rec).1 = true at hhit
        unfold Rect.hitPlane at hhit
        dsimp only at hhit
        rw [← ht, outside_iff h1 hn (hle t rfl)] at hhit
        simp at hhit
  shows c c' x x' y y' h h' ht := by
    change s.hitPlane i j n normal r tmin c x = _ at h
    change s.hitPlane i j n normal r tmin c' x' = _ at h'
    unfold Rect.hitPlane at h h'
    dsimp only at h h'
    split_ifs at h h'
    all_goals simp only [Prod.mk.injEq, Bool.false_eq_true, false_and, true_and] at h h'
    subst h h'
    exact ⟨rfl, rfl, rfl, rfl, rfl, rfl⟩

theorem Disk.steady (s : Disk (Fl F)) (r : Ray (Fl F)) (tmin : Fl F) : Steady s.toHittable r tmin where
  reports := by
    obtain ⟨o, ho⟩ : ∃ o, o = Mat.mulVec s.toLocal (r.origin - s.center) := ⟨_, rfl⟩
    obtain ⟨d, hd⟩ : ∃ d, d = Mat.mulVec s.toLocal r.dir := ⟨_, rfl⟩
    obtain ⟨t, ht⟩ : ∃ t, t = -(o 2) / d 2 := ⟨_, rfl⟩
    obtain ⟨out, hout⟩ : ∃ out : Bool, out = gt ((o 0 + t * d 0) * (o 0 + t * d 0) + (o 1 + t * d 1) * (o 1 + t * d 1)) (s.radius * s.radius) := ⟨_, rfl⟩
    by_cases h : Scalar.eq (d 2) 0 = true ∨ isNaN t = true ∨ Scalar.lt t tmin = true ∨ out = true
    · refine ⟨none, by simp, fun tmax rec hn _ hhit => ?_⟩
      change (s.hit r tmin tmax rec).1 = true at hhit
      show (s.hit r tmin tmax rec).2.t = _
      unfold Disk.hit at hhit ⊢
      dsimp only at hhit ⊢
      rw [← ho, ← hd, ← ht, ← hout] at hhit ⊢
      split_ifs at hhit ⊢ with h0 h1 h2
      · rcases h with h | h | h | h
        · exact absurd h h0
        · exact isNaN_iff.mp h
        · rw [h] at h1; simp at h1
        · exact absurd h h2
    · push Not at h
      obtain ⟨h0, h1, h2, h3⟩ := h
      simp only [ne_eq, Bool.not_eq_true] at h0 h1 h2 h3
      refine ⟨some t, fun t' ht' tmax rec hle => ?_, fun tmax rec hn hle hhit => ?_⟩
      · injection ht' with ht'; subst ht'
        show (s.hit r tmin tmax rec).1 = true ∧ (s.hit r tmin tmax rec).2.t = t
        unfold Disk.hit
        dsimp only
        rw [← ho, ← hd, ← ht, ← hout, h0, h2, h3, show gt t tmax = false from Fl.not_lt_of_le hle]
        exact ⟨rfl, rfl⟩
      · change (s.hit r tmin tmax rec).1 = true at hhit
        unfold Disk.hit at hhit
        dsimp only at hhit
        rw [← ho, ← hd, ← ht, outside_iff h1 hn (hle t rfl), h0] at hhit
        simp at hhit
  shows c c' x x' y y' h h' ht := by
    change s.hit r tmin c x = _ at h
    change s.hit r tmin c' x' = _ at h'
    unfold Disk.hit at h h'
    dsimp only at h h'
    split_ifs at h h'
    all_goals simp only [Prod.mk.injEq, Bool.false_eq_true, false_and, true_and] at h h'
    subst h h'
    exact ⟨rfl, rfl, rfl, rfl, rfl, rfl⟩

/-! ## Pictures -/

/-- A texture that looks only at what the record shows. -/
def ReadsShown (f : Texture (Fl F)) : Prop := ∀ a b : HitRecord (Fl F), a.Shown b → f a = f b

/-- A material that looks only at what the record shows. -/
def ShowsSurface (m : Material (Fl F) S) : Prop := ∀ a b : HitRecord (Fl F), a.Shown b → m.emitted a = m.emitted b ∧ ∀ s r, m.scatter s r a = m.scatter s r b

theorem readsShown_solid (c : Vec (Fl F) 3) : ReadsShown (solidColor c) := fun _ _ _ => rfl

theorem readsShown_checker {f g : Texture (Fl F)} (hf : ReadsShown f) (hg : ReadsShown g) : ReadsShown (checkerTexture f g) := by
  intro a b h
  simp only [checkerTexture, h.2.1, hf a b h, hg a b h]

theorem showsSurface_lambertian {f : Texture (Fl F)} (h : ReadsShown f) (get : S → Pcg) (set : Pcg → S → S) :
    ShowsSurface (Material.lambertian f get set) := by
  intro a b hab
  refine ⟨rfl, fun s r => ?_⟩
  simp only [Material.lambertian, Lambertian.scatter, hab.2.2.1, hab.2.1, h a b hab]

theorem showsSurface_metal {f : Texture (Fl F)} (h : ReadsShown f) : ShowsSurface (S := S) (Material.metal f) := by
  intro a b hab
  refine ⟨rfl, fun s r => ?_⟩
  simp only [Material.metal, Metal.scatter, hab.2.2.1, hab.2.1, h a b hab]

theorem showsSurface_isotropic {f : Texture (Fl F)} (h : ReadsShown f) (draw : S → Vec (Fl F) 3 × S) : ShowsSurface (Material.isotropic f draw) := by
  intro a b hab
  refine ⟨rfl, fun s r => ?_⟩
  simp only [Material.isotropic, Isotropic.scatter, hab.2.1, h a b hab]

theorem showsSurface_dielectric {f : Texture (Fl F)} (h : ReadsShown f) (ir : Fl F) (draw : S → Fl F × S) : ShowsSurface (Material.dielectric ir f draw) := by
  intro a b hab
  refine ⟨h a b hab, fun s r => ?_⟩
  simp only [Material.dielectric, Dielectric.scatter, hab.2.2.1, hab.2.1, hab.2.2.2.1]

theorem showsSurface_light {f : Texture (Fl F)} (h : ReadsShown f) : ShowsSurface (S := S) (Material.diffuseLight f) :=
  fun a b hab => ⟨h a b hab, fun _ _ => rfl⟩

/-- C129, any rounding: `ray_color` gives the same colour and leaves the generators in the same state, whatever the order in which the objects were
added. `Good` holds of the rays that are followed; on none of them may two objects be hit at the same parameter. -/
theorem C129_ray {ps qs : List (Hittable (Fl F) × Material (Fl F) S)} (hperm : ps.Perm qs) (Good : Ray (Fl F) → Prop)
    (hs : ∀ r, Good r → ∀ p ∈ ps, Steady p.1 r (1000 * eps)) (hne : ∀ r, Good r → ps.Pairwise fun p q => NoTie r (1000 * eps) inf p.1 q.1)
    (hm : ∀ p ∈ ps, ShowsSurface p.2)
    (hgood : ∀ r, Good r → ∀ p ∈ ps, ∀ c x y s s' sc q, Scalar.lt y.t c = true → p.1.hit r (1000 * eps) c x = (true, y) →
      p.2.scatter s r y = some (sc, s') → sc.ok = true → sc.ray = some q → Good q)
    (temp0 temp0' rec0 rec0' : HitRecord (Fl F)) (bg : Vec (Fl F) 3) (depth : ℕ) (s : S) (r : Ray (Fl F)) (hr : Good r) :
    rayColor ((addAll qs).world temp0') bg rec0' depth s r = rayColor ((addAll ps).world temp0) bg rec0 depth s r := by
  classical
  induction depth generalizing s r with
  | zero => rfl
  | succ d ih =>
    obtain ⟨h1, h2⟩ := C129_hit hperm r (1000 * eps) inf rec0 temp0 rec0' temp0' (hs r hr) (hne r hr)
    let first : Hittable (Fl F) → Option (Fl F) := fun o => if h : ∃ f, ReportsNumber o r (1000 * eps) f then h.choose else none
    have hf : ∀ p ∈ ps, ReportsNumber p.1 r (1000 * eps) (first p.1) := by
      intro p hp
      have h := (hs r hr p hp).reports
      simp only [first, dif_pos h]
      exact h.choose_spec
    obtain ⟨a1, -, a3⟩ := addAll_hit ps r (1000 * eps) inf rec0 temp0 first hf
    rw [rayColor, rayColor]
    unfold HittableList.world
    rw [← h1]
    generalize (addAll ps).hit r (1000 * eps) inf rec0 temp0 = h at *
    generalize (addAll qs).hit r (1000 * eps) inf rec0' temp0' = h' at *
    obtain ⟨v, y⟩ := h
    obtain ⟨v', y'⟩ := h'
    dsimp only at *
    rcases v with _ | _ | m
    · exact absurd rfl a1
    · rfl
    · obtain ⟨k, o, b1, -, -, ⟨c, temp, b2, b3⟩, -⟩ := a3 m rfl
      have hmem := List.mem_of_getElem? b1
      obtain ⟨e1, e2⟩ := hm _ hmem y y' (h2 (by simp))
      simp only [Option.map_some]
      rw [← e2, ← e1]
      rcases hsc : m.scatter s r y with _ | ⟨⟨ok, a, q⟩, s₂⟩
      · rfl
      · dsimp only
        cases ok
        · rfl
        · simp only [if_true]
          cases a with
          | none => cases q <;> rfl
          | some a =>
            cases q with
            | none => rfl
            | some q =>
              have := ih s₂ q (hgood r hr _ hmem c temp y s s₂ _ q b2 b3 hsc rfl rfl)
              unfold HittableList.world at this
              simp only [this]

/-! ## Spheres that do not touch -/

/-- The materials of the library over textures that look only at what is shown, apart from `isotropic`. -/
inductive Usual : Material (Fl F) S → Prop
  | lambertian {f : Texture (Fl F)} (h : ReadsShown f) (get : S → Pcg) (set : Pcg → S → S) : Usual (Material.lambertian f get set)
  | metal {f : Texture (Fl F)} (h : ReadsShown f) : Usual (Material.metal f)
  | dielectric {f : Texture (Fl F)} (h : ReadsShown f) (ir : ℝ) (hir : 0 < ir) (draw : S → Fl F × S) (hd : ∀ s, ∃ x : ℝ, (draw s).1 = fin x) :
      Usual (Material.dielectric (fin ir) f draw)
  | light {f : Texture (Fl F)} (h : ReadsShown f) : Usual (Material.diffuseLight f)

theorem Usual.shows {m : Material (Fl F) S} (h : Usual m) : ShowsSurface m := by
  cases h with
  | lambertian h get set => exact showsSurface_lambertian h get set
  | metal h => exact showsSurface_metal h
  | dielectric h ir hir draw hd => exact showsSurface_dielectric h _ draw
  | light h => exact showsSurface_light h

/-- A ray with real coordinates that goes somewhere. -/
def RealRay (r : Ray (Fl F)) : Prop := ∃ o d : Fin 3 → ℝ, d ≠ 0 ∧ r = ⟨cv o, cv d⟩

theorem draw_real [F.Exact] (fuel : ℕ) (g : Pcg) (v : Vec (Fl F) 3) (g' : Pcg) (h : Lambertian.randomUnitVector fuel g = some (v, g')) : ∃ x : Fin 3 → ℝ, v = cv x := by
  induction fuel generalizing g with
  | zero => cases h
  | succ n ih =>
    rw [Lambertian.randomUnitVector] at h
    split_ifs at h with h1
    · exact ih _ h
    · simp only [Option.some.injEq] at h
      have hv : (Lambertian.draw g : Vec (Fl F) 3 × Pcg).1 = v := by rw [h]
      obtain ⟨a, ha, -⟩ := C36_range (F := F) g
      obtain ⟨b, hb, -⟩ := C36_range (F := F) (Pcg.real01 (R := Fl F) g).2
      obtain ⟨c, hc, -⟩ := C36_range (F := F) (Pcg.real01 (R := Fl F) (Pcg.real01 (R := Fl F) g).2).2
      refine ⟨![2 * a - 1, 2 * b - 1, 2 * c - 1], ?_⟩
      rw [← hv]
      simp only [Lambertian.draw, ha, hb, hc]
      funext i
      fin_cases i <;> simp [fl]

/-- Light leaves a unit normal along a real ray. -/
theorem Usual.real [F.Exact] {m : Material (Fl F) S} (hm : Usual m) {o d n p : Fin 3 → ℝ} (hd : d ≠ 0) {y : HitRecord (Fl F)} (hp : y.p = cv p) (hn : y.normal = cv n)
    (h1 : n ⬝ᵥ n = 1) (hface : d ⬝ᵥ n ≤ 0) {s s' : S} {sc : Scattered (Fl F)} {q : Ray (Fl F)} (h : m.scatter s ⟨cv o, cv d⟩ y = some (sc, s')) (hok : sc.ok = true)
    (hq : sc.ray = some q) : RealRay q := by
  have hn0 : n ≠ 0 := by rintro rfl; simp at h1
  have hunit : ∀ w : Fin 3 → ℝ, w ⬝ᵥ w = 1 → w ≠ 0 := by rintro w hw rfl; simp at hw
  obtain ⟨u, -, hu1, c, hc, huc⟩ := C02_normalize_unit (F := F) d hd
  have hu : UnitOf d u := ⟨hu1, c, hc, funext huc⟩
  cases hm with
  | @lambertian f hf get set =>
    simp only [Material.lambertian, Option.map_eq_some_iff] at h
    obtain ⟨⟨sc1, g'⟩, h, he⟩ := h
    simp only [Prod.mk.injEq] at he
    obtain ⟨rfl, -⟩ := he
    unfold Lambertian.scatter at h
    split at h
    · cases h
    · rename_i v g1 hv
      simp only [Option.some.injEq, Prod.mk.injEq] at h
      obtain ⟨rfl, -⟩ := h
      simp only [Option.some.injEq] at hq
      subst hq
      unfold Lambertian.randomInHemisphere at hv
      split at hv
      · cases hv
      · rename_i v0 g0 hv0
        obtain ⟨x, rfl⟩ := draw_real _ _ _ _ hv0
        simp only [Option.some.injEq, Prod.mk.injEq] at hv
        obtain ⟨x', hx'⟩ : ∃ x' : Fin 3 → ℝ, v = cv x' := by
          rw [← hv.1]
          split
          · exact ⟨x, rfl⟩
          · exact ⟨-x, cv_neg _⟩
        rw [hx', hn, hp, cv_add, cv_squaredNorm]
        have he : Scalar.sqrt (eps : Fl F) = fin (Real.sqrt F.eps) := sqrt_fin (Fmt.Exact.eps_pos (F := F)).le
        rw [he, lt_fin]
        have hpos : 0 < Real.sqrt F.eps := Real.sqrt_pos.mpr Fmt.Exact.eps_pos
        split
        · exact ⟨p, n, hn0, rfl⟩
        · rename_i hlt
          refine ⟨p, n + x', ?_, rfl⟩
          intro h0
          apply hlt
          rw [h0]
          simpa using hpos
  | @metal f hf =>
    simp only [Material.metal, Option.some.injEq, Prod.mk.injEq] at h
    obtain ⟨rfl, -⟩ := h
    obtain ⟨w, a1, -, a3, -⟩ := C76_metal f o d u n hu y hn h1
    rw [a1] at hq
    simp only [Option.some.injEq] at hq
    exact ⟨p, w, hunit w a3, by rw [← hq, hp]⟩
  | @dielectric f hf ir hir draw hdr =>
    obtain ⟨x, hx⟩ := hdr s
    simp only [Material.dielectric, Option.some.injEq, Prod.mk.injEq, hx] at h
    obtain ⟨rfl, -⟩ := h
    obtain ⟨w, a1, a2, -⟩ := C77_scatter ir x hir o d u n hu y hn h1 hface
    rw [a1] at hq
    simp only [Option.some.injEq] at hq
    exact ⟨p, w, hunit w a2, by rw [← hq, hp]⟩
  | @light f hf =>
    simp only [Material.diffuseLight, DiffuseLight.scatter, Option.some.injEq, Prod.mk.injEq] at h
    obtain ⟨rfl, -⟩ := h
    cases hok

/-- A ball of the given centre, radius and material. -/
structure Ball (F : Fmt) (S : Type) where
  /-- the centre -/
  center : Fin 3 → ℝ
  /-- the radius -/
  radius : ℝ
  /-- the material -/
  mat : Material (Fl F) S

/-- The ball as it is added to a list. -/
noncomputable def Ball.pair (b : Ball F S) : Hittable (Fl F) × Material (Fl F) S := ((Sphere.ofReal b.center b.radius).toHittable, b.mat)

/-- C129 for spheres that do not meet each other, in exact arithmetic without a threshold in the root finder: along every real ray `ray_color` sees the same, whatever
the order in which they were added. -/
theorem C129_spheres_partial [F.Exact] (ht : F.tiny = 0) {bs cs : List (Ball F S)} (hperm : bs.Perm cs) (hR : ∀ b ∈ bs, 0 < b.radius) (hm : ∀ b ∈ bs, Usual b.mat)
    (hdis : bs.Pairwise fun a b => Disjoint (sphereSet a.center a.radius) (sphereSet b.center b.radius))
    (temp0 temp0' rec0 rec0' : HitRecord (Fl F)) (bg : Vec (Fl F) 3) (depth : ℕ) (s : S) (o d : Fin 3 → ℝ) (hd : d ≠ 0) :
    rayColor ((addAll (cs.map Ball.pair)).world temp0') bg rec0' depth s ⟨cv o, cv d⟩ = rayColor ((addAll (bs.map Ball.pair)).world temp0) bg rec0 depth s ⟨cv o, cv d⟩ := by
  refine C129_ray (hperm.map _) RealRay ?_ ?_ ?_ ?_ temp0 temp0' rec0 rec0' bg depth s _ ⟨o, d, hd, rfl⟩
  · intro r _ p hp
    obtain ⟨b, -, rfl⟩ := List.mem_map.mp hp
    exact Sphere.steady _ _ _
  · rintro r ⟨o, d, hd, rfl⟩
    rw [List.pairwise_map]
    refine hdis.imp ?_
    intro a b hab x x' y y' h h'
    obtain ⟨z, z1, -, -, z4, -⟩ := (C46_nearest_ideal ht a.center a.radius o d (1000 * eps) hd inf x rfl).2 (by
      have : ((Sphere.ofReal a.center a.radius).hit ⟨cv o, cv d⟩ (1000 * eps) inf x) = (true, y) := h
      rw [this])
    obtain ⟨z', z1', -, -, z4', -⟩ := (C46_nearest_ideal ht b.center b.radius o d (1000 * eps) hd inf x' rfl).2 (by
      have : ((Sphere.ofReal b.center b.radius).hit ⟨cv o, cv d⟩ (1000 * eps) inf x') = (true, y') := h'
      rw [this])
    rw [show ((Sphere.ofReal a.center a.radius).hit ⟨cv o, cv d⟩ (1000 * eps) inf x) = (true, y) from h] at z1
    rw [show ((Sphere.ofReal b.center b.radius).hit ⟨cv o, cv d⟩ (1000 * eps) inf x') = (true, y') from h'] at z1'
    dsimp only at z1 z1'
    rw [z1, z1', eq_fin, decide_eq_false_iff_not]
    rintro rfl
    exact Set.disjoint_left.mp hab z4 z4'
  · intro p hp
    obtain ⟨b, hb, rfl⟩ := List.mem_map.mp hp
    exact (hm b hb).shows
  · rintro r ⟨o, d, hd, rfl⟩ p hp c x y s s' sc q hlt h hsc hok hq
    obtain ⟨b, hb, rfl⟩ := List.mem_map.mp hp
    replace h : (Sphere.ofReal b.center b.radius).hit ⟨cv o, cv d⟩ (1000 * eps) c x = (true, y) := h
    have htrue : ((Sphere.ofReal b.center b.radius).hit ⟨cv o, cv d⟩ (1000 * eps : Fl F) c x).1 = true := by rw [h]
    obtain ⟨z, -, z2, -, z4, -⟩ := (C46_nearest_ideal ht b.center b.radius o d (1000 * eps) hd c x (not_nan_of_lt_right hlt)).2 htrue
    obtain ⟨⟨m, m1, m2, -, m4⟩, -⟩ := C47_record b.center b.radius (hR b hb) o d (1000 * eps) c x _ z4 htrue z2
    rw [h] at z2 m1
    exact (hm b hb).real hd z2 m1 m2 m4 hsc hok hq

/-- A dull ball, a mirror, a glass ball and a lamp. -/
example (temp0 temp0' rec0 rec0' : HitRecord (Fl exact0)) (depth : ℕ) (g : Pcg) (o d : Fin 3 → ℝ) (hd : d ≠ 0) :
    let dull : Ball exact0 Pcg := ⟨![0, 0, 0], 1, Material.lambertian (solidColor (cv ![1, 0, 0])) id fun g _ => g⟩
    let mirror : Ball exact0 Pcg := ⟨![3, 0, 0], 1, Material.metal (checkerTexture (solidColor (cv ![1, 1, 1])) (solidColor (cv 0)))⟩
    let lamp : Ball exact0 Pcg := ⟨![6, 0, 0], 1, Material.diffuseLight (solidColor (cv ![4, 4, 4]))⟩
    let glass : Ball exact0 Pcg := ⟨![9, 0, 0], 1, Material.dielectric (fin (3 / 2)) (solidColor (cv 0)) Pcg.real01⟩
    rayColor ((addAll ([lamp, glass, dull, mirror].map Ball.pair)).world temp0') (cv 0) rec0' depth g ⟨cv o, cv d⟩ =
      rayColor ((addAll ([dull, mirror, lamp, glass].map Ball.pair)).world temp0) (cv 0) rec0 depth g ⟨cv o, cv d⟩ := by
  intro dull mirror lamp glass
  have key : ∀ a b : ℝ, 3 ≤ b - a → Disjoint (sphereSet ![a, 0, 0] 1) (sphereSet ![b, 0, 0] 1) := by
    intro a b hab
    rw [Set.disjoint_left]
    intro p h1 h2
    simp only [sphereSet, Set.mem_ofPred_eq, Matrix.cons_val_zero] at h1 h2
    have e1 : (p 0 - a) ^ 2 ≤ 1 := by nlinarith [sq_nonneg (p 1 - (![a, 0, 0] : Fin 3 → ℝ) 1), sq_nonneg (p 2 - (![a, 0, 0] : Fin 3 → ℝ) 2)]
    have e2 : (p 0 - b) ^ 2 ≤ 1 := by nlinarith [sq_nonneg (p 1 - (![b, 0, 0] : Fin 3 → ℝ) 1), sq_nonneg (p 2 - (![b, 0, 0] : Fin 3 → ℝ) 2)]
    have e3 : p 0 - a ≤ 1 := by nlinarith
    have e4 : b - p 0 ≤ 1 := by nlinarith
    linarith
  refine C129_spheres_partial rfl ?_ ?_ ?_ ?_ temp0 temp0' rec0 rec0' (cv 0) depth g o d hd
  · exact (List.perm_append_comm (l₁ := [dull, mirror]) (l₂ := [lamp, glass]))
  · intro b hb
    simp only [List.mem_cons, List.not_mem_nil, or_false] at hb
    rcases hb with rfl | rfl | rfl | rfl <;> exact one_pos
  · intro b hb
    simp only [List.mem_cons, List.not_mem_nil, or_false] at hb
    rcases hb with rfl | rfl | rfl | rfl
    · exact Usual.lambertian (readsShown_solid _) id (fun g _ => g)
    · exact .metal (readsShown_checker (readsShown_solid _) (readsShown_solid _))
    · exact Usual.light (readsShown_solid _)
    · refine Usual.dielectric (readsShown_solid _) (3 / 2) (by norm_num) Pcg.real01 fun g => ?_
      obtain ⟨x, hx, -⟩ := C36_range (F := exact0) g
      exact ⟨x, hx⟩
  · simp only [List.pairwise_cons, List.mem_cons, List.not_mem_nil, or_false, forall_eq_or_imp, forall_eq, false_imp_iff, implies_true, List.Pairwise.nil, and_true]
    exact ⟨⟨key 0 3 (by norm_num), key 0 6 (by norm_num), key 0 9 (by norm_num)⟩, ⟨key 3 6 (by norm_num), key 3 9 (by norm_num)⟩, key 6 9 (by norm_num)⟩

/-- C129: the image of spheres that do not meet each other is the same, byte for byte, whatever the order in which they were added. -/
theorem C129_image_partial [F.Exact] (ht : F.tiny = 0) {bs cs : List (Ball F S)} (hperm : bs.Perm cs) (hR : ∀ b ∈ bs, 0 < b.radius) (hm : ∀ b ∈ bs, Usual b.mat)
    (hdis : bs.Pairwise fun a b => Disjoint (sphereSet a.center a.radius) (sphereSet b.center b.radius)) (temp0 temp0' : HitRecord (Fl F))
    (sc : Scene (Fl F) S) (hw : sc.world = (addAll (bs.map Ball.pair)).world temp0) (hwidth : sc.width ≠ 1) (hheight : sc.height ≠ 1)
    (eye target up : Fin 3 → ℝ) (vfov aspect : ℝ) (h0 : 0 < vfov) (h180 : vfov < 180) (hne : eye ≠ target) (hup : up ⨯₃ (eye - target) ≠ 0)
    (hcam : sc.camera = Camera.make (cv eye) (cv target) (cv up) (fin vfov) (fin aspect)) (rows : List ℕ) (s : S) :
    Render.image { sc with world := (addAll (cs.map Ball.pair)).world temp0' } rows s = Render.image sc rows s := by
  set sc' : Scene (Fl F) S := { sc with world := (addAll (cs.map Ball.pair)).world temp0' } with hsc'
  have hco : ∀ (k n : ℕ) (x : ℝ), n ≠ 1 → ∃ u : ℝ, coordinate k n (fin x : Fl F) = fin u := by
    intro k n x hn
    have hd : (n : ℝ) - 1 ≠ 0 := sub_ne_zero.mpr (by exact_mod_cast hn)
    refine ⟨(k + x) / (n - 1), ?_⟩
    unfold coordinate
    rw [lit_def, lit_def]
    simp only [Rat.cast_natCast, Rat.cast_sub, Rat.cast_one]
    rw [Fl.add_fin, div_fin _ hd]
  obtain ⟨right, upward, backward, hframe, -, -, -, hrays⟩ := C82_rays (F := F) eye target up vfov aspect h0 h180 hne hup
  have h1 : ∀ i j st, sample sc' i j st = sample sc i j st := by
    intro i j st
    obtain ⟨a, ha, -⟩ := C36_range (F := F) st.2.1
    obtain ⟨b, hb, -⟩ := C36_range (F := F) (Pcg.real01 (R := Fl F) st.2.1).2
    obtain ⟨x, hx⟩ := hco i sc.width a hwidth
    obtain ⟨y, hy⟩ := hco j sc.height b hheight
    simp only [sample, hsc', ha, hb, hx, hy, hcam, hrays, hw]
    rw [C129_spheres_partial ht hperm hR hm hdis temp0 temp0' sc.rec0 sc.rec0 sc.background 8 st.2.2]
    intro h
    have := congrArg (· ⬝ᵥ backward) h
    obtain ⟨-, -, f3, -, f5, f6, -⟩ := hframe
    rw [dotProduct_comm] at f6
    simp only [add_dotProduct, neg_dotProduct, smul_dotProduct, zero_dotProduct, f3, f5, f6, smul_zero] at this
    norm_num at this
  have h2 : ∀ i j n st, sampleLoop sc' i j n st = sampleLoop sc i j n st := by
    intro i j n
    induction n with
    | zero => intro st; rfl
    | succ n ih =>
      intro st
      rw [sampleLoop, sampleLoop, h1]
      cases sample sc i j st with
      | none => rfl
      | some st => exact ih st
  have h3 : ∀ i j g, task sc' i j g = task sc i j g := by
    intro i j g
    rw [task, task, h2]
  have h4 : ∀ ts g, run sc' ts g = run sc ts g := by
    intro ts
    induction ts with
    | nil => intro g; rfl
    | cons t ts ih =>
      intro g
      rw [run, run, h3]
      cases task sc t.1 t.2 g with
      | none => rfl
      | some p => simp only [ih]
  rw [Render.image, Render.image, h4]

/-- Two lamps, seen from above. -/
example (temp0 temp0' rec0 : HitRecord (Fl exact0)) (rows : List ℕ) :
    let red : Ball exact0 Unit := ⟨![0, 0, 0], 1, Material.diffuseLight (solidColor (cv ![1, 0, 0]))⟩
    let blue : Ball exact0 Unit := ⟨![0, 0, -5], 2, Material.diffuseLight (solidColor (cv ![0, 0, 1]))⟩
    let scene (bs : List (Ball exact0 Unit)) (temp : HitRecord (Fl exact0)) : Scene (Fl exact0) Unit :=
      ⟨5, 5, cv 0, Camera.make (cv ![0, 0, 9]) (cv ![0, 0, 0]) (cv ![0, 1, 0]) (fin 90) (fin 1), (addAll (bs.map Ball.pair)).world temp, 16, rec0⟩
    Render.image (scene [blue, red] temp0') rows () = Render.image (scene [red, blue] temp0) rows () := by
  intro red blue scene
  refine C129_image_partial (bs := [red, blue]) (cs := [blue, red]) rfl (List.Perm.swap _ _ _) ?_ ?_ ?_ temp0 temp0' (scene [red, blue] temp0) rfl (by simp [scene]) (by simp [scene])
    ![0, 0, 9] ![0, 0, 0] ![0, 1, 0] 90 1 (by norm_num) (by norm_num) (fun h => by simpa using congrFun h 2) (fun h => by simpa [cross_apply] using congrFun h 0) rfl rows ()
  · intro b hb
    simp only [List.mem_cons, List.not_mem_nil, or_false] at hb
    rcases hb with rfl | rfl
    · exact one_pos
    · exact two_pos
  · intro b hb
    simp only [List.mem_cons, List.not_mem_nil, or_false] at hb
    rcases hb with rfl | rfl <;> exact Usual.light (readsShown_solid _)
  · rw [List.pairwise_pair, Set.disjoint_left]
    intro p h1 h2
    have h1' : (p 0 - 0) ^ 2 + (p 1 - 0) ^ 2 + (p 2 - 0) ^ 2 = 1 ^ 2 := h1
    have h2' : (p 0 - 0) ^ 2 + (p 1 - 0) ^ 2 + (p 2 - -5) ^ 2 = 2 ^ 2 := h2
    have : p 2 = -11 / 5 := by linarith
    rw [this] at h1'
    nlinarith [sq_nonneg (p 0 - 0), sq_nonneg (p 1 - 0)]

/-! ## Two rectangles, with rounding -/

theorem Rect.hit_t (i j n : Fin 3) (normal : Vec (Fl F) 3) (s : Rect (Fl F)) (r : Ray (Fl F)) (tmin tmax : Fl F) (x y : HitRecord (Fl F))
    (h : s.hitPlane i j n normal r tmin tmax x = (true, y)) : y.t = (s.k - r.origin n) / r.dir n := by
  unfold Rect.hitPlane at h
  dsimp only at h
  split_ifs at h
  all_goals simp only [Prod.mk.injEq, Bool.false_eq_true, false_and, true_and] at h
  rw [← h]
  rfl

/-- Two panes one behind the other, in `float`: the order does not matter, whatever is left in the records. -/
example (rec temp0 rec' temp0' : HitRecord (Fl binary32)) :
    let near : Hittable (Fl binary32) := Rect.xy ⟨fin (-1), fin 1, fin (-1), fin 1, fin 1⟩
    let far : Hittable (Fl binary32) := Rect.xy ⟨fin (-1), fin 1, fin (-1), fin 1, fin 2⟩
    let r : Ray (Fl binary32) := ⟨![fin 0, fin 0, fin 0], ![fin 0, fin 0, fin 1]⟩
    ((addAll [(near, "near"), (far, "far")]).hit r (fin 0) pinf rec temp0).1 = ((addAll [(far, "far"), (near, "near")]).hit r (fin 0) pinf rec' temp0').1 := by
  intro near far r
  refine (C129_hit (F := binary32) (List.Perm.swap _ _ _) r (fin 0) pinf rec temp0 rec' temp0' ?_ ?_).1
  · intro p hp
    simp only [List.mem_cons, List.not_mem_nil, or_false] at hp
    rcases hp with rfl | rfl <;> exact Rect.steady 0 1 2 _ _ _ _ _
  · rw [List.pairwise_pair]
    intro x x' y y' h h'
    rw [Rect.hit_t 0 1 2 _ _ _ _ _ _ _ h, Rect.hit_t 0 1 2 _ _ _ _ _ _ _ h']
    have hr : ∀ k : ℕ, k ≤ 256 → ((fin (k : ℝ) : Fl binary32) - fin 0) / fin 1 = fin (k : ℝ) := by
      intro k hk
      have hs : rnd binary32 (k : ℝ) = fin (k : ℝ) := Fmt.Rounding.small k hk
      have e : (fin (k : ℝ) : Fl binary32) - fin 0 = fin (k : ℝ) := by
        show rnd binary32 ((k : ℝ) + -0) = _
        rw [neg_zero, add_zero, hs]
      rw [e]
      show (if (1 : ℝ) = 0 then _ else rnd binary32 ((k : ℝ) / 1)) = _
      rw [if_neg one_ne_zero, div_one, hs]
    have e1 := hr 1 (by norm_num)
    have e2 := hr 2 (by norm_num)
    norm_num at e1 e2
    show Scalar.eq (((fin 1 : Fl binary32) - fin 0) / fin 1) ((fin 2 - fin 0) / fin 1) = false
    rw [e1, e2]
    simp

/-! ## Where the order matters -/

/-- C129 needs the objects to be hit at different parameters: of two objects in the same place the one that was added first is seen. -/
theorem C129_tie_false (o : Hittable (Fl F)) (m m' : M) (r : Ray (Fl F)) (tmin tmax : Fl F) (rec temp0 : HitRecord (Fl F)) (t : Fl F)
    (ho : ReportsNumber o r tmin (some t)) (ht : Scalar.lt t tmax = true) :
    ((addAll [(o, m), (o, m')]).hit r tmin tmax rec temp0).1 = some (some m) ∧ ((addAll [(o, m'), (o, m)]).hit r tmin tmax rec temp0).1 = some (some m') := by
  have key : ∀ a b : M, ((addAll [(o, a), (o, b)]).hit r tmin tmax rec temp0).1 = some (some a) := by
    intro a b
    obtain ⟨h1, h2⟩ := ho.hit t rfl tmax temp0 (Fl.le_of_lt ht)
    obtain ⟨h3, h4⟩ := ho.hit t rfl t (o.hit r tmin tmax temp0).2 (Fl.le_refl (not_nan_of_lt_left ht))
    have hirr : Scalar.lt t t = false := Fl.lt_irrefl t
    rw [addAll_eq]
    simp only [HittableList.hit, HittableList.loop, HittableList.step, List.map_cons, List.map_nil, h1, h2, ht, if_true, h3, h4, hirr, Bool.false_eq_true, if_false]
    rfl
  exact ⟨key m m', key m' m⟩

/-- Two panes in the same place, in `double`. -/
example (r : Ray (Fl binary64)) (rec temp0 : HitRecord (Fl binary64)) :
    ((addAll [(spike (fin 1), "red"), (spike (fin 1), "blue")]).hit r (fin 0) pinf rec temp0).1 = some (some "red") ∧
    ((addAll [(spike (fin 1), "blue"), (spike (fin 1), "red")]).hit r (fin 0) pinf rec temp0).1 = some (some "blue") :=
  C129_tie_false _ "red" "blue" r (fin 0) pinf rec temp0 (fin 1) (spike_reports _ _ _).number (by simp)

/-- C129 fails for curvatures. A wall stands in front of a ball of radius 1. If the ball was added first, the record of the hit of the flat wall
has the curvature of the ball; if the wall was added first, it has none. Rectangles do not write the fundamental forms, and `temp_rec` is shared. -/
theorem C129_curvature_false [F.Exact] (he : 1000 * F.eps ≤ 1) (m m' : M) (rec : HitRecord (Fl F)) (p n : Vec (Fl F) 3) (ff : Bool) :
    let ball : Hittable (Fl F) := (Sphere.ofReal ![5, 0, 0] 1).toHittable
    let wall : Hittable (Fl F) := Rect.yz (Rect.ofReal (-1) 1 (-1) 1 1)
    let r : Ray (Fl F) := ⟨cv 0, cv ![1, 0, 0]⟩
    ∃ x y, (addAll [(ball, m), (wall, m')]).hit r (1000 * eps) inf rec (HitRecord.default p n ff) = (some (some m'), x) ∧
      (addAll [(wall, m'), (ball, m)]).hit r (1000 * eps) inf rec (HitRecord.default p n ff) = (some (some m'), y) ∧
      x.Shown y ∧ x.gaussianCurvature = fin 1 ∧ y.gaussianCurvature = Fl.nan := by
  intro ball wall r
  have he0 := Fmt.Exact.eps_pos (F := F)
  have ht1 := Fmt.Exact.tiny_lt (F := F)
  set temp0 : HitRecord (Fl F) := HitRecord.default p n ff with htemp
  have hS : ∀ z : ℝ, (0 + z • ![1, 0, 0] : Fin 3 → ℝ) ∈ sphereSet ![5, 0, 0] 1 ↔ (z = 4 ∨ z = 6) := by
    intro z
    simp only [sphereSet, Set.mem_ofPred_eq]
    simp
    constructor
    · rintro (h | h)
      · right; linarith
      · left; linarith
    · rintro (rfl | rfl) <;> norm_num
  have hnear := fun tmax => C46_nearest_partial (F := F) ![5, 0, 0] 1 0 ![1, 0, 0] (1000 * eps)
    (by simp [dotProduct, Fin.sum_univ_three]; exact ht1)
    (Or.inr (by simp [dotProduct, Fin.sum_univ_three]; norm_num; linarith)) tmax
  have hlow : ∀ z : ℝ, Scalar.le (1000 * eps : Fl F) (fin z) = true ↔ 1000 * F.eps ≤ z := by intro z; rw [offset_exact]; simp
  -- the ball alone
  have b1 := (hnear inf temp0 rfl).1.mpr ⟨4, ⟨(hlow 4).mpr (by linarith), by simp⟩, (hS 4).mpr (Or.inl rfl)⟩
  obtain ⟨z, z1, z2, z3, z4, z5⟩ := (hnear inf temp0 rfl).2 b1
  have hz : z = 4 := by
    have := z5 4 ⟨(hlow 4).mpr (by linarith), by simp⟩ ((hS 4).mpr (Or.inl rfl))
    rcases (hS z).mp z4 with h | h
    · exact h
    · linarith
  have hcurv := (C49_curvature ![5, 0, 0] 1 one_pos 0 ![1, 0, 0] (1000 * eps) inf temp0 _ z4 (Or.inl (by rw [hz]; simp)) b1 z2).1
  rw [hz] at z1
  -- the wall alone
  obtain ⟨W, hWt, hWs, hWk, hwall⟩ : ∃ W : HitRecord (Fl F) → HitRecord (Fl F), (∀ x, (W x).t = fin 1) ∧ (∀ x x', (W x).Shown (W x')) ∧
      (∀ x, (W x).gaussianCurvature = x.gaussianCurvature) ∧
      ∀ (tmax : Fl F) (x : HitRecord (Fl F)), Scalar.le (fin 1) tmax = true → wall.hit r (1000 * eps) tmax x = (true, W x) := by
    refine ⟨fun x => { ({ x with u := fin (0 - -1) / fin (1 - -1), v := fin (0 - -1) / fin (1 - -1), t := fin 1 } :
      HitRecord (Fl F)).setFaceNormal r ![1, 0, 0] with p := cv ![1, 0, 0] }, fun _ => rfl, fun _ _ => ⟨rfl, rfl, rfl, rfl, rfl, rfl⟩,
      fun _ => rfl, ?_⟩
    intro tmax x hle
    have h := Rect.hitPlane_fin (F := F) 1 2 0 ![1, 0, 0] (-1) 1 (-1) 1 1 0 ![1, 0, 0] (by simp) (1000 * eps) tmax x
    dsimp only at h
    rw [show ((1 : ℝ) - (0 : Fin 3 → ℝ) 0) / (![1, 0, 0] : Fin 3 → ℝ) 0 = 1 by simp, if_neg, if_neg] at h
    · refine Eq.trans h ?_
      rw [zero_add, one_smul]
      simp only [Pi.zero_apply, one_mul, Matrix.cons_val_one, Matrix.cons_val, Matrix.cons_val_zero, add_zero]
      rfl
    · simp
    · rw [Bool.or_eq_true, not_or]
      refine ⟨?_, ?_⟩
      · rw [Fl.not_lt_of_le ((hlow 1).mpr he)]; simp
      · rw [show gt (fin 1 : Fl F) tmax = false from Fl.not_lt_of_le hle]; simp
  have w1 := hwall (fin 4) (ball.hit r (1000 * eps) inf temp0).2 (by simp)
  have w2 := hwall inf temp0 (by simp)
  have hb : (ball.hit r (1000 * eps) inf temp0).1 = true := b1
  have hbt : (ball.hit r (1000 * eps) inf temp0).2.t = fin 4 := z1
  have hmiss : ∀ x, (ball.hit r (1000 * eps) (fin 1) x).1 = false := by
    intro x
    rw [← Bool.not_eq_true]
    intro h
    obtain ⟨z, ⟨-, a2⟩, a3⟩ := (hnear (fin 1) x rfl).1.mp h
    have a2' : z ≤ 1 := by simpa using a2
    rcases (hS z).mp a3 with h | h <;> linarith
  have hl4 : Scalar.lt (fin 4 : Fl F) inf = true := by simp
  have hl1 : Scalar.lt (fin 1 : Fl F) inf = true := by simp
  have hl14 : Scalar.lt (fin 1 : Fl F) (fin 4) = true := by simp
  refine ⟨W (ball.hit r (1000 * eps) inf temp0).2, W temp0, ?_, ?_, hWs _ _, ?_, ?_⟩
  · rw [addAll_eq]
    simp only [HittableList.hit, HittableList.loop, HittableList.step, List.map_cons, List.map_nil, hb, hbt, hl4, if_true, w1, hWt, hl14]
    rfl
  · rw [addAll_eq]
    simp only [HittableList.hit, HittableList.loop, HittableList.step, List.map_cons, List.map_nil, w2, if_true, hWt, hl1, hmiss,
      Bool.false_eq_true, if_false]
    rfl
  · exact (hWk _).trans (hcurv.trans (by norm_num))
  · rw [hWk]
    rfl

/-- With the epsilon of `double`. -/
example (rec : HitRecord (Fl exact64)) (p n : Vec (Fl exact64) 3) : ∃ x y : HitRecord (Fl exact64),
    (addAll [((Sphere.ofReal ![5, 0, 0] 1).toHittable, "ball"), (Rect.yz (Rect.ofReal (-1) 1 (-1) 1 1), "wall")]).hit
      ⟨cv 0, cv ![1, 0, 0]⟩ (1000 * eps) inf rec (HitRecord.default p n true) = (some (some "wall"), x) ∧
    (addAll [(Rect.yz (Rect.ofReal (-1) 1 (-1) 1 1), "wall"), ((Sphere.ofReal ![5, 0, 0] 1).toHittable, "ball")]).hit
      ⟨cv 0, cv ![1, 0, 0]⟩ (1000 * eps) inf rec (HitRecord.default p n true) = (some (some "wall"), y) ∧
    x.gaussianCurvature = fin 1 ∧ y.gaussianCurvature = Fl.nan := by
  obtain ⟨x, y, h1, h2, -, h3, h4⟩ := C129_curvature_false (F := exact64) (by simp [exact64]; norm_num) "ball" "wall" rec p n true
  exact ⟨x, y, h1, h2, h3, h4⟩

end DRT
