import Verif.Model.Threads
import Verif.Props.Programs

/-! # C131: threads that share generators without a lock -/

namespace DRT
open Scalar Render

variable {α β : Type}

/-! ## Computations -/

namespace Comp

/-- Whatever numbers are drawn, the computation does not get stuck, and its result has the property `P`. -/
def All (P : α → Prop) : Comp α → Prop
  | done a => P a
  | stuck => False
  | tired => True
  | draw _ next => ∀ x, (next x).All P

theorem All.bind {P : α → Prop} {Q : β → Prop} {c : Comp α} {f : α → Comp β} (h : c.All P) (hf : ∀ a, P a → (f a).All Q) : (c.bind f).All Q := by
  induction c with
  | done a => exact hf a h
  | stuck => exact h
  | tired => trivial
  | draw k next ih => exact fun x => ih x (h x)

theorem All.mono {P Q : α → Prop} {c : Comp α} (h : c.All P) (hf : ∀ a, P a → Q a) : c.All Q := by
  induction c with
  | done a => exact hf a h
  | stuck => exact h
  | tired => trivial
  | draw k next ih => exact fun x => ih x (h x)

theorem alone_bind (c : Comp α) (f : α → Comp β) {G : Type} (draw : G → BitVec 32 × G) (m : Memory G) :
    (c.bind f).alone draw m = (c.alone draw m).bind fun x => (f x.1).alone draw x.2 := by
  induction c generalizing m with
  | done a => rfl
  | stuck => rfl
  | tired => rfl
  | draw k next ih => exact ih _ _

end Comp

/-! ## Schedules -/

namespace Machine

variable {G ι : Type} [DecidableEq ι] {draw : G → BitVec 32 × G}

/-- What a thread has yet to do, once a pending store is done. -/
def rest : Thread G α → Comp α
  | .running c => c
  | .storing _ _ c => c

theorem step_all {P : ι → α → Prop} {m : Machine G ι α} (h : ∀ i, (rest (m.threads i)).All (P i)) (j i : ι) : (rest ((m.step draw j).threads i)).All (P i) := by
  unfold step
  split
  · rename_i k next hj
    rcases eq_or_ne i j with rfl | hne
    · have := h i
      rw [hj] at this
      simp only [Function.update_self]
      exact this _
    · simp only [Function.update_of_ne hne]
      exact h i
  · exact h i
  · rename_i k g c hj
    rcases eq_or_ne i j with rfl | hne
    · have := h i
      rw [hj] at this
      simp only [Function.update_self]
      exact this
    · simp only [Function.update_of_ne hne]
      exact h i

theorem exec_all {P : ι → α → Prop} {m : Machine G ι α} (h : ∀ i, (rest (m.threads i)).All (P i)) (schedule : List ι) (i : ι) :
    (rest ((m.exec draw schedule).threads i)).All (P i) := by
  induction schedule generalizing m with
  | nil => exact h i
  | cons j js ih => exact ih (step_all h j)

/-- The generator that thread state `t` is about to store as number `k`, if any. -/
def pending (t : Thread G α) (k : Option ℕ) (g : G) : Prop := ∃ c, t = .storing k g c

end Machine

/-- C131: in whatever way the threads are interleaved, a generator holds at every moment one of the states that it would run through if it were used by one thread
alone, and not one further on than the number of draws begun can explain: each draw is two steps. The same is true of the values about to be stored. -/
theorem C131_stream {G ι : Type} [DecidableEq ι] (draw : G → BitVec 32 × G) (m : Machine G ι α) (h : ∀ i, ∃ c, m.threads i = .running c) (schedule : List ι) :
    (∀ k, ∃ n, 2 * n ≤ schedule.length ∧ (m.exec draw schedule).memory k = (fun g => (draw g).2)^[n] (m.memory k)) ∧
    ∀ i k g, Machine.pending ((m.exec draw schedule).threads i) k g → ∃ n, 2 * n + 1 ≤ schedule.length ∧ g = (fun g => (draw g).2)^[n + 1] (m.memory k) := by
  induction schedule using List.reverseRecOn with
  | nil =>
    refine ⟨fun k => ⟨0, le_rfl, rfl⟩, ?_⟩
    rintro i k g ⟨c, hc⟩
    obtain ⟨c', hc'⟩ := h i
    change m.threads i = _ at hc
    rw [hc'] at hc
    cases hc
  | append_singleton js j ih =>
    obtain ⟨ih1, ih2⟩ := ih
    have he : m.exec draw (js ++ [j]) = (m.exec draw js).step draw j := by simp [Machine.exec]
    rw [he, List.length_append, List.length_singleton]
    generalize m.exec draw js = m' at *
    unfold Machine.step
    split
    · rename_i k' next hj
      refine ⟨fun k => ?_, ?_⟩
      · obtain ⟨n, h1, h2⟩ := ih1 k
        exact ⟨n, by omega, h2⟩
      · rintro i k g ⟨c, hc⟩
        rcases eq_or_ne i j with rfl | hne
        · simp only [Function.update_self, Thread.storing.injEq] at hc
          obtain ⟨rfl, rfl, -⟩ := hc
          obtain ⟨n, h1, h2⟩ := ih1 k'
          refine ⟨n, by omega, ?_⟩
          rw [Function.iterate_succ_apply', ← h2]
        · simp only [Function.update_of_ne hne] at hc
          obtain ⟨n, h1, h2⟩ := ih2 i k g ⟨c, hc⟩
          exact ⟨n, by omega, h2⟩
    · refine ⟨fun k => ?_, fun i k g hp => ?_⟩
      · obtain ⟨n, h1, h2⟩ := ih1 k
        exact ⟨n, by omega, h2⟩
      · obtain ⟨n, h1, h2⟩ := ih2 i k g hp
        exact ⟨n, by omega, h2⟩
    · rename_i k' g' c' hj
      refine ⟨fun k => ?_, ?_⟩
      · rcases eq_or_ne k k' with rfl | hne
        · obtain ⟨n, h1, h2⟩ := ih2 j k g' ⟨c', hj⟩
          exact ⟨n + 1, by omega, by simpa using h2⟩
        · obtain ⟨n, h1, h2⟩ := ih1 k
          exact ⟨n, by omega, by simpa [Function.update_of_ne hne] using h2⟩
      · rintro i k g ⟨c, hc⟩
        rcases eq_or_ne i j with rfl | hne
        · simp at hc
        · simp only [Function.update_of_ne hne] at hc
          obtain ⟨n, h1, h2⟩ := ih2 i k g ⟨c, hc⟩
          exact ⟨n, by omega, h2⟩

/-- C131: updates get lost. If two threads are about to draw from the same generator and both load it before either stores it, they get the same number, and
the generator has advanced by one step instead of two. -/
theorem C131_lost {G ι : Type} [DecidableEq ι] (draw : G → BitVec 32 × G) (m : Machine G ι α) (i j : ι) (hij : i ≠ j) (k : Option ℕ) (f g : BitVec 32 → Comp α)
    (hi : m.threads i = .running (.draw k f)) (hj : m.threads j = .running (.draw k g)) :
    ∃ x, (m.exec draw [i, j, i, j]).threads i = .running (f x) ∧ (m.exec draw [i, j, i, j]).threads j = .running (g x) ∧
      (m.exec draw [i, j, i, j]).memory k = (draw (m.memory k)).2 := by
  refine ⟨(draw (m.memory k)).1, ?_⟩
  simp [Machine.exec, Machine.step, hi, hj, Function.update_of_ne hij, Function.update_of_ne hij.symm]

/-- A case: two threads that make two draws each, in turn. The generator, here a counter, is at 2 after eight steps, and each number has been drawn twice. -/
example : let m : Machine ℕ (Fin 2) (BitVec 32 × BitVec 32) := ⟨fun _ => 0, fun _ => .running (.draw none fun x => .draw none fun y => .done (x, y))⟩
    ∃ m', m.exec (fun g => (BitVec.ofNat 32 g, g + 1)) [0, 1, 0, 1, 0, 1, 0, 1] = m' ∧ m'.memory none = 2 ∧
      m'.threads 0 = .running (.done (0#32, 1#32)) ∧ m'.threads 1 = .running (.done (0#32, 1#32)) := ⟨_, rfl, by decide, rfl, rfl⟩

/-! ## One thread alone -/

namespace Machine

variable {G ι : Type} [DecidableEq ι] {draw : G → BitVec 32 × G}

theorem exec_append (m : Machine G ι α) (a b : List ι) : m.exec draw (a ++ b) = (m.exec draw a).exec draw b := List.foldl_append ..

/-- A thread that is given all steps does what it does alone. -/
theorem exec_alone (i : ι) (c : Comp α) (m : Machine G ι α) (hi : m.threads i = .running c) {a : α} {mem : Comp.Memory G}
    (h : c.alone draw m.memory = some (a, mem)) :
    ∃ n, m.exec draw (List.replicate n i) = ⟨mem, Function.update m.threads i (.running (.done a))⟩ := by
  induction c generalizing m with
  | done b =>
    obtain ⟨rfl, rfl⟩ : b = a ∧ m.memory = mem := by simpa [Comp.alone] using h
    exact ⟨0, by rw [← hi, Function.update_eq_self]; rfl⟩
  | stuck => cases h
  | tired => cases h
  | draw k next ih =>
    let m' : Machine G ι α := ⟨Function.update m.memory k (draw (m.memory k)).2, Function.update m.threads i (.running (next (draw (m.memory k)).1))⟩
    obtain ⟨n, hn⟩ := ih (draw (m.memory k)).1 m' (by simp [m']) h
    refine ⟨n + 2, ?_⟩
    have : m.exec draw (List.replicate (n + 2) i) = m'.exec draw (List.replicate n i) := by
      rw [show n + 2 = 2 + n by omega, List.replicate_add, exec_append]
      congr 1
      simp [exec, step, hi, m', List.replicate]
    rw [this, hn]
    simp [m']

end Machine

/-- The memory of the threads holds the generator `g` of `render_scene` and represents the random state `s` of the sequential model. -/
def Shows {S : Type} (Rep : S → (ℕ → Pcg) → Prop) (m : Comp.Memory Pcg) (g : Pcg) (s : S) : Prop := m none = g ∧ Rep s fun k => m (some k)

/-- The same outcome: both fail, or both end with the same result and with the same generators. -/
def Same {S : Type} (Rep : S → (ℕ → Pcg) → Prop) (a : Option (α × Comp.Memory Pcg)) (b : Option (α × Pcg × S)) : Prop :=
  (a = none ∧ b = none) ∨ ∃ x m g s, a = some (x, m) ∧ b = some (x, g, s) ∧ Shows Rep m g s

theorem Same.bind {S : Type} {Rep : S → (ℕ → Pcg) → Prop} {a : Option (α × Comp.Memory Pcg)} {b : Option (α × Pcg × S)} (h : Same Rep a b)
    {f : α × Comp.Memory Pcg → Option (β × Comp.Memory Pcg)} {f' : α × Pcg × S → Option (β × Pcg × S)}
    (hf : ∀ x m g s, Shows Rep m g s → Same Rep (f (x, m)) (f' (x, g, s))) : Same Rep (a.bind f) (b.bind f') := by
  rcases h with ⟨rfl, rfl⟩ | ⟨x, m, g, s, rfl, rfl, h⟩
  · exact .inl ⟨rfl, rfl⟩
  · exact hf x m g s h

/-- The two models of a material agree when the thread runs alone. -/
structure Refines {R S : Type} [Scalar R] (Rep : S → (ℕ → Pcg) → Prop) (a : SharedMaterial R) (b : Material R S) : Prop where
  emitted : a.emitted = b.emitted
  scatter : ∀ m g s r rec, Shows Rep m g s → Same Rep ((a.scatter r rec).alone Pcg.next m) ((b.scatter s r rec).map fun x => (x.1, g, x.2))

theorem lambertian_draw {R : Type} [Scalar R] (g : Pcg) : (Lambertian.draw g : Vec R 3 × Pcg) =
    (![2 * ldexp32 g.next.1.toNat - 1, 2 * ldexp32 g.next.2.next.1.toNat - 1, 2 * ldexp32 g.next.2.next.2.next.1.toNat - 1],
      g.next.2.next.2.next.2) := by
  unfold Lambertian.draw Pcg.real01
  rfl

/-- The loop of the sequential model, for any generator. -/
theorem unitVector_loop {R G : Type} [Scalar R] (draw : G → BitVec 32 × G) (U : ℕ → G → Option (Vec R 3 × G)) (h0 : ∀ g, U 0 g = none)
    (h1 : ∀ n g, U (n + 1) g =
      let v : Vec R 3 := ![2 * ldexp32 (draw g).1.toNat - 1, 2 * ldexp32 (draw (draw g).2).1.toNat - 1,
        2 * ldexp32 (draw (draw (draw g).2).2).1.toNat - 1]
      if gt (Vec.squaredNorm v) 1 then U n (draw (draw (draw g).2).2).2 else some (v, (draw (draw (draw g).2).2).2))
    (k fuel : ℕ) (m : Comp.Memory G) : (Comp.unitVector (R := R) k fuel).alone draw m =
      (U fuel (m (some k))).map fun x => (x.1, Function.update m (some k) x.2) := by
  induction fuel generalizing m with
  | zero => rw [h0]; rfl
  | succ n ih =>
    simp only [Comp.unitVector, Comp.alone, h1, Function.update_self, Function.update_idem]
    split_ifs
    · rw [ih, Function.update_self]
      simp only [Function.update_idem]
    · rfl

theorem unitVector_alone {R : Type} [Scalar R] (k fuel : ℕ) (m : Comp.Memory Pcg) : (Comp.unitVector (R := R) k fuel).alone Pcg.next m =
    (Lambertian.randomUnitVector fuel (m (some k))).map fun x => (x.1, Function.update m (some k) x.2) := by
  refine unitVector_loop Pcg.next (fun n g => Lambertian.randomUnitVector n g) (fun g => rfl) (fun n g => ?_) k fuel m
  simp only [Lambertian.randomUnitVector, lambertian_draw]

theorem refines_lambertian {R S : Type} [Scalar R] {Rep : S → (ℕ → Pcg) → Prop} (albedo : Texture R) (k : ℕ) (get : S → Pcg) (set : Pcg → S → S)
    (h1 : ∀ s m, Rep s m → get s = m k) (h2 : ∀ s m g, Rep s m → Rep (set g s) (Function.update m k g)) :
    Refines Rep (.lambertian albedo k) (Material.lambertian albedo get set) := by
  refine ⟨rfl, fun m g s r rec hs => ?_⟩
  have hg : get s = m (some k) := h1 s _ hs.2
  simp only [SharedMaterial.lambertian, Material.lambertian, Comp.alone_bind, unitVector_alone, Lambertian.scatter, Lambertian.randomInHemisphere, hg]
  generalize 2 ^ 64 = fuel
  cases hv : Lambertian.randomUnitVector (R := R) fuel (m (some k)) with
  | none => exact .inl ⟨rfl, rfl⟩
  | some x =>
    refine .inr ⟨_, _, g, set x.2 s, rfl, rfl, ?_, ?_⟩
    · simp [hs.1]
    · have := h2 s _ x.2 hs.2
      convert this using 1
      funext n
      simp [Function.update_apply]

theorem refines_metal {R S : Type} [Scalar R] {Rep : S → (ℕ → Pcg) → Prop} (albedo : Texture R) : Refines Rep (.metal albedo) (Material.metal albedo) :=
  ⟨rfl, fun m g s _ _ hs => .inr ⟨_, m, g, s, rfl, rfl, hs⟩⟩

theorem refines_light {R S : Type} [Scalar R] {Rep : S → (ℕ → Pcg) → Prop} (emit : Texture R) :
    Refines Rep (.diffuseLight emit) (Material.diffuseLight emit) := ⟨rfl, fun m g s _ _ hs => .inr ⟨_, m, g, s, rfl, rfl, hs⟩⟩

/-- The two models of a scene agree in all but the materials, and the materials agree when a thread runs alone. -/
structure SameScene {R S : Type} [Scalar R] (Rep : S → (ℕ → Pcg) → Prop) (a : Threads.Scene R) (b : Render.Scene R S) : Prop where
  width : a.width = b.width
  height : a.height = b.height
  background : a.background = b.background
  camera : a.camera = b.camera
  samples : a.samples = b.samples
  rec0 : a.rec0 = b.rec0
  world : ∃ l : HittableList R (Material R S), b.world = l.world a.temp0 ∧ a.world.objects = l.objects ∧ List.Forall₂ (Refines Rep) a.world.materials l.materials

/-- A query finds the same object in both models. -/
theorem SameScene.hit {R S : Type} [Scalar R] {Rep : S → (ℕ → Pcg) → Prop} {l : HittableList R (SharedMaterial R)} {l' : HittableList R (Material R S)}
    (h1 : l.objects = l'.objects) (h2 : List.Forall₂ (Refines Rep) l.materials l'.materials) (r : Ray R) (tmin tmax : R) (rec temp0 : HitRecord R) :
    (l.hit r tmin tmax rec temp0).2 = (l'.hit r tmin tmax rec temp0).2 ∧
    (((l.hit r tmin tmax rec temp0).1 = none ∧ (l'.hit r tmin tmax rec temp0).1 = none) ∨
      ((l.hit r tmin tmax rec temp0).1 = some none ∧ (l'.hit r tmin tmax rec temp0).1 = some none) ∨
      ∃ a b, (l.hit r tmin tmax rec temp0).1 = some (some a) ∧ (l'.hit r tmin tmax rec temp0).1 = some (some b) ∧ Refines Rep a b) := by
  unfold HittableList.hit
  rw [h1]
  dsimp only
  generalize HittableList.loop r tmin l'.objects 0 ⟨temp0, tmax, rec, none⟩ = st
  cases st.idx with
  | none => exact ⟨rfl, .inr (.inl ⟨rfl, rfl⟩)⟩
  | some i =>
    refine ⟨rfl, ?_⟩
    dsimp only
    have hlen := h2.length_eq
    rcases lt_or_ge i l.materials.length with h | h
    · rw [List.getElem?_eq_getElem h, List.getElem?_eq_getElem (hlen ▸ h)]
      exact .inr (.inr ⟨_, _, rfl, rfl, (List.forall₂_iff_get.1 h2).2 i h (hlen ▸ h)⟩)
    · rw [List.getElem?_eq_none h, List.getElem?_eq_none (hlen ▸ h)]
      exact .inl ⟨rfl, rfl⟩

section alone

variable {R S : Type} [Scalar R] {Rep : S → (ℕ → Pcg) → Prop} {a : Threads.Scene R} {b : Render.Scene R S}

theorem rayColor_alone (h : SameScene Rep a b) (depth : ℕ) (r : Ray R) (m : Comp.Memory Pcg) (g : Pcg) (s : S) (hs : Shows Rep m g s) :
    Same Rep ((Threads.rayColor a depth r).alone Pcg.next m) ((DRT.rayColor b.world b.background b.rec0 depth s r).map fun c => (c.color, g, c.state)) := by
  obtain ⟨l, hw, ho, hm⟩ := h.world
  induction depth generalizing r m s with
  | zero => exact .inr ⟨_, m, g, s, rfl, rfl, hs⟩
  | succ d ih =>
    obtain ⟨e1, e2⟩ := SameScene.hit ho hm r (1000 * eps) inf a.rec0 a.temp0
    rw [Threads.rayColor, DRT.rayColor, hw, ← h.rec0, HittableList.world]
    rcases e2 with ⟨e2, e3⟩ | ⟨e2, e3⟩ | ⟨x, y, e2, e3, hxy⟩
    · rw [e2, e3]; exact .inl ⟨rfl, rfl⟩
    · rw [e2, e3, h.background]
      exact .inr ⟨_, m, g, s, rfl, rfl, hs⟩
    · rw [e2, e3, Comp.alone_bind, ← e1]
      generalize (a.world.hit r (1000 * eps) inf a.rec0 a.temp0).2 = rec
      have hsc := hxy.scatter m g s r rec hs
      simp only [Option.map_some]
      rcases hsc with ⟨h1, h2⟩ | ⟨sc, m', g', s', h1, h2, h3⟩
      · rw [Option.map_eq_none_iff] at h2
        rw [h1, h2]
        exact .inl ⟨rfl, rfl⟩
      · obtain ⟨⟨sc', s''⟩, h4, h5⟩ := Option.map_eq_some_iff.1 h2
        obtain ⟨rfl, rfl, rfl⟩ : sc' = sc ∧ g = g' ∧ s'' = s' := by simpa using h5
        rw [h1, h4]
        dsimp only [Option.bind_some]
        cases sc'.ok with
        | false => simp only [Bool.false_eq_true, if_false]; rw [hxy.emitted]; exact .inr ⟨_, m', g, s'', rfl, rfl, h3⟩
        | true =>
          simp only [if_true]
          rcases sc'.attenuation with _ | t
          · exact .inl ⟨rfl, rfl⟩
          rcases sc'.ray with _ | q
          · exact .inl ⟨rfl, rfl⟩
          dsimp only
          rw [Comp.alone_bind]
          have := ih q m' s'' h3
          rw [hw, ← h.rec0] at this
          rcases this with ⟨h6, h7⟩ | ⟨c, m₁, g₁, s₁, h6, h7, h8⟩
          · rw [Option.map_eq_none_iff] at h7
            rw [h6, h7]
            exact .inl ⟨rfl, rfl⟩
          · obtain ⟨c', h9, h10⟩ := Option.map_eq_some_iff.1 h7
            rw [h6, h9]
            obtain ⟨rfl, rfl, rfl⟩ : c'.color = c ∧ g = g₁ ∧ c'.state = s₁ := by simpa using h10
            rw [hxy.emitted]
            exact .inr ⟨_, m₁, g, c'.state, rfl, rfl, h8⟩

theorem samples_alone (h : SameScene Rep a b) (i j n : ℕ) (c : Vec R 3) (m : Comp.Memory Pcg) (g : Pcg) (s : S) (hs : Shows Rep m g s) :
    Same Rep ((Threads.samples a i j n c).alone Pcg.next m) (sampleLoop b i j n (c, g, s)) := by
  induction n generalizing c m g s with
  | zero => exact .inr ⟨_, m, g, s, rfl, rfl, hs⟩
  | succ n ih =>
    obtain ⟨hg, hr⟩ := hs
    subst hg
    have hx : ∀ g : Pcg, (Pcg.real01 g : R × Pcg) = (ldexp32 g.next.1.toNat, g.next.2) := fun g => rfl
    rw [Threads.samples, sampleLoop, sample]
    simp only [Comp.alone, Function.update_self, Function.update_idem, Comp.alone_bind, hx, h.camera, h.width, h.height]
    generalize (m none).next.1 = x, (m none).next.2 = g'
    generalize hg₂ : g'.next.2 = g₂
    have h3 : Shows Rep (Function.update m none g₂) g₂ s := ⟨by simp, by simpa using hr⟩
    rcases rayColor_alone h 8 (b.camera.getRay (coordinate i b.width (ldexp32 x.toNat)) (coordinate j b.height (ldexp32 g'.next.1.toNat))) _ g₂ s h3
      with ⟨h1, h2⟩ | ⟨c', m', g₃, s', h1, h2, h4⟩
    · rw [Option.map_eq_none_iff] at h2
      rw [h1, h2]
      exact .inl ⟨rfl, rfl⟩
    · obtain ⟨d, h5, h6⟩ := Option.map_eq_some_iff.1 h2
      obtain ⟨rfl, rfl, rfl⟩ : d.color = c' ∧ g₂ = g₃ ∧ d.state = s' := by simpa using h6
      rw [h1, h5]
      exact ih _ _ _ _ h4

theorem pixel_alone (h : SameScene Rep a b) (i j : ℕ) (m : Comp.Memory Pcg) (g : Pcg) (s : S) (hs : Shows Rep m g s) :
    Same Rep ((Threads.pixel a i j).alone Pcg.next m) (task b i j (g, s)) := by
  rw [Threads.pixel, task, Comp.alone_bind, h.samples]
  rcases samples_alone h i j b.samples ![0, 0, 0] m g s hs with ⟨h1, h2⟩ | ⟨c, m', g', s', h1, h2, h3⟩
  · rw [h1, h2]; exact .inl ⟨rfl, rfl⟩
  · rw [h1, h2]
    dsimp only [Option.bind_some]
    cases to8bit (c /. lit (b.samples : ℚ)) with
    | none => exact .inl ⟨rfl, rfl⟩
    | some p => exact .inr ⟨p, m', g', s', rfl, rfl, h3⟩

/-- C131: a thread that runs alone computes what the sequential model computes. -/
theorem C131_alone (h : SameScene Rep a b) (ts : List (ℕ × ℕ)) (m : Comp.Memory Pcg) (g : Pcg) (s : S) (hs : Shows Rep m g s) :
    ((Threads.work a ts).alone Pcg.next m).map Prod.fst = run b ts (g, s) := by
  induction ts generalizing m g s with
  | nil => rfl
  | cons t ts ih =>
    obtain ⟨i, j⟩ := t
    rw [Threads.work, run, Comp.alone_bind]
    rcases pixel_alone h i j m g s hs with ⟨h1, h2⟩ | ⟨p, m', g', s', h1, h2, h3⟩
    · rw [h1, h2]; rfl
    · rw [h1, h2]
      dsimp only [Option.bind_some]
      rw [Comp.alone_bind, ← ih m' g' s' h3]
      cases (Threads.work a ts).alone Pcg.next m' <;> rfl

end alone

/-! ## All interleavings -/

/-- The pixels that a thread has computed when it is at its end. -/
theorem work_all {R : Type} [Scalar R] {sc : Threads.Scene R} {P : ℕ → ℕ → (Fin 4 → UInt8) → Prop} (ts : List (ℕ × ℕ))
    (h : ∀ t ∈ ts, (Threads.pixel sc t.1 t.2).All (P t.1 t.2)) :
    (Threads.work sc ts).All fun l => l.map Prod.fst = ts ∧ ∀ x ∈ l, P x.1.1 x.1.2 x.2 := by
  induction ts with
  | nil => exact ⟨rfl, by simp⟩
  | cons t ts ih =>
    obtain ⟨i, j⟩ := t
    refine (h _ List.mem_cons_self).bind fun p hp => (ih fun t ht => h t (List.mem_cons_of_mem _ ht)).bind fun l hl => ?_
    refine ⟨by simp [hl.1], ?_⟩
    rintro x hx
    rcases List.mem_cons.1 hx with rfl | hx
    · exact hp
    · exact hl.2 x hx

/-- C131: suppose that each pixel, whatever numbers are drawn for it, comes out with a property `P`. Then in whatever way the rows are given to threads, whatever
the generators of the materials hold, and in whatever way the threads are interleaved and lose updates, no thread ever runs into undefined behaviour; and if all
threads come to their ends, then the stores to the image, in whatever order they are made, give an image of four bytes per pixel, each of whose pixels has the property. -/
theorem C131_image {R : Type} [Scalar R] (sc : Threads.Scene R) (P : ℕ → ℕ → (Fin 4 → UInt8) → Prop)
    (hP : ∀ i j, i < sc.width → j < sc.height → (Threads.pixel sc i j).All (P i j)) (n : ℕ) (rows : Fin n → List ℕ)
    (hrows : ((List.finRange n).flatMap rows).Perm (List.range sc.height)) (memory : ℕ → Pcg) (schedule : List (Fin n)) :
    (∀ i, Machine.rest (((Threads.start sc rows memory).exec Pcg.next schedule).threads i) ≠ .stuck) ∧
    ∀ l : Fin n → List ((ℕ × ℕ) × (Fin 4 → UInt8)),
      (∀ i, ((Threads.start sc rows memory).exec Pcg.next schedule).threads i = .running (.done (l i))) →
      ∀ ws : List (ℤ × UInt8), ws.Perm (stores sc.width sc.height ((List.finRange n).flatMap l)) →
      ∃ img, ws.foldl store (some (blank sc.width sc.height)) = some img ∧ img.length = 4 * sc.width * sc.height ∧
        ∀ i j, i < sc.width → j < sc.height → ∃ p, P i j p ∧ ∀ k : Fin 4, img[4 * (sc.width * (sc.height - 1 - j) + i) + k]? = some (p k) := by
  have hmem : ∀ i, ∀ t ∈ tasks sc.width (rows i), t.1 < sc.width ∧ t.2 < sc.height := by
    rintro i ⟨x, y⟩ ht
    rw [mem_tasks] at ht
    exact ⟨ht.1, List.mem_range.1 (hrows.mem_iff.1 (List.mem_flatMap.2 ⟨i, List.mem_finRange i, ht.2⟩))⟩
  have hall := Machine.exec_all (draw := Pcg.next) (m := Threads.start sc rows memory)
    (P := fun i l => l.map Prod.fst = tasks sc.width (rows i) ∧ ∀ x ∈ l, P x.1.1 x.1.2 x.2)
    (fun i => work_all _ fun t ht => hP _ _ (hmem i t ht).1 (hmem i t ht).2) schedule
  refine ⟨fun i h => ?_, fun l hl ws hws => ?_⟩
  · have := hall i
    rw [h] at this
    exact this
  · have hl' : ∀ i, (l i).map Prod.fst = tasks sc.width (rows i) ∧ ∀ x ∈ l i, P x.1.1 x.1.2 x.2 := by
      intro i
      have := hall i
      rw [hl i] at this
      exact this
    have hfst : ((List.finRange n).flatMap l).map Prod.fst = tasks sc.width ((List.finRange n).flatMap rows) := by
      rw [List.map_flatMap, tasks, List.flatMap_assoc]
      exact List.flatMap_congr fun i _ => (hl' i).1
    have hperm : (((List.finRange n).flatMap l).map Prod.fst).Perm (tasks sc.width (List.range sc.height)) := by
      rw [hfst]; exact tasks_perm hrows
    obtain ⟨img, h1, h2, h3⟩ := C83_schedule _ _ _ hperm ws hws
    refine ⟨img, h1, h2, fun i j hi hj => ?_⟩
    have hm : (i, j) ∈ ((List.finRange n).flatMap l).map Prod.fst := hperm.mem_iff.2 (mem_tasks.2 ⟨hi, List.mem_range.2 hj⟩)
    obtain ⟨⟨⟨i', j'⟩, p⟩, hp, he⟩ := List.mem_map.1 hm
    obtain ⟨rfl, rfl⟩ : i' = i ∧ j' = j := by simpa using he
    obtain ⟨k, -, hk⟩ := List.mem_flatMap.1 hp
    exact ⟨p, (hl' k).2 _ hk, (h3 _ _ _ hp).2.2⟩

/-! ## One thread after the other -/

theorem work_append {R : Type} [Scalar R] (sc : Threads.Scene R) (a b : List (ℕ × ℕ)) {G : Type} (draw : G → BitVec 32 × G) (m : Comp.Memory G) :
    (Threads.work sc (a ++ b)).alone draw m =
      ((Threads.work sc a).alone draw m).bind fun x => ((Threads.work sc b).alone draw x.2).map fun y => (x.1 ++ y.1, y.2) := by
  induction a generalizing m with
  | nil => simp [Threads.work, Comp.alone]
  | cons t a ih =>
    simp only [List.cons_append, Threads.work, Comp.alone_bind]
    cases (Threads.pixel sc t.1 t.2).alone draw m with
    | none => rfl
    | some x =>
      simp only [Option.bind_some, ih]
      cases (Threads.work sc a).alone draw x.2 with
      | none => rfl
      | some y =>
        simp only [Option.bind_some, Comp.alone]
        cases (Threads.work sc b).alone draw y.2 <;> rfl

theorem exec_one_by_one {R G ι : Type} [Scalar R] [DecidableEq ι] (draw : G → BitVec 32 × G) (sc : Threads.Scene R) (ts : ι → List (ℕ × ℕ)) (is : List ι)
    (hn : is.Nodup) (m : Machine G ι (List ((ℕ × ℕ) × (Fin 4 → UInt8)))) (hm : ∀ i ∈ is, m.threads i = .running (Threads.work sc (ts i)))
    (L : List ((ℕ × ℕ) × (Fin 4 → UInt8))) (mem : Comp.Memory G) (h : (Threads.work sc (is.flatMap ts)).alone draw m.memory = some (L, mem)) :
    ∃ (schedule : List ι) (l : ι → List ((ℕ × ℕ) × (Fin 4 → UInt8))), (∀ i ∈ is, (m.exec draw schedule).threads i = .running (.done (l i))) ∧
      (∀ i ∉ is, (m.exec draw schedule).threads i = m.threads i) ∧ is.flatMap l = L := by
  induction is generalizing m L with
  | nil =>
    obtain ⟨rfl, -⟩ : [] = L ∧ m.memory = mem := by simpa [Threads.work, Comp.alone] using h
    exact ⟨[], fun _ => [], by simp, fun _ _ => rfl, rfl⟩
  | cons i is ih =>
    rw [List.flatMap_cons, work_append] at h
    obtain ⟨x, hx, h⟩ := Option.bind_eq_some_iff.1 h
    obtain ⟨y, hy, h⟩ := Option.map_eq_some_iff.1 h
    obtain ⟨rfl, rfl⟩ := Prod.mk.inj h
    obtain ⟨k, hk⟩ := Machine.exec_alone i _ m (hm i List.mem_cons_self) (a := x.1) (mem := x.2) hx
    have hi : i ∉ is := (List.nodup_cons.1 hn).1
    obtain ⟨sch, l, h1, h2, h3⟩ := ih (List.nodup_cons.1 hn).2 ⟨x.2, Function.update m.threads i (.running (.done x.1))⟩
      (fun j hj => by
        dsimp only
        rw [Function.update_of_ne (by rintro rfl; exact hi hj)]
        exact hm j (List.mem_cons_of_mem _ hj)) y.1 hy
    refine ⟨List.replicate k i ++ sch, Function.update l i x.1, ?_, ?_, ?_⟩
    · intro j hj
      rw [Machine.exec_append, hk]
      rcases List.mem_cons.1 hj with rfl | hj'
      · rw [h2 _ hi]; simp
      · rw [h1 j hj', Function.update_of_ne (by rintro rfl; exact hi hj')]
    · intro j hj
      rw [List.mem_cons, not_or] at hj
      rw [Machine.exec_append, hk, h2 j hj.2]
      simp [Function.update_of_ne hj.1]
    · rw [List.flatMap_cons, Function.update_self, ← h3]
      congr 1
      exact List.flatMap_congr fun j hj => by rw [Function.update_of_ne (by rintro rfl; exact hi hj)]

/-- C131: what the sequential model computes is one of the outcomes: if it computes all pixels, then some interleaving of the threads brings all of them to their
ends with these pixels. -/
theorem C131_sequential {R S : Type} [Scalar R] {Rep : S → (ℕ → Pcg) → Prop} {a : Threads.Scene R} {b : Render.Scene R S} (h : SameScene Rep a b) (n : ℕ)
    (rows : Fin n → List ℕ) (memory : ℕ → Pcg) (s : S) (hs : Rep s memory) (L : List ((ℕ × ℕ) × (Fin 4 → UInt8)))
    (hL : run b (tasks b.width ((List.finRange n).flatMap rows)) (seed, s) = some L) :
    ∃ (schedule : List (Fin n)) (l : Fin n → List ((ℕ × ℕ) × (Fin 4 → UInt8))),
      (∀ i, ((Threads.start a rows memory).exec Pcg.next schedule).threads i = .running (.done (l i))) ∧ (List.finRange n).flatMap l = L := by
  have h1 := C131_alone h (tasks b.width ((List.finRange n).flatMap rows)) (Threads.start a rows memory).memory seed s ⟨rfl, hs⟩
  rw [hL] at h1
  obtain ⟨⟨L', mem⟩, h2, h3⟩ := Option.map_eq_some_iff.1 h1
  have h3 : L' = L := h3
  subst h3
  have h4 : tasks b.width ((List.finRange n).flatMap rows) = (List.finRange n).flatMap fun i => tasks a.width (rows i) := by
    rw [tasks, List.flatMap_assoc, h.width]
    rfl
  rw [h4] at h2
  obtain ⟨sch, l, h5, -, h6⟩ := exec_one_by_one Pcg.next a (fun i => tasks a.width (rows i)) (List.finRange n) (List.nodup_finRange n)
    (Threads.start a rows memory) (fun _ _ => rfl) L' mem h2
  exact ⟨sch, l, fun i => h5 i (List.mem_finRange i), h6⟩

/-! ## Sound scenes -/

section sound

open Fl

variable {F : Fmt}

/-- As `Fine`: whatever is drawn, the material comes back; if it scatters, it emits nothing and attenuates by factors in `[0,1]`; if not, it emits at most `L`. -/
def FineShared (L : ℝ) (m : SharedMaterial (Fl F)) : Prop :=
  ∀ r rec, (m.scatter r rec).All fun sc =>
    (sc.ok = true → ∃ a q, sc.attenuation = some a ∧ sc.ray = some q ∧ ColorIn 1 a ∧ m.emitted rec = cv 0) ∧
    (sc.ok = false → ColorIn L (m.emitted rec))

theorem unitVector_all {R : Type} [Scalar R] (k fuel : ℕ) : (Comp.unitVector (R := R) k fuel).All fun _ => True := by
  induction fuel with
  | zero => trivial
  | succ n ih =>
    intro a b c
    simp only
    split_ifs
    · exact ih
    · trivial

theorem fineShared_lambertian [F.Rounding] {L : ℝ} {albedo : Texture (Fl F)} (ha : ∀ rec, ColorIn 1 (albedo rec)) (k : ℕ) :
    FineShared L (.lambertian albedo k) := fun _ rec =>
  (unitVector_all k (2 ^ 64)).bind fun _ _ => ⟨fun _ => ⟨_, _, rfl, rfl, ha rec, cv_zero_vec⟩, fun h => by cases h⟩

theorem fineShared_metal [F.Rounding] {L : ℝ} (hL : 0 ≤ L) {albedo : Texture (Fl F)} (ha : ∀ rec, ColorIn 1 (albedo rec)) :
    FineShared L (.metal albedo) := fun _ rec =>
  ⟨fun _ => ⟨_, _, rfl, rfl, ha rec, cv_zero_vec⟩, fun _ => ⟨0, cv_zero_vec, fun _ => ⟨le_rfl, hL⟩⟩⟩

theorem fineShared_light {L : ℝ} {emit : Texture (Fl F)} (he : ∀ rec, ColorIn L (emit rec)) : FineShared L (.diffuseLight emit) := fun _ rec =>
  ⟨fun h => (by cases h), fun _ => he rec⟩

/-- A query of a list comes back, with a material of the list if it hits. -/
theorem HittableList.hit_mem {M : Type} (l : HittableList (Fl F) M) (hlen : l.materials.length = l.objects.length) (r : Ray (Fl F)) (rec0 temp0 : HitRecord (Fl F)) :
    (l.hit r (1000 * eps) inf rec0 temp0).1 = some none ∨ ∃ m ∈ l.materials, (l.hit r (1000 * eps) inf rec0 temp0).1 = some (some m) := by
  have hinv := HittableList.loop_inv r (1000 * eps) inf rec0 l.objects l.objects 0 ⟨temp0, inf, rec0, none⟩ rfl
    (fun _ => ⟨rfl, rfl⟩) (by intro j hj; cases hj)
  unfold HittableList.hit
  dsimp only at hinv ⊢
  generalize HittableList.loop r (1000 * eps) l.objects 0 ⟨temp0, inf, rec0, none⟩ = s at *
  cases hs : s.idx with
  | none => exact .inl rfl
  | some i =>
    obtain ⟨-, -, o, ho, -⟩ := hinv.2 i hs
    have : i < l.materials.length := by rw [hlen]; exact (List.getElem?_eq_some_iff.mp ho).1
    exact .inr ⟨_, List.getElem_mem this, by simp [List.getElem?_eq_getElem this]⟩

variable {sc : Threads.Scene (Fl F)} {L : ℝ}

theorem rayColor_all [F.Rounding] (hlen : sc.world.materials.length = sc.world.objects.length) (hm : ∀ m ∈ sc.world.materials, FineShared L m)
    (hL : 0 ≤ L) (hr : rnd F L = fin L) (hb : ColorIn L sc.background) (depth : ℕ) (r : Ray (Fl F)) :
    (Threads.rayColor sc depth r).All (ColorIn L) := by
  induction depth generalizing r with
  | zero => exact ⟨0, cv_zero_vec, fun i => ⟨le_rfl, hL⟩⟩
  | succ d ih =>
    rw [Threads.rayColor]
    rcases sc.world.hit_mem hlen r sc.rec0 sc.temp0 with h | ⟨m, h1, h2⟩
    · rw [h]; exact hb
    · rw [h2]
      refine (hm m h1 r _).bind fun s hs => ?_
      cases hok : s.ok with
      | false => exact hs.2 hok
      | true =>
        obtain ⟨a, q, ha, hq', ⟨y, rfl, hy⟩, he⟩ := hs.1 hok
        simp only [ha, hq', he, if_true]
        refine (ih q).bind fun c hc => ?_
        obtain ⟨x, rfl, hx'⟩ := hc
        have key : ∀ i, ∃ z, 0 ≤ z ∧ z ≤ L ∧ (fin 0 : Fl F) + fin (x i) * fin (y i) = fin z := by
          intro i
          obtain ⟨w, hw, w0, w1⟩ := rnd_between (F := F) (a := 0) (b := L) (x := x i * y i) rnd_zero hr
            (mul_nonneg (hx' i).1 (hy i).1) (by nlinarith [hx' i, hy i])
          obtain ⟨z, hz, z0, z1⟩ := rnd_between (F := F) (a := 0) (b := L) (x := 0 + w) rnd_zero hr (by linarith) (by linarith)
          exact ⟨z, z0, z1, by rw [show (fin (x i) : Fl F) * fin (y i) = rnd F (x i * y i) from rfl, hw]; exact hz⟩
        choose z z0 z1 hz using key
        exact ⟨z, by funext i; exact hz i, fun i => ⟨z0 i, z1 i⟩⟩

theorem samples_all [F.Rounding] (hcol : ∀ r, (Threads.rayColor sc 8 r).All (ColorIn L)) (i j n : ℕ) (c : Vec (Fl F) 3) (hc : Bright c) :
    (Threads.samples sc i j n c).All Bright := by
  induction n generalizing c with
  | zero => exact hc
  | succ n ih => exact fun x y => (hcol _).bind fun d hd => ih _ (hc.add hd)

theorem pixel_all [F.Rounding] (hcol : ∀ r, (Threads.rayColor sc 8 r).All (ColorIn L)) {n : ℝ} (hn : 0 < n) (hn' : (lit (sc.samples : ℚ) : Fl F) = fin n)
    (i j : ℕ) : (Threads.pixel sc i j).All fun p => p 3 = 255 := by
  refine (samples_all hcol i j sc.samples _ fun i => by rw [cv_zero_vec, cv_apply, le_fin]; simp).bind fun c hc => ?_
  obtain ⟨p, hp, -, -, -, h3⟩ := C88_pixel _ (hc.div hn)
  rw [hn', hp]
  exact h3

/-- The image when all threads are at their ends: it has four bytes for each pixel and is opaque. -/
def Opaque (W H : ℕ) (img : List UInt8) : Prop := img.length = 4 * W * H ∧ ∀ p, p < W * H → img[4 * p + 3]? = some 255

theorem opaque_image {R : Type} [Scalar R] (sc : Threads.Scene R) (hP : ∀ i j, (Threads.pixel sc i j).All fun p => p 3 = 255) (n : ℕ) (rows : Fin n → List ℕ)
    (hrows : ((List.finRange n).flatMap rows).Perm (List.range sc.height)) (memory : ℕ → Pcg) (schedule : List (Fin n)) :
    (∀ i, Machine.rest (((Threads.start sc rows memory).exec Pcg.next schedule).threads i) ≠ .stuck) ∧
    ∀ l : Fin n → List ((ℕ × ℕ) × (Fin 4 → UInt8)),
      (∀ i, ((Threads.start sc rows memory).exec Pcg.next schedule).threads i = .running (.done (l i))) →
      ∀ ws : List (ℤ × UInt8), ws.Perm (stores sc.width sc.height ((List.finRange n).flatMap l)) →
      ∃ img, ws.foldl store (some (blank sc.width sc.height)) = some img ∧ Opaque sc.width sc.height img := by
  obtain ⟨h1, h2⟩ := C131_image sc (fun _ _ p => p 3 = 255) (fun i j _ _ => hP i j) n rows hrows memory schedule
  refine ⟨h1, fun l hl ws hws => ?_⟩
  obtain ⟨img, h3, h5, h6⟩ := h2 l hl ws hws
  refine ⟨img, h3, h5, fun p hp => ?_⟩
  obtain ⟨i, j, hi, hj, he⟩ := exists_task hp
  obtain ⟨q, h7, h8⟩ := h6 i j hi hj
  have : sc.width * (sc.height - 1 - j) + i = p := by
    unfold costIndex at he
    have : ((sc.height - 1 - j : ℕ) : ℤ) = (sc.height : ℤ) - 1 - j := by omega
    rw [← this] at he
    exact_mod_cast he
  have h9 := h8 3
  rw [this, h7] at h9
  exact h9

/-- C131: `with_lights.cpp`, for any number of threads, any distribution of the rows and any interleaving, lost updates included: no thread runs into undefined
behaviour, and when all threads are at their ends the image is complete and opaque, in whatever order its bytes were stored. -/
theorem C131_with_lights [F.Rounding] (rec0 temp0 : HitRecord (Fl F)) (n : ℕ) (rows : Fin n → List ℕ)
    (hrows : ((List.finRange n).flatMap rows).Perm (List.range 1125)) (memory : ℕ → Pcg) (schedule : List (Fin n)) :
    (∀ i, Machine.rest (((Threads.start (WithLights.shared rec0 temp0) rows memory).exec Pcg.next schedule).threads i) ≠ .stuck) ∧
    ∀ l : Fin n → List ((ℕ × ℕ) × (Fin 4 → UInt8)),
      (∀ i, ((Threads.start (WithLights.shared rec0 temp0) rows memory).exec Pcg.next schedule).threads i = .running (.done (l i))) →
      ∀ ws : List (ℤ × UInt8), ws.Perm (stores 1800 1125 ((List.finRange n).flatMap l)) →
      ∃ img, ws.foldl store (some (blank 1800 1125)) = some img ∧ Opaque 1800 1125 img := by
  have h4 : rnd F 4 = fin 4 := Fmt.Rounding.small 4 (by norm_num)
  have hm : ∀ m ∈ (WithLights.shared rec0 temp0).world.materials, FineShared 4 m := by
    intro m hm
    simp only [WithLights.shared, HittableList.add, HittableList.empty, List.nil_append, List.cons_append, List.mem_cons, List.not_mem_nil,
      or_false] at hm
    rcases hm with rfl | rfl | rfl
    · refine fineShared_lambertian (fun rec => colorIn_checker (colorIn_vec ?_ ?_ ?_) (colorIn_vec ?_ ?_ ?_)) 0
      · exact lit_between (by norm_num) (by norm_num) rnd_one
      · exact nat_between (by norm_num) (by norm_num)
      · exact nat_between (by norm_num) (by norm_num)
      · exact nat_between (by norm_num) (by norm_num)
      · exact lit_between (by norm_num) (by norm_num) rnd_one
      · exact nat_between (by norm_num) (by norm_num)
    · exact fineShared_metal (by norm_num) fun rec => colorIn_vec (lit_between (by norm_num) (by norm_num) rnd_one)
        (lit_between (by norm_num) (by norm_num) rnd_one) (lit_between (by norm_num) (by norm_num) rnd_one)
    · exact fineShared_light fun rec => colorIn_vec (nat_between (by norm_num) (by norm_num)) (nat_between (by norm_num) (by norm_num))
        (nat_between (by norm_num) (by norm_num))
  have hcol := rayColor_all (sc := WithLights.shared rec0 temp0) rfl hm (by norm_num) h4
    (colorIn_vec (lit_between (by norm_num) (by norm_num) h4) (lit_between (by norm_num) (by norm_num) h4)
      (lit_between (by norm_num) (by norm_num) h4)) 8
  exact opaque_image (WithLights.shared rec0 temp0) (fun i j => pixel_all hcol (n := 16) (by norm_num) (lit_small 16 (by norm_num)) i j)
    n rows hrows memory schedule

/-- C131: the same for `cylinder.cpp`. -/
theorem C131_cylinder [F.Rounding] (rec0 temp0 : HitRecord (Fl F)) (n : ℕ) (rows : Fin n → List ℕ)
    (hrows : ((List.finRange n).flatMap rows).Perm (List.range 750)) (memory : ℕ → Pcg) (schedule : List (Fin n)) :
    (∀ i, Machine.rest (((Threads.start (CylinderProgram.shared rec0 temp0) rows memory).exec Pcg.next schedule).threads i) ≠ .stuck) ∧
    ∀ l : Fin n → List ((ℕ × ℕ) × (Fin 4 → UInt8)),
      (∀ i, ((Threads.start (CylinderProgram.shared rec0 temp0) rows memory).exec Pcg.next schedule).threads i = .running (.done (l i))) →
      ∀ ws : List (ℤ × UInt8), ws.Perm (stores 1200 750 ((List.finRange n).flatMap l)) →
      ∃ img, ws.foldl store (some (blank 1200 750)) = some img ∧ Opaque 1200 750 img := by
  have hm : ∀ m ∈ (CylinderProgram.shared rec0 temp0).world.materials, FineShared 3 m := by
    intro m hm
    simp only [CylinderProgram.shared, HittableList.add, HittableList.empty, List.nil_append, List.cons_append, List.mem_cons, List.not_mem_nil,
      or_false] at hm
    rcases hm with rfl | rfl
    · exact fineShared_light fun rec => colorIn_vec (nat_between (by norm_num) (by norm_num)) (nat_between (by norm_num) (by norm_num))
        (nat_between (by norm_num) (by norm_num))
    · exact fineShared_lambertian (fun rec => colorIn_vec (nat_between (by norm_num) (by norm_num)) (nat_between (by norm_num) (by norm_num))
        (nat_between (by norm_num) (by norm_num))) 0
  have hcol := rayColor_all (sc := CylinderProgram.shared rec0 temp0) rfl hm (by norm_num) (Fmt.Rounding.small 3 (by norm_num))
    ⟨0, cv_zero_vec, fun _ => ⟨le_rfl, by norm_num⟩⟩ 8
  exact opaque_image (CylinderProgram.shared rec0 temp0) (fun i j => pixel_all hcol (n := 16) (by norm_num) (lit_small 16 (by norm_num)) i j)
    n rows hrows memory schedule

/-- Two threads, the first of which is given the lower 375 rows. -/
theorem two_halves : ((List.finRange 2).flatMap ![List.range 375, (List.range 375).map (375 + ·)]).Perm (List.range 750) := by
  rw [show (750 : ℕ) = 375 + 375 from rfl, List.range_add]
  simp [List.finRange_succ]

/-- In `double`, with two threads and any interleaving, no thread of `cylinder.cpp` runs into undefined behaviour. -/
example (rec0 temp0 : HitRecord (Fl binary64)) (schedule : List (Fin 2)) (i : Fin 2) :
    Machine.rest (((Threads.start (CylinderProgram.shared rec0 temp0) ![List.range 375, (List.range 375).map (375 + ·)]
      fun _ => lambertianSeed).exec Pcg.next schedule).threads i) ≠ .stuck :=
  (C131_cylinder (F := binary64) rec0 temp0 2 _ two_halves _ schedule).1 i

/-! ## The programs can come to their ends -/

/-- Both scenes have one `lambertian`, whose generator is the whole random state of the sequential model. -/
theorem withLights_same {R : Type} [Scalar R] (rec0 temp0 : HitRecord R) :
    SameScene (fun (s : Pcg) m => s = m 0) (WithLights.shared rec0 temp0) (WithLights.scene rec0 temp0) :=
  ⟨rfl, rfl, rfl, rfl, rfl, rfl, WithLights.objects, rfl, rfl,
    .cons (refines_lambertian _ _ _ _ (fun _ _ h => h) (fun _ _ _ _ => by simp)) (.cons (refines_metal _) (.cons (refines_light _) .nil))⟩

theorem cylinder_same {R : Type} [Scalar R] (rec0 temp0 : HitRecord R) :
    SameScene (fun (s : Pcg) m => s = m 0) (CylinderProgram.shared rec0 temp0) (CylinderProgram.scene rec0 temp0) :=
  ⟨rfl, rfl, rfl, rfl, rfl, rfl, CylinderProgram.objects, rfl, rfl,
    .cons (refines_light _) (.cons (refines_lambertian _ _ _ _ (fun _ _ h => h) (fun _ _ _ _ => by simp)) .nil)⟩

/-- C131: for any number of threads and any distribution of the rows, `with_lights.cpp` can come to its end, and the image that the sequential model computes when the
rows are run in order of the threads is a possible outcome. -/
theorem C131_ends_with_lights [F.Rounding] (hq : ExactQuarters F) (rec0 temp0 : HitRecord (Fl F)) (n : ℕ) (rows : Fin n → List ℕ)
    (hrows : ((List.finRange n).flatMap rows).Perm (List.range 1125)) : ∃ (schedule : List (Fin n)) (l : Fin n → List ((ℕ × ℕ) × (Fin 4 → UInt8))),
      (∀ i, ((Threads.start (WithLights.shared rec0 temp0) rows fun _ => lambertianSeed).exec Pcg.next schedule).threads i = .running (.done (l i))) ∧
      image (WithLights.scene rec0 temp0) ((List.finRange n).flatMap rows) lambertianSeed =
        (stores 1800 1125 ((List.finRange n).flatMap l)).foldl store (some (blank 1800 1125)) := by
  obtain ⟨img, h, -⟩ := C120_with_lights hq rec0 temp0 _ hrows
  rw [image] at h
  cases hL : run (WithLights.scene rec0 temp0) (tasks (WithLights.scene rec0 temp0).width ((List.finRange n).flatMap rows)) (seed, lambertianSeed) with
  | none => rw [hL] at h; cases h
  | some L =>
    obtain ⟨sch, l, h1, h2⟩ := C131_sequential (withLights_same rec0 temp0) n rows (fun _ => lambertianSeed) lambertianSeed rfl L hL
    refine ⟨sch, l, h1, ?_⟩
    rw [image, hL, h2]
    rfl

/-- C131: the same for `cylinder.cpp`. -/
theorem C131_ends_cylinder [F.Rounding] (hq : ExactQuarters F) (rec0 temp0 : HitRecord (Fl F)) (n : ℕ) (rows : Fin n → List ℕ)
    (hrows : ((List.finRange n).flatMap rows).Perm (List.range 750)) : ∃ (schedule : List (Fin n)) (l : Fin n → List ((ℕ × ℕ) × (Fin 4 → UInt8))),
      (∀ i, ((Threads.start (CylinderProgram.shared rec0 temp0) rows fun _ => lambertianSeed).exec Pcg.next schedule).threads i = .running (.done (l i))) ∧
      image (CylinderProgram.scene rec0 temp0) ((List.finRange n).flatMap rows) lambertianSeed =
        (stores 1200 750 ((List.finRange n).flatMap l)).foldl store (some (blank 1200 750)) := by
  obtain ⟨img, h, -⟩ := C120_cylinder hq rec0 temp0 _ hrows
  rw [image] at h
  cases hL : run (CylinderProgram.scene rec0 temp0) (tasks (CylinderProgram.scene rec0 temp0).width ((List.finRange n).flatMap rows)) (seed, lambertianSeed) with
  | none => rw [hL] at h; cases h
  | some L =>
    obtain ⟨sch, l, h1, h2⟩ := C131_sequential (cylinder_same rec0 temp0) n rows (fun _ => lambertianSeed) lambertianSeed rfl L hL
    refine ⟨sch, l, h1, ?_⟩
    rw [image, hL, h2]
    rfl

/-- In `double`, with two threads: an interleaving after which the image is complete exists. -/
example (rec0 temp0 : HitRecord (Fl binary64)) : ∃ (schedule : List (Fin 2)) (l : Fin 2 → List ((ℕ × ℕ) × (Fin 4 → UInt8))),
    (∀ i, ((Threads.start (CylinderProgram.shared rec0 temp0) ![List.range 375, (List.range 375).map (375 + ·)]
      fun _ => lambertianSeed).exec Pcg.next schedule).threads i = .running (.done (l i))) ∧
    ∃ img, (stores 1200 750 ((List.finRange 2).flatMap l)).foldl store (some (blank 1200 750)) = some img ∧ Opaque 1200 750 img := by
  obtain ⟨sch, l, h1, -⟩ := C131_ends_cylinder (F := binary64) (exactQuarters_ieee (by norm_num) (by norm_num) (by norm_num)) rec0 temp0 2 _ two_halves
  exact ⟨sch, l, h1, (C131_cylinder (F := binary64) rec0 temp0 2 _ two_halves _ sch).2 l h1 _ (List.Perm.refl _)⟩

end sound

end DRT
