import Verif.Props.Programs

/-! # C121: light adds up, and more light never makes a picture darker -/

namespace DRT
open Scalar Fl Render

variable {F : Fmt} {S : Type}

/-! ## Scenes that differ only in their lights -/

/-- The scenes `w k` have the same shapes and the same scattering. Only the emitted colours depend on `k`, and those of the different
scenes at one hit satisfy `E`. -/
def Lightings {K : Type} (E : (K → Vec (Fl F) 3) → Prop) (w : K → World (Fl F) S) : Prop :=
  ∀ s r tmin tmax rec, (∀ k, w k s r tmin tmax rec = none) ∨ ∃ rec' s', (∀ k, w k s r tmin tmax rec = some (none, rec', s')) ∨
    ∃ m : K → Material (Fl F) S, (∀ k, w k s r tmin tmax rec = some (some (m k), rec', s')) ∧ (∀ k l, (m k).scatter = (m l).scatter) ∧
      E fun k => (m k).emitted rec'

/-- The lists of the same objects, with materials that differ only in what they emit, are such scenes. -/
theorem lightings_list {K : Type} {E : (K → Vec (Fl F) 3) → Prop} (objects : List (Hittable (Fl F))) (ms : List (K → Material (Fl F) S))
    (h1 : ∀ m ∈ ms, ∀ k l, (m k).scatter = (m l).scatter) (h2 : ∀ m ∈ ms, ∀ rec, E fun k => (m k).emitted rec) (temp0 : HitRecord (Fl F)) :
    Lightings E fun k => (⟨objects, ms.map fun m => m k⟩ : HittableList (Fl F) (Material (Fl F) S)).world temp0 := by
  intro s r tmin tmax rec
  unfold HittableList.world HittableList.hit
  dsimp only
  generalize HittableList.loop r tmin objects 0 ⟨temp0, tmax, rec, none⟩ = st
  cases hs : st.idx with
  | none => exact Or.inr ⟨st.out, s, Or.inl fun k => by simp⟩
  | some i =>
    cases hm : ms[i]? with
    | none => exact Or.inl fun k => by simp [hm]
    | some m =>
      have hmem := List.mem_of_getElem? hm
      exact Or.inr ⟨st.out, s, Or.inr ⟨m, fun k => by simp [hm], h1 m hmem, h2 m hmem _⟩⟩

/-! ## Superposition -/

/-- The colours are finite, and the one at `none` is the combination of the others with coefficients `a`. -/
def Combined {ι : Type} [Fintype ι] (a : ι → ℝ) (e : Option ι → Vec (Fl F) 3) : Prop :=
  ∃ x : Option ι → Fin 3 → ℝ, (∀ k, e k = cv (x k)) ∧ ∀ i, x none i = ∑ k, a k * x (some k) i

/-- C121: light adds up. If the lights and the background of a scene are combinations of those of other scenes with the same shapes and the
same scattering, then so is the colour of every ray, whatever the random numbers. All scenes draw the same random numbers. -/
theorem C121_superposition [F.Exact] {ι : Type} [Fintype ι] (a : ι → ℝ) (w : Option ι → World (Fl F) S) (hw : Lightings (Combined a) w)
    (hatt : ∀ s r tmin tmax rec m rec' s', w none s r tmin tmax rec = some (some m, rec', s') → ∀ s r sc s',
      m.scatter s r rec' = some (sc, s') → ∀ y, sc.attenuation = some y → ∃ z, y = cv z)
    (bg : Option ι → Vec (Fl F) 3) (hbg : Combined a bg) (rec0 : HitRecord (Fl F)) (depth : ℕ) (s : S) (r : Ray (Fl F))
    (c₀ : Shade (Fl F) S) (h : rayColor (w none) (bg none) rec0 depth s r = some c₀) :
    ∃ c : Option ι → Shade (Fl F) S, (∀ k, rayColor (w k) (bg k) rec0 depth s r = some (c k)) ∧ Combined a (fun k => (c k).color) ∧
      ∀ k, (c k).state = c₀.state ∧ (c k).queries = c₀.queries := by
  induction depth generalizing s r c₀ with
  | zero =>
    simp only [rayColor, Option.some.injEq] at h
    subst h
    exact ⟨fun _ => ⟨![0, 0, 0], s, 0⟩, fun _ => rfl, ⟨fun _ => 0, fun _ => cv_zero_vec, fun i => by simp⟩, fun _ => ⟨rfl, rfl⟩⟩
  | succ d ih =>
    rw [rayColor] at h
    rcases hw s r (1000 * eps) inf rec0 with h1 | ⟨rec', s', h1 | ⟨m, h1, h2, x, hx, hx'⟩⟩
    · rw [h1] at h; cases h
    · rw [h1] at h
      simp only [Option.some.injEq] at h
      subst h
      exact ⟨fun k => ⟨bg k, s', 1⟩, fun k => by rw [rayColor, h1], hbg, fun _ => ⟨rfl, rfl⟩⟩
    · rw [h1] at h
      dsimp only at h
      cases hsc : (m none).scatter s' r rec' with
      | none => rw [hsc] at h; cases h
      | some p =>
        obtain ⟨sc, s''⟩ := p
        have hsc' : ∀ k, (m k).scatter s' r rec' = some (sc, s'') := fun k => by rw [h2 k none]; exact hsc
        rw [hsc] at h
        dsimp only at h
        cases hok : sc.ok with
        | false =>
          rw [hok] at h
          simp only [Bool.false_eq_true, if_false, Option.some.injEq] at h
          subst h
          refine ⟨fun k => ⟨(m k).emitted rec', s'', 1⟩, fun k => ?_, ⟨x, hx, hx'⟩, fun _ => ⟨rfl, rfl⟩⟩
          rw [rayColor, h1]
          dsimp only
          rw [hsc']
          simp [hok]
        | true =>
          rw [hok, if_pos rfl] at h
          cases ha : sc.attenuation with
          | none => simp [ha] at h
          | some y =>
            cases hq : sc.ray with
            | none => simp [ha, hq] at h
            | some q =>
              simp only [ha, hq] at h
              cases hc : rayColor (w none) (bg none) rec0 d s'' q with
              | none => simp [hc] at h
              | some c₁ =>
                simp only [hc, Option.some.injEq] at h
                subst h
                obtain ⟨c, hc', ⟨v, hv, hv'⟩, h3⟩ := ih s'' q c₁ hc
                obtain ⟨z, rfl⟩ := hatt _ _ _ _ _ _ _ _ (h1 none) _ _ _ _ hsc _ ha
                refine ⟨fun k => ⟨(m k).emitted rec' + fun i => (c k).color i * (cv z : Vec (Fl F) 3) i, (c k).state, (c k).queries + 1⟩,
                  fun k => ?_, ⟨fun k i => x k i + v k i * z i, fun k => ?_, fun i => ?_⟩, fun k => ⟨(h3 k).1, congrArg (· + 1) (h3 k).2⟩⟩
                · rw [rayColor, h1]
                  dsimp only
                  rw [hsc']
                  simp only [hok, if_true, ha, hq, hc']
                · funext i
                  show (m k).emitted rec' i + (c k).color i * fin (z i) = fin _
                  have e1 := congrFun (hx k) i
                  have e2 := congrFun (hv k) i
                  dsimp only at e1 e2
                  rw [e1, e2, cv_apply, cv_apply, mul_fin, add_fin]
                · show x none i + v none i * z i = ∑ k, a k * (x (some k) i + v (some k) i * z i)
                  rw [hx', hv', Finset.sum_mul, ← Finset.sum_add_distrib]
                  exact Finset.sum_congr rfl fun k _ => by ring

/-- Two lamps and a mirror of any shapes: the colour of every ray is the sum of the colours with only one of the lamps switched on. -/
example (a b c : Hittable (Fl exact64)) (temp0 rec0 : HitRecord (Fl exact64)) (r : Ray (Fl exact64)) :
    let world (x y : ℝ) : World (Fl exact64) Unit := (⟨[a, b, c], [Material.metal (solidColor (cv ![1 / 2, 1, 1])),
      Material.diffuseLight (solidColor (cv ![x, x, 0])), Material.diffuseLight (solidColor (cv ![0, y, y]))]⟩ :
        HittableList (Fl exact64) (Material (Fl exact64) Unit)).world temp0
    ∃ u v : Fin 3 → ℝ, (∃ c, rayColor (world 1 0) (cv 0) rec0 8 () r = some c ∧ c.color = cv u) ∧
      (∃ c, rayColor (world 0 3) (cv 0) rec0 8 () r = some c ∧ c.color = cv v) ∧
      ∃ c, rayColor (world 1 3) (cv 0) rec0 8 () r = some c ∧ c.color = cv (u + v) := by
  intro world
  have hl : Lightings (S := Unit) (Combined (F := exact64) (fun _ : Bool => 1)) fun k => world (if k = some true then 0 else 1)
      (if k = some false then 0 else 3) := by
    refine lightings_list [a, b, c] [fun _ => Material.metal (solidColor (cv ![1 / 2, 1, 1])),
      fun k => Material.diffuseLight (solidColor (cv ![if k = some true then 0 else 1, if k = some true then 0 else 1, 0])),
      fun k => Material.diffuseLight (solidColor (cv ![0, if k = some false then 0 else 3, if k = some false then 0 else 3]))] ?_ ?_ temp0
    · simp only [List.mem_cons, List.not_mem_nil, or_false]
      rintro m (rfl | rfl | rfl) k l <;> rfl
    · simp only [List.mem_cons, List.not_mem_nil, or_false]
      rintro m (rfl | rfl | rfl) rec
      · exact ⟨fun _ => 0, fun _ => cv_zero_vec, fun i => by simp⟩
      · exact ⟨_, fun k => rfl, fun i => by fin_cases i <;> simp⟩
      · exact ⟨_, fun k => rfl, fun i => by fin_cases i <;> simp⟩
  have hdef : WellBehaved (world 1 3) := by
    intro s r tmin tmax rec
    have h := C41_no_out_of_range (M := Material (Fl exact64) Unit) [ListOp.add a (Material.metal (solidColor (cv ![1 / 2, 1, 1]))),
      ListOp.add b (Material.diffuseLight (solidColor (cv ![1, 1, 0]))), ListOp.add c (Material.diffuseLight (solidColor (cv ![0, 3, 3])))]
      r tmin tmax rec temp0
    obtain ⟨m, hmm⟩ := Option.ne_none_iff_exists'.mp h
    obtain ⟨rec', hw⟩ : ∃ rec', world 1 3 s r tmin tmax rec = some (m, rec', s) := ⟨_, congrArg (Option.map fun m => (m, _, s)) hmm⟩
    refine ⟨m, rec', s, hw, ?_⟩
    rintro mat rfl s₁ r₁
    have hmem := HittableList.world_mem _ temp0 hw
    simp only [List.mem_cons, List.not_mem_nil, or_false] at hmem
    rcases hmem with rfl | rfl | rfl
    · exact ⟨_, _, rfl, fun _ => ⟨⟨_, rfl⟩, _, rfl⟩⟩
    · exact ⟨_, _, rfl, fun h => by cases h⟩
    · exact ⟨_, _, rfl, fun h => by cases h⟩
  obtain ⟨c₀, hc₀⟩ := C80_defined (world 1 3) hdef (cv 0) rec0 8 () r
  obtain ⟨col, h1, ⟨x, hx, hx'⟩, -⟩ := C121_superposition (fun _ : Bool => 1) _ hl (by
    intro s r tmin tmax rec m rec' s' hq s₁ r₁ sc s₂ hsc y hy
    have hmem := HittableList.world_mem _ temp0 hq
    simp only [List.mem_cons, List.not_mem_nil, or_false] at hmem
    rcases hmem with rfl | rfl | rfl
    · simp only [Material.metal, Option.some.injEq, Prod.mk.injEq] at hsc
      obtain ⟨rfl, -⟩ := hsc
      cases hy
      exact ⟨_, rfl⟩
    · simp only [Material.diffuseLight, Option.some.injEq, Prod.mk.injEq] at hsc
      obtain ⟨rfl, -⟩ := hsc
      cases hy
    · simp only [Material.diffuseLight, Option.some.injEq, Prod.mk.injEq] at hsc
      obtain ⟨rfl, -⟩ := hsc
      cases hy) (fun _ => cv 0) ⟨fun _ => 0, fun _ => rfl, fun i => by simp⟩ rec0 8 () r c₀ (by simpa [rayColorInt] using hc₀)
  refine ⟨x (some false), x (some true), ⟨_, by simpa using h1 (some false), hx _⟩, ⟨_, by simpa using h1 (some true), hx _⟩,
    _, by simpa using h1 none, (hx none).trans ?_⟩
  rw [cv_inj]
  funext i
  rw [hx']
  simp [add_comm]

/-! ## More light -/

/-- The second colour is not darker than the first. -/
def Brighter (e : Bool → Vec (Fl F) 3) : Prop :=
  ∃ x y : Fin 3 → ℝ, e false = cv x ∧ e true = cv y ∧ ∀ i, 0 ≤ x i ∧ x i ≤ y i

theorem rayColor_brighter [F.Rounding] (w : Bool → World (Fl F) S) (hw : Lightings Brighter w) (bg : Bool → Vec (Fl F) 3)
    (hbg : Brighter bg) (rec0 : HitRecord (Fl F)) {Inv : S → Prop} {Good : Ray (Fl F) → Prop} {L : ℝ} (hs : Sound (w true) rec0 Inv Good L)
    (hL : 0 ≤ L) (hr : rnd F L = fin L) (hb : ColorIn L (bg true)) (depth : ℕ) (s : S) (r : Ray (Fl F)) (h1 : Inv s) (h2 : Good r) :
    ∃ c : Bool → Shade (Fl F) S, (∀ k, rayColor (w k) (bg k) rec0 depth s r = some (c k)) ∧ Brighter (fun k => (c k).color) ∧
      (c false).state = (c true).state ∧ Inv (c true).state ∧ ColorIn L (c true).color := by
  induction depth generalizing s r with
  | zero =>
    exact ⟨fun _ => ⟨![0, 0, 0], s, 0⟩, fun _ => rfl, ⟨0, 0, cv_zero_vec, cv_zero_vec, fun i => ⟨le_rfl, le_rfl⟩⟩, rfl, h1, 0, cv_zero_vec,
      fun _ => ⟨le_rfl, hL⟩⟩
  | succ d ih =>
    obtain ⟨mm, rec, s', hq, h3, hm⟩ := hs s r h1 h2
    rcases hw s r (1000 * eps) inf rec0 with h4 | ⟨rec', s₁, h4 | ⟨m, h4, h5, x, y, hx, hy, hxy⟩⟩
    · rw [h4] at hq; cases hq
    · rw [h4] at hq
      simp only [Option.some.injEq, Prod.mk.injEq] at hq
      obtain ⟨rfl, rfl, rfl⟩ := hq
      exact ⟨fun k => ⟨bg k, s₁, 1⟩, fun k => by rw [rayColor, h4], hbg, rfl, h3, hb⟩
    · rw [h4] at hq
      simp only [Option.some.injEq, Prod.mk.injEq] at hq
      obtain ⟨rfl, rfl, rfl⟩ := hq
      obtain ⟨sc, s'', hsc, h6, h7, h8⟩ := hm _ rfl
      have hsc' : ∀ k, (m k).scatter s₁ r rec' = some (sc, s'') := fun k => by rw [h5 k true]; exact hsc
      cases hok : sc.ok with
      | false =>
        refine ⟨fun k => ⟨(m k).emitted rec', s'', 1⟩, fun k => ?_, ⟨x, y, hx, hy, hxy⟩, rfl, h6, h8 hok⟩
        rw [rayColor, h4]
        dsimp only
        rw [hsc']
        simp [hok]
      | true =>
        obtain ⟨a, q, ha, hq', ⟨z, rfl, hz⟩, hg, he⟩ := h7 hok
        obtain ⟨c, hc, ⟨u, v, hu, hv, huv⟩, h9, h10, h11⟩ := ih s'' q h6 hg
        dsimp only at hu hv hx hy
        obtain ⟨v', hv', hvL⟩ := h11
        obtain rfl : v = v' := by rw [hv] at hv'; exact cv_inj.1 hv'
        have hx0 : x = 0 := by
          rw [he] at hy
          obtain rfl := cv_inj.1 hy
          funext i
          exact le_antisymm (hxy i).2 (hxy i).1
        have key : ∀ i, ∃ p q : ℝ, (fin 0 : Fl F) + fin (u i) * fin (z i) = fin p ∧ (fin 0 : Fl F) + fin (v i) * fin (z i) = fin q ∧
            0 ≤ p ∧ p ≤ q ∧ q ≤ L := by
          intro i
          obtain ⟨e1, e2⟩ := huv i
          obtain ⟨e3, e4⟩ := hz i
          have e5 := (hvL i).2
          obtain ⟨p, hp, p0, pL⟩ := rnd_between (F := F) (a := 0) (b := L) (x := u i * z i) rnd_zero hr (mul_nonneg e1 e3) (by nlinarith)
          obtain ⟨q, hq, q0, qL⟩ := rnd_between (F := F) (a := 0) (b := L) (x := v i * z i) rnd_zero hr (mul_nonneg (e1.trans e2) e3) (by nlinarith)
          have hpq : p ≤ q := by
            have := Fmt.Rounding.mono (F := F) (mul_le_mul_of_nonneg_right e2 e3)
            rw [hp, hq, le_fin, decide_eq_true_eq] at this
            exact this
          obtain ⟨p', hp', p0', pL'⟩ := rnd_between (F := F) (a := 0) (b := L) (x := 0 + p) rnd_zero hr (by linarith) (by linarith)
          obtain ⟨q', hq', q0', qL'⟩ := rnd_between (F := F) (a := 0) (b := L) (x := 0 + q) rnd_zero hr (by linarith) (by linarith)
          have hpq' : p' ≤ q' := by
            have := Fmt.Rounding.mono (F := F) (show (0 : ℝ) + p ≤ 0 + q by linarith)
            rw [hp', hq', le_fin, decide_eq_true_eq] at this
            exact this
          refine ⟨p', q', ?_, ?_, p0', hpq', qL'⟩
          · rw [show (fin (u i) : Fl F) * fin (z i) = rnd F (u i * z i) from rfl, hp]; exact hp'
          · rw [show (fin (v i) : Fl F) * fin (z i) = rnd F (v i * z i) from rfl, hq]; exact hq'
        choose p q' hp hq'' p0 pq qL using key
        refine ⟨fun k => ⟨(m k).emitted rec' + fun i => (c k).color i * (cv z : Vec (Fl F) 3) i, (c k).state, (c k).queries + 1⟩,
          fun k => ?_, ⟨p, q', ?_, ?_, fun i => ⟨p0 i, pq i⟩⟩, h9, h10, q', ?_, fun i => ⟨(p0 i).trans (pq i), qL i⟩⟩
        · rw [rayColor, h4]
          dsimp only
          rw [hsc']
          simp only [hok, if_true, ha, hq', hc]
        · funext i
          show (m false).emitted rec' i + (c false).color i * fin (z i) = fin (p i)
          rw [hx, hx0, hu]
          exact hp i
        · funext i
          show (m true).emitted rec' i + (c true).color i * fin (z i) = fin (q' i)
          rw [he, hv]
          exact hq'' i
        · funext i
          show (m true).emitted rec' i + (c true).color i * fin (z i) = fin (q' i)
          rw [he, hv]
          exact hq'' i

/-- `a` is at least 0 and at most `b`, component by component; both may be infinite. -/
def Below (a b : Vec (Fl F) 3) : Prop := ∀ i, Scalar.le (fin 0) (a i) = true ∧ Scalar.le (a i) (b i) = true

theorem Below.add [F.Rounding] {a b : Vec (Fl F) 3} (h : Below a b) {x y : Fin 3 → ℝ} (hxy : ∀ i, 0 ≤ x i ∧ x i ≤ y i) :
    Below (a + cv x) (b + cv y) := by
  intro i
  obtain ⟨h0, h1⟩ := h i
  obtain ⟨h2, h3⟩ := hxy i
  show Scalar.le (fin 0) (a i + fin (x i)) = true ∧ Scalar.le (a i + fin (x i)) (b i + fin (y i)) = true
  cases ha : a i with
  | nan => rw [ha] at h0; cases h0
  | ninf => rw [ha] at h0; cases h0
  | fin p =>
    rw [ha] at h0 h1
    rw [le_fin, decide_eq_true_eq] at h0
    refine ⟨rnd_nonneg (add_nonneg h0 h2), ?_⟩
    cases hb : b i with
    | nan => rw [hb] at h1; simp at h1
    | ninf => rw [hb] at h1; cases h1
    | fin q =>
      rw [hb, le_fin, decide_eq_true_eq] at h1
      exact Fmt.Rounding.mono (add_le_add h1 h3)
    | pinf =>
      rw [pinf_add_fin]
      have := rnd_not_nan (F := F) (p + x i)
      show Scalar.le (rnd F (p + x i)) pinf = true
      cases hz : rnd F (p + x i) with
      | nan => rw [hz] at this; cases this
      | ninf => rfl
      | fin _ => rfl
      | pinf => rfl
  | pinf =>
    rw [ha] at h1
    cases hb : b i with
    | nan => rw [hb] at h1; simp at h1
    | ninf => rw [hb] at h1; cases h1
    | fin q => rw [hb] at h1; cases h1
    | pinf => exact ⟨rfl, rfl⟩

theorem pinf_div_pos {n : ℝ} (hn : 0 < n) : (pinf : Fl F) / fin n = pinf := by
  show (if n = 0 then _ else Fl.infOf (F := F) n) = _
  rw [if_neg hn.ne']
  exact if_pos hn

theorem Below.div [F.Rounding] {a b : Vec (Fl F) 3} (h : Below a b) {n : ℝ} (hn : 0 < n) : Below (a /. fin n) (b /. fin n) := by
  intro i
  obtain ⟨h0, h1⟩ := h i
  show Scalar.le (fin 0) (a i / fin n) = true ∧ Scalar.le (a i / fin n) (b i / fin n) = true
  cases ha : a i with
  | nan => rw [ha] at h0; cases h0
  | ninf => rw [ha] at h0; cases h0
  | fin p =>
    rw [ha] at h0 h1
    rw [le_fin, decide_eq_true_eq] at h0
    rw [div_rounded _ hn.ne']
    refine ⟨rnd_nonneg (div_nonneg h0 hn.le), ?_⟩
    cases hb : b i with
    | nan => rw [hb] at h1; simp at h1
    | ninf => rw [hb] at h1; cases h1
    | fin q =>
      rw [hb, le_fin, decide_eq_true_eq] at h1
      rw [div_rounded _ hn.ne']
      exact Fmt.Rounding.mono (div_le_div_of_nonneg_right h1 hn.le)
    | pinf =>
      rw [pinf_div_pos hn]
      have := rnd_not_nan (F := F) (p / n)
      cases hz : rnd F (p / n) with
      | nan => rw [hz] at this; cases this
      | ninf => rfl
      | fin _ => rfl
      | pinf => rfl
  | pinf =>
    rw [ha] at h1
    cases hb : b i with
    | nan => rw [hb] at h1; simp at h1
    | ninf => rw [hb] at h1; cases h1
    | fin q => rw [hb] at h1; cases h1
    | pinf => rw [pinf_div_pos hn]; exact ⟨rfl, rfl⟩

theorem channel_pinf [F.Rounding] : channel (pinf : Fl F) = some 255 := by
  obtain ⟨y, h1, -, -, -, h4⟩ := clamp_unit (F := F) (x := pinf) rfl
  obtain rfl := h4 rfl
  unfold channel
  rw [sqrt_pinf, h1, lit_small 255 (by norm_num)]
  have h255 : (fin ((255 : ℕ) : ℝ) : Fl F) * fin 1 = fin 255 := by
    show rnd F (((255 : ℕ) : ℝ) * 1) = _
    rw [mul_one, Fmt.Rounding.small 255 (by norm_num)]
    norm_num
  rw [h255]
  obtain ⟨b, hb, hb'⟩ := toByte_fin (F := F) (z := 255) (by norm_num) le_rfl
  rw [hb]
  congr 1
  apply UInt8.toNat_inj.1
  rw [hb', show (255 : ℝ) = ((255 : ℕ) : ℝ) by norm_num, Nat.floor_natCast]
  rfl

theorem channel_below [F.Rounding] {a b : Fl F} (h0 : Scalar.le (fin 0) a = true) (h1 : Scalar.le a b = true) {p q : UInt8}
    (hp : channel a = some p) (hq : channel b = some q) : p ≤ q := by
  rw [UInt8.le_iff_toNat_le]
  cases hb : b with
  | nan => rw [hb] at h1; simp at h1
  | ninf => rw [hb] at h1; have := Fl.le_trans h0 h1; cases this
  | fin y =>
    rw [hb] at h1 hq
    cases ha : a with
    | nan => rw [ha] at h0; cases h0
    | ninf => rw [ha] at h0; cases h0
    | fin x =>
      rw [ha] at h0 h1 hp
      rw [le_fin, decide_eq_true_eq] at h0 h1
      exact C88_monotone x y h0 h1 p q hp hq
    | pinf => rw [ha] at h1; cases h1
  | pinf =>
    rw [hb, channel_pinf, Option.some.injEq] at hq
    subst hq
    have := p.toNat_lt
    show p.toNat ≤ 255
    omega

theorem Below.pixel [F.Rounding] {a b : Vec (Fl F) 3} (h : Below a b) :
    ∃ p q : Fin 4 → UInt8, to8bit a = some p ∧ to8bit b = some q ∧ ∀ k, p k ≤ q k := by
  obtain ⟨p, hp, p0, p1, p2, p3⟩ := C88_pixel a fun i => (h i).1
  obtain ⟨q, hq, q0, q1, q2, q3⟩ := C88_pixel b fun i => Fl.le_trans (h i).1 (h i).2
  refine ⟨p, q, hp, hq, fun k => ?_⟩
  fin_cases k
  · exact channel_below (h 0).1 (h 0).2 p0 q0
  · exact channel_below (h 1).1 (h 1).2 p1 q1
  · exact channel_below (h 2).1 (h 2).2 p2 q2
  · show p 3 ≤ q 3
    rw [p3, q3]
    exact UInt8.le_refl _

theorem store_below {a b : List UInt8} (h : List.Forall₂ (· ≤ ·) a b) {ws vs : List (ℤ × UInt8)}
    (hw : List.Forall₂ (fun x y => x.1 = y.1 ∧ x.2 ≤ y.2) ws vs) {a' b' : List UInt8} (ha : ws.foldl store (some a) = some a')
    (hb : vs.foldl store (some b) = some b') : List.Forall₂ (· ≤ ·) a' b' := by
  have hnone : ∀ ws : List (ℤ × UInt8), ws.foldl store none = none := fun ws => by induction ws with
    | nil => rfl
    | cons _ _ ih => exact ih
  induction hw generalizing a b with
  | nil =>
    simp only [List.foldl_nil, Option.some.injEq] at ha hb
    subst ha; subst hb
    exact h
  | @cons x y ws vs hxy _ ih =>
    rw [List.foldl_cons] at ha hb
    by_cases hx : 0 ≤ x.1 ∧ x.1 < a.length
    · have hl := h.length_eq
      have e1 : store (some a) x = some (a.set x.1.toNat x.2) := if_pos hx
      have e2 : store (some b) y = some (b.set y.1.toNat y.2) := if_pos (by rw [← hxy.1, ← hl]; exact hx)
      rw [e1] at ha
      rw [e2] at hb
      refine ih ?_ ha hb
      rw [List.forall₂_iff_get] at h ⊢
      refine ⟨by simp [hl], fun i h1 h2 => ?_⟩
      simp only [List.get_eq_getElem, List.getElem_set, ← hxy.1]
      split
      · exact hxy.2
      · exact h.2 i (by simpa using h1) (by simpa using h2)
    · have e1 : store (some a) x = none := if_neg hx
      rw [e1, hnone] at ha
      cases ha

/-- C121: more light never makes a picture darker. Take two scenes with the same shapes and the same scattering, where the lights and the
background of the second are at least as bright. Then every byte of the second picture is at least as large as that of the first. This
holds in every arithmetic that rounds monotonically, for every order of the rows. -/
theorem C121_brighter [F.Rounding] (sc : Scene (Fl F) S) (dim : World (Fl F) S) (bg : Vec (Fl F) 3)
    (hw : Lightings Brighter fun k => bif k then sc.world else dim) (hbg : Brighter fun k => bif k then sc.background else bg)
    {Inv : S → Prop} {Good : Ray (Fl F) → Prop} {L : ℝ}
    (hs : Sound sc.world sc.rec0 Inv Good L) (hL : 0 ≤ L) (hr : rnd F L = fin L) (hb : ColorIn L sc.background)
    (hc : ∀ (i j : ℕ) (g : Pcg), i < sc.width → j < sc.height →
      Good (sc.camera.getRay (coordinate i sc.width (Pcg.real01 g).1) (coordinate j sc.height (Pcg.real01 (Pcg.real01 (R := Fl F) g).2).1)))
    (n : ℝ) (hn : 0 < n) (hn' : (lit (sc.samples : ℚ) : Fl F) = fin n) (rows : List ℕ) (hrows : rows.Perm (List.range sc.height)) (s : S)
    (hi : Inv s) : ∃ img img', image { sc with world := dim, background := bg } rows s = some img ∧ image sc rows s = some img' ∧
      img.length = 4 * sc.width * sc.height ∧ img'.length = 4 * sc.width * sc.height ∧
      ∀ (k : ℕ) (x y : UInt8), img[k]? = some x → img'[k]? = some y → x ≤ y := by
  have htask : ∀ (i j : ℕ) (g : Pcg) (s : S), i < sc.width → j < sc.height → Inv s →
      ∃ p q g' s', task { sc with world := dim, background := bg } i j (g, s) = some (p, g', s') ∧ task sc i j (g, s) = some (q, g', s') ∧
        (∀ k, p k ≤ q k) ∧ Inv s' := by
    intro i j g s hi hj h1
    have hloop : ∀ (m : ℕ) (a b : Vec (Fl F) 3) (g : Pcg) (s : S), Below a b → Inv s →
        ∃ a' b' g' s', sampleLoop { sc with world := dim, background := bg } i j m (a, g, s) = some (a', g', s') ∧
          sampleLoop sc i j m (b, g, s) = some (b', g', s') ∧ Below a' b' ∧ Inv s' := by
      intro m
      induction m with
      | zero => exact fun a b g s h1 h2 => ⟨a, b, g, s, rfl, rfl, h1, h2⟩
      | succ m ih =>
        intro a b g s h1 h2
        obtain ⟨c, hcol, ⟨x, y, hx, hy, hxy⟩, h3, h4, -⟩ := rayColor_brighter _ hw _ hbg sc.rec0 hs hL hr hb 8 s _ h2 (hc i j g hi hj)
        have c1 := hcol false
        have c2 := hcol true
        simp only [cond_false, cond_true] at c1 c2
        obtain ⟨a', b', g', s', h5, h6, h7⟩ := ih (a + (c false).color) (b + (c true).color)
          (Pcg.real01 (R := Fl F) (Pcg.real01 (R := Fl F) g).2).2 (c true).state (by
            dsimp only at hx hy
            rw [hx, hy]; exact h1.add hxy) h4
        refine ⟨a', b', g', s', ?_, ?_, h7⟩
        · rw [sampleLoop, sample]
          dsimp only
          rw [c1]
          dsimp only
          rw [h3]
          exact h5
        · rw [sampleLoop, sample]
          dsimp only
          rw [c2]
          exact h6
    obtain ⟨a, b, g', s', h2, h3, h4, h5⟩ := hloop sc.samples ![0, 0, 0] ![0, 0, 0] g s
      (fun i => by rw [cv_zero_vec, cv_apply, le_fin]; simp) h1
    obtain ⟨p, q, hp, hq, hpq⟩ := (h4.div hn).pixel
    refine ⟨p, q, g', s', ?_, ?_, hpq, h5⟩
    · unfold task
      rw [h2]
      dsimp only
      rw [hn', hp]
      rfl
    · unfold task
      rw [h3]
      dsimp only
      rw [hn', hq]
      rfl
  have hrun : ∀ (ts : List (ℕ × ℕ)) (g : Pcg) (s : S), (∀ t ∈ ts, t.1 < sc.width ∧ t.2 < sc.height) → Inv s →
      ∃ l l', run { sc with world := dim, background := bg } ts (g, s) = some l ∧ run sc ts (g, s) = some l' ∧
        List.Forall₂ (fun x y => x.1 = y.1 ∧ ∀ k, x.2 k ≤ y.2 k) l l' := by
    intro ts
    induction ts with
    | nil => exact fun _ _ _ _ => ⟨[], [], rfl, rfl, .nil⟩
    | cons t ts ih =>
      intro g s h1 h2
      obtain ⟨i, j⟩ := t
      obtain ⟨p, q, g', s', h3, h3', h4, h5⟩ := htask i j g s (h1 _ List.mem_cons_self).1 (h1 _ List.mem_cons_self).2 h2
      obtain ⟨l, l', h6, h7, h8⟩ := ih g' s' (fun t ht => h1 t (List.mem_cons_of_mem _ ht)) h5
      refine ⟨((i, j), p) :: l, ((i, j), q) :: l', ?_, ?_, .cons ⟨rfl, h4⟩ h8⟩
      · rw [run, h3]
        dsimp only
        rw [h6]
        rfl
      · rw [run, h3']
        dsimp only
        rw [h7]
        rfl
  obtain ⟨l, l', h1, h2, h3⟩ := hrun (tasks sc.width rows) seed s (by
    rintro ⟨i, j⟩ ht
    rw [mem_tasks] at ht
    exact ⟨ht.1, List.mem_range.1 (hrows.mem_iff.1 ht.2)⟩) hi
  obtain ⟨img, h4, h5, -⟩ := C83_image { sc with world := dim, background := bg } rows hrows s (by
    dsimp only
    rw [h1]; rfl)
  obtain ⟨img', h6, h7, -⟩ := C83_image sc rows hrows s (by rw [h2]; rfl)
  refine ⟨img, img', h4, h6, h5, h7, ?_⟩
  have h8 : List.Forall₂ (fun x y => x.1 = y.1 ∧ x.2 ≤ y.2) (stores sc.width sc.height l) (stores sc.width sc.height l') := by
    clear h1 h2
    induction h3 with
    | nil => exact .nil
    | @cons x y l l' hxy _ ih =>
      simp only [stores, List.flatMap_cons]
      refine List.rel_append (.cons ?_ (.cons ?_ (.cons ?_ (.cons ?_ .nil)))) ih
      all_goals exact ⟨by dsimp only; rw [hxy.1], hxy.2 _⟩
  have h9 : List.Forall₂ (· ≤ ·) img img' := by
    refine store_below (a := blank sc.width sc.height) (b := blank sc.width sc.height) (List.forall₂_same.2 fun _ _ => UInt8.le_refl _) h8 ?_ ?_
    · rw [image] at h4
      dsimp only at h4
      rw [h1] at h4
      exact h4
    · rw [image, h2] at h6
      exact h6
  intro k x y hx hy
  rw [List.forall₂_iff_get] at h9
  obtain ⟨k1, rfl⟩ := List.getElem?_eq_some_iff.1 hx
  obtain ⟨k2, rfl⟩ := List.getElem?_eq_some_iff.1 hy
  exact h9.2 k k1 k2

/-- The picture of cylinder.cpp in `double`, and the same scene with the lamp turned down from 3 to 1. -/
example (rec0 temp0 : HitRecord (Fl binary64)) : ∃ img img',
    image { CylinderProgram.scene rec0 temp0 with world := (⟨(CylinderProgram.objects (R := Fl binary64)).objects,
      [Material.diffuseLight (solidColor ![1, 1, 1]), Material.lambertian (solidColor ![0, 0, 1]) id (fun g _ => g)]⟩ :
        HittableList (Fl binary64) (Material (Fl binary64) Pcg)).world temp0, background := ![0, 0, 0] } (List.range 750) lambertianSeed = some img ∧
    image (CylinderProgram.scene rec0 temp0) (List.range 750) lambertianSeed = some img' ∧
    img.length = 4 * 1200 * 750 ∧ img'.length = 4 * 1200 * 750 ∧ ∀ (k : ℕ) (x y : UInt8), img[k]? = some x → img'[k]? = some y → x ≤ y := by
  have hq : ExactQuarters binary64 := exactQuarters_ieee (by norm_num) (by norm_num) (by norm_num)
  refine C121_brighter (CylinderProgram.scene rec0 temp0) _ _ ?_ ⟨0, 0, cv_zero_vec, cv_zero_vec, fun _ => ⟨le_rfl, le_rfl⟩⟩
    (Inv := fun g : Pcg => g.inc = 234121#64) (Good := fun _ => True) (L := 3)
    (HittableList.sound rfl ?_ rec0 temp0) (by norm_num) (Fmt.Rounding.small 3 (by norm_num))
    ⟨0, cv_zero_vec, fun _ => ⟨le_rfl, by norm_num⟩⟩
    (fun _ _ _ _ _ => trivial) 16 (by norm_num) (lit_small 16 (by norm_num)) _ (List.Perm.refl _) lambertianSeed rfl
  · have := lightings_list (F := binary64) (E := Brighter) (CylinderProgram.objects (R := Fl binary64)).objects
      [fun k => Material.diffuseLight (solidColor (bif k then ![3, 3, 3] else ![1, 1, 1])), fun _ => Material.lambertian (solidColor ![0, 0, 1]) id (fun g _ => g)]
      (by
        simp only [List.mem_cons, List.not_mem_nil, or_false]
        rintro m (rfl | rfl) k l <;> rfl)
      (by
        simp only [List.mem_cons, List.not_mem_nil, or_false]
        rintro m (rfl | rfl) rec
        · refine ⟨fun _ => 1, fun _ => 3, ?_, ?_, fun _ => by norm_num⟩
          · funext i
            fin_cases i <;> exact rone
          · funext i
            fin_cases i <;> exact (lit_small 3 (by norm_num)).trans (congrArg fin (by norm_num))
        · exact ⟨0, 0, cv_zero_vec, cv_zero_vec, fun _ => ⟨le_rfl, le_rfl⟩⟩) temp0
    intro s r tmin tmax rec
    have h := this s r tmin tmax rec
    have e : ∀ k : Bool, (bif k then (CylinderProgram.scene rec0 temp0).world else (⟨(CylinderProgram.objects (R := Fl binary64)).objects,
      [Material.diffuseLight (solidColor ![1, 1, 1]), Material.lambertian (solidColor ![0, 0, 1]) id (fun g _ => g)]⟩ :
        HittableList (Fl binary64) (Material (Fl binary64) Pcg)).world temp0) = (⟨(CylinderProgram.objects (R := Fl binary64)).objects,
      List.map (fun m => m k) [fun k => Material.diffuseLight (solidColor (bif k then ![3, 3, 3] else ![1, 1, 1])),
        fun _ => Material.lambertian (solidColor ![0, 0, 1]) id (fun g _ => g)]⟩ : HittableList (Fl binary64) (Material (Fl binary64) Pcg)).world temp0 := by
      intro k
      cases k <;> rfl
    simp only [e]
    exact h
  · intro m hm
    simp only [CylinderProgram.objects, HittableList.add, HittableList.empty, List.nil_append, List.cons_append, List.mem_cons, List.not_mem_nil,
      or_false] at hm
    rcases hm with rfl | rfl
    · exact fine_light fun rec => colorIn_vec (nat_between (by norm_num) (by norm_num)) (nat_between (by norm_num) (by norm_num))
        (nat_between (by norm_num) (by norm_num))
    · exact fine_lambertian hq (fun rec => colorIn_vec (nat_between (by norm_num) (by norm_num)) (nat_between (by norm_num) (by norm_num))
        (nat_between (by norm_num) (by norm_num))) (fun s h => h) (fun s g _ h => h)

end DRT
