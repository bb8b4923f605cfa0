import Verif.Props.FoggyGlass

/-!
# C155: one query of a fog after another

A path crosses a fog many times, and every crossing asks `constant_medium::hit` (constant_medium.hpp:41-75) for a new random number. The
numbers are ideal here: independent and uniform. The theorems say that the answers are then independent.
-/

namespace DRT
open Scalar Fl Matrix MeasureTheory

variable {F : Fmt}

/-- What a caller asks: a ray, the range of its parameter and the record to be filled. -/
abbrev Query (R : Type) := Ray R × R × R × HitRecord R

/-- The answers of an object to queries that are made one after the other. -/
def answers {R S : Type} (o : RandomHittable R S) : List (Query R) → S → List Bool
  | [], _ => []
  | q :: qs, s => (o.hit s q.1 q.2.1 q.2.2.1 q.2.2.2).1 :: answers o qs (o.hit s q.1 q.2.1 q.2.2.1 q.2.2.2).2.2

/-- `num s j` is the number that comes after `j` others in the state `s`, and `draw` takes the first of them. -/
def DrawsFrom {R S : Type} (draw : S → R × S) (num : S → ℕ → R) : Prop :=
  ∀ s, (draw s).1 = num s 0 ∧ ∀ j, num (draw s).2 j = num s (j + 1)

theorem answers_medium {R S : Type} [Scalar R] (m : ConstantMedium R) (rec1 rec2 : HitRecord R) {draw : S → R × S} {num : S → ℕ → R}
    (hdraw : DrawsFrom draw num) (qs : List (Query R)) (s : S) (i : ℕ) :
    (answers (.ofMedium m rec1 rec2 draw) qs s)[i]? =
      qs[i]?.map fun q => (m.hit (num s i) rec1 rec2 q.1 q.2.1 q.2.2.1 q.2.2.2).1 := by
  induction qs generalizing s i with
  | nil => rfl
  | cons q qs ih =>
    unfold answers
    cases i with
    | zero =>
      rw [List.getElem?_cons_zero, List.getElem?_cons_zero, Option.map_some]
      show some (m.hit (draw s).1 rec1 rec2 q.1 q.2.1 q.2.2.1 q.2.2.2).1 = _
      rw [(hdraw s).1]
    | succ i =>
      rw [List.getElem?_cons_succ, List.getElem?_cons_succ, ih]
      show (qs[i]?.map fun q => (m.hit (num (draw s).2 i) rec1 rec2 q.1 q.2.1 q.2.2.1 q.2.2.2).1) = _
      rw [(hdraw s).2]

/-- C155: `n` rays that cross a body are asked one after the other. With independent uniform random numbers every sequence of answers has the
product of the single chances, whatever the rays and their ranges are: a ray is stopped with the chance `1 - exp (-k L)`. -/
theorem C155_independent [F.Exact] {T : Type} {S K : Set (Fin 3 → ℝ)} {n : ℕ} {o d : Fin n → Fin 3 → ℝ} {e x : Fin n → ℝ} (b : Hittable (Fl F))
    (hb : ∀ i, ∀ tmin : Fl F, FindsNearest S (o i) (d i) tmin (b.hit ⟨cv (o i), cv (d i)⟩ tmin))
    (hS : ∀ i t, o i + t • d i ∈ S ↔ t = e i ∨ t = x i) (hK : ∀ i t, o i + t • d i ∈ K ↔ e i ≤ t ∧ t ≤ x i)
    (hgap : ∀ i, e i + 100 * F.eps ≤ x i) {k : ℝ} (hk : 0 < k) {tmin tmax : Fin n → Fl F} (hmin : ∀ i, isNaN (tmin i) = false)
    (hmax : ∀ i, isNaN (tmax i) = false) (rec1 rec2 : HitRecord (Fl F)) (rec : Fin n → HitRecord (Fl F))
    {draw : T → Fl F × T} {num : T → ℕ → Fl F} (hdraw : DrawsFrom draw num) (state : (Fin n → ℝ) → T)
    (hstate : ∀ ξ (i : Fin n), num (state ξ) i = fin (ξ i)) (w : Fin n → Bool) :
    volume {ξ : Fin n → ℝ | (∀ i, 0 ≤ ξ i ∧ ξ i < 1) ∧
        answers (.ofMedium (ConstantMedium.make b (fin k)) rec1 rec2 draw)
          (List.ofFn fun i => (⟨cv (o i), cv (d i)⟩, tmin i, tmax i, rec i)) (state ξ) = List.ofFn w} =
      ∏ i, ENNReal.ofReal (if w i then 1 - Real.exp (-(k * fogLength K (o i) (d i) (tmin i, tmax i)))
        else Real.exp (-(k * fogLength K (o i) (d i) (tmin i, tmax i)))) := by
  have hset : {ξ : Fin n → ℝ | (∀ i, 0 ≤ ξ i ∧ ξ i < 1) ∧
        answers (.ofMedium (ConstantMedium.make b (fin k)) rec1 rec2 draw)
          (List.ofFn fun i => (⟨cv (o i), cv (d i)⟩, tmin i, tmax i, rec i)) (state ξ) = List.ofFn w} =
      Set.pi Set.univ fun i => {z : ℝ | (0 ≤ z ∧ z < 1) ∧
        ((ConstantMedium.make b (fin k)).hit (fin z) rec1 rec2 ⟨cv (o i), cv (d i)⟩ (tmin i) (tmax i) (rec i)).1 = w i} := by
    ext ξ
    rw [Set.mem_ofPred_eq, Set.mem_univ_pi]
    simp only [Set.mem_ofPred_eq]
    refine Iff.trans ?_ forall_and.symm
    refine and_congr_right fun _ => ?_
    rw [List.ext_getElem?_iff]
    simp only [answers_medium _ _ _ hdraw, List.getElem?_ofFn]
    constructor
    · intro h i
      have := h i
      rw [dif_pos i.2, dif_pos i.2, Option.map_some, hstate] at this
      exact Option.some.inj this
    · intro h j
      by_cases hj : j < n
      · rw [dif_pos hj, dif_pos hj, Option.map_some]
        have := h ⟨j, hj⟩
        rw [← this, ← hstate]
      · rw [dif_neg hj, dif_neg hj, Option.map_none]
  rw [hset, volume_pi_pi]
  refine Finset.prod_congr rfl fun i _ => ?_
  obtain ⟨h1, h2⟩ := medium_passes b (hb i) (hS i) (hK i) (hgap i) hk (hmin i) (hmax i) rec1 rec2 (rec i)
  have hp := Real.exp_pos (-(k * fogLength K (o i) (d i) (tmin i, tmax i)))
  cases hw : w i
  · rw [h2, Real.volume_Ico, sub_zero]; rfl
  · have h3 : {z : ℝ | (0 ≤ z ∧ z < 1) ∧
        ((ConstantMedium.make b (fin k)).hit (fin z) rec1 rec2 ⟨cv (o i), cv (d i)⟩ (tmin i) (tmax i) (rec i)).1 = true} =
        Set.Ico (Real.exp (-(k * fogLength K (o i) (d i) (tmin i, tmax i)))) 1 := by
      ext z
      have h := Set.ext_iff.mp h2 z
      rw [Set.mem_ofPred_eq, Set.mem_Ico] at h
      rw [Set.mem_ofPred_eq, Set.mem_Ico]
      constructor
      · rintro ⟨⟨a1, a2⟩, a3⟩
        refine ⟨?_, a2⟩
        by_contra hc
        have := (h.mpr ⟨a1, not_le.mp hc⟩).2
        rw [a3] at this; cases this
      · rintro ⟨a1, a2⟩
        refine ⟨⟨by linarith, a2⟩, ?_⟩
        by_contra hc
        have := (h.mp ⟨⟨by linarith, a2⟩, by simpa using hc⟩).2
        linarith
    rw [h3, Real.volume_Ico]; rfl

/-- C155: the chance to pass all crossings depends only on the total length of the ways through the body: a fog forgets how the way was cut
into pieces. -/
theorem C155_total [F.Exact] {T : Type} {S K : Set (Fin 3 → ℝ)} {n : ℕ} {o d : Fin n → Fin 3 → ℝ} {e x : Fin n → ℝ} (b : Hittable (Fl F))
    (hb : ∀ i, ∀ tmin : Fl F, FindsNearest S (o i) (d i) tmin (b.hit ⟨cv (o i), cv (d i)⟩ tmin))
    (hS : ∀ i t, o i + t • d i ∈ S ↔ t = e i ∨ t = x i) (hK : ∀ i t, o i + t • d i ∈ K ↔ e i ≤ t ∧ t ≤ x i)
    (hgap : ∀ i, e i + 100 * F.eps ≤ x i) {k : ℝ} (hk : 0 < k) {tmin tmax : Fin n → Fl F} (hmin : ∀ i, isNaN (tmin i) = false)
    (hmax : ∀ i, isNaN (tmax i) = false) (rec1 rec2 : HitRecord (Fl F)) (rec : Fin n → HitRecord (Fl F))
    {draw : T → Fl F × T} {num : T → ℕ → Fl F} (hdraw : DrawsFrom draw num) (state : (Fin n → ℝ) → T)
    (hstate : ∀ ξ (i : Fin n), num (state ξ) i = fin (ξ i)) :
    volume {ξ : Fin n → ℝ | (∀ i, 0 ≤ ξ i ∧ ξ i < 1) ∧
        true ∉ answers (.ofMedium (ConstantMedium.make b (fin k)) rec1 rec2 draw)
          (List.ofFn fun i => (⟨cv (o i), cv (d i)⟩, tmin i, tmax i, rec i)) (state ξ)} =
      ENNReal.ofReal (Real.exp (-(k * ∑ i, fogLength K (o i) (d i) (tmin i, tmax i)))) := by
  have h := C155_independent b hb hS hK hgap hk hmin hmax rec1 rec2 rec hdraw state hstate (fun _ => false)
  simp only [Bool.false_eq_true, if_false] at h
  rw [← ENNReal.ofReal_prod_of_nonneg fun i _ => (Real.exp_pos _).le, ← Real.exp_sum, Finset.sum_neg_distrib, ← Finset.mul_sum] at h
  rw [← h]
  congr 1
  ext ξ
  rw [Set.mem_ofPred_eq, Set.mem_ofPred_eq]
  refine and_congr_right fun _ => ?_
  have len : ∀ qs s, (answers (.ofMedium (ConstantMedium.make b (fin k)) rec1 rec2 draw) qs s).length = qs.length := by
    intro qs
    induction qs with
    | nil => intro s; rfl
    | cons q qs ih => intro s; unfold answers; rw [List.length_cons, List.length_cons, ih]
  rw [List.ofFn_const, List.eq_replicate_iff, len, List.length_ofFn]
  refine ⟨fun ht => ⟨rfl, fun c hc => ?_⟩, fun ht hc => ?_⟩
  · cases c
    · rfl
    · exact absurd hc ht
  · cases ht.2 _ hc

/-- C155: the fog of ellipsoid.cpp takes its numbers from the second stream of the state, one for each query, and leaves the others alone. -/
theorem C155_program [F.Exact] (rec1 rec2 : HitRecord (Fl F)) (fog : RandomHittable (Fl F) (EllipsoidProgram.State (Fl F)))
    (hfog : (EllipsoidProgram.objects rec1 rec2)[2]? = some fog) (c s : Fin 3 → ℝ)
    (hb : (EllipsoidProgram.boundary : Ellipsoid (Fl F)) = Ellipsoid.ofReal c s) {n : ℕ} (o d : Fin n → Fin 3 → ℝ)
    (hd : ∀ i, F.tiny < scaled (d i) s ⬝ᵥ scaled (d i) s)
    (hod : ∀ i, scaled (o i - c) s ⬝ᵥ scaled (d i) s = 0 ∨ F.tiny < |2 * (scaled (o i - c) s ⬝ᵥ scaled (d i) s)|)
    {e x : Fin n → ℝ} (he : ∀ i, o i + e i • d i ∈ ellipsoidSet c s) (hx : ∀ i, o i + x i • d i ∈ ellipsoidSet c s)
    (hgap : ∀ i, e i + 100 * F.eps ≤ x i) {tmin tmax : Fin n → Fl F} (hmin : ∀ i, isNaN (tmin i) = false)
    (hmax : ∀ i, isNaN (tmax i) = false) (rec : Fin n → HitRecord (Fl F)) (st : EllipsoidProgram.State (Fl F)) (w : Fin n → Bool) :
    volume {ξ : Fin n → ℝ | (∀ i, 0 ≤ ξ i ∧ ξ i < 1) ∧
        answers fog (List.ofFn fun i => (⟨cv (o i), cv (d i)⟩, tmin i, tmax i, rec i))
          (st.1, (fun j => if h : j < n then fin (ξ ⟨j, h⟩) else st.2.1 j), st.2.2) = List.ofFn w} =
      ∏ i, ENNReal.ofReal (if w i then 1 - Real.exp (-(15 / 1000 * fogLength (ellipsoidBody c s) (o i) (d i) (tmin i, tmax i)))
        else Real.exp (-(15 / 1000 * fogLength (ellipsoidBody c s) (o i) (d i) (tmin i, tmax i)))) ∧
    ∀ r a z rec', (fog.hit st r a z rec').2.2.1 = st.1 ∧ (fog.hit st r a z rec').2.2.2.2 = st.2.2 := by
  have hs : ∀ i, s i ≠ 0 := by
    have h := hb
    rw [EllipsoidProgram.boundary_fin] at h
    unfold Ellipsoid.ofReal at h
    have h2 := (Ellipsoid.mk.inj h).2
    rw [cv_inj] at h2
    subst h2
    intro i
    fin_cases i <;> norm_num
  have hd0 : ∀ i, d i ≠ 0 := by
    intro i h
    have h0 : scaled 0 s ⬝ᵥ scaled 0 s = 0 := by simp [scaled, dotProduct]
    have := hd i
    rw [h, h0] at this
    linarith [Fmt.Exact.tiny_nonneg (F := F)]
  have heps := Fmt.Exact.eps_pos (F := F)
  have hl : (lit (15 / 1000) : Fl F) = fin (15 / 1000) := by rw [lit_def]; norm_num
  have hf : fog = .ofMedium (ConstantMedium.make (Ellipsoid.ofReal c s).toHittable (fin (15 / 1000))) rec1 rec2
      fun s => (s.2.1 0, (s.1, fun k => s.2.1 (k + 1), s.2.2)) := by
    rw [← hb, ← hl]
    exact (Option.some.inj hfog).symm
  subst hf
  refine ⟨?_, fun _ _ _ _ => ⟨rfl, rfl⟩⟩
  refine C155_independent (num := fun s => s.2.1) (Ellipsoid.ofReal c s).toHittable
    (fun i tmin => C51_nearest_partial c s hs (o i) (d i) tmin (hd i) (hod i))
    (fun i => (ellipsoid_chord hs (hd0 i) (by linarith [hgap i] : e i < x i) (he i) (hx i)).1)
    (fun i => (ellipsoid_chord hs (hd0 i) (by linarith [hgap i] : e i < x i) (he i) (hx i)).2)
    hgap (by norm_num) hmin hmax rec1 rec2 rec (fun s => ⟨rfl, fun _ => rfl⟩) _ (fun ξ i => ?_) w
  show (if h : (i : ℕ) < n then fin (ξ ⟨i, h⟩) else st.2.1 i) = fin (ξ i)
  rw [dif_pos i.2]

/-- Two rays straight through the middle: the first passes and the second is stopped with the product of the chances. -/
example (rec1 rec2 : HitRecord (Fl exact0)) (rec : Fin 2 → HitRecord (Fl exact0)) (st : EllipsoidProgram.State (Fl exact0)) :
    ∃ fog, (EllipsoidProgram.objects rec1 rec2)[2]? = some fog ∧
    volume {ξ : Fin 2 → ℝ | (∀ i, 0 ≤ ξ i ∧ ξ i < 1) ∧
      answers fog (List.ofFn fun i => (⟨cv ![260, 250, -600], cv ![0, 0, 1]⟩, fin 0, pinf, rec i))
        (st.1, (fun j => if h : j < 2 then fin (ξ ⟨j, h⟩) else st.2.1 j), st.2.2) = [false, true]} =
      ENNReal.ofReal (Real.exp (-(42 / 10))) * ENNReal.ofReal (1 - Real.exp (-(42 / 10))) := by
  have e1 : exact0.tiny = 0 := rfl
  have e2 : exact0.eps < 1 := Fmt.Exact.eps_lt
  have h := (C155_program (F := exact0) rec1 rec2 _ rfl _ _ EllipsoidProgram.boundary_fin (n := 2) (fun _ => ![260, 250, -600])
    (fun _ => ![0, 0, 1]) (fun _ => by rw [e1]; simp [scaled, dotProduct, Fin.sum_univ_three])
    (fun _ => Or.inr (by rw [e1, abs_pos]; simp [scaled, dotProduct, Fin.sum_univ_three]; norm_num))
    (fun _ => straight_crossings 505 (.inl rfl)) (fun _ => straight_crossings 785 (.inr rfl)) (fun _ => by linarith) (tmin := fun _ => fin 0)
    (tmax := fun _ => pinf) (fun _ => rfl) (fun _ => rfl) rec st ![false, true]).1
  refine ⟨_, rfl, ?_⟩
  rw [Fin.prod_univ_two, straight_length] at h
  have e3 : (15 / 1000 * 280 : ℝ) = 42 / 10 := by norm_num
  rw [e3] at h
  exact h

/-- Twice straight through the middle: the chance to pass is that of a way of length 560. -/
example (rec1 rec2 : HitRecord (Fl exact0)) (rec : Fin 2 → HitRecord (Fl exact0)) (rest : ℕ → Fl exact0) :
    volume {ξ : Fin 2 → ℝ | (∀ i, 0 ≤ ξ i ∧ ξ i < 1) ∧
      true ∉ answers (.ofMedium (ConstantMedium.make (Ellipsoid.ofReal (F := exact0) ![260, 250, 45] ![210, 385 / 2, 140]).toHittable
        (fin (1 / 100))) rec1 rec2 fun s : ℕ → Fl exact0 => (s 0, fun j => s (j + 1)))
        (List.ofFn fun i => (⟨cv ![260, 250, -600], cv ![0, 0, 1]⟩, fin 0, pinf, rec i))
        (fun j => if h : j < 2 then fin (ξ ⟨j, h⟩) else rest j)} = ENNReal.ofReal (Real.exp (-(56 / 10))) := by
  have e1 : exact0.tiny = 0 := rfl
  have e2 : exact0.eps < 1 := Fmt.Exact.eps_lt
  have hs : ∀ i, (![210, 385 / 2, 140] : Fin 3 → ℝ) i ≠ 0 := fun i => by fin_cases i <;> norm_num
  have hc := ellipsoid_chord (c := ![260, 250, 45]) (o := ![260, 250, -600]) (d := ![0, 0, 1]) (e := 505) (x := 785) hs
    (fun h => by have := congrFun h 2; simp at this) (by norm_num) (straight_crossings _ (.inl rfl)) (straight_crossings _ (.inr rfl))
  have h := C155_total (F := exact0) (n := 2) (k := 1 / 100) (o := fun _ => ![260, 250, -600]) (d := fun _ => ![0, 0, 1])
    (e := fun _ => 505) (x := fun _ => 785) (tmin := fun _ => fin 0) (tmax := fun _ => pinf) (num := fun s => s)
    (draw := fun s : ℕ → Fl exact0 => (s 0, fun j => s (j + 1)))
    (Ellipsoid.ofReal (F := exact0) ![260, 250, 45] ![210, 385 / 2, 140]).toHittable
    (fun _ tmin => C51_nearest_partial _ _ hs _ _ tmin (by rw [e1]; simp [scaled, dotProduct, Fin.sum_univ_three])
      (Or.inr (by rw [e1, abs_pos]; simp [scaled, dotProduct, Fin.sum_univ_three]; norm_num)))
    (fun _ => hc.1) (fun _ => hc.2) (fun _ => by linarith) (by norm_num) (fun _ => rfl) (fun _ => rfl) rec1 rec2 rec
    (fun s => ⟨rfl, fun _ => rfl⟩) (fun ξ j => if h : j < 2 then fin (ξ ⟨j, h⟩) else rest j)
    (fun ξ i => by rw [dif_pos i.2])
  rw [Fin.sum_univ_two, straight_length] at h
  rw [h]
  norm_num

end DRT
