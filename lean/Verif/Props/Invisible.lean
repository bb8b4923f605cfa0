import Verif.Props.Glass
import Verif.Props.Box

/-!
# C140: glass of index 1 is invisible

`helicoid.cpp:50` makes a `dielectric` of refractive index 1, that of the surrounding air, to get a surface that only emits
light. Such a surface should let every ray pass without a change. The theorems follow `dielectric::scatter`
(dielectric.hpp:33-56) and `ray_color` (ray_color.hpp:9-33).
-/

namespace DRT
open Scalar Fl Matrix

variable {F : Fmt}

/-- For index 1 Schlick's formula leaves only the fifth power. -/
theorem schlick_one (c : ℝ) : schlick c 1 = (1 - c) ^ 5 := by
  unfold schlick; norm_num

/-- A ray that goes on is a refracted one. -/
theorem Refracts.straight {n u : Fin 3 → ℝ} (h : u ⬝ᵥ n ≤ 0) : Refracts n u u 1 := ⟨h, by rw [one_smul]⟩

/-- C140, the part that holds: whichever side it comes from, a ray that meets glass of index 1 goes on in its direction, without
attenuation, if the random number `ξ` is at least `(1 - cos θ)^5`, where `θ` is the angle with the normal. -/
theorem C140_straight_partial [F.Exact] (ξ : ℝ) (o d u n : Fin 3 → ℝ) (hu : UnitOf d u) (rec : HitRecord (Fl F))
    (hr : rec.normal = cv n) (hn : n ⬝ᵥ n = 1) (hface : d ⬝ᵥ n ≤ 0) (hξ : (1 + u ⬝ᵥ n) ^ 5 ≤ ξ) :
    Dielectric.scatter (fin 1) (fin ξ) ⟨cv o, cv d⟩ rec = ⟨true, some (cv ![1, 1, 1]), some ⟨rec.p, cv u⟩⟩ := by
  obtain ⟨w, h, hw, ratio, hratio, -, -, h3⟩ := C77_scatter 1 ξ one_pos o d u n hu rec hr hn hface
  obtain rfl : ratio = 1 := by rw [hratio]; split <;> norm_num
  have hR := h3 (by nlinarith [sq_nonneg (u ⬝ᵥ n)]) (by rw [schlick_one, sub_neg_eq_add]; exact hξ)
  rw [h, Refracts.unique hn hw hu.1 hR (Refracts.straight (hu.facing hface))]

/-- C140 is false: if the random number is below `(1 - cos θ)^5` the ray is mirrored, and a mirrored ray does not go on unless it
runs along the surface. There are such random numbers in the unit interval for every ray that is not perpendicular to the surface. -/
theorem C140_mirror_false [F.Exact] (o d u n : Fin 3 → ℝ) (hu : UnitOf d u) (rec : HitRecord (Fl F)) (hr : rec.normal = cv n)
    (hn : n ⬝ᵥ n = 1) (hface : d ⬝ᵥ n < 0) (hperp : u ≠ -n) :
    0 < (1 + u ⬝ᵥ n) ^ 5 ∧ (1 + u ⬝ᵥ n) ^ 5 < 1 ∧ ∀ ξ : ℝ, ξ < (1 + u ⬝ᵥ n) ^ 5 → ∃ w, Mirrors n u w ∧ w ≠ u ∧
      Dielectric.scatter (fin 1) (fin ξ) ⟨cv o, cv d⟩ rec = ⟨true, some (cv ![1, 1, 1]), some ⟨rec.p, cv w⟩⟩ := by
  have hlt : u ⬝ᵥ n < 0 := by
    obtain ⟨c, hc, rfl⟩ := hu.2
    rw [smul_dotProduct, smul_eq_mul] at hface
    nlinarith
  have hgt : 0 < 1 + u ⬝ᵥ n := by
    have h : (u + n) ⬝ᵥ (u + n) = 2 * (1 + u ⬝ᵥ n) := by
      rw [add_dotProduct, dotProduct_add, dotProduct_add, hu.1, hn, dotProduct_comm n u]; ring
    have h0 := dotProduct_self_nonneg' (u + n)
    rcases h0.lt_or_eq with h1 | h1
    · linarith
    · exact absurd (eq_neg_of_add_eq_zero_left (dotProduct_self_eq_zero.mp h1.symm)) hperp
  refine ⟨by positivity, pow_lt_one₀ hgt.le (by linarith) (by norm_num), fun ξ hξ => ?_⟩
  obtain ⟨w, h, hw, ratio, hratio, -, h2, -⟩ := C77_scatter 1 ξ one_pos o d u n hu rec hr hn hface.le
  obtain rfl : ratio = 1 := by rw [hratio]; split <;> norm_num
  have hM := h2 (by nlinarith [sq_nonneg (u ⬝ᵥ n)]) (by rw [schlick_one, sub_neg_eq_add]; exact hξ)
  refine ⟨w, hM, ?_, h⟩
  rintro rfl
  have := hM.1
  linarith

/-- A ray with cosine 3/5: it goes on for the random number 1/2 and is mirrored for 1/100. -/
example (rec : HitRecord (Fl exact64)) (hr : rec.normal = cv ![0, 0, 1]) :
    (Dielectric.scatter (fin 1) (fin (1 / 2)) ⟨cv ![0, 0, 5], cv ![4, 0, -3]⟩ rec).ray = some ⟨rec.p, cv ![4 / 5, 0, -3 / 5]⟩ ∧
    (Dielectric.scatter (fin 1) (fin (1 / 100)) ⟨cv ![0, 0, 5], cv ![4, 0, -3]⟩ rec).ray ≠ some ⟨rec.p, cv ![4 / 5, 0, -3 / 5]⟩ := by
  have hu : UnitOf ![4, 0, -3] ![4 / 5, 0, -3 / 5] :=
    ⟨by simp [dotProduct, Fin.sum_univ_three]; norm_num, 5, by norm_num, by ext i; fin_cases i <;> simp <;> norm_num⟩
  have hn : (![0, 0, 1] : Fin 3 → ℝ) ⬝ᵥ ![0, 0, 1] = 1 := by simp [dotProduct, Fin.sum_univ_three]
  constructor
  · rw [C140_straight_partial (F := exact64) _ _ _ _ _ hu rec hr hn (by simp [dotProduct, Fin.sum_univ_three])
      (by simp [dotProduct, Fin.sum_univ_three]; norm_num)]
  · obtain ⟨-, -, h⟩ := C140_mirror_false (F := exact64) ![0, 0, 5] _ _ _ hu rec hr hn (by simp [dotProduct, Fin.sum_univ_three])
      (by intro h; have := congrFun h 0; simp at this)
    obtain ⟨w, -, hw, e⟩ := h (1 / 100) (by simp [dotProduct, Fin.sum_univ_three]; norm_num)
    rw [e]
    simp only [ne_eq, Option.some.injEq, Ray.mk.injEq, true_and]
    exact fun h => hw (cv_inj.mp h)

/-! ## Rows of panes -/

variable {S : Type}

/-- A row of `n` panes of glass of index 1, each a square of side 2 across the third axis, at the heights 1 to `n`. -/
noncomputable def panes (F : Fmt) [F.Exact] (draw : S → Fl F × S) : ℕ → HittableList (Fl F) (Material (Fl F) S)
  | 0 => HittableList.empty
  | n + 1 => (panes F draw n).add (Rect.xy (Rect.ofReal (-1) 1 (-1) 1 ((n : ℝ) + 1)))
      (Material.dielectric (fin 1) (solidColor (cv 0)) draw)

namespace Panes

variable [F.Exact] (draw : S → Fl F × S)

theorem lists (n : ℕ) :
    (panes F draw n).objects = (List.range n).map (fun k : ℕ => Rect.xy (Rect.ofReal (-1) 1 (-1) 1 ((k : ℝ) + 1))) ∧
    (panes F draw n).materials = (List.range n).map fun _ => Material.dielectric (fin 1) (solidColor (cv 0)) draw := by
  induction n with
  | zero => exact ⟨rfl, rfl⟩
  | succ n ih =>
    rw [List.range_succ, List.map_append, List.map_append, ← ih.1, ← ih.2]
    exact ⟨rfl, rfl⟩

theorem object {n k : ℕ} {ob : Hittable (Fl F)} (h : (panes F draw n).objects[k]? = some ob) :
    k < n ∧ ob = Rect.xy (Rect.ofReal (-1) 1 (-1) 1 ((k : ℝ) + 1)) := by
  rw [(lists draw n).1] at h
  have hk : k < n := by simpa using (List.getElem?_eq_some_iff.mp h).1
  refine ⟨hk, ?_⟩
  simpa [hk] using h.symm

theorem material {n k : ℕ} {m : Material (Fl F) S} (h : (panes F draw n).materials[k]? = some m) :
    m = Material.dielectric (fin 1) (solidColor (cv 0)) draw := by
  rw [(lists draw n).2] at h
  have hk : k < n := by simpa using (List.getElem?_eq_some_iff.mp h).1
  simpa [hk] using h.symm

/-- Where the ray up the axis meets the planes of the panes. -/
theorem mem (h k : ℕ) (z : ℝ) : (![0, 0, (h : ℝ)] + z • ![0, 0, 1] : Fin 3 → ℝ) ∈ rectSet 0 1 2 (-1) 1 (-1) 1 ((k : ℝ) + 1) ↔
    z = (k : ℝ) + 1 - h := by
  unfold rectSet
  simp
  constructor
  · intro h; linarith
  · intro h; linarith

/-- The next pane above the height `h`: what the list reports to a ray up the axis. -/
theorem next (he : 1000 * F.eps ≤ 1) (n h : ℕ) (hn : h ≤ n) (rec temp0 : HitRecord (Fl F)) :
    let out := (panes F draw n).hit ⟨cv ![0, 0, (h : ℝ)], cv ![0, 0, 1]⟩ (1000 * eps) inf rec temp0
    if h < n then out.1 = some (some (Material.dielectric (fin 1) (solidColor (cv 0)) draw)) ∧
      out.2.p = cv ![0, 0, ((h + 1 : ℕ) : ℝ)] ∧ out.2.normal = cv ![0, 0, -1]
    else out.1 = some none := by
  have e : (1000 * eps : Fl F) = fin (1000 * F.eps) := by simp only [fl]; norm_num
  have hp := Fmt.Exact.eps_pos (F := F)
  intro out
  have hS : ∀ (k : ℕ) ob, (panes F draw n).objects[k]? = some ob → FindsNearest (rectSet 0 1 2 (-1) 1 (-1) 1 ((k : ℝ) + 1))
      ![0, 0, (h : ℝ)] ![0, 0, 1] (1000 * eps) (ob.hit ⟨cv ![0, 0, (h : ℝ)], cv ![0, 0, 1]⟩ (1000 * eps)) := by
    intro k ob hk
    obtain ⟨-, rfl⟩ := object draw hk
    rw [e]
    exact (C59_exact_partial (F := F) _ _ _ _ _ _ _ (fin _) rfl).1 (by show (1:ℝ) ≠ 0; norm_num)
  have hlen : (panes F draw n).materials.length = (panes F draw n).objects.length := by
    rw [(lists draw n).1, (lists draw n).2, List.length_map, List.length_map]
  have hln : (panes F draw n).objects.length = n := by rw [(lists draw n).1, List.length_map, List.length_range]
  obtain ⟨h1, h2, h3⟩ := C106_scene (panes F draw n) hlen (fun k => rectSet 0 1 2 (-1) 1 (-1) 1 ((k : ℝ) + 1)) ![0, 0, (h : ℝ)] ![0, 0, 1]
    (1000 * eps) inf rfl rec temp0 hS
  have hb : ∀ z : ℝ, Before ((1000 * eps : Fl F), inf) z ↔ 1000 * F.eps ≤ z := by
    intro z; rw [e]; unfold Before; simp [inf]
  simp only [hb, mem, hln] at h1 h2
  split_ifs with hlt
  · cases ho : out.1 with
    | none => exact absurd ho h3
    | some x =>
      cases x with
      | none => exact absurd rfl (h1.mp ho h hlt _ (by linarith))
      | some m =>
        obtain ⟨k, z, hk, -, hz, hzk, hz1, hmin⟩ := h2 m ho
        obtain rfl := material draw hk
        refine ⟨rfl, ?_, ?_⟩
        · have hle := hmin h hlt 1 (by linarith) (by ring)
          have hzk' : z = (k : ℝ) + 1 - h := hzk
          have : (h : ℝ) ≤ k := by
            by_contra hc
            have : k + 1 ≤ h := by exact_mod_cast not_le.mp hc
            have : (k : ℝ) + 1 ≤ h := by exact_mod_cast this
            linarith
          have hz' : z = 1 := by linarith
          rw [hz, hz']
          congr 1
          ext i; fin_cases i <;> simp
        · obtain ⟨-, -, k', ob, -, hob, c, temp, hhit⟩ := C40_hit_sane _ _ _ _ _ _ _ ho
          obtain ⟨-, rfl⟩ := object draw hob
          obtain ⟨p, -, -, u, v, -, -, -, -, -, -, -, -, m', hm', hmm, hd⟩ :=
            (C60_record (F := F) (-1) 1 (-1) 1 _ (by norm_num) (by norm_num) _ _ _ _ _).1 _ (by show (1:ℝ) ≠ 0; norm_num) hhit
          show out.2.normal = _
          rw [hm']
          rcases hmm with rfl | rfl
          · simp [dotProduct, Fin.sum_univ_three] at hd
            linarith
          · congr 1
            ext i; fin_cases i <;> simp
  · obtain rfl : h = n := le_antisymm hn (not_lt.mp hlt)
    rw [h1]
    intro k hk z hz hzk
    have : (k : ℝ) + 1 ≤ h := by exact_mod_cast hk
    linarith

end Panes

/-- C140, pictures: the colour seen along a ray that is perpendicular to `n` panes of glass of index 1, of which `n - h` are ahead. It is
that of the background if the depth exceeds the number of panes ahead, and black otherwise: each pane uses up a level of `depth`. -/
theorem C140_panes_partial [F.Exact] (he : 1000 * F.eps ≤ 1) (draw : S → Fl F × S) (hdraw : ∀ s, ∃ ξ : ℝ, (draw s).1 = fin ξ ∧ 0 ≤ ξ)
    (B : Fin 3 → ℝ) (rec0 temp0 : HitRecord (Fl F)) (n depth : ℕ) : ∀ h ≤ n, ∀ s : S,
    ∃ s' q, rayColor ((panes F draw n).world temp0) (cv B) rec0 depth s ⟨cv ![0, 0, (h : ℝ)], cv ![0, 0, 1]⟩ =
      some ⟨if n - h < depth then cv B else cv 0, s', q⟩ := by
  induction depth with
  | zero => intro h _ s; exact ⟨s, 0, by rw [if_neg (by omega)]; exact congrArg some (congrArg (Shade.mk · s 0) cv_zero_vec)⟩
  | succ depth ih =>
    intro h hh s
    have hx := Panes.next draw he n h hh rec0 temp0
    unfold rayColor HittableList.world
    dsimp only at hx ⊢
    split_ifs at hx with hlt
    · obtain ⟨h1, h2, h3⟩ := hx
      obtain ⟨ξ, hξ, hξ0⟩ := hdraw s
      have hu : UnitOf ![0, 0, 1] ![0, 0, 1] := ⟨by simp [dotProduct, Fin.sum_univ_three], 1, one_pos, by rw [one_smul]⟩
      have hsc := C140_straight_partial (F := F) ξ ![0, 0, (h : ℝ)] _ _ _ hu _ h3 (by simp [dotProduct, Fin.sum_univ_three])
        (by simp [dotProduct, Fin.sum_univ_three]) (by simpa [dotProduct, Fin.sum_univ_three] using hξ0)
      obtain ⟨s', q, hr⟩ := ih (h + 1) hlt (draw s).2
      refine ⟨s', q + 1, ?_⟩
      rw [h1]
      simp only [Option.map_some, Material.dielectric, hξ, hsc, if_true]
      rw [h2]
      have hr' : rayColor (fun s r tmin tmax rec => Option.map (fun m => (m, ((panes F draw n).hit r tmin tmax rec temp0).2, s))
          ((panes F draw n).hit r tmin tmax rec temp0).1) (cv B) rec0 depth (draw s).2 ⟨cv ![0, 0, ((h + 1 : ℕ) : ℝ)], cv ![0, 0, 1]⟩ =
          some ⟨if n - (h + 1) < depth then cv B else cv 0, s', q⟩ := hr
      rw [hr']
      have hiff : n - (h + 1) < depth ↔ n - h < depth + 1 := by omega
      simp only [hiff, Dielectric.emitted, solidColor]
      congr 2
      split <;>
      · ext i
        rw [Pi.add_apply]; fin_cases i <;> simp [cv]
    · rw [hx]
      obtain rfl : h = n := le_antisymm hh (not_lt.mp hlt)
      exact ⟨s, 1, by simp⟩

/-- C140 is false even for perpendicular rays: `render_scene` traces to depth 8, so that eight or more clear panes, whatever the random
numbers, hide the background completely; seven or fewer are invisible. -/
theorem C140_eight_false [F.Exact] (he : 1000 * F.eps ≤ 1) (draw : S → Fl F × S) (hdraw : ∀ s, ∃ ξ : ℝ, (draw s).1 = fin ξ ∧ 0 ≤ ξ)
    (B : Fin 3 → ℝ) (rec0 temp0 : HitRecord (Fl F)) (n : ℕ) (s : S) :
    ∃ s' q, rayColor ((panes F draw n).world temp0) (cv B) rec0 8 s ⟨cv ![0, 0, 0], cv ![0, 0, 1]⟩ =
      some ⟨if n ≤ 7 then cv B else cv 0, s', q⟩ := by
  obtain ⟨s', q, h⟩ := C140_panes_partial he draw hdraw B rec0 temp0 n 8 0 (Nat.zero_le n) s
  rw [Nat.cast_zero] at h
  refine ⟨s', q, h.trans ?_⟩
  have : n - 0 < 8 ↔ n ≤ 7 := by omega
  simp only [this]

/-- Eight panes before a white sky are black. -/
example (rec0 temp0 : HitRecord (Fl exact64)) (s : Unit) : ∃ s' q,
    rayColor ((panes exact64 (fun s : Unit => (fin (1 / 2), s)) 8).world temp0) (cv ![1, 1, 1]) rec0 8 s ⟨cv ![0, 0, 0], cv ![0, 0, 1]⟩ =
      some ⟨cv 0, s', q⟩ := by
  have he : 1000 * exact64.eps ≤ 1 := by simp only [exact64]; norm_num
  simpa using C140_eight_false he (fun s : Unit => (fin (1 / 2), s)) (fun s => ⟨1 / 2, rfl, by norm_num⟩) ![1, 1, 1] rec0 temp0 8 s

end DRT
