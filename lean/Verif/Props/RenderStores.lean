import Verif.Model.Render
import Mathlib.Data.List.Perm.Subperm
import Mathlib.Algebra.BigOperators.Group.List.Basic
import Mathlib.Tactic.FinCases
import Mathlib.Algebra.Group.Nat.Defs
import Mathlib.Data.Fintype.Basic
import Mathlib.Data.List.Nodup
import Mathlib.Data.List.Range
import Mathlib.Tactic.Ring
import Mathlib.Tactic.Linarith

/-! # C83: the stores of `render_scene` -/

namespace DRT
open Scalar Render

namespace Render

/-- Stores to different addresses in range: all of them are in effect at the end, and nothing else has changed. -/
theorem foldl_store {α : Type} (ws : List (ℤ × α)) (a : List α) (hr : ∀ w ∈ ws, 0 ≤ w.1 ∧ w.1 < a.length) (hn : (ws.map Prod.fst).Nodup) :
    ∃ b, ws.foldl store (some a) = some b ∧ b.length = a.length ∧ (∀ w ∈ ws, b[w.1.toNat]? = some w.2) ∧
      ∀ n : ℕ, (n : ℤ) ∉ ws.map Prod.fst → b[n]? = a[n]? := by
  induction ws generalizing a with
  | nil => exact ⟨a, rfl, rfl, by simp, fun _ _ => rfl⟩
  | cons w ws ih =>
    have hw := hr w (by simp)
    rw [List.map_cons, List.nodup_cons] at hn
    obtain ⟨b, h1, h2, h3, h4⟩ := ih (a.set w.1.toNat w.2) (by simpa using fun x y h => hr (x, y) (by simp [h])) hn.2
    refine ⟨b, ?_, by simpa using h2, ?_, ?_⟩
    · rw [List.foldl_cons]; simp only [store, hw, and_self, if_true]; exact h1
    · intro x hx
      rcases List.mem_cons.1 hx with rfl | hx
      · have hx : ((x.1.toNat : ℕ) : ℤ) = x.1 := Int.toNat_of_nonneg hw.1
        rw [h4 x.1.toNat (by rw [hx]; exact hn.1), List.getElem?_set_self (by omega)]
      · exact h3 x hx
    · intro n hn'
      rw [List.map_cons, List.mem_cons, not_or] at hn'
      rw [h4 n hn'.2, List.getElem?_set_ne]
      intro h
      exact hn'.1 (by rw [← h]; exact Int.toNat_of_nonneg hw.1)

theorem mem_tasks {W : ℕ} {rows : List ℕ} {i j : ℕ} : (i, j) ∈ tasks W rows ↔ i < W ∧ j ∈ rows := by
  simp [tasks, and_comm]

theorem length_tasks (W : ℕ) (rows : List ℕ) : (tasks W rows).length = rows.length * W := by
  induction rows with
  | nil => simp [tasks]
  | cons j rows ih => rw [tasks, List.flatMap_cons, List.length_append, ← tasks, ih]; simp; ring

/-- The tasks of any order of the rows are the tasks of the usual order, in another order. -/
theorem tasks_perm {W H : ℕ} {rows : List ℕ} (h : rows.Perm (List.range H)) : (tasks W rows).Perm (tasks W (List.range H)) :=
  h.flatMap_right _

/-- The pixel number `p`, counted from the upper left corner of the image, is that of a task. -/
theorem exists_task {W H p : ℕ} (hp : p < W * H) : ∃ i j, i < W ∧ j < H ∧ costIndex W H i j = p := by
  have hW : 0 < W := by rcases Nat.eq_zero_or_pos W with h | h; · simp [h] at hp
                        · exact h
  have h1 : p / W < H := Nat.div_lt_of_lt_mul hp
  generalize hd : p / W = d at h1
  refine ⟨p % W, H - 1 - d, Nat.mod_lt _ hW, by omega, ?_⟩
  subst hd
  unfold costIndex
  have h2 : ((H - 1 - p / W : ℕ) : ℤ) = (H : ℤ) - 1 - ((p / W : ℕ) : ℤ) := by
    generalize p / W = d at h1 ⊢
    omega
  rw [h2]
  have h3 := Nat.div_add_mod p W
  have h4 : (W : ℤ) * ((p / W : ℕ) : ℤ) + ((p % W : ℕ) : ℤ) = p := by exact_mod_cast h3
  linarith [h4, mul_comm (W : ℤ) ((p / W : ℕ) : ℤ), show (W : ℤ) * ((H : ℤ) - 1 - ((H : ℤ) - 1 - ((p / W : ℕ) : ℤ))) = W * ((p / W : ℕ) : ℤ) by ring]

theorem byteIndex_eq (W H i j : ℤ) : byteIndex W H i j = 4 * costIndex W H i j := by unfold byteIndex costIndex; ring

end Render

/-- C83: the stores of the tasks go to every byte of the image exactly once and nowhere else: their addresses are `0, 1, …, 4WH - 1` in
some order. The tasks may be listed in any order. -/
theorem C83_addresses (W H : ℕ) (l : List ((ℕ × ℕ) × (Fin 4 → UInt8))) (h : (l.map Prod.fst).Perm (tasks W (List.range H))) :
    ((stores W H l).map Prod.fst).Perm ((List.range (4 * W * H)).map fun (n : ℕ) => (n : ℤ)) := by
  have hlen : ((stores W H l).map Prod.fst).length = 4 * W * H := by
    have h1 := h.length_eq
    rw [List.length_map, length_tasks, List.length_range] at h1
    rw [List.length_map, stores, List.length_flatMap]
    simp only [List.length_cons, List.length_nil, List.map_const', List.sum_replicate, h1, nsmul_eq_mul, Nat.cast_id]
    ring
  refine List.Perm.symm (List.Subperm.perm_of_length_le (List.Nodup.subperm ?_ ?_) (by simp [hlen]))
  · exact (List.nodup_range).map (fun a b h => by exact_mod_cast h)
  · intro a ha
    obtain ⟨n, hn, rfl⟩ := List.mem_map.1 ha
    rw [List.mem_range] at hn
    have hn' : n / 4 < W * H := Nat.div_lt_of_lt_mul (by rw [mul_assoc] at hn; exact hn)
    obtain ⟨i, j, hi, hj, hp⟩ := exists_task hn'
    have hmem : (i, j) ∈ l.map Prod.fst := h.mem_iff.2 (mem_tasks.2 ⟨hi, List.mem_range.2 hj⟩)
    obtain ⟨x, hx, hxe⟩ := List.mem_map.1 hmem
    rw [List.mem_map]
    have hb : byteIndex W H x.1.1 x.1.2 = 4 * ((n / 4 : ℕ) : ℤ) := by rw [hxe, byteIndex_eq, hp]
    have h4 : n % 4 = 0 ∨ n % 4 = 1 ∨ n % 4 = 2 ∨ n % 4 = 3 := by omega
    have hd := Nat.div_add_mod n 4
    simp only [stores, List.mem_flatMap]
    rcases h4 with h | h | h | h
    · exact ⟨_, ⟨x, hx, by simp only [List.mem_cons, true_or]; exact Or.inl rfl⟩, by simp only [hb]; omega⟩
    · exact ⟨_, ⟨x, hx, by simp only [List.mem_cons]; exact Or.inr (Or.inl rfl)⟩, by simp only [hb]; omega⟩
    · exact ⟨_, ⟨x, hx, by simp only [List.mem_cons]; exact Or.inr (Or.inr (Or.inl rfl))⟩, by simp only [hb]; omega⟩
    · exact ⟨_, ⟨x, hx, by simp only [List.mem_cons]; exact Or.inr (Or.inr (Or.inr (Or.inl rfl)))⟩, by simp only [hb]; omega⟩

/-- C83: whatever order the stores of all threads reach memory in, no store is out of range, and in the end the four bytes of pixel
`(i, j)`, found in row `H - 1 - j` from the top, are those its own task computed. -/
theorem C83_schedule (W H : ℕ) (l : List ((ℕ × ℕ) × (Fin 4 → UInt8))) (h : (l.map Prod.fst).Perm (tasks W (List.range H)))
    (ws : List (ℤ × UInt8)) (hws : ws.Perm (stores W H l)) :
    ∃ img, ws.foldl store (some (blank W H)) = some img ∧ img.length = 4 * W * H ∧
      ∀ i j p, ((i, j), p) ∈ l → i < W ∧ j < H ∧ ∀ k : Fin 4, img[4 * (W * (H - 1 - j) + i) + k]? = some (p k) := by
  have hp := (hws.map Prod.fst).trans (C83_addresses W H l h)
  obtain ⟨img, h1, h2, h3, -⟩ := foldl_store ws (blank W H) (fun w hw => by
    have := hp.mem_iff.1 (List.mem_map_of_mem hw)
    obtain ⟨n, hn, he⟩ := List.mem_map.1 this
    rw [List.mem_range] at hn
    rw [← he]
    simp only [blank, List.length_replicate]
    omega) (hp.nodup_iff.2 ((List.nodup_range).map (fun a b h => by exact_mod_cast h)))
  refine ⟨img, h1, by rw [h2, blank, List.length_replicate], fun i j p hl => ?_⟩
  have hm := mem_tasks.1 (h.mem_iff.1 (List.mem_map_of_mem (f := Prod.fst) hl))
  have hj : j < H := List.mem_range.1 hm.2
  refine ⟨hm.1, hj, fun k => ?_⟩
  have hb : byteIndex W H i j = 4 * ((W * (H - 1 - j) + i : ℕ) : ℤ) := by
    rw [byteIndex_eq, costIndex]
    have : ((H - 1 - j : ℕ) : ℤ) = (H : ℤ) - 1 - j := by clear * - hj; omega
    push_cast [this]
    ring
  have hmem : (byteIndex W H i j + k.val, p k) ∈ ws := by
    rw [hws.mem_iff, stores, List.mem_flatMap]
    refine ⟨((i, j), p), hl, ?_⟩
    have hk := k.isLt
    obtain ⟨k, hk'⟩ := k
    have : k = 0 ∨ k = 1 ∨ k = 2 ∨ k = 3 := by omega
    rcases this with rfl | rfl | rfl | rfl <;> simp
  have h4 := h3 _ hmem
  rw [hb] at h4
  have : (4 * ((W * (H - 1 - j) + i : ℕ) : ℤ) + k.val).toNat = 4 * (W * (H - 1 - j) + i) + k := by omega
  simpa only [this] using h4

/-- C83: the order in which the stores reach memory makes no difference to the image. -/
theorem C83_order (W H : ℕ) (l : List ((ℕ × ℕ) × (Fin 4 → UInt8))) (h : (l.map Prod.fst).Perm (tasks W (List.range H)))
    (ws : List (ℤ × UInt8)) (hws : ws.Perm (stores W H l)) :
    ws.foldl store (some (blank W H)) = (stores W H l).foldl store (some (blank W H)) := by
  have hp := C83_addresses W H l h
  have key : ∀ vs : List (ℤ × UInt8), vs.Perm (stores W H l) → ∃ img, vs.foldl store (some (blank W H)) = some img ∧
      img.length = 4 * W * H ∧ ∀ w ∈ stores W H l, img[w.1.toNat]? = some w.2 := by
    intro vs hvs
    have hp := (hvs.map Prod.fst).trans hp
    obtain ⟨img, h1, h2, h3, -⟩ := foldl_store vs (blank W H) (fun w hw => by
      have := hp.mem_iff.1 (List.mem_map_of_mem hw)
      obtain ⟨n, hn, he⟩ := List.mem_map.1 this
      rw [List.mem_range] at hn
      rw [← he]
      simp only [blank, List.length_replicate]
      omega) (hp.nodup_iff.2 ((List.nodup_range).map (fun a b h => by exact_mod_cast h)))
    exact ⟨img, h1, by rw [h2, blank, List.length_replicate], fun w hw => h3 w (hvs.mem_iff.2 hw)⟩
  obtain ⟨a, a1, a2, a3⟩ := key ws hws
  obtain ⟨b, b1, b2, b3⟩ := key _ (List.Perm.refl _)
  rw [a1, b1, Option.some.injEq]
  refine List.ext_getElem? fun n => ?_
  rcases Nat.lt_or_ge n (4 * W * H) with hn | hn
  · obtain ⟨w, hw, he⟩ := List.mem_map.1 (hp.mem_iff.2 (List.mem_map.2 ⟨n, List.mem_range.2 hn, rfl⟩))
    have : w.1.toNat = n := by omega
    rw [← this, a3 w hw, b3 w hw]
  · rw [List.getElem?_eq_none (by omega), List.getElem?_eq_none (by omega)]

/-- C83: the same for the buffer of the times: every task stores its time, and no address is out of range or stored to twice. -/
theorem C83_cost {R : Type} (W H : ℕ) (l : List ((ℕ × ℕ) × R)) (h : (l.map Prod.fst).Perm (tasks W (List.range H)))
    (ws : List (ℤ × R)) (hws : ws.Perm (costStores W H l)) (z : R) :
    ∃ cost, ws.foldl store (some (List.replicate (W * H) z)) = some cost ∧ cost.length = W * H ∧
      ∀ i j t, ((i, j), t) ∈ l → cost[W * (H - 1 - j) + i]? = some t := by
  have hp : (ws.map Prod.fst).Perm ((List.range (W * H)).map fun (n : ℕ) => (n : ℤ)) := by
    refine (hws.map Prod.fst).trans ?_
    refine List.Perm.symm (List.Subperm.perm_of_length_le (List.Nodup.subperm ?_ ?_) ?_)
    · exact (List.nodup_range).map (fun a b h => by exact_mod_cast h)
    · intro a ha
      obtain ⟨n, hn, rfl⟩ := List.mem_map.1 ha
      obtain ⟨i, j, hi, hj, hp⟩ := exists_task (List.mem_range.1 hn)
      obtain ⟨x, hx, hxe⟩ := List.mem_map.1 (h.mem_iff.2 (mem_tasks.2 ⟨hi, List.mem_range.2 hj⟩))
      rw [List.mem_map]
      exact ⟨(costIndex W H x.1.1 x.1.2, x.2), List.mem_map.2 ⟨x, hx, rfl⟩, by rw [hxe]; exact hp⟩
    · have h1 := h.length_eq
      rw [List.length_map, length_tasks, List.length_range] at h1
      simp [costStores, h1, mul_comm]
  obtain ⟨cost, h1, h2, h3, -⟩ := foldl_store ws (List.replicate (W * H) z) (fun w hw => by
    have := hp.mem_iff.1 (List.mem_map_of_mem hw)
    obtain ⟨n, hn, he⟩ := List.mem_map.1 this
    rw [List.mem_range] at hn
    rw [← he]
    simp only [List.length_replicate]
    omega) (hp.nodup_iff.2 ((List.nodup_range).map (fun a b h => by exact_mod_cast h)))
  refine ⟨cost, h1, by simpa using h2, fun i j t hl => ?_⟩
  have hm := mem_tasks.1 (h.mem_iff.1 (List.mem_map_of_mem (f := Prod.fst) hl))
  have hj : j < H := List.mem_range.1 hm.2
  have hb : costIndex W H i j = ((W * (H - 1 - j) + i : ℕ) : ℤ) := by
    rw [costIndex]
    have : ((H - 1 - j : ℕ) : ℤ) = (H : ℤ) - 1 - j := by clear * - hj; omega
    push_cast [this]
    ring
  have h4 := h3 (costIndex W H i j, t) (hws.mem_iff.2 (List.mem_map.2 ⟨_, hl, rfl⟩))
  simpa only [hb, Int.toNat_natCast] using h4

/-- C83: the tasks of a run yield one pixel each, opaque. -/
theorem C83_pixels {R S : Type} [Scalar R] (sc : Scene R S) (ts : List (ℕ × ℕ)) (g : Pcg × S) (l : List ((ℕ × ℕ) × (Fin 4 → UInt8)))
    (h : run sc ts g = some l) : l.map Prod.fst = ts ∧ ∀ x ∈ l, x.2 3 = 255 := by
  induction ts generalizing g l with
  | nil => simp only [run, Option.some.injEq] at h; subst h; simp
  | cons t ts ih =>
    obtain ⟨i, j⟩ := t
    rw [run] at h
    split at h
    · cases h
    · rename_i p g' ht
      rw [Option.map_eq_some_iff] at h
      obtain ⟨l', h1, rfl⟩ := h
      obtain ⟨h2, h3⟩ := ih g' l' h1
      refine ⟨by simp [h2], ?_⟩
      intro x hx
      rcases List.mem_cons.1 hx with rfl | hx
      · simp only [task] at ht
        split at ht
        · cases ht
        · rw [Option.map_eq_some_iff] at ht
          obtain ⟨p', h4, h5⟩ := ht
          simp only [to8bit] at h4
          split at h4
          · simp only [Option.some.injEq, Prod.mk.injEq] at h4 h5
            rw [← h5.1, ← h4]; rfl
          · cases h4
      · exact h3 x hx

/-- C83: so with the rows in any order, a run whose tasks all come back fills the image: it has `4WH` bytes and every alpha is 255. -/
theorem C83_image {R S : Type} [Scalar R] (sc : Scene R S) (rows : List ℕ) (hr : rows.Perm (List.range sc.height)) (s : S)
    (h : (run sc (tasks sc.width rows) (seed, s)).isSome) :
    ∃ img, image sc rows s = some img ∧ img.length = 4 * sc.width * sc.height ∧
      ∀ p, p < sc.width * sc.height → img[4 * p + 3]? = some 255 := by
  obtain ⟨l, hl⟩ := Option.isSome_iff_exists.1 h
  obtain ⟨h1, h2⟩ := C83_pixels sc _ _ l hl
  obtain ⟨img, h3, h4, h5⟩ := C83_schedule sc.width sc.height l (by rw [h1]; exact tasks_perm hr) _ (List.Perm.refl _)
  refine ⟨img, by rw [image, hl]; exact h3, h4, fun p hp => ?_⟩
  obtain ⟨i, j, hi, hj, he⟩ := exists_task hp
  have hm : (i, j) ∈ l.map Prod.fst := by rw [h1, mem_tasks]; exact ⟨hi, hr.mem_iff.2 (List.mem_range.2 hj)⟩
  obtain ⟨⟨⟨i', j'⟩, q⟩, hx, hxe⟩ := List.mem_map.1 hm
  obtain ⟨rfl, rfl⟩ : i' = i ∧ j' = j := by simpa using hxe
  have h6 := (h5 i' j' q hx).2.2 3
  have : sc.width * (sc.height - 1 - j') + i' = p := by
    unfold costIndex at he
    have : ((sc.height - 1 - j' : ℕ) : ℤ) = (sc.height : ℤ) - 1 - j' := by omega
    rw [← this] at he
    exact_mod_cast he
  rw [this] at h6
  rw [← h2 _ hx]
  exact h6

/-- A case: an image of two by two pixels whose second row is run first. -/
example : (([((0, 1), ![1, 2, 3, 255]), ((1, 1), ![4, 5, 6, 255]), ((0, 0), ![7, 8, 9, 255]), ((1, 0), ![10, 11, 12, 255])] :
    List ((ℕ × ℕ) × (Fin 4 → UInt8))).map Prod.fst).Perm (tasks 2 (List.range 2)) := by decide

end DRT
