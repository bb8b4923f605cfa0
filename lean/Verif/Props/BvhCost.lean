import Mathlib.Data.List.Perm.Subperm
import Verif.Props.Bvh

/-! # C125: the shape of a tree and the cost of a query -/

namespace DRT
open Scalar Fl

variable {R : Type} [Scalar R]

namespace Bvh

/-- The number of nodes on the longest path from the root to an object. -/
def height : Bvh R → ℕ
  | obj _ => 0
  | node l r _ => max l.height r.height + 1

/-- The number of `bvh_node`s. -/
def nodes : Bvh R → ℕ
  | obj _ => 0
  | node l r _ => l.nodes + r.nodes + 1

/-- bvh.hpp:44-53: the objects whose `hit` is called by `hit`, in the order of the calls. -/
def asked : Bvh R → Ray R → R → R → HitRecord R → List (Hittable R)
  | obj o, _, _, _, _ => [o]
  | node l rt b, r, tmin, tmax, rec =>
    if b.hit r tmin tmax then
      asked l r tmin tmax rec ++
        asked rt r tmin (if (hit l r tmin tmax rec).1 then (hit l r tmin tmax rec).2.t else tmax) (hit l r tmin tmax rec).2
    else []

/-- bvh.hpp:44-53: how often `hit` calls `aabb::hit`. -/
def boxTests : Bvh R → Ray R → R → R → HitRecord R → ℕ
  | obj _, _, _, _, _ => 0
  | node l rt b, r, tmin, tmax, rec =>
    if b.hit r tmin tmax then
      boxTests l r tmin tmax rec +
        boxTests rt r tmin (if (hit l r tmin tmax rec).1 then (hit l r tmin tmax rec).2.t else tmax) (hit l r tmin tmax rec).2 + 1
    else 1

end Bvh
open Bvh

variable (axis : List Bool → Fin 4) (srt : List Bool → (Hittable R → Hittable R → Bool) → List (Hittable R) → List (Hittable R))
  (hs : ∀ p c l, (srt p c l).Perm l)
include hs

theorem build_empty : ∀ fuel path, build axis srt fuel path [] = none := by
  intro fuel
  induction fuel with
  | zero => intro path; rfl
  | succ fuel ih =>
    intro path
    unfold build
    dsimp only
    rw [(hs path (comparator (axis path)) []).eq_nil, List.take_nil, ih]

/-- C125: the tree over `n` objects is balanced, whatever the draws and however `std::sort` orders equal elements: a path from the root meets at
most `⌈log₂ n⌉` nodes (one, if there is a single object), and some path meets that many. -/
theorem C125_height : ∀ (fuel : ℕ) (path : List Bool) (objs : List (Hittable R)) (T : Bvh R), build axis srt fuel path objs = some T →
    T.height = max 1 (Nat.clog 2 objs.length) := by
  intro fuel
  induction fuel with
  | zero => intro path objs T h; simp [build] at h
  | succ fuel ih =>
    intro path objs T h
    unfold build at h
    split at h
    · injection h with h; subst h
      simp [close, height]
    · injection h with h; subst h
      have : Nat.clog 2 2 = 1 := by rw [Nat.clog_of_two_le] <;> norm_num
      split_ifs <;> simp [close, height, this]
    · rename_i n1 n2
      dsimp only at h
      split at h
      · rename_i l r hl hr
        injection h with h; subst h
        have e1 := ih _ _ _ hl
        have e2 := ih _ _ _ hr
        have hlen := (hs path (comparator (axis path)) objs).length_eq
        rw [List.length_take, hlen] at e1
        rw [List.length_drop, hlen] at e2
        rcases Nat.lt_or_ge objs.length 3 with h3 | h3
        · match objs, n1, n2, h3 with
          | [], _, _, _ =>
            exfalso
            rw [(hs path (comparator (axis path)) []).eq_nil, List.take_nil, build_empty axis srt hs] at hl
            cases hl
          | [a], n1, _, _ => exact absurd rfl (n1 a)
          | [a, b], _, n2, _ => exact absurd rfl (n2 a b)
        · have hclog : Nat.clog 2 objs.length = Nat.clog 2 ((objs.length + 1) / 2) + 1 := by
            rw [Nat.clog_of_two_le (by norm_num) (by omega), show objs.length + 2 - 1 = objs.length + 1 by omega]
          have m : Nat.clog 2 (objs.length / 2) ≤ Nat.clog 2 ((objs.length + 1) / 2) := Nat.clog_mono_right _ (by omega)
          have p1 : 1 ≤ Nat.clog 2 ((objs.length + 1) / 2) := Nat.clog_pos (by norm_num) (by omega)
          rw [Nat.min_eq_left (by omega)] at e1
          rw [show objs.length - objs.length / 2 = (objs.length + 1) / 2 by omega] at e2
          rw [close, height, e1, e2, hclog]
          omega
      · cases h

/-- C125: the leaves of the tree are the objects, some of them twice: those that end up alone in a node, at most a third of `n ≥ 2` objects. -/
theorem C125_leaves : ∀ (fuel : ℕ) (path : List Bool) (objs : List (Hittable R)) (T : Bvh R), build axis srt fuel path objs = some T →
    ∃ twice, T.leaves.Perm (objs ++ twice) ∧ twice.Subperm objs ∧ (2 ≤ objs.length → 3 * twice.length ≤ objs.length) := by
  intro fuel
  induction fuel with
  | zero => intro path objs T h; simp [build] at h
  | succ fuel ih =>
    intro path objs T h
    unfold build at h
    split at h
    · injection h with h; subst h
      rename_i o
      exact ⟨[o], List.Perm.refl _, List.Subperm.refl _, by simp⟩
    · injection h with h; subst h
      rename_i a b
      split_ifs
      · exact ⟨[], List.Perm.refl _, List.nil_subperm, by simp⟩
      · exact ⟨[], List.Perm.swap _ _ _, List.nil_subperm, by simp⟩
    · rename_i n1 n2
      dsimp only at h
      split at h
      · rename_i l r hl hr
        injection h with h; subst h
        obtain ⟨t1, p1, s1, c1⟩ := ih _ _ _ hl
        obtain ⟨t2, p2, s2, c2⟩ := ih _ _ _ hr
        have hp := hs path (comparator (axis path)) objs
        have hlen := hp.length_eq
        set s := srt path (comparator (axis path)) objs with hsdef
        have hcat : (s.take (objs.length / 2) ++ s.drop (objs.length / 2)).Perm objs := by rw [List.take_append_drop]; exact hp
        refine ⟨t1 ++ t2, ?_, ?_, fun h2 => ?_⟩
        · rw [close, leaves]
          refine (p1.append p2).trans ?_
          refine List.Perm.trans ?_ (hcat.append_right _)
          rw [List.append_assoc, List.append_assoc]
          refine List.Perm.append_left _ ?_
          rw [← List.append_assoc, ← List.append_assoc]
          exact List.perm_append_comm.append_right _
        · exact (s1.append s2).trans hcat.subperm
        · have l1 := s1.length_le
          have l2 := s2.length_le
          rw [List.length_take, hlen] at c1 l1
          rw [List.length_drop, hlen] at c2 l2
          rw [List.length_append]
          rcases Nat.lt_or_ge objs.length 4 with h4 | h4
          · rcases Nat.lt_or_ge objs.length 3 with h3 | h3
            · match objs, n1, n2, h3 with
              | [], _, _, _ => simp at h2
              | [a], n1, _, _ => exact absurd rfl (n1 a)
              | [a, b], _, n2, _ => exact absurd rfl (n2 a b)
            · omega
          · omega
      · cases h

omit hs

/-- C125: in a tree there is one node less than there are leaves. -/
theorem C125_nodes (T : Bvh R) : T.nodes + 1 = T.leaves.length := by
  induction T with
  | obj o => rfl
  | node l r b hl hr => rw [nodes, leaves, List.length_append, ← hl, ← hr]; omega

/-- C125: a query asks the objects from left to right, none of them more often than it occurs in the tree, and tests no more boxes than
there are nodes. -/
theorem C125_cost (T : Bvh R) : ∀ (r : Ray R) (tmin tmax : R) (rec : HitRecord R),
    (T.asked r tmin tmax rec).Sublist T.leaves ∧ T.boxTests r tmin tmax rec ≤ T.nodes := by
  induction T with
  | obj o => intro r tmin tmax rec; exact ⟨List.Sublist.refl _, le_rfl⟩
  | node l rt b hl hr =>
    intro r tmin tmax rec
    rw [asked, boxTests, leaves, nodes]
    have h1 := hl r tmin tmax rec
    have h2 := hr r tmin (if (l.hit r tmin tmax rec).1 then (l.hit r tmin tmax rec).2.t else tmax) (l.hit r tmin tmax rec).2
    cases b.hit r tmin tmax with
    | true =>
      rw [if_pos rfl, if_pos rfl]
      exact ⟨h1.1.append h2.1, by have := h1.2; have := h2.2; omega⟩
    | false => exact ⟨List.nil_sublist _, by simp⟩

/-- One object after the other: the flag, the nearest parameter so far and the record. -/
def oneByOne (r : Ray R) (tmin : R) (s : Bool × R × HitRecord R) (o : Hittable R) : Bool × R × HitRecord R :=
  let h := o.hit r tmin s.2.1 s.2.2
  (s.1 || h.1, if h.1 then h.2.t else s.2.1, h.2)

/-- C125: a query of the tree has the outcome of asking those objects one after the other, each only for hits nearer than the last one, if the
objects leave the parameter of the record alone when they are missed. -/
theorem C125_asked (T : Bvh R) (r : Ray R) (tmin : R)
    (hc : ∀ o ∈ T.leaves, ∀ tmax rec, (o.hit r tmin tmax rec).1 = false → (o.hit r tmin tmax rec).2.t = rec.t) (tmax : R) (rec : HitRecord R) :
    ∃ t, (T.asked r tmin tmax rec).foldl (oneByOne r tmin) (false, tmax, rec) = ((T.hit r tmin tmax rec).1, t, (T.hit r tmin tmax rec).2) := by
  suffices h : ∀ (b0 : Bool) (tmax : R) (rec : HitRecord R), (T.asked r tmin tmax rec).foldl (oneByOne r tmin) (b0, tmax, rec) =
      (b0 || (T.hit r tmin tmax rec).1, if (T.hit r tmin tmax rec).1 then (T.hit r tmin tmax rec).2.t else tmax, (T.hit r tmin tmax rec).2) ∧
      ((T.hit r tmin tmax rec).1 = false → (T.hit r tmin tmax rec).2.t = rec.t) from ⟨_, (h false tmax rec).1⟩
  clear tmax rec
  induction T with
  | obj o => exact fun b0 tmax rec => ⟨rfl, hc o (by simp [leaves]) tmax rec⟩
  | node l rt b hl hr =>
    intro b0 tmax rec
    have h1 := hl (fun o ho => hc o (by rw [leaves]; exact List.mem_append_left _ ho)) b0 tmax rec
    have h2 := hr (fun o ho => hc o (by rw [leaves]; exact List.mem_append_right _ ho)) (b0 || (l.hit r tmin tmax rec).1)
      (if (l.hit r tmin tmax rec).1 then (l.hit r tmin tmax rec).2.t else tmax) (l.hit r tmin tmax rec).2
    rw [asked, Bvh.hit]
    cases b.hit r tmin tmax with
    | false => simp
    | true =>
      simp only [if_true]
      rw [List.foldl_append, h1.1, h2.1]
      generalize hL : l.hit r tmin tmax rec = L at *
      obtain ⟨lb, lr⟩ := L
      generalize hR : rt.hit r tmin (if lb then lr.t else tmax) lr = Q at *
      obtain ⟨qb, qr⟩ := Q
      dsimp only at h1 h2 ⊢
      cases lb <;> cases qb <;> simp_all

/-- C125 does not extend to asking no object twice: the tree over three objects always has four leaves, and a ray that meets the boxes of
its three nodes, with no object hit on the way, asks one of the objects twice. -/
theorem C125_twice_false (axis : List Bool → Fin 4) (srt : List Bool → (Hittable R → Hittable R → Bool) → List (Hittable R) → List (Hittable R))
    (hs : ∀ p c l, (srt p c l).Perm l) (fuel : ℕ) (path : List Bool) (a b c : Hittable R) (T : Bvh R)
    (h : build axis srt fuel path [a, b, c] = some T) :
    ∃ x y z B1 B2 B3, [x, y, z].Perm [a, b, c] ∧ T = node (node (obj x) (obj x) B1) (node (obj y) (obj z) B2) B3 ∧
      ∀ r tmin tmax rec, (∀ o ∈ [a, b, c], ∀ rec, o.hit r tmin tmax rec = (false, rec)) → B1.hit r tmin tmax = true → B2.hit r tmin tmax = true →
        B3.hit r tmin tmax = true → T.asked r tmin tmax rec = [x, x, y, z] := by
  cases fuel with
  | zero => simp [build] at h
  | succ fuel =>
    unfold build at h
    dsimp only at h
    have hp := hs path (comparator (axis path)) [a, b, c]
    have hl := hp.length_eq
    revert hp hl h
    generalize srt path (comparator (axis path)) [a, b, c] = s
    intro h hp hl
    match s, hl with
    | [x, y, z], _ =>
      cases fuel with
      | zero => simp [build] at h
      | succ fuel =>
        have key : ∃ y' z', [y', z'].Perm [y, z] ∧ build axis srt (fuel + 1) (true :: path) [y, z] = some (close (obj y') (obj z')) := by
          rw [build]
          split_ifs
          · exact ⟨y, z, List.Perm.refl _, rfl⟩
          · exact ⟨z, y, List.Perm.swap _ _ _, rfl⟩
        obtain ⟨y', z', hp2, hb⟩ := key
        have h1 : build axis srt (fuel + 1) (false :: path) [x] = some (close (obj x) (obj x)) := rfl
        simp only [List.length_cons, List.length_nil, Nat.reduceAdd, Nat.reduceDiv, List.take_succ_cons, List.take_zero, List.drop_succ_cons,
          List.drop_zero, hb, h1, Option.some.injEq] at h
        subst h
        have hp3 : [x, y', z'].Perm [a, b, c] := (hp2.cons x).trans hp
        refine ⟨x, y', z', _, _, _, hp3, rfl, fun r tmin tmax rec hm b1 b2 b3 => ?_⟩
        have hx := hm x (hp3.subset (by simp))
        simp only [close] at b1 b2 b3 ⊢
        simp [asked, Bvh.hit, b1, b2, b3, hx]

/-- The tree over three cubes has height two, and the ray along the row asks four times at most. -/
example (axis : List Bool → Fin 4) (T : Bvh (Fl exact64)) (h : build axis (fun _ _ l => l.reverse) 3 [] [cubeAt 5, cubeAt 2, cubeAt 9] = some T)
    (r : Ray (Fl exact64)) (rec : HitRecord (Fl exact64)) : T.height = 2 ∧ (T.asked r 0 pinf rec).length ≤ 4 ∧ T.boxTests r 0 pinf rec ≤ 3 := by
  have h3 : Nat.clog 2 3 = 2 := by
    have h2 : Nat.clog 2 2 = 1 := by rw [Nat.clog_of_two_le] <;> norm_num
    rw [Nat.clog_of_two_le] <;> norm_num [h2]
  obtain ⟨twice, p, -, c⟩ := C125_leaves axis _ (fun _ _ l => l.reverse_perm) 3 [] _ T h
  have h1 := C125_cost T r 0 pinf rec
  have hl := p.length_eq
  have hn := C125_nodes T
  have c' := c (by simp)
  simp only [List.length_append, List.length_cons, List.length_nil] at hl c'
  refine ⟨?_, h1.1.length_le.trans (by omega), h1.2.trans (by omega)⟩
  rw [C125_height axis _ (fun _ _ l => l.reverse_perm) 3 [] _ T h]
  simp [h3]

end DRT
