import Verif.Model.Disk
import Verif.Lemmas.Surface
import Verif.Lemmas.Angle
import Verif.Props.HitRecord
import Verif.Props.Matrix
import Verif.Props.Aabb

/-! # C61-C63: disks -/

namespace DRT
open Scalar Fl Matrix

variable {F : Fmt}

/-- The disk with centre `c`, radius `r` and unit normal `n`, as a set of points. -/
def diskSet (r : ℝ) (c n : Fin 3 → ℝ) : Set (Fin 3 → ℝ) := {p | (p - c) ⬝ᵥ n = 0 ∧ (p - c) ⬝ᵥ (p - c) ≤ r ^ 2}

/-! ## C61 -/

theorem disk_rotation_spec {a b c t : ℝ} (hn : a * a + b * b + c * c = 1) (ht : t * (1 + c) = 1) :
    let W : Matrix (Fin 3) (Fin 3) ℝ := !![c + b * b * t, -a * b * t, a; -a * b * t, c + t * a * a, b; -a, -b, c]
    W * Wᵀ = 1 ∧ W.det = 1 := by
  intro W
  have hq : (a * a + b * b) * t = 1 - c := by
    have : (a * a + b * b) = (1 - c) * (1 + c) := by linarith
    rw [this, mul_assoc, mul_comm (1 + c), ht, mul_one]
  constructor
  · ext i j
    fin_cases i <;> fin_cases j <;>
      simp [W, Matrix.mul_apply, Fin.sum_univ_three, Matrix.transpose_apply]
    · linear_combination b * b * t * hq + b * b * ht + hn
    · linear_combination -a * b * t * hq - a * b * ht
    · ring
    · linear_combination -a * b * t * hq - a * b * ht
    · linear_combination a * a * t * hq + a * a * ht + hn
    · ring
    · ring
    · ring
    · linear_combination hn
  · rw [det_fin_three]
    simp [W]
    linear_combination (a * a + b * b + c * c) * hq + hn

/-- The rotation the constructor builds, on the reals. -/
noncomputable def diskRotation (n : Fin 3 → ℝ) : Matrix (Fin 3) (Fin 3) ℝ :=
  if n 2 = -1 then !![-1, 0, 0; 0, 1, 0; 0, 0, -1]
  else !![n 2 + n 1 * n 1 * (1 / (1 + n 2)), -n 0 * n 1 * (1 / (1 + n 2)), n 0;
    -n 0 * n 1 * (1 / (1 + n 2)), n 2 + 1 / (1 + n 2) * n 0 * n 0, n 1; -n 0, -n 1, n 2]

theorem diskRotation_spec (n : Fin 3 → ℝ) (hn : n ⬝ᵥ n = 1) :
    diskRotation n * (diskRotation n)ᵀ = 1 ∧ (diskRotation n).det = 1 ∧ ∀ i, diskRotation n i 2 = n i := by
  have hn' : n 0 * n 0 + n 1 * n 1 + n 2 * n 2 = 1 := by
    simpa only [dotProduct, Fin.sum_univ_three] using hn
  unfold diskRotation
  by_cases hz : n 2 = -1
  · rw [if_pos hz]
    refine ⟨?_, by rw [det_fin_three]; simp, fun i => ?_⟩
    · ext i j
      fin_cases i <;> fin_cases j <;> simp [Matrix.mul_apply, Fin.sum_univ_three, Matrix.transpose_apply]
    · have h0 : n 0 * n 0 + n 1 * n 1 = 0 := by rw [hz] at hn'; linarith
      match i with
      | 0 => show (0:ℝ) = n 0; nlinarith [mul_self_nonneg (n 0), mul_self_nonneg (n 1)]
      | 1 => show (0:ℝ) = n 1; nlinarith [mul_self_nonneg (n 0), mul_self_nonneg (n 1)]
      | 2 => exact hz.symm
  · rw [if_neg hz]
    have h1 : 1 + n 2 ≠ 0 := fun h => hz (by linarith)
    obtain ⟨g1, g2⟩ := disk_rotation_spec hn' (one_div_mul_cancel h1)
    refine ⟨g1, g2, fun i => ?_⟩
    match i with
    | 0 => rfl
    | 1 => rfl
    | 2 => rfl

namespace Disk

/-- The object the constructor builds. -/
noncomputable def ofReal (r : ℝ) (c n : Fin 3 → ℝ) : Disk (Fl F) :=
  ⟨fin r, cv c, cv n, cm (diskRotation n), cm (diskRotation n)ᵀ⟩

theorem make_eq [F.Exact] (r : ℝ) (c n : Fin 3 → ℝ) (hn : n ⬝ᵥ n = 1) :
    make (fin r) (cv c) (cv n) = some (ofReal r c n : Disk (Fl F)) := by
  obtain ⟨h1, h2, -⟩ := diskRotation_spec n hn
  unfold make ofReal
  rw [cv_apply, show (-1 : Fl F) = fin (-1) by rw [ofNat_one, Fl.neg_fin], eq_fin]
  by_cases hz : n 2 = -1
  · rw [if_pos (by simpa using hz)]
    have e : (flip : Mat (Fl F) 3 3) = cm !![-1, 0, 0; 0, 1, 0; 0, 0, -1] := by
      funext i j; unfold flip
      fin_cases i <;> fin_cases j <;> simp [cm_apply, fl]
    have e' : (!![-1, 0, 0; 0, 1, 0; 0, 0, -1] : Matrix (Fin 3) (Fin 3) ℝ)ᵀ = !![-1, 0, 0; 0, 1, 0; 0, 0, -1] := by
      ext i j; fin_cases i <;> fin_cases j <;> rfl
    rw [diskRotation, if_pos hz, e, e']
  · rw [if_neg (by simpa using hz)]
    have hz1 : 1 + n 2 ≠ 0 := fun h => hz (by linarith)
    have e : (rotation (cv n) : Mat (Fl F) 3 3) = cm (diskRotation n) := by
      have ht : (1 : Fl F) / (1 + fin (n 2)) = fin (1 / (1 + n 2)) := by
        rw [ofNat_one, add_fin, div_fin _ hz1]
      rw [diskRotation, if_neg hz]
      funext i j; unfold rotation
      simp only [cv_apply, ht, mul_fin, add_fin, Fl.neg_fin]
      fin_cases i <;> fin_cases j <;> rfl
    rw [e]
    obtain ⟨k1, k2, -⟩ := C07_inverse3 (F := F) (diskRotation n) (fun _ _ => Scalar.nan)
    have k1' := k1.mpr (by rw [h2, abs_one]; exact Fmt.Exact.tiny_lt)
    obtain ⟨N, hN, hN1, -⟩ := k2 k1'
    have hNT : N = (diskRotation n)ᵀ := by
      have : (diskRotation n)ᵀ * diskRotation n = 1 := mul_eq_one_comm.mp h1
      calc N = ((diskRotation n)ᵀ * diskRotation n) * N := by rw [this, one_mul]
        _ = _ := by rw [Matrix.mul_assoc, hN1, mul_one]
    unfold Mat.inverseVal3
    rcases hh : Mat.inverse3 (cm (diskRotation n)) (fun _ _ => (Scalar.nan : Fl F)) with ⟨b, x⟩
    rw [hh] at k1' hN
    have hb : b = true := k1'
    have hx : x = cm N := hN
    subst hb
    rw [hx, hNT]; rfl

end Disk

/-- C61: for every unit normal, `(0,0,-1)` included, the constructor builds two mutually inverse rotations, with
determinant 1, and `to_world_` takes the z axis to the normal. -/
theorem C61_rotation [F.Exact] (r : ℝ) (c n : Fin 3 → ℝ) (hn : n ⬝ᵥ n = 1) :
    ∃ (s : Disk (Fl F)) (W : Matrix (Fin 3) (Fin 3) ℝ), Disk.make (fin r) (cv c) (cv n) = some s ∧
      s.toWorld = cm W ∧ s.toLocal = cm Wᵀ ∧ W * Wᵀ = 1 ∧ Wᵀ * W = 1 ∧ W.det = 1 ∧
      Mat.mulVec s.toWorld (cv ![0, 0, 1]) = cv n ∧ s.radius = fin r ∧ s.center = cv c ∧ s.normal = cv n := by
  obtain ⟨h1, h2, h3⟩ := diskRotation_spec n hn
  refine ⟨Disk.ofReal r c n, diskRotation n, Disk.make_eq r c n hn, rfl, rfl, h1, mul_eq_one_comm.mp h1, h2, ?_, rfl, rfl, rfl⟩
  show Mat.mulVec (cm (diskRotation n)) (cv ![0, 0, 1]) = _
  rw [cm_mulVec, cv_inj]
  funext i
  rw [← h3 i]
  simp [mulVec, dotProduct, Fin.sum_univ_three]

/-- The downward normal and a slanted one are unit vectors. -/
example : (![0, 0, -1] : Fin 3 → ℝ) ⬝ᵥ ![0, 0, -1] = 1 ∧ (![3/5, 0, 4/5] : Fin 3 → ℝ) ⬝ᵥ ![3/5, 0, 4/5] = 1 := by
  constructor <;> (simp [dotProduct, Fin.sum_univ_three] <;> norm_num)

/-! ## C62 -/

namespace Disk

/-- `to_local_` applied to a real vector: its last component is the component along the normal, and the length is kept. -/
theorem local_spec (n : Fin 3 → ℝ) (hn : n ⬝ᵥ n = 1) (q : Fin 3 → ℝ) :
    ((diskRotation n)ᵀ *ᵥ q) 2 = q ⬝ᵥ n ∧ ((diskRotation n)ᵀ *ᵥ q) ⬝ᵥ ((diskRotation n)ᵀ *ᵥ q) = q ⬝ᵥ q ∧
      diskRotation n *ᵥ ((diskRotation n)ᵀ *ᵥ q) = q := by
  obtain ⟨h1, -, h3⟩ := diskRotation_spec n hn
  have e : diskRotation n *ᵥ ((diskRotation n)ᵀ *ᵥ q) = q := by rw [mulVec_mulVec, h1, one_mulVec]
  refine ⟨?_, ?_, e⟩
  · simp only [mulVec, dotProduct, Matrix.transpose_apply, h3, mul_comm]
  · conv_lhs => rw [dotProduct_mulVec, vecMul_transpose, e]

theorem hit_parallel [F.Exact] (r : ℝ) (c n : Fin 3 → ℝ) (hn : n ⬝ᵥ n = 1) (o d : Fin 3 → ℝ) (hd : d ⬝ᵥ n = 0)
    (tmin tmax : Fl F) (rec : HitRecord (Fl F)) : (ofReal r c n).hit ⟨cv o, cv d⟩ tmin tmax rec = (false, rec) := by
  unfold hit ofReal
  simp only [cv_sub, cm_mulVec, cv_apply, (local_spec n hn d).1, hd, ofNat_zero, eq_fin]
  simp

theorem hit_fin [F.Exact] (r : ℝ) (c n : Fin 3 → ℝ) (hn : n ⬝ᵥ n = 1) (o d : Fin 3 → ℝ) (hd : d ⬝ᵥ n ≠ 0)
    (tmin tmax : Fl F) (rec : HitRecord (Fl F)) :
    let t := -((o - c) ⬝ᵥ n) / (d ⬝ᵥ n)
    let q := (diskRotation n)ᵀ *ᵥ (o + t • d - c)
    (ofReal r c n).hit ⟨cv o, cv d⟩ tmin tmax rec =
      if Scalar.lt (fin t) tmin || Scalar.gt (fin t) tmax then (false, rec)
      else if r ^ 2 < (o + t • d - c) ⬝ᵥ (o + t • d - c) then (false, rec)
      else (true, (ofReal r c n).record ⟨cv o, cv d⟩ (fin t) (fin (q 0)) (fin (q 1)) rec) := by
  intro t q
  have hq : ∀ i, q i = ((diskRotation n)ᵀ *ᵥ (o - c)) i + t * ((diskRotation n)ᵀ *ᵥ d) i := by
    intro i
    have : o + t • d - c = (o - c) + t • d := by abel
    show ((diskRotation n)ᵀ *ᵥ (o + t • d - c)) i = _
    rw [this, mulVec_add, mulVec_smul]; rfl
  have hq2 : q 2 = 0 := by
    rw [hq 2, (local_spec n hn d).1, (local_spec n hn (o - c)).1]
    simp only [t]; field_simp; ring
  have hqq : (o + t • d - c) ⬝ᵥ (o + t • d - c) = q 0 * q 0 + q 1 * q 1 := by
    rw [← (local_spec n hn (o + t • d - c)).2.1]
    show q ⬝ᵥ q = _
    simp only [dotProduct, Fin.sum_univ_three, hq2]; ring
  have e1 : -(fin (((diskRotation n)ᵀ *ᵥ (o - c)) 2) : Fl F) / fin (((diskRotation n)ᵀ *ᵥ d) 2) = fin t := by
    rw [(local_spec n hn d).1, (local_spec n hn (o - c)).1, Fl.neg_fin, div_fin _ hd]
  have e2 : Scalar.eq (fin (((diskRotation n)ᵀ *ᵥ d) 2) : Fl F) 0 = false := by
    rw [(local_spec n hn d).1, ofNat_zero, eq_fin]; simpa using hd
  unfold hit
  simp only [ofReal, cv_sub, cm_mulVec, cv_apply, e1, e2, Bool.false_eq_true, if_false, mul_fin, add_fin, ← hq, Scalar.gt, lt_fin]
  rw [hqq, ← sq r]
  simp only [decide_eq_true_eq]
  rfl

end Disk

/-- C62: a ray that is not parallel to the disk hits exactly when it meets the disk in the range, and the record has the
parameter of the crossing and the point there. -/
theorem C62_nearest [F.Exact] (r : ℝ) (c n : Fin 3 → ℝ) (hn : n ⬝ᵥ n = 1) (o d : Fin 3 → ℝ) (hd : d ⬝ᵥ n ≠ 0)
    (tmin : Fl F) (hm : isNaN tmin = false) (s : Disk (Fl F)) (hs : Disk.make (fin r) (cv c) (cv n) = some s) :
    FindsNearest (diskSet r c n) o d tmin (s.hit ⟨cv o, cv d⟩ tmin) := by
  rw [Disk.make_eq r c n hn] at hs
  cases hs
  intro tmax rec hx
  have hz : ∀ z : ℝ, o + z • d ∈ diskSet r c n ↔ z = -((o - c) ⬝ᵥ n) / (d ⬝ᵥ n) ∧
      (o + z • d - c) ⬝ᵥ (o + z • d - c) ≤ r ^ 2 := by
    intro z
    unfold diskSet
    rw [Set.mem_setOf_eq, eq_div_iff hd]
    have : (o + z • d - c) ⬝ᵥ n = (o - c) ⬝ᵥ n + z * (d ⬝ᵥ n) := by
      rw [show o + z • d - c = (o - c) + z • d by abel, add_dotProduct, smul_dotProduct, smul_eq_mul]
    rw [this]
    constructor
    · rintro ⟨h, h'⟩; exact ⟨by linarith, h'⟩
    · rintro ⟨h, h'⟩; exact ⟨by linarith, h'⟩
  rw [Disk.hit_fin r c n hn o d hd tmin tmax rec]
  obtain ⟨t, ht⟩ : ∃ t, t = -((o - c) ⬝ᵥ n) / (d ⬝ᵥ n) := ⟨_, rfl⟩
  simp only [← ht] at hz ⊢
  have hr : (Scalar.lt (fin t) tmin || Scalar.gt (fin t) tmax) = false ↔ InRange (tmin, tmax) t := by
    simp only [Scalar.gt, Bool.or_eq_false_iff, InRange]
    constructor
    · rintro ⟨h1, h2⟩; exact ⟨Fl.le_of_not_lt rfl hm h1, Fl.le_of_not_lt hx rfl h2⟩
    · rintro ⟨h1, h2⟩; exact ⟨Fl.not_lt_of_le h1, Fl.not_lt_of_le h2⟩
  by_cases h1 : InRange (tmin, tmax) t
  · rw [hr.mpr h1]
    simp only [Bool.false_eq_true, if_false]
    by_cases h2 : r ^ 2 < (o + t • d - c) ⬝ᵥ (o + t • d - c)
    · rw [if_pos h2]
      refine ⟨⟨by simp, ?_⟩, by simp⟩
      rintro ⟨z, -, hz'⟩
      obtain ⟨rfl, g⟩ := (hz z).mp hz'
      exact absurd h2 (not_lt.mpr g)
    · rw [if_neg h2]
      have hS : o + t • d ∈ diskSet r c n := (hz t).mpr ⟨rfl, not_lt.mp h2⟩
      refine ⟨⟨fun _ => ⟨t, h1, hS⟩, fun _ => rfl⟩, fun _ => ⟨t, rfl, ?_, h1, hS, fun w _ hw => ?_⟩⟩
      · show (Ray.mk (cv o) (cv d) : Ray (Fl F)).at (fin t) = _
        rw [ray_at_cv]
      · rw [((hz w).mp hw).1]
  · have : (Scalar.lt (fin t) tmin || Scalar.gt (fin t) tmax) = true := by
      by_contra hc; exact h1 (hr.mp (by simpa using hc))
    rw [this]
    simp only [if_true]
    refine ⟨⟨by simp, ?_⟩, by simp⟩
    rintro ⟨z, hzr, hz'⟩
    obtain ⟨rfl, -⟩ := (hz z).mp hz'
    exact absurd hzr h1

/-- C62: a ray parallel to the disk, in its plane or not, is never reported. -/
theorem C62_parallel [F.Exact] (r : ℝ) (c n : Fin 3 → ℝ) (hn : n ⬝ᵥ n = 1) (o d : Fin 3 → ℝ) (hd : d ⬝ᵥ n = 0)
    (s : Disk (Fl F)) (hs : Disk.make (fin r) (cv c) (cv n) = some s) (tmin tmax : Fl F) (rec : HitRecord (Fl F)) :
    s.hit ⟨cv o, cv d⟩ tmin tmax rec = (false, rec) := by
  rw [Disk.make_eq r c n hn] at hs
  cases hs
  exact Disk.hit_parallel r c n hn o d hd tmin tmax rec

example (rec : HitRecord (Fl exact64)) : (Disk.ofReal 1 0 ![0, 0, 1]).hit ⟨cv ![-5, 0, 0], cv ![1, 0, 0]⟩ (fin 0) pinf rec = (false, rec) := by
  have hn : (![0, 0, 1] : Fin 3 → ℝ) ⬝ᵥ ![0, 0, 1] = 1 := by simp [dotProduct, Fin.sum_univ_three]
  exact C62_parallel 1 0 ![0, 0, 1] hn _ _ (by simp [dotProduct, Fin.sum_univ_three]) _ (Disk.make_eq 1 0 ![0, 0, 1] hn) _ _ _

/-- C62: on a hit the point is in the disk, `u` and `v` are in the unit square and `operator()` takes them back to the
point; the normal is the one of the disk up to sign and does not point along the ray. -/
theorem C62_record [F.Exact] (r : ℝ) (hr : 0 < r) (c n : Fin 3 → ℝ) (hn : n ⬝ᵥ n = 1) (o d : Fin 3 → ℝ)
    (s : Disk (Fl F)) (hs : Disk.make (fin r) (cv c) (cv n) = some s) (tmin tmax : Fl F) (rec rec' : HitRecord (Fl F))
    (h : s.hit ⟨cv o, cv d⟩ tmin tmax rec = (true, rec')) :
    ∃ p ∈ diskSet r c n, rec'.p = cv p ∧ (∃ u v : ℝ, rec'.u = fin u ∧ rec'.v = fin v ∧ 0 ≤ u ∧ u < 1 ∧ 0 ≤ v ∧ v ≤ 1 ∧
        r * v = Real.sqrt ((p - c) ⬝ᵥ (p - c))) ∧
      s.eval rec'.u rec'.v = rec'.p ∧
      ∃ m, rec'.normal = cv m ∧ (m = n ∨ m = -n) ∧ d ⬝ᵥ m ≤ 0 := by
  rw [Disk.make_eq r c n hn] at hs
  cases hs
  by_cases hd : d ⬝ᵥ n = 0
  · rw [Disk.hit_parallel r c n hn o d hd] at h; cases h
  rw [Disk.hit_fin r c n hn o d hd tmin tmax rec] at h
  obtain ⟨t, ht⟩ : ∃ t, t = -((o - c) ⬝ᵥ n) / (d ⬝ᵥ n) := ⟨_, rfl⟩
  simp only [← ht] at h
  split_ifs at h with h1 h2
  · simp at h
  · simp at h
  obtain ⟨q, hq⟩ : ∃ q, q = (diskRotation n)ᵀ *ᵥ (o + t • d - c) := ⟨_, rfl⟩
  have hrec : rec' = (Disk.ofReal r c n).record ⟨cv o, cv d⟩ (fin t) (fin (q 0)) (fin (q 1)) rec := by
    rw [hq]; exact (congrArg Prod.snd h).symm
  obtain ⟨l1, l2, l3⟩ := Disk.local_spec n hn (o + t • d - c)
  rw [← hq] at l1 l2 l3
  have hplane : (o + t • d - c) ⬝ᵥ n = 0 := by
    rw [show o + t • d - c = (o - c) + t • d by abel, add_dotProduct, smul_dotProduct, smul_eq_mul, ht]
    field_simp; ring
  have hq2 : q 2 = 0 := by rw [l1, hplane]
  have hqq : q 0 ^ 2 + q 1 ^ 2 = (o + t • d - c) ⬝ᵥ (o + t • d - c) := by
    rw [← l2]; simp only [dotProduct, Fin.sum_univ_three, hq2]; ring
  have hnn : 0 ≤ q 0 ^ 2 + q 1 ^ 2 := by positivity
  have hp : rec'.p = cv (o + t • d) := by
    rw [hrec]; show (Ray.mk (cv o) (cv d) : Ray (Fl F)).at (fin t) = _
    rw [ray_at_cv]
  have hv : rec'.v = fin (Real.sqrt (q 0 ^ 2 + q 1 ^ 2) / r) := by
    rw [hrec]
    show sqrt ((fin (q 0) : Fl F) * fin (q 0) + fin (q 1) * fin (q 1)) / fin r = _
    rw [mul_fin, mul_fin, add_fin, ← sq, ← sq, sqrt_fin hnn, div_fin _ hr.ne']
  have hv0 : 0 ≤ Real.sqrt (q 0 ^ 2 + q 1 ^ 2) / r := div_nonneg (Real.sqrt_nonneg _) hr.le
  have hu : ∃ u : ℝ, rec'.u = fin u ∧ 0 ≤ u ∧ u < 1 ∧ Real.sqrt (q 0 ^ 2 + q 1 ^ 2) * Real.cos (2 * Real.pi * u) = q 0 ∧
      Real.sqrt (q 0 ^ 2 + q 1 ^ 2) * Real.sin (2 * Real.pi * u) = q 1 := by
    have hu' : rec'.u = if Scalar.eq rec'.v 0 then 0 else
        (if Scalar.lt (atan2 (fin (q 1) : Fl F) (fin (q 0)) / (2 * pi)) 0 then atan2 (fin (q 1) : Fl F) (fin (q 0)) / (2 * pi) + 1
        else atan2 (fin (q 1) : Fl F) (fin (q 0)) / (2 * pi)) := by rw [hrec]; rfl
    rw [hu', hv, ofNat_zero, eq_fin]
    by_cases hz : Real.sqrt (q 0 ^ 2 + q 1 ^ 2) / r = 0
    · rw [if_pos (by simpa using hz)]
      have hz' : Real.sqrt (q 0 ^ 2 + q 1 ^ 2) = 0 := by
        rcases div_eq_zero_iff.mp hz with h | h
        · exact h
        · exact absurd h hr.ne'
      have h3 := (Real.sqrt_eq_zero hnn).mp hz'
      refine ⟨0, rfl, le_refl _, one_pos, ?_, ?_⟩
      · rw [hz', zero_mul]; nlinarith [sq_nonneg (q 0), sq_nonneg (q 1)]
      · rw [hz', zero_mul]; nlinarith [sq_nonneg (q 0), sq_nonneg (q 1)]
    · rw [if_neg (by simpa using hz), ← ofNat_zero]
      exact turn_atan2 (F := F) (q 1) (q 0)
  obtain ⟨u, hu, hu0, hu1, huc, hus⟩ := hu
  refine ⟨o + t • d, ⟨hplane, not_lt.mp h2⟩, hp, ⟨u, _, hu, hv, hu0, hu1, hv0, ?_, ?_⟩, ?_, ?_⟩
  · rw [div_le_one hr, Real.sqrt_le_left hr.le, hqq]
    exact not_lt.mp h2
  · rw [← hqq]; field_simp
  · rw [hu, hv, hp]
    unfold Disk.eval Disk.ofReal
    simp only [fl, Nat.cast_ofNat, Nat.cast_zero, cv_vec3]
    rw [cv_inj]
    have e : r * (Real.sqrt (q 0 ^ 2 + q 1 ^ 2) / r) = Real.sqrt (q 0 ^ 2 + q 1 ^ 2) := by field_simp
    rw [e, huc, hus]
    have : (![q 0, q 1, 0] : Fin 3 → ℝ) = q := by
      funext i
      match i with
      | 0 => rfl
      | 1 => rfl
      | 2 => exact hq2.symm
    rw [this, l3]; abel
  · obtain ⟨m', hm, hdm, hmm, -⟩ := C37_opposes (F := F) { rec with
        t := fin t, p := (Ray.mk (cv o) (cv d) : Ray (Fl F)).at (fin t), u := rec'.u, v := rec'.v } o d n
    refine ⟨m', ?_, hmm, hdm⟩
    rw [← hm, hrec]; rfl

/-- A slanted unit disk, hit off centre by a vertical ray. -/
theorem Disk.hit_case : ∃ s rec', Disk.make (fin 1) (cv 0) (cv ![3/5, 0, 4/5]) = some s ∧
    s.hit ⟨cv ![0, 1/2, 2], cv ![0, 0, -1]⟩ (fin 0) pinf (HitRecord.default Vec.nans Vec.nans true) = ((true, rec') : Bool × HitRecord (Fl exact64)) := by
  have hn : (![3/5, 0, 4/5] : Fin 3 → ℝ) ⬝ᵥ ![3/5, 0, 4/5] = 1 := by simp [dotProduct, Fin.sum_univ_three] <;> norm_num
  refine ⟨_, _, Disk.make_eq 1 0 _ hn, Prod.ext ?_ rfl⟩
  refine ((C62_nearest (F := exact64) 1 0 ![3/5, 0, 4/5] hn ![0, 1/2, 2] ![0, 0, -1]
    (by simp [dotProduct, Fin.sum_univ_three] <;> norm_num) (fin 0) rfl _ (Disk.make_eq 1 0 _ hn) pinf _ rfl).1).mpr
    ⟨2, ⟨by rw [le_fin]; norm_num, by simp⟩, ?_⟩
  constructor <;> (simp [dotProduct, Fin.sum_univ_three] <;> norm_num)

example : ∃ (s : Disk (Fl exact64)) (rec' : HitRecord (Fl exact64)), s.hit ⟨cv ![0, 1/2, 2], cv ![0, 0, -1]⟩ (fin 0) pinf
    (HitRecord.default Vec.nans Vec.nans true) = (true, rec') ∧ s.eval rec'.u rec'.v = rec'.p := by
  obtain ⟨s, rec', hs, h⟩ := Disk.hit_case
  have hn : (![3/5, 0, 4/5] : Fin 3 → ℝ) ⬝ᵥ ![3/5, 0, 4/5] = 1 := by
    simp [dotProduct, Fin.sum_univ_three]; norm_num
  obtain ⟨-, -, -, -, h2, -⟩ := C62_record 1 one_pos 0 ![3/5, 0, 4/5] hn _ _ s hs (fin 0) pinf _ _ h
  exact ⟨s, rec', h, h2⟩

/-- C62: two entries of the recorded second fundamental form are NaN, so the recorded curvature is never a number,
although a disk is flat. -/
theorem C62_curvature_nan (s : Disk (Fl F)) (r : Ray (Fl F)) (tmin tmax : Fl F) (rec rec' : HitRecord (Fl F))
    (h : s.hit r tmin tmax rec = (true, rec')) : rec'.gaussianCurvature = Fl.nan ∧ rec'.meanCurvature = Fl.nan := by
  unfold Disk.hit at h
  dsimp only at h
  split_ifs at h
  · simp at h
  · simp at h
  · simp at h
  · have hrec := (congrArg Prod.snd h).symm
    dsimp only at hrec
    rw [hrec]
    have he : (s.record r (-(Mat.mulVec s.toLocal (r.origin - s.center) 2) / Mat.mulVec s.toLocal r.dir 2)
      (Mat.mulVec s.toLocal (r.origin - s.center) 0 + -(Mat.mulVec s.toLocal (r.origin - s.center) 2) / Mat.mulVec s.toLocal r.dir 2 * Mat.mulVec s.toLocal r.dir 0)
      (Mat.mulVec s.toLocal (r.origin - s.center) 1 + -(Mat.mulVec s.toLocal (r.origin - s.center) 2) / Mat.mulVec s.toLocal r.dir 2 * Mat.mulVec s.toLocal r.dir 1) rec).e = Fl.nan := rfl
    constructor
    · unfold HitRecord.gaussianCurvature; rw [he]; simp
    · unfold HitRecord.meanCurvature; rw [he]; simp

example : ∃ (s : Disk (Fl exact64)) (rec' : HitRecord (Fl exact64)), s.hit ⟨cv ![0, 1/2, 2], cv ![0, 0, -1]⟩ (fin 0) pinf
    (HitRecord.default Vec.nans Vec.nans true) = (true, rec') ∧ rec'.gaussianCurvature = Fl.nan := by
  obtain ⟨s, rec', -, h⟩ := Disk.hit_case
  exact ⟨s, rec', h, (C62_curvature_nan s _ _ _ _ _ h).1⟩

/-! ## C63 -/

/-- C63, refuted: the box contains the disk exactly when the centre is on the z axis and the normal is along it; the
box ignores the other coordinates of the centre, and the normal. -/
theorem C63_box_iff_false [F.Exact] (r : ℝ) (hr : 0 < r) (c n : Fin 3 → ℝ) (hn : n ⬝ᵥ n = 1) (s : Disk (Fl F))
    (hs : Disk.make (fin r) (cv c) (cv n) = some s) :
    ∃ lo hi : Fin 3 → ℝ, s.bbox = (true, AABB.ofReal lo hi) ∧
      ((∀ p ∈ diskSet r c n, ∀ i, lo i ≤ p i ∧ p i ≤ hi i) ↔ c 0 = 0 ∧ c 1 = 0 ∧ n 0 = 0 ∧ n 1 = 0) := by
  rw [Disk.make_eq r c n hn] at hs
  cases hs
  have hn' : n 0 * n 0 + n 1 * n 1 + n 2 * n 2 = 1 := by
    simpa only [dotProduct, Fin.sum_univ_three] using hn
  refine ⟨![-r, -r, c 2], ![r, r, c 2], ?_, ?_⟩
  · unfold Disk.bbox Disk.ofReal AABB.ofReal
    simp only [Fl.neg_fin, cv_apply, cv_vec3]
  constructor
  · intro h
    have hmem : ∀ w : Fin 3 → ℝ, w 0 * n 0 + w 1 * n 1 + w 2 * n 2 = 0 → w 0 * w 0 + w 1 * w 1 + w 2 * w 2 ≤ r ^ 2 →
        c + w ∈ diskSet r c n := by
      intro w h1 h2
      refine ⟨?_, ?_⟩
      · rw [add_sub_cancel_left]; simpa only [dotProduct, Fin.sum_univ_three] using h1
      · rw [add_sub_cancel_left]; simpa only [dotProduct, Fin.sum_univ_three] using h2
    have hz : c 2 + r * (1 - n 2 * n 2) ≤ c 2 := by
      refine (h _ (hmem (![-r * (n 2 * n 0), -r * (n 2 * n 1), r * (1 - n 2 * n 2)]) ?_ ?_) 2).2
      · show -r * (n 2 * n 0) * n 0 + -r * (n 2 * n 1) * n 1 + r * (1 - n 2 * n 2) * n 2 = 0
        linear_combination (-r * n 2) * hn'
      · show -r * (n 2 * n 0) * (-r * (n 2 * n 0)) + -r * (n 2 * n 1) * (-r * (n 2 * n 1)) +
          r * (1 - n 2 * n 2) * (r * (1 - n 2 * n 2)) ≤ r ^ 2
        have : -r * (n 2 * n 0) * (-r * (n 2 * n 0)) + -r * (n 2 * n 1) * (-r * (n 2 * n 1)) +
          r * (1 - n 2 * n 2) * (r * (1 - n 2 * n 2)) = r ^ 2 - r ^ 2 * n 2 ^ 2 := by
          linear_combination (r ^ 2 * n 2 ^ 2) * hn'
        rw [this]
        nlinarith [mul_nonneg (sq_nonneg r) (sq_nonneg (n 2))]
    have hle : 1 - n 2 * n 2 ≤ 0 := by
      by_contra hc
      have := mul_pos hr (not_le.mp hc); linarith
    have h0 : n 0 = 0 := by nlinarith [mul_self_nonneg (n 0), mul_self_nonneg (n 1)]
    have h1 : n 1 = 0 := by nlinarith [mul_self_nonneg (n 0), mul_self_nonneg (n 1)]
    have a1 : ∀ e : ℝ, e = r ∨ e = -r → (-r ≤ c 0 + e ∧ c 0 + e ≤ r) ∧ (-r ≤ c 1 + e ∧ c 1 + e ≤ r) := by
      intro e he
      have hee : e * e = r ^ 2 := by rcases he with rfl | rfl <;> ring
      constructor
      · refine h _ (hmem ![e, 0, 0] ?_ ?_) 0
        · show e * n 0 + 0 * n 1 + 0 * n 2 = 0; rw [h0]; ring
        · show e * e + 0 * 0 + 0 * 0 ≤ r ^ 2; linarith
      · refine h _ (hmem ![0, e, 0] ?_ ?_) 1
        · show 0 * n 0 + e * n 1 + 0 * n 2 = 0; rw [h1]; ring
        · show 0 * 0 + e * e + 0 * 0 ≤ r ^ 2; linarith
    have p1 := a1 r (Or.inl rfl)
    have p2 := a1 (-r) (Or.inr rfl)
    exact ⟨by linarith [p1.1.2, p2.1.1], by linarith [p1.2.2, p2.2.1], h0, h1⟩
  · rintro ⟨c0, c1, n0, n1⟩ p ⟨hp1, hp2⟩ i
    simp only [dotProduct, Fin.sum_univ_three, Pi.sub_apply, c0, c1, n0, n1] at hp1 hp2
    have hn2 : n 2 ≠ 0 := by
      intro h; rw [h, n0, n1] at hn'; norm_num at hn'
    have hz : p 2 - c 2 = 0 := by
      rcases mul_eq_zero.mp (show (p 2 - c 2) * n 2 = 0 by linarith) with h | h
      · exact h
      · exact absurd h hn2
    rw [hz] at hp2
    have b0 := abs_le_of_sq_le_sq' (show p 0 ^ 2 ≤ r ^ 2 by nlinarith [sq_nonneg (p 1)]) hr.le
    have b1 := abs_le_of_sq_le_sq' (show p 1 ^ 2 ≤ r ^ 2 by nlinarith [sq_nonneg (p 0)]) hr.le
    match i with
    | 0 => exact b0
    | 1 => exact b1
    | 2 => exact ⟨show c 2 ≤ p 2 by linarith, show p 2 ≤ c 2 by linarith⟩

/-- C63: the box has no thickness, so the slab test rejects it for every ray that crosses the plane of the box. A disk in a
bounding volume tree is therefore invisible to every ray that is not parallel to the xy plane. -/
theorem C63_box_never_hit [F.Exact] (r : ℝ) (c n : Fin 3 → ℝ) (hn : n ⬝ᵥ n = 1) (s : Disk (Fl F))
    (hs : Disk.make (fin r) (cv c) (cv n) = some s) (o d : Fin 3 → ℝ) (hd : d 2 ≠ 0) (tmin tmax : Fl F)
    (h1 : isNaN tmin = false) (h2 : isNaN tmax = false) : s.bbox.2.hit ⟨cv o, cv d⟩ tmin tmax = false := by
  rw [Disk.make_eq r c n hn] at hs
  cases hs
  have e : (Disk.ofReal r c n : Disk (Fl F)).bbox.2 = AABB.ofReal ![-r, -r, c 2] ![r, r, c 2] := by
    unfold Disk.bbox Disk.ofReal AABB.ofReal
    simp only [Fl.neg_fin, cv_apply, cv_vec3]
  rw [e, Bool.eq_false_iff, ne_eq, C43_hit_iff _ _ _ _ _ _ h1 h2]
  rintro ⟨x, y, hxy, -, -, bx, bY⟩
  have g1 : c 2 ≤ o 2 + x * d 2 ∧ o 2 + x * d 2 ≤ c 2 := bx 2
  have g2 : c 2 ≤ o 2 + y * d 2 ∧ o 2 + y * d 2 ≤ c 2 := bY 2
  have : (y - x) * d 2 = 0 := by linarith [g1.1, g1.2, g2.1, g2.2]
  rcases mul_eq_zero.mp this with h | h
  · linarith
  · exact hd h

example : (Disk.ofReal (F := exact64) 1 0 ![0, 0, 1]).bbox.2.hit ⟨cv ![0, 0, 2], cv ![0, 0, -1]⟩ (fin 0) pinf = false := by
  have hn : (![0, 0, 1] : Fin 3 → ℝ) ⬝ᵥ ![0, 0, 1] = 1 := by simp [dotProduct, Fin.sum_univ_three]
  exact C63_box_never_hit 1 0 ![0, 0, 1] hn _ (Disk.make_eq 1 0 ![0, 0, 1] hn) ![0, 0, 2] ![0, 0, -1] (by simp) _ _ rfl rfl

/-- C93: a disk that is missed leaves the record as it was, for any rounding. -/
theorem C93_disk (s : Disk (Fl F)) (r : Ray (Fl F)) (tmin tmax : Fl F) (rec : HitRecord (Fl F))
    (h : (s.hit r tmin tmax rec).1 = false) : (s.hit r tmin tmax rec).2 = rec := by
  unfold Disk.hit at h ⊢
  dsimp only at h ⊢
  split_ifs at h ⊢ <;> rfl

/-- A miss: the ray of the example of `C62_parallel`. -/
example (rec : HitRecord (Fl exact64)) : ((Disk.ofReal 1 0 ![0, 0, 1]).hit ⟨cv ![-5, 0, 0], cv ![1, 0, 0]⟩ (fin 0) pinf rec).2 = rec := by
  have hn : (![0, 0, 1] : Fin 3 → ℝ) ⬝ᵥ ![0, 0, 1] = 1 := by simp [dotProduct, Fin.sum_univ_three]
  exact C93_disk _ _ _ _ _ (by
    rw [C62_parallel 1 0 ![0, 0, 1] hn _ _ (by simp [dotProduct, Fin.sum_univ_three]) _ (Disk.make_eq 1 0 ![0, 0, 1] hn)])

end DRT
