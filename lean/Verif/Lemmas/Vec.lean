import Verif.Model.Geom
import Mathlib.Algebra.Order.BigOperators.Ring.Finset
import Mathlib.Tactic.Ring
import Mathlib.Tactic.FieldSimp
import Mathlib.Tactic.Positivity
import Mathlib.Tactic.LinearCombination

/-! Algebra of the dot product. -/
namespace Verif.Model

open Verif

variable {K : Type} [Field K] [LinearOrder K] [IsStrictOrderedRing K] {n : Nat}

theorem vdot_eq (u v : Vec n K) : vdot u v = ∑ i, u i * v i := rfl

theorem vdot_comm (u v : Vec n K) : vdot u v = vdot v u := by simp only [vdot_eq, mul_comm]

theorem vdot_add (u v w : Vec n K) : vdot u (v + w) = vdot u v + vdot u w := by
  simp [vdot_eq, mul_add, Finset.sum_add_distrib]

theorem vdot_sub (u v w : Vec n K) : vdot u (v - w) = vdot u v - vdot u w := by
  simp [vdot_eq, mul_sub, Finset.sum_sub_distrib]

theorem vdot_smul (x : K) (u v : Vec n K) : vdot u (x • v) = x * vdot u v := by
  simp only [vdot_eq, Finset.mul_sum, Pi.smul_apply, smul_eq_mul]
  exact Finset.sum_congr rfl fun i _ => by ring

theorem add_vdot (u v w : Vec n K) : vdot (u + v) w = vdot u w + vdot v w := by
  rw [vdot_comm, vdot_add, vdot_comm w, vdot_comm w]

theorem sub_vdot (u v w : Vec n K) : vdot (u - v) w = vdot u w - vdot v w := by
  rw [vdot_comm, vdot_sub, vdot_comm w, vdot_comm w]

theorem smul_vdot (x : K) (u v : Vec n K) : vdot (x • u) v = x * vdot u v := by
  rw [vdot_comm, vdot_smul, vdot_comm]

theorem vdot_neg (u v : Vec n K) : vdot u (-v) = - vdot u v := by
  have := vdot_smul (-1) u v; simpa using this

theorem neg_vdot (u v : Vec n K) : vdot (-u) v = - vdot u v := by
  have := smul_vdot (-1) u v; simpa using this

theorem vdot_zero (u : Vec n K) : vdot u 0 = 0 := by simp [vdot_eq]

theorem zero_vdot (u : Vec n K) : vdot 0 u = 0 := by simp [vdot_eq]

theorem vdot_self_nonneg (u : Vec n K) : 0 ≤ vdot u u := by
  rw [vdot_eq]
  exact Finset.sum_nonneg fun i _ => mul_self_nonneg (u i)

theorem vdot_self_eq_zero {u : Vec n K} : vdot u u = 0 ↔ u = 0 := by
  constructor
  · intro h
    rw [vdot_eq] at h
    funext i
    have := (Finset.sum_eq_zero_iff_of_nonneg (fun i _ => mul_self_nonneg (u i))).1 h i (Finset.mem_univ i)
    simpa using this
  · rintro rfl; exact vdot_zero _

theorem vdot_self_pos {u : Vec n K} (h : u ≠ 0) : 0 < vdot u u :=
  lt_of_le_of_ne (vdot_self_nonneg u) fun e => h (vdot_self_eq_zero.1 e.symm)

/-- |c u - b v|² with c = v·v, b = u·v. -/
theorem gram_vec (u v : Vec n K) :
    vdot (vdot v v • u - vdot u v • v) (vdot v v • u - vdot u v • v) =
      vdot v v * (vdot u u * vdot v v - vdot u v * vdot u v) := by
  simp only [sub_vdot, vdot_sub, smul_vdot, vdot_smul]
  rw [vdot_comm v u]
  ring

/-- Cauchy-Schwarz. -/
theorem gram_nonneg (u v : Vec n K) : 0 ≤ vdot u u * vdot v v - vdot u v * vdot u v := by
  by_cases h : v = 0
  · subst h; simp [vdot_zero]
  · have h1 := vdot_self_nonneg (vdot v v • u - vdot u v • v)
    rw [gram_vec] at h1
    exact nonneg_of_mul_nonneg_right h1 (vdot_self_pos h)

/-- Equality in Cauchy-Schwarz: the vectors are dependent. -/
theorem gram_zero {u v : Vec n K} (h : vdot u u * vdot v v - vdot u v * vdot u v = 0) :
    vdot v v • u = vdot u v • v := by
  have h1 := gram_vec u v
  rw [h, mul_zero, vdot_self_eq_zero, sub_eq_zero] at h1
  exact h1

/-- The Gram determinant of multiples is 0. -/
theorem gram_of_smul (x : K) (v : Vec n K) :
    vdot (x • v) (x • v) * vdot v v - vdot (x • v) v * vdot (x • v) v = 0 := by
  simp only [smul_vdot, vdot_smul]; ring

theorem Seg.point_eq (s : Seg n K) (t : K) : s.point t = s.p1 + t • s.direction := by
  funext i; simp [Seg.point, mul_comm]

theorem edist_eq (p q : Vec n ℝ) : edist p q = √ (vdot (p - q) (p - q)) := by
  simp [edist, vdot_eq, sq]

end Verif.Model
