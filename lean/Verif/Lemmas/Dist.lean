import Verif.Lemmas.Vec
import Mathlib.Analysis.InnerProductSpace.PiL2

/-! The euclidean distance of the model is the distance of Mathlib's euclidean space. -/
namespace Verif.Model

open Verif

variable {n : Nat}

theorem edist_eq_dist (p q : Vec n ℝ) :
    edist p q = dist (WithLp.toLp 2 p : EuclideanSpace ℝ (Fin n)) (WithLp.toLp 2 q) := by
  rw [EuclideanSpace.dist_eq]
  simp [edist, Real.dist_eq]

theorem vnorm_eq_norm (p : Vec n ℝ) : vnorm p = ‖(WithLp.toLp 2 p : EuclideanSpace ℝ (Fin n))‖ := by
  rw [EuclideanSpace.norm_eq]
  simp [vnorm, vdot_eq, sq]

theorem edist_eq_vnorm (p q : Vec n ℝ) : edist p q = vnorm (p - q) := edist_eq p q

theorem edist_nonneg (p q : Vec n ℝ) : 0 ≤ edist p q := Real.sqrt_nonneg _

theorem edist_comm (p q : Vec n ℝ) : edist p q = edist q p := by
  rw [edist_eq_dist, edist_eq_dist, dist_comm]

theorem edist_triangle (p q r : Vec n ℝ) : edist p r ≤ edist p q + edist q r := by
  rw [edist_eq_dist, edist_eq_dist, edist_eq_dist]; exact dist_triangle _ _ _

theorem edist_self (p : Vec n ℝ) : edist p p = 0 := by rw [edist_eq_dist, dist_self]

theorem edist_eq_zero {p q : Vec n ℝ} : edist p q = 0 ↔ p = q := by
  rw [edist_eq_dist, dist_eq_zero]
  constructor
  · intro h; exact congrArg (fun x : EuclideanSpace ℝ (Fin n) => x.ofLp) h
  · rintro rfl; rfl

theorem vnorm_nonneg (u : Vec n ℝ) : 0 ≤ vnorm u := Real.sqrt_nonneg _

theorem vnorm_sq (u : Vec n ℝ) : vnorm u ^ 2 = vdot u u := Real.sq_sqrt (vdot_self_nonneg u)

theorem vnorm_mul_self (u : Vec n ℝ) : vnorm u * vnorm u = vdot u u := Real.mul_self_sqrt (vdot_self_nonneg u)

theorem vnorm_smul (x : ℝ) (u : Vec n ℝ) : vnorm (x • u) = |x| * vnorm u := by
  unfold vnorm
  rw [smul_vdot, vdot_smul, ← mul_assoc, Real.sqrt_mul (mul_self_nonneg x), Real.sqrt_mul_self_eq_abs]

theorem vnorm_eq_zero {u : Vec n ℝ} : vnorm u = 0 ↔ u = 0 := by
  unfold vnorm
  rw [Real.sqrt_eq_zero (vdot_self_nonneg u), vdot_self_eq_zero]

theorem vnorm_neg (u : Vec n ℝ) : vnorm (-u) = vnorm u := by
  unfold vnorm; rw [neg_vdot, vdot_neg, neg_neg]

theorem vnorm_add_le (u v : Vec n ℝ) : vnorm (u + v) ≤ vnorm u + vnorm v := by
  simp only [vnorm_eq_norm, WithLp.toLp_add]
  exact norm_add_le _ _

theorem edist_point (s : Seg n ℝ) (x y : ℝ) : edist (s.point x) (s.point y) = |x - y| * s.seglen := by
  rw [edist_eq_vnorm, Seg.point_eq, Seg.point_eq]
  have : s.p1 + x • s.direction - (s.p1 + y • s.direction) = (x - y) • s.direction := by
    rw [sub_smul]; abel
  rw [this, vnorm_smul, Seg.seglen, edist_comm, edist_eq_vnorm]
  rfl

end Verif.Model
