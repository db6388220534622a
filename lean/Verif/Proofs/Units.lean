import Verif.Model.Pint
import Mathlib.Tactic

/-! # Dimensions and sizes of unit containers -/

set_option linter.unusedSectionVars false

namespace TwoLayer
variable {N D : Type} [Fintype N] [DecidableEq N]

section dim
variable (dim : N → D → ℚ)
@[simp] theorem dimOf_zero : dimOf dim (0 : Units N) = 0 := by
  funext d; simp [dimOf]
@[simp] theorem dimOf_add (u v : Units N) : dimOf dim (u + v) = dimOf dim u + dimOf dim v := by
  funext d; simp [dimOf, add_mul, Finset.sum_add_distrib]
@[simp] theorem dimOf_neg (u : Units N) : dimOf dim (-u) = -dimOf dim u := by
  funext d; simp [dimOf]
@[simp] theorem dimOf_sub (u v : Units N) : dimOf dim (u - v) = dimOf dim u - dimOf dim v := by
  rw [sub_eq_add_neg, dimOf_add, dimOf_neg, sub_eq_add_neg]
@[simp] theorem dimOf_smul (q : ℚ) (u : Units N) : dimOf dim (q • u) = q • dimOf dim u := by
  funext d; simp [dimOf, Finset.mul_sum, mul_assoc]
@[simp] theorem dimOf_u1 (n : N) : dimOf dim (u1 n) = dim n := by
  funext d; simp [dimOf, u1, Pi.single_apply]
theorem dimOf_sum {ι : Type} (s : Finset ι) (f : ι → Units N) :
    dimOf dim (∑ i ∈ s, f i) = ∑ i ∈ s, dimOf dim (f i) := by
  classical
  induction s using Finset.induction_on with
  | empty => simp
  | insert a s ha ih => rw [Finset.sum_insert ha, dimOf_add, ih, Finset.sum_insert ha]
end dim

section scale
variable {scale : N → ℝ} (hs : ∀ n, 0 < scale n)
include hs
theorem scaleOf_pos (u : Units N) : 0 < scaleOf scale u :=
  Finset.prod_pos fun n _ => Real.rpow_pos_of_pos (hs n) _
theorem scaleOf_ne (u : Units N) : scaleOf scale u ≠ 0 := (scaleOf_pos hs u).ne'
omit hs in
@[simp] theorem scaleOf_zero : scaleOf scale (0 : Units N) = 1 := by simp [scaleOf]
theorem scaleOf_add (u v : Units N) : scaleOf scale (u + v) = scaleOf scale u * scaleOf scale v := by
  simp only [scaleOf, ← Finset.prod_mul_distrib]
  refine Finset.prod_congr rfl fun n _ => ?_
  rw [← Real.rpow_add (hs n)]; simp
theorem scaleOf_neg (u : Units N) : scaleOf scale (-u) = (scaleOf scale u)⁻¹ := by
  have h := scaleOf_add hs u (-u)
  rw [add_neg_cancel, scaleOf_zero] at h
  exact eq_inv_of_mul_eq_one_right h.symm
theorem scaleOf_sub (u v : Units N) : scaleOf scale (u - v) = scaleOf scale u / scaleOf scale v := by
  rw [sub_eq_add_neg, scaleOf_add hs, scaleOf_neg hs, div_eq_mul_inv]
theorem scaleOf_smul (q : ℚ) (u : Units N) : scaleOf scale (q • u) = (scaleOf scale u) ^ (q : ℝ) := by
  simp only [scaleOf]
  rw [← Real.finsetProd_rpow _ _ (fun n _ => (Real.rpow_pos_of_pos (hs n) _).le)]
  refine Finset.prod_congr rfl fun n _ => ?_
  rw [← Real.rpow_mul (hs n).le]; simp [mul_comm]
omit hs in
@[simp] theorem scaleOf_u1 (n : N) : scaleOf scale (u1 n) = scale n := by
  rw [scaleOf, Finset.prod_eq_single n]
  · simp [u1]
  · intro b _ hb; simp [u1, hb]
  · simp
end scale

end TwoLayer
