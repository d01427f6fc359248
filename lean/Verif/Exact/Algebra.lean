import Verif.Exact.Particle
import Mathlib.LinearAlgebra.Matrix.Determinant.Basic

/-! The matrix and vector operators on finite values are those of Mathlib. -/

namespace Spinas
open Matrix XR

abbrev M2 := Matrix (Fin 2) (Fin 2) ℂ
abbrev V2 := Fin 2 → ℂ

theorem XM_inj {A B : M2} : XM A = XM B ↔ A = B := by
  constructor
  · intro h
    simp only [XM, CMat.mk.injEq, ofC_inj] at h
    ext i j; fin_cases i <;> fin_cases j <;> simp [h]
  · rintro rfl; rfl
theorem XV_inj {v w : V2} : XV v = XV w ↔ v = w := by
  constructor
  · intro h
    simp only [XV, CVec.mk.injEq, ofC_inj] at h
    ext i; fin_cases i <;> simp [h]
  · rintro rfl; rfl

section
variable [FPEnv] (A B : M2) (v w : V2) (z : ℂ) (r : ℝ)
@[simp] theorem XM_add : XM A + XM B = XM (A + B) := by
  show CMat.add _ _ = _; simp [CMat.add, XM]
@[simp] theorem XM_sub : XM A - XM B = XM (A - B) := by
  show CMat.sub _ _ = _; simp [CMat.sub, XM]
@[simp] theorem XM_neg : -XM A = XM (-A) := by
  show CMat.neg _ = _; simp [CMat.neg, XM]
@[simp] theorem XM_mul : XM A * XM B = XM (A * B) := by
  show CMat.mul _ _ = _; simp [CMat.mul, XM, Matrix.mul_apply, Fin.sum_univ_two]
@[simp] theorem XM_mulC : (XM A).mulC (ofC z) = XM (z • A) := by simp [CMat.mulC, XM, mul_comm]
@[simp] theorem XM_mulR : (XM A).mulR (fin r) = XM ((r : ℂ) • A) := by simp [CMat.mulR, XM]
@[simp] theorem XM_mulI (n : ℤ) : (XM A).mulI n = XM ((n : ℂ) • A) := by simp [CMat.mulI, CMat.mulR, XM]
theorem XM_divC (h : z ≠ 0) : (XM A).divC (ofC z) = XM (z⁻¹ • A) := by
  simp [CMat.divC, XM, ofC_div _ h, div_eq_inv_mul]
theorem XM_divR (h : r ≠ 0) : (XM A).divR (fin r) = XM ((r : ℂ)⁻¹ • A) := by
  simp [CMat.divR, XM, c_divr _ h, div_eq_inv_mul]
theorem XM_getDet (h : (A.det).im = 0) : (XM A).getDet = .ok (fin A.det.re) := by
  have e : ofC (A 0 0) * ofC (A 1 1) - ofC (A 0 1) * ofC (A 1 0) = ofC A.det := by simp [Matrix.det_fin_two]
  unfold CMat.getDet
  simp only [XM, e, c_re, c_im, h]
  simp
  exact FPEnv.eps_pos.le

@[simp] theorem XV_dot : CVec.dot (XV v) (XV w) = ofC (v ⬝ᵥ w) := by
  simp [CVec.dot, XV, dotProduct, Fin.sum_univ_two]
@[simp] theorem XV_mulM : CVec.mulM (XV v) (XM A) = XV (v ᵥ* A) := by
  simp [CVec.mulM, XV, XM, vecMul, dotProduct, Fin.sum_univ_two]
@[simp] theorem XV_mMul : CVec.mMul (XM A) (XV v) = XV (A *ᵥ v) := by
  simp [CVec.mMul, XV, XM, mulVec, dotProduct, Fin.sum_univ_two]
@[simp] theorem XV_mulC : CVec.mulC (ofC z) (XV v) = XV (z • v) := by simp [CVec.mulC, XV]
@[simp] theorem XV_mulR : CVec.mulR (fin r) (XV v) = XV ((r : ℂ) • v) := by simp [CVec.mulR, XV]
@[simp] theorem XV_mulI (n : ℤ) : CVec.mulI n (XV v) = XV ((n : ℂ) • v) := by simp [CVec.mulI, CVec.mulR, XV]
@[simp] theorem XV_neg : -XV v = XV (-v) := by show CVec.neg _ = _; simp [CVec.neg, XV]
@[simp] theorem XV_conj : (XV v).conj = XV (star v) := by simp [CVec.conj, XV]
@[simp] theorem XV_outer : CVec.outer (XV v) (XV w) = XM (vecMulVec v w) := by simp [CVec.outer, XV, XM, vecMulVec_apply]
end

end Spinas
