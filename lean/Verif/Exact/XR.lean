import Verif.CVector
import Mathlib.Analysis.SpecialFunctions.Complex.Arg
import Mathlib.Analysis.SpecialFunctions.Trigonometric.Basic
import Mathlib.Analysis.Real.Sqrt

/-! The exact instance of the arithmetic: real numbers extended by one non-finite value. -/

namespace Spinas

open Classical

/-- Properties of the floating-point environment the exact instance is parametric in:
the machine epsilon, and the value of `atan2(0,0)` (which in C++ depends on the signs of the zeros). -/
class FPEnv where
  eps : ℝ
  eps_pos : 0 < eps
  atan00 : ℝ
  atan00_nonneg : 0 ≤ atan00
  atan00_le : atan00 ≤ Real.pi

/-- Real numbers plus `nan` (any non-finite result).  `nan` propagates and compares false with everything. -/
inductive XR where
  | fin (x : ℝ)
  | nan

namespace XR

noncomputable instance : Add XR := ⟨fun a b => match a, b with | fin x, fin y => fin (x + y) | _, _ => nan⟩
noncomputable instance : Sub XR := ⟨fun a b => match a, b with | fin x, fin y => fin (x - y) | _, _ => nan⟩
noncomputable instance : Mul XR := ⟨fun a b => match a, b with | fin x, fin y => fin (x * y) | _, _ => nan⟩
/-- division by zero is not finite -/
noncomputable instance : Div XR :=
  ⟨fun a b => match a, b with | fin x, fin y => if y = 0 then nan else fin (x / y) | _, _ => nan⟩
noncomputable instance : Neg XR := ⟨fun a => match a with | fin x => fin (-x) | nan => nan⟩

/-- apply a total real function -/
noncomputable def lift (f : ℝ → ℝ) : XR → XR
  | fin x => fin (f x)
  | nan => nan

/-- square root; not finite for negative arguments -/
noncomputable def sqrt : XR → XR
  | fin x => if x < 0 then nan else fin (Real.sqrt x)
  | nan => nan

/-- the real-valued `atan2 y x` -/
noncomputable def ratan2 [FPEnv] (y x : ℝ) : ℝ :=
  if x = 0 ∧ y = 0 then FPEnv.atan00 else Complex.arg ⟨x, y⟩

noncomputable def atan2 [FPEnv] : XR → XR → XR
  | fin y, fin x => fin (ratan2 y x)
  | _, _ => nan

noncomputable instance [FPEnv] : Scalar XR where
  int n := fin n
  dec m e := fin (m / 10 ^ e)
  eps := fin FPEnv.eps
  sqrt := sqrt
  abs := lift fun x => |x|
  sin := lift Real.sin
  cos := lift Real.cos
  atan2 := atan2
  lt a b := match a, b with | fin x, fin y => decide (x < y) | _, _ => false
  le a b := match a, b with | fin x, fin y => decide (x ≤ y) | _, _ => false
  eq a b := match a, b with | fin x, fin y => decide (x = y) | _, _ => false
  isInf _ := false
  isNaN a := match a with | fin _ => false | nan => true

section
variable (x y : ℝ)
@[simp] theorem fin_inj {x y : ℝ} : fin x = fin y ↔ x = y := ⟨fun h => by injection h, fun h => by rw [h]⟩
@[simp] theorem fin_ne_nan : fin x ≠ nan := by intro h; cases h
@[simp] theorem nan_ne_fin : nan ≠ fin x := by intro h; cases h
@[simp] theorem fin_add : fin x + fin y = fin (x + y) := rfl
@[simp] theorem fin_sub : fin x - fin y = fin (x - y) := rfl
@[simp] theorem fin_mul : fin x * fin y = fin (x * y) := rfl
@[simp] theorem fin_neg : -fin x = fin (-x) := rfl
theorem fin_div_def : fin x / fin y = if y = 0 then nan else fin (x / y) := rfl
theorem fin_div {x y : ℝ} (h : y ≠ 0) : fin x / fin y = fin (x / y) := by rw [fin_div_def, if_neg h]
@[simp] theorem fin_div_two : fin x / fin 2 = fin (x / 2) := fin_div two_ne_zero
@[simp] theorem nan_add (a : XR) : nan + a = nan := rfl
@[simp] theorem add_nan (a : XR) : a + nan = nan := by cases a <;> rfl
@[simp] theorem nan_sub (a : XR) : nan - a = nan := rfl
@[simp] theorem sub_nan (a : XR) : a - nan = nan := by cases a <;> rfl
@[simp] theorem nan_mul (a : XR) : nan * a = nan := rfl
@[simp] theorem mul_nan (a : XR) : a * nan = nan := by cases a <;> rfl
@[simp] theorem nan_div (a : XR) : nan / a = nan := rfl
@[simp] theorem div_nan (a : XR) : a / nan = nan := by cases a <;> rfl
@[simp] theorem neg_nan : -nan = nan := rfl
variable [FPEnv]
@[simp] theorem s_int (n : ℤ) : (int n : XR) = fin n := rfl
@[simp] theorem s_dec (m e : ℕ) : (dec m e : XR) = fin (m / 10 ^ e) := rfl
@[simp] theorem s_eps : (Scalar.eps : XR) = fin FPEnv.eps := rfl
theorem s_sqrt_def : Scalar.sqrt (fin x) = if x < 0 then nan else fin (Real.sqrt x) := rfl
theorem s_sqrt {x : ℝ} (h : 0 ≤ x) : Scalar.sqrt (fin x) = fin (Real.sqrt x) := by
  rw [s_sqrt_def, if_neg (not_lt.mpr h)]
theorem s_sqrt_neg {x : ℝ} (h : x < 0) : Scalar.sqrt (fin x) = nan := by
  rw [s_sqrt_def, if_pos h]
@[simp] theorem s_sqrt_nan : Scalar.sqrt nan = nan := rfl
@[simp] theorem s_abs : Scalar.abs (fin x) = fin |x| := rfl
@[simp] theorem s_abs_nan : Scalar.abs nan = nan := rfl
@[simp] theorem s_sin : Scalar.sin (fin x) = fin (Real.sin x) := rfl
@[simp] theorem s_cos : Scalar.cos (fin x) = fin (Real.cos x) := rfl
@[simp] theorem s_atan2 : Scalar.atan2 (fin x) (fin y) = fin (ratan2 x y) := rfl
@[simp] theorem s_lt : Scalar.lt (fin x) (fin y) = decide (x < y) := rfl
@[simp] theorem s_lt_nan (a : XR) : Scalar.lt a nan = false := by cases a <;> rfl
@[simp] theorem s_nan_lt (a : XR) : Scalar.lt nan a = false := rfl
@[simp] theorem s_le : Scalar.le (fin x) (fin y) = decide (x ≤ y) := rfl
@[simp] theorem s_le_nan (a : XR) : Scalar.le a nan = false := by cases a <;> rfl
@[simp] theorem s_eq : Scalar.eq (fin x) (fin y) = decide (x = y) := rfl
@[simp] theorem s_ne : Scalar.ne (fin x) (fin y) = !decide (x = y) := rfl
@[simp] theorem s_isInf (a : XR) : Scalar.isInf a = false := rfl
@[simp] theorem s_isNaN_fin : Scalar.isNaN (fin x) = false := rfl
@[simp] theorem s_isNaN_nan : Scalar.isNaN nan = true := rfl
end

end XR

open XR

/-- `std::complex` over the extended reals -/
@[ext] structure XC where
  re : XR
  im : XR

/-- the embedding of the complex numbers: finite values -/
noncomputable def ofC (z : ℂ) : XC := ⟨.fin z.re, .fin z.im⟩

namespace XC

noncomputable instance : Add XC := ⟨fun a b => ⟨a.re + b.re, a.im + b.im⟩⟩
noncomputable instance : Sub XC := ⟨fun a b => ⟨a.re - b.re, a.im - b.im⟩⟩
noncomputable instance : Mul XC := ⟨fun a b => ⟨a.re * b.re - a.im * b.im, a.re * b.im + a.im * b.re⟩⟩
noncomputable instance : Div XC := ⟨fun a b =>
  let n := b.re * b.re + b.im * b.im
  ⟨(a.re * b.re + a.im * b.im) / n, (a.im * b.re - a.re * b.im) / n⟩⟩
noncomputable instance : Neg XC := ⟨fun a => ⟨-a.re, -a.im⟩⟩

noncomputable instance [FPEnv] : Cplx XR XC where
  cart x y := ⟨x, y⟩
  re a := a.re
  im a := a.im
  conj a := ⟨a.re, -a.im⟩
  abs a := XR.sqrt (a.re * a.re + a.im * a.im)
  polar r t := ⟨r * XR.lift Real.cos t, r * XR.lift Real.sin t⟩
  smul r a := ⟨r * a.re, r * a.im⟩
  divr a r := ⟨a.re / r, a.im / r⟩

end XC

section
variable (z w : ℂ) (x y : ℝ)
@[simp] theorem ofC_inj {z w : ℂ} : ofC z = ofC w ↔ z = w := by
  constructor
  · intro h
    have h1 := congrArg XC.re h
    have h2 := congrArg XC.im h
    simp only [ofC, fin_inj] at h1 h2
    exact Complex.ext h1 h2
  · rintro rfl; rfl
@[simp] theorem ofC_add : ofC z + ofC w = ofC (z + w) := rfl
@[simp] theorem ofC_sub : ofC z - ofC w = ofC (z - w) := rfl
@[simp] theorem ofC_mul : ofC z * ofC w = ofC (z * w) := by
  show XC.mk _ _ = XC.mk _ _
  simp [ofC, Complex.mul_re, Complex.mul_im]
@[simp] theorem ofC_neg : -ofC z = ofC (-z) := rfl
theorem ofC_div {w : ℂ} (h : w ≠ 0) : ofC z / ofC w = ofC (z / w) := by
  have h' : w.re * w.re + w.im * w.im ≠ 0 := by
    rw [← Complex.normSq_apply]; simpa [Complex.normSq_eq_zero] using h
  show XC.mk _ _ = XC.mk _ _
  simp only [ofC, fin_mul, fin_add, fin_sub]
  rw [fin_div h', fin_div h']
  simp only [Complex.div_re, Complex.div_im, Complex.normSq_apply, XC.mk.injEq, fin_inj]
  constructor <;> ring
variable [FPEnv]
@[simp] theorem c_conj : Cplx.conj (ofC z) = ofC ((starRingEnd ℂ) z) := by
  show XC.mk _ _ = XC.mk _ _
  simp [ofC]
@[simp] theorem c_cart : (Cplx.cart (fin x) (fin y) : XC) = ofC ⟨x, y⟩ := rfl
theorem c_cart_zero : (Cplx.cart (fin x) (fin 0) : XC) = ofC (x : ℂ) := rfl
@[simp] theorem c_re : (Cplx.re (ofC z) : XR) = fin z.re := rfl
@[simp] theorem c_im : (Cplx.im (ofC z) : XR) = fin z.im := rfl
@[simp] theorem c_abs : (Cplx.abs (ofC z) : XR) = fin ‖z‖ := by
  show XR.sqrt _ = _
  simp only [ofC, fin_mul, fin_add]
  rw [XR.sqrt, if_neg (by nlinarith [mul_self_nonneg z.re, mul_self_nonneg z.im])]
  rw [Complex.norm_def, Complex.normSq_apply]
@[simp] theorem c_smul : (Cplx.smul (fin x) (ofC z) : XC) = ofC (x * z) := by
  show XC.mk _ _ = XC.mk _ _
  simp [ofC]
@[simp] theorem c_polar : (Cplx.polar (fin x) (fin y) : XC) = ofC (x * Complex.exp (y * Complex.I)) := by
  show XC.mk _ _ = XC.mk _ _
  simp [XR.lift, Complex.exp_ofReal_mul_I_re, Complex.exp_ofReal_mul_I_im]
theorem c_divr {x : ℝ} (h : x ≠ 0) : (Cplx.divr (ofC z) (fin x) : XC) = ofC (z / x) := by
  show XC.mk _ _ = XC.mk _ _
  simp [ofC, fin_div h]
@[simp] theorem c_zero : (czero : XC) = ofC 0 := by
  show XC.mk _ _ = XC.mk _ _
  simp
@[simp] theorem c_ofReal : (ofReal (fin x) : XC) = ofC (x : ℂ) := by
  show XC.mk _ _ = XC.mk _ _
  simp
end

end Spinas

namespace Spinas

/-- The environment of a `double` build: epsilon = 2^-52, `atan2(0,0) = 0`. Used in examples and witnesses. -/
@[reducible] noncomputable def doubleEnv : FPEnv where
  eps := 1 / 2 ^ 52
  eps_pos := by positivity
  atan00 := 0
  atan00_nonneg := le_refl _
  atan00_le := Real.pi_pos.le

/-- Arbitrary contents of uninitialised members, for examples. -/
noncomputable def someReal : XR := .fin 42

end Spinas
