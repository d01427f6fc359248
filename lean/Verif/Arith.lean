/-
Arithmetic interface, outcomes and state-passing programs.

`ldouble` (include/types.h) is `double` or `long double`; `cdouble` is `std::complex<ldouble>`.
The library is modelled over arbitrary types carrying the operations the code uses and NO laws.
-/

namespace Spinas

/-- The operations the code performs on `ldouble` (include/types.h).  No laws are assumed. -/
class Scalar (R : Type) extends Add R, Sub R, Mul R, Div R, Neg R where
  /-- conversion from an `int` (or from a literal such as `2`, `1.`) -/
  int : Int → R
  /-- decimal literal `m * 10^(-e)`, e.g. `0.95` is `dec 95 2` -/
  dec : Nat → Nat → R
  /-- `std::numeric_limits<ldouble>::epsilon()` -/
  eps : R
  sqrt : R → R
  abs : R → R
  sin : R → R
  cos : R → R
  atan2 : R → R → R
  /-- `a < b` (and `b > a`) -/
  lt : R → R → Bool
  /-- `a <= b` (and `b >= a`) -/
  le : R → R → Bool
  /-- `a == b` -/
  eq : R → R → Bool
  isInf : R → Bool
  isNaN : R → Bool

/-- The operations the code performs on `cdouble = std::complex<ldouble>`.  No laws are assumed.
`smul` is both `ldouble * cdouble` and `cdouble * ldouble` (both are the component-wise product). -/
class Cplx (R : outParam Type) (C : Type) [Scalar R] extends Add C, Sub C, Mul C, Div C, Neg C where
  /-- `cdouble(re, im)` -/
  cart : R → R → C
  re : C → R
  im : C → R
  conj : C → C
  abs : C → R
  polar : R → R → C
  smul : R → C → C
  divr : C → R → C

export Scalar (int dec)

/-- The exceptions thrown by the library, by throw site. -/
inductive Exc where
  /-- source/particle.cpp:72 -/
  | massShell
  /-- source/particle.cpp:157,168,179,190 -/
  | helicityOfMassive
  /-- source/particle.cpp:204,231,258,285,312,338,366,393 -/
  | badSpin
  /-- source/particle.cpp:210,220,... -/
  | spinOfMassless
  /-- source/cmatrix.cpp:61, source/cvector.cpp:47 -/
  | outOfRange
  /-- source/cmatrix.cpp:72 -/
  | complexDet
  /-- source/sproduct.cpp:258 -/
  | lowerLeft
  /-- source/sproduct.cpp:260 -/
  | lowerRight
  /-- source/sproduct.cpp:289 -/
  | arityNone
  /-- source/sproduct.cpp:321,353,383 -/
  | arityOne
  /-- source/sproduct.cpp:389 -/
  | arityTwo
  /-- SM/gggg.cpp:170 -/
  | gluonHelicity
  /-- source/process.cpp:42 -/
  | notImplemented
  deriving DecidableEq, Repr

/-- Outcome of a call: a value, an exception, or `crash` (an indeterminate pointer is followed or an
array is indexed out of bounds: undefined behaviour with no sensible continuation). -/
inductive Res (α : Type) where
  | ok (a : α)
  | throw (e : Exc)
  | crash
  deriving Repr, DecidableEq

/-- A member function: takes the state, returns an outcome and the new state.
State changes made before a `throw` persist. -/
def Prog (σ α : Type) : Type := σ → Res α × σ

namespace Prog
variable {σ α β : Type}

def pure (a : α) : Prog σ α := fun s => (.ok a, s)
def throw (e : Exc) : Prog σ α := fun s => (.throw e, s)
def crash : Prog σ α := fun s => (.crash, s)
def get : Prog σ σ := fun s => (.ok s, s)
def set (s : σ) : Prog σ Unit := fun _ => (.ok (), s)
def modify (f : σ → σ) : Prog σ Unit := fun s => (.ok (), f s)
def bind (x : Prog σ α) (f : α → Prog σ β) : Prog σ β := fun s =>
  match x s with
  | (.ok a, s') => f a s'
  | (.throw e, s') => (.throw e, s')
  | (.crash, s') => (.crash, s')

instance : Monad (Prog σ) where
  pure := pure
  bind := bind

@[simp] theorem pure_run (a : α) (s : σ) : (Pure.pure a : Prog σ α) s = (.ok a, s) := rfl
@[simp] theorem throw_run (e : Exc) (s : σ) : (throw e : Prog σ α) s = (.throw e, s) := rfl
@[simp] theorem crash_run (s : σ) : (crash : Prog σ α) s = (.crash, s) := rfl
@[simp] theorem get_run (s : σ) : (get : Prog σ σ) s = (.ok s, s) := rfl
@[simp] theorem set_run (s t : σ) : (set t : Prog σ Unit) s = (.ok (), t) := rfl
@[simp] theorem modify_run (f : σ → σ) (s : σ) : (modify f : Prog σ Unit) s = (.ok (), f s) := rfl
theorem bind_run (x : Prog σ α) (f : α → Prog σ β) (s : σ) :
    (x >>= f) s = match x s with
      | (.ok a, s') => f a s'
      | (.throw e, s') => (.throw e, s')
      | (.crash, s') => (.crash, s') := rfl
theorem bind_ok {x : Prog σ α} {f : α → Prog σ β} {s s' : σ} {a : α} (h : x s = (.ok a, s')) :
    (x >>= f) s = f a s' := by rw [bind_run, h]
theorem bind_throw {x : Prog σ α} {f : α → Prog σ β} {s s' : σ} {e : Exc} (h : x s = (.throw e, s')) :
    (x >>= f) s = (.throw e, s') := by rw [bind_run, h]
theorem bind_crash {x : Prog σ α} {f : α → Prog σ β} {s s' : σ} (h : x s = (.crash, s')) :
    (x >>= f) s = (.crash, s') := by rw [bind_run, h]

end Prog

/-- `ldouble p[4]`. -/
structure V4 (R : Type) where
  t : R
  x : R
  y : R
  z : R
  deriving DecidableEq, Repr

variable {R C : Type} [Scalar R] [Cplx R C]

/-- `a != b` on scalars. -/
def Scalar.ne (a b : R) : Bool := !(Scalar.eq a b)

/-- `cdouble()` / `cdouble(0,0)`. -/
def czero : C := Cplx.cart (int 0 : R) (int 0)

/-- `cdouble(x, 0)`: also the implicit conversion of an `ldouble` to `cdouble`. -/
def ofReal (x : R) : C := Cplx.cart x (int 0 : R)

/-- `std::polar(rho, theta)` has undefined behaviour unless `rho` is non-negative (and not NaN), [complex.value.ops]. -/
def polarUB (rho : R) : Bool := !(Scalar.le (int 0) rho)

end Spinas
