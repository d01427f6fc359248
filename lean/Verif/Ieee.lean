import Verif.SM.Lang
import Mathlib.Data.NNReal.Basic
import Mathlib.Analysis.Real.Sqrt

/-! Floating-point arithmetic: signed zeros, infinities, NaN, any rounding.  `ldouble` (include/types.h) is `double` or `long double`; both follow IEEE 754. -/

namespace Spinas

open scoped NNReal

/-- A floating-point number (include/types.h:26-33): not a number, or a sign and infinity, or a sign and a modulus. -/
inductive F where
  | nan
  | inf (neg : Bool)
  | fin (neg : Bool) (x : ℝ≥0)

/-- What IEEE 754 and the mathematical library leave open.  Nothing is assumed about these functions. -/
class Rounding where
  /-- the modulus that replaces a modulus that need not be representable (`none`: overflow); in directed modes it depends on the sign -/
  near : Bool → ℝ≥0 → Option ℝ≥0
  /-- the sign of `x - x` -/
  zero : Bool
  eps : ℝ≥0
  sin : F → F
  cos : F → F
  atan2 : F → F → F
  /-- modulus of `std::pow` -/
  pow : ℝ≥0 → Nat → Option ℝ≥0
  /-- modulus of a complex number -/
  hypot : ℝ≥0 → ℝ≥0 → Option ℝ≥0
  cmul : F × F → F × F → F × F
  cdiv : F × F → F × F → F × F
  polar : F → F → F × F

namespace F
variable [Rounding]

noncomputable section

/-- a sign and a modulus, or infinity -/
def make (s : Bool) : Option ℝ≥0 → F
  | some x => fin s x
  | none => inf s

/-- rounding -/
def round (s : Bool) (x : ℝ≥0) : F := make s (Rounding.near s x)

def neg : F → F
  | nan => nan
  | inf s => inf (!s)
  | fin s x => fin (!s) x

open Classical in
def add : F → F → F
  | nan, _ => nan
  | _, nan => nan
  | inf s, inf t => if s = t then inf s else nan
  | inf s, fin _ _ => inf s
  | fin _ _, inf t => inf t
  | fin s x, fin t y =>
    if s = t then round s (x + y)
    else if x = y then fin Rounding.zero 0
    else if y < x then round s (x - y)
    else round t (y - x)

open Classical in
def mul : F → F → F
  | nan, _ => nan
  | _, nan => nan
  | inf s, inf t => inf (s ^^ t)
  | inf s, fin t y => if y = 0 then nan else inf (s ^^ t)
  | fin s x, inf t => if x = 0 then nan else inf (s ^^ t)
  | fin s x, fin t y => round (s ^^ t) (x * y)

open Classical in
def div : F → F → F
  | nan, _ => nan
  | _, nan => nan
  | inf _, inf _ => nan
  | inf s, fin t _ => inf (s ^^ t)
  | fin s _, inf t => fin (s ^^ t) 0
  | fin s x, fin t y => if y = 0 then (if x = 0 then nan else inf (s ^^ t)) else round (s ^^ t) (x / y)

open Classical in
def sqrt : F → F
  | nan => nan
  | inf s => if s then nan else inf false
  | fin s x => if s then (if x = 0 then fin true 0 else nan) else round false (NNReal.sqrt x)

def abs : F → F
  | nan => nan
  | inf _ => inf false
  | fin _ x => fin false x

/-- the real number -/
def real (s : Bool) (x : ℝ≥0) : ℝ := if s then -x else x

open Classical in
/-- comparisons with NaN are false, zeros are equal -/
def lt : F → F → Bool
  | nan, _ => false
  | _, nan => false
  | inf s, inf t => s && !t
  | inf s, fin _ _ => s
  | fin _ _, inf t => !t
  | fin s x, fin t y => decide (real s x < real t y)

open Classical in
def eq : F → F → Bool
  | inf s, inf t => s == t
  | fin s x, fin t y => decide (real s x = real t y)
  | _, _ => false

open Classical in
/-- `std::pow(x, k)`: 1 for `k = 0`, the sign of `x` for odd `k` -/
def pow (x : F) (k : Nat) : F :=
  if k = 0 then fin false 1
  else match x with
    | nan => nan
    | inf s => inf (s && decide (k % 2 = 1))
    | fin s x => make (s && decide (k % 2 = 1)) (Rounding.pow x k)

/-- `std::abs` of a complex number: infinite if one part is -/
def cabs : F × F → F
  | (inf _, _) => inf false
  | (_, inf _) => inf false
  | (nan, _) => nan
  | (_, nan) => nan
  | (fin _ x, fin _ y) => make false (Rounding.hypot x y)

instance : Scalar F where
  add := add
  sub x y := add x (neg y)
  mul := mul
  div := div
  neg := neg
  int n := round (decide (n < 0)) n.natAbs
  dec m e := round false (m / 10 ^ e)
  eps := fin false Rounding.eps
  sqrt := sqrt
  abs := abs
  sin := Rounding.sin
  cos := Rounding.cos
  atan2 := Rounding.atan2
  lt := lt
  le x y := lt x y || eq x y
  eq := eq
  isInf x := match x with
    | inf _ => true
    | _ => false
  isNaN x := match x with
    | nan => true
    | _ => false

instance : SM.HasPow F := ⟨pow⟩

instance : Cplx F (F × F) where
  add a b := (add a.1 b.1, add a.2 b.2)
  sub a b := (add a.1 (neg b.1), add a.2 (neg b.2))
  mul := Rounding.cmul
  div := Rounding.cdiv
  neg a := (neg a.1, neg a.2)
  cart x y := (x, y)
  re := Prod.fst
  im := Prod.snd
  conj a := (a.1, neg a.2)
  abs := cabs
  polar := Rounding.polar
  smul x a := (mul x a.1, mul x a.2)
  divr a x := (div a.1 x, div a.2 x)

end
end F
end Spinas
