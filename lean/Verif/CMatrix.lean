import Verif.Arith

/-! Model of `source/cmatrix.cpp`. -/

namespace Spinas

/-- `class cmatrix` (include/cmatrix.h): a 2x2 array of `cdouble`. -/
structure CMat (C : Type) where
  m00 : C
  m01 : C
  m10 : C
  m11 : C
  deriving DecidableEq, Repr

namespace CMat
variable {R C : Type} [Scalar R] [Cplx R C]

/-- source/cmatrix.cpp:35-36 -/
def zero : CMat C := ⟨czero, czero, czero, czero⟩

/-- source/cmatrix.cpp:38-52: `cmatrix(p, upp)` -/
def ofMom (p : V4 R) (upp : Bool) : CMat C :=
  if upp then
    ⟨Cplx.cart (p.t - p.z) (int 0), Cplx.cart (-p.x) p.y, Cplx.cart (-p.x) (-p.y), Cplx.cart (p.t + p.z) (int 0)⟩
  else
    ⟨Cplx.cart (p.t + p.z) (int 0), Cplx.cart p.x (-p.y), Cplx.cart p.x p.y, Cplx.cart (p.t - p.z) (int 0)⟩

/-- `mat[i][j]` for in-range indices (used by source/cmatrix.cpp:62). -/
def entry (m : CMat C) (i j : Bool) : C :=
  match i, j with
  | false, false => m.m00
  | false, true => m.m01
  | true, false => m.m10
  | true, true => m.m11

/-- source/cmatrix.cpp:59-63 -/
def get (m : CMat C) (i j : Int) : Res C :=
  if i < 0 ∨ i ≥ 2 ∨ j < 0 ∨ j ≥ 2 then .throw .outOfRange
  else .ok (m.entry (i == 1) (j == 1))

/-- source/cmatrix.cpp:68-77 (`get_det` and the friend `det`) -/
def getDet (m : CMat C) : Res R :=
  let det := m.m00 * m.m11 - m.m01 * m.m10
  if Scalar.lt (Scalar.eps * int 1000000) (Scalar.abs (Cplx.im det)) then .throw .complexDet
  else .ok (Cplx.re det)

/-- source/cmatrix.cpp:82-90 -/
def add (a b : CMat C) : CMat C := ⟨a.m00 + b.m00, a.m01 + b.m01, a.m10 + b.m10, a.m11 + b.m11⟩
/-- source/cmatrix.cpp:92-100 -/
def sub (a b : CMat C) : CMat C := ⟨a.m00 - b.m00, a.m01 - b.m01, a.m10 - b.m10, a.m11 - b.m11⟩
/-- source/cmatrix.cpp:101-103 -/
def neg (a : CMat C) : CMat C := ⟨-a.m00, -a.m01, -a.m10, -a.m11⟩
/-- source/cmatrix.cpp:105-117 -/
def mul (a b : CMat C) : CMat C :=
  ⟨a.m00 * b.m00 + a.m01 * b.m10, a.m00 * b.m01 + a.m01 * b.m11,
   a.m10 * b.m00 + a.m11 * b.m10, a.m10 * b.m01 + a.m11 * b.m11⟩
/-- source/cmatrix.cpp:118-129: product with a `cdouble` (either side) -/
def mulC (a : CMat C) (d : C) : CMat C := ⟨a.m00 * d, a.m01 * d, a.m10 * d, a.m11 * d⟩
/-- source/cmatrix.cpp:130-141: product with an `ldouble` (either side) -/
def mulR (a : CMat C) (d : R) : CMat C :=
  ⟨Cplx.smul d a.m00, Cplx.smul d a.m01, Cplx.smul d a.m10, Cplx.smul d a.m11⟩
/-- source/cmatrix.cpp:142-153: product with an `int` (either side) -/
def mulI (a : CMat C) (d : Int) : CMat C := a.mulR (int d : R)
/-- source/cmatrix.cpp:156-164 -/
def divC (a : CMat C) (d : C) : CMat C := ⟨a.m00 / d, a.m01 / d, a.m10 / d, a.m11 / d⟩
/-- source/cmatrix.cpp:165-173 -/
def divR (a : CMat C) (d : R) : CMat C :=
  ⟨Cplx.divr a.m00 d, Cplx.divr a.m01 d, Cplx.divr a.m10 d, Cplx.divr a.m11 d⟩
/-- source/cmatrix.cpp:174-182 -/
def divI (a : CMat C) (d : Int) : CMat C := a.divR (int d : R)

/-- source/cmatrix.cpp:190: the test that makes `==` return false for one entry -/
def entryDiffers (a b : C) : Bool := Scalar.lt (Scalar.eps * int 1000000) (Cplx.abs (a - b))

/-- source/cmatrix.cpp:186-192 -/
def beq (a b : CMat C) : Bool :=
  !(entryDiffers a.m00 b.m00 || entryDiffers a.m01 b.m01 || entryDiffers a.m10 b.m10 || entryDiffers a.m11 b.m11)
/-- source/cmatrix.cpp:193-195 -/
def bne (a b : CMat C) : Bool := !(beq a b)

/-- `mat[i][j] = x` -/
def setEntry (m : CMat C) (i j : Bool) (x : C) : CMat C :=
  match i, j with
  | false, false => { m with m00 := x }
  | false, true => { m with m01 := x }
  | true, false => { m with m10 := x }
  | true, true => { m with m11 := x }

/-- A store of matrices by address, to express that the operands of the compound assignments may be the same object. -/
abbrev Store (C : Type) := Nat → CMat C

/-- store one matrix -/
def Store.put (h : Store C) (a : Nat) (m : CMat C) : Store C := fun b => if b = a then m else h b

/-- one step of the loops of source/cmatrix.cpp:85-89 and 95-99 -/
def assignStep (op : C → C → C) (dst src : Nat) (h : Store C) (ij : Bool × Bool) : Store C :=
  h.put dst ((h dst).setEntry ij.1 ij.2 (op ((h dst).entry ij.1 ij.2) ((h src).entry ij.1 ij.2)))

/-- the order of the index pairs in the loops -/
def loopOrder : List (Bool × Bool) := [(false, false), (false, true), (true, false), (true, true)]

/-- source/cmatrix.cpp:85-90: `dst += src` -/
def addAssign (dst src : Nat) (h : Store C) : Store C := loopOrder.foldl (assignStep (· + ·) dst src) h
/-- source/cmatrix.cpp:95-100: `dst -= src` -/
def subAssign (dst src : Nat) (h : Store C) : Store C := loopOrder.foldl (assignStep (· - ·) dst src) h
/-- source/cmatrix.cpp:108-117: `dst *= src`; all entries are computed into `mnew` first, then stored -/
def mulAssign (dst src : Nat) (h : Store C) : Store C :=
  let mnew : CMat C := ⟨(h dst).m00 * (h src).m00 + (h dst).m01 * (h src).m10, (h dst).m00 * (h src).m01 + (h dst).m01 * (h src).m11,
    (h dst).m10 * (h src).m00 + (h dst).m11 * (h src).m10, (h dst).m10 * (h src).m01 + (h dst).m11 * (h src).m11⟩
  loopOrder.foldl (fun h ij => h.put dst ((h dst).setEntry ij.1 ij.2 (mnew.entry ij.1 ij.2))) h

instance : Add (CMat C) := ⟨add⟩
instance : Sub (CMat C) := ⟨sub⟩
instance : Neg (CMat C) := ⟨neg⟩
instance : Mul (CMat C) := ⟨mul⟩

end CMat
end Spinas
