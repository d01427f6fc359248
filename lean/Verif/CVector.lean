import Verif.CMatrix

/-! Model of `source/cvector.cpp`. -/

namespace Spinas

/-- `class cvector` (include/cvector.h): a pair of `cdouble`. -/
structure CVec (C : Type) where
  v0 : C
  v1 : C
  deriving DecidableEq, Repr

namespace CVec
variable {R C : Type} [Scalar R] [Cplx R C]

/-- source/cvector.cpp:34-35 -/
def zero : CVec C := ⟨czero, czero⟩

/-- source/cvector.cpp:45-49 -/
def get (v : CVec C) (i : Int) : Res C :=
  if i < 0 ∨ i ≥ 2 then .throw .outOfRange else .ok (if i == 1 then v.v1 else v.v0)

/-- source/cvector.cpp:52-54 -/
def conj (v : CVec C) : CVec C := ⟨Cplx.conj v.v0, Cplx.conj v.v1⟩

/-- source/cvector.cpp:59-61: `v*w` (no conjugation) -/
def dot (v w : CVec C) : C := v.v0 * w.v0 + v.v1 * w.v1

/-- source/cvector.cpp:62-69: `v*M`, accumulated onto zero in the order of the loops -/
def mulM (v : CVec C) (m : CMat C) : CVec C :=
  ⟨czero + v.v0 * m.m00 + v.v1 * m.m10, czero + v.v0 * m.m01 + v.v1 * m.m11⟩

/-- source/cvector.cpp:70-77: `M*v` -/
def mMul (m : CMat C) (v : CVec C) : CVec C :=
  ⟨czero + m.m00 * v.v0 + m.m01 * v.v1, czero + m.m10 * v.v0 + m.m11 * v.v1⟩

/-- source/cvector.cpp:78-83 -/
def mulC (d : C) (v : CVec C) : CVec C := ⟨d * v.v0, d * v.v1⟩
/-- source/cvector.cpp:84-89 -/
def mulR (d : R) (v : CVec C) : CVec C := ⟨Cplx.smul d v.v0, Cplx.smul d v.v1⟩
/-- source/cvector.cpp:90-97 -/
def mulI (d : Int) (v : CVec C) : CVec C := mulR (int d : R) v
/-- source/cvector.cpp:99-101 -/
def neg (v : CVec C) : CVec C := ⟨-v.v0, -v.v1⟩
/-- source/cvector.cpp:104-107 -/
def outer (v w : CVec C) : CMat C := ⟨v.v0 * w.v0, v.v0 * w.v1, v.v1 * w.v0, v.v1 * w.v1⟩

/-- source/cvector.cpp:115 -/
def entryDiffers (a b : C) : Bool := Scalar.lt (Scalar.eps * int 10000000) (Cplx.abs (a - b))
/-- source/cvector.cpp:112-117 -/
def beq (a b : CVec C) : Bool := !(entryDiffers a.v0 b.v0 || entryDiffers a.v1 b.v1)
/-- source/cvector.cpp:119-121 -/
def bne (a b : CVec C) : Bool := !(beq a b)

instance : Neg (CVec C) := ⟨neg⟩

end CVec
namespace Util
variable {R : Type} [Scalar R]
variable {C : Type} [Cplx R C]

/-- `cmatrix::to_string` and `cmatrix::to_Mathematica_string`, source/cmatrix.cpp:203-210, 218-225 (the same text twice), over an
arbitrary formatting `fmt` of numbers by the stream -/
def matString (fmt : R → List Char) (m : CMat C) : List Char :=
  let z (c : C) : List Char := fmt (Cplx.re c) ++ " + I* ".toList ++ fmt (Cplx.im c)
  "{ { ".toList ++ z m.m00 ++ " , ".toList ++ z m.m01 ++ " } , { ".toList ++ z m.m10 ++ " , ".toList ++ z m.m11 ++ " } }".toList

/-- `cvector::to_Mathematica_string`, source/cvector.cpp:144-151 -/
def vecString (fmt : R → List Char) (v : CVec C) : List Char :=
  let z (c : C) : List Char := fmt (Cplx.re c) ++ " + I * ".toList ++ fmt (Cplx.im c)
  "{ ".toList ++ z v.v0 ++ " , ".toList ++ z v.v1 ++ " }".toList

end Util

end Spinas
