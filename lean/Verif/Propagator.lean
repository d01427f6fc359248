import Verif.Arith

/-! Model of `source/propagator.cpp` / `include/propagator.h`. -/

namespace Spinas

/-- `class propagator` -/
structure Propag (R : Type) where
  m : R
  w : R
  deriving DecidableEq, Repr

namespace Propag
variable {R C : Type} [Scalar R] [Cplx R C]

/-- source/propagator.cpp:30-31 -/
def ctor0 : Propag R := ⟨int 0, int 0⟩
/-- source/propagator.cpp:33-34 -/
def ctor (mass width : R) : Propag R := ⟨mass, width⟩
/-- source/propagator.cpp:36-38 -/
def setMass (P : Propag R) (mass : R) : Propag R := { P with m := mass }
/-- source/propagator.cpp:39-41 -/
def setWidth (P : Propag R) (width : R) : Propag R := { P with w := width }
/-- source/propagator.cpp:45-47 -/
def denominator (P : Propag R) (p : V4 R) : C :=
  Cplx.cart (p.t * p.t - p.x * p.x - p.y * p.y - p.z * p.z - P.m * P.m) (-P.m * P.w)

/-- The calls that change a propagator. -/
inductive Op (R : Type) where
  | setMass (m : R)
  | setWidth (w : R)

/-- Run them in order. -/
def run : List (Op R) → Propag R → Propag R
  | [], P => P
  | .setMass m :: ops, P => run ops (P.setMass m)
  | .setWidth w :: ops, P => run ops (P.setWidth w)

end Propag
end Spinas
