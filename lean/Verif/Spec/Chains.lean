import Verif.SProduct
import Verif.Spec.History

/-! Specification of the value of a spinor chain, in terms of the settled kinematic members of the particles only
(no caches, no store).  Valid in any arithmetic: the order of the operations is fixed. -/

namespace Spinas.Spec
open Spinas

variable {R C : Type} [Scalar R] [Cplx R C]

/-- `lmat` or `umat` -/
def slashVal (lower : Bool) (k : Kin R C) : CMat C := if lower then k.lmatVal else k.umatVal

/-- product of the remaining internal momenta, alternating between `lmat` and `umat` -/
def slashes (κ : Nat → Kin R C) : Bool → List Nat → CMat C → CMat C
  | _, [], acc => acc
  | lower, i :: is, acc => slashes κ (!lower) is (acc * slashVal lower (κ i))

/-- the row vector after multiplication with all internal momenta (if any); the first one is `lmat` after an angle bracket -/
def through (κ : Nat → Kin R C) (leftAngle : Bool) (mids : List Nat) (v : CVec C) : CVec C :=
  match mids with
  | [] => v
  | i :: is => v.mulM (slashes κ (!leftAngle) is (slashVal leftAngle (κ i)))

/-- massive according to the test the code makes, `mass != 0` -/
def massive (k : Kin R C) : Bool := Scalar.ne k.m (int 0)

/-- the spinor of one end: of spin `j` (+1 or -1) for a massive particle, the helicity spinor for a massless one -/
def endVec (k : Kin R C) (b : Br) (upper : Bool) (j : Int) : CVec C :=
  if massive k then k.spnVal b upper (decide (j = 1)) else k.helVal b

/-- kinds of the spinors: after an angle bracket and an even number of momenta the right one is an angle, and so on -/
def kindL (leftAngle : Bool) : Br := if leftAngle then .langle else .lsquare
def kindR (leftAngle : Bool) (n : Nat) : Br := if leftAngle = decide (n % 2 = 0) then .rangle else .rsquare

/-- the value of the chain `<L|p0 p1 ...|R>` (or with square brackets), for spins `jL`, `jR` of massive ends -/
def chain (κ : Nat → Kin R C) (d : SPDef) (jL jR : Int) : C :=
  (through κ d.leftAngle d.mids (endVec (κ d.left) (kindL d.leftAngle) d.leftUpper jL)).dot
    (endVec (κ d.right) (kindR d.leftAngle d.mids.length) d.rightUpper jR)

/-- an end with a lower index on a massless particle -/
def badLeft (κ : Nat → Kin R C) (d : SPDef) : Bool := !massive (κ d.left) && !d.leftUpper
def badRight (κ : Nat → Kin R C) (d : SPDef) : Bool := !massive (κ d.right) && !d.rightUpper

/-- the three ways to evaluate a product -/
inductive VCall where
  | v0
  | v1 (j : Int)
  | v2 (jL jR : Int)
  deriving DecidableEq

/-- spins are +1 or -1 -/
def IsSpin (j : Int) : Prop := j = 1 ∨ j = -1

def VCall.Valid : VCall → Prop
  | .v0 => True
  | .v1 j => IsSpin j
  | .v2 j k => IsSpin j ∧ IsSpin k

/-- the call on the object at address `a` -/
def VCall.run (a : Nat) : VCall → Prog (World R C) C
  | .v0 => SProd.v0 a
  | .v1 j => SProd.v1 a j
  | .v2 j k => SProd.v2 a j k

/-- what each call returns or throws -/
def outcome (κ : Nat → Kin R C) (d : SPDef) : VCall → Res C
  | .v0 => if massive (κ d.left) || massive (κ d.right) then .throw .arityNone else .ok (chain κ d 1 1)
  | .v1 j => if massive (κ d.left) = massive (κ d.right) then .throw .arityOne else .ok (chain κ d j j)
  | .v2 j k => if massive (κ d.left) && massive (κ d.right) then .ok (chain κ d j k) else .throw .arityTwo

/-- addresses of the particles of a product -/
def uses (d : SPDef) (i : Nat) : Prop := i = d.left ∨ i = d.right ∨ i ∈ d.mids

/-! ### the same in terms of what the accessors of the particles return -/

/-- what the accessors of the internal particles return, `lmat` and `umat` in turn -/
def slashAcc (w : World R C) : Bool → List Nat → List (Res (CMat C))
  | _, [] => []
  | lower, i :: is => (if lower then (Particle.lmat (w.part i)).1 else (Particle.umat (w.part i)).1) :: slashAcc w (!lower) is

/-- what the accessor of an end particle returns: the spin accessor if the mass is not zero, else the helicity accessor -/
def endAcc (P : Particle R C) (b : Br) (upper : Bool) (j : Int) : Res (CVec C) :=
  if massive P.kin then (Particle.spinor b j upper P).1 else (Particle.helicity b P).1

/-- row vector times matrices (multiplied first, from the left) times column vector -/
def chainOf (vl : CVec C) (Ms : List (CMat C)) (vr : CVec C) : C :=
  match Ms with
  | [] => vl.dot vr
  | M :: Ms => (vl.mulM (Ms.foldl (· * ·) M)).dot vr

/-- the spins named in a call, for the left and for the right end -/
def VCall.left : VCall → Int
  | .v0 => 1
  | .v1 j => j
  | .v2 j _ => j
def VCall.right : VCall → Int
  | .v0 => 1
  | .v1 j => j
  | .v2 _ k => k

/-- the call has as many arguments as there are massive ends -/
def VCall.Fits (lm rm : Bool) : VCall → Prop
  | .v0 => lm = false ∧ rm = false
  | .v1 _ => lm ≠ rm
  | .v2 _ _ => lm = true ∧ rm = true

/-- what a call with a wrong number of arguments throws -/
def VCall.arityExc : VCall → Exc
  | .v0 => .arityNone
  | .v1 _ => .arityOne
  | .v2 _ _ => .arityTwo

/-- The call that brings the product `d` at address `a` up to date: a constructor, or `update()`, that returns normally. -/
def Sync (a : Nat) (d : SPDef) (w w1 : World R C) : Prop :=
  SProd.construct a d w = (.ok (), w1) ∨ ((w.sp a).desc = some d ∧ SProd.update a w = (.ok (), w1))

/-- All particles of the product are in use with the given momenta and masses. -/
def InUse (d : SPDef) (p : Nat → V4 R) (m : Nat → R) (w : World R C) : Prop := ∀ i, uses d i → Live (p i) (m i) (w.part i)

/-- Calls that are no reason for the product `d` at address `a` to change: reading particles, any call on particles not in the product,
evaluating and updating any product (with valid spins for this one), constructing other products. -/
def Harmless (a : Nat) (d : SPDef) : WOp R → Prop
  | .part _ (.acc _) => True
  | .part i _ => ¬ uses d i
  | .construct b _ => b ≠ a
  | .update _ => True
  | .v0 _ => True
  | .v1 b j => b = a → IsSpin j
  | .v2 b j k => b = a → IsSpin j ∧ IsSpin k

/-- The call is not a constructor for address `a`. -/
def NotRebuilt (a : Nat) : WOp R → Prop
  | .construct b _ => b ≠ a
  | _ => True

/-- Calls that do not touch the product at address `a` (but may do anything to any particle). -/
def Elsewhere (a : Nat) : WOp R → Prop
  | .part _ _ => True
  | .construct b _ => b ≠ a
  | .update b => b ≠ a
  | .v0 b => b ≠ a
  | .v1 b _ => b ≠ a
  | .v2 b _ _ => b ≠ a

end Spinas.Spec
