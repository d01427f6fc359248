import Verif.Spec.Chains
import Verif.Spec.Minkowski
import Verif.Exact.Algebra
import Mathlib.LinearAlgebra.Matrix.Trace

/-! Specification vocabulary for the values of spinor products in exact arithmetic. -/

namespace Spinas.Spec
open Spinas Matrix

section
variable [FPEnv]

/-- The product `d` at address `a` is up to date for the momenta `p` and masses `m`: its particles were in use with these, a
constructor or `update()` returned normally, and only harmless calls followed. -/
def Ready (a : Nat) (d : SPDef) (p : Nat → V4 ℝ) (m : Nat → ℝ) (w : World XR XC) : Prop :=
  ∃ (w0 w1 : World XR XC) (ops : List (WOp XR)), InUse d (fun i => (p i).toX) (fun i => .fin (m i)) w0 ∧ Sync a d w0 w1 ∧
    (∀ op ∈ ops, Harmless a d op) ∧ w = (runWOps ops w1).2

/-- The call with as many arguments as there are massive ends. -/
noncomputable def callFor (mL mR : ℝ) (jL jR : Int) : VCall :=
  if mL = 0 then (if mR = 0 then .v0 else .v1 jR) else (if mR = 0 then .v1 jL else .v2 jL jR)

/-- Evaluating the product `d` at address `a` for spins `jL`, `jR` (of its massive ends) returns the finite number `z`. -/
def Val (a : Nat) (d : SPDef) (m : Nat → ℝ) (w : World XR XC) (jL jR : Int) (z : ℂ) : Prop :=
  ((callFor (m d.left) (m d.right) jL jR).run a w).1 = .ok (ofC z)

end

/-- Whether the right spinor is an angle spinor. -/
def rightAngle (d : SPDef) : Bool := d.leftAngle == decide (d.mids.length % 2 = 0)

/-- The chain read backwards. -/
def reversed (d : SPDef) : SPDef :=
  { leftAngle := rightAngle d, left := d.right, leftUpper := d.rightUpper, mids := d.mids.reverse, right := d.left, rightUpper := d.leftUpper }

/-- The chain read backwards with all brackets exchanged, massive indices moved to the other position. -/
noncomputable def conjugated (m : Nat → ℝ) (d : SPDef) : SPDef :=
  { leftAngle := !rightAngle d, left := d.right, leftUpper := if m d.right = 0 then d.rightUpper else !d.rightUpper
    mids := d.mids.reverse, right := d.left, rightUpper := if m d.left = 0 then d.leftUpper else !d.leftUpper }

/-- Sign picked up by one end under conjugation: for a massive one, minus for a lower index on an angle and an upper one on a square spinor. -/
noncomputable def conjSign (m : ℝ) (angle upper : Bool) : ℂ := if m = 0 then 1 else if angle = upper then 1 else -1

/-- two chains joined where the first one ends with and the second one starts with the same particle -/
def spliced (d e : SPDef) (mid : List Nat) : SPDef :=
  { leftAngle := d.leftAngle, left := d.left, leftUpper := d.leftUpper, mids := d.mids ++ mid ++ e.mids, right := e.right, rightUpper := e.rightUpper }

/-- product of momentum matrices, alternating -/
noncomputable def slashProd (p : Nat → V4 ℝ) : Bool → List Nat → M2
  | _, [] => 1
  | lower, i :: is => (if lower then slashLower (p i) else slashUpper (p i)) * slashProd p (!lower) is

/-- the simple product `<i j>` or `[i j]` with upper indices, with internal momenta -/
def br (angle : Bool) (i : Nat) (mids : List Nat) (j : Nat) : SPDef :=
  { leftAngle := angle, left := i, leftUpper := true, mids := mids, right := j, rightUpper := true }

/-- sum over the spins -1, +1 -/
noncomputable def sumSpin (f : Int → ℂ) : ℂ := f (-1) + f 1

end Spinas.Spec

namespace Spinas.Spec
open Spinas Matrix

/-- sum over the spins of a massive end; the single value for a massless one -/
noncomputable def sumEnd (m : ℝ) (f : Int → ℂ) : ℂ := if m = 0 then f 1 else f (-1) + f 1

/-- Product of an end spinor with the conjugate one, summed over spins: left end. `M` is the mass. -/
noncomputable def gramL (p : V4 ℝ) (M : ℝ) (angle angle' : Bool) : M2 :=
  if angle = angle' then (if angle then slashUpper p else slashLower p) else (M : ℂ) • 1

/-- The same for the right end. -/
noncomputable def gramR (p : V4 ℝ) (M : ℝ) (angle angle' : Bool) : M2 :=
  if angle = angle' then (if angle then slashLower p else slashUpper p) else (-M : ℂ) • 1

end Spinas.Spec
