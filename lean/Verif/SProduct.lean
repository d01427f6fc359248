import Verif.Particle

/-! Model of `source/sproduct.cpp` / `include/sproduct.h` over a store of particles and sproducts. -/

namespace Spinas

/-- What a constructor of `class sproduct` fixes: `isLeftAngle, pL, isLeftUpper, pR, isRightUpper, N, p[]`
(include/sproduct.h:33-46).  Pointers are addresses in the particle store, `N` is `mids.length`. -/
structure SPDef where
  leftAngle : Bool
  left : Nat
  leftUpper : Bool
  mids : List Nat
  right : Nat
  rightUpper : Bool
  deriving DecidableEq, Repr

/-- `class sproduct`.  `desc = none` is the default-constructed object (pointers and `N` indeterminate).
`prod jL jR = none` renders `isCalculated[jL][jR] == false` (`true` is index 1). -/
structure SProd (C : Type) where
  desc : Option SPDef
  leftMassive : Bool
  rightMassive : Bool
  pMat : CMat C
  prod : Bool → Bool → Option C

/-- The objects of a program: particles and sproducts, by address. -/
structure World (R C : Type) where
  part : Nat → Particle R C
  sp : Nat → SProd C

variable {R C : Type} [Scalar R] [Cplx R C]

namespace World

/-- Replace one particle. -/
def setPart (w : World R C) (i : Nat) (P : Particle R C) : World R C :=
  { w with part := fun j => if j = i then P else w.part j }

/-- Replace one sproduct. -/
def setSp (w : World R C) (a : Nat) (s : SProd C) : World R C :=
  { w with sp := fun b => if b = a then s else w.sp b }

end World

/-- Call a member function of the particle at address `i`. -/
def onPart {α : Type} (i : Nat) (f : Prog (Particle R C) α) : Prog (World R C) α := fun w =>
  let r := f (w.part i)
  (r.1, w.setPart i r.2)

namespace SProd

/-- `sproduct::sproduct()`, source/sproduct.cpp:35 with the default member initialisers -/
def ctor0 : SProd C :=
  { desc := none, leftMassive := false, rightMassive := false, pMat := CMat.zero, prod := fun _ _ => none }

/-- The members initialised by any other constructor before its body calls `update()`, source/sproduct.cpp:38-246 -/
def raw (d : SPDef) : SProd C :=
  { desc := some d, leftMassive := false, rightMassive := false, pMat := CMat.zero, prod := fun _ _ => none }

/-- source/sproduct.cpp:268,270-271 / 275,277-278: `umat` or `lmat` of the particle at address `i` -/
def slashed (lower : Bool) (i : Nat) : Prog (World R C) (CMat C) :=
  if lower then onPart i Particle.lmat else onPart i Particle.umat

/-- The loop of source/sproduct.cpp:269-272 / 276-279; `lower` is the kind of the next factor -/
def midLoop : Bool → List Nat → CMat C → Prog (World R C) (CMat C)
  | _, [], acc => pure acc
  | lower, i :: is, acc => do
    let m ← slashed lower i
    midLoop (!lower) is (acc * m)

/-- source/sproduct.cpp:266-281: the product of the internal momenta (`none` if `N == 0`) -/
def midProd (leftAngle : Bool) : List Nat → Prog (World R C) (Option (CMat C))
  | [] => pure none
  | i :: is => do
    let m ← slashed leftAngle i
    let r ← midLoop (!leftAngle) is m
    pure (some r)

/-- source/sproduct.cpp:251-282 -/
def update (a : Nat) : Prog (World R C) Unit := fun w0 =>
  let s := w0.sp a
  match s.desc with
  | none => (.crash, w0)
  | some d => Prog.bind (onPart d.left Particle.getMass) (fun mL =>
    Prog.bind (onPart d.right Particle.getMass) (fun mR => fun w =>
      let lm := Scalar.ne mL (int 0)
      let rm := Scalar.ne mR (int 0)
      -- 252-255
      let s1 := { s with leftMassive := lm, rightMassive := rm }
      if !lm && !d.leftUpper then (.throw .lowerLeft, w.setSp a s1)
      else if !rm && !d.rightUpper then (.throw .lowerRight, w.setSp a s1)
      else
        -- 262-264
        let s2 := { s1 with prod := fun _ _ => none }
        Prog.bind (midProd d.leftAngle d.mids) (fun m => fun w' =>
          match m with
          | none => (.ok (), w')
          | some m => (.ok (), w'.setSp a { s2 with pMat := m })) (w.setSp a s2))) w0

/-- The constructors source/sproduct.cpp:38-246 followed by assignment of the temporary to the object at address `a`.
If `update()` throws there is no temporary to assign: the old object stays. -/
def construct (a : Nat) (d : SPDef) : Prog (World R C) Unit := fun w =>
  match update a (w.setSp a (raw d)) with
  | (.ok u, w') => (.ok u, w')
  | (r, w') => (r, w'.setSp a (w.sp a))

/-- the left spinor, e.g. source/sproduct.cpp:297,306 (helicity) or 331,340 (spin) -/
def leftKind (d : SPDef) : Br := if d.leftAngle then .langle else .lsquare

/-- the kind of the right spinor, e.g. source/sproduct.cpp:300-303, 309-312 -/
def rightKind (d : SPDef) : Br :=
  if d.leftAngle then (if d.mids.length % 2 = 0 then .rangle else .rsquare)
  else (if d.mids.length % 2 = 0 then .rsquare else .rangle)

/-- e.g. source/sproduct.cpp:298-299 -/
def throughMids (d : SPDef) (pMat : CMat C) (v : CVec C) : CVec C :=
  if d.mids.length > 0 then v.mulM pMat else v

/-- Evaluate and store the entry `[jL][jR]`, given how the end spinors are obtained; source/sproduct.cpp:295-315 and its copies. -/
def evalEntry (a : Nat) (d : SPDef) (pMat : CMat C) (jL jR : Bool)
    (lft rgt : Prog (Particle R C) (CVec C)) : Prog (World R C) C := do
  let vl ← onPart d.left lft
  let vec := throughMids d pMat vl
  let vr ← onPart d.right rgt
  let x := vec.dot vr
  Prog.modify fun w =>
    let s := w.sp a
    w.setSp a { s with prod := fun j k => if j = jL ∧ k = jR then some x else s.prod j k }
  pure x

/-- `v()`, source/sproduct.cpp:287-316 -/
def v0 (a : Nat) : Prog (World R C) C := fun w =>
  let s := w.sp a
  if s.leftMassive || s.rightMassive then (.throw .arityNone, w)
  else match s.prod false false, s.desc with
    | some x, _ => (.ok x, w)
    | none, none => (.crash, w)
    | none, some d => evalEntry a d s.pMat false false
        (Particle.helicity (leftKind d)) (Particle.helicity (rightKind d)) w

/-- `v(spin)`, source/sproduct.cpp:318-385 -/
def v1 (a : Nat) (spin : Int) : Prog (World R C) C := fun w =>
  let s := w.sp a
  let j := decide (spin > 0)
  if s.leftMassive then
    if s.rightMassive then (.throw .arityOne, w)
    else match s.prod j false, s.desc with
      | some x, _ => (.ok x, w)
      | none, none => (.crash, w)
      | none, some d => evalEntry a d s.pMat j false
          (Particle.spinor (leftKind d) spin d.leftUpper) (Particle.helicity (rightKind d)) w
  else if s.rightMassive then
    match s.prod false j, s.desc with
      | some x, _ => (.ok x, w)
      | none, none => (.crash, w)
      | none, some d => evalEntry a d s.pMat false j
          (Particle.helicity (leftKind d)) (Particle.spinor (rightKind d) spin d.rightUpper) w
  else (.throw .arityOne, w)

/-- `v(spinL, spinR)`, source/sproduct.cpp:387-420 -/
def v2 (a : Nat) (spinL spinR : Int) : Prog (World R C) C := fun w =>
  let s := w.sp a
  if !s.leftMassive || !s.rightMassive then (.throw .arityTwo, w)
  else
    let jL := decide (spinL > 0)
    let jR := decide (spinR > 0)
    match s.prod jL jR, s.desc with
    | some x, _ => (.ok x, w)
    | none, none => (.crash, w)
    | none, some d => evalEntry a d s.pMat jL jR
        (Particle.spinor (leftKind d) spinL d.leftUpper) (Particle.spinor (rightKind d) spinR d.rightUpper) w

end SProd

/-! ### The interface as data -/

/-- Calls on sproducts and particles of a program. -/
inductive WOp (R : Type) where
  /-- a call on the particle at an address -/
  | part (i : Nat) (op : POp R)
  /-- `sps[a] = sproduct(...)` -/
  | construct (a : Nat) (d : SPDef)
  | update (a : Nat)
  | v0 (a : Nat)
  | v1 (a : Nat) (spin : Int)
  | v2 (a : Nat) (spinL spinR : Int)

/-- Results of such calls. -/
inductive WVal (R C : Type) where
  | unit
  | p (v : PVal R C)
  | c (x : C)

def WOp.run : WOp R → Prog (World R C) (WVal R C)
  | .part i op => (onPart i op.run).map .p
  | .construct a d => (SProd.construct a d).map fun _ => .unit
  | .update a => (SProd.update a).map fun _ => .unit
  | .v0 a => (SProd.v0 a).map .c
  | .v1 a j => (SProd.v1 a j).map .c
  | .v2 a j k => (SProd.v2 a j k).map .c

/-- A client program over the world, catching exceptions. -/
def runWOps : List (WOp R) → World R C → List (Res (WVal R C)) × World R C
  | [], w => ([], w)
  | op :: ops, w =>
    let (r, w1) := op.run w
    let (rs, w2) := runWOps ops w1
    (r :: rs, w2)

end Spinas
