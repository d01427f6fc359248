import Verif.Utilities
import Verif.SProduct

/-! Model of `source/process.cpp` (the base class helpers and the 2 -> 2 test drivers). -/

namespace Spinas
namespace Process

/-- Largest value of a 32-bit `int`. -/
def intMax : Int := 2147483647

/-- source/process.cpp:73-78 (master function; the overloads 49-72 build the array).
Second component: signed overflow happened (undefined behaviour). -/
def numSpinLoops (ds : List Int) : Int × Bool :=
  ds.foldl (fun (acc : Int × Bool) d => if d = 0 then (acc.1 * 2, acc.2 || decide (acc.1 * 2 > intMax)) else acc) (1, false)

/-- source/process.cpp:104-110 (master function; overloads 80-103) -/
def spinNormalization {R : Type} [Scalar R] (ds : List Int) : R :=
  ds.foldl (fun acc d => if d = 0 then acc / Scalar.sqrt (int 2) else acc) (int 1)

/-- `(iterator >> k) & 1` for a (non-negative) `int` iterator, source/process.cpp:155 -/
def bit (iterator : Int) (k : Nat) : Int := (iterator / 2 ^ k) % 2

/-- First loop, source/process.cpp:150-158.  State: the array `loop_counters`, `spin0_count`, and whether a shift by
32 or more (undefined behaviour) was executed. -/
def counters (iterator : Int) : List Int → (Nat → Int) × Nat × Bool → (Nat → Int) × Nat × Bool
  | [], st => st
  | d :: ds, (arr, k, u) =>
    if d = 0 then
      counters iterator ds (fun i => if i = k then bit iterator k else arr i, k + 1, u || decide (k ≥ 32))
    else counters iterator ds (arr, k, u)

/-- Second loop, source/process.cpp:161-182: the values written to `dsLista[i]`, `dsListb[i]` -/
def assignSpins (arr : Nat → Int) : List Int → Nat → List (Int × Int)
  | [], _ => []
  | d :: ds, k =>
    if d = 0 then (if arr k = 0 then (1, -1) else (-1, 1)) :: assignSpins arr ds (k + 1)
    else if d < 0 then (-1, -1) :: assignSpins arr ds k
    else (1, 1) :: assignSpins arr ds k

/-- source/process.cpp:148-183 (master function; overloads 112-147).  The output variables are assumed distinct from
the inputs, as in every caller. -/
def spinorSpins (ds : List Int) (iterator : Int) : List (Int × Int) :=
  assignSpins (counters iterator ds (fun _ => 0, 0, false)).1 ds 0

/-- Whether `spinorSpins` executes a shift by at least the width of `int`. -/
def spinorSpinsUB (ds : List Int) (iterator : Int) : Bool := (counters iterator ds (fun _ => 0, 0, false)).2.2

variable {R : Type} [Scalar R]

/-- The numbers computed by `set_test_initializations`. -/
structure TestInit (R : Type) where
  en1 : R
  en2 : R
  pout : R
  en3 : R
  en4 : R

/-- source/process.cpp:333-344 -/
def testInit (m1 m2 m3 m4 pin : R) : TestInit R :=
  let en1 := Scalar.sqrt (pin * pin + m1 * m1)
  let en2 := Scalar.sqrt (pin * pin + m2 * m2)
  let sqrtS := en1 + en2
  let ms := m3 + m4
  let md := m3 - m4
  let lambda34 := Scalar.sqrt ((sqrtS * sqrtS - ms * ms) * (sqrtS * sqrtS - md * md))
  let pout := lambda34 / (int 2 * sqrtS)
  { en1 := en1, en2 := en2, pout := pout,
    en3 := Scalar.sqrt (pout * pout + m3 * m3), en4 := Scalar.sqrt (pout * pout + m4 * m4) }

/-- The four momenta of a 2 -> 2 configuration. -/
structure Mom4 (R : Type) where
  p1 : V4 R
  p2 : V4 R
  p3 : V4 R
  p4 : V4 R

/-- source/process.cpp:346-365 -/
def testMomenta (i : TestInit R) (pin cost : R) : Mom4 R :=
  let sint := Scalar.sqrt (int 1 - cost * cost)
  let p31 := i.pout * sint
  let p33 := i.pout * cost
  { p1 := ⟨i.en1, int 0, int 0, pin⟩
    p2 := ⟨i.en2, int 0, int 0, -pin⟩
    p3 := ⟨i.en3, p31, int 0, p33⟩
    p4 := ⟨i.en4, -p31, int 0, -p33⟩ }

def Mom4.map (f : V4 R → V4 R) (q : Mom4 R) : Mom4 R := ⟨f q.p1, f q.p2, f q.p3, f q.p4⟩

/-- `2.*3.141592653589793238462643383279502884`, source/process.cpp:372 -/
def twoPiLit : R := int 2 * Scalar.dec 3141592653589793238462643383279502884 36

/-- source/process.cpp:367-377; consumes the draws `n .. n+3` -/
def rotateRandom (ω : Util.Stream R) (n : Nat) (q : Mom4 R) : Mom4 R × Nat :=
  let a := ω n (int 0) (int 1000)
  let b := ω (n + 1) (int 0) (int 1000)
  let c := ω (n + 2) (int 0) (int 1000)
  let um := Scalar.sqrt (a * a + b * b + c * c)
  let u : V3 R := ⟨a / um, b / um, c / um⟩
  let angle := ω (n + 3) (int 0) twoPiLit
  (q.map (fun p => Util.rotate p u angle), n + 4)

/-- The `while(vm>=0.99)` loop of source/process.cpp:381-385, cut off after `fuel` rounds (`none`: still looping). -/
def drawVelocity (ω : Util.Stream R) : Nat → Nat → Option (V3 R × Nat)
  | 0, _ => none
  | fuel + 1, n =>
    let v : V3 R := ⟨ω n (int 0) (int 1), ω (n + 1) (int 0) (int 1), ω (n + 2) (int 0) (int 1)⟩
    let vm := Scalar.sqrt (v.x * v.x + v.y * v.y + v.z * v.z)
    if Scalar.le (Scalar.dec 99 2) vm then drawVelocity ω fuel (n + 3) else some (v, n + 3)

/-- source/process.cpp:379-390 -/
def boostRandom (ω : Util.Stream R) (fuel n : Nat) (q : Mom4 R) : Option (Mom4 R × Nat) :=
  match drawVelocity ω fuel n with
  | none => none
  | some (v, n') => some (q.map (fun p => Util.boost p v), n')

/-- The condition under which a point counts as a failure, source/process.cpp:228-230, 258-260 (`1e-9`), 288-290, 322-324 (`1e-8`) -/
def pointFails (relTol ampSquared datum : R) : Bool :=
  Scalar.isInf ampSquared || Scalar.isNaN ampSquared ||
    (Scalar.lt (Scalar.dec 1 15) (Scalar.abs (ampSquared - datum)) &&
     Scalar.lt relTol (Scalar.abs (ampSquared - datum) / Scalar.abs (ampSquared + datum)))

/-- `0.95-0.1*j`, source/process.cpp:222 -/
def testCos (j : Nat) : R := Scalar.dec 95 2 - Scalar.dec 1 1 * int j

/-- A process under test: `set_momenta` and `amp2_func` as programs over its state. -/
structure Tested (R σ : Type) where
  setMomenta : Mom4 R → Prog σ Unit
  amp2 : Prog σ R

variable {σ : Type}

/-- One evaluation: `set_momenta(p1,p2,p3,p4); ampSquared = amp2_func(); if(...) i++`, source/process.cpp:226-233 -/
def evalPoint (T : Tested R σ) (relTol : R) (datum : R) (q : Mom4 R) (i : Nat) : Prog σ Nat := do
  T.setMomenta q
  let a ← T.amp2
  pure (if pointFails relTol a datum then i + 1 else i)

/-- source/process.cpp:221-234, for the given list of remaining loop indices -/
def labLoop (T : Tested R σ) (ini : TestInit R) (pin : R) (data : Nat → R) : List Nat → Nat → Prog σ Nat
  | [], i => pure i
  | j :: js, i => do
    let i' ← evalPoint T (Scalar.dec 1 9) (data j) (testMomenta ini pin (testCos j)) i
    labLoop T ini pin data js i'

/-- `test_2to2_amp2`, source/process.cpp:214-236 -/
def test2to2 (T : Tested R σ) (m1 m2 m3 m4 pin : R) (data : Nat → R) : Prog σ Nat :=
  labLoop T (testInit m1 m2 m3 m4 pin) pin data (List.range 20) 0

/-- A frame change of the test drivers, drawing random numbers: `none` while the velocity loop still runs. -/
abbrev Frame (R : Type) := Nat → Mom4 R → Option (Mom4 R × Nat)

/-- inner loop over `l`, source/process.cpp:253-264 (`fresh = none`: momenta accumulate the rotations) or 280-294, 310-328
(`fresh = some q0`: every round starts from the lab frame).  `none`: the velocity loop did not finish. -/
def frameLoop (T : Tested R σ) (F : Frame R) (relTol datum : R) (fresh : Option (Mom4 R)) :
    Nat → Nat → Mom4 R → Nat → Prog σ (Option (Nat × Nat))
  | 0, n, _, i => pure (some (i, n))
  | l + 1, n, q, i =>
    match F n (fresh.getD q) with
    | none => pure none
    | some (q', n') => do
      let i' ← evalPoint T relTol datum q' i
      frameLoop T F relTol datum fresh l n' q' i'

/-- outer loop over `j`, source/process.cpp:248-265 and its copies -/
def framesLoop (T : Tested R σ) (F : Frame R) (relTol : R) (restart : Bool) (ini : TestInit R) (pin : R)
    (data : Nat → R) : List Nat → Nat → Nat → Prog σ (Option (Nat × Nat))
  | [], n, i => pure (some (i, n))
  | j :: js, n, i => do
    let q := testMomenta ini pin (testCos j)
    let r ← frameLoop T F relTol (data j) (if restart then some q else none) 10 n q i
    match r with
    | none => pure none
    | some (i', n') => framesLoop T F relTol restart ini pin data js n' i'

/-- `test_2to2_amp2_rotations`, source/process.cpp:241-267 -/
def testRotations (T : Tested R σ) (ω : Util.Stream R) (n : Nat) (m1 m2 m3 m4 pin : R) (data : Nat → R) :
    Prog σ (Option (Nat × Nat)) :=
  framesLoop T (fun n q => some (rotateRandom ω n q)) (Scalar.dec 1 9) false (testInit m1 m2 m3 m4 pin) pin data
    (List.range 20) n 0

/-- `test_2to2_amp2_boosts`, source/process.cpp:271-297 -/
def testBoosts (T : Tested R σ) (ω : Util.Stream R) (fuel n : Nat) (m1 m2 m3 m4 pin : R) (data : Nat → R) :
    Prog σ (Option (Nat × Nat)) :=
  framesLoop T (boostRandom ω fuel) (Scalar.dec 1 8) true (testInit m1 m2 m3 m4 pin) pin data (List.range 20) n 0

/-- rotation, boost, rotation: source/process.cpp:313-318 -/
def rotBoostRot (ω : Util.Stream R) (fuel : Nat) : Frame R := fun n q =>
  let r1 := rotateRandom ω n q
  match boostRandom ω fuel r1.2 r1.1 with
  | none => none
  | some r2 => some (rotateRandom ω r2.2 r2.1)

/-- `test_2to2_amp2_boosts_and_rotations`, source/process.cpp:301-331 -/
def testBoostsRotations (T : Tested R σ) (ω : Util.Stream R) (fuel n : Nat) (m1 m2 m3 m4 pin : R) (data : Nat → R) :
    Prog σ (Option (Nat × Nat)) :=
  framesLoop T (rotBoostRot ω fuel) (Scalar.dec 1 8) true (testInit m1 m2 m3 m4 pin) pin data (List.range 20) n 0

/-- The update of `score` at one point, source/process.cpp:202-206 -/
def scoreStep (ampSquared datum score : R) : R :=
  if Scalar.isInf ampSquared || Scalar.isNaN ampSquared ||
      (Scalar.lt (Scalar.dec 1 20) (Scalar.abs (ampSquared - datum)) &&
       Scalar.lt (Scalar.dec 1 9) (Scalar.abs (ampSquared - datum) / Scalar.abs (ampSquared + datum))) then
    score + Scalar.abs (ampSquared - datum) / Scalar.abs (ampSquared + datum)
  else score

/-- source/process.cpp:195-207 -/
def scoreLoop (T : Tested R σ) (ini : TestInit R) (pin : R) (data : Nat → R) : List Nat → R → Prog σ R
  | [], s => pure s
  | j :: js, s => do
    T.setMomenta (testMomenta ini pin (testCos j))
    let a ← T.amp2
    scoreLoop T ini pin data js (scoreStep a (data j) s)

/-- `score_2to2_amp2`, source/process.cpp:188-209 (`amp2_func(params)` is part of `T`) -/
def score2to2 (T : Tested R σ) (m1 m2 m3 m4 pin : R) (data : Nat → R) : Prog σ R :=
  scoreLoop T (testInit m1 m2 m3 m4 pin) pin data (List.range 20) (int 0)

/-- `process::set_momenta`, source/process.cpp:41-43 (base class) -/
def setMomentaBase : Prog σ Unit := Prog.throw .notImplemented

end Process
end Spinas
