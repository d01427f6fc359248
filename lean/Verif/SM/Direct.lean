import Verif.SM.Proc.All

/-! The overloads `amp2(mom1, mom2, mom3, mom4)` of eemmQED, eeeeQED, eeAA and eAeh: "no need to call set_momenta before this". They multiply the spinors of the particles themselves instead of using the
sproduct members. (Other headers declare such an overload; no file defines it, so a call does not link.)

Local arrays are one table: number of the array, and its indices (`false` is 0, `true` is 1; also for arrays with one index and for scalars, the missing indices being 0).
`cdouble` locals start from zero, as `std::complex` has a default constructor. Operands are evaluated from left to right. -/

namespace Spinas.SM.Direct

variable {R C : Type} [Scalar R] [HasPow R] [Cplx R C]

/-- A factor at an end: `p_i.kind(j)`, or `p_i.kind()` without spin. -/
structure End where
  i : Nat
  b : Br
  j : Option Int

def End.run (E : End) : Prog (World R C) (CVec C) := onPart E.i (match E.j with
  | some j => Particle.spinor E.b j true
  | none => Particle.helicity E.b)

/-- The factors in the middle: `p_i.lmat()` (`true`) or `p_i.umat()`, multiplied from the left. -/
def mids : List (Bool × Nat) → CVec C → Prog (World R C) (CVec C)
  | [], v => pure v
  | (l, i) :: ms, v => do
    let m ← SProd.slashed l i
    mids ms (v.mulM m)

/-- `a*m*...*b` -/
def times (a : End) (ms : List (Bool × Nat)) (b : End) : Prog (World R C) C := do
  let v ← a.run
  let v ← mids ms v
  let w ← b.run
  pure (v.dot w)

/-- local variables of type `cdouble` -/
abbrev Tab (C : Type) := Nat → Bool → Bool → C

/-- `x[i][j] = ...` -/
structure Put (R C : Type) where
  n : Nat
  i : Bool
  j : Bool
  e : Prog (World R C) C

def Tab.set (t : Tab C) (n : Nat) (i j : Bool) (x : C) : Tab C := fun n' i' j' => if n' = n ∧ i' = i ∧ j' = j then x else t n' i' j'

def puts : List (Put R C) → Tab C → Prog (World R C) (Tab C)
  | [], t => pure t
  | p :: ps, t => do
    let x ← p.e
    puts ps (t.set p.n p.i p.j x)

/-- `2*i-1` -/
def sp (i : Bool) : Option Int := some (if i then 1 else -1)

/-- `p_i.langle(2*a-1)*p_k.rangle(2*b-1)` -/
def angle (i k : Nat) (a b : Bool) : Prog (World R C) C := times ⟨i, .langle, sp a⟩ [] ⟨k, .rangle, sp b⟩
/-- `p_i.lsquare(2*a-1)*p_k.rsquare(2*b-1)` -/
def square (i k : Nat) (a b : Bool) : Prog (World R C) C := times ⟨i, .lsquare, sp a⟩ [] ⟨k, .rsquare, sp b⟩

/-- the calls `p1.set_momentum(mom1); ...` -/
def setMomenta (q : Nat → V4 R) : Prog (World R C) Unit := do
  onPart 0 (Particle.setMomentum (q 0))
  onPart 1 (Particle.setMomentum (q 1))
  onPart 2 (Particle.setMomentum (q 2))
  onPart 3 (Particle.setMomentum (q 3))

/-- a loop over two values, adding to a sum -/
def both (f : R → Bool → R) (x : R) : R := f (f x false) true

/-- `std::pow(std::abs(z),2)` -/
def abs2 (z : C) : R := HasPow.pow (Cplx.abs z : R) 2

namespace eemmQED

/-- SM/eemmQED.cpp:117-127. Arrays: 0 `a13`, 1 `s13`, 2 `a14`, 3 `s14`, 4 `a23`, 5 `s23`, 6 `a24`, 7 `s24` -/
def products : List (Put R C) := [false, true].flatMap fun i => [false, true].flatMap fun j =>
  [⟨0, i, j, angle 0 2 i j⟩, ⟨1, i, j, square 0 2 i j⟩, ⟨2, i, j, angle 0 3 i j⟩, ⟨3, i, j, square 0 3 i j⟩,
    ⟨4, i, j, angle 1 2 i j⟩, ⟨5, i, j, square 1 2 i j⟩, ⟨6, i, j, angle 1 3 i j⟩, ⟨7, i, j, square 1 3 i j⟩]

/-- SM/eemmQED.cpp:137 -/
def M (t : Tab C) (j1 j2 j3 j4 : Bool) : C := -(t 0 j1 j3 * t 7 j2 j4 + t 2 j1 j4 * t 5 j2 j3 + t 1 j1 j3 * t 6 j2 j4 + t 3 j1 j4 * t 4 j2 j3)

/-- `amp2(mom1,mom2,mom3,mom4)`, SM/eemmQED.cpp:100-144. Member 0 is `e`, propagator 0 is `prop`. -/
def amp2 (q : Nat → V4 R) : Prog (Obj R C) R := do
  onWorld (setMomenta q)
  let o ← Prog.get
  let propSD : R := Cplx.re (Propag.denominator (o.pr 0) ((VExp.add 0 1).eval q) : C)
  let t ← onWorld (puts products fun _ _ _ => czero)
  let s := both (fun x j1 => both (fun x j2 => both (fun x j3 => both (fun x j4 => x + abs2 (M t j1 j2 j3 j4)) x) x) x) (int 0)
  pure (int 4 * o.r 0 * o.r 0 * o.r 0 * o.r 0 * s / propSD / propSD / int 4)

end eemmQED

namespace eeeeQED

/-- SM/eeeeQED.cpp:135-149. Arrays: 0 `a13`, 1 `s13`, 2 `a14`, 3 `s14`, 4 `a23`, 5 `s23`, 6 `a24`, 7 `s24`, 8 `a12`, 9 `s34`, 10 `s12`, 11 `a34` -/
def products : List (Put R C) := [false, true].flatMap fun i => [false, true].flatMap fun j =>
  [⟨0, i, j, angle 0 2 i j⟩, ⟨1, i, j, square 0 2 i j⟩, ⟨2, i, j, angle 0 3 i j⟩, ⟨3, i, j, square 0 3 i j⟩,
    ⟨4, i, j, angle 1 2 i j⟩, ⟨5, i, j, square 1 2 i j⟩, ⟨6, i, j, angle 1 3 i j⟩, ⟨7, i, j, square 1 3 i j⟩,
    ⟨8, i, j, angle 0 1 i j⟩, ⟨9, i, j, square 2 3 i j⟩, ⟨10, i, j, square 0 1 i j⟩, ⟨11, i, j, angle 2 3 i j⟩]

/-- SM/eeeeQED.cpp:161-162 -/
def M (pDenS pDenT : C) (t : Tab C) (j1 j2 j3 j4 : Bool) : C :=
  Cplx.smul (-(int 2 : R)) (t 0 j1 j3 * t 7 j2 j4 + t 2 j1 j4 * t 5 j2 j3 + t 1 j1 j3 * t 6 j2 j4 + t 3 j1 j4 * t 4 j2 j3) / pDenS -
    Cplx.smul (int 2 : R) (t 8 j1 j2 * t 9 j3 j4 + t 2 j1 j4 * t 5 j2 j3 + t 10 j1 j2 * t 11 j3 j4 + t 3 j1 j4 * t 4 j2 j3) / pDenT

/-- `amp2(mom1,mom2,mom3,mom4)`, SM/eeeeQED.cpp:116-169. Member 0 is `e`, the complex members 0 `pDenS` and 1 `pDenT` are assigned (lines 128-129). -/
def amp2 (q : Nat → V4 R) : Prog (Obj R C) R := do
  onWorld (setMomenta q)
  Prog.modify fun o => o.setDen 0 0 ((VExp.add 0 1).eval q) .c
  Prog.modify fun o => o.setDen 1 0 ((VExp.sub 0 2).eval q) .c
  let t ← onWorld (puts products fun _ _ _ => czero)
  let o ← Prog.get
  let s := both (fun x j1 => both (fun x j2 => both (fun x j3 => both (fun x j4 => x + abs2 (M (R := R) (o.c 0) (o.c 1) t j1 j2 j3 j4)) x) x) x) (int 0)
  pure (o.r 0 * o.r 0 * o.r 0 * o.r 0 * s / int 4)

end eeeeQED

namespace eeAA

/-- SM/eeAA.cpp:156-159. Scalars: 0 `s34`, 1 `a34`, 2 `s314`, 3 `s413` -/
def before : List (Put R C) :=
  [⟨0, false, false, times ⟨2, .lsquare, none⟩ [] ⟨3, .rsquare, none⟩⟩, ⟨1, false, false, times ⟨2, .langle, none⟩ [] ⟨3, .rangle, none⟩⟩,
    ⟨2, false, false, times ⟨2, .lsquare, none⟩ [(false, 0)] ⟨3, .rangle, none⟩⟩, ⟨3, false, false, times ⟨3, .lsquare, none⟩ [(false, 0)] ⟨2, .rangle, none⟩⟩]

/-- SM/eeAA.cpp:163-172. Scalars: 4 `s12`, 5 `a12`, 6 `s13`, 7 `a13`, 8 `s24`, 9 `a24`, 10 `s23`, 11 `a23`, 12 `s14`, 13 `a14` -/
def inside (j1 j2 : Bool) : List (Put R C) :=
  [⟨4, false, false, square 0 1 j1 j2⟩, ⟨5, false, false, angle 0 1 j1 j2⟩,
    ⟨6, false, false, times ⟨0, .lsquare, sp j1⟩ [] ⟨2, .rsquare, none⟩⟩, ⟨7, false, false, times ⟨0, .langle, sp j1⟩ [] ⟨2, .rangle, none⟩⟩,
    ⟨8, false, false, times ⟨1, .lsquare, sp j2⟩ [] ⟨3, .rsquare, none⟩⟩, ⟨9, false, false, times ⟨1, .langle, sp j2⟩ [] ⟨3, .rangle, none⟩⟩,
    ⟨10, false, false, times ⟨1, .lsquare, sp j2⟩ [] ⟨2, .rsquare, none⟩⟩, ⟨11, false, false, times ⟨1, .langle, sp j2⟩ [] ⟨2, .rangle, none⟩⟩,
    ⟨12, false, false, times ⟨0, .lsquare, sp j1⟩ [] ⟨3, .rsquare, none⟩⟩, ⟨13, false, false, times ⟨0, .langle, sp j1⟩ [] ⟨3, .rangle, none⟩⟩]

/-- SM/eeAA.cpp:175-183: what is added to `amp2` -/
def term (me : R) (t : Nat → C) : R :=
  let numPP : C := Cplx.smul me (t 0) * t 0 * t 5
  let numMM : C := Cplx.smul me (t 1) * t 1 * t 4
  let numPM : C := (t 6 * t 9 + t 10 * t 13) * t 2
  let numMP : C := (t 7 * t 8 + t 11 * t 12) * t 3
  abs2 numPP + abs2 numMM + abs2 numPM + abs2 numMP

/-- one pass of the loop, SM/eeAA.cpp:163-183 -/
def pass (me : R) (j1 j2 : Bool) (x : R × Tab C) : Prog (World R C) (R × Tab C) := do
  let t ← puts (inside j1 j2) x.2
  pure (x.1 + term me (fun n => t n false false), t)

/-- `amp2(mom1,mom2,mom3,mom4)`, SM/eeAA.cpp:137-189. Members: 0 `e`, 1 `me`; propagator 0 is `prop`. -/
def amp2 (q : Nat → V4 R) : Prog (Obj R C) R := do
  onWorld (setMomenta q)
  let o ← Prog.get
  let propDT : R := Cplx.re (Propag.denominator (o.pr 0) ((VExp.sub 0 2).eval q) : C)
  let propDU : R := Cplx.re (Propag.denominator (o.pr 0) ((VExp.sub 0 3).eval q) : C)
  let t ← onWorld (puts before fun _ _ _ => czero)
  let x ← onWorld (pass (o.r 1) false false (int 0, t))
  let x ← onWorld (pass (o.r 1) false true x)
  let x ← onWorld (pass (o.r 1) true false x)
  let x ← onWorld (pass (o.r 1) true true x)
  pure (o.r 0 * o.r 0 * o.r 0 * o.r 0 * int 4 * x.1 / propDT / propDT / propDU / propDU / int 8)

end eeAA

namespace eAeh

/-- SM/eAeh.cpp:163-176. Arrays: 0 `a13`, 1 `s13`, 2 `s12`, 3 `a12`, 4 `s23`, 5 `a23`, 6 `s243`, 7 `a243`, 8 `s241`, 9 `a241`, 10 `s2342`, 11 `a2342`. Nothing is ever assigned to `s241` and `a241`. -/
def products : List (Put R C) := ([false, true].flatMap fun i => ([false, true].flatMap fun j => [⟨0, i, j, angle 0 2 i j⟩, ⟨1, i, j, square 0 2 i j⟩]) ++
    [⟨2, i, false, times ⟨0, .lsquare, sp i⟩ [] ⟨1, .rsquare, none⟩⟩, ⟨3, i, false, times ⟨0, .langle, sp i⟩ [] ⟨1, .rangle, none⟩⟩,
      ⟨4, i, false, times ⟨1, .lsquare, none⟩ [] ⟨2, .rsquare, sp i⟩⟩, ⟨5, i, false, times ⟨1, .langle, none⟩ [] ⟨2, .rangle, sp i⟩⟩,
      ⟨6, i, false, times ⟨1, .lsquare, none⟩ [(false, 3)] ⟨2, .rangle, sp i⟩⟩, ⟨7, i, false, times ⟨1, .langle, none⟩ [(true, 3)] ⟨2, .rsquare, sp i⟩⟩]) ++
  [⟨10, false, false, times ⟨1, .lsquare, none⟩ [(false, 2), (true, 3)] ⟨1, .rsquare, none⟩⟩,
    ⟨11, false, false, times ⟨1, .langle, none⟩ [(true, 2), (false, 3)] ⟨1, .rangle, none⟩⟩]

/-- SM/eAeh.cpp:187 -/
def numP (me mh : R) (t : Tab C) (j1 j3 : Bool) : C :=
  Cplx.smul (mh * mh) (t 2 j1 false) * t 4 j3 false - Cplx.smul me (t 2 j1 false) * t 6 j3 false - Cplx.smul me (t 4 j3 false) * t 8 j1 false + t 0 j1 j3 * t 10 false false

/-- SM/eAeh.cpp:188 -/
def numM (me mh : R) (t : Tab C) (j1 j3 : Bool) : C :=
  Cplx.smul (-mh * mh) (t 3 j1 false) * t 5 j3 false + Cplx.smul me (t 3 j1 false) * t 7 j3 false + Cplx.smul me (t 5 j3 false) * t 9 j1 false - t 1 j1 j3 * t 11 false false

/-- `amp2(mom1,mom2,mom3,mom4)`, SM/eAeh.cpp:144-195. Members: 0 `e`, 1 `me`, 2 `mh`, 3 `v`; propagator 0 is `prop`. -/
def amp2 (q : Nat → V4 R) : Prog (Obj R C) R := do
  onWorld (setMomenta q)
  let o ← Prog.get
  let propDS : R := Cplx.re (Propag.denominator (o.pr 0) ((VExp.add 0 1).eval q) : C)
  let propDU : R := Cplx.re (Propag.denominator (o.pr 0) ((VExp.sub 0 3).eval q) : C)
  let t ← onWorld (puts products fun _ _ _ => czero)
  let s := both (fun x j1 => both (fun x j3 => x + (abs2 (numP (o.r 1) (o.r 2) t j1 j3) + abs2 (numM (o.r 1) (o.r 2) t j1 j3))) x) (int 0)
  pure (int 2 * o.r 0 * o.r 0 * o.r 1 * o.r 1 * s / o.r 3 / o.r 3 / propDS / propDS / propDU / propDU / int 4)

end eAeh
end Spinas.SM.Direct
