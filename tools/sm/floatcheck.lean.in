import Lean.Data.Json
import Verif.SM.Proc.All

/-! Run the translated classes in double precision on the test tables of SM/*.cpp (not part of the build, see floatcheck.sh). -/

open Spinas Spinas.SM

instance : Scalar Float where
  int i := Float.ofInt i
  dec m e := OfScientific.ofScientific m true e
  eps := 2.220446049250313e-16
  sqrt := Float.sqrt
  abs := Float.abs
  sin := Float.sin
  cos := Float.cos
  atan2 := Float.atan2
  lt a b := a < b
  le a b := a <= b
  eq a b := a == b
  isInf := Float.isInf
  isNaN := Float.isNaN

instance : HasPow Float := ⟨fun x k => Float.pow x (Float.ofNat k)⟩

structure CF where
  re : Float
  im : Float

instance : Cplx Float CF where
  add a b := ⟨a.re + b.re, a.im + b.im⟩
  sub a b := ⟨a.re - b.re, a.im - b.im⟩
  mul a b := ⟨a.re * b.re - a.im * b.im, a.re * b.im + a.im * b.re⟩
  div a b := let n := b.re * b.re + b.im * b.im; ⟨(a.re * b.re + a.im * b.im) / n, (a.im * b.re - a.re * b.im) / n⟩
  neg a := ⟨-a.re, -a.im⟩
  cart := CF.mk
  re := CF.re
  im := CF.im
  conj a := ⟨a.re, -a.im⟩
  abs a := Float.sqrt (a.re * a.re + a.im * a.im)
  polar r t := ⟨r * Float.cos t, r * Float.sin t⟩
  smul r a := ⟨r * a.re, r * a.im⟩
  divr a r := ⟨a.re / r, a.im / r⟩

open Lean in
def floats (j : Json) : List Float := match j.getArr? with
  | .ok a => a.toList.map fun x => match x.getNum? with
    | .ok n => n.toFloat
    | _ => 0
  | _ => []

def junkK : Kin Float CF := ⟨7, ⟨7, 7, 7, 7⟩, 7, 7, 7, 7, ⟨7, 7⟩, ⟨7, 7⟩, ⟨7, 7⟩, ⟨7, 7⟩, ⟨7, 7⟩⟩

def fn (l : List Float) : Nat → Float := fun n => l.getD n 0

/-- freeze the closures -/
def force (o : Obj Float CF) : Obj Float CF :=
  let r := ((List.range 40).map o.r).toArray
  let c := ((List.range 40).map o.c).toArray
  let p := ((List.range 10).map o.pr).toArray
  let q := ((List.range 4).map o.w.part).toArray
  let s := ((List.range 60).map o.w.sp).toArray
  { o with
    r := fun n => r.getD n 0
    c := fun n => c.getD n ⟨0, 0⟩
    pr := fun n => p.getD n Propag.ctor0
    w := { part := fun n => q.getD n (Particle.ctor0 junkK), sp := fun n => s.getD n SProd.ctor0 } }

def showR {α : Type} [ToString α] : Res α → String
  | .ok a => toString a
  | .throw e => s!"throw {repr e}"
  | .crash => "crash"

def main (argv : List String) : IO Unit := do
  let .ok js := Lean.Json.parse (← IO.FS.readFile argv.head!) | throw (IO.userError "json")
  let .ok cases := js.getArr? | throw (IO.userError "json")
  let locJ : Loc Float CF := ⟨fun _ => 12345, fun _ => 12345.0, fun _ => ⟨12345.0, 12345.0⟩⟩
  for cs in cases do
    let .ok cs := cs.getArr? | throw (IO.userError "json")
    let .ok name := cs[0]!.getStr? | throw (IO.userError "json")
    let par := floats cs[1]!
    let .ok hist := cs[2]!.getArr? | throw (IO.userError "json")
    let .ok f := cs[3]!.getStr? | throw (IO.userError "json")
    let args := floats cs[4]!
    let data := floats cs[5]!
    let some P := SM.all.find? (·.name == name) | IO.println s!"no class {name}"
    let k := if f == "amp2" then P.amp2 else ((P.others.find? (·.1 == f)).map (·.2)).getD 999
    let (r, o) := P.construct (fun _ => 777.0) junkK (fn par)
    match r with
    | .ok _ => pure ()
    | x => IO.println s!"{name} ctor {match x with | .throw e => reprStr e | _ => "crash"}"
    let mut o := force o
    for h in hist do
      let (_, o') := P.runSetMasses junkK (fn (floats h)) o
      o := force o'
    let a := fn args
    let ini := Process.testInit (a 0) (a 1) (a 2) (a 3) (a 4)
    let mut bad := 0
    let mut worst : Float := 0
    let mut msg := ""
    for j in [0, 7, 13, 19] do
      let q := Process.testMomenta ini (a 4) (Process.testCos j)
      let qf : Nat → V4 Float := fun n => [q.p1, q.p2, q.p3, q.p4].getD n q.p1
      let (r, o1) := P.runSetMomenta junkK qf o
      match r with
      | .ok _ => pure ()
      | .throw e => msg := s!"set_momenta throws {repr e}"
      | .crash => msg := "set_momenta crashes"
      o := force o1
      let (x, o2) := P.method locJ .r k [] o
      o := force o2
      match x with
      | .ok x =>
        let d := fn data j
        let err := if Float.abs (x - d) < 1e-15 then 0 else Float.abs (x - d) / Float.abs (x + d)
        if err > 1e-6 || Float.isNaN err then bad := bad + 1
        if err > worst || Float.isNaN err then worst := err
      | .throw e => msg := s!"amp2 throws {repr e}"; bad := bad + 1
      | .crash => msg := "amp2 crashes"; bad := bad + 1
    IO.println s!"{name} {f} {args} bad={bad} worst={worst} ub={(List.range 4).map fun n => (o.w.part n).ub} {msg}"
