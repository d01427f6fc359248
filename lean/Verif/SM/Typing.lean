import Verif.SM.Check

/-! A type system for amplitudes.  The type of a complex value records the spin indices it carries, the phases it picks up when the
spinors of massless particles are rephased, and the power of the normalisation factor.  It is proved sound in `Verif.SM.TypingSound`
and evaluated by the kernel for every class; nothing here is trusted. -/

namespace Spinas.SM

/-- Spin variables with their (massive) particles; phase weights of the particles 0 .. 3; power of the normalisation factor. -/
structure CType where
  X : List (Nat × Nat)
  w : List Int
  deg : Nat

/-- Types of values. -/
inductive VTy where
  | zero
  /-- the same number in every frame, times a power of the normalisation factor -/
  | scal (d : Nat)
  | lin (T : CType)
  /-- a sum over the spinor indices of the vector particles `ds`; its complex conjugate; its absolute value -/
  | amp (ds : List (Nat × Nat × Nat)) (T : CType)
  | camp (ds : List (Nat × Nat × Nat)) (T : CType)
  | aamp (ds : List (Nat × Nat × Nat)) (T : CType)
  /-- the sum over the spins is the same number in every frame -/
  | quadc
  | quad

/-- What is known about local variables: `int` variables are literals or spin variables; the others have a type, with the
mark `true` if their value is the initial value of the accumulator plus a value of this type. -/
structure TEnv where
  i : List (Option IExp)
  r : List (Option (Bool × VTy))
  c : List (Option (Bool × VTy))

namespace TEnv
def gi (E : TEnv) (n : Nat) : Option IExp := E.i.getD n none
def g (E : TEnv) : Ty → Nat → Option (Bool × VTy)
  | .r, n => E.r.getD n none
  | .c, n => E.c.getD n none
def seti (E : TEnv) (n : Nat) (x : Option IExp) : TEnv := { E with i := upd none x n E.i }
def set (E : TEnv) : Ty → Nat → Option (Bool × VTy) → TEnv
  | .r, n, x => { E with r := upd none x n E.r }
  | .c, n, x => { E with c := upd none x n E.c }
/-- the spin variable an `int` variable stands for -/
def symbol (E : TEnv) (n : Nat) : Option Nat := match E.gi n with
  | some (.var m) => some m
  | _ => none
end TEnv

def optMap {α β : Type} (f : α → Option β) : List α → Option (List β)
  | [] => some []
  | a :: l => match f a, optMap f l with
    | some b, some bs => some (b :: bs)
    | _, _ => none

def IExp.sym (E : TEnv) : IExp → Option IExp
  | .lit i => some (.lit i)
  | .var n => E.gi n
  | .mul a b => match a.sym E, b.sym E with
    | some (.lit i), some (.lit j) => some (.lit (i * j))
    | _, _ => none
  | .loops ds => match optMap E.symbol ds with
    | some ns => some (.loops ns)
    | none => none

/-- value of a condition, if known -/
def BExp.sym (E : TEnv) : BExp → Option Bool
  | .lt a b => match a.sym E, b.sym E with
    | some (.lit i), some (.lit j) => some (decide (i < j))
    | _, _ => none
  | .eq a b => match a.sym E, b.sym E with
    | some (.lit i), some (.lit j) => some (decide (i = j))
    | _, _ => none
  | .and a b => match a.sym E, b.sym E with
    | some x, some y => some (x && y)
    | _, _ => none
  | .or a b => match a.sym E, b.sym E with
    | some x, some y => some (x || y)
    | _, _ => none

/-- The setting: products and massive particles; the spins in the normalisation factor; the spins summed over; calls. -/
structure TCtx where
  sp : Nat → Option SPDef
  massive : Nat → Bool
  ns : List Nat
  ferm : List Nat
  vec : List Nat
  f : Nat → List IExp → Option VTy

def w0 : List Int := [0, 0, 0, 0]
def addW (w w' : List Int) : List Int := (List.range 4).map fun i => w.getD i 0 + w'.getD i 0
def unitW (i : Nat) (x : Int) : List Int := (List.range 4).map fun k => if k = i then x else 0
/-- weight of the end of a product -/
def endW (X : TCtx) (i : Nat) (angle : Bool) : List Int := if X.massive i then w0 else unitW i (if angle then 1 else -1)
/-- whether the right end of a product is an angle spinor -/
def rightAngle (d : SPDef) : Bool := d.leftAngle == decide (d.mids.length % 2 = 0)

def vtype (X : TCtx) (d : SPDef) (args : List IExp) : Option CType :=
  let w := addW (endW X d.left d.leftAngle) (endW X d.right (rightAngle d))
  if Sym.okDef d then
    match X.massive d.left, X.massive d.right, args with
    | false, false, [] => some ⟨[], w, 0⟩
    | true, false, [.var n] => some ⟨[(n, d.left)], w, 0⟩
    | false, true, [.var n] => some ⟨[(n, d.right)], w, 0⟩
    | true, true, [.var n, .var m] => if n = m then none else some ⟨[(n, d.left), (m, d.right)], w, 0⟩
    | _, _, _ => none
  else none

def CType.same (x y : CType) : Bool := x.X.isPerm y.X && x.w == y.w && x.deg == y.deg

def VTy.add : VTy → VTy → Option VTy
  | .zero, .zero => some .zero
  | .zero, .scal d => some (.scal d)
  | .zero, .lin T => some (.lin T)
  | .zero, .quad => some .quad
  | .scal d, .scal e => if d = e then some (.scal d) else none
  | .lin T, .lin T' => if T.same T' then some (.lin T) else none
  | .quad, .quad => some .quad
  | _, _ => none

/-- The spins of a squared amplitude: the spins summed over are those of the amplitude. -/
def CType.exts (ferm : List Nat) (ds : List (Nat × Nat × Nat)) (T : CType) : List (Nat × List (Nat × Nat)) :=
  ferm.map (fun n => (n, [(n, (T.X.lookup n).getD 0)])) ++ ds.map (fun d => (d.1, [(d.2.1, (T.X.lookup d.2.1).getD 0), (d.2.2, (T.X.lookup d.2.1).getD 0)]))

def CType.full (ferm vec : List Nat) (ds : List (Nat × Nat × Nat)) (T : CType) : Bool :=
  T.X.isPerm ((T.exts ferm ds).flatMap (·.2)) && (ds.map (·.1)).isPerm vec &&
    decide (ferm ++ ds.flatMap fun d => [d.1, d.2.1, d.2.2]).Nodup

/-- The product of an amplitude and the complex conjugate of another one. -/
def VTy.square (X : TCtx) (ds : List (Nat × Nat × Nat)) (T : CType) (ds' : List (Nat × Nat × Nat)) (T' : CType) : Bool :=
  decide (ds = ds') && T.same T' && T.full X.ferm X.vec ds

def VTy.mul (X : TCtx) : VTy → VTy → Option VTy
  | .zero, .scal _ => some .zero
  | .scal d, .scal e => some (.scal (d + e))
  | .scal d, .lin T => some (.lin ⟨T.X, T.w, d + T.deg⟩)
  | .lin T, .scal d => some (.lin ⟨T.X, T.w, T.deg + d⟩)
  | .scal 0, .quad => some .quad
  | .quad, .scal 0 => some .quad
  | .lin T, .lin T' => if T.X.all fun x => T'.X.all fun y => x.1 != y.1 then some (.lin ⟨T.X ++ T'.X, addW T.w T'.w, T.deg + T'.deg⟩) else none
  | .amp ds T, .camp ds' T' => if VTy.square X ds T ds' T' then some .quadc else none
  | _, _ => none

/-- division by a number that is the same in every frame -/
def VTy.div : VTy → VTy → Option VTy
  | .zero, .scal 0 => some .zero
  | .scal d, .scal 0 => some (.scal d)
  | .lin T, .scal 0 => some (.lin T)
  | .quad, .scal 0 => some .quad
  | _, _ => none

def VTy.neg : VTy → Option VTy
  | .zero => some .zero
  | .scal d => some (.scal d)
  | .lin T => some (.lin T)
  | _ => none

def VTy.ofR : VTy → Option VTy
  | .scal d => some (.scal d)
  | _ => none
def VTy.smul (X : TCtx) : VTy → VTy → Option VTy
  | .scal d, y => VTy.mul X (.scal d) y
  | _, _ => none
def VTy.sqrt : VTy → Option VTy
  | .scal 0 => some (.scal 0)
  | _ => none
def VTy.pow (X : TCtx) : Nat → VTy → Option VTy
  | 0, _ => none
  | _ + 1, .scal 0 => some (.scal 0)
  | 2, .zero => some .zero
  | 2, .aamp ds T => if VTy.square X ds T ds T then some .quad else none
  | _, _ => none
def VTy.abs : VTy → Option VTy
  | .zero => some .zero
  | .scal 0 => some (.scal 0)
  | .amp ds T => some (.aamp ds T)
  | _ => none
def VTy.re : VTy → Option VTy
  | .quadc => some .quad
  | _ => none
def VTy.conj : VTy → Option VTy
  | .zero => some .zero
  | .amp ds T => some (.camp ds T)
  | _ => none

/-- the literal 0 -/
def Exp.isZero : {t : Ty} → Exp t → Bool
  | _, .lit n => n == 0
  | _, _ => false

/-- the accumulator may occur on the left of a sum only -/
def addA : Option (Bool × VTy) → Option (Bool × VTy) → Option (Bool × VTy)
  | some (b, x), some (false, y) => (x.add y).map fun z => (b, z)
  | _, _ => none

def plain1 (f : VTy → Option VTy) : Option (Bool × VTy) → Option (Bool × VTy)
  | some (false, x) => (f x).map fun z => (false, z)
  | _ => none

def plain2 (f : VTy → VTy → Option VTy) : Option (Bool × VTy) → Option (Bool × VTy) → Option (Bool × VTy)
  | some (false, x), some (false, y) => (f x y).map fun z => (false, z)
  | _, _ => none

def Exp.ty (X : TCtx) (E : TEnv) : {t : Ty} → Exp t → Option (Bool × VTy)
  | _, .lit _ => some (false, .scal 0)
  | _, .dec _ _ => some (false, .scal 0)
  | _, .mem _ _ => some (false, .scal 0)
  | _, .loc t n => E.g t n
  | _, .add a b => addA (a.ty X E) (b.ty X E)
  | _, .sub a b => match b.ty X E with
    | some (false, y) => match y.neg with
      | some y' => addA (a.ty X E) (some (false, y'))
      | none => none
    | _ => none
  | _, .mul a b => plain2 (VTy.mul X) (a.ty X E) (b.ty X E)
  | _, .div a b => plain2 VTy.div (a.ty X E) (b.ty X E)
  | _, .neg a => plain1 VTy.neg (a.ty X E)
  | _, .ofR a => if a.isZero then some (false, .zero) else plain1 VTy.ofR (a.ty X E)
  | _, .smul a b => plain2 (VTy.smul X) (a.ty X E) (b.ty X E)
  | _, .divr _ _ => none
  | _, .sqrt a => plain1 VTy.sqrt (a.ty X E)
  | _, .pow a k => plain1 (VTy.pow X k) (a.ty X E)
  | _, .abs a => plain1 VTy.abs (a.ty X E)
  | _, .re a => plain1 VTy.re (a.ty X E)
  | _, .conj a => plain1 VTy.conj (a.ty X E)
  | _, .norm ds => match optMap E.symbol ds with
    | some ns => if ns = X.ns then some (false, .scal 1) else none
    | none => none
  | _, .v a args => match X.sp a, optMap (·.sym E) args with
    | some d, some xs => (vtype X d xs).map fun T => (false, .lin T)
    | _, _ => none
  | _, .call f args => match optMap (·.sym E) args with
    | some xs => (X.f f xs).map fun v => (false, v)
    | none => none

/-- How a statement ends. -/
inductive TFlow where
  | next (E : TEnv)
  | ret (t : Ty) (v : VTy)

def tyUnroll (n : Nat) (body : TEnv → Option TFlow) : List Int → TEnv → Option TFlow
  | [], E => some (.next E)
  | x :: xs, E => match body (E.seti n (some (.lit x))) with
    | some (.next E') => tyUnroll n body xs E'
    | r => r

/-- Straight-line code with known conditions, and loops with known bounds. -/
def Stmt.ty (X : TCtx) : Stmt → TEnv → Option TFlow
  | .skip, E => some (.next E)
  | .seq a b, E => match a.ty X E with
    | some (.next E') => b.ty X E'
    | r => r
  | .seti n e, E => match e.sym E with
    | some x => some (.next (E.seti n (some x)))
    | none => none
  | .set t n e, E => match e.ty X E with
    | some x => some (.next (E.set t n (some x)))
    | none => none
  | .ite b s t, E => match b.sym E with
    | some true => s.ty X E
    | some false => t.ty X E
    | none => none
  | .loop n lo incl hi step body, E => match hi.sym E with
    | some (.lit h) => tyUnroll n (body.ty X) (loopVals lo incl h step) E
    | _ => none
  | .ret t e, E => match e.ty X E with
    | some (false, v) => some (.ret t v)
    | _ => none
  | _, _ => none

/-! ### loops -/

/-- `ldouble` and `cdouble` variables assigned by a statement -/
def Stmt.assignedT (t : Ty) : Stmt → List Nat
  | .seq a b => a.assignedT t ++ b.assignedT t
  | .set t' n _ => if t' = t then [n] else []
  | .ite _ a b => a.assignedT t ++ b.assignedT t
  | .loop _ _ _ _ _ b => b.assignedT t
  | _ => []

/-- What is still known inside and after a loop: variables not assigned in it, and of these only frame-independent numbers. -/
def TEnv.forget (E : TEnv) (s : Stmt) : TEnv where
  i := (List.range E.i.length).map fun n => if s.assigned.contains n then none else
    match E.gi n with
    | some (.lit x) => some (.lit x)
    | some (.var m) => some (.var m)
    | _ => none
  r := (List.range E.r.length).map fun n => if (s.assignedT .r).contains n then none else
    match E.g .r n with
    | some (false, .scal d) => some (false, .scal d)
    | _ => none
  c := (List.range E.c.length).map fun n => if (s.assignedT .c).contains n then none else
    match E.g .c n with
    | some (false, .scal d) => some (false, .scal d)
    | _ => none

/-- spin variables for the results of `get_spinor_spins` -/
def newSym (n : Nat) : Nat := 100 + n

def hideSpins (E : TEnv) : List (Nat × Nat × Nat) → TEnv
  | [] => E
  | (_, a, b) :: ds => hideSpins ((E.seti a (some (.var (newSym a)))).seti b (some (.var (newSym b)))) ds

def IExp.simple : IExp → Bool
  | .lit _ => true
  | .var _ => true
  | _ => false

/-- spins of vector particles in the amplitude: external spin and two spinor spins -/
def vecSpins (ds : List (Nat × Nat × Nat)) (ns : List Nat) : List (Nat × Nat × Nat) :=
  (ds.zip ns).map fun d => (d.2, newSym d.1.2.1, newSym d.1.2.2)

/-- The loop over the spinor spins of the vector particles. -/
def tyCombs (X : TCtx) (n : Nat) (hi : IExp) (ds : List (Nat × Nat × Nat)) (body : Stmt) (E : TEnv) : Option TEnv :=
  let s := Stmt.seq (.spins ds (.var n)) body
  match optMap E.symbol (ds.map (·.1)), hi.sym E, (body.assignedT .c).head? with
  | some ns, some (.loops ns'), some k => match E.g .c k with
    | some (false, .zero) =>
      let vs := vecSpins ds ns
      let E0 := E.forget (.loop n 0 false hi 1 s)
      if ns = X.ns ∧ ns = ns' ∧ (ns ++ vs.flatMap fun d => [d.2.1, d.2.2]).Nodup ∧
          E0.i.all (fun | some (.lit _) => true | some (.var m) => !(vs.any fun d => d.2.1 == m || d.2.2 == m) | none => true | _ => false) = true ∧
          (ds.all fun d => d.1 != n && !(s.assigned.contains d.1)) = true ∧ !(s.assigned.contains n) = true then
        match body.ty X ((hideSpins E0 ds).set .c k (some (true, .zero))) with
        | some (.next E2) => match E2.g .c k with
          | some (true, .lin T) => if T.deg = 1 then some (E0.set .c k (some (false, .amp vs T))) else none
          | _ => none
        | _ => none
      else none
    | _ => none
  | _, _, _ => none

/-- The type of an amplitude. -/
def Stmt.tyAmp (X : TCtx) : Stmt → TEnv → Option VTy
  | .seq (.loop n lo incl hi step (.seq (.spins ds (.var n')) body)) rest, E =>
    if n = n' ∧ lo = 0 ∧ incl = false ∧ step = 1 then
      match tyCombs X n hi ds body E with
      | some E' => rest.tyAmp X E'
      | none => none
    else none
  | .seq a b, E => match a.ty X E with
    | some (.next E') => b.tyAmp X E'
    | some (.ret .c v) => some v
    | _ => none
  | s, E => match s.ty X E with
    | some (.ret .c v) => some v
    | _ => none

/-- `amp` without spinor spins -/
def VTy.asAmp (ns : List Nat) : VTy → Option VTy
  | .zero => if ns = [] then some .zero else none
  | .scal 0 => if ns = [] then some (.scal 0) else none
  | .lin T => if T.deg = 0 then some (.amp [] T) else none
  | .amp ds T => some (.amp ds T)
  | _ => none

/-- the first `get_spinor_spins` in a method -/
def Stmt.firstSpins : Stmt → List Nat
  | .spins ds _ => ds.map (·.1)
  | .seq a b => match a.firstSpins with
    | [] => b.firstSpins
    | l => l
  | .loop _ _ _ _ _ b => b.firstSpins
  | .ite _ a b => match a.firstSpins with
    | [] => b.firstSpins
    | l => l
  | _ => []

/-- the type of a call of an amplitude -/
def Method.tyCall (sp : Nat → Option SPDef) (massive : Nat → Bool) (m : Method) (args : List IExp) : Option VTy :=
  if args.length = m.arity ∧ args.all IExp.simple = true then
    let ns := m.body.firstSpins.filterMap fun n => match args.getD n (.lit 0) with
      | .var k => some k
      | _ => none
    match m.body.tyAmp ⟨sp, massive, ns, [], [], fun _ _ => none⟩ ⟨args.map some, [], []⟩ with
    | some v => v.asAmp ns
    | none => none
  else none

def tyCalls (sp : Nat → Option SPDef) (massive : Nat → Bool) : List Method → Nat → List IExp → Option VTy
  | [], _, _ => none
  | m :: ms, k, args => if k = ms.length then m.tyCall sp massive args else tyCalls sp massive ms k args

/-! ### squared amplitudes -/

/-- nested loops with constant bounds -/
def peel : Stmt → List (Nat × List Int) × Stmt
  | .loop n lo incl (.lit hi) step body => ((n, loopVals lo incl hi step) :: (peel body).1, (peel body).2)
  | s => ([], s)

/-- all values of the loop variables -/
def enums : List (Nat × List Int) → List (List (Nat × Int))
  | [] => [[]]
  | (n, xs) :: l => xs.flatMap fun x => (enums l).map fun e => (n, x) :: e

/-- variables in conditions -/
def BExp.vars : BExp → List Nat
  | .lt a b | .eq a b => (match a with | .var n => [n] | _ => []) ++ (match b with | .var n => [n] | _ => [])
  | .and a b | .or a b => a.vars ++ b.vars
def Stmt.condVars : Stmt → List Nat
  | .seq a b => a.condVars ++ b.condVars
  | .ite b s t => b.vars ++ s.condVars ++ t.condVars
  | .loop _ _ _ _ _ b => b.condVars
  | _ => []
def Exp.calls : {t : Ty} → Exp t → List (Nat × List IExp)
  | _, .add a b | _, .sub a b | _, .mul a b | _, .div a b => a.calls ++ b.calls
  | _, .smul a b => a.calls ++ b.calls
  | _, .divr a b => a.calls ++ b.calls
  | _, .neg a => a.calls
  | _, .ofR a => a.calls
  | _, .sqrt a => a.calls
  | _, .pow a _ => a.calls
  | _, .abs a => a.calls
  | _, .re a => a.calls
  | _, .conj a => a.calls
  | _, .call f args => [(f, args)]
  | _, _ => []
def Stmt.calls : Stmt → List (Nat × List IExp)
  | .seq a b => a.calls ++ b.calls
  | .set _ _ e => e.calls
  | .ite _ a b => a.calls ++ b.calls
  | .loop _ _ _ _ _ b => b.calls
  | .ret _ e => e.calls
  | _ => []

def nthMethod : List Method → Nat → Option Method
  | [], _ => none
  | m :: ms, k => if k = ms.length then some m else nthMethod ms k

/-- loop variables on which a condition in an amplitude depends -/
def condLoopVars (ms : List Method) (s : Stmt) : List Nat :=
  s.calls.flatMap fun (f, args) => match nthMethod ms f with
    | none => []
    | some m => (List.range args.length).filterMap fun k =>
      if m.body.condVars.contains k then (match args.getD k (.lit 0) with | .var n => some n | _ => none) else none

def fermVals : List Int := [-1, 1]
def vecVals : List Int := [-2, 0, 2]

/-- the loop variables whose values are enumerated; the spins of fermions; of vectors -/
def enumLoops (cv : List Nat) (l : List (Nat × List Int)) : List (Nat × List Int) := l.filter fun x => cv.contains x.1 || (x.2 != fermVals && x.2 != vecVals)
def fermLoops (cv : List Nat) (l : List (Nat × List Int)) : List Nat := (l.filter fun x => !cv.contains x.1 && x.2 == fermVals).map (·.1)
def vecLoops (cv : List Nat) (l : List (Nat × List Int)) : List Nat := (l.filter fun x => !cv.contains x.1 && x.2 == vecVals).map (·.1)

def TEnv.setAll (E : TEnv) : List (Nat × IExp) → TEnv
  | [] => E
  | (n, x) :: l => (E.seti n (some x)).setAll l

/-- A sum over spins. -/
def tyNest (sp : Nat → Option SPDef) (massive : Nat → Bool) (ms : List Method) (s : Stmt) (E : TEnv) : Option TEnv :=
  let l := (peel s).1
  let body := (peel s).2
  let cv := condLoopVars ms s
  let en := enumLoops cv l
  let ferm := fermLoops cv l
  let vec := vecLoops cv l
  let E0 := E.forget s
  match (body.assignedT .r).head? with
  | none => none
  | some k => match E.g .r k with
    | some (false, .scal 0) =>
      if (l.map (·.1)).Nodup ∧ (l.all fun x => !(body.assigned.contains x.1)) = true ∧
          E0.i.all (fun | some (.lit _) => true | none => true | _ => false) = true ∧
          ((enums en).all fun e => match body.ty ⟨sp, massive, [], ferm, vec, tyCalls sp massive ms⟩
              ((E0.setAll ((ferm ++ vec).map (fun n => (n, .var n)) ++ e.map (fun x => (x.1, .lit x.2)))).set .r k (some (true, .zero))) with
            | some (.next E2) => match E2.g .r k with
              | some (true, .quad) => true
              | some (true, .zero) => true
              | _ => false
            | _ => false) = true then
        some (E0.set .r k (some (false, .scal 0)))
      else none
    | _ => none

/-- The squared amplitude is the same number in every frame. -/
def Stmt.tySq (sp : Nat → Option SPDef) (massive : Nat → Bool) (ms : List Method) : Stmt → TEnv → Bool
  | .seq (.loop n lo incl hi step body) b, E => match tyNest sp massive ms (.loop n lo incl hi step body) E with
    | some E' => b.tySq sp massive ms E'
    | none => false
  | .seq a b, E => match a.ty ⟨sp, massive, [], [], [], tyCalls sp massive ms⟩ E with
    | some (.next E') => b.tySq sp massive ms E'
    | _ => false
  | s, E => match s.ty ⟨sp, massive, [], [], [], tyCalls sp massive ms⟩ E with
    | some (.ret .r (.scal 0)) => true
    | some (.ret .r .quad) => true
    | _ => false

def tySquare (sp : Nat → Option SPDef) (massive : Nat → Bool) : List Method → Nat → Bool
  | [], _ => false
  | m :: ms, k => if k = ms.length then decide (m.arity = 0) && m.body.tySq sp massive ms ⟨[], [], []⟩ else tySquare sp massive ms k

def Proc.invariant (P : Proc) (k : Nat) : Bool := match P.sym with
  | none => false
  | some S => tySquare S.gsp (fun i => massiveExp (S.gm i)) P.methods k

end Spinas.SM
