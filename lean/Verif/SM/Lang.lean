import Verif.Process
import Verif.Propagator

/-! The part of C++ used by the classes in `SM/*.cpp`, as a small typed language with an interpreter.

A class is translated (tools/sm/translate.py) statement by statement: `constexpr` locals are replaced by their literals, the
propagator momenta (local arrays filled by one loop) by their defining sum or difference.  Operands of an operator are
evaluated from left to right (C++ leaves the order open). -/

namespace Spinas.SM

/-- `ldouble` or `cdouble` -/
inductive Ty where
  | r
  | c
  deriving DecidableEq, Repr

/-- the values of a type -/
@[reducible] def Ty.den (R C : Type) : Ty → Type
  | .r => R
  | .c => C

/-- `std::pow(x, k)` for a literal natural number `k` -/
class HasPow (R : Type) where
  pow : R → Nat → R

/-- Expressions of type `int`. -/
inductive IExp where
  | lit (i : Int)
  | var (n : Nat)
  | mul (a b : IExp)
  /-- `get_num_spin_loops(ds...)` -/
  | loops (ds : List Nat)
  deriving DecidableEq, Repr

/-- Conditions. -/
inductive BExp where
  | lt (a b : IExp)
  | eq (a b : IExp)
  | and (a b : BExp)
  | or (a b : BExp)
  deriving DecidableEq, Repr

/-- Expressions of type `ldouble` and `cdouble`. -/
inductive Exp : Ty → Type where
  /-- an integer literal, or a literal such as `2.0` -/
  | lit (n : Nat) : Exp .r
  /-- `m * 10^(-e)` -/
  | dec (m e : Nat) : Exp .r
  /-- a data member -/
  | mem (t : Ty) (n : Nat) : Exp t
  /-- a local variable or a parameter -/
  | loc (t : Ty) (n : Nat) : Exp t
  | add {t : Ty} (a b : Exp t) : Exp t
  | sub {t : Ty} (a b : Exp t) : Exp t
  | mul {t : Ty} (a b : Exp t) : Exp t
  | div {t : Ty} (a b : Exp t) : Exp t
  | neg {t : Ty} (a : Exp t) : Exp t
  /-- `cdouble(x,0)`, or the conversion of an `ldouble` operand of a complex operator -/
  | ofR (a : Exp .r) : Exp .c
  /-- `ldouble * cdouble`, `cdouble * ldouble` -/
  | smul (a : Exp .r) (b : Exp .c) : Exp .c
  /-- `cdouble / ldouble` -/
  | divr (a : Exp .c) (b : Exp .r) : Exp .c
  | sqrt (a : Exp .r) : Exp .r
  | pow (a : Exp .r) (k : Nat) : Exp .r
  | abs (a : Exp .c) : Exp .r
  | re (a : Exp .c) : Exp .r
  | conj (a : Exp .c) : Exp .c
  /-- `get_spin_normalization(ds...)` -/
  | norm (ds : List Nat) : Exp .r
  /-- `v()`, `v(j)` or `v(j,k)` of the sproduct member number `a` -/
  | v (a : Nat) (args : List IExp) : Exp .c
  /-- a call of the method number `f` of the same object -/
  | call (f : Nat) (args : List IExp) : Exp .c
  deriving Repr

/-- Statements of the amplitude methods. -/
inductive Stmt where
  | skip
  | seq (a b : Stmt)
  | seti (n : Nat) (e : IExp)
  | set (t : Ty) (n : Nat) (e : Exp t)
  | ite (b : BExp) (s t : Stmt)
  /-- `for(int n=lo; n<hi; n+=step)`, with `<=` if `incl`; the body does not change `n` nor `hi` -/
  | loop (n : Nat) (lo : Int) (incl : Bool) (hi : IExp) (step : Nat) (body : Stmt)
  /-- `get_spinor_spins(ds,dsa,dsb, ..., i)` -/
  | spins (ds : List (Nat × Nat × Nat)) (i : IExp)
  | ret (t : Ty) (e : Exp t)
  | throw (e : Exc)
  deriving Repr

/-- Local variables, by type and number. -/
structure Loc (R C : Type) where
  i : Nat → Int
  r : Nat → R
  c : Nat → C

variable {R C : Type}

def Loc.get (l : Loc R C) : (t : Ty) → Nat → t.den R C
  | .r, n => l.r n
  | .c, n => l.c n
def Loc.seti (l : Loc R C) (n : Nat) (x : Int) : Loc R C := { l with i := fun k => if k = n then x else l.i k }
def Loc.set (l : Loc R C) : (t : Ty) → Nat → t.den R C → Loc R C
  | .r, n, x => { l with r := fun k => if k = n then x else l.r k }
  | .c, n, x => { l with c := fun k => if k = n then x else l.c k }

/-- What the amplitude methods see of the object: scalar members, and the calls `x.v(...)` and `f(...)`. -/
structure Sem (R C σ : Type) where
  mr : Nat → R
  mc : Nat → C
  v : Nat → List Int → Prog σ C
  f : Nat → List Int → Prog σ C

def Sem.mem {σ : Type} (S : Sem R C σ) : (t : Ty) → Nat → t.den R C
  | .r, n => S.mr n
  | .c, n => S.mc n

def IExp.eval (l : Nat → Int) : IExp → Int
  | .lit i => i
  | .var n => l n
  | .mul a b => a.eval l * b.eval l
  | .loops ds => (Process.numSpinLoops (ds.map l)).1

def BExp.eval (l : Nat → Int) : BExp → Bool
  | .lt a b => decide (a.eval l < b.eval l)
  | .eq a b => decide (a.eval l = b.eval l)
  | .and a b => a.eval l && b.eval l
  | .or a b => a.eval l || b.eval l

variable [Scalar R] [HasPow R] [Cplx R C] {σ : Type}

/-- arithmetic at either type -/
def tadd : (t : Ty) → t.den R C → t.den R C → t.den R C
  | .r, a, b => (a : R) + b
  | .c, a, b => (a : C) + b
def tsub : (t : Ty) → t.den R C → t.den R C → t.den R C
  | .r, a, b => (a : R) - b
  | .c, a, b => (a : C) - b
def tmul : (t : Ty) → t.den R C → t.den R C → t.den R C
  | .r, a, b => (a : R) * b
  | .c, a, b => (a : C) * b
def tdiv : (t : Ty) → t.den R C → t.den R C → t.den R C
  | .r, a, b => (a : R) / b
  | .c, a, b => (a : C) / b
def tneg : (t : Ty) → t.den R C → t.den R C
  | .r, a => -(a : R)
  | .c, a => -(a : C)

/-- Evaluation of an expression: calls may throw and change the state. -/
def Exp.eval (S : Sem R C σ) (l : Loc R C) : {t : Ty} → Exp t → Prog σ (t.den R C)
  | _, .lit n => pure (int n : R)
  | _, .dec m e => pure (Scalar.dec m e : R)
  | _, .mem t n => pure (S.mem t n)
  | _, .loc t n => pure (l.get t n)
  | t, .add a b => do let x ← a.eval S l; let y ← b.eval S l; pure (tadd t x y)
  | t, .sub a b => do let x ← a.eval S l; let y ← b.eval S l; pure (tsub t x y)
  | t, .mul a b => do let x ← a.eval S l; let y ← b.eval S l; pure (tmul t x y)
  | t, .div a b => do let x ← a.eval S l; let y ← b.eval S l; pure (tdiv t x y)
  | t, .neg a => do let x ← a.eval S l; pure (tneg t x)
  | _, .ofR a => do let x ← a.eval S l; pure (ofReal (x : R) : C)
  | _, .smul a b => do let x ← a.eval S l; let y ← b.eval S l; pure (Cplx.smul (x : R) (y : C))
  | _, .divr a b => do let x ← a.eval S l; let y ← b.eval S l; pure (Cplx.divr (x : C) (y : R))
  | _, .sqrt a => do let x ← a.eval S l; pure (Scalar.sqrt (x : R))
  | _, .pow a k => do let x ← a.eval S l; pure (HasPow.pow (x : R) k)
  | _, .abs a => do let x ← a.eval S l; pure (Cplx.abs (x : C))
  | _, .re a => do let x ← a.eval S l; pure (Cplx.re (x : C))
  | _, .conj a => do let x ← a.eval S l; pure (Cplx.conj (x : C))
  | _, .norm ds => pure (Process.spinNormalization (ds.map l.i))
  | _, .v a args => S.v a (args.map (·.eval l.i))
  | _, .call f args => S.f f (args.map (·.eval l.i))

/-- How a statement ends: control goes on, or the method returns. -/
inductive Flow (R C : Type) where
  | next (l : Loc R C)
  | ret (t : Ty) (x : t.den R C)

/-- The values taken by the loop variable of `for(int n=lo; n<hi (or n<=hi); n+=step)`. -/
def loopVals (lo : Int) (incl : Bool) (hi : Int) (step : Nat) : List Int :=
  let top := if incl then hi + 1 else hi
  (List.range ((top - lo + step - 1) / step).toNat).map fun k : Nat => lo + k * step

/-- Assign the results of `get_spinor_spins`. -/
def setSpins (l : Loc R C) : List (Nat × Nat × Nat) → List (Int × Int) → Loc R C
  | (_, a, b) :: ds, (x, y) :: xs => setSpins ((l.seti a x).seti b y) ds xs
  | _, _ => l

/-- Run the loop body for each value in turn. -/
def loopRun (n : Nat) (body : Loc R C → Prog σ (Flow R C)) : List Int → Loc R C → Prog σ (Flow R C)
  | [], l => pure (.next l)
  | x :: xs, l => do
    match ← body (l.seti n x) with
    | .next l' => loopRun n body xs l'
    | .ret t y => pure (.ret t y)

def Stmt.exec (S : Sem R C σ) : Stmt → Loc R C → Prog σ (Flow R C)
  | .skip, l => pure (.next l)
  | .seq a b, l => do
    match ← a.exec S l with
    | .next l' => b.exec S l'
    | .ret t x => pure (.ret t x)
  | .seti n e, l => pure (.next (l.seti n (e.eval l.i)))
  | .set t n e, l => do let x ← e.eval S l; pure (.next (l.set t n x))
  | .ite b s t, l => if b.eval l.i then s.exec S l else t.exec S l
  | .loop n lo incl hi step body, l => loopRun n (body.exec S) (loopVals lo incl (hi.eval l.i) step) l
  | .spins ds i, l => pure (.next (setSpins l ds (Process.spinorSpins (ds.map fun d => l.i d.1) (i.eval l.i))))
  | .ret t e, l => do let x ← e.eval S l; pure (.ret t x)
  | .throw e, _ => Prog.throw e

/-- A method: its parameters are the `int` variables `0 .. arity-1`. -/
structure Method where
  arity : Nat
  body : Stmt

/-- Local variables at the start of a call: the arguments, everything else is indeterminate (`junk`). -/
def enter (junk : Loc R C) (args : List Int) : Loc R C := { junk with i := fun n => args.getD n (junk.i n) }

/-- A call of a method that returns a `t`; a missing `return` or a wrong number of arguments is undefined behaviour. -/
def Method.run (m : Method) (S : Sem R C σ) (junk : Loc R C) (t : Ty) (args : List Int) : Prog σ (t.den R C) :=
  if args.length = m.arity then do
    match ← m.body.exec S (enter junk args) with
    | .ret t' x => if h : t' = t then pure (h ▸ x) else Prog.crash
    | .next _ => Prog.crash
  else Prog.crash

/-- The methods callable from a method: those later in the list.  The method numbered `k` is followed by `k` others. -/
def callable (mr : Nat → R) (mc : Nat → C) (v : Nat → List Int → Prog σ C) (junk : Loc R C) : List Method → Nat → List Int → Prog σ C
  | [], _, _ => Prog.crash
  | m :: ms, k, args =>
    if k = ms.length then m.run ⟨mr, mc, v, callable mr mc v junk ms⟩ junk .c args else callable mr mc v junk ms k args

/-- A call of method number `k` returning a `t`. -/
def invoke (mr : Nat → R) (mc : Nat → C) (v : Nat → List Int → Prog σ C) (junk : Loc R C) (t : Ty) :
    List Method → Nat → List Int → Prog σ (t.den R C)
  | [], _, _ => Prog.crash
  | m :: ms, k, args =>
    if k = ms.length then m.run ⟨mr, mc, v, callable mr mc v junk ms⟩ junk t args else invoke mr mc v junk t ms k args

/-! ### the object -/

/-- Data members of a process object.  The particles `p1 .. p4` are numbered 0 .. 3 in `w`. -/
structure Obj (R C : Type) where
  r : Nat → R
  c : Nat → C
  pr : Nat → Propag R
  w : World R C

/-- The momentum passed to a propagator: `mom_i + mom_j` or `mom_i - mom_j`. -/
inductive VExp where
  | add (i j : Nat)
  | sub (i j : Nat)
  deriving DecidableEq, Repr

def VExp.eval (q : Nat → V4 R) : VExp → V4 R
  | .add i j => ⟨(q i).t + (q j).t, (q i).x + (q j).x, (q i).y + (q j).y, (q i).z + (q j).z⟩
  | .sub i j => ⟨(q i).t - (q j).t, (q i).x - (q j).x, (q i).y - (q j).y, (q i).z - (q j).z⟩

/-- Statements of constructors, `set_masses`, `set_v` and `set_momenta`.  Parameters of type `ldouble` are the local variables 0, 1, ... -/
inductive SInstr where
  | set (t : Ty) (n : Nat) (e : Exp t)
  /-- `p = particle(e)` -/
  | part (i : Nat) (e : Exp .r)
  | setMass (i : Nat) (e : Exp .r)
  /-- `p.set_momentum(mom_k)` -/
  | setMom (i k : Nat)
  /-- `prop = propagator(m,w)` -/
  | prop (k : Nat) (m w : Exp .r)
  | propMass (k : Nat) (e : Exp .r)
  /-- `s = sproduct(...)` -/
  | sprod (a : Nat) (d : SPDef)
  | update (a : Nat)
  /-- `x = prop.denominator(v)` for a complex member, `x = std::real(prop.denominator(v))` for a real one -/
  | den (t : Ty) (n k : Nat) (v : VExp)
  deriving Repr

/-- Expressions without calls have a value in every state (a call would make it zero; none occurs in set-up code). -/
def Exp.val (mr : Nat → R) (mc : Nat → C) (par : Nat → R) : {t : Ty} → Exp t → t.den R C
  | _, .lit n => (int n : R)
  | _, .dec m e => (Scalar.dec m e : R)
  | _, .mem .r n => mr n
  | _, .mem .c n => mc n
  | _, .loc .r n => par n
  | _, .loc .c _ => (czero : C)
  | t, .add a b => tadd t (a.val mr mc par) (b.val mr mc par)
  | t, .sub a b => tsub t (a.val mr mc par) (b.val mr mc par)
  | t, .mul a b => tmul t (a.val mr mc par) (b.val mr mc par)
  | t, .div a b => tdiv t (a.val mr mc par) (b.val mr mc par)
  | t, .neg a => tneg t (a.val mr mc par)
  | _, .ofR a => ofReal (a.val mr mc par : R)
  | _, .smul a b => Cplx.smul (a.val mr mc par : R) (b.val mr mc par : C)
  | _, .divr a b => Cplx.divr (a.val mr mc par : C) (b.val mr mc par : R)
  | _, .sqrt a => Scalar.sqrt (a.val mr mc par : R)
  | _, .pow a k => HasPow.pow (a.val mr mc par : R) k
  | _, .abs a => Cplx.abs (a.val mr mc par : C)
  | _, .re a => Cplx.re (a.val mr mc par : C)
  | _, .conj a => Cplx.conj (a.val mr mc par : C)
  | _, .norm _ => (int 1 : R)
  | _, .v _ _ => (czero : C)
  | _, .call _ _ => (czero : C)

def Obj.setMem (o : Obj R C) : (t : Ty) → Nat → t.den R C → Obj R C
  | .r, n, x => { o with r := fun k => if k = n then x else o.r k }
  | .c, n, x => { o with c := fun k => if k = n then x else o.c k }

/-- Run a program on the particles and products of the object. -/
def onWorld {α : Type} (f : Prog (World R C) α) : Prog (Obj R C) α := fun o =>
  let r := f o.w
  (r.1, { o with w := r.2 })

/-- `x = prop.denominator(v)` or `x = std::real(prop.denominator(v))` -/
def Obj.setDen (o : Obj R C) (n k : Nat) (v : V4 R) : Ty → Obj R C
  | .r => o.setMem .r n (Cplx.re (Propag.denominator (o.pr k) v : C) : R)
  | .c => o.setMem .c n (Propag.denominator (o.pr k) v : C)

/-- One set-up statement; `par`: the `ldouble` parameters, `q`: the momenta, `junk`: indeterminate members of a new particle. -/
def SInstr.exec (junk : Kin R C) (par : Nat → R) (q : Nat → V4 R) : SInstr → Prog (Obj R C) Unit
  | .set t n e => fun o => (.ok (), o.setMem t n (e.val o.r o.c par))
  | .part i e => fun o => (.ok (), { o with w := o.w.setPart i (Particle.ctorM junk (e.val o.r o.c par)) })
  | .setMass i e => fun o => onWorld (onPart i (Particle.setMass (e.val o.r o.c par))) o
  | .setMom i k => onWorld (onPart i (Particle.setMomentum (q k)))
  | .prop k m w => fun o => (.ok (), { o with pr := fun j => if j = k then Propag.ctor (m.val o.r o.c par) (w.val o.r o.c par) else o.pr j })
  | .propMass k e => fun o => (.ok (), { o with pr := fun j => if j = k then (o.pr j).setMass (e.val o.r o.c par) else o.pr j })
  | .sprod a d => onWorld (SProd.construct a d)
  | .update a => onWorld (SProd.update a)
  | .den t n k v => fun o => (.ok (), o.setDen n k (v.eval q) t)

/-- Run set-up code; an exception ends it, the changes made so far persist. -/
def runSetup (junk : Kin R C) (par : Nat → R) (q : Nat → V4 R) : List SInstr → Prog (Obj R C) Unit
  | [] => pure ()
  | i :: is => do i.exec junk par q; runSetup junk par q is

/-- A class of `SM/`. -/
structure Proc where
  /-- class name -/
  name : String
  /-- number of constructor parameters -/
  nPar : Nat
  /-- member initialisers (in the order of declaration) and body of the constructor -/
  ctor : List SInstr
  /-- body of `set_masses` -/
  setMasses : List SInstr
  /-- the constructor parameter that each parameter of `set_masses` replaces -/
  massPar : List Nat
  /-- body of `set_momenta` -/
  setMomenta : List SInstr
  /-- amplitude methods; the method numbered `k` is followed by `k` others and calls only those -/
  methods : List Method
  /-- number of `amp2()` -/
  amp2 : Nat
  /-- the other squared amplitudes, such as `amp2_Aplus()` -/
  others : List (String × Nat) := []

namespace Proc

/-- An object whose members hold indeterminate values where C++ leaves them so: `ldouble` members. -/
def raw (mem : Nat → R) (junk : Kin R C) : Obj R C :=
  { r := mem
    c := fun _ => czero
    pr := fun _ => Propag.ctor0
    w := { part := fun _ => Particle.ctor0 junk, sp := fun _ => SProd.ctor0 } }

/-- `P(par...)` -/
def construct (P : Proc) (mem : Nat → R) (junk : Kin R C) (par : Nat → R) : Res Unit × Obj R C :=
  runSetup junk par (fun _ => ⟨int 0, int 0, int 0, int 0⟩) P.ctor (raw mem junk)

/-- `set_masses(args...)` -/
def runSetMasses (P : Proc) (junk : Kin R C) (args : Nat → R) : Prog (Obj R C) Unit :=
  runSetup junk args (fun _ => ⟨int 0, int 0, int 0, int 0⟩) P.setMasses

/-- `set_momenta(mom1, mom2, mom3, mom4)` -/
def runSetMomenta (P : Proc) (junk : Kin R C) (q : Nat → V4 R) : Prog (Obj R C) Unit :=
  runSetup junk (fun _ => int 0) q P.setMomenta

/-- the call `x.v(args)` on the sproduct number `a` -/
def vcall (a : Nat) : List Int → Prog (World R C) C
  | [] => SProd.v0 a
  | [j] => SProd.v1 a j
  | [j, k] => SProd.v2 a j k
  | _ => Prog.crash

/-- A call of an amplitude method of type `t`. -/
def method (P : Proc) (junk : Loc R C) (t : Ty) (k : Nat) (args : List Int) : Prog (Obj R C) (t.den R C) := fun o =>
  onWorld (invoke o.r o.c vcall junk t P.methods k args) o

end Proc
end Spinas.SM
