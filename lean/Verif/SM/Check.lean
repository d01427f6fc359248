import Verif.SM.Proc.All

/-! Static checks on the translated classes.  They are proved sound in `Verif.SM.Sound` and evaluated by the kernel for every
class; nothing here is trusted. -/

namespace Spinas.SM

/-! ### lists used as finite maps -/

/-- replace entry `n`, padding with `d` -/
def upd {α : Type} (d : α) (x : α) : Nat → List α → List α
  | 0, [] => [x]
  | 0, _ :: l => x :: l
  | n + 1, [] => d :: upd d x n []
  | n + 1, y :: l => y :: upd d x n l

theorem getD_upd {α : Type} (d x : α) : ∀ (n : Nat) (l : List α) (k : Nat), (upd d x n l).getD k d = if k = n then x else l.getD k d
  | 0, [], 0 => rfl
  | 0, [], k + 1 => by simp [upd]
  | 0, y :: l, 0 => rfl
  | 0, y :: l, k + 1 => by simp [upd]
  | n + 1, [], 0 => rfl
  | n + 1, [], k + 1 => by
    have := getD_upd d x n [] k
    simp only [upd, List.getD_cons_succ, this, Nat.add_right_cancel_iff]
    simp
  | n + 1, y :: l, 0 => rfl
  | n + 1, y :: l, k + 1 => by
    have := getD_upd d x n l k
    simp only [upd, List.getD_cons_succ, this, Nat.add_right_cancel_iff]

/-! ### what is known about the local variables -/

/-- Knowledge about an `int` variable: nothing (possibly not assigned), its value, that it is a spin (+1 or -1), that it is assigned. -/
inductive AI where
  | unset
  | known (i : Int)
  | spin
  | any
  deriving DecidableEq, Repr

/-- Assigned variables. -/
structure AEnv where
  i : List AI
  r : List Bool
  c : List Bool
  deriving Repr

namespace AEnv
def gi (E : AEnv) (n : Nat) : AI := E.i.getD n .unset
def g (E : AEnv) : Ty → Nat → Bool
  | .r, n => E.r.getD n false
  | .c, n => E.c.getD n false
def seti (E : AEnv) (n : Nat) (x : AI) : AEnv := { E with i := upd .unset x n E.i }
def set (E : AEnv) : Ty → Nat → AEnv
  | .r, n => { E with r := upd false true n E.r }
  | .c, n => { E with c := upd false true n E.c }
end AEnv

/-- `x` holds whenever `y` does -/
def AI.le (x y : AI) : Bool :=
  match x, y with
  | .unset, _ => true
  | .any, .unset => false
  | .any, _ => true
  | .spin, .spin => true
  | .spin, .known i => i == 1 || i == -1
  | .spin, _ => false
  | .known i, .known j => i == j
  | .known _, _ => false

/-- everything known in `E` is known in `F` -/
def AEnv.le (E F : AEnv) : Bool :=
  (List.range E.i.length).all (fun n => (E.gi n).le (F.gi n)) &&
  (List.range E.r.length).all (fun n => !E.g .r n || F.g .r n) &&
  (List.range E.c.length).all (fun n => !E.g .c n || F.g .c n)

/-- what is known in both -/
def AI.meet (x y : AI) : AI := if x.le y then x else if y.le x then y else if AI.any.le x && AI.any.le y then .any else .unset
def AEnv.meet (E F : AEnv) : AEnv :=
  ⟨(List.range E.i.length).map (fun n => (E.gi n).meet (F.gi n)),
   (List.range E.r.length).map (fun n => E.g .r n && F.g .r n),
   (List.range E.c.length).map (fun n => E.g .c n && F.g .c n)⟩

/-- What the check is about: the members that may be read, the numbers of arguments with which each sproduct may be evaluated,
the calls allowed, and whether an exception is allowed. -/
structure Ctx where
  mr : Nat → Bool
  mc : Nat → Bool
  ar : Nat → Nat → Bool
  f : Nat → List AI → Bool
  exc : Bool

def Ctx.m (X : Ctx) : Ty → Nat → Bool
  | .r => X.mr
  | .c => X.mc

/-- knowledge about an `int` expression (`none`: it may be unassigned) -/
def IExp.abs (E : AEnv) : IExp → Option AI
  | .lit i => some (.known i)
  | .var n => match E.gi n with
    | .unset => none
    | x => some x
  | .mul a b => match a.abs E, b.abs E with
    | some (.known i), some (.known j) => some (.known (i * j))
    | some _, some _ => some .any
    | _, _ => none
  | .loops ds => if ds.all (fun n => AI.any.le (E.gi n)) then some .any else none

/-- value of a condition: `none` it may be unassigned, `some none` not known -/
def BExp.abs (E : AEnv) : BExp → Option (Option Bool)
  | .lt a b => match a.abs E, b.abs E with
    | some (.known i), some (.known j) => some (some (decide (i < j)))
    | some _, some _ => some none
    | _, _ => none
  | .eq a b => match a.abs E, b.abs E with
    | some (.known i), some (.known j) => some (some (decide (i = j)))
    | some _, some _ => some none
    | _, _ => none
  | .and a b => match a.abs E, b.abs E with
    | some (some false), some _ => some (some false)
    | some _, some (some false) => some (some false)
    | some (some true), some (some true) => some (some true)
    | some _, some _ => some none
    | _, _ => none
  | .or a b => match a.abs E, b.abs E with
    | some (some true), some _ => some (some true)
    | some _, some (some true) => some (some true)
    | some (some false), some (some false) => some (some false)
    | some _, some _ => some none
    | _, _ => none

def spinArg (E : AEnv) (e : IExp) : Bool := match e.abs E with
  | some x => AI.spin.le x
  | none => false

/-- all arguments, if assigned -/
def absArgs (E : AEnv) : List IExp → Option (List AI)
  | [] => some []
  | e :: es => match e.abs E, absArgs E es with
    | some x, some xs => some (x :: xs)
    | _, _ => none

def Exp.check (X : Ctx) (E : AEnv) : {t : Ty} → Exp t → Bool
  | _, .lit _ => true
  | _, .dec _ _ => true
  | _, .mem t n => X.m t n
  | _, .loc t n => E.g t n
  | _, .add a b => a.check X E && b.check X E
  | _, .sub a b => a.check X E && b.check X E
  | _, .mul a b => a.check X E && b.check X E
  | _, .div a b => a.check X E && b.check X E
  | _, .neg a => a.check X E
  | _, .ofR a => a.check X E
  | _, .smul a b => a.check X E && b.check X E
  | _, .divr a b => a.check X E && b.check X E
  | _, .sqrt a => a.check X E
  | _, .pow a _ => a.check X E
  | _, .abs a => a.check X E
  | _, .re a => a.check X E
  | _, .conj a => a.check X E
  | _, .norm ds => ds.all fun n => AI.any.le (E.gi n)
  | _, .v a args => X.ar a args.length && args.all (spinArg E)
  | _, .call f args => match absArgs E args with
    | some xs => X.f f xs
    | none => false

/-- `int` variables assigned by a statement -/
def Stmt.assigned : Stmt → List Nat
  | .seq a b => a.assigned ++ b.assigned
  | .seti n _ => [n]
  | .ite _ a b => a.assigned ++ b.assigned
  | .loop n _ _ _ _ b => n :: b.assigned
  | .spins ds _ => ds.flatMap fun d => [d.2.1, d.2.2]
  | _ => []

def AEnv.forget (E : AEnv) : List Nat → AEnv
  | [] => E
  | n :: ns => (E.seti n .unset).forget ns

/-- knowledge after `get_spinor_spins` -/
def absSpins (E : AEnv) : List (Nat × Nat × Nat) → AEnv
  | [] => E
  | (_, a, b) :: ds => absSpins ((E.seti a .spin).seti b .spin) ds

/-- run the check of a loop body for the given values in turn -/
def absUnroll (n : Nat) (body : AEnv → Option (Option AEnv)) : List Int → AEnv → Option (Option AEnv)
  | [], E => some (some E)
  | x :: xs, E => match body (E.seti n (.known x)) with
    | some (some E') => absUnroll n body xs E'
    | r => r

/-- Check of a statement in a method of type `t0`: `none` fails, `some none` always returns, `some (some E)` returns or goes on knowing `E`. -/
def Stmt.check (X : Ctx) (t0 : Ty) : Stmt → AEnv → Option (Option AEnv)
  | .skip, E => some (some E)
  | .seq a b, E => match a.check X t0 E with
    | some (some E') => b.check X t0 E'
    | r => r
  | .seti n e, E => match e.abs E with
    | some x => some (some (E.seti n x))
    | none => none
  | .set t n e, E => if e.check X E then some (some (E.set t n)) else none
  | .ite b s t, E => match b.abs E with
    | none => none
    | some (some true) => s.check X t0 E
    | some (some false) => t.check X t0 E
    | some none => match s.check X t0 E, t.check X t0 E with
      | some (some E1), some (some E2) => some (some (E1.meet E2))
      | some none, some r => some r
      | some r, some none => some r
      | _, _ => none
  | .loop n lo incl hi step body, E => match hi.abs E with
    | none => none
    | some x =>
      let E0 := E.forget (n :: body.assigned)
      let weak (y : AI) : Option (Option AEnv) := match body.check X t0 (E0.seti n y) with
        | some (some E') => if E0.le E' then some (some E0) else none
        | some none => some (some E0)
        | none => none
      match x with
      | .known h =>
        let vals := loopVals lo incl h step
        if vals.all (fun v => v == 1 || v == -1) then weak .spin
        else if vals.length == 2 then absUnroll n (body.check X t0) vals E
        else weak .any
      | _ => weak .any
  | .spins ds i, E =>
    if ds.all (fun d => AI.any.le (E.gi d.1)) && (i.abs E).isSome then some (some (absSpins E ds)) else none
  | .ret t e, E => if t = t0 ∧ e.check X E = true then some none else none
  | .throw _, _ => if X.exc then some none else none

/-- the knowledge at the start of a method -/
def AEnv.start (args : List AI) : AEnv := ⟨args, [], []⟩

def Method.check (m : Method) (X : Ctx) (t : Ty) (args : List AI) : Bool :=
  args.length == m.arity && args.all (fun a => AI.any.le a) &&
    (match m.body.check X t (AEnv.start args) with
    | some none => true
    | _ => false)

/-- the calls that pass the check -/
def absCall (mr mc : Nat → Bool) (ar : Nat → Nat → Bool) (exc : Bool) : List Method → Nat → List AI → Bool
  | [], _, _ => false
  | m :: ms, k, args =>
    if k = ms.length then m.check ⟨mr, mc, ar, absCall mr mc ar exc ms, exc⟩ .c args else absCall mr mc ar exc ms k args

def absInvoke (mr mc : Nat → Bool) (ar : Nat → Nat → Bool) (exc : Bool) (t : Ty) : List Method → Nat → List AI → Bool
  | [], _, _ => false
  | m :: ms, k, args =>
    if k = ms.length then m.check ⟨mr, mc, ar, absCall mr mc ar exc ms, exc⟩ t args else absInvoke mr mc ar exc t ms k args

/-! ### set-up code -/

/-- equality of expressions -/
def Exp.beq : {t : Ty} → Exp t → Exp t → Bool
  | _, .lit n, .lit m => n == m
  | _, .dec n e, .dec m f => n == m && e == f
  | _, .mem _ n, .mem _ m => n == m
  | _, .loc _ n, .loc _ m => n == m
  | _, .add a b, .add c d => a.beq c && b.beq d
  | _, .sub a b, .sub c d => a.beq c && b.beq d
  | _, .mul a b, .mul c d => a.beq c && b.beq d
  | _, .div a b, .div c d => a.beq c && b.beq d
  | _, .neg a, .neg c => a.beq c
  | _, .sqrt a, .sqrt c => a.beq c
  | _, .pow a k, .pow c l => a.beq c && k == l
  | _, _, _ => false

/-- Replace members by their known values and parameters by `ρ`; only real expressions without calls. -/
def Exp.subst (mr : Nat → Option (Exp .r)) (ρ : Nat → Exp .r) : {t : Ty} → Exp t → Option (Exp t)
  | _, .lit n => some (.lit n)
  | _, .dec m e => some (.dec m e)
  | _, .mem .r n => mr n
  | _, .loc .r n => some (ρ n)
  | _, .add a b => do return .add (← a.subst mr ρ) (← b.subst mr ρ)
  | _, .sub a b => do return .sub (← a.subst mr ρ) (← b.subst mr ρ)
  | _, .mul a b => do return .mul (← a.subst mr ρ) (← b.subst mr ρ)
  | _, .div a b => do return .div (← a.subst mr ρ) (← b.subst mr ρ)
  | _, .neg a => do return .neg (← a.subst mr ρ)
  | _, .sqrt a => do return .sqrt (← a.subst mr ρ)
  | _, .pow a k => do return .pow (← a.subst mr ρ) k
  | _, _ => none

/-- Members as expressions in the parameters: `ldouble` members, masses and widths of the propagators, masses of the particles; the products. -/
structure Sym where
  r : List (Option (Exp .r))
  pm : List (Option (Exp .r))
  pw : List (Option (Exp .r))
  mass : List (Option (Exp .r))
  sp : List (Option SPDef)

namespace Sym
def gr (S : Sym) (n : Nat) : Option (Exp .r) := S.r.getD n none
def gpm (S : Sym) (n : Nat) : Option (Exp .r) := S.pm.getD n none
def gpw (S : Sym) (n : Nat) : Option (Exp .r) := S.pw.getD n none
def gm (S : Sym) (n : Nat) : Option (Exp .r) := S.mass.getD n none
def gsp (S : Sym) (n : Nat) : Option SPDef := S.sp.getD n none

/-- nothing known -/
def empty : Sym := ⟨[], [], [], [], []⟩

/-- Products with upper indices only, of the particles 0 .. 3. -/
def okDef (d : SPDef) : Bool :=
  d.leftUpper && d.rightUpper && decide (d.left < 4) && decide (d.right < 4) && d.mids.all (fun i => decide (i < 4))

/-- Symbolic execution of constructors and `set_masses`; parameter `n` has the value `ρ n`. -/
def step (ρ : Nat → Exp .r) (S : Sym) : SInstr → Option Sym
  | .set .r n e => some { S with r := upd none (e.subst S.gr ρ) n S.r }
  | .set .c _ _ => some S
  | .part i e => some { S with mass := upd none (e.subst S.gr ρ) i S.mass }
  | .setMass i e => some { S with mass := upd none (e.subst S.gr ρ) i S.mass }
  | .prop k m w => some { S with pm := upd none (m.subst S.gr ρ) k S.pm, pw := upd none (w.subst S.gr ρ) k S.pw }
  | .propMass k e => some { S with pm := upd none (e.subst S.gr ρ) k S.pm }
  | .sprod a d => if okDef d then some { S with sp := upd none (some d) a S.sp } else none
  | _ => none

def run (ρ : Nat → Exp .r) : List SInstr → Sym → Option Sym
  | [], S => some S
  | i :: is, S => match S.step ρ i with
    | some S' => run ρ is S'
    | none => none

/-- everything known in `xs` is known in `ys` -/
def leExp (xs ys : List (Option (Exp .r))) : Bool :=
  (List.range xs.length).all fun n => match xs.getD n none, ys.getD n none with
    | none, _ => true
    | some e, some e' => e.beq e'
    | some _, none => false

/-- everything known in `S` is known in `T` -/
def le (S T : Sym) : Bool :=
  leExp S.r T.r && leExp S.pm T.pm && leExp S.pw T.pw && leExp S.mass T.mass &&
  (List.range S.sp.length).all (fun n => match S.gsp n with
    | none => true
    | some d => T.gsp n == some d)

/-- express in other parameters -/
def renExp (ρ : Nat → Exp .r) (xs : List (Option (Exp .r))) : List (Option (Exp .r)) :=
  xs.map fun x => x.bind fun e => e.subst (fun _ => none) ρ
def rename (ρ : Nat → Exp .r) (S : Sym) : Sym := ⟨renExp ρ S.r, renExp ρ S.pm, renExp ρ S.pw, renExp ρ S.mass, S.sp⟩

/-- the same number of expressions known -/
def total (S : Sym) (T : Sym) : Bool :=
  S.r.map Option.isSome == T.r.map Option.isSome && S.pm.map Option.isSome == T.pm.map Option.isSome &&
  S.pw.map Option.isSome == T.pw.map Option.isSome && S.mass.map Option.isSome == T.mass.map Option.isSome
end Sym

/-- state of members after the constructor; propagators not mentioned are default constructed -/
def Proc.sym (P : Proc) : Option Sym :=
  Sym.run (fun n => .loc .r n) P.ctor
    { Sym.empty with pm := List.replicate 8 (some (.lit 0)), pw := List.replicate 8 (some (.lit 0)) }

/-- While `set_masses` is analysed, constructor parameter `n` is variable `3n` and argument `j` is variable `3j+1`. -/
def ctorVar (n : Nat) : Exp .r := .loc .r (3 * n)
def argVar (j : Nat) : Exp .r := .loc .r (3 * j + 1)

/-- the constructor parameters, those in `massPar` replaced by the arguments of `set_masses` -/
def newPar (massPar : List Nat) (n : Nat) : Exp .r := match massPar.idxOf? n with
  | some j => argVar j
  | none => ctorVar n

/-- state of the members after `set_masses` -/
def Proc.symM (P : Proc) (S : Sym) : Option Sym := Sym.run argVar P.setMasses (S.rename ctorVar)

/-- `set_masses` has the effect of constructing with new parameters, on every member in `S` -/
def checkReset (P : Proc) (massPar : List Nat) (S : Sym) : Bool :=
  match P.symM S with
  | some S' => (S.rename (newPar massPar)).total S && (S.rename (newPar massPar)).le S'
  | none => false

/-- another call of `set_masses` leaves nothing of the earlier one; variables `3j+2`: the arguments of the earlier call -/
def oldArg (n : Nat) : Exp .r := if n % 3 = 1 then .loc .r (n + 1) else .loc .r n
def noOld (n : Nat) : Exp .r := if n % 3 = 2 then .loc .r (n - 1) else .loc .r n
def checkAgain (P : Proc) (S1 : Sym) : Bool :=
  match Sym.run argVar P.setMasses (S1.rename oldArg) with
  | some S2 => (S1.rename noOld).total S1 && (S1.rename noOld).le S2
  | none => false

/-- does the list start with the four calls of `set_momentum` -/
def isPrefix : List SInstr → Bool
  | .setMom 0 0 :: .setMom 1 1 :: .setMom 2 2 :: .setMom 3 3 :: _ => true
  | _ => false

/-- the statements of `set_momenta` after them -/
def Proc.rest (P : Proc) : List SInstr := P.setMomenta.drop 4

/-- may the expression be evaluated when the members in `r`, `c` are determined -/
def setupExp (r c : List Bool) {t : Ty} (e : Exp t) : Bool := e.check ⟨fun k => r.getD k false, fun k => c.getD k false, fun _ _ => false, fun _ _ => false, false⟩ ⟨[], [], []⟩

/-- members determined after the rest of `set_momenta`, starting from those in `r`, `c`; third: the products updated -/
def restCheck (S : Sym) : List SInstr → List Bool → List Bool → List Bool → Option (List Bool × List Bool × List Bool)
  | [], r, c, u => some (r, c, u)
  | .update a :: is, r, c, u => if (S.gsp a).isSome then restCheck S is r c (upd false true a u) else none
  | .den .r n k _ :: is, r, c, u =>
    if (S.gpm k).isSome && (S.gpw k).isSome && (S.gr n).isNone then restCheck S is (upd false true n r) c u else none
  | .den .c n k _ :: is, r, c, u => if (S.gpm k).isSome && (S.gpw k).isSome then restCheck S is r (upd false true n c) u else none
  | .set .r n e :: is, r, c, u => if setupExp r c e && (S.gr n).isNone then restCheck S is (upd false true n r) c u else none
  | .set .c n e :: is, r, c, u => if setupExp r c e then restCheck S is r (upd false true n c) u else none
  | _, _, _, _ => none

/-- members known after construction -/
def Sym.known (S : Sym) : List Bool := S.r.map Option.isSome

/-- the mass expression is not the literal 0 -/
def massiveExp : Option (Exp .r) → Bool
  | some (.lit 0) => false
  | _ => true

/-- number of massive ends of a product -/
def arity (S : Sym) (d : SPDef) : Nat := (if massiveExp (S.gm d.left) then 1 else 0) + (if massiveExp (S.gm d.right) then 1 else 0)

/-- the calls of `v` allowed: on an updated product, with any number of arguments or (`strict`) with as many as there are massive ends -/
def okCalls (strict : Bool) (S : Sym) (u : List Bool) (a n : Nat) : Bool :=
  u.getD a false && (match S.gsp a with
    | some d => if strict then n == arity S d else n ≤ 2
    | none => false)

/-- Check of a class: what `set_momenta` leaves determined suffices for the methods `ks`, called with arguments as described. -/
def Proc.check (strict : Bool) (P : Proc) (S : Sym) (ks : List (Ty × Nat × List AI)) : Bool :=
  isPrefix P.setMomenta && (List.range 4).all (fun i => (S.gm i).isSome) &&
  match restCheck S P.rest S.known [] [] with
  | none => false
  | some (r, c, u) => ks.all fun k =>
    absInvoke (fun n => r.getD n false) (fun n => c.getD n false) (okCalls strict S u) (!strict) k.1 P.methods k.2.1 k.2.2

/-- all squared amplitudes -/
def Proc.squares (P : Proc) : List (Ty × Nat × List AI) := (.r, P.amp2, []) :: P.others.map (fun x => (.r, x.2, []))

/-! ### the public amplitude methods -/

/-- the `int` variables passed to `v` as they are -/
def IExp.vars : IExp → List Nat
  | .var n => [n]
  | _ => []
def Exp.spinVars : {t : Ty} → Exp t → List Nat
  | _, .add a b => a.spinVars ++ b.spinVars
  | _, .sub a b => a.spinVars ++ b.spinVars
  | _, .mul a b => a.spinVars ++ b.spinVars
  | _, .div a b => a.spinVars ++ b.spinVars
  | _, .neg a => a.spinVars
  | _, .ofR a => a.spinVars
  | _, .smul a b => a.spinVars ++ b.spinVars
  | _, .divr a b => a.spinVars ++ b.spinVars
  | _, .sqrt a => a.spinVars
  | _, .pow a _ => a.spinVars
  | _, .abs a => a.spinVars
  | _, .re a => a.spinVars
  | _, .conj a => a.spinVars
  | _, .v _ args => args.flatMap IExp.vars
  | _, _ => []
def Stmt.spinVars : Stmt → List Nat
  | .seq a b => a.spinVars ++ b.spinVars
  | .set _ _ e => e.spinVars
  | .ite _ a b => a.spinVars ++ b.spinVars
  | .loop _ _ _ _ _ b => b.spinVars
  | .ret _ e => e.spinVars
  | _ => []

/-- Arguments for which a call of an amplitude is meant: those passed on to `v` as they are, are +1 or -1. -/
def Method.sig (m : Method) : List AI := (List.range m.arity).map fun n => if m.body.spinVars.contains n then .spin else .any

def Proc.isSquare (P : Proc) (k : Nat) : Bool := k == P.amp2 || P.others.any (·.2 == k)

/-- the methods that are not squared amplitudes, with their numbers -/
def Proc.amps (P : Proc) : List (Method × Nat) := P.methods.reverse.zipIdx.filter fun x => !P.isSquare x.2
def Proc.ampSigs (P : Proc) : List (Ty × Nat × List AI) := P.amps.map fun x => (.c, x.2, x.1.sig)

/-- the particles constructed as `particle(0)` -/
def Proc.massless (P : Proc) (i : Nat) : Bool := P.ctor.any fun
  | .part j (.lit 0) => i == j
  | _ => false
def Proc.massCheck (P : Proc) (S : Sym) : Bool := (List.range 4).all fun i => massiveExp (S.gm i) == !P.massless i

/-- Everything checked about a class, given the state `S` of its members. -/
def Proc.checkAll (P : Proc) (S : Sym) : Bool :=
  P.check false S (P.squares ++ P.ampSigs) && P.check true S (P.squares ++ (if P.name = "gggg" then [] else P.ampSigs)) && P.massCheck S
def Proc.checkFresh (P : Proc) : Bool := match P.sym with
  | some S => P.checkAll S
  | none => false
def Proc.checkMasses (P : Proc) : Bool := match P.sym with
  | some S => (match P.symM S with
    | some S1 => P.checkAll S1 && checkAgain P S1
    | none => false)
  | none => false
def Proc.checkReset (P : Proc) (massPar : List Nat) : Bool := match P.sym with
  | some S => SM.checkReset P massPar S
  | none => false

end Spinas.SM
