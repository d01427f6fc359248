import Verif.SM.Check
import Mathlib.Data.List.Dedup

/-! A check that a real-valued method returns no negative number: every real variable is a sum of nonnegative numbers and of a quadratic form
in the complex variables, positive by elimination where it matters.  Proved sound in `Verif.SM.SignSound`; nothing here is trusted. -/

namespace Spinas.SM

/-- A quadratic form in the complex variables: `(i, j, q)` stands for `q Re(c_i conj(c_j))`. -/
abbrev Quad := List (Nat × Nat × Rat)

/-- coefficient of the symmetric form -/
def Quad.coef (Q : Quad) (i j : Nat) : Rat := (Q.map fun t => (if t.1 = i ∧ t.2.1 = j then t.2.2 else 0) + (if t.1 = j ∧ t.2.1 = i then t.2.2 else 0)).foldr (· + ·) 0

/-- the variables of the form, each once -/
def Quad.vars (Q : Quad) : List Nat := (Q.map Prod.fst ++ Q.map fun t => t.2.1).dedup

/-- Elimination: a pivot is positive, or its row vanishes. -/
def psd : List Nat → (Nat → Nat → Rat) → Bool
  | [], _ => true
  | i :: L, q => if q i i = 0 then L.all (fun j => q i j == 0) && psd L q
    else decide (0 < q i i) && psd L fun j k => q j k - q i j * q i k / q i i

def Quad.pos (Q : Quad) : Bool := psd Q.vars Q.coef

/-- value of a constant expression -/
def Exp.const : {t : Ty} → Exp t → Option Rat
  | _, .lit n => some n
  | .r, .add a b => do some ((← a.const) + (← b.const))
  | .r, .sub a b => do some ((← a.const) - (← b.const))
  | .r, .mul a b => do some ((← a.const) * (← b.const))
  | .r, .div a b => do
    let y ← b.const
    if y = 0 then none else some ((← a.const) / y)
  | .r, .neg a => do some (-(← a.const))
  | _, _ => none

/-- `c |M_i|^2` or `c Re(M_i conj(M_j))` -/
def Exp.term : {t : Ty} → Exp t → Option (Nat × Nat × Rat)
  | _, .pow (.abs (.loc .c i)) 2 => some (i, i, 1)
  | _, .re (.mul (.loc .c i) (.conj (.loc .c j))) => some (i, j, 1)
  | .r, .mul a b => match a.const, b.term with
    | some q, some (i, j, q') => some (i, j, q * q')
    | _, _ => none
  | _, _ => none

/-- What is known about the real variables: nothing, or a form. -/
abbrev SEnv := List (Option Quad)

def SEnv.get (E : SEnv) (n : Nat) : Option Quad := E.getD n none

/-- `6/(a b)^2 + 6/(a c)^2 - (2/3)/(b c)^2` for three members `a`, `b`, `c`, not negative if their sum is zero -/
def Exp.colour : {t : Ty} → Exp t → Option (Nat × Nat × Nat)
  | _, .sub (.add (.div (.lit 6) (.pow (.mul (.mem .r a) (.mem .r b)) 2)) (.div (.lit 6) (.pow (.mul (.mem .r a') (.mem .r c)) 2)))
      (.div (.div (.lit 2) (.lit 3)) (.pow (.mul (.mem .r b') (.mem .r c')) 2)) => if a = a' ∧ b = b' ∧ c = c' then some (a, b, c) else none
  | _, _ => none

/-- expressions that are not negative; `tri`: three members whose sum is known to be zero -/
def Exp.nn (tri : List Nat) (E : SEnv) : {t : Ty} → Exp t → Bool
  | _, .lit _ => true
  | _, .dec _ _ => true
  | .r, .loc .r n => (match E.get n with | some Q => Q.pos | none => false)
  | .r, .add a b => a.nn tri E && b.nn tri E
  | .r, .mul a b => a.nn tri E && b.nn tri E
  | .r, .div a b => a.nn tri E && b.nn tri E
  | _, .pow _ k => k % 2 == 0
  | _, .abs _ => true
  | _, .sqrt _ => true
  | _, e => match e.colour with
    | some (a, b, c) => [a, b, c].isPerm tri
    | none => false

/-- forget the forms -/
def SEnv.close (E : SEnv) : SEnv := E.map fun
  | some Q => if Q.pos then some [] else none
  | none => none

/-- known in both -/
def SEnv.meet (E F : SEnv) : SEnv := List.zipWith (fun
  | some Q, some Q' => if Q.pos && Q'.pos then some [] else none
  | _, _ => none) E F

def SEnv.le (E F : SEnv) : Bool := (List.range E.length).all fun n => match E.get n with
  | none => true
  | some [] => (match F.get n with | some Q => Q.pos | none => false)
  | some _ => false

def SEnv.set (E : SEnv) (n : Nat) (x : Option Quad) : SEnv := upd none x n E

/-- the complex variable `n` is assigned -/
def SEnv.kill (E : SEnv) (n : Nat) : SEnv := E.map fun
  | some Q => if Q.any (fun t => t.1 == n || t.2.1 == n) then (if Q.pos then some [] else none) else some Q
  | none => none

/-- new knowledge about `n` after the assignment of `e` -/
def SEnv.value (tri : List Nat) (E : SEnv) (n : Nat) (e : Exp .r) : Option Quad := match e with
  | .add (.loc .r k) e' => if k = n then (match E.get n with
      | none => none
      | some Q => match e'.term with
        | some t => some (t :: Q)
        | none => if e'.nn tri E then some Q else none)
    else if e.nn tri E then some [] else none
  | e => if e.nn tri E then some [] else none

/-- `none`: a possibly negative number is returned.  `some (some E)`: control may go on. -/
def Stmt.sign (tri : List Nat) : Stmt → SEnv → Option SEnv
  | .skip, E => some E
  | .seq a b, E => do b.sign tri (← a.sign tri E)
  | .seti _ _, E => some E
  | .set .r n e, E => some (E.set n (E.value tri n e))
  | .set .c n _, E => some (E.kill n)
  | .ite _ a b, E => do some (((← a.sign tri E)).meet (← b.sign tri E))
  | .loop _ _ _ _ _ body, E => do
    let F := E.close
    let F1 ← body.sign tri F
    if F.le F1 then some F else
      let G := F.meet F1
      let G1 ← body.sign tri G
      if G.le G1 then some G else none
  | .spins _ _, E => some E
  | .ret .r e, E => if e.nn tri E then some [] else none
  | .ret .c _, _ => some []
  | .throw _, _ => some []

/-- the method number `k` -/
def signMethod (tri : List Nat) : List Method → Nat → Bool
  | [], _ => true
  | m :: ms, k => if k = ms.length then (m.body.sign tri []).isSome else signMethod tri ms k

def Proc.nonneg (P : Proc) (tri : List Nat) (k : Nat) : Bool := signMethod tri P.methods k

end Spinas.SM
