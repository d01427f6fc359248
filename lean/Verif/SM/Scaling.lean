import Verif.SM.Finite
import Verif.SM.Kinds

/-! Units: how the methods of a class respond to a change of the units of mass and of the couplings.  Every number carries a
degree in each; the checks below compute degrees of expressions, and soundness says that the numbers scale accordingly. -/

namespace Spinas.SM
open Spec Props XR Matrix

/-! ### degrees -/

/-- powers of the unit of mass and of the couplings -/
abbrev Deg := Int × Int

/-- the degree of a number, or `none` for the number zero -/
abbrev Tag := Option Deg

namespace Tag

def le : Tag → Tag → Bool
  | none, _ => true
  | some d, some e => d.1 == e.1 && d.2 == e.2
  | some _, none => false

/-- of a sum -/
def join : Tag → Tag → Option Tag
  | none, b => some b
  | some d, none => some (some d)
  | some d, some e => if d.1 == e.1 && d.2 == e.2 then some (some d) else none

def mul : Tag → Tag → Tag
  | some d, some e => some (d.1 + e.1, d.2 + e.2)
  | _, _ => none

def div : Tag → Tag → Tag
  | some d, some e => some (d.1 - e.1, d.2 - e.2)
  | _, _ => none

def pow : Tag → Nat → Tag
  | _, 0 => some (0, 0)
  | some d, k => some (k * d.1, k * d.2)
  | none, _ => none

/-- of an absolute value -/
def abs : Tag → Option Tag
  | some d => if d.2 % 2 == 0 then some (some d) else none
  | none => some none

/-- of a square root -/
def root : Tag → Option Tag
  | some d => if d.1 == 0 && d.2 == 0 then some (some d) else none
  | none => some none

end Tag

/-- degree of an expression, for members `M`, products `V`, methods `G` and variables `L` of given degrees -/
def Exp.tag (M : Ty → Nat → Option Tag) (V G : Nat → Option Tag) (L : Ty → Nat → Option Tag) : {t : Ty} → Exp t → Option Tag
  | _, .lit n => some (if n = 0 then none else some (0, 0))
  | _, .dec _ _ => some (some (0, 0))
  | _, .mem t n => M t n
  | _, .loc t n => L t n
  | _, .add a b => (a.tag M V G L).bind fun x => (b.tag M V G L).bind fun y => x.join y
  | _, .sub a b => (a.tag M V G L).bind fun x => (b.tag M V G L).bind fun y => x.join y
  | _, .mul a b => (a.tag M V G L).bind fun x => (b.tag M V G L).bind fun y => some (x.mul y)
  | _, .div a b => (a.tag M V G L).bind fun x => (b.tag M V G L).bind fun y => some (x.div y)
  | _, .neg a => a.tag M V G L
  | _, .ofR a => a.tag M V G L
  | _, .smul a b => (a.tag M V G L).bind fun x => (b.tag M V G L).bind fun y => some (x.mul y)
  | _, .divr a b => (a.tag M V G L).bind fun x => (b.tag M V G L).bind fun y => some (x.div y)
  | _, .sqrt a => (a.tag M V G L).bind Tag.root
  | _, .pow a k => (a.tag M V G L).bind fun x => some (x.pow k)
  | _, .abs a => (a.tag M V G L).bind Tag.abs
  | _, .re a => a.tag M V G L
  | _, .conj a => a.tag M V G L
  | _, .norm _ => some (some (0, 0))
  | _, .v a _ => V a
  | _, .call g _ => G g

/-- Variables are assigned numbers of their degrees `L`, and numbers of degree `R` are returned. -/
def Stmt.tagged (M : Ty → Nat → Option Tag) (V G : Nat → Option Tag) (L : Ty → Nat → Tag) (R : Tag) : Stmt → Bool
  | .skip => true
  | .seq a b => a.tagged M V G L R && b.tagged M V G L R
  | .seti _ _ => true
  | .set t n e => match e.tag M V G (fun t n => some (L t n)) with
    | some T => T.le (L t n)
    | none => false
  | .ite _ s t => s.tagged M V G L R && t.tagged M V G L R
  | .loop _ _ _ _ _ b => b.tagged M V G L R
  | .spins _ _ => true
  | .ret _ e => match e.tag M V G (fun t n => some (L t n)) with
    | some T => T.le R
    | none => false
  | .throw _ => true

/-! ### finding degrees -/

/-- degrees of variables found so far -/
abbrev Found := List ((Ty × Nat) × Deg)

def Found.get (F : Found) (t : Ty) (n : Nat) : Tag := (F.find? fun x => x.1 == (t, n)).map (·.2)

/-- first degree assigned to each variable -/
def Stmt.find (M : Ty → Nat → Option Tag) (V G : Nat → Option Tag) : Stmt → Found → Found
  | .seq a b, F => b.find M V G (a.find M V G F)
  | .set t n e, F => match F.get t n with
    | some _ => F
    | none => match e.tag M V G (fun t n => some (F.get t n)) with
      | some (some d) => ((t, n), d) :: F
      | _ => F
  | .ite _ s t, F => t.find M V G (s.find M V G F)
  | .loop _ _ _ _ _ b, F => b.find M V G F
  | _, F => F

/-- first degree returned -/
def Stmt.findRet (M : Ty → Nat → Option Tag) (V G : Nat → Option Tag) (L : Ty → Nat → Tag) : Stmt → Tag
  | .seq a b => (a.findRet M V G L).orElse fun _ => b.findRet M V G L
  | .ite _ s t => (s.findRet M V G L).orElse fun _ => t.findRet M V G L
  | .loop _ _ _ _ _ b => b.findRet M V G L
  | .ret _ e => (e.tag M V G (fun t n => some (L t n))).join
  | _ => none

/-- degree of what a method returns -/
def Method.tag (M : Ty → Nat → Option Tag) (V G : Nat → Option Tag) (m : Method) : Option Tag :=
  let F := m.body.find M V G []
  let R := m.body.findRet M V G F.get
  if m.body.tagged M V G F.get R then some R else none

/-- degrees of the methods -/
def callTag (M : Ty → Nat → Option Tag) (V : Nat → Option Tag) : List Method → Nat → Option Tag
  | [], _ => none
  | m :: ms, k => if k = ms.length then m.tag M V (callTag M V ms) else callTag M V ms k

/-! ### a class -/

/-- units of a parameter -/
def Kind.tag : Kind → Tag
  | .coupling => some (0, 1)
  | .mass => some (1, 0)
  | .width => some (1, 0)
  | .sine => some (0, 0)
  | .vev => some (1, -1)

/-- degree of a constant, for the degrees `K` of the parameters -/
def Exp.ptag (K : Nat → Option Tag) {t : Ty} (e : Exp t) : Option Tag := e.tag (fun _ _ => none) (fun _ => none) (fun _ => none) fun t n => match t with
  | .r => K n
  | .c => none

/-- a real constant, built from the parameters without `abs` and the like -/
def Exp.simple : {t : Ty} → Exp t → Bool
  | .r, .lit _ => true
  | .r, .dec _ _ => true
  | .r, .loc _ _ => true
  | .r, .add a b => a.simple && b.simple
  | .r, .sub a b => a.simple && b.simple
  | .r, .mul a b => a.simple && b.simple
  | .r, .div a b => a.simple && b.simple
  | .r, .neg a => a.simple
  | .r, .sqrt a => a.simple
  | .r, .pow a _ => a.simple
  | _, _ => false

/-- no variables, products, methods -/
def Exp.plain : {t : Ty} → Exp t → Bool
  | _, .lit _ => true
  | _, .dec _ _ => true
  | _, .mem _ _ => true
  | _, .loc _ _ => false
  | _, .add a b => a.plain && b.plain
  | _, .sub a b => a.plain && b.plain
  | _, .mul a b => a.plain && b.plain
  | _, .div a b => a.plain && b.plain
  | _, .neg a => a.plain
  | _, .ofR a => a.plain
  | _, .smul a b => a.plain && b.plain
  | _, .divr a b => a.plain && b.plain
  | _, .pow a _ => a.plain
  | _, .abs a => a.plain
  | _, .re a => a.plain
  | _, .conj a => a.plain
  | _, _ => false

/-- degree of a constant, if there is one -/
def ctag (K : Nat → Option Tag) (e : Option (Exp .r)) : Option Tag := e.bind fun e => if e.simple then e.ptag K else none

/-- it is a mass -/
def isMass (K : Nat → Option Tag) (e : Option (Exp .r)) : Bool := match ctag K e with
  | some T => T.le (some (1, 0))
  | none => false

def memTags (M : Ty → Nat → Option Tag) (t : Ty) (n : Nat) (T : Option Tag) (t' : Ty) (n' : Nat) : Option Tag := if (t', n') = (t, n) then T else M t' n'

/-- degrees of the members after `set_momenta`; the members `F` are finite and those of `D` not zero -/
def setTags (S : Sym) (K : Nat → Option Tag) : List SInstr → Mems → Mems → (Ty → Nat → Option Tag) → Option (Ty → Nat → Option Tag)
  | [], _, _, M => some M
  | .set t n e :: is, F, D, M => if e.plain && e.tame F D then
      setTags S K is ((t, n) :: F) (D.filter (· ≠ (t, n))) (memTags M t n (e.tag M (fun _ => none) (fun _ => none) fun _ _ => none)) else none
  | .den t n k _ :: is, F, D, M => if isMass K (S.gpm k) && isMass K (S.gpw k) then setTags S K is ((t, n) :: F) ((t, n) :: D) (memTags M t n (some (some (2, 0)))) else none
  | .prop _ _ _ :: _, _, _, _ => none
  | .propMass _ _ :: _, _, _, _ => none
  | .part _ _ :: is, F, D, M => setTags S K is F D M
  | .setMass _ _ :: is, F, D, M => setTags S K is F D M
  | .setMom _ _ :: is, F, D, M => setTags S K is F D M
  | .sprod _ _ :: is, F, D, M => setTags S K is F D M
  | .update _ :: is, F, D, M => setTags S K is F D M

/-- degrees of the members set by the constructor -/
def constTags (S : Sym) (K : Nat → Option Tag) (t : Ty) (n : Nat) : Option Tag := match t with
  | .r => ctag K (S.gr n)
  | .c => none

/-- degrees of the products -/
def prodTags (S : Sym) (a : Nat) : Option Tag := (S.gsp a).map fun d => some (1 + d.mids.length, 0)

/-- Masses are masses, propagators have masses and widths, and all squared amplitudes have degree four in the couplings and none in the masses. -/
def Proc.unitCheck (P : Proc) (S : Sym) (K : Nat → Option Tag) : Bool :=
  ((List.range 4).all fun i => isMass K (S.gm i)) &&
  (match setTags S K P.setMomenta P.consts (P.consts.filter P.divides.contains) (constTags S K) with
    | some M => P.consts.all (fun x => match x.1 with | .r => (ctag K (S.gr x.2)).isSome | .c => false) &&
      P.squares.all fun x => match callTag M (prodTags S) P.methods x.2.1 with
        | some T => T.le (some (0, 4))
        | none => false
    | none => false)

/-- degrees of the constructor parameters -/
def Proc.parTags (P : Proc) (n : Nat) : Option Tag := ((Kind.ofClass P.name)[n]?).map Kind.tag
/-- degrees of the variables after `set_masses` -/
def Proc.mixTags (P : Proc) (n : Nat) : Option Tag := if n % 3 = 0 then P.parTags (n / 3) else if n % 3 = 1 ∧ n / 3 < P.massPar.length then some (some (1, 0)) else none

/-- the check, for new objects and for those with new masses -/
def Proc.units (P : Proc) : Bool := match P.sym with
  | some S => P.unitCheck S P.parTags && (match P.symM S with
    | some S1 => P.unitCheck S1 P.mixTags
    | none => false)
  | none => false

set_option maxRecDepth 100000 in
theorem all_units : all.all Proc.units = true := by decide +kernel

end Spinas.SM
