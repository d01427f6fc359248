import Verif.SM.Typing

/-! The type check of the squared amplitudes, evaluated by the kernel for every class. -/

namespace Spinas.SM

set_option maxRecDepth 100000

theorem all_typed : all.all (fun P => P.invariant P.amp2 && P.others.all fun x => P.invariant x.2) = true := by decide +kernel

/-- `set_masses` does not change the products, nor which masses are the literal 0. -/
def Proc.sameShape (P : Proc) : Bool := match P.sym with
  | none => false
  | some S => match P.symM S with
    | none => false
    | some S1 => S1.sp == S.sp && S.mass.length == S1.mass.length &&
      (List.range S.mass.length).all fun i => massiveExp (S.gm i) == massiveExp (S1.gm i)

theorem all_sameShape : all.all Proc.sameShape = true := by decide +kernel

end Spinas.SM
