import Verif.SM.Check

/-! The checks, evaluated by the kernel for every class. -/

namespace Spinas.SM

/-- Classes in which `set_masses` does not have the effect of constructing with the new masses. -/
def staleMasses : List String := ["ZWWh", "ZhWW", "dAdh", "ddWW", "dgdh", "hgdd", "hguu", "nWWn", "nnWW", "uAuh", "uguh", "uuAh"]

/-- ... of these, the classes that ignore the argument `massW`. -/
def ignoreMassW : List String := ["dAdh", "dgdh", "hgdd", "hguu", "uAuh", "uguh"]

set_option maxRecDepth 100000

theorem all_fresh : all.all Proc.checkFresh = true := by decide +kernel
theorem all_masses : all.all Proc.checkMasses = true := by decide +kernel
theorem all_reset : all.all (fun P => staleMasses.contains P.name || P.checkReset P.massPar) = true := by decide +kernel
/-- the last parameter of `set_masses` (`massW`) replaces nothing -/
theorem all_ignore : all.all (fun P => !ignoreMassW.contains P.name || P.checkReset P.massPar.dropLast) = true := by decide +kernel

end Spinas.SM
