import Verif.Spec.Minkowski
import Verif.Exact.Algebra

/-! Specification vocabulary for spinors. -/

namespace Spinas.Spec
open Spinas

/-- The spin argument (twice the spin) of the two components: index 0 is -1, index 1 is +1. -/
def spin : Fin 2 → Int := ![-1, 1]

/-- `eps^{IJ}` with `eps^{-+} = 1` (the convention of tests/particle.cpp) -/
def epsU : Matrix (Fin 2) (Fin 2) ℂ := !![0, 1; -1, 0]
/-- `eps_{IJ}` -/
def epsL : Matrix (Fin 2) (Fin 2) ℂ := !![0, -1; 1, 0]

/-- `S` lists the finite values that the spin spinor accessors of `P` return (kind, upper index?, spin). -/
def Spinors [FPEnv] (P : Particle XR XC) (S : Br → Bool → Fin 2 → V2) : Prop :=
  ∀ b u i, (Particle.spinor b (spin i) u P).1 = .ok (XV (S b u i))

/-- `S` lists the finite values that the helicity spinor accessors of `P` return. -/
def HelSpinors [FPEnv] (P : Particle XR XC) (S : Br → V2) : Prop :=
  ∀ b, (Particle.helicity b P).1 = .ok (XV (S b))

end Spinas.Spec
