import Verif.Spec.Bosons

/-! Reactions in which some of the incoming photons and gluons have a definite helicity. -/

namespace Spinas.Spec
open Spinas Matrix

/-- The polarisation vector `ε` of a massless vector boson with momentum `k` is normalised and of positive (`right`) or negative helicity: the field is circularly polarised, that is,
the magnetic field `k × ε` is `-i` times (for negative helicity `i` times) the electric field `k.t ε - ε₀ k`. -/
structure Circular (k : V4 ℝ) (right : Bool) (ε : Vec) : Prop where
  energy : k.t ≠ 0
  norm : contract ε (star ε) = -1
  x : k.y * ε 3 - k.z * ε 2 = (if right then -Complex.I else Complex.I) * (k.t * ε 1 - ε 0 * k.x)
  y : k.z * ε 1 - k.x * ε 3 = (if right then -Complex.I else Complex.I) * (k.t * ε 2 - ε 0 * k.y)
  z : k.x * ε 2 - k.y * ε 1 = (if right then -Complex.I else Complex.I) * (k.t * ε 3 - ε 0 * k.z)

namespace Reaction
variable (S : Reaction)

/-- spin states to sum over if some particles have a given helicity (it is the state 0 then) -/
def someSpins (H : Fin 4 → Option Bool) (n : Fin 4) : Finset (Fin 3) := if (H n).isSome then {0} else S.spins n

/-- number of states of a particle of given spin -/
def colourStates (n : Fin 4) : Nat := (S.colours n).card * (S.gluons n).card

def someStates (H : Fin 4 → Option Bool) (n : Fin 4) : Nat := if (H n).isSome then S.colourStates n else S.states n

/-- The spinors and polarisation vectors describe all spin states of a leg, or the given one. -/
def Prepared (c : Constants) (p : Nat → V4 ℝ) (n : Fin 4) (h : Option Bool) (u : Fin 3 → Spinor) (ε : Fin 3 → Vec) : Prop := match h with
  | none => S.Complete c p n u ε
  | some r => Circular (p n) r (ε 0)

/-- The squared amplitude for particles of given helicities `H`, summed over the other spins and colours of the final state and averaged over those of the initial state. -/
noncomputable def prepared (c : Constants) (p : Nat → V4 ℝ) (H : Fin 4 → Option Bool) (u : Fin 4 → Fin 3 → Spinor) (ε : Fin 4 → Fin 3 → Vec) : ℝ :=
  (∑ s ∈ Fintype.piFinset (S.someSpins H), ∑ κ ∈ Fintype.piFinset S.colours, ∑ γ ∈ Fintype.piFinset S.gluons, ‖S.amplitude c p κ γ (fun n => u n (s n)) (fun n => ε n (s n))‖ ^ 2) /
    (S.someStates H 0 * S.someStates H 1 * S.symmetry)

end Reaction
end Spinas.Spec
