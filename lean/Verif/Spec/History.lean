import Verif.Particle

/-! Specification vocabulary for histories of calls on a particle (independent of the caching mechanism). -/

namespace Spinas.Spec
open Spinas

variable {R C : Type}

/-- The mass a client has set last, starting from `m0`. -/
def massAfter (m0 : R) : List (POp R) → R
  | [] => m0
  | .setMass m :: ops => massAfter m ops
  | _ :: ops => massAfter m0 ops

/-- The momentum a client has passed last (accepted or not), starting from `p0`. -/
def momAfter (p0 : V4 R) : List (POp R) → V4 R
  | [] => p0
  | .setMomentum p :: ops => momAfter p ops
  | _ :: ops => momAfter p0 ops

/-- A call that recomputes the kinematics. -/
def IsSync : POp R → Prop
  | .setMomentum _ => True
  | .update => True
  | _ => False

/-- A call that reads the particle. -/
def IsAcc : POp R → Prop
  | .acc _ => True
  | _ => False

/-- A call that reads the particle or sets its mass. -/
def IsAccOrMass : POp R → Prop
  | .acc _ => True
  | .setMass _ => True
  | _ => False

end Spinas.Spec

namespace Spinas.Spec
open Spinas

variable {R C : Type} [Scalar R] [Cplx R C]

/-- `P` is a particle object in use, with momentum `p` and mass `m`: it was in any state `P0`, any calls were made,
then one that recomputes the kinematics (a constructor call is covered by `update` on the raw object, source/particle.cpp:41-45)
succeeded, then it was only read, and `p`, `m` are the momentum and the mass passed last. -/
def Live (p : V4 R) (m : R) (P : Particle R C) : Prop :=
  ∃ (P0 : Particle R C) (pre : List (POp R)) (sync : POp R) (accs : List PAcc),
    IsSync sync ∧ (sync.run (runOps pre P0).2).1 = .ok .unit ∧
    P = (runOps (pre ++ sync :: accs.map .acc) P0).2 ∧
    p = momAfter P0.kin.p (pre ++ [sync]) ∧ m = massAfter P0.kin.m (pre ++ [sync])

end Spinas.Spec
