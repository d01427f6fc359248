import Verif.Spec.Minkowski
import Verif.Propagator
import Verif.Utilities

/-! Specification vocabulary for rotations, boosts and propagators (real arithmetic). -/

namespace Spinas.Spec
open Spinas

/-- component-wise sum -/
def add4 (p q : V4 ℝ) : V4 ℝ := ⟨p.t + q.t, p.x + q.x, p.y + q.y, p.z + q.z⟩

/-- sum of a list of momenta -/
def total : List (V4 ℝ) → V4 ℝ
  | [] => ⟨0, 0, 0, 0⟩
  | p :: ps => add4 p (total ps)

/-- scalar product of 3-vectors -/
def dot3 (u v : V3 ℝ) : ℝ := u.x * v.x + u.y * v.y + u.z * v.z

/-- the space part -/
def space (p : V4 ℝ) : V3 ℝ := ⟨p.x, p.y, p.z⟩

/-- cross product -/
def cross (u v : V3 ℝ) : V3 ℝ := ⟨u.y * v.z - u.z * v.y, u.z * v.x - u.x * v.z, u.x * v.y - u.y * v.x⟩

/-- Rodrigues' formula: the rotation with cosine `c` and sine `s` of its angle about the unit vector `u`,
`v -> c v + s (u x v) + (1-c) (u.v) u`. -/
def rodrigues (u : V3 ℝ) (c s : ℝ) (p : V4 ℝ) : V4 ℝ :=
  ⟨p.t,
   c * p.x + s * (cross u (space p)).x + (1 - c) * dot3 u (space p) * u.x,
   c * p.y + s * (cross u (space p)).y + (1 - c) * dot3 u (space p) * u.y,
   c * p.z + s * (cross u (space p)).z + (1 - c) * dot3 u (space p) * u.z⟩

/-- Mass and width a client has set last. -/
def lastMass {R : Type} (m0 : R) : List (Propag.Op R) → R
  | [] => m0
  | .setMass m :: ops => lastMass m ops
  | .setWidth _ :: ops => lastMass m0 ops
def lastWidth {R : Type} (w0 : R) : List (Propag.Op R) → R
  | [] => w0
  | .setWidth w :: ops => lastWidth w ops
  | .setMass _ :: ops => lastWidth w0 ops

end Spinas.Spec
