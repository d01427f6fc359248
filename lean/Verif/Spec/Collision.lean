import Verif.Spec.Minkowski

/-! Two particles collide, two come out. -/

namespace Spinas.Spec

/-- Momenta `0`, `1` of the incoming and `2`, `3` of the outgoing particles: energy and momentum are conserved. -/
structure Balanced (p : Nat → V4 ℝ) : Prop where
  t : (p 0).t + (p 1).t = (p 2).t + (p 3).t
  x : (p 0).x + (p 1).x = (p 2).x + (p 3).x
  y : (p 0).y + (p 1).y = (p 2).y + (p 3).y
  z : (p 0).z + (p 1).z = (p 2).z + (p 3).z

/-- the invariant `s = (p0 + p1)^2`: the square of the energy in the rest frame of the collision -/
def mandelstamS (p : Nat → V4 ℝ) : ℝ := msq ⟨(p 0).t + (p 1).t, (p 0).x + (p 1).x, (p 0).y + (p 1).y, (p 0).z + (p 1).z⟩

/-- the invariant `t = (p0 - p2)^2`: minus the square of the momentum transfer -/
def mandelstamT (p : Nat → V4 ℝ) : ℝ := msq ⟨(p 0).t - (p 2).t, (p 0).x - (p 2).x, (p 0).y - (p 2).y, (p 0).z - (p 2).z⟩

end Spinas.Spec
