import Verif.Spec.Collision

/-! Textbook results for the collisions of two particles, in terms of `s`, `t`, `u`: squared amplitudes, averaged over the spins and colours of the
incoming and summed over those of the outgoing particles. -/

namespace Spinas.Spec

/-- the invariant `u = (p0 - p3)^2` -/
def mandelstamU (p : Nat → V4 ℝ) : ℝ := msq ⟨(p 0).t - (p 3).t, (p 0).x - (p 3).x, (p 0).y - (p 3).y, (p 0).z - (p 3).z⟩

/-- Two gluons into two gluons, with the factor 1/2 for identical outgoing particles (Ellis, Stirling and Webber, QCD and Collider Physics, table 7.1). -/
noncomputable def gluonGluon (g s t u : ℝ) : ℝ := 9 / 4 * g ^ 4 * (3 - t * u / s ^ 2 - s * u / t ^ 2 - s * t / u ^ 2)

/-- The same for incoming gluons of equal helicities (the outgoing ones have the same helicities), averaged over colours only. -/
noncomputable def gluonGluonLike (g s t u : ℝ) : ℝ := 9 / 8 * g ^ 4 * s ^ 4 * (s ^ 2 + t ^ 2 + u ^ 2) / (s * t * u) ^ 2

/-- The same for incoming gluons of opposite helicities. -/
noncomputable def gluonGluonUnlike (g s t u : ℝ) : ℝ := 9 / 8 * g ^ 4 * (t ^ 4 + u ^ 4) * (s ^ 2 + t ^ 2 + u ^ 2) / (s * t * u) ^ 2

end Spinas.Spec
