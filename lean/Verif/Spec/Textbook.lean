import Verif.Spec.Feynman

/-!
Formulas from textbooks for a pair of massless vector bosons (photons or gluons) on a fermion line of mass `m`.

Everything is written with the two products of momenta `a = k·p` and `b = k·p'` of one of the bosons and the two fermions.
They are summed over the spins and colours of the particles that leave and averaged over those that enter, except for the colour factors, which the user of the formula supplies.
-/

namespace Spinas.Spec

/-- Compton scattering, in units of the fourth power of the charge (Klein and Nishina 1929; Peskin and Schroeder, An Introduction to Quantum Field Theory, 5.87): `a` for the boson that enters and `b` for the
one that leaves, both with the fermion that enters -/
noncomputable def kleinNishina (m a b : ℝ) : ℝ := 2 * (b / a + a / b + 2 * m ^ 2 * (1 / a - 1 / b) + m ^ 4 * (1 / a - 1 / b) ^ 2)

/-- a pair of fermions from two photons, or two photons from a pair, in units of the fourth power of the charge (Breit and Wheeler 1934; Peskin and Schroeder 5.105) -/
noncomputable def breitWheeler (m a b : ℝ) : ℝ := 2 * (b / a + a / b + 2 * m ^ 2 * (1 / a + 1 / b) - m ^ 4 * (1 / a + 1 / b) ^ 2)

/-- a pair of heavy quarks from two gluons (Combridge 1979; Ellis, Stirling and Webber, QCD and Collider Physics, 10.6), averaged over colours: `τ1 = a / (a + b)`, `τ2 = b / (a + b)`, `ρ = 4 m² / s` -/
noncomputable def quarkPair (g m a b : ℝ) : ℝ :=
  let τ1 := a / (a + b)
  let τ2 := b / (a + b)
  let ρ := 2 * m ^ 2 / (a + b)
  g ^ 4 * (1 / (6 * τ1 * τ2) - 3 / 8) * (τ1 ^ 2 + τ2 ^ 2 + ρ - ρ ^ 2 / (4 * τ1 * τ2))

/-- a gluon scattered by a heavy quark: the same with one gluon and one quark moved to the other side; six colours and spins instead of sixteen to average over for the particle moved -/
noncomputable def quarkCompton (g m a b : ℝ) : ℝ := -(8 / 3) * quarkPair g m (-a) b

end Spinas.Spec
