import Verif.Spec.Feynman

/-! The formula for four fermions that exchange one W, with all masses. -/

namespace Spinas.Spec

/-- The charged current of a fermion of mass `m` that becomes one of mass `m'`, contracted with the momentum transferred (of square `t`), squared and summed over spins. -/
noncomputable def alongTransfer (m m' t : ℝ) : ℝ := (m ^ 2 - m' ^ 2) ^ 2 - t * (m ^ 2 + m' ^ 2)

/-- A fermion of mass `a` becomes one of mass `b` and gives off a W, which turns a fermion of mass `c` into one of mass `d`: sum over spins of the product of the two left-handed currents
with the numerator of the propagator of a boson of mass `M`, `g - q q / M ^ 2`, squared. `s` for the two fermions that enter, `t` for the first line and `u` for the fermions of masses `a` and `d`.
The first term is the one of the four-fermion theory (Fermi 1934; for inverse muon decay: Peskin and Schroeder, An Introduction to Quantum Field Theory, section 20.2). -/
noncomputable def chargedCurrents (a b c d M s t u : ℝ) : ℝ :=
  4 * (s - a ^ 2 - c ^ 2) * (s - b ^ 2 - d ^ 2) +
  4 / M ^ 2 * (a ^ 2 * c ^ 2 * (s - b ^ 2 - d ^ 2) + b ^ 2 * d ^ 2 * (s - a ^ 2 - c ^ 2) + a ^ 2 * d ^ 2 * (u - b ^ 2 - c ^ 2) + b ^ 2 * c ^ 2 * (u - a ^ 2 - d ^ 2)) +
  alongTransfer a b t * alongTransfer c d t / M ^ 4

/-- the square of the coupling of the W over the square of its denominator -/
noncomputable def wSquared (c : Constants) (q : ℝ) : ℝ := (c.e ^ 2 / (2 * c.SW ^ 2)) ^ 2 / ((q - c.MW ^ 2) ^ 2 + (c.MW * c.WW) ^ 2)

end Spinas.Spec
