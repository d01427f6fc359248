import Verif.Spec.Feynman
import Verif.Spec.Parton

/-!
Formulas from textbooks for four fermions and one boson exchanged.

Everything is written with the invariants of Mandelstam: `s` for the two particles that enter, `t` for the first and the third and `u` for the first and the fourth particle.
The formulas are summed over the spins of the particles that leave and averaged over those that enter (for neutrinos, with one spin, see there).
-/

namespace Spinas.Spec

/-- A pair of fermions of mass `m` becomes a massless vector boson and then a pair of mass `M`, in units of the fourth power of the coupling (Peskin and Schroeder, An Introduction to Quantum Field Theory,
5.10, there for `m = 0`). With `s` and `t` interchanged the two fermions scatter. -/
noncomputable def throughVector (m M s t u : ℝ) : ℝ := 2 * ((t - m ^ 2 - M ^ 2) ^ 2 + (u - m ^ 2 - M ^ 2) ^ 2 + 2 * (m ^ 2 + M ^ 2) * s) / s ^ 2

/-- Both ways for fermions of one kind that enter and leave as particle and antiparticle (Bhabha 1936; Peskin and Schroeder, problem 5.2, for `m = 0`).
`κ` is the weight of the interference, one without colours. -/
noncomputable def bhabha (κ m s t u : ℝ) : ℝ := throughVector m m s t u + throughVector m m t s u + κ * (4 * (u - 2 * m ^ 2) * (u - 6 * m ^ 2) / (s * t))

/-- Two fermions of one kind scatter (Møller 1932): as before, with `s` and `u` interchanged. -/
noncomputable def moller (κ m s t u : ℝ) : ℝ := bhabha κ m u t s

/-- the square of the coupling of the Z over its denominator, without width -/
noncomputable def zSquared (c : Constants) (q : ℝ) : ℝ := (c.e ^ 2 / (c.SW ^ 2 * c.CW ^ 2)) ^ 2 / (q - c.MZ ^ 2) ^ 2

/-- A neutrino is scattered by a fermion of mass `m` with couplings `gL` and `gR` to the Z ('t Hooft 1971), in units of `zSquared`, summed over spins:
`s` for both particles that enter, `t` for the fermion before and after. -/
noncomputable def neutrinoScattering (gL gR m s t u : ℝ) : ℝ := gL ^ 2 * (s - m ^ 2) ^ 2 + gR ^ 2 * (u - m ^ 2) ^ 2 + 2 * gL * gR * m ^ 2 * t

end Spinas.Spec
