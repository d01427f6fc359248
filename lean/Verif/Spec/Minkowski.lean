import Verif.Arith
import Mathlib.Data.Complex.Basic
import Mathlib.Data.Matrix.Mul
import Mathlib.LinearAlgebra.Matrix.Notation

/-! Specification vocabulary: real four-vectors and their 2x2 matrices. -/

namespace Spinas.Spec
open Spinas

/-- Minkowski product, signature (+,-,-,-) -/
def dot (p q : V4 ℝ) : ℝ := p.t * q.t - p.x * q.x - p.y * q.y - p.z * q.z

/-- `E^2 - |p|^2` -/
def msq (p : V4 ℝ) : ℝ := p.t ^ 2 - p.x ^ 2 - p.y ^ 2 - p.z ^ 2

/-- Momentum of a physical particle of mass `m`. -/
structure OnShell (p : V4 ℝ) (m : ℝ) : Prop where
  energy : 0 ≤ p.t
  shell : p.t ^ 2 = p.x ^ 2 + p.y ^ 2 + p.z ^ 2 + m ^ 2

/-- `p_mu sigma^mu` with lower spinor indices: `[[E+pz, px-i py],[px+i py, E-pz]]` -/
def slashLower (p : V4 ℝ) : Matrix (Fin 2) (Fin 2) ℂ :=
  !![p.t + p.z, p.x - p.y * Complex.I; p.x + p.y * Complex.I, p.t - p.z]

/-- the same with upper spinor indices: `[[E-pz, -px+i py],[-px-i py, E+pz]]` -/
def slashUpper (p : V4 ℝ) : Matrix (Fin 2) (Fin 2) ℂ :=
  !![p.t - p.z, -p.x + p.y * Complex.I; -p.x - p.y * Complex.I, p.t + p.z]

end Spinas.Spec
