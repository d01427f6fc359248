import Verif.Spec.Minkowski
import Mathlib.LinearAlgebra.Matrix.Determinant.Basic
import Mathlib.Data.Real.Basic

/-! Lorentz transformations. -/

namespace Spinas.Spec
open Matrix

/-- the metric, signature +--- -/
def minkowski : Matrix (Fin 4) (Fin 4) ℝ := diagonal ![1, -1, -1, -1]

/-- Proper orthochronous Lorentz transformations: they preserve the metric, the orientation and the direction of time. -/
structure Lorentz (L : Matrix (Fin 4) (Fin 4) ℝ) : Prop where
  isometry : Lᵀ * minkowski * L = minkowski
  proper : L.det = 1
  forward : 0 < L 0 0

/-- components -/
def comps (p : V4 ℝ) : Fin 4 → ℝ := ![p.t, p.x, p.y, p.z]
def ofComps (v : Fin 4 → ℝ) : V4 ℝ := ⟨v 0, v 1, v 2, v 3⟩

/-- the transformed momentum -/
def transform (L : Matrix (Fin 4) (Fin 4) ℝ) (p : V4 ℝ) : V4 ℝ := ofComps (L *ᵥ comps p)

end Spinas.Spec
