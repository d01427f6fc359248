import Mathlib.Data.Complex.Basic
import Mathlib.Analysis.Complex.Norm

/-! Specification vocabulary for the spin bookkeeping of processes with massive spin-1 particles. -/

namespace Spinas.Spec

/-- `l` assigns to every particle two spinor spins `+1` or `-1` adding up to its spin (in units of 1/2). -/
def Decomposes (ds : List Int) (l : List (Int × Int)) : Prop :=
  List.Forall₂ (fun d ab => (ab.1 = 1 ∨ ab.1 = -1) ∧ (ab.2 = 1 ∨ ab.2 = -1) ∧ ab.1 + ab.2 = d) ds l

/-- number of particles with spin component 0 -/
def zeros (ds : List Int) : Nat := ds.count 0

/-- sum over the spins -2, 0, 2 of `n` particles -/
def sumSpins : Nat → (List Int → ℝ) → ℝ
  | 0, g => g []
  | n + 1, g => sumSpins n (fun ds => g (-2 :: ds)) + sumSpins n (fun ds => g (0 :: ds)) + sumSpins n (fun ds => g (2 :: ds))

/-- sum over the two spinor spins of `n` particles -/
def sumPairs : Nat → (List (Int × Int) → ℝ) → ℝ
  | 0, g => g []
  | n + 1, g => sumPairs n (fun l => g ((1, 1) :: l)) + sumPairs n (fun l => g ((1, -1) :: l)) +
      sumPairs n (fun l => g ((-1, 1) :: l)) + sumPairs n (fun l => g ((-1, -1) :: l))

/-- symmetrisation in the two spinor spins of every particle -/
noncomputable def symmetrise : (List (Int × Int) → ℂ) → List (Int × Int) → ℂ
  | f, [] => f []
  | f, (a, b) :: l => (symmetrise (fun l => f ((a, b) :: l)) l + symmetrise (fun l => f ((b, a) :: l)) l) / 2

end Spinas.Spec
