import Verif.Exact.XR
import Verif.SM.Lang

/-! `std::pow` with a literal exponent, in exact arithmetic. -/

namespace Spinas

/-- `pow(NaN, 0) = 1` -/
noncomputable instance : SM.HasPow XR where
  pow
    | .fin x, k => .fin (x ^ k)
    | .nan, 0 => .fin 1
    | .nan, _ + 1 => .nan

@[simp] theorem pow_fin (x : ℝ) (k : Nat) : SM.HasPow.pow (XR.fin x) k = .fin (x ^ k) := rfl

end Spinas
