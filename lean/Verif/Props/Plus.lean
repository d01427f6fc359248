import Verif.SM.Plus
import Verif.SM.Proc.All
import Verif.Exact.Pow
import Verif.Props.Direct

/-! C88: squared amplitudes carry no minus sign, whatever the rounding. -/

namespace Spinas.Props
open SM

/-- classes whose squared amplitudes are not sums of squares as written: real parts of products of amplitudes with different colours are added -/
def interfering : List String := ["dddd", "dddd2", "dggd", "ggdd", "gguu", "gugu", "udud", "uudd", "uuuu", "uuuu2"]

/-- the squared amplitudes of the class are sums of squares as written -/
def sumsOfSquares (P : Proc) : Bool := plusMethod P.methods P.amp2 && P.others.all fun x => plusMethod P.methods x.2

/-- the exceptions are the classes for which this is not so -/
theorem C88_classes : (all.all fun P => sumsOfSquares P == !interfering.contains P.name) = true := by decide +kernel

section
variable {R C : Type} [Scalar R] [HasPow R] [Cplx R C]

/-- `amp2()` and the squared amplitudes for given helicities, for an object in any state (whether or not `set_momenta` has been called), in any arithmetic with the rules `SignRules`. -/
theorem C88_no_minus_sign {N : R → Prop} (hN : SignRules C N) (P : Proc) (hP : P ∈ all) (hn : P.name ∉ interfering) {k : Nat} (hk : P.isSquare k = true) (l : Loc R C) (args : List Int) (o : Obj R C) {x : R} (h : (P.method l .r k args o).1 = .ok x) : N x := by
  have hp := List.all_eq_true.mp C88_classes P hP
  have hc : interfering.contains P.name = false := by simpa using hn
  rw [hc, beq_iff_eq] at hp
  simp only [sumsOfSquares, Bool.not_false, Bool.and_eq_true, List.all_eq_true] at hp
  refine method_plus hN ?_ l args o h
  simp only [Proc.isSquare, Bool.or_eq_true, beq_iff_eq, List.any_eq_true] at hk
  rcases hk with rfl | ⟨y, hy, rfl⟩
  · exact hp.1
  · exact hp.2 y hy

end

section
open XR
variable [FPEnv]

/-- not negative (or not finite) -/
def NotNegative : XR → Prop
  | fin x => 0 ≤ x
  | nan => True

/-- Exact arithmetic has the rules. -/
theorem C88_exact : SignRules XC NotNegative where
  int n := by simp [NotNegative]
  dec m e := by simp only [s_dec, NotNegative]; positivity
  add x y hx hy := by cases x <;> cases y <;> simp_all [NotNegative]; linarith
  mul x y hx hy := by cases x <;> cases y <;> simp_all [NotNegative, mul_nonneg]
  div x y hx hy := by
    cases x <;> cases y <;> simp_all [NotNegative]
    rw [fin_div_def]
    split_ifs
    · trivial
    · exact div_nonneg hx hy
  sqrt x hx := by
    cases x
    · rw [s_sqrt hx]; exact Real.sqrt_nonneg _
    · trivial
  pow x k hx := by
    cases x
    · exact pow_nonneg hx k
    · cases k
      · exact zero_le_one
      · trivial
  even x k := by
    cases x
    · exact Even.pow_nonneg ⟨k, two_mul k⟩ _
    · cases k
      · exact zero_le_one
      · trivial
  abs z := by
    show NotNegative (XR.sqrt (z.re * z.re + z.im * z.im))
    cases z.re * z.re + z.im * z.im with
    | nan => trivial
    | fin x =>
      show NotNegative (if x < 0 then nan else fin (Real.sqrt x))
      split_ifs
      · trivial
      · exact Real.sqrt_nonneg _

/-- the hypotheses are met: in exact arithmetic, without `set_momenta` having been called -/
example (mem : Nat → XR) (junk : Kin XR XC) (par : Nat → XR) (l : Loc XR XC) (x : XR) (h : (Cls.eemmQED.method l .r Cls.eemmQED.amp2 [] (Cls.eemmQED.construct mem junk par).2).1 = .ok x) : NotNegative x :=
  C88_no_minus_sign C88_exact Cls.eemmQED (by simp [all]) (by decide +revert) (by decide +revert) l [] _ h

end
end Spinas.Props
