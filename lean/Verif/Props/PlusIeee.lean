import Verif.Props.Plus
import Verif.Ieee

/-! C88: squared amplitudes in floating-point arithmetic. -/

namespace Spinas.Props
open SM

section
variable [Rounding]

/-- not a number, or the sign is plus (so not -0 either) -/
def NoMinus : F → Prop
  | .nan => True
  | .inf s => s = false
  | .fin s _ => s = false

theorem NoMinus.make {o : Option NNReal} : NoMinus (F.make false o) := by cases o <;> rfl

/-- Floating-point arithmetic has the rules, whatever the rounding. -/
theorem C88_ieee_rules : SignRules (F × F) NoMinus where
  int n := by
    show NoMinus (F.make (decide ((n : Int) < 0)) _)
    rw [show decide ((n : Int) < 0) = false from decide_eq_false (by omega)]
    exact NoMinus.make
  dec m e := NoMinus.make
  add x y hx hy := by
    show NoMinus (F.add x y)
    cases x <;> cases y <;> simp only [NoMinus] at hx hy <;> subst_vars <;> simp only [F.add] <;> first | exact NoMinus.make | rfl | trivial
  mul x y hx hy := by
    show NoMinus (F.mul x y)
    cases x <;> cases y <;> simp only [NoMinus] at hx hy <;> subst_vars <;> simp only [F.mul] <;> (try split_ifs) <;> first | exact NoMinus.make | rfl | trivial
  div x y hx hy := by
    show NoMinus (F.div x y)
    cases x <;> cases y <;> simp only [NoMinus] at hx hy <;> subst_vars <;> simp only [F.div] <;> (try split_ifs) <;> first | exact NoMinus.make | rfl | trivial
  sqrt x hx := by
    show NoMinus (F.sqrt x)
    cases x <;> simp only [NoMinus] at hx <;> subst_vars <;> simp only [F.sqrt] <;> first | exact NoMinus.make | rfl | trivial
  pow x k hx := by
    show NoMinus (F.pow x k)
    unfold F.pow
    split_ifs
    · rfl
    · cases x <;> simp only [NoMinus] at hx <;> subst_vars <;> simp only [Bool.false_and] <;> first | exact NoMinus.make | rfl | trivial
  even x k := by
    show NoMinus (F.pow x (2 * k))
    unfold F.pow
    split_ifs
    · rfl
    · have e : decide (2 * k % 2 = 1) = false := decide_eq_false (by omega)
      cases x <;> simp only [e, Bool.and_false] <;> first | exact NoMinus.make | rfl | trivial
  abs z := by
    show NoMinus (F.cabs z)
    obtain ⟨a, b⟩ := z
    cases a <;> cases b <;> simp only [F.cabs] <;> first | exact NoMinus.make | rfl | trivial

/-- `amp2()` and the squared amplitudes for given helicities, in floating-point arithmetic with any rounding, for an object in any state: the result is NaN, or it is not less than 0 and its sign bit is not set. -/
theorem C88_ieee (P : Proc) (hP : P ∈ all) (hn : P.name ∉ interfering) {k : Nat} (hk : P.isSquare k = true) (l : Loc F (F × F)) (args : List Int) (o : Obj F (F × F)) {x : F} (h : (P.method l .r k args o).1 = .ok x) :
    Scalar.lt x (F.fin false 0) = false ∧ (Scalar.isNaN x = false → Scalar.le (F.fin false 0) x = true) ∧ ∀ y, x ≠ F.inf true ∧ x ≠ F.fin true y := by
  have hx := C88_no_minus_sign C88_ieee_rules P hP hn hk l args o h
  cases x with
  | nan => exact ⟨rfl, fun h => by simp [Scalar.isNaN] at h, fun y => by simp⟩
  | inf s => cases hx; exact ⟨rfl, fun _ => rfl, fun y => by simp⟩
  | fin s x =>
    cases hx
    refine ⟨?_, fun _ => ?_, fun y => by simp⟩
    · show decide (F.real false x < F.real false 0) = false
      simp [F.real]
    · show (decide (F.real false 0 < F.real false x) || decide (F.real false 0 = F.real false x)) = true
      have : (0 : ℝ) ≤ x := x.2
      simpa [F.real] using this.lt_or_eq

end

/-- exact up to a limit, and infinity beyond it -/
noncomputable def limited (limit : NNReal) : Rounding where
  near _ x := if x ≤ limit then some x else none
  zero := false
  eps := 1
  sin := id
  cos := id
  atan2 x _ := x
  pow x k := if x ^ k ≤ limit then some (x ^ k) else none
  hypot x y := if NNReal.sqrt (x ^ 2 + y ^ 2) ≤ limit then some (NNReal.sqrt (x ^ 2 + y ^ 2)) else none
  cmul x _ := x
  cdiv x _ := x
  polar x y := (x, y)

/-- the hypotheses are met: rounding that overflows beyond a limit, without `set_momenta` having been called -/
example (limit : NNReal) (mem : Nat → F) (junk : Kin F (F × F)) (par : Nat → F) (l : Loc F (F × F)) (x : F) (h : letI := limited limit; (Cls.eemmQED.method l .r Cls.eemmQED.amp2 [] (Cls.eemmQED.construct mem junk par).2).1 = .ok x) :
    letI := limited limit; Scalar.lt x (F.fin false 0) = false :=
  letI := limited limit
  (C88_ieee Cls.eemmQED (by simp [all]) (by decide +kernel) (by decide +kernel) l [] _ h).1

end Spinas.Props
