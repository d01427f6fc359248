import Verif.SM.Positive
import Verif.Props.Invariance

/-! C61: squared amplitudes are not negative (exact arithmetic). -/

namespace Spinas.Props
open SM Spec XR

noncomputable section
variable [FPEnv]

/-- In 137 classes whatever a squared amplitude returns is not negative (or not finite), in any state of the object. -/
theorem C61_any (P : Proc) (hP : P ∈ all) (hg : P.name ∉ gluonClasses) (o : Obj XR XC) (l : Loc XR XC) (k : Nat) (hk : P.isSquare k = true) (a : ℝ)
    (h : (P.method l .r k [] o).1 = .ok (fin a)) : 0 ≤ a := by
  have := square_nonneg hP hk
  rw [if_neg hg] at this
  exact method_nn this (triOk_nil o.r) l [] _ h a rfl

/-- In every class, for momenta that are on shell and balanced. -/
theorem C61_collision (P : Proc) (hP : P ∈ all) (mem : Nat → XR) (junk : Kin XR XC) (par : Nat → XR) (ops : List (ProcOp XR XC)) {o : Obj XR XC}
    (ho : o = runProcOps P ops (P.construct mem junk par).2) {m : Nat → ℝ} (hm : ∀ i, i < 4 → (o.w.part i).kin.m = fin (m i)) {p : Nat → V4 ℝ}
    (hs : ∀ i, i < 4 → OnShell (p i) (m i)) (hb : Balanced p) (j : Kin XR XC) (xs : List (MCall XR XC)) (l : Loc XR XC) (k : Nat) (hk : P.isSquare k = true) :
    (P.runSetMomenta j (fun i => (p i).toX) o).1 = .ok () ∧
    ∀ a, (P.method l .r k [] (runCalls P xs (P.runSetMomenta j (fun i => (p i).toX) o).2)).1 = .ok (fin a) → 0 ≤ a := by
  have hacc : Accepted P o p := (accepted_of hP (o' := o) ⟨mem, mem, junk, junk, par, ops, ops, ho, ho, rfl⟩ hm hs).1
  refine ⟨hacc j, fun a h => ?_⟩
  by_cases hg : P.name ∈ gluonClasses
  · have hn := square_nonneg hP hk
    rw [if_pos hg] at hn
    refine method_nn hn ?_ l [] _ h a rfl
    rw [(calls_members P xs _).1]
    obtain ⟨S, hS, hc⟩ := fresh_check hP
    have hr : SM.checkReset P P.massPar S = true := by
      have := List.all_eq_true.mp all_reset P hP
      simp only [Bool.or_eq_true, List.contains_iff_mem] at this
      have := this.resolve_left (by
        rcases gluonClasses_eq hP hg with rfl | rfl | rfl | rfl <;> decide)
      simpa only [Proc.checkReset, hS] using this
    have hi := ops_inv_reset (checkAll_parts hc).1 hr ops (construct_inv hS mem junk par).2
    rw [← ho] at hi
    exact gluon_tri hP hg hS hi hm hs hb j (hacc j)
  · exact C61_any P hP hg _ l k hk a h

end

/-! ### the hypotheses can be met -/

section examples
attribute [local instance] doubleEnv

/-- a particle of mass 3 and a massless one collide head on and leave at right angles -/
def exHit (i : Nat) : V4 ℝ := if i = 0 then ⟨5, 0, 0, 4⟩ else if i = 1 then ⟨4, 0, 0, -4⟩ else if i = 2 then ⟨4, 4, 0, 0⟩ else ⟨5, -4, 0, 0⟩

theorem exHit_balanced : Balanced exHit := by constructor <;> norm_num [exHit]

/-- `dggd(1, 3)` -/
noncomputable def exGlu (n : Nat) : XR := if n = 0 then .fin 1 else .fin 3

theorem exGlu_mass (mem : Nat → XR) (i : Nat) (hi : i < 4) : ((Cls.dggd.construct mem junkK exGlu).2.w.part i).kin.m = .fin (if i = 0 ∨ i = 3 then 3 else 0) := by
  have hP : Cls.dggd ∈ all := by simp [all]
  have : i = 0 ∨ i = 1 ∨ i = 2 ∨ i = 3 := by omega
  rcases this with rfl | rfl | rfl | rfl
  · rw [part_mass hP (e := .loc .r 1) rfl mem junkK exGlu]; simp [Exp.val0, Exp.val, exGlu]
  · rw [part_mass hP (e := .lit 0) rfl mem junkK exGlu]; simp [Exp.val0, Exp.val]
  · rw [part_mass hP (e := .lit 0) rfl mem junkK exGlu]; simp [Exp.val0, Exp.val]
  · rw [part_mass hP (e := .loc .r 1) rfl mem junkK exGlu]; simp [Exp.val0, Exp.val, exGlu]

theorem exHit_onShell (i : Nat) (hi : i < 4) : OnShell (exHit i) (if i = 0 ∨ i = 3 then 3 else 0) := by
  have : i = 0 ∨ i = 1 ∨ i = 2 ∨ i = 3 := by omega
  rcases this with rfl | rfl | rfl | rfl <;> constructor <;> norm_num [exHit]

/-- down quark and gluon; `amp2()` is method number 1 -/
example (mem : Nat → XR) (l : Loc XR XC) (a : ℝ)
    (h : (Cls.dggd.method l .r 1 [] (Cls.dggd.runSetMomenta junkK (fun i => (exHit i).toX) (Cls.dggd.construct mem junkK exGlu).2).2).1 = .ok (.fin a)) : 0 ≤ a :=
  (C61_collision Cls.dggd (by simp [all]) mem junkK exGlu [] (o := (Cls.dggd.construct mem junkK exGlu).2) (by rw [runProcOps]) (exGlu_mass mem) exHit_onShell
    exHit_balanced junkK [] l 1 rfl).2 a (by rw [runCalls]; exact h)

example : (all.filter fun P => !gluonClasses.contains P.name).length = 137 := by decide +kernel
end examples

end Spinas.Props
