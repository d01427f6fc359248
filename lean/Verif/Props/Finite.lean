import Verif.SM.Finite
import Verif.Props.Mandelstam

/-! C63: squared amplitudes are finite away from the poles of the propagators (exact arithmetic). -/

namespace Spinas.Props
open SM Spec XR

noncomputable section
variable [FPEnv]

/-- A propagator with mass and width is never on its pole. -/
theorem poleDist_ne {m w : ℝ} (hm : m ≠ 0) (hw : w ≠ 0) (P : V4 ℝ) : poleDist m w P ≠ 0 := by
  intro h
  have := congrArg Complex.im h
  simp only [poleDist, Complex.zero_im, neg_eq_zero, mul_eq_zero] at this
  exact this.elim hm hw

/-- An object of any history, momenta on shell, no propagator on its pole, the constants read finite (and not zero if divided by). -/
theorem C63_finite (P : Proc) (hP : P ∈ all) (mem : Nat → XR) (junk : Kin XR XC) (par : Nat → XR) (ops : List (ProcOp XR XC)) {o : Obj XR XC}
    (ho : o = runProcOps P ops (P.construct mem junk par).2) {m : Nat → ℝ} (hm : ∀ i, i < 4 → (o.w.part i).kin.m = fin (m i)) (hn : MassesNonzero P o)
    {p : Nat → V4 ℝ} (hs : ∀ i, i < 4 → OnShell (p i) (m i)) (hc : ConstsOk P o) (hp : OffPole P.setMomenta o.pr p)
    (j : Kin XR XC) (xs : List (MCall XR XC)) (l : Loc XR XC) (k : Nat) (hk : P.isSquare k = true) :
    (P.runSetMomenta j (fun i => (p i).toX) o).1 = .ok () ∧
    ∃ a, (P.method l .r k [] (runCalls P xs (P.runSetMomenta j (fun i => (p i).toX) o).2)).1 = .ok (fin a) := by
  have hss : SameSetup P o o := ⟨mem, mem, junk, junk, par, ops, ops, ho, ho, rfl⟩
  have hacc : Accepted P o p := (accepted_of hP hss hm hs).1
  obtain ⟨S, par', hck, hi, _, _⟩ := hss.inv hP
  refine ⟨hacc j, _, square_meaning hck (List.all_eq_true.mp all_tame P hP) hk hi hm hn (fun i hi => (hs i hi).mag_le) j (hacc j) xs l
    (N := envOf (P.runSetMomenta j (fun i => (p i).toX) o).2.r (P.runSetMomenta j (fun i => (p i).toX) o).2.c (braTab S.gsp p m)) ?_ rfl⟩
  have ht := List.all_eq_true.mp all_tameSetup P hP
  unfold Proc.tameSetup at ht
  split at ht
  · rename_i M D hMD
    simp only [Bool.and_eq_true, List.all_eq_true, List.contains_iff_mem] at ht
    have hf := setTame_sound j (par := fun _ => int 0) (ρ := fun _ => 0) (fun n => by simp) p P.setMomenta _ _ M D o hMD hc hp (hacc j)
    exact (hf.of_sub ht.1.1 ht.1.2).lifted ht.2 _
  · cases ht

end

/-! ### the hypotheses can be met -/

section examples
attribute [local instance] doubleEnv

/-- members of a new object in terms of the parameters -/
theorem member {P : Proc} (hP : P ∈ all) {n : Nat} {e : Exp .r} (he : (P.sym.bind fun S => S.gr n) = some e) (mem : Nat → XR) (junk : Kin XR XC) (par : Nat → XR) :
    (P.construct mem junk par).2.r n = e.val0 (C := XC) par := by
  obtain ⟨S, hS, _⟩ := fresh_check hP
  refine (construct_inv hS mem junk par).2.r n e ?_
  rw [hS] at he; exact he

/-- propagators of a new object -/
theorem propagator {P : Proc} (hP : P ∈ all) {k : Nat} {e e' : Exp .r} (he : (P.sym.bind fun S => S.gpm k) = some e) (he' : (P.sym.bind fun S => S.gpw k) = some e')
    (mem : Nat → XR) (junk : Kin XR XC) (par : Nat → XR) :
    ((P.construct mem junk par).2.pr k).m = e.val0 (C := XC) par ∧ ((P.construct mem junk par).2.pr k).w = e'.val0 (C := XC) par := by
  obtain ⟨S, hS, _⟩ := fresh_check hP
  rw [hS] at he he'
  exact ⟨(construct_inv hS mem junk par).2.pm k e he, (construct_inv hS mem junk par).2.pw k e' he'⟩

theorem exGlu_consts (mem : Nat → XR) : ConstsOk Cls.dggd (Cls.dggd.construct mem junkK exGlu).2 := by
  have hP : Cls.dggd ∈ all := by simp [all]
  have hr : Cls.dggd.consts = [(.r, 0), (.r, 1)] := by decide +kernel
  have hd : Cls.dggd.consts.filter Cls.dggd.divides.contains = [] := by decide +kernel
  unfold ConstsOk
  rw [hd, hr]
  refine ⟨fun n hn => ?_, fun n hn => by simp at hn, fun n hn => by simp at hn, fun n hn => by simp at hn⟩
  simp only [List.mem_cons, Prod.mk.injEq, true_and, List.not_mem_nil, or_false] at hn
  rcases hn with rfl | rfl
  · rw [member hP (e := .loc .r 0) rfl mem junkK exGlu]; simp [Exp.val0, Exp.val, exGlu]
  · rw [member hP (e := .loc .r 1) rfl mem junkK exGlu]; simp [Exp.val0, Exp.val, exGlu]

theorem exGlu_offPole (mem : Nat → XR) : OffPole Cls.dggd.setMomenta (Cls.dggd.construct mem junkK exGlu).2.pr exHit := by
  have hP : Cls.dggd ∈ all := by simp [all]
  intro t n k v hden
  have h0 := propagator hP (k := 0) (e := .loc .r 1) (e' := .lit 0) rfl rfl mem junkK exGlu
  have h1 := propagator hP (k := 1) (e := .lit 0) (e' := .lit 0) rfl rfl mem junkK exGlu
  have hmem : (t, n, k, v) ∈ [(Ty.r, 2, 0, VExp.add 0 1), (.r, 3, 0, .sub 0 2), (.r, 4, 1, .sub 0 3)] := by
    simpa [Cls.dggd, Cls.dggd.setMomenta] using hden
  simp only [List.mem_cons, Prod.mk.injEq, List.not_mem_nil, or_false] at hmem
  rcases hmem with ⟨rfl, rfl, rfl, rfl⟩ | ⟨rfl, rfl, rfl, rfl⟩ | ⟨rfl, rfl, rfl, rfl⟩
  · exact ⟨3, 0, by rw [h0.1]; simp [Exp.val0, Exp.val, exGlu], by rw [h0.2]; simp [Exp.val0, Exp.val], by norm_num [poleDist, VExp.sum, msq, exHit]⟩
  · exact ⟨3, 0, by rw [h0.1]; simp [Exp.val0, Exp.val, exGlu], by rw [h0.2]; simp [Exp.val0, Exp.val], by norm_num [poleDist, VExp.sum, msq, exHit]⟩
  · exact ⟨0, 0, by rw [h1.1]; simp [Exp.val0, Exp.val], by rw [h1.2]; simp [Exp.val0, Exp.val], by norm_num [poleDist, VExp.sum, msq, exHit]⟩

/-- down quark and gluon with `s = 81`, `t = -31`, `u = -32`; the propagators have masses 3, 3, 0 -/
example (mem : Nat → XR) (l : Loc XR XC) :
    ∃ a, (Cls.dggd.method l .r 1 [] (Cls.dggd.runSetMomenta junkK (fun i => (exHit i).toX) (Cls.dggd.construct mem junkK exGlu).2).2).1 = .ok (.fin a) :=
  (C63_finite Cls.dggd (by simp [all]) mem junkK exGlu [] (o := (Cls.dggd.construct mem junkK exGlu).2) (by rw [runProcOps]) (exGlu_mass mem) (exGlu_nonzero mem)
    exHit_onShell (exGlu_consts mem) (exGlu_offPole mem) junkK [] l 1 rfl).2

end examples

end Spinas.Props
