import Verif.SM.Finite
import Verif.Props.Invariance

/-! From objects to formulas: what the squared amplitudes of an object return, in terms of the parameters it was given. -/

namespace Spinas.SM
open Spec Props XR Matrix

section
variable [FPEnv]

/-- A member of a class whose objects have the parameters `par` and were given the momenta `p`: a constant, or a denominator. -/
def RMember (P : Proc) (par : Nat → XR) (p : Nat → V4 ℝ) (n : Nat) (x : ℝ) : Prop :=
  (∃ e, (P.sym.bind fun S => S.gr n) = some e ∧ e.val0 (C := XC) par = fin x) ∨
  (∃ k v em ew M W, lastDen n P.setMomenta none = some (k, v) ∧ (P.sym.bind fun S => S.gpm k) = some em ∧ em.val0 (C := XC) par = fin M ∧
    (P.sym.bind fun S => S.gpw k) = some ew ∧ ew.val0 (C := XC) par = fin W ∧ x = (poleDist M W (v.sum p)).re)

def CMember (P : Proc) (par : Nat → XR) (p : Nat → V4 ℝ) (n : Nat) (z : ℂ) : Prop :=
  ∃ k v em ew M W, lastDenC n P.setMomenta none = some (k, v) ∧ (P.sym.bind fun S => S.gpm k) = some em ∧ em.val0 (C := XC) par = fin M ∧
    (P.sym.bind fun S => S.gpw k) = some ew ∧ ew.val0 (C := XC) par = fin W ∧ z = poleDist M W (v.sum p)

/-- Parameters `par`, masses `m`, momenta `p` and what the methods see of them. -/
structure Setting (P : Proc) (par : Nat → XR) (m : Nat → ℝ) (p : Nat → V4 ℝ) (N : Env) : Prop where
  mass : ∀ i, i < 4 → ∃ e, (P.sym.bind fun S => S.gm i) = some e ∧ e.val0 (C := XC) par = fin (m i)
  nonzero : ∀ i, i < 4 → P.massless i = false → m i ≠ 0
  shell : ∀ i, i < 4 → OnShell (p i) (m i)
  r : ∀ n, (Ty.r, n) ∈ P.reads → RMember P par p n (N.r n)
  c : ∀ n, (Ty.c, n) ∈ P.reads → CMember P par p n (N.c n)
  dr : ∀ n, (Ty.r, n) ∈ P.divides → N.r n ≠ 0
  dc : ∀ n, (Ty.c, n) ∈ P.divides → N.c n ≠ 0
  v : N.v = braTab (fun a => P.sym.bind fun S => S.gsp a) p m

/-- `set_masses` is not among the calls. -/
def Unset (ops : List (ProcOp XR XC)) : Prop := ∀ junk args, .setMasses junk args ∉ ops

theorem ops_inv_unset {P : Proc} {S : Sym} {ks : List (Ty × Nat × List AI)} {strict : Bool} (hc : P.check strict S ks = true) {massPar : List Nat} (ops : List (ProcOp XR XC)) :
    ∀ {par : Nat → XR} {o : Obj XR XC}, Unset ops → SM.Inv S par o → SM.Inv S (parAfter massPar ops par) (runProcOps P ops o) := by
  induction ops with
  | nil => intro par o _ h; exact h
  | cons op ops ih =>
    intro par o hu h
    have hu' : Unset ops := fun j a hm => hu j a (List.mem_cons_of_mem _ hm)
    cases op with
    | setMasses junk args => exact absurd List.mem_cons_self (hu junk args)
    | setMomenta junk q => exact ih hu' (op_inv hc h (.setMomenta junk q) (by simp))
    | call x => exact ih hu' (op_inv hc h (.call x) (by simp))

/-- Squared amplitudes return their meaning: after the constructor and any calls, `par` being the parameters in force. -/
theorem Setting.result {P : Proc} (hP : P ∈ all) (ops : List (ProcOp XR XC)) (hst : P.name ∉ staleMasses ∨ Unset ops) (hnp : P.setMomenta.all SInstr.noProp = true) (mem : Nat → XR) (junk : Kin XR XC) (par : Nat → XR)
    {o : Obj XR XC} (ho : o = runProcOps P ops (P.construct mem junk par).2) {m : Nat → ℝ} {p : Nat → V4 ℝ} {N : Env}
    (h : Setting P (parAfter P.massPar ops par) m p N) (j : Kin XR XC) (xs : List (MCall XR XC)) (l : Loc XR XC) (k : Nat) (hk : P.isSquare k = true) :
    (P.runSetMomenta j (fun i => (p i).toX) o).1 = .ok () ∧
    (P.method l .r k [] (runCalls P xs (P.runSetMomenta j (fun i => (p i).toX) o).2)).1 = .ok (fin (meaning N .r P.methods k [])) := by
  obtain ⟨S, hS, hc⟩ := fresh_check hP
  have hi : SM.Inv S (parAfter P.massPar ops par) (runProcOps P ops (P.construct mem junk par).2) := by
    rcases hst with hst | hst
    · have hr : SM.checkReset P P.massPar S = true := by
        have := List.all_eq_true.mp all_reset P hP
        simp only [Bool.or_eq_true, List.contains_iff_mem] at this
        have := this.resolve_left hst
        simpa only [Proc.checkReset, hS] using this
      exact ops_inv_reset (checkAll_parts hc).1 hr ops (construct_inv hS mem junk par).2
    · exact ops_inv_unset (checkAll_parts hc).1 ops hst (construct_inv hS mem junk par).2
  rw [← ho] at hi
  have bnd : ∀ {α : Type} (g : Sym → Option α), (P.sym.bind g) = g S := by intro α g; rw [hS]; rfl
  have hm : ∀ i, i < 4 → (o.w.part i).kin.m = fin (m i) := by
    intro i hlt
    obtain ⟨e, he, hv⟩ := h.mass i hlt
    rw [bnd] at he
    exact (hi.mass i e he).trans hv
  have hn : MassesNonzero P o := by
    intro i hlt hml
    rw [hm i hlt]
    simpa [Scalar.ne] using h.nonzero i hlt hml
  have hacc := (accepted_of hP (o' := o) ⟨mem, mem, junk, junk, par, ops, ops, ho, ho, rfl⟩ hm h.shell).1 j
  have hinv : SM.Inv S (parAfter P.massPar ops par) (P.runSetMomenta j (fun i => (p i).toX) o).2 := by
    rcases (setMomenta_sound (checkAll_parts hc).2.1 hi hi j j j (fun i => (p i).toX) (fun i => fin (m i)) hm).2 with ⟨_, e, _⟩ | ⟨_, _, _, r, c, u, _, ha⟩
    · rw [hacc] at e; cases e
    · exact ha.inv
  refine ⟨hacc, square_meaning hc (List.all_eq_true.mp all_tame P hP) hk hi hm hn (fun i hi => (h.shell i hi).mag_le) j hacc xs l ⟨fun n hn => ?_, fun n hn => ?_, h.dr, h.dc⟩ ?_⟩
  · rcases h.r n hn with ⟨e, he, hv⟩ | ⟨k, v, em, ew, M, W, hl, hem, hM, hew, hW, hx⟩
    · rw [bnd] at he
      exact (hinv.r n e he).trans hv
    · rw [bnd] at hem hew
      have := den_sound j (fun _ => int 0) (fun i => (p i).toX) n P.setMomenta none o hnp (by simp) hacc _ _ hl
      have hd := denominator_fin ((hi.pm k em hem).trans hM) ((hi.pw k ew hew).trans hW) (v.sum p)
      rw [← VExp.eval_sum] at hd
      rw [hx]
      unfold Proc.runSetMomenta
      rw [this, hd]
      rfl
  · obtain ⟨k, v, em, ew, M, W, hl, hem, hM, hew, hW, hx⟩ := h.c n hn
    rw [bnd] at hem hew
    have := denC_sound j (fun _ => int 0) (fun i => (p i).toX) n P.setMomenta none o hnp (by simp) hacc _ _ hl
    have hd := denominator_fin ((hi.pm k em hem).trans hM) ((hi.pw k ew hew).trans hW) (v.sum p)
    rw [← VExp.eval_sum] at hd
    rw [hx]
    unfold Proc.runSetMomenta
    rw [this, hd]
  · rw [h.v]
    congr 1
    funext a
    exact bnd _

end
end Spinas.SM
