import Verif.SM.HelicityMean
import Verif.Props.FeynmanHelicity
import Verif.Props.FeynmanGluons
import Verif.Props.FeynmanPhotons

/-! C79: the squared amplitude is the mean of the ones for the two helicities of an incoming photon or gluon (exact arithmetic). -/

namespace Spinas.Props
open SM Spec Spec.Reaction XR Matrix Process

noncomputable section

/-- classes with one incoming photon or gluon and a method for either helicity, and the names of these methods -/
def bothHelicities : List (String × String × String) := [
  ("uAAu", "amp2_Aplus", "amp2_Aminus"), ("dAAd", "amp2_Aplus", "amp2_Aminus"), ("dAgd", "amp2_Aplus", "amp2_Aminus"), ("guAu", "amp2_gplus", "amp2_gminus"), ("AZuu", "amp2_Aplus", "amp2_Aminus"), ("AZdd", "amp2_Aplus", "amp2_Aminus"), ("AZee", "amp2_Aplus", "amp2_Aminus"), ("AuZu", "amp2_Aplus", "amp2_Aminus"), ("AdZd", "amp2_Aplus", "amp2_Aminus"), ("AeZe", "amp2_Aplus", "amp2_Aminus"), ("gZdd", "amp2_gplus", "amp2_gminus"), ("gZuu", "amp2_gplus", "amp2_gminus"), ("gdZd", "amp2_gplus", "amp2_gminus"), ("guZu", "amp2_gplus", "amp2_gminus"), ("dggd", "amp2_gplus", "amp2_gminus"), ("gugu", "amp2_gplus", "amp2_gminus"), ("AWAW", "amp2_Aplus", "amp2_Aminus")]

/-- legs that may be the photon or gluon -/
def legsIn : List (Fin 4) := [0, 1]

/-- The table lists the pairs of methods of a class that are for opposite helicities of one particle and all states of the others. -/
theorem C79_classes : bothHelicities = polarised.flatMap fun x => legsIn.flatMap fun n => if x.2.2.2 = onlyLeg n true then
    (polarised.filter fun y => decide (y.1.proc.name = x.1.proc.name) && decide (y.2.2.2 = onlyLeg n false)).map fun y => (x.1.proc.name, x.2.1, y.2.1) else [] := by
  decide +kernel

variable [FPEnv]

theorem polarised_all : ∀ x ∈ polarised, x.1.Agrees := by
  unfold polarised
  simp only [List.forall_mem_cons, List.not_mem_nil, false_implies, implies_true, and_true]
  exact ⟨Rows.AAuu.agrees, Rows.AAuu.agrees, Rows.AAdd.agrees, Rows.AAdd.agrees, Rows.AAee.agrees, Rows.AAee.agrees, Rows.uAAu.agrees, Rows.uAAu.agrees, Rows.dAAd.agrees, Rows.dAAd.agrees, Rows.eAAe.agrees, Rows.gAdd.agrees, Rows.gAdd.agrees, Rows.gAuu.agrees, Rows.gAuu.agrees, Rows.dAgd.agrees, Rows.dAgd.agrees, Rows.guAu.agrees, Rows.guAu.agrees, Rows.uAuh.agrees, Rows.dAdh.agrees, Rows.dgdh.agrees, Rows.uguh.agrees, Rows.hgdd.agrees, Rows.hguu.agrees, Rows.AZuu.agrees, Rows.AZuu.agrees, Rows.AZdd.agrees, Rows.AZdd.agrees, Rows.AZee.agrees, Rows.AZee.agrees, Rows.AuZu.agrees, Rows.AuZu.agrees, Rows.AdZd.agrees, Rows.AdZd.agrees, Rows.AeZe.agrees, Rows.AeZe.agrees, Rows.gZdd.agrees, Rows.gZdd.agrees, Rows.gZuu.agrees, Rows.gZuu.agrees, Rows.gdZd.agrees, Rows.gdZd.agrees, Rows.guZu.agrees, Rows.guZu.agrees, Rows.AWud.agrees, Rows.AnWe.agrees, Rows.gWud.agrees, Rows.ggdd.agrees, Rows.ggdd.agrees, Rows.gguu.agrees, Rows.gguu.agrees, Rows.dggd.agrees, Rows.dggd.agrees, Rows.gugu.agrees, Rows.gugu.agrees, Rows.AhWW.agrees, Rows.AWWh.agrees, Rows.AAWW.agrees, Rows.AAWW.agrees, Rows.AWAW.agrees, Rows.AWAW.agrees, Rows.AZWW.agrees, Rows.AWZW.agrees⟩

/-- C79. Where a class has methods for both helicities of the one incoming photon or gluon, `amp2()` is the mean of what they return: for any object of the class, whatever was done to it before
and after `set_momenta`, any values of its parameters and any momenta on the mass shells off the poles. -/
theorem C79_mean {R : BRow} {plus minus : String} {k k' : Nat} {n : Fin 4} (hp : (R, plus, k, onlyLeg n true) ∈ polarised) (hm : (R, minus, k', onlyLeg n false) ∈ polarised) (mem : Nat → XR) (junk : Kin XR XC)
    (par : Nat → XR) (ops : List (ProcOp XR XC)) (hst : R.proc.name ∈ staleMasses → Unset ops) {c : Constants} (hpar : ∀ n q, R.pars[n]? = some (some q) → parAfter R.proc.massPar ops par n = fin (c.get q))
    (hc : c.Physical) (hh : c.Heavy) (hz : ∀ q ∈ R.absent, c.get q = 0) {o : Obj XR XC} (ho : o = runProcOps R.proc ops (R.proc.construct mem junk par).2) {p : Nat → V4 ℝ}
    (hs : ∀ i : Fin 4, OnShell (p i) (R.react.mass c i)) (hb : Balanced p) (hr : R.react.Regular c p) (he : ∀ i, (R.react.boson i).massive = false → (p i).t ≠ 0) (j : Kin XR XC) :
    (R.proc.runSetMomenta j (fun i => (p i).toX) o).1 = .ok () ∧ ∃ x y : ℝ, ∀ (xs : List (MCall XR XC)) (l : Loc XR XC),
      (R.proc.method l .r k [] (runCalls R.proc xs (R.proc.runSetMomenta j (fun i => (p i).toX) o).2)).1 = .ok (fin x) ∧
      (R.proc.method l .r k' [] (runCalls R.proc xs (R.proc.runSetMomenta j (fun i => (p i).toX) o).2)).1 = .ok (fin y) ∧
      (R.proc.method l .r R.proc.amp2 [] (runCalls R.proc xs (R.proc.runSetMomenta j (fun i => (p i).toX) o).2)).1 = .ok (fin ((x + y) / 2)) := by
  have hl := (C74_names _ hp).2.2
  simp only [allIncoming, List.all_cons, List.all_nil, Bool.and_true, Bool.and_eq_true, beq_iff_eq] at hl
  have hn : ((onlyLeg n true) n).isSome = (arrives n && (decide (R.react.leg n = .boson .photon) || decide (R.react.leg n = .boson .gluon))) := by
    obtain ⟨h0, h1, h2, h3⟩ := hl
    fin_cases n <;> assumption
  have e1 : ((onlyLeg n true) n).isSome = true := by simp [onlyLeg]
  rw [e1, eq_comm, Bool.and_eq_true, Bool.or_eq_true, decide_eq_true_iff, decide_eq_true_iff] at hn
  obtain ⟨ha, hn⟩ := hn
  obtain ⟨b, hleg, hbm⟩ : ∃ b : Boson, R.react.leg n = .boson b ∧ b.massive = false := by
    rcases hn with h | h
    · exact ⟨_, h, rfl⟩
    · exact ⟨_, h, rfl⟩
  obtain ⟨u, ε, hu⟩ := C68_states R.react hc hh hs he
  have hC : ∀ n, R.react.Complete c p n (R.react.codeSpinor c p n) (R.react.codeEps c p n) :=
    R.react.code_complete hs (BRow.leg_nonneg hc hh R.react) (R.react.codeE_polarised hs (BRow.leg_nonneg hc hh R.react) hu fun b hb => (BRow.boson_pos hc hh hb).ne')
  have het : (p n).t ≠ 0 := he n (by simpa [boson, hleg] using hbm)
  have hplus := code_helicity ha hleg hbm hs het true hC
  have hminus := code_helicity ha hleg hbm hs het false hC
  refine ⟨(C74_feynman hp mem junk par ops hst hpar hc hh hz ho hs hb hr hplus j [] ⟨fun _ => 0, fun _ => fin 0, fun _ => ofC 0⟩).1, _, _, fun xs l => ⟨(C74_feynman hp mem junk par ops hst hpar hc hh hz ho hs hb hr hplus j xs l).2,
    (C74_feynman hm mem junk par ops hst hpar hc hh hz ho hs hb hr hminus j xs l).2, ?_⟩⟩
  have := ((polarised_all _ hp).2.2 mem junk par ops c p _ _ o j xs l hst hpar hc hh hz ho hs hb hr hC).2
  rw [squared_mean ha hleg hbm] at this
  exact this

/-! ### the hypotheses can be met -/

/-- Compton scattering on an up quark of mass 5 -/
example (mem : Nat → XR) (junk : Kin XR XC) : ∃ x y : ℝ, ∀ (xs : List (MCall XR XC)) (l : Loc XR XC),
    (Cls.uAAu.method l .r 2 [] (runCalls Cls.uAAu xs (Cls.uAAu.runSetMomenta junk (fun i => (exCompton i).toX) (Cls.uAAu.construct mem junk fun n => if n = 0 then fin 1 else fin 5).2).2)).1 = .ok (fin x) ∧
    (Cls.uAAu.method l .r 3 [] (runCalls Cls.uAAu xs (Cls.uAAu.runSetMomenta junk (fun i => (exCompton i).toX) (Cls.uAAu.construct mem junk fun n => if n = 0 then fin 1 else fin 5).2).2)).1 = .ok (fin y) ∧
    (Cls.uAAu.method l .r Cls.uAAu.amp2 [] (runCalls Cls.uAAu xs (Cls.uAAu.runSetMomenta junk (fun i => (exCompton i).toX) (Cls.uAAu.construct mem junk fun n => if n = 0 then fin 1 else fin 5).2).2)).1 =
      .ok (fin ((x + y) / 2)) := by
  have hc := exMass_physical
  have hh := exMass_heavy
  have hb : Balanced exCompton := by constructor <;> norm_num [exCompton]
  have hs : ∀ i : Fin 4, OnShell (exCompton i) (Rows.uAAu.react.mass exMass i) := by
    intro i
    have : Rows.uAAu.react.mass exMass i = (![5, 0, 0, 5] : Fin 4 → ℝ) i := by fin_cases i <;> rfl
    rw [this]
    fin_cases i <;> constructor <;> norm_num [exCompton]
  have hr : Rows.uAAu.react.Regular exMass exCompton := by
    refine ⟨?_, ?_, ?_⟩
    · intro x h _
      cases h
      show msq (plus (exCompton 0) (exCompton 1)) - (5 : ℝ) ^ 2 ≠ 0
      norm_num [msq, plus, exCompton, backward]
    · intro x h _
      cases h
      show msq (plus (exCompton 0) (backward (exCompton 2))) - (5 : ℝ) ^ 2 ≠ 0
      norm_num [msq, plus, exCompton, backward]
    · intro x h1 h2 h
      cases x <;> first | cases h1 | cases h2
  refine (C79_mean (R := Rows.uAAu) (plus := "amp2_Aplus") (minus := "amp2_Aminus") (k := 2) (k' := 3) (n := 1) ?_ ?_ mem junk (fun n => if n = 0 then fin 1 else fin 5) [] (fun _ _ _ h => by cases h) ?_ hc hh
    (by intro q h; cases h) rfl hs hb hr (by intro n _; fin_cases n <;> norm_num [exCompton]) junk).2
  · have : onlyLeg 1 true = ![none, some true, none, none] := by decide
    rw [this]; simp [polarised]
  · have : onlyLeg 1 false = ![none, some false, none, none] := by decide
    rw [this]; simp [polarised]
  · intro n q h
    match n with
    | 0 => cases h; rfl
    | 1 => cases h; rfl
    | n + 2 => cases h

end
end Spinas.Props
