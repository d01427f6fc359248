import Verif.SM.Bosons.GluonPairs
import Verif.Props.Antiparticles

/-! C71: reactions of two quarks and two gluons according to the Feynman rules of the Standard Model (exact arithmetic). -/

namespace Spinas.Props
open SM Spec Spec.Reaction XR Matrix Process

noncomputable section

variable [FPEnv]

theorem withGluons_agrees : ∀ R ∈ withGluons, R.Agrees := by
  unfold withGluons
  simp only [List.forall_mem_cons, List.not_mem_nil, false_implies, implies_true, and_true]
  exact ⟨Rows.ggdd.agrees, Rows.gguu.agrees, Rows.dggd.agrees, Rows.gugu.agrees⟩

omit [FPEnv] in
theorem withGluons_fresh : ∀ R ∈ withGluons, R.proc.name ∉ staleMasses ∧ R.absent = [] := by
  unfold withGluons
  simp only [List.forall_mem_cons, List.not_mem_nil, false_implies, implies_true, and_true]
  exact ⟨⟨by decide, rfl⟩, ⟨by decide, rfl⟩, ⟨by decide, rfl⟩, ⟨by decide, rfl⟩⟩

/-- C71. As C68, for classes with two quarks and two gluons, which exchange a quark or a third gluon. -/
theorem C71_feynman {R : BRow} (hR : R ∈ withGluons) (mem : Nat → XR) (junk : Kin XR XC) (par : Nat → XR) (ops : List (ProcOp XR XC)) {c : Constants}
    (hpar : ∀ n q, R.pars[n]? = some (some q) → parAfter R.proc.massPar ops par n = fin (c.get q)) (hc : c.Physical) (hh : c.Heavy)
    {o : Obj XR XC} (ho : o = runProcOps R.proc ops (R.proc.construct mem junk par).2) {p : Nat → V4 ℝ} (hs : ∀ i : Fin 4, OnShell (p i) (R.react.mass c i)) (hb : Balanced p)
    (hr : R.react.Regular c p) {u : Fin 4 → Fin 3 → Spinor} {ε : Fin 4 → Fin 3 → Vec} (hu : ∀ i, R.react.Complete c p i (u i) (ε i)) (j : Kin XR XC) (xs : List (MCall XR XC)) (l : Loc XR XC) :
    (R.proc.runSetMomenta j (fun i => (p i).toX) o).1 = .ok () ∧
    (R.proc.method l .r R.proc.amp2 [] (runCalls R.proc xs (R.proc.runSetMomenta j (fun i => (p i).toX) o).2)).1 = .ok (fin (R.react.squared c p u ε)) := by
  obtain ⟨hn, h0⟩ := withGluons_fresh R hR
  exact (withGluons_agrees R hR).2.2 mem junk par ops c p u ε o j xs l (fun h => absurd h hn) hpar hc hh (by simp [h0]) ho hs hb hr hu

omit [FPEnv] in
theorem withGluons_lines : ∀ R ∈ withGluons, ∃ i j a b : Fin 4, lineOf R.react i j a b = true := by
  unfold withGluons
  simp only [List.forall_mem_cons, List.not_mem_nil, false_implies, implies_true, and_true]
  exact ⟨⟨2, 3, 0, 1, by decide⟩, ⟨2, 3, 0, 1, by decide⟩, ⟨3, 0, 1, 2, by decide⟩, ⟨3, 1, 0, 2, by decide⟩⟩

/-- The amplitudes of the Feynman rules for these reactions vanish if the polarisation vector of a gluon is replaced by its momentum ... -/
theorem C71_gauge {R : BRow} (hR : R ∈ withGluons) {c : Constants} (hh : c.Heavy) {p : Nat → V4 ℝ} (hs : ∀ i : Fin 4, OnShell (p i) (R.react.mass c i))
    (hb : Balanced p) (hr : R.react.Regular c p) : R.react.Gauge c p := by
  obtain ⟨i, j, a, b, h⟩ := withGluons_lines R hR
  obtain ⟨h1, h2, h3, h4, h5, h6⟩ := of_decide_eq_true h
  refine gauge_line h1 h2 h3 hh h4 (fun n => onShell_msq (hs n)) hb hr (fun n m hn hm => ?_) h5 h6
  have : ∀ R ∈ withGluons, ∀ m, R.react.boson m ≠ .photon := by decide
  exact absurd hn (this R hR m)

/-- ... hence the squared amplitude does not depend on the choice of spinors and polarisation vectors, nor on the gauge of the latter. -/
theorem C71_basis {R : BRow} (hR : R ∈ withGluons) {c : Constants} (hc : c.Physical) (hh : c.Heavy) {p : Nat → V4 ℝ} (hs : ∀ i : Fin 4, OnShell (p i) (R.react.mass c i))
    (hb : Balanced p) (hr : R.react.Regular c p) {u v : Fin 4 → Fin 3 → Spinor} {ε η : Fin 4 → Fin 3 → Vec} (h : ∀ n, R.react.Complete c p n (u n) (ε n)) (h' : ∀ n, R.react.Complete c p n (v n) (η n)) :
    R.react.squared c p u ε = R.react.squared c p v η :=
  R.react.squared_basis (fun n => onShell_msq (hs n)) (fun _ _ _ hb _ => (BRow.boson_pos hc hh hb).ne') (C71_gauge hR hh hs hb hr) h h'

/-- What these classes return is also the squared amplitude with an antiquark in place of a quark, and a quark in place of an antiquark. -/
theorem C71_antiparticles {R : BRow} (hR : R ∈ withGluons) (mem : Nat → XR) (junk : Kin XR XC) (par : Nat → XR) (ops : List (ProcOp XR XC)) {c : Constants}
    (hpar : ∀ n q, R.pars[n]? = some (some q) → parAfter R.proc.massPar ops par n = fin (c.get q)) (hc : c.Physical) (hh : c.Heavy)
    {o : Obj XR XC} (ho : o = runProcOps R.proc ops (R.proc.construct mem junk par).2) {q : Mom4 ℝ} (hs : ∀ i : Fin 4, OnShell (legs q i) (R.react.conj.mass c i)) (hb : Balanced (legs q))
    (hr : R.react.conj.Regular c (legs q)) {u : Fin 4 → Fin 3 → Spinor} {ε : Fin 4 → Fin 3 → Vec} (hu : ∀ i, R.react.conj.Complete c (legs q) i (u i) (ε i)) (j : Kin XR XC) (xs : List (MCall XR XC)) (l : Loc XR XC) :
    (R.proc.runSetMomenta j (fun i => (legs q i).toX) o).1 = .ok () ∧
    (R.proc.method l .r R.proc.amp2 [] (runCalls R.proc xs (R.proc.runSetMomenta j (fun i => (legs q i).toX) o).2)).1 = .ok (fin (R.react.conj.squared c (legs q) u ε)) := by
  have hy : ∀ R ∈ withGluons, ∃ i, BRow.heavy (R.react.leg i) = true := by decide
  obtain ⟨hn, h0⟩ := withGluons_fresh R hR
  exact agrees_conj (hy R hR) (withGluons_agrees R hR) mem junk par ops (fun h => absurd h hn) hpar hc hh (by simp [h0]) ho hs hb hr hu j xs l

/-! ### the hypotheses can be met -/

section examples

/-- two gluons of energy 13 make quarks of mass 5 -/
def exPair (i : Nat) : V4 ℝ := if i = 0 then ⟨13, 0, 0, 13⟩ else if i = 1 then ⟨13, 0, 0, -13⟩ else if i = 2 then ⟨13, 12, 0, 0⟩ else ⟨13, -12, 0, 0⟩

example (mem : Nat → XR) (junk : Kin XR XC) (l : Loc XR XC) : ∃ (u : Fin 4 → Fin 3 → Spinor) (ε : Fin 4 → Fin 3 → Vec), (∀ n, Rows.ggdd.react.Complete exMass exPair n (u n) (ε n)) ∧
    (Cls.ggdd.method l .r Cls.ggdd.amp2 [] (Cls.ggdd.runSetMomenta junk (fun i => (exPair i).toX) (Cls.ggdd.construct mem junk fun n => if n = 0 then fin 2 else fin 5).2).2).1 =
    .ok (fin (Rows.ggdd.react.squared exMass exPair u ε)) := by
  have hc := exMass_physical
  have hh := exMass_heavy
  have hb : Balanced exPair := by constructor <;> norm_num [exPair]
  have hs : ∀ i : Fin 4, OnShell (exPair i) (Rows.ggdd.react.mass exMass i) := by
    intro i
    have : Rows.ggdd.react.mass exMass i = (![0, 0, 5, 5] : Fin 4 → ℝ) i := by fin_cases i <;> rfl
    rw [this]
    fin_cases i <;> constructor <;> norm_num [exPair]
  have hr : Rows.ggdd.react.Regular exMass exPair := by
    refine ⟨?_, ?_, ?_⟩
    · intro x h _
      cases h
      show msq (plus (backward (exPair 3)) (exPair 0)) - (5 : ℝ) ^ 2 ≠ 0
      norm_num [msq, plus, exPair, backward]
    · intro x h _
      cases h
      show msq (plus (backward (exPair 3)) (exPair 1)) - (5 : ℝ) ^ 2 ≠ 0
      norm_num [msq, plus, exPair, backward]
    · intro x h1 h2 h
      cases x <;> try first | cases h1 | cases h2
      · have e : breitWigner 0 0 (plus (exPair 0) (exPair 1)) = 0 := h
        norm_num [breitWigner, msq, plus, exPair] at e
        norm_num [Complex.ext_iff] at e
  obtain ⟨u, ε, hu⟩ := C68_states Rows.ggdd.react hc hh hs (by
    intro n h
    fin_cases n
    · norm_num [exPair]
    · norm_num [exPair]
    · norm_num [exPair]
    · norm_num [exPair])
  refine ⟨u, ε, hu, (C71_feynman (R := Rows.ggdd) (by simp [withGluons]) mem junk _ [] (c := exMass) ?_ hc hh (by rw [runProcOps]; rfl) hs hb hr hu junk [] l).2⟩
  intro n q h
  match n with
  | 0 => cases h; rfl
  | 1 => cases h; rfl
  | n + 2 => cases h

end examples

end
end Spinas.Props
