import Verif.SM.Bosons.PhotonWh
import Verif.SM.Bosons.PhotonWW
import Verif.SM.Bosons.PhotonZW
import Verif.Props.Antiparticles

/-! C72: reactions of four bosons with photons according to the Feynman rules of the Standard Model (exact arithmetic). -/

namespace Spinas.Props
open SM Spec Spec.Reaction XR Matrix Process

noncomputable section

variable [FPEnv]

theorem withPhotons_agrees : ∀ R ∈ withPhotons, R.Agrees := by
  unfold withPhotons
  simp only [List.forall_mem_cons, List.not_mem_nil, false_implies, implies_true, and_true]
  exact ⟨Rows.AhWW.agrees, Rows.AWWh.agrees, Rows.AAWW.agrees, Rows.AWAW.agrees, Rows.AZWW.agrees, Rows.AWZW.agrees⟩

omit [FPEnv] in
theorem withPhotons_absent : ∀ R ∈ withPhotons, R.absent = [.WW] := by
  unfold withPhotons
  simp only [List.forall_mem_cons, List.not_mem_nil, false_implies, implies_true, and_true]
  exact ⟨rfl, rfl, rfl, rfl, rfl, rfl⟩

/-- C72. As C68, for classes with four bosons of which one or two are photons. The W boson has no width: with one the amplitude would depend on the gauge of the photons. -/
theorem C72_feynman {R : BRow} (hR : R ∈ withPhotons) (mem : Nat → XR) (junk : Kin XR XC) (par : Nat → XR) (ops : List (ProcOp XR XC)) (hst : R.proc.name ∈ staleMasses → Unset ops) {c : Constants}
    (hpar : ∀ n q, R.pars[n]? = some (some q) → parAfter R.proc.massPar ops par n = fin (c.get q)) (hc : c.Physical) (hh : c.Heavy) (hz : c.WW = 0)
    {o : Obj XR XC} (ho : o = runProcOps R.proc ops (R.proc.construct mem junk par).2) {p : Nat → V4 ℝ} (hs : ∀ i : Fin 4, OnShell (p i) (R.react.mass c i)) (hb : Balanced p)
    (hr : R.react.Regular c p) {u : Fin 4 → Fin 3 → Spinor} {ε : Fin 4 → Fin 3 → Vec} (hu : ∀ i, R.react.Complete c p i (u i) (ε i)) (j : Kin XR XC) (xs : List (MCall XR XC)) (l : Loc XR XC) :
    (R.proc.runSetMomenta j (fun i => (p i).toX) o).1 = .ok () ∧
    (R.proc.method l .r R.proc.amp2 [] (runCalls R.proc xs (R.proc.runSetMomenta j (fun i => (p i).toX) o).2)).1 = .ok (fin (R.react.squared c p u ε)) :=
  (withPhotons_agrees R hR).2.2 mem junk par ops c p u ε o j xs l hst hpar hc hh (by rw [withPhotons_absent R hR]; intro q h; rw [List.mem_singleton.1 h]; exact hz) ho hs hb hr hu

/-- The amplitudes of the Feynman rules for these reactions vanish if the polarisation vector of a photon is replaced by its momentum ... -/
theorem C72_gauge {R : BRow} (hR : R ∈ withPhotons) {c : Constants} (hh : c.Heavy) (hz : c.WW = 0) {p : Nat → V4 ℝ} (hs : ∀ i : Fin 4, OnShell (p i) (R.react.mass c i))
    (hb : Balanced p) (hr : R.react.Regular c p) : R.react.Gauge c p := by
  revert hs hr
  revert R
  unfold withPhotons
  simp only [List.forall_mem_cons, List.not_mem_nil, false_implies, implies_true, and_true]
  have h := hh.MW.ne'
  exact ⟨fun hs hr => Rows.AhWW.gauge h hz (fun n => onShell_msq (hs n)) hr, fun hs hr => Rows.AWWh.gauge h hz (fun n => onShell_msq (hs n)) hr, fun hs hr => Rows.AAWW.gauge h hz hb (fun n => onShell_msq (hs n)) hr,
    fun hs hr => Rows.AWAW.gauge h hz hb (fun n => onShell_msq (hs n)) hr, fun hs hr => Rows.AZWW.gauge h hz hb (fun n => onShell_msq (hs n)) hr, fun hs hr => Rows.AWZW.gauge h hz hb (fun n => onShell_msq (hs n)) hr⟩

/-- ... hence the squared amplitude does not depend on the choice of polarisation vectors, nor on their gauge. -/
theorem C72_basis {R : BRow} (hR : R ∈ withPhotons) {c : Constants} (hc : c.Physical) (hh : c.Heavy) (hz : c.WW = 0) {p : Nat → V4 ℝ} (hs : ∀ i : Fin 4, OnShell (p i) (R.react.mass c i))
    (hb : Balanced p) (hr : R.react.Regular c p) {u v : Fin 4 → Fin 3 → Spinor} {ε η : Fin 4 → Fin 3 → Vec} (h : ∀ n, R.react.Complete c p n (u n) (ε n)) (h' : ∀ n, R.react.Complete c p n (v n) (η n)) :
    R.react.squared c p u ε = R.react.squared c p v η :=
  R.react.squared_basis (fun n => onShell_msq (hs n)) (fun _ _ _ hb _ => (BRow.boson_pos hc hh hb).ne') (C72_gauge hR hh hz hs hb hr) h h'

omit [FPEnv] in
theorem withPhotons_heavy : ∀ R ∈ withPhotons, ∃ i, BRow.heavy (R.react.leg i) = true := by decide

/-- What these classes return is also the squared amplitude with the two W bosons exchanged for their antiparticles. -/
theorem C72_antiparticles {R : BRow} (hR : R ∈ withPhotons) (mem : Nat → XR) (junk : Kin XR XC) (par : Nat → XR) (ops : List (ProcOp XR XC)) (hst : R.proc.name ∈ staleMasses → Unset ops) {c : Constants}
    (hpar : ∀ n q, R.pars[n]? = some (some q) → parAfter R.proc.massPar ops par n = fin (c.get q)) (hc : c.Physical) (hh : c.Heavy) (hz : c.WW = 0)
    {o : Obj XR XC} (ho : o = runProcOps R.proc ops (R.proc.construct mem junk par).2) {q : Mom4 ℝ} (hs : ∀ i : Fin 4, OnShell (legs q i) (R.react.conj.mass c i)) (hb : Balanced (legs q))
    (hr : R.react.conj.Regular c (legs q)) {u : Fin 4 → Fin 3 → Spinor} {ε : Fin 4 → Fin 3 → Vec} (hu : ∀ i, R.react.conj.Complete c (legs q) i (u i) (ε i)) (j : Kin XR XC) (xs : List (MCall XR XC)) (l : Loc XR XC) :
    (R.proc.runSetMomenta j (fun i => (legs q i).toX) o).1 = .ok () ∧
    (R.proc.method l .r R.proc.amp2 [] (runCalls R.proc xs (R.proc.runSetMomenta j (fun i => (legs q i).toX) o).2)).1 = .ok (fin (R.react.conj.squared c (legs q) u ε)) :=
  agrees_conj (withPhotons_heavy R hR) (withPhotons_agrees R hR) mem junk par ops hst hpar hc hh (by rw [withPhotons_absent R hR]; intro q h; rw [List.mem_singleton.1 h]; exact hz) ho hs hb hr hu j xs l

/-! ### the hypotheses can be met -/

section examples

def exNarrow : Constants := ⟨1, 2, 3 / 5, 4, 0, 0, 3, 1 / 10, fun f => if f.kind = .neutrino then 0 else 5⟩

omit [FPEnv] in
theorem exNarrow_physical : exNarrow.Physical := ⟨by norm_num [exNarrow], by norm_num [exNarrow], by norm_num [exNarrow], fun g => by simp [exNarrow], fun f hf => by simp [exNarrow, hf]⟩
omit [FPEnv] in
theorem exNarrow_heavy : exNarrow.Heavy := ⟨by norm_num [exNarrow], by norm_num [exNarrow]⟩

/-- two photons of energy 5 make W bosons of mass 4 -/
def exWPair (i : Nat) : V4 ℝ := if i = 0 then ⟨5, 0, 0, 5⟩ else if i = 1 then ⟨5, 0, 0, -5⟩ else if i = 2 then ⟨5, 3, 0, 0⟩ else ⟨5, -3, 0, 0⟩

example (mem : Nat → XR) (junk : Kin XR XC) (l : Loc XR XC) : ∃ (u : Fin 4 → Fin 3 → Spinor) (ε : Fin 4 → Fin 3 → Vec), (∀ n, Rows.AAWW.react.Complete exNarrow exWPair n (u n) (ε n)) ∧
    (Cls.AAWW.method l .r Cls.AAWW.amp2 [] (Cls.AAWW.runSetMomenta junk (fun i => (exWPair i).toX)
      (Cls.AAWW.construct mem junk fun n => if n = 0 then fin 1 else if n = 1 then fin 4 else if n = 2 then fin (3 / 5) else fin 0).2).2).1 =
    .ok (fin (Rows.AAWW.react.squared exNarrow exWPair u ε)) := by
  have hc := exNarrow_physical
  have hh := exNarrow_heavy
  have hb : Balanced exWPair := by constructor <;> norm_num [exWPair]
  have hs : ∀ i : Fin 4, OnShell (exWPair i) (Rows.AAWW.react.mass exNarrow i) := by
    intro i
    have : Rows.AAWW.react.mass exNarrow i = (![0, 0, 4, 4] : Fin 4 → ℝ) i := by fin_cases i <;> rfl
    rw [this]
    fin_cases i <;> constructor <;> norm_num [exWPair]
  have hr : Rows.AAWW.react.Regular exNarrow exWPair := by
    refine ⟨fun x h1 h2 h => ?_, fun x h1 h2 h => ?_, fun x h1 h2 h => ?_⟩
    · cases x <;> first | cases h1 | cases h2
    · cases x <;> first | cases h1 | cases h2 | skip
      have := congrArg Complex.re h
      change msq (plus (exWPair 0) (backward (exWPair 2))) - (4 : ℝ) ^ 2 = 0 at this
      norm_num [msq, plus, exWPair, backward] at this
    · cases x <;> first | cases h1 | cases h2 | skip
      have := congrArg Complex.re h
      change msq (plus (exWPair 0) (backward (exWPair 3))) - (4 : ℝ) ^ 2 = 0 at this
      norm_num [msq, plus, exWPair, backward] at this
  obtain ⟨u, ε, hu⟩ := C68_states Rows.AAWW.react hc hh hs (by
    intro n h
    fin_cases n
    · norm_num [exWPair]
    · norm_num [exWPair]
    · norm_num [exWPair]
    · norm_num [exWPair])
  refine ⟨u, ε, hu, (C72_feynman (R := Rows.AAWW) (by simp [withPhotons]) mem junk _ [] (fun _ _ _ => List.not_mem_nil) (c := exNarrow) ?_ hc hh rfl (by rw [runProcOps]; rfl) hs hb hr hu junk [] l).2⟩
  intro n q h
  match n with
  | 0 => cases h; rfl
  | 1 => cases h; rfl
  | 2 => cases h; rfl
  | 3 => cases h; rfl
  | n + 4 => cases h

end examples

end
end Spinas.Props
