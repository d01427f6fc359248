import Verif.SM.Identical
import Verif.Props.Parity
import Verif.Props.Feynman
import Verif.Props.FeynmanBosons
import Verif.Props.FeynmanFourGluons

/-! C81: exchanging the momenta of two identical particles does not change the squared amplitude (exact arithmetic). -/

namespace Spinas.Props
open SM Spec XR Matrix Process

noncomputable section

/-- the classes with bosons that follow the Feynman rules -/
def bosonRows : List BRow := withBosons ++ withLight ++ withGluons ++ withPhotons ++ [Rows.gggg]

/-- the pairs of identical particles, both coming in (0, 1) or both going out (2, 3): bosons ... -/
def twins : List (String × Fin 4 × Fin 4) := [("eehh", 2, 3), ("ddhh", 2, 3), ("uuhh", 2, 3), ("eeZZ", 2, 3), ("ddZZ", 2, 3), ("uuZZ", 2, 3), ("nnZZ", 2, 3), ("hhhh", 0, 1), ("hhhh", 2, 3), ("ZZZZ", 0, 1), ("ZZZZ", 2, 3),
  ("hhZZ", 0, 1), ("hhZZ", 2, 3), ("hhWW", 0, 1), ("ZZWW", 0, 1), ("WWWW", 0, 1), ("WWWW", 2, 3), ("AAuu", 0, 1), ("AAdd", 0, 1), ("AAee", 0, 1), ("uuAA", 2, 3), ("ddAA", 2, 3), ("eeAA", 2, 3), ("ggdd", 0, 1), ("gguu", 0, 1),
  ("AAWW", 0, 1), ("gggg", 0, 1), ("gggg", 2, 3)]
/-- ... and fermions -/
def fermionTwins : List (String × Fin 4 × Fin 4) := [("eeee2", 0, 1), ("eeee2", 2, 3), ("nenenene2", 0, 1), ("nenenene2", 2, 3), ("dddd2", 0, 1), ("dddd2", 2, 3), ("uuuu2", 0, 1), ("uuuu2", 2, 3)]

/-- The tables list all pairs of identical particles. -/
theorem C81_classes : twins = (bosonRows.flatMap fun R => (beams.filter fun x => decide (R.react.leg x.1 = R.react.leg x.2)).map fun x => (R.proc.name, x)) ∧
    fermionTwins = fourFermion.flatMap fun R => (beams.filter fun x => decide (R.scat.leg x.1 = R.scat.leg x.2)).map fun x => (R.proc.name, x) := by
  refine ⟨by decide +kernel, by decide +kernel⟩

variable [FPEnv]

theorem bosonRows_agrees : ∀ R ∈ bosonRows, R.Agrees := by
  intro R hR
  simp only [bosonRows, List.mem_append, List.mem_singleton] at hR
  rcases hR with (((h | h) | h) | h) | rfl
  · exact withBosons_agrees R h
  · exact withLight_agrees R h
  · exact withGluons_agrees R h
  · exact withPhotons_agrees R h
  · exact Rows.gggg.agrees

variable {mem : Nat → XR} {junk : Kin XR XC} {par : Nat → XR} {ops : List (ProcOp XR XC)} {c : Constants} {o : Obj XR XC} {p : Nat → V4 ℝ} {n m : Fin 4}

/-- C81, bosons: `amp2()` returns the same after `set_momenta` with the momenta of two identical particles exchanged. -/
theorem C81_bosons {R : BRow} (hR : R ∈ bosonRows) (hi : R.react.Identical n m) (h : Ready R mem junk par ops c o p) (j j' : Kin XR XC) :
    (R.proc.runSetMomenta j (fun i => (p i).toX) o).1 = .ok () ∧ (R.proc.runSetMomenta j' (fun i => (exchanged n m p i).toX) o).1 = .ok () ∧
    ∃ x : ℝ, ∀ (xs xs' : List (MCall XR XC)) (l l' : Loc XR XC),
      (R.proc.method l .r R.proc.amp2 [] (runCalls R.proc xs (R.proc.runSetMomenta j (fun i => (p i).toX) o).2)).1 = .ok (fin x) ∧
      (R.proc.method l' .r R.proc.amp2 [] (runCalls R.proc xs' (R.proc.runSetMomenta j' (fun i => (exchanged n m p i).toX) o).2)).1 = .ok (fin x) := by
  have hA := (bosonRows_agrees R hR).2.2
  have hs : ∀ i : Fin 4, OnShell (exchanged n m p i) (R.react.mass c i) := fun i => by
    rw [exchanged_swap, ← hi.mass c i]
    exact h.shell _
  have f := fun xs l => hA mem junk par ops c p _ _ o j xs l h.stale h.pars h.physical h.heavy h.absent h.obj h.shell h.balanced h.regular h.complete
  have g := fun xs l => hA mem junk par ops c (exchanged n m p) _ _ o j' xs l h.stale h.pars h.physical h.heavy h.absent h.obj hs (exchanged_balanced hi.beam h.balanced) (hi.regular_exchange h.balanced h.regular)
    (hi.complete_exchange h.complete)
  rw [hi.squared_exchange h.balanced] at g
  exact ⟨(f [] ⟨fun _ => 0, fun _ => fin 0, fun _ => ofC 0⟩).1, (g [] ⟨fun _ => 0, fun _ => fin 0, fun _ => ofC 0⟩).1, _, fun xs xs' l l' => ⟨(f xs l).2, (g xs' l').2⟩⟩

/-- C81, fermions -/
theorem C81_fermions {R : Row} (hR : R ∈ fourFermion) (hi : R.scat.Identical n m) (hpar : ∀ n q, R.pars[n]? = some (some q) → parAfter R.proc.massPar ops par n = fin (c.get q)) (hc : c.Physical) (hz : none ∈ R.pars → c.WZ = 0)
    (ho : o = runProcOps R.proc ops (R.proc.construct mem junk par).2) (hs : ∀ i : Fin 4, OnShell (p i) (c.mass (R.scat.leg i).flavour)) (hb : Balanced p) (hr : R.scat.Regular c p) (j j' : Kin XR XC) :
    (R.proc.runSetMomenta j (fun i => (p i).toX) o).1 = .ok () ∧ (R.proc.runSetMomenta j' (fun i => (exchanged n m p i).toX) o).1 = .ok () ∧
    ∃ x : ℝ, ∀ (xs xs' : List (MCall XR XC)) (l l' : Loc XR XC),
      (R.proc.method l .r R.proc.amp2 [] (runCalls R.proc xs (R.proc.runSetMomenta j (fun i => (p i).toX) o).2)).1 = .ok (fin x) ∧
      (R.proc.method l' .r R.proc.amp2 [] (runCalls R.proc xs' (R.proc.runSetMomenta j' (fun i => (exchanged n m p i).toX) o).2)).1 = .ok (fin x) := by
  obtain ⟨u, hu⟩ := C65_spinors R.scat hs (BRow.mass_nonneg hc)
  have hs' : ∀ i : Fin 4, OnShell (exchanged n m p i) (c.mass (R.scat.leg i).flavour) := fun i => by
    rw [exchanged_swap, ← hi.same i]
    exact hs _
  have f := fun xs l => C65_feynman hR mem junk par ops hpar hc hz ho hs hb hr hu j xs l
  have g := fun xs l => C65_feynman hR mem junk par ops hpar hc hz ho hs' (exchanged_balanced hi.beam hb) (hi.regular_exchange hb hr) (hi.complete_exchange hu) j' xs l
  rw [hi.squared_exchange hb] at g
  exact ⟨(f [] ⟨fun _ => 0, fun _ => fin 0, fun _ => ofC 0⟩).1, (g [] ⟨fun _ => 0, fun _ => fin 0, fun _ => ofC 0⟩).1, _, fun xs xs' l l' => ⟨(f xs l).2, (g xs' l').2⟩⟩

/-- two photons into an up quark and its antiparticle, with the photons exchanged -/
example (mem : Nat → XR) (junk : Kin XR XC) : ∃ x : ℝ, ∀ l : Loc XR XC,
    (Cls.AAuu.method l .r Cls.AAuu.amp2 [] (Cls.AAuu.runSetMomenta junk (fun i => (exFusion i).toX) (Cls.AAuu.construct mem junk fun n => if n = 0 then fin 1 else fin 5).2).2).1 = .ok (fin x) ∧
    (Cls.AAuu.method l .r Cls.AAuu.amp2 [] (Cls.AAuu.runSetMomenta junk (fun i => (exchanged 0 1 exFusion i).toX) (Cls.AAuu.construct mem junk fun n => if n = 0 then fin 1 else fin 5).2).2).1 = .ok (fin x) := by
  obtain ⟨-, -, x, hx⟩ := C81_bosons (R := Rows.AAuu) (n := 0) (m := 1) (by simp [bosonRows, withLight]) ⟨by decide, rfl⟩ (exFusion_ready mem junk) junk junk
  exact ⟨x, fun l => hx [] [] l l⟩

/-- two down quarks into two down quarks, with those coming in exchanged -/
example (mem : Nat → XR) (junk : Kin XR XC) : ∃ x : ℝ, ∀ l : Loc XR XC,
    (Cls.dddd2.method l .r Cls.dddd2.amp2 [] (Cls.dddd2.runSetMomenta junk (fun i => (exFermions i).toX)
      (Cls.dddd2.construct mem junk fun n => if n = 0 then fin 1 else if n = 1 then fin 2 else if n = 2 ∨ n = 3 then fin 3 else if n = 4 then fin (1 / 10) else if n = 5 then fin 4 else fin (3 / 5)).2).2).1 = .ok (fin x) ∧
    (Cls.dddd2.method l .r Cls.dddd2.amp2 [] (Cls.dddd2.runSetMomenta junk (fun i => (exchanged 0 1 exFermions i).toX)
      (Cls.dddd2.construct mem junk fun n => if n = 0 then fin 1 else if n = 1 then fin 2 else if n = 2 ∨ n = 3 then fin 3 else if n = 4 then fin (1 / 10) else if n = 5 then fin 4 else fin (3 / 5)).2).2).1 = .ok (fin x) := by
  have hc : exConst.Physical := ⟨by norm_num [exConst], by norm_num [exConst], by norm_num [exConst], fun g => by simp [exConst], fun f hf => by simp [exConst, hf]⟩
  have hb : Balanced exFermions := by constructor <;> norm_num [exFermions]
  have hs : ∀ i : Fin 4, OnShell (exFermions i) (exConst.mass (Rows.dddd2.scat.leg i).flavour) := by
    intro i
    have : exConst.mass (Rows.dddd2.scat.leg i).flavour = 3 := by fin_cases i <;> rfl
    rw [this]
    fin_cases i <;> constructor <;> norm_num [exFermions]
  have cw : exConst.CW = 4 / 5 := by
    show √(1 - 3 / 5 * (3 / 5)) = 4 / 5
    rw [show (1 - 3 / 5 * (3 / 5) : ℝ) = (4 / 5) ^ 2 by norm_num]
    exact Real.sqrt_sq (by norm_num)
  have mz : exConst.MZ = 5 := by show exConst.MW / exConst.CW = 5; rw [cw]; norm_num [exConst]
  have ms := Rows.dddd2.scat.msq_scattering (p := exFermions) (by decide) hb
  have q1 : msq (Rows.dddd2.scat.transfer exFermions 2 0) = -32 := by rw [ms.1]; norm_num [SM.VExp.sum, msq, exFermions]
  have q2 : msq (Rows.dddd2.scat.transfer exFermions 2 1) = -32 := by rw [ms.2]; norm_num [SM.VExp.sum, msq, exFermions]
  have bw : ∀ {m w : ℝ} {q : V4 ℝ}, msq q = -32 → breitWigner m w q ≠ 0 := by
    intro m w q hq h
    have := congrArg Complex.re h
    simp only [breitWigner, hq, Complex.zero_re] at this
    nlinarith [sq_nonneg m]
  have c1 : ¬ Rows.dddd2.scat.charged 2 0 3 1 := by decide
  have c2 : ¬ Rows.dddd2.scat.charged 2 1 3 0 := by decide
  have hr : Rows.dddd2.scat.Regular exConst exFermions :=
    ⟨⟨fun _ => ⟨fun _ => by rw [q1]; norm_num, fun _ => ⟨bw q1, fun _ => bw q1⟩⟩, fun h => absurd h.2 c1⟩,
      ⟨fun _ => ⟨fun _ => by rw [q2]; norm_num, fun _ => ⟨bw q2, fun _ => bw q2⟩⟩, fun h => absurd h.2 c2⟩⟩
  obtain ⟨-, -, x, hx⟩ := C81_fermions (R := Rows.dddd2) (n := 0) (m := 1) (mem := mem) (junk := junk) (ops := []) (c := exConst) (par := fun n => if n = 0 then fin 1 else if n = 1 then fin 2 else if n = 2 ∨ n = 3 then fin 3 else if n = 4 then fin (1 / 10) else if n = 5 then fin 4 else fin (3 / 5))
    (by simp [fourFermion]) ⟨by decide, rfl⟩ (by
      intro n q h
      match n with
      | 0 => cases h; rfl
      | 1 => cases h; rfl
      | 2 => cases h; rfl
      | 3 => cases h; rfl
      | 4 => cases h; rfl
      | 5 => cases h; rfl
      | 6 => cases h; rfl
      | 7 => cases h
      | n + 8 => cases h
    ) hc (fun _ => rfl) (by rw [runProcOps]) hs hb hr junk junk
  exact ⟨x, fun l => hx [] [] l l⟩

end
end Spinas.Props
