import Verif.SM.Bosons.PhotonHiggsE
import Verif.SM.Bosons.NeutrinoWW
import Verif.Props.FeynmanLight

/-! C69: the classes for electrons with a photon and a Higgs boson, and for neutrinos with W bosons, according to the Feynman rules of the Standard Model (exact arithmetic). -/

namespace Spinas.Props
open SM Spec Spec.Reaction XR Matrix

noncomputable section

variable [FPEnv]

/-- C69. As C68, for the classes with the parameter `vev`: what they return is right if `vev` is `2 MW sin θ / e`. -/
theorem C69_vev {R : BRow} (hR : R ∈ [Rows.eeAh, Rows.eAeh]) (mem : Nat → XR) (junk : Kin XR XC) (par : Nat → XR) (ops : List (ProcOp XR XC)) {c : Constants} {v : ℝ}
    (hpar : ∀ n q, R.pars[n]? = some (some q) → parAfter R.proc.massPar ops par n = fin (c.get q)) (hv : parAfter R.proc.massPar ops par 3 = fin v) (hve : v * c.e = 2 * c.MW * c.SW) (hc : c.Physical) (hh : c.Heavy)
    {o : Obj XR XC} (ho : o = runProcOps R.proc ops (R.proc.construct mem junk par).2) {p : Nat → V4 ℝ} (hs : ∀ i : Fin 4, OnShell (p i) (R.react.mass c i)) (hb : Balanced p)
    (hr : R.react.Regular c p) {u : Fin 4 → Fin 3 → Spinor} {ε : Fin 4 → Fin 3 → Vec} (hu : ∀ i, R.react.Complete c p i (u i) (ε i)) (j : Kin XR XC) (xs : List (MCall XR XC)) (l : Loc XR XC) :
    (R.proc.runSetMomenta j (fun i => (p i).toX) o).1 = .ok () ∧
    (R.proc.method l .r R.proc.amp2 [] (runCalls R.proc xs (R.proc.runSetMomenta j (fun i => (p i).toX) o).2)).1 = .ok (fin (R.react.squared c p u ε)) := by
  have h3 : ∀ R ∈ [Rows.eeAh, Rows.eAeh], R.AgreesVev ∧ R.proc.name ∉ staleMasses ∧ ∀ n, R.pars[n]? = some none → n = 3 := by
    simp only [List.forall_mem_cons, List.not_mem_nil, false_implies, implies_true, and_true]
    refine ⟨⟨Rows.eeAh.agrees, by decide, fun n h => ?_⟩, ⟨Rows.eAeh.agrees, by decide, fun n h => ?_⟩⟩ <;>
    · match n with
      | 0 | 1 | 2 => cases h
      | 3 => rfl
      | n + 4 => cases h
  obtain ⟨ha, hn, h3⟩ := h3 R hR
  exact ha mem junk par ops c v p u ε o j xs l (fun h => absurd h hn) hpar (fun n h => h3 n h ▸ hv) hve hc hh ho hs hb hr hu

/-- for these the amplitudes vanish if the polarisation vector of the photon is replaced by its momentum, so that the squared amplitude does not depend on the gauge -/
theorem C69_basis {R : BRow} (hR : R ∈ [Rows.eeAh, Rows.eAeh]) {c : Constants} (hc : c.Physical) (hh : c.Heavy) {p : Nat → V4 ℝ} (hs : ∀ i : Fin 4, OnShell (p i) (R.react.mass c i))
    (hb : Balanced p) (hr : R.react.Regular c p) {u v : Fin 4 → Fin 3 → Spinor} {ε η : Fin 4 → Fin 3 → Vec} (h : ∀ n, R.react.Complete c p n (u n) (ε n)) (h' : ∀ n, R.react.Complete c p n (v n) (η n)) :
    R.react.squared c p u ε = R.react.squared c p v η := by
  have hl : ∀ R ∈ [Rows.eeAh, Rows.eAeh], (∃ i j a b : Fin 4, lineOf R.react i j a b = true) ∧ ∀ n, ¬(R.react.boson n = .wPlus ∨ R.react.boson n = .wMinus) := by
    simp only [List.forall_mem_cons, List.not_mem_nil, false_implies, implies_true, and_true]
    exact ⟨⟨⟨1, 0, 2, 3, by decide⟩, by decide⟩, ⟨⟨2, 0, 1, 3, by decide⟩, by decide⟩⟩
  obtain ⟨⟨i, j, a, b, h0⟩, hw⟩ := hl R hR
  obtain ⟨h1, h2, h3, h4, h5, h6⟩ := of_decide_eq_true h0
  refine R.react.squared_basis (fun n => onShell_msq (hs n)) (fun _ b _ hb _ => (BRow.boson_pos hc hh hb).ne') ?_ h h'
  exact gauge_line h1 h2 h3 hh h4 (fun n => onShell_msq (hs n)) hb hr (fun n m hn hm => absurd hm (hw n)) h5 h6

/-- C69. For the classes with neutrinos and W bosons the mass of the electron is 0 after the constructor, whatever its argument, and the argument of `set_masses` once that has been called. -/
theorem C69_neutrino {R : BRow} (hR : R ∈ [Rows.nnWW, Rows.nWWn]) (mem : Nat → XR) (junk : Kin XR XC) (par : Nat → XR) (ops : List (ProcOp XR XC)) {c : Constants}
    (hpar : ∀ n q, R.pars[n]? = some (some q) → n ≠ 1 → parAfter R.proc.massPar ops par n = fin (c.get q)) (h0 : Unset ops → c.mass .e = 0)
    (h1 : ¬Unset ops → parAfter R.proc.massPar ops par 1 = fin (c.mass .e)) (hc : c.Weak) (hh : c.Heavy)
    {o : Obj XR XC} (ho : o = runProcOps R.proc ops (R.proc.construct mem junk par).2) {p : Nat → V4 ℝ} (hs : ∀ i : Fin 4, OnShell (p i) (R.react.mass c i)) (hb : Balanced p)
    (hr : R.react.Regular c p) {u : Fin 4 → Fin 3 → Spinor} {ε : Fin 4 → Fin 3 → Vec} (hu : ∀ i, R.react.Complete c p i (u i) (ε i)) (j : Kin XR XC) (xs : List (MCall XR XC)) (l : Loc XR XC) :
    (R.proc.runSetMomenta j (fun i => (p i).toX) o).1 = .ok () ∧
    (R.proc.method l .r R.proc.amp2 [] (runCalls R.proc xs (R.proc.runSetMomenta j (fun i => (p i).toX) o).2)).1 = .ok (fin (R.react.squared c p u ε)) := by
  have ha : ∀ R ∈ [Rows.nnWW, Rows.nWWn], R.AgreesElectron := by
    simp only [List.forall_mem_cons, List.not_mem_nil, false_implies, implies_true, and_true]
    exact ⟨Rows.nnWW.agrees, Rows.nWWn.agrees⟩
  exact ha R hR mem junk par ops c p u ε o j xs l hpar h0 h1 hc hh ho hs hb hr hu

theorem C69_states {R : BRow} (hR : R ∈ [Rows.nnWW, Rows.nWWn]) {c : Constants} (hc : c.Weak) (hh : c.Heavy) {p : Nat → V4 ℝ} (hp : ∀ n : Fin 4, OnShell (p n) (R.react.mass c n)) :
    ∃ (u : Fin 4 → Fin 3 → Spinor) (ε : Fin 4 → Fin 3 → Vec), ∀ n, R.react.Complete c p n (u n) (ε n) := by
  have h0 : ∀ R ∈ [Rows.nnWW, Rows.nWWn], (∀ n, 0 ≤ R.react.mass c n) ∧ R.react.allMassive = true := by
    simp only [List.forall_mem_cons, List.not_mem_nil, false_implies, implies_true, and_true]
    constructor <;> refine ⟨fun n => ?_, by decide⟩ <;> fin_cases n <;> first | exact hh.MW.le | exact (hc.neutrino _).ge
  obtain ⟨h0, hS⟩ := h0 R hR
  exact ⟨_, _, R.react.code_complete hp h0 (E := R.react.codeVec c p) fun n b hl => R.react.codeVec_polarised hp h0 hl (massive_of hS n b hl) fun _ => (hc.boson_pos hh (massive_of hS n b hl)).ne'⟩

/-! ### the hypotheses can be met -/

section examples

/-- electrons of mass 5 and energy 13 make a photon and a Higgs boson of mass 3 -/
def exAh (i : Nat) : V4 ℝ := if i = 0 then ⟨13, 0, 0, 12⟩ else if i = 1 then ⟨13, 0, 0, -12⟩ else if i = 2 then ⟨667 / 52, 667 / 52, 0, 0⟩ else ⟨685 / 52, -667 / 52, 0, 0⟩

/-- here `vev` is 24/5 -/
example (mem : Nat → XR) (junk : Kin XR XC) (l : Loc XR XC) : ∃ (u : Fin 4 → Fin 3 → Spinor) (ε : Fin 4 → Fin 3 → Vec), (∀ n, Rows.eeAh.react.Complete exMass exAh n (u n) (ε n)) ∧
    (Cls.eeAh.method l .r Cls.eeAh.amp2 [] (Cls.eeAh.runSetMomenta junk (fun i => (exAh i).toX) (Cls.eeAh.construct mem junk fun n => if n = 0 then fin 1 else if n = 1 then fin 5 else if n = 2 then fin 3 else fin (24 / 5)).2).2).1 =
    .ok (fin (Rows.eeAh.react.squared exMass exAh u ε)) := by
  have hc := exMass_physical
  have hh := exMass_heavy
  have hb : Balanced exAh := by constructor <;> norm_num [exAh]
  have hs : ∀ i : Fin 4, OnShell (exAh i) (Rows.eeAh.react.mass exMass i) := by
    intro i
    have : Rows.eeAh.react.mass exMass i = (![5, 5, 0, 3] : Fin 4 → ℝ) i := by fin_cases i <;> rfl
    rw [this]
    fin_cases i <;> constructor <;> norm_num [exAh]
  have hr : Rows.eeAh.react.Regular exMass exAh := by
    refine ⟨?_, ?_, ?_⟩
    · intro x h _
      cases h
      show msq (plus (exAh 0) (backward (exAh 2))) - (5 : ℝ) ^ 2 ≠ 0
      norm_num [msq, plus, exAh, backward]
    · intro x h _
      cases h
      show msq (plus (exAh 0) (backward (exAh 3))) - (5 : ℝ) ^ 2 ≠ 0
      norm_num [msq, plus, exAh, backward]
    · intro x h1 h2 h
      cases x <;> cases h1
  obtain ⟨u, ε, hu⟩ := C68_states Rows.eeAh.react hc hh hs (by intro n h; fin_cases n <;> norm_num [exAh])
  refine ⟨u, ε, hu, (C69_vev (R := Rows.eeAh) (by simp) mem junk _ [] (c := exMass) (v := 24 / 5) ?_ rfl (by norm_num [exMass]) hc hh (by rw [runProcOps]; rfl) hs hb hr hu junk [] l).2⟩
  intro n q h
  match n with
  | 0 => cases h; rfl
  | 1 => cases h; rfl
  | 2 => cases h; rfl
  | 3 => cases h
  | n + 4 => cases h

/-- neutrinos of energy 5 make W bosons of mass 4 -/
def exNuWW (i : Nat) : V4 ℝ := if i = 0 then ⟨5, 0, 0, 5⟩ else if i = 1 then ⟨5, 0, 0, -5⟩ else if i = 2 then ⟨5, 3, 0, 0⟩ else ⟨5, -3, 0, 0⟩
/-- no fermion has a mass -/
def exNoMass : Constants := { exMass with mass := fun _ => 0 }

omit [FPEnv] in
theorem exNuWW_regular {c : Constants} (hMW : c.MW = 4) (hSW : c.SW = 3 / 5) (hMH : c.MH = 3) : Rows.nnWW.react.Regular c exNuWW := by
  have cw : c.CW = 4 / 5 := by
    show √(1 - c.SW * c.SW) = 4 / 5
    rw [hSW, show (1 - 3 / 5 * (3 / 5) : ℝ) = (4 / 5) ^ 2 by norm_num]
    exact Real.sqrt_sq (by norm_num)
  have mz : c.MZ = 5 := by show c.MW / c.CW = 5; rw [cw, hMW]; norm_num
  refine ⟨?_, ?_, ?_⟩
  · intro x h _
    cases h
    have := sq_nonneg (c.mass .e)
    show msq (plus (exNuWW 0) (backward (exNuWW 2))) - (c.mass .e) ^ 2 ≠ 0
    norm_num [msq, plus, exNuWW, backward]
    linarith
  · intro x h _
    cases h
  · intro x h1 _ h
    have := congrArg Complex.re h
    have h' : c.bosonMass x ^ 2 < 100 := by
      cases x <;> first | cases h1 | skip
      · show c.MH ^ 2 < 100; rw [hMH]; norm_num
      · show (0 : ℝ) ^ 2 < 100; norm_num
      · show c.MZ ^ 2 < 100; rw [mz]; norm_num
    change msq (plus (backward (exNuWW 2)) (backward (exNuWW 3))) - c.bosonMass x ^ 2 = 0 at this
    norm_num [msq, plus, exNuWW, backward] at this
    linarith

omit [FPEnv] in
theorem exNuWW_onShell {c : Constants} (hMW : c.MW = 4) (hn : ∀ g, c.mass ⟨.neutrino, g⟩ = 0) (i : Fin 4) : OnShell (exNuWW i) (Rows.nnWW.react.mass c i) := by
  have : Rows.nnWW.react.mass c i = (![0, 0, 4, 4] : Fin 4 → ℝ) i := by fin_cases i; exacts [hn _, hn _, hMW, hMW]
  rw [this]
  fin_cases i <;> constructor <;> norm_num [exNuWW]

/-- the constructor is given a mass of 7 for the electron, to no effect ... -/
example (mem : Nat → XR) (junk : Kin XR XC) (l : Loc XR XC) : ∃ (u : Fin 4 → Fin 3 → Spinor) (ε : Fin 4 → Fin 3 → Vec), (∀ n, Rows.nnWW.react.Complete exNoMass exNuWW n (u n) (ε n)) ∧
    (Cls.nnWW.method l .r Cls.nnWW.amp2 [] (Cls.nnWW.runSetMomenta junk (fun i => (exNuWW i).toX)
      (Cls.nnWW.construct mem junk fun n => if n = 0 then fin 1 else if n = 1 then fin 7 else if n = 2 then fin 4 else if n = 3 then fin (3 / 5) else fin 0).2).2).1 =
    .ok (fin (Rows.nnWW.react.squared exNoMass exNuWW u ε)) := by
  have hc : exNoMass.Weak := ⟨by norm_num [exNoMass, exMass], by norm_num [exNoMass, exMass], by norm_num [exNoMass, exMass], fun _ => rfl⟩
  have hh : exNoMass.Heavy := ⟨by norm_num [exNoMass, exMass], by norm_num [exNoMass, exMass]⟩
  have hs := exNuWW_onShell (c := exNoMass) rfl hc.neutrino
  obtain ⟨u, ε, hu⟩ := C69_states (R := Rows.nnWW) (by simp) hc hh hs
  refine ⟨u, ε, hu, (C69_neutrino (R := Rows.nnWW) (by simp) mem junk _ [] (c := exNoMass) ?_ (fun _ => rfl) (fun h => absurd (fun _ _ => List.not_mem_nil) h) hc hh (by rw [runProcOps]; rfl) hs
    (by constructor <;> norm_num [exNuWW]) (exNuWW_regular rfl rfl rfl) hu junk [] l).2⟩
  intro n q h h1
  match n with
  | 0 => cases h; rfl
  | 1 => exact absurd rfl h1
  | 2 => cases h; rfl
  | 3 => cases h; rfl
  | 4 => cases h; rfl
  | n + 5 => cases h

/-- ... and then `set_masses` a mass of 5. -/
example (mem : Nat → XR) (junk : Kin XR XC) (l : Loc XR XC) : ∃ (u : Fin 4 → Fin 3 → Spinor) (ε : Fin 4 → Fin 3 → Vec), (∀ n, Rows.nnWW.react.Complete exMass exNuWW n (u n) (ε n)) ∧
    (Cls.nnWW.method l .r Cls.nnWW.amp2 [] (Cls.nnWW.runSetMomenta junk (fun i => (exNuWW i).toX)
      (Cls.nnWW.runSetMasses junk (fun n => if n = 0 then fin 5 else fin 4) (Cls.nnWW.construct mem junk fun n => if n = 0 then fin 1 else if n = 1 then fin 7 else if n = 2 then fin 4 else if n = 3 then fin (3 / 5) else fin 0).2).2).2).1 =
    .ok (fin (Rows.nnWW.react.squared exMass exNuWW u ε)) := by
  have hc := exMass_physical.weak
  have hh := exMass_heavy
  have hs := exNuWW_onShell (c := exMass) rfl hc.neutrino
  obtain ⟨u, ε, hu⟩ := C69_states (R := Rows.nnWW) (by simp) hc hh hs
  refine ⟨u, ε, hu, (C69_neutrino (R := Rows.nnWW) (by simp) mem junk _ [.setMasses junk fun n => if n = 0 then fin 5 else fin 4] (c := exMass) ?_ (fun h => absurd List.mem_cons_self (h _ _)) (fun _ => rfl) hc hh
    (by rw [runProcOps, runProcOps, ProcOp.run]; rfl) hs (by constructor <;> norm_num [exNuWW]) (exNuWW_regular rfl rfl rfl) hu junk [] l).2⟩
  intro n q h h1
  match n with
  | 0 => cases h; rfl
  | 1 => exact absurd rfl h1
  | 2 => cases h; rfl
  | 3 => cases h; rfl
  | 4 => cases h; rfl
  | n + 5 => cases h

end examples

end
end Spinas.Props
