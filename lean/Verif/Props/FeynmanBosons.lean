import Verif.SM.Bosons.Higgs
import Verif.SM.Bosons.ZHiggs
import Verif.SM.Bosons.WHiggs
import Verif.SM.Bosons.ZZ
import Verif.SM.Bosons.ZZt
import Verif.SM.Bosons.WW
import Verif.SM.Bosons.WWt
import Verif.SM.Bosons.ZW
import Verif.SM.Bosons.FourHiggs
import Verif.SM.Bosons.FourZhWW
import Verif.SM.Bosons.FourZZWW
import Verif.SM.Bosons.FourZWZW
import Verif.SM.Bosons.FourWWWW
import Verif.SM.Bosons.FourWWWW2
import Verif.Props.Feynman

/-! C67: reactions with bosons according to the Feynman rules of the Standard Model (exact arithmetic). -/

namespace Spinas.Props
open SM Spec Spec.Reaction XR Matrix

noncomputable section

variable [FPEnv]

theorem withBosons_agrees : ∀ R ∈ withBosons, R.Agrees := by
  unfold withBosons
  simp only [List.forall_mem_cons, List.not_mem_nil, false_implies, implies_true, and_true]
  exact ⟨Rows.eehh.agrees, Rows.eheh.agrees, Rows.ddhh.agrees, Rows.dhdh.agrees, Rows.uuhh.agrees, Rows.uhuh.agrees, Rows.eeZh.agrees, Rows.ddZh.agrees, Rows.uuZh.agrees, Rows.nnZh.agrees, Rows.eZeh.agrees, Rows.dZdh.agrees, Rows.uZuh.agrees, Rows.nZnh.agrees, Rows.enWh.agrees, Rows.udWh.agrees, Rows.hnWe.agrees, Rows.uhWd.agrees, Rows.eeZZ.agrees, Rows.ddZZ.agrees, Rows.uuZZ.agrees, Rows.nnZZ.agrees, Rows.eZZe.agrees, Rows.dZZd.agrees, Rows.uZZu.agrees, Rows.nZZn.agrees, Rows.eeWW.agrees, Rows.ddWW.agrees, Rows.uuWW.agrees, Rows.eWWe.agrees, Rows.uWWu.agrees, Rows.enZW.agrees, Rows.udZW.agrees, Rows.ZnWe.agrees, Rows.WdZu.agrees, Rows.hhhh.agrees, Rows.ZZZZ.agrees, Rows.hhZZ.agrees, Rows.hZZh.agrees, Rows.hhWW.agrees, Rows.hWWh.agrees, Rows.ZhWW.agrees, Rows.ZWWh.agrees, Rows.ZZWW.agrees, Rows.ZWZW.agrees, Rows.WWWW.agrees, Rows.WWWW2.agrees⟩

/-- C67. `R` is a class with bosons and its process; `c` the constants, given to the constructor or to `set_masses` (`R.pars` says which constant is which parameter); `p` the momenta, `u` any spinors
and `ε` any polarisation vectors with the right completeness relations. -/
theorem C67_feynman {R : BRow} (hR : R ∈ withBosons) (mem : Nat → XR) (junk : Kin XR XC) (par : Nat → XR) (ops : List (ProcOp XR XC)) (hst : R.proc.name ∈ staleMasses → Unset ops) {c : Constants}
    (hpar : ∀ n q, R.pars[n]? = some (some q) → parAfter R.proc.massPar ops par n = fin (c.get q)) (hc : c.Physical) (hh : c.Heavy) (hz : ∀ q ∈ R.absent, c.get q = 0)
    {o : Obj XR XC} (ho : o = runProcOps R.proc ops (R.proc.construct mem junk par).2) {p : Nat → V4 ℝ} (hs : ∀ i : Fin 4, OnShell (p i) (R.react.mass c i)) (hb : Balanced p)
    (hr : R.react.Regular c p) {u : Fin 4 → Fin 3 → Spinor} {ε : Fin 4 → Fin 3 → Vec} (hu : ∀ i, R.react.Complete c p i (u i) (ε i)) (j : Kin XR XC) (xs : List (MCall XR XC)) (l : Loc XR XC) :
    (R.proc.runSetMomenta j (fun i => (p i).toX) o).1 = .ok () ∧
    (R.proc.method l .r R.proc.amp2 [] (runCalls R.proc xs (R.proc.runSetMomenta j (fun i => (p i).toX) o).2)).1 = .ok (fin (R.react.squared c p u ε)) :=
  (withBosons_agrees R hR).2.2 mem junk par ops c p u ε o j xs l hst hpar hc hh hz ho hs hb hr hu

/-- The squared amplitude of the Feynman rules does not depend on the choice of spinors and polarisation vectors ... -/
theorem C67_basis {S : Reaction} (hS : S.allMassive = true) {c : Constants} (hc : c.Physical) (hh : c.Heavy) {p : Nat → V4 ℝ} (hp : ∀ n : Fin 4, OnShell (p n) (S.mass c n)) {u v : Fin 4 → Fin 3 → Spinor}
    {ε η : Fin 4 → Fin 3 → Vec} (h : ∀ n, S.Complete c p n (u n) (ε n)) (h' : ∀ n, S.Complete c p n (v n) (η n)) : S.squared c p u ε = S.squared c p v η :=
  S.squared_basis (fun n => onShell_msq (hp n)) (fun _ b _ hb _ => (BRow.boson_pos hc hh hb).ne') (S.gauge_massive (massive_of hS)) h h'

/-- ... and there are such spinors and vectors. -/
theorem C67_states {S : Reaction} (hS : S.allMassive = true) {c : Constants} (hc : c.Physical) (hh : c.Heavy) {p : Nat → V4 ℝ} (hp : ∀ n : Fin 4, OnShell (p n) (S.mass c n)) :
    ∃ (u : Fin 4 → Fin 3 → Spinor) (ε : Fin 4 → Fin 3 → Vec), ∀ n, S.Complete c p n (u n) (ε n) :=
  ⟨_, _, S.code_complete hp (BRow.leg_nonneg hc hh S) (E := S.codeVec c p) fun n b hl => S.codeVec_polarised hp (BRow.leg_nonneg hc hh S) hl (massive_of hS n b hl) fun _ => (BRow.boson_pos hc hh (massive_of hS n b hl)).ne'⟩

/-! ### the hypotheses can be met -/

section examples

/-- electrons of the mass 5 of the Z; energies 13 -/
def exZ (i : Nat) : V4 ℝ := if i = 0 then ⟨13, 0, 0, 12⟩ else if i = 1 then ⟨13, 0, 0, -12⟩ else if i = 2 then ⟨13, 12, 0, 0⟩ else ⟨13, -12, 0, 0⟩
def exHeavy : Constants := ⟨1, 2, 3 / 5, 4, 1 / 10, 0, 3, 1 / 10, fun f => if f.kind = .neutrino then 0 else 5⟩

/-- annihilation into two Z bosons -/
example (mem : Nat → XR) (junk : Kin XR XC) (l : Loc XR XC) : ∃ (u : Fin 4 → Fin 3 → Spinor) (ε : Fin 4 → Fin 3 → Vec), (∀ n, Rows.eeZZ.react.Complete exHeavy exZ n (u n) (ε n)) ∧
    (Cls.eeZZ.method l .r Cls.eeZZ.amp2 [] (Cls.eeZZ.runSetMomenta junk (fun i => (exZ i).toX)
      (Cls.eeZZ.construct mem junk fun n => if n = 0 then fin 1 else if n = 1 then fin 5 else if n = 2 then fin 3 else if n = 3 then fin (1 / 10) else if n = 4 then fin 4 else if n = 5 then fin (3 / 5) else fin 0).2).2).1 =
    .ok (fin (Rows.eeZZ.react.squared exHeavy exZ u ε)) := by
  have hc : exHeavy.Physical := ⟨by norm_num [exHeavy], by norm_num [exHeavy], by norm_num [exHeavy], fun g => by simp [exHeavy], fun f hf => by simp [exHeavy, hf]⟩
  have hh : exHeavy.Heavy := ⟨by norm_num [exHeavy], by norm_num [exHeavy]⟩
  have cw : exHeavy.CW = 4 / 5 := by
    show √(1 - 3 / 5 * (3 / 5)) = 4 / 5
    rw [show (1 - 3 / 5 * (3 / 5) : ℝ) = (4 / 5) ^ 2 by norm_num]
    exact Real.sqrt_sq (by norm_num)
  have mz : exHeavy.MZ = 5 := by show exHeavy.MW / exHeavy.CW = 5; rw [cw]; norm_num [exHeavy]
  have hb : Balanced exZ := by constructor <;> norm_num [exZ]
  have hs : ∀ i : Fin 4, OnShell (exZ i) (Rows.eeZZ.react.mass exHeavy i) := by
    intro i
    have : Rows.eeZZ.react.mass exHeavy i = 5 := by fin_cases i; exacts [rfl, rfl, mz, mz]
    rw [this]
    fin_cases i <;> constructor <;> norm_num [exZ]
  have hr : Rows.eeZZ.react.Regular exHeavy exZ := by
    refine ⟨?_, ?_, ?_⟩
    · intro x h _
      cases h
      show msq (plus (exZ 0) (backward (exZ 2))) - (5 : ℝ) ^ 2 ≠ 0
      norm_num [msq, plus, exZ, backward]
    · intro x h _
      cases h
      show msq (plus (exZ 0) (backward (exZ 3))) - (5 : ℝ) ^ 2 ≠ 0
      norm_num [msq, plus, exZ, backward]
    · intro x h1 _ h
      cases x <;> first | cases h1 | skip
      have := congrArg Complex.re h
      change msq (plus (backward (exZ 2)) (backward (exZ 3))) - (3 : ℝ) ^ 2 = 0 at this
      norm_num [msq, plus, exZ, backward] at this
  obtain ⟨u, ε, hu⟩ := C67_states (S := Rows.eeZZ.react) (by decide) hc hh hs
  refine ⟨u, ε, hu, (C67_feynman (R := Rows.eeZZ) (by simp [withBosons]) mem junk _ [] (fun _ _ _ => List.not_mem_nil) (c := exHeavy) ?_ hc hh (by simp [Rows.eeZZ]) (by rw [runProcOps]; rfl) hs hb hr hu junk [] l).2⟩
  intro n q h
  match n with
  | 0 => cases h; rfl
  | 1 => cases h; rfl
  | 2 => cases h; rfl
  | 3 => cases h; rfl
  | 4 => cases h; rfl
  | 5 => cases h; rfl
  | 6 => cases h; rfl
  | n + 7 => cases h

/-- W bosons of mass 4, energies 5 -/
def exWW (i : Nat) : V4 ℝ := if i = 0 then ⟨5, 0, 0, 3⟩ else if i = 1 then ⟨5, 0, 0, -3⟩ else if i = 2 then ⟨5, 3, 0, 0⟩ else ⟨5, -3, 0, 0⟩

/-- scattering of W bosons of opposite charge -/
example (mem : Nat → XR) (junk : Kin XR XC) (l : Loc XR XC) : ∃ (u : Fin 4 → Fin 3 → Spinor) (ε : Fin 4 → Fin 3 → Vec), (∀ n, Rows.WWWW2.react.Complete exHeavy exWW n (u n) (ε n)) ∧
    (Cls.WWWW2.method l .r Cls.WWWW2.amp2 [] (Cls.WWWW2.runSetMomenta junk (fun i => (exWW i).toX)
      (Cls.WWWW2.construct mem junk fun n => if n = 0 then fin 1 else if n = 1 then fin 3 else if n = 2 then fin (1 / 10) else if n = 3 then fin 4 else if n = 4 then fin 0 else fin (3 / 5)).2).2).1 =
    .ok (fin (Rows.WWWW2.react.squared exHeavy exWW u ε)) := by
  have hc : exHeavy.Physical := ⟨by norm_num [exHeavy], by norm_num [exHeavy], by norm_num [exHeavy], fun g => by simp [exHeavy], fun f hf => by simp [exHeavy, hf]⟩
  have hh : exHeavy.Heavy := ⟨by norm_num [exHeavy], by norm_num [exHeavy]⟩
  have cw : exHeavy.CW = 4 / 5 := by
    show √(1 - 3 / 5 * (3 / 5)) = 4 / 5
    rw [show (1 - 3 / 5 * (3 / 5) : ℝ) = (4 / 5) ^ 2 by norm_num]
    exact Real.sqrt_sq (by norm_num)
  have mz : exHeavy.MZ = 5 := by show exHeavy.MW / exHeavy.CW = 5; rw [cw]; norm_num [exHeavy]
  have hb : Balanced exWW := by constructor <;> norm_num [exWW]
  have hs : ∀ i : Fin 4, OnShell (exWW i) (Rows.WWWW2.react.mass exHeavy i) := by
    intro i
    have : Rows.WWWW2.react.mass exHeavy i = 4 := by fin_cases i <;> rfl
    rw [this]
    fin_cases i <;> constructor <;> norm_num [exWW]
  have hm : ∀ b : Boson, b ≠ .wPlus → b ≠ .wMinus → exHeavy.bosonMass b ^ 2 < 26 := fun b h1 h2 => by
    cases b <;> first | exact absurd rfl h1 | exact absurd rfl h2 | skip
    · show (3 : ℝ) ^ 2 < 26; norm_num
    · show (0 : ℝ) ^ 2 < 26; norm_num
    · show exHeavy.MZ ^ 2 < 26; rw [mz]; norm_num
    · show (0 : ℝ) ^ 2 < 26; norm_num
  have hr : Rows.WWWW2.react.Regular exHeavy exWW := by
    refine ⟨fun x h1 _ h => ?_, fun x h1 _ h => ?_, fun x h1 _ h => ?_⟩
    · have := congrArg Complex.re h
      have h' := hm x (by rintro rfl; cases h1) (by rintro rfl; cases h1)
      change msq (plus (exWW 0) (exWW 1)) - exHeavy.bosonMass x ^ 2 = 0 at this
      norm_num [msq, plus, exWW, backward] at this
      linarith
    · have := congrArg Complex.re h
      have h' := sq_nonneg (exHeavy.bosonMass x)
      change msq (plus (exWW 0) (backward (exWW 2))) - exHeavy.bosonMass x ^ 2 = 0 at this
      norm_num [msq, plus, exWW, backward] at this
      linarith
    · have := congrArg Complex.re h
      have h' := sq_nonneg (exHeavy.bosonMass x)
      change msq (plus (exWW 0) (backward (exWW 3))) - exHeavy.bosonMass x ^ 2 = 0 at this
      norm_num [msq, plus, exWW, backward] at this
      linarith
  obtain ⟨u, ε, hu⟩ := C67_states (S := Rows.WWWW2.react) (by decide) hc hh hs
  refine ⟨u, ε, hu, (C67_feynman (R := Rows.WWWW2) (by simp [withBosons]) mem junk _ [] (fun _ _ _ => List.not_mem_nil) (c := exHeavy) ?_ hc hh (by simp [Rows.WWWW2, Constants.get, exHeavy]) (by rw [runProcOps]; rfl) hs hb hr hu junk [] l).2⟩
  intro n q h
  match n with
  | 0 => cases h; rfl
  | 1 => cases h; rfl
  | 2 => cases h; rfl
  | 3 => cases h; rfl
  | 4 => cases h; rfl
  | 5 => cases h; rfl
  | n + 6 => cases h

end examples

end
end Spinas.Props
