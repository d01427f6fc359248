import Verif.SM.Bosons.PhotonHiggs
import Verif.SM.Bosons.GluonHiggs
import Verif.SM.Bosons.Photons
import Verif.SM.Bosons.PhotonsOut
import Verif.SM.Bosons.Compton
import Verif.SM.Bosons.PhotonZ
import Verif.SM.Bosons.PhotonZt
import Verif.SM.Bosons.PhotonW
import Verif.SM.Bosons.PhotonWud
import Verif.SM.Bosons.GluonPhoton
import Verif.SM.Bosons.GluonPhotonIn
import Verif.SM.Bosons.GluonZ
import Verif.SM.Bosons.GluonZt
import Verif.SM.Bosons.GluonW
import Verif.Props.Feynman

/-! C68: reactions of two fermions with photons and gluons according to the Feynman rules of the Standard Model (exact arithmetic). -/

namespace Spinas.Props
open SM Spec Spec.Reaction XR Matrix

noncomputable section

variable [FPEnv]

theorem withLight_agrees : ∀ R ∈ withLight, R.Agrees := by
  unfold withLight
  simp only [List.forall_mem_cons, List.not_mem_nil, false_implies, implies_true, and_true]
  exact ⟨Rows.uuAh.agrees, Rows.ddAh.agrees, Rows.uAuh.agrees, Rows.dAdh.agrees, Rows.AAuu.agrees, Rows.AAdd.agrees, Rows.AAee.agrees, Rows.uAAu.agrees, Rows.dAAd.agrees, Rows.eAAe.agrees, Rows.uuAA.agrees, Rows.ddAA.agrees, Rows.eeAA.agrees, Rows.AZuu.agrees, Rows.AZdd.agrees, Rows.AZee.agrees, Rows.AuZu.agrees, Rows.AdZd.agrees, Rows.AeZe.agrees, Rows.AnWe.agrees, Rows.enAW.agrees, Rows.AWud.agrees, Rows.udAW.agrees, Rows.dgdh.agrees, Rows.uguh.agrees, Rows.hgdd.agrees, Rows.hguu.agrees, Rows.dAgd.agrees, Rows.guAu.agrees, Rows.gAdd.agrees, Rows.gAuu.agrees, Rows.gZdd.agrees, Rows.gZuu.agrees, Rows.gdZd.agrees, Rows.guZu.agrees, Rows.gWud.agrees, Rows.dWgu.agrees⟩

/-- C68. As C67, for classes with photons and gluons. -/
theorem C68_feynman {R : BRow} (hR : R ∈ withLight) (mem : Nat → XR) (junk : Kin XR XC) (par : Nat → XR) (ops : List (ProcOp XR XC)) (hst : R.proc.name ∈ staleMasses → Unset ops) {c : Constants}
    (hpar : ∀ n q, R.pars[n]? = some (some q) → parAfter R.proc.massPar ops par n = fin (c.get q)) (hc : c.Physical) (hh : c.Heavy) (hz : ∀ q ∈ R.absent, c.get q = 0)
    {o : Obj XR XC} (ho : o = runProcOps R.proc ops (R.proc.construct mem junk par).2) {p : Nat → V4 ℝ} (hs : ∀ i : Fin 4, OnShell (p i) (R.react.mass c i)) (hb : Balanced p)
    (hr : R.react.Regular c p) {u : Fin 4 → Fin 3 → Spinor} {ε : Fin 4 → Fin 3 → Vec} (hu : ∀ i, R.react.Complete c p i (u i) (ε i)) (j : Kin XR XC) (xs : List (MCall XR XC)) (l : Loc XR XC) :
    (R.proc.runSetMomenta j (fun i => (p i).toX) o).1 = .ok () ∧
    (R.proc.method l .r R.proc.amp2 [] (runCalls R.proc xs (R.proc.runSetMomenta j (fun i => (p i).toX) o).2)).1 = .ok (fin (R.react.squared c p u ε)) :=
  (withLight_agrees R hR).2.2 mem junk par ops c p u ε o j xs l hst hpar hc hh hz ho hs hb hr hu

/-! ### spin states -/

/-- a fermion line from leg `j` to leg `i` with the bosons `a` and `b`, of which the massless ones do not change the flavour -/
def lineOf (S : Reaction) (i j a b : Fin 4) : Bool :=
  decide (S.ends = [i] ∧ S.starts = [j] ∧ S.bosons = [a, b] ∧ [i, j, a, b].Nodup ∧
    ((S.boson a).massive = false → Spec.after (S.boson a) (S.flavour j) = some (S.flavour j) ∧ Spec.after (S.inBoson b) (S.flavour j) = some (S.flavour i)) ∧
    ((S.boson b).massive = false → Spec.after (S.boson b) (S.flavour j) = some (S.flavour j) ∧ Spec.after (S.inBoson a) (S.flavour j) = some (S.flavour i)))

omit [FPEnv] in
theorem withLight_lines : ∀ R ∈ withLight, ∃ i j a b : Fin 4, lineOf R.react i j a b = true := by
  unfold withLight
  simp only [List.forall_mem_cons, List.not_mem_nil, false_implies, implies_true, and_true]
  exact ⟨⟨1, 0, 2, 3, by decide⟩, ⟨1, 0, 2, 3, by decide⟩, ⟨2, 0, 1, 3, by decide⟩, ⟨2, 0, 1, 3, by decide⟩, ⟨2, 3, 0, 1, by decide⟩, ⟨2, 3, 0, 1, by decide⟩, ⟨2, 3, 0, 1, by decide⟩, ⟨3, 0, 1, 2, by decide⟩, ⟨3, 0, 1, 2, by decide⟩, ⟨3, 0, 1, 2, by decide⟩, ⟨1, 0, 2, 3, by decide⟩, ⟨1, 0, 2, 3, by decide⟩, ⟨1, 0, 2, 3, by decide⟩, ⟨2, 3, 0, 1, by decide⟩, ⟨2, 3, 0, 1, by decide⟩, ⟨2, 3, 0, 1, by decide⟩, ⟨3, 1, 0, 2, by decide⟩, ⟨3, 1, 0, 2, by decide⟩, ⟨3, 1, 0, 2, by decide⟩, ⟨3, 1, 0, 2, by decide⟩, ⟨0, 1, 2, 3, by decide⟩, ⟨2, 3, 0, 1, by decide⟩, ⟨0, 1, 2, 3, by decide⟩, ⟨2, 0, 1, 3, by decide⟩, ⟨2, 0, 1, 3, by decide⟩, ⟨2, 3, 0, 1, by decide⟩, ⟨2, 3, 0, 1, by decide⟩, ⟨3, 0, 1, 2, by decide⟩, ⟨3, 1, 0, 2, by decide⟩, ⟨2, 3, 0, 1, by decide⟩, ⟨2, 3, 0, 1, by decide⟩, ⟨2, 3, 0, 1, by decide⟩, ⟨2, 3, 0, 1, by decide⟩, ⟨3, 1, 0, 2, by decide⟩, ⟨3, 1, 0, 2, by decide⟩, ⟨2, 3, 0, 1, by decide⟩, ⟨3, 0, 1, 2, by decide⟩⟩

omit [FPEnv] in
theorem withLight_width : ∀ R ∈ withLight, Quantity.WW ∈ R.absent ∨ ∀ n m, R.react.boson m = .photon → ¬(R.react.boson n = .wPlus ∨ R.react.boson n = .wMinus) := by
  unfold withLight
  simp only [List.forall_mem_cons, List.not_mem_nil, false_implies, implies_true, and_true]
  exact ⟨.inr (by decide), .inr (by decide), .inr (by decide), .inr (by decide), .inr (by decide), .inr (by decide), .inr (by decide), .inr (by decide), .inr (by decide), .inr (by decide), .inr (by decide), .inr (by decide), .inr (by decide), .inr (by decide), .inr (by decide), .inr (by decide), .inr (by decide), .inr (by decide), .inr (by decide), .inl (by simp [Rows.AnWe]), .inl (by simp [Rows.enAW]), .inl (by simp [Rows.AWud]), .inl (by simp [Rows.udAW]), .inr (by decide), .inr (by decide), .inr (by decide), .inr (by decide), .inr (by decide), .inr (by decide), .inr (by decide), .inr (by decide), .inr (by decide), .inr (by decide), .inr (by decide), .inr (by decide), .inr (by decide), .inr (by decide)⟩

/-- The amplitudes of the Feynman rules for these reactions vanish if the polarisation vector of a photon or gluon is replaced by its momentum ... -/
theorem C68_gauge {R : BRow} (hR : R ∈ withLight) {c : Constants} (hh : c.Heavy) (hz : ∀ q ∈ R.absent, c.get q = 0) {p : Nat → V4 ℝ} (hs : ∀ i : Fin 4, OnShell (p i) (R.react.mass c i))
    (hb : Balanced p) (hr : R.react.Regular c p) : R.react.Gauge c p := by
  obtain ⟨i, j, a, b, h⟩ := withLight_lines R hR
  obtain ⟨h1, h2, h3, h4, h5, h6⟩ := of_decide_eq_true h
  refine gauge_line h1 h2 h3 hh h4 (fun n => onShell_msq (hs n)) hb hr (fun n m hn hm => ?_) h5 h6
  rcases withLight_width R hR with h | h
  · exact hz .WW h
  · exact absurd hm (h n m hn)

/-- ... hence the squared amplitude does not depend on the choice of spinors and polarisation vectors, nor on the gauge of the latter (the vector `n` of `Polarised`) ... -/
theorem C68_basis {R : BRow} (hR : R ∈ withLight) {c : Constants} (hc : c.Physical) (hh : c.Heavy) (hz : ∀ q ∈ R.absent, c.get q = 0) {p : Nat → V4 ℝ} (hs : ∀ i : Fin 4, OnShell (p i) (R.react.mass c i))
    (hb : Balanced p) (hr : R.react.Regular c p) {u v : Fin 4 → Fin 3 → Spinor} {ε η : Fin 4 → Fin 3 → Vec} (h : ∀ n, R.react.Complete c p n (u n) (ε n)) (h' : ∀ n, R.react.Complete c p n (v n) (η n)) :
    R.react.squared c p u ε = R.react.squared c p v η :=
  R.react.squared_basis (fun n => onShell_msq (hs n)) (fun _ b _ hb _ => (BRow.boson_pos hc hh hb).ne') (C68_gauge hR hh hz hs hb hr) h h'

/-- ... and there are such spinors and vectors, if the photons and gluons have some energy. -/
theorem C68_states (S : Reaction) {c : Constants} (hc : c.Physical) (hh : c.Heavy) {p : Nat → V4 ℝ} (hp : ∀ n : Fin 4, OnShell (p n) (S.mass c n))
    (he : ∀ n, (S.boson n).massive = false → (p n).t ≠ 0) : ∃ (u : Fin 4 → Fin 3 → Spinor) (ε : Fin 4 → Fin 3 → Vec), ∀ n, S.Complete c p n (u n) (ε n) := by
  refine ⟨_, _, S.code_complete hp (BRow.leg_nonneg hc hh S) (E := S.codeE c p) fun n b hl => ?_⟩
  have eb : S.boson n = b := by simp [boson, hl]
  unfold codeE
  rw [eb]
  cases hb : b.massive
  · rw [if_neg (by simp)]
    have hs := hp n
    rw [S.mass_light hl hb] at hs
    have h0 := he n (eb ▸ hb)
    refine (light_code hs).polarised c (by simpa using onShell_msq hs) (n := ⟨1, 0, 0, 0⟩) ?_ hb
    simpa [dot] using h0
  · rw [if_pos rfl]
    exact S.codeVec_polarised hp (BRow.leg_nonneg hc hh S) hl hb fun _ => (BRow.boson_pos hc hh hb).ne'

/-! ### the hypotheses can be met -/

section examples

def exMass : Constants := ⟨1, 2, 3 / 5, 4, 1 / 10, 0, 3, 1 / 10, fun f => if f.kind = .neutrino then 0 else 5⟩

omit [FPEnv] in
theorem exMass_physical : exMass.Physical := ⟨by norm_num [exMass], by norm_num [exMass], by norm_num [exMass], fun g => by simp [exMass], fun f hf => by simp [exMass, hf]⟩
omit [FPEnv] in
theorem exMass_heavy : exMass.Heavy := ⟨by norm_num [exMass], by norm_num [exMass]⟩

/-- an electron of mass 5 and energy 13 meets a photon of energy 12 -/
def exCompton (i : Nat) : V4 ℝ := if i = 0 then ⟨13, 0, 0, 12⟩ else if i = 1 then ⟨12, 0, 0, -12⟩ else if i = 2 then ⟨12, 12, 0, 0⟩ else ⟨13, -12, 0, 0⟩

/-- Compton scattering -/
example (mem : Nat → XR) (junk : Kin XR XC) (l : Loc XR XC) : ∃ (u : Fin 4 → Fin 3 → Spinor) (ε : Fin 4 → Fin 3 → Vec), (∀ n, Rows.eAAe.react.Complete exMass exCompton n (u n) (ε n)) ∧
    (Cls.eAAe.method l .r Cls.eAAe.amp2 [] (Cls.eAAe.runSetMomenta junk (fun i => (exCompton i).toX) (Cls.eAAe.construct mem junk fun n => if n = 0 then fin 1 else fin 5).2).2).1 =
    .ok (fin (Rows.eAAe.react.squared exMass exCompton u ε)) := by
  have hc := exMass_physical
  have hh := exMass_heavy
  have hb : Balanced exCompton := by constructor <;> norm_num [exCompton]
  have hs : ∀ i : Fin 4, OnShell (exCompton i) (Rows.eAAe.react.mass exMass i) := by
    intro i
    have : Rows.eAAe.react.mass exMass i = (![5, 0, 0, 5] : Fin 4 → ℝ) i := by fin_cases i <;> rfl
    rw [this]
    fin_cases i <;> constructor <;> norm_num [exCompton]
  have hr : Rows.eAAe.react.Regular exMass exCompton := by
    refine ⟨?_, ?_, ?_⟩
    · intro x h _
      cases h
      show msq (plus (exCompton 0) (exCompton 1)) - (5 : ℝ) ^ 2 ≠ 0
      norm_num [msq, plus, exCompton, backward]
    · intro x h _
      cases h
      show msq (plus (exCompton 0) (backward (exCompton 2))) - (5 : ℝ) ^ 2 ≠ 0
      norm_num [msq, plus, exCompton, backward]
    · intro x h1 h2 h
      cases x <;> first | cases h1 | cases h2
  obtain ⟨u, ε, hu⟩ := C68_states Rows.eAAe.react hc hh hs (by
    intro n h
    fin_cases n
    · norm_num [exCompton]
    · norm_num [exCompton]
    · norm_num [exCompton]
    · norm_num [exCompton])
  refine ⟨u, ε, hu, (C68_feynman (R := Rows.eAAe) (by simp [withLight]) mem junk _ [] (fun _ _ _ => List.not_mem_nil) (c := exMass) ?_ hc hh (by simp [Rows.eAAe]) (by rw [runProcOps]; rfl) hs hb hr hu junk [] l).2⟩
  intro n q h
  match n with
  | 0 => cases h; rfl
  | 1 => cases h; rfl
  | n + 2 => cases h

/-- a gluon and a quark of mass 5 make a Z boson of mass 5 and a quark -/
def exGluon (i : Nat) : V4 ℝ := if i = 0 then ⟨651 / 52, 0, 0, 651 / 52⟩ else if i = 1 then ⟨701 / 52, 0, 0, -651 / 52⟩ else if i = 2 then ⟨13, 12, 0, 0⟩ else ⟨13, -12, 0, 0⟩

example (mem : Nat → XR) (junk : Kin XR XC) (l : Loc XR XC) : ∃ (u : Fin 4 → Fin 3 → Spinor) (ε : Fin 4 → Fin 3 → Vec), (∀ n, Rows.gdZd.react.Complete exMass exGluon n (u n) (ε n)) ∧
    (Cls.gdZd.method l .r Cls.gdZd.amp2 [] (Cls.gdZd.runSetMomenta junk (fun i => (exGluon i).toX)
      (Cls.gdZd.construct mem junk fun n => if n = 0 then fin 1 else if n = 1 then fin 2 else if n = 2 then fin 5 else if n = 3 then fin 4 else fin (3 / 5)).2).2).1 =
    .ok (fin (Rows.gdZd.react.squared exMass exGluon u ε)) := by
  have hc := exMass_physical
  have hh := exMass_heavy
  have cw : exMass.CW = 4 / 5 := by
    show √(1 - 3 / 5 * (3 / 5)) = 4 / 5
    rw [show (1 - 3 / 5 * (3 / 5) : ℝ) = (4 / 5) ^ 2 by norm_num]
    exact Real.sqrt_sq (by norm_num)
  have mz : exMass.MZ = 5 := by show exMass.MW / exMass.CW = 5; rw [cw]; norm_num [exMass]
  have hb : Balanced exGluon := by constructor <;> norm_num [exGluon]
  have hs : ∀ i : Fin 4, OnShell (exGluon i) (Rows.gdZd.react.mass exMass i) := by
    intro i
    have : Rows.gdZd.react.mass exMass i = (![0, 5, 5, 5] : Fin 4 → ℝ) i := by fin_cases i; exacts [rfl, rfl, mz, rfl]
    rw [this]
    fin_cases i <;> constructor <;> norm_num [exGluon]
  have hr : Rows.gdZd.react.Regular exMass exGluon := by
    refine ⟨?_, ?_, ?_⟩
    · intro x h _
      cases h
      show msq (plus (exGluon 1) (exGluon 0)) - (5 : ℝ) ^ 2 ≠ 0
      norm_num [msq, plus, exGluon, backward]
    · intro x h _
      cases h
      show msq (plus (exGluon 1) (backward (exGluon 2))) - (5 : ℝ) ^ 2 ≠ 0
      norm_num [msq, plus, exGluon, backward]
    · intro x h1 h2 h
      cases x <;> first | cases h1 | cases h2
  obtain ⟨u, ε, hu⟩ := C68_states Rows.gdZd.react hc hh hs (by
    intro n h
    fin_cases n
    · norm_num [exGluon]
    · norm_num [exGluon]
    · norm_num [exGluon]
    · norm_num [exGluon])
  refine ⟨u, ε, hu, (C68_feynman (R := Rows.gdZd) (by simp [withLight]) mem junk _ [] (fun _ _ _ => List.not_mem_nil) (c := exMass) ?_ hc hh (by simp [Rows.gdZd]) (by rw [runProcOps]; rfl) hs hb hr hu junk [] l).2⟩
  intro n q h
  match n with
  | 0 => cases h; rfl
  | 1 => cases h; rfl
  | 2 => cases h; rfl
  | 3 => cases h; rfl
  | 4 => cases h; rfl
  | n + 5 => cases h

end examples

end
end Spinas.Props
