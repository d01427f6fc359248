import Verif.SM.Mirror
import Verif.Props.HelicityMean

/-! C80: without weak interactions of fermions the squared amplitude does not change when all helicities are reversed, so the methods for given helicities give `amp2()` (exact arithmetic). -/

namespace Spinas.Props
open SM Spec Spec.Reaction XR Matrix Process

noncomputable section

/-- no fermion meets a W or Z boson -/
def parityConserving (S : Reaction) : Bool := ([0, 1, 2, 3] : List (Fin 4)).all (fun n => match S.leg n with
    | .fermion _ _ => true
    | .boson b => b == .photon || b == .gluon || b == .higgs) ||
  ([0, 1, 2, 3] : List (Fin 4)).all fun n => match S.leg n with
    | .fermion _ _ => false
    | .boson _ => true

/-- classes with a method for one helicity of the one incoming photon or gluon that returns the same as `amp2()`, and the name of the method ... -/
def oneHelicity : List (String × String) := [("uAAu", "amp2_Aplus"), ("uAAu", "amp2_Aminus"), ("dAAd", "amp2_Aplus"), ("dAAd", "amp2_Aminus"), ("eAAe", "amp2_Aplus"), ("dAgd", "amp2_Aplus"), ("dAgd", "amp2_Aminus"),
  ("guAu", "amp2_gplus"), ("guAu", "amp2_gminus"), ("uAuh", "amp2_Aplus"), ("dAdh", "amp2_Aplus"), ("dgdh", "amp2_gplus"), ("uguh", "amp2_gplus"), ("hgdd", "amp2_gplus"), ("hguu", "amp2_gplus"),
  ("dggd", "amp2_gplus"), ("dggd", "amp2_gminus"), ("gugu", "amp2_gplus"), ("gugu", "amp2_gminus"), ("AhWW", "amp2_Aplus"), ("AWWh", "amp2_Aplus"), ("AWAW", "amp2_Aplus"), ("AWAW", "amp2_Aminus"),
  ("AZWW", "amp2_Aplus"), ("AWZW", "amp2_Aplus")]
/-- ... and classes with methods for like and unlike helicities of two of them -/
def twoHelicities : List String := ["AAuu", "AAdd", "AAee", "gAdd", "gAuu", "ggdd", "gguu", "AAWW"]

/-- two incoming particles of given helicities -/
def pairOf (r r' : Bool) : Fin 4 → Option Bool := ![some r, some r', none, none]

/-- The tables list all methods for one helicity ... -/
theorem C80_one_classes : oneHelicity = (polarised.filter fun x => parityConserving x.1.react && (legsIn.any fun n => decide (x.2.2.2 = onlyLeg n true) || decide (x.2.2.2 = onlyLeg n false))).map fun x => (x.1.proc.name, x.2.1) := by
  decide +kernel
/-- ... and all classes with methods for two of them. -/
theorem C80_two_classes : twoHelicities = (polarised.filter fun x => decide (x.2.2.2 = pairOf true true)).map (fun x => x.1.proc.name) ∧
    twoHelicities = (polarised.filter fun x => decide (x.2.2.2 = pairOf true false)).map (fun x => x.1.proc.name) ∧ ∀ x ∈ polarised, x.2.2.2 = pairOf true true → parityConserving x.1.react = true := by
  refine ⟨by decide +kernel, by decide +kernel, by decide +kernel⟩

/-- what a class must be like for the proof -/
def mirrored (R : BRow) : Bool := match R.react.ends, R.react.starts, R.react.bosons with
  | [_], [_], [a, b] => Mirror.plain (R.react.boson a) && Mirror.plain (R.react.boson b) && !(R.react.boson a == .higgs && R.react.boson b == .higgs)
  | _, _, [a, _, _, _] => R.react.boson a == .photon && arrives a && R.absent.any fun q => match q with | .WW => true | _ => false
  | _, _, _ => false

theorem mirrored_all : ∀ x ∈ polarised, parityConserving x.1.react = true → mirrored x.1 = true := by decide +kernel

theorem mirrored_plain {R : BRow} (h : mirrored R = true) {c : Constants} (hz : ∀ q ∈ R.absent, c.get q = 0) : R.react.Plain c := by
  constructor
  · intro i j a b e1 e2 e3
    simp [mirrored, e1, e2, e3] at h
    tauto
  · intro a b d e e3
    unfold mirrored at h
    split at h
    · rename_i e3'
      rw [e3] at e3'
      cases e3'
    · rename_i e3'
      rw [e3] at e3'
      cases e3'
      rw [Bool.and_eq_true, Bool.and_eq_true, beq_iff_eq, List.any_eq_true] at h
      obtain ⟨⟨h1, h2⟩, q, hq, h3⟩ := h
      refine ⟨h1, h2, ?_⟩
      split at h3
      · exact hz _ hq
      · cases h3
    · cases h

variable [FPEnv]

/-- the hypotheses of the theorems below, collected -/
structure Ready (R : BRow) (mem : Nat → XR) (junk : Kin XR XC) (par : Nat → XR) (ops : List (ProcOp XR XC)) (c : Constants) (o : Obj XR XC) (p : Nat → V4 ℝ) : Prop where
  stale : R.proc.name ∈ staleMasses → Unset ops
  pars : ∀ n q, R.pars[n]? = some (some q) → parAfter R.proc.massPar ops par n = fin (c.get q)
  physical : c.Physical
  heavy : c.Heavy
  absent : ∀ q ∈ R.absent, c.get q = 0
  obj : o = runProcOps R.proc ops (R.proc.construct mem junk par).2
  shell : ∀ i : Fin 4, OnShell (p i) (R.react.mass c i)
  balanced : Balanced p
  regular : R.react.Regular c p
  energy : ∀ i, (R.react.boson i).massive = false → (p i).t ≠ 0

variable {R : BRow} {mem : Nat → XR} {junk : Kin XR XC} {par : Nat → XR} {ops : List (ProcOp XR XC)} {c : Constants} {o : Obj XR XC} {p : Nat → V4 ℝ}

theorem incoming {name : String} {k : Nat} {H : Fin 4 → Option Bool} (hp : (R, name, k, H) ∈ polarised) {n : Fin 4} (hn : (H n).isSome = true) : arrives n = true ∧ ∃ b : Boson, R.react.leg n = .boson b ∧ b.massive = false := by
  have hl := (C74_names _ hp).2.2
  simp only [allIncoming, List.all_cons, List.all_nil, Bool.and_true, Bool.and_eq_true, beq_iff_eq] at hl
  have hn' : (H n).isSome = (arrives n && (decide (R.react.leg n = .boson .photon) || decide (R.react.leg n = .boson .gluon))) := by
    obtain ⟨h0, h1, h2, h3⟩ := hl
    fin_cases n <;> assumption
  rw [hn, eq_comm, Bool.and_eq_true, Bool.or_eq_true, decide_eq_true_iff, decide_eq_true_iff] at hn'
  obtain ⟨ha, hn'⟩ := hn'
  rcases hn' with h | h
  · exact ⟨ha, _, h, rfl⟩
  · exact ⟨ha, _, h, rfl⟩

namespace Ready
variable (h : Ready R mem junk par ops c o p)
include h

theorem complete (n : Fin 4) : R.react.Complete c p n (R.react.codeSpinor c p n) (R.react.codeEps c p n) := by
  obtain ⟨u, ε, hu⟩ := C68_states R.react h.physical h.heavy h.shell h.energy
  exact R.react.code_complete h.shell (BRow.leg_nonneg h.physical h.heavy R.react)
    (R.react.codeE_polarised h.shell (BRow.leg_nonneg h.physical h.heavy R.react) hu fun b hb => (BRow.boson_pos h.physical h.heavy hb).ne') n

theorem value {name : String} {k : Nat} {H : Fin 4 → Option Bool} (hR : (R, name, k, H) ∈ polarised) {u : Fin 4 → Fin 3 → Spinor} {ε : Fin 4 → Fin 3 → Vec} (hu : ∀ i, R.react.Prepared c p i (H i) (u i) (ε i))
    (j : Kin XR XC) (xs : List (MCall XR XC)) (l : Loc XR XC) : (R.proc.runSetMomenta j (fun i => (p i).toX) o).1 = .ok () ∧
    (R.proc.method l .r k [] (runCalls R.proc xs (R.proc.runSetMomenta j (fun i => (p i).toX) o).2)).1 = .ok (fin (R.react.prepared c p H u ε)) :=
  C74_feynman hR mem junk par ops h.stale h.pars h.physical h.heavy h.absent h.obj h.shell h.balanced h.regular hu j xs l

/-- Any two descriptions of the same helicities give the same, ... -/
theorem same {name : String} {k : Nat} {H : Fin 4 → Option Bool} (hR : (R, name, k, H) ∈ polarised) {u v : Fin 4 → Fin 3 → Spinor} {ε η : Fin 4 → Fin 3 → Vec} (hu : ∀ i, R.react.Prepared c p i (H i) (u i) (ε i))
    (hv : ∀ i, R.react.Prepared c p i (H i) (v i) (η i)) : R.react.prepared c p H u ε = R.react.prepared c p H v η := by
  have e := (h.value hR hu junk [] ⟨fun _ => 0, fun _ => fin 0, fun _ => ofC 0⟩).2.symm.trans (h.value hR hv junk [] ⟨fun _ => 0, fun _ => fin 0, fun _ => ofC 0⟩).2
  simpa using e

/-- ... and opposite helicities give the same. -/
theorem reversed (hm : parityConserving R.react = true) {name : String} {k : Nat} {H : Fin 4 → Option Bool} (hR : (R, name, k, H) ∈ polarised) {u v : Fin 4 → Fin 3 → Spinor} {ε η : Fin 4 → Fin 3 → Vec}
    (hu : ∀ i, R.react.Prepared c p i (H i) (u i) (ε i)) (hv : ∀ i, R.react.Prepared c p i (opposite H i) (v i) (η i)) : R.react.prepared c p (opposite H) v η = R.react.prepared c p H u ε := by
  have hP := mirrored_plain (mirrored_all _ hR hm) h.absent
  have ho : opposite (opposite H) = H := by
    funext n
    unfold opposite
    cases H n <;> simp
  rw [← prepared_mirror hP, ho]
  refine h.same hR (fun i => ?_) hu
  have := prepared_reflected (hv i)
  have e : (opposite H i).map not = H i := congrFun ho i
  rw [e] at this
  exact this

theorem mean (hR : ∃ name k H, (R, name, k, H) ∈ polarised) (j : Kin XR XC) (xs : List (MCall XR XC)) (l : Loc XR XC) :
    (R.proc.method l .r R.proc.amp2 [] (runCalls R.proc xs (R.proc.runSetMomenta j (fun i => (p i).toX) o).2)).1 = .ok (fin (R.react.squared c p (R.react.codeSpinor c p) (R.react.codeEps c p))) := by
  obtain ⟨_, _, _, hR⟩ := hR
  exact ((polarised_all _ hR).2.2 mem junk par ops c p _ _ o j xs l h.stale h.pars h.physical h.heavy h.absent h.obj h.shell h.balanced h.regular h.complete).2

end Ready

/-- C80, one photon or gluon: The method for one of its helicities returns the same as `amp2()`. -/
theorem C80_one {name : String} {k : Nat} {n : Fin 4} {r : Bool} (hR : (R, name, k, onlyLeg n r) ∈ polarised) (hm : parityConserving R.react = true) (h : Ready R mem junk par ops c o p) (j : Kin XR XC) :
    (R.proc.runSetMomenta j (fun i => (p i).toX) o).1 = .ok () ∧ ∃ x : ℝ, ∀ (xs : List (MCall XR XC)) (l : Loc XR XC),
      (R.proc.method l .r k [] (runCalls R.proc xs (R.proc.runSetMomenta j (fun i => (p i).toX) o).2)).1 = .ok (fin x) ∧
      (R.proc.method l .r R.proc.amp2 [] (runCalls R.proc xs (R.proc.runSetMomenta j (fun i => (p i).toX) o).2)).1 = .ok (fin x) := by
  obtain ⟨ha, b, hl, hb⟩ := incoming hR (n := n) (by simp [onlyLeg])
  have het := h.energy n (by simpa [boson, hl] using hb)
  have hy := fun r => code_helicity ha hl hb h.shell het r h.complete
  have e := h.reversed hm hR (hy r) (v := hold n (if !r then 1 else 0) (R.react.codeSpinor c p)) (η := hold n (if !r then 1 else 0) (R.react.codeEps c p)) fun i => by
    have : opposite (onlyLeg n r) i = onlyLeg n (!r) i := by unfold opposite onlyLeg; split_ifs <;> simp
    rw [this]
    exact hy (!r) i
  have ho : opposite (onlyLeg n r) = onlyLeg n (!r) := by funext i; unfold opposite onlyLeg; split_ifs <;> simp
  rw [ho] at e
  refine ⟨(h.value hR (hy r) j [] ⟨fun _ => 0, fun _ => fin 0, fun _ => ofC 0⟩).1, _, fun xs l => ⟨(h.value hR (hy r) j xs l).2, ?_⟩⟩
  rw [h.mean ⟨_, _, _, hR⟩ j xs l, squared_mean ha hl hb]
  congr 2
  cases r
  · simp at e ⊢
    rw [e]; ring
  · simp at e ⊢
    rw [e]; ring

/-- C80, two photons or gluons: `amp2()` is the mean of what the methods for like and unlike helicities return. -/
theorem C80_two {like unlike : String} {k k' : Nat} (hR : (R, like, k, pairOf true true) ∈ polarised) (hR' : (R, unlike, k', pairOf true false) ∈ polarised) (h : Ready R mem junk par ops c o p) (j : Kin XR XC) :
    (R.proc.runSetMomenta j (fun i => (p i).toX) o).1 = .ok () ∧ ∃ x y : ℝ, ∀ (xs : List (MCall XR XC)) (l : Loc XR XC),
      (R.proc.method l .r k [] (runCalls R.proc xs (R.proc.runSetMomenta j (fun i => (p i).toX) o).2)).1 = .ok (fin x) ∧
      (R.proc.method l .r k' [] (runCalls R.proc xs (R.proc.runSetMomenta j (fun i => (p i).toX) o).2)).1 = .ok (fin y) ∧
      (R.proc.method l .r R.proc.amp2 [] (runCalls R.proc xs (R.proc.runSetMomenta j (fun i => (p i).toX) o).2)).1 = .ok (fin ((x + y) / 2)) := by
  have hm := C80_two_classes.2.2 _ hR rfl
  obtain ⟨ha, b, hl, hb⟩ := incoming hR (n := 0) rfl
  obtain ⟨ha', b', hl', hb'⟩ := incoming hR (n := 1) rfl
  have hy := fun r => code_helicity ha hl hb h.shell (h.energy 0 (by simpa [boson, hl] using hb)) r h.complete
  have hC := code_circular ha' hl' hb' h.shell (h.energy 1 (by simpa [boson, hl'] using hb'))
  have hh : ∀ r r', ∀ i, R.react.Prepared c p i (pairOf r r' i) (hold 1 (if r' then 1 else 0) (hold 0 (if r then 1 else 0) (R.react.codeSpinor c p)) i) (hold 1 (if r' then 1 else 0) (hold 0 (if r then 1 else 0) (R.react.codeEps c p)) i) := by
    intro r r' i
    have e : pairOf r r' i = alsoLeg (onlyLeg 0 r) 1 r' i := by fin_cases i <;> rfl
    rw [e]
    refine prepared_hold (hy r) ?_ i
    have e0 : hold 0 (if r then 1 else 0) (R.react.codeEps c p) 1 (if r' then 1 else 0) = R.react.codeEps c p 1 (if r' then 1 else 0) := by simp [hold]
    rw [e0]
    cases r'
    · exact hC.2
    · exact hC.1
  have eo : ∀ r r', opposite (pairOf r r') = pairOf (!r) (!r') := by intro r r'; funext i; fin_cases i <;> rfl
  have e1 := h.reversed hm hR (hh true true) (v := hold 1 0 (hold 0 0 (R.react.codeSpinor c p))) (η := hold 1 0 (hold 0 0 (R.react.codeEps c p))) (by rw [eo]; exact hh false false)
  have e2 := h.reversed hm hR' (hh true false) (v := hold 1 1 (hold 0 0 (R.react.codeSpinor c p))) (η := hold 1 1 (hold 0 0 (R.react.codeEps c p))) (by rw [eo]; exact hh false true)
  rw [eo] at e1 e2
  refine ⟨(h.value hR (hh true true) j [] ⟨fun _ => 0, fun _ => fin 0, fun _ => ofC 0⟩).1, _, _, fun xs l => ⟨(h.value hR (hh true true) j xs l).2, (h.value hR' (hh true false) j xs l).2, ?_⟩⟩
  have ep : ∀ r r', alsoLeg (onlyLeg 0 r) 1 r' = pairOf r r' := by intro r r'; funext i; fin_cases i <;> rfl
  rw [h.mean ⟨_, _, _, hR⟩ j xs l, squared_mean ha hl hb, prepared_mean (H := onlyLeg 0 true) (n := 1) (by rfl) ha' hl' hb', prepared_mean (H := onlyLeg 0 false) (n := 1) (by rfl) ha' hl' hb']
  simp only [ep]
  simp only [Bool.not_true, Bool.not_false, if_true, Bool.false_eq_true, if_false] at e1 e2 ⊢
  rw [e1, e2]
  congr 2
  ring

theorem vev_core {k : Nat} {n : Fin 4} (hA : R.AgreesVev) (hPol : R.PolarisesVev k (onlyLeg n true)) (hmir : mirrored R = true) (ha : arrives n = true) {b : Boson} (hl : R.react.leg n = .boson b) (hbm : b.massive = false)
    (hst : R.proc.name ∈ staleMasses → Unset ops) {v : ℝ} (hab : ∀ q ∈ R.absent, c.get q = 0)
    (hpar : ∀ n q, R.pars[n]? = some (some q) → parAfter R.proc.massPar ops par n = fin (c.get q)) (hvp : ∀ n, R.pars[n]? = some none → parAfter R.proc.massPar ops par n = fin v)
    (hve : v * c.e = 2 * c.MW * c.SW) (hc : c.Physical) (hh : c.Heavy) (ho : o = runProcOps R.proc ops (R.proc.construct mem junk par).2)
    (hs : ∀ i : Fin 4, OnShell (p i) (R.react.mass c i)) (hb : Balanced p) (hr : R.react.Regular c p) (he : ∀ i, (R.react.boson i).massive = false → (p i).t ≠ 0) (j : Kin XR XC) :
    (R.proc.runSetMomenta j (fun i => (p i).toX) o).1 = .ok () ∧ ∃ x : ℝ, ∀ (xs : List (MCall XR XC)) (l : Loc XR XC),
      (R.proc.method l .r k [] (runCalls R.proc xs (R.proc.runSetMomenta j (fun i => (p i).toX) o).2)).1 = .ok (fin x) ∧
      (R.proc.method l .r R.proc.amp2 [] (runCalls R.proc xs (R.proc.runSetMomenta j (fun i => (p i).toX) o).2)).1 = .ok (fin x) := by
  obtain ⟨u, ε, hu⟩ := C68_states R.react hc hh hs he
  have hC : ∀ n, R.react.Complete c p n (R.react.codeSpinor c p n) (R.react.codeEps c p n) :=
    R.react.code_complete hs (BRow.leg_nonneg hc hh R.react) (R.react.codeE_polarised hs (BRow.leg_nonneg hc hh R.react) hu fun b hb => (BRow.boson_pos hc hh hb).ne')
  have hy := fun r => code_helicity ha hl hbm hs (he n (by simpa [boson, hl] using hbm)) r hC
  have val := fun (u : Fin 4 → Fin 3 → Spinor) (ε : Fin 4 → Fin 3 → Vec) (hu : ∀ i, R.react.Prepared c p i (onlyLeg n true i) (u i) (ε i)) (xs : List (MCall XR XC)) (l : Loc XR XC) =>
    hPol mem junk par ops c v p u ε o j xs l hst hpar hvp hve hc hh ho hs hb hr hu
  have hP : R.react.Plain c := mirrored_plain hmir hab
  have e : R.react.prepared c p (onlyLeg n false) (hold n 0 (R.react.codeSpinor c p)) (hold n 0 (R.react.codeEps c p)) =
      R.react.prepared c p (onlyLeg n true) (hold n 1 (R.react.codeSpinor c p)) (hold n 1 (R.react.codeEps c p)) := by
    have ho : opposite (onlyLeg n false) = onlyLeg n true := by funext i; unfold opposite onlyLeg; split_ifs <;> simp
    rw [← prepared_mirror hP, ho]
    have a := (val _ _ (hy true) [] ⟨fun _ => 0, fun _ => fin 0, fun _ => ofC 0⟩).2
    have b := (val _ _ (fun i => by have := prepared_reflected (hy false i); rw [show (onlyLeg n false i).map not = onlyLeg n true i from congrFun ho i] at this; exact this) [] ⟨fun _ => 0, fun _ => fin 0, fun _ => ofC 0⟩).2
    have := b.symm.trans a
    simpa using this
  refine ⟨(val _ _ (hy true) [] ⟨fun _ => 0, fun _ => fin 0, fun _ => ofC 0⟩).1, _, fun xs l => ⟨(val _ _ (hy true) xs l).2, ?_⟩⟩
  have := (hA mem junk par ops c v p _ _ o j xs l hst hpar hvp hve hc hh ho hs hb hr hC).2
  rw [squared_mean ha hl hbm, e] at this
  refine this.trans ?_
  congr 2
  simp

/-- C80, `eAeh`, which is also given the vacuum expectation value `v` of the Higgs field: `amp2_Aplus()` and `amp2()` return the same. -/
theorem C80_vev (hst : Rows.eAeh.proc.name ∈ staleMasses → Unset ops) {v : ℝ}
    (hpar : ∀ n q, Rows.eAeh.pars[n]? = some (some q) → parAfter Rows.eAeh.proc.massPar ops par n = fin (c.get q)) (hvp : ∀ n, Rows.eAeh.pars[n]? = some none → parAfter Rows.eAeh.proc.massPar ops par n = fin v)
    (hve : v * c.e = 2 * c.MW * c.SW) (hc : c.Physical) (hh : c.Heavy) (ho : o = runProcOps Rows.eAeh.proc ops (Rows.eAeh.proc.construct mem junk par).2)
    (hs : ∀ i : Fin 4, OnShell (p i) (Rows.eAeh.react.mass c i)) (hb : Balanced p) (hr : Rows.eAeh.react.Regular c p) (he : (p 1).t ≠ 0) (j : Kin XR XC) :
    (Rows.eAeh.proc.runSetMomenta j (fun i => (p i).toX) o).1 = .ok () ∧ ∃ x : ℝ, ∀ (xs : List (MCall XR XC)) (l : Loc XR XC),
      (Rows.eAeh.proc.method l .r 2 [] (runCalls Rows.eAeh.proc xs (Rows.eAeh.proc.runSetMomenta j (fun i => (p i).toX) o).2)).1 = .ok (fin x) ∧
      (Rows.eAeh.proc.method l .r Rows.eAeh.proc.amp2 [] (runCalls Rows.eAeh.proc xs (Rows.eAeh.proc.runSetMomenta j (fun i => (p i).toX) o).2)).1 = .ok (fin x) := by
  have hm : ∀ n, (Rows.eAeh.react.boson n).massive = false → n = 1 := by decide
  have hH : onlyLeg 1 true = ![none, some true, none, none] := by decide
  exact vev_core (n := 1) Rows.eAeh.agrees (by rw [hH]; exact Rows.eAeh.amp2_Aplus_polarises) (by decide) rfl (b := .photon) rfl rfl hst (by intro q h; cases h) hpar hvp hve hc hh ho hs hb hr
    (fun i h => by rw [hm i h]; exact he) j

/-! ### the hypotheses can be met -/

theorem exCompton_ready (mem : Nat → XR) (junk : Kin XR XC) : Ready Rows.uAAu mem junk (fun n => if n = 0 then fin 1 else fin 5) [] exMass (Cls.uAAu.construct mem junk fun n => if n = 0 then fin 1 else fin 5).2 exCompton where
  stale := fun _ _ _ h => by cases h
  pars := fun n q h => by
    match n with
    | 0 => cases h; rfl
    | 1 => cases h; rfl
    | n + 2 => cases h
  physical := exMass_physical
  heavy := exMass_heavy
  absent := fun q h => by cases h
  obj := rfl
  shell := fun i => by
    have : Rows.uAAu.react.mass exMass i = (![5, 0, 0, 5] : Fin 4 → ℝ) i := by fin_cases i <;> rfl
    rw [this]
    fin_cases i <;> constructor <;> norm_num [exCompton]
  balanced := by constructor <;> norm_num [exCompton]
  regular := by
    refine ⟨?_, ?_, ?_⟩
    · intro x h _
      cases h
      show msq (plus (exCompton 0) (exCompton 1)) - (5 : ℝ) ^ 2 ≠ 0
      norm_num [msq, plus, exCompton, backward]
    · intro x h _
      cases h
      show msq (plus (exCompton 0) (backward (exCompton 2))) - (5 : ℝ) ^ 2 ≠ 0
      norm_num [msq, plus, exCompton, backward]
    · intro x h1 h2 h
      cases x <;> first | cases h1 | cases h2
  energy := by intro n _; fin_cases n <;> norm_num [exCompton]

/-- Compton scattering on an up quark of mass 5 -/
example (mem : Nat → XR) (junk : Kin XR XC) : ∃ x : ℝ, ∀ (xs : List (MCall XR XC)) (l : Loc XR XC),
    (Cls.uAAu.method l .r 2 [] (runCalls Cls.uAAu xs (Cls.uAAu.runSetMomenta junk (fun i => (exCompton i).toX) (Cls.uAAu.construct mem junk fun n => if n = 0 then fin 1 else fin 5).2).2)).1 = .ok (fin x) ∧
    (Cls.uAAu.method l .r Cls.uAAu.amp2 [] (runCalls Cls.uAAu xs (Cls.uAAu.runSetMomenta junk (fun i => (exCompton i).toX) (Cls.uAAu.construct mem junk fun n => if n = 0 then fin 1 else fin 5).2).2)).1 = .ok (fin x) := by
  refine (C80_one (R := Rows.uAAu) (name := "amp2_Aplus") (k := 2) (n := 1) (r := true) ?_ (by decide) (exCompton_ready mem junk) junk).2
  have : onlyLeg 1 true = ![none, some true, none, none] := by decide
  rw [this]; simp [polarised]

/-- two photons of energy 13 become two up quarks of mass 5 -/
def exFusion : Nat → V4 ℝ := fun n => if n = 0 then ⟨13, 0, 0, 13⟩ else if n = 1 then ⟨13, 0, 0, -13⟩ else if n = 2 then ⟨13, 12, 0, 0⟩ else ⟨13, -12, 0, 0⟩

theorem exFusion_ready (mem : Nat → XR) (junk : Kin XR XC) : Ready Rows.AAuu mem junk (fun n => if n = 0 then fin 1 else fin 5) [] exMass (Cls.AAuu.construct mem junk fun n => if n = 0 then fin 1 else fin 5).2 exFusion where
  stale := fun _ _ _ h => by cases h
  pars := fun n q h => by
    match n with
    | 0 => cases h; rfl
    | 1 => cases h; rfl
    | n + 2 => cases h
  physical := exMass_physical
  heavy := exMass_heavy
  absent := fun q h => by cases h
  obj := rfl
  shell := fun i => by
    have : Rows.AAuu.react.mass exMass i = (![0, 0, 5, 5] : Fin 4 → ℝ) i := by fin_cases i <;> rfl
    rw [this]
    fin_cases i <;> constructor <;> norm_num [exFusion]
  balanced := by constructor <;> norm_num [exFusion]
  regular := by
    refine ⟨?_, ?_, ?_⟩
    · intro x h _
      cases h
      show msq (plus (backward (exFusion 3)) (exFusion 0)) - (5 : ℝ) ^ 2 ≠ 0
      norm_num [msq, plus, exFusion, backward]
    · intro x h _
      cases h
      show msq (plus (backward (exFusion 3)) (exFusion 1)) - (5 : ℝ) ^ 2 ≠ 0
      norm_num [msq, plus, exFusion, backward]
    · intro x h1 h2 h
      cases x <;> first | cases h1 | cases h2
  energy := by intro n _; fin_cases n <;> norm_num [exFusion]

example (mem : Nat → XR) (junk : Kin XR XC) : ∃ x y : ℝ, ∀ (xs : List (MCall XR XC)) (l : Loc XR XC),
    (Cls.AAuu.method l .r 2 [] (runCalls Cls.AAuu xs (Cls.AAuu.runSetMomenta junk (fun i => (exFusion i).toX) (Cls.AAuu.construct mem junk fun n => if n = 0 then fin 1 else fin 5).2).2)).1 = .ok (fin x) ∧
    (Cls.AAuu.method l .r 3 [] (runCalls Cls.AAuu xs (Cls.AAuu.runSetMomenta junk (fun i => (exFusion i).toX) (Cls.AAuu.construct mem junk fun n => if n = 0 then fin 1 else fin 5).2).2)).1 = .ok (fin y) ∧
    (Cls.AAuu.method l .r Cls.AAuu.amp2 [] (runCalls Cls.AAuu xs (Cls.AAuu.runSetMomenta junk (fun i => (exFusion i).toX) (Cls.AAuu.construct mem junk fun n => if n = 0 then fin 1 else fin 5).2).2)).1 =
      .ok (fin ((x + y) / 2)) :=
  (C80_two (R := Rows.AAuu) (like := "amp2_Aplus_Aplus") (unlike := "amp2_Aplus_Aminus") (k := 2) (k' := 3) (by simp [polarised, pairOf]) (by simp [polarised, pairOf]) (exFusion_ready mem junk) junk).2

end
end Spinas.Props
