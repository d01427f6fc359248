import Verif.SM.Bosons.PolarFour
import Verif.SM.Bosons.PolarGluons
import Verif.SM.Bosons.PolarHiggs
import Verif.SM.Bosons.PolarPhotons
import Verif.SM.Bosons.PolarW
import Verif.SM.Bosons.PolarZ
import Verif.Props.FeynmanLight
import Verif.SM.Proc.All

/-! C74: the methods for incoming photons and gluons of given helicity according to the Feynman rules (exact arithmetic). -/

namespace Spinas.Props
open SM Spec Spec.Reaction XR Matrix Process

noncomputable section

/-- classes with a method for given helicities, name and number of the method, and the helicities of the four particles (`some true` positive, `some false` negative, `none` all) -/
def polarised : List (BRow × String × Nat × (Fin 4 → Option Bool)) := [
  (Rows.AAuu, "amp2_Aplus_Aplus", 2, ![some true, some true, none, none]), (Rows.AAuu, "amp2_Aplus_Aminus", 3, ![some true, some false, none, none]), (Rows.AAdd, "amp2_Aplus_Aplus", 2, ![some true, some true, none, none]),
  (Rows.AAdd, "amp2_Aplus_Aminus", 3, ![some true, some false, none, none]), (Rows.AAee, "amp2_Aplus_Aplus", 2, ![some true, some true, none, none]), (Rows.AAee, "amp2_Aplus_Aminus", 3, ![some true, some false, none, none]),
  (Rows.uAAu, "amp2_Aplus", 2, ![none, some true, none, none]), (Rows.uAAu, "amp2_Aminus", 3, ![none, some false, none, none]), (Rows.dAAd, "amp2_Aplus", 2, ![none, some true, none, none]),
  (Rows.dAAd, "amp2_Aminus", 3, ![none, some false, none, none]), (Rows.eAAe, "amp2_Aplus", 2, ![none, some true, none, none]), (Rows.gAdd, "amp2_gplus_Aplus", 2, ![some true, some true, none, none]),
  (Rows.gAdd, "amp2_gplus_Aminus", 3, ![some true, some false, none, none]), (Rows.gAuu, "amp2_gplus_Aplus", 2, ![some true, some true, none, none]), (Rows.gAuu, "amp2_gplus_Aminus", 3, ![some true, some false, none, none]),
  (Rows.dAgd, "amp2_Aplus", 2, ![none, some true, none, none]), (Rows.dAgd, "amp2_Aminus", 3, ![none, some false, none, none]), (Rows.guAu, "amp2_gplus", 2, ![some true, none, none, none]),
  (Rows.guAu, "amp2_gminus", 3, ![some false, none, none, none]), (Rows.uAuh, "amp2_Aplus", 2, ![none, some true, none, none]), (Rows.dAdh, "amp2_Aplus", 2, ![none, some true, none, none]),
  (Rows.dgdh, "amp2_gplus", 2, ![none, some true, none, none]), (Rows.uguh, "amp2_gplus", 2, ![none, some true, none, none]), (Rows.hgdd, "amp2_gplus", 2, ![none, some true, none, none]),
  (Rows.hguu, "amp2_gplus", 2, ![none, some true, none, none]), (Rows.AZuu, "amp2_Aplus", 2, ![some true, none, none, none]), (Rows.AZuu, "amp2_Aminus", 3, ![some false, none, none, none]),
  (Rows.AZdd, "amp2_Aplus", 2, ![some true, none, none, none]), (Rows.AZdd, "amp2_Aminus", 3, ![some false, none, none, none]), (Rows.AZee, "amp2_Aplus", 2, ![some true, none, none, none]),
  (Rows.AZee, "amp2_Aminus", 3, ![some false, none, none, none]), (Rows.AuZu, "amp2_Aplus", 2, ![some true, none, none, none]), (Rows.AuZu, "amp2_Aminus", 3, ![some false, none, none, none]),
  (Rows.AdZd, "amp2_Aplus", 2, ![some true, none, none, none]), (Rows.AdZd, "amp2_Aminus", 3, ![some false, none, none, none]), (Rows.AeZe, "amp2_Aplus", 2, ![some true, none, none, none]),
  (Rows.AeZe, "amp2_Aminus", 3, ![some false, none, none, none]), (Rows.gZdd, "amp2_gplus", 2, ![some true, none, none, none]), (Rows.gZdd, "amp2_gminus", 3, ![some false, none, none, none]),
  (Rows.gZuu, "amp2_gplus", 2, ![some true, none, none, none]), (Rows.gZuu, "amp2_gminus", 3, ![some false, none, none, none]), (Rows.gdZd, "amp2_gplus", 2, ![some true, none, none, none]),
  (Rows.gdZd, "amp2_gminus", 3, ![some false, none, none, none]), (Rows.guZu, "amp2_gplus", 2, ![some true, none, none, none]), (Rows.guZu, "amp2_gminus", 3, ![some false, none, none, none]),
  (Rows.AWud, "amp2_Aplus", 2, ![some true, none, none, none]), (Rows.AnWe, "amp2_Aplus", 2, ![some true, none, none, none]), (Rows.gWud, "amp2_gplus", 2, ![some true, none, none, none]),
  (Rows.ggdd, "amp2_gplus_gplus", 3, ![some true, some true, none, none]), (Rows.ggdd, "amp2_gplus_gminus", 4, ![some true, some false, none, none]), (Rows.gguu, "amp2_gplus_gplus", 3, ![some true, some true, none, none]),
  (Rows.gguu, "amp2_gplus_gminus", 4, ![some true, some false, none, none]), (Rows.dggd, "amp2_gplus", 2, ![none, some true, none, none]), (Rows.dggd, "amp2_gminus", 3, ![none, some false, none, none]),
  (Rows.gugu, "amp2_gplus", 2, ![some true, none, none, none]), (Rows.gugu, "amp2_gminus", 3, ![some false, none, none, none]), (Rows.AhWW, "amp2_Aplus", 2, ![some true, none, none, none]),
  (Rows.AWWh, "amp2_Aplus", 2, ![some true, none, none, none]), (Rows.AAWW, "amp2_Aplus_Aplus", 2, ![some true, some true, none, none]), (Rows.AAWW, "amp2_Aplus_Aminus", 3, ![some true, some false, none, none]),
  (Rows.AWAW, "amp2_Aplus", 2, ![some true, none, none, none]), (Rows.AWAW, "amp2_Aminus", 3, ![some false, none, none, none]), (Rows.AZWW, "amp2_Aplus", 2, ![some true, none, none, none]),
  (Rows.AWZW, "amp2_Aplus", 2, ![some true, none, none, none])]

/-- The name of a method says the helicities: for each incoming photon (`A`) or gluon (`g`) in the order of the particles `plus` or `minus`. -/
def methodName (S : Reaction) (H : Fin 4 → Option Bool) : String :=
  "amp2" ++ String.join (([0, 1] : List (Fin 4)).map fun n => match S.leg n, H n with
    | .boson .photon, some r => if r then "_Aplus" else "_Aminus"
    | .boson .gluon, some r => if r then "_gplus" else "_gminus"
    | _, _ => "")

/-- the helicities are those of all incoming photons and gluons -/
def allIncoming (S : Reaction) (H : Fin 4 → Option Bool) : Bool := ([0, 1, 2, 3] : List (Fin 4)).all fun n =>
  (H n).isSome == (arrives n && (decide (S.leg n = .boson .photon) || decide (S.leg n = .boson .gluon)))

/-- The table is right: the methods are in the classes under these names, ... -/
theorem C74_names : ∀ x ∈ polarised, (x.2.1, x.2.2.1) ∈ x.1.proc.others ∧ x.2.1 = methodName x.1.react x.2.2.2 ∧ allIncoming x.1.react x.2.2.2 = true := by
  decide +kernel

/-- ... and it is complete: the other methods that return squares are those of `gggg`, the massless formula `amp2_Feynman`, and the method of `eAeh` (see below). -/
theorem C74_complete : ∀ P ∈ SM.all, ∀ y ∈ P.others, P.name = "gggg" ∨ y.1 = "amp2_Feynman" ∨ (P.name, y) = ("eAeh", "amp2_Aplus", 2) ∨ ∃ x ∈ polarised, x.1.proc.name = P.name ∧ (x.2.1, x.2.2.1) = y := by
  decide +kernel

variable [FPEnv]

theorem polarised_agrees : ∀ x ∈ polarised, x.1.Polarises x.2.2.1 x.2.2.2 := by
  unfold polarised
  simp only [List.forall_mem_cons, List.not_mem_nil, false_implies, implies_true, and_true]
  exact ⟨Rows.AAuu.amp2_Aplus_Aplus_polarises, Rows.AAuu.amp2_Aplus_Aminus_polarises, Rows.AAdd.amp2_Aplus_Aplus_polarises, Rows.AAdd.amp2_Aplus_Aminus_polarises, Rows.AAee.amp2_Aplus_Aplus_polarises, Rows.AAee.amp2_Aplus_Aminus_polarises, Rows.uAAu.amp2_Aplus_polarises, Rows.uAAu.amp2_Aminus_polarises, Rows.dAAd.amp2_Aplus_polarises, Rows.dAAd.amp2_Aminus_polarises, Rows.eAAe.amp2_Aplus_polarises, Rows.gAdd.amp2_gplus_Aplus_polarises, Rows.gAdd.amp2_gplus_Aminus_polarises, Rows.gAuu.amp2_gplus_Aplus_polarises, Rows.gAuu.amp2_gplus_Aminus_polarises, Rows.dAgd.amp2_Aplus_polarises, Rows.dAgd.amp2_Aminus_polarises, Rows.guAu.amp2_gplus_polarises, Rows.guAu.amp2_gminus_polarises, Rows.uAuh.amp2_Aplus_polarises, Rows.dAdh.amp2_Aplus_polarises, Rows.dgdh.amp2_gplus_polarises, Rows.uguh.amp2_gplus_polarises, Rows.hgdd.amp2_gplus_polarises, Rows.hguu.amp2_gplus_polarises, Rows.AZuu.amp2_Aplus_polarises, Rows.AZuu.amp2_Aminus_polarises, Rows.AZdd.amp2_Aplus_polarises, Rows.AZdd.amp2_Aminus_polarises, Rows.AZee.amp2_Aplus_polarises, Rows.AZee.amp2_Aminus_polarises, Rows.AuZu.amp2_Aplus_polarises, Rows.AuZu.amp2_Aminus_polarises, Rows.AdZd.amp2_Aplus_polarises, Rows.AdZd.amp2_Aminus_polarises, Rows.AeZe.amp2_Aplus_polarises, Rows.AeZe.amp2_Aminus_polarises, Rows.gZdd.amp2_gplus_polarises, Rows.gZdd.amp2_gminus_polarises, Rows.gZuu.amp2_gplus_polarises, Rows.gZuu.amp2_gminus_polarises, Rows.gdZd.amp2_gplus_polarises, Rows.gdZd.amp2_gminus_polarises, Rows.guZu.amp2_gplus_polarises, Rows.guZu.amp2_gminus_polarises, Rows.AWud.amp2_Aplus_polarises, Rows.AnWe.amp2_Aplus_polarises, Rows.gWud.amp2_gplus_polarises, Rows.ggdd.amp2_gplus_gplus_polarises, Rows.ggdd.amp2_gplus_gminus_polarises, Rows.gguu.amp2_gplus_gplus_polarises, Rows.gguu.amp2_gplus_gminus_polarises, Rows.dggd.amp2_gplus_polarises, Rows.dggd.amp2_gminus_polarises, Rows.gugu.amp2_gplus_polarises, Rows.gugu.amp2_gminus_polarises, Rows.AhWW.amp2_Aplus_polarises, Rows.AWWh.amp2_Aplus_polarises, Rows.AAWW.amp2_Aplus_Aplus_polarises, Rows.AAWW.amp2_Aplus_Aminus_polarises, Rows.AWAW.amp2_Aplus_polarises, Rows.AWAW.amp2_Aminus_polarises, Rows.AZWW.amp2_Aplus_polarises, Rows.AWZW.amp2_Aplus_polarises⟩

/-- C74. A method for given helicities of the incoming photons and gluons returns the squared amplitude of the Feynman rules for these helicities, summed over the other spins and the colours
of the final state and averaged over those of the initial state: for any object of the class, whatever was done to it before, any values of its parameters, any momenta on the mass shells off the poles,
any circular polarisation vectors for the given helicities and any spinors and polarisation vectors for the rest. -/
theorem C74_feynman {R : BRow} {name : String} {k : Nat} {H : Fin 4 → Option Bool} (hR : (R, name, k, H) ∈ polarised) (mem : Nat → XR) (junk : Kin XR XC) (par : Nat → XR) (ops : List (ProcOp XR XC))
    (hst : R.proc.name ∈ staleMasses → Unset ops) {c : Constants} (hpar : ∀ n q, R.pars[n]? = some (some q) → parAfter R.proc.massPar ops par n = fin (c.get q)) (hc : c.Physical) (hh : c.Heavy)
    (hz : ∀ q ∈ R.absent, c.get q = 0) {o : Obj XR XC} (ho : o = runProcOps R.proc ops (R.proc.construct mem junk par).2) {p : Nat → V4 ℝ} (hs : ∀ i : Fin 4, OnShell (p i) (R.react.mass c i))
    (hb : Balanced p) (hr : R.react.Regular c p) {u : Fin 4 → Fin 3 → Spinor} {ε : Fin 4 → Fin 3 → Vec} (hu : ∀ i, R.react.Prepared c p i (H i) (u i) (ε i)) (j : Kin XR XC) (xs : List (MCall XR XC)) (l : Loc XR XC) :
    (R.proc.runSetMomenta j (fun i => (p i).toX) o).1 = .ok () ∧
    (R.proc.method l .r k [] (runCalls R.proc xs (R.proc.runSetMomenta j (fun i => (p i).toX) o).2)).1 = .ok (fin (R.react.prepared c p H u ε)) :=
  polarised_agrees _ hR mem junk par ops c p u ε o j xs l hst hpar hc hh hz ho hs hb hr hu

/-- The same for `eAeh`, which is also given the vacuum expectation value `v` of the Higgs field. -/
theorem C74_vev (mem : Nat → XR) (junk : Kin XR XC) (par : Nat → XR) (ops : List (ProcOp XR XC)) (hst : Rows.eAeh.proc.name ∈ staleMasses → Unset ops) {c : Constants} {v : ℝ}
    (hpar : ∀ n q, Rows.eAeh.pars[n]? = some (some q) → parAfter Rows.eAeh.proc.massPar ops par n = fin (c.get q)) (hvp : ∀ n, Rows.eAeh.pars[n]? = some none → parAfter Rows.eAeh.proc.massPar ops par n = fin v)
    (hve : v * c.e = 2 * c.MW * c.SW) (hc : c.Physical) (hh : c.Heavy) {o : Obj XR XC} (ho : o = runProcOps Rows.eAeh.proc ops (Rows.eAeh.proc.construct mem junk par).2) {p : Nat → V4 ℝ}
    (hs : ∀ i : Fin 4, OnShell (p i) (Rows.eAeh.react.mass c i)) (hb : Balanced p) (hr : Rows.eAeh.react.Regular c p) {u : Fin 4 → Fin 3 → Spinor} {ε : Fin 4 → Fin 3 → Vec}
    (hu : ∀ i, Rows.eAeh.react.Prepared c p i ((![none, some true, none, none] : Fin 4 → Option Bool) i) (u i) (ε i)) (j : Kin XR XC) (xs : List (MCall XR XC)) (l : Loc XR XC) :
    (Cls.eAeh.runSetMomenta j (fun i => (p i).toX) o).1 = .ok () ∧
    (Cls.eAeh.method l .r 2 [] (runCalls Cls.eAeh xs (Cls.eAeh.runSetMomenta j (fun i => (p i).toX) o).2)).1 = .ok (fin (Rows.eAeh.react.prepared c p ![none, some true, none, none] u ε)) :=
  Rows.eAeh.amp2_Aplus_polarises mem junk par ops c v p u ε o j xs l hst hpar hvp hve hc hh ho hs hb hr hu

/-- There are such spinors and polarisation vectors, if the photons and gluons have some energy. -/
theorem C74_states (S : Reaction) {H : Fin 4 → Option Bool} (hL : S.Lights H) {c : Constants} (hc : c.Physical) (hh : c.Heavy) {p : Nat → V4 ℝ} (hp : ∀ n : Fin 4, OnShell (p n) (S.mass c n))
    (he : ∀ n, (S.boson n).massive = false → (p n).t ≠ 0) : ∃ (u : Fin 4 → Fin 3 → Spinor) (ε : Fin 4 → Fin 3 → Vec), ∀ n, S.Prepared c p n (H n) (u n) (ε n) := by
  obtain ⟨u, ε, hu⟩ := C68_states S hc hh hp he
  refine ⟨u, fun n s => match H n with | none => ε n s | some true => star (lightE (legA (p n) 0 0, legS (p n) 0 1) 1) | some false => star (lightE (legA (p n) 0 0, legS (p n) 0 1) 0), fun n => ?_⟩
  cases h : H n with
  | none => simpa [Prepared, h] using hu n
  | some r =>
    obtain ⟨b, hl, hb, -⟩ := hL.leg (n := n) (by simp [h])
    have hs := hp n
    rw [S.mass_light hl hb] at hs
    have ht := (light_code hs).circular (he n (by simpa [boson, hl] using hb))
    cases r
    · simpa [Prepared, h] using ht.2
    · simpa [Prepared, h] using ht.1

/-! ### the hypotheses can be met -/

section examples

/-- Compton scattering of a photon of positive helicity, moving in the direction of negative z, so that its field turns from x to -y -/
example (mem : Nat → XR) (junk : Kin XR XC) (l : Loc XR XC) : ∃ (u : Fin 4 → Fin 3 → Spinor) (ε : Fin 4 → Fin 3 → Vec), ε 1 0 = ![0, ((√2 / 2 : ℝ) : ℂ), ((√2 / 2 : ℝ) : ℂ) * -Complex.I, 0] ∧
    (Cls.eAAe.method l .r 2 [] (Cls.eAAe.runSetMomenta junk (fun i => (exCompton i).toX) (Cls.eAAe.construct mem junk fun n => if n = 0 then fin 1 else fin 5).2).2).1 =
    .ok (fin (Rows.eAAe.react.prepared exMass exCompton ![none, some true, none, none] u ε)) := by
  have hc := exMass_physical
  have hh := exMass_heavy
  have hb : Balanced exCompton := by constructor <;> norm_num [exCompton]
  have hs : ∀ i : Fin 4, OnShell (exCompton i) (Rows.eAAe.react.mass exMass i) := by
    intro i
    have : Rows.eAAe.react.mass exMass i = (![5, 0, 0, 5] : Fin 4 → ℝ) i := by fin_cases i <;> rfl
    rw [this]
    fin_cases i <;> constructor <;> norm_num [exCompton]
  have hr : Rows.eAAe.react.Regular exMass exCompton := by
    refine ⟨?_, ?_, ?_⟩
    · intro x h _
      cases h
      show msq (plus (exCompton 0) (exCompton 1)) - (5 : ℝ) ^ 2 ≠ 0
      norm_num [msq, plus, exCompton, backward]
    · intro x h _
      cases h
      show msq (plus (exCompton 0) (backward (exCompton 2))) - (5 : ℝ) ^ 2 ≠ 0
      norm_num [msq, plus, exCompton, backward]
    · intro x h1 h2 h
      cases x <;> first | cases h1 | cases h2
  obtain ⟨u, ε, hu⟩ := C68_states Rows.eAAe.react hc hh hs (by
    intro n h
    fin_cases n
    · norm_num [exCompton]
    · norm_num [exCompton]
    · norm_num [exCompton]
    · norm_num [exCompton])
  have hC : Circular (exCompton 1) true ![0, ((√2 / 2 : ℝ) : ℂ), ((√2 / 2 : ℝ) : ℂ) * -Complex.I, 0] := by
    have h2 : ((√2 : ℝ) : ℂ) * ((√2 : ℝ) : ℂ) = 2 := by rw [← Complex.ofReal_mul, Real.mul_self_sqrt (by norm_num)]; norm_num
    constructor
    · norm_num [exCompton]
    · rw [Circular.contract_sum]
      simp
      linear_combination (-1 / 4 + 1 / 4 * Complex.I ^ 2) * h2 + 1 / 2 * Complex.I_sq
    · simp [exCompton]; ring
    · simp [exCompton]; linear_combination (-6 * ((√2 : ℝ) : ℂ)) * Complex.I_sq
    · simp [exCompton]
  refine ⟨u, fun n s => if n = 1 then ![0, ((√2 / 2 : ℝ) : ℂ), ((√2 / 2 : ℝ) : ℂ) * -Complex.I, 0] else ε n s, if_pos rfl, (C74_feynman (R := Rows.eAAe) (name := "amp2_Aplus") (k := 2) (by simp [polarised]) mem junk _ []
    (fun _ _ _ => List.not_mem_nil) (c := exMass) ?_ hc hh (by simp [Rows.eAAe]) (by rw [runProcOps]; rfl) hs hb hr ?_ junk [] l).2⟩
  · intro n q h
    match n with
    | 0 => cases h; rfl
    | 1 => cases h; rfl
    | n + 2 => cases h
  · intro n
    match n with
    | 0 => exact hu 0
    | 1 => exact hC
    | 2 => exact hu 2
    | 3 => exact hu 3

end examples

end
end Spinas.Props
