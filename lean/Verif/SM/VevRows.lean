import Verif.SM.LightRows

/-! The classes for an electron, a photon and a Higgs boson: in place of the mass of the W and the mixing angle they have a parameter `vev`, the vacuum expectation value of the Higgs field. -/

namespace Spinas.SM
open Spec Props XR Matrix

namespace Rows
/-- parameters without a name: `vev` -/
def eeAh : BRow := ⟨Cls.eeAh, ⟨![.fermion .e false, .fermion .e true, .boson .photon, .boson .higgs]⟩, [some .e, some (.mass .e), some .MH, none], []⟩
def eAeh : BRow := ⟨Cls.eAeh, ⟨![.fermion .e false, .boson .photon, .fermion .e false, .boson .higgs]⟩, [some .e, some (.mass .e), some .MH, none], []⟩
end Rows

namespace BRow
variable (R : BRow)

/-- the parameters -/
noncomputable def rhoVev (c : Constants) (v : ℝ) (n : Nat) : ℝ := match R.pars[n]? with
  | some (some q) => c.get q
  | some none => v
  | none => 0

variable [FPEnv]

/-- As `Agrees`, with the vacuum expectation value `v = 2 MW sin θ / e`. -/
def AgreesVev : Prop := ∀ (mem : Nat → XR) (junk : Kin XR XC) (par : Nat → XR) (ops : List (ProcOp XR XC)) (c : Constants) (v : ℝ) (p : Nat → V4 ℝ) (u : Fin 4 → Fin 3 → Spinor) (ε : Fin 4 → Fin 3 → Vec)
    (o : Obj XR XC) (j : Kin XR XC) (xs : List (MCall XR XC)) (l : Loc XR XC), (R.proc.name ∈ staleMasses → Unset ops) →
  (∀ n q, R.pars[n]? = some (some q) → parAfter R.proc.massPar ops par n = fin (c.get q)) → (∀ n, R.pars[n]? = some none → parAfter R.proc.massPar ops par n = fin v) → v * c.e = 2 * c.MW * c.SW →
  c.Physical → c.Heavy → o = runProcOps R.proc ops (R.proc.construct mem junk par).2 →
  (∀ i : Fin 4, OnShell (p i) (R.react.mass c i)) → Balanced p → R.react.Regular c p → (∀ i, R.react.Complete c p i (u i) (ε i)) →
  (R.proc.runSetMomenta j (fun i => (p i).toX) o).1 = .ok () ∧
  (R.proc.method l .r R.proc.amp2 [] (runCalls R.proc xs (R.proc.runSetMomenta j (fun i => (p i).toX) o).2)).1 = .ok (fin (R.react.squared c p u ε))

variable {R}

omit [FPEnv] in
theorem vev_eq {c : Constants} {v : ℝ} (hc : c.Physical) (h : v * c.e = 2 * c.MW * c.SW) : c.e ≠ 0 ∧ v ≠ 0 ∧ v = 2 * c.MW * c.SW / c.e := by
  have h0 : 2 * c.MW * c.SW ≠ 0 := mul_ne_zero (mul_ne_zero two_ne_zero hc.MW) hc.SW
  have e0 : c.e ≠ 0 := fun e => h0 (by rw [← h, e, mul_zero])
  exact ⟨e0, fun e => h0 (by rw [← h, e, zero_mul]), by rw [eq_div_iff e0, h]⟩

theorem agreesVev_of {D E : List Nat} (hP : R.proc ∈ all) (hn : R.proc.numericOnce (List.range R.pars.length) D E = true) (hE : E.all (fun n => decide (n < R.pars.length)) = true) (hk : R.proc.isSquare R.proc.amp2 = true)
    (hD : ∀ (c : Constants) (v : ℝ), c.Physical → c.Heavy → v * c.e = 2 * c.MW * c.SW → (∀ n ∈ D, R.rhoVev c v n ≠ 0) ∧ ∀ n ∈ E, R.rhoVev c v n ^ 2 < 1)
    (hm : ∀ (c : Constants) (v : ℝ), c.Physical → ∀ i : Fin 4, R.proc.massNum (R.rhoVev c v) i = R.react.mass c i)
    (hz : ∀ i : Fin 4, heavy (R.react.leg i) || R.proc.massless i = true)
    (hv : ∀ (c : Constants) (v : ℝ) (p : Nat → V4 ℝ) (u : Fin 4 → Fin 3 → Spinor) (ε : Fin 4 → Fin 3 → Vec), c.Physical → c.Heavy → v * c.e = 2 * c.MW * c.SW → (∀ i, 0 ≤ R.react.mass c i) →
      (∀ i : Fin 4, OnShell (p i) (R.react.mass c i)) → Balanced p → R.react.Regular c p → (∀ i, R.react.Complete c p i (u i) (ε i)) →
      (∀ n, (Ty.r, n) ∈ R.proc.divides → (R.proc.env (R.rhoVev c v) p).r n ≠ 0) ∧ (∀ n, (Ty.c, n) ∈ R.proc.divides → (R.proc.env (R.rhoVev c v) p).c n ≠ 0) ∧
      meaning (R.proc.env (R.rhoVev c v) p) .r R.proc.methods R.proc.amp2 [] = R.react.squared c p u ε) : R.AgreesVev := by
  intro mem junk par ops c v p u ε o j xs l hst hpar hvp hve hc hh ho hs hb hr hu
  obtain ⟨h1, h2, h3⟩ := hv c v p u ε hc hh hve (leg_nonneg hc hh R.react) hs hb hr hu
  have i4 : ∀ i, i < 4 → R.proc.massNum (R.rhoVev c v) i = R.react.mass c (Fin.ofNat 4 i) := by
    intro i hi
    have := hm c v hc (Fin.ofNat 4 i)
    simpa [Nat.mod_eq_of_lt hi] using this
  have := numericOnce_result (D := D) (E := E) (ρ := R.rhoVev c v) hP ops (Decidable.or_iff_not_imp_left.2 fun h => hst (by simpa using h)) hn (fun n hn => List.mem_range.2 (by simpa using List.all_eq_true.1 hE n hn))
    (hD c v hc hh hve).1 (hD c v hc hh hve).2 mem junk par (fun n hn => ?_) ho (p := p) (fun i hi => ?_) (fun i hi hl => ?_) h1 h2 j xs l R.proc.amp2 hk
  · rw [h3] at this
    exact this
  · have hn := List.mem_range.1 hn
    cases hq : R.pars[n]? with
    | none => rw [List.getElem?_eq_none_iff] at hq; omega
    | some q =>
      cases q with
      | none => rw [hvp n hq, rhoVev, hq]
      | some q => rw [hpar n q hq, rhoVev, hq]
  · rw [i4 i hi]
    have := hs (Fin.ofNat 4 i)
    simpa [Nat.mod_eq_of_lt hi] using this
  · rw [i4 i hi]
    refine (leg_pos hc hh ?_).ne'
    have := hz (Fin.ofNat 4 i)
    simpa [Nat.mod_eq_of_lt hi, hl] using this

end BRow
end Spinas.SM
