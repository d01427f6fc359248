import Verif.SM.BosonRows

/-! `nnWW` and `nWWn`, which give the propagator of the electron no mass until `set_masses` is called. -/

namespace Spinas.SM
open Spec Props XR Matrix

/-- A constructor that uses its parameter 1 as the mass of propagator 0. -/
def electronInstr : SInstr → List SInstr
  | .set .r 1 _ => []
  | .prop 0 _ w => [.prop 0 (.loc .r 1) w]
  | i => [i]

/-- The class with such a constructor (and without the member `me`, that nothing depends on). -/
def Proc.withElectron (P : Proc) : Proc := { P with ctor := P.ctor.flatMap electronInstr }

/-- parameter 1 is 0 -/
def noElectron (n : Nat) : Exp .r := if n = 1 then .lit 0 else .loc .r n

def Proc.electronCheck (P : Proc) : Bool := match P.sym, P.withElectron.sym with
  | some S, some T => P.checkAll S && P.withElectron.checkAll T && SM.checkReset P.withElectron P.massPar T && (T.rename noElectron).total T && (T.rename noElectron).le S &&
    (match P.symM S with
    | some S1 => (T.rename (newPar P.massPar)).total T && (T.rename (newPar P.massPar)).le S1
    | none => false)
  | _, _ => false

section
variable {R C : Type} [Scalar R] [HasPow R] [Cplx R C]

/-- the parameters in force -/
def electronPar (massPar : List Nat) : List (ProcOp R C) → (Nat → R) → Nat → R
  | [], par => fun n => if n = 1 then int 0 else par n
  | .setMasses _ args :: ops, par => parAfter massPar ops (withMasses massPar par args)
  | _ :: ops, par => electronPar massPar ops par

theorem withElectron_ops (P : Proc) (ops : List (ProcOp R C)) : ∀ o, runProcOps P.withElectron ops o = runProcOps P ops o := by
  induction ops with
  | nil => exact fun _ => rfl
  | cons op ops ih => exact fun o => (ih _).trans (by cases op <;> rfl)

theorem withElectron_calls (P : Proc) (xs : List (MCall R C)) : ∀ o, runCalls P.withElectron xs o = runCalls P xs o := by
  induction xs with
  | nil => exact fun _ => rfl
  | cons x xs ih => exact fun o => ih _

theorem electron_inv {P : Proc} {S T : Sym} (h1 : P.checkAll S = true) (h2 : P.withElectron.checkAll T = true) (h3 : SM.checkReset P.withElectron P.massPar T = true)
    (h4 : (T.rename noElectron).total T = true) (h5 : (T.rename noElectron).le S = true) {S1 : Sym} (h6 : P.symM S = some S1)
    (h7 : (T.rename (newPar P.massPar)).total T = true) (h8 : (T.rename (newPar P.massPar)).le S1 = true) (ops : List (ProcOp R C)) :
    ∀ {par : Nat → R} {o : Obj R C}, SM.Inv S par o → SM.Inv T (electronPar P.massPar ops par) (runProcOps P ops o) := by
  induction ops with
  | nil =>
    intro par o h
    refine (h.le h5).of_rename (fun n => ?_) h4
    unfold noElectron
    by_cases e : n = 1
    · rw [if_pos e]; exact if_pos e
    · rw [if_neg e]; exact if_neg e
  | cons op ops ih =>
    intro par o h
    cases op with
    | setMasses junk args =>
      have := (setMasses_inv h6 h junk args args).2
      have h9 := ops_inv_reset (P := P.withElectron) (checkAll_parts h2).1 h3 ops ((this.le h8).of_rename (withMasses_val P.massPar par args args) h7)
      rw [withElectron_ops] at h9
      exact h9
    | setMomenta junk q => exact ih (op_inv (checkAll_parts h1).1 h (.setMomenta junk q) (by simp))
    | call x => exact ih (op_inv (checkAll_parts h1).1 h (.call x) (by simp))
end

section
variable [FPEnv]

theorem electronPar_unset {massPar : List Nat} : ∀ {ops : List (ProcOp XR XC)} {par : Nat → XR}, Unset ops → ∀ n, electronPar massPar ops par n = if n = 1 then int 0 else parAfter massPar ops par n
  | [], _, _, _ => rfl
  | .setMasses junk args :: _, _, h, _ => absurd List.mem_cons_self (h junk args)
  | .setMomenta _ _ :: _, _, h, n => electronPar_unset (fun j a hm => h j a (List.mem_cons_of_mem _ hm)) n
  | .call _ :: _, _, h, n => electronPar_unset (fun j a hm => h j a (List.mem_cons_of_mem _ hm)) n

theorem electronPar_set {massPar : List Nat} : ∀ {ops : List (ProcOp XR XC)} {par : Nat → XR}, ¬Unset ops → electronPar massPar ops par = parAfter massPar ops par
  | [], _, h => absurd (fun _ _ => by simp) h
  | .setMasses _ _ :: _, _, _ => rfl
  | .setMomenta _ _ :: ops, _, h => electronPar_set (ops := ops) (fun hu => h fun j a hm => hu j a (by simpa using hm))
  | .call _ :: ops, _, h => electronPar_set (ops := ops) (fun hu => h fun j a hm => hu j a (by simpa using hm))

/-- As `numericOnce_result`, for an object described by the state after the constructor of another class with the same methods. -/
theorem numericInv_result {P : Proc} {S : Sym} {B D E : List Nat} {ρ : Nat → ℝ} (hS : P.sym = some S) (hck : P.checkAll S = true) (ht : P.tame = true) (hn : P.numericOnce B D E = true) (hB : ∀ n ∈ E, n ∈ B) (hD : ∀ n ∈ D, ρ n ≠ 0) (hE : ∀ n ∈ E, ρ n ^ 2 < 1) {par : Nat → XR}
    (hpar : ∀ n ∈ B, par n = fin (ρ n)) {o : Obj XR XC} (hi : SM.Inv S par o)
    {p : Nat → V4 ℝ} (hs : ∀ i, i < 4 → OnShell (p i) (P.massNum ρ i)) (hm : ∀ i, i < 4 → P.massless i = false → P.massNum ρ i ≠ 0)
    (hr : ∀ n, (Ty.r, n) ∈ P.divides → (P.env ρ p).r n ≠ 0) (hc : ∀ n, (Ty.c, n) ∈ P.divides → (P.env ρ p).c n ≠ 0)
    (j : Kin XR XC) (xs : List (MCall XR XC)) (l : Loc XR XC) (k : Nat) (hk : P.isSquare k = true) :
    (P.runSetMomenta j (fun i => (p i).toX) o).1 = .ok () ∧
    (P.method l .r k [] (runCalls P xs (P.runSetMomenta j (fun i => (p i).toX) o).2)).1 = .ok (fin (meaning (P.env ρ p) .r P.methods k [])) := by
  simp only [Proc.numericOnce, Bool.and_eq_true] at hn
  obtain ⟨⟨hnp, hrd⟩, hms⟩ := hn
  rw [List.all_eq_true] at hrd hms
  have bnd : ∀ {α : Type} (g : Sym → Option α), (P.sym.bind g) = g S := by intro α g; rw [hS]; rfl
  have hmo : ∀ i, i < 4 → (o.w.part i).kin.m = fin (P.massNum ρ i) := by
    intro i hlt
    have := hms i (by have : i = 0 ∨ i = 1 ∨ i = 2 ∨ i = 3 := by omega
                      rcases this with rfl | rfl | rfl | rfl <;> simp)
    split at this
    · rename_i e he
      rw [Proc.massNum, he]
      rw [bnd] at he
      exact (hi.mass i e he).trans (finc_val hB hD hE hpar e this)
    · cases this
  have hn : MassesNonzero P o := by
    intro i hlt hml
    rw [hmo i hlt]
    simpa [Scalar.ne] using hm i hlt hml
  have hacc : (P.runSetMomenta j (fun i => (p i).toX) o).1 = .ok () := by
    refine (alike_of_inv hck hi hi (fun i => (p i).toX) j j).2.1 fun i hlt => ?_
    rw [hmo i hlt]; exact ctorPM_onShell j (hs i hlt)
  have hinv : SM.Inv S par (P.runSetMomenta j (fun i => (p i).toX) o).2 := by
    rcases (setMomenta_sound (checkAll_parts hck).2.1 hi hi j j j (fun i => (p i).toX) (fun i => fin (P.massNum ρ i)) hmo).2 with ⟨_, e, _⟩ | ⟨_, _, _, r, c, u, _, ha⟩
    · rw [hacc] at e; cases e
    · exact ha.inv
  have den : ∀ d, P.denFin B D E d = true → ∃ k v, d = some (k, v) ∧ (Propag.denominator (o.pr k) (v.eval fun i => (p i).toX) : XC) = ofC (P.denNum ρ p d) := by
    intro d hd
    unfold Proc.denFin at hd
    unfold Proc.denNum
    split at hd
    · rename_i k v
      split at hd
      · rename_i m w em ew
        rw [Bool.and_eq_true] at hd
        refine ⟨k, v, rfl, ?_⟩
        rw [bnd] at em ew
        have := denominator_fin ((hi.pm k m em).trans (finc_val hB hD hE hpar m hd.1)) ((hi.pw k w ew).trans (finc_val hB hD hE hpar w hd.2)) (v.sum p)
        rw [← VExp.eval_sum] at this
        exact this
      · cases hd
    · cases hd
  refine ⟨hacc, square_meaning hck ht hk hi hmo hn (fun i hi => (hs i hi).mag_le) j hacc xs l ⟨fun n hn => ?_, fun n hn => ?_, hr, hc⟩ ?_⟩
  · have := hrd _ hn
    simp only at this
    split at this
    · rename_i e he
      simp only [Proc.env, he]
      rw [bnd] at he
      exact (hinv.r n e he).trans (finc_val hB hD hE hpar e this)
    · rename_i he
      obtain ⟨k, v, h1, h2⟩ := den _ this
      have := den_sound j (fun _ => int 0) (fun i => (p i).toX) n P.setMomenta none o hnp (by simp) hacc _ _ h1
      simp only [Proc.env, he]
      unfold Proc.runSetMomenta
      rw [this, h2]
      rfl
  · have := hrd _ hn
    obtain ⟨k, v, h1, h2⟩ := den _ this
    have := denC_sound j (fun _ => int 0) (fun i => (p i).toX) n P.setMomenta none o hnp (by simp) hacc _ _ h1
    unfold Proc.runSetMomenta
    rw [this, h2]
    rfl
  · show braTab _ _ _ = _
    congr 1
    funext a
    exact bnd _

end
end Spinas.SM

namespace Spinas.Spec.Constants
variable (c : Constants)
/-- as `Physical`, but for the masses of charged fermions -/
structure Weak : Prop where
  MW : c.MW ≠ 0
  SW : c.SW ≠ 0
  SW_lt : c.SW ^ 2 < 1
  neutrino : ∀ g, c.mass ⟨.neutrino, g⟩ = 0

variable {c}
theorem Physical.weak (h : c.Physical) : c.Weak := ⟨h.MW, h.SW, h.SW_lt, h.neutrino⟩
theorem Weak.CW (h : c.Weak) : c.CW ≠ 0 := by
  have : 0 < 1 - c.SW ^ 2 := by have := h.SW_lt; linarith
  exact (Real.sqrt_pos.2 (by simpa [sq] using this)).ne'
theorem Weak.boson_pos (hc : c.Weak) (hh : c.Heavy) {b : Boson} (hb : b.massive = true) : 0 < c.bosonMass b := by
  cases b
  · exact hh.MH
  · cases hb
  · have h : 0 < 1 - c.SW ^ 2 := by have := hc.SW_lt; linarith
    exact div_pos hh.MW (Real.sqrt_pos.2 (by simpa [sq] using h))
  · exact hh.MW
  · exact hh.MW
  · cases hb
end Spinas.Spec.Constants

namespace Spinas.SM
open Spec Props XR Matrix

namespace Rows
def nnWW : BRow := ⟨Cls.nnWW, ⟨![.fermion .ne false, .fermion .ne true, .boson .wPlus, .boson .wMinus]⟩, [some .e, some (.mass .e), some .MW, some .SW, some .WZ], []⟩
def nWWn : BRow := ⟨Cls.nWWn, ⟨![.fermion .ne false, .boson .wPlus, .boson .wPlus, .fermion .ne false]⟩, [some .e, some (.mass .e), some .MW, some .SW, some .WZ], []⟩
end Rows

namespace BRow
variable (R : BRow) [FPEnv]

/-- As `Agrees`, the mass of the electron being 0 if `set_masses` has not been called. -/
def AgreesElectron : Prop := ∀ (mem : Nat → XR) (junk : Kin XR XC) (par : Nat → XR) (ops : List (ProcOp XR XC)) (c : Constants) (p : Nat → V4 ℝ) (u : Fin 4 → Fin 3 → Spinor) (ε : Fin 4 → Fin 3 → Vec)
    (o : Obj XR XC) (j : Kin XR XC) (xs : List (MCall XR XC)) (l : Loc XR XC),
  (∀ n q, R.pars[n]? = some (some q) → n ≠ 1 → parAfter R.proc.massPar ops par n = fin (c.get q)) → (Unset ops → c.mass .e = 0) → (¬Unset ops → parAfter R.proc.massPar ops par 1 = fin (c.mass .e)) →
  c.Weak → c.Heavy → o = runProcOps R.proc ops (R.proc.construct mem junk par).2 →
  (∀ i : Fin 4, OnShell (p i) (R.react.mass c i)) → Balanced p → R.react.Regular c p → (∀ i, R.react.Complete c p i (u i) (ε i)) →
  (R.proc.runSetMomenta j (fun i => (p i).toX) o).1 = .ok () ∧
  (R.proc.method l .r R.proc.amp2 [] (runCalls R.proc xs (R.proc.runSetMomenta j (fun i => (p i).toX) o).2)).1 = .ok (fin (R.react.squared c p u ε))

variable {R}

theorem agreesElectron_of {D E : List Nat} (hck : R.proc.electronCheck = true) (htm : R.proc.withElectron.tame = true) (h1m : R.pars[1]? = some (some (.mass .e)))
    (hn : R.proc.withElectron.numericOnce R.used D E = true) (hE : E.all (fun n => decide (n ∈ R.used)) = true) (hk : R.proc.withElectron.isSquare R.proc.amp2 = true)
    (hD : ∀ c : Constants, c.Weak → c.Heavy → (∀ n ∈ D, R.rho c n ≠ 0) ∧ ∀ n ∈ E, R.rho c n ^ 2 < 1)
    (hm : ∀ c : Constants, c.Weak → ∀ i : Fin 4, R.proc.withElectron.massNum (R.rho c) i = R.react.mass c i)
    (hz : ∀ (c : Constants), c.Weak → c.Heavy → ∀ i : Fin 4, R.proc.withElectron.massless i = false → 0 < R.react.mass c i)
    (hz0 : ∀ (c : Constants), c.Weak → c.Heavy → ∀ i : Fin 4, 0 ≤ R.react.mass c i)
    (hv : ∀ (c : Constants) (p : Nat → V4 ℝ) (u : Fin 4 → Fin 3 → Spinor) (ε : Fin 4 → Fin 3 → Vec), c.Weak → c.Heavy → (∀ i, 0 ≤ R.react.mass c i) →
      (∀ i : Fin 4, OnShell (p i) (R.react.mass c i)) → Balanced p → R.react.Regular c p → (∀ i, R.react.Complete c p i (u i) (ε i)) →
      (∀ n, (Ty.r, n) ∈ R.proc.withElectron.divides → (R.proc.withElectron.env (R.rho c) p).r n ≠ 0) ∧ (∀ n, (Ty.c, n) ∈ R.proc.withElectron.divides → (R.proc.withElectron.env (R.rho c) p).c n ≠ 0) ∧
      meaning (R.proc.withElectron.env (R.rho c) p) .r R.proc.methods R.proc.amp2 [] = R.react.squared c p u ε) : R.AgreesElectron := by
  intro mem junk par ops c p u ε o j xs l hpar hun hset hc hh ho hs hb hr hu
  obtain ⟨h1, h2, h3⟩ := hv c p u ε hc hh (hz0 c hc hh) hs hb hr hu
  have i4 : ∀ i, i < 4 → R.proc.withElectron.massNum (R.rho c) i = R.react.mass c (Fin.ofNat 4 i) := by
    intro i hi
    have := hm c hc (Fin.ofNat 4 i)
    simpa [Nat.mod_eq_of_lt hi] using this
  unfold Proc.electronCheck at hck
  split at hck
  · rename_i S T hS hT
    split at hck
    · rename_i S1 hS1
      simp only [Bool.and_eq_true] at hck
      obtain ⟨⟨⟨⟨⟨k1, k2⟩, k3⟩, k4⟩, k5⟩, k6, k7⟩ := hck
      have hi := electron_inv k1 k2 k3 k4 k5 hS1 k6 k7 ops (construct_inv hS mem junk par).2
      rw [← ho] at hi
      have := numericInv_result (P := R.proc.withElectron) (D := D) (E := E) (ρ := R.rho c) hT k2 htm hn (fun n hn => by simpa using List.all_eq_true.1 hE n hn)
        (hD c hc hh).1 (hD c hc hh).2 (fun n hn => ?_) hi (p := p) (fun i hi => ?_) (fun i hi hl => ?_) h1 h2 j xs l R.proc.amp2 hk
      · rw [show R.proc.withElectron.methods = R.proc.methods from rfl, h3] at this
        rw [withElectron_calls] at this
        exact this
      · simp only [used, List.mem_filter] at hn
        obtain ⟨_, hn⟩ := hn
        split at hn
        · rename_i q hq
          by_cases e : Unset ops
          · rw [electronPar_unset e n, rho, hq]
            by_cases n1 : n = 1
            · subst n1
              rw [h1m] at hq
              cases hq
              rw [if_pos rfl]
              show _ = fin (c.mass .e)
              rw [hun e]; exact (s_int 0).trans (by simp)
            · rw [if_neg n1]; exact hpar n q hq n1
          · rw [electronPar_set e, rho, hq]
            by_cases n1 : n = 1
            · subst n1
              rw [h1m] at hq
              cases hq
              exact hset e
            · exact hpar n q hq n1
        · cases hn
      · rw [i4 i hi]
        have := hs (Fin.ofNat 4 i)
        simpa [Nat.mod_eq_of_lt hi] using this
      · rw [i4 i hi]
        refine (hz c hc hh _ ?_).ne'
        simpa [Nat.mod_eq_of_lt hi] using hl
    · simp at hck
  · cases hck

end BRow
end Spinas.SM
