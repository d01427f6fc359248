import Verif.SM.Reactions

/-! The classes for reactions with bosons: what it means that they follow the Feynman rules. -/

namespace Spinas
open Spec Props Matrix

namespace SM
open XR

/-- A class, the reaction it is for, what its parameters are (none: has no effect), and the constants that it takes to be 0. -/
structure BRow where
  proc : Proc
  react : Spec.Reaction
  pars : List (Option Quantity)
  absent : List Quantity := []

namespace BRow
variable (R : BRow)

/-- the parameters -/
noncomputable def rho (c : Constants) (n : Nat) : ℝ := match R.pars[n]? with
  | some (some q) => c.get q
  | _ => 0

/-- numbers of the parameters with an effect -/
def used : List Nat := (List.range R.pars.length).filter fun n => match R.pars[n]? with
  | some (some _) => true
  | _ => false

variable [FPEnv]

/-- The four particles have the masses of the reaction. -/
def Masses : Prop := ∀ (mem : Nat → XR) (junk : Kin XR XC) (par : Nat → XR) (ops : List (ProcOp XR XC)) (c : Constants) (o : Obj XR XC), (R.proc.name ∈ staleMasses → Unset ops) →
  (∀ n q, R.pars[n]? = some (some q) → parAfter R.proc.massPar ops par n = fin (c.get q)) → c.Physical → c.Heavy → o = runProcOps R.proc ops (R.proc.construct mem junk par).2 →
  (∀ i : Fin 4, (o.w.part i).kin.m = fin (R.react.mass c i)) ∧ MassesNonzero R.proc o

/-- The squared amplitude that the class returns is the one of the Feynman rules: for any object of the class, however constructed and used before (but without `set_masses` where that forgets to
update something), any values of its parameters, any momenta of the particles and any complete spinors and polarisation vectors. -/
def Follows : Prop := ∀ (mem : Nat → XR) (junk : Kin XR XC) (par : Nat → XR) (ops : List (ProcOp XR XC)) (c : Constants) (p : Nat → V4 ℝ) (u : Fin 4 → Fin 3 → Spinor) (ε : Fin 4 → Fin 3 → Vec)
    (o : Obj XR XC) (j : Kin XR XC) (xs : List (MCall XR XC)) (l : Loc XR XC), (R.proc.name ∈ staleMasses → Unset ops) →
  (∀ n q, R.pars[n]? = some (some q) → parAfter R.proc.massPar ops par n = fin (c.get q)) → c.Physical → c.Heavy → (∀ q ∈ R.absent, c.get q = 0) →
  o = runProcOps R.proc ops (R.proc.construct mem junk par).2 →
  (∀ i : Fin 4, OnShell (p i) (R.react.mass c i)) → Balanced p → R.react.Regular c p → (∀ i, R.react.Complete c p i (u i) (ε i)) →
  (R.proc.runSetMomenta j (fun i => (p i).toX) o).1 = .ok () ∧
  (R.proc.method l .r R.proc.amp2 [] (runCalls R.proc xs (R.proc.runSetMomenta j (fun i => (p i).toX) o).2)).1 = .ok (fin (R.react.squared c p u ε))

def Agrees : Prop := (R.proc ∈ all ∧ R.proc.isSquare R.proc.amp2 = true) ∧ R.Masses ∧ R.Follows

variable {R}

omit [FPEnv] in
theorem mass_nonneg {c : Constants} (hc : c.Physical) (f : Flavour) : 0 ≤ c.mass f := by
  by_cases hf : f.kind = .neutrino
  · have := hc.neutrino f.gen
    rw [← hf] at this
    exact this.ge
  · exact (hc.massive f hf).le
omit [FPEnv] in
theorem MZ_pos {c : Constants} (hc : c.Physical) (hh : c.Heavy) : 0 < c.MZ := by
  have h : 0 < 1 - c.SW ^ 2 := by have := hc.SW_lt; linarith
  exact div_pos hh.MW (Real.sqrt_pos.2 (by simpa [sq] using h))
omit [FPEnv] in
theorem boson_pos {c : Constants} (hc : c.Physical) (hh : c.Heavy) {b : Boson} (hb : b.massive = true) : 0 < c.bosonMass b := by
  cases b
  · exact hh.MH
  · cases hb
  · exact MZ_pos hc hh
  · exact hh.MW
  · exact hh.MW
  · cases hb
omit [FPEnv] in
theorem leg_nonneg {c : Constants} (hc : c.Physical) (hh : c.Heavy) (S : Reaction) (n : Fin 4) : 0 ≤ S.mass c n := by
  unfold Reaction.mass
  cases S.leg n with
  | fermion f a => exact mass_nonneg hc f
  | boson b =>
    cases hb : b.massive
    · cases b <;> first | exact le_rfl | cases hb
    · exact (boson_pos hc hh hb).le

/-- particles with a mass -/
def heavy : Spec.Particle → Bool
  | .fermion f _ => decide (f.kind ≠ .neutrino)
  | .boson b => b.massive
omit [FPEnv] in
theorem leg_pos {c : Constants} (hc : c.Physical) (hh : c.Heavy) {S : Reaction} {n : Fin 4} (h : heavy (S.leg n) = true) : 0 < S.mass c n := by
  unfold Reaction.mass
  unfold heavy at h
  cases hl : S.leg n with
  | fermion f a => rw [hl] at h; exact hc.massive f (by simpa using h)
  | boson b => rw [hl] at h; exact boson_pos hc hh h

theorem masses_of {D E : List Nat} (hP : R.proc ∈ all) (hn : ([0, 1, 2, 3].all fun i => match R.proc.sym.bind fun S => S.gm i with | some e => e.finc R.used D E | none => false) = true)
    (hE : E.all (fun n => decide (n ∈ R.used)) = true) (hD : ∀ c : Constants, c.Physical → c.Heavy → (∀ n ∈ D, R.rho c n ≠ 0) ∧ ∀ n ∈ E, R.rho c n ^ 2 < 1)
    (hm : ∀ c : Constants, c.Physical → ∀ i : Fin 4, R.proc.massNum (R.rho c) i = R.react.mass c i) (hz : ∀ i : Fin 4, heavy (R.react.leg i) || R.proc.massless i = true) : R.Masses := by
  intro mem junk par ops c o hst hpar hc hh ho
  obtain ⟨S, hS, hck⟩ := fresh_check hP
  have hi : SM.Inv S (parAfter R.proc.massPar ops par) (runProcOps R.proc ops (R.proc.construct mem junk par).2) := by
    rcases Decidable.em (R.proc.name ∈ staleMasses) with h | h
    · exact ops_inv_unset (checkAll_parts hck).1 ops (hst h) (construct_inv hS mem junk par).2
    · have hr : SM.checkReset R.proc R.proc.massPar S = true := by
        have := List.all_eq_true.mp all_reset R.proc hP
        simp only [Bool.or_eq_true, List.contains_iff_mem] at this
        have := this.resolve_left h
        simpa only [Proc.checkReset, hS] using this
      exact ops_inv_reset (checkAll_parts hck).1 hr ops (construct_inv hS mem junk par).2
  rw [← ho] at hi
  have hf : ∀ i : Fin 4, (o.w.part i).kin.m = fin (R.react.mass c i) := by
    intro i
    have h4 : i.val ∈ [0, 1, 2, 3] := by have := i.isLt; simp only [List.mem_cons, List.not_mem_nil, or_false]; omega
    have := List.all_eq_true.1 hn i h4
    split at this
    · rename_i e he
      rw [← hm c hc i, Proc.massNum, he]
      rw [hS] at he
      refine (hi.mass i e he).trans (finc_val (D := D) (E := E) (fun n hn => by simpa using List.all_eq_true.1 hE n hn) (hD c hc hh).1 (hD c hc hh).2 (fun n hn => ?_) e this)
      simp only [used, List.mem_filter] at hn
      obtain ⟨_, hn⟩ := hn
      split at hn
      · rename_i q hq
        rw [hpar n q hq, rho, hq]
      · cases hn
    · cases this
  refine ⟨hf, fun i hi hl => ?_⟩
  have h := hf ⟨i, hi⟩
  simp only at h
  rw [h]
  have h0 := (leg_pos hc hh (S := R.react) (n := ⟨i, hi⟩) (by simpa [hl] using hz ⟨i, hi⟩)).ne'
  simpa [Scalar.ne] using h0

theorem agrees_of {D E : List Nat} (hP : R.proc ∈ all) (hn : R.proc.numericOnce R.used D E = true) (hE : E.all (fun n => decide (n ∈ R.used)) = true) (hk : R.proc.isSquare R.proc.amp2 = true)
    (hD : ∀ c : Constants, c.Physical → c.Heavy → (∀ n ∈ D, R.rho c n ≠ 0) ∧ ∀ n ∈ E, R.rho c n ^ 2 < 1)
    (hm : ∀ c : Constants, c.Physical → ∀ i : Fin 4, R.proc.massNum (R.rho c) i = R.react.mass c i)
    (hz : ∀ i : Fin 4, heavy (R.react.leg i) || R.proc.massless i = true)
    (hv : ∀ (c : Constants) (p : Nat → V4 ℝ) (u : Fin 4 → Fin 3 → Spinor) (ε : Fin 4 → Fin 3 → Vec), c.Physical → c.Heavy → (∀ q ∈ R.absent, c.get q = 0) → (∀ i, 0 ≤ R.react.mass c i) →
      (∀ i : Fin 4, OnShell (p i) (R.react.mass c i)) → Balanced p → R.react.Regular c p → (∀ i, R.react.Complete c p i (u i) (ε i)) →
      (∀ n, (Ty.r, n) ∈ R.proc.divides → (R.proc.env (R.rho c) p).r n ≠ 0) ∧ (∀ n, (Ty.c, n) ∈ R.proc.divides → (R.proc.env (R.rho c) p).c n ≠ 0) ∧
      meaning (R.proc.env (R.rho c) p) .r R.proc.methods R.proc.amp2 [] = R.react.squared c p u ε) : R.Agrees := by
  refine ⟨⟨hP, hk⟩, masses_of hP (by simp only [Proc.numericOnce, Bool.and_eq_true] at hn; exact hn.2) hE hD hm hz, ?_⟩
  intro mem junk par ops c p u ε o j xs l hst hpar hc hh hw ho hs hb hr hu
  obtain ⟨h1, h2, h3⟩ := hv c p u ε hc hh hw (leg_nonneg hc hh R.react) hs hb hr hu
  have i4 : ∀ i, i < 4 → R.proc.massNum (R.rho c) i = R.react.mass c (Fin.ofNat 4 i) := by
    intro i hi
    have := hm c hc (Fin.ofNat 4 i)
    simpa [Nat.mod_eq_of_lt hi] using this
  have := numericOnce_result (D := D) (E := E) (ρ := R.rho c) hP ops (Decidable.or_iff_not_imp_left.2 fun h => hst (by simpa using h)) hn (fun n hn => by simpa using List.all_eq_true.1 hE n hn)
    (hD c hc hh).1 (hD c hc hh).2 mem junk par (fun n hn => ?_) ho (p := p) (fun i hi => ?_) (fun i hi hl => ?_) h1 h2 j xs l R.proc.amp2 hk
  · rw [h3] at this
    exact this
  · simp only [used, List.mem_filter] at hn
    obtain ⟨_, hn⟩ := hn
    split at hn
    · rename_i q hq
      rw [hpar n q hq, rho, hq]
    · cases hn
  · rw [i4 i hi]
    have := hs (Fin.ofNat 4 i)
    simpa [Nat.mod_eq_of_lt hi] using this
  · rw [i4 i hi]
    refine (leg_pos hc hh ?_).ne'
    have := hz (Fin.ofNat 4 i)
    simpa [Nat.mod_eq_of_lt hi, hl] using this

end BRow
end SM

/-! ### momenta -/

section
variable {p : Nat → V4 ℝ} (hb : Balanced p)
include hb

theorem balanced_three : p 3 = plus (plus (p 0) (p 1)) (backward (p 2)) := by
  obtain ⟨t, x, y, z⟩ := hb
  generalize hq : p 3 = q
  rw [hq] at t x y z
  cases q
  simp only [plus, backward, V4.mk.injEq] at *
  refine ⟨?_, ?_, ?_, ?_⟩ <;> linarith

theorem mb_three (S A : V2) : mb S (p 3) A = mb S (p 0) A + mb S (p 1) A - mb S (p 2) A := by
  rw [balanced_three hb, mb_plus, mb_plus, mb_backward]; ring
theorem mb_two (S A : V2) : mb S (p 2) A = mb S (p 0) A + mb S (p 1) A - mb S (p 3) A := by rw [mb_three hb]; ring
theorem mb_one (S A : V2) : mb S (p 1) A = mb S (p 2) A + mb S (p 3) A - mb S (p 0) A := by rw [mb_three hb]; ring
theorem mb_nought (S A : V2) : mb S (p 0) A = mb S (p 2) A + mb S (p 3) A - mb S (p 1) A := by rw [mb_three hb]; ring
end

end Spinas
