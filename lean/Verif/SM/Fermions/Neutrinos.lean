import Verif.SM.FermionRows
import Verif.SM.Exchanges

/-! Leptons and neutrinos. Generated by tools/fermions/emit.py: for each class its amplitudes as formulas, and the proof that `amp2` is the squared amplitude of the Feynman rules. -/

set_option linter.unusedSimpArgs false

namespace Spinas.SM.Rows
open Spec Spec.Scattering Props XR Matrix Row

/-! ### eenmnm -/

/-- what the methods of the class see -/
noncomputable abbrev eenmnm.N [FPEnv] (c : Constants) (p : Nat → V4 ℝ) : Env := eenmnm.proc.env (eenmnm.rho c) p
/-- `amp` (SM/eenmnm.cpp) -/
noncomputable def eenmnm.amp (N : Env) (j1 j2 : Int) : ℂ :=
  ((((((-((2 : Nat) : ℝ)) * N.r 9) : ℝ) : ℂ) * (((((N.r 7 : ℝ) : ℂ) * N.v 5 [j2]) * N.v 2 [j1]) + ((((N.r 8 : ℝ) : ℂ) * N.v 1 [j1]) * N.v 6 [j2]))) / N.c 0)
set_option maxRecDepth 8000 in
theorem eenmnm.amp2_eq (N : Env) (f : Nat → List Int → ℂ) : Cls.eenmnm.m_amp2.mean N f .r [] =
    ((sumJ (fun x a => (sumJ (fun x b => (x + (‖(f 0 [a, b])‖ ^ 2))) x)) ((0 : Nat) : ℝ)) / ((4 : Nat) : ℝ)) := by rfl
set_option maxRecDepth 8000 in
theorem eenmnm.value (N : Env) : meaning N .r Cls.eenmnm.methods Cls.eenmnm.amp2 [] =
    ((sumJ (fun x a => (sumJ (fun x b => (x + (‖(eenmnm.amp N a b)‖ ^ 2))) x)) ((0 : Nat) : ℝ)) / ((4 : Nat) : ℝ)) :=
  eenmnm.amp2_eq N (callMean N [Cls.eenmnm.m_amp])

variable [FPEnv] in
theorem eenmnm.agrees : eenmnm.Agrees := by
  refine agrees_of (D := [2, 3]) (E := [3]) (by simp [all, eenmnm]) (by decide +kernel) (by decide) (by decide +kernel) (fun c hc => ⟨List.forall_mem_cons.2 ⟨hc.MW, List.forall_mem_cons.2 ⟨hc.SW, List.forall_mem_nil _⟩⟩, List.forall_mem_cons.2 ⟨hc.SW_lt, List.forall_mem_nil _⟩⟩) (fun c hc i => by fin_cases i <;> first | rfl | exact Nat.cast_zero.trans (hc.neutrino _).symm) (by decide +kernel) ?_
  intro c p u hc hw h0 hs hb hr hu
  replace hw := hw (by simp [eenmnm])
  have he : eenmnm.scat.ends = [1, 2] := by decide
  have ht : eenmnm.scat.starts = [0, 3] := by decide
  obtain ⟨o1, o2⟩ := regular_two he ht hr
  have hf := eenmnm.scat.flows_annihilation (by decide) hb
  have ms := eenmnm.scat.msq_annihilation (by decide) hb
  have r9 : (eenmnm.N c p).r 9 = ((c.e * c.e) / ((((((4 : Nat) : ℝ) * √((((1 : Nat) : ℝ) - (c.SW * c.SW)))) * √((((1 : Nat) : ℝ) - (c.SW * c.SW)))) * c.SW) * c.SW)) := rfl
  simp only [c.root] at r9
  have r7 : (eenmnm.N c p).r 7 = (((((2 : Nat) : ℝ) * c.SW) * c.SW) - ((1 : Nat) : ℝ)) := rfl
  have r8 : (eenmnm.N c p).r 8 = ((((2 : Nat) : ℝ) * c.SW) * c.SW) := rfl
  have c0 : (eenmnm.N c p).c 0 = poleDist (c.MW / √((((1 : Nat) : ℝ) - (c.SW * c.SW)))) ((0 : Nat) : ℝ) ((VExp.add 0 1).sum p) := rfl
  rw [c.root, c.mz, Nat.cast_zero, ← hw, pole_congr (ms.1).symm] at c0
  have d0 := o1.z (by decide) rfl
  have m0 : c.mass .e ≠ 0 := (hc.massive _ (by decide)).ne'
  have m1 : c.mass .e ≠ 0 := (hc.massive _ (by decide)).ne'
  have m2 : c.mass .nmu = 0 := hc.neutrino _
  have n2 : eenmnm.proc.massNum (eenmnm.rho c) 2 = c.mass .nmu := Nat.cast_zero.trans m2.symm
  have m3 : c.mass .nmu = 0 := hc.neutrino _
  have n3 : eenmnm.proc.massNum (eenmnm.rho c) 3 = c.mass .nmu := Nat.cast_zero.trans m3.symm
  have g0 : eenmnm.scat.sgn 0 = 1 := if_neg Bool.false_ne_true
  have g1 : eenmnm.scat.sgn 1 = -1 := if_pos rfl
  have g2 : eenmnm.scat.sgn 2 = 1 := if_neg Bool.false_ne_true
  have g3 : eenmnm.scat.sgn 3 = -1 := if_pos rfl
  have nMW := hc.MW
  have nSW := hc.SW
  have xMW : (c.MW : ℂ) ≠ 0 := by exact_mod_cast hc.MW
  have xSW : (c.SW : ℂ) ≠ 0 := by exact_mod_cast hc.SW
  have xCW : (c.CW : ℂ) ≠ 0 := by exact_mod_cast hc.CW
  have hd : eenmnm.proc.divides = [(Ty.c, 0)] := by decide +kernel
  have k_amp : ∀ s : Fin 4 → Fin 2, s 2 = 1 → s 3 = 0 → eenmnm.amp (eenmnm.N c p) (spinOf (s 0)) (spinOf (s 1)) = -(eenmnm.scat.ewC c p (eenmnm.scat.angs c p s) (eenmnm.scat.sqrs c p s) 1 0 2 3) + eenmnm.scat.ewC c p (eenmnm.scat.angs c p s) (eenmnm.scat.sqrs c p s) 1 3 2 0 := by
    intro s f2 f3
    have v1 : (eenmnm.N c p).v 1 [spinOf (s 0)] = sb (eenmnm.scat.sqrs c p s 0) (eenmnm.scat.sqrs c p s 2) := bra_square (p := p) (m := eenmnm.proc.massNum (eenmnm.rho c)) rfl n2 (.inl ⟨m0, rfl⟩) (.inr ⟨m2, f2⟩)
    have v2 : (eenmnm.N c p).v 2 [spinOf (s 0)] = ab (eenmnm.scat.angs c p s 0) (eenmnm.scat.angs c p s 3) := bra_angle (p := p) (m := eenmnm.proc.massNum (eenmnm.rho c)) rfl n3 (.inl ⟨m0, rfl⟩) (.inr ⟨m3, f3⟩)
    have v5 : (eenmnm.N c p).v 5 [spinOf (s 1)] = sb (eenmnm.scat.sqrs c p s 1) (eenmnm.scat.sqrs c p s 2) := bra_square (p := p) (m := eenmnm.proc.massNum (eenmnm.rho c)) rfl n2 (.inl ⟨m1, rfl⟩) (.inr ⟨m2, f2⟩)
    have v6 : (eenmnm.N c p).v 6 [spinOf (s 1)] = ab (eenmnm.scat.angs c p s 1) (eenmnm.scat.angs c p s 3) := bra_angle (p := p) (m := eenmnm.proc.massNum (eenmnm.rho c)) rfl n3 (.inl ⟨m1, rfl⟩) (.inr ⟨m3, f3⟩)
    rw [ewC_neutral (S := eenmnm.scat) (i := 1) (j := 0) (k := 2) (l := 3) (f := .e) (g := .nmu) (by decide) (by decide) rfl rfl rfl g1 g0 g2 g3 rfl rfl rfl, ewC_none (S := eenmnm.scat) (i := 1) (j := 3) (k := 2) (l := 0) (by decide) (by decide), eenmnm.amp]
    simp only [r7, r8, r9, c0, v1, v2, v5, v6, jj, ln, lw, Constants.gL, Constants.gR, Flavour.charge_e, Flavour.isospin_e, Flavour.charge_nmu, Flavour.isospin_nmu, m2, m3]
    abstract_brackets eenmnm.scat c p s
    push_cast
    ring
  refine ⟨fun n hn => ?_, fun n hn => ?_, ?_⟩
  · simp [hd] at hn
  · simp [hd] at hn
    rcases hn with rfl
    · rw [c0]; exact d0
  show meaning (eenmnm.N c p) .r Cls.eenmnm.methods Cls.eenmnm.amp2 [] = _
  have ss : eenmnm.scat.states = 4 := by decide
  have sy : eenmnm.scat.symmetry = 1 := by decide
  rw [eenmnm.value, eenmnm.scat.squared_leptons he ht hs h0 hf hu (by decide), ss, sy, Nat.cast_zero]
  have z2 : ∀ w x z : Fin 2, eenmnm.scat.ewC c p (eenmnm.scat.angs c p ![w, x, 0, z]) (eenmnm.scat.sqrs c p ![w, x, 0, z]) 1 0 2 3 = 0 := fun w x z => ewC_neutrino 2 rfl m2 (.inl ⟨by decide, legS_zero m2 rfl⟩)
  have z3 : ∀ w x y : Fin 2, eenmnm.scat.ewC c p (eenmnm.scat.angs c p ![w, x, y, 1]) (eenmnm.scat.sqrs c p ![w, x, y, 1]) 1 0 2 3 = 0 := fun w x y => ewC_neutrino 3 rfl m3 (.inr ⟨by decide, legA_zero m3 rfl⟩)
  have k := fun w x : Fin 2 => k_amp ![w, x, 1, 0] rfl rfl
  rw [sumJ_two]
  rw [sum_quad]
  try simp only [Matrix.cons_val] at k
  simp only [Fin.sum_univ_two, k, z2, z3, ewC_none (S := eenmnm.scat) (i := 1) (j := 3) (k := 2) (l := 0) (by decide) (by decide)]
  finish_spins

/-! ### enmenm -/

/-- what the methods of the class see -/
noncomputable abbrev enmenm.N [FPEnv] (c : Constants) (p : Nat → V4 ℝ) : Env := enmenm.proc.env (enmenm.rho c) p
/-- `amp` (SM/enmenm.cpp) -/
noncomputable def enmenm.amp (N : Env) (j1 j3 : Int) : ℂ :=
  ((((((-((2 : Nat) : ℝ)) * N.r 9) : ℝ) : ℂ) * (((((N.r 7 : ℝ) : ℂ) * N.v 10 [j3]) * N.v 9 [j1]) + ((((N.r 8 : ℝ) : ℂ) * N.v 3 [j1]) * N.v 4 [j3]))) / N.c 0)
set_option maxRecDepth 8000 in
theorem enmenm.amp2_eq (N : Env) (f : Nat → List Int → ℂ) : Cls.enmenm.m_amp2.mean N f .r [] =
    ((sumJ (fun x a => (sumJ (fun x b => (x + (‖(f 0 [a, b])‖ ^ 2))) x)) ((0 : Nat) : ℝ)) / ((2 : Nat) : ℝ)) := by rfl
set_option maxRecDepth 8000 in
theorem enmenm.value (N : Env) : meaning N .r Cls.enmenm.methods Cls.enmenm.amp2 [] =
    ((sumJ (fun x a => (sumJ (fun x b => (x + (‖(enmenm.amp N a b)‖ ^ 2))) x)) ((0 : Nat) : ℝ)) / ((2 : Nat) : ℝ)) :=
  enmenm.amp2_eq N (callMean N [Cls.enmenm.m_amp])

variable [FPEnv] in
theorem enmenm.agrees : enmenm.Agrees := by
  refine agrees_of (D := [2, 3]) (E := [3]) (by simp [all, enmenm]) (by decide +kernel) (by decide) (by decide +kernel) (fun c hc => ⟨List.forall_mem_cons.2 ⟨hc.MW, List.forall_mem_cons.2 ⟨hc.SW, List.forall_mem_nil _⟩⟩, List.forall_mem_cons.2 ⟨hc.SW_lt, List.forall_mem_nil _⟩⟩) (fun c hc i => by fin_cases i <;> first | rfl | exact Nat.cast_zero.trans (hc.neutrino _).symm) (by decide +kernel) ?_
  intro c p u hc hw h0 hs hb hr hu
  replace hw := hw (by simp [enmenm])
  have he : enmenm.scat.ends = [2, 3] := by decide
  have ht : enmenm.scat.starts = [0, 1] := by decide
  obtain ⟨o1, o2⟩ := regular_two he ht hr
  have hf := enmenm.scat.flows_scattering (by decide) hb
  have ms := enmenm.scat.msq_scattering (by decide) hb
  have r9 : (enmenm.N c p).r 9 = ((c.e * c.e) / ((((((4 : Nat) : ℝ) * √((((1 : Nat) : ℝ) - (c.SW * c.SW)))) * √((((1 : Nat) : ℝ) - (c.SW * c.SW)))) * c.SW) * c.SW)) := rfl
  simp only [c.root] at r9
  have r7 : (enmenm.N c p).r 7 = (((((2 : Nat) : ℝ) * c.SW) * c.SW) - ((1 : Nat) : ℝ)) := rfl
  have r8 : (enmenm.N c p).r 8 = ((((2 : Nat) : ℝ) * c.SW) * c.SW) := rfl
  have c0 : (enmenm.N c p).c 0 = poleDist (c.MW / √((((1 : Nat) : ℝ) - (c.SW * c.SW)))) ((0 : Nat) : ℝ) ((VExp.sub 0 2).sum p) := rfl
  rw [c.root, c.mz, Nat.cast_zero, ← hw, pole_congr (ms.1).symm] at c0
  have d0 := o1.z (by decide) rfl
  have m0 : c.mass .e ≠ 0 := (hc.massive _ (by decide)).ne'
  have m1 : c.mass .nmu = 0 := hc.neutrino _
  have n1 : enmenm.proc.massNum (enmenm.rho c) 1 = c.mass .nmu := Nat.cast_zero.trans m1.symm
  have m2 : c.mass .e ≠ 0 := (hc.massive _ (by decide)).ne'
  have m3 : c.mass .nmu = 0 := hc.neutrino _
  have n3 : enmenm.proc.massNum (enmenm.rho c) 3 = c.mass .nmu := Nat.cast_zero.trans m3.symm
  have g0 : enmenm.scat.sgn 0 = 1 := if_neg Bool.false_ne_true
  have g1 : enmenm.scat.sgn 1 = 1 := if_neg Bool.false_ne_true
  have g2 : enmenm.scat.sgn 2 = 1 := if_neg Bool.false_ne_true
  have g3 : enmenm.scat.sgn 3 = 1 := if_neg Bool.false_ne_true
  have nMW := hc.MW
  have nSW := hc.SW
  have xMW : (c.MW : ℂ) ≠ 0 := by exact_mod_cast hc.MW
  have xSW : (c.SW : ℂ) ≠ 0 := by exact_mod_cast hc.SW
  have xCW : (c.CW : ℂ) ≠ 0 := by exact_mod_cast hc.CW
  have hd : enmenm.proc.divides = [(Ty.c, 0)] := by decide +kernel
  have k_amp : ∀ s : Fin 4 → Fin 2, s 1 = 0 → s 3 = 1 → enmenm.amp (enmenm.N c p) (spinOf (s 0)) (spinOf (s 2)) = enmenm.scat.ewC c p (enmenm.scat.angs c p s) (enmenm.scat.sqrs c p s) 2 0 3 1 - enmenm.scat.ewC c p (enmenm.scat.angs c p s) (enmenm.scat.sqrs c p s) 2 1 3 0 := by
    intro s f1 f3
    have v3 : (enmenm.N c p).v 3 [spinOf (s 0)] = sb (enmenm.scat.sqrs c p s 0) (enmenm.scat.sqrs c p s 3) := bra_square (p := p) (m := enmenm.proc.massNum (enmenm.rho c)) rfl n3 (.inl ⟨m0, rfl⟩) (.inr ⟨m3, f3⟩)
    have v4 : (enmenm.N c p).v 4 [spinOf (s 2)] = ab (enmenm.scat.angs c p s 1) (enmenm.scat.angs c p s 2) := bra_angle (p := p) (m := enmenm.proc.massNum (enmenm.rho c)) n1 rfl (.inr ⟨m1, f1⟩) (.inl ⟨m2, rfl⟩)
    have v9 : (enmenm.N c p).v 9 [spinOf (s 0)] = ab (enmenm.scat.angs c p s 0) (enmenm.scat.angs c p s 1) := bra_angle (p := p) (m := enmenm.proc.massNum (enmenm.rho c)) rfl n1 (.inl ⟨m0, rfl⟩) (.inr ⟨m1, f1⟩)
    have v10 : (enmenm.N c p).v 10 [spinOf (s 2)] = sb (enmenm.scat.sqrs c p s 2) (enmenm.scat.sqrs c p s 3) := bra_square (p := p) (m := enmenm.proc.massNum (enmenm.rho c)) rfl n3 (.inl ⟨m2, rfl⟩) (.inr ⟨m3, f3⟩)
    rw [ewC_neutral (S := enmenm.scat) (i := 2) (j := 0) (k := 3) (l := 1) (f := .e) (g := .nmu) (by decide) (by decide) rfl rfl rfl g2 g0 g3 g1 rfl rfl rfl, ewC_none (S := enmenm.scat) (i := 2) (j := 1) (k := 3) (l := 0) (by decide) (by decide), enmenm.amp]
    simp only [r7, r8, r9, c0, v3, v4, v9, v10, jj, ln, lw, Constants.gL, Constants.gR, Flavour.charge_e, Flavour.isospin_e, Flavour.charge_nmu, Flavour.isospin_nmu, m1, m3]
    abstract_brackets enmenm.scat c p s
    push_cast
    ring
  refine ⟨fun n hn => ?_, fun n hn => ?_, ?_⟩
  · simp [hd] at hn
  · simp [hd] at hn
    rcases hn with rfl
    · rw [c0]; exact d0
  show meaning (enmenm.N c p) .r Cls.enmenm.methods Cls.enmenm.amp2 [] = _
  have ss : enmenm.scat.states = 2 := by decide
  have sy : enmenm.scat.symmetry = 1 := by decide
  rw [enmenm.value, enmenm.scat.squared_leptons he ht hs h0 hf hu (by decide), ss, sy, Nat.cast_zero]
  have z1 : ∀ w y z : Fin 2, enmenm.scat.ewC c p (enmenm.scat.angs c p ![w, 1, y, z]) (enmenm.scat.sqrs c p ![w, 1, y, z]) 2 0 3 1 = 0 := fun w y z => ewC_neutrino 1 rfl m1 (.inr ⟨by decide, legA_zero m1 rfl⟩)
  have z3 : ∀ w x y : Fin 2, enmenm.scat.ewC c p (enmenm.scat.angs c p ![w, x, y, 0]) (enmenm.scat.sqrs c p ![w, x, y, 0]) 2 0 3 1 = 0 := fun w x y => ewC_neutrino 3 rfl m3 (.inl ⟨by decide, legS_zero m3 rfl⟩)
  have k := fun w y : Fin 2 => k_amp ![w, 0, y, 1] rfl rfl
  rw [sumJ_two]
  rw [sum_quad]
  try simp only [Matrix.cons_val] at k
  simp only [Fin.sum_univ_two, k, z1, z3, ewC_none (S := enmenm.scat) (i := 2) (j := 1) (k := 3) (l := 0) (by decide) (by decide)]
  finish_spins

/-! ### eenene -/

/-- what the methods of the class see -/
noncomputable abbrev eenene.N [FPEnv] (c : Constants) (p : Nat → V4 ℝ) : Env := eenene.proc.env (eenene.rho c) p
/-- `amp` (SM/eenene.cpp) -/
noncomputable def eenene.amp (N : Env) (j1 j2 : Int) : ℂ :=
  ((((((((2 : Nat) : ℝ) * N.r 10) : ℝ) : ℂ) * (((((N.r 8 : ℝ) : ℂ) * N.v 5 [j2]) * N.v 2 [j1]) + ((((N.r 9 : ℝ) : ℂ) * N.v 1 [j1]) * N.v 6 [j2]))) / N.c 0) + (((((((N.r 0 * N.r 0) / N.r 6) / N.r 6) : ℝ) : ℂ) * (((((((((2 : Nat) : ℝ) * N.r 4) * N.r 4) : ℝ) : ℂ) * N.v 2 [j1]) * N.v 5 [j2]) + (((((N.r 1 * N.r 1) : ℝ) : ℂ) * N.v 1 [j1]) * N.v 6 [j2]))) / (((((((2 : Nat) : ℝ) * N.r 4) * N.r 4) : ℝ) : ℂ) * N.c 1)))
set_option maxRecDepth 8000 in
theorem eenene.amp2_eq (N : Env) (f : Nat → List Int → ℂ) : Cls.eenene.m_amp2.mean N f .r [] =
    ((sumJ (fun x a => (sumJ (fun x b => (x + (‖(f 0 [a, b])‖ ^ 2))) x)) ((0 : Nat) : ℝ)) / ((4 : Nat) : ℝ)) := by rfl
set_option maxRecDepth 8000 in
theorem eenene.value (N : Env) : meaning N .r Cls.eenene.methods Cls.eenene.amp2 [] =
    ((sumJ (fun x a => (sumJ (fun x b => (x + (‖(eenene.amp N a b)‖ ^ 2))) x)) ((0 : Nat) : ℝ)) / ((4 : Nat) : ℝ)) :=
  eenene.amp2_eq N (callMean N [Cls.eenene.m_amp])

variable [FPEnv] in
theorem eenene.agrees : eenene.Agrees := by
  refine agrees_of (D := [2, 4]) (E := [4]) (by simp [all, eenene]) (by decide +kernel) (by decide) (by decide +kernel) (fun c hc => ⟨List.forall_mem_cons.2 ⟨hc.MW, List.forall_mem_cons.2 ⟨hc.SW, List.forall_mem_nil _⟩⟩, List.forall_mem_cons.2 ⟨hc.SW_lt, List.forall_mem_nil _⟩⟩) (fun c hc i => by fin_cases i <;> first | rfl | exact Nat.cast_zero.trans (hc.neutrino _).symm) (by decide +kernel) ?_
  intro c p u hc hw h0 hs hb hr hu
  replace hw := hw (by simp [eenene])
  have he : eenene.scat.ends = [1, 2] := by decide
  have ht : eenene.scat.starts = [0, 3] := by decide
  obtain ⟨o1, o2⟩ := regular_two he ht hr
  have hf := eenene.scat.flows_annihilation (by decide) hb
  have ms := eenene.scat.msq_annihilation (by decide) hb
  have r10 : (eenene.N c p).r 10 = ((c.e * c.e) / ((((((4 : Nat) : ℝ) * √((((1 : Nat) : ℝ) - (c.SW * c.SW)))) * √((((1 : Nat) : ℝ) - (c.SW * c.SW)))) * c.SW) * c.SW)) := rfl
  simp only [c.root] at r10
  have r8 : (eenene.N c p).r 8 = (((((2 : Nat) : ℝ) * c.SW) * c.SW) - ((1 : Nat) : ℝ)) := rfl
  have r9 : (eenene.N c p).r 9 = ((((2 : Nat) : ℝ) * c.SW) * c.SW) := rfl
  have r0 : (eenene.N c p).r 0 = c.e := rfl
  have r6 : (eenene.N c p).r 6 = c.SW := rfl
  have r4 : (eenene.N c p).r 4 = c.MW := rfl
  have r1 : (eenene.N c p).r 1 = (c.mass .e) := rfl
  have c0 : (eenene.N c p).c 0 = poleDist (c.MW / √((((1 : Nat) : ℝ) - (c.SW * c.SW)))) ((0 : Nat) : ℝ) ((VExp.add 0 1).sum p) := rfl
  rw [c.root, c.mz, Nat.cast_zero, ← hw, pole_congr (ms.1).symm] at c0
  have c1 : (eenene.N c p).c 1 = poleDist c.MW c.WW ((VExp.sub 0 2).sum p) := rfl
  rw [pole_congr (ms.2).symm] at c1
  have d0 := o1.z (by decide) rfl
  have d1 := o2.w (by decide) rfl
  have m0 : c.mass .e ≠ 0 := (hc.massive _ (by decide)).ne'
  have m1 : c.mass .e ≠ 0 := (hc.massive _ (by decide)).ne'
  have m2 : c.mass .ne = 0 := hc.neutrino _
  have n2 : eenene.proc.massNum (eenene.rho c) 2 = c.mass .ne := Nat.cast_zero.trans m2.symm
  have m3 : c.mass .ne = 0 := hc.neutrino _
  have n3 : eenene.proc.massNum (eenene.rho c) 3 = c.mass .ne := Nat.cast_zero.trans m3.symm
  have g0 : eenene.scat.sgn 0 = 1 := if_neg Bool.false_ne_true
  have g1 : eenene.scat.sgn 1 = -1 := if_pos rfl
  have g2 : eenene.scat.sgn 2 = 1 := if_neg Bool.false_ne_true
  have g3 : eenene.scat.sgn 3 = -1 := if_pos rfl
  have nMW := hc.MW
  have nSW := hc.SW
  have xMW : (c.MW : ℂ) ≠ 0 := by exact_mod_cast hc.MW
  have xSW : (c.SW : ℂ) ≠ 0 := by exact_mod_cast hc.SW
  have xCW : (c.CW : ℂ) ≠ 0 := by exact_mod_cast hc.CW
  have hd : eenene.proc.divides = [(Ty.c, 0), (Ty.r, 6), (Ty.r, 4), (Ty.c, 1)] := by decide +kernel
  have k_amp : ∀ s : Fin 4 → Fin 2, s 2 = 1 → s 3 = 0 → eenene.amp (eenene.N c p) (spinOf (s 0)) (spinOf (s 1)) = eenene.scat.ewC c p (eenene.scat.angs c p s) (eenene.scat.sqrs c p s) 1 0 2 3 - eenene.scat.ewC c p (eenene.scat.angs c p s) (eenene.scat.sqrs c p s) 1 3 2 0 := by
    intro s f2 f3
    have v1 : (eenene.N c p).v 1 [spinOf (s 0)] = sb (eenene.scat.sqrs c p s 0) (eenene.scat.sqrs c p s 2) := bra_square (p := p) (m := eenene.proc.massNum (eenene.rho c)) rfl n2 (.inl ⟨m0, rfl⟩) (.inr ⟨m2, f2⟩)
    have v2 : (eenene.N c p).v 2 [spinOf (s 0)] = ab (eenene.scat.angs c p s 0) (eenene.scat.angs c p s 3) := bra_angle (p := p) (m := eenene.proc.massNum (eenene.rho c)) rfl n3 (.inl ⟨m0, rfl⟩) (.inr ⟨m3, f3⟩)
    have v5 : (eenene.N c p).v 5 [spinOf (s 1)] = sb (eenene.scat.sqrs c p s 1) (eenene.scat.sqrs c p s 2) := bra_square (p := p) (m := eenene.proc.massNum (eenene.rho c)) rfl n2 (.inl ⟨m1, rfl⟩) (.inr ⟨m2, f2⟩)
    have v6 : (eenene.N c p).v 6 [spinOf (s 1)] = ab (eenene.scat.angs c p s 1) (eenene.scat.angs c p s 3) := bra_angle (p := p) (m := eenene.proc.massNum (eenene.rho c)) rfl n3 (.inl ⟨m1, rfl⟩) (.inr ⟨m3, f3⟩)
    rw [ewC_neutral (S := eenene.scat) (i := 1) (j := 0) (k := 2) (l := 3) (f := .e) (g := .ne) (by decide) (by decide) rfl rfl rfl g1 g0 g2 g3 rfl rfl rfl, ewC_charged (S := eenene.scat) (i := 1) (j := 3) (k := 2) (l := 0) (m₁ := c.mass .e) (m₂ := c.mass .ne) (m₃ := c.mass .ne) (m₄ := c.mass .e) (by decide) (by decide) rfl g1 g3 g2 g0 rfl rfl rfl rfl rfl, eenene.amp]
    simp only [r0, r1, r4, r6, r8, r9, r10, c0, c1, v1, v2, v5, v6, jj, ln, lw, Constants.gL, Constants.gR, Flavour.charge_e, Flavour.isospin_e, Flavour.charge_ne, Flavour.isospin_ne, m2, m3]
    abstract_brackets eenene.scat c p s
    push_cast
    field_simp; ring
  refine ⟨fun n hn => ?_, fun n hn => ?_, ?_⟩
  · simp [hd] at hn
    rcases hn with rfl | rfl
    · rw [r6]; exact nSW
    · rw [r4]; exact nMW
  · simp [hd] at hn
    rcases hn with rfl | rfl
    · rw [c0]; exact d0
    · rw [c1]; exact d1
  show meaning (eenene.N c p) .r Cls.eenene.methods Cls.eenene.amp2 [] = _
  have ss : eenene.scat.states = 4 := by decide
  have sy : eenene.scat.symmetry = 1 := by decide
  rw [eenene.value, eenene.scat.squared_leptons he ht hs h0 hf hu (by decide), ss, sy, Nat.cast_zero]
  have z2 : ∀ w x z : Fin 2, eenene.scat.ewC c p (eenene.scat.angs c p ![w, x, 0, z]) (eenene.scat.sqrs c p ![w, x, 0, z]) 1 0 2 3 = 0 := fun w x z => ewC_neutrino 2 rfl m2 (.inl ⟨by decide, legS_zero m2 rfl⟩)
  have z2' : ∀ w x z : Fin 2, eenene.scat.ewC c p (eenene.scat.angs c p ![w, x, 0, z]) (eenene.scat.sqrs c p ![w, x, 0, z]) 1 3 2 0 = 0 := fun w x z => ewC_neutrino 2 rfl m2 (.inl ⟨by decide, legS_zero m2 rfl⟩)
  have z3 : ∀ w x y : Fin 2, eenene.scat.ewC c p (eenene.scat.angs c p ![w, x, y, 1]) (eenene.scat.sqrs c p ![w, x, y, 1]) 1 0 2 3 = 0 := fun w x y => ewC_neutrino 3 rfl m3 (.inr ⟨by decide, legA_zero m3 rfl⟩)
  have z3' : ∀ w x y : Fin 2, eenene.scat.ewC c p (eenene.scat.angs c p ![w, x, y, 1]) (eenene.scat.sqrs c p ![w, x, y, 1]) 1 3 2 0 = 0 := fun w x y => ewC_neutrino 3 rfl m3 (.inr ⟨by decide, legA_zero m3 rfl⟩)
  have k := fun w x : Fin 2 => k_amp ![w, x, 1, 0] rfl rfl
  rw [sumJ_two]
  rw [sum_quad]
  try simp only [Matrix.cons_val] at k
  simp only [Fin.sum_univ_two, k, z2, z2', z3, z3']
  finish_spins

/-! ### enenee -/

/-- what the methods of the class see -/
noncomputable abbrev enenee.N [FPEnv] (c : Constants) (p : Nat → V4 ℝ) : Env := enenee.proc.env (enenee.rho c) p
/-- `amp` (SM/enenee.cpp) -/
noncomputable def enenee.amp (N : Env) (j1 j4 : Int) : ℂ :=
  (((((((-((2 : Nat) : ℝ)) * N.r 10) : ℝ) : ℂ) * (((((N.r 8 : ℝ) : ℂ) * N.v 10 [j4]) * N.v 9 [j1]) - ((((N.r 9 : ℝ) : ℂ) * N.v 1 [j1]) * N.v 6 [j4]))) / N.c 0) + ((((((-((2 : Nat) : ℝ)) * N.r 11) : ℝ) : ℂ) * (((((((((2 : Nat) : ℝ) * N.r 4) * N.r 4) : ℝ) : ℂ) * N.v 10 [j4]) * N.v 9 [j1]) - (((((N.r 1 * N.r 1) : ℝ) : ℂ) * N.v 1 [j1]) * N.v 6 [j4]))) / N.c 1))
set_option maxRecDepth 8000 in
theorem enenee.amp2_eq (N : Env) (f : Nat → List Int → ℂ) : Cls.enenee.m_amp2.mean N f .r [] =
    ((sumJ (fun x a => (sumJ (fun x b => (x + (‖(f 0 [a, b])‖ ^ 2))) x)) ((0 : Nat) : ℝ)) / ((2 : Nat) : ℝ)) := by rfl
set_option maxRecDepth 8000 in
theorem enenee.value (N : Env) : meaning N .r Cls.enenee.methods Cls.enenee.amp2 [] =
    ((sumJ (fun x a => (sumJ (fun x b => (x + (‖(enenee.amp N a b)‖ ^ 2))) x)) ((0 : Nat) : ℝ)) / ((2 : Nat) : ℝ)) :=
  enenee.amp2_eq N (callMean N [Cls.enenee.m_amp])

variable [FPEnv] in
theorem enenee.agrees : enenee.Agrees := by
  refine agrees_of (D := [2, 4]) (E := [4]) (by simp [all, enenee]) (by decide +kernel) (by decide) (by decide +kernel) (fun c hc => ⟨List.forall_mem_cons.2 ⟨hc.MW, List.forall_mem_cons.2 ⟨hc.SW, List.forall_mem_nil _⟩⟩, List.forall_mem_cons.2 ⟨hc.SW_lt, List.forall_mem_nil _⟩⟩) (fun c hc i => by fin_cases i <;> first | rfl | exact Nat.cast_zero.trans (hc.neutrino _).symm) (by decide +kernel) ?_
  intro c p u hc hw h0 hs hb hr hu
  replace hw := hw (by simp [enenee])
  have he : enenee.scat.ends = [2, 3] := by decide
  have ht : enenee.scat.starts = [0, 1] := by decide
  obtain ⟨o1, o2⟩ := regular_two he ht hr
  have hf := enenee.scat.flows_scattering (by decide) hb
  have ms := enenee.scat.msq_scattering (by decide) hb
  have r10 : (enenee.N c p).r 10 = ((c.e * c.e) / ((((((4 : Nat) : ℝ) * √((((1 : Nat) : ℝ) - (c.SW * c.SW)))) * √((((1 : Nat) : ℝ) - (c.SW * c.SW)))) * c.SW) * c.SW)) := rfl
  simp only [c.root] at r10
  have r8 : (enenee.N c p).r 8 = (((((2 : Nat) : ℝ) * c.SW) * c.SW) - ((1 : Nat) : ℝ)) := rfl
  have r9 : (enenee.N c p).r 9 = ((((2 : Nat) : ℝ) * c.SW) * c.SW) := rfl
  have r11 : (enenee.N c p).r 11 = ((((c.e * c.e) / c.SW) / c.SW) / ((((4 : Nat) : ℝ) * c.MW) * c.MW)) := rfl
  have r4 : (enenee.N c p).r 4 = c.MW := rfl
  have r1 : (enenee.N c p).r 1 = (c.mass .e) := rfl
  have c0 : (enenee.N c p).c 0 = poleDist (c.MW / √((((1 : Nat) : ℝ) - (c.SW * c.SW)))) ((0 : Nat) : ℝ) ((VExp.sub 0 3).sum p) := rfl
  rw [c.root, c.mz, Nat.cast_zero, ← hw, pole_congr (ms.2).symm] at c0
  have c1 : (enenee.N c p).c 1 = poleDist c.MW c.WW ((VExp.sub 0 2).sum p) := rfl
  rw [pole_congr (ms.1).symm] at c1
  have d0 := o2.z (by decide) rfl
  have d1 := o1.w (by decide) rfl
  have m0 : c.mass .e ≠ 0 := (hc.massive _ (by decide)).ne'
  have m1 : c.mass .ne = 0 := hc.neutrino _
  have n1 : enenee.proc.massNum (enenee.rho c) 1 = c.mass .ne := Nat.cast_zero.trans m1.symm
  have m2 : c.mass .ne = 0 := hc.neutrino _
  have n2 : enenee.proc.massNum (enenee.rho c) 2 = c.mass .ne := Nat.cast_zero.trans m2.symm
  have m3 : c.mass .e ≠ 0 := (hc.massive _ (by decide)).ne'
  have g0 : enenee.scat.sgn 0 = 1 := if_neg Bool.false_ne_true
  have g1 : enenee.scat.sgn 1 = 1 := if_neg Bool.false_ne_true
  have g2 : enenee.scat.sgn 2 = 1 := if_neg Bool.false_ne_true
  have g3 : enenee.scat.sgn 3 = 1 := if_neg Bool.false_ne_true
  have nMW := hc.MW
  have nSW := hc.SW
  have xMW : (c.MW : ℂ) ≠ 0 := by exact_mod_cast hc.MW
  have xSW : (c.SW : ℂ) ≠ 0 := by exact_mod_cast hc.SW
  have xCW : (c.CW : ℂ) ≠ 0 := by exact_mod_cast hc.CW
  have hd : enenee.proc.divides = [(Ty.c, 0), (Ty.c, 1)] := by decide +kernel
  have k_amp : ∀ s : Fin 4 → Fin 2, s 1 = 0 → s 2 = 1 → enenee.amp (enenee.N c p) (spinOf (s 0)) (spinOf (s 3)) = enenee.scat.ewC c p (enenee.scat.angs c p s) (enenee.scat.sqrs c p s) 2 0 3 1 - enenee.scat.ewC c p (enenee.scat.angs c p s) (enenee.scat.sqrs c p s) 2 1 3 0 := by
    intro s f1 f2
    have v1 : (enenee.N c p).v 1 [spinOf (s 0)] = sb (enenee.scat.sqrs c p s 0) (enenee.scat.sqrs c p s 2) := bra_square (p := p) (m := enenee.proc.massNum (enenee.rho c)) rfl n2 (.inl ⟨m0, rfl⟩) (.inr ⟨m2, f2⟩)
    have v6 : (enenee.N c p).v 6 [spinOf (s 3)] = ab (enenee.scat.angs c p s 1) (enenee.scat.angs c p s 3) := bra_angle (p := p) (m := enenee.proc.massNum (enenee.rho c)) n1 rfl (.inr ⟨m1, f1⟩) (.inl ⟨m3, rfl⟩)
    have v9 : (enenee.N c p).v 9 [spinOf (s 0)] = ab (enenee.scat.angs c p s 0) (enenee.scat.angs c p s 1) := bra_angle (p := p) (m := enenee.proc.massNum (enenee.rho c)) rfl n1 (.inl ⟨m0, rfl⟩) (.inr ⟨m1, f1⟩)
    have v10 : (enenee.N c p).v 10 [spinOf (s 3)] = sb (enenee.scat.sqrs c p s 2) (enenee.scat.sqrs c p s 3) := bra_square (p := p) (m := enenee.proc.massNum (enenee.rho c)) n2 rfl (.inr ⟨m2, f2⟩) (.inl ⟨m3, rfl⟩)
    rw [ewC_charged (S := enenee.scat) (i := 2) (j := 0) (k := 3) (l := 1) (m₁ := c.mass .ne) (m₂ := c.mass .e) (m₃ := c.mass .e) (m₄ := c.mass .ne) (by decide) (by decide) rfl g2 g0 g3 g1 rfl rfl rfl rfl rfl, ewC_neutral (S := enenee.scat) (i := 2) (j := 1) (k := 3) (l := 0) (f := .ne) (g := .e) (by decide) (by decide) rfl rfl rfl g2 g1 g3 g0 rfl rfl rfl, enenee.amp]
    simp only [r1, r4, r8, r9, r10, r11, c0, c1, v1, v6, v9, v10, jj, ln, lw, Constants.gL, Constants.gR, Flavour.charge_e, Flavour.isospin_e, Flavour.charge_ne, Flavour.isospin_ne, m1, m2]
    abstract_brackets enenee.scat c p s
    push_cast
    field_simp; ring
  refine ⟨fun n hn => ?_, fun n hn => ?_, ?_⟩
  · simp [hd] at hn
  · simp [hd] at hn
    rcases hn with rfl | rfl
    · rw [c0]; exact d0
    · rw [c1]; exact d1
  show meaning (enenee.N c p) .r Cls.enenee.methods Cls.enenee.amp2 [] = _
  have ss : enenee.scat.states = 2 := by decide
  have sy : enenee.scat.symmetry = 1 := by decide
  rw [enenee.value, enenee.scat.squared_leptons he ht hs h0 hf hu (by decide), ss, sy, Nat.cast_zero]
  have z1 : ∀ w y z : Fin 2, enenee.scat.ewC c p (enenee.scat.angs c p ![w, 1, y, z]) (enenee.scat.sqrs c p ![w, 1, y, z]) 2 0 3 1 = 0 := fun w y z => ewC_neutrino 1 rfl m1 (.inr ⟨by decide, legA_zero m1 rfl⟩)
  have z1' : ∀ w y z : Fin 2, enenee.scat.ewC c p (enenee.scat.angs c p ![w, 1, y, z]) (enenee.scat.sqrs c p ![w, 1, y, z]) 2 1 3 0 = 0 := fun w y z => ewC_neutrino 1 rfl m1 (.inr ⟨by decide, legA_zero m1 rfl⟩)
  have z2 : ∀ w x z : Fin 2, enenee.scat.ewC c p (enenee.scat.angs c p ![w, x, 0, z]) (enenee.scat.sqrs c p ![w, x, 0, z]) 2 0 3 1 = 0 := fun w x z => ewC_neutrino 2 rfl m2 (.inl ⟨by decide, legS_zero m2 rfl⟩)
  have z2' : ∀ w x z : Fin 2, enenee.scat.ewC c p (enenee.scat.angs c p ![w, x, 0, z]) (enenee.scat.sqrs c p ![w, x, 0, z]) 2 1 3 0 = 0 := fun w x z => ewC_neutrino 2 rfl m2 (.inl ⟨by decide, legS_zero m2 rfl⟩)
  have k := fun w z : Fin 2 => k_amp ![w, 0, 1, z] rfl rfl
  rw [sumJ_two]
  rw [sum_quad]
  try simp only [Matrix.cons_val] at k
  simp only [Fin.sum_univ_two, k, z1, z1', z2, z2']
  finish_spins

/-! ### mnen -/

/-- what the methods of the class see -/
noncomputable abbrev mnen.N [FPEnv] (c : Constants) (p : Nat → V4 ℝ) : Env := mnen.proc.env (mnen.rho c) p
/-- `amp` (SM/mnen.cpp) -/
noncomputable def mnen.amp (N : Env) (j1 j3 : Int) : ℂ :=
  ((((((-N.r 6) * ((2 : Nat) : ℝ)) : ℝ) : ℂ) * (((((((((2 : Nat) : ℝ) * N.r 3) * N.r 3) : ℝ) : ℂ) * N.v 0 [j3]) * N.v 1 [j1]) + (((((N.r 2 * N.r 1) : ℝ) : ℂ) * N.v 2 [j1]) * N.v 3 [j3]))) / N.c 0)
set_option maxRecDepth 8000 in
theorem mnen.amp2_eq (N : Env) (f : Nat → List Int → ℂ) : Cls.mnen.m_amp2.mean N f .r [] =
    ((sumJ (fun x a => (sumJ (fun x b => (x + (‖(f 0 [a, b])‖ ^ 2))) x)) ((0 : Nat) : ℝ)) / ((2 : Nat) : ℝ)) := by rfl
set_option maxRecDepth 8000 in
theorem mnen.value (N : Env) : meaning N .r Cls.mnen.methods Cls.mnen.amp2 [] =
    ((sumJ (fun x a => (sumJ (fun x b => (x + (‖(mnen.amp N a b)‖ ^ 2))) x)) ((0 : Nat) : ℝ)) / ((2 : Nat) : ℝ)) :=
  mnen.amp2_eq N (callMean N [Cls.mnen.m_amp])

variable [FPEnv] in
theorem mnen.agrees : mnen.Agrees := by
  refine agrees_of (D := [3, 5]) (E := [5]) (by simp [all, mnen]) (by decide +kernel) (by decide) (by decide +kernel) (fun c hc => ⟨List.forall_mem_cons.2 ⟨hc.MW, List.forall_mem_cons.2 ⟨hc.SW, List.forall_mem_nil _⟩⟩, List.forall_mem_cons.2 ⟨hc.SW_lt, List.forall_mem_nil _⟩⟩) (fun c hc i => by fin_cases i <;> first | rfl | exact Nat.cast_zero.trans (hc.neutrino _).symm) (by decide +kernel) ?_
  intro c p u hc hw h0 hs hb hr hu
  have he : mnen.scat.ends = [2, 3] := by decide
  have ht : mnen.scat.starts = [0, 1] := by decide
  obtain ⟨o1, o2⟩ := regular_two he ht hr
  have hf := mnen.scat.flows_scattering (by decide) hb
  have ms := mnen.scat.msq_scattering (by decide) hb
  have r6 : (mnen.N c p).r 6 = ((c.e * c.e) / ((((((4 : Nat) : ℝ) * c.MW) * c.MW) * c.SW) * c.SW)) := rfl
  have r3 : (mnen.N c p).r 3 = c.MW := rfl
  have r2 : (mnen.N c p).r 2 = (c.mass .mu) := rfl
  have r1 : (mnen.N c p).r 1 = (c.mass .e) := rfl
  have c0 : (mnen.N c p).c 0 = poleDist c.MW c.WW ((VExp.sub 0 3).sum p) := rfl
  rw [pole_congr (ms.2).symm] at c0
  have d0 := o2.w (by decide) rfl
  have m0 : c.mass .mu ≠ 0 := (hc.massive _ (by decide)).ne'
  have m1 : c.mass .ne = 0 := hc.neutrino _
  have n1 : mnen.proc.massNum (mnen.rho c) 1 = c.mass .ne := Nat.cast_zero.trans m1.symm
  have m2 : c.mass .e ≠ 0 := (hc.massive _ (by decide)).ne'
  have m3 : c.mass .nmu = 0 := hc.neutrino _
  have n3 : mnen.proc.massNum (mnen.rho c) 3 = c.mass .nmu := Nat.cast_zero.trans m3.symm
  have g0 : mnen.scat.sgn 0 = 1 := if_neg Bool.false_ne_true
  have g1 : mnen.scat.sgn 1 = 1 := if_neg Bool.false_ne_true
  have g2 : mnen.scat.sgn 2 = 1 := if_neg Bool.false_ne_true
  have g3 : mnen.scat.sgn 3 = 1 := if_neg Bool.false_ne_true
  have nMW := hc.MW
  have nSW := hc.SW
  have xMW : (c.MW : ℂ) ≠ 0 := by exact_mod_cast hc.MW
  have xSW : (c.SW : ℂ) ≠ 0 := by exact_mod_cast hc.SW
  have xCW : (c.CW : ℂ) ≠ 0 := by exact_mod_cast hc.CW
  have hd : mnen.proc.divides = [(Ty.c, 0)] := by decide +kernel
  have k_amp : ∀ s : Fin 4 → Fin 2, s 1 = 0 → s 3 = 1 → mnen.amp (mnen.N c p) (spinOf (s 0)) (spinOf (s 2)) = mnen.scat.ewC c p (mnen.scat.angs c p s) (mnen.scat.sqrs c p s) 2 0 3 1 - mnen.scat.ewC c p (mnen.scat.angs c p s) (mnen.scat.sqrs c p s) 2 1 3 0 := by
    intro s f1 f3
    have v0 : (mnen.N c p).v 0 [spinOf (s 2)] = sb (mnen.scat.sqrs c p s 2) (mnen.scat.sqrs c p s 3) := bra_square (p := p) (m := mnen.proc.massNum (mnen.rho c)) rfl n3 (.inl ⟨m2, rfl⟩) (.inr ⟨m3, f3⟩)
    have v1 : (mnen.N c p).v 1 [spinOf (s 0)] = ab (mnen.scat.angs c p s 0) (mnen.scat.angs c p s 1) := bra_angle (p := p) (m := mnen.proc.massNum (mnen.rho c)) rfl n1 (.inl ⟨m0, rfl⟩) (.inr ⟨m1, f1⟩)
    have v2 : (mnen.N c p).v 2 [spinOf (s 0)] = sb (mnen.scat.sqrs c p s 0) (mnen.scat.sqrs c p s 3) := bra_square (p := p) (m := mnen.proc.massNum (mnen.rho c)) rfl n3 (.inl ⟨m0, rfl⟩) (.inr ⟨m3, f3⟩)
    have v3 : (mnen.N c p).v 3 [spinOf (s 2)] = ab (mnen.scat.angs c p s 1) (mnen.scat.angs c p s 2) := bra_angle (p := p) (m := mnen.proc.massNum (mnen.rho c)) n1 rfl (.inr ⟨m1, f1⟩) (.inl ⟨m2, rfl⟩)
    rw [ewC_none (S := mnen.scat) (i := 2) (j := 0) (k := 3) (l := 1) (by decide) (by decide), ewC_charged (S := mnen.scat) (i := 2) (j := 1) (k := 3) (l := 0) (m₁ := c.mass .e) (m₂ := c.mass .ne) (m₃ := c.mass .nmu) (m₄ := c.mass .mu) (by decide) (by decide) rfl g2 g1 g3 g0 rfl rfl rfl rfl rfl, mnen.amp]
    simp only [r1, r2, r3, r6, c0, v0, v1, v2, v3, jj, ln, lw, Constants.gL, Constants.gR, Flavour.charge_e, Flavour.isospin_e, Flavour.charge_mu, Flavour.isospin_mu, Flavour.charge_ne, Flavour.isospin_ne, Flavour.charge_nmu, Flavour.isospin_nmu, m1, m3]
    abstract_brackets mnen.scat c p s
    push_cast
    field_simp; ring
  refine ⟨fun n hn => ?_, fun n hn => ?_, ?_⟩
  · simp [hd] at hn
  · simp [hd] at hn
    rcases hn with rfl
    · rw [c0]; exact d0
  show meaning (mnen.N c p) .r Cls.mnen.methods Cls.mnen.amp2 [] = _
  have ss : mnen.scat.states = 2 := by decide
  have sy : mnen.scat.symmetry = 1 := by decide
  rw [mnen.value, mnen.scat.squared_leptons he ht hs h0 hf hu (by decide), ss, sy, Nat.cast_zero]
  have z1' : ∀ w y z : Fin 2, mnen.scat.ewC c p (mnen.scat.angs c p ![w, 1, y, z]) (mnen.scat.sqrs c p ![w, 1, y, z]) 2 1 3 0 = 0 := fun w y z => ewC_neutrino 1 rfl m1 (.inr ⟨by decide, legA_zero m1 rfl⟩)
  have z3' : ∀ w x y : Fin 2, mnen.scat.ewC c p (mnen.scat.angs c p ![w, x, y, 0]) (mnen.scat.sqrs c p ![w, x, y, 0]) 2 1 3 0 = 0 := fun w x y => ewC_neutrino 3 rfl m3 (.inl ⟨by decide, legS_zero m3 rfl⟩)
  have k := fun w y : Fin 2 => k_amp ![w, 0, y, 1] rfl rfl
  rw [sumJ_two]
  rw [sum_quad]
  try simp only [Matrix.cons_val] at k
  simp only [Fin.sum_univ_two, k, z1', z3', ewC_none (S := mnen.scat) (i := 2) (j := 0) (k := 3) (l := 1) (by decide) (by decide)]
  finish_spins

/-! ### menn -/

/-- what the methods of the class see -/
noncomputable abbrev menn.N [FPEnv] (c : Constants) (p : Nat → V4 ℝ) : Env := menn.proc.env (menn.rho c) p
/-- `amp` (SM/menn.cpp) -/
noncomputable def menn.amp (N : Env) (j1 j2 : Int) : ℂ :=
  ((((((((N.r 0 * N.r 0) / ((2 : Nat) : ℝ)) / N.r 5) / N.r 5) : ℝ) : ℂ) * (((((((((2 : Nat) : ℝ) * N.r 3) * N.r 3) : ℝ) : ℂ) * N.v 0 [j2]) * N.v 1 [j1]) + (((((N.r 2 * N.r 1) : ℝ) : ℂ) * N.v 2 [j1]) * N.v 3 [j2]))) / ((((N.r 3 * N.r 3) : ℝ) : ℂ) * N.c 0))
set_option maxRecDepth 8000 in
theorem menn.amp2_eq (N : Env) (f : Nat → List Int → ℂ) : Cls.menn.m_amp2.mean N f .r [] =
    ((sumJ (fun x a => (sumJ (fun x b => (x + (‖(f 0 [a, b])‖ ^ 2))) x)) ((0 : Nat) : ℝ)) / ((4 : Nat) : ℝ)) := by rfl
set_option maxRecDepth 8000 in
theorem menn.value (N : Env) : meaning N .r Cls.menn.methods Cls.menn.amp2 [] =
    ((sumJ (fun x a => (sumJ (fun x b => (x + (‖(menn.amp N a b)‖ ^ 2))) x)) ((0 : Nat) : ℝ)) / ((4 : Nat) : ℝ)) :=
  menn.amp2_eq N (callMean N [Cls.menn.m_amp])

variable [FPEnv] in
theorem menn.agrees : menn.Agrees := by
  refine agrees_of (D := [3, 5]) (E := [5]) (by simp [all, menn]) (by decide +kernel) (by decide) (by decide +kernel) (fun c hc => ⟨List.forall_mem_cons.2 ⟨hc.MW, List.forall_mem_cons.2 ⟨hc.SW, List.forall_mem_nil _⟩⟩, List.forall_mem_cons.2 ⟨hc.SW_lt, List.forall_mem_nil _⟩⟩) (fun c hc i => by fin_cases i <;> first | rfl | exact Nat.cast_zero.trans (hc.neutrino _).symm) (by decide +kernel) ?_
  intro c p u hc hw h0 hs hb hr hu
  have he : menn.scat.ends = [0, 2] := by decide
  have ht : menn.scat.starts = [1, 3] := by decide
  obtain ⟨o1, o2⟩ := regular_two he ht hr
  have hf := menn.scat.flows_exchange (by decide) hb
  have ms := menn.scat.msq_exchange (p := p) (by decide)
  have r0 : (menn.N c p).r 0 = c.e := rfl
  have r5 : (menn.N c p).r 5 = c.SW := rfl
  have r3 : (menn.N c p).r 3 = c.MW := rfl
  have r2 : (menn.N c p).r 2 = (c.mass .mu) := rfl
  have r1 : (menn.N c p).r 1 = (c.mass .e) := rfl
  have c0 : (menn.N c p).c 0 = poleDist c.MW c.WW ((VExp.sub 0 3).sum p) := rfl
  rw [pole_congr (ms).symm] at c0
  have d0 := o2.w (by decide) rfl
  have m0 : c.mass .mu ≠ 0 := (hc.massive _ (by decide)).ne'
  have m1 : c.mass .e ≠ 0 := (hc.massive _ (by decide)).ne'
  have m2 : c.mass .ne = 0 := hc.neutrino _
  have n2 : menn.proc.massNum (menn.rho c) 2 = c.mass .ne := Nat.cast_zero.trans m2.symm
  have m3 : c.mass .nmu = 0 := hc.neutrino _
  have n3 : menn.proc.massNum (menn.rho c) 3 = c.mass .nmu := Nat.cast_zero.trans m3.symm
  have g0 : menn.scat.sgn 0 = -1 := if_pos rfl
  have g1 : menn.scat.sgn 1 = 1 := if_neg Bool.false_ne_true
  have g2 : menn.scat.sgn 2 = 1 := if_neg Bool.false_ne_true
  have g3 : menn.scat.sgn 3 = -1 := if_pos rfl
  have nMW := hc.MW
  have nSW := hc.SW
  have xMW : (c.MW : ℂ) ≠ 0 := by exact_mod_cast hc.MW
  have xSW : (c.SW : ℂ) ≠ 0 := by exact_mod_cast hc.SW
  have xCW : (c.CW : ℂ) ≠ 0 := by exact_mod_cast hc.CW
  have hd : menn.proc.divides = [(Ty.r, 5), (Ty.r, 3), (Ty.c, 0)] := by decide +kernel
  have k_amp : ∀ s : Fin 4 → Fin 2, s 2 = 0 → s 3 = 1 → menn.amp (menn.N c p) (spinOf (s 0)) (spinOf (s 1)) = -(menn.scat.ewD c p (menn.scat.angs c p s) (menn.scat.sqrs c p s) 0 3 2 1) := by
    intro s f2 f3
    have v0 : (menn.N c p).v 0 [spinOf (s 1)] = sb (menn.scat.sqrs c p s 1) (menn.scat.sqrs c p s 3) := bra_square (p := p) (m := menn.proc.massNum (menn.rho c)) rfl n3 (.inl ⟨m1, rfl⟩) (.inr ⟨m3, f3⟩)
    have v1 : (menn.N c p).v 1 [spinOf (s 0)] = ab (menn.scat.angs c p s 0) (menn.scat.angs c p s 2) := bra_angle (p := p) (m := menn.proc.massNum (menn.rho c)) rfl n2 (.inl ⟨m0, rfl⟩) (.inr ⟨m2, f2⟩)
    have v2 : (menn.N c p).v 2 [spinOf (s 0)] = sb (menn.scat.sqrs c p s 0) (menn.scat.sqrs c p s 3) := bra_square (p := p) (m := menn.proc.massNum (menn.rho c)) rfl n3 (.inl ⟨m0, rfl⟩) (.inr ⟨m3, f3⟩)
    have v3 : (menn.N c p).v 3 [spinOf (s 1)] = ab (menn.scat.angs c p s 1) (menn.scat.angs c p s 2) := bra_angle (p := p) (m := menn.proc.massNum (menn.rho c)) rfl n2 (.inl ⟨m1, rfl⟩) (.inr ⟨m2, f2⟩)
    rw [ewD_charged (S := menn.scat) (i := 0) (j := 3) (k := 2) (l := 1) (m₁ := c.mass .mu) (m₂ := c.mass .nmu) (m₃ := c.mass .ne) (m₄ := c.mass .e) g0 g3 g2 g1 rfl rfl rfl rfl, menn.amp]
    simp only [r0, r1, r2, r3, r5, c0, v0, v1, v2, v3, jj, ln, lw, Constants.gL, Constants.gR, Flavour.charge_e, Flavour.isospin_e, Flavour.charge_mu, Flavour.isospin_mu, Flavour.charge_ne, Flavour.isospin_ne, Flavour.charge_nmu, Flavour.isospin_nmu, m2, m3]
    abstract_brackets menn.scat c p s
    push_cast
    field_simp; ring
  refine ⟨fun n hn => ?_, fun n hn => ?_, ?_⟩
  · simp [hd] at hn
    rcases hn with rfl | rfl
    · rw [r5]; exact nSW
    · rw [r3]; exact nMW
  · simp [hd] at hn
    rcases hn with rfl
    · rw [c0]; exact d0
  show meaning (menn.N c p) .r Cls.menn.methods Cls.menn.amp2 [] = _
  have ss : menn.scat.states = 4 := by decide
  have sy : menn.scat.symmetry = 1 := by decide
  rw [menn.value, leptons_direct hs h0 hu he ht hf.2 (by decide) (by decide) (by decide) (by decide) (by decide) rfl, ss, sy, Nat.cast_zero]
  have z2' : ∀ w x z : Fin 2, menn.scat.ewD c p (menn.scat.angs c p ![w, x, 1, z]) (menn.scat.sqrs c p ![w, x, 1, z]) 0 3 2 1 = 0 := fun w x z => ewD_neutrino 2 m2 (.inl ⟨by decide, legA_zero m2 rfl⟩)
  have z3' : ∀ w x y : Fin 2, menn.scat.ewD c p (menn.scat.angs c p ![w, x, y, 0]) (menn.scat.sqrs c p ![w, x, y, 0]) 0 3 2 1 = 0 := fun w x y => ewD_neutrino 3 m3 (.inr ⟨by decide, legS_zero m3 rfl⟩)
  have k := fun w x : Fin 2 => k_amp ![w, x, 0, 1] rfl rfl
  rw [sumJ_two]
  rw [sum_quad]
  try simp only [Matrix.cons_val] at k
  simp only [Fin.sum_univ_two, k, z2', z3', ewC_none (S := menn.scat) (i := 0) (j := 1) (k := 2) (l := 3) (by decide) (by decide)]
  finish_spins

/-! ### nenenene -/

/-- what the methods of the class see -/
noncomputable abbrev nenenene.N [FPEnv] (c : Constants) (p : Nat → V4 ℝ) : Env := nenenene.proc.env (nenenene.rho c) p
/-- `amp` (SM/nenenene.cpp) -/
noncomputable def nenenene.amp (N : Env) : ℂ :=
  (((((0 : Nat) : ℝ) : ℝ) : ℂ) + (((((((-((2 : Nat) : ℝ)) * N.r 6) : ℝ) : ℂ) * N.v 1 []) * N.v 0 []) * ((((((1 : Nat) : ℝ) : ℝ) : ℂ) / N.c 0) + (((((1 : Nat) : ℝ) : ℝ) : ℂ) / N.c 1))))
set_option maxRecDepth 8000 in
theorem nenenene.amp2_eq (N : Env) (f : Nat → List Int → ℂ) : Cls.nenenene.m_amp2.mean N f .r [] =
    (‖(f 0 [])‖ ^ 2) := by rfl
set_option maxRecDepth 8000 in
theorem nenenene.value (N : Env) : meaning N .r Cls.nenenene.methods Cls.nenenene.amp2 [] =
    (‖(nenenene.amp N)‖ ^ 2) :=
  nenenene.amp2_eq N (callMean N [Cls.nenenene.m_amp])

variable [FPEnv] in
theorem nenenene.agrees : nenenene.Agrees := by
  refine agrees_of (D := [1, 2]) (E := [2]) (by simp [all, nenenene]) (by decide +kernel) (by decide) (by decide +kernel) (fun c hc => ⟨List.forall_mem_cons.2 ⟨hc.MW, List.forall_mem_cons.2 ⟨hc.SW, List.forall_mem_nil _⟩⟩, List.forall_mem_cons.2 ⟨hc.SW_lt, List.forall_mem_nil _⟩⟩) (fun c hc i => by fin_cases i <;> first | rfl | exact Nat.cast_zero.trans (hc.neutrino _).symm) (by decide +kernel) ?_
  intro c p u hc hw h0 hs hb hr hu
  replace hw := hw (by simp [nenenene])
  have he : nenenene.scat.ends = [1, 2] := by decide
  have ht : nenenene.scat.starts = [0, 3] := by decide
  obtain ⟨o1, o2⟩ := regular_two he ht hr
  have hf := nenenene.scat.flows_annihilation (by decide) hb
  have ms := nenenene.scat.msq_annihilation (by decide) hb
  have r6 : (nenenene.N c p).r 6 = ((c.e * c.e) / ((((((4 : Nat) : ℝ) * √((((1 : Nat) : ℝ) - (c.SW * c.SW)))) * √((((1 : Nat) : ℝ) - (c.SW * c.SW)))) * c.SW) * c.SW)) := rfl
  simp only [c.root] at r6
  have c0 : (nenenene.N c p).c 0 = poleDist (c.MW / √((((1 : Nat) : ℝ) - (c.SW * c.SW)))) ((0 : Nat) : ℝ) ((VExp.add 0 1).sum p) := rfl
  rw [c.root, c.mz, Nat.cast_zero, ← hw, pole_congr (ms.1).symm] at c0
  have c1 : (nenenene.N c p).c 1 = poleDist (c.MW / √((((1 : Nat) : ℝ) - (c.SW * c.SW)))) ((0 : Nat) : ℝ) ((VExp.sub 0 2).sum p) := rfl
  rw [c.root, c.mz, Nat.cast_zero, ← hw, pole_congr (ms.2).symm] at c1
  have d0 := o1.z (by decide) rfl
  have d1 := o2.z (by decide) rfl
  have m0 : c.mass .ne = 0 := hc.neutrino _
  have n0 : nenenene.proc.massNum (nenenene.rho c) 0 = c.mass .ne := Nat.cast_zero.trans m0.symm
  have m1 : c.mass .ne = 0 := hc.neutrino _
  have n1 : nenenene.proc.massNum (nenenene.rho c) 1 = c.mass .ne := Nat.cast_zero.trans m1.symm
  have m2 : c.mass .ne = 0 := hc.neutrino _
  have n2 : nenenene.proc.massNum (nenenene.rho c) 2 = c.mass .ne := Nat.cast_zero.trans m2.symm
  have m3 : c.mass .ne = 0 := hc.neutrino _
  have n3 : nenenene.proc.massNum (nenenene.rho c) 3 = c.mass .ne := Nat.cast_zero.trans m3.symm
  have g0 : nenenene.scat.sgn 0 = 1 := if_neg Bool.false_ne_true
  have g1 : nenenene.scat.sgn 1 = -1 := if_pos rfl
  have g2 : nenenene.scat.sgn 2 = 1 := if_neg Bool.false_ne_true
  have g3 : nenenene.scat.sgn 3 = -1 := if_pos rfl
  have nMW := hc.MW
  have nSW := hc.SW
  have xMW : (c.MW : ℂ) ≠ 0 := by exact_mod_cast hc.MW
  have xSW : (c.SW : ℂ) ≠ 0 := by exact_mod_cast hc.SW
  have xCW : (c.CW : ℂ) ≠ 0 := by exact_mod_cast hc.CW
  have hd : nenenene.proc.divides = [(Ty.c, 0), (Ty.c, 1)] := by decide +kernel
  have k_amp : ∀ s : Fin 4 → Fin 2, s 0 = 0 → s 1 = 1 → s 2 = 1 → s 3 = 0 → nenenene.amp (nenenene.N c p) = -(nenenene.scat.ewC c p (nenenene.scat.angs c p s) (nenenene.scat.sqrs c p s) 1 0 2 3) + nenenene.scat.ewC c p (nenenene.scat.angs c p s) (nenenene.scat.sqrs c p s) 1 3 2 0 := by
    intro s f0 f1 f2 f3
    have v0 : (nenenene.N c p).v 0 [] = ab (nenenene.scat.angs c p s 0) (nenenene.scat.angs c p s 3) := bra_angle (p := p) (m := nenenene.proc.massNum (nenenene.rho c)) n0 n3 (.inr ⟨m0, f0⟩) (.inr ⟨m3, f3⟩)
    have v1 : (nenenene.N c p).v 1 [] = sb (nenenene.scat.sqrs c p s 1) (nenenene.scat.sqrs c p s 2) := bra_square (p := p) (m := nenenene.proc.massNum (nenenene.rho c)) n1 n2 (.inr ⟨m1, f1⟩) (.inr ⟨m2, f2⟩)
    rw [ewC_neutral (S := nenenene.scat) (i := 1) (j := 0) (k := 2) (l := 3) (f := .ne) (g := .ne) (by decide) (by decide) rfl rfl rfl g1 g0 g2 g3 rfl rfl rfl, ewC_neutral (S := nenenene.scat) (i := 1) (j := 3) (k := 2) (l := 0) (f := .ne) (g := .ne) (by decide) (by decide) rfl rfl rfl g1 g3 g2 g0 rfl rfl rfl, nenenene.amp]
    simp only [r6, c0, c1, v0, v1, jj, ln, lw, Constants.gL, Constants.gR, Flavour.charge_ne, Flavour.isospin_ne, m0, m1, m2, m3]
    abstract_brackets nenenene.scat c p s
    push_cast
    ring
  refine ⟨fun n hn => ?_, fun n hn => ?_, ?_⟩
  · simp [hd] at hn
  · simp [hd] at hn
    rcases hn with rfl | rfl
    · rw [c0]; exact d0
    · rw [c1]; exact d1
  show meaning (nenenene.N c p) .r Cls.nenenene.methods Cls.nenenene.amp2 [] = _
  have ss : nenenene.scat.states = 1 := by decide
  have sy : nenenene.scat.symmetry = 1 := by decide
  rw [nenenene.value, nenenene.scat.squared_leptons he ht hs h0 hf hu (by decide), ss, sy]
  have z0 : ∀ x y z : Fin 2, nenenene.scat.ewC c p (nenenene.scat.angs c p ![1, x, y, z]) (nenenene.scat.sqrs c p ![1, x, y, z]) 1 0 2 3 = 0 := fun x y z => ewC_neutrino 0 rfl m0 (.inr ⟨by decide, legA_zero m0 rfl⟩)
  have z0' : ∀ x y z : Fin 2, nenenene.scat.ewC c p (nenenene.scat.angs c p ![1, x, y, z]) (nenenene.scat.sqrs c p ![1, x, y, z]) 1 3 2 0 = 0 := fun x y z => ewC_neutrino 0 rfl m0 (.inr ⟨by decide, legA_zero m0 rfl⟩)
  have z1 : ∀ w y z : Fin 2, nenenene.scat.ewC c p (nenenene.scat.angs c p ![w, 0, y, z]) (nenenene.scat.sqrs c p ![w, 0, y, z]) 1 0 2 3 = 0 := fun w y z => ewC_neutrino 1 rfl m1 (.inl ⟨by decide, legS_zero m1 rfl⟩)
  have z1' : ∀ w y z : Fin 2, nenenene.scat.ewC c p (nenenene.scat.angs c p ![w, 0, y, z]) (nenenene.scat.sqrs c p ![w, 0, y, z]) 1 3 2 0 = 0 := fun w y z => ewC_neutrino 1 rfl m1 (.inl ⟨by decide, legS_zero m1 rfl⟩)
  have z2 : ∀ w x z : Fin 2, nenenene.scat.ewC c p (nenenene.scat.angs c p ![w, x, 0, z]) (nenenene.scat.sqrs c p ![w, x, 0, z]) 1 0 2 3 = 0 := fun w x z => ewC_neutrino 2 rfl m2 (.inl ⟨by decide, legS_zero m2 rfl⟩)
  have z2' : ∀ w x z : Fin 2, nenenene.scat.ewC c p (nenenene.scat.angs c p ![w, x, 0, z]) (nenenene.scat.sqrs c p ![w, x, 0, z]) 1 3 2 0 = 0 := fun w x z => ewC_neutrino 2 rfl m2 (.inl ⟨by decide, legS_zero m2 rfl⟩)
  have z3 : ∀ w x y : Fin 2, nenenene.scat.ewC c p (nenenene.scat.angs c p ![w, x, y, 1]) (nenenene.scat.sqrs c p ![w, x, y, 1]) 1 0 2 3 = 0 := fun w x y => ewC_neutrino 3 rfl m3 (.inr ⟨by decide, legA_zero m3 rfl⟩)
  have z3' : ∀ w x y : Fin 2, nenenene.scat.ewC c p (nenenene.scat.angs c p ![w, x, y, 1]) (nenenene.scat.sqrs c p ![w, x, y, 1]) 1 3 2 0 = 0 := fun w x y => ewC_neutrino 3 rfl m3 (.inr ⟨by decide, legA_zero m3 rfl⟩)
  have k := k_amp ![0, 1, 1, 0] rfl rfl rfl rfl
  rw [sum_quad]
  try simp only [Matrix.cons_val] at k
  simp only [Fin.sum_univ_two, k, z0, z0', z1, z1', z2, z2', z3, z3']
  finish_spins

/-! ### nenenene2 -/

/-- what the methods of the class see -/
noncomputable abbrev nenenene2.N [FPEnv] (c : Constants) (p : Nat → V4 ℝ) : Env := nenenene2.proc.env (nenenene2.rho c) p
/-- `amp` (SM/nenenene2.cpp) -/
noncomputable def nenenene2.amp (N : Env) : ℂ :=
  (((((0 : Nat) : ℝ) : ℝ) : ℂ) + (((((((-((2 : Nat) : ℝ)) * N.r 6) : ℝ) : ℂ) * N.v 1 []) * N.v 0 []) * ((((((1 : Nat) : ℝ) : ℝ) : ℂ) / N.c 0) + (((((1 : Nat) : ℝ) : ℝ) : ℂ) / N.c 1))))
set_option maxRecDepth 8000 in
theorem nenenene2.amp2_eq (N : Env) (f : Nat → List Int → ℂ) : Cls.nenenene2.m_amp2.mean N f .r [] =
    ((‖(f 0 [])‖ ^ 2) / ((2 : Nat) : ℝ)) := by rfl
set_option maxRecDepth 8000 in
theorem nenenene2.value (N : Env) : meaning N .r Cls.nenenene2.methods Cls.nenenene2.amp2 [] =
    ((‖(nenenene2.amp N)‖ ^ 2) / ((2 : Nat) : ℝ)) :=
  nenenene2.amp2_eq N (callMean N [Cls.nenenene2.m_amp])

variable [FPEnv] in
theorem nenenene2.agrees : nenenene2.Agrees := by
  refine agrees_of (D := [1, 2]) (E := [2]) (by simp [all, nenenene2]) (by decide +kernel) (by decide) (by decide +kernel) (fun c hc => ⟨List.forall_mem_cons.2 ⟨hc.MW, List.forall_mem_cons.2 ⟨hc.SW, List.forall_mem_nil _⟩⟩, List.forall_mem_cons.2 ⟨hc.SW_lt, List.forall_mem_nil _⟩⟩) (fun c hc i => by fin_cases i <;> first | rfl | exact Nat.cast_zero.trans (hc.neutrino _).symm) (by decide +kernel) ?_
  intro c p u hc hw h0 hs hb hr hu
  replace hw := hw (by simp [nenenene2])
  have he : nenenene2.scat.ends = [2, 3] := by decide
  have ht : nenenene2.scat.starts = [0, 1] := by decide
  obtain ⟨o1, o2⟩ := regular_two he ht hr
  have hf := nenenene2.scat.flows_scattering (by decide) hb
  have ms := nenenene2.scat.msq_scattering (by decide) hb
  have r6 : (nenenene2.N c p).r 6 = ((c.e * c.e) / ((((((4 : Nat) : ℝ) * √((((1 : Nat) : ℝ) - (c.SW * c.SW)))) * √((((1 : Nat) : ℝ) - (c.SW * c.SW)))) * c.SW) * c.SW)) := rfl
  simp only [c.root] at r6
  have c0 : (nenenene2.N c p).c 0 = poleDist (c.MW / √((((1 : Nat) : ℝ) - (c.SW * c.SW)))) ((0 : Nat) : ℝ) ((VExp.sub 0 3).sum p) := rfl
  rw [c.root, c.mz, Nat.cast_zero, ← hw, pole_congr (ms.2).symm] at c0
  have c1 : (nenenene2.N c p).c 1 = poleDist (c.MW / √((((1 : Nat) : ℝ) - (c.SW * c.SW)))) ((0 : Nat) : ℝ) ((VExp.sub 0 2).sum p) := rfl
  rw [c.root, c.mz, Nat.cast_zero, ← hw, pole_congr (ms.1).symm] at c1
  have d0 := o2.z (by decide) rfl
  have d1 := o1.z (by decide) rfl
  have m0 : c.mass .ne = 0 := hc.neutrino _
  have n0 : nenenene2.proc.massNum (nenenene2.rho c) 0 = c.mass .ne := Nat.cast_zero.trans m0.symm
  have m1 : c.mass .ne = 0 := hc.neutrino _
  have n1 : nenenene2.proc.massNum (nenenene2.rho c) 1 = c.mass .ne := Nat.cast_zero.trans m1.symm
  have m2 : c.mass .ne = 0 := hc.neutrino _
  have n2 : nenenene2.proc.massNum (nenenene2.rho c) 2 = c.mass .ne := Nat.cast_zero.trans m2.symm
  have m3 : c.mass .ne = 0 := hc.neutrino _
  have n3 : nenenene2.proc.massNum (nenenene2.rho c) 3 = c.mass .ne := Nat.cast_zero.trans m3.symm
  have g0 : nenenene2.scat.sgn 0 = 1 := if_neg Bool.false_ne_true
  have g1 : nenenene2.scat.sgn 1 = 1 := if_neg Bool.false_ne_true
  have g2 : nenenene2.scat.sgn 2 = 1 := if_neg Bool.false_ne_true
  have g3 : nenenene2.scat.sgn 3 = 1 := if_neg Bool.false_ne_true
  have nMW := hc.MW
  have nSW := hc.SW
  have xMW : (c.MW : ℂ) ≠ 0 := by exact_mod_cast hc.MW
  have xSW : (c.SW : ℂ) ≠ 0 := by exact_mod_cast hc.SW
  have xCW : (c.CW : ℂ) ≠ 0 := by exact_mod_cast hc.CW
  have hd : nenenene2.proc.divides = [(Ty.c, 0), (Ty.c, 1)] := by decide +kernel
  have k_amp : ∀ s : Fin 4 → Fin 2, s 0 = 0 → s 1 = 0 → s 2 = 1 → s 3 = 1 → nenenene2.amp (nenenene2.N c p) = nenenene2.scat.ewC c p (nenenene2.scat.angs c p s) (nenenene2.scat.sqrs c p s) 2 0 3 1 - nenenene2.scat.ewC c p (nenenene2.scat.angs c p s) (nenenene2.scat.sqrs c p s) 2 1 3 0 := by
    intro s f0 f1 f2 f3
    have v0 : (nenenene2.N c p).v 0 [] = ab (nenenene2.scat.angs c p s 0) (nenenene2.scat.angs c p s 1) := bra_angle (p := p) (m := nenenene2.proc.massNum (nenenene2.rho c)) n0 n1 (.inr ⟨m0, f0⟩) (.inr ⟨m1, f1⟩)
    have v1 : (nenenene2.N c p).v 1 [] = sb (nenenene2.scat.sqrs c p s 2) (nenenene2.scat.sqrs c p s 3) := bra_square (p := p) (m := nenenene2.proc.massNum (nenenene2.rho c)) n2 n3 (.inr ⟨m2, f2⟩) (.inr ⟨m3, f3⟩)
    rw [ewC_neutral (S := nenenene2.scat) (i := 2) (j := 0) (k := 3) (l := 1) (f := .ne) (g := .ne) (by decide) (by decide) rfl rfl rfl g2 g0 g3 g1 rfl rfl rfl, ewC_neutral (S := nenenene2.scat) (i := 2) (j := 1) (k := 3) (l := 0) (f := .ne) (g := .ne) (by decide) (by decide) rfl rfl rfl g2 g1 g3 g0 rfl rfl rfl, nenenene2.amp]
    simp only [r6, c0, c1, v0, v1, jj, ln, lw, Constants.gL, Constants.gR, Flavour.charge_ne, Flavour.isospin_ne, m0, m1, m2, m3]
    abstract_brackets nenenene2.scat c p s
    push_cast
    ring
  refine ⟨fun n hn => ?_, fun n hn => ?_, ?_⟩
  · simp [hd] at hn
  · simp [hd] at hn
    rcases hn with rfl | rfl
    · rw [c0]; exact d0
    · rw [c1]; exact d1
  show meaning (nenenene2.N c p) .r Cls.nenenene2.methods Cls.nenenene2.amp2 [] = _
  have ss : nenenene2.scat.states = 1 := by decide
  have sy : nenenene2.scat.symmetry = 2 := by decide
  rw [nenenene2.value, nenenene2.scat.squared_leptons he ht hs h0 hf hu (by decide), ss, sy]
  have z0 : ∀ x y z : Fin 2, nenenene2.scat.ewC c p (nenenene2.scat.angs c p ![1, x, y, z]) (nenenene2.scat.sqrs c p ![1, x, y, z]) 2 0 3 1 = 0 := fun x y z => ewC_neutrino 0 rfl m0 (.inr ⟨by decide, legA_zero m0 rfl⟩)
  have z0' : ∀ x y z : Fin 2, nenenene2.scat.ewC c p (nenenene2.scat.angs c p ![1, x, y, z]) (nenenene2.scat.sqrs c p ![1, x, y, z]) 2 1 3 0 = 0 := fun x y z => ewC_neutrino 0 rfl m0 (.inr ⟨by decide, legA_zero m0 rfl⟩)
  have z1 : ∀ w y z : Fin 2, nenenene2.scat.ewC c p (nenenene2.scat.angs c p ![w, 1, y, z]) (nenenene2.scat.sqrs c p ![w, 1, y, z]) 2 0 3 1 = 0 := fun w y z => ewC_neutrino 1 rfl m1 (.inr ⟨by decide, legA_zero m1 rfl⟩)
  have z1' : ∀ w y z : Fin 2, nenenene2.scat.ewC c p (nenenene2.scat.angs c p ![w, 1, y, z]) (nenenene2.scat.sqrs c p ![w, 1, y, z]) 2 1 3 0 = 0 := fun w y z => ewC_neutrino 1 rfl m1 (.inr ⟨by decide, legA_zero m1 rfl⟩)
  have z2 : ∀ w x z : Fin 2, nenenene2.scat.ewC c p (nenenene2.scat.angs c p ![w, x, 0, z]) (nenenene2.scat.sqrs c p ![w, x, 0, z]) 2 0 3 1 = 0 := fun w x z => ewC_neutrino 2 rfl m2 (.inl ⟨by decide, legS_zero m2 rfl⟩)
  have z2' : ∀ w x z : Fin 2, nenenene2.scat.ewC c p (nenenene2.scat.angs c p ![w, x, 0, z]) (nenenene2.scat.sqrs c p ![w, x, 0, z]) 2 1 3 0 = 0 := fun w x z => ewC_neutrino 2 rfl m2 (.inl ⟨by decide, legS_zero m2 rfl⟩)
  have z3 : ∀ w x y : Fin 2, nenenene2.scat.ewC c p (nenenene2.scat.angs c p ![w, x, y, 0]) (nenenene2.scat.sqrs c p ![w, x, y, 0]) 2 0 3 1 = 0 := fun w x y => ewC_neutrino 3 rfl m3 (.inl ⟨by decide, legS_zero m3 rfl⟩)
  have z3' : ∀ w x y : Fin 2, nenenene2.scat.ewC c p (nenenene2.scat.angs c p ![w, x, y, 0]) (nenenene2.scat.sqrs c p ![w, x, y, 0]) 2 1 3 0 = 0 := fun w x y => ewC_neutrino 3 rfl m3 (.inl ⟨by decide, legS_zero m3 rfl⟩)
  have k := k_amp ![0, 0, 1, 1] rfl rfl rfl rfl
  rw [sum_quad]
  try simp only [Matrix.cons_val] at k
  simp only [Fin.sum_univ_two, k, z0, z0', z1, z1', z2, z2', z3, z3']
  finish_spins

/-! ### nenenmnm -/

/-- what the methods of the class see -/
noncomputable abbrev nenenmnm.N [FPEnv] (c : Constants) (p : Nat → V4 ℝ) : Env := nenenmnm.proc.env (nenenmnm.rho c) p
/-- `amp` (SM/nenenmnm.cpp) -/
noncomputable def nenenmnm.amp (N : Env) : ℂ :=
  ((((((((2 : Nat) : ℝ) * N.r 6) : ℝ) : ℂ) * N.v 1 []) * N.v 0 []) / N.c 0)
set_option maxRecDepth 8000 in
theorem nenenmnm.amp2_eq (N : Env) (f : Nat → List Int → ℂ) : Cls.nenenmnm.m_amp2.mean N f .r [] =
    (‖(f 0 [])‖ ^ 2) := by rfl
set_option maxRecDepth 8000 in
theorem nenenmnm.value (N : Env) : meaning N .r Cls.nenenmnm.methods Cls.nenenmnm.amp2 [] =
    (‖(nenenmnm.amp N)‖ ^ 2) :=
  nenenmnm.amp2_eq N (callMean N [Cls.nenenmnm.m_amp])

variable [FPEnv] in
theorem nenenmnm.agrees : nenenmnm.Agrees := by
  refine agrees_of (D := [1, 2]) (E := [2]) (by simp [all, nenenmnm]) (by decide +kernel) (by decide) (by decide +kernel) (fun c hc => ⟨List.forall_mem_cons.2 ⟨hc.MW, List.forall_mem_cons.2 ⟨hc.SW, List.forall_mem_nil _⟩⟩, List.forall_mem_cons.2 ⟨hc.SW_lt, List.forall_mem_nil _⟩⟩) (fun c hc i => by fin_cases i <;> first | rfl | exact Nat.cast_zero.trans (hc.neutrino _).symm) (by decide +kernel) ?_
  intro c p u hc hw h0 hs hb hr hu
  replace hw := hw (by simp [nenenmnm])
  have he : nenenmnm.scat.ends = [1, 2] := by decide
  have ht : nenenmnm.scat.starts = [0, 3] := by decide
  obtain ⟨o1, o2⟩ := regular_two he ht hr
  have hf := nenenmnm.scat.flows_annihilation (by decide) hb
  have ms := nenenmnm.scat.msq_annihilation (by decide) hb
  have r6 : (nenenmnm.N c p).r 6 = ((c.e * c.e) / ((((((4 : Nat) : ℝ) * √((((1 : Nat) : ℝ) - (c.SW * c.SW)))) * √((((1 : Nat) : ℝ) - (c.SW * c.SW)))) * c.SW) * c.SW)) := rfl
  simp only [c.root] at r6
  have c0 : (nenenmnm.N c p).c 0 = poleDist (c.MW / √((((1 : Nat) : ℝ) - (c.SW * c.SW)))) ((0 : Nat) : ℝ) ((VExp.add 0 1).sum p) := rfl
  rw [c.root, c.mz, Nat.cast_zero, ← hw, pole_congr (ms.1).symm] at c0
  have d0 := o1.z (by decide) rfl
  have m0 : c.mass .ne = 0 := hc.neutrino _
  have n0 : nenenmnm.proc.massNum (nenenmnm.rho c) 0 = c.mass .ne := Nat.cast_zero.trans m0.symm
  have m1 : c.mass .ne = 0 := hc.neutrino _
  have n1 : nenenmnm.proc.massNum (nenenmnm.rho c) 1 = c.mass .ne := Nat.cast_zero.trans m1.symm
  have m2 : c.mass .nmu = 0 := hc.neutrino _
  have n2 : nenenmnm.proc.massNum (nenenmnm.rho c) 2 = c.mass .nmu := Nat.cast_zero.trans m2.symm
  have m3 : c.mass .nmu = 0 := hc.neutrino _
  have n3 : nenenmnm.proc.massNum (nenenmnm.rho c) 3 = c.mass .nmu := Nat.cast_zero.trans m3.symm
  have g0 : nenenmnm.scat.sgn 0 = 1 := if_neg Bool.false_ne_true
  have g1 : nenenmnm.scat.sgn 1 = -1 := if_pos rfl
  have g2 : nenenmnm.scat.sgn 2 = 1 := if_neg Bool.false_ne_true
  have g3 : nenenmnm.scat.sgn 3 = -1 := if_pos rfl
  have nMW := hc.MW
  have nSW := hc.SW
  have xMW : (c.MW : ℂ) ≠ 0 := by exact_mod_cast hc.MW
  have xSW : (c.SW : ℂ) ≠ 0 := by exact_mod_cast hc.SW
  have xCW : (c.CW : ℂ) ≠ 0 := by exact_mod_cast hc.CW
  have hd : nenenmnm.proc.divides = [(Ty.c, 0)] := by decide +kernel
  have k_amp : ∀ s : Fin 4 → Fin 2, s 0 = 0 → s 1 = 1 → s 2 = 1 → s 3 = 0 → nenenmnm.amp (nenenmnm.N c p) = nenenmnm.scat.ewC c p (nenenmnm.scat.angs c p s) (nenenmnm.scat.sqrs c p s) 1 0 2 3 - nenenmnm.scat.ewC c p (nenenmnm.scat.angs c p s) (nenenmnm.scat.sqrs c p s) 1 3 2 0 := by
    intro s f0 f1 f2 f3
    have v0 : (nenenmnm.N c p).v 0 [] = ab (nenenmnm.scat.angs c p s 0) (nenenmnm.scat.angs c p s 3) := bra_angle (p := p) (m := nenenmnm.proc.massNum (nenenmnm.rho c)) n0 n3 (.inr ⟨m0, f0⟩) (.inr ⟨m3, f3⟩)
    have v1 : (nenenmnm.N c p).v 1 [] = sb (nenenmnm.scat.sqrs c p s 1) (nenenmnm.scat.sqrs c p s 2) := bra_square (p := p) (m := nenenmnm.proc.massNum (nenenmnm.rho c)) n1 n2 (.inr ⟨m1, f1⟩) (.inr ⟨m2, f2⟩)
    rw [ewC_neutral (S := nenenmnm.scat) (i := 1) (j := 0) (k := 2) (l := 3) (f := .ne) (g := .nmu) (by decide) (by decide) rfl rfl rfl g1 g0 g2 g3 rfl rfl rfl, ewC_none (S := nenenmnm.scat) (i := 1) (j := 3) (k := 2) (l := 0) (by decide) (by decide), nenenmnm.amp]
    simp only [r6, c0, v0, v1, jj, ln, lw, Constants.gL, Constants.gR, Flavour.charge_ne, Flavour.isospin_ne, Flavour.charge_nmu, Flavour.isospin_nmu, m0, m1, m2, m3]
    abstract_brackets nenenmnm.scat c p s
    push_cast
    ring
  refine ⟨fun n hn => ?_, fun n hn => ?_, ?_⟩
  · simp [hd] at hn
  · simp [hd] at hn
    rcases hn with rfl
    · rw [c0]; exact d0
  show meaning (nenenmnm.N c p) .r Cls.nenenmnm.methods Cls.nenenmnm.amp2 [] = _
  have ss : nenenmnm.scat.states = 1 := by decide
  have sy : nenenmnm.scat.symmetry = 1 := by decide
  rw [nenenmnm.value, nenenmnm.scat.squared_leptons he ht hs h0 hf hu (by decide), ss, sy]
  have z0 : ∀ x y z : Fin 2, nenenmnm.scat.ewC c p (nenenmnm.scat.angs c p ![1, x, y, z]) (nenenmnm.scat.sqrs c p ![1, x, y, z]) 1 0 2 3 = 0 := fun x y z => ewC_neutrino 0 rfl m0 (.inr ⟨by decide, legA_zero m0 rfl⟩)
  have z1 : ∀ w y z : Fin 2, nenenmnm.scat.ewC c p (nenenmnm.scat.angs c p ![w, 0, y, z]) (nenenmnm.scat.sqrs c p ![w, 0, y, z]) 1 0 2 3 = 0 := fun w y z => ewC_neutrino 1 rfl m1 (.inl ⟨by decide, legS_zero m1 rfl⟩)
  have z2 : ∀ w x z : Fin 2, nenenmnm.scat.ewC c p (nenenmnm.scat.angs c p ![w, x, 0, z]) (nenenmnm.scat.sqrs c p ![w, x, 0, z]) 1 0 2 3 = 0 := fun w x z => ewC_neutrino 2 rfl m2 (.inl ⟨by decide, legS_zero m2 rfl⟩)
  have z3 : ∀ w x y : Fin 2, nenenmnm.scat.ewC c p (nenenmnm.scat.angs c p ![w, x, y, 1]) (nenenmnm.scat.sqrs c p ![w, x, y, 1]) 1 0 2 3 = 0 := fun w x y => ewC_neutrino 3 rfl m3 (.inr ⟨by decide, legA_zero m3 rfl⟩)
  have k := k_amp ![0, 1, 1, 0] rfl rfl rfl rfl
  rw [sum_quad]
  try simp only [Matrix.cons_val] at k
  simp only [Fin.sum_univ_two, k, z0, z1, z2, z3, ewC_none (S := nenenmnm.scat) (i := 1) (j := 3) (k := 2) (l := 0) (by decide) (by decide)]
  finish_spins

/-! ### nenmnenm -/

/-- what the methods of the class see -/
noncomputable abbrev nenmnenm.N [FPEnv] (c : Constants) (p : Nat → V4 ℝ) : Env := nenmnenm.proc.env (nenmnenm.rho c) p
/-- `amp` (SM/nenmnenm.cpp) -/
noncomputable def nenmnenm.amp (N : Env) : ℂ :=
  ((((((((2 : Nat) : ℝ) * N.r 6) : ℝ) : ℂ) * N.v 1 []) * N.v 0 []) / N.c 0)
set_option maxRecDepth 8000 in
theorem nenmnenm.amp2_eq (N : Env) (f : Nat → List Int → ℂ) : Cls.nenmnenm.m_amp2.mean N f .r [] =
    (‖(f 0 [])‖ ^ 2) := by rfl
set_option maxRecDepth 8000 in
theorem nenmnenm.value (N : Env) : meaning N .r Cls.nenmnenm.methods Cls.nenmnenm.amp2 [] =
    (‖(nenmnenm.amp N)‖ ^ 2) :=
  nenmnenm.amp2_eq N (callMean N [Cls.nenmnenm.m_amp])

variable [FPEnv] in
theorem nenmnenm.agrees : nenmnenm.Agrees := by
  refine agrees_of (D := [1, 2]) (E := [2]) (by simp [all, nenmnenm]) (by decide +kernel) (by decide) (by decide +kernel) (fun c hc => ⟨List.forall_mem_cons.2 ⟨hc.MW, List.forall_mem_cons.2 ⟨hc.SW, List.forall_mem_nil _⟩⟩, List.forall_mem_cons.2 ⟨hc.SW_lt, List.forall_mem_nil _⟩⟩) (fun c hc i => by fin_cases i <;> first | rfl | exact Nat.cast_zero.trans (hc.neutrino _).symm) (by decide +kernel) ?_
  intro c p u hc hw h0 hs hb hr hu
  replace hw := hw (by simp [nenmnenm])
  have he : nenmnenm.scat.ends = [2, 3] := by decide
  have ht : nenmnenm.scat.starts = [0, 1] := by decide
  obtain ⟨o1, o2⟩ := regular_two he ht hr
  have hf := nenmnenm.scat.flows_scattering (by decide) hb
  have ms := nenmnenm.scat.msq_scattering (by decide) hb
  have r6 : (nenmnenm.N c p).r 6 = ((c.e * c.e) / ((((((4 : Nat) : ℝ) * √((((1 : Nat) : ℝ) - (c.SW * c.SW)))) * √((((1 : Nat) : ℝ) - (c.SW * c.SW)))) * c.SW) * c.SW)) := rfl
  simp only [c.root] at r6
  have c0 : (nenmnenm.N c p).c 0 = poleDist (c.MW / √((((1 : Nat) : ℝ) - (c.SW * c.SW)))) ((0 : Nat) : ℝ) ((VExp.sub 0 2).sum p) := rfl
  rw [c.root, c.mz, Nat.cast_zero, ← hw, pole_congr (ms.1).symm] at c0
  have d0 := o1.z (by decide) rfl
  have m0 : c.mass .ne = 0 := hc.neutrino _
  have n0 : nenmnenm.proc.massNum (nenmnenm.rho c) 0 = c.mass .ne := Nat.cast_zero.trans m0.symm
  have m1 : c.mass .nmu = 0 := hc.neutrino _
  have n1 : nenmnenm.proc.massNum (nenmnenm.rho c) 1 = c.mass .nmu := Nat.cast_zero.trans m1.symm
  have m2 : c.mass .ne = 0 := hc.neutrino _
  have n2 : nenmnenm.proc.massNum (nenmnenm.rho c) 2 = c.mass .ne := Nat.cast_zero.trans m2.symm
  have m3 : c.mass .nmu = 0 := hc.neutrino _
  have n3 : nenmnenm.proc.massNum (nenmnenm.rho c) 3 = c.mass .nmu := Nat.cast_zero.trans m3.symm
  have g0 : nenmnenm.scat.sgn 0 = 1 := if_neg Bool.false_ne_true
  have g1 : nenmnenm.scat.sgn 1 = 1 := if_neg Bool.false_ne_true
  have g2 : nenmnenm.scat.sgn 2 = 1 := if_neg Bool.false_ne_true
  have g3 : nenmnenm.scat.sgn 3 = 1 := if_neg Bool.false_ne_true
  have nMW := hc.MW
  have nSW := hc.SW
  have xMW : (c.MW : ℂ) ≠ 0 := by exact_mod_cast hc.MW
  have xSW : (c.SW : ℂ) ≠ 0 := by exact_mod_cast hc.SW
  have xCW : (c.CW : ℂ) ≠ 0 := by exact_mod_cast hc.CW
  have hd : nenmnenm.proc.divides = [(Ty.c, 0)] := by decide +kernel
  have k_amp : ∀ s : Fin 4 → Fin 2, s 0 = 0 → s 1 = 0 → s 2 = 1 → s 3 = 1 → nenmnenm.amp (nenmnenm.N c p) = -(nenmnenm.scat.ewC c p (nenmnenm.scat.angs c p s) (nenmnenm.scat.sqrs c p s) 2 0 3 1) + nenmnenm.scat.ewC c p (nenmnenm.scat.angs c p s) (nenmnenm.scat.sqrs c p s) 2 1 3 0 := by
    intro s f0 f1 f2 f3
    have v0 : (nenmnenm.N c p).v 0 [] = ab (nenmnenm.scat.angs c p s 0) (nenmnenm.scat.angs c p s 1) := bra_angle (p := p) (m := nenmnenm.proc.massNum (nenmnenm.rho c)) n0 n1 (.inr ⟨m0, f0⟩) (.inr ⟨m1, f1⟩)
    have v1 : (nenmnenm.N c p).v 1 [] = sb (nenmnenm.scat.sqrs c p s 2) (nenmnenm.scat.sqrs c p s 3) := bra_square (p := p) (m := nenmnenm.proc.massNum (nenmnenm.rho c)) n2 n3 (.inr ⟨m2, f2⟩) (.inr ⟨m3, f3⟩)
    rw [ewC_neutral (S := nenmnenm.scat) (i := 2) (j := 0) (k := 3) (l := 1) (f := .ne) (g := .nmu) (by decide) (by decide) rfl rfl rfl g2 g0 g3 g1 rfl rfl rfl, ewC_none (S := nenmnenm.scat) (i := 2) (j := 1) (k := 3) (l := 0) (by decide) (by decide), nenmnenm.amp]
    simp only [r6, c0, v0, v1, jj, ln, lw, Constants.gL, Constants.gR, Flavour.charge_ne, Flavour.isospin_ne, Flavour.charge_nmu, Flavour.isospin_nmu, m0, m1, m2, m3]
    abstract_brackets nenmnenm.scat c p s
    push_cast
    ring
  refine ⟨fun n hn => ?_, fun n hn => ?_, ?_⟩
  · simp [hd] at hn
  · simp [hd] at hn
    rcases hn with rfl
    · rw [c0]; exact d0
  show meaning (nenmnenm.N c p) .r Cls.nenmnenm.methods Cls.nenmnenm.amp2 [] = _
  have ss : nenmnenm.scat.states = 1 := by decide
  have sy : nenmnenm.scat.symmetry = 1 := by decide
  rw [nenmnenm.value, nenmnenm.scat.squared_leptons he ht hs h0 hf hu (by decide), ss, sy]
  have z0 : ∀ x y z : Fin 2, nenmnenm.scat.ewC c p (nenmnenm.scat.angs c p ![1, x, y, z]) (nenmnenm.scat.sqrs c p ![1, x, y, z]) 2 0 3 1 = 0 := fun x y z => ewC_neutrino 0 rfl m0 (.inr ⟨by decide, legA_zero m0 rfl⟩)
  have z1 : ∀ w y z : Fin 2, nenmnenm.scat.ewC c p (nenmnenm.scat.angs c p ![w, 1, y, z]) (nenmnenm.scat.sqrs c p ![w, 1, y, z]) 2 0 3 1 = 0 := fun w y z => ewC_neutrino 1 rfl m1 (.inr ⟨by decide, legA_zero m1 rfl⟩)
  have z2 : ∀ w x z : Fin 2, nenmnenm.scat.ewC c p (nenmnenm.scat.angs c p ![w, x, 0, z]) (nenmnenm.scat.sqrs c p ![w, x, 0, z]) 2 0 3 1 = 0 := fun w x z => ewC_neutrino 2 rfl m2 (.inl ⟨by decide, legS_zero m2 rfl⟩)
  have z3 : ∀ w x y : Fin 2, nenmnenm.scat.ewC c p (nenmnenm.scat.angs c p ![w, x, y, 0]) (nenmnenm.scat.sqrs c p ![w, x, y, 0]) 2 0 3 1 = 0 := fun w x y => ewC_neutrino 3 rfl m3 (.inl ⟨by decide, legS_zero m3 rfl⟩)
  have k := k_amp ![0, 0, 1, 1] rfl rfl rfl rfl
  rw [sum_quad]
  try simp only [Matrix.cons_val] at k
  simp only [Fin.sum_univ_two, k, z0, z1, z2, z3, ewC_none (S := nenmnenm.scat) (i := 2) (j := 1) (k := 3) (l := 0) (by decide) (by decide)]
  finish_spins

end Spinas.SM.Rows
