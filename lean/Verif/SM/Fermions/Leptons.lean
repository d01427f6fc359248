import Verif.SM.FermionRows
import Verif.SM.Exchanges

/-! Charged leptons. Generated by tools/fermions/emit.py: for each class its amplitudes as formulas, and the proof that `amp2` is the squared amplitude of the Feynman rules. -/

set_option linter.unusedSimpArgs false

namespace Spinas.SM.Rows
open Spec Spec.Scattering Props XR Matrix Row

/-! ### eemm -/

/-- what the methods of the class see -/
noncomputable abbrev eemm.N [FPEnv] (c : Constants) (p : Nat → V4 ℝ) : Env := eemm.proc.env (eemm.rho c) p
/-- `amp` (SM/eemm.cpp) -/
noncomputable def eemm.amp (N : Env) (j1 j2 j3 j4 : Int) : ℂ :=
  (((((((0 : Nat) : ℝ) : ℝ) : ℂ) + ((((((((2 : Nat) : ℝ) * N.r 0) * N.r 0) : ℝ) : ℂ) * ((((N.v 0 [j1, j3] * N.v 7 [j2, j4]) + (N.v 2 [j1, j4] * N.v 5 [j2, j3])) + (N.v 1 [j1, j3] * N.v 6 [j2, j4])) + (N.v 3 [j1, j4] * N.v 4 [j2, j3]))) / N.c 0)) + (((((N.r 10 : ℝ) : ℂ) * (N.v 8 [j1, j2] + N.v 9 [j1, j2])) * (N.v 10 [j3, j4] + N.v 11 [j3, j4])) / N.c 1)) + (((((((-N.r 14) : ℝ) : ℂ) * (N.v 9 [j1, j2] - N.v 8 [j1, j2])) * (N.v 11 [j3, j4] - N.v 10 [j3, j4])) / N.c 2) + (((((((2 : Nat) : ℝ) * N.r 13) : ℝ) : ℂ) * (((((((N.r 11 * N.r 11) : ℝ) : ℂ) * N.v 5 [j2, j3]) * N.v 2 [j1, j4]) + ((((N.r 11 * N.r 12) : ℝ) : ℂ) * ((N.v 1 [j1, j3] * N.v 6 [j2, j4]) + (N.v 7 [j2, j4] * N.v 0 [j1, j3])))) + (((((N.r 12 * N.r 12) : ℝ) : ℂ) * N.v 3 [j1, j4]) * N.v 4 [j2, j3]))) / N.c 2)))
set_option maxRecDepth 8000 in
theorem eemm.amp2_eq (N : Env) (f : Nat → List Int → ℂ) : Cls.eemm.m_amp2.mean N f .r [] =
    ((sumJ (fun x a => (sumJ (fun x b => (sumJ (fun x c => (sumJ (fun x d => (x + (‖(f 0 [a, b, c, d])‖ ^ 2))) x)) x)) x)) ((0 : Nat) : ℝ)) / ((4 : Nat) : ℝ)) := by rfl
set_option maxRecDepth 8000 in
theorem eemm.value (N : Env) : meaning N .r Cls.eemm.methods Cls.eemm.amp2 [] =
    ((sumJ (fun x a => (sumJ (fun x b => (sumJ (fun x c => (sumJ (fun x d => (x + (‖(eemm.amp N a b c d)‖ ^ 2))) x)) x)) x)) ((0 : Nat) : ℝ)) / ((4 : Nat) : ℝ)) :=
  eemm.amp2_eq N (callMean N [Cls.eemm.m_amp])

variable [FPEnv] in
theorem eemm.agrees : eemm.Agrees := by
  refine agrees_of (D := [5, 6]) (E := [6]) (by simp [all, eemm]) (by decide +kernel) (by decide) (by decide +kernel) (fun c hc => ⟨List.forall_mem_cons.2 ⟨hc.MW, List.forall_mem_cons.2 ⟨hc.SW, List.forall_mem_nil _⟩⟩, List.forall_mem_cons.2 ⟨hc.SW_lt, List.forall_mem_nil _⟩⟩) (fun c hc i => by fin_cases i <;> rfl) (by decide +kernel) ?_
  intro c p u hc hw h0 hs hb hr hu
  replace hw := hw (by simp [eemm])
  have he : eemm.scat.ends = [1, 2] := by decide
  have ht : eemm.scat.starts = [0, 3] := by decide
  obtain ⟨o1, o2⟩ := regular_two he ht hr
  have hf := eemm.scat.flows_annihilation (by decide) hb
  have ms := eemm.scat.msq_annihilation (by decide) hb
  have r0 : (eemm.N c p).r 0 = c.e := rfl
  have r10 : (eemm.N c p).r 10 = ((((c.e * c.e) * (c.mass .e)) * (c.mass .mu)) / ((((((4 : Nat) : ℝ) * c.MW) * c.MW) * c.SW) * c.SW)) := rfl
  have r14 : (eemm.N c p).r 14 = ((((((((c.e * c.e) / ((((((4 : Nat) : ℝ) * √((((1 : Nat) : ℝ) - (c.SW * c.SW)))) * √((((1 : Nat) : ℝ) - (c.SW * c.SW)))) * c.SW) * c.SW)) * ((((((2 : Nat) : ℝ) * c.SW) * c.SW) - ((1 : Nat) : ℝ)) - ((((2 : Nat) : ℝ) * c.SW) * c.SW))) * ((((((2 : Nat) : ℝ) * c.SW) * c.SW) - ((1 : Nat) : ℝ)) - ((((2 : Nat) : ℝ) * c.SW) * c.SW))) * (c.mass .e)) * (c.mass .mu)) / (c.MW / √((((1 : Nat) : ℝ) - (c.SW * c.SW))))) / (c.MW / √((((1 : Nat) : ℝ) - (c.SW * c.SW))))) := rfl
  simp only [c.root, c.mz] at r14
  have r13 : (eemm.N c p).r 13 = ((c.e * c.e) / ((((((4 : Nat) : ℝ) * √((((1 : Nat) : ℝ) - (c.SW * c.SW)))) * √((((1 : Nat) : ℝ) - (c.SW * c.SW)))) * c.SW) * c.SW)) := rfl
  simp only [c.root] at r13
  have r11 : (eemm.N c p).r 11 = (((((2 : Nat) : ℝ) * c.SW) * c.SW) - ((1 : Nat) : ℝ)) := rfl
  have r12 : (eemm.N c p).r 12 = ((((2 : Nat) : ℝ) * c.SW) * c.SW) := rfl
  have c0 : (eemm.N c p).c 0 = poleDist ((0 : Nat) : ℝ) ((0 : Nat) : ℝ) ((VExp.add 0 1).sum p) := rfl
  rw [Nat.cast_zero, pole_zero (ms.1).symm] at c0
  have c1 : (eemm.N c p).c 1 = poleDist c.MH c.WH ((VExp.add 0 1).sum p) := rfl
  rw [pole_congr (ms.1).symm] at c1
  have c2 : (eemm.N c p).c 2 = poleDist (c.MW / √((((1 : Nat) : ℝ) - (c.SW * c.SW)))) ((0 : Nat) : ℝ) ((VExp.add 0 1).sum p) := rfl
  rw [c.root, c.mz, Nat.cast_zero, ← hw, pole_congr (ms.1).symm] at c2
  have d0 := o1.photon (by decide) (by show (-1 : ℝ) * (-1) ≠ 0; norm_num)
  have d1 := o1.higgs (by decide) rfl (hc.massive _ (by decide)) (hc.massive _ (by decide))
  have d2 := o1.z (by decide) rfl
  have m0 : c.mass .e ≠ 0 := (hc.massive _ (by decide)).ne'
  have m1 : c.mass .e ≠ 0 := (hc.massive _ (by decide)).ne'
  have m2 : c.mass .mu ≠ 0 := (hc.massive _ (by decide)).ne'
  have m3 : c.mass .mu ≠ 0 := (hc.massive _ (by decide)).ne'
  have g0 : eemm.scat.sgn 0 = 1 := if_neg Bool.false_ne_true
  have g1 : eemm.scat.sgn 1 = -1 := if_pos rfl
  have g2 : eemm.scat.sgn 2 = 1 := if_neg Bool.false_ne_true
  have g3 : eemm.scat.sgn 3 = -1 := if_pos rfl
  have nMW := hc.MW
  have nSW := hc.SW
  have xMW : (c.MW : ℂ) ≠ 0 := by exact_mod_cast hc.MW
  have xSW : (c.SW : ℂ) ≠ 0 := by exact_mod_cast hc.SW
  have xCW : (c.CW : ℂ) ≠ 0 := by exact_mod_cast hc.CW
  have hd : eemm.proc.divides = [(Ty.c, 0), (Ty.c, 1), (Ty.c, 2)] := by decide +kernel
  have k_amp : ∀ s : Fin 4 → Fin 2, eemm.amp (eemm.N c p) (spinOf (s 0)) (spinOf (s 1)) (spinOf (s 2)) (spinOf (s 3)) = eemm.scat.ewC c p (eemm.scat.angs c p s) (eemm.scat.sqrs c p s) 1 0 2 3 - eemm.scat.ewC c p (eemm.scat.angs c p s) (eemm.scat.sqrs c p s) 1 3 2 0 := by
    intro s
    have v0 : (eemm.N c p).v 0 [spinOf (s 0), spinOf (s 2)] = ab (eemm.scat.angs c p s 0) (eemm.scat.angs c p s 2) := bra_angle (p := p) (m := eemm.proc.massNum (eemm.rho c)) rfl rfl (.inl ⟨m0, rfl⟩) (.inl ⟨m2, rfl⟩)
    have v1 : (eemm.N c p).v 1 [spinOf (s 0), spinOf (s 2)] = sb (eemm.scat.sqrs c p s 0) (eemm.scat.sqrs c p s 2) := bra_square (p := p) (m := eemm.proc.massNum (eemm.rho c)) rfl rfl (.inl ⟨m0, rfl⟩) (.inl ⟨m2, rfl⟩)
    have v2 : (eemm.N c p).v 2 [spinOf (s 0), spinOf (s 3)] = ab (eemm.scat.angs c p s 0) (eemm.scat.angs c p s 3) := bra_angle (p := p) (m := eemm.proc.massNum (eemm.rho c)) rfl rfl (.inl ⟨m0, rfl⟩) (.inl ⟨m3, rfl⟩)
    have v3 : (eemm.N c p).v 3 [spinOf (s 0), spinOf (s 3)] = sb (eemm.scat.sqrs c p s 0) (eemm.scat.sqrs c p s 3) := bra_square (p := p) (m := eemm.proc.massNum (eemm.rho c)) rfl rfl (.inl ⟨m0, rfl⟩) (.inl ⟨m3, rfl⟩)
    have v4 : (eemm.N c p).v 4 [spinOf (s 1), spinOf (s 2)] = ab (eemm.scat.angs c p s 1) (eemm.scat.angs c p s 2) := bra_angle (p := p) (m := eemm.proc.massNum (eemm.rho c)) rfl rfl (.inl ⟨m1, rfl⟩) (.inl ⟨m2, rfl⟩)
    have v5 : (eemm.N c p).v 5 [spinOf (s 1), spinOf (s 2)] = sb (eemm.scat.sqrs c p s 1) (eemm.scat.sqrs c p s 2) := bra_square (p := p) (m := eemm.proc.massNum (eemm.rho c)) rfl rfl (.inl ⟨m1, rfl⟩) (.inl ⟨m2, rfl⟩)
    have v6 : (eemm.N c p).v 6 [spinOf (s 1), spinOf (s 3)] = ab (eemm.scat.angs c p s 1) (eemm.scat.angs c p s 3) := bra_angle (p := p) (m := eemm.proc.massNum (eemm.rho c)) rfl rfl (.inl ⟨m1, rfl⟩) (.inl ⟨m3, rfl⟩)
    have v7 : (eemm.N c p).v 7 [spinOf (s 1), spinOf (s 3)] = sb (eemm.scat.sqrs c p s 1) (eemm.scat.sqrs c p s 3) := bra_square (p := p) (m := eemm.proc.massNum (eemm.rho c)) rfl rfl (.inl ⟨m1, rfl⟩) (.inl ⟨m3, rfl⟩)
    have v8 : (eemm.N c p).v 8 [spinOf (s 0), spinOf (s 1)] = sb (eemm.scat.sqrs c p s 0) (eemm.scat.sqrs c p s 1) := bra_square (p := p) (m := eemm.proc.massNum (eemm.rho c)) rfl rfl (.inl ⟨m0, rfl⟩) (.inl ⟨m1, rfl⟩)
    have v9 : (eemm.N c p).v 9 [spinOf (s 0), spinOf (s 1)] = ab (eemm.scat.angs c p s 0) (eemm.scat.angs c p s 1) := bra_angle (p := p) (m := eemm.proc.massNum (eemm.rho c)) rfl rfl (.inl ⟨m0, rfl⟩) (.inl ⟨m1, rfl⟩)
    have v10 : (eemm.N c p).v 10 [spinOf (s 2), spinOf (s 3)] = sb (eemm.scat.sqrs c p s 2) (eemm.scat.sqrs c p s 3) := bra_square (p := p) (m := eemm.proc.massNum (eemm.rho c)) rfl rfl (.inl ⟨m2, rfl⟩) (.inl ⟨m3, rfl⟩)
    have v11 : (eemm.N c p).v 11 [spinOf (s 2), spinOf (s 3)] = ab (eemm.scat.angs c p s 2) (eemm.scat.angs c p s 3) := bra_angle (p := p) (m := eemm.proc.massNum (eemm.rho c)) rfl rfl (.inl ⟨m2, rfl⟩) (.inl ⟨m3, rfl⟩)
    rw [ewC_neutral (S := eemm.scat) (i := 1) (j := 0) (k := 2) (l := 3) (f := .e) (g := .mu) (by decide) (by decide) rfl rfl rfl g1 g0 g2 g3 rfl rfl rfl, ewC_none (S := eemm.scat) (i := 1) (j := 3) (k := 2) (l := 0) (by decide) (by decide), eemm.amp]
    simp only [r0, r10, r11, r12, r13, r14, c0, c1, c2, v0, v1, v2, v3, v4, v5, v6, v7, v8, v9, v10, v11, jj, ln, lw, Constants.gL, Constants.gR, Flavour.charge_e, Flavour.isospin_e, Flavour.charge_mu, Flavour.isospin_mu]
    abstract_brackets eemm.scat c p s
    push_cast
    ring
  refine ⟨fun n hn => ?_, fun n hn => ?_, ?_⟩
  · simp [hd] at hn
  · simp [hd] at hn
    rcases hn with rfl | rfl | rfl
    · rw [c0]; exact d0
    · rw [c1]; exact d1
    · rw [c2]; exact d2
  show meaning (eemm.N c p) .r Cls.eemm.methods Cls.eemm.amp2 [] = _
  have ss : eemm.scat.states = 4 := by decide
  have sy : eemm.scat.symmetry = 1 := by decide
  rw [eemm.value, eemm.scat.squared_leptons he ht hs h0 hf hu (by decide), ss, sy, Nat.cast_zero]
  rw [sumJ_four, Finset.sum_div, Finset.sum_div]
  refine Finset.sum_congr rfl fun s _ => ?_
  rw [k_amp]
  try simp only [ewC_none (S := eemm.scat) (i := 1) (j := 3) (k := 2) (l := 0) (by decide) (by decide)]
  finish_spins

/-! ### emem -/

/-- what the methods of the class see -/
noncomputable abbrev emem.N [FPEnv] (c : Constants) (p : Nat → V4 ℝ) : Env := emem.proc.env (emem.rho c) p
/-- `amp` (SM/emem.cpp) -/
noncomputable def emem.amp (N : Env) (j1 j2 j3 j4 : Int) : ℂ :=
  (((((((0 : Nat) : ℝ) : ℝ) : ℂ) + (((((((-((2 : Nat) : ℝ)) * N.r 0) * N.r 0) : ℝ) : ℂ) * ((((N.v 2 [j1, j4] * N.v 5 [j2, j3]) + (N.v 9 [j1, j2] * N.v 10 [j3, j4])) + (N.v 3 [j1, j4] * N.v 4 [j2, j3])) + (N.v 8 [j1, j2] * N.v 11 [j3, j4]))) / N.c 0)) + ((((((-N.r 10) : ℝ) : ℂ) * (N.v 1 [j1, j3] - N.v 0 [j1, j3])) * (N.v 7 [j2, j4] - N.v 6 [j2, j4])) / N.c 1)) + ((((((N.r 14 : ℝ) : ℂ) * (N.v 0 [j1, j3] + N.v 1 [j1, j3])) * (N.v 6 [j2, j4] + N.v 7 [j2, j4])) / N.c 2) - (((((((2 : Nat) : ℝ) * N.r 13) : ℝ) : ℂ) * (((((((N.r 11 * N.r 11) : ℝ) : ℂ) * N.v 10 [j3, j4]) * N.v 9 [j1, j2]) + ((((N.r 11 * N.r 12) : ℝ) : ℂ) * ((N.v 3 [j1, j4] * N.v 4 [j2, j3]) + (N.v 5 [j2, j3] * N.v 2 [j1, j4])))) + (((((N.r 12 * N.r 12) : ℝ) : ℂ) * N.v 8 [j1, j2]) * N.v 11 [j3, j4]))) / N.c 2)))
set_option maxRecDepth 8000 in
theorem emem.amp2_eq (N : Env) (f : Nat → List Int → ℂ) : Cls.emem.m_amp2.mean N f .r [] =
    ((sumJ (fun x a => (sumJ (fun x b => (sumJ (fun x c => (sumJ (fun x d => (x + (‖(f 0 [a, b, c, d])‖ ^ 2))) x)) x)) x)) ((0 : Nat) : ℝ)) / ((4 : Nat) : ℝ)) := by rfl
set_option maxRecDepth 8000 in
theorem emem.value (N : Env) : meaning N .r Cls.emem.methods Cls.emem.amp2 [] =
    ((sumJ (fun x a => (sumJ (fun x b => (sumJ (fun x c => (sumJ (fun x d => (x + (‖(emem.amp N a b c d)‖ ^ 2))) x)) x)) x)) ((0 : Nat) : ℝ)) / ((4 : Nat) : ℝ)) :=
  emem.amp2_eq N (callMean N [Cls.emem.m_amp])

variable [FPEnv] in
theorem emem.agrees : emem.Agrees := by
  refine agrees_of (D := [5, 6]) (E := [6]) (by simp [all, emem]) (by decide +kernel) (by decide) (by decide +kernel) (fun c hc => ⟨List.forall_mem_cons.2 ⟨hc.MW, List.forall_mem_cons.2 ⟨hc.SW, List.forall_mem_nil _⟩⟩, List.forall_mem_cons.2 ⟨hc.SW_lt, List.forall_mem_nil _⟩⟩) (fun c hc i => by fin_cases i <;> rfl) (by decide +kernel) ?_
  intro c p u hc hw h0 hs hb hr hu
  replace hw := hw (by simp [emem])
  have he : emem.scat.ends = [2, 3] := by decide
  have ht : emem.scat.starts = [0, 1] := by decide
  obtain ⟨o1, o2⟩ := regular_two he ht hr
  have hf := emem.scat.flows_scattering (by decide) hb
  have ms := emem.scat.msq_scattering (by decide) hb
  have r0 : (emem.N c p).r 0 = c.e := rfl
  have r10 : (emem.N c p).r 10 = ((((c.e * c.e) * (c.mass .e)) * (c.mass .mu)) / ((((((4 : Nat) : ℝ) * c.MW) * c.MW) * c.SW) * c.SW)) := rfl
  have r14 : (emem.N c p).r 14 = ((((((((c.e * c.e) / ((((((4 : Nat) : ℝ) * √((((1 : Nat) : ℝ) - (c.SW * c.SW)))) * √((((1 : Nat) : ℝ) - (c.SW * c.SW)))) * c.SW) * c.SW)) * ((((((2 : Nat) : ℝ) * c.SW) * c.SW) - ((1 : Nat) : ℝ)) - ((((2 : Nat) : ℝ) * c.SW) * c.SW))) * ((((((2 : Nat) : ℝ) * c.SW) * c.SW) - ((1 : Nat) : ℝ)) - ((((2 : Nat) : ℝ) * c.SW) * c.SW))) * (c.mass .e)) * (c.mass .mu)) / (c.MW / √((((1 : Nat) : ℝ) - (c.SW * c.SW))))) / (c.MW / √((((1 : Nat) : ℝ) - (c.SW * c.SW))))) := rfl
  simp only [c.root, c.mz] at r14
  have r13 : (emem.N c p).r 13 = ((c.e * c.e) / ((((((4 : Nat) : ℝ) * √((((1 : Nat) : ℝ) - (c.SW * c.SW)))) * √((((1 : Nat) : ℝ) - (c.SW * c.SW)))) * c.SW) * c.SW)) := rfl
  simp only [c.root] at r13
  have r11 : (emem.N c p).r 11 = (((((2 : Nat) : ℝ) * c.SW) * c.SW) - ((1 : Nat) : ℝ)) := rfl
  have r12 : (emem.N c p).r 12 = ((((2 : Nat) : ℝ) * c.SW) * c.SW) := rfl
  have c0 : (emem.N c p).c 0 = poleDist ((0 : Nat) : ℝ) ((0 : Nat) : ℝ) ((VExp.sub 0 2).sum p) := rfl
  rw [Nat.cast_zero, pole_zero (ms.1).symm] at c0
  have c1 : (emem.N c p).c 1 = poleDist c.MH c.WH ((VExp.sub 0 2).sum p) := rfl
  rw [pole_congr (ms.1).symm] at c1
  have c2 : (emem.N c p).c 2 = poleDist (c.MW / √((((1 : Nat) : ℝ) - (c.SW * c.SW)))) ((0 : Nat) : ℝ) ((VExp.sub 0 2).sum p) := rfl
  rw [c.root, c.mz, Nat.cast_zero, ← hw, pole_congr (ms.1).symm] at c2
  have d0 := o1.photon (by decide) (by show (-1 : ℝ) * (-1) ≠ 0; norm_num)
  have d1 := o1.higgs (by decide) rfl (hc.massive _ (by decide)) (hc.massive _ (by decide))
  have d2 := o1.z (by decide) rfl
  have m0 : c.mass .e ≠ 0 := (hc.massive _ (by decide)).ne'
  have m1 : c.mass .mu ≠ 0 := (hc.massive _ (by decide)).ne'
  have m2 : c.mass .e ≠ 0 := (hc.massive _ (by decide)).ne'
  have m3 : c.mass .mu ≠ 0 := (hc.massive _ (by decide)).ne'
  have g0 : emem.scat.sgn 0 = 1 := if_neg Bool.false_ne_true
  have g1 : emem.scat.sgn 1 = 1 := if_neg Bool.false_ne_true
  have g2 : emem.scat.sgn 2 = 1 := if_neg Bool.false_ne_true
  have g3 : emem.scat.sgn 3 = 1 := if_neg Bool.false_ne_true
  have nMW := hc.MW
  have nSW := hc.SW
  have xMW : (c.MW : ℂ) ≠ 0 := by exact_mod_cast hc.MW
  have xSW : (c.SW : ℂ) ≠ 0 := by exact_mod_cast hc.SW
  have xCW : (c.CW : ℂ) ≠ 0 := by exact_mod_cast hc.CW
  have hd : emem.proc.divides = [(Ty.c, 0), (Ty.c, 1), (Ty.c, 2)] := by decide +kernel
  have k_amp : ∀ s : Fin 4 → Fin 2, emem.amp (emem.N c p) (spinOf (s 0)) (spinOf (s 1)) (spinOf (s 2)) (spinOf (s 3)) = emem.scat.ewC c p (emem.scat.angs c p s) (emem.scat.sqrs c p s) 2 0 3 1 - emem.scat.ewC c p (emem.scat.angs c p s) (emem.scat.sqrs c p s) 2 1 3 0 := by
    intro s
    have v0 : (emem.N c p).v 0 [spinOf (s 0), spinOf (s 2)] = ab (emem.scat.angs c p s 0) (emem.scat.angs c p s 2) := bra_angle (p := p) (m := emem.proc.massNum (emem.rho c)) rfl rfl (.inl ⟨m0, rfl⟩) (.inl ⟨m2, rfl⟩)
    have v1 : (emem.N c p).v 1 [spinOf (s 0), spinOf (s 2)] = sb (emem.scat.sqrs c p s 0) (emem.scat.sqrs c p s 2) := bra_square (p := p) (m := emem.proc.massNum (emem.rho c)) rfl rfl (.inl ⟨m0, rfl⟩) (.inl ⟨m2, rfl⟩)
    have v2 : (emem.N c p).v 2 [spinOf (s 0), spinOf (s 3)] = ab (emem.scat.angs c p s 0) (emem.scat.angs c p s 3) := bra_angle (p := p) (m := emem.proc.massNum (emem.rho c)) rfl rfl (.inl ⟨m0, rfl⟩) (.inl ⟨m3, rfl⟩)
    have v3 : (emem.N c p).v 3 [spinOf (s 0), spinOf (s 3)] = sb (emem.scat.sqrs c p s 0) (emem.scat.sqrs c p s 3) := bra_square (p := p) (m := emem.proc.massNum (emem.rho c)) rfl rfl (.inl ⟨m0, rfl⟩) (.inl ⟨m3, rfl⟩)
    have v4 : (emem.N c p).v 4 [spinOf (s 1), spinOf (s 2)] = ab (emem.scat.angs c p s 1) (emem.scat.angs c p s 2) := bra_angle (p := p) (m := emem.proc.massNum (emem.rho c)) rfl rfl (.inl ⟨m1, rfl⟩) (.inl ⟨m2, rfl⟩)
    have v5 : (emem.N c p).v 5 [spinOf (s 1), spinOf (s 2)] = sb (emem.scat.sqrs c p s 1) (emem.scat.sqrs c p s 2) := bra_square (p := p) (m := emem.proc.massNum (emem.rho c)) rfl rfl (.inl ⟨m1, rfl⟩) (.inl ⟨m2, rfl⟩)
    have v6 : (emem.N c p).v 6 [spinOf (s 1), spinOf (s 3)] = ab (emem.scat.angs c p s 1) (emem.scat.angs c p s 3) := bra_angle (p := p) (m := emem.proc.massNum (emem.rho c)) rfl rfl (.inl ⟨m1, rfl⟩) (.inl ⟨m3, rfl⟩)
    have v7 : (emem.N c p).v 7 [spinOf (s 1), spinOf (s 3)] = sb (emem.scat.sqrs c p s 1) (emem.scat.sqrs c p s 3) := bra_square (p := p) (m := emem.proc.massNum (emem.rho c)) rfl rfl (.inl ⟨m1, rfl⟩) (.inl ⟨m3, rfl⟩)
    have v8 : (emem.N c p).v 8 [spinOf (s 0), spinOf (s 1)] = sb (emem.scat.sqrs c p s 0) (emem.scat.sqrs c p s 1) := bra_square (p := p) (m := emem.proc.massNum (emem.rho c)) rfl rfl (.inl ⟨m0, rfl⟩) (.inl ⟨m1, rfl⟩)
    have v9 : (emem.N c p).v 9 [spinOf (s 0), spinOf (s 1)] = ab (emem.scat.angs c p s 0) (emem.scat.angs c p s 1) := bra_angle (p := p) (m := emem.proc.massNum (emem.rho c)) rfl rfl (.inl ⟨m0, rfl⟩) (.inl ⟨m1, rfl⟩)
    have v10 : (emem.N c p).v 10 [spinOf (s 2), spinOf (s 3)] = sb (emem.scat.sqrs c p s 2) (emem.scat.sqrs c p s 3) := bra_square (p := p) (m := emem.proc.massNum (emem.rho c)) rfl rfl (.inl ⟨m2, rfl⟩) (.inl ⟨m3, rfl⟩)
    have v11 : (emem.N c p).v 11 [spinOf (s 2), spinOf (s 3)] = ab (emem.scat.angs c p s 2) (emem.scat.angs c p s 3) := bra_angle (p := p) (m := emem.proc.massNum (emem.rho c)) rfl rfl (.inl ⟨m2, rfl⟩) (.inl ⟨m3, rfl⟩)
    rw [ewC_neutral (S := emem.scat) (i := 2) (j := 0) (k := 3) (l := 1) (f := .e) (g := .mu) (by decide) (by decide) rfl rfl rfl g2 g0 g3 g1 rfl rfl rfl, ewC_none (S := emem.scat) (i := 2) (j := 1) (k := 3) (l := 0) (by decide) (by decide), emem.amp]
    simp only [r0, r10, r11, r12, r13, r14, c0, c1, c2, v0, v1, v2, v3, v4, v5, v6, v7, v8, v9, v10, v11, jj, ln, lw, Constants.gL, Constants.gR, Flavour.charge_e, Flavour.isospin_e, Flavour.charge_mu, Flavour.isospin_mu]
    abstract_brackets emem.scat c p s
    push_cast
    ring
  refine ⟨fun n hn => ?_, fun n hn => ?_, ?_⟩
  · simp [hd] at hn
  · simp [hd] at hn
    rcases hn with rfl | rfl | rfl
    · rw [c0]; exact d0
    · rw [c1]; exact d1
    · rw [c2]; exact d2
  show meaning (emem.N c p) .r Cls.emem.methods Cls.emem.amp2 [] = _
  have ss : emem.scat.states = 4 := by decide
  have sy : emem.scat.symmetry = 1 := by decide
  rw [emem.value, emem.scat.squared_leptons he ht hs h0 hf hu (by decide), ss, sy, Nat.cast_zero]
  rw [sumJ_four, Finset.sum_div, Finset.sum_div]
  refine Finset.sum_congr rfl fun s _ => ?_
  rw [k_amp]
  try simp only [ewC_none (S := emem.scat) (i := 2) (j := 1) (k := 3) (l := 0) (by decide) (by decide)]
  finish_spins

/-! ### eeee -/

/-- what the methods of the class see -/
noncomputable abbrev eeee.N [FPEnv] (c : Constants) (p : Nat → V4 ℝ) : Env := eeee.proc.env (eeee.rho c) p
/-- `amp` (SM/eeee.cpp) -/
noncomputable def eeee.amp (N : Env) (j1 j2 j3 j4 : Int) : ℂ :=
  ((((((((((0 : Nat) : ℝ) : ℝ) : ℂ) + ((((((((2 : Nat) : ℝ) * N.r 0) * N.r 0) : ℝ) : ℂ) * ((((N.v 0 [j1, j3] * N.v 7 [j2, j4]) + (N.v 2 [j1, j4] * N.v 5 [j2, j3])) + (N.v 1 [j1, j3] * N.v 6 [j2, j4])) + (N.v 3 [j1, j4] * N.v 4 [j2, j3]))) / N.c 0)) + ((((((((2 : Nat) : ℝ) * N.r 0) * N.r 0) : ℝ) : ℂ) * ((((N.v 9 [j1, j2] * N.v 10 [j3, j4]) + (N.v 2 [j1, j4] * N.v 5 [j2, j3])) + (N.v 8 [j1, j2] * N.v 11 [j3, j4])) + (N.v 3 [j1, j4] * N.v 4 [j2, j3]))) / N.c 3)) + (((((N.r 9 : ℝ) : ℂ) * (N.v 8 [j1, j2] + N.v 9 [j1, j2])) * (N.v 10 [j3, j4] + N.v 11 [j3, j4])) / N.c 1)) + ((((((-N.r 9) : ℝ) : ℂ) * (N.v 1 [j1, j3] - N.v 0 [j1, j3])) * (N.v 7 [j2, j4] - N.v 6 [j2, j4])) / N.c 4)) + (((((((-N.r 13) : ℝ) : ℂ) * (N.v 9 [j1, j2] - N.v 8 [j1, j2])) * (N.v 11 [j3, j4] - N.v 10 [j3, j4])) / N.c 2) + (((((((2 : Nat) : ℝ) * N.r 12) : ℝ) : ℂ) * (((((((N.r 10 * N.r 10) : ℝ) : ℂ) * N.v 5 [j2, j3]) * N.v 2 [j1, j4]) + ((((N.r 10 * N.r 11) : ℝ) : ℂ) * ((N.v 1 [j1, j3] * N.v 6 [j2, j4]) + (N.v 7 [j2, j4] * N.v 0 [j1, j3])))) + (((((N.r 11 * N.r 11) : ℝ) : ℂ) * N.v 3 [j1, j4]) * N.v 4 [j2, j3]))) / N.c 2))) + ((((((N.r 13 : ℝ) : ℂ) * (N.v 0 [j1, j3] + N.v 1 [j1, j3])) * (N.v 6 [j2, j4] + N.v 7 [j2, j4])) / N.c 5) + (((((((2 : Nat) : ℝ) * N.r 12) : ℝ) : ℂ) * (((((((N.r 10 * N.r 10) : ℝ) : ℂ) * N.v 5 [j2, j3]) * N.v 2 [j1, j4]) + ((((N.r 10 * N.r 11) : ℝ) : ℂ) * ((N.v 8 [j1, j2] * N.v 11 [j3, j4]) + (N.v 10 [j3, j4] * N.v 9 [j1, j2])))) + (((((N.r 11 * N.r 11) : ℝ) : ℂ) * N.v 3 [j1, j4]) * N.v 4 [j2, j3]))) / N.c 5)))
set_option maxRecDepth 8000 in
theorem eeee.amp2_eq (N : Env) (f : Nat → List Int → ℂ) : Cls.eeee.m_amp2.mean N f .r [] =
    ((sumJ (fun x a => (sumJ (fun x b => (sumJ (fun x c => (sumJ (fun x d => (x + (‖(f 0 [a, b, c, d])‖ ^ 2))) x)) x)) x)) ((0 : Nat) : ℝ)) / ((4 : Nat) : ℝ)) := by rfl
set_option maxRecDepth 8000 in
theorem eeee.value (N : Env) : meaning N .r Cls.eeee.methods Cls.eeee.amp2 [] =
    ((sumJ (fun x a => (sumJ (fun x b => (sumJ (fun x c => (sumJ (fun x d => (x + (‖(eeee.amp N a b c d)‖ ^ 2))) x)) x)) x)) ((0 : Nat) : ℝ)) / ((4 : Nat) : ℝ)) :=
  eeee.amp2_eq N (callMean N [Cls.eeee.m_amp])

variable [FPEnv] in
theorem eeee.agrees : eeee.Agrees := by
  refine agrees_of (D := [4, 5]) (E := [5]) (by simp [all, eeee]) (by decide +kernel) (by decide) (by decide +kernel) (fun c hc => ⟨List.forall_mem_cons.2 ⟨hc.MW, List.forall_mem_cons.2 ⟨hc.SW, List.forall_mem_nil _⟩⟩, List.forall_mem_cons.2 ⟨hc.SW_lt, List.forall_mem_nil _⟩⟩) (fun c hc i => by fin_cases i <;> rfl) (by decide +kernel) ?_
  intro c p u hc hw h0 hs hb hr hu
  replace hw := hw (by simp [eeee])
  have he : eeee.scat.ends = [1, 2] := by decide
  have ht : eeee.scat.starts = [0, 3] := by decide
  obtain ⟨o1, o2⟩ := regular_two he ht hr
  have hf := eeee.scat.flows_annihilation (by decide) hb
  have ms := eeee.scat.msq_annihilation (by decide) hb
  have r0 : (eeee.N c p).r 0 = c.e := rfl
  have r9 : (eeee.N c p).r 9 = ((((c.e * c.e) * (c.mass .e)) * (c.mass .e)) / ((((((4 : Nat) : ℝ) * c.MW) * c.MW) * c.SW) * c.SW)) := rfl
  have r13 : (eeee.N c p).r 13 = ((((((((c.e * c.e) / ((((((4 : Nat) : ℝ) * √((((1 : Nat) : ℝ) - (c.SW * c.SW)))) * √((((1 : Nat) : ℝ) - (c.SW * c.SW)))) * c.SW) * c.SW)) * ((((((2 : Nat) : ℝ) * c.SW) * c.SW) - ((1 : Nat) : ℝ)) - ((((2 : Nat) : ℝ) * c.SW) * c.SW))) * ((((((2 : Nat) : ℝ) * c.SW) * c.SW) - ((1 : Nat) : ℝ)) - ((((2 : Nat) : ℝ) * c.SW) * c.SW))) * (c.mass .e)) * (c.mass .e)) / (c.MW / √((((1 : Nat) : ℝ) - (c.SW * c.SW))))) / (c.MW / √((((1 : Nat) : ℝ) - (c.SW * c.SW))))) := rfl
  simp only [c.root, c.mz] at r13
  have r12 : (eeee.N c p).r 12 = ((c.e * c.e) / ((((((4 : Nat) : ℝ) * √((((1 : Nat) : ℝ) - (c.SW * c.SW)))) * √((((1 : Nat) : ℝ) - (c.SW * c.SW)))) * c.SW) * c.SW)) := rfl
  simp only [c.root] at r12
  have r10 : (eeee.N c p).r 10 = (((((2 : Nat) : ℝ) * c.SW) * c.SW) - ((1 : Nat) : ℝ)) := rfl
  have r11 : (eeee.N c p).r 11 = ((((2 : Nat) : ℝ) * c.SW) * c.SW) := rfl
  have c0 : (eeee.N c p).c 0 = poleDist ((0 : Nat) : ℝ) ((0 : Nat) : ℝ) ((VExp.add 0 1).sum p) := rfl
  rw [Nat.cast_zero, pole_zero (ms.1).symm] at c0
  have c1 : (eeee.N c p).c 1 = poleDist c.MH c.WH ((VExp.add 0 1).sum p) := rfl
  rw [pole_congr (ms.1).symm] at c1
  have c2 : (eeee.N c p).c 2 = poleDist (c.MW / √((((1 : Nat) : ℝ) - (c.SW * c.SW)))) ((0 : Nat) : ℝ) ((VExp.add 0 1).sum p) := rfl
  rw [c.root, c.mz, Nat.cast_zero, ← hw, pole_congr (ms.1).symm] at c2
  have c3 : (eeee.N c p).c 3 = poleDist ((0 : Nat) : ℝ) ((0 : Nat) : ℝ) ((VExp.sub 0 2).sum p) := rfl
  rw [Nat.cast_zero, pole_zero (ms.2).symm] at c3
  have c4 : (eeee.N c p).c 4 = poleDist c.MH c.WH ((VExp.sub 0 2).sum p) := rfl
  rw [pole_congr (ms.2).symm] at c4
  have c5 : (eeee.N c p).c 5 = poleDist (c.MW / √((((1 : Nat) : ℝ) - (c.SW * c.SW)))) ((0 : Nat) : ℝ) ((VExp.sub 0 2).sum p) := rfl
  rw [c.root, c.mz, Nat.cast_zero, ← hw, pole_congr (ms.2).symm] at c5
  have d0 := o1.photon (by decide) (by show (-1 : ℝ) * (-1) ≠ 0; norm_num)
  have d1 := o1.higgs (by decide) rfl (hc.massive _ (by decide)) (hc.massive _ (by decide))
  have d2 := o1.z (by decide) rfl
  have d3 := o2.photon (by decide) (by show (-1 : ℝ) * (-1) ≠ 0; norm_num)
  have d4 := o2.higgs (by decide) rfl (hc.massive _ (by decide)) (hc.massive _ (by decide))
  have d5 := o2.z (by decide) rfl
  have m0 : c.mass .e ≠ 0 := (hc.massive _ (by decide)).ne'
  have m1 : c.mass .e ≠ 0 := (hc.massive _ (by decide)).ne'
  have m2 : c.mass .e ≠ 0 := (hc.massive _ (by decide)).ne'
  have m3 : c.mass .e ≠ 0 := (hc.massive _ (by decide)).ne'
  have g0 : eeee.scat.sgn 0 = 1 := if_neg Bool.false_ne_true
  have g1 : eeee.scat.sgn 1 = -1 := if_pos rfl
  have g2 : eeee.scat.sgn 2 = 1 := if_neg Bool.false_ne_true
  have g3 : eeee.scat.sgn 3 = -1 := if_pos rfl
  have nMW := hc.MW
  have nSW := hc.SW
  have xMW : (c.MW : ℂ) ≠ 0 := by exact_mod_cast hc.MW
  have xSW : (c.SW : ℂ) ≠ 0 := by exact_mod_cast hc.SW
  have xCW : (c.CW : ℂ) ≠ 0 := by exact_mod_cast hc.CW
  have hd : eeee.proc.divides = [(Ty.c, 0), (Ty.c, 3), (Ty.c, 1), (Ty.c, 4), (Ty.c, 2), (Ty.c, 5)] := by decide +kernel
  have k_amp : ∀ s : Fin 4 → Fin 2, eeee.amp (eeee.N c p) (spinOf (s 0)) (spinOf (s 1)) (spinOf (s 2)) (spinOf (s 3)) = eeee.scat.ewC c p (eeee.scat.angs c p s) (eeee.scat.sqrs c p s) 1 0 2 3 - eeee.scat.ewC c p (eeee.scat.angs c p s) (eeee.scat.sqrs c p s) 1 3 2 0 := by
    intro s
    have v0 : (eeee.N c p).v 0 [spinOf (s 0), spinOf (s 2)] = ab (eeee.scat.angs c p s 0) (eeee.scat.angs c p s 2) := bra_angle (p := p) (m := eeee.proc.massNum (eeee.rho c)) rfl rfl (.inl ⟨m0, rfl⟩) (.inl ⟨m2, rfl⟩)
    have v1 : (eeee.N c p).v 1 [spinOf (s 0), spinOf (s 2)] = sb (eeee.scat.sqrs c p s 0) (eeee.scat.sqrs c p s 2) := bra_square (p := p) (m := eeee.proc.massNum (eeee.rho c)) rfl rfl (.inl ⟨m0, rfl⟩) (.inl ⟨m2, rfl⟩)
    have v2 : (eeee.N c p).v 2 [spinOf (s 0), spinOf (s 3)] = ab (eeee.scat.angs c p s 0) (eeee.scat.angs c p s 3) := bra_angle (p := p) (m := eeee.proc.massNum (eeee.rho c)) rfl rfl (.inl ⟨m0, rfl⟩) (.inl ⟨m3, rfl⟩)
    have v3 : (eeee.N c p).v 3 [spinOf (s 0), spinOf (s 3)] = sb (eeee.scat.sqrs c p s 0) (eeee.scat.sqrs c p s 3) := bra_square (p := p) (m := eeee.proc.massNum (eeee.rho c)) rfl rfl (.inl ⟨m0, rfl⟩) (.inl ⟨m3, rfl⟩)
    have v4 : (eeee.N c p).v 4 [spinOf (s 1), spinOf (s 2)] = ab (eeee.scat.angs c p s 1) (eeee.scat.angs c p s 2) := bra_angle (p := p) (m := eeee.proc.massNum (eeee.rho c)) rfl rfl (.inl ⟨m1, rfl⟩) (.inl ⟨m2, rfl⟩)
    have v5 : (eeee.N c p).v 5 [spinOf (s 1), spinOf (s 2)] = sb (eeee.scat.sqrs c p s 1) (eeee.scat.sqrs c p s 2) := bra_square (p := p) (m := eeee.proc.massNum (eeee.rho c)) rfl rfl (.inl ⟨m1, rfl⟩) (.inl ⟨m2, rfl⟩)
    have v6 : (eeee.N c p).v 6 [spinOf (s 1), spinOf (s 3)] = ab (eeee.scat.angs c p s 1) (eeee.scat.angs c p s 3) := bra_angle (p := p) (m := eeee.proc.massNum (eeee.rho c)) rfl rfl (.inl ⟨m1, rfl⟩) (.inl ⟨m3, rfl⟩)
    have v7 : (eeee.N c p).v 7 [spinOf (s 1), spinOf (s 3)] = sb (eeee.scat.sqrs c p s 1) (eeee.scat.sqrs c p s 3) := bra_square (p := p) (m := eeee.proc.massNum (eeee.rho c)) rfl rfl (.inl ⟨m1, rfl⟩) (.inl ⟨m3, rfl⟩)
    have v8 : (eeee.N c p).v 8 [spinOf (s 0), spinOf (s 1)] = sb (eeee.scat.sqrs c p s 0) (eeee.scat.sqrs c p s 1) := bra_square (p := p) (m := eeee.proc.massNum (eeee.rho c)) rfl rfl (.inl ⟨m0, rfl⟩) (.inl ⟨m1, rfl⟩)
    have v9 : (eeee.N c p).v 9 [spinOf (s 0), spinOf (s 1)] = ab (eeee.scat.angs c p s 0) (eeee.scat.angs c p s 1) := bra_angle (p := p) (m := eeee.proc.massNum (eeee.rho c)) rfl rfl (.inl ⟨m0, rfl⟩) (.inl ⟨m1, rfl⟩)
    have v10 : (eeee.N c p).v 10 [spinOf (s 2), spinOf (s 3)] = sb (eeee.scat.sqrs c p s 2) (eeee.scat.sqrs c p s 3) := bra_square (p := p) (m := eeee.proc.massNum (eeee.rho c)) rfl rfl (.inl ⟨m2, rfl⟩) (.inl ⟨m3, rfl⟩)
    have v11 : (eeee.N c p).v 11 [spinOf (s 2), spinOf (s 3)] = ab (eeee.scat.angs c p s 2) (eeee.scat.angs c p s 3) := bra_angle (p := p) (m := eeee.proc.massNum (eeee.rho c)) rfl rfl (.inl ⟨m2, rfl⟩) (.inl ⟨m3, rfl⟩)
    rw [ewC_neutral (S := eeee.scat) (i := 1) (j := 0) (k := 2) (l := 3) (f := .e) (g := .e) (by decide) (by decide) rfl rfl rfl g1 g0 g2 g3 rfl rfl rfl, ewC_neutral (S := eeee.scat) (i := 1) (j := 3) (k := 2) (l := 0) (f := .e) (g := .e) (by decide) (by decide) rfl rfl rfl g1 g3 g2 g0 rfl rfl rfl, eeee.amp]
    simp only [r0, r9, r10, r11, r12, r13, c0, c1, c2, c3, c4, c5, v0, v1, v2, v3, v4, v5, v6, v7, v8, v9, v10, v11, jj, ln, lw, Constants.gL, Constants.gR, Flavour.charge_e, Flavour.isospin_e]
    abstract_brackets eeee.scat c p s
    push_cast
    ring
  refine ⟨fun n hn => ?_, fun n hn => ?_, ?_⟩
  · simp [hd] at hn
  · simp [hd] at hn
    rcases hn with rfl | rfl | rfl | rfl | rfl | rfl
    · rw [c0]; exact d0
    · rw [c3]; exact d3
    · rw [c1]; exact d1
    · rw [c4]; exact d4
    · rw [c2]; exact d2
    · rw [c5]; exact d5
  show meaning (eeee.N c p) .r Cls.eeee.methods Cls.eeee.amp2 [] = _
  have ss : eeee.scat.states = 4 := by decide
  have sy : eeee.scat.symmetry = 1 := by decide
  rw [eeee.value, eeee.scat.squared_leptons he ht hs h0 hf hu (by decide), ss, sy, Nat.cast_zero]
  rw [sumJ_four, Finset.sum_div, Finset.sum_div]
  refine Finset.sum_congr rfl fun s _ => ?_
  rw [k_amp]
  finish_spins

/-! ### eeee2 -/

/-- what the methods of the class see -/
noncomputable abbrev eeee2.N [FPEnv] (c : Constants) (p : Nat → V4 ℝ) : Env := eeee2.proc.env (eeee2.rho c) p
/-- `amp` (SM/eeee2.cpp) -/
noncomputable def eeee2.amp (N : Env) (j1 j2 j3 j4 : Int) : ℂ :=
  ((((((((((0 : Nat) : ℝ) : ℝ) : ℂ) + (((((((-((2 : Nat) : ℝ)) * N.r 0) * N.r 0) : ℝ) : ℂ) * ((((N.v 0 [j1, j3] * N.v 7 [j2, j4]) - (N.v 9 [j1, j2] * N.v 10 [j3, j4])) + (N.v 1 [j1, j3] * N.v 6 [j2, j4])) - (N.v 8 [j1, j2] * N.v 11 [j3, j4]))) / N.c 0)) + ((((((((2 : Nat) : ℝ) * N.r 0) * N.r 0) : ℝ) : ℂ) * ((((N.v 2 [j1, j4] * N.v 5 [j2, j3]) + (N.v 9 [j1, j2] * N.v 10 [j3, j4])) + (N.v 3 [j1, j4] * N.v 4 [j2, j3])) + (N.v 8 [j1, j2] * N.v 11 [j3, j4]))) / N.c 3)) + ((((((-N.r 9) : ℝ) : ℂ) * (N.v 3 [j1, j4] - N.v 2 [j1, j4])) * (N.v 5 [j2, j3] - N.v 4 [j2, j3])) / N.c 1)) + (((((N.r 9 : ℝ) : ℂ) * (N.v 1 [j1, j3] - N.v 0 [j1, j3])) * (N.v 7 [j2, j4] - N.v 6 [j2, j4])) / N.c 4)) + ((((((N.r 13 : ℝ) : ℂ) * (N.v 2 [j1, j4] + N.v 3 [j1, j4])) * (N.v 4 [j2, j3] + N.v 5 [j2, j3])) / N.c 2) + (((((((2 : Nat) : ℝ) * N.r 12) : ℝ) : ℂ) * (((((((N.r 10 * N.r 10) : ℝ) : ℂ) * N.v 10 [j3, j4]) * N.v 9 [j1, j2]) - ((((N.r 10 * N.r 11) : ℝ) : ℂ) * ((N.v 1 [j1, j3] * N.v 6 [j2, j4]) + (N.v 7 [j2, j4] * N.v 0 [j1, j3])))) + (((((N.r 11 * N.r 11) : ℝ) : ℂ) * N.v 8 [j1, j2]) * N.v 11 [j3, j4]))) / N.c 2))) + (((((((-N.r 13) : ℝ) : ℂ) * (N.v 0 [j1, j3] + N.v 1 [j1, j3])) * (N.v 6 [j2, j4] + N.v 7 [j2, j4])) / N.c 5) + (((((((2 : Nat) : ℝ) * N.r 12) : ℝ) : ℂ) * (((((((N.r 10 * N.r 10) : ℝ) : ℂ) * N.v 10 [j3, j4]) * N.v 9 [j1, j2]) + ((((N.r 10 * N.r 11) : ℝ) : ℂ) * ((N.v 3 [j1, j4] * N.v 4 [j2, j3]) + (N.v 5 [j2, j3] * N.v 2 [j1, j4])))) + (((((N.r 11 * N.r 11) : ℝ) : ℂ) * N.v 8 [j1, j2]) * N.v 11 [j3, j4]))) / N.c 5)))
set_option maxRecDepth 8000 in
theorem eeee2.amp2_eq (N : Env) (f : Nat → List Int → ℂ) : Cls.eeee2.m_amp2.mean N f .r [] =
    ((sumJ (fun x a => (sumJ (fun x b => (sumJ (fun x c => (sumJ (fun x d => (x + (‖(f 0 [a, b, c, d])‖ ^ 2))) x)) x)) x)) ((0 : Nat) : ℝ)) / ((8 : Nat) : ℝ)) := by rfl
set_option maxRecDepth 8000 in
theorem eeee2.value (N : Env) : meaning N .r Cls.eeee2.methods Cls.eeee2.amp2 [] =
    ((sumJ (fun x a => (sumJ (fun x b => (sumJ (fun x c => (sumJ (fun x d => (x + (‖(eeee2.amp N a b c d)‖ ^ 2))) x)) x)) x)) ((0 : Nat) : ℝ)) / ((8 : Nat) : ℝ)) :=
  eeee2.amp2_eq N (callMean N [Cls.eeee2.m_amp])

variable [FPEnv] in
theorem eeee2.agrees : eeee2.Agrees := by
  refine agrees_of (D := [4, 5]) (E := [5]) (by simp [all, eeee2]) (by decide +kernel) (by decide) (by decide +kernel) (fun c hc => ⟨List.forall_mem_cons.2 ⟨hc.MW, List.forall_mem_cons.2 ⟨hc.SW, List.forall_mem_nil _⟩⟩, List.forall_mem_cons.2 ⟨hc.SW_lt, List.forall_mem_nil _⟩⟩) (fun c hc i => by fin_cases i <;> rfl) (by decide +kernel) ?_
  intro c p u hc hw h0 hs hb hr hu
  replace hw := hw (by simp [eeee2])
  have he : eeee2.scat.ends = [2, 3] := by decide
  have ht : eeee2.scat.starts = [0, 1] := by decide
  obtain ⟨o1, o2⟩ := regular_two he ht hr
  have hf := eeee2.scat.flows_scattering (by decide) hb
  have ms := eeee2.scat.msq_scattering (by decide) hb
  have r0 : (eeee2.N c p).r 0 = c.e := rfl
  have r9 : (eeee2.N c p).r 9 = ((((c.e * c.e) * (c.mass .e)) * (c.mass .e)) / ((((((4 : Nat) : ℝ) * c.MW) * c.MW) * c.SW) * c.SW)) := rfl
  have r13 : (eeee2.N c p).r 13 = ((((((((c.e * c.e) / ((((((4 : Nat) : ℝ) * √((((1 : Nat) : ℝ) - (c.SW * c.SW)))) * √((((1 : Nat) : ℝ) - (c.SW * c.SW)))) * c.SW) * c.SW)) * ((((((2 : Nat) : ℝ) * c.SW) * c.SW) - ((1 : Nat) : ℝ)) - ((((2 : Nat) : ℝ) * c.SW) * c.SW))) * ((((((2 : Nat) : ℝ) * c.SW) * c.SW) - ((1 : Nat) : ℝ)) - ((((2 : Nat) : ℝ) * c.SW) * c.SW))) * (c.mass .e)) * (c.mass .e)) / (c.MW / √((((1 : Nat) : ℝ) - (c.SW * c.SW))))) / (c.MW / √((((1 : Nat) : ℝ) - (c.SW * c.SW))))) := rfl
  simp only [c.root, c.mz] at r13
  have r12 : (eeee2.N c p).r 12 = ((c.e * c.e) / ((((((4 : Nat) : ℝ) * √((((1 : Nat) : ℝ) - (c.SW * c.SW)))) * √((((1 : Nat) : ℝ) - (c.SW * c.SW)))) * c.SW) * c.SW)) := rfl
  simp only [c.root] at r12
  have r10 : (eeee2.N c p).r 10 = (((((2 : Nat) : ℝ) * c.SW) * c.SW) - ((1 : Nat) : ℝ)) := rfl
  have r11 : (eeee2.N c p).r 11 = ((((2 : Nat) : ℝ) * c.SW) * c.SW) := rfl
  have c0 : (eeee2.N c p).c 0 = poleDist ((0 : Nat) : ℝ) ((0 : Nat) : ℝ) ((VExp.sub 0 3).sum p) := rfl
  rw [Nat.cast_zero, pole_zero (ms.2).symm] at c0
  have c1 : (eeee2.N c p).c 1 = poleDist c.MH c.WH ((VExp.sub 0 3).sum p) := rfl
  rw [pole_congr (ms.2).symm] at c1
  have c2 : (eeee2.N c p).c 2 = poleDist (c.MW / √((((1 : Nat) : ℝ) - (c.SW * c.SW)))) ((0 : Nat) : ℝ) ((VExp.sub 0 3).sum p) := rfl
  rw [c.root, c.mz, Nat.cast_zero, ← hw, pole_congr (ms.2).symm] at c2
  have c3 : (eeee2.N c p).c 3 = poleDist ((0 : Nat) : ℝ) ((0 : Nat) : ℝ) ((VExp.sub 0 2).sum p) := rfl
  rw [Nat.cast_zero, pole_zero (ms.1).symm] at c3
  have c4 : (eeee2.N c p).c 4 = poleDist c.MH c.WH ((VExp.sub 0 2).sum p) := rfl
  rw [pole_congr (ms.1).symm] at c4
  have c5 : (eeee2.N c p).c 5 = poleDist (c.MW / √((((1 : Nat) : ℝ) - (c.SW * c.SW)))) ((0 : Nat) : ℝ) ((VExp.sub 0 2).sum p) := rfl
  rw [c.root, c.mz, Nat.cast_zero, ← hw, pole_congr (ms.1).symm] at c5
  have d0 := o2.photon (by decide) (by show (-1 : ℝ) * (-1) ≠ 0; norm_num)
  have d1 := o2.higgs (by decide) rfl (hc.massive _ (by decide)) (hc.massive _ (by decide))
  have d2 := o2.z (by decide) rfl
  have d3 := o1.photon (by decide) (by show (-1 : ℝ) * (-1) ≠ 0; norm_num)
  have d4 := o1.higgs (by decide) rfl (hc.massive _ (by decide)) (hc.massive _ (by decide))
  have d5 := o1.z (by decide) rfl
  have m0 : c.mass .e ≠ 0 := (hc.massive _ (by decide)).ne'
  have m1 : c.mass .e ≠ 0 := (hc.massive _ (by decide)).ne'
  have m2 : c.mass .e ≠ 0 := (hc.massive _ (by decide)).ne'
  have m3 : c.mass .e ≠ 0 := (hc.massive _ (by decide)).ne'
  have g0 : eeee2.scat.sgn 0 = 1 := if_neg Bool.false_ne_true
  have g1 : eeee2.scat.sgn 1 = 1 := if_neg Bool.false_ne_true
  have g2 : eeee2.scat.sgn 2 = 1 := if_neg Bool.false_ne_true
  have g3 : eeee2.scat.sgn 3 = 1 := if_neg Bool.false_ne_true
  have nMW := hc.MW
  have nSW := hc.SW
  have xMW : (c.MW : ℂ) ≠ 0 := by exact_mod_cast hc.MW
  have xSW : (c.SW : ℂ) ≠ 0 := by exact_mod_cast hc.SW
  have xCW : (c.CW : ℂ) ≠ 0 := by exact_mod_cast hc.CW
  have hd : eeee2.proc.divides = [(Ty.c, 0), (Ty.c, 3), (Ty.c, 1), (Ty.c, 4), (Ty.c, 2), (Ty.c, 5)] := by decide +kernel
  have k_amp : ∀ s : Fin 4 → Fin 2, eeee2.amp (eeee2.N c p) (spinOf (s 0)) (spinOf (s 1)) (spinOf (s 2)) (spinOf (s 3)) = -(eeee2.scat.ewC c p (eeee2.scat.angs c p s) (eeee2.scat.sqrs c p s) 2 0 3 1) + eeee2.scat.ewC c p (eeee2.scat.angs c p s) (eeee2.scat.sqrs c p s) 2 1 3 0 := by
    intro s
    have v0 : (eeee2.N c p).v 0 [spinOf (s 0), spinOf (s 2)] = ab (eeee2.scat.angs c p s 0) (eeee2.scat.angs c p s 2) := bra_angle (p := p) (m := eeee2.proc.massNum (eeee2.rho c)) rfl rfl (.inl ⟨m0, rfl⟩) (.inl ⟨m2, rfl⟩)
    have v1 : (eeee2.N c p).v 1 [spinOf (s 0), spinOf (s 2)] = sb (eeee2.scat.sqrs c p s 0) (eeee2.scat.sqrs c p s 2) := bra_square (p := p) (m := eeee2.proc.massNum (eeee2.rho c)) rfl rfl (.inl ⟨m0, rfl⟩) (.inl ⟨m2, rfl⟩)
    have v2 : (eeee2.N c p).v 2 [spinOf (s 0), spinOf (s 3)] = ab (eeee2.scat.angs c p s 0) (eeee2.scat.angs c p s 3) := bra_angle (p := p) (m := eeee2.proc.massNum (eeee2.rho c)) rfl rfl (.inl ⟨m0, rfl⟩) (.inl ⟨m3, rfl⟩)
    have v3 : (eeee2.N c p).v 3 [spinOf (s 0), spinOf (s 3)] = sb (eeee2.scat.sqrs c p s 0) (eeee2.scat.sqrs c p s 3) := bra_square (p := p) (m := eeee2.proc.massNum (eeee2.rho c)) rfl rfl (.inl ⟨m0, rfl⟩) (.inl ⟨m3, rfl⟩)
    have v4 : (eeee2.N c p).v 4 [spinOf (s 1), spinOf (s 2)] = ab (eeee2.scat.angs c p s 1) (eeee2.scat.angs c p s 2) := bra_angle (p := p) (m := eeee2.proc.massNum (eeee2.rho c)) rfl rfl (.inl ⟨m1, rfl⟩) (.inl ⟨m2, rfl⟩)
    have v5 : (eeee2.N c p).v 5 [spinOf (s 1), spinOf (s 2)] = sb (eeee2.scat.sqrs c p s 1) (eeee2.scat.sqrs c p s 2) := bra_square (p := p) (m := eeee2.proc.massNum (eeee2.rho c)) rfl rfl (.inl ⟨m1, rfl⟩) (.inl ⟨m2, rfl⟩)
    have v6 : (eeee2.N c p).v 6 [spinOf (s 1), spinOf (s 3)] = ab (eeee2.scat.angs c p s 1) (eeee2.scat.angs c p s 3) := bra_angle (p := p) (m := eeee2.proc.massNum (eeee2.rho c)) rfl rfl (.inl ⟨m1, rfl⟩) (.inl ⟨m3, rfl⟩)
    have v7 : (eeee2.N c p).v 7 [spinOf (s 1), spinOf (s 3)] = sb (eeee2.scat.sqrs c p s 1) (eeee2.scat.sqrs c p s 3) := bra_square (p := p) (m := eeee2.proc.massNum (eeee2.rho c)) rfl rfl (.inl ⟨m1, rfl⟩) (.inl ⟨m3, rfl⟩)
    have v8 : (eeee2.N c p).v 8 [spinOf (s 0), spinOf (s 1)] = sb (eeee2.scat.sqrs c p s 0) (eeee2.scat.sqrs c p s 1) := bra_square (p := p) (m := eeee2.proc.massNum (eeee2.rho c)) rfl rfl (.inl ⟨m0, rfl⟩) (.inl ⟨m1, rfl⟩)
    have v9 : (eeee2.N c p).v 9 [spinOf (s 0), spinOf (s 1)] = ab (eeee2.scat.angs c p s 0) (eeee2.scat.angs c p s 1) := bra_angle (p := p) (m := eeee2.proc.massNum (eeee2.rho c)) rfl rfl (.inl ⟨m0, rfl⟩) (.inl ⟨m1, rfl⟩)
    have v10 : (eeee2.N c p).v 10 [spinOf (s 2), spinOf (s 3)] = sb (eeee2.scat.sqrs c p s 2) (eeee2.scat.sqrs c p s 3) := bra_square (p := p) (m := eeee2.proc.massNum (eeee2.rho c)) rfl rfl (.inl ⟨m2, rfl⟩) (.inl ⟨m3, rfl⟩)
    have v11 : (eeee2.N c p).v 11 [spinOf (s 2), spinOf (s 3)] = ab (eeee2.scat.angs c p s 2) (eeee2.scat.angs c p s 3) := bra_angle (p := p) (m := eeee2.proc.massNum (eeee2.rho c)) rfl rfl (.inl ⟨m2, rfl⟩) (.inl ⟨m3, rfl⟩)
    rw [ewC_neutral (S := eeee2.scat) (i := 2) (j := 0) (k := 3) (l := 1) (f := .e) (g := .e) (by decide) (by decide) rfl rfl rfl g2 g0 g3 g1 rfl rfl rfl, ewC_neutral (S := eeee2.scat) (i := 2) (j := 1) (k := 3) (l := 0) (f := .e) (g := .e) (by decide) (by decide) rfl rfl rfl g2 g1 g3 g0 rfl rfl rfl, eeee2.amp]
    simp only [r0, r9, r10, r11, r12, r13, c0, c1, c2, c3, c4, c5, v0, v1, v2, v3, v4, v5, v6, v7, v8, v9, v10, v11, jj, ln, lw, Constants.gL, Constants.gR, Flavour.charge_e, Flavour.isospin_e]
    abstract_brackets eeee2.scat c p s
    push_cast
    ring
  refine ⟨fun n hn => ?_, fun n hn => ?_, ?_⟩
  · simp [hd] at hn
  · simp [hd] at hn
    rcases hn with rfl | rfl | rfl | rfl | rfl | rfl
    · rw [c0]; exact d0
    · rw [c3]; exact d3
    · rw [c1]; exact d1
    · rw [c4]; exact d4
    · rw [c2]; exact d2
    · rw [c5]; exact d5
  show meaning (eeee2.N c p) .r Cls.eeee2.methods Cls.eeee2.amp2 [] = _
  have ss : eeee2.scat.states = 4 := by decide
  have sy : eeee2.scat.symmetry = 2 := by decide
  rw [eeee2.value, eeee2.scat.squared_leptons he ht hs h0 hf hu (by decide), ss, sy, Nat.cast_zero]
  rw [sumJ_four, Finset.sum_div, Finset.sum_div]
  refine Finset.sum_congr rfl fun s _ => ?_
  rw [k_amp]
  finish_spins

/-! ### eemmQED -/

/-- what the methods of the class see -/
noncomputable abbrev eemmQED.N [FPEnv] (c : Constants) (p : Nat → V4 ℝ) : Env := eemmQED.proc.env (eemmQED.rho c) p
/-- `amp` (SM/eemmQED.cpp) -/
noncomputable def eemmQED.amp (N : Env) (j1 j2 j3 j4 : Int) : ℂ :=
  (((((((-((2 : Nat) : ℝ)) * N.r 0) * N.r 0) : ℝ) : ℂ) * ((((N.v 0 [j1, j3] * N.v 7 [j2, j4]) + (N.v 2 [j1, j4] * N.v 5 [j2, j3])) + (N.v 1 [j1, j3] * N.v 6 [j2, j4])) + (N.v 3 [j1, j4] * N.v 4 [j2, j3]))) / N.c 0)
set_option maxRecDepth 8000 in
theorem eemmQED.amp2_eq (N : Env) (f : Nat → List Int → ℂ) : Cls.eemmQED.m_amp2.mean N f .r [] =
    ((sumJ (fun x a => (sumJ (fun x b => (sumJ (fun x c => (sumJ (fun x d => (x + (‖(f 0 [a, b, c, d])‖ ^ 2))) x)) x)) x)) ((0 : Nat) : ℝ)) / ((4 : Nat) : ℝ)) := by rfl
set_option maxRecDepth 8000 in
theorem eemmQED.value (N : Env) : meaning N .r Cls.eemmQED.methods Cls.eemmQED.amp2 [] =
    ((sumJ (fun x a => (sumJ (fun x b => (sumJ (fun x c => (sumJ (fun x d => (x + (‖(eemmQED.amp N a b c d)‖ ^ 2))) x)) x)) x)) ((0 : Nat) : ℝ)) / ((4 : Nat) : ℝ)) :=
  eemmQED.amp2_eq N (callMean N [Cls.eemmQED.m_amp])

variable [FPEnv] in
theorem eemmQED.agrees : eemmQED.Agrees := by
  refine agrees_of (D := []) (E := []) (by simp [all, eemmQED]) (by decide +kernel) (by decide) (by decide +kernel) (fun c hc => ⟨List.forall_mem_nil _, List.forall_mem_nil _⟩) (fun c hc i => by fin_cases i <;> rfl) (by decide +kernel) ?_
  intro c p u hc hw h0 hs hb hr hu
  have he : eemmQED.scat.ends = [1, 2] := by decide
  have ht : eemmQED.scat.starts = [0, 3] := by decide
  obtain ⟨o1, o2⟩ := regular_two he ht hr
  have hf := eemmQED.scat.flows_annihilation (by decide) hb
  have ms := eemmQED.scat.msq_annihilation (by decide) hb
  have r0 : (eemmQED.N c p).r 0 = c.e := rfl
  have c0 : (eemmQED.N c p).c 0 = poleDist ((0 : Nat) : ℝ) ((0 : Nat) : ℝ) ((VExp.add 0 1).sum p) := rfl
  rw [Nat.cast_zero, pole_zero (ms.1).symm] at c0
  have d0 := o1.photon (by decide) (by show (-1 : ℝ) * (-1) ≠ 0; norm_num)
  have m0 : c.mass .e ≠ 0 := (hc.massive _ (by decide)).ne'
  have m1 : c.mass .e ≠ 0 := (hc.massive _ (by decide)).ne'
  have m2 : c.mass .mu ≠ 0 := (hc.massive _ (by decide)).ne'
  have m3 : c.mass .mu ≠ 0 := (hc.massive _ (by decide)).ne'
  have g0 : eemmQED.scat.sgn 0 = 1 := if_neg Bool.false_ne_true
  have g1 : eemmQED.scat.sgn 1 = -1 := if_pos rfl
  have g2 : eemmQED.scat.sgn 2 = 1 := if_neg Bool.false_ne_true
  have g3 : eemmQED.scat.sgn 3 = -1 := if_pos rfl
  have nMW := hc.MW
  have nSW := hc.SW
  have xMW : (c.MW : ℂ) ≠ 0 := by exact_mod_cast hc.MW
  have xSW : (c.SW : ℂ) ≠ 0 := by exact_mod_cast hc.SW
  have xCW : (c.CW : ℂ) ≠ 0 := by exact_mod_cast hc.CW
  have hd : eemmQED.proc.divides = [(Ty.c, 0)] := by decide +kernel
  have k_amp : ∀ s : Fin 4 → Fin 2, eemmQED.amp (eemmQED.N c p) (spinOf (s 0)) (spinOf (s 1)) (spinOf (s 2)) (spinOf (s 3)) = -(eemmQED.scat.ewC c p (eemmQED.scat.angs c p s) (eemmQED.scat.sqrs c p s) 1 0 2 3) + eemmQED.scat.ewC c p (eemmQED.scat.angs c p s) (eemmQED.scat.sqrs c p s) 1 3 2 0 := by
    intro s
    have v0 : (eemmQED.N c p).v 0 [spinOf (s 0), spinOf (s 2)] = ab (eemmQED.scat.angs c p s 0) (eemmQED.scat.angs c p s 2) := bra_angle (p := p) (m := eemmQED.proc.massNum (eemmQED.rho c)) rfl rfl (.inl ⟨m0, rfl⟩) (.inl ⟨m2, rfl⟩)
    have v1 : (eemmQED.N c p).v 1 [spinOf (s 0), spinOf (s 2)] = sb (eemmQED.scat.sqrs c p s 0) (eemmQED.scat.sqrs c p s 2) := bra_square (p := p) (m := eemmQED.proc.massNum (eemmQED.rho c)) rfl rfl (.inl ⟨m0, rfl⟩) (.inl ⟨m2, rfl⟩)
    have v2 : (eemmQED.N c p).v 2 [spinOf (s 0), spinOf (s 3)] = ab (eemmQED.scat.angs c p s 0) (eemmQED.scat.angs c p s 3) := bra_angle (p := p) (m := eemmQED.proc.massNum (eemmQED.rho c)) rfl rfl (.inl ⟨m0, rfl⟩) (.inl ⟨m3, rfl⟩)
    have v3 : (eemmQED.N c p).v 3 [spinOf (s 0), spinOf (s 3)] = sb (eemmQED.scat.sqrs c p s 0) (eemmQED.scat.sqrs c p s 3) := bra_square (p := p) (m := eemmQED.proc.massNum (eemmQED.rho c)) rfl rfl (.inl ⟨m0, rfl⟩) (.inl ⟨m3, rfl⟩)
    have v4 : (eemmQED.N c p).v 4 [spinOf (s 1), spinOf (s 2)] = ab (eemmQED.scat.angs c p s 1) (eemmQED.scat.angs c p s 2) := bra_angle (p := p) (m := eemmQED.proc.massNum (eemmQED.rho c)) rfl rfl (.inl ⟨m1, rfl⟩) (.inl ⟨m2, rfl⟩)
    have v5 : (eemmQED.N c p).v 5 [spinOf (s 1), spinOf (s 2)] = sb (eemmQED.scat.sqrs c p s 1) (eemmQED.scat.sqrs c p s 2) := bra_square (p := p) (m := eemmQED.proc.massNum (eemmQED.rho c)) rfl rfl (.inl ⟨m1, rfl⟩) (.inl ⟨m2, rfl⟩)
    have v6 : (eemmQED.N c p).v 6 [spinOf (s 1), spinOf (s 3)] = ab (eemmQED.scat.angs c p s 1) (eemmQED.scat.angs c p s 3) := bra_angle (p := p) (m := eemmQED.proc.massNum (eemmQED.rho c)) rfl rfl (.inl ⟨m1, rfl⟩) (.inl ⟨m3, rfl⟩)
    have v7 : (eemmQED.N c p).v 7 [spinOf (s 1), spinOf (s 3)] = sb (eemmQED.scat.sqrs c p s 1) (eemmQED.scat.sqrs c p s 3) := bra_square (p := p) (m := eemmQED.proc.massNum (eemmQED.rho c)) rfl rfl (.inl ⟨m1, rfl⟩) (.inl ⟨m3, rfl⟩)
    rw [ewC_photon (S := eemmQED.scat) (i := 1) (j := 0) (k := 2) (l := 3) (f := .e) (g := .mu) (by decide) rfl rfl rfl g1 g0 g2 g3 rfl, ewC_qed_none (S := eemmQED.scat) (i := 1) (j := 3) (k := 2) (l := 0) (by decide) rfl, eemmQED.amp]
    simp only [r0, c0, v0, v1, v2, v3, v4, v5, v6, v7, jj, ln, lw, Constants.gL, Constants.gR, Flavour.charge_e, Flavour.isospin_e, Flavour.charge_mu, Flavour.isospin_mu]
    abstract_brackets eemmQED.scat c p s
    push_cast
    ring
  refine ⟨fun n hn => ?_, fun n hn => ?_, ?_⟩
  · simp [hd] at hn
  · simp [hd] at hn
    rcases hn with rfl
    · rw [c0]; exact d0
  show meaning (eemmQED.N c p) .r Cls.eemmQED.methods Cls.eemmQED.amp2 [] = _
  have ss : eemmQED.scat.states = 4 := by decide
  have sy : eemmQED.scat.symmetry = 1 := by decide
  rw [eemmQED.value, eemmQED.scat.squared_leptons he ht hs h0 hf hu (by decide), ss, sy, Nat.cast_zero]
  rw [sumJ_four, Finset.sum_div, Finset.sum_div]
  refine Finset.sum_congr rfl fun s _ => ?_
  rw [k_amp]
  try simp only [ewC_qed_none (S := eemmQED.scat) (i := 1) (j := 3) (k := 2) (l := 0) (by decide) rfl]
  finish_spins

/-! ### eeeeQED -/

/-- what the methods of the class see -/
noncomputable abbrev eeeeQED.N [FPEnv] (c : Constants) (p : Nat → V4 ℝ) : Env := eeeeQED.proc.env (eeeeQED.rho c) p
/-- `amp` (SM/eeeeQED.cpp) -/
noncomputable def eeeeQED.amp (N : Env) (j1 j2 j3 j4 : Int) : ℂ :=
  ((((((((-((2 : Nat) : ℝ)) * N.r 0) * N.r 0) : ℝ) : ℂ) * ((((N.v 0 [j1, j3] * N.v 7 [j2, j4]) + (N.v 2 [j1, j4] * N.v 5 [j2, j3])) + (N.v 1 [j1, j3] * N.v 6 [j2, j4])) + (N.v 3 [j1, j4] * N.v 4 [j2, j3]))) / N.c 0) - ((((((((2 : Nat) : ℝ) * N.r 0) * N.r 0) : ℝ) : ℂ) * ((((N.v 8 [j1, j2] * N.v 9 [j3, j4]) + (N.v 2 [j1, j4] * N.v 5 [j2, j3])) + (N.v 10 [j1, j2] * N.v 11 [j3, j4])) + (N.v 3 [j1, j4] * N.v 4 [j2, j3]))) / N.c 1))
set_option maxRecDepth 8000 in
theorem eeeeQED.amp2_eq (N : Env) (f : Nat → List Int → ℂ) : Cls.eeeeQED.m_amp2.mean N f .r [] =
    ((sumJ (fun x a => (sumJ (fun x b => (sumJ (fun x c => (sumJ (fun x d => (x + (‖(f 0 [a, b, c, d])‖ ^ 2))) x)) x)) x)) ((0 : Nat) : ℝ)) / ((4 : Nat) : ℝ)) := by rfl
set_option maxRecDepth 8000 in
theorem eeeeQED.value (N : Env) : meaning N .r Cls.eeeeQED.methods Cls.eeeeQED.amp2 [] =
    ((sumJ (fun x a => (sumJ (fun x b => (sumJ (fun x c => (sumJ (fun x d => (x + (‖(eeeeQED.amp N a b c d)‖ ^ 2))) x)) x)) x)) ((0 : Nat) : ℝ)) / ((4 : Nat) : ℝ)) :=
  eeeeQED.amp2_eq N (callMean N [Cls.eeeeQED.m_amp])

variable [FPEnv] in
theorem eeeeQED.agrees : eeeeQED.Agrees := by
  refine agrees_of (D := []) (E := []) (by simp [all, eeeeQED]) (by decide +kernel) (by decide) (by decide +kernel) (fun c hc => ⟨List.forall_mem_nil _, List.forall_mem_nil _⟩) (fun c hc i => by fin_cases i <;> rfl) (by decide +kernel) ?_
  intro c p u hc hw h0 hs hb hr hu
  have he : eeeeQED.scat.ends = [1, 2] := by decide
  have ht : eeeeQED.scat.starts = [0, 3] := by decide
  obtain ⟨o1, o2⟩ := regular_two he ht hr
  have hf := eeeeQED.scat.flows_annihilation (by decide) hb
  have ms := eeeeQED.scat.msq_annihilation (by decide) hb
  have r0 : (eeeeQED.N c p).r 0 = c.e := rfl
  have c0 : (eeeeQED.N c p).c 0 = poleDist ((0 : Nat) : ℝ) ((0 : Nat) : ℝ) ((VExp.add 0 1).sum p) := rfl
  rw [Nat.cast_zero, pole_zero (ms.1).symm] at c0
  have c1 : (eeeeQED.N c p).c 1 = poleDist ((0 : Nat) : ℝ) ((0 : Nat) : ℝ) ((VExp.sub 0 2).sum p) := rfl
  rw [Nat.cast_zero, pole_zero (ms.2).symm] at c1
  have d0 := o1.photon (by decide) (by show (-1 : ℝ) * (-1) ≠ 0; norm_num)
  have d1 := o2.photon (by decide) (by show (-1 : ℝ) * (-1) ≠ 0; norm_num)
  have m0 : c.mass .e ≠ 0 := (hc.massive _ (by decide)).ne'
  have m1 : c.mass .e ≠ 0 := (hc.massive _ (by decide)).ne'
  have m2 : c.mass .e ≠ 0 := (hc.massive _ (by decide)).ne'
  have m3 : c.mass .e ≠ 0 := (hc.massive _ (by decide)).ne'
  have g0 : eeeeQED.scat.sgn 0 = 1 := if_neg Bool.false_ne_true
  have g1 : eeeeQED.scat.sgn 1 = -1 := if_pos rfl
  have g2 : eeeeQED.scat.sgn 2 = 1 := if_neg Bool.false_ne_true
  have g3 : eeeeQED.scat.sgn 3 = -1 := if_pos rfl
  have nMW := hc.MW
  have nSW := hc.SW
  have xMW : (c.MW : ℂ) ≠ 0 := by exact_mod_cast hc.MW
  have xSW : (c.SW : ℂ) ≠ 0 := by exact_mod_cast hc.SW
  have xCW : (c.CW : ℂ) ≠ 0 := by exact_mod_cast hc.CW
  have hd : eeeeQED.proc.divides = [(Ty.c, 0), (Ty.c, 1)] := by decide +kernel
  have k_amp : ∀ s : Fin 4 → Fin 2, eeeeQED.amp (eeeeQED.N c p) (spinOf (s 0)) (spinOf (s 1)) (spinOf (s 2)) (spinOf (s 3)) = -(eeeeQED.scat.ewC c p (eeeeQED.scat.angs c p s) (eeeeQED.scat.sqrs c p s) 1 0 2 3) + eeeeQED.scat.ewC c p (eeeeQED.scat.angs c p s) (eeeeQED.scat.sqrs c p s) 1 3 2 0 := by
    intro s
    have v0 : (eeeeQED.N c p).v 0 [spinOf (s 0), spinOf (s 2)] = ab (eeeeQED.scat.angs c p s 0) (eeeeQED.scat.angs c p s 2) := bra_angle (p := p) (m := eeeeQED.proc.massNum (eeeeQED.rho c)) rfl rfl (.inl ⟨m0, rfl⟩) (.inl ⟨m2, rfl⟩)
    have v1 : (eeeeQED.N c p).v 1 [spinOf (s 0), spinOf (s 2)] = sb (eeeeQED.scat.sqrs c p s 0) (eeeeQED.scat.sqrs c p s 2) := bra_square (p := p) (m := eeeeQED.proc.massNum (eeeeQED.rho c)) rfl rfl (.inl ⟨m0, rfl⟩) (.inl ⟨m2, rfl⟩)
    have v2 : (eeeeQED.N c p).v 2 [spinOf (s 0), spinOf (s 3)] = ab (eeeeQED.scat.angs c p s 0) (eeeeQED.scat.angs c p s 3) := bra_angle (p := p) (m := eeeeQED.proc.massNum (eeeeQED.rho c)) rfl rfl (.inl ⟨m0, rfl⟩) (.inl ⟨m3, rfl⟩)
    have v3 : (eeeeQED.N c p).v 3 [spinOf (s 0), spinOf (s 3)] = sb (eeeeQED.scat.sqrs c p s 0) (eeeeQED.scat.sqrs c p s 3) := bra_square (p := p) (m := eeeeQED.proc.massNum (eeeeQED.rho c)) rfl rfl (.inl ⟨m0, rfl⟩) (.inl ⟨m3, rfl⟩)
    have v4 : (eeeeQED.N c p).v 4 [spinOf (s 1), spinOf (s 2)] = ab (eeeeQED.scat.angs c p s 1) (eeeeQED.scat.angs c p s 2) := bra_angle (p := p) (m := eeeeQED.proc.massNum (eeeeQED.rho c)) rfl rfl (.inl ⟨m1, rfl⟩) (.inl ⟨m2, rfl⟩)
    have v5 : (eeeeQED.N c p).v 5 [spinOf (s 1), spinOf (s 2)] = sb (eeeeQED.scat.sqrs c p s 1) (eeeeQED.scat.sqrs c p s 2) := bra_square (p := p) (m := eeeeQED.proc.massNum (eeeeQED.rho c)) rfl rfl (.inl ⟨m1, rfl⟩) (.inl ⟨m2, rfl⟩)
    have v6 : (eeeeQED.N c p).v 6 [spinOf (s 1), spinOf (s 3)] = ab (eeeeQED.scat.angs c p s 1) (eeeeQED.scat.angs c p s 3) := bra_angle (p := p) (m := eeeeQED.proc.massNum (eeeeQED.rho c)) rfl rfl (.inl ⟨m1, rfl⟩) (.inl ⟨m3, rfl⟩)
    have v7 : (eeeeQED.N c p).v 7 [spinOf (s 1), spinOf (s 3)] = sb (eeeeQED.scat.sqrs c p s 1) (eeeeQED.scat.sqrs c p s 3) := bra_square (p := p) (m := eeeeQED.proc.massNum (eeeeQED.rho c)) rfl rfl (.inl ⟨m1, rfl⟩) (.inl ⟨m3, rfl⟩)
    have v8 : (eeeeQED.N c p).v 8 [spinOf (s 0), spinOf (s 1)] = ab (eeeeQED.scat.angs c p s 0) (eeeeQED.scat.angs c p s 1) := bra_angle (p := p) (m := eeeeQED.proc.massNum (eeeeQED.rho c)) rfl rfl (.inl ⟨m0, rfl⟩) (.inl ⟨m1, rfl⟩)
    have v9 : (eeeeQED.N c p).v 9 [spinOf (s 2), spinOf (s 3)] = sb (eeeeQED.scat.sqrs c p s 2) (eeeeQED.scat.sqrs c p s 3) := bra_square (p := p) (m := eeeeQED.proc.massNum (eeeeQED.rho c)) rfl rfl (.inl ⟨m2, rfl⟩) (.inl ⟨m3, rfl⟩)
    have v10 : (eeeeQED.N c p).v 10 [spinOf (s 0), spinOf (s 1)] = sb (eeeeQED.scat.sqrs c p s 0) (eeeeQED.scat.sqrs c p s 1) := bra_square (p := p) (m := eeeeQED.proc.massNum (eeeeQED.rho c)) rfl rfl (.inl ⟨m0, rfl⟩) (.inl ⟨m1, rfl⟩)
    have v11 : (eeeeQED.N c p).v 11 [spinOf (s 2), spinOf (s 3)] = ab (eeeeQED.scat.angs c p s 2) (eeeeQED.scat.angs c p s 3) := bra_angle (p := p) (m := eeeeQED.proc.massNum (eeeeQED.rho c)) rfl rfl (.inl ⟨m2, rfl⟩) (.inl ⟨m3, rfl⟩)
    rw [ewC_photon (S := eeeeQED.scat) (i := 1) (j := 0) (k := 2) (l := 3) (f := .e) (g := .e) (by decide) rfl rfl rfl g1 g0 g2 g3 rfl, ewC_photon (S := eeeeQED.scat) (i := 1) (j := 3) (k := 2) (l := 0) (f := .e) (g := .e) (by decide) rfl rfl rfl g1 g3 g2 g0 rfl, eeeeQED.amp]
    simp only [r0, c0, c1, v0, v1, v2, v3, v4, v5, v6, v7, v8, v9, v10, v11, jj, ln, lw, Constants.gL, Constants.gR, Flavour.charge_e, Flavour.isospin_e]
    abstract_brackets eeeeQED.scat c p s
    push_cast
    ring
  refine ⟨fun n hn => ?_, fun n hn => ?_, ?_⟩
  · simp [hd] at hn
  · simp [hd] at hn
    rcases hn with rfl | rfl
    · rw [c0]; exact d0
    · rw [c1]; exact d1
  show meaning (eeeeQED.N c p) .r Cls.eeeeQED.methods Cls.eeeeQED.amp2 [] = _
  have ss : eeeeQED.scat.states = 4 := by decide
  have sy : eeeeQED.scat.symmetry = 1 := by decide
  rw [eeeeQED.value, eeeeQED.scat.squared_leptons he ht hs h0 hf hu (by decide), ss, sy, Nat.cast_zero]
  rw [sumJ_four, Finset.sum_div, Finset.sum_div]
  refine Finset.sum_congr rfl fun s _ => ?_
  rw [k_amp]
  finish_spins

end Spinas.SM.Rows
