import Verif.SM.FermionRows
import Verif.SM.Exchanges

/-! Quarks and leptons. Generated by tools/fermions/emit.py: for each class its amplitudes as formulas, and the proof that `amp2` is the squared amplitude of the Feynman rules. -/

set_option linter.unusedSimpArgs false

namespace Spinas.SM.Rows
open Spec Spec.Scattering Props XR Matrix Row

/-! ### ddee -/

/-- what the methods of the class see -/
noncomputable abbrev ddee.N [FPEnv] (c : Constants) (p : Nat → V4 ℝ) : Env := ddee.proc.env (ddee.rho c) p
/-- `amp` (SM/ddee.cpp) -/
noncomputable def ddee.amp (N : Env) (j1 j2 j3 j4 : Int) : ℂ :=
  ((((((((((((2 : Nat) : ℝ) * N.r 0) * N.r 0) * ((1 : Nat) : ℝ)) / ((3 : Nat) : ℝ)) : ℝ) : ℂ) * ((((N.v 0 [j1, j3] * N.v 7 [j2, j4]) + (N.v 2 [j1, j4] * N.v 5 [j2, j3])) + (N.v 1 [j1, j3] * N.v 6 [j2, j4])) + (N.v 3 [j1, j4] * N.v 4 [j2, j3]))) / N.c 0) + (((((N.r 10 : ℝ) : ℂ) * (N.v 8 [j1, j2] + N.v 9 [j1, j2])) * (N.v 10 [j3, j4] + N.v 11 [j3, j4])) / N.c 1)) + (((((((-N.r 16) : ℝ) : ℂ) * (N.v 9 [j1, j2] - N.v 8 [j1, j2])) * (N.v 11 [j3, j4] - N.v 10 [j3, j4])) / N.c 2) + (((((((2 : Nat) : ℝ) * N.r 15) : ℝ) : ℂ) * ((((((((N.r 11 * N.r 13) : ℝ) : ℂ) * N.v 5 [j2, j3]) * N.v 2 [j1, j4]) + (((((N.r 13 * N.r 12) : ℝ) : ℂ) * N.v 1 [j1, j3]) * N.v 6 [j2, j4])) + (((((N.r 11 * N.r 14) : ℝ) : ℂ) * N.v 7 [j2, j4]) * N.v 0 [j1, j3])) + (((((N.r 12 * N.r 14) : ℝ) : ℂ) * N.v 3 [j1, j4]) * N.v 4 [j2, j3]))) / N.c 2)))
set_option maxRecDepth 8000 in
theorem ddee.amp2_eq (N : Env) (f : Nat → List Int → ℂ) : Cls.ddee.m_amp2.mean N f .r [] =
    ((sumJ (fun x a => (sumJ (fun x b => (sumJ (fun x c => (sumJ (fun x d => (x + (((3 : Nat) : ℝ) * (‖(f 0 [a, b, c, d])‖ ^ 2)))) x)) x)) x)) ((0 : Nat) : ℝ)) / ((36 : Nat) : ℝ)) := by rfl
set_option maxRecDepth 8000 in
theorem ddee.value (N : Env) : meaning N .r Cls.ddee.methods Cls.ddee.amp2 [] =
    ((sumJ (fun x a => (sumJ (fun x b => (sumJ (fun x c => (sumJ (fun x d => (x + (((3 : Nat) : ℝ) * (‖(ddee.amp N a b c d)‖ ^ 2)))) x)) x)) x)) ((0 : Nat) : ℝ)) / ((36 : Nat) : ℝ)) :=
  ddee.amp2_eq N (callMean N [Cls.ddee.m_amp])

variable [FPEnv] in
theorem ddee.agrees : ddee.Agrees := by
  refine agrees_of (D := [5, 6]) (E := [6]) (by simp [all, ddee]) (by decide +kernel) (by decide) (by decide +kernel) (fun c hc => ⟨List.forall_mem_cons.2 ⟨hc.MW, List.forall_mem_cons.2 ⟨hc.SW, List.forall_mem_nil _⟩⟩, List.forall_mem_cons.2 ⟨hc.SW_lt, List.forall_mem_nil _⟩⟩) (fun c hc i => by fin_cases i <;> rfl) (by decide +kernel) ?_
  intro c p u hc hw h0 hs hb hr hu
  replace hw := hw (by simp [ddee])
  have he : ddee.scat.ends = [1, 2] := by decide
  have ht : ddee.scat.starts = [0, 3] := by decide
  obtain ⟨o1, o2⟩ := regular_two he ht hr
  have hf := ddee.scat.flows_annihilation (by decide) hb
  have ms := ddee.scat.msq_annihilation (by decide) hb
  have r0 : (ddee.N c p).r 0 = c.e := rfl
  have r10 : (ddee.N c p).r 10 = ((((c.e * c.e) * (c.mass .d)) * (c.mass .e)) / ((((((4 : Nat) : ℝ) * c.MW) * c.MW) * c.SW) * c.SW)) := rfl
  have r16 : (ddee.N c p).r 16 = ((((((((c.e * c.e) / ((((((4 : Nat) : ℝ) * √((((1 : Nat) : ℝ) - (c.SW * c.SW)))) * √((((1 : Nat) : ℝ) - (c.SW * c.SW)))) * c.SW) * c.SW)) * (((-((1 : Nat) : ℝ)) + (((((2 : Nat) : ℝ) / ((3 : Nat) : ℝ)) * c.SW) * c.SW)) - (((((2 : Nat) : ℝ) / ((3 : Nat) : ℝ)) * c.SW) * c.SW))) * (((-((1 : Nat) : ℝ)) + ((((2 : Nat) : ℝ) * c.SW) * c.SW)) - ((((2 : Nat) : ℝ) * c.SW) * c.SW))) * (c.mass .d)) * (c.mass .e)) / (c.MW / √((((1 : Nat) : ℝ) - (c.SW * c.SW))))) / (c.MW / √((((1 : Nat) : ℝ) - (c.SW * c.SW))))) := rfl
  simp only [c.root, c.mz] at r16
  have r15 : (ddee.N c p).r 15 = ((c.e * c.e) / ((((((4 : Nat) : ℝ) * √((((1 : Nat) : ℝ) - (c.SW * c.SW)))) * √((((1 : Nat) : ℝ) - (c.SW * c.SW)))) * c.SW) * c.SW)) := rfl
  simp only [c.root] at r15
  have r11 : (ddee.N c p).r 11 = ((-((1 : Nat) : ℝ)) + (((((2 : Nat) : ℝ) / ((3 : Nat) : ℝ)) * c.SW) * c.SW)) := rfl
  have r13 : (ddee.N c p).r 13 = ((-((1 : Nat) : ℝ)) + ((((2 : Nat) : ℝ) * c.SW) * c.SW)) := rfl
  have r12 : (ddee.N c p).r 12 = (((((2 : Nat) : ℝ) / ((3 : Nat) : ℝ)) * c.SW) * c.SW) := rfl
  have r14 : (ddee.N c p).r 14 = ((((2 : Nat) : ℝ) * c.SW) * c.SW) := rfl
  have c0 : (ddee.N c p).c 0 = poleDist ((0 : Nat) : ℝ) ((0 : Nat) : ℝ) ((VExp.add 0 1).sum p) := rfl
  rw [Nat.cast_zero, pole_zero (ms.1).symm] at c0
  have c1 : (ddee.N c p).c 1 = poleDist c.MH c.WH ((VExp.add 0 1).sum p) := rfl
  rw [pole_congr (ms.1).symm] at c1
  have c2 : (ddee.N c p).c 2 = poleDist (c.MW / √((((1 : Nat) : ℝ) - (c.SW * c.SW)))) ((0 : Nat) : ℝ) ((VExp.add 0 1).sum p) := rfl
  rw [c.root, c.mz, Nat.cast_zero, ← hw, pole_congr (ms.1).symm] at c2
  have d0 := o1.photon (by decide) (by show (-1/3 : ℝ) * (-1) ≠ 0; norm_num)
  have d1 := o1.higgs (by decide) rfl (hc.massive _ (by decide)) (hc.massive _ (by decide))
  have d2 := o1.z (by decide) rfl
  have m0 : c.mass .d ≠ 0 := (hc.massive _ (by decide)).ne'
  have m1 : c.mass .d ≠ 0 := (hc.massive _ (by decide)).ne'
  have m2 : c.mass .e ≠ 0 := (hc.massive _ (by decide)).ne'
  have m3 : c.mass .e ≠ 0 := (hc.massive _ (by decide)).ne'
  have g0 : ddee.scat.sgn 0 = 1 := if_neg Bool.false_ne_true
  have g1 : ddee.scat.sgn 1 = -1 := if_pos rfl
  have g2 : ddee.scat.sgn 2 = 1 := if_neg Bool.false_ne_true
  have g3 : ddee.scat.sgn 3 = -1 := if_pos rfl
  have nMW := hc.MW
  have nSW := hc.SW
  have xMW : (c.MW : ℂ) ≠ 0 := by exact_mod_cast hc.MW
  have xSW : (c.SW : ℂ) ≠ 0 := by exact_mod_cast hc.SW
  have xCW : (c.CW : ℂ) ≠ 0 := by exact_mod_cast hc.CW
  have hd : ddee.proc.divides = [(Ty.c, 0), (Ty.c, 1), (Ty.c, 2)] := by decide +kernel
  have k_amp : ∀ s : Fin 4 → Fin 2, ddee.amp (ddee.N c p) (spinOf (s 0)) (spinOf (s 1)) (spinOf (s 2)) (spinOf (s 3)) = ddee.scat.ewC c p (ddee.scat.angs c p s) (ddee.scat.sqrs c p s) 1 0 2 3 := by
    intro s
    have v0 : (ddee.N c p).v 0 [spinOf (s 0), spinOf (s 2)] = ab (ddee.scat.angs c p s 0) (ddee.scat.angs c p s 2) := bra_angle (p := p) (m := ddee.proc.massNum (ddee.rho c)) rfl rfl (.inl ⟨m0, rfl⟩) (.inl ⟨m2, rfl⟩)
    have v1 : (ddee.N c p).v 1 [spinOf (s 0), spinOf (s 2)] = sb (ddee.scat.sqrs c p s 0) (ddee.scat.sqrs c p s 2) := bra_square (p := p) (m := ddee.proc.massNum (ddee.rho c)) rfl rfl (.inl ⟨m0, rfl⟩) (.inl ⟨m2, rfl⟩)
    have v2 : (ddee.N c p).v 2 [spinOf (s 0), spinOf (s 3)] = ab (ddee.scat.angs c p s 0) (ddee.scat.angs c p s 3) := bra_angle (p := p) (m := ddee.proc.massNum (ddee.rho c)) rfl rfl (.inl ⟨m0, rfl⟩) (.inl ⟨m3, rfl⟩)
    have v3 : (ddee.N c p).v 3 [spinOf (s 0), spinOf (s 3)] = sb (ddee.scat.sqrs c p s 0) (ddee.scat.sqrs c p s 3) := bra_square (p := p) (m := ddee.proc.massNum (ddee.rho c)) rfl rfl (.inl ⟨m0, rfl⟩) (.inl ⟨m3, rfl⟩)
    have v4 : (ddee.N c p).v 4 [spinOf (s 1), spinOf (s 2)] = ab (ddee.scat.angs c p s 1) (ddee.scat.angs c p s 2) := bra_angle (p := p) (m := ddee.proc.massNum (ddee.rho c)) rfl rfl (.inl ⟨m1, rfl⟩) (.inl ⟨m2, rfl⟩)
    have v5 : (ddee.N c p).v 5 [spinOf (s 1), spinOf (s 2)] = sb (ddee.scat.sqrs c p s 1) (ddee.scat.sqrs c p s 2) := bra_square (p := p) (m := ddee.proc.massNum (ddee.rho c)) rfl rfl (.inl ⟨m1, rfl⟩) (.inl ⟨m2, rfl⟩)
    have v6 : (ddee.N c p).v 6 [spinOf (s 1), spinOf (s 3)] = ab (ddee.scat.angs c p s 1) (ddee.scat.angs c p s 3) := bra_angle (p := p) (m := ddee.proc.massNum (ddee.rho c)) rfl rfl (.inl ⟨m1, rfl⟩) (.inl ⟨m3, rfl⟩)
    have v7 : (ddee.N c p).v 7 [spinOf (s 1), spinOf (s 3)] = sb (ddee.scat.sqrs c p s 1) (ddee.scat.sqrs c p s 3) := bra_square (p := p) (m := ddee.proc.massNum (ddee.rho c)) rfl rfl (.inl ⟨m1, rfl⟩) (.inl ⟨m3, rfl⟩)
    have v8 : (ddee.N c p).v 8 [spinOf (s 0), spinOf (s 1)] = sb (ddee.scat.sqrs c p s 0) (ddee.scat.sqrs c p s 1) := bra_square (p := p) (m := ddee.proc.massNum (ddee.rho c)) rfl rfl (.inl ⟨m0, rfl⟩) (.inl ⟨m1, rfl⟩)
    have v9 : (ddee.N c p).v 9 [spinOf (s 0), spinOf (s 1)] = ab (ddee.scat.angs c p s 0) (ddee.scat.angs c p s 1) := bra_angle (p := p) (m := ddee.proc.massNum (ddee.rho c)) rfl rfl (.inl ⟨m0, rfl⟩) (.inl ⟨m1, rfl⟩)
    have v10 : (ddee.N c p).v 10 [spinOf (s 2), spinOf (s 3)] = sb (ddee.scat.sqrs c p s 2) (ddee.scat.sqrs c p s 3) := bra_square (p := p) (m := ddee.proc.massNum (ddee.rho c)) rfl rfl (.inl ⟨m2, rfl⟩) (.inl ⟨m3, rfl⟩)
    have v11 : (ddee.N c p).v 11 [spinOf (s 2), spinOf (s 3)] = ab (ddee.scat.angs c p s 2) (ddee.scat.angs c p s 3) := bra_angle (p := p) (m := ddee.proc.massNum (ddee.rho c)) rfl rfl (.inl ⟨m2, rfl⟩) (.inl ⟨m3, rfl⟩)
    rw [ewC_neutral (S := ddee.scat) (i := 1) (j := 0) (k := 2) (l := 3) (f := .d) (g := .e) (by decide) (by decide) rfl rfl rfl g1 g0 g2 g3 rfl rfl rfl, ddee.amp]
    simp only [r0, r10, r11, r12, r13, r14, r15, r16, c0, c1, c2, v0, v1, v2, v3, v4, v5, v6, v7, v8, v9, v10, v11, jj, ln, lw, Constants.gL, Constants.gR, Flavour.charge_d, Flavour.isospin_d, Flavour.charge_e, Flavour.isospin_e]
    abstract_brackets ddee.scat c p s
    push_cast
    ring
  refine ⟨fun n hn => ?_, fun n hn => ?_, ?_⟩
  · simp [hd] at hn
  · simp [hd] at hn
    rcases hn with rfl | rfl | rfl
    · rw [c0]; exact d0
    · rw [c1]; exact d1
    · rw [c2]; exact d2
  show meaning (ddee.N c p) .r Cls.ddee.methods Cls.ddee.amp2 [] = _
  have ss : ddee.scat.states = 36 := by decide
  have sy : ddee.scat.symmetry = 1 := by decide
  rw [ddee.value, mixed_annihilation hs h0 hu he ht hf (by decide) (by decide) (by decide), ss, sy, Nat.cast_zero]
  rw [sumJ_four, Finset.sum_div, Finset.sum_div]
  refine Finset.sum_congr rfl fun s _ => ?_
  rw [k_amp]
  try simp only [ewC_none (S := ddee.scat) (i := 1) (j := 3) (k := 2) (l := 0) (by decide) (by decide)]
  finish_spins

/-! ### uuee -/

/-- what the methods of the class see -/
noncomputable abbrev uuee.N [FPEnv] (c : Constants) (p : Nat → V4 ℝ) : Env := uuee.proc.env (uuee.rho c) p
/-- `amp` (SM/uuee.cpp) -/
noncomputable def uuee.amp (N : Env) (j1 j2 j3 j4 : Int) : ℂ :=
  (((((((((((-((2 : Nat) : ℝ)) * N.r 0) * N.r 0) * ((2 : Nat) : ℝ)) / ((3 : Nat) : ℝ)) : ℝ) : ℂ) * ((((N.v 0 [j1, j3] * N.v 7 [j2, j4]) + (N.v 2 [j1, j4] * N.v 5 [j2, j3])) + (N.v 1 [j1, j3] * N.v 6 [j2, j4])) + (N.v 3 [j1, j4] * N.v 4 [j2, j3]))) / N.c 0) + (((((N.r 10 : ℝ) : ℂ) * (N.v 8 [j1, j2] + N.v 9 [j1, j2])) * (N.v 10 [j3, j4] + N.v 11 [j3, j4])) / N.c 1)) + (((((((-N.r 16) : ℝ) : ℂ) * (N.v 9 [j1, j2] - N.v 8 [j1, j2])) * (N.v 11 [j3, j4] - N.v 10 [j3, j4])) / N.c 2) + (((((((2 : Nat) : ℝ) * N.r 15) : ℝ) : ℂ) * ((((((((N.r 11 * N.r 13) : ℝ) : ℂ) * N.v 5 [j2, j3]) * N.v 2 [j1, j4]) + (((((N.r 13 * N.r 12) : ℝ) : ℂ) * N.v 1 [j1, j3]) * N.v 6 [j2, j4])) + (((((N.r 11 * N.r 14) : ℝ) : ℂ) * N.v 7 [j2, j4]) * N.v 0 [j1, j3])) + (((((N.r 12 * N.r 14) : ℝ) : ℂ) * N.v 3 [j1, j4]) * N.v 4 [j2, j3]))) / N.c 2)))
set_option maxRecDepth 8000 in
theorem uuee.amp2_eq (N : Env) (f : Nat → List Int → ℂ) : Cls.uuee.m_amp2.mean N f .r [] =
    ((sumJ (fun x a => (sumJ (fun x b => (sumJ (fun x c => (sumJ (fun x d => (x + (((3 : Nat) : ℝ) * (‖(f 0 [a, b, c, d])‖ ^ 2)))) x)) x)) x)) ((0 : Nat) : ℝ)) / ((36 : Nat) : ℝ)) := by rfl
set_option maxRecDepth 8000 in
theorem uuee.value (N : Env) : meaning N .r Cls.uuee.methods Cls.uuee.amp2 [] =
    ((sumJ (fun x a => (sumJ (fun x b => (sumJ (fun x c => (sumJ (fun x d => (x + (((3 : Nat) : ℝ) * (‖(uuee.amp N a b c d)‖ ^ 2)))) x)) x)) x)) ((0 : Nat) : ℝ)) / ((36 : Nat) : ℝ)) :=
  uuee.amp2_eq N (callMean N [Cls.uuee.m_amp])

variable [FPEnv] in
theorem uuee.agrees : uuee.Agrees := by
  refine agrees_of (D := [5, 6]) (E := [6]) (by simp [all, uuee]) (by decide +kernel) (by decide) (by decide +kernel) (fun c hc => ⟨List.forall_mem_cons.2 ⟨hc.MW, List.forall_mem_cons.2 ⟨hc.SW, List.forall_mem_nil _⟩⟩, List.forall_mem_cons.2 ⟨hc.SW_lt, List.forall_mem_nil _⟩⟩) (fun c hc i => by fin_cases i <;> rfl) (by decide +kernel) ?_
  intro c p u hc hw h0 hs hb hr hu
  replace hw := hw (by simp [uuee])
  have he : uuee.scat.ends = [1, 2] := by decide
  have ht : uuee.scat.starts = [0, 3] := by decide
  obtain ⟨o1, o2⟩ := regular_two he ht hr
  have hf := uuee.scat.flows_annihilation (by decide) hb
  have ms := uuee.scat.msq_annihilation (by decide) hb
  have r0 : (uuee.N c p).r 0 = c.e := rfl
  have r10 : (uuee.N c p).r 10 = ((((c.e * c.e) * (c.mass .u)) * (c.mass .e)) / ((((((4 : Nat) : ℝ) * c.MW) * c.MW) * c.SW) * c.SW)) := rfl
  have r16 : (uuee.N c p).r 16 = ((((((((c.e * c.e) / ((((((4 : Nat) : ℝ) * √((((1 : Nat) : ℝ) - (c.SW * c.SW)))) * √((((1 : Nat) : ℝ) - (c.SW * c.SW)))) * c.SW) * c.SW)) * ((((1 : Nat) : ℝ) - (((((4 : Nat) : ℝ) / ((3 : Nat) : ℝ)) * c.SW) * c.SW)) - ((((-((4 : Nat) : ℝ)) / ((3 : Nat) : ℝ)) * c.SW) * c.SW))) * (((-((1 : Nat) : ℝ)) + ((((2 : Nat) : ℝ) * c.SW) * c.SW)) - ((((2 : Nat) : ℝ) * c.SW) * c.SW))) * (c.mass .u)) * (c.mass .e)) / (c.MW / √((((1 : Nat) : ℝ) - (c.SW * c.SW))))) / (c.MW / √((((1 : Nat) : ℝ) - (c.SW * c.SW))))) := rfl
  simp only [c.root, c.mz] at r16
  have r15 : (uuee.N c p).r 15 = ((c.e * c.e) / ((((((4 : Nat) : ℝ) * √((((1 : Nat) : ℝ) - (c.SW * c.SW)))) * √((((1 : Nat) : ℝ) - (c.SW * c.SW)))) * c.SW) * c.SW)) := rfl
  simp only [c.root] at r15
  have r11 : (uuee.N c p).r 11 = (((1 : Nat) : ℝ) - (((((4 : Nat) : ℝ) / ((3 : Nat) : ℝ)) * c.SW) * c.SW)) := rfl
  have r13 : (uuee.N c p).r 13 = ((-((1 : Nat) : ℝ)) + ((((2 : Nat) : ℝ) * c.SW) * c.SW)) := rfl
  have r12 : (uuee.N c p).r 12 = ((((-((4 : Nat) : ℝ)) / ((3 : Nat) : ℝ)) * c.SW) * c.SW) := rfl
  have r14 : (uuee.N c p).r 14 = ((((2 : Nat) : ℝ) * c.SW) * c.SW) := rfl
  have c0 : (uuee.N c p).c 0 = poleDist ((0 : Nat) : ℝ) ((0 : Nat) : ℝ) ((VExp.add 0 1).sum p) := rfl
  rw [Nat.cast_zero, pole_zero (ms.1).symm] at c0
  have c1 : (uuee.N c p).c 1 = poleDist c.MH c.WH ((VExp.add 0 1).sum p) := rfl
  rw [pole_congr (ms.1).symm] at c1
  have c2 : (uuee.N c p).c 2 = poleDist (c.MW / √((((1 : Nat) : ℝ) - (c.SW * c.SW)))) ((0 : Nat) : ℝ) ((VExp.add 0 1).sum p) := rfl
  rw [c.root, c.mz, Nat.cast_zero, ← hw, pole_congr (ms.1).symm] at c2
  have d0 := o1.photon (by decide) (by show (2/3 : ℝ) * (-1) ≠ 0; norm_num)
  have d1 := o1.higgs (by decide) rfl (hc.massive _ (by decide)) (hc.massive _ (by decide))
  have d2 := o1.z (by decide) rfl
  have m0 : c.mass .u ≠ 0 := (hc.massive _ (by decide)).ne'
  have m1 : c.mass .u ≠ 0 := (hc.massive _ (by decide)).ne'
  have m2 : c.mass .e ≠ 0 := (hc.massive _ (by decide)).ne'
  have m3 : c.mass .e ≠ 0 := (hc.massive _ (by decide)).ne'
  have g0 : uuee.scat.sgn 0 = 1 := if_neg Bool.false_ne_true
  have g1 : uuee.scat.sgn 1 = -1 := if_pos rfl
  have g2 : uuee.scat.sgn 2 = 1 := if_neg Bool.false_ne_true
  have g3 : uuee.scat.sgn 3 = -1 := if_pos rfl
  have nMW := hc.MW
  have nSW := hc.SW
  have xMW : (c.MW : ℂ) ≠ 0 := by exact_mod_cast hc.MW
  have xSW : (c.SW : ℂ) ≠ 0 := by exact_mod_cast hc.SW
  have xCW : (c.CW : ℂ) ≠ 0 := by exact_mod_cast hc.CW
  have hd : uuee.proc.divides = [(Ty.c, 0), (Ty.c, 1), (Ty.c, 2)] := by decide +kernel
  have k_amp : ∀ s : Fin 4 → Fin 2, uuee.amp (uuee.N c p) (spinOf (s 0)) (spinOf (s 1)) (spinOf (s 2)) (spinOf (s 3)) = uuee.scat.ewC c p (uuee.scat.angs c p s) (uuee.scat.sqrs c p s) 1 0 2 3 := by
    intro s
    have v0 : (uuee.N c p).v 0 [spinOf (s 0), spinOf (s 2)] = ab (uuee.scat.angs c p s 0) (uuee.scat.angs c p s 2) := bra_angle (p := p) (m := uuee.proc.massNum (uuee.rho c)) rfl rfl (.inl ⟨m0, rfl⟩) (.inl ⟨m2, rfl⟩)
    have v1 : (uuee.N c p).v 1 [spinOf (s 0), spinOf (s 2)] = sb (uuee.scat.sqrs c p s 0) (uuee.scat.sqrs c p s 2) := bra_square (p := p) (m := uuee.proc.massNum (uuee.rho c)) rfl rfl (.inl ⟨m0, rfl⟩) (.inl ⟨m2, rfl⟩)
    have v2 : (uuee.N c p).v 2 [spinOf (s 0), spinOf (s 3)] = ab (uuee.scat.angs c p s 0) (uuee.scat.angs c p s 3) := bra_angle (p := p) (m := uuee.proc.massNum (uuee.rho c)) rfl rfl (.inl ⟨m0, rfl⟩) (.inl ⟨m3, rfl⟩)
    have v3 : (uuee.N c p).v 3 [spinOf (s 0), spinOf (s 3)] = sb (uuee.scat.sqrs c p s 0) (uuee.scat.sqrs c p s 3) := bra_square (p := p) (m := uuee.proc.massNum (uuee.rho c)) rfl rfl (.inl ⟨m0, rfl⟩) (.inl ⟨m3, rfl⟩)
    have v4 : (uuee.N c p).v 4 [spinOf (s 1), spinOf (s 2)] = ab (uuee.scat.angs c p s 1) (uuee.scat.angs c p s 2) := bra_angle (p := p) (m := uuee.proc.massNum (uuee.rho c)) rfl rfl (.inl ⟨m1, rfl⟩) (.inl ⟨m2, rfl⟩)
    have v5 : (uuee.N c p).v 5 [spinOf (s 1), spinOf (s 2)] = sb (uuee.scat.sqrs c p s 1) (uuee.scat.sqrs c p s 2) := bra_square (p := p) (m := uuee.proc.massNum (uuee.rho c)) rfl rfl (.inl ⟨m1, rfl⟩) (.inl ⟨m2, rfl⟩)
    have v6 : (uuee.N c p).v 6 [spinOf (s 1), spinOf (s 3)] = ab (uuee.scat.angs c p s 1) (uuee.scat.angs c p s 3) := bra_angle (p := p) (m := uuee.proc.massNum (uuee.rho c)) rfl rfl (.inl ⟨m1, rfl⟩) (.inl ⟨m3, rfl⟩)
    have v7 : (uuee.N c p).v 7 [spinOf (s 1), spinOf (s 3)] = sb (uuee.scat.sqrs c p s 1) (uuee.scat.sqrs c p s 3) := bra_square (p := p) (m := uuee.proc.massNum (uuee.rho c)) rfl rfl (.inl ⟨m1, rfl⟩) (.inl ⟨m3, rfl⟩)
    have v8 : (uuee.N c p).v 8 [spinOf (s 0), spinOf (s 1)] = sb (uuee.scat.sqrs c p s 0) (uuee.scat.sqrs c p s 1) := bra_square (p := p) (m := uuee.proc.massNum (uuee.rho c)) rfl rfl (.inl ⟨m0, rfl⟩) (.inl ⟨m1, rfl⟩)
    have v9 : (uuee.N c p).v 9 [spinOf (s 0), spinOf (s 1)] = ab (uuee.scat.angs c p s 0) (uuee.scat.angs c p s 1) := bra_angle (p := p) (m := uuee.proc.massNum (uuee.rho c)) rfl rfl (.inl ⟨m0, rfl⟩) (.inl ⟨m1, rfl⟩)
    have v10 : (uuee.N c p).v 10 [spinOf (s 2), spinOf (s 3)] = sb (uuee.scat.sqrs c p s 2) (uuee.scat.sqrs c p s 3) := bra_square (p := p) (m := uuee.proc.massNum (uuee.rho c)) rfl rfl (.inl ⟨m2, rfl⟩) (.inl ⟨m3, rfl⟩)
    have v11 : (uuee.N c p).v 11 [spinOf (s 2), spinOf (s 3)] = ab (uuee.scat.angs c p s 2) (uuee.scat.angs c p s 3) := bra_angle (p := p) (m := uuee.proc.massNum (uuee.rho c)) rfl rfl (.inl ⟨m2, rfl⟩) (.inl ⟨m3, rfl⟩)
    rw [ewC_neutral (S := uuee.scat) (i := 1) (j := 0) (k := 2) (l := 3) (f := .u) (g := .e) (by decide) (by decide) rfl rfl rfl g1 g0 g2 g3 rfl rfl rfl, uuee.amp]
    simp only [r0, r10, r11, r12, r13, r14, r15, r16, c0, c1, c2, v0, v1, v2, v3, v4, v5, v6, v7, v8, v9, v10, v11, jj, ln, lw, Constants.gL, Constants.gR, Flavour.charge_e, Flavour.isospin_e, Flavour.charge_u, Flavour.isospin_u]
    abstract_brackets uuee.scat c p s
    push_cast
    ring
  refine ⟨fun n hn => ?_, fun n hn => ?_, ?_⟩
  · simp [hd] at hn
  · simp [hd] at hn
    rcases hn with rfl | rfl | rfl
    · rw [c0]; exact d0
    · rw [c1]; exact d1
    · rw [c2]; exact d2
  show meaning (uuee.N c p) .r Cls.uuee.methods Cls.uuee.amp2 [] = _
  have ss : uuee.scat.states = 36 := by decide
  have sy : uuee.scat.symmetry = 1 := by decide
  rw [uuee.value, mixed_annihilation hs h0 hu he ht hf (by decide) (by decide) (by decide), ss, sy, Nat.cast_zero]
  rw [sumJ_four, Finset.sum_div, Finset.sum_div]
  refine Finset.sum_congr rfl fun s _ => ?_
  rw [k_amp]
  try simp only [ewC_none (S := uuee.scat) (i := 1) (j := 3) (k := 2) (l := 0) (by decide) (by decide)]
  finish_spins

/-! ### deed -/

/-- what the methods of the class see -/
noncomputable abbrev deed.N [FPEnv] (c : Constants) (p : Nat → V4 ℝ) : Env := deed.proc.env (deed.rho c) p
/-- `amp` (SM/deed.cpp) -/
noncomputable def deed.amp (N : Env) (j1 j2 j3 j4 : Int) : ℂ :=
  ((((((((((((2 : Nat) : ℝ) * N.r 0) * N.r 0) * ((1 : Nat) : ℝ)) / ((3 : Nat) : ℝ)) : ℝ) : ℂ) * (((((-N.v 0 [j1, j3]) * N.v 7 [j2, j4]) + (N.v 9 [j1, j2] * N.v 10 [j3, j4])) - (N.v 1 [j1, j3] * N.v 6 [j2, j4])) + (N.v 8 [j1, j2] * N.v 11 [j3, j4]))) / N.c 0) + ((((((-N.r 10) : ℝ) : ℂ) * (N.v 3 [j1, j4] - N.v 2 [j1, j4])) * (N.v 5 [j2, j3] - N.v 4 [j2, j3])) / N.c 1)) + ((((((N.r 16 : ℝ) : ℂ) * (N.v 2 [j1, j4] + N.v 3 [j1, j4])) * (N.v 4 [j2, j3] + N.v 5 [j2, j3])) / N.c 2) + (((((((2 : Nat) : ℝ) * N.r 15) : ℝ) : ℂ) * ((((((((N.r 11 * N.r 13) : ℝ) : ℂ) * N.v 10 [j3, j4]) * N.v 9 [j1, j2]) - (((((N.r 13 * N.r 12) : ℝ) : ℂ) * N.v 1 [j1, j3]) * N.v 6 [j2, j4])) - (((((N.r 11 * N.r 14) : ℝ) : ℂ) * N.v 7 [j2, j4]) * N.v 0 [j1, j3])) + (((((N.r 12 * N.r 14) : ℝ) : ℂ) * N.v 8 [j1, j2]) * N.v 11 [j3, j4]))) / N.c 2)))
set_option maxRecDepth 8000 in
theorem deed.amp2_eq (N : Env) (f : Nat → List Int → ℂ) : Cls.deed.m_amp2.mean N f .r [] =
    ((sumJ (fun x a => (sumJ (fun x b => (sumJ (fun x c => (sumJ (fun x d => (x + (((3 : Nat) : ℝ) * (‖(f 0 [a, b, c, d])‖ ^ 2)))) x)) x)) x)) ((0 : Nat) : ℝ)) / ((12 : Nat) : ℝ)) := by rfl
set_option maxRecDepth 8000 in
theorem deed.value (N : Env) : meaning N .r Cls.deed.methods Cls.deed.amp2 [] =
    ((sumJ (fun x a => (sumJ (fun x b => (sumJ (fun x c => (sumJ (fun x d => (x + (((3 : Nat) : ℝ) * (‖(deed.amp N a b c d)‖ ^ 2)))) x)) x)) x)) ((0 : Nat) : ℝ)) / ((12 : Nat) : ℝ)) :=
  deed.amp2_eq N (callMean N [Cls.deed.m_amp])

variable [FPEnv] in
theorem deed.agrees : deed.Agrees := by
  refine agrees_of (D := [5, 6]) (E := [6]) (by simp [all, deed]) (by decide +kernel) (by decide) (by decide +kernel) (fun c hc => ⟨List.forall_mem_cons.2 ⟨hc.MW, List.forall_mem_cons.2 ⟨hc.SW, List.forall_mem_nil _⟩⟩, List.forall_mem_cons.2 ⟨hc.SW_lt, List.forall_mem_nil _⟩⟩) (fun c hc i => by fin_cases i <;> rfl) (by decide +kernel) ?_
  intro c p u hc hw h0 hs hb hr hu
  replace hw := hw (by simp [deed])
  have he : deed.scat.ends = [2, 3] := by decide
  have ht : deed.scat.starts = [0, 1] := by decide
  obtain ⟨o1, o2⟩ := regular_two he ht hr
  have hf := deed.scat.flows_scattering (by decide) hb
  have ms := deed.scat.msq_scattering (by decide) hb
  have r0 : (deed.N c p).r 0 = c.e := rfl
  have r10 : (deed.N c p).r 10 = ((((c.e * c.e) * (c.mass .d)) * (c.mass .e)) / ((((((4 : Nat) : ℝ) * c.MW) * c.MW) * c.SW) * c.SW)) := rfl
  have r16 : (deed.N c p).r 16 = ((((((((c.e * c.e) / ((((((4 : Nat) : ℝ) * √((((1 : Nat) : ℝ) - (c.SW * c.SW)))) * √((((1 : Nat) : ℝ) - (c.SW * c.SW)))) * c.SW) * c.SW)) * (((-((1 : Nat) : ℝ)) + (((((2 : Nat) : ℝ) / ((3 : Nat) : ℝ)) * c.SW) * c.SW)) - (((((2 : Nat) : ℝ) / ((3 : Nat) : ℝ)) * c.SW) * c.SW))) * (((-((1 : Nat) : ℝ)) + ((((2 : Nat) : ℝ) * c.SW) * c.SW)) - ((((2 : Nat) : ℝ) * c.SW) * c.SW))) * (c.mass .d)) * (c.mass .e)) / (c.MW / √((((1 : Nat) : ℝ) - (c.SW * c.SW))))) / (c.MW / √((((1 : Nat) : ℝ) - (c.SW * c.SW))))) := rfl
  simp only [c.root, c.mz] at r16
  have r15 : (deed.N c p).r 15 = ((c.e * c.e) / ((((((4 : Nat) : ℝ) * √((((1 : Nat) : ℝ) - (c.SW * c.SW)))) * √((((1 : Nat) : ℝ) - (c.SW * c.SW)))) * c.SW) * c.SW)) := rfl
  simp only [c.root] at r15
  have r11 : (deed.N c p).r 11 = ((-((1 : Nat) : ℝ)) + (((((2 : Nat) : ℝ) / ((3 : Nat) : ℝ)) * c.SW) * c.SW)) := rfl
  have r13 : (deed.N c p).r 13 = ((-((1 : Nat) : ℝ)) + ((((2 : Nat) : ℝ) * c.SW) * c.SW)) := rfl
  have r12 : (deed.N c p).r 12 = (((((2 : Nat) : ℝ) / ((3 : Nat) : ℝ)) * c.SW) * c.SW) := rfl
  have r14 : (deed.N c p).r 14 = ((((2 : Nat) : ℝ) * c.SW) * c.SW) := rfl
  have c0 : (deed.N c p).c 0 = poleDist ((0 : Nat) : ℝ) ((0 : Nat) : ℝ) ((VExp.sub 0 3).sum p) := rfl
  rw [Nat.cast_zero, pole_zero (ms.2).symm] at c0
  have c1 : (deed.N c p).c 1 = poleDist c.MH c.WH ((VExp.sub 0 3).sum p) := rfl
  rw [pole_congr (ms.2).symm] at c1
  have c2 : (deed.N c p).c 2 = poleDist (c.MW / √((((1 : Nat) : ℝ) - (c.SW * c.SW)))) ((0 : Nat) : ℝ) ((VExp.sub 0 3).sum p) := rfl
  rw [c.root, c.mz, Nat.cast_zero, ← hw, pole_congr (ms.2).symm] at c2
  have d0 := o2.photon (by decide) (by show (-1 : ℝ) * (-1/3) ≠ 0; norm_num)
  have d1 := o2.higgs (by decide) rfl (hc.massive _ (by decide)) (hc.massive _ (by decide))
  have d2 := o2.z (by decide) rfl
  have m0 : c.mass .d ≠ 0 := (hc.massive _ (by decide)).ne'
  have m1 : c.mass .e ≠ 0 := (hc.massive _ (by decide)).ne'
  have m2 : c.mass .e ≠ 0 := (hc.massive _ (by decide)).ne'
  have m3 : c.mass .d ≠ 0 := (hc.massive _ (by decide)).ne'
  have g0 : deed.scat.sgn 0 = 1 := if_neg Bool.false_ne_true
  have g1 : deed.scat.sgn 1 = 1 := if_neg Bool.false_ne_true
  have g2 : deed.scat.sgn 2 = 1 := if_neg Bool.false_ne_true
  have g3 : deed.scat.sgn 3 = 1 := if_neg Bool.false_ne_true
  have nMW := hc.MW
  have nSW := hc.SW
  have xMW : (c.MW : ℂ) ≠ 0 := by exact_mod_cast hc.MW
  have xSW : (c.SW : ℂ) ≠ 0 := by exact_mod_cast hc.SW
  have xCW : (c.CW : ℂ) ≠ 0 := by exact_mod_cast hc.CW
  have hd : deed.proc.divides = [(Ty.c, 0), (Ty.c, 1), (Ty.c, 2)] := by decide +kernel
  have k_amp : ∀ s : Fin 4 → Fin 2, deed.amp (deed.N c p) (spinOf (s 0)) (spinOf (s 1)) (spinOf (s 2)) (spinOf (s 3)) = deed.scat.ewC c p (deed.scat.angs c p s) (deed.scat.sqrs c p s) 2 1 3 0 := by
    intro s
    have v0 : (deed.N c p).v 0 [spinOf (s 0), spinOf (s 2)] = ab (deed.scat.angs c p s 0) (deed.scat.angs c p s 2) := bra_angle (p := p) (m := deed.proc.massNum (deed.rho c)) rfl rfl (.inl ⟨m0, rfl⟩) (.inl ⟨m2, rfl⟩)
    have v1 : (deed.N c p).v 1 [spinOf (s 0), spinOf (s 2)] = sb (deed.scat.sqrs c p s 0) (deed.scat.sqrs c p s 2) := bra_square (p := p) (m := deed.proc.massNum (deed.rho c)) rfl rfl (.inl ⟨m0, rfl⟩) (.inl ⟨m2, rfl⟩)
    have v2 : (deed.N c p).v 2 [spinOf (s 0), spinOf (s 3)] = ab (deed.scat.angs c p s 0) (deed.scat.angs c p s 3) := bra_angle (p := p) (m := deed.proc.massNum (deed.rho c)) rfl rfl (.inl ⟨m0, rfl⟩) (.inl ⟨m3, rfl⟩)
    have v3 : (deed.N c p).v 3 [spinOf (s 0), spinOf (s 3)] = sb (deed.scat.sqrs c p s 0) (deed.scat.sqrs c p s 3) := bra_square (p := p) (m := deed.proc.massNum (deed.rho c)) rfl rfl (.inl ⟨m0, rfl⟩) (.inl ⟨m3, rfl⟩)
    have v4 : (deed.N c p).v 4 [spinOf (s 1), spinOf (s 2)] = ab (deed.scat.angs c p s 1) (deed.scat.angs c p s 2) := bra_angle (p := p) (m := deed.proc.massNum (deed.rho c)) rfl rfl (.inl ⟨m1, rfl⟩) (.inl ⟨m2, rfl⟩)
    have v5 : (deed.N c p).v 5 [spinOf (s 1), spinOf (s 2)] = sb (deed.scat.sqrs c p s 1) (deed.scat.sqrs c p s 2) := bra_square (p := p) (m := deed.proc.massNum (deed.rho c)) rfl rfl (.inl ⟨m1, rfl⟩) (.inl ⟨m2, rfl⟩)
    have v6 : (deed.N c p).v 6 [spinOf (s 1), spinOf (s 3)] = ab (deed.scat.angs c p s 1) (deed.scat.angs c p s 3) := bra_angle (p := p) (m := deed.proc.massNum (deed.rho c)) rfl rfl (.inl ⟨m1, rfl⟩) (.inl ⟨m3, rfl⟩)
    have v7 : (deed.N c p).v 7 [spinOf (s 1), spinOf (s 3)] = sb (deed.scat.sqrs c p s 1) (deed.scat.sqrs c p s 3) := bra_square (p := p) (m := deed.proc.massNum (deed.rho c)) rfl rfl (.inl ⟨m1, rfl⟩) (.inl ⟨m3, rfl⟩)
    have v8 : (deed.N c p).v 8 [spinOf (s 0), spinOf (s 1)] = sb (deed.scat.sqrs c p s 0) (deed.scat.sqrs c p s 1) := bra_square (p := p) (m := deed.proc.massNum (deed.rho c)) rfl rfl (.inl ⟨m0, rfl⟩) (.inl ⟨m1, rfl⟩)
    have v9 : (deed.N c p).v 9 [spinOf (s 0), spinOf (s 1)] = ab (deed.scat.angs c p s 0) (deed.scat.angs c p s 1) := bra_angle (p := p) (m := deed.proc.massNum (deed.rho c)) rfl rfl (.inl ⟨m0, rfl⟩) (.inl ⟨m1, rfl⟩)
    have v10 : (deed.N c p).v 10 [spinOf (s 2), spinOf (s 3)] = sb (deed.scat.sqrs c p s 2) (deed.scat.sqrs c p s 3) := bra_square (p := p) (m := deed.proc.massNum (deed.rho c)) rfl rfl (.inl ⟨m2, rfl⟩) (.inl ⟨m3, rfl⟩)
    have v11 : (deed.N c p).v 11 [spinOf (s 2), spinOf (s 3)] = ab (deed.scat.angs c p s 2) (deed.scat.angs c p s 3) := bra_angle (p := p) (m := deed.proc.massNum (deed.rho c)) rfl rfl (.inl ⟨m2, rfl⟩) (.inl ⟨m3, rfl⟩)
    rw [ewC_neutral (S := deed.scat) (i := 2) (j := 1) (k := 3) (l := 0) (f := .e) (g := .d) (by decide) (by decide) rfl rfl rfl g2 g1 g3 g0 rfl rfl rfl, deed.amp]
    simp only [r0, r10, r11, r12, r13, r14, r15, r16, c0, c1, c2, v0, v1, v2, v3, v4, v5, v6, v7, v8, v9, v10, v11, jj, ln, lw, Constants.gL, Constants.gR, Flavour.charge_d, Flavour.isospin_d, Flavour.charge_e, Flavour.isospin_e]
    abstract_brackets deed.scat c p s
    push_cast
    ring
  refine ⟨fun n hn => ?_, fun n hn => ?_, ?_⟩
  · simp [hd] at hn
  · simp [hd] at hn
    rcases hn with rfl | rfl | rfl
    · rw [c0]; exact d0
    · rw [c1]; exact d1
    · rw [c2]; exact d2
  show meaning (deed.N c p) .r Cls.deed.methods Cls.deed.amp2 [] = _
  have ss : deed.scat.states = 12 := by decide
  have sy : deed.scat.symmetry = 1 := by decide
  rw [deed.value, mixed_scattering hs h0 hu he ht hf (by decide) (by decide) (by decide), ss, sy, Nat.cast_zero]
  rw [sumJ_four, Finset.sum_div, Finset.sum_div]
  refine Finset.sum_congr rfl fun s _ => ?_
  rw [k_amp]
  try simp only [ewC_none (S := deed.scat) (i := 2) (j := 0) (k := 3) (l := 1) (by decide) (by decide)]
  finish_spins

/-! ### ueeu -/

/-- what the methods of the class see -/
noncomputable abbrev ueeu.N [FPEnv] (c : Constants) (p : Nat → V4 ℝ) : Env := ueeu.proc.env (ueeu.rho c) p
/-- `amp` (SM/ueeu.cpp) -/
noncomputable def ueeu.amp (N : Env) (j1 j2 j3 j4 : Int) : ℂ :=
  (((((((((((-((2 : Nat) : ℝ)) * N.r 0) * N.r 0) * ((2 : Nat) : ℝ)) / ((3 : Nat) : ℝ)) : ℝ) : ℂ) * (((((-N.v 0 [j1, j3]) * N.v 7 [j2, j4]) + (N.v 9 [j1, j2] * N.v 10 [j3, j4])) - (N.v 1 [j1, j3] * N.v 6 [j2, j4])) + (N.v 8 [j1, j2] * N.v 11 [j3, j4]))) / N.c 0) + ((((((-N.r 10) : ℝ) : ℂ) * (N.v 3 [j1, j4] - N.v 2 [j1, j4])) * (N.v 5 [j2, j3] - N.v 4 [j2, j3])) / N.c 1)) + ((((((N.r 16 : ℝ) : ℂ) * (N.v 2 [j1, j4] + N.v 3 [j1, j4])) * (N.v 4 [j2, j3] + N.v 5 [j2, j3])) / N.c 2) + (((((((2 : Nat) : ℝ) * N.r 15) : ℝ) : ℂ) * ((((((((N.r 11 * N.r 13) : ℝ) : ℂ) * N.v 10 [j3, j4]) * N.v 9 [j1, j2]) - (((((N.r 13 * N.r 12) : ℝ) : ℂ) * N.v 1 [j1, j3]) * N.v 6 [j2, j4])) - (((((N.r 11 * N.r 14) : ℝ) : ℂ) * N.v 7 [j2, j4]) * N.v 0 [j1, j3])) + (((((N.r 12 * N.r 14) : ℝ) : ℂ) * N.v 8 [j1, j2]) * N.v 11 [j3, j4]))) / N.c 2)))
set_option maxRecDepth 8000 in
theorem ueeu.amp2_eq (N : Env) (f : Nat → List Int → ℂ) : Cls.ueeu.m_amp2.mean N f .r [] =
    ((sumJ (fun x a => (sumJ (fun x b => (sumJ (fun x c => (sumJ (fun x d => (x + (((3 : Nat) : ℝ) * (‖(f 0 [a, b, c, d])‖ ^ 2)))) x)) x)) x)) ((0 : Nat) : ℝ)) / ((12 : Nat) : ℝ)) := by rfl
set_option maxRecDepth 8000 in
theorem ueeu.value (N : Env) : meaning N .r Cls.ueeu.methods Cls.ueeu.amp2 [] =
    ((sumJ (fun x a => (sumJ (fun x b => (sumJ (fun x c => (sumJ (fun x d => (x + (((3 : Nat) : ℝ) * (‖(ueeu.amp N a b c d)‖ ^ 2)))) x)) x)) x)) ((0 : Nat) : ℝ)) / ((12 : Nat) : ℝ)) :=
  ueeu.amp2_eq N (callMean N [Cls.ueeu.m_amp])

variable [FPEnv] in
theorem ueeu.agrees : ueeu.Agrees := by
  refine agrees_of (D := [5, 6]) (E := [6]) (by simp [all, ueeu]) (by decide +kernel) (by decide) (by decide +kernel) (fun c hc => ⟨List.forall_mem_cons.2 ⟨hc.MW, List.forall_mem_cons.2 ⟨hc.SW, List.forall_mem_nil _⟩⟩, List.forall_mem_cons.2 ⟨hc.SW_lt, List.forall_mem_nil _⟩⟩) (fun c hc i => by fin_cases i <;> rfl) (by decide +kernel) ?_
  intro c p u hc hw h0 hs hb hr hu
  replace hw := hw (by simp [ueeu])
  have he : ueeu.scat.ends = [2, 3] := by decide
  have ht : ueeu.scat.starts = [0, 1] := by decide
  obtain ⟨o1, o2⟩ := regular_two he ht hr
  have hf := ueeu.scat.flows_scattering (by decide) hb
  have ms := ueeu.scat.msq_scattering (by decide) hb
  have r0 : (ueeu.N c p).r 0 = c.e := rfl
  have r10 : (ueeu.N c p).r 10 = ((((c.e * c.e) * (c.mass .u)) * (c.mass .e)) / ((((((4 : Nat) : ℝ) * c.MW) * c.MW) * c.SW) * c.SW)) := rfl
  have r16 : (ueeu.N c p).r 16 = ((((((((c.e * c.e) / ((((((4 : Nat) : ℝ) * √((((1 : Nat) : ℝ) - (c.SW * c.SW)))) * √((((1 : Nat) : ℝ) - (c.SW * c.SW)))) * c.SW) * c.SW)) * ((((1 : Nat) : ℝ) - (((((4 : Nat) : ℝ) / ((3 : Nat) : ℝ)) * c.SW) * c.SW)) - ((((-((4 : Nat) : ℝ)) / ((3 : Nat) : ℝ)) * c.SW) * c.SW))) * (((-((1 : Nat) : ℝ)) + ((((2 : Nat) : ℝ) * c.SW) * c.SW)) - ((((2 : Nat) : ℝ) * c.SW) * c.SW))) * (c.mass .u)) * (c.mass .e)) / (c.MW / √((((1 : Nat) : ℝ) - (c.SW * c.SW))))) / (c.MW / √((((1 : Nat) : ℝ) - (c.SW * c.SW))))) := rfl
  simp only [c.root, c.mz] at r16
  have r15 : (ueeu.N c p).r 15 = ((c.e * c.e) / ((((((4 : Nat) : ℝ) * √((((1 : Nat) : ℝ) - (c.SW * c.SW)))) * √((((1 : Nat) : ℝ) - (c.SW * c.SW)))) * c.SW) * c.SW)) := rfl
  simp only [c.root] at r15
  have r11 : (ueeu.N c p).r 11 = (((1 : Nat) : ℝ) - (((((4 : Nat) : ℝ) / ((3 : Nat) : ℝ)) * c.SW) * c.SW)) := rfl
  have r13 : (ueeu.N c p).r 13 = ((-((1 : Nat) : ℝ)) + ((((2 : Nat) : ℝ) * c.SW) * c.SW)) := rfl
  have r12 : (ueeu.N c p).r 12 = ((((-((4 : Nat) : ℝ)) / ((3 : Nat) : ℝ)) * c.SW) * c.SW) := rfl
  have r14 : (ueeu.N c p).r 14 = ((((2 : Nat) : ℝ) * c.SW) * c.SW) := rfl
  have c0 : (ueeu.N c p).c 0 = poleDist ((0 : Nat) : ℝ) ((0 : Nat) : ℝ) ((VExp.sub 0 3).sum p) := rfl
  rw [Nat.cast_zero, pole_zero (ms.2).symm] at c0
  have c1 : (ueeu.N c p).c 1 = poleDist c.MH c.WH ((VExp.sub 0 3).sum p) := rfl
  rw [pole_congr (ms.2).symm] at c1
  have c2 : (ueeu.N c p).c 2 = poleDist (c.MW / √((((1 : Nat) : ℝ) - (c.SW * c.SW)))) ((0 : Nat) : ℝ) ((VExp.sub 0 3).sum p) := rfl
  rw [c.root, c.mz, Nat.cast_zero, ← hw, pole_congr (ms.2).symm] at c2
  have d0 := o2.photon (by decide) (by show (-1 : ℝ) * (2/3) ≠ 0; norm_num)
  have d1 := o2.higgs (by decide) rfl (hc.massive _ (by decide)) (hc.massive _ (by decide))
  have d2 := o2.z (by decide) rfl
  have m0 : c.mass .u ≠ 0 := (hc.massive _ (by decide)).ne'
  have m1 : c.mass .e ≠ 0 := (hc.massive _ (by decide)).ne'
  have m2 : c.mass .e ≠ 0 := (hc.massive _ (by decide)).ne'
  have m3 : c.mass .u ≠ 0 := (hc.massive _ (by decide)).ne'
  have g0 : ueeu.scat.sgn 0 = 1 := if_neg Bool.false_ne_true
  have g1 : ueeu.scat.sgn 1 = 1 := if_neg Bool.false_ne_true
  have g2 : ueeu.scat.sgn 2 = 1 := if_neg Bool.false_ne_true
  have g3 : ueeu.scat.sgn 3 = 1 := if_neg Bool.false_ne_true
  have nMW := hc.MW
  have nSW := hc.SW
  have xMW : (c.MW : ℂ) ≠ 0 := by exact_mod_cast hc.MW
  have xSW : (c.SW : ℂ) ≠ 0 := by exact_mod_cast hc.SW
  have xCW : (c.CW : ℂ) ≠ 0 := by exact_mod_cast hc.CW
  have hd : ueeu.proc.divides = [(Ty.c, 0), (Ty.c, 1), (Ty.c, 2)] := by decide +kernel
  have k_amp : ∀ s : Fin 4 → Fin 2, ueeu.amp (ueeu.N c p) (spinOf (s 0)) (spinOf (s 1)) (spinOf (s 2)) (spinOf (s 3)) = ueeu.scat.ewC c p (ueeu.scat.angs c p s) (ueeu.scat.sqrs c p s) 2 1 3 0 := by
    intro s
    have v0 : (ueeu.N c p).v 0 [spinOf (s 0), spinOf (s 2)] = ab (ueeu.scat.angs c p s 0) (ueeu.scat.angs c p s 2) := bra_angle (p := p) (m := ueeu.proc.massNum (ueeu.rho c)) rfl rfl (.inl ⟨m0, rfl⟩) (.inl ⟨m2, rfl⟩)
    have v1 : (ueeu.N c p).v 1 [spinOf (s 0), spinOf (s 2)] = sb (ueeu.scat.sqrs c p s 0) (ueeu.scat.sqrs c p s 2) := bra_square (p := p) (m := ueeu.proc.massNum (ueeu.rho c)) rfl rfl (.inl ⟨m0, rfl⟩) (.inl ⟨m2, rfl⟩)
    have v2 : (ueeu.N c p).v 2 [spinOf (s 0), spinOf (s 3)] = ab (ueeu.scat.angs c p s 0) (ueeu.scat.angs c p s 3) := bra_angle (p := p) (m := ueeu.proc.massNum (ueeu.rho c)) rfl rfl (.inl ⟨m0, rfl⟩) (.inl ⟨m3, rfl⟩)
    have v3 : (ueeu.N c p).v 3 [spinOf (s 0), spinOf (s 3)] = sb (ueeu.scat.sqrs c p s 0) (ueeu.scat.sqrs c p s 3) := bra_square (p := p) (m := ueeu.proc.massNum (ueeu.rho c)) rfl rfl (.inl ⟨m0, rfl⟩) (.inl ⟨m3, rfl⟩)
    have v4 : (ueeu.N c p).v 4 [spinOf (s 1), spinOf (s 2)] = ab (ueeu.scat.angs c p s 1) (ueeu.scat.angs c p s 2) := bra_angle (p := p) (m := ueeu.proc.massNum (ueeu.rho c)) rfl rfl (.inl ⟨m1, rfl⟩) (.inl ⟨m2, rfl⟩)
    have v5 : (ueeu.N c p).v 5 [spinOf (s 1), spinOf (s 2)] = sb (ueeu.scat.sqrs c p s 1) (ueeu.scat.sqrs c p s 2) := bra_square (p := p) (m := ueeu.proc.massNum (ueeu.rho c)) rfl rfl (.inl ⟨m1, rfl⟩) (.inl ⟨m2, rfl⟩)
    have v6 : (ueeu.N c p).v 6 [spinOf (s 1), spinOf (s 3)] = ab (ueeu.scat.angs c p s 1) (ueeu.scat.angs c p s 3) := bra_angle (p := p) (m := ueeu.proc.massNum (ueeu.rho c)) rfl rfl (.inl ⟨m1, rfl⟩) (.inl ⟨m3, rfl⟩)
    have v7 : (ueeu.N c p).v 7 [spinOf (s 1), spinOf (s 3)] = sb (ueeu.scat.sqrs c p s 1) (ueeu.scat.sqrs c p s 3) := bra_square (p := p) (m := ueeu.proc.massNum (ueeu.rho c)) rfl rfl (.inl ⟨m1, rfl⟩) (.inl ⟨m3, rfl⟩)
    have v8 : (ueeu.N c p).v 8 [spinOf (s 0), spinOf (s 1)] = sb (ueeu.scat.sqrs c p s 0) (ueeu.scat.sqrs c p s 1) := bra_square (p := p) (m := ueeu.proc.massNum (ueeu.rho c)) rfl rfl (.inl ⟨m0, rfl⟩) (.inl ⟨m1, rfl⟩)
    have v9 : (ueeu.N c p).v 9 [spinOf (s 0), spinOf (s 1)] = ab (ueeu.scat.angs c p s 0) (ueeu.scat.angs c p s 1) := bra_angle (p := p) (m := ueeu.proc.massNum (ueeu.rho c)) rfl rfl (.inl ⟨m0, rfl⟩) (.inl ⟨m1, rfl⟩)
    have v10 : (ueeu.N c p).v 10 [spinOf (s 2), spinOf (s 3)] = sb (ueeu.scat.sqrs c p s 2) (ueeu.scat.sqrs c p s 3) := bra_square (p := p) (m := ueeu.proc.massNum (ueeu.rho c)) rfl rfl (.inl ⟨m2, rfl⟩) (.inl ⟨m3, rfl⟩)
    have v11 : (ueeu.N c p).v 11 [spinOf (s 2), spinOf (s 3)] = ab (ueeu.scat.angs c p s 2) (ueeu.scat.angs c p s 3) := bra_angle (p := p) (m := ueeu.proc.massNum (ueeu.rho c)) rfl rfl (.inl ⟨m2, rfl⟩) (.inl ⟨m3, rfl⟩)
    rw [ewC_neutral (S := ueeu.scat) (i := 2) (j := 1) (k := 3) (l := 0) (f := .e) (g := .u) (by decide) (by decide) rfl rfl rfl g2 g1 g3 g0 rfl rfl rfl, ueeu.amp]
    simp only [r0, r10, r11, r12, r13, r14, r15, r16, c0, c1, c2, v0, v1, v2, v3, v4, v5, v6, v7, v8, v9, v10, v11, jj, ln, lw, Constants.gL, Constants.gR, Flavour.charge_e, Flavour.isospin_e, Flavour.charge_u, Flavour.isospin_u]
    abstract_brackets ueeu.scat c p s
    push_cast
    ring
  refine ⟨fun n hn => ?_, fun n hn => ?_, ?_⟩
  · simp [hd] at hn
  · simp [hd] at hn
    rcases hn with rfl | rfl | rfl
    · rw [c0]; exact d0
    · rw [c1]; exact d1
    · rw [c2]; exact d2
  show meaning (ueeu.N c p) .r Cls.ueeu.methods Cls.ueeu.amp2 [] = _
  have ss : ueeu.scat.states = 12 := by decide
  have sy : ueeu.scat.symmetry = 1 := by decide
  rw [ueeu.value, mixed_scattering hs h0 hu he ht hf (by decide) (by decide) (by decide), ss, sy, Nat.cast_zero]
  rw [sumJ_four, Finset.sum_div, Finset.sum_div]
  refine Finset.sum_congr rfl fun s _ => ?_
  rw [k_amp]
  try simp only [ewC_none (S := ueeu.scat) (i := 2) (j := 0) (k := 3) (l := 1) (by decide) (by decide)]
  finish_spins

/-! ### ddnn -/

/-- what the methods of the class see -/
noncomputable abbrev ddnn.N [FPEnv] (c : Constants) (p : Nat → V4 ℝ) : Env := ddnn.proc.env (ddnn.rho c) p
/-- `amp` (SM/ddnn.cpp) -/
noncomputable def ddnn.amp (N : Env) (j1 j2 : Int) : ℂ :=
  (((((0 : Nat) : ℝ) : ℝ) : ℂ) + (((((((2 : Nat) : ℝ) * N.r 12) : ℝ) : ℂ) * ((((((N.r 8 * N.r 10) : ℝ) : ℂ) * N.v 0 [j2]) * N.v 1 [j1]) + (((((N.r 10 * N.r 9) : ℝ) : ℂ) * N.v 2 [j1]) * N.v 3 [j2]))) / N.c 0))
set_option maxRecDepth 8000 in
theorem ddnn.amp2_eq (N : Env) (f : Nat → List Int → ℂ) : Cls.ddnn.m_amp2.mean N f .r [] =
    ((sumJ (fun x a => (sumJ (fun x b => (x + (((3 : Nat) : ℝ) * (‖(f 0 [a, b])‖ ^ 2)))) x)) ((0 : Nat) : ℝ)) / ((36 : Nat) : ℝ)) := by rfl
set_option maxRecDepth 8000 in
theorem ddnn.value (N : Env) : meaning N .r Cls.ddnn.methods Cls.ddnn.amp2 [] =
    ((sumJ (fun x a => (sumJ (fun x b => (x + (((3 : Nat) : ℝ) * (‖(ddnn.amp N a b)‖ ^ 2)))) x)) ((0 : Nat) : ℝ)) / ((36 : Nat) : ℝ)) :=
  ddnn.amp2_eq N (callMean N [Cls.ddnn.m_amp])

variable [FPEnv] in
theorem ddnn.agrees : ddnn.Agrees := by
  refine agrees_of (D := [2, 3]) (E := [3]) (by simp [all, ddnn]) (by decide +kernel) (by decide) (by decide +kernel) (fun c hc => ⟨List.forall_mem_cons.2 ⟨hc.MW, List.forall_mem_cons.2 ⟨hc.SW, List.forall_mem_nil _⟩⟩, List.forall_mem_cons.2 ⟨hc.SW_lt, List.forall_mem_nil _⟩⟩) (fun c hc i => by fin_cases i <;> first | rfl | exact Nat.cast_zero.trans (hc.neutrino _).symm) (by decide +kernel) ?_
  intro c p u hc hw h0 hs hb hr hu
  replace hw := hw (by simp [ddnn])
  have he : ddnn.scat.ends = [1, 2] := by decide
  have ht : ddnn.scat.starts = [0, 3] := by decide
  obtain ⟨o1, o2⟩ := regular_two he ht hr
  have hf := ddnn.scat.flows_annihilation (by decide) hb
  have ms := ddnn.scat.msq_annihilation (by decide) hb
  have r12 : (ddnn.N c p).r 12 = ((c.e * c.e) / ((((((4 : Nat) : ℝ) * √((((1 : Nat) : ℝ) - (c.SW * c.SW)))) * √((((1 : Nat) : ℝ) - (c.SW * c.SW)))) * c.SW) * c.SW)) := rfl
  simp only [c.root] at r12
  have r8 : (ddnn.N c p).r 8 = ((-((1 : Nat) : ℝ)) + (((((2 : Nat) : ℝ) / ((3 : Nat) : ℝ)) * c.SW) * c.SW)) := rfl
  have r10 : (ddnn.N c p).r 10 = ((1 : Nat) : ℝ) := rfl
  have r9 : (ddnn.N c p).r 9 = (((((2 : Nat) : ℝ) / ((3 : Nat) : ℝ)) * c.SW) * c.SW) := rfl
  have c0 : (ddnn.N c p).c 0 = poleDist (c.MW / √((((1 : Nat) : ℝ) - (c.SW * c.SW)))) ((0 : Nat) : ℝ) ((VExp.add 0 1).sum p) := rfl
  rw [c.root, c.mz, Nat.cast_zero, ← hw, pole_congr (ms.1).symm] at c0
  have d0 := o1.z (by decide) rfl
  have m0 : c.mass .d ≠ 0 := (hc.massive _ (by decide)).ne'
  have m1 : c.mass .d ≠ 0 := (hc.massive _ (by decide)).ne'
  have m2 : c.mass .ne = 0 := hc.neutrino _
  have n2 : ddnn.proc.massNum (ddnn.rho c) 2 = c.mass .ne := Nat.cast_zero.trans m2.symm
  have m3 : c.mass .ne = 0 := hc.neutrino _
  have n3 : ddnn.proc.massNum (ddnn.rho c) 3 = c.mass .ne := Nat.cast_zero.trans m3.symm
  have g0 : ddnn.scat.sgn 0 = 1 := if_neg Bool.false_ne_true
  have g1 : ddnn.scat.sgn 1 = -1 := if_pos rfl
  have g2 : ddnn.scat.sgn 2 = 1 := if_neg Bool.false_ne_true
  have g3 : ddnn.scat.sgn 3 = -1 := if_pos rfl
  have nMW := hc.MW
  have nSW := hc.SW
  have xMW : (c.MW : ℂ) ≠ 0 := by exact_mod_cast hc.MW
  have xSW : (c.SW : ℂ) ≠ 0 := by exact_mod_cast hc.SW
  have xCW : (c.CW : ℂ) ≠ 0 := by exact_mod_cast hc.CW
  have hd : ddnn.proc.divides = [(Ty.c, 0)] := by decide +kernel
  have k_amp : ∀ s : Fin 4 → Fin 2, s 2 = 1 → s 3 = 0 → ddnn.amp (ddnn.N c p) (spinOf (s 0)) (spinOf (s 1)) = ddnn.scat.ewC c p (ddnn.scat.angs c p s) (ddnn.scat.sqrs c p s) 1 0 2 3 := by
    intro s f2 f3
    have v0 : (ddnn.N c p).v 0 [spinOf (s 1)] = sb (ddnn.scat.sqrs c p s 1) (ddnn.scat.sqrs c p s 2) := bra_square (p := p) (m := ddnn.proc.massNum (ddnn.rho c)) rfl n2 (.inl ⟨m1, rfl⟩) (.inr ⟨m2, f2⟩)
    have v1 : (ddnn.N c p).v 1 [spinOf (s 0)] = ab (ddnn.scat.angs c p s 0) (ddnn.scat.angs c p s 3) := bra_angle (p := p) (m := ddnn.proc.massNum (ddnn.rho c)) rfl n3 (.inl ⟨m0, rfl⟩) (.inr ⟨m3, f3⟩)
    have v2 : (ddnn.N c p).v 2 [spinOf (s 0)] = sb (ddnn.scat.sqrs c p s 0) (ddnn.scat.sqrs c p s 2) := bra_square (p := p) (m := ddnn.proc.massNum (ddnn.rho c)) rfl n2 (.inl ⟨m0, rfl⟩) (.inr ⟨m2, f2⟩)
    have v3 : (ddnn.N c p).v 3 [spinOf (s 1)] = ab (ddnn.scat.angs c p s 1) (ddnn.scat.angs c p s 3) := bra_angle (p := p) (m := ddnn.proc.massNum (ddnn.rho c)) rfl n3 (.inl ⟨m1, rfl⟩) (.inr ⟨m3, f3⟩)
    rw [ewC_neutral (S := ddnn.scat) (i := 1) (j := 0) (k := 2) (l := 3) (f := .d) (g := .ne) (by decide) (by decide) rfl rfl rfl g1 g0 g2 g3 rfl rfl rfl, ddnn.amp]
    simp only [r8, r9, r10, r12, c0, v0, v1, v2, v3, jj, ln, lw, Constants.gL, Constants.gR, Flavour.charge_d, Flavour.isospin_d, Flavour.charge_ne, Flavour.isospin_ne, m2, m3]
    abstract_brackets ddnn.scat c p s
    push_cast
    ring
  refine ⟨fun n hn => ?_, fun n hn => ?_, ?_⟩
  · simp [hd] at hn
  · simp [hd] at hn
    rcases hn with rfl
    · rw [c0]; exact d0
  show meaning (ddnn.N c p) .r Cls.ddnn.methods Cls.ddnn.amp2 [] = _
  have ss : ddnn.scat.states = 36 := by decide
  have sy : ddnn.scat.symmetry = 1 := by decide
  rw [ddnn.value, mixed_annihilation hs h0 hu he ht hf (by decide) (by decide) (by decide), ss, sy, Nat.cast_zero]
  have z2 : ∀ w x z : Fin 2, ddnn.scat.ewC c p (ddnn.scat.angs c p ![w, x, 0, z]) (ddnn.scat.sqrs c p ![w, x, 0, z]) 1 0 2 3 = 0 := fun w x z => ewC_neutrino 2 rfl m2 (.inl ⟨by decide, legS_zero m2 rfl⟩)
  have z3 : ∀ w x y : Fin 2, ddnn.scat.ewC c p (ddnn.scat.angs c p ![w, x, y, 1]) (ddnn.scat.sqrs c p ![w, x, y, 1]) 1 0 2 3 = 0 := fun w x y => ewC_neutrino 3 rfl m3 (.inr ⟨by decide, legA_zero m3 rfl⟩)
  have k := fun w x : Fin 2 => k_amp ![w, x, 1, 0] rfl rfl
  rw [sumJ_two]
  rw [sum_quad]
  try simp only [Matrix.cons_val] at k
  simp only [Fin.sum_univ_two, k, z2, z3, ewC_none (S := ddnn.scat) (i := 1) (j := 3) (k := 2) (l := 0) (by decide) (by decide)]
  finish_spins

/-! ### uunn -/

/-- what the methods of the class see -/
noncomputable abbrev uunn.N [FPEnv] (c : Constants) (p : Nat → V4 ℝ) : Env := uunn.proc.env (uunn.rho c) p
/-- `amp` (SM/uunn.cpp) -/
noncomputable def uunn.amp (N : Env) (j1 j2 : Int) : ℂ :=
  (((((0 : Nat) : ℝ) : ℝ) : ℂ) + (((((((2 : Nat) : ℝ) * N.r 12) : ℝ) : ℂ) * ((((((N.r 8 * N.r 10) : ℝ) : ℂ) * N.v 5 [j2]) * N.v 2 [j1]) + (((((N.r 10 * N.r 9) : ℝ) : ℂ) * N.v 1 [j1]) * N.v 6 [j2]))) / N.c 0))
set_option maxRecDepth 8000 in
theorem uunn.amp2_eq (N : Env) (f : Nat → List Int → ℂ) : Cls.uunn.m_amp2.mean N f .r [] =
    ((sumJ (fun x a => (sumJ (fun x b => (x + (((3 : Nat) : ℝ) * (‖(f 0 [a, b])‖ ^ 2)))) x)) ((0 : Nat) : ℝ)) / ((36 : Nat) : ℝ)) := by rfl
set_option maxRecDepth 8000 in
theorem uunn.value (N : Env) : meaning N .r Cls.uunn.methods Cls.uunn.amp2 [] =
    ((sumJ (fun x a => (sumJ (fun x b => (x + (((3 : Nat) : ℝ) * (‖(uunn.amp N a b)‖ ^ 2)))) x)) ((0 : Nat) : ℝ)) / ((36 : Nat) : ℝ)) :=
  uunn.amp2_eq N (callMean N [Cls.uunn.m_amp])

variable [FPEnv] in
theorem uunn.agrees : uunn.Agrees := by
  refine agrees_of (D := [2, 3]) (E := [3]) (by simp [all, uunn]) (by decide +kernel) (by decide) (by decide +kernel) (fun c hc => ⟨List.forall_mem_cons.2 ⟨hc.MW, List.forall_mem_cons.2 ⟨hc.SW, List.forall_mem_nil _⟩⟩, List.forall_mem_cons.2 ⟨hc.SW_lt, List.forall_mem_nil _⟩⟩) (fun c hc i => by fin_cases i <;> first | rfl | exact Nat.cast_zero.trans (hc.neutrino _).symm) (by decide +kernel) ?_
  intro c p u hc hw h0 hs hb hr hu
  replace hw := hw (by simp [uunn])
  have he : uunn.scat.ends = [1, 2] := by decide
  have ht : uunn.scat.starts = [0, 3] := by decide
  obtain ⟨o1, o2⟩ := regular_two he ht hr
  have hf := uunn.scat.flows_annihilation (by decide) hb
  have ms := uunn.scat.msq_annihilation (by decide) hb
  have r12 : (uunn.N c p).r 12 = ((c.e * c.e) / ((((((4 : Nat) : ℝ) * √((((1 : Nat) : ℝ) - (c.SW * c.SW)))) * √((((1 : Nat) : ℝ) - (c.SW * c.SW)))) * c.SW) * c.SW)) := rfl
  simp only [c.root] at r12
  have r8 : (uunn.N c p).r 8 = (((1 : Nat) : ℝ) - (((((4 : Nat) : ℝ) / ((3 : Nat) : ℝ)) * c.SW) * c.SW)) := rfl
  have r10 : (uunn.N c p).r 10 = ((1 : Nat) : ℝ) := rfl
  have r9 : (uunn.N c p).r 9 = ((((-((4 : Nat) : ℝ)) / ((3 : Nat) : ℝ)) * c.SW) * c.SW) := rfl
  have c0 : (uunn.N c p).c 0 = poleDist (c.MW / √((((1 : Nat) : ℝ) - (c.SW * c.SW)))) ((0 : Nat) : ℝ) ((VExp.add 0 1).sum p) := rfl
  rw [c.root, c.mz, Nat.cast_zero, ← hw, pole_congr (ms.1).symm] at c0
  have d0 := o1.z (by decide) rfl
  have m0 : c.mass .u ≠ 0 := (hc.massive _ (by decide)).ne'
  have m1 : c.mass .u ≠ 0 := (hc.massive _ (by decide)).ne'
  have m2 : c.mass .ne = 0 := hc.neutrino _
  have n2 : uunn.proc.massNum (uunn.rho c) 2 = c.mass .ne := Nat.cast_zero.trans m2.symm
  have m3 : c.mass .ne = 0 := hc.neutrino _
  have n3 : uunn.proc.massNum (uunn.rho c) 3 = c.mass .ne := Nat.cast_zero.trans m3.symm
  have g0 : uunn.scat.sgn 0 = 1 := if_neg Bool.false_ne_true
  have g1 : uunn.scat.sgn 1 = -1 := if_pos rfl
  have g2 : uunn.scat.sgn 2 = 1 := if_neg Bool.false_ne_true
  have g3 : uunn.scat.sgn 3 = -1 := if_pos rfl
  have nMW := hc.MW
  have nSW := hc.SW
  have xMW : (c.MW : ℂ) ≠ 0 := by exact_mod_cast hc.MW
  have xSW : (c.SW : ℂ) ≠ 0 := by exact_mod_cast hc.SW
  have xCW : (c.CW : ℂ) ≠ 0 := by exact_mod_cast hc.CW
  have hd : uunn.proc.divides = [(Ty.c, 0)] := by decide +kernel
  have k_amp : ∀ s : Fin 4 → Fin 2, s 2 = 1 → s 3 = 0 → uunn.amp (uunn.N c p) (spinOf (s 0)) (spinOf (s 1)) = uunn.scat.ewC c p (uunn.scat.angs c p s) (uunn.scat.sqrs c p s) 1 0 2 3 := by
    intro s f2 f3
    have v1 : (uunn.N c p).v 1 [spinOf (s 0)] = sb (uunn.scat.sqrs c p s 0) (uunn.scat.sqrs c p s 2) := bra_square (p := p) (m := uunn.proc.massNum (uunn.rho c)) rfl n2 (.inl ⟨m0, rfl⟩) (.inr ⟨m2, f2⟩)
    have v2 : (uunn.N c p).v 2 [spinOf (s 0)] = ab (uunn.scat.angs c p s 0) (uunn.scat.angs c p s 3) := bra_angle (p := p) (m := uunn.proc.massNum (uunn.rho c)) rfl n3 (.inl ⟨m0, rfl⟩) (.inr ⟨m3, f3⟩)
    have v5 : (uunn.N c p).v 5 [spinOf (s 1)] = sb (uunn.scat.sqrs c p s 1) (uunn.scat.sqrs c p s 2) := bra_square (p := p) (m := uunn.proc.massNum (uunn.rho c)) rfl n2 (.inl ⟨m1, rfl⟩) (.inr ⟨m2, f2⟩)
    have v6 : (uunn.N c p).v 6 [spinOf (s 1)] = ab (uunn.scat.angs c p s 1) (uunn.scat.angs c p s 3) := bra_angle (p := p) (m := uunn.proc.massNum (uunn.rho c)) rfl n3 (.inl ⟨m1, rfl⟩) (.inr ⟨m3, f3⟩)
    rw [ewC_neutral (S := uunn.scat) (i := 1) (j := 0) (k := 2) (l := 3) (f := .u) (g := .ne) (by decide) (by decide) rfl rfl rfl g1 g0 g2 g3 rfl rfl rfl, uunn.amp]
    simp only [r8, r9, r10, r12, c0, v1, v2, v5, v6, jj, ln, lw, Constants.gL, Constants.gR, Flavour.charge_ne, Flavour.isospin_ne, Flavour.charge_u, Flavour.isospin_u, m2, m3]
    abstract_brackets uunn.scat c p s
    push_cast
    ring
  refine ⟨fun n hn => ?_, fun n hn => ?_, ?_⟩
  · simp [hd] at hn
  · simp [hd] at hn
    rcases hn with rfl
    · rw [c0]; exact d0
  show meaning (uunn.N c p) .r Cls.uunn.methods Cls.uunn.amp2 [] = _
  have ss : uunn.scat.states = 36 := by decide
  have sy : uunn.scat.symmetry = 1 := by decide
  rw [uunn.value, mixed_annihilation hs h0 hu he ht hf (by decide) (by decide) (by decide), ss, sy, Nat.cast_zero]
  have z2 : ∀ w x z : Fin 2, uunn.scat.ewC c p (uunn.scat.angs c p ![w, x, 0, z]) (uunn.scat.sqrs c p ![w, x, 0, z]) 1 0 2 3 = 0 := fun w x z => ewC_neutrino 2 rfl m2 (.inl ⟨by decide, legS_zero m2 rfl⟩)
  have z3 : ∀ w x y : Fin 2, uunn.scat.ewC c p (uunn.scat.angs c p ![w, x, y, 1]) (uunn.scat.sqrs c p ![w, x, y, 1]) 1 0 2 3 = 0 := fun w x y => ewC_neutrino 3 rfl m3 (.inr ⟨by decide, legA_zero m3 rfl⟩)
  have k := fun w x : Fin 2 => k_amp ![w, x, 1, 0] rfl rfl
  rw [sumJ_two]
  rw [sum_quad]
  try simp only [Matrix.cons_val] at k
  simp only [Fin.sum_univ_two, k, z2, z3, ewC_none (S := uunn.scat) (i := 1) (j := 3) (k := 2) (l := 0) (by decide) (by decide)]
  finish_spins

/-! ### dnnd -/

/-- what the methods of the class see -/
noncomputable abbrev dnnd.N [FPEnv] (c : Constants) (p : Nat → V4 ℝ) : Env := dnnd.proc.env (dnnd.rho c) p
/-- `amp` (SM/dnnd.cpp) -/
noncomputable def dnnd.amp (N : Env) (j1 j4 : Int) : ℂ :=
  (((((0 : Nat) : ℝ) : ℝ) : ℂ) + ((((((((2 : Nat) : ℝ) * N.r 12) * N.r 10) : ℝ) : ℂ) * (((((N.r 8 : ℝ) : ℂ) * N.v 0 [j4]) * N.v 1 [j1]) - ((((N.r 9 : ℝ) : ℂ) * N.v 2 [j1]) * N.v 3 [j4]))) / N.c 0))
set_option maxRecDepth 8000 in
theorem dnnd.amp2_eq (N : Env) (f : Nat → List Int → ℂ) : Cls.dnnd.m_amp2.mean N f .r [] =
    ((sumJ (fun x a => (sumJ (fun x b => (x + (((3 : Nat) : ℝ) * (‖(f 0 [a, b])‖ ^ 2)))) x)) ((0 : Nat) : ℝ)) / ((6 : Nat) : ℝ)) := by rfl
set_option maxRecDepth 8000 in
theorem dnnd.value (N : Env) : meaning N .r Cls.dnnd.methods Cls.dnnd.amp2 [] =
    ((sumJ (fun x a => (sumJ (fun x b => (x + (((3 : Nat) : ℝ) * (‖(dnnd.amp N a b)‖ ^ 2)))) x)) ((0 : Nat) : ℝ)) / ((6 : Nat) : ℝ)) :=
  dnnd.amp2_eq N (callMean N [Cls.dnnd.m_amp])

variable [FPEnv] in
theorem dnnd.agrees : dnnd.Agrees := by
  refine agrees_of (D := [2, 3]) (E := [3]) (by simp [all, dnnd]) (by decide +kernel) (by decide) (by decide +kernel) (fun c hc => ⟨List.forall_mem_cons.2 ⟨hc.MW, List.forall_mem_cons.2 ⟨hc.SW, List.forall_mem_nil _⟩⟩, List.forall_mem_cons.2 ⟨hc.SW_lt, List.forall_mem_nil _⟩⟩) (fun c hc i => by fin_cases i <;> first | rfl | exact Nat.cast_zero.trans (hc.neutrino _).symm) (by decide +kernel) ?_
  intro c p u hc hw h0 hs hb hr hu
  replace hw := hw (by simp [dnnd])
  have he : dnnd.scat.ends = [2, 3] := by decide
  have ht : dnnd.scat.starts = [0, 1] := by decide
  obtain ⟨o1, o2⟩ := regular_two he ht hr
  have hf := dnnd.scat.flows_scattering (by decide) hb
  have ms := dnnd.scat.msq_scattering (by decide) hb
  have r12 : (dnnd.N c p).r 12 = ((c.e * c.e) / ((((((4 : Nat) : ℝ) * √((((1 : Nat) : ℝ) - (c.SW * c.SW)))) * √((((1 : Nat) : ℝ) - (c.SW * c.SW)))) * c.SW) * c.SW)) := rfl
  simp only [c.root] at r12
  have r10 : (dnnd.N c p).r 10 = ((1 : Nat) : ℝ) := rfl
  have r8 : (dnnd.N c p).r 8 = ((-((1 : Nat) : ℝ)) + (((((2 : Nat) : ℝ) / ((3 : Nat) : ℝ)) * c.SW) * c.SW)) := rfl
  have r9 : (dnnd.N c p).r 9 = (((((2 : Nat) : ℝ) / ((3 : Nat) : ℝ)) * c.SW) * c.SW) := rfl
  have c0 : (dnnd.N c p).c 0 = poleDist (c.MW / √((((1 : Nat) : ℝ) - (c.SW * c.SW)))) ((0 : Nat) : ℝ) ((VExp.sub 0 3).sum p) := rfl
  rw [c.root, c.mz, Nat.cast_zero, ← hw, pole_congr (ms.2).symm] at c0
  have d0 := o2.z (by decide) rfl
  have m0 : c.mass .d ≠ 0 := (hc.massive _ (by decide)).ne'
  have m1 : c.mass .ne = 0 := hc.neutrino _
  have n1 : dnnd.proc.massNum (dnnd.rho c) 1 = c.mass .ne := Nat.cast_zero.trans m1.symm
  have m2 : c.mass .ne = 0 := hc.neutrino _
  have n2 : dnnd.proc.massNum (dnnd.rho c) 2 = c.mass .ne := Nat.cast_zero.trans m2.symm
  have m3 : c.mass .d ≠ 0 := (hc.massive _ (by decide)).ne'
  have g0 : dnnd.scat.sgn 0 = 1 := if_neg Bool.false_ne_true
  have g1 : dnnd.scat.sgn 1 = 1 := if_neg Bool.false_ne_true
  have g2 : dnnd.scat.sgn 2 = 1 := if_neg Bool.false_ne_true
  have g3 : dnnd.scat.sgn 3 = 1 := if_neg Bool.false_ne_true
  have nMW := hc.MW
  have nSW := hc.SW
  have xMW : (c.MW : ℂ) ≠ 0 := by exact_mod_cast hc.MW
  have xSW : (c.SW : ℂ) ≠ 0 := by exact_mod_cast hc.SW
  have xCW : (c.CW : ℂ) ≠ 0 := by exact_mod_cast hc.CW
  have hd : dnnd.proc.divides = [(Ty.c, 0)] := by decide +kernel
  have k_amp : ∀ s : Fin 4 → Fin 2, s 1 = 0 → s 2 = 1 → dnnd.amp (dnnd.N c p) (spinOf (s 0)) (spinOf (s 3)) = dnnd.scat.ewC c p (dnnd.scat.angs c p s) (dnnd.scat.sqrs c p s) 2 1 3 0 := by
    intro s f1 f2
    have v0 : (dnnd.N c p).v 0 [spinOf (s 3)] = sb (dnnd.scat.sqrs c p s 2) (dnnd.scat.sqrs c p s 3) := bra_square (p := p) (m := dnnd.proc.massNum (dnnd.rho c)) n2 rfl (.inr ⟨m2, f2⟩) (.inl ⟨m3, rfl⟩)
    have v1 : (dnnd.N c p).v 1 [spinOf (s 0)] = ab (dnnd.scat.angs c p s 0) (dnnd.scat.angs c p s 1) := bra_angle (p := p) (m := dnnd.proc.massNum (dnnd.rho c)) rfl n1 (.inl ⟨m0, rfl⟩) (.inr ⟨m1, f1⟩)
    have v2 : (dnnd.N c p).v 2 [spinOf (s 0)] = sb (dnnd.scat.sqrs c p s 0) (dnnd.scat.sqrs c p s 2) := bra_square (p := p) (m := dnnd.proc.massNum (dnnd.rho c)) rfl n2 (.inl ⟨m0, rfl⟩) (.inr ⟨m2, f2⟩)
    have v3 : (dnnd.N c p).v 3 [spinOf (s 3)] = ab (dnnd.scat.angs c p s 1) (dnnd.scat.angs c p s 3) := bra_angle (p := p) (m := dnnd.proc.massNum (dnnd.rho c)) n1 rfl (.inr ⟨m1, f1⟩) (.inl ⟨m3, rfl⟩)
    rw [ewC_neutral (S := dnnd.scat) (i := 2) (j := 1) (k := 3) (l := 0) (f := .ne) (g := .d) (by decide) (by decide) rfl rfl rfl g2 g1 g3 g0 rfl rfl rfl, dnnd.amp]
    simp only [r8, r9, r10, r12, c0, v0, v1, v2, v3, jj, ln, lw, Constants.gL, Constants.gR, Flavour.charge_d, Flavour.isospin_d, Flavour.charge_ne, Flavour.isospin_ne, m1, m2]
    abstract_brackets dnnd.scat c p s
    push_cast
    ring
  refine ⟨fun n hn => ?_, fun n hn => ?_, ?_⟩
  · simp [hd] at hn
  · simp [hd] at hn
    rcases hn with rfl
    · rw [c0]; exact d0
  show meaning (dnnd.N c p) .r Cls.dnnd.methods Cls.dnnd.amp2 [] = _
  have ss : dnnd.scat.states = 6 := by decide
  have sy : dnnd.scat.symmetry = 1 := by decide
  rw [dnnd.value, mixed_scattering hs h0 hu he ht hf (by decide) (by decide) (by decide), ss, sy, Nat.cast_zero]
  have z1' : ∀ w y z : Fin 2, dnnd.scat.ewC c p (dnnd.scat.angs c p ![w, 1, y, z]) (dnnd.scat.sqrs c p ![w, 1, y, z]) 2 1 3 0 = 0 := fun w y z => ewC_neutrino 1 rfl m1 (.inr ⟨by decide, legA_zero m1 rfl⟩)
  have z2' : ∀ w x z : Fin 2, dnnd.scat.ewC c p (dnnd.scat.angs c p ![w, x, 0, z]) (dnnd.scat.sqrs c p ![w, x, 0, z]) 2 1 3 0 = 0 := fun w x z => ewC_neutrino 2 rfl m2 (.inl ⟨by decide, legS_zero m2 rfl⟩)
  have k := fun w z : Fin 2 => k_amp ![w, 0, 1, z] rfl rfl
  rw [sumJ_two]
  rw [sum_quad]
  try simp only [Matrix.cons_val] at k
  simp only [Fin.sum_univ_two, k, z1', z2', ewC_none (S := dnnd.scat) (i := 2) (j := 0) (k := 3) (l := 1) (by decide) (by decide)]
  finish_spins

/-! ### unnu -/

/-- what the methods of the class see -/
noncomputable abbrev unnu.N [FPEnv] (c : Constants) (p : Nat → V4 ℝ) : Env := unnu.proc.env (unnu.rho c) p
/-- `amp` (SM/unnu.cpp) -/
noncomputable def unnu.amp (N : Env) (j1 j4 : Int) : ℂ :=
  (((((0 : Nat) : ℝ) : ℝ) : ℂ) + (((((((2 : Nat) : ℝ) * N.r 12) : ℝ) : ℂ) * ((((((N.r 8 * N.r 10) : ℝ) : ℂ) * N.v 10 [j4]) * N.v 9 [j1]) - (((((N.r 10 * N.r 9) : ℝ) : ℂ) * N.v 1 [j1]) * N.v 6 [j4]))) / N.c 0))
set_option maxRecDepth 8000 in
theorem unnu.amp2_eq (N : Env) (f : Nat → List Int → ℂ) : Cls.unnu.m_amp2.mean N f .r [] =
    ((sumJ (fun x a => (sumJ (fun x b => (x + (((3 : Nat) : ℝ) * (‖(f 0 [a, b])‖ ^ 2)))) x)) ((0 : Nat) : ℝ)) / ((6 : Nat) : ℝ)) := by rfl
set_option maxRecDepth 8000 in
theorem unnu.value (N : Env) : meaning N .r Cls.unnu.methods Cls.unnu.amp2 [] =
    ((sumJ (fun x a => (sumJ (fun x b => (x + (((3 : Nat) : ℝ) * (‖(unnu.amp N a b)‖ ^ 2)))) x)) ((0 : Nat) : ℝ)) / ((6 : Nat) : ℝ)) :=
  unnu.amp2_eq N (callMean N [Cls.unnu.m_amp])

variable [FPEnv] in
theorem unnu.agrees : unnu.Agrees := by
  refine agrees_of (D := [2, 3]) (E := [3]) (by simp [all, unnu]) (by decide +kernel) (by decide) (by decide +kernel) (fun c hc => ⟨List.forall_mem_cons.2 ⟨hc.MW, List.forall_mem_cons.2 ⟨hc.SW, List.forall_mem_nil _⟩⟩, List.forall_mem_cons.2 ⟨hc.SW_lt, List.forall_mem_nil _⟩⟩) (fun c hc i => by fin_cases i <;> first | rfl | exact Nat.cast_zero.trans (hc.neutrino _).symm) (by decide +kernel) ?_
  intro c p u hc hw h0 hs hb hr hu
  replace hw := hw (by simp [unnu])
  have he : unnu.scat.ends = [2, 3] := by decide
  have ht : unnu.scat.starts = [0, 1] := by decide
  obtain ⟨o1, o2⟩ := regular_two he ht hr
  have hf := unnu.scat.flows_scattering (by decide) hb
  have ms := unnu.scat.msq_scattering (by decide) hb
  have r12 : (unnu.N c p).r 12 = ((c.e * c.e) / ((((((4 : Nat) : ℝ) * √((((1 : Nat) : ℝ) - (c.SW * c.SW)))) * √((((1 : Nat) : ℝ) - (c.SW * c.SW)))) * c.SW) * c.SW)) := rfl
  simp only [c.root] at r12
  have r8 : (unnu.N c p).r 8 = (((1 : Nat) : ℝ) - (((((4 : Nat) : ℝ) / ((3 : Nat) : ℝ)) * c.SW) * c.SW)) := rfl
  have r10 : (unnu.N c p).r 10 = ((1 : Nat) : ℝ) := rfl
  have r9 : (unnu.N c p).r 9 = ((((-((4 : Nat) : ℝ)) / ((3 : Nat) : ℝ)) * c.SW) * c.SW) := rfl
  have c0 : (unnu.N c p).c 0 = poleDist (c.MW / √((((1 : Nat) : ℝ) - (c.SW * c.SW)))) ((0 : Nat) : ℝ) ((VExp.sub 0 3).sum p) := rfl
  rw [c.root, c.mz, Nat.cast_zero, ← hw, pole_congr (ms.2).symm] at c0
  have d0 := o2.z (by decide) rfl
  have m0 : c.mass .u ≠ 0 := (hc.massive _ (by decide)).ne'
  have m1 : c.mass .ne = 0 := hc.neutrino _
  have n1 : unnu.proc.massNum (unnu.rho c) 1 = c.mass .ne := Nat.cast_zero.trans m1.symm
  have m2 : c.mass .ne = 0 := hc.neutrino _
  have n2 : unnu.proc.massNum (unnu.rho c) 2 = c.mass .ne := Nat.cast_zero.trans m2.symm
  have m3 : c.mass .u ≠ 0 := (hc.massive _ (by decide)).ne'
  have g0 : unnu.scat.sgn 0 = 1 := if_neg Bool.false_ne_true
  have g1 : unnu.scat.sgn 1 = 1 := if_neg Bool.false_ne_true
  have g2 : unnu.scat.sgn 2 = 1 := if_neg Bool.false_ne_true
  have g3 : unnu.scat.sgn 3 = 1 := if_neg Bool.false_ne_true
  have nMW := hc.MW
  have nSW := hc.SW
  have xMW : (c.MW : ℂ) ≠ 0 := by exact_mod_cast hc.MW
  have xSW : (c.SW : ℂ) ≠ 0 := by exact_mod_cast hc.SW
  have xCW : (c.CW : ℂ) ≠ 0 := by exact_mod_cast hc.CW
  have hd : unnu.proc.divides = [(Ty.c, 0)] := by decide +kernel
  have k_amp : ∀ s : Fin 4 → Fin 2, s 1 = 0 → s 2 = 1 → unnu.amp (unnu.N c p) (spinOf (s 0)) (spinOf (s 3)) = unnu.scat.ewC c p (unnu.scat.angs c p s) (unnu.scat.sqrs c p s) 2 1 3 0 := by
    intro s f1 f2
    have v1 : (unnu.N c p).v 1 [spinOf (s 0)] = sb (unnu.scat.sqrs c p s 0) (unnu.scat.sqrs c p s 2) := bra_square (p := p) (m := unnu.proc.massNum (unnu.rho c)) rfl n2 (.inl ⟨m0, rfl⟩) (.inr ⟨m2, f2⟩)
    have v6 : (unnu.N c p).v 6 [spinOf (s 3)] = ab (unnu.scat.angs c p s 1) (unnu.scat.angs c p s 3) := bra_angle (p := p) (m := unnu.proc.massNum (unnu.rho c)) n1 rfl (.inr ⟨m1, f1⟩) (.inl ⟨m3, rfl⟩)
    have v9 : (unnu.N c p).v 9 [spinOf (s 0)] = ab (unnu.scat.angs c p s 0) (unnu.scat.angs c p s 1) := bra_angle (p := p) (m := unnu.proc.massNum (unnu.rho c)) rfl n1 (.inl ⟨m0, rfl⟩) (.inr ⟨m1, f1⟩)
    have v10 : (unnu.N c p).v 10 [spinOf (s 3)] = sb (unnu.scat.sqrs c p s 2) (unnu.scat.sqrs c p s 3) := bra_square (p := p) (m := unnu.proc.massNum (unnu.rho c)) n2 rfl (.inr ⟨m2, f2⟩) (.inl ⟨m3, rfl⟩)
    rw [ewC_neutral (S := unnu.scat) (i := 2) (j := 1) (k := 3) (l := 0) (f := .ne) (g := .u) (by decide) (by decide) rfl rfl rfl g2 g1 g3 g0 rfl rfl rfl, unnu.amp]
    simp only [r8, r9, r10, r12, c0, v1, v6, v9, v10, jj, ln, lw, Constants.gL, Constants.gR, Flavour.charge_ne, Flavour.isospin_ne, Flavour.charge_u, Flavour.isospin_u, m1, m2]
    abstract_brackets unnu.scat c p s
    push_cast
    ring
  refine ⟨fun n hn => ?_, fun n hn => ?_, ?_⟩
  · simp [hd] at hn
  · simp [hd] at hn
    rcases hn with rfl
    · rw [c0]; exact d0
  show meaning (unnu.N c p) .r Cls.unnu.methods Cls.unnu.amp2 [] = _
  have ss : unnu.scat.states = 6 := by decide
  have sy : unnu.scat.symmetry = 1 := by decide
  rw [unnu.value, mixed_scattering hs h0 hu he ht hf (by decide) (by decide) (by decide), ss, sy, Nat.cast_zero]
  have z1' : ∀ w y z : Fin 2, unnu.scat.ewC c p (unnu.scat.angs c p ![w, 1, y, z]) (unnu.scat.sqrs c p ![w, 1, y, z]) 2 1 3 0 = 0 := fun w y z => ewC_neutrino 1 rfl m1 (.inr ⟨by decide, legA_zero m1 rfl⟩)
  have z2' : ∀ w x z : Fin 2, unnu.scat.ewC c p (unnu.scat.angs c p ![w, x, 0, z]) (unnu.scat.sqrs c p ![w, x, 0, z]) 2 1 3 0 = 0 := fun w x z => ewC_neutrino 2 rfl m2 (.inl ⟨by decide, legS_zero m2 rfl⟩)
  have k := fun w z : Fin 2 => k_amp ![w, 0, 1, z] rfl rfl
  rw [sumJ_two]
  rw [sum_quad]
  try simp only [Matrix.cons_val] at k
  simp only [Fin.sum_univ_two, k, z1', z2', ewC_none (S := unnu.scat) (i := 2) (j := 0) (k := 3) (l := 1) (by decide) (by decide)]
  finish_spins

/-! ### udnl -/

/-- what the methods of the class see -/
noncomputable abbrev udnl.N [FPEnv] (c : Constants) (p : Nat → V4 ℝ) : Env := udnl.proc.env (udnl.rho c) p
/-- `amp` (SM/udnl.cpp) -/
noncomputable def udnl.amp (N : Env) (j1 j2 j4 : Int) : ℂ :=
  ((((((((N.r 0 * N.r 0) / ((2 : Nat) : ℝ)) / N.r 6) / N.r 6) : ℝ) : ℂ) * ((((((((((2 : Nat) : ℝ) * N.r 4) * N.r 4) : ℝ) : ℂ) * N.v 0 [j1, j4]) * N.v 1 [j2]) + (((((N.r 3 * N.r 2) : ℝ) : ℂ) * N.v 2 [j4]) * N.v 3 [j1, j2])) - (((((N.r 1 * N.r 3) : ℝ) : ℂ) * N.v 4 [j1, j2]) * N.v 2 [j4]))) / ((((N.r 4 * N.r 4) : ℝ) : ℂ) * N.c 0))
set_option maxRecDepth 8000 in
theorem udnl.amp2_eq (N : Env) (f : Nat → List Int → ℂ) : Cls.udnl.m_amp2.mean N f .r [] =
    ((sumJ (fun x a => (sumJ (fun x b => (sumJ (fun x c => (x + (‖(f 0 [a, b, c])‖ ^ 2))) x)) x)) ((0 : Nat) : ℝ)) / ((12 : Nat) : ℝ)) := by rfl
set_option maxRecDepth 8000 in
theorem udnl.value (N : Env) : meaning N .r Cls.udnl.methods Cls.udnl.amp2 [] =
    ((sumJ (fun x a => (sumJ (fun x b => (sumJ (fun x c => (x + (‖(udnl.amp N a b c)‖ ^ 2))) x)) x)) ((0 : Nat) : ℝ)) / ((12 : Nat) : ℝ)) :=
  udnl.amp2_eq N (callMean N [Cls.udnl.m_amp])

variable [FPEnv] in
theorem udnl.agrees : udnl.Agrees := by
  refine agrees_of (D := [4, 6]) (E := [6]) (by simp [all, udnl]) (by decide +kernel) (by decide) (by decide +kernel) (fun c hc => ⟨List.forall_mem_cons.2 ⟨hc.MW, List.forall_mem_cons.2 ⟨hc.SW, List.forall_mem_nil _⟩⟩, List.forall_mem_cons.2 ⟨hc.SW_lt, List.forall_mem_nil _⟩⟩) (fun c hc i => by fin_cases i <;> first | rfl | exact Nat.cast_zero.trans (hc.neutrino _).symm) (by decide +kernel) ?_
  intro c p u hc hw h0 hs hb hr hu
  have he : udnl.scat.ends = [1, 2] := by decide
  have ht : udnl.scat.starts = [0, 3] := by decide
  obtain ⟨o1, o2⟩ := regular_two he ht hr
  have hf := udnl.scat.flows_annihilation (by decide) hb
  have ms := udnl.scat.msq_annihilation (by decide) hb
  have r0 : (udnl.N c p).r 0 = c.e := rfl
  have r6 : (udnl.N c p).r 6 = c.SW := rfl
  have r4 : (udnl.N c p).r 4 = c.MW := rfl
  have r3 : (udnl.N c p).r 3 = (c.mass .tau) := rfl
  have r2 : (udnl.N c p).r 2 = (c.mass .d) := rfl
  have r1 : (udnl.N c p).r 1 = (c.mass .u) := rfl
  have c0 : (udnl.N c p).c 0 = poleDist c.MW c.WW ((VExp.add 0 1).sum p) := rfl
  rw [pole_congr (ms.1).symm] at c0
  have d0 := o1.w (by decide) rfl
  have m0 : c.mass .u ≠ 0 := (hc.massive _ (by decide)).ne'
  have m1 : c.mass .d ≠ 0 := (hc.massive _ (by decide)).ne'
  have m2 : c.mass .ntau = 0 := hc.neutrino _
  have n2 : udnl.proc.massNum (udnl.rho c) 2 = c.mass .ntau := Nat.cast_zero.trans m2.symm
  have m3 : c.mass .tau ≠ 0 := (hc.massive _ (by decide)).ne'
  have g0 : udnl.scat.sgn 0 = 1 := if_neg Bool.false_ne_true
  have g1 : udnl.scat.sgn 1 = -1 := if_pos rfl
  have g2 : udnl.scat.sgn 2 = 1 := if_neg Bool.false_ne_true
  have g3 : udnl.scat.sgn 3 = -1 := if_pos rfl
  have nMW := hc.MW
  have nSW := hc.SW
  have xMW : (c.MW : ℂ) ≠ 0 := by exact_mod_cast hc.MW
  have xSW : (c.SW : ℂ) ≠ 0 := by exact_mod_cast hc.SW
  have xCW : (c.CW : ℂ) ≠ 0 := by exact_mod_cast hc.CW
  have hd : udnl.proc.divides = [(Ty.r, 6), (Ty.r, 4), (Ty.c, 0)] := by decide +kernel
  have k_amp : ∀ s : Fin 4 → Fin 2, s 2 = 0 → udnl.amp (udnl.N c p) (spinOf (s 0)) (spinOf (s 1)) (spinOf (s 3)) = udnl.scat.ewD c p (udnl.scat.angs c p s) (udnl.scat.sqrs c p s) 1 0 2 3 := by
    intro s f2
    have v0 : (udnl.N c p).v 0 [spinOf (s 0), spinOf (s 3)] = sb (udnl.scat.sqrs c p s 0) (udnl.scat.sqrs c p s 3) := bra_square (p := p) (m := udnl.proc.massNum (udnl.rho c)) rfl rfl (.inl ⟨m0, rfl⟩) (.inl ⟨m3, rfl⟩)
    have v1 : (udnl.N c p).v 1 [spinOf (s 1)] = ab (udnl.scat.angs c p s 1) (udnl.scat.angs c p s 2) := bra_angle (p := p) (m := udnl.proc.massNum (udnl.rho c)) rfl n2 (.inl ⟨m1, rfl⟩) (.inr ⟨m2, f2⟩)
    have v2 : (udnl.N c p).v 2 [spinOf (s 3)] = ab (udnl.scat.angs c p s 2) (udnl.scat.angs c p s 3) := bra_angle (p := p) (m := udnl.proc.massNum (udnl.rho c)) n2 rfl (.inr ⟨m2, f2⟩) (.inl ⟨m3, rfl⟩)
    have v3 : (udnl.N c p).v 3 [spinOf (s 0), spinOf (s 1)] = sb (udnl.scat.sqrs c p s 0) (udnl.scat.sqrs c p s 1) := bra_square (p := p) (m := udnl.proc.massNum (udnl.rho c)) rfl rfl (.inl ⟨m0, rfl⟩) (.inl ⟨m1, rfl⟩)
    have v4 : (udnl.N c p).v 4 [spinOf (s 0), spinOf (s 1)] = ab (udnl.scat.angs c p s 0) (udnl.scat.angs c p s 1) := bra_angle (p := p) (m := udnl.proc.massNum (udnl.rho c)) rfl rfl (.inl ⟨m0, rfl⟩) (.inl ⟨m1, rfl⟩)
    rw [ewD_charged (S := udnl.scat) (i := 1) (j := 0) (k := 2) (l := 3) (m₁ := c.mass .d) (m₂ := c.mass .u) (m₃ := c.mass .ntau) (m₄ := c.mass .tau) g1 g0 g2 g3 rfl rfl rfl rfl, udnl.amp]
    simp only [r0, r1, r2, r3, r4, r6, c0, v0, v1, v2, v3, v4, jj, ln, lw, Constants.gL, Constants.gR, Flavour.charge_d, Flavour.isospin_d, Flavour.charge_ntau, Flavour.isospin_ntau, Flavour.charge_tau, Flavour.isospin_tau, Flavour.charge_u, Flavour.isospin_u, m2]
    abstract_brackets udnl.scat c p s
    push_cast
    field_simp; ring
  refine ⟨fun n hn => ?_, fun n hn => ?_, ?_⟩
  · simp [hd] at hn
    rcases hn with rfl | rfl
    · rw [r6]; exact nSW
    · rw [r4]; exact nMW
  · simp [hd] at hn
    rcases hn with rfl
    · rw [c0]; exact d0
  show meaning (udnl.N c p) .r Cls.udnl.methods Cls.udnl.amp2 [] = _
  have ss : udnl.scat.states = 36 := by decide
  have sy : udnl.scat.symmetry = 1 := by decide
  rw [udnl.value, annihilation_direct hs h0 hu he ht hf.1 (by decide) (by decide) (by decide) (by decide) (by decide) rfl, ss, sy, Nat.cast_zero]
  have z2 : ∀ w x z : Fin 2, udnl.scat.ewD c p (udnl.scat.angs c p ![w, x, 1, z]) (udnl.scat.sqrs c p ![w, x, 1, z]) 1 0 2 3 = 0 := fun w x z => ewD_neutrino 2 m2 (.inl ⟨by decide, legA_zero m2 rfl⟩)
  have k := fun w x z : Fin 2 => k_amp ![w, x, 0, z] rfl
  rw [sumJ_three]
  rw [sum_quad]
  try simp only [Matrix.cons_val] at k
  simp only [Fin.sum_univ_two, k, z2, ewC_none (S := udnl.scat) (i := 1) (j := 3) (k := 2) (l := 0) (by decide) (by decide)]
  finish_spins

/-! ### ulnd -/

/-- what the methods of the class see -/
noncomputable abbrev ulnd.N [FPEnv] (c : Constants) (p : Nat → V4 ℝ) : Env := ulnd.proc.env (ulnd.rho c) p
/-- `amp` (SM/ulnd.cpp) -/
noncomputable def ulnd.amp (N : Env) (j1 j2 j4 : Int) : ℂ :=
  ((((((-N.r 7) * ((2 : Nat) : ℝ)) : ℝ) : ℂ) * ((((((((((2 : Nat) : ℝ) * N.r 4) * N.r 4) : ℝ) : ℂ) * N.v 4 [j1, j2]) * N.v 3 [j4]) + (((((N.r 1 * N.r 3) : ℝ) : ℂ) * N.v 2 [j2]) * N.v 0 [j1, j4])) + (((((N.r 3 * N.r 2) : ℝ) : ℂ) * N.v 2 [j2]) * N.v 1 [j1, j4]))) / N.c 0)
set_option maxRecDepth 8000 in
theorem ulnd.amp2_eq (N : Env) (f : Nat → List Int → ℂ) : Cls.ulnd.m_amp2.mean N f .r [] =
    ((sumJ (fun x a => (sumJ (fun x b => (sumJ (fun x c => (x + (((3 : Nat) : ℝ) * (‖(f 0 [a, b, c])‖ ^ 2)))) x)) x)) ((0 : Nat) : ℝ)) / ((12 : Nat) : ℝ)) := by rfl
set_option maxRecDepth 8000 in
theorem ulnd.value (N : Env) : meaning N .r Cls.ulnd.methods Cls.ulnd.amp2 [] =
    ((sumJ (fun x a => (sumJ (fun x b => (sumJ (fun x c => (x + (((3 : Nat) : ℝ) * (‖(ulnd.amp N a b c)‖ ^ 2)))) x)) x)) ((0 : Nat) : ℝ)) / ((12 : Nat) : ℝ)) :=
  ulnd.amp2_eq N (callMean N [Cls.ulnd.m_amp])

variable [FPEnv] in
theorem ulnd.agrees : ulnd.Agrees := by
  refine agrees_of (D := [4, 6]) (E := [6]) (by simp [all, ulnd]) (by decide +kernel) (by decide) (by decide +kernel) (fun c hc => ⟨List.forall_mem_cons.2 ⟨hc.MW, List.forall_mem_cons.2 ⟨hc.SW, List.forall_mem_nil _⟩⟩, List.forall_mem_cons.2 ⟨hc.SW_lt, List.forall_mem_nil _⟩⟩) (fun c hc i => by fin_cases i <;> first | rfl | exact Nat.cast_zero.trans (hc.neutrino _).symm) (by decide +kernel) ?_
  intro c p u hc hw h0 hs hb hr hu
  have he : ulnd.scat.ends = [2, 3] := by decide
  have ht : ulnd.scat.starts = [0, 1] := by decide
  obtain ⟨o1, o2⟩ := regular_two he ht hr
  have hf := ulnd.scat.flows_scattering (by decide) hb
  have ms := ulnd.scat.msq_scattering (by decide) hb
  have r7 : (ulnd.N c p).r 7 = ((c.e * c.e) / ((((((4 : Nat) : ℝ) * c.MW) * c.MW) * c.SW) * c.SW)) := rfl
  have r4 : (ulnd.N c p).r 4 = c.MW := rfl
  have r1 : (ulnd.N c p).r 1 = (c.mass .u) := rfl
  have r3 : (ulnd.N c p).r 3 = (c.mass .tau) := rfl
  have r2 : (ulnd.N c p).r 2 = (c.mass .d) := rfl
  have c0 : (ulnd.N c p).c 0 = poleDist c.MW c.WW ((VExp.sub 0 3).sum p) := rfl
  rw [pole_congr (ms.2).symm] at c0
  have d0 := o2.w (by decide) rfl
  have m0 : c.mass .u ≠ 0 := (hc.massive _ (by decide)).ne'
  have m1 : c.mass .tau ≠ 0 := (hc.massive _ (by decide)).ne'
  have m2 : c.mass .ntau = 0 := hc.neutrino _
  have n2 : ulnd.proc.massNum (ulnd.rho c) 2 = c.mass .ntau := Nat.cast_zero.trans m2.symm
  have m3 : c.mass .d ≠ 0 := (hc.massive _ (by decide)).ne'
  have g0 : ulnd.scat.sgn 0 = 1 := if_neg Bool.false_ne_true
  have g1 : ulnd.scat.sgn 1 = 1 := if_neg Bool.false_ne_true
  have g2 : ulnd.scat.sgn 2 = 1 := if_neg Bool.false_ne_true
  have g3 : ulnd.scat.sgn 3 = 1 := if_neg Bool.false_ne_true
  have nMW := hc.MW
  have nSW := hc.SW
  have xMW : (c.MW : ℂ) ≠ 0 := by exact_mod_cast hc.MW
  have xSW : (c.SW : ℂ) ≠ 0 := by exact_mod_cast hc.SW
  have xCW : (c.CW : ℂ) ≠ 0 := by exact_mod_cast hc.CW
  have hd : ulnd.proc.divides = [(Ty.c, 0)] := by decide +kernel
  have k_amp : ∀ s : Fin 4 → Fin 2, s 2 = 0 → ulnd.amp (ulnd.N c p) (spinOf (s 0)) (spinOf (s 1)) (spinOf (s 3)) = -(ulnd.scat.ewD c p (ulnd.scat.angs c p s) (ulnd.scat.sqrs c p s) 2 1 3 0) := by
    intro s f2
    have v0 : (ulnd.N c p).v 0 [spinOf (s 0), spinOf (s 3)] = ab (ulnd.scat.angs c p s 0) (ulnd.scat.angs c p s 3) := bra_angle (p := p) (m := ulnd.proc.massNum (ulnd.rho c)) rfl rfl (.inl ⟨m0, rfl⟩) (.inl ⟨m3, rfl⟩)
    have v1 : (ulnd.N c p).v 1 [spinOf (s 0), spinOf (s 3)] = sb (ulnd.scat.sqrs c p s 0) (ulnd.scat.sqrs c p s 3) := bra_square (p := p) (m := ulnd.proc.massNum (ulnd.rho c)) rfl rfl (.inl ⟨m0, rfl⟩) (.inl ⟨m3, rfl⟩)
    have v2 : (ulnd.N c p).v 2 [spinOf (s 1)] = ab (ulnd.scat.angs c p s 1) (ulnd.scat.angs c p s 2) := bra_angle (p := p) (m := ulnd.proc.massNum (ulnd.rho c)) rfl n2 (.inl ⟨m1, rfl⟩) (.inr ⟨m2, f2⟩)
    have v3 : (ulnd.N c p).v 3 [spinOf (s 3)] = ab (ulnd.scat.angs c p s 2) (ulnd.scat.angs c p s 3) := bra_angle (p := p) (m := ulnd.proc.massNum (ulnd.rho c)) n2 rfl (.inr ⟨m2, f2⟩) (.inl ⟨m3, rfl⟩)
    have v4 : (ulnd.N c p).v 4 [spinOf (s 0), spinOf (s 1)] = sb (ulnd.scat.sqrs c p s 0) (ulnd.scat.sqrs c p s 1) := bra_square (p := p) (m := ulnd.proc.massNum (ulnd.rho c)) rfl rfl (.inl ⟨m0, rfl⟩) (.inl ⟨m1, rfl⟩)
    rw [ewD_charged (S := ulnd.scat) (i := 2) (j := 1) (k := 3) (l := 0) (m₁ := c.mass .ntau) (m₂ := c.mass .tau) (m₃ := c.mass .d) (m₄ := c.mass .u) g2 g1 g3 g0 rfl rfl rfl rfl, ulnd.amp]
    simp only [r1, r2, r3, r4, r7, c0, v0, v1, v2, v3, v4, jj, ln, lw, Constants.gL, Constants.gR, Flavour.charge_d, Flavour.isospin_d, Flavour.charge_ntau, Flavour.isospin_ntau, Flavour.charge_tau, Flavour.isospin_tau, Flavour.charge_u, Flavour.isospin_u, m2]
    abstract_brackets ulnd.scat c p s
    push_cast
    field_simp; ring
  refine ⟨fun n hn => ?_, fun n hn => ?_, ?_⟩
  · simp [hd] at hn
  · simp [hd] at hn
    rcases hn with rfl
    · rw [c0]; exact d0
  show meaning (ulnd.N c p) .r Cls.ulnd.methods Cls.ulnd.amp2 [] = _
  have ss : ulnd.scat.states = 12 := by decide
  have sy : ulnd.scat.symmetry = 1 := by decide
  rw [ulnd.value, scattering_direct hs h0 hu he ht hf.2 (by decide) (by decide) (by decide) (by decide) (by decide) rfl, ss, sy, Nat.cast_zero]
  have z2' : ∀ w x z : Fin 2, ulnd.scat.ewD c p (ulnd.scat.angs c p ![w, x, 1, z]) (ulnd.scat.sqrs c p ![w, x, 1, z]) 2 1 3 0 = 0 := fun w x z => ewD_neutrino 2 m2 (.inl ⟨by decide, legA_zero m2 rfl⟩)
  have k := fun w x z : Fin 2 => k_amp ![w, x, 0, z] rfl
  rw [sumJ_three]
  rw [sum_quad]
  try simp only [Matrix.cons_val] at k
  simp only [Fin.sum_univ_two, k, z2', ewC_none (S := ulnd.scat) (i := 2) (j := 0) (k := 3) (l := 1) (by decide) (by decide)]
  finish_spins

end Spinas.SM.Rows
