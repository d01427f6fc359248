import Verif.SM.FermionRows
import Verif.SM.Exchanges

/-! Quarks of two generations. Generated by tools/fermions/emit.py: for each class its amplitudes as formulas, and the proof that `amp2` is the squared amplitude of the Feynman rules. -/

set_option linter.unusedSimpArgs false

namespace Spinas.SM.Rows
open Spec Spec.Scattering Props XR Matrix Row

/-! ### ddss -/

/-- what the methods of the class see -/
noncomputable abbrev ddss.N [FPEnv] (c : Constants) (p : Nat → V4 ℝ) : Env := ddss.proc.env (ddss.rho c) p
/-- `amp_gluon` (SM/ddss.cpp) -/
noncomputable def ddss.amp_gluon (N : Env) (j1 j2 j3 j4 : Int) : ℂ :=
  ((((((((2 : Nat) : ℝ) * N.r 1) * N.r 1) : ℝ) : ℂ) * ((((N.v 0 [j1, j3] * N.v 7 [j2, j4]) + (N.v 2 [j1, j4] * N.v 5 [j2, j3])) + (N.v 1 [j1, j3] * N.v 6 [j2, j4])) + (N.v 3 [j1, j4] * N.v 4 [j2, j3]))) / N.c 0)
/-- `amp_rest` (SM/ddss.cpp) -/
noncomputable def ddss.amp_rest (N : Env) (j1 j2 j3 j4 : Int) : ℂ :=
  ((((((((((((2 : Nat) : ℝ) * N.r 0) * N.r 0) * ((1 : Nat) : ℝ)) / ((9 : Nat) : ℝ)) : ℝ) : ℂ) * ((((N.v 0 [j1, j3] * N.v 7 [j2, j4]) + (N.v 2 [j1, j4] * N.v 5 [j2, j3])) + (N.v 1 [j1, j3] * N.v 6 [j2, j4])) + (N.v 3 [j1, j4] * N.v 4 [j2, j3]))) / N.c 0) + (((((N.r 11 : ℝ) : ℂ) * (N.v 8 [j1, j2] + N.v 9 [j1, j2])) * (N.v 10 [j3, j4] + N.v 11 [j3, j4])) / N.c 1)) + (((((((-N.r 15) : ℝ) : ℂ) * (N.v 9 [j1, j2] - N.v 8 [j1, j2])) * (N.v 11 [j3, j4] - N.v 10 [j3, j4])) / N.c 2) + (((((((2 : Nat) : ℝ) * N.r 14) : ℝ) : ℂ) * (((((((N.r 12 * N.r 12) : ℝ) : ℂ) * N.v 5 [j2, j3]) * N.v 2 [j1, j4]) + ((((N.r 12 * N.r 13) : ℝ) : ℂ) * ((N.v 1 [j1, j3] * N.v 6 [j2, j4]) + (N.v 7 [j2, j4] * N.v 0 [j1, j3])))) + (((((N.r 13 * N.r 13) : ℝ) : ℂ) * N.v 3 [j1, j4]) * N.v 4 [j2, j3]))) / N.c 2)))
set_option maxRecDepth 8000 in
theorem ddss.amp2_eq (N : Env) (f : Nat → List Int → ℂ) : Cls.ddss.m_amp2.mean N f .r [] =
    ((sumJ (fun x a => (sumJ (fun x b => (sumJ (fun x c => (sumJ (fun x d => ((x + (((9 : Nat) : ℝ) * (‖(f 1 [a, b, c, d])‖ ^ 2))) + (((2 : Nat) : ℝ) * (‖(f 0 [a, b, c, d])‖ ^ 2)))) x)) x)) x)) ((0 : Nat) : ℝ)) / ((36 : Nat) : ℝ)) := by rfl
set_option maxRecDepth 8000 in
theorem ddss.value (N : Env) : meaning N .r Cls.ddss.methods Cls.ddss.amp2 [] =
    ((sumJ (fun x a => (sumJ (fun x b => (sumJ (fun x c => (sumJ (fun x d => ((x + (((9 : Nat) : ℝ) * (‖(ddss.amp_rest N a b c d)‖ ^ 2))) + (((2 : Nat) : ℝ) * (‖(ddss.amp_gluon N a b c d)‖ ^ 2)))) x)) x)) x)) ((0 : Nat) : ℝ)) / ((36 : Nat) : ℝ)) :=
  ddss.amp2_eq N (callMean N [Cls.ddss.m_amp_rest, Cls.ddss.m_amp_gluon])

variable [FPEnv] in
theorem ddss.agrees : ddss.Agrees := by
  refine agrees_of (D := [6, 7]) (E := [7]) (by simp [all, ddss]) (by decide +kernel) (by decide) (by decide +kernel) (fun c hc => ⟨List.forall_mem_cons.2 ⟨hc.MW, List.forall_mem_cons.2 ⟨hc.SW, List.forall_mem_nil _⟩⟩, List.forall_mem_cons.2 ⟨hc.SW_lt, List.forall_mem_nil _⟩⟩) (fun c hc i => by fin_cases i <;> rfl) (by decide +kernel) ?_
  intro c p u hc hw h0 hs hb hr hu
  replace hw := hw (by simp [ddss])
  have he : ddss.scat.ends = [1, 2] := by decide
  have ht : ddss.scat.starts = [0, 3] := by decide
  obtain ⟨o1, o2⟩ := regular_two he ht hr
  have hf := ddss.scat.flows_annihilation (by decide) hb
  have ms := ddss.scat.msq_annihilation (by decide) hb
  have r0 : (ddss.N c p).r 0 = c.e := rfl
  have r11 : (ddss.N c p).r 11 = ((((c.e * c.e) * (c.mass .d)) * (c.mass .s)) / ((((((4 : Nat) : ℝ) * c.MW) * c.MW) * c.SW) * c.SW)) := rfl
  have r15 : (ddss.N c p).r 15 = ((((((((c.e * c.e) / ((((((4 : Nat) : ℝ) * √((((1 : Nat) : ℝ) - (c.SW * c.SW)))) * √((((1 : Nat) : ℝ) - (c.SW * c.SW)))) * c.SW) * c.SW)) * (((-((1 : Nat) : ℝ)) + (((((2 : Nat) : ℝ) / ((3 : Nat) : ℝ)) * c.SW) * c.SW)) - (((((2 : Nat) : ℝ) / ((3 : Nat) : ℝ)) * c.SW) * c.SW))) * (((-((1 : Nat) : ℝ)) + (((((2 : Nat) : ℝ) / ((3 : Nat) : ℝ)) * c.SW) * c.SW)) - (((((2 : Nat) : ℝ) / ((3 : Nat) : ℝ)) * c.SW) * c.SW))) * (c.mass .d)) * (c.mass .s)) / (c.MW / √((((1 : Nat) : ℝ) - (c.SW * c.SW))))) / (c.MW / √((((1 : Nat) : ℝ) - (c.SW * c.SW))))) := rfl
  simp only [c.root, c.mz] at r15
  have r14 : (ddss.N c p).r 14 = ((c.e * c.e) / ((((((4 : Nat) : ℝ) * √((((1 : Nat) : ℝ) - (c.SW * c.SW)))) * √((((1 : Nat) : ℝ) - (c.SW * c.SW)))) * c.SW) * c.SW)) := rfl
  simp only [c.root] at r14
  have r12 : (ddss.N c p).r 12 = ((-((1 : Nat) : ℝ)) + (((((2 : Nat) : ℝ) / ((3 : Nat) : ℝ)) * c.SW) * c.SW)) := rfl
  have r13 : (ddss.N c p).r 13 = (((((2 : Nat) : ℝ) / ((3 : Nat) : ℝ)) * c.SW) * c.SW) := rfl
  have r1 : (ddss.N c p).r 1 = c.gs := rfl
  have c0 : (ddss.N c p).c 0 = poleDist ((0 : Nat) : ℝ) ((0 : Nat) : ℝ) ((VExp.add 0 1).sum p) := rfl
  rw [Nat.cast_zero, pole_zero (ms.1).symm] at c0
  have c1 : (ddss.N c p).c 1 = poleDist c.MH c.WH ((VExp.add 0 1).sum p) := rfl
  rw [pole_congr (ms.1).symm] at c1
  have c2 : (ddss.N c p).c 2 = poleDist (c.MW / √((((1 : Nat) : ℝ) - (c.SW * c.SW)))) ((0 : Nat) : ℝ) ((VExp.add 0 1).sum p) := rfl
  rw [c.root, c.mz, Nat.cast_zero, ← hw, pole_congr (ms.1).symm] at c2
  have d0 := o1.photon (by decide) (by show (-1/3 : ℝ) * (-1/3) ≠ 0; norm_num)
  have d1 := o1.higgs (by decide) rfl (hc.massive _ (by decide)) (hc.massive _ (by decide))
  have d2 := o1.z (by decide) rfl
  have m0 : c.mass .d ≠ 0 := (hc.massive _ (by decide)).ne'
  have m1 : c.mass .d ≠ 0 := (hc.massive _ (by decide)).ne'
  have m2 : c.mass .s ≠ 0 := (hc.massive _ (by decide)).ne'
  have m3 : c.mass .s ≠ 0 := (hc.massive _ (by decide)).ne'
  have g0 : ddss.scat.sgn 0 = 1 := if_neg Bool.false_ne_true
  have g1 : ddss.scat.sgn 1 = -1 := if_pos rfl
  have g2 : ddss.scat.sgn 2 = 1 := if_neg Bool.false_ne_true
  have g3 : ddss.scat.sgn 3 = -1 := if_pos rfl
  have nMW := hc.MW
  have nSW := hc.SW
  have xMW : (c.MW : ℂ) ≠ 0 := by exact_mod_cast hc.MW
  have xSW : (c.SW : ℂ) ≠ 0 := by exact_mod_cast hc.SW
  have xCW : (c.CW : ℂ) ≠ 0 := by exact_mod_cast hc.CW
  have hd : ddss.proc.divides = [(Ty.c, 0), (Ty.c, 1), (Ty.c, 2)] := by decide +kernel
  have k_amp_rest : ∀ s : Fin 4 → Fin 2, ddss.amp_rest (ddss.N c p) (spinOf (s 0)) (spinOf (s 1)) (spinOf (s 2)) (spinOf (s 3)) = ddss.scat.ewC c p (ddss.scat.angs c p s) (ddss.scat.sqrs c p s) 1 0 2 3 := by
    intro s
    have v0 : (ddss.N c p).v 0 [spinOf (s 0), spinOf (s 2)] = ab (ddss.scat.angs c p s 0) (ddss.scat.angs c p s 2) := bra_angle (p := p) (m := ddss.proc.massNum (ddss.rho c)) rfl rfl (.inl ⟨m0, rfl⟩) (.inl ⟨m2, rfl⟩)
    have v1 : (ddss.N c p).v 1 [spinOf (s 0), spinOf (s 2)] = sb (ddss.scat.sqrs c p s 0) (ddss.scat.sqrs c p s 2) := bra_square (p := p) (m := ddss.proc.massNum (ddss.rho c)) rfl rfl (.inl ⟨m0, rfl⟩) (.inl ⟨m2, rfl⟩)
    have v2 : (ddss.N c p).v 2 [spinOf (s 0), spinOf (s 3)] = ab (ddss.scat.angs c p s 0) (ddss.scat.angs c p s 3) := bra_angle (p := p) (m := ddss.proc.massNum (ddss.rho c)) rfl rfl (.inl ⟨m0, rfl⟩) (.inl ⟨m3, rfl⟩)
    have v3 : (ddss.N c p).v 3 [spinOf (s 0), spinOf (s 3)] = sb (ddss.scat.sqrs c p s 0) (ddss.scat.sqrs c p s 3) := bra_square (p := p) (m := ddss.proc.massNum (ddss.rho c)) rfl rfl (.inl ⟨m0, rfl⟩) (.inl ⟨m3, rfl⟩)
    have v4 : (ddss.N c p).v 4 [spinOf (s 1), spinOf (s 2)] = ab (ddss.scat.angs c p s 1) (ddss.scat.angs c p s 2) := bra_angle (p := p) (m := ddss.proc.massNum (ddss.rho c)) rfl rfl (.inl ⟨m1, rfl⟩) (.inl ⟨m2, rfl⟩)
    have v5 : (ddss.N c p).v 5 [spinOf (s 1), spinOf (s 2)] = sb (ddss.scat.sqrs c p s 1) (ddss.scat.sqrs c p s 2) := bra_square (p := p) (m := ddss.proc.massNum (ddss.rho c)) rfl rfl (.inl ⟨m1, rfl⟩) (.inl ⟨m2, rfl⟩)
    have v6 : (ddss.N c p).v 6 [spinOf (s 1), spinOf (s 3)] = ab (ddss.scat.angs c p s 1) (ddss.scat.angs c p s 3) := bra_angle (p := p) (m := ddss.proc.massNum (ddss.rho c)) rfl rfl (.inl ⟨m1, rfl⟩) (.inl ⟨m3, rfl⟩)
    have v7 : (ddss.N c p).v 7 [spinOf (s 1), spinOf (s 3)] = sb (ddss.scat.sqrs c p s 1) (ddss.scat.sqrs c p s 3) := bra_square (p := p) (m := ddss.proc.massNum (ddss.rho c)) rfl rfl (.inl ⟨m1, rfl⟩) (.inl ⟨m3, rfl⟩)
    have v8 : (ddss.N c p).v 8 [spinOf (s 0), spinOf (s 1)] = sb (ddss.scat.sqrs c p s 0) (ddss.scat.sqrs c p s 1) := bra_square (p := p) (m := ddss.proc.massNum (ddss.rho c)) rfl rfl (.inl ⟨m0, rfl⟩) (.inl ⟨m1, rfl⟩)
    have v9 : (ddss.N c p).v 9 [spinOf (s 0), spinOf (s 1)] = ab (ddss.scat.angs c p s 0) (ddss.scat.angs c p s 1) := bra_angle (p := p) (m := ddss.proc.massNum (ddss.rho c)) rfl rfl (.inl ⟨m0, rfl⟩) (.inl ⟨m1, rfl⟩)
    have v10 : (ddss.N c p).v 10 [spinOf (s 2), spinOf (s 3)] = sb (ddss.scat.sqrs c p s 2) (ddss.scat.sqrs c p s 3) := bra_square (p := p) (m := ddss.proc.massNum (ddss.rho c)) rfl rfl (.inl ⟨m2, rfl⟩) (.inl ⟨m3, rfl⟩)
    have v11 : (ddss.N c p).v 11 [spinOf (s 2), spinOf (s 3)] = ab (ddss.scat.angs c p s 2) (ddss.scat.angs c p s 3) := bra_angle (p := p) (m := ddss.proc.massNum (ddss.rho c)) rfl rfl (.inl ⟨m2, rfl⟩) (.inl ⟨m3, rfl⟩)
    rw [ewC_neutral (S := ddss.scat) (i := 1) (j := 0) (k := 2) (l := 3) (f := .d) (g := .s) (by decide) (by decide) rfl rfl rfl g1 g0 g2 g3 rfl rfl rfl, ddss.amp_rest]
    simp only [r0, r11, r12, r13, r14, r15, c0, c1, c2, v0, v1, v2, v3, v4, v5, v6, v7, v8, v9, v10, v11, jj, ln, lw, Constants.gL, Constants.gR, Flavour.charge_d, Flavour.isospin_d, Flavour.charge_s, Flavour.isospin_s]
    abstract_brackets ddss.scat c p s
    push_cast
    ring
  have k_amp_gluon : ∀ s : Fin 4 → Fin 2, ddss.amp_gluon (ddss.N c p) (spinOf (s 0)) (spinOf (s 1)) (spinOf (s 2)) (spinOf (s 3)) = ddss.scat.strongC c p (ddss.scat.angs c p s) (ddss.scat.sqrs c p s) 1 0 2 3 := by
    intro s
    have v0 : (ddss.N c p).v 0 [spinOf (s 0), spinOf (s 2)] = ab (ddss.scat.angs c p s 0) (ddss.scat.angs c p s 2) := bra_angle (p := p) (m := ddss.proc.massNum (ddss.rho c)) rfl rfl (.inl ⟨m0, rfl⟩) (.inl ⟨m2, rfl⟩)
    have v1 : (ddss.N c p).v 1 [spinOf (s 0), spinOf (s 2)] = sb (ddss.scat.sqrs c p s 0) (ddss.scat.sqrs c p s 2) := bra_square (p := p) (m := ddss.proc.massNum (ddss.rho c)) rfl rfl (.inl ⟨m0, rfl⟩) (.inl ⟨m2, rfl⟩)
    have v2 : (ddss.N c p).v 2 [spinOf (s 0), spinOf (s 3)] = ab (ddss.scat.angs c p s 0) (ddss.scat.angs c p s 3) := bra_angle (p := p) (m := ddss.proc.massNum (ddss.rho c)) rfl rfl (.inl ⟨m0, rfl⟩) (.inl ⟨m3, rfl⟩)
    have v3 : (ddss.N c p).v 3 [spinOf (s 0), spinOf (s 3)] = sb (ddss.scat.sqrs c p s 0) (ddss.scat.sqrs c p s 3) := bra_square (p := p) (m := ddss.proc.massNum (ddss.rho c)) rfl rfl (.inl ⟨m0, rfl⟩) (.inl ⟨m3, rfl⟩)
    have v4 : (ddss.N c p).v 4 [spinOf (s 1), spinOf (s 2)] = ab (ddss.scat.angs c p s 1) (ddss.scat.angs c p s 2) := bra_angle (p := p) (m := ddss.proc.massNum (ddss.rho c)) rfl rfl (.inl ⟨m1, rfl⟩) (.inl ⟨m2, rfl⟩)
    have v5 : (ddss.N c p).v 5 [spinOf (s 1), spinOf (s 2)] = sb (ddss.scat.sqrs c p s 1) (ddss.scat.sqrs c p s 2) := bra_square (p := p) (m := ddss.proc.massNum (ddss.rho c)) rfl rfl (.inl ⟨m1, rfl⟩) (.inl ⟨m2, rfl⟩)
    have v6 : (ddss.N c p).v 6 [spinOf (s 1), spinOf (s 3)] = ab (ddss.scat.angs c p s 1) (ddss.scat.angs c p s 3) := bra_angle (p := p) (m := ddss.proc.massNum (ddss.rho c)) rfl rfl (.inl ⟨m1, rfl⟩) (.inl ⟨m3, rfl⟩)
    have v7 : (ddss.N c p).v 7 [spinOf (s 1), spinOf (s 3)] = sb (ddss.scat.sqrs c p s 1) (ddss.scat.sqrs c p s 3) := bra_square (p := p) (m := ddss.proc.massNum (ddss.rho c)) rfl rfl (.inl ⟨m1, rfl⟩) (.inl ⟨m3, rfl⟩)
    rw [strongC_quarks (S := ddss.scat) (i := 1) (j := 0) (k := 2) (l := 3) (by decide) rfl rfl rfl g1 g0 g2 g3 rfl, ddss.amp_gluon]
    simp only [r1, c0, v0, v1, v2, v3, v4, v5, v6, v7, jj, ln, lw, Constants.gL, Constants.gR, Flavour.charge_d, Flavour.isospin_d, Flavour.charge_s, Flavour.isospin_s]
    abstract_brackets ddss.scat c p s
    push_cast
    ring
  refine ⟨fun n hn => ?_, fun n hn => ?_, ?_⟩
  · simp [hd] at hn
  · simp [hd] at hn
    rcases hn with rfl | rfl | rfl
    · rw [c0]; exact d0
    · rw [c1]; exact d1
    · rw [c2]; exact d2
  show meaning (ddss.N c p) .r Cls.ddss.methods Cls.ddss.amp2 [] = _
  have ss : ddss.scat.states = 36 := by decide
  have sy : ddss.scat.symmetry = 1 := by decide
  rw [ddss.value, ddss.scat.squared_quarks he ht hs h0 hf hu (by decide) colours_annihilation (by decide), ss, sy, Nat.cast_zero]
  simp only [add_assoc]
  rw [sumJ_four, Finset.sum_div, Finset.sum_div]
  refine Finset.sum_congr rfl fun s _ => ?_
  rw [k_amp_gluon, k_amp_rest]
  try simp only [ewC_none (S := ddss.scat) (i := 1) (j := 3) (k := 2) (l := 0) (by decide) (by decide), strongC_none (S := ddss.scat) (i := 1) (j := 3) (k := 2) (l := 0) (by decide)]
  finish_spins

/-! ### uucc -/

/-- what the methods of the class see -/
noncomputable abbrev uucc.N [FPEnv] (c : Constants) (p : Nat → V4 ℝ) : Env := uucc.proc.env (uucc.rho c) p
/-- `amp_gluon` (SM/uucc.cpp) -/
noncomputable def uucc.amp_gluon (N : Env) (j1 j2 j3 j4 : Int) : ℂ :=
  ((((((((2 : Nat) : ℝ) * N.r 1) * N.r 1) : ℝ) : ℂ) * ((((N.v 0 [j1, j3] * N.v 7 [j2, j4]) + (N.v 2 [j1, j4] * N.v 5 [j2, j3])) + (N.v 1 [j1, j3] * N.v 6 [j2, j4])) + (N.v 3 [j1, j4] * N.v 4 [j2, j3]))) / N.c 0)
/-- `amp_rest` (SM/uucc.cpp) -/
noncomputable def uucc.amp_rest (N : Env) (j1 j2 j3 j4 : Int) : ℂ :=
  ((((((((((((2 : Nat) : ℝ) * N.r 0) * N.r 0) * ((4 : Nat) : ℝ)) / ((9 : Nat) : ℝ)) : ℝ) : ℂ) * ((((N.v 0 [j1, j3] * N.v 7 [j2, j4]) + (N.v 2 [j1, j4] * N.v 5 [j2, j3])) + (N.v 1 [j1, j3] * N.v 6 [j2, j4])) + (N.v 3 [j1, j4] * N.v 4 [j2, j3]))) / N.c 0) + (((((N.r 11 : ℝ) : ℂ) * (N.v 8 [j1, j2] + N.v 9 [j1, j2])) * (N.v 10 [j3, j4] + N.v 11 [j3, j4])) / N.c 1)) + (((((((-N.r 15) : ℝ) : ℂ) * (N.v 9 [j1, j2] - N.v 8 [j1, j2])) * (N.v 11 [j3, j4] - N.v 10 [j3, j4])) / N.c 2) + (((((((2 : Nat) : ℝ) * N.r 14) : ℝ) : ℂ) * (((((((N.r 12 * N.r 12) : ℝ) : ℂ) * N.v 5 [j2, j3]) * N.v 2 [j1, j4]) + ((((N.r 12 * N.r 13) : ℝ) : ℂ) * ((N.v 1 [j1, j3] * N.v 6 [j2, j4]) + (N.v 7 [j2, j4] * N.v 0 [j1, j3])))) + (((((N.r 13 * N.r 13) : ℝ) : ℂ) * N.v 3 [j1, j4]) * N.v 4 [j2, j3]))) / N.c 2)))
set_option maxRecDepth 8000 in
theorem uucc.amp2_eq (N : Env) (f : Nat → List Int → ℂ) : Cls.uucc.m_amp2.mean N f .r [] =
    ((sumJ (fun x a => (sumJ (fun x b => (sumJ (fun x c => (sumJ (fun x d => ((x + (((9 : Nat) : ℝ) * (‖(f 1 [a, b, c, d])‖ ^ 2))) + (((2 : Nat) : ℝ) * (‖(f 0 [a, b, c, d])‖ ^ 2)))) x)) x)) x)) ((0 : Nat) : ℝ)) / ((36 : Nat) : ℝ)) := by rfl
set_option maxRecDepth 8000 in
theorem uucc.value (N : Env) : meaning N .r Cls.uucc.methods Cls.uucc.amp2 [] =
    ((sumJ (fun x a => (sumJ (fun x b => (sumJ (fun x c => (sumJ (fun x d => ((x + (((9 : Nat) : ℝ) * (‖(uucc.amp_rest N a b c d)‖ ^ 2))) + (((2 : Nat) : ℝ) * (‖(uucc.amp_gluon N a b c d)‖ ^ 2)))) x)) x)) x)) ((0 : Nat) : ℝ)) / ((36 : Nat) : ℝ)) :=
  uucc.amp2_eq N (callMean N [Cls.uucc.m_amp_rest, Cls.uucc.m_amp_gluon])

variable [FPEnv] in
theorem uucc.agrees : uucc.Agrees := by
  refine agrees_of (D := [6, 7]) (E := [7]) (by simp [all, uucc]) (by decide +kernel) (by decide) (by decide +kernel) (fun c hc => ⟨List.forall_mem_cons.2 ⟨hc.MW, List.forall_mem_cons.2 ⟨hc.SW, List.forall_mem_nil _⟩⟩, List.forall_mem_cons.2 ⟨hc.SW_lt, List.forall_mem_nil _⟩⟩) (fun c hc i => by fin_cases i <;> rfl) (by decide +kernel) ?_
  intro c p u hc hw h0 hs hb hr hu
  replace hw := hw (by simp [uucc])
  have he : uucc.scat.ends = [1, 2] := by decide
  have ht : uucc.scat.starts = [0, 3] := by decide
  obtain ⟨o1, o2⟩ := regular_two he ht hr
  have hf := uucc.scat.flows_annihilation (by decide) hb
  have ms := uucc.scat.msq_annihilation (by decide) hb
  have r0 : (uucc.N c p).r 0 = c.e := rfl
  have r11 : (uucc.N c p).r 11 = ((((c.e * c.e) * (c.mass .u)) * (c.mass .c)) / ((((((4 : Nat) : ℝ) * c.MW) * c.MW) * c.SW) * c.SW)) := rfl
  have r15 : (uucc.N c p).r 15 = ((((((((c.e * c.e) / ((((((4 : Nat) : ℝ) * √((((1 : Nat) : ℝ) - (c.SW * c.SW)))) * √((((1 : Nat) : ℝ) - (c.SW * c.SW)))) * c.SW) * c.SW)) * ((((1 : Nat) : ℝ) - (((((4 : Nat) : ℝ) / ((3 : Nat) : ℝ)) * c.SW) * c.SW)) - ((((-((4 : Nat) : ℝ)) / ((3 : Nat) : ℝ)) * c.SW) * c.SW))) * ((((1 : Nat) : ℝ) - (((((4 : Nat) : ℝ) / ((3 : Nat) : ℝ)) * c.SW) * c.SW)) - ((((-((4 : Nat) : ℝ)) / ((3 : Nat) : ℝ)) * c.SW) * c.SW))) * (c.mass .u)) * (c.mass .c)) / (c.MW / √((((1 : Nat) : ℝ) - (c.SW * c.SW))))) / (c.MW / √((((1 : Nat) : ℝ) - (c.SW * c.SW))))) := rfl
  simp only [c.root, c.mz] at r15
  have r14 : (uucc.N c p).r 14 = ((c.e * c.e) / ((((((4 : Nat) : ℝ) * √((((1 : Nat) : ℝ) - (c.SW * c.SW)))) * √((((1 : Nat) : ℝ) - (c.SW * c.SW)))) * c.SW) * c.SW)) := rfl
  simp only [c.root] at r14
  have r12 : (uucc.N c p).r 12 = (((1 : Nat) : ℝ) - (((((4 : Nat) : ℝ) / ((3 : Nat) : ℝ)) * c.SW) * c.SW)) := rfl
  have r13 : (uucc.N c p).r 13 = ((((-((4 : Nat) : ℝ)) / ((3 : Nat) : ℝ)) * c.SW) * c.SW) := rfl
  have r1 : (uucc.N c p).r 1 = c.gs := rfl
  have c0 : (uucc.N c p).c 0 = poleDist ((0 : Nat) : ℝ) ((0 : Nat) : ℝ) ((VExp.add 0 1).sum p) := rfl
  rw [Nat.cast_zero, pole_zero (ms.1).symm] at c0
  have c1 : (uucc.N c p).c 1 = poleDist c.MH c.WH ((VExp.add 0 1).sum p) := rfl
  rw [pole_congr (ms.1).symm] at c1
  have c2 : (uucc.N c p).c 2 = poleDist (c.MW / √((((1 : Nat) : ℝ) - (c.SW * c.SW)))) ((0 : Nat) : ℝ) ((VExp.add 0 1).sum p) := rfl
  rw [c.root, c.mz, Nat.cast_zero, ← hw, pole_congr (ms.1).symm] at c2
  have d0 := o1.photon (by decide) (by show (2/3 : ℝ) * (2/3) ≠ 0; norm_num)
  have d1 := o1.higgs (by decide) rfl (hc.massive _ (by decide)) (hc.massive _ (by decide))
  have d2 := o1.z (by decide) rfl
  have m0 : c.mass .u ≠ 0 := (hc.massive _ (by decide)).ne'
  have m1 : c.mass .u ≠ 0 := (hc.massive _ (by decide)).ne'
  have m2 : c.mass .c ≠ 0 := (hc.massive _ (by decide)).ne'
  have m3 : c.mass .c ≠ 0 := (hc.massive _ (by decide)).ne'
  have g0 : uucc.scat.sgn 0 = 1 := if_neg Bool.false_ne_true
  have g1 : uucc.scat.sgn 1 = -1 := if_pos rfl
  have g2 : uucc.scat.sgn 2 = 1 := if_neg Bool.false_ne_true
  have g3 : uucc.scat.sgn 3 = -1 := if_pos rfl
  have nMW := hc.MW
  have nSW := hc.SW
  have xMW : (c.MW : ℂ) ≠ 0 := by exact_mod_cast hc.MW
  have xSW : (c.SW : ℂ) ≠ 0 := by exact_mod_cast hc.SW
  have xCW : (c.CW : ℂ) ≠ 0 := by exact_mod_cast hc.CW
  have hd : uucc.proc.divides = [(Ty.c, 0), (Ty.c, 1), (Ty.c, 2)] := by decide +kernel
  have k_amp_rest : ∀ s : Fin 4 → Fin 2, uucc.amp_rest (uucc.N c p) (spinOf (s 0)) (spinOf (s 1)) (spinOf (s 2)) (spinOf (s 3)) = uucc.scat.ewC c p (uucc.scat.angs c p s) (uucc.scat.sqrs c p s) 1 0 2 3 := by
    intro s
    have v0 : (uucc.N c p).v 0 [spinOf (s 0), spinOf (s 2)] = ab (uucc.scat.angs c p s 0) (uucc.scat.angs c p s 2) := bra_angle (p := p) (m := uucc.proc.massNum (uucc.rho c)) rfl rfl (.inl ⟨m0, rfl⟩) (.inl ⟨m2, rfl⟩)
    have v1 : (uucc.N c p).v 1 [spinOf (s 0), spinOf (s 2)] = sb (uucc.scat.sqrs c p s 0) (uucc.scat.sqrs c p s 2) := bra_square (p := p) (m := uucc.proc.massNum (uucc.rho c)) rfl rfl (.inl ⟨m0, rfl⟩) (.inl ⟨m2, rfl⟩)
    have v2 : (uucc.N c p).v 2 [spinOf (s 0), spinOf (s 3)] = ab (uucc.scat.angs c p s 0) (uucc.scat.angs c p s 3) := bra_angle (p := p) (m := uucc.proc.massNum (uucc.rho c)) rfl rfl (.inl ⟨m0, rfl⟩) (.inl ⟨m3, rfl⟩)
    have v3 : (uucc.N c p).v 3 [spinOf (s 0), spinOf (s 3)] = sb (uucc.scat.sqrs c p s 0) (uucc.scat.sqrs c p s 3) := bra_square (p := p) (m := uucc.proc.massNum (uucc.rho c)) rfl rfl (.inl ⟨m0, rfl⟩) (.inl ⟨m3, rfl⟩)
    have v4 : (uucc.N c p).v 4 [spinOf (s 1), spinOf (s 2)] = ab (uucc.scat.angs c p s 1) (uucc.scat.angs c p s 2) := bra_angle (p := p) (m := uucc.proc.massNum (uucc.rho c)) rfl rfl (.inl ⟨m1, rfl⟩) (.inl ⟨m2, rfl⟩)
    have v5 : (uucc.N c p).v 5 [spinOf (s 1), spinOf (s 2)] = sb (uucc.scat.sqrs c p s 1) (uucc.scat.sqrs c p s 2) := bra_square (p := p) (m := uucc.proc.massNum (uucc.rho c)) rfl rfl (.inl ⟨m1, rfl⟩) (.inl ⟨m2, rfl⟩)
    have v6 : (uucc.N c p).v 6 [spinOf (s 1), spinOf (s 3)] = ab (uucc.scat.angs c p s 1) (uucc.scat.angs c p s 3) := bra_angle (p := p) (m := uucc.proc.massNum (uucc.rho c)) rfl rfl (.inl ⟨m1, rfl⟩) (.inl ⟨m3, rfl⟩)
    have v7 : (uucc.N c p).v 7 [spinOf (s 1), spinOf (s 3)] = sb (uucc.scat.sqrs c p s 1) (uucc.scat.sqrs c p s 3) := bra_square (p := p) (m := uucc.proc.massNum (uucc.rho c)) rfl rfl (.inl ⟨m1, rfl⟩) (.inl ⟨m3, rfl⟩)
    have v8 : (uucc.N c p).v 8 [spinOf (s 0), spinOf (s 1)] = sb (uucc.scat.sqrs c p s 0) (uucc.scat.sqrs c p s 1) := bra_square (p := p) (m := uucc.proc.massNum (uucc.rho c)) rfl rfl (.inl ⟨m0, rfl⟩) (.inl ⟨m1, rfl⟩)
    have v9 : (uucc.N c p).v 9 [spinOf (s 0), spinOf (s 1)] = ab (uucc.scat.angs c p s 0) (uucc.scat.angs c p s 1) := bra_angle (p := p) (m := uucc.proc.massNum (uucc.rho c)) rfl rfl (.inl ⟨m0, rfl⟩) (.inl ⟨m1, rfl⟩)
    have v10 : (uucc.N c p).v 10 [spinOf (s 2), spinOf (s 3)] = sb (uucc.scat.sqrs c p s 2) (uucc.scat.sqrs c p s 3) := bra_square (p := p) (m := uucc.proc.massNum (uucc.rho c)) rfl rfl (.inl ⟨m2, rfl⟩) (.inl ⟨m3, rfl⟩)
    have v11 : (uucc.N c p).v 11 [spinOf (s 2), spinOf (s 3)] = ab (uucc.scat.angs c p s 2) (uucc.scat.angs c p s 3) := bra_angle (p := p) (m := uucc.proc.massNum (uucc.rho c)) rfl rfl (.inl ⟨m2, rfl⟩) (.inl ⟨m3, rfl⟩)
    rw [ewC_neutral (S := uucc.scat) (i := 1) (j := 0) (k := 2) (l := 3) (f := .u) (g := .c) (by decide) (by decide) rfl rfl rfl g1 g0 g2 g3 rfl rfl rfl, uucc.amp_rest]
    simp only [r0, r11, r12, r13, r14, r15, c0, c1, c2, v0, v1, v2, v3, v4, v5, v6, v7, v8, v9, v10, v11, jj, ln, lw, Constants.gL, Constants.gR, Flavour.charge_c, Flavour.isospin_c, Flavour.charge_u, Flavour.isospin_u]
    abstract_brackets uucc.scat c p s
    push_cast
    ring
  have k_amp_gluon : ∀ s : Fin 4 → Fin 2, uucc.amp_gluon (uucc.N c p) (spinOf (s 0)) (spinOf (s 1)) (spinOf (s 2)) (spinOf (s 3)) = uucc.scat.strongC c p (uucc.scat.angs c p s) (uucc.scat.sqrs c p s) 1 0 2 3 := by
    intro s
    have v0 : (uucc.N c p).v 0 [spinOf (s 0), spinOf (s 2)] = ab (uucc.scat.angs c p s 0) (uucc.scat.angs c p s 2) := bra_angle (p := p) (m := uucc.proc.massNum (uucc.rho c)) rfl rfl (.inl ⟨m0, rfl⟩) (.inl ⟨m2, rfl⟩)
    have v1 : (uucc.N c p).v 1 [spinOf (s 0), spinOf (s 2)] = sb (uucc.scat.sqrs c p s 0) (uucc.scat.sqrs c p s 2) := bra_square (p := p) (m := uucc.proc.massNum (uucc.rho c)) rfl rfl (.inl ⟨m0, rfl⟩) (.inl ⟨m2, rfl⟩)
    have v2 : (uucc.N c p).v 2 [spinOf (s 0), spinOf (s 3)] = ab (uucc.scat.angs c p s 0) (uucc.scat.angs c p s 3) := bra_angle (p := p) (m := uucc.proc.massNum (uucc.rho c)) rfl rfl (.inl ⟨m0, rfl⟩) (.inl ⟨m3, rfl⟩)
    have v3 : (uucc.N c p).v 3 [spinOf (s 0), spinOf (s 3)] = sb (uucc.scat.sqrs c p s 0) (uucc.scat.sqrs c p s 3) := bra_square (p := p) (m := uucc.proc.massNum (uucc.rho c)) rfl rfl (.inl ⟨m0, rfl⟩) (.inl ⟨m3, rfl⟩)
    have v4 : (uucc.N c p).v 4 [spinOf (s 1), spinOf (s 2)] = ab (uucc.scat.angs c p s 1) (uucc.scat.angs c p s 2) := bra_angle (p := p) (m := uucc.proc.massNum (uucc.rho c)) rfl rfl (.inl ⟨m1, rfl⟩) (.inl ⟨m2, rfl⟩)
    have v5 : (uucc.N c p).v 5 [spinOf (s 1), spinOf (s 2)] = sb (uucc.scat.sqrs c p s 1) (uucc.scat.sqrs c p s 2) := bra_square (p := p) (m := uucc.proc.massNum (uucc.rho c)) rfl rfl (.inl ⟨m1, rfl⟩) (.inl ⟨m2, rfl⟩)
    have v6 : (uucc.N c p).v 6 [spinOf (s 1), spinOf (s 3)] = ab (uucc.scat.angs c p s 1) (uucc.scat.angs c p s 3) := bra_angle (p := p) (m := uucc.proc.massNum (uucc.rho c)) rfl rfl (.inl ⟨m1, rfl⟩) (.inl ⟨m3, rfl⟩)
    have v7 : (uucc.N c p).v 7 [spinOf (s 1), spinOf (s 3)] = sb (uucc.scat.sqrs c p s 1) (uucc.scat.sqrs c p s 3) := bra_square (p := p) (m := uucc.proc.massNum (uucc.rho c)) rfl rfl (.inl ⟨m1, rfl⟩) (.inl ⟨m3, rfl⟩)
    rw [strongC_quarks (S := uucc.scat) (i := 1) (j := 0) (k := 2) (l := 3) (by decide) rfl rfl rfl g1 g0 g2 g3 rfl, uucc.amp_gluon]
    simp only [r1, c0, v0, v1, v2, v3, v4, v5, v6, v7, jj, ln, lw, Constants.gL, Constants.gR, Flavour.charge_c, Flavour.isospin_c, Flavour.charge_u, Flavour.isospin_u]
    abstract_brackets uucc.scat c p s
    push_cast
    ring
  refine ⟨fun n hn => ?_, fun n hn => ?_, ?_⟩
  · simp [hd] at hn
  · simp [hd] at hn
    rcases hn with rfl | rfl | rfl
    · rw [c0]; exact d0
    · rw [c1]; exact d1
    · rw [c2]; exact d2
  show meaning (uucc.N c p) .r Cls.uucc.methods Cls.uucc.amp2 [] = _
  have ss : uucc.scat.states = 36 := by decide
  have sy : uucc.scat.symmetry = 1 := by decide
  rw [uucc.value, uucc.scat.squared_quarks he ht hs h0 hf hu (by decide) colours_annihilation (by decide), ss, sy, Nat.cast_zero]
  simp only [add_assoc]
  rw [sumJ_four, Finset.sum_div, Finset.sum_div]
  refine Finset.sum_congr rfl fun s _ => ?_
  rw [k_amp_gluon, k_amp_rest]
  try simp only [ewC_none (S := uucc.scat) (i := 1) (j := 3) (k := 2) (l := 0) (by decide) (by decide), strongC_none (S := uucc.scat) (i := 1) (j := 3) (k := 2) (l := 0) (by decide)]
  finish_spins

/-! ### uuss -/

/-- what the methods of the class see -/
noncomputable abbrev uuss.N [FPEnv] (c : Constants) (p : Nat → V4 ℝ) : Env := uuss.proc.env (uuss.rho c) p
/-- `amp_gluon` (SM/uuss.cpp) -/
noncomputable def uuss.amp_gluon (N : Env) (j1 j2 j3 j4 : Int) : ℂ :=
  ((((((((2 : Nat) : ℝ) * N.r 1) * N.r 1) : ℝ) : ℂ) * ((((N.v 0 [j1, j3] * N.v 7 [j2, j4]) + (N.v 2 [j1, j4] * N.v 5 [j2, j3])) + (N.v 1 [j1, j3] * N.v 6 [j2, j4])) + (N.v 3 [j1, j4] * N.v 4 [j2, j3]))) / N.c 0)
/-- `amp_rest` (SM/uuss.cpp) -/
noncomputable def uuss.amp_rest (N : Env) (j1 j2 j3 j4 : Int) : ℂ :=
  (((((((((((-((2 : Nat) : ℝ)) * N.r 0) * N.r 0) * ((2 : Nat) : ℝ)) / ((9 : Nat) : ℝ)) : ℝ) : ℂ) * ((((N.v 0 [j1, j3] * N.v 7 [j2, j4]) + (N.v 2 [j1, j4] * N.v 5 [j2, j3])) + (N.v 1 [j1, j3] * N.v 6 [j2, j4])) + (N.v 3 [j1, j4] * N.v 4 [j2, j3]))) / N.c 0) + (((((N.r 11 : ℝ) : ℂ) * (N.v 8 [j1, j2] + N.v 9 [j1, j2])) * (N.v 10 [j3, j4] + N.v 11 [j3, j4])) / N.c 1)) + (((((((-N.r 17) : ℝ) : ℂ) * (N.v 9 [j1, j2] - N.v 8 [j1, j2])) * (N.v 11 [j3, j4] - N.v 10 [j3, j4])) / N.c 2) + (((((((2 : Nat) : ℝ) * N.r 16) : ℝ) : ℂ) * ((((((((N.r 12 * N.r 14) : ℝ) : ℂ) * N.v 5 [j2, j3]) * N.v 2 [j1, j4]) + (((((N.r 14 * N.r 13) : ℝ) : ℂ) * N.v 1 [j1, j3]) * N.v 6 [j2, j4])) + (((((N.r 12 * N.r 15) : ℝ) : ℂ) * N.v 7 [j2, j4]) * N.v 0 [j1, j3])) + (((((N.r 13 * N.r 15) : ℝ) : ℂ) * N.v 3 [j1, j4]) * N.v 4 [j2, j3]))) / N.c 2)))
set_option maxRecDepth 8000 in
theorem uuss.amp2_eq (N : Env) (f : Nat → List Int → ℂ) : Cls.uuss.m_amp2.mean N f .r [] =
    ((sumJ (fun x a => (sumJ (fun x b => (sumJ (fun x c => (sumJ (fun x d => ((x + (((9 : Nat) : ℝ) * (‖(f 1 [a, b, c, d])‖ ^ 2))) + (((2 : Nat) : ℝ) * (‖(f 0 [a, b, c, d])‖ ^ 2)))) x)) x)) x)) ((0 : Nat) : ℝ)) / ((36 : Nat) : ℝ)) := by rfl
set_option maxRecDepth 8000 in
theorem uuss.value (N : Env) : meaning N .r Cls.uuss.methods Cls.uuss.amp2 [] =
    ((sumJ (fun x a => (sumJ (fun x b => (sumJ (fun x c => (sumJ (fun x d => ((x + (((9 : Nat) : ℝ) * (‖(uuss.amp_rest N a b c d)‖ ^ 2))) + (((2 : Nat) : ℝ) * (‖(uuss.amp_gluon N a b c d)‖ ^ 2)))) x)) x)) x)) ((0 : Nat) : ℝ)) / ((36 : Nat) : ℝ)) :=
  uuss.amp2_eq N (callMean N [Cls.uuss.m_amp_rest, Cls.uuss.m_amp_gluon])

variable [FPEnv] in
theorem uuss.agrees : uuss.Agrees := by
  refine agrees_of (D := [6, 7]) (E := [7]) (by simp [all, uuss]) (by decide +kernel) (by decide) (by decide +kernel) (fun c hc => ⟨List.forall_mem_cons.2 ⟨hc.MW, List.forall_mem_cons.2 ⟨hc.SW, List.forall_mem_nil _⟩⟩, List.forall_mem_cons.2 ⟨hc.SW_lt, List.forall_mem_nil _⟩⟩) (fun c hc i => by fin_cases i <;> rfl) (by decide +kernel) ?_
  intro c p u hc hw h0 hs hb hr hu
  replace hw := hw (by simp [uuss])
  have he : uuss.scat.ends = [1, 2] := by decide
  have ht : uuss.scat.starts = [0, 3] := by decide
  obtain ⟨o1, o2⟩ := regular_two he ht hr
  have hf := uuss.scat.flows_annihilation (by decide) hb
  have ms := uuss.scat.msq_annihilation (by decide) hb
  have r0 : (uuss.N c p).r 0 = c.e := rfl
  have r11 : (uuss.N c p).r 11 = ((((c.e * c.e) * (c.mass .u)) * (c.mass .s)) / ((((((4 : Nat) : ℝ) * c.MW) * c.MW) * c.SW) * c.SW)) := rfl
  have r17 : (uuss.N c p).r 17 = ((((((((c.e * c.e) / ((((((4 : Nat) : ℝ) * √((((1 : Nat) : ℝ) - (c.SW * c.SW)))) * √((((1 : Nat) : ℝ) - (c.SW * c.SW)))) * c.SW) * c.SW)) * ((((1 : Nat) : ℝ) - (((((4 : Nat) : ℝ) / ((3 : Nat) : ℝ)) * c.SW) * c.SW)) - ((((-((4 : Nat) : ℝ)) / ((3 : Nat) : ℝ)) * c.SW) * c.SW))) * (((-((1 : Nat) : ℝ)) + (((((2 : Nat) : ℝ) / ((3 : Nat) : ℝ)) * c.SW) * c.SW)) - (((((2 : Nat) : ℝ) / ((3 : Nat) : ℝ)) * c.SW) * c.SW))) * (c.mass .u)) * (c.mass .s)) / (c.MW / √((((1 : Nat) : ℝ) - (c.SW * c.SW))))) / (c.MW / √((((1 : Nat) : ℝ) - (c.SW * c.SW))))) := rfl
  simp only [c.root, c.mz] at r17
  have r16 : (uuss.N c p).r 16 = ((c.e * c.e) / ((((((4 : Nat) : ℝ) * √((((1 : Nat) : ℝ) - (c.SW * c.SW)))) * √((((1 : Nat) : ℝ) - (c.SW * c.SW)))) * c.SW) * c.SW)) := rfl
  simp only [c.root] at r16
  have r12 : (uuss.N c p).r 12 = (((1 : Nat) : ℝ) - (((((4 : Nat) : ℝ) / ((3 : Nat) : ℝ)) * c.SW) * c.SW)) := rfl
  have r14 : (uuss.N c p).r 14 = ((-((1 : Nat) : ℝ)) + (((((2 : Nat) : ℝ) / ((3 : Nat) : ℝ)) * c.SW) * c.SW)) := rfl
  have r13 : (uuss.N c p).r 13 = ((((-((4 : Nat) : ℝ)) / ((3 : Nat) : ℝ)) * c.SW) * c.SW) := rfl
  have r15 : (uuss.N c p).r 15 = (((((2 : Nat) : ℝ) / ((3 : Nat) : ℝ)) * c.SW) * c.SW) := rfl
  have r1 : (uuss.N c p).r 1 = c.gs := rfl
  have c0 : (uuss.N c p).c 0 = poleDist ((0 : Nat) : ℝ) ((0 : Nat) : ℝ) ((VExp.add 0 1).sum p) := rfl
  rw [Nat.cast_zero, pole_zero (ms.1).symm] at c0
  have c1 : (uuss.N c p).c 1 = poleDist c.MH c.WH ((VExp.add 0 1).sum p) := rfl
  rw [pole_congr (ms.1).symm] at c1
  have c2 : (uuss.N c p).c 2 = poleDist (c.MW / √((((1 : Nat) : ℝ) - (c.SW * c.SW)))) ((0 : Nat) : ℝ) ((VExp.add 0 1).sum p) := rfl
  rw [c.root, c.mz, Nat.cast_zero, ← hw, pole_congr (ms.1).symm] at c2
  have d0 := o1.photon (by decide) (by show (2/3 : ℝ) * (-1/3) ≠ 0; norm_num)
  have d1 := o1.higgs (by decide) rfl (hc.massive _ (by decide)) (hc.massive _ (by decide))
  have d2 := o1.z (by decide) rfl
  have m0 : c.mass .u ≠ 0 := (hc.massive _ (by decide)).ne'
  have m1 : c.mass .u ≠ 0 := (hc.massive _ (by decide)).ne'
  have m2 : c.mass .s ≠ 0 := (hc.massive _ (by decide)).ne'
  have m3 : c.mass .s ≠ 0 := (hc.massive _ (by decide)).ne'
  have g0 : uuss.scat.sgn 0 = 1 := if_neg Bool.false_ne_true
  have g1 : uuss.scat.sgn 1 = -1 := if_pos rfl
  have g2 : uuss.scat.sgn 2 = 1 := if_neg Bool.false_ne_true
  have g3 : uuss.scat.sgn 3 = -1 := if_pos rfl
  have nMW := hc.MW
  have nSW := hc.SW
  have xMW : (c.MW : ℂ) ≠ 0 := by exact_mod_cast hc.MW
  have xSW : (c.SW : ℂ) ≠ 0 := by exact_mod_cast hc.SW
  have xCW : (c.CW : ℂ) ≠ 0 := by exact_mod_cast hc.CW
  have hd : uuss.proc.divides = [(Ty.c, 0), (Ty.c, 1), (Ty.c, 2)] := by decide +kernel
  have k_amp_rest : ∀ s : Fin 4 → Fin 2, uuss.amp_rest (uuss.N c p) (spinOf (s 0)) (spinOf (s 1)) (spinOf (s 2)) (spinOf (s 3)) = uuss.scat.ewC c p (uuss.scat.angs c p s) (uuss.scat.sqrs c p s) 1 0 2 3 := by
    intro s
    have v0 : (uuss.N c p).v 0 [spinOf (s 0), spinOf (s 2)] = ab (uuss.scat.angs c p s 0) (uuss.scat.angs c p s 2) := bra_angle (p := p) (m := uuss.proc.massNum (uuss.rho c)) rfl rfl (.inl ⟨m0, rfl⟩) (.inl ⟨m2, rfl⟩)
    have v1 : (uuss.N c p).v 1 [spinOf (s 0), spinOf (s 2)] = sb (uuss.scat.sqrs c p s 0) (uuss.scat.sqrs c p s 2) := bra_square (p := p) (m := uuss.proc.massNum (uuss.rho c)) rfl rfl (.inl ⟨m0, rfl⟩) (.inl ⟨m2, rfl⟩)
    have v2 : (uuss.N c p).v 2 [spinOf (s 0), spinOf (s 3)] = ab (uuss.scat.angs c p s 0) (uuss.scat.angs c p s 3) := bra_angle (p := p) (m := uuss.proc.massNum (uuss.rho c)) rfl rfl (.inl ⟨m0, rfl⟩) (.inl ⟨m3, rfl⟩)
    have v3 : (uuss.N c p).v 3 [spinOf (s 0), spinOf (s 3)] = sb (uuss.scat.sqrs c p s 0) (uuss.scat.sqrs c p s 3) := bra_square (p := p) (m := uuss.proc.massNum (uuss.rho c)) rfl rfl (.inl ⟨m0, rfl⟩) (.inl ⟨m3, rfl⟩)
    have v4 : (uuss.N c p).v 4 [spinOf (s 1), spinOf (s 2)] = ab (uuss.scat.angs c p s 1) (uuss.scat.angs c p s 2) := bra_angle (p := p) (m := uuss.proc.massNum (uuss.rho c)) rfl rfl (.inl ⟨m1, rfl⟩) (.inl ⟨m2, rfl⟩)
    have v5 : (uuss.N c p).v 5 [spinOf (s 1), spinOf (s 2)] = sb (uuss.scat.sqrs c p s 1) (uuss.scat.sqrs c p s 2) := bra_square (p := p) (m := uuss.proc.massNum (uuss.rho c)) rfl rfl (.inl ⟨m1, rfl⟩) (.inl ⟨m2, rfl⟩)
    have v6 : (uuss.N c p).v 6 [spinOf (s 1), spinOf (s 3)] = ab (uuss.scat.angs c p s 1) (uuss.scat.angs c p s 3) := bra_angle (p := p) (m := uuss.proc.massNum (uuss.rho c)) rfl rfl (.inl ⟨m1, rfl⟩) (.inl ⟨m3, rfl⟩)
    have v7 : (uuss.N c p).v 7 [spinOf (s 1), spinOf (s 3)] = sb (uuss.scat.sqrs c p s 1) (uuss.scat.sqrs c p s 3) := bra_square (p := p) (m := uuss.proc.massNum (uuss.rho c)) rfl rfl (.inl ⟨m1, rfl⟩) (.inl ⟨m3, rfl⟩)
    have v8 : (uuss.N c p).v 8 [spinOf (s 0), spinOf (s 1)] = sb (uuss.scat.sqrs c p s 0) (uuss.scat.sqrs c p s 1) := bra_square (p := p) (m := uuss.proc.massNum (uuss.rho c)) rfl rfl (.inl ⟨m0, rfl⟩) (.inl ⟨m1, rfl⟩)
    have v9 : (uuss.N c p).v 9 [spinOf (s 0), spinOf (s 1)] = ab (uuss.scat.angs c p s 0) (uuss.scat.angs c p s 1) := bra_angle (p := p) (m := uuss.proc.massNum (uuss.rho c)) rfl rfl (.inl ⟨m0, rfl⟩) (.inl ⟨m1, rfl⟩)
    have v10 : (uuss.N c p).v 10 [spinOf (s 2), spinOf (s 3)] = sb (uuss.scat.sqrs c p s 2) (uuss.scat.sqrs c p s 3) := bra_square (p := p) (m := uuss.proc.massNum (uuss.rho c)) rfl rfl (.inl ⟨m2, rfl⟩) (.inl ⟨m3, rfl⟩)
    have v11 : (uuss.N c p).v 11 [spinOf (s 2), spinOf (s 3)] = ab (uuss.scat.angs c p s 2) (uuss.scat.angs c p s 3) := bra_angle (p := p) (m := uuss.proc.massNum (uuss.rho c)) rfl rfl (.inl ⟨m2, rfl⟩) (.inl ⟨m3, rfl⟩)
    rw [ewC_neutral (S := uuss.scat) (i := 1) (j := 0) (k := 2) (l := 3) (f := .u) (g := .s) (by decide) (by decide) rfl rfl rfl g1 g0 g2 g3 rfl rfl rfl, uuss.amp_rest]
    simp only [r0, r11, r12, r13, r14, r15, r16, r17, c0, c1, c2, v0, v1, v2, v3, v4, v5, v6, v7, v8, v9, v10, v11, jj, ln, lw, Constants.gL, Constants.gR, Flavour.charge_s, Flavour.isospin_s, Flavour.charge_u, Flavour.isospin_u]
    abstract_brackets uuss.scat c p s
    push_cast
    ring
  have k_amp_gluon : ∀ s : Fin 4 → Fin 2, uuss.amp_gluon (uuss.N c p) (spinOf (s 0)) (spinOf (s 1)) (spinOf (s 2)) (spinOf (s 3)) = uuss.scat.strongC c p (uuss.scat.angs c p s) (uuss.scat.sqrs c p s) 1 0 2 3 := by
    intro s
    have v0 : (uuss.N c p).v 0 [spinOf (s 0), spinOf (s 2)] = ab (uuss.scat.angs c p s 0) (uuss.scat.angs c p s 2) := bra_angle (p := p) (m := uuss.proc.massNum (uuss.rho c)) rfl rfl (.inl ⟨m0, rfl⟩) (.inl ⟨m2, rfl⟩)
    have v1 : (uuss.N c p).v 1 [spinOf (s 0), spinOf (s 2)] = sb (uuss.scat.sqrs c p s 0) (uuss.scat.sqrs c p s 2) := bra_square (p := p) (m := uuss.proc.massNum (uuss.rho c)) rfl rfl (.inl ⟨m0, rfl⟩) (.inl ⟨m2, rfl⟩)
    have v2 : (uuss.N c p).v 2 [spinOf (s 0), spinOf (s 3)] = ab (uuss.scat.angs c p s 0) (uuss.scat.angs c p s 3) := bra_angle (p := p) (m := uuss.proc.massNum (uuss.rho c)) rfl rfl (.inl ⟨m0, rfl⟩) (.inl ⟨m3, rfl⟩)
    have v3 : (uuss.N c p).v 3 [spinOf (s 0), spinOf (s 3)] = sb (uuss.scat.sqrs c p s 0) (uuss.scat.sqrs c p s 3) := bra_square (p := p) (m := uuss.proc.massNum (uuss.rho c)) rfl rfl (.inl ⟨m0, rfl⟩) (.inl ⟨m3, rfl⟩)
    have v4 : (uuss.N c p).v 4 [spinOf (s 1), spinOf (s 2)] = ab (uuss.scat.angs c p s 1) (uuss.scat.angs c p s 2) := bra_angle (p := p) (m := uuss.proc.massNum (uuss.rho c)) rfl rfl (.inl ⟨m1, rfl⟩) (.inl ⟨m2, rfl⟩)
    have v5 : (uuss.N c p).v 5 [spinOf (s 1), spinOf (s 2)] = sb (uuss.scat.sqrs c p s 1) (uuss.scat.sqrs c p s 2) := bra_square (p := p) (m := uuss.proc.massNum (uuss.rho c)) rfl rfl (.inl ⟨m1, rfl⟩) (.inl ⟨m2, rfl⟩)
    have v6 : (uuss.N c p).v 6 [spinOf (s 1), spinOf (s 3)] = ab (uuss.scat.angs c p s 1) (uuss.scat.angs c p s 3) := bra_angle (p := p) (m := uuss.proc.massNum (uuss.rho c)) rfl rfl (.inl ⟨m1, rfl⟩) (.inl ⟨m3, rfl⟩)
    have v7 : (uuss.N c p).v 7 [spinOf (s 1), spinOf (s 3)] = sb (uuss.scat.sqrs c p s 1) (uuss.scat.sqrs c p s 3) := bra_square (p := p) (m := uuss.proc.massNum (uuss.rho c)) rfl rfl (.inl ⟨m1, rfl⟩) (.inl ⟨m3, rfl⟩)
    rw [strongC_quarks (S := uuss.scat) (i := 1) (j := 0) (k := 2) (l := 3) (by decide) rfl rfl rfl g1 g0 g2 g3 rfl, uuss.amp_gluon]
    simp only [r1, c0, v0, v1, v2, v3, v4, v5, v6, v7, jj, ln, lw, Constants.gL, Constants.gR, Flavour.charge_s, Flavour.isospin_s, Flavour.charge_u, Flavour.isospin_u]
    abstract_brackets uuss.scat c p s
    push_cast
    ring
  refine ⟨fun n hn => ?_, fun n hn => ?_, ?_⟩
  · simp [hd] at hn
  · simp [hd] at hn
    rcases hn with rfl | rfl | rfl
    · rw [c0]; exact d0
    · rw [c1]; exact d1
    · rw [c2]; exact d2
  show meaning (uuss.N c p) .r Cls.uuss.methods Cls.uuss.amp2 [] = _
  have ss : uuss.scat.states = 36 := by decide
  have sy : uuss.scat.symmetry = 1 := by decide
  rw [uuss.value, uuss.scat.squared_quarks he ht hs h0 hf hu (by decide) colours_annihilation (by decide), ss, sy, Nat.cast_zero]
  simp only [add_assoc]
  rw [sumJ_four, Finset.sum_div, Finset.sum_div]
  refine Finset.sum_congr rfl fun s _ => ?_
  rw [k_amp_gluon, k_amp_rest]
  try simp only [ewC_none (S := uuss.scat) (i := 1) (j := 3) (k := 2) (l := 0) (by decide) (by decide), strongC_none (S := uuss.scat) (i := 1) (j := 3) (k := 2) (l := 0) (by decide)]
  finish_spins

/-! ### dsds -/

/-- what the methods of the class see -/
noncomputable abbrev dsds.N [FPEnv] (c : Constants) (p : Nat → V4 ℝ) : Env := dsds.proc.env (dsds.rho c) p
/-- `amp_gluon` (SM/dsds.cpp) -/
noncomputable def dsds.amp_gluon (N : Env) (j1 j2 j3 j4 : Int) : ℂ :=
  (((((((-((2 : Nat) : ℝ)) * N.r 1) * N.r 1) : ℝ) : ℂ) * ((((N.v 2 [j1, j4] * N.v 5 [j2, j3]) + (N.v 9 [j1, j2] * N.v 10 [j3, j4])) + (N.v 3 [j1, j4] * N.v 4 [j2, j3])) + (N.v 8 [j1, j2] * N.v 11 [j3, j4]))) / N.c 0)
/-- `amp_rest` (SM/dsds.cpp) -/
noncomputable def dsds.amp_rest (N : Env) (j1 j2 j3 j4 : Int) : ℂ :=
  (((((((((((-((2 : Nat) : ℝ)) * N.r 0) * N.r 0) * ((1 : Nat) : ℝ)) / ((9 : Nat) : ℝ)) : ℝ) : ℂ) * ((((N.v 2 [j1, j4] * N.v 5 [j2, j3]) + (N.v 9 [j1, j2] * N.v 10 [j3, j4])) + (N.v 3 [j1, j4] * N.v 4 [j2, j3])) + (N.v 8 [j1, j2] * N.v 11 [j3, j4]))) / N.c 0) + ((((((-N.r 11) : ℝ) : ℂ) * (N.v 1 [j1, j3] - N.v 0 [j1, j3])) * (N.v 7 [j2, j4] - N.v 6 [j2, j4])) / N.c 1)) + ((((((N.r 15 : ℝ) : ℂ) * (N.v 0 [j1, j3] + N.v 1 [j1, j3])) * (N.v 6 [j2, j4] + N.v 7 [j2, j4])) / N.c 2) - (((((((2 : Nat) : ℝ) * N.r 14) : ℝ) : ℂ) * (((((((N.r 12 * N.r 12) : ℝ) : ℂ) * N.v 10 [j3, j4]) * N.v 9 [j1, j2]) + ((((N.r 12 * N.r 13) : ℝ) : ℂ) * ((N.v 3 [j1, j4] * N.v 4 [j2, j3]) + (N.v 5 [j2, j3] * N.v 2 [j1, j4])))) + (((((N.r 13 * N.r 13) : ℝ) : ℂ) * N.v 8 [j1, j2]) * N.v 11 [j3, j4]))) / N.c 2)))
set_option maxRecDepth 8000 in
theorem dsds.amp2_eq (N : Env) (f : Nat → List Int → ℂ) : Cls.dsds.m_amp2.mean N f .r [] =
    ((sumJ (fun x a => (sumJ (fun x b => (sumJ (fun x c => (sumJ (fun x d => ((x + (((9 : Nat) : ℝ) * (‖(f 1 [a, b, c, d])‖ ^ 2))) + (((2 : Nat) : ℝ) * (‖(f 0 [a, b, c, d])‖ ^ 2)))) x)) x)) x)) ((0 : Nat) : ℝ)) / ((36 : Nat) : ℝ)) := by rfl
set_option maxRecDepth 8000 in
theorem dsds.value (N : Env) : meaning N .r Cls.dsds.methods Cls.dsds.amp2 [] =
    ((sumJ (fun x a => (sumJ (fun x b => (sumJ (fun x c => (sumJ (fun x d => ((x + (((9 : Nat) : ℝ) * (‖(dsds.amp_rest N a b c d)‖ ^ 2))) + (((2 : Nat) : ℝ) * (‖(dsds.amp_gluon N a b c d)‖ ^ 2)))) x)) x)) x)) ((0 : Nat) : ℝ)) / ((36 : Nat) : ℝ)) :=
  dsds.amp2_eq N (callMean N [Cls.dsds.m_amp_rest, Cls.dsds.m_amp_gluon])

variable [FPEnv] in
theorem dsds.agrees : dsds.Agrees := by
  refine agrees_of (D := [6, 7]) (E := [7]) (by simp [all, dsds]) (by decide +kernel) (by decide) (by decide +kernel) (fun c hc => ⟨List.forall_mem_cons.2 ⟨hc.MW, List.forall_mem_cons.2 ⟨hc.SW, List.forall_mem_nil _⟩⟩, List.forall_mem_cons.2 ⟨hc.SW_lt, List.forall_mem_nil _⟩⟩) (fun c hc i => by fin_cases i <;> rfl) (by decide +kernel) ?_
  intro c p u hc hw h0 hs hb hr hu
  replace hw := hw (by simp [dsds])
  have he : dsds.scat.ends = [2, 3] := by decide
  have ht : dsds.scat.starts = [0, 1] := by decide
  obtain ⟨o1, o2⟩ := regular_two he ht hr
  have hf := dsds.scat.flows_scattering (by decide) hb
  have ms := dsds.scat.msq_scattering (by decide) hb
  have r0 : (dsds.N c p).r 0 = c.e := rfl
  have r11 : (dsds.N c p).r 11 = ((((c.e * c.e) * (c.mass .d)) * (c.mass .s)) / ((((((4 : Nat) : ℝ) * c.MW) * c.MW) * c.SW) * c.SW)) := rfl
  have r15 : (dsds.N c p).r 15 = ((((((((c.e * c.e) / ((((((4 : Nat) : ℝ) * √((((1 : Nat) : ℝ) - (c.SW * c.SW)))) * √((((1 : Nat) : ℝ) - (c.SW * c.SW)))) * c.SW) * c.SW)) * (((-((1 : Nat) : ℝ)) + (((((2 : Nat) : ℝ) / ((3 : Nat) : ℝ)) * c.SW) * c.SW)) - (((((2 : Nat) : ℝ) / ((3 : Nat) : ℝ)) * c.SW) * c.SW))) * (((-((1 : Nat) : ℝ)) + (((((2 : Nat) : ℝ) / ((3 : Nat) : ℝ)) * c.SW) * c.SW)) - (((((2 : Nat) : ℝ) / ((3 : Nat) : ℝ)) * c.SW) * c.SW))) * (c.mass .d)) * (c.mass .s)) / (c.MW / √((((1 : Nat) : ℝ) - (c.SW * c.SW))))) / (c.MW / √((((1 : Nat) : ℝ) - (c.SW * c.SW))))) := rfl
  simp only [c.root, c.mz] at r15
  have r14 : (dsds.N c p).r 14 = ((c.e * c.e) / ((((((4 : Nat) : ℝ) * √((((1 : Nat) : ℝ) - (c.SW * c.SW)))) * √((((1 : Nat) : ℝ) - (c.SW * c.SW)))) * c.SW) * c.SW)) := rfl
  simp only [c.root] at r14
  have r12 : (dsds.N c p).r 12 = ((-((1 : Nat) : ℝ)) + (((((2 : Nat) : ℝ) / ((3 : Nat) : ℝ)) * c.SW) * c.SW)) := rfl
  have r13 : (dsds.N c p).r 13 = (((((2 : Nat) : ℝ) / ((3 : Nat) : ℝ)) * c.SW) * c.SW) := rfl
  have r1 : (dsds.N c p).r 1 = c.gs := rfl
  have c0 : (dsds.N c p).c 0 = poleDist ((0 : Nat) : ℝ) ((0 : Nat) : ℝ) ((VExp.sub 0 2).sum p) := rfl
  rw [Nat.cast_zero, pole_zero (ms.1).symm] at c0
  have c1 : (dsds.N c p).c 1 = poleDist c.MH c.WH ((VExp.sub 0 2).sum p) := rfl
  rw [pole_congr (ms.1).symm] at c1
  have c2 : (dsds.N c p).c 2 = poleDist (c.MW / √((((1 : Nat) : ℝ) - (c.SW * c.SW)))) ((0 : Nat) : ℝ) ((VExp.sub 0 2).sum p) := rfl
  rw [c.root, c.mz, Nat.cast_zero, ← hw, pole_congr (ms.1).symm] at c2
  have d0 := o1.photon (by decide) (by show (-1/3 : ℝ) * (-1/3) ≠ 0; norm_num)
  have d1 := o1.higgs (by decide) rfl (hc.massive _ (by decide)) (hc.massive _ (by decide))
  have d2 := o1.z (by decide) rfl
  have m0 : c.mass .d ≠ 0 := (hc.massive _ (by decide)).ne'
  have m1 : c.mass .s ≠ 0 := (hc.massive _ (by decide)).ne'
  have m2 : c.mass .d ≠ 0 := (hc.massive _ (by decide)).ne'
  have m3 : c.mass .s ≠ 0 := (hc.massive _ (by decide)).ne'
  have g0 : dsds.scat.sgn 0 = 1 := if_neg Bool.false_ne_true
  have g1 : dsds.scat.sgn 1 = 1 := if_neg Bool.false_ne_true
  have g2 : dsds.scat.sgn 2 = 1 := if_neg Bool.false_ne_true
  have g3 : dsds.scat.sgn 3 = 1 := if_neg Bool.false_ne_true
  have nMW := hc.MW
  have nSW := hc.SW
  have xMW : (c.MW : ℂ) ≠ 0 := by exact_mod_cast hc.MW
  have xSW : (c.SW : ℂ) ≠ 0 := by exact_mod_cast hc.SW
  have xCW : (c.CW : ℂ) ≠ 0 := by exact_mod_cast hc.CW
  have hd : dsds.proc.divides = [(Ty.c, 0), (Ty.c, 1), (Ty.c, 2)] := by decide +kernel
  have k_amp_rest : ∀ s : Fin 4 → Fin 2, dsds.amp_rest (dsds.N c p) (spinOf (s 0)) (spinOf (s 1)) (spinOf (s 2)) (spinOf (s 3)) = dsds.scat.ewC c p (dsds.scat.angs c p s) (dsds.scat.sqrs c p s) 2 0 3 1 := by
    intro s
    have v0 : (dsds.N c p).v 0 [spinOf (s 0), spinOf (s 2)] = ab (dsds.scat.angs c p s 0) (dsds.scat.angs c p s 2) := bra_angle (p := p) (m := dsds.proc.massNum (dsds.rho c)) rfl rfl (.inl ⟨m0, rfl⟩) (.inl ⟨m2, rfl⟩)
    have v1 : (dsds.N c p).v 1 [spinOf (s 0), spinOf (s 2)] = sb (dsds.scat.sqrs c p s 0) (dsds.scat.sqrs c p s 2) := bra_square (p := p) (m := dsds.proc.massNum (dsds.rho c)) rfl rfl (.inl ⟨m0, rfl⟩) (.inl ⟨m2, rfl⟩)
    have v2 : (dsds.N c p).v 2 [spinOf (s 0), spinOf (s 3)] = ab (dsds.scat.angs c p s 0) (dsds.scat.angs c p s 3) := bra_angle (p := p) (m := dsds.proc.massNum (dsds.rho c)) rfl rfl (.inl ⟨m0, rfl⟩) (.inl ⟨m3, rfl⟩)
    have v3 : (dsds.N c p).v 3 [spinOf (s 0), spinOf (s 3)] = sb (dsds.scat.sqrs c p s 0) (dsds.scat.sqrs c p s 3) := bra_square (p := p) (m := dsds.proc.massNum (dsds.rho c)) rfl rfl (.inl ⟨m0, rfl⟩) (.inl ⟨m3, rfl⟩)
    have v4 : (dsds.N c p).v 4 [spinOf (s 1), spinOf (s 2)] = ab (dsds.scat.angs c p s 1) (dsds.scat.angs c p s 2) := bra_angle (p := p) (m := dsds.proc.massNum (dsds.rho c)) rfl rfl (.inl ⟨m1, rfl⟩) (.inl ⟨m2, rfl⟩)
    have v5 : (dsds.N c p).v 5 [spinOf (s 1), spinOf (s 2)] = sb (dsds.scat.sqrs c p s 1) (dsds.scat.sqrs c p s 2) := bra_square (p := p) (m := dsds.proc.massNum (dsds.rho c)) rfl rfl (.inl ⟨m1, rfl⟩) (.inl ⟨m2, rfl⟩)
    have v6 : (dsds.N c p).v 6 [spinOf (s 1), spinOf (s 3)] = ab (dsds.scat.angs c p s 1) (dsds.scat.angs c p s 3) := bra_angle (p := p) (m := dsds.proc.massNum (dsds.rho c)) rfl rfl (.inl ⟨m1, rfl⟩) (.inl ⟨m3, rfl⟩)
    have v7 : (dsds.N c p).v 7 [spinOf (s 1), spinOf (s 3)] = sb (dsds.scat.sqrs c p s 1) (dsds.scat.sqrs c p s 3) := bra_square (p := p) (m := dsds.proc.massNum (dsds.rho c)) rfl rfl (.inl ⟨m1, rfl⟩) (.inl ⟨m3, rfl⟩)
    have v8 : (dsds.N c p).v 8 [spinOf (s 0), spinOf (s 1)] = sb (dsds.scat.sqrs c p s 0) (dsds.scat.sqrs c p s 1) := bra_square (p := p) (m := dsds.proc.massNum (dsds.rho c)) rfl rfl (.inl ⟨m0, rfl⟩) (.inl ⟨m1, rfl⟩)
    have v9 : (dsds.N c p).v 9 [spinOf (s 0), spinOf (s 1)] = ab (dsds.scat.angs c p s 0) (dsds.scat.angs c p s 1) := bra_angle (p := p) (m := dsds.proc.massNum (dsds.rho c)) rfl rfl (.inl ⟨m0, rfl⟩) (.inl ⟨m1, rfl⟩)
    have v10 : (dsds.N c p).v 10 [spinOf (s 2), spinOf (s 3)] = sb (dsds.scat.sqrs c p s 2) (dsds.scat.sqrs c p s 3) := bra_square (p := p) (m := dsds.proc.massNum (dsds.rho c)) rfl rfl (.inl ⟨m2, rfl⟩) (.inl ⟨m3, rfl⟩)
    have v11 : (dsds.N c p).v 11 [spinOf (s 2), spinOf (s 3)] = ab (dsds.scat.angs c p s 2) (dsds.scat.angs c p s 3) := bra_angle (p := p) (m := dsds.proc.massNum (dsds.rho c)) rfl rfl (.inl ⟨m2, rfl⟩) (.inl ⟨m3, rfl⟩)
    rw [ewC_neutral (S := dsds.scat) (i := 2) (j := 0) (k := 3) (l := 1) (f := .d) (g := .s) (by decide) (by decide) rfl rfl rfl g2 g0 g3 g1 rfl rfl rfl, dsds.amp_rest]
    simp only [r0, r11, r12, r13, r14, r15, c0, c1, c2, v0, v1, v2, v3, v4, v5, v6, v7, v8, v9, v10, v11, jj, ln, lw, Constants.gL, Constants.gR, Flavour.charge_d, Flavour.isospin_d, Flavour.charge_s, Flavour.isospin_s]
    abstract_brackets dsds.scat c p s
    push_cast
    ring
  have k_amp_gluon : ∀ s : Fin 4 → Fin 2, dsds.amp_gluon (dsds.N c p) (spinOf (s 0)) (spinOf (s 1)) (spinOf (s 2)) (spinOf (s 3)) = dsds.scat.strongC c p (dsds.scat.angs c p s) (dsds.scat.sqrs c p s) 2 0 3 1 := by
    intro s
    have v2 : (dsds.N c p).v 2 [spinOf (s 0), spinOf (s 3)] = ab (dsds.scat.angs c p s 0) (dsds.scat.angs c p s 3) := bra_angle (p := p) (m := dsds.proc.massNum (dsds.rho c)) rfl rfl (.inl ⟨m0, rfl⟩) (.inl ⟨m3, rfl⟩)
    have v3 : (dsds.N c p).v 3 [spinOf (s 0), spinOf (s 3)] = sb (dsds.scat.sqrs c p s 0) (dsds.scat.sqrs c p s 3) := bra_square (p := p) (m := dsds.proc.massNum (dsds.rho c)) rfl rfl (.inl ⟨m0, rfl⟩) (.inl ⟨m3, rfl⟩)
    have v4 : (dsds.N c p).v 4 [spinOf (s 1), spinOf (s 2)] = ab (dsds.scat.angs c p s 1) (dsds.scat.angs c p s 2) := bra_angle (p := p) (m := dsds.proc.massNum (dsds.rho c)) rfl rfl (.inl ⟨m1, rfl⟩) (.inl ⟨m2, rfl⟩)
    have v5 : (dsds.N c p).v 5 [spinOf (s 1), spinOf (s 2)] = sb (dsds.scat.sqrs c p s 1) (dsds.scat.sqrs c p s 2) := bra_square (p := p) (m := dsds.proc.massNum (dsds.rho c)) rfl rfl (.inl ⟨m1, rfl⟩) (.inl ⟨m2, rfl⟩)
    have v8 : (dsds.N c p).v 8 [spinOf (s 0), spinOf (s 1)] = sb (dsds.scat.sqrs c p s 0) (dsds.scat.sqrs c p s 1) := bra_square (p := p) (m := dsds.proc.massNum (dsds.rho c)) rfl rfl (.inl ⟨m0, rfl⟩) (.inl ⟨m1, rfl⟩)
    have v9 : (dsds.N c p).v 9 [spinOf (s 0), spinOf (s 1)] = ab (dsds.scat.angs c p s 0) (dsds.scat.angs c p s 1) := bra_angle (p := p) (m := dsds.proc.massNum (dsds.rho c)) rfl rfl (.inl ⟨m0, rfl⟩) (.inl ⟨m1, rfl⟩)
    have v10 : (dsds.N c p).v 10 [spinOf (s 2), spinOf (s 3)] = sb (dsds.scat.sqrs c p s 2) (dsds.scat.sqrs c p s 3) := bra_square (p := p) (m := dsds.proc.massNum (dsds.rho c)) rfl rfl (.inl ⟨m2, rfl⟩) (.inl ⟨m3, rfl⟩)
    have v11 : (dsds.N c p).v 11 [spinOf (s 2), spinOf (s 3)] = ab (dsds.scat.angs c p s 2) (dsds.scat.angs c p s 3) := bra_angle (p := p) (m := dsds.proc.massNum (dsds.rho c)) rfl rfl (.inl ⟨m2, rfl⟩) (.inl ⟨m3, rfl⟩)
    rw [strongC_quarks (S := dsds.scat) (i := 2) (j := 0) (k := 3) (l := 1) (by decide) rfl rfl rfl g2 g0 g3 g1 rfl, dsds.amp_gluon]
    simp only [r1, c0, v2, v3, v4, v5, v8, v9, v10, v11, jj, ln, lw, Constants.gL, Constants.gR, Flavour.charge_d, Flavour.isospin_d, Flavour.charge_s, Flavour.isospin_s]
    abstract_brackets dsds.scat c p s
    push_cast
    ring
  refine ⟨fun n hn => ?_, fun n hn => ?_, ?_⟩
  · simp [hd] at hn
  · simp [hd] at hn
    rcases hn with rfl | rfl | rfl
    · rw [c0]; exact d0
    · rw [c1]; exact d1
    · rw [c2]; exact d2
  show meaning (dsds.N c p) .r Cls.dsds.methods Cls.dsds.amp2 [] = _
  have ss : dsds.scat.states = 36 := by decide
  have sy : dsds.scat.symmetry = 1 := by decide
  rw [dsds.value, dsds.scat.squared_quarks he ht hs h0 hf hu (by decide) colours_scattering (by decide), ss, sy, Nat.cast_zero]
  simp only [add_assoc]
  rw [sumJ_four, Finset.sum_div, Finset.sum_div]
  refine Finset.sum_congr rfl fun s _ => ?_
  rw [k_amp_gluon, k_amp_rest]
  try simp only [ewC_none (S := dsds.scat) (i := 2) (j := 1) (k := 3) (l := 0) (by decide) (by decide), strongC_none (S := dsds.scat) (i := 2) (j := 1) (k := 3) (l := 0) (by decide)]
  finish_spins

/-! ### ucuc -/

/-- what the methods of the class see -/
noncomputable abbrev ucuc.N [FPEnv] (c : Constants) (p : Nat → V4 ℝ) : Env := ucuc.proc.env (ucuc.rho c) p
/-- `amp_gluon` (SM/ucuc.cpp) -/
noncomputable def ucuc.amp_gluon (N : Env) (j1 j2 j3 j4 : Int) : ℂ :=
  (((((((-((2 : Nat) : ℝ)) * N.r 1) * N.r 1) : ℝ) : ℂ) * ((((N.v 9 [j1, j2] * N.v 10 [j3, j4]) + (N.v 2 [j1, j4] * N.v 5 [j2, j3])) + (N.v 8 [j1, j2] * N.v 11 [j3, j4])) + (N.v 3 [j1, j4] * N.v 4 [j2, j3]))) / N.c 0)
/-- `amp_rest` (SM/ucuc.cpp) -/
noncomputable def ucuc.amp_rest (N : Env) (j1 j2 j3 j4 : Int) : ℂ :=
  (((((((0 : Nat) : ℝ) : ℝ) : ℂ) + (((((((((-((2 : Nat) : ℝ)) * N.r 0) * N.r 0) * ((4 : Nat) : ℝ)) / ((9 : Nat) : ℝ)) : ℝ) : ℂ) * ((((N.v 9 [j1, j2] * N.v 10 [j3, j4]) + (N.v 2 [j1, j4] * N.v 5 [j2, j3])) + (N.v 8 [j1, j2] * N.v 11 [j3, j4])) + (N.v 3 [j1, j4] * N.v 4 [j2, j3]))) / N.c 0)) + ((((((-N.r 11) : ℝ) : ℂ) * (N.v 1 [j1, j3] - N.v 0 [j1, j3])) * (N.v 7 [j2, j4] - N.v 6 [j2, j4])) / N.c 1)) + ((((((N.r 15 : ℝ) : ℂ) * (N.v 0 [j1, j3] + N.v 1 [j1, j3])) * (N.v 6 [j2, j4] + N.v 7 [j2, j4])) / N.c 2) - (((((((2 : Nat) : ℝ) * N.r 14) : ℝ) : ℂ) * (((((((N.r 12 * N.r 12) : ℝ) : ℂ) * N.v 10 [j3, j4]) * N.v 9 [j1, j2]) + ((((N.r 12 * N.r 13) : ℝ) : ℂ) * ((N.v 3 [j1, j4] * N.v 4 [j2, j3]) + (N.v 5 [j2, j3] * N.v 2 [j1, j4])))) + (((((N.r 13 * N.r 13) : ℝ) : ℂ) * N.v 8 [j1, j2]) * N.v 11 [j3, j4]))) / N.c 2)))
set_option maxRecDepth 8000 in
theorem ucuc.amp2_eq (N : Env) (f : Nat → List Int → ℂ) : Cls.ucuc.m_amp2.mean N f .r [] =
    ((sumJ (fun x a => (sumJ (fun x b => (sumJ (fun x c => (sumJ (fun x d => ((x + (((9 : Nat) : ℝ) * (‖(f 1 [a, b, c, d])‖ ^ 2))) + (((2 : Nat) : ℝ) * (‖(f 0 [a, b, c, d])‖ ^ 2)))) x)) x)) x)) ((0 : Nat) : ℝ)) / ((36 : Nat) : ℝ)) := by rfl
set_option maxRecDepth 8000 in
theorem ucuc.value (N : Env) : meaning N .r Cls.ucuc.methods Cls.ucuc.amp2 [] =
    ((sumJ (fun x a => (sumJ (fun x b => (sumJ (fun x c => (sumJ (fun x d => ((x + (((9 : Nat) : ℝ) * (‖(ucuc.amp_rest N a b c d)‖ ^ 2))) + (((2 : Nat) : ℝ) * (‖(ucuc.amp_gluon N a b c d)‖ ^ 2)))) x)) x)) x)) ((0 : Nat) : ℝ)) / ((36 : Nat) : ℝ)) :=
  ucuc.amp2_eq N (callMean N [Cls.ucuc.m_amp_rest, Cls.ucuc.m_amp_gluon])

variable [FPEnv] in
theorem ucuc.agrees : ucuc.Agrees := by
  refine agrees_of (D := [6, 7]) (E := [7]) (by simp [all, ucuc]) (by decide +kernel) (by decide) (by decide +kernel) (fun c hc => ⟨List.forall_mem_cons.2 ⟨hc.MW, List.forall_mem_cons.2 ⟨hc.SW, List.forall_mem_nil _⟩⟩, List.forall_mem_cons.2 ⟨hc.SW_lt, List.forall_mem_nil _⟩⟩) (fun c hc i => by fin_cases i <;> rfl) (by decide +kernel) ?_
  intro c p u hc hw h0 hs hb hr hu
  replace hw := hw (by simp [ucuc])
  have he : ucuc.scat.ends = [2, 3] := by decide
  have ht : ucuc.scat.starts = [0, 1] := by decide
  obtain ⟨o1, o2⟩ := regular_two he ht hr
  have hf := ucuc.scat.flows_scattering (by decide) hb
  have ms := ucuc.scat.msq_scattering (by decide) hb
  have r0 : (ucuc.N c p).r 0 = c.e := rfl
  have r11 : (ucuc.N c p).r 11 = ((((c.e * c.e) * (c.mass .u)) * (c.mass .c)) / ((((((4 : Nat) : ℝ) * c.MW) * c.MW) * c.SW) * c.SW)) := rfl
  have r15 : (ucuc.N c p).r 15 = ((((((((c.e * c.e) / ((((((4 : Nat) : ℝ) * √((((1 : Nat) : ℝ) - (c.SW * c.SW)))) * √((((1 : Nat) : ℝ) - (c.SW * c.SW)))) * c.SW) * c.SW)) * ((((1 : Nat) : ℝ) - (((((4 : Nat) : ℝ) / ((3 : Nat) : ℝ)) * c.SW) * c.SW)) - ((((-((4 : Nat) : ℝ)) / ((3 : Nat) : ℝ)) * c.SW) * c.SW))) * ((((1 : Nat) : ℝ) - (((((4 : Nat) : ℝ) / ((3 : Nat) : ℝ)) * c.SW) * c.SW)) - ((((-((4 : Nat) : ℝ)) / ((3 : Nat) : ℝ)) * c.SW) * c.SW))) * (c.mass .u)) * (c.mass .c)) / (c.MW / √((((1 : Nat) : ℝ) - (c.SW * c.SW))))) / (c.MW / √((((1 : Nat) : ℝ) - (c.SW * c.SW))))) := rfl
  simp only [c.root, c.mz] at r15
  have r14 : (ucuc.N c p).r 14 = ((c.e * c.e) / ((((((4 : Nat) : ℝ) * √((((1 : Nat) : ℝ) - (c.SW * c.SW)))) * √((((1 : Nat) : ℝ) - (c.SW * c.SW)))) * c.SW) * c.SW)) := rfl
  simp only [c.root] at r14
  have r12 : (ucuc.N c p).r 12 = (((1 : Nat) : ℝ) - (((((4 : Nat) : ℝ) / ((3 : Nat) : ℝ)) * c.SW) * c.SW)) := rfl
  have r13 : (ucuc.N c p).r 13 = ((((-((4 : Nat) : ℝ)) / ((3 : Nat) : ℝ)) * c.SW) * c.SW) := rfl
  have r1 : (ucuc.N c p).r 1 = c.gs := rfl
  have c0 : (ucuc.N c p).c 0 = poleDist ((0 : Nat) : ℝ) ((0 : Nat) : ℝ) ((VExp.sub 0 2).sum p) := rfl
  rw [Nat.cast_zero, pole_zero (ms.1).symm] at c0
  have c1 : (ucuc.N c p).c 1 = poleDist c.MH c.WH ((VExp.sub 0 2).sum p) := rfl
  rw [pole_congr (ms.1).symm] at c1
  have c2 : (ucuc.N c p).c 2 = poleDist (c.MW / √((((1 : Nat) : ℝ) - (c.SW * c.SW)))) ((0 : Nat) : ℝ) ((VExp.sub 0 2).sum p) := rfl
  rw [c.root, c.mz, Nat.cast_zero, ← hw, pole_congr (ms.1).symm] at c2
  have d0 := o1.photon (by decide) (by show (2/3 : ℝ) * (2/3) ≠ 0; norm_num)
  have d1 := o1.higgs (by decide) rfl (hc.massive _ (by decide)) (hc.massive _ (by decide))
  have d2 := o1.z (by decide) rfl
  have m0 : c.mass .u ≠ 0 := (hc.massive _ (by decide)).ne'
  have m1 : c.mass .c ≠ 0 := (hc.massive _ (by decide)).ne'
  have m2 : c.mass .u ≠ 0 := (hc.massive _ (by decide)).ne'
  have m3 : c.mass .c ≠ 0 := (hc.massive _ (by decide)).ne'
  have g0 : ucuc.scat.sgn 0 = 1 := if_neg Bool.false_ne_true
  have g1 : ucuc.scat.sgn 1 = 1 := if_neg Bool.false_ne_true
  have g2 : ucuc.scat.sgn 2 = 1 := if_neg Bool.false_ne_true
  have g3 : ucuc.scat.sgn 3 = 1 := if_neg Bool.false_ne_true
  have nMW := hc.MW
  have nSW := hc.SW
  have xMW : (c.MW : ℂ) ≠ 0 := by exact_mod_cast hc.MW
  have xSW : (c.SW : ℂ) ≠ 0 := by exact_mod_cast hc.SW
  have xCW : (c.CW : ℂ) ≠ 0 := by exact_mod_cast hc.CW
  have hd : ucuc.proc.divides = [(Ty.c, 0), (Ty.c, 1), (Ty.c, 2)] := by decide +kernel
  have k_amp_rest : ∀ s : Fin 4 → Fin 2, ucuc.amp_rest (ucuc.N c p) (spinOf (s 0)) (spinOf (s 1)) (spinOf (s 2)) (spinOf (s 3)) = ucuc.scat.ewC c p (ucuc.scat.angs c p s) (ucuc.scat.sqrs c p s) 2 0 3 1 := by
    intro s
    have v0 : (ucuc.N c p).v 0 [spinOf (s 0), spinOf (s 2)] = ab (ucuc.scat.angs c p s 0) (ucuc.scat.angs c p s 2) := bra_angle (p := p) (m := ucuc.proc.massNum (ucuc.rho c)) rfl rfl (.inl ⟨m0, rfl⟩) (.inl ⟨m2, rfl⟩)
    have v1 : (ucuc.N c p).v 1 [spinOf (s 0), spinOf (s 2)] = sb (ucuc.scat.sqrs c p s 0) (ucuc.scat.sqrs c p s 2) := bra_square (p := p) (m := ucuc.proc.massNum (ucuc.rho c)) rfl rfl (.inl ⟨m0, rfl⟩) (.inl ⟨m2, rfl⟩)
    have v2 : (ucuc.N c p).v 2 [spinOf (s 0), spinOf (s 3)] = ab (ucuc.scat.angs c p s 0) (ucuc.scat.angs c p s 3) := bra_angle (p := p) (m := ucuc.proc.massNum (ucuc.rho c)) rfl rfl (.inl ⟨m0, rfl⟩) (.inl ⟨m3, rfl⟩)
    have v3 : (ucuc.N c p).v 3 [spinOf (s 0), spinOf (s 3)] = sb (ucuc.scat.sqrs c p s 0) (ucuc.scat.sqrs c p s 3) := bra_square (p := p) (m := ucuc.proc.massNum (ucuc.rho c)) rfl rfl (.inl ⟨m0, rfl⟩) (.inl ⟨m3, rfl⟩)
    have v4 : (ucuc.N c p).v 4 [spinOf (s 1), spinOf (s 2)] = ab (ucuc.scat.angs c p s 1) (ucuc.scat.angs c p s 2) := bra_angle (p := p) (m := ucuc.proc.massNum (ucuc.rho c)) rfl rfl (.inl ⟨m1, rfl⟩) (.inl ⟨m2, rfl⟩)
    have v5 : (ucuc.N c p).v 5 [spinOf (s 1), spinOf (s 2)] = sb (ucuc.scat.sqrs c p s 1) (ucuc.scat.sqrs c p s 2) := bra_square (p := p) (m := ucuc.proc.massNum (ucuc.rho c)) rfl rfl (.inl ⟨m1, rfl⟩) (.inl ⟨m2, rfl⟩)
    have v6 : (ucuc.N c p).v 6 [spinOf (s 1), spinOf (s 3)] = ab (ucuc.scat.angs c p s 1) (ucuc.scat.angs c p s 3) := bra_angle (p := p) (m := ucuc.proc.massNum (ucuc.rho c)) rfl rfl (.inl ⟨m1, rfl⟩) (.inl ⟨m3, rfl⟩)
    have v7 : (ucuc.N c p).v 7 [spinOf (s 1), spinOf (s 3)] = sb (ucuc.scat.sqrs c p s 1) (ucuc.scat.sqrs c p s 3) := bra_square (p := p) (m := ucuc.proc.massNum (ucuc.rho c)) rfl rfl (.inl ⟨m1, rfl⟩) (.inl ⟨m3, rfl⟩)
    have v8 : (ucuc.N c p).v 8 [spinOf (s 0), spinOf (s 1)] = sb (ucuc.scat.sqrs c p s 0) (ucuc.scat.sqrs c p s 1) := bra_square (p := p) (m := ucuc.proc.massNum (ucuc.rho c)) rfl rfl (.inl ⟨m0, rfl⟩) (.inl ⟨m1, rfl⟩)
    have v9 : (ucuc.N c p).v 9 [spinOf (s 0), spinOf (s 1)] = ab (ucuc.scat.angs c p s 0) (ucuc.scat.angs c p s 1) := bra_angle (p := p) (m := ucuc.proc.massNum (ucuc.rho c)) rfl rfl (.inl ⟨m0, rfl⟩) (.inl ⟨m1, rfl⟩)
    have v10 : (ucuc.N c p).v 10 [spinOf (s 2), spinOf (s 3)] = sb (ucuc.scat.sqrs c p s 2) (ucuc.scat.sqrs c p s 3) := bra_square (p := p) (m := ucuc.proc.massNum (ucuc.rho c)) rfl rfl (.inl ⟨m2, rfl⟩) (.inl ⟨m3, rfl⟩)
    have v11 : (ucuc.N c p).v 11 [spinOf (s 2), spinOf (s 3)] = ab (ucuc.scat.angs c p s 2) (ucuc.scat.angs c p s 3) := bra_angle (p := p) (m := ucuc.proc.massNum (ucuc.rho c)) rfl rfl (.inl ⟨m2, rfl⟩) (.inl ⟨m3, rfl⟩)
    rw [ewC_neutral (S := ucuc.scat) (i := 2) (j := 0) (k := 3) (l := 1) (f := .u) (g := .c) (by decide) (by decide) rfl rfl rfl g2 g0 g3 g1 rfl rfl rfl, ucuc.amp_rest]
    simp only [r0, r11, r12, r13, r14, r15, c0, c1, c2, v0, v1, v2, v3, v4, v5, v6, v7, v8, v9, v10, v11, jj, ln, lw, Constants.gL, Constants.gR, Flavour.charge_c, Flavour.isospin_c, Flavour.charge_u, Flavour.isospin_u]
    abstract_brackets ucuc.scat c p s
    push_cast
    ring
  have k_amp_gluon : ∀ s : Fin 4 → Fin 2, ucuc.amp_gluon (ucuc.N c p) (spinOf (s 0)) (spinOf (s 1)) (spinOf (s 2)) (spinOf (s 3)) = ucuc.scat.strongC c p (ucuc.scat.angs c p s) (ucuc.scat.sqrs c p s) 2 0 3 1 := by
    intro s
    have v2 : (ucuc.N c p).v 2 [spinOf (s 0), spinOf (s 3)] = ab (ucuc.scat.angs c p s 0) (ucuc.scat.angs c p s 3) := bra_angle (p := p) (m := ucuc.proc.massNum (ucuc.rho c)) rfl rfl (.inl ⟨m0, rfl⟩) (.inl ⟨m3, rfl⟩)
    have v3 : (ucuc.N c p).v 3 [spinOf (s 0), spinOf (s 3)] = sb (ucuc.scat.sqrs c p s 0) (ucuc.scat.sqrs c p s 3) := bra_square (p := p) (m := ucuc.proc.massNum (ucuc.rho c)) rfl rfl (.inl ⟨m0, rfl⟩) (.inl ⟨m3, rfl⟩)
    have v4 : (ucuc.N c p).v 4 [spinOf (s 1), spinOf (s 2)] = ab (ucuc.scat.angs c p s 1) (ucuc.scat.angs c p s 2) := bra_angle (p := p) (m := ucuc.proc.massNum (ucuc.rho c)) rfl rfl (.inl ⟨m1, rfl⟩) (.inl ⟨m2, rfl⟩)
    have v5 : (ucuc.N c p).v 5 [spinOf (s 1), spinOf (s 2)] = sb (ucuc.scat.sqrs c p s 1) (ucuc.scat.sqrs c p s 2) := bra_square (p := p) (m := ucuc.proc.massNum (ucuc.rho c)) rfl rfl (.inl ⟨m1, rfl⟩) (.inl ⟨m2, rfl⟩)
    have v8 : (ucuc.N c p).v 8 [spinOf (s 0), spinOf (s 1)] = sb (ucuc.scat.sqrs c p s 0) (ucuc.scat.sqrs c p s 1) := bra_square (p := p) (m := ucuc.proc.massNum (ucuc.rho c)) rfl rfl (.inl ⟨m0, rfl⟩) (.inl ⟨m1, rfl⟩)
    have v9 : (ucuc.N c p).v 9 [spinOf (s 0), spinOf (s 1)] = ab (ucuc.scat.angs c p s 0) (ucuc.scat.angs c p s 1) := bra_angle (p := p) (m := ucuc.proc.massNum (ucuc.rho c)) rfl rfl (.inl ⟨m0, rfl⟩) (.inl ⟨m1, rfl⟩)
    have v10 : (ucuc.N c p).v 10 [spinOf (s 2), spinOf (s 3)] = sb (ucuc.scat.sqrs c p s 2) (ucuc.scat.sqrs c p s 3) := bra_square (p := p) (m := ucuc.proc.massNum (ucuc.rho c)) rfl rfl (.inl ⟨m2, rfl⟩) (.inl ⟨m3, rfl⟩)
    have v11 : (ucuc.N c p).v 11 [spinOf (s 2), spinOf (s 3)] = ab (ucuc.scat.angs c p s 2) (ucuc.scat.angs c p s 3) := bra_angle (p := p) (m := ucuc.proc.massNum (ucuc.rho c)) rfl rfl (.inl ⟨m2, rfl⟩) (.inl ⟨m3, rfl⟩)
    rw [strongC_quarks (S := ucuc.scat) (i := 2) (j := 0) (k := 3) (l := 1) (by decide) rfl rfl rfl g2 g0 g3 g1 rfl, ucuc.amp_gluon]
    simp only [r1, c0, v2, v3, v4, v5, v8, v9, v10, v11, jj, ln, lw, Constants.gL, Constants.gR, Flavour.charge_c, Flavour.isospin_c, Flavour.charge_u, Flavour.isospin_u]
    abstract_brackets ucuc.scat c p s
    push_cast
    ring
  refine ⟨fun n hn => ?_, fun n hn => ?_, ?_⟩
  · simp [hd] at hn
  · simp [hd] at hn
    rcases hn with rfl | rfl | rfl
    · rw [c0]; exact d0
    · rw [c1]; exact d1
    · rw [c2]; exact d2
  show meaning (ucuc.N c p) .r Cls.ucuc.methods Cls.ucuc.amp2 [] = _
  have ss : ucuc.scat.states = 36 := by decide
  have sy : ucuc.scat.symmetry = 1 := by decide
  rw [ucuc.value, ucuc.scat.squared_quarks he ht hs h0 hf hu (by decide) colours_scattering (by decide), ss, sy, Nat.cast_zero]
  simp only [add_assoc]
  rw [sumJ_four, Finset.sum_div, Finset.sum_div]
  refine Finset.sum_congr rfl fun s _ => ?_
  rw [k_amp_gluon, k_amp_rest]
  try simp only [ewC_none (S := ucuc.scat) (i := 2) (j := 1) (k := 3) (l := 0) (by decide) (by decide), strongC_none (S := ucuc.scat) (i := 2) (j := 1) (k := 3) (l := 0) (by decide)]
  finish_spins

/-! ### usus -/

/-- what the methods of the class see -/
noncomputable abbrev usus.N [FPEnv] (c : Constants) (p : Nat → V4 ℝ) : Env := usus.proc.env (usus.rho c) p
/-- `amp_gluon` (SM/usus.cpp) -/
noncomputable def usus.amp_gluon (N : Env) (j1 j2 j3 j4 : Int) : ℂ :=
  (((((((-((2 : Nat) : ℝ)) * N.r 1) * N.r 1) : ℝ) : ℂ) * ((((N.v 2 [j1, j4] * N.v 5 [j2, j3]) + (N.v 9 [j1, j2] * N.v 10 [j3, j4])) + (N.v 3 [j1, j4] * N.v 4 [j2, j3])) + (N.v 8 [j1, j2] * N.v 11 [j3, j4]))) / N.c 0)
/-- `amp_rest` (SM/usus.cpp) -/
noncomputable def usus.amp_rest (N : Env) (j1 j2 j3 j4 : Int) : ℂ :=
  ((((((((((((2 : Nat) : ℝ) * N.r 0) * N.r 0) * ((2 : Nat) : ℝ)) / ((9 : Nat) : ℝ)) : ℝ) : ℂ) * ((((N.v 2 [j1, j4] * N.v 5 [j2, j3]) + (N.v 9 [j1, j2] * N.v 10 [j3, j4])) + (N.v 3 [j1, j4] * N.v 4 [j2, j3])) + (N.v 8 [j1, j2] * N.v 11 [j3, j4]))) / N.c 0) + ((((((-N.r 11) : ℝ) : ℂ) * (N.v 1 [j1, j3] - N.v 0 [j1, j3])) * (N.v 7 [j2, j4] - N.v 6 [j2, j4])) / N.c 1)) + ((((((N.r 17 : ℝ) : ℂ) * (N.v 0 [j1, j3] + N.v 1 [j1, j3])) * (N.v 6 [j2, j4] + N.v 7 [j2, j4])) / N.c 2) - (((((((2 : Nat) : ℝ) * N.r 16) : ℝ) : ℂ) * ((((((((N.r 12 * N.r 14) : ℝ) : ℂ) * N.v 10 [j3, j4]) * N.v 9 [j1, j2]) + (((((N.r 14 * N.r 13) : ℝ) : ℂ) * N.v 3 [j1, j4]) * N.v 4 [j2, j3])) + (((((N.r 12 * N.r 15) : ℝ) : ℂ) * N.v 5 [j2, j3]) * N.v 2 [j1, j4])) + (((((N.r 13 * N.r 15) : ℝ) : ℂ) * N.v 8 [j1, j2]) * N.v 11 [j3, j4]))) / N.c 2)))
set_option maxRecDepth 8000 in
theorem usus.amp2_eq (N : Env) (f : Nat → List Int → ℂ) : Cls.usus.m_amp2.mean N f .r [] =
    ((sumJ (fun x a => (sumJ (fun x b => (sumJ (fun x c => (sumJ (fun x d => ((x + (((9 : Nat) : ℝ) * (‖(f 1 [a, b, c, d])‖ ^ 2))) + (((2 : Nat) : ℝ) * (‖(f 0 [a, b, c, d])‖ ^ 2)))) x)) x)) x)) ((0 : Nat) : ℝ)) / ((36 : Nat) : ℝ)) := by rfl
set_option maxRecDepth 8000 in
theorem usus.value (N : Env) : meaning N .r Cls.usus.methods Cls.usus.amp2 [] =
    ((sumJ (fun x a => (sumJ (fun x b => (sumJ (fun x c => (sumJ (fun x d => ((x + (((9 : Nat) : ℝ) * (‖(usus.amp_rest N a b c d)‖ ^ 2))) + (((2 : Nat) : ℝ) * (‖(usus.amp_gluon N a b c d)‖ ^ 2)))) x)) x)) x)) ((0 : Nat) : ℝ)) / ((36 : Nat) : ℝ)) :=
  usus.amp2_eq N (callMean N [Cls.usus.m_amp_rest, Cls.usus.m_amp_gluon])

variable [FPEnv] in
theorem usus.agrees : usus.Agrees := by
  refine agrees_of (D := [6, 7]) (E := [7]) (by simp [all, usus]) (by decide +kernel) (by decide) (by decide +kernel) (fun c hc => ⟨List.forall_mem_cons.2 ⟨hc.MW, List.forall_mem_cons.2 ⟨hc.SW, List.forall_mem_nil _⟩⟩, List.forall_mem_cons.2 ⟨hc.SW_lt, List.forall_mem_nil _⟩⟩) (fun c hc i => by fin_cases i <;> rfl) (by decide +kernel) ?_
  intro c p u hc hw h0 hs hb hr hu
  replace hw := hw (by simp [usus])
  have he : usus.scat.ends = [2, 3] := by decide
  have ht : usus.scat.starts = [0, 1] := by decide
  obtain ⟨o1, o2⟩ := regular_two he ht hr
  have hf := usus.scat.flows_scattering (by decide) hb
  have ms := usus.scat.msq_scattering (by decide) hb
  have r0 : (usus.N c p).r 0 = c.e := rfl
  have r11 : (usus.N c p).r 11 = ((((c.e * c.e) * (c.mass .u)) * (c.mass .s)) / ((((((4 : Nat) : ℝ) * c.MW) * c.MW) * c.SW) * c.SW)) := rfl
  have r17 : (usus.N c p).r 17 = ((((((((c.e * c.e) / ((((((4 : Nat) : ℝ) * √((((1 : Nat) : ℝ) - (c.SW * c.SW)))) * √((((1 : Nat) : ℝ) - (c.SW * c.SW)))) * c.SW) * c.SW)) * ((((1 : Nat) : ℝ) - (((((4 : Nat) : ℝ) / ((3 : Nat) : ℝ)) * c.SW) * c.SW)) - ((((-((4 : Nat) : ℝ)) / ((3 : Nat) : ℝ)) * c.SW) * c.SW))) * (((-((1 : Nat) : ℝ)) + (((((2 : Nat) : ℝ) / ((3 : Nat) : ℝ)) * c.SW) * c.SW)) - (((((2 : Nat) : ℝ) / ((3 : Nat) : ℝ)) * c.SW) * c.SW))) * (c.mass .u)) * (c.mass .s)) / (c.MW / √((((1 : Nat) : ℝ) - (c.SW * c.SW))))) / (c.MW / √((((1 : Nat) : ℝ) - (c.SW * c.SW))))) := rfl
  simp only [c.root, c.mz] at r17
  have r16 : (usus.N c p).r 16 = ((c.e * c.e) / ((((((4 : Nat) : ℝ) * √((((1 : Nat) : ℝ) - (c.SW * c.SW)))) * √((((1 : Nat) : ℝ) - (c.SW * c.SW)))) * c.SW) * c.SW)) := rfl
  simp only [c.root] at r16
  have r12 : (usus.N c p).r 12 = (((1 : Nat) : ℝ) - (((((4 : Nat) : ℝ) / ((3 : Nat) : ℝ)) * c.SW) * c.SW)) := rfl
  have r14 : (usus.N c p).r 14 = ((-((1 : Nat) : ℝ)) + (((((2 : Nat) : ℝ) / ((3 : Nat) : ℝ)) * c.SW) * c.SW)) := rfl
  have r13 : (usus.N c p).r 13 = ((((-((4 : Nat) : ℝ)) / ((3 : Nat) : ℝ)) * c.SW) * c.SW) := rfl
  have r15 : (usus.N c p).r 15 = (((((2 : Nat) : ℝ) / ((3 : Nat) : ℝ)) * c.SW) * c.SW) := rfl
  have r1 : (usus.N c p).r 1 = c.gs := rfl
  have c0 : (usus.N c p).c 0 = poleDist ((0 : Nat) : ℝ) ((0 : Nat) : ℝ) ((VExp.sub 0 2).sum p) := rfl
  rw [Nat.cast_zero, pole_zero (ms.1).symm] at c0
  have c1 : (usus.N c p).c 1 = poleDist c.MH c.WH ((VExp.sub 0 2).sum p) := rfl
  rw [pole_congr (ms.1).symm] at c1
  have c2 : (usus.N c p).c 2 = poleDist (c.MW / √((((1 : Nat) : ℝ) - (c.SW * c.SW)))) ((0 : Nat) : ℝ) ((VExp.sub 0 2).sum p) := rfl
  rw [c.root, c.mz, Nat.cast_zero, ← hw, pole_congr (ms.1).symm] at c2
  have d0 := o1.photon (by decide) (by show (2/3 : ℝ) * (-1/3) ≠ 0; norm_num)
  have d1 := o1.higgs (by decide) rfl (hc.massive _ (by decide)) (hc.massive _ (by decide))
  have d2 := o1.z (by decide) rfl
  have m0 : c.mass .u ≠ 0 := (hc.massive _ (by decide)).ne'
  have m1 : c.mass .s ≠ 0 := (hc.massive _ (by decide)).ne'
  have m2 : c.mass .u ≠ 0 := (hc.massive _ (by decide)).ne'
  have m3 : c.mass .s ≠ 0 := (hc.massive _ (by decide)).ne'
  have g0 : usus.scat.sgn 0 = 1 := if_neg Bool.false_ne_true
  have g1 : usus.scat.sgn 1 = 1 := if_neg Bool.false_ne_true
  have g2 : usus.scat.sgn 2 = 1 := if_neg Bool.false_ne_true
  have g3 : usus.scat.sgn 3 = 1 := if_neg Bool.false_ne_true
  have nMW := hc.MW
  have nSW := hc.SW
  have xMW : (c.MW : ℂ) ≠ 0 := by exact_mod_cast hc.MW
  have xSW : (c.SW : ℂ) ≠ 0 := by exact_mod_cast hc.SW
  have xCW : (c.CW : ℂ) ≠ 0 := by exact_mod_cast hc.CW
  have hd : usus.proc.divides = [(Ty.c, 0), (Ty.c, 1), (Ty.c, 2)] := by decide +kernel
  have k_amp_rest : ∀ s : Fin 4 → Fin 2, usus.amp_rest (usus.N c p) (spinOf (s 0)) (spinOf (s 1)) (spinOf (s 2)) (spinOf (s 3)) = usus.scat.ewC c p (usus.scat.angs c p s) (usus.scat.sqrs c p s) 2 0 3 1 := by
    intro s
    have v0 : (usus.N c p).v 0 [spinOf (s 0), spinOf (s 2)] = ab (usus.scat.angs c p s 0) (usus.scat.angs c p s 2) := bra_angle (p := p) (m := usus.proc.massNum (usus.rho c)) rfl rfl (.inl ⟨m0, rfl⟩) (.inl ⟨m2, rfl⟩)
    have v1 : (usus.N c p).v 1 [spinOf (s 0), spinOf (s 2)] = sb (usus.scat.sqrs c p s 0) (usus.scat.sqrs c p s 2) := bra_square (p := p) (m := usus.proc.massNum (usus.rho c)) rfl rfl (.inl ⟨m0, rfl⟩) (.inl ⟨m2, rfl⟩)
    have v2 : (usus.N c p).v 2 [spinOf (s 0), spinOf (s 3)] = ab (usus.scat.angs c p s 0) (usus.scat.angs c p s 3) := bra_angle (p := p) (m := usus.proc.massNum (usus.rho c)) rfl rfl (.inl ⟨m0, rfl⟩) (.inl ⟨m3, rfl⟩)
    have v3 : (usus.N c p).v 3 [spinOf (s 0), spinOf (s 3)] = sb (usus.scat.sqrs c p s 0) (usus.scat.sqrs c p s 3) := bra_square (p := p) (m := usus.proc.massNum (usus.rho c)) rfl rfl (.inl ⟨m0, rfl⟩) (.inl ⟨m3, rfl⟩)
    have v4 : (usus.N c p).v 4 [spinOf (s 1), spinOf (s 2)] = ab (usus.scat.angs c p s 1) (usus.scat.angs c p s 2) := bra_angle (p := p) (m := usus.proc.massNum (usus.rho c)) rfl rfl (.inl ⟨m1, rfl⟩) (.inl ⟨m2, rfl⟩)
    have v5 : (usus.N c p).v 5 [spinOf (s 1), spinOf (s 2)] = sb (usus.scat.sqrs c p s 1) (usus.scat.sqrs c p s 2) := bra_square (p := p) (m := usus.proc.massNum (usus.rho c)) rfl rfl (.inl ⟨m1, rfl⟩) (.inl ⟨m2, rfl⟩)
    have v6 : (usus.N c p).v 6 [spinOf (s 1), spinOf (s 3)] = ab (usus.scat.angs c p s 1) (usus.scat.angs c p s 3) := bra_angle (p := p) (m := usus.proc.massNum (usus.rho c)) rfl rfl (.inl ⟨m1, rfl⟩) (.inl ⟨m3, rfl⟩)
    have v7 : (usus.N c p).v 7 [spinOf (s 1), spinOf (s 3)] = sb (usus.scat.sqrs c p s 1) (usus.scat.sqrs c p s 3) := bra_square (p := p) (m := usus.proc.massNum (usus.rho c)) rfl rfl (.inl ⟨m1, rfl⟩) (.inl ⟨m3, rfl⟩)
    have v8 : (usus.N c p).v 8 [spinOf (s 0), spinOf (s 1)] = sb (usus.scat.sqrs c p s 0) (usus.scat.sqrs c p s 1) := bra_square (p := p) (m := usus.proc.massNum (usus.rho c)) rfl rfl (.inl ⟨m0, rfl⟩) (.inl ⟨m1, rfl⟩)
    have v9 : (usus.N c p).v 9 [spinOf (s 0), spinOf (s 1)] = ab (usus.scat.angs c p s 0) (usus.scat.angs c p s 1) := bra_angle (p := p) (m := usus.proc.massNum (usus.rho c)) rfl rfl (.inl ⟨m0, rfl⟩) (.inl ⟨m1, rfl⟩)
    have v10 : (usus.N c p).v 10 [spinOf (s 2), spinOf (s 3)] = sb (usus.scat.sqrs c p s 2) (usus.scat.sqrs c p s 3) := bra_square (p := p) (m := usus.proc.massNum (usus.rho c)) rfl rfl (.inl ⟨m2, rfl⟩) (.inl ⟨m3, rfl⟩)
    have v11 : (usus.N c p).v 11 [spinOf (s 2), spinOf (s 3)] = ab (usus.scat.angs c p s 2) (usus.scat.angs c p s 3) := bra_angle (p := p) (m := usus.proc.massNum (usus.rho c)) rfl rfl (.inl ⟨m2, rfl⟩) (.inl ⟨m3, rfl⟩)
    rw [ewC_neutral (S := usus.scat) (i := 2) (j := 0) (k := 3) (l := 1) (f := .u) (g := .s) (by decide) (by decide) rfl rfl rfl g2 g0 g3 g1 rfl rfl rfl, usus.amp_rest]
    simp only [r0, r11, r12, r13, r14, r15, r16, r17, c0, c1, c2, v0, v1, v2, v3, v4, v5, v6, v7, v8, v9, v10, v11, jj, ln, lw, Constants.gL, Constants.gR, Flavour.charge_s, Flavour.isospin_s, Flavour.charge_u, Flavour.isospin_u]
    abstract_brackets usus.scat c p s
    push_cast
    ring
  have k_amp_gluon : ∀ s : Fin 4 → Fin 2, usus.amp_gluon (usus.N c p) (spinOf (s 0)) (spinOf (s 1)) (spinOf (s 2)) (spinOf (s 3)) = usus.scat.strongC c p (usus.scat.angs c p s) (usus.scat.sqrs c p s) 2 0 3 1 := by
    intro s
    have v2 : (usus.N c p).v 2 [spinOf (s 0), spinOf (s 3)] = ab (usus.scat.angs c p s 0) (usus.scat.angs c p s 3) := bra_angle (p := p) (m := usus.proc.massNum (usus.rho c)) rfl rfl (.inl ⟨m0, rfl⟩) (.inl ⟨m3, rfl⟩)
    have v3 : (usus.N c p).v 3 [spinOf (s 0), spinOf (s 3)] = sb (usus.scat.sqrs c p s 0) (usus.scat.sqrs c p s 3) := bra_square (p := p) (m := usus.proc.massNum (usus.rho c)) rfl rfl (.inl ⟨m0, rfl⟩) (.inl ⟨m3, rfl⟩)
    have v4 : (usus.N c p).v 4 [spinOf (s 1), spinOf (s 2)] = ab (usus.scat.angs c p s 1) (usus.scat.angs c p s 2) := bra_angle (p := p) (m := usus.proc.massNum (usus.rho c)) rfl rfl (.inl ⟨m1, rfl⟩) (.inl ⟨m2, rfl⟩)
    have v5 : (usus.N c p).v 5 [spinOf (s 1), spinOf (s 2)] = sb (usus.scat.sqrs c p s 1) (usus.scat.sqrs c p s 2) := bra_square (p := p) (m := usus.proc.massNum (usus.rho c)) rfl rfl (.inl ⟨m1, rfl⟩) (.inl ⟨m2, rfl⟩)
    have v8 : (usus.N c p).v 8 [spinOf (s 0), spinOf (s 1)] = sb (usus.scat.sqrs c p s 0) (usus.scat.sqrs c p s 1) := bra_square (p := p) (m := usus.proc.massNum (usus.rho c)) rfl rfl (.inl ⟨m0, rfl⟩) (.inl ⟨m1, rfl⟩)
    have v9 : (usus.N c p).v 9 [spinOf (s 0), spinOf (s 1)] = ab (usus.scat.angs c p s 0) (usus.scat.angs c p s 1) := bra_angle (p := p) (m := usus.proc.massNum (usus.rho c)) rfl rfl (.inl ⟨m0, rfl⟩) (.inl ⟨m1, rfl⟩)
    have v10 : (usus.N c p).v 10 [spinOf (s 2), spinOf (s 3)] = sb (usus.scat.sqrs c p s 2) (usus.scat.sqrs c p s 3) := bra_square (p := p) (m := usus.proc.massNum (usus.rho c)) rfl rfl (.inl ⟨m2, rfl⟩) (.inl ⟨m3, rfl⟩)
    have v11 : (usus.N c p).v 11 [spinOf (s 2), spinOf (s 3)] = ab (usus.scat.angs c p s 2) (usus.scat.angs c p s 3) := bra_angle (p := p) (m := usus.proc.massNum (usus.rho c)) rfl rfl (.inl ⟨m2, rfl⟩) (.inl ⟨m3, rfl⟩)
    rw [strongC_quarks (S := usus.scat) (i := 2) (j := 0) (k := 3) (l := 1) (by decide) rfl rfl rfl g2 g0 g3 g1 rfl, usus.amp_gluon]
    simp only [r1, c0, v2, v3, v4, v5, v8, v9, v10, v11, jj, ln, lw, Constants.gL, Constants.gR, Flavour.charge_s, Flavour.isospin_s, Flavour.charge_u, Flavour.isospin_u]
    abstract_brackets usus.scat c p s
    push_cast
    ring
  refine ⟨fun n hn => ?_, fun n hn => ?_, ?_⟩
  · simp [hd] at hn
  · simp [hd] at hn
    rcases hn with rfl | rfl | rfl
    · rw [c0]; exact d0
    · rw [c1]; exact d1
    · rw [c2]; exact d2
  show meaning (usus.N c p) .r Cls.usus.methods Cls.usus.amp2 [] = _
  have ss : usus.scat.states = 36 := by decide
  have sy : usus.scat.symmetry = 1 := by decide
  rw [usus.value, usus.scat.squared_quarks he ht hs h0 hf hu (by decide) colours_scattering (by decide), ss, sy, Nat.cast_zero]
  simp only [add_assoc]
  rw [sumJ_four, Finset.sum_div, Finset.sum_div]
  refine Finset.sum_congr rfl fun s _ => ?_
  rw [k_amp_gluon, k_amp_rest]
  try simp only [ewC_none (S := usus.scat) (i := 2) (j := 1) (k := 3) (l := 0) (by decide) (by decide), strongC_none (S := usus.scat) (i := 2) (j := 1) (k := 3) (l := 0) (by decide)]
  finish_spins

/-! ### udtb -/

/-- what the methods of the class see -/
noncomputable abbrev udtb.N [FPEnv] (c : Constants) (p : Nat → V4 ℝ) : Env := udtb.proc.env (udtb.rho c) p
/-- `amp` (SM/udtb.cpp) -/
noncomputable def udtb.amp (N : Env) (j1 j2 j3 j4 : Int) : ℂ :=
  ((((((((N.r 0 * N.r 0) / ((2 : Nat) : ℝ)) / N.r 7) / N.r 7) : ℝ) : ℂ) * ((((((((((((2 : Nat) : ℝ) * N.r 5) * N.r 5) : ℝ) : ℂ) * N.v 0 [j1, j4]) * N.v 1 [j2, j3]) - (((((N.r 2 * N.r 3) : ℝ) : ℂ) * N.v 5 [j3, j4]) * N.v 3 [j1, j2])) + (((((N.r 3 * N.r 1) : ℝ) : ℂ) * N.v 2 [j1, j2]) * N.v 5 [j3, j4])) + (((((N.r 4 * N.r 2) : ℝ) : ℂ) * N.v 4 [j3, j4]) * N.v 3 [j1, j2])) - (((((N.r 1 * N.r 4) : ℝ) : ℂ) * N.v 2 [j1, j2]) * N.v 4 [j3, j4]))) / ((((N.r 5 * N.r 5) : ℝ) : ℂ) * N.c 0))
set_option maxRecDepth 8000 in
theorem udtb.amp2_eq (N : Env) (f : Nat → List Int → ℂ) : Cls.udtb.m_amp2.mean N f .r [] =
    ((sumJ (fun x a => (sumJ (fun x b => (sumJ (fun x c => (sumJ (fun x d => (x + (((9 : Nat) : ℝ) * (‖(f 0 [a, b, c, d])‖ ^ 2)))) x)) x)) x)) ((0 : Nat) : ℝ)) / ((36 : Nat) : ℝ)) := by rfl
set_option maxRecDepth 8000 in
theorem udtb.value (N : Env) : meaning N .r Cls.udtb.methods Cls.udtb.amp2 [] =
    ((sumJ (fun x a => (sumJ (fun x b => (sumJ (fun x c => (sumJ (fun x d => (x + (((9 : Nat) : ℝ) * (‖(udtb.amp N a b c d)‖ ^ 2)))) x)) x)) x)) ((0 : Nat) : ℝ)) / ((36 : Nat) : ℝ)) :=
  udtb.amp2_eq N (callMean N [Cls.udtb.m_amp])

variable [FPEnv] in
theorem udtb.agrees : udtb.Agrees := by
  refine agrees_of (D := [5, 7]) (E := [7]) (by simp [all, udtb]) (by decide +kernel) (by decide) (by decide +kernel) (fun c hc => ⟨List.forall_mem_cons.2 ⟨hc.MW, List.forall_mem_cons.2 ⟨hc.SW, List.forall_mem_nil _⟩⟩, List.forall_mem_cons.2 ⟨hc.SW_lt, List.forall_mem_nil _⟩⟩) (fun c hc i => by fin_cases i <;> rfl) (by decide +kernel) ?_
  intro c p u hc hw h0 hs hb hr hu
  have he : udtb.scat.ends = [1, 2] := by decide
  have ht : udtb.scat.starts = [0, 3] := by decide
  obtain ⟨o1, o2⟩ := regular_two he ht hr
  have hf := udtb.scat.flows_annihilation (by decide) hb
  have ms := udtb.scat.msq_annihilation (by decide) hb
  have r0 : (udtb.N c p).r 0 = c.e := rfl
  have r7 : (udtb.N c p).r 7 = c.SW := rfl
  have r5 : (udtb.N c p).r 5 = c.MW := rfl
  have r2 : (udtb.N c p).r 2 = (c.mass .d) := rfl
  have r3 : (udtb.N c p).r 3 = (c.mass .t) := rfl
  have r1 : (udtb.N c p).r 1 = (c.mass .u) := rfl
  have r4 : (udtb.N c p).r 4 = (c.mass .b) := rfl
  have c0 : (udtb.N c p).c 0 = poleDist c.MW c.WW ((VExp.add 0 1).sum p) := rfl
  rw [pole_congr (ms.1).symm] at c0
  have d0 := o1.w (by decide) rfl
  have m0 : c.mass .u ≠ 0 := (hc.massive _ (by decide)).ne'
  have m1 : c.mass .d ≠ 0 := (hc.massive _ (by decide)).ne'
  have m2 : c.mass .t ≠ 0 := (hc.massive _ (by decide)).ne'
  have m3 : c.mass .b ≠ 0 := (hc.massive _ (by decide)).ne'
  have g0 : udtb.scat.sgn 0 = 1 := if_neg Bool.false_ne_true
  have g1 : udtb.scat.sgn 1 = -1 := if_pos rfl
  have g2 : udtb.scat.sgn 2 = 1 := if_neg Bool.false_ne_true
  have g3 : udtb.scat.sgn 3 = -1 := if_pos rfl
  have nMW := hc.MW
  have nSW := hc.SW
  have xMW : (c.MW : ℂ) ≠ 0 := by exact_mod_cast hc.MW
  have xSW : (c.SW : ℂ) ≠ 0 := by exact_mod_cast hc.SW
  have xCW : (c.CW : ℂ) ≠ 0 := by exact_mod_cast hc.CW
  have hd : udtb.proc.divides = [(Ty.r, 7), (Ty.r, 5), (Ty.c, 0)] := by decide +kernel
  have k_amp : ∀ s : Fin 4 → Fin 2, udtb.amp (udtb.N c p) (spinOf (s 0)) (spinOf (s 1)) (spinOf (s 2)) (spinOf (s 3)) = udtb.scat.ewC c p (udtb.scat.angs c p s) (udtb.scat.sqrs c p s) 1 0 2 3 := by
    intro s
    have v0 : (udtb.N c p).v 0 [spinOf (s 0), spinOf (s 3)] = ab (udtb.scat.angs c p s 0) (udtb.scat.angs c p s 3) := bra_angle (p := p) (m := udtb.proc.massNum (udtb.rho c)) rfl rfl (.inl ⟨m0, rfl⟩) (.inl ⟨m3, rfl⟩)
    have v1 : (udtb.N c p).v 1 [spinOf (s 1), spinOf (s 2)] = sb (udtb.scat.sqrs c p s 1) (udtb.scat.sqrs c p s 2) := bra_square (p := p) (m := udtb.proc.massNum (udtb.rho c)) rfl rfl (.inl ⟨m1, rfl⟩) (.inl ⟨m2, rfl⟩)
    have v2 : (udtb.N c p).v 2 [spinOf (s 0), spinOf (s 1)] = sb (udtb.scat.sqrs c p s 0) (udtb.scat.sqrs c p s 1) := bra_square (p := p) (m := udtb.proc.massNum (udtb.rho c)) rfl rfl (.inl ⟨m0, rfl⟩) (.inl ⟨m1, rfl⟩)
    have v3 : (udtb.N c p).v 3 [spinOf (s 0), spinOf (s 1)] = ab (udtb.scat.angs c p s 0) (udtb.scat.angs c p s 1) := bra_angle (p := p) (m := udtb.proc.massNum (udtb.rho c)) rfl rfl (.inl ⟨m0, rfl⟩) (.inl ⟨m1, rfl⟩)
    have v4 : (udtb.N c p).v 4 [spinOf (s 2), spinOf (s 3)] = sb (udtb.scat.sqrs c p s 2) (udtb.scat.sqrs c p s 3) := bra_square (p := p) (m := udtb.proc.massNum (udtb.rho c)) rfl rfl (.inl ⟨m2, rfl⟩) (.inl ⟨m3, rfl⟩)
    have v5 : (udtb.N c p).v 5 [spinOf (s 2), spinOf (s 3)] = ab (udtb.scat.angs c p s 2) (udtb.scat.angs c p s 3) := bra_angle (p := p) (m := udtb.proc.massNum (udtb.rho c)) rfl rfl (.inl ⟨m2, rfl⟩) (.inl ⟨m3, rfl⟩)
    rw [ewC_charged (S := udtb.scat) (i := 1) (j := 0) (k := 2) (l := 3) (m₁ := c.mass .d) (m₂ := c.mass .u) (m₃ := c.mass .t) (m₄ := c.mass .b) (by decide) (by decide) rfl g1 g0 g2 g3 rfl rfl rfl rfl rfl, udtb.amp]
    simp only [r0, r1, r2, r3, r4, r5, r7, c0, v0, v1, v2, v3, v4, v5, jj, ln, lw, Constants.gL, Constants.gR, Flavour.charge_b, Flavour.isospin_b, Flavour.charge_d, Flavour.isospin_d, Flavour.charge_t, Flavour.isospin_t, Flavour.charge_u, Flavour.isospin_u]
    abstract_brackets udtb.scat c p s
    push_cast
    field_simp; ring
  refine ⟨fun n hn => ?_, fun n hn => ?_, ?_⟩
  · simp [hd] at hn
    rcases hn with rfl | rfl
    · rw [r7]; exact nSW
    · rw [r5]; exact nMW
  · simp [hd] at hn
    rcases hn with rfl
    · rw [c0]; exact d0
  show meaning (udtb.N c p) .r Cls.udtb.methods Cls.udtb.amp2 [] = _
  have ss : udtb.scat.states = 36 := by decide
  have sy : udtb.scat.symmetry = 1 := by decide
  rw [udtb.value, udtb.scat.squared_quarks he ht hs h0 hf hu (by decide) colours_annihilation (by decide), ss, sy, Nat.cast_zero]
  rw [sumJ_four, Finset.sum_div, Finset.sum_div]
  refine Finset.sum_congr rfl fun s _ => ?_
  rw [k_amp]
  try simp only [strongC_none (S := udtb.scat) (i := 1) (j := 0) (k := 2) (l := 3) (by decide), ewC_none (S := udtb.scat) (i := 1) (j := 3) (k := 2) (l := 0) (by decide) (by decide), strongC_none (S := udtb.scat) (i := 1) (j := 3) (k := 2) (l := 0) (by decide)]
  finish_spins

/-! ### ubdt -/

/-- what the methods of the class see -/
noncomputable abbrev ubdt.N [FPEnv] (c : Constants) (p : Nat → V4 ℝ) : Env := ubdt.proc.env (ubdt.rho c) p
/-- `amp` (SM/ubdt.cpp) -/
noncomputable def ubdt.amp (N : Env) (j1 j2 j3 j4 : Int) : ℂ :=
  (((((N.r 8 * ((2 : Nat) : ℝ)) : ℝ) : ℂ) * ((((((((((((2 : Nat) : ℝ) * N.r 5) * N.r 5) : ℝ) : ℂ) * N.v 0 [j3, j4]) * N.v 1 [j1, j2]) - (((((N.r 2 * N.r 3) : ℝ) : ℂ) * N.v 2 [j1, j3]) * N.v 4 [j2, j4])) - (((((N.r 3 * N.r 1) : ℝ) : ℂ) * N.v 3 [j1, j3]) * N.v 4 [j2, j4])) - (((((N.r 4 * N.r 2) : ℝ) : ℂ) * N.v 2 [j1, j3]) * N.v 5 [j2, j4])) - (((((N.r 1 * N.r 4) : ℝ) : ℂ) * N.v 3 [j1, j3]) * N.v 5 [j2, j4]))) / N.c 0)
set_option maxRecDepth 8000 in
theorem ubdt.amp2_eq (N : Env) (f : Nat → List Int → ℂ) : Cls.ubdt.m_amp2.mean N f .r [] =
    ((sumJ (fun x a => (sumJ (fun x b => (sumJ (fun x c => (sumJ (fun x d => (x + (‖(f 0 [a, b, c, d])‖ ^ 2))) x)) x)) x)) ((0 : Nat) : ℝ)) / ((4 : Nat) : ℝ)) := by rfl
set_option maxRecDepth 8000 in
theorem ubdt.value (N : Env) : meaning N .r Cls.ubdt.methods Cls.ubdt.amp2 [] =
    ((sumJ (fun x a => (sumJ (fun x b => (sumJ (fun x c => (sumJ (fun x d => (x + (‖(ubdt.amp N a b c d)‖ ^ 2))) x)) x)) x)) ((0 : Nat) : ℝ)) / ((4 : Nat) : ℝ)) :=
  ubdt.amp2_eq N (callMean N [Cls.ubdt.m_amp])

variable [FPEnv] in
theorem ubdt.agrees : ubdt.Agrees := by
  refine agrees_of (D := [5, 7]) (E := [7]) (by simp [all, ubdt]) (by decide +kernel) (by decide) (by decide +kernel) (fun c hc => ⟨List.forall_mem_cons.2 ⟨hc.MW, List.forall_mem_cons.2 ⟨hc.SW, List.forall_mem_nil _⟩⟩, List.forall_mem_cons.2 ⟨hc.SW_lt, List.forall_mem_nil _⟩⟩) (fun c hc i => by fin_cases i <;> rfl) (by decide +kernel) ?_
  intro c p u hc hw h0 hs hb hr hu
  have he : ubdt.scat.ends = [2, 3] := by decide
  have ht : ubdt.scat.starts = [0, 1] := by decide
  obtain ⟨o1, o2⟩ := regular_two he ht hr
  have hf := ubdt.scat.flows_scattering (by decide) hb
  have ms := ubdt.scat.msq_scattering (by decide) hb
  have r8 : (ubdt.N c p).r 8 = ((c.e * c.e) / ((((((4 : Nat) : ℝ) * c.MW) * c.MW) * c.SW) * c.SW)) := rfl
  have r5 : (ubdt.N c p).r 5 = c.MW := rfl
  have r2 : (ubdt.N c p).r 2 = (c.mass .d) := rfl
  have r3 : (ubdt.N c p).r 3 = (c.mass .t) := rfl
  have r1 : (ubdt.N c p).r 1 = (c.mass .u) := rfl
  have r4 : (ubdt.N c p).r 4 = (c.mass .b) := rfl
  have c0 : (ubdt.N c p).c 0 = poleDist c.MW c.WW ((VExp.sub 0 2).sum p) := rfl
  rw [pole_congr (ms.1).symm] at c0
  have d0 := o1.w (by decide) rfl
  have m0 : c.mass .u ≠ 0 := (hc.massive _ (by decide)).ne'
  have m1 : c.mass .b ≠ 0 := (hc.massive _ (by decide)).ne'
  have m2 : c.mass .d ≠ 0 := (hc.massive _ (by decide)).ne'
  have m3 : c.mass .t ≠ 0 := (hc.massive _ (by decide)).ne'
  have g0 : ubdt.scat.sgn 0 = 1 := if_neg Bool.false_ne_true
  have g1 : ubdt.scat.sgn 1 = 1 := if_neg Bool.false_ne_true
  have g2 : ubdt.scat.sgn 2 = 1 := if_neg Bool.false_ne_true
  have g3 : ubdt.scat.sgn 3 = 1 := if_neg Bool.false_ne_true
  have nMW := hc.MW
  have nSW := hc.SW
  have xMW : (c.MW : ℂ) ≠ 0 := by exact_mod_cast hc.MW
  have xSW : (c.SW : ℂ) ≠ 0 := by exact_mod_cast hc.SW
  have xCW : (c.CW : ℂ) ≠ 0 := by exact_mod_cast hc.CW
  have hd : ubdt.proc.divides = [(Ty.c, 0)] := by decide +kernel
  have k_amp : ∀ s : Fin 4 → Fin 2, ubdt.amp (ubdt.N c p) (spinOf (s 0)) (spinOf (s 1)) (spinOf (s 2)) (spinOf (s 3)) = -(ubdt.scat.ewC c p (ubdt.scat.angs c p s) (ubdt.scat.sqrs c p s) 2 0 3 1) := by
    intro s
    have v0 : (ubdt.N c p).v 0 [spinOf (s 2), spinOf (s 3)] = sb (ubdt.scat.sqrs c p s 2) (ubdt.scat.sqrs c p s 3) := bra_square (p := p) (m := ubdt.proc.massNum (ubdt.rho c)) rfl rfl (.inl ⟨m2, rfl⟩) (.inl ⟨m3, rfl⟩)
    have v1 : (ubdt.N c p).v 1 [spinOf (s 0), spinOf (s 1)] = ab (ubdt.scat.angs c p s 0) (ubdt.scat.angs c p s 1) := bra_angle (p := p) (m := ubdt.proc.massNum (ubdt.rho c)) rfl rfl (.inl ⟨m0, rfl⟩) (.inl ⟨m1, rfl⟩)
    have v2 : (ubdt.N c p).v 2 [spinOf (s 0), spinOf (s 2)] = ab (ubdt.scat.angs c p s 0) (ubdt.scat.angs c p s 2) := bra_angle (p := p) (m := ubdt.proc.massNum (ubdt.rho c)) rfl rfl (.inl ⟨m0, rfl⟩) (.inl ⟨m2, rfl⟩)
    have v3 : (ubdt.N c p).v 3 [spinOf (s 0), spinOf (s 2)] = sb (ubdt.scat.sqrs c p s 0) (ubdt.scat.sqrs c p s 2) := bra_square (p := p) (m := ubdt.proc.massNum (ubdt.rho c)) rfl rfl (.inl ⟨m0, rfl⟩) (.inl ⟨m2, rfl⟩)
    have v4 : (ubdt.N c p).v 4 [spinOf (s 1), spinOf (s 3)] = ab (ubdt.scat.angs c p s 1) (ubdt.scat.angs c p s 3) := bra_angle (p := p) (m := ubdt.proc.massNum (ubdt.rho c)) rfl rfl (.inl ⟨m1, rfl⟩) (.inl ⟨m3, rfl⟩)
    have v5 : (ubdt.N c p).v 5 [spinOf (s 1), spinOf (s 3)] = sb (ubdt.scat.sqrs c p s 1) (ubdt.scat.sqrs c p s 3) := bra_square (p := p) (m := ubdt.proc.massNum (ubdt.rho c)) rfl rfl (.inl ⟨m1, rfl⟩) (.inl ⟨m3, rfl⟩)
    rw [ewC_charged (S := ubdt.scat) (i := 2) (j := 0) (k := 3) (l := 1) (m₁ := c.mass .d) (m₂ := c.mass .u) (m₃ := c.mass .t) (m₄ := c.mass .b) (by decide) (by decide) rfl g2 g0 g3 g1 rfl rfl rfl rfl rfl, ubdt.amp]
    simp only [r1, r2, r3, r4, r5, r8, c0, v0, v1, v2, v3, v4, v5, jj, ln, lw, Constants.gL, Constants.gR, Flavour.charge_b, Flavour.isospin_b, Flavour.charge_d, Flavour.isospin_d, Flavour.charge_t, Flavour.isospin_t, Flavour.charge_u, Flavour.isospin_u]
    abstract_brackets ubdt.scat c p s
    push_cast
    field_simp; ring
  refine ⟨fun n hn => ?_, fun n hn => ?_, ?_⟩
  · simp [hd] at hn
  · simp [hd] at hn
    rcases hn with rfl
    · rw [c0]; exact d0
  show meaning (ubdt.N c p) .r Cls.ubdt.methods Cls.ubdt.amp2 [] = _
  have ss : ubdt.scat.states = 36 := by decide
  have sy : ubdt.scat.symmetry = 1 := by decide
  rw [ubdt.value, ubdt.scat.squared_quarks he ht hs h0 hf hu (by decide) colours_scattering (by decide), ss, sy, Nat.cast_zero]
  rw [sumJ_four, Finset.sum_div, Finset.sum_div]
  refine Finset.sum_congr rfl fun s _ => ?_
  rw [k_amp]
  try simp only [strongC_none (S := ubdt.scat) (i := 2) (j := 0) (k := 3) (l := 1) (by decide), ewC_none (S := ubdt.scat) (i := 2) (j := 1) (k := 3) (l := 0) (by decide) (by decide), strongC_none (S := ubdt.scat) (i := 2) (j := 1) (k := 3) (l := 0) (by decide)]
  finish_spins

end Spinas.SM.Rows
