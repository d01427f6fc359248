import Verif.SM.FermionRows
import Verif.SM.Exchanges

/-! Quarks of one flavour. Generated by tools/fermions/emit.py: for each class its amplitudes as formulas, and the proof that `amp2` is the squared amplitude of the Feynman rules. -/

set_option linter.unusedSimpArgs false

namespace Spinas.SM.Rows
open Spec Spec.Scattering Props XR Matrix Row

/-! ### uuuu -/

/-- what the methods of the class see -/
noncomputable abbrev uuuu.N [FPEnv] (c : Constants) (p : Nat → V4 ℝ) : Env := uuuu.proc.env (uuuu.rho c) p
/-- `amp_gluon_S` (SM/uuuu.cpp) -/
noncomputable def uuuu.amp_gluon_S (N : Env) (j1 j2 j3 j4 : Int) : ℂ :=
  ((((((((2 : Nat) : ℝ) * N.r 1) * N.r 1) : ℝ) : ℂ) * ((((N.v 0 [j1, j3] * N.v 7 [j2, j4]) + (N.v 2 [j1, j4] * N.v 5 [j2, j3])) + (N.v 1 [j1, j3] * N.v 6 [j2, j4])) + (N.v 3 [j1, j4] * N.v 4 [j2, j3]))) / N.c 0)
/-- `amp_gluon_T` (SM/uuuu.cpp) -/
noncomputable def uuuu.amp_gluon_T (N : Env) (j1 j2 j3 j4 : Int) : ℂ :=
  ((((((((2 : Nat) : ℝ) * N.r 1) * N.r 1) : ℝ) : ℂ) * ((((N.v 9 [j1, j2] * N.v 10 [j3, j4]) + (N.v 2 [j1, j4] * N.v 5 [j2, j3])) + (N.v 8 [j1, j2] * N.v 11 [j3, j4])) + (N.v 3 [j1, j4] * N.v 4 [j2, j3]))) / N.c 3)
/-- `amp_rest_S` (SM/uuuu.cpp) -/
noncomputable def uuuu.amp_rest_S (N : Env) (j1 j2 j3 j4 : Int) : ℂ :=
  ((((((((((((2 : Nat) : ℝ) * N.r 0) * N.r 0) * ((4 : Nat) : ℝ)) / ((9 : Nat) : ℝ)) : ℝ) : ℂ) * ((((N.v 0 [j1, j3] * N.v 7 [j2, j4]) + (N.v 2 [j1, j4] * N.v 5 [j2, j3])) + (N.v 1 [j1, j3] * N.v 6 [j2, j4])) + (N.v 3 [j1, j4] * N.v 4 [j2, j3]))) / N.c 0) + (((((N.r 10 : ℝ) : ℂ) * (N.v 8 [j1, j2] + N.v 9 [j1, j2])) * (N.v 10 [j3, j4] + N.v 11 [j3, j4])) / N.c 1)) + (((((((-N.r 14) : ℝ) : ℂ) * (N.v 9 [j1, j2] - N.v 8 [j1, j2])) * (N.v 11 [j3, j4] - N.v 10 [j3, j4])) / N.c 2) + (((((((2 : Nat) : ℝ) * N.r 13) : ℝ) : ℂ) * (((((((N.r 11 * N.r 11) : ℝ) : ℂ) * N.v 5 [j2, j3]) * N.v 2 [j1, j4]) + ((((N.r 11 * N.r 12) : ℝ) : ℂ) * ((N.v 1 [j1, j3] * N.v 6 [j2, j4]) + (N.v 7 [j2, j4] * N.v 0 [j1, j3])))) + (((((N.r 12 * N.r 12) : ℝ) : ℂ) * N.v 3 [j1, j4]) * N.v 4 [j2, j3]))) / N.c 2)))
/-- `amp_rest_T` (SM/uuuu.cpp) -/
noncomputable def uuuu.amp_rest_T (N : Env) (j1 j2 j3 j4 : Int) : ℂ :=
  (((((((0 : Nat) : ℝ) : ℝ) : ℂ) + ((((((((((2 : Nat) : ℝ) * N.r 0) * N.r 0) * ((4 : Nat) : ℝ)) / ((9 : Nat) : ℝ)) : ℝ) : ℂ) * ((((N.v 9 [j1, j2] * N.v 10 [j3, j4]) + (N.v 2 [j1, j4] * N.v 5 [j2, j3])) + (N.v 8 [j1, j2] * N.v 11 [j3, j4])) + (N.v 3 [j1, j4] * N.v 4 [j2, j3]))) / N.c 3)) + ((((((-N.r 10) : ℝ) : ℂ) * (N.v 1 [j1, j3] - N.v 0 [j1, j3])) * (N.v 7 [j2, j4] - N.v 6 [j2, j4])) / N.c 4)) + ((((((N.r 14 : ℝ) : ℂ) * (N.v 0 [j1, j3] + N.v 1 [j1, j3])) * (N.v 6 [j2, j4] + N.v 7 [j2, j4])) / N.c 5) + (((((((2 : Nat) : ℝ) * N.r 13) : ℝ) : ℂ) * (((((((N.r 11 * N.r 11) : ℝ) : ℂ) * N.v 5 [j2, j3]) * N.v 2 [j1, j4]) + ((((N.r 11 * N.r 12) : ℝ) : ℂ) * ((N.v 8 [j1, j2] * N.v 11 [j3, j4]) + (N.v 10 [j3, j4] * N.v 9 [j1, j2])))) + (((((N.r 12 * N.r 12) : ℝ) : ℂ) * N.v 3 [j1, j4]) * N.v 4 [j2, j3]))) / N.c 5)))
set_option maxRecDepth 8000 in
theorem uuuu.amp2_eq (N : Env) (f : Nat → List Int → ℂ) : Cls.uuuu.m_amp2.mean N f .r [] =
    ((sumJ (fun x a => (sumJ (fun x b => (sumJ (fun x c => (sumJ (fun x d => ((((((((x + (((9 : Nat) : ℝ) * (‖(f 2 [a, b, c, d])‖ ^ 2))) + (((2 : Nat) : ℝ) * (‖(f 0 [a, b, c, d])‖ ^ 2))) + (((9 : Nat) : ℝ) * (‖(f 3 [a, b, c, d])‖ ^ 2))) + (((2 : Nat) : ℝ) * (‖(f 1 [a, b, c, d])‖ ^ 2))) + ((((3 : Nat) : ℝ) * ((2 : Nat) : ℝ)) * (((f 2 [a, b, c, d]) * ((starRingEnd ℂ) (f 3 [a, b, c, d])))).re)) + ((((-((2 : Nat) : ℝ)) / ((3 : Nat) : ℝ)) * ((2 : Nat) : ℝ)) * (((f 0 [a, b, c, d]) * ((starRingEnd ℂ) (f 1 [a, b, c, d])))).re)) + ((((4 : Nat) : ℝ) * ((2 : Nat) : ℝ)) * (((f 0 [a, b, c, d]) * ((starRingEnd ℂ) (f 3 [a, b, c, d])))).re)) + ((((4 : Nat) : ℝ) * ((2 : Nat) : ℝ)) * (((f 1 [a, b, c, d]) * ((starRingEnd ℂ) (f 2 [a, b, c, d])))).re))) x)) x)) x)) ((0 : Nat) : ℝ)) / ((36 : Nat) : ℝ)) := by rfl
set_option maxRecDepth 8000 in
theorem uuuu.value (N : Env) : meaning N .r Cls.uuuu.methods Cls.uuuu.amp2 [] =
    ((sumJ (fun x a => (sumJ (fun x b => (sumJ (fun x c => (sumJ (fun x d => ((((((((x + (((9 : Nat) : ℝ) * (‖(uuuu.amp_rest_S N a b c d)‖ ^ 2))) + (((2 : Nat) : ℝ) * (‖(uuuu.amp_gluon_S N a b c d)‖ ^ 2))) + (((9 : Nat) : ℝ) * (‖(uuuu.amp_rest_T N a b c d)‖ ^ 2))) + (((2 : Nat) : ℝ) * (‖(uuuu.amp_gluon_T N a b c d)‖ ^ 2))) + ((((3 : Nat) : ℝ) * ((2 : Nat) : ℝ)) * (((uuuu.amp_rest_S N a b c d) * ((starRingEnd ℂ) (uuuu.amp_rest_T N a b c d)))).re)) + ((((-((2 : Nat) : ℝ)) / ((3 : Nat) : ℝ)) * ((2 : Nat) : ℝ)) * (((uuuu.amp_gluon_S N a b c d) * ((starRingEnd ℂ) (uuuu.amp_gluon_T N a b c d)))).re)) + ((((4 : Nat) : ℝ) * ((2 : Nat) : ℝ)) * (((uuuu.amp_gluon_S N a b c d) * ((starRingEnd ℂ) (uuuu.amp_rest_T N a b c d)))).re)) + ((((4 : Nat) : ℝ) * ((2 : Nat) : ℝ)) * (((uuuu.amp_gluon_T N a b c d) * ((starRingEnd ℂ) (uuuu.amp_rest_S N a b c d)))).re))) x)) x)) x)) ((0 : Nat) : ℝ)) / ((36 : Nat) : ℝ)) :=
  uuuu.amp2_eq N (callMean N [Cls.uuuu.m_amp_rest_T, Cls.uuuu.m_amp_rest_S, Cls.uuuu.m_amp_gluon_T, Cls.uuuu.m_amp_gluon_S])

variable [FPEnv] in
theorem uuuu.agrees : uuuu.Agrees := by
  refine agrees_of (D := [5, 6]) (E := [6]) (by simp [all, uuuu]) (by decide +kernel) (by decide) (by decide +kernel) (fun c hc => ⟨List.forall_mem_cons.2 ⟨hc.MW, List.forall_mem_cons.2 ⟨hc.SW, List.forall_mem_nil _⟩⟩, List.forall_mem_cons.2 ⟨hc.SW_lt, List.forall_mem_nil _⟩⟩) (fun c hc i => by fin_cases i <;> rfl) (by decide +kernel) ?_
  intro c p u hc hw h0 hs hb hr hu
  replace hw := hw (by simp [uuuu])
  have he : uuuu.scat.ends = [1, 2] := by decide
  have ht : uuuu.scat.starts = [0, 3] := by decide
  obtain ⟨o1, o2⟩ := regular_two he ht hr
  have hf := uuuu.scat.flows_annihilation (by decide) hb
  have ms := uuuu.scat.msq_annihilation (by decide) hb
  have r0 : (uuuu.N c p).r 0 = c.e := rfl
  have r10 : (uuuu.N c p).r 10 = ((((c.e * c.e) * (c.mass .u)) * (c.mass .u)) / ((((((4 : Nat) : ℝ) * c.MW) * c.MW) * c.SW) * c.SW)) := rfl
  have r14 : (uuuu.N c p).r 14 = ((((((((c.e * c.e) / ((((((4 : Nat) : ℝ) * √((((1 : Nat) : ℝ) - (c.SW * c.SW)))) * √((((1 : Nat) : ℝ) - (c.SW * c.SW)))) * c.SW) * c.SW)) * ((((1 : Nat) : ℝ) - (((((4 : Nat) : ℝ) / ((3 : Nat) : ℝ)) * c.SW) * c.SW)) - ((((-((4 : Nat) : ℝ)) / ((3 : Nat) : ℝ)) * c.SW) * c.SW))) * ((((1 : Nat) : ℝ) - (((((4 : Nat) : ℝ) / ((3 : Nat) : ℝ)) * c.SW) * c.SW)) - ((((-((4 : Nat) : ℝ)) / ((3 : Nat) : ℝ)) * c.SW) * c.SW))) * (c.mass .u)) * (c.mass .u)) / (c.MW / √((((1 : Nat) : ℝ) - (c.SW * c.SW))))) / (c.MW / √((((1 : Nat) : ℝ) - (c.SW * c.SW))))) := rfl
  simp only [c.root, c.mz] at r14
  have r13 : (uuuu.N c p).r 13 = ((c.e * c.e) / ((((((4 : Nat) : ℝ) * √((((1 : Nat) : ℝ) - (c.SW * c.SW)))) * √((((1 : Nat) : ℝ) - (c.SW * c.SW)))) * c.SW) * c.SW)) := rfl
  simp only [c.root] at r13
  have r11 : (uuuu.N c p).r 11 = (((1 : Nat) : ℝ) - (((((4 : Nat) : ℝ) / ((3 : Nat) : ℝ)) * c.SW) * c.SW)) := rfl
  have r12 : (uuuu.N c p).r 12 = ((((-((4 : Nat) : ℝ)) / ((3 : Nat) : ℝ)) * c.SW) * c.SW) := rfl
  have r1 : (uuuu.N c p).r 1 = c.gs := rfl
  have c0 : (uuuu.N c p).c 0 = poleDist ((0 : Nat) : ℝ) ((0 : Nat) : ℝ) ((VExp.add 0 1).sum p) := rfl
  rw [Nat.cast_zero, pole_zero (ms.1).symm] at c0
  have c1 : (uuuu.N c p).c 1 = poleDist c.MH c.WH ((VExp.add 0 1).sum p) := rfl
  rw [pole_congr (ms.1).symm] at c1
  have c2 : (uuuu.N c p).c 2 = poleDist (c.MW / √((((1 : Nat) : ℝ) - (c.SW * c.SW)))) ((0 : Nat) : ℝ) ((VExp.add 0 1).sum p) := rfl
  rw [c.root, c.mz, Nat.cast_zero, ← hw, pole_congr (ms.1).symm] at c2
  have c3 : (uuuu.N c p).c 3 = poleDist ((0 : Nat) : ℝ) ((0 : Nat) : ℝ) ((VExp.sub 0 2).sum p) := rfl
  rw [Nat.cast_zero, pole_zero (ms.2).symm] at c3
  have c4 : (uuuu.N c p).c 4 = poleDist c.MH c.WH ((VExp.sub 0 2).sum p) := rfl
  rw [pole_congr (ms.2).symm] at c4
  have c5 : (uuuu.N c p).c 5 = poleDist (c.MW / √((((1 : Nat) : ℝ) - (c.SW * c.SW)))) ((0 : Nat) : ℝ) ((VExp.sub 0 2).sum p) := rfl
  rw [c.root, c.mz, Nat.cast_zero, ← hw, pole_congr (ms.2).symm] at c5
  have d0 := o1.photon (by decide) (by show (2/3 : ℝ) * (2/3) ≠ 0; norm_num)
  have d1 := o1.higgs (by decide) rfl (hc.massive _ (by decide)) (hc.massive _ (by decide))
  have d2 := o1.z (by decide) rfl
  have d3 := o2.photon (by decide) (by show (2/3 : ℝ) * (2/3) ≠ 0; norm_num)
  have d4 := o2.higgs (by decide) rfl (hc.massive _ (by decide)) (hc.massive _ (by decide))
  have d5 := o2.z (by decide) rfl
  have m0 : c.mass .u ≠ 0 := (hc.massive _ (by decide)).ne'
  have m1 : c.mass .u ≠ 0 := (hc.massive _ (by decide)).ne'
  have m2 : c.mass .u ≠ 0 := (hc.massive _ (by decide)).ne'
  have m3 : c.mass .u ≠ 0 := (hc.massive _ (by decide)).ne'
  have g0 : uuuu.scat.sgn 0 = 1 := if_neg Bool.false_ne_true
  have g1 : uuuu.scat.sgn 1 = -1 := if_pos rfl
  have g2 : uuuu.scat.sgn 2 = 1 := if_neg Bool.false_ne_true
  have g3 : uuuu.scat.sgn 3 = -1 := if_pos rfl
  have nMW := hc.MW
  have nSW := hc.SW
  have xMW : (c.MW : ℂ) ≠ 0 := by exact_mod_cast hc.MW
  have xSW : (c.SW : ℂ) ≠ 0 := by exact_mod_cast hc.SW
  have xCW : (c.CW : ℂ) ≠ 0 := by exact_mod_cast hc.CW
  have hd : uuuu.proc.divides = [(Ty.c, 3), (Ty.c, 4), (Ty.c, 5), (Ty.c, 0), (Ty.c, 1), (Ty.c, 2)] := by decide +kernel
  have k_amp_rest_S : ∀ s : Fin 4 → Fin 2, uuuu.amp_rest_S (uuuu.N c p) (spinOf (s 0)) (spinOf (s 1)) (spinOf (s 2)) (spinOf (s 3)) = uuuu.scat.ewC c p (uuuu.scat.angs c p s) (uuuu.scat.sqrs c p s) 1 0 2 3 := by
    intro s
    have v0 : (uuuu.N c p).v 0 [spinOf (s 0), spinOf (s 2)] = ab (uuuu.scat.angs c p s 0) (uuuu.scat.angs c p s 2) := bra_angle (p := p) (m := uuuu.proc.massNum (uuuu.rho c)) rfl rfl (.inl ⟨m0, rfl⟩) (.inl ⟨m2, rfl⟩)
    have v1 : (uuuu.N c p).v 1 [spinOf (s 0), spinOf (s 2)] = sb (uuuu.scat.sqrs c p s 0) (uuuu.scat.sqrs c p s 2) := bra_square (p := p) (m := uuuu.proc.massNum (uuuu.rho c)) rfl rfl (.inl ⟨m0, rfl⟩) (.inl ⟨m2, rfl⟩)
    have v2 : (uuuu.N c p).v 2 [spinOf (s 0), spinOf (s 3)] = ab (uuuu.scat.angs c p s 0) (uuuu.scat.angs c p s 3) := bra_angle (p := p) (m := uuuu.proc.massNum (uuuu.rho c)) rfl rfl (.inl ⟨m0, rfl⟩) (.inl ⟨m3, rfl⟩)
    have v3 : (uuuu.N c p).v 3 [spinOf (s 0), spinOf (s 3)] = sb (uuuu.scat.sqrs c p s 0) (uuuu.scat.sqrs c p s 3) := bra_square (p := p) (m := uuuu.proc.massNum (uuuu.rho c)) rfl rfl (.inl ⟨m0, rfl⟩) (.inl ⟨m3, rfl⟩)
    have v4 : (uuuu.N c p).v 4 [spinOf (s 1), spinOf (s 2)] = ab (uuuu.scat.angs c p s 1) (uuuu.scat.angs c p s 2) := bra_angle (p := p) (m := uuuu.proc.massNum (uuuu.rho c)) rfl rfl (.inl ⟨m1, rfl⟩) (.inl ⟨m2, rfl⟩)
    have v5 : (uuuu.N c p).v 5 [spinOf (s 1), spinOf (s 2)] = sb (uuuu.scat.sqrs c p s 1) (uuuu.scat.sqrs c p s 2) := bra_square (p := p) (m := uuuu.proc.massNum (uuuu.rho c)) rfl rfl (.inl ⟨m1, rfl⟩) (.inl ⟨m2, rfl⟩)
    have v6 : (uuuu.N c p).v 6 [spinOf (s 1), spinOf (s 3)] = ab (uuuu.scat.angs c p s 1) (uuuu.scat.angs c p s 3) := bra_angle (p := p) (m := uuuu.proc.massNum (uuuu.rho c)) rfl rfl (.inl ⟨m1, rfl⟩) (.inl ⟨m3, rfl⟩)
    have v7 : (uuuu.N c p).v 7 [spinOf (s 1), spinOf (s 3)] = sb (uuuu.scat.sqrs c p s 1) (uuuu.scat.sqrs c p s 3) := bra_square (p := p) (m := uuuu.proc.massNum (uuuu.rho c)) rfl rfl (.inl ⟨m1, rfl⟩) (.inl ⟨m3, rfl⟩)
    have v8 : (uuuu.N c p).v 8 [spinOf (s 0), spinOf (s 1)] = sb (uuuu.scat.sqrs c p s 0) (uuuu.scat.sqrs c p s 1) := bra_square (p := p) (m := uuuu.proc.massNum (uuuu.rho c)) rfl rfl (.inl ⟨m0, rfl⟩) (.inl ⟨m1, rfl⟩)
    have v9 : (uuuu.N c p).v 9 [spinOf (s 0), spinOf (s 1)] = ab (uuuu.scat.angs c p s 0) (uuuu.scat.angs c p s 1) := bra_angle (p := p) (m := uuuu.proc.massNum (uuuu.rho c)) rfl rfl (.inl ⟨m0, rfl⟩) (.inl ⟨m1, rfl⟩)
    have v10 : (uuuu.N c p).v 10 [spinOf (s 2), spinOf (s 3)] = sb (uuuu.scat.sqrs c p s 2) (uuuu.scat.sqrs c p s 3) := bra_square (p := p) (m := uuuu.proc.massNum (uuuu.rho c)) rfl rfl (.inl ⟨m2, rfl⟩) (.inl ⟨m3, rfl⟩)
    have v11 : (uuuu.N c p).v 11 [spinOf (s 2), spinOf (s 3)] = ab (uuuu.scat.angs c p s 2) (uuuu.scat.angs c p s 3) := bra_angle (p := p) (m := uuuu.proc.massNum (uuuu.rho c)) rfl rfl (.inl ⟨m2, rfl⟩) (.inl ⟨m3, rfl⟩)
    rw [ewC_neutral (S := uuuu.scat) (i := 1) (j := 0) (k := 2) (l := 3) (f := .u) (g := .u) (by decide) (by decide) rfl rfl rfl g1 g0 g2 g3 rfl rfl rfl, uuuu.amp_rest_S]
    simp only [r0, r10, r11, r12, r13, r14, c0, c1, c2, v0, v1, v2, v3, v4, v5, v6, v7, v8, v9, v10, v11, jj, ln, lw, Constants.gL, Constants.gR, Flavour.charge_u, Flavour.isospin_u]
    abstract_brackets uuuu.scat c p s
    push_cast
    ring
  have k_amp_rest_T : ∀ s : Fin 4 → Fin 2, uuuu.amp_rest_T (uuuu.N c p) (spinOf (s 0)) (spinOf (s 1)) (spinOf (s 2)) (spinOf (s 3)) = -(uuuu.scat.ewC c p (uuuu.scat.angs c p s) (uuuu.scat.sqrs c p s) 1 3 2 0) := by
    intro s
    have v0 : (uuuu.N c p).v 0 [spinOf (s 0), spinOf (s 2)] = ab (uuuu.scat.angs c p s 0) (uuuu.scat.angs c p s 2) := bra_angle (p := p) (m := uuuu.proc.massNum (uuuu.rho c)) rfl rfl (.inl ⟨m0, rfl⟩) (.inl ⟨m2, rfl⟩)
    have v1 : (uuuu.N c p).v 1 [spinOf (s 0), spinOf (s 2)] = sb (uuuu.scat.sqrs c p s 0) (uuuu.scat.sqrs c p s 2) := bra_square (p := p) (m := uuuu.proc.massNum (uuuu.rho c)) rfl rfl (.inl ⟨m0, rfl⟩) (.inl ⟨m2, rfl⟩)
    have v2 : (uuuu.N c p).v 2 [spinOf (s 0), spinOf (s 3)] = ab (uuuu.scat.angs c p s 0) (uuuu.scat.angs c p s 3) := bra_angle (p := p) (m := uuuu.proc.massNum (uuuu.rho c)) rfl rfl (.inl ⟨m0, rfl⟩) (.inl ⟨m3, rfl⟩)
    have v3 : (uuuu.N c p).v 3 [spinOf (s 0), spinOf (s 3)] = sb (uuuu.scat.sqrs c p s 0) (uuuu.scat.sqrs c p s 3) := bra_square (p := p) (m := uuuu.proc.massNum (uuuu.rho c)) rfl rfl (.inl ⟨m0, rfl⟩) (.inl ⟨m3, rfl⟩)
    have v4 : (uuuu.N c p).v 4 [spinOf (s 1), spinOf (s 2)] = ab (uuuu.scat.angs c p s 1) (uuuu.scat.angs c p s 2) := bra_angle (p := p) (m := uuuu.proc.massNum (uuuu.rho c)) rfl rfl (.inl ⟨m1, rfl⟩) (.inl ⟨m2, rfl⟩)
    have v5 : (uuuu.N c p).v 5 [spinOf (s 1), spinOf (s 2)] = sb (uuuu.scat.sqrs c p s 1) (uuuu.scat.sqrs c p s 2) := bra_square (p := p) (m := uuuu.proc.massNum (uuuu.rho c)) rfl rfl (.inl ⟨m1, rfl⟩) (.inl ⟨m2, rfl⟩)
    have v6 : (uuuu.N c p).v 6 [spinOf (s 1), spinOf (s 3)] = ab (uuuu.scat.angs c p s 1) (uuuu.scat.angs c p s 3) := bra_angle (p := p) (m := uuuu.proc.massNum (uuuu.rho c)) rfl rfl (.inl ⟨m1, rfl⟩) (.inl ⟨m3, rfl⟩)
    have v7 : (uuuu.N c p).v 7 [spinOf (s 1), spinOf (s 3)] = sb (uuuu.scat.sqrs c p s 1) (uuuu.scat.sqrs c p s 3) := bra_square (p := p) (m := uuuu.proc.massNum (uuuu.rho c)) rfl rfl (.inl ⟨m1, rfl⟩) (.inl ⟨m3, rfl⟩)
    have v8 : (uuuu.N c p).v 8 [spinOf (s 0), spinOf (s 1)] = sb (uuuu.scat.sqrs c p s 0) (uuuu.scat.sqrs c p s 1) := bra_square (p := p) (m := uuuu.proc.massNum (uuuu.rho c)) rfl rfl (.inl ⟨m0, rfl⟩) (.inl ⟨m1, rfl⟩)
    have v9 : (uuuu.N c p).v 9 [spinOf (s 0), spinOf (s 1)] = ab (uuuu.scat.angs c p s 0) (uuuu.scat.angs c p s 1) := bra_angle (p := p) (m := uuuu.proc.massNum (uuuu.rho c)) rfl rfl (.inl ⟨m0, rfl⟩) (.inl ⟨m1, rfl⟩)
    have v10 : (uuuu.N c p).v 10 [spinOf (s 2), spinOf (s 3)] = sb (uuuu.scat.sqrs c p s 2) (uuuu.scat.sqrs c p s 3) := bra_square (p := p) (m := uuuu.proc.massNum (uuuu.rho c)) rfl rfl (.inl ⟨m2, rfl⟩) (.inl ⟨m3, rfl⟩)
    have v11 : (uuuu.N c p).v 11 [spinOf (s 2), spinOf (s 3)] = ab (uuuu.scat.angs c p s 2) (uuuu.scat.angs c p s 3) := bra_angle (p := p) (m := uuuu.proc.massNum (uuuu.rho c)) rfl rfl (.inl ⟨m2, rfl⟩) (.inl ⟨m3, rfl⟩)
    rw [ewC_neutral (S := uuuu.scat) (i := 1) (j := 3) (k := 2) (l := 0) (f := .u) (g := .u) (by decide) (by decide) rfl rfl rfl g1 g3 g2 g0 rfl rfl rfl, uuuu.amp_rest_T]
    simp only [r0, r10, r11, r12, r13, r14, c3, c4, c5, v0, v1, v2, v3, v4, v5, v6, v7, v8, v9, v10, v11, jj, ln, lw, Constants.gL, Constants.gR, Flavour.charge_u, Flavour.isospin_u]
    abstract_brackets uuuu.scat c p s
    push_cast
    ring
  have k_amp_gluon_S : ∀ s : Fin 4 → Fin 2, uuuu.amp_gluon_S (uuuu.N c p) (spinOf (s 0)) (spinOf (s 1)) (spinOf (s 2)) (spinOf (s 3)) = uuuu.scat.strongC c p (uuuu.scat.angs c p s) (uuuu.scat.sqrs c p s) 1 0 2 3 := by
    intro s
    have v0 : (uuuu.N c p).v 0 [spinOf (s 0), spinOf (s 2)] = ab (uuuu.scat.angs c p s 0) (uuuu.scat.angs c p s 2) := bra_angle (p := p) (m := uuuu.proc.massNum (uuuu.rho c)) rfl rfl (.inl ⟨m0, rfl⟩) (.inl ⟨m2, rfl⟩)
    have v1 : (uuuu.N c p).v 1 [spinOf (s 0), spinOf (s 2)] = sb (uuuu.scat.sqrs c p s 0) (uuuu.scat.sqrs c p s 2) := bra_square (p := p) (m := uuuu.proc.massNum (uuuu.rho c)) rfl rfl (.inl ⟨m0, rfl⟩) (.inl ⟨m2, rfl⟩)
    have v2 : (uuuu.N c p).v 2 [spinOf (s 0), spinOf (s 3)] = ab (uuuu.scat.angs c p s 0) (uuuu.scat.angs c p s 3) := bra_angle (p := p) (m := uuuu.proc.massNum (uuuu.rho c)) rfl rfl (.inl ⟨m0, rfl⟩) (.inl ⟨m3, rfl⟩)
    have v3 : (uuuu.N c p).v 3 [spinOf (s 0), spinOf (s 3)] = sb (uuuu.scat.sqrs c p s 0) (uuuu.scat.sqrs c p s 3) := bra_square (p := p) (m := uuuu.proc.massNum (uuuu.rho c)) rfl rfl (.inl ⟨m0, rfl⟩) (.inl ⟨m3, rfl⟩)
    have v4 : (uuuu.N c p).v 4 [spinOf (s 1), spinOf (s 2)] = ab (uuuu.scat.angs c p s 1) (uuuu.scat.angs c p s 2) := bra_angle (p := p) (m := uuuu.proc.massNum (uuuu.rho c)) rfl rfl (.inl ⟨m1, rfl⟩) (.inl ⟨m2, rfl⟩)
    have v5 : (uuuu.N c p).v 5 [spinOf (s 1), spinOf (s 2)] = sb (uuuu.scat.sqrs c p s 1) (uuuu.scat.sqrs c p s 2) := bra_square (p := p) (m := uuuu.proc.massNum (uuuu.rho c)) rfl rfl (.inl ⟨m1, rfl⟩) (.inl ⟨m2, rfl⟩)
    have v6 : (uuuu.N c p).v 6 [spinOf (s 1), spinOf (s 3)] = ab (uuuu.scat.angs c p s 1) (uuuu.scat.angs c p s 3) := bra_angle (p := p) (m := uuuu.proc.massNum (uuuu.rho c)) rfl rfl (.inl ⟨m1, rfl⟩) (.inl ⟨m3, rfl⟩)
    have v7 : (uuuu.N c p).v 7 [spinOf (s 1), spinOf (s 3)] = sb (uuuu.scat.sqrs c p s 1) (uuuu.scat.sqrs c p s 3) := bra_square (p := p) (m := uuuu.proc.massNum (uuuu.rho c)) rfl rfl (.inl ⟨m1, rfl⟩) (.inl ⟨m3, rfl⟩)
    rw [strongC_quarks (S := uuuu.scat) (i := 1) (j := 0) (k := 2) (l := 3) (by decide) rfl rfl rfl g1 g0 g2 g3 rfl, uuuu.amp_gluon_S]
    simp only [r1, c0, v0, v1, v2, v3, v4, v5, v6, v7, jj, ln, lw, Constants.gL, Constants.gR, Flavour.charge_u, Flavour.isospin_u]
    abstract_brackets uuuu.scat c p s
    push_cast
    ring
  have k_amp_gluon_T : ∀ s : Fin 4 → Fin 2, uuuu.amp_gluon_T (uuuu.N c p) (spinOf (s 0)) (spinOf (s 1)) (spinOf (s 2)) (spinOf (s 3)) = -(uuuu.scat.strongC c p (uuuu.scat.angs c p s) (uuuu.scat.sqrs c p s) 1 3 2 0) := by
    intro s
    have v2 : (uuuu.N c p).v 2 [spinOf (s 0), spinOf (s 3)] = ab (uuuu.scat.angs c p s 0) (uuuu.scat.angs c p s 3) := bra_angle (p := p) (m := uuuu.proc.massNum (uuuu.rho c)) rfl rfl (.inl ⟨m0, rfl⟩) (.inl ⟨m3, rfl⟩)
    have v3 : (uuuu.N c p).v 3 [spinOf (s 0), spinOf (s 3)] = sb (uuuu.scat.sqrs c p s 0) (uuuu.scat.sqrs c p s 3) := bra_square (p := p) (m := uuuu.proc.massNum (uuuu.rho c)) rfl rfl (.inl ⟨m0, rfl⟩) (.inl ⟨m3, rfl⟩)
    have v4 : (uuuu.N c p).v 4 [spinOf (s 1), spinOf (s 2)] = ab (uuuu.scat.angs c p s 1) (uuuu.scat.angs c p s 2) := bra_angle (p := p) (m := uuuu.proc.massNum (uuuu.rho c)) rfl rfl (.inl ⟨m1, rfl⟩) (.inl ⟨m2, rfl⟩)
    have v5 : (uuuu.N c p).v 5 [spinOf (s 1), spinOf (s 2)] = sb (uuuu.scat.sqrs c p s 1) (uuuu.scat.sqrs c p s 2) := bra_square (p := p) (m := uuuu.proc.massNum (uuuu.rho c)) rfl rfl (.inl ⟨m1, rfl⟩) (.inl ⟨m2, rfl⟩)
    have v8 : (uuuu.N c p).v 8 [spinOf (s 0), spinOf (s 1)] = sb (uuuu.scat.sqrs c p s 0) (uuuu.scat.sqrs c p s 1) := bra_square (p := p) (m := uuuu.proc.massNum (uuuu.rho c)) rfl rfl (.inl ⟨m0, rfl⟩) (.inl ⟨m1, rfl⟩)
    have v9 : (uuuu.N c p).v 9 [spinOf (s 0), spinOf (s 1)] = ab (uuuu.scat.angs c p s 0) (uuuu.scat.angs c p s 1) := bra_angle (p := p) (m := uuuu.proc.massNum (uuuu.rho c)) rfl rfl (.inl ⟨m0, rfl⟩) (.inl ⟨m1, rfl⟩)
    have v10 : (uuuu.N c p).v 10 [spinOf (s 2), spinOf (s 3)] = sb (uuuu.scat.sqrs c p s 2) (uuuu.scat.sqrs c p s 3) := bra_square (p := p) (m := uuuu.proc.massNum (uuuu.rho c)) rfl rfl (.inl ⟨m2, rfl⟩) (.inl ⟨m3, rfl⟩)
    have v11 : (uuuu.N c p).v 11 [spinOf (s 2), spinOf (s 3)] = ab (uuuu.scat.angs c p s 2) (uuuu.scat.angs c p s 3) := bra_angle (p := p) (m := uuuu.proc.massNum (uuuu.rho c)) rfl rfl (.inl ⟨m2, rfl⟩) (.inl ⟨m3, rfl⟩)
    rw [strongC_quarks (S := uuuu.scat) (i := 1) (j := 3) (k := 2) (l := 0) (by decide) rfl rfl rfl g1 g3 g2 g0 rfl, uuuu.amp_gluon_T]
    simp only [r1, c3, v2, v3, v4, v5, v8, v9, v10, v11, jj, ln, lw, Constants.gL, Constants.gR, Flavour.charge_u, Flavour.isospin_u]
    abstract_brackets uuuu.scat c p s
    push_cast
    ring
  refine ⟨fun n hn => ?_, fun n hn => ?_, ?_⟩
  · simp [hd] at hn
  · simp [hd] at hn
    rcases hn with rfl | rfl | rfl | rfl | rfl | rfl
    · rw [c3]; exact d3
    · rw [c4]; exact d4
    · rw [c5]; exact d5
    · rw [c0]; exact d0
    · rw [c1]; exact d1
    · rw [c2]; exact d2
  show meaning (uuuu.N c p) .r Cls.uuuu.methods Cls.uuuu.amp2 [] = _
  have ss : uuuu.scat.states = 36 := by decide
  have sy : uuuu.scat.symmetry = 1 := by decide
  rw [uuuu.value, uuuu.scat.squared_quarks he ht hs h0 hf hu (by decide) colours_annihilation (by decide), ss, sy, Nat.cast_zero]
  simp only [add_assoc]
  rw [sumJ_four, Finset.sum_div, Finset.sum_div]
  refine Finset.sum_congr rfl fun s _ => ?_
  rw [k_amp_gluon_S, k_amp_gluon_T, k_amp_rest_S, k_amp_rest_T]
  finish_spins

/-! ### dddd2 -/

/-- what the methods of the class see -/
noncomputable abbrev dddd2.N [FPEnv] (c : Constants) (p : Nat → V4 ℝ) : Env := dddd2.proc.env (dddd2.rho c) p
/-- `amp_gluon_T` (SM/dddd2.cpp) -/
noncomputable def dddd2.amp_gluon_T (N : Env) (j1 j2 j3 j4 : Int) : ℂ :=
  (((((((-((2 : Nat) : ℝ)) * N.r 1) * N.r 1) : ℝ) : ℂ) * ((((N.v 2 [j1, j4] * N.v 5 [j2, j3]) + (N.v 9 [j1, j2] * N.v 10 [j3, j4])) + (N.v 3 [j1, j4] * N.v 4 [j2, j3])) + (N.v 8 [j1, j2] * N.v 11 [j3, j4]))) / N.c 0)
/-- `amp_gluon_U` (SM/dddd2.cpp) -/
noncomputable def dddd2.amp_gluon_U (N : Env) (j1 j2 j3 j4 : Int) : ℂ :=
  ((((((((2 : Nat) : ℝ) * N.r 1) * N.r 1) : ℝ) : ℂ) * ((((N.v 0 [j1, j3] * N.v 7 [j2, j4]) - (N.v 9 [j1, j2] * N.v 10 [j3, j4])) + (N.v 1 [j1, j3] * N.v 6 [j2, j4])) - (N.v 8 [j1, j2] * N.v 11 [j3, j4]))) / N.c 3)
/-- `amp_rest_T` (SM/dddd2.cpp) -/
noncomputable def dddd2.amp_rest_T (N : Env) (j1 j2 j3 j4 : Int) : ℂ :=
  (((((((((((-((2 : Nat) : ℝ)) * N.r 0) * N.r 0) * ((1 : Nat) : ℝ)) / ((9 : Nat) : ℝ)) : ℝ) : ℂ) * ((((N.v 2 [j1, j4] * N.v 5 [j2, j3]) + (N.v 9 [j1, j2] * N.v 10 [j3, j4])) + (N.v 3 [j1, j4] * N.v 4 [j2, j3])) + (N.v 8 [j1, j2] * N.v 11 [j3, j4]))) / N.c 0) + ((((((-N.r 10) : ℝ) : ℂ) * (N.v 1 [j1, j3] - N.v 0 [j1, j3])) * (N.v 7 [j2, j4] - N.v 6 [j2, j4])) / N.c 1)) + ((((((N.r 14 : ℝ) : ℂ) * (N.v 0 [j1, j3] + N.v 1 [j1, j3])) * (N.v 6 [j2, j4] + N.v 7 [j2, j4])) / N.c 2) - (((((((2 : Nat) : ℝ) * N.r 13) : ℝ) : ℂ) * (((((((N.r 11 * N.r 11) : ℝ) : ℂ) * N.v 10 [j3, j4]) * N.v 9 [j1, j2]) + ((((N.r 11 * N.r 12) : ℝ) : ℂ) * ((N.v 3 [j1, j4] * N.v 4 [j2, j3]) + (N.v 5 [j2, j3] * N.v 2 [j1, j4])))) + (((((N.r 12 * N.r 12) : ℝ) : ℂ) * N.v 8 [j1, j2]) * N.v 11 [j3, j4]))) / N.c 2)))
/-- `amp_rest_U` (SM/dddd2.cpp) -/
noncomputable def dddd2.amp_rest_U (N : Env) (j1 j2 j3 j4 : Int) : ℂ :=
  (((((((0 : Nat) : ℝ) : ℝ) : ℂ) + ((((((((((2 : Nat) : ℝ) * N.r 0) * N.r 0) * ((1 : Nat) : ℝ)) / ((9 : Nat) : ℝ)) : ℝ) : ℂ) * ((((N.v 0 [j1, j3] * N.v 7 [j2, j4]) - (N.v 9 [j1, j2] * N.v 10 [j3, j4])) + (N.v 1 [j1, j3] * N.v 6 [j2, j4])) - (N.v 8 [j1, j2] * N.v 11 [j3, j4]))) / N.c 3)) + (((((N.r 10 : ℝ) : ℂ) * (N.v 3 [j1, j4] - N.v 2 [j1, j4])) * (N.v 5 [j2, j3] - N.v 4 [j2, j3])) / N.c 4)) + (((((((-N.r 14) : ℝ) : ℂ) * (N.v 2 [j1, j4] + N.v 3 [j1, j4])) * (N.v 4 [j2, j3] + N.v 5 [j2, j3])) / N.c 5) - (((((((2 : Nat) : ℝ) * N.r 13) : ℝ) : ℂ) * (((((((N.r 11 * N.r 11) : ℝ) : ℂ) * N.v 10 [j3, j4]) * N.v 9 [j1, j2]) - ((((N.r 11 * N.r 12) : ℝ) : ℂ) * ((N.v 1 [j1, j3] * N.v 6 [j2, j4]) + (N.v 7 [j2, j4] * N.v 0 [j1, j3])))) + (((((N.r 12 * N.r 12) : ℝ) : ℂ) * N.v 8 [j1, j2]) * N.v 11 [j3, j4]))) / N.c 5)))
set_option maxRecDepth 8000 in
theorem dddd2.amp2_eq (N : Env) (f : Nat → List Int → ℂ) : Cls.dddd2.m_amp2.mean N f .r [] =
    ((sumJ (fun x a => (sumJ (fun x b => (sumJ (fun x c => (sumJ (fun x d => ((((((((x + (((9 : Nat) : ℝ) * (‖(f 2 [a, b, c, d])‖ ^ 2))) + (((2 : Nat) : ℝ) * (‖(f 0 [a, b, c, d])‖ ^ 2))) + (((9 : Nat) : ℝ) * (‖(f 3 [a, b, c, d])‖ ^ 2))) + (((2 : Nat) : ℝ) * (‖(f 1 [a, b, c, d])‖ ^ 2))) + ((((3 : Nat) : ℝ) * ((2 : Nat) : ℝ)) * (((f 2 [a, b, c, d]) * ((starRingEnd ℂ) (f 3 [a, b, c, d])))).re)) + ((((-((2 : Nat) : ℝ)) / ((3 : Nat) : ℝ)) * ((2 : Nat) : ℝ)) * (((f 0 [a, b, c, d]) * ((starRingEnd ℂ) (f 1 [a, b, c, d])))).re)) + ((((4 : Nat) : ℝ) * ((2 : Nat) : ℝ)) * (((f 0 [a, b, c, d]) * ((starRingEnd ℂ) (f 3 [a, b, c, d])))).re)) + ((((4 : Nat) : ℝ) * ((2 : Nat) : ℝ)) * (((f 1 [a, b, c, d]) * ((starRingEnd ℂ) (f 2 [a, b, c, d])))).re))) x)) x)) x)) ((0 : Nat) : ℝ)) / ((72 : Nat) : ℝ)) := by rfl
set_option maxRecDepth 8000 in
theorem dddd2.value (N : Env) : meaning N .r Cls.dddd2.methods Cls.dddd2.amp2 [] =
    ((sumJ (fun x a => (sumJ (fun x b => (sumJ (fun x c => (sumJ (fun x d => ((((((((x + (((9 : Nat) : ℝ) * (‖(dddd2.amp_rest_T N a b c d)‖ ^ 2))) + (((2 : Nat) : ℝ) * (‖(dddd2.amp_gluon_T N a b c d)‖ ^ 2))) + (((9 : Nat) : ℝ) * (‖(dddd2.amp_rest_U N a b c d)‖ ^ 2))) + (((2 : Nat) : ℝ) * (‖(dddd2.amp_gluon_U N a b c d)‖ ^ 2))) + ((((3 : Nat) : ℝ) * ((2 : Nat) : ℝ)) * (((dddd2.amp_rest_T N a b c d) * ((starRingEnd ℂ) (dddd2.amp_rest_U N a b c d)))).re)) + ((((-((2 : Nat) : ℝ)) / ((3 : Nat) : ℝ)) * ((2 : Nat) : ℝ)) * (((dddd2.amp_gluon_T N a b c d) * ((starRingEnd ℂ) (dddd2.amp_gluon_U N a b c d)))).re)) + ((((4 : Nat) : ℝ) * ((2 : Nat) : ℝ)) * (((dddd2.amp_gluon_T N a b c d) * ((starRingEnd ℂ) (dddd2.amp_rest_U N a b c d)))).re)) + ((((4 : Nat) : ℝ) * ((2 : Nat) : ℝ)) * (((dddd2.amp_gluon_U N a b c d) * ((starRingEnd ℂ) (dddd2.amp_rest_T N a b c d)))).re))) x)) x)) x)) ((0 : Nat) : ℝ)) / ((72 : Nat) : ℝ)) :=
  dddd2.amp2_eq N (callMean N [Cls.dddd2.m_amp_rest_U, Cls.dddd2.m_amp_rest_T, Cls.dddd2.m_amp_gluon_U, Cls.dddd2.m_amp_gluon_T])

variable [FPEnv] in
theorem dddd2.agrees : dddd2.Agrees := by
  refine agrees_of (D := [5, 6]) (E := [6]) (by simp [all, dddd2]) (by decide +kernel) (by decide) (by decide +kernel) (fun c hc => ⟨List.forall_mem_cons.2 ⟨hc.MW, List.forall_mem_cons.2 ⟨hc.SW, List.forall_mem_nil _⟩⟩, List.forall_mem_cons.2 ⟨hc.SW_lt, List.forall_mem_nil _⟩⟩) (fun c hc i => by fin_cases i <;> rfl) (by decide +kernel) ?_
  intro c p u hc hw h0 hs hb hr hu
  replace hw := hw (by simp [dddd2])
  have he : dddd2.scat.ends = [2, 3] := by decide
  have ht : dddd2.scat.starts = [0, 1] := by decide
  obtain ⟨o1, o2⟩ := regular_two he ht hr
  have hf := dddd2.scat.flows_scattering (by decide) hb
  have ms := dddd2.scat.msq_scattering (by decide) hb
  have r0 : (dddd2.N c p).r 0 = c.e := rfl
  have r10 : (dddd2.N c p).r 10 = ((((c.e * c.e) * (c.mass .d)) * (c.mass .d)) / ((((((4 : Nat) : ℝ) * c.MW) * c.MW) * c.SW) * c.SW)) := rfl
  have r14 : (dddd2.N c p).r 14 = ((((((((c.e * c.e) / ((((((4 : Nat) : ℝ) * √((((1 : Nat) : ℝ) - (c.SW * c.SW)))) * √((((1 : Nat) : ℝ) - (c.SW * c.SW)))) * c.SW) * c.SW)) * (((-((1 : Nat) : ℝ)) + (((((2 : Nat) : ℝ) / ((3 : Nat) : ℝ)) * c.SW) * c.SW)) - (((((2 : Nat) : ℝ) / ((3 : Nat) : ℝ)) * c.SW) * c.SW))) * (((-((1 : Nat) : ℝ)) + (((((2 : Nat) : ℝ) / ((3 : Nat) : ℝ)) * c.SW) * c.SW)) - (((((2 : Nat) : ℝ) / ((3 : Nat) : ℝ)) * c.SW) * c.SW))) * (c.mass .d)) * (c.mass .d)) / (c.MW / √((((1 : Nat) : ℝ) - (c.SW * c.SW))))) / (c.MW / √((((1 : Nat) : ℝ) - (c.SW * c.SW))))) := rfl
  simp only [c.root, c.mz] at r14
  have r13 : (dddd2.N c p).r 13 = ((c.e * c.e) / ((((((4 : Nat) : ℝ) * √((((1 : Nat) : ℝ) - (c.SW * c.SW)))) * √((((1 : Nat) : ℝ) - (c.SW * c.SW)))) * c.SW) * c.SW)) := rfl
  simp only [c.root] at r13
  have r11 : (dddd2.N c p).r 11 = ((-((1 : Nat) : ℝ)) + (((((2 : Nat) : ℝ) / ((3 : Nat) : ℝ)) * c.SW) * c.SW)) := rfl
  have r12 : (dddd2.N c p).r 12 = (((((2 : Nat) : ℝ) / ((3 : Nat) : ℝ)) * c.SW) * c.SW) := rfl
  have r1 : (dddd2.N c p).r 1 = c.gs := rfl
  have c0 : (dddd2.N c p).c 0 = poleDist ((0 : Nat) : ℝ) ((0 : Nat) : ℝ) ((VExp.sub 0 2).sum p) := rfl
  rw [Nat.cast_zero, pole_zero (ms.1).symm] at c0
  have c1 : (dddd2.N c p).c 1 = poleDist c.MH c.WH ((VExp.sub 0 2).sum p) := rfl
  rw [pole_congr (ms.1).symm] at c1
  have c2 : (dddd2.N c p).c 2 = poleDist (c.MW / √((((1 : Nat) : ℝ) - (c.SW * c.SW)))) ((0 : Nat) : ℝ) ((VExp.sub 0 2).sum p) := rfl
  rw [c.root, c.mz, Nat.cast_zero, ← hw, pole_congr (ms.1).symm] at c2
  have c3 : (dddd2.N c p).c 3 = poleDist ((0 : Nat) : ℝ) ((0 : Nat) : ℝ) ((VExp.sub 0 3).sum p) := rfl
  rw [Nat.cast_zero, pole_zero (ms.2).symm] at c3
  have c4 : (dddd2.N c p).c 4 = poleDist c.MH c.WH ((VExp.sub 0 3).sum p) := rfl
  rw [pole_congr (ms.2).symm] at c4
  have c5 : (dddd2.N c p).c 5 = poleDist (c.MW / √((((1 : Nat) : ℝ) - (c.SW * c.SW)))) ((0 : Nat) : ℝ) ((VExp.sub 0 3).sum p) := rfl
  rw [c.root, c.mz, Nat.cast_zero, ← hw, pole_congr (ms.2).symm] at c5
  have d0 := o1.photon (by decide) (by show (-1/3 : ℝ) * (-1/3) ≠ 0; norm_num)
  have d1 := o1.higgs (by decide) rfl (hc.massive _ (by decide)) (hc.massive _ (by decide))
  have d2 := o1.z (by decide) rfl
  have d3 := o2.photon (by decide) (by show (-1/3 : ℝ) * (-1/3) ≠ 0; norm_num)
  have d4 := o2.higgs (by decide) rfl (hc.massive _ (by decide)) (hc.massive _ (by decide))
  have d5 := o2.z (by decide) rfl
  have m0 : c.mass .d ≠ 0 := (hc.massive _ (by decide)).ne'
  have m1 : c.mass .d ≠ 0 := (hc.massive _ (by decide)).ne'
  have m2 : c.mass .d ≠ 0 := (hc.massive _ (by decide)).ne'
  have m3 : c.mass .d ≠ 0 := (hc.massive _ (by decide)).ne'
  have g0 : dddd2.scat.sgn 0 = 1 := if_neg Bool.false_ne_true
  have g1 : dddd2.scat.sgn 1 = 1 := if_neg Bool.false_ne_true
  have g2 : dddd2.scat.sgn 2 = 1 := if_neg Bool.false_ne_true
  have g3 : dddd2.scat.sgn 3 = 1 := if_neg Bool.false_ne_true
  have nMW := hc.MW
  have nSW := hc.SW
  have xMW : (c.MW : ℂ) ≠ 0 := by exact_mod_cast hc.MW
  have xSW : (c.SW : ℂ) ≠ 0 := by exact_mod_cast hc.SW
  have xCW : (c.CW : ℂ) ≠ 0 := by exact_mod_cast hc.CW
  have hd : dddd2.proc.divides = [(Ty.c, 3), (Ty.c, 4), (Ty.c, 5), (Ty.c, 0), (Ty.c, 1), (Ty.c, 2)] := by decide +kernel
  have k_amp_rest_T : ∀ s : Fin 4 → Fin 2, dddd2.amp_rest_T (dddd2.N c p) (spinOf (s 0)) (spinOf (s 1)) (spinOf (s 2)) (spinOf (s 3)) = dddd2.scat.ewC c p (dddd2.scat.angs c p s) (dddd2.scat.sqrs c p s) 2 0 3 1 := by
    intro s
    have v0 : (dddd2.N c p).v 0 [spinOf (s 0), spinOf (s 2)] = ab (dddd2.scat.angs c p s 0) (dddd2.scat.angs c p s 2) := bra_angle (p := p) (m := dddd2.proc.massNum (dddd2.rho c)) rfl rfl (.inl ⟨m0, rfl⟩) (.inl ⟨m2, rfl⟩)
    have v1 : (dddd2.N c p).v 1 [spinOf (s 0), spinOf (s 2)] = sb (dddd2.scat.sqrs c p s 0) (dddd2.scat.sqrs c p s 2) := bra_square (p := p) (m := dddd2.proc.massNum (dddd2.rho c)) rfl rfl (.inl ⟨m0, rfl⟩) (.inl ⟨m2, rfl⟩)
    have v2 : (dddd2.N c p).v 2 [spinOf (s 0), spinOf (s 3)] = ab (dddd2.scat.angs c p s 0) (dddd2.scat.angs c p s 3) := bra_angle (p := p) (m := dddd2.proc.massNum (dddd2.rho c)) rfl rfl (.inl ⟨m0, rfl⟩) (.inl ⟨m3, rfl⟩)
    have v3 : (dddd2.N c p).v 3 [spinOf (s 0), spinOf (s 3)] = sb (dddd2.scat.sqrs c p s 0) (dddd2.scat.sqrs c p s 3) := bra_square (p := p) (m := dddd2.proc.massNum (dddd2.rho c)) rfl rfl (.inl ⟨m0, rfl⟩) (.inl ⟨m3, rfl⟩)
    have v4 : (dddd2.N c p).v 4 [spinOf (s 1), spinOf (s 2)] = ab (dddd2.scat.angs c p s 1) (dddd2.scat.angs c p s 2) := bra_angle (p := p) (m := dddd2.proc.massNum (dddd2.rho c)) rfl rfl (.inl ⟨m1, rfl⟩) (.inl ⟨m2, rfl⟩)
    have v5 : (dddd2.N c p).v 5 [spinOf (s 1), spinOf (s 2)] = sb (dddd2.scat.sqrs c p s 1) (dddd2.scat.sqrs c p s 2) := bra_square (p := p) (m := dddd2.proc.massNum (dddd2.rho c)) rfl rfl (.inl ⟨m1, rfl⟩) (.inl ⟨m2, rfl⟩)
    have v6 : (dddd2.N c p).v 6 [spinOf (s 1), spinOf (s 3)] = ab (dddd2.scat.angs c p s 1) (dddd2.scat.angs c p s 3) := bra_angle (p := p) (m := dddd2.proc.massNum (dddd2.rho c)) rfl rfl (.inl ⟨m1, rfl⟩) (.inl ⟨m3, rfl⟩)
    have v7 : (dddd2.N c p).v 7 [spinOf (s 1), spinOf (s 3)] = sb (dddd2.scat.sqrs c p s 1) (dddd2.scat.sqrs c p s 3) := bra_square (p := p) (m := dddd2.proc.massNum (dddd2.rho c)) rfl rfl (.inl ⟨m1, rfl⟩) (.inl ⟨m3, rfl⟩)
    have v8 : (dddd2.N c p).v 8 [spinOf (s 0), spinOf (s 1)] = sb (dddd2.scat.sqrs c p s 0) (dddd2.scat.sqrs c p s 1) := bra_square (p := p) (m := dddd2.proc.massNum (dddd2.rho c)) rfl rfl (.inl ⟨m0, rfl⟩) (.inl ⟨m1, rfl⟩)
    have v9 : (dddd2.N c p).v 9 [spinOf (s 0), spinOf (s 1)] = ab (dddd2.scat.angs c p s 0) (dddd2.scat.angs c p s 1) := bra_angle (p := p) (m := dddd2.proc.massNum (dddd2.rho c)) rfl rfl (.inl ⟨m0, rfl⟩) (.inl ⟨m1, rfl⟩)
    have v10 : (dddd2.N c p).v 10 [spinOf (s 2), spinOf (s 3)] = sb (dddd2.scat.sqrs c p s 2) (dddd2.scat.sqrs c p s 3) := bra_square (p := p) (m := dddd2.proc.massNum (dddd2.rho c)) rfl rfl (.inl ⟨m2, rfl⟩) (.inl ⟨m3, rfl⟩)
    have v11 : (dddd2.N c p).v 11 [spinOf (s 2), spinOf (s 3)] = ab (dddd2.scat.angs c p s 2) (dddd2.scat.angs c p s 3) := bra_angle (p := p) (m := dddd2.proc.massNum (dddd2.rho c)) rfl rfl (.inl ⟨m2, rfl⟩) (.inl ⟨m3, rfl⟩)
    rw [ewC_neutral (S := dddd2.scat) (i := 2) (j := 0) (k := 3) (l := 1) (f := .d) (g := .d) (by decide) (by decide) rfl rfl rfl g2 g0 g3 g1 rfl rfl rfl, dddd2.amp_rest_T]
    simp only [r0, r10, r11, r12, r13, r14, c0, c1, c2, v0, v1, v2, v3, v4, v5, v6, v7, v8, v9, v10, v11, jj, ln, lw, Constants.gL, Constants.gR, Flavour.charge_d, Flavour.isospin_d]
    abstract_brackets dddd2.scat c p s
    push_cast
    ring
  have k_amp_rest_U : ∀ s : Fin 4 → Fin 2, dddd2.amp_rest_U (dddd2.N c p) (spinOf (s 0)) (spinOf (s 1)) (spinOf (s 2)) (spinOf (s 3)) = -(dddd2.scat.ewC c p (dddd2.scat.angs c p s) (dddd2.scat.sqrs c p s) 2 1 3 0) := by
    intro s
    have v0 : (dddd2.N c p).v 0 [spinOf (s 0), spinOf (s 2)] = ab (dddd2.scat.angs c p s 0) (dddd2.scat.angs c p s 2) := bra_angle (p := p) (m := dddd2.proc.massNum (dddd2.rho c)) rfl rfl (.inl ⟨m0, rfl⟩) (.inl ⟨m2, rfl⟩)
    have v1 : (dddd2.N c p).v 1 [spinOf (s 0), spinOf (s 2)] = sb (dddd2.scat.sqrs c p s 0) (dddd2.scat.sqrs c p s 2) := bra_square (p := p) (m := dddd2.proc.massNum (dddd2.rho c)) rfl rfl (.inl ⟨m0, rfl⟩) (.inl ⟨m2, rfl⟩)
    have v2 : (dddd2.N c p).v 2 [spinOf (s 0), spinOf (s 3)] = ab (dddd2.scat.angs c p s 0) (dddd2.scat.angs c p s 3) := bra_angle (p := p) (m := dddd2.proc.massNum (dddd2.rho c)) rfl rfl (.inl ⟨m0, rfl⟩) (.inl ⟨m3, rfl⟩)
    have v3 : (dddd2.N c p).v 3 [spinOf (s 0), spinOf (s 3)] = sb (dddd2.scat.sqrs c p s 0) (dddd2.scat.sqrs c p s 3) := bra_square (p := p) (m := dddd2.proc.massNum (dddd2.rho c)) rfl rfl (.inl ⟨m0, rfl⟩) (.inl ⟨m3, rfl⟩)
    have v4 : (dddd2.N c p).v 4 [spinOf (s 1), spinOf (s 2)] = ab (dddd2.scat.angs c p s 1) (dddd2.scat.angs c p s 2) := bra_angle (p := p) (m := dddd2.proc.massNum (dddd2.rho c)) rfl rfl (.inl ⟨m1, rfl⟩) (.inl ⟨m2, rfl⟩)
    have v5 : (dddd2.N c p).v 5 [spinOf (s 1), spinOf (s 2)] = sb (dddd2.scat.sqrs c p s 1) (dddd2.scat.sqrs c p s 2) := bra_square (p := p) (m := dddd2.proc.massNum (dddd2.rho c)) rfl rfl (.inl ⟨m1, rfl⟩) (.inl ⟨m2, rfl⟩)
    have v6 : (dddd2.N c p).v 6 [spinOf (s 1), spinOf (s 3)] = ab (dddd2.scat.angs c p s 1) (dddd2.scat.angs c p s 3) := bra_angle (p := p) (m := dddd2.proc.massNum (dddd2.rho c)) rfl rfl (.inl ⟨m1, rfl⟩) (.inl ⟨m3, rfl⟩)
    have v7 : (dddd2.N c p).v 7 [spinOf (s 1), spinOf (s 3)] = sb (dddd2.scat.sqrs c p s 1) (dddd2.scat.sqrs c p s 3) := bra_square (p := p) (m := dddd2.proc.massNum (dddd2.rho c)) rfl rfl (.inl ⟨m1, rfl⟩) (.inl ⟨m3, rfl⟩)
    have v8 : (dddd2.N c p).v 8 [spinOf (s 0), spinOf (s 1)] = sb (dddd2.scat.sqrs c p s 0) (dddd2.scat.sqrs c p s 1) := bra_square (p := p) (m := dddd2.proc.massNum (dddd2.rho c)) rfl rfl (.inl ⟨m0, rfl⟩) (.inl ⟨m1, rfl⟩)
    have v9 : (dddd2.N c p).v 9 [spinOf (s 0), spinOf (s 1)] = ab (dddd2.scat.angs c p s 0) (dddd2.scat.angs c p s 1) := bra_angle (p := p) (m := dddd2.proc.massNum (dddd2.rho c)) rfl rfl (.inl ⟨m0, rfl⟩) (.inl ⟨m1, rfl⟩)
    have v10 : (dddd2.N c p).v 10 [spinOf (s 2), spinOf (s 3)] = sb (dddd2.scat.sqrs c p s 2) (dddd2.scat.sqrs c p s 3) := bra_square (p := p) (m := dddd2.proc.massNum (dddd2.rho c)) rfl rfl (.inl ⟨m2, rfl⟩) (.inl ⟨m3, rfl⟩)
    have v11 : (dddd2.N c p).v 11 [spinOf (s 2), spinOf (s 3)] = ab (dddd2.scat.angs c p s 2) (dddd2.scat.angs c p s 3) := bra_angle (p := p) (m := dddd2.proc.massNum (dddd2.rho c)) rfl rfl (.inl ⟨m2, rfl⟩) (.inl ⟨m3, rfl⟩)
    rw [ewC_neutral (S := dddd2.scat) (i := 2) (j := 1) (k := 3) (l := 0) (f := .d) (g := .d) (by decide) (by decide) rfl rfl rfl g2 g1 g3 g0 rfl rfl rfl, dddd2.amp_rest_U]
    simp only [r0, r10, r11, r12, r13, r14, c3, c4, c5, v0, v1, v2, v3, v4, v5, v6, v7, v8, v9, v10, v11, jj, ln, lw, Constants.gL, Constants.gR, Flavour.charge_d, Flavour.isospin_d]
    abstract_brackets dddd2.scat c p s
    push_cast
    ring
  have k_amp_gluon_T : ∀ s : Fin 4 → Fin 2, dddd2.amp_gluon_T (dddd2.N c p) (spinOf (s 0)) (spinOf (s 1)) (spinOf (s 2)) (spinOf (s 3)) = dddd2.scat.strongC c p (dddd2.scat.angs c p s) (dddd2.scat.sqrs c p s) 2 0 3 1 := by
    intro s
    have v2 : (dddd2.N c p).v 2 [spinOf (s 0), spinOf (s 3)] = ab (dddd2.scat.angs c p s 0) (dddd2.scat.angs c p s 3) := bra_angle (p := p) (m := dddd2.proc.massNum (dddd2.rho c)) rfl rfl (.inl ⟨m0, rfl⟩) (.inl ⟨m3, rfl⟩)
    have v3 : (dddd2.N c p).v 3 [spinOf (s 0), spinOf (s 3)] = sb (dddd2.scat.sqrs c p s 0) (dddd2.scat.sqrs c p s 3) := bra_square (p := p) (m := dddd2.proc.massNum (dddd2.rho c)) rfl rfl (.inl ⟨m0, rfl⟩) (.inl ⟨m3, rfl⟩)
    have v4 : (dddd2.N c p).v 4 [spinOf (s 1), spinOf (s 2)] = ab (dddd2.scat.angs c p s 1) (dddd2.scat.angs c p s 2) := bra_angle (p := p) (m := dddd2.proc.massNum (dddd2.rho c)) rfl rfl (.inl ⟨m1, rfl⟩) (.inl ⟨m2, rfl⟩)
    have v5 : (dddd2.N c p).v 5 [spinOf (s 1), spinOf (s 2)] = sb (dddd2.scat.sqrs c p s 1) (dddd2.scat.sqrs c p s 2) := bra_square (p := p) (m := dddd2.proc.massNum (dddd2.rho c)) rfl rfl (.inl ⟨m1, rfl⟩) (.inl ⟨m2, rfl⟩)
    have v8 : (dddd2.N c p).v 8 [spinOf (s 0), spinOf (s 1)] = sb (dddd2.scat.sqrs c p s 0) (dddd2.scat.sqrs c p s 1) := bra_square (p := p) (m := dddd2.proc.massNum (dddd2.rho c)) rfl rfl (.inl ⟨m0, rfl⟩) (.inl ⟨m1, rfl⟩)
    have v9 : (dddd2.N c p).v 9 [spinOf (s 0), spinOf (s 1)] = ab (dddd2.scat.angs c p s 0) (dddd2.scat.angs c p s 1) := bra_angle (p := p) (m := dddd2.proc.massNum (dddd2.rho c)) rfl rfl (.inl ⟨m0, rfl⟩) (.inl ⟨m1, rfl⟩)
    have v10 : (dddd2.N c p).v 10 [spinOf (s 2), spinOf (s 3)] = sb (dddd2.scat.sqrs c p s 2) (dddd2.scat.sqrs c p s 3) := bra_square (p := p) (m := dddd2.proc.massNum (dddd2.rho c)) rfl rfl (.inl ⟨m2, rfl⟩) (.inl ⟨m3, rfl⟩)
    have v11 : (dddd2.N c p).v 11 [spinOf (s 2), spinOf (s 3)] = ab (dddd2.scat.angs c p s 2) (dddd2.scat.angs c p s 3) := bra_angle (p := p) (m := dddd2.proc.massNum (dddd2.rho c)) rfl rfl (.inl ⟨m2, rfl⟩) (.inl ⟨m3, rfl⟩)
    rw [strongC_quarks (S := dddd2.scat) (i := 2) (j := 0) (k := 3) (l := 1) (by decide) rfl rfl rfl g2 g0 g3 g1 rfl, dddd2.amp_gluon_T]
    simp only [r1, c0, v2, v3, v4, v5, v8, v9, v10, v11, jj, ln, lw, Constants.gL, Constants.gR, Flavour.charge_d, Flavour.isospin_d]
    abstract_brackets dddd2.scat c p s
    push_cast
    ring
  have k_amp_gluon_U : ∀ s : Fin 4 → Fin 2, dddd2.amp_gluon_U (dddd2.N c p) (spinOf (s 0)) (spinOf (s 1)) (spinOf (s 2)) (spinOf (s 3)) = -(dddd2.scat.strongC c p (dddd2.scat.angs c p s) (dddd2.scat.sqrs c p s) 2 1 3 0) := by
    intro s
    have v0 : (dddd2.N c p).v 0 [spinOf (s 0), spinOf (s 2)] = ab (dddd2.scat.angs c p s 0) (dddd2.scat.angs c p s 2) := bra_angle (p := p) (m := dddd2.proc.massNum (dddd2.rho c)) rfl rfl (.inl ⟨m0, rfl⟩) (.inl ⟨m2, rfl⟩)
    have v1 : (dddd2.N c p).v 1 [spinOf (s 0), spinOf (s 2)] = sb (dddd2.scat.sqrs c p s 0) (dddd2.scat.sqrs c p s 2) := bra_square (p := p) (m := dddd2.proc.massNum (dddd2.rho c)) rfl rfl (.inl ⟨m0, rfl⟩) (.inl ⟨m2, rfl⟩)
    have v6 : (dddd2.N c p).v 6 [spinOf (s 1), spinOf (s 3)] = ab (dddd2.scat.angs c p s 1) (dddd2.scat.angs c p s 3) := bra_angle (p := p) (m := dddd2.proc.massNum (dddd2.rho c)) rfl rfl (.inl ⟨m1, rfl⟩) (.inl ⟨m3, rfl⟩)
    have v7 : (dddd2.N c p).v 7 [spinOf (s 1), spinOf (s 3)] = sb (dddd2.scat.sqrs c p s 1) (dddd2.scat.sqrs c p s 3) := bra_square (p := p) (m := dddd2.proc.massNum (dddd2.rho c)) rfl rfl (.inl ⟨m1, rfl⟩) (.inl ⟨m3, rfl⟩)
    have v8 : (dddd2.N c p).v 8 [spinOf (s 0), spinOf (s 1)] = sb (dddd2.scat.sqrs c p s 0) (dddd2.scat.sqrs c p s 1) := bra_square (p := p) (m := dddd2.proc.massNum (dddd2.rho c)) rfl rfl (.inl ⟨m0, rfl⟩) (.inl ⟨m1, rfl⟩)
    have v9 : (dddd2.N c p).v 9 [spinOf (s 0), spinOf (s 1)] = ab (dddd2.scat.angs c p s 0) (dddd2.scat.angs c p s 1) := bra_angle (p := p) (m := dddd2.proc.massNum (dddd2.rho c)) rfl rfl (.inl ⟨m0, rfl⟩) (.inl ⟨m1, rfl⟩)
    have v10 : (dddd2.N c p).v 10 [spinOf (s 2), spinOf (s 3)] = sb (dddd2.scat.sqrs c p s 2) (dddd2.scat.sqrs c p s 3) := bra_square (p := p) (m := dddd2.proc.massNum (dddd2.rho c)) rfl rfl (.inl ⟨m2, rfl⟩) (.inl ⟨m3, rfl⟩)
    have v11 : (dddd2.N c p).v 11 [spinOf (s 2), spinOf (s 3)] = ab (dddd2.scat.angs c p s 2) (dddd2.scat.angs c p s 3) := bra_angle (p := p) (m := dddd2.proc.massNum (dddd2.rho c)) rfl rfl (.inl ⟨m2, rfl⟩) (.inl ⟨m3, rfl⟩)
    rw [strongC_quarks (S := dddd2.scat) (i := 2) (j := 1) (k := 3) (l := 0) (by decide) rfl rfl rfl g2 g1 g3 g0 rfl, dddd2.amp_gluon_U]
    simp only [r1, c3, v0, v1, v6, v7, v8, v9, v10, v11, jj, ln, lw, Constants.gL, Constants.gR, Flavour.charge_d, Flavour.isospin_d]
    abstract_brackets dddd2.scat c p s
    push_cast
    ring
  refine ⟨fun n hn => ?_, fun n hn => ?_, ?_⟩
  · simp [hd] at hn
  · simp [hd] at hn
    rcases hn with rfl | rfl | rfl | rfl | rfl | rfl
    · rw [c3]; exact d3
    · rw [c4]; exact d4
    · rw [c5]; exact d5
    · rw [c0]; exact d0
    · rw [c1]; exact d1
    · rw [c2]; exact d2
  show meaning (dddd2.N c p) .r Cls.dddd2.methods Cls.dddd2.amp2 [] = _
  have ss : dddd2.scat.states = 36 := by decide
  have sy : dddd2.scat.symmetry = 2 := by decide
  rw [dddd2.value, dddd2.scat.squared_quarks he ht hs h0 hf hu (by decide) colours_scattering (by decide), ss, sy, Nat.cast_zero]
  simp only [add_assoc]
  rw [sumJ_four, Finset.sum_div, Finset.sum_div]
  refine Finset.sum_congr rfl fun s _ => ?_
  rw [k_amp_gluon_T, k_amp_gluon_U, k_amp_rest_T, k_amp_rest_U]
  finish_spins

/-! ### uuuu2 -/

/-- what the methods of the class see -/
noncomputable abbrev uuuu2.N [FPEnv] (c : Constants) (p : Nat → V4 ℝ) : Env := uuuu2.proc.env (uuuu2.rho c) p
/-- `amp_gluon_U` (SM/uuuu2.cpp) -/
noncomputable def uuuu2.amp_gluon_U (N : Env) (j1 j2 j3 j4 : Int) : ℂ :=
  ((((((((2 : Nat) : ℝ) * N.r 1) * N.r 1) : ℝ) : ℂ) * (((((-N.v 0 [j1, j3]) * N.v 7 [j2, j4]) + (N.v 9 [j1, j2] * N.v 10 [j3, j4])) - (N.v 1 [j1, j3] * N.v 6 [j2, j4])) + (N.v 8 [j1, j2] * N.v 11 [j3, j4]))) / N.c 0)
/-- `amp_gluon_T` (SM/uuuu2.cpp) -/
noncomputable def uuuu2.amp_gluon_T (N : Env) (j1 j2 j3 j4 : Int) : ℂ :=
  ((((((((2 : Nat) : ℝ) * N.r 1) * N.r 1) : ℝ) : ℂ) * ((((N.v 2 [j1, j4] * N.v 5 [j2, j3]) + (N.v 9 [j1, j2] * N.v 10 [j3, j4])) + (N.v 3 [j1, j4] * N.v 4 [j2, j3])) + (N.v 8 [j1, j2] * N.v 11 [j3, j4]))) / N.c 3)
/-- `amp_rest_U` (SM/uuuu2.cpp) -/
noncomputable def uuuu2.amp_rest_U (N : Env) (j1 j2 j3 j4 : Int) : ℂ :=
  ((((((((((((2 : Nat) : ℝ) * N.r 0) * N.r 0) * ((4 : Nat) : ℝ)) / ((9 : Nat) : ℝ)) : ℝ) : ℂ) * (((((-N.v 0 [j1, j3]) * N.v 7 [j2, j4]) + (N.v 9 [j1, j2] * N.v 10 [j3, j4])) - (N.v 1 [j1, j3] * N.v 6 [j2, j4])) + (N.v 8 [j1, j2] * N.v 11 [j3, j4]))) / N.c 0) + ((((((-N.r 10) : ℝ) : ℂ) * (N.v 3 [j1, j4] - N.v 2 [j1, j4])) * (N.v 5 [j2, j3] - N.v 4 [j2, j3])) / N.c 1)) + ((((((N.r 14 : ℝ) : ℂ) * (N.v 2 [j1, j4] + N.v 3 [j1, j4])) * (N.v 4 [j2, j3] + N.v 5 [j2, j3])) / N.c 2) + (((((((2 : Nat) : ℝ) * N.r 13) : ℝ) : ℂ) * (((((((N.r 11 * N.r 11) : ℝ) : ℂ) * N.v 10 [j3, j4]) * N.v 9 [j1, j2]) - ((((N.r 11 * N.r 12) : ℝ) : ℂ) * ((N.v 1 [j1, j3] * N.v 6 [j2, j4]) + (N.v 7 [j2, j4] * N.v 0 [j1, j3])))) + (((((N.r 12 * N.r 12) : ℝ) : ℂ) * N.v 8 [j1, j2]) * N.v 11 [j3, j4]))) / N.c 2)))
/-- `amp_rest_T` (SM/uuuu2.cpp) -/
noncomputable def uuuu2.amp_rest_T (N : Env) (j1 j2 j3 j4 : Int) : ℂ :=
  (((((((0 : Nat) : ℝ) : ℝ) : ℂ) + ((((((((((2 : Nat) : ℝ) * N.r 0) * N.r 0) * ((4 : Nat) : ℝ)) / ((9 : Nat) : ℝ)) : ℝ) : ℂ) * ((((N.v 2 [j1, j4] * N.v 5 [j2, j3]) + (N.v 9 [j1, j2] * N.v 10 [j3, j4])) + (N.v 3 [j1, j4] * N.v 4 [j2, j3])) + (N.v 8 [j1, j2] * N.v 11 [j3, j4]))) / N.c 3)) + (((((N.r 10 : ℝ) : ℂ) * (N.v 1 [j1, j3] - N.v 0 [j1, j3])) * (N.v 7 [j2, j4] - N.v 6 [j2, j4])) / N.c 4)) + (((((((-N.r 14) : ℝ) : ℂ) * (N.v 0 [j1, j3] + N.v 1 [j1, j3])) * (N.v 6 [j2, j4] + N.v 7 [j2, j4])) / N.c 5) + (((((((2 : Nat) : ℝ) * N.r 13) : ℝ) : ℂ) * (((((((N.r 11 * N.r 11) : ℝ) : ℂ) * N.v 10 [j3, j4]) * N.v 9 [j1, j2]) + ((((N.r 11 * N.r 12) : ℝ) : ℂ) * ((N.v 3 [j1, j4] * N.v 4 [j2, j3]) + (N.v 5 [j2, j3] * N.v 2 [j1, j4])))) + (((((N.r 12 * N.r 12) : ℝ) : ℂ) * N.v 8 [j1, j2]) * N.v 11 [j3, j4]))) / N.c 5)))
set_option maxRecDepth 8000 in
theorem uuuu2.amp2_eq (N : Env) (f : Nat → List Int → ℂ) : Cls.uuuu2.m_amp2.mean N f .r [] =
    ((sumJ (fun x a => (sumJ (fun x b => (sumJ (fun x c => (sumJ (fun x d => ((((((((x + (((9 : Nat) : ℝ) * (‖(f 2 [a, b, c, d])‖ ^ 2))) + (((2 : Nat) : ℝ) * (‖(f 0 [a, b, c, d])‖ ^ 2))) + (((9 : Nat) : ℝ) * (‖(f 3 [a, b, c, d])‖ ^ 2))) + (((2 : Nat) : ℝ) * (‖(f 1 [a, b, c, d])‖ ^ 2))) + ((((3 : Nat) : ℝ) * ((2 : Nat) : ℝ)) * (((f 2 [a, b, c, d]) * ((starRingEnd ℂ) (f 3 [a, b, c, d])))).re)) + ((((-((2 : Nat) : ℝ)) / ((3 : Nat) : ℝ)) * ((2 : Nat) : ℝ)) * (((f 0 [a, b, c, d]) * ((starRingEnd ℂ) (f 1 [a, b, c, d])))).re)) + ((((4 : Nat) : ℝ) * ((2 : Nat) : ℝ)) * (((f 0 [a, b, c, d]) * ((starRingEnd ℂ) (f 3 [a, b, c, d])))).re)) + ((((4 : Nat) : ℝ) * ((2 : Nat) : ℝ)) * (((f 1 [a, b, c, d]) * ((starRingEnd ℂ) (f 2 [a, b, c, d])))).re))) x)) x)) x)) ((0 : Nat) : ℝ)) / ((72 : Nat) : ℝ)) := by rfl
set_option maxRecDepth 8000 in
theorem uuuu2.value (N : Env) : meaning N .r Cls.uuuu2.methods Cls.uuuu2.amp2 [] =
    ((sumJ (fun x a => (sumJ (fun x b => (sumJ (fun x c => (sumJ (fun x d => ((((((((x + (((9 : Nat) : ℝ) * (‖(uuuu2.amp_rest_U N a b c d)‖ ^ 2))) + (((2 : Nat) : ℝ) * (‖(uuuu2.amp_gluon_U N a b c d)‖ ^ 2))) + (((9 : Nat) : ℝ) * (‖(uuuu2.amp_rest_T N a b c d)‖ ^ 2))) + (((2 : Nat) : ℝ) * (‖(uuuu2.amp_gluon_T N a b c d)‖ ^ 2))) + ((((3 : Nat) : ℝ) * ((2 : Nat) : ℝ)) * (((uuuu2.amp_rest_U N a b c d) * ((starRingEnd ℂ) (uuuu2.amp_rest_T N a b c d)))).re)) + ((((-((2 : Nat) : ℝ)) / ((3 : Nat) : ℝ)) * ((2 : Nat) : ℝ)) * (((uuuu2.amp_gluon_U N a b c d) * ((starRingEnd ℂ) (uuuu2.amp_gluon_T N a b c d)))).re)) + ((((4 : Nat) : ℝ) * ((2 : Nat) : ℝ)) * (((uuuu2.amp_gluon_U N a b c d) * ((starRingEnd ℂ) (uuuu2.amp_rest_T N a b c d)))).re)) + ((((4 : Nat) : ℝ) * ((2 : Nat) : ℝ)) * (((uuuu2.amp_gluon_T N a b c d) * ((starRingEnd ℂ) (uuuu2.amp_rest_U N a b c d)))).re))) x)) x)) x)) ((0 : Nat) : ℝ)) / ((72 : Nat) : ℝ)) :=
  uuuu2.amp2_eq N (callMean N [Cls.uuuu2.m_amp_rest_T, Cls.uuuu2.m_amp_rest_U, Cls.uuuu2.m_amp_gluon_T, Cls.uuuu2.m_amp_gluon_U])

variable [FPEnv] in
theorem uuuu2.agrees : uuuu2.Agrees := by
  refine agrees_of (D := [5, 6]) (E := [6]) (by simp [all, uuuu2]) (by decide +kernel) (by decide) (by decide +kernel) (fun c hc => ⟨List.forall_mem_cons.2 ⟨hc.MW, List.forall_mem_cons.2 ⟨hc.SW, List.forall_mem_nil _⟩⟩, List.forall_mem_cons.2 ⟨hc.SW_lt, List.forall_mem_nil _⟩⟩) (fun c hc i => by fin_cases i <;> rfl) (by decide +kernel) ?_
  intro c p u hc hw h0 hs hb hr hu
  replace hw := hw (by simp [uuuu2])
  have he : uuuu2.scat.ends = [2, 3] := by decide
  have ht : uuuu2.scat.starts = [0, 1] := by decide
  obtain ⟨o1, o2⟩ := regular_two he ht hr
  have hf := uuuu2.scat.flows_scattering (by decide) hb
  have ms := uuuu2.scat.msq_scattering (by decide) hb
  have r0 : (uuuu2.N c p).r 0 = c.e := rfl
  have r10 : (uuuu2.N c p).r 10 = ((((c.e * c.e) * (c.mass .u)) * (c.mass .u)) / ((((((4 : Nat) : ℝ) * c.MW) * c.MW) * c.SW) * c.SW)) := rfl
  have r14 : (uuuu2.N c p).r 14 = ((((((((c.e * c.e) / ((((((4 : Nat) : ℝ) * √((((1 : Nat) : ℝ) - (c.SW * c.SW)))) * √((((1 : Nat) : ℝ) - (c.SW * c.SW)))) * c.SW) * c.SW)) * ((((1 : Nat) : ℝ) - (((((4 : Nat) : ℝ) / ((3 : Nat) : ℝ)) * c.SW) * c.SW)) - ((((-((4 : Nat) : ℝ)) / ((3 : Nat) : ℝ)) * c.SW) * c.SW))) * ((((1 : Nat) : ℝ) - (((((4 : Nat) : ℝ) / ((3 : Nat) : ℝ)) * c.SW) * c.SW)) - ((((-((4 : Nat) : ℝ)) / ((3 : Nat) : ℝ)) * c.SW) * c.SW))) * (c.mass .u)) * (c.mass .u)) / (c.MW / √((((1 : Nat) : ℝ) - (c.SW * c.SW))))) / (c.MW / √((((1 : Nat) : ℝ) - (c.SW * c.SW))))) := rfl
  simp only [c.root, c.mz] at r14
  have r13 : (uuuu2.N c p).r 13 = ((c.e * c.e) / ((((((4 : Nat) : ℝ) * √((((1 : Nat) : ℝ) - (c.SW * c.SW)))) * √((((1 : Nat) : ℝ) - (c.SW * c.SW)))) * c.SW) * c.SW)) := rfl
  simp only [c.root] at r13
  have r11 : (uuuu2.N c p).r 11 = (((1 : Nat) : ℝ) - (((((4 : Nat) : ℝ) / ((3 : Nat) : ℝ)) * c.SW) * c.SW)) := rfl
  have r12 : (uuuu2.N c p).r 12 = ((((-((4 : Nat) : ℝ)) / ((3 : Nat) : ℝ)) * c.SW) * c.SW) := rfl
  have r1 : (uuuu2.N c p).r 1 = c.gs := rfl
  have c0 : (uuuu2.N c p).c 0 = poleDist ((0 : Nat) : ℝ) ((0 : Nat) : ℝ) ((VExp.sub 0 3).sum p) := rfl
  rw [Nat.cast_zero, pole_zero (ms.2).symm] at c0
  have c1 : (uuuu2.N c p).c 1 = poleDist c.MH c.WH ((VExp.sub 0 3).sum p) := rfl
  rw [pole_congr (ms.2).symm] at c1
  have c2 : (uuuu2.N c p).c 2 = poleDist (c.MW / √((((1 : Nat) : ℝ) - (c.SW * c.SW)))) ((0 : Nat) : ℝ) ((VExp.sub 0 3).sum p) := rfl
  rw [c.root, c.mz, Nat.cast_zero, ← hw, pole_congr (ms.2).symm] at c2
  have c3 : (uuuu2.N c p).c 3 = poleDist ((0 : Nat) : ℝ) ((0 : Nat) : ℝ) ((VExp.sub 0 2).sum p) := rfl
  rw [Nat.cast_zero, pole_zero (ms.1).symm] at c3
  have c4 : (uuuu2.N c p).c 4 = poleDist c.MH c.WH ((VExp.sub 0 2).sum p) := rfl
  rw [pole_congr (ms.1).symm] at c4
  have c5 : (uuuu2.N c p).c 5 = poleDist (c.MW / √((((1 : Nat) : ℝ) - (c.SW * c.SW)))) ((0 : Nat) : ℝ) ((VExp.sub 0 2).sum p) := rfl
  rw [c.root, c.mz, Nat.cast_zero, ← hw, pole_congr (ms.1).symm] at c5
  have d0 := o2.photon (by decide) (by show (2/3 : ℝ) * (2/3) ≠ 0; norm_num)
  have d1 := o2.higgs (by decide) rfl (hc.massive _ (by decide)) (hc.massive _ (by decide))
  have d2 := o2.z (by decide) rfl
  have d3 := o1.photon (by decide) (by show (2/3 : ℝ) * (2/3) ≠ 0; norm_num)
  have d4 := o1.higgs (by decide) rfl (hc.massive _ (by decide)) (hc.massive _ (by decide))
  have d5 := o1.z (by decide) rfl
  have m0 : c.mass .u ≠ 0 := (hc.massive _ (by decide)).ne'
  have m1 : c.mass .u ≠ 0 := (hc.massive _ (by decide)).ne'
  have m2 : c.mass .u ≠ 0 := (hc.massive _ (by decide)).ne'
  have m3 : c.mass .u ≠ 0 := (hc.massive _ (by decide)).ne'
  have g0 : uuuu2.scat.sgn 0 = 1 := if_neg Bool.false_ne_true
  have g1 : uuuu2.scat.sgn 1 = 1 := if_neg Bool.false_ne_true
  have g2 : uuuu2.scat.sgn 2 = 1 := if_neg Bool.false_ne_true
  have g3 : uuuu2.scat.sgn 3 = 1 := if_neg Bool.false_ne_true
  have nMW := hc.MW
  have nSW := hc.SW
  have xMW : (c.MW : ℂ) ≠ 0 := by exact_mod_cast hc.MW
  have xSW : (c.SW : ℂ) ≠ 0 := by exact_mod_cast hc.SW
  have xCW : (c.CW : ℂ) ≠ 0 := by exact_mod_cast hc.CW
  have hd : uuuu2.proc.divides = [(Ty.c, 3), (Ty.c, 4), (Ty.c, 5), (Ty.c, 0), (Ty.c, 1), (Ty.c, 2)] := by decide +kernel
  have k_amp_rest_T : ∀ s : Fin 4 → Fin 2, uuuu2.amp_rest_T (uuuu2.N c p) (spinOf (s 0)) (spinOf (s 1)) (spinOf (s 2)) (spinOf (s 3)) = -(uuuu2.scat.ewC c p (uuuu2.scat.angs c p s) (uuuu2.scat.sqrs c p s) 2 0 3 1) := by
    intro s
    have v0 : (uuuu2.N c p).v 0 [spinOf (s 0), spinOf (s 2)] = ab (uuuu2.scat.angs c p s 0) (uuuu2.scat.angs c p s 2) := bra_angle (p := p) (m := uuuu2.proc.massNum (uuuu2.rho c)) rfl rfl (.inl ⟨m0, rfl⟩) (.inl ⟨m2, rfl⟩)
    have v1 : (uuuu2.N c p).v 1 [spinOf (s 0), spinOf (s 2)] = sb (uuuu2.scat.sqrs c p s 0) (uuuu2.scat.sqrs c p s 2) := bra_square (p := p) (m := uuuu2.proc.massNum (uuuu2.rho c)) rfl rfl (.inl ⟨m0, rfl⟩) (.inl ⟨m2, rfl⟩)
    have v2 : (uuuu2.N c p).v 2 [spinOf (s 0), spinOf (s 3)] = ab (uuuu2.scat.angs c p s 0) (uuuu2.scat.angs c p s 3) := bra_angle (p := p) (m := uuuu2.proc.massNum (uuuu2.rho c)) rfl rfl (.inl ⟨m0, rfl⟩) (.inl ⟨m3, rfl⟩)
    have v3 : (uuuu2.N c p).v 3 [spinOf (s 0), spinOf (s 3)] = sb (uuuu2.scat.sqrs c p s 0) (uuuu2.scat.sqrs c p s 3) := bra_square (p := p) (m := uuuu2.proc.massNum (uuuu2.rho c)) rfl rfl (.inl ⟨m0, rfl⟩) (.inl ⟨m3, rfl⟩)
    have v4 : (uuuu2.N c p).v 4 [spinOf (s 1), spinOf (s 2)] = ab (uuuu2.scat.angs c p s 1) (uuuu2.scat.angs c p s 2) := bra_angle (p := p) (m := uuuu2.proc.massNum (uuuu2.rho c)) rfl rfl (.inl ⟨m1, rfl⟩) (.inl ⟨m2, rfl⟩)
    have v5 : (uuuu2.N c p).v 5 [spinOf (s 1), spinOf (s 2)] = sb (uuuu2.scat.sqrs c p s 1) (uuuu2.scat.sqrs c p s 2) := bra_square (p := p) (m := uuuu2.proc.massNum (uuuu2.rho c)) rfl rfl (.inl ⟨m1, rfl⟩) (.inl ⟨m2, rfl⟩)
    have v6 : (uuuu2.N c p).v 6 [spinOf (s 1), spinOf (s 3)] = ab (uuuu2.scat.angs c p s 1) (uuuu2.scat.angs c p s 3) := bra_angle (p := p) (m := uuuu2.proc.massNum (uuuu2.rho c)) rfl rfl (.inl ⟨m1, rfl⟩) (.inl ⟨m3, rfl⟩)
    have v7 : (uuuu2.N c p).v 7 [spinOf (s 1), spinOf (s 3)] = sb (uuuu2.scat.sqrs c p s 1) (uuuu2.scat.sqrs c p s 3) := bra_square (p := p) (m := uuuu2.proc.massNum (uuuu2.rho c)) rfl rfl (.inl ⟨m1, rfl⟩) (.inl ⟨m3, rfl⟩)
    have v8 : (uuuu2.N c p).v 8 [spinOf (s 0), spinOf (s 1)] = sb (uuuu2.scat.sqrs c p s 0) (uuuu2.scat.sqrs c p s 1) := bra_square (p := p) (m := uuuu2.proc.massNum (uuuu2.rho c)) rfl rfl (.inl ⟨m0, rfl⟩) (.inl ⟨m1, rfl⟩)
    have v9 : (uuuu2.N c p).v 9 [spinOf (s 0), spinOf (s 1)] = ab (uuuu2.scat.angs c p s 0) (uuuu2.scat.angs c p s 1) := bra_angle (p := p) (m := uuuu2.proc.massNum (uuuu2.rho c)) rfl rfl (.inl ⟨m0, rfl⟩) (.inl ⟨m1, rfl⟩)
    have v10 : (uuuu2.N c p).v 10 [spinOf (s 2), spinOf (s 3)] = sb (uuuu2.scat.sqrs c p s 2) (uuuu2.scat.sqrs c p s 3) := bra_square (p := p) (m := uuuu2.proc.massNum (uuuu2.rho c)) rfl rfl (.inl ⟨m2, rfl⟩) (.inl ⟨m3, rfl⟩)
    have v11 : (uuuu2.N c p).v 11 [spinOf (s 2), spinOf (s 3)] = ab (uuuu2.scat.angs c p s 2) (uuuu2.scat.angs c p s 3) := bra_angle (p := p) (m := uuuu2.proc.massNum (uuuu2.rho c)) rfl rfl (.inl ⟨m2, rfl⟩) (.inl ⟨m3, rfl⟩)
    rw [ewC_neutral (S := uuuu2.scat) (i := 2) (j := 0) (k := 3) (l := 1) (f := .u) (g := .u) (by decide) (by decide) rfl rfl rfl g2 g0 g3 g1 rfl rfl rfl, uuuu2.amp_rest_T]
    simp only [r0, r10, r11, r12, r13, r14, c3, c4, c5, v0, v1, v2, v3, v4, v5, v6, v7, v8, v9, v10, v11, jj, ln, lw, Constants.gL, Constants.gR, Flavour.charge_u, Flavour.isospin_u]
    abstract_brackets uuuu2.scat c p s
    push_cast
    ring
  have k_amp_rest_U : ∀ s : Fin 4 → Fin 2, uuuu2.amp_rest_U (uuuu2.N c p) (spinOf (s 0)) (spinOf (s 1)) (spinOf (s 2)) (spinOf (s 3)) = uuuu2.scat.ewC c p (uuuu2.scat.angs c p s) (uuuu2.scat.sqrs c p s) 2 1 3 0 := by
    intro s
    have v0 : (uuuu2.N c p).v 0 [spinOf (s 0), spinOf (s 2)] = ab (uuuu2.scat.angs c p s 0) (uuuu2.scat.angs c p s 2) := bra_angle (p := p) (m := uuuu2.proc.massNum (uuuu2.rho c)) rfl rfl (.inl ⟨m0, rfl⟩) (.inl ⟨m2, rfl⟩)
    have v1 : (uuuu2.N c p).v 1 [spinOf (s 0), spinOf (s 2)] = sb (uuuu2.scat.sqrs c p s 0) (uuuu2.scat.sqrs c p s 2) := bra_square (p := p) (m := uuuu2.proc.massNum (uuuu2.rho c)) rfl rfl (.inl ⟨m0, rfl⟩) (.inl ⟨m2, rfl⟩)
    have v2 : (uuuu2.N c p).v 2 [spinOf (s 0), spinOf (s 3)] = ab (uuuu2.scat.angs c p s 0) (uuuu2.scat.angs c p s 3) := bra_angle (p := p) (m := uuuu2.proc.massNum (uuuu2.rho c)) rfl rfl (.inl ⟨m0, rfl⟩) (.inl ⟨m3, rfl⟩)
    have v3 : (uuuu2.N c p).v 3 [spinOf (s 0), spinOf (s 3)] = sb (uuuu2.scat.sqrs c p s 0) (uuuu2.scat.sqrs c p s 3) := bra_square (p := p) (m := uuuu2.proc.massNum (uuuu2.rho c)) rfl rfl (.inl ⟨m0, rfl⟩) (.inl ⟨m3, rfl⟩)
    have v4 : (uuuu2.N c p).v 4 [spinOf (s 1), spinOf (s 2)] = ab (uuuu2.scat.angs c p s 1) (uuuu2.scat.angs c p s 2) := bra_angle (p := p) (m := uuuu2.proc.massNum (uuuu2.rho c)) rfl rfl (.inl ⟨m1, rfl⟩) (.inl ⟨m2, rfl⟩)
    have v5 : (uuuu2.N c p).v 5 [spinOf (s 1), spinOf (s 2)] = sb (uuuu2.scat.sqrs c p s 1) (uuuu2.scat.sqrs c p s 2) := bra_square (p := p) (m := uuuu2.proc.massNum (uuuu2.rho c)) rfl rfl (.inl ⟨m1, rfl⟩) (.inl ⟨m2, rfl⟩)
    have v6 : (uuuu2.N c p).v 6 [spinOf (s 1), spinOf (s 3)] = ab (uuuu2.scat.angs c p s 1) (uuuu2.scat.angs c p s 3) := bra_angle (p := p) (m := uuuu2.proc.massNum (uuuu2.rho c)) rfl rfl (.inl ⟨m1, rfl⟩) (.inl ⟨m3, rfl⟩)
    have v7 : (uuuu2.N c p).v 7 [spinOf (s 1), spinOf (s 3)] = sb (uuuu2.scat.sqrs c p s 1) (uuuu2.scat.sqrs c p s 3) := bra_square (p := p) (m := uuuu2.proc.massNum (uuuu2.rho c)) rfl rfl (.inl ⟨m1, rfl⟩) (.inl ⟨m3, rfl⟩)
    have v8 : (uuuu2.N c p).v 8 [spinOf (s 0), spinOf (s 1)] = sb (uuuu2.scat.sqrs c p s 0) (uuuu2.scat.sqrs c p s 1) := bra_square (p := p) (m := uuuu2.proc.massNum (uuuu2.rho c)) rfl rfl (.inl ⟨m0, rfl⟩) (.inl ⟨m1, rfl⟩)
    have v9 : (uuuu2.N c p).v 9 [spinOf (s 0), spinOf (s 1)] = ab (uuuu2.scat.angs c p s 0) (uuuu2.scat.angs c p s 1) := bra_angle (p := p) (m := uuuu2.proc.massNum (uuuu2.rho c)) rfl rfl (.inl ⟨m0, rfl⟩) (.inl ⟨m1, rfl⟩)
    have v10 : (uuuu2.N c p).v 10 [spinOf (s 2), spinOf (s 3)] = sb (uuuu2.scat.sqrs c p s 2) (uuuu2.scat.sqrs c p s 3) := bra_square (p := p) (m := uuuu2.proc.massNum (uuuu2.rho c)) rfl rfl (.inl ⟨m2, rfl⟩) (.inl ⟨m3, rfl⟩)
    have v11 : (uuuu2.N c p).v 11 [spinOf (s 2), spinOf (s 3)] = ab (uuuu2.scat.angs c p s 2) (uuuu2.scat.angs c p s 3) := bra_angle (p := p) (m := uuuu2.proc.massNum (uuuu2.rho c)) rfl rfl (.inl ⟨m2, rfl⟩) (.inl ⟨m3, rfl⟩)
    rw [ewC_neutral (S := uuuu2.scat) (i := 2) (j := 1) (k := 3) (l := 0) (f := .u) (g := .u) (by decide) (by decide) rfl rfl rfl g2 g1 g3 g0 rfl rfl rfl, uuuu2.amp_rest_U]
    simp only [r0, r10, r11, r12, r13, r14, c0, c1, c2, v0, v1, v2, v3, v4, v5, v6, v7, v8, v9, v10, v11, jj, ln, lw, Constants.gL, Constants.gR, Flavour.charge_u, Flavour.isospin_u]
    abstract_brackets uuuu2.scat c p s
    push_cast
    ring
  have k_amp_gluon_T : ∀ s : Fin 4 → Fin 2, uuuu2.amp_gluon_T (uuuu2.N c p) (spinOf (s 0)) (spinOf (s 1)) (spinOf (s 2)) (spinOf (s 3)) = -(uuuu2.scat.strongC c p (uuuu2.scat.angs c p s) (uuuu2.scat.sqrs c p s) 2 0 3 1) := by
    intro s
    have v2 : (uuuu2.N c p).v 2 [spinOf (s 0), spinOf (s 3)] = ab (uuuu2.scat.angs c p s 0) (uuuu2.scat.angs c p s 3) := bra_angle (p := p) (m := uuuu2.proc.massNum (uuuu2.rho c)) rfl rfl (.inl ⟨m0, rfl⟩) (.inl ⟨m3, rfl⟩)
    have v3 : (uuuu2.N c p).v 3 [spinOf (s 0), spinOf (s 3)] = sb (uuuu2.scat.sqrs c p s 0) (uuuu2.scat.sqrs c p s 3) := bra_square (p := p) (m := uuuu2.proc.massNum (uuuu2.rho c)) rfl rfl (.inl ⟨m0, rfl⟩) (.inl ⟨m3, rfl⟩)
    have v4 : (uuuu2.N c p).v 4 [spinOf (s 1), spinOf (s 2)] = ab (uuuu2.scat.angs c p s 1) (uuuu2.scat.angs c p s 2) := bra_angle (p := p) (m := uuuu2.proc.massNum (uuuu2.rho c)) rfl rfl (.inl ⟨m1, rfl⟩) (.inl ⟨m2, rfl⟩)
    have v5 : (uuuu2.N c p).v 5 [spinOf (s 1), spinOf (s 2)] = sb (uuuu2.scat.sqrs c p s 1) (uuuu2.scat.sqrs c p s 2) := bra_square (p := p) (m := uuuu2.proc.massNum (uuuu2.rho c)) rfl rfl (.inl ⟨m1, rfl⟩) (.inl ⟨m2, rfl⟩)
    have v8 : (uuuu2.N c p).v 8 [spinOf (s 0), spinOf (s 1)] = sb (uuuu2.scat.sqrs c p s 0) (uuuu2.scat.sqrs c p s 1) := bra_square (p := p) (m := uuuu2.proc.massNum (uuuu2.rho c)) rfl rfl (.inl ⟨m0, rfl⟩) (.inl ⟨m1, rfl⟩)
    have v9 : (uuuu2.N c p).v 9 [spinOf (s 0), spinOf (s 1)] = ab (uuuu2.scat.angs c p s 0) (uuuu2.scat.angs c p s 1) := bra_angle (p := p) (m := uuuu2.proc.massNum (uuuu2.rho c)) rfl rfl (.inl ⟨m0, rfl⟩) (.inl ⟨m1, rfl⟩)
    have v10 : (uuuu2.N c p).v 10 [spinOf (s 2), spinOf (s 3)] = sb (uuuu2.scat.sqrs c p s 2) (uuuu2.scat.sqrs c p s 3) := bra_square (p := p) (m := uuuu2.proc.massNum (uuuu2.rho c)) rfl rfl (.inl ⟨m2, rfl⟩) (.inl ⟨m3, rfl⟩)
    have v11 : (uuuu2.N c p).v 11 [spinOf (s 2), spinOf (s 3)] = ab (uuuu2.scat.angs c p s 2) (uuuu2.scat.angs c p s 3) := bra_angle (p := p) (m := uuuu2.proc.massNum (uuuu2.rho c)) rfl rfl (.inl ⟨m2, rfl⟩) (.inl ⟨m3, rfl⟩)
    rw [strongC_quarks (S := uuuu2.scat) (i := 2) (j := 0) (k := 3) (l := 1) (by decide) rfl rfl rfl g2 g0 g3 g1 rfl, uuuu2.amp_gluon_T]
    simp only [r1, c3, v2, v3, v4, v5, v8, v9, v10, v11, jj, ln, lw, Constants.gL, Constants.gR, Flavour.charge_u, Flavour.isospin_u]
    abstract_brackets uuuu2.scat c p s
    push_cast
    ring
  have k_amp_gluon_U : ∀ s : Fin 4 → Fin 2, uuuu2.amp_gluon_U (uuuu2.N c p) (spinOf (s 0)) (spinOf (s 1)) (spinOf (s 2)) (spinOf (s 3)) = uuuu2.scat.strongC c p (uuuu2.scat.angs c p s) (uuuu2.scat.sqrs c p s) 2 1 3 0 := by
    intro s
    have v0 : (uuuu2.N c p).v 0 [spinOf (s 0), spinOf (s 2)] = ab (uuuu2.scat.angs c p s 0) (uuuu2.scat.angs c p s 2) := bra_angle (p := p) (m := uuuu2.proc.massNum (uuuu2.rho c)) rfl rfl (.inl ⟨m0, rfl⟩) (.inl ⟨m2, rfl⟩)
    have v1 : (uuuu2.N c p).v 1 [spinOf (s 0), spinOf (s 2)] = sb (uuuu2.scat.sqrs c p s 0) (uuuu2.scat.sqrs c p s 2) := bra_square (p := p) (m := uuuu2.proc.massNum (uuuu2.rho c)) rfl rfl (.inl ⟨m0, rfl⟩) (.inl ⟨m2, rfl⟩)
    have v6 : (uuuu2.N c p).v 6 [spinOf (s 1), spinOf (s 3)] = ab (uuuu2.scat.angs c p s 1) (uuuu2.scat.angs c p s 3) := bra_angle (p := p) (m := uuuu2.proc.massNum (uuuu2.rho c)) rfl rfl (.inl ⟨m1, rfl⟩) (.inl ⟨m3, rfl⟩)
    have v7 : (uuuu2.N c p).v 7 [spinOf (s 1), spinOf (s 3)] = sb (uuuu2.scat.sqrs c p s 1) (uuuu2.scat.sqrs c p s 3) := bra_square (p := p) (m := uuuu2.proc.massNum (uuuu2.rho c)) rfl rfl (.inl ⟨m1, rfl⟩) (.inl ⟨m3, rfl⟩)
    have v8 : (uuuu2.N c p).v 8 [spinOf (s 0), spinOf (s 1)] = sb (uuuu2.scat.sqrs c p s 0) (uuuu2.scat.sqrs c p s 1) := bra_square (p := p) (m := uuuu2.proc.massNum (uuuu2.rho c)) rfl rfl (.inl ⟨m0, rfl⟩) (.inl ⟨m1, rfl⟩)
    have v9 : (uuuu2.N c p).v 9 [spinOf (s 0), spinOf (s 1)] = ab (uuuu2.scat.angs c p s 0) (uuuu2.scat.angs c p s 1) := bra_angle (p := p) (m := uuuu2.proc.massNum (uuuu2.rho c)) rfl rfl (.inl ⟨m0, rfl⟩) (.inl ⟨m1, rfl⟩)
    have v10 : (uuuu2.N c p).v 10 [spinOf (s 2), spinOf (s 3)] = sb (uuuu2.scat.sqrs c p s 2) (uuuu2.scat.sqrs c p s 3) := bra_square (p := p) (m := uuuu2.proc.massNum (uuuu2.rho c)) rfl rfl (.inl ⟨m2, rfl⟩) (.inl ⟨m3, rfl⟩)
    have v11 : (uuuu2.N c p).v 11 [spinOf (s 2), spinOf (s 3)] = ab (uuuu2.scat.angs c p s 2) (uuuu2.scat.angs c p s 3) := bra_angle (p := p) (m := uuuu2.proc.massNum (uuuu2.rho c)) rfl rfl (.inl ⟨m2, rfl⟩) (.inl ⟨m3, rfl⟩)
    rw [strongC_quarks (S := uuuu2.scat) (i := 2) (j := 1) (k := 3) (l := 0) (by decide) rfl rfl rfl g2 g1 g3 g0 rfl, uuuu2.amp_gluon_U]
    simp only [r1, c0, v0, v1, v6, v7, v8, v9, v10, v11, jj, ln, lw, Constants.gL, Constants.gR, Flavour.charge_u, Flavour.isospin_u]
    abstract_brackets uuuu2.scat c p s
    push_cast
    ring
  refine ⟨fun n hn => ?_, fun n hn => ?_, ?_⟩
  · simp [hd] at hn
  · simp [hd] at hn
    rcases hn with rfl | rfl | rfl | rfl | rfl | rfl
    · rw [c3]; exact d3
    · rw [c4]; exact d4
    · rw [c5]; exact d5
    · rw [c0]; exact d0
    · rw [c1]; exact d1
    · rw [c2]; exact d2
  show meaning (uuuu2.N c p) .r Cls.uuuu2.methods Cls.uuuu2.amp2 [] = _
  have ss : uuuu2.scat.states = 36 := by decide
  have sy : uuuu2.scat.symmetry = 2 := by decide
  rw [uuuu2.value, uuuu2.scat.squared_quarks he ht hs h0 hf hu (by decide) colours_scattering (by decide), ss, sy, Nat.cast_zero]
  simp only [add_assoc]
  rw [sumJ_four, Finset.sum_div, Finset.sum_div]
  refine Finset.sum_congr rfl fun s _ => ?_
  rw [k_amp_gluon_U, k_amp_gluon_T, k_amp_rest_U, k_amp_rest_T]
  finish_spins

end Spinas.SM.Rows
