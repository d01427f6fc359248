import Verif.SM.FermionRows
import Verif.SM.Exchanges

/-! Quarks of one generation. Generated by tools/fermions/emit.py: for each class its amplitudes as formulas, and the proof that `amp2` is the squared amplitude of the Feynman rules. -/

set_option linter.unusedSimpArgs false

namespace Spinas.SM.Rows
open Spec Spec.Scattering Props XR Matrix Row

/-! ### uudd -/

/-- what the methods of the class see -/
noncomputable abbrev uudd.N [FPEnv] (c : Constants) (p : Nat → V4 ℝ) : Env := uudd.proc.env (uudd.rho c) p
/-- `amp_gluon` (SM/uudd.cpp) -/
noncomputable def uudd.amp_gluon (N : Env) (j1 j2 j3 j4 : Int) : ℂ :=
  ((((((((2 : Nat) : ℝ) * N.r 1) * N.r 1) : ℝ) : ℂ) * ((((N.v 0 [j1, j3] * N.v 7 [j2, j4]) + (N.v 2 [j1, j4] * N.v 5 [j2, j3])) + (N.v 1 [j1, j3] * N.v 6 [j2, j4])) + (N.v 3 [j1, j4] * N.v 4 [j2, j3]))) / N.c 0)
/-- `amp_rest` (SM/uudd.cpp) -/
noncomputable def uudd.amp_rest (N : Env) (j1 j2 j3 j4 : Int) : ℂ :=
  (((((((((((-((2 : Nat) : ℝ)) * N.r 0) * N.r 0) * ((2 : Nat) : ℝ)) / ((9 : Nat) : ℝ)) : ℝ) : ℂ) * ((((N.v 0 [j1, j3] * N.v 7 [j2, j4]) + (N.v 2 [j1, j4] * N.v 5 [j2, j3])) + (N.v 1 [j1, j3] * N.v 6 [j2, j4])) + (N.v 3 [j1, j4] * N.v 4 [j2, j3]))) / N.c 0) + (((((N.r 12 : ℝ) : ℂ) * (N.v 8 [j1, j2] + N.v 9 [j1, j2])) * (N.v 10 [j3, j4] + N.v 11 [j3, j4])) / N.c 1)) + (((((((-N.r 18) : ℝ) : ℂ) * (N.v 9 [j1, j2] - N.v 8 [j1, j2])) * (N.v 11 [j3, j4] - N.v 10 [j3, j4])) / N.c 2) + (((((((2 : Nat) : ℝ) * N.r 17) : ℝ) : ℂ) * ((((((((N.r 13 * N.r 15) : ℝ) : ℂ) * N.v 5 [j2, j3]) * N.v 2 [j1, j4]) + (((((N.r 15 * N.r 14) : ℝ) : ℂ) * N.v 1 [j1, j3]) * N.v 6 [j2, j4])) + (((((N.r 13 * N.r 16) : ℝ) : ℂ) * N.v 7 [j2, j4]) * N.v 0 [j1, j3])) + (((((N.r 14 * N.r 16) : ℝ) : ℂ) * N.v 3 [j1, j4]) * N.v 4 [j2, j3]))) / N.c 2)))
/-- `amp_W` (SM/uudd.cpp) -/
noncomputable def uudd.amp_W (N : Env) (j1 j2 j3 j4 : Int) : ℂ :=
  (((((((N.r 0 * N.r 0) / N.r 10) / N.r 10) : ℝ) : ℂ) * (((((((((2 : Nat) : ℝ) * N.r 8) * N.r 8) : ℝ) : ℂ) * N.v 2 [j1, j4]) * N.v 5 [j2, j3]) + (((((N.r 2 : ℝ) : ℂ) * N.v 1 [j1, j3]) + (((N.r 3 : ℝ) : ℂ) * N.v 0 [j1, j3])) * ((((N.r 2 : ℝ) : ℂ) * N.v 6 [j2, j4]) + (((N.r 3 : ℝ) : ℂ) * N.v 7 [j2, j4]))))) / (((((((2 : Nat) : ℝ) * N.r 8) * N.r 8) : ℝ) : ℂ) * N.c 3))
set_option maxRecDepth 8000 in
theorem uudd.amp2_eq (N : Env) (f : Nat → List Int → ℂ) : Cls.uudd.m_amp2.mean N f .r [] =
    ((sumJ (fun x a => (sumJ (fun x b => (sumJ (fun x c => (sumJ (fun x d => (((((x + (((9 : Nat) : ℝ) * (‖(f 1 [a, b, c, d])‖ ^ 2))) + ((((3 : Nat) : ℝ) * ((2 : Nat) : ℝ)) * (((f 1 [a, b, c, d]) * ((starRingEnd ℂ) (f 2 [a, b, c, d])))).re)) + (((9 : Nat) : ℝ) * (‖(f 2 [a, b, c, d])‖ ^ 2))) + ((((4 : Nat) : ℝ) * ((2 : Nat) : ℝ)) * (((f 0 [a, b, c, d]) * ((starRingEnd ℂ) (f 2 [a, b, c, d])))).re)) + (((2 : Nat) : ℝ) * (‖(f 0 [a, b, c, d])‖ ^ 2)))) x)) x)) x)) ((0 : Nat) : ℝ)) / ((36 : Nat) : ℝ)) := by rfl
set_option maxRecDepth 8000 in
theorem uudd.value (N : Env) : meaning N .r Cls.uudd.methods Cls.uudd.amp2 [] =
    ((sumJ (fun x a => (sumJ (fun x b => (sumJ (fun x c => (sumJ (fun x d => (((((x + (((9 : Nat) : ℝ) * (‖(uudd.amp_rest N a b c d)‖ ^ 2))) + ((((3 : Nat) : ℝ) * ((2 : Nat) : ℝ)) * (((uudd.amp_rest N a b c d) * ((starRingEnd ℂ) (uudd.amp_W N a b c d)))).re)) + (((9 : Nat) : ℝ) * (‖(uudd.amp_W N a b c d)‖ ^ 2))) + ((((4 : Nat) : ℝ) * ((2 : Nat) : ℝ)) * (((uudd.amp_gluon N a b c d) * ((starRingEnd ℂ) (uudd.amp_W N a b c d)))).re)) + (((2 : Nat) : ℝ) * (‖(uudd.amp_gluon N a b c d)‖ ^ 2)))) x)) x)) x)) ((0 : Nat) : ℝ)) / ((36 : Nat) : ℝ)) :=
  uudd.amp2_eq N (callMean N [Cls.uudd.m_amp_W, Cls.uudd.m_amp_rest, Cls.uudd.m_amp_gluon])

variable [FPEnv] in
theorem uudd.agrees : uudd.Agrees := by
  refine agrees_of (D := [6, 8]) (E := [8]) (by simp [all, uudd]) (by decide +kernel) (by decide) (by decide +kernel) (fun c hc => ⟨List.forall_mem_cons.2 ⟨hc.MW, List.forall_mem_cons.2 ⟨hc.SW, List.forall_mem_nil _⟩⟩, List.forall_mem_cons.2 ⟨hc.SW_lt, List.forall_mem_nil _⟩⟩) (fun c hc i => by fin_cases i <;> rfl) (by decide +kernel) ?_
  intro c p u hc hw h0 hs hb hr hu
  replace hw := hw (by simp [uudd])
  have he : uudd.scat.ends = [1, 2] := by decide
  have ht : uudd.scat.starts = [0, 3] := by decide
  obtain ⟨o1, o2⟩ := regular_two he ht hr
  have hf := uudd.scat.flows_annihilation (by decide) hb
  have ms := uudd.scat.msq_annihilation (by decide) hb
  have r0 : (uudd.N c p).r 0 = c.e := rfl
  have r10 : (uudd.N c p).r 10 = c.SW := rfl
  have r8 : (uudd.N c p).r 8 = c.MW := rfl
  have r2 : (uudd.N c p).r 2 = (c.mass .u) := rfl
  have r3 : (uudd.N c p).r 3 = (c.mass .d) := rfl
  have r12 : (uudd.N c p).r 12 = ((((c.e * c.e) * (c.mass .u)) * (c.mass .d)) / ((((((4 : Nat) : ℝ) * c.MW) * c.MW) * c.SW) * c.SW)) := rfl
  have r18 : (uudd.N c p).r 18 = ((((((((c.e * c.e) / ((((((4 : Nat) : ℝ) * √((((1 : Nat) : ℝ) - (c.SW * c.SW)))) * √((((1 : Nat) : ℝ) - (c.SW * c.SW)))) * c.SW) * c.SW)) * ((((1 : Nat) : ℝ) - (((((4 : Nat) : ℝ) / ((3 : Nat) : ℝ)) * c.SW) * c.SW)) - ((((-((4 : Nat) : ℝ)) / ((3 : Nat) : ℝ)) * c.SW) * c.SW))) * (((-((1 : Nat) : ℝ)) + (((((2 : Nat) : ℝ) / ((3 : Nat) : ℝ)) * c.SW) * c.SW)) - (((((2 : Nat) : ℝ) / ((3 : Nat) : ℝ)) * c.SW) * c.SW))) * (c.mass .u)) * (c.mass .d)) / (c.MW / √((((1 : Nat) : ℝ) - (c.SW * c.SW))))) / (c.MW / √((((1 : Nat) : ℝ) - (c.SW * c.SW))))) := rfl
  simp only [c.root, c.mz] at r18
  have r17 : (uudd.N c p).r 17 = ((c.e * c.e) / ((((((4 : Nat) : ℝ) * √((((1 : Nat) : ℝ) - (c.SW * c.SW)))) * √((((1 : Nat) : ℝ) - (c.SW * c.SW)))) * c.SW) * c.SW)) := rfl
  simp only [c.root] at r17
  have r13 : (uudd.N c p).r 13 = (((1 : Nat) : ℝ) - (((((4 : Nat) : ℝ) / ((3 : Nat) : ℝ)) * c.SW) * c.SW)) := rfl
  have r15 : (uudd.N c p).r 15 = ((-((1 : Nat) : ℝ)) + (((((2 : Nat) : ℝ) / ((3 : Nat) : ℝ)) * c.SW) * c.SW)) := rfl
  have r14 : (uudd.N c p).r 14 = ((((-((4 : Nat) : ℝ)) / ((3 : Nat) : ℝ)) * c.SW) * c.SW) := rfl
  have r16 : (uudd.N c p).r 16 = (((((2 : Nat) : ℝ) / ((3 : Nat) : ℝ)) * c.SW) * c.SW) := rfl
  have r1 : (uudd.N c p).r 1 = c.gs := rfl
  have c0 : (uudd.N c p).c 0 = poleDist ((0 : Nat) : ℝ) ((0 : Nat) : ℝ) ((VExp.add 0 1).sum p) := rfl
  rw [Nat.cast_zero, pole_zero (ms.1).symm] at c0
  have c1 : (uudd.N c p).c 1 = poleDist c.MH c.WH ((VExp.add 0 1).sum p) := rfl
  rw [pole_congr (ms.1).symm] at c1
  have c2 : (uudd.N c p).c 2 = poleDist (c.MW / √((((1 : Nat) : ℝ) - (c.SW * c.SW)))) ((0 : Nat) : ℝ) ((VExp.add 0 1).sum p) := rfl
  rw [c.root, c.mz, Nat.cast_zero, ← hw, pole_congr (ms.1).symm] at c2
  have c3 : (uudd.N c p).c 3 = poleDist c.MW c.WW ((VExp.sub 0 2).sum p) := rfl
  rw [pole_congr (ms.2).symm] at c3
  have d0 := o1.photon (by decide) (by show (2/3 : ℝ) * (-1/3) ≠ 0; norm_num)
  have d1 := o1.higgs (by decide) rfl (hc.massive _ (by decide)) (hc.massive _ (by decide))
  have d2 := o1.z (by decide) rfl
  have d3 := o2.w (by decide) rfl
  have m0 : c.mass .u ≠ 0 := (hc.massive _ (by decide)).ne'
  have m1 : c.mass .u ≠ 0 := (hc.massive _ (by decide)).ne'
  have m2 : c.mass .d ≠ 0 := (hc.massive _ (by decide)).ne'
  have m3 : c.mass .d ≠ 0 := (hc.massive _ (by decide)).ne'
  have g0 : uudd.scat.sgn 0 = 1 := if_neg Bool.false_ne_true
  have g1 : uudd.scat.sgn 1 = -1 := if_pos rfl
  have g2 : uudd.scat.sgn 2 = 1 := if_neg Bool.false_ne_true
  have g3 : uudd.scat.sgn 3 = -1 := if_pos rfl
  have nMW := hc.MW
  have nSW := hc.SW
  have xMW : (c.MW : ℂ) ≠ 0 := by exact_mod_cast hc.MW
  have xSW : (c.SW : ℂ) ≠ 0 := by exact_mod_cast hc.SW
  have xCW : (c.CW : ℂ) ≠ 0 := by exact_mod_cast hc.CW
  have hd : uudd.proc.divides = [(Ty.r, 10), (Ty.r, 8), (Ty.c, 3), (Ty.c, 0), (Ty.c, 1), (Ty.c, 2)] := by decide +kernel
  have k_amp_rest : ∀ s : Fin 4 → Fin 2, uudd.amp_rest (uudd.N c p) (spinOf (s 0)) (spinOf (s 1)) (spinOf (s 2)) (spinOf (s 3)) = uudd.scat.ewC c p (uudd.scat.angs c p s) (uudd.scat.sqrs c p s) 1 0 2 3 := by
    intro s
    have v0 : (uudd.N c p).v 0 [spinOf (s 0), spinOf (s 2)] = ab (uudd.scat.angs c p s 0) (uudd.scat.angs c p s 2) := bra_angle (p := p) (m := uudd.proc.massNum (uudd.rho c)) rfl rfl (.inl ⟨m0, rfl⟩) (.inl ⟨m2, rfl⟩)
    have v1 : (uudd.N c p).v 1 [spinOf (s 0), spinOf (s 2)] = sb (uudd.scat.sqrs c p s 0) (uudd.scat.sqrs c p s 2) := bra_square (p := p) (m := uudd.proc.massNum (uudd.rho c)) rfl rfl (.inl ⟨m0, rfl⟩) (.inl ⟨m2, rfl⟩)
    have v2 : (uudd.N c p).v 2 [spinOf (s 0), spinOf (s 3)] = ab (uudd.scat.angs c p s 0) (uudd.scat.angs c p s 3) := bra_angle (p := p) (m := uudd.proc.massNum (uudd.rho c)) rfl rfl (.inl ⟨m0, rfl⟩) (.inl ⟨m3, rfl⟩)
    have v3 : (uudd.N c p).v 3 [spinOf (s 0), spinOf (s 3)] = sb (uudd.scat.sqrs c p s 0) (uudd.scat.sqrs c p s 3) := bra_square (p := p) (m := uudd.proc.massNum (uudd.rho c)) rfl rfl (.inl ⟨m0, rfl⟩) (.inl ⟨m3, rfl⟩)
    have v4 : (uudd.N c p).v 4 [spinOf (s 1), spinOf (s 2)] = ab (uudd.scat.angs c p s 1) (uudd.scat.angs c p s 2) := bra_angle (p := p) (m := uudd.proc.massNum (uudd.rho c)) rfl rfl (.inl ⟨m1, rfl⟩) (.inl ⟨m2, rfl⟩)
    have v5 : (uudd.N c p).v 5 [spinOf (s 1), spinOf (s 2)] = sb (uudd.scat.sqrs c p s 1) (uudd.scat.sqrs c p s 2) := bra_square (p := p) (m := uudd.proc.massNum (uudd.rho c)) rfl rfl (.inl ⟨m1, rfl⟩) (.inl ⟨m2, rfl⟩)
    have v6 : (uudd.N c p).v 6 [spinOf (s 1), spinOf (s 3)] = ab (uudd.scat.angs c p s 1) (uudd.scat.angs c p s 3) := bra_angle (p := p) (m := uudd.proc.massNum (uudd.rho c)) rfl rfl (.inl ⟨m1, rfl⟩) (.inl ⟨m3, rfl⟩)
    have v7 : (uudd.N c p).v 7 [spinOf (s 1), spinOf (s 3)] = sb (uudd.scat.sqrs c p s 1) (uudd.scat.sqrs c p s 3) := bra_square (p := p) (m := uudd.proc.massNum (uudd.rho c)) rfl rfl (.inl ⟨m1, rfl⟩) (.inl ⟨m3, rfl⟩)
    have v8 : (uudd.N c p).v 8 [spinOf (s 0), spinOf (s 1)] = sb (uudd.scat.sqrs c p s 0) (uudd.scat.sqrs c p s 1) := bra_square (p := p) (m := uudd.proc.massNum (uudd.rho c)) rfl rfl (.inl ⟨m0, rfl⟩) (.inl ⟨m1, rfl⟩)
    have v9 : (uudd.N c p).v 9 [spinOf (s 0), spinOf (s 1)] = ab (uudd.scat.angs c p s 0) (uudd.scat.angs c p s 1) := bra_angle (p := p) (m := uudd.proc.massNum (uudd.rho c)) rfl rfl (.inl ⟨m0, rfl⟩) (.inl ⟨m1, rfl⟩)
    have v10 : (uudd.N c p).v 10 [spinOf (s 2), spinOf (s 3)] = sb (uudd.scat.sqrs c p s 2) (uudd.scat.sqrs c p s 3) := bra_square (p := p) (m := uudd.proc.massNum (uudd.rho c)) rfl rfl (.inl ⟨m2, rfl⟩) (.inl ⟨m3, rfl⟩)
    have v11 : (uudd.N c p).v 11 [spinOf (s 2), spinOf (s 3)] = ab (uudd.scat.angs c p s 2) (uudd.scat.angs c p s 3) := bra_angle (p := p) (m := uudd.proc.massNum (uudd.rho c)) rfl rfl (.inl ⟨m2, rfl⟩) (.inl ⟨m3, rfl⟩)
    rw [ewC_neutral (S := uudd.scat) (i := 1) (j := 0) (k := 2) (l := 3) (f := .u) (g := .d) (by decide) (by decide) rfl rfl rfl g1 g0 g2 g3 rfl rfl rfl, uudd.amp_rest]
    simp only [r0, r12, r13, r14, r15, r16, r17, r18, c0, c1, c2, v0, v1, v2, v3, v4, v5, v6, v7, v8, v9, v10, v11, jj, ln, lw, Constants.gL, Constants.gR, Flavour.charge_d, Flavour.isospin_d, Flavour.charge_u, Flavour.isospin_u]
    abstract_brackets uudd.scat c p s
    push_cast
    field_simp; ring
  have k_amp_gluon : ∀ s : Fin 4 → Fin 2, uudd.amp_gluon (uudd.N c p) (spinOf (s 0)) (spinOf (s 1)) (spinOf (s 2)) (spinOf (s 3)) = uudd.scat.strongC c p (uudd.scat.angs c p s) (uudd.scat.sqrs c p s) 1 0 2 3 := by
    intro s
    have v0 : (uudd.N c p).v 0 [spinOf (s 0), spinOf (s 2)] = ab (uudd.scat.angs c p s 0) (uudd.scat.angs c p s 2) := bra_angle (p := p) (m := uudd.proc.massNum (uudd.rho c)) rfl rfl (.inl ⟨m0, rfl⟩) (.inl ⟨m2, rfl⟩)
    have v1 : (uudd.N c p).v 1 [spinOf (s 0), spinOf (s 2)] = sb (uudd.scat.sqrs c p s 0) (uudd.scat.sqrs c p s 2) := bra_square (p := p) (m := uudd.proc.massNum (uudd.rho c)) rfl rfl (.inl ⟨m0, rfl⟩) (.inl ⟨m2, rfl⟩)
    have v2 : (uudd.N c p).v 2 [spinOf (s 0), spinOf (s 3)] = ab (uudd.scat.angs c p s 0) (uudd.scat.angs c p s 3) := bra_angle (p := p) (m := uudd.proc.massNum (uudd.rho c)) rfl rfl (.inl ⟨m0, rfl⟩) (.inl ⟨m3, rfl⟩)
    have v3 : (uudd.N c p).v 3 [spinOf (s 0), spinOf (s 3)] = sb (uudd.scat.sqrs c p s 0) (uudd.scat.sqrs c p s 3) := bra_square (p := p) (m := uudd.proc.massNum (uudd.rho c)) rfl rfl (.inl ⟨m0, rfl⟩) (.inl ⟨m3, rfl⟩)
    have v4 : (uudd.N c p).v 4 [spinOf (s 1), spinOf (s 2)] = ab (uudd.scat.angs c p s 1) (uudd.scat.angs c p s 2) := bra_angle (p := p) (m := uudd.proc.massNum (uudd.rho c)) rfl rfl (.inl ⟨m1, rfl⟩) (.inl ⟨m2, rfl⟩)
    have v5 : (uudd.N c p).v 5 [spinOf (s 1), spinOf (s 2)] = sb (uudd.scat.sqrs c p s 1) (uudd.scat.sqrs c p s 2) := bra_square (p := p) (m := uudd.proc.massNum (uudd.rho c)) rfl rfl (.inl ⟨m1, rfl⟩) (.inl ⟨m2, rfl⟩)
    have v6 : (uudd.N c p).v 6 [spinOf (s 1), spinOf (s 3)] = ab (uudd.scat.angs c p s 1) (uudd.scat.angs c p s 3) := bra_angle (p := p) (m := uudd.proc.massNum (uudd.rho c)) rfl rfl (.inl ⟨m1, rfl⟩) (.inl ⟨m3, rfl⟩)
    have v7 : (uudd.N c p).v 7 [spinOf (s 1), spinOf (s 3)] = sb (uudd.scat.sqrs c p s 1) (uudd.scat.sqrs c p s 3) := bra_square (p := p) (m := uudd.proc.massNum (uudd.rho c)) rfl rfl (.inl ⟨m1, rfl⟩) (.inl ⟨m3, rfl⟩)
    rw [strongC_quarks (S := uudd.scat) (i := 1) (j := 0) (k := 2) (l := 3) (by decide) rfl rfl rfl g1 g0 g2 g3 rfl, uudd.amp_gluon]
    simp only [r1, c0, v0, v1, v2, v3, v4, v5, v6, v7, jj, ln, lw, Constants.gL, Constants.gR, Flavour.charge_d, Flavour.isospin_d, Flavour.charge_u, Flavour.isospin_u]
    abstract_brackets uudd.scat c p s
    push_cast
    field_simp; ring
  have k_amp_W : ∀ s : Fin 4 → Fin 2, uudd.amp_W (uudd.N c p) (spinOf (s 0)) (spinOf (s 1)) (spinOf (s 2)) (spinOf (s 3)) = -(uudd.scat.ewC c p (uudd.scat.angs c p s) (uudd.scat.sqrs c p s) 1 3 2 0) := by
    intro s
    have v0 : (uudd.N c p).v 0 [spinOf (s 0), spinOf (s 2)] = ab (uudd.scat.angs c p s 0) (uudd.scat.angs c p s 2) := bra_angle (p := p) (m := uudd.proc.massNum (uudd.rho c)) rfl rfl (.inl ⟨m0, rfl⟩) (.inl ⟨m2, rfl⟩)
    have v1 : (uudd.N c p).v 1 [spinOf (s 0), spinOf (s 2)] = sb (uudd.scat.sqrs c p s 0) (uudd.scat.sqrs c p s 2) := bra_square (p := p) (m := uudd.proc.massNum (uudd.rho c)) rfl rfl (.inl ⟨m0, rfl⟩) (.inl ⟨m2, rfl⟩)
    have v2 : (uudd.N c p).v 2 [spinOf (s 0), spinOf (s 3)] = ab (uudd.scat.angs c p s 0) (uudd.scat.angs c p s 3) := bra_angle (p := p) (m := uudd.proc.massNum (uudd.rho c)) rfl rfl (.inl ⟨m0, rfl⟩) (.inl ⟨m3, rfl⟩)
    have v5 : (uudd.N c p).v 5 [spinOf (s 1), spinOf (s 2)] = sb (uudd.scat.sqrs c p s 1) (uudd.scat.sqrs c p s 2) := bra_square (p := p) (m := uudd.proc.massNum (uudd.rho c)) rfl rfl (.inl ⟨m1, rfl⟩) (.inl ⟨m2, rfl⟩)
    have v6 : (uudd.N c p).v 6 [spinOf (s 1), spinOf (s 3)] = ab (uudd.scat.angs c p s 1) (uudd.scat.angs c p s 3) := bra_angle (p := p) (m := uudd.proc.massNum (uudd.rho c)) rfl rfl (.inl ⟨m1, rfl⟩) (.inl ⟨m3, rfl⟩)
    have v7 : (uudd.N c p).v 7 [spinOf (s 1), spinOf (s 3)] = sb (uudd.scat.sqrs c p s 1) (uudd.scat.sqrs c p s 3) := bra_square (p := p) (m := uudd.proc.massNum (uudd.rho c)) rfl rfl (.inl ⟨m1, rfl⟩) (.inl ⟨m3, rfl⟩)
    rw [ewC_charged (S := uudd.scat) (i := 1) (j := 3) (k := 2) (l := 0) (m₁ := c.mass .u) (m₂ := c.mass .d) (m₃ := c.mass .d) (m₄ := c.mass .u) (by decide) (by decide) rfl g1 g3 g2 g0 rfl rfl rfl rfl rfl, uudd.amp_W]
    simp only [r0, r2, r3, r8, r10, c3, v0, v1, v2, v5, v6, v7, jj, ln, lw, Constants.gL, Constants.gR, Flavour.charge_d, Flavour.isospin_d, Flavour.charge_u, Flavour.isospin_u]
    abstract_brackets uudd.scat c p s
    push_cast
    field_simp; ring
  refine ⟨fun n hn => ?_, fun n hn => ?_, ?_⟩
  · simp [hd] at hn
    rcases hn with rfl | rfl
    · rw [r10]; exact nSW
    · rw [r8]; exact nMW
  · simp [hd] at hn
    rcases hn with rfl | rfl | rfl | rfl
    · rw [c3]; exact d3
    · rw [c0]; exact d0
    · rw [c1]; exact d1
    · rw [c2]; exact d2
  show meaning (uudd.N c p) .r Cls.uudd.methods Cls.uudd.amp2 [] = _
  have ss : uudd.scat.states = 36 := by decide
  have sy : uudd.scat.symmetry = 1 := by decide
  rw [uudd.value, uudd.scat.squared_quarks he ht hs h0 hf hu (by decide) colours_annihilation (by decide), ss, sy, Nat.cast_zero]
  simp only [add_assoc]
  rw [sumJ_four, Finset.sum_div, Finset.sum_div]
  refine Finset.sum_congr rfl fun s _ => ?_
  rw [k_amp_gluon, k_amp_rest, k_amp_W]
  try simp only [strongC_none (S := uudd.scat) (i := 1) (j := 3) (k := 2) (l := 0) (by decide)]
  finish_spins

/-! ### udud -/

/-- what the methods of the class see -/
noncomputable abbrev udud.N [FPEnv] (c : Constants) (p : Nat → V4 ℝ) : Env := udud.proc.env (udud.rho c) p
/-- `amp_gluon` (SM/udud.cpp) -/
noncomputable def udud.amp_gluon (N : Env) (j1 j2 j3 j4 : Int) : ℂ :=
  (((((((-((2 : Nat) : ℝ)) * N.r 1) * N.r 1) : ℝ) : ℂ) * ((((N.v 2 [j1, j4] * N.v 5 [j2, j3]) + (N.v 9 [j1, j2] * N.v 10 [j3, j4])) + (N.v 3 [j1, j4] * N.v 4 [j2, j3])) + (N.v 8 [j1, j2] * N.v 11 [j3, j4]))) / N.c 0)
/-- `amp_rest` (SM/udud.cpp) -/
noncomputable def udud.amp_rest (N : Env) (j1 j2 j3 j4 : Int) : ℂ :=
  ((((((((((((2 : Nat) : ℝ) * N.r 0) * N.r 0) * ((2 : Nat) : ℝ)) / ((9 : Nat) : ℝ)) : ℝ) : ℂ) * ((((N.v 2 [j1, j4] * N.v 5 [j2, j3]) + (N.v 9 [j1, j2] * N.v 10 [j3, j4])) + (N.v 3 [j1, j4] * N.v 4 [j2, j3])) + (N.v 8 [j1, j2] * N.v 11 [j3, j4]))) / N.c 0) + ((((((-N.r 12) : ℝ) : ℂ) * (N.v 1 [j1, j3] - N.v 0 [j1, j3])) * (N.v 7 [j2, j4] - N.v 6 [j2, j4])) / N.c 1)) + ((((((N.r 18 : ℝ) : ℂ) * (N.v 0 [j1, j3] + N.v 1 [j1, j3])) * (N.v 6 [j2, j4] + N.v 7 [j2, j4])) / N.c 2) - (((((((2 : Nat) : ℝ) * N.r 17) : ℝ) : ℂ) * ((((((((N.r 13 * N.r 15) : ℝ) : ℂ) * N.v 10 [j3, j4]) * N.v 9 [j1, j2]) + (((((N.r 15 * N.r 14) : ℝ) : ℂ) * N.v 3 [j1, j4]) * N.v 4 [j2, j3])) + (((((N.r 13 * N.r 16) : ℝ) : ℂ) * N.v 5 [j2, j3]) * N.v 2 [j1, j4])) + (((((N.r 14 * N.r 16) : ℝ) : ℂ) * N.v 8 [j1, j2]) * N.v 11 [j3, j4]))) / N.c 2)))
/-- `amp_W` (SM/udud.cpp) -/
noncomputable def udud.amp_W (N : Env) (j1 j2 j3 j4 : Int) : ℂ :=
  (((((-N.r 19) : ℝ) : ℂ) * (((((((((2 : Nat) : ℝ) * N.r 8) * N.r 8) : ℝ) : ℂ) * N.v 9 [j1, j2]) * N.v 10 [j3, j4]) + (((((N.r 2 : ℝ) : ℂ) * N.v 3 [j1, j4]) + (((N.r 3 : ℝ) : ℂ) * N.v 2 [j1, j4])) * ((((N.r 2 : ℝ) : ℂ) * N.v 4 [j2, j3]) + (((N.r 3 : ℝ) : ℂ) * N.v 5 [j2, j3]))))) / N.c 3)
set_option maxRecDepth 8000 in
theorem udud.amp2_eq (N : Env) (f : Nat → List Int → ℂ) : Cls.udud.m_amp2.mean N f .r [] =
    ((sumJ (fun x a => (sumJ (fun x b => (sumJ (fun x c => (sumJ (fun x d => (((((x + (((9 : Nat) : ℝ) * (‖(f 1 [a, b, c, d])‖ ^ 2))) + ((((3 : Nat) : ℝ) * ((2 : Nat) : ℝ)) * (((f 1 [a, b, c, d]) * ((starRingEnd ℂ) (f 2 [a, b, c, d])))).re)) + (((9 : Nat) : ℝ) * (‖(f 2 [a, b, c, d])‖ ^ 2))) + ((((4 : Nat) : ℝ) * ((2 : Nat) : ℝ)) * (((f 0 [a, b, c, d]) * ((starRingEnd ℂ) (f 2 [a, b, c, d])))).re)) + (((2 : Nat) : ℝ) * (‖(f 0 [a, b, c, d])‖ ^ 2)))) x)) x)) x)) ((0 : Nat) : ℝ)) / ((36 : Nat) : ℝ)) := by rfl
set_option maxRecDepth 8000 in
theorem udud.value (N : Env) : meaning N .r Cls.udud.methods Cls.udud.amp2 [] =
    ((sumJ (fun x a => (sumJ (fun x b => (sumJ (fun x c => (sumJ (fun x d => (((((x + (((9 : Nat) : ℝ) * (‖(udud.amp_rest N a b c d)‖ ^ 2))) + ((((3 : Nat) : ℝ) * ((2 : Nat) : ℝ)) * (((udud.amp_rest N a b c d) * ((starRingEnd ℂ) (udud.amp_W N a b c d)))).re)) + (((9 : Nat) : ℝ) * (‖(udud.amp_W N a b c d)‖ ^ 2))) + ((((4 : Nat) : ℝ) * ((2 : Nat) : ℝ)) * (((udud.amp_gluon N a b c d) * ((starRingEnd ℂ) (udud.amp_W N a b c d)))).re)) + (((2 : Nat) : ℝ) * (‖(udud.amp_gluon N a b c d)‖ ^ 2)))) x)) x)) x)) ((0 : Nat) : ℝ)) / ((36 : Nat) : ℝ)) :=
  udud.amp2_eq N (callMean N [Cls.udud.m_amp_W, Cls.udud.m_amp_rest, Cls.udud.m_amp_gluon])

variable [FPEnv] in
theorem udud.agrees : udud.Agrees := by
  refine agrees_of (D := [6, 8]) (E := [8]) (by simp [all, udud]) (by decide +kernel) (by decide) (by decide +kernel) (fun c hc => ⟨List.forall_mem_cons.2 ⟨hc.MW, List.forall_mem_cons.2 ⟨hc.SW, List.forall_mem_nil _⟩⟩, List.forall_mem_cons.2 ⟨hc.SW_lt, List.forall_mem_nil _⟩⟩) (fun c hc i => by fin_cases i <;> rfl) (by decide +kernel) ?_
  intro c p u hc hw h0 hs hb hr hu
  replace hw := hw (by simp [udud])
  have he : udud.scat.ends = [2, 3] := by decide
  have ht : udud.scat.starts = [0, 1] := by decide
  obtain ⟨o1, o2⟩ := regular_two he ht hr
  have hf := udud.scat.flows_scattering (by decide) hb
  have ms := udud.scat.msq_scattering (by decide) hb
  have r19 : (udud.N c p).r 19 = ((c.e * c.e) / ((((((2 : Nat) : ℝ) * c.MW) * c.MW) * c.SW) * c.SW)) := rfl
  have r8 : (udud.N c p).r 8 = c.MW := rfl
  have r2 : (udud.N c p).r 2 = (c.mass .u) := rfl
  have r3 : (udud.N c p).r 3 = (c.mass .d) := rfl
  have r0 : (udud.N c p).r 0 = c.e := rfl
  have r12 : (udud.N c p).r 12 = ((((c.e * c.e) * (c.mass .u)) * (c.mass .d)) / ((((((4 : Nat) : ℝ) * c.MW) * c.MW) * c.SW) * c.SW)) := rfl
  have r18 : (udud.N c p).r 18 = ((((((((c.e * c.e) / ((((((4 : Nat) : ℝ) * √((((1 : Nat) : ℝ) - (c.SW * c.SW)))) * √((((1 : Nat) : ℝ) - (c.SW * c.SW)))) * c.SW) * c.SW)) * ((((1 : Nat) : ℝ) - (((((4 : Nat) : ℝ) / ((3 : Nat) : ℝ)) * c.SW) * c.SW)) - ((((-((4 : Nat) : ℝ)) / ((3 : Nat) : ℝ)) * c.SW) * c.SW))) * (((-((1 : Nat) : ℝ)) + (((((2 : Nat) : ℝ) / ((3 : Nat) : ℝ)) * c.SW) * c.SW)) - (((((2 : Nat) : ℝ) / ((3 : Nat) : ℝ)) * c.SW) * c.SW))) * (c.mass .u)) * (c.mass .d)) / (c.MW / √((((1 : Nat) : ℝ) - (c.SW * c.SW))))) / (c.MW / √((((1 : Nat) : ℝ) - (c.SW * c.SW))))) := rfl
  simp only [c.root, c.mz] at r18
  have r17 : (udud.N c p).r 17 = ((c.e * c.e) / ((((((4 : Nat) : ℝ) * √((((1 : Nat) : ℝ) - (c.SW * c.SW)))) * √((((1 : Nat) : ℝ) - (c.SW * c.SW)))) * c.SW) * c.SW)) := rfl
  simp only [c.root] at r17
  have r13 : (udud.N c p).r 13 = (((1 : Nat) : ℝ) - (((((4 : Nat) : ℝ) / ((3 : Nat) : ℝ)) * c.SW) * c.SW)) := rfl
  have r15 : (udud.N c p).r 15 = ((-((1 : Nat) : ℝ)) + (((((2 : Nat) : ℝ) / ((3 : Nat) : ℝ)) * c.SW) * c.SW)) := rfl
  have r14 : (udud.N c p).r 14 = ((((-((4 : Nat) : ℝ)) / ((3 : Nat) : ℝ)) * c.SW) * c.SW) := rfl
  have r16 : (udud.N c p).r 16 = (((((2 : Nat) : ℝ) / ((3 : Nat) : ℝ)) * c.SW) * c.SW) := rfl
  have r1 : (udud.N c p).r 1 = c.gs := rfl
  have c0 : (udud.N c p).c 0 = poleDist ((0 : Nat) : ℝ) ((0 : Nat) : ℝ) ((VExp.sub 0 2).sum p) := rfl
  rw [Nat.cast_zero, pole_zero (ms.1).symm] at c0
  have c1 : (udud.N c p).c 1 = poleDist c.MH c.WH ((VExp.sub 0 2).sum p) := rfl
  rw [pole_congr (ms.1).symm] at c1
  have c2 : (udud.N c p).c 2 = poleDist (c.MW / √((((1 : Nat) : ℝ) - (c.SW * c.SW)))) ((0 : Nat) : ℝ) ((VExp.sub 0 2).sum p) := rfl
  rw [c.root, c.mz, Nat.cast_zero, ← hw, pole_congr (ms.1).symm] at c2
  have c3 : (udud.N c p).c 3 = poleDist c.MW c.WW ((VExp.sub 0 3).sum p) := rfl
  rw [pole_congr (ms.2).symm] at c3
  have d0 := o1.photon (by decide) (by show (2/3 : ℝ) * (-1/3) ≠ 0; norm_num)
  have d1 := o1.higgs (by decide) rfl (hc.massive _ (by decide)) (hc.massive _ (by decide))
  have d2 := o1.z (by decide) rfl
  have d3 := o2.w (by decide) rfl
  have m0 : c.mass .u ≠ 0 := (hc.massive _ (by decide)).ne'
  have m1 : c.mass .d ≠ 0 := (hc.massive _ (by decide)).ne'
  have m2 : c.mass .u ≠ 0 := (hc.massive _ (by decide)).ne'
  have m3 : c.mass .d ≠ 0 := (hc.massive _ (by decide)).ne'
  have g0 : udud.scat.sgn 0 = 1 := if_neg Bool.false_ne_true
  have g1 : udud.scat.sgn 1 = 1 := if_neg Bool.false_ne_true
  have g2 : udud.scat.sgn 2 = 1 := if_neg Bool.false_ne_true
  have g3 : udud.scat.sgn 3 = 1 := if_neg Bool.false_ne_true
  have nMW := hc.MW
  have nSW := hc.SW
  have xMW : (c.MW : ℂ) ≠ 0 := by exact_mod_cast hc.MW
  have xSW : (c.SW : ℂ) ≠ 0 := by exact_mod_cast hc.SW
  have xCW : (c.CW : ℂ) ≠ 0 := by exact_mod_cast hc.CW
  have hd : udud.proc.divides = [(Ty.c, 3), (Ty.c, 0), (Ty.c, 1), (Ty.c, 2)] := by decide +kernel
  have k_amp_rest : ∀ s : Fin 4 → Fin 2, udud.amp_rest (udud.N c p) (spinOf (s 0)) (spinOf (s 1)) (spinOf (s 2)) (spinOf (s 3)) = udud.scat.ewC c p (udud.scat.angs c p s) (udud.scat.sqrs c p s) 2 0 3 1 := by
    intro s
    have v0 : (udud.N c p).v 0 [spinOf (s 0), spinOf (s 2)] = ab (udud.scat.angs c p s 0) (udud.scat.angs c p s 2) := bra_angle (p := p) (m := udud.proc.massNum (udud.rho c)) rfl rfl (.inl ⟨m0, rfl⟩) (.inl ⟨m2, rfl⟩)
    have v1 : (udud.N c p).v 1 [spinOf (s 0), spinOf (s 2)] = sb (udud.scat.sqrs c p s 0) (udud.scat.sqrs c p s 2) := bra_square (p := p) (m := udud.proc.massNum (udud.rho c)) rfl rfl (.inl ⟨m0, rfl⟩) (.inl ⟨m2, rfl⟩)
    have v2 : (udud.N c p).v 2 [spinOf (s 0), spinOf (s 3)] = ab (udud.scat.angs c p s 0) (udud.scat.angs c p s 3) := bra_angle (p := p) (m := udud.proc.massNum (udud.rho c)) rfl rfl (.inl ⟨m0, rfl⟩) (.inl ⟨m3, rfl⟩)
    have v3 : (udud.N c p).v 3 [spinOf (s 0), spinOf (s 3)] = sb (udud.scat.sqrs c p s 0) (udud.scat.sqrs c p s 3) := bra_square (p := p) (m := udud.proc.massNum (udud.rho c)) rfl rfl (.inl ⟨m0, rfl⟩) (.inl ⟨m3, rfl⟩)
    have v4 : (udud.N c p).v 4 [spinOf (s 1), spinOf (s 2)] = ab (udud.scat.angs c p s 1) (udud.scat.angs c p s 2) := bra_angle (p := p) (m := udud.proc.massNum (udud.rho c)) rfl rfl (.inl ⟨m1, rfl⟩) (.inl ⟨m2, rfl⟩)
    have v5 : (udud.N c p).v 5 [spinOf (s 1), spinOf (s 2)] = sb (udud.scat.sqrs c p s 1) (udud.scat.sqrs c p s 2) := bra_square (p := p) (m := udud.proc.massNum (udud.rho c)) rfl rfl (.inl ⟨m1, rfl⟩) (.inl ⟨m2, rfl⟩)
    have v6 : (udud.N c p).v 6 [spinOf (s 1), spinOf (s 3)] = ab (udud.scat.angs c p s 1) (udud.scat.angs c p s 3) := bra_angle (p := p) (m := udud.proc.massNum (udud.rho c)) rfl rfl (.inl ⟨m1, rfl⟩) (.inl ⟨m3, rfl⟩)
    have v7 : (udud.N c p).v 7 [spinOf (s 1), spinOf (s 3)] = sb (udud.scat.sqrs c p s 1) (udud.scat.sqrs c p s 3) := bra_square (p := p) (m := udud.proc.massNum (udud.rho c)) rfl rfl (.inl ⟨m1, rfl⟩) (.inl ⟨m3, rfl⟩)
    have v8 : (udud.N c p).v 8 [spinOf (s 0), spinOf (s 1)] = sb (udud.scat.sqrs c p s 0) (udud.scat.sqrs c p s 1) := bra_square (p := p) (m := udud.proc.massNum (udud.rho c)) rfl rfl (.inl ⟨m0, rfl⟩) (.inl ⟨m1, rfl⟩)
    have v9 : (udud.N c p).v 9 [spinOf (s 0), spinOf (s 1)] = ab (udud.scat.angs c p s 0) (udud.scat.angs c p s 1) := bra_angle (p := p) (m := udud.proc.massNum (udud.rho c)) rfl rfl (.inl ⟨m0, rfl⟩) (.inl ⟨m1, rfl⟩)
    have v10 : (udud.N c p).v 10 [spinOf (s 2), spinOf (s 3)] = sb (udud.scat.sqrs c p s 2) (udud.scat.sqrs c p s 3) := bra_square (p := p) (m := udud.proc.massNum (udud.rho c)) rfl rfl (.inl ⟨m2, rfl⟩) (.inl ⟨m3, rfl⟩)
    have v11 : (udud.N c p).v 11 [spinOf (s 2), spinOf (s 3)] = ab (udud.scat.angs c p s 2) (udud.scat.angs c p s 3) := bra_angle (p := p) (m := udud.proc.massNum (udud.rho c)) rfl rfl (.inl ⟨m2, rfl⟩) (.inl ⟨m3, rfl⟩)
    rw [ewC_neutral (S := udud.scat) (i := 2) (j := 0) (k := 3) (l := 1) (f := .u) (g := .d) (by decide) (by decide) rfl rfl rfl g2 g0 g3 g1 rfl rfl rfl, udud.amp_rest]
    simp only [r0, r12, r13, r14, r15, r16, r17, r18, c0, c1, c2, v0, v1, v2, v3, v4, v5, v6, v7, v8, v9, v10, v11, jj, ln, lw, Constants.gL, Constants.gR, Flavour.charge_d, Flavour.isospin_d, Flavour.charge_u, Flavour.isospin_u]
    abstract_brackets udud.scat c p s
    push_cast
    field_simp; ring
  have k_amp_gluon : ∀ s : Fin 4 → Fin 2, udud.amp_gluon (udud.N c p) (spinOf (s 0)) (spinOf (s 1)) (spinOf (s 2)) (spinOf (s 3)) = udud.scat.strongC c p (udud.scat.angs c p s) (udud.scat.sqrs c p s) 2 0 3 1 := by
    intro s
    have v2 : (udud.N c p).v 2 [spinOf (s 0), spinOf (s 3)] = ab (udud.scat.angs c p s 0) (udud.scat.angs c p s 3) := bra_angle (p := p) (m := udud.proc.massNum (udud.rho c)) rfl rfl (.inl ⟨m0, rfl⟩) (.inl ⟨m3, rfl⟩)
    have v3 : (udud.N c p).v 3 [spinOf (s 0), spinOf (s 3)] = sb (udud.scat.sqrs c p s 0) (udud.scat.sqrs c p s 3) := bra_square (p := p) (m := udud.proc.massNum (udud.rho c)) rfl rfl (.inl ⟨m0, rfl⟩) (.inl ⟨m3, rfl⟩)
    have v4 : (udud.N c p).v 4 [spinOf (s 1), spinOf (s 2)] = ab (udud.scat.angs c p s 1) (udud.scat.angs c p s 2) := bra_angle (p := p) (m := udud.proc.massNum (udud.rho c)) rfl rfl (.inl ⟨m1, rfl⟩) (.inl ⟨m2, rfl⟩)
    have v5 : (udud.N c p).v 5 [spinOf (s 1), spinOf (s 2)] = sb (udud.scat.sqrs c p s 1) (udud.scat.sqrs c p s 2) := bra_square (p := p) (m := udud.proc.massNum (udud.rho c)) rfl rfl (.inl ⟨m1, rfl⟩) (.inl ⟨m2, rfl⟩)
    have v8 : (udud.N c p).v 8 [spinOf (s 0), spinOf (s 1)] = sb (udud.scat.sqrs c p s 0) (udud.scat.sqrs c p s 1) := bra_square (p := p) (m := udud.proc.massNum (udud.rho c)) rfl rfl (.inl ⟨m0, rfl⟩) (.inl ⟨m1, rfl⟩)
    have v9 : (udud.N c p).v 9 [spinOf (s 0), spinOf (s 1)] = ab (udud.scat.angs c p s 0) (udud.scat.angs c p s 1) := bra_angle (p := p) (m := udud.proc.massNum (udud.rho c)) rfl rfl (.inl ⟨m0, rfl⟩) (.inl ⟨m1, rfl⟩)
    have v10 : (udud.N c p).v 10 [spinOf (s 2), spinOf (s 3)] = sb (udud.scat.sqrs c p s 2) (udud.scat.sqrs c p s 3) := bra_square (p := p) (m := udud.proc.massNum (udud.rho c)) rfl rfl (.inl ⟨m2, rfl⟩) (.inl ⟨m3, rfl⟩)
    have v11 : (udud.N c p).v 11 [spinOf (s 2), spinOf (s 3)] = ab (udud.scat.angs c p s 2) (udud.scat.angs c p s 3) := bra_angle (p := p) (m := udud.proc.massNum (udud.rho c)) rfl rfl (.inl ⟨m2, rfl⟩) (.inl ⟨m3, rfl⟩)
    rw [strongC_quarks (S := udud.scat) (i := 2) (j := 0) (k := 3) (l := 1) (by decide) rfl rfl rfl g2 g0 g3 g1 rfl, udud.amp_gluon]
    simp only [r1, c0, v2, v3, v4, v5, v8, v9, v10, v11, jj, ln, lw, Constants.gL, Constants.gR, Flavour.charge_d, Flavour.isospin_d, Flavour.charge_u, Flavour.isospin_u]
    abstract_brackets udud.scat c p s
    push_cast
    field_simp; ring
  have k_amp_W : ∀ s : Fin 4 → Fin 2, udud.amp_W (udud.N c p) (spinOf (s 0)) (spinOf (s 1)) (spinOf (s 2)) (spinOf (s 3)) = -(udud.scat.ewC c p (udud.scat.angs c p s) (udud.scat.sqrs c p s) 2 1 3 0) := by
    intro s
    have v2 : (udud.N c p).v 2 [spinOf (s 0), spinOf (s 3)] = ab (udud.scat.angs c p s 0) (udud.scat.angs c p s 3) := bra_angle (p := p) (m := udud.proc.massNum (udud.rho c)) rfl rfl (.inl ⟨m0, rfl⟩) (.inl ⟨m3, rfl⟩)
    have v3 : (udud.N c p).v 3 [spinOf (s 0), spinOf (s 3)] = sb (udud.scat.sqrs c p s 0) (udud.scat.sqrs c p s 3) := bra_square (p := p) (m := udud.proc.massNum (udud.rho c)) rfl rfl (.inl ⟨m0, rfl⟩) (.inl ⟨m3, rfl⟩)
    have v4 : (udud.N c p).v 4 [spinOf (s 1), spinOf (s 2)] = ab (udud.scat.angs c p s 1) (udud.scat.angs c p s 2) := bra_angle (p := p) (m := udud.proc.massNum (udud.rho c)) rfl rfl (.inl ⟨m1, rfl⟩) (.inl ⟨m2, rfl⟩)
    have v5 : (udud.N c p).v 5 [spinOf (s 1), spinOf (s 2)] = sb (udud.scat.sqrs c p s 1) (udud.scat.sqrs c p s 2) := bra_square (p := p) (m := udud.proc.massNum (udud.rho c)) rfl rfl (.inl ⟨m1, rfl⟩) (.inl ⟨m2, rfl⟩)
    have v9 : (udud.N c p).v 9 [spinOf (s 0), spinOf (s 1)] = ab (udud.scat.angs c p s 0) (udud.scat.angs c p s 1) := bra_angle (p := p) (m := udud.proc.massNum (udud.rho c)) rfl rfl (.inl ⟨m0, rfl⟩) (.inl ⟨m1, rfl⟩)
    have v10 : (udud.N c p).v 10 [spinOf (s 2), spinOf (s 3)] = sb (udud.scat.sqrs c p s 2) (udud.scat.sqrs c p s 3) := bra_square (p := p) (m := udud.proc.massNum (udud.rho c)) rfl rfl (.inl ⟨m2, rfl⟩) (.inl ⟨m3, rfl⟩)
    rw [ewC_charged (S := udud.scat) (i := 2) (j := 1) (k := 3) (l := 0) (m₁ := c.mass .u) (m₂ := c.mass .d) (m₃ := c.mass .d) (m₄ := c.mass .u) (by decide) (by decide) rfl g2 g1 g3 g0 rfl rfl rfl rfl rfl, udud.amp_W]
    simp only [r2, r3, r8, r19, c3, v2, v3, v4, v5, v9, v10, jj, ln, lw, Constants.gL, Constants.gR, Flavour.charge_d, Flavour.isospin_d, Flavour.charge_u, Flavour.isospin_u]
    abstract_brackets udud.scat c p s
    push_cast
    field_simp; ring
  refine ⟨fun n hn => ?_, fun n hn => ?_, ?_⟩
  · simp [hd] at hn
  · simp [hd] at hn
    rcases hn with rfl | rfl | rfl | rfl
    · rw [c3]; exact d3
    · rw [c0]; exact d0
    · rw [c1]; exact d1
    · rw [c2]; exact d2
  show meaning (udud.N c p) .r Cls.udud.methods Cls.udud.amp2 [] = _
  have ss : udud.scat.states = 36 := by decide
  have sy : udud.scat.symmetry = 1 := by decide
  rw [udud.value, udud.scat.squared_quarks he ht hs h0 hf hu (by decide) colours_scattering (by decide), ss, sy, Nat.cast_zero]
  simp only [add_assoc]
  rw [sumJ_four, Finset.sum_div, Finset.sum_div]
  refine Finset.sum_congr rfl fun s _ => ?_
  rw [k_amp_gluon, k_amp_rest, k_amp_W]
  try simp only [strongC_none (S := udud.scat) (i := 2) (j := 1) (k := 3) (l := 0) (by decide)]
  finish_spins

/-! ### dddd -/

/-- what the methods of the class see -/
noncomputable abbrev dddd.N [FPEnv] (c : Constants) (p : Nat → V4 ℝ) : Env := dddd.proc.env (dddd.rho c) p
/-- `amp_gluon_S` (SM/dddd.cpp) -/
noncomputable def dddd.amp_gluon_S (N : Env) (j1 j2 j3 j4 : Int) : ℂ :=
  ((((((((2 : Nat) : ℝ) * N.r 1) * N.r 1) : ℝ) : ℂ) * ((((N.v 0 [j1, j3] * N.v 7 [j2, j4]) + (N.v 2 [j1, j4] * N.v 5 [j2, j3])) + (N.v 1 [j1, j3] * N.v 6 [j2, j4])) + (N.v 3 [j1, j4] * N.v 4 [j2, j3]))) / N.c 0)
/-- `amp_gluon_T` (SM/dddd.cpp) -/
noncomputable def dddd.amp_gluon_T (N : Env) (j1 j2 j3 j4 : Int) : ℂ :=
  ((((((((2 : Nat) : ℝ) * N.r 1) * N.r 1) : ℝ) : ℂ) * ((((N.v 9 [j1, j2] * N.v 10 [j3, j4]) + (N.v 2 [j1, j4] * N.v 5 [j2, j3])) + (N.v 8 [j1, j2] * N.v 11 [j3, j4])) + (N.v 3 [j1, j4] * N.v 4 [j2, j3]))) / N.c 3)
/-- `amp_rest_S` (SM/dddd.cpp) -/
noncomputable def dddd.amp_rest_S (N : Env) (j1 j2 j3 j4 : Int) : ℂ :=
  ((((((((((((2 : Nat) : ℝ) * N.r 0) * N.r 0) * ((1 : Nat) : ℝ)) / ((9 : Nat) : ℝ)) : ℝ) : ℂ) * ((((N.v 0 [j1, j3] * N.v 7 [j2, j4]) + (N.v 2 [j1, j4] * N.v 5 [j2, j3])) + (N.v 1 [j1, j3] * N.v 6 [j2, j4])) + (N.v 3 [j1, j4] * N.v 4 [j2, j3]))) / N.c 0) + (((((N.r 10 : ℝ) : ℂ) * (N.v 8 [j1, j2] + N.v 9 [j1, j2])) * (N.v 10 [j3, j4] + N.v 11 [j3, j4])) / N.c 1)) + (((((((-N.r 14) : ℝ) : ℂ) * (N.v 9 [j1, j2] - N.v 8 [j1, j2])) * (N.v 11 [j3, j4] - N.v 10 [j3, j4])) / N.c 2) + (((((((2 : Nat) : ℝ) * N.r 13) : ℝ) : ℂ) * (((((((N.r 11 * N.r 11) : ℝ) : ℂ) * N.v 5 [j2, j3]) * N.v 2 [j1, j4]) + ((((N.r 11 * N.r 12) : ℝ) : ℂ) * ((N.v 1 [j1, j3] * N.v 6 [j2, j4]) + (N.v 7 [j2, j4] * N.v 0 [j1, j3])))) + (((((N.r 12 * N.r 12) : ℝ) : ℂ) * N.v 3 [j1, j4]) * N.v 4 [j2, j3]))) / N.c 2)))
/-- `amp_rest_T` (SM/dddd.cpp) -/
noncomputable def dddd.amp_rest_T (N : Env) (j1 j2 j3 j4 : Int) : ℂ :=
  (((((((0 : Nat) : ℝ) : ℝ) : ℂ) + ((((((((((2 : Nat) : ℝ) * N.r 0) * N.r 0) * ((1 : Nat) : ℝ)) / ((9 : Nat) : ℝ)) : ℝ) : ℂ) * ((((N.v 9 [j1, j2] * N.v 10 [j3, j4]) + (N.v 2 [j1, j4] * N.v 5 [j2, j3])) + (N.v 8 [j1, j2] * N.v 11 [j3, j4])) + (N.v 3 [j1, j4] * N.v 4 [j2, j3]))) / N.c 3)) + ((((((-N.r 10) : ℝ) : ℂ) * (N.v 1 [j1, j3] - N.v 0 [j1, j3])) * (N.v 7 [j2, j4] - N.v 6 [j2, j4])) / N.c 4)) + ((((((N.r 14 : ℝ) : ℂ) * (N.v 0 [j1, j3] + N.v 1 [j1, j3])) * (N.v 6 [j2, j4] + N.v 7 [j2, j4])) / N.c 5) + (((((((2 : Nat) : ℝ) * N.r 13) : ℝ) : ℂ) * (((((((N.r 11 * N.r 11) : ℝ) : ℂ) * N.v 5 [j2, j3]) * N.v 2 [j1, j4]) + ((((N.r 11 * N.r 12) : ℝ) : ℂ) * ((N.v 8 [j1, j2] * N.v 11 [j3, j4]) + (N.v 10 [j3, j4] * N.v 9 [j1, j2])))) + (((((N.r 12 * N.r 12) : ℝ) : ℂ) * N.v 3 [j1, j4]) * N.v 4 [j2, j3]))) / N.c 5)))
set_option maxRecDepth 8000 in
theorem dddd.amp2_eq (N : Env) (f : Nat → List Int → ℂ) : Cls.dddd.m_amp2.mean N f .r [] =
    ((sumJ (fun x a => (sumJ (fun x b => (sumJ (fun x c => (sumJ (fun x d => ((((((((x + (((9 : Nat) : ℝ) * (‖(f 2 [a, b, c, d])‖ ^ 2))) + (((2 : Nat) : ℝ) * (‖(f 0 [a, b, c, d])‖ ^ 2))) + (((9 : Nat) : ℝ) * (‖(f 3 [a, b, c, d])‖ ^ 2))) + (((2 : Nat) : ℝ) * (‖(f 1 [a, b, c, d])‖ ^ 2))) + ((((3 : Nat) : ℝ) * ((2 : Nat) : ℝ)) * (((f 2 [a, b, c, d]) * ((starRingEnd ℂ) (f 3 [a, b, c, d])))).re)) + ((((-((2 : Nat) : ℝ)) / ((3 : Nat) : ℝ)) * ((2 : Nat) : ℝ)) * (((f 0 [a, b, c, d]) * ((starRingEnd ℂ) (f 1 [a, b, c, d])))).re)) + ((((4 : Nat) : ℝ) * ((2 : Nat) : ℝ)) * (((f 0 [a, b, c, d]) * ((starRingEnd ℂ) (f 3 [a, b, c, d])))).re)) + ((((4 : Nat) : ℝ) * ((2 : Nat) : ℝ)) * (((f 1 [a, b, c, d]) * ((starRingEnd ℂ) (f 2 [a, b, c, d])))).re))) x)) x)) x)) ((0 : Nat) : ℝ)) / ((36 : Nat) : ℝ)) := by rfl
set_option maxRecDepth 8000 in
theorem dddd.value (N : Env) : meaning N .r Cls.dddd.methods Cls.dddd.amp2 [] =
    ((sumJ (fun x a => (sumJ (fun x b => (sumJ (fun x c => (sumJ (fun x d => ((((((((x + (((9 : Nat) : ℝ) * (‖(dddd.amp_rest_S N a b c d)‖ ^ 2))) + (((2 : Nat) : ℝ) * (‖(dddd.amp_gluon_S N a b c d)‖ ^ 2))) + (((9 : Nat) : ℝ) * (‖(dddd.amp_rest_T N a b c d)‖ ^ 2))) + (((2 : Nat) : ℝ) * (‖(dddd.amp_gluon_T N a b c d)‖ ^ 2))) + ((((3 : Nat) : ℝ) * ((2 : Nat) : ℝ)) * (((dddd.amp_rest_S N a b c d) * ((starRingEnd ℂ) (dddd.amp_rest_T N a b c d)))).re)) + ((((-((2 : Nat) : ℝ)) / ((3 : Nat) : ℝ)) * ((2 : Nat) : ℝ)) * (((dddd.amp_gluon_S N a b c d) * ((starRingEnd ℂ) (dddd.amp_gluon_T N a b c d)))).re)) + ((((4 : Nat) : ℝ) * ((2 : Nat) : ℝ)) * (((dddd.amp_gluon_S N a b c d) * ((starRingEnd ℂ) (dddd.amp_rest_T N a b c d)))).re)) + ((((4 : Nat) : ℝ) * ((2 : Nat) : ℝ)) * (((dddd.amp_gluon_T N a b c d) * ((starRingEnd ℂ) (dddd.amp_rest_S N a b c d)))).re))) x)) x)) x)) ((0 : Nat) : ℝ)) / ((36 : Nat) : ℝ)) :=
  dddd.amp2_eq N (callMean N [Cls.dddd.m_amp_rest_T, Cls.dddd.m_amp_rest_S, Cls.dddd.m_amp_gluon_T, Cls.dddd.m_amp_gluon_S])

variable [FPEnv] in
theorem dddd.agrees : dddd.Agrees := by
  refine agrees_of (D := [5, 6]) (E := [6]) (by simp [all, dddd]) (by decide +kernel) (by decide) (by decide +kernel) (fun c hc => ⟨List.forall_mem_cons.2 ⟨hc.MW, List.forall_mem_cons.2 ⟨hc.SW, List.forall_mem_nil _⟩⟩, List.forall_mem_cons.2 ⟨hc.SW_lt, List.forall_mem_nil _⟩⟩) (fun c hc i => by fin_cases i <;> rfl) (by decide +kernel) ?_
  intro c p u hc hw h0 hs hb hr hu
  have he : dddd.scat.ends = [1, 2] := by decide
  have ht : dddd.scat.starts = [0, 3] := by decide
  obtain ⟨o1, o2⟩ := regular_two he ht hr
  have hf := dddd.scat.flows_annihilation (by decide) hb
  have ms := dddd.scat.msq_annihilation (by decide) hb
  have r0 : (dddd.N c p).r 0 = c.e := rfl
  have r10 : (dddd.N c p).r 10 = ((((c.e * c.e) * (c.mass .d)) * (c.mass .d)) / ((((((4 : Nat) : ℝ) * c.MW) * c.MW) * c.SW) * c.SW)) := rfl
  have r14 : (dddd.N c p).r 14 = ((((((((c.e * c.e) / ((((((4 : Nat) : ℝ) * √((((1 : Nat) : ℝ) - (c.SW * c.SW)))) * √((((1 : Nat) : ℝ) - (c.SW * c.SW)))) * c.SW) * c.SW)) * (((-((1 : Nat) : ℝ)) + (((((2 : Nat) : ℝ) / ((3 : Nat) : ℝ)) * c.SW) * c.SW)) - (((((2 : Nat) : ℝ) / ((3 : Nat) : ℝ)) * c.SW) * c.SW))) * (((-((1 : Nat) : ℝ)) + (((((2 : Nat) : ℝ) / ((3 : Nat) : ℝ)) * c.SW) * c.SW)) - (((((2 : Nat) : ℝ) / ((3 : Nat) : ℝ)) * c.SW) * c.SW))) * (c.mass .d)) * (c.mass .d)) / (c.MW / √((((1 : Nat) : ℝ) - (c.SW * c.SW))))) / (c.MW / √((((1 : Nat) : ℝ) - (c.SW * c.SW))))) := rfl
  simp only [c.root, c.mz] at r14
  have r13 : (dddd.N c p).r 13 = ((c.e * c.e) / ((((((4 : Nat) : ℝ) * √((((1 : Nat) : ℝ) - (c.SW * c.SW)))) * √((((1 : Nat) : ℝ) - (c.SW * c.SW)))) * c.SW) * c.SW)) := rfl
  simp only [c.root] at r13
  have r11 : (dddd.N c p).r 11 = ((-((1 : Nat) : ℝ)) + (((((2 : Nat) : ℝ) / ((3 : Nat) : ℝ)) * c.SW) * c.SW)) := rfl
  have r12 : (dddd.N c p).r 12 = (((((2 : Nat) : ℝ) / ((3 : Nat) : ℝ)) * c.SW) * c.SW) := rfl
  have r1 : (dddd.N c p).r 1 = c.gs := rfl
  have c0 : (dddd.N c p).c 0 = poleDist ((0 : Nat) : ℝ) ((0 : Nat) : ℝ) ((VExp.add 0 1).sum p) := rfl
  rw [Nat.cast_zero, pole_zero (ms.1).symm] at c0
  have c1 : (dddd.N c p).c 1 = poleDist c.MH c.WH ((VExp.add 0 1).sum p) := rfl
  rw [pole_congr (ms.1).symm] at c1
  have c2 : (dddd.N c p).c 2 = poleDist (c.MW / √((((1 : Nat) : ℝ) - (c.SW * c.SW)))) c.WZ ((VExp.add 0 1).sum p) := rfl
  rw [c.root, c.mz, pole_congr (ms.1).symm] at c2
  have c3 : (dddd.N c p).c 3 = poleDist ((0 : Nat) : ℝ) ((0 : Nat) : ℝ) ((VExp.sub 0 2).sum p) := rfl
  rw [Nat.cast_zero, pole_zero (ms.2).symm] at c3
  have c4 : (dddd.N c p).c 4 = poleDist c.MH c.WH ((VExp.sub 0 2).sum p) := rfl
  rw [pole_congr (ms.2).symm] at c4
  have c5 : (dddd.N c p).c 5 = poleDist (c.MW / √((((1 : Nat) : ℝ) - (c.SW * c.SW)))) c.WZ ((VExp.sub 0 2).sum p) := rfl
  rw [c.root, c.mz, pole_congr (ms.2).symm] at c5
  have d0 := o1.photon (by decide) (by show (-1/3 : ℝ) * (-1/3) ≠ 0; norm_num)
  have d1 := o1.higgs (by decide) rfl (hc.massive _ (by decide)) (hc.massive _ (by decide))
  have d2 := o1.z (by decide) rfl
  have d3 := o2.photon (by decide) (by show (-1/3 : ℝ) * (-1/3) ≠ 0; norm_num)
  have d4 := o2.higgs (by decide) rfl (hc.massive _ (by decide)) (hc.massive _ (by decide))
  have d5 := o2.z (by decide) rfl
  have m0 : c.mass .d ≠ 0 := (hc.massive _ (by decide)).ne'
  have m1 : c.mass .d ≠ 0 := (hc.massive _ (by decide)).ne'
  have m2 : c.mass .d ≠ 0 := (hc.massive _ (by decide)).ne'
  have m3 : c.mass .d ≠ 0 := (hc.massive _ (by decide)).ne'
  have g0 : dddd.scat.sgn 0 = 1 := if_neg Bool.false_ne_true
  have g1 : dddd.scat.sgn 1 = -1 := if_pos rfl
  have g2 : dddd.scat.sgn 2 = 1 := if_neg Bool.false_ne_true
  have g3 : dddd.scat.sgn 3 = -1 := if_pos rfl
  have nMW := hc.MW
  have nSW := hc.SW
  have xMW : (c.MW : ℂ) ≠ 0 := by exact_mod_cast hc.MW
  have xSW : (c.SW : ℂ) ≠ 0 := by exact_mod_cast hc.SW
  have xCW : (c.CW : ℂ) ≠ 0 := by exact_mod_cast hc.CW
  have hd : dddd.proc.divides = [(Ty.c, 3), (Ty.c, 4), (Ty.c, 5), (Ty.c, 0), (Ty.c, 1), (Ty.c, 2)] := by decide +kernel
  have k_amp_rest_S : ∀ s : Fin 4 → Fin 2, dddd.amp_rest_S (dddd.N c p) (spinOf (s 0)) (spinOf (s 1)) (spinOf (s 2)) (spinOf (s 3)) = dddd.scat.ewC c p (dddd.scat.angs c p s) (dddd.scat.sqrs c p s) 1 0 2 3 := by
    intro s
    have v0 : (dddd.N c p).v 0 [spinOf (s 0), spinOf (s 2)] = ab (dddd.scat.angs c p s 0) (dddd.scat.angs c p s 2) := bra_angle (p := p) (m := dddd.proc.massNum (dddd.rho c)) rfl rfl (.inl ⟨m0, rfl⟩) (.inl ⟨m2, rfl⟩)
    have v1 : (dddd.N c p).v 1 [spinOf (s 0), spinOf (s 2)] = sb (dddd.scat.sqrs c p s 0) (dddd.scat.sqrs c p s 2) := bra_square (p := p) (m := dddd.proc.massNum (dddd.rho c)) rfl rfl (.inl ⟨m0, rfl⟩) (.inl ⟨m2, rfl⟩)
    have v2 : (dddd.N c p).v 2 [spinOf (s 0), spinOf (s 3)] = ab (dddd.scat.angs c p s 0) (dddd.scat.angs c p s 3) := bra_angle (p := p) (m := dddd.proc.massNum (dddd.rho c)) rfl rfl (.inl ⟨m0, rfl⟩) (.inl ⟨m3, rfl⟩)
    have v3 : (dddd.N c p).v 3 [spinOf (s 0), spinOf (s 3)] = sb (dddd.scat.sqrs c p s 0) (dddd.scat.sqrs c p s 3) := bra_square (p := p) (m := dddd.proc.massNum (dddd.rho c)) rfl rfl (.inl ⟨m0, rfl⟩) (.inl ⟨m3, rfl⟩)
    have v4 : (dddd.N c p).v 4 [spinOf (s 1), spinOf (s 2)] = ab (dddd.scat.angs c p s 1) (dddd.scat.angs c p s 2) := bra_angle (p := p) (m := dddd.proc.massNum (dddd.rho c)) rfl rfl (.inl ⟨m1, rfl⟩) (.inl ⟨m2, rfl⟩)
    have v5 : (dddd.N c p).v 5 [spinOf (s 1), spinOf (s 2)] = sb (dddd.scat.sqrs c p s 1) (dddd.scat.sqrs c p s 2) := bra_square (p := p) (m := dddd.proc.massNum (dddd.rho c)) rfl rfl (.inl ⟨m1, rfl⟩) (.inl ⟨m2, rfl⟩)
    have v6 : (dddd.N c p).v 6 [spinOf (s 1), spinOf (s 3)] = ab (dddd.scat.angs c p s 1) (dddd.scat.angs c p s 3) := bra_angle (p := p) (m := dddd.proc.massNum (dddd.rho c)) rfl rfl (.inl ⟨m1, rfl⟩) (.inl ⟨m3, rfl⟩)
    have v7 : (dddd.N c p).v 7 [spinOf (s 1), spinOf (s 3)] = sb (dddd.scat.sqrs c p s 1) (dddd.scat.sqrs c p s 3) := bra_square (p := p) (m := dddd.proc.massNum (dddd.rho c)) rfl rfl (.inl ⟨m1, rfl⟩) (.inl ⟨m3, rfl⟩)
    have v8 : (dddd.N c p).v 8 [spinOf (s 0), spinOf (s 1)] = sb (dddd.scat.sqrs c p s 0) (dddd.scat.sqrs c p s 1) := bra_square (p := p) (m := dddd.proc.massNum (dddd.rho c)) rfl rfl (.inl ⟨m0, rfl⟩) (.inl ⟨m1, rfl⟩)
    have v9 : (dddd.N c p).v 9 [spinOf (s 0), spinOf (s 1)] = ab (dddd.scat.angs c p s 0) (dddd.scat.angs c p s 1) := bra_angle (p := p) (m := dddd.proc.massNum (dddd.rho c)) rfl rfl (.inl ⟨m0, rfl⟩) (.inl ⟨m1, rfl⟩)
    have v10 : (dddd.N c p).v 10 [spinOf (s 2), spinOf (s 3)] = sb (dddd.scat.sqrs c p s 2) (dddd.scat.sqrs c p s 3) := bra_square (p := p) (m := dddd.proc.massNum (dddd.rho c)) rfl rfl (.inl ⟨m2, rfl⟩) (.inl ⟨m3, rfl⟩)
    have v11 : (dddd.N c p).v 11 [spinOf (s 2), spinOf (s 3)] = ab (dddd.scat.angs c p s 2) (dddd.scat.angs c p s 3) := bra_angle (p := p) (m := dddd.proc.massNum (dddd.rho c)) rfl rfl (.inl ⟨m2, rfl⟩) (.inl ⟨m3, rfl⟩)
    rw [ewC_neutral (S := dddd.scat) (i := 1) (j := 0) (k := 2) (l := 3) (f := .d) (g := .d) (by decide) (by decide) rfl rfl rfl g1 g0 g2 g3 rfl rfl rfl, dddd.amp_rest_S]
    simp only [r0, r10, r11, r12, r13, r14, c0, c1, c2, v0, v1, v2, v3, v4, v5, v6, v7, v8, v9, v10, v11, jj, ln, lw, Constants.gL, Constants.gR, Flavour.charge_d, Flavour.isospin_d]
    abstract_brackets dddd.scat c p s
    push_cast
    ring
  have k_amp_rest_T : ∀ s : Fin 4 → Fin 2, dddd.amp_rest_T (dddd.N c p) (spinOf (s 0)) (spinOf (s 1)) (spinOf (s 2)) (spinOf (s 3)) = -(dddd.scat.ewC c p (dddd.scat.angs c p s) (dddd.scat.sqrs c p s) 1 3 2 0) := by
    intro s
    have v0 : (dddd.N c p).v 0 [spinOf (s 0), spinOf (s 2)] = ab (dddd.scat.angs c p s 0) (dddd.scat.angs c p s 2) := bra_angle (p := p) (m := dddd.proc.massNum (dddd.rho c)) rfl rfl (.inl ⟨m0, rfl⟩) (.inl ⟨m2, rfl⟩)
    have v1 : (dddd.N c p).v 1 [spinOf (s 0), spinOf (s 2)] = sb (dddd.scat.sqrs c p s 0) (dddd.scat.sqrs c p s 2) := bra_square (p := p) (m := dddd.proc.massNum (dddd.rho c)) rfl rfl (.inl ⟨m0, rfl⟩) (.inl ⟨m2, rfl⟩)
    have v2 : (dddd.N c p).v 2 [spinOf (s 0), spinOf (s 3)] = ab (dddd.scat.angs c p s 0) (dddd.scat.angs c p s 3) := bra_angle (p := p) (m := dddd.proc.massNum (dddd.rho c)) rfl rfl (.inl ⟨m0, rfl⟩) (.inl ⟨m3, rfl⟩)
    have v3 : (dddd.N c p).v 3 [spinOf (s 0), spinOf (s 3)] = sb (dddd.scat.sqrs c p s 0) (dddd.scat.sqrs c p s 3) := bra_square (p := p) (m := dddd.proc.massNum (dddd.rho c)) rfl rfl (.inl ⟨m0, rfl⟩) (.inl ⟨m3, rfl⟩)
    have v4 : (dddd.N c p).v 4 [spinOf (s 1), spinOf (s 2)] = ab (dddd.scat.angs c p s 1) (dddd.scat.angs c p s 2) := bra_angle (p := p) (m := dddd.proc.massNum (dddd.rho c)) rfl rfl (.inl ⟨m1, rfl⟩) (.inl ⟨m2, rfl⟩)
    have v5 : (dddd.N c p).v 5 [spinOf (s 1), spinOf (s 2)] = sb (dddd.scat.sqrs c p s 1) (dddd.scat.sqrs c p s 2) := bra_square (p := p) (m := dddd.proc.massNum (dddd.rho c)) rfl rfl (.inl ⟨m1, rfl⟩) (.inl ⟨m2, rfl⟩)
    have v6 : (dddd.N c p).v 6 [spinOf (s 1), spinOf (s 3)] = ab (dddd.scat.angs c p s 1) (dddd.scat.angs c p s 3) := bra_angle (p := p) (m := dddd.proc.massNum (dddd.rho c)) rfl rfl (.inl ⟨m1, rfl⟩) (.inl ⟨m3, rfl⟩)
    have v7 : (dddd.N c p).v 7 [spinOf (s 1), spinOf (s 3)] = sb (dddd.scat.sqrs c p s 1) (dddd.scat.sqrs c p s 3) := bra_square (p := p) (m := dddd.proc.massNum (dddd.rho c)) rfl rfl (.inl ⟨m1, rfl⟩) (.inl ⟨m3, rfl⟩)
    have v8 : (dddd.N c p).v 8 [spinOf (s 0), spinOf (s 1)] = sb (dddd.scat.sqrs c p s 0) (dddd.scat.sqrs c p s 1) := bra_square (p := p) (m := dddd.proc.massNum (dddd.rho c)) rfl rfl (.inl ⟨m0, rfl⟩) (.inl ⟨m1, rfl⟩)
    have v9 : (dddd.N c p).v 9 [spinOf (s 0), spinOf (s 1)] = ab (dddd.scat.angs c p s 0) (dddd.scat.angs c p s 1) := bra_angle (p := p) (m := dddd.proc.massNum (dddd.rho c)) rfl rfl (.inl ⟨m0, rfl⟩) (.inl ⟨m1, rfl⟩)
    have v10 : (dddd.N c p).v 10 [spinOf (s 2), spinOf (s 3)] = sb (dddd.scat.sqrs c p s 2) (dddd.scat.sqrs c p s 3) := bra_square (p := p) (m := dddd.proc.massNum (dddd.rho c)) rfl rfl (.inl ⟨m2, rfl⟩) (.inl ⟨m3, rfl⟩)
    have v11 : (dddd.N c p).v 11 [spinOf (s 2), spinOf (s 3)] = ab (dddd.scat.angs c p s 2) (dddd.scat.angs c p s 3) := bra_angle (p := p) (m := dddd.proc.massNum (dddd.rho c)) rfl rfl (.inl ⟨m2, rfl⟩) (.inl ⟨m3, rfl⟩)
    rw [ewC_neutral (S := dddd.scat) (i := 1) (j := 3) (k := 2) (l := 0) (f := .d) (g := .d) (by decide) (by decide) rfl rfl rfl g1 g3 g2 g0 rfl rfl rfl, dddd.amp_rest_T]
    simp only [r0, r10, r11, r12, r13, r14, c3, c4, c5, v0, v1, v2, v3, v4, v5, v6, v7, v8, v9, v10, v11, jj, ln, lw, Constants.gL, Constants.gR, Flavour.charge_d, Flavour.isospin_d]
    abstract_brackets dddd.scat c p s
    push_cast
    ring
  have k_amp_gluon_S : ∀ s : Fin 4 → Fin 2, dddd.amp_gluon_S (dddd.N c p) (spinOf (s 0)) (spinOf (s 1)) (spinOf (s 2)) (spinOf (s 3)) = dddd.scat.strongC c p (dddd.scat.angs c p s) (dddd.scat.sqrs c p s) 1 0 2 3 := by
    intro s
    have v0 : (dddd.N c p).v 0 [spinOf (s 0), spinOf (s 2)] = ab (dddd.scat.angs c p s 0) (dddd.scat.angs c p s 2) := bra_angle (p := p) (m := dddd.proc.massNum (dddd.rho c)) rfl rfl (.inl ⟨m0, rfl⟩) (.inl ⟨m2, rfl⟩)
    have v1 : (dddd.N c p).v 1 [spinOf (s 0), spinOf (s 2)] = sb (dddd.scat.sqrs c p s 0) (dddd.scat.sqrs c p s 2) := bra_square (p := p) (m := dddd.proc.massNum (dddd.rho c)) rfl rfl (.inl ⟨m0, rfl⟩) (.inl ⟨m2, rfl⟩)
    have v2 : (dddd.N c p).v 2 [spinOf (s 0), spinOf (s 3)] = ab (dddd.scat.angs c p s 0) (dddd.scat.angs c p s 3) := bra_angle (p := p) (m := dddd.proc.massNum (dddd.rho c)) rfl rfl (.inl ⟨m0, rfl⟩) (.inl ⟨m3, rfl⟩)
    have v3 : (dddd.N c p).v 3 [spinOf (s 0), spinOf (s 3)] = sb (dddd.scat.sqrs c p s 0) (dddd.scat.sqrs c p s 3) := bra_square (p := p) (m := dddd.proc.massNum (dddd.rho c)) rfl rfl (.inl ⟨m0, rfl⟩) (.inl ⟨m3, rfl⟩)
    have v4 : (dddd.N c p).v 4 [spinOf (s 1), spinOf (s 2)] = ab (dddd.scat.angs c p s 1) (dddd.scat.angs c p s 2) := bra_angle (p := p) (m := dddd.proc.massNum (dddd.rho c)) rfl rfl (.inl ⟨m1, rfl⟩) (.inl ⟨m2, rfl⟩)
    have v5 : (dddd.N c p).v 5 [spinOf (s 1), spinOf (s 2)] = sb (dddd.scat.sqrs c p s 1) (dddd.scat.sqrs c p s 2) := bra_square (p := p) (m := dddd.proc.massNum (dddd.rho c)) rfl rfl (.inl ⟨m1, rfl⟩) (.inl ⟨m2, rfl⟩)
    have v6 : (dddd.N c p).v 6 [spinOf (s 1), spinOf (s 3)] = ab (dddd.scat.angs c p s 1) (dddd.scat.angs c p s 3) := bra_angle (p := p) (m := dddd.proc.massNum (dddd.rho c)) rfl rfl (.inl ⟨m1, rfl⟩) (.inl ⟨m3, rfl⟩)
    have v7 : (dddd.N c p).v 7 [spinOf (s 1), spinOf (s 3)] = sb (dddd.scat.sqrs c p s 1) (dddd.scat.sqrs c p s 3) := bra_square (p := p) (m := dddd.proc.massNum (dddd.rho c)) rfl rfl (.inl ⟨m1, rfl⟩) (.inl ⟨m3, rfl⟩)
    rw [strongC_quarks (S := dddd.scat) (i := 1) (j := 0) (k := 2) (l := 3) (by decide) rfl rfl rfl g1 g0 g2 g3 rfl, dddd.amp_gluon_S]
    simp only [r1, c0, v0, v1, v2, v3, v4, v5, v6, v7, jj, ln, lw, Constants.gL, Constants.gR, Flavour.charge_d, Flavour.isospin_d]
    abstract_brackets dddd.scat c p s
    push_cast
    ring
  have k_amp_gluon_T : ∀ s : Fin 4 → Fin 2, dddd.amp_gluon_T (dddd.N c p) (spinOf (s 0)) (spinOf (s 1)) (spinOf (s 2)) (spinOf (s 3)) = -(dddd.scat.strongC c p (dddd.scat.angs c p s) (dddd.scat.sqrs c p s) 1 3 2 0) := by
    intro s
    have v2 : (dddd.N c p).v 2 [spinOf (s 0), spinOf (s 3)] = ab (dddd.scat.angs c p s 0) (dddd.scat.angs c p s 3) := bra_angle (p := p) (m := dddd.proc.massNum (dddd.rho c)) rfl rfl (.inl ⟨m0, rfl⟩) (.inl ⟨m3, rfl⟩)
    have v3 : (dddd.N c p).v 3 [spinOf (s 0), spinOf (s 3)] = sb (dddd.scat.sqrs c p s 0) (dddd.scat.sqrs c p s 3) := bra_square (p := p) (m := dddd.proc.massNum (dddd.rho c)) rfl rfl (.inl ⟨m0, rfl⟩) (.inl ⟨m3, rfl⟩)
    have v4 : (dddd.N c p).v 4 [spinOf (s 1), spinOf (s 2)] = ab (dddd.scat.angs c p s 1) (dddd.scat.angs c p s 2) := bra_angle (p := p) (m := dddd.proc.massNum (dddd.rho c)) rfl rfl (.inl ⟨m1, rfl⟩) (.inl ⟨m2, rfl⟩)
    have v5 : (dddd.N c p).v 5 [spinOf (s 1), spinOf (s 2)] = sb (dddd.scat.sqrs c p s 1) (dddd.scat.sqrs c p s 2) := bra_square (p := p) (m := dddd.proc.massNum (dddd.rho c)) rfl rfl (.inl ⟨m1, rfl⟩) (.inl ⟨m2, rfl⟩)
    have v8 : (dddd.N c p).v 8 [spinOf (s 0), spinOf (s 1)] = sb (dddd.scat.sqrs c p s 0) (dddd.scat.sqrs c p s 1) := bra_square (p := p) (m := dddd.proc.massNum (dddd.rho c)) rfl rfl (.inl ⟨m0, rfl⟩) (.inl ⟨m1, rfl⟩)
    have v9 : (dddd.N c p).v 9 [spinOf (s 0), spinOf (s 1)] = ab (dddd.scat.angs c p s 0) (dddd.scat.angs c p s 1) := bra_angle (p := p) (m := dddd.proc.massNum (dddd.rho c)) rfl rfl (.inl ⟨m0, rfl⟩) (.inl ⟨m1, rfl⟩)
    have v10 : (dddd.N c p).v 10 [spinOf (s 2), spinOf (s 3)] = sb (dddd.scat.sqrs c p s 2) (dddd.scat.sqrs c p s 3) := bra_square (p := p) (m := dddd.proc.massNum (dddd.rho c)) rfl rfl (.inl ⟨m2, rfl⟩) (.inl ⟨m3, rfl⟩)
    have v11 : (dddd.N c p).v 11 [spinOf (s 2), spinOf (s 3)] = ab (dddd.scat.angs c p s 2) (dddd.scat.angs c p s 3) := bra_angle (p := p) (m := dddd.proc.massNum (dddd.rho c)) rfl rfl (.inl ⟨m2, rfl⟩) (.inl ⟨m3, rfl⟩)
    rw [strongC_quarks (S := dddd.scat) (i := 1) (j := 3) (k := 2) (l := 0) (by decide) rfl rfl rfl g1 g3 g2 g0 rfl, dddd.amp_gluon_T]
    simp only [r1, c3, v2, v3, v4, v5, v8, v9, v10, v11, jj, ln, lw, Constants.gL, Constants.gR, Flavour.charge_d, Flavour.isospin_d]
    abstract_brackets dddd.scat c p s
    push_cast
    ring
  refine ⟨fun n hn => ?_, fun n hn => ?_, ?_⟩
  · simp [hd] at hn
  · simp [hd] at hn
    rcases hn with rfl | rfl | rfl | rfl | rfl | rfl
    · rw [c3]; exact d3
    · rw [c4]; exact d4
    · rw [c5]; exact d5
    · rw [c0]; exact d0
    · rw [c1]; exact d1
    · rw [c2]; exact d2
  show meaning (dddd.N c p) .r Cls.dddd.methods Cls.dddd.amp2 [] = _
  have ss : dddd.scat.states = 36 := by decide
  have sy : dddd.scat.symmetry = 1 := by decide
  rw [dddd.value, dddd.scat.squared_quarks he ht hs h0 hf hu (by decide) colours_annihilation (by decide), ss, sy, Nat.cast_zero]
  simp only [add_assoc]
  rw [sumJ_four, Finset.sum_div, Finset.sum_div]
  refine Finset.sum_congr rfl fun s _ => ?_
  rw [k_amp_gluon_S, k_amp_gluon_T, k_amp_rest_S, k_amp_rest_T]
  finish_spins

end Spinas.SM.Rows
