import Verif.SM.BosonRows

/-! A down quark and a W boson. Generated by tools/bosons/wd.py: the amplitude as a formula in spinors, and the proof that `amp2` is the squared amplitude of the Feynman rules. -/

set_option linter.unusedSimpArgs false
set_option linter.unusedVariables false
set_option linter.unreachableTactic false
set_option linter.unusedTactic false

namespace Spinas.SM.Rows
/-- the reaction of the antiparticles -/
def WdWd : BRow := ⟨Cls.WdWd, ⟨![.boson .wMinus, .fermion .d true, .boson .wMinus, .fermion .d true]⟩, [some .e, some (.mass .d), some (.mass .u), some .MH, some .WH, some .MW, some .SW, some .WZ], []⟩
end Spinas.SM.Rows

namespace Spinas.SM.Rows
open Spec Spec.Reaction Props XR Matrix BRow

/-- what the methods of the class see -/
noncomputable abbrev WdWd.N [FPEnv] (c : Constants) (p : Nat → V4 ℝ) : Env := WdWd.proc.env (WdWd.rho c) p
/-- the term that `amp` adds for a choice of spinors (SM/WdWd.cpp) -/
noncomputable def WdWd.term (N : Env) (w : ℝ) (x : ℂ) (a0 b0 j2 a2 b2 j4 : Int) : ℂ :=
  ((((x + (((((((w * N.r 13) : ℝ) : ℂ) * N.v 4 [a0, a2]) * N.v 5 [b0, b2]) * (N.v 8 [j2, j4] - N.v 9 [j2, j4])) / N.c 0)) + (((((((w * N.r 12) : ℝ) : ℂ) * N.v 0 [a0, j2]) * N.v 7 [a2, j4]) * (((((-N.r 6) : ℝ) : ℂ) * N.v 5 [b0, b2]) + N.v 13 [b2, b0])) / N.c 1)) + ((((((((((((-w) * N.r 0) * N.r 0) * N.r 1) * ((2 : Nat) : ℝ)) / N.r 6) : ℝ) : ℂ) * ((((N.v 7 [a2, j4] * N.v 0 [a0, j2]) + (N.v 6 [a2, j4] * N.v 1 [a0, j2])) + (N.v 11 [a0, j4] * N.v 2 [j2, a2])) + (N.v 10 [a0, j4] * N.v 3 [j2, a2]))) * (N.v 4 [b0, b2] - N.v 5 [b0, b2])) / N.c 4) - ((((((((((w * N.r 0) * N.r 0) * N.r 1) * ((2 : Nat) : ℝ)) / N.r 6) / N.r 6) : ℝ) : ℂ) * ((N.v 4 [a0, a2] * N.v 5 [b0, b2]) * (N.v 14 [j2, j4] - N.v 15 [j4, j2]))) / N.c 4))) + (((((w * N.r 14) : ℝ) : ℂ) * (((((((((N.r 15 - N.r 16) * N.r 3) : ℝ) : ℂ) * N.v 4 [a0, a2]) * N.v 5 [b0, b2]) * (N.v 8 [j2, j4] + N.v 9 [j2, j4])) - (((((((2 : Nat) : ℝ) : ℝ) : ℂ) * N.v 4 [a0, a2]) * N.v 5 [b0, b2]) * ((((N.r 15 : ℝ) : ℂ) * N.v 14 [j2, j4]) - (((N.r 16 : ℝ) : ℂ) * N.v 15 [j4, j2])))) - (((((((2 : Nat) : ℝ) * N.r 6) : ℝ) : ℂ) * (N.v 4 [a0, a2] - N.v 5 [a0, a2])) * ((((N.r 15 : ℝ) : ℂ) * ((N.v 2 [j2, b2] * N.v 11 [b0, j4]) + (N.v 0 [b0, j2] * N.v 7 [b2, j4]))) + (((N.r 16 : ℝ) : ℂ) * ((N.v 6 [b2, j4] * N.v 1 [b0, j2]) + (N.v 10 [b0, j4] * N.v 3 [j2, b2]))))))) / N.c 3))
/-- the same with spinors in place of their spins -/
noncomputable def WdWd.form (N : Env) (p : Nat → V4 ℝ) (x0 y0 z1 x2 y2 z3 : Pair) : ℂ :=
  ((((0 + (((((((((1 : Nat) : ℝ) * N.r 13) : ℝ) : ℂ) * (sb x0.2 x2.2)) * (ab y0.1 y2.1)) * ((sb z1.2 z3.2) - (ab z1.1 z3.1))) / N.c 0)) + (((((((((1 : Nat) : ℝ) * N.r 12) : ℝ) : ℂ) * (sb x0.2 z1.2)) * (ab x2.1 z3.1)) * (((((-N.r 6) : ℝ) : ℂ) * (ab y0.1 y2.1)) + (mb y2.2 (p 3) y0.1))) / N.c 1)) + ((((((((((((-((1 : Nat) : ℝ)) * N.r 0) * N.r 0) * N.r 1) * ((2 : Nat) : ℝ)) / N.r 6) : ℝ) : ℂ) * (((((ab x2.1 z3.1) * (sb x0.2 z1.2)) + ((sb x2.2 z3.2) * (ab x0.1 z1.1))) + ((ab x0.1 z3.1) * (sb z1.2 x2.2))) + ((sb x0.2 z3.2) * (ab z1.1 x2.1)))) * ((sb y0.2 y2.2) - (ab y0.1 y2.1))) / N.c 4) - ((((((((((((1 : Nat) : ℝ) * N.r 0) * N.r 0) * N.r 1) * ((2 : Nat) : ℝ)) / N.r 6) / N.r 6) : ℝ) : ℂ) * (((sb x0.2 x2.2) * (ab y0.1 y2.1)) * ((mb z1.2 (p 2) z3.1) - (mb z3.2 (p 2) z1.1)))) / N.c 4))) + (((((((1 : Nat) : ℝ) * N.r 14) : ℝ) : ℂ) * (((((((((N.r 15 - N.r 16) * N.r 3) : ℝ) : ℂ) * (sb x0.2 x2.2)) * (ab y0.1 y2.1)) * ((sb z1.2 z3.2) + (ab z1.1 z3.1))) - (((((((2 : Nat) : ℝ) : ℝ) : ℂ) * (sb x0.2 x2.2)) * (ab y0.1 y2.1)) * ((((N.r 15 : ℝ) : ℂ) * (mb z1.2 (p 2) z3.1)) - (((N.r 16 : ℝ) : ℂ) * (mb z3.2 (p 2) z1.1))))) - (((((((2 : Nat) : ℝ) * N.r 6) : ℝ) : ℂ) * ((sb x0.2 x2.2) - (ab x0.1 x2.1))) * ((((N.r 15 : ℝ) : ℂ) * (((sb z1.2 y2.2) * (ab y0.1 z3.1)) + ((sb y0.2 z1.2) * (ab y2.1 z3.1)))) + (((N.r 16 : ℝ) : ℂ) * (((sb y2.2 z3.2) * (ab y0.1 z1.1)) + ((sb y0.2 z3.2) * (ab z1.1 y2.1)))))))) / N.c 3))
theorem WdWd.key {c : Constants} {p : Nat → V4 ℝ} {N : Env} (hc : c.Physical) (hb : Balanced p) (r0 : N.r 0 = c.e) (r1 : N.r 1 = ((-((1 : Nat) : ℝ)) / ((3 : Nat) : ℝ))) (r3 : N.r 3 = (c.mass .d)) (r6 : N.r 6 = c.MW) (r12 : N.r 12 = (((((2 : Nat) : ℝ) * c.e) * c.e) / ((((((2 : Nat) : ℝ) * c.MW) * c.MW) * c.SW) * c.SW))) (r13 : N.r 13 = ((((((2 : Nat) : ℝ) * c.e) * c.e) * (c.mass .d)) / ((((((4 : Nat) : ℝ) * c.MW) * c.MW) * c.SW) * c.SW))) (r14 : N.r 14 = ((c.e * c.e) / ((((((2 : Nat) : ℝ) * c.MW) * c.MW) * c.SW) * c.SW))) (r15 : N.r 15 = (((((-((2 : Nat) : ℝ)) * ((-((1 : Nat) : ℝ)) / ((3 : Nat) : ℝ))) * c.SW) * c.SW) - ((1 : Nat) : ℝ))) (r16 : N.r 16 = ((((-((2 : Nat) : ℝ)) * ((-((1 : Nat) : ℝ)) / ((3 : Nat) : ℝ))) * c.SW) * c.SW)) (d0 : pole c.MH c.WH (plus (p 0) (backward (p 2))) = N.c 0) (n0 : N.c 0 ≠ 0) (d1 : ((msq (plus (backward (p 3)) (backward (p 2))) - c.mass .u ^ 2 : ℝ) : ℂ) = N.c 1) (n1 : N.c 1 ≠ 0) (d3 : pole c.MZ c.WZ (plus (p 0) (backward (p 2))) = N.c 3) (n3 : N.c 3 ≠ 0) (d4 : pole 0 0 (plus (p 0) (backward (p 2))) = N.c 4) (n4 : N.c 4 ≠ 0) {z0 z1 z2 z3 : Pair} (b0 : Bold (p 0) c.MW z0) (b1 : Bold (p 1) (c.mass .d) z1) (b2 : Bold (p 2) c.MW z2) (b3 : Bold (p 3) (c.mass .d) z3) (q0 : msq (p 0) = c.MW ^ 2) (q2 : msq (p 2) = c.MW ^ 2) :
    WdWd.form N p z0 z0 z1 z2 z2 z3 = ((2 / (c.MW * c.MW) : ℝ) : ℂ) * WdWd.react.bare c p 1 3 0 2 z1 z3 (pv z0.1 z0.2) (pv z2.1 z2.2) := by
  rw [WdWd.react.bare_parts c p (i := 1) (j := 3) (a := 0) (b := 2) (x := .wMinus) (y := .wPlus) (k := (p 0)) (k' := (backward (p 2))) (fun _ => rfl) (fun _ => rfl) (f := .d) (g := .d) rfl rfl (l := (backward (p 3))) rfl (e := -1) (e' := -1) (if_pos rfl) (if_pos rfl)]
  rw [compton_none (h := by simp [Spec.after, Flavour.d, Flavour.d]), star_zero]
  rw [compton_vv (f := .d) (x := .u) (g := .d) (h := (rfl : Spec.after .wPlus Flavour.d = some Flavour.u)) (h' := (rfl : Spec.after .wMinus Flavour.u = some Flavour.d)) (ha := by simp) (hb := by simp)]
  have an := annihilation_neutral c (-1) (-1) z1.1 z1.2 z3.1 z3.2 ⟨.wMinus, (p 0), pv z0.1 z0.2⟩ ⟨.wPlus, (backward (p 2)), pv z2.1 z2.2⟩ .d
  dsimp only at an
  rw [an, WdWd.form]
  clear an
  have Y0 := b0; have Q0 := q0
  have Y2 := b2.back; have Q2 : msq (backward (p 2)) = (-c.MW) ^ 2 := by rw [msq_backward, q2, neg_sq]
  rw [lineV_massless (hx := (rfl : Boson.massive .photon = false))]
  rw [lineV_massive (hx := (rfl : Boson.massive .z = true))]
  simp only [toHiggs, toVector, higgs2, gauge3, Boson.anti, Constants.bosonMass, Constants.bosonWidth, d0, d1, d3, d4, reduceCtorEq, and_self, and_true, and_false, and_true, if_true, if_false, Complex.ofReal_zero, zero_smul, zero_mul, mul_zero, zero_div, neg_zero, add_zero, zero_add, lineH, lineV_zero, contract_zero, lineV_smul, contract_smul, lineV_yangMills Y0 Y2, four_yangMills Y0 Y2 Q0 Q2, ym, lineV_pv, lineV_four, contract_four_pv, contract_pv, mb_plus, mb_backward]
  simp only [b0.mb_left, b0.mb_right, b1.mb_left, b1.mb_right, b2.mb_left, b2.mb_right, b3.mb_left, b3.mb_right, mb_three hb z0.2 z0.1, mb_three hb z0.2 z1.1, mb_three hb z0.2 z2.1, mb_two hb z0.2 z3.1, mb_three hb z1.2 z0.1, mb_three hb z1.2 z1.1, mb_three hb z1.2 z2.1, mb_two hb z1.2 z3.1, mb_three hb z2.2 z0.1, mb_three hb z2.2 z1.1, mb_three hb z2.2 z2.1, mb_one hb z2.2 z3.1, mb_two hb z3.2 z0.1, mb_two hb z3.2 z1.1, mb_one hb z3.2 z2.1, mb_two hb z3.2 z3.1, ab_self, sb_self]
  simp only [ab_swap z0.1 z1.1, sb_swap z0.2 z1.2, ab_swap z0.1 z2.1, sb_swap z0.2 z2.2, ab_swap z0.1 z3.1, sb_swap z0.2 z3.2, ab_swap z1.1 z2.1, sb_swap z1.2 z2.2, ab_swap z1.1 z3.1, sb_swap z1.2 z3.2, ab_swap z2.1 z3.1, sb_swap z2.2 z3.2, r0, r1, r3, r6, r12, r13, r14, r15, r16, Constants.hL, Constants.hR, Constants.gL, Constants.gR, Constants.yuk, Constants.invVev, Flavour.charge_d, Flavour.isospin_d, Flavour.charge_u, Flavour.isospin_u, ← c.mz]
  have xMW : (c.MW : ℂ) ≠ 0 := by exact_mod_cast hc.MW
  have xSW : (c.SW : ℂ) ≠ 0 := by exact_mod_cast hc.SW
  have xCW : (c.CW : ℂ) ≠ 0 := by exact_mod_cast hc.CW
  have x2 : ((√2 : ℝ) : ℂ) ≠ 0 := by exact_mod_cast (Real.sqrt_pos.2 two_pos).ne'
  have x22 : ((√2 : ℝ) : ℂ) ^ 2 = 2 := by rw [← Complex.ofReal_pow, Real.sq_sqrt two_pos.le]; norm_num
  push_cast
  field_simp
  first | ring1 | (ring_nf; simp only [x22]; ring1)
set_option maxRecDepth 8000 in
theorem WdWd.amp2_eq (N : Env) (f : Nat → List Int → ℂ) : Cls.WdWd.m_amp2.mean N f .r [] =
    ((sumV (fun x a => (sumJ (fun x b => (sumV (fun x c => (sumJ (fun x d => (x + (((3 : Nat) : ℝ) * (‖(f 0 [a, b, c, d])‖ ^ 2)))) x)) x)) x)) ((0 : Nat) : ℝ)) / ((18 : Nat) : ℝ)) := by rfl
set_option maxRecDepth 8000 in
theorem WdWd.value (N : Env) : meaning N .r Cls.WdWd.methods Cls.WdWd.amp2 [] =
    ((sumV (fun x a => (sumJ (fun x b => (sumV (fun x c => (sumJ (fun x d => (x + (((3 : Nat) : ℝ) * (‖(Cls.WdWd.m_amp.mean N (callMean N []) .c [a, b, c, d])‖ ^ 2)))) x)) x)) x)) ((0 : Nat) : ℝ)) / ((18 : Nat) : ℝ)) :=
  WdWd.amp2_eq N (callMean N [Cls.WdWd.m_amp])
set_option maxRecDepth 8000 in
theorem WdWd.term_lin (N : Env) (w : ℝ) (x : ℂ) (a0 b0 j2 a2 b2 j4 : Int) : WdWd.term N w x a0 b0 j2 a2 b2 j4 = x + (w : ℂ) * WdWd.term N 1 0 a0 b0 j2 a2 b2 j4 := by
  simp only [WdWd.term]; push_cast; ring
theorem WdWd.amp_eq (N : Env) (f : Nat → List Int → ℂ) (j2 j4 : Int) (t0 t2 : Fin 3) : Cls.WdWd.m_amp.mean N f .c [spinV t0, j2, spinV t2, j4] = comb t2 (fun a2 b2 => comb t0 (fun a0 b0 => WdWd.term N 1 0 (spinOf a0) (spinOf b0) j2 (spinOf a2) (spinOf b2) j4)) := by
  refine (amp_mean N f (m := 4) (K := 8) (G := fun i => WdWd.term N 1 0 (i 6) (i 7) (i 1) (i 4) (i 5) (i 3)) (fun l => ?_) (fun i i' h => ?_) rfl (by decide) (by decide) (by decide) (by decide) (by decide)).trans ?_
  · refine ⟨_, rfl, ?_⟩; exact ⟨rfl, rfl, WdWd.term_lin ..⟩
  · simp only [h 6 (by decide), h 7 (by decide), h 1 (by decide), h 4 (by decide), h 5 (by decide), h 3 (by decide)]
  · show amp' _ [spinV t2, spinV t0] = _
    simp only [amp'_comb, amp'_nil]
    rfl
theorem WdWd.form_x0 (N : Env) (p : Nat → V4 ℝ) (y0 z1 x2 y2 z3 x y : Pair) : WdWd.form N p (x + y) y0 z1 x2 y2 z3 = WdWd.form N p x y0 z1 x2 y2 z3 + WdWd.form N p y y0 z1 x2 y2 z3 := by
  simp only [WdWd.form, Prod.fst_add, Prod.snd_add, ab_add_left, ab_add_right, sb_add_left, sb_add_right, mb_add_left, mb_add_right]
  ring
theorem WdWd.form_y0 (N : Env) (p : Nat → V4 ℝ) (x0 z1 x2 y2 z3 x y : Pair) : WdWd.form N p x0 (x + y) z1 x2 y2 z3 = WdWd.form N p x0 x z1 x2 y2 z3 + WdWd.form N p x0 y z1 x2 y2 z3 := by
  simp only [WdWd.form, Prod.fst_add, Prod.snd_add, ab_add_left, ab_add_right, sb_add_left, sb_add_right, mb_add_left, mb_add_right]
  ring
theorem WdWd.form_x2 (N : Env) (p : Nat → V4 ℝ) (x0 y0 z1 y2 z3 x y : Pair) : WdWd.form N p x0 y0 z1 (x + y) y2 z3 = WdWd.form N p x0 y0 z1 x y2 z3 + WdWd.form N p x0 y0 z1 y y2 z3 := by
  simp only [WdWd.form, Prod.fst_add, Prod.snd_add, ab_add_left, ab_add_right, sb_add_left, sb_add_right, mb_add_left, mb_add_right]
  ring
theorem WdWd.form_y2 (N : Env) (p : Nat → V4 ℝ) (x0 y0 z1 x2 z3 x y : Pair) : WdWd.form N p x0 y0 z1 x2 (x + y) z3 = WdWd.form N p x0 y0 z1 x2 x z3 + WdWd.form N p x0 y0 z1 x2 y z3 := by
  simp only [WdWd.form, Prod.fst_add, Prod.snd_add, ab_add_left, ab_add_right, sb_add_left, sb_add_right, mb_add_left, mb_add_right]
  ring

theorem WdWd.mass_eq {c : Constants} (hc : c.Physical) (i : Fin 4) : WdWd.proc.massNum (WdWd.rho c) i = WdWd.react.mass c i := by
  fin_cases i <;> first | rfl | exact Nat.cast_zero.trans (hc.neutrino _).symm | (show c.MW / √(((1 : Nat) : ℝ) - c.SW * c.SW) = c.MZ; rw [c.root, c.mz])

variable [FPEnv] in
theorem WdWd.agrees : WdWd.Agrees := by
  refine agrees_of (D := [5, 6]) (E := [6]) (by simp [all, WdWd]) (by decide +kernel) (by decide) (by decide +kernel) (fun c hc hh => ⟨List.forall_mem_cons.2 ⟨hc.MW, List.forall_mem_cons.2 ⟨hc.SW, List.forall_mem_nil _⟩⟩, List.forall_mem_cons.2 ⟨hc.SW_lt, List.forall_mem_nil _⟩⟩) (fun c hc i => WdWd.mass_eq hc i) (by decide +kernel) ?_
  intro c p u ε hc hh hw h0 hs hb hr hu
  have he : WdWd.react.ends = [1] := by decide
  have ht : WdWd.react.starts = [3] := by decide
  have hB : WdWd.react.bosons = [0, 2] := by decide
  have hM : WdWd.react.allMassive = true := by decide
  obtain ⟨f1, f2, f3⟩ := WdWd.react.regular_line he ht hB hr
  have r0 : (WdWd.N c p).r 0 = c.e := rfl
  have r1 : (WdWd.N c p).r 1 = ((-((1 : Nat) : ℝ)) / ((3 : Nat) : ℝ)) := rfl
  have r3 : (WdWd.N c p).r 3 = (c.mass .d) := rfl
  have r6 : (WdWd.N c p).r 6 = c.MW := rfl
  have r12 : (WdWd.N c p).r 12 = (((((2 : Nat) : ℝ) * c.e) * c.e) / ((((((2 : Nat) : ℝ) * c.MW) * c.MW) * c.SW) * c.SW)) := rfl
  have r13 : (WdWd.N c p).r 13 = ((((((2 : Nat) : ℝ) * c.e) * c.e) * (c.mass .d)) / ((((((4 : Nat) : ℝ) * c.MW) * c.MW) * c.SW) * c.SW)) := rfl
  have r14 : (WdWd.N c p).r 14 = ((c.e * c.e) / ((((((2 : Nat) : ℝ) * c.MW) * c.MW) * c.SW) * c.SW)) := rfl
  have r15 : (WdWd.N c p).r 15 = (((((-((2 : Nat) : ℝ)) * ((-((1 : Nat) : ℝ)) / ((3 : Nat) : ℝ))) * c.SW) * c.SW) - ((1 : Nat) : ℝ)) := rfl
  have r16 : (WdWd.N c p).r 16 = ((((-((2 : Nat) : ℝ)) * ((-((1 : Nat) : ℝ)) / ((3 : Nat) : ℝ))) * c.SW) * c.SW) := rfl
  have c0 : (WdWd.N c p).c 0 = poleDist c.MH c.WH ((VExp.sub 0 2).sum p) := rfl
  rw [pole_congr (msq_t hb (plus (p 0) (backward (p 2))) (by simp)).symm] at c0
  have d0 : pole c.MH c.WH (plus (p 0) (backward (p 2))) = (WdWd.N c p).c 0 := by rw [c0]
  have n0 : (WdWd.N c p).c 0 ≠ 0 := by rw [← d0]; exact star_ne_zero.2 (f3 .higgs rfl rfl)
  have c1 : (WdWd.N c p).c 1 = poleDist (c.mass .u) ((0 : Nat) : ℝ) ((VExp.add 0 1).sum p) := rfl
  rw [Nat.cast_zero, pole_fermion (msq_s hb (plus (backward (p 3)) (backward (p 2))) (by simp))] at c1
  have d1 : ((msq (plus (backward (p 3)) (backward (p 2))) - c.mass .u ^ 2 : ℝ) : ℂ) = (WdWd.N c p).c 1 := by rw [c1]
  have n1 : (WdWd.N c p).c 1 ≠ 0 := by rw [← d1]; exact_mod_cast f2 .u rfl rfl
  have c3 : (WdWd.N c p).c 3 = poleDist (c.MW / √((((1 : Nat) : ℝ) - (c.SW * c.SW)))) c.WZ ((VExp.sub 0 2).sum p) := rfl
  rw [c.root, c.mz, pole_congr (msq_t hb (plus (p 0) (backward (p 2))) (by simp)).symm] at c3
  have d3 : pole c.MZ c.WZ (plus (p 0) (backward (p 2))) = (WdWd.N c p).c 3 := by rw [c3]
  have n3 : (WdWd.N c p).c 3 ≠ 0 := by rw [← d3]; exact star_ne_zero.2 (f3 .z rfl rfl)
  have c4 : (WdWd.N c p).c 4 = poleDist ((0 : Nat) : ℝ) ((0 : Nat) : ℝ) ((VExp.sub 0 2).sum p) := rfl
  rw [Nat.cast_zero, pole_congr (msq_t hb (plus (p 0) (backward (p 2))) (by simp)).symm] at c4
  have d4 : pole 0 0 (plus (p 0) (backward (p 2))) = (WdWd.N c p).c 4 := by rw [c4]
  have n4 : (WdWd.N c p).c 4 ≠ 0 := by rw [← d4]; exact star_ne_zero.2 (f3 .photon rfl rfl)
  have m0 : WdWd.react.mass c 0 ≠ 0 := (leg_pos hc hh (by decide)).ne'
  have m1 : WdWd.react.mass c 1 ≠ 0 := (leg_pos hc hh (by decide)).ne'
  have m2 : WdWd.react.mass c 2 ≠ 0 := (leg_pos hc hh (by decide)).ne'
  have m3 : WdWd.react.mass c 3 ≠ 0 := (leg_pos hc hh (by decide)).ne'
  have hd : WdWd.proc.divides = [(Ty.c, 0), (Ty.c, 1), (Ty.r, 6), (Ty.c, 4), (Ty.c, 3)] := by decide +kernel
  refine ⟨fun n hn => ?_, fun n hn => ?_, ?_⟩
  · simp [hd] at hn
    rcases hn with rfl
    · rw [r6]; exact hc.MW
  · simp [hd] at hn
    rcases hn with rfl | rfl | rfl | rfl
    · exact n0
    · exact n1
    · exact n4
    · exact n3
  have st : ∀ {z1 z3 : Pair} (b1 : Bold (p 1) (WdWd.react.mass c 1) z1) (b3 : Bold (p 3) (WdWd.react.mass c 3) z3) (t0 t2 : Fin 3), comb t2 (fun a2 b2 => comb t0 (fun a0 b0 => WdWd.form (WdWd.N c p) p (WdWd.react.codePair c p 0 a0) (WdWd.react.codePair c p 0 b0) z1 (WdWd.react.codePair c p 2 a2) (WdWd.react.codePair c p 2 b2) z3)) = 1 * WdWd.react.bare c p 1 3 0 2 z1 z3 (WdWd.react.codeVec c p 0 t0) (WdWd.react.codeVec c p 2 t2) := by
    intro z1 z3 b1 b3 t0 t2
    refine two_vectors (p := p 2) (p' := p 0) (m := WdWd.react.mass c 2) (m' := WdWd.react.mass c 0) (fun s => WdWd.react.codePair_bold hs h0 2 s) (fun s => WdWd.react.codePair_bold hs h0 0 s) (B := fun x y x' y' => WdWd.form (WdWd.N c p) p x' y' z1 x y z3) (G := fun E F => WdWd.react.bare c p 1 3 0 2 z1 z3 F E) (fun _ _ _ _ _ => ?_) (fun _ _ _ _ _ => ?_) (fun _ _ _ _ _ => ?_) (fun _ _ _ _ _ => ?_) (fun F => WdWd.react.bare_lin₂ c p _ _ _ (by decide)) (fun E => WdWd.react.bare_lin₁ c p _ _ _ (by decide)) 1 (fun z2 z0 b2 b0 => ?_) t2 t0
    · exact WdWd.form_x2 ..
    · exact WdWd.form_y2 ..
    · exact WdWd.form_x0 ..
    · exact WdWd.form_y0 ..
    · rw [one_mul]; exact WdWd.key hc hb r0 r1 r3 r6 r12 r13 r14 r15 r16 d0 n0 d1 n1 d3 n3 d4 n4 b0 b1 b2 b3 (onShell_msq (hs 0)) (onShell_msq (hs 2)) 
  have am : ∀ (s1 : Fin 2) (s3 : Fin 2) (t0 t2 : Fin 3), Cls.WdWd.m_amp.mean (WdWd.N c p) (callMean (WdWd.N c p) []) .c [spinV t0, spinOf s1, spinV t2, spinOf s3] = 1 * WdWd.react.bare c p 1 3 0 2 (WdWd.react.codePair c p 1 s1) (WdWd.react.codePair c p 3 s3) (WdWd.react.codeVec c p 0 t0) (WdWd.react.codeVec c p 2 t2) := by
    intro s1 s3 t0 t2
    rw [WdWd.amp_eq, ← st (WdWd.react.codePair_bold hs h0 1 s1) (WdWd.react.codePair_bold hs h0 3 s3) t0 t2]
    refine congrArg (comb t2) (funext fun a2 => funext fun b2 => ?_)
    refine congrArg (comb t0) (funext fun a0 => funext fun b0 => ?_)
    have v4x0x2 : (WdWd.N c p).v 4 [spinOf a0, spinOf a2] = sb (WdWd.react.codePair c p 0 a0).2 (WdWd.react.codePair c p 2 a2).2 := bra_square (p := p) (m := WdWd.proc.massNum (WdWd.rho c)) (WdWd.mass_eq hc 0) (WdWd.mass_eq hc 2) (.inl ⟨m0, rfl⟩) (.inl ⟨m2, rfl⟩)
    have v5y0y2 : (WdWd.N c p).v 5 [spinOf b0, spinOf b2] = ab (WdWd.react.codePair c p 0 b0).1 (WdWd.react.codePair c p 2 b2).1 := bra_angle (p := p) (m := WdWd.proc.massNum (WdWd.rho c)) (WdWd.mass_eq hc 0) (WdWd.mass_eq hc 2) (.inl ⟨m0, rfl⟩) (.inl ⟨m2, rfl⟩)
    have v8z1z3 : (WdWd.N c p).v 8 [spinOf s1, spinOf s3] = sb (WdWd.react.codePair c p 1 s1).2 (WdWd.react.codePair c p 3 s3).2 := bra_square (p := p) (m := WdWd.proc.massNum (WdWd.rho c)) (WdWd.mass_eq hc 1) (WdWd.mass_eq hc 3) (.inl ⟨m1, rfl⟩) (.inl ⟨m3, rfl⟩)
    have v9z1z3 : (WdWd.N c p).v 9 [spinOf s1, spinOf s3] = ab (WdWd.react.codePair c p 1 s1).1 (WdWd.react.codePair c p 3 s3).1 := bra_angle (p := p) (m := WdWd.proc.massNum (WdWd.rho c)) (WdWd.mass_eq hc 1) (WdWd.mass_eq hc 3) (.inl ⟨m1, rfl⟩) (.inl ⟨m3, rfl⟩)
    have v0x0z1 : (WdWd.N c p).v 0 [spinOf a0, spinOf s1] = sb (WdWd.react.codePair c p 0 a0).2 (WdWd.react.codePair c p 1 s1).2 := bra_square (p := p) (m := WdWd.proc.massNum (WdWd.rho c)) (WdWd.mass_eq hc 0) (WdWd.mass_eq hc 1) (.inl ⟨m0, rfl⟩) (.inl ⟨m1, rfl⟩)
    have v7x2z3 : (WdWd.N c p).v 7 [spinOf a2, spinOf s3] = ab (WdWd.react.codePair c p 2 a2).1 (WdWd.react.codePair c p 3 s3).1 := bra_angle (p := p) (m := WdWd.proc.massNum (WdWd.rho c)) (WdWd.mass_eq hc 2) (WdWd.mass_eq hc 3) (.inl ⟨m2, rfl⟩) (.inl ⟨m3, rfl⟩)
    have v13y2y0 : (WdWd.N c p).v 13 [spinOf b2, spinOf b0] = mb (WdWd.react.codePair c p 2 b2).2 (p 3) (WdWd.react.codePair c p 0 b0).1 := bra_mid_square (p := p) (m := WdWd.proc.massNum (WdWd.rho c)) (WdWd.mass_eq hc 2) (WdWd.mass_eq hc 0) (.inl ⟨m2, rfl⟩) (.inl ⟨m0, rfl⟩)
    have v6x2z3 : (WdWd.N c p).v 6 [spinOf a2, spinOf s3] = sb (WdWd.react.codePair c p 2 a2).2 (WdWd.react.codePair c p 3 s3).2 := bra_square (p := p) (m := WdWd.proc.massNum (WdWd.rho c)) (WdWd.mass_eq hc 2) (WdWd.mass_eq hc 3) (.inl ⟨m2, rfl⟩) (.inl ⟨m3, rfl⟩)
    have v1x0z1 : (WdWd.N c p).v 1 [spinOf a0, spinOf s1] = ab (WdWd.react.codePair c p 0 a0).1 (WdWd.react.codePair c p 1 s1).1 := bra_angle (p := p) (m := WdWd.proc.massNum (WdWd.rho c)) (WdWd.mass_eq hc 0) (WdWd.mass_eq hc 1) (.inl ⟨m0, rfl⟩) (.inl ⟨m1, rfl⟩)
    have v11x0z3 : (WdWd.N c p).v 11 [spinOf a0, spinOf s3] = ab (WdWd.react.codePair c p 0 a0).1 (WdWd.react.codePair c p 3 s3).1 := bra_angle (p := p) (m := WdWd.proc.massNum (WdWd.rho c)) (WdWd.mass_eq hc 0) (WdWd.mass_eq hc 3) (.inl ⟨m0, rfl⟩) (.inl ⟨m3, rfl⟩)
    have v2z1x2 : (WdWd.N c p).v 2 [spinOf s1, spinOf a2] = sb (WdWd.react.codePair c p 1 s1).2 (WdWd.react.codePair c p 2 a2).2 := bra_square (p := p) (m := WdWd.proc.massNum (WdWd.rho c)) (WdWd.mass_eq hc 1) (WdWd.mass_eq hc 2) (.inl ⟨m1, rfl⟩) (.inl ⟨m2, rfl⟩)
    have v10x0z3 : (WdWd.N c p).v 10 [spinOf a0, spinOf s3] = sb (WdWd.react.codePair c p 0 a0).2 (WdWd.react.codePair c p 3 s3).2 := bra_square (p := p) (m := WdWd.proc.massNum (WdWd.rho c)) (WdWd.mass_eq hc 0) (WdWd.mass_eq hc 3) (.inl ⟨m0, rfl⟩) (.inl ⟨m3, rfl⟩)
    have v3z1x2 : (WdWd.N c p).v 3 [spinOf s1, spinOf a2] = ab (WdWd.react.codePair c p 1 s1).1 (WdWd.react.codePair c p 2 a2).1 := bra_angle (p := p) (m := WdWd.proc.massNum (WdWd.rho c)) (WdWd.mass_eq hc 1) (WdWd.mass_eq hc 2) (.inl ⟨m1, rfl⟩) (.inl ⟨m2, rfl⟩)
    have v4y0y2 : (WdWd.N c p).v 4 [spinOf b0, spinOf b2] = sb (WdWd.react.codePair c p 0 b0).2 (WdWd.react.codePair c p 2 b2).2 := bra_square (p := p) (m := WdWd.proc.massNum (WdWd.rho c)) (WdWd.mass_eq hc 0) (WdWd.mass_eq hc 2) (.inl ⟨m0, rfl⟩) (.inl ⟨m2, rfl⟩)
    have v14z1z3 : (WdWd.N c p).v 14 [spinOf s1, spinOf s3] = mb (WdWd.react.codePair c p 1 s1).2 (p 2) (WdWd.react.codePair c p 3 s3).1 := bra_mid_square (p := p) (m := WdWd.proc.massNum (WdWd.rho c)) (WdWd.mass_eq hc 1) (WdWd.mass_eq hc 3) (.inl ⟨m1, rfl⟩) (.inl ⟨m3, rfl⟩)
    have v15z3z1 : (WdWd.N c p).v 15 [spinOf s3, spinOf s1] = mb (WdWd.react.codePair c p 3 s3).2 (p 2) (WdWd.react.codePair c p 1 s1).1 := bra_mid_square (p := p) (m := WdWd.proc.massNum (WdWd.rho c)) (WdWd.mass_eq hc 3) (WdWd.mass_eq hc 1) (.inl ⟨m3, rfl⟩) (.inl ⟨m1, rfl⟩)
    have v5x0x2 : (WdWd.N c p).v 5 [spinOf a0, spinOf a2] = ab (WdWd.react.codePair c p 0 a0).1 (WdWd.react.codePair c p 2 a2).1 := bra_angle (p := p) (m := WdWd.proc.massNum (WdWd.rho c)) (WdWd.mass_eq hc 0) (WdWd.mass_eq hc 2) (.inl ⟨m0, rfl⟩) (.inl ⟨m2, rfl⟩)
    have v2z1y2 : (WdWd.N c p).v 2 [spinOf s1, spinOf b2] = sb (WdWd.react.codePair c p 1 s1).2 (WdWd.react.codePair c p 2 b2).2 := bra_square (p := p) (m := WdWd.proc.massNum (WdWd.rho c)) (WdWd.mass_eq hc 1) (WdWd.mass_eq hc 2) (.inl ⟨m1, rfl⟩) (.inl ⟨m2, rfl⟩)
    have v11y0z3 : (WdWd.N c p).v 11 [spinOf b0, spinOf s3] = ab (WdWd.react.codePair c p 0 b0).1 (WdWd.react.codePair c p 3 s3).1 := bra_angle (p := p) (m := WdWd.proc.massNum (WdWd.rho c)) (WdWd.mass_eq hc 0) (WdWd.mass_eq hc 3) (.inl ⟨m0, rfl⟩) (.inl ⟨m3, rfl⟩)
    have v0y0z1 : (WdWd.N c p).v 0 [spinOf b0, spinOf s1] = sb (WdWd.react.codePair c p 0 b0).2 (WdWd.react.codePair c p 1 s1).2 := bra_square (p := p) (m := WdWd.proc.massNum (WdWd.rho c)) (WdWd.mass_eq hc 0) (WdWd.mass_eq hc 1) (.inl ⟨m0, rfl⟩) (.inl ⟨m1, rfl⟩)
    have v7y2z3 : (WdWd.N c p).v 7 [spinOf b2, spinOf s3] = ab (WdWd.react.codePair c p 2 b2).1 (WdWd.react.codePair c p 3 s3).1 := bra_angle (p := p) (m := WdWd.proc.massNum (WdWd.rho c)) (WdWd.mass_eq hc 2) (WdWd.mass_eq hc 3) (.inl ⟨m2, rfl⟩) (.inl ⟨m3, rfl⟩)
    have v6y2z3 : (WdWd.N c p).v 6 [spinOf b2, spinOf s3] = sb (WdWd.react.codePair c p 2 b2).2 (WdWd.react.codePair c p 3 s3).2 := bra_square (p := p) (m := WdWd.proc.massNum (WdWd.rho c)) (WdWd.mass_eq hc 2) (WdWd.mass_eq hc 3) (.inl ⟨m2, rfl⟩) (.inl ⟨m3, rfl⟩)
    have v1y0z1 : (WdWd.N c p).v 1 [spinOf b0, spinOf s1] = ab (WdWd.react.codePair c p 0 b0).1 (WdWd.react.codePair c p 1 s1).1 := bra_angle (p := p) (m := WdWd.proc.massNum (WdWd.rho c)) (WdWd.mass_eq hc 0) (WdWd.mass_eq hc 1) (.inl ⟨m0, rfl⟩) (.inl ⟨m1, rfl⟩)
    have v10y0z3 : (WdWd.N c p).v 10 [spinOf b0, spinOf s3] = sb (WdWd.react.codePair c p 0 b0).2 (WdWd.react.codePair c p 3 s3).2 := bra_square (p := p) (m := WdWd.proc.massNum (WdWd.rho c)) (WdWd.mass_eq hc 0) (WdWd.mass_eq hc 3) (.inl ⟨m0, rfl⟩) (.inl ⟨m3, rfl⟩)
    have v3z1y2 : (WdWd.N c p).v 3 [spinOf s1, spinOf b2] = ab (WdWd.react.codePair c p 1 s1).1 (WdWd.react.codePair c p 2 b2).1 := bra_angle (p := p) (m := WdWd.proc.massNum (WdWd.rho c)) (WdWd.mass_eq hc 1) (WdWd.mass_eq hc 2) (.inl ⟨m1, rfl⟩) (.inl ⟨m2, rfl⟩)
    simp only [WdWd.term, WdWd.form, v4x0x2, v5y0y2, v8z1z3, v9z1z3, v0x0z1, v7x2z3, v13y2y0, v6x2z3, v1x0z1, v11x0z3, v2z1x2, v10x0z3, v3z1x2, v4y0y2, v14z1z3, v15z3z1, v5x0x2, v2z1y2, v11y0z3, v0y0z1, v7y2z3, v6y2z3, v1y0z1, v10y0z3, v3z1y2]
    push_cast
    ring
  show meaning (WdWd.N c p) .r Cls.WdWd.methods Cls.WdWd.amp2 [] = _
  have lc : WdWd.react.lineColours 1 3 = 3 := by decide +kernel
  have s0 : WdWd.react.states 0 = 3 := by decide
  have s1 : WdWd.react.states 1 = 6 := by decide
  have sy : WdWd.react.symmetry = 1 := by decide
  have p0 : WdWd.react.spins 0 = Finset.univ := rfl
  have p1 : WdWd.react.spins 1 = {0, 1} := rfl
  have p2 : WdWd.react.spins 2 = Finset.univ := rfl
  have p3 : WdWd.react.spins 3 = {0, 1} := rfl
  rw [WdWd.value, WdWd.react.squared_line he ht hB (noGluon_of hM) hs h0 (fun _ b _ hb _ => (boson_pos hc hh hb).ne') (WdWd.react.gauge_massive (massive_of hM)) (E := WdWd.react.codeVec c p) (fun n b hl => WdWd.react.codeVec_polarised hs h0 hl (massive_of hM n b hl) (fun _ => (boson_pos hc hh (massive_of hM n b hl)).ne')) hu, sum_colours, lc, s0, s1, sy]
  simp only [sumV_sum, sumJ_sum, am, norm_mul, norm_neg, norm_one, one_mul, p0, p1, p2, p3, Finset.sum_singleton, sum_two, Matrix.cons_val_zero, Matrix.cons_val_one, Matrix.cons_val, two_castSucc]
  try simp only [← Finset.mul_sum]
  push_cast
  first | ring1 | ring_nf

end Spinas.SM.Rows
