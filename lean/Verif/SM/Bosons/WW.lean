import Verif.SM.BosonRows

/-! Fermions and two W bosons. Generated by tools/bosons/emit.py: for each class its amplitude as a formula in spinors, and the proof that `amp2` is the squared amplitude of the Feynman rules. -/

set_option linter.unusedSimpArgs false
set_option linter.unusedVariables false
set_option linter.unreachableTactic false
set_option linter.unusedTactic false

namespace Spinas.SM.Rows
open Spec Spec.Reaction Props XR Matrix BRow

/-! ### eeWW -/

/-- what the methods of the class see -/
noncomputable abbrev eeWW.N [FPEnv] (c : Constants) (p : Nat → V4 ℝ) : Env := eeWW.proc.env (eeWW.rho c) p
/-- the term that `amp` adds for a choice of spinors (SM/eeWW.cpp) -/
noncomputable def eeWW.term (N : Env) (w : ℝ) (x : ℂ) (j1 j2 a2 b2 a3 b3 : Int) : ℂ :=
  ((((x + (((((((w * N.r 11) : ℝ) : ℂ) * N.v 6 [a2, a3]) * N.v 7 [b2, b3]) * (N.v 0 [j1, j2] + N.v 1 [j1, j2])) / N.c 0)) + ((((((((-w) * N.r 10) : ℝ) : ℂ) * N.v 2 [j2, a2]) * N.v 11 [j1, a3]) * ((((N.r 4 : ℝ) : ℂ) * N.v 7 [b2, b3]) + N.v 12 [b3, b2])) / N.c 2)) + (((((((((((-w) * N.r 0) * N.r 0) * ((2 : Nat) : ℝ)) / N.r 4) : ℝ) : ℂ) * ((((N.v 5 [j1, a2] * N.v 8 [j2, a3]) + (N.v 4 [j1, a2] * N.v 9 [j2, a3])) + (N.v 11 [j1, a3] * N.v 2 [j2, a2])) + (N.v 10 [j1, a3] * N.v 3 [j2, a2]))) * (N.v 6 [b2, b3] + N.v 7 [b2, b3])) / N.c 4) - (((((((((w * N.r 0) * N.r 0) * ((2 : Nat) : ℝ)) / N.r 4) / N.r 4) : ℝ) : ℂ) * ((N.v 6 [a2, a3] * N.v 7 [b2, b3]) * (N.v 13 [j2, j1] + N.v 14 [j1, j2]))) / N.c 4))) + ((((((-w) * N.r 12) : ℝ) : ℂ) * (((((((((N.r 13 - N.r 14) * N.r 1) : ℝ) : ℂ) * N.v 6 [a2, a3]) * N.v 7 [b2, b3]) * (N.v 0 [j1, j2] - N.v 1 [j1, j2])) - (((((((2 : Nat) : ℝ) : ℝ) : ℂ) * N.v 6 [a2, a3]) * N.v 7 [b2, b3]) * ((((N.r 13 : ℝ) : ℂ) * N.v 13 [j2, j1]) + (((N.r 14 : ℝ) : ℂ) * N.v 14 [j1, j2])))) - (((((((2 : Nat) : ℝ) * N.r 4) : ℝ) : ℂ) * (N.v 6 [a2, a3] + N.v 7 [a2, a3])) * ((((N.r 13 : ℝ) : ℂ) * ((N.v 2 [j2, b2] * N.v 11 [j1, b3]) + (N.v 8 [j2, b3] * N.v 5 [j1, b2]))) + (((N.r 14 : ℝ) : ℂ) * ((N.v 4 [j1, b2] * N.v 9 [j2, b3]) + (N.v 10 [j1, b3] * N.v 3 [j2, b2]))))))) / N.c 3))
/-- the same with spinors in place of their spins -/
noncomputable def eeWW.form (N : Env) (p : Nat → V4 ℝ) (z0 z1 x2 y2 x3 y3 : Pair) : ℂ :=
  ((((0 + (((((((((1 : Nat) : ℝ) * N.r 11) : ℝ) : ℂ) * (sb x2.2 x3.2)) * (ab y2.1 y3.1)) * ((sb z0.2 z1.2) + (ab z0.1 z1.1))) / N.c 0)) + ((((((((-((1 : Nat) : ℝ)) * N.r 10) : ℝ) : ℂ) * (sb z1.2 x2.2)) * (ab z0.1 x3.1)) * ((((N.r 4 : ℝ) : ℂ) * (ab y2.1 y3.1)) + (mb y3.2 (p 0) y2.1))) / N.c 2)) + (((((((((((-((1 : Nat) : ℝ)) * N.r 0) * N.r 0) * ((2 : Nat) : ℝ)) / N.r 4) : ℝ) : ℂ) * (((((ab z0.1 x2.1) * (sb z1.2 x3.2)) + ((sb z0.2 x2.2) * (ab z1.1 x3.1))) + ((ab z0.1 x3.1) * (sb z1.2 x2.2))) + ((sb z0.2 x3.2) * (ab z1.1 x2.1)))) * ((sb y2.2 y3.2) + (ab y2.1 y3.1))) / N.c 4) - (((((((((((1 : Nat) : ℝ) * N.r 0) * N.r 0) * ((2 : Nat) : ℝ)) / N.r 4) / N.r 4) : ℝ) : ℂ) * (((sb x2.2 x3.2) * (ab y2.1 y3.1)) * ((mb z1.2 (p 2) z0.1) + (mb z0.2 (p 2) z1.1)))) / N.c 4))) + ((((((-((1 : Nat) : ℝ)) * N.r 12) : ℝ) : ℂ) * (((((((((N.r 13 - N.r 14) * N.r 1) : ℝ) : ℂ) * (sb x2.2 x3.2)) * (ab y2.1 y3.1)) * ((sb z0.2 z1.2) - (ab z0.1 z1.1))) - (((((((2 : Nat) : ℝ) : ℝ) : ℂ) * (sb x2.2 x3.2)) * (ab y2.1 y3.1)) * ((((N.r 13 : ℝ) : ℂ) * (mb z1.2 (p 2) z0.1)) + (((N.r 14 : ℝ) : ℂ) * (mb z0.2 (p 2) z1.1))))) - (((((((2 : Nat) : ℝ) * N.r 4) : ℝ) : ℂ) * ((sb x2.2 x3.2) + (ab x2.1 x3.1))) * ((((N.r 13 : ℝ) : ℂ) * (((sb z1.2 y2.2) * (ab z0.1 y3.1)) + ((sb z1.2 y3.2) * (ab z0.1 y2.1)))) + (((N.r 14 : ℝ) : ℂ) * (((sb z0.2 y2.2) * (ab z1.1 y3.1)) + ((sb z0.2 y3.2) * (ab z1.1 y2.1)))))))) / N.c 3))
theorem eeWW.key {c : Constants} {p : Nat → V4 ℝ} {N : Env} (hc : c.Physical) (hb : Balanced p) (r0 : N.r 0 = c.e) (r1 : N.r 1 = (c.mass .e)) (r4 : N.r 4 = c.MW) (r10 : N.r 10 = ((c.e * c.e) / (((c.MW * c.MW) * c.SW) * c.SW))) (r11 : N.r 11 = (((c.e * c.e) * (c.mass .e)) / ((((((2 : Nat) : ℝ) * c.MW) * c.MW) * c.SW) * c.SW))) (r12 : N.r 12 = ((c.e * c.e) / ((((((2 : Nat) : ℝ) * c.MW) * c.MW) * c.SW) * c.SW))) (r13 : N.r 13 = (((((2 : Nat) : ℝ) * c.SW) * c.SW) - ((1 : Nat) : ℝ))) (r14 : N.r 14 = ((((2 : Nat) : ℝ) * c.SW) * c.SW)) (d0 : pole c.MH c.WH (plus (backward (p 2)) (backward (p 3))) = N.c 0) (n0 : N.c 0 ≠ 0) (d2 : ((msq (plus (p 0) (backward (p 3))) - c.mass .ne ^ 2 : ℝ) : ℂ) = N.c 2) (n2 : N.c 2 ≠ 0) (d3 : pole c.MZ c.WZ (plus (backward (p 2)) (backward (p 3))) = N.c 3) (n3 : N.c 3 ≠ 0) (d4 : pole 0 0 (plus (backward (p 2)) (backward (p 3))) = N.c 4) (n4 : N.c 4 ≠ 0) {z0 z1 z2 z3 : Pair} (b0 : Bold (p 0) (c.mass .e) z0) (b1 : Bold (p 1) (c.mass .e) z1) (b2 : Bold (p 2) c.MW z2) (b3 : Bold (p 3) c.MW z3) (q2 : msq (p 2) = c.MW ^ 2) (q3 : msq (p 3) = c.MW ^ 2) :
    eeWW.form N p z0 z1 z2 z2 z3 z3 = ((2 / (c.MW * c.MW) : ℝ) : ℂ) * eeWW.react.bare c p 1 0 2 3 z1 z0 (pv z2.1 z2.2) (pv z3.1 z3.2) := by
  rw [eeWW.react.bare_parts c p (i := 1) (j := 0) (a := 2) (b := 3) (x := .wMinus) (y := .wPlus) (k := (backward (p 2))) (k' := (backward (p 3))) (fun _ => rfl) (fun _ => rfl) (f := .e) (g := .e) rfl rfl (l := (p 0)) rfl (e := -1) (e' := 1) (if_pos rfl) (if_neg Bool.false_ne_true)]
  rw [compton_none (h := by simp [Spec.after, Flavour.e, Flavour.e]), star_zero]
  rw [compton_vv (f := .e) (x := .ne) (g := .e) (h := (rfl : Spec.after .wPlus Flavour.e = some Flavour.ne)) (h' := (rfl : Spec.after .wMinus Flavour.ne = some Flavour.e)) (ha := by simp) (hb := by simp)]
  have an := annihilation_neutral c (-1) (1) z1.1 z1.2 z0.1 z0.2 ⟨.wMinus, (backward (p 2)), pv z2.1 z2.2⟩ ⟨.wPlus, (backward (p 3)), pv z3.1 z3.2⟩ .e
  dsimp only at an
  rw [an, eeWW.form]
  clear an
  have Y2 := b2.back; have Q2 : msq (backward (p 2)) = (-c.MW) ^ 2 := by rw [msq_backward, q2, neg_sq]
  have Y3 := b3.back; have Q3 : msq (backward (p 3)) = (-c.MW) ^ 2 := by rw [msq_backward, q3, neg_sq]
  rw [lineV_massless (hx := (rfl : Boson.massive .photon = false))]
  rw [lineV_massive (hx := (rfl : Boson.massive .z = true))]
  simp only [toHiggs, toVector, higgs2, gauge3, Boson.anti, Constants.bosonMass, Constants.bosonWidth, d0, d2, d3, d4, reduceCtorEq, and_self, and_true, and_false, and_true, if_true, if_false, Complex.ofReal_zero, zero_smul, zero_mul, mul_zero, zero_div, neg_zero, add_zero, zero_add, lineH, lineV_zero, contract_zero, lineV_smul, contract_smul, lineV_yangMills Y2 Y3, four_yangMills Y2 Y3 Q2 Q3, ym, lineV_pv, lineV_four, contract_four_pv, contract_pv, mb_plus, mb_backward]
  simp only [b0.mb_left, b0.mb_right, b1.mb_left, b1.mb_right, b2.mb_left, b2.mb_right, b3.mb_left, b3.mb_right, mb_three hb z0.2 z0.1, mb_three hb z0.2 z1.1, mb_three hb z0.2 z2.1, mb_two hb z0.2 z3.1, mb_three hb z1.2 z0.1, mb_three hb z1.2 z1.1, mb_three hb z1.2 z2.1, mb_two hb z1.2 z3.1, mb_three hb z2.2 z0.1, mb_three hb z2.2 z1.1, mb_three hb z2.2 z2.1, mb_one hb z2.2 z3.1, mb_two hb z3.2 z0.1, mb_two hb z3.2 z1.1, mb_one hb z3.2 z2.1, mb_two hb z3.2 z3.1, ab_self, sb_self]
  have hne : c.mass .ne = 0 := hc.neutrino _
  simp only [ab_swap z0.1 z1.1, sb_swap z0.2 z1.2, ab_swap z0.1 z2.1, sb_swap z0.2 z2.2, ab_swap z0.1 z3.1, sb_swap z0.2 z3.2, ab_swap z1.1 z2.1, sb_swap z1.2 z2.2, ab_swap z1.1 z3.1, sb_swap z1.2 z3.2, ab_swap z2.1 z3.1, sb_swap z2.2 z3.2, r0, r1, r4, r10, r11, r12, r13, r14, Constants.hL, Constants.hR, Constants.gL, Constants.gR, Constants.yuk, Constants.invVev, Flavour.charge_e, Flavour.isospin_e, Flavour.charge_ne, Flavour.isospin_ne, hne, ← c.mz]
  have xMW : (c.MW : ℂ) ≠ 0 := by exact_mod_cast hc.MW
  have xSW : (c.SW : ℂ) ≠ 0 := by exact_mod_cast hc.SW
  have xCW : (c.CW : ℂ) ≠ 0 := by exact_mod_cast hc.CW
  have x2 : ((√2 : ℝ) : ℂ) ≠ 0 := by exact_mod_cast (Real.sqrt_pos.2 two_pos).ne'
  have x22 : ((√2 : ℝ) : ℂ) ^ 2 = 2 := by rw [← Complex.ofReal_pow, Real.sq_sqrt two_pos.le]; norm_num
  push_cast
  field_simp
  first | ring1 | (ring_nf; simp only [x22]; ring1)
set_option maxRecDepth 8000 in
theorem eeWW.amp2_eq (N : Env) (f : Nat → List Int → ℂ) : Cls.eeWW.m_amp2.mean N f .r [] =
    ((sumJ (fun x a => (sumJ (fun x b => (sumV (fun x c => (sumV (fun x d => (x + (‖(f 0 [a, b, c, d])‖ ^ 2))) x)) x)) x)) ((0 : Nat) : ℝ)) / ((4 : Nat) : ℝ)) := by rfl
set_option maxRecDepth 8000 in
theorem eeWW.value (N : Env) : meaning N .r Cls.eeWW.methods Cls.eeWW.amp2 [] =
    ((sumJ (fun x a => (sumJ (fun x b => (sumV (fun x c => (sumV (fun x d => (x + (‖(Cls.eeWW.m_amp.mean N (callMean N []) .c [a, b, c, d])‖ ^ 2))) x)) x)) x)) ((0 : Nat) : ℝ)) / ((4 : Nat) : ℝ)) :=
  eeWW.amp2_eq N (callMean N [Cls.eeWW.m_amp])
set_option maxRecDepth 8000 in
theorem eeWW.term_lin (N : Env) (w : ℝ) (x : ℂ) (j1 j2 a2 b2 a3 b3 : Int) : eeWW.term N w x j1 j2 a2 b2 a3 b3 = x + (w : ℂ) * eeWW.term N 1 0 j1 j2 a2 b2 a3 b3 := by
  simp only [eeWW.term]; push_cast; ring
theorem eeWW.amp_eq (N : Env) (f : Nat → List Int → ℂ) (j1 j2 : Int) (t2 t3 : Fin 3) : Cls.eeWW.m_amp.mean N f .c [j1, j2, spinV t2, spinV t3] = comb t2 (fun a2 b2 => comb t3 (fun a3 b3 => eeWW.term N 1 0 j1 j2 (spinOf a2) (spinOf b2) (spinOf a3) (spinOf b3))) := by
  refine (amp_mean N f (m := 4) (K := 8) (G := fun i => eeWW.term N 1 0 (i 0) (i 1) (i 4) (i 5) (i 6) (i 7)) (fun l => ?_) (fun i i' h => ?_) rfl (by decide) (by decide) (by decide) (by decide) (by decide)).trans ?_
  · refine ⟨_, rfl, ?_⟩; exact ⟨rfl, rfl, eeWW.term_lin ..⟩
  · simp only [h 0 (by decide), h 1 (by decide), h 4 (by decide), h 5 (by decide), h 6 (by decide), h 7 (by decide)]
  · show amp' _ [spinV t2, spinV t3] = _
    simp only [amp'_comb, amp'_nil]
    rfl
theorem eeWW.form_x2 (N : Env) (p : Nat → V4 ℝ) (z0 z1 y2 x3 y3 x y : Pair) : eeWW.form N p z0 z1 (x + y) y2 x3 y3 = eeWW.form N p z0 z1 x y2 x3 y3 + eeWW.form N p z0 z1 y y2 x3 y3 := by
  simp only [eeWW.form, Prod.fst_add, Prod.snd_add, ab_add_left, ab_add_right, sb_add_left, sb_add_right, mb_add_left, mb_add_right]
  ring
theorem eeWW.form_y2 (N : Env) (p : Nat → V4 ℝ) (z0 z1 x2 x3 y3 x y : Pair) : eeWW.form N p z0 z1 x2 (x + y) x3 y3 = eeWW.form N p z0 z1 x2 x x3 y3 + eeWW.form N p z0 z1 x2 y x3 y3 := by
  simp only [eeWW.form, Prod.fst_add, Prod.snd_add, ab_add_left, ab_add_right, sb_add_left, sb_add_right, mb_add_left, mb_add_right]
  ring
theorem eeWW.form_x3 (N : Env) (p : Nat → V4 ℝ) (z0 z1 x2 y2 y3 x y : Pair) : eeWW.form N p z0 z1 x2 y2 (x + y) y3 = eeWW.form N p z0 z1 x2 y2 x y3 + eeWW.form N p z0 z1 x2 y2 y y3 := by
  simp only [eeWW.form, Prod.fst_add, Prod.snd_add, ab_add_left, ab_add_right, sb_add_left, sb_add_right, mb_add_left, mb_add_right]
  ring
theorem eeWW.form_y3 (N : Env) (p : Nat → V4 ℝ) (z0 z1 x2 y2 x3 x y : Pair) : eeWW.form N p z0 z1 x2 y2 x3 (x + y) = eeWW.form N p z0 z1 x2 y2 x3 x + eeWW.form N p z0 z1 x2 y2 x3 y := by
  simp only [eeWW.form, Prod.fst_add, Prod.snd_add, ab_add_left, ab_add_right, sb_add_left, sb_add_right, mb_add_left, mb_add_right]
  ring

theorem eeWW.mass_eq {c : Constants} (hc : c.Physical) (i : Fin 4) : eeWW.proc.massNum (eeWW.rho c) i = eeWW.react.mass c i := by
  fin_cases i <;> first | rfl | exact Nat.cast_zero.trans (hc.neutrino _).symm | (show c.MW / √(((1 : Nat) : ℝ) - c.SW * c.SW) = c.MZ; rw [c.root, c.mz])

variable [FPEnv] in
theorem eeWW.agrees : eeWW.Agrees := by
  refine agrees_of (D := [4, 5]) (E := [5]) (by simp [all, eeWW]) (by decide +kernel) (by decide) (by decide +kernel) (fun c hc hh => ⟨List.forall_mem_cons.2 ⟨hc.MW, List.forall_mem_cons.2 ⟨hc.SW, List.forall_mem_nil _⟩⟩, List.forall_mem_cons.2 ⟨hc.SW_lt, List.forall_mem_nil _⟩⟩) (fun c hc i => eeWW.mass_eq hc i) (by decide +kernel) ?_
  intro c p u ε hc hh hw h0 hs hb hr hu
  have he : eeWW.react.ends = [1] := by decide
  have ht : eeWW.react.starts = [0] := by decide
  have hB : eeWW.react.bosons = [2, 3] := by decide
  have hM : eeWW.react.allMassive = true := by decide
  obtain ⟨f1, f2, f3⟩ := eeWW.react.regular_line he ht hB hr
  have r0 : (eeWW.N c p).r 0 = c.e := rfl
  have r1 : (eeWW.N c p).r 1 = (c.mass .e) := rfl
  have r4 : (eeWW.N c p).r 4 = c.MW := rfl
  have r10 : (eeWW.N c p).r 10 = ((c.e * c.e) / (((c.MW * c.MW) * c.SW) * c.SW)) := rfl
  have r11 : (eeWW.N c p).r 11 = (((c.e * c.e) * (c.mass .e)) / ((((((2 : Nat) : ℝ) * c.MW) * c.MW) * c.SW) * c.SW)) := rfl
  have r12 : (eeWW.N c p).r 12 = ((c.e * c.e) / ((((((2 : Nat) : ℝ) * c.MW) * c.MW) * c.SW) * c.SW)) := rfl
  have r13 : (eeWW.N c p).r 13 = (((((2 : Nat) : ℝ) * c.SW) * c.SW) - ((1 : Nat) : ℝ)) := rfl
  have r14 : (eeWW.N c p).r 14 = ((((2 : Nat) : ℝ) * c.SW) * c.SW) := rfl
  have c0 : (eeWW.N c p).c 0 = poleDist c.MH c.WH ((VExp.add 0 1).sum p) := rfl
  rw [pole_congr (msq_s hb (plus (backward (p 2)) (backward (p 3))) (by simp)).symm] at c0
  have d0 : pole c.MH c.WH (plus (backward (p 2)) (backward (p 3))) = (eeWW.N c p).c 0 := by rw [c0]
  have n0 : (eeWW.N c p).c 0 ≠ 0 := by rw [← d0]; exact star_ne_zero.2 (f3 .higgs rfl rfl)
  have c2 : (eeWW.N c p).c 2 = poleDist ((0 : Nat) : ℝ) ((0 : Nat) : ℝ) ((VExp.sub 0 3).sum p) := rfl
  rw [Nat.cast_zero, pole_fermion (msq_u hb (plus (p 0) (backward (p 3))) (by simp))] at c2
  have d2 : ((msq (plus (p 0) (backward (p 3))) - c.mass .ne ^ 2 : ℝ) : ℂ) = (eeWW.N c p).c 2 := by rw [c2, show c.mass .ne = 0 from hc.neutrino _]
  have n2 : (eeWW.N c p).c 2 ≠ 0 := by rw [← d2]; exact_mod_cast f2 .ne rfl rfl
  have c3 : (eeWW.N c p).c 3 = poleDist (c.MW / √((((1 : Nat) : ℝ) - (c.SW * c.SW)))) c.WZ ((VExp.add 0 1).sum p) := rfl
  rw [c.root, c.mz, pole_congr (msq_s hb (plus (backward (p 2)) (backward (p 3))) (by simp)).symm] at c3
  have d3 : pole c.MZ c.WZ (plus (backward (p 2)) (backward (p 3))) = (eeWW.N c p).c 3 := by rw [c3]
  have n3 : (eeWW.N c p).c 3 ≠ 0 := by rw [← d3]; exact star_ne_zero.2 (f3 .z rfl rfl)
  have c4 : (eeWW.N c p).c 4 = poleDist ((0 : Nat) : ℝ) ((0 : Nat) : ℝ) ((VExp.add 0 1).sum p) := rfl
  rw [Nat.cast_zero, pole_congr (msq_s hb (plus (backward (p 2)) (backward (p 3))) (by simp)).symm] at c4
  have d4 : pole 0 0 (plus (backward (p 2)) (backward (p 3))) = (eeWW.N c p).c 4 := by rw [c4]
  have n4 : (eeWW.N c p).c 4 ≠ 0 := by rw [← d4]; exact star_ne_zero.2 (f3 .photon rfl rfl)
  have m0 : eeWW.react.mass c 0 ≠ 0 := (leg_pos hc hh (by decide)).ne'
  have m1 : eeWW.react.mass c 1 ≠ 0 := (leg_pos hc hh (by decide)).ne'
  have m2 : eeWW.react.mass c 2 ≠ 0 := (leg_pos hc hh (by decide)).ne'
  have m3 : eeWW.react.mass c 3 ≠ 0 := (leg_pos hc hh (by decide)).ne'
  have hd : eeWW.proc.divides = [(Ty.c, 0), (Ty.c, 2), (Ty.r, 4), (Ty.c, 4), (Ty.c, 3)] := by decide +kernel
  refine ⟨fun n hn => ?_, fun n hn => ?_, ?_⟩
  · simp [hd] at hn
    rcases hn with rfl
    · rw [r4]; exact hc.MW
  · simp [hd] at hn
    rcases hn with rfl | rfl | rfl | rfl
    · exact n0
    · exact n2
    · exact n4
    · exact n3
  have st : ∀ {z0 z1 : Pair} (b0 : Bold (p 0) (eeWW.react.mass c 0) z0) (b1 : Bold (p 1) (eeWW.react.mass c 1) z1) (t2 t3 : Fin 3), comb t2 (fun a2 b2 => comb t3 (fun a3 b3 => eeWW.form (eeWW.N c p) p z0 z1 (eeWW.react.codePair c p 2 a2) (eeWW.react.codePair c p 2 b2) (eeWW.react.codePair c p 3 a3) (eeWW.react.codePair c p 3 b3))) = 1 * eeWW.react.bare c p 1 0 2 3 z1 z0 (eeWW.react.codeVec c p 2 t2) (eeWW.react.codeVec c p 3 t3) := by
    intro z0 z1 b0 b1 t2 t3
    refine two_vectors (p := p 2) (p' := p 3) (m := eeWW.react.mass c 2) (m' := eeWW.react.mass c 3) (fun s => eeWW.react.codePair_bold hs h0 2 s) (fun s => eeWW.react.codePair_bold hs h0 3 s) (B := fun x y x' y' => eeWW.form (eeWW.N c p) p z0 z1 x y x' y') (G := fun E F => eeWW.react.bare c p 1 0 2 3 z1 z0 E F) (fun _ _ _ _ _ => ?_) (fun _ _ _ _ _ => ?_) (fun _ _ _ _ _ => ?_) (fun _ _ _ _ _ => ?_) (fun F => eeWW.react.bare_lin₁ c p _ _ _ (by decide)) (fun E => eeWW.react.bare_lin₂ c p _ _ _ (by decide)) 1 (fun z2 z3 b2 b3 => ?_) t2 t3
    · exact eeWW.form_x2 ..
    · exact eeWW.form_y2 ..
    · exact eeWW.form_x3 ..
    · exact eeWW.form_y3 ..
    · rw [one_mul]; exact eeWW.key hc hb r0 r1 r4 r10 r11 r12 r13 r14 d0 n0 d2 n2 d3 n3 d4 n4 b0 b1 b2 b3 (onShell_msq (hs 2)) (onShell_msq (hs 3)) 
  have am : ∀ (s0 : Fin 2) (s1 : Fin 2) (t2 t3 : Fin 3), Cls.eeWW.m_amp.mean (eeWW.N c p) (callMean (eeWW.N c p) []) .c [spinOf s0, spinOf s1, spinV t2, spinV t3] = 1 * eeWW.react.bare c p 1 0 2 3 (eeWW.react.codePair c p 1 s1) (eeWW.react.codePair c p 0 s0) (eeWW.react.codeVec c p 2 t2) (eeWW.react.codeVec c p 3 t3) := by
    intro s0 s1 t2 t3
    rw [eeWW.amp_eq, ← st (eeWW.react.codePair_bold hs h0 0 s0) (eeWW.react.codePair_bold hs h0 1 s1) t2 t3]
    refine congrArg (comb t2) (funext fun a2 => funext fun b2 => ?_)
    refine congrArg (comb t3) (funext fun a3 => funext fun b3 => ?_)
    have v6x2x3 : (eeWW.N c p).v 6 [spinOf a2, spinOf a3] = sb (eeWW.react.codePair c p 2 a2).2 (eeWW.react.codePair c p 3 a3).2 := bra_square (p := p) (m := eeWW.proc.massNum (eeWW.rho c)) (eeWW.mass_eq hc 2) (eeWW.mass_eq hc 3) (.inl ⟨m2, rfl⟩) (.inl ⟨m3, rfl⟩)
    have v7y2y3 : (eeWW.N c p).v 7 [spinOf b2, spinOf b3] = ab (eeWW.react.codePair c p 2 b2).1 (eeWW.react.codePair c p 3 b3).1 := bra_angle (p := p) (m := eeWW.proc.massNum (eeWW.rho c)) (eeWW.mass_eq hc 2) (eeWW.mass_eq hc 3) (.inl ⟨m2, rfl⟩) (.inl ⟨m3, rfl⟩)
    have v0z0z1 : (eeWW.N c p).v 0 [spinOf s0, spinOf s1] = sb (eeWW.react.codePair c p 0 s0).2 (eeWW.react.codePair c p 1 s1).2 := bra_square (p := p) (m := eeWW.proc.massNum (eeWW.rho c)) (eeWW.mass_eq hc 0) (eeWW.mass_eq hc 1) (.inl ⟨m0, rfl⟩) (.inl ⟨m1, rfl⟩)
    have v1z0z1 : (eeWW.N c p).v 1 [spinOf s0, spinOf s1] = ab (eeWW.react.codePair c p 0 s0).1 (eeWW.react.codePair c p 1 s1).1 := bra_angle (p := p) (m := eeWW.proc.massNum (eeWW.rho c)) (eeWW.mass_eq hc 0) (eeWW.mass_eq hc 1) (.inl ⟨m0, rfl⟩) (.inl ⟨m1, rfl⟩)
    have v2z1x2 : (eeWW.N c p).v 2 [spinOf s1, spinOf a2] = sb (eeWW.react.codePair c p 1 s1).2 (eeWW.react.codePair c p 2 a2).2 := bra_square (p := p) (m := eeWW.proc.massNum (eeWW.rho c)) (eeWW.mass_eq hc 1) (eeWW.mass_eq hc 2) (.inl ⟨m1, rfl⟩) (.inl ⟨m2, rfl⟩)
    have v11z0x3 : (eeWW.N c p).v 11 [spinOf s0, spinOf a3] = ab (eeWW.react.codePair c p 0 s0).1 (eeWW.react.codePair c p 3 a3).1 := bra_angle (p := p) (m := eeWW.proc.massNum (eeWW.rho c)) (eeWW.mass_eq hc 0) (eeWW.mass_eq hc 3) (.inl ⟨m0, rfl⟩) (.inl ⟨m3, rfl⟩)
    have v12y3y2 : (eeWW.N c p).v 12 [spinOf b3, spinOf b2] = mb (eeWW.react.codePair c p 3 b3).2 (p 0) (eeWW.react.codePair c p 2 b2).1 := bra_mid_square (p := p) (m := eeWW.proc.massNum (eeWW.rho c)) (eeWW.mass_eq hc 3) (eeWW.mass_eq hc 2) (.inl ⟨m3, rfl⟩) (.inl ⟨m2, rfl⟩)
    have v5z0x2 : (eeWW.N c p).v 5 [spinOf s0, spinOf a2] = ab (eeWW.react.codePair c p 0 s0).1 (eeWW.react.codePair c p 2 a2).1 := bra_angle (p := p) (m := eeWW.proc.massNum (eeWW.rho c)) (eeWW.mass_eq hc 0) (eeWW.mass_eq hc 2) (.inl ⟨m0, rfl⟩) (.inl ⟨m2, rfl⟩)
    have v8z1x3 : (eeWW.N c p).v 8 [spinOf s1, spinOf a3] = sb (eeWW.react.codePair c p 1 s1).2 (eeWW.react.codePair c p 3 a3).2 := bra_square (p := p) (m := eeWW.proc.massNum (eeWW.rho c)) (eeWW.mass_eq hc 1) (eeWW.mass_eq hc 3) (.inl ⟨m1, rfl⟩) (.inl ⟨m3, rfl⟩)
    have v4z0x2 : (eeWW.N c p).v 4 [spinOf s0, spinOf a2] = sb (eeWW.react.codePair c p 0 s0).2 (eeWW.react.codePair c p 2 a2).2 := bra_square (p := p) (m := eeWW.proc.massNum (eeWW.rho c)) (eeWW.mass_eq hc 0) (eeWW.mass_eq hc 2) (.inl ⟨m0, rfl⟩) (.inl ⟨m2, rfl⟩)
    have v9z1x3 : (eeWW.N c p).v 9 [spinOf s1, spinOf a3] = ab (eeWW.react.codePair c p 1 s1).1 (eeWW.react.codePair c p 3 a3).1 := bra_angle (p := p) (m := eeWW.proc.massNum (eeWW.rho c)) (eeWW.mass_eq hc 1) (eeWW.mass_eq hc 3) (.inl ⟨m1, rfl⟩) (.inl ⟨m3, rfl⟩)
    have v10z0x3 : (eeWW.N c p).v 10 [spinOf s0, spinOf a3] = sb (eeWW.react.codePair c p 0 s0).2 (eeWW.react.codePair c p 3 a3).2 := bra_square (p := p) (m := eeWW.proc.massNum (eeWW.rho c)) (eeWW.mass_eq hc 0) (eeWW.mass_eq hc 3) (.inl ⟨m0, rfl⟩) (.inl ⟨m3, rfl⟩)
    have v3z1x2 : (eeWW.N c p).v 3 [spinOf s1, spinOf a2] = ab (eeWW.react.codePair c p 1 s1).1 (eeWW.react.codePair c p 2 a2).1 := bra_angle (p := p) (m := eeWW.proc.massNum (eeWW.rho c)) (eeWW.mass_eq hc 1) (eeWW.mass_eq hc 2) (.inl ⟨m1, rfl⟩) (.inl ⟨m2, rfl⟩)
    have v6y2y3 : (eeWW.N c p).v 6 [spinOf b2, spinOf b3] = sb (eeWW.react.codePair c p 2 b2).2 (eeWW.react.codePair c p 3 b3).2 := bra_square (p := p) (m := eeWW.proc.massNum (eeWW.rho c)) (eeWW.mass_eq hc 2) (eeWW.mass_eq hc 3) (.inl ⟨m2, rfl⟩) (.inl ⟨m3, rfl⟩)
    have v13z1z0 : (eeWW.N c p).v 13 [spinOf s1, spinOf s0] = mb (eeWW.react.codePair c p 1 s1).2 (p 2) (eeWW.react.codePair c p 0 s0).1 := bra_mid_square (p := p) (m := eeWW.proc.massNum (eeWW.rho c)) (eeWW.mass_eq hc 1) (eeWW.mass_eq hc 0) (.inl ⟨m1, rfl⟩) (.inl ⟨m0, rfl⟩)
    have v14z0z1 : (eeWW.N c p).v 14 [spinOf s0, spinOf s1] = mb (eeWW.react.codePair c p 0 s0).2 (p 2) (eeWW.react.codePair c p 1 s1).1 := bra_mid_square (p := p) (m := eeWW.proc.massNum (eeWW.rho c)) (eeWW.mass_eq hc 0) (eeWW.mass_eq hc 1) (.inl ⟨m0, rfl⟩) (.inl ⟨m1, rfl⟩)
    have v7x2x3 : (eeWW.N c p).v 7 [spinOf a2, spinOf a3] = ab (eeWW.react.codePair c p 2 a2).1 (eeWW.react.codePair c p 3 a3).1 := bra_angle (p := p) (m := eeWW.proc.massNum (eeWW.rho c)) (eeWW.mass_eq hc 2) (eeWW.mass_eq hc 3) (.inl ⟨m2, rfl⟩) (.inl ⟨m3, rfl⟩)
    have v2z1y2 : (eeWW.N c p).v 2 [spinOf s1, spinOf b2] = sb (eeWW.react.codePair c p 1 s1).2 (eeWW.react.codePair c p 2 b2).2 := bra_square (p := p) (m := eeWW.proc.massNum (eeWW.rho c)) (eeWW.mass_eq hc 1) (eeWW.mass_eq hc 2) (.inl ⟨m1, rfl⟩) (.inl ⟨m2, rfl⟩)
    have v11z0y3 : (eeWW.N c p).v 11 [spinOf s0, spinOf b3] = ab (eeWW.react.codePair c p 0 s0).1 (eeWW.react.codePair c p 3 b3).1 := bra_angle (p := p) (m := eeWW.proc.massNum (eeWW.rho c)) (eeWW.mass_eq hc 0) (eeWW.mass_eq hc 3) (.inl ⟨m0, rfl⟩) (.inl ⟨m3, rfl⟩)
    have v8z1y3 : (eeWW.N c p).v 8 [spinOf s1, spinOf b3] = sb (eeWW.react.codePair c p 1 s1).2 (eeWW.react.codePair c p 3 b3).2 := bra_square (p := p) (m := eeWW.proc.massNum (eeWW.rho c)) (eeWW.mass_eq hc 1) (eeWW.mass_eq hc 3) (.inl ⟨m1, rfl⟩) (.inl ⟨m3, rfl⟩)
    have v5z0y2 : (eeWW.N c p).v 5 [spinOf s0, spinOf b2] = ab (eeWW.react.codePair c p 0 s0).1 (eeWW.react.codePair c p 2 b2).1 := bra_angle (p := p) (m := eeWW.proc.massNum (eeWW.rho c)) (eeWW.mass_eq hc 0) (eeWW.mass_eq hc 2) (.inl ⟨m0, rfl⟩) (.inl ⟨m2, rfl⟩)
    have v4z0y2 : (eeWW.N c p).v 4 [spinOf s0, spinOf b2] = sb (eeWW.react.codePair c p 0 s0).2 (eeWW.react.codePair c p 2 b2).2 := bra_square (p := p) (m := eeWW.proc.massNum (eeWW.rho c)) (eeWW.mass_eq hc 0) (eeWW.mass_eq hc 2) (.inl ⟨m0, rfl⟩) (.inl ⟨m2, rfl⟩)
    have v9z1y3 : (eeWW.N c p).v 9 [spinOf s1, spinOf b3] = ab (eeWW.react.codePair c p 1 s1).1 (eeWW.react.codePair c p 3 b3).1 := bra_angle (p := p) (m := eeWW.proc.massNum (eeWW.rho c)) (eeWW.mass_eq hc 1) (eeWW.mass_eq hc 3) (.inl ⟨m1, rfl⟩) (.inl ⟨m3, rfl⟩)
    have v10z0y3 : (eeWW.N c p).v 10 [spinOf s0, spinOf b3] = sb (eeWW.react.codePair c p 0 s0).2 (eeWW.react.codePair c p 3 b3).2 := bra_square (p := p) (m := eeWW.proc.massNum (eeWW.rho c)) (eeWW.mass_eq hc 0) (eeWW.mass_eq hc 3) (.inl ⟨m0, rfl⟩) (.inl ⟨m3, rfl⟩)
    have v3z1y2 : (eeWW.N c p).v 3 [spinOf s1, spinOf b2] = ab (eeWW.react.codePair c p 1 s1).1 (eeWW.react.codePair c p 2 b2).1 := bra_angle (p := p) (m := eeWW.proc.massNum (eeWW.rho c)) (eeWW.mass_eq hc 1) (eeWW.mass_eq hc 2) (.inl ⟨m1, rfl⟩) (.inl ⟨m2, rfl⟩)
    simp only [eeWW.term, eeWW.form, v6x2x3, v7y2y3, v0z0z1, v1z0z1, v2z1x2, v11z0x3, v12y3y2, v5z0x2, v8z1x3, v4z0x2, v9z1x3, v10z0x3, v3z1x2, v6y2y3, v13z1z0, v14z0z1, v7x2x3, v2z1y2, v11z0y3, v8z1y3, v5z0y2, v4z0y2, v9z1y3, v10z0y3, v3z1y2]
    push_cast
    ring
  show meaning (eeWW.N c p) .r Cls.eeWW.methods Cls.eeWW.amp2 [] = _
  have lc : eeWW.react.lineColours 1 0 = 1 := by decide +kernel
  have s0 : eeWW.react.states 0 = 2 := by decide
  have s1 : eeWW.react.states 1 = 2 := by decide
  have sy : eeWW.react.symmetry = 1 := by decide
  have p0 : eeWW.react.spins 0 = {0, 1} := rfl
  have p1 : eeWW.react.spins 1 = {0, 1} := rfl
  have p2 : eeWW.react.spins 2 = Finset.univ := rfl
  have p3 : eeWW.react.spins 3 = Finset.univ := rfl
  rw [eeWW.value, eeWW.react.squared_line he ht hB (noGluon_of hM) hs h0 (fun _ b _ hb _ => (boson_pos hc hh hb).ne') (eeWW.react.gauge_massive (massive_of hM)) (E := eeWW.react.codeVec c p) (fun n b hl => eeWW.react.codeVec_polarised hs h0 hl (massive_of hM n b hl) (fun _ => (boson_pos hc hh (massive_of hM n b hl)).ne')) hu, sum_colours, lc, s0, s1, sy]
  simp only [sumV_sum, sumJ_sum, am, norm_mul, norm_neg, norm_one, one_mul, p0, p1, p2, p3, Finset.sum_singleton, sum_two, Matrix.cons_val_zero, Matrix.cons_val_one, Matrix.cons_val, two_castSucc]
  try simp only [← Finset.mul_sum]
  push_cast
  first | ring1 | ring_nf

/-! ### ddWW -/

/-- what the methods of the class see -/
noncomputable abbrev ddWW.N [FPEnv] (c : Constants) (p : Nat → V4 ℝ) : Env := ddWW.proc.env (ddWW.rho c) p
/-- the term that `amp` adds for a choice of spinors (SM/ddWW.cpp) -/
noncomputable def ddWW.term (N : Env) (w : ℝ) (x : ℂ) (j1 j2 a2 b2 a3 b3 : Int) : ℂ :=
  ((((x + (((((((w * N.r 13) : ℝ) : ℂ) * N.v 6 [a2, a3]) * N.v 7 [b2, b3]) * (N.v 0 [j1, j2] + N.v 1 [j1, j2])) / N.c 0)) + ((((((((-w) * N.r 12) : ℝ) : ℂ) * N.v 9 [j2, a3]) * N.v 4 [j1, a2]) * (((((-N.r 6) : ℝ) : ℂ) * N.v 6 [b2, b3]) + N.v 12 [b3, b2])) / N.c 1)) + ((((((((((((-w) * N.r 0) * N.r 0) * N.r 1) * ((2 : Nat) : ℝ)) / N.r 6) : ℝ) : ℂ) * ((((N.v 5 [j1, a2] * N.v 8 [j2, a3]) + (N.v 4 [j1, a2] * N.v 9 [j2, a3])) + (N.v 11 [j1, a3] * N.v 2 [j2, a2])) + (N.v 10 [j1, a3] * N.v 3 [j2, a2]))) * (N.v 6 [b2, b3] + N.v 7 [b2, b3])) / N.c 4) - ((((((((((w * N.r 0) * N.r 0) * N.r 1) * ((2 : Nat) : ℝ)) / N.r 6) / N.r 6) : ℝ) : ℂ) * ((N.v 6 [a2, a3] * N.v 7 [b2, b3]) * (N.v 14 [j2, j1] + N.v 15 [j1, j2]))) / N.c 4))) + (((((w * N.r 14) : ℝ) : ℂ) * (((((((((N.r 16 - N.r 15) * N.r 3) : ℝ) : ℂ) * N.v 6 [a2, a3]) * N.v 7 [b2, b3]) * (N.v 0 [j1, j2] - N.v 1 [j1, j2])) - (((((((2 : Nat) : ℝ) : ℝ) : ℂ) * N.v 6 [a2, a3]) * N.v 7 [b2, b3]) * ((((N.r 16 : ℝ) : ℂ) * N.v 14 [j2, j1]) + (((N.r 15 : ℝ) : ℂ) * N.v 15 [j1, j2])))) - (((((((2 : Nat) : ℝ) * N.r 6) : ℝ) : ℂ) * (N.v 6 [a2, a3] + N.v 7 [a2, a3])) * ((((N.r 16 : ℝ) : ℂ) * ((N.v 2 [j2, b2] * N.v 11 [j1, b3]) + (N.v 8 [j2, b3] * N.v 5 [j1, b2]))) + (((N.r 15 : ℝ) : ℂ) * ((N.v 4 [j1, b2] * N.v 9 [j2, b3]) + (N.v 10 [j1, b3] * N.v 3 [j2, b2]))))))) / N.c 3))
/-- the same with spinors in place of their spins -/
noncomputable def ddWW.form (N : Env) (p : Nat → V4 ℝ) (z0 z1 x2 y2 x3 y3 : Pair) : ℂ :=
  ((((0 + (((((((((1 : Nat) : ℝ) * N.r 13) : ℝ) : ℂ) * (sb x2.2 x3.2)) * (ab y2.1 y3.1)) * ((sb z0.2 z1.2) + (ab z0.1 z1.1))) / N.c 0)) + ((((((((-((1 : Nat) : ℝ)) * N.r 12) : ℝ) : ℂ) * (ab z1.1 x3.1)) * (sb z0.2 x2.2)) * (((((-N.r 6) : ℝ) : ℂ) * (sb y2.2 y3.2)) + (mb y3.2 (p 0) y2.1))) / N.c 1)) + ((((((((((((-((1 : Nat) : ℝ)) * N.r 0) * N.r 0) * N.r 1) * ((2 : Nat) : ℝ)) / N.r 6) : ℝ) : ℂ) * (((((ab z0.1 x2.1) * (sb z1.2 x3.2)) + ((sb z0.2 x2.2) * (ab z1.1 x3.1))) + ((ab z0.1 x3.1) * (sb z1.2 x2.2))) + ((sb z0.2 x3.2) * (ab z1.1 x2.1)))) * ((sb y2.2 y3.2) + (ab y2.1 y3.1))) / N.c 4) - ((((((((((((1 : Nat) : ℝ) * N.r 0) * N.r 0) * N.r 1) * ((2 : Nat) : ℝ)) / N.r 6) / N.r 6) : ℝ) : ℂ) * (((sb x2.2 x3.2) * (ab y2.1 y3.1)) * ((mb z1.2 (p 2) z0.1) + (mb z0.2 (p 2) z1.1)))) / N.c 4))) + (((((((1 : Nat) : ℝ) * N.r 14) : ℝ) : ℂ) * (((((((((N.r 16 - N.r 15) * N.r 3) : ℝ) : ℂ) * (sb x2.2 x3.2)) * (ab y2.1 y3.1)) * ((sb z0.2 z1.2) - (ab z0.1 z1.1))) - (((((((2 : Nat) : ℝ) : ℝ) : ℂ) * (sb x2.2 x3.2)) * (ab y2.1 y3.1)) * ((((N.r 16 : ℝ) : ℂ) * (mb z1.2 (p 2) z0.1)) + (((N.r 15 : ℝ) : ℂ) * (mb z0.2 (p 2) z1.1))))) - (((((((2 : Nat) : ℝ) * N.r 6) : ℝ) : ℂ) * ((sb x2.2 x3.2) + (ab x2.1 x3.1))) * ((((N.r 16 : ℝ) : ℂ) * (((sb z1.2 y2.2) * (ab z0.1 y3.1)) + ((sb z1.2 y3.2) * (ab z0.1 y2.1)))) + (((N.r 15 : ℝ) : ℂ) * (((sb z0.2 y2.2) * (ab z1.1 y3.1)) + ((sb z0.2 y3.2) * (ab z1.1 y2.1)))))))) / N.c 3))
theorem ddWW.key {c : Constants} {p : Nat → V4 ℝ} {N : Env} (hc : c.Physical) (hb : Balanced p) (r0 : N.r 0 = c.e) (r1 : N.r 1 = ((-((1 : Nat) : ℝ)) / ((3 : Nat) : ℝ))) (r3 : N.r 3 = (c.mass .d)) (r6 : N.r 6 = c.MW) (r12 : N.r 12 = (((((2 : Nat) : ℝ) * c.e) * c.e) / ((((((2 : Nat) : ℝ) * c.MW) * c.MW) * c.SW) * c.SW))) (r13 : N.r 13 = ((((((2 : Nat) : ℝ) * c.e) * c.e) * (c.mass .d)) / ((((((4 : Nat) : ℝ) * c.MW) * c.MW) * c.SW) * c.SW))) (r14 : N.r 14 = ((c.e * c.e) / ((((((2 : Nat) : ℝ) * c.MW) * c.MW) * c.SW) * c.SW))) (r15 : N.r 15 = (((((-((2 : Nat) : ℝ)) * ((-((1 : Nat) : ℝ)) / ((3 : Nat) : ℝ))) * c.SW) * c.SW) - ((1 : Nat) : ℝ))) (r16 : N.r 16 = ((((-((2 : Nat) : ℝ)) * ((-((1 : Nat) : ℝ)) / ((3 : Nat) : ℝ))) * c.SW) * c.SW)) (d0 : pole c.MH c.WH (plus (backward (p 2)) (backward (p 3))) = N.c 0) (n0 : N.c 0 ≠ 0) (d1 : ((msq (plus (p 1) (backward (p 3))) - c.mass .u ^ 2 : ℝ) : ℂ) = N.c 1) (n1 : N.c 1 ≠ 0) (d3 : pole c.MZ c.WZ (plus (backward (p 2)) (backward (p 3))) = N.c 3) (n3 : N.c 3 ≠ 0) (d4 : pole 0 0 (plus (backward (p 2)) (backward (p 3))) = N.c 4) (n4 : N.c 4 ≠ 0) {z0 z1 z2 z3 : Pair} (b0 : Bold (p 0) (c.mass .d) z0) (b1 : Bold (p 1) (c.mass .d) z1) (b2 : Bold (p 2) c.MW z2) (b3 : Bold (p 3) c.MW z3) (q2 : msq (p 2) = c.MW ^ 2) (q3 : msq (p 3) = c.MW ^ 2) :
    ddWW.form N p z0 z1 z2 z2 z3 z3 = -(((2 / (c.MW * c.MW) : ℝ) : ℂ) * ddWW.react.bare c p 0 1 2 3 z0 z1 (pv z2.1 z2.2) (pv z3.1 z3.2)) := by
  rw [ddWW.react.bare_parts c p (i := 0) (j := 1) (a := 2) (b := 3) (x := .wMinus) (y := .wPlus) (k := (backward (p 2))) (k' := (backward (p 3))) (fun _ => rfl) (fun _ => rfl) (f := .d) (g := .d) rfl rfl (l := (p 1)) rfl (e := -1) (e' := 1) (if_pos rfl) (if_neg Bool.false_ne_true)]
  rw [compton_none (h := by simp [Spec.after, Flavour.d, Flavour.d]), star_zero]
  rw [compton_vv (f := .d) (x := .u) (g := .d) (h := (rfl : Spec.after .wPlus Flavour.d = some Flavour.u)) (h' := (rfl : Spec.after .wMinus Flavour.u = some Flavour.d)) (ha := by simp) (hb := by simp)]
  have an := annihilation_neutral c (-1) (1) z0.1 z0.2 z1.1 z1.2 ⟨.wMinus, (backward (p 2)), pv z2.1 z2.2⟩ ⟨.wPlus, (backward (p 3)), pv z3.1 z3.2⟩ .d
  dsimp only at an
  rw [an, ddWW.form]
  clear an
  have Y2 := b2.back; have Q2 : msq (backward (p 2)) = (-c.MW) ^ 2 := by rw [msq_backward, q2, neg_sq]
  have Y3 := b3.back; have Q3 : msq (backward (p 3)) = (-c.MW) ^ 2 := by rw [msq_backward, q3, neg_sq]
  rw [lineV_massless (hx := (rfl : Boson.massive .photon = false))]
  rw [lineV_massive (hx := (rfl : Boson.massive .z = true))]
  simp only [toHiggs, toVector, higgs2, gauge3, Boson.anti, Constants.bosonMass, Constants.bosonWidth, d0, d1, d3, d4, reduceCtorEq, and_self, and_true, and_false, and_true, if_true, if_false, Complex.ofReal_zero, zero_smul, zero_mul, mul_zero, zero_div, neg_zero, add_zero, zero_add, lineH, lineV_zero, contract_zero, lineV_smul, contract_smul, lineV_yangMills Y2 Y3, four_yangMills Y2 Y3 Q2 Q3, ym, lineV_pv, lineV_four, contract_four_pv, contract_pv, mb_plus, mb_backward]
  simp only [b0.mb_left, b0.mb_right, b1.mb_left, b1.mb_right, b2.mb_left, b2.mb_right, b3.mb_left, b3.mb_right, mb_three hb z0.2 z0.1, mb_three hb z0.2 z1.1, mb_three hb z0.2 z2.1, mb_two hb z0.2 z3.1, mb_three hb z1.2 z0.1, mb_three hb z1.2 z1.1, mb_three hb z1.2 z2.1, mb_two hb z1.2 z3.1, mb_three hb z2.2 z0.1, mb_three hb z2.2 z1.1, mb_three hb z2.2 z2.1, mb_one hb z2.2 z3.1, mb_two hb z3.2 z0.1, mb_two hb z3.2 z1.1, mb_one hb z3.2 z2.1, mb_two hb z3.2 z3.1, ab_self, sb_self]
  simp only [ab_swap z0.1 z1.1, sb_swap z0.2 z1.2, ab_swap z0.1 z2.1, sb_swap z0.2 z2.2, ab_swap z0.1 z3.1, sb_swap z0.2 z3.2, ab_swap z1.1 z2.1, sb_swap z1.2 z2.2, ab_swap z1.1 z3.1, sb_swap z1.2 z3.2, ab_swap z2.1 z3.1, sb_swap z2.2 z3.2, r0, r1, r3, r6, r12, r13, r14, r15, r16, Constants.hL, Constants.hR, Constants.gL, Constants.gR, Constants.yuk, Constants.invVev, Flavour.charge_d, Flavour.isospin_d, Flavour.charge_u, Flavour.isospin_u, ← c.mz]
  have xMW : (c.MW : ℂ) ≠ 0 := by exact_mod_cast hc.MW
  have xSW : (c.SW : ℂ) ≠ 0 := by exact_mod_cast hc.SW
  have xCW : (c.CW : ℂ) ≠ 0 := by exact_mod_cast hc.CW
  have x2 : ((√2 : ℝ) : ℂ) ≠ 0 := by exact_mod_cast (Real.sqrt_pos.2 two_pos).ne'
  have x22 : ((√2 : ℝ) : ℂ) ^ 2 = 2 := by rw [← Complex.ofReal_pow, Real.sq_sqrt two_pos.le]; norm_num
  push_cast
  field_simp
  first | ring1 | (ring_nf; simp only [x22]; ring1)
set_option maxRecDepth 8000 in
theorem ddWW.amp2_eq (N : Env) (f : Nat → List Int → ℂ) : Cls.ddWW.m_amp2.mean N f .r [] =
    ((sumJ (fun x a => (sumJ (fun x b => (sumV (fun x c => (sumV (fun x d => (x + (((3 : Nat) : ℝ) * (‖(f 0 [a, b, c, d])‖ ^ 2)))) x)) x)) x)) ((0 : Nat) : ℝ)) / ((36 : Nat) : ℝ)) := by rfl
set_option maxRecDepth 8000 in
theorem ddWW.value (N : Env) : meaning N .r Cls.ddWW.methods Cls.ddWW.amp2 [] =
    ((sumJ (fun x a => (sumJ (fun x b => (sumV (fun x c => (sumV (fun x d => (x + (((3 : Nat) : ℝ) * (‖(Cls.ddWW.m_amp.mean N (callMean N []) .c [a, b, c, d])‖ ^ 2)))) x)) x)) x)) ((0 : Nat) : ℝ)) / ((36 : Nat) : ℝ)) :=
  ddWW.amp2_eq N (callMean N [Cls.ddWW.m_amp])
set_option maxRecDepth 8000 in
theorem ddWW.term_lin (N : Env) (w : ℝ) (x : ℂ) (j1 j2 a2 b2 a3 b3 : Int) : ddWW.term N w x j1 j2 a2 b2 a3 b3 = x + (w : ℂ) * ddWW.term N 1 0 j1 j2 a2 b2 a3 b3 := by
  simp only [ddWW.term]; push_cast; ring
theorem ddWW.amp_eq (N : Env) (f : Nat → List Int → ℂ) (j1 j2 : Int) (t2 t3 : Fin 3) : Cls.ddWW.m_amp.mean N f .c [j1, j2, spinV t2, spinV t3] = comb t2 (fun a2 b2 => comb t3 (fun a3 b3 => ddWW.term N 1 0 j1 j2 (spinOf a2) (spinOf b2) (spinOf a3) (spinOf b3))) := by
  refine (amp_mean N f (m := 4) (K := 8) (G := fun i => ddWW.term N 1 0 (i 0) (i 1) (i 4) (i 5) (i 6) (i 7)) (fun l => ?_) (fun i i' h => ?_) rfl (by decide) (by decide) (by decide) (by decide) (by decide)).trans ?_
  · refine ⟨_, rfl, ?_⟩; exact ⟨rfl, rfl, ddWW.term_lin ..⟩
  · simp only [h 0 (by decide), h 1 (by decide), h 4 (by decide), h 5 (by decide), h 6 (by decide), h 7 (by decide)]
  · show amp' _ [spinV t2, spinV t3] = _
    simp only [amp'_comb, amp'_nil]
    rfl
theorem ddWW.form_x2 (N : Env) (p : Nat → V4 ℝ) (z0 z1 y2 x3 y3 x y : Pair) : ddWW.form N p z0 z1 (x + y) y2 x3 y3 = ddWW.form N p z0 z1 x y2 x3 y3 + ddWW.form N p z0 z1 y y2 x3 y3 := by
  simp only [ddWW.form, Prod.fst_add, Prod.snd_add, ab_add_left, ab_add_right, sb_add_left, sb_add_right, mb_add_left, mb_add_right]
  ring
theorem ddWW.form_y2 (N : Env) (p : Nat → V4 ℝ) (z0 z1 x2 x3 y3 x y : Pair) : ddWW.form N p z0 z1 x2 (x + y) x3 y3 = ddWW.form N p z0 z1 x2 x x3 y3 + ddWW.form N p z0 z1 x2 y x3 y3 := by
  simp only [ddWW.form, Prod.fst_add, Prod.snd_add, ab_add_left, ab_add_right, sb_add_left, sb_add_right, mb_add_left, mb_add_right]
  ring
theorem ddWW.form_x3 (N : Env) (p : Nat → V4 ℝ) (z0 z1 x2 y2 y3 x y : Pair) : ddWW.form N p z0 z1 x2 y2 (x + y) y3 = ddWW.form N p z0 z1 x2 y2 x y3 + ddWW.form N p z0 z1 x2 y2 y y3 := by
  simp only [ddWW.form, Prod.fst_add, Prod.snd_add, ab_add_left, ab_add_right, sb_add_left, sb_add_right, mb_add_left, mb_add_right]
  ring
theorem ddWW.form_y3 (N : Env) (p : Nat → V4 ℝ) (z0 z1 x2 y2 x3 x y : Pair) : ddWW.form N p z0 z1 x2 y2 x3 (x + y) = ddWW.form N p z0 z1 x2 y2 x3 x + ddWW.form N p z0 z1 x2 y2 x3 y := by
  simp only [ddWW.form, Prod.fst_add, Prod.snd_add, ab_add_left, ab_add_right, sb_add_left, sb_add_right, mb_add_left, mb_add_right]
  ring

theorem ddWW.mass_eq {c : Constants} (hc : c.Physical) (i : Fin 4) : ddWW.proc.massNum (ddWW.rho c) i = ddWW.react.mass c i := by
  fin_cases i <;> first | rfl | exact Nat.cast_zero.trans (hc.neutrino _).symm | (show c.MW / √(((1 : Nat) : ℝ) - c.SW * c.SW) = c.MZ; rw [c.root, c.mz])

variable [FPEnv] in
theorem ddWW.agrees : ddWW.Agrees := by
  refine agrees_of (D := [5, 6]) (E := [6]) (by simp [all, ddWW]) (by decide +kernel) (by decide) (by decide +kernel) (fun c hc hh => ⟨List.forall_mem_cons.2 ⟨hc.MW, List.forall_mem_cons.2 ⟨hc.SW, List.forall_mem_nil _⟩⟩, List.forall_mem_cons.2 ⟨hc.SW_lt, List.forall_mem_nil _⟩⟩) (fun c hc i => ddWW.mass_eq hc i) (by decide +kernel) ?_
  intro c p u ε hc hh hw h0 hs hb hr hu
  have he : ddWW.react.ends = [0] := by decide
  have ht : ddWW.react.starts = [1] := by decide
  have hB : ddWW.react.bosons = [2, 3] := by decide
  have hM : ddWW.react.allMassive = true := by decide
  obtain ⟨f1, f2, f3⟩ := ddWW.react.regular_line he ht hB hr
  have r0 : (ddWW.N c p).r 0 = c.e := rfl
  have r1 : (ddWW.N c p).r 1 = ((-((1 : Nat) : ℝ)) / ((3 : Nat) : ℝ)) := rfl
  have r3 : (ddWW.N c p).r 3 = (c.mass .d) := rfl
  have r6 : (ddWW.N c p).r 6 = c.MW := rfl
  have r12 : (ddWW.N c p).r 12 = (((((2 : Nat) : ℝ) * c.e) * c.e) / ((((((2 : Nat) : ℝ) * c.MW) * c.MW) * c.SW) * c.SW)) := rfl
  have r13 : (ddWW.N c p).r 13 = ((((((2 : Nat) : ℝ) * c.e) * c.e) * (c.mass .d)) / ((((((4 : Nat) : ℝ) * c.MW) * c.MW) * c.SW) * c.SW)) := rfl
  have r14 : (ddWW.N c p).r 14 = ((c.e * c.e) / ((((((2 : Nat) : ℝ) * c.MW) * c.MW) * c.SW) * c.SW)) := rfl
  have r15 : (ddWW.N c p).r 15 = (((((-((2 : Nat) : ℝ)) * ((-((1 : Nat) : ℝ)) / ((3 : Nat) : ℝ))) * c.SW) * c.SW) - ((1 : Nat) : ℝ)) := rfl
  have r16 : (ddWW.N c p).r 16 = ((((-((2 : Nat) : ℝ)) * ((-((1 : Nat) : ℝ)) / ((3 : Nat) : ℝ))) * c.SW) * c.SW) := rfl
  have c0 : (ddWW.N c p).c 0 = poleDist c.MH c.WH ((VExp.add 0 1).sum p) := rfl
  rw [pole_congr (msq_s hb (plus (backward (p 2)) (backward (p 3))) (by simp)).symm] at c0
  have d0 : pole c.MH c.WH (plus (backward (p 2)) (backward (p 3))) = (ddWW.N c p).c 0 := by rw [c0]
  have n0 : (ddWW.N c p).c 0 ≠ 0 := by rw [← d0]; exact star_ne_zero.2 (f3 .higgs rfl rfl)
  have c1 : (ddWW.N c p).c 1 = poleDist (c.mass .u) ((0 : Nat) : ℝ) ((VExp.sub 0 2).sum p) := rfl
  rw [Nat.cast_zero, pole_fermion (msq_t hb (plus (p 1) (backward (p 3))) (by simp))] at c1
  have d1 : ((msq (plus (p 1) (backward (p 3))) - c.mass .u ^ 2 : ℝ) : ℂ) = (ddWW.N c p).c 1 := by rw [c1]
  have n1 : (ddWW.N c p).c 1 ≠ 0 := by rw [← d1]; exact_mod_cast f2 .u rfl rfl
  have c3 : (ddWW.N c p).c 3 = poleDist (c.MW / √((((1 : Nat) : ℝ) - (c.SW * c.SW)))) c.WZ ((VExp.add 0 1).sum p) := rfl
  rw [c.root, c.mz, pole_congr (msq_s hb (plus (backward (p 2)) (backward (p 3))) (by simp)).symm] at c3
  have d3 : pole c.MZ c.WZ (plus (backward (p 2)) (backward (p 3))) = (ddWW.N c p).c 3 := by rw [c3]
  have n3 : (ddWW.N c p).c 3 ≠ 0 := by rw [← d3]; exact star_ne_zero.2 (f3 .z rfl rfl)
  have c4 : (ddWW.N c p).c 4 = poleDist ((0 : Nat) : ℝ) ((0 : Nat) : ℝ) ((VExp.add 0 1).sum p) := rfl
  rw [Nat.cast_zero, pole_congr (msq_s hb (plus (backward (p 2)) (backward (p 3))) (by simp)).symm] at c4
  have d4 : pole 0 0 (plus (backward (p 2)) (backward (p 3))) = (ddWW.N c p).c 4 := by rw [c4]
  have n4 : (ddWW.N c p).c 4 ≠ 0 := by rw [← d4]; exact star_ne_zero.2 (f3 .photon rfl rfl)
  have m0 : ddWW.react.mass c 0 ≠ 0 := (leg_pos hc hh (by decide)).ne'
  have m1 : ddWW.react.mass c 1 ≠ 0 := (leg_pos hc hh (by decide)).ne'
  have m2 : ddWW.react.mass c 2 ≠ 0 := (leg_pos hc hh (by decide)).ne'
  have m3 : ddWW.react.mass c 3 ≠ 0 := (leg_pos hc hh (by decide)).ne'
  have hd : ddWW.proc.divides = [(Ty.c, 0), (Ty.c, 1), (Ty.r, 6), (Ty.c, 4), (Ty.c, 3)] := by decide +kernel
  refine ⟨fun n hn => ?_, fun n hn => ?_, ?_⟩
  · simp [hd] at hn
    rcases hn with rfl
    · rw [r6]; exact hc.MW
  · simp [hd] at hn
    rcases hn with rfl | rfl | rfl | rfl
    · exact n0
    · exact n1
    · exact n4
    · exact n3
  have st : ∀ {z0 z1 : Pair} (b0 : Bold (p 0) (ddWW.react.mass c 0) z0) (b1 : Bold (p 1) (ddWW.react.mass c 1) z1) (t2 t3 : Fin 3), comb t2 (fun a2 b2 => comb t3 (fun a3 b3 => ddWW.form (ddWW.N c p) p z0 z1 (ddWW.react.codePair c p 2 a2) (ddWW.react.codePair c p 2 b2) (ddWW.react.codePair c p 3 a3) (ddWW.react.codePair c p 3 b3))) = (-1) * ddWW.react.bare c p 0 1 2 3 z0 z1 (ddWW.react.codeVec c p 2 t2) (ddWW.react.codeVec c p 3 t3) := by
    intro z0 z1 b0 b1 t2 t3
    refine two_vectors (p := p 2) (p' := p 3) (m := ddWW.react.mass c 2) (m' := ddWW.react.mass c 3) (fun s => ddWW.react.codePair_bold hs h0 2 s) (fun s => ddWW.react.codePair_bold hs h0 3 s) (B := fun x y x' y' => ddWW.form (ddWW.N c p) p z0 z1 x y x' y') (G := fun E F => ddWW.react.bare c p 0 1 2 3 z0 z1 E F) (fun _ _ _ _ _ => ?_) (fun _ _ _ _ _ => ?_) (fun _ _ _ _ _ => ?_) (fun _ _ _ _ _ => ?_) (fun F => ddWW.react.bare_lin₁ c p _ _ _ (by decide)) (fun E => ddWW.react.bare_lin₂ c p _ _ _ (by decide)) (-1) (fun z2 z3 b2 b3 => ?_) t2 t3
    · exact ddWW.form_x2 ..
    · exact ddWW.form_y2 ..
    · exact ddWW.form_x3 ..
    · exact ddWW.form_y3 ..
    · rw [neg_one_mul]; exact ddWW.key hc hb r0 r1 r3 r6 r12 r13 r14 r15 r16 d0 n0 d1 n1 d3 n3 d4 n4 b0 b1 b2 b3 (onShell_msq (hs 2)) (onShell_msq (hs 3)) 
  have am : ∀ (s0 : Fin 2) (s1 : Fin 2) (t2 t3 : Fin 3), Cls.ddWW.m_amp.mean (ddWW.N c p) (callMean (ddWW.N c p) []) .c [spinOf s0, spinOf s1, spinV t2, spinV t3] = (-1) * ddWW.react.bare c p 0 1 2 3 (ddWW.react.codePair c p 0 s0) (ddWW.react.codePair c p 1 s1) (ddWW.react.codeVec c p 2 t2) (ddWW.react.codeVec c p 3 t3) := by
    intro s0 s1 t2 t3
    rw [ddWW.amp_eq, ← st (ddWW.react.codePair_bold hs h0 0 s0) (ddWW.react.codePair_bold hs h0 1 s1) t2 t3]
    refine congrArg (comb t2) (funext fun a2 => funext fun b2 => ?_)
    refine congrArg (comb t3) (funext fun a3 => funext fun b3 => ?_)
    have v6x2x3 : (ddWW.N c p).v 6 [spinOf a2, spinOf a3] = sb (ddWW.react.codePair c p 2 a2).2 (ddWW.react.codePair c p 3 a3).2 := bra_square (p := p) (m := ddWW.proc.massNum (ddWW.rho c)) (ddWW.mass_eq hc 2) (ddWW.mass_eq hc 3) (.inl ⟨m2, rfl⟩) (.inl ⟨m3, rfl⟩)
    have v7y2y3 : (ddWW.N c p).v 7 [spinOf b2, spinOf b3] = ab (ddWW.react.codePair c p 2 b2).1 (ddWW.react.codePair c p 3 b3).1 := bra_angle (p := p) (m := ddWW.proc.massNum (ddWW.rho c)) (ddWW.mass_eq hc 2) (ddWW.mass_eq hc 3) (.inl ⟨m2, rfl⟩) (.inl ⟨m3, rfl⟩)
    have v0z0z1 : (ddWW.N c p).v 0 [spinOf s0, spinOf s1] = sb (ddWW.react.codePair c p 0 s0).2 (ddWW.react.codePair c p 1 s1).2 := bra_square (p := p) (m := ddWW.proc.massNum (ddWW.rho c)) (ddWW.mass_eq hc 0) (ddWW.mass_eq hc 1) (.inl ⟨m0, rfl⟩) (.inl ⟨m1, rfl⟩)
    have v1z0z1 : (ddWW.N c p).v 1 [spinOf s0, spinOf s1] = ab (ddWW.react.codePair c p 0 s0).1 (ddWW.react.codePair c p 1 s1).1 := bra_angle (p := p) (m := ddWW.proc.massNum (ddWW.rho c)) (ddWW.mass_eq hc 0) (ddWW.mass_eq hc 1) (.inl ⟨m0, rfl⟩) (.inl ⟨m1, rfl⟩)
    have v9z1x3 : (ddWW.N c p).v 9 [spinOf s1, spinOf a3] = ab (ddWW.react.codePair c p 1 s1).1 (ddWW.react.codePair c p 3 a3).1 := bra_angle (p := p) (m := ddWW.proc.massNum (ddWW.rho c)) (ddWW.mass_eq hc 1) (ddWW.mass_eq hc 3) (.inl ⟨m1, rfl⟩) (.inl ⟨m3, rfl⟩)
    have v4z0x2 : (ddWW.N c p).v 4 [spinOf s0, spinOf a2] = sb (ddWW.react.codePair c p 0 s0).2 (ddWW.react.codePair c p 2 a2).2 := bra_square (p := p) (m := ddWW.proc.massNum (ddWW.rho c)) (ddWW.mass_eq hc 0) (ddWW.mass_eq hc 2) (.inl ⟨m0, rfl⟩) (.inl ⟨m2, rfl⟩)
    have v6y2y3 : (ddWW.N c p).v 6 [spinOf b2, spinOf b3] = sb (ddWW.react.codePair c p 2 b2).2 (ddWW.react.codePair c p 3 b3).2 := bra_square (p := p) (m := ddWW.proc.massNum (ddWW.rho c)) (ddWW.mass_eq hc 2) (ddWW.mass_eq hc 3) (.inl ⟨m2, rfl⟩) (.inl ⟨m3, rfl⟩)
    have v12y3y2 : (ddWW.N c p).v 12 [spinOf b3, spinOf b2] = mb (ddWW.react.codePair c p 3 b3).2 (p 0) (ddWW.react.codePair c p 2 b2).1 := bra_mid_square (p := p) (m := ddWW.proc.massNum (ddWW.rho c)) (ddWW.mass_eq hc 3) (ddWW.mass_eq hc 2) (.inl ⟨m3, rfl⟩) (.inl ⟨m2, rfl⟩)
    have v5z0x2 : (ddWW.N c p).v 5 [spinOf s0, spinOf a2] = ab (ddWW.react.codePair c p 0 s0).1 (ddWW.react.codePair c p 2 a2).1 := bra_angle (p := p) (m := ddWW.proc.massNum (ddWW.rho c)) (ddWW.mass_eq hc 0) (ddWW.mass_eq hc 2) (.inl ⟨m0, rfl⟩) (.inl ⟨m2, rfl⟩)
    have v8z1x3 : (ddWW.N c p).v 8 [spinOf s1, spinOf a3] = sb (ddWW.react.codePair c p 1 s1).2 (ddWW.react.codePair c p 3 a3).2 := bra_square (p := p) (m := ddWW.proc.massNum (ddWW.rho c)) (ddWW.mass_eq hc 1) (ddWW.mass_eq hc 3) (.inl ⟨m1, rfl⟩) (.inl ⟨m3, rfl⟩)
    have v11z0x3 : (ddWW.N c p).v 11 [spinOf s0, spinOf a3] = ab (ddWW.react.codePair c p 0 s0).1 (ddWW.react.codePair c p 3 a3).1 := bra_angle (p := p) (m := ddWW.proc.massNum (ddWW.rho c)) (ddWW.mass_eq hc 0) (ddWW.mass_eq hc 3) (.inl ⟨m0, rfl⟩) (.inl ⟨m3, rfl⟩)
    have v2z1x2 : (ddWW.N c p).v 2 [spinOf s1, spinOf a2] = sb (ddWW.react.codePair c p 1 s1).2 (ddWW.react.codePair c p 2 a2).2 := bra_square (p := p) (m := ddWW.proc.massNum (ddWW.rho c)) (ddWW.mass_eq hc 1) (ddWW.mass_eq hc 2) (.inl ⟨m1, rfl⟩) (.inl ⟨m2, rfl⟩)
    have v10z0x3 : (ddWW.N c p).v 10 [spinOf s0, spinOf a3] = sb (ddWW.react.codePair c p 0 s0).2 (ddWW.react.codePair c p 3 a3).2 := bra_square (p := p) (m := ddWW.proc.massNum (ddWW.rho c)) (ddWW.mass_eq hc 0) (ddWW.mass_eq hc 3) (.inl ⟨m0, rfl⟩) (.inl ⟨m3, rfl⟩)
    have v3z1x2 : (ddWW.N c p).v 3 [spinOf s1, spinOf a2] = ab (ddWW.react.codePair c p 1 s1).1 (ddWW.react.codePair c p 2 a2).1 := bra_angle (p := p) (m := ddWW.proc.massNum (ddWW.rho c)) (ddWW.mass_eq hc 1) (ddWW.mass_eq hc 2) (.inl ⟨m1, rfl⟩) (.inl ⟨m2, rfl⟩)
    have v14z1z0 : (ddWW.N c p).v 14 [spinOf s1, spinOf s0] = mb (ddWW.react.codePair c p 1 s1).2 (p 2) (ddWW.react.codePair c p 0 s0).1 := bra_mid_square (p := p) (m := ddWW.proc.massNum (ddWW.rho c)) (ddWW.mass_eq hc 1) (ddWW.mass_eq hc 0) (.inl ⟨m1, rfl⟩) (.inl ⟨m0, rfl⟩)
    have v15z0z1 : (ddWW.N c p).v 15 [spinOf s0, spinOf s1] = mb (ddWW.react.codePair c p 0 s0).2 (p 2) (ddWW.react.codePair c p 1 s1).1 := bra_mid_square (p := p) (m := ddWW.proc.massNum (ddWW.rho c)) (ddWW.mass_eq hc 0) (ddWW.mass_eq hc 1) (.inl ⟨m0, rfl⟩) (.inl ⟨m1, rfl⟩)
    have v7x2x3 : (ddWW.N c p).v 7 [spinOf a2, spinOf a3] = ab (ddWW.react.codePair c p 2 a2).1 (ddWW.react.codePair c p 3 a3).1 := bra_angle (p := p) (m := ddWW.proc.massNum (ddWW.rho c)) (ddWW.mass_eq hc 2) (ddWW.mass_eq hc 3) (.inl ⟨m2, rfl⟩) (.inl ⟨m3, rfl⟩)
    have v2z1y2 : (ddWW.N c p).v 2 [spinOf s1, spinOf b2] = sb (ddWW.react.codePair c p 1 s1).2 (ddWW.react.codePair c p 2 b2).2 := bra_square (p := p) (m := ddWW.proc.massNum (ddWW.rho c)) (ddWW.mass_eq hc 1) (ddWW.mass_eq hc 2) (.inl ⟨m1, rfl⟩) (.inl ⟨m2, rfl⟩)
    have v11z0y3 : (ddWW.N c p).v 11 [spinOf s0, spinOf b3] = ab (ddWW.react.codePair c p 0 s0).1 (ddWW.react.codePair c p 3 b3).1 := bra_angle (p := p) (m := ddWW.proc.massNum (ddWW.rho c)) (ddWW.mass_eq hc 0) (ddWW.mass_eq hc 3) (.inl ⟨m0, rfl⟩) (.inl ⟨m3, rfl⟩)
    have v8z1y3 : (ddWW.N c p).v 8 [spinOf s1, spinOf b3] = sb (ddWW.react.codePair c p 1 s1).2 (ddWW.react.codePair c p 3 b3).2 := bra_square (p := p) (m := ddWW.proc.massNum (ddWW.rho c)) (ddWW.mass_eq hc 1) (ddWW.mass_eq hc 3) (.inl ⟨m1, rfl⟩) (.inl ⟨m3, rfl⟩)
    have v5z0y2 : (ddWW.N c p).v 5 [spinOf s0, spinOf b2] = ab (ddWW.react.codePair c p 0 s0).1 (ddWW.react.codePair c p 2 b2).1 := bra_angle (p := p) (m := ddWW.proc.massNum (ddWW.rho c)) (ddWW.mass_eq hc 0) (ddWW.mass_eq hc 2) (.inl ⟨m0, rfl⟩) (.inl ⟨m2, rfl⟩)
    have v4z0y2 : (ddWW.N c p).v 4 [spinOf s0, spinOf b2] = sb (ddWW.react.codePair c p 0 s0).2 (ddWW.react.codePair c p 2 b2).2 := bra_square (p := p) (m := ddWW.proc.massNum (ddWW.rho c)) (ddWW.mass_eq hc 0) (ddWW.mass_eq hc 2) (.inl ⟨m0, rfl⟩) (.inl ⟨m2, rfl⟩)
    have v9z1y3 : (ddWW.N c p).v 9 [spinOf s1, spinOf b3] = ab (ddWW.react.codePair c p 1 s1).1 (ddWW.react.codePair c p 3 b3).1 := bra_angle (p := p) (m := ddWW.proc.massNum (ddWW.rho c)) (ddWW.mass_eq hc 1) (ddWW.mass_eq hc 3) (.inl ⟨m1, rfl⟩) (.inl ⟨m3, rfl⟩)
    have v10z0y3 : (ddWW.N c p).v 10 [spinOf s0, spinOf b3] = sb (ddWW.react.codePair c p 0 s0).2 (ddWW.react.codePair c p 3 b3).2 := bra_square (p := p) (m := ddWW.proc.massNum (ddWW.rho c)) (ddWW.mass_eq hc 0) (ddWW.mass_eq hc 3) (.inl ⟨m0, rfl⟩) (.inl ⟨m3, rfl⟩)
    have v3z1y2 : (ddWW.N c p).v 3 [spinOf s1, spinOf b2] = ab (ddWW.react.codePair c p 1 s1).1 (ddWW.react.codePair c p 2 b2).1 := bra_angle (p := p) (m := ddWW.proc.massNum (ddWW.rho c)) (ddWW.mass_eq hc 1) (ddWW.mass_eq hc 2) (.inl ⟨m1, rfl⟩) (.inl ⟨m2, rfl⟩)
    simp only [ddWW.term, ddWW.form, v6x2x3, v7y2y3, v0z0z1, v1z0z1, v9z1x3, v4z0x2, v6y2y3, v12y3y2, v5z0x2, v8z1x3, v11z0x3, v2z1x2, v10z0x3, v3z1x2, v14z1z0, v15z0z1, v7x2x3, v2z1y2, v11z0y3, v8z1y3, v5z0y2, v4z0y2, v9z1y3, v10z0y3, v3z1y2]
    push_cast
    ring
  show meaning (ddWW.N c p) .r Cls.ddWW.methods Cls.ddWW.amp2 [] = _
  have lc : ddWW.react.lineColours 0 1 = 3 := by decide +kernel
  have s0 : ddWW.react.states 0 = 6 := by decide
  have s1 : ddWW.react.states 1 = 6 := by decide
  have sy : ddWW.react.symmetry = 1 := by decide
  have p0 : ddWW.react.spins 0 = {0, 1} := rfl
  have p1 : ddWW.react.spins 1 = {0, 1} := rfl
  have p2 : ddWW.react.spins 2 = Finset.univ := rfl
  have p3 : ddWW.react.spins 3 = Finset.univ := rfl
  rw [ddWW.value, ddWW.react.squared_line he ht hB (noGluon_of hM) hs h0 (fun _ b _ hb _ => (boson_pos hc hh hb).ne') (ddWW.react.gauge_massive (massive_of hM)) (E := ddWW.react.codeVec c p) (fun n b hl => ddWW.react.codeVec_polarised hs h0 hl (massive_of hM n b hl) (fun _ => (boson_pos hc hh (massive_of hM n b hl)).ne')) hu, sum_colours, lc, s0, s1, sy]
  simp only [sumV_sum, sumJ_sum, am, norm_mul, norm_neg, norm_one, one_mul, p0, p1, p2, p3, Finset.sum_singleton, sum_two, Matrix.cons_val_zero, Matrix.cons_val_one, Matrix.cons_val, two_castSucc]
  try simp only [← Finset.mul_sum]
  push_cast
  first | ring1 | ring_nf

/-! ### uuWW -/

/-- what the methods of the class see -/
noncomputable abbrev uuWW.N [FPEnv] (c : Constants) (p : Nat → V4 ℝ) : Env := uuWW.proc.env (uuWW.rho c) p
/-- the term that `amp` adds for a choice of spinors (SM/uuWW.cpp) -/
noncomputable def uuWW.term (N : Env) (w : ℝ) (x : ℂ) (j1 j2 a2 b2 a3 b3 : Int) : ℂ :=
  ((((x + (((((((w * N.r 13) : ℝ) : ℂ) * N.v 6 [a2, a3]) * N.v 7 [b2, b3]) * (N.v 0 [j1, j2] + N.v 1 [j1, j2])) / N.c 0)) + ((((((((-w) * N.r 12) : ℝ) : ℂ) * N.v 8 [j2, a3]) * N.v 5 [j1, a2]) * (((((-N.r 6) : ℝ) : ℂ) * N.v 7 [b2, b3]) + N.v 13 [b2, b3])) / N.c 1)) + (((((((((((w * N.r 0) * N.r 0) * N.r 1) * ((2 : Nat) : ℝ)) / N.r 6) : ℝ) : ℂ) * ((((N.v 5 [j1, a2] * N.v 8 [j2, a3]) + (N.v 4 [j1, a2] * N.v 9 [j2, a3])) + (N.v 11 [j1, a3] * N.v 2 [j2, a2])) + (N.v 10 [j1, a3] * N.v 3 [j2, a2]))) * (N.v 6 [b2, b3] + N.v 7 [b2, b3])) / N.c 4) + ((((((((((w * N.r 0) * N.r 0) * N.r 1) * ((2 : Nat) : ℝ)) / N.r 6) / N.r 6) : ℝ) : ℂ) * ((N.v 6 [a2, a3] * N.v 7 [b2, b3]) * (N.v 14 [j2, j1] + N.v 15 [j1, j2]))) / N.c 4))) + ((((((-w) * N.r 14) : ℝ) : ℂ) * (((((((((N.r 15 - N.r 16) * N.r 2) : ℝ) : ℂ) * N.v 6 [a2, a3]) * N.v 7 [b2, b3]) * (N.v 0 [j1, j2] - N.v 1 [j1, j2])) - (((((((2 : Nat) : ℝ) : ℝ) : ℂ) * N.v 6 [a2, a3]) * N.v 7 [b2, b3]) * ((((N.r 15 : ℝ) : ℂ) * N.v 14 [j2, j1]) + (((N.r 16 : ℝ) : ℂ) * N.v 15 [j1, j2])))) - (((((((2 : Nat) : ℝ) * N.r 6) : ℝ) : ℂ) * (N.v 6 [a2, a3] + N.v 7 [a2, a3])) * ((((N.r 15 : ℝ) : ℂ) * ((N.v 2 [j2, b2] * N.v 11 [j1, b3]) + (N.v 8 [j2, b3] * N.v 5 [j1, b2]))) + (((N.r 16 : ℝ) : ℂ) * ((N.v 4 [j1, b2] * N.v 9 [j2, b3]) + (N.v 10 [j1, b3] * N.v 3 [j2, b2]))))))) / N.c 3))
/-- the same with spinors in place of their spins -/
noncomputable def uuWW.form (N : Env) (p : Nat → V4 ℝ) (z0 z1 x2 y2 x3 y3 : Pair) : ℂ :=
  ((((0 + (((((((((1 : Nat) : ℝ) * N.r 13) : ℝ) : ℂ) * (sb x2.2 x3.2)) * (ab y2.1 y3.1)) * ((sb z0.2 z1.2) + (ab z0.1 z1.1))) / N.c 0)) + ((((((((-((1 : Nat) : ℝ)) * N.r 12) : ℝ) : ℂ) * (sb z1.2 x3.2)) * (ab z0.1 x2.1)) * (((((-N.r 6) : ℝ) : ℂ) * (ab y2.1 y3.1)) + (mb y2.2 (p 0) y3.1))) / N.c 1)) + (((((((((((((1 : Nat) : ℝ) * N.r 0) * N.r 0) * N.r 1) * ((2 : Nat) : ℝ)) / N.r 6) : ℝ) : ℂ) * (((((ab z0.1 x2.1) * (sb z1.2 x3.2)) + ((sb z0.2 x2.2) * (ab z1.1 x3.1))) + ((ab z0.1 x3.1) * (sb z1.2 x2.2))) + ((sb z0.2 x3.2) * (ab z1.1 x2.1)))) * ((sb y2.2 y3.2) + (ab y2.1 y3.1))) / N.c 4) + ((((((((((((1 : Nat) : ℝ) * N.r 0) * N.r 0) * N.r 1) * ((2 : Nat) : ℝ)) / N.r 6) / N.r 6) : ℝ) : ℂ) * (((sb x2.2 x3.2) * (ab y2.1 y3.1)) * ((mb z1.2 (p 2) z0.1) + (mb z0.2 (p 2) z1.1)))) / N.c 4))) + ((((((-((1 : Nat) : ℝ)) * N.r 14) : ℝ) : ℂ) * (((((((((N.r 15 - N.r 16) * N.r 2) : ℝ) : ℂ) * (sb x2.2 x3.2)) * (ab y2.1 y3.1)) * ((sb z0.2 z1.2) - (ab z0.1 z1.1))) - (((((((2 : Nat) : ℝ) : ℝ) : ℂ) * (sb x2.2 x3.2)) * (ab y2.1 y3.1)) * ((((N.r 15 : ℝ) : ℂ) * (mb z1.2 (p 2) z0.1)) + (((N.r 16 : ℝ) : ℂ) * (mb z0.2 (p 2) z1.1))))) - (((((((2 : Nat) : ℝ) * N.r 6) : ℝ) : ℂ) * ((sb x2.2 x3.2) + (ab x2.1 x3.1))) * ((((N.r 15 : ℝ) : ℂ) * (((sb z1.2 y2.2) * (ab z0.1 y3.1)) + ((sb z1.2 y3.2) * (ab z0.1 y2.1)))) + (((N.r 16 : ℝ) : ℂ) * (((sb z0.2 y2.2) * (ab z1.1 y3.1)) + ((sb z0.2 y3.2) * (ab z1.1 y2.1)))))))) / N.c 3))
theorem uuWW.key {c : Constants} {p : Nat → V4 ℝ} {N : Env} (hc : c.Physical) (hb : Balanced p) (r0 : N.r 0 = c.e) (r1 : N.r 1 = (((2 : Nat) : ℝ) / ((3 : Nat) : ℝ))) (r2 : N.r 2 = (c.mass .u)) (r6 : N.r 6 = c.MW) (r12 : N.r 12 = ((c.e * c.e) / (((c.MW * c.MW) * c.SW) * c.SW))) (r13 : N.r 13 = (((c.e * c.e) * (c.mass .u)) / ((((((2 : Nat) : ℝ) * c.MW) * c.MW) * c.SW) * c.SW))) (r14 : N.r 14 = ((c.e * c.e) / ((((((2 : Nat) : ℝ) * c.MW) * c.MW) * c.SW) * c.SW))) (r15 : N.r 15 = (((((-((2 : Nat) : ℝ)) * (((2 : Nat) : ℝ) / ((3 : Nat) : ℝ))) * c.SW) * c.SW) + ((1 : Nat) : ℝ))) (r16 : N.r 16 = ((((-((2 : Nat) : ℝ)) * (((2 : Nat) : ℝ) / ((3 : Nat) : ℝ))) * c.SW) * c.SW)) (d0 : pole c.MH c.WH (plus (backward (p 2)) (backward (p 3))) = N.c 0) (n0 : N.c 0 ≠ 0) (d1 : ((msq (plus (p 0) (backward (p 2))) - c.mass .d ^ 2 : ℝ) : ℂ) = N.c 1) (n1 : N.c 1 ≠ 0) (d3 : pole c.MZ c.WZ (plus (backward (p 2)) (backward (p 3))) = N.c 3) (n3 : N.c 3 ≠ 0) (d4 : pole 0 0 (plus (backward (p 2)) (backward (p 3))) = N.c 4) (n4 : N.c 4 ≠ 0) {z0 z1 z2 z3 : Pair} (b0 : Bold (p 0) (c.mass .u) z0) (b1 : Bold (p 1) (c.mass .u) z1) (b2 : Bold (p 2) c.MW z2) (b3 : Bold (p 3) c.MW z3) (q2 : msq (p 2) = c.MW ^ 2) (q3 : msq (p 3) = c.MW ^ 2) :
    uuWW.form N p z0 z1 z2 z2 z3 z3 = ((2 / (c.MW * c.MW) : ℝ) : ℂ) * uuWW.react.bare c p 1 0 2 3 z1 z0 (pv z2.1 z2.2) (pv z3.1 z3.2) := by
  rw [uuWW.react.bare_parts c p (i := 1) (j := 0) (a := 2) (b := 3) (x := .wMinus) (y := .wPlus) (k := (backward (p 2))) (k' := (backward (p 3))) (fun _ => rfl) (fun _ => rfl) (f := .u) (g := .u) rfl rfl (l := (p 0)) rfl (e := -1) (e' := 1) (if_pos rfl) (if_neg Bool.false_ne_true)]
  rw [compton_vv (f := .u) (x := .d) (g := .u) (h := (rfl : Spec.after .wMinus Flavour.u = some Flavour.d)) (h' := (rfl : Spec.after .wPlus Flavour.d = some Flavour.u)) (ha := by simp) (hb := by simp)]
  rw [compton_none (h := by simp [Spec.after, Flavour.u, Flavour.u]), star_zero]
  have an := annihilation_neutral c (-1) (1) z1.1 z1.2 z0.1 z0.2 ⟨.wMinus, (backward (p 2)), pv z2.1 z2.2⟩ ⟨.wPlus, (backward (p 3)), pv z3.1 z3.2⟩ .u
  dsimp only at an
  rw [an, uuWW.form]
  clear an
  have Y2 := b2.back; have Q2 : msq (backward (p 2)) = (-c.MW) ^ 2 := by rw [msq_backward, q2, neg_sq]
  have Y3 := b3.back; have Q3 : msq (backward (p 3)) = (-c.MW) ^ 2 := by rw [msq_backward, q3, neg_sq]
  rw [lineV_massless (hx := (rfl : Boson.massive .photon = false))]
  rw [lineV_massive (hx := (rfl : Boson.massive .z = true))]
  simp only [toHiggs, toVector, higgs2, gauge3, Boson.anti, Constants.bosonMass, Constants.bosonWidth, d0, d1, d3, d4, reduceCtorEq, and_self, and_true, and_false, and_true, if_true, if_false, Complex.ofReal_zero, zero_smul, zero_mul, mul_zero, zero_div, neg_zero, add_zero, zero_add, lineH, lineV_zero, contract_zero, lineV_smul, contract_smul, lineV_yangMills Y2 Y3, four_yangMills Y2 Y3 Q2 Q3, ym, lineV_pv, lineV_four, contract_four_pv, contract_pv, mb_plus, mb_backward]
  simp only [b0.mb_left, b0.mb_right, b1.mb_left, b1.mb_right, b2.mb_left, b2.mb_right, b3.mb_left, b3.mb_right, mb_three hb z0.2 z0.1, mb_three hb z0.2 z1.1, mb_three hb z0.2 z2.1, mb_two hb z0.2 z3.1, mb_three hb z1.2 z0.1, mb_three hb z1.2 z1.1, mb_three hb z1.2 z2.1, mb_two hb z1.2 z3.1, mb_three hb z2.2 z0.1, mb_three hb z2.2 z1.1, mb_three hb z2.2 z2.1, mb_one hb z2.2 z3.1, mb_two hb z3.2 z0.1, mb_two hb z3.2 z1.1, mb_one hb z3.2 z2.1, mb_two hb z3.2 z3.1, ab_self, sb_self]
  simp only [ab_swap z0.1 z1.1, sb_swap z0.2 z1.2, ab_swap z0.1 z2.1, sb_swap z0.2 z2.2, ab_swap z0.1 z3.1, sb_swap z0.2 z3.2, ab_swap z1.1 z2.1, sb_swap z1.2 z2.2, ab_swap z1.1 z3.1, sb_swap z1.2 z3.2, ab_swap z2.1 z3.1, sb_swap z2.2 z3.2, r0, r1, r2, r6, r12, r13, r14, r15, r16, Constants.hL, Constants.hR, Constants.gL, Constants.gR, Constants.yuk, Constants.invVev, Flavour.charge_d, Flavour.isospin_d, Flavour.charge_u, Flavour.isospin_u, ← c.mz]
  have xMW : (c.MW : ℂ) ≠ 0 := by exact_mod_cast hc.MW
  have xSW : (c.SW : ℂ) ≠ 0 := by exact_mod_cast hc.SW
  have xCW : (c.CW : ℂ) ≠ 0 := by exact_mod_cast hc.CW
  have x2 : ((√2 : ℝ) : ℂ) ≠ 0 := by exact_mod_cast (Real.sqrt_pos.2 two_pos).ne'
  have x22 : ((√2 : ℝ) : ℂ) ^ 2 = 2 := by rw [← Complex.ofReal_pow, Real.sq_sqrt two_pos.le]; norm_num
  push_cast
  field_simp
  first | ring1 | (ring_nf; simp only [x22]; ring1)
set_option maxRecDepth 8000 in
theorem uuWW.amp2_eq (N : Env) (f : Nat → List Int → ℂ) : Cls.uuWW.m_amp2.mean N f .r [] =
    ((sumJ (fun x a => (sumJ (fun x b => (sumV (fun x c => (sumV (fun x d => (x + (((3 : Nat) : ℝ) * (‖(f 0 [a, b, c, d])‖ ^ 2)))) x)) x)) x)) ((0 : Nat) : ℝ)) / ((36 : Nat) : ℝ)) := by rfl
set_option maxRecDepth 8000 in
theorem uuWW.value (N : Env) : meaning N .r Cls.uuWW.methods Cls.uuWW.amp2 [] =
    ((sumJ (fun x a => (sumJ (fun x b => (sumV (fun x c => (sumV (fun x d => (x + (((3 : Nat) : ℝ) * (‖(Cls.uuWW.m_amp.mean N (callMean N []) .c [a, b, c, d])‖ ^ 2)))) x)) x)) x)) ((0 : Nat) : ℝ)) / ((36 : Nat) : ℝ)) :=
  uuWW.amp2_eq N (callMean N [Cls.uuWW.m_amp])
set_option maxRecDepth 8000 in
theorem uuWW.term_lin (N : Env) (w : ℝ) (x : ℂ) (j1 j2 a2 b2 a3 b3 : Int) : uuWW.term N w x j1 j2 a2 b2 a3 b3 = x + (w : ℂ) * uuWW.term N 1 0 j1 j2 a2 b2 a3 b3 := by
  simp only [uuWW.term]; push_cast; ring
theorem uuWW.amp_eq (N : Env) (f : Nat → List Int → ℂ) (j1 j2 : Int) (t2 t3 : Fin 3) : Cls.uuWW.m_amp.mean N f .c [j1, j2, spinV t2, spinV t3] = comb t2 (fun a2 b2 => comb t3 (fun a3 b3 => uuWW.term N 1 0 j1 j2 (spinOf a2) (spinOf b2) (spinOf a3) (spinOf b3))) := by
  refine (amp_mean N f (m := 4) (K := 8) (G := fun i => uuWW.term N 1 0 (i 0) (i 1) (i 4) (i 5) (i 6) (i 7)) (fun l => ?_) (fun i i' h => ?_) rfl (by decide) (by decide) (by decide) (by decide) (by decide)).trans ?_
  · refine ⟨_, rfl, ?_⟩; exact ⟨rfl, rfl, uuWW.term_lin ..⟩
  · simp only [h 0 (by decide), h 1 (by decide), h 4 (by decide), h 5 (by decide), h 6 (by decide), h 7 (by decide)]
  · show amp' _ [spinV t2, spinV t3] = _
    simp only [amp'_comb, amp'_nil]
    rfl
theorem uuWW.form_x2 (N : Env) (p : Nat → V4 ℝ) (z0 z1 y2 x3 y3 x y : Pair) : uuWW.form N p z0 z1 (x + y) y2 x3 y3 = uuWW.form N p z0 z1 x y2 x3 y3 + uuWW.form N p z0 z1 y y2 x3 y3 := by
  simp only [uuWW.form, Prod.fst_add, Prod.snd_add, ab_add_left, ab_add_right, sb_add_left, sb_add_right, mb_add_left, mb_add_right]
  ring
theorem uuWW.form_y2 (N : Env) (p : Nat → V4 ℝ) (z0 z1 x2 x3 y3 x y : Pair) : uuWW.form N p z0 z1 x2 (x + y) x3 y3 = uuWW.form N p z0 z1 x2 x x3 y3 + uuWW.form N p z0 z1 x2 y x3 y3 := by
  simp only [uuWW.form, Prod.fst_add, Prod.snd_add, ab_add_left, ab_add_right, sb_add_left, sb_add_right, mb_add_left, mb_add_right]
  ring
theorem uuWW.form_x3 (N : Env) (p : Nat → V4 ℝ) (z0 z1 x2 y2 y3 x y : Pair) : uuWW.form N p z0 z1 x2 y2 (x + y) y3 = uuWW.form N p z0 z1 x2 y2 x y3 + uuWW.form N p z0 z1 x2 y2 y y3 := by
  simp only [uuWW.form, Prod.fst_add, Prod.snd_add, ab_add_left, ab_add_right, sb_add_left, sb_add_right, mb_add_left, mb_add_right]
  ring
theorem uuWW.form_y3 (N : Env) (p : Nat → V4 ℝ) (z0 z1 x2 y2 x3 x y : Pair) : uuWW.form N p z0 z1 x2 y2 x3 (x + y) = uuWW.form N p z0 z1 x2 y2 x3 x + uuWW.form N p z0 z1 x2 y2 x3 y := by
  simp only [uuWW.form, Prod.fst_add, Prod.snd_add, ab_add_left, ab_add_right, sb_add_left, sb_add_right, mb_add_left, mb_add_right]
  ring

theorem uuWW.mass_eq {c : Constants} (hc : c.Physical) (i : Fin 4) : uuWW.proc.massNum (uuWW.rho c) i = uuWW.react.mass c i := by
  fin_cases i <;> first | rfl | exact Nat.cast_zero.trans (hc.neutrino _).symm | (show c.MW / √(((1 : Nat) : ℝ) - c.SW * c.SW) = c.MZ; rw [c.root, c.mz])

variable [FPEnv] in
theorem uuWW.agrees : uuWW.Agrees := by
  refine agrees_of (D := [5, 6]) (E := [6]) (by simp [all, uuWW]) (by decide +kernel) (by decide) (by decide +kernel) (fun c hc hh => ⟨List.forall_mem_cons.2 ⟨hc.MW, List.forall_mem_cons.2 ⟨hc.SW, List.forall_mem_nil _⟩⟩, List.forall_mem_cons.2 ⟨hc.SW_lt, List.forall_mem_nil _⟩⟩) (fun c hc i => uuWW.mass_eq hc i) (by decide +kernel) ?_
  intro c p u ε hc hh hw h0 hs hb hr hu
  have he : uuWW.react.ends = [1] := by decide
  have ht : uuWW.react.starts = [0] := by decide
  have hB : uuWW.react.bosons = [2, 3] := by decide
  have hM : uuWW.react.allMassive = true := by decide
  obtain ⟨f1, f2, f3⟩ := uuWW.react.regular_line he ht hB hr
  have r0 : (uuWW.N c p).r 0 = c.e := rfl
  have r1 : (uuWW.N c p).r 1 = (((2 : Nat) : ℝ) / ((3 : Nat) : ℝ)) := rfl
  have r2 : (uuWW.N c p).r 2 = (c.mass .u) := rfl
  have r6 : (uuWW.N c p).r 6 = c.MW := rfl
  have r12 : (uuWW.N c p).r 12 = ((c.e * c.e) / (((c.MW * c.MW) * c.SW) * c.SW)) := rfl
  have r13 : (uuWW.N c p).r 13 = (((c.e * c.e) * (c.mass .u)) / ((((((2 : Nat) : ℝ) * c.MW) * c.MW) * c.SW) * c.SW)) := rfl
  have r14 : (uuWW.N c p).r 14 = ((c.e * c.e) / ((((((2 : Nat) : ℝ) * c.MW) * c.MW) * c.SW) * c.SW)) := rfl
  have r15 : (uuWW.N c p).r 15 = (((((-((2 : Nat) : ℝ)) * (((2 : Nat) : ℝ) / ((3 : Nat) : ℝ))) * c.SW) * c.SW) + ((1 : Nat) : ℝ)) := rfl
  have r16 : (uuWW.N c p).r 16 = ((((-((2 : Nat) : ℝ)) * (((2 : Nat) : ℝ) / ((3 : Nat) : ℝ))) * c.SW) * c.SW) := rfl
  have c0 : (uuWW.N c p).c 0 = poleDist c.MH c.WH ((VExp.add 0 1).sum p) := rfl
  rw [pole_congr (msq_s hb (plus (backward (p 2)) (backward (p 3))) (by simp)).symm] at c0
  have d0 : pole c.MH c.WH (plus (backward (p 2)) (backward (p 3))) = (uuWW.N c p).c 0 := by rw [c0]
  have n0 : (uuWW.N c p).c 0 ≠ 0 := by rw [← d0]; exact star_ne_zero.2 (f3 .higgs rfl rfl)
  have c1 : (uuWW.N c p).c 1 = poleDist (c.mass .d) ((0 : Nat) : ℝ) ((VExp.sub 0 2).sum p) := rfl
  rw [Nat.cast_zero, pole_fermion (msq_t hb (plus (p 0) (backward (p 2))) (by simp))] at c1
  have d1 : ((msq (plus (p 0) (backward (p 2))) - c.mass .d ^ 2 : ℝ) : ℂ) = (uuWW.N c p).c 1 := by rw [c1]
  have n1 : (uuWW.N c p).c 1 ≠ 0 := by rw [← d1]; exact_mod_cast f1 .d rfl rfl
  have c3 : (uuWW.N c p).c 3 = poleDist (c.MW / √((((1 : Nat) : ℝ) - (c.SW * c.SW)))) c.WZ ((VExp.add 0 1).sum p) := rfl
  rw [c.root, c.mz, pole_congr (msq_s hb (plus (backward (p 2)) (backward (p 3))) (by simp)).symm] at c3
  have d3 : pole c.MZ c.WZ (plus (backward (p 2)) (backward (p 3))) = (uuWW.N c p).c 3 := by rw [c3]
  have n3 : (uuWW.N c p).c 3 ≠ 0 := by rw [← d3]; exact star_ne_zero.2 (f3 .z rfl rfl)
  have c4 : (uuWW.N c p).c 4 = poleDist ((0 : Nat) : ℝ) ((0 : Nat) : ℝ) ((VExp.add 0 1).sum p) := rfl
  rw [Nat.cast_zero, pole_congr (msq_s hb (plus (backward (p 2)) (backward (p 3))) (by simp)).symm] at c4
  have d4 : pole 0 0 (plus (backward (p 2)) (backward (p 3))) = (uuWW.N c p).c 4 := by rw [c4]
  have n4 : (uuWW.N c p).c 4 ≠ 0 := by rw [← d4]; exact star_ne_zero.2 (f3 .photon rfl rfl)
  have m0 : uuWW.react.mass c 0 ≠ 0 := (leg_pos hc hh (by decide)).ne'
  have m1 : uuWW.react.mass c 1 ≠ 0 := (leg_pos hc hh (by decide)).ne'
  have m2 : uuWW.react.mass c 2 ≠ 0 := (leg_pos hc hh (by decide)).ne'
  have m3 : uuWW.react.mass c 3 ≠ 0 := (leg_pos hc hh (by decide)).ne'
  have hd : uuWW.proc.divides = [(Ty.c, 0), (Ty.c, 1), (Ty.r, 6), (Ty.c, 4), (Ty.c, 3)] := by decide +kernel
  refine ⟨fun n hn => ?_, fun n hn => ?_, ?_⟩
  · simp [hd] at hn
    rcases hn with rfl
    · rw [r6]; exact hc.MW
  · simp [hd] at hn
    rcases hn with rfl | rfl | rfl | rfl
    · exact n0
    · exact n1
    · exact n4
    · exact n3
  have st : ∀ {z0 z1 : Pair} (b0 : Bold (p 0) (uuWW.react.mass c 0) z0) (b1 : Bold (p 1) (uuWW.react.mass c 1) z1) (t2 t3 : Fin 3), comb t2 (fun a2 b2 => comb t3 (fun a3 b3 => uuWW.form (uuWW.N c p) p z0 z1 (uuWW.react.codePair c p 2 a2) (uuWW.react.codePair c p 2 b2) (uuWW.react.codePair c p 3 a3) (uuWW.react.codePair c p 3 b3))) = 1 * uuWW.react.bare c p 1 0 2 3 z1 z0 (uuWW.react.codeVec c p 2 t2) (uuWW.react.codeVec c p 3 t3) := by
    intro z0 z1 b0 b1 t2 t3
    refine two_vectors (p := p 2) (p' := p 3) (m := uuWW.react.mass c 2) (m' := uuWW.react.mass c 3) (fun s => uuWW.react.codePair_bold hs h0 2 s) (fun s => uuWW.react.codePair_bold hs h0 3 s) (B := fun x y x' y' => uuWW.form (uuWW.N c p) p z0 z1 x y x' y') (G := fun E F => uuWW.react.bare c p 1 0 2 3 z1 z0 E F) (fun _ _ _ _ _ => ?_) (fun _ _ _ _ _ => ?_) (fun _ _ _ _ _ => ?_) (fun _ _ _ _ _ => ?_) (fun F => uuWW.react.bare_lin₁ c p _ _ _ (by decide)) (fun E => uuWW.react.bare_lin₂ c p _ _ _ (by decide)) 1 (fun z2 z3 b2 b3 => ?_) t2 t3
    · exact uuWW.form_x2 ..
    · exact uuWW.form_y2 ..
    · exact uuWW.form_x3 ..
    · exact uuWW.form_y3 ..
    · rw [one_mul]; exact uuWW.key hc hb r0 r1 r2 r6 r12 r13 r14 r15 r16 d0 n0 d1 n1 d3 n3 d4 n4 b0 b1 b2 b3 (onShell_msq (hs 2)) (onShell_msq (hs 3)) 
  have am : ∀ (s0 : Fin 2) (s1 : Fin 2) (t2 t3 : Fin 3), Cls.uuWW.m_amp.mean (uuWW.N c p) (callMean (uuWW.N c p) []) .c [spinOf s0, spinOf s1, spinV t2, spinV t3] = 1 * uuWW.react.bare c p 1 0 2 3 (uuWW.react.codePair c p 1 s1) (uuWW.react.codePair c p 0 s0) (uuWW.react.codeVec c p 2 t2) (uuWW.react.codeVec c p 3 t3) := by
    intro s0 s1 t2 t3
    rw [uuWW.amp_eq, ← st (uuWW.react.codePair_bold hs h0 0 s0) (uuWW.react.codePair_bold hs h0 1 s1) t2 t3]
    refine congrArg (comb t2) (funext fun a2 => funext fun b2 => ?_)
    refine congrArg (comb t3) (funext fun a3 => funext fun b3 => ?_)
    have v6x2x3 : (uuWW.N c p).v 6 [spinOf a2, spinOf a3] = sb (uuWW.react.codePair c p 2 a2).2 (uuWW.react.codePair c p 3 a3).2 := bra_square (p := p) (m := uuWW.proc.massNum (uuWW.rho c)) (uuWW.mass_eq hc 2) (uuWW.mass_eq hc 3) (.inl ⟨m2, rfl⟩) (.inl ⟨m3, rfl⟩)
    have v7y2y3 : (uuWW.N c p).v 7 [spinOf b2, spinOf b3] = ab (uuWW.react.codePair c p 2 b2).1 (uuWW.react.codePair c p 3 b3).1 := bra_angle (p := p) (m := uuWW.proc.massNum (uuWW.rho c)) (uuWW.mass_eq hc 2) (uuWW.mass_eq hc 3) (.inl ⟨m2, rfl⟩) (.inl ⟨m3, rfl⟩)
    have v0z0z1 : (uuWW.N c p).v 0 [spinOf s0, spinOf s1] = sb (uuWW.react.codePair c p 0 s0).2 (uuWW.react.codePair c p 1 s1).2 := bra_square (p := p) (m := uuWW.proc.massNum (uuWW.rho c)) (uuWW.mass_eq hc 0) (uuWW.mass_eq hc 1) (.inl ⟨m0, rfl⟩) (.inl ⟨m1, rfl⟩)
    have v1z0z1 : (uuWW.N c p).v 1 [spinOf s0, spinOf s1] = ab (uuWW.react.codePair c p 0 s0).1 (uuWW.react.codePair c p 1 s1).1 := bra_angle (p := p) (m := uuWW.proc.massNum (uuWW.rho c)) (uuWW.mass_eq hc 0) (uuWW.mass_eq hc 1) (.inl ⟨m0, rfl⟩) (.inl ⟨m1, rfl⟩)
    have v8z1x3 : (uuWW.N c p).v 8 [spinOf s1, spinOf a3] = sb (uuWW.react.codePair c p 1 s1).2 (uuWW.react.codePair c p 3 a3).2 := bra_square (p := p) (m := uuWW.proc.massNum (uuWW.rho c)) (uuWW.mass_eq hc 1) (uuWW.mass_eq hc 3) (.inl ⟨m1, rfl⟩) (.inl ⟨m3, rfl⟩)
    have v5z0x2 : (uuWW.N c p).v 5 [spinOf s0, spinOf a2] = ab (uuWW.react.codePair c p 0 s0).1 (uuWW.react.codePair c p 2 a2).1 := bra_angle (p := p) (m := uuWW.proc.massNum (uuWW.rho c)) (uuWW.mass_eq hc 0) (uuWW.mass_eq hc 2) (.inl ⟨m0, rfl⟩) (.inl ⟨m2, rfl⟩)
    have v13y2y3 : (uuWW.N c p).v 13 [spinOf b2, spinOf b3] = mb (uuWW.react.codePair c p 2 b2).2 (p 0) (uuWW.react.codePair c p 3 b3).1 := bra_mid_square (p := p) (m := uuWW.proc.massNum (uuWW.rho c)) (uuWW.mass_eq hc 2) (uuWW.mass_eq hc 3) (.inl ⟨m2, rfl⟩) (.inl ⟨m3, rfl⟩)
    have v4z0x2 : (uuWW.N c p).v 4 [spinOf s0, spinOf a2] = sb (uuWW.react.codePair c p 0 s0).2 (uuWW.react.codePair c p 2 a2).2 := bra_square (p := p) (m := uuWW.proc.massNum (uuWW.rho c)) (uuWW.mass_eq hc 0) (uuWW.mass_eq hc 2) (.inl ⟨m0, rfl⟩) (.inl ⟨m2, rfl⟩)
    have v9z1x3 : (uuWW.N c p).v 9 [spinOf s1, spinOf a3] = ab (uuWW.react.codePair c p 1 s1).1 (uuWW.react.codePair c p 3 a3).1 := bra_angle (p := p) (m := uuWW.proc.massNum (uuWW.rho c)) (uuWW.mass_eq hc 1) (uuWW.mass_eq hc 3) (.inl ⟨m1, rfl⟩) (.inl ⟨m3, rfl⟩)
    have v11z0x3 : (uuWW.N c p).v 11 [spinOf s0, spinOf a3] = ab (uuWW.react.codePair c p 0 s0).1 (uuWW.react.codePair c p 3 a3).1 := bra_angle (p := p) (m := uuWW.proc.massNum (uuWW.rho c)) (uuWW.mass_eq hc 0) (uuWW.mass_eq hc 3) (.inl ⟨m0, rfl⟩) (.inl ⟨m3, rfl⟩)
    have v2z1x2 : (uuWW.N c p).v 2 [spinOf s1, spinOf a2] = sb (uuWW.react.codePair c p 1 s1).2 (uuWW.react.codePair c p 2 a2).2 := bra_square (p := p) (m := uuWW.proc.massNum (uuWW.rho c)) (uuWW.mass_eq hc 1) (uuWW.mass_eq hc 2) (.inl ⟨m1, rfl⟩) (.inl ⟨m2, rfl⟩)
    have v10z0x3 : (uuWW.N c p).v 10 [spinOf s0, spinOf a3] = sb (uuWW.react.codePair c p 0 s0).2 (uuWW.react.codePair c p 3 a3).2 := bra_square (p := p) (m := uuWW.proc.massNum (uuWW.rho c)) (uuWW.mass_eq hc 0) (uuWW.mass_eq hc 3) (.inl ⟨m0, rfl⟩) (.inl ⟨m3, rfl⟩)
    have v3z1x2 : (uuWW.N c p).v 3 [spinOf s1, spinOf a2] = ab (uuWW.react.codePair c p 1 s1).1 (uuWW.react.codePair c p 2 a2).1 := bra_angle (p := p) (m := uuWW.proc.massNum (uuWW.rho c)) (uuWW.mass_eq hc 1) (uuWW.mass_eq hc 2) (.inl ⟨m1, rfl⟩) (.inl ⟨m2, rfl⟩)
    have v6y2y3 : (uuWW.N c p).v 6 [spinOf b2, spinOf b3] = sb (uuWW.react.codePair c p 2 b2).2 (uuWW.react.codePair c p 3 b3).2 := bra_square (p := p) (m := uuWW.proc.massNum (uuWW.rho c)) (uuWW.mass_eq hc 2) (uuWW.mass_eq hc 3) (.inl ⟨m2, rfl⟩) (.inl ⟨m3, rfl⟩)
    have v14z1z0 : (uuWW.N c p).v 14 [spinOf s1, spinOf s0] = mb (uuWW.react.codePair c p 1 s1).2 (p 2) (uuWW.react.codePair c p 0 s0).1 := bra_mid_square (p := p) (m := uuWW.proc.massNum (uuWW.rho c)) (uuWW.mass_eq hc 1) (uuWW.mass_eq hc 0) (.inl ⟨m1, rfl⟩) (.inl ⟨m0, rfl⟩)
    have v15z0z1 : (uuWW.N c p).v 15 [spinOf s0, spinOf s1] = mb (uuWW.react.codePair c p 0 s0).2 (p 2) (uuWW.react.codePair c p 1 s1).1 := bra_mid_square (p := p) (m := uuWW.proc.massNum (uuWW.rho c)) (uuWW.mass_eq hc 0) (uuWW.mass_eq hc 1) (.inl ⟨m0, rfl⟩) (.inl ⟨m1, rfl⟩)
    have v7x2x3 : (uuWW.N c p).v 7 [spinOf a2, spinOf a3] = ab (uuWW.react.codePair c p 2 a2).1 (uuWW.react.codePair c p 3 a3).1 := bra_angle (p := p) (m := uuWW.proc.massNum (uuWW.rho c)) (uuWW.mass_eq hc 2) (uuWW.mass_eq hc 3) (.inl ⟨m2, rfl⟩) (.inl ⟨m3, rfl⟩)
    have v2z1y2 : (uuWW.N c p).v 2 [spinOf s1, spinOf b2] = sb (uuWW.react.codePair c p 1 s1).2 (uuWW.react.codePair c p 2 b2).2 := bra_square (p := p) (m := uuWW.proc.massNum (uuWW.rho c)) (uuWW.mass_eq hc 1) (uuWW.mass_eq hc 2) (.inl ⟨m1, rfl⟩) (.inl ⟨m2, rfl⟩)
    have v11z0y3 : (uuWW.N c p).v 11 [spinOf s0, spinOf b3] = ab (uuWW.react.codePair c p 0 s0).1 (uuWW.react.codePair c p 3 b3).1 := bra_angle (p := p) (m := uuWW.proc.massNum (uuWW.rho c)) (uuWW.mass_eq hc 0) (uuWW.mass_eq hc 3) (.inl ⟨m0, rfl⟩) (.inl ⟨m3, rfl⟩)
    have v8z1y3 : (uuWW.N c p).v 8 [spinOf s1, spinOf b3] = sb (uuWW.react.codePair c p 1 s1).2 (uuWW.react.codePair c p 3 b3).2 := bra_square (p := p) (m := uuWW.proc.massNum (uuWW.rho c)) (uuWW.mass_eq hc 1) (uuWW.mass_eq hc 3) (.inl ⟨m1, rfl⟩) (.inl ⟨m3, rfl⟩)
    have v5z0y2 : (uuWW.N c p).v 5 [spinOf s0, spinOf b2] = ab (uuWW.react.codePair c p 0 s0).1 (uuWW.react.codePair c p 2 b2).1 := bra_angle (p := p) (m := uuWW.proc.massNum (uuWW.rho c)) (uuWW.mass_eq hc 0) (uuWW.mass_eq hc 2) (.inl ⟨m0, rfl⟩) (.inl ⟨m2, rfl⟩)
    have v4z0y2 : (uuWW.N c p).v 4 [spinOf s0, spinOf b2] = sb (uuWW.react.codePair c p 0 s0).2 (uuWW.react.codePair c p 2 b2).2 := bra_square (p := p) (m := uuWW.proc.massNum (uuWW.rho c)) (uuWW.mass_eq hc 0) (uuWW.mass_eq hc 2) (.inl ⟨m0, rfl⟩) (.inl ⟨m2, rfl⟩)
    have v9z1y3 : (uuWW.N c p).v 9 [spinOf s1, spinOf b3] = ab (uuWW.react.codePair c p 1 s1).1 (uuWW.react.codePair c p 3 b3).1 := bra_angle (p := p) (m := uuWW.proc.massNum (uuWW.rho c)) (uuWW.mass_eq hc 1) (uuWW.mass_eq hc 3) (.inl ⟨m1, rfl⟩) (.inl ⟨m3, rfl⟩)
    have v10z0y3 : (uuWW.N c p).v 10 [spinOf s0, spinOf b3] = sb (uuWW.react.codePair c p 0 s0).2 (uuWW.react.codePair c p 3 b3).2 := bra_square (p := p) (m := uuWW.proc.massNum (uuWW.rho c)) (uuWW.mass_eq hc 0) (uuWW.mass_eq hc 3) (.inl ⟨m0, rfl⟩) (.inl ⟨m3, rfl⟩)
    have v3z1y2 : (uuWW.N c p).v 3 [spinOf s1, spinOf b2] = ab (uuWW.react.codePair c p 1 s1).1 (uuWW.react.codePair c p 2 b2).1 := bra_angle (p := p) (m := uuWW.proc.massNum (uuWW.rho c)) (uuWW.mass_eq hc 1) (uuWW.mass_eq hc 2) (.inl ⟨m1, rfl⟩) (.inl ⟨m2, rfl⟩)
    simp only [uuWW.term, uuWW.form, v6x2x3, v7y2y3, v0z0z1, v1z0z1, v8z1x3, v5z0x2, v13y2y3, v4z0x2, v9z1x3, v11z0x3, v2z1x2, v10z0x3, v3z1x2, v6y2y3, v14z1z0, v15z0z1, v7x2x3, v2z1y2, v11z0y3, v8z1y3, v5z0y2, v4z0y2, v9z1y3, v10z0y3, v3z1y2]
    push_cast
    ring
  show meaning (uuWW.N c p) .r Cls.uuWW.methods Cls.uuWW.amp2 [] = _
  have lc : uuWW.react.lineColours 1 0 = 3 := by decide +kernel
  have s0 : uuWW.react.states 0 = 6 := by decide
  have s1 : uuWW.react.states 1 = 6 := by decide
  have sy : uuWW.react.symmetry = 1 := by decide
  have p0 : uuWW.react.spins 0 = {0, 1} := rfl
  have p1 : uuWW.react.spins 1 = {0, 1} := rfl
  have p2 : uuWW.react.spins 2 = Finset.univ := rfl
  have p3 : uuWW.react.spins 3 = Finset.univ := rfl
  rw [uuWW.value, uuWW.react.squared_line he ht hB (noGluon_of hM) hs h0 (fun _ b _ hb _ => (boson_pos hc hh hb).ne') (uuWW.react.gauge_massive (massive_of hM)) (E := uuWW.react.codeVec c p) (fun n b hl => uuWW.react.codeVec_polarised hs h0 hl (massive_of hM n b hl) (fun _ => (boson_pos hc hh (massive_of hM n b hl)).ne')) hu, sum_colours, lc, s0, s1, sy]
  simp only [sumV_sum, sumJ_sum, am, norm_mul, norm_neg, norm_one, one_mul, p0, p1, p2, p3, Finset.sum_singleton, sum_two, Matrix.cons_val_zero, Matrix.cons_val_one, Matrix.cons_val, two_castSucc]
  try simp only [← Finset.mul_sum]
  push_cast
  first | ring1 | ring_nf

end Spinas.SM.Rows
