import Verif.SM.BosonRows

/-! Fermions and two W bosons, one before and one after. Generated by tools/bosons/emit.py: for each class its amplitude as a formula in spinors, and the proof that `amp2` is the squared amplitude of the Feynman rules. -/

set_option linter.unusedSimpArgs false
set_option linter.unusedVariables false
set_option linter.unreachableTactic false
set_option linter.unusedTactic false

namespace Spinas.SM.Rows
open Spec Spec.Reaction Props XR Matrix BRow

/-! ### eWWe -/

/-- what the methods of the class see -/
noncomputable abbrev eWWe.N [FPEnv] (c : Constants) (p : Nat → V4 ℝ) : Env := eWWe.proc.env (eWWe.rho c) p
/-- the term that `amp` adds for a choice of spinors (SM/eWWe.cpp) -/
noncomputable def eWWe.term (N : Env) (w : ℝ) (x : ℂ) (j1 a1 b1 a2 b2 j4 : Int) : ℂ :=
  ((((x + ((((((((-w) * N.r 11) : ℝ) : ℂ) * N.v 2 [a1, a2]) * N.v 3 [b1, b2]) * (N.v 10 [j1, j4] - N.v 11 [j1, j4])) / N.c 0)) + ((((((((-w) * N.r 10) : ℝ) : ℂ) * N.v 6 [a2, j4]) * N.v 1 [j1, a1]) * ((((N.r 4 : ℝ) : ℂ) * N.v 3 [b1, b2]) + N.v 12 [b1, b2])) / N.c 1)) + (((((((w * N.r 15) : ℝ) : ℂ) * ((((N.v 1 [j1, a1] * N.v 6 [a2, j4]) + (N.v 0 [j1, a1] * N.v 7 [a2, j4])) - (N.v 5 [j1, a2] * N.v 8 [a1, j4])) - (N.v 4 [j1, a2] * N.v 9 [a1, j4]))) * ((-N.v 3 [b1, b2]) + N.v 2 [b1, b2])) / N.c 4) + ((((((w * N.r 15) / N.r 4) : ℝ) : ℂ) * ((N.v 2 [a1, a2] * N.v 3 [b1, b2]) * (N.v 13 [j4, j1] - N.v 14 [j1, j4]))) / N.c 4))) + ((((((-w) * N.r 12) : ℝ) : ℂ) * (((((((((-(N.r 13 - N.r 14)) * N.r 1) : ℝ) : ℂ) * N.v 2 [a1, a2]) * N.v 3 [b1, b2]) * (N.v 10 [j1, j4] + N.v 11 [j1, j4])) + (((((((2 : Nat) : ℝ) : ℝ) : ℂ) * N.v 2 [a1, a2]) * N.v 3 [b1, b2]) * ((((N.r 13 : ℝ) : ℂ) * N.v 13 [j4, j1]) - (((N.r 14 : ℝ) : ℂ) * N.v 14 [j1, j4])))) + (((((((2 : Nat) : ℝ) * N.r 4) : ℝ) : ℂ) * (N.v 2 [a1, a2] - N.v 3 [a1, a2])) * ((((N.r 13 : ℝ) : ℂ) * ((N.v 6 [b2, j4] * N.v 1 [j1, b1]) - (N.v 8 [b1, j4] * N.v 5 [j1, b2]))) + (((N.r 14 : ℝ) : ℂ) * (((-N.v 4 [j1, b2]) * N.v 9 [b1, j4]) + (N.v 0 [j1, b1] * N.v 7 [b2, j4]))))))) / N.c 3))
/-- the same with spinors in place of their spins -/
noncomputable def eWWe.form (N : Env) (p : Nat → V4 ℝ) (z0 x1 y1 x2 y2 z3 : Pair) : ℂ :=
  ((((0 + ((((((((-((1 : Nat) : ℝ)) * N.r 11) : ℝ) : ℂ) * (sb x1.2 x2.2)) * (ab y1.1 y2.1)) * ((sb z0.2 z3.2) - (ab z0.1 z3.1))) / N.c 0)) + ((((((((-((1 : Nat) : ℝ)) * N.r 10) : ℝ) : ℂ) * (sb x2.2 z3.2)) * (ab z0.1 x1.1)) * ((((N.r 4 : ℝ) : ℂ) * (ab y1.1 y2.1)) + (mb y1.2 (p 0) y2.1))) / N.c 1)) + (((((((((1 : Nat) : ℝ) * N.r 15) : ℝ) : ℂ) * (((((ab z0.1 x1.1) * (sb x2.2 z3.2)) + ((sb z0.2 x1.2) * (ab x2.1 z3.1))) - ((ab z0.1 x2.1) * (sb x1.2 z3.2))) - ((sb z0.2 x2.2) * (ab x1.1 z3.1)))) * ((-(ab y1.1 y2.1)) + (sb y1.2 y2.2))) / N.c 4) + ((((((((1 : Nat) : ℝ) * N.r 15) / N.r 4) : ℝ) : ℂ) * (((sb x1.2 x2.2) * (ab y1.1 y2.1)) * ((mb z3.2 (p 2) z0.1) - (mb z0.2 (p 2) z3.1)))) / N.c 4))) + ((((((-((1 : Nat) : ℝ)) * N.r 12) : ℝ) : ℂ) * (((((((((-(N.r 13 - N.r 14)) * N.r 1) : ℝ) : ℂ) * (sb x1.2 x2.2)) * (ab y1.1 y2.1)) * ((sb z0.2 z3.2) + (ab z0.1 z3.1))) + (((((((2 : Nat) : ℝ) : ℝ) : ℂ) * (sb x1.2 x2.2)) * (ab y1.1 y2.1)) * ((((N.r 13 : ℝ) : ℂ) * (mb z3.2 (p 2) z0.1)) - (((N.r 14 : ℝ) : ℂ) * (mb z0.2 (p 2) z3.1))))) + (((((((2 : Nat) : ℝ) * N.r 4) : ℝ) : ℂ) * ((sb x1.2 x2.2) - (ab x1.1 x2.1))) * ((((N.r 13 : ℝ) : ℂ) * (((sb y2.2 z3.2) * (ab z0.1 y1.1)) - ((sb y1.2 z3.2) * (ab z0.1 y2.1)))) + (((N.r 14 : ℝ) : ℂ) * (((-(sb z0.2 y2.2)) * (ab y1.1 z3.1)) + ((sb z0.2 y1.2) * (ab y2.1 z3.1)))))))) / N.c 3))
theorem eWWe.key {c : Constants} {p : Nat → V4 ℝ} {N : Env} (hc : c.Physical) (hb : Balanced p) (r1 : N.r 1 = (c.mass .e)) (r4 : N.r 4 = c.MW) (r10 : N.r 10 = (((((2 : Nat) : ℝ) * c.e) * c.e) / ((((((2 : Nat) : ℝ) * c.MW) * c.MW) * c.SW) * c.SW))) (r11 : N.r 11 = ((((((2 : Nat) : ℝ) * c.e) * c.e) * (c.mass .e)) / ((((((4 : Nat) : ℝ) * c.MW) * c.MW) * c.SW) * c.SW))) (r12 : N.r 12 = ((c.e * c.e) / ((((((2 : Nat) : ℝ) * c.MW) * c.MW) * c.SW) * c.SW))) (r13 : N.r 13 = (((((2 : Nat) : ℝ) * c.SW) * c.SW) - ((1 : Nat) : ℝ))) (r14 : N.r 14 = ((((2 : Nat) : ℝ) * c.SW) * c.SW)) (r15 : N.r 15 = (((((2 : Nat) : ℝ) * c.e) * c.e) / c.MW)) (d0 : pole c.MH c.WH (plus (p 1) (backward (p 2))) = N.c 0) (n0 : N.c 0 ≠ 0) (d1 : ((msq (plus (p 0) (p 1)) - c.mass .ne ^ 2 : ℝ) : ℂ) = N.c 1) (n1 : N.c 1 ≠ 0) (d3 : pole c.MZ c.WZ (plus (p 1) (backward (p 2))) = N.c 3) (n3 : N.c 3 ≠ 0) (d4 : pole 0 0 (plus (p 1) (backward (p 2))) = N.c 4) (n4 : N.c 4 ≠ 0) {z0 z1 z2 z3 : Pair} (b0 : Bold (p 0) (c.mass .e) z0) (b1 : Bold (p 1) c.MW z1) (b2 : Bold (p 2) c.MW z2) (b3 : Bold (p 3) (c.mass .e) z3) (q1 : msq (p 1) = c.MW ^ 2) (q2 : msq (p 2) = c.MW ^ 2) :
    eWWe.form N p z0 z1 z1 z2 z2 z3 = ((2 / (c.MW * c.MW) : ℝ) : ℂ) * eWWe.react.bare c p 3 0 1 2 z3 z0 (pv z1.1 z1.2) (pv z2.1 z2.2) := by
  rw [eWWe.react.bare_parts c p (i := 3) (j := 0) (a := 1) (b := 2) (x := .wPlus) (y := .wMinus) (k := (p 1)) (k' := (backward (p 2))) (fun _ => rfl) (fun _ => rfl) (f := .e) (g := .e) rfl rfl (l := (p 0)) rfl (e := 1) (e' := 1) (if_neg Bool.false_ne_true) (if_neg Bool.false_ne_true)]
  rw [compton_vv (f := .e) (x := .ne) (g := .e) (h := (rfl : Spec.after .wPlus Flavour.e = some Flavour.ne)) (h' := (rfl : Spec.after .wMinus Flavour.ne = some Flavour.e)) (ha := by simp) (hb := by simp)]
  rw [compton_none (h := by simp [Spec.after, Flavour.e, Flavour.e]), star_zero]
  have an := annihilation_neutral c (1) (1) z3.1 z3.2 z0.1 z0.2 ⟨.wPlus, (p 1), pv z1.1 z1.2⟩ ⟨.wMinus, (backward (p 2)), pv z2.1 z2.2⟩ .e
  dsimp only at an
  rw [an, eWWe.form]
  clear an
  have Y1 := b1; have Q1 := q1
  have Y2 := b2.back; have Q2 : msq (backward (p 2)) = (-c.MW) ^ 2 := by rw [msq_backward, q2, neg_sq]
  rw [lineV_massless (hx := (rfl : Boson.massive .photon = false))]
  rw [lineV_massive (hx := (rfl : Boson.massive .z = true))]
  simp only [toHiggs, toVector, higgs2, gauge3, Boson.anti, Constants.bosonMass, Constants.bosonWidth, d0, d1, d3, d4, reduceCtorEq, and_self, and_true, and_false, and_true, if_true, if_false, Complex.ofReal_zero, zero_smul, zero_mul, mul_zero, zero_div, neg_zero, add_zero, zero_add, lineH, lineV_zero, contract_zero, lineV_smul, contract_smul, lineV_yangMills Y1 Y2, four_yangMills Y1 Y2 Q1 Q2, ym, lineV_pv, lineV_four, contract_four_pv, contract_pv, mb_plus, mb_backward]
  simp only [b0.mb_left, b0.mb_right, b1.mb_left, b1.mb_right, b2.mb_left, b2.mb_right, b3.mb_left, b3.mb_right, mb_three hb z0.2 z0.1, mb_three hb z0.2 z1.1, mb_three hb z0.2 z2.1, mb_two hb z0.2 z3.1, mb_three hb z1.2 z0.1, mb_three hb z1.2 z1.1, mb_three hb z1.2 z2.1, mb_two hb z1.2 z3.1, mb_three hb z2.2 z0.1, mb_three hb z2.2 z1.1, mb_three hb z2.2 z2.1, mb_one hb z2.2 z3.1, mb_two hb z3.2 z0.1, mb_two hb z3.2 z1.1, mb_one hb z3.2 z2.1, mb_two hb z3.2 z3.1, ab_self, sb_self]
  have hne : c.mass .ne = 0 := hc.neutrino _
  simp only [ab_swap z0.1 z1.1, sb_swap z0.2 z1.2, ab_swap z0.1 z2.1, sb_swap z0.2 z2.2, ab_swap z0.1 z3.1, sb_swap z0.2 z3.2, ab_swap z1.1 z2.1, sb_swap z1.2 z2.2, ab_swap z1.1 z3.1, sb_swap z1.2 z3.2, ab_swap z2.1 z3.1, sb_swap z2.2 z3.2, r1, r4, r10, r11, r12, r13, r14, r15, Constants.hL, Constants.hR, Constants.gL, Constants.gR, Constants.yuk, Constants.invVev, Flavour.charge_e, Flavour.isospin_e, Flavour.charge_ne, Flavour.isospin_ne, hne, ← c.mz]
  have xMW : (c.MW : ℂ) ≠ 0 := by exact_mod_cast hc.MW
  have xSW : (c.SW : ℂ) ≠ 0 := by exact_mod_cast hc.SW
  have xCW : (c.CW : ℂ) ≠ 0 := by exact_mod_cast hc.CW
  have x2 : ((√2 : ℝ) : ℂ) ≠ 0 := by exact_mod_cast (Real.sqrt_pos.2 two_pos).ne'
  have x22 : ((√2 : ℝ) : ℂ) ^ 2 = 2 := by rw [← Complex.ofReal_pow, Real.sq_sqrt two_pos.le]; norm_num
  push_cast
  field_simp
  first | ring1 | (ring_nf; simp only [x22]; ring1)
set_option maxRecDepth 8000 in
theorem eWWe.amp2_eq (N : Env) (f : Nat → List Int → ℂ) : Cls.eWWe.m_amp2.mean N f .r [] =
    ((sumJ (fun x a => (sumV (fun x b => (sumV (fun x c => (sumJ (fun x d => (x + (‖(f 0 [a, b, c, d])‖ ^ 2))) x)) x)) x)) ((0 : Nat) : ℝ)) / ((6 : Nat) : ℝ)) := by rfl
set_option maxRecDepth 8000 in
theorem eWWe.value (N : Env) : meaning N .r Cls.eWWe.methods Cls.eWWe.amp2 [] =
    ((sumJ (fun x a => (sumV (fun x b => (sumV (fun x c => (sumJ (fun x d => (x + (‖(Cls.eWWe.m_amp.mean N (callMean N []) .c [a, b, c, d])‖ ^ 2))) x)) x)) x)) ((0 : Nat) : ℝ)) / ((6 : Nat) : ℝ)) :=
  eWWe.amp2_eq N (callMean N [Cls.eWWe.m_amp])
set_option maxRecDepth 8000 in
theorem eWWe.term_lin (N : Env) (w : ℝ) (x : ℂ) (j1 a1 b1 a2 b2 j4 : Int) : eWWe.term N w x j1 a1 b1 a2 b2 j4 = x + (w : ℂ) * eWWe.term N 1 0 j1 a1 b1 a2 b2 j4 := by
  simp only [eWWe.term]; push_cast; ring
theorem eWWe.amp_eq (N : Env) (f : Nat → List Int → ℂ) (j1 j4 : Int) (t1 t2 : Fin 3) : Cls.eWWe.m_amp.mean N f .c [j1, spinV t1, spinV t2, j4] = comb t1 (fun a1 b1 => comb t2 (fun a2 b2 => eWWe.term N 1 0 j1 (spinOf a1) (spinOf b1) (spinOf a2) (spinOf b2) j4)) := by
  refine (amp_mean N f (m := 4) (K := 8) (G := fun i => eWWe.term N 1 0 (i 0) (i 6) (i 7) (i 4) (i 5) (i 3)) (fun l => ?_) (fun i i' h => ?_) rfl (by decide) (by decide) (by decide) (by decide) (by decide)).trans ?_
  · refine ⟨_, rfl, ?_⟩; exact ⟨rfl, rfl, eWWe.term_lin ..⟩
  · simp only [h 0 (by decide), h 6 (by decide), h 7 (by decide), h 4 (by decide), h 5 (by decide), h 3 (by decide)]
  · show amp' _ [spinV t1, spinV t2] = _
    simp only [amp'_comb, amp'_nil]
    rfl
theorem eWWe.form_x1 (N : Env) (p : Nat → V4 ℝ) (z0 y1 x2 y2 z3 x y : Pair) : eWWe.form N p z0 (x + y) y1 x2 y2 z3 = eWWe.form N p z0 x y1 x2 y2 z3 + eWWe.form N p z0 y y1 x2 y2 z3 := by
  simp only [eWWe.form, Prod.fst_add, Prod.snd_add, ab_add_left, ab_add_right, sb_add_left, sb_add_right, mb_add_left, mb_add_right]
  ring
theorem eWWe.form_y1 (N : Env) (p : Nat → V4 ℝ) (z0 x1 x2 y2 z3 x y : Pair) : eWWe.form N p z0 x1 (x + y) x2 y2 z3 = eWWe.form N p z0 x1 x x2 y2 z3 + eWWe.form N p z0 x1 y x2 y2 z3 := by
  simp only [eWWe.form, Prod.fst_add, Prod.snd_add, ab_add_left, ab_add_right, sb_add_left, sb_add_right, mb_add_left, mb_add_right]
  ring
theorem eWWe.form_x2 (N : Env) (p : Nat → V4 ℝ) (z0 x1 y1 y2 z3 x y : Pair) : eWWe.form N p z0 x1 y1 (x + y) y2 z3 = eWWe.form N p z0 x1 y1 x y2 z3 + eWWe.form N p z0 x1 y1 y y2 z3 := by
  simp only [eWWe.form, Prod.fst_add, Prod.snd_add, ab_add_left, ab_add_right, sb_add_left, sb_add_right, mb_add_left, mb_add_right]
  ring
theorem eWWe.form_y2 (N : Env) (p : Nat → V4 ℝ) (z0 x1 y1 x2 z3 x y : Pair) : eWWe.form N p z0 x1 y1 x2 (x + y) z3 = eWWe.form N p z0 x1 y1 x2 x z3 + eWWe.form N p z0 x1 y1 x2 y z3 := by
  simp only [eWWe.form, Prod.fst_add, Prod.snd_add, ab_add_left, ab_add_right, sb_add_left, sb_add_right, mb_add_left, mb_add_right]
  ring

theorem eWWe.mass_eq {c : Constants} (hc : c.Physical) (i : Fin 4) : eWWe.proc.massNum (eWWe.rho c) i = eWWe.react.mass c i := by
  fin_cases i <;> first | rfl | exact Nat.cast_zero.trans (hc.neutrino _).symm | (show c.MW / √(((1 : Nat) : ℝ) - c.SW * c.SW) = c.MZ; rw [c.root, c.mz])

variable [FPEnv] in
theorem eWWe.agrees : eWWe.Agrees := by
  refine agrees_of (D := [4, 5]) (E := [5]) (by simp [all, eWWe]) (by decide +kernel) (by decide) (by decide +kernel) (fun c hc hh => ⟨List.forall_mem_cons.2 ⟨hc.MW, List.forall_mem_cons.2 ⟨hc.SW, List.forall_mem_nil _⟩⟩, List.forall_mem_cons.2 ⟨hc.SW_lt, List.forall_mem_nil _⟩⟩) (fun c hc i => eWWe.mass_eq hc i) (by decide +kernel) ?_
  intro c p u ε hc hh hw h0 hs hb hr hu
  have he : eWWe.react.ends = [3] := by decide
  have ht : eWWe.react.starts = [0] := by decide
  have hB : eWWe.react.bosons = [1, 2] := by decide
  have hM : eWWe.react.allMassive = true := by decide
  obtain ⟨f1, f2, f3⟩ := eWWe.react.regular_line he ht hB hr
  have r1 : (eWWe.N c p).r 1 = (c.mass .e) := rfl
  have r4 : (eWWe.N c p).r 4 = c.MW := rfl
  have r10 : (eWWe.N c p).r 10 = (((((2 : Nat) : ℝ) * c.e) * c.e) / ((((((2 : Nat) : ℝ) * c.MW) * c.MW) * c.SW) * c.SW)) := rfl
  have r11 : (eWWe.N c p).r 11 = ((((((2 : Nat) : ℝ) * c.e) * c.e) * (c.mass .e)) / ((((((4 : Nat) : ℝ) * c.MW) * c.MW) * c.SW) * c.SW)) := rfl
  have r12 : (eWWe.N c p).r 12 = ((c.e * c.e) / ((((((2 : Nat) : ℝ) * c.MW) * c.MW) * c.SW) * c.SW)) := rfl
  have r13 : (eWWe.N c p).r 13 = (((((2 : Nat) : ℝ) * c.SW) * c.SW) - ((1 : Nat) : ℝ)) := rfl
  have r14 : (eWWe.N c p).r 14 = ((((2 : Nat) : ℝ) * c.SW) * c.SW) := rfl
  have r15 : (eWWe.N c p).r 15 = (((((2 : Nat) : ℝ) * c.e) * c.e) / c.MW) := rfl
  have c0 : (eWWe.N c p).c 0 = poleDist c.MH c.WH ((VExp.sub 0 3).sum p) := rfl
  rw [pole_congr (msq_u hb (plus (p 1) (backward (p 2))) (by simp)).symm] at c0
  have d0 : pole c.MH c.WH (plus (p 1) (backward (p 2))) = (eWWe.N c p).c 0 := by rw [c0]
  have n0 : (eWWe.N c p).c 0 ≠ 0 := by rw [← d0]; exact star_ne_zero.2 (f3 .higgs rfl rfl)
  have c1 : (eWWe.N c p).c 1 = poleDist ((0 : Nat) : ℝ) ((0 : Nat) : ℝ) ((VExp.add 0 1).sum p) := rfl
  rw [Nat.cast_zero, pole_fermion (msq_s hb (plus (p 0) (p 1)) (by simp))] at c1
  have d1 : ((msq (plus (p 0) (p 1)) - c.mass .ne ^ 2 : ℝ) : ℂ) = (eWWe.N c p).c 1 := by rw [c1, show c.mass .ne = 0 from hc.neutrino _]
  have n1 : (eWWe.N c p).c 1 ≠ 0 := by rw [← d1]; exact_mod_cast f1 .ne rfl rfl
  have c3 : (eWWe.N c p).c 3 = poleDist (c.MW / √((((1 : Nat) : ℝ) - (c.SW * c.SW)))) c.WZ ((VExp.sub 0 3).sum p) := rfl
  rw [c.root, c.mz, pole_congr (msq_u hb (plus (p 1) (backward (p 2))) (by simp)).symm] at c3
  have d3 : pole c.MZ c.WZ (plus (p 1) (backward (p 2))) = (eWWe.N c p).c 3 := by rw [c3]
  have n3 : (eWWe.N c p).c 3 ≠ 0 := by rw [← d3]; exact star_ne_zero.2 (f3 .z rfl rfl)
  have c4 : (eWWe.N c p).c 4 = poleDist ((0 : Nat) : ℝ) ((0 : Nat) : ℝ) ((VExp.sub 0 3).sum p) := rfl
  rw [Nat.cast_zero, pole_congr (msq_u hb (plus (p 1) (backward (p 2))) (by simp)).symm] at c4
  have d4 : pole 0 0 (plus (p 1) (backward (p 2))) = (eWWe.N c p).c 4 := by rw [c4]
  have n4 : (eWWe.N c p).c 4 ≠ 0 := by rw [← d4]; exact star_ne_zero.2 (f3 .photon rfl rfl)
  have m0 : eWWe.react.mass c 0 ≠ 0 := (leg_pos hc hh (by decide)).ne'
  have m1 : eWWe.react.mass c 1 ≠ 0 := (leg_pos hc hh (by decide)).ne'
  have m2 : eWWe.react.mass c 2 ≠ 0 := (leg_pos hc hh (by decide)).ne'
  have m3 : eWWe.react.mass c 3 ≠ 0 := (leg_pos hc hh (by decide)).ne'
  have hd : eWWe.proc.divides = [(Ty.c, 0), (Ty.c, 1), (Ty.c, 4), (Ty.r, 4), (Ty.c, 3)] := by decide +kernel
  refine ⟨fun n hn => ?_, fun n hn => ?_, ?_⟩
  · simp [hd] at hn
    rcases hn with rfl
    · rw [r4]; exact hc.MW
  · simp [hd] at hn
    rcases hn with rfl | rfl | rfl | rfl
    · exact n0
    · exact n1
    · exact n4
    · exact n3
  have st : ∀ {z0 z3 : Pair} (b0 : Bold (p 0) (eWWe.react.mass c 0) z0) (b3 : Bold (p 3) (eWWe.react.mass c 3) z3) (t1 t2 : Fin 3), comb t1 (fun a1 b1 => comb t2 (fun a2 b2 => eWWe.form (eWWe.N c p) p z0 (eWWe.react.codePair c p 1 a1) (eWWe.react.codePair c p 1 b1) (eWWe.react.codePair c p 2 a2) (eWWe.react.codePair c p 2 b2) z3)) = 1 * eWWe.react.bare c p 3 0 1 2 z3 z0 (eWWe.react.codeVec c p 1 t1) (eWWe.react.codeVec c p 2 t2) := by
    intro z0 z3 b0 b3 t1 t2
    refine two_vectors (p := p 1) (p' := p 2) (m := eWWe.react.mass c 1) (m' := eWWe.react.mass c 2) (fun s => eWWe.react.codePair_bold hs h0 1 s) (fun s => eWWe.react.codePair_bold hs h0 2 s) (B := fun x y x' y' => eWWe.form (eWWe.N c p) p z0 x y x' y' z3) (G := fun E F => eWWe.react.bare c p 3 0 1 2 z3 z0 E F) (fun _ _ _ _ _ => ?_) (fun _ _ _ _ _ => ?_) (fun _ _ _ _ _ => ?_) (fun _ _ _ _ _ => ?_) (fun F => eWWe.react.bare_lin₁ c p _ _ _ (by decide)) (fun E => eWWe.react.bare_lin₂ c p _ _ _ (by decide)) 1 (fun z1 z2 b1 b2 => ?_) t1 t2
    · exact eWWe.form_x1 ..
    · exact eWWe.form_y1 ..
    · exact eWWe.form_x2 ..
    · exact eWWe.form_y2 ..
    · rw [one_mul]; exact eWWe.key hc hb r1 r4 r10 r11 r12 r13 r14 r15 d0 n0 d1 n1 d3 n3 d4 n4 b0 b1 b2 b3 (onShell_msq (hs 1)) (onShell_msq (hs 2)) 
  have am : ∀ (s0 : Fin 2) (s3 : Fin 2) (t1 t2 : Fin 3), Cls.eWWe.m_amp.mean (eWWe.N c p) (callMean (eWWe.N c p) []) .c [spinOf s0, spinV t1, spinV t2, spinOf s3] = 1 * eWWe.react.bare c p 3 0 1 2 (eWWe.react.codePair c p 3 s3) (eWWe.react.codePair c p 0 s0) (eWWe.react.codeVec c p 1 t1) (eWWe.react.codeVec c p 2 t2) := by
    intro s0 s3 t1 t2
    rw [eWWe.amp_eq, ← st (eWWe.react.codePair_bold hs h0 0 s0) (eWWe.react.codePair_bold hs h0 3 s3) t1 t2]
    refine congrArg (comb t1) (funext fun a1 => funext fun b1 => ?_)
    refine congrArg (comb t2) (funext fun a2 => funext fun b2 => ?_)
    have v2x1x2 : (eWWe.N c p).v 2 [spinOf a1, spinOf a2] = sb (eWWe.react.codePair c p 1 a1).2 (eWWe.react.codePair c p 2 a2).2 := bra_square (p := p) (m := eWWe.proc.massNum (eWWe.rho c)) (eWWe.mass_eq hc 1) (eWWe.mass_eq hc 2) (.inl ⟨m1, rfl⟩) (.inl ⟨m2, rfl⟩)
    have v3y1y2 : (eWWe.N c p).v 3 [spinOf b1, spinOf b2] = ab (eWWe.react.codePair c p 1 b1).1 (eWWe.react.codePair c p 2 b2).1 := bra_angle (p := p) (m := eWWe.proc.massNum (eWWe.rho c)) (eWWe.mass_eq hc 1) (eWWe.mass_eq hc 2) (.inl ⟨m1, rfl⟩) (.inl ⟨m2, rfl⟩)
    have v10z0z3 : (eWWe.N c p).v 10 [spinOf s0, spinOf s3] = sb (eWWe.react.codePair c p 0 s0).2 (eWWe.react.codePair c p 3 s3).2 := bra_square (p := p) (m := eWWe.proc.massNum (eWWe.rho c)) (eWWe.mass_eq hc 0) (eWWe.mass_eq hc 3) (.inl ⟨m0, rfl⟩) (.inl ⟨m3, rfl⟩)
    have v11z0z3 : (eWWe.N c p).v 11 [spinOf s0, spinOf s3] = ab (eWWe.react.codePair c p 0 s0).1 (eWWe.react.codePair c p 3 s3).1 := bra_angle (p := p) (m := eWWe.proc.massNum (eWWe.rho c)) (eWWe.mass_eq hc 0) (eWWe.mass_eq hc 3) (.inl ⟨m0, rfl⟩) (.inl ⟨m3, rfl⟩)
    have v6x2z3 : (eWWe.N c p).v 6 [spinOf a2, spinOf s3] = sb (eWWe.react.codePair c p 2 a2).2 (eWWe.react.codePair c p 3 s3).2 := bra_square (p := p) (m := eWWe.proc.massNum (eWWe.rho c)) (eWWe.mass_eq hc 2) (eWWe.mass_eq hc 3) (.inl ⟨m2, rfl⟩) (.inl ⟨m3, rfl⟩)
    have v1z0x1 : (eWWe.N c p).v 1 [spinOf s0, spinOf a1] = ab (eWWe.react.codePair c p 0 s0).1 (eWWe.react.codePair c p 1 a1).1 := bra_angle (p := p) (m := eWWe.proc.massNum (eWWe.rho c)) (eWWe.mass_eq hc 0) (eWWe.mass_eq hc 1) (.inl ⟨m0, rfl⟩) (.inl ⟨m1, rfl⟩)
    have v12y1y2 : (eWWe.N c p).v 12 [spinOf b1, spinOf b2] = mb (eWWe.react.codePair c p 1 b1).2 (p 0) (eWWe.react.codePair c p 2 b2).1 := bra_mid_square (p := p) (m := eWWe.proc.massNum (eWWe.rho c)) (eWWe.mass_eq hc 1) (eWWe.mass_eq hc 2) (.inl ⟨m1, rfl⟩) (.inl ⟨m2, rfl⟩)
    have v0z0x1 : (eWWe.N c p).v 0 [spinOf s0, spinOf a1] = sb (eWWe.react.codePair c p 0 s0).2 (eWWe.react.codePair c p 1 a1).2 := bra_square (p := p) (m := eWWe.proc.massNum (eWWe.rho c)) (eWWe.mass_eq hc 0) (eWWe.mass_eq hc 1) (.inl ⟨m0, rfl⟩) (.inl ⟨m1, rfl⟩)
    have v7x2z3 : (eWWe.N c p).v 7 [spinOf a2, spinOf s3] = ab (eWWe.react.codePair c p 2 a2).1 (eWWe.react.codePair c p 3 s3).1 := bra_angle (p := p) (m := eWWe.proc.massNum (eWWe.rho c)) (eWWe.mass_eq hc 2) (eWWe.mass_eq hc 3) (.inl ⟨m2, rfl⟩) (.inl ⟨m3, rfl⟩)
    have v5z0x2 : (eWWe.N c p).v 5 [spinOf s0, spinOf a2] = ab (eWWe.react.codePair c p 0 s0).1 (eWWe.react.codePair c p 2 a2).1 := bra_angle (p := p) (m := eWWe.proc.massNum (eWWe.rho c)) (eWWe.mass_eq hc 0) (eWWe.mass_eq hc 2) (.inl ⟨m0, rfl⟩) (.inl ⟨m2, rfl⟩)
    have v8x1z3 : (eWWe.N c p).v 8 [spinOf a1, spinOf s3] = sb (eWWe.react.codePair c p 1 a1).2 (eWWe.react.codePair c p 3 s3).2 := bra_square (p := p) (m := eWWe.proc.massNum (eWWe.rho c)) (eWWe.mass_eq hc 1) (eWWe.mass_eq hc 3) (.inl ⟨m1, rfl⟩) (.inl ⟨m3, rfl⟩)
    have v4z0x2 : (eWWe.N c p).v 4 [spinOf s0, spinOf a2] = sb (eWWe.react.codePair c p 0 s0).2 (eWWe.react.codePair c p 2 a2).2 := bra_square (p := p) (m := eWWe.proc.massNum (eWWe.rho c)) (eWWe.mass_eq hc 0) (eWWe.mass_eq hc 2) (.inl ⟨m0, rfl⟩) (.inl ⟨m2, rfl⟩)
    have v9x1z3 : (eWWe.N c p).v 9 [spinOf a1, spinOf s3] = ab (eWWe.react.codePair c p 1 a1).1 (eWWe.react.codePair c p 3 s3).1 := bra_angle (p := p) (m := eWWe.proc.massNum (eWWe.rho c)) (eWWe.mass_eq hc 1) (eWWe.mass_eq hc 3) (.inl ⟨m1, rfl⟩) (.inl ⟨m3, rfl⟩)
    have v2y1y2 : (eWWe.N c p).v 2 [spinOf b1, spinOf b2] = sb (eWWe.react.codePair c p 1 b1).2 (eWWe.react.codePair c p 2 b2).2 := bra_square (p := p) (m := eWWe.proc.massNum (eWWe.rho c)) (eWWe.mass_eq hc 1) (eWWe.mass_eq hc 2) (.inl ⟨m1, rfl⟩) (.inl ⟨m2, rfl⟩)
    have v13z3z0 : (eWWe.N c p).v 13 [spinOf s3, spinOf s0] = mb (eWWe.react.codePair c p 3 s3).2 (p 2) (eWWe.react.codePair c p 0 s0).1 := bra_mid_square (p := p) (m := eWWe.proc.massNum (eWWe.rho c)) (eWWe.mass_eq hc 3) (eWWe.mass_eq hc 0) (.inl ⟨m3, rfl⟩) (.inl ⟨m0, rfl⟩)
    have v14z0z3 : (eWWe.N c p).v 14 [spinOf s0, spinOf s3] = mb (eWWe.react.codePair c p 0 s0).2 (p 2) (eWWe.react.codePair c p 3 s3).1 := bra_mid_square (p := p) (m := eWWe.proc.massNum (eWWe.rho c)) (eWWe.mass_eq hc 0) (eWWe.mass_eq hc 3) (.inl ⟨m0, rfl⟩) (.inl ⟨m3, rfl⟩)
    have v3x1x2 : (eWWe.N c p).v 3 [spinOf a1, spinOf a2] = ab (eWWe.react.codePair c p 1 a1).1 (eWWe.react.codePair c p 2 a2).1 := bra_angle (p := p) (m := eWWe.proc.massNum (eWWe.rho c)) (eWWe.mass_eq hc 1) (eWWe.mass_eq hc 2) (.inl ⟨m1, rfl⟩) (.inl ⟨m2, rfl⟩)
    have v6y2z3 : (eWWe.N c p).v 6 [spinOf b2, spinOf s3] = sb (eWWe.react.codePair c p 2 b2).2 (eWWe.react.codePair c p 3 s3).2 := bra_square (p := p) (m := eWWe.proc.massNum (eWWe.rho c)) (eWWe.mass_eq hc 2) (eWWe.mass_eq hc 3) (.inl ⟨m2, rfl⟩) (.inl ⟨m3, rfl⟩)
    have v1z0y1 : (eWWe.N c p).v 1 [spinOf s0, spinOf b1] = ab (eWWe.react.codePair c p 0 s0).1 (eWWe.react.codePair c p 1 b1).1 := bra_angle (p := p) (m := eWWe.proc.massNum (eWWe.rho c)) (eWWe.mass_eq hc 0) (eWWe.mass_eq hc 1) (.inl ⟨m0, rfl⟩) (.inl ⟨m1, rfl⟩)
    have v8y1z3 : (eWWe.N c p).v 8 [spinOf b1, spinOf s3] = sb (eWWe.react.codePair c p 1 b1).2 (eWWe.react.codePair c p 3 s3).2 := bra_square (p := p) (m := eWWe.proc.massNum (eWWe.rho c)) (eWWe.mass_eq hc 1) (eWWe.mass_eq hc 3) (.inl ⟨m1, rfl⟩) (.inl ⟨m3, rfl⟩)
    have v5z0y2 : (eWWe.N c p).v 5 [spinOf s0, spinOf b2] = ab (eWWe.react.codePair c p 0 s0).1 (eWWe.react.codePair c p 2 b2).1 := bra_angle (p := p) (m := eWWe.proc.massNum (eWWe.rho c)) (eWWe.mass_eq hc 0) (eWWe.mass_eq hc 2) (.inl ⟨m0, rfl⟩) (.inl ⟨m2, rfl⟩)
    have v4z0y2 : (eWWe.N c p).v 4 [spinOf s0, spinOf b2] = sb (eWWe.react.codePair c p 0 s0).2 (eWWe.react.codePair c p 2 b2).2 := bra_square (p := p) (m := eWWe.proc.massNum (eWWe.rho c)) (eWWe.mass_eq hc 0) (eWWe.mass_eq hc 2) (.inl ⟨m0, rfl⟩) (.inl ⟨m2, rfl⟩)
    have v9y1z3 : (eWWe.N c p).v 9 [spinOf b1, spinOf s3] = ab (eWWe.react.codePair c p 1 b1).1 (eWWe.react.codePair c p 3 s3).1 := bra_angle (p := p) (m := eWWe.proc.massNum (eWWe.rho c)) (eWWe.mass_eq hc 1) (eWWe.mass_eq hc 3) (.inl ⟨m1, rfl⟩) (.inl ⟨m3, rfl⟩)
    have v0z0y1 : (eWWe.N c p).v 0 [spinOf s0, spinOf b1] = sb (eWWe.react.codePair c p 0 s0).2 (eWWe.react.codePair c p 1 b1).2 := bra_square (p := p) (m := eWWe.proc.massNum (eWWe.rho c)) (eWWe.mass_eq hc 0) (eWWe.mass_eq hc 1) (.inl ⟨m0, rfl⟩) (.inl ⟨m1, rfl⟩)
    have v7y2z3 : (eWWe.N c p).v 7 [spinOf b2, spinOf s3] = ab (eWWe.react.codePair c p 2 b2).1 (eWWe.react.codePair c p 3 s3).1 := bra_angle (p := p) (m := eWWe.proc.massNum (eWWe.rho c)) (eWWe.mass_eq hc 2) (eWWe.mass_eq hc 3) (.inl ⟨m2, rfl⟩) (.inl ⟨m3, rfl⟩)
    simp only [eWWe.term, eWWe.form, v2x1x2, v3y1y2, v10z0z3, v11z0z3, v6x2z3, v1z0x1, v12y1y2, v0z0x1, v7x2z3, v5z0x2, v8x1z3, v4z0x2, v9x1z3, v2y1y2, v13z3z0, v14z0z3, v3x1x2, v6y2z3, v1z0y1, v8y1z3, v5z0y2, v4z0y2, v9y1z3, v0z0y1, v7y2z3]
    push_cast
    ring
  show meaning (eWWe.N c p) .r Cls.eWWe.methods Cls.eWWe.amp2 [] = _
  have lc : eWWe.react.lineColours 3 0 = 1 := by decide +kernel
  have s0 : eWWe.react.states 0 = 2 := by decide
  have s1 : eWWe.react.states 1 = 3 := by decide
  have sy : eWWe.react.symmetry = 1 := by decide
  have p0 : eWWe.react.spins 0 = {0, 1} := rfl
  have p1 : eWWe.react.spins 1 = Finset.univ := rfl
  have p2 : eWWe.react.spins 2 = Finset.univ := rfl
  have p3 : eWWe.react.spins 3 = {0, 1} := rfl
  rw [eWWe.value, eWWe.react.squared_line he ht hB (noGluon_of hM) hs h0 (fun _ b _ hb _ => (boson_pos hc hh hb).ne') (eWWe.react.gauge_massive (massive_of hM)) (E := eWWe.react.codeVec c p) (fun n b hl => eWWe.react.codeVec_polarised hs h0 hl (massive_of hM n b hl) (fun _ => (boson_pos hc hh (massive_of hM n b hl)).ne')) hu, sum_colours, lc, s0, s1, sy]
  simp only [sumV_sum, sumJ_sum, am, norm_mul, norm_neg, norm_one, one_mul, p0, p1, p2, p3, Finset.sum_singleton, sum_two, Matrix.cons_val_zero, Matrix.cons_val_one, Matrix.cons_val, two_castSucc]
  try simp only [← Finset.mul_sum]
  push_cast
  first | ring1 | ring_nf

/-! ### uWWu -/

/-- what the methods of the class see -/
noncomputable abbrev uWWu.N [FPEnv] (c : Constants) (p : Nat → V4 ℝ) : Env := uWWu.proc.env (uWWu.rho c) p
/-- the term that `amp` adds for a choice of spinors (SM/uWWu.cpp) -/
noncomputable def uWWu.term (N : Env) (w : ℝ) (x : ℂ) (j1 a1 b1 a2 b2 j4 : Int) : ℂ :=
  ((((x + ((((((((-w) * N.r 13) : ℝ) : ℂ) * N.v 2 [a1, a2]) * N.v 3 [b1, b2]) * (N.v 10 [j1, j4] - N.v 11 [j1, j4])) / N.c 0)) + ((((((((-w) * N.r 12) : ℝ) : ℂ) * N.v 8 [a1, j4]) * N.v 5 [j1, a2]) * ((((N.r 6 : ℝ) : ℂ) * N.v 3 [b1, b2]) + N.v 13 [b2, b1])) / N.c 1)) + ((((((((((((-w) * N.r 0) * N.r 0) * N.r 1) * ((2 : Nat) : ℝ)) / N.r 6) : ℝ) : ℂ) * (((((-N.v 5 [j1, a2]) * N.v 8 [a1, j4]) - (N.v 4 [j1, a2] * N.v 9 [a1, j4])) + (N.v 1 [j1, a1] * N.v 6 [a2, j4])) + (N.v 0 [j1, a1] * N.v 7 [a2, j4]))) * (N.v 2 [b1, b2] - N.v 3 [b1, b2])) / N.c 4) - ((((((((((w * N.r 0) * N.r 0) * N.r 1) * ((2 : Nat) : ℝ)) / N.r 6) / N.r 6) : ℝ) : ℂ) * ((N.v 2 [a1, a2] * N.v 3 [b1, b2]) * (N.v 14 [j4, j1] - N.v 15 [j1, j4]))) / N.c 4))) + ((((((-w) * N.r 14) : ℝ) : ℂ) * (((((((((-(N.r 15 - N.r 16)) * N.r 2) : ℝ) : ℂ) * N.v 2 [a1, a2]) * N.v 3 [b1, b2]) * (N.v 10 [j1, j4] + N.v 11 [j1, j4])) + (((((((2 : Nat) : ℝ) : ℝ) : ℂ) * N.v 2 [a1, a2]) * N.v 3 [b1, b2]) * ((((N.r 15 : ℝ) : ℂ) * N.v 14 [j4, j1]) - (((N.r 16 : ℝ) : ℂ) * N.v 15 [j1, j4])))) + (((((((2 : Nat) : ℝ) * N.r 6) : ℝ) : ℂ) * (N.v 2 [a1, a2] - N.v 3 [a1, a2])) * ((((N.r 15 : ℝ) : ℂ) * ((N.v 6 [b2, j4] * N.v 1 [j1, b1]) - (N.v 8 [b1, j4] * N.v 5 [j1, b2]))) - (((N.r 16 : ℝ) : ℂ) * ((N.v 4 [j1, b2] * N.v 9 [b1, j4]) - (N.v 0 [j1, b1] * N.v 7 [b2, j4]))))))) / N.c 3))
/-- the same with spinors in place of their spins -/
noncomputable def uWWu.form (N : Env) (p : Nat → V4 ℝ) (z0 x1 y1 x2 y2 z3 : Pair) : ℂ :=
  ((((0 + ((((((((-((1 : Nat) : ℝ)) * N.r 13) : ℝ) : ℂ) * (sb x1.2 x2.2)) * (ab y1.1 y2.1)) * ((sb z0.2 z3.2) - (ab z0.1 z3.1))) / N.c 0)) + ((((((((-((1 : Nat) : ℝ)) * N.r 12) : ℝ) : ℂ) * (sb x1.2 z3.2)) * (ab z0.1 x2.1)) * ((((N.r 6 : ℝ) : ℂ) * (ab y1.1 y2.1)) + (mb y2.2 (p 0) y1.1))) / N.c 1)) + ((((((((((((-((1 : Nat) : ℝ)) * N.r 0) * N.r 0) * N.r 1) * ((2 : Nat) : ℝ)) / N.r 6) : ℝ) : ℂ) * (((((-(ab z0.1 x2.1)) * (sb x1.2 z3.2)) - ((sb z0.2 x2.2) * (ab x1.1 z3.1))) + ((ab z0.1 x1.1) * (sb x2.2 z3.2))) + ((sb z0.2 x1.2) * (ab x2.1 z3.1)))) * ((sb y1.2 y2.2) - (ab y1.1 y2.1))) / N.c 4) - ((((((((((((1 : Nat) : ℝ) * N.r 0) * N.r 0) * N.r 1) * ((2 : Nat) : ℝ)) / N.r 6) / N.r 6) : ℝ) : ℂ) * (((sb x1.2 x2.2) * (ab y1.1 y2.1)) * ((mb z3.2 (p 2) z0.1) - (mb z0.2 (p 2) z3.1)))) / N.c 4))) + ((((((-((1 : Nat) : ℝ)) * N.r 14) : ℝ) : ℂ) * (((((((((-(N.r 15 - N.r 16)) * N.r 2) : ℝ) : ℂ) * (sb x1.2 x2.2)) * (ab y1.1 y2.1)) * ((sb z0.2 z3.2) + (ab z0.1 z3.1))) + (((((((2 : Nat) : ℝ) : ℝ) : ℂ) * (sb x1.2 x2.2)) * (ab y1.1 y2.1)) * ((((N.r 15 : ℝ) : ℂ) * (mb z3.2 (p 2) z0.1)) - (((N.r 16 : ℝ) : ℂ) * (mb z0.2 (p 2) z3.1))))) + (((((((2 : Nat) : ℝ) * N.r 6) : ℝ) : ℂ) * ((sb x1.2 x2.2) - (ab x1.1 x2.1))) * ((((N.r 15 : ℝ) : ℂ) * (((sb y2.2 z3.2) * (ab z0.1 y1.1)) - ((sb y1.2 z3.2) * (ab z0.1 y2.1)))) - (((N.r 16 : ℝ) : ℂ) * (((sb z0.2 y2.2) * (ab y1.1 z3.1)) - ((sb z0.2 y1.2) * (ab y2.1 z3.1)))))))) / N.c 3))
theorem uWWu.key {c : Constants} {p : Nat → V4 ℝ} {N : Env} (hc : c.Physical) (hb : Balanced p) (r0 : N.r 0 = c.e) (r1 : N.r 1 = (((2 : Nat) : ℝ) / ((3 : Nat) : ℝ))) (r2 : N.r 2 = (c.mass .u)) (r6 : N.r 6 = c.MW) (r12 : N.r 12 = (((((2 : Nat) : ℝ) * c.e) * c.e) / ((((((2 : Nat) : ℝ) * c.MW) * c.MW) * c.SW) * c.SW))) (r13 : N.r 13 = ((((((2 : Nat) : ℝ) * c.e) * c.e) * (c.mass .u)) / ((((((4 : Nat) : ℝ) * c.MW) * c.MW) * c.SW) * c.SW))) (r14 : N.r 14 = ((c.e * c.e) / ((((((2 : Nat) : ℝ) * c.MW) * c.MW) * c.SW) * c.SW))) (r15 : N.r 15 = (((((-((2 : Nat) : ℝ)) * (((2 : Nat) : ℝ) / ((3 : Nat) : ℝ))) * c.SW) * c.SW) + ((1 : Nat) : ℝ))) (r16 : N.r 16 = ((((-((2 : Nat) : ℝ)) * (((2 : Nat) : ℝ) / ((3 : Nat) : ℝ))) * c.SW) * c.SW)) (d0 : pole c.MH c.WH (plus (p 1) (backward (p 2))) = N.c 0) (n0 : N.c 0 ≠ 0) (d1 : ((msq (plus (p 0) (backward (p 2))) - c.mass .d ^ 2 : ℝ) : ℂ) = N.c 1) (n1 : N.c 1 ≠ 0) (d3 : pole c.MZ c.WZ (plus (p 1) (backward (p 2))) = N.c 3) (n3 : N.c 3 ≠ 0) (d4 : pole 0 0 (plus (p 1) (backward (p 2))) = N.c 4) (n4 : N.c 4 ≠ 0) {z0 z1 z2 z3 : Pair} (b0 : Bold (p 0) (c.mass .u) z0) (b1 : Bold (p 1) c.MW z1) (b2 : Bold (p 2) c.MW z2) (b3 : Bold (p 3) (c.mass .u) z3) (q1 : msq (p 1) = c.MW ^ 2) (q2 : msq (p 2) = c.MW ^ 2) :
    uWWu.form N p z0 z1 z1 z2 z2 z3 = ((2 / (c.MW * c.MW) : ℝ) : ℂ) * uWWu.react.bare c p 3 0 1 2 z3 z0 (pv z1.1 z1.2) (pv z2.1 z2.2) := by
  rw [uWWu.react.bare_parts c p (i := 3) (j := 0) (a := 1) (b := 2) (x := .wPlus) (y := .wMinus) (k := (p 1)) (k' := (backward (p 2))) (fun _ => rfl) (fun _ => rfl) (f := .u) (g := .u) rfl rfl (l := (p 0)) rfl (e := 1) (e' := 1) (if_neg Bool.false_ne_true) (if_neg Bool.false_ne_true)]
  rw [compton_none (h := by simp [Spec.after, Flavour.u, Flavour.u]), star_zero]
  rw [compton_vv (f := .u) (x := .d) (g := .u) (h := (rfl : Spec.after .wMinus Flavour.u = some Flavour.d)) (h' := (rfl : Spec.after .wPlus Flavour.d = some Flavour.u)) (ha := by simp) (hb := by simp)]
  have an := annihilation_neutral c (1) (1) z3.1 z3.2 z0.1 z0.2 ⟨.wPlus, (p 1), pv z1.1 z1.2⟩ ⟨.wMinus, (backward (p 2)), pv z2.1 z2.2⟩ .u
  dsimp only at an
  rw [an, uWWu.form]
  clear an
  have Y1 := b1; have Q1 := q1
  have Y2 := b2.back; have Q2 : msq (backward (p 2)) = (-c.MW) ^ 2 := by rw [msq_backward, q2, neg_sq]
  rw [lineV_massless (hx := (rfl : Boson.massive .photon = false))]
  rw [lineV_massive (hx := (rfl : Boson.massive .z = true))]
  simp only [toHiggs, toVector, higgs2, gauge3, Boson.anti, Constants.bosonMass, Constants.bosonWidth, d0, d1, d3, d4, reduceCtorEq, and_self, and_true, and_false, and_true, if_true, if_false, Complex.ofReal_zero, zero_smul, zero_mul, mul_zero, zero_div, neg_zero, add_zero, zero_add, lineH, lineV_zero, contract_zero, lineV_smul, contract_smul, lineV_yangMills Y1 Y2, four_yangMills Y1 Y2 Q1 Q2, ym, lineV_pv, lineV_four, contract_four_pv, contract_pv, mb_plus, mb_backward]
  simp only [b0.mb_left, b0.mb_right, b1.mb_left, b1.mb_right, b2.mb_left, b2.mb_right, b3.mb_left, b3.mb_right, mb_three hb z0.2 z0.1, mb_three hb z0.2 z1.1, mb_three hb z0.2 z2.1, mb_two hb z0.2 z3.1, mb_three hb z1.2 z0.1, mb_three hb z1.2 z1.1, mb_three hb z1.2 z2.1, mb_two hb z1.2 z3.1, mb_three hb z2.2 z0.1, mb_three hb z2.2 z1.1, mb_three hb z2.2 z2.1, mb_one hb z2.2 z3.1, mb_two hb z3.2 z0.1, mb_two hb z3.2 z1.1, mb_one hb z3.2 z2.1, mb_two hb z3.2 z3.1, ab_self, sb_self]
  simp only [ab_swap z0.1 z1.1, sb_swap z0.2 z1.2, ab_swap z0.1 z2.1, sb_swap z0.2 z2.2, ab_swap z0.1 z3.1, sb_swap z0.2 z3.2, ab_swap z1.1 z2.1, sb_swap z1.2 z2.2, ab_swap z1.1 z3.1, sb_swap z1.2 z3.2, ab_swap z2.1 z3.1, sb_swap z2.2 z3.2, r0, r1, r2, r6, r12, r13, r14, r15, r16, Constants.hL, Constants.hR, Constants.gL, Constants.gR, Constants.yuk, Constants.invVev, Flavour.charge_d, Flavour.isospin_d, Flavour.charge_u, Flavour.isospin_u, ← c.mz]
  have xMW : (c.MW : ℂ) ≠ 0 := by exact_mod_cast hc.MW
  have xSW : (c.SW : ℂ) ≠ 0 := by exact_mod_cast hc.SW
  have xCW : (c.CW : ℂ) ≠ 0 := by exact_mod_cast hc.CW
  have x2 : ((√2 : ℝ) : ℂ) ≠ 0 := by exact_mod_cast (Real.sqrt_pos.2 two_pos).ne'
  have x22 : ((√2 : ℝ) : ℂ) ^ 2 = 2 := by rw [← Complex.ofReal_pow, Real.sq_sqrt two_pos.le]; norm_num
  push_cast
  field_simp
  first | ring1 | (ring_nf; simp only [x22]; ring1)
set_option maxRecDepth 8000 in
theorem uWWu.amp2_eq (N : Env) (f : Nat → List Int → ℂ) : Cls.uWWu.m_amp2.mean N f .r [] =
    ((sumJ (fun x a => (sumV (fun x b => (sumV (fun x c => (sumJ (fun x d => (x + (((3 : Nat) : ℝ) * (‖(f 0 [a, b, c, d])‖ ^ 2)))) x)) x)) x)) ((0 : Nat) : ℝ)) / ((18 : Nat) : ℝ)) := by rfl
set_option maxRecDepth 8000 in
theorem uWWu.value (N : Env) : meaning N .r Cls.uWWu.methods Cls.uWWu.amp2 [] =
    ((sumJ (fun x a => (sumV (fun x b => (sumV (fun x c => (sumJ (fun x d => (x + (((3 : Nat) : ℝ) * (‖(Cls.uWWu.m_amp.mean N (callMean N []) .c [a, b, c, d])‖ ^ 2)))) x)) x)) x)) ((0 : Nat) : ℝ)) / ((18 : Nat) : ℝ)) :=
  uWWu.amp2_eq N (callMean N [Cls.uWWu.m_amp])
set_option maxRecDepth 8000 in
theorem uWWu.term_lin (N : Env) (w : ℝ) (x : ℂ) (j1 a1 b1 a2 b2 j4 : Int) : uWWu.term N w x j1 a1 b1 a2 b2 j4 = x + (w : ℂ) * uWWu.term N 1 0 j1 a1 b1 a2 b2 j4 := by
  simp only [uWWu.term]; push_cast; ring
theorem uWWu.amp_eq (N : Env) (f : Nat → List Int → ℂ) (j1 j4 : Int) (t1 t2 : Fin 3) : Cls.uWWu.m_amp.mean N f .c [j1, spinV t1, spinV t2, j4] = comb t2 (fun a2 b2 => comb t1 (fun a1 b1 => uWWu.term N 1 0 j1 (spinOf a1) (spinOf b1) (spinOf a2) (spinOf b2) j4)) := by
  refine (amp_mean N f (m := 4) (K := 8) (G := fun i => uWWu.term N 1 0 (i 0) (i 6) (i 7) (i 4) (i 5) (i 3)) (fun l => ?_) (fun i i' h => ?_) rfl (by decide) (by decide) (by decide) (by decide) (by decide)).trans ?_
  · refine ⟨_, rfl, ?_⟩; exact ⟨rfl, rfl, uWWu.term_lin ..⟩
  · simp only [h 0 (by decide), h 6 (by decide), h 7 (by decide), h 4 (by decide), h 5 (by decide), h 3 (by decide)]
  · show amp' _ [spinV t2, spinV t1] = _
    simp only [amp'_comb, amp'_nil]
    rfl
theorem uWWu.form_x1 (N : Env) (p : Nat → V4 ℝ) (z0 y1 x2 y2 z3 x y : Pair) : uWWu.form N p z0 (x + y) y1 x2 y2 z3 = uWWu.form N p z0 x y1 x2 y2 z3 + uWWu.form N p z0 y y1 x2 y2 z3 := by
  simp only [uWWu.form, Prod.fst_add, Prod.snd_add, ab_add_left, ab_add_right, sb_add_left, sb_add_right, mb_add_left, mb_add_right]
  ring
theorem uWWu.form_y1 (N : Env) (p : Nat → V4 ℝ) (z0 x1 x2 y2 z3 x y : Pair) : uWWu.form N p z0 x1 (x + y) x2 y2 z3 = uWWu.form N p z0 x1 x x2 y2 z3 + uWWu.form N p z0 x1 y x2 y2 z3 := by
  simp only [uWWu.form, Prod.fst_add, Prod.snd_add, ab_add_left, ab_add_right, sb_add_left, sb_add_right, mb_add_left, mb_add_right]
  ring
theorem uWWu.form_x2 (N : Env) (p : Nat → V4 ℝ) (z0 x1 y1 y2 z3 x y : Pair) : uWWu.form N p z0 x1 y1 (x + y) y2 z3 = uWWu.form N p z0 x1 y1 x y2 z3 + uWWu.form N p z0 x1 y1 y y2 z3 := by
  simp only [uWWu.form, Prod.fst_add, Prod.snd_add, ab_add_left, ab_add_right, sb_add_left, sb_add_right, mb_add_left, mb_add_right]
  ring
theorem uWWu.form_y2 (N : Env) (p : Nat → V4 ℝ) (z0 x1 y1 x2 z3 x y : Pair) : uWWu.form N p z0 x1 y1 x2 (x + y) z3 = uWWu.form N p z0 x1 y1 x2 x z3 + uWWu.form N p z0 x1 y1 x2 y z3 := by
  simp only [uWWu.form, Prod.fst_add, Prod.snd_add, ab_add_left, ab_add_right, sb_add_left, sb_add_right, mb_add_left, mb_add_right]
  ring

theorem uWWu.mass_eq {c : Constants} (hc : c.Physical) (i : Fin 4) : uWWu.proc.massNum (uWWu.rho c) i = uWWu.react.mass c i := by
  fin_cases i <;> first | rfl | exact Nat.cast_zero.trans (hc.neutrino _).symm | (show c.MW / √(((1 : Nat) : ℝ) - c.SW * c.SW) = c.MZ; rw [c.root, c.mz])

variable [FPEnv] in
theorem uWWu.agrees : uWWu.Agrees := by
  refine agrees_of (D := [5, 6]) (E := [6]) (by simp [all, uWWu]) (by decide +kernel) (by decide) (by decide +kernel) (fun c hc hh => ⟨List.forall_mem_cons.2 ⟨hc.MW, List.forall_mem_cons.2 ⟨hc.SW, List.forall_mem_nil _⟩⟩, List.forall_mem_cons.2 ⟨hc.SW_lt, List.forall_mem_nil _⟩⟩) (fun c hc i => uWWu.mass_eq hc i) (by decide +kernel) ?_
  intro c p u ε hc hh hw h0 hs hb hr hu
  have he : uWWu.react.ends = [3] := by decide
  have ht : uWWu.react.starts = [0] := by decide
  have hB : uWWu.react.bosons = [1, 2] := by decide
  have hM : uWWu.react.allMassive = true := by decide
  obtain ⟨f1, f2, f3⟩ := uWWu.react.regular_line he ht hB hr
  have r0 : (uWWu.N c p).r 0 = c.e := rfl
  have r1 : (uWWu.N c p).r 1 = (((2 : Nat) : ℝ) / ((3 : Nat) : ℝ)) := rfl
  have r2 : (uWWu.N c p).r 2 = (c.mass .u) := rfl
  have r6 : (uWWu.N c p).r 6 = c.MW := rfl
  have r12 : (uWWu.N c p).r 12 = (((((2 : Nat) : ℝ) * c.e) * c.e) / ((((((2 : Nat) : ℝ) * c.MW) * c.MW) * c.SW) * c.SW)) := rfl
  have r13 : (uWWu.N c p).r 13 = ((((((2 : Nat) : ℝ) * c.e) * c.e) * (c.mass .u)) / ((((((4 : Nat) : ℝ) * c.MW) * c.MW) * c.SW) * c.SW)) := rfl
  have r14 : (uWWu.N c p).r 14 = ((c.e * c.e) / ((((((2 : Nat) : ℝ) * c.MW) * c.MW) * c.SW) * c.SW)) := rfl
  have r15 : (uWWu.N c p).r 15 = (((((-((2 : Nat) : ℝ)) * (((2 : Nat) : ℝ) / ((3 : Nat) : ℝ))) * c.SW) * c.SW) + ((1 : Nat) : ℝ)) := rfl
  have r16 : (uWWu.N c p).r 16 = ((((-((2 : Nat) : ℝ)) * (((2 : Nat) : ℝ) / ((3 : Nat) : ℝ))) * c.SW) * c.SW) := rfl
  have c0 : (uWWu.N c p).c 0 = poleDist c.MH c.WH ((VExp.sub 0 3).sum p) := rfl
  rw [pole_congr (msq_u hb (plus (p 1) (backward (p 2))) (by simp)).symm] at c0
  have d0 : pole c.MH c.WH (plus (p 1) (backward (p 2))) = (uWWu.N c p).c 0 := by rw [c0]
  have n0 : (uWWu.N c p).c 0 ≠ 0 := by rw [← d0]; exact star_ne_zero.2 (f3 .higgs rfl rfl)
  have c1 : (uWWu.N c p).c 1 = poleDist (c.mass .d) ((0 : Nat) : ℝ) ((VExp.sub 0 2).sum p) := rfl
  rw [Nat.cast_zero, pole_fermion (msq_t hb (plus (p 0) (backward (p 2))) (by simp))] at c1
  have d1 : ((msq (plus (p 0) (backward (p 2))) - c.mass .d ^ 2 : ℝ) : ℂ) = (uWWu.N c p).c 1 := by rw [c1]
  have n1 : (uWWu.N c p).c 1 ≠ 0 := by rw [← d1]; exact_mod_cast f2 .d rfl rfl
  have c3 : (uWWu.N c p).c 3 = poleDist (c.MW / √((((1 : Nat) : ℝ) - (c.SW * c.SW)))) c.WZ ((VExp.sub 0 3).sum p) := rfl
  rw [c.root, c.mz, pole_congr (msq_u hb (plus (p 1) (backward (p 2))) (by simp)).symm] at c3
  have d3 : pole c.MZ c.WZ (plus (p 1) (backward (p 2))) = (uWWu.N c p).c 3 := by rw [c3]
  have n3 : (uWWu.N c p).c 3 ≠ 0 := by rw [← d3]; exact star_ne_zero.2 (f3 .z rfl rfl)
  have c4 : (uWWu.N c p).c 4 = poleDist ((0 : Nat) : ℝ) ((0 : Nat) : ℝ) ((VExp.sub 0 3).sum p) := rfl
  rw [Nat.cast_zero, pole_congr (msq_u hb (plus (p 1) (backward (p 2))) (by simp)).symm] at c4
  have d4 : pole 0 0 (plus (p 1) (backward (p 2))) = (uWWu.N c p).c 4 := by rw [c4]
  have n4 : (uWWu.N c p).c 4 ≠ 0 := by rw [← d4]; exact star_ne_zero.2 (f3 .photon rfl rfl)
  have m0 : uWWu.react.mass c 0 ≠ 0 := (leg_pos hc hh (by decide)).ne'
  have m1 : uWWu.react.mass c 1 ≠ 0 := (leg_pos hc hh (by decide)).ne'
  have m2 : uWWu.react.mass c 2 ≠ 0 := (leg_pos hc hh (by decide)).ne'
  have m3 : uWWu.react.mass c 3 ≠ 0 := (leg_pos hc hh (by decide)).ne'
  have hd : uWWu.proc.divides = [(Ty.c, 0), (Ty.c, 1), (Ty.r, 6), (Ty.c, 4), (Ty.c, 3)] := by decide +kernel
  refine ⟨fun n hn => ?_, fun n hn => ?_, ?_⟩
  · simp [hd] at hn
    rcases hn with rfl
    · rw [r6]; exact hc.MW
  · simp [hd] at hn
    rcases hn with rfl | rfl | rfl | rfl
    · exact n0
    · exact n1
    · exact n4
    · exact n3
  have st : ∀ {z0 z3 : Pair} (b0 : Bold (p 0) (uWWu.react.mass c 0) z0) (b3 : Bold (p 3) (uWWu.react.mass c 3) z3) (t1 t2 : Fin 3), comb t2 (fun a2 b2 => comb t1 (fun a1 b1 => uWWu.form (uWWu.N c p) p z0 (uWWu.react.codePair c p 1 a1) (uWWu.react.codePair c p 1 b1) (uWWu.react.codePair c p 2 a2) (uWWu.react.codePair c p 2 b2) z3)) = 1 * uWWu.react.bare c p 3 0 1 2 z3 z0 (uWWu.react.codeVec c p 1 t1) (uWWu.react.codeVec c p 2 t2) := by
    intro z0 z3 b0 b3 t1 t2
    refine two_vectors (p := p 2) (p' := p 1) (m := uWWu.react.mass c 2) (m' := uWWu.react.mass c 1) (fun s => uWWu.react.codePair_bold hs h0 2 s) (fun s => uWWu.react.codePair_bold hs h0 1 s) (B := fun x y x' y' => uWWu.form (uWWu.N c p) p z0 x' y' x y z3) (G := fun E F => uWWu.react.bare c p 3 0 1 2 z3 z0 F E) (fun _ _ _ _ _ => ?_) (fun _ _ _ _ _ => ?_) (fun _ _ _ _ _ => ?_) (fun _ _ _ _ _ => ?_) (fun F => uWWu.react.bare_lin₂ c p _ _ _ (by decide)) (fun E => uWWu.react.bare_lin₁ c p _ _ _ (by decide)) 1 (fun z2 z1 b2 b1 => ?_) t2 t1
    · exact uWWu.form_x2 ..
    · exact uWWu.form_y2 ..
    · exact uWWu.form_x1 ..
    · exact uWWu.form_y1 ..
    · rw [one_mul]; exact uWWu.key hc hb r0 r1 r2 r6 r12 r13 r14 r15 r16 d0 n0 d1 n1 d3 n3 d4 n4 b0 b1 b2 b3 (onShell_msq (hs 1)) (onShell_msq (hs 2)) 
  have am : ∀ (s0 : Fin 2) (s3 : Fin 2) (t1 t2 : Fin 3), Cls.uWWu.m_amp.mean (uWWu.N c p) (callMean (uWWu.N c p) []) .c [spinOf s0, spinV t1, spinV t2, spinOf s3] = 1 * uWWu.react.bare c p 3 0 1 2 (uWWu.react.codePair c p 3 s3) (uWWu.react.codePair c p 0 s0) (uWWu.react.codeVec c p 1 t1) (uWWu.react.codeVec c p 2 t2) := by
    intro s0 s3 t1 t2
    rw [uWWu.amp_eq, ← st (uWWu.react.codePair_bold hs h0 0 s0) (uWWu.react.codePair_bold hs h0 3 s3) t1 t2]
    refine congrArg (comb t2) (funext fun a2 => funext fun b2 => ?_)
    refine congrArg (comb t1) (funext fun a1 => funext fun b1 => ?_)
    have v2x1x2 : (uWWu.N c p).v 2 [spinOf a1, spinOf a2] = sb (uWWu.react.codePair c p 1 a1).2 (uWWu.react.codePair c p 2 a2).2 := bra_square (p := p) (m := uWWu.proc.massNum (uWWu.rho c)) (uWWu.mass_eq hc 1) (uWWu.mass_eq hc 2) (.inl ⟨m1, rfl⟩) (.inl ⟨m2, rfl⟩)
    have v3y1y2 : (uWWu.N c p).v 3 [spinOf b1, spinOf b2] = ab (uWWu.react.codePair c p 1 b1).1 (uWWu.react.codePair c p 2 b2).1 := bra_angle (p := p) (m := uWWu.proc.massNum (uWWu.rho c)) (uWWu.mass_eq hc 1) (uWWu.mass_eq hc 2) (.inl ⟨m1, rfl⟩) (.inl ⟨m2, rfl⟩)
    have v10z0z3 : (uWWu.N c p).v 10 [spinOf s0, spinOf s3] = sb (uWWu.react.codePair c p 0 s0).2 (uWWu.react.codePair c p 3 s3).2 := bra_square (p := p) (m := uWWu.proc.massNum (uWWu.rho c)) (uWWu.mass_eq hc 0) (uWWu.mass_eq hc 3) (.inl ⟨m0, rfl⟩) (.inl ⟨m3, rfl⟩)
    have v11z0z3 : (uWWu.N c p).v 11 [spinOf s0, spinOf s3] = ab (uWWu.react.codePair c p 0 s0).1 (uWWu.react.codePair c p 3 s3).1 := bra_angle (p := p) (m := uWWu.proc.massNum (uWWu.rho c)) (uWWu.mass_eq hc 0) (uWWu.mass_eq hc 3) (.inl ⟨m0, rfl⟩) (.inl ⟨m3, rfl⟩)
    have v8x1z3 : (uWWu.N c p).v 8 [spinOf a1, spinOf s3] = sb (uWWu.react.codePair c p 1 a1).2 (uWWu.react.codePair c p 3 s3).2 := bra_square (p := p) (m := uWWu.proc.massNum (uWWu.rho c)) (uWWu.mass_eq hc 1) (uWWu.mass_eq hc 3) (.inl ⟨m1, rfl⟩) (.inl ⟨m3, rfl⟩)
    have v5z0x2 : (uWWu.N c p).v 5 [spinOf s0, spinOf a2] = ab (uWWu.react.codePair c p 0 s0).1 (uWWu.react.codePair c p 2 a2).1 := bra_angle (p := p) (m := uWWu.proc.massNum (uWWu.rho c)) (uWWu.mass_eq hc 0) (uWWu.mass_eq hc 2) (.inl ⟨m0, rfl⟩) (.inl ⟨m2, rfl⟩)
    have v13y2y1 : (uWWu.N c p).v 13 [spinOf b2, spinOf b1] = mb (uWWu.react.codePair c p 2 b2).2 (p 0) (uWWu.react.codePair c p 1 b1).1 := bra_mid_square (p := p) (m := uWWu.proc.massNum (uWWu.rho c)) (uWWu.mass_eq hc 2) (uWWu.mass_eq hc 1) (.inl ⟨m2, rfl⟩) (.inl ⟨m1, rfl⟩)
    have v4z0x2 : (uWWu.N c p).v 4 [spinOf s0, spinOf a2] = sb (uWWu.react.codePair c p 0 s0).2 (uWWu.react.codePair c p 2 a2).2 := bra_square (p := p) (m := uWWu.proc.massNum (uWWu.rho c)) (uWWu.mass_eq hc 0) (uWWu.mass_eq hc 2) (.inl ⟨m0, rfl⟩) (.inl ⟨m2, rfl⟩)
    have v9x1z3 : (uWWu.N c p).v 9 [spinOf a1, spinOf s3] = ab (uWWu.react.codePair c p 1 a1).1 (uWWu.react.codePair c p 3 s3).1 := bra_angle (p := p) (m := uWWu.proc.massNum (uWWu.rho c)) (uWWu.mass_eq hc 1) (uWWu.mass_eq hc 3) (.inl ⟨m1, rfl⟩) (.inl ⟨m3, rfl⟩)
    have v1z0x1 : (uWWu.N c p).v 1 [spinOf s0, spinOf a1] = ab (uWWu.react.codePair c p 0 s0).1 (uWWu.react.codePair c p 1 a1).1 := bra_angle (p := p) (m := uWWu.proc.massNum (uWWu.rho c)) (uWWu.mass_eq hc 0) (uWWu.mass_eq hc 1) (.inl ⟨m0, rfl⟩) (.inl ⟨m1, rfl⟩)
    have v6x2z3 : (uWWu.N c p).v 6 [spinOf a2, spinOf s3] = sb (uWWu.react.codePair c p 2 a2).2 (uWWu.react.codePair c p 3 s3).2 := bra_square (p := p) (m := uWWu.proc.massNum (uWWu.rho c)) (uWWu.mass_eq hc 2) (uWWu.mass_eq hc 3) (.inl ⟨m2, rfl⟩) (.inl ⟨m3, rfl⟩)
    have v0z0x1 : (uWWu.N c p).v 0 [spinOf s0, spinOf a1] = sb (uWWu.react.codePair c p 0 s0).2 (uWWu.react.codePair c p 1 a1).2 := bra_square (p := p) (m := uWWu.proc.massNum (uWWu.rho c)) (uWWu.mass_eq hc 0) (uWWu.mass_eq hc 1) (.inl ⟨m0, rfl⟩) (.inl ⟨m1, rfl⟩)
    have v7x2z3 : (uWWu.N c p).v 7 [spinOf a2, spinOf s3] = ab (uWWu.react.codePair c p 2 a2).1 (uWWu.react.codePair c p 3 s3).1 := bra_angle (p := p) (m := uWWu.proc.massNum (uWWu.rho c)) (uWWu.mass_eq hc 2) (uWWu.mass_eq hc 3) (.inl ⟨m2, rfl⟩) (.inl ⟨m3, rfl⟩)
    have v2y1y2 : (uWWu.N c p).v 2 [spinOf b1, spinOf b2] = sb (uWWu.react.codePair c p 1 b1).2 (uWWu.react.codePair c p 2 b2).2 := bra_square (p := p) (m := uWWu.proc.massNum (uWWu.rho c)) (uWWu.mass_eq hc 1) (uWWu.mass_eq hc 2) (.inl ⟨m1, rfl⟩) (.inl ⟨m2, rfl⟩)
    have v14z3z0 : (uWWu.N c p).v 14 [spinOf s3, spinOf s0] = mb (uWWu.react.codePair c p 3 s3).2 (p 2) (uWWu.react.codePair c p 0 s0).1 := bra_mid_square (p := p) (m := uWWu.proc.massNum (uWWu.rho c)) (uWWu.mass_eq hc 3) (uWWu.mass_eq hc 0) (.inl ⟨m3, rfl⟩) (.inl ⟨m0, rfl⟩)
    have v15z0z3 : (uWWu.N c p).v 15 [spinOf s0, spinOf s3] = mb (uWWu.react.codePair c p 0 s0).2 (p 2) (uWWu.react.codePair c p 3 s3).1 := bra_mid_square (p := p) (m := uWWu.proc.massNum (uWWu.rho c)) (uWWu.mass_eq hc 0) (uWWu.mass_eq hc 3) (.inl ⟨m0, rfl⟩) (.inl ⟨m3, rfl⟩)
    have v3x1x2 : (uWWu.N c p).v 3 [spinOf a1, spinOf a2] = ab (uWWu.react.codePair c p 1 a1).1 (uWWu.react.codePair c p 2 a2).1 := bra_angle (p := p) (m := uWWu.proc.massNum (uWWu.rho c)) (uWWu.mass_eq hc 1) (uWWu.mass_eq hc 2) (.inl ⟨m1, rfl⟩) (.inl ⟨m2, rfl⟩)
    have v6y2z3 : (uWWu.N c p).v 6 [spinOf b2, spinOf s3] = sb (uWWu.react.codePair c p 2 b2).2 (uWWu.react.codePair c p 3 s3).2 := bra_square (p := p) (m := uWWu.proc.massNum (uWWu.rho c)) (uWWu.mass_eq hc 2) (uWWu.mass_eq hc 3) (.inl ⟨m2, rfl⟩) (.inl ⟨m3, rfl⟩)
    have v1z0y1 : (uWWu.N c p).v 1 [spinOf s0, spinOf b1] = ab (uWWu.react.codePair c p 0 s0).1 (uWWu.react.codePair c p 1 b1).1 := bra_angle (p := p) (m := uWWu.proc.massNum (uWWu.rho c)) (uWWu.mass_eq hc 0) (uWWu.mass_eq hc 1) (.inl ⟨m0, rfl⟩) (.inl ⟨m1, rfl⟩)
    have v8y1z3 : (uWWu.N c p).v 8 [spinOf b1, spinOf s3] = sb (uWWu.react.codePair c p 1 b1).2 (uWWu.react.codePair c p 3 s3).2 := bra_square (p := p) (m := uWWu.proc.massNum (uWWu.rho c)) (uWWu.mass_eq hc 1) (uWWu.mass_eq hc 3) (.inl ⟨m1, rfl⟩) (.inl ⟨m3, rfl⟩)
    have v5z0y2 : (uWWu.N c p).v 5 [spinOf s0, spinOf b2] = ab (uWWu.react.codePair c p 0 s0).1 (uWWu.react.codePair c p 2 b2).1 := bra_angle (p := p) (m := uWWu.proc.massNum (uWWu.rho c)) (uWWu.mass_eq hc 0) (uWWu.mass_eq hc 2) (.inl ⟨m0, rfl⟩) (.inl ⟨m2, rfl⟩)
    have v4z0y2 : (uWWu.N c p).v 4 [spinOf s0, spinOf b2] = sb (uWWu.react.codePair c p 0 s0).2 (uWWu.react.codePair c p 2 b2).2 := bra_square (p := p) (m := uWWu.proc.massNum (uWWu.rho c)) (uWWu.mass_eq hc 0) (uWWu.mass_eq hc 2) (.inl ⟨m0, rfl⟩) (.inl ⟨m2, rfl⟩)
    have v9y1z3 : (uWWu.N c p).v 9 [spinOf b1, spinOf s3] = ab (uWWu.react.codePair c p 1 b1).1 (uWWu.react.codePair c p 3 s3).1 := bra_angle (p := p) (m := uWWu.proc.massNum (uWWu.rho c)) (uWWu.mass_eq hc 1) (uWWu.mass_eq hc 3) (.inl ⟨m1, rfl⟩) (.inl ⟨m3, rfl⟩)
    have v0z0y1 : (uWWu.N c p).v 0 [spinOf s0, spinOf b1] = sb (uWWu.react.codePair c p 0 s0).2 (uWWu.react.codePair c p 1 b1).2 := bra_square (p := p) (m := uWWu.proc.massNum (uWWu.rho c)) (uWWu.mass_eq hc 0) (uWWu.mass_eq hc 1) (.inl ⟨m0, rfl⟩) (.inl ⟨m1, rfl⟩)
    have v7y2z3 : (uWWu.N c p).v 7 [spinOf b2, spinOf s3] = ab (uWWu.react.codePair c p 2 b2).1 (uWWu.react.codePair c p 3 s3).1 := bra_angle (p := p) (m := uWWu.proc.massNum (uWWu.rho c)) (uWWu.mass_eq hc 2) (uWWu.mass_eq hc 3) (.inl ⟨m2, rfl⟩) (.inl ⟨m3, rfl⟩)
    simp only [uWWu.term, uWWu.form, v2x1x2, v3y1y2, v10z0z3, v11z0z3, v8x1z3, v5z0x2, v13y2y1, v4z0x2, v9x1z3, v1z0x1, v6x2z3, v0z0x1, v7x2z3, v2y1y2, v14z3z0, v15z0z3, v3x1x2, v6y2z3, v1z0y1, v8y1z3, v5z0y2, v4z0y2, v9y1z3, v0z0y1, v7y2z3]
    push_cast
    ring
  show meaning (uWWu.N c p) .r Cls.uWWu.methods Cls.uWWu.amp2 [] = _
  have lc : uWWu.react.lineColours 3 0 = 3 := by decide +kernel
  have s0 : uWWu.react.states 0 = 6 := by decide
  have s1 : uWWu.react.states 1 = 3 := by decide
  have sy : uWWu.react.symmetry = 1 := by decide
  have p0 : uWWu.react.spins 0 = {0, 1} := rfl
  have p1 : uWWu.react.spins 1 = Finset.univ := rfl
  have p2 : uWWu.react.spins 2 = Finset.univ := rfl
  have p3 : uWWu.react.spins 3 = {0, 1} := rfl
  rw [uWWu.value, uWWu.react.squared_line he ht hB (noGluon_of hM) hs h0 (fun _ b _ hb _ => (boson_pos hc hh hb).ne') (uWWu.react.gauge_massive (massive_of hM)) (E := uWWu.react.codeVec c p) (fun n b hl => uWWu.react.codeVec_polarised hs h0 hl (massive_of hM n b hl) (fun _ => (boson_pos hc hh (massive_of hM n b hl)).ne')) hu, sum_colours, lc, s0, s1, sy]
  simp only [sumV_sum, sumJ_sum, am, norm_mul, norm_neg, norm_one, one_mul, p0, p1, p2, p3, Finset.sum_singleton, sum_two, Matrix.cons_val_zero, Matrix.cons_val_one, Matrix.cons_val, two_castSucc]
  try simp only [← Finset.mul_sum]
  push_cast
  first | ring1 | ring_nf

end Spinas.SM.Rows
