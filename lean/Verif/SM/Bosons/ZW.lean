import Verif.SM.BosonRows

/-! Fermions, a Z and a W boson. Generated by tools/bosons/emit.py: for each class its amplitude as a formula in spinors, and the proof that `amp2` is the squared amplitude of the Feynman rules. -/

set_option linter.unusedSimpArgs false
set_option linter.unusedVariables false
set_option linter.unreachableTactic false
set_option linter.unusedTactic false

namespace Spinas.SM.Rows
open Spec Spec.Reaction Props XR Matrix BRow

/-! ### enZW -/

/-- what the methods of the class see -/
noncomputable abbrev enZW.N [FPEnv] (c : Constants) (p : Nat → V4 ℝ) : Env := enZW.proc.env (enZW.rho c) p
/-- the term that `amp` adds for a choice of spinors (SM/enZW.cpp) -/
noncomputable def enZW.term (N : Env) (w : ℝ) (x : ℂ) (j1 a2 b2 a3 b3 : Int) : ℂ :=
  (((x + (((((w * N.r 7) : ℝ) : ℂ) * (((((((N.r 2 : ℝ) : ℂ) * (((N.r 2 : ℝ) : ℂ) * (((((2 : Nat) : ℝ) : ℝ) : ℂ) * ((((N.r 3 : ℝ) : ℂ) * N.v 0 [b2, a3]) + (((N.r 2 : ℝ) : ℂ) * N.v 1 [b2, a3]))))) * N.v 2 [a2]) * N.v 3 [j1, b3]) + (((((N.r 2 : ℝ) : ℂ) * (((N.r 2 : ℝ) : ℂ) * (((((2 : Nat) : ℝ) : ℝ) : ℂ) * ((((N.r 2 : ℝ) : ℂ) * N.v 0 [a2, b3]) + (((N.r 3 : ℝ) : ℂ) * N.v 1 [a2, b3]))))) * N.v 4 [a3]) * N.v 5 [j1, b2])) + (((((((((N.r 3 * N.r 3) - ((((2 : Nat) : ℝ) * N.r 2) * N.r 2)) * N.r 1) : ℝ) : ℂ) * N.v 6 [j1]) + (((((((2 : Nat) : ℝ) * N.r 2) * N.r 2) : ℝ) : ℂ) * N.v 7 [j1])) * N.v 0 [a2, a3]) * N.v 1 [b2, b3]))) / N.c 0)) + ((((((w * N.r 8) : ℝ) : ℂ) * N.v 4 [a3]) * ((((((N.r 11 * N.r 1) : ℝ) : ℂ) * N.v 8 [j1, b2]) * N.v 1 [a2, b3]) + ((((N.r 10 : ℝ) : ℂ) * (((((-N.r 3) : ℝ) : ℂ) * N.v 1 [b2, b3]) + N.v 9 [b3, b2])) * N.v 5 [j1, a2]))) / N.c 1)) + (((((((w * N.r 9) : ℝ) : ℂ) * N.v 2 [a2]) * N.v 3 [j1, a3]) * ((((N.r 2 : ℝ) : ℂ) * N.v 1 [b2, b3]) + N.v 10 [b2, b3])) / N.c 2))
/-- the same with spinors in place of their spins -/
noncomputable def enZW.form (N : Env) (p : Nat → V4 ℝ) (z0 z1 x2 y2 x3 y3 : Pair) : ℂ :=
  (((0 + (((((((1 : Nat) : ℝ) * N.r 7) : ℝ) : ℂ) * (((((((N.r 2 : ℝ) : ℂ) * (((N.r 2 : ℝ) : ℂ) * (((((2 : Nat) : ℝ) : ℝ) : ℂ) * ((((N.r 3 : ℝ) : ℂ) * (ab y2.1 x3.1)) + (((N.r 2 : ℝ) : ℂ) * (sb y2.2 x3.2)))))) * (ab z1.1 x2.1)) * (sb z0.2 y3.2)) + (((((N.r 2 : ℝ) : ℂ) * (((N.r 2 : ℝ) : ℂ) * (((((2 : Nat) : ℝ) : ℝ) : ℂ) * ((((N.r 2 : ℝ) : ℂ) * (ab x2.1 y3.1)) + (((N.r 3 : ℝ) : ℂ) * (sb x2.2 y3.2)))))) * (ab z1.1 x3.1)) * (sb z0.2 y2.2))) + (((((((((N.r 3 * N.r 3) - ((((2 : Nat) : ℝ) * N.r 2) * N.r 2)) * N.r 1) : ℝ) : ℂ) * (ab z0.1 z1.1)) + (((((((2 : Nat) : ℝ) * N.r 2) * N.r 2) : ℝ) : ℂ) * (mb z0.2 (p 2) z1.1))) * (ab x2.1 x3.1)) * (sb y2.2 y3.2)))) / N.c 0)) + ((((((((1 : Nat) : ℝ) * N.r 8) : ℝ) : ℂ) * (ab z1.1 x3.1)) * ((((((N.r 11 * N.r 1) : ℝ) : ℂ) * (ab z0.1 y2.1)) * (sb x2.2 y3.2)) + ((((N.r 10 : ℝ) : ℂ) * (((((-N.r 3) : ℝ) : ℂ) * (sb y2.2 y3.2)) + (mb y3.2 (p 0) y2.1))) * (sb z0.2 x2.2)))) / N.c 1)) + (((((((((1 : Nat) : ℝ) * N.r 9) : ℝ) : ℂ) * (ab z1.1 x2.1)) * (sb z0.2 x3.2)) * ((((N.r 2 : ℝ) : ℂ) * (sb y2.2 y3.2)) + (mb y2.2 (p 0) y3.1))) / N.c 2))
theorem enZW.key {c : Constants} {p : Nat → V4 ℝ} {N : Env} (hc : c.Physical) (hb : Balanced p) (r1 : N.r 1 = (c.mass .e)) (r2 : N.r 2 = c.MW) (r3 : N.r 3 = (c.MW / c.CW)) (r7 : N.r 7 = ((c.e * c.e) / ((((((√(((2 : Nat) : ℝ)) * c.MW) * c.MW) * (c.MW / c.CW)) * (c.MW / c.CW)) * c.SW) * c.SW))) (r8 : N.r 8 = ((c.e * c.e) / ((((√(((2 : Nat) : ℝ)) * c.MW) * c.MW) * c.SW) * c.SW))) (r9 : N.r 9 = ((c.e * c.e) / ((((√(((2 : Nat) : ℝ)) * c.MW) * c.MW) * c.SW) * c.SW))) (r10 : N.r 10 = (((((2 : Nat) : ℝ) * c.SW) * c.SW) - ((1 : Nat) : ℝ))) (r11 : N.r 11 = ((((2 : Nat) : ℝ) * c.SW) * c.SW)) (d0 : pole c.MW c.WW (plus (backward (p 2)) (backward (p 3))) = N.c 0) (n0 : N.c 0 ≠ 0) (d1 : ((msq (plus (p 1) (backward (p 3))) - c.mass .e ^ 2 : ℝ) : ℂ) = N.c 1) (n1 : N.c 1 ≠ 0) (d2 : ((msq (plus (p 1) (backward (p 2))) - c.mass .ne ^ 2 : ℝ) : ℂ) = N.c 2) (n2 : N.c 2 ≠ 0) {z0 z1 z2 z3 : Pair} (b0 : Bold (p 0) (c.mass .e) z0) (b1 : Bold (p 1) (c.mass .ne) z1) (b2 : Bold (p 2) c.MZ z2) (b3 : Bold (p 3) c.MW z3) (q2 : msq (p 2) = c.MZ ^ 2) (q3 : msq (p 3) = c.MW ^ 2) :
    enZW.form N p z0 z1 z2 z2 z3 z3 = ((2 / (c.MZ * c.MW) : ℝ) : ℂ) * enZW.react.bare c p 0 1 2 3 z0 z1 (pv z2.1 z2.2) (pv z3.1 z3.2) := by
  rw [enZW.react.bare_parts c p (i := 0) (j := 1) (a := 2) (b := 3) (x := .z) (y := .wMinus) (k := (backward (p 2))) (k' := (backward (p 3))) (fun _ => rfl) (fun _ => rfl) (f := .ne) (g := .e) rfl rfl (l := (p 1)) rfl (e := -1) (e' := 1) (if_pos rfl) (if_neg Bool.false_ne_true)]
  rw [compton_vv (f := .ne) (x := .ne) (g := .e) (h := (rfl : Spec.after .z Flavour.ne = some Flavour.ne)) (h' := (rfl : Spec.after .wMinus Flavour.ne = some Flavour.e)) (ha := by simp) (hb := by simp)]
  rw [compton_vv (f := .ne) (x := .e) (g := .e) (h := (rfl : Spec.after .wMinus Flavour.ne = some Flavour.e)) (h' := (rfl : Spec.after .z Flavour.e = some Flavour.e)) (ha := by simp) (hb := by simp)]
  have an := annihilation_charged c (-1) (1) z0.1 z0.2 z1.1 z1.2 ⟨.z, (backward (p 2)), pv z2.1 z2.2⟩ ⟨.wMinus, (backward (p 3)), pv z3.1 z3.2⟩ (f := .ne) (g := .e) (x := .wMinus) (by simp) rfl
  dsimp only at an
  rw [an, enZW.form]
  clear an
  have Y2 := b2.back; have Q2 : msq (backward (p 2)) = (-c.MZ) ^ 2 := by rw [msq_backward, q2, neg_sq]
  have Y3 := b3.back; have Q3 : msq (backward (p 3)) = (-c.MW) ^ 2 := by rw [msq_backward, q3, neg_sq]
  rw [lineV_massive (hx := (rfl : Boson.massive .wMinus = true))]
  simp only [toHiggs, toVector, higgs2, gauge3, Boson.anti, Constants.bosonMass, Constants.bosonWidth, d0, d1, d2, reduceCtorEq, and_self, and_true, and_false, and_true, if_true, if_false, Complex.ofReal_zero, zero_smul, zero_mul, mul_zero, zero_div, neg_zero, add_zero, zero_add, lineH, lineV_zero, contract_zero, lineV_smul, contract_smul, lineV_yangMills Y2 Y3, four_yangMills Y2 Y3 Q2 Q3, ym, lineV_pv, lineV_four, contract_four_pv, contract_pv, mb_plus, mb_backward]
  simp only [b0.mb_left, b0.mb_right, b1.mb_left, b1.mb_right, b2.mb_left, b2.mb_right, b3.mb_left, b3.mb_right, mb_three hb z0.2 z0.1, mb_three hb z0.2 z1.1, mb_three hb z0.2 z2.1, mb_two hb z0.2 z3.1, mb_three hb z1.2 z0.1, mb_three hb z1.2 z1.1, mb_three hb z1.2 z2.1, mb_two hb z1.2 z3.1, mb_three hb z2.2 z0.1, mb_three hb z2.2 z1.1, mb_three hb z2.2 z2.1, mb_one hb z2.2 z3.1, mb_two hb z3.2 z0.1, mb_two hb z3.2 z1.1, mb_one hb z3.2 z2.1, mb_two hb z3.2 z3.1, ab_self, sb_self]
  have hne : c.mass .ne = 0 := hc.neutrino _
  simp only [ab_swap z0.1 z1.1, sb_swap z0.2 z1.2, ab_swap z0.1 z2.1, sb_swap z0.2 z2.2, ab_swap z0.1 z3.1, sb_swap z0.2 z3.2, ab_swap z1.1 z2.1, sb_swap z1.2 z2.2, ab_swap z1.1 z3.1, sb_swap z1.2 z3.2, ab_swap z2.1 z3.1, sb_swap z2.2 z3.2, r1, r2, r3, r7, r8, r9, r10, r11, Constants.hL, Constants.hR, Constants.gL, Constants.gR, Constants.yuk, Constants.invVev, Flavour.charge_e, Flavour.isospin_e, Flavour.charge_ne, Flavour.isospin_ne, hne, ← c.mz]
  have xMW : (c.MW : ℂ) ≠ 0 := by exact_mod_cast hc.MW
  have xSW : (c.SW : ℂ) ≠ 0 := by exact_mod_cast hc.SW
  have xCW : (c.CW : ℂ) ≠ 0 := by exact_mod_cast hc.CW
  have x2 : ((√2 : ℝ) : ℂ) ≠ 0 := by exact_mod_cast (Real.sqrt_pos.2 two_pos).ne'
  have x22 : ((√2 : ℝ) : ℂ) ^ 2 = 2 := by rw [← Complex.ofReal_pow, Real.sq_sqrt two_pos.le]; norm_num
  push_cast
  field_simp
  first | ring1 | (ring_nf; simp only [x22]; ring1)
set_option maxRecDepth 8000 in
theorem enZW.amp2_eq (N : Env) (f : Nat → List Int → ℂ) : Cls.enZW.m_amp2.mean N f .r [] =
    ((sumJ (fun x a => (sumV (fun x b => (sumV (fun x c => (x + (‖(f 0 [a, b, c])‖ ^ 2))) x)) x)) ((0 : Nat) : ℝ)) / ((2 : Nat) : ℝ)) := by rfl
set_option maxRecDepth 8000 in
theorem enZW.value (N : Env) : meaning N .r Cls.enZW.methods Cls.enZW.amp2 [] =
    ((sumJ (fun x a => (sumV (fun x b => (sumV (fun x c => (x + (‖(Cls.enZW.m_amp.mean N (callMean N []) .c [a, b, c])‖ ^ 2))) x)) x)) ((0 : Nat) : ℝ)) / ((2 : Nat) : ℝ)) :=
  enZW.amp2_eq N (callMean N [Cls.enZW.m_amp])
set_option maxRecDepth 8000 in
theorem enZW.term_lin (N : Env) (w : ℝ) (x : ℂ) (j1 a2 b2 a3 b3 : Int) : enZW.term N w x j1 a2 b2 a3 b3 = x + (w : ℂ) * enZW.term N 1 0 j1 a2 b2 a3 b3 := by
  simp only [enZW.term]; push_cast; ring
theorem enZW.amp_eq (N : Env) (f : Nat → List Int → ℂ) (j1 : Int) (t2 t3 : Fin 3) : Cls.enZW.m_amp.mean N f .c [j1, spinV t2, spinV t3] = comb t2 (fun a2 b2 => comb t3 (fun a3 b3 => enZW.term N 1 0 j1 (spinOf a2) (spinOf b2) (spinOf a3) (spinOf b3))) := by
  refine (amp_mean N f (m := 3) (K := 7) (G := fun i => enZW.term N 1 0 (i 0) (i 3) (i 4) (i 5) (i 6)) (fun l => ?_) (fun i i' h => ?_) rfl (by decide) (by decide) (by decide) (by decide) (by decide)).trans ?_
  · refine ⟨_, rfl, ?_⟩; exact ⟨rfl, rfl, enZW.term_lin ..⟩
  · simp only [h 0 (by decide), h 3 (by decide), h 4 (by decide), h 5 (by decide), h 6 (by decide)]
  · show amp' _ [spinV t2, spinV t3] = _
    simp only [amp'_comb, amp'_nil]
    rfl
theorem enZW.form_x2 (N : Env) (p : Nat → V4 ℝ) (z0 z1 y2 x3 y3 x y : Pair) : enZW.form N p z0 z1 (x + y) y2 x3 y3 = enZW.form N p z0 z1 x y2 x3 y3 + enZW.form N p z0 z1 y y2 x3 y3 := by
  simp only [enZW.form, Prod.fst_add, Prod.snd_add, ab_add_left, ab_add_right, sb_add_left, sb_add_right, mb_add_left, mb_add_right]
  ring
theorem enZW.form_y2 (N : Env) (p : Nat → V4 ℝ) (z0 z1 x2 x3 y3 x y : Pair) : enZW.form N p z0 z1 x2 (x + y) x3 y3 = enZW.form N p z0 z1 x2 x x3 y3 + enZW.form N p z0 z1 x2 y x3 y3 := by
  simp only [enZW.form, Prod.fst_add, Prod.snd_add, ab_add_left, ab_add_right, sb_add_left, sb_add_right, mb_add_left, mb_add_right]
  ring
theorem enZW.form_x3 (N : Env) (p : Nat → V4 ℝ) (z0 z1 x2 y2 y3 x y : Pair) : enZW.form N p z0 z1 x2 y2 (x + y) y3 = enZW.form N p z0 z1 x2 y2 x y3 + enZW.form N p z0 z1 x2 y2 y y3 := by
  simp only [enZW.form, Prod.fst_add, Prod.snd_add, ab_add_left, ab_add_right, sb_add_left, sb_add_right, mb_add_left, mb_add_right]
  ring
theorem enZW.form_y3 (N : Env) (p : Nat → V4 ℝ) (z0 z1 x2 y2 x3 x y : Pair) : enZW.form N p z0 z1 x2 y2 x3 (x + y) = enZW.form N p z0 z1 x2 y2 x3 x + enZW.form N p z0 z1 x2 y2 x3 y := by
  simp only [enZW.form, Prod.fst_add, Prod.snd_add, ab_add_left, ab_add_right, sb_add_left, sb_add_right, mb_add_left, mb_add_right]
  ring
theorem enZW.form_zero1 (N : Env) (p : Nat → V4 ℝ) {z1 : Pair} (z0 x2 y2 x3 y3 : Pair) (h : z1.1 = 0) : enZW.form N p z0 z1 x2 y2 x3 y3 = 0 := by
  simp [enZW.form, h, ab_zero, sb_zero, mb_zero]

theorem enZW.mass_eq {c : Constants} (hc : c.Physical) (i : Fin 4) : enZW.proc.massNum (enZW.rho c) i = enZW.react.mass c i := by
  fin_cases i <;> first | rfl | exact Nat.cast_zero.trans (hc.neutrino _).symm | (show c.MW / √(((1 : Nat) : ℝ) - c.SW * c.SW) = c.MZ; rw [c.root, c.mz])

variable [FPEnv] in
theorem enZW.agrees : enZW.Agrees := by
  refine agrees_of (D := [2, 3]) (E := [3]) (by simp [all, enZW]) (by decide +kernel) (by decide) (by decide +kernel) (fun c hc hh => ⟨List.forall_mem_cons.2 ⟨hc.MW, List.forall_mem_cons.2 ⟨hc.SW, List.forall_mem_nil _⟩⟩, List.forall_mem_cons.2 ⟨hc.SW_lt, List.forall_mem_nil _⟩⟩) (fun c hc i => enZW.mass_eq hc i) (by decide +kernel) ?_
  intro c p u ε hc hh hw h0 hs hb hr hu
  have he : enZW.react.ends = [0] := by decide
  have ht : enZW.react.starts = [1] := by decide
  have hB : enZW.react.bosons = [2, 3] := by decide
  have hM : enZW.react.allMassive = true := by decide
  obtain ⟨f1, f2, f3⟩ := enZW.react.regular_line he ht hB hr
  have r1 : (enZW.N c p).r 1 = (c.mass .e) := rfl
  have r2 : (enZW.N c p).r 2 = c.MW := rfl
  have r3 : (enZW.N c p).r 3 = (c.MW / √((((1 : Nat) : ℝ) - (c.SW * c.SW)))) := rfl
  simp only [c.root] at r3
  have r7 : (enZW.N c p).r 7 = ((c.e * c.e) / ((((((√(((2 : Nat) : ℝ)) * c.MW) * c.MW) * (c.MW / √((((1 : Nat) : ℝ) - (c.SW * c.SW))))) * (c.MW / √((((1 : Nat) : ℝ) - (c.SW * c.SW))))) * c.SW) * c.SW)) := rfl
  simp only [c.root] at r7
  have r8 : (enZW.N c p).r 8 = ((c.e * c.e) / ((((√(((2 : Nat) : ℝ)) * c.MW) * c.MW) * c.SW) * c.SW)) := rfl
  have r9 : (enZW.N c p).r 9 = ((c.e * c.e) / ((((√(((2 : Nat) : ℝ)) * c.MW) * c.MW) * c.SW) * c.SW)) := rfl
  have r10 : (enZW.N c p).r 10 = (((((2 : Nat) : ℝ) * c.SW) * c.SW) - ((1 : Nat) : ℝ)) := rfl
  have r11 : (enZW.N c p).r 11 = ((((2 : Nat) : ℝ) * c.SW) * c.SW) := rfl
  have c0 : (enZW.N c p).c 0 = poleDist c.MW c.WW ((VExp.add 0 1).sum p) := rfl
  rw [pole_congr (msq_s hb (plus (backward (p 2)) (backward (p 3))) (by simp)).symm] at c0
  have d0 : pole c.MW c.WW (plus (backward (p 2)) (backward (p 3))) = (enZW.N c p).c 0 := by rw [c0]
  have n0 : (enZW.N c p).c 0 ≠ 0 := by rw [← d0]; exact star_ne_zero.2 (f3 .wMinus rfl rfl)
  have c1 : (enZW.N c p).c 1 = poleDist (c.mass .e) ((0 : Nat) : ℝ) ((VExp.sub 0 2).sum p) := rfl
  rw [Nat.cast_zero, pole_fermion (msq_t hb (plus (p 1) (backward (p 3))) (by simp))] at c1
  have d1 : ((msq (plus (p 1) (backward (p 3))) - c.mass .e ^ 2 : ℝ) : ℂ) = (enZW.N c p).c 1 := by rw [c1]
  have n1 : (enZW.N c p).c 1 ≠ 0 := by rw [← d1]; exact_mod_cast f2 .e rfl rfl
  have c2 : (enZW.N c p).c 2 = poleDist ((0 : Nat) : ℝ) ((0 : Nat) : ℝ) ((VExp.sub 0 3).sum p) := rfl
  rw [Nat.cast_zero, pole_fermion (msq_u hb (plus (p 1) (backward (p 2))) (by simp))] at c2
  have d2 : ((msq (plus (p 1) (backward (p 2))) - c.mass .ne ^ 2 : ℝ) : ℂ) = (enZW.N c p).c 2 := by rw [c2, show c.mass .ne = 0 from hc.neutrino _]
  have n2 : (enZW.N c p).c 2 ≠ 0 := by rw [← d2]; exact_mod_cast f1 .ne rfl rfl
  have m0 : enZW.react.mass c 0 ≠ 0 := (leg_pos hc hh (by decide)).ne'
  have m1 : enZW.react.mass c 1 = 0 := hc.neutrino _
  have m2 : enZW.react.mass c 2 ≠ 0 := (leg_pos hc hh (by decide)).ne'
  have m3 : enZW.react.mass c 3 ≠ 0 := (leg_pos hc hh (by decide)).ne'
  have hd : enZW.proc.divides = [(Ty.c, 0), (Ty.c, 1), (Ty.c, 2)] := by decide +kernel
  refine ⟨fun n hn => ?_, fun n hn => ?_, ?_⟩
  · simp [hd] at hn
  · simp [hd] at hn
    rcases hn with rfl | rfl | rfl
    · exact n0
    · exact n1
    · exact n2
  have st : ∀ {z0 z1 : Pair} (b0 : Bold (p 0) (enZW.react.mass c 0) z0) (b1 : Bold (p 1) (enZW.react.mass c 1) z1) (t2 t3 : Fin 3), comb t2 (fun a2 b2 => comb t3 (fun a3 b3 => enZW.form (enZW.N c p) p z0 z1 (enZW.react.codePair c p 2 a2) (enZW.react.codePair c p 2 b2) (enZW.react.codePair c p 3 a3) (enZW.react.codePair c p 3 b3))) = 1 * enZW.react.bare c p 0 1 2 3 z0 z1 (enZW.react.codeVec c p 2 t2) (enZW.react.codeVec c p 3 t3) := by
    intro z0 z1 b0 b1 t2 t3
    refine two_vectors (p := p 2) (p' := p 3) (m := enZW.react.mass c 2) (m' := enZW.react.mass c 3) (fun s => enZW.react.codePair_bold hs h0 2 s) (fun s => enZW.react.codePair_bold hs h0 3 s) (B := fun x y x' y' => enZW.form (enZW.N c p) p z0 z1 x y x' y') (G := fun E F => enZW.react.bare c p 0 1 2 3 z0 z1 E F) (fun _ _ _ _ _ => ?_) (fun _ _ _ _ _ => ?_) (fun _ _ _ _ _ => ?_) (fun _ _ _ _ _ => ?_) (fun F => enZW.react.bare_lin₁ c p _ _ _ (by decide)) (fun E => enZW.react.bare_lin₂ c p _ _ _ (by decide)) 1 (fun z2 z3 b2 b3 => ?_) t2 t3
    · exact enZW.form_x2 ..
    · exact enZW.form_y2 ..
    · exact enZW.form_x3 ..
    · exact enZW.form_y3 ..
    · rw [one_mul]; exact enZW.key hc hb r1 r2 r3 r7 r8 r9 r10 r11 d0 n0 d1 n1 d2 n2 b0 b1 b2 b3 (onShell_msq (hs 2)) (onShell_msq (hs 3)) 
  have am : ∀ (s0 : Fin 2) (t2 t3 : Fin 3), Cls.enZW.m_amp.mean (enZW.N c p) (callMean (enZW.N c p) []) .c [spinOf s0, spinV t2, spinV t3] = 1 * enZW.react.bare c p 0 1 2 3 (enZW.react.codePair c p 0 s0) (enZW.react.codePair c p 1 0) (enZW.react.codeVec c p 2 t2) (enZW.react.codeVec c p 3 t3) := by
    intro s0 t2 t3
    rw [enZW.amp_eq, ← st (enZW.react.codePair_bold hs h0 0 s0) (enZW.react.codePair_bold hs h0 1 0) t2 t3]
    refine congrArg (comb t2) (funext fun a2 => funext fun b2 => ?_)
    refine congrArg (comb t3) (funext fun a3 => funext fun b3 => ?_)
    have v0y2x3 : (enZW.N c p).v 0 [spinOf b2, spinOf a3] = ab (enZW.react.codePair c p 2 b2).1 (enZW.react.codePair c p 3 a3).1 := bra_angle (p := p) (m := enZW.proc.massNum (enZW.rho c)) (enZW.mass_eq hc 2) (enZW.mass_eq hc 3) (.inl ⟨m2, rfl⟩) (.inl ⟨m3, rfl⟩)
    have v1y2x3 : (enZW.N c p).v 1 [spinOf b2, spinOf a3] = sb (enZW.react.codePair c p 2 b2).2 (enZW.react.codePair c p 3 a3).2 := bra_square (p := p) (m := enZW.proc.massNum (enZW.rho c)) (enZW.mass_eq hc 2) (enZW.mass_eq hc 3) (.inl ⟨m2, rfl⟩) (.inl ⟨m3, rfl⟩)
    have v2z1x2 : (enZW.N c p).v 2 [spinOf a2] = ab (enZW.react.codePair c p 1 0).1 (enZW.react.codePair c p 2 a2).1 := bra_angle (p := p) (m := enZW.proc.massNum (enZW.rho c)) (enZW.mass_eq hc 1) (enZW.mass_eq hc 2) (.inr ⟨m1, rfl⟩) (.inl ⟨m2, rfl⟩)
    have v3z0y3 : (enZW.N c p).v 3 [spinOf s0, spinOf b3] = sb (enZW.react.codePair c p 0 s0).2 (enZW.react.codePair c p 3 b3).2 := bra_square (p := p) (m := enZW.proc.massNum (enZW.rho c)) (enZW.mass_eq hc 0) (enZW.mass_eq hc 3) (.inl ⟨m0, rfl⟩) (.inl ⟨m3, rfl⟩)
    have v0x2y3 : (enZW.N c p).v 0 [spinOf a2, spinOf b3] = ab (enZW.react.codePair c p 2 a2).1 (enZW.react.codePair c p 3 b3).1 := bra_angle (p := p) (m := enZW.proc.massNum (enZW.rho c)) (enZW.mass_eq hc 2) (enZW.mass_eq hc 3) (.inl ⟨m2, rfl⟩) (.inl ⟨m3, rfl⟩)
    have v1x2y3 : (enZW.N c p).v 1 [spinOf a2, spinOf b3] = sb (enZW.react.codePair c p 2 a2).2 (enZW.react.codePair c p 3 b3).2 := bra_square (p := p) (m := enZW.proc.massNum (enZW.rho c)) (enZW.mass_eq hc 2) (enZW.mass_eq hc 3) (.inl ⟨m2, rfl⟩) (.inl ⟨m3, rfl⟩)
    have v4z1x3 : (enZW.N c p).v 4 [spinOf a3] = ab (enZW.react.codePair c p 1 0).1 (enZW.react.codePair c p 3 a3).1 := bra_angle (p := p) (m := enZW.proc.massNum (enZW.rho c)) (enZW.mass_eq hc 1) (enZW.mass_eq hc 3) (.inr ⟨m1, rfl⟩) (.inl ⟨m3, rfl⟩)
    have v5z0y2 : (enZW.N c p).v 5 [spinOf s0, spinOf b2] = sb (enZW.react.codePair c p 0 s0).2 (enZW.react.codePair c p 2 b2).2 := bra_square (p := p) (m := enZW.proc.massNum (enZW.rho c)) (enZW.mass_eq hc 0) (enZW.mass_eq hc 2) (.inl ⟨m0, rfl⟩) (.inl ⟨m2, rfl⟩)
    have v6z0z1 : (enZW.N c p).v 6 [spinOf s0] = ab (enZW.react.codePair c p 0 s0).1 (enZW.react.codePair c p 1 0).1 := bra_angle (p := p) (m := enZW.proc.massNum (enZW.rho c)) (enZW.mass_eq hc 0) (enZW.mass_eq hc 1) (.inl ⟨m0, rfl⟩) (.inr ⟨m1, rfl⟩)
    have v7z0z1 : (enZW.N c p).v 7 [spinOf s0] = mb (enZW.react.codePair c p 0 s0).2 (p 2) (enZW.react.codePair c p 1 0).1 := bra_mid_square (p := p) (m := enZW.proc.massNum (enZW.rho c)) (enZW.mass_eq hc 0) (enZW.mass_eq hc 1) (.inl ⟨m0, rfl⟩) (.inr ⟨m1, rfl⟩)
    have v0x2x3 : (enZW.N c p).v 0 [spinOf a2, spinOf a3] = ab (enZW.react.codePair c p 2 a2).1 (enZW.react.codePair c p 3 a3).1 := bra_angle (p := p) (m := enZW.proc.massNum (enZW.rho c)) (enZW.mass_eq hc 2) (enZW.mass_eq hc 3) (.inl ⟨m2, rfl⟩) (.inl ⟨m3, rfl⟩)
    have v1y2y3 : (enZW.N c p).v 1 [spinOf b2, spinOf b3] = sb (enZW.react.codePair c p 2 b2).2 (enZW.react.codePair c p 3 b3).2 := bra_square (p := p) (m := enZW.proc.massNum (enZW.rho c)) (enZW.mass_eq hc 2) (enZW.mass_eq hc 3) (.inl ⟨m2, rfl⟩) (.inl ⟨m3, rfl⟩)
    have v8z0y2 : (enZW.N c p).v 8 [spinOf s0, spinOf b2] = ab (enZW.react.codePair c p 0 s0).1 (enZW.react.codePair c p 2 b2).1 := bra_angle (p := p) (m := enZW.proc.massNum (enZW.rho c)) (enZW.mass_eq hc 0) (enZW.mass_eq hc 2) (.inl ⟨m0, rfl⟩) (.inl ⟨m2, rfl⟩)
    have v9y3y2 : (enZW.N c p).v 9 [spinOf b3, spinOf b2] = mb (enZW.react.codePair c p 3 b3).2 (p 0) (enZW.react.codePair c p 2 b2).1 := bra_mid_square (p := p) (m := enZW.proc.massNum (enZW.rho c)) (enZW.mass_eq hc 3) (enZW.mass_eq hc 2) (.inl ⟨m3, rfl⟩) (.inl ⟨m2, rfl⟩)
    have v5z0x2 : (enZW.N c p).v 5 [spinOf s0, spinOf a2] = sb (enZW.react.codePair c p 0 s0).2 (enZW.react.codePair c p 2 a2).2 := bra_square (p := p) (m := enZW.proc.massNum (enZW.rho c)) (enZW.mass_eq hc 0) (enZW.mass_eq hc 2) (.inl ⟨m0, rfl⟩) (.inl ⟨m2, rfl⟩)
    have v3z0x3 : (enZW.N c p).v 3 [spinOf s0, spinOf a3] = sb (enZW.react.codePair c p 0 s0).2 (enZW.react.codePair c p 3 a3).2 := bra_square (p := p) (m := enZW.proc.massNum (enZW.rho c)) (enZW.mass_eq hc 0) (enZW.mass_eq hc 3) (.inl ⟨m0, rfl⟩) (.inl ⟨m3, rfl⟩)
    have v10y2y3 : (enZW.N c p).v 10 [spinOf b2, spinOf b3] = mb (enZW.react.codePair c p 2 b2).2 (p 0) (enZW.react.codePair c p 3 b3).1 := bra_mid_square (p := p) (m := enZW.proc.massNum (enZW.rho c)) (enZW.mass_eq hc 2) (enZW.mass_eq hc 3) (.inl ⟨m2, rfl⟩) (.inl ⟨m3, rfl⟩)
    simp only [enZW.term, enZW.form, v0y2x3, v1y2x3, v2z1x2, v3z0y3, v0x2y3, v1x2y3, v4z1x3, v5z0y2, v6z0z1, v7z0z1, v0x2x3, v1y2y3, v8z0y2, v9y3y2, v5z0x2, v3z0x3, v10y2y3]
    push_cast
    ring
  have w1 : ∀ (s : Fin 2) (t2 t3 : Fin 3), enZW.react.bare c p 0 1 2 3 (enZW.react.codePair c p 0 s) (enZW.react.codePair c p 1 1) (enZW.react.codeVec c p 2 t2) (enZW.react.codeVec c p 3 t3) = 0 := by
    intro s t2 t3
    have e := st (enZW.react.codePair_bold hs h0 0 s) (enZW.react.codePair_bold hs h0 1 1) t2 t3
    rw [show comb t2 (fun a2 b2 => comb t3 (fun a3 b3 => enZW.form (enZW.N c p) p (enZW.react.codePair c p 0 s) (enZW.react.codePair c p 1 1) (enZW.react.codePair c p 2 a2) (enZW.react.codePair c p 2 b2) (enZW.react.codePair c p 3 a3) (enZW.react.codePair c p 3 b3))) = 0 by
      simp only [enZW.form_zero1 _ _ _ _ _ _ _ (show ((enZW.react.codePair c p 1 1)).1 = 0 from legA_zero m1 rfl)]; exact comb_zero_zero ..] at e
    exact (one_mul _).symm.trans e.symm
  show meaning (enZW.N c p) .r Cls.enZW.methods Cls.enZW.amp2 [] = _
  have lc : enZW.react.lineColours 0 1 = 1 := by decide +kernel
  have s0 : enZW.react.states 0 = 2 := by decide
  have s1 : enZW.react.states 1 = 1 := by decide
  have sy : enZW.react.symmetry = 1 := by decide
  have p0 : enZW.react.spins 0 = {0, 1} := rfl
  have p1 : enZW.react.spins 1 = {0, 1} := rfl
  have p2 : enZW.react.spins 2 = Finset.univ := rfl
  have p3 : enZW.react.spins 3 = Finset.univ := rfl
  rw [enZW.value, enZW.react.squared_line he ht hB (noGluon_of hM) hs h0 (fun _ b _ hb _ => (boson_pos hc hh hb).ne') (enZW.react.gauge_massive (massive_of hM)) (E := enZW.react.codeVec c p) (fun n b hl => enZW.react.codeVec_polarised hs h0 hl (massive_of hM n b hl) (fun _ => (boson_pos hc hh (massive_of hM n b hl)).ne')) hu, sum_colours, lc, s0, s1, sy]
  simp only [sumV_sum, sumJ_sum, am, norm_mul, norm_neg, norm_one, one_mul, p0, p1, p2, p3, Finset.sum_singleton, sum_two, Matrix.cons_val_zero, Matrix.cons_val_one, Matrix.cons_val, two_castSucc]
  simp only [Fin.sum_univ_two, w1, norm_zero]
  try simp only [← Finset.mul_sum]
  push_cast
  first | ring1 | ring_nf

/-! ### udZW -/

/-- what the methods of the class see -/
noncomputable abbrev udZW.N [FPEnv] (c : Constants) (p : Nat → V4 ℝ) : Env := udZW.proc.env (udZW.rho c) p
/-- the term that `amp` adds for a choice of spinors (SM/udZW.cpp) -/
noncomputable def udZW.term (N : Env) (w : ℝ) (x : ℂ) (j1 j2 a2 b2 a3 b3 : Int) : ℂ :=
  (((x + (((((w * N.r 14) : ℝ) : ℂ) * (((((((N.r 9 : ℝ) : ℂ) * (((N.r 9 : ℝ) : ℂ) * (((((2 : Nat) : ℝ) : ℝ) : ℂ) * ((((N.r 9 : ℝ) : ℂ) * N.v 4 [a2, b3]) + (((N.r 12 : ℝ) : ℂ) * N.v 9 [a2, b3]))))) * N.v 3 [j2, a3]) * N.v 6 [j1, b2]) + (((((N.r 9 : ℝ) : ℂ) * (((N.r 9 : ℝ) : ℂ) * (((((2 : Nat) : ℝ) : ℝ) : ℂ) * ((((N.r 12 : ℝ) : ℂ) * N.v 4 [a2, b3]) + (((N.r 9 : ℝ) : ℂ) * N.v 9 [a2, b3]))))) * N.v 2 [j2, b2]) * N.v 7 [j1, a3])) + ((N.v 4 [a2, a3] * N.v 9 [b2, b3]) * ((((((((N.r 12 * N.r 12) - ((((2 : Nat) : ℝ) * N.r 9) * N.r 9)) * N.r 7) : ℝ) : ℂ) * N.v 0 [j1, j2]) + (((((((((2 : Nat) : ℝ) * N.r 9) * N.r 9) - (N.r 12 * N.r 12)) * N.r 8) : ℝ) : ℂ) * N.v 5 [j1, j2])) + (((((((2 : Nat) : ℝ) * N.r 9) * N.r 9) : ℝ) : ℂ) * N.v 10 [j1, j2]))))) / N.c 0)) + (((((((-w) * N.r 15) : ℝ) : ℂ) * N.v 3 [j2, a3]) * ((((((N.r 4 * N.r 7) : ℝ) : ℂ) * N.v 1 [j1, b2]) * N.v 9 [a2, b3]) - ((((N.r 3 : ℝ) : ℂ) * N.v 6 [j1, a2]) * ((((N.r 12 : ℝ) : ℂ) * N.v 9 [b2, b3]) - N.v 12 [b3, b2])))) / N.c 1)) + ((((((w * N.r 15) : ℝ) : ℂ) * N.v 7 [j1, a3]) * ((((((N.r 6 * N.r 8) : ℝ) : ℂ) * N.v 4 [a2, b3]) * N.v 8 [j2, b2]) - ((((N.r 5 : ℝ) : ℂ) * N.v 2 [j2, a2]) * ((((N.r 9 : ℝ) : ℂ) * N.v 9 [b2, b3]) + N.v 11 [b2, b3])))) / N.c 2))
/-- the same with spinors in place of their spins -/
noncomputable def udZW.form (N : Env) (p : Nat → V4 ℝ) (z0 z1 x2 y2 x3 y3 : Pair) : ℂ :=
  (((0 + (((((((1 : Nat) : ℝ) * N.r 14) : ℝ) : ℂ) * (((((((N.r 9 : ℝ) : ℂ) * (((N.r 9 : ℝ) : ℂ) * (((((2 : Nat) : ℝ) : ℝ) : ℂ) * ((((N.r 9 : ℝ) : ℂ) * (ab x2.1 y3.1)) + (((N.r 12 : ℝ) : ℂ) * (sb x2.2 y3.2)))))) * (ab z1.1 x3.1)) * (sb z0.2 y2.2)) + (((((N.r 9 : ℝ) : ℂ) * (((N.r 9 : ℝ) : ℂ) * (((((2 : Nat) : ℝ) : ℝ) : ℂ) * ((((N.r 12 : ℝ) : ℂ) * (ab x2.1 y3.1)) + (((N.r 9 : ℝ) : ℂ) * (sb x2.2 y3.2)))))) * (ab z1.1 y2.1)) * (sb z0.2 x3.2))) + (((ab x2.1 x3.1) * (sb y2.2 y3.2)) * ((((((((N.r 12 * N.r 12) - ((((2 : Nat) : ℝ) * N.r 9) * N.r 9)) * N.r 7) : ℝ) : ℂ) * (ab z0.1 z1.1)) + (((((((((2 : Nat) : ℝ) * N.r 9) * N.r 9) - (N.r 12 * N.r 12)) * N.r 8) : ℝ) : ℂ) * (sb z0.2 z1.2))) + (((((((2 : Nat) : ℝ) * N.r 9) * N.r 9) : ℝ) : ℂ) * (mb z0.2 (p 2) z1.1)))))) / N.c 0)) + (((((((-((1 : Nat) : ℝ)) * N.r 15) : ℝ) : ℂ) * (ab z1.1 x3.1)) * ((((((N.r 4 * N.r 7) : ℝ) : ℂ) * (ab z0.1 y2.1)) * (sb x2.2 y3.2)) - ((((N.r 3 : ℝ) : ℂ) * (sb z0.2 x2.2)) * ((((N.r 12 : ℝ) : ℂ) * (sb y2.2 y3.2)) - (mb y3.2 (p 0) y2.1))))) / N.c 1)) + ((((((((1 : Nat) : ℝ) * N.r 15) : ℝ) : ℂ) * (sb z0.2 x3.2)) * ((((((N.r 6 * N.r 8) : ℝ) : ℂ) * (ab x2.1 y3.1)) * (sb z1.2 y2.2)) - ((((N.r 5 : ℝ) : ℂ) * (ab z1.1 x2.1)) * ((((N.r 9 : ℝ) : ℂ) * (sb y2.2 y3.2)) + (mb y2.2 (p 0) y3.1))))) / N.c 2))
theorem udZW.key {c : Constants} {p : Nat → V4 ℝ} {N : Env} (hc : c.Physical) (hb : Balanced p) (r3 : N.r 3 = (((((-((2 : Nat) : ℝ)) * (((2 : Nat) : ℝ) / ((3 : Nat) : ℝ))) * c.SW) * c.SW) + ((1 : Nat) : ℝ))) (r4 : N.r 4 = ((((-((2 : Nat) : ℝ)) * (((2 : Nat) : ℝ) / ((3 : Nat) : ℝ))) * c.SW) * c.SW)) (r5 : N.r 5 = (((((-((2 : Nat) : ℝ)) * ((-((1 : Nat) : ℝ)) / ((3 : Nat) : ℝ))) * c.SW) * c.SW) - ((1 : Nat) : ℝ))) (r6 : N.r 6 = ((((-((2 : Nat) : ℝ)) * ((-((1 : Nat) : ℝ)) / ((3 : Nat) : ℝ))) * c.SW) * c.SW)) (r7 : N.r 7 = (c.mass .u)) (r8 : N.r 8 = (c.mass .d)) (r9 : N.r 9 = c.MW) (r12 : N.r 12 = (c.MW / c.CW)) (r14 : N.r 14 = (((c.e * c.e) / ((((√(((2 : Nat) : ℝ)) * c.MW) * c.MW) * c.SW) * c.SW)) / ((c.MW / c.CW) * (c.MW / c.CW)))) (r15 : N.r 15 = ((c.e * c.e) / ((((√(((2 : Nat) : ℝ)) * c.MW) * c.MW) * c.SW) * c.SW))) (d0 : pole c.MW c.WW (plus (backward (p 2)) (backward (p 3))) = N.c 0) (n0 : N.c 0 ≠ 0) (d1 : ((msq (plus (p 1) (backward (p 3))) - c.mass .u ^ 2 : ℝ) : ℂ) = N.c 1) (n1 : N.c 1 ≠ 0) (d2 : ((msq (plus (p 1) (backward (p 2))) - c.mass .d ^ 2 : ℝ) : ℂ) = N.c 2) (n2 : N.c 2 ≠ 0) {z0 z1 z2 z3 : Pair} (b0 : Bold (p 0) (c.mass .u) z0) (b1 : Bold (p 1) (c.mass .d) z1) (b2 : Bold (p 2) c.MZ z2) (b3 : Bold (p 3) c.MW z3) (q2 : msq (p 2) = c.MZ ^ 2) (q3 : msq (p 3) = c.MW ^ 2) :
    udZW.form N p z0 z1 z2 z2 z3 z3 = -(((2 / (c.MZ * c.MW) : ℝ) : ℂ) * udZW.react.bare c p 0 1 2 3 z0 z1 (pv z2.1 z2.2) (pv z3.1 z3.2)) := by
  rw [udZW.react.bare_parts c p (i := 0) (j := 1) (a := 2) (b := 3) (x := .z) (y := .wPlus) (k := (backward (p 2))) (k' := (backward (p 3))) (fun _ => rfl) (fun _ => rfl) (f := .d) (g := .u) rfl rfl (l := (p 1)) rfl (e := -1) (e' := 1) (if_pos rfl) (if_neg Bool.false_ne_true)]
  rw [compton_vv (f := .d) (x := .d) (g := .u) (h := (rfl : Spec.after .z Flavour.d = some Flavour.d)) (h' := (rfl : Spec.after .wPlus Flavour.d = some Flavour.u)) (ha := by simp) (hb := by simp)]
  rw [compton_vv (f := .d) (x := .u) (g := .u) (h := (rfl : Spec.after .wPlus Flavour.d = some Flavour.u)) (h' := (rfl : Spec.after .z Flavour.u = some Flavour.u)) (ha := by simp) (hb := by simp)]
  have an := annihilation_charged c (-1) (1) z0.1 z0.2 z1.1 z1.2 ⟨.z, (backward (p 2)), pv z2.1 z2.2⟩ ⟨.wPlus, (backward (p 3)), pv z3.1 z3.2⟩ (f := .d) (g := .u) (x := .wPlus) (by simp) rfl
  dsimp only at an
  rw [an, udZW.form]
  clear an
  have Y2 := b2.back; have Q2 : msq (backward (p 2)) = (-c.MZ) ^ 2 := by rw [msq_backward, q2, neg_sq]
  have Y3 := b3.back; have Q3 : msq (backward (p 3)) = (-c.MW) ^ 2 := by rw [msq_backward, q3, neg_sq]
  rw [lineV_massive (hx := (rfl : Boson.massive .wPlus = true))]
  simp only [toHiggs, toVector, higgs2, gauge3, Boson.anti, Constants.bosonMass, Constants.bosonWidth, d0, d1, d2, reduceCtorEq, and_self, and_true, and_false, and_true, if_true, if_false, Complex.ofReal_zero, zero_smul, zero_mul, mul_zero, zero_div, neg_zero, add_zero, zero_add, lineH, lineV_zero, contract_zero, lineV_smul, contract_smul, lineV_yangMills Y2 Y3, four_yangMills Y2 Y3 Q2 Q3, ym, lineV_pv, lineV_four, contract_four_pv, contract_pv, mb_plus, mb_backward]
  simp only [b0.mb_left, b0.mb_right, b1.mb_left, b1.mb_right, b2.mb_left, b2.mb_right, b3.mb_left, b3.mb_right, mb_three hb z0.2 z0.1, mb_three hb z0.2 z1.1, mb_three hb z0.2 z2.1, mb_two hb z0.2 z3.1, mb_three hb z1.2 z0.1, mb_three hb z1.2 z1.1, mb_three hb z1.2 z2.1, mb_two hb z1.2 z3.1, mb_three hb z2.2 z0.1, mb_three hb z2.2 z1.1, mb_three hb z2.2 z2.1, mb_one hb z2.2 z3.1, mb_two hb z3.2 z0.1, mb_two hb z3.2 z1.1, mb_one hb z3.2 z2.1, mb_two hb z3.2 z3.1, ab_self, sb_self]
  simp only [ab_swap z0.1 z1.1, sb_swap z0.2 z1.2, ab_swap z0.1 z2.1, sb_swap z0.2 z2.2, ab_swap z0.1 z3.1, sb_swap z0.2 z3.2, ab_swap z1.1 z2.1, sb_swap z1.2 z2.2, ab_swap z1.1 z3.1, sb_swap z1.2 z3.2, ab_swap z2.1 z3.1, sb_swap z2.2 z3.2, r3, r4, r5, r6, r7, r8, r9, r12, r14, r15, Constants.hL, Constants.hR, Constants.gL, Constants.gR, Constants.yuk, Constants.invVev, Flavour.charge_d, Flavour.isospin_d, Flavour.charge_u, Flavour.isospin_u, ← c.mz]
  have xMW : (c.MW : ℂ) ≠ 0 := by exact_mod_cast hc.MW
  have xSW : (c.SW : ℂ) ≠ 0 := by exact_mod_cast hc.SW
  have xCW : (c.CW : ℂ) ≠ 0 := by exact_mod_cast hc.CW
  have x2 : ((√2 : ℝ) : ℂ) ≠ 0 := by exact_mod_cast (Real.sqrt_pos.2 two_pos).ne'
  have x22 : ((√2 : ℝ) : ℂ) ^ 2 = 2 := by rw [← Complex.ofReal_pow, Real.sq_sqrt two_pos.le]; norm_num
  push_cast
  field_simp
  first | ring1 | (ring_nf; simp only [x22]; ring1)
set_option maxRecDepth 8000 in
theorem udZW.amp2_eq (N : Env) (f : Nat → List Int → ℂ) : Cls.udZW.m_amp2.mean N f .r [] =
    ((sumJ (fun x a => (sumJ (fun x b => (sumV (fun x c => (sumV (fun x d => (x + (((3 : Nat) : ℝ) * (‖(f 0 [a, b, c, d])‖ ^ 2)))) x)) x)) x)) ((0 : Nat) : ℝ)) / ((36 : Nat) : ℝ)) := by rfl
set_option maxRecDepth 8000 in
theorem udZW.value (N : Env) : meaning N .r Cls.udZW.methods Cls.udZW.amp2 [] =
    ((sumJ (fun x a => (sumJ (fun x b => (sumV (fun x c => (sumV (fun x d => (x + (((3 : Nat) : ℝ) * (‖(Cls.udZW.m_amp.mean N (callMean N []) .c [a, b, c, d])‖ ^ 2)))) x)) x)) x)) ((0 : Nat) : ℝ)) / ((36 : Nat) : ℝ)) :=
  udZW.amp2_eq N (callMean N [Cls.udZW.m_amp])
set_option maxRecDepth 8000 in
theorem udZW.term_lin (N : Env) (w : ℝ) (x : ℂ) (j1 j2 a2 b2 a3 b3 : Int) : udZW.term N w x j1 j2 a2 b2 a3 b3 = x + (w : ℂ) * udZW.term N 1 0 j1 j2 a2 b2 a3 b3 := by
  simp only [udZW.term]; push_cast; ring
theorem udZW.amp_eq (N : Env) (f : Nat → List Int → ℂ) (j1 j2 : Int) (t2 t3 : Fin 3) : Cls.udZW.m_amp.mean N f .c [j1, j2, spinV t2, spinV t3] = comb t2 (fun a2 b2 => comb t3 (fun a3 b3 => udZW.term N 1 0 j1 j2 (spinOf a2) (spinOf b2) (spinOf a3) (spinOf b3))) := by
  refine (amp_mean N f (m := 4) (K := 8) (G := fun i => udZW.term N 1 0 (i 0) (i 1) (i 4) (i 5) (i 6) (i 7)) (fun l => ?_) (fun i i' h => ?_) rfl (by decide) (by decide) (by decide) (by decide) (by decide)).trans ?_
  · refine ⟨_, rfl, ?_⟩; exact ⟨rfl, rfl, udZW.term_lin ..⟩
  · simp only [h 0 (by decide), h 1 (by decide), h 4 (by decide), h 5 (by decide), h 6 (by decide), h 7 (by decide)]
  · show amp' _ [spinV t2, spinV t3] = _
    simp only [amp'_comb, amp'_nil]
    rfl
theorem udZW.form_x2 (N : Env) (p : Nat → V4 ℝ) (z0 z1 y2 x3 y3 x y : Pair) : udZW.form N p z0 z1 (x + y) y2 x3 y3 = udZW.form N p z0 z1 x y2 x3 y3 + udZW.form N p z0 z1 y y2 x3 y3 := by
  simp only [udZW.form, Prod.fst_add, Prod.snd_add, ab_add_left, ab_add_right, sb_add_left, sb_add_right, mb_add_left, mb_add_right]
  ring
theorem udZW.form_y2 (N : Env) (p : Nat → V4 ℝ) (z0 z1 x2 x3 y3 x y : Pair) : udZW.form N p z0 z1 x2 (x + y) x3 y3 = udZW.form N p z0 z1 x2 x x3 y3 + udZW.form N p z0 z1 x2 y x3 y3 := by
  simp only [udZW.form, Prod.fst_add, Prod.snd_add, ab_add_left, ab_add_right, sb_add_left, sb_add_right, mb_add_left, mb_add_right]
  ring
theorem udZW.form_x3 (N : Env) (p : Nat → V4 ℝ) (z0 z1 x2 y2 y3 x y : Pair) : udZW.form N p z0 z1 x2 y2 (x + y) y3 = udZW.form N p z0 z1 x2 y2 x y3 + udZW.form N p z0 z1 x2 y2 y y3 := by
  simp only [udZW.form, Prod.fst_add, Prod.snd_add, ab_add_left, ab_add_right, sb_add_left, sb_add_right, mb_add_left, mb_add_right]
  ring
theorem udZW.form_y3 (N : Env) (p : Nat → V4 ℝ) (z0 z1 x2 y2 x3 x y : Pair) : udZW.form N p z0 z1 x2 y2 x3 (x + y) = udZW.form N p z0 z1 x2 y2 x3 x + udZW.form N p z0 z1 x2 y2 x3 y := by
  simp only [udZW.form, Prod.fst_add, Prod.snd_add, ab_add_left, ab_add_right, sb_add_left, sb_add_right, mb_add_left, mb_add_right]
  ring

theorem udZW.mass_eq {c : Constants} (hc : c.Physical) (i : Fin 4) : udZW.proc.massNum (udZW.rho c) i = udZW.react.mass c i := by
  fin_cases i <;> first | rfl | exact Nat.cast_zero.trans (hc.neutrino _).symm | (show c.MW / √(((1 : Nat) : ℝ) - c.SW * c.SW) = c.MZ; rw [c.root, c.mz])

variable [FPEnv] in
theorem udZW.agrees : udZW.Agrees := by
  refine agrees_of (D := [3, 4]) (E := [4]) (by simp [all, udZW]) (by decide +kernel) (by decide) (by decide +kernel) (fun c hc hh => ⟨List.forall_mem_cons.2 ⟨hc.MW, List.forall_mem_cons.2 ⟨hc.SW, List.forall_mem_nil _⟩⟩, List.forall_mem_cons.2 ⟨hc.SW_lt, List.forall_mem_nil _⟩⟩) (fun c hc i => udZW.mass_eq hc i) (by decide +kernel) ?_
  intro c p u ε hc hh hw h0 hs hb hr hu
  have he : udZW.react.ends = [0] := by decide
  have ht : udZW.react.starts = [1] := by decide
  have hB : udZW.react.bosons = [2, 3] := by decide
  have hM : udZW.react.allMassive = true := by decide
  obtain ⟨f1, f2, f3⟩ := udZW.react.regular_line he ht hB hr
  have r3 : (udZW.N c p).r 3 = (((((-((2 : Nat) : ℝ)) * (((2 : Nat) : ℝ) / ((3 : Nat) : ℝ))) * c.SW) * c.SW) + ((1 : Nat) : ℝ)) := rfl
  have r4 : (udZW.N c p).r 4 = ((((-((2 : Nat) : ℝ)) * (((2 : Nat) : ℝ) / ((3 : Nat) : ℝ))) * c.SW) * c.SW) := rfl
  have r5 : (udZW.N c p).r 5 = (((((-((2 : Nat) : ℝ)) * ((-((1 : Nat) : ℝ)) / ((3 : Nat) : ℝ))) * c.SW) * c.SW) - ((1 : Nat) : ℝ)) := rfl
  have r6 : (udZW.N c p).r 6 = ((((-((2 : Nat) : ℝ)) * ((-((1 : Nat) : ℝ)) / ((3 : Nat) : ℝ))) * c.SW) * c.SW) := rfl
  have r7 : (udZW.N c p).r 7 = (c.mass .u) := rfl
  have r8 : (udZW.N c p).r 8 = (c.mass .d) := rfl
  have r9 : (udZW.N c p).r 9 = c.MW := rfl
  have r12 : (udZW.N c p).r 12 = (c.MW / √((((1 : Nat) : ℝ) - (c.SW * c.SW)))) := rfl
  simp only [c.root] at r12
  have r14 : (udZW.N c p).r 14 = (((c.e * c.e) / ((((√(((2 : Nat) : ℝ)) * c.MW) * c.MW) * c.SW) * c.SW)) / ((c.MW / √((((1 : Nat) : ℝ) - (c.SW * c.SW)))) * (c.MW / √((((1 : Nat) : ℝ) - (c.SW * c.SW)))))) := rfl
  simp only [c.root] at r14
  have r15 : (udZW.N c p).r 15 = ((c.e * c.e) / ((((√(((2 : Nat) : ℝ)) * c.MW) * c.MW) * c.SW) * c.SW)) := rfl
  have c0 : (udZW.N c p).c 0 = poleDist c.MW c.WW ((VExp.add 0 1).sum p) := rfl
  rw [pole_congr (msq_s hb (plus (backward (p 2)) (backward (p 3))) (by simp)).symm] at c0
  have d0 : pole c.MW c.WW (plus (backward (p 2)) (backward (p 3))) = (udZW.N c p).c 0 := by rw [c0]
  have n0 : (udZW.N c p).c 0 ≠ 0 := by rw [← d0]; exact star_ne_zero.2 (f3 .wPlus rfl rfl)
  have c1 : (udZW.N c p).c 1 = poleDist (c.mass .u) ((0 : Nat) : ℝ) ((VExp.sub 0 2).sum p) := rfl
  rw [Nat.cast_zero, pole_fermion (msq_t hb (plus (p 1) (backward (p 3))) (by simp))] at c1
  have d1 : ((msq (plus (p 1) (backward (p 3))) - c.mass .u ^ 2 : ℝ) : ℂ) = (udZW.N c p).c 1 := by rw [c1]
  have n1 : (udZW.N c p).c 1 ≠ 0 := by rw [← d1]; exact_mod_cast f2 .u rfl rfl
  have c2 : (udZW.N c p).c 2 = poleDist (c.mass .d) ((0 : Nat) : ℝ) ((VExp.sub 0 3).sum p) := rfl
  rw [Nat.cast_zero, pole_fermion (msq_u hb (plus (p 1) (backward (p 2))) (by simp))] at c2
  have d2 : ((msq (plus (p 1) (backward (p 2))) - c.mass .d ^ 2 : ℝ) : ℂ) = (udZW.N c p).c 2 := by rw [c2]
  have n2 : (udZW.N c p).c 2 ≠ 0 := by rw [← d2]; exact_mod_cast f1 .d rfl rfl
  have m0 : udZW.react.mass c 0 ≠ 0 := (leg_pos hc hh (by decide)).ne'
  have m1 : udZW.react.mass c 1 ≠ 0 := (leg_pos hc hh (by decide)).ne'
  have m2 : udZW.react.mass c 2 ≠ 0 := (leg_pos hc hh (by decide)).ne'
  have m3 : udZW.react.mass c 3 ≠ 0 := (leg_pos hc hh (by decide)).ne'
  have hd : udZW.proc.divides = [(Ty.c, 0), (Ty.c, 1), (Ty.c, 2)] := by decide +kernel
  refine ⟨fun n hn => ?_, fun n hn => ?_, ?_⟩
  · simp [hd] at hn
  · simp [hd] at hn
    rcases hn with rfl | rfl | rfl
    · exact n0
    · exact n1
    · exact n2
  have st : ∀ {z0 z1 : Pair} (b0 : Bold (p 0) (udZW.react.mass c 0) z0) (b1 : Bold (p 1) (udZW.react.mass c 1) z1) (t2 t3 : Fin 3), comb t2 (fun a2 b2 => comb t3 (fun a3 b3 => udZW.form (udZW.N c p) p z0 z1 (udZW.react.codePair c p 2 a2) (udZW.react.codePair c p 2 b2) (udZW.react.codePair c p 3 a3) (udZW.react.codePair c p 3 b3))) = (-1) * udZW.react.bare c p 0 1 2 3 z0 z1 (udZW.react.codeVec c p 2 t2) (udZW.react.codeVec c p 3 t3) := by
    intro z0 z1 b0 b1 t2 t3
    refine two_vectors (p := p 2) (p' := p 3) (m := udZW.react.mass c 2) (m' := udZW.react.mass c 3) (fun s => udZW.react.codePair_bold hs h0 2 s) (fun s => udZW.react.codePair_bold hs h0 3 s) (B := fun x y x' y' => udZW.form (udZW.N c p) p z0 z1 x y x' y') (G := fun E F => udZW.react.bare c p 0 1 2 3 z0 z1 E F) (fun _ _ _ _ _ => ?_) (fun _ _ _ _ _ => ?_) (fun _ _ _ _ _ => ?_) (fun _ _ _ _ _ => ?_) (fun F => udZW.react.bare_lin₁ c p _ _ _ (by decide)) (fun E => udZW.react.bare_lin₂ c p _ _ _ (by decide)) (-1) (fun z2 z3 b2 b3 => ?_) t2 t3
    · exact udZW.form_x2 ..
    · exact udZW.form_y2 ..
    · exact udZW.form_x3 ..
    · exact udZW.form_y3 ..
    · rw [neg_one_mul]; exact udZW.key hc hb r3 r4 r5 r6 r7 r8 r9 r12 r14 r15 d0 n0 d1 n1 d2 n2 b0 b1 b2 b3 (onShell_msq (hs 2)) (onShell_msq (hs 3)) 
  have am : ∀ (s0 : Fin 2) (s1 : Fin 2) (t2 t3 : Fin 3), Cls.udZW.m_amp.mean (udZW.N c p) (callMean (udZW.N c p) []) .c [spinOf s0, spinOf s1, spinV t2, spinV t3] = (-1) * udZW.react.bare c p 0 1 2 3 (udZW.react.codePair c p 0 s0) (udZW.react.codePair c p 1 s1) (udZW.react.codeVec c p 2 t2) (udZW.react.codeVec c p 3 t3) := by
    intro s0 s1 t2 t3
    rw [udZW.amp_eq, ← st (udZW.react.codePair_bold hs h0 0 s0) (udZW.react.codePair_bold hs h0 1 s1) t2 t3]
    refine congrArg (comb t2) (funext fun a2 => funext fun b2 => ?_)
    refine congrArg (comb t3) (funext fun a3 => funext fun b3 => ?_)
    have v4x2y3 : (udZW.N c p).v 4 [spinOf a2, spinOf b3] = ab (udZW.react.codePair c p 2 a2).1 (udZW.react.codePair c p 3 b3).1 := bra_angle (p := p) (m := udZW.proc.massNum (udZW.rho c)) (udZW.mass_eq hc 2) (udZW.mass_eq hc 3) (.inl ⟨m2, rfl⟩) (.inl ⟨m3, rfl⟩)
    have v9x2y3 : (udZW.N c p).v 9 [spinOf a2, spinOf b3] = sb (udZW.react.codePair c p 2 a2).2 (udZW.react.codePair c p 3 b3).2 := bra_square (p := p) (m := udZW.proc.massNum (udZW.rho c)) (udZW.mass_eq hc 2) (udZW.mass_eq hc 3) (.inl ⟨m2, rfl⟩) (.inl ⟨m3, rfl⟩)
    have v3z1x3 : (udZW.N c p).v 3 [spinOf s1, spinOf a3] = ab (udZW.react.codePair c p 1 s1).1 (udZW.react.codePair c p 3 a3).1 := bra_angle (p := p) (m := udZW.proc.massNum (udZW.rho c)) (udZW.mass_eq hc 1) (udZW.mass_eq hc 3) (.inl ⟨m1, rfl⟩) (.inl ⟨m3, rfl⟩)
    have v6z0y2 : (udZW.N c p).v 6 [spinOf s0, spinOf b2] = sb (udZW.react.codePair c p 0 s0).2 (udZW.react.codePair c p 2 b2).2 := bra_square (p := p) (m := udZW.proc.massNum (udZW.rho c)) (udZW.mass_eq hc 0) (udZW.mass_eq hc 2) (.inl ⟨m0, rfl⟩) (.inl ⟨m2, rfl⟩)
    have v2z1y2 : (udZW.N c p).v 2 [spinOf s1, spinOf b2] = ab (udZW.react.codePair c p 1 s1).1 (udZW.react.codePair c p 2 b2).1 := bra_angle (p := p) (m := udZW.proc.massNum (udZW.rho c)) (udZW.mass_eq hc 1) (udZW.mass_eq hc 2) (.inl ⟨m1, rfl⟩) (.inl ⟨m2, rfl⟩)
    have v7z0x3 : (udZW.N c p).v 7 [spinOf s0, spinOf a3] = sb (udZW.react.codePair c p 0 s0).2 (udZW.react.codePair c p 3 a3).2 := bra_square (p := p) (m := udZW.proc.massNum (udZW.rho c)) (udZW.mass_eq hc 0) (udZW.mass_eq hc 3) (.inl ⟨m0, rfl⟩) (.inl ⟨m3, rfl⟩)
    have v4x2x3 : (udZW.N c p).v 4 [spinOf a2, spinOf a3] = ab (udZW.react.codePair c p 2 a2).1 (udZW.react.codePair c p 3 a3).1 := bra_angle (p := p) (m := udZW.proc.massNum (udZW.rho c)) (udZW.mass_eq hc 2) (udZW.mass_eq hc 3) (.inl ⟨m2, rfl⟩) (.inl ⟨m3, rfl⟩)
    have v9y2y3 : (udZW.N c p).v 9 [spinOf b2, spinOf b3] = sb (udZW.react.codePair c p 2 b2).2 (udZW.react.codePair c p 3 b3).2 := bra_square (p := p) (m := udZW.proc.massNum (udZW.rho c)) (udZW.mass_eq hc 2) (udZW.mass_eq hc 3) (.inl ⟨m2, rfl⟩) (.inl ⟨m3, rfl⟩)
    have v0z0z1 : (udZW.N c p).v 0 [spinOf s0, spinOf s1] = ab (udZW.react.codePair c p 0 s0).1 (udZW.react.codePair c p 1 s1).1 := bra_angle (p := p) (m := udZW.proc.massNum (udZW.rho c)) (udZW.mass_eq hc 0) (udZW.mass_eq hc 1) (.inl ⟨m0, rfl⟩) (.inl ⟨m1, rfl⟩)
    have v5z0z1 : (udZW.N c p).v 5 [spinOf s0, spinOf s1] = sb (udZW.react.codePair c p 0 s0).2 (udZW.react.codePair c p 1 s1).2 := bra_square (p := p) (m := udZW.proc.massNum (udZW.rho c)) (udZW.mass_eq hc 0) (udZW.mass_eq hc 1) (.inl ⟨m0, rfl⟩) (.inl ⟨m1, rfl⟩)
    have v10z0z1 : (udZW.N c p).v 10 [spinOf s0, spinOf s1] = mb (udZW.react.codePair c p 0 s0).2 (p 2) (udZW.react.codePair c p 1 s1).1 := bra_mid_square (p := p) (m := udZW.proc.massNum (udZW.rho c)) (udZW.mass_eq hc 0) (udZW.mass_eq hc 1) (.inl ⟨m0, rfl⟩) (.inl ⟨m1, rfl⟩)
    have v1z0y2 : (udZW.N c p).v 1 [spinOf s0, spinOf b2] = ab (udZW.react.codePair c p 0 s0).1 (udZW.react.codePair c p 2 b2).1 := bra_angle (p := p) (m := udZW.proc.massNum (udZW.rho c)) (udZW.mass_eq hc 0) (udZW.mass_eq hc 2) (.inl ⟨m0, rfl⟩) (.inl ⟨m2, rfl⟩)
    have v6z0x2 : (udZW.N c p).v 6 [spinOf s0, spinOf a2] = sb (udZW.react.codePair c p 0 s0).2 (udZW.react.codePair c p 2 a2).2 := bra_square (p := p) (m := udZW.proc.massNum (udZW.rho c)) (udZW.mass_eq hc 0) (udZW.mass_eq hc 2) (.inl ⟨m0, rfl⟩) (.inl ⟨m2, rfl⟩)
    have v12y3y2 : (udZW.N c p).v 12 [spinOf b3, spinOf b2] = mb (udZW.react.codePair c p 3 b3).2 (p 0) (udZW.react.codePair c p 2 b2).1 := bra_mid_square (p := p) (m := udZW.proc.massNum (udZW.rho c)) (udZW.mass_eq hc 3) (udZW.mass_eq hc 2) (.inl ⟨m3, rfl⟩) (.inl ⟨m2, rfl⟩)
    have v8z1y2 : (udZW.N c p).v 8 [spinOf s1, spinOf b2] = sb (udZW.react.codePair c p 1 s1).2 (udZW.react.codePair c p 2 b2).2 := bra_square (p := p) (m := udZW.proc.massNum (udZW.rho c)) (udZW.mass_eq hc 1) (udZW.mass_eq hc 2) (.inl ⟨m1, rfl⟩) (.inl ⟨m2, rfl⟩)
    have v2z1x2 : (udZW.N c p).v 2 [spinOf s1, spinOf a2] = ab (udZW.react.codePair c p 1 s1).1 (udZW.react.codePair c p 2 a2).1 := bra_angle (p := p) (m := udZW.proc.massNum (udZW.rho c)) (udZW.mass_eq hc 1) (udZW.mass_eq hc 2) (.inl ⟨m1, rfl⟩) (.inl ⟨m2, rfl⟩)
    have v11y2y3 : (udZW.N c p).v 11 [spinOf b2, spinOf b3] = mb (udZW.react.codePair c p 2 b2).2 (p 0) (udZW.react.codePair c p 3 b3).1 := bra_mid_square (p := p) (m := udZW.proc.massNum (udZW.rho c)) (udZW.mass_eq hc 2) (udZW.mass_eq hc 3) (.inl ⟨m2, rfl⟩) (.inl ⟨m3, rfl⟩)
    simp only [udZW.term, udZW.form, v4x2y3, v9x2y3, v3z1x3, v6z0y2, v2z1y2, v7z0x3, v4x2x3, v9y2y3, v0z0z1, v5z0z1, v10z0z1, v1z0y2, v6z0x2, v12y3y2, v8z1y2, v2z1x2, v11y2y3]
    push_cast
    ring
  show meaning (udZW.N c p) .r Cls.udZW.methods Cls.udZW.amp2 [] = _
  have lc : udZW.react.lineColours 0 1 = 3 := by decide +kernel
  have s0 : udZW.react.states 0 = 6 := by decide
  have s1 : udZW.react.states 1 = 6 := by decide
  have sy : udZW.react.symmetry = 1 := by decide
  have p0 : udZW.react.spins 0 = {0, 1} := rfl
  have p1 : udZW.react.spins 1 = {0, 1} := rfl
  have p2 : udZW.react.spins 2 = Finset.univ := rfl
  have p3 : udZW.react.spins 3 = Finset.univ := rfl
  rw [udZW.value, udZW.react.squared_line he ht hB (noGluon_of hM) hs h0 (fun _ b _ hb _ => (boson_pos hc hh hb).ne') (udZW.react.gauge_massive (massive_of hM)) (E := udZW.react.codeVec c p) (fun n b hl => udZW.react.codeVec_polarised hs h0 hl (massive_of hM n b hl) (fun _ => (boson_pos hc hh (massive_of hM n b hl)).ne')) hu, sum_colours, lc, s0, s1, sy]
  simp only [sumV_sum, sumJ_sum, am, norm_mul, norm_neg, norm_one, one_mul, p0, p1, p2, p3, Finset.sum_singleton, sum_two, Matrix.cons_val_zero, Matrix.cons_val_one, Matrix.cons_val, two_castSucc]
  try simp only [← Finset.mul_sum]
  push_cast
  first | ring1 | ring_nf

/-! ### ZnWe -/

/-- what the methods of the class see -/
noncomputable abbrev ZnWe.N [FPEnv] (c : Constants) (p : Nat → V4 ℝ) : Env := ZnWe.proc.env (ZnWe.rho c) p
/-- the term that `amp` adds for a choice of spinors (SM/ZnWe.cpp) -/
noncomputable def ZnWe.term (N : Env) (w : ℝ) (x : ℂ) (a0 b0 a2 b2 j4 : Int) : ℂ :=
  (((x + ((((((-w) * N.r 7) : ℝ) : ℂ) * (((((((N.r 2 : ℝ) : ℂ) * (((N.r 2 : ℝ) : ℂ) * (((((2 : Nat) : ℝ) : ℝ) : ℂ) * (((((-N.r 3) : ℝ) : ℂ) * N.v 0 [b0, a2]) + (((N.r 2 : ℝ) : ℂ) * N.v 1 [b0, a2]))))) * N.v 2 [a0]) * N.v 3 [j4, b2]) + (((((N.r 2 : ℝ) : ℂ) * (((N.r 2 : ℝ) : ℂ) * (((((2 : Nat) : ℝ) : ℝ) : ℂ) * ((((N.r 2 : ℝ) : ℂ) * N.v 0 [a0, b2]) - (((N.r 3 : ℝ) : ℂ) * N.v 1 [a0, b2]))))) * N.v 4 [a2]) * N.v 5 [j4, b0])) + ((((((((((-N.r 3) * N.r 3) + ((((2 : Nat) : ℝ) * N.r 2) * N.r 2)) * N.r 1) : ℝ) : ℂ) * N.v 6 [j4]) - (((((((2 : Nat) : ℝ) * N.r 2) * N.r 2) : ℝ) : ℂ) * N.v 7 [j4])) * N.v 0 [a0, a2]) * N.v 1 [b0, b2]))) / N.c 1)) + (((((((-w) * N.r 8) : ℝ) : ℂ) * N.v 4 [a2]) * (((((((-N.r 11) * N.r 1) : ℝ) : ℂ) * N.v 8 [j4, b0]) * N.v 1 [a0, b2]) + ((((N.r 10 : ℝ) : ℂ) * ((((N.r 3 : ℝ) : ℂ) * N.v 1 [b0, b2]) - N.v 9 [b2, b0])) * N.v 5 [j4, a0]))) / N.c 2)) + ((((((((-w) * N.r 9) : ℝ) : ℂ) * N.v 2 [a0]) * N.v 3 [j4, a2]) * ((((N.r 2 : ℝ) : ℂ) * N.v 1 [b0, b2]) - N.v 10 [b0, b2])) / N.c 0))
/-- the same with spinors in place of their spins -/
noncomputable def ZnWe.form (N : Env) (p : Nat → V4 ℝ) (x0 y0 z1 x2 y2 z3 : Pair) : ℂ :=
  (((0 + ((((((-((1 : Nat) : ℝ)) * N.r 7) : ℝ) : ℂ) * (((((((N.r 2 : ℝ) : ℂ) * (((N.r 2 : ℝ) : ℂ) * (((((2 : Nat) : ℝ) : ℝ) : ℂ) * (((((-N.r 3) : ℝ) : ℂ) * (ab y0.1 x2.1)) + (((N.r 2 : ℝ) : ℂ) * (sb y0.2 x2.2)))))) * (ab z1.1 x0.1)) * (sb z3.2 y2.2)) + (((((N.r 2 : ℝ) : ℂ) * (((N.r 2 : ℝ) : ℂ) * (((((2 : Nat) : ℝ) : ℝ) : ℂ) * ((((N.r 2 : ℝ) : ℂ) * (ab x0.1 y2.1)) - (((N.r 3 : ℝ) : ℂ) * (sb x0.2 y2.2)))))) * (ab z1.1 x2.1)) * (sb z3.2 y0.2))) + ((((((((((-N.r 3) * N.r 3) + ((((2 : Nat) : ℝ) * N.r 2) * N.r 2)) * N.r 1) : ℝ) : ℂ) * (ab z3.1 z1.1)) - (((((((2 : Nat) : ℝ) * N.r 2) * N.r 2) : ℝ) : ℂ) * (mb z3.2 (p 0) z1.1))) * (ab x0.1 x2.1)) * (sb y0.2 y2.2)))) / N.c 1)) + (((((((-((1 : Nat) : ℝ)) * N.r 8) : ℝ) : ℂ) * (ab z1.1 x2.1)) * (((((((-N.r 11) * N.r 1) : ℝ) : ℂ) * (ab z3.1 y0.1)) * (sb x0.2 y2.2)) + ((((N.r 10 : ℝ) : ℂ) * ((((N.r 3 : ℝ) : ℂ) * (sb y0.2 y2.2)) - (mb y2.2 (p 3) y0.1))) * (sb z3.2 x0.2)))) / N.c 2)) + ((((((((-((1 : Nat) : ℝ)) * N.r 9) : ℝ) : ℂ) * (ab z1.1 x0.1)) * (sb z3.2 x2.2)) * ((((N.r 2 : ℝ) : ℂ) * (sb y0.2 y2.2)) - (mb y0.2 (p 3) y2.1))) / N.c 0))
theorem ZnWe.key {c : Constants} {p : Nat → V4 ℝ} {N : Env} (hc : c.Physical) (hb : Balanced p) (r1 : N.r 1 = (c.mass .e)) (r2 : N.r 2 = c.MW) (r3 : N.r 3 = (c.MW / c.CW)) (r7 : N.r 7 = ((c.e * c.e) / ((((((√(((2 : Nat) : ℝ)) * c.MW) * c.MW) * (c.MW / c.CW)) * (c.MW / c.CW)) * c.SW) * c.SW))) (r8 : N.r 8 = ((c.e * c.e) / ((((√(((2 : Nat) : ℝ)) * c.MW) * c.MW) * c.SW) * c.SW))) (r9 : N.r 9 = ((c.e * c.e) / ((((√(((2 : Nat) : ℝ)) * c.MW) * c.MW) * c.SW) * c.SW))) (r10 : N.r 10 = (((((2 : Nat) : ℝ) * c.SW) * c.SW) - ((1 : Nat) : ℝ))) (r11 : N.r 11 = ((((2 : Nat) : ℝ) * c.SW) * c.SW)) (d0 : ((msq (plus (p 1) (p 0)) - c.mass .ne ^ 2 : ℝ) : ℂ) = N.c 0) (n0 : N.c 0 ≠ 0) (d1 : pole c.MW c.WW (plus (p 0) (backward (p 2))) = N.c 1) (n1 : N.c 1 ≠ 0) (d2 : ((msq (plus (p 1) (backward (p 2))) - c.mass .e ^ 2 : ℝ) : ℂ) = N.c 2) (n2 : N.c 2 ≠ 0) {z0 z1 z2 z3 : Pair} (b0 : Bold (p 0) c.MZ z0) (b1 : Bold (p 1) (c.mass .ne) z1) (b2 : Bold (p 2) c.MW z2) (b3 : Bold (p 3) (c.mass .e) z3) (q0 : msq (p 0) = c.MZ ^ 2) (q2 : msq (p 2) = c.MW ^ 2) :
    ZnWe.form N p z0 z0 z1 z2 z2 z3 = ((2 / (c.MZ * c.MW) : ℝ) : ℂ) * ZnWe.react.bare c p 3 1 0 2 z3 z1 (pv z0.1 z0.2) (pv z2.1 z2.2) := by
  rw [ZnWe.react.bare_parts c p (i := 3) (j := 1) (a := 0) (b := 2) (x := .z) (y := .wMinus) (k := (p 0)) (k' := (backward (p 2))) (fun _ => rfl) (fun _ => rfl) (f := .ne) (g := .e) rfl rfl (l := (p 1)) rfl (e := 1) (e' := 1) (if_neg Bool.false_ne_true) (if_neg Bool.false_ne_true)]
  rw [compton_vv (f := .ne) (x := .ne) (g := .e) (h := (rfl : Spec.after .z Flavour.ne = some Flavour.ne)) (h' := (rfl : Spec.after .wMinus Flavour.ne = some Flavour.e)) (ha := by simp) (hb := by simp)]
  rw [compton_vv (f := .ne) (x := .e) (g := .e) (h := (rfl : Spec.after .wMinus Flavour.ne = some Flavour.e)) (h' := (rfl : Spec.after .z Flavour.e = some Flavour.e)) (ha := by simp) (hb := by simp)]
  have an := annihilation_charged c (1) (1) z3.1 z3.2 z1.1 z1.2 ⟨.z, (p 0), pv z0.1 z0.2⟩ ⟨.wMinus, (backward (p 2)), pv z2.1 z2.2⟩ (f := .ne) (g := .e) (x := .wMinus) (by simp) rfl
  dsimp only at an
  rw [an, ZnWe.form]
  clear an
  have Y0 := b0; have Q0 := q0
  have Y2 := b2.back; have Q2 : msq (backward (p 2)) = (-c.MW) ^ 2 := by rw [msq_backward, q2, neg_sq]
  rw [lineV_massive (hx := (rfl : Boson.massive .wMinus = true))]
  simp only [toHiggs, toVector, higgs2, gauge3, Boson.anti, Constants.bosonMass, Constants.bosonWidth, d0, d1, d2, reduceCtorEq, and_self, and_true, and_false, and_true, if_true, if_false, Complex.ofReal_zero, zero_smul, zero_mul, mul_zero, zero_div, neg_zero, add_zero, zero_add, lineH, lineV_zero, contract_zero, lineV_smul, contract_smul, lineV_yangMills Y0 Y2, four_yangMills Y0 Y2 Q0 Q2, ym, lineV_pv, lineV_four, contract_four_pv, contract_pv, mb_plus, mb_backward]
  simp only [b0.mb_left, b0.mb_right, b1.mb_left, b1.mb_right, b2.mb_left, b2.mb_right, b3.mb_left, b3.mb_right, mb_three hb z0.2 z0.1, mb_three hb z0.2 z1.1, mb_three hb z0.2 z2.1, mb_two hb z0.2 z3.1, mb_three hb z1.2 z0.1, mb_three hb z1.2 z1.1, mb_three hb z1.2 z2.1, mb_two hb z1.2 z3.1, mb_three hb z2.2 z0.1, mb_three hb z2.2 z1.1, mb_three hb z2.2 z2.1, mb_one hb z2.2 z3.1, mb_two hb z3.2 z0.1, mb_two hb z3.2 z1.1, mb_one hb z3.2 z2.1, mb_two hb z3.2 z3.1, ab_self, sb_self]
  have hne : c.mass .ne = 0 := hc.neutrino _
  simp only [ab_swap z0.1 z1.1, sb_swap z0.2 z1.2, ab_swap z0.1 z2.1, sb_swap z0.2 z2.2, ab_swap z0.1 z3.1, sb_swap z0.2 z3.2, ab_swap z1.1 z2.1, sb_swap z1.2 z2.2, ab_swap z1.1 z3.1, sb_swap z1.2 z3.2, ab_swap z2.1 z3.1, sb_swap z2.2 z3.2, r1, r2, r3, r7, r8, r9, r10, r11, Constants.hL, Constants.hR, Constants.gL, Constants.gR, Constants.yuk, Constants.invVev, Flavour.charge_e, Flavour.isospin_e, Flavour.charge_ne, Flavour.isospin_ne, hne, ← c.mz]
  have xMW : (c.MW : ℂ) ≠ 0 := by exact_mod_cast hc.MW
  have xSW : (c.SW : ℂ) ≠ 0 := by exact_mod_cast hc.SW
  have xCW : (c.CW : ℂ) ≠ 0 := by exact_mod_cast hc.CW
  have x2 : ((√2 : ℝ) : ℂ) ≠ 0 := by exact_mod_cast (Real.sqrt_pos.2 two_pos).ne'
  have x22 : ((√2 : ℝ) : ℂ) ^ 2 = 2 := by rw [← Complex.ofReal_pow, Real.sq_sqrt two_pos.le]; norm_num
  push_cast
  field_simp
  first | ring1 | (ring_nf; simp only [x22]; ring1)
set_option maxRecDepth 8000 in
theorem ZnWe.amp2_eq (N : Env) (f : Nat → List Int → ℂ) : Cls.ZnWe.m_amp2.mean N f .r [] =
    ((sumV (fun x a => (sumV (fun x b => (sumJ (fun x c => (x + (‖(f 0 [a, b, c])‖ ^ 2))) x)) x)) ((0 : Nat) : ℝ)) / ((3 : Nat) : ℝ)) := by rfl
set_option maxRecDepth 8000 in
theorem ZnWe.value (N : Env) : meaning N .r Cls.ZnWe.methods Cls.ZnWe.amp2 [] =
    ((sumV (fun x a => (sumV (fun x b => (sumJ (fun x c => (x + (‖(Cls.ZnWe.m_amp.mean N (callMean N []) .c [a, b, c])‖ ^ 2))) x)) x)) ((0 : Nat) : ℝ)) / ((3 : Nat) : ℝ)) :=
  ZnWe.amp2_eq N (callMean N [Cls.ZnWe.m_amp])
set_option maxRecDepth 8000 in
theorem ZnWe.term_lin (N : Env) (w : ℝ) (x : ℂ) (a0 b0 a2 b2 j4 : Int) : ZnWe.term N w x a0 b0 a2 b2 j4 = x + (w : ℂ) * ZnWe.term N 1 0 a0 b0 a2 b2 j4 := by
  simp only [ZnWe.term]; push_cast; ring
theorem ZnWe.amp_eq (N : Env) (f : Nat → List Int → ℂ) (j4 : Int) (t0 t2 : Fin 3) : Cls.ZnWe.m_amp.mean N f .c [spinV t0, spinV t2, j4] = comb t0 (fun a0 b0 => comb t2 (fun a2 b2 => ZnWe.term N 1 0 (spinOf a0) (spinOf b0) (spinOf a2) (spinOf b2) j4)) := by
  refine (amp_mean N f (m := 3) (K := 7) (G := fun i => ZnWe.term N 1 0 (i 3) (i 4) (i 5) (i 6) (i 2)) (fun l => ?_) (fun i i' h => ?_) rfl (by decide) (by decide) (by decide) (by decide) (by decide)).trans ?_
  · refine ⟨_, rfl, ?_⟩; exact ⟨rfl, rfl, ZnWe.term_lin ..⟩
  · simp only [h 3 (by decide), h 4 (by decide), h 5 (by decide), h 6 (by decide), h 2 (by decide)]
  · show amp' _ [spinV t0, spinV t2] = _
    simp only [amp'_comb, amp'_nil]
    rfl
theorem ZnWe.form_x0 (N : Env) (p : Nat → V4 ℝ) (y0 z1 x2 y2 z3 x y : Pair) : ZnWe.form N p (x + y) y0 z1 x2 y2 z3 = ZnWe.form N p x y0 z1 x2 y2 z3 + ZnWe.form N p y y0 z1 x2 y2 z3 := by
  simp only [ZnWe.form, Prod.fst_add, Prod.snd_add, ab_add_left, ab_add_right, sb_add_left, sb_add_right, mb_add_left, mb_add_right]
  ring
theorem ZnWe.form_y0 (N : Env) (p : Nat → V4 ℝ) (x0 z1 x2 y2 z3 x y : Pair) : ZnWe.form N p x0 (x + y) z1 x2 y2 z3 = ZnWe.form N p x0 x z1 x2 y2 z3 + ZnWe.form N p x0 y z1 x2 y2 z3 := by
  simp only [ZnWe.form, Prod.fst_add, Prod.snd_add, ab_add_left, ab_add_right, sb_add_left, sb_add_right, mb_add_left, mb_add_right]
  ring
theorem ZnWe.form_x2 (N : Env) (p : Nat → V4 ℝ) (x0 y0 z1 y2 z3 x y : Pair) : ZnWe.form N p x0 y0 z1 (x + y) y2 z3 = ZnWe.form N p x0 y0 z1 x y2 z3 + ZnWe.form N p x0 y0 z1 y y2 z3 := by
  simp only [ZnWe.form, Prod.fst_add, Prod.snd_add, ab_add_left, ab_add_right, sb_add_left, sb_add_right, mb_add_left, mb_add_right]
  ring
theorem ZnWe.form_y2 (N : Env) (p : Nat → V4 ℝ) (x0 y0 z1 x2 z3 x y : Pair) : ZnWe.form N p x0 y0 z1 x2 (x + y) z3 = ZnWe.form N p x0 y0 z1 x2 x z3 + ZnWe.form N p x0 y0 z1 x2 y z3 := by
  simp only [ZnWe.form, Prod.fst_add, Prod.snd_add, ab_add_left, ab_add_right, sb_add_left, sb_add_right, mb_add_left, mb_add_right]
  ring
theorem ZnWe.form_zero1 (N : Env) (p : Nat → V4 ℝ) {z1 : Pair} (x0 y0 x2 y2 z3 : Pair) (h : z1.1 = 0) : ZnWe.form N p x0 y0 z1 x2 y2 z3 = 0 := by
  simp [ZnWe.form, h, ab_zero, sb_zero, mb_zero]

theorem ZnWe.mass_eq {c : Constants} (hc : c.Physical) (i : Fin 4) : ZnWe.proc.massNum (ZnWe.rho c) i = ZnWe.react.mass c i := by
  fin_cases i <;> first | rfl | exact Nat.cast_zero.trans (hc.neutrino _).symm | (show c.MW / √(((1 : Nat) : ℝ) - c.SW * c.SW) = c.MZ; rw [c.root, c.mz])

variable [FPEnv] in
theorem ZnWe.agrees : ZnWe.Agrees := by
  refine agrees_of (D := [2, 3]) (E := [3]) (by simp [all, ZnWe]) (by decide +kernel) (by decide) (by decide +kernel) (fun c hc hh => ⟨List.forall_mem_cons.2 ⟨hc.MW, List.forall_mem_cons.2 ⟨hc.SW, List.forall_mem_nil _⟩⟩, List.forall_mem_cons.2 ⟨hc.SW_lt, List.forall_mem_nil _⟩⟩) (fun c hc i => ZnWe.mass_eq hc i) (by decide +kernel) ?_
  intro c p u ε hc hh hw h0 hs hb hr hu
  have he : ZnWe.react.ends = [3] := by decide
  have ht : ZnWe.react.starts = [1] := by decide
  have hB : ZnWe.react.bosons = [0, 2] := by decide
  have hM : ZnWe.react.allMassive = true := by decide
  obtain ⟨f1, f2, f3⟩ := ZnWe.react.regular_line he ht hB hr
  have r1 : (ZnWe.N c p).r 1 = (c.mass .e) := rfl
  have r2 : (ZnWe.N c p).r 2 = c.MW := rfl
  have r3 : (ZnWe.N c p).r 3 = (c.MW / √((((1 : Nat) : ℝ) - (c.SW * c.SW)))) := rfl
  simp only [c.root] at r3
  have r7 : (ZnWe.N c p).r 7 = ((c.e * c.e) / ((((((√(((2 : Nat) : ℝ)) * c.MW) * c.MW) * (c.MW / √((((1 : Nat) : ℝ) - (c.SW * c.SW))))) * (c.MW / √((((1 : Nat) : ℝ) - (c.SW * c.SW))))) * c.SW) * c.SW)) := rfl
  simp only [c.root] at r7
  have r8 : (ZnWe.N c p).r 8 = ((c.e * c.e) / ((((√(((2 : Nat) : ℝ)) * c.MW) * c.MW) * c.SW) * c.SW)) := rfl
  have r9 : (ZnWe.N c p).r 9 = ((c.e * c.e) / ((((√(((2 : Nat) : ℝ)) * c.MW) * c.MW) * c.SW) * c.SW)) := rfl
  have r10 : (ZnWe.N c p).r 10 = (((((2 : Nat) : ℝ) * c.SW) * c.SW) - ((1 : Nat) : ℝ)) := rfl
  have r11 : (ZnWe.N c p).r 11 = ((((2 : Nat) : ℝ) * c.SW) * c.SW) := rfl
  have c0 : (ZnWe.N c p).c 0 = poleDist ((0 : Nat) : ℝ) ((0 : Nat) : ℝ) ((VExp.add 0 1).sum p) := rfl
  rw [Nat.cast_zero, pole_fermion (msq_s hb (plus (p 1) (p 0)) (by simp))] at c0
  have d0 : ((msq (plus (p 1) (p 0)) - c.mass .ne ^ 2 : ℝ) : ℂ) = (ZnWe.N c p).c 0 := by rw [c0, show c.mass .ne = 0 from hc.neutrino _]
  have n0 : (ZnWe.N c p).c 0 ≠ 0 := by rw [← d0]; exact_mod_cast f1 .ne rfl rfl
  have c1 : (ZnWe.N c p).c 1 = poleDist c.MW c.WW ((VExp.sub 0 2).sum p) := rfl
  rw [pole_congr (msq_t hb (plus (p 0) (backward (p 2))) (by simp)).symm] at c1
  have d1 : pole c.MW c.WW (plus (p 0) (backward (p 2))) = (ZnWe.N c p).c 1 := by rw [c1]
  have n1 : (ZnWe.N c p).c 1 ≠ 0 := by rw [← d1]; exact star_ne_zero.2 (f3 .wMinus rfl rfl)
  have c2 : (ZnWe.N c p).c 2 = poleDist (c.mass .e) ((0 : Nat) : ℝ) ((VExp.sub 0 3).sum p) := rfl
  rw [Nat.cast_zero, pole_fermion (msq_u hb (plus (p 1) (backward (p 2))) (by simp))] at c2
  have d2 : ((msq (plus (p 1) (backward (p 2))) - c.mass .e ^ 2 : ℝ) : ℂ) = (ZnWe.N c p).c 2 := by rw [c2]
  have n2 : (ZnWe.N c p).c 2 ≠ 0 := by rw [← d2]; exact_mod_cast f2 .e rfl rfl
  have m0 : ZnWe.react.mass c 0 ≠ 0 := (leg_pos hc hh (by decide)).ne'
  have m1 : ZnWe.react.mass c 1 = 0 := hc.neutrino _
  have m2 : ZnWe.react.mass c 2 ≠ 0 := (leg_pos hc hh (by decide)).ne'
  have m3 : ZnWe.react.mass c 3 ≠ 0 := (leg_pos hc hh (by decide)).ne'
  have hd : ZnWe.proc.divides = [(Ty.c, 1), (Ty.c, 2), (Ty.c, 0)] := by decide +kernel
  refine ⟨fun n hn => ?_, fun n hn => ?_, ?_⟩
  · simp [hd] at hn
  · simp [hd] at hn
    rcases hn with rfl | rfl | rfl
    · exact n1
    · exact n2
    · exact n0
  have st : ∀ {z1 z3 : Pair} (b1 : Bold (p 1) (ZnWe.react.mass c 1) z1) (b3 : Bold (p 3) (ZnWe.react.mass c 3) z3) (t0 t2 : Fin 3), comb t0 (fun a0 b0 => comb t2 (fun a2 b2 => ZnWe.form (ZnWe.N c p) p (ZnWe.react.codePair c p 0 a0) (ZnWe.react.codePair c p 0 b0) z1 (ZnWe.react.codePair c p 2 a2) (ZnWe.react.codePair c p 2 b2) z3)) = 1 * ZnWe.react.bare c p 3 1 0 2 z3 z1 (ZnWe.react.codeVec c p 0 t0) (ZnWe.react.codeVec c p 2 t2) := by
    intro z1 z3 b1 b3 t0 t2
    refine two_vectors (p := p 0) (p' := p 2) (m := ZnWe.react.mass c 0) (m' := ZnWe.react.mass c 2) (fun s => ZnWe.react.codePair_bold hs h0 0 s) (fun s => ZnWe.react.codePair_bold hs h0 2 s) (B := fun x y x' y' => ZnWe.form (ZnWe.N c p) p x y z1 x' y' z3) (G := fun E F => ZnWe.react.bare c p 3 1 0 2 z3 z1 E F) (fun _ _ _ _ _ => ?_) (fun _ _ _ _ _ => ?_) (fun _ _ _ _ _ => ?_) (fun _ _ _ _ _ => ?_) (fun F => ZnWe.react.bare_lin₁ c p _ _ _ (by decide)) (fun E => ZnWe.react.bare_lin₂ c p _ _ _ (by decide)) 1 (fun z0 z2 b0 b2 => ?_) t0 t2
    · exact ZnWe.form_x0 ..
    · exact ZnWe.form_y0 ..
    · exact ZnWe.form_x2 ..
    · exact ZnWe.form_y2 ..
    · rw [one_mul]; exact ZnWe.key hc hb r1 r2 r3 r7 r8 r9 r10 r11 d0 n0 d1 n1 d2 n2 b0 b1 b2 b3 (onShell_msq (hs 0)) (onShell_msq (hs 2)) 
  have am : ∀ (s3 : Fin 2) (t0 t2 : Fin 3), Cls.ZnWe.m_amp.mean (ZnWe.N c p) (callMean (ZnWe.N c p) []) .c [spinV t0, spinV t2, spinOf s3] = 1 * ZnWe.react.bare c p 3 1 0 2 (ZnWe.react.codePair c p 3 s3) (ZnWe.react.codePair c p 1 0) (ZnWe.react.codeVec c p 0 t0) (ZnWe.react.codeVec c p 2 t2) := by
    intro s3 t0 t2
    rw [ZnWe.amp_eq, ← st (ZnWe.react.codePair_bold hs h0 1 0) (ZnWe.react.codePair_bold hs h0 3 s3) t0 t2]
    refine congrArg (comb t0) (funext fun a0 => funext fun b0 => ?_)
    refine congrArg (comb t2) (funext fun a2 => funext fun b2 => ?_)
    have v0y0x2 : (ZnWe.N c p).v 0 [spinOf b0, spinOf a2] = ab (ZnWe.react.codePair c p 0 b0).1 (ZnWe.react.codePair c p 2 a2).1 := bra_angle (p := p) (m := ZnWe.proc.massNum (ZnWe.rho c)) (ZnWe.mass_eq hc 0) (ZnWe.mass_eq hc 2) (.inl ⟨m0, rfl⟩) (.inl ⟨m2, rfl⟩)
    have v1y0x2 : (ZnWe.N c p).v 1 [spinOf b0, spinOf a2] = sb (ZnWe.react.codePair c p 0 b0).2 (ZnWe.react.codePair c p 2 a2).2 := bra_square (p := p) (m := ZnWe.proc.massNum (ZnWe.rho c)) (ZnWe.mass_eq hc 0) (ZnWe.mass_eq hc 2) (.inl ⟨m0, rfl⟩) (.inl ⟨m2, rfl⟩)
    have v2z1x0 : (ZnWe.N c p).v 2 [spinOf a0] = ab (ZnWe.react.codePair c p 1 0).1 (ZnWe.react.codePair c p 0 a0).1 := bra_angle (p := p) (m := ZnWe.proc.massNum (ZnWe.rho c)) (ZnWe.mass_eq hc 1) (ZnWe.mass_eq hc 0) (.inr ⟨m1, rfl⟩) (.inl ⟨m0, rfl⟩)
    have v3z3y2 : (ZnWe.N c p).v 3 [spinOf s3, spinOf b2] = sb (ZnWe.react.codePair c p 3 s3).2 (ZnWe.react.codePair c p 2 b2).2 := bra_square (p := p) (m := ZnWe.proc.massNum (ZnWe.rho c)) (ZnWe.mass_eq hc 3) (ZnWe.mass_eq hc 2) (.inl ⟨m3, rfl⟩) (.inl ⟨m2, rfl⟩)
    have v0x0y2 : (ZnWe.N c p).v 0 [spinOf a0, spinOf b2] = ab (ZnWe.react.codePair c p 0 a0).1 (ZnWe.react.codePair c p 2 b2).1 := bra_angle (p := p) (m := ZnWe.proc.massNum (ZnWe.rho c)) (ZnWe.mass_eq hc 0) (ZnWe.mass_eq hc 2) (.inl ⟨m0, rfl⟩) (.inl ⟨m2, rfl⟩)
    have v1x0y2 : (ZnWe.N c p).v 1 [spinOf a0, spinOf b2] = sb (ZnWe.react.codePair c p 0 a0).2 (ZnWe.react.codePair c p 2 b2).2 := bra_square (p := p) (m := ZnWe.proc.massNum (ZnWe.rho c)) (ZnWe.mass_eq hc 0) (ZnWe.mass_eq hc 2) (.inl ⟨m0, rfl⟩) (.inl ⟨m2, rfl⟩)
    have v4z1x2 : (ZnWe.N c p).v 4 [spinOf a2] = ab (ZnWe.react.codePair c p 1 0).1 (ZnWe.react.codePair c p 2 a2).1 := bra_angle (p := p) (m := ZnWe.proc.massNum (ZnWe.rho c)) (ZnWe.mass_eq hc 1) (ZnWe.mass_eq hc 2) (.inr ⟨m1, rfl⟩) (.inl ⟨m2, rfl⟩)
    have v5z3y0 : (ZnWe.N c p).v 5 [spinOf s3, spinOf b0] = sb (ZnWe.react.codePair c p 3 s3).2 (ZnWe.react.codePair c p 0 b0).2 := bra_square (p := p) (m := ZnWe.proc.massNum (ZnWe.rho c)) (ZnWe.mass_eq hc 3) (ZnWe.mass_eq hc 0) (.inl ⟨m3, rfl⟩) (.inl ⟨m0, rfl⟩)
    have v6z3z1 : (ZnWe.N c p).v 6 [spinOf s3] = ab (ZnWe.react.codePair c p 3 s3).1 (ZnWe.react.codePair c p 1 0).1 := bra_angle (p := p) (m := ZnWe.proc.massNum (ZnWe.rho c)) (ZnWe.mass_eq hc 3) (ZnWe.mass_eq hc 1) (.inl ⟨m3, rfl⟩) (.inr ⟨m1, rfl⟩)
    have v7z3z1 : (ZnWe.N c p).v 7 [spinOf s3] = mb (ZnWe.react.codePair c p 3 s3).2 (p 0) (ZnWe.react.codePair c p 1 0).1 := bra_mid_square (p := p) (m := ZnWe.proc.massNum (ZnWe.rho c)) (ZnWe.mass_eq hc 3) (ZnWe.mass_eq hc 1) (.inl ⟨m3, rfl⟩) (.inr ⟨m1, rfl⟩)
    have v0x0x2 : (ZnWe.N c p).v 0 [spinOf a0, spinOf a2] = ab (ZnWe.react.codePair c p 0 a0).1 (ZnWe.react.codePair c p 2 a2).1 := bra_angle (p := p) (m := ZnWe.proc.massNum (ZnWe.rho c)) (ZnWe.mass_eq hc 0) (ZnWe.mass_eq hc 2) (.inl ⟨m0, rfl⟩) (.inl ⟨m2, rfl⟩)
    have v1y0y2 : (ZnWe.N c p).v 1 [spinOf b0, spinOf b2] = sb (ZnWe.react.codePair c p 0 b0).2 (ZnWe.react.codePair c p 2 b2).2 := bra_square (p := p) (m := ZnWe.proc.massNum (ZnWe.rho c)) (ZnWe.mass_eq hc 0) (ZnWe.mass_eq hc 2) (.inl ⟨m0, rfl⟩) (.inl ⟨m2, rfl⟩)
    have v8z3y0 : (ZnWe.N c p).v 8 [spinOf s3, spinOf b0] = ab (ZnWe.react.codePair c p 3 s3).1 (ZnWe.react.codePair c p 0 b0).1 := bra_angle (p := p) (m := ZnWe.proc.massNum (ZnWe.rho c)) (ZnWe.mass_eq hc 3) (ZnWe.mass_eq hc 0) (.inl ⟨m3, rfl⟩) (.inl ⟨m0, rfl⟩)
    have v9y2y0 : (ZnWe.N c p).v 9 [spinOf b2, spinOf b0] = mb (ZnWe.react.codePair c p 2 b2).2 (p 3) (ZnWe.react.codePair c p 0 b0).1 := bra_mid_square (p := p) (m := ZnWe.proc.massNum (ZnWe.rho c)) (ZnWe.mass_eq hc 2) (ZnWe.mass_eq hc 0) (.inl ⟨m2, rfl⟩) (.inl ⟨m0, rfl⟩)
    have v5z3x0 : (ZnWe.N c p).v 5 [spinOf s3, spinOf a0] = sb (ZnWe.react.codePair c p 3 s3).2 (ZnWe.react.codePair c p 0 a0).2 := bra_square (p := p) (m := ZnWe.proc.massNum (ZnWe.rho c)) (ZnWe.mass_eq hc 3) (ZnWe.mass_eq hc 0) (.inl ⟨m3, rfl⟩) (.inl ⟨m0, rfl⟩)
    have v3z3x2 : (ZnWe.N c p).v 3 [spinOf s3, spinOf a2] = sb (ZnWe.react.codePair c p 3 s3).2 (ZnWe.react.codePair c p 2 a2).2 := bra_square (p := p) (m := ZnWe.proc.massNum (ZnWe.rho c)) (ZnWe.mass_eq hc 3) (ZnWe.mass_eq hc 2) (.inl ⟨m3, rfl⟩) (.inl ⟨m2, rfl⟩)
    have v10y0y2 : (ZnWe.N c p).v 10 [spinOf b0, spinOf b2] = mb (ZnWe.react.codePair c p 0 b0).2 (p 3) (ZnWe.react.codePair c p 2 b2).1 := bra_mid_square (p := p) (m := ZnWe.proc.massNum (ZnWe.rho c)) (ZnWe.mass_eq hc 0) (ZnWe.mass_eq hc 2) (.inl ⟨m0, rfl⟩) (.inl ⟨m2, rfl⟩)
    simp only [ZnWe.term, ZnWe.form, v0y0x2, v1y0x2, v2z1x0, v3z3y2, v0x0y2, v1x0y2, v4z1x2, v5z3y0, v6z3z1, v7z3z1, v0x0x2, v1y0y2, v8z3y0, v9y2y0, v5z3x0, v3z3x2, v10y0y2]
    push_cast
    ring
  have w1 : ∀ (s : Fin 2) (t0 t2 : Fin 3), ZnWe.react.bare c p 3 1 0 2 (ZnWe.react.codePair c p 3 s) (ZnWe.react.codePair c p 1 1) (ZnWe.react.codeVec c p 0 t0) (ZnWe.react.codeVec c p 2 t2) = 0 := by
    intro s t0 t2
    have e := st (ZnWe.react.codePair_bold hs h0 1 1) (ZnWe.react.codePair_bold hs h0 3 s) t0 t2
    rw [show comb t0 (fun a0 b0 => comb t2 (fun a2 b2 => ZnWe.form (ZnWe.N c p) p (ZnWe.react.codePair c p 0 a0) (ZnWe.react.codePair c p 0 b0) (ZnWe.react.codePair c p 1 1) (ZnWe.react.codePair c p 2 a2) (ZnWe.react.codePair c p 2 b2) (ZnWe.react.codePair c p 3 s))) = 0 by
      simp only [ZnWe.form_zero1 _ _ _ _ _ _ _ (show ((ZnWe.react.codePair c p 1 1)).1 = 0 from legA_zero m1 rfl)]; exact comb_zero_zero ..] at e
    exact (one_mul _).symm.trans e.symm
  show meaning (ZnWe.N c p) .r Cls.ZnWe.methods Cls.ZnWe.amp2 [] = _
  have lc : ZnWe.react.lineColours 3 1 = 1 := by decide +kernel
  have s0 : ZnWe.react.states 0 = 3 := by decide
  have s1 : ZnWe.react.states 1 = 1 := by decide
  have sy : ZnWe.react.symmetry = 1 := by decide
  have p0 : ZnWe.react.spins 0 = Finset.univ := rfl
  have p1 : ZnWe.react.spins 1 = {0, 1} := rfl
  have p2 : ZnWe.react.spins 2 = Finset.univ := rfl
  have p3 : ZnWe.react.spins 3 = {0, 1} := rfl
  rw [ZnWe.value, ZnWe.react.squared_line he ht hB (noGluon_of hM) hs h0 (fun _ b _ hb _ => (boson_pos hc hh hb).ne') (ZnWe.react.gauge_massive (massive_of hM)) (E := ZnWe.react.codeVec c p) (fun n b hl => ZnWe.react.codeVec_polarised hs h0 hl (massive_of hM n b hl) (fun _ => (boson_pos hc hh (massive_of hM n b hl)).ne')) hu, sum_colours, lc, s0, s1, sy]
  simp only [sumV_sum, sumJ_sum, am, norm_mul, norm_neg, norm_one, one_mul, p0, p1, p2, p3, Finset.sum_singleton, sum_two, Matrix.cons_val_zero, Matrix.cons_val_one, Matrix.cons_val, two_castSucc]
  simp only [Fin.sum_univ_two, w1, norm_zero]
  try simp only [← Finset.mul_sum]
  push_cast
  first | ring1 | ring_nf

/-! ### WdZu -/

/-- what the methods of the class see -/
noncomputable abbrev WdZu.N [FPEnv] (c : Constants) (p : Nat → V4 ℝ) : Env := WdZu.proc.env (WdZu.rho c) p
/-- the term that `amp` adds for a choice of spinors (SM/WdZu.cpp) -/
noncomputable def WdZu.term (N : Env) (w : ℝ) (x : ℂ) (a0 b0 j2 a2 b2 j4 : Int) : ℂ :=
  (((x + ((((((-w) * N.r 14) : ℝ) : ℂ) * (((((((N.r 9 : ℝ) : ℂ) * (((N.r 9 : ℝ) : ℂ) * (((((2 : Nat) : ℝ) : ℝ) : ℂ) * ((((N.r 12 : ℝ) : ℂ) * N.v 4 [a2, b0]) - (((N.r 9 : ℝ) : ℂ) * N.v 9 [a2, b0]))))) * N.v 2 [j2, b2]) * N.v 7 [j4, a0]) + (((((N.r 9 : ℝ) : ℂ) * (((N.r 9 : ℝ) : ℂ) * (((((2 : Nat) : ℝ) : ℝ) : ℂ) * (((((-N.r 9) : ℝ) : ℂ) * N.v 4 [a2, b0]) + (((N.r 12 : ℝ) : ℂ) * N.v 9 [a2, b0]))))) * N.v 3 [j2, a0]) * N.v 6 [j4, b2])) + ((N.v 4 [a2, a0] * N.v 9 [b2, b0]) * (((((((((2 : Nat) : ℝ) * N.r 9) * N.r 9) - (N.r 12 * N.r 12)) : ℝ) : ℂ) * ((((N.r 7 : ℝ) : ℂ) * N.v 0 [j4, j2]) + (((N.r 8 : ℝ) : ℂ) * N.v 5 [j4, j2]))) + (((((((2 : Nat) : ℝ) * N.r 9) * N.r 9) : ℝ) : ℂ) * N.v 10 [j4, j2]))))) / N.c 1)) + (((((((-w) * N.r 15) : ℝ) : ℂ) * N.v 3 [j2, a0]) * ((((((N.r 4 * N.r 7) : ℝ) : ℂ) * N.v 1 [j4, b2]) * N.v 9 [a2, b0]) + ((((N.r 3 : ℝ) : ℂ) * N.v 6 [j4, a2]) * ((((N.r 12 : ℝ) : ℂ) * N.v 9 [b2, b0]) + N.v 12 [b0, b2])))) / N.c 0)) + (((((((-w) * N.r 15) : ℝ) : ℂ) * N.v 7 [j4, a0]) * ((((((N.r 6 * N.r 8) : ℝ) : ℂ) * N.v 4 [a2, b0]) * N.v 8 [j2, b2]) + ((((N.r 5 : ℝ) : ℂ) * N.v 2 [j2, a2]) * ((((N.r 9 : ℝ) : ℂ) * N.v 9 [b2, b0]) + N.v 11 [b2, b0])))) / N.c 2))
/-- the same with spinors in place of their spins -/
noncomputable def WdZu.form (N : Env) (p : Nat → V4 ℝ) (x0 y0 z1 x2 y2 z3 : Pair) : ℂ :=
  (((0 + ((((((-((1 : Nat) : ℝ)) * N.r 14) : ℝ) : ℂ) * (((((((N.r 9 : ℝ) : ℂ) * (((N.r 9 : ℝ) : ℂ) * (((((2 : Nat) : ℝ) : ℝ) : ℂ) * ((((N.r 12 : ℝ) : ℂ) * (ab x2.1 y0.1)) - (((N.r 9 : ℝ) : ℂ) * (sb x2.2 y0.2)))))) * (ab z1.1 y2.1)) * (sb z3.2 x0.2)) + (((((N.r 9 : ℝ) : ℂ) * (((N.r 9 : ℝ) : ℂ) * (((((2 : Nat) : ℝ) : ℝ) : ℂ) * (((((-N.r 9) : ℝ) : ℂ) * (ab x2.1 y0.1)) + (((N.r 12 : ℝ) : ℂ) * (sb x2.2 y0.2)))))) * (ab z1.1 x0.1)) * (sb z3.2 y2.2))) + (((ab x2.1 x0.1) * (sb y2.2 y0.2)) * (((((((((2 : Nat) : ℝ) * N.r 9) * N.r 9) - (N.r 12 * N.r 12)) : ℝ) : ℂ) * ((((N.r 7 : ℝ) : ℂ) * (ab z3.1 z1.1)) + (((N.r 8 : ℝ) : ℂ) * (sb z3.2 z1.2)))) + (((((((2 : Nat) : ℝ) * N.r 9) * N.r 9) : ℝ) : ℂ) * (mb z3.2 (p 2) z1.1)))))) / N.c 1)) + (((((((-((1 : Nat) : ℝ)) * N.r 15) : ℝ) : ℂ) * (ab z1.1 x0.1)) * ((((((N.r 4 * N.r 7) : ℝ) : ℂ) * (ab z3.1 y2.1)) * (sb x2.2 y0.2)) + ((((N.r 3 : ℝ) : ℂ) * (sb z3.2 x2.2)) * ((((N.r 12 : ℝ) : ℂ) * (sb y2.2 y0.2)) + (mb y0.2 (p 3) y2.1))))) / N.c 0)) + (((((((-((1 : Nat) : ℝ)) * N.r 15) : ℝ) : ℂ) * (sb z3.2 x0.2)) * ((((((N.r 6 * N.r 8) : ℝ) : ℂ) * (ab x2.1 y0.1)) * (sb z1.2 y2.2)) + ((((N.r 5 : ℝ) : ℂ) * (ab z1.1 x2.1)) * ((((N.r 9 : ℝ) : ℂ) * (sb y2.2 y0.2)) + (mb y2.2 (p 3) y0.1))))) / N.c 2))
theorem WdZu.key {c : Constants} {p : Nat → V4 ℝ} {N : Env} (hc : c.Physical) (hb : Balanced p) (r3 : N.r 3 = (((((-((2 : Nat) : ℝ)) * (((2 : Nat) : ℝ) / ((3 : Nat) : ℝ))) * c.SW) * c.SW) + ((1 : Nat) : ℝ))) (r4 : N.r 4 = ((((-((2 : Nat) : ℝ)) * (((2 : Nat) : ℝ) / ((3 : Nat) : ℝ))) * c.SW) * c.SW)) (r5 : N.r 5 = (((((-((2 : Nat) : ℝ)) * ((-((1 : Nat) : ℝ)) / ((3 : Nat) : ℝ))) * c.SW) * c.SW) - ((1 : Nat) : ℝ))) (r6 : N.r 6 = ((((-((2 : Nat) : ℝ)) * ((-((1 : Nat) : ℝ)) / ((3 : Nat) : ℝ))) * c.SW) * c.SW)) (r7 : N.r 7 = (c.mass .u)) (r8 : N.r 8 = (c.mass .d)) (r9 : N.r 9 = c.MW) (r12 : N.r 12 = (c.MW / c.CW)) (r14 : N.r 14 = (((c.e * c.e) / ((((√(((2 : Nat) : ℝ)) * c.MW) * c.MW) * c.SW) * c.SW)) / ((c.MW / c.CW) * (c.MW / c.CW)))) (r15 : N.r 15 = ((c.e * c.e) / ((((√(((2 : Nat) : ℝ)) * c.MW) * c.MW) * c.SW) * c.SW))) (d0 : ((msq (plus (p 1) (p 0)) - c.mass .u ^ 2 : ℝ) : ℂ) = N.c 0) (n0 : N.c 0 ≠ 0) (d1 : pole c.MW c.WW (plus (p 0) (backward (p 2))) = N.c 1) (n1 : N.c 1 ≠ 0) (d2 : ((msq (plus (p 1) (backward (p 2))) - c.mass .d ^ 2 : ℝ) : ℂ) = N.c 2) (n2 : N.c 2 ≠ 0) {z0 z1 z2 z3 : Pair} (b0 : Bold (p 0) c.MW z0) (b1 : Bold (p 1) (c.mass .d) z1) (b2 : Bold (p 2) c.MZ z2) (b3 : Bold (p 3) (c.mass .u) z3) (q0 : msq (p 0) = c.MW ^ 2) (q2 : msq (p 2) = c.MZ ^ 2) :
    WdZu.form N p z0 z0 z1 z2 z2 z3 = -(((2 / (c.MZ * c.MW) : ℝ) : ℂ) * WdZu.react.bare c p 3 1 0 2 z3 z1 (pv z0.1 z0.2) (pv z2.1 z2.2)) := by
  rw [WdZu.react.bare_parts c p (i := 3) (j := 1) (a := 0) (b := 2) (x := .wPlus) (y := .z) (k := (p 0)) (k' := (backward (p 2))) (fun _ => rfl) (fun _ => rfl) (f := .d) (g := .u) rfl rfl (l := (p 1)) rfl (e := 1) (e' := 1) (if_neg Bool.false_ne_true) (if_neg Bool.false_ne_true)]
  rw [compton_vv (f := .d) (x := .u) (g := .u) (h := (rfl : Spec.after .wPlus Flavour.d = some Flavour.u)) (h' := (rfl : Spec.after .z Flavour.u = some Flavour.u)) (ha := by simp) (hb := by simp)]
  rw [compton_vv (f := .d) (x := .d) (g := .u) (h := (rfl : Spec.after .z Flavour.d = some Flavour.d)) (h' := (rfl : Spec.after .wPlus Flavour.d = some Flavour.u)) (ha := by simp) (hb := by simp)]
  have an := annihilation_charged c (1) (1) z3.1 z3.2 z1.1 z1.2 ⟨.wPlus, (p 0), pv z0.1 z0.2⟩ ⟨.z, (backward (p 2)), pv z2.1 z2.2⟩ (f := .d) (g := .u) (x := .wPlus) (by simp) rfl
  dsimp only at an
  rw [an, WdZu.form]
  clear an
  have Y0 := b0; have Q0 := q0
  have Y2 := b2.back; have Q2 : msq (backward (p 2)) = (-c.MZ) ^ 2 := by rw [msq_backward, q2, neg_sq]
  rw [lineV_massive (hx := (rfl : Boson.massive .wPlus = true))]
  simp only [toHiggs, toVector, higgs2, gauge3, Boson.anti, Constants.bosonMass, Constants.bosonWidth, d0, d1, d2, reduceCtorEq, and_self, and_true, and_false, and_true, if_true, if_false, Complex.ofReal_zero, zero_smul, zero_mul, mul_zero, zero_div, neg_zero, add_zero, zero_add, lineH, lineV_zero, contract_zero, lineV_smul, contract_smul, lineV_yangMills Y0 Y2, four_yangMills Y0 Y2 Q0 Q2, ym, lineV_pv, lineV_four, contract_four_pv, contract_pv, mb_plus, mb_backward]
  simp only [b0.mb_left, b0.mb_right, b1.mb_left, b1.mb_right, b2.mb_left, b2.mb_right, b3.mb_left, b3.mb_right, mb_three hb z0.2 z0.1, mb_three hb z0.2 z1.1, mb_three hb z0.2 z2.1, mb_two hb z0.2 z3.1, mb_three hb z1.2 z0.1, mb_three hb z1.2 z1.1, mb_three hb z1.2 z2.1, mb_two hb z1.2 z3.1, mb_three hb z2.2 z0.1, mb_three hb z2.2 z1.1, mb_three hb z2.2 z2.1, mb_one hb z2.2 z3.1, mb_two hb z3.2 z0.1, mb_two hb z3.2 z1.1, mb_one hb z3.2 z2.1, mb_two hb z3.2 z3.1, ab_self, sb_self]
  simp only [ab_swap z0.1 z1.1, sb_swap z0.2 z1.2, ab_swap z0.1 z2.1, sb_swap z0.2 z2.2, ab_swap z0.1 z3.1, sb_swap z0.2 z3.2, ab_swap z1.1 z2.1, sb_swap z1.2 z2.2, ab_swap z1.1 z3.1, sb_swap z1.2 z3.2, ab_swap z2.1 z3.1, sb_swap z2.2 z3.2, r3, r4, r5, r6, r7, r8, r9, r12, r14, r15, Constants.hL, Constants.hR, Constants.gL, Constants.gR, Constants.yuk, Constants.invVev, Flavour.charge_d, Flavour.isospin_d, Flavour.charge_u, Flavour.isospin_u, ← c.mz]
  have xMW : (c.MW : ℂ) ≠ 0 := by exact_mod_cast hc.MW
  have xSW : (c.SW : ℂ) ≠ 0 := by exact_mod_cast hc.SW
  have xCW : (c.CW : ℂ) ≠ 0 := by exact_mod_cast hc.CW
  have x2 : ((√2 : ℝ) : ℂ) ≠ 0 := by exact_mod_cast (Real.sqrt_pos.2 two_pos).ne'
  have x22 : ((√2 : ℝ) : ℂ) ^ 2 = 2 := by rw [← Complex.ofReal_pow, Real.sq_sqrt two_pos.le]; norm_num
  push_cast
  field_simp
  first | ring1 | (ring_nf; simp only [x22]; ring1)
set_option maxRecDepth 8000 in
theorem WdZu.amp2_eq (N : Env) (f : Nat → List Int → ℂ) : Cls.WdZu.m_amp2.mean N f .r [] =
    ((sumV (fun x a => (sumJ (fun x b => (sumV (fun x c => (sumJ (fun x d => (x + (((3 : Nat) : ℝ) * (‖(f 0 [a, b, c, d])‖ ^ 2)))) x)) x)) x)) ((0 : Nat) : ℝ)) / ((18 : Nat) : ℝ)) := by rfl
set_option maxRecDepth 8000 in
theorem WdZu.value (N : Env) : meaning N .r Cls.WdZu.methods Cls.WdZu.amp2 [] =
    ((sumV (fun x a => (sumJ (fun x b => (sumV (fun x c => (sumJ (fun x d => (x + (((3 : Nat) : ℝ) * (‖(Cls.WdZu.m_amp.mean N (callMean N []) .c [a, b, c, d])‖ ^ 2)))) x)) x)) x)) ((0 : Nat) : ℝ)) / ((18 : Nat) : ℝ)) :=
  WdZu.amp2_eq N (callMean N [Cls.WdZu.m_amp])
set_option maxRecDepth 8000 in
theorem WdZu.term_lin (N : Env) (w : ℝ) (x : ℂ) (a0 b0 j2 a2 b2 j4 : Int) : WdZu.term N w x a0 b0 j2 a2 b2 j4 = x + (w : ℂ) * WdZu.term N 1 0 a0 b0 j2 a2 b2 j4 := by
  simp only [WdZu.term]; push_cast; ring
theorem WdZu.amp_eq (N : Env) (f : Nat → List Int → ℂ) (j2 j4 : Int) (t0 t2 : Fin 3) : Cls.WdZu.m_amp.mean N f .c [spinV t0, j2, spinV t2, j4] = comb t2 (fun a2 b2 => comb t0 (fun a0 b0 => WdZu.term N 1 0 (spinOf a0) (spinOf b0) j2 (spinOf a2) (spinOf b2) j4)) := by
  refine (amp_mean N f (m := 4) (K := 8) (G := fun i => WdZu.term N 1 0 (i 6) (i 7) (i 1) (i 4) (i 5) (i 3)) (fun l => ?_) (fun i i' h => ?_) rfl (by decide) (by decide) (by decide) (by decide) (by decide)).trans ?_
  · refine ⟨_, rfl, ?_⟩; exact ⟨rfl, rfl, WdZu.term_lin ..⟩
  · simp only [h 6 (by decide), h 7 (by decide), h 1 (by decide), h 4 (by decide), h 5 (by decide), h 3 (by decide)]
  · show amp' _ [spinV t2, spinV t0] = _
    simp only [amp'_comb, amp'_nil]
    rfl
theorem WdZu.form_x0 (N : Env) (p : Nat → V4 ℝ) (y0 z1 x2 y2 z3 x y : Pair) : WdZu.form N p (x + y) y0 z1 x2 y2 z3 = WdZu.form N p x y0 z1 x2 y2 z3 + WdZu.form N p y y0 z1 x2 y2 z3 := by
  simp only [WdZu.form, Prod.fst_add, Prod.snd_add, ab_add_left, ab_add_right, sb_add_left, sb_add_right, mb_add_left, mb_add_right]
  ring
theorem WdZu.form_y0 (N : Env) (p : Nat → V4 ℝ) (x0 z1 x2 y2 z3 x y : Pair) : WdZu.form N p x0 (x + y) z1 x2 y2 z3 = WdZu.form N p x0 x z1 x2 y2 z3 + WdZu.form N p x0 y z1 x2 y2 z3 := by
  simp only [WdZu.form, Prod.fst_add, Prod.snd_add, ab_add_left, ab_add_right, sb_add_left, sb_add_right, mb_add_left, mb_add_right]
  ring
theorem WdZu.form_x2 (N : Env) (p : Nat → V4 ℝ) (x0 y0 z1 y2 z3 x y : Pair) : WdZu.form N p x0 y0 z1 (x + y) y2 z3 = WdZu.form N p x0 y0 z1 x y2 z3 + WdZu.form N p x0 y0 z1 y y2 z3 := by
  simp only [WdZu.form, Prod.fst_add, Prod.snd_add, ab_add_left, ab_add_right, sb_add_left, sb_add_right, mb_add_left, mb_add_right]
  ring
theorem WdZu.form_y2 (N : Env) (p : Nat → V4 ℝ) (x0 y0 z1 x2 z3 x y : Pair) : WdZu.form N p x0 y0 z1 x2 (x + y) z3 = WdZu.form N p x0 y0 z1 x2 x z3 + WdZu.form N p x0 y0 z1 x2 y z3 := by
  simp only [WdZu.form, Prod.fst_add, Prod.snd_add, ab_add_left, ab_add_right, sb_add_left, sb_add_right, mb_add_left, mb_add_right]
  ring

theorem WdZu.mass_eq {c : Constants} (hc : c.Physical) (i : Fin 4) : WdZu.proc.massNum (WdZu.rho c) i = WdZu.react.mass c i := by
  fin_cases i <;> first | rfl | exact Nat.cast_zero.trans (hc.neutrino _).symm | (show c.MW / √(((1 : Nat) : ℝ) - c.SW * c.SW) = c.MZ; rw [c.root, c.mz])

variable [FPEnv] in
theorem WdZu.agrees : WdZu.Agrees := by
  refine agrees_of (D := [3, 4]) (E := [4]) (by simp [all, WdZu]) (by decide +kernel) (by decide) (by decide +kernel) (fun c hc hh => ⟨List.forall_mem_cons.2 ⟨hc.MW, List.forall_mem_cons.2 ⟨hc.SW, List.forall_mem_nil _⟩⟩, List.forall_mem_cons.2 ⟨hc.SW_lt, List.forall_mem_nil _⟩⟩) (fun c hc i => WdZu.mass_eq hc i) (by decide +kernel) ?_
  intro c p u ε hc hh hw h0 hs hb hr hu
  have he : WdZu.react.ends = [3] := by decide
  have ht : WdZu.react.starts = [1] := by decide
  have hB : WdZu.react.bosons = [0, 2] := by decide
  have hM : WdZu.react.allMassive = true := by decide
  obtain ⟨f1, f2, f3⟩ := WdZu.react.regular_line he ht hB hr
  have r3 : (WdZu.N c p).r 3 = (((((-((2 : Nat) : ℝ)) * (((2 : Nat) : ℝ) / ((3 : Nat) : ℝ))) * c.SW) * c.SW) + ((1 : Nat) : ℝ)) := rfl
  have r4 : (WdZu.N c p).r 4 = ((((-((2 : Nat) : ℝ)) * (((2 : Nat) : ℝ) / ((3 : Nat) : ℝ))) * c.SW) * c.SW) := rfl
  have r5 : (WdZu.N c p).r 5 = (((((-((2 : Nat) : ℝ)) * ((-((1 : Nat) : ℝ)) / ((3 : Nat) : ℝ))) * c.SW) * c.SW) - ((1 : Nat) : ℝ)) := rfl
  have r6 : (WdZu.N c p).r 6 = ((((-((2 : Nat) : ℝ)) * ((-((1 : Nat) : ℝ)) / ((3 : Nat) : ℝ))) * c.SW) * c.SW) := rfl
  have r7 : (WdZu.N c p).r 7 = (c.mass .u) := rfl
  have r8 : (WdZu.N c p).r 8 = (c.mass .d) := rfl
  have r9 : (WdZu.N c p).r 9 = c.MW := rfl
  have r12 : (WdZu.N c p).r 12 = (c.MW / √((((1 : Nat) : ℝ) - (c.SW * c.SW)))) := rfl
  simp only [c.root] at r12
  have r14 : (WdZu.N c p).r 14 = (((c.e * c.e) / ((((√(((2 : Nat) : ℝ)) * c.MW) * c.MW) * c.SW) * c.SW)) / ((c.MW / √((((1 : Nat) : ℝ) - (c.SW * c.SW)))) * (c.MW / √((((1 : Nat) : ℝ) - (c.SW * c.SW)))))) := rfl
  simp only [c.root] at r14
  have r15 : (WdZu.N c p).r 15 = ((c.e * c.e) / ((((√(((2 : Nat) : ℝ)) * c.MW) * c.MW) * c.SW) * c.SW)) := rfl
  have c0 : (WdZu.N c p).c 0 = poleDist (c.mass .u) ((0 : Nat) : ℝ) ((VExp.add 0 1).sum p) := rfl
  rw [Nat.cast_zero, pole_fermion (msq_s hb (plus (p 1) (p 0)) (by simp))] at c0
  have d0 : ((msq (plus (p 1) (p 0)) - c.mass .u ^ 2 : ℝ) : ℂ) = (WdZu.N c p).c 0 := by rw [c0]
  have n0 : (WdZu.N c p).c 0 ≠ 0 := by rw [← d0]; exact_mod_cast f1 .u rfl rfl
  have c1 : (WdZu.N c p).c 1 = poleDist c.MW c.WW ((VExp.sub 0 2).sum p) := rfl
  rw [pole_congr (msq_t hb (plus (p 0) (backward (p 2))) (by simp)).symm] at c1
  have d1 : pole c.MW c.WW (plus (p 0) (backward (p 2))) = (WdZu.N c p).c 1 := by rw [c1]
  have n1 : (WdZu.N c p).c 1 ≠ 0 := by rw [← d1]; exact star_ne_zero.2 (f3 .wPlus rfl rfl)
  have c2 : (WdZu.N c p).c 2 = poleDist (c.mass .d) ((0 : Nat) : ℝ) ((VExp.sub 0 3).sum p) := rfl
  rw [Nat.cast_zero, pole_fermion (msq_u hb (plus (p 1) (backward (p 2))) (by simp))] at c2
  have d2 : ((msq (plus (p 1) (backward (p 2))) - c.mass .d ^ 2 : ℝ) : ℂ) = (WdZu.N c p).c 2 := by rw [c2]
  have n2 : (WdZu.N c p).c 2 ≠ 0 := by rw [← d2]; exact_mod_cast f2 .d rfl rfl
  have m0 : WdZu.react.mass c 0 ≠ 0 := (leg_pos hc hh (by decide)).ne'
  have m1 : WdZu.react.mass c 1 ≠ 0 := (leg_pos hc hh (by decide)).ne'
  have m2 : WdZu.react.mass c 2 ≠ 0 := (leg_pos hc hh (by decide)).ne'
  have m3 : WdZu.react.mass c 3 ≠ 0 := (leg_pos hc hh (by decide)).ne'
  have hd : WdZu.proc.divides = [(Ty.c, 1), (Ty.c, 0), (Ty.c, 2)] := by decide +kernel
  refine ⟨fun n hn => ?_, fun n hn => ?_, ?_⟩
  · simp [hd] at hn
  · simp [hd] at hn
    rcases hn with rfl | rfl | rfl
    · exact n1
    · exact n0
    · exact n2
  have st : ∀ {z1 z3 : Pair} (b1 : Bold (p 1) (WdZu.react.mass c 1) z1) (b3 : Bold (p 3) (WdZu.react.mass c 3) z3) (t0 t2 : Fin 3), comb t2 (fun a2 b2 => comb t0 (fun a0 b0 => WdZu.form (WdZu.N c p) p (WdZu.react.codePair c p 0 a0) (WdZu.react.codePair c p 0 b0) z1 (WdZu.react.codePair c p 2 a2) (WdZu.react.codePair c p 2 b2) z3)) = (-1) * WdZu.react.bare c p 3 1 0 2 z3 z1 (WdZu.react.codeVec c p 0 t0) (WdZu.react.codeVec c p 2 t2) := by
    intro z1 z3 b1 b3 t0 t2
    refine two_vectors (p := p 2) (p' := p 0) (m := WdZu.react.mass c 2) (m' := WdZu.react.mass c 0) (fun s => WdZu.react.codePair_bold hs h0 2 s) (fun s => WdZu.react.codePair_bold hs h0 0 s) (B := fun x y x' y' => WdZu.form (WdZu.N c p) p x' y' z1 x y z3) (G := fun E F => WdZu.react.bare c p 3 1 0 2 z3 z1 F E) (fun _ _ _ _ _ => ?_) (fun _ _ _ _ _ => ?_) (fun _ _ _ _ _ => ?_) (fun _ _ _ _ _ => ?_) (fun F => WdZu.react.bare_lin₂ c p _ _ _ (by decide)) (fun E => WdZu.react.bare_lin₁ c p _ _ _ (by decide)) (-1) (fun z2 z0 b2 b0 => ?_) t2 t0
    · exact WdZu.form_x2 ..
    · exact WdZu.form_y2 ..
    · exact WdZu.form_x0 ..
    · exact WdZu.form_y0 ..
    · rw [neg_one_mul]; exact WdZu.key hc hb r3 r4 r5 r6 r7 r8 r9 r12 r14 r15 d0 n0 d1 n1 d2 n2 b0 b1 b2 b3 (onShell_msq (hs 0)) (onShell_msq (hs 2)) 
  have am : ∀ (s1 : Fin 2) (s3 : Fin 2) (t0 t2 : Fin 3), Cls.WdZu.m_amp.mean (WdZu.N c p) (callMean (WdZu.N c p) []) .c [spinV t0, spinOf s1, spinV t2, spinOf s3] = (-1) * WdZu.react.bare c p 3 1 0 2 (WdZu.react.codePair c p 3 s3) (WdZu.react.codePair c p 1 s1) (WdZu.react.codeVec c p 0 t0) (WdZu.react.codeVec c p 2 t2) := by
    intro s1 s3 t0 t2
    rw [WdZu.amp_eq, ← st (WdZu.react.codePair_bold hs h0 1 s1) (WdZu.react.codePair_bold hs h0 3 s3) t0 t2]
    refine congrArg (comb t2) (funext fun a2 => funext fun b2 => ?_)
    refine congrArg (comb t0) (funext fun a0 => funext fun b0 => ?_)
    have v4x2y0 : (WdZu.N c p).v 4 [spinOf a2, spinOf b0] = ab (WdZu.react.codePair c p 2 a2).1 (WdZu.react.codePair c p 0 b0).1 := bra_angle (p := p) (m := WdZu.proc.massNum (WdZu.rho c)) (WdZu.mass_eq hc 2) (WdZu.mass_eq hc 0) (.inl ⟨m2, rfl⟩) (.inl ⟨m0, rfl⟩)
    have v9x2y0 : (WdZu.N c p).v 9 [spinOf a2, spinOf b0] = sb (WdZu.react.codePair c p 2 a2).2 (WdZu.react.codePair c p 0 b0).2 := bra_square (p := p) (m := WdZu.proc.massNum (WdZu.rho c)) (WdZu.mass_eq hc 2) (WdZu.mass_eq hc 0) (.inl ⟨m2, rfl⟩) (.inl ⟨m0, rfl⟩)
    have v2z1y2 : (WdZu.N c p).v 2 [spinOf s1, spinOf b2] = ab (WdZu.react.codePair c p 1 s1).1 (WdZu.react.codePair c p 2 b2).1 := bra_angle (p := p) (m := WdZu.proc.massNum (WdZu.rho c)) (WdZu.mass_eq hc 1) (WdZu.mass_eq hc 2) (.inl ⟨m1, rfl⟩) (.inl ⟨m2, rfl⟩)
    have v7z3x0 : (WdZu.N c p).v 7 [spinOf s3, spinOf a0] = sb (WdZu.react.codePair c p 3 s3).2 (WdZu.react.codePair c p 0 a0).2 := bra_square (p := p) (m := WdZu.proc.massNum (WdZu.rho c)) (WdZu.mass_eq hc 3) (WdZu.mass_eq hc 0) (.inl ⟨m3, rfl⟩) (.inl ⟨m0, rfl⟩)
    have v3z1x0 : (WdZu.N c p).v 3 [spinOf s1, spinOf a0] = ab (WdZu.react.codePair c p 1 s1).1 (WdZu.react.codePair c p 0 a0).1 := bra_angle (p := p) (m := WdZu.proc.massNum (WdZu.rho c)) (WdZu.mass_eq hc 1) (WdZu.mass_eq hc 0) (.inl ⟨m1, rfl⟩) (.inl ⟨m0, rfl⟩)
    have v6z3y2 : (WdZu.N c p).v 6 [spinOf s3, spinOf b2] = sb (WdZu.react.codePair c p 3 s3).2 (WdZu.react.codePair c p 2 b2).2 := bra_square (p := p) (m := WdZu.proc.massNum (WdZu.rho c)) (WdZu.mass_eq hc 3) (WdZu.mass_eq hc 2) (.inl ⟨m3, rfl⟩) (.inl ⟨m2, rfl⟩)
    have v4x2x0 : (WdZu.N c p).v 4 [spinOf a2, spinOf a0] = ab (WdZu.react.codePair c p 2 a2).1 (WdZu.react.codePair c p 0 a0).1 := bra_angle (p := p) (m := WdZu.proc.massNum (WdZu.rho c)) (WdZu.mass_eq hc 2) (WdZu.mass_eq hc 0) (.inl ⟨m2, rfl⟩) (.inl ⟨m0, rfl⟩)
    have v9y2y0 : (WdZu.N c p).v 9 [spinOf b2, spinOf b0] = sb (WdZu.react.codePair c p 2 b2).2 (WdZu.react.codePair c p 0 b0).2 := bra_square (p := p) (m := WdZu.proc.massNum (WdZu.rho c)) (WdZu.mass_eq hc 2) (WdZu.mass_eq hc 0) (.inl ⟨m2, rfl⟩) (.inl ⟨m0, rfl⟩)
    have v0z3z1 : (WdZu.N c p).v 0 [spinOf s3, spinOf s1] = ab (WdZu.react.codePair c p 3 s3).1 (WdZu.react.codePair c p 1 s1).1 := bra_angle (p := p) (m := WdZu.proc.massNum (WdZu.rho c)) (WdZu.mass_eq hc 3) (WdZu.mass_eq hc 1) (.inl ⟨m3, rfl⟩) (.inl ⟨m1, rfl⟩)
    have v5z3z1 : (WdZu.N c p).v 5 [spinOf s3, spinOf s1] = sb (WdZu.react.codePair c p 3 s3).2 (WdZu.react.codePair c p 1 s1).2 := bra_square (p := p) (m := WdZu.proc.massNum (WdZu.rho c)) (WdZu.mass_eq hc 3) (WdZu.mass_eq hc 1) (.inl ⟨m3, rfl⟩) (.inl ⟨m1, rfl⟩)
    have v10z3z1 : (WdZu.N c p).v 10 [spinOf s3, spinOf s1] = mb (WdZu.react.codePair c p 3 s3).2 (p 2) (WdZu.react.codePair c p 1 s1).1 := bra_mid_square (p := p) (m := WdZu.proc.massNum (WdZu.rho c)) (WdZu.mass_eq hc 3) (WdZu.mass_eq hc 1) (.inl ⟨m3, rfl⟩) (.inl ⟨m1, rfl⟩)
    have v1z3y2 : (WdZu.N c p).v 1 [spinOf s3, spinOf b2] = ab (WdZu.react.codePair c p 3 s3).1 (WdZu.react.codePair c p 2 b2).1 := bra_angle (p := p) (m := WdZu.proc.massNum (WdZu.rho c)) (WdZu.mass_eq hc 3) (WdZu.mass_eq hc 2) (.inl ⟨m3, rfl⟩) (.inl ⟨m2, rfl⟩)
    have v6z3x2 : (WdZu.N c p).v 6 [spinOf s3, spinOf a2] = sb (WdZu.react.codePair c p 3 s3).2 (WdZu.react.codePair c p 2 a2).2 := bra_square (p := p) (m := WdZu.proc.massNum (WdZu.rho c)) (WdZu.mass_eq hc 3) (WdZu.mass_eq hc 2) (.inl ⟨m3, rfl⟩) (.inl ⟨m2, rfl⟩)
    have v12y0y2 : (WdZu.N c p).v 12 [spinOf b0, spinOf b2] = mb (WdZu.react.codePair c p 0 b0).2 (p 3) (WdZu.react.codePair c p 2 b2).1 := bra_mid_square (p := p) (m := WdZu.proc.massNum (WdZu.rho c)) (WdZu.mass_eq hc 0) (WdZu.mass_eq hc 2) (.inl ⟨m0, rfl⟩) (.inl ⟨m2, rfl⟩)
    have v8z1y2 : (WdZu.N c p).v 8 [spinOf s1, spinOf b2] = sb (WdZu.react.codePair c p 1 s1).2 (WdZu.react.codePair c p 2 b2).2 := bra_square (p := p) (m := WdZu.proc.massNum (WdZu.rho c)) (WdZu.mass_eq hc 1) (WdZu.mass_eq hc 2) (.inl ⟨m1, rfl⟩) (.inl ⟨m2, rfl⟩)
    have v2z1x2 : (WdZu.N c p).v 2 [spinOf s1, spinOf a2] = ab (WdZu.react.codePair c p 1 s1).1 (WdZu.react.codePair c p 2 a2).1 := bra_angle (p := p) (m := WdZu.proc.massNum (WdZu.rho c)) (WdZu.mass_eq hc 1) (WdZu.mass_eq hc 2) (.inl ⟨m1, rfl⟩) (.inl ⟨m2, rfl⟩)
    have v11y2y0 : (WdZu.N c p).v 11 [spinOf b2, spinOf b0] = mb (WdZu.react.codePair c p 2 b2).2 (p 3) (WdZu.react.codePair c p 0 b0).1 := bra_mid_square (p := p) (m := WdZu.proc.massNum (WdZu.rho c)) (WdZu.mass_eq hc 2) (WdZu.mass_eq hc 0) (.inl ⟨m2, rfl⟩) (.inl ⟨m0, rfl⟩)
    simp only [WdZu.term, WdZu.form, v4x2y0, v9x2y0, v2z1y2, v7z3x0, v3z1x0, v6z3y2, v4x2x0, v9y2y0, v0z3z1, v5z3z1, v10z3z1, v1z3y2, v6z3x2, v12y0y2, v8z1y2, v2z1x2, v11y2y0]
    push_cast
    ring
  show meaning (WdZu.N c p) .r Cls.WdZu.methods Cls.WdZu.amp2 [] = _
  have lc : WdZu.react.lineColours 3 1 = 3 := by decide +kernel
  have s0 : WdZu.react.states 0 = 3 := by decide
  have s1 : WdZu.react.states 1 = 6 := by decide
  have sy : WdZu.react.symmetry = 1 := by decide
  have p0 : WdZu.react.spins 0 = Finset.univ := rfl
  have p1 : WdZu.react.spins 1 = {0, 1} := rfl
  have p2 : WdZu.react.spins 2 = Finset.univ := rfl
  have p3 : WdZu.react.spins 3 = {0, 1} := rfl
  rw [WdZu.value, WdZu.react.squared_line he ht hB (noGluon_of hM) hs h0 (fun _ b _ hb _ => (boson_pos hc hh hb).ne') (WdZu.react.gauge_massive (massive_of hM)) (E := WdZu.react.codeVec c p) (fun n b hl => WdZu.react.codeVec_polarised hs h0 hl (massive_of hM n b hl) (fun _ => (boson_pos hc hh (massive_of hM n b hl)).ne')) hu, sum_colours, lc, s0, s1, sy]
  simp only [sumV_sum, sumJ_sum, am, norm_mul, norm_neg, norm_one, one_mul, p0, p1, p2, p3, Finset.sum_singleton, sum_two, Matrix.cons_val_zero, Matrix.cons_val_one, Matrix.cons_val, two_castSucc]
  try simp only [← Finset.mul_sum]
  push_cast
  first | ring1 | ring_nf

end Spinas.SM.Rows
