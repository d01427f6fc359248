import Verif.SM.BosonRows

/-! Fermions and two Z bosons, one before and one after. Generated by tools/bosons/emit.py: for each class its amplitude as a formula in spinors, and the proof that `amp2` is the squared amplitude of the Feynman rules. -/

set_option linter.unusedSimpArgs false
set_option linter.unusedVariables false
set_option linter.unreachableTactic false
set_option linter.unusedTactic false

namespace Spinas.SM.Rows
open Spec Spec.Reaction Props XR Matrix BRow

/-! ### eZZe -/

/-- what the methods of the class see -/
noncomputable abbrev eZZe.N [FPEnv] (c : Constants) (p : Nat → V4 ℝ) : Env := eZZe.proc.env (eZZe.rho c) p
/-- the term that `amp` adds for a choice of spinors (SM/eZZe.cpp) -/
noncomputable def eZZe.term (N : Env) (w : ℝ) (x : ℂ) (j1 a1 b1 a2 b2 j4 : Int) : ℂ :=
  (((x + ((((((((-w) * N.r 11) : ℝ) : ℂ) * N.v 2 [a1, a2]) * N.v 3 [b1, b2]) * (N.v 10 [j1, j4] - N.v 11 [j1, j4])) / N.c 2)) + ((((((((((((-w) * N.r 10) * N.r 12) * N.r 12) : ℝ) : ℂ) * N.v 8 [a1, j4]) * N.v 5 [j1, a2]) * ((((N.r 7 : ℝ) : ℂ) * N.v 3 [b1, b2]) + N.v 12 [b2, b1])) / N.c 1) + (((((((((w * N.r 10) * N.r 13) * N.r 13) : ℝ) : ℂ) * N.v 9 [a1, j4]) * N.v 4 [j1, a2]) * ((((N.r 7 : ℝ) : ℂ) * N.v 2 [b1, b2]) + N.v 13 [b1, b2])) / N.c 1)) + ((((((((w * N.r 10) * N.r 12) * N.r 13) * N.r 1) : ℝ) : ℂ) * (((N.v 4 [j1, a2] * N.v 8 [a1, j4]) * N.v 3 [b1, b2]) - ((N.v 5 [j1, a2] * N.v 9 [a1, j4]) * N.v 2 [b1, b2]))) / N.c 1))) + ((((((((((((-w) * N.r 10) * N.r 12) * N.r 12) : ℝ) : ℂ) * N.v 6 [a2, j4]) * N.v 1 [j1, a1]) * ((((N.r 7 : ℝ) : ℂ) * N.v 3 [b1, b2]) + N.v 13 [b1, b2])) / N.c 0) + (((((((((w * N.r 10) * N.r 13) * N.r 13) : ℝ) : ℂ) * N.v 0 [j1, a1]) * N.v 7 [a2, j4]) * ((((N.r 7 : ℝ) : ℂ) * N.v 2 [b1, b2]) + N.v 12 [b2, b1])) / N.c 0)) + ((((((((w * N.r 10) * N.r 12) * N.r 13) * N.r 1) : ℝ) : ℂ) * ((((-N.v 0 [j1, a1]) * N.v 6 [a2, j4]) * N.v 3 [b1, b2]) + ((N.v 1 [j1, a1] * N.v 7 [a2, j4]) * N.v 2 [b1, b2]))) / N.c 0)))
/-- the same with spinors in place of their spins -/
noncomputable def eZZe.form (N : Env) (p : Nat → V4 ℝ) (z0 x1 y1 x2 y2 z3 : Pair) : ℂ :=
  (((0 + ((((((((-((1 : Nat) : ℝ)) * N.r 11) : ℝ) : ℂ) * (sb x1.2 x2.2)) * (ab y1.1 y2.1)) * ((sb z0.2 z3.2) - (ab z0.1 z3.1))) / N.c 2)) + ((((((((((((-((1 : Nat) : ℝ)) * N.r 10) * N.r 12) * N.r 12) : ℝ) : ℂ) * (sb x1.2 z3.2)) * (ab z0.1 x2.1)) * ((((N.r 7 : ℝ) : ℂ) * (ab y1.1 y2.1)) + (mb y2.2 (p 0) y1.1))) / N.c 1) + (((((((((((1 : Nat) : ℝ) * N.r 10) * N.r 13) * N.r 13) : ℝ) : ℂ) * (ab x1.1 z3.1)) * (sb z0.2 x2.2)) * ((((N.r 7 : ℝ) : ℂ) * (sb y1.2 y2.2)) + (mb y1.2 (p 0) y2.1))) / N.c 1)) + ((((((((((1 : Nat) : ℝ) * N.r 10) * N.r 12) * N.r 13) * N.r 1) : ℝ) : ℂ) * ((((sb z0.2 x2.2) * (sb x1.2 z3.2)) * (ab y1.1 y2.1)) - (((ab z0.1 x2.1) * (ab x1.1 z3.1)) * (sb y1.2 y2.2)))) / N.c 1))) + ((((((((((((-((1 : Nat) : ℝ)) * N.r 10) * N.r 12) * N.r 12) : ℝ) : ℂ) * (sb x2.2 z3.2)) * (ab z0.1 x1.1)) * ((((N.r 7 : ℝ) : ℂ) * (ab y1.1 y2.1)) + (mb y1.2 (p 0) y2.1))) / N.c 0) + (((((((((((1 : Nat) : ℝ) * N.r 10) * N.r 13) * N.r 13) : ℝ) : ℂ) * (sb z0.2 x1.2)) * (ab x2.1 z3.1)) * ((((N.r 7 : ℝ) : ℂ) * (sb y1.2 y2.2)) + (mb y2.2 (p 0) y1.1))) / N.c 0)) + ((((((((((1 : Nat) : ℝ) * N.r 10) * N.r 12) * N.r 13) * N.r 1) : ℝ) : ℂ) * ((((-(sb z0.2 x1.2)) * (sb x2.2 z3.2)) * (ab y1.1 y2.1)) + (((ab z0.1 x1.1) * (ab x2.1 z3.1)) * (sb y1.2 y2.2)))) / N.c 0)))
theorem eZZe.key {c : Constants} {p : Nat → V4 ℝ} {N : Env} (hc : c.Physical) (hb : Balanced p) (r1 : N.r 1 = (c.mass .e)) (r7 : N.r 7 = (c.MW / c.CW)) (r10 : N.r 10 = ((c.e * c.e) / ((((((2 : Nat) : ℝ) * c.MW) * c.MW) * c.SW) * c.SW))) (r11 : N.r 11 = (((c.e * c.e) * (c.mass .e)) / ((((((2 : Nat) : ℝ) * c.MW) * c.MW) * c.SW) * c.SW))) (r12 : N.r 12 = (((((2 : Nat) : ℝ) * c.SW) * c.SW) - ((1 : Nat) : ℝ))) (r13 : N.r 13 = ((((2 : Nat) : ℝ) * c.SW) * c.SW)) (d0 : ((msq (plus (p 0) (p 1)) - c.mass .e ^ 2 : ℝ) : ℂ) = N.c 0) (n0 : N.c 0 ≠ 0) (d1 : ((msq (plus (p 0) (backward (p 2))) - c.mass .e ^ 2 : ℝ) : ℂ) = N.c 1) (n1 : N.c 1 ≠ 0) (d2 : pole c.MH c.WH (plus (p 1) (backward (p 2))) = N.c 2) (n2 : N.c 2 ≠ 0) {z0 z1 z2 z3 : Pair} (b0 : Bold (p 0) (c.mass .e) z0) (b1 : Bold (p 1) c.MZ z1) (b2 : Bold (p 2) c.MZ z2) (b3 : Bold (p 3) (c.mass .e) z3) (q1 : msq (p 1) = c.MZ ^ 2) (q2 : msq (p 2) = c.MZ ^ 2) :
    eZZe.form N p z0 z1 z1 z2 z2 z3 = ((2 / (c.MZ * c.MZ) : ℝ) : ℂ) * eZZe.react.bare c p 3 0 1 2 z3 z0 (pv z1.1 z1.2) (pv z2.1 z2.2) := by
  rw [eZZe.react.bare_parts c p (i := 3) (j := 0) (a := 1) (b := 2) (x := .z) (y := .z) (k := (p 1)) (k' := (backward (p 2))) (fun _ => rfl) (fun _ => rfl) (f := .e) (g := .e) rfl rfl (l := (p 0)) rfl (e := 1) (e' := 1) (if_neg Bool.false_ne_true) (if_neg Bool.false_ne_true)]
  rw [compton_vv (f := .e) (x := .e) (g := .e) (h := (rfl : Spec.after .z Flavour.e = some Flavour.e)) (h' := (rfl : Spec.after .z Flavour.e = some Flavour.e)) (ha := by simp) (hb := by simp)]
  rw [compton_vv (f := .e) (x := .e) (g := .e) (h := (rfl : Spec.after .z Flavour.e = some Flavour.e)) (h' := (rfl : Spec.after .z Flavour.e = some Flavour.e)) (ha := by simp) (hb := by simp)]
  have an := annihilation_neutral c (1) (1) z3.1 z3.2 z0.1 z0.2 ⟨.z, (p 1), pv z1.1 z1.2⟩ ⟨.z, (backward (p 2)), pv z2.1 z2.2⟩ .e
  dsimp only at an
  rw [an, eZZe.form]
  clear an
  have Y1 := b1; have Q1 := q1
  have Y2 := b2.back; have Q2 : msq (backward (p 2)) = (-c.MZ) ^ 2 := by rw [msq_backward, q2, neg_sq]
  rw [lineV_massless (hx := (rfl : Boson.massive .photon = false))]
  rw [lineV_massive (hx := (rfl : Boson.massive .z = true))]
  simp only [toHiggs, toVector, higgs2, gauge3, Boson.anti, Constants.bosonMass, Constants.bosonWidth, d0, d1, d2, reduceCtorEq, and_self, and_true, and_false, and_true, if_true, if_false, Complex.ofReal_zero, zero_smul, zero_mul, mul_zero, zero_div, neg_zero, add_zero, zero_add, lineH, lineV_zero, contract_zero, lineV_smul, contract_smul, lineV_yangMills Y1 Y2, four_yangMills Y1 Y2 Q1 Q2, ym, lineV_pv, lineV_four, contract_four_pv, contract_pv, mb_plus, mb_backward]
  simp only [b0.mb_left, b0.mb_right, b1.mb_left, b1.mb_right, b2.mb_left, b2.mb_right, b3.mb_left, b3.mb_right, mb_three hb z0.2 z0.1, mb_three hb z0.2 z1.1, mb_three hb z0.2 z2.1, mb_two hb z0.2 z3.1, mb_three hb z1.2 z0.1, mb_three hb z1.2 z1.1, mb_three hb z1.2 z2.1, mb_two hb z1.2 z3.1, mb_three hb z2.2 z0.1, mb_three hb z2.2 z1.1, mb_three hb z2.2 z2.1, mb_one hb z2.2 z3.1, mb_two hb z3.2 z0.1, mb_two hb z3.2 z1.1, mb_one hb z3.2 z2.1, mb_two hb z3.2 z3.1, ab_self, sb_self]
  simp only [ab_swap z0.1 z1.1, sb_swap z0.2 z1.2, ab_swap z0.1 z2.1, sb_swap z0.2 z2.2, ab_swap z0.1 z3.1, sb_swap z0.2 z3.2, ab_swap z1.1 z2.1, sb_swap z1.2 z2.2, ab_swap z1.1 z3.1, sb_swap z1.2 z3.2, ab_swap z2.1 z3.1, sb_swap z2.2 z3.2, r1, r7, r10, r11, r12, r13, Constants.hL, Constants.hR, Constants.gL, Constants.gR, Constants.yuk, Constants.invVev, Flavour.charge_e, Flavour.isospin_e, ← c.mz]
  have xMW : (c.MW : ℂ) ≠ 0 := by exact_mod_cast hc.MW
  have xSW : (c.SW : ℂ) ≠ 0 := by exact_mod_cast hc.SW
  have xCW : (c.CW : ℂ) ≠ 0 := by exact_mod_cast hc.CW
  have x2 : ((√2 : ℝ) : ℂ) ≠ 0 := by exact_mod_cast (Real.sqrt_pos.2 two_pos).ne'
  have x22 : ((√2 : ℝ) : ℂ) ^ 2 = 2 := by rw [← Complex.ofReal_pow, Real.sq_sqrt two_pos.le]; norm_num
  push_cast
  field_simp
  first | ring1 | (ring_nf; simp only [x22]; ring1)
set_option maxRecDepth 8000 in
theorem eZZe.amp2_eq (N : Env) (f : Nat → List Int → ℂ) : Cls.eZZe.m_amp2.mean N f .r [] =
    ((sumJ (fun x a => (sumV (fun x b => (sumV (fun x c => (sumJ (fun x d => (x + (‖(f 0 [a, b, c, d])‖ ^ 2))) x)) x)) x)) ((0 : Nat) : ℝ)) / ((6 : Nat) : ℝ)) := by rfl
set_option maxRecDepth 8000 in
theorem eZZe.value (N : Env) : meaning N .r Cls.eZZe.methods Cls.eZZe.amp2 [] =
    ((sumJ (fun x a => (sumV (fun x b => (sumV (fun x c => (sumJ (fun x d => (x + (‖(Cls.eZZe.m_amp.mean N (callMean N []) .c [a, b, c, d])‖ ^ 2))) x)) x)) x)) ((0 : Nat) : ℝ)) / ((6 : Nat) : ℝ)) :=
  eZZe.amp2_eq N (callMean N [Cls.eZZe.m_amp])
set_option maxRecDepth 8000 in
theorem eZZe.term_lin (N : Env) (w : ℝ) (x : ℂ) (j1 a1 b1 a2 b2 j4 : Int) : eZZe.term N w x j1 a1 b1 a2 b2 j4 = x + (w : ℂ) * eZZe.term N 1 0 j1 a1 b1 a2 b2 j4 := by
  simp only [eZZe.term]; push_cast; ring
theorem eZZe.amp_eq (N : Env) (f : Nat → List Int → ℂ) (j1 j4 : Int) (t1 t2 : Fin 3) : Cls.eZZe.m_amp.mean N f .c [j1, spinV t1, spinV t2, j4] = comb t1 (fun a1 b1 => comb t2 (fun a2 b2 => eZZe.term N 1 0 j1 (spinOf a1) (spinOf b1) (spinOf a2) (spinOf b2) j4)) := by
  refine (amp_mean N f (m := 4) (K := 8) (G := fun i => eZZe.term N 1 0 (i 0) (i 6) (i 7) (i 4) (i 5) (i 3)) (fun l => ?_) (fun i i' h => ?_) rfl (by decide) (by decide) (by decide) (by decide) (by decide)).trans ?_
  · refine ⟨_, rfl, ?_⟩; exact ⟨rfl, rfl, eZZe.term_lin ..⟩
  · simp only [h 0 (by decide), h 6 (by decide), h 7 (by decide), h 4 (by decide), h 5 (by decide), h 3 (by decide)]
  · show amp' _ [spinV t1, spinV t2] = _
    simp only [amp'_comb, amp'_nil]
    rfl
theorem eZZe.form_x1 (N : Env) (p : Nat → V4 ℝ) (z0 y1 x2 y2 z3 x y : Pair) : eZZe.form N p z0 (x + y) y1 x2 y2 z3 = eZZe.form N p z0 x y1 x2 y2 z3 + eZZe.form N p z0 y y1 x2 y2 z3 := by
  simp only [eZZe.form, Prod.fst_add, Prod.snd_add, ab_add_left, ab_add_right, sb_add_left, sb_add_right, mb_add_left, mb_add_right]
  ring
theorem eZZe.form_y1 (N : Env) (p : Nat → V4 ℝ) (z0 x1 x2 y2 z3 x y : Pair) : eZZe.form N p z0 x1 (x + y) x2 y2 z3 = eZZe.form N p z0 x1 x x2 y2 z3 + eZZe.form N p z0 x1 y x2 y2 z3 := by
  simp only [eZZe.form, Prod.fst_add, Prod.snd_add, ab_add_left, ab_add_right, sb_add_left, sb_add_right, mb_add_left, mb_add_right]
  ring
theorem eZZe.form_x2 (N : Env) (p : Nat → V4 ℝ) (z0 x1 y1 y2 z3 x y : Pair) : eZZe.form N p z0 x1 y1 (x + y) y2 z3 = eZZe.form N p z0 x1 y1 x y2 z3 + eZZe.form N p z0 x1 y1 y y2 z3 := by
  simp only [eZZe.form, Prod.fst_add, Prod.snd_add, ab_add_left, ab_add_right, sb_add_left, sb_add_right, mb_add_left, mb_add_right]
  ring
theorem eZZe.form_y2 (N : Env) (p : Nat → V4 ℝ) (z0 x1 y1 x2 z3 x y : Pair) : eZZe.form N p z0 x1 y1 x2 (x + y) z3 = eZZe.form N p z0 x1 y1 x2 x z3 + eZZe.form N p z0 x1 y1 x2 y z3 := by
  simp only [eZZe.form, Prod.fst_add, Prod.snd_add, ab_add_left, ab_add_right, sb_add_left, sb_add_right, mb_add_left, mb_add_right]
  ring

theorem eZZe.mass_eq {c : Constants} (hc : c.Physical) (i : Fin 4) : eZZe.proc.massNum (eZZe.rho c) i = eZZe.react.mass c i := by
  fin_cases i <;> first | rfl | exact Nat.cast_zero.trans (hc.neutrino _).symm | (show c.MW / √(((1 : Nat) : ℝ) - c.SW * c.SW) = c.MZ; rw [c.root, c.mz])

variable [FPEnv] in
theorem eZZe.agrees : eZZe.Agrees := by
  refine agrees_of (D := [4, 5]) (E := [5]) (by simp [all, eZZe]) (by decide +kernel) (by decide) (by decide +kernel) (fun c hc hh => ⟨List.forall_mem_cons.2 ⟨hc.MW, List.forall_mem_cons.2 ⟨hc.SW, List.forall_mem_nil _⟩⟩, List.forall_mem_cons.2 ⟨hc.SW_lt, List.forall_mem_nil _⟩⟩) (fun c hc i => eZZe.mass_eq hc i) (by decide +kernel) ?_
  intro c p u ε hc hh hw h0 hs hb hr hu
  have he : eZZe.react.ends = [3] := by decide
  have ht : eZZe.react.starts = [0] := by decide
  have hB : eZZe.react.bosons = [1, 2] := by decide
  have hM : eZZe.react.allMassive = true := by decide
  obtain ⟨f1, f2, f3⟩ := eZZe.react.regular_line he ht hB hr
  have r1 : (eZZe.N c p).r 1 = (c.mass .e) := rfl
  have r7 : (eZZe.N c p).r 7 = (c.MW / √((((1 : Nat) : ℝ) - (c.SW * c.SW)))) := rfl
  simp only [c.root] at r7
  have r10 : (eZZe.N c p).r 10 = ((c.e * c.e) / ((((((2 : Nat) : ℝ) * c.MW) * c.MW) * c.SW) * c.SW)) := rfl
  have r11 : (eZZe.N c p).r 11 = (((c.e * c.e) * (c.mass .e)) / ((((((2 : Nat) : ℝ) * c.MW) * c.MW) * c.SW) * c.SW)) := rfl
  have r12 : (eZZe.N c p).r 12 = (((((2 : Nat) : ℝ) * c.SW) * c.SW) - ((1 : Nat) : ℝ)) := rfl
  have r13 : (eZZe.N c p).r 13 = ((((2 : Nat) : ℝ) * c.SW) * c.SW) := rfl
  have c0 : (eZZe.N c p).c 0 = poleDist (c.mass .e) ((0 : Nat) : ℝ) ((VExp.add 0 1).sum p) := rfl
  rw [Nat.cast_zero, pole_fermion (msq_s hb (plus (p 0) (p 1)) (by simp))] at c0
  have d0 : ((msq (plus (p 0) (p 1)) - c.mass .e ^ 2 : ℝ) : ℂ) = (eZZe.N c p).c 0 := by rw [c0]
  have n0 : (eZZe.N c p).c 0 ≠ 0 := by rw [← d0]; exact_mod_cast f1 .e rfl rfl
  have c1 : (eZZe.N c p).c 1 = poleDist (c.mass .e) ((0 : Nat) : ℝ) ((VExp.sub 0 2).sum p) := rfl
  rw [Nat.cast_zero, pole_fermion (msq_t hb (plus (p 0) (backward (p 2))) (by simp))] at c1
  have d1 : ((msq (plus (p 0) (backward (p 2))) - c.mass .e ^ 2 : ℝ) : ℂ) = (eZZe.N c p).c 1 := by rw [c1]
  have n1 : (eZZe.N c p).c 1 ≠ 0 := by rw [← d1]; exact_mod_cast f2 .e rfl rfl
  have c2 : (eZZe.N c p).c 2 = poleDist c.MH c.WH ((VExp.sub 0 3).sum p) := rfl
  rw [pole_congr (msq_u hb (plus (p 1) (backward (p 2))) (by simp)).symm] at c2
  have d2 : pole c.MH c.WH (plus (p 1) (backward (p 2))) = (eZZe.N c p).c 2 := by rw [c2]
  have n2 : (eZZe.N c p).c 2 ≠ 0 := by rw [← d2]; exact star_ne_zero.2 (f3 .higgs rfl rfl)
  have m0 : eZZe.react.mass c 0 ≠ 0 := (leg_pos hc hh (by decide)).ne'
  have m1 : eZZe.react.mass c 1 ≠ 0 := (leg_pos hc hh (by decide)).ne'
  have m2 : eZZe.react.mass c 2 ≠ 0 := (leg_pos hc hh (by decide)).ne'
  have m3 : eZZe.react.mass c 3 ≠ 0 := (leg_pos hc hh (by decide)).ne'
  have hd : eZZe.proc.divides = [(Ty.c, 2), (Ty.c, 1), (Ty.c, 0)] := by decide +kernel
  refine ⟨fun n hn => ?_, fun n hn => ?_, ?_⟩
  · simp [hd] at hn
  · simp [hd] at hn
    rcases hn with rfl | rfl | rfl
    · exact n2
    · exact n1
    · exact n0
  have st : ∀ {z0 z3 : Pair} (b0 : Bold (p 0) (eZZe.react.mass c 0) z0) (b3 : Bold (p 3) (eZZe.react.mass c 3) z3) (t1 t2 : Fin 3), comb t1 (fun a1 b1 => comb t2 (fun a2 b2 => eZZe.form (eZZe.N c p) p z0 (eZZe.react.codePair c p 1 a1) (eZZe.react.codePair c p 1 b1) (eZZe.react.codePair c p 2 a2) (eZZe.react.codePair c p 2 b2) z3)) = 1 * eZZe.react.bare c p 3 0 1 2 z3 z0 (eZZe.react.codeVec c p 1 t1) (eZZe.react.codeVec c p 2 t2) := by
    intro z0 z3 b0 b3 t1 t2
    refine two_vectors (p := p 1) (p' := p 2) (m := eZZe.react.mass c 1) (m' := eZZe.react.mass c 2) (fun s => eZZe.react.codePair_bold hs h0 1 s) (fun s => eZZe.react.codePair_bold hs h0 2 s) (B := fun x y x' y' => eZZe.form (eZZe.N c p) p z0 x y x' y' z3) (G := fun E F => eZZe.react.bare c p 3 0 1 2 z3 z0 E F) (fun _ _ _ _ _ => ?_) (fun _ _ _ _ _ => ?_) (fun _ _ _ _ _ => ?_) (fun _ _ _ _ _ => ?_) (fun F => eZZe.react.bare_lin₁ c p _ _ _ (by decide)) (fun E => eZZe.react.bare_lin₂ c p _ _ _ (by decide)) 1 (fun z1 z2 b1 b2 => ?_) t1 t2
    · exact eZZe.form_x1 ..
    · exact eZZe.form_y1 ..
    · exact eZZe.form_x2 ..
    · exact eZZe.form_y2 ..
    · rw [one_mul]; exact eZZe.key hc hb r1 r7 r10 r11 r12 r13 d0 n0 d1 n1 d2 n2 b0 b1 b2 b3 (onShell_msq (hs 1)) (onShell_msq (hs 2)) 
  have am : ∀ (s0 : Fin 2) (s3 : Fin 2) (t1 t2 : Fin 3), Cls.eZZe.m_amp.mean (eZZe.N c p) (callMean (eZZe.N c p) []) .c [spinOf s0, spinV t1, spinV t2, spinOf s3] = 1 * eZZe.react.bare c p 3 0 1 2 (eZZe.react.codePair c p 3 s3) (eZZe.react.codePair c p 0 s0) (eZZe.react.codeVec c p 1 t1) (eZZe.react.codeVec c p 2 t2) := by
    intro s0 s3 t1 t2
    rw [eZZe.amp_eq, ← st (eZZe.react.codePair_bold hs h0 0 s0) (eZZe.react.codePair_bold hs h0 3 s3) t1 t2]
    refine congrArg (comb t1) (funext fun a1 => funext fun b1 => ?_)
    refine congrArg (comb t2) (funext fun a2 => funext fun b2 => ?_)
    have v2x1x2 : (eZZe.N c p).v 2 [spinOf a1, spinOf a2] = sb (eZZe.react.codePair c p 1 a1).2 (eZZe.react.codePair c p 2 a2).2 := bra_square (p := p) (m := eZZe.proc.massNum (eZZe.rho c)) (eZZe.mass_eq hc 1) (eZZe.mass_eq hc 2) (.inl ⟨m1, rfl⟩) (.inl ⟨m2, rfl⟩)
    have v3y1y2 : (eZZe.N c p).v 3 [spinOf b1, spinOf b2] = ab (eZZe.react.codePair c p 1 b1).1 (eZZe.react.codePair c p 2 b2).1 := bra_angle (p := p) (m := eZZe.proc.massNum (eZZe.rho c)) (eZZe.mass_eq hc 1) (eZZe.mass_eq hc 2) (.inl ⟨m1, rfl⟩) (.inl ⟨m2, rfl⟩)
    have v10z0z3 : (eZZe.N c p).v 10 [spinOf s0, spinOf s3] = sb (eZZe.react.codePair c p 0 s0).2 (eZZe.react.codePair c p 3 s3).2 := bra_square (p := p) (m := eZZe.proc.massNum (eZZe.rho c)) (eZZe.mass_eq hc 0) (eZZe.mass_eq hc 3) (.inl ⟨m0, rfl⟩) (.inl ⟨m3, rfl⟩)
    have v11z0z3 : (eZZe.N c p).v 11 [spinOf s0, spinOf s3] = ab (eZZe.react.codePair c p 0 s0).1 (eZZe.react.codePair c p 3 s3).1 := bra_angle (p := p) (m := eZZe.proc.massNum (eZZe.rho c)) (eZZe.mass_eq hc 0) (eZZe.mass_eq hc 3) (.inl ⟨m0, rfl⟩) (.inl ⟨m3, rfl⟩)
    have v8x1z3 : (eZZe.N c p).v 8 [spinOf a1, spinOf s3] = sb (eZZe.react.codePair c p 1 a1).2 (eZZe.react.codePair c p 3 s3).2 := bra_square (p := p) (m := eZZe.proc.massNum (eZZe.rho c)) (eZZe.mass_eq hc 1) (eZZe.mass_eq hc 3) (.inl ⟨m1, rfl⟩) (.inl ⟨m3, rfl⟩)
    have v5z0x2 : (eZZe.N c p).v 5 [spinOf s0, spinOf a2] = ab (eZZe.react.codePair c p 0 s0).1 (eZZe.react.codePair c p 2 a2).1 := bra_angle (p := p) (m := eZZe.proc.massNum (eZZe.rho c)) (eZZe.mass_eq hc 0) (eZZe.mass_eq hc 2) (.inl ⟨m0, rfl⟩) (.inl ⟨m2, rfl⟩)
    have v12y2y1 : (eZZe.N c p).v 12 [spinOf b2, spinOf b1] = mb (eZZe.react.codePair c p 2 b2).2 (p 0) (eZZe.react.codePair c p 1 b1).1 := bra_mid_square (p := p) (m := eZZe.proc.massNum (eZZe.rho c)) (eZZe.mass_eq hc 2) (eZZe.mass_eq hc 1) (.inl ⟨m2, rfl⟩) (.inl ⟨m1, rfl⟩)
    have v9x1z3 : (eZZe.N c p).v 9 [spinOf a1, spinOf s3] = ab (eZZe.react.codePair c p 1 a1).1 (eZZe.react.codePair c p 3 s3).1 := bra_angle (p := p) (m := eZZe.proc.massNum (eZZe.rho c)) (eZZe.mass_eq hc 1) (eZZe.mass_eq hc 3) (.inl ⟨m1, rfl⟩) (.inl ⟨m3, rfl⟩)
    have v4z0x2 : (eZZe.N c p).v 4 [spinOf s0, spinOf a2] = sb (eZZe.react.codePair c p 0 s0).2 (eZZe.react.codePair c p 2 a2).2 := bra_square (p := p) (m := eZZe.proc.massNum (eZZe.rho c)) (eZZe.mass_eq hc 0) (eZZe.mass_eq hc 2) (.inl ⟨m0, rfl⟩) (.inl ⟨m2, rfl⟩)
    have v2y1y2 : (eZZe.N c p).v 2 [spinOf b1, spinOf b2] = sb (eZZe.react.codePair c p 1 b1).2 (eZZe.react.codePair c p 2 b2).2 := bra_square (p := p) (m := eZZe.proc.massNum (eZZe.rho c)) (eZZe.mass_eq hc 1) (eZZe.mass_eq hc 2) (.inl ⟨m1, rfl⟩) (.inl ⟨m2, rfl⟩)
    have v13y1y2 : (eZZe.N c p).v 13 [spinOf b1, spinOf b2] = mb (eZZe.react.codePair c p 1 b1).2 (p 0) (eZZe.react.codePair c p 2 b2).1 := bra_mid_square (p := p) (m := eZZe.proc.massNum (eZZe.rho c)) (eZZe.mass_eq hc 1) (eZZe.mass_eq hc 2) (.inl ⟨m1, rfl⟩) (.inl ⟨m2, rfl⟩)
    have v6x2z3 : (eZZe.N c p).v 6 [spinOf a2, spinOf s3] = sb (eZZe.react.codePair c p 2 a2).2 (eZZe.react.codePair c p 3 s3).2 := bra_square (p := p) (m := eZZe.proc.massNum (eZZe.rho c)) (eZZe.mass_eq hc 2) (eZZe.mass_eq hc 3) (.inl ⟨m2, rfl⟩) (.inl ⟨m3, rfl⟩)
    have v1z0x1 : (eZZe.N c p).v 1 [spinOf s0, spinOf a1] = ab (eZZe.react.codePair c p 0 s0).1 (eZZe.react.codePair c p 1 a1).1 := bra_angle (p := p) (m := eZZe.proc.massNum (eZZe.rho c)) (eZZe.mass_eq hc 0) (eZZe.mass_eq hc 1) (.inl ⟨m0, rfl⟩) (.inl ⟨m1, rfl⟩)
    have v0z0x1 : (eZZe.N c p).v 0 [spinOf s0, spinOf a1] = sb (eZZe.react.codePair c p 0 s0).2 (eZZe.react.codePair c p 1 a1).2 := bra_square (p := p) (m := eZZe.proc.massNum (eZZe.rho c)) (eZZe.mass_eq hc 0) (eZZe.mass_eq hc 1) (.inl ⟨m0, rfl⟩) (.inl ⟨m1, rfl⟩)
    have v7x2z3 : (eZZe.N c p).v 7 [spinOf a2, spinOf s3] = ab (eZZe.react.codePair c p 2 a2).1 (eZZe.react.codePair c p 3 s3).1 := bra_angle (p := p) (m := eZZe.proc.massNum (eZZe.rho c)) (eZZe.mass_eq hc 2) (eZZe.mass_eq hc 3) (.inl ⟨m2, rfl⟩) (.inl ⟨m3, rfl⟩)
    simp only [eZZe.term, eZZe.form, v2x1x2, v3y1y2, v10z0z3, v11z0z3, v8x1z3, v5z0x2, v12y2y1, v9x1z3, v4z0x2, v2y1y2, v13y1y2, v6x2z3, v1z0x1, v0z0x1, v7x2z3]
    push_cast
    ring
  show meaning (eZZe.N c p) .r Cls.eZZe.methods Cls.eZZe.amp2 [] = _
  have lc : eZZe.react.lineColours 3 0 = 1 := by decide +kernel
  have s0 : eZZe.react.states 0 = 2 := by decide
  have s1 : eZZe.react.states 1 = 3 := by decide
  have sy : eZZe.react.symmetry = 1 := by decide
  have p0 : eZZe.react.spins 0 = {0, 1} := rfl
  have p1 : eZZe.react.spins 1 = Finset.univ := rfl
  have p2 : eZZe.react.spins 2 = Finset.univ := rfl
  have p3 : eZZe.react.spins 3 = {0, 1} := rfl
  rw [eZZe.value, eZZe.react.squared_line he ht hB (noGluon_of hM) hs h0 (fun _ b _ hb _ => (boson_pos hc hh hb).ne') (eZZe.react.gauge_massive (massive_of hM)) (E := eZZe.react.codeVec c p) (fun n b hl => eZZe.react.codeVec_polarised hs h0 hl (massive_of hM n b hl) (fun _ => (boson_pos hc hh (massive_of hM n b hl)).ne')) hu, sum_colours, lc, s0, s1, sy]
  simp only [sumV_sum, sumJ_sum, am, norm_mul, norm_neg, norm_one, one_mul, p0, p1, p2, p3, Finset.sum_singleton, sum_two, Matrix.cons_val_zero, Matrix.cons_val_one, Matrix.cons_val, two_castSucc]
  try simp only [← Finset.mul_sum]
  push_cast
  first | ring1 | ring_nf

/-! ### dZZd -/

/-- what the methods of the class see -/
noncomputable abbrev dZZd.N [FPEnv] (c : Constants) (p : Nat → V4 ℝ) : Env := dZZd.proc.env (dZZd.rho c) p
/-- the term that `amp` adds for a choice of spinors (SM/dZZd.cpp) -/
noncomputable def dZZd.term (N : Env) (w : ℝ) (x : ℂ) (j1 a1 b1 a2 b2 j4 : Int) : ℂ :=
  (((x + ((((((((-w) * N.r 12) : ℝ) : ℂ) * N.v 2 [a1, a2]) * N.v 3 [b1, b2]) * (N.v 10 [j1, j4] - N.v 11 [j1, j4])) / N.c 2)) + ((((((((((((-w) * N.r 11) * N.r 13) * N.r 13) : ℝ) : ℂ) * N.v 8 [a1, j4]) * N.v 5 [j1, a2]) * ((((N.r 8 : ℝ) : ℂ) * N.v 3 [b1, b2]) + N.v 12 [b2, b1])) / N.c 1) + (((((((((w * N.r 11) * N.r 14) * N.r 14) : ℝ) : ℂ) * N.v 9 [a1, j4]) * N.v 4 [j1, a2]) * ((((N.r 8 : ℝ) : ℂ) * N.v 2 [b1, b2]) + N.v 13 [b1, b2])) / N.c 1)) + ((((((((w * N.r 11) * N.r 13) * N.r 14) * N.r 2) : ℝ) : ℂ) * (((N.v 4 [j1, a2] * N.v 8 [a1, j4]) * N.v 3 [b1, b2]) - ((N.v 5 [j1, a2] * N.v 9 [a1, j4]) * N.v 2 [b1, b2]))) / N.c 1))) + ((((((((((((-w) * N.r 11) * N.r 13) * N.r 13) : ℝ) : ℂ) * N.v 6 [a2, j4]) * N.v 1 [j1, a1]) * ((((N.r 8 : ℝ) : ℂ) * N.v 3 [b1, b2]) + N.v 13 [b1, b2])) / N.c 0) + (((((((((w * N.r 11) * N.r 14) * N.r 14) : ℝ) : ℂ) * N.v 0 [j1, a1]) * N.v 7 [a2, j4]) * ((((N.r 8 : ℝ) : ℂ) * N.v 2 [b1, b2]) + N.v 12 [b2, b1])) / N.c 0)) + ((((((((w * N.r 11) * N.r 13) * N.r 14) * N.r 2) : ℝ) : ℂ) * ((((-N.v 0 [j1, a1]) * N.v 6 [a2, j4]) * N.v 3 [b1, b2]) + ((N.v 1 [j1, a1] * N.v 7 [a2, j4]) * N.v 2 [b1, b2]))) / N.c 0)))
/-- the same with spinors in place of their spins -/
noncomputable def dZZd.form (N : Env) (p : Nat → V4 ℝ) (z0 x1 y1 x2 y2 z3 : Pair) : ℂ :=
  (((0 + ((((((((-((1 : Nat) : ℝ)) * N.r 12) : ℝ) : ℂ) * (sb x1.2 x2.2)) * (ab y1.1 y2.1)) * ((sb z0.2 z3.2) - (ab z0.1 z3.1))) / N.c 2)) + ((((((((((((-((1 : Nat) : ℝ)) * N.r 11) * N.r 13) * N.r 13) : ℝ) : ℂ) * (sb x1.2 z3.2)) * (ab z0.1 x2.1)) * ((((N.r 8 : ℝ) : ℂ) * (ab y1.1 y2.1)) + (mb y2.2 (p 0) y1.1))) / N.c 1) + (((((((((((1 : Nat) : ℝ) * N.r 11) * N.r 14) * N.r 14) : ℝ) : ℂ) * (ab x1.1 z3.1)) * (sb z0.2 x2.2)) * ((((N.r 8 : ℝ) : ℂ) * (sb y1.2 y2.2)) + (mb y1.2 (p 0) y2.1))) / N.c 1)) + ((((((((((1 : Nat) : ℝ) * N.r 11) * N.r 13) * N.r 14) * N.r 2) : ℝ) : ℂ) * ((((sb z0.2 x2.2) * (sb x1.2 z3.2)) * (ab y1.1 y2.1)) - (((ab z0.1 x2.1) * (ab x1.1 z3.1)) * (sb y1.2 y2.2)))) / N.c 1))) + ((((((((((((-((1 : Nat) : ℝ)) * N.r 11) * N.r 13) * N.r 13) : ℝ) : ℂ) * (sb x2.2 z3.2)) * (ab z0.1 x1.1)) * ((((N.r 8 : ℝ) : ℂ) * (ab y1.1 y2.1)) + (mb y1.2 (p 0) y2.1))) / N.c 0) + (((((((((((1 : Nat) : ℝ) * N.r 11) * N.r 14) * N.r 14) : ℝ) : ℂ) * (sb z0.2 x1.2)) * (ab x2.1 z3.1)) * ((((N.r 8 : ℝ) : ℂ) * (sb y1.2 y2.2)) + (mb y2.2 (p 0) y1.1))) / N.c 0)) + ((((((((((1 : Nat) : ℝ) * N.r 11) * N.r 13) * N.r 14) * N.r 2) : ℝ) : ℂ) * ((((-(sb z0.2 x1.2)) * (sb x2.2 z3.2)) * (ab y1.1 y2.1)) + (((ab z0.1 x1.1) * (ab x2.1 z3.1)) * (sb y1.2 y2.2)))) / N.c 0)))
theorem dZZd.key {c : Constants} {p : Nat → V4 ℝ} {N : Env} (hc : c.Physical) (hb : Balanced p) (r2 : N.r 2 = (c.mass .d)) (r8 : N.r 8 = (c.MW / c.CW)) (r11 : N.r 11 = ((c.e * c.e) / ((((((2 : Nat) : ℝ) * c.MW) * c.MW) * c.SW) * c.SW))) (r12 : N.r 12 = (((c.e * c.e) * (c.mass .d)) / ((((((2 : Nat) : ℝ) * c.MW) * c.MW) * c.SW) * c.SW))) (r13 : N.r 13 = (((((-((2 : Nat) : ℝ)) * ((-((1 : Nat) : ℝ)) / ((3 : Nat) : ℝ))) * c.SW) * c.SW) - ((1 : Nat) : ℝ))) (r14 : N.r 14 = ((((-((2 : Nat) : ℝ)) * ((-((1 : Nat) : ℝ)) / ((3 : Nat) : ℝ))) * c.SW) * c.SW)) (d0 : ((msq (plus (p 0) (p 1)) - c.mass .d ^ 2 : ℝ) : ℂ) = N.c 0) (n0 : N.c 0 ≠ 0) (d1 : ((msq (plus (p 0) (backward (p 2))) - c.mass .d ^ 2 : ℝ) : ℂ) = N.c 1) (n1 : N.c 1 ≠ 0) (d2 : pole c.MH c.WH (plus (p 1) (backward (p 2))) = N.c 2) (n2 : N.c 2 ≠ 0) {z0 z1 z2 z3 : Pair} (b0 : Bold (p 0) (c.mass .d) z0) (b1 : Bold (p 1) c.MZ z1) (b2 : Bold (p 2) c.MZ z2) (b3 : Bold (p 3) (c.mass .d) z3) (q1 : msq (p 1) = c.MZ ^ 2) (q2 : msq (p 2) = c.MZ ^ 2) :
    dZZd.form N p z0 z1 z1 z2 z2 z3 = ((2 / (c.MZ * c.MZ) : ℝ) : ℂ) * dZZd.react.bare c p 3 0 1 2 z3 z0 (pv z1.1 z1.2) (pv z2.1 z2.2) := by
  rw [dZZd.react.bare_parts c p (i := 3) (j := 0) (a := 1) (b := 2) (x := .z) (y := .z) (k := (p 1)) (k' := (backward (p 2))) (fun _ => rfl) (fun _ => rfl) (f := .d) (g := .d) rfl rfl (l := (p 0)) rfl (e := 1) (e' := 1) (if_neg Bool.false_ne_true) (if_neg Bool.false_ne_true)]
  rw [compton_vv (f := .d) (x := .d) (g := .d) (h := (rfl : Spec.after .z Flavour.d = some Flavour.d)) (h' := (rfl : Spec.after .z Flavour.d = some Flavour.d)) (ha := by simp) (hb := by simp)]
  rw [compton_vv (f := .d) (x := .d) (g := .d) (h := (rfl : Spec.after .z Flavour.d = some Flavour.d)) (h' := (rfl : Spec.after .z Flavour.d = some Flavour.d)) (ha := by simp) (hb := by simp)]
  have an := annihilation_neutral c (1) (1) z3.1 z3.2 z0.1 z0.2 ⟨.z, (p 1), pv z1.1 z1.2⟩ ⟨.z, (backward (p 2)), pv z2.1 z2.2⟩ .d
  dsimp only at an
  rw [an, dZZd.form]
  clear an
  have Y1 := b1; have Q1 := q1
  have Y2 := b2.back; have Q2 : msq (backward (p 2)) = (-c.MZ) ^ 2 := by rw [msq_backward, q2, neg_sq]
  rw [lineV_massless (hx := (rfl : Boson.massive .photon = false))]
  rw [lineV_massive (hx := (rfl : Boson.massive .z = true))]
  simp only [toHiggs, toVector, higgs2, gauge3, Boson.anti, Constants.bosonMass, Constants.bosonWidth, d0, d1, d2, reduceCtorEq, and_self, and_true, and_false, and_true, if_true, if_false, Complex.ofReal_zero, zero_smul, zero_mul, mul_zero, zero_div, neg_zero, add_zero, zero_add, lineH, lineV_zero, contract_zero, lineV_smul, contract_smul, lineV_yangMills Y1 Y2, four_yangMills Y1 Y2 Q1 Q2, ym, lineV_pv, lineV_four, contract_four_pv, contract_pv, mb_plus, mb_backward]
  simp only [b0.mb_left, b0.mb_right, b1.mb_left, b1.mb_right, b2.mb_left, b2.mb_right, b3.mb_left, b3.mb_right, mb_three hb z0.2 z0.1, mb_three hb z0.2 z1.1, mb_three hb z0.2 z2.1, mb_two hb z0.2 z3.1, mb_three hb z1.2 z0.1, mb_three hb z1.2 z1.1, mb_three hb z1.2 z2.1, mb_two hb z1.2 z3.1, mb_three hb z2.2 z0.1, mb_three hb z2.2 z1.1, mb_three hb z2.2 z2.1, mb_one hb z2.2 z3.1, mb_two hb z3.2 z0.1, mb_two hb z3.2 z1.1, mb_one hb z3.2 z2.1, mb_two hb z3.2 z3.1, ab_self, sb_self]
  simp only [ab_swap z0.1 z1.1, sb_swap z0.2 z1.2, ab_swap z0.1 z2.1, sb_swap z0.2 z2.2, ab_swap z0.1 z3.1, sb_swap z0.2 z3.2, ab_swap z1.1 z2.1, sb_swap z1.2 z2.2, ab_swap z1.1 z3.1, sb_swap z1.2 z3.2, ab_swap z2.1 z3.1, sb_swap z2.2 z3.2, r2, r8, r11, r12, r13, r14, Constants.hL, Constants.hR, Constants.gL, Constants.gR, Constants.yuk, Constants.invVev, Flavour.charge_d, Flavour.isospin_d, ← c.mz]
  have xMW : (c.MW : ℂ) ≠ 0 := by exact_mod_cast hc.MW
  have xSW : (c.SW : ℂ) ≠ 0 := by exact_mod_cast hc.SW
  have xCW : (c.CW : ℂ) ≠ 0 := by exact_mod_cast hc.CW
  have x2 : ((√2 : ℝ) : ℂ) ≠ 0 := by exact_mod_cast (Real.sqrt_pos.2 two_pos).ne'
  have x22 : ((√2 : ℝ) : ℂ) ^ 2 = 2 := by rw [← Complex.ofReal_pow, Real.sq_sqrt two_pos.le]; norm_num
  push_cast
  field_simp
  first | ring1 | (ring_nf; simp only [x22]; ring1)
set_option maxRecDepth 8000 in
theorem dZZd.amp2_eq (N : Env) (f : Nat → List Int → ℂ) : Cls.dZZd.m_amp2.mean N f .r [] =
    ((sumJ (fun x a => (sumV (fun x b => (sumV (fun x c => (sumJ (fun x d => (x + (((3 : Nat) : ℝ) * (‖(f 0 [a, b, c, d])‖ ^ 2)))) x)) x)) x)) ((0 : Nat) : ℝ)) / ((18 : Nat) : ℝ)) := by rfl
set_option maxRecDepth 8000 in
theorem dZZd.value (N : Env) : meaning N .r Cls.dZZd.methods Cls.dZZd.amp2 [] =
    ((sumJ (fun x a => (sumV (fun x b => (sumV (fun x c => (sumJ (fun x d => (x + (((3 : Nat) : ℝ) * (‖(Cls.dZZd.m_amp.mean N (callMean N []) .c [a, b, c, d])‖ ^ 2)))) x)) x)) x)) ((0 : Nat) : ℝ)) / ((18 : Nat) : ℝ)) :=
  dZZd.amp2_eq N (callMean N [Cls.dZZd.m_amp])
set_option maxRecDepth 8000 in
theorem dZZd.term_lin (N : Env) (w : ℝ) (x : ℂ) (j1 a1 b1 a2 b2 j4 : Int) : dZZd.term N w x j1 a1 b1 a2 b2 j4 = x + (w : ℂ) * dZZd.term N 1 0 j1 a1 b1 a2 b2 j4 := by
  simp only [dZZd.term]; push_cast; ring
theorem dZZd.amp_eq (N : Env) (f : Nat → List Int → ℂ) (j1 j4 : Int) (t1 t2 : Fin 3) : Cls.dZZd.m_amp.mean N f .c [j1, spinV t1, spinV t2, j4] = comb t2 (fun a2 b2 => comb t1 (fun a1 b1 => dZZd.term N 1 0 j1 (spinOf a1) (spinOf b1) (spinOf a2) (spinOf b2) j4)) := by
  refine (amp_mean N f (m := 4) (K := 8) (G := fun i => dZZd.term N 1 0 (i 0) (i 6) (i 7) (i 4) (i 5) (i 3)) (fun l => ?_) (fun i i' h => ?_) rfl (by decide) (by decide) (by decide) (by decide) (by decide)).trans ?_
  · refine ⟨_, rfl, ?_⟩; exact ⟨rfl, rfl, dZZd.term_lin ..⟩
  · simp only [h 0 (by decide), h 6 (by decide), h 7 (by decide), h 4 (by decide), h 5 (by decide), h 3 (by decide)]
  · show amp' _ [spinV t2, spinV t1] = _
    simp only [amp'_comb, amp'_nil]
    rfl
theorem dZZd.form_x1 (N : Env) (p : Nat → V4 ℝ) (z0 y1 x2 y2 z3 x y : Pair) : dZZd.form N p z0 (x + y) y1 x2 y2 z3 = dZZd.form N p z0 x y1 x2 y2 z3 + dZZd.form N p z0 y y1 x2 y2 z3 := by
  simp only [dZZd.form, Prod.fst_add, Prod.snd_add, ab_add_left, ab_add_right, sb_add_left, sb_add_right, mb_add_left, mb_add_right]
  ring
theorem dZZd.form_y1 (N : Env) (p : Nat → V4 ℝ) (z0 x1 x2 y2 z3 x y : Pair) : dZZd.form N p z0 x1 (x + y) x2 y2 z3 = dZZd.form N p z0 x1 x x2 y2 z3 + dZZd.form N p z0 x1 y x2 y2 z3 := by
  simp only [dZZd.form, Prod.fst_add, Prod.snd_add, ab_add_left, ab_add_right, sb_add_left, sb_add_right, mb_add_left, mb_add_right]
  ring
theorem dZZd.form_x2 (N : Env) (p : Nat → V4 ℝ) (z0 x1 y1 y2 z3 x y : Pair) : dZZd.form N p z0 x1 y1 (x + y) y2 z3 = dZZd.form N p z0 x1 y1 x y2 z3 + dZZd.form N p z0 x1 y1 y y2 z3 := by
  simp only [dZZd.form, Prod.fst_add, Prod.snd_add, ab_add_left, ab_add_right, sb_add_left, sb_add_right, mb_add_left, mb_add_right]
  ring
theorem dZZd.form_y2 (N : Env) (p : Nat → V4 ℝ) (z0 x1 y1 x2 z3 x y : Pair) : dZZd.form N p z0 x1 y1 x2 (x + y) z3 = dZZd.form N p z0 x1 y1 x2 x z3 + dZZd.form N p z0 x1 y1 x2 y z3 := by
  simp only [dZZd.form, Prod.fst_add, Prod.snd_add, ab_add_left, ab_add_right, sb_add_left, sb_add_right, mb_add_left, mb_add_right]
  ring

theorem dZZd.mass_eq {c : Constants} (hc : c.Physical) (i : Fin 4) : dZZd.proc.massNum (dZZd.rho c) i = dZZd.react.mass c i := by
  fin_cases i <;> first | rfl | exact Nat.cast_zero.trans (hc.neutrino _).symm | (show c.MW / √(((1 : Nat) : ℝ) - c.SW * c.SW) = c.MZ; rw [c.root, c.mz])

variable [FPEnv] in
theorem dZZd.agrees : dZZd.Agrees := by
  refine agrees_of (D := [4, 5]) (E := [5]) (by simp [all, dZZd]) (by decide +kernel) (by decide) (by decide +kernel) (fun c hc hh => ⟨List.forall_mem_cons.2 ⟨hc.MW, List.forall_mem_cons.2 ⟨hc.SW, List.forall_mem_nil _⟩⟩, List.forall_mem_cons.2 ⟨hc.SW_lt, List.forall_mem_nil _⟩⟩) (fun c hc i => dZZd.mass_eq hc i) (by decide +kernel) ?_
  intro c p u ε hc hh hw h0 hs hb hr hu
  have he : dZZd.react.ends = [3] := by decide
  have ht : dZZd.react.starts = [0] := by decide
  have hB : dZZd.react.bosons = [1, 2] := by decide
  have hM : dZZd.react.allMassive = true := by decide
  obtain ⟨f1, f2, f3⟩ := dZZd.react.regular_line he ht hB hr
  have r2 : (dZZd.N c p).r 2 = (c.mass .d) := rfl
  have r8 : (dZZd.N c p).r 8 = (c.MW / √((((1 : Nat) : ℝ) - (c.SW * c.SW)))) := rfl
  simp only [c.root] at r8
  have r11 : (dZZd.N c p).r 11 = ((c.e * c.e) / ((((((2 : Nat) : ℝ) * c.MW) * c.MW) * c.SW) * c.SW)) := rfl
  have r12 : (dZZd.N c p).r 12 = (((c.e * c.e) * (c.mass .d)) / ((((((2 : Nat) : ℝ) * c.MW) * c.MW) * c.SW) * c.SW)) := rfl
  have r13 : (dZZd.N c p).r 13 = (((((-((2 : Nat) : ℝ)) * ((-((1 : Nat) : ℝ)) / ((3 : Nat) : ℝ))) * c.SW) * c.SW) - ((1 : Nat) : ℝ)) := rfl
  have r14 : (dZZd.N c p).r 14 = ((((-((2 : Nat) : ℝ)) * ((-((1 : Nat) : ℝ)) / ((3 : Nat) : ℝ))) * c.SW) * c.SW) := rfl
  have c0 : (dZZd.N c p).c 0 = poleDist (c.mass .d) ((0 : Nat) : ℝ) ((VExp.add 0 1).sum p) := rfl
  rw [Nat.cast_zero, pole_fermion (msq_s hb (plus (p 0) (p 1)) (by simp))] at c0
  have d0 : ((msq (plus (p 0) (p 1)) - c.mass .d ^ 2 : ℝ) : ℂ) = (dZZd.N c p).c 0 := by rw [c0]
  have n0 : (dZZd.N c p).c 0 ≠ 0 := by rw [← d0]; exact_mod_cast f1 .d rfl rfl
  have c1 : (dZZd.N c p).c 1 = poleDist (c.mass .d) ((0 : Nat) : ℝ) ((VExp.sub 0 2).sum p) := rfl
  rw [Nat.cast_zero, pole_fermion (msq_t hb (plus (p 0) (backward (p 2))) (by simp))] at c1
  have d1 : ((msq (plus (p 0) (backward (p 2))) - c.mass .d ^ 2 : ℝ) : ℂ) = (dZZd.N c p).c 1 := by rw [c1]
  have n1 : (dZZd.N c p).c 1 ≠ 0 := by rw [← d1]; exact_mod_cast f2 .d rfl rfl
  have c2 : (dZZd.N c p).c 2 = poleDist c.MH c.WH ((VExp.sub 0 3).sum p) := rfl
  rw [pole_congr (msq_u hb (plus (p 1) (backward (p 2))) (by simp)).symm] at c2
  have d2 : pole c.MH c.WH (plus (p 1) (backward (p 2))) = (dZZd.N c p).c 2 := by rw [c2]
  have n2 : (dZZd.N c p).c 2 ≠ 0 := by rw [← d2]; exact star_ne_zero.2 (f3 .higgs rfl rfl)
  have m0 : dZZd.react.mass c 0 ≠ 0 := (leg_pos hc hh (by decide)).ne'
  have m1 : dZZd.react.mass c 1 ≠ 0 := (leg_pos hc hh (by decide)).ne'
  have m2 : dZZd.react.mass c 2 ≠ 0 := (leg_pos hc hh (by decide)).ne'
  have m3 : dZZd.react.mass c 3 ≠ 0 := (leg_pos hc hh (by decide)).ne'
  have hd : dZZd.proc.divides = [(Ty.c, 2), (Ty.c, 1), (Ty.c, 0)] := by decide +kernel
  refine ⟨fun n hn => ?_, fun n hn => ?_, ?_⟩
  · simp [hd] at hn
  · simp [hd] at hn
    rcases hn with rfl | rfl | rfl
    · exact n2
    · exact n1
    · exact n0
  have st : ∀ {z0 z3 : Pair} (b0 : Bold (p 0) (dZZd.react.mass c 0) z0) (b3 : Bold (p 3) (dZZd.react.mass c 3) z3) (t1 t2 : Fin 3), comb t2 (fun a2 b2 => comb t1 (fun a1 b1 => dZZd.form (dZZd.N c p) p z0 (dZZd.react.codePair c p 1 a1) (dZZd.react.codePair c p 1 b1) (dZZd.react.codePair c p 2 a2) (dZZd.react.codePair c p 2 b2) z3)) = 1 * dZZd.react.bare c p 3 0 1 2 z3 z0 (dZZd.react.codeVec c p 1 t1) (dZZd.react.codeVec c p 2 t2) := by
    intro z0 z3 b0 b3 t1 t2
    refine two_vectors (p := p 2) (p' := p 1) (m := dZZd.react.mass c 2) (m' := dZZd.react.mass c 1) (fun s => dZZd.react.codePair_bold hs h0 2 s) (fun s => dZZd.react.codePair_bold hs h0 1 s) (B := fun x y x' y' => dZZd.form (dZZd.N c p) p z0 x' y' x y z3) (G := fun E F => dZZd.react.bare c p 3 0 1 2 z3 z0 F E) (fun _ _ _ _ _ => ?_) (fun _ _ _ _ _ => ?_) (fun _ _ _ _ _ => ?_) (fun _ _ _ _ _ => ?_) (fun F => dZZd.react.bare_lin₂ c p _ _ _ (by decide)) (fun E => dZZd.react.bare_lin₁ c p _ _ _ (by decide)) 1 (fun z2 z1 b2 b1 => ?_) t2 t1
    · exact dZZd.form_x2 ..
    · exact dZZd.form_y2 ..
    · exact dZZd.form_x1 ..
    · exact dZZd.form_y1 ..
    · rw [one_mul]; exact dZZd.key hc hb r2 r8 r11 r12 r13 r14 d0 n0 d1 n1 d2 n2 b0 b1 b2 b3 (onShell_msq (hs 1)) (onShell_msq (hs 2)) 
  have am : ∀ (s0 : Fin 2) (s3 : Fin 2) (t1 t2 : Fin 3), Cls.dZZd.m_amp.mean (dZZd.N c p) (callMean (dZZd.N c p) []) .c [spinOf s0, spinV t1, spinV t2, spinOf s3] = 1 * dZZd.react.bare c p 3 0 1 2 (dZZd.react.codePair c p 3 s3) (dZZd.react.codePair c p 0 s0) (dZZd.react.codeVec c p 1 t1) (dZZd.react.codeVec c p 2 t2) := by
    intro s0 s3 t1 t2
    rw [dZZd.amp_eq, ← st (dZZd.react.codePair_bold hs h0 0 s0) (dZZd.react.codePair_bold hs h0 3 s3) t1 t2]
    refine congrArg (comb t2) (funext fun a2 => funext fun b2 => ?_)
    refine congrArg (comb t1) (funext fun a1 => funext fun b1 => ?_)
    have v2x1x2 : (dZZd.N c p).v 2 [spinOf a1, spinOf a2] = sb (dZZd.react.codePair c p 1 a1).2 (dZZd.react.codePair c p 2 a2).2 := bra_square (p := p) (m := dZZd.proc.massNum (dZZd.rho c)) (dZZd.mass_eq hc 1) (dZZd.mass_eq hc 2) (.inl ⟨m1, rfl⟩) (.inl ⟨m2, rfl⟩)
    have v3y1y2 : (dZZd.N c p).v 3 [spinOf b1, spinOf b2] = ab (dZZd.react.codePair c p 1 b1).1 (dZZd.react.codePair c p 2 b2).1 := bra_angle (p := p) (m := dZZd.proc.massNum (dZZd.rho c)) (dZZd.mass_eq hc 1) (dZZd.mass_eq hc 2) (.inl ⟨m1, rfl⟩) (.inl ⟨m2, rfl⟩)
    have v10z0z3 : (dZZd.N c p).v 10 [spinOf s0, spinOf s3] = sb (dZZd.react.codePair c p 0 s0).2 (dZZd.react.codePair c p 3 s3).2 := bra_square (p := p) (m := dZZd.proc.massNum (dZZd.rho c)) (dZZd.mass_eq hc 0) (dZZd.mass_eq hc 3) (.inl ⟨m0, rfl⟩) (.inl ⟨m3, rfl⟩)
    have v11z0z3 : (dZZd.N c p).v 11 [spinOf s0, spinOf s3] = ab (dZZd.react.codePair c p 0 s0).1 (dZZd.react.codePair c p 3 s3).1 := bra_angle (p := p) (m := dZZd.proc.massNum (dZZd.rho c)) (dZZd.mass_eq hc 0) (dZZd.mass_eq hc 3) (.inl ⟨m0, rfl⟩) (.inl ⟨m3, rfl⟩)
    have v8x1z3 : (dZZd.N c p).v 8 [spinOf a1, spinOf s3] = sb (dZZd.react.codePair c p 1 a1).2 (dZZd.react.codePair c p 3 s3).2 := bra_square (p := p) (m := dZZd.proc.massNum (dZZd.rho c)) (dZZd.mass_eq hc 1) (dZZd.mass_eq hc 3) (.inl ⟨m1, rfl⟩) (.inl ⟨m3, rfl⟩)
    have v5z0x2 : (dZZd.N c p).v 5 [spinOf s0, spinOf a2] = ab (dZZd.react.codePair c p 0 s0).1 (dZZd.react.codePair c p 2 a2).1 := bra_angle (p := p) (m := dZZd.proc.massNum (dZZd.rho c)) (dZZd.mass_eq hc 0) (dZZd.mass_eq hc 2) (.inl ⟨m0, rfl⟩) (.inl ⟨m2, rfl⟩)
    have v12y2y1 : (dZZd.N c p).v 12 [spinOf b2, spinOf b1] = mb (dZZd.react.codePair c p 2 b2).2 (p 0) (dZZd.react.codePair c p 1 b1).1 := bra_mid_square (p := p) (m := dZZd.proc.massNum (dZZd.rho c)) (dZZd.mass_eq hc 2) (dZZd.mass_eq hc 1) (.inl ⟨m2, rfl⟩) (.inl ⟨m1, rfl⟩)
    have v9x1z3 : (dZZd.N c p).v 9 [spinOf a1, spinOf s3] = ab (dZZd.react.codePair c p 1 a1).1 (dZZd.react.codePair c p 3 s3).1 := bra_angle (p := p) (m := dZZd.proc.massNum (dZZd.rho c)) (dZZd.mass_eq hc 1) (dZZd.mass_eq hc 3) (.inl ⟨m1, rfl⟩) (.inl ⟨m3, rfl⟩)
    have v4z0x2 : (dZZd.N c p).v 4 [spinOf s0, spinOf a2] = sb (dZZd.react.codePair c p 0 s0).2 (dZZd.react.codePair c p 2 a2).2 := bra_square (p := p) (m := dZZd.proc.massNum (dZZd.rho c)) (dZZd.mass_eq hc 0) (dZZd.mass_eq hc 2) (.inl ⟨m0, rfl⟩) (.inl ⟨m2, rfl⟩)
    have v2y1y2 : (dZZd.N c p).v 2 [spinOf b1, spinOf b2] = sb (dZZd.react.codePair c p 1 b1).2 (dZZd.react.codePair c p 2 b2).2 := bra_square (p := p) (m := dZZd.proc.massNum (dZZd.rho c)) (dZZd.mass_eq hc 1) (dZZd.mass_eq hc 2) (.inl ⟨m1, rfl⟩) (.inl ⟨m2, rfl⟩)
    have v13y1y2 : (dZZd.N c p).v 13 [spinOf b1, spinOf b2] = mb (dZZd.react.codePair c p 1 b1).2 (p 0) (dZZd.react.codePair c p 2 b2).1 := bra_mid_square (p := p) (m := dZZd.proc.massNum (dZZd.rho c)) (dZZd.mass_eq hc 1) (dZZd.mass_eq hc 2) (.inl ⟨m1, rfl⟩) (.inl ⟨m2, rfl⟩)
    have v6x2z3 : (dZZd.N c p).v 6 [spinOf a2, spinOf s3] = sb (dZZd.react.codePair c p 2 a2).2 (dZZd.react.codePair c p 3 s3).2 := bra_square (p := p) (m := dZZd.proc.massNum (dZZd.rho c)) (dZZd.mass_eq hc 2) (dZZd.mass_eq hc 3) (.inl ⟨m2, rfl⟩) (.inl ⟨m3, rfl⟩)
    have v1z0x1 : (dZZd.N c p).v 1 [spinOf s0, spinOf a1] = ab (dZZd.react.codePair c p 0 s0).1 (dZZd.react.codePair c p 1 a1).1 := bra_angle (p := p) (m := dZZd.proc.massNum (dZZd.rho c)) (dZZd.mass_eq hc 0) (dZZd.mass_eq hc 1) (.inl ⟨m0, rfl⟩) (.inl ⟨m1, rfl⟩)
    have v0z0x1 : (dZZd.N c p).v 0 [spinOf s0, spinOf a1] = sb (dZZd.react.codePair c p 0 s0).2 (dZZd.react.codePair c p 1 a1).2 := bra_square (p := p) (m := dZZd.proc.massNum (dZZd.rho c)) (dZZd.mass_eq hc 0) (dZZd.mass_eq hc 1) (.inl ⟨m0, rfl⟩) (.inl ⟨m1, rfl⟩)
    have v7x2z3 : (dZZd.N c p).v 7 [spinOf a2, spinOf s3] = ab (dZZd.react.codePair c p 2 a2).1 (dZZd.react.codePair c p 3 s3).1 := bra_angle (p := p) (m := dZZd.proc.massNum (dZZd.rho c)) (dZZd.mass_eq hc 2) (dZZd.mass_eq hc 3) (.inl ⟨m2, rfl⟩) (.inl ⟨m3, rfl⟩)
    simp only [dZZd.term, dZZd.form, v2x1x2, v3y1y2, v10z0z3, v11z0z3, v8x1z3, v5z0x2, v12y2y1, v9x1z3, v4z0x2, v2y1y2, v13y1y2, v6x2z3, v1z0x1, v0z0x1, v7x2z3]
    push_cast
    ring
  show meaning (dZZd.N c p) .r Cls.dZZd.methods Cls.dZZd.amp2 [] = _
  have lc : dZZd.react.lineColours 3 0 = 3 := by decide +kernel
  have s0 : dZZd.react.states 0 = 6 := by decide
  have s1 : dZZd.react.states 1 = 3 := by decide
  have sy : dZZd.react.symmetry = 1 := by decide
  have p0 : dZZd.react.spins 0 = {0, 1} := rfl
  have p1 : dZZd.react.spins 1 = Finset.univ := rfl
  have p2 : dZZd.react.spins 2 = Finset.univ := rfl
  have p3 : dZZd.react.spins 3 = {0, 1} := rfl
  rw [dZZd.value, dZZd.react.squared_line he ht hB (noGluon_of hM) hs h0 (fun _ b _ hb _ => (boson_pos hc hh hb).ne') (dZZd.react.gauge_massive (massive_of hM)) (E := dZZd.react.codeVec c p) (fun n b hl => dZZd.react.codeVec_polarised hs h0 hl (massive_of hM n b hl) (fun _ => (boson_pos hc hh (massive_of hM n b hl)).ne')) hu, sum_colours, lc, s0, s1, sy]
  simp only [sumV_sum, sumJ_sum, am, norm_mul, norm_neg, norm_one, one_mul, p0, p1, p2, p3, Finset.sum_singleton, sum_two, Matrix.cons_val_zero, Matrix.cons_val_one, Matrix.cons_val, two_castSucc]
  try simp only [← Finset.mul_sum]
  push_cast
  first | ring1 | ring_nf

/-! ### uZZu -/

/-- what the methods of the class see -/
noncomputable abbrev uZZu.N [FPEnv] (c : Constants) (p : Nat → V4 ℝ) : Env := uZZu.proc.env (uZZu.rho c) p
/-- the term that `amp` adds for a choice of spinors (SM/uZZu.cpp) -/
noncomputable def uZZu.term (N : Env) (w : ℝ) (x : ℂ) (j1 a1 b1 a2 b2 j4 : Int) : ℂ :=
  (((x + ((((((((-w) * N.r 12) : ℝ) : ℂ) * N.v 2 [a1, a2]) * N.v 3 [b1, b2]) * (N.v 10 [j1, j4] - N.v 11 [j1, j4])) / N.c 2)) + ((((((((((((-w) * N.r 11) * N.r 13) * N.r 13) : ℝ) : ℂ) * N.v 8 [a1, j4]) * N.v 5 [j1, a2]) * ((((N.r 8 : ℝ) : ℂ) * N.v 3 [b1, b2]) + N.v 12 [b2, b1])) / N.c 1) + (((((((((w * N.r 11) * N.r 14) * N.r 14) : ℝ) : ℂ) * N.v 9 [a1, j4]) * N.v 4 [j1, a2]) * ((((N.r 8 : ℝ) : ℂ) * N.v 2 [b1, b2]) + N.v 13 [b1, b2])) / N.c 1)) + ((((((((w * N.r 11) * N.r 13) * N.r 14) * N.r 2) : ℝ) : ℂ) * (((N.v 4 [j1, a2] * N.v 8 [a1, j4]) * N.v 3 [b1, b2]) - ((N.v 5 [j1, a2] * N.v 9 [a1, j4]) * N.v 2 [b1, b2]))) / N.c 1))) + ((((((((((((-w) * N.r 11) * N.r 13) * N.r 13) : ℝ) : ℂ) * N.v 6 [a2, j4]) * N.v 1 [j1, a1]) * ((((N.r 8 : ℝ) : ℂ) * N.v 3 [b1, b2]) + N.v 13 [b1, b2])) / N.c 0) + (((((((((w * N.r 11) * N.r 14) * N.r 14) : ℝ) : ℂ) * N.v 0 [j1, a1]) * N.v 7 [a2, j4]) * ((((N.r 8 : ℝ) : ℂ) * N.v 2 [b1, b2]) + N.v 12 [b2, b1])) / N.c 0)) + ((((((((w * N.r 11) * N.r 13) * N.r 14) * N.r 2) : ℝ) : ℂ) * ((((-N.v 0 [j1, a1]) * N.v 6 [a2, j4]) * N.v 3 [b1, b2]) + ((N.v 1 [j1, a1] * N.v 7 [a2, j4]) * N.v 2 [b1, b2]))) / N.c 0)))
/-- the same with spinors in place of their spins -/
noncomputable def uZZu.form (N : Env) (p : Nat → V4 ℝ) (z0 x1 y1 x2 y2 z3 : Pair) : ℂ :=
  (((0 + ((((((((-((1 : Nat) : ℝ)) * N.r 12) : ℝ) : ℂ) * (sb x1.2 x2.2)) * (ab y1.1 y2.1)) * ((sb z0.2 z3.2) - (ab z0.1 z3.1))) / N.c 2)) + ((((((((((((-((1 : Nat) : ℝ)) * N.r 11) * N.r 13) * N.r 13) : ℝ) : ℂ) * (sb x1.2 z3.2)) * (ab z0.1 x2.1)) * ((((N.r 8 : ℝ) : ℂ) * (ab y1.1 y2.1)) + (mb y2.2 (p 0) y1.1))) / N.c 1) + (((((((((((1 : Nat) : ℝ) * N.r 11) * N.r 14) * N.r 14) : ℝ) : ℂ) * (ab x1.1 z3.1)) * (sb z0.2 x2.2)) * ((((N.r 8 : ℝ) : ℂ) * (sb y1.2 y2.2)) + (mb y1.2 (p 0) y2.1))) / N.c 1)) + ((((((((((1 : Nat) : ℝ) * N.r 11) * N.r 13) * N.r 14) * N.r 2) : ℝ) : ℂ) * ((((sb z0.2 x2.2) * (sb x1.2 z3.2)) * (ab y1.1 y2.1)) - (((ab z0.1 x2.1) * (ab x1.1 z3.1)) * (sb y1.2 y2.2)))) / N.c 1))) + ((((((((((((-((1 : Nat) : ℝ)) * N.r 11) * N.r 13) * N.r 13) : ℝ) : ℂ) * (sb x2.2 z3.2)) * (ab z0.1 x1.1)) * ((((N.r 8 : ℝ) : ℂ) * (ab y1.1 y2.1)) + (mb y1.2 (p 0) y2.1))) / N.c 0) + (((((((((((1 : Nat) : ℝ) * N.r 11) * N.r 14) * N.r 14) : ℝ) : ℂ) * (sb z0.2 x1.2)) * (ab x2.1 z3.1)) * ((((N.r 8 : ℝ) : ℂ) * (sb y1.2 y2.2)) + (mb y2.2 (p 0) y1.1))) / N.c 0)) + ((((((((((1 : Nat) : ℝ) * N.r 11) * N.r 13) * N.r 14) * N.r 2) : ℝ) : ℂ) * ((((-(sb z0.2 x1.2)) * (sb x2.2 z3.2)) * (ab y1.1 y2.1)) + (((ab z0.1 x1.1) * (ab x2.1 z3.1)) * (sb y1.2 y2.2)))) / N.c 0)))
theorem uZZu.key {c : Constants} {p : Nat → V4 ℝ} {N : Env} (hc : c.Physical) (hb : Balanced p) (r2 : N.r 2 = (c.mass .u)) (r8 : N.r 8 = (c.MW / c.CW)) (r11 : N.r 11 = ((c.e * c.e) / ((((((2 : Nat) : ℝ) * c.MW) * c.MW) * c.SW) * c.SW))) (r12 : N.r 12 = (((c.e * c.e) * (c.mass .u)) / ((((((2 : Nat) : ℝ) * c.MW) * c.MW) * c.SW) * c.SW))) (r13 : N.r 13 = (((((-((2 : Nat) : ℝ)) * (((2 : Nat) : ℝ) / ((3 : Nat) : ℝ))) * c.SW) * c.SW) + ((1 : Nat) : ℝ))) (r14 : N.r 14 = ((((-((2 : Nat) : ℝ)) * (((2 : Nat) : ℝ) / ((3 : Nat) : ℝ))) * c.SW) * c.SW)) (d0 : ((msq (plus (p 0) (p 1)) - c.mass .u ^ 2 : ℝ) : ℂ) = N.c 0) (n0 : N.c 0 ≠ 0) (d1 : ((msq (plus (p 0) (backward (p 2))) - c.mass .u ^ 2 : ℝ) : ℂ) = N.c 1) (n1 : N.c 1 ≠ 0) (d2 : pole c.MH c.WH (plus (p 1) (backward (p 2))) = N.c 2) (n2 : N.c 2 ≠ 0) {z0 z1 z2 z3 : Pair} (b0 : Bold (p 0) (c.mass .u) z0) (b1 : Bold (p 1) c.MZ z1) (b2 : Bold (p 2) c.MZ z2) (b3 : Bold (p 3) (c.mass .u) z3) (q1 : msq (p 1) = c.MZ ^ 2) (q2 : msq (p 2) = c.MZ ^ 2) :
    uZZu.form N p z0 z1 z1 z2 z2 z3 = ((2 / (c.MZ * c.MZ) : ℝ) : ℂ) * uZZu.react.bare c p 3 0 1 2 z3 z0 (pv z1.1 z1.2) (pv z2.1 z2.2) := by
  rw [uZZu.react.bare_parts c p (i := 3) (j := 0) (a := 1) (b := 2) (x := .z) (y := .z) (k := (p 1)) (k' := (backward (p 2))) (fun _ => rfl) (fun _ => rfl) (f := .u) (g := .u) rfl rfl (l := (p 0)) rfl (e := 1) (e' := 1) (if_neg Bool.false_ne_true) (if_neg Bool.false_ne_true)]
  rw [compton_vv (f := .u) (x := .u) (g := .u) (h := (rfl : Spec.after .z Flavour.u = some Flavour.u)) (h' := (rfl : Spec.after .z Flavour.u = some Flavour.u)) (ha := by simp) (hb := by simp)]
  rw [compton_vv (f := .u) (x := .u) (g := .u) (h := (rfl : Spec.after .z Flavour.u = some Flavour.u)) (h' := (rfl : Spec.after .z Flavour.u = some Flavour.u)) (ha := by simp) (hb := by simp)]
  have an := annihilation_neutral c (1) (1) z3.1 z3.2 z0.1 z0.2 ⟨.z, (p 1), pv z1.1 z1.2⟩ ⟨.z, (backward (p 2)), pv z2.1 z2.2⟩ .u
  dsimp only at an
  rw [an, uZZu.form]
  clear an
  have Y1 := b1; have Q1 := q1
  have Y2 := b2.back; have Q2 : msq (backward (p 2)) = (-c.MZ) ^ 2 := by rw [msq_backward, q2, neg_sq]
  rw [lineV_massless (hx := (rfl : Boson.massive .photon = false))]
  rw [lineV_massive (hx := (rfl : Boson.massive .z = true))]
  simp only [toHiggs, toVector, higgs2, gauge3, Boson.anti, Constants.bosonMass, Constants.bosonWidth, d0, d1, d2, reduceCtorEq, and_self, and_true, and_false, and_true, if_true, if_false, Complex.ofReal_zero, zero_smul, zero_mul, mul_zero, zero_div, neg_zero, add_zero, zero_add, lineH, lineV_zero, contract_zero, lineV_smul, contract_smul, lineV_yangMills Y1 Y2, four_yangMills Y1 Y2 Q1 Q2, ym, lineV_pv, lineV_four, contract_four_pv, contract_pv, mb_plus, mb_backward]
  simp only [b0.mb_left, b0.mb_right, b1.mb_left, b1.mb_right, b2.mb_left, b2.mb_right, b3.mb_left, b3.mb_right, mb_three hb z0.2 z0.1, mb_three hb z0.2 z1.1, mb_three hb z0.2 z2.1, mb_two hb z0.2 z3.1, mb_three hb z1.2 z0.1, mb_three hb z1.2 z1.1, mb_three hb z1.2 z2.1, mb_two hb z1.2 z3.1, mb_three hb z2.2 z0.1, mb_three hb z2.2 z1.1, mb_three hb z2.2 z2.1, mb_one hb z2.2 z3.1, mb_two hb z3.2 z0.1, mb_two hb z3.2 z1.1, mb_one hb z3.2 z2.1, mb_two hb z3.2 z3.1, ab_self, sb_self]
  simp only [ab_swap z0.1 z1.1, sb_swap z0.2 z1.2, ab_swap z0.1 z2.1, sb_swap z0.2 z2.2, ab_swap z0.1 z3.1, sb_swap z0.2 z3.2, ab_swap z1.1 z2.1, sb_swap z1.2 z2.2, ab_swap z1.1 z3.1, sb_swap z1.2 z3.2, ab_swap z2.1 z3.1, sb_swap z2.2 z3.2, r2, r8, r11, r12, r13, r14, Constants.hL, Constants.hR, Constants.gL, Constants.gR, Constants.yuk, Constants.invVev, Flavour.charge_u, Flavour.isospin_u, ← c.mz]
  have xMW : (c.MW : ℂ) ≠ 0 := by exact_mod_cast hc.MW
  have xSW : (c.SW : ℂ) ≠ 0 := by exact_mod_cast hc.SW
  have xCW : (c.CW : ℂ) ≠ 0 := by exact_mod_cast hc.CW
  have x2 : ((√2 : ℝ) : ℂ) ≠ 0 := by exact_mod_cast (Real.sqrt_pos.2 two_pos).ne'
  have x22 : ((√2 : ℝ) : ℂ) ^ 2 = 2 := by rw [← Complex.ofReal_pow, Real.sq_sqrt two_pos.le]; norm_num
  push_cast
  field_simp
  first | ring1 | (ring_nf; simp only [x22]; ring1)
set_option maxRecDepth 8000 in
theorem uZZu.amp2_eq (N : Env) (f : Nat → List Int → ℂ) : Cls.uZZu.m_amp2.mean N f .r [] =
    ((sumJ (fun x a => (sumV (fun x b => (sumV (fun x c => (sumJ (fun x d => (x + (((3 : Nat) : ℝ) * (‖(f 0 [a, b, c, d])‖ ^ 2)))) x)) x)) x)) ((0 : Nat) : ℝ)) / ((18 : Nat) : ℝ)) := by rfl
set_option maxRecDepth 8000 in
theorem uZZu.value (N : Env) : meaning N .r Cls.uZZu.methods Cls.uZZu.amp2 [] =
    ((sumJ (fun x a => (sumV (fun x b => (sumV (fun x c => (sumJ (fun x d => (x + (((3 : Nat) : ℝ) * (‖(Cls.uZZu.m_amp.mean N (callMean N []) .c [a, b, c, d])‖ ^ 2)))) x)) x)) x)) ((0 : Nat) : ℝ)) / ((18 : Nat) : ℝ)) :=
  uZZu.amp2_eq N (callMean N [Cls.uZZu.m_amp])
set_option maxRecDepth 8000 in
theorem uZZu.term_lin (N : Env) (w : ℝ) (x : ℂ) (j1 a1 b1 a2 b2 j4 : Int) : uZZu.term N w x j1 a1 b1 a2 b2 j4 = x + (w : ℂ) * uZZu.term N 1 0 j1 a1 b1 a2 b2 j4 := by
  simp only [uZZu.term]; push_cast; ring
theorem uZZu.amp_eq (N : Env) (f : Nat → List Int → ℂ) (j1 j4 : Int) (t1 t2 : Fin 3) : Cls.uZZu.m_amp.mean N f .c [j1, spinV t1, spinV t2, j4] = comb t2 (fun a2 b2 => comb t1 (fun a1 b1 => uZZu.term N 1 0 j1 (spinOf a1) (spinOf b1) (spinOf a2) (spinOf b2) j4)) := by
  refine (amp_mean N f (m := 4) (K := 8) (G := fun i => uZZu.term N 1 0 (i 0) (i 6) (i 7) (i 4) (i 5) (i 3)) (fun l => ?_) (fun i i' h => ?_) rfl (by decide) (by decide) (by decide) (by decide) (by decide)).trans ?_
  · refine ⟨_, rfl, ?_⟩; exact ⟨rfl, rfl, uZZu.term_lin ..⟩
  · simp only [h 0 (by decide), h 6 (by decide), h 7 (by decide), h 4 (by decide), h 5 (by decide), h 3 (by decide)]
  · show amp' _ [spinV t2, spinV t1] = _
    simp only [amp'_comb, amp'_nil]
    rfl
theorem uZZu.form_x1 (N : Env) (p : Nat → V4 ℝ) (z0 y1 x2 y2 z3 x y : Pair) : uZZu.form N p z0 (x + y) y1 x2 y2 z3 = uZZu.form N p z0 x y1 x2 y2 z3 + uZZu.form N p z0 y y1 x2 y2 z3 := by
  simp only [uZZu.form, Prod.fst_add, Prod.snd_add, ab_add_left, ab_add_right, sb_add_left, sb_add_right, mb_add_left, mb_add_right]
  ring
theorem uZZu.form_y1 (N : Env) (p : Nat → V4 ℝ) (z0 x1 x2 y2 z3 x y : Pair) : uZZu.form N p z0 x1 (x + y) x2 y2 z3 = uZZu.form N p z0 x1 x x2 y2 z3 + uZZu.form N p z0 x1 y x2 y2 z3 := by
  simp only [uZZu.form, Prod.fst_add, Prod.snd_add, ab_add_left, ab_add_right, sb_add_left, sb_add_right, mb_add_left, mb_add_right]
  ring
theorem uZZu.form_x2 (N : Env) (p : Nat → V4 ℝ) (z0 x1 y1 y2 z3 x y : Pair) : uZZu.form N p z0 x1 y1 (x + y) y2 z3 = uZZu.form N p z0 x1 y1 x y2 z3 + uZZu.form N p z0 x1 y1 y y2 z3 := by
  simp only [uZZu.form, Prod.fst_add, Prod.snd_add, ab_add_left, ab_add_right, sb_add_left, sb_add_right, mb_add_left, mb_add_right]
  ring
theorem uZZu.form_y2 (N : Env) (p : Nat → V4 ℝ) (z0 x1 y1 x2 z3 x y : Pair) : uZZu.form N p z0 x1 y1 x2 (x + y) z3 = uZZu.form N p z0 x1 y1 x2 x z3 + uZZu.form N p z0 x1 y1 x2 y z3 := by
  simp only [uZZu.form, Prod.fst_add, Prod.snd_add, ab_add_left, ab_add_right, sb_add_left, sb_add_right, mb_add_left, mb_add_right]
  ring

theorem uZZu.mass_eq {c : Constants} (hc : c.Physical) (i : Fin 4) : uZZu.proc.massNum (uZZu.rho c) i = uZZu.react.mass c i := by
  fin_cases i <;> first | rfl | exact Nat.cast_zero.trans (hc.neutrino _).symm | (show c.MW / √(((1 : Nat) : ℝ) - c.SW * c.SW) = c.MZ; rw [c.root, c.mz])

variable [FPEnv] in
theorem uZZu.agrees : uZZu.Agrees := by
  refine agrees_of (D := [4, 5]) (E := [5]) (by simp [all, uZZu]) (by decide +kernel) (by decide) (by decide +kernel) (fun c hc hh => ⟨List.forall_mem_cons.2 ⟨hc.MW, List.forall_mem_cons.2 ⟨hc.SW, List.forall_mem_nil _⟩⟩, List.forall_mem_cons.2 ⟨hc.SW_lt, List.forall_mem_nil _⟩⟩) (fun c hc i => uZZu.mass_eq hc i) (by decide +kernel) ?_
  intro c p u ε hc hh hw h0 hs hb hr hu
  have he : uZZu.react.ends = [3] := by decide
  have ht : uZZu.react.starts = [0] := by decide
  have hB : uZZu.react.bosons = [1, 2] := by decide
  have hM : uZZu.react.allMassive = true := by decide
  obtain ⟨f1, f2, f3⟩ := uZZu.react.regular_line he ht hB hr
  have r2 : (uZZu.N c p).r 2 = (c.mass .u) := rfl
  have r8 : (uZZu.N c p).r 8 = (c.MW / √((((1 : Nat) : ℝ) - (c.SW * c.SW)))) := rfl
  simp only [c.root] at r8
  have r11 : (uZZu.N c p).r 11 = ((c.e * c.e) / ((((((2 : Nat) : ℝ) * c.MW) * c.MW) * c.SW) * c.SW)) := rfl
  have r12 : (uZZu.N c p).r 12 = (((c.e * c.e) * (c.mass .u)) / ((((((2 : Nat) : ℝ) * c.MW) * c.MW) * c.SW) * c.SW)) := rfl
  have r13 : (uZZu.N c p).r 13 = (((((-((2 : Nat) : ℝ)) * (((2 : Nat) : ℝ) / ((3 : Nat) : ℝ))) * c.SW) * c.SW) + ((1 : Nat) : ℝ)) := rfl
  have r14 : (uZZu.N c p).r 14 = ((((-((2 : Nat) : ℝ)) * (((2 : Nat) : ℝ) / ((3 : Nat) : ℝ))) * c.SW) * c.SW) := rfl
  have c0 : (uZZu.N c p).c 0 = poleDist (c.mass .u) ((0 : Nat) : ℝ) ((VExp.add 0 1).sum p) := rfl
  rw [Nat.cast_zero, pole_fermion (msq_s hb (plus (p 0) (p 1)) (by simp))] at c0
  have d0 : ((msq (plus (p 0) (p 1)) - c.mass .u ^ 2 : ℝ) : ℂ) = (uZZu.N c p).c 0 := by rw [c0]
  have n0 : (uZZu.N c p).c 0 ≠ 0 := by rw [← d0]; exact_mod_cast f1 .u rfl rfl
  have c1 : (uZZu.N c p).c 1 = poleDist (c.mass .u) ((0 : Nat) : ℝ) ((VExp.sub 0 2).sum p) := rfl
  rw [Nat.cast_zero, pole_fermion (msq_t hb (plus (p 0) (backward (p 2))) (by simp))] at c1
  have d1 : ((msq (plus (p 0) (backward (p 2))) - c.mass .u ^ 2 : ℝ) : ℂ) = (uZZu.N c p).c 1 := by rw [c1]
  have n1 : (uZZu.N c p).c 1 ≠ 0 := by rw [← d1]; exact_mod_cast f2 .u rfl rfl
  have c2 : (uZZu.N c p).c 2 = poleDist c.MH c.WH ((VExp.sub 0 3).sum p) := rfl
  rw [pole_congr (msq_u hb (plus (p 1) (backward (p 2))) (by simp)).symm] at c2
  have d2 : pole c.MH c.WH (plus (p 1) (backward (p 2))) = (uZZu.N c p).c 2 := by rw [c2]
  have n2 : (uZZu.N c p).c 2 ≠ 0 := by rw [← d2]; exact star_ne_zero.2 (f3 .higgs rfl rfl)
  have m0 : uZZu.react.mass c 0 ≠ 0 := (leg_pos hc hh (by decide)).ne'
  have m1 : uZZu.react.mass c 1 ≠ 0 := (leg_pos hc hh (by decide)).ne'
  have m2 : uZZu.react.mass c 2 ≠ 0 := (leg_pos hc hh (by decide)).ne'
  have m3 : uZZu.react.mass c 3 ≠ 0 := (leg_pos hc hh (by decide)).ne'
  have hd : uZZu.proc.divides = [(Ty.c, 2), (Ty.c, 1), (Ty.c, 0)] := by decide +kernel
  refine ⟨fun n hn => ?_, fun n hn => ?_, ?_⟩
  · simp [hd] at hn
  · simp [hd] at hn
    rcases hn with rfl | rfl | rfl
    · exact n2
    · exact n1
    · exact n0
  have st : ∀ {z0 z3 : Pair} (b0 : Bold (p 0) (uZZu.react.mass c 0) z0) (b3 : Bold (p 3) (uZZu.react.mass c 3) z3) (t1 t2 : Fin 3), comb t2 (fun a2 b2 => comb t1 (fun a1 b1 => uZZu.form (uZZu.N c p) p z0 (uZZu.react.codePair c p 1 a1) (uZZu.react.codePair c p 1 b1) (uZZu.react.codePair c p 2 a2) (uZZu.react.codePair c p 2 b2) z3)) = 1 * uZZu.react.bare c p 3 0 1 2 z3 z0 (uZZu.react.codeVec c p 1 t1) (uZZu.react.codeVec c p 2 t2) := by
    intro z0 z3 b0 b3 t1 t2
    refine two_vectors (p := p 2) (p' := p 1) (m := uZZu.react.mass c 2) (m' := uZZu.react.mass c 1) (fun s => uZZu.react.codePair_bold hs h0 2 s) (fun s => uZZu.react.codePair_bold hs h0 1 s) (B := fun x y x' y' => uZZu.form (uZZu.N c p) p z0 x' y' x y z3) (G := fun E F => uZZu.react.bare c p 3 0 1 2 z3 z0 F E) (fun _ _ _ _ _ => ?_) (fun _ _ _ _ _ => ?_) (fun _ _ _ _ _ => ?_) (fun _ _ _ _ _ => ?_) (fun F => uZZu.react.bare_lin₂ c p _ _ _ (by decide)) (fun E => uZZu.react.bare_lin₁ c p _ _ _ (by decide)) 1 (fun z2 z1 b2 b1 => ?_) t2 t1
    · exact uZZu.form_x2 ..
    · exact uZZu.form_y2 ..
    · exact uZZu.form_x1 ..
    · exact uZZu.form_y1 ..
    · rw [one_mul]; exact uZZu.key hc hb r2 r8 r11 r12 r13 r14 d0 n0 d1 n1 d2 n2 b0 b1 b2 b3 (onShell_msq (hs 1)) (onShell_msq (hs 2)) 
  have am : ∀ (s0 : Fin 2) (s3 : Fin 2) (t1 t2 : Fin 3), Cls.uZZu.m_amp.mean (uZZu.N c p) (callMean (uZZu.N c p) []) .c [spinOf s0, spinV t1, spinV t2, spinOf s3] = 1 * uZZu.react.bare c p 3 0 1 2 (uZZu.react.codePair c p 3 s3) (uZZu.react.codePair c p 0 s0) (uZZu.react.codeVec c p 1 t1) (uZZu.react.codeVec c p 2 t2) := by
    intro s0 s3 t1 t2
    rw [uZZu.amp_eq, ← st (uZZu.react.codePair_bold hs h0 0 s0) (uZZu.react.codePair_bold hs h0 3 s3) t1 t2]
    refine congrArg (comb t2) (funext fun a2 => funext fun b2 => ?_)
    refine congrArg (comb t1) (funext fun a1 => funext fun b1 => ?_)
    have v2x1x2 : (uZZu.N c p).v 2 [spinOf a1, spinOf a2] = sb (uZZu.react.codePair c p 1 a1).2 (uZZu.react.codePair c p 2 a2).2 := bra_square (p := p) (m := uZZu.proc.massNum (uZZu.rho c)) (uZZu.mass_eq hc 1) (uZZu.mass_eq hc 2) (.inl ⟨m1, rfl⟩) (.inl ⟨m2, rfl⟩)
    have v3y1y2 : (uZZu.N c p).v 3 [spinOf b1, spinOf b2] = ab (uZZu.react.codePair c p 1 b1).1 (uZZu.react.codePair c p 2 b2).1 := bra_angle (p := p) (m := uZZu.proc.massNum (uZZu.rho c)) (uZZu.mass_eq hc 1) (uZZu.mass_eq hc 2) (.inl ⟨m1, rfl⟩) (.inl ⟨m2, rfl⟩)
    have v10z0z3 : (uZZu.N c p).v 10 [spinOf s0, spinOf s3] = sb (uZZu.react.codePair c p 0 s0).2 (uZZu.react.codePair c p 3 s3).2 := bra_square (p := p) (m := uZZu.proc.massNum (uZZu.rho c)) (uZZu.mass_eq hc 0) (uZZu.mass_eq hc 3) (.inl ⟨m0, rfl⟩) (.inl ⟨m3, rfl⟩)
    have v11z0z3 : (uZZu.N c p).v 11 [spinOf s0, spinOf s3] = ab (uZZu.react.codePair c p 0 s0).1 (uZZu.react.codePair c p 3 s3).1 := bra_angle (p := p) (m := uZZu.proc.massNum (uZZu.rho c)) (uZZu.mass_eq hc 0) (uZZu.mass_eq hc 3) (.inl ⟨m0, rfl⟩) (.inl ⟨m3, rfl⟩)
    have v8x1z3 : (uZZu.N c p).v 8 [spinOf a1, spinOf s3] = sb (uZZu.react.codePair c p 1 a1).2 (uZZu.react.codePair c p 3 s3).2 := bra_square (p := p) (m := uZZu.proc.massNum (uZZu.rho c)) (uZZu.mass_eq hc 1) (uZZu.mass_eq hc 3) (.inl ⟨m1, rfl⟩) (.inl ⟨m3, rfl⟩)
    have v5z0x2 : (uZZu.N c p).v 5 [spinOf s0, spinOf a2] = ab (uZZu.react.codePair c p 0 s0).1 (uZZu.react.codePair c p 2 a2).1 := bra_angle (p := p) (m := uZZu.proc.massNum (uZZu.rho c)) (uZZu.mass_eq hc 0) (uZZu.mass_eq hc 2) (.inl ⟨m0, rfl⟩) (.inl ⟨m2, rfl⟩)
    have v12y2y1 : (uZZu.N c p).v 12 [spinOf b2, spinOf b1] = mb (uZZu.react.codePair c p 2 b2).2 (p 0) (uZZu.react.codePair c p 1 b1).1 := bra_mid_square (p := p) (m := uZZu.proc.massNum (uZZu.rho c)) (uZZu.mass_eq hc 2) (uZZu.mass_eq hc 1) (.inl ⟨m2, rfl⟩) (.inl ⟨m1, rfl⟩)
    have v9x1z3 : (uZZu.N c p).v 9 [spinOf a1, spinOf s3] = ab (uZZu.react.codePair c p 1 a1).1 (uZZu.react.codePair c p 3 s3).1 := bra_angle (p := p) (m := uZZu.proc.massNum (uZZu.rho c)) (uZZu.mass_eq hc 1) (uZZu.mass_eq hc 3) (.inl ⟨m1, rfl⟩) (.inl ⟨m3, rfl⟩)
    have v4z0x2 : (uZZu.N c p).v 4 [spinOf s0, spinOf a2] = sb (uZZu.react.codePair c p 0 s0).2 (uZZu.react.codePair c p 2 a2).2 := bra_square (p := p) (m := uZZu.proc.massNum (uZZu.rho c)) (uZZu.mass_eq hc 0) (uZZu.mass_eq hc 2) (.inl ⟨m0, rfl⟩) (.inl ⟨m2, rfl⟩)
    have v2y1y2 : (uZZu.N c p).v 2 [spinOf b1, spinOf b2] = sb (uZZu.react.codePair c p 1 b1).2 (uZZu.react.codePair c p 2 b2).2 := bra_square (p := p) (m := uZZu.proc.massNum (uZZu.rho c)) (uZZu.mass_eq hc 1) (uZZu.mass_eq hc 2) (.inl ⟨m1, rfl⟩) (.inl ⟨m2, rfl⟩)
    have v13y1y2 : (uZZu.N c p).v 13 [spinOf b1, spinOf b2] = mb (uZZu.react.codePair c p 1 b1).2 (p 0) (uZZu.react.codePair c p 2 b2).1 := bra_mid_square (p := p) (m := uZZu.proc.massNum (uZZu.rho c)) (uZZu.mass_eq hc 1) (uZZu.mass_eq hc 2) (.inl ⟨m1, rfl⟩) (.inl ⟨m2, rfl⟩)
    have v6x2z3 : (uZZu.N c p).v 6 [spinOf a2, spinOf s3] = sb (uZZu.react.codePair c p 2 a2).2 (uZZu.react.codePair c p 3 s3).2 := bra_square (p := p) (m := uZZu.proc.massNum (uZZu.rho c)) (uZZu.mass_eq hc 2) (uZZu.mass_eq hc 3) (.inl ⟨m2, rfl⟩) (.inl ⟨m3, rfl⟩)
    have v1z0x1 : (uZZu.N c p).v 1 [spinOf s0, spinOf a1] = ab (uZZu.react.codePair c p 0 s0).1 (uZZu.react.codePair c p 1 a1).1 := bra_angle (p := p) (m := uZZu.proc.massNum (uZZu.rho c)) (uZZu.mass_eq hc 0) (uZZu.mass_eq hc 1) (.inl ⟨m0, rfl⟩) (.inl ⟨m1, rfl⟩)
    have v0z0x1 : (uZZu.N c p).v 0 [spinOf s0, spinOf a1] = sb (uZZu.react.codePair c p 0 s0).2 (uZZu.react.codePair c p 1 a1).2 := bra_square (p := p) (m := uZZu.proc.massNum (uZZu.rho c)) (uZZu.mass_eq hc 0) (uZZu.mass_eq hc 1) (.inl ⟨m0, rfl⟩) (.inl ⟨m1, rfl⟩)
    have v7x2z3 : (uZZu.N c p).v 7 [spinOf a2, spinOf s3] = ab (uZZu.react.codePair c p 2 a2).1 (uZZu.react.codePair c p 3 s3).1 := bra_angle (p := p) (m := uZZu.proc.massNum (uZZu.rho c)) (uZZu.mass_eq hc 2) (uZZu.mass_eq hc 3) (.inl ⟨m2, rfl⟩) (.inl ⟨m3, rfl⟩)
    simp only [uZZu.term, uZZu.form, v2x1x2, v3y1y2, v10z0z3, v11z0z3, v8x1z3, v5z0x2, v12y2y1, v9x1z3, v4z0x2, v2y1y2, v13y1y2, v6x2z3, v1z0x1, v0z0x1, v7x2z3]
    push_cast
    ring
  show meaning (uZZu.N c p) .r Cls.uZZu.methods Cls.uZZu.amp2 [] = _
  have lc : uZZu.react.lineColours 3 0 = 3 := by decide +kernel
  have s0 : uZZu.react.states 0 = 6 := by decide
  have s1 : uZZu.react.states 1 = 3 := by decide
  have sy : uZZu.react.symmetry = 1 := by decide
  have p0 : uZZu.react.spins 0 = {0, 1} := rfl
  have p1 : uZZu.react.spins 1 = Finset.univ := rfl
  have p2 : uZZu.react.spins 2 = Finset.univ := rfl
  have p3 : uZZu.react.spins 3 = {0, 1} := rfl
  rw [uZZu.value, uZZu.react.squared_line he ht hB (noGluon_of hM) hs h0 (fun _ b _ hb _ => (boson_pos hc hh hb).ne') (uZZu.react.gauge_massive (massive_of hM)) (E := uZZu.react.codeVec c p) (fun n b hl => uZZu.react.codeVec_polarised hs h0 hl (massive_of hM n b hl) (fun _ => (boson_pos hc hh (massive_of hM n b hl)).ne')) hu, sum_colours, lc, s0, s1, sy]
  simp only [sumV_sum, sumJ_sum, am, norm_mul, norm_neg, norm_one, one_mul, p0, p1, p2, p3, Finset.sum_singleton, sum_two, Matrix.cons_val_zero, Matrix.cons_val_one, Matrix.cons_val, two_castSucc]
  try simp only [← Finset.mul_sum]
  push_cast
  first | ring1 | ring_nf

/-! ### nZZn -/

/-- what the methods of the class see -/
noncomputable abbrev nZZn.N [FPEnv] (c : Constants) (p : Nat → V4 ℝ) : Env := nZZn.proc.env (nZZn.rho c) p
/-- the term that `amp` adds for a choice of spinors (SM/nZZn.cpp) -/
noncomputable def nZZn.term (N : Env) (w : ℝ) (x : ℂ) (a1 b1 a2 b2 : Int) : ℂ :=
  ((x + ((((((((-w) * N.r 7) : ℝ) : ℂ) * N.v 1 [a1]) * N.v 2 [a2]) * ((((N.r 4 : ℝ) : ℂ) * N.v 4 [b1, b2]) + N.v 5 [b2, b1])) / N.c 0)) + ((((((((-w) * N.r 7) : ℝ) : ℂ) * N.v 0 [a2]) * N.v 3 [a1]) * ((((N.r 4 : ℝ) : ℂ) * N.v 4 [b1, b2]) + N.v 6 [b1, b2])) / N.c 1))
/-- the same with spinors in place of their spins -/
noncomputable def nZZn.form (N : Env) (p : Nat → V4 ℝ) (z0 x1 y1 x2 y2 z3 : Pair) : ℂ :=
  ((0 + ((((((((-((1 : Nat) : ℝ)) * N.r 7) : ℝ) : ℂ) * (sb x1.2 z3.2)) * (ab z0.1 x2.1)) * ((((N.r 4 : ℝ) : ℂ) * (ab y1.1 y2.1)) + (mb y2.2 (p 0) y1.1))) / N.c 0)) + ((((((((-((1 : Nat) : ℝ)) * N.r 7) : ℝ) : ℂ) * (sb x2.2 z3.2)) * (ab z0.1 x1.1)) * ((((N.r 4 : ℝ) : ℂ) * (ab y1.1 y2.1)) + (mb y1.2 (p 0) y2.1))) / N.c 1))
theorem nZZn.key {c : Constants} {p : Nat → V4 ℝ} {N : Env} (hc : c.Physical) (hb : Balanced p) (r4 : N.r 4 = (c.MW / c.CW)) (r7 : N.r 7 = ((c.e * c.e) / ((((((2 : Nat) : ℝ) * c.MW) * c.MW) * c.SW) * c.SW))) (d0 : ((msq (plus (p 0) (backward (p 2))) - c.mass .ne ^ 2 : ℝ) : ℂ) = N.c 0) (n0 : N.c 0 ≠ 0) (d1 : ((msq (plus (p 0) (p 1)) - c.mass .ne ^ 2 : ℝ) : ℂ) = N.c 1) (n1 : N.c 1 ≠ 0) {z0 z1 z2 z3 : Pair} (b0 : Bold (p 0) (c.mass .ne) z0) (b1 : Bold (p 1) c.MZ z1) (b2 : Bold (p 2) c.MZ z2) (b3 : Bold (p 3) (c.mass .ne) z3) (q1 : msq (p 1) = c.MZ ^ 2) (q2 : msq (p 2) = c.MZ ^ 2) :
    nZZn.form N p z0 z1 z1 z2 z2 z3 = ((2 / (c.MZ * c.MZ) : ℝ) : ℂ) * nZZn.react.bare c p 3 0 1 2 z3 z0 (pv z1.1 z1.2) (pv z2.1 z2.2) := by
  rw [nZZn.react.bare_parts c p (i := 3) (j := 0) (a := 1) (b := 2) (x := .z) (y := .z) (k := (p 1)) (k' := (backward (p 2))) (fun _ => rfl) (fun _ => rfl) (f := .ne) (g := .ne) rfl rfl (l := (p 0)) rfl (e := 1) (e' := 1) (if_neg Bool.false_ne_true) (if_neg Bool.false_ne_true)]
  rw [compton_vv (f := .ne) (x := .ne) (g := .ne) (h := (rfl : Spec.after .z Flavour.ne = some Flavour.ne)) (h' := (rfl : Spec.after .z Flavour.ne = some Flavour.ne)) (ha := by simp) (hb := by simp)]
  rw [compton_vv (f := .ne) (x := .ne) (g := .ne) (h := (rfl : Spec.after .z Flavour.ne = some Flavour.ne)) (h' := (rfl : Spec.after .z Flavour.ne = some Flavour.ne)) (ha := by simp) (hb := by simp)]
  have an := annihilation_neutral c (1) (1) z3.1 z3.2 z0.1 z0.2 ⟨.z, (p 1), pv z1.1 z1.2⟩ ⟨.z, (backward (p 2)), pv z2.1 z2.2⟩ .ne
  dsimp only at an
  rw [an, nZZn.form]
  clear an
  have Y1 := b1; have Q1 := q1
  have Y2 := b2.back; have Q2 : msq (backward (p 2)) = (-c.MZ) ^ 2 := by rw [msq_backward, q2, neg_sq]
  rw [lineV_massless (hx := (rfl : Boson.massive .photon = false))]
  rw [lineV_massive (hx := (rfl : Boson.massive .z = true))]
  simp only [toHiggs, toVector, higgs2, gauge3, Boson.anti, Constants.bosonMass, Constants.bosonWidth, d0, d1, reduceCtorEq, and_self, and_true, and_false, and_true, if_true, if_false, Complex.ofReal_zero, zero_smul, zero_mul, mul_zero, zero_div, neg_zero, add_zero, zero_add, lineH, lineV_zero, contract_zero, lineV_smul, contract_smul, lineV_yangMills Y1 Y2, four_yangMills Y1 Y2 Q1 Q2, ym, lineV_pv, lineV_four, contract_four_pv, contract_pv, mb_plus, mb_backward]
  simp only [b0.mb_left, b0.mb_right, b1.mb_left, b1.mb_right, b2.mb_left, b2.mb_right, b3.mb_left, b3.mb_right, mb_three hb z0.2 z0.1, mb_three hb z0.2 z1.1, mb_three hb z0.2 z2.1, mb_two hb z0.2 z3.1, mb_three hb z1.2 z0.1, mb_three hb z1.2 z1.1, mb_three hb z1.2 z2.1, mb_two hb z1.2 z3.1, mb_three hb z2.2 z0.1, mb_three hb z2.2 z1.1, mb_three hb z2.2 z2.1, mb_one hb z2.2 z3.1, mb_two hb z3.2 z0.1, mb_two hb z3.2 z1.1, mb_one hb z3.2 z2.1, mb_two hb z3.2 z3.1, ab_self, sb_self]
  have hne : c.mass .ne = 0 := hc.neutrino _
  simp only [ab_swap z0.1 z1.1, sb_swap z0.2 z1.2, ab_swap z0.1 z2.1, sb_swap z0.2 z2.2, ab_swap z0.1 z3.1, sb_swap z0.2 z3.2, ab_swap z1.1 z2.1, sb_swap z1.2 z2.2, ab_swap z1.1 z3.1, sb_swap z1.2 z3.2, ab_swap z2.1 z3.1, sb_swap z2.2 z3.2, r4, r7, Constants.hL, Constants.hR, Constants.gL, Constants.gR, Constants.yuk, Constants.invVev, Flavour.charge_ne, Flavour.isospin_ne, hne, ← c.mz]
  have xMW : (c.MW : ℂ) ≠ 0 := by exact_mod_cast hc.MW
  have xSW : (c.SW : ℂ) ≠ 0 := by exact_mod_cast hc.SW
  have xCW : (c.CW : ℂ) ≠ 0 := by exact_mod_cast hc.CW
  have x2 : ((√2 : ℝ) : ℂ) ≠ 0 := by exact_mod_cast (Real.sqrt_pos.2 two_pos).ne'
  have x22 : ((√2 : ℝ) : ℂ) ^ 2 = 2 := by rw [← Complex.ofReal_pow, Real.sq_sqrt two_pos.le]; norm_num
  push_cast
  field_simp
  first | ring1 | (ring_nf; simp only [x22]; ring1)
set_option maxRecDepth 8000 in
theorem nZZn.amp2_eq (N : Env) (f : Nat → List Int → ℂ) : Cls.nZZn.m_amp2.mean N f .r [] =
    ((sumV (fun x a => (sumV (fun x b => (x + (‖(f 0 [a, b])‖ ^ 2))) x)) ((0 : Nat) : ℝ)) / ((3 : Nat) : ℝ)) := by rfl
set_option maxRecDepth 8000 in
theorem nZZn.value (N : Env) : meaning N .r Cls.nZZn.methods Cls.nZZn.amp2 [] =
    ((sumV (fun x a => (sumV (fun x b => (x + (‖(Cls.nZZn.m_amp.mean N (callMean N []) .c [a, b])‖ ^ 2))) x)) ((0 : Nat) : ℝ)) / ((3 : Nat) : ℝ)) :=
  nZZn.amp2_eq N (callMean N [Cls.nZZn.m_amp])
set_option maxRecDepth 8000 in
theorem nZZn.term_lin (N : Env) (w : ℝ) (x : ℂ) (a1 b1 a2 b2 : Int) : nZZn.term N w x a1 b1 a2 b2 = x + (w : ℂ) * nZZn.term N 1 0 a1 b1 a2 b2 := by
  simp only [nZZn.term]; push_cast; ring
theorem nZZn.amp_eq (N : Env) (f : Nat → List Int → ℂ) (t1 t2 : Fin 3) : Cls.nZZn.m_amp.mean N f .c [spinV t1, spinV t2] = comb t1 (fun a1 b1 => comb t2 (fun a2 b2 => nZZn.term N 1 0 (spinOf a1) (spinOf b1) (spinOf a2) (spinOf b2))) := by
  refine (amp_mean N f (m := 2) (K := 6) (G := fun i => nZZn.term N 1 0 (i 2) (i 3) (i 4) (i 5)) (fun l => ?_) (fun i i' h => ?_) rfl (by decide) (by decide) (by decide) (by decide) (by decide)).trans ?_
  · refine ⟨_, rfl, ?_⟩; exact ⟨rfl, rfl, nZZn.term_lin ..⟩
  · simp only [h 2 (by decide), h 3 (by decide), h 4 (by decide), h 5 (by decide)]
  · show amp' _ [spinV t1, spinV t2] = _
    simp only [amp'_comb, amp'_nil]
    rfl
theorem nZZn.form_x1 (N : Env) (p : Nat → V4 ℝ) (z0 y1 x2 y2 z3 x y : Pair) : nZZn.form N p z0 (x + y) y1 x2 y2 z3 = nZZn.form N p z0 x y1 x2 y2 z3 + nZZn.form N p z0 y y1 x2 y2 z3 := by
  simp only [nZZn.form, Prod.fst_add, Prod.snd_add, ab_add_left, ab_add_right, sb_add_left, sb_add_right, mb_add_left, mb_add_right]
  ring
theorem nZZn.form_y1 (N : Env) (p : Nat → V4 ℝ) (z0 x1 x2 y2 z3 x y : Pair) : nZZn.form N p z0 x1 (x + y) x2 y2 z3 = nZZn.form N p z0 x1 x x2 y2 z3 + nZZn.form N p z0 x1 y x2 y2 z3 := by
  simp only [nZZn.form, Prod.fst_add, Prod.snd_add, ab_add_left, ab_add_right, sb_add_left, sb_add_right, mb_add_left, mb_add_right]
  ring
theorem nZZn.form_x2 (N : Env) (p : Nat → V4 ℝ) (z0 x1 y1 y2 z3 x y : Pair) : nZZn.form N p z0 x1 y1 (x + y) y2 z3 = nZZn.form N p z0 x1 y1 x y2 z3 + nZZn.form N p z0 x1 y1 y y2 z3 := by
  simp only [nZZn.form, Prod.fst_add, Prod.snd_add, ab_add_left, ab_add_right, sb_add_left, sb_add_right, mb_add_left, mb_add_right]
  ring
theorem nZZn.form_y2 (N : Env) (p : Nat → V4 ℝ) (z0 x1 y1 x2 z3 x y : Pair) : nZZn.form N p z0 x1 y1 x2 (x + y) z3 = nZZn.form N p z0 x1 y1 x2 x z3 + nZZn.form N p z0 x1 y1 x2 y z3 := by
  simp only [nZZn.form, Prod.fst_add, Prod.snd_add, ab_add_left, ab_add_right, sb_add_left, sb_add_right, mb_add_left, mb_add_right]
  ring
theorem nZZn.form_zero0 (N : Env) (p : Nat → V4 ℝ) {z0 : Pair} (x1 y1 x2 y2 z3 : Pair) (h : z0.1 = 0) : nZZn.form N p z0 x1 y1 x2 y2 z3 = 0 := by
  simp [nZZn.form, h, ab_zero, sb_zero, mb_zero]
theorem nZZn.form_zero3 (N : Env) (p : Nat → V4 ℝ) {z3 : Pair} (z0 x1 y1 x2 y2 : Pair) (h : z3.2 = 0) : nZZn.form N p z0 x1 y1 x2 y2 z3 = 0 := by
  simp [nZZn.form, h, ab_zero, sb_zero, mb_zero]

theorem nZZn.mass_eq {c : Constants} (hc : c.Physical) (i : Fin 4) : nZZn.proc.massNum (nZZn.rho c) i = nZZn.react.mass c i := by
  fin_cases i <;> first | rfl | exact Nat.cast_zero.trans (hc.neutrino _).symm | (show c.MW / √(((1 : Nat) : ℝ) - c.SW * c.SW) = c.MZ; rw [c.root, c.mz])

variable [FPEnv] in
theorem nZZn.agrees : nZZn.Agrees := by
  refine agrees_of (D := [1, 2]) (E := [2]) (by simp [all, nZZn]) (by decide +kernel) (by decide) (by decide +kernel) (fun c hc hh => ⟨List.forall_mem_cons.2 ⟨hc.MW, List.forall_mem_cons.2 ⟨hc.SW, List.forall_mem_nil _⟩⟩, List.forall_mem_cons.2 ⟨hc.SW_lt, List.forall_mem_nil _⟩⟩) (fun c hc i => nZZn.mass_eq hc i) (by decide +kernel) ?_
  intro c p u ε hc hh hw h0 hs hb hr hu
  have he : nZZn.react.ends = [3] := by decide
  have ht : nZZn.react.starts = [0] := by decide
  have hB : nZZn.react.bosons = [1, 2] := by decide
  have hM : nZZn.react.allMassive = true := by decide
  obtain ⟨f1, f2, f3⟩ := nZZn.react.regular_line he ht hB hr
  have r4 : (nZZn.N c p).r 4 = (c.MW / √((((1 : Nat) : ℝ) - (c.SW * c.SW)))) := rfl
  simp only [c.root] at r4
  have r7 : (nZZn.N c p).r 7 = ((c.e * c.e) / ((((((2 : Nat) : ℝ) * c.MW) * c.MW) * c.SW) * c.SW)) := rfl
  have c0 : (nZZn.N c p).c 0 = poleDist ((0 : Nat) : ℝ) ((0 : Nat) : ℝ) ((VExp.sub 0 2).sum p) := rfl
  rw [Nat.cast_zero, pole_fermion (msq_t hb (plus (p 0) (backward (p 2))) (by simp))] at c0
  have d0 : ((msq (plus (p 0) (backward (p 2))) - c.mass .ne ^ 2 : ℝ) : ℂ) = (nZZn.N c p).c 0 := by rw [c0, show c.mass .ne = 0 from hc.neutrino _]
  have n0 : (nZZn.N c p).c 0 ≠ 0 := by rw [← d0]; exact_mod_cast f2 .ne rfl rfl
  have c1 : (nZZn.N c p).c 1 = poleDist ((0 : Nat) : ℝ) ((0 : Nat) : ℝ) ((VExp.add 0 1).sum p) := rfl
  rw [Nat.cast_zero, pole_fermion (msq_s hb (plus (p 0) (p 1)) (by simp))] at c1
  have d1 : ((msq (plus (p 0) (p 1)) - c.mass .ne ^ 2 : ℝ) : ℂ) = (nZZn.N c p).c 1 := by rw [c1, show c.mass .ne = 0 from hc.neutrino _]
  have n1 : (nZZn.N c p).c 1 ≠ 0 := by rw [← d1]; exact_mod_cast f1 .ne rfl rfl
  have m0 : nZZn.react.mass c 0 = 0 := hc.neutrino _
  have m1 : nZZn.react.mass c 1 ≠ 0 := (leg_pos hc hh (by decide)).ne'
  have m2 : nZZn.react.mass c 2 ≠ 0 := (leg_pos hc hh (by decide)).ne'
  have m3 : nZZn.react.mass c 3 = 0 := hc.neutrino _
  have hd : nZZn.proc.divides = [(Ty.c, 0), (Ty.c, 1)] := by decide +kernel
  refine ⟨fun n hn => ?_, fun n hn => ?_, ?_⟩
  · simp [hd] at hn
  · simp [hd] at hn
    rcases hn with rfl | rfl
    · exact n0
    · exact n1
  have st : ∀ {z0 z3 : Pair} (b0 : Bold (p 0) (nZZn.react.mass c 0) z0) (b3 : Bold (p 3) (nZZn.react.mass c 3) z3) (t1 t2 : Fin 3), comb t1 (fun a1 b1 => comb t2 (fun a2 b2 => nZZn.form (nZZn.N c p) p z0 (nZZn.react.codePair c p 1 a1) (nZZn.react.codePair c p 1 b1) (nZZn.react.codePair c p 2 a2) (nZZn.react.codePair c p 2 b2) z3)) = 1 * nZZn.react.bare c p 3 0 1 2 z3 z0 (nZZn.react.codeVec c p 1 t1) (nZZn.react.codeVec c p 2 t2) := by
    intro z0 z3 b0 b3 t1 t2
    refine two_vectors (p := p 1) (p' := p 2) (m := nZZn.react.mass c 1) (m' := nZZn.react.mass c 2) (fun s => nZZn.react.codePair_bold hs h0 1 s) (fun s => nZZn.react.codePair_bold hs h0 2 s) (B := fun x y x' y' => nZZn.form (nZZn.N c p) p z0 x y x' y' z3) (G := fun E F => nZZn.react.bare c p 3 0 1 2 z3 z0 E F) (fun _ _ _ _ _ => ?_) (fun _ _ _ _ _ => ?_) (fun _ _ _ _ _ => ?_) (fun _ _ _ _ _ => ?_) (fun F => nZZn.react.bare_lin₁ c p _ _ _ (by decide)) (fun E => nZZn.react.bare_lin₂ c p _ _ _ (by decide)) 1 (fun z1 z2 b1 b2 => ?_) t1 t2
    · exact nZZn.form_x1 ..
    · exact nZZn.form_y1 ..
    · exact nZZn.form_x2 ..
    · exact nZZn.form_y2 ..
    · rw [one_mul]; exact nZZn.key hc hb r4 r7 d0 n0 d1 n1 b0 b1 b2 b3 (onShell_msq (hs 1)) (onShell_msq (hs 2)) 
  have am : ∀ (t1 t2 : Fin 3), Cls.nZZn.m_amp.mean (nZZn.N c p) (callMean (nZZn.N c p) []) .c [spinV t1, spinV t2] = 1 * nZZn.react.bare c p 3 0 1 2 (nZZn.react.codePair c p 3 1) (nZZn.react.codePair c p 0 0) (nZZn.react.codeVec c p 1 t1) (nZZn.react.codeVec c p 2 t2) := by
    intro t1 t2
    rw [nZZn.amp_eq, ← st (nZZn.react.codePair_bold hs h0 0 0) (nZZn.react.codePair_bold hs h0 3 1) t1 t2]
    refine congrArg (comb t1) (funext fun a1 => funext fun b1 => ?_)
    refine congrArg (comb t2) (funext fun a2 => funext fun b2 => ?_)
    have v1x1z3 : (nZZn.N c p).v 1 [spinOf a1] = sb (nZZn.react.codePair c p 1 a1).2 (nZZn.react.codePair c p 3 1).2 := bra_square (p := p) (m := nZZn.proc.massNum (nZZn.rho c)) (nZZn.mass_eq hc 1) (nZZn.mass_eq hc 3) (.inl ⟨m1, rfl⟩) (.inr ⟨m3, rfl⟩)
    have v2z0x2 : (nZZn.N c p).v 2 [spinOf a2] = ab (nZZn.react.codePair c p 0 0).1 (nZZn.react.codePair c p 2 a2).1 := bra_angle (p := p) (m := nZZn.proc.massNum (nZZn.rho c)) (nZZn.mass_eq hc 0) (nZZn.mass_eq hc 2) (.inr ⟨m0, rfl⟩) (.inl ⟨m2, rfl⟩)
    have v4y1y2 : (nZZn.N c p).v 4 [spinOf b1, spinOf b2] = ab (nZZn.react.codePair c p 1 b1).1 (nZZn.react.codePair c p 2 b2).1 := bra_angle (p := p) (m := nZZn.proc.massNum (nZZn.rho c)) (nZZn.mass_eq hc 1) (nZZn.mass_eq hc 2) (.inl ⟨m1, rfl⟩) (.inl ⟨m2, rfl⟩)
    have v5y2y1 : (nZZn.N c p).v 5 [spinOf b2, spinOf b1] = mb (nZZn.react.codePair c p 2 b2).2 (p 0) (nZZn.react.codePair c p 1 b1).1 := bra_mid_square (p := p) (m := nZZn.proc.massNum (nZZn.rho c)) (nZZn.mass_eq hc 2) (nZZn.mass_eq hc 1) (.inl ⟨m2, rfl⟩) (.inl ⟨m1, rfl⟩)
    have v0x2z3 : (nZZn.N c p).v 0 [spinOf a2] = sb (nZZn.react.codePair c p 2 a2).2 (nZZn.react.codePair c p 3 1).2 := bra_square (p := p) (m := nZZn.proc.massNum (nZZn.rho c)) (nZZn.mass_eq hc 2) (nZZn.mass_eq hc 3) (.inl ⟨m2, rfl⟩) (.inr ⟨m3, rfl⟩)
    have v3z0x1 : (nZZn.N c p).v 3 [spinOf a1] = ab (nZZn.react.codePair c p 0 0).1 (nZZn.react.codePair c p 1 a1).1 := bra_angle (p := p) (m := nZZn.proc.massNum (nZZn.rho c)) (nZZn.mass_eq hc 0) (nZZn.mass_eq hc 1) (.inr ⟨m0, rfl⟩) (.inl ⟨m1, rfl⟩)
    have v6y1y2 : (nZZn.N c p).v 6 [spinOf b1, spinOf b2] = mb (nZZn.react.codePair c p 1 b1).2 (p 0) (nZZn.react.codePair c p 2 b2).1 := bra_mid_square (p := p) (m := nZZn.proc.massNum (nZZn.rho c)) (nZZn.mass_eq hc 1) (nZZn.mass_eq hc 2) (.inl ⟨m1, rfl⟩) (.inl ⟨m2, rfl⟩)
    simp only [nZZn.term, nZZn.form, v1x1z3, v2z0x2, v4y1y2, v5y2y1, v0x2z3, v3z0x1, v6y1y2]
    push_cast
    ring
  have w0 : ∀ (s : Fin 2) (t1 t2 : Fin 3), nZZn.react.bare c p 3 0 1 2 (nZZn.react.codePair c p 3 s) (nZZn.react.codePair c p 0 1) (nZZn.react.codeVec c p 1 t1) (nZZn.react.codeVec c p 2 t2) = 0 := by
    intro s t1 t2
    have e := st (nZZn.react.codePair_bold hs h0 0 1) (nZZn.react.codePair_bold hs h0 3 s) t1 t2
    rw [show comb t1 (fun a1 b1 => comb t2 (fun a2 b2 => nZZn.form (nZZn.N c p) p (nZZn.react.codePair c p 0 1) (nZZn.react.codePair c p 1 a1) (nZZn.react.codePair c p 1 b1) (nZZn.react.codePair c p 2 a2) (nZZn.react.codePair c p 2 b2) (nZZn.react.codePair c p 3 s))) = 0 by
      simp only [nZZn.form_zero0 _ _ _ _ _ _ _ (show ((nZZn.react.codePair c p 0 1)).1 = 0 from legA_zero m0 rfl)]; exact comb_zero_zero ..] at e
    exact (one_mul _).symm.trans e.symm
  have w3 : ∀ (s : Fin 2) (t1 t2 : Fin 3), nZZn.react.bare c p 3 0 1 2 (nZZn.react.codePair c p 3 0) (nZZn.react.codePair c p 0 s) (nZZn.react.codeVec c p 1 t1) (nZZn.react.codeVec c p 2 t2) = 0 := by
    intro s t1 t2
    have e := st (nZZn.react.codePair_bold hs h0 0 s) (nZZn.react.codePair_bold hs h0 3 0) t1 t2
    rw [show comb t1 (fun a1 b1 => comb t2 (fun a2 b2 => nZZn.form (nZZn.N c p) p (nZZn.react.codePair c p 0 s) (nZZn.react.codePair c p 1 a1) (nZZn.react.codePair c p 1 b1) (nZZn.react.codePair c p 2 a2) (nZZn.react.codePair c p 2 b2) (nZZn.react.codePair c p 3 0))) = 0 by
      simp only [nZZn.form_zero3 _ _ _ _ _ _ _ (show ((nZZn.react.codePair c p 3 0)).2 = 0 from legS_zero m3 rfl)]; exact comb_zero_zero ..] at e
    exact (one_mul _).symm.trans e.symm
  show meaning (nZZn.N c p) .r Cls.nZZn.methods Cls.nZZn.amp2 [] = _
  have lc : nZZn.react.lineColours 3 0 = 1 := by decide +kernel
  have s0 : nZZn.react.states 0 = 1 := by decide
  have s1 : nZZn.react.states 1 = 3 := by decide
  have sy : nZZn.react.symmetry = 1 := by decide
  have p0 : nZZn.react.spins 0 = {0, 1} := rfl
  have p1 : nZZn.react.spins 1 = Finset.univ := rfl
  have p2 : nZZn.react.spins 2 = Finset.univ := rfl
  have p3 : nZZn.react.spins 3 = {0, 1} := rfl
  rw [nZZn.value, nZZn.react.squared_line he ht hB (noGluon_of hM) hs h0 (fun _ b _ hb _ => (boson_pos hc hh hb).ne') (nZZn.react.gauge_massive (massive_of hM)) (E := nZZn.react.codeVec c p) (fun n b hl => nZZn.react.codeVec_polarised hs h0 hl (massive_of hM n b hl) (fun _ => (boson_pos hc hh (massive_of hM n b hl)).ne')) hu, sum_colours, lc, s0, s1, sy]
  simp only [sumV_sum, sumJ_sum, am, norm_mul, norm_neg, norm_one, one_mul, p0, p1, p2, p3, Finset.sum_singleton, sum_two, Matrix.cons_val_zero, Matrix.cons_val_one, Matrix.cons_val, two_castSucc]
  simp only [Fin.sum_univ_two, w0, w3, norm_zero]
  try simp only [← Finset.mul_sum]
  push_cast
  first | ring1 | ring_nf

end Spinas.SM.Rows
