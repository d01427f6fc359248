import Verif.SM.BosonRows

/-! Fermions and two Z bosons. Generated by tools/bosons/emit.py: for each class its amplitude as a formula in spinors, and the proof that `amp2` is the squared amplitude of the Feynman rules. -/

set_option linter.unusedSimpArgs false
set_option linter.unusedVariables false
set_option linter.unreachableTactic false
set_option linter.unusedTactic false

namespace Spinas.SM.Rows
open Spec Spec.Reaction Props XR Matrix BRow

/-! ### eeZZ -/

/-- what the methods of the class see -/
noncomputable abbrev eeZZ.N [FPEnv] (c : Constants) (p : Nat → V4 ℝ) : Env := eeZZ.proc.env (eeZZ.rho c) p
/-- the term that `amp` adds for a choice of spinors (SM/eeZZ.cpp) -/
noncomputable def eeZZ.term (N : Env) (w : ℝ) (x : ℂ) (j1 j2 a2 b2 a3 b3 : Int) : ℂ :=
  (((x + (((((((w * N.r 11) : ℝ) : ℂ) * N.v 6 [a2, a3]) * N.v 7 [b2, b3]) * (N.v 0 [j1, j2] + N.v 1 [j1, j2])) / N.c 0)) + (((((((((((w * N.r 10) * N.r 12) * N.r 12) : ℝ) : ℂ) * N.v 8 [j2, a3]) * N.v 5 [j1, a2]) * ((((N.r 7 : ℝ) : ℂ) * N.v 7 [b2, b3]) - N.v 12 [b2, b3])) / N.c 1) + (((((((((w * N.r 10) * N.r 13) * N.r 13) : ℝ) : ℂ) * N.v 9 [j2, a3]) * N.v 4 [j1, a2]) * ((((N.r 7 : ℝ) : ℂ) * N.v 6 [b2, b3]) - N.v 13 [b3, b2])) / N.c 1)) - ((((((((w * N.r 10) * N.r 12) * N.r 13) * N.r 1) : ℝ) : ℂ) * (((N.v 4 [j1, a2] * N.v 8 [j2, a3]) * N.v 7 [b2, b3]) + ((N.v 5 [j1, a2] * N.v 9 [j2, a3]) * N.v 6 [b2, b3]))) / N.c 1))) + ((((((((((((-w) * N.r 10) * N.r 12) * N.r 12) : ℝ) : ℂ) * N.v 2 [j2, a2]) * N.v 11 [j1, a3]) * ((((N.r 7 : ℝ) : ℂ) * N.v 7 [b2, b3]) + N.v 13 [b3, b2])) / N.c 2) - (((((((((w * N.r 10) * N.r 13) * N.r 13) : ℝ) : ℂ) * N.v 10 [j1, a3]) * N.v 3 [j2, a2]) * ((((N.r 7 : ℝ) : ℂ) * N.v 6 [b2, b3]) + N.v 12 [b2, b3])) / N.c 2)) + ((((((((w * N.r 10) * N.r 12) * N.r 13) * N.r 1) : ℝ) : ℂ) * (((N.v 10 [j1, a3] * N.v 2 [j2, a2]) * N.v 7 [b2, b3]) + ((N.v 11 [j1, a3] * N.v 3 [j2, a2]) * N.v 6 [b2, b3]))) / N.c 2)))
/-- the same with spinors in place of their spins -/
noncomputable def eeZZ.form (N : Env) (p : Nat → V4 ℝ) (z0 z1 x2 y2 x3 y3 : Pair) : ℂ :=
  (((0 + (((((((((1 : Nat) : ℝ) * N.r 11) : ℝ) : ℂ) * (sb x2.2 x3.2)) * (ab y2.1 y3.1)) * ((sb z0.2 z1.2) + (ab z0.1 z1.1))) / N.c 0)) + (((((((((((((1 : Nat) : ℝ) * N.r 10) * N.r 12) * N.r 12) : ℝ) : ℂ) * (sb z1.2 x3.2)) * (ab z0.1 x2.1)) * ((((N.r 7 : ℝ) : ℂ) * (ab y2.1 y3.1)) - (mb y2.2 (p 0) y3.1))) / N.c 1) + (((((((((((1 : Nat) : ℝ) * N.r 10) * N.r 13) * N.r 13) : ℝ) : ℂ) * (ab z1.1 x3.1)) * (sb z0.2 x2.2)) * ((((N.r 7 : ℝ) : ℂ) * (sb y2.2 y3.2)) - (mb y3.2 (p 0) y2.1))) / N.c 1)) - ((((((((((1 : Nat) : ℝ) * N.r 10) * N.r 12) * N.r 13) * N.r 1) : ℝ) : ℂ) * ((((sb z0.2 x2.2) * (sb z1.2 x3.2)) * (ab y2.1 y3.1)) + (((ab z0.1 x2.1) * (ab z1.1 x3.1)) * (sb y2.2 y3.2)))) / N.c 1))) + ((((((((((((-((1 : Nat) : ℝ)) * N.r 10) * N.r 12) * N.r 12) : ℝ) : ℂ) * (sb z1.2 x2.2)) * (ab z0.1 x3.1)) * ((((N.r 7 : ℝ) : ℂ) * (ab y2.1 y3.1)) + (mb y3.2 (p 0) y2.1))) / N.c 2) - (((((((((((1 : Nat) : ℝ) * N.r 10) * N.r 13) * N.r 13) : ℝ) : ℂ) * (sb z0.2 x3.2)) * (ab z1.1 x2.1)) * ((((N.r 7 : ℝ) : ℂ) * (sb y2.2 y3.2)) + (mb y2.2 (p 0) y3.1))) / N.c 2)) + ((((((((((1 : Nat) : ℝ) * N.r 10) * N.r 12) * N.r 13) * N.r 1) : ℝ) : ℂ) * ((((sb z0.2 x3.2) * (sb z1.2 x2.2)) * (ab y2.1 y3.1)) + (((ab z0.1 x3.1) * (ab z1.1 x2.1)) * (sb y2.2 y3.2)))) / N.c 2)))
theorem eeZZ.key {c : Constants} {p : Nat → V4 ℝ} {N : Env} (hc : c.Physical) (hb : Balanced p) (r1 : N.r 1 = (c.mass .e)) (r7 : N.r 7 = (c.MW / c.CW)) (r10 : N.r 10 = ((c.e * c.e) / ((((((2 : Nat) : ℝ) * c.MW) * c.MW) * c.SW) * c.SW))) (r11 : N.r 11 = (((c.e * c.e) * (c.mass .e)) / ((((((2 : Nat) : ℝ) * c.MW) * c.MW) * c.SW) * c.SW))) (r12 : N.r 12 = (((((2 : Nat) : ℝ) * c.SW) * c.SW) - ((1 : Nat) : ℝ))) (r13 : N.r 13 = ((((2 : Nat) : ℝ) * c.SW) * c.SW)) (d0 : pole c.MH c.WH (plus (backward (p 2)) (backward (p 3))) = N.c 0) (n0 : N.c 0 ≠ 0) (d1 : ((msq (plus (p 0) (backward (p 2))) - c.mass .e ^ 2 : ℝ) : ℂ) = N.c 1) (n1 : N.c 1 ≠ 0) (d2 : ((msq (plus (p 0) (backward (p 3))) - c.mass .e ^ 2 : ℝ) : ℂ) = N.c 2) (n2 : N.c 2 ≠ 0) {z0 z1 z2 z3 : Pair} (b0 : Bold (p 0) (c.mass .e) z0) (b1 : Bold (p 1) (c.mass .e) z1) (b2 : Bold (p 2) c.MZ z2) (b3 : Bold (p 3) c.MZ z3) (q2 : msq (p 2) = c.MZ ^ 2) (q3 : msq (p 3) = c.MZ ^ 2) :
    eeZZ.form N p z0 z1 z2 z2 z3 z3 = ((2 / (c.MZ * c.MZ) : ℝ) : ℂ) * eeZZ.react.bare c p 1 0 2 3 z1 z0 (pv z2.1 z2.2) (pv z3.1 z3.2) := by
  rw [eeZZ.react.bare_parts c p (i := 1) (j := 0) (a := 2) (b := 3) (x := .z) (y := .z) (k := (backward (p 2))) (k' := (backward (p 3))) (fun _ => rfl) (fun _ => rfl) (f := .e) (g := .e) rfl rfl (l := (p 0)) rfl (e := -1) (e' := 1) (if_pos rfl) (if_neg Bool.false_ne_true)]
  rw [compton_vv (f := .e) (x := .e) (g := .e) (h := (rfl : Spec.after .z Flavour.e = some Flavour.e)) (h' := (rfl : Spec.after .z Flavour.e = some Flavour.e)) (ha := by simp) (hb := by simp)]
  rw [compton_vv (f := .e) (x := .e) (g := .e) (h := (rfl : Spec.after .z Flavour.e = some Flavour.e)) (h' := (rfl : Spec.after .z Flavour.e = some Flavour.e)) (ha := by simp) (hb := by simp)]
  have an := annihilation_neutral c (-1) (1) z1.1 z1.2 z0.1 z0.2 ⟨.z, (backward (p 2)), pv z2.1 z2.2⟩ ⟨.z, (backward (p 3)), pv z3.1 z3.2⟩ .e
  dsimp only at an
  rw [an, eeZZ.form]
  clear an
  have Y2 := b2.back; have Q2 : msq (backward (p 2)) = (-c.MZ) ^ 2 := by rw [msq_backward, q2, neg_sq]
  have Y3 := b3.back; have Q3 : msq (backward (p 3)) = (-c.MZ) ^ 2 := by rw [msq_backward, q3, neg_sq]
  rw [lineV_massless (hx := (rfl : Boson.massive .photon = false))]
  rw [lineV_massive (hx := (rfl : Boson.massive .z = true))]
  simp only [toHiggs, toVector, higgs2, gauge3, Boson.anti, Constants.bosonMass, Constants.bosonWidth, d0, d1, d2, reduceCtorEq, and_self, and_true, and_false, and_true, if_true, if_false, Complex.ofReal_zero, zero_smul, zero_mul, mul_zero, zero_div, neg_zero, add_zero, zero_add, lineH, lineV_zero, contract_zero, lineV_smul, contract_smul, lineV_yangMills Y2 Y3, four_yangMills Y2 Y3 Q2 Q3, ym, lineV_pv, lineV_four, contract_four_pv, contract_pv, mb_plus, mb_backward]
  simp only [b0.mb_left, b0.mb_right, b1.mb_left, b1.mb_right, b2.mb_left, b2.mb_right, b3.mb_left, b3.mb_right, mb_three hb z0.2 z0.1, mb_three hb z0.2 z1.1, mb_three hb z0.2 z2.1, mb_two hb z0.2 z3.1, mb_three hb z1.2 z0.1, mb_three hb z1.2 z1.1, mb_three hb z1.2 z2.1, mb_two hb z1.2 z3.1, mb_three hb z2.2 z0.1, mb_three hb z2.2 z1.1, mb_three hb z2.2 z2.1, mb_one hb z2.2 z3.1, mb_two hb z3.2 z0.1, mb_two hb z3.2 z1.1, mb_one hb z3.2 z2.1, mb_two hb z3.2 z3.1, ab_self, sb_self]
  simp only [ab_swap z0.1 z1.1, sb_swap z0.2 z1.2, ab_swap z0.1 z2.1, sb_swap z0.2 z2.2, ab_swap z0.1 z3.1, sb_swap z0.2 z3.2, ab_swap z1.1 z2.1, sb_swap z1.2 z2.2, ab_swap z1.1 z3.1, sb_swap z1.2 z3.2, ab_swap z2.1 z3.1, sb_swap z2.2 z3.2, r1, r7, r10, r11, r12, r13, Constants.hL, Constants.hR, Constants.gL, Constants.gR, Constants.yuk, Constants.invVev, Flavour.charge_e, Flavour.isospin_e, ← c.mz]
  have xMW : (c.MW : ℂ) ≠ 0 := by exact_mod_cast hc.MW
  have xSW : (c.SW : ℂ) ≠ 0 := by exact_mod_cast hc.SW
  have xCW : (c.CW : ℂ) ≠ 0 := by exact_mod_cast hc.CW
  have x2 : ((√2 : ℝ) : ℂ) ≠ 0 := by exact_mod_cast (Real.sqrt_pos.2 two_pos).ne'
  have x22 : ((√2 : ℝ) : ℂ) ^ 2 = 2 := by rw [← Complex.ofReal_pow, Real.sq_sqrt two_pos.le]; norm_num
  push_cast
  field_simp
  first | ring1 | (ring_nf; simp only [x22]; ring1)
set_option maxRecDepth 8000 in
theorem eeZZ.amp2_eq (N : Env) (f : Nat → List Int → ℂ) : Cls.eeZZ.m_amp2.mean N f .r [] =
    ((sumJ (fun x a => (sumJ (fun x b => (sumV (fun x c => (sumV (fun x d => (x + (‖(f 0 [a, b, c, d])‖ ^ 2))) x)) x)) x)) ((0 : Nat) : ℝ)) / ((8 : Nat) : ℝ)) := by rfl
set_option maxRecDepth 8000 in
theorem eeZZ.value (N : Env) : meaning N .r Cls.eeZZ.methods Cls.eeZZ.amp2 [] =
    ((sumJ (fun x a => (sumJ (fun x b => (sumV (fun x c => (sumV (fun x d => (x + (‖(Cls.eeZZ.m_amp.mean N (callMean N []) .c [a, b, c, d])‖ ^ 2))) x)) x)) x)) ((0 : Nat) : ℝ)) / ((8 : Nat) : ℝ)) :=
  eeZZ.amp2_eq N (callMean N [Cls.eeZZ.m_amp])
set_option maxRecDepth 8000 in
theorem eeZZ.term_lin (N : Env) (w : ℝ) (x : ℂ) (j1 j2 a2 b2 a3 b3 : Int) : eeZZ.term N w x j1 j2 a2 b2 a3 b3 = x + (w : ℂ) * eeZZ.term N 1 0 j1 j2 a2 b2 a3 b3 := by
  simp only [eeZZ.term]; push_cast; ring
theorem eeZZ.amp_eq (N : Env) (f : Nat → List Int → ℂ) (j1 j2 : Int) (t2 t3 : Fin 3) : Cls.eeZZ.m_amp.mean N f .c [j1, j2, spinV t2, spinV t3] = comb t2 (fun a2 b2 => comb t3 (fun a3 b3 => eeZZ.term N 1 0 j1 j2 (spinOf a2) (spinOf b2) (spinOf a3) (spinOf b3))) := by
  refine (amp_mean N f (m := 4) (K := 8) (G := fun i => eeZZ.term N 1 0 (i 0) (i 1) (i 4) (i 5) (i 6) (i 7)) (fun l => ?_) (fun i i' h => ?_) rfl (by decide) (by decide) (by decide) (by decide) (by decide)).trans ?_
  · refine ⟨_, rfl, ?_⟩; exact ⟨rfl, rfl, eeZZ.term_lin ..⟩
  · simp only [h 0 (by decide), h 1 (by decide), h 4 (by decide), h 5 (by decide), h 6 (by decide), h 7 (by decide)]
  · show amp' _ [spinV t2, spinV t3] = _
    simp only [amp'_comb, amp'_nil]
    rfl
theorem eeZZ.form_x2 (N : Env) (p : Nat → V4 ℝ) (z0 z1 y2 x3 y3 x y : Pair) : eeZZ.form N p z0 z1 (x + y) y2 x3 y3 = eeZZ.form N p z0 z1 x y2 x3 y3 + eeZZ.form N p z0 z1 y y2 x3 y3 := by
  simp only [eeZZ.form, Prod.fst_add, Prod.snd_add, ab_add_left, ab_add_right, sb_add_left, sb_add_right, mb_add_left, mb_add_right]
  ring
theorem eeZZ.form_y2 (N : Env) (p : Nat → V4 ℝ) (z0 z1 x2 x3 y3 x y : Pair) : eeZZ.form N p z0 z1 x2 (x + y) x3 y3 = eeZZ.form N p z0 z1 x2 x x3 y3 + eeZZ.form N p z0 z1 x2 y x3 y3 := by
  simp only [eeZZ.form, Prod.fst_add, Prod.snd_add, ab_add_left, ab_add_right, sb_add_left, sb_add_right, mb_add_left, mb_add_right]
  ring
theorem eeZZ.form_x3 (N : Env) (p : Nat → V4 ℝ) (z0 z1 x2 y2 y3 x y : Pair) : eeZZ.form N p z0 z1 x2 y2 (x + y) y3 = eeZZ.form N p z0 z1 x2 y2 x y3 + eeZZ.form N p z0 z1 x2 y2 y y3 := by
  simp only [eeZZ.form, Prod.fst_add, Prod.snd_add, ab_add_left, ab_add_right, sb_add_left, sb_add_right, mb_add_left, mb_add_right]
  ring
theorem eeZZ.form_y3 (N : Env) (p : Nat → V4 ℝ) (z0 z1 x2 y2 x3 x y : Pair) : eeZZ.form N p z0 z1 x2 y2 x3 (x + y) = eeZZ.form N p z0 z1 x2 y2 x3 x + eeZZ.form N p z0 z1 x2 y2 x3 y := by
  simp only [eeZZ.form, Prod.fst_add, Prod.snd_add, ab_add_left, ab_add_right, sb_add_left, sb_add_right, mb_add_left, mb_add_right]
  ring

theorem eeZZ.mass_eq {c : Constants} (hc : c.Physical) (i : Fin 4) : eeZZ.proc.massNum (eeZZ.rho c) i = eeZZ.react.mass c i := by
  fin_cases i <;> first | rfl | exact Nat.cast_zero.trans (hc.neutrino _).symm | (show c.MW / √(((1 : Nat) : ℝ) - c.SW * c.SW) = c.MZ; rw [c.root, c.mz])

variable [FPEnv] in
theorem eeZZ.agrees : eeZZ.Agrees := by
  refine agrees_of (D := [4, 5]) (E := [5]) (by simp [all, eeZZ]) (by decide +kernel) (by decide) (by decide +kernel) (fun c hc hh => ⟨List.forall_mem_cons.2 ⟨hc.MW, List.forall_mem_cons.2 ⟨hc.SW, List.forall_mem_nil _⟩⟩, List.forall_mem_cons.2 ⟨hc.SW_lt, List.forall_mem_nil _⟩⟩) (fun c hc i => eeZZ.mass_eq hc i) (by decide +kernel) ?_
  intro c p u ε hc hh hw h0 hs hb hr hu
  have he : eeZZ.react.ends = [1] := by decide
  have ht : eeZZ.react.starts = [0] := by decide
  have hB : eeZZ.react.bosons = [2, 3] := by decide
  have hM : eeZZ.react.allMassive = true := by decide
  obtain ⟨f1, f2, f3⟩ := eeZZ.react.regular_line he ht hB hr
  have r1 : (eeZZ.N c p).r 1 = (c.mass .e) := rfl
  have r7 : (eeZZ.N c p).r 7 = (c.MW / √((((1 : Nat) : ℝ) - (c.SW * c.SW)))) := rfl
  simp only [c.root] at r7
  have r10 : (eeZZ.N c p).r 10 = ((c.e * c.e) / ((((((2 : Nat) : ℝ) * c.MW) * c.MW) * c.SW) * c.SW)) := rfl
  have r11 : (eeZZ.N c p).r 11 = (((c.e * c.e) * (c.mass .e)) / ((((((2 : Nat) : ℝ) * c.MW) * c.MW) * c.SW) * c.SW)) := rfl
  have r12 : (eeZZ.N c p).r 12 = (((((2 : Nat) : ℝ) * c.SW) * c.SW) - ((1 : Nat) : ℝ)) := rfl
  have r13 : (eeZZ.N c p).r 13 = ((((2 : Nat) : ℝ) * c.SW) * c.SW) := rfl
  have c0 : (eeZZ.N c p).c 0 = poleDist c.MH c.WH ((VExp.add 0 1).sum p) := rfl
  rw [pole_congr (msq_s hb (plus (backward (p 2)) (backward (p 3))) (by simp)).symm] at c0
  have d0 : pole c.MH c.WH (plus (backward (p 2)) (backward (p 3))) = (eeZZ.N c p).c 0 := by rw [c0]
  have n0 : (eeZZ.N c p).c 0 ≠ 0 := by rw [← d0]; exact star_ne_zero.2 (f3 .higgs rfl rfl)
  have c1 : (eeZZ.N c p).c 1 = poleDist (c.mass .e) ((0 : Nat) : ℝ) ((VExp.sub 0 2).sum p) := rfl
  rw [Nat.cast_zero, pole_fermion (msq_t hb (plus (p 0) (backward (p 2))) (by simp))] at c1
  have d1 : ((msq (plus (p 0) (backward (p 2))) - c.mass .e ^ 2 : ℝ) : ℂ) = (eeZZ.N c p).c 1 := by rw [c1]
  have n1 : (eeZZ.N c p).c 1 ≠ 0 := by rw [← d1]; exact_mod_cast f1 .e rfl rfl
  have c2 : (eeZZ.N c p).c 2 = poleDist (c.mass .e) ((0 : Nat) : ℝ) ((VExp.sub 0 3).sum p) := rfl
  rw [Nat.cast_zero, pole_fermion (msq_u hb (plus (p 0) (backward (p 3))) (by simp))] at c2
  have d2 : ((msq (plus (p 0) (backward (p 3))) - c.mass .e ^ 2 : ℝ) : ℂ) = (eeZZ.N c p).c 2 := by rw [c2]
  have n2 : (eeZZ.N c p).c 2 ≠ 0 := by rw [← d2]; exact_mod_cast f2 .e rfl rfl
  have m0 : eeZZ.react.mass c 0 ≠ 0 := (leg_pos hc hh (by decide)).ne'
  have m1 : eeZZ.react.mass c 1 ≠ 0 := (leg_pos hc hh (by decide)).ne'
  have m2 : eeZZ.react.mass c 2 ≠ 0 := (leg_pos hc hh (by decide)).ne'
  have m3 : eeZZ.react.mass c 3 ≠ 0 := (leg_pos hc hh (by decide)).ne'
  have hd : eeZZ.proc.divides = [(Ty.c, 0), (Ty.c, 1), (Ty.c, 2)] := by decide +kernel
  refine ⟨fun n hn => ?_, fun n hn => ?_, ?_⟩
  · simp [hd] at hn
  · simp [hd] at hn
    rcases hn with rfl | rfl | rfl
    · exact n0
    · exact n1
    · exact n2
  have st : ∀ {z0 z1 : Pair} (b0 : Bold (p 0) (eeZZ.react.mass c 0) z0) (b1 : Bold (p 1) (eeZZ.react.mass c 1) z1) (t2 t3 : Fin 3), comb t2 (fun a2 b2 => comb t3 (fun a3 b3 => eeZZ.form (eeZZ.N c p) p z0 z1 (eeZZ.react.codePair c p 2 a2) (eeZZ.react.codePair c p 2 b2) (eeZZ.react.codePair c p 3 a3) (eeZZ.react.codePair c p 3 b3))) = 1 * eeZZ.react.bare c p 1 0 2 3 z1 z0 (eeZZ.react.codeVec c p 2 t2) (eeZZ.react.codeVec c p 3 t3) := by
    intro z0 z1 b0 b1 t2 t3
    refine two_vectors (p := p 2) (p' := p 3) (m := eeZZ.react.mass c 2) (m' := eeZZ.react.mass c 3) (fun s => eeZZ.react.codePair_bold hs h0 2 s) (fun s => eeZZ.react.codePair_bold hs h0 3 s) (B := fun x y x' y' => eeZZ.form (eeZZ.N c p) p z0 z1 x y x' y') (G := fun E F => eeZZ.react.bare c p 1 0 2 3 z1 z0 E F) (fun _ _ _ _ _ => ?_) (fun _ _ _ _ _ => ?_) (fun _ _ _ _ _ => ?_) (fun _ _ _ _ _ => ?_) (fun F => eeZZ.react.bare_lin₁ c p _ _ _ (by decide)) (fun E => eeZZ.react.bare_lin₂ c p _ _ _ (by decide)) 1 (fun z2 z3 b2 b3 => ?_) t2 t3
    · exact eeZZ.form_x2 ..
    · exact eeZZ.form_y2 ..
    · exact eeZZ.form_x3 ..
    · exact eeZZ.form_y3 ..
    · rw [one_mul]; exact eeZZ.key hc hb r1 r7 r10 r11 r12 r13 d0 n0 d1 n1 d2 n2 b0 b1 b2 b3 (onShell_msq (hs 2)) (onShell_msq (hs 3)) 
  have am : ∀ (s0 : Fin 2) (s1 : Fin 2) (t2 t3 : Fin 3), Cls.eeZZ.m_amp.mean (eeZZ.N c p) (callMean (eeZZ.N c p) []) .c [spinOf s0, spinOf s1, spinV t2, spinV t3] = 1 * eeZZ.react.bare c p 1 0 2 3 (eeZZ.react.codePair c p 1 s1) (eeZZ.react.codePair c p 0 s0) (eeZZ.react.codeVec c p 2 t2) (eeZZ.react.codeVec c p 3 t3) := by
    intro s0 s1 t2 t3
    rw [eeZZ.amp_eq, ← st (eeZZ.react.codePair_bold hs h0 0 s0) (eeZZ.react.codePair_bold hs h0 1 s1) t2 t3]
    refine congrArg (comb t2) (funext fun a2 => funext fun b2 => ?_)
    refine congrArg (comb t3) (funext fun a3 => funext fun b3 => ?_)
    have v6x2x3 : (eeZZ.N c p).v 6 [spinOf a2, spinOf a3] = sb (eeZZ.react.codePair c p 2 a2).2 (eeZZ.react.codePair c p 3 a3).2 := bra_square (p := p) (m := eeZZ.proc.massNum (eeZZ.rho c)) (eeZZ.mass_eq hc 2) (eeZZ.mass_eq hc 3) (.inl ⟨m2, rfl⟩) (.inl ⟨m3, rfl⟩)
    have v7y2y3 : (eeZZ.N c p).v 7 [spinOf b2, spinOf b3] = ab (eeZZ.react.codePair c p 2 b2).1 (eeZZ.react.codePair c p 3 b3).1 := bra_angle (p := p) (m := eeZZ.proc.massNum (eeZZ.rho c)) (eeZZ.mass_eq hc 2) (eeZZ.mass_eq hc 3) (.inl ⟨m2, rfl⟩) (.inl ⟨m3, rfl⟩)
    have v0z0z1 : (eeZZ.N c p).v 0 [spinOf s0, spinOf s1] = sb (eeZZ.react.codePair c p 0 s0).2 (eeZZ.react.codePair c p 1 s1).2 := bra_square (p := p) (m := eeZZ.proc.massNum (eeZZ.rho c)) (eeZZ.mass_eq hc 0) (eeZZ.mass_eq hc 1) (.inl ⟨m0, rfl⟩) (.inl ⟨m1, rfl⟩)
    have v1z0z1 : (eeZZ.N c p).v 1 [spinOf s0, spinOf s1] = ab (eeZZ.react.codePair c p 0 s0).1 (eeZZ.react.codePair c p 1 s1).1 := bra_angle (p := p) (m := eeZZ.proc.massNum (eeZZ.rho c)) (eeZZ.mass_eq hc 0) (eeZZ.mass_eq hc 1) (.inl ⟨m0, rfl⟩) (.inl ⟨m1, rfl⟩)
    have v8z1x3 : (eeZZ.N c p).v 8 [spinOf s1, spinOf a3] = sb (eeZZ.react.codePair c p 1 s1).2 (eeZZ.react.codePair c p 3 a3).2 := bra_square (p := p) (m := eeZZ.proc.massNum (eeZZ.rho c)) (eeZZ.mass_eq hc 1) (eeZZ.mass_eq hc 3) (.inl ⟨m1, rfl⟩) (.inl ⟨m3, rfl⟩)
    have v5z0x2 : (eeZZ.N c p).v 5 [spinOf s0, spinOf a2] = ab (eeZZ.react.codePair c p 0 s0).1 (eeZZ.react.codePair c p 2 a2).1 := bra_angle (p := p) (m := eeZZ.proc.massNum (eeZZ.rho c)) (eeZZ.mass_eq hc 0) (eeZZ.mass_eq hc 2) (.inl ⟨m0, rfl⟩) (.inl ⟨m2, rfl⟩)
    have v12y2y3 : (eeZZ.N c p).v 12 [spinOf b2, spinOf b3] = mb (eeZZ.react.codePair c p 2 b2).2 (p 0) (eeZZ.react.codePair c p 3 b3).1 := bra_mid_square (p := p) (m := eeZZ.proc.massNum (eeZZ.rho c)) (eeZZ.mass_eq hc 2) (eeZZ.mass_eq hc 3) (.inl ⟨m2, rfl⟩) (.inl ⟨m3, rfl⟩)
    have v9z1x3 : (eeZZ.N c p).v 9 [spinOf s1, spinOf a3] = ab (eeZZ.react.codePair c p 1 s1).1 (eeZZ.react.codePair c p 3 a3).1 := bra_angle (p := p) (m := eeZZ.proc.massNum (eeZZ.rho c)) (eeZZ.mass_eq hc 1) (eeZZ.mass_eq hc 3) (.inl ⟨m1, rfl⟩) (.inl ⟨m3, rfl⟩)
    have v4z0x2 : (eeZZ.N c p).v 4 [spinOf s0, spinOf a2] = sb (eeZZ.react.codePair c p 0 s0).2 (eeZZ.react.codePair c p 2 a2).2 := bra_square (p := p) (m := eeZZ.proc.massNum (eeZZ.rho c)) (eeZZ.mass_eq hc 0) (eeZZ.mass_eq hc 2) (.inl ⟨m0, rfl⟩) (.inl ⟨m2, rfl⟩)
    have v6y2y3 : (eeZZ.N c p).v 6 [spinOf b2, spinOf b3] = sb (eeZZ.react.codePair c p 2 b2).2 (eeZZ.react.codePair c p 3 b3).2 := bra_square (p := p) (m := eeZZ.proc.massNum (eeZZ.rho c)) (eeZZ.mass_eq hc 2) (eeZZ.mass_eq hc 3) (.inl ⟨m2, rfl⟩) (.inl ⟨m3, rfl⟩)
    have v13y3y2 : (eeZZ.N c p).v 13 [spinOf b3, spinOf b2] = mb (eeZZ.react.codePair c p 3 b3).2 (p 0) (eeZZ.react.codePair c p 2 b2).1 := bra_mid_square (p := p) (m := eeZZ.proc.massNum (eeZZ.rho c)) (eeZZ.mass_eq hc 3) (eeZZ.mass_eq hc 2) (.inl ⟨m3, rfl⟩) (.inl ⟨m2, rfl⟩)
    have v2z1x2 : (eeZZ.N c p).v 2 [spinOf s1, spinOf a2] = sb (eeZZ.react.codePair c p 1 s1).2 (eeZZ.react.codePair c p 2 a2).2 := bra_square (p := p) (m := eeZZ.proc.massNum (eeZZ.rho c)) (eeZZ.mass_eq hc 1) (eeZZ.mass_eq hc 2) (.inl ⟨m1, rfl⟩) (.inl ⟨m2, rfl⟩)
    have v11z0x3 : (eeZZ.N c p).v 11 [spinOf s0, spinOf a3] = ab (eeZZ.react.codePair c p 0 s0).1 (eeZZ.react.codePair c p 3 a3).1 := bra_angle (p := p) (m := eeZZ.proc.massNum (eeZZ.rho c)) (eeZZ.mass_eq hc 0) (eeZZ.mass_eq hc 3) (.inl ⟨m0, rfl⟩) (.inl ⟨m3, rfl⟩)
    have v10z0x3 : (eeZZ.N c p).v 10 [spinOf s0, spinOf a3] = sb (eeZZ.react.codePair c p 0 s0).2 (eeZZ.react.codePair c p 3 a3).2 := bra_square (p := p) (m := eeZZ.proc.massNum (eeZZ.rho c)) (eeZZ.mass_eq hc 0) (eeZZ.mass_eq hc 3) (.inl ⟨m0, rfl⟩) (.inl ⟨m3, rfl⟩)
    have v3z1x2 : (eeZZ.N c p).v 3 [spinOf s1, spinOf a2] = ab (eeZZ.react.codePair c p 1 s1).1 (eeZZ.react.codePair c p 2 a2).1 := bra_angle (p := p) (m := eeZZ.proc.massNum (eeZZ.rho c)) (eeZZ.mass_eq hc 1) (eeZZ.mass_eq hc 2) (.inl ⟨m1, rfl⟩) (.inl ⟨m2, rfl⟩)
    simp only [eeZZ.term, eeZZ.form, v6x2x3, v7y2y3, v0z0z1, v1z0z1, v8z1x3, v5z0x2, v12y2y3, v9z1x3, v4z0x2, v6y2y3, v13y3y2, v2z1x2, v11z0x3, v10z0x3, v3z1x2]
    push_cast
    ring
  show meaning (eeZZ.N c p) .r Cls.eeZZ.methods Cls.eeZZ.amp2 [] = _
  have lc : eeZZ.react.lineColours 1 0 = 1 := by decide +kernel
  have s0 : eeZZ.react.states 0 = 2 := by decide
  have s1 : eeZZ.react.states 1 = 2 := by decide
  have sy : eeZZ.react.symmetry = 2 := by decide
  have p0 : eeZZ.react.spins 0 = {0, 1} := rfl
  have p1 : eeZZ.react.spins 1 = {0, 1} := rfl
  have p2 : eeZZ.react.spins 2 = Finset.univ := rfl
  have p3 : eeZZ.react.spins 3 = Finset.univ := rfl
  rw [eeZZ.value, eeZZ.react.squared_line he ht hB (noGluon_of hM) hs h0 (fun _ b _ hb _ => (boson_pos hc hh hb).ne') (eeZZ.react.gauge_massive (massive_of hM)) (E := eeZZ.react.codeVec c p) (fun n b hl => eeZZ.react.codeVec_polarised hs h0 hl (massive_of hM n b hl) (fun _ => (boson_pos hc hh (massive_of hM n b hl)).ne')) hu, sum_colours, lc, s0, s1, sy]
  simp only [sumV_sum, sumJ_sum, am, norm_mul, norm_neg, norm_one, one_mul, p0, p1, p2, p3, Finset.sum_singleton, sum_two, Matrix.cons_val_zero, Matrix.cons_val_one, Matrix.cons_val, two_castSucc]
  try simp only [← Finset.mul_sum]
  push_cast
  first | ring1 | ring_nf

/-! ### ddZZ -/

/-- what the methods of the class see -/
noncomputable abbrev ddZZ.N [FPEnv] (c : Constants) (p : Nat → V4 ℝ) : Env := ddZZ.proc.env (ddZZ.rho c) p
/-- the term that `amp` adds for a choice of spinors (SM/ddZZ.cpp) -/
noncomputable def ddZZ.term (N : Env) (w : ℝ) (x : ℂ) (j1 j2 a2 b2 a3 b3 : Int) : ℂ :=
  (((x + (((((((w * N.r 12) : ℝ) : ℂ) * N.v 6 [a2, a3]) * N.v 7 [b2, b3]) * (N.v 0 [j1, j2] + N.v 1 [j1, j2])) / N.c 0)) + (((((((((((w * N.r 11) * N.r 13) * N.r 13) : ℝ) : ℂ) * N.v 8 [j2, a3]) * N.v 5 [j1, a2]) * ((((N.r 8 : ℝ) : ℂ) * N.v 7 [b2, b3]) - N.v 12 [b2, b3])) / N.c 1) + (((((((((w * N.r 11) * N.r 14) * N.r 14) : ℝ) : ℂ) * N.v 9 [j2, a3]) * N.v 4 [j1, a2]) * ((((N.r 8 : ℝ) : ℂ) * N.v 6 [b2, b3]) - N.v 13 [b3, b2])) / N.c 1)) - ((((((((w * N.r 11) * N.r 13) * N.r 14) * N.r 2) : ℝ) : ℂ) * (((N.v 4 [j1, a2] * N.v 8 [j2, a3]) * N.v 7 [b2, b3]) + ((N.v 5 [j1, a2] * N.v 9 [j2, a3]) * N.v 6 [b2, b3]))) / N.c 1))) + ((((((((((((-w) * N.r 11) * N.r 13) * N.r 13) : ℝ) : ℂ) * N.v 2 [j2, a2]) * N.v 11 [j1, a3]) * ((((N.r 8 : ℝ) : ℂ) * N.v 7 [b2, b3]) + N.v 13 [b3, b2])) / N.c 2) - (((((((((w * N.r 11) * N.r 14) * N.r 14) : ℝ) : ℂ) * N.v 10 [j1, a3]) * N.v 3 [j2, a2]) * ((((N.r 8 : ℝ) : ℂ) * N.v 6 [b2, b3]) + N.v 12 [b2, b3])) / N.c 2)) + ((((((((w * N.r 11) * N.r 13) * N.r 14) * N.r 2) : ℝ) : ℂ) * (((N.v 10 [j1, a3] * N.v 2 [j2, a2]) * N.v 7 [b2, b3]) + ((N.v 11 [j1, a3] * N.v 3 [j2, a2]) * N.v 6 [b2, b3]))) / N.c 2)))
/-- the same with spinors in place of their spins -/
noncomputable def ddZZ.form (N : Env) (p : Nat → V4 ℝ) (z0 z1 x2 y2 x3 y3 : Pair) : ℂ :=
  (((0 + (((((((((1 : Nat) : ℝ) * N.r 12) : ℝ) : ℂ) * (sb x2.2 x3.2)) * (ab y2.1 y3.1)) * ((sb z0.2 z1.2) + (ab z0.1 z1.1))) / N.c 0)) + (((((((((((((1 : Nat) : ℝ) * N.r 11) * N.r 13) * N.r 13) : ℝ) : ℂ) * (sb z1.2 x3.2)) * (ab z0.1 x2.1)) * ((((N.r 8 : ℝ) : ℂ) * (ab y2.1 y3.1)) - (mb y2.2 (p 0) y3.1))) / N.c 1) + (((((((((((1 : Nat) : ℝ) * N.r 11) * N.r 14) * N.r 14) : ℝ) : ℂ) * (ab z1.1 x3.1)) * (sb z0.2 x2.2)) * ((((N.r 8 : ℝ) : ℂ) * (sb y2.2 y3.2)) - (mb y3.2 (p 0) y2.1))) / N.c 1)) - ((((((((((1 : Nat) : ℝ) * N.r 11) * N.r 13) * N.r 14) * N.r 2) : ℝ) : ℂ) * ((((sb z0.2 x2.2) * (sb z1.2 x3.2)) * (ab y2.1 y3.1)) + (((ab z0.1 x2.1) * (ab z1.1 x3.1)) * (sb y2.2 y3.2)))) / N.c 1))) + ((((((((((((-((1 : Nat) : ℝ)) * N.r 11) * N.r 13) * N.r 13) : ℝ) : ℂ) * (sb z1.2 x2.2)) * (ab z0.1 x3.1)) * ((((N.r 8 : ℝ) : ℂ) * (ab y2.1 y3.1)) + (mb y3.2 (p 0) y2.1))) / N.c 2) - (((((((((((1 : Nat) : ℝ) * N.r 11) * N.r 14) * N.r 14) : ℝ) : ℂ) * (sb z0.2 x3.2)) * (ab z1.1 x2.1)) * ((((N.r 8 : ℝ) : ℂ) * (sb y2.2 y3.2)) + (mb y2.2 (p 0) y3.1))) / N.c 2)) + ((((((((((1 : Nat) : ℝ) * N.r 11) * N.r 13) * N.r 14) * N.r 2) : ℝ) : ℂ) * ((((sb z0.2 x3.2) * (sb z1.2 x2.2)) * (ab y2.1 y3.1)) + (((ab z0.1 x3.1) * (ab z1.1 x2.1)) * (sb y2.2 y3.2)))) / N.c 2)))
theorem ddZZ.key {c : Constants} {p : Nat → V4 ℝ} {N : Env} (hc : c.Physical) (hb : Balanced p) (r2 : N.r 2 = (c.mass .d)) (r8 : N.r 8 = (c.MW / c.CW)) (r11 : N.r 11 = ((c.e * c.e) / ((((((2 : Nat) : ℝ) * c.MW) * c.MW) * c.SW) * c.SW))) (r12 : N.r 12 = (((c.e * c.e) * (c.mass .d)) / ((((((2 : Nat) : ℝ) * c.MW) * c.MW) * c.SW) * c.SW))) (r13 : N.r 13 = (((((-((2 : Nat) : ℝ)) * ((-((1 : Nat) : ℝ)) / ((3 : Nat) : ℝ))) * c.SW) * c.SW) - ((1 : Nat) : ℝ))) (r14 : N.r 14 = ((((-((2 : Nat) : ℝ)) * ((-((1 : Nat) : ℝ)) / ((3 : Nat) : ℝ))) * c.SW) * c.SW)) (d0 : pole c.MH c.WH (plus (backward (p 2)) (backward (p 3))) = N.c 0) (n0 : N.c 0 ≠ 0) (d1 : ((msq (plus (p 0) (backward (p 2))) - c.mass .d ^ 2 : ℝ) : ℂ) = N.c 1) (n1 : N.c 1 ≠ 0) (d2 : ((msq (plus (p 0) (backward (p 3))) - c.mass .d ^ 2 : ℝ) : ℂ) = N.c 2) (n2 : N.c 2 ≠ 0) {z0 z1 z2 z3 : Pair} (b0 : Bold (p 0) (c.mass .d) z0) (b1 : Bold (p 1) (c.mass .d) z1) (b2 : Bold (p 2) c.MZ z2) (b3 : Bold (p 3) c.MZ z3) (q2 : msq (p 2) = c.MZ ^ 2) (q3 : msq (p 3) = c.MZ ^ 2) :
    ddZZ.form N p z0 z1 z2 z2 z3 z3 = ((2 / (c.MZ * c.MZ) : ℝ) : ℂ) * ddZZ.react.bare c p 1 0 2 3 z1 z0 (pv z2.1 z2.2) (pv z3.1 z3.2) := by
  rw [ddZZ.react.bare_parts c p (i := 1) (j := 0) (a := 2) (b := 3) (x := .z) (y := .z) (k := (backward (p 2))) (k' := (backward (p 3))) (fun _ => rfl) (fun _ => rfl) (f := .d) (g := .d) rfl rfl (l := (p 0)) rfl (e := -1) (e' := 1) (if_pos rfl) (if_neg Bool.false_ne_true)]
  rw [compton_vv (f := .d) (x := .d) (g := .d) (h := (rfl : Spec.after .z Flavour.d = some Flavour.d)) (h' := (rfl : Spec.after .z Flavour.d = some Flavour.d)) (ha := by simp) (hb := by simp)]
  rw [compton_vv (f := .d) (x := .d) (g := .d) (h := (rfl : Spec.after .z Flavour.d = some Flavour.d)) (h' := (rfl : Spec.after .z Flavour.d = some Flavour.d)) (ha := by simp) (hb := by simp)]
  have an := annihilation_neutral c (-1) (1) z1.1 z1.2 z0.1 z0.2 ⟨.z, (backward (p 2)), pv z2.1 z2.2⟩ ⟨.z, (backward (p 3)), pv z3.1 z3.2⟩ .d
  dsimp only at an
  rw [an, ddZZ.form]
  clear an
  have Y2 := b2.back; have Q2 : msq (backward (p 2)) = (-c.MZ) ^ 2 := by rw [msq_backward, q2, neg_sq]
  have Y3 := b3.back; have Q3 : msq (backward (p 3)) = (-c.MZ) ^ 2 := by rw [msq_backward, q3, neg_sq]
  rw [lineV_massless (hx := (rfl : Boson.massive .photon = false))]
  rw [lineV_massive (hx := (rfl : Boson.massive .z = true))]
  simp only [toHiggs, toVector, higgs2, gauge3, Boson.anti, Constants.bosonMass, Constants.bosonWidth, d0, d1, d2, reduceCtorEq, and_self, and_true, and_false, and_true, if_true, if_false, Complex.ofReal_zero, zero_smul, zero_mul, mul_zero, zero_div, neg_zero, add_zero, zero_add, lineH, lineV_zero, contract_zero, lineV_smul, contract_smul, lineV_yangMills Y2 Y3, four_yangMills Y2 Y3 Q2 Q3, ym, lineV_pv, lineV_four, contract_four_pv, contract_pv, mb_plus, mb_backward]
  simp only [b0.mb_left, b0.mb_right, b1.mb_left, b1.mb_right, b2.mb_left, b2.mb_right, b3.mb_left, b3.mb_right, mb_three hb z0.2 z0.1, mb_three hb z0.2 z1.1, mb_three hb z0.2 z2.1, mb_two hb z0.2 z3.1, mb_three hb z1.2 z0.1, mb_three hb z1.2 z1.1, mb_three hb z1.2 z2.1, mb_two hb z1.2 z3.1, mb_three hb z2.2 z0.1, mb_three hb z2.2 z1.1, mb_three hb z2.2 z2.1, mb_one hb z2.2 z3.1, mb_two hb z3.2 z0.1, mb_two hb z3.2 z1.1, mb_one hb z3.2 z2.1, mb_two hb z3.2 z3.1, ab_self, sb_self]
  simp only [ab_swap z0.1 z1.1, sb_swap z0.2 z1.2, ab_swap z0.1 z2.1, sb_swap z0.2 z2.2, ab_swap z0.1 z3.1, sb_swap z0.2 z3.2, ab_swap z1.1 z2.1, sb_swap z1.2 z2.2, ab_swap z1.1 z3.1, sb_swap z1.2 z3.2, ab_swap z2.1 z3.1, sb_swap z2.2 z3.2, r2, r8, r11, r12, r13, r14, Constants.hL, Constants.hR, Constants.gL, Constants.gR, Constants.yuk, Constants.invVev, Flavour.charge_d, Flavour.isospin_d, ← c.mz]
  have xMW : (c.MW : ℂ) ≠ 0 := by exact_mod_cast hc.MW
  have xSW : (c.SW : ℂ) ≠ 0 := by exact_mod_cast hc.SW
  have xCW : (c.CW : ℂ) ≠ 0 := by exact_mod_cast hc.CW
  have x2 : ((√2 : ℝ) : ℂ) ≠ 0 := by exact_mod_cast (Real.sqrt_pos.2 two_pos).ne'
  have x22 : ((√2 : ℝ) : ℂ) ^ 2 = 2 := by rw [← Complex.ofReal_pow, Real.sq_sqrt two_pos.le]; norm_num
  push_cast
  field_simp
  first | ring1 | (ring_nf; simp only [x22]; ring1)
set_option maxRecDepth 8000 in
theorem ddZZ.amp2_eq (N : Env) (f : Nat → List Int → ℂ) : Cls.ddZZ.m_amp2.mean N f .r [] =
    ((sumJ (fun x a => (sumJ (fun x b => (sumV (fun x c => (sumV (fun x d => (x + (((3 : Nat) : ℝ) * (‖(f 0 [a, b, c, d])‖ ^ 2)))) x)) x)) x)) ((0 : Nat) : ℝ)) / ((72 : Nat) : ℝ)) := by rfl
set_option maxRecDepth 8000 in
theorem ddZZ.value (N : Env) : meaning N .r Cls.ddZZ.methods Cls.ddZZ.amp2 [] =
    ((sumJ (fun x a => (sumJ (fun x b => (sumV (fun x c => (sumV (fun x d => (x + (((3 : Nat) : ℝ) * (‖(Cls.ddZZ.m_amp.mean N (callMean N []) .c [a, b, c, d])‖ ^ 2)))) x)) x)) x)) ((0 : Nat) : ℝ)) / ((72 : Nat) : ℝ)) :=
  ddZZ.amp2_eq N (callMean N [Cls.ddZZ.m_amp])
set_option maxRecDepth 8000 in
theorem ddZZ.term_lin (N : Env) (w : ℝ) (x : ℂ) (j1 j2 a2 b2 a3 b3 : Int) : ddZZ.term N w x j1 j2 a2 b2 a3 b3 = x + (w : ℂ) * ddZZ.term N 1 0 j1 j2 a2 b2 a3 b3 := by
  simp only [ddZZ.term]; push_cast; ring
theorem ddZZ.amp_eq (N : Env) (f : Nat → List Int → ℂ) (j1 j2 : Int) (t2 t3 : Fin 3) : Cls.ddZZ.m_amp.mean N f .c [j1, j2, spinV t2, spinV t3] = comb t2 (fun a2 b2 => comb t3 (fun a3 b3 => ddZZ.term N 1 0 j1 j2 (spinOf a2) (spinOf b2) (spinOf a3) (spinOf b3))) := by
  refine (amp_mean N f (m := 4) (K := 8) (G := fun i => ddZZ.term N 1 0 (i 0) (i 1) (i 4) (i 5) (i 6) (i 7)) (fun l => ?_) (fun i i' h => ?_) rfl (by decide) (by decide) (by decide) (by decide) (by decide)).trans ?_
  · refine ⟨_, rfl, ?_⟩; exact ⟨rfl, rfl, ddZZ.term_lin ..⟩
  · simp only [h 0 (by decide), h 1 (by decide), h 4 (by decide), h 5 (by decide), h 6 (by decide), h 7 (by decide)]
  · show amp' _ [spinV t2, spinV t3] = _
    simp only [amp'_comb, amp'_nil]
    rfl
theorem ddZZ.form_x2 (N : Env) (p : Nat → V4 ℝ) (z0 z1 y2 x3 y3 x y : Pair) : ddZZ.form N p z0 z1 (x + y) y2 x3 y3 = ddZZ.form N p z0 z1 x y2 x3 y3 + ddZZ.form N p z0 z1 y y2 x3 y3 := by
  simp only [ddZZ.form, Prod.fst_add, Prod.snd_add, ab_add_left, ab_add_right, sb_add_left, sb_add_right, mb_add_left, mb_add_right]
  ring
theorem ddZZ.form_y2 (N : Env) (p : Nat → V4 ℝ) (z0 z1 x2 x3 y3 x y : Pair) : ddZZ.form N p z0 z1 x2 (x + y) x3 y3 = ddZZ.form N p z0 z1 x2 x x3 y3 + ddZZ.form N p z0 z1 x2 y x3 y3 := by
  simp only [ddZZ.form, Prod.fst_add, Prod.snd_add, ab_add_left, ab_add_right, sb_add_left, sb_add_right, mb_add_left, mb_add_right]
  ring
theorem ddZZ.form_x3 (N : Env) (p : Nat → V4 ℝ) (z0 z1 x2 y2 y3 x y : Pair) : ddZZ.form N p z0 z1 x2 y2 (x + y) y3 = ddZZ.form N p z0 z1 x2 y2 x y3 + ddZZ.form N p z0 z1 x2 y2 y y3 := by
  simp only [ddZZ.form, Prod.fst_add, Prod.snd_add, ab_add_left, ab_add_right, sb_add_left, sb_add_right, mb_add_left, mb_add_right]
  ring
theorem ddZZ.form_y3 (N : Env) (p : Nat → V4 ℝ) (z0 z1 x2 y2 x3 x y : Pair) : ddZZ.form N p z0 z1 x2 y2 x3 (x + y) = ddZZ.form N p z0 z1 x2 y2 x3 x + ddZZ.form N p z0 z1 x2 y2 x3 y := by
  simp only [ddZZ.form, Prod.fst_add, Prod.snd_add, ab_add_left, ab_add_right, sb_add_left, sb_add_right, mb_add_left, mb_add_right]
  ring

theorem ddZZ.mass_eq {c : Constants} (hc : c.Physical) (i : Fin 4) : ddZZ.proc.massNum (ddZZ.rho c) i = ddZZ.react.mass c i := by
  fin_cases i <;> first | rfl | exact Nat.cast_zero.trans (hc.neutrino _).symm | (show c.MW / √(((1 : Nat) : ℝ) - c.SW * c.SW) = c.MZ; rw [c.root, c.mz])

variable [FPEnv] in
theorem ddZZ.agrees : ddZZ.Agrees := by
  refine agrees_of (D := [4, 5]) (E := [5]) (by simp [all, ddZZ]) (by decide +kernel) (by decide) (by decide +kernel) (fun c hc hh => ⟨List.forall_mem_cons.2 ⟨hc.MW, List.forall_mem_cons.2 ⟨hc.SW, List.forall_mem_nil _⟩⟩, List.forall_mem_cons.2 ⟨hc.SW_lt, List.forall_mem_nil _⟩⟩) (fun c hc i => ddZZ.mass_eq hc i) (by decide +kernel) ?_
  intro c p u ε hc hh hw h0 hs hb hr hu
  have he : ddZZ.react.ends = [1] := by decide
  have ht : ddZZ.react.starts = [0] := by decide
  have hB : ddZZ.react.bosons = [2, 3] := by decide
  have hM : ddZZ.react.allMassive = true := by decide
  obtain ⟨f1, f2, f3⟩ := ddZZ.react.regular_line he ht hB hr
  have r2 : (ddZZ.N c p).r 2 = (c.mass .d) := rfl
  have r8 : (ddZZ.N c p).r 8 = (c.MW / √((((1 : Nat) : ℝ) - (c.SW * c.SW)))) := rfl
  simp only [c.root] at r8
  have r11 : (ddZZ.N c p).r 11 = ((c.e * c.e) / ((((((2 : Nat) : ℝ) * c.MW) * c.MW) * c.SW) * c.SW)) := rfl
  have r12 : (ddZZ.N c p).r 12 = (((c.e * c.e) * (c.mass .d)) / ((((((2 : Nat) : ℝ) * c.MW) * c.MW) * c.SW) * c.SW)) := rfl
  have r13 : (ddZZ.N c p).r 13 = (((((-((2 : Nat) : ℝ)) * ((-((1 : Nat) : ℝ)) / ((3 : Nat) : ℝ))) * c.SW) * c.SW) - ((1 : Nat) : ℝ)) := rfl
  have r14 : (ddZZ.N c p).r 14 = ((((-((2 : Nat) : ℝ)) * ((-((1 : Nat) : ℝ)) / ((3 : Nat) : ℝ))) * c.SW) * c.SW) := rfl
  have c0 : (ddZZ.N c p).c 0 = poleDist c.MH c.WH ((VExp.add 0 1).sum p) := rfl
  rw [pole_congr (msq_s hb (plus (backward (p 2)) (backward (p 3))) (by simp)).symm] at c0
  have d0 : pole c.MH c.WH (plus (backward (p 2)) (backward (p 3))) = (ddZZ.N c p).c 0 := by rw [c0]
  have n0 : (ddZZ.N c p).c 0 ≠ 0 := by rw [← d0]; exact star_ne_zero.2 (f3 .higgs rfl rfl)
  have c1 : (ddZZ.N c p).c 1 = poleDist (c.mass .d) ((0 : Nat) : ℝ) ((VExp.sub 0 2).sum p) := rfl
  rw [Nat.cast_zero, pole_fermion (msq_t hb (plus (p 0) (backward (p 2))) (by simp))] at c1
  have d1 : ((msq (plus (p 0) (backward (p 2))) - c.mass .d ^ 2 : ℝ) : ℂ) = (ddZZ.N c p).c 1 := by rw [c1]
  have n1 : (ddZZ.N c p).c 1 ≠ 0 := by rw [← d1]; exact_mod_cast f1 .d rfl rfl
  have c2 : (ddZZ.N c p).c 2 = poleDist (c.mass .d) ((0 : Nat) : ℝ) ((VExp.sub 0 3).sum p) := rfl
  rw [Nat.cast_zero, pole_fermion (msq_u hb (plus (p 0) (backward (p 3))) (by simp))] at c2
  have d2 : ((msq (plus (p 0) (backward (p 3))) - c.mass .d ^ 2 : ℝ) : ℂ) = (ddZZ.N c p).c 2 := by rw [c2]
  have n2 : (ddZZ.N c p).c 2 ≠ 0 := by rw [← d2]; exact_mod_cast f2 .d rfl rfl
  have m0 : ddZZ.react.mass c 0 ≠ 0 := (leg_pos hc hh (by decide)).ne'
  have m1 : ddZZ.react.mass c 1 ≠ 0 := (leg_pos hc hh (by decide)).ne'
  have m2 : ddZZ.react.mass c 2 ≠ 0 := (leg_pos hc hh (by decide)).ne'
  have m3 : ddZZ.react.mass c 3 ≠ 0 := (leg_pos hc hh (by decide)).ne'
  have hd : ddZZ.proc.divides = [(Ty.c, 0), (Ty.c, 1), (Ty.c, 2)] := by decide +kernel
  refine ⟨fun n hn => ?_, fun n hn => ?_, ?_⟩
  · simp [hd] at hn
  · simp [hd] at hn
    rcases hn with rfl | rfl | rfl
    · exact n0
    · exact n1
    · exact n2
  have st : ∀ {z0 z1 : Pair} (b0 : Bold (p 0) (ddZZ.react.mass c 0) z0) (b1 : Bold (p 1) (ddZZ.react.mass c 1) z1) (t2 t3 : Fin 3), comb t2 (fun a2 b2 => comb t3 (fun a3 b3 => ddZZ.form (ddZZ.N c p) p z0 z1 (ddZZ.react.codePair c p 2 a2) (ddZZ.react.codePair c p 2 b2) (ddZZ.react.codePair c p 3 a3) (ddZZ.react.codePair c p 3 b3))) = 1 * ddZZ.react.bare c p 1 0 2 3 z1 z0 (ddZZ.react.codeVec c p 2 t2) (ddZZ.react.codeVec c p 3 t3) := by
    intro z0 z1 b0 b1 t2 t3
    refine two_vectors (p := p 2) (p' := p 3) (m := ddZZ.react.mass c 2) (m' := ddZZ.react.mass c 3) (fun s => ddZZ.react.codePair_bold hs h0 2 s) (fun s => ddZZ.react.codePair_bold hs h0 3 s) (B := fun x y x' y' => ddZZ.form (ddZZ.N c p) p z0 z1 x y x' y') (G := fun E F => ddZZ.react.bare c p 1 0 2 3 z1 z0 E F) (fun _ _ _ _ _ => ?_) (fun _ _ _ _ _ => ?_) (fun _ _ _ _ _ => ?_) (fun _ _ _ _ _ => ?_) (fun F => ddZZ.react.bare_lin₁ c p _ _ _ (by decide)) (fun E => ddZZ.react.bare_lin₂ c p _ _ _ (by decide)) 1 (fun z2 z3 b2 b3 => ?_) t2 t3
    · exact ddZZ.form_x2 ..
    · exact ddZZ.form_y2 ..
    · exact ddZZ.form_x3 ..
    · exact ddZZ.form_y3 ..
    · rw [one_mul]; exact ddZZ.key hc hb r2 r8 r11 r12 r13 r14 d0 n0 d1 n1 d2 n2 b0 b1 b2 b3 (onShell_msq (hs 2)) (onShell_msq (hs 3)) 
  have am : ∀ (s0 : Fin 2) (s1 : Fin 2) (t2 t3 : Fin 3), Cls.ddZZ.m_amp.mean (ddZZ.N c p) (callMean (ddZZ.N c p) []) .c [spinOf s0, spinOf s1, spinV t2, spinV t3] = 1 * ddZZ.react.bare c p 1 0 2 3 (ddZZ.react.codePair c p 1 s1) (ddZZ.react.codePair c p 0 s0) (ddZZ.react.codeVec c p 2 t2) (ddZZ.react.codeVec c p 3 t3) := by
    intro s0 s1 t2 t3
    rw [ddZZ.amp_eq, ← st (ddZZ.react.codePair_bold hs h0 0 s0) (ddZZ.react.codePair_bold hs h0 1 s1) t2 t3]
    refine congrArg (comb t2) (funext fun a2 => funext fun b2 => ?_)
    refine congrArg (comb t3) (funext fun a3 => funext fun b3 => ?_)
    have v6x2x3 : (ddZZ.N c p).v 6 [spinOf a2, spinOf a3] = sb (ddZZ.react.codePair c p 2 a2).2 (ddZZ.react.codePair c p 3 a3).2 := bra_square (p := p) (m := ddZZ.proc.massNum (ddZZ.rho c)) (ddZZ.mass_eq hc 2) (ddZZ.mass_eq hc 3) (.inl ⟨m2, rfl⟩) (.inl ⟨m3, rfl⟩)
    have v7y2y3 : (ddZZ.N c p).v 7 [spinOf b2, spinOf b3] = ab (ddZZ.react.codePair c p 2 b2).1 (ddZZ.react.codePair c p 3 b3).1 := bra_angle (p := p) (m := ddZZ.proc.massNum (ddZZ.rho c)) (ddZZ.mass_eq hc 2) (ddZZ.mass_eq hc 3) (.inl ⟨m2, rfl⟩) (.inl ⟨m3, rfl⟩)
    have v0z0z1 : (ddZZ.N c p).v 0 [spinOf s0, spinOf s1] = sb (ddZZ.react.codePair c p 0 s0).2 (ddZZ.react.codePair c p 1 s1).2 := bra_square (p := p) (m := ddZZ.proc.massNum (ddZZ.rho c)) (ddZZ.mass_eq hc 0) (ddZZ.mass_eq hc 1) (.inl ⟨m0, rfl⟩) (.inl ⟨m1, rfl⟩)
    have v1z0z1 : (ddZZ.N c p).v 1 [spinOf s0, spinOf s1] = ab (ddZZ.react.codePair c p 0 s0).1 (ddZZ.react.codePair c p 1 s1).1 := bra_angle (p := p) (m := ddZZ.proc.massNum (ddZZ.rho c)) (ddZZ.mass_eq hc 0) (ddZZ.mass_eq hc 1) (.inl ⟨m0, rfl⟩) (.inl ⟨m1, rfl⟩)
    have v8z1x3 : (ddZZ.N c p).v 8 [spinOf s1, spinOf a3] = sb (ddZZ.react.codePair c p 1 s1).2 (ddZZ.react.codePair c p 3 a3).2 := bra_square (p := p) (m := ddZZ.proc.massNum (ddZZ.rho c)) (ddZZ.mass_eq hc 1) (ddZZ.mass_eq hc 3) (.inl ⟨m1, rfl⟩) (.inl ⟨m3, rfl⟩)
    have v5z0x2 : (ddZZ.N c p).v 5 [spinOf s0, spinOf a2] = ab (ddZZ.react.codePair c p 0 s0).1 (ddZZ.react.codePair c p 2 a2).1 := bra_angle (p := p) (m := ddZZ.proc.massNum (ddZZ.rho c)) (ddZZ.mass_eq hc 0) (ddZZ.mass_eq hc 2) (.inl ⟨m0, rfl⟩) (.inl ⟨m2, rfl⟩)
    have v12y2y3 : (ddZZ.N c p).v 12 [spinOf b2, spinOf b3] = mb (ddZZ.react.codePair c p 2 b2).2 (p 0) (ddZZ.react.codePair c p 3 b3).1 := bra_mid_square (p := p) (m := ddZZ.proc.massNum (ddZZ.rho c)) (ddZZ.mass_eq hc 2) (ddZZ.mass_eq hc 3) (.inl ⟨m2, rfl⟩) (.inl ⟨m3, rfl⟩)
    have v9z1x3 : (ddZZ.N c p).v 9 [spinOf s1, spinOf a3] = ab (ddZZ.react.codePair c p 1 s1).1 (ddZZ.react.codePair c p 3 a3).1 := bra_angle (p := p) (m := ddZZ.proc.massNum (ddZZ.rho c)) (ddZZ.mass_eq hc 1) (ddZZ.mass_eq hc 3) (.inl ⟨m1, rfl⟩) (.inl ⟨m3, rfl⟩)
    have v4z0x2 : (ddZZ.N c p).v 4 [spinOf s0, spinOf a2] = sb (ddZZ.react.codePair c p 0 s0).2 (ddZZ.react.codePair c p 2 a2).2 := bra_square (p := p) (m := ddZZ.proc.massNum (ddZZ.rho c)) (ddZZ.mass_eq hc 0) (ddZZ.mass_eq hc 2) (.inl ⟨m0, rfl⟩) (.inl ⟨m2, rfl⟩)
    have v6y2y3 : (ddZZ.N c p).v 6 [spinOf b2, spinOf b3] = sb (ddZZ.react.codePair c p 2 b2).2 (ddZZ.react.codePair c p 3 b3).2 := bra_square (p := p) (m := ddZZ.proc.massNum (ddZZ.rho c)) (ddZZ.mass_eq hc 2) (ddZZ.mass_eq hc 3) (.inl ⟨m2, rfl⟩) (.inl ⟨m3, rfl⟩)
    have v13y3y2 : (ddZZ.N c p).v 13 [spinOf b3, spinOf b2] = mb (ddZZ.react.codePair c p 3 b3).2 (p 0) (ddZZ.react.codePair c p 2 b2).1 := bra_mid_square (p := p) (m := ddZZ.proc.massNum (ddZZ.rho c)) (ddZZ.mass_eq hc 3) (ddZZ.mass_eq hc 2) (.inl ⟨m3, rfl⟩) (.inl ⟨m2, rfl⟩)
    have v2z1x2 : (ddZZ.N c p).v 2 [spinOf s1, spinOf a2] = sb (ddZZ.react.codePair c p 1 s1).2 (ddZZ.react.codePair c p 2 a2).2 := bra_square (p := p) (m := ddZZ.proc.massNum (ddZZ.rho c)) (ddZZ.mass_eq hc 1) (ddZZ.mass_eq hc 2) (.inl ⟨m1, rfl⟩) (.inl ⟨m2, rfl⟩)
    have v11z0x3 : (ddZZ.N c p).v 11 [spinOf s0, spinOf a3] = ab (ddZZ.react.codePair c p 0 s0).1 (ddZZ.react.codePair c p 3 a3).1 := bra_angle (p := p) (m := ddZZ.proc.massNum (ddZZ.rho c)) (ddZZ.mass_eq hc 0) (ddZZ.mass_eq hc 3) (.inl ⟨m0, rfl⟩) (.inl ⟨m3, rfl⟩)
    have v10z0x3 : (ddZZ.N c p).v 10 [spinOf s0, spinOf a3] = sb (ddZZ.react.codePair c p 0 s0).2 (ddZZ.react.codePair c p 3 a3).2 := bra_square (p := p) (m := ddZZ.proc.massNum (ddZZ.rho c)) (ddZZ.mass_eq hc 0) (ddZZ.mass_eq hc 3) (.inl ⟨m0, rfl⟩) (.inl ⟨m3, rfl⟩)
    have v3z1x2 : (ddZZ.N c p).v 3 [spinOf s1, spinOf a2] = ab (ddZZ.react.codePair c p 1 s1).1 (ddZZ.react.codePair c p 2 a2).1 := bra_angle (p := p) (m := ddZZ.proc.massNum (ddZZ.rho c)) (ddZZ.mass_eq hc 1) (ddZZ.mass_eq hc 2) (.inl ⟨m1, rfl⟩) (.inl ⟨m2, rfl⟩)
    simp only [ddZZ.term, ddZZ.form, v6x2x3, v7y2y3, v0z0z1, v1z0z1, v8z1x3, v5z0x2, v12y2y3, v9z1x3, v4z0x2, v6y2y3, v13y3y2, v2z1x2, v11z0x3, v10z0x3, v3z1x2]
    push_cast
    ring
  show meaning (ddZZ.N c p) .r Cls.ddZZ.methods Cls.ddZZ.amp2 [] = _
  have lc : ddZZ.react.lineColours 1 0 = 3 := by decide +kernel
  have s0 : ddZZ.react.states 0 = 6 := by decide
  have s1 : ddZZ.react.states 1 = 6 := by decide
  have sy : ddZZ.react.symmetry = 2 := by decide
  have p0 : ddZZ.react.spins 0 = {0, 1} := rfl
  have p1 : ddZZ.react.spins 1 = {0, 1} := rfl
  have p2 : ddZZ.react.spins 2 = Finset.univ := rfl
  have p3 : ddZZ.react.spins 3 = Finset.univ := rfl
  rw [ddZZ.value, ddZZ.react.squared_line he ht hB (noGluon_of hM) hs h0 (fun _ b _ hb _ => (boson_pos hc hh hb).ne') (ddZZ.react.gauge_massive (massive_of hM)) (E := ddZZ.react.codeVec c p) (fun n b hl => ddZZ.react.codeVec_polarised hs h0 hl (massive_of hM n b hl) (fun _ => (boson_pos hc hh (massive_of hM n b hl)).ne')) hu, sum_colours, lc, s0, s1, sy]
  simp only [sumV_sum, sumJ_sum, am, norm_mul, norm_neg, norm_one, one_mul, p0, p1, p2, p3, Finset.sum_singleton, sum_two, Matrix.cons_val_zero, Matrix.cons_val_one, Matrix.cons_val, two_castSucc]
  try simp only [← Finset.mul_sum]
  push_cast
  first | ring1 | ring_nf

/-! ### uuZZ -/

/-- what the methods of the class see -/
noncomputable abbrev uuZZ.N [FPEnv] (c : Constants) (p : Nat → V4 ℝ) : Env := uuZZ.proc.env (uuZZ.rho c) p
/-- the term that `amp` adds for a choice of spinors (SM/uuZZ.cpp) -/
noncomputable def uuZZ.term (N : Env) (w : ℝ) (x : ℂ) (j1 j2 a2 b2 a3 b3 : Int) : ℂ :=
  (((x + (((((((w * N.r 12) : ℝ) : ℂ) * N.v 6 [a2, a3]) * N.v 7 [b2, b3]) * (N.v 0 [j1, j2] + N.v 1 [j1, j2])) / N.c 0)) + (((((((((((w * N.r 11) * N.r 13) * N.r 13) : ℝ) : ℂ) * N.v 8 [j2, a3]) * N.v 5 [j1, a2]) * ((((N.r 8 : ℝ) : ℂ) * N.v 7 [b2, b3]) - N.v 12 [b2, b3])) / N.c 1) + (((((((((w * N.r 11) * N.r 14) * N.r 14) : ℝ) : ℂ) * N.v 9 [j2, a3]) * N.v 4 [j1, a2]) * ((((N.r 8 : ℝ) : ℂ) * N.v 6 [b2, b3]) - N.v 13 [b3, b2])) / N.c 1)) - ((((((((w * N.r 11) * N.r 13) * N.r 14) * N.r 2) : ℝ) : ℂ) * (((N.v 4 [j1, a2] * N.v 8 [j2, a3]) * N.v 7 [b2, b3]) + ((N.v 5 [j1, a2] * N.v 9 [j2, a3]) * N.v 6 [b2, b3]))) / N.c 1))) + ((((((((((((-w) * N.r 11) * N.r 13) * N.r 13) : ℝ) : ℂ) * N.v 2 [j2, a2]) * N.v 11 [j1, a3]) * ((((N.r 8 : ℝ) : ℂ) * N.v 7 [b2, b3]) + N.v 13 [b3, b2])) / N.c 2) - (((((((((w * N.r 11) * N.r 14) * N.r 14) : ℝ) : ℂ) * N.v 10 [j1, a3]) * N.v 3 [j2, a2]) * ((((N.r 8 : ℝ) : ℂ) * N.v 6 [b2, b3]) + N.v 12 [b2, b3])) / N.c 2)) + ((((((((w * N.r 11) * N.r 13) * N.r 14) * N.r 2) : ℝ) : ℂ) * (((N.v 10 [j1, a3] * N.v 2 [j2, a2]) * N.v 7 [b2, b3]) + ((N.v 11 [j1, a3] * N.v 3 [j2, a2]) * N.v 6 [b2, b3]))) / N.c 2)))
/-- the same with spinors in place of their spins -/
noncomputable def uuZZ.form (N : Env) (p : Nat → V4 ℝ) (z0 z1 x2 y2 x3 y3 : Pair) : ℂ :=
  (((0 + (((((((((1 : Nat) : ℝ) * N.r 12) : ℝ) : ℂ) * (sb x2.2 x3.2)) * (ab y2.1 y3.1)) * ((sb z0.2 z1.2) + (ab z0.1 z1.1))) / N.c 0)) + (((((((((((((1 : Nat) : ℝ) * N.r 11) * N.r 13) * N.r 13) : ℝ) : ℂ) * (sb z1.2 x3.2)) * (ab z0.1 x2.1)) * ((((N.r 8 : ℝ) : ℂ) * (ab y2.1 y3.1)) - (mb y2.2 (p 0) y3.1))) / N.c 1) + (((((((((((1 : Nat) : ℝ) * N.r 11) * N.r 14) * N.r 14) : ℝ) : ℂ) * (ab z1.1 x3.1)) * (sb z0.2 x2.2)) * ((((N.r 8 : ℝ) : ℂ) * (sb y2.2 y3.2)) - (mb y3.2 (p 0) y2.1))) / N.c 1)) - ((((((((((1 : Nat) : ℝ) * N.r 11) * N.r 13) * N.r 14) * N.r 2) : ℝ) : ℂ) * ((((sb z0.2 x2.2) * (sb z1.2 x3.2)) * (ab y2.1 y3.1)) + (((ab z0.1 x2.1) * (ab z1.1 x3.1)) * (sb y2.2 y3.2)))) / N.c 1))) + ((((((((((((-((1 : Nat) : ℝ)) * N.r 11) * N.r 13) * N.r 13) : ℝ) : ℂ) * (sb z1.2 x2.2)) * (ab z0.1 x3.1)) * ((((N.r 8 : ℝ) : ℂ) * (ab y2.1 y3.1)) + (mb y3.2 (p 0) y2.1))) / N.c 2) - (((((((((((1 : Nat) : ℝ) * N.r 11) * N.r 14) * N.r 14) : ℝ) : ℂ) * (sb z0.2 x3.2)) * (ab z1.1 x2.1)) * ((((N.r 8 : ℝ) : ℂ) * (sb y2.2 y3.2)) + (mb y2.2 (p 0) y3.1))) / N.c 2)) + ((((((((((1 : Nat) : ℝ) * N.r 11) * N.r 13) * N.r 14) * N.r 2) : ℝ) : ℂ) * ((((sb z0.2 x3.2) * (sb z1.2 x2.2)) * (ab y2.1 y3.1)) + (((ab z0.1 x3.1) * (ab z1.1 x2.1)) * (sb y2.2 y3.2)))) / N.c 2)))
theorem uuZZ.key {c : Constants} {p : Nat → V4 ℝ} {N : Env} (hc : c.Physical) (hb : Balanced p) (r2 : N.r 2 = (c.mass .u)) (r8 : N.r 8 = (c.MW / c.CW)) (r11 : N.r 11 = ((c.e * c.e) / ((((((2 : Nat) : ℝ) * c.MW) * c.MW) * c.SW) * c.SW))) (r12 : N.r 12 = (((c.e * c.e) * (c.mass .u)) / ((((((2 : Nat) : ℝ) * c.MW) * c.MW) * c.SW) * c.SW))) (r13 : N.r 13 = (((((-((2 : Nat) : ℝ)) * (((2 : Nat) : ℝ) / ((3 : Nat) : ℝ))) * c.SW) * c.SW) + ((1 : Nat) : ℝ))) (r14 : N.r 14 = ((((-((2 : Nat) : ℝ)) * (((2 : Nat) : ℝ) / ((3 : Nat) : ℝ))) * c.SW) * c.SW)) (d0 : pole c.MH c.WH (plus (backward (p 2)) (backward (p 3))) = N.c 0) (n0 : N.c 0 ≠ 0) (d1 : ((msq (plus (p 0) (backward (p 2))) - c.mass .u ^ 2 : ℝ) : ℂ) = N.c 1) (n1 : N.c 1 ≠ 0) (d2 : ((msq (plus (p 0) (backward (p 3))) - c.mass .u ^ 2 : ℝ) : ℂ) = N.c 2) (n2 : N.c 2 ≠ 0) {z0 z1 z2 z3 : Pair} (b0 : Bold (p 0) (c.mass .u) z0) (b1 : Bold (p 1) (c.mass .u) z1) (b2 : Bold (p 2) c.MZ z2) (b3 : Bold (p 3) c.MZ z3) (q2 : msq (p 2) = c.MZ ^ 2) (q3 : msq (p 3) = c.MZ ^ 2) :
    uuZZ.form N p z0 z1 z2 z2 z3 z3 = ((2 / (c.MZ * c.MZ) : ℝ) : ℂ) * uuZZ.react.bare c p 1 0 2 3 z1 z0 (pv z2.1 z2.2) (pv z3.1 z3.2) := by
  rw [uuZZ.react.bare_parts c p (i := 1) (j := 0) (a := 2) (b := 3) (x := .z) (y := .z) (k := (backward (p 2))) (k' := (backward (p 3))) (fun _ => rfl) (fun _ => rfl) (f := .u) (g := .u) rfl rfl (l := (p 0)) rfl (e := -1) (e' := 1) (if_pos rfl) (if_neg Bool.false_ne_true)]
  rw [compton_vv (f := .u) (x := .u) (g := .u) (h := (rfl : Spec.after .z Flavour.u = some Flavour.u)) (h' := (rfl : Spec.after .z Flavour.u = some Flavour.u)) (ha := by simp) (hb := by simp)]
  rw [compton_vv (f := .u) (x := .u) (g := .u) (h := (rfl : Spec.after .z Flavour.u = some Flavour.u)) (h' := (rfl : Spec.after .z Flavour.u = some Flavour.u)) (ha := by simp) (hb := by simp)]
  have an := annihilation_neutral c (-1) (1) z1.1 z1.2 z0.1 z0.2 ⟨.z, (backward (p 2)), pv z2.1 z2.2⟩ ⟨.z, (backward (p 3)), pv z3.1 z3.2⟩ .u
  dsimp only at an
  rw [an, uuZZ.form]
  clear an
  have Y2 := b2.back; have Q2 : msq (backward (p 2)) = (-c.MZ) ^ 2 := by rw [msq_backward, q2, neg_sq]
  have Y3 := b3.back; have Q3 : msq (backward (p 3)) = (-c.MZ) ^ 2 := by rw [msq_backward, q3, neg_sq]
  rw [lineV_massless (hx := (rfl : Boson.massive .photon = false))]
  rw [lineV_massive (hx := (rfl : Boson.massive .z = true))]
  simp only [toHiggs, toVector, higgs2, gauge3, Boson.anti, Constants.bosonMass, Constants.bosonWidth, d0, d1, d2, reduceCtorEq, and_self, and_true, and_false, and_true, if_true, if_false, Complex.ofReal_zero, zero_smul, zero_mul, mul_zero, zero_div, neg_zero, add_zero, zero_add, lineH, lineV_zero, contract_zero, lineV_smul, contract_smul, lineV_yangMills Y2 Y3, four_yangMills Y2 Y3 Q2 Q3, ym, lineV_pv, lineV_four, contract_four_pv, contract_pv, mb_plus, mb_backward]
  simp only [b0.mb_left, b0.mb_right, b1.mb_left, b1.mb_right, b2.mb_left, b2.mb_right, b3.mb_left, b3.mb_right, mb_three hb z0.2 z0.1, mb_three hb z0.2 z1.1, mb_three hb z0.2 z2.1, mb_two hb z0.2 z3.1, mb_three hb z1.2 z0.1, mb_three hb z1.2 z1.1, mb_three hb z1.2 z2.1, mb_two hb z1.2 z3.1, mb_three hb z2.2 z0.1, mb_three hb z2.2 z1.1, mb_three hb z2.2 z2.1, mb_one hb z2.2 z3.1, mb_two hb z3.2 z0.1, mb_two hb z3.2 z1.1, mb_one hb z3.2 z2.1, mb_two hb z3.2 z3.1, ab_self, sb_self]
  simp only [ab_swap z0.1 z1.1, sb_swap z0.2 z1.2, ab_swap z0.1 z2.1, sb_swap z0.2 z2.2, ab_swap z0.1 z3.1, sb_swap z0.2 z3.2, ab_swap z1.1 z2.1, sb_swap z1.2 z2.2, ab_swap z1.1 z3.1, sb_swap z1.2 z3.2, ab_swap z2.1 z3.1, sb_swap z2.2 z3.2, r2, r8, r11, r12, r13, r14, Constants.hL, Constants.hR, Constants.gL, Constants.gR, Constants.yuk, Constants.invVev, Flavour.charge_u, Flavour.isospin_u, ← c.mz]
  have xMW : (c.MW : ℂ) ≠ 0 := by exact_mod_cast hc.MW
  have xSW : (c.SW : ℂ) ≠ 0 := by exact_mod_cast hc.SW
  have xCW : (c.CW : ℂ) ≠ 0 := by exact_mod_cast hc.CW
  have x2 : ((√2 : ℝ) : ℂ) ≠ 0 := by exact_mod_cast (Real.sqrt_pos.2 two_pos).ne'
  have x22 : ((√2 : ℝ) : ℂ) ^ 2 = 2 := by rw [← Complex.ofReal_pow, Real.sq_sqrt two_pos.le]; norm_num
  push_cast
  field_simp
  first | ring1 | (ring_nf; simp only [x22]; ring1)
set_option maxRecDepth 8000 in
theorem uuZZ.amp2_eq (N : Env) (f : Nat → List Int → ℂ) : Cls.uuZZ.m_amp2.mean N f .r [] =
    ((sumJ (fun x a => (sumJ (fun x b => (sumV (fun x c => (sumV (fun x d => (x + (((3 : Nat) : ℝ) * (‖(f 0 [a, b, c, d])‖ ^ 2)))) x)) x)) x)) ((0 : Nat) : ℝ)) / ((72 : Nat) : ℝ)) := by rfl
set_option maxRecDepth 8000 in
theorem uuZZ.value (N : Env) : meaning N .r Cls.uuZZ.methods Cls.uuZZ.amp2 [] =
    ((sumJ (fun x a => (sumJ (fun x b => (sumV (fun x c => (sumV (fun x d => (x + (((3 : Nat) : ℝ) * (‖(Cls.uuZZ.m_amp.mean N (callMean N []) .c [a, b, c, d])‖ ^ 2)))) x)) x)) x)) ((0 : Nat) : ℝ)) / ((72 : Nat) : ℝ)) :=
  uuZZ.amp2_eq N (callMean N [Cls.uuZZ.m_amp])
set_option maxRecDepth 8000 in
theorem uuZZ.term_lin (N : Env) (w : ℝ) (x : ℂ) (j1 j2 a2 b2 a3 b3 : Int) : uuZZ.term N w x j1 j2 a2 b2 a3 b3 = x + (w : ℂ) * uuZZ.term N 1 0 j1 j2 a2 b2 a3 b3 := by
  simp only [uuZZ.term]; push_cast; ring
theorem uuZZ.amp_eq (N : Env) (f : Nat → List Int → ℂ) (j1 j2 : Int) (t2 t3 : Fin 3) : Cls.uuZZ.m_amp.mean N f .c [j1, j2, spinV t2, spinV t3] = comb t2 (fun a2 b2 => comb t3 (fun a3 b3 => uuZZ.term N 1 0 j1 j2 (spinOf a2) (spinOf b2) (spinOf a3) (spinOf b3))) := by
  refine (amp_mean N f (m := 4) (K := 8) (G := fun i => uuZZ.term N 1 0 (i 0) (i 1) (i 4) (i 5) (i 6) (i 7)) (fun l => ?_) (fun i i' h => ?_) rfl (by decide) (by decide) (by decide) (by decide) (by decide)).trans ?_
  · refine ⟨_, rfl, ?_⟩; exact ⟨rfl, rfl, uuZZ.term_lin ..⟩
  · simp only [h 0 (by decide), h 1 (by decide), h 4 (by decide), h 5 (by decide), h 6 (by decide), h 7 (by decide)]
  · show amp' _ [spinV t2, spinV t3] = _
    simp only [amp'_comb, amp'_nil]
    rfl
theorem uuZZ.form_x2 (N : Env) (p : Nat → V4 ℝ) (z0 z1 y2 x3 y3 x y : Pair) : uuZZ.form N p z0 z1 (x + y) y2 x3 y3 = uuZZ.form N p z0 z1 x y2 x3 y3 + uuZZ.form N p z0 z1 y y2 x3 y3 := by
  simp only [uuZZ.form, Prod.fst_add, Prod.snd_add, ab_add_left, ab_add_right, sb_add_left, sb_add_right, mb_add_left, mb_add_right]
  ring
theorem uuZZ.form_y2 (N : Env) (p : Nat → V4 ℝ) (z0 z1 x2 x3 y3 x y : Pair) : uuZZ.form N p z0 z1 x2 (x + y) x3 y3 = uuZZ.form N p z0 z1 x2 x x3 y3 + uuZZ.form N p z0 z1 x2 y x3 y3 := by
  simp only [uuZZ.form, Prod.fst_add, Prod.snd_add, ab_add_left, ab_add_right, sb_add_left, sb_add_right, mb_add_left, mb_add_right]
  ring
theorem uuZZ.form_x3 (N : Env) (p : Nat → V4 ℝ) (z0 z1 x2 y2 y3 x y : Pair) : uuZZ.form N p z0 z1 x2 y2 (x + y) y3 = uuZZ.form N p z0 z1 x2 y2 x y3 + uuZZ.form N p z0 z1 x2 y2 y y3 := by
  simp only [uuZZ.form, Prod.fst_add, Prod.snd_add, ab_add_left, ab_add_right, sb_add_left, sb_add_right, mb_add_left, mb_add_right]
  ring
theorem uuZZ.form_y3 (N : Env) (p : Nat → V4 ℝ) (z0 z1 x2 y2 x3 x y : Pair) : uuZZ.form N p z0 z1 x2 y2 x3 (x + y) = uuZZ.form N p z0 z1 x2 y2 x3 x + uuZZ.form N p z0 z1 x2 y2 x3 y := by
  simp only [uuZZ.form, Prod.fst_add, Prod.snd_add, ab_add_left, ab_add_right, sb_add_left, sb_add_right, mb_add_left, mb_add_right]
  ring

theorem uuZZ.mass_eq {c : Constants} (hc : c.Physical) (i : Fin 4) : uuZZ.proc.massNum (uuZZ.rho c) i = uuZZ.react.mass c i := by
  fin_cases i <;> first | rfl | exact Nat.cast_zero.trans (hc.neutrino _).symm | (show c.MW / √(((1 : Nat) : ℝ) - c.SW * c.SW) = c.MZ; rw [c.root, c.mz])

variable [FPEnv] in
theorem uuZZ.agrees : uuZZ.Agrees := by
  refine agrees_of (D := [4, 5]) (E := [5]) (by simp [all, uuZZ]) (by decide +kernel) (by decide) (by decide +kernel) (fun c hc hh => ⟨List.forall_mem_cons.2 ⟨hc.MW, List.forall_mem_cons.2 ⟨hc.SW, List.forall_mem_nil _⟩⟩, List.forall_mem_cons.2 ⟨hc.SW_lt, List.forall_mem_nil _⟩⟩) (fun c hc i => uuZZ.mass_eq hc i) (by decide +kernel) ?_
  intro c p u ε hc hh hw h0 hs hb hr hu
  have he : uuZZ.react.ends = [1] := by decide
  have ht : uuZZ.react.starts = [0] := by decide
  have hB : uuZZ.react.bosons = [2, 3] := by decide
  have hM : uuZZ.react.allMassive = true := by decide
  obtain ⟨f1, f2, f3⟩ := uuZZ.react.regular_line he ht hB hr
  have r2 : (uuZZ.N c p).r 2 = (c.mass .u) := rfl
  have r8 : (uuZZ.N c p).r 8 = (c.MW / √((((1 : Nat) : ℝ) - (c.SW * c.SW)))) := rfl
  simp only [c.root] at r8
  have r11 : (uuZZ.N c p).r 11 = ((c.e * c.e) / ((((((2 : Nat) : ℝ) * c.MW) * c.MW) * c.SW) * c.SW)) := rfl
  have r12 : (uuZZ.N c p).r 12 = (((c.e * c.e) * (c.mass .u)) / ((((((2 : Nat) : ℝ) * c.MW) * c.MW) * c.SW) * c.SW)) := rfl
  have r13 : (uuZZ.N c p).r 13 = (((((-((2 : Nat) : ℝ)) * (((2 : Nat) : ℝ) / ((3 : Nat) : ℝ))) * c.SW) * c.SW) + ((1 : Nat) : ℝ)) := rfl
  have r14 : (uuZZ.N c p).r 14 = ((((-((2 : Nat) : ℝ)) * (((2 : Nat) : ℝ) / ((3 : Nat) : ℝ))) * c.SW) * c.SW) := rfl
  have c0 : (uuZZ.N c p).c 0 = poleDist c.MH c.WH ((VExp.add 0 1).sum p) := rfl
  rw [pole_congr (msq_s hb (plus (backward (p 2)) (backward (p 3))) (by simp)).symm] at c0
  have d0 : pole c.MH c.WH (plus (backward (p 2)) (backward (p 3))) = (uuZZ.N c p).c 0 := by rw [c0]
  have n0 : (uuZZ.N c p).c 0 ≠ 0 := by rw [← d0]; exact star_ne_zero.2 (f3 .higgs rfl rfl)
  have c1 : (uuZZ.N c p).c 1 = poleDist (c.mass .u) ((0 : Nat) : ℝ) ((VExp.sub 0 2).sum p) := rfl
  rw [Nat.cast_zero, pole_fermion (msq_t hb (plus (p 0) (backward (p 2))) (by simp))] at c1
  have d1 : ((msq (plus (p 0) (backward (p 2))) - c.mass .u ^ 2 : ℝ) : ℂ) = (uuZZ.N c p).c 1 := by rw [c1]
  have n1 : (uuZZ.N c p).c 1 ≠ 0 := by rw [← d1]; exact_mod_cast f1 .u rfl rfl
  have c2 : (uuZZ.N c p).c 2 = poleDist (c.mass .u) ((0 : Nat) : ℝ) ((VExp.sub 0 3).sum p) := rfl
  rw [Nat.cast_zero, pole_fermion (msq_u hb (plus (p 0) (backward (p 3))) (by simp))] at c2
  have d2 : ((msq (plus (p 0) (backward (p 3))) - c.mass .u ^ 2 : ℝ) : ℂ) = (uuZZ.N c p).c 2 := by rw [c2]
  have n2 : (uuZZ.N c p).c 2 ≠ 0 := by rw [← d2]; exact_mod_cast f2 .u rfl rfl
  have m0 : uuZZ.react.mass c 0 ≠ 0 := (leg_pos hc hh (by decide)).ne'
  have m1 : uuZZ.react.mass c 1 ≠ 0 := (leg_pos hc hh (by decide)).ne'
  have m2 : uuZZ.react.mass c 2 ≠ 0 := (leg_pos hc hh (by decide)).ne'
  have m3 : uuZZ.react.mass c 3 ≠ 0 := (leg_pos hc hh (by decide)).ne'
  have hd : uuZZ.proc.divides = [(Ty.c, 0), (Ty.c, 1), (Ty.c, 2)] := by decide +kernel
  refine ⟨fun n hn => ?_, fun n hn => ?_, ?_⟩
  · simp [hd] at hn
  · simp [hd] at hn
    rcases hn with rfl | rfl | rfl
    · exact n0
    · exact n1
    · exact n2
  have st : ∀ {z0 z1 : Pair} (b0 : Bold (p 0) (uuZZ.react.mass c 0) z0) (b1 : Bold (p 1) (uuZZ.react.mass c 1) z1) (t2 t3 : Fin 3), comb t2 (fun a2 b2 => comb t3 (fun a3 b3 => uuZZ.form (uuZZ.N c p) p z0 z1 (uuZZ.react.codePair c p 2 a2) (uuZZ.react.codePair c p 2 b2) (uuZZ.react.codePair c p 3 a3) (uuZZ.react.codePair c p 3 b3))) = 1 * uuZZ.react.bare c p 1 0 2 3 z1 z0 (uuZZ.react.codeVec c p 2 t2) (uuZZ.react.codeVec c p 3 t3) := by
    intro z0 z1 b0 b1 t2 t3
    refine two_vectors (p := p 2) (p' := p 3) (m := uuZZ.react.mass c 2) (m' := uuZZ.react.mass c 3) (fun s => uuZZ.react.codePair_bold hs h0 2 s) (fun s => uuZZ.react.codePair_bold hs h0 3 s) (B := fun x y x' y' => uuZZ.form (uuZZ.N c p) p z0 z1 x y x' y') (G := fun E F => uuZZ.react.bare c p 1 0 2 3 z1 z0 E F) (fun _ _ _ _ _ => ?_) (fun _ _ _ _ _ => ?_) (fun _ _ _ _ _ => ?_) (fun _ _ _ _ _ => ?_) (fun F => uuZZ.react.bare_lin₁ c p _ _ _ (by decide)) (fun E => uuZZ.react.bare_lin₂ c p _ _ _ (by decide)) 1 (fun z2 z3 b2 b3 => ?_) t2 t3
    · exact uuZZ.form_x2 ..
    · exact uuZZ.form_y2 ..
    · exact uuZZ.form_x3 ..
    · exact uuZZ.form_y3 ..
    · rw [one_mul]; exact uuZZ.key hc hb r2 r8 r11 r12 r13 r14 d0 n0 d1 n1 d2 n2 b0 b1 b2 b3 (onShell_msq (hs 2)) (onShell_msq (hs 3)) 
  have am : ∀ (s0 : Fin 2) (s1 : Fin 2) (t2 t3 : Fin 3), Cls.uuZZ.m_amp.mean (uuZZ.N c p) (callMean (uuZZ.N c p) []) .c [spinOf s0, spinOf s1, spinV t2, spinV t3] = 1 * uuZZ.react.bare c p 1 0 2 3 (uuZZ.react.codePair c p 1 s1) (uuZZ.react.codePair c p 0 s0) (uuZZ.react.codeVec c p 2 t2) (uuZZ.react.codeVec c p 3 t3) := by
    intro s0 s1 t2 t3
    rw [uuZZ.amp_eq, ← st (uuZZ.react.codePair_bold hs h0 0 s0) (uuZZ.react.codePair_bold hs h0 1 s1) t2 t3]
    refine congrArg (comb t2) (funext fun a2 => funext fun b2 => ?_)
    refine congrArg (comb t3) (funext fun a3 => funext fun b3 => ?_)
    have v6x2x3 : (uuZZ.N c p).v 6 [spinOf a2, spinOf a3] = sb (uuZZ.react.codePair c p 2 a2).2 (uuZZ.react.codePair c p 3 a3).2 := bra_square (p := p) (m := uuZZ.proc.massNum (uuZZ.rho c)) (uuZZ.mass_eq hc 2) (uuZZ.mass_eq hc 3) (.inl ⟨m2, rfl⟩) (.inl ⟨m3, rfl⟩)
    have v7y2y3 : (uuZZ.N c p).v 7 [spinOf b2, spinOf b3] = ab (uuZZ.react.codePair c p 2 b2).1 (uuZZ.react.codePair c p 3 b3).1 := bra_angle (p := p) (m := uuZZ.proc.massNum (uuZZ.rho c)) (uuZZ.mass_eq hc 2) (uuZZ.mass_eq hc 3) (.inl ⟨m2, rfl⟩) (.inl ⟨m3, rfl⟩)
    have v0z0z1 : (uuZZ.N c p).v 0 [spinOf s0, spinOf s1] = sb (uuZZ.react.codePair c p 0 s0).2 (uuZZ.react.codePair c p 1 s1).2 := bra_square (p := p) (m := uuZZ.proc.massNum (uuZZ.rho c)) (uuZZ.mass_eq hc 0) (uuZZ.mass_eq hc 1) (.inl ⟨m0, rfl⟩) (.inl ⟨m1, rfl⟩)
    have v1z0z1 : (uuZZ.N c p).v 1 [spinOf s0, spinOf s1] = ab (uuZZ.react.codePair c p 0 s0).1 (uuZZ.react.codePair c p 1 s1).1 := bra_angle (p := p) (m := uuZZ.proc.massNum (uuZZ.rho c)) (uuZZ.mass_eq hc 0) (uuZZ.mass_eq hc 1) (.inl ⟨m0, rfl⟩) (.inl ⟨m1, rfl⟩)
    have v8z1x3 : (uuZZ.N c p).v 8 [spinOf s1, spinOf a3] = sb (uuZZ.react.codePair c p 1 s1).2 (uuZZ.react.codePair c p 3 a3).2 := bra_square (p := p) (m := uuZZ.proc.massNum (uuZZ.rho c)) (uuZZ.mass_eq hc 1) (uuZZ.mass_eq hc 3) (.inl ⟨m1, rfl⟩) (.inl ⟨m3, rfl⟩)
    have v5z0x2 : (uuZZ.N c p).v 5 [spinOf s0, spinOf a2] = ab (uuZZ.react.codePair c p 0 s0).1 (uuZZ.react.codePair c p 2 a2).1 := bra_angle (p := p) (m := uuZZ.proc.massNum (uuZZ.rho c)) (uuZZ.mass_eq hc 0) (uuZZ.mass_eq hc 2) (.inl ⟨m0, rfl⟩) (.inl ⟨m2, rfl⟩)
    have v12y2y3 : (uuZZ.N c p).v 12 [spinOf b2, spinOf b3] = mb (uuZZ.react.codePair c p 2 b2).2 (p 0) (uuZZ.react.codePair c p 3 b3).1 := bra_mid_square (p := p) (m := uuZZ.proc.massNum (uuZZ.rho c)) (uuZZ.mass_eq hc 2) (uuZZ.mass_eq hc 3) (.inl ⟨m2, rfl⟩) (.inl ⟨m3, rfl⟩)
    have v9z1x3 : (uuZZ.N c p).v 9 [spinOf s1, spinOf a3] = ab (uuZZ.react.codePair c p 1 s1).1 (uuZZ.react.codePair c p 3 a3).1 := bra_angle (p := p) (m := uuZZ.proc.massNum (uuZZ.rho c)) (uuZZ.mass_eq hc 1) (uuZZ.mass_eq hc 3) (.inl ⟨m1, rfl⟩) (.inl ⟨m3, rfl⟩)
    have v4z0x2 : (uuZZ.N c p).v 4 [spinOf s0, spinOf a2] = sb (uuZZ.react.codePair c p 0 s0).2 (uuZZ.react.codePair c p 2 a2).2 := bra_square (p := p) (m := uuZZ.proc.massNum (uuZZ.rho c)) (uuZZ.mass_eq hc 0) (uuZZ.mass_eq hc 2) (.inl ⟨m0, rfl⟩) (.inl ⟨m2, rfl⟩)
    have v6y2y3 : (uuZZ.N c p).v 6 [spinOf b2, spinOf b3] = sb (uuZZ.react.codePair c p 2 b2).2 (uuZZ.react.codePair c p 3 b3).2 := bra_square (p := p) (m := uuZZ.proc.massNum (uuZZ.rho c)) (uuZZ.mass_eq hc 2) (uuZZ.mass_eq hc 3) (.inl ⟨m2, rfl⟩) (.inl ⟨m3, rfl⟩)
    have v13y3y2 : (uuZZ.N c p).v 13 [spinOf b3, spinOf b2] = mb (uuZZ.react.codePair c p 3 b3).2 (p 0) (uuZZ.react.codePair c p 2 b2).1 := bra_mid_square (p := p) (m := uuZZ.proc.massNum (uuZZ.rho c)) (uuZZ.mass_eq hc 3) (uuZZ.mass_eq hc 2) (.inl ⟨m3, rfl⟩) (.inl ⟨m2, rfl⟩)
    have v2z1x2 : (uuZZ.N c p).v 2 [spinOf s1, spinOf a2] = sb (uuZZ.react.codePair c p 1 s1).2 (uuZZ.react.codePair c p 2 a2).2 := bra_square (p := p) (m := uuZZ.proc.massNum (uuZZ.rho c)) (uuZZ.mass_eq hc 1) (uuZZ.mass_eq hc 2) (.inl ⟨m1, rfl⟩) (.inl ⟨m2, rfl⟩)
    have v11z0x3 : (uuZZ.N c p).v 11 [spinOf s0, spinOf a3] = ab (uuZZ.react.codePair c p 0 s0).1 (uuZZ.react.codePair c p 3 a3).1 := bra_angle (p := p) (m := uuZZ.proc.massNum (uuZZ.rho c)) (uuZZ.mass_eq hc 0) (uuZZ.mass_eq hc 3) (.inl ⟨m0, rfl⟩) (.inl ⟨m3, rfl⟩)
    have v10z0x3 : (uuZZ.N c p).v 10 [spinOf s0, spinOf a3] = sb (uuZZ.react.codePair c p 0 s0).2 (uuZZ.react.codePair c p 3 a3).2 := bra_square (p := p) (m := uuZZ.proc.massNum (uuZZ.rho c)) (uuZZ.mass_eq hc 0) (uuZZ.mass_eq hc 3) (.inl ⟨m0, rfl⟩) (.inl ⟨m3, rfl⟩)
    have v3z1x2 : (uuZZ.N c p).v 3 [spinOf s1, spinOf a2] = ab (uuZZ.react.codePair c p 1 s1).1 (uuZZ.react.codePair c p 2 a2).1 := bra_angle (p := p) (m := uuZZ.proc.massNum (uuZZ.rho c)) (uuZZ.mass_eq hc 1) (uuZZ.mass_eq hc 2) (.inl ⟨m1, rfl⟩) (.inl ⟨m2, rfl⟩)
    simp only [uuZZ.term, uuZZ.form, v6x2x3, v7y2y3, v0z0z1, v1z0z1, v8z1x3, v5z0x2, v12y2y3, v9z1x3, v4z0x2, v6y2y3, v13y3y2, v2z1x2, v11z0x3, v10z0x3, v3z1x2]
    push_cast
    ring
  show meaning (uuZZ.N c p) .r Cls.uuZZ.methods Cls.uuZZ.amp2 [] = _
  have lc : uuZZ.react.lineColours 1 0 = 3 := by decide +kernel
  have s0 : uuZZ.react.states 0 = 6 := by decide
  have s1 : uuZZ.react.states 1 = 6 := by decide
  have sy : uuZZ.react.symmetry = 2 := by decide
  have p0 : uuZZ.react.spins 0 = {0, 1} := rfl
  have p1 : uuZZ.react.spins 1 = {0, 1} := rfl
  have p2 : uuZZ.react.spins 2 = Finset.univ := rfl
  have p3 : uuZZ.react.spins 3 = Finset.univ := rfl
  rw [uuZZ.value, uuZZ.react.squared_line he ht hB (noGluon_of hM) hs h0 (fun _ b _ hb _ => (boson_pos hc hh hb).ne') (uuZZ.react.gauge_massive (massive_of hM)) (E := uuZZ.react.codeVec c p) (fun n b hl => uuZZ.react.codeVec_polarised hs h0 hl (massive_of hM n b hl) (fun _ => (boson_pos hc hh (massive_of hM n b hl)).ne')) hu, sum_colours, lc, s0, s1, sy]
  simp only [sumV_sum, sumJ_sum, am, norm_mul, norm_neg, norm_one, one_mul, p0, p1, p2, p3, Finset.sum_singleton, sum_two, Matrix.cons_val_zero, Matrix.cons_val_one, Matrix.cons_val, two_castSucc]
  try simp only [← Finset.mul_sum]
  push_cast
  first | ring1 | ring_nf

/-! ### nnZZ -/

/-- what the methods of the class see -/
noncomputable abbrev nnZZ.N [FPEnv] (c : Constants) (p : Nat → V4 ℝ) : Env := nnZZ.proc.env (nnZZ.rho c) p
/-- the term that `amp` adds for a choice of spinors (SM/nnZZ.cpp) -/
noncomputable def nnZZ.term (N : Env) (w : ℝ) (x : ℂ) (a2 b2 a3 b3 : Int) : ℂ :=
  ((x + (((((((w * N.r 7) : ℝ) : ℂ) * N.v 1 [a3]) * N.v 2 [a2]) * ((((N.r 4 : ℝ) : ℂ) * N.v 4 [b2, b3]) - N.v 5 [b2, b3])) / N.c 0)) + ((((((((-w) * N.r 7) : ℝ) : ℂ) * N.v 0 [a2]) * N.v 3 [a3]) * ((((N.r 4 : ℝ) : ℂ) * N.v 4 [b2, b3]) + N.v 6 [b3, b2])) / N.c 1))
/-- the same with spinors in place of their spins -/
noncomputable def nnZZ.form (N : Env) (p : Nat → V4 ℝ) (z0 z1 x2 y2 x3 y3 : Pair) : ℂ :=
  ((0 + (((((((((1 : Nat) : ℝ) * N.r 7) : ℝ) : ℂ) * (sb z1.2 x3.2)) * (ab z0.1 x2.1)) * ((((N.r 4 : ℝ) : ℂ) * (ab y2.1 y3.1)) - (mb y2.2 (p 0) y3.1))) / N.c 0)) + ((((((((-((1 : Nat) : ℝ)) * N.r 7) : ℝ) : ℂ) * (sb z1.2 x2.2)) * (ab z0.1 x3.1)) * ((((N.r 4 : ℝ) : ℂ) * (ab y2.1 y3.1)) + (mb y3.2 (p 0) y2.1))) / N.c 1))
theorem nnZZ.key {c : Constants} {p : Nat → V4 ℝ} {N : Env} (hc : c.Physical) (hb : Balanced p) (r4 : N.r 4 = (c.MW / c.CW)) (r7 : N.r 7 = ((c.e * c.e) / ((((((2 : Nat) : ℝ) * c.MW) * c.MW) * c.SW) * c.SW))) (d0 : ((msq (plus (p 0) (backward (p 2))) - c.mass .ne ^ 2 : ℝ) : ℂ) = N.c 0) (n0 : N.c 0 ≠ 0) (d1 : ((msq (plus (p 0) (backward (p 3))) - c.mass .ne ^ 2 : ℝ) : ℂ) = N.c 1) (n1 : N.c 1 ≠ 0) {z0 z1 z2 z3 : Pair} (b0 : Bold (p 0) (c.mass .ne) z0) (b1 : Bold (p 1) (c.mass .ne) z1) (b2 : Bold (p 2) c.MZ z2) (b3 : Bold (p 3) c.MZ z3) (q2 : msq (p 2) = c.MZ ^ 2) (q3 : msq (p 3) = c.MZ ^ 2) :
    nnZZ.form N p z0 z1 z2 z2 z3 z3 = ((2 / (c.MZ * c.MZ) : ℝ) : ℂ) * nnZZ.react.bare c p 1 0 2 3 z1 z0 (pv z2.1 z2.2) (pv z3.1 z3.2) := by
  rw [nnZZ.react.bare_parts c p (i := 1) (j := 0) (a := 2) (b := 3) (x := .z) (y := .z) (k := (backward (p 2))) (k' := (backward (p 3))) (fun _ => rfl) (fun _ => rfl) (f := .ne) (g := .ne) rfl rfl (l := (p 0)) rfl (e := -1) (e' := 1) (if_pos rfl) (if_neg Bool.false_ne_true)]
  rw [compton_vv (f := .ne) (x := .ne) (g := .ne) (h := (rfl : Spec.after .z Flavour.ne = some Flavour.ne)) (h' := (rfl : Spec.after .z Flavour.ne = some Flavour.ne)) (ha := by simp) (hb := by simp)]
  rw [compton_vv (f := .ne) (x := .ne) (g := .ne) (h := (rfl : Spec.after .z Flavour.ne = some Flavour.ne)) (h' := (rfl : Spec.after .z Flavour.ne = some Flavour.ne)) (ha := by simp) (hb := by simp)]
  have an := annihilation_neutral c (-1) (1) z1.1 z1.2 z0.1 z0.2 ⟨.z, (backward (p 2)), pv z2.1 z2.2⟩ ⟨.z, (backward (p 3)), pv z3.1 z3.2⟩ .ne
  dsimp only at an
  rw [an, nnZZ.form]
  clear an
  have Y2 := b2.back; have Q2 : msq (backward (p 2)) = (-c.MZ) ^ 2 := by rw [msq_backward, q2, neg_sq]
  have Y3 := b3.back; have Q3 : msq (backward (p 3)) = (-c.MZ) ^ 2 := by rw [msq_backward, q3, neg_sq]
  rw [lineV_massless (hx := (rfl : Boson.massive .photon = false))]
  rw [lineV_massive (hx := (rfl : Boson.massive .z = true))]
  simp only [toHiggs, toVector, higgs2, gauge3, Boson.anti, Constants.bosonMass, Constants.bosonWidth, d0, d1, reduceCtorEq, and_self, and_true, and_false, and_true, if_true, if_false, Complex.ofReal_zero, zero_smul, zero_mul, mul_zero, zero_div, neg_zero, add_zero, zero_add, lineH, lineV_zero, contract_zero, lineV_smul, contract_smul, lineV_yangMills Y2 Y3, four_yangMills Y2 Y3 Q2 Q3, ym, lineV_pv, lineV_four, contract_four_pv, contract_pv, mb_plus, mb_backward]
  simp only [b0.mb_left, b0.mb_right, b1.mb_left, b1.mb_right, b2.mb_left, b2.mb_right, b3.mb_left, b3.mb_right, mb_three hb z0.2 z0.1, mb_three hb z0.2 z1.1, mb_three hb z0.2 z2.1, mb_two hb z0.2 z3.1, mb_three hb z1.2 z0.1, mb_three hb z1.2 z1.1, mb_three hb z1.2 z2.1, mb_two hb z1.2 z3.1, mb_three hb z2.2 z0.1, mb_three hb z2.2 z1.1, mb_three hb z2.2 z2.1, mb_one hb z2.2 z3.1, mb_two hb z3.2 z0.1, mb_two hb z3.2 z1.1, mb_one hb z3.2 z2.1, mb_two hb z3.2 z3.1, ab_self, sb_self]
  have hne : c.mass .ne = 0 := hc.neutrino _
  simp only [ab_swap z0.1 z1.1, sb_swap z0.2 z1.2, ab_swap z0.1 z2.1, sb_swap z0.2 z2.2, ab_swap z0.1 z3.1, sb_swap z0.2 z3.2, ab_swap z1.1 z2.1, sb_swap z1.2 z2.2, ab_swap z1.1 z3.1, sb_swap z1.2 z3.2, ab_swap z2.1 z3.1, sb_swap z2.2 z3.2, r4, r7, Constants.hL, Constants.hR, Constants.gL, Constants.gR, Constants.yuk, Constants.invVev, Flavour.charge_ne, Flavour.isospin_ne, hne, ← c.mz]
  have xMW : (c.MW : ℂ) ≠ 0 := by exact_mod_cast hc.MW
  have xSW : (c.SW : ℂ) ≠ 0 := by exact_mod_cast hc.SW
  have xCW : (c.CW : ℂ) ≠ 0 := by exact_mod_cast hc.CW
  have x2 : ((√2 : ℝ) : ℂ) ≠ 0 := by exact_mod_cast (Real.sqrt_pos.2 two_pos).ne'
  have x22 : ((√2 : ℝ) : ℂ) ^ 2 = 2 := by rw [← Complex.ofReal_pow, Real.sq_sqrt two_pos.le]; norm_num
  push_cast
  field_simp
  first | ring1 | (ring_nf; simp only [x22]; ring1)
set_option maxRecDepth 8000 in
theorem nnZZ.amp2_eq (N : Env) (f : Nat → List Int → ℂ) : Cls.nnZZ.m_amp2.mean N f .r [] =
    ((sumV (fun x a => (sumV (fun x b => (x + (‖(f 0 [a, b])‖ ^ 2))) x)) ((0 : Nat) : ℝ)) / ((2 : Nat) : ℝ)) := by rfl
set_option maxRecDepth 8000 in
theorem nnZZ.value (N : Env) : meaning N .r Cls.nnZZ.methods Cls.nnZZ.amp2 [] =
    ((sumV (fun x a => (sumV (fun x b => (x + (‖(Cls.nnZZ.m_amp.mean N (callMean N []) .c [a, b])‖ ^ 2))) x)) ((0 : Nat) : ℝ)) / ((2 : Nat) : ℝ)) :=
  nnZZ.amp2_eq N (callMean N [Cls.nnZZ.m_amp])
set_option maxRecDepth 8000 in
theorem nnZZ.term_lin (N : Env) (w : ℝ) (x : ℂ) (a2 b2 a3 b3 : Int) : nnZZ.term N w x a2 b2 a3 b3 = x + (w : ℂ) * nnZZ.term N 1 0 a2 b2 a3 b3 := by
  simp only [nnZZ.term]; push_cast; ring
theorem nnZZ.amp_eq (N : Env) (f : Nat → List Int → ℂ) (t2 t3 : Fin 3) : Cls.nnZZ.m_amp.mean N f .c [spinV t2, spinV t3] = comb t2 (fun a2 b2 => comb t3 (fun a3 b3 => nnZZ.term N 1 0 (spinOf a2) (spinOf b2) (spinOf a3) (spinOf b3))) := by
  refine (amp_mean N f (m := 2) (K := 6) (G := fun i => nnZZ.term N 1 0 (i 2) (i 3) (i 4) (i 5)) (fun l => ?_) (fun i i' h => ?_) rfl (by decide) (by decide) (by decide) (by decide) (by decide)).trans ?_
  · refine ⟨_, rfl, ?_⟩; exact ⟨rfl, rfl, nnZZ.term_lin ..⟩
  · simp only [h 2 (by decide), h 3 (by decide), h 4 (by decide), h 5 (by decide)]
  · show amp' _ [spinV t2, spinV t3] = _
    simp only [amp'_comb, amp'_nil]
    rfl
theorem nnZZ.form_x2 (N : Env) (p : Nat → V4 ℝ) (z0 z1 y2 x3 y3 x y : Pair) : nnZZ.form N p z0 z1 (x + y) y2 x3 y3 = nnZZ.form N p z0 z1 x y2 x3 y3 + nnZZ.form N p z0 z1 y y2 x3 y3 := by
  simp only [nnZZ.form, Prod.fst_add, Prod.snd_add, ab_add_left, ab_add_right, sb_add_left, sb_add_right, mb_add_left, mb_add_right]
  ring
theorem nnZZ.form_y2 (N : Env) (p : Nat → V4 ℝ) (z0 z1 x2 x3 y3 x y : Pair) : nnZZ.form N p z0 z1 x2 (x + y) x3 y3 = nnZZ.form N p z0 z1 x2 x x3 y3 + nnZZ.form N p z0 z1 x2 y x3 y3 := by
  simp only [nnZZ.form, Prod.fst_add, Prod.snd_add, ab_add_left, ab_add_right, sb_add_left, sb_add_right, mb_add_left, mb_add_right]
  ring
theorem nnZZ.form_x3 (N : Env) (p : Nat → V4 ℝ) (z0 z1 x2 y2 y3 x y : Pair) : nnZZ.form N p z0 z1 x2 y2 (x + y) y3 = nnZZ.form N p z0 z1 x2 y2 x y3 + nnZZ.form N p z0 z1 x2 y2 y y3 := by
  simp only [nnZZ.form, Prod.fst_add, Prod.snd_add, ab_add_left, ab_add_right, sb_add_left, sb_add_right, mb_add_left, mb_add_right]
  ring
theorem nnZZ.form_y3 (N : Env) (p : Nat → V4 ℝ) (z0 z1 x2 y2 x3 x y : Pair) : nnZZ.form N p z0 z1 x2 y2 x3 (x + y) = nnZZ.form N p z0 z1 x2 y2 x3 x + nnZZ.form N p z0 z1 x2 y2 x3 y := by
  simp only [nnZZ.form, Prod.fst_add, Prod.snd_add, ab_add_left, ab_add_right, sb_add_left, sb_add_right, mb_add_left, mb_add_right]
  ring
theorem nnZZ.form_zero0 (N : Env) (p : Nat → V4 ℝ) {z0 : Pair} (z1 x2 y2 x3 y3 : Pair) (h : z0.1 = 0) : nnZZ.form N p z0 z1 x2 y2 x3 y3 = 0 := by
  simp [nnZZ.form, h, ab_zero, sb_zero, mb_zero]
theorem nnZZ.form_zero1 (N : Env) (p : Nat → V4 ℝ) {z1 : Pair} (z0 x2 y2 x3 y3 : Pair) (h : z1.2 = 0) : nnZZ.form N p z0 z1 x2 y2 x3 y3 = 0 := by
  simp [nnZZ.form, h, ab_zero, sb_zero, mb_zero]

theorem nnZZ.mass_eq {c : Constants} (hc : c.Physical) (i : Fin 4) : nnZZ.proc.massNum (nnZZ.rho c) i = nnZZ.react.mass c i := by
  fin_cases i <;> first | rfl | exact Nat.cast_zero.trans (hc.neutrino _).symm | (show c.MW / √(((1 : Nat) : ℝ) - c.SW * c.SW) = c.MZ; rw [c.root, c.mz])

variable [FPEnv] in
theorem nnZZ.agrees : nnZZ.Agrees := by
  refine agrees_of (D := [1, 2]) (E := [2]) (by simp [all, nnZZ]) (by decide +kernel) (by decide) (by decide +kernel) (fun c hc hh => ⟨List.forall_mem_cons.2 ⟨hc.MW, List.forall_mem_cons.2 ⟨hc.SW, List.forall_mem_nil _⟩⟩, List.forall_mem_cons.2 ⟨hc.SW_lt, List.forall_mem_nil _⟩⟩) (fun c hc i => nnZZ.mass_eq hc i) (by decide +kernel) ?_
  intro c p u ε hc hh hw h0 hs hb hr hu
  have he : nnZZ.react.ends = [1] := by decide
  have ht : nnZZ.react.starts = [0] := by decide
  have hB : nnZZ.react.bosons = [2, 3] := by decide
  have hM : nnZZ.react.allMassive = true := by decide
  obtain ⟨f1, f2, f3⟩ := nnZZ.react.regular_line he ht hB hr
  have r4 : (nnZZ.N c p).r 4 = (c.MW / √((((1 : Nat) : ℝ) - (c.SW * c.SW)))) := rfl
  simp only [c.root] at r4
  have r7 : (nnZZ.N c p).r 7 = ((c.e * c.e) / ((((((2 : Nat) : ℝ) * c.MW) * c.MW) * c.SW) * c.SW)) := rfl
  have c0 : (nnZZ.N c p).c 0 = poleDist ((0 : Nat) : ℝ) ((0 : Nat) : ℝ) ((VExp.sub 0 2).sum p) := rfl
  rw [Nat.cast_zero, pole_fermion (msq_t hb (plus (p 0) (backward (p 2))) (by simp))] at c0
  have d0 : ((msq (plus (p 0) (backward (p 2))) - c.mass .ne ^ 2 : ℝ) : ℂ) = (nnZZ.N c p).c 0 := by rw [c0, show c.mass .ne = 0 from hc.neutrino _]
  have n0 : (nnZZ.N c p).c 0 ≠ 0 := by rw [← d0]; exact_mod_cast f1 .ne rfl rfl
  have c1 : (nnZZ.N c p).c 1 = poleDist ((0 : Nat) : ℝ) ((0 : Nat) : ℝ) ((VExp.sub 0 3).sum p) := rfl
  rw [Nat.cast_zero, pole_fermion (msq_u hb (plus (p 0) (backward (p 3))) (by simp))] at c1
  have d1 : ((msq (plus (p 0) (backward (p 3))) - c.mass .ne ^ 2 : ℝ) : ℂ) = (nnZZ.N c p).c 1 := by rw [c1, show c.mass .ne = 0 from hc.neutrino _]
  have n1 : (nnZZ.N c p).c 1 ≠ 0 := by rw [← d1]; exact_mod_cast f2 .ne rfl rfl
  have m0 : nnZZ.react.mass c 0 = 0 := hc.neutrino _
  have m1 : nnZZ.react.mass c 1 = 0 := hc.neutrino _
  have m2 : nnZZ.react.mass c 2 ≠ 0 := (leg_pos hc hh (by decide)).ne'
  have m3 : nnZZ.react.mass c 3 ≠ 0 := (leg_pos hc hh (by decide)).ne'
  have hd : nnZZ.proc.divides = [(Ty.c, 0), (Ty.c, 1)] := by decide +kernel
  refine ⟨fun n hn => ?_, fun n hn => ?_, ?_⟩
  · simp [hd] at hn
  · simp [hd] at hn
    rcases hn with rfl | rfl
    · exact n0
    · exact n1
  have st : ∀ {z0 z1 : Pair} (b0 : Bold (p 0) (nnZZ.react.mass c 0) z0) (b1 : Bold (p 1) (nnZZ.react.mass c 1) z1) (t2 t3 : Fin 3), comb t2 (fun a2 b2 => comb t3 (fun a3 b3 => nnZZ.form (nnZZ.N c p) p z0 z1 (nnZZ.react.codePair c p 2 a2) (nnZZ.react.codePair c p 2 b2) (nnZZ.react.codePair c p 3 a3) (nnZZ.react.codePair c p 3 b3))) = 1 * nnZZ.react.bare c p 1 0 2 3 z1 z0 (nnZZ.react.codeVec c p 2 t2) (nnZZ.react.codeVec c p 3 t3) := by
    intro z0 z1 b0 b1 t2 t3
    refine two_vectors (p := p 2) (p' := p 3) (m := nnZZ.react.mass c 2) (m' := nnZZ.react.mass c 3) (fun s => nnZZ.react.codePair_bold hs h0 2 s) (fun s => nnZZ.react.codePair_bold hs h0 3 s) (B := fun x y x' y' => nnZZ.form (nnZZ.N c p) p z0 z1 x y x' y') (G := fun E F => nnZZ.react.bare c p 1 0 2 3 z1 z0 E F) (fun _ _ _ _ _ => ?_) (fun _ _ _ _ _ => ?_) (fun _ _ _ _ _ => ?_) (fun _ _ _ _ _ => ?_) (fun F => nnZZ.react.bare_lin₁ c p _ _ _ (by decide)) (fun E => nnZZ.react.bare_lin₂ c p _ _ _ (by decide)) 1 (fun z2 z3 b2 b3 => ?_) t2 t3
    · exact nnZZ.form_x2 ..
    · exact nnZZ.form_y2 ..
    · exact nnZZ.form_x3 ..
    · exact nnZZ.form_y3 ..
    · rw [one_mul]; exact nnZZ.key hc hb r4 r7 d0 n0 d1 n1 b0 b1 b2 b3 (onShell_msq (hs 2)) (onShell_msq (hs 3)) 
  have am : ∀ (t2 t3 : Fin 3), Cls.nnZZ.m_amp.mean (nnZZ.N c p) (callMean (nnZZ.N c p) []) .c [spinV t2, spinV t3] = 1 * nnZZ.react.bare c p 1 0 2 3 (nnZZ.react.codePair c p 1 1) (nnZZ.react.codePair c p 0 0) (nnZZ.react.codeVec c p 2 t2) (nnZZ.react.codeVec c p 3 t3) := by
    intro t2 t3
    rw [nnZZ.amp_eq, ← st (nnZZ.react.codePair_bold hs h0 0 0) (nnZZ.react.codePair_bold hs h0 1 1) t2 t3]
    refine congrArg (comb t2) (funext fun a2 => funext fun b2 => ?_)
    refine congrArg (comb t3) (funext fun a3 => funext fun b3 => ?_)
    have v1z1x3 : (nnZZ.N c p).v 1 [spinOf a3] = sb (nnZZ.react.codePair c p 1 1).2 (nnZZ.react.codePair c p 3 a3).2 := bra_square (p := p) (m := nnZZ.proc.massNum (nnZZ.rho c)) (nnZZ.mass_eq hc 1) (nnZZ.mass_eq hc 3) (.inr ⟨m1, rfl⟩) (.inl ⟨m3, rfl⟩)
    have v2z0x2 : (nnZZ.N c p).v 2 [spinOf a2] = ab (nnZZ.react.codePair c p 0 0).1 (nnZZ.react.codePair c p 2 a2).1 := bra_angle (p := p) (m := nnZZ.proc.massNum (nnZZ.rho c)) (nnZZ.mass_eq hc 0) (nnZZ.mass_eq hc 2) (.inr ⟨m0, rfl⟩) (.inl ⟨m2, rfl⟩)
    have v4y2y3 : (nnZZ.N c p).v 4 [spinOf b2, spinOf b3] = ab (nnZZ.react.codePair c p 2 b2).1 (nnZZ.react.codePair c p 3 b3).1 := bra_angle (p := p) (m := nnZZ.proc.massNum (nnZZ.rho c)) (nnZZ.mass_eq hc 2) (nnZZ.mass_eq hc 3) (.inl ⟨m2, rfl⟩) (.inl ⟨m3, rfl⟩)
    have v5y2y3 : (nnZZ.N c p).v 5 [spinOf b2, spinOf b3] = mb (nnZZ.react.codePair c p 2 b2).2 (p 0) (nnZZ.react.codePair c p 3 b3).1 := bra_mid_square (p := p) (m := nnZZ.proc.massNum (nnZZ.rho c)) (nnZZ.mass_eq hc 2) (nnZZ.mass_eq hc 3) (.inl ⟨m2, rfl⟩) (.inl ⟨m3, rfl⟩)
    have v0z1x2 : (nnZZ.N c p).v 0 [spinOf a2] = sb (nnZZ.react.codePair c p 1 1).2 (nnZZ.react.codePair c p 2 a2).2 := bra_square (p := p) (m := nnZZ.proc.massNum (nnZZ.rho c)) (nnZZ.mass_eq hc 1) (nnZZ.mass_eq hc 2) (.inr ⟨m1, rfl⟩) (.inl ⟨m2, rfl⟩)
    have v3z0x3 : (nnZZ.N c p).v 3 [spinOf a3] = ab (nnZZ.react.codePair c p 0 0).1 (nnZZ.react.codePair c p 3 a3).1 := bra_angle (p := p) (m := nnZZ.proc.massNum (nnZZ.rho c)) (nnZZ.mass_eq hc 0) (nnZZ.mass_eq hc 3) (.inr ⟨m0, rfl⟩) (.inl ⟨m3, rfl⟩)
    have v6y3y2 : (nnZZ.N c p).v 6 [spinOf b3, spinOf b2] = mb (nnZZ.react.codePair c p 3 b3).2 (p 0) (nnZZ.react.codePair c p 2 b2).1 := bra_mid_square (p := p) (m := nnZZ.proc.massNum (nnZZ.rho c)) (nnZZ.mass_eq hc 3) (nnZZ.mass_eq hc 2) (.inl ⟨m3, rfl⟩) (.inl ⟨m2, rfl⟩)
    simp only [nnZZ.term, nnZZ.form, v1z1x3, v2z0x2, v4y2y3, v5y2y3, v0z1x2, v3z0x3, v6y3y2]
    push_cast
    ring
  have w0 : ∀ (s : Fin 2) (t2 t3 : Fin 3), nnZZ.react.bare c p 1 0 2 3 (nnZZ.react.codePair c p 1 s) (nnZZ.react.codePair c p 0 1) (nnZZ.react.codeVec c p 2 t2) (nnZZ.react.codeVec c p 3 t3) = 0 := by
    intro s t2 t3
    have e := st (nnZZ.react.codePair_bold hs h0 0 1) (nnZZ.react.codePair_bold hs h0 1 s) t2 t3
    rw [show comb t2 (fun a2 b2 => comb t3 (fun a3 b3 => nnZZ.form (nnZZ.N c p) p (nnZZ.react.codePair c p 0 1) (nnZZ.react.codePair c p 1 s) (nnZZ.react.codePair c p 2 a2) (nnZZ.react.codePair c p 2 b2) (nnZZ.react.codePair c p 3 a3) (nnZZ.react.codePair c p 3 b3))) = 0 by
      simp only [nnZZ.form_zero0 _ _ _ _ _ _ _ (show ((nnZZ.react.codePair c p 0 1)).1 = 0 from legA_zero m0 rfl)]; exact comb_zero_zero ..] at e
    exact (one_mul _).symm.trans e.symm
  have w1 : ∀ (s : Fin 2) (t2 t3 : Fin 3), nnZZ.react.bare c p 1 0 2 3 (nnZZ.react.codePair c p 1 0) (nnZZ.react.codePair c p 0 s) (nnZZ.react.codeVec c p 2 t2) (nnZZ.react.codeVec c p 3 t3) = 0 := by
    intro s t2 t3
    have e := st (nnZZ.react.codePair_bold hs h0 0 s) (nnZZ.react.codePair_bold hs h0 1 0) t2 t3
    rw [show comb t2 (fun a2 b2 => comb t3 (fun a3 b3 => nnZZ.form (nnZZ.N c p) p (nnZZ.react.codePair c p 0 s) (nnZZ.react.codePair c p 1 0) (nnZZ.react.codePair c p 2 a2) (nnZZ.react.codePair c p 2 b2) (nnZZ.react.codePair c p 3 a3) (nnZZ.react.codePair c p 3 b3))) = 0 by
      simp only [nnZZ.form_zero1 _ _ _ _ _ _ _ (show ((nnZZ.react.codePair c p 1 0)).2 = 0 from legS_zero m1 rfl)]; exact comb_zero_zero ..] at e
    exact (one_mul _).symm.trans e.symm
  show meaning (nnZZ.N c p) .r Cls.nnZZ.methods Cls.nnZZ.amp2 [] = _
  have lc : nnZZ.react.lineColours 1 0 = 1 := by decide +kernel
  have s0 : nnZZ.react.states 0 = 1 := by decide
  have s1 : nnZZ.react.states 1 = 1 := by decide
  have sy : nnZZ.react.symmetry = 2 := by decide
  have p0 : nnZZ.react.spins 0 = {0, 1} := rfl
  have p1 : nnZZ.react.spins 1 = {0, 1} := rfl
  have p2 : nnZZ.react.spins 2 = Finset.univ := rfl
  have p3 : nnZZ.react.spins 3 = Finset.univ := rfl
  rw [nnZZ.value, nnZZ.react.squared_line he ht hB (noGluon_of hM) hs h0 (fun _ b _ hb _ => (boson_pos hc hh hb).ne') (nnZZ.react.gauge_massive (massive_of hM)) (E := nnZZ.react.codeVec c p) (fun n b hl => nnZZ.react.codeVec_polarised hs h0 hl (massive_of hM n b hl) (fun _ => (boson_pos hc hh (massive_of hM n b hl)).ne')) hu, sum_colours, lc, s0, s1, sy]
  simp only [sumV_sum, sumJ_sum, am, norm_mul, norm_neg, norm_one, one_mul, p0, p1, p2, p3, Finset.sum_singleton, sum_two, Matrix.cons_val_zero, Matrix.cons_val_one, Matrix.cons_val, two_castSucc]
  simp only [Fin.sum_univ_two, w0, w1, norm_zero]
  try simp only [← Finset.mul_sum]
  push_cast
  first | ring1 | ring_nf

end Spinas.SM.Rows
