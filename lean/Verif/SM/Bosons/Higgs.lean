import Verif.SM.BosonRows

/-! Fermions and two Higgs bosons. Generated by tools/bosons/emit.py: for each class its amplitude as a formula in spinors, and the proof that `amp2` is the squared amplitude of the Feynman rules. -/

set_option linter.unusedSimpArgs false
set_option linter.unusedVariables false
set_option linter.unreachableTactic false
set_option linter.unusedTactic false

namespace Spinas.SM.Rows
open Spec Spec.Reaction Props XR Matrix BRow

/-! ### eehh -/

/-- what the methods of the class see -/
noncomputable abbrev eehh.N [FPEnv] (c : Constants) (p : Nat → V4 ℝ) : Env := eehh.proc.env (eehh.rho c) p
/-- `amp` (SM/eehh.cpp) -/
noncomputable def eehh.term (N : Env) (j1 j2 : Int) : ℂ :=
  (((((((0 : Nat) : ℝ) : ℝ) : ℂ) + (((((-N.r 6) : ℝ) : ℂ) * (N.v 0 [j1, j2] + N.v 1 [j1, j2])) / N.c 0)) + (((((-N.r 7) : ℝ) : ℂ) * ((((((((2 : Nat) : ℝ) * N.r 1) : ℝ) : ℂ) * (N.v 0 [j1, j2] + N.v 1 [j1, j2])) - N.v 2 [j1, j2]) - N.v 3 [j2, j1])) / N.c 1)) + (((((-N.r 7) : ℝ) : ℂ) * ((((((((2 : Nat) : ℝ) * N.r 1) : ℝ) : ℂ) * (N.v 0 [j1, j2] + N.v 1 [j1, j2])) + N.v 2 [j1, j2]) + N.v 3 [j2, j1])) / N.c 2))
/-- the same with spinors in place of their spins -/
noncomputable def eehh.form (N : Env) (p : Nat → V4 ℝ) (z0 z1 : Pair) : ℂ :=
  (((0 + (((((-N.r 6) : ℝ) : ℂ) * ((sb z0.2 z1.2) + (ab z0.1 z1.1))) / N.c 0)) + (((((-N.r 7) : ℝ) : ℂ) * ((((((((2 : Nat) : ℝ) * N.r 1) : ℝ) : ℂ) * ((sb z0.2 z1.2) + (ab z0.1 z1.1))) - (mb z0.2 (p 2) z1.1)) - (mb z1.2 (p 2) z0.1))) / N.c 1)) + (((((-N.r 7) : ℝ) : ℂ) * ((((((((2 : Nat) : ℝ) * N.r 1) : ℝ) : ℂ) * ((sb z0.2 z1.2) + (ab z0.1 z1.1))) + (mb z0.2 (p 2) z1.1)) + (mb z1.2 (p 2) z0.1))) / N.c 2))
theorem eehh.key {c : Constants} {p : Nat → V4 ℝ} {N : Env} (hc : c.Physical) (hb : Balanced p) (r1 : N.r 1 = (c.mass .e)) (r6 : N.r 6 = ((((((((3 : Nat) : ℝ) * c.e) * c.e) * (c.mass .e)) * c.MH) * c.MH) / ((((((4 : Nat) : ℝ) * c.MW) * c.MW) * c.SW) * c.SW))) (r7 : N.r 7 = ((((c.e * c.e) * (c.mass .e)) * (c.mass .e)) / ((((((4 : Nat) : ℝ) * c.MW) * c.MW) * c.SW) * c.SW))) (d0 : pole c.MH c.WH (plus (backward (p 2)) (backward (p 3))) = N.c 0) (n0 : N.c 0 ≠ 0) (d1 : ((msq (plus (p 0) (backward (p 2))) - c.mass .e ^ 2 : ℝ) : ℂ) = N.c 1) (n1 : N.c 1 ≠ 0) (d2 : ((msq (plus (p 0) (backward (p 3))) - c.mass .e ^ 2 : ℝ) : ℂ) = N.c 2) (n2 : N.c 2 ≠ 0) {z0 z1 : Pair} (b0 : Bold (p 0) (c.mass .e) z0) (b1 : Bold (p 1) (c.mass .e) z1) (E2 E3 : Vec) :
    eehh.form N p z0 z1 = -(eehh.react.bare c p 1 0 2 3 z1 z0 E2 E3) := by
  rw [eehh.react.bare_parts c p (i := 1) (j := 0) (a := 2) (b := 3) (x := .higgs) (y := .higgs) (k := (backward (p 2))) (k' := (backward (p 3))) (fun _ => rfl) (fun _ => rfl) (f := .e) (g := .e) rfl rfl (l := (p 0)) rfl (e := -1) (e' := 1) (if_pos rfl) (if_neg Bool.false_ne_true)]
  rw [compton_hh (f := .e) (x := .e) (g := .e) (h := (rfl : Spec.after .higgs Flavour.e = some Flavour.e)) (h' := (rfl : Spec.after .higgs Flavour.e = some Flavour.e))]
  rw [compton_hh (f := .e) (x := .e) (g := .e) (h := (rfl : Spec.after .higgs Flavour.e = some Flavour.e)) (h' := (rfl : Spec.after .higgs Flavour.e = some Flavour.e))]
  have an := annihilation_neutral c (-1) (1) z1.1 z1.2 z0.1 z0.2 ⟨.higgs, (backward (p 2)), E2⟩ ⟨.higgs, (backward (p 3)), E3⟩ .e
  dsimp only at an
  rw [an, eehh.form]
  clear an
  rw [lineV_massless (hx := (rfl : Boson.massive .photon = false))]
  rw [lineV_massive (hx := (rfl : Boson.massive .z = true))]
  simp only [toHiggs, toVector, higgs2, gauge3, Boson.anti, Constants.bosonMass, Constants.bosonWidth, d0, d1, d2, reduceCtorEq, and_self, and_true, and_false, and_true, if_true, if_false, Complex.ofReal_zero, zero_smul, zero_mul, mul_zero, zero_div, neg_zero, add_zero, zero_add, lineH, lineV_zero, contract_zero, lineV_smul, contract_smul, lineV_pv, lineV_four, contract_four_pv, contract_pv, mb_plus, mb_backward]
  simp only [b0.mb_left, b0.mb_right, b1.mb_left, b1.mb_right, mb_three hb z0.2 z0.1, mb_three hb z0.2 z1.1, mb_three hb z1.2 z0.1, mb_three hb z1.2 z1.1, ab_self, sb_self]
  simp only [ab_swap z0.1 z1.1, sb_swap z0.2 z1.2, r1, r6, r7, Constants.hL, Constants.hR, Constants.gL, Constants.gR, Constants.yuk, Constants.invVev, Flavour.charge_e, Flavour.isospin_e, ← c.mz]
  have xMW : (c.MW : ℂ) ≠ 0 := by exact_mod_cast hc.MW
  have xSW : (c.SW : ℂ) ≠ 0 := by exact_mod_cast hc.SW
  have xCW : (c.CW : ℂ) ≠ 0 := by exact_mod_cast hc.CW
  have x2 : ((√2 : ℝ) : ℂ) ≠ 0 := by exact_mod_cast (Real.sqrt_pos.2 two_pos).ne'
  have x22 : ((√2 : ℝ) : ℂ) ^ 2 = 2 := by rw [← Complex.ofReal_pow, Real.sq_sqrt two_pos.le]; norm_num
  push_cast
  field_simp
  first | ring1 | (ring_nf; simp only [x22]; ring1)
set_option maxRecDepth 8000 in
theorem eehh.amp2_eq (N : Env) (f : Nat → List Int → ℂ) : Cls.eehh.m_amp2.mean N f .r [] =
    ((sumJ (fun x a => (sumJ (fun x b => (x + (‖(f 0 [a, b])‖ ^ 2))) x)) ((0 : Nat) : ℝ)) / ((8 : Nat) : ℝ)) := by rfl
set_option maxRecDepth 8000 in
theorem eehh.value (N : Env) : meaning N .r Cls.eehh.methods Cls.eehh.amp2 [] =
    ((sumJ (fun x a => (sumJ (fun x b => (x + (‖(Cls.eehh.m_amp.mean N (callMean N []) .c [a, b])‖ ^ 2))) x)) ((0 : Nat) : ℝ)) / ((8 : Nat) : ℝ)) :=
  eehh.amp2_eq N (callMean N [Cls.eehh.m_amp])
set_option maxRecDepth 8000 in
theorem eehh.amp_eq (N : Env) (f : Nat → List Int → ℂ) (j1 j2 : Int) : Cls.eehh.m_amp.mean N f .c [j1, j2] = eehh.term N j1 j2 := by rfl

theorem eehh.mass_eq {c : Constants} (hc : c.Physical) (i : Fin 4) : eehh.proc.massNum (eehh.rho c) i = eehh.react.mass c i := by
  fin_cases i <;> first | rfl | exact Nat.cast_zero.trans (hc.neutrino _).symm | (show c.MW / √(((1 : Nat) : ℝ) - c.SW * c.SW) = c.MZ; rw [c.root, c.mz])

variable [FPEnv] in
theorem eehh.agrees : eehh.Agrees := by
  refine agrees_of (D := [4, 5]) (E := [5]) (by simp [all, eehh]) (by decide +kernel) (by decide) (by decide +kernel) (fun c hc hh => ⟨List.forall_mem_cons.2 ⟨hc.MW, List.forall_mem_cons.2 ⟨hc.SW, List.forall_mem_nil _⟩⟩, List.forall_mem_cons.2 ⟨hc.SW_lt, List.forall_mem_nil _⟩⟩) (fun c hc i => eehh.mass_eq hc i) (by decide +kernel) ?_
  intro c p u ε hc hh hw h0 hs hb hr hu
  have he : eehh.react.ends = [1] := by decide
  have ht : eehh.react.starts = [0] := by decide
  have hB : eehh.react.bosons = [2, 3] := by decide
  have hM : eehh.react.allMassive = true := by decide
  obtain ⟨f1, f2, f3⟩ := eehh.react.regular_line he ht hB hr
  have r1 : (eehh.N c p).r 1 = (c.mass .e) := rfl
  have r6 : (eehh.N c p).r 6 = ((((((((3 : Nat) : ℝ) * c.e) * c.e) * (c.mass .e)) * c.MH) * c.MH) / ((((((4 : Nat) : ℝ) * c.MW) * c.MW) * c.SW) * c.SW)) := rfl
  have r7 : (eehh.N c p).r 7 = ((((c.e * c.e) * (c.mass .e)) * (c.mass .e)) / ((((((4 : Nat) : ℝ) * c.MW) * c.MW) * c.SW) * c.SW)) := rfl
  have c0 : (eehh.N c p).c 0 = poleDist c.MH c.WH ((VExp.add 0 1).sum p) := rfl
  rw [pole_congr (msq_s hb (plus (backward (p 2)) (backward (p 3))) (by simp)).symm] at c0
  have d0 : pole c.MH c.WH (plus (backward (p 2)) (backward (p 3))) = (eehh.N c p).c 0 := by rw [c0]
  have n0 : (eehh.N c p).c 0 ≠ 0 := by rw [← d0]; exact star_ne_zero.2 (f3 .higgs rfl rfl)
  have c1 : (eehh.N c p).c 1 = poleDist (c.mass .e) ((0 : Nat) : ℝ) ((VExp.sub 0 2).sum p) := rfl
  rw [Nat.cast_zero, pole_fermion (msq_t hb (plus (p 0) (backward (p 2))) (by simp))] at c1
  have d1 : ((msq (plus (p 0) (backward (p 2))) - c.mass .e ^ 2 : ℝ) : ℂ) = (eehh.N c p).c 1 := by rw [c1]
  have n1 : (eehh.N c p).c 1 ≠ 0 := by rw [← d1]; exact_mod_cast f1 .e rfl rfl
  have c2 : (eehh.N c p).c 2 = poleDist (c.mass .e) ((0 : Nat) : ℝ) ((VExp.sub 0 3).sum p) := rfl
  rw [Nat.cast_zero, pole_fermion (msq_u hb (plus (p 0) (backward (p 3))) (by simp))] at c2
  have d2 : ((msq (plus (p 0) (backward (p 3))) - c.mass .e ^ 2 : ℝ) : ℂ) = (eehh.N c p).c 2 := by rw [c2]
  have n2 : (eehh.N c p).c 2 ≠ 0 := by rw [← d2]; exact_mod_cast f2 .e rfl rfl
  have m0 : eehh.react.mass c 0 ≠ 0 := (leg_pos hc hh (by decide)).ne'
  have m1 : eehh.react.mass c 1 ≠ 0 := (leg_pos hc hh (by decide)).ne'
  have hd : eehh.proc.divides = [(Ty.c, 0), (Ty.c, 1), (Ty.c, 2)] := by decide +kernel
  refine ⟨fun n hn => ?_, fun n hn => ?_, ?_⟩
  · simp [hd] at hn
  · simp [hd] at hn
    rcases hn with rfl | rfl | rfl
    · exact n0
    · exact n1
    · exact n2
  have st : ∀ {z0 z1 : Pair} (b0 : Bold (p 0) (eehh.react.mass c 0) z0) (b1 : Bold (p 1) (eehh.react.mass c 1) z1), eehh.form (eehh.N c p) p z0 z1 = (-1) * eehh.react.bare c p 1 0 2 3 z1 z0 (eehh.react.codeVec c p 2 0) (eehh.react.codeVec c p 3 0) := by
    intro z0 z1 b0 b1
    rw [neg_one_mul]
    exact eehh.key hc hb r1 r6 r7 d0 n0 d1 n1 d2 n2 b0 b1 (eehh.react.codeVec c p 2 0) (eehh.react.codeVec c p 3 0)
  have am : ∀ (s0 : Fin 2) (s1 : Fin 2), Cls.eehh.m_amp.mean (eehh.N c p) (callMean (eehh.N c p) []) .c [spinOf s0, spinOf s1] = (-1) * eehh.react.bare c p 1 0 2 3 (eehh.react.codePair c p 1 s1) (eehh.react.codePair c p 0 s0) (eehh.react.codeVec c p 2 0) (eehh.react.codeVec c p 3 0) := by
    intro s0 s1
    rw [eehh.amp_eq, ← st (eehh.react.codePair_bold hs h0 0 s0) (eehh.react.codePair_bold hs h0 1 s1)]
    have v0z0z1 : (eehh.N c p).v 0 [spinOf s0, spinOf s1] = sb (eehh.react.codePair c p 0 s0).2 (eehh.react.codePair c p 1 s1).2 := bra_square (p := p) (m := eehh.proc.massNum (eehh.rho c)) (eehh.mass_eq hc 0) (eehh.mass_eq hc 1) (.inl ⟨m0, rfl⟩) (.inl ⟨m1, rfl⟩)
    have v1z0z1 : (eehh.N c p).v 1 [spinOf s0, spinOf s1] = ab (eehh.react.codePair c p 0 s0).1 (eehh.react.codePair c p 1 s1).1 := bra_angle (p := p) (m := eehh.proc.massNum (eehh.rho c)) (eehh.mass_eq hc 0) (eehh.mass_eq hc 1) (.inl ⟨m0, rfl⟩) (.inl ⟨m1, rfl⟩)
    have v2z0z1 : (eehh.N c p).v 2 [spinOf s0, spinOf s1] = mb (eehh.react.codePair c p 0 s0).2 (p 2) (eehh.react.codePair c p 1 s1).1 := bra_mid_square (p := p) (m := eehh.proc.massNum (eehh.rho c)) (eehh.mass_eq hc 0) (eehh.mass_eq hc 1) (.inl ⟨m0, rfl⟩) (.inl ⟨m1, rfl⟩)
    have v3z1z0 : (eehh.N c p).v 3 [spinOf s1, spinOf s0] = mb (eehh.react.codePair c p 1 s1).2 (p 2) (eehh.react.codePair c p 0 s0).1 := bra_mid_square (p := p) (m := eehh.proc.massNum (eehh.rho c)) (eehh.mass_eq hc 1) (eehh.mass_eq hc 0) (.inl ⟨m1, rfl⟩) (.inl ⟨m0, rfl⟩)
    simp only [eehh.term, eehh.form, v0z0z1, v1z0z1, v2z0z1, v3z1z0]
    push_cast
    ring
  show meaning (eehh.N c p) .r Cls.eehh.methods Cls.eehh.amp2 [] = _
  have lc : eehh.react.lineColours 1 0 = 1 := by decide +kernel
  have s0 : eehh.react.states 0 = 2 := by decide
  have s1 : eehh.react.states 1 = 2 := by decide
  have sy : eehh.react.symmetry = 2 := by decide
  have p0 : eehh.react.spins 0 = {0, 1} := rfl
  have p1 : eehh.react.spins 1 = {0, 1} := rfl
  have p2 : eehh.react.spins 2 = {0} := rfl
  have p3 : eehh.react.spins 3 = {0} := rfl
  rw [eehh.value, eehh.react.squared_line he ht hB (noGluon_of hM) hs h0 (fun _ b _ hb _ => (boson_pos hc hh hb).ne') (eehh.react.gauge_massive (massive_of hM)) (E := eehh.react.codeVec c p) (fun n b hl => eehh.react.codeVec_polarised hs h0 hl (massive_of hM n b hl) (fun _ => (boson_pos hc hh (massive_of hM n b hl)).ne')) hu, sum_colours, lc, s0, s1, sy]
  simp only [sumV_sum, sumJ_sum, am, norm_mul, norm_neg, norm_one, one_mul, p0, p1, p2, p3, Finset.sum_singleton, sum_two, Matrix.cons_val_zero, Matrix.cons_val_one, Matrix.cons_val, two_castSucc]
  try simp only [← Finset.mul_sum]
  push_cast
  first | ring1 | ring_nf

/-! ### eheh -/

/-- what the methods of the class see -/
noncomputable abbrev eheh.N [FPEnv] (c : Constants) (p : Nat → V4 ℝ) : Env := eheh.proc.env (eheh.rho c) p
/-- `amp` (SM/eheh.cpp) -/
noncomputable def eheh.term (N : Env) (j1 j3 : Int) : ℂ :=
  (((((((0 : Nat) : ℝ) : ℝ) : ℂ) + ((((N.r 6 : ℝ) : ℂ) * (N.v 0 [j1, j3] - N.v 1 [j1, j3])) / N.c 0)) + ((((N.r 7 : ℝ) : ℂ) * ((((((((2 : Nat) : ℝ) * N.r 1) : ℝ) : ℂ) * (N.v 0 [j1, j3] - N.v 1 [j1, j3])) - N.v 2 [j1, j3]) + N.v 3 [j3, j1])) / N.c 1)) + ((((N.r 7 : ℝ) : ℂ) * ((((((((2 : Nat) : ℝ) * N.r 1) : ℝ) : ℂ) * (N.v 0 [j1, j3] - N.v 1 [j1, j3])) + N.v 2 [j1, j3]) - N.v 3 [j3, j1])) / N.c 2))
/-- the same with spinors in place of their spins -/
noncomputable def eheh.form (N : Env) (p : Nat → V4 ℝ) (z0 z2 : Pair) : ℂ :=
  (((0 + ((((N.r 6 : ℝ) : ℂ) * ((sb z0.2 z2.2) - (ab z0.1 z2.1))) / N.c 0)) + ((((N.r 7 : ℝ) : ℂ) * ((((((((2 : Nat) : ℝ) * N.r 1) : ℝ) : ℂ) * ((sb z0.2 z2.2) - (ab z0.1 z2.1))) - (mb z0.2 (p 1) z2.1)) + (mb z2.2 (p 1) z0.1))) / N.c 1)) + ((((N.r 7 : ℝ) : ℂ) * ((((((((2 : Nat) : ℝ) * N.r 1) : ℝ) : ℂ) * ((sb z0.2 z2.2) - (ab z0.1 z2.1))) + (mb z0.2 (p 1) z2.1)) - (mb z2.2 (p 1) z0.1))) / N.c 2))
theorem eheh.key {c : Constants} {p : Nat → V4 ℝ} {N : Env} (hc : c.Physical) (hb : Balanced p) (r1 : N.r 1 = (c.mass .e)) (r6 : N.r 6 = ((((((((3 : Nat) : ℝ) * c.e) * c.e) * (c.mass .e)) * c.MH) * c.MH) / ((((((4 : Nat) : ℝ) * c.MW) * c.MW) * c.SW) * c.SW))) (r7 : N.r 7 = ((((c.e * c.e) * (c.mass .e)) * (c.mass .e)) / ((((((4 : Nat) : ℝ) * c.MW) * c.MW) * c.SW) * c.SW))) (d0 : pole c.MH c.WH (plus (p 1) (backward (p 3))) = N.c 0) (n0 : N.c 0 ≠ 0) (d1 : ((msq (plus (p 0) (p 1)) - c.mass .e ^ 2 : ℝ) : ℂ) = N.c 1) (n1 : N.c 1 ≠ 0) (d2 : ((msq (plus (p 0) (backward (p 3))) - c.mass .e ^ 2 : ℝ) : ℂ) = N.c 2) (n2 : N.c 2 ≠ 0) {z0 z2 : Pair} (b0 : Bold (p 0) (c.mass .e) z0) (b2 : Bold (p 2) (c.mass .e) z2) (E1 E3 : Vec) :
    eheh.form N p z0 z2 = -(eheh.react.bare c p 2 0 1 3 z2 z0 E1 E3) := by
  rw [eheh.react.bare_parts c p (i := 2) (j := 0) (a := 1) (b := 3) (x := .higgs) (y := .higgs) (k := (p 1)) (k' := (backward (p 3))) (fun _ => rfl) (fun _ => rfl) (f := .e) (g := .e) rfl rfl (l := (p 0)) rfl (e := 1) (e' := 1) (if_neg Bool.false_ne_true) (if_neg Bool.false_ne_true)]
  rw [compton_hh (f := .e) (x := .e) (g := .e) (h := (rfl : Spec.after .higgs Flavour.e = some Flavour.e)) (h' := (rfl : Spec.after .higgs Flavour.e = some Flavour.e))]
  rw [compton_hh (f := .e) (x := .e) (g := .e) (h := (rfl : Spec.after .higgs Flavour.e = some Flavour.e)) (h' := (rfl : Spec.after .higgs Flavour.e = some Flavour.e))]
  have an := annihilation_neutral c (1) (1) z2.1 z2.2 z0.1 z0.2 ⟨.higgs, (p 1), E1⟩ ⟨.higgs, (backward (p 3)), E3⟩ .e
  dsimp only at an
  rw [an, eheh.form]
  clear an
  rw [lineV_massless (hx := (rfl : Boson.massive .photon = false))]
  rw [lineV_massive (hx := (rfl : Boson.massive .z = true))]
  simp only [toHiggs, toVector, higgs2, gauge3, Boson.anti, Constants.bosonMass, Constants.bosonWidth, d0, d1, d2, reduceCtorEq, and_self, and_true, and_false, and_true, if_true, if_false, Complex.ofReal_zero, zero_smul, zero_mul, mul_zero, zero_div, neg_zero, add_zero, zero_add, lineH, lineV_zero, contract_zero, lineV_smul, contract_smul, lineV_pv, lineV_four, contract_four_pv, contract_pv, mb_plus, mb_backward]
  simp only [b0.mb_left, b0.mb_right, b2.mb_left, b2.mb_right, mb_three hb z0.2 z0.1, mb_three hb z0.2 z2.1, mb_three hb z2.2 z0.1, mb_three hb z2.2 z2.1, ab_self, sb_self]
  simp only [ab_swap z0.1 z2.1, sb_swap z0.2 z2.2, r1, r6, r7, Constants.hL, Constants.hR, Constants.gL, Constants.gR, Constants.yuk, Constants.invVev, Flavour.charge_e, Flavour.isospin_e, ← c.mz]
  have xMW : (c.MW : ℂ) ≠ 0 := by exact_mod_cast hc.MW
  have xSW : (c.SW : ℂ) ≠ 0 := by exact_mod_cast hc.SW
  have xCW : (c.CW : ℂ) ≠ 0 := by exact_mod_cast hc.CW
  have x2 : ((√2 : ℝ) : ℂ) ≠ 0 := by exact_mod_cast (Real.sqrt_pos.2 two_pos).ne'
  have x22 : ((√2 : ℝ) : ℂ) ^ 2 = 2 := by rw [← Complex.ofReal_pow, Real.sq_sqrt two_pos.le]; norm_num
  push_cast
  field_simp
  first | ring1 | (ring_nf; simp only [x22]; ring1)
set_option maxRecDepth 8000 in
theorem eheh.amp2_eq (N : Env) (f : Nat → List Int → ℂ) : Cls.eheh.m_amp2.mean N f .r [] =
    ((sumJ (fun x a => (sumJ (fun x b => (x + (‖(f 0 [a, b])‖ ^ 2))) x)) ((0 : Nat) : ℝ)) / ((2 : Nat) : ℝ)) := by rfl
set_option maxRecDepth 8000 in
theorem eheh.value (N : Env) : meaning N .r Cls.eheh.methods Cls.eheh.amp2 [] =
    ((sumJ (fun x a => (sumJ (fun x b => (x + (‖(Cls.eheh.m_amp.mean N (callMean N []) .c [a, b])‖ ^ 2))) x)) ((0 : Nat) : ℝ)) / ((2 : Nat) : ℝ)) :=
  eheh.amp2_eq N (callMean N [Cls.eheh.m_amp])
set_option maxRecDepth 8000 in
theorem eheh.amp_eq (N : Env) (f : Nat → List Int → ℂ) (j1 j3 : Int) : Cls.eheh.m_amp.mean N f .c [j1, j3] = eheh.term N j1 j3 := by rfl

theorem eheh.mass_eq {c : Constants} (hc : c.Physical) (i : Fin 4) : eheh.proc.massNum (eheh.rho c) i = eheh.react.mass c i := by
  fin_cases i <;> first | rfl | exact Nat.cast_zero.trans (hc.neutrino _).symm | (show c.MW / √(((1 : Nat) : ℝ) - c.SW * c.SW) = c.MZ; rw [c.root, c.mz])

variable [FPEnv] in
theorem eheh.agrees : eheh.Agrees := by
  refine agrees_of (D := [4, 5]) (E := [5]) (by simp [all, eheh]) (by decide +kernel) (by decide) (by decide +kernel) (fun c hc hh => ⟨List.forall_mem_cons.2 ⟨hc.MW, List.forall_mem_cons.2 ⟨hc.SW, List.forall_mem_nil _⟩⟩, List.forall_mem_cons.2 ⟨hc.SW_lt, List.forall_mem_nil _⟩⟩) (fun c hc i => eheh.mass_eq hc i) (by decide +kernel) ?_
  intro c p u ε hc hh hw h0 hs hb hr hu
  have he : eheh.react.ends = [2] := by decide
  have ht : eheh.react.starts = [0] := by decide
  have hB : eheh.react.bosons = [1, 3] := by decide
  have hM : eheh.react.allMassive = true := by decide
  obtain ⟨f1, f2, f3⟩ := eheh.react.regular_line he ht hB hr
  have r1 : (eheh.N c p).r 1 = (c.mass .e) := rfl
  have r6 : (eheh.N c p).r 6 = ((((((((3 : Nat) : ℝ) * c.e) * c.e) * (c.mass .e)) * c.MH) * c.MH) / ((((((4 : Nat) : ℝ) * c.MW) * c.MW) * c.SW) * c.SW)) := rfl
  have r7 : (eheh.N c p).r 7 = ((((c.e * c.e) * (c.mass .e)) * (c.mass .e)) / ((((((4 : Nat) : ℝ) * c.MW) * c.MW) * c.SW) * c.SW)) := rfl
  have c0 : (eheh.N c p).c 0 = poleDist c.MH c.WH ((VExp.sub 0 2).sum p) := rfl
  rw [pole_congr (msq_t hb (plus (p 1) (backward (p 3))) (by simp)).symm] at c0
  have d0 : pole c.MH c.WH (plus (p 1) (backward (p 3))) = (eheh.N c p).c 0 := by rw [c0]
  have n0 : (eheh.N c p).c 0 ≠ 0 := by rw [← d0]; exact star_ne_zero.2 (f3 .higgs rfl rfl)
  have c1 : (eheh.N c p).c 1 = poleDist (c.mass .e) ((0 : Nat) : ℝ) ((VExp.add 0 1).sum p) := rfl
  rw [Nat.cast_zero, pole_fermion (msq_s hb (plus (p 0) (p 1)) (by simp))] at c1
  have d1 : ((msq (plus (p 0) (p 1)) - c.mass .e ^ 2 : ℝ) : ℂ) = (eheh.N c p).c 1 := by rw [c1]
  have n1 : (eheh.N c p).c 1 ≠ 0 := by rw [← d1]; exact_mod_cast f1 .e rfl rfl
  have c2 : (eheh.N c p).c 2 = poleDist (c.mass .e) ((0 : Nat) : ℝ) ((VExp.sub 0 3).sum p) := rfl
  rw [Nat.cast_zero, pole_fermion (msq_u hb (plus (p 0) (backward (p 3))) (by simp))] at c2
  have d2 : ((msq (plus (p 0) (backward (p 3))) - c.mass .e ^ 2 : ℝ) : ℂ) = (eheh.N c p).c 2 := by rw [c2]
  have n2 : (eheh.N c p).c 2 ≠ 0 := by rw [← d2]; exact_mod_cast f2 .e rfl rfl
  have m0 : eheh.react.mass c 0 ≠ 0 := (leg_pos hc hh (by decide)).ne'
  have m2 : eheh.react.mass c 2 ≠ 0 := (leg_pos hc hh (by decide)).ne'
  have hd : eheh.proc.divides = [(Ty.c, 0), (Ty.c, 1), (Ty.c, 2)] := by decide +kernel
  refine ⟨fun n hn => ?_, fun n hn => ?_, ?_⟩
  · simp [hd] at hn
  · simp [hd] at hn
    rcases hn with rfl | rfl | rfl
    · exact n0
    · exact n1
    · exact n2
  have st : ∀ {z0 z2 : Pair} (b0 : Bold (p 0) (eheh.react.mass c 0) z0) (b2 : Bold (p 2) (eheh.react.mass c 2) z2), eheh.form (eheh.N c p) p z0 z2 = (-1) * eheh.react.bare c p 2 0 1 3 z2 z0 (eheh.react.codeVec c p 1 0) (eheh.react.codeVec c p 3 0) := by
    intro z0 z2 b0 b2
    rw [neg_one_mul]
    exact eheh.key hc hb r1 r6 r7 d0 n0 d1 n1 d2 n2 b0 b2 (eheh.react.codeVec c p 1 0) (eheh.react.codeVec c p 3 0)
  have am : ∀ (s0 : Fin 2) (s2 : Fin 2), Cls.eheh.m_amp.mean (eheh.N c p) (callMean (eheh.N c p) []) .c [spinOf s0, spinOf s2] = (-1) * eheh.react.bare c p 2 0 1 3 (eheh.react.codePair c p 2 s2) (eheh.react.codePair c p 0 s0) (eheh.react.codeVec c p 1 0) (eheh.react.codeVec c p 3 0) := by
    intro s0 s2
    rw [eheh.amp_eq, ← st (eheh.react.codePair_bold hs h0 0 s0) (eheh.react.codePair_bold hs h0 2 s2)]
    have v0z0z2 : (eheh.N c p).v 0 [spinOf s0, spinOf s2] = sb (eheh.react.codePair c p 0 s0).2 (eheh.react.codePair c p 2 s2).2 := bra_square (p := p) (m := eheh.proc.massNum (eheh.rho c)) (eheh.mass_eq hc 0) (eheh.mass_eq hc 2) (.inl ⟨m0, rfl⟩) (.inl ⟨m2, rfl⟩)
    have v1z0z2 : (eheh.N c p).v 1 [spinOf s0, spinOf s2] = ab (eheh.react.codePair c p 0 s0).1 (eheh.react.codePair c p 2 s2).1 := bra_angle (p := p) (m := eheh.proc.massNum (eheh.rho c)) (eheh.mass_eq hc 0) (eheh.mass_eq hc 2) (.inl ⟨m0, rfl⟩) (.inl ⟨m2, rfl⟩)
    have v2z0z2 : (eheh.N c p).v 2 [spinOf s0, spinOf s2] = mb (eheh.react.codePair c p 0 s0).2 (p 1) (eheh.react.codePair c p 2 s2).1 := bra_mid_square (p := p) (m := eheh.proc.massNum (eheh.rho c)) (eheh.mass_eq hc 0) (eheh.mass_eq hc 2) (.inl ⟨m0, rfl⟩) (.inl ⟨m2, rfl⟩)
    have v3z2z0 : (eheh.N c p).v 3 [spinOf s2, spinOf s0] = mb (eheh.react.codePair c p 2 s2).2 (p 1) (eheh.react.codePair c p 0 s0).1 := bra_mid_square (p := p) (m := eheh.proc.massNum (eheh.rho c)) (eheh.mass_eq hc 2) (eheh.mass_eq hc 0) (.inl ⟨m2, rfl⟩) (.inl ⟨m0, rfl⟩)
    simp only [eheh.term, eheh.form, v0z0z2, v1z0z2, v2z0z2, v3z2z0]
    push_cast
    ring
  show meaning (eheh.N c p) .r Cls.eheh.methods Cls.eheh.amp2 [] = _
  have lc : eheh.react.lineColours 2 0 = 1 := by decide +kernel
  have s0 : eheh.react.states 0 = 2 := by decide
  have s1 : eheh.react.states 1 = 1 := by decide
  have sy : eheh.react.symmetry = 1 := by decide
  have p0 : eheh.react.spins 0 = {0, 1} := rfl
  have p1 : eheh.react.spins 1 = {0} := rfl
  have p2 : eheh.react.spins 2 = {0, 1} := rfl
  have p3 : eheh.react.spins 3 = {0} := rfl
  rw [eheh.value, eheh.react.squared_line he ht hB (noGluon_of hM) hs h0 (fun _ b _ hb _ => (boson_pos hc hh hb).ne') (eheh.react.gauge_massive (massive_of hM)) (E := eheh.react.codeVec c p) (fun n b hl => eheh.react.codeVec_polarised hs h0 hl (massive_of hM n b hl) (fun _ => (boson_pos hc hh (massive_of hM n b hl)).ne')) hu, sum_colours, lc, s0, s1, sy]
  simp only [sumV_sum, sumJ_sum, am, norm_mul, norm_neg, norm_one, one_mul, p0, p1, p2, p3, Finset.sum_singleton, sum_two, Matrix.cons_val_zero, Matrix.cons_val_one, Matrix.cons_val, two_castSucc]
  try simp only [← Finset.mul_sum]
  push_cast
  first | ring1 | ring_nf

/-! ### ddhh -/

/-- what the methods of the class see -/
noncomputable abbrev ddhh.N [FPEnv] (c : Constants) (p : Nat → V4 ℝ) : Env := ddhh.proc.env (ddhh.rho c) p
/-- `amp` (SM/ddhh.cpp) -/
noncomputable def ddhh.term (N : Env) (j1 j2 : Int) : ℂ :=
  (((((((0 : Nat) : ℝ) : ℝ) : ℂ) + ((((N.r 6 : ℝ) : ℂ) * (N.v 0 [j1, j2] + N.v 1 [j1, j2])) / N.c 0)) + ((((N.r 7 : ℝ) : ℂ) * ((((((((2 : Nat) : ℝ) * N.r 1) : ℝ) : ℂ) * (N.v 0 [j1, j2] + N.v 1 [j1, j2])) - N.v 2 [j1, j2]) - N.v 3 [j2, j1])) / N.c 1)) + ((((N.r 7 : ℝ) : ℂ) * ((((((((2 : Nat) : ℝ) * N.r 1) : ℝ) : ℂ) * (N.v 0 [j1, j2] + N.v 1 [j1, j2])) + N.v 2 [j1, j2]) + N.v 3 [j2, j1])) / N.c 2))
/-- the same with spinors in place of their spins -/
noncomputable def ddhh.form (N : Env) (p : Nat → V4 ℝ) (z0 z1 : Pair) : ℂ :=
  (((0 + ((((N.r 6 : ℝ) : ℂ) * ((sb z0.2 z1.2) + (ab z0.1 z1.1))) / N.c 0)) + ((((N.r 7 : ℝ) : ℂ) * ((((((((2 : Nat) : ℝ) * N.r 1) : ℝ) : ℂ) * ((sb z0.2 z1.2) + (ab z0.1 z1.1))) - (mb z0.2 (p 2) z1.1)) - (mb z1.2 (p 2) z0.1))) / N.c 1)) + ((((N.r 7 : ℝ) : ℂ) * ((((((((2 : Nat) : ℝ) * N.r 1) : ℝ) : ℂ) * ((sb z0.2 z1.2) + (ab z0.1 z1.1))) + (mb z0.2 (p 2) z1.1)) + (mb z1.2 (p 2) z0.1))) / N.c 2))
theorem ddhh.key {c : Constants} {p : Nat → V4 ℝ} {N : Env} (hc : c.Physical) (hb : Balanced p) (r1 : N.r 1 = (c.mass .d)) (r6 : N.r 6 = ((((((((3 : Nat) : ℝ) * c.e) * c.e) * (c.mass .d)) * c.MH) * c.MH) / ((((((4 : Nat) : ℝ) * c.MW) * c.MW) * c.SW) * c.SW))) (r7 : N.r 7 = ((((c.e * c.e) * (c.mass .d)) * (c.mass .d)) / ((((((4 : Nat) : ℝ) * c.MW) * c.MW) * c.SW) * c.SW))) (d0 : pole c.MH c.WH (plus (backward (p 2)) (backward (p 3))) = N.c 0) (n0 : N.c 0 ≠ 0) (d1 : ((msq (plus (p 0) (backward (p 2))) - c.mass .d ^ 2 : ℝ) : ℂ) = N.c 1) (n1 : N.c 1 ≠ 0) (d2 : ((msq (plus (p 0) (backward (p 3))) - c.mass .d ^ 2 : ℝ) : ℂ) = N.c 2) (n2 : N.c 2 ≠ 0) {z0 z1 : Pair} (b0 : Bold (p 0) (c.mass .d) z0) (b1 : Bold (p 1) (c.mass .d) z1) (E2 E3 : Vec) :
    ddhh.form N p z0 z1 = ddhh.react.bare c p 1 0 2 3 z1 z0 E2 E3 := by
  rw [ddhh.react.bare_parts c p (i := 1) (j := 0) (a := 2) (b := 3) (x := .higgs) (y := .higgs) (k := (backward (p 2))) (k' := (backward (p 3))) (fun _ => rfl) (fun _ => rfl) (f := .d) (g := .d) rfl rfl (l := (p 0)) rfl (e := -1) (e' := 1) (if_pos rfl) (if_neg Bool.false_ne_true)]
  rw [compton_hh (f := .d) (x := .d) (g := .d) (h := (rfl : Spec.after .higgs Flavour.d = some Flavour.d)) (h' := (rfl : Spec.after .higgs Flavour.d = some Flavour.d))]
  rw [compton_hh (f := .d) (x := .d) (g := .d) (h := (rfl : Spec.after .higgs Flavour.d = some Flavour.d)) (h' := (rfl : Spec.after .higgs Flavour.d = some Flavour.d))]
  have an := annihilation_neutral c (-1) (1) z1.1 z1.2 z0.1 z0.2 ⟨.higgs, (backward (p 2)), E2⟩ ⟨.higgs, (backward (p 3)), E3⟩ .d
  dsimp only at an
  rw [an, ddhh.form]
  clear an
  rw [lineV_massless (hx := (rfl : Boson.massive .photon = false))]
  rw [lineV_massive (hx := (rfl : Boson.massive .z = true))]
  simp only [toHiggs, toVector, higgs2, gauge3, Boson.anti, Constants.bosonMass, Constants.bosonWidth, d0, d1, d2, reduceCtorEq, and_self, and_true, and_false, and_true, if_true, if_false, Complex.ofReal_zero, zero_smul, zero_mul, mul_zero, zero_div, neg_zero, add_zero, zero_add, lineH, lineV_zero, contract_zero, lineV_smul, contract_smul, lineV_pv, lineV_four, contract_four_pv, contract_pv, mb_plus, mb_backward]
  simp only [b0.mb_left, b0.mb_right, b1.mb_left, b1.mb_right, mb_three hb z0.2 z0.1, mb_three hb z0.2 z1.1, mb_three hb z1.2 z0.1, mb_three hb z1.2 z1.1, ab_self, sb_self]
  simp only [ab_swap z0.1 z1.1, sb_swap z0.2 z1.2, r1, r6, r7, Constants.hL, Constants.hR, Constants.gL, Constants.gR, Constants.yuk, Constants.invVev, Flavour.charge_d, Flavour.isospin_d, ← c.mz]
  have xMW : (c.MW : ℂ) ≠ 0 := by exact_mod_cast hc.MW
  have xSW : (c.SW : ℂ) ≠ 0 := by exact_mod_cast hc.SW
  have xCW : (c.CW : ℂ) ≠ 0 := by exact_mod_cast hc.CW
  have x2 : ((√2 : ℝ) : ℂ) ≠ 0 := by exact_mod_cast (Real.sqrt_pos.2 two_pos).ne'
  have x22 : ((√2 : ℝ) : ℂ) ^ 2 = 2 := by rw [← Complex.ofReal_pow, Real.sq_sqrt two_pos.le]; norm_num
  push_cast
  field_simp
  first | ring1 | (ring_nf; simp only [x22]; ring1)
set_option maxRecDepth 8000 in
theorem ddhh.amp2_eq (N : Env) (f : Nat → List Int → ℂ) : Cls.ddhh.m_amp2.mean N f .r [] =
    ((sumJ (fun x a => (sumJ (fun x b => (x + (((3 : Nat) : ℝ) * (‖(f 0 [a, b])‖ ^ 2)))) x)) ((0 : Nat) : ℝ)) / ((72 : Nat) : ℝ)) := by rfl
set_option maxRecDepth 8000 in
theorem ddhh.value (N : Env) : meaning N .r Cls.ddhh.methods Cls.ddhh.amp2 [] =
    ((sumJ (fun x a => (sumJ (fun x b => (x + (((3 : Nat) : ℝ) * (‖(Cls.ddhh.m_amp.mean N (callMean N []) .c [a, b])‖ ^ 2)))) x)) ((0 : Nat) : ℝ)) / ((72 : Nat) : ℝ)) :=
  ddhh.amp2_eq N (callMean N [Cls.ddhh.m_amp])
set_option maxRecDepth 8000 in
theorem ddhh.amp_eq (N : Env) (f : Nat → List Int → ℂ) (j1 j2 : Int) : Cls.ddhh.m_amp.mean N f .c [j1, j2] = ddhh.term N j1 j2 := by rfl

theorem ddhh.mass_eq {c : Constants} (hc : c.Physical) (i : Fin 4) : ddhh.proc.massNum (ddhh.rho c) i = ddhh.react.mass c i := by
  fin_cases i <;> first | rfl | exact Nat.cast_zero.trans (hc.neutrino _).symm | (show c.MW / √(((1 : Nat) : ℝ) - c.SW * c.SW) = c.MZ; rw [c.root, c.mz])

variable [FPEnv] in
theorem ddhh.agrees : ddhh.Agrees := by
  refine agrees_of (D := [4, 5]) (E := [5]) (by simp [all, ddhh]) (by decide +kernel) (by decide) (by decide +kernel) (fun c hc hh => ⟨List.forall_mem_cons.2 ⟨hc.MW, List.forall_mem_cons.2 ⟨hc.SW, List.forall_mem_nil _⟩⟩, List.forall_mem_cons.2 ⟨hc.SW_lt, List.forall_mem_nil _⟩⟩) (fun c hc i => ddhh.mass_eq hc i) (by decide +kernel) ?_
  intro c p u ε hc hh hw h0 hs hb hr hu
  have he : ddhh.react.ends = [1] := by decide
  have ht : ddhh.react.starts = [0] := by decide
  have hB : ddhh.react.bosons = [2, 3] := by decide
  have hM : ddhh.react.allMassive = true := by decide
  obtain ⟨f1, f2, f3⟩ := ddhh.react.regular_line he ht hB hr
  have r1 : (ddhh.N c p).r 1 = (c.mass .d) := rfl
  have r6 : (ddhh.N c p).r 6 = ((((((((3 : Nat) : ℝ) * c.e) * c.e) * (c.mass .d)) * c.MH) * c.MH) / ((((((4 : Nat) : ℝ) * c.MW) * c.MW) * c.SW) * c.SW)) := rfl
  have r7 : (ddhh.N c p).r 7 = ((((c.e * c.e) * (c.mass .d)) * (c.mass .d)) / ((((((4 : Nat) : ℝ) * c.MW) * c.MW) * c.SW) * c.SW)) := rfl
  have c0 : (ddhh.N c p).c 0 = poleDist c.MH c.WH ((VExp.add 0 1).sum p) := rfl
  rw [pole_congr (msq_s hb (plus (backward (p 2)) (backward (p 3))) (by simp)).symm] at c0
  have d0 : pole c.MH c.WH (plus (backward (p 2)) (backward (p 3))) = (ddhh.N c p).c 0 := by rw [c0]
  have n0 : (ddhh.N c p).c 0 ≠ 0 := by rw [← d0]; exact star_ne_zero.2 (f3 .higgs rfl rfl)
  have c1 : (ddhh.N c p).c 1 = poleDist (c.mass .d) ((0 : Nat) : ℝ) ((VExp.sub 0 2).sum p) := rfl
  rw [Nat.cast_zero, pole_fermion (msq_t hb (plus (p 0) (backward (p 2))) (by simp))] at c1
  have d1 : ((msq (plus (p 0) (backward (p 2))) - c.mass .d ^ 2 : ℝ) : ℂ) = (ddhh.N c p).c 1 := by rw [c1]
  have n1 : (ddhh.N c p).c 1 ≠ 0 := by rw [← d1]; exact_mod_cast f1 .d rfl rfl
  have c2 : (ddhh.N c p).c 2 = poleDist (c.mass .d) ((0 : Nat) : ℝ) ((VExp.sub 0 3).sum p) := rfl
  rw [Nat.cast_zero, pole_fermion (msq_u hb (plus (p 0) (backward (p 3))) (by simp))] at c2
  have d2 : ((msq (plus (p 0) (backward (p 3))) - c.mass .d ^ 2 : ℝ) : ℂ) = (ddhh.N c p).c 2 := by rw [c2]
  have n2 : (ddhh.N c p).c 2 ≠ 0 := by rw [← d2]; exact_mod_cast f2 .d rfl rfl
  have m0 : ddhh.react.mass c 0 ≠ 0 := (leg_pos hc hh (by decide)).ne'
  have m1 : ddhh.react.mass c 1 ≠ 0 := (leg_pos hc hh (by decide)).ne'
  have hd : ddhh.proc.divides = [(Ty.c, 0), (Ty.c, 1), (Ty.c, 2)] := by decide +kernel
  refine ⟨fun n hn => ?_, fun n hn => ?_, ?_⟩
  · simp [hd] at hn
  · simp [hd] at hn
    rcases hn with rfl | rfl | rfl
    · exact n0
    · exact n1
    · exact n2
  have st : ∀ {z0 z1 : Pair} (b0 : Bold (p 0) (ddhh.react.mass c 0) z0) (b1 : Bold (p 1) (ddhh.react.mass c 1) z1), ddhh.form (ddhh.N c p) p z0 z1 = 1 * ddhh.react.bare c p 1 0 2 3 z1 z0 (ddhh.react.codeVec c p 2 0) (ddhh.react.codeVec c p 3 0) := by
    intro z0 z1 b0 b1
    rw [one_mul]
    exact ddhh.key hc hb r1 r6 r7 d0 n0 d1 n1 d2 n2 b0 b1 (ddhh.react.codeVec c p 2 0) (ddhh.react.codeVec c p 3 0)
  have am : ∀ (s0 : Fin 2) (s1 : Fin 2), Cls.ddhh.m_amp.mean (ddhh.N c p) (callMean (ddhh.N c p) []) .c [spinOf s0, spinOf s1] = 1 * ddhh.react.bare c p 1 0 2 3 (ddhh.react.codePair c p 1 s1) (ddhh.react.codePair c p 0 s0) (ddhh.react.codeVec c p 2 0) (ddhh.react.codeVec c p 3 0) := by
    intro s0 s1
    rw [ddhh.amp_eq, ← st (ddhh.react.codePair_bold hs h0 0 s0) (ddhh.react.codePair_bold hs h0 1 s1)]
    have v0z0z1 : (ddhh.N c p).v 0 [spinOf s0, spinOf s1] = sb (ddhh.react.codePair c p 0 s0).2 (ddhh.react.codePair c p 1 s1).2 := bra_square (p := p) (m := ddhh.proc.massNum (ddhh.rho c)) (ddhh.mass_eq hc 0) (ddhh.mass_eq hc 1) (.inl ⟨m0, rfl⟩) (.inl ⟨m1, rfl⟩)
    have v1z0z1 : (ddhh.N c p).v 1 [spinOf s0, spinOf s1] = ab (ddhh.react.codePair c p 0 s0).1 (ddhh.react.codePair c p 1 s1).1 := bra_angle (p := p) (m := ddhh.proc.massNum (ddhh.rho c)) (ddhh.mass_eq hc 0) (ddhh.mass_eq hc 1) (.inl ⟨m0, rfl⟩) (.inl ⟨m1, rfl⟩)
    have v2z0z1 : (ddhh.N c p).v 2 [spinOf s0, spinOf s1] = mb (ddhh.react.codePair c p 0 s0).2 (p 2) (ddhh.react.codePair c p 1 s1).1 := bra_mid_square (p := p) (m := ddhh.proc.massNum (ddhh.rho c)) (ddhh.mass_eq hc 0) (ddhh.mass_eq hc 1) (.inl ⟨m0, rfl⟩) (.inl ⟨m1, rfl⟩)
    have v3z1z0 : (ddhh.N c p).v 3 [spinOf s1, spinOf s0] = mb (ddhh.react.codePair c p 1 s1).2 (p 2) (ddhh.react.codePair c p 0 s0).1 := bra_mid_square (p := p) (m := ddhh.proc.massNum (ddhh.rho c)) (ddhh.mass_eq hc 1) (ddhh.mass_eq hc 0) (.inl ⟨m1, rfl⟩) (.inl ⟨m0, rfl⟩)
    simp only [ddhh.term, ddhh.form, v0z0z1, v1z0z1, v2z0z1, v3z1z0]
    push_cast
    ring
  show meaning (ddhh.N c p) .r Cls.ddhh.methods Cls.ddhh.amp2 [] = _
  have lc : ddhh.react.lineColours 1 0 = 3 := by decide +kernel
  have s0 : ddhh.react.states 0 = 6 := by decide
  have s1 : ddhh.react.states 1 = 6 := by decide
  have sy : ddhh.react.symmetry = 2 := by decide
  have p0 : ddhh.react.spins 0 = {0, 1} := rfl
  have p1 : ddhh.react.spins 1 = {0, 1} := rfl
  have p2 : ddhh.react.spins 2 = {0} := rfl
  have p3 : ddhh.react.spins 3 = {0} := rfl
  rw [ddhh.value, ddhh.react.squared_line he ht hB (noGluon_of hM) hs h0 (fun _ b _ hb _ => (boson_pos hc hh hb).ne') (ddhh.react.gauge_massive (massive_of hM)) (E := ddhh.react.codeVec c p) (fun n b hl => ddhh.react.codeVec_polarised hs h0 hl (massive_of hM n b hl) (fun _ => (boson_pos hc hh (massive_of hM n b hl)).ne')) hu, sum_colours, lc, s0, s1, sy]
  simp only [sumV_sum, sumJ_sum, am, norm_mul, norm_neg, norm_one, one_mul, p0, p1, p2, p3, Finset.sum_singleton, sum_two, Matrix.cons_val_zero, Matrix.cons_val_one, Matrix.cons_val, two_castSucc]
  try simp only [← Finset.mul_sum]
  push_cast
  first | ring1 | ring_nf

/-! ### dhdh -/

/-- what the methods of the class see -/
noncomputable abbrev dhdh.N [FPEnv] (c : Constants) (p : Nat → V4 ℝ) : Env := dhdh.proc.env (dhdh.rho c) p
/-- `amp` (SM/dhdh.cpp) -/
noncomputable def dhdh.term (N : Env) (j1 j3 : Int) : ℂ :=
  (((((((0 : Nat) : ℝ) : ℝ) : ℂ) + ((((N.r 6 : ℝ) : ℂ) * (N.v 0 [j1, j3] - N.v 1 [j1, j3])) / N.c 0)) + ((((N.r 7 : ℝ) : ℂ) * ((((((((2 : Nat) : ℝ) * N.r 1) : ℝ) : ℂ) * (N.v 0 [j1, j3] - N.v 1 [j1, j3])) - N.v 2 [j1, j3]) + N.v 3 [j3, j1])) / N.c 1)) + ((((N.r 7 : ℝ) : ℂ) * ((((((((2 : Nat) : ℝ) * N.r 1) : ℝ) : ℂ) * (N.v 0 [j1, j3] - N.v 1 [j1, j3])) + N.v 2 [j1, j3]) - N.v 3 [j3, j1])) / N.c 2))
/-- the same with spinors in place of their spins -/
noncomputable def dhdh.form (N : Env) (p : Nat → V4 ℝ) (z0 z2 : Pair) : ℂ :=
  (((0 + ((((N.r 6 : ℝ) : ℂ) * ((sb z0.2 z2.2) - (ab z0.1 z2.1))) / N.c 0)) + ((((N.r 7 : ℝ) : ℂ) * ((((((((2 : Nat) : ℝ) * N.r 1) : ℝ) : ℂ) * ((sb z0.2 z2.2) - (ab z0.1 z2.1))) - (mb z0.2 (p 1) z2.1)) + (mb z2.2 (p 1) z0.1))) / N.c 1)) + ((((N.r 7 : ℝ) : ℂ) * ((((((((2 : Nat) : ℝ) * N.r 1) : ℝ) : ℂ) * ((sb z0.2 z2.2) - (ab z0.1 z2.1))) + (mb z0.2 (p 1) z2.1)) - (mb z2.2 (p 1) z0.1))) / N.c 2))
theorem dhdh.key {c : Constants} {p : Nat → V4 ℝ} {N : Env} (hc : c.Physical) (hb : Balanced p) (r1 : N.r 1 = (c.mass .d)) (r6 : N.r 6 = ((((((((3 : Nat) : ℝ) * c.e) * c.e) * (c.mass .d)) * c.MH) * c.MH) / ((((((4 : Nat) : ℝ) * c.MW) * c.MW) * c.SW) * c.SW))) (r7 : N.r 7 = ((((c.e * c.e) * (c.mass .d)) * (c.mass .d)) / ((((((4 : Nat) : ℝ) * c.MW) * c.MW) * c.SW) * c.SW))) (d0 : pole c.MH c.WH (plus (p 1) (backward (p 3))) = N.c 0) (n0 : N.c 0 ≠ 0) (d1 : ((msq (plus (p 0) (p 1)) - c.mass .d ^ 2 : ℝ) : ℂ) = N.c 1) (n1 : N.c 1 ≠ 0) (d2 : ((msq (plus (p 0) (backward (p 3))) - c.mass .d ^ 2 : ℝ) : ℂ) = N.c 2) (n2 : N.c 2 ≠ 0) {z0 z2 : Pair} (b0 : Bold (p 0) (c.mass .d) z0) (b2 : Bold (p 2) (c.mass .d) z2) (E1 E3 : Vec) :
    dhdh.form N p z0 z2 = -(dhdh.react.bare c p 2 0 1 3 z2 z0 E1 E3) := by
  rw [dhdh.react.bare_parts c p (i := 2) (j := 0) (a := 1) (b := 3) (x := .higgs) (y := .higgs) (k := (p 1)) (k' := (backward (p 3))) (fun _ => rfl) (fun _ => rfl) (f := .d) (g := .d) rfl rfl (l := (p 0)) rfl (e := 1) (e' := 1) (if_neg Bool.false_ne_true) (if_neg Bool.false_ne_true)]
  rw [compton_hh (f := .d) (x := .d) (g := .d) (h := (rfl : Spec.after .higgs Flavour.d = some Flavour.d)) (h' := (rfl : Spec.after .higgs Flavour.d = some Flavour.d))]
  rw [compton_hh (f := .d) (x := .d) (g := .d) (h := (rfl : Spec.after .higgs Flavour.d = some Flavour.d)) (h' := (rfl : Spec.after .higgs Flavour.d = some Flavour.d))]
  have an := annihilation_neutral c (1) (1) z2.1 z2.2 z0.1 z0.2 ⟨.higgs, (p 1), E1⟩ ⟨.higgs, (backward (p 3)), E3⟩ .d
  dsimp only at an
  rw [an, dhdh.form]
  clear an
  rw [lineV_massless (hx := (rfl : Boson.massive .photon = false))]
  rw [lineV_massive (hx := (rfl : Boson.massive .z = true))]
  simp only [toHiggs, toVector, higgs2, gauge3, Boson.anti, Constants.bosonMass, Constants.bosonWidth, d0, d1, d2, reduceCtorEq, and_self, and_true, and_false, and_true, if_true, if_false, Complex.ofReal_zero, zero_smul, zero_mul, mul_zero, zero_div, neg_zero, add_zero, zero_add, lineH, lineV_zero, contract_zero, lineV_smul, contract_smul, lineV_pv, lineV_four, contract_four_pv, contract_pv, mb_plus, mb_backward]
  simp only [b0.mb_left, b0.mb_right, b2.mb_left, b2.mb_right, mb_three hb z0.2 z0.1, mb_three hb z0.2 z2.1, mb_three hb z2.2 z0.1, mb_three hb z2.2 z2.1, ab_self, sb_self]
  simp only [ab_swap z0.1 z2.1, sb_swap z0.2 z2.2, r1, r6, r7, Constants.hL, Constants.hR, Constants.gL, Constants.gR, Constants.yuk, Constants.invVev, Flavour.charge_d, Flavour.isospin_d, ← c.mz]
  have xMW : (c.MW : ℂ) ≠ 0 := by exact_mod_cast hc.MW
  have xSW : (c.SW : ℂ) ≠ 0 := by exact_mod_cast hc.SW
  have xCW : (c.CW : ℂ) ≠ 0 := by exact_mod_cast hc.CW
  have x2 : ((√2 : ℝ) : ℂ) ≠ 0 := by exact_mod_cast (Real.sqrt_pos.2 two_pos).ne'
  have x22 : ((√2 : ℝ) : ℂ) ^ 2 = 2 := by rw [← Complex.ofReal_pow, Real.sq_sqrt two_pos.le]; norm_num
  push_cast
  field_simp
  first | ring1 | (ring_nf; simp only [x22]; ring1)
set_option maxRecDepth 8000 in
theorem dhdh.amp2_eq (N : Env) (f : Nat → List Int → ℂ) : Cls.dhdh.m_amp2.mean N f .r [] =
    ((sumJ (fun x a => (sumJ (fun x b => (x + (((3 : Nat) : ℝ) * (‖(f 0 [a, b])‖ ^ 2)))) x)) ((0 : Nat) : ℝ)) / ((6 : Nat) : ℝ)) := by rfl
set_option maxRecDepth 8000 in
theorem dhdh.value (N : Env) : meaning N .r Cls.dhdh.methods Cls.dhdh.amp2 [] =
    ((sumJ (fun x a => (sumJ (fun x b => (x + (((3 : Nat) : ℝ) * (‖(Cls.dhdh.m_amp.mean N (callMean N []) .c [a, b])‖ ^ 2)))) x)) ((0 : Nat) : ℝ)) / ((6 : Nat) : ℝ)) :=
  dhdh.amp2_eq N (callMean N [Cls.dhdh.m_amp])
set_option maxRecDepth 8000 in
theorem dhdh.amp_eq (N : Env) (f : Nat → List Int → ℂ) (j1 j3 : Int) : Cls.dhdh.m_amp.mean N f .c [j1, j3] = dhdh.term N j1 j3 := by rfl

theorem dhdh.mass_eq {c : Constants} (hc : c.Physical) (i : Fin 4) : dhdh.proc.massNum (dhdh.rho c) i = dhdh.react.mass c i := by
  fin_cases i <;> first | rfl | exact Nat.cast_zero.trans (hc.neutrino _).symm | (show c.MW / √(((1 : Nat) : ℝ) - c.SW * c.SW) = c.MZ; rw [c.root, c.mz])

variable [FPEnv] in
theorem dhdh.agrees : dhdh.Agrees := by
  refine agrees_of (D := [4, 5]) (E := [5]) (by simp [all, dhdh]) (by decide +kernel) (by decide) (by decide +kernel) (fun c hc hh => ⟨List.forall_mem_cons.2 ⟨hc.MW, List.forall_mem_cons.2 ⟨hc.SW, List.forall_mem_nil _⟩⟩, List.forall_mem_cons.2 ⟨hc.SW_lt, List.forall_mem_nil _⟩⟩) (fun c hc i => dhdh.mass_eq hc i) (by decide +kernel) ?_
  intro c p u ε hc hh hw h0 hs hb hr hu
  have he : dhdh.react.ends = [2] := by decide
  have ht : dhdh.react.starts = [0] := by decide
  have hB : dhdh.react.bosons = [1, 3] := by decide
  have hM : dhdh.react.allMassive = true := by decide
  obtain ⟨f1, f2, f3⟩ := dhdh.react.regular_line he ht hB hr
  have r1 : (dhdh.N c p).r 1 = (c.mass .d) := rfl
  have r6 : (dhdh.N c p).r 6 = ((((((((3 : Nat) : ℝ) * c.e) * c.e) * (c.mass .d)) * c.MH) * c.MH) / ((((((4 : Nat) : ℝ) * c.MW) * c.MW) * c.SW) * c.SW)) := rfl
  have r7 : (dhdh.N c p).r 7 = ((((c.e * c.e) * (c.mass .d)) * (c.mass .d)) / ((((((4 : Nat) : ℝ) * c.MW) * c.MW) * c.SW) * c.SW)) := rfl
  have c0 : (dhdh.N c p).c 0 = poleDist c.MH c.WH ((VExp.sub 0 2).sum p) := rfl
  rw [pole_congr (msq_t hb (plus (p 1) (backward (p 3))) (by simp)).symm] at c0
  have d0 : pole c.MH c.WH (plus (p 1) (backward (p 3))) = (dhdh.N c p).c 0 := by rw [c0]
  have n0 : (dhdh.N c p).c 0 ≠ 0 := by rw [← d0]; exact star_ne_zero.2 (f3 .higgs rfl rfl)
  have c1 : (dhdh.N c p).c 1 = poleDist (c.mass .d) ((0 : Nat) : ℝ) ((VExp.add 0 1).sum p) := rfl
  rw [Nat.cast_zero, pole_fermion (msq_s hb (plus (p 0) (p 1)) (by simp))] at c1
  have d1 : ((msq (plus (p 0) (p 1)) - c.mass .d ^ 2 : ℝ) : ℂ) = (dhdh.N c p).c 1 := by rw [c1]
  have n1 : (dhdh.N c p).c 1 ≠ 0 := by rw [← d1]; exact_mod_cast f1 .d rfl rfl
  have c2 : (dhdh.N c p).c 2 = poleDist (c.mass .d) ((0 : Nat) : ℝ) ((VExp.sub 0 3).sum p) := rfl
  rw [Nat.cast_zero, pole_fermion (msq_u hb (plus (p 0) (backward (p 3))) (by simp))] at c2
  have d2 : ((msq (plus (p 0) (backward (p 3))) - c.mass .d ^ 2 : ℝ) : ℂ) = (dhdh.N c p).c 2 := by rw [c2]
  have n2 : (dhdh.N c p).c 2 ≠ 0 := by rw [← d2]; exact_mod_cast f2 .d rfl rfl
  have m0 : dhdh.react.mass c 0 ≠ 0 := (leg_pos hc hh (by decide)).ne'
  have m2 : dhdh.react.mass c 2 ≠ 0 := (leg_pos hc hh (by decide)).ne'
  have hd : dhdh.proc.divides = [(Ty.c, 0), (Ty.c, 1), (Ty.c, 2)] := by decide +kernel
  refine ⟨fun n hn => ?_, fun n hn => ?_, ?_⟩
  · simp [hd] at hn
  · simp [hd] at hn
    rcases hn with rfl | rfl | rfl
    · exact n0
    · exact n1
    · exact n2
  have st : ∀ {z0 z2 : Pair} (b0 : Bold (p 0) (dhdh.react.mass c 0) z0) (b2 : Bold (p 2) (dhdh.react.mass c 2) z2), dhdh.form (dhdh.N c p) p z0 z2 = (-1) * dhdh.react.bare c p 2 0 1 3 z2 z0 (dhdh.react.codeVec c p 1 0) (dhdh.react.codeVec c p 3 0) := by
    intro z0 z2 b0 b2
    rw [neg_one_mul]
    exact dhdh.key hc hb r1 r6 r7 d0 n0 d1 n1 d2 n2 b0 b2 (dhdh.react.codeVec c p 1 0) (dhdh.react.codeVec c p 3 0)
  have am : ∀ (s0 : Fin 2) (s2 : Fin 2), Cls.dhdh.m_amp.mean (dhdh.N c p) (callMean (dhdh.N c p) []) .c [spinOf s0, spinOf s2] = (-1) * dhdh.react.bare c p 2 0 1 3 (dhdh.react.codePair c p 2 s2) (dhdh.react.codePair c p 0 s0) (dhdh.react.codeVec c p 1 0) (dhdh.react.codeVec c p 3 0) := by
    intro s0 s2
    rw [dhdh.amp_eq, ← st (dhdh.react.codePair_bold hs h0 0 s0) (dhdh.react.codePair_bold hs h0 2 s2)]
    have v0z0z2 : (dhdh.N c p).v 0 [spinOf s0, spinOf s2] = sb (dhdh.react.codePair c p 0 s0).2 (dhdh.react.codePair c p 2 s2).2 := bra_square (p := p) (m := dhdh.proc.massNum (dhdh.rho c)) (dhdh.mass_eq hc 0) (dhdh.mass_eq hc 2) (.inl ⟨m0, rfl⟩) (.inl ⟨m2, rfl⟩)
    have v1z0z2 : (dhdh.N c p).v 1 [spinOf s0, spinOf s2] = ab (dhdh.react.codePair c p 0 s0).1 (dhdh.react.codePair c p 2 s2).1 := bra_angle (p := p) (m := dhdh.proc.massNum (dhdh.rho c)) (dhdh.mass_eq hc 0) (dhdh.mass_eq hc 2) (.inl ⟨m0, rfl⟩) (.inl ⟨m2, rfl⟩)
    have v2z0z2 : (dhdh.N c p).v 2 [spinOf s0, spinOf s2] = mb (dhdh.react.codePair c p 0 s0).2 (p 1) (dhdh.react.codePair c p 2 s2).1 := bra_mid_square (p := p) (m := dhdh.proc.massNum (dhdh.rho c)) (dhdh.mass_eq hc 0) (dhdh.mass_eq hc 2) (.inl ⟨m0, rfl⟩) (.inl ⟨m2, rfl⟩)
    have v3z2z0 : (dhdh.N c p).v 3 [spinOf s2, spinOf s0] = mb (dhdh.react.codePair c p 2 s2).2 (p 1) (dhdh.react.codePair c p 0 s0).1 := bra_mid_square (p := p) (m := dhdh.proc.massNum (dhdh.rho c)) (dhdh.mass_eq hc 2) (dhdh.mass_eq hc 0) (.inl ⟨m2, rfl⟩) (.inl ⟨m0, rfl⟩)
    simp only [dhdh.term, dhdh.form, v0z0z2, v1z0z2, v2z0z2, v3z2z0]
    push_cast
    ring
  show meaning (dhdh.N c p) .r Cls.dhdh.methods Cls.dhdh.amp2 [] = _
  have lc : dhdh.react.lineColours 2 0 = 3 := by decide +kernel
  have s0 : dhdh.react.states 0 = 6 := by decide
  have s1 : dhdh.react.states 1 = 1 := by decide
  have sy : dhdh.react.symmetry = 1 := by decide
  have p0 : dhdh.react.spins 0 = {0, 1} := rfl
  have p1 : dhdh.react.spins 1 = {0} := rfl
  have p2 : dhdh.react.spins 2 = {0, 1} := rfl
  have p3 : dhdh.react.spins 3 = {0} := rfl
  rw [dhdh.value, dhdh.react.squared_line he ht hB (noGluon_of hM) hs h0 (fun _ b _ hb _ => (boson_pos hc hh hb).ne') (dhdh.react.gauge_massive (massive_of hM)) (E := dhdh.react.codeVec c p) (fun n b hl => dhdh.react.codeVec_polarised hs h0 hl (massive_of hM n b hl) (fun _ => (boson_pos hc hh (massive_of hM n b hl)).ne')) hu, sum_colours, lc, s0, s1, sy]
  simp only [sumV_sum, sumJ_sum, am, norm_mul, norm_neg, norm_one, one_mul, p0, p1, p2, p3, Finset.sum_singleton, sum_two, Matrix.cons_val_zero, Matrix.cons_val_one, Matrix.cons_val, two_castSucc]
  try simp only [← Finset.mul_sum]
  push_cast
  first | ring1 | ring_nf

/-! ### uuhh -/

/-- what the methods of the class see -/
noncomputable abbrev uuhh.N [FPEnv] (c : Constants) (p : Nat → V4 ℝ) : Env := uuhh.proc.env (uuhh.rho c) p
/-- `amp` (SM/uuhh.cpp) -/
noncomputable def uuhh.term (N : Env) (j1 j2 : Int) : ℂ :=
  (((((((0 : Nat) : ℝ) : ℝ) : ℂ) + ((((N.r 6 : ℝ) : ℂ) * (N.v 0 [j1, j2] + N.v 1 [j1, j2])) / N.c 0)) + ((((N.r 7 : ℝ) : ℂ) * ((((((((2 : Nat) : ℝ) * N.r 1) : ℝ) : ℂ) * (N.v 0 [j1, j2] + N.v 1 [j1, j2])) - N.v 2 [j1, j2]) - N.v 3 [j2, j1])) / N.c 1)) + ((((N.r 7 : ℝ) : ℂ) * ((((((((2 : Nat) : ℝ) * N.r 1) : ℝ) : ℂ) * (N.v 0 [j1, j2] + N.v 1 [j1, j2])) + N.v 2 [j1, j2]) + N.v 3 [j2, j1])) / N.c 2))
/-- the same with spinors in place of their spins -/
noncomputable def uuhh.form (N : Env) (p : Nat → V4 ℝ) (z0 z1 : Pair) : ℂ :=
  (((0 + ((((N.r 6 : ℝ) : ℂ) * ((sb z0.2 z1.2) + (ab z0.1 z1.1))) / N.c 0)) + ((((N.r 7 : ℝ) : ℂ) * ((((((((2 : Nat) : ℝ) * N.r 1) : ℝ) : ℂ) * ((sb z0.2 z1.2) + (ab z0.1 z1.1))) - (mb z0.2 (p 2) z1.1)) - (mb z1.2 (p 2) z0.1))) / N.c 1)) + ((((N.r 7 : ℝ) : ℂ) * ((((((((2 : Nat) : ℝ) * N.r 1) : ℝ) : ℂ) * ((sb z0.2 z1.2) + (ab z0.1 z1.1))) + (mb z0.2 (p 2) z1.1)) + (mb z1.2 (p 2) z0.1))) / N.c 2))
theorem uuhh.key {c : Constants} {p : Nat → V4 ℝ} {N : Env} (hc : c.Physical) (hb : Balanced p) (r1 : N.r 1 = (c.mass .u)) (r6 : N.r 6 = ((((((((3 : Nat) : ℝ) * c.e) * c.e) * (c.mass .u)) * c.MH) * c.MH) / ((((((4 : Nat) : ℝ) * c.MW) * c.MW) * c.SW) * c.SW))) (r7 : N.r 7 = ((((c.e * c.e) * (c.mass .u)) * (c.mass .u)) / ((((((4 : Nat) : ℝ) * c.MW) * c.MW) * c.SW) * c.SW))) (d0 : pole c.MH c.WH (plus (backward (p 2)) (backward (p 3))) = N.c 0) (n0 : N.c 0 ≠ 0) (d1 : ((msq (plus (p 0) (backward (p 2))) - c.mass .u ^ 2 : ℝ) : ℂ) = N.c 1) (n1 : N.c 1 ≠ 0) (d2 : ((msq (plus (p 0) (backward (p 3))) - c.mass .u ^ 2 : ℝ) : ℂ) = N.c 2) (n2 : N.c 2 ≠ 0) {z0 z1 : Pair} (b0 : Bold (p 0) (c.mass .u) z0) (b1 : Bold (p 1) (c.mass .u) z1) (E2 E3 : Vec) :
    uuhh.form N p z0 z1 = uuhh.react.bare c p 1 0 2 3 z1 z0 E2 E3 := by
  rw [uuhh.react.bare_parts c p (i := 1) (j := 0) (a := 2) (b := 3) (x := .higgs) (y := .higgs) (k := (backward (p 2))) (k' := (backward (p 3))) (fun _ => rfl) (fun _ => rfl) (f := .u) (g := .u) rfl rfl (l := (p 0)) rfl (e := -1) (e' := 1) (if_pos rfl) (if_neg Bool.false_ne_true)]
  rw [compton_hh (f := .u) (x := .u) (g := .u) (h := (rfl : Spec.after .higgs Flavour.u = some Flavour.u)) (h' := (rfl : Spec.after .higgs Flavour.u = some Flavour.u))]
  rw [compton_hh (f := .u) (x := .u) (g := .u) (h := (rfl : Spec.after .higgs Flavour.u = some Flavour.u)) (h' := (rfl : Spec.after .higgs Flavour.u = some Flavour.u))]
  have an := annihilation_neutral c (-1) (1) z1.1 z1.2 z0.1 z0.2 ⟨.higgs, (backward (p 2)), E2⟩ ⟨.higgs, (backward (p 3)), E3⟩ .u
  dsimp only at an
  rw [an, uuhh.form]
  clear an
  rw [lineV_massless (hx := (rfl : Boson.massive .photon = false))]
  rw [lineV_massive (hx := (rfl : Boson.massive .z = true))]
  simp only [toHiggs, toVector, higgs2, gauge3, Boson.anti, Constants.bosonMass, Constants.bosonWidth, d0, d1, d2, reduceCtorEq, and_self, and_true, and_false, and_true, if_true, if_false, Complex.ofReal_zero, zero_smul, zero_mul, mul_zero, zero_div, neg_zero, add_zero, zero_add, lineH, lineV_zero, contract_zero, lineV_smul, contract_smul, lineV_pv, lineV_four, contract_four_pv, contract_pv, mb_plus, mb_backward]
  simp only [b0.mb_left, b0.mb_right, b1.mb_left, b1.mb_right, mb_three hb z0.2 z0.1, mb_three hb z0.2 z1.1, mb_three hb z1.2 z0.1, mb_three hb z1.2 z1.1, ab_self, sb_self]
  simp only [ab_swap z0.1 z1.1, sb_swap z0.2 z1.2, r1, r6, r7, Constants.hL, Constants.hR, Constants.gL, Constants.gR, Constants.yuk, Constants.invVev, Flavour.charge_u, Flavour.isospin_u, ← c.mz]
  have xMW : (c.MW : ℂ) ≠ 0 := by exact_mod_cast hc.MW
  have xSW : (c.SW : ℂ) ≠ 0 := by exact_mod_cast hc.SW
  have xCW : (c.CW : ℂ) ≠ 0 := by exact_mod_cast hc.CW
  have x2 : ((√2 : ℝ) : ℂ) ≠ 0 := by exact_mod_cast (Real.sqrt_pos.2 two_pos).ne'
  have x22 : ((√2 : ℝ) : ℂ) ^ 2 = 2 := by rw [← Complex.ofReal_pow, Real.sq_sqrt two_pos.le]; norm_num
  push_cast
  field_simp
  first | ring1 | (ring_nf; simp only [x22]; ring1)
set_option maxRecDepth 8000 in
theorem uuhh.amp2_eq (N : Env) (f : Nat → List Int → ℂ) : Cls.uuhh.m_amp2.mean N f .r [] =
    ((sumJ (fun x a => (sumJ (fun x b => (x + (((3 : Nat) : ℝ) * (‖(f 0 [a, b])‖ ^ 2)))) x)) ((0 : Nat) : ℝ)) / ((72 : Nat) : ℝ)) := by rfl
set_option maxRecDepth 8000 in
theorem uuhh.value (N : Env) : meaning N .r Cls.uuhh.methods Cls.uuhh.amp2 [] =
    ((sumJ (fun x a => (sumJ (fun x b => (x + (((3 : Nat) : ℝ) * (‖(Cls.uuhh.m_amp.mean N (callMean N []) .c [a, b])‖ ^ 2)))) x)) ((0 : Nat) : ℝ)) / ((72 : Nat) : ℝ)) :=
  uuhh.amp2_eq N (callMean N [Cls.uuhh.m_amp])
set_option maxRecDepth 8000 in
theorem uuhh.amp_eq (N : Env) (f : Nat → List Int → ℂ) (j1 j2 : Int) : Cls.uuhh.m_amp.mean N f .c [j1, j2] = uuhh.term N j1 j2 := by rfl

theorem uuhh.mass_eq {c : Constants} (hc : c.Physical) (i : Fin 4) : uuhh.proc.massNum (uuhh.rho c) i = uuhh.react.mass c i := by
  fin_cases i <;> first | rfl | exact Nat.cast_zero.trans (hc.neutrino _).symm | (show c.MW / √(((1 : Nat) : ℝ) - c.SW * c.SW) = c.MZ; rw [c.root, c.mz])

variable [FPEnv] in
theorem uuhh.agrees : uuhh.Agrees := by
  refine agrees_of (D := [4, 5]) (E := [5]) (by simp [all, uuhh]) (by decide +kernel) (by decide) (by decide +kernel) (fun c hc hh => ⟨List.forall_mem_cons.2 ⟨hc.MW, List.forall_mem_cons.2 ⟨hc.SW, List.forall_mem_nil _⟩⟩, List.forall_mem_cons.2 ⟨hc.SW_lt, List.forall_mem_nil _⟩⟩) (fun c hc i => uuhh.mass_eq hc i) (by decide +kernel) ?_
  intro c p u ε hc hh hw h0 hs hb hr hu
  have he : uuhh.react.ends = [1] := by decide
  have ht : uuhh.react.starts = [0] := by decide
  have hB : uuhh.react.bosons = [2, 3] := by decide
  have hM : uuhh.react.allMassive = true := by decide
  obtain ⟨f1, f2, f3⟩ := uuhh.react.regular_line he ht hB hr
  have r1 : (uuhh.N c p).r 1 = (c.mass .u) := rfl
  have r6 : (uuhh.N c p).r 6 = ((((((((3 : Nat) : ℝ) * c.e) * c.e) * (c.mass .u)) * c.MH) * c.MH) / ((((((4 : Nat) : ℝ) * c.MW) * c.MW) * c.SW) * c.SW)) := rfl
  have r7 : (uuhh.N c p).r 7 = ((((c.e * c.e) * (c.mass .u)) * (c.mass .u)) / ((((((4 : Nat) : ℝ) * c.MW) * c.MW) * c.SW) * c.SW)) := rfl
  have c0 : (uuhh.N c p).c 0 = poleDist c.MH c.WH ((VExp.add 0 1).sum p) := rfl
  rw [pole_congr (msq_s hb (plus (backward (p 2)) (backward (p 3))) (by simp)).symm] at c0
  have d0 : pole c.MH c.WH (plus (backward (p 2)) (backward (p 3))) = (uuhh.N c p).c 0 := by rw [c0]
  have n0 : (uuhh.N c p).c 0 ≠ 0 := by rw [← d0]; exact star_ne_zero.2 (f3 .higgs rfl rfl)
  have c1 : (uuhh.N c p).c 1 = poleDist (c.mass .u) ((0 : Nat) : ℝ) ((VExp.sub 0 2).sum p) := rfl
  rw [Nat.cast_zero, pole_fermion (msq_t hb (plus (p 0) (backward (p 2))) (by simp))] at c1
  have d1 : ((msq (plus (p 0) (backward (p 2))) - c.mass .u ^ 2 : ℝ) : ℂ) = (uuhh.N c p).c 1 := by rw [c1]
  have n1 : (uuhh.N c p).c 1 ≠ 0 := by rw [← d1]; exact_mod_cast f1 .u rfl rfl
  have c2 : (uuhh.N c p).c 2 = poleDist (c.mass .u) ((0 : Nat) : ℝ) ((VExp.sub 0 3).sum p) := rfl
  rw [Nat.cast_zero, pole_fermion (msq_u hb (plus (p 0) (backward (p 3))) (by simp))] at c2
  have d2 : ((msq (plus (p 0) (backward (p 3))) - c.mass .u ^ 2 : ℝ) : ℂ) = (uuhh.N c p).c 2 := by rw [c2]
  have n2 : (uuhh.N c p).c 2 ≠ 0 := by rw [← d2]; exact_mod_cast f2 .u rfl rfl
  have m0 : uuhh.react.mass c 0 ≠ 0 := (leg_pos hc hh (by decide)).ne'
  have m1 : uuhh.react.mass c 1 ≠ 0 := (leg_pos hc hh (by decide)).ne'
  have hd : uuhh.proc.divides = [(Ty.c, 0), (Ty.c, 1), (Ty.c, 2)] := by decide +kernel
  refine ⟨fun n hn => ?_, fun n hn => ?_, ?_⟩
  · simp [hd] at hn
  · simp [hd] at hn
    rcases hn with rfl | rfl | rfl
    · exact n0
    · exact n1
    · exact n2
  have st : ∀ {z0 z1 : Pair} (b0 : Bold (p 0) (uuhh.react.mass c 0) z0) (b1 : Bold (p 1) (uuhh.react.mass c 1) z1), uuhh.form (uuhh.N c p) p z0 z1 = 1 * uuhh.react.bare c p 1 0 2 3 z1 z0 (uuhh.react.codeVec c p 2 0) (uuhh.react.codeVec c p 3 0) := by
    intro z0 z1 b0 b1
    rw [one_mul]
    exact uuhh.key hc hb r1 r6 r7 d0 n0 d1 n1 d2 n2 b0 b1 (uuhh.react.codeVec c p 2 0) (uuhh.react.codeVec c p 3 0)
  have am : ∀ (s0 : Fin 2) (s1 : Fin 2), Cls.uuhh.m_amp.mean (uuhh.N c p) (callMean (uuhh.N c p) []) .c [spinOf s0, spinOf s1] = 1 * uuhh.react.bare c p 1 0 2 3 (uuhh.react.codePair c p 1 s1) (uuhh.react.codePair c p 0 s0) (uuhh.react.codeVec c p 2 0) (uuhh.react.codeVec c p 3 0) := by
    intro s0 s1
    rw [uuhh.amp_eq, ← st (uuhh.react.codePair_bold hs h0 0 s0) (uuhh.react.codePair_bold hs h0 1 s1)]
    have v0z0z1 : (uuhh.N c p).v 0 [spinOf s0, spinOf s1] = sb (uuhh.react.codePair c p 0 s0).2 (uuhh.react.codePair c p 1 s1).2 := bra_square (p := p) (m := uuhh.proc.massNum (uuhh.rho c)) (uuhh.mass_eq hc 0) (uuhh.mass_eq hc 1) (.inl ⟨m0, rfl⟩) (.inl ⟨m1, rfl⟩)
    have v1z0z1 : (uuhh.N c p).v 1 [spinOf s0, spinOf s1] = ab (uuhh.react.codePair c p 0 s0).1 (uuhh.react.codePair c p 1 s1).1 := bra_angle (p := p) (m := uuhh.proc.massNum (uuhh.rho c)) (uuhh.mass_eq hc 0) (uuhh.mass_eq hc 1) (.inl ⟨m0, rfl⟩) (.inl ⟨m1, rfl⟩)
    have v2z0z1 : (uuhh.N c p).v 2 [spinOf s0, spinOf s1] = mb (uuhh.react.codePair c p 0 s0).2 (p 2) (uuhh.react.codePair c p 1 s1).1 := bra_mid_square (p := p) (m := uuhh.proc.massNum (uuhh.rho c)) (uuhh.mass_eq hc 0) (uuhh.mass_eq hc 1) (.inl ⟨m0, rfl⟩) (.inl ⟨m1, rfl⟩)
    have v3z1z0 : (uuhh.N c p).v 3 [spinOf s1, spinOf s0] = mb (uuhh.react.codePair c p 1 s1).2 (p 2) (uuhh.react.codePair c p 0 s0).1 := bra_mid_square (p := p) (m := uuhh.proc.massNum (uuhh.rho c)) (uuhh.mass_eq hc 1) (uuhh.mass_eq hc 0) (.inl ⟨m1, rfl⟩) (.inl ⟨m0, rfl⟩)
    simp only [uuhh.term, uuhh.form, v0z0z1, v1z0z1, v2z0z1, v3z1z0]
    push_cast
    ring
  show meaning (uuhh.N c p) .r Cls.uuhh.methods Cls.uuhh.amp2 [] = _
  have lc : uuhh.react.lineColours 1 0 = 3 := by decide +kernel
  have s0 : uuhh.react.states 0 = 6 := by decide
  have s1 : uuhh.react.states 1 = 6 := by decide
  have sy : uuhh.react.symmetry = 2 := by decide
  have p0 : uuhh.react.spins 0 = {0, 1} := rfl
  have p1 : uuhh.react.spins 1 = {0, 1} := rfl
  have p2 : uuhh.react.spins 2 = {0} := rfl
  have p3 : uuhh.react.spins 3 = {0} := rfl
  rw [uuhh.value, uuhh.react.squared_line he ht hB (noGluon_of hM) hs h0 (fun _ b _ hb _ => (boson_pos hc hh hb).ne') (uuhh.react.gauge_massive (massive_of hM)) (E := uuhh.react.codeVec c p) (fun n b hl => uuhh.react.codeVec_polarised hs h0 hl (massive_of hM n b hl) (fun _ => (boson_pos hc hh (massive_of hM n b hl)).ne')) hu, sum_colours, lc, s0, s1, sy]
  simp only [sumV_sum, sumJ_sum, am, norm_mul, norm_neg, norm_one, one_mul, p0, p1, p2, p3, Finset.sum_singleton, sum_two, Matrix.cons_val_zero, Matrix.cons_val_one, Matrix.cons_val, two_castSucc]
  try simp only [← Finset.mul_sum]
  push_cast
  first | ring1 | ring_nf

/-! ### uhuh -/

/-- what the methods of the class see -/
noncomputable abbrev uhuh.N [FPEnv] (c : Constants) (p : Nat → V4 ℝ) : Env := uhuh.proc.env (uhuh.rho c) p
/-- `amp` (SM/uhuh.cpp) -/
noncomputable def uhuh.term (N : Env) (j1 j3 : Int) : ℂ :=
  (((((((0 : Nat) : ℝ) : ℝ) : ℂ) + ((((N.r 6 : ℝ) : ℂ) * (N.v 0 [j1, j3] - N.v 1 [j1, j3])) / N.c 0)) + ((((N.r 7 : ℝ) : ℂ) * ((((((((2 : Nat) : ℝ) * N.r 1) : ℝ) : ℂ) * (N.v 0 [j1, j3] - N.v 1 [j1, j3])) - N.v 2 [j1, j3]) + N.v 3 [j3, j1])) / N.c 1)) + ((((N.r 7 : ℝ) : ℂ) * ((((((((2 : Nat) : ℝ) * N.r 1) : ℝ) : ℂ) * (N.v 0 [j1, j3] - N.v 1 [j1, j3])) + N.v 2 [j1, j3]) - N.v 3 [j3, j1])) / N.c 2))
/-- the same with spinors in place of their spins -/
noncomputable def uhuh.form (N : Env) (p : Nat → V4 ℝ) (z0 z2 : Pair) : ℂ :=
  (((0 + ((((N.r 6 : ℝ) : ℂ) * ((sb z0.2 z2.2) - (ab z0.1 z2.1))) / N.c 0)) + ((((N.r 7 : ℝ) : ℂ) * ((((((((2 : Nat) : ℝ) * N.r 1) : ℝ) : ℂ) * ((sb z0.2 z2.2) - (ab z0.1 z2.1))) - (mb z0.2 (p 1) z2.1)) + (mb z2.2 (p 1) z0.1))) / N.c 1)) + ((((N.r 7 : ℝ) : ℂ) * ((((((((2 : Nat) : ℝ) * N.r 1) : ℝ) : ℂ) * ((sb z0.2 z2.2) - (ab z0.1 z2.1))) + (mb z0.2 (p 1) z2.1)) - (mb z2.2 (p 1) z0.1))) / N.c 2))
theorem uhuh.key {c : Constants} {p : Nat → V4 ℝ} {N : Env} (hc : c.Physical) (hb : Balanced p) (r1 : N.r 1 = (c.mass .u)) (r6 : N.r 6 = ((((((((3 : Nat) : ℝ) * c.e) * c.e) * (c.mass .u)) * c.MH) * c.MH) / ((((((4 : Nat) : ℝ) * c.MW) * c.MW) * c.SW) * c.SW))) (r7 : N.r 7 = ((((c.e * c.e) * (c.mass .u)) * (c.mass .u)) / ((((((4 : Nat) : ℝ) * c.MW) * c.MW) * c.SW) * c.SW))) (d0 : pole c.MH c.WH (plus (p 1) (backward (p 3))) = N.c 0) (n0 : N.c 0 ≠ 0) (d1 : ((msq (plus (p 0) (p 1)) - c.mass .u ^ 2 : ℝ) : ℂ) = N.c 1) (n1 : N.c 1 ≠ 0) (d2 : ((msq (plus (p 0) (backward (p 3))) - c.mass .u ^ 2 : ℝ) : ℂ) = N.c 2) (n2 : N.c 2 ≠ 0) {z0 z2 : Pair} (b0 : Bold (p 0) (c.mass .u) z0) (b2 : Bold (p 2) (c.mass .u) z2) (E1 E3 : Vec) :
    uhuh.form N p z0 z2 = -(uhuh.react.bare c p 2 0 1 3 z2 z0 E1 E3) := by
  rw [uhuh.react.bare_parts c p (i := 2) (j := 0) (a := 1) (b := 3) (x := .higgs) (y := .higgs) (k := (p 1)) (k' := (backward (p 3))) (fun _ => rfl) (fun _ => rfl) (f := .u) (g := .u) rfl rfl (l := (p 0)) rfl (e := 1) (e' := 1) (if_neg Bool.false_ne_true) (if_neg Bool.false_ne_true)]
  rw [compton_hh (f := .u) (x := .u) (g := .u) (h := (rfl : Spec.after .higgs Flavour.u = some Flavour.u)) (h' := (rfl : Spec.after .higgs Flavour.u = some Flavour.u))]
  rw [compton_hh (f := .u) (x := .u) (g := .u) (h := (rfl : Spec.after .higgs Flavour.u = some Flavour.u)) (h' := (rfl : Spec.after .higgs Flavour.u = some Flavour.u))]
  have an := annihilation_neutral c (1) (1) z2.1 z2.2 z0.1 z0.2 ⟨.higgs, (p 1), E1⟩ ⟨.higgs, (backward (p 3)), E3⟩ .u
  dsimp only at an
  rw [an, uhuh.form]
  clear an
  rw [lineV_massless (hx := (rfl : Boson.massive .photon = false))]
  rw [lineV_massive (hx := (rfl : Boson.massive .z = true))]
  simp only [toHiggs, toVector, higgs2, gauge3, Boson.anti, Constants.bosonMass, Constants.bosonWidth, d0, d1, d2, reduceCtorEq, and_self, and_true, and_false, and_true, if_true, if_false, Complex.ofReal_zero, zero_smul, zero_mul, mul_zero, zero_div, neg_zero, add_zero, zero_add, lineH, lineV_zero, contract_zero, lineV_smul, contract_smul, lineV_pv, lineV_four, contract_four_pv, contract_pv, mb_plus, mb_backward]
  simp only [b0.mb_left, b0.mb_right, b2.mb_left, b2.mb_right, mb_three hb z0.2 z0.1, mb_three hb z0.2 z2.1, mb_three hb z2.2 z0.1, mb_three hb z2.2 z2.1, ab_self, sb_self]
  simp only [ab_swap z0.1 z2.1, sb_swap z0.2 z2.2, r1, r6, r7, Constants.hL, Constants.hR, Constants.gL, Constants.gR, Constants.yuk, Constants.invVev, Flavour.charge_u, Flavour.isospin_u, ← c.mz]
  have xMW : (c.MW : ℂ) ≠ 0 := by exact_mod_cast hc.MW
  have xSW : (c.SW : ℂ) ≠ 0 := by exact_mod_cast hc.SW
  have xCW : (c.CW : ℂ) ≠ 0 := by exact_mod_cast hc.CW
  have x2 : ((√2 : ℝ) : ℂ) ≠ 0 := by exact_mod_cast (Real.sqrt_pos.2 two_pos).ne'
  have x22 : ((√2 : ℝ) : ℂ) ^ 2 = 2 := by rw [← Complex.ofReal_pow, Real.sq_sqrt two_pos.le]; norm_num
  push_cast
  field_simp
  first | ring1 | (ring_nf; simp only [x22]; ring1)
set_option maxRecDepth 8000 in
theorem uhuh.amp2_eq (N : Env) (f : Nat → List Int → ℂ) : Cls.uhuh.m_amp2.mean N f .r [] =
    ((sumJ (fun x a => (sumJ (fun x b => (x + (((3 : Nat) : ℝ) * (‖(f 0 [a, b])‖ ^ 2)))) x)) ((0 : Nat) : ℝ)) / ((6 : Nat) : ℝ)) := by rfl
set_option maxRecDepth 8000 in
theorem uhuh.value (N : Env) : meaning N .r Cls.uhuh.methods Cls.uhuh.amp2 [] =
    ((sumJ (fun x a => (sumJ (fun x b => (x + (((3 : Nat) : ℝ) * (‖(Cls.uhuh.m_amp.mean N (callMean N []) .c [a, b])‖ ^ 2)))) x)) ((0 : Nat) : ℝ)) / ((6 : Nat) : ℝ)) :=
  uhuh.amp2_eq N (callMean N [Cls.uhuh.m_amp])
set_option maxRecDepth 8000 in
theorem uhuh.amp_eq (N : Env) (f : Nat → List Int → ℂ) (j1 j3 : Int) : Cls.uhuh.m_amp.mean N f .c [j1, j3] = uhuh.term N j1 j3 := by rfl

theorem uhuh.mass_eq {c : Constants} (hc : c.Physical) (i : Fin 4) : uhuh.proc.massNum (uhuh.rho c) i = uhuh.react.mass c i := by
  fin_cases i <;> first | rfl | exact Nat.cast_zero.trans (hc.neutrino _).symm | (show c.MW / √(((1 : Nat) : ℝ) - c.SW * c.SW) = c.MZ; rw [c.root, c.mz])

variable [FPEnv] in
theorem uhuh.agrees : uhuh.Agrees := by
  refine agrees_of (D := [4, 5]) (E := [5]) (by simp [all, uhuh]) (by decide +kernel) (by decide) (by decide +kernel) (fun c hc hh => ⟨List.forall_mem_cons.2 ⟨hc.MW, List.forall_mem_cons.2 ⟨hc.SW, List.forall_mem_nil _⟩⟩, List.forall_mem_cons.2 ⟨hc.SW_lt, List.forall_mem_nil _⟩⟩) (fun c hc i => uhuh.mass_eq hc i) (by decide +kernel) ?_
  intro c p u ε hc hh hw h0 hs hb hr hu
  have he : uhuh.react.ends = [2] := by decide
  have ht : uhuh.react.starts = [0] := by decide
  have hB : uhuh.react.bosons = [1, 3] := by decide
  have hM : uhuh.react.allMassive = true := by decide
  obtain ⟨f1, f2, f3⟩ := uhuh.react.regular_line he ht hB hr
  have r1 : (uhuh.N c p).r 1 = (c.mass .u) := rfl
  have r6 : (uhuh.N c p).r 6 = ((((((((3 : Nat) : ℝ) * c.e) * c.e) * (c.mass .u)) * c.MH) * c.MH) / ((((((4 : Nat) : ℝ) * c.MW) * c.MW) * c.SW) * c.SW)) := rfl
  have r7 : (uhuh.N c p).r 7 = ((((c.e * c.e) * (c.mass .u)) * (c.mass .u)) / ((((((4 : Nat) : ℝ) * c.MW) * c.MW) * c.SW) * c.SW)) := rfl
  have c0 : (uhuh.N c p).c 0 = poleDist c.MH c.WH ((VExp.sub 0 2).sum p) := rfl
  rw [pole_congr (msq_t hb (plus (p 1) (backward (p 3))) (by simp)).symm] at c0
  have d0 : pole c.MH c.WH (plus (p 1) (backward (p 3))) = (uhuh.N c p).c 0 := by rw [c0]
  have n0 : (uhuh.N c p).c 0 ≠ 0 := by rw [← d0]; exact star_ne_zero.2 (f3 .higgs rfl rfl)
  have c1 : (uhuh.N c p).c 1 = poleDist (c.mass .u) ((0 : Nat) : ℝ) ((VExp.add 0 1).sum p) := rfl
  rw [Nat.cast_zero, pole_fermion (msq_s hb (plus (p 0) (p 1)) (by simp))] at c1
  have d1 : ((msq (plus (p 0) (p 1)) - c.mass .u ^ 2 : ℝ) : ℂ) = (uhuh.N c p).c 1 := by rw [c1]
  have n1 : (uhuh.N c p).c 1 ≠ 0 := by rw [← d1]; exact_mod_cast f1 .u rfl rfl
  have c2 : (uhuh.N c p).c 2 = poleDist (c.mass .u) ((0 : Nat) : ℝ) ((VExp.sub 0 3).sum p) := rfl
  rw [Nat.cast_zero, pole_fermion (msq_u hb (plus (p 0) (backward (p 3))) (by simp))] at c2
  have d2 : ((msq (plus (p 0) (backward (p 3))) - c.mass .u ^ 2 : ℝ) : ℂ) = (uhuh.N c p).c 2 := by rw [c2]
  have n2 : (uhuh.N c p).c 2 ≠ 0 := by rw [← d2]; exact_mod_cast f2 .u rfl rfl
  have m0 : uhuh.react.mass c 0 ≠ 0 := (leg_pos hc hh (by decide)).ne'
  have m2 : uhuh.react.mass c 2 ≠ 0 := (leg_pos hc hh (by decide)).ne'
  have hd : uhuh.proc.divides = [(Ty.c, 0), (Ty.c, 1), (Ty.c, 2)] := by decide +kernel
  refine ⟨fun n hn => ?_, fun n hn => ?_, ?_⟩
  · simp [hd] at hn
  · simp [hd] at hn
    rcases hn with rfl | rfl | rfl
    · exact n0
    · exact n1
    · exact n2
  have st : ∀ {z0 z2 : Pair} (b0 : Bold (p 0) (uhuh.react.mass c 0) z0) (b2 : Bold (p 2) (uhuh.react.mass c 2) z2), uhuh.form (uhuh.N c p) p z0 z2 = (-1) * uhuh.react.bare c p 2 0 1 3 z2 z0 (uhuh.react.codeVec c p 1 0) (uhuh.react.codeVec c p 3 0) := by
    intro z0 z2 b0 b2
    rw [neg_one_mul]
    exact uhuh.key hc hb r1 r6 r7 d0 n0 d1 n1 d2 n2 b0 b2 (uhuh.react.codeVec c p 1 0) (uhuh.react.codeVec c p 3 0)
  have am : ∀ (s0 : Fin 2) (s2 : Fin 2), Cls.uhuh.m_amp.mean (uhuh.N c p) (callMean (uhuh.N c p) []) .c [spinOf s0, spinOf s2] = (-1) * uhuh.react.bare c p 2 0 1 3 (uhuh.react.codePair c p 2 s2) (uhuh.react.codePair c p 0 s0) (uhuh.react.codeVec c p 1 0) (uhuh.react.codeVec c p 3 0) := by
    intro s0 s2
    rw [uhuh.amp_eq, ← st (uhuh.react.codePair_bold hs h0 0 s0) (uhuh.react.codePair_bold hs h0 2 s2)]
    have v0z0z2 : (uhuh.N c p).v 0 [spinOf s0, spinOf s2] = sb (uhuh.react.codePair c p 0 s0).2 (uhuh.react.codePair c p 2 s2).2 := bra_square (p := p) (m := uhuh.proc.massNum (uhuh.rho c)) (uhuh.mass_eq hc 0) (uhuh.mass_eq hc 2) (.inl ⟨m0, rfl⟩) (.inl ⟨m2, rfl⟩)
    have v1z0z2 : (uhuh.N c p).v 1 [spinOf s0, spinOf s2] = ab (uhuh.react.codePair c p 0 s0).1 (uhuh.react.codePair c p 2 s2).1 := bra_angle (p := p) (m := uhuh.proc.massNum (uhuh.rho c)) (uhuh.mass_eq hc 0) (uhuh.mass_eq hc 2) (.inl ⟨m0, rfl⟩) (.inl ⟨m2, rfl⟩)
    have v2z0z2 : (uhuh.N c p).v 2 [spinOf s0, spinOf s2] = mb (uhuh.react.codePair c p 0 s0).2 (p 1) (uhuh.react.codePair c p 2 s2).1 := bra_mid_square (p := p) (m := uhuh.proc.massNum (uhuh.rho c)) (uhuh.mass_eq hc 0) (uhuh.mass_eq hc 2) (.inl ⟨m0, rfl⟩) (.inl ⟨m2, rfl⟩)
    have v3z2z0 : (uhuh.N c p).v 3 [spinOf s2, spinOf s0] = mb (uhuh.react.codePair c p 2 s2).2 (p 1) (uhuh.react.codePair c p 0 s0).1 := bra_mid_square (p := p) (m := uhuh.proc.massNum (uhuh.rho c)) (uhuh.mass_eq hc 2) (uhuh.mass_eq hc 0) (.inl ⟨m2, rfl⟩) (.inl ⟨m0, rfl⟩)
    simp only [uhuh.term, uhuh.form, v0z0z2, v1z0z2, v2z0z2, v3z2z0]
    push_cast
    ring
  show meaning (uhuh.N c p) .r Cls.uhuh.methods Cls.uhuh.amp2 [] = _
  have lc : uhuh.react.lineColours 2 0 = 3 := by decide +kernel
  have s0 : uhuh.react.states 0 = 6 := by decide
  have s1 : uhuh.react.states 1 = 1 := by decide
  have sy : uhuh.react.symmetry = 1 := by decide
  have p0 : uhuh.react.spins 0 = {0, 1} := rfl
  have p1 : uhuh.react.spins 1 = {0} := rfl
  have p2 : uhuh.react.spins 2 = {0, 1} := rfl
  have p3 : uhuh.react.spins 3 = {0} := rfl
  rw [uhuh.value, uhuh.react.squared_line he ht hB (noGluon_of hM) hs h0 (fun _ b _ hb _ => (boson_pos hc hh hb).ne') (uhuh.react.gauge_massive (massive_of hM)) (E := uhuh.react.codeVec c p) (fun n b hl => uhuh.react.codeVec_polarised hs h0 hl (massive_of hM n b hl) (fun _ => (boson_pos hc hh (massive_of hM n b hl)).ne')) hu, sum_colours, lc, s0, s1, sy]
  simp only [sumV_sum, sumJ_sum, am, norm_mul, norm_neg, norm_one, one_mul, p0, p1, p2, p3, Finset.sum_singleton, sum_two, Matrix.cons_val_zero, Matrix.cons_val_one, Matrix.cons_val, two_castSucc]
  try simp only [← Finset.mul_sum]
  push_cast
  first | ring1 | ring_nf

end Spinas.SM.Rows
