import Verif.SM.BosonRows

/-! Fermions, a W and a Higgs boson. Generated by tools/bosons/emit.py: for each class its amplitude as a formula in spinors, and the proof that `amp2` is the squared amplitude of the Feynman rules. -/

set_option linter.unusedSimpArgs false
set_option linter.unusedVariables false
set_option linter.unreachableTactic false
set_option linter.unusedTactic false

namespace Spinas.SM.Rows
open Spec Spec.Reaction Props XR Matrix BRow

/-! ### enWh -/

/-- what the methods of the class see -/
noncomputable abbrev enWh.N [FPEnv] (c : Constants) (p : Nat → V4 ℝ) : Env := enWh.proc.env (enWh.rho c) p
/-- the term that `amp` adds for a choice of spinors (SM/enWh.cpp) -/
noncomputable def enWh.term (N : Env) (w : ℝ) (x : ℂ) (j1 a2 b2 : Int) : ℂ :=
  ((x + (((((w * N.r 7) : ℝ) : ℂ) * (((((((((2 : Nat) : ℝ) * N.r 3) * N.r 3) : ℝ) : ℂ) * N.v 0 [a2]) * N.v 1 [j1, b2]) + ((((N.r 1 : ℝ) : ℂ) * N.v 2 [j1]) * N.v 3 [a2, b2]))) / N.c 0)) + ((((((w * N.r 6) : ℝ) : ℂ) * N.v 0 [a2]) * (((((((2 : Nat) : ℝ) * N.r 1) : ℝ) : ℂ) * N.v 1 [j1, b2]) - N.v 4 [b2, j1])) / N.c 1))
/-- the same with spinors in place of their spins -/
noncomputable def enWh.form (N : Env) (p : Nat → V4 ℝ) (z0 z1 x2 y2 : Pair) : ℂ :=
  ((0 + (((((((1 : Nat) : ℝ) * N.r 7) : ℝ) : ℂ) * (((((((((2 : Nat) : ℝ) * N.r 3) * N.r 3) : ℝ) : ℂ) * (ab z1.1 x2.1)) * (sb z0.2 y2.2)) + ((((N.r 1 : ℝ) : ℂ) * (ab z0.1 z1.1)) * (mb x2.2 (p 3) y2.1)))) / N.c 0)) + ((((((((1 : Nat) : ℝ) * N.r 6) : ℝ) : ℂ) * (ab z1.1 x2.1)) * (((((((2 : Nat) : ℝ) * N.r 1) : ℝ) : ℂ) * (sb z0.2 y2.2)) - (mb y2.2 (p 3) z0.1))) / N.c 1))
theorem enWh.key {c : Constants} {p : Nat → V4 ℝ} {N : Env} (hc : c.Physical) (hb : Balanced p) (r1 : N.r 1 = (c.mass .e)) (r3 : N.r 3 = c.MW) (r6 : N.r 6 = ((c.mass .e) * ((c.e * c.e) / ((((((2 : Nat) : ℝ) * c.MW) * c.MW) * c.SW) * c.SW)))) (r7 : N.r 7 = ((c.e * c.e) / ((((((2 : Nat) : ℝ) * c.MW) * c.MW) * c.SW) * c.SW))) (d0 : pole c.MW c.WW (plus (backward (p 2)) (backward (p 3))) = N.c 0) (n0 : N.c 0 ≠ 0) (d1 : ((msq (plus (p 1) (backward (p 2))) - c.mass .e ^ 2 : ℝ) : ℂ) = N.c 1) (n1 : N.c 1 ≠ 0) {z0 z1 z2 : Pair} (b0 : Bold (p 0) (c.mass .e) z0) (b1 : Bold (p 1) (c.mass .ne) z1) (b2 : Bold (p 2) c.MW z2) (E3 : Vec) :
    enWh.form N p z0 z1 z2 z2 = ((√2 / c.MW : ℝ) : ℂ) * enWh.react.bare c p 0 1 2 3 z0 z1 (pv z2.1 z2.2) E3 := by
  rw [enWh.react.bare_parts c p (i := 0) (j := 1) (a := 2) (b := 3) (x := .wMinus) (y := .higgs) (k := (backward (p 2))) (k' := (backward (p 3))) (fun _ => rfl) (fun _ => rfl) (f := .ne) (g := .e) rfl rfl (l := (p 1)) rfl (e := -1) (e' := 1) (if_pos rfl) (if_neg Bool.false_ne_true)]
  rw [compton_vh (f := .ne) (x := .e) (g := .e) (h := (rfl : Spec.after .wMinus Flavour.ne = some Flavour.e)) (h' := (rfl : Spec.after .higgs Flavour.e = some Flavour.e)) (ha := by simp)]
  rw [compton_hv (f := .ne) (x := .ne) (g := .e) (h := (rfl : Spec.after .higgs Flavour.ne = some Flavour.ne)) (h' := (rfl : Spec.after .wMinus Flavour.ne = some Flavour.e)) (hb := by simp)]
  have an := annihilation_charged c (-1) (1) z0.1 z0.2 z1.1 z1.2 ⟨.wMinus, (backward (p 2)), pv z2.1 z2.2⟩ ⟨.higgs, (backward (p 3)), E3⟩ (f := .ne) (g := .e) (x := .wMinus) (by simp) rfl
  dsimp only at an
  rw [an, enWh.form]
  clear an
  rw [lineV_massive (hx := (rfl : Boson.massive .wMinus = true))]
  simp only [toHiggs, toVector, higgs2, gauge3, Boson.anti, Constants.bosonMass, Constants.bosonWidth, d0, d1, reduceCtorEq, and_self, and_true, and_false, and_true, if_true, if_false, Complex.ofReal_zero, zero_smul, zero_mul, mul_zero, zero_div, neg_zero, add_zero, zero_add, lineH, lineV_zero, contract_zero, lineV_smul, contract_smul, lineV_pv, lineV_four, contract_four_pv, contract_pv, mb_plus, mb_backward]
  simp only [b0.mb_left, b0.mb_right, b1.mb_left, b1.mb_right, b2.mb_left, b2.mb_right, mb_three hb z0.2 z0.1, mb_three hb z0.2 z1.1, mb_three hb z0.2 z2.1, mb_three hb z1.2 z0.1, mb_three hb z1.2 z1.1, mb_three hb z1.2 z2.1, mb_three hb z2.2 z0.1, mb_three hb z2.2 z1.1, mb_three hb z2.2 z2.1, ab_self, sb_self]
  have hne : c.mass .ne = 0 := hc.neutrino _
  simp only [ab_swap z0.1 z1.1, sb_swap z0.2 z1.2, ab_swap z0.1 z2.1, sb_swap z0.2 z2.2, ab_swap z1.1 z2.1, sb_swap z1.2 z2.2, r1, r3, r6, r7, Constants.hL, Constants.hR, Constants.gL, Constants.gR, Constants.yuk, Constants.invVev, Flavour.charge_e, Flavour.isospin_e, Flavour.charge_ne, Flavour.isospin_ne, hne, ← c.mz]
  have xMW : (c.MW : ℂ) ≠ 0 := by exact_mod_cast hc.MW
  have xSW : (c.SW : ℂ) ≠ 0 := by exact_mod_cast hc.SW
  have xCW : (c.CW : ℂ) ≠ 0 := by exact_mod_cast hc.CW
  have x2 : ((√2 : ℝ) : ℂ) ≠ 0 := by exact_mod_cast (Real.sqrt_pos.2 two_pos).ne'
  have x22 : ((√2 : ℝ) : ℂ) ^ 2 = 2 := by rw [← Complex.ofReal_pow, Real.sq_sqrt two_pos.le]; norm_num
  push_cast
  field_simp
  first | ring1 | (ring_nf; simp only [x22]; ring1)
set_option maxRecDepth 8000 in
theorem enWh.amp2_eq (N : Env) (f : Nat → List Int → ℂ) : Cls.enWh.m_amp2.mean N f .r [] =
    ((sumJ (fun x a => (sumV (fun x b => (x + (‖(f 0 [a, b])‖ ^ 2))) x)) ((0 : Nat) : ℝ)) / ((2 : Nat) : ℝ)) := by rfl
set_option maxRecDepth 8000 in
theorem enWh.value (N : Env) : meaning N .r Cls.enWh.methods Cls.enWh.amp2 [] =
    ((sumJ (fun x a => (sumV (fun x b => (x + (‖(Cls.enWh.m_amp.mean N (callMean N []) .c [a, b])‖ ^ 2))) x)) ((0 : Nat) : ℝ)) / ((2 : Nat) : ℝ)) :=
  enWh.amp2_eq N (callMean N [Cls.enWh.m_amp])
set_option maxRecDepth 8000 in
theorem enWh.term_lin (N : Env) (w : ℝ) (x : ℂ) (j1 a2 b2 : Int) : enWh.term N w x j1 a2 b2 = x + (w : ℂ) * enWh.term N 1 0 j1 a2 b2 := by
  simp only [enWh.term]; push_cast; ring
theorem enWh.amp_eq (N : Env) (f : Nat → List Int → ℂ) (j1 : Int) (t2 : Fin 3) : Cls.enWh.m_amp.mean N f .c [j1, spinV t2] = comb t2 (fun a2 b2 => enWh.term N 1 0 j1 (spinOf a2) (spinOf b2)) := by
  refine (amp_mean N f (m := 2) (K := 4) (G := fun i => enWh.term N 1 0 (i 0) (i 2) (i 3)) (fun l => ?_) (fun i i' h => ?_) rfl (by decide) (by decide) (by decide) (by decide) (by decide)).trans ?_
  · refine ⟨_, rfl, ?_⟩; exact ⟨rfl, rfl, enWh.term_lin ..⟩
  · simp only [h 0 (by decide), h 2 (by decide), h 3 (by decide)]
  · show amp' _ [spinV t2] = _
    simp only [amp'_comb, amp'_nil]
    rfl
theorem enWh.form_x2 (N : Env) (p : Nat → V4 ℝ) (z0 z1 y2 x y : Pair) : enWh.form N p z0 z1 (x + y) y2 = enWh.form N p z0 z1 x y2 + enWh.form N p z0 z1 y y2 := by
  simp only [enWh.form, Prod.fst_add, Prod.snd_add, ab_add_left, ab_add_right, sb_add_left, sb_add_right, mb_add_left, mb_add_right]
  ring
theorem enWh.form_y2 (N : Env) (p : Nat → V4 ℝ) (z0 z1 x2 x y : Pair) : enWh.form N p z0 z1 x2 (x + y) = enWh.form N p z0 z1 x2 x + enWh.form N p z0 z1 x2 y := by
  simp only [enWh.form, Prod.fst_add, Prod.snd_add, ab_add_left, ab_add_right, sb_add_left, sb_add_right, mb_add_left, mb_add_right]
  ring
theorem enWh.form_zero1 (N : Env) (p : Nat → V4 ℝ) {z1 : Pair} (z0 x2 y2 : Pair) (h : z1.1 = 0) : enWh.form N p z0 z1 x2 y2 = 0 := by
  simp [enWh.form, h, ab_zero, sb_zero, mb_zero]

theorem enWh.mass_eq {c : Constants} (hc : c.Physical) (i : Fin 4) : enWh.proc.massNum (enWh.rho c) i = enWh.react.mass c i := by
  fin_cases i <;> first | rfl | exact Nat.cast_zero.trans (hc.neutrino _).symm | (show c.MW / √(((1 : Nat) : ℝ) - c.SW * c.SW) = c.MZ; rw [c.root, c.mz])

variable [FPEnv] in
theorem enWh.agrees : enWh.Agrees := by
  refine agrees_of (D := [3, 5]) (E := [5]) (by simp [all, enWh]) (by decide +kernel) (by decide) (by decide +kernel) (fun c hc hh => ⟨List.forall_mem_cons.2 ⟨hc.MW, List.forall_mem_cons.2 ⟨hc.SW, List.forall_mem_nil _⟩⟩, List.forall_mem_cons.2 ⟨hc.SW_lt, List.forall_mem_nil _⟩⟩) (fun c hc i => enWh.mass_eq hc i) (by decide +kernel) ?_
  intro c p u ε hc hh hw h0 hs hb hr hu
  have he : enWh.react.ends = [0] := by decide
  have ht : enWh.react.starts = [1] := by decide
  have hB : enWh.react.bosons = [2, 3] := by decide
  have hM : enWh.react.allMassive = true := by decide
  obtain ⟨f1, f2, f3⟩ := enWh.react.regular_line he ht hB hr
  have r1 : (enWh.N c p).r 1 = (c.mass .e) := rfl
  have r3 : (enWh.N c p).r 3 = c.MW := rfl
  have r6 : (enWh.N c p).r 6 = ((c.mass .e) * ((c.e * c.e) / ((((((2 : Nat) : ℝ) * c.MW) * c.MW) * c.SW) * c.SW))) := rfl
  have r7 : (enWh.N c p).r 7 = ((c.e * c.e) / ((((((2 : Nat) : ℝ) * c.MW) * c.MW) * c.SW) * c.SW)) := rfl
  have c0 : (enWh.N c p).c 0 = poleDist c.MW c.WW ((VExp.add 0 1).sum p) := rfl
  rw [pole_congr (msq_s hb (plus (backward (p 2)) (backward (p 3))) (by simp)).symm] at c0
  have d0 : pole c.MW c.WW (plus (backward (p 2)) (backward (p 3))) = (enWh.N c p).c 0 := by rw [c0]
  have n0 : (enWh.N c p).c 0 ≠ 0 := by rw [← d0]; exact star_ne_zero.2 (f3 .wMinus rfl rfl)
  have c1 : (enWh.N c p).c 1 = poleDist (c.mass .e) ((0 : Nat) : ℝ) ((VExp.sub 0 3).sum p) := rfl
  rw [Nat.cast_zero, pole_fermion (msq_u hb (plus (p 1) (backward (p 2))) (by simp))] at c1
  have d1 : ((msq (plus (p 1) (backward (p 2))) - c.mass .e ^ 2 : ℝ) : ℂ) = (enWh.N c p).c 1 := by rw [c1]
  have n1 : (enWh.N c p).c 1 ≠ 0 := by rw [← d1]; exact_mod_cast f1 .e rfl rfl
  have m0 : enWh.react.mass c 0 ≠ 0 := (leg_pos hc hh (by decide)).ne'
  have m1 : enWh.react.mass c 1 = 0 := hc.neutrino _
  have m2 : enWh.react.mass c 2 ≠ 0 := (leg_pos hc hh (by decide)).ne'
  have hd : enWh.proc.divides = [(Ty.c, 0), (Ty.c, 1)] := by decide +kernel
  refine ⟨fun n hn => ?_, fun n hn => ?_, ?_⟩
  · simp [hd] at hn
  · simp [hd] at hn
    rcases hn with rfl | rfl
    · exact n0
    · exact n1
  have st : ∀ {z0 z1 : Pair} (b0 : Bold (p 0) (enWh.react.mass c 0) z0) (b1 : Bold (p 1) (enWh.react.mass c 1) z1) (t2 : Fin 3), comb t2 (fun a2 b2 => enWh.form (enWh.N c p) p z0 z1 (enWh.react.codePair c p 2 a2) (enWh.react.codePair c p 2 b2)) = 1 * enWh.react.bare c p 0 1 2 3 z0 z1 (enWh.react.codeVec c p 2 t2) (enWh.react.codeVec c p 3 0) := by
    intro z0 z1 b0 b1 t2
    refine one_vector (p := p 2) (m := enWh.react.mass c 2) (fun s => enWh.react.codePair_bold hs h0 2 s) (B := fun x y => enWh.form (enWh.N c p) p z0 z1 x y) (G := fun E => enWh.react.bare c p 0 1 2 3 z0 z1 E (enWh.react.codeVec c p 3 0)) (fun x y z => ?_) (fun x y z => ?_) (enWh.react.bare_lin₁ c p _ _ _ (by decide)) 1 (fun z2 b2 => ?_) t2
    · exact enWh.form_x2 ..
    · exact enWh.form_y2 ..
    · rw [one_mul]; exact enWh.key hc hb r1 r3 r6 r7 d0 n0 d1 n1 b0 b1 b2 (enWh.react.codeVec c p 3 0)
  have am : ∀ (s0 : Fin 2) (t2 : Fin 3), Cls.enWh.m_amp.mean (enWh.N c p) (callMean (enWh.N c p) []) .c [spinOf s0, spinV t2] = 1 * enWh.react.bare c p 0 1 2 3 (enWh.react.codePair c p 0 s0) (enWh.react.codePair c p 1 0) (enWh.react.codeVec c p 2 t2) (enWh.react.codeVec c p 3 0) := by
    intro s0 t2
    rw [enWh.amp_eq, ← st (enWh.react.codePair_bold hs h0 0 s0) (enWh.react.codePair_bold hs h0 1 0) t2]
    refine congrArg (comb t2) (funext fun a2 => funext fun b2 => ?_)
    have v0z1x2 : (enWh.N c p).v 0 [spinOf a2] = ab (enWh.react.codePair c p 1 0).1 (enWh.react.codePair c p 2 a2).1 := bra_angle (p := p) (m := enWh.proc.massNum (enWh.rho c)) (enWh.mass_eq hc 1) (enWh.mass_eq hc 2) (.inr ⟨m1, rfl⟩) (.inl ⟨m2, rfl⟩)
    have v1z0y2 : (enWh.N c p).v 1 [spinOf s0, spinOf b2] = sb (enWh.react.codePair c p 0 s0).2 (enWh.react.codePair c p 2 b2).2 := bra_square (p := p) (m := enWh.proc.massNum (enWh.rho c)) (enWh.mass_eq hc 0) (enWh.mass_eq hc 2) (.inl ⟨m0, rfl⟩) (.inl ⟨m2, rfl⟩)
    have v2z0z1 : (enWh.N c p).v 2 [spinOf s0] = ab (enWh.react.codePair c p 0 s0).1 (enWh.react.codePair c p 1 0).1 := bra_angle (p := p) (m := enWh.proc.massNum (enWh.rho c)) (enWh.mass_eq hc 0) (enWh.mass_eq hc 1) (.inl ⟨m0, rfl⟩) (.inr ⟨m1, rfl⟩)
    have v3x2y2 : (enWh.N c p).v 3 [spinOf a2, spinOf b2] = mb (enWh.react.codePair c p 2 a2).2 (p 3) (enWh.react.codePair c p 2 b2).1 := bra_mid_square (p := p) (m := enWh.proc.massNum (enWh.rho c)) (enWh.mass_eq hc 2) (enWh.mass_eq hc 2) (.inl ⟨m2, rfl⟩) (.inl ⟨m2, rfl⟩)
    have v4y2z0 : (enWh.N c p).v 4 [spinOf b2, spinOf s0] = mb (enWh.react.codePair c p 2 b2).2 (p 3) (enWh.react.codePair c p 0 s0).1 := bra_mid_square (p := p) (m := enWh.proc.massNum (enWh.rho c)) (enWh.mass_eq hc 2) (enWh.mass_eq hc 0) (.inl ⟨m2, rfl⟩) (.inl ⟨m0, rfl⟩)
    simp only [enWh.term, enWh.form, v0z1x2, v1z0y2, v2z0z1, v3x2y2, v4y2z0]
    push_cast
    ring
  have w1 : ∀ (s : Fin 2) (t2 : Fin 3), enWh.react.bare c p 0 1 2 3 (enWh.react.codePair c p 0 s) (enWh.react.codePair c p 1 1) (enWh.react.codeVec c p 2 t2) (enWh.react.codeVec c p 3 0) = 0 := by
    intro s t2
    have e := st (enWh.react.codePair_bold hs h0 0 s) (enWh.react.codePair_bold hs h0 1 1) t2
    rw [show comb t2 (fun a2 b2 => enWh.form (enWh.N c p) p (enWh.react.codePair c p 0 s) (enWh.react.codePair c p 1 1) (enWh.react.codePair c p 2 a2) (enWh.react.codePair c p 2 b2)) = 0 by
      simp only [enWh.form_zero1 _ _ _ _ _ (show ((enWh.react.codePair c p 1 1)).1 = 0 from legA_zero m1 rfl)]; exact comb_zero ..] at e
    exact (one_mul _).symm.trans e.symm
  show meaning (enWh.N c p) .r Cls.enWh.methods Cls.enWh.amp2 [] = _
  have lc : enWh.react.lineColours 0 1 = 1 := by decide +kernel
  have s0 : enWh.react.states 0 = 2 := by decide
  have s1 : enWh.react.states 1 = 1 := by decide
  have sy : enWh.react.symmetry = 1 := by decide
  have p0 : enWh.react.spins 0 = {0, 1} := rfl
  have p1 : enWh.react.spins 1 = {0, 1} := rfl
  have p2 : enWh.react.spins 2 = Finset.univ := rfl
  have p3 : enWh.react.spins 3 = {0} := rfl
  rw [enWh.value, enWh.react.squared_line he ht hB (noGluon_of hM) hs h0 (fun _ b _ hb _ => (boson_pos hc hh hb).ne') (enWh.react.gauge_massive (massive_of hM)) (E := enWh.react.codeVec c p) (fun n b hl => enWh.react.codeVec_polarised hs h0 hl (massive_of hM n b hl) (fun _ => (boson_pos hc hh (massive_of hM n b hl)).ne')) hu, sum_colours, lc, s0, s1, sy]
  simp only [sumV_sum, sumJ_sum, am, norm_mul, norm_neg, norm_one, one_mul, p0, p1, p2, p3, Finset.sum_singleton, sum_two, Matrix.cons_val_zero, Matrix.cons_val_one, Matrix.cons_val, two_castSucc]
  simp only [Fin.sum_univ_two, w1, norm_zero]
  try simp only [← Finset.mul_sum]
  push_cast
  first | ring1 | ring_nf

/-! ### udWh -/

/-- what the methods of the class see -/
noncomputable abbrev udWh.N [FPEnv] (c : Constants) (p : Nat → V4 ℝ) : Env := udWh.proc.env (udWh.rho c) p
/-- the term that `amp` adds for a choice of spinors (SM/udWh.cpp) -/
noncomputable def udWh.term (N : Env) (w : ℝ) (x : ℂ) (j1 j2 a2 b2 : Int) : ℂ :=
  (((x + (((((w * N.r 9) : ℝ) : ℂ) * (((((((((2 : Nat) : ℝ) * N.r 4) * N.r 4) : ℝ) : ℂ) * N.v 0 [j1, a2]) * N.v 1 [j2, b2]) - (((((N.r 2 : ℝ) : ℂ) * N.v 2 [j1, j2]) - (((N.r 1 : ℝ) : ℂ) * N.v 3 [j1, j2])) * N.v 4 [a2, b2]))) / N.c 0)) + ((((((w * N.r 8) : ℝ) : ℂ) * N.v 0 [j1, a2]) * (((((((2 : Nat) : ℝ) * N.r 2) : ℝ) : ℂ) * N.v 1 [j2, b2]) - N.v 5 [b2, j2])) / N.c 2)) + ((((((w * N.r 7) : ℝ) : ℂ) * N.v 1 [j2, a2]) * (((((((2 : Nat) : ℝ) * N.r 1) : ℝ) : ℂ) * N.v 0 [j1, b2]) - N.v 6 [j1, b2])) / N.c 1))
/-- the same with spinors in place of their spins -/
noncomputable def udWh.form (N : Env) (p : Nat → V4 ℝ) (z0 z1 x2 y2 : Pair) : ℂ :=
  (((0 + (((((((1 : Nat) : ℝ) * N.r 9) : ℝ) : ℂ) * (((((((((2 : Nat) : ℝ) * N.r 4) * N.r 4) : ℝ) : ℂ) * (ab z0.1 x2.1)) * (sb z1.2 y2.2)) - (((((N.r 2 : ℝ) : ℂ) * (ab z0.1 z1.1)) - (((N.r 1 : ℝ) : ℂ) * (sb z0.2 z1.2))) * (mb x2.2 (p 3) y2.1)))) / N.c 0)) + ((((((((1 : Nat) : ℝ) * N.r 8) : ℝ) : ℂ) * (ab z0.1 x2.1)) * (((((((2 : Nat) : ℝ) * N.r 2) : ℝ) : ℂ) * (sb z1.2 y2.2)) - (mb y2.2 (p 3) z1.1))) / N.c 2)) + ((((((((1 : Nat) : ℝ) * N.r 7) : ℝ) : ℂ) * (sb z1.2 x2.2)) * (((((((2 : Nat) : ℝ) * N.r 1) : ℝ) : ℂ) * (ab z0.1 y2.1)) - (mb z0.2 (p 3) y2.1))) / N.c 1))
theorem udWh.key {c : Constants} {p : Nat → V4 ℝ} {N : Env} (hc : c.Physical) (hb : Balanced p) (r1 : N.r 1 = (c.mass .u)) (r2 : N.r 2 = (c.mass .d)) (r4 : N.r 4 = c.MW) (r7 : N.r 7 = ((c.mass .u) * ((c.e * c.e) / ((((((2 : Nat) : ℝ) * c.MW) * c.MW) * c.SW) * c.SW)))) (r8 : N.r 8 = ((c.mass .d) * ((c.e * c.e) / ((((((2 : Nat) : ℝ) * c.MW) * c.MW) * c.SW) * c.SW)))) (r9 : N.r 9 = ((c.e * c.e) / ((((((2 : Nat) : ℝ) * c.MW) * c.MW) * c.SW) * c.SW))) (d0 : pole c.MW c.WW (plus (backward (p 2)) (backward (p 3))) = N.c 0) (n0 : N.c 0 ≠ 0) (d1 : ((msq (plus (p 0) (backward (p 3))) - c.mass .u ^ 2 : ℝ) : ℂ) = N.c 1) (n1 : N.c 1 ≠ 0) (d2 : ((msq (plus (p 0) (backward (p 2))) - c.mass .d ^ 2 : ℝ) : ℂ) = N.c 2) (n2 : N.c 2 ≠ 0) {z0 z1 z2 : Pair} (b0 : Bold (p 0) (c.mass .u) z0) (b1 : Bold (p 1) (c.mass .d) z1) (b2 : Bold (p 2) c.MW z2) (E3 : Vec) :
    udWh.form N p z0 z1 z2 z2 = ((√2 / c.MW : ℝ) : ℂ) * udWh.react.bare c p 1 0 2 3 z1 z0 (pv z2.1 z2.2) E3 := by
  rw [udWh.react.bare_parts c p (i := 1) (j := 0) (a := 2) (b := 3) (x := .wMinus) (y := .higgs) (k := (backward (p 2))) (k' := (backward (p 3))) (fun _ => rfl) (fun _ => rfl) (f := .u) (g := .d) rfl rfl (l := (p 0)) rfl (e := -1) (e' := 1) (if_pos rfl) (if_neg Bool.false_ne_true)]
  rw [compton_vh (f := .u) (x := .d) (g := .d) (h := (rfl : Spec.after .wMinus Flavour.u = some Flavour.d)) (h' := (rfl : Spec.after .higgs Flavour.d = some Flavour.d)) (ha := by simp)]
  rw [compton_hv (f := .u) (x := .u) (g := .d) (h := (rfl : Spec.after .higgs Flavour.u = some Flavour.u)) (h' := (rfl : Spec.after .wMinus Flavour.u = some Flavour.d)) (hb := by simp)]
  have an := annihilation_charged c (-1) (1) z1.1 z1.2 z0.1 z0.2 ⟨.wMinus, (backward (p 2)), pv z2.1 z2.2⟩ ⟨.higgs, (backward (p 3)), E3⟩ (f := .u) (g := .d) (x := .wMinus) (by simp) rfl
  dsimp only at an
  rw [an, udWh.form]
  clear an
  rw [lineV_massive (hx := (rfl : Boson.massive .wMinus = true))]
  simp only [toHiggs, toVector, higgs2, gauge3, Boson.anti, Constants.bosonMass, Constants.bosonWidth, d0, d1, d2, reduceCtorEq, and_self, and_true, and_false, and_true, if_true, if_false, Complex.ofReal_zero, zero_smul, zero_mul, mul_zero, zero_div, neg_zero, add_zero, zero_add, lineH, lineV_zero, contract_zero, lineV_smul, contract_smul, lineV_pv, lineV_four, contract_four_pv, contract_pv, mb_plus, mb_backward]
  simp only [b0.mb_left, b0.mb_right, b1.mb_left, b1.mb_right, b2.mb_left, b2.mb_right, mb_three hb z0.2 z0.1, mb_three hb z0.2 z1.1, mb_three hb z0.2 z2.1, mb_three hb z1.2 z0.1, mb_three hb z1.2 z1.1, mb_three hb z1.2 z2.1, mb_three hb z2.2 z0.1, mb_three hb z2.2 z1.1, mb_three hb z2.2 z2.1, ab_self, sb_self]
  simp only [ab_swap z0.1 z1.1, sb_swap z0.2 z1.2, ab_swap z0.1 z2.1, sb_swap z0.2 z2.2, ab_swap z1.1 z2.1, sb_swap z1.2 z2.2, r1, r2, r4, r7, r8, r9, Constants.hL, Constants.hR, Constants.gL, Constants.gR, Constants.yuk, Constants.invVev, Flavour.charge_d, Flavour.isospin_d, Flavour.charge_u, Flavour.isospin_u, ← c.mz]
  have xMW : (c.MW : ℂ) ≠ 0 := by exact_mod_cast hc.MW
  have xSW : (c.SW : ℂ) ≠ 0 := by exact_mod_cast hc.SW
  have xCW : (c.CW : ℂ) ≠ 0 := by exact_mod_cast hc.CW
  have x2 : ((√2 : ℝ) : ℂ) ≠ 0 := by exact_mod_cast (Real.sqrt_pos.2 two_pos).ne'
  have x22 : ((√2 : ℝ) : ℂ) ^ 2 = 2 := by rw [← Complex.ofReal_pow, Real.sq_sqrt two_pos.le]; norm_num
  push_cast
  field_simp
  first | ring1 | (ring_nf; simp only [x22]; ring1)
set_option maxRecDepth 8000 in
theorem udWh.amp2_eq (N : Env) (f : Nat → List Int → ℂ) : Cls.udWh.m_amp2.mean N f .r [] =
    ((sumJ (fun x a => (sumJ (fun x b => (sumV (fun x c => (x + (((3 : Nat) : ℝ) * (‖(f 0 [a, b, c])‖ ^ 2)))) x)) x)) ((0 : Nat) : ℝ)) / ((36 : Nat) : ℝ)) := by rfl
set_option maxRecDepth 8000 in
theorem udWh.value (N : Env) : meaning N .r Cls.udWh.methods Cls.udWh.amp2 [] =
    ((sumJ (fun x a => (sumJ (fun x b => (sumV (fun x c => (x + (((3 : Nat) : ℝ) * (‖(Cls.udWh.m_amp.mean N (callMean N []) .c [a, b, c])‖ ^ 2)))) x)) x)) ((0 : Nat) : ℝ)) / ((36 : Nat) : ℝ)) :=
  udWh.amp2_eq N (callMean N [Cls.udWh.m_amp])
set_option maxRecDepth 8000 in
theorem udWh.term_lin (N : Env) (w : ℝ) (x : ℂ) (j1 j2 a2 b2 : Int) : udWh.term N w x j1 j2 a2 b2 = x + (w : ℂ) * udWh.term N 1 0 j1 j2 a2 b2 := by
  simp only [udWh.term]; push_cast; ring
theorem udWh.amp_eq (N : Env) (f : Nat → List Int → ℂ) (j1 j2 : Int) (t2 : Fin 3) : Cls.udWh.m_amp.mean N f .c [j1, j2, spinV t2] = comb t2 (fun a2 b2 => udWh.term N 1 0 j1 j2 (spinOf a2) (spinOf b2)) := by
  refine (amp_mean N f (m := 3) (K := 5) (G := fun i => udWh.term N 1 0 (i 0) (i 1) (i 3) (i 4)) (fun l => ?_) (fun i i' h => ?_) rfl (by decide) (by decide) (by decide) (by decide) (by decide)).trans ?_
  · refine ⟨_, rfl, ?_⟩; exact ⟨rfl, rfl, udWh.term_lin ..⟩
  · simp only [h 0 (by decide), h 1 (by decide), h 3 (by decide), h 4 (by decide)]
  · show amp' _ [spinV t2] = _
    simp only [amp'_comb, amp'_nil]
    rfl
theorem udWh.form_x2 (N : Env) (p : Nat → V4 ℝ) (z0 z1 y2 x y : Pair) : udWh.form N p z0 z1 (x + y) y2 = udWh.form N p z0 z1 x y2 + udWh.form N p z0 z1 y y2 := by
  simp only [udWh.form, Prod.fst_add, Prod.snd_add, ab_add_left, ab_add_right, sb_add_left, sb_add_right, mb_add_left, mb_add_right]
  ring
theorem udWh.form_y2 (N : Env) (p : Nat → V4 ℝ) (z0 z1 x2 x y : Pair) : udWh.form N p z0 z1 x2 (x + y) = udWh.form N p z0 z1 x2 x + udWh.form N p z0 z1 x2 y := by
  simp only [udWh.form, Prod.fst_add, Prod.snd_add, ab_add_left, ab_add_right, sb_add_left, sb_add_right, mb_add_left, mb_add_right]
  ring

theorem udWh.mass_eq {c : Constants} (hc : c.Physical) (i : Fin 4) : udWh.proc.massNum (udWh.rho c) i = udWh.react.mass c i := by
  fin_cases i <;> first | rfl | exact Nat.cast_zero.trans (hc.neutrino _).symm | (show c.MW / √(((1 : Nat) : ℝ) - c.SW * c.SW) = c.MZ; rw [c.root, c.mz])

variable [FPEnv] in
theorem udWh.agrees : udWh.Agrees := by
  refine agrees_of (D := [4, 6]) (E := [6]) (by simp [all, udWh]) (by decide +kernel) (by decide) (by decide +kernel) (fun c hc hh => ⟨List.forall_mem_cons.2 ⟨hc.MW, List.forall_mem_cons.2 ⟨hc.SW, List.forall_mem_nil _⟩⟩, List.forall_mem_cons.2 ⟨hc.SW_lt, List.forall_mem_nil _⟩⟩) (fun c hc i => udWh.mass_eq hc i) (by decide +kernel) ?_
  intro c p u ε hc hh hw h0 hs hb hr hu
  have he : udWh.react.ends = [1] := by decide
  have ht : udWh.react.starts = [0] := by decide
  have hB : udWh.react.bosons = [2, 3] := by decide
  have hM : udWh.react.allMassive = true := by decide
  obtain ⟨f1, f2, f3⟩ := udWh.react.regular_line he ht hB hr
  have r1 : (udWh.N c p).r 1 = (c.mass .u) := rfl
  have r2 : (udWh.N c p).r 2 = (c.mass .d) := rfl
  have r4 : (udWh.N c p).r 4 = c.MW := rfl
  have r7 : (udWh.N c p).r 7 = ((c.mass .u) * ((c.e * c.e) / ((((((2 : Nat) : ℝ) * c.MW) * c.MW) * c.SW) * c.SW))) := rfl
  have r8 : (udWh.N c p).r 8 = ((c.mass .d) * ((c.e * c.e) / ((((((2 : Nat) : ℝ) * c.MW) * c.MW) * c.SW) * c.SW))) := rfl
  have r9 : (udWh.N c p).r 9 = ((c.e * c.e) / ((((((2 : Nat) : ℝ) * c.MW) * c.MW) * c.SW) * c.SW)) := rfl
  have c0 : (udWh.N c p).c 0 = poleDist c.MW c.WW ((VExp.add 0 1).sum p) := rfl
  rw [pole_congr (msq_s hb (plus (backward (p 2)) (backward (p 3))) (by simp)).symm] at c0
  have d0 : pole c.MW c.WW (plus (backward (p 2)) (backward (p 3))) = (udWh.N c p).c 0 := by rw [c0]
  have n0 : (udWh.N c p).c 0 ≠ 0 := by rw [← d0]; exact star_ne_zero.2 (f3 .wMinus rfl rfl)
  have c1 : (udWh.N c p).c 1 = poleDist (c.mass .u) ((0 : Nat) : ℝ) ((VExp.sub 0 3).sum p) := rfl
  rw [Nat.cast_zero, pole_fermion (msq_u hb (plus (p 0) (backward (p 3))) (by simp))] at c1
  have d1 : ((msq (plus (p 0) (backward (p 3))) - c.mass .u ^ 2 : ℝ) : ℂ) = (udWh.N c p).c 1 := by rw [c1]
  have n1 : (udWh.N c p).c 1 ≠ 0 := by rw [← d1]; exact_mod_cast f2 .u rfl rfl
  have c2 : (udWh.N c p).c 2 = poleDist (c.mass .d) ((0 : Nat) : ℝ) ((VExp.sub 0 2).sum p) := rfl
  rw [Nat.cast_zero, pole_fermion (msq_t hb (plus (p 0) (backward (p 2))) (by simp))] at c2
  have d2 : ((msq (plus (p 0) (backward (p 2))) - c.mass .d ^ 2 : ℝ) : ℂ) = (udWh.N c p).c 2 := by rw [c2]
  have n2 : (udWh.N c p).c 2 ≠ 0 := by rw [← d2]; exact_mod_cast f1 .d rfl rfl
  have m0 : udWh.react.mass c 0 ≠ 0 := (leg_pos hc hh (by decide)).ne'
  have m1 : udWh.react.mass c 1 ≠ 0 := (leg_pos hc hh (by decide)).ne'
  have m2 : udWh.react.mass c 2 ≠ 0 := (leg_pos hc hh (by decide)).ne'
  have hd : udWh.proc.divides = [(Ty.c, 0), (Ty.c, 2), (Ty.c, 1)] := by decide +kernel
  refine ⟨fun n hn => ?_, fun n hn => ?_, ?_⟩
  · simp [hd] at hn
  · simp [hd] at hn
    rcases hn with rfl | rfl | rfl
    · exact n0
    · exact n2
    · exact n1
  have st : ∀ {z0 z1 : Pair} (b0 : Bold (p 0) (udWh.react.mass c 0) z0) (b1 : Bold (p 1) (udWh.react.mass c 1) z1) (t2 : Fin 3), comb t2 (fun a2 b2 => udWh.form (udWh.N c p) p z0 z1 (udWh.react.codePair c p 2 a2) (udWh.react.codePair c p 2 b2)) = 1 * udWh.react.bare c p 1 0 2 3 z1 z0 (udWh.react.codeVec c p 2 t2) (udWh.react.codeVec c p 3 0) := by
    intro z0 z1 b0 b1 t2
    refine one_vector (p := p 2) (m := udWh.react.mass c 2) (fun s => udWh.react.codePair_bold hs h0 2 s) (B := fun x y => udWh.form (udWh.N c p) p z0 z1 x y) (G := fun E => udWh.react.bare c p 1 0 2 3 z1 z0 E (udWh.react.codeVec c p 3 0)) (fun x y z => ?_) (fun x y z => ?_) (udWh.react.bare_lin₁ c p _ _ _ (by decide)) 1 (fun z2 b2 => ?_) t2
    · exact udWh.form_x2 ..
    · exact udWh.form_y2 ..
    · rw [one_mul]; exact udWh.key hc hb r1 r2 r4 r7 r8 r9 d0 n0 d1 n1 d2 n2 b0 b1 b2 (udWh.react.codeVec c p 3 0)
  have am : ∀ (s0 : Fin 2) (s1 : Fin 2) (t2 : Fin 3), Cls.udWh.m_amp.mean (udWh.N c p) (callMean (udWh.N c p) []) .c [spinOf s0, spinOf s1, spinV t2] = 1 * udWh.react.bare c p 1 0 2 3 (udWh.react.codePair c p 1 s1) (udWh.react.codePair c p 0 s0) (udWh.react.codeVec c p 2 t2) (udWh.react.codeVec c p 3 0) := by
    intro s0 s1 t2
    rw [udWh.amp_eq, ← st (udWh.react.codePair_bold hs h0 0 s0) (udWh.react.codePair_bold hs h0 1 s1) t2]
    refine congrArg (comb t2) (funext fun a2 => funext fun b2 => ?_)
    have v0z0x2 : (udWh.N c p).v 0 [spinOf s0, spinOf a2] = ab (udWh.react.codePair c p 0 s0).1 (udWh.react.codePair c p 2 a2).1 := bra_angle (p := p) (m := udWh.proc.massNum (udWh.rho c)) (udWh.mass_eq hc 0) (udWh.mass_eq hc 2) (.inl ⟨m0, rfl⟩) (.inl ⟨m2, rfl⟩)
    have v1z1y2 : (udWh.N c p).v 1 [spinOf s1, spinOf b2] = sb (udWh.react.codePair c p 1 s1).2 (udWh.react.codePair c p 2 b2).2 := bra_square (p := p) (m := udWh.proc.massNum (udWh.rho c)) (udWh.mass_eq hc 1) (udWh.mass_eq hc 2) (.inl ⟨m1, rfl⟩) (.inl ⟨m2, rfl⟩)
    have v2z0z1 : (udWh.N c p).v 2 [spinOf s0, spinOf s1] = ab (udWh.react.codePair c p 0 s0).1 (udWh.react.codePair c p 1 s1).1 := bra_angle (p := p) (m := udWh.proc.massNum (udWh.rho c)) (udWh.mass_eq hc 0) (udWh.mass_eq hc 1) (.inl ⟨m0, rfl⟩) (.inl ⟨m1, rfl⟩)
    have v3z0z1 : (udWh.N c p).v 3 [spinOf s0, spinOf s1] = sb (udWh.react.codePair c p 0 s0).2 (udWh.react.codePair c p 1 s1).2 := bra_square (p := p) (m := udWh.proc.massNum (udWh.rho c)) (udWh.mass_eq hc 0) (udWh.mass_eq hc 1) (.inl ⟨m0, rfl⟩) (.inl ⟨m1, rfl⟩)
    have v4x2y2 : (udWh.N c p).v 4 [spinOf a2, spinOf b2] = mb (udWh.react.codePair c p 2 a2).2 (p 3) (udWh.react.codePair c p 2 b2).1 := bra_mid_square (p := p) (m := udWh.proc.massNum (udWh.rho c)) (udWh.mass_eq hc 2) (udWh.mass_eq hc 2) (.inl ⟨m2, rfl⟩) (.inl ⟨m2, rfl⟩)
    have v5y2z1 : (udWh.N c p).v 5 [spinOf b2, spinOf s1] = mb (udWh.react.codePair c p 2 b2).2 (p 3) (udWh.react.codePair c p 1 s1).1 := bra_mid_square (p := p) (m := udWh.proc.massNum (udWh.rho c)) (udWh.mass_eq hc 2) (udWh.mass_eq hc 1) (.inl ⟨m2, rfl⟩) (.inl ⟨m1, rfl⟩)
    have v1z1x2 : (udWh.N c p).v 1 [spinOf s1, spinOf a2] = sb (udWh.react.codePair c p 1 s1).2 (udWh.react.codePair c p 2 a2).2 := bra_square (p := p) (m := udWh.proc.massNum (udWh.rho c)) (udWh.mass_eq hc 1) (udWh.mass_eq hc 2) (.inl ⟨m1, rfl⟩) (.inl ⟨m2, rfl⟩)
    have v0z0y2 : (udWh.N c p).v 0 [spinOf s0, spinOf b2] = ab (udWh.react.codePair c p 0 s0).1 (udWh.react.codePair c p 2 b2).1 := bra_angle (p := p) (m := udWh.proc.massNum (udWh.rho c)) (udWh.mass_eq hc 0) (udWh.mass_eq hc 2) (.inl ⟨m0, rfl⟩) (.inl ⟨m2, rfl⟩)
    have v6z0y2 : (udWh.N c p).v 6 [spinOf s0, spinOf b2] = mb (udWh.react.codePair c p 0 s0).2 (p 3) (udWh.react.codePair c p 2 b2).1 := bra_mid_square (p := p) (m := udWh.proc.massNum (udWh.rho c)) (udWh.mass_eq hc 0) (udWh.mass_eq hc 2) (.inl ⟨m0, rfl⟩) (.inl ⟨m2, rfl⟩)
    simp only [udWh.term, udWh.form, v0z0x2, v1z1y2, v2z0z1, v3z0z1, v4x2y2, v5y2z1, v1z1x2, v0z0y2, v6z0y2]
    push_cast
    ring
  show meaning (udWh.N c p) .r Cls.udWh.methods Cls.udWh.amp2 [] = _
  have lc : udWh.react.lineColours 1 0 = 3 := by decide +kernel
  have s0 : udWh.react.states 0 = 6 := by decide
  have s1 : udWh.react.states 1 = 6 := by decide
  have sy : udWh.react.symmetry = 1 := by decide
  have p0 : udWh.react.spins 0 = {0, 1} := rfl
  have p1 : udWh.react.spins 1 = {0, 1} := rfl
  have p2 : udWh.react.spins 2 = Finset.univ := rfl
  have p3 : udWh.react.spins 3 = {0} := rfl
  rw [udWh.value, udWh.react.squared_line he ht hB (noGluon_of hM) hs h0 (fun _ b _ hb _ => (boson_pos hc hh hb).ne') (udWh.react.gauge_massive (massive_of hM)) (E := udWh.react.codeVec c p) (fun n b hl => udWh.react.codeVec_polarised hs h0 hl (massive_of hM n b hl) (fun _ => (boson_pos hc hh (massive_of hM n b hl)).ne')) hu, sum_colours, lc, s0, s1, sy]
  simp only [sumV_sum, sumJ_sum, am, norm_mul, norm_neg, norm_one, one_mul, p0, p1, p2, p3, Finset.sum_singleton, sum_two, Matrix.cons_val_zero, Matrix.cons_val_one, Matrix.cons_val, two_castSucc]
  try simp only [← Finset.mul_sum]
  push_cast
  first | ring1 | ring_nf

/-! ### hnWe -/

/-- what the methods of the class see -/
noncomputable abbrev hnWe.N [FPEnv] (c : Constants) (p : Nat → V4 ℝ) : Env := hnWe.proc.env (hnWe.rho c) p
/-- the term that `amp` adds for a choice of spinors (SM/hnWe.cpp) -/
noncomputable def hnWe.term (N : Env) (w : ℝ) (x : ℂ) (a2 b2 j4 : Int) : ℂ :=
  ((x + (((((w * N.r 7) : ℝ) : ℂ) * (((((((((2 : Nat) : ℝ) * N.r 3) * N.r 3) : ℝ) : ℂ) * N.v 0 [a2]) * N.v 1 [j4, b2]) + ((((N.r 1 : ℝ) : ℂ) * N.v 2 [j4]) * N.v 3 [a2, b2]))) / N.c 0)) + ((((((w * N.r 6) : ℝ) : ℂ) * N.v 0 [a2]) * (((((((2 : Nat) : ℝ) * N.r 1) : ℝ) : ℂ) * N.v 1 [j4, b2]) - N.v 4 [b2, j4])) / N.c 1))
/-- the same with spinors in place of their spins -/
noncomputable def hnWe.form (N : Env) (p : Nat → V4 ℝ) (z1 x2 y2 z3 : Pair) : ℂ :=
  ((0 + (((((((1 : Nat) : ℝ) * N.r 7) : ℝ) : ℂ) * (((((((((2 : Nat) : ℝ) * N.r 3) * N.r 3) : ℝ) : ℂ) * (ab z1.1 x2.1)) * (sb z3.2 y2.2)) + ((((N.r 1 : ℝ) : ℂ) * (ab z3.1 z1.1)) * (mb x2.2 (p 0) y2.1)))) / N.c 0)) + ((((((((1 : Nat) : ℝ) * N.r 6) : ℝ) : ℂ) * (ab z1.1 x2.1)) * (((((((2 : Nat) : ℝ) * N.r 1) : ℝ) : ℂ) * (sb z3.2 y2.2)) - (mb y2.2 (p 0) z3.1))) / N.c 1))
theorem hnWe.key {c : Constants} {p : Nat → V4 ℝ} {N : Env} (hc : c.Physical) (hb : Balanced p) (r1 : N.r 1 = (c.mass .e)) (r3 : N.r 3 = c.MW) (r6 : N.r 6 = ((c.mass .e) * ((c.e * c.e) / ((((((2 : Nat) : ℝ) * c.MW) * c.MW) * c.SW) * c.SW)))) (r7 : N.r 7 = ((c.e * c.e) / ((((((2 : Nat) : ℝ) * c.MW) * c.MW) * c.SW) * c.SW))) (d0 : pole c.MW c.WW (plus (p 0) (backward (p 2))) = N.c 0) (n0 : N.c 0 ≠ 0) (d1 : ((msq (plus (p 1) (backward (p 2))) - c.mass .e ^ 2 : ℝ) : ℂ) = N.c 1) (n1 : N.c 1 ≠ 0) {z1 z2 z3 : Pair} (b1 : Bold (p 1) (c.mass .ne) z1) (b2 : Bold (p 2) c.MW z2) (b3 : Bold (p 3) (c.mass .e) z3) (E0 : Vec) :
    hnWe.form N p z1 z2 z2 z3 = -(((√2 / c.MW : ℝ) : ℂ) * hnWe.react.bare c p 3 1 0 2 z3 z1 E0 (pv z2.1 z2.2)) := by
  rw [hnWe.react.bare_parts c p (i := 3) (j := 1) (a := 0) (b := 2) (x := .higgs) (y := .wMinus) (k := (p 0)) (k' := (backward (p 2))) (fun _ => rfl) (fun _ => rfl) (f := .ne) (g := .e) rfl rfl (l := (p 1)) rfl (e := 1) (e' := 1) (if_neg Bool.false_ne_true) (if_neg Bool.false_ne_true)]
  rw [compton_hv (f := .ne) (x := .ne) (g := .e) (h := (rfl : Spec.after .higgs Flavour.ne = some Flavour.ne)) (h' := (rfl : Spec.after .wMinus Flavour.ne = some Flavour.e)) (hb := by simp)]
  rw [compton_vh (f := .ne) (x := .e) (g := .e) (h := (rfl : Spec.after .wMinus Flavour.ne = some Flavour.e)) (h' := (rfl : Spec.after .higgs Flavour.e = some Flavour.e)) (ha := by simp)]
  have an := annihilation_charged c (1) (1) z3.1 z3.2 z1.1 z1.2 ⟨.higgs, (p 0), E0⟩ ⟨.wMinus, (backward (p 2)), pv z2.1 z2.2⟩ (f := .ne) (g := .e) (x := .wMinus) (by simp) rfl
  dsimp only at an
  rw [an, hnWe.form]
  clear an
  rw [lineV_massive (hx := (rfl : Boson.massive .wMinus = true))]
  simp only [toHiggs, toVector, higgs2, gauge3, Boson.anti, Constants.bosonMass, Constants.bosonWidth, d0, d1, reduceCtorEq, and_self, and_true, and_false, and_true, if_true, if_false, Complex.ofReal_zero, zero_smul, zero_mul, mul_zero, zero_div, neg_zero, add_zero, zero_add, lineH, lineV_zero, contract_zero, lineV_smul, contract_smul, lineV_pv, lineV_four, contract_four_pv, contract_pv, mb_plus, mb_backward]
  simp only [b1.mb_left, b1.mb_right, b2.mb_left, b2.mb_right, b3.mb_left, b3.mb_right, mb_three hb z1.2 z1.1, mb_three hb z1.2 z2.1, mb_two hb z1.2 z3.1, mb_three hb z2.2 z1.1, mb_three hb z2.2 z2.1, mb_one hb z2.2 z3.1, mb_two hb z3.2 z1.1, mb_one hb z3.2 z2.1, mb_two hb z3.2 z3.1, ab_self, sb_self]
  have hne : c.mass .ne = 0 := hc.neutrino _
  simp only [ab_swap z1.1 z2.1, sb_swap z1.2 z2.2, ab_swap z1.1 z3.1, sb_swap z1.2 z3.2, ab_swap z2.1 z3.1, sb_swap z2.2 z3.2, r1, r3, r6, r7, Constants.hL, Constants.hR, Constants.gL, Constants.gR, Constants.yuk, Constants.invVev, Flavour.charge_e, Flavour.isospin_e, Flavour.charge_ne, Flavour.isospin_ne, hne, ← c.mz]
  have xMW : (c.MW : ℂ) ≠ 0 := by exact_mod_cast hc.MW
  have xSW : (c.SW : ℂ) ≠ 0 := by exact_mod_cast hc.SW
  have xCW : (c.CW : ℂ) ≠ 0 := by exact_mod_cast hc.CW
  have x2 : ((√2 : ℝ) : ℂ) ≠ 0 := by exact_mod_cast (Real.sqrt_pos.2 two_pos).ne'
  have x22 : ((√2 : ℝ) : ℂ) ^ 2 = 2 := by rw [← Complex.ofReal_pow, Real.sq_sqrt two_pos.le]; norm_num
  push_cast
  field_simp
  first | ring1 | (ring_nf; simp only [x22]; ring1)
set_option maxRecDepth 8000 in
theorem hnWe.amp2_eq (N : Env) (f : Nat → List Int → ℂ) : Cls.hnWe.m_amp2.mean N f .r [] =
    (sumV (fun x a => (sumJ (fun x b => (x + (‖(f 0 [a, b])‖ ^ 2))) x)) ((0 : Nat) : ℝ)) := by rfl
set_option maxRecDepth 8000 in
theorem hnWe.value (N : Env) : meaning N .r Cls.hnWe.methods Cls.hnWe.amp2 [] =
    (sumV (fun x a => (sumJ (fun x b => (x + (‖(Cls.hnWe.m_amp.mean N (callMean N []) .c [a, b])‖ ^ 2))) x)) ((0 : Nat) : ℝ)) :=
  hnWe.amp2_eq N (callMean N [Cls.hnWe.m_amp])
set_option maxRecDepth 8000 in
theorem hnWe.term_lin (N : Env) (w : ℝ) (x : ℂ) (a2 b2 j4 : Int) : hnWe.term N w x a2 b2 j4 = x + (w : ℂ) * hnWe.term N 1 0 a2 b2 j4 := by
  simp only [hnWe.term]; push_cast; ring
theorem hnWe.amp_eq (N : Env) (f : Nat → List Int → ℂ) (j4 : Int) (t2 : Fin 3) : Cls.hnWe.m_amp.mean N f .c [spinV t2, j4] = comb t2 (fun a2 b2 => hnWe.term N 1 0 (spinOf a2) (spinOf b2) j4) := by
  refine (amp_mean N f (m := 2) (K := 4) (G := fun i => hnWe.term N 1 0 (i 2) (i 3) (i 1)) (fun l => ?_) (fun i i' h => ?_) rfl (by decide) (by decide) (by decide) (by decide) (by decide)).trans ?_
  · refine ⟨_, rfl, ?_⟩; exact ⟨rfl, rfl, hnWe.term_lin ..⟩
  · simp only [h 2 (by decide), h 3 (by decide), h 1 (by decide)]
  · show amp' _ [spinV t2] = _
    simp only [amp'_comb, amp'_nil]
    rfl
theorem hnWe.form_x2 (N : Env) (p : Nat → V4 ℝ) (z1 y2 z3 x y : Pair) : hnWe.form N p z1 (x + y) y2 z3 = hnWe.form N p z1 x y2 z3 + hnWe.form N p z1 y y2 z3 := by
  simp only [hnWe.form, Prod.fst_add, Prod.snd_add, ab_add_left, ab_add_right, sb_add_left, sb_add_right, mb_add_left, mb_add_right]
  ring
theorem hnWe.form_y2 (N : Env) (p : Nat → V4 ℝ) (z1 x2 z3 x y : Pair) : hnWe.form N p z1 x2 (x + y) z3 = hnWe.form N p z1 x2 x z3 + hnWe.form N p z1 x2 y z3 := by
  simp only [hnWe.form, Prod.fst_add, Prod.snd_add, ab_add_left, ab_add_right, sb_add_left, sb_add_right, mb_add_left, mb_add_right]
  ring
theorem hnWe.form_zero1 (N : Env) (p : Nat → V4 ℝ) {z1 : Pair} (x2 y2 z3 : Pair) (h : z1.1 = 0) : hnWe.form N p z1 x2 y2 z3 = 0 := by
  simp [hnWe.form, h, ab_zero, sb_zero, mb_zero]

theorem hnWe.mass_eq {c : Constants} (hc : c.Physical) (i : Fin 4) : hnWe.proc.massNum (hnWe.rho c) i = hnWe.react.mass c i := by
  fin_cases i <;> first | rfl | exact Nat.cast_zero.trans (hc.neutrino _).symm | (show c.MW / √(((1 : Nat) : ℝ) - c.SW * c.SW) = c.MZ; rw [c.root, c.mz])

variable [FPEnv] in
theorem hnWe.agrees : hnWe.Agrees := by
  refine agrees_of (D := [3, 5]) (E := [5]) (by simp [all, hnWe]) (by decide +kernel) (by decide) (by decide +kernel) (fun c hc hh => ⟨List.forall_mem_cons.2 ⟨hc.MW, List.forall_mem_cons.2 ⟨hc.SW, List.forall_mem_nil _⟩⟩, List.forall_mem_cons.2 ⟨hc.SW_lt, List.forall_mem_nil _⟩⟩) (fun c hc i => hnWe.mass_eq hc i) (by decide +kernel) ?_
  intro c p u ε hc hh hw h0 hs hb hr hu
  have he : hnWe.react.ends = [3] := by decide
  have ht : hnWe.react.starts = [1] := by decide
  have hB : hnWe.react.bosons = [0, 2] := by decide
  have hM : hnWe.react.allMassive = true := by decide
  obtain ⟨f1, f2, f3⟩ := hnWe.react.regular_line he ht hB hr
  have r1 : (hnWe.N c p).r 1 = (c.mass .e) := rfl
  have r3 : (hnWe.N c p).r 3 = c.MW := rfl
  have r6 : (hnWe.N c p).r 6 = ((c.mass .e) * ((c.e * c.e) / ((((((2 : Nat) : ℝ) * c.MW) * c.MW) * c.SW) * c.SW))) := rfl
  have r7 : (hnWe.N c p).r 7 = ((c.e * c.e) / ((((((2 : Nat) : ℝ) * c.MW) * c.MW) * c.SW) * c.SW)) := rfl
  have c0 : (hnWe.N c p).c 0 = poleDist c.MW c.WW ((VExp.sub 0 2).sum p) := rfl
  rw [pole_congr (msq_t hb (plus (p 0) (backward (p 2))) (by simp)).symm] at c0
  have d0 : pole c.MW c.WW (plus (p 0) (backward (p 2))) = (hnWe.N c p).c 0 := by rw [c0]
  have n0 : (hnWe.N c p).c 0 ≠ 0 := by rw [← d0]; exact star_ne_zero.2 (f3 .wMinus rfl rfl)
  have c1 : (hnWe.N c p).c 1 = poleDist (c.mass .e) ((0 : Nat) : ℝ) ((VExp.sub 0 3).sum p) := rfl
  rw [Nat.cast_zero, pole_fermion (msq_u hb (plus (p 1) (backward (p 2))) (by simp))] at c1
  have d1 : ((msq (plus (p 1) (backward (p 2))) - c.mass .e ^ 2 : ℝ) : ℂ) = (hnWe.N c p).c 1 := by rw [c1]
  have n1 : (hnWe.N c p).c 1 ≠ 0 := by rw [← d1]; exact_mod_cast f2 .e rfl rfl
  have m1 : hnWe.react.mass c 1 = 0 := hc.neutrino _
  have m2 : hnWe.react.mass c 2 ≠ 0 := (leg_pos hc hh (by decide)).ne'
  have m3 : hnWe.react.mass c 3 ≠ 0 := (leg_pos hc hh (by decide)).ne'
  have hd : hnWe.proc.divides = [(Ty.c, 0), (Ty.c, 1)] := by decide +kernel
  refine ⟨fun n hn => ?_, fun n hn => ?_, ?_⟩
  · simp [hd] at hn
  · simp [hd] at hn
    rcases hn with rfl | rfl
    · exact n0
    · exact n1
  have st : ∀ {z1 z3 : Pair} (b1 : Bold (p 1) (hnWe.react.mass c 1) z1) (b3 : Bold (p 3) (hnWe.react.mass c 3) z3) (t2 : Fin 3), comb t2 (fun a2 b2 => hnWe.form (hnWe.N c p) p z1 (hnWe.react.codePair c p 2 a2) (hnWe.react.codePair c p 2 b2) z3) = (-1) * hnWe.react.bare c p 3 1 0 2 z3 z1 (hnWe.react.codeVec c p 0 0) (hnWe.react.codeVec c p 2 t2) := by
    intro z1 z3 b1 b3 t2
    refine one_vector (p := p 2) (m := hnWe.react.mass c 2) (fun s => hnWe.react.codePair_bold hs h0 2 s) (B := fun x y => hnWe.form (hnWe.N c p) p z1 x y z3) (G := fun E => hnWe.react.bare c p 3 1 0 2 z3 z1 (hnWe.react.codeVec c p 0 0) E) (fun x y z => ?_) (fun x y z => ?_) (hnWe.react.bare_lin₂ c p _ _ _ (by decide)) (-1) (fun z2 b2 => ?_) t2
    · exact hnWe.form_x2 ..
    · exact hnWe.form_y2 ..
    · rw [neg_one_mul]; exact hnWe.key hc hb r1 r3 r6 r7 d0 n0 d1 n1 b1 b2 b3 (hnWe.react.codeVec c p 0 0)
  have am : ∀ (s3 : Fin 2) (t2 : Fin 3), Cls.hnWe.m_amp.mean (hnWe.N c p) (callMean (hnWe.N c p) []) .c [spinV t2, spinOf s3] = (-1) * hnWe.react.bare c p 3 1 0 2 (hnWe.react.codePair c p 3 s3) (hnWe.react.codePair c p 1 0) (hnWe.react.codeVec c p 0 0) (hnWe.react.codeVec c p 2 t2) := by
    intro s3 t2
    rw [hnWe.amp_eq, ← st (hnWe.react.codePair_bold hs h0 1 0) (hnWe.react.codePair_bold hs h0 3 s3) t2]
    refine congrArg (comb t2) (funext fun a2 => funext fun b2 => ?_)
    have v0z1x2 : (hnWe.N c p).v 0 [spinOf a2] = ab (hnWe.react.codePair c p 1 0).1 (hnWe.react.codePair c p 2 a2).1 := bra_angle (p := p) (m := hnWe.proc.massNum (hnWe.rho c)) (hnWe.mass_eq hc 1) (hnWe.mass_eq hc 2) (.inr ⟨m1, rfl⟩) (.inl ⟨m2, rfl⟩)
    have v1z3y2 : (hnWe.N c p).v 1 [spinOf s3, spinOf b2] = sb (hnWe.react.codePair c p 3 s3).2 (hnWe.react.codePair c p 2 b2).2 := bra_square (p := p) (m := hnWe.proc.massNum (hnWe.rho c)) (hnWe.mass_eq hc 3) (hnWe.mass_eq hc 2) (.inl ⟨m3, rfl⟩) (.inl ⟨m2, rfl⟩)
    have v2z3z1 : (hnWe.N c p).v 2 [spinOf s3] = ab (hnWe.react.codePair c p 3 s3).1 (hnWe.react.codePair c p 1 0).1 := bra_angle (p := p) (m := hnWe.proc.massNum (hnWe.rho c)) (hnWe.mass_eq hc 3) (hnWe.mass_eq hc 1) (.inl ⟨m3, rfl⟩) (.inr ⟨m1, rfl⟩)
    have v3x2y2 : (hnWe.N c p).v 3 [spinOf a2, spinOf b2] = mb (hnWe.react.codePair c p 2 a2).2 (p 0) (hnWe.react.codePair c p 2 b2).1 := bra_mid_square (p := p) (m := hnWe.proc.massNum (hnWe.rho c)) (hnWe.mass_eq hc 2) (hnWe.mass_eq hc 2) (.inl ⟨m2, rfl⟩) (.inl ⟨m2, rfl⟩)
    have v4y2z3 : (hnWe.N c p).v 4 [spinOf b2, spinOf s3] = mb (hnWe.react.codePair c p 2 b2).2 (p 0) (hnWe.react.codePair c p 3 s3).1 := bra_mid_square (p := p) (m := hnWe.proc.massNum (hnWe.rho c)) (hnWe.mass_eq hc 2) (hnWe.mass_eq hc 3) (.inl ⟨m2, rfl⟩) (.inl ⟨m3, rfl⟩)
    simp only [hnWe.term, hnWe.form, v0z1x2, v1z3y2, v2z3z1, v3x2y2, v4y2z3]
    push_cast
    ring
  have w1 : ∀ (s : Fin 2) (t2 : Fin 3), hnWe.react.bare c p 3 1 0 2 (hnWe.react.codePair c p 3 s) (hnWe.react.codePair c p 1 1) (hnWe.react.codeVec c p 0 0) (hnWe.react.codeVec c p 2 t2) = 0 := by
    intro s t2
    have e := st (hnWe.react.codePair_bold hs h0 1 1) (hnWe.react.codePair_bold hs h0 3 s) t2
    rw [show comb t2 (fun a2 b2 => hnWe.form (hnWe.N c p) p (hnWe.react.codePair c p 1 1) (hnWe.react.codePair c p 2 a2) (hnWe.react.codePair c p 2 b2) (hnWe.react.codePair c p 3 s)) = 0 by
      simp only [hnWe.form_zero1 _ _ _ _ _ (show ((hnWe.react.codePair c p 1 1)).1 = 0 from legA_zero m1 rfl)]; exact comb_zero ..] at e
    exact neg_eq_zero.1 ((neg_one_mul _).symm.trans e.symm)
  show meaning (hnWe.N c p) .r Cls.hnWe.methods Cls.hnWe.amp2 [] = _
  have lc : hnWe.react.lineColours 3 1 = 1 := by decide +kernel
  have s0 : hnWe.react.states 0 = 1 := by decide
  have s1 : hnWe.react.states 1 = 1 := by decide
  have sy : hnWe.react.symmetry = 1 := by decide
  have p0 : hnWe.react.spins 0 = {0} := rfl
  have p1 : hnWe.react.spins 1 = {0, 1} := rfl
  have p2 : hnWe.react.spins 2 = Finset.univ := rfl
  have p3 : hnWe.react.spins 3 = {0, 1} := rfl
  rw [hnWe.value, hnWe.react.squared_line he ht hB (noGluon_of hM) hs h0 (fun _ b _ hb _ => (boson_pos hc hh hb).ne') (hnWe.react.gauge_massive (massive_of hM)) (E := hnWe.react.codeVec c p) (fun n b hl => hnWe.react.codeVec_polarised hs h0 hl (massive_of hM n b hl) (fun _ => (boson_pos hc hh (massive_of hM n b hl)).ne')) hu, sum_colours, lc, s0, s1, sy]
  simp only [sumV_sum, sumJ_sum, am, norm_mul, norm_neg, norm_one, one_mul, p0, p1, p2, p3, Finset.sum_singleton, sum_two, Matrix.cons_val_zero, Matrix.cons_val_one, Matrix.cons_val, two_castSucc]
  simp only [Fin.sum_univ_two, w1, norm_zero]
  try simp only [← Finset.mul_sum]
  push_cast
  first | ring1 | ring_nf

/-! ### uhWd -/

/-- what the methods of the class see -/
noncomputable abbrev uhWd.N [FPEnv] (c : Constants) (p : Nat → V4 ℝ) : Env := uhWd.proc.env (uhWd.rho c) p
/-- the term that `amp` adds for a choice of spinors (SM/uhWd.cpp) -/
noncomputable def uhWd.term (N : Env) (w : ℝ) (x : ℂ) (j1 a2 b2 j4 : Int) : ℂ :=
  (((x + (((((w * N.r 9) : ℝ) : ℂ) * (((((((((2 : Nat) : ℝ) * N.r 4) * N.r 4) : ℝ) : ℂ) * N.v 0 [j1, a2]) * N.v 1 [j4, b2]) - (((((N.r 2 : ℝ) : ℂ) * N.v 2 [j1, j4]) + (((N.r 1 : ℝ) : ℂ) * N.v 3 [j1, j4])) * N.v 4 [a2, b2]))) / N.c 1)) + ((((((w * N.r 8) : ℝ) : ℂ) * N.v 0 [j1, a2]) * (((((((2 : Nat) : ℝ) * N.r 2) : ℝ) : ℂ) * N.v 1 [j4, b2]) - N.v 5 [b2, j4])) / N.c 2)) + ((((((w * N.r 7) : ℝ) : ℂ) * N.v 1 [j4, a2]) * (((((((2 : Nat) : ℝ) * N.r 1) : ℝ) : ℂ) * N.v 0 [j1, b2]) + N.v 6 [j1, b2])) / N.c 0))
/-- the same with spinors in place of their spins -/
noncomputable def uhWd.form (N : Env) (p : Nat → V4 ℝ) (z0 x2 y2 z3 : Pair) : ℂ :=
  (((0 + (((((((1 : Nat) : ℝ) * N.r 9) : ℝ) : ℂ) * (((((((((2 : Nat) : ℝ) * N.r 4) * N.r 4) : ℝ) : ℂ) * (ab z0.1 x2.1)) * (sb z3.2 y2.2)) - (((((N.r 2 : ℝ) : ℂ) * (ab z0.1 z3.1)) + (((N.r 1 : ℝ) : ℂ) * (sb z0.2 z3.2))) * (mb x2.2 (p 1) y2.1)))) / N.c 1)) + ((((((((1 : Nat) : ℝ) * N.r 8) : ℝ) : ℂ) * (ab z0.1 x2.1)) * (((((((2 : Nat) : ℝ) * N.r 2) : ℝ) : ℂ) * (sb z3.2 y2.2)) - (mb y2.2 (p 1) z3.1))) / N.c 2)) + ((((((((1 : Nat) : ℝ) * N.r 7) : ℝ) : ℂ) * (sb z3.2 x2.2)) * (((((((2 : Nat) : ℝ) * N.r 1) : ℝ) : ℂ) * (ab z0.1 y2.1)) + (mb z0.2 (p 1) y2.1))) / N.c 0))
theorem uhWd.key {c : Constants} {p : Nat → V4 ℝ} {N : Env} (hc : c.Physical) (hb : Balanced p) (r1 : N.r 1 = (c.mass .u)) (r2 : N.r 2 = (c.mass .d)) (r4 : N.r 4 = c.MW) (r7 : N.r 7 = ((c.mass .u) * ((c.e * c.e) / ((((((2 : Nat) : ℝ) * c.MW) * c.MW) * c.SW) * c.SW)))) (r8 : N.r 8 = ((c.mass .d) * ((c.e * c.e) / ((((((2 : Nat) : ℝ) * c.MW) * c.MW) * c.SW) * c.SW)))) (r9 : N.r 9 = ((c.e * c.e) / ((((((2 : Nat) : ℝ) * c.MW) * c.MW) * c.SW) * c.SW))) (d0 : ((msq (plus (p 0) (p 1)) - c.mass .u ^ 2 : ℝ) : ℂ) = N.c 0) (n0 : N.c 0 ≠ 0) (d1 : pole c.MW c.WW (plus (p 1) (backward (p 2))) = N.c 1) (n1 : N.c 1 ≠ 0) (d2 : ((msq (plus (p 0) (backward (p 2))) - c.mass .d ^ 2 : ℝ) : ℂ) = N.c 2) (n2 : N.c 2 ≠ 0) {z0 z2 z3 : Pair} (b0 : Bold (p 0) (c.mass .u) z0) (b2 : Bold (p 2) c.MW z2) (b3 : Bold (p 3) (c.mass .d) z3) (E1 : Vec) :
    uhWd.form N p z0 z2 z2 z3 = -(((√2 / c.MW : ℝ) : ℂ) * uhWd.react.bare c p 3 0 1 2 z3 z0 E1 (pv z2.1 z2.2)) := by
  rw [uhWd.react.bare_parts c p (i := 3) (j := 0) (a := 1) (b := 2) (x := .higgs) (y := .wMinus) (k := (p 1)) (k' := (backward (p 2))) (fun _ => rfl) (fun _ => rfl) (f := .u) (g := .d) rfl rfl (l := (p 0)) rfl (e := 1) (e' := 1) (if_neg Bool.false_ne_true) (if_neg Bool.false_ne_true)]
  rw [compton_hv (f := .u) (x := .u) (g := .d) (h := (rfl : Spec.after .higgs Flavour.u = some Flavour.u)) (h' := (rfl : Spec.after .wMinus Flavour.u = some Flavour.d)) (hb := by simp)]
  rw [compton_vh (f := .u) (x := .d) (g := .d) (h := (rfl : Spec.after .wMinus Flavour.u = some Flavour.d)) (h' := (rfl : Spec.after .higgs Flavour.d = some Flavour.d)) (ha := by simp)]
  have an := annihilation_charged c (1) (1) z3.1 z3.2 z0.1 z0.2 ⟨.higgs, (p 1), E1⟩ ⟨.wMinus, (backward (p 2)), pv z2.1 z2.2⟩ (f := .u) (g := .d) (x := .wMinus) (by simp) rfl
  dsimp only at an
  rw [an, uhWd.form]
  clear an
  rw [lineV_massive (hx := (rfl : Boson.massive .wMinus = true))]
  simp only [toHiggs, toVector, higgs2, gauge3, Boson.anti, Constants.bosonMass, Constants.bosonWidth, d0, d1, d2, reduceCtorEq, and_self, and_true, and_false, and_true, if_true, if_false, Complex.ofReal_zero, zero_smul, zero_mul, mul_zero, zero_div, neg_zero, add_zero, zero_add, lineH, lineV_zero, contract_zero, lineV_smul, contract_smul, lineV_pv, lineV_four, contract_four_pv, contract_pv, mb_plus, mb_backward]
  simp only [b0.mb_left, b0.mb_right, b2.mb_left, b2.mb_right, b3.mb_left, b3.mb_right, mb_three hb z0.2 z0.1, mb_three hb z0.2 z2.1, mb_two hb z0.2 z3.1, mb_three hb z2.2 z0.1, mb_three hb z2.2 z2.1, mb_one hb z2.2 z3.1, mb_two hb z3.2 z0.1, mb_one hb z3.2 z2.1, mb_two hb z3.2 z3.1, ab_self, sb_self]
  simp only [ab_swap z0.1 z2.1, sb_swap z0.2 z2.2, ab_swap z0.1 z3.1, sb_swap z0.2 z3.2, ab_swap z2.1 z3.1, sb_swap z2.2 z3.2, r1, r2, r4, r7, r8, r9, Constants.hL, Constants.hR, Constants.gL, Constants.gR, Constants.yuk, Constants.invVev, Flavour.charge_d, Flavour.isospin_d, Flavour.charge_u, Flavour.isospin_u, ← c.mz]
  have xMW : (c.MW : ℂ) ≠ 0 := by exact_mod_cast hc.MW
  have xSW : (c.SW : ℂ) ≠ 0 := by exact_mod_cast hc.SW
  have xCW : (c.CW : ℂ) ≠ 0 := by exact_mod_cast hc.CW
  have x2 : ((√2 : ℝ) : ℂ) ≠ 0 := by exact_mod_cast (Real.sqrt_pos.2 two_pos).ne'
  have x22 : ((√2 : ℝ) : ℂ) ^ 2 = 2 := by rw [← Complex.ofReal_pow, Real.sq_sqrt two_pos.le]; norm_num
  push_cast
  field_simp
  first | ring1 | (ring_nf; simp only [x22]; ring1)
set_option maxRecDepth 8000 in
theorem uhWd.amp2_eq (N : Env) (f : Nat → List Int → ℂ) : Cls.uhWd.m_amp2.mean N f .r [] =
    ((sumJ (fun x a => (sumV (fun x b => (sumJ (fun x c => (x + (((3 : Nat) : ℝ) * (‖(f 0 [a, b, c])‖ ^ 2)))) x)) x)) ((0 : Nat) : ℝ)) / ((6 : Nat) : ℝ)) := by rfl
set_option maxRecDepth 8000 in
theorem uhWd.value (N : Env) : meaning N .r Cls.uhWd.methods Cls.uhWd.amp2 [] =
    ((sumJ (fun x a => (sumV (fun x b => (sumJ (fun x c => (x + (((3 : Nat) : ℝ) * (‖(Cls.uhWd.m_amp.mean N (callMean N []) .c [a, b, c])‖ ^ 2)))) x)) x)) ((0 : Nat) : ℝ)) / ((6 : Nat) : ℝ)) :=
  uhWd.amp2_eq N (callMean N [Cls.uhWd.m_amp])
set_option maxRecDepth 8000 in
theorem uhWd.term_lin (N : Env) (w : ℝ) (x : ℂ) (j1 a2 b2 j4 : Int) : uhWd.term N w x j1 a2 b2 j4 = x + (w : ℂ) * uhWd.term N 1 0 j1 a2 b2 j4 := by
  simp only [uhWd.term]; push_cast; ring
theorem uhWd.amp_eq (N : Env) (f : Nat → List Int → ℂ) (j1 j4 : Int) (t2 : Fin 3) : Cls.uhWd.m_amp.mean N f .c [j1, spinV t2, j4] = comb t2 (fun a2 b2 => uhWd.term N 1 0 j1 (spinOf a2) (spinOf b2) j4) := by
  refine (amp_mean N f (m := 3) (K := 5) (G := fun i => uhWd.term N 1 0 (i 0) (i 3) (i 4) (i 2)) (fun l => ?_) (fun i i' h => ?_) rfl (by decide) (by decide) (by decide) (by decide) (by decide)).trans ?_
  · refine ⟨_, rfl, ?_⟩; exact ⟨rfl, rfl, uhWd.term_lin ..⟩
  · simp only [h 0 (by decide), h 3 (by decide), h 4 (by decide), h 2 (by decide)]
  · show amp' _ [spinV t2] = _
    simp only [amp'_comb, amp'_nil]
    rfl
theorem uhWd.form_x2 (N : Env) (p : Nat → V4 ℝ) (z0 y2 z3 x y : Pair) : uhWd.form N p z0 (x + y) y2 z3 = uhWd.form N p z0 x y2 z3 + uhWd.form N p z0 y y2 z3 := by
  simp only [uhWd.form, Prod.fst_add, Prod.snd_add, ab_add_left, ab_add_right, sb_add_left, sb_add_right, mb_add_left, mb_add_right]
  ring
theorem uhWd.form_y2 (N : Env) (p : Nat → V4 ℝ) (z0 x2 z3 x y : Pair) : uhWd.form N p z0 x2 (x + y) z3 = uhWd.form N p z0 x2 x z3 + uhWd.form N p z0 x2 y z3 := by
  simp only [uhWd.form, Prod.fst_add, Prod.snd_add, ab_add_left, ab_add_right, sb_add_left, sb_add_right, mb_add_left, mb_add_right]
  ring

theorem uhWd.mass_eq {c : Constants} (hc : c.Physical) (i : Fin 4) : uhWd.proc.massNum (uhWd.rho c) i = uhWd.react.mass c i := by
  fin_cases i <;> first | rfl | exact Nat.cast_zero.trans (hc.neutrino _).symm | (show c.MW / √(((1 : Nat) : ℝ) - c.SW * c.SW) = c.MZ; rw [c.root, c.mz])

variable [FPEnv] in
theorem uhWd.agrees : uhWd.Agrees := by
  refine agrees_of (D := [4, 6]) (E := [6]) (by simp [all, uhWd]) (by decide +kernel) (by decide) (by decide +kernel) (fun c hc hh => ⟨List.forall_mem_cons.2 ⟨hc.MW, List.forall_mem_cons.2 ⟨hc.SW, List.forall_mem_nil _⟩⟩, List.forall_mem_cons.2 ⟨hc.SW_lt, List.forall_mem_nil _⟩⟩) (fun c hc i => uhWd.mass_eq hc i) (by decide +kernel) ?_
  intro c p u ε hc hh hw h0 hs hb hr hu
  have he : uhWd.react.ends = [3] := by decide
  have ht : uhWd.react.starts = [0] := by decide
  have hB : uhWd.react.bosons = [1, 2] := by decide
  have hM : uhWd.react.allMassive = true := by decide
  obtain ⟨f1, f2, f3⟩ := uhWd.react.regular_line he ht hB hr
  have r1 : (uhWd.N c p).r 1 = (c.mass .u) := rfl
  have r2 : (uhWd.N c p).r 2 = (c.mass .d) := rfl
  have r4 : (uhWd.N c p).r 4 = c.MW := rfl
  have r7 : (uhWd.N c p).r 7 = ((c.mass .u) * ((c.e * c.e) / ((((((2 : Nat) : ℝ) * c.MW) * c.MW) * c.SW) * c.SW))) := rfl
  have r8 : (uhWd.N c p).r 8 = ((c.mass .d) * ((c.e * c.e) / ((((((2 : Nat) : ℝ) * c.MW) * c.MW) * c.SW) * c.SW))) := rfl
  have r9 : (uhWd.N c p).r 9 = ((c.e * c.e) / ((((((2 : Nat) : ℝ) * c.MW) * c.MW) * c.SW) * c.SW)) := rfl
  have c0 : (uhWd.N c p).c 0 = poleDist (c.mass .u) ((0 : Nat) : ℝ) ((VExp.add 0 1).sum p) := rfl
  rw [Nat.cast_zero, pole_fermion (msq_s hb (plus (p 0) (p 1)) (by simp))] at c0
  have d0 : ((msq (plus (p 0) (p 1)) - c.mass .u ^ 2 : ℝ) : ℂ) = (uhWd.N c p).c 0 := by rw [c0]
  have n0 : (uhWd.N c p).c 0 ≠ 0 := by rw [← d0]; exact_mod_cast f1 .u rfl rfl
  have c1 : (uhWd.N c p).c 1 = poleDist c.MW c.WW ((VExp.sub 0 3).sum p) := rfl
  rw [pole_congr (msq_u hb (plus (p 1) (backward (p 2))) (by simp)).symm] at c1
  have d1 : pole c.MW c.WW (plus (p 1) (backward (p 2))) = (uhWd.N c p).c 1 := by rw [c1]
  have n1 : (uhWd.N c p).c 1 ≠ 0 := by rw [← d1]; exact star_ne_zero.2 (f3 .wMinus rfl rfl)
  have c2 : (uhWd.N c p).c 2 = poleDist (c.mass .d) ((0 : Nat) : ℝ) ((VExp.sub 0 2).sum p) := rfl
  rw [Nat.cast_zero, pole_fermion (msq_t hb (plus (p 0) (backward (p 2))) (by simp))] at c2
  have d2 : ((msq (plus (p 0) (backward (p 2))) - c.mass .d ^ 2 : ℝ) : ℂ) = (uhWd.N c p).c 2 := by rw [c2]
  have n2 : (uhWd.N c p).c 2 ≠ 0 := by rw [← d2]; exact_mod_cast f2 .d rfl rfl
  have m0 : uhWd.react.mass c 0 ≠ 0 := (leg_pos hc hh (by decide)).ne'
  have m2 : uhWd.react.mass c 2 ≠ 0 := (leg_pos hc hh (by decide)).ne'
  have m3 : uhWd.react.mass c 3 ≠ 0 := (leg_pos hc hh (by decide)).ne'
  have hd : uhWd.proc.divides = [(Ty.c, 1), (Ty.c, 2), (Ty.c, 0)] := by decide +kernel
  refine ⟨fun n hn => ?_, fun n hn => ?_, ?_⟩
  · simp [hd] at hn
  · simp [hd] at hn
    rcases hn with rfl | rfl | rfl
    · exact n1
    · exact n2
    · exact n0
  have st : ∀ {z0 z3 : Pair} (b0 : Bold (p 0) (uhWd.react.mass c 0) z0) (b3 : Bold (p 3) (uhWd.react.mass c 3) z3) (t2 : Fin 3), comb t2 (fun a2 b2 => uhWd.form (uhWd.N c p) p z0 (uhWd.react.codePair c p 2 a2) (uhWd.react.codePair c p 2 b2) z3) = (-1) * uhWd.react.bare c p 3 0 1 2 z3 z0 (uhWd.react.codeVec c p 1 0) (uhWd.react.codeVec c p 2 t2) := by
    intro z0 z3 b0 b3 t2
    refine one_vector (p := p 2) (m := uhWd.react.mass c 2) (fun s => uhWd.react.codePair_bold hs h0 2 s) (B := fun x y => uhWd.form (uhWd.N c p) p z0 x y z3) (G := fun E => uhWd.react.bare c p 3 0 1 2 z3 z0 (uhWd.react.codeVec c p 1 0) E) (fun x y z => ?_) (fun x y z => ?_) (uhWd.react.bare_lin₂ c p _ _ _ (by decide)) (-1) (fun z2 b2 => ?_) t2
    · exact uhWd.form_x2 ..
    · exact uhWd.form_y2 ..
    · rw [neg_one_mul]; exact uhWd.key hc hb r1 r2 r4 r7 r8 r9 d0 n0 d1 n1 d2 n2 b0 b2 b3 (uhWd.react.codeVec c p 1 0)
  have am : ∀ (s0 : Fin 2) (s3 : Fin 2) (t2 : Fin 3), Cls.uhWd.m_amp.mean (uhWd.N c p) (callMean (uhWd.N c p) []) .c [spinOf s0, spinV t2, spinOf s3] = (-1) * uhWd.react.bare c p 3 0 1 2 (uhWd.react.codePair c p 3 s3) (uhWd.react.codePair c p 0 s0) (uhWd.react.codeVec c p 1 0) (uhWd.react.codeVec c p 2 t2) := by
    intro s0 s3 t2
    rw [uhWd.amp_eq, ← st (uhWd.react.codePair_bold hs h0 0 s0) (uhWd.react.codePair_bold hs h0 3 s3) t2]
    refine congrArg (comb t2) (funext fun a2 => funext fun b2 => ?_)
    have v0z0x2 : (uhWd.N c p).v 0 [spinOf s0, spinOf a2] = ab (uhWd.react.codePair c p 0 s0).1 (uhWd.react.codePair c p 2 a2).1 := bra_angle (p := p) (m := uhWd.proc.massNum (uhWd.rho c)) (uhWd.mass_eq hc 0) (uhWd.mass_eq hc 2) (.inl ⟨m0, rfl⟩) (.inl ⟨m2, rfl⟩)
    have v1z3y2 : (uhWd.N c p).v 1 [spinOf s3, spinOf b2] = sb (uhWd.react.codePair c p 3 s3).2 (uhWd.react.codePair c p 2 b2).2 := bra_square (p := p) (m := uhWd.proc.massNum (uhWd.rho c)) (uhWd.mass_eq hc 3) (uhWd.mass_eq hc 2) (.inl ⟨m3, rfl⟩) (.inl ⟨m2, rfl⟩)
    have v2z0z3 : (uhWd.N c p).v 2 [spinOf s0, spinOf s3] = ab (uhWd.react.codePair c p 0 s0).1 (uhWd.react.codePair c p 3 s3).1 := bra_angle (p := p) (m := uhWd.proc.massNum (uhWd.rho c)) (uhWd.mass_eq hc 0) (uhWd.mass_eq hc 3) (.inl ⟨m0, rfl⟩) (.inl ⟨m3, rfl⟩)
    have v3z0z3 : (uhWd.N c p).v 3 [spinOf s0, spinOf s3] = sb (uhWd.react.codePair c p 0 s0).2 (uhWd.react.codePair c p 3 s3).2 := bra_square (p := p) (m := uhWd.proc.massNum (uhWd.rho c)) (uhWd.mass_eq hc 0) (uhWd.mass_eq hc 3) (.inl ⟨m0, rfl⟩) (.inl ⟨m3, rfl⟩)
    have v4x2y2 : (uhWd.N c p).v 4 [spinOf a2, spinOf b2] = mb (uhWd.react.codePair c p 2 a2).2 (p 1) (uhWd.react.codePair c p 2 b2).1 := bra_mid_square (p := p) (m := uhWd.proc.massNum (uhWd.rho c)) (uhWd.mass_eq hc 2) (uhWd.mass_eq hc 2) (.inl ⟨m2, rfl⟩) (.inl ⟨m2, rfl⟩)
    have v5y2z3 : (uhWd.N c p).v 5 [spinOf b2, spinOf s3] = mb (uhWd.react.codePair c p 2 b2).2 (p 1) (uhWd.react.codePair c p 3 s3).1 := bra_mid_square (p := p) (m := uhWd.proc.massNum (uhWd.rho c)) (uhWd.mass_eq hc 2) (uhWd.mass_eq hc 3) (.inl ⟨m2, rfl⟩) (.inl ⟨m3, rfl⟩)
    have v1z3x2 : (uhWd.N c p).v 1 [spinOf s3, spinOf a2] = sb (uhWd.react.codePair c p 3 s3).2 (uhWd.react.codePair c p 2 a2).2 := bra_square (p := p) (m := uhWd.proc.massNum (uhWd.rho c)) (uhWd.mass_eq hc 3) (uhWd.mass_eq hc 2) (.inl ⟨m3, rfl⟩) (.inl ⟨m2, rfl⟩)
    have v0z0y2 : (uhWd.N c p).v 0 [spinOf s0, spinOf b2] = ab (uhWd.react.codePair c p 0 s0).1 (uhWd.react.codePair c p 2 b2).1 := bra_angle (p := p) (m := uhWd.proc.massNum (uhWd.rho c)) (uhWd.mass_eq hc 0) (uhWd.mass_eq hc 2) (.inl ⟨m0, rfl⟩) (.inl ⟨m2, rfl⟩)
    have v6z0y2 : (uhWd.N c p).v 6 [spinOf s0, spinOf b2] = mb (uhWd.react.codePair c p 0 s0).2 (p 1) (uhWd.react.codePair c p 2 b2).1 := bra_mid_square (p := p) (m := uhWd.proc.massNum (uhWd.rho c)) (uhWd.mass_eq hc 0) (uhWd.mass_eq hc 2) (.inl ⟨m0, rfl⟩) (.inl ⟨m2, rfl⟩)
    simp only [uhWd.term, uhWd.form, v0z0x2, v1z3y2, v2z0z3, v3z0z3, v4x2y2, v5y2z3, v1z3x2, v0z0y2, v6z0y2]
    push_cast
    ring
  show meaning (uhWd.N c p) .r Cls.uhWd.methods Cls.uhWd.amp2 [] = _
  have lc : uhWd.react.lineColours 3 0 = 3 := by decide +kernel
  have s0 : uhWd.react.states 0 = 6 := by decide
  have s1 : uhWd.react.states 1 = 1 := by decide
  have sy : uhWd.react.symmetry = 1 := by decide
  have p0 : uhWd.react.spins 0 = {0, 1} := rfl
  have p1 : uhWd.react.spins 1 = {0} := rfl
  have p2 : uhWd.react.spins 2 = Finset.univ := rfl
  have p3 : uhWd.react.spins 3 = {0, 1} := rfl
  rw [uhWd.value, uhWd.react.squared_line he ht hB (noGluon_of hM) hs h0 (fun _ b _ hb _ => (boson_pos hc hh hb).ne') (uhWd.react.gauge_massive (massive_of hM)) (E := uhWd.react.codeVec c p) (fun n b hl => uhWd.react.codeVec_polarised hs h0 hl (massive_of hM n b hl) (fun _ => (boson_pos hc hh (massive_of hM n b hl)).ne')) hu, sum_colours, lc, s0, s1, sy]
  simp only [sumV_sum, sumJ_sum, am, norm_mul, norm_neg, norm_one, one_mul, p0, p1, p2, p3, Finset.sum_singleton, sum_two, Matrix.cons_val_zero, Matrix.cons_val_one, Matrix.cons_val, two_castSucc]
  try simp only [← Finset.mul_sum]
  push_cast
  first | ring1 | ring_nf

end Spinas.SM.Rows
