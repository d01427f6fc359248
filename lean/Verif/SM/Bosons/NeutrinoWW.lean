import Verif.SM.Electron

/-! Neutrinos and two W bosons. Generated by tools/bosons/electron.py: for each class its amplitude as a formula in spinors, and the proof that `amp2` is the squared amplitude of the Feynman rules. -/

set_option linter.unusedSimpArgs false
set_option linter.unusedVariables false
set_option linter.unreachableTactic false
set_option linter.unusedTactic false

namespace Spinas.SM.Rows
open Spec Spec.Reaction Props XR Matrix BRow

/-! ### nnWW -/

/-- what the methods of the class see -/
noncomputable abbrev nnWW.N [FPEnv] (c : Constants) (p : Nat → V4 ℝ) : Env := nnWW.proc.withElectron.env (nnWW.rho c) p
/-- the term that `amp` adds for a choice of spinors (SM/nnWW.cpp) -/
noncomputable def nnWW.term (N : Env) (w : ℝ) (x : ℂ) (a2 b2 a3 b3 : Int) : ℂ :=
  ((x + ((((((((-w) * N.r 8) : ℝ) : ℂ) * N.v 4 [a3]) * N.v 1 [a2]) * ((((N.r 2 : ℝ) : ℂ) * N.v 3 [b2, b3]) - N.v 6 [b2, b3])) / N.c 0)) + ((((((-w) * N.r 9) : ℝ) : ℂ) * (((N.v 2 [a2, a3] * N.v 3 [b2, b3]) * N.v 7 []) + ((((N.r 2 : ℝ) : ℂ) * (N.v 2 [a2, a3] + N.v 3 [a2, a3])) * ((N.v 0 [b2] * N.v 5 [b3]) + (N.v 4 [b3] * N.v 1 [b2]))))) / N.c 1))
/-- the same with spinors in place of their spins -/
noncomputable def nnWW.form (N : Env) (p : Nat → V4 ℝ) (z0 z1 x2 y2 x3 y3 : Pair) : ℂ :=
  ((0 + ((((((((-((1 : Nat) : ℝ)) * N.r 8) : ℝ) : ℂ) * (sb z1.2 x3.2)) * (ab z0.1 x2.1)) * ((((N.r 2 : ℝ) : ℂ) * (ab y2.1 y3.1)) - (mb y2.2 (p 0) y3.1))) / N.c 0)) + ((((((-((1 : Nat) : ℝ)) * N.r 9) : ℝ) : ℂ) * ((((sb x2.2 x3.2) * (ab y2.1 y3.1)) * (mb z1.2 (p 2) z0.1)) + ((((N.r 2 : ℝ) : ℂ) * ((sb x2.2 x3.2) + (ab x2.1 x3.1))) * (((sb z1.2 y2.2) * (ab z0.1 y3.1)) + ((sb z1.2 y3.2) * (ab z0.1 y2.1)))))) / N.c 1))
theorem nnWW.key {c : Constants} {p : Nat → V4 ℝ} {N : Env} (hc : c.Weak) (hb : Balanced p) (r2 : N.r 2 = c.MW) (r8 : N.r 8 = ((c.e * c.e) / (((c.MW * c.MW) * c.SW) * c.SW))) (r9 : N.r 9 = ((c.e * c.e) / (((c.MW * c.MW) * c.SW) * c.SW))) (d0 : ((msq (plus (p 0) (backward (p 2))) - c.mass .e ^ 2 : ℝ) : ℂ) = N.c 0) (n0 : N.c 0 ≠ 0) (d1 : pole c.MZ c.WZ (plus (backward (p 2)) (backward (p 3))) = N.c 1) (n1 : N.c 1 ≠ 0) {z0 z1 z2 z3 : Pair} (b0 : Bold (p 0) (c.mass .ne) z0) (b1 : Bold (p 1) (c.mass .ne) z1) (b2 : Bold (p 2) c.MW z2) (b3 : Bold (p 3) c.MW z3) (q2 : msq (p 2) = c.MW ^ 2) (q3 : msq (p 3) = c.MW ^ 2) :
    nnWW.form N p z0 z1 z2 z2 z3 z3 = -(((2 / (c.MW * c.MW) : ℝ) : ℂ) * nnWW.react.bare c p 1 0 2 3 z1 z0 (pv z2.1 z2.2) (pv z3.1 z3.2)) := by
  rw [nnWW.react.bare_parts c p (i := 1) (j := 0) (a := 2) (b := 3) (x := .wMinus) (y := .wPlus) (k := (backward (p 2))) (k' := (backward (p 3))) (fun _ => rfl) (fun _ => rfl) (f := .ne) (g := .ne) rfl rfl (l := (p 0)) rfl (e := -1) (e' := 1) (if_pos rfl) (if_neg Bool.false_ne_true)]
  rw [compton_vv (f := .ne) (x := .e) (g := .ne) (h := (rfl : Spec.after .wMinus Flavour.ne = some Flavour.e)) (h' := (rfl : Spec.after .wPlus Flavour.e = some Flavour.ne)) (ha := by simp) (hb := by simp)]
  rw [compton_none (h := by simp [Spec.after, Flavour.ne, Flavour.ne]), star_zero]
  have an := annihilation_neutral c (-1) (1) z1.1 z1.2 z0.1 z0.2 ⟨.wMinus, (backward (p 2)), pv z2.1 z2.2⟩ ⟨.wPlus, (backward (p 3)), pv z3.1 z3.2⟩ .ne
  dsimp only at an
  rw [an, nnWW.form]
  clear an
  have Y2 := b2.back; have Q2 : msq (backward (p 2)) = (-c.MW) ^ 2 := by rw [msq_backward, q2, neg_sq]
  have Y3 := b3.back; have Q3 : msq (backward (p 3)) = (-c.MW) ^ 2 := by rw [msq_backward, q3, neg_sq]
  rw [lineV_massless (hx := (rfl : Boson.massive .photon = false))]
  rw [lineV_massive (hx := (rfl : Boson.massive .z = true))]
  simp only [toHiggs, toVector, higgs2, gauge3, Boson.anti, Constants.bosonMass, Constants.bosonWidth, d0, d1, reduceCtorEq, and_self, and_true, and_false, and_true, if_true, if_false, Complex.ofReal_zero, zero_smul, zero_mul, mul_zero, zero_div, neg_zero, add_zero, zero_add, lineH, lineV_zero, contract_zero, lineV_smul, contract_smul, lineV_yangMills Y2 Y3, four_yangMills Y2 Y3 Q2 Q3, ym, lineV_pv, lineV_four, contract_four_pv, contract_pv, mb_plus, mb_backward]
  simp only [b0.mb_left, b0.mb_right, b1.mb_left, b1.mb_right, b2.mb_left, b2.mb_right, b3.mb_left, b3.mb_right, mb_three hb z0.2 z0.1, mb_three hb z0.2 z1.1, mb_three hb z0.2 z2.1, mb_two hb z0.2 z3.1, mb_three hb z1.2 z0.1, mb_three hb z1.2 z1.1, mb_three hb z1.2 z2.1, mb_two hb z1.2 z3.1, mb_three hb z2.2 z0.1, mb_three hb z2.2 z1.1, mb_three hb z2.2 z2.1, mb_one hb z2.2 z3.1, mb_two hb z3.2 z0.1, mb_two hb z3.2 z1.1, mb_one hb z3.2 z2.1, mb_two hb z3.2 z3.1, ab_self, sb_self]
  have hne : c.mass .ne = 0 := hc.neutrino _
  simp only [ab_swap z0.1 z1.1, sb_swap z0.2 z1.2, ab_swap z0.1 z2.1, sb_swap z0.2 z2.2, ab_swap z0.1 z3.1, sb_swap z0.2 z3.2, ab_swap z1.1 z2.1, sb_swap z1.2 z2.2, ab_swap z1.1 z3.1, sb_swap z1.2 z3.2, ab_swap z2.1 z3.1, sb_swap z2.2 z3.2, r2, r8, r9, Constants.hL, Constants.hR, Constants.gL, Constants.gR, Constants.yuk, Constants.invVev, Flavour.charge_e, Flavour.isospin_e, Flavour.charge_ne, Flavour.isospin_ne, hne, ← c.mz]
  have xMW : (c.MW : ℂ) ≠ 0 := by exact_mod_cast hc.MW
  have xSW : (c.SW : ℂ) ≠ 0 := by exact_mod_cast hc.SW
  have xCW : (c.CW : ℂ) ≠ 0 := by exact_mod_cast hc.CW
  have x2 : ((√2 : ℝ) : ℂ) ≠ 0 := by exact_mod_cast (Real.sqrt_pos.2 two_pos).ne'
  have x22 : ((√2 : ℝ) : ℂ) ^ 2 = 2 := by rw [← Complex.ofReal_pow, Real.sq_sqrt two_pos.le]; norm_num
  push_cast
  field_simp
  first | ring1 | (ring_nf; simp only [x22]; ring1)
set_option maxRecDepth 8000 in
theorem nnWW.amp2_eq (N : Env) (f : Nat → List Int → ℂ) : Cls.nnWW.m_amp2.mean N f .r [] =
    (sumV (fun x a => (sumV (fun x b => (x + (‖(f 0 [a, b])‖ ^ 2))) x)) ((0 : Nat) : ℝ)) := by rfl
set_option maxRecDepth 8000 in
theorem nnWW.value (N : Env) : meaning N .r Cls.nnWW.methods Cls.nnWW.amp2 [] =
    (sumV (fun x a => (sumV (fun x b => (x + (‖(Cls.nnWW.m_amp.mean N (callMean N []) .c [a, b])‖ ^ 2))) x)) ((0 : Nat) : ℝ)) :=
  nnWW.amp2_eq N (callMean N [Cls.nnWW.m_amp])
set_option maxRecDepth 8000 in
theorem nnWW.term_lin (N : Env) (w : ℝ) (x : ℂ) (a2 b2 a3 b3 : Int) : nnWW.term N w x a2 b2 a3 b3 = x + (w : ℂ) * nnWW.term N 1 0 a2 b2 a3 b3 := by
  simp only [nnWW.term]; push_cast; ring
theorem nnWW.amp_eq (N : Env) (f : Nat → List Int → ℂ) (t2 t3 : Fin 3) : Cls.nnWW.m_amp.mean N f .c [spinV t2, spinV t3] = comb t2 (fun a2 b2 => comb t3 (fun a3 b3 => nnWW.term N 1 0 (spinOf a2) (spinOf b2) (spinOf a3) (spinOf b3))) := by
  refine (amp_mean N f (m := 2) (K := 6) (G := fun i => nnWW.term N 1 0 (i 2) (i 3) (i 4) (i 5)) (fun l => ?_) (fun i i' h => ?_) rfl (by decide) (by decide) (by decide) (by decide) (by decide)).trans ?_
  · refine ⟨_, rfl, ?_⟩; exact ⟨rfl, rfl, nnWW.term_lin ..⟩
  · simp only [h 2 (by decide), h 3 (by decide), h 4 (by decide), h 5 (by decide)]
  · show amp' _ [spinV t2, spinV t3] = _
    simp only [amp'_comb, amp'_nil]
    rfl
theorem nnWW.form_x2 (N : Env) (p : Nat → V4 ℝ) (z0 z1 y2 x3 y3 x y : Pair) : nnWW.form N p z0 z1 (x + y) y2 x3 y3 = nnWW.form N p z0 z1 x y2 x3 y3 + nnWW.form N p z0 z1 y y2 x3 y3 := by
  simp only [nnWW.form, Prod.fst_add, Prod.snd_add, ab_add_left, ab_add_right, sb_add_left, sb_add_right, mb_add_left, mb_add_right]
  ring
theorem nnWW.form_y2 (N : Env) (p : Nat → V4 ℝ) (z0 z1 x2 x3 y3 x y : Pair) : nnWW.form N p z0 z1 x2 (x + y) x3 y3 = nnWW.form N p z0 z1 x2 x x3 y3 + nnWW.form N p z0 z1 x2 y x3 y3 := by
  simp only [nnWW.form, Prod.fst_add, Prod.snd_add, ab_add_left, ab_add_right, sb_add_left, sb_add_right, mb_add_left, mb_add_right]
  ring
theorem nnWW.form_x3 (N : Env) (p : Nat → V4 ℝ) (z0 z1 x2 y2 y3 x y : Pair) : nnWW.form N p z0 z1 x2 y2 (x + y) y3 = nnWW.form N p z0 z1 x2 y2 x y3 + nnWW.form N p z0 z1 x2 y2 y y3 := by
  simp only [nnWW.form, Prod.fst_add, Prod.snd_add, ab_add_left, ab_add_right, sb_add_left, sb_add_right, mb_add_left, mb_add_right]
  ring
theorem nnWW.form_y3 (N : Env) (p : Nat → V4 ℝ) (z0 z1 x2 y2 x3 x y : Pair) : nnWW.form N p z0 z1 x2 y2 x3 (x + y) = nnWW.form N p z0 z1 x2 y2 x3 x + nnWW.form N p z0 z1 x2 y2 x3 y := by
  simp only [nnWW.form, Prod.fst_add, Prod.snd_add, ab_add_left, ab_add_right, sb_add_left, sb_add_right, mb_add_left, mb_add_right]
  ring
theorem nnWW.form_zero0 (N : Env) (p : Nat → V4 ℝ) {z0 : Pair} (z1 x2 y2 x3 y3 : Pair) (h : z0.1 = 0) : nnWW.form N p z0 z1 x2 y2 x3 y3 = 0 := by
  simp [nnWW.form, h, ab_zero, sb_zero, mb_zero]
theorem nnWW.form_zero1 (N : Env) (p : Nat → V4 ℝ) {z1 : Pair} (z0 x2 y2 x3 y3 : Pair) (h : z1.2 = 0) : nnWW.form N p z0 z1 x2 y2 x3 y3 = 0 := by
  simp [nnWW.form, h, ab_zero, sb_zero, mb_zero]

theorem nnWW.mass_eq {c : Constants} (hc : c.Weak) (i : Fin 4) : nnWW.proc.withElectron.massNum (nnWW.rho c) i = nnWW.react.mass c i := by
  fin_cases i <;> first | rfl | exact Nat.cast_zero.trans (hc.neutrino _).symm | (show c.MW / √(((1 : Nat) : ℝ) - c.SW * c.SW) = c.MZ; rw [c.root, c.mz])

variable [FPEnv] in
theorem nnWW.agrees : nnWW.AgreesElectron := by
  refine agreesElectron_of (D := [2, 3]) (E := [3]) (by decide +kernel) (by decide +kernel) rfl (by decide +kernel) (by decide) (by decide +kernel) (fun c hc hh => ⟨List.forall_mem_cons.2 ⟨hc.MW, List.forall_mem_cons.2 ⟨hc.SW, List.forall_mem_nil _⟩⟩, List.forall_mem_cons.2 ⟨hc.SW_lt, List.forall_mem_nil _⟩⟩) (fun c hc i => nnWW.mass_eq hc i) (fun c hc hh i => ?_) (fun c hc hh i => ?_) ?_
  · revert i; intro i hi; fin_cases i <;> first | exact hh.MW | exact absurd hi (by decide +kernel)
  · fin_cases i <;> first | exact hh.MW.le | exact (hc.neutrino _).ge
  intro c p u ε hc hh h0 hs hb hr hu
  have he : nnWW.react.ends = [1] := by decide
  have ht : nnWW.react.starts = [0] := by decide
  have hB : nnWW.react.bosons = [2, 3] := by decide
  have hM : nnWW.react.allMassive = true := by decide
  obtain ⟨f1, f2, f3⟩ := nnWW.react.regular_line he ht hB hr
  have r2 : (nnWW.N c p).r 2 = c.MW := rfl
  have r8 : (nnWW.N c p).r 8 = ((c.e * c.e) / (((c.MW * c.MW) * c.SW) * c.SW)) := rfl
  have r9 : (nnWW.N c p).r 9 = ((c.e * c.e) / (((c.MW * c.MW) * c.SW) * c.SW)) := rfl
  have c0 : (nnWW.N c p).c 0 = poleDist (c.mass .e) ((0 : Nat) : ℝ) ((VExp.sub 0 2).sum p) := rfl
  rw [Nat.cast_zero, pole_fermion (msq_t hb (plus (p 0) (backward (p 2))) (by simp))] at c0
  have d0 : ((msq (plus (p 0) (backward (p 2))) - c.mass .e ^ 2 : ℝ) : ℂ) = (nnWW.N c p).c 0 := by rw [c0]
  have n0 : (nnWW.N c p).c 0 ≠ 0 := by rw [← d0]; exact_mod_cast f1 .e rfl rfl
  have c1 : (nnWW.N c p).c 1 = poleDist (c.MW / √((((1 : Nat) : ℝ) - (c.SW * c.SW)))) c.WZ ((VExp.add 0 1).sum p) := rfl
  rw [c.root, c.mz, pole_congr (msq_s hb (plus (backward (p 2)) (backward (p 3))) (by simp)).symm] at c1
  have d1 : pole c.MZ c.WZ (plus (backward (p 2)) (backward (p 3))) = (nnWW.N c p).c 1 := by rw [c1]
  have n1 : (nnWW.N c p).c 1 ≠ 0 := by rw [← d1]; exact star_ne_zero.2 (f3 .z rfl rfl)
  have m0 : nnWW.react.mass c 0 = 0 := hc.neutrino _
  have m1 : nnWW.react.mass c 1 = 0 := hc.neutrino _
  have m2 : nnWW.react.mass c 2 ≠ 0 := hh.MW.ne'
  have m3 : nnWW.react.mass c 3 ≠ 0 := hh.MW.ne'
  have hd : nnWW.proc.withElectron.divides = [(Ty.c, 0), (Ty.c, 1)] := by decide +kernel
  refine ⟨fun n hn => ?_, fun n hn => ?_, ?_⟩
  · simp [hd] at hn
  · simp [hd] at hn
    rcases hn with rfl | rfl
    · exact n0
    · exact n1
  have st : ∀ {z0 z1 : Pair} (b0 : Bold (p 0) (nnWW.react.mass c 0) z0) (b1 : Bold (p 1) (nnWW.react.mass c 1) z1) (t2 t3 : Fin 3), comb t2 (fun a2 b2 => comb t3 (fun a3 b3 => nnWW.form (nnWW.N c p) p z0 z1 (nnWW.react.codePair c p 2 a2) (nnWW.react.codePair c p 2 b2) (nnWW.react.codePair c p 3 a3) (nnWW.react.codePair c p 3 b3))) = (-1) * nnWW.react.bare c p 1 0 2 3 z1 z0 (nnWW.react.codeVec c p 2 t2) (nnWW.react.codeVec c p 3 t3) := by
    intro z0 z1 b0 b1 t2 t3
    refine two_vectors (p := p 2) (p' := p 3) (m := nnWW.react.mass c 2) (m' := nnWW.react.mass c 3) (fun s => nnWW.react.codePair_bold hs h0 2 s) (fun s => nnWW.react.codePair_bold hs h0 3 s) (B := fun x y x' y' => nnWW.form (nnWW.N c p) p z0 z1 x y x' y') (G := fun E F => nnWW.react.bare c p 1 0 2 3 z1 z0 E F) (fun _ _ _ _ _ => ?_) (fun _ _ _ _ _ => ?_) (fun _ _ _ _ _ => ?_) (fun _ _ _ _ _ => ?_) (fun F => nnWW.react.bare_lin₁ c p _ _ _ (by decide)) (fun E => nnWW.react.bare_lin₂ c p _ _ _ (by decide)) (-1) (fun z2 z3 b2 b3 => ?_) t2 t3
    · exact nnWW.form_x2 ..
    · exact nnWW.form_y2 ..
    · exact nnWW.form_x3 ..
    · exact nnWW.form_y3 ..
    · rw [neg_one_mul]; exact nnWW.key hc hb r2 r8 r9 d0 n0 d1 n1 b0 b1 b2 b3 (onShell_msq (hs 2)) (onShell_msq (hs 3)) 
  have am : ∀ (t2 t3 : Fin 3), Cls.nnWW.m_amp.mean (nnWW.N c p) (callMean (nnWW.N c p) []) .c [spinV t2, spinV t3] = (-1) * nnWW.react.bare c p 1 0 2 3 (nnWW.react.codePair c p 1 1) (nnWW.react.codePair c p 0 0) (nnWW.react.codeVec c p 2 t2) (nnWW.react.codeVec c p 3 t3) := by
    intro t2 t3
    rw [nnWW.amp_eq, ← st (nnWW.react.codePair_bold hs h0 0 0) (nnWW.react.codePair_bold hs h0 1 1) t2 t3]
    refine congrArg (comb t2) (funext fun a2 => funext fun b2 => ?_)
    refine congrArg (comb t3) (funext fun a3 => funext fun b3 => ?_)
    have v4z1x3 : (nnWW.N c p).v 4 [spinOf a3] = sb (nnWW.react.codePair c p 1 1).2 (nnWW.react.codePair c p 3 a3).2 := bra_square (p := p) (m := nnWW.proc.withElectron.massNum (nnWW.rho c)) (nnWW.mass_eq hc 1) (nnWW.mass_eq hc 3) (.inr ⟨m1, rfl⟩) (.inl ⟨m3, rfl⟩)
    have v1z0x2 : (nnWW.N c p).v 1 [spinOf a2] = ab (nnWW.react.codePair c p 0 0).1 (nnWW.react.codePair c p 2 a2).1 := bra_angle (p := p) (m := nnWW.proc.withElectron.massNum (nnWW.rho c)) (nnWW.mass_eq hc 0) (nnWW.mass_eq hc 2) (.inr ⟨m0, rfl⟩) (.inl ⟨m2, rfl⟩)
    have v3y2y3 : (nnWW.N c p).v 3 [spinOf b2, spinOf b3] = ab (nnWW.react.codePair c p 2 b2).1 (nnWW.react.codePair c p 3 b3).1 := bra_angle (p := p) (m := nnWW.proc.withElectron.massNum (nnWW.rho c)) (nnWW.mass_eq hc 2) (nnWW.mass_eq hc 3) (.inl ⟨m2, rfl⟩) (.inl ⟨m3, rfl⟩)
    have v6y2y3 : (nnWW.N c p).v 6 [spinOf b2, spinOf b3] = mb (nnWW.react.codePair c p 2 b2).2 (p 0) (nnWW.react.codePair c p 3 b3).1 := bra_mid_square (p := p) (m := nnWW.proc.withElectron.massNum (nnWW.rho c)) (nnWW.mass_eq hc 2) (nnWW.mass_eq hc 3) (.inl ⟨m2, rfl⟩) (.inl ⟨m3, rfl⟩)
    have v2x2x3 : (nnWW.N c p).v 2 [spinOf a2, spinOf a3] = sb (nnWW.react.codePair c p 2 a2).2 (nnWW.react.codePair c p 3 a3).2 := bra_square (p := p) (m := nnWW.proc.withElectron.massNum (nnWW.rho c)) (nnWW.mass_eq hc 2) (nnWW.mass_eq hc 3) (.inl ⟨m2, rfl⟩) (.inl ⟨m3, rfl⟩)
    have v7z1z0 : (nnWW.N c p).v 7 [] = mb (nnWW.react.codePair c p 1 1).2 (p 2) (nnWW.react.codePair c p 0 0).1 := bra_mid_square (p := p) (m := nnWW.proc.withElectron.massNum (nnWW.rho c)) (nnWW.mass_eq hc 1) (nnWW.mass_eq hc 0) (.inr ⟨m1, rfl⟩) (.inr ⟨m0, rfl⟩)
    have v3x2x3 : (nnWW.N c p).v 3 [spinOf a2, spinOf a3] = ab (nnWW.react.codePair c p 2 a2).1 (nnWW.react.codePair c p 3 a3).1 := bra_angle (p := p) (m := nnWW.proc.withElectron.massNum (nnWW.rho c)) (nnWW.mass_eq hc 2) (nnWW.mass_eq hc 3) (.inl ⟨m2, rfl⟩) (.inl ⟨m3, rfl⟩)
    have v0z1y2 : (nnWW.N c p).v 0 [spinOf b2] = sb (nnWW.react.codePair c p 1 1).2 (nnWW.react.codePair c p 2 b2).2 := bra_square (p := p) (m := nnWW.proc.withElectron.massNum (nnWW.rho c)) (nnWW.mass_eq hc 1) (nnWW.mass_eq hc 2) (.inr ⟨m1, rfl⟩) (.inl ⟨m2, rfl⟩)
    have v5z0y3 : (nnWW.N c p).v 5 [spinOf b3] = ab (nnWW.react.codePair c p 0 0).1 (nnWW.react.codePair c p 3 b3).1 := bra_angle (p := p) (m := nnWW.proc.withElectron.massNum (nnWW.rho c)) (nnWW.mass_eq hc 0) (nnWW.mass_eq hc 3) (.inr ⟨m0, rfl⟩) (.inl ⟨m3, rfl⟩)
    have v4z1y3 : (nnWW.N c p).v 4 [spinOf b3] = sb (nnWW.react.codePair c p 1 1).2 (nnWW.react.codePair c p 3 b3).2 := bra_square (p := p) (m := nnWW.proc.withElectron.massNum (nnWW.rho c)) (nnWW.mass_eq hc 1) (nnWW.mass_eq hc 3) (.inr ⟨m1, rfl⟩) (.inl ⟨m3, rfl⟩)
    have v1z0y2 : (nnWW.N c p).v 1 [spinOf b2] = ab (nnWW.react.codePair c p 0 0).1 (nnWW.react.codePair c p 2 b2).1 := bra_angle (p := p) (m := nnWW.proc.withElectron.massNum (nnWW.rho c)) (nnWW.mass_eq hc 0) (nnWW.mass_eq hc 2) (.inr ⟨m0, rfl⟩) (.inl ⟨m2, rfl⟩)
    simp only [nnWW.term, nnWW.form, v4z1x3, v1z0x2, v3y2y3, v6y2y3, v2x2x3, v7z1z0, v3x2x3, v0z1y2, v5z0y3, v4z1y3, v1z0y2]
    push_cast
    ring
  have w0 : ∀ (s : Fin 2) (t2 t3 : Fin 3), nnWW.react.bare c p 1 0 2 3 (nnWW.react.codePair c p 1 s) (nnWW.react.codePair c p 0 1) (nnWW.react.codeVec c p 2 t2) (nnWW.react.codeVec c p 3 t3) = 0 := by
    intro s t2 t3
    have e := st (nnWW.react.codePair_bold hs h0 0 1) (nnWW.react.codePair_bold hs h0 1 s) t2 t3
    rw [show comb t2 (fun a2 b2 => comb t3 (fun a3 b3 => nnWW.form (nnWW.N c p) p (nnWW.react.codePair c p 0 1) (nnWW.react.codePair c p 1 s) (nnWW.react.codePair c p 2 a2) (nnWW.react.codePair c p 2 b2) (nnWW.react.codePair c p 3 a3) (nnWW.react.codePair c p 3 b3))) = 0 by
      simp only [nnWW.form_zero0 _ _ _ _ _ _ _ (show ((nnWW.react.codePair c p 0 1)).1 = 0 from legA_zero m0 rfl)]; exact comb_zero_zero ..] at e
    exact neg_eq_zero.1 ((neg_one_mul _).symm.trans e.symm)
  have w1 : ∀ (s : Fin 2) (t2 t3 : Fin 3), nnWW.react.bare c p 1 0 2 3 (nnWW.react.codePair c p 1 0) (nnWW.react.codePair c p 0 s) (nnWW.react.codeVec c p 2 t2) (nnWW.react.codeVec c p 3 t3) = 0 := by
    intro s t2 t3
    have e := st (nnWW.react.codePair_bold hs h0 0 s) (nnWW.react.codePair_bold hs h0 1 0) t2 t3
    rw [show comb t2 (fun a2 b2 => comb t3 (fun a3 b3 => nnWW.form (nnWW.N c p) p (nnWW.react.codePair c p 0 s) (nnWW.react.codePair c p 1 0) (nnWW.react.codePair c p 2 a2) (nnWW.react.codePair c p 2 b2) (nnWW.react.codePair c p 3 a3) (nnWW.react.codePair c p 3 b3))) = 0 by
      simp only [nnWW.form_zero1 _ _ _ _ _ _ _ (show ((nnWW.react.codePair c p 1 0)).2 = 0 from legS_zero m1 rfl)]; exact comb_zero_zero ..] at e
    exact neg_eq_zero.1 ((neg_one_mul _).symm.trans e.symm)
  show meaning (nnWW.N c p) .r Cls.nnWW.methods Cls.nnWW.amp2 [] = _
  have lc : nnWW.react.lineColours 1 0 = 1 := by decide +kernel
  have s0 : nnWW.react.states 0 = 1 := by decide
  have s1 : nnWW.react.states 1 = 1 := by decide
  have sy : nnWW.react.symmetry = 1 := by decide
  have p0 : nnWW.react.spins 0 = {0, 1} := rfl
  have p1 : nnWW.react.spins 1 = {0, 1} := rfl
  have p2 : nnWW.react.spins 2 = Finset.univ := rfl
  have p3 : nnWW.react.spins 3 = Finset.univ := rfl
  rw [nnWW.value, nnWW.react.squared_line he ht hB (noGluon_of hM) hs h0 (fun _ b _ hb _ => (hc.boson_pos hh hb).ne') (nnWW.react.gauge_massive (massive_of hM)) (E := nnWW.react.codeVec c p) (fun n b hl => nnWW.react.codeVec_polarised hs h0 hl (massive_of hM n b hl) (fun _ => (hc.boson_pos hh (massive_of hM n b hl)).ne')) hu, sum_colours, lc, s0, s1, sy]
  simp only [sumV_sum, sumJ_sum, am, norm_mul, norm_neg, norm_one, one_mul, p0, p1, p2, p3, Finset.sum_singleton, sum_two, Matrix.cons_val_zero, Matrix.cons_val_one, Matrix.cons_val, two_castSucc]
  simp only [Fin.sum_univ_two, w0, w1, norm_zero]
  try simp only [← Finset.mul_sum]
  push_cast
  first | ring1 | ring_nf

/-! ### nWWn -/

/-- what the methods of the class see -/
noncomputable abbrev nWWn.N [FPEnv] (c : Constants) (p : Nat → V4 ℝ) : Env := nWWn.proc.withElectron.env (nWWn.rho c) p
/-- the term that `amp` adds for a choice of spinors (SM/nWWn.cpp) -/
noncomputable def nWWn.term (N : Env) (w : ℝ) (x : ℂ) (a2 b2 a1 b1 : Int) : ℂ :=
  ((x + ((((((((-w) * N.r 8) : ℝ) : ℂ) * N.v 4 [a1]) * N.v 1 [a2]) * ((((N.r 2 : ℝ) : ℂ) * N.v 3 [b1, b2]) + N.v 6 [b2, b1])) / N.c 0)) + ((((((-w) * N.r 9) : ℝ) : ℂ) * (((N.v 2 [a1, a2] * N.v 3 [b1, b2]) * N.v 7 []) + ((((N.r 2 : ℝ) : ℂ) * (N.v 2 [a1, a2] - N.v 3 [a1, a2])) * ((N.v 0 [b2] * N.v 5 [b1]) - (N.v 4 [b1] * N.v 1 [b2]))))) / N.c 1))
/-- the same with spinors in place of their spins -/
noncomputable def nWWn.form (N : Env) (p : Nat → V4 ℝ) (z0 x1 y1 x2 y2 z3 : Pair) : ℂ :=
  ((0 + ((((((((-((1 : Nat) : ℝ)) * N.r 8) : ℝ) : ℂ) * (sb x1.2 z3.2)) * (ab z0.1 x2.1)) * ((((N.r 2 : ℝ) : ℂ) * (ab y1.1 y2.1)) + (mb y2.2 (p 0) y1.1))) / N.c 0)) + ((((((-((1 : Nat) : ℝ)) * N.r 9) : ℝ) : ℂ) * ((((sb x1.2 x2.2) * (ab y1.1 y2.1)) * (mb z3.2 (p 2) z0.1)) + ((((N.r 2 : ℝ) : ℂ) * ((sb x1.2 x2.2) - (ab x1.1 x2.1))) * (((sb y2.2 z3.2) * (ab z0.1 y1.1)) - ((sb y1.2 z3.2) * (ab z0.1 y2.1)))))) / N.c 1))
theorem nWWn.key {c : Constants} {p : Nat → V4 ℝ} {N : Env} (hc : c.Weak) (hb : Balanced p) (r2 : N.r 2 = c.MW) (r8 : N.r 8 = (((((2 : Nat) : ℝ) * c.e) * c.e) / ((((((2 : Nat) : ℝ) * c.MW) * c.MW) * c.SW) * c.SW))) (r9 : N.r 9 = (((((2 : Nat) : ℝ) * c.e) * c.e) / ((((((2 : Nat) : ℝ) * c.MW) * c.MW) * c.SW) * c.SW))) (d0 : ((msq (plus (p 0) (backward (p 2))) - c.mass .e ^ 2 : ℝ) : ℂ) = N.c 0) (n0 : N.c 0 ≠ 0) (d1 : pole c.MZ c.WZ (plus (p 1) (backward (p 2))) = N.c 1) (n1 : N.c 1 ≠ 0) {z0 z1 z2 z3 : Pair} (b0 : Bold (p 0) (c.mass .ne) z0) (b1 : Bold (p 1) c.MW z1) (b2 : Bold (p 2) c.MW z2) (b3 : Bold (p 3) (c.mass .ne) z3) (q1 : msq (p 1) = c.MW ^ 2) (q2 : msq (p 2) = c.MW ^ 2) :
    nWWn.form N p z0 z1 z1 z2 z2 z3 = ((2 / (c.MW * c.MW) : ℝ) : ℂ) * nWWn.react.bare c p 3 0 1 2 z3 z0 (pv z1.1 z1.2) (pv z2.1 z2.2) := by
  rw [nWWn.react.bare_parts c p (i := 3) (j := 0) (a := 1) (b := 2) (x := .wPlus) (y := .wMinus) (k := (p 1)) (k' := (backward (p 2))) (fun _ => rfl) (fun _ => rfl) (f := .ne) (g := .ne) rfl rfl (l := (p 0)) rfl (e := 1) (e' := 1) (if_neg Bool.false_ne_true) (if_neg Bool.false_ne_true)]
  rw [compton_none (h := by simp [Spec.after, Flavour.ne, Flavour.ne]), star_zero]
  rw [compton_vv (f := .ne) (x := .e) (g := .ne) (h := (rfl : Spec.after .wMinus Flavour.ne = some Flavour.e)) (h' := (rfl : Spec.after .wPlus Flavour.e = some Flavour.ne)) (ha := by simp) (hb := by simp)]
  have an := annihilation_neutral c (1) (1) z3.1 z3.2 z0.1 z0.2 ⟨.wPlus, (p 1), pv z1.1 z1.2⟩ ⟨.wMinus, (backward (p 2)), pv z2.1 z2.2⟩ .ne
  dsimp only at an
  rw [an, nWWn.form]
  clear an
  have Y1 := b1; have Q1 := q1
  have Y2 := b2.back; have Q2 : msq (backward (p 2)) = (-c.MW) ^ 2 := by rw [msq_backward, q2, neg_sq]
  rw [lineV_massless (hx := (rfl : Boson.massive .photon = false))]
  rw [lineV_massive (hx := (rfl : Boson.massive .z = true))]
  simp only [toHiggs, toVector, higgs2, gauge3, Boson.anti, Constants.bosonMass, Constants.bosonWidth, d0, d1, reduceCtorEq, and_self, and_true, and_false, and_true, if_true, if_false, Complex.ofReal_zero, zero_smul, zero_mul, mul_zero, zero_div, neg_zero, add_zero, zero_add, lineH, lineV_zero, contract_zero, lineV_smul, contract_smul, lineV_yangMills Y1 Y2, four_yangMills Y1 Y2 Q1 Q2, ym, lineV_pv, lineV_four, contract_four_pv, contract_pv, mb_plus, mb_backward]
  simp only [b0.mb_left, b0.mb_right, b1.mb_left, b1.mb_right, b2.mb_left, b2.mb_right, b3.mb_left, b3.mb_right, mb_three hb z0.2 z0.1, mb_three hb z0.2 z1.1, mb_three hb z0.2 z2.1, mb_two hb z0.2 z3.1, mb_three hb z1.2 z0.1, mb_three hb z1.2 z1.1, mb_three hb z1.2 z2.1, mb_two hb z1.2 z3.1, mb_three hb z2.2 z0.1, mb_three hb z2.2 z1.1, mb_three hb z2.2 z2.1, mb_one hb z2.2 z3.1, mb_two hb z3.2 z0.1, mb_two hb z3.2 z1.1, mb_one hb z3.2 z2.1, mb_two hb z3.2 z3.1, ab_self, sb_self]
  have hne : c.mass .ne = 0 := hc.neutrino _
  simp only [ab_swap z0.1 z1.1, sb_swap z0.2 z1.2, ab_swap z0.1 z2.1, sb_swap z0.2 z2.2, ab_swap z0.1 z3.1, sb_swap z0.2 z3.2, ab_swap z1.1 z2.1, sb_swap z1.2 z2.2, ab_swap z1.1 z3.1, sb_swap z1.2 z3.2, ab_swap z2.1 z3.1, sb_swap z2.2 z3.2, r2, r8, r9, Constants.hL, Constants.hR, Constants.gL, Constants.gR, Constants.yuk, Constants.invVev, Flavour.charge_e, Flavour.isospin_e, Flavour.charge_ne, Flavour.isospin_ne, hne, ← c.mz]
  have xMW : (c.MW : ℂ) ≠ 0 := by exact_mod_cast hc.MW
  have xSW : (c.SW : ℂ) ≠ 0 := by exact_mod_cast hc.SW
  have xCW : (c.CW : ℂ) ≠ 0 := by exact_mod_cast hc.CW
  have x2 : ((√2 : ℝ) : ℂ) ≠ 0 := by exact_mod_cast (Real.sqrt_pos.2 two_pos).ne'
  have x22 : ((√2 : ℝ) : ℂ) ^ 2 = 2 := by rw [← Complex.ofReal_pow, Real.sq_sqrt two_pos.le]; norm_num
  push_cast
  field_simp
  first | ring1 | (ring_nf; simp only [x22]; ring1)
set_option maxRecDepth 8000 in
theorem nWWn.amp2_eq (N : Env) (f : Nat → List Int → ℂ) : Cls.nWWn.m_amp2.mean N f .r [] =
    ((sumV (fun x a => (sumV (fun x b => (x + (‖(f 0 [a, b])‖ ^ 2))) x)) ((0 : Nat) : ℝ)) / ((3 : Nat) : ℝ)) := by rfl
set_option maxRecDepth 8000 in
theorem nWWn.value (N : Env) : meaning N .r Cls.nWWn.methods Cls.nWWn.amp2 [] =
    ((sumV (fun x a => (sumV (fun x b => (x + (‖(Cls.nWWn.m_amp.mean N (callMean N []) .c [a, b])‖ ^ 2))) x)) ((0 : Nat) : ℝ)) / ((3 : Nat) : ℝ)) :=
  nWWn.amp2_eq N (callMean N [Cls.nWWn.m_amp])
set_option maxRecDepth 8000 in
theorem nWWn.term_lin (N : Env) (w : ℝ) (x : ℂ) (a2 b2 a1 b1 : Int) : nWWn.term N w x a2 b2 a1 b1 = x + (w : ℂ) * nWWn.term N 1 0 a2 b2 a1 b1 := by
  simp only [nWWn.term]; push_cast; ring
theorem nWWn.amp_eq (N : Env) (f : Nat → List Int → ℂ) (t2 t1 : Fin 3) : Cls.nWWn.m_amp.mean N f .c [spinV t2, spinV t1] = comb t2 (fun a2 b2 => comb t1 (fun a1 b1 => nWWn.term N 1 0 (spinOf a2) (spinOf b2) (spinOf a1) (spinOf b1))) := by
  refine (amp_mean N f (m := 2) (K := 6) (G := fun i => nWWn.term N 1 0 (i 2) (i 3) (i 4) (i 5)) (fun l => ?_) (fun i i' h => ?_) rfl (by decide) (by decide) (by decide) (by decide) (by decide)).trans ?_
  · refine ⟨_, rfl, ?_⟩; exact ⟨rfl, rfl, nWWn.term_lin ..⟩
  · simp only [h 2 (by decide), h 3 (by decide), h 4 (by decide), h 5 (by decide)]
  · show amp' _ [spinV t2, spinV t1] = _
    simp only [amp'_comb, amp'_nil]
    rfl
theorem nWWn.form_x1 (N : Env) (p : Nat → V4 ℝ) (z0 y1 x2 y2 z3 x y : Pair) : nWWn.form N p z0 (x + y) y1 x2 y2 z3 = nWWn.form N p z0 x y1 x2 y2 z3 + nWWn.form N p z0 y y1 x2 y2 z3 := by
  simp only [nWWn.form, Prod.fst_add, Prod.snd_add, ab_add_left, ab_add_right, sb_add_left, sb_add_right, mb_add_left, mb_add_right]
  ring
theorem nWWn.form_y1 (N : Env) (p : Nat → V4 ℝ) (z0 x1 x2 y2 z3 x y : Pair) : nWWn.form N p z0 x1 (x + y) x2 y2 z3 = nWWn.form N p z0 x1 x x2 y2 z3 + nWWn.form N p z0 x1 y x2 y2 z3 := by
  simp only [nWWn.form, Prod.fst_add, Prod.snd_add, ab_add_left, ab_add_right, sb_add_left, sb_add_right, mb_add_left, mb_add_right]
  ring
theorem nWWn.form_x2 (N : Env) (p : Nat → V4 ℝ) (z0 x1 y1 y2 z3 x y : Pair) : nWWn.form N p z0 x1 y1 (x + y) y2 z3 = nWWn.form N p z0 x1 y1 x y2 z3 + nWWn.form N p z0 x1 y1 y y2 z3 := by
  simp only [nWWn.form, Prod.fst_add, Prod.snd_add, ab_add_left, ab_add_right, sb_add_left, sb_add_right, mb_add_left, mb_add_right]
  ring
theorem nWWn.form_y2 (N : Env) (p : Nat → V4 ℝ) (z0 x1 y1 x2 z3 x y : Pair) : nWWn.form N p z0 x1 y1 x2 (x + y) z3 = nWWn.form N p z0 x1 y1 x2 x z3 + nWWn.form N p z0 x1 y1 x2 y z3 := by
  simp only [nWWn.form, Prod.fst_add, Prod.snd_add, ab_add_left, ab_add_right, sb_add_left, sb_add_right, mb_add_left, mb_add_right]
  ring
theorem nWWn.form_zero0 (N : Env) (p : Nat → V4 ℝ) {z0 : Pair} (x1 y1 x2 y2 z3 : Pair) (h : z0.1 = 0) : nWWn.form N p z0 x1 y1 x2 y2 z3 = 0 := by
  simp [nWWn.form, h, ab_zero, sb_zero, mb_zero]
theorem nWWn.form_zero3 (N : Env) (p : Nat → V4 ℝ) {z3 : Pair} (z0 x1 y1 x2 y2 : Pair) (h : z3.2 = 0) : nWWn.form N p z0 x1 y1 x2 y2 z3 = 0 := by
  simp [nWWn.form, h, ab_zero, sb_zero, mb_zero]

theorem nWWn.mass_eq {c : Constants} (hc : c.Weak) (i : Fin 4) : nWWn.proc.withElectron.massNum (nWWn.rho c) i = nWWn.react.mass c i := by
  fin_cases i <;> first | rfl | exact Nat.cast_zero.trans (hc.neutrino _).symm | (show c.MW / √(((1 : Nat) : ℝ) - c.SW * c.SW) = c.MZ; rw [c.root, c.mz])

variable [FPEnv] in
theorem nWWn.agrees : nWWn.AgreesElectron := by
  refine agreesElectron_of (D := [2, 3]) (E := [3]) (by decide +kernel) (by decide +kernel) rfl (by decide +kernel) (by decide) (by decide +kernel) (fun c hc hh => ⟨List.forall_mem_cons.2 ⟨hc.MW, List.forall_mem_cons.2 ⟨hc.SW, List.forall_mem_nil _⟩⟩, List.forall_mem_cons.2 ⟨hc.SW_lt, List.forall_mem_nil _⟩⟩) (fun c hc i => nWWn.mass_eq hc i) (fun c hc hh i => ?_) (fun c hc hh i => ?_) ?_
  · revert i; intro i hi; fin_cases i <;> first | exact hh.MW | exact absurd hi (by decide +kernel)
  · fin_cases i <;> first | exact hh.MW.le | exact (hc.neutrino _).ge
  intro c p u ε hc hh h0 hs hb hr hu
  have he : nWWn.react.ends = [3] := by decide
  have ht : nWWn.react.starts = [0] := by decide
  have hB : nWWn.react.bosons = [1, 2] := by decide
  have hM : nWWn.react.allMassive = true := by decide
  obtain ⟨f1, f2, f3⟩ := nWWn.react.regular_line he ht hB hr
  have r2 : (nWWn.N c p).r 2 = c.MW := rfl
  have r8 : (nWWn.N c p).r 8 = (((((2 : Nat) : ℝ) * c.e) * c.e) / ((((((2 : Nat) : ℝ) * c.MW) * c.MW) * c.SW) * c.SW)) := rfl
  have r9 : (nWWn.N c p).r 9 = (((((2 : Nat) : ℝ) * c.e) * c.e) / ((((((2 : Nat) : ℝ) * c.MW) * c.MW) * c.SW) * c.SW)) := rfl
  have c0 : (nWWn.N c p).c 0 = poleDist (c.mass .e) ((0 : Nat) : ℝ) ((VExp.sub 0 2).sum p) := rfl
  rw [Nat.cast_zero, pole_fermion (msq_t hb (plus (p 0) (backward (p 2))) (by simp))] at c0
  have d0 : ((msq (plus (p 0) (backward (p 2))) - c.mass .e ^ 2 : ℝ) : ℂ) = (nWWn.N c p).c 0 := by rw [c0]
  have n0 : (nWWn.N c p).c 0 ≠ 0 := by rw [← d0]; exact_mod_cast f2 .e rfl rfl
  have c1 : (nWWn.N c p).c 1 = poleDist (c.MW / √((((1 : Nat) : ℝ) - (c.SW * c.SW)))) c.WZ ((VExp.sub 0 3).sum p) := rfl
  rw [c.root, c.mz, pole_congr (msq_u hb (plus (p 1) (backward (p 2))) (by simp)).symm] at c1
  have d1 : pole c.MZ c.WZ (plus (p 1) (backward (p 2))) = (nWWn.N c p).c 1 := by rw [c1]
  have n1 : (nWWn.N c p).c 1 ≠ 0 := by rw [← d1]; exact star_ne_zero.2 (f3 .z rfl rfl)
  have m0 : nWWn.react.mass c 0 = 0 := hc.neutrino _
  have m1 : nWWn.react.mass c 1 ≠ 0 := hh.MW.ne'
  have m2 : nWWn.react.mass c 2 ≠ 0 := hh.MW.ne'
  have m3 : nWWn.react.mass c 3 = 0 := hc.neutrino _
  have hd : nWWn.proc.withElectron.divides = [(Ty.c, 0), (Ty.c, 1)] := by decide +kernel
  refine ⟨fun n hn => ?_, fun n hn => ?_, ?_⟩
  · simp [hd] at hn
  · simp [hd] at hn
    rcases hn with rfl | rfl
    · exact n0
    · exact n1
  have st : ∀ {z0 z3 : Pair} (b0 : Bold (p 0) (nWWn.react.mass c 0) z0) (b3 : Bold (p 3) (nWWn.react.mass c 3) z3) (t2 t1 : Fin 3), comb t2 (fun a2 b2 => comb t1 (fun a1 b1 => nWWn.form (nWWn.N c p) p z0 (nWWn.react.codePair c p 1 a1) (nWWn.react.codePair c p 1 b1) (nWWn.react.codePair c p 2 a2) (nWWn.react.codePair c p 2 b2) z3)) = 1 * nWWn.react.bare c p 3 0 1 2 z3 z0 (nWWn.react.codeVec c p 1 t1) (nWWn.react.codeVec c p 2 t2) := by
    intro z0 z3 b0 b3 t2 t1
    refine two_vectors (p := p 2) (p' := p 1) (m := nWWn.react.mass c 2) (m' := nWWn.react.mass c 1) (fun s => nWWn.react.codePair_bold hs h0 2 s) (fun s => nWWn.react.codePair_bold hs h0 1 s) (B := fun x y x' y' => nWWn.form (nWWn.N c p) p z0 x' y' x y z3) (G := fun E F => nWWn.react.bare c p 3 0 1 2 z3 z0 F E) (fun _ _ _ _ _ => ?_) (fun _ _ _ _ _ => ?_) (fun _ _ _ _ _ => ?_) (fun _ _ _ _ _ => ?_) (fun F => nWWn.react.bare_lin₂ c p _ _ _ (by decide)) (fun E => nWWn.react.bare_lin₁ c p _ _ _ (by decide)) 1 (fun z2 z1 b2 b1 => ?_) t2 t1
    · exact nWWn.form_x2 ..
    · exact nWWn.form_y2 ..
    · exact nWWn.form_x1 ..
    · exact nWWn.form_y1 ..
    · rw [one_mul]; exact nWWn.key hc hb r2 r8 r9 d0 n0 d1 n1 b0 b1 b2 b3 (onShell_msq (hs 1)) (onShell_msq (hs 2)) 
  have am : ∀ (t2 t1 : Fin 3), Cls.nWWn.m_amp.mean (nWWn.N c p) (callMean (nWWn.N c p) []) .c [spinV t2, spinV t1] = 1 * nWWn.react.bare c p 3 0 1 2 (nWWn.react.codePair c p 3 1) (nWWn.react.codePair c p 0 0) (nWWn.react.codeVec c p 1 t1) (nWWn.react.codeVec c p 2 t2) := by
    intro t2 t1
    rw [nWWn.amp_eq, ← st (nWWn.react.codePair_bold hs h0 0 0) (nWWn.react.codePair_bold hs h0 3 1) t2 t1]
    refine congrArg (comb t2) (funext fun a2 => funext fun b2 => ?_)
    refine congrArg (comb t1) (funext fun a1 => funext fun b1 => ?_)
    have v4x1z3 : (nWWn.N c p).v 4 [spinOf a1] = sb (nWWn.react.codePair c p 1 a1).2 (nWWn.react.codePair c p 3 1).2 := bra_square (p := p) (m := nWWn.proc.withElectron.massNum (nWWn.rho c)) (nWWn.mass_eq hc 1) (nWWn.mass_eq hc 3) (.inl ⟨m1, rfl⟩) (.inr ⟨m3, rfl⟩)
    have v1z0x2 : (nWWn.N c p).v 1 [spinOf a2] = ab (nWWn.react.codePair c p 0 0).1 (nWWn.react.codePair c p 2 a2).1 := bra_angle (p := p) (m := nWWn.proc.withElectron.massNum (nWWn.rho c)) (nWWn.mass_eq hc 0) (nWWn.mass_eq hc 2) (.inr ⟨m0, rfl⟩) (.inl ⟨m2, rfl⟩)
    have v3y1y2 : (nWWn.N c p).v 3 [spinOf b1, spinOf b2] = ab (nWWn.react.codePair c p 1 b1).1 (nWWn.react.codePair c p 2 b2).1 := bra_angle (p := p) (m := nWWn.proc.withElectron.massNum (nWWn.rho c)) (nWWn.mass_eq hc 1) (nWWn.mass_eq hc 2) (.inl ⟨m1, rfl⟩) (.inl ⟨m2, rfl⟩)
    have v6y2y1 : (nWWn.N c p).v 6 [spinOf b2, spinOf b1] = mb (nWWn.react.codePair c p 2 b2).2 (p 0) (nWWn.react.codePair c p 1 b1).1 := bra_mid_square (p := p) (m := nWWn.proc.withElectron.massNum (nWWn.rho c)) (nWWn.mass_eq hc 2) (nWWn.mass_eq hc 1) (.inl ⟨m2, rfl⟩) (.inl ⟨m1, rfl⟩)
    have v2x1x2 : (nWWn.N c p).v 2 [spinOf a1, spinOf a2] = sb (nWWn.react.codePair c p 1 a1).2 (nWWn.react.codePair c p 2 a2).2 := bra_square (p := p) (m := nWWn.proc.withElectron.massNum (nWWn.rho c)) (nWWn.mass_eq hc 1) (nWWn.mass_eq hc 2) (.inl ⟨m1, rfl⟩) (.inl ⟨m2, rfl⟩)
    have v7z3z0 : (nWWn.N c p).v 7 [] = mb (nWWn.react.codePair c p 3 1).2 (p 2) (nWWn.react.codePair c p 0 0).1 := bra_mid_square (p := p) (m := nWWn.proc.withElectron.massNum (nWWn.rho c)) (nWWn.mass_eq hc 3) (nWWn.mass_eq hc 0) (.inr ⟨m3, rfl⟩) (.inr ⟨m0, rfl⟩)
    have v3x1x2 : (nWWn.N c p).v 3 [spinOf a1, spinOf a2] = ab (nWWn.react.codePair c p 1 a1).1 (nWWn.react.codePair c p 2 a2).1 := bra_angle (p := p) (m := nWWn.proc.withElectron.massNum (nWWn.rho c)) (nWWn.mass_eq hc 1) (nWWn.mass_eq hc 2) (.inl ⟨m1, rfl⟩) (.inl ⟨m2, rfl⟩)
    have v0y2z3 : (nWWn.N c p).v 0 [spinOf b2] = sb (nWWn.react.codePair c p 2 b2).2 (nWWn.react.codePair c p 3 1).2 := bra_square (p := p) (m := nWWn.proc.withElectron.massNum (nWWn.rho c)) (nWWn.mass_eq hc 2) (nWWn.mass_eq hc 3) (.inl ⟨m2, rfl⟩) (.inr ⟨m3, rfl⟩)
    have v5z0y1 : (nWWn.N c p).v 5 [spinOf b1] = ab (nWWn.react.codePair c p 0 0).1 (nWWn.react.codePair c p 1 b1).1 := bra_angle (p := p) (m := nWWn.proc.withElectron.massNum (nWWn.rho c)) (nWWn.mass_eq hc 0) (nWWn.mass_eq hc 1) (.inr ⟨m0, rfl⟩) (.inl ⟨m1, rfl⟩)
    have v4y1z3 : (nWWn.N c p).v 4 [spinOf b1] = sb (nWWn.react.codePair c p 1 b1).2 (nWWn.react.codePair c p 3 1).2 := bra_square (p := p) (m := nWWn.proc.withElectron.massNum (nWWn.rho c)) (nWWn.mass_eq hc 1) (nWWn.mass_eq hc 3) (.inl ⟨m1, rfl⟩) (.inr ⟨m3, rfl⟩)
    have v1z0y2 : (nWWn.N c p).v 1 [spinOf b2] = ab (nWWn.react.codePair c p 0 0).1 (nWWn.react.codePair c p 2 b2).1 := bra_angle (p := p) (m := nWWn.proc.withElectron.massNum (nWWn.rho c)) (nWWn.mass_eq hc 0) (nWWn.mass_eq hc 2) (.inr ⟨m0, rfl⟩) (.inl ⟨m2, rfl⟩)
    simp only [nWWn.term, nWWn.form, v4x1z3, v1z0x2, v3y1y2, v6y2y1, v2x1x2, v7z3z0, v3x1x2, v0y2z3, v5z0y1, v4y1z3, v1z0y2]
    push_cast
    ring
  have w0 : ∀ (s : Fin 2) (t2 t1 : Fin 3), nWWn.react.bare c p 3 0 1 2 (nWWn.react.codePair c p 3 s) (nWWn.react.codePair c p 0 1) (nWWn.react.codeVec c p 1 t1) (nWWn.react.codeVec c p 2 t2) = 0 := by
    intro s t2 t1
    have e := st (nWWn.react.codePair_bold hs h0 0 1) (nWWn.react.codePair_bold hs h0 3 s) t2 t1
    rw [show comb t2 (fun a2 b2 => comb t1 (fun a1 b1 => nWWn.form (nWWn.N c p) p (nWWn.react.codePair c p 0 1) (nWWn.react.codePair c p 1 a1) (nWWn.react.codePair c p 1 b1) (nWWn.react.codePair c p 2 a2) (nWWn.react.codePair c p 2 b2) (nWWn.react.codePair c p 3 s))) = 0 by
      simp only [nWWn.form_zero0 _ _ _ _ _ _ _ (show ((nWWn.react.codePair c p 0 1)).1 = 0 from legA_zero m0 rfl)]; exact comb_zero_zero ..] at e
    exact (one_mul _).symm.trans e.symm
  have w3 : ∀ (s : Fin 2) (t2 t1 : Fin 3), nWWn.react.bare c p 3 0 1 2 (nWWn.react.codePair c p 3 0) (nWWn.react.codePair c p 0 s) (nWWn.react.codeVec c p 1 t1) (nWWn.react.codeVec c p 2 t2) = 0 := by
    intro s t2 t1
    have e := st (nWWn.react.codePair_bold hs h0 0 s) (nWWn.react.codePair_bold hs h0 3 0) t2 t1
    rw [show comb t2 (fun a2 b2 => comb t1 (fun a1 b1 => nWWn.form (nWWn.N c p) p (nWWn.react.codePair c p 0 s) (nWWn.react.codePair c p 1 a1) (nWWn.react.codePair c p 1 b1) (nWWn.react.codePair c p 2 a2) (nWWn.react.codePair c p 2 b2) (nWWn.react.codePair c p 3 0))) = 0 by
      simp only [nWWn.form_zero3 _ _ _ _ _ _ _ (show ((nWWn.react.codePair c p 3 0)).2 = 0 from legS_zero m3 rfl)]; exact comb_zero_zero ..] at e
    exact (one_mul _).symm.trans e.symm
  show meaning (nWWn.N c p) .r Cls.nWWn.methods Cls.nWWn.amp2 [] = _
  have lc : nWWn.react.lineColours 3 0 = 1 := by decide +kernel
  have s0 : nWWn.react.states 0 = 1 := by decide
  have s1 : nWWn.react.states 1 = 3 := by decide
  have sy : nWWn.react.symmetry = 1 := by decide
  have p0 : nWWn.react.spins 0 = {0, 1} := rfl
  have p1 : nWWn.react.spins 1 = Finset.univ := rfl
  have p2 : nWWn.react.spins 2 = Finset.univ := rfl
  have p3 : nWWn.react.spins 3 = {0, 1} := rfl
  rw [nWWn.value, nWWn.react.squared_line he ht hB (noGluon_of hM) hs h0 (fun _ b _ hb _ => (hc.boson_pos hh hb).ne') (nWWn.react.gauge_massive (massive_of hM)) (E := nWWn.react.codeVec c p) (fun n b hl => nWWn.react.codeVec_polarised hs h0 hl (massive_of hM n b hl) (fun _ => (hc.boson_pos hh (massive_of hM n b hl)).ne')) hu, sum_colours, lc, s0, s1, sy]
  simp only [sumV_sum, sumJ_sum, am, norm_mul, norm_neg, norm_one, one_mul, p0, p1, p2, p3, Finset.sum_singleton, sum_two, Matrix.cons_val_zero, Matrix.cons_val_one, Matrix.cons_val, two_castSucc]
  simp only [Fin.sum_univ_two, w0, w3, norm_zero]
  simp only [Fin.sum_univ_three]
  push_cast
  first | ring1 | ring_nf

end Spinas.SM.Rows
