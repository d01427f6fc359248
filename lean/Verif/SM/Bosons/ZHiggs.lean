import Verif.SM.BosonRows

/-! Fermions, a Z and a Higgs boson. Generated by tools/bosons/emit.py: for each class its amplitude as a formula in spinors, and the proof that `amp2` is the squared amplitude of the Feynman rules. -/

set_option linter.unusedSimpArgs false
set_option linter.unusedVariables false
set_option linter.unreachableTactic false
set_option linter.unusedTactic false

namespace Spinas.SM.Rows
open Spec Spec.Reaction Props XR Matrix BRow

/-! ### eeZh -/

/-- what the methods of the class see -/
noncomputable abbrev eeZh.N [FPEnv] (c : Constants) (p : Nat → V4 ℝ) : Env := eeZh.proc.env (eeZh.rho c) p
/-- the term that `amp` adds for a choice of spinors (SM/eeZh.cpp) -/
noncomputable def eeZh.term (N : Env) (w : ℝ) (x : ℂ) (j1 j2 a2 b2 : Int) : ℂ :=
  (((x + (((((w * N.r 11) : ℝ) : ℂ) * ((((((N.r 1 * (N.r 12 - N.r 13)) : ℝ) : ℂ) * (N.v 1 [j1, j2] - N.v 0 [j1, j2])) * N.v 8 [a2, b2]) - (((((((2 : Nat) : ℝ) * N.r 7) * N.r 7) : ℝ) : ℂ) * (((((N.r 12 : ℝ) : ℂ) * N.v 2 [j2, a2]) * N.v 5 [j1, b2]) + ((((N.r 13 : ℝ) : ℂ) * N.v 3 [j2, a2]) * N.v 4 [j1, b2]))))) / N.c 0)) + (((((w * N.r 10) : ℝ) : ℂ) * (((((N.r 13 : ℝ) : ℂ) * N.v 4 [j1, a2]) * ((((((-((2 : Nat) : ℝ)) * N.r 1) : ℝ) : ℂ) * N.v 3 [j2, b2]) + N.v 11 [j2, b2])) + ((((N.r 12 : ℝ) : ℂ) * N.v 5 [j1, a2]) * ((((((-((2 : Nat) : ℝ)) * N.r 1) : ℝ) : ℂ) * N.v 2 [j2, b2]) + N.v 12 [b2, j2])))) / N.c 1)) + (((((w * N.r 10) : ℝ) : ℂ) * (((((N.r 12 : ℝ) : ℂ) * N.v 2 [j2, a2]) * (N.v 9 [j1, b2] - ((((((2 : Nat) : ℝ) * N.r 1) : ℝ) : ℂ) * N.v 5 [j1, b2]))) + ((((N.r 13 : ℝ) : ℂ) * N.v 3 [j2, a2]) * (N.v 10 [b2, j1] - ((((((2 : Nat) : ℝ) * N.r 1) : ℝ) : ℂ) * N.v 4 [j1, b2]))))) / N.c 2))
/-- the same with spinors in place of their spins -/
noncomputable def eeZh.form (N : Env) (p : Nat → V4 ℝ) (z0 z1 x2 y2 : Pair) : ℂ :=
  (((0 + (((((((1 : Nat) : ℝ) * N.r 11) : ℝ) : ℂ) * ((((((N.r 1 * (N.r 12 - N.r 13)) : ℝ) : ℂ) * ((ab z0.1 z1.1) - (sb z0.2 z1.2))) * (mb x2.2 (p 3) y2.1)) - (((((((2 : Nat) : ℝ) * N.r 7) * N.r 7) : ℝ) : ℂ) * (((((N.r 12 : ℝ) : ℂ) * (sb z1.2 x2.2)) * (ab z0.1 y2.1)) + ((((N.r 13 : ℝ) : ℂ) * (ab z1.1 x2.1)) * (sb z0.2 y2.2)))))) / N.c 0)) + (((((((1 : Nat) : ℝ) * N.r 10) : ℝ) : ℂ) * (((((N.r 13 : ℝ) : ℂ) * (sb z0.2 x2.2)) * ((((((-((2 : Nat) : ℝ)) * N.r 1) : ℝ) : ℂ) * (ab z1.1 y2.1)) + (mb z1.2 (p 3) y2.1))) + ((((N.r 12 : ℝ) : ℂ) * (ab z0.1 x2.1)) * ((((((-((2 : Nat) : ℝ)) * N.r 1) : ℝ) : ℂ) * (sb z1.2 y2.2)) + (mb y2.2 (p 3) z1.1))))) / N.c 1)) + (((((((1 : Nat) : ℝ) * N.r 10) : ℝ) : ℂ) * (((((N.r 12 : ℝ) : ℂ) * (sb z1.2 x2.2)) * ((mb z0.2 (p 3) y2.1) - ((((((2 : Nat) : ℝ) * N.r 1) : ℝ) : ℂ) * (ab z0.1 y2.1)))) + ((((N.r 13 : ℝ) : ℂ) * (ab z1.1 x2.1)) * ((mb y2.2 (p 3) z0.1) - ((((((2 : Nat) : ℝ) * N.r 1) : ℝ) : ℂ) * (sb z0.2 y2.2)))))) / N.c 2))
theorem eeZh.key {c : Constants} {p : Nat → V4 ℝ} {N : Env} (hc : c.Physical) (hb : Balanced p) (r1 : N.r 1 = (c.mass .e)) (r7 : N.r 7 = (c.MW / c.CW)) (r10 : N.r 10 = ((((√(((2 : Nat) : ℝ)) * c.e) * c.e) * (c.mass .e)) / ((((((4 : Nat) : ℝ) * c.MW) * c.MW) * c.SW) * c.SW))) (r11 : N.r 11 = (((√(((2 : Nat) : ℝ)) * c.e) * c.e) / ((((((4 : Nat) : ℝ) * c.MW) * c.MW) * c.SW) * c.SW))) (r12 : N.r 12 = (((((2 : Nat) : ℝ) * c.SW) * c.SW) - ((1 : Nat) : ℝ))) (r13 : N.r 13 = ((((2 : Nat) : ℝ) * c.SW) * c.SW)) (d0 : pole c.MZ c.WZ (plus (backward (p 2)) (backward (p 3))) = N.c 0) (n0 : N.c 0 ≠ 0) (d1 : ((msq (plus (p 0) (backward (p 2))) - c.mass .e ^ 2 : ℝ) : ℂ) = N.c 1) (n1 : N.c 1 ≠ 0) (d2 : ((msq (plus (p 0) (backward (p 3))) - c.mass .e ^ 2 : ℝ) : ℂ) = N.c 2) (n2 : N.c 2 ≠ 0) {z0 z1 z2 : Pair} (b0 : Bold (p 0) (c.mass .e) z0) (b1 : Bold (p 1) (c.mass .e) z1) (b2 : Bold (p 2) c.MZ z2) (E3 : Vec) :
    eeZh.form N p z0 z1 z2 z2 = -(((√2 / c.MZ : ℝ) : ℂ) * eeZh.react.bare c p 1 0 2 3 z1 z0 (pv z2.1 z2.2) E3) := by
  rw [eeZh.react.bare_parts c p (i := 1) (j := 0) (a := 2) (b := 3) (x := .z) (y := .higgs) (k := (backward (p 2))) (k' := (backward (p 3))) (fun _ => rfl) (fun _ => rfl) (f := .e) (g := .e) rfl rfl (l := (p 0)) rfl (e := -1) (e' := 1) (if_pos rfl) (if_neg Bool.false_ne_true)]
  rw [compton_vh (f := .e) (x := .e) (g := .e) (h := (rfl : Spec.after .z Flavour.e = some Flavour.e)) (h' := (rfl : Spec.after .higgs Flavour.e = some Flavour.e)) (ha := by simp)]
  rw [compton_hv (f := .e) (x := .e) (g := .e) (h := (rfl : Spec.after .higgs Flavour.e = some Flavour.e)) (h' := (rfl : Spec.after .z Flavour.e = some Flavour.e)) (hb := by simp)]
  have an := annihilation_neutral c (-1) (1) z1.1 z1.2 z0.1 z0.2 ⟨.z, (backward (p 2)), pv z2.1 z2.2⟩ ⟨.higgs, (backward (p 3)), E3⟩ .e
  dsimp only at an
  rw [an, eeZh.form]
  clear an
  rw [lineV_massless (hx := (rfl : Boson.massive .photon = false))]
  rw [lineV_massive (hx := (rfl : Boson.massive .z = true))]
  simp only [toHiggs, toVector, higgs2, gauge3, Boson.anti, Constants.bosonMass, Constants.bosonWidth, d0, d1, d2, reduceCtorEq, and_self, and_true, and_false, and_true, if_true, if_false, Complex.ofReal_zero, zero_smul, zero_mul, mul_zero, zero_div, neg_zero, add_zero, zero_add, lineH, lineV_zero, contract_zero, lineV_smul, contract_smul, lineV_pv, lineV_four, contract_four_pv, contract_pv, mb_plus, mb_backward]
  simp only [b0.mb_left, b0.mb_right, b1.mb_left, b1.mb_right, b2.mb_left, b2.mb_right, mb_three hb z0.2 z0.1, mb_three hb z0.2 z1.1, mb_three hb z0.2 z2.1, mb_three hb z1.2 z0.1, mb_three hb z1.2 z1.1, mb_three hb z1.2 z2.1, mb_three hb z2.2 z0.1, mb_three hb z2.2 z1.1, mb_three hb z2.2 z2.1, ab_self, sb_self]
  simp only [ab_swap z0.1 z1.1, sb_swap z0.2 z1.2, ab_swap z0.1 z2.1, sb_swap z0.2 z2.2, ab_swap z1.1 z2.1, sb_swap z1.2 z2.2, r1, r7, r10, r11, r12, r13, Constants.hL, Constants.hR, Constants.gL, Constants.gR, Constants.yuk, Constants.invVev, Flavour.charge_e, Flavour.isospin_e, ← c.mz]
  have xMW : (c.MW : ℂ) ≠ 0 := by exact_mod_cast hc.MW
  have xSW : (c.SW : ℂ) ≠ 0 := by exact_mod_cast hc.SW
  have xCW : (c.CW : ℂ) ≠ 0 := by exact_mod_cast hc.CW
  have x2 : ((√2 : ℝ) : ℂ) ≠ 0 := by exact_mod_cast (Real.sqrt_pos.2 two_pos).ne'
  have x22 : ((√2 : ℝ) : ℂ) ^ 2 = 2 := by rw [← Complex.ofReal_pow, Real.sq_sqrt two_pos.le]; norm_num
  push_cast
  field_simp
  first | ring1 | (ring_nf; simp only [x22]; ring1)
set_option maxRecDepth 8000 in
theorem eeZh.amp2_eq (N : Env) (f : Nat → List Int → ℂ) : Cls.eeZh.m_amp2.mean N f .r [] =
    ((sumJ (fun x a => (sumJ (fun x b => (sumV (fun x c => (x + (‖(f 0 [a, b, c])‖ ^ 2))) x)) x)) ((0 : Nat) : ℝ)) / ((4 : Nat) : ℝ)) := by rfl
set_option maxRecDepth 8000 in
theorem eeZh.value (N : Env) : meaning N .r Cls.eeZh.methods Cls.eeZh.amp2 [] =
    ((sumJ (fun x a => (sumJ (fun x b => (sumV (fun x c => (x + (‖(Cls.eeZh.m_amp.mean N (callMean N []) .c [a, b, c])‖ ^ 2))) x)) x)) ((0 : Nat) : ℝ)) / ((4 : Nat) : ℝ)) :=
  eeZh.amp2_eq N (callMean N [Cls.eeZh.m_amp])
set_option maxRecDepth 8000 in
theorem eeZh.term_lin (N : Env) (w : ℝ) (x : ℂ) (j1 j2 a2 b2 : Int) : eeZh.term N w x j1 j2 a2 b2 = x + (w : ℂ) * eeZh.term N 1 0 j1 j2 a2 b2 := by
  simp only [eeZh.term]; push_cast; ring
theorem eeZh.amp_eq (N : Env) (f : Nat → List Int → ℂ) (j1 j2 : Int) (t2 : Fin 3) : Cls.eeZh.m_amp.mean N f .c [j1, j2, spinV t2] = comb t2 (fun a2 b2 => eeZh.term N 1 0 j1 j2 (spinOf a2) (spinOf b2)) := by
  refine (amp_mean N f (m := 3) (K := 5) (G := fun i => eeZh.term N 1 0 (i 0) (i 1) (i 3) (i 4)) (fun l => ?_) (fun i i' h => ?_) rfl (by decide) (by decide) (by decide) (by decide) (by decide)).trans ?_
  · refine ⟨_, rfl, ?_⟩; exact ⟨rfl, rfl, eeZh.term_lin ..⟩
  · simp only [h 0 (by decide), h 1 (by decide), h 3 (by decide), h 4 (by decide)]
  · show amp' _ [spinV t2] = _
    simp only [amp'_comb, amp'_nil]
    rfl
theorem eeZh.form_x2 (N : Env) (p : Nat → V4 ℝ) (z0 z1 y2 x y : Pair) : eeZh.form N p z0 z1 (x + y) y2 = eeZh.form N p z0 z1 x y2 + eeZh.form N p z0 z1 y y2 := by
  simp only [eeZh.form, Prod.fst_add, Prod.snd_add, ab_add_left, ab_add_right, sb_add_left, sb_add_right, mb_add_left, mb_add_right]
  ring
theorem eeZh.form_y2 (N : Env) (p : Nat → V4 ℝ) (z0 z1 x2 x y : Pair) : eeZh.form N p z0 z1 x2 (x + y) = eeZh.form N p z0 z1 x2 x + eeZh.form N p z0 z1 x2 y := by
  simp only [eeZh.form, Prod.fst_add, Prod.snd_add, ab_add_left, ab_add_right, sb_add_left, sb_add_right, mb_add_left, mb_add_right]
  ring

theorem eeZh.mass_eq {c : Constants} (hc : c.Physical) (i : Fin 4) : eeZh.proc.massNum (eeZh.rho c) i = eeZh.react.mass c i := by
  fin_cases i <;> first | rfl | exact Nat.cast_zero.trans (hc.neutrino _).symm | (show c.MW / √(((1 : Nat) : ℝ) - c.SW * c.SW) = c.MZ; rw [c.root, c.mz])

variable [FPEnv] in
theorem eeZh.agrees : eeZh.Agrees := by
  refine agrees_of (D := [4, 5]) (E := [5]) (by simp [all, eeZh]) (by decide +kernel) (by decide) (by decide +kernel) (fun c hc hh => ⟨List.forall_mem_cons.2 ⟨hc.MW, List.forall_mem_cons.2 ⟨hc.SW, List.forall_mem_nil _⟩⟩, List.forall_mem_cons.2 ⟨hc.SW_lt, List.forall_mem_nil _⟩⟩) (fun c hc i => eeZh.mass_eq hc i) (by decide +kernel) ?_
  intro c p u ε hc hh hw h0 hs hb hr hu
  have he : eeZh.react.ends = [1] := by decide
  have ht : eeZh.react.starts = [0] := by decide
  have hB : eeZh.react.bosons = [2, 3] := by decide
  have hM : eeZh.react.allMassive = true := by decide
  obtain ⟨f1, f2, f3⟩ := eeZh.react.regular_line he ht hB hr
  have r1 : (eeZh.N c p).r 1 = (c.mass .e) := rfl
  have r7 : (eeZh.N c p).r 7 = (c.MW / √((((1 : Nat) : ℝ) - (c.SW * c.SW)))) := rfl
  simp only [c.root] at r7
  have r10 : (eeZh.N c p).r 10 = ((((√(((2 : Nat) : ℝ)) * c.e) * c.e) * (c.mass .e)) / ((((((4 : Nat) : ℝ) * c.MW) * c.MW) * c.SW) * c.SW)) := rfl
  have r11 : (eeZh.N c p).r 11 = (((√(((2 : Nat) : ℝ)) * c.e) * c.e) / ((((((4 : Nat) : ℝ) * c.MW) * c.MW) * c.SW) * c.SW)) := rfl
  have r12 : (eeZh.N c p).r 12 = (((((2 : Nat) : ℝ) * c.SW) * c.SW) - ((1 : Nat) : ℝ)) := rfl
  have r13 : (eeZh.N c p).r 13 = ((((2 : Nat) : ℝ) * c.SW) * c.SW) := rfl
  have c0 : (eeZh.N c p).c 0 = poleDist (c.MW / √((((1 : Nat) : ℝ) - (c.SW * c.SW)))) c.WZ ((VExp.add 0 1).sum p) := rfl
  rw [c.root, c.mz, pole_congr (msq_s hb (plus (backward (p 2)) (backward (p 3))) (by simp)).symm] at c0
  have d0 : pole c.MZ c.WZ (plus (backward (p 2)) (backward (p 3))) = (eeZh.N c p).c 0 := by rw [c0]
  have n0 : (eeZh.N c p).c 0 ≠ 0 := by rw [← d0]; exact star_ne_zero.2 (f3 .z rfl rfl)
  have c1 : (eeZh.N c p).c 1 = poleDist (c.mass .e) ((0 : Nat) : ℝ) ((VExp.sub 0 2).sum p) := rfl
  rw [Nat.cast_zero, pole_fermion (msq_t hb (plus (p 0) (backward (p 2))) (by simp))] at c1
  have d1 : ((msq (plus (p 0) (backward (p 2))) - c.mass .e ^ 2 : ℝ) : ℂ) = (eeZh.N c p).c 1 := by rw [c1]
  have n1 : (eeZh.N c p).c 1 ≠ 0 := by rw [← d1]; exact_mod_cast f1 .e rfl rfl
  have c2 : (eeZh.N c p).c 2 = poleDist (c.mass .e) ((0 : Nat) : ℝ) ((VExp.sub 0 3).sum p) := rfl
  rw [Nat.cast_zero, pole_fermion (msq_u hb (plus (p 0) (backward (p 3))) (by simp))] at c2
  have d2 : ((msq (plus (p 0) (backward (p 3))) - c.mass .e ^ 2 : ℝ) : ℂ) = (eeZh.N c p).c 2 := by rw [c2]
  have n2 : (eeZh.N c p).c 2 ≠ 0 := by rw [← d2]; exact_mod_cast f2 .e rfl rfl
  have m0 : eeZh.react.mass c 0 ≠ 0 := (leg_pos hc hh (by decide)).ne'
  have m1 : eeZh.react.mass c 1 ≠ 0 := (leg_pos hc hh (by decide)).ne'
  have m2 : eeZh.react.mass c 2 ≠ 0 := (leg_pos hc hh (by decide)).ne'
  have hd : eeZh.proc.divides = [(Ty.c, 0), (Ty.c, 1), (Ty.c, 2)] := by decide +kernel
  refine ⟨fun n hn => ?_, fun n hn => ?_, ?_⟩
  · simp [hd] at hn
  · simp [hd] at hn
    rcases hn with rfl | rfl | rfl
    · exact n0
    · exact n1
    · exact n2
  have st : ∀ {z0 z1 : Pair} (b0 : Bold (p 0) (eeZh.react.mass c 0) z0) (b1 : Bold (p 1) (eeZh.react.mass c 1) z1) (t2 : Fin 3), comb t2 (fun a2 b2 => eeZh.form (eeZh.N c p) p z0 z1 (eeZh.react.codePair c p 2 a2) (eeZh.react.codePair c p 2 b2)) = (-1) * eeZh.react.bare c p 1 0 2 3 z1 z0 (eeZh.react.codeVec c p 2 t2) (eeZh.react.codeVec c p 3 0) := by
    intro z0 z1 b0 b1 t2
    refine one_vector (p := p 2) (m := eeZh.react.mass c 2) (fun s => eeZh.react.codePair_bold hs h0 2 s) (B := fun x y => eeZh.form (eeZh.N c p) p z0 z1 x y) (G := fun E => eeZh.react.bare c p 1 0 2 3 z1 z0 E (eeZh.react.codeVec c p 3 0)) (fun x y z => ?_) (fun x y z => ?_) (eeZh.react.bare_lin₁ c p _ _ _ (by decide)) (-1) (fun z2 b2 => ?_) t2
    · exact eeZh.form_x2 ..
    · exact eeZh.form_y2 ..
    · rw [neg_one_mul]; exact eeZh.key hc hb r1 r7 r10 r11 r12 r13 d0 n0 d1 n1 d2 n2 b0 b1 b2 (eeZh.react.codeVec c p 3 0)
  have am : ∀ (s0 : Fin 2) (s1 : Fin 2) (t2 : Fin 3), Cls.eeZh.m_amp.mean (eeZh.N c p) (callMean (eeZh.N c p) []) .c [spinOf s0, spinOf s1, spinV t2] = (-1) * eeZh.react.bare c p 1 0 2 3 (eeZh.react.codePair c p 1 s1) (eeZh.react.codePair c p 0 s0) (eeZh.react.codeVec c p 2 t2) (eeZh.react.codeVec c p 3 0) := by
    intro s0 s1 t2
    rw [eeZh.amp_eq, ← st (eeZh.react.codePair_bold hs h0 0 s0) (eeZh.react.codePair_bold hs h0 1 s1) t2]
    refine congrArg (comb t2) (funext fun a2 => funext fun b2 => ?_)
    have v1z0z1 : (eeZh.N c p).v 1 [spinOf s0, spinOf s1] = ab (eeZh.react.codePair c p 0 s0).1 (eeZh.react.codePair c p 1 s1).1 := bra_angle (p := p) (m := eeZh.proc.massNum (eeZh.rho c)) (eeZh.mass_eq hc 0) (eeZh.mass_eq hc 1) (.inl ⟨m0, rfl⟩) (.inl ⟨m1, rfl⟩)
    have v0z0z1 : (eeZh.N c p).v 0 [spinOf s0, spinOf s1] = sb (eeZh.react.codePair c p 0 s0).2 (eeZh.react.codePair c p 1 s1).2 := bra_square (p := p) (m := eeZh.proc.massNum (eeZh.rho c)) (eeZh.mass_eq hc 0) (eeZh.mass_eq hc 1) (.inl ⟨m0, rfl⟩) (.inl ⟨m1, rfl⟩)
    have v8x2y2 : (eeZh.N c p).v 8 [spinOf a2, spinOf b2] = mb (eeZh.react.codePair c p 2 a2).2 (p 3) (eeZh.react.codePair c p 2 b2).1 := bra_mid_square (p := p) (m := eeZh.proc.massNum (eeZh.rho c)) (eeZh.mass_eq hc 2) (eeZh.mass_eq hc 2) (.inl ⟨m2, rfl⟩) (.inl ⟨m2, rfl⟩)
    have v2z1x2 : (eeZh.N c p).v 2 [spinOf s1, spinOf a2] = sb (eeZh.react.codePair c p 1 s1).2 (eeZh.react.codePair c p 2 a2).2 := bra_square (p := p) (m := eeZh.proc.massNum (eeZh.rho c)) (eeZh.mass_eq hc 1) (eeZh.mass_eq hc 2) (.inl ⟨m1, rfl⟩) (.inl ⟨m2, rfl⟩)
    have v5z0y2 : (eeZh.N c p).v 5 [spinOf s0, spinOf b2] = ab (eeZh.react.codePair c p 0 s0).1 (eeZh.react.codePair c p 2 b2).1 := bra_angle (p := p) (m := eeZh.proc.massNum (eeZh.rho c)) (eeZh.mass_eq hc 0) (eeZh.mass_eq hc 2) (.inl ⟨m0, rfl⟩) (.inl ⟨m2, rfl⟩)
    have v3z1x2 : (eeZh.N c p).v 3 [spinOf s1, spinOf a2] = ab (eeZh.react.codePair c p 1 s1).1 (eeZh.react.codePair c p 2 a2).1 := bra_angle (p := p) (m := eeZh.proc.massNum (eeZh.rho c)) (eeZh.mass_eq hc 1) (eeZh.mass_eq hc 2) (.inl ⟨m1, rfl⟩) (.inl ⟨m2, rfl⟩)
    have v4z0y2 : (eeZh.N c p).v 4 [spinOf s0, spinOf b2] = sb (eeZh.react.codePair c p 0 s0).2 (eeZh.react.codePair c p 2 b2).2 := bra_square (p := p) (m := eeZh.proc.massNum (eeZh.rho c)) (eeZh.mass_eq hc 0) (eeZh.mass_eq hc 2) (.inl ⟨m0, rfl⟩) (.inl ⟨m2, rfl⟩)
    have v4z0x2 : (eeZh.N c p).v 4 [spinOf s0, spinOf a2] = sb (eeZh.react.codePair c p 0 s0).2 (eeZh.react.codePair c p 2 a2).2 := bra_square (p := p) (m := eeZh.proc.massNum (eeZh.rho c)) (eeZh.mass_eq hc 0) (eeZh.mass_eq hc 2) (.inl ⟨m0, rfl⟩) (.inl ⟨m2, rfl⟩)
    have v3z1y2 : (eeZh.N c p).v 3 [spinOf s1, spinOf b2] = ab (eeZh.react.codePair c p 1 s1).1 (eeZh.react.codePair c p 2 b2).1 := bra_angle (p := p) (m := eeZh.proc.massNum (eeZh.rho c)) (eeZh.mass_eq hc 1) (eeZh.mass_eq hc 2) (.inl ⟨m1, rfl⟩) (.inl ⟨m2, rfl⟩)
    have v11z1y2 : (eeZh.N c p).v 11 [spinOf s1, spinOf b2] = mb (eeZh.react.codePair c p 1 s1).2 (p 3) (eeZh.react.codePair c p 2 b2).1 := bra_mid_square (p := p) (m := eeZh.proc.massNum (eeZh.rho c)) (eeZh.mass_eq hc 1) (eeZh.mass_eq hc 2) (.inl ⟨m1, rfl⟩) (.inl ⟨m2, rfl⟩)
    have v5z0x2 : (eeZh.N c p).v 5 [spinOf s0, spinOf a2] = ab (eeZh.react.codePair c p 0 s0).1 (eeZh.react.codePair c p 2 a2).1 := bra_angle (p := p) (m := eeZh.proc.massNum (eeZh.rho c)) (eeZh.mass_eq hc 0) (eeZh.mass_eq hc 2) (.inl ⟨m0, rfl⟩) (.inl ⟨m2, rfl⟩)
    have v2z1y2 : (eeZh.N c p).v 2 [spinOf s1, spinOf b2] = sb (eeZh.react.codePair c p 1 s1).2 (eeZh.react.codePair c p 2 b2).2 := bra_square (p := p) (m := eeZh.proc.massNum (eeZh.rho c)) (eeZh.mass_eq hc 1) (eeZh.mass_eq hc 2) (.inl ⟨m1, rfl⟩) (.inl ⟨m2, rfl⟩)
    have v12y2z1 : (eeZh.N c p).v 12 [spinOf b2, spinOf s1] = mb (eeZh.react.codePair c p 2 b2).2 (p 3) (eeZh.react.codePair c p 1 s1).1 := bra_mid_square (p := p) (m := eeZh.proc.massNum (eeZh.rho c)) (eeZh.mass_eq hc 2) (eeZh.mass_eq hc 1) (.inl ⟨m2, rfl⟩) (.inl ⟨m1, rfl⟩)
    have v9z0y2 : (eeZh.N c p).v 9 [spinOf s0, spinOf b2] = mb (eeZh.react.codePair c p 0 s0).2 (p 3) (eeZh.react.codePair c p 2 b2).1 := bra_mid_square (p := p) (m := eeZh.proc.massNum (eeZh.rho c)) (eeZh.mass_eq hc 0) (eeZh.mass_eq hc 2) (.inl ⟨m0, rfl⟩) (.inl ⟨m2, rfl⟩)
    have v10y2z0 : (eeZh.N c p).v 10 [spinOf b2, spinOf s0] = mb (eeZh.react.codePair c p 2 b2).2 (p 3) (eeZh.react.codePair c p 0 s0).1 := bra_mid_square (p := p) (m := eeZh.proc.massNum (eeZh.rho c)) (eeZh.mass_eq hc 2) (eeZh.mass_eq hc 0) (.inl ⟨m2, rfl⟩) (.inl ⟨m0, rfl⟩)
    simp only [eeZh.term, eeZh.form, v1z0z1, v0z0z1, v8x2y2, v2z1x2, v5z0y2, v3z1x2, v4z0y2, v4z0x2, v3z1y2, v11z1y2, v5z0x2, v2z1y2, v12y2z1, v9z0y2, v10y2z0]
    push_cast
    ring
  show meaning (eeZh.N c p) .r Cls.eeZh.methods Cls.eeZh.amp2 [] = _
  have lc : eeZh.react.lineColours 1 0 = 1 := by decide +kernel
  have s0 : eeZh.react.states 0 = 2 := by decide
  have s1 : eeZh.react.states 1 = 2 := by decide
  have sy : eeZh.react.symmetry = 1 := by decide
  have p0 : eeZh.react.spins 0 = {0, 1} := rfl
  have p1 : eeZh.react.spins 1 = {0, 1} := rfl
  have p2 : eeZh.react.spins 2 = Finset.univ := rfl
  have p3 : eeZh.react.spins 3 = {0} := rfl
  rw [eeZh.value, eeZh.react.squared_line he ht hB (noGluon_of hM) hs h0 (fun _ b _ hb _ => (boson_pos hc hh hb).ne') (eeZh.react.gauge_massive (massive_of hM)) (E := eeZh.react.codeVec c p) (fun n b hl => eeZh.react.codeVec_polarised hs h0 hl (massive_of hM n b hl) (fun _ => (boson_pos hc hh (massive_of hM n b hl)).ne')) hu, sum_colours, lc, s0, s1, sy]
  simp only [sumV_sum, sumJ_sum, am, norm_mul, norm_neg, norm_one, one_mul, p0, p1, p2, p3, Finset.sum_singleton, sum_two, Matrix.cons_val_zero, Matrix.cons_val_one, Matrix.cons_val, two_castSucc]
  try simp only [← Finset.mul_sum]
  push_cast
  first | ring1 | ring_nf

/-! ### ddZh -/

/-- what the methods of the class see -/
noncomputable abbrev ddZh.N [FPEnv] (c : Constants) (p : Nat → V4 ℝ) : Env := ddZh.proc.env (ddZh.rho c) p
/-- the term that `amp` adds for a choice of spinors (SM/ddZh.cpp) -/
noncomputable def ddZh.term (N : Env) (w : ℝ) (x : ℂ) (j1 j2 a2 b2 : Int) : ℂ :=
  (((x + (((((w * N.r 11) : ℝ) : ℂ) * ((((((N.r 1 * (N.r 12 - N.r 13)) : ℝ) : ℂ) * (N.v 1 [j1, j2] - N.v 0 [j1, j2])) * N.v 8 [a2, b2]) - (((((((2 : Nat) : ℝ) * N.r 7) * N.r 7) : ℝ) : ℂ) * (((((N.r 12 : ℝ) : ℂ) * N.v 2 [j2, a2]) * N.v 5 [j1, b2]) + ((((N.r 13 : ℝ) : ℂ) * N.v 3 [j2, a2]) * N.v 4 [j1, b2]))))) / N.c 0)) + (((((w * N.r 10) : ℝ) : ℂ) * (((((N.r 13 : ℝ) : ℂ) * N.v 4 [j1, a2]) * ((((((-((2 : Nat) : ℝ)) * N.r 1) : ℝ) : ℂ) * N.v 3 [j2, b2]) + N.v 11 [j2, b2])) + ((((N.r 12 : ℝ) : ℂ) * N.v 5 [j1, a2]) * ((((((-((2 : Nat) : ℝ)) * N.r 1) : ℝ) : ℂ) * N.v 2 [j2, b2]) + N.v 12 [b2, j2])))) / N.c 1)) + (((((w * N.r 10) : ℝ) : ℂ) * (((((N.r 12 : ℝ) : ℂ) * N.v 2 [j2, a2]) * (N.v 9 [j1, b2] - ((((((2 : Nat) : ℝ) * N.r 1) : ℝ) : ℂ) * N.v 5 [j1, b2]))) + ((((N.r 13 : ℝ) : ℂ) * N.v 3 [j2, a2]) * (N.v 10 [b2, j1] - ((((((2 : Nat) : ℝ) * N.r 1) : ℝ) : ℂ) * N.v 4 [j1, b2]))))) / N.c 2))
/-- the same with spinors in place of their spins -/
noncomputable def ddZh.form (N : Env) (p : Nat → V4 ℝ) (z0 z1 x2 y2 : Pair) : ℂ :=
  (((0 + (((((((1 : Nat) : ℝ) * N.r 11) : ℝ) : ℂ) * ((((((N.r 1 * (N.r 12 - N.r 13)) : ℝ) : ℂ) * ((ab z0.1 z1.1) - (sb z0.2 z1.2))) * (mb x2.2 (p 3) y2.1)) - (((((((2 : Nat) : ℝ) * N.r 7) * N.r 7) : ℝ) : ℂ) * (((((N.r 12 : ℝ) : ℂ) * (sb z1.2 x2.2)) * (ab z0.1 y2.1)) + ((((N.r 13 : ℝ) : ℂ) * (ab z1.1 x2.1)) * (sb z0.2 y2.2)))))) / N.c 0)) + (((((((1 : Nat) : ℝ) * N.r 10) : ℝ) : ℂ) * (((((N.r 13 : ℝ) : ℂ) * (sb z0.2 x2.2)) * ((((((-((2 : Nat) : ℝ)) * N.r 1) : ℝ) : ℂ) * (ab z1.1 y2.1)) + (mb z1.2 (p 3) y2.1))) + ((((N.r 12 : ℝ) : ℂ) * (ab z0.1 x2.1)) * ((((((-((2 : Nat) : ℝ)) * N.r 1) : ℝ) : ℂ) * (sb z1.2 y2.2)) + (mb y2.2 (p 3) z1.1))))) / N.c 1)) + (((((((1 : Nat) : ℝ) * N.r 10) : ℝ) : ℂ) * (((((N.r 12 : ℝ) : ℂ) * (sb z1.2 x2.2)) * ((mb z0.2 (p 3) y2.1) - ((((((2 : Nat) : ℝ) * N.r 1) : ℝ) : ℂ) * (ab z0.1 y2.1)))) + ((((N.r 13 : ℝ) : ℂ) * (ab z1.1 x2.1)) * ((mb y2.2 (p 3) z0.1) - ((((((2 : Nat) : ℝ) * N.r 1) : ℝ) : ℂ) * (sb z0.2 y2.2)))))) / N.c 2))
theorem ddZh.key {c : Constants} {p : Nat → V4 ℝ} {N : Env} (hc : c.Physical) (hb : Balanced p) (r1 : N.r 1 = (c.mass .d)) (r7 : N.r 7 = (c.MW / c.CW)) (r10 : N.r 10 = ((((√(((2 : Nat) : ℝ)) * c.e) * c.e) * (c.mass .d)) / ((((((4 : Nat) : ℝ) * c.MW) * c.MW) * c.SW) * c.SW))) (r11 : N.r 11 = (((√(((2 : Nat) : ℝ)) * c.e) * c.e) / ((((((4 : Nat) : ℝ) * c.MW) * c.MW) * c.SW) * c.SW))) (r12 : N.r 12 = ((((((2 : Nat) : ℝ) / ((3 : Nat) : ℝ)) * c.SW) * c.SW) - ((1 : Nat) : ℝ))) (r13 : N.r 13 = (((((2 : Nat) : ℝ) / ((3 : Nat) : ℝ)) * c.SW) * c.SW)) (d0 : pole c.MZ c.WZ (plus (backward (p 2)) (backward (p 3))) = N.c 0) (n0 : N.c 0 ≠ 0) (d1 : ((msq (plus (p 0) (backward (p 2))) - c.mass .d ^ 2 : ℝ) : ℂ) = N.c 1) (n1 : N.c 1 ≠ 0) (d2 : ((msq (plus (p 0) (backward (p 3))) - c.mass .d ^ 2 : ℝ) : ℂ) = N.c 2) (n2 : N.c 2 ≠ 0) {z0 z1 z2 : Pair} (b0 : Bold (p 0) (c.mass .d) z0) (b1 : Bold (p 1) (c.mass .d) z1) (b2 : Bold (p 2) c.MZ z2) (E3 : Vec) :
    ddZh.form N p z0 z1 z2 z2 = -(((√2 / c.MZ : ℝ) : ℂ) * ddZh.react.bare c p 1 0 2 3 z1 z0 (pv z2.1 z2.2) E3) := by
  rw [ddZh.react.bare_parts c p (i := 1) (j := 0) (a := 2) (b := 3) (x := .z) (y := .higgs) (k := (backward (p 2))) (k' := (backward (p 3))) (fun _ => rfl) (fun _ => rfl) (f := .d) (g := .d) rfl rfl (l := (p 0)) rfl (e := -1) (e' := 1) (if_pos rfl) (if_neg Bool.false_ne_true)]
  rw [compton_vh (f := .d) (x := .d) (g := .d) (h := (rfl : Spec.after .z Flavour.d = some Flavour.d)) (h' := (rfl : Spec.after .higgs Flavour.d = some Flavour.d)) (ha := by simp)]
  rw [compton_hv (f := .d) (x := .d) (g := .d) (h := (rfl : Spec.after .higgs Flavour.d = some Flavour.d)) (h' := (rfl : Spec.after .z Flavour.d = some Flavour.d)) (hb := by simp)]
  have an := annihilation_neutral c (-1) (1) z1.1 z1.2 z0.1 z0.2 ⟨.z, (backward (p 2)), pv z2.1 z2.2⟩ ⟨.higgs, (backward (p 3)), E3⟩ .d
  dsimp only at an
  rw [an, ddZh.form]
  clear an
  rw [lineV_massless (hx := (rfl : Boson.massive .photon = false))]
  rw [lineV_massive (hx := (rfl : Boson.massive .z = true))]
  simp only [toHiggs, toVector, higgs2, gauge3, Boson.anti, Constants.bosonMass, Constants.bosonWidth, d0, d1, d2, reduceCtorEq, and_self, and_true, and_false, and_true, if_true, if_false, Complex.ofReal_zero, zero_smul, zero_mul, mul_zero, zero_div, neg_zero, add_zero, zero_add, lineH, lineV_zero, contract_zero, lineV_smul, contract_smul, lineV_pv, lineV_four, contract_four_pv, contract_pv, mb_plus, mb_backward]
  simp only [b0.mb_left, b0.mb_right, b1.mb_left, b1.mb_right, b2.mb_left, b2.mb_right, mb_three hb z0.2 z0.1, mb_three hb z0.2 z1.1, mb_three hb z0.2 z2.1, mb_three hb z1.2 z0.1, mb_three hb z1.2 z1.1, mb_three hb z1.2 z2.1, mb_three hb z2.2 z0.1, mb_three hb z2.2 z1.1, mb_three hb z2.2 z2.1, ab_self, sb_self]
  simp only [ab_swap z0.1 z1.1, sb_swap z0.2 z1.2, ab_swap z0.1 z2.1, sb_swap z0.2 z2.2, ab_swap z1.1 z2.1, sb_swap z1.2 z2.2, r1, r7, r10, r11, r12, r13, Constants.hL, Constants.hR, Constants.gL, Constants.gR, Constants.yuk, Constants.invVev, Flavour.charge_d, Flavour.isospin_d, ← c.mz]
  have xMW : (c.MW : ℂ) ≠ 0 := by exact_mod_cast hc.MW
  have xSW : (c.SW : ℂ) ≠ 0 := by exact_mod_cast hc.SW
  have xCW : (c.CW : ℂ) ≠ 0 := by exact_mod_cast hc.CW
  have x2 : ((√2 : ℝ) : ℂ) ≠ 0 := by exact_mod_cast (Real.sqrt_pos.2 two_pos).ne'
  have x22 : ((√2 : ℝ) : ℂ) ^ 2 = 2 := by rw [← Complex.ofReal_pow, Real.sq_sqrt two_pos.le]; norm_num
  push_cast
  field_simp
  first | ring1 | (ring_nf; simp only [x22]; ring1)
set_option maxRecDepth 8000 in
theorem ddZh.amp2_eq (N : Env) (f : Nat → List Int → ℂ) : Cls.ddZh.m_amp2.mean N f .r [] =
    ((sumJ (fun x a => (sumJ (fun x b => (sumV (fun x c => (x + (((3 : Nat) : ℝ) * (‖(f 0 [a, b, c])‖ ^ 2)))) x)) x)) ((0 : Nat) : ℝ)) / ((36 : Nat) : ℝ)) := by rfl
set_option maxRecDepth 8000 in
theorem ddZh.value (N : Env) : meaning N .r Cls.ddZh.methods Cls.ddZh.amp2 [] =
    ((sumJ (fun x a => (sumJ (fun x b => (sumV (fun x c => (x + (((3 : Nat) : ℝ) * (‖(Cls.ddZh.m_amp.mean N (callMean N []) .c [a, b, c])‖ ^ 2)))) x)) x)) ((0 : Nat) : ℝ)) / ((36 : Nat) : ℝ)) :=
  ddZh.amp2_eq N (callMean N [Cls.ddZh.m_amp])
set_option maxRecDepth 8000 in
theorem ddZh.term_lin (N : Env) (w : ℝ) (x : ℂ) (j1 j2 a2 b2 : Int) : ddZh.term N w x j1 j2 a2 b2 = x + (w : ℂ) * ddZh.term N 1 0 j1 j2 a2 b2 := by
  simp only [ddZh.term]; push_cast; ring
theorem ddZh.amp_eq (N : Env) (f : Nat → List Int → ℂ) (j1 j2 : Int) (t2 : Fin 3) : Cls.ddZh.m_amp.mean N f .c [j1, j2, spinV t2] = comb t2 (fun a2 b2 => ddZh.term N 1 0 j1 j2 (spinOf a2) (spinOf b2)) := by
  refine (amp_mean N f (m := 3) (K := 5) (G := fun i => ddZh.term N 1 0 (i 0) (i 1) (i 3) (i 4)) (fun l => ?_) (fun i i' h => ?_) rfl (by decide) (by decide) (by decide) (by decide) (by decide)).trans ?_
  · refine ⟨_, rfl, ?_⟩; exact ⟨rfl, rfl, ddZh.term_lin ..⟩
  · simp only [h 0 (by decide), h 1 (by decide), h 3 (by decide), h 4 (by decide)]
  · show amp' _ [spinV t2] = _
    simp only [amp'_comb, amp'_nil]
    rfl
theorem ddZh.form_x2 (N : Env) (p : Nat → V4 ℝ) (z0 z1 y2 x y : Pair) : ddZh.form N p z0 z1 (x + y) y2 = ddZh.form N p z0 z1 x y2 + ddZh.form N p z0 z1 y y2 := by
  simp only [ddZh.form, Prod.fst_add, Prod.snd_add, ab_add_left, ab_add_right, sb_add_left, sb_add_right, mb_add_left, mb_add_right]
  ring
theorem ddZh.form_y2 (N : Env) (p : Nat → V4 ℝ) (z0 z1 x2 x y : Pair) : ddZh.form N p z0 z1 x2 (x + y) = ddZh.form N p z0 z1 x2 x + ddZh.form N p z0 z1 x2 y := by
  simp only [ddZh.form, Prod.fst_add, Prod.snd_add, ab_add_left, ab_add_right, sb_add_left, sb_add_right, mb_add_left, mb_add_right]
  ring

theorem ddZh.mass_eq {c : Constants} (hc : c.Physical) (i : Fin 4) : ddZh.proc.massNum (ddZh.rho c) i = ddZh.react.mass c i := by
  fin_cases i <;> first | rfl | exact Nat.cast_zero.trans (hc.neutrino _).symm | (show c.MW / √(((1 : Nat) : ℝ) - c.SW * c.SW) = c.MZ; rw [c.root, c.mz])

variable [FPEnv] in
theorem ddZh.agrees : ddZh.Agrees := by
  refine agrees_of (D := [4, 5]) (E := [5]) (by simp [all, ddZh]) (by decide +kernel) (by decide) (by decide +kernel) (fun c hc hh => ⟨List.forall_mem_cons.2 ⟨hc.MW, List.forall_mem_cons.2 ⟨hc.SW, List.forall_mem_nil _⟩⟩, List.forall_mem_cons.2 ⟨hc.SW_lt, List.forall_mem_nil _⟩⟩) (fun c hc i => ddZh.mass_eq hc i) (by decide +kernel) ?_
  intro c p u ε hc hh hw h0 hs hb hr hu
  have he : ddZh.react.ends = [1] := by decide
  have ht : ddZh.react.starts = [0] := by decide
  have hB : ddZh.react.bosons = [2, 3] := by decide
  have hM : ddZh.react.allMassive = true := by decide
  obtain ⟨f1, f2, f3⟩ := ddZh.react.regular_line he ht hB hr
  have r1 : (ddZh.N c p).r 1 = (c.mass .d) := rfl
  have r7 : (ddZh.N c p).r 7 = (c.MW / √((((1 : Nat) : ℝ) - (c.SW * c.SW)))) := rfl
  simp only [c.root] at r7
  have r10 : (ddZh.N c p).r 10 = ((((√(((2 : Nat) : ℝ)) * c.e) * c.e) * (c.mass .d)) / ((((((4 : Nat) : ℝ) * c.MW) * c.MW) * c.SW) * c.SW)) := rfl
  have r11 : (ddZh.N c p).r 11 = (((√(((2 : Nat) : ℝ)) * c.e) * c.e) / ((((((4 : Nat) : ℝ) * c.MW) * c.MW) * c.SW) * c.SW)) := rfl
  have r12 : (ddZh.N c p).r 12 = ((((((2 : Nat) : ℝ) / ((3 : Nat) : ℝ)) * c.SW) * c.SW) - ((1 : Nat) : ℝ)) := rfl
  have r13 : (ddZh.N c p).r 13 = (((((2 : Nat) : ℝ) / ((3 : Nat) : ℝ)) * c.SW) * c.SW) := rfl
  have c0 : (ddZh.N c p).c 0 = poleDist (c.MW / √((((1 : Nat) : ℝ) - (c.SW * c.SW)))) c.WZ ((VExp.add 0 1).sum p) := rfl
  rw [c.root, c.mz, pole_congr (msq_s hb (plus (backward (p 2)) (backward (p 3))) (by simp)).symm] at c0
  have d0 : pole c.MZ c.WZ (plus (backward (p 2)) (backward (p 3))) = (ddZh.N c p).c 0 := by rw [c0]
  have n0 : (ddZh.N c p).c 0 ≠ 0 := by rw [← d0]; exact star_ne_zero.2 (f3 .z rfl rfl)
  have c1 : (ddZh.N c p).c 1 = poleDist (c.mass .d) ((0 : Nat) : ℝ) ((VExp.sub 0 2).sum p) := rfl
  rw [Nat.cast_zero, pole_fermion (msq_t hb (plus (p 0) (backward (p 2))) (by simp))] at c1
  have d1 : ((msq (plus (p 0) (backward (p 2))) - c.mass .d ^ 2 : ℝ) : ℂ) = (ddZh.N c p).c 1 := by rw [c1]
  have n1 : (ddZh.N c p).c 1 ≠ 0 := by rw [← d1]; exact_mod_cast f1 .d rfl rfl
  have c2 : (ddZh.N c p).c 2 = poleDist (c.mass .d) ((0 : Nat) : ℝ) ((VExp.sub 0 3).sum p) := rfl
  rw [Nat.cast_zero, pole_fermion (msq_u hb (plus (p 0) (backward (p 3))) (by simp))] at c2
  have d2 : ((msq (plus (p 0) (backward (p 3))) - c.mass .d ^ 2 : ℝ) : ℂ) = (ddZh.N c p).c 2 := by rw [c2]
  have n2 : (ddZh.N c p).c 2 ≠ 0 := by rw [← d2]; exact_mod_cast f2 .d rfl rfl
  have m0 : ddZh.react.mass c 0 ≠ 0 := (leg_pos hc hh (by decide)).ne'
  have m1 : ddZh.react.mass c 1 ≠ 0 := (leg_pos hc hh (by decide)).ne'
  have m2 : ddZh.react.mass c 2 ≠ 0 := (leg_pos hc hh (by decide)).ne'
  have hd : ddZh.proc.divides = [(Ty.c, 0), (Ty.c, 1), (Ty.c, 2)] := by decide +kernel
  refine ⟨fun n hn => ?_, fun n hn => ?_, ?_⟩
  · simp [hd] at hn
  · simp [hd] at hn
    rcases hn with rfl | rfl | rfl
    · exact n0
    · exact n1
    · exact n2
  have st : ∀ {z0 z1 : Pair} (b0 : Bold (p 0) (ddZh.react.mass c 0) z0) (b1 : Bold (p 1) (ddZh.react.mass c 1) z1) (t2 : Fin 3), comb t2 (fun a2 b2 => ddZh.form (ddZh.N c p) p z0 z1 (ddZh.react.codePair c p 2 a2) (ddZh.react.codePair c p 2 b2)) = (-1) * ddZh.react.bare c p 1 0 2 3 z1 z0 (ddZh.react.codeVec c p 2 t2) (ddZh.react.codeVec c p 3 0) := by
    intro z0 z1 b0 b1 t2
    refine one_vector (p := p 2) (m := ddZh.react.mass c 2) (fun s => ddZh.react.codePair_bold hs h0 2 s) (B := fun x y => ddZh.form (ddZh.N c p) p z0 z1 x y) (G := fun E => ddZh.react.bare c p 1 0 2 3 z1 z0 E (ddZh.react.codeVec c p 3 0)) (fun x y z => ?_) (fun x y z => ?_) (ddZh.react.bare_lin₁ c p _ _ _ (by decide)) (-1) (fun z2 b2 => ?_) t2
    · exact ddZh.form_x2 ..
    · exact ddZh.form_y2 ..
    · rw [neg_one_mul]; exact ddZh.key hc hb r1 r7 r10 r11 r12 r13 d0 n0 d1 n1 d2 n2 b0 b1 b2 (ddZh.react.codeVec c p 3 0)
  have am : ∀ (s0 : Fin 2) (s1 : Fin 2) (t2 : Fin 3), Cls.ddZh.m_amp.mean (ddZh.N c p) (callMean (ddZh.N c p) []) .c [spinOf s0, spinOf s1, spinV t2] = (-1) * ddZh.react.bare c p 1 0 2 3 (ddZh.react.codePair c p 1 s1) (ddZh.react.codePair c p 0 s0) (ddZh.react.codeVec c p 2 t2) (ddZh.react.codeVec c p 3 0) := by
    intro s0 s1 t2
    rw [ddZh.amp_eq, ← st (ddZh.react.codePair_bold hs h0 0 s0) (ddZh.react.codePair_bold hs h0 1 s1) t2]
    refine congrArg (comb t2) (funext fun a2 => funext fun b2 => ?_)
    have v1z0z1 : (ddZh.N c p).v 1 [spinOf s0, spinOf s1] = ab (ddZh.react.codePair c p 0 s0).1 (ddZh.react.codePair c p 1 s1).1 := bra_angle (p := p) (m := ddZh.proc.massNum (ddZh.rho c)) (ddZh.mass_eq hc 0) (ddZh.mass_eq hc 1) (.inl ⟨m0, rfl⟩) (.inl ⟨m1, rfl⟩)
    have v0z0z1 : (ddZh.N c p).v 0 [spinOf s0, spinOf s1] = sb (ddZh.react.codePair c p 0 s0).2 (ddZh.react.codePair c p 1 s1).2 := bra_square (p := p) (m := ddZh.proc.massNum (ddZh.rho c)) (ddZh.mass_eq hc 0) (ddZh.mass_eq hc 1) (.inl ⟨m0, rfl⟩) (.inl ⟨m1, rfl⟩)
    have v8x2y2 : (ddZh.N c p).v 8 [spinOf a2, spinOf b2] = mb (ddZh.react.codePair c p 2 a2).2 (p 3) (ddZh.react.codePair c p 2 b2).1 := bra_mid_square (p := p) (m := ddZh.proc.massNum (ddZh.rho c)) (ddZh.mass_eq hc 2) (ddZh.mass_eq hc 2) (.inl ⟨m2, rfl⟩) (.inl ⟨m2, rfl⟩)
    have v2z1x2 : (ddZh.N c p).v 2 [spinOf s1, spinOf a2] = sb (ddZh.react.codePair c p 1 s1).2 (ddZh.react.codePair c p 2 a2).2 := bra_square (p := p) (m := ddZh.proc.massNum (ddZh.rho c)) (ddZh.mass_eq hc 1) (ddZh.mass_eq hc 2) (.inl ⟨m1, rfl⟩) (.inl ⟨m2, rfl⟩)
    have v5z0y2 : (ddZh.N c p).v 5 [spinOf s0, spinOf b2] = ab (ddZh.react.codePair c p 0 s0).1 (ddZh.react.codePair c p 2 b2).1 := bra_angle (p := p) (m := ddZh.proc.massNum (ddZh.rho c)) (ddZh.mass_eq hc 0) (ddZh.mass_eq hc 2) (.inl ⟨m0, rfl⟩) (.inl ⟨m2, rfl⟩)
    have v3z1x2 : (ddZh.N c p).v 3 [spinOf s1, spinOf a2] = ab (ddZh.react.codePair c p 1 s1).1 (ddZh.react.codePair c p 2 a2).1 := bra_angle (p := p) (m := ddZh.proc.massNum (ddZh.rho c)) (ddZh.mass_eq hc 1) (ddZh.mass_eq hc 2) (.inl ⟨m1, rfl⟩) (.inl ⟨m2, rfl⟩)
    have v4z0y2 : (ddZh.N c p).v 4 [spinOf s0, spinOf b2] = sb (ddZh.react.codePair c p 0 s0).2 (ddZh.react.codePair c p 2 b2).2 := bra_square (p := p) (m := ddZh.proc.massNum (ddZh.rho c)) (ddZh.mass_eq hc 0) (ddZh.mass_eq hc 2) (.inl ⟨m0, rfl⟩) (.inl ⟨m2, rfl⟩)
    have v4z0x2 : (ddZh.N c p).v 4 [spinOf s0, spinOf a2] = sb (ddZh.react.codePair c p 0 s0).2 (ddZh.react.codePair c p 2 a2).2 := bra_square (p := p) (m := ddZh.proc.massNum (ddZh.rho c)) (ddZh.mass_eq hc 0) (ddZh.mass_eq hc 2) (.inl ⟨m0, rfl⟩) (.inl ⟨m2, rfl⟩)
    have v3z1y2 : (ddZh.N c p).v 3 [spinOf s1, spinOf b2] = ab (ddZh.react.codePair c p 1 s1).1 (ddZh.react.codePair c p 2 b2).1 := bra_angle (p := p) (m := ddZh.proc.massNum (ddZh.rho c)) (ddZh.mass_eq hc 1) (ddZh.mass_eq hc 2) (.inl ⟨m1, rfl⟩) (.inl ⟨m2, rfl⟩)
    have v11z1y2 : (ddZh.N c p).v 11 [spinOf s1, spinOf b2] = mb (ddZh.react.codePair c p 1 s1).2 (p 3) (ddZh.react.codePair c p 2 b2).1 := bra_mid_square (p := p) (m := ddZh.proc.massNum (ddZh.rho c)) (ddZh.mass_eq hc 1) (ddZh.mass_eq hc 2) (.inl ⟨m1, rfl⟩) (.inl ⟨m2, rfl⟩)
    have v5z0x2 : (ddZh.N c p).v 5 [spinOf s0, spinOf a2] = ab (ddZh.react.codePair c p 0 s0).1 (ddZh.react.codePair c p 2 a2).1 := bra_angle (p := p) (m := ddZh.proc.massNum (ddZh.rho c)) (ddZh.mass_eq hc 0) (ddZh.mass_eq hc 2) (.inl ⟨m0, rfl⟩) (.inl ⟨m2, rfl⟩)
    have v2z1y2 : (ddZh.N c p).v 2 [spinOf s1, spinOf b2] = sb (ddZh.react.codePair c p 1 s1).2 (ddZh.react.codePair c p 2 b2).2 := bra_square (p := p) (m := ddZh.proc.massNum (ddZh.rho c)) (ddZh.mass_eq hc 1) (ddZh.mass_eq hc 2) (.inl ⟨m1, rfl⟩) (.inl ⟨m2, rfl⟩)
    have v12y2z1 : (ddZh.N c p).v 12 [spinOf b2, spinOf s1] = mb (ddZh.react.codePair c p 2 b2).2 (p 3) (ddZh.react.codePair c p 1 s1).1 := bra_mid_square (p := p) (m := ddZh.proc.massNum (ddZh.rho c)) (ddZh.mass_eq hc 2) (ddZh.mass_eq hc 1) (.inl ⟨m2, rfl⟩) (.inl ⟨m1, rfl⟩)
    have v9z0y2 : (ddZh.N c p).v 9 [spinOf s0, spinOf b2] = mb (ddZh.react.codePair c p 0 s0).2 (p 3) (ddZh.react.codePair c p 2 b2).1 := bra_mid_square (p := p) (m := ddZh.proc.massNum (ddZh.rho c)) (ddZh.mass_eq hc 0) (ddZh.mass_eq hc 2) (.inl ⟨m0, rfl⟩) (.inl ⟨m2, rfl⟩)
    have v10y2z0 : (ddZh.N c p).v 10 [spinOf b2, spinOf s0] = mb (ddZh.react.codePair c p 2 b2).2 (p 3) (ddZh.react.codePair c p 0 s0).1 := bra_mid_square (p := p) (m := ddZh.proc.massNum (ddZh.rho c)) (ddZh.mass_eq hc 2) (ddZh.mass_eq hc 0) (.inl ⟨m2, rfl⟩) (.inl ⟨m0, rfl⟩)
    simp only [ddZh.term, ddZh.form, v1z0z1, v0z0z1, v8x2y2, v2z1x2, v5z0y2, v3z1x2, v4z0y2, v4z0x2, v3z1y2, v11z1y2, v5z0x2, v2z1y2, v12y2z1, v9z0y2, v10y2z0]
    push_cast
    ring
  show meaning (ddZh.N c p) .r Cls.ddZh.methods Cls.ddZh.amp2 [] = _
  have lc : ddZh.react.lineColours 1 0 = 3 := by decide +kernel
  have s0 : ddZh.react.states 0 = 6 := by decide
  have s1 : ddZh.react.states 1 = 6 := by decide
  have sy : ddZh.react.symmetry = 1 := by decide
  have p0 : ddZh.react.spins 0 = {0, 1} := rfl
  have p1 : ddZh.react.spins 1 = {0, 1} := rfl
  have p2 : ddZh.react.spins 2 = Finset.univ := rfl
  have p3 : ddZh.react.spins 3 = {0} := rfl
  rw [ddZh.value, ddZh.react.squared_line he ht hB (noGluon_of hM) hs h0 (fun _ b _ hb _ => (boson_pos hc hh hb).ne') (ddZh.react.gauge_massive (massive_of hM)) (E := ddZh.react.codeVec c p) (fun n b hl => ddZh.react.codeVec_polarised hs h0 hl (massive_of hM n b hl) (fun _ => (boson_pos hc hh (massive_of hM n b hl)).ne')) hu, sum_colours, lc, s0, s1, sy]
  simp only [sumV_sum, sumJ_sum, am, norm_mul, norm_neg, norm_one, one_mul, p0, p1, p2, p3, Finset.sum_singleton, sum_two, Matrix.cons_val_zero, Matrix.cons_val_one, Matrix.cons_val, two_castSucc]
  try simp only [← Finset.mul_sum]
  push_cast
  first | ring1 | ring_nf

/-! ### uuZh -/

/-- what the methods of the class see -/
noncomputable abbrev uuZh.N [FPEnv] (c : Constants) (p : Nat → V4 ℝ) : Env := uuZh.proc.env (uuZh.rho c) p
/-- the term that `amp` adds for a choice of spinors (SM/uuZh.cpp) -/
noncomputable def uuZh.term (N : Env) (w : ℝ) (x : ℂ) (j1 j2 a2 b2 : Int) : ℂ :=
  (((x + (((((w * N.r 11) : ℝ) : ℂ) * ((((((N.r 1 * (N.r 12 - N.r 13)) : ℝ) : ℂ) * (N.v 1 [j1, j2] - N.v 0 [j1, j2])) * N.v 8 [a2, b2]) - (((((((2 : Nat) : ℝ) * N.r 7) * N.r 7) : ℝ) : ℂ) * (((((N.r 12 : ℝ) : ℂ) * N.v 2 [j2, a2]) * N.v 5 [j1, b2]) + ((((N.r 13 : ℝ) : ℂ) * N.v 3 [j2, a2]) * N.v 4 [j1, b2]))))) / N.c 0)) + (((((w * N.r 10) : ℝ) : ℂ) * (((((N.r 13 : ℝ) : ℂ) * N.v 4 [j1, a2]) * ((((((-((2 : Nat) : ℝ)) * N.r 1) : ℝ) : ℂ) * N.v 3 [j2, b2]) + N.v 11 [j2, b2])) + ((((N.r 12 : ℝ) : ℂ) * N.v 5 [j1, a2]) * ((((((-((2 : Nat) : ℝ)) * N.r 1) : ℝ) : ℂ) * N.v 2 [j2, b2]) + N.v 12 [b2, j2])))) / N.c 1)) + (((((w * N.r 10) : ℝ) : ℂ) * (((((N.r 12 : ℝ) : ℂ) * N.v 2 [j2, a2]) * (N.v 9 [j1, b2] - ((((((2 : Nat) : ℝ) * N.r 1) : ℝ) : ℂ) * N.v 5 [j1, b2]))) + ((((N.r 13 : ℝ) : ℂ) * N.v 3 [j2, a2]) * (N.v 10 [b2, j1] - ((((((2 : Nat) : ℝ) * N.r 1) : ℝ) : ℂ) * N.v 4 [j1, b2]))))) / N.c 2))
/-- the same with spinors in place of their spins -/
noncomputable def uuZh.form (N : Env) (p : Nat → V4 ℝ) (z0 z1 x2 y2 : Pair) : ℂ :=
  (((0 + (((((((1 : Nat) : ℝ) * N.r 11) : ℝ) : ℂ) * ((((((N.r 1 * (N.r 12 - N.r 13)) : ℝ) : ℂ) * ((ab z0.1 z1.1) - (sb z0.2 z1.2))) * (mb x2.2 (p 3) y2.1)) - (((((((2 : Nat) : ℝ) * N.r 7) * N.r 7) : ℝ) : ℂ) * (((((N.r 12 : ℝ) : ℂ) * (sb z1.2 x2.2)) * (ab z0.1 y2.1)) + ((((N.r 13 : ℝ) : ℂ) * (ab z1.1 x2.1)) * (sb z0.2 y2.2)))))) / N.c 0)) + (((((((1 : Nat) : ℝ) * N.r 10) : ℝ) : ℂ) * (((((N.r 13 : ℝ) : ℂ) * (sb z0.2 x2.2)) * ((((((-((2 : Nat) : ℝ)) * N.r 1) : ℝ) : ℂ) * (ab z1.1 y2.1)) + (mb z1.2 (p 3) y2.1))) + ((((N.r 12 : ℝ) : ℂ) * (ab z0.1 x2.1)) * ((((((-((2 : Nat) : ℝ)) * N.r 1) : ℝ) : ℂ) * (sb z1.2 y2.2)) + (mb y2.2 (p 3) z1.1))))) / N.c 1)) + (((((((1 : Nat) : ℝ) * N.r 10) : ℝ) : ℂ) * (((((N.r 12 : ℝ) : ℂ) * (sb z1.2 x2.2)) * ((mb z0.2 (p 3) y2.1) - ((((((2 : Nat) : ℝ) * N.r 1) : ℝ) : ℂ) * (ab z0.1 y2.1)))) + ((((N.r 13 : ℝ) : ℂ) * (ab z1.1 x2.1)) * ((mb y2.2 (p 3) z0.1) - ((((((2 : Nat) : ℝ) * N.r 1) : ℝ) : ℂ) * (sb z0.2 y2.2)))))) / N.c 2))
theorem uuZh.key {c : Constants} {p : Nat → V4 ℝ} {N : Env} (hc : c.Physical) (hb : Balanced p) (r1 : N.r 1 = (c.mass .u)) (r7 : N.r 7 = (c.MW / c.CW)) (r10 : N.r 10 = ((((√(((2 : Nat) : ℝ)) * c.e) * c.e) * (c.mass .u)) / ((((((4 : Nat) : ℝ) * c.MW) * c.MW) * c.SW) * c.SW))) (r11 : N.r 11 = (((√(((2 : Nat) : ℝ)) * c.e) * c.e) / ((((((4 : Nat) : ℝ) * c.MW) * c.MW) * c.SW) * c.SW))) (r12 : N.r 12 = (((((-((4 : Nat) : ℝ)) / ((3 : Nat) : ℝ)) * c.SW) * c.SW) + ((1 : Nat) : ℝ))) (r13 : N.r 13 = ((((-((4 : Nat) : ℝ)) / ((3 : Nat) : ℝ)) * c.SW) * c.SW)) (d0 : pole c.MZ c.WZ (plus (backward (p 2)) (backward (p 3))) = N.c 0) (n0 : N.c 0 ≠ 0) (d1 : ((msq (plus (p 0) (backward (p 2))) - c.mass .u ^ 2 : ℝ) : ℂ) = N.c 1) (n1 : N.c 1 ≠ 0) (d2 : ((msq (plus (p 0) (backward (p 3))) - c.mass .u ^ 2 : ℝ) : ℂ) = N.c 2) (n2 : N.c 2 ≠ 0) {z0 z1 z2 : Pair} (b0 : Bold (p 0) (c.mass .u) z0) (b1 : Bold (p 1) (c.mass .u) z1) (b2 : Bold (p 2) c.MZ z2) (E3 : Vec) :
    uuZh.form N p z0 z1 z2 z2 = -(((√2 / c.MZ : ℝ) : ℂ) * uuZh.react.bare c p 1 0 2 3 z1 z0 (pv z2.1 z2.2) E3) := by
  rw [uuZh.react.bare_parts c p (i := 1) (j := 0) (a := 2) (b := 3) (x := .z) (y := .higgs) (k := (backward (p 2))) (k' := (backward (p 3))) (fun _ => rfl) (fun _ => rfl) (f := .u) (g := .u) rfl rfl (l := (p 0)) rfl (e := -1) (e' := 1) (if_pos rfl) (if_neg Bool.false_ne_true)]
  rw [compton_vh (f := .u) (x := .u) (g := .u) (h := (rfl : Spec.after .z Flavour.u = some Flavour.u)) (h' := (rfl : Spec.after .higgs Flavour.u = some Flavour.u)) (ha := by simp)]
  rw [compton_hv (f := .u) (x := .u) (g := .u) (h := (rfl : Spec.after .higgs Flavour.u = some Flavour.u)) (h' := (rfl : Spec.after .z Flavour.u = some Flavour.u)) (hb := by simp)]
  have an := annihilation_neutral c (-1) (1) z1.1 z1.2 z0.1 z0.2 ⟨.z, (backward (p 2)), pv z2.1 z2.2⟩ ⟨.higgs, (backward (p 3)), E3⟩ .u
  dsimp only at an
  rw [an, uuZh.form]
  clear an
  rw [lineV_massless (hx := (rfl : Boson.massive .photon = false))]
  rw [lineV_massive (hx := (rfl : Boson.massive .z = true))]
  simp only [toHiggs, toVector, higgs2, gauge3, Boson.anti, Constants.bosonMass, Constants.bosonWidth, d0, d1, d2, reduceCtorEq, and_self, and_true, and_false, and_true, if_true, if_false, Complex.ofReal_zero, zero_smul, zero_mul, mul_zero, zero_div, neg_zero, add_zero, zero_add, lineH, lineV_zero, contract_zero, lineV_smul, contract_smul, lineV_pv, lineV_four, contract_four_pv, contract_pv, mb_plus, mb_backward]
  simp only [b0.mb_left, b0.mb_right, b1.mb_left, b1.mb_right, b2.mb_left, b2.mb_right, mb_three hb z0.2 z0.1, mb_three hb z0.2 z1.1, mb_three hb z0.2 z2.1, mb_three hb z1.2 z0.1, mb_three hb z1.2 z1.1, mb_three hb z1.2 z2.1, mb_three hb z2.2 z0.1, mb_three hb z2.2 z1.1, mb_three hb z2.2 z2.1, ab_self, sb_self]
  simp only [ab_swap z0.1 z1.1, sb_swap z0.2 z1.2, ab_swap z0.1 z2.1, sb_swap z0.2 z2.2, ab_swap z1.1 z2.1, sb_swap z1.2 z2.2, r1, r7, r10, r11, r12, r13, Constants.hL, Constants.hR, Constants.gL, Constants.gR, Constants.yuk, Constants.invVev, Flavour.charge_u, Flavour.isospin_u, ← c.mz]
  have xMW : (c.MW : ℂ) ≠ 0 := by exact_mod_cast hc.MW
  have xSW : (c.SW : ℂ) ≠ 0 := by exact_mod_cast hc.SW
  have xCW : (c.CW : ℂ) ≠ 0 := by exact_mod_cast hc.CW
  have x2 : ((√2 : ℝ) : ℂ) ≠ 0 := by exact_mod_cast (Real.sqrt_pos.2 two_pos).ne'
  have x22 : ((√2 : ℝ) : ℂ) ^ 2 = 2 := by rw [← Complex.ofReal_pow, Real.sq_sqrt two_pos.le]; norm_num
  push_cast
  field_simp
  first | ring1 | (ring_nf; simp only [x22]; ring1)
set_option maxRecDepth 8000 in
theorem uuZh.amp2_eq (N : Env) (f : Nat → List Int → ℂ) : Cls.uuZh.m_amp2.mean N f .r [] =
    ((sumJ (fun x a => (sumJ (fun x b => (sumV (fun x c => (x + (((3 : Nat) : ℝ) * (‖(f 0 [a, b, c])‖ ^ 2)))) x)) x)) ((0 : Nat) : ℝ)) / ((36 : Nat) : ℝ)) := by rfl
set_option maxRecDepth 8000 in
theorem uuZh.value (N : Env) : meaning N .r Cls.uuZh.methods Cls.uuZh.amp2 [] =
    ((sumJ (fun x a => (sumJ (fun x b => (sumV (fun x c => (x + (((3 : Nat) : ℝ) * (‖(Cls.uuZh.m_amp.mean N (callMean N []) .c [a, b, c])‖ ^ 2)))) x)) x)) ((0 : Nat) : ℝ)) / ((36 : Nat) : ℝ)) :=
  uuZh.amp2_eq N (callMean N [Cls.uuZh.m_amp])
set_option maxRecDepth 8000 in
theorem uuZh.term_lin (N : Env) (w : ℝ) (x : ℂ) (j1 j2 a2 b2 : Int) : uuZh.term N w x j1 j2 a2 b2 = x + (w : ℂ) * uuZh.term N 1 0 j1 j2 a2 b2 := by
  simp only [uuZh.term]; push_cast; ring
theorem uuZh.amp_eq (N : Env) (f : Nat → List Int → ℂ) (j1 j2 : Int) (t2 : Fin 3) : Cls.uuZh.m_amp.mean N f .c [j1, j2, spinV t2] = comb t2 (fun a2 b2 => uuZh.term N 1 0 j1 j2 (spinOf a2) (spinOf b2)) := by
  refine (amp_mean N f (m := 3) (K := 5) (G := fun i => uuZh.term N 1 0 (i 0) (i 1) (i 3) (i 4)) (fun l => ?_) (fun i i' h => ?_) rfl (by decide) (by decide) (by decide) (by decide) (by decide)).trans ?_
  · refine ⟨_, rfl, ?_⟩; exact ⟨rfl, rfl, uuZh.term_lin ..⟩
  · simp only [h 0 (by decide), h 1 (by decide), h 3 (by decide), h 4 (by decide)]
  · show amp' _ [spinV t2] = _
    simp only [amp'_comb, amp'_nil]
    rfl
theorem uuZh.form_x2 (N : Env) (p : Nat → V4 ℝ) (z0 z1 y2 x y : Pair) : uuZh.form N p z0 z1 (x + y) y2 = uuZh.form N p z0 z1 x y2 + uuZh.form N p z0 z1 y y2 := by
  simp only [uuZh.form, Prod.fst_add, Prod.snd_add, ab_add_left, ab_add_right, sb_add_left, sb_add_right, mb_add_left, mb_add_right]
  ring
theorem uuZh.form_y2 (N : Env) (p : Nat → V4 ℝ) (z0 z1 x2 x y : Pair) : uuZh.form N p z0 z1 x2 (x + y) = uuZh.form N p z0 z1 x2 x + uuZh.form N p z0 z1 x2 y := by
  simp only [uuZh.form, Prod.fst_add, Prod.snd_add, ab_add_left, ab_add_right, sb_add_left, sb_add_right, mb_add_left, mb_add_right]
  ring

theorem uuZh.mass_eq {c : Constants} (hc : c.Physical) (i : Fin 4) : uuZh.proc.massNum (uuZh.rho c) i = uuZh.react.mass c i := by
  fin_cases i <;> first | rfl | exact Nat.cast_zero.trans (hc.neutrino _).symm | (show c.MW / √(((1 : Nat) : ℝ) - c.SW * c.SW) = c.MZ; rw [c.root, c.mz])

variable [FPEnv] in
theorem uuZh.agrees : uuZh.Agrees := by
  refine agrees_of (D := [4, 5]) (E := [5]) (by simp [all, uuZh]) (by decide +kernel) (by decide) (by decide +kernel) (fun c hc hh => ⟨List.forall_mem_cons.2 ⟨hc.MW, List.forall_mem_cons.2 ⟨hc.SW, List.forall_mem_nil _⟩⟩, List.forall_mem_cons.2 ⟨hc.SW_lt, List.forall_mem_nil _⟩⟩) (fun c hc i => uuZh.mass_eq hc i) (by decide +kernel) ?_
  intro c p u ε hc hh hw h0 hs hb hr hu
  have he : uuZh.react.ends = [1] := by decide
  have ht : uuZh.react.starts = [0] := by decide
  have hB : uuZh.react.bosons = [2, 3] := by decide
  have hM : uuZh.react.allMassive = true := by decide
  obtain ⟨f1, f2, f3⟩ := uuZh.react.regular_line he ht hB hr
  have r1 : (uuZh.N c p).r 1 = (c.mass .u) := rfl
  have r7 : (uuZh.N c p).r 7 = (c.MW / √((((1 : Nat) : ℝ) - (c.SW * c.SW)))) := rfl
  simp only [c.root] at r7
  have r10 : (uuZh.N c p).r 10 = ((((√(((2 : Nat) : ℝ)) * c.e) * c.e) * (c.mass .u)) / ((((((4 : Nat) : ℝ) * c.MW) * c.MW) * c.SW) * c.SW)) := rfl
  have r11 : (uuZh.N c p).r 11 = (((√(((2 : Nat) : ℝ)) * c.e) * c.e) / ((((((4 : Nat) : ℝ) * c.MW) * c.MW) * c.SW) * c.SW)) := rfl
  have r12 : (uuZh.N c p).r 12 = (((((-((4 : Nat) : ℝ)) / ((3 : Nat) : ℝ)) * c.SW) * c.SW) + ((1 : Nat) : ℝ)) := rfl
  have r13 : (uuZh.N c p).r 13 = ((((-((4 : Nat) : ℝ)) / ((3 : Nat) : ℝ)) * c.SW) * c.SW) := rfl
  have c0 : (uuZh.N c p).c 0 = poleDist (c.MW / √((((1 : Nat) : ℝ) - (c.SW * c.SW)))) c.WZ ((VExp.add 0 1).sum p) := rfl
  rw [c.root, c.mz, pole_congr (msq_s hb (plus (backward (p 2)) (backward (p 3))) (by simp)).symm] at c0
  have d0 : pole c.MZ c.WZ (plus (backward (p 2)) (backward (p 3))) = (uuZh.N c p).c 0 := by rw [c0]
  have n0 : (uuZh.N c p).c 0 ≠ 0 := by rw [← d0]; exact star_ne_zero.2 (f3 .z rfl rfl)
  have c1 : (uuZh.N c p).c 1 = poleDist (c.mass .u) ((0 : Nat) : ℝ) ((VExp.sub 0 2).sum p) := rfl
  rw [Nat.cast_zero, pole_fermion (msq_t hb (plus (p 0) (backward (p 2))) (by simp))] at c1
  have d1 : ((msq (plus (p 0) (backward (p 2))) - c.mass .u ^ 2 : ℝ) : ℂ) = (uuZh.N c p).c 1 := by rw [c1]
  have n1 : (uuZh.N c p).c 1 ≠ 0 := by rw [← d1]; exact_mod_cast f1 .u rfl rfl
  have c2 : (uuZh.N c p).c 2 = poleDist (c.mass .u) ((0 : Nat) : ℝ) ((VExp.sub 0 3).sum p) := rfl
  rw [Nat.cast_zero, pole_fermion (msq_u hb (plus (p 0) (backward (p 3))) (by simp))] at c2
  have d2 : ((msq (plus (p 0) (backward (p 3))) - c.mass .u ^ 2 : ℝ) : ℂ) = (uuZh.N c p).c 2 := by rw [c2]
  have n2 : (uuZh.N c p).c 2 ≠ 0 := by rw [← d2]; exact_mod_cast f2 .u rfl rfl
  have m0 : uuZh.react.mass c 0 ≠ 0 := (leg_pos hc hh (by decide)).ne'
  have m1 : uuZh.react.mass c 1 ≠ 0 := (leg_pos hc hh (by decide)).ne'
  have m2 : uuZh.react.mass c 2 ≠ 0 := (leg_pos hc hh (by decide)).ne'
  have hd : uuZh.proc.divides = [(Ty.c, 0), (Ty.c, 1), (Ty.c, 2)] := by decide +kernel
  refine ⟨fun n hn => ?_, fun n hn => ?_, ?_⟩
  · simp [hd] at hn
  · simp [hd] at hn
    rcases hn with rfl | rfl | rfl
    · exact n0
    · exact n1
    · exact n2
  have st : ∀ {z0 z1 : Pair} (b0 : Bold (p 0) (uuZh.react.mass c 0) z0) (b1 : Bold (p 1) (uuZh.react.mass c 1) z1) (t2 : Fin 3), comb t2 (fun a2 b2 => uuZh.form (uuZh.N c p) p z0 z1 (uuZh.react.codePair c p 2 a2) (uuZh.react.codePair c p 2 b2)) = (-1) * uuZh.react.bare c p 1 0 2 3 z1 z0 (uuZh.react.codeVec c p 2 t2) (uuZh.react.codeVec c p 3 0) := by
    intro z0 z1 b0 b1 t2
    refine one_vector (p := p 2) (m := uuZh.react.mass c 2) (fun s => uuZh.react.codePair_bold hs h0 2 s) (B := fun x y => uuZh.form (uuZh.N c p) p z0 z1 x y) (G := fun E => uuZh.react.bare c p 1 0 2 3 z1 z0 E (uuZh.react.codeVec c p 3 0)) (fun x y z => ?_) (fun x y z => ?_) (uuZh.react.bare_lin₁ c p _ _ _ (by decide)) (-1) (fun z2 b2 => ?_) t2
    · exact uuZh.form_x2 ..
    · exact uuZh.form_y2 ..
    · rw [neg_one_mul]; exact uuZh.key hc hb r1 r7 r10 r11 r12 r13 d0 n0 d1 n1 d2 n2 b0 b1 b2 (uuZh.react.codeVec c p 3 0)
  have am : ∀ (s0 : Fin 2) (s1 : Fin 2) (t2 : Fin 3), Cls.uuZh.m_amp.mean (uuZh.N c p) (callMean (uuZh.N c p) []) .c [spinOf s0, spinOf s1, spinV t2] = (-1) * uuZh.react.bare c p 1 0 2 3 (uuZh.react.codePair c p 1 s1) (uuZh.react.codePair c p 0 s0) (uuZh.react.codeVec c p 2 t2) (uuZh.react.codeVec c p 3 0) := by
    intro s0 s1 t2
    rw [uuZh.amp_eq, ← st (uuZh.react.codePair_bold hs h0 0 s0) (uuZh.react.codePair_bold hs h0 1 s1) t2]
    refine congrArg (comb t2) (funext fun a2 => funext fun b2 => ?_)
    have v1z0z1 : (uuZh.N c p).v 1 [spinOf s0, spinOf s1] = ab (uuZh.react.codePair c p 0 s0).1 (uuZh.react.codePair c p 1 s1).1 := bra_angle (p := p) (m := uuZh.proc.massNum (uuZh.rho c)) (uuZh.mass_eq hc 0) (uuZh.mass_eq hc 1) (.inl ⟨m0, rfl⟩) (.inl ⟨m1, rfl⟩)
    have v0z0z1 : (uuZh.N c p).v 0 [spinOf s0, spinOf s1] = sb (uuZh.react.codePair c p 0 s0).2 (uuZh.react.codePair c p 1 s1).2 := bra_square (p := p) (m := uuZh.proc.massNum (uuZh.rho c)) (uuZh.mass_eq hc 0) (uuZh.mass_eq hc 1) (.inl ⟨m0, rfl⟩) (.inl ⟨m1, rfl⟩)
    have v8x2y2 : (uuZh.N c p).v 8 [spinOf a2, spinOf b2] = mb (uuZh.react.codePair c p 2 a2).2 (p 3) (uuZh.react.codePair c p 2 b2).1 := bra_mid_square (p := p) (m := uuZh.proc.massNum (uuZh.rho c)) (uuZh.mass_eq hc 2) (uuZh.mass_eq hc 2) (.inl ⟨m2, rfl⟩) (.inl ⟨m2, rfl⟩)
    have v2z1x2 : (uuZh.N c p).v 2 [spinOf s1, spinOf a2] = sb (uuZh.react.codePair c p 1 s1).2 (uuZh.react.codePair c p 2 a2).2 := bra_square (p := p) (m := uuZh.proc.massNum (uuZh.rho c)) (uuZh.mass_eq hc 1) (uuZh.mass_eq hc 2) (.inl ⟨m1, rfl⟩) (.inl ⟨m2, rfl⟩)
    have v5z0y2 : (uuZh.N c p).v 5 [spinOf s0, spinOf b2] = ab (uuZh.react.codePair c p 0 s0).1 (uuZh.react.codePair c p 2 b2).1 := bra_angle (p := p) (m := uuZh.proc.massNum (uuZh.rho c)) (uuZh.mass_eq hc 0) (uuZh.mass_eq hc 2) (.inl ⟨m0, rfl⟩) (.inl ⟨m2, rfl⟩)
    have v3z1x2 : (uuZh.N c p).v 3 [spinOf s1, spinOf a2] = ab (uuZh.react.codePair c p 1 s1).1 (uuZh.react.codePair c p 2 a2).1 := bra_angle (p := p) (m := uuZh.proc.massNum (uuZh.rho c)) (uuZh.mass_eq hc 1) (uuZh.mass_eq hc 2) (.inl ⟨m1, rfl⟩) (.inl ⟨m2, rfl⟩)
    have v4z0y2 : (uuZh.N c p).v 4 [spinOf s0, spinOf b2] = sb (uuZh.react.codePair c p 0 s0).2 (uuZh.react.codePair c p 2 b2).2 := bra_square (p := p) (m := uuZh.proc.massNum (uuZh.rho c)) (uuZh.mass_eq hc 0) (uuZh.mass_eq hc 2) (.inl ⟨m0, rfl⟩) (.inl ⟨m2, rfl⟩)
    have v4z0x2 : (uuZh.N c p).v 4 [spinOf s0, spinOf a2] = sb (uuZh.react.codePair c p 0 s0).2 (uuZh.react.codePair c p 2 a2).2 := bra_square (p := p) (m := uuZh.proc.massNum (uuZh.rho c)) (uuZh.mass_eq hc 0) (uuZh.mass_eq hc 2) (.inl ⟨m0, rfl⟩) (.inl ⟨m2, rfl⟩)
    have v3z1y2 : (uuZh.N c p).v 3 [spinOf s1, spinOf b2] = ab (uuZh.react.codePair c p 1 s1).1 (uuZh.react.codePair c p 2 b2).1 := bra_angle (p := p) (m := uuZh.proc.massNum (uuZh.rho c)) (uuZh.mass_eq hc 1) (uuZh.mass_eq hc 2) (.inl ⟨m1, rfl⟩) (.inl ⟨m2, rfl⟩)
    have v11z1y2 : (uuZh.N c p).v 11 [spinOf s1, spinOf b2] = mb (uuZh.react.codePair c p 1 s1).2 (p 3) (uuZh.react.codePair c p 2 b2).1 := bra_mid_square (p := p) (m := uuZh.proc.massNum (uuZh.rho c)) (uuZh.mass_eq hc 1) (uuZh.mass_eq hc 2) (.inl ⟨m1, rfl⟩) (.inl ⟨m2, rfl⟩)
    have v5z0x2 : (uuZh.N c p).v 5 [spinOf s0, spinOf a2] = ab (uuZh.react.codePair c p 0 s0).1 (uuZh.react.codePair c p 2 a2).1 := bra_angle (p := p) (m := uuZh.proc.massNum (uuZh.rho c)) (uuZh.mass_eq hc 0) (uuZh.mass_eq hc 2) (.inl ⟨m0, rfl⟩) (.inl ⟨m2, rfl⟩)
    have v2z1y2 : (uuZh.N c p).v 2 [spinOf s1, spinOf b2] = sb (uuZh.react.codePair c p 1 s1).2 (uuZh.react.codePair c p 2 b2).2 := bra_square (p := p) (m := uuZh.proc.massNum (uuZh.rho c)) (uuZh.mass_eq hc 1) (uuZh.mass_eq hc 2) (.inl ⟨m1, rfl⟩) (.inl ⟨m2, rfl⟩)
    have v12y2z1 : (uuZh.N c p).v 12 [spinOf b2, spinOf s1] = mb (uuZh.react.codePair c p 2 b2).2 (p 3) (uuZh.react.codePair c p 1 s1).1 := bra_mid_square (p := p) (m := uuZh.proc.massNum (uuZh.rho c)) (uuZh.mass_eq hc 2) (uuZh.mass_eq hc 1) (.inl ⟨m2, rfl⟩) (.inl ⟨m1, rfl⟩)
    have v9z0y2 : (uuZh.N c p).v 9 [spinOf s0, spinOf b2] = mb (uuZh.react.codePair c p 0 s0).2 (p 3) (uuZh.react.codePair c p 2 b2).1 := bra_mid_square (p := p) (m := uuZh.proc.massNum (uuZh.rho c)) (uuZh.mass_eq hc 0) (uuZh.mass_eq hc 2) (.inl ⟨m0, rfl⟩) (.inl ⟨m2, rfl⟩)
    have v10y2z0 : (uuZh.N c p).v 10 [spinOf b2, spinOf s0] = mb (uuZh.react.codePair c p 2 b2).2 (p 3) (uuZh.react.codePair c p 0 s0).1 := bra_mid_square (p := p) (m := uuZh.proc.massNum (uuZh.rho c)) (uuZh.mass_eq hc 2) (uuZh.mass_eq hc 0) (.inl ⟨m2, rfl⟩) (.inl ⟨m0, rfl⟩)
    simp only [uuZh.term, uuZh.form, v1z0z1, v0z0z1, v8x2y2, v2z1x2, v5z0y2, v3z1x2, v4z0y2, v4z0x2, v3z1y2, v11z1y2, v5z0x2, v2z1y2, v12y2z1, v9z0y2, v10y2z0]
    push_cast
    ring
  show meaning (uuZh.N c p) .r Cls.uuZh.methods Cls.uuZh.amp2 [] = _
  have lc : uuZh.react.lineColours 1 0 = 3 := by decide +kernel
  have s0 : uuZh.react.states 0 = 6 := by decide
  have s1 : uuZh.react.states 1 = 6 := by decide
  have sy : uuZh.react.symmetry = 1 := by decide
  have p0 : uuZh.react.spins 0 = {0, 1} := rfl
  have p1 : uuZh.react.spins 1 = {0, 1} := rfl
  have p2 : uuZh.react.spins 2 = Finset.univ := rfl
  have p3 : uuZh.react.spins 3 = {0} := rfl
  rw [uuZh.value, uuZh.react.squared_line he ht hB (noGluon_of hM) hs h0 (fun _ b _ hb _ => (boson_pos hc hh hb).ne') (uuZh.react.gauge_massive (massive_of hM)) (E := uuZh.react.codeVec c p) (fun n b hl => uuZh.react.codeVec_polarised hs h0 hl (massive_of hM n b hl) (fun _ => (boson_pos hc hh (massive_of hM n b hl)).ne')) hu, sum_colours, lc, s0, s1, sy]
  simp only [sumV_sum, sumJ_sum, am, norm_mul, norm_neg, norm_one, one_mul, p0, p1, p2, p3, Finset.sum_singleton, sum_two, Matrix.cons_val_zero, Matrix.cons_val_one, Matrix.cons_val, two_castSucc]
  try simp only [← Finset.mul_sum]
  push_cast
  first | ring1 | ring_nf

/-! ### nnZh -/

/-- what the methods of the class see -/
noncomputable abbrev nnZh.N [FPEnv] (c : Constants) (p : Nat → V4 ℝ) : Env := nnZh.proc.env (nnZh.rho c) p
/-- the term that `amp` adds for a choice of spinors (SM/nnZh.cpp) -/
noncomputable def nnZh.term (N : Env) (w : ℝ) (x : ℂ) (a2 b2 : Int) : ℂ :=
  (x + (((((((-w) * N.r 8) : ℝ) : ℂ) * N.v 0 [a2]) * N.v 1 [b2]) / N.c 0))
/-- the same with spinors in place of their spins -/
noncomputable def nnZh.form (N : Env) (p : Nat → V4 ℝ) (z0 z1 x2 y2 : Pair) : ℂ :=
  (0 + (((((((-((1 : Nat) : ℝ)) * N.r 8) : ℝ) : ℂ) * (sb z1.2 x2.2)) * (ab z0.1 y2.1)) / N.c 0))
theorem nnZh.key {c : Constants} {p : Nat → V4 ℝ} {N : Env} (hc : c.Physical) (hb : Balanced p) (r8 : N.r 8 = ((c.e * c.e) / ((((√(((2 : Nat) : ℝ)) * c.CW) * c.CW) * c.SW) * c.SW))) (d0 : pole c.MZ c.WZ (plus (backward (p 2)) (backward (p 3))) = N.c 0) (n0 : N.c 0 ≠ 0) {z0 z1 z2 : Pair} (b0 : Bold (p 0) (c.mass .ne) z0) (b1 : Bold (p 1) (c.mass .ne) z1) (b2 : Bold (p 2) c.MZ z2) (E3 : Vec) :
    nnZh.form N p z0 z1 z2 z2 = -(((√2 / c.MZ : ℝ) : ℂ) * nnZh.react.bare c p 1 0 2 3 z1 z0 (pv z2.1 z2.2) E3) := by
  rw [nnZh.react.bare_parts c p (i := 1) (j := 0) (a := 2) (b := 3) (x := .z) (y := .higgs) (k := (backward (p 2))) (k' := (backward (p 3))) (fun _ => rfl) (fun _ => rfl) (f := .ne) (g := .ne) rfl rfl (l := (p 0)) rfl (e := -1) (e' := 1) (if_pos rfl) (if_neg Bool.false_ne_true)]
  rw [compton_vh (f := .ne) (x := .ne) (g := .ne) (h := (rfl : Spec.after .z Flavour.ne = some Flavour.ne)) (h' := (rfl : Spec.after .higgs Flavour.ne = some Flavour.ne)) (ha := by simp)]
  rw [compton_hv (f := .ne) (x := .ne) (g := .ne) (h := (rfl : Spec.after .higgs Flavour.ne = some Flavour.ne)) (h' := (rfl : Spec.after .z Flavour.ne = some Flavour.ne)) (hb := by simp)]
  have an := annihilation_neutral c (-1) (1) z1.1 z1.2 z0.1 z0.2 ⟨.z, (backward (p 2)), pv z2.1 z2.2⟩ ⟨.higgs, (backward (p 3)), E3⟩ .ne
  dsimp only at an
  rw [an, nnZh.form]
  clear an
  rw [lineV_massless (hx := (rfl : Boson.massive .photon = false))]
  rw [lineV_massive (hx := (rfl : Boson.massive .z = true))]
  simp only [toHiggs, toVector, higgs2, gauge3, Boson.anti, Constants.bosonMass, Constants.bosonWidth, d0, reduceCtorEq, and_self, and_true, and_false, and_true, if_true, if_false, Complex.ofReal_zero, zero_smul, zero_mul, mul_zero, zero_div, neg_zero, add_zero, zero_add, lineH, lineV_zero, contract_zero, lineV_smul, contract_smul, lineV_pv, lineV_four, contract_four_pv, contract_pv, mb_plus, mb_backward]
  simp only [b0.mb_left, b0.mb_right, b1.mb_left, b1.mb_right, b2.mb_left, b2.mb_right, mb_three hb z0.2 z0.1, mb_three hb z0.2 z1.1, mb_three hb z0.2 z2.1, mb_three hb z1.2 z0.1, mb_three hb z1.2 z1.1, mb_three hb z1.2 z2.1, mb_three hb z2.2 z0.1, mb_three hb z2.2 z1.1, mb_three hb z2.2 z2.1, ab_self, sb_self]
  have hne : c.mass .ne = 0 := hc.neutrino _
  simp only [ab_swap z0.1 z1.1, sb_swap z0.2 z1.2, ab_swap z0.1 z2.1, sb_swap z0.2 z2.2, ab_swap z1.1 z2.1, sb_swap z1.2 z2.2, r8, Constants.hL, Constants.hR, Constants.gL, Constants.gR, Constants.yuk, Constants.invVev, Flavour.charge_ne, Flavour.isospin_ne, hne, ← c.mz]
  have xMW : (c.MW : ℂ) ≠ 0 := by exact_mod_cast hc.MW
  have xSW : (c.SW : ℂ) ≠ 0 := by exact_mod_cast hc.SW
  have xCW : (c.CW : ℂ) ≠ 0 := by exact_mod_cast hc.CW
  have x2 : ((√2 : ℝ) : ℂ) ≠ 0 := by exact_mod_cast (Real.sqrt_pos.2 two_pos).ne'
  have x22 : ((√2 : ℝ) : ℂ) ^ 2 = 2 := by rw [← Complex.ofReal_pow, Real.sq_sqrt two_pos.le]; norm_num
  push_cast
  field_simp
  first | ring1 | (ring_nf; simp only [x22]; ring1)
set_option maxRecDepth 8000 in
theorem nnZh.amp2_eq (N : Env) (f : Nat → List Int → ℂ) : Cls.nnZh.m_amp2.mean N f .r [] =
    (sumV (fun x a => (x + (‖(f 0 [a])‖ ^ 2))) ((0 : Nat) : ℝ)) := by rfl
set_option maxRecDepth 8000 in
theorem nnZh.value (N : Env) : meaning N .r Cls.nnZh.methods Cls.nnZh.amp2 [] =
    (sumV (fun x a => (x + (‖(Cls.nnZh.m_amp.mean N (callMean N []) .c [a])‖ ^ 2))) ((0 : Nat) : ℝ)) :=
  nnZh.amp2_eq N (callMean N [Cls.nnZh.m_amp])
set_option maxRecDepth 8000 in
theorem nnZh.term_lin (N : Env) (w : ℝ) (x : ℂ) (a2 b2 : Int) : nnZh.term N w x a2 b2 = x + (w : ℂ) * nnZh.term N 1 0 a2 b2 := by
  simp only [nnZh.term]; push_cast; ring
theorem nnZh.amp_eq (N : Env) (f : Nat → List Int → ℂ) (t2 : Fin 3) : Cls.nnZh.m_amp.mean N f .c [spinV t2] = comb t2 (fun a2 b2 => nnZh.term N 1 0 (spinOf a2) (spinOf b2)) := by
  refine (amp_mean N f (m := 1) (K := 3) (G := fun i => nnZh.term N 1 0 (i 1) (i 2)) (fun l => ?_) (fun i i' h => ?_) rfl (by decide) (by decide) (by decide) (by decide) (by decide)).trans ?_
  · refine ⟨_, rfl, ?_⟩; exact ⟨rfl, rfl, nnZh.term_lin ..⟩
  · simp only [h 1 (by decide), h 2 (by decide)]
  · show amp' _ [spinV t2] = _
    simp only [amp'_comb, amp'_nil]
    rfl
theorem nnZh.form_x2 (N : Env) (p : Nat → V4 ℝ) (z0 z1 y2 x y : Pair) : nnZh.form N p z0 z1 (x + y) y2 = nnZh.form N p z0 z1 x y2 + nnZh.form N p z0 z1 y y2 := by
  simp only [nnZh.form, Prod.fst_add, Prod.snd_add, ab_add_left, ab_add_right, sb_add_left, sb_add_right, mb_add_left, mb_add_right]
  ring
theorem nnZh.form_y2 (N : Env) (p : Nat → V4 ℝ) (z0 z1 x2 x y : Pair) : nnZh.form N p z0 z1 x2 (x + y) = nnZh.form N p z0 z1 x2 x + nnZh.form N p z0 z1 x2 y := by
  simp only [nnZh.form, Prod.fst_add, Prod.snd_add, ab_add_left, ab_add_right, sb_add_left, sb_add_right, mb_add_left, mb_add_right]
  ring
theorem nnZh.form_zero0 (N : Env) (p : Nat → V4 ℝ) {z0 : Pair} (z1 x2 y2 : Pair) (h : z0.1 = 0) : nnZh.form N p z0 z1 x2 y2 = 0 := by
  simp [nnZh.form, h, ab_zero, sb_zero, mb_zero]
theorem nnZh.form_zero1 (N : Env) (p : Nat → V4 ℝ) {z1 : Pair} (z0 x2 y2 : Pair) (h : z1.2 = 0) : nnZh.form N p z0 z1 x2 y2 = 0 := by
  simp [nnZh.form, h, ab_zero, sb_zero, mb_zero]

theorem nnZh.mass_eq {c : Constants} (hc : c.Physical) (i : Fin 4) : nnZh.proc.massNum (nnZh.rho c) i = nnZh.react.mass c i := by
  fin_cases i <;> first | rfl | exact Nat.cast_zero.trans (hc.neutrino _).symm | (show c.MW / √(((1 : Nat) : ℝ) - c.SW * c.SW) = c.MZ; rw [c.root, c.mz])

variable [FPEnv] in
theorem nnZh.agrees : nnZh.Agrees := by
  refine agrees_of (D := [2, 3]) (E := [3]) (by simp [all, nnZh]) (by decide +kernel) (by decide) (by decide +kernel) (fun c hc hh => ⟨List.forall_mem_cons.2 ⟨hc.MW, List.forall_mem_cons.2 ⟨hc.SW, List.forall_mem_nil _⟩⟩, List.forall_mem_cons.2 ⟨hc.SW_lt, List.forall_mem_nil _⟩⟩) (fun c hc i => nnZh.mass_eq hc i) (by decide +kernel) ?_
  intro c p u ε hc hh hw h0 hs hb hr hu
  have he : nnZh.react.ends = [1] := by decide
  have ht : nnZh.react.starts = [0] := by decide
  have hB : nnZh.react.bosons = [2, 3] := by decide
  have hM : nnZh.react.allMassive = true := by decide
  obtain ⟨f1, f2, f3⟩ := nnZh.react.regular_line he ht hB hr
  have r8 : (nnZh.N c p).r 8 = ((c.e * c.e) / ((((√(((2 : Nat) : ℝ)) * √((((1 : Nat) : ℝ) - (c.SW * c.SW)))) * √((((1 : Nat) : ℝ) - (c.SW * c.SW)))) * c.SW) * c.SW)) := rfl
  simp only [c.root] at r8
  have c0 : (nnZh.N c p).c 0 = poleDist (c.MW / √((((1 : Nat) : ℝ) - (c.SW * c.SW)))) c.WZ ((VExp.add 0 1).sum p) := rfl
  rw [c.root, c.mz, pole_congr (msq_s hb (plus (backward (p 2)) (backward (p 3))) (by simp)).symm] at c0
  have d0 : pole c.MZ c.WZ (plus (backward (p 2)) (backward (p 3))) = (nnZh.N c p).c 0 := by rw [c0]
  have n0 : (nnZh.N c p).c 0 ≠ 0 := by rw [← d0]; exact star_ne_zero.2 (f3 .z rfl rfl)
  have m0 : nnZh.react.mass c 0 = 0 := hc.neutrino _
  have m1 : nnZh.react.mass c 1 = 0 := hc.neutrino _
  have m2 : nnZh.react.mass c 2 ≠ 0 := (leg_pos hc hh (by decide)).ne'
  have hd : nnZh.proc.divides = [(Ty.c, 0)] := by decide +kernel
  refine ⟨fun n hn => ?_, fun n hn => ?_, ?_⟩
  · simp [hd] at hn
  · simp [hd] at hn
    rcases hn with rfl
    · exact n0
  have st : ∀ {z0 z1 : Pair} (b0 : Bold (p 0) (nnZh.react.mass c 0) z0) (b1 : Bold (p 1) (nnZh.react.mass c 1) z1) (t2 : Fin 3), comb t2 (fun a2 b2 => nnZh.form (nnZh.N c p) p z0 z1 (nnZh.react.codePair c p 2 a2) (nnZh.react.codePair c p 2 b2)) = (-1) * nnZh.react.bare c p 1 0 2 3 z1 z0 (nnZh.react.codeVec c p 2 t2) (nnZh.react.codeVec c p 3 0) := by
    intro z0 z1 b0 b1 t2
    refine one_vector (p := p 2) (m := nnZh.react.mass c 2) (fun s => nnZh.react.codePair_bold hs h0 2 s) (B := fun x y => nnZh.form (nnZh.N c p) p z0 z1 x y) (G := fun E => nnZh.react.bare c p 1 0 2 3 z1 z0 E (nnZh.react.codeVec c p 3 0)) (fun x y z => ?_) (fun x y z => ?_) (nnZh.react.bare_lin₁ c p _ _ _ (by decide)) (-1) (fun z2 b2 => ?_) t2
    · exact nnZh.form_x2 ..
    · exact nnZh.form_y2 ..
    · rw [neg_one_mul]; exact nnZh.key hc hb r8 d0 n0 b0 b1 b2 (nnZh.react.codeVec c p 3 0)
  have am : ∀ (t2 : Fin 3), Cls.nnZh.m_amp.mean (nnZh.N c p) (callMean (nnZh.N c p) []) .c [spinV t2] = (-1) * nnZh.react.bare c p 1 0 2 3 (nnZh.react.codePair c p 1 1) (nnZh.react.codePair c p 0 0) (nnZh.react.codeVec c p 2 t2) (nnZh.react.codeVec c p 3 0) := by
    intro t2
    rw [nnZh.amp_eq, ← st (nnZh.react.codePair_bold hs h0 0 0) (nnZh.react.codePair_bold hs h0 1 1) t2]
    refine congrArg (comb t2) (funext fun a2 => funext fun b2 => ?_)
    have v0z1x2 : (nnZh.N c p).v 0 [spinOf a2] = sb (nnZh.react.codePair c p 1 1).2 (nnZh.react.codePair c p 2 a2).2 := bra_square (p := p) (m := nnZh.proc.massNum (nnZh.rho c)) (nnZh.mass_eq hc 1) (nnZh.mass_eq hc 2) (.inr ⟨m1, rfl⟩) (.inl ⟨m2, rfl⟩)
    have v1z0y2 : (nnZh.N c p).v 1 [spinOf b2] = ab (nnZh.react.codePair c p 0 0).1 (nnZh.react.codePair c p 2 b2).1 := bra_angle (p := p) (m := nnZh.proc.massNum (nnZh.rho c)) (nnZh.mass_eq hc 0) (nnZh.mass_eq hc 2) (.inr ⟨m0, rfl⟩) (.inl ⟨m2, rfl⟩)
    simp only [nnZh.term, nnZh.form, v0z1x2, v1z0y2]
    push_cast
    ring
  have w0 : ∀ (s : Fin 2) (t2 : Fin 3), nnZh.react.bare c p 1 0 2 3 (nnZh.react.codePair c p 1 s) (nnZh.react.codePair c p 0 1) (nnZh.react.codeVec c p 2 t2) (nnZh.react.codeVec c p 3 0) = 0 := by
    intro s t2
    have e := st (nnZh.react.codePair_bold hs h0 0 1) (nnZh.react.codePair_bold hs h0 1 s) t2
    rw [show comb t2 (fun a2 b2 => nnZh.form (nnZh.N c p) p (nnZh.react.codePair c p 0 1) (nnZh.react.codePair c p 1 s) (nnZh.react.codePair c p 2 a2) (nnZh.react.codePair c p 2 b2)) = 0 by
      simp only [nnZh.form_zero0 _ _ _ _ _ (show ((nnZh.react.codePair c p 0 1)).1 = 0 from legA_zero m0 rfl)]; exact comb_zero ..] at e
    exact neg_eq_zero.1 ((neg_one_mul _).symm.trans e.symm)
  have w1 : ∀ (s : Fin 2) (t2 : Fin 3), nnZh.react.bare c p 1 0 2 3 (nnZh.react.codePair c p 1 0) (nnZh.react.codePair c p 0 s) (nnZh.react.codeVec c p 2 t2) (nnZh.react.codeVec c p 3 0) = 0 := by
    intro s t2
    have e := st (nnZh.react.codePair_bold hs h0 0 s) (nnZh.react.codePair_bold hs h0 1 0) t2
    rw [show comb t2 (fun a2 b2 => nnZh.form (nnZh.N c p) p (nnZh.react.codePair c p 0 s) (nnZh.react.codePair c p 1 0) (nnZh.react.codePair c p 2 a2) (nnZh.react.codePair c p 2 b2)) = 0 by
      simp only [nnZh.form_zero1 _ _ _ _ _ (show ((nnZh.react.codePair c p 1 0)).2 = 0 from legS_zero m1 rfl)]; exact comb_zero ..] at e
    exact neg_eq_zero.1 ((neg_one_mul _).symm.trans e.symm)
  show meaning (nnZh.N c p) .r Cls.nnZh.methods Cls.nnZh.amp2 [] = _
  have lc : nnZh.react.lineColours 1 0 = 1 := by decide +kernel
  have s0 : nnZh.react.states 0 = 1 := by decide
  have s1 : nnZh.react.states 1 = 1 := by decide
  have sy : nnZh.react.symmetry = 1 := by decide
  have p0 : nnZh.react.spins 0 = {0, 1} := rfl
  have p1 : nnZh.react.spins 1 = {0, 1} := rfl
  have p2 : nnZh.react.spins 2 = Finset.univ := rfl
  have p3 : nnZh.react.spins 3 = {0} := rfl
  rw [nnZh.value, nnZh.react.squared_line he ht hB (noGluon_of hM) hs h0 (fun _ b _ hb _ => (boson_pos hc hh hb).ne') (nnZh.react.gauge_massive (massive_of hM)) (E := nnZh.react.codeVec c p) (fun n b hl => nnZh.react.codeVec_polarised hs h0 hl (massive_of hM n b hl) (fun _ => (boson_pos hc hh (massive_of hM n b hl)).ne')) hu, sum_colours, lc, s0, s1, sy]
  simp only [sumV_sum, sumJ_sum, am, norm_mul, norm_neg, norm_one, one_mul, p0, p1, p2, p3, Finset.sum_singleton, sum_two, Matrix.cons_val_zero, Matrix.cons_val_one, Matrix.cons_val, two_castSucc]
  simp only [Fin.sum_univ_two, w0, w1, norm_zero]
  try simp only [← Finset.mul_sum]
  push_cast
  first | ring1 | ring_nf

/-! ### eZeh -/

/-- what the methods of the class see -/
noncomputable abbrev eZeh.N [FPEnv] (c : Constants) (p : Nat → V4 ℝ) : Env := eZeh.proc.env (eZeh.rho c) p
/-- the term that `amp` adds for a choice of spinors (SM/eZeh.cpp) -/
noncomputable def eZeh.term (N : Env) (w : ℝ) (x : ℂ) (j1 a1 b1 j3 : Int) : ℂ :=
  (((x + (((((w * N.r 11) : ℝ) : ℂ) * ((((((N.r 1 * (N.r 12 - N.r 13)) : ℝ) : ℂ) * (N.v 5 [j1, j3] + N.v 4 [j1, j3])) * N.v 8 [a1, b1]) - (((((((2 : Nat) : ℝ) * N.r 7) * N.r 7) : ℝ) : ℂ) * (((((N.r 12 : ℝ) : ℂ) * N.v 2 [a1, j3]) * N.v 1 [j1, b1]) - ((((N.r 13 : ℝ) : ℂ) * N.v 0 [j1, a1]) * N.v 3 [b1, j3]))))) / N.c 1)) + ((((((-w) * N.r 10) : ℝ) : ℂ) * (((((N.r 12 : ℝ) : ℂ) * N.v 1 [j1, a1]) * (((((N.r 1 : ℝ) : ℂ) * N.v 2 [b1, j3]) - N.v 7 [b1, j3]) - (((N.r 7 : ℝ) : ℂ) * N.v 3 [b1, j3]))) + ((((N.r 13 : ℝ) : ℂ) * N.v 0 [j1, a1]) * (((((N.r 7 : ℝ) : ℂ) * N.v 2 [b1, j3]) + N.v 6 [j3, b1]) - (((N.r 1 : ℝ) : ℂ) * N.v 3 [b1, j3]))))) / N.c 0)) + ((((((-w) * N.r 10) : ℝ) : ℂ) * (((((N.r 12 : ℝ) : ℂ) * N.v 2 [a1, j3]) * ((-N.v 9 [j1, b1]) + ((((((2 : Nat) : ℝ) * N.r 1) : ℝ) : ℂ) * N.v 1 [j1, b1]))) - ((((N.r 13 : ℝ) : ℂ) * N.v 3 [a1, j3]) * ((-N.v 10 [b1, j1]) + ((((((2 : Nat) : ℝ) * N.r 1) : ℝ) : ℂ) * N.v 0 [j1, b1]))))) / N.c 2))
/-- the same with spinors in place of their spins -/
noncomputable def eZeh.form (N : Env) (p : Nat → V4 ℝ) (z0 x1 y1 z2 : Pair) : ℂ :=
  (((0 + (((((((1 : Nat) : ℝ) * N.r 11) : ℝ) : ℂ) * ((((((N.r 1 * (N.r 12 - N.r 13)) : ℝ) : ℂ) * ((ab z0.1 z2.1) + (sb z0.2 z2.2))) * (mb x1.2 (p 3) y1.1)) - (((((((2 : Nat) : ℝ) * N.r 7) * N.r 7) : ℝ) : ℂ) * (((((N.r 12 : ℝ) : ℂ) * (sb x1.2 z2.2)) * (ab z0.1 y1.1)) - ((((N.r 13 : ℝ) : ℂ) * (sb z0.2 x1.2)) * (ab y1.1 z2.1)))))) / N.c 1)) + ((((((-((1 : Nat) : ℝ)) * N.r 10) : ℝ) : ℂ) * (((((N.r 12 : ℝ) : ℂ) * (ab z0.1 x1.1)) * (((((N.r 1 : ℝ) : ℂ) * (sb y1.2 z2.2)) - (mb y1.2 (p 0) z2.1)) - (((N.r 7 : ℝ) : ℂ) * (ab y1.1 z2.1)))) + ((((N.r 13 : ℝ) : ℂ) * (sb z0.2 x1.2)) * (((((N.r 7 : ℝ) : ℂ) * (sb y1.2 z2.2)) + (mb z2.2 (p 0) y1.1)) - (((N.r 1 : ℝ) : ℂ) * (ab y1.1 z2.1)))))) / N.c 0)) + ((((((-((1 : Nat) : ℝ)) * N.r 10) : ℝ) : ℂ) * (((((N.r 12 : ℝ) : ℂ) * (sb x1.2 z2.2)) * ((-(mb z0.2 (p 3) y1.1)) + ((((((2 : Nat) : ℝ) * N.r 1) : ℝ) : ℂ) * (ab z0.1 y1.1)))) - ((((N.r 13 : ℝ) : ℂ) * (ab x1.1 z2.1)) * ((-(mb y1.2 (p 3) z0.1)) + ((((((2 : Nat) : ℝ) * N.r 1) : ℝ) : ℂ) * (sb z0.2 y1.2)))))) / N.c 2))
theorem eZeh.key {c : Constants} {p : Nat → V4 ℝ} {N : Env} (hc : c.Physical) (hb : Balanced p) (r1 : N.r 1 = (c.mass .e)) (r7 : N.r 7 = (c.MW / c.CW)) (r10 : N.r 10 = ((((√(((2 : Nat) : ℝ)) * c.e) * c.e) * (c.mass .e)) / ((((((4 : Nat) : ℝ) * c.MW) * c.MW) * c.SW) * c.SW))) (r11 : N.r 11 = (((√(((2 : Nat) : ℝ)) * c.e) * c.e) / ((((((4 : Nat) : ℝ) * c.MW) * c.MW) * c.SW) * c.SW))) (r12 : N.r 12 = (((((2 : Nat) : ℝ) * c.SW) * c.SW) - ((1 : Nat) : ℝ))) (r13 : N.r 13 = ((((2 : Nat) : ℝ) * c.SW) * c.SW)) (d0 : ((msq (plus (p 0) (p 1)) - c.mass .e ^ 2 : ℝ) : ℂ) = N.c 0) (n0 : N.c 0 ≠ 0) (d1 : pole c.MZ c.WZ (plus (p 1) (backward (p 3))) = N.c 1) (n1 : N.c 1 ≠ 0) (d2 : ((msq (plus (p 0) (backward (p 3))) - c.mass .e ^ 2 : ℝ) : ℂ) = N.c 2) (n2 : N.c 2 ≠ 0) {z0 z1 z2 : Pair} (b0 : Bold (p 0) (c.mass .e) z0) (b1 : Bold (p 1) c.MZ z1) (b2 : Bold (p 2) (c.mass .e) z2) (E3 : Vec) :
    eZeh.form N p z0 z1 z1 z2 = -(((√2 / c.MZ : ℝ) : ℂ) * eZeh.react.bare c p 2 0 1 3 z2 z0 (pv z1.1 z1.2) E3) := by
  rw [eZeh.react.bare_parts c p (i := 2) (j := 0) (a := 1) (b := 3) (x := .z) (y := .higgs) (k := (p 1)) (k' := (backward (p 3))) (fun _ => rfl) (fun _ => rfl) (f := .e) (g := .e) rfl rfl (l := (p 0)) rfl (e := 1) (e' := 1) (if_neg Bool.false_ne_true) (if_neg Bool.false_ne_true)]
  rw [compton_vh (f := .e) (x := .e) (g := .e) (h := (rfl : Spec.after .z Flavour.e = some Flavour.e)) (h' := (rfl : Spec.after .higgs Flavour.e = some Flavour.e)) (ha := by simp)]
  rw [compton_hv (f := .e) (x := .e) (g := .e) (h := (rfl : Spec.after .higgs Flavour.e = some Flavour.e)) (h' := (rfl : Spec.after .z Flavour.e = some Flavour.e)) (hb := by simp)]
  have an := annihilation_neutral c (1) (1) z2.1 z2.2 z0.1 z0.2 ⟨.z, (p 1), pv z1.1 z1.2⟩ ⟨.higgs, (backward (p 3)), E3⟩ .e
  dsimp only at an
  rw [an, eZeh.form]
  clear an
  rw [lineV_massless (hx := (rfl : Boson.massive .photon = false))]
  rw [lineV_massive (hx := (rfl : Boson.massive .z = true))]
  simp only [toHiggs, toVector, higgs2, gauge3, Boson.anti, Constants.bosonMass, Constants.bosonWidth, d0, d1, d2, reduceCtorEq, and_self, and_true, and_false, and_true, if_true, if_false, Complex.ofReal_zero, zero_smul, zero_mul, mul_zero, zero_div, neg_zero, add_zero, zero_add, lineH, lineV_zero, contract_zero, lineV_smul, contract_smul, lineV_pv, lineV_four, contract_four_pv, contract_pv, mb_plus, mb_backward]
  simp only [b0.mb_left, b0.mb_right, b1.mb_left, b1.mb_right, b2.mb_left, b2.mb_right, mb_three hb z0.2 z0.1, mb_three hb z0.2 z1.1, mb_three hb z0.2 z2.1, mb_three hb z1.2 z0.1, mb_three hb z1.2 z1.1, mb_three hb z1.2 z2.1, mb_three hb z2.2 z0.1, mb_three hb z2.2 z1.1, mb_three hb z2.2 z2.1, ab_self, sb_self]
  simp only [ab_swap z0.1 z1.1, sb_swap z0.2 z1.2, ab_swap z0.1 z2.1, sb_swap z0.2 z2.2, ab_swap z1.1 z2.1, sb_swap z1.2 z2.2, r1, r7, r10, r11, r12, r13, Constants.hL, Constants.hR, Constants.gL, Constants.gR, Constants.yuk, Constants.invVev, Flavour.charge_e, Flavour.isospin_e, ← c.mz]
  have xMW : (c.MW : ℂ) ≠ 0 := by exact_mod_cast hc.MW
  have xSW : (c.SW : ℂ) ≠ 0 := by exact_mod_cast hc.SW
  have xCW : (c.CW : ℂ) ≠ 0 := by exact_mod_cast hc.CW
  have x2 : ((√2 : ℝ) : ℂ) ≠ 0 := by exact_mod_cast (Real.sqrt_pos.2 two_pos).ne'
  have x22 : ((√2 : ℝ) : ℂ) ^ 2 = 2 := by rw [← Complex.ofReal_pow, Real.sq_sqrt two_pos.le]; norm_num
  push_cast
  field_simp
  first | ring1 | (ring_nf; simp only [x22]; ring1)
set_option maxRecDepth 8000 in
theorem eZeh.amp2_eq (N : Env) (f : Nat → List Int → ℂ) : Cls.eZeh.m_amp2.mean N f .r [] =
    ((sumJ (fun x a => (sumV (fun x b => (sumJ (fun x c => (x + (‖(f 0 [a, b, c])‖ ^ 2))) x)) x)) ((0 : Nat) : ℝ)) / ((6 : Nat) : ℝ)) := by rfl
set_option maxRecDepth 8000 in
theorem eZeh.value (N : Env) : meaning N .r Cls.eZeh.methods Cls.eZeh.amp2 [] =
    ((sumJ (fun x a => (sumV (fun x b => (sumJ (fun x c => (x + (‖(Cls.eZeh.m_amp.mean N (callMean N []) .c [a, b, c])‖ ^ 2))) x)) x)) ((0 : Nat) : ℝ)) / ((6 : Nat) : ℝ)) :=
  eZeh.amp2_eq N (callMean N [Cls.eZeh.m_amp])
set_option maxRecDepth 8000 in
theorem eZeh.term_lin (N : Env) (w : ℝ) (x : ℂ) (j1 a1 b1 j3 : Int) : eZeh.term N w x j1 a1 b1 j3 = x + (w : ℂ) * eZeh.term N 1 0 j1 a1 b1 j3 := by
  simp only [eZeh.term]; push_cast; ring
theorem eZeh.amp_eq (N : Env) (f : Nat → List Int → ℂ) (j1 j3 : Int) (t1 : Fin 3) : Cls.eZeh.m_amp.mean N f .c [j1, spinV t1, j3] = comb t1 (fun a1 b1 => eZeh.term N 1 0 j1 (spinOf a1) (spinOf b1) j3) := by
  refine (amp_mean N f (m := 3) (K := 5) (G := fun i => eZeh.term N 1 0 (i 0) (i 3) (i 4) (i 2)) (fun l => ?_) (fun i i' h => ?_) rfl (by decide) (by decide) (by decide) (by decide) (by decide)).trans ?_
  · refine ⟨_, rfl, ?_⟩; exact ⟨rfl, rfl, eZeh.term_lin ..⟩
  · simp only [h 0 (by decide), h 3 (by decide), h 4 (by decide), h 2 (by decide)]
  · show amp' _ [spinV t1] = _
    simp only [amp'_comb, amp'_nil]
    rfl
theorem eZeh.form_x1 (N : Env) (p : Nat → V4 ℝ) (z0 y1 z2 x y : Pair) : eZeh.form N p z0 (x + y) y1 z2 = eZeh.form N p z0 x y1 z2 + eZeh.form N p z0 y y1 z2 := by
  simp only [eZeh.form, Prod.fst_add, Prod.snd_add, ab_add_left, ab_add_right, sb_add_left, sb_add_right, mb_add_left, mb_add_right]
  ring
theorem eZeh.form_y1 (N : Env) (p : Nat → V4 ℝ) (z0 x1 z2 x y : Pair) : eZeh.form N p z0 x1 (x + y) z2 = eZeh.form N p z0 x1 x z2 + eZeh.form N p z0 x1 y z2 := by
  simp only [eZeh.form, Prod.fst_add, Prod.snd_add, ab_add_left, ab_add_right, sb_add_left, sb_add_right, mb_add_left, mb_add_right]
  ring

theorem eZeh.mass_eq {c : Constants} (hc : c.Physical) (i : Fin 4) : eZeh.proc.massNum (eZeh.rho c) i = eZeh.react.mass c i := by
  fin_cases i <;> first | rfl | exact Nat.cast_zero.trans (hc.neutrino _).symm | (show c.MW / √(((1 : Nat) : ℝ) - c.SW * c.SW) = c.MZ; rw [c.root, c.mz])

variable [FPEnv] in
theorem eZeh.agrees : eZeh.Agrees := by
  refine agrees_of (D := [4, 5]) (E := [5]) (by simp [all, eZeh]) (by decide +kernel) (by decide) (by decide +kernel) (fun c hc hh => ⟨List.forall_mem_cons.2 ⟨hc.MW, List.forall_mem_cons.2 ⟨hc.SW, List.forall_mem_nil _⟩⟩, List.forall_mem_cons.2 ⟨hc.SW_lt, List.forall_mem_nil _⟩⟩) (fun c hc i => eZeh.mass_eq hc i) (by decide +kernel) ?_
  intro c p u ε hc hh hw h0 hs hb hr hu
  have he : eZeh.react.ends = [2] := by decide
  have ht : eZeh.react.starts = [0] := by decide
  have hB : eZeh.react.bosons = [1, 3] := by decide
  have hM : eZeh.react.allMassive = true := by decide
  obtain ⟨f1, f2, f3⟩ := eZeh.react.regular_line he ht hB hr
  have r1 : (eZeh.N c p).r 1 = (c.mass .e) := rfl
  have r7 : (eZeh.N c p).r 7 = (c.MW / √((((1 : Nat) : ℝ) - (c.SW * c.SW)))) := rfl
  simp only [c.root] at r7
  have r10 : (eZeh.N c p).r 10 = ((((√(((2 : Nat) : ℝ)) * c.e) * c.e) * (c.mass .e)) / ((((((4 : Nat) : ℝ) * c.MW) * c.MW) * c.SW) * c.SW)) := rfl
  have r11 : (eZeh.N c p).r 11 = (((√(((2 : Nat) : ℝ)) * c.e) * c.e) / ((((((4 : Nat) : ℝ) * c.MW) * c.MW) * c.SW) * c.SW)) := rfl
  have r12 : (eZeh.N c p).r 12 = (((((2 : Nat) : ℝ) * c.SW) * c.SW) - ((1 : Nat) : ℝ)) := rfl
  have r13 : (eZeh.N c p).r 13 = ((((2 : Nat) : ℝ) * c.SW) * c.SW) := rfl
  have c0 : (eZeh.N c p).c 0 = poleDist (c.mass .e) ((0 : Nat) : ℝ) ((VExp.add 0 1).sum p) := rfl
  rw [Nat.cast_zero, pole_fermion (msq_s hb (plus (p 0) (p 1)) (by simp))] at c0
  have d0 : ((msq (plus (p 0) (p 1)) - c.mass .e ^ 2 : ℝ) : ℂ) = (eZeh.N c p).c 0 := by rw [c0]
  have n0 : (eZeh.N c p).c 0 ≠ 0 := by rw [← d0]; exact_mod_cast f1 .e rfl rfl
  have c1 : (eZeh.N c p).c 1 = poleDist (c.MW / √((((1 : Nat) : ℝ) - (c.SW * c.SW)))) c.WZ ((VExp.sub 0 2).sum p) := rfl
  rw [c.root, c.mz, pole_congr (msq_t hb (plus (p 1) (backward (p 3))) (by simp)).symm] at c1
  have d1 : pole c.MZ c.WZ (plus (p 1) (backward (p 3))) = (eZeh.N c p).c 1 := by rw [c1]
  have n1 : (eZeh.N c p).c 1 ≠ 0 := by rw [← d1]; exact star_ne_zero.2 (f3 .z rfl rfl)
  have c2 : (eZeh.N c p).c 2 = poleDist (c.mass .e) ((0 : Nat) : ℝ) ((VExp.sub 0 3).sum p) := rfl
  rw [Nat.cast_zero, pole_fermion (msq_u hb (plus (p 0) (backward (p 3))) (by simp))] at c2
  have d2 : ((msq (plus (p 0) (backward (p 3))) - c.mass .e ^ 2 : ℝ) : ℂ) = (eZeh.N c p).c 2 := by rw [c2]
  have n2 : (eZeh.N c p).c 2 ≠ 0 := by rw [← d2]; exact_mod_cast f2 .e rfl rfl
  have m0 : eZeh.react.mass c 0 ≠ 0 := (leg_pos hc hh (by decide)).ne'
  have m1 : eZeh.react.mass c 1 ≠ 0 := (leg_pos hc hh (by decide)).ne'
  have m2 : eZeh.react.mass c 2 ≠ 0 := (leg_pos hc hh (by decide)).ne'
  have hd : eZeh.proc.divides = [(Ty.c, 1), (Ty.c, 0), (Ty.c, 2)] := by decide +kernel
  refine ⟨fun n hn => ?_, fun n hn => ?_, ?_⟩
  · simp [hd] at hn
  · simp [hd] at hn
    rcases hn with rfl | rfl | rfl
    · exact n1
    · exact n0
    · exact n2
  have st : ∀ {z0 z2 : Pair} (b0 : Bold (p 0) (eZeh.react.mass c 0) z0) (b2 : Bold (p 2) (eZeh.react.mass c 2) z2) (t1 : Fin 3), comb t1 (fun a1 b1 => eZeh.form (eZeh.N c p) p z0 (eZeh.react.codePair c p 1 a1) (eZeh.react.codePair c p 1 b1) z2) = (-1) * eZeh.react.bare c p 2 0 1 3 z2 z0 (eZeh.react.codeVec c p 1 t1) (eZeh.react.codeVec c p 3 0) := by
    intro z0 z2 b0 b2 t1
    refine one_vector (p := p 1) (m := eZeh.react.mass c 1) (fun s => eZeh.react.codePair_bold hs h0 1 s) (B := fun x y => eZeh.form (eZeh.N c p) p z0 x y z2) (G := fun E => eZeh.react.bare c p 2 0 1 3 z2 z0 E (eZeh.react.codeVec c p 3 0)) (fun x y z => ?_) (fun x y z => ?_) (eZeh.react.bare_lin₁ c p _ _ _ (by decide)) (-1) (fun z1 b1 => ?_) t1
    · exact eZeh.form_x1 ..
    · exact eZeh.form_y1 ..
    · rw [neg_one_mul]; exact eZeh.key hc hb r1 r7 r10 r11 r12 r13 d0 n0 d1 n1 d2 n2 b0 b1 b2 (eZeh.react.codeVec c p 3 0)
  have am : ∀ (s0 : Fin 2) (s2 : Fin 2) (t1 : Fin 3), Cls.eZeh.m_amp.mean (eZeh.N c p) (callMean (eZeh.N c p) []) .c [spinOf s0, spinV t1, spinOf s2] = (-1) * eZeh.react.bare c p 2 0 1 3 (eZeh.react.codePair c p 2 s2) (eZeh.react.codePair c p 0 s0) (eZeh.react.codeVec c p 1 t1) (eZeh.react.codeVec c p 3 0) := by
    intro s0 s2 t1
    rw [eZeh.amp_eq, ← st (eZeh.react.codePair_bold hs h0 0 s0) (eZeh.react.codePair_bold hs h0 2 s2) t1]
    refine congrArg (comb t1) (funext fun a1 => funext fun b1 => ?_)
    have v5z0z2 : (eZeh.N c p).v 5 [spinOf s0, spinOf s2] = ab (eZeh.react.codePair c p 0 s0).1 (eZeh.react.codePair c p 2 s2).1 := bra_angle (p := p) (m := eZeh.proc.massNum (eZeh.rho c)) (eZeh.mass_eq hc 0) (eZeh.mass_eq hc 2) (.inl ⟨m0, rfl⟩) (.inl ⟨m2, rfl⟩)
    have v4z0z2 : (eZeh.N c p).v 4 [spinOf s0, spinOf s2] = sb (eZeh.react.codePair c p 0 s0).2 (eZeh.react.codePair c p 2 s2).2 := bra_square (p := p) (m := eZeh.proc.massNum (eZeh.rho c)) (eZeh.mass_eq hc 0) (eZeh.mass_eq hc 2) (.inl ⟨m0, rfl⟩) (.inl ⟨m2, rfl⟩)
    have v8x1y1 : (eZeh.N c p).v 8 [spinOf a1, spinOf b1] = mb (eZeh.react.codePair c p 1 a1).2 (p 3) (eZeh.react.codePair c p 1 b1).1 := bra_mid_square (p := p) (m := eZeh.proc.massNum (eZeh.rho c)) (eZeh.mass_eq hc 1) (eZeh.mass_eq hc 1) (.inl ⟨m1, rfl⟩) (.inl ⟨m1, rfl⟩)
    have v2x1z2 : (eZeh.N c p).v 2 [spinOf a1, spinOf s2] = sb (eZeh.react.codePair c p 1 a1).2 (eZeh.react.codePair c p 2 s2).2 := bra_square (p := p) (m := eZeh.proc.massNum (eZeh.rho c)) (eZeh.mass_eq hc 1) (eZeh.mass_eq hc 2) (.inl ⟨m1, rfl⟩) (.inl ⟨m2, rfl⟩)
    have v1z0y1 : (eZeh.N c p).v 1 [spinOf s0, spinOf b1] = ab (eZeh.react.codePair c p 0 s0).1 (eZeh.react.codePair c p 1 b1).1 := bra_angle (p := p) (m := eZeh.proc.massNum (eZeh.rho c)) (eZeh.mass_eq hc 0) (eZeh.mass_eq hc 1) (.inl ⟨m0, rfl⟩) (.inl ⟨m1, rfl⟩)
    have v0z0x1 : (eZeh.N c p).v 0 [spinOf s0, spinOf a1] = sb (eZeh.react.codePair c p 0 s0).2 (eZeh.react.codePair c p 1 a1).2 := bra_square (p := p) (m := eZeh.proc.massNum (eZeh.rho c)) (eZeh.mass_eq hc 0) (eZeh.mass_eq hc 1) (.inl ⟨m0, rfl⟩) (.inl ⟨m1, rfl⟩)
    have v3y1z2 : (eZeh.N c p).v 3 [spinOf b1, spinOf s2] = ab (eZeh.react.codePair c p 1 b1).1 (eZeh.react.codePair c p 2 s2).1 := bra_angle (p := p) (m := eZeh.proc.massNum (eZeh.rho c)) (eZeh.mass_eq hc 1) (eZeh.mass_eq hc 2) (.inl ⟨m1, rfl⟩) (.inl ⟨m2, rfl⟩)
    have v1z0x1 : (eZeh.N c p).v 1 [spinOf s0, spinOf a1] = ab (eZeh.react.codePair c p 0 s0).1 (eZeh.react.codePair c p 1 a1).1 := bra_angle (p := p) (m := eZeh.proc.massNum (eZeh.rho c)) (eZeh.mass_eq hc 0) (eZeh.mass_eq hc 1) (.inl ⟨m0, rfl⟩) (.inl ⟨m1, rfl⟩)
    have v2y1z2 : (eZeh.N c p).v 2 [spinOf b1, spinOf s2] = sb (eZeh.react.codePair c p 1 b1).2 (eZeh.react.codePair c p 2 s2).2 := bra_square (p := p) (m := eZeh.proc.massNum (eZeh.rho c)) (eZeh.mass_eq hc 1) (eZeh.mass_eq hc 2) (.inl ⟨m1, rfl⟩) (.inl ⟨m2, rfl⟩)
    have v7y1z2 : (eZeh.N c p).v 7 [spinOf b1, spinOf s2] = mb (eZeh.react.codePair c p 1 b1).2 (p 0) (eZeh.react.codePair c p 2 s2).1 := bra_mid_square (p := p) (m := eZeh.proc.massNum (eZeh.rho c)) (eZeh.mass_eq hc 1) (eZeh.mass_eq hc 2) (.inl ⟨m1, rfl⟩) (.inl ⟨m2, rfl⟩)
    have v6z2y1 : (eZeh.N c p).v 6 [spinOf s2, spinOf b1] = mb (eZeh.react.codePair c p 2 s2).2 (p 0) (eZeh.react.codePair c p 1 b1).1 := bra_mid_square (p := p) (m := eZeh.proc.massNum (eZeh.rho c)) (eZeh.mass_eq hc 2) (eZeh.mass_eq hc 1) (.inl ⟨m2, rfl⟩) (.inl ⟨m1, rfl⟩)
    have v9z0y1 : (eZeh.N c p).v 9 [spinOf s0, spinOf b1] = mb (eZeh.react.codePair c p 0 s0).2 (p 3) (eZeh.react.codePair c p 1 b1).1 := bra_mid_square (p := p) (m := eZeh.proc.massNum (eZeh.rho c)) (eZeh.mass_eq hc 0) (eZeh.mass_eq hc 1) (.inl ⟨m0, rfl⟩) (.inl ⟨m1, rfl⟩)
    have v3x1z2 : (eZeh.N c p).v 3 [spinOf a1, spinOf s2] = ab (eZeh.react.codePair c p 1 a1).1 (eZeh.react.codePair c p 2 s2).1 := bra_angle (p := p) (m := eZeh.proc.massNum (eZeh.rho c)) (eZeh.mass_eq hc 1) (eZeh.mass_eq hc 2) (.inl ⟨m1, rfl⟩) (.inl ⟨m2, rfl⟩)
    have v10y1z0 : (eZeh.N c p).v 10 [spinOf b1, spinOf s0] = mb (eZeh.react.codePair c p 1 b1).2 (p 3) (eZeh.react.codePair c p 0 s0).1 := bra_mid_square (p := p) (m := eZeh.proc.massNum (eZeh.rho c)) (eZeh.mass_eq hc 1) (eZeh.mass_eq hc 0) (.inl ⟨m1, rfl⟩) (.inl ⟨m0, rfl⟩)
    have v0z0y1 : (eZeh.N c p).v 0 [spinOf s0, spinOf b1] = sb (eZeh.react.codePair c p 0 s0).2 (eZeh.react.codePair c p 1 b1).2 := bra_square (p := p) (m := eZeh.proc.massNum (eZeh.rho c)) (eZeh.mass_eq hc 0) (eZeh.mass_eq hc 1) (.inl ⟨m0, rfl⟩) (.inl ⟨m1, rfl⟩)
    simp only [eZeh.term, eZeh.form, v5z0z2, v4z0z2, v8x1y1, v2x1z2, v1z0y1, v0z0x1, v3y1z2, v1z0x1, v2y1z2, v7y1z2, v6z2y1, v9z0y1, v3x1z2, v10y1z0, v0z0y1]
    push_cast
    ring
  show meaning (eZeh.N c p) .r Cls.eZeh.methods Cls.eZeh.amp2 [] = _
  have lc : eZeh.react.lineColours 2 0 = 1 := by decide +kernel
  have s0 : eZeh.react.states 0 = 2 := by decide
  have s1 : eZeh.react.states 1 = 3 := by decide
  have sy : eZeh.react.symmetry = 1 := by decide
  have p0 : eZeh.react.spins 0 = {0, 1} := rfl
  have p1 : eZeh.react.spins 1 = Finset.univ := rfl
  have p2 : eZeh.react.spins 2 = {0, 1} := rfl
  have p3 : eZeh.react.spins 3 = {0} := rfl
  rw [eZeh.value, eZeh.react.squared_line he ht hB (noGluon_of hM) hs h0 (fun _ b _ hb _ => (boson_pos hc hh hb).ne') (eZeh.react.gauge_massive (massive_of hM)) (E := eZeh.react.codeVec c p) (fun n b hl => eZeh.react.codeVec_polarised hs h0 hl (massive_of hM n b hl) (fun _ => (boson_pos hc hh (massive_of hM n b hl)).ne')) hu, sum_colours, lc, s0, s1, sy]
  simp only [sumV_sum, sumJ_sum, am, norm_mul, norm_neg, norm_one, one_mul, p0, p1, p2, p3, Finset.sum_singleton, sum_two, Matrix.cons_val_zero, Matrix.cons_val_one, Matrix.cons_val, two_castSucc]
  try simp only [← Finset.mul_sum]
  push_cast
  first | ring1 | ring_nf

/-! ### dZdh -/

/-- what the methods of the class see -/
noncomputable abbrev dZdh.N [FPEnv] (c : Constants) (p : Nat → V4 ℝ) : Env := dZdh.proc.env (dZdh.rho c) p
/-- the term that `amp` adds for a choice of spinors (SM/dZdh.cpp) -/
noncomputable def dZdh.term (N : Env) (w : ℝ) (x : ℂ) (j1 a1 b1 j3 : Int) : ℂ :=
  (((x + (((((w * N.r 11) : ℝ) : ℂ) * ((((((N.r 1 * (N.r 12 - N.r 13)) : ℝ) : ℂ) * (N.v 5 [j1, j3] + N.v 4 [j1, j3])) * N.v 8 [a1, b1]) - (((((((2 : Nat) : ℝ) * N.r 7) * N.r 7) : ℝ) : ℂ) * (((((N.r 12 : ℝ) : ℂ) * N.v 2 [a1, j3]) * N.v 1 [j1, b1]) - ((((N.r 13 : ℝ) : ℂ) * N.v 3 [a1, j3]) * N.v 0 [j1, b1]))))) / N.c 1)) + ((((((-w) * N.r 10) : ℝ) : ℂ) * (((((N.r 12 : ℝ) : ℂ) * N.v 1 [j1, a1]) * (((((N.r 1 : ℝ) : ℂ) * N.v 2 [b1, j3]) - N.v 7 [b1, j3]) - (((N.r 7 : ℝ) : ℂ) * N.v 3 [b1, j3]))) + ((((N.r 13 : ℝ) : ℂ) * N.v 0 [j1, a1]) * ((((((-N.r 1) : ℝ) : ℂ) * N.v 3 [b1, j3]) + N.v 6 [j3, b1]) + (((N.r 7 : ℝ) : ℂ) * N.v 2 [b1, j3]))))) / N.c 0)) + ((((((-w) * N.r 10) : ℝ) : ℂ) * (((((N.r 12 : ℝ) : ℂ) * N.v 2 [a1, j3]) * ((-N.v 9 [j1, b1]) + ((((((2 : Nat) : ℝ) * N.r 1) : ℝ) : ℂ) * N.v 1 [j1, b1]))) - ((((N.r 13 : ℝ) : ℂ) * N.v 3 [a1, j3]) * ((-N.v 10 [b1, j1]) + ((((((2 : Nat) : ℝ) * N.r 1) : ℝ) : ℂ) * N.v 0 [j1, b1]))))) / N.c 2))
/-- the same with spinors in place of their spins -/
noncomputable def dZdh.form (N : Env) (p : Nat → V4 ℝ) (z0 x1 y1 z2 : Pair) : ℂ :=
  (((0 + (((((((1 : Nat) : ℝ) * N.r 11) : ℝ) : ℂ) * ((((((N.r 1 * (N.r 12 - N.r 13)) : ℝ) : ℂ) * ((ab z0.1 z2.1) + (sb z0.2 z2.2))) * (mb x1.2 (p 3) y1.1)) - (((((((2 : Nat) : ℝ) * N.r 7) * N.r 7) : ℝ) : ℂ) * (((((N.r 12 : ℝ) : ℂ) * (sb x1.2 z2.2)) * (ab z0.1 y1.1)) - ((((N.r 13 : ℝ) : ℂ) * (ab x1.1 z2.1)) * (sb z0.2 y1.2)))))) / N.c 1)) + ((((((-((1 : Nat) : ℝ)) * N.r 10) : ℝ) : ℂ) * (((((N.r 12 : ℝ) : ℂ) * (ab z0.1 x1.1)) * (((((N.r 1 : ℝ) : ℂ) * (sb y1.2 z2.2)) - (mb y1.2 (p 0) z2.1)) - (((N.r 7 : ℝ) : ℂ) * (ab y1.1 z2.1)))) + ((((N.r 13 : ℝ) : ℂ) * (sb z0.2 x1.2)) * ((((((-N.r 1) : ℝ) : ℂ) * (ab y1.1 z2.1)) + (mb z2.2 (p 0) y1.1)) + (((N.r 7 : ℝ) : ℂ) * (sb y1.2 z2.2)))))) / N.c 0)) + ((((((-((1 : Nat) : ℝ)) * N.r 10) : ℝ) : ℂ) * (((((N.r 12 : ℝ) : ℂ) * (sb x1.2 z2.2)) * ((-(mb z0.2 (p 3) y1.1)) + ((((((2 : Nat) : ℝ) * N.r 1) : ℝ) : ℂ) * (ab z0.1 y1.1)))) - ((((N.r 13 : ℝ) : ℂ) * (ab x1.1 z2.1)) * ((-(mb y1.2 (p 3) z0.1)) + ((((((2 : Nat) : ℝ) * N.r 1) : ℝ) : ℂ) * (sb z0.2 y1.2)))))) / N.c 2))
theorem dZdh.key {c : Constants} {p : Nat → V4 ℝ} {N : Env} (hc : c.Physical) (hb : Balanced p) (r1 : N.r 1 = (c.mass .d)) (r7 : N.r 7 = (c.MW / c.CW)) (r10 : N.r 10 = ((((√(((2 : Nat) : ℝ)) * c.e) * c.e) * (c.mass .d)) / ((((((4 : Nat) : ℝ) * c.MW) * c.MW) * c.SW) * c.SW))) (r11 : N.r 11 = (((√(((2 : Nat) : ℝ)) * c.e) * c.e) / ((((((4 : Nat) : ℝ) * c.MW) * c.MW) * c.SW) * c.SW))) (r12 : N.r 12 = ((((((2 : Nat) : ℝ) / ((3 : Nat) : ℝ)) * c.SW) * c.SW) - ((1 : Nat) : ℝ))) (r13 : N.r 13 = (((((2 : Nat) : ℝ) / ((3 : Nat) : ℝ)) * c.SW) * c.SW)) (d0 : ((msq (plus (p 0) (p 1)) - c.mass .d ^ 2 : ℝ) : ℂ) = N.c 0) (n0 : N.c 0 ≠ 0) (d1 : pole c.MZ c.WZ (plus (p 1) (backward (p 3))) = N.c 1) (n1 : N.c 1 ≠ 0) (d2 : ((msq (plus (p 0) (backward (p 3))) - c.mass .d ^ 2 : ℝ) : ℂ) = N.c 2) (n2 : N.c 2 ≠ 0) {z0 z1 z2 : Pair} (b0 : Bold (p 0) (c.mass .d) z0) (b1 : Bold (p 1) c.MZ z1) (b2 : Bold (p 2) (c.mass .d) z2) (E3 : Vec) :
    dZdh.form N p z0 z1 z1 z2 = -(((√2 / c.MZ : ℝ) : ℂ) * dZdh.react.bare c p 2 0 1 3 z2 z0 (pv z1.1 z1.2) E3) := by
  rw [dZdh.react.bare_parts c p (i := 2) (j := 0) (a := 1) (b := 3) (x := .z) (y := .higgs) (k := (p 1)) (k' := (backward (p 3))) (fun _ => rfl) (fun _ => rfl) (f := .d) (g := .d) rfl rfl (l := (p 0)) rfl (e := 1) (e' := 1) (if_neg Bool.false_ne_true) (if_neg Bool.false_ne_true)]
  rw [compton_vh (f := .d) (x := .d) (g := .d) (h := (rfl : Spec.after .z Flavour.d = some Flavour.d)) (h' := (rfl : Spec.after .higgs Flavour.d = some Flavour.d)) (ha := by simp)]
  rw [compton_hv (f := .d) (x := .d) (g := .d) (h := (rfl : Spec.after .higgs Flavour.d = some Flavour.d)) (h' := (rfl : Spec.after .z Flavour.d = some Flavour.d)) (hb := by simp)]
  have an := annihilation_neutral c (1) (1) z2.1 z2.2 z0.1 z0.2 ⟨.z, (p 1), pv z1.1 z1.2⟩ ⟨.higgs, (backward (p 3)), E3⟩ .d
  dsimp only at an
  rw [an, dZdh.form]
  clear an
  rw [lineV_massless (hx := (rfl : Boson.massive .photon = false))]
  rw [lineV_massive (hx := (rfl : Boson.massive .z = true))]
  simp only [toHiggs, toVector, higgs2, gauge3, Boson.anti, Constants.bosonMass, Constants.bosonWidth, d0, d1, d2, reduceCtorEq, and_self, and_true, and_false, and_true, if_true, if_false, Complex.ofReal_zero, zero_smul, zero_mul, mul_zero, zero_div, neg_zero, add_zero, zero_add, lineH, lineV_zero, contract_zero, lineV_smul, contract_smul, lineV_pv, lineV_four, contract_four_pv, contract_pv, mb_plus, mb_backward]
  simp only [b0.mb_left, b0.mb_right, b1.mb_left, b1.mb_right, b2.mb_left, b2.mb_right, mb_three hb z0.2 z0.1, mb_three hb z0.2 z1.1, mb_three hb z0.2 z2.1, mb_three hb z1.2 z0.1, mb_three hb z1.2 z1.1, mb_three hb z1.2 z2.1, mb_three hb z2.2 z0.1, mb_three hb z2.2 z1.1, mb_three hb z2.2 z2.1, ab_self, sb_self]
  simp only [ab_swap z0.1 z1.1, sb_swap z0.2 z1.2, ab_swap z0.1 z2.1, sb_swap z0.2 z2.2, ab_swap z1.1 z2.1, sb_swap z1.2 z2.2, r1, r7, r10, r11, r12, r13, Constants.hL, Constants.hR, Constants.gL, Constants.gR, Constants.yuk, Constants.invVev, Flavour.charge_d, Flavour.isospin_d, ← c.mz]
  have xMW : (c.MW : ℂ) ≠ 0 := by exact_mod_cast hc.MW
  have xSW : (c.SW : ℂ) ≠ 0 := by exact_mod_cast hc.SW
  have xCW : (c.CW : ℂ) ≠ 0 := by exact_mod_cast hc.CW
  have x2 : ((√2 : ℝ) : ℂ) ≠ 0 := by exact_mod_cast (Real.sqrt_pos.2 two_pos).ne'
  have x22 : ((√2 : ℝ) : ℂ) ^ 2 = 2 := by rw [← Complex.ofReal_pow, Real.sq_sqrt two_pos.le]; norm_num
  push_cast
  field_simp
  first | ring1 | (ring_nf; simp only [x22]; ring1)
set_option maxRecDepth 8000 in
theorem dZdh.amp2_eq (N : Env) (f : Nat → List Int → ℂ) : Cls.dZdh.m_amp2.mean N f .r [] =
    ((sumJ (fun x a => (sumV (fun x b => (sumJ (fun x c => (x + (((3 : Nat) : ℝ) * (‖(f 0 [a, b, c])‖ ^ 2)))) x)) x)) ((0 : Nat) : ℝ)) / ((18 : Nat) : ℝ)) := by rfl
set_option maxRecDepth 8000 in
theorem dZdh.value (N : Env) : meaning N .r Cls.dZdh.methods Cls.dZdh.amp2 [] =
    ((sumJ (fun x a => (sumV (fun x b => (sumJ (fun x c => (x + (((3 : Nat) : ℝ) * (‖(Cls.dZdh.m_amp.mean N (callMean N []) .c [a, b, c])‖ ^ 2)))) x)) x)) ((0 : Nat) : ℝ)) / ((18 : Nat) : ℝ)) :=
  dZdh.amp2_eq N (callMean N [Cls.dZdh.m_amp])
set_option maxRecDepth 8000 in
theorem dZdh.term_lin (N : Env) (w : ℝ) (x : ℂ) (j1 a1 b1 j3 : Int) : dZdh.term N w x j1 a1 b1 j3 = x + (w : ℂ) * dZdh.term N 1 0 j1 a1 b1 j3 := by
  simp only [dZdh.term]; push_cast; ring
theorem dZdh.amp_eq (N : Env) (f : Nat → List Int → ℂ) (j1 j3 : Int) (t1 : Fin 3) : Cls.dZdh.m_amp.mean N f .c [j1, spinV t1, j3] = comb t1 (fun a1 b1 => dZdh.term N 1 0 j1 (spinOf a1) (spinOf b1) j3) := by
  refine (amp_mean N f (m := 3) (K := 5) (G := fun i => dZdh.term N 1 0 (i 0) (i 3) (i 4) (i 2)) (fun l => ?_) (fun i i' h => ?_) rfl (by decide) (by decide) (by decide) (by decide) (by decide)).trans ?_
  · refine ⟨_, rfl, ?_⟩; exact ⟨rfl, rfl, dZdh.term_lin ..⟩
  · simp only [h 0 (by decide), h 3 (by decide), h 4 (by decide), h 2 (by decide)]
  · show amp' _ [spinV t1] = _
    simp only [amp'_comb, amp'_nil]
    rfl
theorem dZdh.form_x1 (N : Env) (p : Nat → V4 ℝ) (z0 y1 z2 x y : Pair) : dZdh.form N p z0 (x + y) y1 z2 = dZdh.form N p z0 x y1 z2 + dZdh.form N p z0 y y1 z2 := by
  simp only [dZdh.form, Prod.fst_add, Prod.snd_add, ab_add_left, ab_add_right, sb_add_left, sb_add_right, mb_add_left, mb_add_right]
  ring
theorem dZdh.form_y1 (N : Env) (p : Nat → V4 ℝ) (z0 x1 z2 x y : Pair) : dZdh.form N p z0 x1 (x + y) z2 = dZdh.form N p z0 x1 x z2 + dZdh.form N p z0 x1 y z2 := by
  simp only [dZdh.form, Prod.fst_add, Prod.snd_add, ab_add_left, ab_add_right, sb_add_left, sb_add_right, mb_add_left, mb_add_right]
  ring

theorem dZdh.mass_eq {c : Constants} (hc : c.Physical) (i : Fin 4) : dZdh.proc.massNum (dZdh.rho c) i = dZdh.react.mass c i := by
  fin_cases i <;> first | rfl | exact Nat.cast_zero.trans (hc.neutrino _).symm | (show c.MW / √(((1 : Nat) : ℝ) - c.SW * c.SW) = c.MZ; rw [c.root, c.mz])

variable [FPEnv] in
theorem dZdh.agrees : dZdh.Agrees := by
  refine agrees_of (D := [4, 5]) (E := [5]) (by simp [all, dZdh]) (by decide +kernel) (by decide) (by decide +kernel) (fun c hc hh => ⟨List.forall_mem_cons.2 ⟨hc.MW, List.forall_mem_cons.2 ⟨hc.SW, List.forall_mem_nil _⟩⟩, List.forall_mem_cons.2 ⟨hc.SW_lt, List.forall_mem_nil _⟩⟩) (fun c hc i => dZdh.mass_eq hc i) (by decide +kernel) ?_
  intro c p u ε hc hh hw h0 hs hb hr hu
  have he : dZdh.react.ends = [2] := by decide
  have ht : dZdh.react.starts = [0] := by decide
  have hB : dZdh.react.bosons = [1, 3] := by decide
  have hM : dZdh.react.allMassive = true := by decide
  obtain ⟨f1, f2, f3⟩ := dZdh.react.regular_line he ht hB hr
  have r1 : (dZdh.N c p).r 1 = (c.mass .d) := rfl
  have r7 : (dZdh.N c p).r 7 = (c.MW / √((((1 : Nat) : ℝ) - (c.SW * c.SW)))) := rfl
  simp only [c.root] at r7
  have r10 : (dZdh.N c p).r 10 = ((((√(((2 : Nat) : ℝ)) * c.e) * c.e) * (c.mass .d)) / ((((((4 : Nat) : ℝ) * c.MW) * c.MW) * c.SW) * c.SW)) := rfl
  have r11 : (dZdh.N c p).r 11 = (((√(((2 : Nat) : ℝ)) * c.e) * c.e) / ((((((4 : Nat) : ℝ) * c.MW) * c.MW) * c.SW) * c.SW)) := rfl
  have r12 : (dZdh.N c p).r 12 = ((((((2 : Nat) : ℝ) / ((3 : Nat) : ℝ)) * c.SW) * c.SW) - ((1 : Nat) : ℝ)) := rfl
  have r13 : (dZdh.N c p).r 13 = (((((2 : Nat) : ℝ) / ((3 : Nat) : ℝ)) * c.SW) * c.SW) := rfl
  have c0 : (dZdh.N c p).c 0 = poleDist (c.mass .d) ((0 : Nat) : ℝ) ((VExp.add 0 1).sum p) := rfl
  rw [Nat.cast_zero, pole_fermion (msq_s hb (plus (p 0) (p 1)) (by simp))] at c0
  have d0 : ((msq (plus (p 0) (p 1)) - c.mass .d ^ 2 : ℝ) : ℂ) = (dZdh.N c p).c 0 := by rw [c0]
  have n0 : (dZdh.N c p).c 0 ≠ 0 := by rw [← d0]; exact_mod_cast f1 .d rfl rfl
  have c1 : (dZdh.N c p).c 1 = poleDist (c.MW / √((((1 : Nat) : ℝ) - (c.SW * c.SW)))) c.WZ ((VExp.sub 0 2).sum p) := rfl
  rw [c.root, c.mz, pole_congr (msq_t hb (plus (p 1) (backward (p 3))) (by simp)).symm] at c1
  have d1 : pole c.MZ c.WZ (plus (p 1) (backward (p 3))) = (dZdh.N c p).c 1 := by rw [c1]
  have n1 : (dZdh.N c p).c 1 ≠ 0 := by rw [← d1]; exact star_ne_zero.2 (f3 .z rfl rfl)
  have c2 : (dZdh.N c p).c 2 = poleDist (c.mass .d) ((0 : Nat) : ℝ) ((VExp.sub 0 3).sum p) := rfl
  rw [Nat.cast_zero, pole_fermion (msq_u hb (plus (p 0) (backward (p 3))) (by simp))] at c2
  have d2 : ((msq (plus (p 0) (backward (p 3))) - c.mass .d ^ 2 : ℝ) : ℂ) = (dZdh.N c p).c 2 := by rw [c2]
  have n2 : (dZdh.N c p).c 2 ≠ 0 := by rw [← d2]; exact_mod_cast f2 .d rfl rfl
  have m0 : dZdh.react.mass c 0 ≠ 0 := (leg_pos hc hh (by decide)).ne'
  have m1 : dZdh.react.mass c 1 ≠ 0 := (leg_pos hc hh (by decide)).ne'
  have m2 : dZdh.react.mass c 2 ≠ 0 := (leg_pos hc hh (by decide)).ne'
  have hd : dZdh.proc.divides = [(Ty.c, 1), (Ty.c, 0), (Ty.c, 2)] := by decide +kernel
  refine ⟨fun n hn => ?_, fun n hn => ?_, ?_⟩
  · simp [hd] at hn
  · simp [hd] at hn
    rcases hn with rfl | rfl | rfl
    · exact n1
    · exact n0
    · exact n2
  have st : ∀ {z0 z2 : Pair} (b0 : Bold (p 0) (dZdh.react.mass c 0) z0) (b2 : Bold (p 2) (dZdh.react.mass c 2) z2) (t1 : Fin 3), comb t1 (fun a1 b1 => dZdh.form (dZdh.N c p) p z0 (dZdh.react.codePair c p 1 a1) (dZdh.react.codePair c p 1 b1) z2) = (-1) * dZdh.react.bare c p 2 0 1 3 z2 z0 (dZdh.react.codeVec c p 1 t1) (dZdh.react.codeVec c p 3 0) := by
    intro z0 z2 b0 b2 t1
    refine one_vector (p := p 1) (m := dZdh.react.mass c 1) (fun s => dZdh.react.codePair_bold hs h0 1 s) (B := fun x y => dZdh.form (dZdh.N c p) p z0 x y z2) (G := fun E => dZdh.react.bare c p 2 0 1 3 z2 z0 E (dZdh.react.codeVec c p 3 0)) (fun x y z => ?_) (fun x y z => ?_) (dZdh.react.bare_lin₁ c p _ _ _ (by decide)) (-1) (fun z1 b1 => ?_) t1
    · exact dZdh.form_x1 ..
    · exact dZdh.form_y1 ..
    · rw [neg_one_mul]; exact dZdh.key hc hb r1 r7 r10 r11 r12 r13 d0 n0 d1 n1 d2 n2 b0 b1 b2 (dZdh.react.codeVec c p 3 0)
  have am : ∀ (s0 : Fin 2) (s2 : Fin 2) (t1 : Fin 3), Cls.dZdh.m_amp.mean (dZdh.N c p) (callMean (dZdh.N c p) []) .c [spinOf s0, spinV t1, spinOf s2] = (-1) * dZdh.react.bare c p 2 0 1 3 (dZdh.react.codePair c p 2 s2) (dZdh.react.codePair c p 0 s0) (dZdh.react.codeVec c p 1 t1) (dZdh.react.codeVec c p 3 0) := by
    intro s0 s2 t1
    rw [dZdh.amp_eq, ← st (dZdh.react.codePair_bold hs h0 0 s0) (dZdh.react.codePair_bold hs h0 2 s2) t1]
    refine congrArg (comb t1) (funext fun a1 => funext fun b1 => ?_)
    have v5z0z2 : (dZdh.N c p).v 5 [spinOf s0, spinOf s2] = ab (dZdh.react.codePair c p 0 s0).1 (dZdh.react.codePair c p 2 s2).1 := bra_angle (p := p) (m := dZdh.proc.massNum (dZdh.rho c)) (dZdh.mass_eq hc 0) (dZdh.mass_eq hc 2) (.inl ⟨m0, rfl⟩) (.inl ⟨m2, rfl⟩)
    have v4z0z2 : (dZdh.N c p).v 4 [spinOf s0, spinOf s2] = sb (dZdh.react.codePair c p 0 s0).2 (dZdh.react.codePair c p 2 s2).2 := bra_square (p := p) (m := dZdh.proc.massNum (dZdh.rho c)) (dZdh.mass_eq hc 0) (dZdh.mass_eq hc 2) (.inl ⟨m0, rfl⟩) (.inl ⟨m2, rfl⟩)
    have v8x1y1 : (dZdh.N c p).v 8 [spinOf a1, spinOf b1] = mb (dZdh.react.codePair c p 1 a1).2 (p 3) (dZdh.react.codePair c p 1 b1).1 := bra_mid_square (p := p) (m := dZdh.proc.massNum (dZdh.rho c)) (dZdh.mass_eq hc 1) (dZdh.mass_eq hc 1) (.inl ⟨m1, rfl⟩) (.inl ⟨m1, rfl⟩)
    have v2x1z2 : (dZdh.N c p).v 2 [spinOf a1, spinOf s2] = sb (dZdh.react.codePair c p 1 a1).2 (dZdh.react.codePair c p 2 s2).2 := bra_square (p := p) (m := dZdh.proc.massNum (dZdh.rho c)) (dZdh.mass_eq hc 1) (dZdh.mass_eq hc 2) (.inl ⟨m1, rfl⟩) (.inl ⟨m2, rfl⟩)
    have v1z0y1 : (dZdh.N c p).v 1 [spinOf s0, spinOf b1] = ab (dZdh.react.codePair c p 0 s0).1 (dZdh.react.codePair c p 1 b1).1 := bra_angle (p := p) (m := dZdh.proc.massNum (dZdh.rho c)) (dZdh.mass_eq hc 0) (dZdh.mass_eq hc 1) (.inl ⟨m0, rfl⟩) (.inl ⟨m1, rfl⟩)
    have v3x1z2 : (dZdh.N c p).v 3 [spinOf a1, spinOf s2] = ab (dZdh.react.codePair c p 1 a1).1 (dZdh.react.codePair c p 2 s2).1 := bra_angle (p := p) (m := dZdh.proc.massNum (dZdh.rho c)) (dZdh.mass_eq hc 1) (dZdh.mass_eq hc 2) (.inl ⟨m1, rfl⟩) (.inl ⟨m2, rfl⟩)
    have v0z0y1 : (dZdh.N c p).v 0 [spinOf s0, spinOf b1] = sb (dZdh.react.codePair c p 0 s0).2 (dZdh.react.codePair c p 1 b1).2 := bra_square (p := p) (m := dZdh.proc.massNum (dZdh.rho c)) (dZdh.mass_eq hc 0) (dZdh.mass_eq hc 1) (.inl ⟨m0, rfl⟩) (.inl ⟨m1, rfl⟩)
    have v1z0x1 : (dZdh.N c p).v 1 [spinOf s0, spinOf a1] = ab (dZdh.react.codePair c p 0 s0).1 (dZdh.react.codePair c p 1 a1).1 := bra_angle (p := p) (m := dZdh.proc.massNum (dZdh.rho c)) (dZdh.mass_eq hc 0) (dZdh.mass_eq hc 1) (.inl ⟨m0, rfl⟩) (.inl ⟨m1, rfl⟩)
    have v2y1z2 : (dZdh.N c p).v 2 [spinOf b1, spinOf s2] = sb (dZdh.react.codePair c p 1 b1).2 (dZdh.react.codePair c p 2 s2).2 := bra_square (p := p) (m := dZdh.proc.massNum (dZdh.rho c)) (dZdh.mass_eq hc 1) (dZdh.mass_eq hc 2) (.inl ⟨m1, rfl⟩) (.inl ⟨m2, rfl⟩)
    have v7y1z2 : (dZdh.N c p).v 7 [spinOf b1, spinOf s2] = mb (dZdh.react.codePair c p 1 b1).2 (p 0) (dZdh.react.codePair c p 2 s2).1 := bra_mid_square (p := p) (m := dZdh.proc.massNum (dZdh.rho c)) (dZdh.mass_eq hc 1) (dZdh.mass_eq hc 2) (.inl ⟨m1, rfl⟩) (.inl ⟨m2, rfl⟩)
    have v3y1z2 : (dZdh.N c p).v 3 [spinOf b1, spinOf s2] = ab (dZdh.react.codePair c p 1 b1).1 (dZdh.react.codePair c p 2 s2).1 := bra_angle (p := p) (m := dZdh.proc.massNum (dZdh.rho c)) (dZdh.mass_eq hc 1) (dZdh.mass_eq hc 2) (.inl ⟨m1, rfl⟩) (.inl ⟨m2, rfl⟩)
    have v0z0x1 : (dZdh.N c p).v 0 [spinOf s0, spinOf a1] = sb (dZdh.react.codePair c p 0 s0).2 (dZdh.react.codePair c p 1 a1).2 := bra_square (p := p) (m := dZdh.proc.massNum (dZdh.rho c)) (dZdh.mass_eq hc 0) (dZdh.mass_eq hc 1) (.inl ⟨m0, rfl⟩) (.inl ⟨m1, rfl⟩)
    have v6z2y1 : (dZdh.N c p).v 6 [spinOf s2, spinOf b1] = mb (dZdh.react.codePair c p 2 s2).2 (p 0) (dZdh.react.codePair c p 1 b1).1 := bra_mid_square (p := p) (m := dZdh.proc.massNum (dZdh.rho c)) (dZdh.mass_eq hc 2) (dZdh.mass_eq hc 1) (.inl ⟨m2, rfl⟩) (.inl ⟨m1, rfl⟩)
    have v9z0y1 : (dZdh.N c p).v 9 [spinOf s0, spinOf b1] = mb (dZdh.react.codePair c p 0 s0).2 (p 3) (dZdh.react.codePair c p 1 b1).1 := bra_mid_square (p := p) (m := dZdh.proc.massNum (dZdh.rho c)) (dZdh.mass_eq hc 0) (dZdh.mass_eq hc 1) (.inl ⟨m0, rfl⟩) (.inl ⟨m1, rfl⟩)
    have v10y1z0 : (dZdh.N c p).v 10 [spinOf b1, spinOf s0] = mb (dZdh.react.codePair c p 1 b1).2 (p 3) (dZdh.react.codePair c p 0 s0).1 := bra_mid_square (p := p) (m := dZdh.proc.massNum (dZdh.rho c)) (dZdh.mass_eq hc 1) (dZdh.mass_eq hc 0) (.inl ⟨m1, rfl⟩) (.inl ⟨m0, rfl⟩)
    simp only [dZdh.term, dZdh.form, v5z0z2, v4z0z2, v8x1y1, v2x1z2, v1z0y1, v3x1z2, v0z0y1, v1z0x1, v2y1z2, v7y1z2, v3y1z2, v0z0x1, v6z2y1, v9z0y1, v10y1z0]
    push_cast
    ring
  show meaning (dZdh.N c p) .r Cls.dZdh.methods Cls.dZdh.amp2 [] = _
  have lc : dZdh.react.lineColours 2 0 = 3 := by decide +kernel
  have s0 : dZdh.react.states 0 = 6 := by decide
  have s1 : dZdh.react.states 1 = 3 := by decide
  have sy : dZdh.react.symmetry = 1 := by decide
  have p0 : dZdh.react.spins 0 = {0, 1} := rfl
  have p1 : dZdh.react.spins 1 = Finset.univ := rfl
  have p2 : dZdh.react.spins 2 = {0, 1} := rfl
  have p3 : dZdh.react.spins 3 = {0} := rfl
  rw [dZdh.value, dZdh.react.squared_line he ht hB (noGluon_of hM) hs h0 (fun _ b _ hb _ => (boson_pos hc hh hb).ne') (dZdh.react.gauge_massive (massive_of hM)) (E := dZdh.react.codeVec c p) (fun n b hl => dZdh.react.codeVec_polarised hs h0 hl (massive_of hM n b hl) (fun _ => (boson_pos hc hh (massive_of hM n b hl)).ne')) hu, sum_colours, lc, s0, s1, sy]
  simp only [sumV_sum, sumJ_sum, am, norm_mul, norm_neg, norm_one, one_mul, p0, p1, p2, p3, Finset.sum_singleton, sum_two, Matrix.cons_val_zero, Matrix.cons_val_one, Matrix.cons_val, two_castSucc]
  try simp only [← Finset.mul_sum]
  push_cast
  first | ring1 | ring_nf

/-! ### uZuh -/

/-- what the methods of the class see -/
noncomputable abbrev uZuh.N [FPEnv] (c : Constants) (p : Nat → V4 ℝ) : Env := uZuh.proc.env (uZuh.rho c) p
/-- the term that `amp` adds for a choice of spinors (SM/uZuh.cpp) -/
noncomputable def uZuh.term (N : Env) (w : ℝ) (x : ℂ) (j1 a1 b1 j3 : Int) : ℂ :=
  (((x + (((((w * N.r 11) : ℝ) : ℂ) * ((((((N.r 1 * (N.r 12 - N.r 13)) : ℝ) : ℂ) * (N.v 5 [j1, j3] + N.v 4 [j1, j3])) * N.v 8 [a1, b1]) - (((((((2 : Nat) : ℝ) * N.r 7) * N.r 7) : ℝ) : ℂ) * (((((N.r 12 : ℝ) : ℂ) * N.v 2 [a1, j3]) * N.v 1 [j1, b1]) - ((((N.r 13 : ℝ) : ℂ) * N.v 3 [a1, j3]) * N.v 0 [j1, b1]))))) / N.c 1)) + (((((w * N.r 10) : ℝ) : ℂ) * (((((N.r 12 : ℝ) : ℂ) * N.v 1 [j1, a1]) * ((((((-N.r 1) : ℝ) : ℂ) * N.v 2 [b1, j3]) + N.v 6 [b1, j3]) + (((N.r 7 : ℝ) : ℂ) * N.v 3 [b1, j3]))) + ((((N.r 13 : ℝ) : ℂ) * N.v 0 [j1, a1]) * (((((N.r 1 : ℝ) : ℂ) * N.v 3 [b1, j3]) - N.v 7 [j3, b1]) - (((N.r 7 : ℝ) : ℂ) * N.v 2 [b1, j3]))))) / N.c 0)) + ((((((-w) * N.r 10) : ℝ) : ℂ) * (((((N.r 12 : ℝ) : ℂ) * N.v 2 [a1, j3]) * ((-N.v 9 [j1, b1]) + ((((((2 : Nat) : ℝ) * N.r 1) : ℝ) : ℂ) * N.v 1 [j1, b1]))) - ((((N.r 13 : ℝ) : ℂ) * N.v 3 [a1, j3]) * ((-N.v 10 [b1, j1]) + ((((((2 : Nat) : ℝ) * N.r 1) : ℝ) : ℂ) * N.v 0 [j1, b1]))))) / N.c 2))
/-- the same with spinors in place of their spins -/
noncomputable def uZuh.form (N : Env) (p : Nat → V4 ℝ) (z0 x1 y1 z2 : Pair) : ℂ :=
  (((0 + (((((((1 : Nat) : ℝ) * N.r 11) : ℝ) : ℂ) * ((((((N.r 1 * (N.r 12 - N.r 13)) : ℝ) : ℂ) * ((ab z0.1 z2.1) + (sb z0.2 z2.2))) * (mb x1.2 (p 3) y1.1)) - (((((((2 : Nat) : ℝ) * N.r 7) * N.r 7) : ℝ) : ℂ) * (((((N.r 12 : ℝ) : ℂ) * (sb x1.2 z2.2)) * (ab z0.1 y1.1)) - ((((N.r 13 : ℝ) : ℂ) * (ab x1.1 z2.1)) * (sb z0.2 y1.2)))))) / N.c 1)) + (((((((1 : Nat) : ℝ) * N.r 10) : ℝ) : ℂ) * (((((N.r 12 : ℝ) : ℂ) * (ab z0.1 x1.1)) * ((((((-N.r 1) : ℝ) : ℂ) * (sb y1.2 z2.2)) + (mb y1.2 (p 0) z2.1)) + (((N.r 7 : ℝ) : ℂ) * (ab y1.1 z2.1)))) + ((((N.r 13 : ℝ) : ℂ) * (sb z0.2 x1.2)) * (((((N.r 1 : ℝ) : ℂ) * (ab y1.1 z2.1)) - (mb z2.2 (p 0) y1.1)) - (((N.r 7 : ℝ) : ℂ) * (sb y1.2 z2.2)))))) / N.c 0)) + ((((((-((1 : Nat) : ℝ)) * N.r 10) : ℝ) : ℂ) * (((((N.r 12 : ℝ) : ℂ) * (sb x1.2 z2.2)) * ((-(mb z0.2 (p 3) y1.1)) + ((((((2 : Nat) : ℝ) * N.r 1) : ℝ) : ℂ) * (ab z0.1 y1.1)))) - ((((N.r 13 : ℝ) : ℂ) * (ab x1.1 z2.1)) * ((-(mb y1.2 (p 3) z0.1)) + ((((((2 : Nat) : ℝ) * N.r 1) : ℝ) : ℂ) * (sb z0.2 y1.2)))))) / N.c 2))
theorem uZuh.key {c : Constants} {p : Nat → V4 ℝ} {N : Env} (hc : c.Physical) (hb : Balanced p) (r1 : N.r 1 = (c.mass .u)) (r7 : N.r 7 = (c.MW / c.CW)) (r10 : N.r 10 = ((((√(((2 : Nat) : ℝ)) * c.e) * c.e) * (c.mass .u)) / ((((((4 : Nat) : ℝ) * c.MW) * c.MW) * c.SW) * c.SW))) (r11 : N.r 11 = (((√(((2 : Nat) : ℝ)) * c.e) * c.e) / ((((((4 : Nat) : ℝ) * c.MW) * c.MW) * c.SW) * c.SW))) (r12 : N.r 12 = (((((-((4 : Nat) : ℝ)) / ((3 : Nat) : ℝ)) * c.SW) * c.SW) + ((1 : Nat) : ℝ))) (r13 : N.r 13 = ((((-((4 : Nat) : ℝ)) / ((3 : Nat) : ℝ)) * c.SW) * c.SW)) (d0 : ((msq (plus (p 0) (p 1)) - c.mass .u ^ 2 : ℝ) : ℂ) = N.c 0) (n0 : N.c 0 ≠ 0) (d1 : pole c.MZ c.WZ (plus (p 1) (backward (p 3))) = N.c 1) (n1 : N.c 1 ≠ 0) (d2 : ((msq (plus (p 0) (backward (p 3))) - c.mass .u ^ 2 : ℝ) : ℂ) = N.c 2) (n2 : N.c 2 ≠ 0) {z0 z1 z2 : Pair} (b0 : Bold (p 0) (c.mass .u) z0) (b1 : Bold (p 1) c.MZ z1) (b2 : Bold (p 2) (c.mass .u) z2) (E3 : Vec) :
    uZuh.form N p z0 z1 z1 z2 = -(((√2 / c.MZ : ℝ) : ℂ) * uZuh.react.bare c p 2 0 1 3 z2 z0 (pv z1.1 z1.2) E3) := by
  rw [uZuh.react.bare_parts c p (i := 2) (j := 0) (a := 1) (b := 3) (x := .z) (y := .higgs) (k := (p 1)) (k' := (backward (p 3))) (fun _ => rfl) (fun _ => rfl) (f := .u) (g := .u) rfl rfl (l := (p 0)) rfl (e := 1) (e' := 1) (if_neg Bool.false_ne_true) (if_neg Bool.false_ne_true)]
  rw [compton_vh (f := .u) (x := .u) (g := .u) (h := (rfl : Spec.after .z Flavour.u = some Flavour.u)) (h' := (rfl : Spec.after .higgs Flavour.u = some Flavour.u)) (ha := by simp)]
  rw [compton_hv (f := .u) (x := .u) (g := .u) (h := (rfl : Spec.after .higgs Flavour.u = some Flavour.u)) (h' := (rfl : Spec.after .z Flavour.u = some Flavour.u)) (hb := by simp)]
  have an := annihilation_neutral c (1) (1) z2.1 z2.2 z0.1 z0.2 ⟨.z, (p 1), pv z1.1 z1.2⟩ ⟨.higgs, (backward (p 3)), E3⟩ .u
  dsimp only at an
  rw [an, uZuh.form]
  clear an
  rw [lineV_massless (hx := (rfl : Boson.massive .photon = false))]
  rw [lineV_massive (hx := (rfl : Boson.massive .z = true))]
  simp only [toHiggs, toVector, higgs2, gauge3, Boson.anti, Constants.bosonMass, Constants.bosonWidth, d0, d1, d2, reduceCtorEq, and_self, and_true, and_false, and_true, if_true, if_false, Complex.ofReal_zero, zero_smul, zero_mul, mul_zero, zero_div, neg_zero, add_zero, zero_add, lineH, lineV_zero, contract_zero, lineV_smul, contract_smul, lineV_pv, lineV_four, contract_four_pv, contract_pv, mb_plus, mb_backward]
  simp only [b0.mb_left, b0.mb_right, b1.mb_left, b1.mb_right, b2.mb_left, b2.mb_right, mb_three hb z0.2 z0.1, mb_three hb z0.2 z1.1, mb_three hb z0.2 z2.1, mb_three hb z1.2 z0.1, mb_three hb z1.2 z1.1, mb_three hb z1.2 z2.1, mb_three hb z2.2 z0.1, mb_three hb z2.2 z1.1, mb_three hb z2.2 z2.1, ab_self, sb_self]
  simp only [ab_swap z0.1 z1.1, sb_swap z0.2 z1.2, ab_swap z0.1 z2.1, sb_swap z0.2 z2.2, ab_swap z1.1 z2.1, sb_swap z1.2 z2.2, r1, r7, r10, r11, r12, r13, Constants.hL, Constants.hR, Constants.gL, Constants.gR, Constants.yuk, Constants.invVev, Flavour.charge_u, Flavour.isospin_u, ← c.mz]
  have xMW : (c.MW : ℂ) ≠ 0 := by exact_mod_cast hc.MW
  have xSW : (c.SW : ℂ) ≠ 0 := by exact_mod_cast hc.SW
  have xCW : (c.CW : ℂ) ≠ 0 := by exact_mod_cast hc.CW
  have x2 : ((√2 : ℝ) : ℂ) ≠ 0 := by exact_mod_cast (Real.sqrt_pos.2 two_pos).ne'
  have x22 : ((√2 : ℝ) : ℂ) ^ 2 = 2 := by rw [← Complex.ofReal_pow, Real.sq_sqrt two_pos.le]; norm_num
  push_cast
  field_simp
  first | ring1 | (ring_nf; simp only [x22]; ring1)
set_option maxRecDepth 8000 in
theorem uZuh.amp2_eq (N : Env) (f : Nat → List Int → ℂ) : Cls.uZuh.m_amp2.mean N f .r [] =
    ((sumJ (fun x a => (sumV (fun x b => (sumJ (fun x c => (x + (((3 : Nat) : ℝ) * (‖(f 0 [a, b, c])‖ ^ 2)))) x)) x)) ((0 : Nat) : ℝ)) / ((18 : Nat) : ℝ)) := by rfl
set_option maxRecDepth 8000 in
theorem uZuh.value (N : Env) : meaning N .r Cls.uZuh.methods Cls.uZuh.amp2 [] =
    ((sumJ (fun x a => (sumV (fun x b => (sumJ (fun x c => (x + (((3 : Nat) : ℝ) * (‖(Cls.uZuh.m_amp.mean N (callMean N []) .c [a, b, c])‖ ^ 2)))) x)) x)) ((0 : Nat) : ℝ)) / ((18 : Nat) : ℝ)) :=
  uZuh.amp2_eq N (callMean N [Cls.uZuh.m_amp])
set_option maxRecDepth 8000 in
theorem uZuh.term_lin (N : Env) (w : ℝ) (x : ℂ) (j1 a1 b1 j3 : Int) : uZuh.term N w x j1 a1 b1 j3 = x + (w : ℂ) * uZuh.term N 1 0 j1 a1 b1 j3 := by
  simp only [uZuh.term]; push_cast; ring
theorem uZuh.amp_eq (N : Env) (f : Nat → List Int → ℂ) (j1 j3 : Int) (t1 : Fin 3) : Cls.uZuh.m_amp.mean N f .c [j1, spinV t1, j3] = comb t1 (fun a1 b1 => uZuh.term N 1 0 j1 (spinOf a1) (spinOf b1) j3) := by
  refine (amp_mean N f (m := 3) (K := 5) (G := fun i => uZuh.term N 1 0 (i 0) (i 3) (i 4) (i 2)) (fun l => ?_) (fun i i' h => ?_) rfl (by decide) (by decide) (by decide) (by decide) (by decide)).trans ?_
  · refine ⟨_, rfl, ?_⟩; exact ⟨rfl, rfl, uZuh.term_lin ..⟩
  · simp only [h 0 (by decide), h 3 (by decide), h 4 (by decide), h 2 (by decide)]
  · show amp' _ [spinV t1] = _
    simp only [amp'_comb, amp'_nil]
    rfl
theorem uZuh.form_x1 (N : Env) (p : Nat → V4 ℝ) (z0 y1 z2 x y : Pair) : uZuh.form N p z0 (x + y) y1 z2 = uZuh.form N p z0 x y1 z2 + uZuh.form N p z0 y y1 z2 := by
  simp only [uZuh.form, Prod.fst_add, Prod.snd_add, ab_add_left, ab_add_right, sb_add_left, sb_add_right, mb_add_left, mb_add_right]
  ring
theorem uZuh.form_y1 (N : Env) (p : Nat → V4 ℝ) (z0 x1 z2 x y : Pair) : uZuh.form N p z0 x1 (x + y) z2 = uZuh.form N p z0 x1 x z2 + uZuh.form N p z0 x1 y z2 := by
  simp only [uZuh.form, Prod.fst_add, Prod.snd_add, ab_add_left, ab_add_right, sb_add_left, sb_add_right, mb_add_left, mb_add_right]
  ring

theorem uZuh.mass_eq {c : Constants} (hc : c.Physical) (i : Fin 4) : uZuh.proc.massNum (uZuh.rho c) i = uZuh.react.mass c i := by
  fin_cases i <;> first | rfl | exact Nat.cast_zero.trans (hc.neutrino _).symm | (show c.MW / √(((1 : Nat) : ℝ) - c.SW * c.SW) = c.MZ; rw [c.root, c.mz])

variable [FPEnv] in
theorem uZuh.agrees : uZuh.Agrees := by
  refine agrees_of (D := [4, 5]) (E := [5]) (by simp [all, uZuh]) (by decide +kernel) (by decide) (by decide +kernel) (fun c hc hh => ⟨List.forall_mem_cons.2 ⟨hc.MW, List.forall_mem_cons.2 ⟨hc.SW, List.forall_mem_nil _⟩⟩, List.forall_mem_cons.2 ⟨hc.SW_lt, List.forall_mem_nil _⟩⟩) (fun c hc i => uZuh.mass_eq hc i) (by decide +kernel) ?_
  intro c p u ε hc hh hw h0 hs hb hr hu
  have he : uZuh.react.ends = [2] := by decide
  have ht : uZuh.react.starts = [0] := by decide
  have hB : uZuh.react.bosons = [1, 3] := by decide
  have hM : uZuh.react.allMassive = true := by decide
  obtain ⟨f1, f2, f3⟩ := uZuh.react.regular_line he ht hB hr
  have r1 : (uZuh.N c p).r 1 = (c.mass .u) := rfl
  have r7 : (uZuh.N c p).r 7 = (c.MW / √((((1 : Nat) : ℝ) - (c.SW * c.SW)))) := rfl
  simp only [c.root] at r7
  have r10 : (uZuh.N c p).r 10 = ((((√(((2 : Nat) : ℝ)) * c.e) * c.e) * (c.mass .u)) / ((((((4 : Nat) : ℝ) * c.MW) * c.MW) * c.SW) * c.SW)) := rfl
  have r11 : (uZuh.N c p).r 11 = (((√(((2 : Nat) : ℝ)) * c.e) * c.e) / ((((((4 : Nat) : ℝ) * c.MW) * c.MW) * c.SW) * c.SW)) := rfl
  have r12 : (uZuh.N c p).r 12 = (((((-((4 : Nat) : ℝ)) / ((3 : Nat) : ℝ)) * c.SW) * c.SW) + ((1 : Nat) : ℝ)) := rfl
  have r13 : (uZuh.N c p).r 13 = ((((-((4 : Nat) : ℝ)) / ((3 : Nat) : ℝ)) * c.SW) * c.SW) := rfl
  have c0 : (uZuh.N c p).c 0 = poleDist (c.mass .u) ((0 : Nat) : ℝ) ((VExp.add 0 1).sum p) := rfl
  rw [Nat.cast_zero, pole_fermion (msq_s hb (plus (p 0) (p 1)) (by simp))] at c0
  have d0 : ((msq (plus (p 0) (p 1)) - c.mass .u ^ 2 : ℝ) : ℂ) = (uZuh.N c p).c 0 := by rw [c0]
  have n0 : (uZuh.N c p).c 0 ≠ 0 := by rw [← d0]; exact_mod_cast f1 .u rfl rfl
  have c1 : (uZuh.N c p).c 1 = poleDist (c.MW / √((((1 : Nat) : ℝ) - (c.SW * c.SW)))) c.WZ ((VExp.sub 0 2).sum p) := rfl
  rw [c.root, c.mz, pole_congr (msq_t hb (plus (p 1) (backward (p 3))) (by simp)).symm] at c1
  have d1 : pole c.MZ c.WZ (plus (p 1) (backward (p 3))) = (uZuh.N c p).c 1 := by rw [c1]
  have n1 : (uZuh.N c p).c 1 ≠ 0 := by rw [← d1]; exact star_ne_zero.2 (f3 .z rfl rfl)
  have c2 : (uZuh.N c p).c 2 = poleDist (c.mass .u) ((0 : Nat) : ℝ) ((VExp.sub 0 3).sum p) := rfl
  rw [Nat.cast_zero, pole_fermion (msq_u hb (plus (p 0) (backward (p 3))) (by simp))] at c2
  have d2 : ((msq (plus (p 0) (backward (p 3))) - c.mass .u ^ 2 : ℝ) : ℂ) = (uZuh.N c p).c 2 := by rw [c2]
  have n2 : (uZuh.N c p).c 2 ≠ 0 := by rw [← d2]; exact_mod_cast f2 .u rfl rfl
  have m0 : uZuh.react.mass c 0 ≠ 0 := (leg_pos hc hh (by decide)).ne'
  have m1 : uZuh.react.mass c 1 ≠ 0 := (leg_pos hc hh (by decide)).ne'
  have m2 : uZuh.react.mass c 2 ≠ 0 := (leg_pos hc hh (by decide)).ne'
  have hd : uZuh.proc.divides = [(Ty.c, 1), (Ty.c, 0), (Ty.c, 2)] := by decide +kernel
  refine ⟨fun n hn => ?_, fun n hn => ?_, ?_⟩
  · simp [hd] at hn
  · simp [hd] at hn
    rcases hn with rfl | rfl | rfl
    · exact n1
    · exact n0
    · exact n2
  have st : ∀ {z0 z2 : Pair} (b0 : Bold (p 0) (uZuh.react.mass c 0) z0) (b2 : Bold (p 2) (uZuh.react.mass c 2) z2) (t1 : Fin 3), comb t1 (fun a1 b1 => uZuh.form (uZuh.N c p) p z0 (uZuh.react.codePair c p 1 a1) (uZuh.react.codePair c p 1 b1) z2) = (-1) * uZuh.react.bare c p 2 0 1 3 z2 z0 (uZuh.react.codeVec c p 1 t1) (uZuh.react.codeVec c p 3 0) := by
    intro z0 z2 b0 b2 t1
    refine one_vector (p := p 1) (m := uZuh.react.mass c 1) (fun s => uZuh.react.codePair_bold hs h0 1 s) (B := fun x y => uZuh.form (uZuh.N c p) p z0 x y z2) (G := fun E => uZuh.react.bare c p 2 0 1 3 z2 z0 E (uZuh.react.codeVec c p 3 0)) (fun x y z => ?_) (fun x y z => ?_) (uZuh.react.bare_lin₁ c p _ _ _ (by decide)) (-1) (fun z1 b1 => ?_) t1
    · exact uZuh.form_x1 ..
    · exact uZuh.form_y1 ..
    · rw [neg_one_mul]; exact uZuh.key hc hb r1 r7 r10 r11 r12 r13 d0 n0 d1 n1 d2 n2 b0 b1 b2 (uZuh.react.codeVec c p 3 0)
  have am : ∀ (s0 : Fin 2) (s2 : Fin 2) (t1 : Fin 3), Cls.uZuh.m_amp.mean (uZuh.N c p) (callMean (uZuh.N c p) []) .c [spinOf s0, spinV t1, spinOf s2] = (-1) * uZuh.react.bare c p 2 0 1 3 (uZuh.react.codePair c p 2 s2) (uZuh.react.codePair c p 0 s0) (uZuh.react.codeVec c p 1 t1) (uZuh.react.codeVec c p 3 0) := by
    intro s0 s2 t1
    rw [uZuh.amp_eq, ← st (uZuh.react.codePair_bold hs h0 0 s0) (uZuh.react.codePair_bold hs h0 2 s2) t1]
    refine congrArg (comb t1) (funext fun a1 => funext fun b1 => ?_)
    have v5z0z2 : (uZuh.N c p).v 5 [spinOf s0, spinOf s2] = ab (uZuh.react.codePair c p 0 s0).1 (uZuh.react.codePair c p 2 s2).1 := bra_angle (p := p) (m := uZuh.proc.massNum (uZuh.rho c)) (uZuh.mass_eq hc 0) (uZuh.mass_eq hc 2) (.inl ⟨m0, rfl⟩) (.inl ⟨m2, rfl⟩)
    have v4z0z2 : (uZuh.N c p).v 4 [spinOf s0, spinOf s2] = sb (uZuh.react.codePair c p 0 s0).2 (uZuh.react.codePair c p 2 s2).2 := bra_square (p := p) (m := uZuh.proc.massNum (uZuh.rho c)) (uZuh.mass_eq hc 0) (uZuh.mass_eq hc 2) (.inl ⟨m0, rfl⟩) (.inl ⟨m2, rfl⟩)
    have v8x1y1 : (uZuh.N c p).v 8 [spinOf a1, spinOf b1] = mb (uZuh.react.codePair c p 1 a1).2 (p 3) (uZuh.react.codePair c p 1 b1).1 := bra_mid_square (p := p) (m := uZuh.proc.massNum (uZuh.rho c)) (uZuh.mass_eq hc 1) (uZuh.mass_eq hc 1) (.inl ⟨m1, rfl⟩) (.inl ⟨m1, rfl⟩)
    have v2x1z2 : (uZuh.N c p).v 2 [spinOf a1, spinOf s2] = sb (uZuh.react.codePair c p 1 a1).2 (uZuh.react.codePair c p 2 s2).2 := bra_square (p := p) (m := uZuh.proc.massNum (uZuh.rho c)) (uZuh.mass_eq hc 1) (uZuh.mass_eq hc 2) (.inl ⟨m1, rfl⟩) (.inl ⟨m2, rfl⟩)
    have v1z0y1 : (uZuh.N c p).v 1 [spinOf s0, spinOf b1] = ab (uZuh.react.codePair c p 0 s0).1 (uZuh.react.codePair c p 1 b1).1 := bra_angle (p := p) (m := uZuh.proc.massNum (uZuh.rho c)) (uZuh.mass_eq hc 0) (uZuh.mass_eq hc 1) (.inl ⟨m0, rfl⟩) (.inl ⟨m1, rfl⟩)
    have v3x1z2 : (uZuh.N c p).v 3 [spinOf a1, spinOf s2] = ab (uZuh.react.codePair c p 1 a1).1 (uZuh.react.codePair c p 2 s2).1 := bra_angle (p := p) (m := uZuh.proc.massNum (uZuh.rho c)) (uZuh.mass_eq hc 1) (uZuh.mass_eq hc 2) (.inl ⟨m1, rfl⟩) (.inl ⟨m2, rfl⟩)
    have v0z0y1 : (uZuh.N c p).v 0 [spinOf s0, spinOf b1] = sb (uZuh.react.codePair c p 0 s0).2 (uZuh.react.codePair c p 1 b1).2 := bra_square (p := p) (m := uZuh.proc.massNum (uZuh.rho c)) (uZuh.mass_eq hc 0) (uZuh.mass_eq hc 1) (.inl ⟨m0, rfl⟩) (.inl ⟨m1, rfl⟩)
    have v1z0x1 : (uZuh.N c p).v 1 [spinOf s0, spinOf a1] = ab (uZuh.react.codePair c p 0 s0).1 (uZuh.react.codePair c p 1 a1).1 := bra_angle (p := p) (m := uZuh.proc.massNum (uZuh.rho c)) (uZuh.mass_eq hc 0) (uZuh.mass_eq hc 1) (.inl ⟨m0, rfl⟩) (.inl ⟨m1, rfl⟩)
    have v2y1z2 : (uZuh.N c p).v 2 [spinOf b1, spinOf s2] = sb (uZuh.react.codePair c p 1 b1).2 (uZuh.react.codePair c p 2 s2).2 := bra_square (p := p) (m := uZuh.proc.massNum (uZuh.rho c)) (uZuh.mass_eq hc 1) (uZuh.mass_eq hc 2) (.inl ⟨m1, rfl⟩) (.inl ⟨m2, rfl⟩)
    have v6y1z2 : (uZuh.N c p).v 6 [spinOf b1, spinOf s2] = mb (uZuh.react.codePair c p 1 b1).2 (p 0) (uZuh.react.codePair c p 2 s2).1 := bra_mid_square (p := p) (m := uZuh.proc.massNum (uZuh.rho c)) (uZuh.mass_eq hc 1) (uZuh.mass_eq hc 2) (.inl ⟨m1, rfl⟩) (.inl ⟨m2, rfl⟩)
    have v3y1z2 : (uZuh.N c p).v 3 [spinOf b1, spinOf s2] = ab (uZuh.react.codePair c p 1 b1).1 (uZuh.react.codePair c p 2 s2).1 := bra_angle (p := p) (m := uZuh.proc.massNum (uZuh.rho c)) (uZuh.mass_eq hc 1) (uZuh.mass_eq hc 2) (.inl ⟨m1, rfl⟩) (.inl ⟨m2, rfl⟩)
    have v0z0x1 : (uZuh.N c p).v 0 [spinOf s0, spinOf a1] = sb (uZuh.react.codePair c p 0 s0).2 (uZuh.react.codePair c p 1 a1).2 := bra_square (p := p) (m := uZuh.proc.massNum (uZuh.rho c)) (uZuh.mass_eq hc 0) (uZuh.mass_eq hc 1) (.inl ⟨m0, rfl⟩) (.inl ⟨m1, rfl⟩)
    have v7z2y1 : (uZuh.N c p).v 7 [spinOf s2, spinOf b1] = mb (uZuh.react.codePair c p 2 s2).2 (p 0) (uZuh.react.codePair c p 1 b1).1 := bra_mid_square (p := p) (m := uZuh.proc.massNum (uZuh.rho c)) (uZuh.mass_eq hc 2) (uZuh.mass_eq hc 1) (.inl ⟨m2, rfl⟩) (.inl ⟨m1, rfl⟩)
    have v9z0y1 : (uZuh.N c p).v 9 [spinOf s0, spinOf b1] = mb (uZuh.react.codePair c p 0 s0).2 (p 3) (uZuh.react.codePair c p 1 b1).1 := bra_mid_square (p := p) (m := uZuh.proc.massNum (uZuh.rho c)) (uZuh.mass_eq hc 0) (uZuh.mass_eq hc 1) (.inl ⟨m0, rfl⟩) (.inl ⟨m1, rfl⟩)
    have v10y1z0 : (uZuh.N c p).v 10 [spinOf b1, spinOf s0] = mb (uZuh.react.codePair c p 1 b1).2 (p 3) (uZuh.react.codePair c p 0 s0).1 := bra_mid_square (p := p) (m := uZuh.proc.massNum (uZuh.rho c)) (uZuh.mass_eq hc 1) (uZuh.mass_eq hc 0) (.inl ⟨m1, rfl⟩) (.inl ⟨m0, rfl⟩)
    simp only [uZuh.term, uZuh.form, v5z0z2, v4z0z2, v8x1y1, v2x1z2, v1z0y1, v3x1z2, v0z0y1, v1z0x1, v2y1z2, v6y1z2, v3y1z2, v0z0x1, v7z2y1, v9z0y1, v10y1z0]
    push_cast
    ring
  show meaning (uZuh.N c p) .r Cls.uZuh.methods Cls.uZuh.amp2 [] = _
  have lc : uZuh.react.lineColours 2 0 = 3 := by decide +kernel
  have s0 : uZuh.react.states 0 = 6 := by decide
  have s1 : uZuh.react.states 1 = 3 := by decide
  have sy : uZuh.react.symmetry = 1 := by decide
  have p0 : uZuh.react.spins 0 = {0, 1} := rfl
  have p1 : uZuh.react.spins 1 = Finset.univ := rfl
  have p2 : uZuh.react.spins 2 = {0, 1} := rfl
  have p3 : uZuh.react.spins 3 = {0} := rfl
  rw [uZuh.value, uZuh.react.squared_line he ht hB (noGluon_of hM) hs h0 (fun _ b _ hb _ => (boson_pos hc hh hb).ne') (uZuh.react.gauge_massive (massive_of hM)) (E := uZuh.react.codeVec c p) (fun n b hl => uZuh.react.codeVec_polarised hs h0 hl (massive_of hM n b hl) (fun _ => (boson_pos hc hh (massive_of hM n b hl)).ne')) hu, sum_colours, lc, s0, s1, sy]
  simp only [sumV_sum, sumJ_sum, am, norm_mul, norm_neg, norm_one, one_mul, p0, p1, p2, p3, Finset.sum_singleton, sum_two, Matrix.cons_val_zero, Matrix.cons_val_one, Matrix.cons_val, two_castSucc]
  try simp only [← Finset.mul_sum]
  push_cast
  first | ring1 | ring_nf

/-! ### nZnh -/

/-- what the methods of the class see -/
noncomputable abbrev nZnh.N [FPEnv] (c : Constants) (p : Nat → V4 ℝ) : Env := nZnh.proc.env (nZnh.rho c) p
/-- the term that `amp` adds for a choice of spinors (SM/nZnh.cpp) -/
noncomputable def nZnh.term (N : Env) (w : ℝ) (x : ℂ) (a1 b1 : Int) : ℂ :=
  (x + (((((((-w) * N.r 8) : ℝ) : ℂ) * N.v 0 [a1]) * N.v 1 [b1]) / N.c 0))
/-- the same with spinors in place of their spins -/
noncomputable def nZnh.form (N : Env) (p : Nat → V4 ℝ) (z0 x1 y1 z2 : Pair) : ℂ :=
  (0 + (((((((-((1 : Nat) : ℝ)) * N.r 8) : ℝ) : ℂ) * (sb x1.2 z2.2)) * (ab z0.1 y1.1)) / N.c 0))
theorem nZnh.key {c : Constants} {p : Nat → V4 ℝ} {N : Env} (hc : c.Physical) (hb : Balanced p) (r8 : N.r 8 = ((((√(((2 : Nat) : ℝ)) * ((2 : Nat) : ℝ)) * c.e) * c.e) / ((((((4 : Nat) : ℝ) * c.CW) * c.CW) * c.SW) * c.SW))) (d0 : pole c.MZ c.WZ (plus (p 1) (backward (p 3))) = N.c 0) (n0 : N.c 0 ≠ 0) {z0 z1 z2 : Pair} (b0 : Bold (p 0) (c.mass .ne) z0) (b1 : Bold (p 1) c.MZ z1) (b2 : Bold (p 2) (c.mass .ne) z2) (E3 : Vec) :
    nZnh.form N p z0 z1 z1 z2 = -(((√2 / c.MZ : ℝ) : ℂ) * nZnh.react.bare c p 2 0 1 3 z2 z0 (pv z1.1 z1.2) E3) := by
  rw [nZnh.react.bare_parts c p (i := 2) (j := 0) (a := 1) (b := 3) (x := .z) (y := .higgs) (k := (p 1)) (k' := (backward (p 3))) (fun _ => rfl) (fun _ => rfl) (f := .ne) (g := .ne) rfl rfl (l := (p 0)) rfl (e := 1) (e' := 1) (if_neg Bool.false_ne_true) (if_neg Bool.false_ne_true)]
  rw [compton_vh (f := .ne) (x := .ne) (g := .ne) (h := (rfl : Spec.after .z Flavour.ne = some Flavour.ne)) (h' := (rfl : Spec.after .higgs Flavour.ne = some Flavour.ne)) (ha := by simp)]
  rw [compton_hv (f := .ne) (x := .ne) (g := .ne) (h := (rfl : Spec.after .higgs Flavour.ne = some Flavour.ne)) (h' := (rfl : Spec.after .z Flavour.ne = some Flavour.ne)) (hb := by simp)]
  have an := annihilation_neutral c (1) (1) z2.1 z2.2 z0.1 z0.2 ⟨.z, (p 1), pv z1.1 z1.2⟩ ⟨.higgs, (backward (p 3)), E3⟩ .ne
  dsimp only at an
  rw [an, nZnh.form]
  clear an
  rw [lineV_massless (hx := (rfl : Boson.massive .photon = false))]
  rw [lineV_massive (hx := (rfl : Boson.massive .z = true))]
  simp only [toHiggs, toVector, higgs2, gauge3, Boson.anti, Constants.bosonMass, Constants.bosonWidth, d0, reduceCtorEq, and_self, and_true, and_false, and_true, if_true, if_false, Complex.ofReal_zero, zero_smul, zero_mul, mul_zero, zero_div, neg_zero, add_zero, zero_add, lineH, lineV_zero, contract_zero, lineV_smul, contract_smul, lineV_pv, lineV_four, contract_four_pv, contract_pv, mb_plus, mb_backward]
  simp only [b0.mb_left, b0.mb_right, b1.mb_left, b1.mb_right, b2.mb_left, b2.mb_right, mb_three hb z0.2 z0.1, mb_three hb z0.2 z1.1, mb_three hb z0.2 z2.1, mb_three hb z1.2 z0.1, mb_three hb z1.2 z1.1, mb_three hb z1.2 z2.1, mb_three hb z2.2 z0.1, mb_three hb z2.2 z1.1, mb_three hb z2.2 z2.1, ab_self, sb_self]
  have hne : c.mass .ne = 0 := hc.neutrino _
  simp only [ab_swap z0.1 z1.1, sb_swap z0.2 z1.2, ab_swap z0.1 z2.1, sb_swap z0.2 z2.2, ab_swap z1.1 z2.1, sb_swap z1.2 z2.2, r8, Constants.hL, Constants.hR, Constants.gL, Constants.gR, Constants.yuk, Constants.invVev, Flavour.charge_ne, Flavour.isospin_ne, hne, ← c.mz]
  have xMW : (c.MW : ℂ) ≠ 0 := by exact_mod_cast hc.MW
  have xSW : (c.SW : ℂ) ≠ 0 := by exact_mod_cast hc.SW
  have xCW : (c.CW : ℂ) ≠ 0 := by exact_mod_cast hc.CW
  have x2 : ((√2 : ℝ) : ℂ) ≠ 0 := by exact_mod_cast (Real.sqrt_pos.2 two_pos).ne'
  have x22 : ((√2 : ℝ) : ℂ) ^ 2 = 2 := by rw [← Complex.ofReal_pow, Real.sq_sqrt two_pos.le]; norm_num
  push_cast
  field_simp
  first | ring1 | (ring_nf; simp only [x22]; ring1)
set_option maxRecDepth 8000 in
theorem nZnh.amp2_eq (N : Env) (f : Nat → List Int → ℂ) : Cls.nZnh.m_amp2.mean N f .r [] =
    ((sumV (fun x a => (x + (‖(f 0 [a])‖ ^ 2))) ((0 : Nat) : ℝ)) / ((3 : Nat) : ℝ)) := by rfl
set_option maxRecDepth 8000 in
theorem nZnh.value (N : Env) : meaning N .r Cls.nZnh.methods Cls.nZnh.amp2 [] =
    ((sumV (fun x a => (x + (‖(Cls.nZnh.m_amp.mean N (callMean N []) .c [a])‖ ^ 2))) ((0 : Nat) : ℝ)) / ((3 : Nat) : ℝ)) :=
  nZnh.amp2_eq N (callMean N [Cls.nZnh.m_amp])
set_option maxRecDepth 8000 in
theorem nZnh.term_lin (N : Env) (w : ℝ) (x : ℂ) (a1 b1 : Int) : nZnh.term N w x a1 b1 = x + (w : ℂ) * nZnh.term N 1 0 a1 b1 := by
  simp only [nZnh.term]; push_cast; ring
theorem nZnh.amp_eq (N : Env) (f : Nat → List Int → ℂ) (t1 : Fin 3) : Cls.nZnh.m_amp.mean N f .c [spinV t1] = comb t1 (fun a1 b1 => nZnh.term N 1 0 (spinOf a1) (spinOf b1)) := by
  refine (amp_mean N f (m := 1) (K := 3) (G := fun i => nZnh.term N 1 0 (i 1) (i 2)) (fun l => ?_) (fun i i' h => ?_) rfl (by decide) (by decide) (by decide) (by decide) (by decide)).trans ?_
  · refine ⟨_, rfl, ?_⟩; exact ⟨rfl, rfl, nZnh.term_lin ..⟩
  · simp only [h 1 (by decide), h 2 (by decide)]
  · show amp' _ [spinV t1] = _
    simp only [amp'_comb, amp'_nil]
    rfl
theorem nZnh.form_x1 (N : Env) (p : Nat → V4 ℝ) (z0 y1 z2 x y : Pair) : nZnh.form N p z0 (x + y) y1 z2 = nZnh.form N p z0 x y1 z2 + nZnh.form N p z0 y y1 z2 := by
  simp only [nZnh.form, Prod.fst_add, Prod.snd_add, ab_add_left, ab_add_right, sb_add_left, sb_add_right, mb_add_left, mb_add_right]
  ring
theorem nZnh.form_y1 (N : Env) (p : Nat → V4 ℝ) (z0 x1 z2 x y : Pair) : nZnh.form N p z0 x1 (x + y) z2 = nZnh.form N p z0 x1 x z2 + nZnh.form N p z0 x1 y z2 := by
  simp only [nZnh.form, Prod.fst_add, Prod.snd_add, ab_add_left, ab_add_right, sb_add_left, sb_add_right, mb_add_left, mb_add_right]
  ring
theorem nZnh.form_zero0 (N : Env) (p : Nat → V4 ℝ) {z0 : Pair} (x1 y1 z2 : Pair) (h : z0.1 = 0) : nZnh.form N p z0 x1 y1 z2 = 0 := by
  simp [nZnh.form, h, ab_zero, sb_zero, mb_zero]
theorem nZnh.form_zero2 (N : Env) (p : Nat → V4 ℝ) {z2 : Pair} (z0 x1 y1 : Pair) (h : z2.2 = 0) : nZnh.form N p z0 x1 y1 z2 = 0 := by
  simp [nZnh.form, h, ab_zero, sb_zero, mb_zero]

theorem nZnh.mass_eq {c : Constants} (hc : c.Physical) (i : Fin 4) : nZnh.proc.massNum (nZnh.rho c) i = nZnh.react.mass c i := by
  fin_cases i <;> first | rfl | exact Nat.cast_zero.trans (hc.neutrino _).symm | (show c.MW / √(((1 : Nat) : ℝ) - c.SW * c.SW) = c.MZ; rw [c.root, c.mz])

variable [FPEnv] in
theorem nZnh.agrees : nZnh.Agrees := by
  refine agrees_of (D := [2, 3]) (E := [3]) (by simp [all, nZnh]) (by decide +kernel) (by decide) (by decide +kernel) (fun c hc hh => ⟨List.forall_mem_cons.2 ⟨hc.MW, List.forall_mem_cons.2 ⟨hc.SW, List.forall_mem_nil _⟩⟩, List.forall_mem_cons.2 ⟨hc.SW_lt, List.forall_mem_nil _⟩⟩) (fun c hc i => nZnh.mass_eq hc i) (by decide +kernel) ?_
  intro c p u ε hc hh hw h0 hs hb hr hu
  have he : nZnh.react.ends = [2] := by decide
  have ht : nZnh.react.starts = [0] := by decide
  have hB : nZnh.react.bosons = [1, 3] := by decide
  have hM : nZnh.react.allMassive = true := by decide
  obtain ⟨f1, f2, f3⟩ := nZnh.react.regular_line he ht hB hr
  have r8 : (nZnh.N c p).r 8 = ((((√(((2 : Nat) : ℝ)) * ((2 : Nat) : ℝ)) * c.e) * c.e) / ((((((4 : Nat) : ℝ) * √((((1 : Nat) : ℝ) - (c.SW * c.SW)))) * √((((1 : Nat) : ℝ) - (c.SW * c.SW)))) * c.SW) * c.SW)) := rfl
  simp only [c.root] at r8
  have c0 : (nZnh.N c p).c 0 = poleDist (c.MW / √((((1 : Nat) : ℝ) - (c.SW * c.SW)))) c.WZ ((VExp.sub 0 2).sum p) := rfl
  rw [c.root, c.mz, pole_congr (msq_t hb (plus (p 1) (backward (p 3))) (by simp)).symm] at c0
  have d0 : pole c.MZ c.WZ (plus (p 1) (backward (p 3))) = (nZnh.N c p).c 0 := by rw [c0]
  have n0 : (nZnh.N c p).c 0 ≠ 0 := by rw [← d0]; exact star_ne_zero.2 (f3 .z rfl rfl)
  have m0 : nZnh.react.mass c 0 = 0 := hc.neutrino _
  have m1 : nZnh.react.mass c 1 ≠ 0 := (leg_pos hc hh (by decide)).ne'
  have m2 : nZnh.react.mass c 2 = 0 := hc.neutrino _
  have hd : nZnh.proc.divides = [(Ty.c, 0)] := by decide +kernel
  refine ⟨fun n hn => ?_, fun n hn => ?_, ?_⟩
  · simp [hd] at hn
  · simp [hd] at hn
    rcases hn with rfl
    · exact n0
  have st : ∀ {z0 z2 : Pair} (b0 : Bold (p 0) (nZnh.react.mass c 0) z0) (b2 : Bold (p 2) (nZnh.react.mass c 2) z2) (t1 : Fin 3), comb t1 (fun a1 b1 => nZnh.form (nZnh.N c p) p z0 (nZnh.react.codePair c p 1 a1) (nZnh.react.codePair c p 1 b1) z2) = (-1) * nZnh.react.bare c p 2 0 1 3 z2 z0 (nZnh.react.codeVec c p 1 t1) (nZnh.react.codeVec c p 3 0) := by
    intro z0 z2 b0 b2 t1
    refine one_vector (p := p 1) (m := nZnh.react.mass c 1) (fun s => nZnh.react.codePair_bold hs h0 1 s) (B := fun x y => nZnh.form (nZnh.N c p) p z0 x y z2) (G := fun E => nZnh.react.bare c p 2 0 1 3 z2 z0 E (nZnh.react.codeVec c p 3 0)) (fun x y z => ?_) (fun x y z => ?_) (nZnh.react.bare_lin₁ c p _ _ _ (by decide)) (-1) (fun z1 b1 => ?_) t1
    · exact nZnh.form_x1 ..
    · exact nZnh.form_y1 ..
    · rw [neg_one_mul]; exact nZnh.key hc hb r8 d0 n0 b0 b1 b2 (nZnh.react.codeVec c p 3 0)
  have am : ∀ (t1 : Fin 3), Cls.nZnh.m_amp.mean (nZnh.N c p) (callMean (nZnh.N c p) []) .c [spinV t1] = (-1) * nZnh.react.bare c p 2 0 1 3 (nZnh.react.codePair c p 2 1) (nZnh.react.codePair c p 0 0) (nZnh.react.codeVec c p 1 t1) (nZnh.react.codeVec c p 3 0) := by
    intro t1
    rw [nZnh.amp_eq, ← st (nZnh.react.codePair_bold hs h0 0 0) (nZnh.react.codePair_bold hs h0 2 1) t1]
    refine congrArg (comb t1) (funext fun a1 => funext fun b1 => ?_)
    have v0x1z2 : (nZnh.N c p).v 0 [spinOf a1] = sb (nZnh.react.codePair c p 1 a1).2 (nZnh.react.codePair c p 2 1).2 := bra_square (p := p) (m := nZnh.proc.massNum (nZnh.rho c)) (nZnh.mass_eq hc 1) (nZnh.mass_eq hc 2) (.inl ⟨m1, rfl⟩) (.inr ⟨m2, rfl⟩)
    have v1z0y1 : (nZnh.N c p).v 1 [spinOf b1] = ab (nZnh.react.codePair c p 0 0).1 (nZnh.react.codePair c p 1 b1).1 := bra_angle (p := p) (m := nZnh.proc.massNum (nZnh.rho c)) (nZnh.mass_eq hc 0) (nZnh.mass_eq hc 1) (.inr ⟨m0, rfl⟩) (.inl ⟨m1, rfl⟩)
    simp only [nZnh.term, nZnh.form, v0x1z2, v1z0y1]
    push_cast
    ring
  have w0 : ∀ (s : Fin 2) (t1 : Fin 3), nZnh.react.bare c p 2 0 1 3 (nZnh.react.codePair c p 2 s) (nZnh.react.codePair c p 0 1) (nZnh.react.codeVec c p 1 t1) (nZnh.react.codeVec c p 3 0) = 0 := by
    intro s t1
    have e := st (nZnh.react.codePair_bold hs h0 0 1) (nZnh.react.codePair_bold hs h0 2 s) t1
    rw [show comb t1 (fun a1 b1 => nZnh.form (nZnh.N c p) p (nZnh.react.codePair c p 0 1) (nZnh.react.codePair c p 1 a1) (nZnh.react.codePair c p 1 b1) (nZnh.react.codePair c p 2 s)) = 0 by
      simp only [nZnh.form_zero0 _ _ _ _ _ (show ((nZnh.react.codePair c p 0 1)).1 = 0 from legA_zero m0 rfl)]; exact comb_zero ..] at e
    exact neg_eq_zero.1 ((neg_one_mul _).symm.trans e.symm)
  have w2 : ∀ (s : Fin 2) (t1 : Fin 3), nZnh.react.bare c p 2 0 1 3 (nZnh.react.codePair c p 2 0) (nZnh.react.codePair c p 0 s) (nZnh.react.codeVec c p 1 t1) (nZnh.react.codeVec c p 3 0) = 0 := by
    intro s t1
    have e := st (nZnh.react.codePair_bold hs h0 0 s) (nZnh.react.codePair_bold hs h0 2 0) t1
    rw [show comb t1 (fun a1 b1 => nZnh.form (nZnh.N c p) p (nZnh.react.codePair c p 0 s) (nZnh.react.codePair c p 1 a1) (nZnh.react.codePair c p 1 b1) (nZnh.react.codePair c p 2 0)) = 0 by
      simp only [nZnh.form_zero2 _ _ _ _ _ (show ((nZnh.react.codePair c p 2 0)).2 = 0 from legS_zero m2 rfl)]; exact comb_zero ..] at e
    exact neg_eq_zero.1 ((neg_one_mul _).symm.trans e.symm)
  show meaning (nZnh.N c p) .r Cls.nZnh.methods Cls.nZnh.amp2 [] = _
  have lc : nZnh.react.lineColours 2 0 = 1 := by decide +kernel
  have s0 : nZnh.react.states 0 = 1 := by decide
  have s1 : nZnh.react.states 1 = 3 := by decide
  have sy : nZnh.react.symmetry = 1 := by decide
  have p0 : nZnh.react.spins 0 = {0, 1} := rfl
  have p1 : nZnh.react.spins 1 = Finset.univ := rfl
  have p2 : nZnh.react.spins 2 = {0, 1} := rfl
  have p3 : nZnh.react.spins 3 = {0} := rfl
  rw [nZnh.value, nZnh.react.squared_line he ht hB (noGluon_of hM) hs h0 (fun _ b _ hb _ => (boson_pos hc hh hb).ne') (nZnh.react.gauge_massive (massive_of hM)) (E := nZnh.react.codeVec c p) (fun n b hl => nZnh.react.codeVec_polarised hs h0 hl (massive_of hM n b hl) (fun _ => (boson_pos hc hh (massive_of hM n b hl)).ne')) hu, sum_colours, lc, s0, s1, sy]
  simp only [sumV_sum, sumJ_sum, am, norm_mul, norm_neg, norm_one, one_mul, p0, p1, p2, p3, Finset.sum_singleton, sum_two, Matrix.cons_val_zero, Matrix.cons_val_one, Matrix.cons_val, two_castSucc]
  simp only [Fin.sum_univ_two, w0, w2, norm_zero]
  try simp only [← Finset.mul_sum]
  push_cast
  first | ring1 | ring_nf

end Spinas.SM.Rows
