import Verif.SM.LightRows
import Verif.SM.GluonLine

/-! Quarks, a gluon and a photon, one before and one after. Generated by tools/bosons/lemit.py: for each class its amplitude at given helicities as a formula in spinors, and the proof that `amp2` is the squared amplitude of the Feynman rules. -/

set_option linter.unusedSimpArgs false
set_option linter.unusedVariables false
set_option linter.unreachableTactic false
set_option linter.unusedTactic false

namespace Spinas.SM.Rows
open Spec Spec.Reaction Props XR Matrix BRow

/-! ### dAgd -/

/-- what the methods of the class see -/
noncomputable abbrev dAgd.N [FPEnv] (c : Constants) (p : Nat → V4 ℝ) : Env := dAgd.proc.env (dAgd.rho c) p
/-- `amp` for a photon of positive helicity and a gluon of positive helicity (SM/dAgd.cpp) -/
noncomputable def dAgd.termPP (N : Env) (j1 j4 : Int) : ℂ :=
  (((((((((((((2 : Nat) : ℝ) * N.r 0) * N.r 1) * N.r 2) * N.r 3) : ℝ) : ℂ) * N.v 8 []) * N.v 8 []) * N.v 11 [j1, j4]) / N.c 1) / N.c 0)
/-- the same with spinors in place of their spins -/
noncomputable def dAgd.formPP (N : Env) (p : Nat → V4 ℝ) (z0 z1 z2 z3 : Pair) : ℂ :=
  (((((((((((((2 : Nat) : ℝ) * N.r 0) * N.r 1) * N.r 2) * N.r 3) : ℝ) : ℂ) * (sb z1.2 z2.2)) * (sb z1.2 z2.2)) * (ab z0.1 z3.1)) / N.c 1) / N.c 0)
/-- `amp` for a photon of positive helicity and a gluon of negative helicity (SM/dAgd.cpp) -/
noncomputable def dAgd.termPM (N : Env) (j1 j4 : Int) : ℂ :=
  ((((((((((-((2 : Nat) : ℝ)) * N.r 0) * N.r 1) * N.r 2) : ℝ) : ℂ) * ((N.v 1 [j4] * N.v 2 [j1]) - (N.v 5 [j1] * N.v 6 [j4]))) * N.v 13 []) / N.c 1) / N.c 0)
/-- the same with spinors in place of their spins -/
noncomputable def dAgd.formPM (N : Env) (p : Nat → V4 ℝ) (z0 z1 z2 z3 : Pair) : ℂ :=
  ((((((((((-((2 : Nat) : ℝ)) * N.r 0) * N.r 1) * N.r 2) : ℝ) : ℂ) * (((ab z2.1 z3.1) * (sb z0.2 z1.2)) - ((ab z0.1 z2.1) * (sb z1.2 z3.2)))) * (mb z1.2 (p 3) z2.1)) / N.c 1) / N.c 0)
/-- `amp` for a photon of negative helicity and a gluon of positive helicity (SM/dAgd.cpp) -/
noncomputable def dAgd.termMP (N : Env) (j1 j4 : Int) : ℂ :=
  (((((((((((2 : Nat) : ℝ) * N.r 0) * N.r 1) * N.r 2) : ℝ) : ℂ) * ((N.v 0 [j4] * N.v 3 [j1]) - (N.v 4 [j1] * N.v 7 [j4]))) * N.v 12 []) / N.c 1) / N.c 0)
/-- the same with spinors in place of their spins -/
noncomputable def dAgd.formMP (N : Env) (p : Nat → V4 ℝ) (z0 z1 z2 z3 : Pair) : ℂ :=
  (((((((((((2 : Nat) : ℝ) * N.r 0) * N.r 1) * N.r 2) : ℝ) : ℂ) * (((sb z2.2 z3.2) * (ab z0.1 z1.1)) - ((sb z0.2 z2.2) * (ab z1.1 z3.1)))) * (mb z2.2 (p 3) z1.1)) / N.c 1) / N.c 0)
/-- `amp` for a photon of negative helicity and a gluon of negative helicity (SM/dAgd.cpp) -/
noncomputable def dAgd.termMM (N : Env) (j1 j4 : Int) : ℂ :=
  ((((((((((((-((2 : Nat) : ℝ)) * N.r 0) * N.r 1) * N.r 2) * N.r 3) : ℝ) : ℂ) * N.v 9 []) * N.v 9 []) * N.v 10 [j1, j4]) / N.c 1) / N.c 0)
/-- the same with spinors in place of their spins -/
noncomputable def dAgd.formMM (N : Env) (p : Nat → V4 ℝ) (z0 z1 z2 z3 : Pair) : ℂ :=
  ((((((((((((-((2 : Nat) : ℝ)) * N.r 0) * N.r 1) * N.r 2) * N.r 3) : ℝ) : ℂ) * (ab z1.1 z2.1)) * (ab z1.1 z2.1)) * (sb z0.2 z3.2)) / N.c 1) / N.c 0)
theorem dAgd.keyPP {c : Constants} {p : Nat → V4 ℝ} {N : Env} (hc : c.Physical) (hb : Balanced p) (r0 : N.r 0 = c.e) (r1 : N.r 1 = ((-((1 : Nat) : ℝ)) / ((3 : Nat) : ℝ))) (r2 : N.r 2 = c.gs) (r3 : N.r 3 = (c.mass .d)) (d0 : ((msq (plus (p 0) (backward (p 2))) - c.mass .d ^ 2 : ℝ) : ℂ) = N.c 0) (n0 : N.c 0 ≠ 0) (d1 : ((msq (plus (p 0) (p 1)) - c.mass .d ^ 2 : ℝ) : ℂ) = N.c 1) (n1 : N.c 1 ≠ 0) {z0 z1 z2 z3 : Pair} (b0 : Bold (p 0) (c.mass .d) z0) (b3 : Bold (p 3) (c.mass .d) z3) (l1 : Light (p 1) z1) (l2 : Light (p 2) z2) (e10 : mb z1.2 (p 0) z1.1 = N.c 1) (e13 : mb z1.2 (p 3) z1.1 = -N.c 0) (e20 : mb z2.2 (p 0) z2.1 = -N.c 0) (e23 : mb z2.2 (p 3) z2.1 = N.c 1) (q0 : msq (p 0) = (c.mass .d) ^ 2) (q3 : msq (p 3) = (c.mass .d) ^ 2) (ρ1 ρ2 : V2) :
    dAgd.formPP N p z0 z1 z2 z3 * ab ρ1 z1.1 * ab ρ2 z2.1 = ((√2 : ℝ) * ((√2 : ℝ) * (1 : ℂ))) * dAgd.react.bare c p 3 0 1 2 z3 z0 (pv ρ1 z1.2) (pv ρ2 z2.2) := by
  rw [dAgd.react.bare_parts c p (i := 3) (j := 0) (a := 1) (b := 2) (x := .photon) (y := .gluon) (k := (p 1)) (k' := (backward (p 2))) (fun _ => rfl) (fun _ => rfl) (f := .d) (g := .d) rfl rfl (l := (p 0)) rfl (e := 1) (e' := 1) (if_neg Bool.false_ne_true) (if_neg Bool.false_ne_true)]
  rw [compton_vv (f := .d) (x := .d) (g := .d) (h := (rfl : Spec.after .photon Flavour.d = some Flavour.d)) (h' := (rfl : Spec.after .gluon Flavour.d = some Flavour.d)) (ha := by simp) (hb := by simp)]
  rw [compton_vv (f := .d) (x := .d) (g := .d) (h := (rfl : Spec.after .gluon Flavour.d = some Flavour.d)) (h' := (rfl : Spec.after .photon Flavour.d = some Flavour.d)) (ha := by simp) (hb := by simp)]
  rw [annihilation_none c _ _ (by rfl) (by simp), star_zero, add_zero, dAgd.formPP]
  simp only [d0, d1, lineV_pv, lineV_four, contract_four_pv, contract_pv, mb_plus, mb_backward]
  have i0 := ab_schouten z1.1 z3.1 ρ1 z0.1
  have i1 := mb_schouten_left z0.2 z1.2 z2.2 (p 0) ρ1
  have i2 := mb_schouten_right z1.2 (p 0) z1.1 z3.1 ρ2
  have i3 := ab_schouten z2.1 ρ1 ρ2 z1.1
  have i4 := mb_schouten_left z0.2 z1.2 z2.2 (p 0) z1.1
  have i5 := mb_schouten_right z2.2 (p 0) z1.1 z3.1 ρ1
  have i6 := mb_schouten_right z0.2 (p 3) z1.1 z3.1 ρ1
  have i7 := ab_schouten z2.1 z3.1 ρ1 z1.1
  have i8 := sb_schouten z1.2 z2.2 z3.2 z0.2
  have i9 := ab_schouten z3.1 ρ1 ρ2 z2.1
  have i10 := mb_schouten_right z1.2 (p 3) z0.1 z1.1 ρ1
  have i11 := mb_schouten_right z1.2 (p 0) z0.1 z1.1 ρ1
  have i12 := mb_schouten_right z1.2 (p 0) z3.1 ρ1 ρ2
  have i13 := mb_schouten_right z1.2 (p 0) z0.1 z1.1 z3.1
  have i14 := ab_schouten z3.1 ρ1 ρ2 z0.1
  have i15 := mb_schouten_right z1.2 (p 3) z1.1 z3.1 ρ1
  have i16 := mb_schouten_right z1.2 (p 0) z0.1 z1.1 ρ2
  have i17 := mb_schouten_left z1.2 z2.2 z3.2 (p 0) z1.1
  have i18 := ab_schouten z1.1 z2.1 ρ1 z0.1
  have i19 := mb_schouten_right z1.2 (p 3) z1.1 z3.1 ρ2
  have i20 := mb_schouten_right z2.2 (p 0) z0.1 z1.1 ρ1
  have i21 := mb_schouten_right z1.2 (p 0) z1.1 z3.1 ρ1
  have i22 := mb_schouten_left z0.2 z1.2 z2.2 (p 0) z2.1
  have i23 := mb_schouten_right z1.2 (p 0) z1.1 z2.1 z3.1
  have i24 := mb_schouten_right z1.2 (p 0) z0.1 ρ1 ρ2
  have i25 := mb_schouten_right z0.2 (p 3) z3.1 ρ1 ρ2
  have i26 := mb_schouten_right z1.2 (p 3) z0.1 z1.1 z3.1
  have i27 := mb_schouten_right z0.2 (p 3) z1.1 z2.1 z3.1
  have i28 := mb_schouten_right z1.2 (p 0) z1.1 z2.1 ρ2
  have i29 := ab_schouten z3.1 ρ1 ρ2 z1.1
  have i30 := mb_schouten_right z1.2 (p 0) z0.1 z2.1 ρ2
  have i31 := mb_schouten_right z1.2 (p 3) z0.1 z1.1 ρ2
  have i32 := mb_schouten_right z1.2 (p 0) z0.1 z1.1 z2.1
  have i33 := ab_schouten z2.1 ρ1 ρ2 z0.1
  have i34 := mb_schouten_right z1.2 (p 0) z0.1 z2.1 ρ1
  have i35 := ab_schouten z1.1 ρ1 ρ2 z0.1
  have i36 := mb_schouten_right z2.2 (p 0) z1.1 z2.1 z3.1
  simp only [l1.mb_eq, l2.mb_eq, b0.mb_left, b0.mb_right, b3.mb_left, b3.mb_right, e10, e13, e20, e23, mb_three hb z0.2 z0.1, mb_three hb z0.2 z1.1, mb_three hb z0.2 z2.1, mb_three hb z0.2 ρ1, mb_three hb z0.2 ρ2, mb_three hb z1.2 z0.1, mb_three hb z1.2 z2.1, mb_nought hb z1.2 z3.1, mb_three hb z1.2 ρ1, mb_three hb z1.2 ρ2, mb_three hb z2.2 z0.1, mb_three hb z2.2 z1.1, mb_nought hb z2.2 z3.1, mb_three hb z2.2 ρ1, mb_three hb z2.2 ρ2, mb_nought hb z3.2 z1.1, mb_nought hb z3.2 z2.1, mb_nought hb z3.2 z3.1, mb_nought hb z3.2 ρ1, mb_nought hb z3.2 ρ2, ab_self, sb_self] at i0 i1 i2 i3 i4 i5 i6 i7 i8 i9 i10 i11 i12 i13 i14 i15 i16 i17 i18 i19 i20 i21 i22 i23 i24 i25 i26 i27 i28 i29 i30 i31 i32 i33 i34 i35 i36 ⊢
  simp only [ab_swap z0.1 z1.1, ab_swap z0.1 z2.1, ab_swap z0.1 z3.1, ab_swap z0.1 ρ1, ab_swap z0.1 ρ2, ab_swap z1.1 z2.1, ab_swap z1.1 z3.1, ab_swap z1.1 ρ1, ab_swap z1.1 ρ2, ab_swap z2.1 z3.1, ab_swap z2.1 ρ1, ab_swap z2.1 ρ2, ab_swap z3.1 ρ1, ab_swap z3.1 ρ2, ab_swap ρ1 ρ2, sb_swap z0.2 z1.2, sb_swap z0.2 z2.2, sb_swap z0.2 z3.2, sb_swap z1.2 z2.2, sb_swap z1.2 z3.2, sb_swap z2.2 z3.2] at i0 i1 i2 i3 i4 i5 i6 i7 i8 i9 i10 i11 i12 i13 i14 i15 i16 i17 i18 i19 i20 i21 i22 i23 i24 i25 i26 i27 i28 i29 i30 i31 i32 i33 i34 i35 i36 ⊢
  simp only [r0, r1, r2, r3, Constants.hL, Constants.hR, Constants.gL, Constants.gR, Constants.yuk, Constants.invVev, Flavour.charge_d, Flavour.isospin_d, ← c.mz]
  have xMW : (c.MW : ℂ) ≠ 0 := by exact_mod_cast hc.MW
  have xSW : (c.SW : ℂ) ≠ 0 := by exact_mod_cast hc.SW
  have xCW : (c.CW : ℂ) ≠ 0 := by exact_mod_cast hc.CW
  have x2 : ((√2 : ℝ) : ℂ) ≠ 0 := by exact_mod_cast (Real.sqrt_pos.2 two_pos).ne'
  have x22 : ((√2 : ℝ) : ℂ) ^ 2 = 2 := by rw [← Complex.ofReal_pow, Real.sq_sqrt two_pos.le]; norm_num
  have x23 : ((√2 : ℝ) : ℂ) ^ 3 = 2 * ((√2 : ℝ) : ℂ) := by rw [← x22]; ring
  have x24 : ((√2 : ℝ) : ℂ) ^ 4 = 4 := by linear_combination (((√2 : ℝ) : ℂ) ^ 2 + 2) * x22
  push_cast at i0 i1 i2 i3 i4 i5 i6 i7 i8 i9 i10 i11 i12 i13 i14 i15 i16 i17 i18 i19 i20 i21 i22 i23 i24 i25 i26 i27 i28 i29 i30 i31 i32 i33 i34 i35 i36 ⊢
  have y0 := mul_inv_cancel₀ n0
  have y1 := mul_inv_cancel₀ n1
  linear_combination ((((2) * ((c.e : ℂ)) * ((c.gs : ℂ)) * ((c.mass .d : ℂ)) * (ab z2.1 ρ2) * (sb z1.2 z2.2) ^ 2) * i0 + ((-4) * ((c.e : ℂ)) * ((c.gs : ℂ)) * (N.c 0) * (ab z3.1 ρ2)) * i1 + ((-2) * ((c.e : ℂ)) * ((c.gs : ℂ)) * (ab z1.1 ρ1) * (sb z0.2 z1.2) * (sb z1.2 z2.2) + (2) * ((c.e : ℂ)) * ((c.gs : ℂ)) * (ab z2.1 ρ1) * (sb z0.2 z2.2) * (sb z1.2 z2.2)) * i2 + ((4) * ((c.e : ℂ)) * ((c.gs : ℂ)) * ((c.mass .d : ℂ)) * (sb z0.2 z1.2) * (sb z1.2 z2.2) * (sb z2.2 z3.2) + (-2) * ((c.e : ℂ)) * ((c.gs : ℂ)) * ((c.mass .d : ℂ)) * (sb z0.2 z2.2) * (sb z1.2 z2.2) * (sb z1.2 z3.2) + (-2) * ((c.e : ℂ)) * ((c.gs : ℂ)) * (ab z1.1 z3.1) * (sb z0.2 z1.2) * (sb z1.2 z2.2) ^ 2 + (2) * ((c.e : ℂ)) * ((c.gs : ℂ)) * (ab z2.1 z3.1) * (sb z0.2 z2.2) * (sb z1.2 z2.2) ^ 2) * i3 + ((2) * ((c.e : ℂ)) * ((c.gs : ℂ)) * (ab z2.1 ρ1) * (ab z3.1 ρ2) * (sb z1.2 z2.2) + (-2) * ((c.e : ℂ)) * ((c.gs : ℂ)) * (ab z3.1 ρ1) * (mb z1.2 (p 0) ρ2)) * i4 + ((-2) * ((c.e : ℂ)) * ((c.gs : ℂ)) * (ab z2.1 ρ2) * (sb z0.2 z1.2) * (sb z1.2 z2.2) + (2) * ((c.e : ℂ)) * ((c.gs : ℂ)) * (mb z1.2 (p 0) ρ2) * (sb z0.2 z1.2)) * i5 + ((-2) * ((c.e : ℂ)) * ((c.gs : ℂ)) * (ab z2.1 ρ2) * (sb z1.2 z2.2) ^ 2 + (2) * ((c.e : ℂ)) * ((c.gs : ℂ)) * (mb z1.2 (p 0) ρ2) * (sb z1.2 z2.2)) * i6 + ((2) * ((c.e : ℂ)) * ((c.gs : ℂ)) * (ab z2.1 ρ2) * (sb z0.2 z2.2) * (sb z1.2 z2.2) ^ 2 + (-4) * ((c.e : ℂ)) * ((c.gs : ℂ)) * (mb z1.2 (p 0) ρ2) * (sb z0.2 z2.2) * (sb z1.2 z2.2)) * i7 + ((-4) * ((c.e : ℂ)) * ((c.gs : ℂ)) * ((c.mass .d : ℂ)) * (N.c 0) * (ab ρ1 ρ2) + (-2) * ((c.e : ℂ)) * ((c.gs : ℂ)) * ((c.mass .d : ℂ)) * (N.c 1) * (ab ρ1 ρ2) + (-4) * ((c.e : ℂ)) * ((c.gs : ℂ)) * ((c.mass .d : ℂ)) * (ab z1.1 z2.1) * (ab ρ1 ρ2) * (sb z1.2 z2.2) + (2) * ((c.e : ℂ)) * ((c.gs : ℂ)) * ((c.mass .d : ℂ)) * (ab z1.1 ρ1) * (ab z2.1 ρ2) * (sb z1.2 z2.2) + (-2) * ((c.e : ℂ)) * ((c.gs : ℂ)) * ((c.mass .d : ℂ)) * (ab z1.1 ρ1) * (mb z1.2 (p 0) ρ2)) * i8 + ((-4) * ((c.e : ℂ)) * ((c.gs : ℂ)) * (N.c 0) * (sb z0.2 z2.2) * (sb z1.2 z2.2) + (-2) * ((c.e : ℂ)) * ((c.gs : ℂ)) * (N.c 1) * (sb z0.2 z2.2) * (sb z1.2 z2.2) + (2) * ((c.e : ℂ)) * ((c.gs : ℂ)) * (mb z2.2 (p 0) z1.1) * (sb z0.2 z1.2) * (sb z1.2 z2.2)) * i9 + ((2) * ((c.e : ℂ)) * ((c.gs : ℂ)) * ((c.mass .d : ℂ)) * (ab z3.1 ρ2) * (sb z1.2 z2.2) + (-4) * ((c.e : ℂ)) * ((c.gs : ℂ)) * (mb z1.2 (p 0) ρ2) * (sb z2.2 z3.2)) * i10 + ((-2) * ((c.e : ℂ)) * ((c.gs : ℂ)) * ((c.mass .d : ℂ)) * (ab z3.1 ρ2) * (sb z1.2 z2.2) + (2) * ((c.e : ℂ)) * ((c.gs : ℂ)) * (ab z2.1 ρ2) * (sb z1.2 z2.2) * (sb z2.2 z3.2) + (4) * ((c.e : ℂ)) * ((c.gs : ℂ)) * (mb z1.2 (p 0) ρ2) * (sb z2.2 z3.2)) * i11 + ((4) * ((c.e : ℂ)) * ((c.gs : ℂ)) * (N.c 0) * (sb z0.2 z2.2)) * i12 + ((4) * ((c.e : ℂ)) * ((c.gs : ℂ)) * ((c.mass .d : ℂ)) * (ab ρ1 ρ2) * (sb z1.2 z2.2)) * i13 + ((4) * ((c.e : ℂ)) * ((c.gs : ℂ)) * ((c.mass .d : ℂ)) * (N.c 0) * (sb z1.2 z2.2) + (4) * ((c.e : ℂ)) * ((c.gs : ℂ)) * ((c.mass .d : ℂ)) * (N.c 1) * (sb z1.2 z2.2)) * i14 + ((-2) * ((c.e : ℂ)) * ((c.gs : ℂ)) * (ab z1.1 ρ2) * (sb z0.2 z1.2) * (sb z1.2 z2.2) + (4) * ((c.e : ℂ)) * ((c.gs : ℂ)) * (mb z1.2 (p 0) ρ2) * (sb z0.2 z2.2)) * i15 + ((-2) * ((c.e : ℂ)) * ((c.gs : ℂ)) * (ab z2.1 ρ1) * (sb z1.2 z2.2) * (sb z2.2 z3.2) + (-2) * ((c.e : ℂ)) * ((c.gs : ℂ)) * (mb z1.2 (p 0) ρ1) * (sb z2.2 z3.2) + (2) * ((c.e : ℂ)) * ((c.gs : ℂ)) * (mb z2.2 (p 0) ρ1) * (sb z1.2 z3.2)) * i16 + ((2) * ((c.e : ℂ)) * ((c.gs : ℂ)) * (ab z0.1 ρ1) * (mb z1.2 (p 0) ρ2)) * i17 + ((-2) * ((c.e : ℂ)) * ((c.gs : ℂ)) * (mb z1.2 (p 0) ρ2) * (sb z1.2 z2.2) * (sb z2.2 z3.2)) * i18 + ((2) * ((c.e : ℂ)) * ((c.gs : ℂ)) * (ab z1.1 ρ1) * (sb z0.2 z1.2) * (sb z1.2 z2.2) + (-2) * ((c.e : ℂ)) * ((c.gs : ℂ)) * (mb z2.2 (p 0) ρ1) * (sb z0.2 z1.2)) * i19 + ((-2) * ((c.e : ℂ)) * ((c.gs : ℂ)) * (mb z1.2 (p 0) ρ2) * (sb z1.2 z3.2)) * i20 + ((2) * ((c.e : ℂ)) * ((c.gs : ℂ)) * (ab z1.1 ρ2) * (sb z0.2 z1.2) * (sb z1.2 z2.2) + (-4) * ((c.e : ℂ)) * ((c.gs : ℂ)) * (mb z1.2 (p 0) ρ2) * (sb z0.2 z2.2)) * i21 + ((-2) * ((c.e : ℂ)) * ((c.gs : ℂ)) * (ab z1.1 ρ1) * (ab z3.1 ρ2) * (sb z1.2 z2.2)) * i22 + ((2) * ((c.e : ℂ)) * ((c.gs : ℂ)) * (ab ρ1 ρ2) * (sb z0.2 z2.2) * (sb z1.2 z2.2)) * i23 + ((2) * ((c.e : ℂ)) * ((c.gs : ℂ)) * (N.c 0) * (sb z2.2 z3.2) + (2) * ((c.e : ℂ)) * ((c.gs : ℂ)) * (N.c 1) * (sb z2.2 z3.2)) * i24 + ((-4) * ((c.e : ℂ)) * ((c.gs : ℂ)) * (N.c 0) * (sb z1.2 z2.2) + (-2) * ((c.e : ℂ)) * ((c.gs : ℂ)) * (N.c 1) * (sb z1.2 z2.2)) * i25 + ((-4) * ((c.e : ℂ)) * ((c.gs : ℂ)) * ((c.mass .d : ℂ)) * (ab ρ1 ρ2) * (sb z1.2 z2.2)) * i26 + ((-4) * ((c.e : ℂ)) * ((c.gs : ℂ)) * (ab ρ1 ρ2) * (sb z1.2 z2.2) ^ 2) * i27 + ((2) * ((c.e : ℂ)) * ((c.gs : ℂ)) * (ab z3.1 ρ1) * (sb z0.2 z2.2) * (sb z1.2 z2.2)) * i28 + ((2) * ((c.e : ℂ)) * ((c.gs : ℂ)) * (N.c 0) * (sb z0.2 z1.2) * (sb z1.2 z2.2) + (2) * ((c.e : ℂ)) * ((c.gs : ℂ)) * (mb z1.2 (p 0) z2.1) * (sb z0.2 z2.2) * (sb z1.2 z2.2)) * i29 + ((2) * ((c.e : ℂ)) * ((c.gs : ℂ)) * (ab z1.1 ρ1) * (sb z1.2 z2.2) * (sb z2.2 z3.2)) * i30 + ((2) * ((c.e : ℂ)) * ((c.gs : ℂ)) * (mb z1.2 (p 0) ρ1) * (sb z2.2 z3.2)) * i31 + ((-2) * ((c.e : ℂ)) * ((c.gs : ℂ)) * (ab ρ1 ρ2) * (sb z1.2 z2.2) * (sb z2.2 z3.2)) * i32 + ((-2) * ((c.e : ℂ)) * ((c.gs : ℂ)) * (N.c 1) * (sb z1.2 z2.2) * (sb z2.2 z3.2)) * i33 + ((-2) * ((c.e : ℂ)) * ((c.gs : ℂ)) * (ab z1.1 ρ2) * (sb z1.2 z2.2) * (sb z2.2 z3.2)) * i34 + ((2) * ((c.e : ℂ)) * ((c.gs : ℂ)) * (mb z1.2 (p 0) z2.1) * (sb z1.2 z2.2) * (sb z2.2 z3.2)) * i35 + ((-2) * ((c.e : ℂ)) * ((c.gs : ℂ)) * (ab ρ1 ρ2) * (sb z0.2 z1.2) * (sb z1.2 z2.2)) * i36)) * ((1) * ((N.c 0)⁻¹) * ((N.c 1)⁻¹) / (3)) + ((2) * ((c.e : ℂ)) * ((c.gs : ℂ)) * ((c.mass .d : ℂ)) * ((N.c 1)⁻¹) * (ab z0.1 ρ1) * (ab z3.1 ρ2) * (sb z1.2 z2.2) / (3) + (2) * ((c.e : ℂ)) * ((c.gs : ℂ)) * ((c.mass .d : ℂ)) * ((N.c 1)⁻¹) * (ab ρ1 ρ2) * (sb z0.2 z1.2) * (sb z2.2 z3.2) / (3) + (2) * ((c.e : ℂ)) * ((c.gs : ℂ)) * ((N.c 1)⁻¹) * (ab z0.1 ρ1) * (mb z1.2 (p 0) ρ2) * (sb z2.2 z3.2) / (3) + (-2) * ((c.e : ℂ)) * ((c.gs : ℂ)) * ((N.c 1)⁻¹) * (ab z1.1 ρ1) * (ab z3.1 ρ2) * (sb z0.2 z1.2) * (sb z1.2 z2.2) / (3) + (2) * ((c.e : ℂ)) * ((c.gs : ℂ)) * ((N.c 1)⁻¹) * (ab z3.1 ρ2) * (mb z2.2 (p 0) ρ1) * (sb z0.2 z1.2) / (3)) * y0 + ((-2) * ((c.e : ℂ)) * ((c.gs : ℂ)) * ((c.mass .d : ℂ)) * ((N.c 0)⁻¹) * (ab z0.1 ρ2) * (ab z3.1 ρ1) * (sb z1.2 z2.2) / (3) + (-2) * ((c.e : ℂ)) * ((c.gs : ℂ)) * ((c.mass .d : ℂ)) * ((N.c 0)⁻¹) * (ab ρ1 ρ2) * (sb z0.2 z2.2) * (sb z1.2 z3.2) / (3) + (2) * ((c.e : ℂ)) * ((c.gs : ℂ)) * ((N.c 0)⁻¹) * (ab z0.1 ρ2) * (mb z2.2 (p 0) ρ1) * (sb z1.2 z3.2) / (3) + (-2) * ((c.e : ℂ)) * ((c.gs : ℂ)) * ((N.c 0)⁻¹) * (ab z2.1 ρ2) * (ab z3.1 ρ1) * (sb z0.2 z2.2) * (sb z1.2 z2.2) / (3) + (2) * ((c.e : ℂ)) * ((c.gs : ℂ)) * ((N.c 0)⁻¹) * (ab z3.1 ρ1) * (mb z1.2 (p 0) ρ2) * (sb z0.2 z2.2) / (3)) * y1 + ((1) * ((c.e : ℂ)) * ((c.gs : ℂ)) * ((c.mass .d : ℂ)) * ((N.c 0)⁻¹) * (ab z0.1 ρ2) * (ab z3.1 ρ1) * (sb z1.2 z2.2) / (3) + (1) * ((c.e : ℂ)) * ((c.gs : ℂ)) * ((c.mass .d : ℂ)) * ((N.c 0)⁻¹) * (ab ρ1 ρ2) * (sb z0.2 z2.2) * (sb z1.2 z3.2) / (3) + (-1) * ((c.e : ℂ)) * ((c.gs : ℂ)) * ((c.mass .d : ℂ)) * ((N.c 1)⁻¹) * (ab z0.1 ρ1) * (ab z3.1 ρ2) * (sb z1.2 z2.2) / (3) + (-1) * ((c.e : ℂ)) * ((c.gs : ℂ)) * ((c.mass .d : ℂ)) * ((N.c 1)⁻¹) * (ab ρ1 ρ2) * (sb z0.2 z1.2) * (sb z2.2 z3.2) / (3) + (-1) * ((c.e : ℂ)) * ((c.gs : ℂ)) * ((N.c 0)⁻¹) * (ab z0.1 ρ2) * (mb z2.2 (p 0) ρ1) * (sb z1.2 z3.2) / (3) + (1) * ((c.e : ℂ)) * ((c.gs : ℂ)) * ((N.c 0)⁻¹) * (ab z2.1 ρ2) * (ab z3.1 ρ1) * (sb z0.2 z2.2) * (sb z1.2 z2.2) / (3) + (-1) * ((c.e : ℂ)) * ((c.gs : ℂ)) * ((N.c 0)⁻¹) * (ab z3.1 ρ1) * (mb z1.2 (p 0) ρ2) * (sb z0.2 z2.2) / (3) + (-1) * ((c.e : ℂ)) * ((c.gs : ℂ)) * ((N.c 1)⁻¹) * (ab z0.1 ρ1) * (mb z1.2 (p 0) ρ2) * (sb z2.2 z3.2) / (3) + (1) * ((c.e : ℂ)) * ((c.gs : ℂ)) * ((N.c 1)⁻¹) * (ab z1.1 ρ1) * (ab z3.1 ρ2) * (sb z0.2 z1.2) * (sb z1.2 z2.2) / (3) + (-1) * ((c.e : ℂ)) * ((c.gs : ℂ)) * ((N.c 1)⁻¹) * (ab z3.1 ρ2) * (mb z2.2 (p 0) ρ1) * (sb z0.2 z1.2) / (3)) * x22
theorem dAgd.keyPM {c : Constants} {p : Nat → V4 ℝ} {N : Env} (hc : c.Physical) (hb : Balanced p) (r0 : N.r 0 = c.e) (r1 : N.r 1 = ((-((1 : Nat) : ℝ)) / ((3 : Nat) : ℝ))) (r2 : N.r 2 = c.gs) (d0 : ((msq (plus (p 0) (backward (p 2))) - c.mass .d ^ 2 : ℝ) : ℂ) = N.c 0) (n0 : N.c 0 ≠ 0) (d1 : ((msq (plus (p 0) (p 1)) - c.mass .d ^ 2 : ℝ) : ℂ) = N.c 1) (n1 : N.c 1 ≠ 0) {z0 z1 z2 z3 : Pair} (b0 : Bold (p 0) (c.mass .d) z0) (b3 : Bold (p 3) (c.mass .d) z3) (l1 : Light (p 1) z1) (l2 : Light (p 2) z2) (e10 : mb z1.2 (p 0) z1.1 = N.c 1) (e13 : mb z1.2 (p 3) z1.1 = -N.c 0) (e20 : mb z2.2 (p 0) z2.1 = -N.c 0) (e23 : mb z2.2 (p 3) z2.1 = N.c 1) (q0 : msq (p 0) = (c.mass .d) ^ 2) (q3 : msq (p 3) = (c.mass .d) ^ 2) (ρ1 ρ2 : V2) :
    dAgd.formPM N p z0 z1 z2 z3 * ab ρ1 z1.1 * sb ρ2 z2.2 = ((√2 : ℝ) * ((√2 : ℝ) * (-1 : ℂ))) * dAgd.react.bare c p 3 0 1 2 z3 z0 (pv ρ1 z1.2) (pv z2.1 ρ2) := by
  rw [dAgd.react.bare_parts c p (i := 3) (j := 0) (a := 1) (b := 2) (x := .photon) (y := .gluon) (k := (p 1)) (k' := (backward (p 2))) (fun _ => rfl) (fun _ => rfl) (f := .d) (g := .d) rfl rfl (l := (p 0)) rfl (e := 1) (e' := 1) (if_neg Bool.false_ne_true) (if_neg Bool.false_ne_true)]
  rw [compton_vv (f := .d) (x := .d) (g := .d) (h := (rfl : Spec.after .photon Flavour.d = some Flavour.d)) (h' := (rfl : Spec.after .gluon Flavour.d = some Flavour.d)) (ha := by simp) (hb := by simp)]
  rw [compton_vv (f := .d) (x := .d) (g := .d) (h := (rfl : Spec.after .gluon Flavour.d = some Flavour.d)) (h' := (rfl : Spec.after .photon Flavour.d = some Flavour.d)) (ha := by simp) (hb := by simp)]
  rw [annihilation_none c _ _ (by rfl) (by simp), star_zero, add_zero, dAgd.formPM]
  simp only [d0, d1, lineV_pv, lineV_four, contract_four_pv, contract_pv, mb_plus, mb_backward]
  have i0 := sb_schouten z1.2 z2.2 ρ2 z0.2
  have i1 := ab_schouten z2.1 z3.1 ρ1 z1.1
  have i2 := ab_schouten z1.1 z2.1 ρ1 z0.1
  have i3 := ab_schouten z2.1 z3.1 ρ1 z0.1
  have i4 := mb_schouten_right ρ2 (p 0) z1.1 z2.1 z3.1
  have i5 := mb_schouten_right ρ2 (p 0) z0.1 z1.1 z2.1
  have i6 := mb_schouten_right z1.2 (p 0) z0.1 z1.1 ρ1
  have i7 := sb_schouten z1.2 z3.2 ρ2 z0.2
  have i8 := mb_schouten_right z0.2 (p 3) z1.1 z2.1 z3.1
  have i9 := mb_schouten_left z0.2 z1.2 ρ2 (p 0) z2.1
  have i10 := mb_schouten_right z1.2 (p 0) z1.1 z2.1 z3.1
  have i11 := mb_schouten_right z1.2 (p 3) z1.1 z3.1 ρ1
  have i12 := mb_schouten_right z1.2 (p 3) z1.1 z2.1 z3.1
  have i13 := mb_schouten_left z0.2 z1.2 ρ2 (p 0) z1.1
  have i14 := mb_schouten_left z1.2 z3.2 ρ2 (p 0) z1.1
  have i15 := mb_schouten_right z1.2 (p 0) z0.1 z2.1 ρ1
  have i16 := sb_schouten z2.2 z3.2 ρ2 z1.2
  have i17 := mb_schouten_right z1.2 (p 0) z0.1 z1.1 z2.1
  have i18 := mb_schouten_right z1.2 (p 3) z0.1 z1.1 z2.1
  have i19 := mb_schouten_left z0.2 z1.2 z2.2 (p 0) z2.1
  have i20 := mb_schouten_right z1.2 (p 3) z1.1 z2.1 ρ1
  have i21 := mb_schouten_right z1.2 (p 3) z0.1 z1.1 ρ1
  have i22 := mb_schouten_right z1.2 (p 3) z0.1 z1.1 z3.1
  have i23 := mb_schouten_right z1.2 (p 0) z0.1 z1.1 z3.1
  have i24 := mb_schouten_right z1.2 (p 0) z2.1 z3.1 ρ1
  have i25 := mb_schouten_right z0.2 (p 3) z2.1 z3.1 ρ1
  have i26 := mb_schouten_left z0.2 z1.2 z2.2 (p 0) z1.1
  have i27 := mb_schouten_right z2.2 (p 0) z1.1 z2.1 z3.1
  have i28 := sb_schouten z1.2 z2.2 z3.2 z0.2
  have i29 := mb_schouten_right ρ2 (p 0) z0.1 z2.1 ρ1
  have i30 := mb_schouten_right z1.2 (p 0) z1.1 z2.1 ρ1
  have i31 := mb_schouten_right ρ2 (p 0) z1.1 z3.1 ρ1
  have i32 := mb_schouten_right ρ2 (p 0) z0.1 z1.1 ρ1
  have i33 := mb_schouten_right z1.2 (p 0) z1.1 z3.1 ρ1
  simp only [l1.mb_eq, l2.mb_eq, b0.mb_left, b0.mb_right, b3.mb_left, b3.mb_right, e10, e13, e20, e23, mb_three hb z0.2 z0.1, mb_three hb z0.2 z1.1, mb_three hb z0.2 z2.1, mb_three hb z0.2 ρ1, mb_three hb z1.2 z0.1, mb_three hb z1.2 z2.1, mb_nought hb z1.2 z3.1, mb_three hb z1.2 ρ1, mb_three hb z2.2 z0.1, mb_three hb z2.2 z1.1, mb_nought hb z2.2 z3.1, mb_three hb z2.2 ρ1, mb_nought hb z3.2 z1.1, mb_nought hb z3.2 z2.1, mb_nought hb z3.2 z3.1, mb_nought hb z3.2 ρ1, mb_three hb ρ2 z0.1, mb_three hb ρ2 z1.1, mb_three hb ρ2 z2.1, mb_nought hb ρ2 z3.1, mb_three hb ρ2 ρ1, ab_self, sb_self] at i0 i1 i2 i3 i4 i5 i6 i7 i8 i9 i10 i11 i12 i13 i14 i15 i16 i17 i18 i19 i20 i21 i22 i23 i24 i25 i26 i27 i28 i29 i30 i31 i32 i33 ⊢
  simp only [ab_swap z0.1 z1.1, ab_swap z0.1 z2.1, ab_swap z0.1 z3.1, ab_swap z0.1 ρ1, ab_swap z1.1 z2.1, ab_swap z1.1 z3.1, ab_swap z1.1 ρ1, ab_swap z2.1 z3.1, ab_swap z2.1 ρ1, ab_swap z3.1 ρ1, sb_swap z0.2 z1.2, sb_swap z0.2 z2.2, sb_swap z0.2 z3.2, sb_swap z0.2 ρ2, sb_swap z1.2 z2.2, sb_swap z1.2 z3.2, sb_swap z1.2 ρ2, sb_swap z2.2 z3.2, sb_swap z2.2 ρ2, sb_swap z3.2 ρ2] at i0 i1 i2 i3 i4 i5 i6 i7 i8 i9 i10 i11 i12 i13 i14 i15 i16 i17 i18 i19 i20 i21 i22 i23 i24 i25 i26 i27 i28 i29 i30 i31 i32 i33 ⊢
  simp only [r0, r1, r2, Constants.hL, Constants.hR, Constants.gL, Constants.gR, Constants.yuk, Constants.invVev, Flavour.charge_d, Flavour.isospin_d, ← c.mz]
  have xMW : (c.MW : ℂ) ≠ 0 := by exact_mod_cast hc.MW
  have xSW : (c.SW : ℂ) ≠ 0 := by exact_mod_cast hc.SW
  have xCW : (c.CW : ℂ) ≠ 0 := by exact_mod_cast hc.CW
  have x2 : ((√2 : ℝ) : ℂ) ≠ 0 := by exact_mod_cast (Real.sqrt_pos.2 two_pos).ne'
  have x22 : ((√2 : ℝ) : ℂ) ^ 2 = 2 := by rw [← Complex.ofReal_pow, Real.sq_sqrt two_pos.le]; norm_num
  have x23 : ((√2 : ℝ) : ℂ) ^ 3 = 2 * ((√2 : ℝ) : ℂ) := by rw [← x22]; ring
  have x24 : ((√2 : ℝ) : ℂ) ^ 4 = 4 := by linear_combination (((√2 : ℝ) : ℂ) ^ 2 + 2) * x22
  push_cast at i0 i1 i2 i3 i4 i5 i6 i7 i8 i9 i10 i11 i12 i13 i14 i15 i16 i17 i18 i19 i20 i21 i22 i23 i24 i25 i26 i27 i28 i29 i30 i31 i32 i33 ⊢
  have y0 := mul_inv_cancel₀ n0
  have y1 := mul_inv_cancel₀ n1
  linear_combination ((((4) * ((c.e : ℂ)) * ((c.gs : ℂ)) * (N.c 0) * (ab z2.1 z3.1) * (ab z2.1 ρ1) + (2) * ((c.e : ℂ)) * ((c.gs : ℂ)) * (N.c 1) * (ab z2.1 z3.1) * (ab z2.1 ρ1) + (2) * ((c.e : ℂ)) * ((c.gs : ℂ)) * (ab z1.1 z2.1) * (ab z2.1 z3.1) * (mb z1.2 (p 0) ρ1) + (-2) * ((c.e : ℂ)) * ((c.gs : ℂ)) * (ab z1.1 z2.1) * (ab z3.1 ρ1) * (mb z1.2 (p 0) z2.1) + (2) * ((c.e : ℂ)) * ((c.gs : ℂ)) * (ab z1.1 z3.1) * (ab z2.1 ρ1) * (mb z1.2 (p 0) z2.1)) * i0 + ((6) * ((c.e : ℂ)) * ((c.gs : ℂ)) * (N.c 0) * (sb z0.2 z1.2) * (sb z1.2 ρ2) + (2) * ((c.e : ℂ)) * ((c.gs : ℂ)) * (N.c 1) * (sb z0.2 z1.2) * (sb z1.2 ρ2) + (2) * ((c.e : ℂ)) * ((c.gs : ℂ)) * (mb z1.2 (p 0) z2.1) * (sb z0.2 z1.2) * (sb z2.2 ρ2) + (2) * ((c.e : ℂ)) * ((c.gs : ℂ)) * (mb z1.2 (p 0) z2.1) * (sb z0.2 ρ2) * (sb z1.2 z2.2)) * i1 + ((4) * ((c.e : ℂ)) * ((c.gs : ℂ)) * (mb z1.2 (p 0) z2.1) * (sb z1.2 z2.2) * (sb z3.2 ρ2) + (2) * ((c.e : ℂ)) * ((c.gs : ℂ)) * (mb z1.2 (p 0) z2.1) * (sb z1.2 z3.2) * (sb z2.2 ρ2)) * i2 + ((2) * ((c.e : ℂ)) * ((c.gs : ℂ)) * ((c.mass .d : ℂ)) * (N.c 0) * (sb z1.2 ρ2) + (2) * ((c.e : ℂ)) * ((c.gs : ℂ)) * ((c.mass .d : ℂ)) * (N.c 1) * (sb z1.2 ρ2)) * i3 + ((-4) * ((c.e : ℂ)) * ((c.gs : ℂ)) * (ab z2.1 ρ1) * (sb z0.2 z1.2) * (sb z1.2 z2.2) + (4) * ((c.e : ℂ)) * ((c.gs : ℂ)) * (mb z1.2 (p 0) ρ1) * (sb z0.2 z1.2)) * i4 + ((4) * ((c.e : ℂ)) * ((c.gs : ℂ)) * (mb z1.2 (p 0) ρ1) * (sb z1.2 z3.2)) * i5 + ((-2) * ((c.e : ℂ)) * ((c.gs : ℂ)) * (mb z1.2 (p 0) z2.1) * (sb z3.2 ρ2) + (-4) * ((c.e : ℂ)) * ((c.gs : ℂ)) * (mb ρ2 (p 0) z2.1) * (sb z1.2 z3.2)) * i6 + ((-4) * ((c.e : ℂ)) * ((c.gs : ℂ)) * ((c.mass .d : ℂ)) * (N.c 0) * (ab z2.1 ρ1) + (-2) * ((c.e : ℂ)) * ((c.gs : ℂ)) * ((c.mass .d : ℂ)) * (N.c 1) * (ab z2.1 ρ1) + (-2) * ((c.e : ℂ)) * ((c.gs : ℂ)) * ((c.mass .d : ℂ)) * (ab z1.1 z2.1) * (mb z1.2 (p 0) ρ1)) * i7 + ((2) * ((c.e : ℂ)) * ((c.gs : ℂ)) * (ab z2.1 ρ1) * (sb z1.2 z2.2) * (sb z1.2 ρ2) + (2) * ((c.e : ℂ)) * ((c.gs : ℂ)) * (mb z1.2 (p 0) ρ1) * (sb z1.2 ρ2)) * i8 + ((4) * ((c.e : ℂ)) * ((c.gs : ℂ)) * (N.c 0) * (ab z3.1 ρ1)) * i9 + ((-4) * ((c.e : ℂ)) * ((c.gs : ℂ)) * (ab z2.1 ρ1) * (sb z0.2 z1.2) * (sb z2.2 ρ2) + (-2) * ((c.e : ℂ)) * ((c.gs : ℂ)) * (ab z2.1 ρ1) * (sb z0.2 z2.2) * (sb z1.2 ρ2) + (-2) * ((c.e : ℂ)) * ((c.gs : ℂ)) * (mb z1.2 (p 0) ρ1) * (sb z0.2 ρ2)) * i10 + ((4) * ((c.e : ℂ)) * ((c.gs : ℂ)) * (mb ρ2 (p 0) z2.1) * (sb z0.2 z1.2)) * i11 + ((4) * ((c.e : ℂ)) * ((c.gs : ℂ)) * (ab z2.1 ρ1) * (sb z0.2 z1.2) * (sb z2.2 ρ2) + (4) * ((c.e : ℂ)) * ((c.gs : ℂ)) * (mb z1.2 (p 0) ρ1) * (sb z0.2 ρ2) + (2) * ((c.e : ℂ)) * ((c.gs : ℂ)) * (mb ρ2 (p 0) ρ1) * (sb z0.2 z1.2)) * i12 + ((2) * ((c.e : ℂ)) * ((c.gs : ℂ)) * (ab z2.1 z3.1) * (ab z2.1 ρ1) * (sb z1.2 z2.2) + (-2) * ((c.e : ℂ)) * ((c.gs : ℂ)) * (ab z2.1 z3.1) * (mb z1.2 (p 0) ρ1)) * i13 + ((2) * ((c.e : ℂ)) * ((c.gs : ℂ)) * (ab z0.1 z2.1) * (mb z1.2 (p 0) ρ1)) * i14 + ((6) * ((c.e : ℂ)) * ((c.gs : ℂ)) * (N.c 0) * (sb z3.2 ρ2) + (2) * ((c.e : ℂ)) * ((c.gs : ℂ)) * (N.c 1) * (sb z3.2 ρ2) + (4) * ((c.e : ℂ)) * ((c.gs : ℂ)) * (ab z1.1 z2.1) * (sb z1.2 z2.2) * (sb z3.2 ρ2) + (2) * ((c.e : ℂ)) * ((c.gs : ℂ)) * (ab z1.1 z2.1) * (sb z1.2 z3.2) * (sb z2.2 ρ2) + (2) * ((c.e : ℂ)) * ((c.gs : ℂ)) * (mb ρ2 (p 0) z1.1) * (sb z1.2 z3.2)) * i15 + ((2) * ((c.e : ℂ)) * ((c.gs : ℂ)) * (ab z0.1 z2.1) * (ab z1.1 z2.1) * (mb z1.2 (p 0) ρ1)) * i16 + ((2) * ((c.e : ℂ)) * ((c.gs : ℂ)) * ((c.mass .d : ℂ)) * (ab z3.1 ρ1) * (sb z1.2 ρ2) + (-2) * ((c.e : ℂ)) * ((c.gs : ℂ)) * (ab z2.1 ρ1) * (sb z1.2 z3.2) * (sb z2.2 ρ2) + (4) * ((c.e : ℂ)) * ((c.gs : ℂ)) * (mb z1.2 (p 0) ρ1) * (sb z3.2 ρ2) + (2) * ((c.e : ℂ)) * ((c.gs : ℂ)) * (mb ρ2 (p 0) ρ1) * (sb z1.2 z3.2)) * i17 + ((-2) * ((c.e : ℂ)) * ((c.gs : ℂ)) * ((c.mass .d : ℂ)) * (ab z3.1 ρ1) * (sb z1.2 ρ2) + (-6) * ((c.e : ℂ)) * ((c.gs : ℂ)) * (mb z1.2 (p 0) ρ1) * (sb z3.2 ρ2)) * i18 + ((2) * ((c.e : ℂ)) * ((c.gs : ℂ)) * (ab z1.1 z2.1) * (ab z3.1 ρ1) * (sb z1.2 ρ2)) * i19 + ((-4) * ((c.e : ℂ)) * ((c.gs : ℂ)) * (ab z1.1 z3.1) * (sb z0.2 z1.2) * (sb z1.2 ρ2)) * i20 + ((4) * ((c.e : ℂ)) * ((c.gs : ℂ)) * (mb z1.2 (p 0) z2.1) * (sb z3.2 ρ2)) * i21 + ((2) * ((c.e : ℂ)) * ((c.gs : ℂ)) * ((c.mass .d : ℂ)) * (ab z2.1 ρ1) * (sb z1.2 ρ2)) * i22 + ((-2) * ((c.e : ℂ)) * ((c.gs : ℂ)) * ((c.mass .d : ℂ)) * (ab z2.1 ρ1) * (sb z1.2 ρ2)) * i23 + ((4) * ((c.e : ℂ)) * ((c.gs : ℂ)) * (N.c 0) * (sb z0.2 ρ2) + (-2) * ((c.e : ℂ)) * ((c.gs : ℂ)) * (mb ρ2 (p 0) z1.1) * (sb z0.2 z1.2)) * i24 + ((-4) * ((c.e : ℂ)) * ((c.gs : ℂ)) * (N.c 0) * (sb z1.2 ρ2) + (-2) * ((c.e : ℂ)) * ((c.gs : ℂ)) * (N.c 1) * (sb z1.2 ρ2)) * i25 + ((-2) * ((c.e : ℂ)) * ((c.gs : ℂ)) * (ab z2.1 z3.1) * (ab z2.1 ρ1) * (sb z1.2 ρ2)) * i26 + ((2) * ((c.e : ℂ)) * ((c.gs : ℂ)) * (ab z2.1 ρ1) * (sb z0.2 z1.2) * (sb z1.2 ρ2)) * i27 + ((2) * ((c.e : ℂ)) * ((c.gs : ℂ)) * ((c.mass .d : ℂ)) * (ab z1.1 z2.1) * (ab z2.1 ρ1) * (sb z1.2 ρ2)) * i28 + ((4) * ((c.e : ℂ)) * ((c.gs : ℂ)) * (N.c 1) * (sb z1.2 z3.2)) * i29 + ((2) * ((c.e : ℂ)) * ((c.gs : ℂ)) * (ab z1.1 z3.1) * (sb z0.2 z1.2) * (sb z1.2 ρ2) + (2) * ((c.e : ℂ)) * ((c.gs : ℂ)) * (ab z2.1 z3.1) * (sb z0.2 z1.2) * (sb z2.2 ρ2)) * i30 + ((2) * ((c.e : ℂ)) * ((c.gs : ℂ)) * (mb z1.2 (p 0) z2.1) * (sb z0.2 z1.2)) * i31 + ((-2) * ((c.e : ℂ)) * ((c.gs : ℂ)) * (mb z1.2 (p 0) z2.1) * (sb z1.2 z3.2)) * i32 + ((2) * ((c.e : ℂ)) * ((c.gs : ℂ)) * (mb z1.2 (p 0) z2.1) * (sb z0.2 ρ2)) * i33)) * ((1) * ((N.c 0)⁻¹) * ((N.c 1)⁻¹) / (3)) + ((2) * ((c.e : ℂ)) * ((c.gs : ℂ)) * ((c.mass .d : ℂ)) * ((N.c 1)⁻¹) * (ab z0.1 ρ1) * (ab z2.1 z3.1) * (sb z1.2 ρ2) / (3) + (-2) * ((c.e : ℂ)) * ((c.gs : ℂ)) * ((c.mass .d : ℂ)) * ((N.c 1)⁻¹) * (ab z2.1 ρ1) * (sb z0.2 z1.2) * (sb z3.2 ρ2) / (3) + (2) * ((c.e : ℂ)) * ((c.gs : ℂ)) * ((N.c 1)⁻¹) * (ab z0.1 ρ1) * (mb z1.2 (p 0) z2.1) * (sb z3.2 ρ2) / (3) + (-2) * ((c.e : ℂ)) * ((c.gs : ℂ)) * ((N.c 1)⁻¹) * (ab z1.1 ρ1) * (ab z2.1 z3.1) * (sb z0.2 z1.2) * (sb z1.2 ρ2) / (3) + (2) * ((c.e : ℂ)) * ((c.gs : ℂ)) * ((N.c 1)⁻¹) * (ab z2.1 z3.1) * (mb ρ2 (p 0) ρ1) * (sb z0.2 z1.2) / (3)) * y0 + ((2) * ((c.e : ℂ)) * ((c.gs : ℂ)) * ((c.mass .d : ℂ)) * ((N.c 0)⁻¹) * (ab z0.1 z2.1) * (ab z3.1 ρ1) * (sb z1.2 ρ2) / (3) + (-2) * ((c.e : ℂ)) * ((c.gs : ℂ)) * ((c.mass .d : ℂ)) * ((N.c 0)⁻¹) * (ab z2.1 ρ1) * (sb z0.2 ρ2) * (sb z1.2 z3.2) / (3) + (-2) * ((c.e : ℂ)) * ((c.gs : ℂ)) * ((N.c 0)⁻¹) * (ab z0.1 z2.1) * (ab z2.1 ρ1) * (sb z1.2 z3.2) * (sb z2.2 ρ2) / (3) + (-2) * ((c.e : ℂ)) * ((c.gs : ℂ)) * ((N.c 0)⁻¹) * (ab z0.1 z2.1) * (mb ρ2 (p 0) ρ1) * (sb z1.2 z3.2) / (3) + (-2) * ((c.e : ℂ)) * ((c.gs : ℂ)) * ((N.c 0)⁻¹) * (ab z3.1 ρ1) * (mb z1.2 (p 0) z2.1) * (sb z0.2 ρ2) / (3)) * y1 + ((-1) * ((c.e : ℂ)) * ((c.gs : ℂ)) * ((c.mass .d : ℂ)) * ((N.c 0)⁻¹) * (ab z0.1 z2.1) * (ab z3.1 ρ1) * (sb z1.2 ρ2) / (3) + (1) * ((c.e : ℂ)) * ((c.gs : ℂ)) * ((c.mass .d : ℂ)) * ((N.c 0)⁻¹) * (ab z2.1 ρ1) * (sb z0.2 ρ2) * (sb z1.2 z3.2) / (3) + (-1) * ((c.e : ℂ)) * ((c.gs : ℂ)) * ((c.mass .d : ℂ)) * ((N.c 1)⁻¹) * (ab z0.1 ρ1) * (ab z2.1 z3.1) * (sb z1.2 ρ2) / (3) + (1) * ((c.e : ℂ)) * ((c.gs : ℂ)) * ((c.mass .d : ℂ)) * ((N.c 1)⁻¹) * (ab z2.1 ρ1) * (sb z0.2 z1.2) * (sb z3.2 ρ2) / (3) + (1) * ((c.e : ℂ)) * ((c.gs : ℂ)) * ((N.c 0)⁻¹) * (ab z0.1 z2.1) * (ab z2.1 ρ1) * (sb z1.2 z3.2) * (sb z2.2 ρ2) / (3) + (1) * ((c.e : ℂ)) * ((c.gs : ℂ)) * ((N.c 0)⁻¹) * (ab z0.1 z2.1) * (mb ρ2 (p 0) ρ1) * (sb z1.2 z3.2) / (3) + (1) * ((c.e : ℂ)) * ((c.gs : ℂ)) * ((N.c 0)⁻¹) * (ab z3.1 ρ1) * (mb z1.2 (p 0) z2.1) * (sb z0.2 ρ2) / (3) + (-1) * ((c.e : ℂ)) * ((c.gs : ℂ)) * ((N.c 1)⁻¹) * (ab z0.1 ρ1) * (mb z1.2 (p 0) z2.1) * (sb z3.2 ρ2) / (3) + (1) * ((c.e : ℂ)) * ((c.gs : ℂ)) * ((N.c 1)⁻¹) * (ab z1.1 ρ1) * (ab z2.1 z3.1) * (sb z0.2 z1.2) * (sb z1.2 ρ2) / (3) + (-1) * ((c.e : ℂ)) * ((c.gs : ℂ)) * ((N.c 1)⁻¹) * (ab z2.1 z3.1) * (mb ρ2 (p 0) ρ1) * (sb z0.2 z1.2) / (3)) * x22
theorem dAgd.keyMP {c : Constants} {p : Nat → V4 ℝ} {N : Env} (hc : c.Physical) (hb : Balanced p) (r0 : N.r 0 = c.e) (r1 : N.r 1 = ((-((1 : Nat) : ℝ)) / ((3 : Nat) : ℝ))) (r2 : N.r 2 = c.gs) (d0 : ((msq (plus (p 0) (backward (p 2))) - c.mass .d ^ 2 : ℝ) : ℂ) = N.c 0) (n0 : N.c 0 ≠ 0) (d1 : ((msq (plus (p 0) (p 1)) - c.mass .d ^ 2 : ℝ) : ℂ) = N.c 1) (n1 : N.c 1 ≠ 0) {z0 z1 z2 z3 : Pair} (b0 : Bold (p 0) (c.mass .d) z0) (b3 : Bold (p 3) (c.mass .d) z3) (l1 : Light (p 1) z1) (l2 : Light (p 2) z2) (e10 : mb z1.2 (p 0) z1.1 = N.c 1) (e13 : mb z1.2 (p 3) z1.1 = -N.c 0) (e20 : mb z2.2 (p 0) z2.1 = -N.c 0) (e23 : mb z2.2 (p 3) z2.1 = N.c 1) (q0 : msq (p 0) = (c.mass .d) ^ 2) (q3 : msq (p 3) = (c.mass .d) ^ 2) (ρ1 ρ2 : V2) :
    dAgd.formMP N p z0 z1 z2 z3 * sb ρ1 z1.2 * ab ρ2 z2.1 = ((√2 : ℝ) * ((√2 : ℝ) * (-1 : ℂ))) * dAgd.react.bare c p 3 0 1 2 z3 z0 (pv z1.1 ρ1) (pv ρ2 z2.2) := by
  rw [dAgd.react.bare_parts c p (i := 3) (j := 0) (a := 1) (b := 2) (x := .photon) (y := .gluon) (k := (p 1)) (k' := (backward (p 2))) (fun _ => rfl) (fun _ => rfl) (f := .d) (g := .d) rfl rfl (l := (p 0)) rfl (e := 1) (e' := 1) (if_neg Bool.false_ne_true) (if_neg Bool.false_ne_true)]
  rw [compton_vv (f := .d) (x := .d) (g := .d) (h := (rfl : Spec.after .photon Flavour.d = some Flavour.d)) (h' := (rfl : Spec.after .gluon Flavour.d = some Flavour.d)) (ha := by simp) (hb := by simp)]
  rw [compton_vv (f := .d) (x := .d) (g := .d) (h := (rfl : Spec.after .gluon Flavour.d = some Flavour.d)) (h' := (rfl : Spec.after .photon Flavour.d = some Flavour.d)) (ha := by simp) (hb := by simp)]
  rw [annihilation_none c _ _ (by rfl) (by simp), star_zero, add_zero, dAgd.formMP]
  simp only [d0, d1, lineV_pv, lineV_four, contract_four_pv, contract_pv, mb_plus, mb_backward]
  have i0 := mb_schouten_right z2.2 (p 3) z0.1 z1.1 z2.1
  have i1 := mb_schouten_right z2.2 (p 0) z0.1 z1.1 ρ2
  have i2 := mb_schouten_right z2.2 (p 0) z0.1 z1.1 z2.1
  have i3 := ab_schouten z1.1 z2.1 ρ2 z0.1
  have i4 := mb_schouten_right z1.2 (p 3) z0.1 z1.1 ρ2
  have i5 := mb_schouten_right z1.2 (p 0) z0.1 z1.1 ρ2
  have i6 := sb_schouten z1.2 z2.2 ρ1 z0.2
  have i7 := mb_schouten_right z0.2 (p 3) z1.1 z3.1 ρ2
  have i8 := ab_schouten z2.1 z3.1 ρ2 z1.1
  have i9 := mb_schouten_left z0.2 z2.2 ρ1 (p 0) z1.1
  have i10 := mb_schouten_right z1.2 (p 3) z1.1 z3.1 ρ2
  have i11 := mb_schouten_right z1.2 (p 0) z1.1 z3.1 ρ2
  have i12 := sb_schouten z2.2 z3.2 ρ1 z1.2
  have i13 := mb_schouten_right ρ1 (p 0) z1.1 z2.1 z3.1
  have i14 := mb_schouten_right z2.2 (p 0) z1.1 z2.1 z3.1
  have i15 := sb_schouten z2.2 z3.2 ρ1 z0.2
  have i16 := mb_schouten_right ρ1 (p 0) z1.1 z3.1 ρ2
  have i17 := mb_schouten_right ρ1 (p 0) z1.1 z2.1 ρ2
  have i18 := mb_schouten_right z2.2 (p 3) z1.1 z2.1 z3.1
  have i19 := mb_schouten_left z0.2 z1.2 z2.2 (p 0) z1.1
  have i20 := mb_schouten_left z0.2 z1.2 ρ1 (p 0) z1.1
  have i21 := mb_schouten_right z2.2 (p 0) z1.1 z3.1 ρ2
  have i22 := mb_schouten_right z0.2 (p 3) z1.1 z2.1 z3.1
  have i23 := ab_schouten z1.1 z3.1 ρ2 z0.1
  have i24 := mb_schouten_right z2.2 (p 0) z0.1 z1.1 z3.1
  have i25 := mb_schouten_left z1.2 z3.2 ρ1 (p 0) z1.1
  have i26 := sb_schouten z1.2 z2.2 z3.2 z0.2
  have i27 := mb_schouten_right ρ1 (p 0) z0.1 z1.1 z3.1
  have i28 := mb_schouten_right z1.2 (p 3) z1.1 z2.1 z3.1
  have i29 := mb_schouten_right z1.2 (p 0) z1.1 z2.1 z3.1
  have i30 := mb_schouten_left z1.2 z2.2 z3.2 (p 0) z1.1
  have i31 := mb_schouten_right ρ1 (p 0) z0.1 z1.1 ρ2
  have i32 := sb_schouten z1.2 z3.2 ρ1 z0.2
  have i33 := mb_schouten_right z1.2 (p 3) z0.1 z1.1 z3.1
  simp only [l1.mb_eq, l2.mb_eq, b0.mb_left, b0.mb_right, b3.mb_left, b3.mb_right, e10, e13, e20, e23, mb_three hb z0.2 z0.1, mb_three hb z0.2 z1.1, mb_three hb z0.2 z2.1, mb_three hb z0.2 ρ2, mb_three hb z1.2 z0.1, mb_three hb z1.2 z2.1, mb_nought hb z1.2 z3.1, mb_three hb z1.2 ρ2, mb_three hb z2.2 z0.1, mb_three hb z2.2 z1.1, mb_nought hb z2.2 z3.1, mb_three hb z2.2 ρ2, mb_nought hb z3.2 z1.1, mb_nought hb z3.2 z2.1, mb_nought hb z3.2 z3.1, mb_nought hb z3.2 ρ2, mb_three hb ρ1 z0.1, mb_three hb ρ1 z1.1, mb_three hb ρ1 z2.1, mb_nought hb ρ1 z3.1, mb_three hb ρ1 ρ2, ab_self, sb_self] at i0 i1 i2 i3 i4 i5 i6 i7 i8 i9 i10 i11 i12 i13 i14 i15 i16 i17 i18 i19 i20 i21 i22 i23 i24 i25 i26 i27 i28 i29 i30 i31 i32 i33 ⊢
  simp only [ab_swap z0.1 z1.1, ab_swap z0.1 z2.1, ab_swap z0.1 z3.1, ab_swap z0.1 ρ2, ab_swap z1.1 z2.1, ab_swap z1.1 z3.1, ab_swap z1.1 ρ2, ab_swap z2.1 z3.1, ab_swap z2.1 ρ2, ab_swap z3.1 ρ2, sb_swap z0.2 z1.2, sb_swap z0.2 z2.2, sb_swap z0.2 z3.2, sb_swap z0.2 ρ1, sb_swap z1.2 z2.2, sb_swap z1.2 z3.2, sb_swap z1.2 ρ1, sb_swap z2.2 z3.2, sb_swap z2.2 ρ1, sb_swap z3.2 ρ1] at i0 i1 i2 i3 i4 i5 i6 i7 i8 i9 i10 i11 i12 i13 i14 i15 i16 i17 i18 i19 i20 i21 i22 i23 i24 i25 i26 i27 i28 i29 i30 i31 i32 i33 ⊢
  simp only [r0, r1, r2, Constants.hL, Constants.hR, Constants.gL, Constants.gR, Constants.yuk, Constants.invVev, Flavour.charge_d, Flavour.isospin_d, ← c.mz]
  have xMW : (c.MW : ℂ) ≠ 0 := by exact_mod_cast hc.MW
  have xSW : (c.SW : ℂ) ≠ 0 := by exact_mod_cast hc.SW
  have xCW : (c.CW : ℂ) ≠ 0 := by exact_mod_cast hc.CW
  have x2 : ((√2 : ℝ) : ℂ) ≠ 0 := by exact_mod_cast (Real.sqrt_pos.2 two_pos).ne'
  have x22 : ((√2 : ℝ) : ℂ) ^ 2 = 2 := by rw [← Complex.ofReal_pow, Real.sq_sqrt two_pos.le]; norm_num
  have x23 : ((√2 : ℝ) : ℂ) ^ 3 = 2 * ((√2 : ℝ) : ℂ) := by rw [← x22]; ring
  have x24 : ((√2 : ℝ) : ℂ) ^ 4 = 4 := by linear_combination (((√2 : ℝ) : ℂ) ^ 2 + 2) * x22
  push_cast at i0 i1 i2 i3 i4 i5 i6 i7 i8 i9 i10 i11 i12 i13 i14 i15 i16 i17 i18 i19 i20 i21 i22 i23 i24 i25 i26 i27 i28 i29 i30 i31 i32 i33 ⊢
  have y0 := mul_inv_cancel₀ n0
  have y1 := mul_inv_cancel₀ n1
  linear_combination ((((-2) * ((c.e : ℂ)) * ((c.gs : ℂ)) * (mb z2.2 (p 0) ρ2) * (sb z3.2 ρ1) + (2) * ((c.e : ℂ)) * ((c.gs : ℂ)) * (mb ρ1 (p 0) ρ2) * (sb z2.2 z3.2)) * i0 + ((2) * ((c.e : ℂ)) * ((c.gs : ℂ)) * (N.c 0) * (sb z3.2 ρ1) + (4) * ((c.e : ℂ)) * ((c.gs : ℂ)) * (N.c 1) * (sb z3.2 ρ1) + (4) * ((c.e : ℂ)) * ((c.gs : ℂ)) * (ab z1.1 z2.1) * (sb z1.2 z2.2) * (sb z3.2 ρ1) + (-2) * ((c.e : ℂ)) * ((c.gs : ℂ)) * (ab z1.1 z2.1) * (sb z1.2 z3.2) * (sb z2.2 ρ1) + (2) * ((c.e : ℂ)) * ((c.gs : ℂ)) * (mb ρ1 (p 0) z1.1) * (sb z1.2 z3.2)) * i1 + ((-2) * ((c.e : ℂ)) * ((c.gs : ℂ)) * (ab z1.1 ρ2) * (sb z1.2 z2.2) * (sb z3.2 ρ1) + (2) * ((c.e : ℂ)) * ((c.gs : ℂ)) * (ab z1.1 ρ2) * (sb z1.2 z3.2) * (sb z2.2 ρ1) + (2) * ((c.e : ℂ)) * ((c.gs : ℂ)) * (mb z2.2 (p 0) ρ2) * (sb z3.2 ρ1) + (-2) * ((c.e : ℂ)) * ((c.gs : ℂ)) * (mb ρ1 (p 0) ρ2) * (sb z2.2 z3.2)) * i2 + ((4) * ((c.e : ℂ)) * ((c.gs : ℂ)) * (mb z2.2 (p 0) z1.1) * (sb z1.2 z2.2) * (sb z3.2 ρ1) + (-2) * ((c.e : ℂ)) * ((c.gs : ℂ)) * (mb z2.2 (p 0) z1.1) * (sb z1.2 z3.2) * (sb z2.2 ρ1)) * i3 + ((2) * ((c.e : ℂ)) * ((c.gs : ℂ)) * (mb z2.2 (p 0) z1.1) * (sb z3.2 ρ1)) * i4 + ((-2) * ((c.e : ℂ)) * ((c.gs : ℂ)) * (mb z2.2 (p 0) z1.1) * (sb z3.2 ρ1)) * i5 + ((-2) * ((c.e : ℂ)) * ((c.gs : ℂ)) * ((c.mass .d : ℂ)) * (ab z1.1 z2.1) * (ab z1.1 ρ2) * (sb z2.2 z3.2) + (2) * ((c.e : ℂ)) * ((c.gs : ℂ)) * ((c.mass .d : ℂ)) ^ 2 * (ab z1.1 z3.1) * (ab z1.1 ρ2) + (2) * ((c.e : ℂ)) * ((c.gs : ℂ)) * (N.c 1) * (ab z1.1 z3.1) * (ab z1.1 ρ2) + (-2) * ((c.e : ℂ)) * ((c.gs : ℂ)) * (ab z1.1 z3.1) * (ab z2.1 ρ2) * (mb z2.2 (p 0) z1.1)) * i6 + ((2) * ((c.e : ℂ)) * ((c.gs : ℂ)) * (N.c 0) * (sb z2.2 ρ1) + (-2) * ((c.e : ℂ)) * ((c.gs : ℂ)) * (N.c 1) * (sb z2.2 ρ1) + (2) * ((c.e : ℂ)) * ((c.gs : ℂ)) * (mb z2.2 (p 0) z1.1) * (sb z1.2 ρ1) + (-2) * ((c.e : ℂ)) * ((c.gs : ℂ)) * (mb ρ1 (p 0) z1.1) * (sb z1.2 z2.2)) * i7 + ((-2) * ((c.e : ℂ)) * ((c.gs : ℂ)) * (N.c 0) * (sb z0.2 z2.2) * (sb z2.2 ρ1) + (2) * ((c.e : ℂ)) * ((c.gs : ℂ)) * (N.c 1) * (sb z0.2 z2.2) * (sb z2.2 ρ1) + (-2) * ((c.e : ℂ)) * ((c.gs : ℂ)) * (mb z2.2 (p 0) z1.1) * (sb z0.2 z2.2) * (sb z1.2 ρ1) + (2) * ((c.e : ℂ)) * ((c.gs : ℂ)) * (mb ρ1 (p 0) z1.1) * (sb z0.2 z2.2) * (sb z1.2 z2.2)) * i8 + ((-2) * ((c.e : ℂ)) * ((c.gs : ℂ)) * (N.c 0) * (ab z3.1 ρ2) + (2) * ((c.e : ℂ)) * ((c.gs : ℂ)) * (N.c 1) * (ab z3.1 ρ2) + (-2) * ((c.e : ℂ)) * ((c.gs : ℂ)) * (ab z1.1 z3.1) * (ab z2.1 ρ2) * (sb z1.2 z2.2)) * i9 + ((2) * ((c.e : ℂ)) * ((c.gs : ℂ)) * (mb ρ1 (p 0) z1.1) * (sb z0.2 z2.2)) * i10 + ((-2) * ((c.e : ℂ)) * ((c.gs : ℂ)) * (mb ρ1 (p 0) z1.1) * (sb z0.2 z2.2)) * i11 + ((2) * ((c.e : ℂ)) * ((c.gs : ℂ)) * ((c.mass .d : ℂ)) ^ 2 * (ab z0.1 z1.1) * (ab z1.1 ρ2) + (-2) * ((c.e : ℂ)) * ((c.gs : ℂ)) * (N.c 0) * (ab z0.1 z1.1) * (ab z1.1 ρ2) + (-2) * ((c.e : ℂ)) * ((c.gs : ℂ)) * (ab z0.1 z1.1) * (ab z1.1 z2.1) * (mb z2.2 (p 0) ρ2) + (-2) * ((c.e : ℂ)) * ((c.gs : ℂ)) * (ab z0.1 z1.1) * (ab z2.1 ρ2) * (mb z2.2 (p 0) z1.1)) * i12 + ((-4) * ((c.e : ℂ)) * ((c.gs : ℂ)) * (ab z1.1 ρ2) * (sb z0.2 z2.2) * (sb z1.2 z2.2)) * i13 + ((-2) * ((c.e : ℂ)) * ((c.gs : ℂ)) * (ab z1.1 ρ2) * (sb z0.2 z1.2) * (sb z2.2 ρ1) + (4) * ((c.e : ℂ)) * ((c.gs : ℂ)) * (ab z1.1 ρ2) * (sb z0.2 z2.2) * (sb z1.2 ρ1) + (-4) * ((c.e : ℂ)) * ((c.gs : ℂ)) * (mb ρ1 (p 0) ρ2) * (sb z0.2 z2.2)) * i14 + ((2) * ((c.e : ℂ)) * ((c.gs : ℂ)) * ((c.mass .d : ℂ)) * (N.c 0) * (ab z1.1 ρ2) + (-2) * ((c.e : ℂ)) * ((c.gs : ℂ)) * ((c.mass .d : ℂ)) * (N.c 1) * (ab z1.1 ρ2) + (2) * ((c.e : ℂ)) * ((c.gs : ℂ)) * ((c.mass .d : ℂ)) * (ab z1.1 z2.1) * (ab z1.1 ρ2) * (sb z1.2 z2.2)) * i15 + ((4) * ((c.e : ℂ)) * ((c.gs : ℂ)) * (N.c 0) * (sb z0.2 z2.2) + (2) * ((c.e : ℂ)) * ((c.gs : ℂ)) * (mb z2.2 (p 0) z1.1) * (sb z0.2 z1.2)) * i16 + ((4) * ((c.e : ℂ)) * ((c.gs : ℂ)) * (ab z1.1 z3.1) * (sb z0.2 z2.2) * (sb z1.2 z2.2)) * i17 + ((-2) * ((c.e : ℂ)) * ((c.gs : ℂ)) * (ab z1.1 ρ2) * (sb z0.2 z2.2) * (sb z1.2 ρ1) + (4) * ((c.e : ℂ)) * ((c.gs : ℂ)) * (mb ρ1 (p 0) ρ2) * (sb z0.2 z2.2)) * i18 + ((2) * ((c.e : ℂ)) * ((c.gs : ℂ)) * (ab z1.1 z3.1) * (ab z2.1 ρ2) * (sb z2.2 ρ1) + (-2) * ((c.e : ℂ)) * ((c.gs : ℂ)) * (ab z1.1 z3.1) * (mb ρ1 (p 0) ρ2)) * i19 + ((2) * ((c.e : ℂ)) * ((c.gs : ℂ)) * (ab z1.1 z3.1) * (mb z2.2 (p 0) ρ2)) * i20 + ((2) * ((c.e : ℂ)) * ((c.gs : ℂ)) * (N.c 1) * (sb z0.2 ρ1) + (-2) * ((c.e : ℂ)) * ((c.gs : ℂ)) * (mb ρ1 (p 0) z1.1) * (sb z0.2 z1.2)) * i21 + ((-2) * ((c.e : ℂ)) * ((c.gs : ℂ)) * (ab z1.1 ρ2) * (sb z1.2 z2.2) * (sb z2.2 ρ1)) * i22 + ((-2) * ((c.e : ℂ)) * ((c.gs : ℂ)) * ((c.mass .d : ℂ)) * (N.c 0) * (sb z2.2 ρ1) + (-2) * ((c.e : ℂ)) * ((c.gs : ℂ)) * ((c.mass .d : ℂ)) * (mb z2.2 (p 0) z1.1) * (sb z1.2 ρ1) + (2) * ((c.e : ℂ)) * ((c.gs : ℂ)) * ((c.mass .d : ℂ)) * (mb ρ1 (p 0) z1.1) * (sb z1.2 z2.2)) * i23 + ((2) * ((c.e : ℂ)) * ((c.gs : ℂ)) * ((c.mass .d : ℂ)) * (ab z1.1 ρ2) * (sb z1.2 ρ1)) * i24 + ((-2) * ((c.e : ℂ)) * ((c.gs : ℂ)) * (ab z0.1 z1.1) * (mb z2.2 (p 0) ρ2)) * i25 + ((2) * ((c.e : ℂ)) * ((c.gs : ℂ)) * ((c.mass .d : ℂ)) * (ab z1.1 ρ2) * (mb ρ1 (p 0) z1.1)) * i26 + ((-2) * ((c.e : ℂ)) * ((c.gs : ℂ)) * ((c.mass .d : ℂ)) * (ab z1.1 ρ2) * (sb z1.2 z2.2)) * i27 + ((2) * ((c.e : ℂ)) * ((c.gs : ℂ)) * (ab z1.1 ρ2) * (sb z0.2 z2.2) * (sb z2.2 ρ1)) * i28 + ((-2) * ((c.e : ℂ)) * ((c.gs : ℂ)) * (ab z1.1 ρ2) * (sb z0.2 z2.2) * (sb z2.2 ρ1)) * i29 + ((-2) * ((c.e : ℂ)) * ((c.gs : ℂ)) * (ab z0.1 z1.1) * (mb ρ1 (p 0) ρ2)) * i30 + ((-2) * ((c.e : ℂ)) * ((c.gs : ℂ)) * (mb z2.2 (p 0) z1.1) * (sb z1.2 z3.2)) * i31 + ((2) * ((c.e : ℂ)) * ((c.gs : ℂ)) * ((c.mass .d : ℂ)) * (ab z1.1 ρ2) * (mb z2.2 (p 0) z1.1)) * i32 + ((-2) * ((c.e : ℂ)) * ((c.gs : ℂ)) * ((c.mass .d : ℂ)) * (ab z1.1 ρ2) * (sb z2.2 ρ1)) * i33)) * ((1) * ((N.c 0)⁻¹) * ((N.c 1)⁻¹) / (3)) + ((2) * ((c.e : ℂ)) * ((c.gs : ℂ)) * ((c.mass .d : ℂ)) * ((N.c 1)⁻¹) * (ab z0.1 z1.1) * (ab z3.1 ρ2) * (sb z2.2 ρ1) / (3) + (-2) * ((c.e : ℂ)) * ((c.gs : ℂ)) * ((c.mass .d : ℂ)) * ((N.c 1)⁻¹) * (ab z1.1 ρ2) * (sb z0.2 ρ1) * (sb z2.2 z3.2) / (3) + (2) * ((c.e : ℂ)) * ((c.gs : ℂ)) * ((N.c 1)⁻¹) * (ab z0.1 z1.1) * (ab z1.1 ρ2) * (sb z1.2 ρ1) * (sb z2.2 z3.2) / (3) + (-2) * ((c.e : ℂ)) * ((c.gs : ℂ)) * ((N.c 1)⁻¹) * (ab z0.1 z1.1) * (mb ρ1 (p 0) ρ2) * (sb z2.2 z3.2) / (3) + (-2) * ((c.e : ℂ)) * ((c.gs : ℂ)) * ((N.c 1)⁻¹) * (ab z3.1 ρ2) * (mb z2.2 (p 0) z1.1) * (sb z0.2 ρ1) / (3)) * y0 + ((2) * ((c.e : ℂ)) * ((c.gs : ℂ)) * ((c.mass .d : ℂ)) * ((N.c 0)⁻¹) * (ab z0.1 ρ2) * (ab z1.1 z3.1) * (sb z2.2 ρ1) / (3) + (-2) * ((c.e : ℂ)) * ((c.gs : ℂ)) * ((c.mass .d : ℂ)) * ((N.c 0)⁻¹) * (ab z1.1 ρ2) * (sb z0.2 z2.2) * (sb z3.2 ρ1) / (3) + (2) * ((c.e : ℂ)) * ((c.gs : ℂ)) * ((N.c 0)⁻¹) * (ab z0.1 ρ2) * (mb z2.2 (p 0) z1.1) * (sb z3.2 ρ1) / (3) + (2) * ((c.e : ℂ)) * ((c.gs : ℂ)) * ((N.c 0)⁻¹) * (ab z1.1 z3.1) * (ab z2.1 ρ2) * (sb z0.2 z2.2) * (sb z2.2 ρ1) / (3) + (2) * ((c.e : ℂ)) * ((c.gs : ℂ)) * ((N.c 0)⁻¹) * (ab z1.1 z3.1) * (mb ρ1 (p 0) ρ2) * (sb z0.2 z2.2) / (3)) * y1 + ((-1) * ((c.e : ℂ)) * ((c.gs : ℂ)) * ((c.mass .d : ℂ)) * ((N.c 0)⁻¹) * (ab z0.1 ρ2) * (ab z1.1 z3.1) * (sb z2.2 ρ1) / (3) + (1) * ((c.e : ℂ)) * ((c.gs : ℂ)) * ((c.mass .d : ℂ)) * ((N.c 0)⁻¹) * (ab z1.1 ρ2) * (sb z0.2 z2.2) * (sb z3.2 ρ1) / (3) + (-1) * ((c.e : ℂ)) * ((c.gs : ℂ)) * ((c.mass .d : ℂ)) * ((N.c 1)⁻¹) * (ab z0.1 z1.1) * (ab z3.1 ρ2) * (sb z2.2 ρ1) / (3) + (1) * ((c.e : ℂ)) * ((c.gs : ℂ)) * ((c.mass .d : ℂ)) * ((N.c 1)⁻¹) * (ab z1.1 ρ2) * (sb z0.2 ρ1) * (sb z2.2 z3.2) / (3) + (-1) * ((c.e : ℂ)) * ((c.gs : ℂ)) * ((N.c 0)⁻¹) * (ab z0.1 ρ2) * (mb z2.2 (p 0) z1.1) * (sb z3.2 ρ1) / (3) + (-1) * ((c.e : ℂ)) * ((c.gs : ℂ)) * ((N.c 0)⁻¹) * (ab z1.1 z3.1) * (ab z2.1 ρ2) * (sb z0.2 z2.2) * (sb z2.2 ρ1) / (3) + (-1) * ((c.e : ℂ)) * ((c.gs : ℂ)) * ((N.c 0)⁻¹) * (ab z1.1 z3.1) * (mb ρ1 (p 0) ρ2) * (sb z0.2 z2.2) / (3) + (-1) * ((c.e : ℂ)) * ((c.gs : ℂ)) * ((N.c 1)⁻¹) * (ab z0.1 z1.1) * (ab z1.1 ρ2) * (sb z1.2 ρ1) * (sb z2.2 z3.2) / (3) + (1) * ((c.e : ℂ)) * ((c.gs : ℂ)) * ((N.c 1)⁻¹) * (ab z0.1 z1.1) * (mb ρ1 (p 0) ρ2) * (sb z2.2 z3.2) / (3) + (1) * ((c.e : ℂ)) * ((c.gs : ℂ)) * ((N.c 1)⁻¹) * (ab z3.1 ρ2) * (mb z2.2 (p 0) z1.1) * (sb z0.2 ρ1) / (3)) * x22
theorem dAgd.keyMM {c : Constants} {p : Nat → V4 ℝ} {N : Env} (hc : c.Physical) (hb : Balanced p) (r0 : N.r 0 = c.e) (r1 : N.r 1 = ((-((1 : Nat) : ℝ)) / ((3 : Nat) : ℝ))) (r2 : N.r 2 = c.gs) (r3 : N.r 3 = (c.mass .d)) (d0 : ((msq (plus (p 0) (backward (p 2))) - c.mass .d ^ 2 : ℝ) : ℂ) = N.c 0) (n0 : N.c 0 ≠ 0) (d1 : ((msq (plus (p 0) (p 1)) - c.mass .d ^ 2 : ℝ) : ℂ) = N.c 1) (n1 : N.c 1 ≠ 0) {z0 z1 z2 z3 : Pair} (b0 : Bold (p 0) (c.mass .d) z0) (b3 : Bold (p 3) (c.mass .d) z3) (l1 : Light (p 1) z1) (l2 : Light (p 2) z2) (e10 : mb z1.2 (p 0) z1.1 = N.c 1) (e13 : mb z1.2 (p 3) z1.1 = -N.c 0) (e20 : mb z2.2 (p 0) z2.1 = -N.c 0) (e23 : mb z2.2 (p 3) z2.1 = N.c 1) (q0 : msq (p 0) = (c.mass .d) ^ 2) (q3 : msq (p 3) = (c.mass .d) ^ 2) (ρ1 ρ2 : V2) :
    dAgd.formMM N p z0 z1 z2 z3 * sb ρ1 z1.2 * sb ρ2 z2.2 = ((√2 : ℝ) * ((√2 : ℝ) * (1 : ℂ))) * dAgd.react.bare c p 3 0 1 2 z3 z0 (pv z1.1 ρ1) (pv z2.1 ρ2) := by
  rw [dAgd.react.bare_parts c p (i := 3) (j := 0) (a := 1) (b := 2) (x := .photon) (y := .gluon) (k := (p 1)) (k' := (backward (p 2))) (fun _ => rfl) (fun _ => rfl) (f := .d) (g := .d) rfl rfl (l := (p 0)) rfl (e := 1) (e' := 1) (if_neg Bool.false_ne_true) (if_neg Bool.false_ne_true)]
  rw [compton_vv (f := .d) (x := .d) (g := .d) (h := (rfl : Spec.after .photon Flavour.d = some Flavour.d)) (h' := (rfl : Spec.after .gluon Flavour.d = some Flavour.d)) (ha := by simp) (hb := by simp)]
  rw [compton_vv (f := .d) (x := .d) (g := .d) (h := (rfl : Spec.after .gluon Flavour.d = some Flavour.d)) (h' := (rfl : Spec.after .photon Flavour.d = some Flavour.d)) (ha := by simp) (hb := by simp)]
  rw [annihilation_none c _ _ (by rfl) (by simp), star_zero, add_zero, dAgd.formMM]
  simp only [d0, d1, lineV_pv, lineV_four, contract_four_pv, contract_pv, mb_plus, mb_backward]
  have i0 := mb_schouten_left z0.2 ρ1 ρ2 (p 0) z1.1
  have i1 := sb_schouten z3.2 ρ1 ρ2 z0.2
  have i2 := mb_schouten_right z0.2 (p 3) z1.1 z2.1 z3.1
  have i3 := mb_schouten_right z1.2 (p 0) z1.1 z2.1 z3.1
  have i4 := mb_schouten_right z2.2 (p 3) z0.1 z1.1 z2.1
  have i5 := mb_schouten_right z2.2 (p 0) z0.1 z1.1 z2.1
  have i6 := mb_schouten_left z1.2 z2.2 ρ1 (p 0) z1.1
  have i7 := sb_schouten z2.2 z3.2 ρ1 z1.2
  have i8 := mb_schouten_right ρ2 (p 0) z0.1 z1.1 z2.1
  have i9 := mb_schouten_right z1.2 (p 3) z1.1 z2.1 z3.1
  have i10 := mb_schouten_right z1.2 (p 3) z0.1 z1.1 z2.1
  have i11 := mb_schouten_right z1.2 (p 0) z0.1 z1.1 z2.1
  have i12 := sb_schouten z2.2 ρ1 ρ2 z0.2
  have i13 := sb_schouten z1.2 ρ1 ρ2 z0.2
  have i14 := sb_schouten z2.2 z3.2 ρ2 z0.2
  have i15 := mb_schouten_right z2.2 (p 3) z1.1 z2.1 z3.1
  have i16 := mb_schouten_right z2.2 (p 0) z1.1 z2.1 z3.1
  have i17 := sb_schouten z1.2 z2.2 z3.2 z0.2
  have i18 := mb_schouten_left z1.2 z3.2 ρ2 (p 0) z1.1
  have i19 := mb_schouten_right ρ1 (p 0) z0.1 z1.1 z2.1
  have i20 := sb_schouten z1.2 z3.2 ρ1 z0.2
  have i21 := ab_schouten z1.1 z2.1 z3.1 z0.1
  have i22 := mb_schouten_left z1.2 z3.2 ρ1 (p 0) z1.1
  have i23 := sb_schouten z1.2 z3.2 ρ2 z0.2
  have i24 := sb_schouten z3.2 ρ1 ρ2 z1.2
  have i25 := mb_schouten_right ρ2 (p 0) z0.1 z1.1 z3.1
  have i26 := mb_schouten_right ρ1 (p 0) z0.1 z1.1 z3.1
  have i27 := sb_schouten z2.2 z3.2 ρ2 z1.2
  have i28 := mb_schouten_right z3.2 (p 0) z0.1 z1.1 z2.1
  have i29 := sb_schouten z2.2 ρ1 ρ2 z1.2
  have i30 := mb_schouten_left z0.2 z2.2 ρ2 (p 0) z1.1
  have i31 := sb_schouten z1.2 z2.2 ρ1 z0.2
  have i32 := mb_schouten_right ρ2 (p 0) z1.1 z2.1 z3.1
  have i33 := mb_schouten_right ρ1 (p 0) z1.1 z2.1 z3.1
  have i34 := mb_schouten_left z0.2 z1.2 ρ2 (p 0) z1.1
  have i35 := mb_schouten_left z0.2 z1.2 ρ1 (p 0) z1.1
  have i36 := mb_schouten_left z0.2 z2.2 ρ1 (p 0) z1.1
  have i37 := sb_schouten z1.2 z2.2 ρ2 z0.2
  have i38 := sb_schouten z3.2 ρ1 ρ2 z2.2
  have i39 := mb_schouten_right z1.2 (p 0) z0.1 z1.1 z3.1
  have i40 := mb_schouten_left z0.2 z1.2 z2.2 (p 0) z1.1
  simp only [l1.mb_eq, l2.mb_eq, b0.mb_left, b0.mb_right, b3.mb_left, b3.mb_right, e10, e13, e20, e23, mb_three hb z0.2 z0.1, mb_three hb z0.2 z1.1, mb_three hb z0.2 z2.1, mb_three hb z1.2 z0.1, mb_three hb z1.2 z2.1, mb_nought hb z1.2 z3.1, mb_three hb z2.2 z0.1, mb_three hb z2.2 z1.1, mb_nought hb z2.2 z3.1, mb_nought hb z3.2 z1.1, mb_nought hb z3.2 z2.1, mb_nought hb z3.2 z3.1, mb_three hb ρ1 z0.1, mb_three hb ρ1 z1.1, mb_three hb ρ1 z2.1, mb_nought hb ρ1 z3.1, mb_three hb ρ2 z0.1, mb_three hb ρ2 z1.1, mb_three hb ρ2 z2.1, mb_nought hb ρ2 z3.1, ab_self, sb_self] at i0 i1 i2 i3 i4 i5 i6 i7 i8 i9 i10 i11 i12 i13 i14 i15 i16 i17 i18 i19 i20 i21 i22 i23 i24 i25 i26 i27 i28 i29 i30 i31 i32 i33 i34 i35 i36 i37 i38 i39 i40 ⊢
  simp only [ab_swap z0.1 z1.1, ab_swap z0.1 z2.1, ab_swap z0.1 z3.1, ab_swap z1.1 z2.1, ab_swap z1.1 z3.1, ab_swap z2.1 z3.1, sb_swap z0.2 z1.2, sb_swap z0.2 z2.2, sb_swap z0.2 z3.2, sb_swap z0.2 ρ1, sb_swap z0.2 ρ2, sb_swap z1.2 z2.2, sb_swap z1.2 z3.2, sb_swap z1.2 ρ1, sb_swap z1.2 ρ2, sb_swap z2.2 z3.2, sb_swap z2.2 ρ1, sb_swap z2.2 ρ2, sb_swap z3.2 ρ1, sb_swap z3.2 ρ2, sb_swap ρ1 ρ2] at i0 i1 i2 i3 i4 i5 i6 i7 i8 i9 i10 i11 i12 i13 i14 i15 i16 i17 i18 i19 i20 i21 i22 i23 i24 i25 i26 i27 i28 i29 i30 i31 i32 i33 i34 i35 i36 i37 i38 i39 i40 ⊢
  simp only [r0, r1, r2, r3, Constants.hL, Constants.hR, Constants.gL, Constants.gR, Constants.yuk, Constants.invVev, Flavour.charge_d, Flavour.isospin_d, ← c.mz]
  have xMW : (c.MW : ℂ) ≠ 0 := by exact_mod_cast hc.MW
  have xSW : (c.SW : ℂ) ≠ 0 := by exact_mod_cast hc.SW
  have xCW : (c.CW : ℂ) ≠ 0 := by exact_mod_cast hc.CW
  have x2 : ((√2 : ℝ) : ℂ) ≠ 0 := by exact_mod_cast (Real.sqrt_pos.2 two_pos).ne'
  have x22 : ((√2 : ℝ) : ℂ) ^ 2 = 2 := by rw [← Complex.ofReal_pow, Real.sq_sqrt two_pos.le]; norm_num
  have x23 : ((√2 : ℝ) : ℂ) ^ 3 = 2 * ((√2 : ℝ) : ℂ) := by rw [← x22]; ring
  have x24 : ((√2 : ℝ) : ℂ) ^ 4 = 4 := by linear_combination (((√2 : ℝ) : ℂ) ^ 2 + 2) * x22
  push_cast at i0 i1 i2 i3 i4 i5 i6 i7 i8 i9 i10 i11 i12 i13 i14 i15 i16 i17 i18 i19 i20 i21 i22 i23 i24 i25 i26 i27 i28 i29 i30 i31 i32 i33 i34 i35 i36 i37 i38 i39 i40 ⊢
  have y0 := mul_inv_cancel₀ n0
  have y1 := mul_inv_cancel₀ n1
  linear_combination ((((4) * ((c.e : ℂ)) * ((c.gs : ℂ)) * (N.c 0) * (ab z2.1 z3.1)) * i0 + ((-2) * ((c.e : ℂ)) * ((c.gs : ℂ)) * ((c.mass .d : ℂ)) * (N.c 0) * (ab z1.1 z2.1) + (2) * ((c.e : ℂ)) * ((c.gs : ℂ)) * ((c.mass .d : ℂ)) * (N.c 1) * (ab z1.1 z2.1)) * i1 + ((-2) * ((c.e : ℂ)) * ((c.gs : ℂ)) * (N.c 0) * (sb ρ1 ρ2) + (-2) * ((c.e : ℂ)) * ((c.gs : ℂ)) * (ab z1.1 z2.1) * (sb z1.2 z2.2) * (sb ρ1 ρ2)) * i2 + ((2) * ((c.e : ℂ)) * ((c.gs : ℂ)) * (ab z1.1 z2.1) * (sb z0.2 z2.2) * (sb ρ1 ρ2) + (4) * ((c.e : ℂ)) * ((c.gs : ℂ)) * (mb ρ1 (p 0) z1.1) * (sb z0.2 ρ2) + (-2) * ((c.e : ℂ)) * ((c.gs : ℂ)) * (mb ρ2 (p 0) z1.1) * (sb z0.2 ρ1)) * i3 + ((2) * ((c.e : ℂ)) * ((c.gs : ℂ)) * (mb ρ1 (p 0) z2.1) * (sb z3.2 ρ2) + (-2) * ((c.e : ℂ)) * ((c.gs : ℂ)) * (mb ρ2 (p 0) z2.1) * (sb z3.2 ρ1)) * i4 + ((2) * ((c.e : ℂ)) * ((c.gs : ℂ)) * (ab z1.1 z2.1) * (sb z1.2 ρ1) * (sb z3.2 ρ2) + (-2) * ((c.e : ℂ)) * ((c.gs : ℂ)) * (mb ρ1 (p 0) z2.1) * (sb z3.2 ρ2) + (2) * ((c.e : ℂ)) * ((c.gs : ℂ)) * (mb ρ2 (p 0) z2.1) * (sb z3.2 ρ1)) * i5 + ((-2) * ((c.e : ℂ)) * ((c.gs : ℂ)) * (ab z0.1 z2.1) * (ab z1.1 z2.1) * (sb z3.2 ρ2)) * i6 + ((2) * ((c.e : ℂ)) * ((c.gs : ℂ)) * (ab z0.1 z1.1) * (ab z1.1 z2.1) * (mb ρ2 (p 0) z2.1) + (-2) * ((c.e : ℂ)) * ((c.gs : ℂ)) * (ab z0.1 z2.1) * (ab z1.1 z2.1) * (mb ρ2 (p 0) z1.1)) * i7 + ((2) * ((c.e : ℂ)) * ((c.gs : ℂ)) * (N.c 0) * (sb z3.2 ρ1) + (2) * ((c.e : ℂ)) * ((c.gs : ℂ)) * (ab z1.1 z2.1) * (sb z1.2 z3.2) * (sb z2.2 ρ1) + (-2) * ((c.e : ℂ)) * ((c.gs : ℂ)) * (mb ρ1 (p 0) z1.1) * (sb z1.2 z3.2)) * i8 + ((-2) * ((c.e : ℂ)) * ((c.gs : ℂ)) * (ab z1.1 z2.1) * (sb z0.2 z2.2) * (sb ρ1 ρ2) + (-4) * ((c.e : ℂ)) * ((c.gs : ℂ)) * (mb ρ1 (p 0) z1.1) * (sb z0.2 ρ2) + (2) * ((c.e : ℂ)) * ((c.gs : ℂ)) * (mb ρ2 (p 0) z1.1) * (sb z0.2 ρ1)) * i9 + ((-2) * ((c.e : ℂ)) * ((c.gs : ℂ)) * ((c.mass .d : ℂ)) * (ab z1.1 z3.1) * (sb ρ1 ρ2) + (2) * ((c.e : ℂ)) * ((c.gs : ℂ)) * (mb ρ2 (p 0) z1.1) * (sb z3.2 ρ1)) * i10 + ((2) * ((c.e : ℂ)) * ((c.gs : ℂ)) * ((c.mass .d : ℂ)) * (ab z1.1 z3.1) * (sb ρ1 ρ2) + (-2) * ((c.e : ℂ)) * ((c.gs : ℂ)) * (mb ρ2 (p 0) z1.1) * (sb z3.2 ρ1)) * i11 + ((-2) * ((c.e : ℂ)) * ((c.gs : ℂ)) * ((c.mass .d : ℂ)) * (ab z1.1 z2.1) ^ 2 * (sb z1.2 z3.2) + (-4) * ((c.e : ℂ)) * ((c.gs : ℂ)) * (N.c 1) * (ab z1.1 z2.1) * (ab z2.1 z3.1)) * i12 + ((2) * ((c.e : ℂ)) * ((c.gs : ℂ)) * ((c.mass .d : ℂ)) * (ab z1.1 z2.1) ^ 2 * (sb z2.2 z3.2) + (2) * ((c.e : ℂ)) * ((c.gs : ℂ)) * ((c.mass .d : ℂ)) ^ 2 * (ab z1.1 z2.1) * (ab z1.1 z3.1) + (2) * ((c.e : ℂ)) * ((c.gs : ℂ)) * (N.c 1) * (ab z1.1 z2.1) * (ab z1.1 z3.1) + (2) * ((c.e : ℂ)) * ((c.gs : ℂ)) * (ab z1.1 z2.1) * (ab z2.1 z3.1) * (mb z2.2 (p 0) z1.1)) * i13 + ((-2) * ((c.e : ℂ)) * ((c.gs : ℂ)) * ((c.mass .d : ℂ)) * (ab z1.1 z2.1) ^ 2 * (sb z1.2 ρ1)) * i14 + ((2) * ((c.e : ℂ)) * ((c.gs : ℂ)) * (ab z1.1 z2.1) * (sb z0.2 z1.2) * (sb ρ1 ρ2) + (-2) * ((c.e : ℂ)) * ((c.gs : ℂ)) * (ab z1.1 z2.1) * (sb z0.2 ρ1) * (sb z1.2 ρ2)) * i15 + ((-2) * ((c.e : ℂ)) * ((c.gs : ℂ)) * (ab z1.1 z2.1) * (sb z0.2 z1.2) * (sb ρ1 ρ2)) * i16 + ((-2) * ((c.e : ℂ)) * ((c.gs : ℂ)) * ((c.mass .d : ℂ)) * (ab z1.1 z2.1) ^ 2 * (sb ρ1 ρ2)) * i17 + ((2) * ((c.e : ℂ)) * ((c.gs : ℂ)) * (ab z0.1 z1.1) * (ab z1.1 z2.1) * (sb z1.2 ρ1) + (-2) * ((c.e : ℂ)) * ((c.gs : ℂ)) * (ab z0.1 z1.1) * (mb ρ1 (p 0) z2.1)) * i18 + ((-2) * ((c.e : ℂ)) * ((c.gs : ℂ)) * (ab z1.1 z2.1) * (sb z1.2 z3.2) * (sb z2.2 ρ2) + (2) * ((c.e : ℂ)) * ((c.gs : ℂ)) * (mb ρ2 (p 0) z1.1) * (sb z1.2 z3.2)) * i19 + ((-2) * ((c.e : ℂ)) * ((c.gs : ℂ)) * ((c.mass .d : ℂ)) * (ab z1.1 z2.1) * (mb ρ2 (p 0) z1.1)) * i20 + ((-2) * ((c.e : ℂ)) * ((c.gs : ℂ)) * ((c.mass .d : ℂ)) * (N.c 1) * (sb ρ1 ρ2) + (2) * ((c.e : ℂ)) * ((c.gs : ℂ)) * ((c.mass .d : ℂ)) * (mb ρ1 (p 0) z1.1) * (sb z1.2 ρ2) + (-2) * ((c.e : ℂ)) * ((c.gs : ℂ)) * ((c.mass .d : ℂ)) * (mb ρ2 (p 0) z1.1) * (sb z1.2 ρ1)) * i21 + ((-2) * ((c.e : ℂ)) * ((c.gs : ℂ)) * (ab z0.1 z1.1) * (ab z1.1 z2.1) * (sb z1.2 ρ2) + (2) * ((c.e : ℂ)) * ((c.gs : ℂ)) * (ab z0.1 z1.1) * (mb ρ2 (p 0) z2.1)) * i22 + ((2) * ((c.e : ℂ)) * ((c.gs : ℂ)) * ((c.mass .d : ℂ)) * (ab z1.1 z2.1) * (mb ρ1 (p 0) z1.1)) * i23 + ((-2) * ((c.e : ℂ)) * ((c.gs : ℂ)) * ((c.mass .d : ℂ)) ^ 2 * (ab z0.1 z1.1) * (ab z1.1 z2.1) + (2) * ((c.e : ℂ)) * ((c.gs : ℂ)) * (N.c 1) * (ab z0.1 z1.1) * (ab z1.1 z2.1)) * i24 + ((-2) * ((c.e : ℂ)) * ((c.gs : ℂ)) * ((c.mass .d : ℂ)) * (ab z1.1 z2.1) * (sb z1.2 ρ1)) * i25 + ((2) * ((c.e : ℂ)) * ((c.gs : ℂ)) * ((c.mass .d : ℂ)) * (ab z1.1 z2.1) * (sb z1.2 ρ2)) * i26 + ((-2) * ((c.e : ℂ)) * ((c.gs : ℂ)) * (ab z0.1 z1.1) * (ab z1.1 z2.1) * (mb ρ1 (p 0) z2.1) + (2) * ((c.e : ℂ)) * ((c.gs : ℂ)) * (ab z0.1 z2.1) * (ab z1.1 z2.1) * (mb ρ1 (p 0) z1.1)) * i27 + ((-2) * ((c.e : ℂ)) * ((c.gs : ℂ)) * (N.c 1) * (sb ρ1 ρ2) + (2) * ((c.e : ℂ)) * ((c.gs : ℂ)) * (mb ρ1 (p 0) z1.1) * (sb z1.2 ρ2) + (-2) * ((c.e : ℂ)) * ((c.gs : ℂ)) * (mb ρ2 (p 0) z1.1) * (sb z1.2 ρ1)) * i28 + ((6) * ((c.e : ℂ)) * ((c.gs : ℂ)) * ((c.mass .d : ℂ)) * (ab z0.1 z1.1) * (ab z1.1 z2.1) * (ab z2.1 z3.1)) * i29 + ((2) * ((c.e : ℂ)) * ((c.gs : ℂ)) * (ab z1.1 z2.1) * (ab z2.1 z3.1) * (sb z1.2 ρ1)) * i30 + ((2) * ((c.e : ℂ)) * ((c.gs : ℂ)) * (ab z1.1 z2.1) * (ab z2.1 z3.1) * (mb ρ2 (p 0) z1.1)) * i31 + ((2) * ((c.e : ℂ)) * ((c.gs : ℂ)) * (N.c 1) * (sb z0.2 ρ1) + (-2) * ((c.e : ℂ)) * ((c.gs : ℂ)) * (mb ρ1 (p 0) z1.1) * (sb z0.2 z1.2)) * i32 + ((-4) * ((c.e : ℂ)) * ((c.gs : ℂ)) * (N.c 1) * (sb z0.2 ρ2) + (2) * ((c.e : ℂ)) * ((c.gs : ℂ)) * (mb ρ2 (p 0) z1.1) * (sb z0.2 z1.2)) * i33 + ((-2) * ((c.e : ℂ)) * ((c.gs : ℂ)) * (ab z1.1 z2.1) * (ab z1.1 z3.1) * (sb z1.2 ρ1) + (2) * ((c.e : ℂ)) * ((c.gs : ℂ)) * (ab z1.1 z3.1) * (mb ρ1 (p 0) z2.1)) * i34 + ((2) * ((c.e : ℂ)) * ((c.gs : ℂ)) * (ab z1.1 z2.1) * (ab z1.1 z3.1) * (sb z1.2 ρ2) + (2) * ((c.e : ℂ)) * ((c.gs : ℂ)) * (ab z1.1 z2.1) * (ab z2.1 z3.1) * (sb z2.2 ρ2) + (-2) * ((c.e : ℂ)) * ((c.gs : ℂ)) * (ab z1.1 z3.1) * (mb ρ2 (p 0) z2.1)) * i35 + ((-4) * ((c.e : ℂ)) * ((c.gs : ℂ)) * (ab z1.1 z2.1) * (ab z2.1 z3.1) * (sb z1.2 ρ2)) * i36 + ((-4) * ((c.e : ℂ)) * ((c.gs : ℂ)) * (ab z1.1 z2.1) * (ab z2.1 z3.1) * (mb ρ1 (p 0) z1.1)) * i37 + ((-2) * ((c.e : ℂ)) * ((c.gs : ℂ)) * (N.c 1) * (ab z0.1 z2.1) * (ab z1.1 z2.1)) * i38 + ((-2) * ((c.e : ℂ)) * ((c.gs : ℂ)) * ((c.mass .d : ℂ)) * (ab z1.1 z2.1) * (sb ρ1 ρ2)) * i39 + ((-2) * ((c.e : ℂ)) * ((c.gs : ℂ)) * (ab z1.1 z2.1) * (ab z2.1 z3.1) * (sb ρ1 ρ2)) * i40)) * ((1) * ((N.c 0)⁻¹) * ((N.c 1)⁻¹) / (3)) + ((-2) * ((c.e : ℂ)) * ((c.gs : ℂ)) * ((c.mass .d : ℂ)) * ((N.c 1)⁻¹) * (ab z0.1 z1.1) * (ab z2.1 z3.1) * (sb ρ1 ρ2) / (3) + (-2) * ((c.e : ℂ)) * ((c.gs : ℂ)) * ((c.mass .d : ℂ)) * ((N.c 1)⁻¹) * (ab z1.1 z2.1) * (sb z0.2 ρ1) * (sb z3.2 ρ2) / (3) + (2) * ((c.e : ℂ)) * ((c.gs : ℂ)) * ((N.c 1)⁻¹) * (ab z0.1 z1.1) * (ab z1.1 z2.1) * (sb z1.2 ρ1) * (sb z3.2 ρ2) / (3) + (-2) * ((c.e : ℂ)) * ((c.gs : ℂ)) * ((N.c 1)⁻¹) * (ab z0.1 z1.1) * (mb ρ1 (p 0) z2.1) * (sb z3.2 ρ2) / (3) + (-2) * ((c.e : ℂ)) * ((c.gs : ℂ)) * ((N.c 1)⁻¹) * (ab z2.1 z3.1) * (mb ρ2 (p 0) z1.1) * (sb z0.2 ρ1) / (3)) * y0 + ((2) * ((c.e : ℂ)) * ((c.gs : ℂ)) * ((c.mass .d : ℂ)) * ((N.c 0)⁻¹) * (ab z0.1 z2.1) * (ab z1.1 z3.1) * (sb ρ1 ρ2) / (3) + (2) * ((c.e : ℂ)) * ((c.gs : ℂ)) * ((c.mass .d : ℂ)) * ((N.c 0)⁻¹) * (ab z1.1 z2.1) * (sb z0.2 ρ2) * (sb z3.2 ρ1) / (3) + (2) * ((c.e : ℂ)) * ((c.gs : ℂ)) * ((N.c 0)⁻¹) * (ab z0.1 z2.1) * (ab z1.1 z2.1) * (sb z2.2 ρ2) * (sb z3.2 ρ1) / (3) + (-2) * ((c.e : ℂ)) * ((c.gs : ℂ)) * ((N.c 0)⁻¹) * (ab z0.1 z2.1) * (mb ρ2 (p 0) z1.1) * (sb z3.2 ρ1) / (3) + (-2) * ((c.e : ℂ)) * ((c.gs : ℂ)) * ((N.c 0)⁻¹) * (ab z1.1 z3.1) * (mb ρ1 (p 0) z2.1) * (sb z0.2 ρ2) / (3)) * y1 + ((-1) * ((c.e : ℂ)) * ((c.gs : ℂ)) * ((c.mass .d : ℂ)) * ((N.c 0)⁻¹) * (ab z0.1 z2.1) * (ab z1.1 z3.1) * (sb ρ1 ρ2) / (3) + (-1) * ((c.e : ℂ)) * ((c.gs : ℂ)) * ((c.mass .d : ℂ)) * ((N.c 0)⁻¹) * (ab z1.1 z2.1) * (sb z0.2 ρ2) * (sb z3.2 ρ1) / (3) + (1) * ((c.e : ℂ)) * ((c.gs : ℂ)) * ((c.mass .d : ℂ)) * ((N.c 1)⁻¹) * (ab z0.1 z1.1) * (ab z2.1 z3.1) * (sb ρ1 ρ2) / (3) + (1) * ((c.e : ℂ)) * ((c.gs : ℂ)) * ((c.mass .d : ℂ)) * ((N.c 1)⁻¹) * (ab z1.1 z2.1) * (sb z0.2 ρ1) * (sb z3.2 ρ2) / (3) + (-1) * ((c.e : ℂ)) * ((c.gs : ℂ)) * ((N.c 0)⁻¹) * (ab z0.1 z2.1) * (ab z1.1 z2.1) * (sb z2.2 ρ2) * (sb z3.2 ρ1) / (3) + (1) * ((c.e : ℂ)) * ((c.gs : ℂ)) * ((N.c 0)⁻¹) * (ab z0.1 z2.1) * (mb ρ2 (p 0) z1.1) * (sb z3.2 ρ1) / (3) + (1) * ((c.e : ℂ)) * ((c.gs : ℂ)) * ((N.c 0)⁻¹) * (ab z1.1 z3.1) * (mb ρ1 (p 0) z2.1) * (sb z0.2 ρ2) / (3) + (-1) * ((c.e : ℂ)) * ((c.gs : ℂ)) * ((N.c 1)⁻¹) * (ab z0.1 z1.1) * (ab z1.1 z2.1) * (sb z1.2 ρ1) * (sb z3.2 ρ2) / (3) + (1) * ((c.e : ℂ)) * ((c.gs : ℂ)) * ((N.c 1)⁻¹) * (ab z0.1 z1.1) * (mb ρ1 (p 0) z2.1) * (sb z3.2 ρ2) / (3) + (1) * ((c.e : ℂ)) * ((c.gs : ℂ)) * ((N.c 1)⁻¹) * (ab z2.1 z3.1) * (mb ρ2 (p 0) z1.1) * (sb z0.2 ρ1) / (3)) * x22
set_option maxRecDepth 8000 in
theorem dAgd.amp2_eq (N : Env) (f : Nat → List Int → ℂ) : Cls.dAgd.m_amp2.mean N f .r [] =
    ((sumJ (fun x a => (sumW (fun x b => (sumW (fun x c => (sumJ (fun x d => (x + (((4 : Nat) : ℝ) * (‖(f 0 [a, b, c, d])‖ ^ 2)))) x)) x)) x)) ((0 : Nat) : ℝ)) / ((12 : Nat) : ℝ)) := by rfl
set_option maxRecDepth 8000 in
theorem dAgd.value (N : Env) : meaning N .r Cls.dAgd.methods Cls.dAgd.amp2 [] =
    ((sumJ (fun x a => (sumW (fun x b => (sumW (fun x c => (sumJ (fun x d => (x + (((4 : Nat) : ℝ) * (‖(Cls.dAgd.m_amp.mean N (callMean N []) .c [a, b, c, d])‖ ^ 2)))) x)) x)) x)) ((0 : Nat) : ℝ)) / ((12 : Nat) : ℝ)) :=
  dAgd.amp2_eq N (callMean N [Cls.dAgd.m_amp])
set_option maxRecDepth 8000 in
theorem dAgd.ampPP (N : Env) (f : Nat → List Int → ℂ) (j1 j4 : Int) : Cls.dAgd.m_amp.mean N f .c [j1, 2, 2, j4] = dAgd.termPP N j1 j4 := by rfl
set_option maxRecDepth 8000 in
theorem dAgd.ampPM (N : Env) (f : Nat → List Int → ℂ) (j1 j4 : Int) : Cls.dAgd.m_amp.mean N f .c [j1, 2, (-2), j4] = dAgd.termPM N j1 j4 := by rfl
set_option maxRecDepth 8000 in
theorem dAgd.ampMP (N : Env) (f : Nat → List Int → ℂ) (j1 j4 : Int) : Cls.dAgd.m_amp.mean N f .c [j1, (-2), 2, j4] = dAgd.termMP N j1 j4 := by rfl
set_option maxRecDepth 8000 in
theorem dAgd.ampMM (N : Env) (f : Nat → List Int → ℂ) (j1 j4 : Int) : Cls.dAgd.m_amp.mean N f .c [j1, (-2), (-2), j4] = dAgd.termMM N j1 j4 := by rfl

theorem dAgd.mass_eq {c : Constants} (hc : c.Physical) (i : Fin 4) : dAgd.proc.massNum (dAgd.rho c) i = dAgd.react.mass c i := by
  fin_cases i <;> first | rfl | exact Nat.cast_zero | exact Nat.cast_zero.trans (hc.neutrino _).symm | (show c.MW / √(((1 : Nat) : ℝ) - c.SW * c.SW) = c.MZ; rw [c.root, c.mz])

variable [FPEnv] in
theorem dAgd.amps {c : Constants} {p : Nat → V4 ℝ} {u : Fin 4 → Fin 3 → Spinor} {ε : Fin 4 → Fin 3 → Vec} (hc : c.Physical) (hh : c.Heavy) (h0 : ∀ i, 0 ≤ dAgd.react.mass c i) (hs : ∀ i : Fin 4, OnShell (p i) (dAgd.react.mass c i)) (hb : Balanced p) (hr : dAgd.react.Regular c p) (hu : ∀ i, dAgd.react.Complete c p i (u i) (ε i)) :
    (dAgd.N c p).c 0 ≠ 0 ∧ (dAgd.N c p).c 1 ≠ 0 ∧ (∀ n, (Ty.r, n) ∈ dAgd.proc.divides → (dAgd.N c p).r n ≠ 0) ∧ (∀ n, (Ty.c, n) ∈ dAgd.proc.divides → (dAgd.N c p).c n ≠ 0) ∧ ∀ (s0 : Fin 2) (s3 : Fin 2) (h1 : Fin 2) (h2 : Fin 2), ‖Cls.dAgd.m_amp.mean (dAgd.N c p) (callMean (dAgd.N c p) []) .c [spinOf s0, spinW h1, spinW h2, spinOf s3]‖ = ‖dAgd.react.bare c p 3 0 1 2 (dAgd.react.codePair c p 3 s3) (dAgd.react.codePair c p 0 s0) (lightE (legA (p 1) 0 0, legS (p 1) 0 1) h1.castSucc) (lightE (legA (p 2) 0 0, legS (p 2) 0 1) h2.castSucc)‖ := by
  have he : dAgd.react.ends = [3] := by decide
  have ht : dAgd.react.starts = [0] := by decide
  have hB : dAgd.react.bosons = [1, 2] := by decide
  obtain ⟨f1, f2, f3⟩ := dAgd.react.regular_line he ht hB hr
  have r0 : (dAgd.N c p).r 0 = c.e := rfl
  have r1 : (dAgd.N c p).r 1 = ((-((1 : Nat) : ℝ)) / ((3 : Nat) : ℝ)) := rfl
  have r2 : (dAgd.N c p).r 2 = c.gs := rfl
  have r3 : (dAgd.N c p).r 3 = (c.mass .d) := rfl
  have c0 : (dAgd.N c p).c 0 = poleDist (c.mass .d) ((0 : Nat) : ℝ) ((VExp.sub 0 2).sum p) := rfl
  rw [Nat.cast_zero, pole_fermion rfl] at c0
  have d0 : ((msq (plus (p 0) (backward (p 2))) - c.mass .d ^ 2 : ℝ) : ℂ) = (dAgd.N c p).c 0 := by rw [c0, msq_t hb (plus (p 0) (backward (p 2))) (by simp)]
  have n0 : (dAgd.N c p).c 0 ≠ 0 := by rw [← d0]; exact_mod_cast f2 .d rfl rfl
  have c1 : (dAgd.N c p).c 1 = poleDist (c.mass .d) ((0 : Nat) : ℝ) ((VExp.add 0 1).sum p) := rfl
  rw [Nat.cast_zero, pole_fermion rfl] at c1
  have d1 : ((msq (plus (p 0) (p 1)) - c.mass .d ^ 2 : ℝ) : ℂ) = (dAgd.N c p).c 1 := by rw [c1, msq_s hb (plus (p 0) (p 1)) (by simp)]
  have n1 : (dAgd.N c p).c 1 ≠ 0 := by rw [← d1]; exact_mod_cast f1 .d rfl rfl
  obtain ⟨l1, x1, y1⟩ := dAgd.react.code_light hs hu (n := 1) rfl rfl
  obtain ⟨l2, x2, y2⟩ := dAgd.react.code_light hs hu (n := 2) rfl rfl
  have e10 := l1.pole_add (m := (c.mass .d)) (onShell_msq (hs 0)) (msq_s hb (plus (p 1) (p 0)) (by simp)) c1
  have e13 := l1.pole_sub (m := (c.mass .d)) (onShell_msq (hs 3)) (msq_t hb (plus (p 1) (backward (p 3))) (by simp)) c0
  have e20 := l2.pole_sub' (m := (c.mass .d)) (onShell_msq (hs 0)) (msq_t hb (plus (p 0) (backward (p 2))) (by simp)) c0
  have e23 := l2.pole_add (m := (c.mass .d)) (onShell_msq (hs 3)) (msq_s hb (plus (p 2) (p 3)) (by simp)) c1
  have m0 : dAgd.react.mass c 0 ≠ 0 := (leg_pos hc hh (by decide)).ne'
  have m3 : dAgd.react.mass c 3 ≠ 0 := (leg_pos hc hh (by decide)).ne'
  have m1 : dAgd.react.mass c 1 = 0 := rfl
  have m2 : dAgd.react.mass c 2 = 0 := rfl
  have hd : dAgd.proc.divides = [(Ty.c, 1), (Ty.c, 0)] := by decide +kernel
  have stPP : ∀ {z0 z3 : Pair} (b0 : Bold (p 0) (dAgd.react.mass c 0) z0) (b3 : Bold (p 3) (dAgd.react.mass c 3) z3), dAgd.formPP (dAgd.N c p) p z0 (legA (p 1) 0 0, legS (p 1) 0 1) (legA (p 2) 0 0, legS (p 2) 0 1) z3 = 1 * dAgd.react.bare c p 3 0 1 2 z3 z0 (lightE (legA (p 1) 0 0, legS (p 1) 0 1) 1) (lightE (legA (p 2) 0 0, legS (p 2) 0 1) 1) := by
    intro z0 z3 b0 b3
    exact (light_plus (z := (legA (p 1) 0 0, legS (p 1) 0 1)) (G := fun E => dAgd.react.bare c p 3 0 1 2 z3 z0 E (lightE (legA (p 2) 0 0, legS (p 2) 0 1) 1)) (dAgd.react.bare_lin₁ c p _ _ _ (by decide)) x1 (light_plus (z := (legA (p 2) 0 0, legS (p 2) 0 1)) (G := fun E => dAgd.react.bare c p 3 0 1 2 z3 z0 (pv (legA (p 1) 0 0, legS (p 1) 0 1).2 (legA (p 1) 0 0, legS (p 1) 0 1).2) E) (dAgd.react.bare_lin₂ c p _ _ _ (by decide)) x2 (dAgd.keyPP hc hb r0 r1 r2 r3 d0 n0 d1 n1 b0 b3 l1 l2 e10 e13 e20 e23 (onShell_msq (hs 0)) (onShell_msq (hs 3)) _ _)))
  have stPM : ∀ {z0 z3 : Pair} (b0 : Bold (p 0) (dAgd.react.mass c 0) z0) (b3 : Bold (p 3) (dAgd.react.mass c 3) z3), dAgd.formPM (dAgd.N c p) p z0 (legA (p 1) 0 0, legS (p 1) 0 1) (legA (p 2) 0 0, legS (p 2) 0 1) z3 = (-1) * dAgd.react.bare c p 3 0 1 2 z3 z0 (lightE (legA (p 1) 0 0, legS (p 1) 0 1) 1) (lightE (legA (p 2) 0 0, legS (p 2) 0 1) 0) := by
    intro z0 z3 b0 b3
    exact (light_plus (z := (legA (p 1) 0 0, legS (p 1) 0 1)) (G := fun E => dAgd.react.bare c p 3 0 1 2 z3 z0 E (lightE (legA (p 2) 0 0, legS (p 2) 0 1) 0)) (dAgd.react.bare_lin₁ c p _ _ _ (by decide)) x1 (light_minus (z := (legA (p 2) 0 0, legS (p 2) 0 1)) (G := fun E => dAgd.react.bare c p 3 0 1 2 z3 z0 (pv (legA (p 1) 0 0, legS (p 1) 0 1).2 (legA (p 1) 0 0, legS (p 1) 0 1).2) E) (dAgd.react.bare_lin₂ c p _ _ _ (by decide)) y2 (dAgd.keyPM hc hb r0 r1 r2 d0 n0 d1 n1 b0 b3 l1 l2 e10 e13 e20 e23 (onShell_msq (hs 0)) (onShell_msq (hs 3)) _ _)))
  have stMP : ∀ {z0 z3 : Pair} (b0 : Bold (p 0) (dAgd.react.mass c 0) z0) (b3 : Bold (p 3) (dAgd.react.mass c 3) z3), dAgd.formMP (dAgd.N c p) p z0 (legA (p 1) 0 0, legS (p 1) 0 1) (legA (p 2) 0 0, legS (p 2) 0 1) z3 = (-1) * dAgd.react.bare c p 3 0 1 2 z3 z0 (lightE (legA (p 1) 0 0, legS (p 1) 0 1) 0) (lightE (legA (p 2) 0 0, legS (p 2) 0 1) 1) := by
    intro z0 z3 b0 b3
    exact (light_minus (z := (legA (p 1) 0 0, legS (p 1) 0 1)) (G := fun E => dAgd.react.bare c p 3 0 1 2 z3 z0 E (lightE (legA (p 2) 0 0, legS (p 2) 0 1) 1)) (dAgd.react.bare_lin₁ c p _ _ _ (by decide)) y1 (light_plus (z := (legA (p 2) 0 0, legS (p 2) 0 1)) (G := fun E => dAgd.react.bare c p 3 0 1 2 z3 z0 (pv (legA (p 1) 0 0, legS (p 1) 0 1).1 (legA (p 1) 0 0, legS (p 1) 0 1).1) E) (dAgd.react.bare_lin₂ c p _ _ _ (by decide)) x2 (dAgd.keyMP hc hb r0 r1 r2 d0 n0 d1 n1 b0 b3 l1 l2 e10 e13 e20 e23 (onShell_msq (hs 0)) (onShell_msq (hs 3)) _ _)))
  have stMM : ∀ {z0 z3 : Pair} (b0 : Bold (p 0) (dAgd.react.mass c 0) z0) (b3 : Bold (p 3) (dAgd.react.mass c 3) z3), dAgd.formMM (dAgd.N c p) p z0 (legA (p 1) 0 0, legS (p 1) 0 1) (legA (p 2) 0 0, legS (p 2) 0 1) z3 = 1 * dAgd.react.bare c p 3 0 1 2 z3 z0 (lightE (legA (p 1) 0 0, legS (p 1) 0 1) 0) (lightE (legA (p 2) 0 0, legS (p 2) 0 1) 0) := by
    intro z0 z3 b0 b3
    exact (light_minus (z := (legA (p 1) 0 0, legS (p 1) 0 1)) (G := fun E => dAgd.react.bare c p 3 0 1 2 z3 z0 E (lightE (legA (p 2) 0 0, legS (p 2) 0 1) 0)) (dAgd.react.bare_lin₁ c p _ _ _ (by decide)) y1 (light_minus (z := (legA (p 2) 0 0, legS (p 2) 0 1)) (G := fun E => dAgd.react.bare c p 3 0 1 2 z3 z0 (pv (legA (p 1) 0 0, legS (p 1) 0 1).1 (legA (p 1) 0 0, legS (p 1) 0 1).1) E) (dAgd.react.bare_lin₂ c p _ _ _ (by decide)) y2 (dAgd.keyMM hc hb r0 r1 r2 r3 d0 n0 d1 n1 b0 b3 l1 l2 e10 e13 e20 e23 (onShell_msq (hs 0)) (onShell_msq (hs 3)) _ _)))
  have amPP : ∀ (s0 : Fin 2) (s3 : Fin 2), Cls.dAgd.m_amp.mean (dAgd.N c p) (callMean (dAgd.N c p) []) .c [spinOf s0, 2, 2, spinOf s3] = 1 * dAgd.react.bare c p 3 0 1 2 (dAgd.react.codePair c p 3 s3) (dAgd.react.codePair c p 0 s0) (lightE (legA (p 1) 0 0, legS (p 1) 0 1) 1) (lightE (legA (p 2) 0 0, legS (p 2) 0 1) 1) := by
    intro s0 s3
    rw [dAgd.ampPP, ← stPP (dAgd.react.codePair_bold hs h0 0 s0) (dAgd.react.codePair_bold hs h0 3 s3)]
    have v8z1z2 : (dAgd.N c p).v 8 [] = sb (legA (p 1) 0 0, legS (p 1) 0 1).2 (legA (p 2) 0 0, legS (p 2) 0 1).2 := bra_square (p := p) (m := dAgd.proc.massNum (dAgd.rho c)) (dAgd.mass_eq hc 1) (dAgd.mass_eq hc 2) (.inr ⟨m1, rfl⟩) (.inr ⟨m2, rfl⟩)
    have v11z0z3 : (dAgd.N c p).v 11 [spinOf s0, spinOf s3] = ab (dAgd.react.codePair c p 0 s0).1 (dAgd.react.codePair c p 3 s3).1 := bra_angle (p := p) (m := dAgd.proc.massNum (dAgd.rho c)) (dAgd.mass_eq hc 0) (dAgd.mass_eq hc 3) (.inl ⟨m0, rfl⟩) (.inl ⟨m3, rfl⟩)
    simp only [dAgd.termPP, dAgd.formPP, v8z1z2, v11z0z3]
  have amPM : ∀ (s0 : Fin 2) (s3 : Fin 2), Cls.dAgd.m_amp.mean (dAgd.N c p) (callMean (dAgd.N c p) []) .c [spinOf s0, 2, (-2), spinOf s3] = (-1) * dAgd.react.bare c p 3 0 1 2 (dAgd.react.codePair c p 3 s3) (dAgd.react.codePair c p 0 s0) (lightE (legA (p 1) 0 0, legS (p 1) 0 1) 1) (lightE (legA (p 2) 0 0, legS (p 2) 0 1) 0) := by
    intro s0 s3
    rw [dAgd.ampPM, ← stPM (dAgd.react.codePair_bold hs h0 0 s0) (dAgd.react.codePair_bold hs h0 3 s3)]
    have v1z2z3 : (dAgd.N c p).v 1 [spinOf s3] = ab (legA (p 2) 0 0, legS (p 2) 0 1).1 (dAgd.react.codePair c p 3 s3).1 := bra_angle (p := p) (m := dAgd.proc.massNum (dAgd.rho c)) (dAgd.mass_eq hc 2) (dAgd.mass_eq hc 3) (.inr ⟨m2, rfl⟩) (.inl ⟨m3, rfl⟩)
    have v2z0z1 : (dAgd.N c p).v 2 [spinOf s0] = sb (dAgd.react.codePair c p 0 s0).2 (legA (p 1) 0 0, legS (p 1) 0 1).2 := bra_square (p := p) (m := dAgd.proc.massNum (dAgd.rho c)) (dAgd.mass_eq hc 0) (dAgd.mass_eq hc 1) (.inl ⟨m0, rfl⟩) (.inr ⟨m1, rfl⟩)
    have v5z0z2 : (dAgd.N c p).v 5 [spinOf s0] = ab (dAgd.react.codePair c p 0 s0).1 (legA (p 2) 0 0, legS (p 2) 0 1).1 := bra_angle (p := p) (m := dAgd.proc.massNum (dAgd.rho c)) (dAgd.mass_eq hc 0) (dAgd.mass_eq hc 2) (.inl ⟨m0, rfl⟩) (.inr ⟨m2, rfl⟩)
    have v6z1z3 : (dAgd.N c p).v 6 [spinOf s3] = sb (legA (p 1) 0 0, legS (p 1) 0 1).2 (dAgd.react.codePair c p 3 s3).2 := bra_square (p := p) (m := dAgd.proc.massNum (dAgd.rho c)) (dAgd.mass_eq hc 1) (dAgd.mass_eq hc 3) (.inr ⟨m1, rfl⟩) (.inl ⟨m3, rfl⟩)
    have v13z1z2 : (dAgd.N c p).v 13 [] = mb (legA (p 1) 0 0, legS (p 1) 0 1).2 (p 3) (legA (p 2) 0 0, legS (p 2) 0 1).1 := bra_mid_square (p := p) (m := dAgd.proc.massNum (dAgd.rho c)) (dAgd.mass_eq hc 1) (dAgd.mass_eq hc 2) (.inr ⟨m1, rfl⟩) (.inr ⟨m2, rfl⟩)
    simp only [dAgd.termPM, dAgd.formPM, v1z2z3, v2z0z1, v5z0z2, v6z1z3, v13z1z2]
  have amMP : ∀ (s0 : Fin 2) (s3 : Fin 2), Cls.dAgd.m_amp.mean (dAgd.N c p) (callMean (dAgd.N c p) []) .c [spinOf s0, (-2), 2, spinOf s3] = (-1) * dAgd.react.bare c p 3 0 1 2 (dAgd.react.codePair c p 3 s3) (dAgd.react.codePair c p 0 s0) (lightE (legA (p 1) 0 0, legS (p 1) 0 1) 0) (lightE (legA (p 2) 0 0, legS (p 2) 0 1) 1) := by
    intro s0 s3
    rw [dAgd.ampMP, ← stMP (dAgd.react.codePair_bold hs h0 0 s0) (dAgd.react.codePair_bold hs h0 3 s3)]
    have v0z2z3 : (dAgd.N c p).v 0 [spinOf s3] = sb (legA (p 2) 0 0, legS (p 2) 0 1).2 (dAgd.react.codePair c p 3 s3).2 := bra_square (p := p) (m := dAgd.proc.massNum (dAgd.rho c)) (dAgd.mass_eq hc 2) (dAgd.mass_eq hc 3) (.inr ⟨m2, rfl⟩) (.inl ⟨m3, rfl⟩)
    have v3z0z1 : (dAgd.N c p).v 3 [spinOf s0] = ab (dAgd.react.codePair c p 0 s0).1 (legA (p 1) 0 0, legS (p 1) 0 1).1 := bra_angle (p := p) (m := dAgd.proc.massNum (dAgd.rho c)) (dAgd.mass_eq hc 0) (dAgd.mass_eq hc 1) (.inl ⟨m0, rfl⟩) (.inr ⟨m1, rfl⟩)
    have v4z0z2 : (dAgd.N c p).v 4 [spinOf s0] = sb (dAgd.react.codePair c p 0 s0).2 (legA (p 2) 0 0, legS (p 2) 0 1).2 := bra_square (p := p) (m := dAgd.proc.massNum (dAgd.rho c)) (dAgd.mass_eq hc 0) (dAgd.mass_eq hc 2) (.inl ⟨m0, rfl⟩) (.inr ⟨m2, rfl⟩)
    have v7z1z3 : (dAgd.N c p).v 7 [spinOf s3] = ab (legA (p 1) 0 0, legS (p 1) 0 1).1 (dAgd.react.codePair c p 3 s3).1 := bra_angle (p := p) (m := dAgd.proc.massNum (dAgd.rho c)) (dAgd.mass_eq hc 1) (dAgd.mass_eq hc 3) (.inr ⟨m1, rfl⟩) (.inl ⟨m3, rfl⟩)
    have v12z2z1 : (dAgd.N c p).v 12 [] = mb (legA (p 2) 0 0, legS (p 2) 0 1).2 (p 3) (legA (p 1) 0 0, legS (p 1) 0 1).1 := bra_mid_square (p := p) (m := dAgd.proc.massNum (dAgd.rho c)) (dAgd.mass_eq hc 2) (dAgd.mass_eq hc 1) (.inr ⟨m2, rfl⟩) (.inr ⟨m1, rfl⟩)
    simp only [dAgd.termMP, dAgd.formMP, v0z2z3, v3z0z1, v4z0z2, v7z1z3, v12z2z1]
  have amMM : ∀ (s0 : Fin 2) (s3 : Fin 2), Cls.dAgd.m_amp.mean (dAgd.N c p) (callMean (dAgd.N c p) []) .c [spinOf s0, (-2), (-2), spinOf s3] = 1 * dAgd.react.bare c p 3 0 1 2 (dAgd.react.codePair c p 3 s3) (dAgd.react.codePair c p 0 s0) (lightE (legA (p 1) 0 0, legS (p 1) 0 1) 0) (lightE (legA (p 2) 0 0, legS (p 2) 0 1) 0) := by
    intro s0 s3
    rw [dAgd.ampMM, ← stMM (dAgd.react.codePair_bold hs h0 0 s0) (dAgd.react.codePair_bold hs h0 3 s3)]
    have v9z1z2 : (dAgd.N c p).v 9 [] = ab (legA (p 1) 0 0, legS (p 1) 0 1).1 (legA (p 2) 0 0, legS (p 2) 0 1).1 := bra_angle (p := p) (m := dAgd.proc.massNum (dAgd.rho c)) (dAgd.mass_eq hc 1) (dAgd.mass_eq hc 2) (.inr ⟨m1, rfl⟩) (.inr ⟨m2, rfl⟩)
    have v10z0z3 : (dAgd.N c p).v 10 [spinOf s0, spinOf s3] = sb (dAgd.react.codePair c p 0 s0).2 (dAgd.react.codePair c p 3 s3).2 := bra_square (p := p) (m := dAgd.proc.massNum (dAgd.rho c)) (dAgd.mass_eq hc 0) (dAgd.mass_eq hc 3) (.inl ⟨m0, rfl⟩) (.inl ⟨m3, rfl⟩)
    simp only [dAgd.termMM, dAgd.formMM, v9z1z2, v10z0z3]
  refine ⟨n0, n1, fun n hn => ?_, fun n hn => ?_, ?_⟩
  · simp [hd] at hn
  · simp [hd] at hn
    rcases hn with rfl | rfl
    · exact n1
    · exact n0
  intro s0 s3 h1 h2
  match h1, h2 with
  | 1, 1 => exact norm_plus (amPP s0 s3)
  | 1, 0 => exact norm_minus (amPM s0 s3)
  | 0, 1 => exact norm_minus (amMP s0 s3)
  | 0, 0 => exact norm_plus (amMM s0 s3)

variable [FPEnv] in
theorem dAgd.agrees : dAgd.Agrees := by
  refine agrees_of (D := []) (E := []) (by simp [all, dAgd]) (by decide +kernel) (by decide) (by decide +kernel) (fun c hc hh => ⟨List.forall_mem_nil _, List.forall_mem_nil _⟩) (fun c hc i => dAgd.mass_eq hc i) (by decide +kernel) ?_
  intro c p u ε hc hh hw h0 hs hb hr hu
  have he : dAgd.react.ends = [3] := by decide
  have ht : dAgd.react.starts = [0] := by decide
  have hB : dAgd.react.bosons = [1, 2] := by decide
  obtain ⟨n0, n1, d1, d2, am⟩ := dAgd.amps hc hh h0 hs hb hr hu
  refine ⟨d1, d2, ?_⟩
  show meaning (dAgd.N c p) .r Cls.dAgd.methods Cls.dAgd.amp2 [] = _
  have s0 : dAgd.react.states 0 = 6 := by decide +kernel
  have s1 : dAgd.react.states 1 = 2 := by decide +kernel
  have sy : dAgd.react.symmetry = 1 := by decide
  have p0 : dAgd.react.spins 0 = {0, 1} := rfl
  have p1 : dAgd.react.spins 1 = {0, 1} := rfl
  have p2 : dAgd.react.spins 2 = {0, 1} := rfl
  have p3 : dAgd.react.spins 3 = {0, 1} := rfl
  have E1 : dAgd.react.codeE c p 1 = lightE (legA (p 1) 0 0, legS (p 1) 0 1) := rfl
  have E2 : dAgd.react.codeE c p 2 = lightE (legA (p 2) 0 0, legS (p 2) 0 1) := rfl
  have hG : dAgd.react.Gauge c p := (dAgd.react.gauge_line he ht hB hh (by decide) (fun n => onShell_msq (hs n)) hb hr (fun n m h h2 => absurd (And.intro h h2) (by revert n m; decide)) (fun _ => ⟨rfl, rfl⟩) (fun _ => ⟨rfl, rfl⟩))
  rw [dAgd.value, dAgd.react.squared_gluon 2 he ht hB (by decide) (by decide +kernel) (by decide +kernel) hs h0 (fun _ b _ hb _ => (boson_pos hc hh hb).ne') hG (E := dAgd.react.codeE c p) (fun n b hl => dAgd.react.codeE_polarised hs h0 hu (fun b hb => (boson_pos hc hh hb).ne') n b hl) hu, sum_colours, s0, s1, sy]
  simp only [sumV_sum, sumJ_sum, sumW_sum, am, p0, p1, p2, p3, E1, E2, Finset.sum_singleton, sum_two, Matrix.cons_val_zero, Matrix.cons_val_one, Matrix.cons_val, two_castSucc]
  try simp only [← Finset.mul_sum]
  push_cast
  first | ring1 | ring_nf

/-! ### guAu -/

/-- what the methods of the class see -/
noncomputable abbrev guAu.N [FPEnv] (c : Constants) (p : Nat → V4 ℝ) : Env := guAu.proc.env (guAu.rho c) p
/-- `amp` for a gluon of positive helicity and a photon of positive helicity (SM/guAu.cpp) -/
noncomputable def guAu.termPP (N : Env) (j2 j4 : Int) : ℂ :=
  (((((((((((((2 : Nat) : ℝ) * N.r 0) * N.r 1) * N.r 2) * N.r 3) : ℝ) : ℂ) * N.v 4 []) * N.v 4 []) * N.v 7 [j2, j4]) / N.c 1) / N.c 0)
/-- the same with spinors in place of their spins -/
noncomputable def guAu.formPP (N : Env) (p : Nat → V4 ℝ) (z0 z1 z2 z3 : Pair) : ℂ :=
  (((((((((((((2 : Nat) : ℝ) * N.r 0) * N.r 1) * N.r 2) * N.r 3) : ℝ) : ℂ) * (sb z0.2 z2.2)) * (sb z0.2 z2.2)) * (ab z1.1 z3.1)) / N.c 1) / N.c 0)
/-- `amp` for a gluon of positive helicity and a photon of negative helicity (SM/guAu.cpp) -/
noncomputable def guAu.termPM (N : Env) (j2 j4 : Int) : ℂ :=
  (((((((((((2 : Nat) : ℝ) * N.r 0) * N.r 1) * N.r 2) : ℝ) : ℂ) * ((N.v 10 [j4] * N.v 9 [j2]) + (N.v 2 [j2] * N.v 1 [j4]))) * N.v 12 []) / N.c 1) / N.c 0)
/-- the same with spinors in place of their spins -/
noncomputable def guAu.formPM (N : Env) (p : Nat → V4 ℝ) (z0 z1 z2 z3 : Pair) : ℂ :=
  (((((((((((2 : Nat) : ℝ) * N.r 0) * N.r 1) * N.r 2) : ℝ) : ℂ) * (((sb z0.2 z3.2) * (ab z1.1 z2.1)) + ((sb z0.2 z1.2) * (ab z2.1 z3.1)))) * (mb z0.2 (p 3) z2.1)) / N.c 1) / N.c 0)
/-- `amp` for a gluon of negative helicity and a photon of positive helicity (SM/guAu.cpp) -/
noncomputable def guAu.termMP (N : Env) (j2 j4 : Int) : ℂ :=
  ((((((((((-((2 : Nat) : ℝ)) * N.r 0) * N.r 1) * N.r 2) : ℝ) : ℂ) * ((N.v 11 [j4] * N.v 8 [j2]) + (N.v 3 [j2] * N.v 0 [j4]))) * N.v 13 []) / N.c 1) / N.c 0)
/-- the same with spinors in place of their spins -/
noncomputable def guAu.formMP (N : Env) (p : Nat → V4 ℝ) (z0 z1 z2 z3 : Pair) : ℂ :=
  ((((((((((-((2 : Nat) : ℝ)) * N.r 0) * N.r 1) * N.r 2) : ℝ) : ℂ) * (((ab z0.1 z3.1) * (sb z1.2 z2.2)) + ((ab z0.1 z1.1) * (sb z2.2 z3.2)))) * (mb z2.2 (p 3) z0.1)) / N.c 1) / N.c 0)
/-- `amp` for a gluon of negative helicity and a photon of negative helicity (SM/guAu.cpp) -/
noncomputable def guAu.termMM (N : Env) (j2 j4 : Int) : ℂ :=
  ((((((((((((-((2 : Nat) : ℝ)) * N.r 0) * N.r 1) * N.r 2) * N.r 3) : ℝ) : ℂ) * N.v 5 []) * N.v 5 []) * N.v 6 [j2, j4]) / N.c 1) / N.c 0)
/-- the same with spinors in place of their spins -/
noncomputable def guAu.formMM (N : Env) (p : Nat → V4 ℝ) (z0 z1 z2 z3 : Pair) : ℂ :=
  ((((((((((((-((2 : Nat) : ℝ)) * N.r 0) * N.r 1) * N.r 2) * N.r 3) : ℝ) : ℂ) * (ab z0.1 z2.1)) * (ab z0.1 z2.1)) * (sb z1.2 z3.2)) / N.c 1) / N.c 0)
theorem guAu.keyPP {c : Constants} {p : Nat → V4 ℝ} {N : Env} (hc : c.Physical) (hb : Balanced p) (r0 : N.r 0 = c.e) (r1 : N.r 1 = (((2 : Nat) : ℝ) / ((3 : Nat) : ℝ))) (r2 : N.r 2 = c.gs) (r3 : N.r 3 = (c.mass .u)) (d0 : ((msq (plus (p 1) (p 0)) - c.mass .u ^ 2 : ℝ) : ℂ) = N.c 0) (n0 : N.c 0 ≠ 0) (d1 : ((msq (plus (p 1) (backward (p 2))) - c.mass .u ^ 2 : ℝ) : ℂ) = N.c 1) (n1 : N.c 1 ≠ 0) {z0 z1 z2 z3 : Pair} (b1 : Bold (p 1) (c.mass .u) z1) (b3 : Bold (p 3) (c.mass .u) z3) (l0 : Light (p 0) z0) (l2 : Light (p 2) z2) (e01 : mb z0.2 (p 1) z0.1 = N.c 0) (e03 : mb z0.2 (p 3) z0.1 = -N.c 1) (e21 : mb z2.2 (p 1) z2.1 = -N.c 1) (e23 : mb z2.2 (p 3) z2.1 = N.c 0) (q1 : msq (p 1) = (c.mass .u) ^ 2) (q3 : msq (p 3) = (c.mass .u) ^ 2) (ρ0 ρ2 : V2) :
    guAu.formPP N p z0 z1 z2 z3 * ab ρ0 z0.1 * ab ρ2 z2.1 = ((√2 : ℝ) * ((√2 : ℝ) * (1 : ℂ))) * guAu.react.bare c p 3 1 0 2 z3 z1 (pv ρ0 z0.2) (pv ρ2 z2.2) := by
  rw [guAu.react.bare_parts c p (i := 3) (j := 1) (a := 0) (b := 2) (x := .gluon) (y := .photon) (k := (p 0)) (k' := (backward (p 2))) (fun _ => rfl) (fun _ => rfl) (f := .u) (g := .u) rfl rfl (l := (p 1)) rfl (e := 1) (e' := 1) (if_neg Bool.false_ne_true) (if_neg Bool.false_ne_true)]
  rw [compton_vv (f := .u) (x := .u) (g := .u) (h := (rfl : Spec.after .gluon Flavour.u = some Flavour.u)) (h' := (rfl : Spec.after .photon Flavour.u = some Flavour.u)) (ha := by simp) (hb := by simp)]
  rw [compton_vv (f := .u) (x := .u) (g := .u) (h := (rfl : Spec.after .photon Flavour.u = some Flavour.u)) (h' := (rfl : Spec.after .gluon Flavour.u = some Flavour.u)) (ha := by simp) (hb := by simp)]
  rw [annihilation_none c _ _ (by rfl) (by simp), star_zero, add_zero, guAu.formPP]
  simp only [d0, d1, lineV_pv, lineV_four, contract_four_pv, contract_pv, mb_plus, mb_backward]
  have i0 := mb_schouten_left z0.2 z1.2 z2.2 (p 1) z2.1
  have i1 := mb_schouten_right z0.2 (p 1) z0.1 z3.1 ρ0
  have i2 := mb_schouten_right z0.2 (p 1) z0.1 z2.1 ρ0
  have i3 := ab_schouten z1.1 z3.1 ρ0 z0.1
  have i4 := mb_schouten_right z0.2 (p 1) z0.1 z1.1 z3.1
  have i5 := ab_schouten z3.1 ρ0 ρ2 z1.1
  have i6 := ab_schouten z1.1 ρ0 ρ2 z0.1
  have i7 := sb_schouten z1.2 z2.2 z3.2 z0.2
  have i8 := mb_schouten_left z0.2 z1.2 z2.2 (p 1) ρ0
  have i9 := mb_schouten_right z2.2 (p 1) z0.1 z2.1 ρ0
  have i10 := mb_schouten_right z0.2 (p 1) z0.1 z3.1 ρ2
  have i11 := mb_schouten_right z1.2 (p 3) z0.1 z3.1 ρ0
  have i12 := ab_schouten z2.1 z3.1 ρ0 z0.1
  have i13 := ab_schouten z2.1 z3.1 ρ2 z0.1
  have i14 := mb_schouten_right z0.2 (p 3) z0.1 z1.1 ρ0
  have i15 := mb_schouten_right z0.2 (p 1) z1.1 ρ0 ρ2
  have i16 := ab_schouten z3.1 ρ0 ρ2 z2.1
  have i17 := mb_schouten_right z0.2 (p 1) z0.1 z1.1 ρ0
  have i18 := mb_schouten_right z0.2 (p 1) z0.1 z1.1 ρ2
  have i19 := mb_schouten_right z2.2 (p 1) z0.1 z3.1 ρ0
  have i20 := mb_schouten_left z0.2 z2.2 z3.2 (p 1) z0.1
  have i21 := mb_schouten_left z0.2 z1.2 z2.2 (p 1) z0.1
  have i22 := mb_schouten_right z2.2 (p 1) z0.1 z1.1 ρ0
  have i23 := ab_schouten z3.1 ρ0 ρ2 z0.1
  have i24 := mb_schouten_right z1.2 (p 3) z0.1 z3.1 ρ2
  have i25 := mb_schouten_right z0.2 (p 1) z0.1 ρ0 ρ2
  have i26 := mb_schouten_right z2.2 (p 1) z0.1 z2.1 z3.1
  have i27 := mb_schouten_right z0.2 (p 3) z0.1 z3.1 ρ2
  have i28 := ab_schouten z2.1 ρ0 ρ2 z0.1
  have i29 := mb_schouten_right z0.2 (p 1) z0.1 z1.1 z2.1
  have i30 := ab_schouten z2.1 ρ0 ρ2 z1.1
  have i31 := ab_schouten z1.1 z2.1 ρ2 z0.1
  have i32 := mb_schouten_right z0.2 (p 3) z0.1 z1.1 ρ2
  have i33 := mb_schouten_right z0.2 (p 1) z0.1 z2.1 ρ2
  have i34 := mb_schouten_right z0.2 (p 3) z0.1 z3.1 ρ0
  simp only [l0.mb_eq, l2.mb_eq, b1.mb_left, b1.mb_right, b3.mb_left, b3.mb_right, e01, e03, e21, e23, mb_three hb z0.2 z1.1, mb_three hb z0.2 z2.1, mb_one hb z0.2 z3.1, mb_three hb z0.2 ρ0, mb_three hb z0.2 ρ2, mb_three hb z1.2 z0.1, mb_three hb z1.2 z1.1, mb_three hb z1.2 z2.1, mb_three hb z1.2 ρ0, mb_three hb z1.2 ρ2, mb_three hb z2.2 z0.1, mb_three hb z2.2 z1.1, mb_one hb z2.2 z3.1, mb_three hb z2.2 ρ0, mb_three hb z2.2 ρ2, mb_one hb z3.2 z0.1, mb_one hb z3.2 z2.1, mb_one hb z3.2 z3.1, mb_one hb z3.2 ρ0, mb_one hb z3.2 ρ2, ab_self, sb_self] at i0 i1 i2 i3 i4 i5 i6 i7 i8 i9 i10 i11 i12 i13 i14 i15 i16 i17 i18 i19 i20 i21 i22 i23 i24 i25 i26 i27 i28 i29 i30 i31 i32 i33 i34 ⊢
  simp only [ab_swap z0.1 z1.1, ab_swap z0.1 z2.1, ab_swap z0.1 z3.1, ab_swap z0.1 ρ0, ab_swap z0.1 ρ2, ab_swap z1.1 z2.1, ab_swap z1.1 z3.1, ab_swap z1.1 ρ0, ab_swap z1.1 ρ2, ab_swap z2.1 z3.1, ab_swap z2.1 ρ0, ab_swap z2.1 ρ2, ab_swap z3.1 ρ0, ab_swap z3.1 ρ2, ab_swap ρ0 ρ2, sb_swap z0.2 z1.2, sb_swap z0.2 z2.2, sb_swap z0.2 z3.2, sb_swap z1.2 z2.2, sb_swap z1.2 z3.2, sb_swap z2.2 z3.2] at i0 i1 i2 i3 i4 i5 i6 i7 i8 i9 i10 i11 i12 i13 i14 i15 i16 i17 i18 i19 i20 i21 i22 i23 i24 i25 i26 i27 i28 i29 i30 i31 i32 i33 i34 ⊢
  simp only [r0, r1, r2, r3, Constants.hL, Constants.hR, Constants.gL, Constants.gR, Constants.yuk, Constants.invVev, Flavour.charge_u, Flavour.isospin_u, ← c.mz]
  have xMW : (c.MW : ℂ) ≠ 0 := by exact_mod_cast hc.MW
  have xSW : (c.SW : ℂ) ≠ 0 := by exact_mod_cast hc.SW
  have xCW : (c.CW : ℂ) ≠ 0 := by exact_mod_cast hc.CW
  have x2 : ((√2 : ℝ) : ℂ) ≠ 0 := by exact_mod_cast (Real.sqrt_pos.2 two_pos).ne'
  have x22 : ((√2 : ℝ) : ℂ) ^ 2 = 2 := by rw [← Complex.ofReal_pow, Real.sq_sqrt two_pos.le]; norm_num
  have x23 : ((√2 : ℝ) : ℂ) ^ 3 = 2 * ((√2 : ℝ) : ℂ) := by rw [← x22]; ring
  have x24 : ((√2 : ℝ) : ℂ) ^ 4 = 4 := by linear_combination (((√2 : ℝ) : ℂ) ^ 2 + 2) * x22
  push_cast at i0 i1 i2 i3 i4 i5 i6 i7 i8 i9 i10 i11 i12 i13 i14 i15 i16 i17 i18 i19 i20 i21 i22 i23 i24 i25 i26 i27 i28 i29 i30 i31 i32 i33 i34 ⊢
  have y0 := mul_inv_cancel₀ n0
  have y1 := mul_inv_cancel₀ n1
  linear_combination ((((4) * ((c.e : ℂ)) * ((c.gs : ℂ)) * (ab z0.1 ρ0) * (ab z3.1 ρ2) * (sb z0.2 z2.2)) * i0 + ((-4) * ((c.e : ℂ)) * ((c.gs : ℂ)) * ((c.mass .u : ℂ)) * (ab z1.1 ρ2) * (sb z0.2 z2.2) + (-4) * ((c.e : ℂ)) * ((c.gs : ℂ)) * (ab z2.1 ρ2) * (sb z0.2 z2.2) * (sb z1.2 z2.2) + (8) * ((c.e : ℂ)) * ((c.gs : ℂ)) * (mb z0.2 (p 1) ρ2) * (sb z1.2 z2.2)) * i1 + ((-4) * ((c.e : ℂ)) * ((c.gs : ℂ)) * (ab z1.1 ρ2) * (sb z0.2 z2.2) * (sb z2.2 z3.2) + (4) * ((c.e : ℂ)) * ((c.gs : ℂ)) * (ab z3.1 ρ2) * (sb z0.2 z2.2) * (sb z1.2 z2.2)) * i2 + ((4) * ((c.e : ℂ)) * ((c.gs : ℂ)) * ((c.mass .u : ℂ)) * (ab z2.1 ρ2) * (sb z0.2 z2.2) ^ 2) * i3 + ((-4) * ((c.e : ℂ)) * ((c.gs : ℂ)) * ((c.mass .u : ℂ)) * (ab ρ0 ρ2) * (sb z0.2 z2.2)) * i4 + ((4) * ((c.e : ℂ)) * ((c.gs : ℂ)) * ((c.mass .u : ℂ)) * (N.c 0) * (sb z0.2 z2.2)) * i5 + ((4) * ((c.e : ℂ)) * ((c.gs : ℂ)) * ((c.mass .u : ℂ)) * (ab z2.1 z3.1) * (sb z0.2 z2.2) ^ 2 + (-4) * ((c.e : ℂ)) * ((c.gs : ℂ)) * ((c.mass .u : ℂ)) ^ 2 * (sb z0.2 z2.2) * (sb z0.2 z3.2) + (4) * ((c.e : ℂ)) * ((c.gs : ℂ)) * (mb z0.2 (p 1) z2.1) * (sb z0.2 z2.2) * (sb z2.2 z3.2)) * i6 + ((-4) * ((c.e : ℂ)) * ((c.gs : ℂ)) * ((c.mass .u : ℂ)) * (N.c 0) * (ab ρ0 ρ2) + (4) * ((c.e : ℂ)) * ((c.gs : ℂ)) * ((c.mass .u : ℂ)) * (ab z0.1 ρ0) * (ab z2.1 ρ2) * (sb z0.2 z2.2) + (-12) * ((c.e : ℂ)) * ((c.gs : ℂ)) * ((c.mass .u : ℂ)) * (ab z0.1 ρ0) * (mb z0.2 (p 1) ρ2) + (8) * ((c.e : ℂ)) * ((c.gs : ℂ)) * ((c.mass .u : ℂ)) * (ab z0.1 ρ2) * (mb z0.2 (p 1) ρ0)) * i7 + ((8) * ((c.e : ℂ)) * ((c.gs : ℂ)) * (N.c 0) * (ab z3.1 ρ2)) * i8 + ((8) * ((c.e : ℂ)) * ((c.gs : ℂ)) * (ab z3.1 ρ2) * (sb z0.2 z1.2) * (sb z0.2 z2.2)) * i9 + ((4) * ((c.e : ℂ)) * ((c.gs : ℂ)) * ((c.mass .u : ℂ)) * (ab z1.1 ρ0) * (sb z0.2 z2.2) + (-8) * ((c.e : ℂ)) * ((c.gs : ℂ)) * (mb z0.2 (p 1) ρ0) * (sb z1.2 z2.2) + (-8) * ((c.e : ℂ)) * ((c.gs : ℂ)) * (mb z2.2 (p 1) ρ0) * (sb z0.2 z1.2)) * i10 + ((4) * ((c.e : ℂ)) * ((c.gs : ℂ)) * (ab z2.1 ρ2) * (sb z0.2 z2.2) ^ 2 + (-8) * ((c.e : ℂ)) * ((c.gs : ℂ)) * (mb z0.2 (p 1) ρ2) * (sb z0.2 z2.2)) * i11 + ((-4) * ((c.e : ℂ)) * ((c.gs : ℂ)) * (ab z2.1 ρ2) * (sb z0.2 z2.2) ^ 2 * (sb z1.2 z2.2) + (8) * ((c.e : ℂ)) * ((c.gs : ℂ)) * (mb z0.2 (p 1) ρ2) * (sb z0.2 z2.2) * (sb z1.2 z2.2)) * i12 + ((-8) * ((c.e : ℂ)) * ((c.gs : ℂ)) * (mb z0.2 (p 1) ρ0) * (sb z0.2 z2.2) * (sb z1.2 z2.2) + (-8) * ((c.e : ℂ)) * ((c.gs : ℂ)) * (mb z2.2 (p 1) ρ0) * (sb z0.2 z1.2) * (sb z0.2 z2.2)) * i13 + ((-4) * ((c.e : ℂ)) * ((c.gs : ℂ)) * ((c.mass .u : ℂ)) * (ab z3.1 ρ2) * (sb z0.2 z2.2)) * i14 + ((4) * ((c.e : ℂ)) * ((c.gs : ℂ)) * (N.c 1) * (sb z2.2 z3.2)) * i15 + ((4) * ((c.e : ℂ)) * ((c.gs : ℂ)) * (mb z2.2 (p 1) z0.1) * (sb z0.2 z1.2) * (sb z0.2 z2.2)) * i16 + ((8) * ((c.e : ℂ)) * ((c.gs : ℂ)) * ((c.mass .u : ℂ)) * (ab z3.1 ρ2) * (sb z0.2 z2.2) + (4) * ((c.e : ℂ)) * ((c.gs : ℂ)) * (mb z0.2 (p 1) ρ2) * (sb z2.2 z3.2)) * i17 + ((-4) * ((c.e : ℂ)) * ((c.gs : ℂ)) * ((c.mass .u : ℂ)) * (ab z3.1 ρ0) * (sb z0.2 z2.2) + (4) * ((c.e : ℂ)) * ((c.gs : ℂ)) * (mb z2.2 (p 1) ρ0) * (sb z0.2 z3.2)) * i18 + ((-4) * ((c.e : ℂ)) * ((c.gs : ℂ)) * (ab z2.1 ρ2) * (sb z0.2 z1.2) * (sb z0.2 z2.2) + (4) * ((c.e : ℂ)) * ((c.gs : ℂ)) * (mb z0.2 (p 1) ρ2) * (sb z0.2 z1.2)) * i19 + ((-4) * ((c.e : ℂ)) * ((c.gs : ℂ)) * (ab z1.1 ρ0) * (mb z0.2 (p 1) ρ2)) * i20 + ((-4) * ((c.e : ℂ)) * ((c.gs : ℂ)) * (ab z2.1 ρ0) * (ab z3.1 ρ2) * (sb z0.2 z2.2) + (-4) * ((c.e : ℂ)) * ((c.gs : ℂ)) * (ab z3.1 ρ0) * (mb z0.2 (p 1) ρ2)) * i21 + ((-4) * ((c.e : ℂ)) * ((c.gs : ℂ)) * (mb z0.2 (p 1) ρ2) * (sb z0.2 z3.2)) * i22 + ((4) * ((c.e : ℂ)) * ((c.gs : ℂ)) * ((c.mass .u : ℂ)) ^ 2 * (sb z0.2 z1.2) * (sb z0.2 z2.2) + (4) * ((c.e : ℂ)) * ((c.gs : ℂ)) * (N.c 1) * (sb z0.2 z1.2) * (sb z0.2 z2.2)) * i23 + ((4) * ((c.e : ℂ)) * ((c.gs : ℂ)) * (mb z0.2 (p 1) ρ0) * (sb z0.2 z2.2)) * i24 + ((4) * ((c.e : ℂ)) * ((c.gs : ℂ)) * ((c.mass .u : ℂ)) * (sb z0.2 z1.2) * (sb z2.2 z3.2) + (-4) * ((c.e : ℂ)) * ((c.gs : ℂ)) * ((c.mass .u : ℂ)) * (sb z0.2 z2.2) * (sb z1.2 z3.2)) * i25 + ((-4) * ((c.e : ℂ)) * ((c.gs : ℂ)) * (ab ρ0 ρ2) * (sb z0.2 z1.2) * (sb z0.2 z2.2)) * i26 + ((-4) * ((c.e : ℂ)) * ((c.gs : ℂ)) * (ab z0.1 ρ0) * (sb z0.2 z1.2) * (sb z0.2 z2.2) + (4) * ((c.e : ℂ)) * ((c.gs : ℂ)) * (mb z2.2 (p 1) ρ0) * (sb z0.2 z1.2)) * i27 + ((4) * ((c.e : ℂ)) * ((c.gs : ℂ)) * (ab z0.1 z3.1) * (sb z0.2 z1.2) * (sb z0.2 z2.2) ^ 2) * i28 + ((-4) * ((c.e : ℂ)) * ((c.gs : ℂ)) * (ab ρ0 ρ2) * (sb z0.2 z2.2) * (sb z2.2 z3.2)) * i29 + ((4) * ((c.e : ℂ)) * ((c.gs : ℂ)) * (N.c 0) * (sb z0.2 z2.2) * (sb z2.2 z3.2)) * i30 + ((-4) * ((c.e : ℂ)) * ((c.gs : ℂ)) * (mb z0.2 (p 1) ρ0) * (sb z0.2 z2.2) * (sb z2.2 z3.2)) * i31 + ((-4) * ((c.e : ℂ)) * ((c.gs : ℂ)) * (mb z0.2 (p 1) ρ0) * (sb z2.2 z3.2)) * i32 + ((4) * ((c.e : ℂ)) * ((c.gs : ℂ)) * (ab z1.1 ρ0) * (sb z0.2 z2.2) * (sb z2.2 z3.2)) * i33 + ((4) * ((c.e : ℂ)) * ((c.gs : ℂ)) * (ab z0.1 ρ2) * (sb z0.2 z1.2) * (sb z0.2 z2.2)) * i34)) * ((1) * ((N.c 0)⁻¹) * ((N.c 1)⁻¹) / (3)) + ((4) * ((c.e : ℂ)) * ((c.gs : ℂ)) * ((c.mass .u : ℂ)) * ((N.c 1)⁻¹) * (ab z1.1 ρ2) * (ab z3.1 ρ0) * (sb z0.2 z2.2) / (3) + (4) * ((c.e : ℂ)) * ((c.gs : ℂ)) * ((c.mass .u : ℂ)) * ((N.c 1)⁻¹) * (ab ρ0 ρ2) * (sb z0.2 z3.2) * (sb z1.2 z2.2) / (3) + (-4) * ((c.e : ℂ)) * ((c.gs : ℂ)) * ((N.c 1)⁻¹) * (ab z1.1 ρ2) * (mb z2.2 (p 1) ρ0) * (sb z0.2 z3.2) / (3) + (4) * ((c.e : ℂ)) * ((c.gs : ℂ)) * ((N.c 1)⁻¹) * (ab z2.1 ρ2) * (ab z3.1 ρ0) * (sb z0.2 z2.2) * (sb z1.2 z2.2) / (3) + (-4) * ((c.e : ℂ)) * ((c.gs : ℂ)) * ((N.c 1)⁻¹) * (ab z3.1 ρ0) * (mb z0.2 (p 1) ρ2) * (sb z1.2 z2.2) / (3)) * y0 + ((-4) * ((c.e : ℂ)) * ((c.gs : ℂ)) * ((c.mass .u : ℂ)) * ((N.c 0)⁻¹) * (ab z1.1 ρ0) * (ab z3.1 ρ2) * (sb z0.2 z2.2) / (3) + (4) * ((c.e : ℂ)) * ((c.gs : ℂ)) * ((c.mass .u : ℂ)) * ((N.c 0)⁻¹) * (ab ρ0 ρ2) * (sb z0.2 z1.2) * (sb z2.2 z3.2) / (3) + (-4) * ((c.e : ℂ)) * ((c.gs : ℂ)) * ((N.c 0)⁻¹) * (ab z0.1 ρ0) * (ab z3.1 ρ2) * (sb z0.2 z1.2) * (sb z0.2 z2.2) / (3) + (-4) * ((c.e : ℂ)) * ((c.gs : ℂ)) * ((N.c 0)⁻¹) * (ab z1.1 ρ0) * (mb z0.2 (p 1) ρ2) * (sb z2.2 z3.2) / (3) + (4) * ((c.e : ℂ)) * ((c.gs : ℂ)) * ((N.c 0)⁻¹) * (ab z3.1 ρ2) * (mb z2.2 (p 1) ρ0) * (sb z0.2 z1.2) / (3)) * y1 + ((2) * ((c.e : ℂ)) * ((c.gs : ℂ)) * ((c.mass .u : ℂ)) * ((N.c 0)⁻¹) * (ab z1.1 ρ0) * (ab z3.1 ρ2) * (sb z0.2 z2.2) / (3) + (-2) * ((c.e : ℂ)) * ((c.gs : ℂ)) * ((c.mass .u : ℂ)) * ((N.c 0)⁻¹) * (ab ρ0 ρ2) * (sb z0.2 z1.2) * (sb z2.2 z3.2) / (3) + (-2) * ((c.e : ℂ)) * ((c.gs : ℂ)) * ((c.mass .u : ℂ)) * ((N.c 1)⁻¹) * (ab z1.1 ρ2) * (ab z3.1 ρ0) * (sb z0.2 z2.2) / (3) + (-2) * ((c.e : ℂ)) * ((c.gs : ℂ)) * ((c.mass .u : ℂ)) * ((N.c 1)⁻¹) * (ab ρ0 ρ2) * (sb z0.2 z3.2) * (sb z1.2 z2.2) / (3) + (2) * ((c.e : ℂ)) * ((c.gs : ℂ)) * ((N.c 0)⁻¹) * (ab z0.1 ρ0) * (ab z3.1 ρ2) * (sb z0.2 z1.2) * (sb z0.2 z2.2) / (3) + (2) * ((c.e : ℂ)) * ((c.gs : ℂ)) * ((N.c 0)⁻¹) * (ab z1.1 ρ0) * (mb z0.2 (p 1) ρ2) * (sb z2.2 z3.2) / (3) + (-2) * ((c.e : ℂ)) * ((c.gs : ℂ)) * ((N.c 0)⁻¹) * (ab z3.1 ρ2) * (mb z2.2 (p 1) ρ0) * (sb z0.2 z1.2) / (3) + (2) * ((c.e : ℂ)) * ((c.gs : ℂ)) * ((N.c 1)⁻¹) * (ab z1.1 ρ2) * (mb z2.2 (p 1) ρ0) * (sb z0.2 z3.2) / (3) + (-2) * ((c.e : ℂ)) * ((c.gs : ℂ)) * ((N.c 1)⁻¹) * (ab z2.1 ρ2) * (ab z3.1 ρ0) * (sb z0.2 z2.2) * (sb z1.2 z2.2) / (3) + (2) * ((c.e : ℂ)) * ((c.gs : ℂ)) * ((N.c 1)⁻¹) * (ab z3.1 ρ0) * (mb z0.2 (p 1) ρ2) * (sb z1.2 z2.2) / (3)) * x22
theorem guAu.keyPM {c : Constants} {p : Nat → V4 ℝ} {N : Env} (hc : c.Physical) (hb : Balanced p) (r0 : N.r 0 = c.e) (r1 : N.r 1 = (((2 : Nat) : ℝ) / ((3 : Nat) : ℝ))) (r2 : N.r 2 = c.gs) (d0 : ((msq (plus (p 1) (p 0)) - c.mass .u ^ 2 : ℝ) : ℂ) = N.c 0) (n0 : N.c 0 ≠ 0) (d1 : ((msq (plus (p 1) (backward (p 2))) - c.mass .u ^ 2 : ℝ) : ℂ) = N.c 1) (n1 : N.c 1 ≠ 0) {z0 z1 z2 z3 : Pair} (b1 : Bold (p 1) (c.mass .u) z1) (b3 : Bold (p 3) (c.mass .u) z3) (l0 : Light (p 0) z0) (l2 : Light (p 2) z2) (e01 : mb z0.2 (p 1) z0.1 = N.c 0) (e03 : mb z0.2 (p 3) z0.1 = -N.c 1) (e21 : mb z2.2 (p 1) z2.1 = -N.c 1) (e23 : mb z2.2 (p 3) z2.1 = N.c 0) (q1 : msq (p 1) = (c.mass .u) ^ 2) (q3 : msq (p 3) = (c.mass .u) ^ 2) (ρ0 ρ2 : V2) :
    guAu.formPM N p z0 z1 z2 z3 * ab ρ0 z0.1 * sb ρ2 z2.2 = ((√2 : ℝ) * ((√2 : ℝ) * (-1 : ℂ))) * guAu.react.bare c p 3 1 0 2 z3 z1 (pv ρ0 z0.2) (pv z2.1 ρ2) := by
  rw [guAu.react.bare_parts c p (i := 3) (j := 1) (a := 0) (b := 2) (x := .gluon) (y := .photon) (k := (p 0)) (k' := (backward (p 2))) (fun _ => rfl) (fun _ => rfl) (f := .u) (g := .u) rfl rfl (l := (p 1)) rfl (e := 1) (e' := 1) (if_neg Bool.false_ne_true) (if_neg Bool.false_ne_true)]
  rw [compton_vv (f := .u) (x := .u) (g := .u) (h := (rfl : Spec.after .gluon Flavour.u = some Flavour.u)) (h' := (rfl : Spec.after .photon Flavour.u = some Flavour.u)) (ha := by simp) (hb := by simp)]
  rw [compton_vv (f := .u) (x := .u) (g := .u) (h := (rfl : Spec.after .photon Flavour.u = some Flavour.u)) (h' := (rfl : Spec.after .gluon Flavour.u = some Flavour.u)) (ha := by simp) (hb := by simp)]
  rw [annihilation_none c _ _ (by rfl) (by simp), star_zero, add_zero, guAu.formPM]
  simp only [d0, d1, lineV_pv, lineV_four, contract_four_pv, contract_pv, mb_plus, mb_backward]
  have i0 := mb_schouten_right ρ2 (p 1) z0.1 z3.1 ρ0
  have i1 := mb_schouten_right z0.2 (p 1) z2.1 z3.1 ρ0
  have i2 := mb_schouten_right z0.2 (p 1) z0.1 z3.1 ρ0
  have i3 := mb_schouten_right z0.2 (p 3) z0.1 z2.1 z3.1
  have i4 := mb_schouten_left z0.2 z1.2 ρ2 (p 1) z2.1
  have i5 := mb_schouten_right z0.2 (p 3) z0.1 z2.1 ρ0
  have i6 := mb_schouten_right ρ2 (p 1) z0.1 z2.1 z3.1
  have i7 := mb_schouten_right z0.2 (p 3) z0.1 z3.1 ρ0
  have i8 := mb_schouten_right ρ2 (p 1) z0.1 z2.1 ρ0
  have i9 := mb_schouten_right z0.2 (p 3) z0.1 z1.1 z2.1
  have i10 := mb_schouten_right z0.2 (p 1) z1.1 z2.1 ρ0
  have i11 := ab_schouten z2.1 z3.1 ρ0 z1.1
  have i12 := ab_schouten z1.1 z2.1 z3.1 z0.1
  have i13 := mb_schouten_right z0.2 (p 1) z0.1 z2.1 ρ0
  have i14 := mb_schouten_left z0.2 z1.2 z2.2 (p 1) z2.1
  have i15 := ab_schouten z2.1 z3.1 ρ0 z0.1
  have i16 := mb_schouten_right z0.2 (p 1) z0.1 z2.1 z3.1
  have i17 := ab_schouten z1.1 z3.1 ρ0 z0.1
  have i18 := mb_schouten_right z0.2 (p 1) z0.1 z1.1 z2.1
  have i19 := mb_schouten_left z0.2 z1.2 ρ2 (p 1) z0.1
  have i20 := mb_schouten_left z0.2 z3.2 ρ2 (p 1) z0.1
  have i21 := mb_schouten_right ρ2 (p 1) z0.1 z1.1 ρ0
  have i22 := sb_schouten z2.2 z3.2 ρ2 z0.2
  have i23 := mb_schouten_right z1.2 (p 3) z0.1 z2.1 z3.1
  have i24 := sb_schouten z1.2 z3.2 ρ2 z0.2
  have i25 := sb_schouten z1.2 z2.2 ρ2 z0.2
  have i26 := mb_schouten_left z0.2 z1.2 z2.2 (p 1) z0.1
  have i27 := mb_schouten_right z2.2 (p 1) z0.1 z2.1 z3.1
  have i28 := sb_schouten z1.2 z2.2 z3.2 z0.2
  have i29 := mb_schouten_right z0.2 (p 1) z0.1 z1.1 z3.1
  have i30 := mb_schouten_right z1.2 (p 3) z0.1 z3.1 ρ0
  have i31 := mb_schouten_right z0.2 (p 3) z0.1 z1.1 z3.1
  simp only [l0.mb_eq, l2.mb_eq, b1.mb_left, b1.mb_right, b3.mb_left, b3.mb_right, e01, e03, e21, e23, mb_three hb z0.2 z1.1, mb_three hb z0.2 z2.1, mb_one hb z0.2 z3.1, mb_three hb z0.2 ρ0, mb_three hb z1.2 z0.1, mb_three hb z1.2 z1.1, mb_three hb z1.2 z2.1, mb_three hb z1.2 ρ0, mb_three hb z2.2 z0.1, mb_three hb z2.2 z1.1, mb_one hb z2.2 z3.1, mb_three hb z2.2 ρ0, mb_one hb z3.2 z0.1, mb_one hb z3.2 z2.1, mb_one hb z3.2 z3.1, mb_one hb z3.2 ρ0, mb_three hb ρ2 z0.1, mb_three hb ρ2 z1.1, mb_three hb ρ2 z2.1, mb_one hb ρ2 z3.1, mb_three hb ρ2 ρ0, ab_self, sb_self] at i0 i1 i2 i3 i4 i5 i6 i7 i8 i9 i10 i11 i12 i13 i14 i15 i16 i17 i18 i19 i20 i21 i22 i23 i24 i25 i26 i27 i28 i29 i30 i31 ⊢
  simp only [ab_swap z0.1 z1.1, ab_swap z0.1 z2.1, ab_swap z0.1 z3.1, ab_swap z0.1 ρ0, ab_swap z1.1 z2.1, ab_swap z1.1 z3.1, ab_swap z1.1 ρ0, ab_swap z2.1 z3.1, ab_swap z2.1 ρ0, ab_swap z3.1 ρ0, sb_swap z0.2 z1.2, sb_swap z0.2 z2.2, sb_swap z0.2 z3.2, sb_swap z0.2 ρ2, sb_swap z1.2 z2.2, sb_swap z1.2 z3.2, sb_swap z1.2 ρ2, sb_swap z2.2 z3.2, sb_swap z2.2 ρ2, sb_swap z3.2 ρ2] at i0 i1 i2 i3 i4 i5 i6 i7 i8 i9 i10 i11 i12 i13 i14 i15 i16 i17 i18 i19 i20 i21 i22 i23 i24 i25 i26 i27 i28 i29 i30 i31 ⊢
  simp only [r0, r1, r2, Constants.hL, Constants.hR, Constants.gL, Constants.gR, Constants.yuk, Constants.invVev, Flavour.charge_u, Flavour.isospin_u, ← c.mz]
  have xMW : (c.MW : ℂ) ≠ 0 := by exact_mod_cast hc.MW
  have xSW : (c.SW : ℂ) ≠ 0 := by exact_mod_cast hc.SW
  have xCW : (c.CW : ℂ) ≠ 0 := by exact_mod_cast hc.CW
  have x2 : ((√2 : ℝ) : ℂ) ≠ 0 := by exact_mod_cast (Real.sqrt_pos.2 two_pos).ne'
  have x22 : ((√2 : ℝ) : ℂ) ^ 2 = 2 := by rw [← Complex.ofReal_pow, Real.sq_sqrt two_pos.le]; norm_num
  have x23 : ((√2 : ℝ) : ℂ) ^ 3 = 2 * ((√2 : ℝ) : ℂ) := by rw [← x22]; ring
  have x24 : ((√2 : ℝ) : ℂ) ^ 4 = 4 := by linear_combination (((√2 : ℝ) : ℂ) ^ 2 + 2) * x22
  push_cast at i0 i1 i2 i3 i4 i5 i6 i7 i8 i9 i10 i11 i12 i13 i14 i15 i16 i17 i18 i19 i20 i21 i22 i23 i24 i25 i26 i27 i28 i29 i30 i31 ⊢
  have y0 := mul_inv_cancel₀ n0
  have y1 := mul_inv_cancel₀ n1
  linear_combination ((((4) * ((c.e : ℂ)) * ((c.gs : ℂ)) * (mb z0.2 (p 1) z2.1) * (sb z0.2 z1.2)) * i0 + ((-8) * ((c.e : ℂ)) * ((c.gs : ℂ)) * (N.c 1) * (sb z1.2 ρ2) + (-4) * ((c.e : ℂ)) * ((c.gs : ℂ)) * (mb ρ2 (p 1) z0.1) * (sb z0.2 z1.2)) * i1 + ((-4) * ((c.e : ℂ)) * ((c.gs : ℂ)) * (mb z0.2 (p 1) z2.1) * (sb z1.2 ρ2)) * i2 + ((8) * ((c.e : ℂ)) * ((c.gs : ℂ)) * (ab z2.1 ρ0) * (sb z0.2 z2.2) * (sb z1.2 ρ2) + (-8) * ((c.e : ℂ)) * ((c.gs : ℂ)) * (mb z0.2 (p 1) ρ0) * (sb z1.2 ρ2) + (4) * ((c.e : ℂ)) * ((c.gs : ℂ)) * (mb ρ2 (p 1) ρ0) * (sb z0.2 z1.2)) * i3 + ((8) * ((c.e : ℂ)) * ((c.gs : ℂ)) * (N.c 1) * (ab z3.1 ρ0)) * i4 + ((-8) * ((c.e : ℂ)) * ((c.gs : ℂ)) * ((c.mass .u : ℂ)) * (sb z0.2 z3.2) * (sb z1.2 ρ2)) * i5 + ((-8) * ((c.e : ℂ)) * ((c.gs : ℂ)) * (ab z2.1 ρ0) * (sb z0.2 z1.2) * (sb z0.2 z2.2) + (8) * ((c.e : ℂ)) * ((c.gs : ℂ)) * (mb z0.2 (p 1) ρ0) * (sb z0.2 z1.2)) * i6 + ((8) * ((c.e : ℂ)) * ((c.gs : ℂ)) * (mb ρ2 (p 1) z2.1) * (sb z0.2 z1.2)) * i7 + ((8) * ((c.e : ℂ)) * ((c.gs : ℂ)) * ((c.mass .u : ℂ)) * (sb z0.2 z1.2) * (sb z0.2 z3.2)) * i8 + ((-4) * ((c.e : ℂ)) * ((c.gs : ℂ)) * ((c.mass .u : ℂ)) * (ab z3.1 ρ0) * (sb z0.2 ρ2) + (-4) * ((c.e : ℂ)) * ((c.gs : ℂ)) * (mb z0.2 (p 1) ρ0) * (sb z3.2 ρ2)) * i9 + ((-4) * ((c.e : ℂ)) * ((c.gs : ℂ)) * (N.c 1) * (sb z3.2 ρ2) + (4) * ((c.e : ℂ)) * ((c.gs : ℂ)) * (mb ρ2 (p 1) z0.1) * (sb z0.2 z3.2)) * i10 + ((4) * ((c.e : ℂ)) * ((c.gs : ℂ)) * ((c.mass .u : ℂ)) * (N.c 1) * (sb z0.2 ρ2)) * i11 + ((-4) * ((c.e : ℂ)) * ((c.gs : ℂ)) * ((c.mass .u : ℂ)) * (mb z0.2 (p 1) ρ0) * (sb z0.2 ρ2)) * i12 + ((-4) * ((c.e : ℂ)) * ((c.gs : ℂ)) * ((c.mass .u : ℂ)) * (ab z1.1 z3.1) * (sb z0.2 ρ2) + (-4) * ((c.e : ℂ)) * ((c.gs : ℂ)) * ((c.mass .u : ℂ)) * (sb z0.2 z3.2) * (sb z1.2 ρ2) + (-4) * ((c.e : ℂ)) * ((c.gs : ℂ)) * (ab z1.1 z2.1) * (sb z0.2 z3.2) * (sb z2.2 ρ2) + (4) * ((c.e : ℂ)) * ((c.gs : ℂ)) * (ab z2.1 z3.1) * (sb z0.2 z2.2) * (sb z1.2 ρ2)) * i13 + ((4) * ((c.e : ℂ)) * ((c.gs : ℂ)) * (ab z0.1 z2.1) * (ab z3.1 ρ0) * (sb z0.2 ρ2)) * i14 + ((4) * ((c.e : ℂ)) * ((c.gs : ℂ)) * (N.c 1) * (sb z0.2 z1.2) * (sb z0.2 ρ2)) * i15 + ((-4) * ((c.e : ℂ)) * ((c.gs : ℂ)) * (ab z2.1 ρ0) * (sb z0.2 z1.2) * (sb z2.2 ρ2) + (-4) * ((c.e : ℂ)) * ((c.gs : ℂ)) * (ab z2.1 ρ0) * (sb z0.2 z2.2) * (sb z1.2 ρ2) + (4) * ((c.e : ℂ)) * ((c.gs : ℂ)) * (mb z0.2 (p 1) ρ0) * (sb z1.2 ρ2)) * i16 + ((-4) * ((c.e : ℂ)) * ((c.gs : ℂ)) * ((c.mass .u : ℂ)) * (mb z0.2 (p 1) z2.1) * (sb z0.2 ρ2)) * i17 + ((4) * ((c.e : ℂ)) * ((c.gs : ℂ)) * ((c.mass .u : ℂ)) * (ab z3.1 ρ0) * (sb z0.2 ρ2) + (4) * ((c.e : ℂ)) * ((c.gs : ℂ)) * (mb z0.2 (p 1) ρ0) * (sb z3.2 ρ2) + (-4) * ((c.e : ℂ)) * ((c.gs : ℂ)) * (mb ρ2 (p 1) ρ0) * (sb z0.2 z3.2)) * i18 + ((4) * ((c.e : ℂ)) * ((c.gs : ℂ)) * (ab z2.1 z3.1) * (ab z2.1 ρ0) * (sb z0.2 z2.2) + (-4) * ((c.e : ℂ)) * ((c.gs : ℂ)) * (ab z2.1 z3.1) * (mb z0.2 (p 1) ρ0)) * i19 + ((-4) * ((c.e : ℂ)) * ((c.gs : ℂ)) * (ab z1.1 z2.1) * (mb z0.2 (p 1) ρ0)) * i20 + ((4) * ((c.e : ℂ)) * ((c.gs : ℂ)) * (mb z0.2 (p 1) z2.1) * (sb z0.2 z3.2)) * i21 + ((-4) * ((c.e : ℂ)) * ((c.gs : ℂ)) * (ab z0.1 z2.1) * (ab z1.1 z2.1) * (mb z0.2 (p 1) ρ0)) * i22 + ((4) * ((c.e : ℂ)) * ((c.gs : ℂ)) * (ab z2.1 ρ0) * (sb z0.2 z2.2) * (sb z0.2 ρ2) + (-8) * ((c.e : ℂ)) * ((c.gs : ℂ)) * (mb z0.2 (p 1) ρ0) * (sb z0.2 ρ2)) * i23 + ((8) * ((c.e : ℂ)) * ((c.gs : ℂ)) * ((c.mass .u : ℂ)) * (ab z0.1 z2.1) * (ab z2.1 ρ0) * (sb z0.2 z2.2) + (-8) * ((c.e : ℂ)) * ((c.gs : ℂ)) * ((c.mass .u : ℂ)) * (ab z0.1 z2.1) * (mb z0.2 (p 1) ρ0) + (4) * ((c.e : ℂ)) * ((c.gs : ℂ)) * ((c.mass .u : ℂ)) * (ab z0.1 ρ0) * (mb z0.2 (p 1) z2.1)) * i24 + ((-4) * ((c.e : ℂ)) * ((c.gs : ℂ)) * ((c.mass .u : ℂ)) * (ab z0.1 z2.1) * (ab z2.1 ρ0) * (sb z0.2 z3.2) + (4) * ((c.e : ℂ)) * ((c.gs : ℂ)) * (N.c 0) * (ab z2.1 z3.1) * (ab z2.1 ρ0) + (-4) * ((c.e : ℂ)) * ((c.gs : ℂ)) * (ab z0.1 z2.1) * (ab z2.1 z3.1) * (ab z2.1 ρ0) * (sb z0.2 z2.2) + (8) * ((c.e : ℂ)) * ((c.gs : ℂ)) * (ab z0.1 z2.1) * (ab z2.1 z3.1) * (mb z0.2 (p 1) ρ0) + (-4) * ((c.e : ℂ)) * ((c.gs : ℂ)) * (ab z0.1 z3.1) * (ab z2.1 ρ0) * (mb z0.2 (p 1) z2.1)) * i25 + ((-4) * ((c.e : ℂ)) * ((c.gs : ℂ)) * (ab z2.1 z3.1) * (ab z2.1 ρ0) * (sb z0.2 ρ2)) * i26 + ((4) * ((c.e : ℂ)) * ((c.gs : ℂ)) * (ab z2.1 ρ0) * (sb z0.2 z1.2) * (sb z0.2 ρ2)) * i27 + ((4) * ((c.e : ℂ)) * ((c.gs : ℂ)) * ((c.mass .u : ℂ)) * (ab z0.1 z2.1) * (ab z2.1 ρ0) * (sb z0.2 ρ2)) * i28 + ((4) * ((c.e : ℂ)) * ((c.gs : ℂ)) * ((c.mass .u : ℂ)) * (ab z2.1 ρ0) * (sb z0.2 ρ2)) * i29 + ((-4) * ((c.e : ℂ)) * ((c.gs : ℂ)) * (mb z0.2 (p 1) z2.1) * (sb z0.2 ρ2)) * i30 + ((-4) * ((c.e : ℂ)) * ((c.gs : ℂ)) * ((c.mass .u : ℂ)) * (ab z2.1 ρ0) * (sb z0.2 ρ2)) * i31)) * ((1) * ((N.c 0)⁻¹) * ((N.c 1)⁻¹) / (3)) + ((-4) * ((c.e : ℂ)) * ((c.gs : ℂ)) * ((c.mass .u : ℂ)) * ((N.c 1)⁻¹) * (ab z1.1 z2.1) * (ab z3.1 ρ0) * (sb z0.2 ρ2) / (3) + (4) * ((c.e : ℂ)) * ((c.gs : ℂ)) * ((c.mass .u : ℂ)) * ((N.c 1)⁻¹) * (ab z2.1 ρ0) * (sb z0.2 z3.2) * (sb z1.2 ρ2) / (3) + (4) * ((c.e : ℂ)) * ((c.gs : ℂ)) * ((N.c 1)⁻¹) * (ab z1.1 z2.1) * (ab z2.1 ρ0) * (sb z0.2 z3.2) * (sb z2.2 ρ2) / (3) + (4) * ((c.e : ℂ)) * ((c.gs : ℂ)) * ((N.c 1)⁻¹) * (ab z1.1 z2.1) * (mb ρ2 (p 1) ρ0) * (sb z0.2 z3.2) / (3) + (4) * ((c.e : ℂ)) * ((c.gs : ℂ)) * ((N.c 1)⁻¹) * (ab z3.1 ρ0) * (mb z0.2 (p 1) z2.1) * (sb z1.2 ρ2) / (3)) * y0 + ((-4) * ((c.e : ℂ)) * ((c.gs : ℂ)) * ((c.mass .u : ℂ)) * ((N.c 0)⁻¹) * (ab z1.1 ρ0) * (ab z2.1 z3.1) * (sb z0.2 ρ2) / (3) + (-4) * ((c.e : ℂ)) * ((c.gs : ℂ)) * ((c.mass .u : ℂ)) * ((N.c 0)⁻¹) * (ab z2.1 ρ0) * (sb z0.2 z1.2) * (sb z3.2 ρ2) / (3) + (-4) * ((c.e : ℂ)) * ((c.gs : ℂ)) * ((N.c 0)⁻¹) * (ab z0.1 ρ0) * (ab z2.1 z3.1) * (sb z0.2 z1.2) * (sb z0.2 ρ2) / (3) + (-4) * ((c.e : ℂ)) * ((c.gs : ℂ)) * ((N.c 0)⁻¹) * (ab z1.1 ρ0) * (mb z0.2 (p 1) z2.1) * (sb z3.2 ρ2) / (3) + (4) * ((c.e : ℂ)) * ((c.gs : ℂ)) * ((N.c 0)⁻¹) * (ab z2.1 z3.1) * (mb ρ2 (p 1) ρ0) * (sb z0.2 z1.2) / (3)) * y1 + ((2) * ((c.e : ℂ)) * ((c.gs : ℂ)) * ((c.mass .u : ℂ)) * ((N.c 0)⁻¹) * (ab z1.1 ρ0) * (ab z2.1 z3.1) * (sb z0.2 ρ2) / (3) + (2) * ((c.e : ℂ)) * ((c.gs : ℂ)) * ((c.mass .u : ℂ)) * ((N.c 0)⁻¹) * (ab z2.1 ρ0) * (sb z0.2 z1.2) * (sb z3.2 ρ2) / (3) + (2) * ((c.e : ℂ)) * ((c.gs : ℂ)) * ((c.mass .u : ℂ)) * ((N.c 1)⁻¹) * (ab z1.1 z2.1) * (ab z3.1 ρ0) * (sb z0.2 ρ2) / (3) + (-2) * ((c.e : ℂ)) * ((c.gs : ℂ)) * ((c.mass .u : ℂ)) * ((N.c 1)⁻¹) * (ab z2.1 ρ0) * (sb z0.2 z3.2) * (sb z1.2 ρ2) / (3) + (2) * ((c.e : ℂ)) * ((c.gs : ℂ)) * ((N.c 0)⁻¹) * (ab z0.1 ρ0) * (ab z2.1 z3.1) * (sb z0.2 z1.2) * (sb z0.2 ρ2) / (3) + (2) * ((c.e : ℂ)) * ((c.gs : ℂ)) * ((N.c 0)⁻¹) * (ab z1.1 ρ0) * (mb z0.2 (p 1) z2.1) * (sb z3.2 ρ2) / (3) + (-2) * ((c.e : ℂ)) * ((c.gs : ℂ)) * ((N.c 0)⁻¹) * (ab z2.1 z3.1) * (mb ρ2 (p 1) ρ0) * (sb z0.2 z1.2) / (3) + (-2) * ((c.e : ℂ)) * ((c.gs : ℂ)) * ((N.c 1)⁻¹) * (ab z1.1 z2.1) * (ab z2.1 ρ0) * (sb z0.2 z3.2) * (sb z2.2 ρ2) / (3) + (-2) * ((c.e : ℂ)) * ((c.gs : ℂ)) * ((N.c 1)⁻¹) * (ab z1.1 z2.1) * (mb ρ2 (p 1) ρ0) * (sb z0.2 z3.2) / (3) + (-2) * ((c.e : ℂ)) * ((c.gs : ℂ)) * ((N.c 1)⁻¹) * (ab z3.1 ρ0) * (mb z0.2 (p 1) z2.1) * (sb z1.2 ρ2) / (3)) * x22
theorem guAu.keyMP {c : Constants} {p : Nat → V4 ℝ} {N : Env} (hc : c.Physical) (hb : Balanced p) (r0 : N.r 0 = c.e) (r1 : N.r 1 = (((2 : Nat) : ℝ) / ((3 : Nat) : ℝ))) (r2 : N.r 2 = c.gs) (d0 : ((msq (plus (p 1) (p 0)) - c.mass .u ^ 2 : ℝ) : ℂ) = N.c 0) (n0 : N.c 0 ≠ 0) (d1 : ((msq (plus (p 1) (backward (p 2))) - c.mass .u ^ 2 : ℝ) : ℂ) = N.c 1) (n1 : N.c 1 ≠ 0) {z0 z1 z2 z3 : Pair} (b1 : Bold (p 1) (c.mass .u) z1) (b3 : Bold (p 3) (c.mass .u) z3) (l0 : Light (p 0) z0) (l2 : Light (p 2) z2) (e01 : mb z0.2 (p 1) z0.1 = N.c 0) (e03 : mb z0.2 (p 3) z0.1 = -N.c 1) (e21 : mb z2.2 (p 1) z2.1 = -N.c 1) (e23 : mb z2.2 (p 3) z2.1 = N.c 0) (q1 : msq (p 1) = (c.mass .u) ^ 2) (q3 : msq (p 3) = (c.mass .u) ^ 2) (ρ0 ρ2 : V2) :
    guAu.formMP N p z0 z1 z2 z3 * sb ρ0 z0.2 * ab ρ2 z2.1 = ((√2 : ℝ) * ((√2 : ℝ) * (-1 : ℂ))) * guAu.react.bare c p 3 1 0 2 z3 z1 (pv z0.1 ρ0) (pv ρ2 z2.2) := by
  rw [guAu.react.bare_parts c p (i := 3) (j := 1) (a := 0) (b := 2) (x := .gluon) (y := .photon) (k := (p 0)) (k' := (backward (p 2))) (fun _ => rfl) (fun _ => rfl) (f := .u) (g := .u) rfl rfl (l := (p 1)) rfl (e := 1) (e' := 1) (if_neg Bool.false_ne_true) (if_neg Bool.false_ne_true)]
  rw [compton_vv (f := .u) (x := .u) (g := .u) (h := (rfl : Spec.after .gluon Flavour.u = some Flavour.u)) (h' := (rfl : Spec.after .photon Flavour.u = some Flavour.u)) (ha := by simp) (hb := by simp)]
  rw [compton_vv (f := .u) (x := .u) (g := .u) (h := (rfl : Spec.after .photon Flavour.u = some Flavour.u)) (h' := (rfl : Spec.after .gluon Flavour.u = some Flavour.u)) (ha := by simp) (hb := by simp)]
  rw [annihilation_none c _ _ (by rfl) (by simp), star_zero, add_zero, guAu.formMP]
  simp only [d0, d1, lineV_pv, lineV_four, contract_four_pv, contract_pv, mb_plus, mb_backward]
  have i0 := mb_schouten_right z0.2 (p 3) z0.1 z3.1 ρ2
  have i1 := mb_schouten_right z0.2 (p 1) z0.1 z3.1 ρ2
  have i2 := ab_schouten z2.1 z3.1 ρ2 z0.1
  have i3 := mb_schouten_right z0.2 (p 3) z0.1 z1.1 ρ2
  have i4 := mb_schouten_right z0.2 (p 1) z0.1 z1.1 ρ2
  have i5 := mb_schouten_left z0.2 z1.2 ρ0 (p 1) z0.1
  have i6 := mb_schouten_right z2.2 (p 1) z0.1 z1.1 z2.1
  have i7 := sb_schouten z2.2 z3.2 ρ0 z0.2
  have i8 := ab_schouten z1.1 z2.1 ρ2 z0.1
  have i9 := sb_schouten z1.2 z2.2 ρ0 z0.2
  have i10 := mb_schouten_left z0.2 z1.2 z2.2 (p 1) z0.1
  have i11 := mb_schouten_left z0.2 z3.2 ρ0 (p 1) z0.1
  have i12 := mb_schouten_right z2.2 (p 1) z0.1 z1.1 ρ2
  have i13 := sb_schouten z1.2 z2.2 z3.2 z0.2
  have i14 := sb_schouten z2.2 z3.2 ρ0 z1.2
  have i15 := mb_schouten_left z0.2 z2.2 ρ0 (p 1) z0.1
  have i16 := ab_schouten z1.1 z2.1 z3.1 z0.1
  have i17 := mb_schouten_right ρ0 (p 1) z0.1 z1.1 ρ2
  have i18 := mb_schouten_left z0.2 z2.2 z3.2 (p 1) z0.1
  have i19 := mb_schouten_right z2.2 (p 3) z0.1 z1.1 z2.1
  have i20 := mb_schouten_right z1.2 (p 3) z0.1 z2.1 z3.1
  have i21 := mb_schouten_right ρ0 (p 1) z0.1 z3.1 ρ2
  have i22 := ab_schouten z1.1 z3.1 ρ2 z0.1
  have i23 := mb_schouten_right z2.2 (p 1) z0.1 z1.1 z3.1
  have i24 := mb_schouten_right ρ0 (p 1) z0.1 z1.1 z3.1
  have i25 := mb_schouten_right z0.2 (p 1) z0.1 z1.1 z3.1
  have i26 := mb_schouten_right z2.2 (p 1) z0.1 z3.1 ρ2
  have i27 := mb_schouten_right z0.2 (p 3) z0.1 z1.1 z3.1
  have i28 := mb_schouten_right z1.2 (p 3) z0.1 z3.1 ρ2
  have i29 := mb_schouten_right z0.2 (p 3) z0.1 z2.1 z3.1
  have i30 := mb_schouten_right z0.2 (p 1) z0.1 z2.1 z3.1
  have i31 := mb_schouten_right z2.2 (p 3) z0.1 z2.1 z3.1
  have i32 := mb_schouten_right z2.2 (p 1) z0.1 z2.1 z3.1
  have i33 := mb_schouten_right z3.2 (p 1) z0.1 z1.1 ρ2
  have i34 := sb_schouten z1.2 z3.2 ρ0 z0.2
  simp only [l0.mb_eq, l2.mb_eq, b1.mb_left, b1.mb_right, b3.mb_left, b3.mb_right, e01, e03, e21, e23, mb_three hb z0.2 z1.1, mb_three hb z0.2 z2.1, mb_one hb z0.2 z3.1, mb_three hb z0.2 ρ2, mb_three hb z1.2 z0.1, mb_three hb z1.2 z1.1, mb_three hb z1.2 z2.1, mb_three hb z1.2 ρ2, mb_three hb z2.2 z0.1, mb_three hb z2.2 z1.1, mb_one hb z2.2 z3.1, mb_three hb z2.2 ρ2, mb_one hb z3.2 z0.1, mb_one hb z3.2 z2.1, mb_one hb z3.2 z3.1, mb_one hb z3.2 ρ2, mb_three hb ρ0 z0.1, mb_three hb ρ0 z1.1, mb_three hb ρ0 z2.1, mb_one hb ρ0 z3.1, mb_three hb ρ0 ρ2, ab_self, sb_self] at i0 i1 i2 i3 i4 i5 i6 i7 i8 i9 i10 i11 i12 i13 i14 i15 i16 i17 i18 i19 i20 i21 i22 i23 i24 i25 i26 i27 i28 i29 i30 i31 i32 i33 i34 ⊢
  simp only [ab_swap z0.1 z1.1, ab_swap z0.1 z2.1, ab_swap z0.1 z3.1, ab_swap z0.1 ρ2, ab_swap z1.1 z2.1, ab_swap z1.1 z3.1, ab_swap z1.1 ρ2, ab_swap z2.1 z3.1, ab_swap z2.1 ρ2, ab_swap z3.1 ρ2, sb_swap z0.2 z1.2, sb_swap z0.2 z2.2, sb_swap z0.2 z3.2, sb_swap z0.2 ρ0, sb_swap z1.2 z2.2, sb_swap z1.2 z3.2, sb_swap z1.2 ρ0, sb_swap z2.2 z3.2, sb_swap z2.2 ρ0, sb_swap z3.2 ρ0] at i0 i1 i2 i3 i4 i5 i6 i7 i8 i9 i10 i11 i12 i13 i14 i15 i16 i17 i18 i19 i20 i21 i22 i23 i24 i25 i26 i27 i28 i29 i30 i31 i32 i33 i34 ⊢
  simp only [r0, r1, r2, Constants.hL, Constants.hR, Constants.gL, Constants.gR, Constants.yuk, Constants.invVev, Flavour.charge_u, Flavour.isospin_u, ← c.mz]
  have xMW : (c.MW : ℂ) ≠ 0 := by exact_mod_cast hc.MW
  have xSW : (c.SW : ℂ) ≠ 0 := by exact_mod_cast hc.SW
  have xCW : (c.CW : ℂ) ≠ 0 := by exact_mod_cast hc.CW
  have x2 : ((√2 : ℝ) : ℂ) ≠ 0 := by exact_mod_cast (Real.sqrt_pos.2 two_pos).ne'
  have x22 : ((√2 : ℝ) : ℂ) ^ 2 = 2 := by rw [← Complex.ofReal_pow, Real.sq_sqrt two_pos.le]; norm_num
  have x23 : ((√2 : ℝ) : ℂ) ^ 3 = 2 * ((√2 : ℝ) : ℂ) := by rw [← x22]; ring
  have x24 : ((√2 : ℝ) : ℂ) ^ 4 = 4 := by linear_combination (((√2 : ℝ) : ℂ) ^ 2 + 2) * x22
  push_cast at i0 i1 i2 i3 i4 i5 i6 i7 i8 i9 i10 i11 i12 i13 i14 i15 i16 i17 i18 i19 i20 i21 i22 i23 i24 i25 i26 i27 i28 i29 i30 i31 i32 i33 i34 ⊢
  have y0 := mul_inv_cancel₀ n0
  have y1 := mul_inv_cancel₀ n1
  linear_combination ((((4) * ((c.e : ℂ)) * ((c.gs : ℂ)) * (mb z2.2 (p 1) z0.1) * (sb z1.2 ρ0)) * i0 + ((-4) * ((c.e : ℂ)) * ((c.gs : ℂ)) * (mb z2.2 (p 1) z0.1) * (sb z1.2 ρ0)) * i1 + ((4) * ((c.e : ℂ)) * ((c.gs : ℂ)) * (N.c 0) * (sb z1.2 z2.2) * (sb z2.2 ρ0) + (4) * ((c.e : ℂ)) * ((c.gs : ℂ)) * (N.c 1) * (sb z1.2 z2.2) * (sb z2.2 ρ0) + (4) * ((c.e : ℂ)) * ((c.gs : ℂ)) * (mb z2.2 (p 1) z0.1) * (sb z0.2 z1.2) * (sb z2.2 ρ0)) * i2 + ((4) * ((c.e : ℂ)) * ((c.gs : ℂ)) * ((c.mass .u : ℂ)) * (ab z0.1 z3.1) * (sb z2.2 ρ0) + (-4) * ((c.e : ℂ)) * ((c.gs : ℂ)) * (mb z2.2 (p 1) z0.1) * (sb z3.2 ρ0)) * i3 + ((-4) * ((c.e : ℂ)) * ((c.gs : ℂ)) * ((c.mass .u : ℂ)) * (ab z0.1 z3.1) * (sb z2.2 ρ0) + (4) * ((c.e : ℂ)) * ((c.gs : ℂ)) * (mb z2.2 (p 1) z0.1) * (sb z3.2 ρ0)) * i4 + ((-8) * ((c.e : ℂ)) * ((c.gs : ℂ)) * ((c.mass .u : ℂ)) * (ab z0.1 ρ2) * (sb z2.2 z3.2) + (4) * ((c.e : ℂ)) * ((c.gs : ℂ)) * (ab z0.1 z3.1) * (ab z0.1 ρ2) * (sb z0.2 z2.2) + (-4) * ((c.e : ℂ)) * ((c.gs : ℂ)) * (ab z0.1 z3.1) * (mb z2.2 (p 1) ρ2)) * i5 + ((-4) * ((c.e : ℂ)) * ((c.gs : ℂ)) * (ab z0.1 ρ2) * (sb z0.2 z2.2) * (sb z3.2 ρ0) + (4) * ((c.e : ℂ)) * ((c.gs : ℂ)) * (ab z0.1 ρ2) * (sb z0.2 z3.2) * (sb z2.2 ρ0) + (-4) * ((c.e : ℂ)) * ((c.gs : ℂ)) * (mb z2.2 (p 1) ρ2) * (sb z3.2 ρ0) + (-4) * ((c.e : ℂ)) * ((c.gs : ℂ)) * (mb ρ0 (p 1) ρ2) * (sb z2.2 z3.2)) * i6 + ((-4) * ((c.e : ℂ)) * ((c.gs : ℂ)) * ((c.mass .u : ℂ)) * (ab z0.1 z2.1) * (ab z0.1 ρ2) * (sb z1.2 z2.2) + (4) * ((c.e : ℂ)) * ((c.gs : ℂ)) * ((c.mass .u : ℂ)) ^ 2 * (ab z0.1 z1.1) * (ab z0.1 ρ2) + (-4) * ((c.e : ℂ)) * ((c.gs : ℂ)) * (N.c 1) * (ab z0.1 z1.1) * (ab z0.1 ρ2) + (-4) * ((c.e : ℂ)) * ((c.gs : ℂ)) * (ab z0.1 z1.1) * (ab z0.1 z2.1) * (mb z2.2 (p 1) ρ2) + (-4) * ((c.e : ℂ)) * ((c.gs : ℂ)) * (ab z0.1 z1.1) * (ab z2.1 ρ2) * (mb z2.2 (p 1) z0.1)) * i7 + ((-4) * ((c.e : ℂ)) * ((c.gs : ℂ)) * ((c.mass .u : ℂ)) * (ab z0.1 z3.1) * (sb z0.2 z2.2) * (sb z2.2 ρ0) + (-4) * ((c.e : ℂ)) * ((c.gs : ℂ)) * (mb z2.2 (p 1) z0.1) * (sb z0.2 z3.2) * (sb z2.2 ρ0)) * i8 + ((4) * ((c.e : ℂ)) * ((c.gs : ℂ)) * ((c.mass .u : ℂ)) * (ab z0.1 z2.1) * (ab z0.1 ρ2) * (sb z2.2 z3.2) + (4) * ((c.e : ℂ)) * ((c.gs : ℂ)) * ((c.mass .u : ℂ)) ^ 2 * (ab z0.1 z3.1) * (ab z0.1 ρ2) + (4) * ((c.e : ℂ)) * ((c.gs : ℂ)) * (N.c 0) * (ab z0.1 z3.1) * (ab z0.1 ρ2) + (-4) * ((c.e : ℂ)) * ((c.gs : ℂ)) * (ab z0.1 z3.1) * (ab z2.1 ρ2) * (mb z2.2 (p 1) z0.1)) * i9 + ((-8) * ((c.e : ℂ)) * ((c.gs : ℂ)) * ((c.mass .u : ℂ)) * (ab z0.1 ρ2) * (sb z3.2 ρ0) + (-4) * ((c.e : ℂ)) * ((c.gs : ℂ)) * (ab z0.1 z2.1) * (ab z3.1 ρ2) * (sb z2.2 ρ0) + (-4) * ((c.e : ℂ)) * ((c.gs : ℂ)) * (ab z0.1 z3.1) * (ab z0.1 ρ2) * (sb z0.2 ρ0) + (8) * ((c.e : ℂ)) * ((c.gs : ℂ)) * (ab z0.1 z3.1) * (ab z2.1 ρ2) * (sb z2.2 ρ0) + (4) * ((c.e : ℂ)) * ((c.gs : ℂ)) * (ab z0.1 z3.1) * (mb ρ0 (p 1) ρ2)) * i10 + ((-4) * ((c.e : ℂ)) * ((c.gs : ℂ)) * (ab z0.1 z1.1) * (mb z2.2 (p 1) ρ2)) * i11 + ((8) * ((c.e : ℂ)) * ((c.gs : ℂ)) * ((c.mass .u : ℂ)) * (ab z0.1 z3.1) * (sb z0.2 ρ0) + (-4) * ((c.e : ℂ)) * ((c.gs : ℂ)) * (N.c 1) * (sb z3.2 ρ0) + (-4) * ((c.e : ℂ)) * ((c.gs : ℂ)) * (ab z0.1 z2.1) * (sb z0.2 z3.2) * (sb z2.2 ρ0) + (4) * ((c.e : ℂ)) * ((c.gs : ℂ)) * (mb ρ0 (p 1) z0.1) * (sb z0.2 z3.2)) * i12 + ((-4) * ((c.e : ℂ)) * ((c.gs : ℂ)) * ((c.mass .u : ℂ)) * (ab z0.1 z2.1) * (ab z0.1 ρ2) * (sb z2.2 ρ0) + (4) * ((c.e : ℂ)) * ((c.gs : ℂ)) * ((c.mass .u : ℂ)) * (ab z0.1 ρ2) * (mb ρ0 (p 1) z0.1)) * i13 + ((4) * ((c.e : ℂ)) * ((c.gs : ℂ)) * ((c.mass .u : ℂ)) * (N.c 0) * (ab z0.1 ρ2) + (-4) * ((c.e : ℂ)) * ((c.gs : ℂ)) * ((c.mass .u : ℂ)) * (N.c 1) * (ab z0.1 ρ2)) * i14 + ((8) * ((c.e : ℂ)) * ((c.gs : ℂ)) * ((c.mass .u : ℂ)) * (ab z0.1 z1.1) * (ab z3.1 ρ2) + (4) * ((c.e : ℂ)) * ((c.gs : ℂ)) * (ab z0.1 z1.1) * (ab z0.1 ρ2) * (sb z0.2 z3.2) + (-4) * ((c.e : ℂ)) * ((c.gs : ℂ)) * (ab z0.1 z1.1) * (ab z2.1 ρ2) * (sb z2.2 z3.2) + (4) * ((c.e : ℂ)) * ((c.gs : ℂ)) * (ab z0.1 z2.1) * (ab z1.1 ρ2) * (sb z2.2 z3.2)) * i15 + ((4) * ((c.e : ℂ)) * ((c.gs : ℂ)) * ((c.mass .u : ℂ)) * (ab z0.1 ρ2) * (sb z0.2 z2.2) * (sb z2.2 ρ0)) * i16 + ((-8) * ((c.e : ℂ)) * ((c.gs : ℂ)) * ((c.mass .u : ℂ)) * (ab z0.1 z3.1) * (sb z0.2 z2.2) + (-4) * ((c.e : ℂ)) * ((c.gs : ℂ)) * (mb z2.2 (p 1) z0.1) * (sb z0.2 z3.2)) * i17 + ((-4) * ((c.e : ℂ)) * ((c.gs : ℂ)) * (ab z0.1 z1.1) * (mb ρ0 (p 1) ρ2)) * i18 + ((4) * ((c.e : ℂ)) * ((c.gs : ℂ)) * (mb z2.2 (p 1) ρ2) * (sb z3.2 ρ0) + (4) * ((c.e : ℂ)) * ((c.gs : ℂ)) * (mb ρ0 (p 1) ρ2) * (sb z2.2 z3.2)) * i19 + ((4) * ((c.e : ℂ)) * ((c.gs : ℂ)) * (ab z0.1 ρ2) * (sb z0.2 z2.2) * (sb z2.2 ρ0)) * i20 + ((-4) * ((c.e : ℂ)) * ((c.gs : ℂ)) * (mb z2.2 (p 1) z0.1) * (sb z0.2 z1.2)) * i21 + ((-4) * ((c.e : ℂ)) * ((c.gs : ℂ)) * ((c.mass .u : ℂ)) * (N.c 0) * (sb z2.2 ρ0) + (-8) * ((c.e : ℂ)) * ((c.gs : ℂ)) * ((c.mass .u : ℂ)) * (N.c 1) * (sb z2.2 ρ0) + (4) * ((c.e : ℂ)) * ((c.gs : ℂ)) * ((c.mass .u : ℂ)) * (ab z0.1 z2.1) * (sb z0.2 z2.2) * (sb z2.2 ρ0) + (4) * ((c.e : ℂ)) * ((c.gs : ℂ)) * ((c.mass .u : ℂ)) * (mb z2.2 (p 1) z0.1) * (sb z0.2 ρ0) + (-4) * ((c.e : ℂ)) * ((c.gs : ℂ)) * ((c.mass .u : ℂ)) * (mb ρ0 (p 1) z0.1) * (sb z0.2 z2.2)) * i22 + ((-4) * ((c.e : ℂ)) * ((c.gs : ℂ)) * ((c.mass .u : ℂ)) * (ab z0.1 ρ2) * (sb z0.2 ρ0)) * i23 + ((4) * ((c.e : ℂ)) * ((c.gs : ℂ)) * ((c.mass .u : ℂ)) * (ab z0.1 ρ2) * (sb z0.2 z2.2)) * i24 + ((4) * ((c.e : ℂ)) * ((c.gs : ℂ)) * ((c.mass .u : ℂ)) * (ab z0.1 ρ2) * (sb z2.2 ρ0)) * i25 + ((4) * ((c.e : ℂ)) * ((c.gs : ℂ)) * (N.c 0) * (sb z1.2 ρ0) + (4) * ((c.e : ℂ)) * ((c.gs : ℂ)) * (mb ρ0 (p 1) z0.1) * (sb z0.2 z1.2)) * i26 + ((-8) * ((c.e : ℂ)) * ((c.gs : ℂ)) * ((c.mass .u : ℂ)) * (ab z0.1 ρ2) * (sb z2.2 ρ0)) * i27 + ((-4) * ((c.e : ℂ)) * ((c.gs : ℂ)) * (N.c 1) * (sb z2.2 ρ0)) * i28 + ((4) * ((c.e : ℂ)) * ((c.gs : ℂ)) * (ab z0.1 ρ2) * (sb z1.2 z2.2) * (sb z2.2 ρ0)) * i29 + ((-4) * ((c.e : ℂ)) * ((c.gs : ℂ)) * (ab z0.1 ρ2) * (sb z1.2 z2.2) * (sb z2.2 ρ0)) * i30 + ((4) * ((c.e : ℂ)) * ((c.gs : ℂ)) * (ab z0.1 ρ2) * (sb z0.2 z1.2) * (sb z2.2 ρ0) + (-4) * ((c.e : ℂ)) * ((c.gs : ℂ)) * (ab z0.1 ρ2) * (sb z0.2 z2.2) * (sb z1.2 ρ0)) * i31 + ((-4) * ((c.e : ℂ)) * ((c.gs : ℂ)) * (ab z0.1 ρ2) * (sb z0.2 z1.2) * (sb z2.2 ρ0)) * i32 + ((-4) * ((c.e : ℂ)) * ((c.gs : ℂ)) * (N.c 0) * (sb z2.2 ρ0) + (4) * ((c.e : ℂ)) * ((c.gs : ℂ)) * (mb z2.2 (p 1) z0.1) * (sb z0.2 ρ0) + (-4) * ((c.e : ℂ)) * ((c.gs : ℂ)) * (mb ρ0 (p 1) z0.1) * (sb z0.2 z2.2)) * i33 + ((4) * ((c.e : ℂ)) * ((c.gs : ℂ)) * ((c.mass .u : ℂ)) * (ab z0.1 ρ2) * (mb z2.2 (p 1) z0.1)) * i34)) * ((1) * ((N.c 0)⁻¹) * ((N.c 1)⁻¹) / (3)) + ((-4) * ((c.e : ℂ)) * ((c.gs : ℂ)) * ((c.mass .u : ℂ)) * ((N.c 1)⁻¹) * (ab z0.1 z3.1) * (ab z1.1 ρ2) * (sb z2.2 ρ0) / (3) + (4) * ((c.e : ℂ)) * ((c.gs : ℂ)) * ((c.mass .u : ℂ)) * ((N.c 1)⁻¹) * (ab z0.1 ρ2) * (sb z1.2 z2.2) * (sb z3.2 ρ0) / (3) + (-4) * ((c.e : ℂ)) * ((c.gs : ℂ)) * ((N.c 1)⁻¹) * (ab z0.1 z3.1) * (ab z2.1 ρ2) * (sb z1.2 z2.2) * (sb z2.2 ρ0) / (3) + (-4) * ((c.e : ℂ)) * ((c.gs : ℂ)) * ((N.c 1)⁻¹) * (ab z0.1 z3.1) * (mb ρ0 (p 1) ρ2) * (sb z1.2 z2.2) / (3) + (-4) * ((c.e : ℂ)) * ((c.gs : ℂ)) * ((N.c 1)⁻¹) * (ab z1.1 ρ2) * (mb z2.2 (p 1) z0.1) * (sb z3.2 ρ0) / (3)) * y0 + ((4) * ((c.e : ℂ)) * ((c.gs : ℂ)) * ((c.mass .u : ℂ)) * ((N.c 0)⁻¹) * (ab z0.1 z1.1) * (ab z3.1 ρ2) * (sb z2.2 ρ0) / (3) + (4) * ((c.e : ℂ)) * ((c.gs : ℂ)) * ((c.mass .u : ℂ)) * ((N.c 0)⁻¹) * (ab z0.1 ρ2) * (sb z1.2 ρ0) * (sb z2.2 z3.2) / (3) + (4) * ((c.e : ℂ)) * ((c.gs : ℂ)) * ((N.c 0)⁻¹) * (ab z0.1 z1.1) * (ab z0.1 ρ2) * (sb z0.2 ρ0) * (sb z2.2 z3.2) / (3) + (-4) * ((c.e : ℂ)) * ((c.gs : ℂ)) * ((N.c 0)⁻¹) * (ab z0.1 z1.1) * (mb ρ0 (p 1) ρ2) * (sb z2.2 z3.2) / (3) + (4) * ((c.e : ℂ)) * ((c.gs : ℂ)) * ((N.c 0)⁻¹) * (ab z3.1 ρ2) * (mb z2.2 (p 1) z0.1) * (sb z1.2 ρ0) / (3)) * y1 + ((-2) * ((c.e : ℂ)) * ((c.gs : ℂ)) * ((c.mass .u : ℂ)) * ((N.c 0)⁻¹) * (ab z0.1 z1.1) * (ab z3.1 ρ2) * (sb z2.2 ρ0) / (3) + (-2) * ((c.e : ℂ)) * ((c.gs : ℂ)) * ((c.mass .u : ℂ)) * ((N.c 0)⁻¹) * (ab z0.1 ρ2) * (sb z1.2 ρ0) * (sb z2.2 z3.2) / (3) + (2) * ((c.e : ℂ)) * ((c.gs : ℂ)) * ((c.mass .u : ℂ)) * ((N.c 1)⁻¹) * (ab z0.1 z3.1) * (ab z1.1 ρ2) * (sb z2.2 ρ0) / (3) + (-2) * ((c.e : ℂ)) * ((c.gs : ℂ)) * ((c.mass .u : ℂ)) * ((N.c 1)⁻¹) * (ab z0.1 ρ2) * (sb z1.2 z2.2) * (sb z3.2 ρ0) / (3) + (-2) * ((c.e : ℂ)) * ((c.gs : ℂ)) * ((N.c 0)⁻¹) * (ab z0.1 z1.1) * (ab z0.1 ρ2) * (sb z0.2 ρ0) * (sb z2.2 z3.2) / (3) + (2) * ((c.e : ℂ)) * ((c.gs : ℂ)) * ((N.c 0)⁻¹) * (ab z0.1 z1.1) * (mb ρ0 (p 1) ρ2) * (sb z2.2 z3.2) / (3) + (-2) * ((c.e : ℂ)) * ((c.gs : ℂ)) * ((N.c 0)⁻¹) * (ab z3.1 ρ2) * (mb z2.2 (p 1) z0.1) * (sb z1.2 ρ0) / (3) + (2) * ((c.e : ℂ)) * ((c.gs : ℂ)) * ((N.c 1)⁻¹) * (ab z0.1 z3.1) * (ab z2.1 ρ2) * (sb z1.2 z2.2) * (sb z2.2 ρ0) / (3) + (2) * ((c.e : ℂ)) * ((c.gs : ℂ)) * ((N.c 1)⁻¹) * (ab z0.1 z3.1) * (mb ρ0 (p 1) ρ2) * (sb z1.2 z2.2) / (3) + (2) * ((c.e : ℂ)) * ((c.gs : ℂ)) * ((N.c 1)⁻¹) * (ab z1.1 ρ2) * (mb z2.2 (p 1) z0.1) * (sb z3.2 ρ0) / (3)) * x22
theorem guAu.keyMM {c : Constants} {p : Nat → V4 ℝ} {N : Env} (hc : c.Physical) (hb : Balanced p) (r0 : N.r 0 = c.e) (r1 : N.r 1 = (((2 : Nat) : ℝ) / ((3 : Nat) : ℝ))) (r2 : N.r 2 = c.gs) (r3 : N.r 3 = (c.mass .u)) (d0 : ((msq (plus (p 1) (p 0)) - c.mass .u ^ 2 : ℝ) : ℂ) = N.c 0) (n0 : N.c 0 ≠ 0) (d1 : ((msq (plus (p 1) (backward (p 2))) - c.mass .u ^ 2 : ℝ) : ℂ) = N.c 1) (n1 : N.c 1 ≠ 0) {z0 z1 z2 z3 : Pair} (b1 : Bold (p 1) (c.mass .u) z1) (b3 : Bold (p 3) (c.mass .u) z3) (l0 : Light (p 0) z0) (l2 : Light (p 2) z2) (e01 : mb z0.2 (p 1) z0.1 = N.c 0) (e03 : mb z0.2 (p 3) z0.1 = -N.c 1) (e21 : mb z2.2 (p 1) z2.1 = -N.c 1) (e23 : mb z2.2 (p 3) z2.1 = N.c 0) (q1 : msq (p 1) = (c.mass .u) ^ 2) (q3 : msq (p 3) = (c.mass .u) ^ 2) (ρ0 ρ2 : V2) :
    guAu.formMM N p z0 z1 z2 z3 * sb ρ0 z0.2 * sb ρ2 z2.2 = ((√2 : ℝ) * ((√2 : ℝ) * (1 : ℂ))) * guAu.react.bare c p 3 1 0 2 z3 z1 (pv z0.1 ρ0) (pv z2.1 ρ2) := by
  rw [guAu.react.bare_parts c p (i := 3) (j := 1) (a := 0) (b := 2) (x := .gluon) (y := .photon) (k := (p 0)) (k' := (backward (p 2))) (fun _ => rfl) (fun _ => rfl) (f := .u) (g := .u) rfl rfl (l := (p 1)) rfl (e := 1) (e' := 1) (if_neg Bool.false_ne_true) (if_neg Bool.false_ne_true)]
  rw [compton_vv (f := .u) (x := .u) (g := .u) (h := (rfl : Spec.after .gluon Flavour.u = some Flavour.u)) (h' := (rfl : Spec.after .photon Flavour.u = some Flavour.u)) (ha := by simp) (hb := by simp)]
  rw [compton_vv (f := .u) (x := .u) (g := .u) (h := (rfl : Spec.after .photon Flavour.u = some Flavour.u)) (h' := (rfl : Spec.after .gluon Flavour.u = some Flavour.u)) (ha := by simp) (hb := by simp)]
  rw [annihilation_none c _ _ (by rfl) (by simp), star_zero, add_zero, guAu.formMM]
  simp only [d0, d1, lineV_pv, lineV_four, contract_four_pv, contract_pv, mb_plus, mb_backward]
  have i0 := mb_schouten_right z0.2 (p 3) z0.1 z1.1 z2.1
  have i1 := mb_schouten_right z0.2 (p 1) z0.1 z1.1 z2.1
  have i2 := ab_schouten z1.1 z2.1 z3.1 z0.1
  have i3 := mb_schouten_right z0.2 (p 3) z0.1 z1.1 z3.1
  have i4 := mb_schouten_left z0.2 ρ0 ρ2 (p 1) z0.1
  have i5 := mb_schouten_right ρ0 (p 1) z0.1 z1.1 z2.1
  have i6 := mb_schouten_right z1.2 (p 3) z0.1 z2.1 z3.1
  have i7 := mb_schouten_left z0.2 z1.2 ρ0 (p 1) z0.1
  have i8 := mb_schouten_right ρ2 (p 1) z0.1 z1.1 z2.1
  have i9 := mb_schouten_left z0.2 z1.2 ρ2 (p 1) z0.1
  have i10 := sb_schouten z1.2 ρ0 ρ2 z0.2
  have i11 := sb_schouten z2.2 z3.2 ρ2 z0.2
  have i12 := sb_schouten z1.2 z2.2 ρ0 z0.2
  have i13 := mb_schouten_right z2.2 (p 1) z0.1 z2.1 z3.1
  have i14 := mb_schouten_right z2.2 (p 1) z0.1 z1.1 z2.1
  have i15 := sb_schouten z3.2 ρ0 ρ2 z0.2
  have i16 := mb_schouten_right z2.2 (p 3) z0.1 z2.1 z3.1
  have i17 := mb_schouten_right z2.2 (p 3) z0.1 z1.1 z2.1
  have i18 := sb_schouten z2.2 z3.2 ρ0 z0.2
  have i19 := mb_schouten_right z0.2 (p 1) z0.1 z1.1 z3.1
  have i20 := sb_schouten z3.2 ρ0 ρ2 z1.2
  have i21 := mb_schouten_left z0.2 z3.2 ρ2 (p 1) z0.1
  have i22 := mb_schouten_right z3.2 (p 1) z0.1 z1.1 z2.1
  have i23 := mb_schouten_right z0.2 (p 1) z0.1 z2.1 z3.1
  have i24 := mb_schouten_right z0.2 (p 3) z0.1 z2.1 z3.1
  have i25 := mb_schouten_right ρ2 (p 1) z0.1 z2.1 z3.1
  have i26 := mb_schouten_left z0.2 z2.2 ρ2 (p 1) z0.1
  have i27 := sb_schouten z1.2 z3.2 ρ2 z0.2
  have i28 := sb_schouten z2.2 ρ0 ρ2 z0.2
  have i29 := sb_schouten z1.2 z3.2 ρ0 z0.2
  have i30 := mb_schouten_left z0.2 z3.2 ρ0 (p 1) z0.1
  have i31 := mb_schouten_left z0.2 z2.2 ρ0 (p 1) z0.1
  have i32 := sb_schouten z3.2 ρ0 ρ2 z2.2
  have i33 := mb_schouten_right ρ2 (p 1) z0.1 z1.1 z3.1
  have i34 := mb_schouten_right ρ0 (p 1) z0.1 z1.1 z3.1
  have i35 := mb_schouten_right ρ0 (p 1) z0.1 z2.1 z3.1
  have i36 := sb_schouten z2.2 ρ0 ρ2 z1.2
  simp only [l0.mb_eq, l2.mb_eq, b1.mb_left, b1.mb_right, b3.mb_left, b3.mb_right, e01, e03, e21, e23, mb_three hb z0.2 z1.1, mb_three hb z0.2 z2.1, mb_one hb z0.2 z3.1, mb_three hb z1.2 z0.1, mb_three hb z1.2 z1.1, mb_three hb z1.2 z2.1, mb_three hb z2.2 z0.1, mb_three hb z2.2 z1.1, mb_one hb z2.2 z3.1, mb_one hb z3.2 z0.1, mb_one hb z3.2 z2.1, mb_one hb z3.2 z3.1, mb_three hb ρ0 z0.1, mb_three hb ρ0 z1.1, mb_three hb ρ0 z2.1, mb_one hb ρ0 z3.1, mb_three hb ρ2 z0.1, mb_three hb ρ2 z1.1, mb_three hb ρ2 z2.1, mb_one hb ρ2 z3.1, ab_self, sb_self] at i0 i1 i2 i3 i4 i5 i6 i7 i8 i9 i10 i11 i12 i13 i14 i15 i16 i17 i18 i19 i20 i21 i22 i23 i24 i25 i26 i27 i28 i29 i30 i31 i32 i33 i34 i35 i36 ⊢
  simp only [ab_swap z0.1 z1.1, ab_swap z0.1 z2.1, ab_swap z0.1 z3.1, ab_swap z1.1 z2.1, ab_swap z1.1 z3.1, ab_swap z2.1 z3.1, sb_swap z0.2 z1.2, sb_swap z0.2 z2.2, sb_swap z0.2 z3.2, sb_swap z0.2 ρ0, sb_swap z0.2 ρ2, sb_swap z1.2 z2.2, sb_swap z1.2 z3.2, sb_swap z1.2 ρ0, sb_swap z1.2 ρ2, sb_swap z2.2 z3.2, sb_swap z2.2 ρ0, sb_swap z2.2 ρ2, sb_swap z3.2 ρ0, sb_swap z3.2 ρ2, sb_swap ρ0 ρ2] at i0 i1 i2 i3 i4 i5 i6 i7 i8 i9 i10 i11 i12 i13 i14 i15 i16 i17 i18 i19 i20 i21 i22 i23 i24 i25 i26 i27 i28 i29 i30 i31 i32 i33 i34 i35 i36 ⊢
  simp only [r0, r1, r2, r3, Constants.hL, Constants.hR, Constants.gL, Constants.gR, Constants.yuk, Constants.invVev, Flavour.charge_u, Flavour.isospin_u, ← c.mz]
  have xMW : (c.MW : ℂ) ≠ 0 := by exact_mod_cast hc.MW
  have xSW : (c.SW : ℂ) ≠ 0 := by exact_mod_cast hc.SW
  have xCW : (c.CW : ℂ) ≠ 0 := by exact_mod_cast hc.CW
  have x2 : ((√2 : ℝ) : ℂ) ≠ 0 := by exact_mod_cast (Real.sqrt_pos.2 two_pos).ne'
  have x22 : ((√2 : ℝ) : ℂ) ^ 2 = 2 := by rw [← Complex.ofReal_pow, Real.sq_sqrt two_pos.le]; norm_num
  have x23 : ((√2 : ℝ) : ℂ) ^ 3 = 2 * ((√2 : ℝ) : ℂ) := by rw [← x22]; ring
  have x24 : ((√2 : ℝ) : ℂ) ^ 4 = 4 := by linear_combination (((√2 : ℝ) : ℂ) ^ 2 + 2) * x22
  push_cast at i0 i1 i2 i3 i4 i5 i6 i7 i8 i9 i10 i11 i12 i13 i14 i15 i16 i17 i18 i19 i20 i21 i22 i23 i24 i25 i26 i27 i28 i29 i30 i31 i32 i33 i34 i35 i36 ⊢
  have y0 := mul_inv_cancel₀ n0
  have y1 := mul_inv_cancel₀ n1
  linear_combination ((((4) * ((c.e : ℂ)) * ((c.gs : ℂ)) * ((c.mass .u : ℂ)) * (ab z0.1 z3.1) * (sb ρ0 ρ2) + (4) * ((c.e : ℂ)) * ((c.gs : ℂ)) * (mb ρ2 (p 1) z0.1) * (sb z3.2 ρ0)) * i0 + ((-4) * ((c.e : ℂ)) * ((c.gs : ℂ)) * ((c.mass .u : ℂ)) * (ab z0.1 z3.1) * (sb ρ0 ρ2) + (-4) * ((c.e : ℂ)) * ((c.gs : ℂ)) * (mb ρ2 (p 1) z0.1) * (sb z3.2 ρ0)) * i1 + ((4) * ((c.e : ℂ)) * ((c.gs : ℂ)) * ((c.mass .u : ℂ)) * (N.c 0) * (sb ρ0 ρ2) + (8) * ((c.e : ℂ)) * ((c.gs : ℂ)) * ((c.mass .u : ℂ)) * (N.c 1) * (sb ρ0 ρ2) + (-4) * ((c.e : ℂ)) * ((c.gs : ℂ)) * ((c.mass .u : ℂ)) * (mb ρ0 (p 1) z0.1) * (sb z0.2 ρ2) + (4) * ((c.e : ℂ)) * ((c.gs : ℂ)) * ((c.mass .u : ℂ)) * (mb ρ2 (p 1) z0.1) * (sb z0.2 ρ0)) * i2 + ((-8) * ((c.e : ℂ)) * ((c.gs : ℂ)) * ((c.mass .u : ℂ)) * (ab z0.1 z2.1) * (sb ρ0 ρ2)) * i3 + ((-8) * ((c.e : ℂ)) * ((c.gs : ℂ)) * ((c.mass .u : ℂ)) * (ab z0.1 z1.1) * (ab z2.1 z3.1)) * i4 + ((8) * ((c.e : ℂ)) * ((c.gs : ℂ)) * ((c.mass .u : ℂ)) * (ab z0.1 z3.1) * (sb z0.2 ρ2) + (-4) * ((c.e : ℂ)) * ((c.gs : ℂ)) * (ab z0.1 z2.1) * (sb z0.2 z3.2) * (sb z2.2 ρ2) + (4) * ((c.e : ℂ)) * ((c.gs : ℂ)) * (mb ρ2 (p 1) z0.1) * (sb z0.2 z3.2)) * i5 + ((4) * ((c.e : ℂ)) * ((c.gs : ℂ)) * (N.c 1) * (sb ρ0 ρ2) + (4) * ((c.e : ℂ)) * ((c.gs : ℂ)) * (ab z0.1 z2.1) * (sb z0.2 z2.2) * (sb ρ0 ρ2)) * i6 + ((-8) * ((c.e : ℂ)) * ((c.gs : ℂ)) * ((c.mass .u : ℂ)) * (ab z0.1 z2.1) * (sb z3.2 ρ2) + (-4) * ((c.e : ℂ)) * ((c.gs : ℂ)) * (ab z0.1 z2.1) * (ab z0.1 z3.1) * (sb z0.2 ρ2) + (4) * ((c.e : ℂ)) * ((c.gs : ℂ)) * (ab z0.1 z2.1) * (ab z2.1 z3.1) * (sb z2.2 ρ2) + (4) * ((c.e : ℂ)) * ((c.gs : ℂ)) * (ab z0.1 z3.1) * (mb ρ2 (p 1) z2.1)) * i7 + ((-8) * ((c.e : ℂ)) * ((c.gs : ℂ)) * ((c.mass .u : ℂ)) * (ab z0.1 z3.1) * (sb z0.2 ρ0) + (4) * ((c.e : ℂ)) * ((c.gs : ℂ)) * (N.c 1) * (sb z3.2 ρ0) + (4) * ((c.e : ℂ)) * ((c.gs : ℂ)) * (ab z0.1 z2.1) * (sb z0.2 z3.2) * (sb z2.2 ρ0) + (-4) * ((c.e : ℂ)) * ((c.gs : ℂ)) * (mb ρ0 (p 1) z0.1) * (sb z0.2 z3.2)) * i8 + ((8) * ((c.e : ℂ)) * ((c.gs : ℂ)) * ((c.mass .u : ℂ)) * (ab z0.1 z2.1) * (sb z3.2 ρ0) + (4) * ((c.e : ℂ)) * ((c.gs : ℂ)) * (ab z0.1 z2.1) * (ab z0.1 z3.1) * (sb z0.2 ρ0) + (-4) * ((c.e : ℂ)) * ((c.gs : ℂ)) * (ab z0.1 z2.1) * (ab z2.1 z3.1) * (sb z2.2 ρ0) + (-4) * ((c.e : ℂ)) * ((c.gs : ℂ)) * (ab z0.1 z3.1) * (mb ρ0 (p 1) z2.1)) * i9 + ((-4) * ((c.e : ℂ)) * ((c.gs : ℂ)) * ((c.mass .u : ℂ)) * (ab z0.1 z2.1) ^ 2 * (sb z2.2 z3.2) + (4) * ((c.e : ℂ)) * ((c.gs : ℂ)) * ((c.mass .u : ℂ)) ^ 2 * (ab z0.1 z2.1) * (ab z0.1 z3.1) + (4) * ((c.e : ℂ)) * ((c.gs : ℂ)) * (ab z0.1 z2.1) * (ab z2.1 z3.1) * (mb z2.2 (p 1) z0.1)) * i10 + ((4) * ((c.e : ℂ)) * ((c.gs : ℂ)) * ((c.mass .u : ℂ)) * (ab z0.1 z2.1) ^ 2 * (sb z1.2 ρ0) + (-4) * ((c.e : ℂ)) * ((c.gs : ℂ)) * (ab z0.1 z1.1) * (ab z0.1 z2.1) * (mb ρ0 (p 1) z2.1) + (-4) * ((c.e : ℂ)) * ((c.gs : ℂ)) * (ab z0.1 z2.1) * (ab z1.1 z2.1) * (mb ρ0 (p 1) z0.1)) * i11 + ((4) * ((c.e : ℂ)) * ((c.gs : ℂ)) * ((c.mass .u : ℂ)) * (ab z0.1 z2.1) ^ 2 * (sb z3.2 ρ2)) * i12 + ((-4) * ((c.e : ℂ)) * ((c.gs : ℂ)) * (ab z0.1 z2.1) * (sb z0.2 z1.2) * (sb ρ0 ρ2)) * i13 + ((4) * ((c.e : ℂ)) * ((c.gs : ℂ)) * (ab z0.1 z2.1) * (sb z0.2 ρ0) * (sb z3.2 ρ2) + (-4) * ((c.e : ℂ)) * ((c.gs : ℂ)) * (mb ρ0 (p 1) z2.1) * (sb z3.2 ρ2) + (4) * ((c.e : ℂ)) * ((c.gs : ℂ)) * (mb ρ2 (p 1) z2.1) * (sb z3.2 ρ0)) * i14 + ((-4) * ((c.e : ℂ)) * ((c.gs : ℂ)) * ((c.mass .u : ℂ)) ^ 2 * (ab z0.1 z1.1) * (ab z0.1 z2.1) + (4) * ((c.e : ℂ)) * ((c.gs : ℂ)) * (N.c 0) * (ab z0.1 z1.1) * (ab z0.1 z2.1)) * i15 + ((4) * ((c.e : ℂ)) * ((c.gs : ℂ)) * (ab z0.1 z2.1) * (sb z0.2 ρ0) * (sb z1.2 ρ2)) * i16 + ((4) * ((c.e : ℂ)) * ((c.gs : ℂ)) * (mb ρ0 (p 1) z2.1) * (sb z3.2 ρ2) + (-4) * ((c.e : ℂ)) * ((c.gs : ℂ)) * (mb ρ2 (p 1) z2.1) * (sb z3.2 ρ0)) * i17 + ((4) * ((c.e : ℂ)) * ((c.gs : ℂ)) * (ab z0.1 z1.1) * (ab z0.1 z2.1) * (mb ρ2 (p 1) z2.1) + (4) * ((c.e : ℂ)) * ((c.gs : ℂ)) * (ab z0.1 z2.1) * (ab z1.1 z2.1) * (mb ρ2 (p 1) z0.1)) * i18 + ((4) * ((c.e : ℂ)) * ((c.gs : ℂ)) * ((c.mass .u : ℂ)) * (ab z0.1 z2.1) * (sb ρ0 ρ2)) * i19 + ((-4) * ((c.e : ℂ)) * ((c.gs : ℂ)) * ((c.mass .u : ℂ)) * (N.c 0) * (ab z0.1 z2.1) + (4) * ((c.e : ℂ)) * ((c.gs : ℂ)) * ((c.mass .u : ℂ)) * (N.c 1) * (ab z0.1 z2.1)) * i20 + ((4) * ((c.e : ℂ)) * ((c.gs : ℂ)) * (ab z0.1 z1.1) * (ab z0.1 z2.1) * (sb z0.2 ρ0) + (-4) * ((c.e : ℂ)) * ((c.gs : ℂ)) * (ab z0.1 z1.1) * (mb ρ0 (p 1) z2.1)) * i21 + ((-4) * ((c.e : ℂ)) * ((c.gs : ℂ)) * (N.c 0) * (sb ρ0 ρ2) + (4) * ((c.e : ℂ)) * ((c.gs : ℂ)) * (mb ρ0 (p 1) z0.1) * (sb z0.2 ρ2) + (-4) * ((c.e : ℂ)) * ((c.gs : ℂ)) * (mb ρ2 (p 1) z0.1) * (sb z0.2 ρ0)) * i22 + ((-4) * ((c.e : ℂ)) * ((c.gs : ℂ)) * (ab z0.1 z2.1) * (sb z1.2 z2.2) * (sb ρ0 ρ2) + (-4) * ((c.e : ℂ)) * ((c.gs : ℂ)) * (mb ρ2 (p 1) z0.1) * (sb z1.2 ρ0)) * i23 + ((4) * ((c.e : ℂ)) * ((c.gs : ℂ)) * (ab z0.1 z2.1) * (sb z1.2 z2.2) * (sb ρ0 ρ2) + (4) * ((c.e : ℂ)) * ((c.gs : ℂ)) * (mb ρ2 (p 1) z0.1) * (sb z1.2 ρ0)) * i24 + ((4) * ((c.e : ℂ)) * ((c.gs : ℂ)) * (N.c 0) * (sb z1.2 ρ0) + (4) * ((c.e : ℂ)) * ((c.gs : ℂ)) * (mb ρ0 (p 1) z0.1) * (sb z0.2 z1.2)) * i25 + ((4) * ((c.e : ℂ)) * ((c.gs : ℂ)) * (ab z0.1 z2.1) * (ab z2.1 z3.1) * (sb z1.2 ρ0)) * i26 + ((4) * ((c.e : ℂ)) * ((c.gs : ℂ)) * ((c.mass .u : ℂ)) * (ab z0.1 z2.1) * (mb ρ0 (p 1) z0.1) + (-4) * ((c.e : ℂ)) * ((c.gs : ℂ)) * ((c.mass .u : ℂ)) * (ab z0.1 z2.1) ^ 2 * (sb z2.2 ρ0)) * i27 + ((4) * ((c.e : ℂ)) * ((c.gs : ℂ)) * ((c.mass .u : ℂ)) * (ab z0.1 z2.1) ^ 2 * (sb z1.2 z3.2)) * i28 + ((-4) * ((c.e : ℂ)) * ((c.gs : ℂ)) * ((c.mass .u : ℂ)) * (ab z0.1 z2.1) * (mb ρ2 (p 1) z0.1)) * i29 + ((-4) * ((c.e : ℂ)) * ((c.gs : ℂ)) * (ab z0.1 z1.1) * (ab z0.1 z2.1) * (sb z0.2 ρ2) + (4) * ((c.e : ℂ)) * ((c.gs : ℂ)) * (ab z0.1 z1.1) * (mb ρ2 (p 1) z2.1)) * i30 + ((4) * ((c.e : ℂ)) * ((c.gs : ℂ)) * (ab z0.1 z2.1) * (ab z1.1 z2.1) * (sb z3.2 ρ2)) * i31 + ((4) * ((c.e : ℂ)) * ((c.gs : ℂ)) * (N.c 0) * (ab z0.1 z2.1) * (ab z1.1 z2.1)) * i32 + ((4) * ((c.e : ℂ)) * ((c.gs : ℂ)) * ((c.mass .u : ℂ)) * (ab z0.1 z2.1) * (sb z0.2 ρ0)) * i33 + ((-4) * ((c.e : ℂ)) * ((c.gs : ℂ)) * ((c.mass .u : ℂ)) * (ab z0.1 z2.1) * (sb z0.2 ρ2)) * i34 + ((-4) * ((c.e : ℂ)) * ((c.gs : ℂ)) * (mb ρ2 (p 1) z0.1) * (sb z0.2 z1.2)) * i35 + ((4) * ((c.e : ℂ)) * ((c.gs : ℂ)) * (N.c 0) * (ab z0.1 z2.1) * (ab z2.1 z3.1)) * i36)) * ((1) * ((N.c 0)⁻¹) * ((N.c 1)⁻¹) / (3)) + ((-4) * ((c.e : ℂ)) * ((c.gs : ℂ)) * ((c.mass .u : ℂ)) * ((N.c 1)⁻¹) * (ab z0.1 z2.1) * (sb z1.2 ρ2) * (sb z3.2 ρ0) / (3) + (-4) * ((c.e : ℂ)) * ((c.gs : ℂ)) * ((c.mass .u : ℂ)) * ((N.c 1)⁻¹) * (ab z0.1 z3.1) * (ab z1.1 z2.1) * (sb ρ0 ρ2) / (3) + (-4) * ((c.e : ℂ)) * ((c.gs : ℂ)) * ((N.c 1)⁻¹) * (ab z0.1 z2.1) * (ab z1.1 z2.1) * (sb z2.2 ρ2) * (sb z3.2 ρ0) / (3) + (4) * ((c.e : ℂ)) * ((c.gs : ℂ)) * ((N.c 1)⁻¹) * (ab z0.1 z3.1) * (mb ρ0 (p 1) z2.1) * (sb z1.2 ρ2) / (3) + (4) * ((c.e : ℂ)) * ((c.gs : ℂ)) * ((N.c 1)⁻¹) * (ab z1.1 z2.1) * (mb ρ2 (p 1) z0.1) * (sb z3.2 ρ0) / (3)) * y0 + ((-4) * ((c.e : ℂ)) * ((c.gs : ℂ)) * ((c.mass .u : ℂ)) * ((N.c 0)⁻¹) * (ab z0.1 z1.1) * (ab z2.1 z3.1) * (sb ρ0 ρ2) / (3) + (4) * ((c.e : ℂ)) * ((c.gs : ℂ)) * ((c.mass .u : ℂ)) * ((N.c 0)⁻¹) * (ab z0.1 z2.1) * (sb z1.2 ρ0) * (sb z3.2 ρ2) / (3) + (4) * ((c.e : ℂ)) * ((c.gs : ℂ)) * ((N.c 0)⁻¹) * (ab z0.1 z1.1) * (ab z0.1 z2.1) * (sb z0.2 ρ0) * (sb z3.2 ρ2) / (3) + (-4) * ((c.e : ℂ)) * ((c.gs : ℂ)) * ((N.c 0)⁻¹) * (ab z0.1 z1.1) * (mb ρ0 (p 1) z2.1) * (sb z3.2 ρ2) / (3) + (4) * ((c.e : ℂ)) * ((c.gs : ℂ)) * ((N.c 0)⁻¹) * (ab z2.1 z3.1) * (mb ρ2 (p 1) z0.1) * (sb z1.2 ρ0) / (3)) * y1 + ((2) * ((c.e : ℂ)) * ((c.gs : ℂ)) * ((c.mass .u : ℂ)) * ((N.c 0)⁻¹) * (ab z0.1 z1.1) * (ab z2.1 z3.1) * (sb ρ0 ρ2) / (3) + (-2) * ((c.e : ℂ)) * ((c.gs : ℂ)) * ((c.mass .u : ℂ)) * ((N.c 0)⁻¹) * (ab z0.1 z2.1) * (sb z1.2 ρ0) * (sb z3.2 ρ2) / (3) + (2) * ((c.e : ℂ)) * ((c.gs : ℂ)) * ((c.mass .u : ℂ)) * ((N.c 1)⁻¹) * (ab z0.1 z2.1) * (sb z1.2 ρ2) * (sb z3.2 ρ0) / (3) + (2) * ((c.e : ℂ)) * ((c.gs : ℂ)) * ((c.mass .u : ℂ)) * ((N.c 1)⁻¹) * (ab z0.1 z3.1) * (ab z1.1 z2.1) * (sb ρ0 ρ2) / (3) + (-2) * ((c.e : ℂ)) * ((c.gs : ℂ)) * ((N.c 0)⁻¹) * (ab z0.1 z1.1) * (ab z0.1 z2.1) * (sb z0.2 ρ0) * (sb z3.2 ρ2) / (3) + (2) * ((c.e : ℂ)) * ((c.gs : ℂ)) * ((N.c 0)⁻¹) * (ab z0.1 z1.1) * (mb ρ0 (p 1) z2.1) * (sb z3.2 ρ2) / (3) + (-2) * ((c.e : ℂ)) * ((c.gs : ℂ)) * ((N.c 0)⁻¹) * (ab z2.1 z3.1) * (mb ρ2 (p 1) z0.1) * (sb z1.2 ρ0) / (3) + (2) * ((c.e : ℂ)) * ((c.gs : ℂ)) * ((N.c 1)⁻¹) * (ab z0.1 z2.1) * (ab z1.1 z2.1) * (sb z2.2 ρ2) * (sb z3.2 ρ0) / (3) + (-2) * ((c.e : ℂ)) * ((c.gs : ℂ)) * ((N.c 1)⁻¹) * (ab z0.1 z3.1) * (mb ρ0 (p 1) z2.1) * (sb z1.2 ρ2) / (3) + (-2) * ((c.e : ℂ)) * ((c.gs : ℂ)) * ((N.c 1)⁻¹) * (ab z1.1 z2.1) * (mb ρ2 (p 1) z0.1) * (sb z3.2 ρ0) / (3)) * x22
set_option maxRecDepth 8000 in
theorem guAu.amp2_eq (N : Env) (f : Nat → List Int → ℂ) : Cls.guAu.m_amp2.mean N f .r [] =
    ((sumW (fun x a => (sumJ (fun x b => (sumW (fun x c => (sumJ (fun x d => (x + (((4 : Nat) : ℝ) * (‖(f 0 [a, b, c, d])‖ ^ 2)))) x)) x)) x)) ((0 : Nat) : ℝ)) / ((96 : Nat) : ℝ)) := by rfl
set_option maxRecDepth 8000 in
theorem guAu.value (N : Env) : meaning N .r Cls.guAu.methods Cls.guAu.amp2 [] =
    ((sumW (fun x a => (sumJ (fun x b => (sumW (fun x c => (sumJ (fun x d => (x + (((4 : Nat) : ℝ) * (‖(Cls.guAu.m_amp.mean N (callMean N []) .c [a, b, c, d])‖ ^ 2)))) x)) x)) x)) ((0 : Nat) : ℝ)) / ((96 : Nat) : ℝ)) :=
  guAu.amp2_eq N (callMean N [Cls.guAu.m_amp])
set_option maxRecDepth 8000 in
theorem guAu.ampPP (N : Env) (f : Nat → List Int → ℂ) (j2 j4 : Int) : Cls.guAu.m_amp.mean N f .c [2, j2, 2, j4] = guAu.termPP N j2 j4 := by rfl
set_option maxRecDepth 8000 in
theorem guAu.ampPM (N : Env) (f : Nat → List Int → ℂ) (j2 j4 : Int) : Cls.guAu.m_amp.mean N f .c [2, j2, (-2), j4] = guAu.termPM N j2 j4 := by rfl
set_option maxRecDepth 8000 in
theorem guAu.ampMP (N : Env) (f : Nat → List Int → ℂ) (j2 j4 : Int) : Cls.guAu.m_amp.mean N f .c [(-2), j2, 2, j4] = guAu.termMP N j2 j4 := by rfl
set_option maxRecDepth 8000 in
theorem guAu.ampMM (N : Env) (f : Nat → List Int → ℂ) (j2 j4 : Int) : Cls.guAu.m_amp.mean N f .c [(-2), j2, (-2), j4] = guAu.termMM N j2 j4 := by rfl

theorem guAu.mass_eq {c : Constants} (hc : c.Physical) (i : Fin 4) : guAu.proc.massNum (guAu.rho c) i = guAu.react.mass c i := by
  fin_cases i <;> first | rfl | exact Nat.cast_zero | exact Nat.cast_zero.trans (hc.neutrino _).symm | (show c.MW / √(((1 : Nat) : ℝ) - c.SW * c.SW) = c.MZ; rw [c.root, c.mz])

variable [FPEnv] in
theorem guAu.amps {c : Constants} {p : Nat → V4 ℝ} {u : Fin 4 → Fin 3 → Spinor} {ε : Fin 4 → Fin 3 → Vec} (hc : c.Physical) (hh : c.Heavy) (h0 : ∀ i, 0 ≤ guAu.react.mass c i) (hs : ∀ i : Fin 4, OnShell (p i) (guAu.react.mass c i)) (hb : Balanced p) (hr : guAu.react.Regular c p) (hu : ∀ i, guAu.react.Complete c p i (u i) (ε i)) :
    (guAu.N c p).c 0 ≠ 0 ∧ (guAu.N c p).c 1 ≠ 0 ∧ (∀ n, (Ty.r, n) ∈ guAu.proc.divides → (guAu.N c p).r n ≠ 0) ∧ (∀ n, (Ty.c, n) ∈ guAu.proc.divides → (guAu.N c p).c n ≠ 0) ∧ ∀ (s1 : Fin 2) (s3 : Fin 2) (h0 : Fin 2) (h2 : Fin 2), ‖Cls.guAu.m_amp.mean (guAu.N c p) (callMean (guAu.N c p) []) .c [spinW h0, spinOf s1, spinW h2, spinOf s3]‖ = ‖guAu.react.bare c p 3 1 0 2 (guAu.react.codePair c p 3 s3) (guAu.react.codePair c p 1 s1) (lightE (legA (p 0) 0 0, legS (p 0) 0 1) h0.castSucc) (lightE (legA (p 2) 0 0, legS (p 2) 0 1) h2.castSucc)‖ := by
  have he : guAu.react.ends = [3] := by decide
  have ht : guAu.react.starts = [1] := by decide
  have hB : guAu.react.bosons = [0, 2] := by decide
  obtain ⟨f1, f2, f3⟩ := guAu.react.regular_line he ht hB hr
  have r0 : (guAu.N c p).r 0 = c.e := rfl
  have r1 : (guAu.N c p).r 1 = (((2 : Nat) : ℝ) / ((3 : Nat) : ℝ)) := rfl
  have r2 : (guAu.N c p).r 2 = c.gs := rfl
  have r3 : (guAu.N c p).r 3 = (c.mass .u) := rfl
  have c0 : (guAu.N c p).c 0 = poleDist (c.mass .u) ((0 : Nat) : ℝ) ((VExp.add 0 1).sum p) := rfl
  rw [Nat.cast_zero, pole_fermion rfl] at c0
  have d0 : ((msq (plus (p 1) (p 0)) - c.mass .u ^ 2 : ℝ) : ℂ) = (guAu.N c p).c 0 := by rw [c0, msq_s hb (plus (p 1) (p 0)) (by simp)]
  have n0 : (guAu.N c p).c 0 ≠ 0 := by rw [← d0]; exact_mod_cast f1 .u rfl rfl
  have c1 : (guAu.N c p).c 1 = poleDist (c.mass .u) ((0 : Nat) : ℝ) ((VExp.sub 0 3).sum p) := rfl
  rw [Nat.cast_zero, pole_fermion rfl] at c1
  have d1 : ((msq (plus (p 1) (backward (p 2))) - c.mass .u ^ 2 : ℝ) : ℂ) = (guAu.N c p).c 1 := by rw [c1, msq_u hb (plus (p 1) (backward (p 2))) (by simp)]
  have n1 : (guAu.N c p).c 1 ≠ 0 := by rw [← d1]; exact_mod_cast f2 .u rfl rfl
  obtain ⟨l0, x0, y0⟩ := guAu.react.code_light hs hu (n := 0) rfl rfl
  obtain ⟨l2, x2, y2⟩ := guAu.react.code_light hs hu (n := 2) rfl rfl
  have e01 := l0.pole_add (m := (c.mass .u)) (onShell_msq (hs 1)) (msq_s hb (plus (p 0) (p 1)) (by simp)) c0
  have e03 := l0.pole_sub (m := (c.mass .u)) (onShell_msq (hs 3)) (msq_u hb (plus (p 0) (backward (p 3))) (by simp)) c1
  have e21 := l2.pole_sub' (m := (c.mass .u)) (onShell_msq (hs 1)) (msq_u hb (plus (p 1) (backward (p 2))) (by simp)) c1
  have e23 := l2.pole_add (m := (c.mass .u)) (onShell_msq (hs 3)) (msq_s hb (plus (p 2) (p 3)) (by simp)) c0
  have m1 : guAu.react.mass c 1 ≠ 0 := (leg_pos hc hh (by decide)).ne'
  have m3 : guAu.react.mass c 3 ≠ 0 := (leg_pos hc hh (by decide)).ne'
  have m0 : guAu.react.mass c 0 = 0 := rfl
  have m2 : guAu.react.mass c 2 = 0 := rfl
  have hd : guAu.proc.divides = [(Ty.c, 1), (Ty.c, 0)] := by decide +kernel
  have stPP : ∀ {z1 z3 : Pair} (b1 : Bold (p 1) (guAu.react.mass c 1) z1) (b3 : Bold (p 3) (guAu.react.mass c 3) z3), guAu.formPP (guAu.N c p) p (legA (p 0) 0 0, legS (p 0) 0 1) z1 (legA (p 2) 0 0, legS (p 2) 0 1) z3 = 1 * guAu.react.bare c p 3 1 0 2 z3 z1 (lightE (legA (p 0) 0 0, legS (p 0) 0 1) 1) (lightE (legA (p 2) 0 0, legS (p 2) 0 1) 1) := by
    intro z1 z3 b1 b3
    exact (light_plus (z := (legA (p 0) 0 0, legS (p 0) 0 1)) (G := fun E => guAu.react.bare c p 3 1 0 2 z3 z1 E (lightE (legA (p 2) 0 0, legS (p 2) 0 1) 1)) (guAu.react.bare_lin₁ c p _ _ _ (by decide)) x0 (light_plus (z := (legA (p 2) 0 0, legS (p 2) 0 1)) (G := fun E => guAu.react.bare c p 3 1 0 2 z3 z1 (pv (legA (p 0) 0 0, legS (p 0) 0 1).2 (legA (p 0) 0 0, legS (p 0) 0 1).2) E) (guAu.react.bare_lin₂ c p _ _ _ (by decide)) x2 (guAu.keyPP hc hb r0 r1 r2 r3 d0 n0 d1 n1 b1 b3 l0 l2 e01 e03 e21 e23 (onShell_msq (hs 1)) (onShell_msq (hs 3)) _ _)))
  have stPM : ∀ {z1 z3 : Pair} (b1 : Bold (p 1) (guAu.react.mass c 1) z1) (b3 : Bold (p 3) (guAu.react.mass c 3) z3), guAu.formPM (guAu.N c p) p (legA (p 0) 0 0, legS (p 0) 0 1) z1 (legA (p 2) 0 0, legS (p 2) 0 1) z3 = (-1) * guAu.react.bare c p 3 1 0 2 z3 z1 (lightE (legA (p 0) 0 0, legS (p 0) 0 1) 1) (lightE (legA (p 2) 0 0, legS (p 2) 0 1) 0) := by
    intro z1 z3 b1 b3
    exact (light_plus (z := (legA (p 0) 0 0, legS (p 0) 0 1)) (G := fun E => guAu.react.bare c p 3 1 0 2 z3 z1 E (lightE (legA (p 2) 0 0, legS (p 2) 0 1) 0)) (guAu.react.bare_lin₁ c p _ _ _ (by decide)) x0 (light_minus (z := (legA (p 2) 0 0, legS (p 2) 0 1)) (G := fun E => guAu.react.bare c p 3 1 0 2 z3 z1 (pv (legA (p 0) 0 0, legS (p 0) 0 1).2 (legA (p 0) 0 0, legS (p 0) 0 1).2) E) (guAu.react.bare_lin₂ c p _ _ _ (by decide)) y2 (guAu.keyPM hc hb r0 r1 r2 d0 n0 d1 n1 b1 b3 l0 l2 e01 e03 e21 e23 (onShell_msq (hs 1)) (onShell_msq (hs 3)) _ _)))
  have stMP : ∀ {z1 z3 : Pair} (b1 : Bold (p 1) (guAu.react.mass c 1) z1) (b3 : Bold (p 3) (guAu.react.mass c 3) z3), guAu.formMP (guAu.N c p) p (legA (p 0) 0 0, legS (p 0) 0 1) z1 (legA (p 2) 0 0, legS (p 2) 0 1) z3 = (-1) * guAu.react.bare c p 3 1 0 2 z3 z1 (lightE (legA (p 0) 0 0, legS (p 0) 0 1) 0) (lightE (legA (p 2) 0 0, legS (p 2) 0 1) 1) := by
    intro z1 z3 b1 b3
    exact (light_minus (z := (legA (p 0) 0 0, legS (p 0) 0 1)) (G := fun E => guAu.react.bare c p 3 1 0 2 z3 z1 E (lightE (legA (p 2) 0 0, legS (p 2) 0 1) 1)) (guAu.react.bare_lin₁ c p _ _ _ (by decide)) y0 (light_plus (z := (legA (p 2) 0 0, legS (p 2) 0 1)) (G := fun E => guAu.react.bare c p 3 1 0 2 z3 z1 (pv (legA (p 0) 0 0, legS (p 0) 0 1).1 (legA (p 0) 0 0, legS (p 0) 0 1).1) E) (guAu.react.bare_lin₂ c p _ _ _ (by decide)) x2 (guAu.keyMP hc hb r0 r1 r2 d0 n0 d1 n1 b1 b3 l0 l2 e01 e03 e21 e23 (onShell_msq (hs 1)) (onShell_msq (hs 3)) _ _)))
  have stMM : ∀ {z1 z3 : Pair} (b1 : Bold (p 1) (guAu.react.mass c 1) z1) (b3 : Bold (p 3) (guAu.react.mass c 3) z3), guAu.formMM (guAu.N c p) p (legA (p 0) 0 0, legS (p 0) 0 1) z1 (legA (p 2) 0 0, legS (p 2) 0 1) z3 = 1 * guAu.react.bare c p 3 1 0 2 z3 z1 (lightE (legA (p 0) 0 0, legS (p 0) 0 1) 0) (lightE (legA (p 2) 0 0, legS (p 2) 0 1) 0) := by
    intro z1 z3 b1 b3
    exact (light_minus (z := (legA (p 0) 0 0, legS (p 0) 0 1)) (G := fun E => guAu.react.bare c p 3 1 0 2 z3 z1 E (lightE (legA (p 2) 0 0, legS (p 2) 0 1) 0)) (guAu.react.bare_lin₁ c p _ _ _ (by decide)) y0 (light_minus (z := (legA (p 2) 0 0, legS (p 2) 0 1)) (G := fun E => guAu.react.bare c p 3 1 0 2 z3 z1 (pv (legA (p 0) 0 0, legS (p 0) 0 1).1 (legA (p 0) 0 0, legS (p 0) 0 1).1) E) (guAu.react.bare_lin₂ c p _ _ _ (by decide)) y2 (guAu.keyMM hc hb r0 r1 r2 r3 d0 n0 d1 n1 b1 b3 l0 l2 e01 e03 e21 e23 (onShell_msq (hs 1)) (onShell_msq (hs 3)) _ _)))
  have amPP : ∀ (s1 : Fin 2) (s3 : Fin 2), Cls.guAu.m_amp.mean (guAu.N c p) (callMean (guAu.N c p) []) .c [2, spinOf s1, 2, spinOf s3] = 1 * guAu.react.bare c p 3 1 0 2 (guAu.react.codePair c p 3 s3) (guAu.react.codePair c p 1 s1) (lightE (legA (p 0) 0 0, legS (p 0) 0 1) 1) (lightE (legA (p 2) 0 0, legS (p 2) 0 1) 1) := by
    intro s1 s3
    rw [guAu.ampPP, ← stPP (guAu.react.codePair_bold hs h0 1 s1) (guAu.react.codePair_bold hs h0 3 s3)]
    have v4z0z2 : (guAu.N c p).v 4 [] = sb (legA (p 0) 0 0, legS (p 0) 0 1).2 (legA (p 2) 0 0, legS (p 2) 0 1).2 := bra_square (p := p) (m := guAu.proc.massNum (guAu.rho c)) (guAu.mass_eq hc 0) (guAu.mass_eq hc 2) (.inr ⟨m0, rfl⟩) (.inr ⟨m2, rfl⟩)
    have v7z1z3 : (guAu.N c p).v 7 [spinOf s1, spinOf s3] = ab (guAu.react.codePair c p 1 s1).1 (guAu.react.codePair c p 3 s3).1 := bra_angle (p := p) (m := guAu.proc.massNum (guAu.rho c)) (guAu.mass_eq hc 1) (guAu.mass_eq hc 3) (.inl ⟨m1, rfl⟩) (.inl ⟨m3, rfl⟩)
    simp only [guAu.termPP, guAu.formPP, v4z0z2, v7z1z3]
  have amPM : ∀ (s1 : Fin 2) (s3 : Fin 2), Cls.guAu.m_amp.mean (guAu.N c p) (callMean (guAu.N c p) []) .c [2, spinOf s1, (-2), spinOf s3] = (-1) * guAu.react.bare c p 3 1 0 2 (guAu.react.codePair c p 3 s3) (guAu.react.codePair c p 1 s1) (lightE (legA (p 0) 0 0, legS (p 0) 0 1) 1) (lightE (legA (p 2) 0 0, legS (p 2) 0 1) 0) := by
    intro s1 s3
    rw [guAu.ampPM, ← stPM (guAu.react.codePair_bold hs h0 1 s1) (guAu.react.codePair_bold hs h0 3 s3)]
    have v10z0z3 : (guAu.N c p).v 10 [spinOf s3] = sb (legA (p 0) 0 0, legS (p 0) 0 1).2 (guAu.react.codePair c p 3 s3).2 := bra_square (p := p) (m := guAu.proc.massNum (guAu.rho c)) (guAu.mass_eq hc 0) (guAu.mass_eq hc 3) (.inr ⟨m0, rfl⟩) (.inl ⟨m3, rfl⟩)
    have v9z1z2 : (guAu.N c p).v 9 [spinOf s1] = ab (guAu.react.codePair c p 1 s1).1 (legA (p 2) 0 0, legS (p 2) 0 1).1 := bra_angle (p := p) (m := guAu.proc.massNum (guAu.rho c)) (guAu.mass_eq hc 1) (guAu.mass_eq hc 2) (.inl ⟨m1, rfl⟩) (.inr ⟨m2, rfl⟩)
    have v2z0z1 : (guAu.N c p).v 2 [spinOf s1] = sb (legA (p 0) 0 0, legS (p 0) 0 1).2 (guAu.react.codePair c p 1 s1).2 := bra_square (p := p) (m := guAu.proc.massNum (guAu.rho c)) (guAu.mass_eq hc 0) (guAu.mass_eq hc 1) (.inr ⟨m0, rfl⟩) (.inl ⟨m1, rfl⟩)
    have v1z2z3 : (guAu.N c p).v 1 [spinOf s3] = ab (legA (p 2) 0 0, legS (p 2) 0 1).1 (guAu.react.codePair c p 3 s3).1 := bra_angle (p := p) (m := guAu.proc.massNum (guAu.rho c)) (guAu.mass_eq hc 2) (guAu.mass_eq hc 3) (.inr ⟨m2, rfl⟩) (.inl ⟨m3, rfl⟩)
    have v12z0z2 : (guAu.N c p).v 12 [] = mb (legA (p 0) 0 0, legS (p 0) 0 1).2 (p 3) (legA (p 2) 0 0, legS (p 2) 0 1).1 := bra_mid_square (p := p) (m := guAu.proc.massNum (guAu.rho c)) (guAu.mass_eq hc 0) (guAu.mass_eq hc 2) (.inr ⟨m0, rfl⟩) (.inr ⟨m2, rfl⟩)
    simp only [guAu.termPM, guAu.formPM, v10z0z3, v9z1z2, v2z0z1, v1z2z3, v12z0z2]
  have amMP : ∀ (s1 : Fin 2) (s3 : Fin 2), Cls.guAu.m_amp.mean (guAu.N c p) (callMean (guAu.N c p) []) .c [(-2), spinOf s1, 2, spinOf s3] = (-1) * guAu.react.bare c p 3 1 0 2 (guAu.react.codePair c p 3 s3) (guAu.react.codePair c p 1 s1) (lightE (legA (p 0) 0 0, legS (p 0) 0 1) 0) (lightE (legA (p 2) 0 0, legS (p 2) 0 1) 1) := by
    intro s1 s3
    rw [guAu.ampMP, ← stMP (guAu.react.codePair_bold hs h0 1 s1) (guAu.react.codePair_bold hs h0 3 s3)]
    have v11z0z3 : (guAu.N c p).v 11 [spinOf s3] = ab (legA (p 0) 0 0, legS (p 0) 0 1).1 (guAu.react.codePair c p 3 s3).1 := bra_angle (p := p) (m := guAu.proc.massNum (guAu.rho c)) (guAu.mass_eq hc 0) (guAu.mass_eq hc 3) (.inr ⟨m0, rfl⟩) (.inl ⟨m3, rfl⟩)
    have v8z1z2 : (guAu.N c p).v 8 [spinOf s1] = sb (guAu.react.codePair c p 1 s1).2 (legA (p 2) 0 0, legS (p 2) 0 1).2 := bra_square (p := p) (m := guAu.proc.massNum (guAu.rho c)) (guAu.mass_eq hc 1) (guAu.mass_eq hc 2) (.inl ⟨m1, rfl⟩) (.inr ⟨m2, rfl⟩)
    have v3z0z1 : (guAu.N c p).v 3 [spinOf s1] = ab (legA (p 0) 0 0, legS (p 0) 0 1).1 (guAu.react.codePair c p 1 s1).1 := bra_angle (p := p) (m := guAu.proc.massNum (guAu.rho c)) (guAu.mass_eq hc 0) (guAu.mass_eq hc 1) (.inr ⟨m0, rfl⟩) (.inl ⟨m1, rfl⟩)
    have v0z2z3 : (guAu.N c p).v 0 [spinOf s3] = sb (legA (p 2) 0 0, legS (p 2) 0 1).2 (guAu.react.codePair c p 3 s3).2 := bra_square (p := p) (m := guAu.proc.massNum (guAu.rho c)) (guAu.mass_eq hc 2) (guAu.mass_eq hc 3) (.inr ⟨m2, rfl⟩) (.inl ⟨m3, rfl⟩)
    have v13z2z0 : (guAu.N c p).v 13 [] = mb (legA (p 2) 0 0, legS (p 2) 0 1).2 (p 3) (legA (p 0) 0 0, legS (p 0) 0 1).1 := bra_mid_square (p := p) (m := guAu.proc.massNum (guAu.rho c)) (guAu.mass_eq hc 2) (guAu.mass_eq hc 0) (.inr ⟨m2, rfl⟩) (.inr ⟨m0, rfl⟩)
    simp only [guAu.termMP, guAu.formMP, v11z0z3, v8z1z2, v3z0z1, v0z2z3, v13z2z0]
  have amMM : ∀ (s1 : Fin 2) (s3 : Fin 2), Cls.guAu.m_amp.mean (guAu.N c p) (callMean (guAu.N c p) []) .c [(-2), spinOf s1, (-2), spinOf s3] = 1 * guAu.react.bare c p 3 1 0 2 (guAu.react.codePair c p 3 s3) (guAu.react.codePair c p 1 s1) (lightE (legA (p 0) 0 0, legS (p 0) 0 1) 0) (lightE (legA (p 2) 0 0, legS (p 2) 0 1) 0) := by
    intro s1 s3
    rw [guAu.ampMM, ← stMM (guAu.react.codePair_bold hs h0 1 s1) (guAu.react.codePair_bold hs h0 3 s3)]
    have v5z0z2 : (guAu.N c p).v 5 [] = ab (legA (p 0) 0 0, legS (p 0) 0 1).1 (legA (p 2) 0 0, legS (p 2) 0 1).1 := bra_angle (p := p) (m := guAu.proc.massNum (guAu.rho c)) (guAu.mass_eq hc 0) (guAu.mass_eq hc 2) (.inr ⟨m0, rfl⟩) (.inr ⟨m2, rfl⟩)
    have v6z1z3 : (guAu.N c p).v 6 [spinOf s1, spinOf s3] = sb (guAu.react.codePair c p 1 s1).2 (guAu.react.codePair c p 3 s3).2 := bra_square (p := p) (m := guAu.proc.massNum (guAu.rho c)) (guAu.mass_eq hc 1) (guAu.mass_eq hc 3) (.inl ⟨m1, rfl⟩) (.inl ⟨m3, rfl⟩)
    simp only [guAu.termMM, guAu.formMM, v5z0z2, v6z1z3]
  refine ⟨n0, n1, fun n hn => ?_, fun n hn => ?_, ?_⟩
  · simp [hd] at hn
  · simp [hd] at hn
    rcases hn with rfl | rfl
    · exact n1
    · exact n0
  intro s1 s3 h0 h2
  match h0, h2 with
  | 1, 1 => exact norm_plus (amPP s1 s3)
  | 1, 0 => exact norm_minus (amPM s1 s3)
  | 0, 1 => exact norm_minus (amMP s1 s3)
  | 0, 0 => exact norm_plus (amMM s1 s3)

variable [FPEnv] in
theorem guAu.agrees : guAu.Agrees := by
  refine agrees_of (D := []) (E := []) (by simp [all, guAu]) (by decide +kernel) (by decide) (by decide +kernel) (fun c hc hh => ⟨List.forall_mem_nil _, List.forall_mem_nil _⟩) (fun c hc i => guAu.mass_eq hc i) (by decide +kernel) ?_
  intro c p u ε hc hh hw h0 hs hb hr hu
  have he : guAu.react.ends = [3] := by decide
  have ht : guAu.react.starts = [1] := by decide
  have hB : guAu.react.bosons = [0, 2] := by decide
  obtain ⟨n0, n1, d1, d2, am⟩ := guAu.amps hc hh h0 hs hb hr hu
  refine ⟨d1, d2, ?_⟩
  show meaning (guAu.N c p) .r Cls.guAu.methods Cls.guAu.amp2 [] = _
  have s0 : guAu.react.states 0 = 16 := by decide +kernel
  have s1 : guAu.react.states 1 = 6 := by decide +kernel
  have sy : guAu.react.symmetry = 1 := by decide
  have p0 : guAu.react.spins 0 = {0, 1} := rfl
  have p1 : guAu.react.spins 1 = {0, 1} := rfl
  have p2 : guAu.react.spins 2 = {0, 1} := rfl
  have p3 : guAu.react.spins 3 = {0, 1} := rfl
  have E0 : guAu.react.codeE c p 0 = lightE (legA (p 0) 0 0, legS (p 0) 0 1) := rfl
  have E2 : guAu.react.codeE c p 2 = lightE (legA (p 2) 0 0, legS (p 2) 0 1) := rfl
  have hG : guAu.react.Gauge c p := (guAu.react.gauge_line he ht hB hh (by decide) (fun n => onShell_msq (hs n)) hb hr (fun n m h h2 => absurd (And.intro h h2) (by revert n m; decide)) (fun _ => ⟨rfl, rfl⟩) (fun _ => ⟨rfl, rfl⟩))
  rw [guAu.value, guAu.react.squared_gluon 0 he ht hB (by decide) (by decide +kernel) (by decide +kernel) hs h0 (fun _ b _ hb _ => (boson_pos hc hh hb).ne') hG (E := guAu.react.codeE c p) (fun n b hl => guAu.react.codeE_polarised hs h0 hu (fun b hb => (boson_pos hc hh hb).ne') n b hl) hu, sum_colours, s0, s1, sy]
  simp only [sumV_sum, sumJ_sum, sumW_sum, am, p0, p1, p2, p3, E0, E2, Finset.sum_singleton, sum_two, Matrix.cons_val_zero, Matrix.cons_val_one, Matrix.cons_val, two_castSucc]
  try simp only [← Finset.mul_sum]
  push_cast
  first | ring1 | ring_nf

end Spinas.SM.Rows
