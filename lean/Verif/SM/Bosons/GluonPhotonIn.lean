import Verif.SM.LightRows
import Verif.SM.GluonLine

/-! A gluon and a photon become quarks. Generated by tools/bosons/lemit.py: for each class its amplitude at given helicities as a formula in spinors, and the proof that `amp2` is the squared amplitude of the Feynman rules. -/

set_option linter.unusedSimpArgs false
set_option linter.unusedVariables false
set_option linter.unreachableTactic false
set_option linter.unusedTactic false

namespace Spinas.SM.Rows
open Spec Spec.Reaction Props XR Matrix BRow

/-! ### gAdd -/

/-- what the methods of the class see -/
noncomputable abbrev gAdd.N [FPEnv] (c : Constants) (p : Nat → V4 ℝ) : Env := gAdd.proc.env (gAdd.rho c) p
/-- `amp` for a gluon of positive helicity and a photon of positive helicity (SM/gAdd.cpp) -/
noncomputable def gAdd.termPP (N : Env) (j3 j4 : Int) : ℂ :=
  (((((((((((((2 : Nat) : ℝ) * N.r 0) * N.r 1) * N.r 2) * N.r 3) : ℝ) : ℂ) * N.v 2 []) * N.v 2 []) * N.v 1 [j3, j4]) / N.c 0) / N.c 1)
/-- the same with spinors in place of their spins -/
noncomputable def gAdd.formPP (N : Env) (p : Nat → V4 ℝ) (z0 z1 z2 z3 : Pair) : ℂ :=
  (((((((((((((2 : Nat) : ℝ) * N.r 0) * N.r 1) * N.r 2) * N.r 3) : ℝ) : ℂ) * (sb z0.2 z1.2)) * (sb z0.2 z1.2)) * (ab z2.1 z3.1)) / N.c 0) / N.c 1)
/-- `amp` for a gluon of positive helicity and a photon of negative helicity (SM/gAdd.cpp) -/
noncomputable def gAdd.termPM (N : Env) (j3 j4 : Int) : ℂ :=
  ((((((((((-((2 : Nat) : ℝ)) * N.r 0) * N.r 1) * N.r 2) : ℝ) : ℂ) * ((N.v 4 [j3] * N.v 7 [j4]) + (N.v 10 [j4] * N.v 9 [j3]))) * N.v 12 []) / N.c 0) / N.c 1)
/-- the same with spinors in place of their spins -/
noncomputable def gAdd.formPM (N : Env) (p : Nat → V4 ℝ) (z0 z1 z2 z3 : Pair) : ℂ :=
  ((((((((((-((2 : Nat) : ℝ)) * N.r 0) * N.r 1) * N.r 2) : ℝ) : ℂ) * (((sb z0.2 z2.2) * (ab z1.1 z3.1)) + ((sb z0.2 z3.2) * (ab z1.1 z2.1)))) * (mb z0.2 (p 2) z1.1)) / N.c 0) / N.c 1)
/-- `amp` for a gluon of negative helicity and a photon of positive helicity (SM/gAdd.cpp) -/
noncomputable def gAdd.termMP (N : Env) (j3 j4 : Int) : ℂ :=
  ((((((((((-((2 : Nat) : ℝ)) * N.r 0) * N.r 1) * N.r 2) : ℝ) : ℂ) * ((N.v 5 [j3] * N.v 6 [j4]) + (N.v 11 [j4] * N.v 8 [j3]))) * N.v 13 []) / N.c 0) / N.c 1)
/-- the same with spinors in place of their spins -/
noncomputable def gAdd.formMP (N : Env) (p : Nat → V4 ℝ) (z0 z1 z2 z3 : Pair) : ℂ :=
  ((((((((((-((2 : Nat) : ℝ)) * N.r 0) * N.r 1) * N.r 2) : ℝ) : ℂ) * (((ab z0.1 z2.1) * (sb z1.2 z3.2)) + ((ab z0.1 z3.1) * (sb z1.2 z2.2)))) * (mb z1.2 (p 2) z0.1)) / N.c 0) / N.c 1)
/-- `amp` for a gluon of negative helicity and a photon of negative helicity (SM/gAdd.cpp) -/
noncomputable def gAdd.termMM (N : Env) (j3 j4 : Int) : ℂ :=
  (((((((((((((2 : Nat) : ℝ) * N.r 0) * N.r 1) * N.r 2) * N.r 3) : ℝ) : ℂ) * N.v 3 []) * N.v 3 []) * N.v 0 [j3, j4]) / N.c 0) / N.c 1)
/-- the same with spinors in place of their spins -/
noncomputable def gAdd.formMM (N : Env) (p : Nat → V4 ℝ) (z0 z1 z2 z3 : Pair) : ℂ :=
  (((((((((((((2 : Nat) : ℝ) * N.r 0) * N.r 1) * N.r 2) * N.r 3) : ℝ) : ℂ) * (ab z0.1 z1.1)) * (ab z0.1 z1.1)) * (sb z2.2 z3.2)) / N.c 0) / N.c 1)
theorem gAdd.keyPP {c : Constants} {p : Nat → V4 ℝ} {N : Env} (hc : c.Physical) (hb : Balanced p) (r0 : N.r 0 = c.e) (r1 : N.r 1 = ((-((1 : Nat) : ℝ)) / ((3 : Nat) : ℝ))) (r2 : N.r 2 = c.gs) (r3 : N.r 3 = (c.mass .d)) (d0 : ((msq (plus (backward (p 3)) (p 1)) - c.mass .d ^ 2 : ℝ) : ℂ) = N.c 0) (n0 : N.c 0 ≠ 0) (d1 : ((msq (plus (backward (p 3)) (p 0)) - c.mass .d ^ 2 : ℝ) : ℂ) = N.c 1) (n1 : N.c 1 ≠ 0) {z0 z1 z2 z3 : Pair} (b2 : Bold (p 2) (c.mass .d) z2) (b3 : Bold (p 3) (c.mass .d) z3) (l0 : Light (p 0) z0) (l1 : Light (p 1) z1) (e02 : mb z0.2 (p 2) z0.1 = -N.c 0) (e03 : mb z0.2 (p 3) z0.1 = -N.c 1) (e12 : mb z1.2 (p 2) z1.1 = -N.c 1) (e13 : mb z1.2 (p 3) z1.1 = -N.c 0) (q2 : msq (p 2) = (c.mass .d) ^ 2) (q3 : msq (p 3) = (c.mass .d) ^ 2) (ρ0 ρ1 : V2) :
    gAdd.formPP N p z0 z1 z2 z3 * ab ρ0 z0.1 * ab ρ1 z1.1 = ((√2 : ℝ) * ((√2 : ℝ) * (1 : ℂ))) * gAdd.react.bare c p 2 3 0 1 z2 z3 (pv ρ0 z0.2) (pv ρ1 z1.2) := by
  rw [gAdd.react.bare_parts c p (i := 2) (j := 3) (a := 0) (b := 1) (x := .gluon) (y := .photon) (k := (p 0)) (k' := (p 1)) (fun _ => rfl) (fun _ => rfl) (f := .d) (g := .d) rfl rfl (l := (backward (p 3))) rfl (e := 1) (e' := -1) (if_neg Bool.false_ne_true) (if_pos rfl)]
  rw [compton_vv (f := .d) (x := .d) (g := .d) (h := (rfl : Spec.after .gluon Flavour.d = some Flavour.d)) (h' := (rfl : Spec.after .photon Flavour.d = some Flavour.d)) (ha := by simp) (hb := by simp)]
  rw [compton_vv (f := .d) (x := .d) (g := .d) (h := (rfl : Spec.after .photon Flavour.d = some Flavour.d)) (h' := (rfl : Spec.after .gluon Flavour.d = some Flavour.d)) (ha := by simp) (hb := by simp)]
  rw [annihilation_none c _ _ (by rfl) (by simp), star_zero, add_zero, gAdd.formPP]
  simp only [d0, d1, lineV_pv, lineV_four, contract_four_pv, contract_pv, mb_plus, mb_backward]
  have i0 := mb_schouten_right z0.2 (p 2) z0.1 z2.1 ρ1
  have i1 := mb_schouten_right z0.2 (p 2) z0.1 z3.1 ρ0
  have i2 := mb_schouten_right z0.2 (p 2) z0.1 z2.1 z3.1
  have i3 := ab_schouten z2.1 ρ0 ρ1 z0.1
  have i4 := ab_schouten z3.1 ρ0 ρ1 z2.1
  have i5 := ab_schouten z3.1 ρ0 ρ1 z0.1
  have i6 := sb_schouten z1.2 z2.2 z3.2 z0.2
  have i7 := mb_schouten_right z0.2 (p 2) z0.1 z2.1 ρ0
  have i8 := mb_schouten_right z1.2 (p 2) z0.1 z2.1 ρ0
  have i9 := mb_schouten_right z0.2 (p 2) z0.1 ρ0 ρ1
  have i10 := mb_schouten_right z0.2 (p 3) z0.1 z2.1 ρ0
  have i11 := mb_schouten_left z0.2 z1.2 z2.2 (p 2) z0.1
  have i12 := mb_schouten_right z0.2 (p 3) z0.1 z3.1 ρ1
  have i13 := mb_schouten_left z0.2 z1.2 z2.2 (p 2) ρ0
  have i14 := ab_schouten z2.1 z3.1 ρ0 z0.1
  have i15 := mb_schouten_right z0.2 (p 2) z0.1 z3.1 ρ1
  have i16 := mb_schouten_right z1.2 (p 2) z0.1 z1.1 ρ0
  have i17 := ab_schouten z1.1 z3.1 ρ1 z0.1
  have i18 := mb_schouten_right z0.2 (p 2) z2.1 ρ0 ρ1
  have i19 := mb_schouten_left z0.2 z1.2 z3.2 (p 2) z0.1
  have i20 := ab_schouten z1.1 z2.1 ρ1 z0.1
  have i21 := ab_schouten z1.1 ρ0 ρ1 z0.1
  have i22 := mb_schouten_right z0.2 (p 3) z0.1 z3.1 ρ0
  have i23 := mb_schouten_right z0.2 (p 2) z0.1 z1.1 z2.1
  have i24 := ab_schouten z2.1 ρ0 ρ1 z1.1
  have i25 := mb_schouten_right z0.2 (p 2) z0.1 z1.1 ρ0
  have i26 := mb_schouten_right z0.2 (p 2) z0.1 z1.1 ρ1
  have i27 := mb_schouten_right z1.2 (p 2) z0.1 z1.1 z3.1
  have i28 := mb_schouten_right z2.2 (p 3) z0.1 z3.1 ρ0
  have i29 := ab_schouten z1.1 z3.1 ρ0 z0.1
  have i30 := mb_schouten_right z0.2 (p 3) z0.1 z2.1 ρ1
  have i31 := mb_schouten_right z2.2 (p 3) z0.1 z3.1 ρ1
  have i32 := ab_schouten z3.1 ρ0 ρ1 z1.1
  have i33 := mb_schouten_left z0.2 z1.2 z2.2 (p 2) z1.1
  have i34 := mb_schouten_right z1.2 (p 2) z0.1 z3.1 ρ0
  simp only [l0.mb_eq, l1.mb_eq, b2.mb_left, b2.mb_right, b3.mb_left, b3.mb_right, e02, e03, e12, e13, mb_three hb z0.2 z1.1, mb_three hb z0.2 z2.1, mb_two hb z0.2 z3.1, mb_three hb z0.2 ρ0, mb_three hb z0.2 ρ1, mb_three hb z1.2 z0.1, mb_three hb z1.2 z2.1, mb_two hb z1.2 z3.1, mb_three hb z1.2 ρ0, mb_three hb z1.2 ρ1, mb_three hb z2.2 z0.1, mb_three hb z2.2 z1.1, mb_three hb z2.2 z2.1, mb_three hb z2.2 ρ0, mb_three hb z2.2 ρ1, mb_two hb z3.2 z0.1, mb_two hb z3.2 z1.1, mb_two hb z3.2 z3.1, mb_two hb z3.2 ρ0, mb_two hb z3.2 ρ1, ab_self, sb_self] at i0 i1 i2 i3 i4 i5 i6 i7 i8 i9 i10 i11 i12 i13 i14 i15 i16 i17 i18 i19 i20 i21 i22 i23 i24 i25 i26 i27 i28 i29 i30 i31 i32 i33 i34 ⊢
  simp only [ab_swap z0.1 z1.1, ab_swap z0.1 z2.1, ab_swap z0.1 z3.1, ab_swap z0.1 ρ0, ab_swap z0.1 ρ1, ab_swap z1.1 z2.1, ab_swap z1.1 z3.1, ab_swap z1.1 ρ0, ab_swap z1.1 ρ1, ab_swap z2.1 z3.1, ab_swap z2.1 ρ0, ab_swap z2.1 ρ1, ab_swap z3.1 ρ0, ab_swap z3.1 ρ1, ab_swap ρ0 ρ1, sb_swap z0.2 z1.2, sb_swap z0.2 z2.2, sb_swap z0.2 z3.2, sb_swap z1.2 z2.2, sb_swap z1.2 z3.2, sb_swap z2.2 z3.2] at i0 i1 i2 i3 i4 i5 i6 i7 i8 i9 i10 i11 i12 i13 i14 i15 i16 i17 i18 i19 i20 i21 i22 i23 i24 i25 i26 i27 i28 i29 i30 i31 i32 i33 i34 ⊢
  simp only [r0, r1, r2, r3, Constants.hL, Constants.hR, Constants.gL, Constants.gR, Constants.yuk, Constants.invVev, Flavour.charge_d, Flavour.isospin_d, ← c.mz]
  have xMW : (c.MW : ℂ) ≠ 0 := by exact_mod_cast hc.MW
  have xSW : (c.SW : ℂ) ≠ 0 := by exact_mod_cast hc.SW
  have xCW : (c.CW : ℂ) ≠ 0 := by exact_mod_cast hc.CW
  have x2 : ((√2 : ℝ) : ℂ) ≠ 0 := by exact_mod_cast (Real.sqrt_pos.2 two_pos).ne'
  have x22 : ((√2 : ℝ) : ℂ) ^ 2 = 2 := by rw [← Complex.ofReal_pow, Real.sq_sqrt two_pos.le]; norm_num
  have x23 : ((√2 : ℝ) : ℂ) ^ 3 = 2 * ((√2 : ℝ) : ℂ) := by rw [← x22]; ring
  have x24 : ((√2 : ℝ) : ℂ) ^ 4 = 4 := by linear_combination (((√2 : ℝ) : ℂ) ^ 2 + 2) * x22
  push_cast at i0 i1 i2 i3 i4 i5 i6 i7 i8 i9 i10 i11 i12 i13 i14 i15 i16 i17 i18 i19 i20 i21 i22 i23 i24 i25 i26 i27 i28 i29 i30 i31 i32 i33 i34 ⊢
  have y0 := mul_inv_cancel₀ n0
  have y1 := mul_inv_cancel₀ n1
  linear_combination ((((2) * ((c.e : ℂ)) * ((c.gs : ℂ)) * ((c.mass .d : ℂ)) * (ab z3.1 ρ0) * (sb z0.2 z1.2) + (2) * ((c.e : ℂ)) * ((c.gs : ℂ)) * (mb z1.2 (p 2) ρ0) * (sb z0.2 z3.2)) * i0 + ((2) * ((c.e : ℂ)) * ((c.gs : ℂ)) * ((c.mass .d : ℂ)) * (ab z2.1 ρ1) * (sb z0.2 z1.2) + (-2) * ((c.e : ℂ)) * ((c.gs : ℂ)) * (ab z1.1 ρ1) * (sb z0.2 z1.2) * (sb z1.2 z2.2) + (4) * ((c.e : ℂ)) * ((c.gs : ℂ)) * (mb z0.2 (p 2) ρ1) * (sb z1.2 z2.2)) * i1 + ((2) * ((c.e : ℂ)) * ((c.gs : ℂ)) * ((c.mass .d : ℂ)) * (ab ρ0 ρ1) * (sb z0.2 z1.2)) * i2 + ((-2) * ((c.e : ℂ)) * ((c.gs : ℂ)) * ((c.mass .d : ℂ)) * (ab z1.1 z3.1) * (sb z0.2 z1.2) ^ 2 + (-2) * ((c.e : ℂ)) * ((c.gs : ℂ)) * ((c.mass .d : ℂ)) ^ 2 * (sb z0.2 z1.2) * (sb z0.2 z3.2) + (2) * ((c.e : ℂ)) * ((c.gs : ℂ)) * (mb z0.2 (p 2) z1.1) * (sb z0.2 z1.2) * (sb z1.2 z3.2)) * i3 + ((2) * ((c.e : ℂ)) * ((c.gs : ℂ)) * ((c.mass .d : ℂ)) * (N.c 0) * (sb z0.2 z1.2)) * i4 + ((-2) * ((c.e : ℂ)) * ((c.gs : ℂ)) * ((c.mass .d : ℂ)) ^ 2 * (sb z0.2 z1.2) * (sb z0.2 z2.2) + (-2) * ((c.e : ℂ)) * ((c.gs : ℂ)) * (N.c 1) * (sb z0.2 z1.2) * (sb z0.2 z2.2)) * i5 + ((-2) * ((c.e : ℂ)) * ((c.gs : ℂ)) * ((c.mass .d : ℂ)) * (N.c 0) * (ab ρ0 ρ1) + (-2) * ((c.e : ℂ)) * ((c.gs : ℂ)) * ((c.mass .d : ℂ)) * (ab z0.1 ρ0) * (ab z1.1 ρ1) * (sb z0.2 z1.2) + (6) * ((c.e : ℂ)) * ((c.gs : ℂ)) * ((c.mass .d : ℂ)) * (ab z0.1 ρ0) * (mb z0.2 (p 2) ρ1) + (-4) * ((c.e : ℂ)) * ((c.gs : ℂ)) * ((c.mass .d : ℂ)) * (ab z0.1 ρ1) * (mb z0.2 (p 2) ρ0)) * i6 + ((-4) * ((c.e : ℂ)) * ((c.gs : ℂ)) * ((c.mass .d : ℂ)) * (ab z3.1 ρ1) * (sb z0.2 z1.2) + (2) * ((c.e : ℂ)) * ((c.gs : ℂ)) * (mb z0.2 (p 2) ρ1) * (sb z1.2 z3.2)) * i7 + ((-2) * ((c.e : ℂ)) * ((c.gs : ℂ)) * (mb z0.2 (p 2) ρ1) * (sb z0.2 z3.2)) * i8 + ((-2) * ((c.e : ℂ)) * ((c.gs : ℂ)) * ((c.mass .d : ℂ)) * (sb z0.2 z1.2) * (sb z2.2 z3.2) + (2) * ((c.e : ℂ)) * ((c.gs : ℂ)) * ((c.mass .d : ℂ)) * (sb z0.2 z2.2) * (sb z1.2 z3.2)) * i9 + ((-2) * ((c.e : ℂ)) * ((c.gs : ℂ)) * ((c.mass .d : ℂ)) * (ab z3.1 ρ1) * (sb z0.2 z1.2)) * i10 + ((-2) * ((c.e : ℂ)) * ((c.gs : ℂ)) * (ab z1.1 ρ0) * (ab z3.1 ρ1) * (sb z0.2 z1.2) + (-2) * ((c.e : ℂ)) * ((c.gs : ℂ)) * (ab z3.1 ρ0) * (mb z0.2 (p 2) ρ1)) * i11 + ((2) * ((c.e : ℂ)) * ((c.gs : ℂ)) * (ab z0.1 ρ0) * (sb z0.2 z1.2) * (sb z0.2 z2.2) + (2) * ((c.e : ℂ)) * ((c.gs : ℂ)) * (mb z1.2 (p 2) ρ0) * (sb z0.2 z2.2)) * i12 + ((-4) * ((c.e : ℂ)) * ((c.gs : ℂ)) * (N.c 0) * (ab z3.1 ρ1)) * i13 + ((-2) * ((c.e : ℂ)) * ((c.gs : ℂ)) * ((c.mass .d : ℂ)) * (ab z1.1 ρ1) * (sb z0.2 z1.2) ^ 2) * i14 + ((-2) * ((c.e : ℂ)) * ((c.gs : ℂ)) * ((c.mass .d : ℂ)) * (ab z2.1 ρ0) * (sb z0.2 z1.2) + (-4) * ((c.e : ℂ)) * ((c.gs : ℂ)) * (mb z0.2 (p 2) ρ0) * (sb z1.2 z2.2) + (4) * ((c.e : ℂ)) * ((c.gs : ℂ)) * (mb z1.2 (p 2) ρ0) * (sb z0.2 z2.2)) * i15 + ((-4) * ((c.e : ℂ)) * ((c.gs : ℂ)) * (ab z3.1 ρ1) * (sb z0.2 z1.2) * (sb z0.2 z2.2)) * i16 + ((-4) * ((c.e : ℂ)) * ((c.gs : ℂ)) * (mb z0.2 (p 2) ρ0) * (sb z0.2 z1.2) * (sb z1.2 z2.2) + (4) * ((c.e : ℂ)) * ((c.gs : ℂ)) * (mb z1.2 (p 2) ρ0) * (sb z0.2 z1.2) * (sb z0.2 z2.2)) * i17 + ((-2) * ((c.e : ℂ)) * ((c.gs : ℂ)) * (N.c 1) * (sb z1.2 z3.2)) * i18 + ((-2) * ((c.e : ℂ)) * ((c.gs : ℂ)) * (ab z2.1 ρ0) * (mb z0.2 (p 2) ρ1)) * i19 + ((2) * ((c.e : ℂ)) * ((c.gs : ℂ)) * (mb z0.2 (p 2) ρ0) * (sb z0.2 z1.2) * (sb z1.2 z3.2)) * i20 + ((2) * ((c.e : ℂ)) * ((c.gs : ℂ)) * (ab z0.1 z3.1) * (sb z0.2 z1.2) ^ 2 * (sb z0.2 z2.2)) * i21 + ((-2) * ((c.e : ℂ)) * ((c.gs : ℂ)) * (ab z0.1 ρ1) * (sb z0.2 z1.2) * (sb z0.2 z2.2)) * i22 + ((2) * ((c.e : ℂ)) * ((c.gs : ℂ)) * (ab ρ0 ρ1) * (sb z0.2 z1.2) * (sb z1.2 z3.2)) * i23 + ((2) * ((c.e : ℂ)) * ((c.gs : ℂ)) * (N.c 0) * (sb z0.2 z1.2) * (sb z1.2 z3.2)) * i24 + ((-2) * ((c.e : ℂ)) * ((c.gs : ℂ)) * (ab z2.1 ρ1) * (sb z0.2 z1.2) * (sb z1.2 z3.2) + (2) * ((c.e : ℂ)) * ((c.gs : ℂ)) * (ab z3.1 ρ1) * (sb z0.2 z1.2) * (sb z1.2 z2.2)) * i25 + ((2) * ((c.e : ℂ)) * ((c.gs : ℂ)) * (ab z2.1 ρ0) * (sb z0.2 z1.2) * (sb z1.2 z3.2)) * i26 + ((2) * ((c.e : ℂ)) * ((c.gs : ℂ)) * (ab ρ0 ρ1) * (sb z0.2 z1.2) * (sb z0.2 z2.2)) * i27 + ((2) * ((c.e : ℂ)) * ((c.gs : ℂ)) * (ab z1.1 ρ1) * (sb z0.2 z1.2) ^ 2 + (-4) * ((c.e : ℂ)) * ((c.gs : ℂ)) * (mb z0.2 (p 2) ρ1) * (sb z0.2 z1.2)) * i28 + ((-2) * ((c.e : ℂ)) * ((c.gs : ℂ)) * (ab z1.1 ρ1) * (sb z0.2 z1.2) ^ 2 * (sb z1.2 z2.2) + (4) * ((c.e : ℂ)) * ((c.gs : ℂ)) * (mb z0.2 (p 2) ρ1) * (sb z0.2 z1.2) * (sb z1.2 z2.2)) * i29 + ((2) * ((c.e : ℂ)) * ((c.gs : ℂ)) * (mb z0.2 (p 2) ρ0) * (sb z1.2 z3.2)) * i30 + ((2) * ((c.e : ℂ)) * ((c.gs : ℂ)) * (mb z0.2 (p 2) ρ0) * (sb z0.2 z1.2)) * i31 + ((-2) * ((c.e : ℂ)) * ((c.gs : ℂ)) * (mb z1.2 (p 2) z0.1) * (sb z0.2 z1.2) * (sb z0.2 z2.2)) * i32 + ((2) * ((c.e : ℂ)) * ((c.gs : ℂ)) * (ab z0.1 ρ0) * (ab z3.1 ρ1) * (sb z0.2 z1.2)) * i33 + ((2) * ((c.e : ℂ)) * ((c.gs : ℂ)) * (ab z1.1 ρ1) * (sb z0.2 z1.2) * (sb z0.2 z2.2) + (-2) * ((c.e : ℂ)) * ((c.gs : ℂ)) * (mb z0.2 (p 2) ρ1) * (sb z0.2 z2.2)) * i34)) * ((1) * ((N.c 0)⁻¹) * ((N.c 1)⁻¹) / (3)) + ((2) * ((c.e : ℂ)) * ((c.gs : ℂ)) * ((c.mass .d : ℂ)) * ((N.c 1)⁻¹) * (ab z2.1 ρ1) * (ab z3.1 ρ0) * (sb z0.2 z1.2) / (3) + (2) * ((c.e : ℂ)) * ((c.gs : ℂ)) * ((c.mass .d : ℂ)) * ((N.c 1)⁻¹) * (ab ρ0 ρ1) * (sb z0.2 z3.2) * (sb z1.2 z2.2) / (3) + (-2) * ((c.e : ℂ)) * ((c.gs : ℂ)) * ((N.c 1)⁻¹) * (ab z1.1 ρ1) * (ab z3.1 ρ0) * (sb z0.2 z1.2) * (sb z1.2 z2.2) / (3) + (2) * ((c.e : ℂ)) * ((c.gs : ℂ)) * ((N.c 1)⁻¹) * (ab z2.1 ρ1) * (mb z1.2 (p 2) ρ0) * (sb z0.2 z3.2) / (3) + (2) * ((c.e : ℂ)) * ((c.gs : ℂ)) * ((N.c 1)⁻¹) * (ab z3.1 ρ0) * (mb z0.2 (p 2) ρ1) * (sb z1.2 z2.2) / (3)) * y0 + ((-2) * ((c.e : ℂ)) * ((c.gs : ℂ)) * ((c.mass .d : ℂ)) * ((N.c 0)⁻¹) * (ab z2.1 ρ0) * (ab z3.1 ρ1) * (sb z0.2 z1.2) / (3) + (-2) * ((c.e : ℂ)) * ((c.gs : ℂ)) * ((c.mass .d : ℂ)) * ((N.c 0)⁻¹) * (ab ρ0 ρ1) * (sb z0.2 z2.2) * (sb z1.2 z3.2) / (3) + (2) * ((c.e : ℂ)) * ((c.gs : ℂ)) * ((N.c 0)⁻¹) * (ab z0.1 ρ0) * (ab z3.1 ρ1) * (sb z0.2 z1.2) * (sb z0.2 z2.2) / (3) + (2) * ((c.e : ℂ)) * ((c.gs : ℂ)) * ((N.c 0)⁻¹) * (ab z2.1 ρ0) * (mb z0.2 (p 2) ρ1) * (sb z1.2 z3.2) / (3) + (2) * ((c.e : ℂ)) * ((c.gs : ℂ)) * ((N.c 0)⁻¹) * (ab z3.1 ρ1) * (mb z1.2 (p 2) ρ0) * (sb z0.2 z2.2) / (3)) * y1 + ((1) * ((c.e : ℂ)) * ((c.gs : ℂ)) * ((c.mass .d : ℂ)) * ((N.c 0)⁻¹) * (ab z2.1 ρ0) * (ab z3.1 ρ1) * (sb z0.2 z1.2) / (3) + (1) * ((c.e : ℂ)) * ((c.gs : ℂ)) * ((c.mass .d : ℂ)) * ((N.c 0)⁻¹) * (ab ρ0 ρ1) * (sb z0.2 z2.2) * (sb z1.2 z3.2) / (3) + (-1) * ((c.e : ℂ)) * ((c.gs : ℂ)) * ((c.mass .d : ℂ)) * ((N.c 1)⁻¹) * (ab z2.1 ρ1) * (ab z3.1 ρ0) * (sb z0.2 z1.2) / (3) + (-1) * ((c.e : ℂ)) * ((c.gs : ℂ)) * ((c.mass .d : ℂ)) * ((N.c 1)⁻¹) * (ab ρ0 ρ1) * (sb z0.2 z3.2) * (sb z1.2 z2.2) / (3) + (-1) * ((c.e : ℂ)) * ((c.gs : ℂ)) * ((N.c 0)⁻¹) * (ab z0.1 ρ0) * (ab z3.1 ρ1) * (sb z0.2 z1.2) * (sb z0.2 z2.2) / (3) + (-1) * ((c.e : ℂ)) * ((c.gs : ℂ)) * ((N.c 0)⁻¹) * (ab z2.1 ρ0) * (mb z0.2 (p 2) ρ1) * (sb z1.2 z3.2) / (3) + (-1) * ((c.e : ℂ)) * ((c.gs : ℂ)) * ((N.c 0)⁻¹) * (ab z3.1 ρ1) * (mb z1.2 (p 2) ρ0) * (sb z0.2 z2.2) / (3) + (1) * ((c.e : ℂ)) * ((c.gs : ℂ)) * ((N.c 1)⁻¹) * (ab z1.1 ρ1) * (ab z3.1 ρ0) * (sb z0.2 z1.2) * (sb z1.2 z2.2) / (3) + (-1) * ((c.e : ℂ)) * ((c.gs : ℂ)) * ((N.c 1)⁻¹) * (ab z2.1 ρ1) * (mb z1.2 (p 2) ρ0) * (sb z0.2 z3.2) / (3) + (-1) * ((c.e : ℂ)) * ((c.gs : ℂ)) * ((N.c 1)⁻¹) * (ab z3.1 ρ0) * (mb z0.2 (p 2) ρ1) * (sb z1.2 z2.2) / (3)) * x22
theorem gAdd.keyPM {c : Constants} {p : Nat → V4 ℝ} {N : Env} (hc : c.Physical) (hb : Balanced p) (r0 : N.r 0 = c.e) (r1 : N.r 1 = ((-((1 : Nat) : ℝ)) / ((3 : Nat) : ℝ))) (r2 : N.r 2 = c.gs) (d0 : ((msq (plus (backward (p 3)) (p 1)) - c.mass .d ^ 2 : ℝ) : ℂ) = N.c 0) (n0 : N.c 0 ≠ 0) (d1 : ((msq (plus (backward (p 3)) (p 0)) - c.mass .d ^ 2 : ℝ) : ℂ) = N.c 1) (n1 : N.c 1 ≠ 0) {z0 z1 z2 z3 : Pair} (b2 : Bold (p 2) (c.mass .d) z2) (b3 : Bold (p 3) (c.mass .d) z3) (l0 : Light (p 0) z0) (l1 : Light (p 1) z1) (e02 : mb z0.2 (p 2) z0.1 = -N.c 0) (e03 : mb z0.2 (p 3) z0.1 = -N.c 1) (e12 : mb z1.2 (p 2) z1.1 = -N.c 1) (e13 : mb z1.2 (p 3) z1.1 = -N.c 0) (q2 : msq (p 2) = (c.mass .d) ^ 2) (q3 : msq (p 3) = (c.mass .d) ^ 2) (ρ0 ρ1 : V2) :
    gAdd.formPM N p z0 z1 z2 z3 * ab ρ0 z0.1 * sb ρ1 z1.2 = ((√2 : ℝ) * ((√2 : ℝ) * (1 : ℂ))) * gAdd.react.bare c p 2 3 0 1 z2 z3 (pv ρ0 z0.2) (pv z1.1 ρ1) := by
  rw [gAdd.react.bare_parts c p (i := 2) (j := 3) (a := 0) (b := 1) (x := .gluon) (y := .photon) (k := (p 0)) (k' := (p 1)) (fun _ => rfl) (fun _ => rfl) (f := .d) (g := .d) rfl rfl (l := (backward (p 3))) rfl (e := 1) (e' := -1) (if_neg Bool.false_ne_true) (if_pos rfl)]
  rw [compton_vv (f := .d) (x := .d) (g := .d) (h := (rfl : Spec.after .gluon Flavour.d = some Flavour.d)) (h' := (rfl : Spec.after .photon Flavour.d = some Flavour.d)) (ha := by simp) (hb := by simp)]
  rw [compton_vv (f := .d) (x := .d) (g := .d) (h := (rfl : Spec.after .photon Flavour.d = some Flavour.d)) (h' := (rfl : Spec.after .gluon Flavour.d = some Flavour.d)) (ha := by simp) (hb := by simp)]
  rw [annihilation_none c _ _ (by rfl) (by simp), star_zero, add_zero, gAdd.formPM]
  simp only [d0, d1, lineV_pv, lineV_four, contract_four_pv, contract_pv, mb_plus, mb_backward]
  have i0 := mb_schouten_right z0.2 (p 3) z0.1 z1.1 z2.1
  have i1 := mb_schouten_right z0.2 (p 2) z1.1 z2.1 ρ0
  have i2 := mb_schouten_left z0.2 z3.2 ρ1 (p 2) z0.1
  have i3 := mb_schouten_right z0.2 (p 2) z0.1 z1.1 z2.1
  have i4 := mb_schouten_right z2.2 (p 3) z0.1 z1.1 z3.1
  have i5 := sb_schouten z2.2 z3.2 ρ1 z0.2
  have i6 := sb_schouten z1.2 z2.2 ρ1 z0.2
  have i7 := ab_schouten z1.1 z3.1 ρ0 z0.1
  have i8 := sb_schouten z1.2 z3.2 ρ1 z0.2
  have i9 := mb_schouten_right z2.2 (p 3) z0.1 z3.1 ρ0
  have i10 := mb_schouten_right z1.2 (p 2) z0.1 z1.1 z3.1
  have i11 := sb_schouten z1.2 z2.2 z3.2 z0.2
  have i12 := mb_schouten_right z0.2 (p 2) z0.1 z1.1 z3.1
  have i13 := mb_schouten_left z0.2 z2.2 ρ1 (p 2) z1.1
  have i14 := mb_schouten_left z0.2 z1.2 ρ1 (p 2) z1.1
  have i15 := mb_schouten_right z0.2 (p 2) z0.1 z3.1 ρ0
  have i16 := mb_schouten_left z0.2 z1.2 ρ1 (p 2) z0.1
  have i17 := mb_schouten_right ρ1 (p 2) z0.1 z1.1 z3.1
  have i18 := mb_schouten_right ρ1 (p 2) z0.1 z1.1 ρ0
  have i19 := mb_schouten_right ρ1 (p 2) z0.1 z2.1 ρ0
  have i20 := mb_schouten_left z0.2 z2.2 ρ1 (p 2) z0.1
  have i21 := ab_schouten z2.1 z3.1 ρ0 z1.1
  have i22 := ab_schouten z2.1 z3.1 ρ0 z0.1
  have i23 := mb_schouten_right z0.2 (p 2) z0.1 z1.1 ρ0
  have i24 := ab_schouten z1.1 z2.1 z3.1 z0.1
  have i25 := ab_schouten z1.1 z2.1 ρ0 z0.1
  have i26 := mb_schouten_right z0.2 (p 3) z0.1 z1.1 z3.1
  have i27 := mb_schouten_right ρ1 (p 2) z0.1 z3.1 ρ0
  have i28 := mb_schouten_right z0.2 (p 2) z1.1 z3.1 ρ0
  have i29 := mb_schouten_left z0.2 z1.2 z2.2 (p 2) z1.1
  simp only [l0.mb_eq, l1.mb_eq, b2.mb_left, b2.mb_right, b3.mb_left, b3.mb_right, e02, e03, e12, e13, mb_three hb z0.2 z1.1, mb_three hb z0.2 z2.1, mb_two hb z0.2 z3.1, mb_three hb z0.2 ρ0, mb_three hb z1.2 z0.1, mb_three hb z1.2 z2.1, mb_two hb z1.2 z3.1, mb_three hb z1.2 ρ0, mb_three hb z2.2 z0.1, mb_three hb z2.2 z1.1, mb_three hb z2.2 z2.1, mb_three hb z2.2 ρ0, mb_two hb z3.2 z0.1, mb_two hb z3.2 z1.1, mb_two hb z3.2 z3.1, mb_two hb z3.2 ρ0, mb_three hb ρ1 z0.1, mb_three hb ρ1 z1.1, mb_three hb ρ1 z2.1, mb_two hb ρ1 z3.1, mb_three hb ρ1 ρ0, ab_self, sb_self] at i0 i1 i2 i3 i4 i5 i6 i7 i8 i9 i10 i11 i12 i13 i14 i15 i16 i17 i18 i19 i20 i21 i22 i23 i24 i25 i26 i27 i28 i29 ⊢
  simp only [ab_swap z0.1 z1.1, ab_swap z0.1 z2.1, ab_swap z0.1 z3.1, ab_swap z0.1 ρ0, ab_swap z1.1 z2.1, ab_swap z1.1 z3.1, ab_swap z1.1 ρ0, ab_swap z2.1 z3.1, ab_swap z2.1 ρ0, ab_swap z3.1 ρ0, sb_swap z0.2 z1.2, sb_swap z0.2 z2.2, sb_swap z0.2 z3.2, sb_swap z0.2 ρ1, sb_swap z1.2 z2.2, sb_swap z1.2 z3.2, sb_swap z1.2 ρ1, sb_swap z2.2 z3.2, sb_swap z2.2 ρ1, sb_swap z3.2 ρ1] at i0 i1 i2 i3 i4 i5 i6 i7 i8 i9 i10 i11 i12 i13 i14 i15 i16 i17 i18 i19 i20 i21 i22 i23 i24 i25 i26 i27 i28 i29 ⊢
  simp only [r0, r1, r2, Constants.hL, Constants.hR, Constants.gL, Constants.gR, Constants.yuk, Constants.invVev, Flavour.charge_d, Flavour.isospin_d, ← c.mz]
  have xMW : (c.MW : ℂ) ≠ 0 := by exact_mod_cast hc.MW
  have xSW : (c.SW : ℂ) ≠ 0 := by exact_mod_cast hc.SW
  have xCW : (c.CW : ℂ) ≠ 0 := by exact_mod_cast hc.CW
  have x2 : ((√2 : ℝ) : ℂ) ≠ 0 := by exact_mod_cast (Real.sqrt_pos.2 two_pos).ne'
  have x22 : ((√2 : ℝ) : ℂ) ^ 2 = 2 := by rw [← Complex.ofReal_pow, Real.sq_sqrt two_pos.le]; norm_num
  have x23 : ((√2 : ℝ) : ℂ) ^ 3 = 2 * ((√2 : ℝ) : ℂ) := by rw [← x22]; ring
  have x24 : ((√2 : ℝ) : ℂ) ^ 4 = 4 := by linear_combination (((√2 : ℝ) : ℂ) ^ 2 + 2) * x22
  push_cast at i0 i1 i2 i3 i4 i5 i6 i7 i8 i9 i10 i11 i12 i13 i14 i15 i16 i17 i18 i19 i20 i21 i22 i23 i24 i25 i26 i27 i28 i29 ⊢
  have y0 := mul_inv_cancel₀ n0
  have y1 := mul_inv_cancel₀ n1
  linear_combination ((((2) * ((c.e : ℂ)) * ((c.gs : ℂ)) * (mb z0.2 (p 2) ρ0) * (sb z3.2 ρ1)) * i0 + ((2) * ((c.e : ℂ)) * ((c.gs : ℂ)) * (N.c 1) * (sb z3.2 ρ1) + (2) * ((c.e : ℂ)) * ((c.gs : ℂ)) * (mb ρ1 (p 2) z0.1) * (sb z0.2 z3.2)) * i1 + ((-2) * ((c.e : ℂ)) * ((c.gs : ℂ)) * (ab z1.1 z2.1) * (mb z0.2 (p 2) ρ0)) * i2 + ((2) * ((c.e : ℂ)) * ((c.gs : ℂ)) * (mb z0.2 (p 2) ρ0) * (sb z3.2 ρ1) + (-2) * ((c.e : ℂ)) * ((c.gs : ℂ)) * (mb ρ1 (p 2) ρ0) * (sb z0.2 z3.2)) * i3 + ((-2) * ((c.e : ℂ)) * ((c.gs : ℂ)) * (ab z1.1 ρ0) * (sb z0.2 z1.2) * (sb z0.2 ρ1) + (4) * ((c.e : ℂ)) * ((c.gs : ℂ)) * (mb z0.2 (p 2) ρ0) * (sb z0.2 ρ1)) * i4 + ((4) * ((c.e : ℂ)) * ((c.gs : ℂ)) * ((c.mass .d : ℂ)) * (ab z0.1 z1.1) * (mb z0.2 (p 2) ρ0) + (-2) * ((c.e : ℂ)) * ((c.gs : ℂ)) * ((c.mass .d : ℂ)) * (ab z0.1 ρ0) * (mb z0.2 (p 2) z1.1)) * i5 + ((2) * ((c.e : ℂ)) * ((c.gs : ℂ)) * ((c.mass .d : ℂ)) * (ab z0.1 z1.1) * (ab z1.1 ρ0) * (sb z0.2 z3.2) + (2) * ((c.e : ℂ)) * ((c.gs : ℂ)) * (ab z0.1 z1.1) * (ab z1.1 z3.1) * (ab z1.1 ρ0) * (sb z0.2 z1.2) + (-4) * ((c.e : ℂ)) * ((c.gs : ℂ)) * (ab z0.1 z1.1) * (ab z1.1 z3.1) * (mb z0.2 (p 2) ρ0) + (-4) * ((c.e : ℂ)) * ((c.gs : ℂ)) * (ab z0.1 z1.1) * (ab z3.1 ρ0) * (mb z0.2 (p 2) z1.1) + (2) * ((c.e : ℂ)) * ((c.gs : ℂ)) * (ab z0.1 z3.1) * (ab z1.1 ρ0) * (mb z0.2 (p 2) z1.1)) * i6 + ((2) * ((c.e : ℂ)) * ((c.gs : ℂ)) * ((c.mass .d : ℂ)) * (ab z1.1 z2.1) * (sb z0.2 z1.2) * (sb z0.2 ρ1) + (2) * ((c.e : ℂ)) * ((c.gs : ℂ)) * (N.c 1) * (sb z0.2 z2.2) * (sb z0.2 ρ1) + (4) * ((c.e : ℂ)) * ((c.gs : ℂ)) * (mb z0.2 (p 2) z1.1) * (sb z0.2 z1.2) * (sb z2.2 ρ1) + (4) * ((c.e : ℂ)) * ((c.gs : ℂ)) * (mb ρ1 (p 2) z1.1) * (sb z0.2 z1.2) * (sb z0.2 z2.2)) * i7 + ((-4) * ((c.e : ℂ)) * ((c.gs : ℂ)) * ((c.mass .d : ℂ)) * (ab z0.1 z1.1) * (ab z1.1 ρ0) * (sb z0.2 z2.2) + (-2) * ((c.e : ℂ)) * ((c.gs : ℂ)) * (ab z0.1 z1.1) * (ab z1.1 z2.1) * (mb z0.2 (p 2) ρ0)) * i8 + ((2) * ((c.e : ℂ)) * ((c.gs : ℂ)) * (mb z0.2 (p 2) z1.1) * (sb z0.2 ρ1)) * i9 + ((2) * ((c.e : ℂ)) * ((c.gs : ℂ)) * (ab z1.1 ρ0) * (sb z0.2 z2.2) * (sb z0.2 ρ1)) * i10 + ((-2) * ((c.e : ℂ)) * ((c.gs : ℂ)) * ((c.mass .d : ℂ)) * (ab z0.1 z1.1) * (ab z1.1 ρ0) * (sb z0.2 ρ1)) * i11 + ((2) * ((c.e : ℂ)) * ((c.gs : ℂ)) * ((c.mass .d : ℂ)) * (ab z2.1 ρ0) * (sb z0.2 ρ1) + (-2) * ((c.e : ℂ)) * ((c.gs : ℂ)) * (ab z1.1 ρ0) * (sb z0.2 z1.2) * (sb z2.2 ρ1) + (-2) * ((c.e : ℂ)) * ((c.gs : ℂ)) * (ab z1.1 ρ0) * (sb z0.2 z2.2) * (sb z1.2 ρ1) + (2) * ((c.e : ℂ)) * ((c.gs : ℂ)) * (mb z0.2 (p 2) ρ0) * (sb z2.2 ρ1)) * i12 + ((4) * ((c.e : ℂ)) * ((c.gs : ℂ)) * (N.c 0) * (ab z3.1 ρ0)) * i13 + ((-4) * ((c.e : ℂ)) * ((c.gs : ℂ)) * (ab z0.1 z1.1) * (ab z3.1 ρ0) * (sb z0.2 z2.2)) * i14 + ((2) * ((c.e : ℂ)) * ((c.gs : ℂ)) * (mb z0.2 (p 2) z1.1) * (sb z2.2 ρ1) + (4) * ((c.e : ℂ)) * ((c.gs : ℂ)) * (mb ρ1 (p 2) z1.1) * (sb z0.2 z2.2)) * i15 + ((2) * ((c.e : ℂ)) * ((c.gs : ℂ)) * (ab z1.1 z3.1) * (ab z1.1 ρ0) * (sb z0.2 z2.2)) * i16 + ((-4) * ((c.e : ℂ)) * ((c.gs : ℂ)) * (ab z1.1 ρ0) * (sb z0.2 z1.2) * (sb z0.2 z2.2) + (4) * ((c.e : ℂ)) * ((c.gs : ℂ)) * (mb z0.2 (p 2) ρ0) * (sb z0.2 z2.2)) * i17 + ((-4) * ((c.e : ℂ)) * ((c.gs : ℂ)) * ((c.mass .d : ℂ)) * (sb z0.2 z2.2) * (sb z0.2 z3.2)) * i18 + ((-2) * ((c.e : ℂ)) * ((c.gs : ℂ)) * (mb z0.2 (p 2) z1.1) * (sb z0.2 z3.2)) * i19 + ((-2) * ((c.e : ℂ)) * ((c.gs : ℂ)) * (ab z1.1 z3.1) * (mb z0.2 (p 2) ρ0)) * i20 + ((-2) * ((c.e : ℂ)) * ((c.gs : ℂ)) * ((c.mass .d : ℂ)) * (N.c 0) * (sb z0.2 ρ1)) * i21 + ((-2) * ((c.e : ℂ)) * ((c.gs : ℂ)) * ((c.mass .d : ℂ)) * (mb z0.2 (p 2) z1.1) * (sb z0.2 ρ1)) * i22 + ((-2) * ((c.e : ℂ)) * ((c.gs : ℂ)) * ((c.mass .d : ℂ)) * (ab z2.1 z3.1) * (sb z0.2 ρ1) + (2) * ((c.e : ℂ)) * ((c.gs : ℂ)) * ((c.mass .d : ℂ)) * (sb z0.2 z3.2) * (sb z2.2 ρ1) + (-2) * ((c.e : ℂ)) * ((c.gs : ℂ)) * (ab z1.1 z2.1) * (sb z0.2 z3.2) * (sb z1.2 ρ1) + (2) * ((c.e : ℂ)) * ((c.gs : ℂ)) * (ab z1.1 z3.1) * (sb z0.2 z1.2) * (sb z2.2 ρ1)) * i23 + ((2) * ((c.e : ℂ)) * ((c.gs : ℂ)) * ((c.mass .d : ℂ)) * (mb z0.2 (p 2) ρ0) * (sb z0.2 ρ1)) * i24 + ((-2) * ((c.e : ℂ)) * ((c.gs : ℂ)) * ((c.mass .d : ℂ)) * (ab z1.1 z3.1) * (sb z0.2 z1.2) * (sb z0.2 ρ1)) * i25 + ((2) * ((c.e : ℂ)) * ((c.gs : ℂ)) * ((c.mass .d : ℂ)) * (ab z2.1 ρ0) * (sb z0.2 ρ1) + (-2) * ((c.e : ℂ)) * ((c.gs : ℂ)) * (mb ρ1 (p 2) ρ0) * (sb z0.2 z2.2)) * i26 + ((2) * ((c.e : ℂ)) * ((c.gs : ℂ)) * (mb z0.2 (p 2) z1.1) * (sb z0.2 z2.2)) * i27 + ((-2) * ((c.e : ℂ)) * ((c.gs : ℂ)) * (mb ρ1 (p 2) z0.1) * (sb z0.2 z2.2)) * i28 + ((2) * ((c.e : ℂ)) * ((c.gs : ℂ)) * (ab z0.1 z1.1) * (ab z3.1 ρ0) * (sb z0.2 ρ1)) * i29)) * ((1) * ((N.c 0)⁻¹) * ((N.c 1)⁻¹) / (3)) + ((-2) * ((c.e : ℂ)) * ((c.gs : ℂ)) * ((c.mass .d : ℂ)) * ((N.c 1)⁻¹) * (ab z1.1 z2.1) * (ab z3.1 ρ0) * (sb z0.2 ρ1) / (3) + (2) * ((c.e : ℂ)) * ((c.gs : ℂ)) * ((c.mass .d : ℂ)) * ((N.c 1)⁻¹) * (ab z1.1 ρ0) * (sb z0.2 z3.2) * (sb z2.2 ρ1) / (3) + (-2) * ((c.e : ℂ)) * ((c.gs : ℂ)) * ((N.c 1)⁻¹) * (ab z1.1 z2.1) * (ab z1.1 ρ0) * (sb z0.2 z3.2) * (sb z1.2 ρ1) / (3) + (-2) * ((c.e : ℂ)) * ((c.gs : ℂ)) * ((N.c 1)⁻¹) * (ab z1.1 z2.1) * (mb ρ1 (p 2) ρ0) * (sb z0.2 z3.2) / (3) + (-2) * ((c.e : ℂ)) * ((c.gs : ℂ)) * ((N.c 1)⁻¹) * (ab z3.1 ρ0) * (mb z0.2 (p 2) z1.1) * (sb z2.2 ρ1) / (3)) * y0 + ((2) * ((c.e : ℂ)) * ((c.gs : ℂ)) * ((c.mass .d : ℂ)) * ((N.c 0)⁻¹) * (ab z1.1 z3.1) * (ab z2.1 ρ0) * (sb z0.2 ρ1) / (3) + (-2) * ((c.e : ℂ)) * ((c.gs : ℂ)) * ((c.mass .d : ℂ)) * ((N.c 0)⁻¹) * (ab z1.1 ρ0) * (sb z0.2 z2.2) * (sb z3.2 ρ1) / (3) + (-2) * ((c.e : ℂ)) * ((c.gs : ℂ)) * ((N.c 0)⁻¹) * (ab z0.1 ρ0) * (ab z1.1 z3.1) * (sb z0.2 z2.2) * (sb z0.2 ρ1) / (3) + (-2) * ((c.e : ℂ)) * ((c.gs : ℂ)) * ((N.c 0)⁻¹) * (ab z1.1 z3.1) * (mb ρ1 (p 2) ρ0) * (sb z0.2 z2.2) / (3) + (-2) * ((c.e : ℂ)) * ((c.gs : ℂ)) * ((N.c 0)⁻¹) * (ab z2.1 ρ0) * (mb z0.2 (p 2) z1.1) * (sb z3.2 ρ1) / (3)) * y1 + ((-1) * ((c.e : ℂ)) * ((c.gs : ℂ)) * ((c.mass .d : ℂ)) * ((N.c 0)⁻¹) * (ab z1.1 z3.1) * (ab z2.1 ρ0) * (sb z0.2 ρ1) / (3) + (1) * ((c.e : ℂ)) * ((c.gs : ℂ)) * ((c.mass .d : ℂ)) * ((N.c 0)⁻¹) * (ab z1.1 ρ0) * (sb z0.2 z2.2) * (sb z3.2 ρ1) / (3) + (1) * ((c.e : ℂ)) * ((c.gs : ℂ)) * ((c.mass .d : ℂ)) * ((N.c 1)⁻¹) * (ab z1.1 z2.1) * (ab z3.1 ρ0) * (sb z0.2 ρ1) / (3) + (-1) * ((c.e : ℂ)) * ((c.gs : ℂ)) * ((c.mass .d : ℂ)) * ((N.c 1)⁻¹) * (ab z1.1 ρ0) * (sb z0.2 z3.2) * (sb z2.2 ρ1) / (3) + (1) * ((c.e : ℂ)) * ((c.gs : ℂ)) * ((N.c 0)⁻¹) * (ab z0.1 ρ0) * (ab z1.1 z3.1) * (sb z0.2 z2.2) * (sb z0.2 ρ1) / (3) + (1) * ((c.e : ℂ)) * ((c.gs : ℂ)) * ((N.c 0)⁻¹) * (ab z1.1 z3.1) * (mb ρ1 (p 2) ρ0) * (sb z0.2 z2.2) / (3) + (1) * ((c.e : ℂ)) * ((c.gs : ℂ)) * ((N.c 0)⁻¹) * (ab z2.1 ρ0) * (mb z0.2 (p 2) z1.1) * (sb z3.2 ρ1) / (3) + (1) * ((c.e : ℂ)) * ((c.gs : ℂ)) * ((N.c 1)⁻¹) * (ab z1.1 z2.1) * (ab z1.1 ρ0) * (sb z0.2 z3.2) * (sb z1.2 ρ1) / (3) + (1) * ((c.e : ℂ)) * ((c.gs : ℂ)) * ((N.c 1)⁻¹) * (ab z1.1 z2.1) * (mb ρ1 (p 2) ρ0) * (sb z0.2 z3.2) / (3) + (1) * ((c.e : ℂ)) * ((c.gs : ℂ)) * ((N.c 1)⁻¹) * (ab z3.1 ρ0) * (mb z0.2 (p 2) z1.1) * (sb z2.2 ρ1) / (3)) * x22
theorem gAdd.keyMP {c : Constants} {p : Nat → V4 ℝ} {N : Env} (hc : c.Physical) (hb : Balanced p) (r0 : N.r 0 = c.e) (r1 : N.r 1 = ((-((1 : Nat) : ℝ)) / ((3 : Nat) : ℝ))) (r2 : N.r 2 = c.gs) (d0 : ((msq (plus (backward (p 3)) (p 1)) - c.mass .d ^ 2 : ℝ) : ℂ) = N.c 0) (n0 : N.c 0 ≠ 0) (d1 : ((msq (plus (backward (p 3)) (p 0)) - c.mass .d ^ 2 : ℝ) : ℂ) = N.c 1) (n1 : N.c 1 ≠ 0) {z0 z1 z2 z3 : Pair} (b2 : Bold (p 2) (c.mass .d) z2) (b3 : Bold (p 3) (c.mass .d) z3) (l0 : Light (p 0) z0) (l1 : Light (p 1) z1) (e02 : mb z0.2 (p 2) z0.1 = -N.c 0) (e03 : mb z0.2 (p 3) z0.1 = -N.c 1) (e12 : mb z1.2 (p 2) z1.1 = -N.c 1) (e13 : mb z1.2 (p 3) z1.1 = -N.c 0) (q2 : msq (p 2) = (c.mass .d) ^ 2) (q3 : msq (p 3) = (c.mass .d) ^ 2) (ρ0 ρ1 : V2) :
    gAdd.formMP N p z0 z1 z2 z3 * sb ρ0 z0.2 * ab ρ1 z1.1 = ((√2 : ℝ) * ((√2 : ℝ) * (1 : ℂ))) * gAdd.react.bare c p 2 3 0 1 z2 z3 (pv z0.1 ρ0) (pv ρ1 z1.2) := by
  rw [gAdd.react.bare_parts c p (i := 2) (j := 3) (a := 0) (b := 1) (x := .gluon) (y := .photon) (k := (p 0)) (k' := (p 1)) (fun _ => rfl) (fun _ => rfl) (f := .d) (g := .d) rfl rfl (l := (backward (p 3))) rfl (e := 1) (e' := -1) (if_neg Bool.false_ne_true) (if_pos rfl)]
  rw [compton_vv (f := .d) (x := .d) (g := .d) (h := (rfl : Spec.after .gluon Flavour.d = some Flavour.d)) (h' := (rfl : Spec.after .photon Flavour.d = some Flavour.d)) (ha := by simp) (hb := by simp)]
  rw [compton_vv (f := .d) (x := .d) (g := .d) (h := (rfl : Spec.after .photon Flavour.d = some Flavour.d)) (h' := (rfl : Spec.after .gluon Flavour.d = some Flavour.d)) (ha := by simp) (hb := by simp)]
  rw [annihilation_none c _ _ (by rfl) (by simp), star_zero, add_zero, gAdd.formMP]
  simp only [d0, d1, lineV_pv, lineV_four, contract_four_pv, contract_pv, mb_plus, mb_backward]
  have i0 := mb_schouten_right z0.2 (p 3) z0.1 z2.1 z3.1
  have i1 := ab_schouten z2.1 z3.1 ρ1 z0.1
  have i2 := mb_schouten_left z0.2 z1.2 ρ0 (p 2) z0.1
  have i3 := mb_schouten_right z3.2 (p 2) z0.1 z2.1 ρ1
  have i4 := ab_schouten z1.1 z3.1 ρ1 z0.1
  have i5 := mb_schouten_left z0.2 z1.2 z2.2 (p 2) z0.1
  have i6 := mb_schouten_right ρ0 (p 2) z0.1 z3.1 ρ1
  have i7 := sb_schouten z1.2 z3.2 ρ0 z0.2
  have i8 := mb_schouten_left z0.2 z3.2 ρ0 (p 2) z0.1
  have i9 := mb_schouten_right z1.2 (p 2) z0.1 z2.1 ρ1
  have i10 := sb_schouten z1.2 z2.2 z3.2 z0.2
  have i11 := sb_schouten z1.2 z2.2 ρ0 z0.2
  have i12 := mb_schouten_left z0.2 z2.2 ρ0 (p 2) z0.1
  have i13 := mb_schouten_right z0.2 (p 3) z0.1 z2.1 ρ1
  have i14 := mb_schouten_right z0.2 (p 2) z0.1 z2.1 ρ1
  have i15 := mb_schouten_right ρ0 (p 2) z0.1 z2.1 ρ1
  have i16 := mb_schouten_right z1.2 (p 2) z0.1 z1.1 ρ1
  have i17 := sb_schouten z2.2 z3.2 ρ0 z1.2
  have i18 := mb_schouten_right z1.2 (p 3) z0.1 z1.1 z3.1
  have i19 := mb_schouten_right z1.2 (p 2) z0.1 z1.1 z3.1
  have i20 := mb_schouten_right z1.2 (p 2) z0.1 z3.1 ρ1
  have i21 := mb_schouten_right z1.2 (p 3) z0.1 z1.1 z2.1
  have i22 := mb_schouten_right z1.2 (p 2) z0.1 z1.1 z2.1
  have i23 := mb_schouten_left z0.2 z1.2 z3.2 (p 2) z0.1
  have i24 := mb_schouten_right z2.2 (p 3) z0.1 z3.1 ρ1
  have i25 := sb_schouten z2.2 z3.2 ρ0 z0.2
  have i26 := mb_schouten_right ρ0 (p 2) z0.1 z2.1 z3.1
  have i27 := mb_schouten_right z1.2 (p 2) z0.1 z2.1 z3.1
  simp only [l0.mb_eq, l1.mb_eq, b2.mb_left, b2.mb_right, b3.mb_left, b3.mb_right, e02, e03, e12, e13, mb_three hb z0.2 z1.1, mb_three hb z0.2 z2.1, mb_two hb z0.2 z3.1, mb_three hb z0.2 ρ1, mb_three hb z1.2 z0.1, mb_three hb z1.2 z2.1, mb_two hb z1.2 z3.1, mb_three hb z1.2 ρ1, mb_three hb z2.2 z0.1, mb_three hb z2.2 z1.1, mb_three hb z2.2 z2.1, mb_three hb z2.2 ρ1, mb_two hb z3.2 z0.1, mb_two hb z3.2 z1.1, mb_two hb z3.2 z3.1, mb_two hb z3.2 ρ1, mb_three hb ρ0 z0.1, mb_three hb ρ0 z1.1, mb_three hb ρ0 z2.1, mb_two hb ρ0 z3.1, mb_three hb ρ0 ρ1, ab_self, sb_self] at i0 i1 i2 i3 i4 i5 i6 i7 i8 i9 i10 i11 i12 i13 i14 i15 i16 i17 i18 i19 i20 i21 i22 i23 i24 i25 i26 i27 ⊢
  simp only [ab_swap z0.1 z1.1, ab_swap z0.1 z2.1, ab_swap z0.1 z3.1, ab_swap z0.1 ρ1, ab_swap z1.1 z2.1, ab_swap z1.1 z3.1, ab_swap z1.1 ρ1, ab_swap z2.1 z3.1, ab_swap z2.1 ρ1, ab_swap z3.1 ρ1, sb_swap z0.2 z1.2, sb_swap z0.2 z2.2, sb_swap z0.2 z3.2, sb_swap z0.2 ρ0, sb_swap z1.2 z2.2, sb_swap z1.2 z3.2, sb_swap z1.2 ρ0, sb_swap z2.2 z3.2, sb_swap z2.2 ρ0, sb_swap z3.2 ρ0] at i0 i1 i2 i3 i4 i5 i6 i7 i8 i9 i10 i11 i12 i13 i14 i15 i16 i17 i18 i19 i20 i21 i22 i23 i24 i25 i26 i27 ⊢
  simp only [r0, r1, r2, Constants.hL, Constants.hR, Constants.gL, Constants.gR, Constants.yuk, Constants.invVev, Flavour.charge_d, Flavour.isospin_d, ← c.mz]
  have xMW : (c.MW : ℂ) ≠ 0 := by exact_mod_cast hc.MW
  have xSW : (c.SW : ℂ) ≠ 0 := by exact_mod_cast hc.SW
  have xCW : (c.CW : ℂ) ≠ 0 := by exact_mod_cast hc.CW
  have x2 : ((√2 : ℝ) : ℂ) ≠ 0 := by exact_mod_cast (Real.sqrt_pos.2 two_pos).ne'
  have x22 : ((√2 : ℝ) : ℂ) ^ 2 = 2 := by rw [← Complex.ofReal_pow, Real.sq_sqrt two_pos.le]; norm_num
  have x23 : ((√2 : ℝ) : ℂ) ^ 3 = 2 * ((√2 : ℝ) : ℂ) := by rw [← x22]; ring
  have x24 : ((√2 : ℝ) : ℂ) ^ 4 = 4 := by linear_combination (((√2 : ℝ) : ℂ) ^ 2 + 2) * x22
  push_cast at i0 i1 i2 i3 i4 i5 i6 i7 i8 i9 i10 i11 i12 i13 i14 i15 i16 i17 i18 i19 i20 i21 i22 i23 i24 i25 i26 i27 ⊢
  have y0 := mul_inv_cancel₀ n0
  have y1 := mul_inv_cancel₀ n1
  linear_combination ((((2) * ((c.e : ℂ)) * ((c.gs : ℂ)) * ((c.mass .d : ℂ)) * (ab z0.1 ρ1) * (sb z1.2 ρ0)) * i0 + ((2) * ((c.e : ℂ)) * ((c.gs : ℂ)) * ((c.mass .d : ℂ)) * (N.c 1) * (sb z1.2 ρ0) + (2) * ((c.e : ℂ)) * ((c.gs : ℂ)) * ((c.mass .d : ℂ)) * (mb z1.2 (p 2) z0.1) * (sb z0.2 ρ0) + (-2) * ((c.e : ℂ)) * ((c.gs : ℂ)) * ((c.mass .d : ℂ)) * (mb ρ0 (p 2) z0.1) * (sb z0.2 z1.2)) * i1 + ((4) * ((c.e : ℂ)) * ((c.gs : ℂ)) * ((c.mass .d : ℂ)) * (ab z0.1 z2.1) * (ab z3.1 ρ1) + (-2) * ((c.e : ℂ)) * ((c.gs : ℂ)) * (ab z0.1 z1.1) * (ab z2.1 ρ1) * (sb z1.2 z3.2) + (2) * ((c.e : ℂ)) * ((c.gs : ℂ)) * (ab z0.1 z2.1) * (ab z0.1 ρ1) * (sb z0.2 z3.2) + (2) * ((c.e : ℂ)) * ((c.gs : ℂ)) * (ab z0.1 z2.1) * (ab z1.1 ρ1) * (sb z1.2 z3.2) + (-2) * ((c.e : ℂ)) * ((c.gs : ℂ)) * (ab z0.1 z3.1) * (ab z0.1 ρ1) * (sb z0.2 z2.2)) * i2 + ((-2) * ((c.e : ℂ)) * ((c.gs : ℂ)) * (N.c 0) * (sb z1.2 ρ0) + (-2) * ((c.e : ℂ)) * ((c.gs : ℂ)) * (mb z1.2 (p 2) z0.1) * (sb z0.2 ρ0) + (2) * ((c.e : ℂ)) * ((c.gs : ℂ)) * (mb ρ0 (p 2) z0.1) * (sb z0.2 z1.2)) * i3 + ((2) * ((c.e : ℂ)) * ((c.gs : ℂ)) * ((c.mass .d : ℂ)) * (ab z0.1 z2.1) * (sb z0.2 z1.2) * (sb z1.2 ρ0) + (2) * ((c.e : ℂ)) * ((c.gs : ℂ)) * (mb z1.2 (p 2) z0.1) * (sb z0.2 z2.2) * (sb z1.2 ρ0)) * i4 + ((-4) * ((c.e : ℂ)) * ((c.gs : ℂ)) * ((c.mass .d : ℂ)) * (ab z0.1 ρ1) * (sb z3.2 ρ0) + (2) * ((c.e : ℂ)) * ((c.gs : ℂ)) * (ab z0.1 z1.1) * (ab z3.1 ρ1) * (sb z1.2 ρ0) + (-4) * ((c.e : ℂ)) * ((c.gs : ℂ)) * (ab z0.1 z3.1) * (ab z1.1 ρ1) * (sb z1.2 ρ0) + (-2) * ((c.e : ℂ)) * ((c.gs : ℂ)) * (ab z0.1 z3.1) * (mb ρ0 (p 2) ρ1)) * i5 + ((-2) * ((c.e : ℂ)) * ((c.gs : ℂ)) * (mb z1.2 (p 2) z0.1) * (sb z0.2 z2.2)) * i6 + ((-2) * ((c.e : ℂ)) * ((c.gs : ℂ)) * ((c.mass .d : ℂ)) ^ 2 * (ab z0.1 z2.1) * (ab z0.1 ρ1) + (2) * ((c.e : ℂ)) * ((c.gs : ℂ)) * (N.c 1) * (ab z0.1 z2.1) * (ab z0.1 ρ1) + (2) * ((c.e : ℂ)) * ((c.gs : ℂ)) * (ab z0.1 z1.1) * (ab z0.1 z2.1) * (mb z1.2 (p 2) ρ1) + (2) * ((c.e : ℂ)) * ((c.gs : ℂ)) * (ab z0.1 z2.1) * (ab z1.1 ρ1) * (mb z1.2 (p 2) z0.1)) * i7 + ((2) * ((c.e : ℂ)) * ((c.gs : ℂ)) * (ab z0.1 z2.1) * (mb z1.2 (p 2) ρ1)) * i8 + ((4) * ((c.e : ℂ)) * ((c.gs : ℂ)) * ((c.mass .d : ℂ)) * (ab z0.1 z3.1) * (sb z0.2 ρ0) + (2) * ((c.e : ℂ)) * ((c.gs : ℂ)) * (N.c 0) * (sb z3.2 ρ0) + (-2) * ((c.e : ℂ)) * ((c.gs : ℂ)) * (mb ρ0 (p 2) z0.1) * (sb z0.2 z3.2)) * i9 + ((2) * ((c.e : ℂ)) * ((c.gs : ℂ)) * ((c.mass .d : ℂ)) * (ab z0.1 ρ1) * (mb ρ0 (p 2) z0.1)) * i10 + ((-2) * ((c.e : ℂ)) * ((c.gs : ℂ)) * ((c.mass .d : ℂ)) ^ 2 * (ab z0.1 z3.1) * (ab z0.1 ρ1) + (2) * ((c.e : ℂ)) * ((c.gs : ℂ)) * (ab z0.1 z3.1) * (ab z1.1 ρ1) * (mb z1.2 (p 2) z0.1)) * i11 + ((4) * ((c.e : ℂ)) * ((c.gs : ℂ)) * ((c.mass .d : ℂ)) * (ab z0.1 ρ1) * (sb z1.2 z3.2) + (-2) * ((c.e : ℂ)) * ((c.gs : ℂ)) * (ab z0.1 z3.1) * (mb z1.2 (p 2) ρ1)) * i12 + ((-2) * ((c.e : ℂ)) * ((c.gs : ℂ)) * ((c.mass .d : ℂ)) * (ab z0.1 z3.1) * (sb z1.2 ρ0)) * i13 + ((-2) * ((c.e : ℂ)) * ((c.gs : ℂ)) * ((c.mass .d : ℂ)) * (ab z0.1 z3.1) * (sb z1.2 ρ0)) * i14 + ((-4) * ((c.e : ℂ)) * ((c.gs : ℂ)) * ((c.mass .d : ℂ)) * (ab z0.1 z3.1) * (sb z0.2 z1.2) + (2) * ((c.e : ℂ)) * ((c.gs : ℂ)) * (mb z1.2 (p 2) z0.1) * (sb z0.2 z3.2)) * i15 + ((-2) * ((c.e : ℂ)) * ((c.gs : ℂ)) * (ab z0.1 z2.1) * (sb z0.2 z1.2) * (sb z3.2 ρ0) + (2) * ((c.e : ℂ)) * ((c.gs : ℂ)) * (ab z0.1 z2.1) * (sb z0.2 z3.2) * (sb z1.2 ρ0) + (-2) * ((c.e : ℂ)) * ((c.gs : ℂ)) * (ab z0.1 z3.1) * (sb z0.2 z1.2) * (sb z2.2 ρ0)) * i16 + ((-4) * ((c.e : ℂ)) * ((c.gs : ℂ)) * ((c.mass .d : ℂ)) * (N.c 0) * (ab z0.1 ρ1)) * i17 + ((-2) * ((c.e : ℂ)) * ((c.gs : ℂ)) * (mb z1.2 (p 2) ρ1) * (sb z2.2 ρ0)) * i18 + ((-2) * ((c.e : ℂ)) * ((c.gs : ℂ)) * (mb z1.2 (p 2) ρ1) * (sb z2.2 ρ0)) * i19 + ((2) * ((c.e : ℂ)) * ((c.gs : ℂ)) * (N.c 1) * (sb z2.2 ρ0) + (2) * ((c.e : ℂ)) * ((c.gs : ℂ)) * (mb ρ0 (p 2) z0.1) * (sb z0.2 z2.2)) * i20 + ((2) * ((c.e : ℂ)) * ((c.gs : ℂ)) * (mb ρ0 (p 2) ρ1) * (sb z1.2 z3.2)) * i21 + ((2) * ((c.e : ℂ)) * ((c.gs : ℂ)) * (mb ρ0 (p 2) ρ1) * (sb z1.2 z3.2)) * i22 + ((2) * ((c.e : ℂ)) * ((c.gs : ℂ)) * (ab z0.1 z2.1) * (mb ρ0 (p 2) ρ1)) * i23 + ((2) * ((c.e : ℂ)) * ((c.gs : ℂ)) * (N.c 0) * (sb z1.2 ρ0)) * i24 + ((-2) * ((c.e : ℂ)) * ((c.gs : ℂ)) * ((c.mass .d : ℂ)) * (ab z0.1 ρ1) * (mb z1.2 (p 2) z0.1)) * i25 + ((2) * ((c.e : ℂ)) * ((c.gs : ℂ)) * ((c.mass .d : ℂ)) * (ab z0.1 ρ1) * (sb z0.2 z1.2)) * i26 + ((-2) * ((c.e : ℂ)) * ((c.gs : ℂ)) * ((c.mass .d : ℂ)) * (ab z0.1 ρ1) * (sb z0.2 ρ0)) * i27)) * ((1) * ((N.c 0)⁻¹) * ((N.c 1)⁻¹) / (3)) + ((2) * ((c.e : ℂ)) * ((c.gs : ℂ)) * ((c.mass .d : ℂ)) * ((N.c 1)⁻¹) * (ab z0.1 z3.1) * (ab z2.1 ρ1) * (sb z1.2 ρ0) / (3) + (-2) * ((c.e : ℂ)) * ((c.gs : ℂ)) * ((c.mass .d : ℂ)) * ((N.c 1)⁻¹) * (ab z0.1 ρ1) * (sb z1.2 z2.2) * (sb z3.2 ρ0) / (3) + (-2) * ((c.e : ℂ)) * ((c.gs : ℂ)) * ((N.c 1)⁻¹) * (ab z0.1 z3.1) * (ab z1.1 ρ1) * (sb z1.2 z2.2) * (sb z1.2 ρ0) / (3) + (-2) * ((c.e : ℂ)) * ((c.gs : ℂ)) * ((N.c 1)⁻¹) * (ab z0.1 z3.1) * (mb ρ0 (p 2) ρ1) * (sb z1.2 z2.2) / (3) + (-2) * ((c.e : ℂ)) * ((c.gs : ℂ)) * ((N.c 1)⁻¹) * (ab z2.1 ρ1) * (mb z1.2 (p 2) z0.1) * (sb z3.2 ρ0) / (3)) * y0 + ((-2) * ((c.e : ℂ)) * ((c.gs : ℂ)) * ((c.mass .d : ℂ)) * ((N.c 0)⁻¹) * (ab z0.1 z2.1) * (ab z3.1 ρ1) * (sb z1.2 ρ0) / (3) + (2) * ((c.e : ℂ)) * ((c.gs : ℂ)) * ((c.mass .d : ℂ)) * ((N.c 0)⁻¹) * (ab z0.1 ρ1) * (sb z1.2 z3.2) * (sb z2.2 ρ0) / (3) + (-2) * ((c.e : ℂ)) * ((c.gs : ℂ)) * ((N.c 0)⁻¹) * (ab z0.1 z2.1) * (ab z0.1 ρ1) * (sb z0.2 ρ0) * (sb z1.2 z3.2) / (3) + (-2) * ((c.e : ℂ)) * ((c.gs : ℂ)) * ((N.c 0)⁻¹) * (ab z0.1 z2.1) * (mb ρ0 (p 2) ρ1) * (sb z1.2 z3.2) / (3) + (-2) * ((c.e : ℂ)) * ((c.gs : ℂ)) * ((N.c 0)⁻¹) * (ab z3.1 ρ1) * (mb z1.2 (p 2) z0.1) * (sb z2.2 ρ0) / (3)) * y1 + ((1) * ((c.e : ℂ)) * ((c.gs : ℂ)) * ((c.mass .d : ℂ)) * ((N.c 0)⁻¹) * (ab z0.1 z2.1) * (ab z3.1 ρ1) * (sb z1.2 ρ0) / (3) + (-1) * ((c.e : ℂ)) * ((c.gs : ℂ)) * ((c.mass .d : ℂ)) * ((N.c 0)⁻¹) * (ab z0.1 ρ1) * (sb z1.2 z3.2) * (sb z2.2 ρ0) / (3) + (-1) * ((c.e : ℂ)) * ((c.gs : ℂ)) * ((c.mass .d : ℂ)) * ((N.c 1)⁻¹) * (ab z0.1 z3.1) * (ab z2.1 ρ1) * (sb z1.2 ρ0) / (3) + (1) * ((c.e : ℂ)) * ((c.gs : ℂ)) * ((c.mass .d : ℂ)) * ((N.c 1)⁻¹) * (ab z0.1 ρ1) * (sb z1.2 z2.2) * (sb z3.2 ρ0) / (3) + (1) * ((c.e : ℂ)) * ((c.gs : ℂ)) * ((N.c 0)⁻¹) * (ab z0.1 z2.1) * (ab z0.1 ρ1) * (sb z0.2 ρ0) * (sb z1.2 z3.2) / (3) + (1) * ((c.e : ℂ)) * ((c.gs : ℂ)) * ((N.c 0)⁻¹) * (ab z0.1 z2.1) * (mb ρ0 (p 2) ρ1) * (sb z1.2 z3.2) / (3) + (1) * ((c.e : ℂ)) * ((c.gs : ℂ)) * ((N.c 0)⁻¹) * (ab z3.1 ρ1) * (mb z1.2 (p 2) z0.1) * (sb z2.2 ρ0) / (3) + (1) * ((c.e : ℂ)) * ((c.gs : ℂ)) * ((N.c 1)⁻¹) * (ab z0.1 z3.1) * (ab z1.1 ρ1) * (sb z1.2 z2.2) * (sb z1.2 ρ0) / (3) + (1) * ((c.e : ℂ)) * ((c.gs : ℂ)) * ((N.c 1)⁻¹) * (ab z0.1 z3.1) * (mb ρ0 (p 2) ρ1) * (sb z1.2 z2.2) / (3) + (1) * ((c.e : ℂ)) * ((c.gs : ℂ)) * ((N.c 1)⁻¹) * (ab z2.1 ρ1) * (mb z1.2 (p 2) z0.1) * (sb z3.2 ρ0) / (3)) * x22
theorem gAdd.keyMM {c : Constants} {p : Nat → V4 ℝ} {N : Env} (hc : c.Physical) (hb : Balanced p) (r0 : N.r 0 = c.e) (r1 : N.r 1 = ((-((1 : Nat) : ℝ)) / ((3 : Nat) : ℝ))) (r2 : N.r 2 = c.gs) (r3 : N.r 3 = (c.mass .d)) (d0 : ((msq (plus (backward (p 3)) (p 1)) - c.mass .d ^ 2 : ℝ) : ℂ) = N.c 0) (n0 : N.c 0 ≠ 0) (d1 : ((msq (plus (backward (p 3)) (p 0)) - c.mass .d ^ 2 : ℝ) : ℂ) = N.c 1) (n1 : N.c 1 ≠ 0) {z0 z1 z2 z3 : Pair} (b2 : Bold (p 2) (c.mass .d) z2) (b3 : Bold (p 3) (c.mass .d) z3) (l0 : Light (p 0) z0) (l1 : Light (p 1) z1) (e02 : mb z0.2 (p 2) z0.1 = -N.c 0) (e03 : mb z0.2 (p 3) z0.1 = -N.c 1) (e12 : mb z1.2 (p 2) z1.1 = -N.c 1) (e13 : mb z1.2 (p 3) z1.1 = -N.c 0) (q2 : msq (p 2) = (c.mass .d) ^ 2) (q3 : msq (p 3) = (c.mass .d) ^ 2) (ρ0 ρ1 : V2) :
    gAdd.formMM N p z0 z1 z2 z3 * sb ρ0 z0.2 * sb ρ1 z1.2 = ((√2 : ℝ) * ((√2 : ℝ) * (1 : ℂ))) * gAdd.react.bare c p 2 3 0 1 z2 z3 (pv z0.1 ρ0) (pv z1.1 ρ1) := by
  rw [gAdd.react.bare_parts c p (i := 2) (j := 3) (a := 0) (b := 1) (x := .gluon) (y := .photon) (k := (p 0)) (k' := (p 1)) (fun _ => rfl) (fun _ => rfl) (f := .d) (g := .d) rfl rfl (l := (backward (p 3))) rfl (e := 1) (e' := -1) (if_neg Bool.false_ne_true) (if_pos rfl)]
  rw [compton_vv (f := .d) (x := .d) (g := .d) (h := (rfl : Spec.after .gluon Flavour.d = some Flavour.d)) (h' := (rfl : Spec.after .photon Flavour.d = some Flavour.d)) (ha := by simp) (hb := by simp)]
  rw [compton_vv (f := .d) (x := .d) (g := .d) (h := (rfl : Spec.after .photon Flavour.d = some Flavour.d)) (h' := (rfl : Spec.after .gluon Flavour.d = some Flavour.d)) (ha := by simp) (hb := by simp)]
  rw [annihilation_none c _ _ (by rfl) (by simp), star_zero, add_zero, gAdd.formMM]
  simp only [d0, d1, lineV_pv, lineV_four, contract_four_pv, contract_pv, mb_plus, mb_backward]
  have i0 := sb_schouten z1.2 ρ0 ρ1 z0.2
  have i1 := sb_schouten z2.2 z3.2 ρ1 z0.2
  have i2 := sb_schouten z1.2 z2.2 ρ0 z0.2
  have i3 := sb_schouten z3.2 ρ0 ρ1 z1.2
  have i4 := sb_schouten z1.2 z3.2 ρ0 z0.2
  have i5 := mb_schouten_right z3.2 (p 2) z0.1 z1.1 z2.1
  have i6 := sb_schouten z1.2 z3.2 ρ1 z0.2
  have i7 := mb_schouten_left z0.2 z1.2 ρ0 (p 2) z0.1
  have i8 := mb_schouten_right z1.2 (p 2) z0.1 z1.1 z2.1
  have i9 := mb_schouten_right z0.2 (p 2) z0.1 z1.1 z2.1
  have i10 := mb_schouten_right z1.2 (p 3) z0.1 z1.1 z2.1
  have i11 := mb_schouten_right ρ1 (p 2) z0.1 z1.1 z2.1
  have i12 := sb_schouten z3.2 ρ0 ρ1 z2.2
  have i13 := mb_schouten_right z0.2 (p 3) z0.1 z1.1 z2.1
  have i14 := mb_schouten_right z0.2 (p 3) z0.1 z1.1 z3.1
  have i15 := mb_schouten_left z0.2 z3.2 ρ0 (p 2) z0.1
  have i16 := mb_schouten_left z0.2 z3.2 ρ1 (p 2) z0.1
  have i17 := mb_schouten_left z0.2 ρ0 ρ1 (p 2) z0.1
  have i18 := mb_schouten_right ρ0 (p 2) z0.1 z1.1 z3.1
  have i19 := mb_schouten_left z0.2 z2.2 ρ1 (p 2) z0.1
  have i20 := mb_schouten_right ρ1 (p 2) z0.1 z1.1 z3.1
  have i21 := mb_schouten_left z0.2 z2.2 ρ0 (p 2) z0.1
  have i22 := mb_schouten_right z2.2 (p 3) z0.1 z1.1 z3.1
  have i23 := mb_schouten_right z0.2 (p 2) z0.1 z1.1 z3.1
  have i24 := mb_schouten_right z1.2 (p 2) z0.1 z1.1 z3.1
  have i25 := sb_schouten z3.2 ρ0 ρ1 z0.2
  have i26 := mb_schouten_right ρ0 (p 2) z0.1 z1.1 z2.1
  have i27 := sb_schouten z2.2 z3.2 ρ0 z0.2
  have i28 := sb_schouten z2.2 ρ0 ρ1 z1.2
  have i29 := sb_schouten z2.2 ρ0 ρ1 z0.2
  have i30 := mb_schouten_left z0.2 z1.2 ρ1 (p 2) z0.1
  have i31 := mb_schouten_right z1.2 (p 3) z0.1 z1.1 z3.1
  simp only [l0.mb_eq, l1.mb_eq, b2.mb_left, b2.mb_right, b3.mb_left, b3.mb_right, e02, e03, e12, e13, mb_three hb z0.2 z1.1, mb_three hb z0.2 z2.1, mb_two hb z0.2 z3.1, mb_three hb z1.2 z0.1, mb_three hb z1.2 z2.1, mb_two hb z1.2 z3.1, mb_three hb z2.2 z0.1, mb_three hb z2.2 z1.1, mb_three hb z2.2 z2.1, mb_two hb z3.2 z0.1, mb_two hb z3.2 z1.1, mb_two hb z3.2 z3.1, mb_three hb ρ0 z0.1, mb_three hb ρ0 z1.1, mb_three hb ρ0 z2.1, mb_two hb ρ0 z3.1, mb_three hb ρ1 z0.1, mb_three hb ρ1 z1.1, mb_three hb ρ1 z2.1, mb_two hb ρ1 z3.1, ab_self, sb_self] at i0 i1 i2 i3 i4 i5 i6 i7 i8 i9 i10 i11 i12 i13 i14 i15 i16 i17 i18 i19 i20 i21 i22 i23 i24 i25 i26 i27 i28 i29 i30 i31 ⊢
  simp only [ab_swap z0.1 z1.1, ab_swap z0.1 z2.1, ab_swap z0.1 z3.1, ab_swap z1.1 z2.1, ab_swap z1.1 z3.1, ab_swap z2.1 z3.1, sb_swap z0.2 z1.2, sb_swap z0.2 z2.2, sb_swap z0.2 z3.2, sb_swap z0.2 ρ0, sb_swap z0.2 ρ1, sb_swap z1.2 z2.2, sb_swap z1.2 z3.2, sb_swap z1.2 ρ0, sb_swap z1.2 ρ1, sb_swap z2.2 z3.2, sb_swap z2.2 ρ0, sb_swap z2.2 ρ1, sb_swap z3.2 ρ0, sb_swap z3.2 ρ1, sb_swap ρ0 ρ1] at i0 i1 i2 i3 i4 i5 i6 i7 i8 i9 i10 i11 i12 i13 i14 i15 i16 i17 i18 i19 i20 i21 i22 i23 i24 i25 i26 i27 i28 i29 i30 i31 ⊢
  simp only [r0, r1, r2, r3, Constants.hL, Constants.hR, Constants.gL, Constants.gR, Constants.yuk, Constants.invVev, Flavour.charge_d, Flavour.isospin_d, ← c.mz]
  have xMW : (c.MW : ℂ) ≠ 0 := by exact_mod_cast hc.MW
  have xSW : (c.SW : ℂ) ≠ 0 := by exact_mod_cast hc.SW
  have xCW : (c.CW : ℂ) ≠ 0 := by exact_mod_cast hc.CW
  have x2 : ((√2 : ℝ) : ℂ) ≠ 0 := by exact_mod_cast (Real.sqrt_pos.2 two_pos).ne'
  have x22 : ((√2 : ℝ) : ℂ) ^ 2 = 2 := by rw [← Complex.ofReal_pow, Real.sq_sqrt two_pos.le]; norm_num
  have x23 : ((√2 : ℝ) : ℂ) ^ 3 = 2 * ((√2 : ℝ) : ℂ) := by rw [← x22]; ring
  have x24 : ((√2 : ℝ) : ℂ) ^ 4 = 4 := by linear_combination (((√2 : ℝ) : ℂ) ^ 2 + 2) * x22
  push_cast at i0 i1 i2 i3 i4 i5 i6 i7 i8 i9 i10 i11 i12 i13 i14 i15 i16 i17 i18 i19 i20 i21 i22 i23 i24 i25 i26 i27 i28 i29 i30 i31 ⊢
  have y0 := mul_inv_cancel₀ n0
  have y1 := mul_inv_cancel₀ n1
  linear_combination ((((2) * ((c.e : ℂ)) * ((c.gs : ℂ)) * ((c.mass .d : ℂ)) * (ab z0.1 z1.1) ^ 2 * (sb z2.2 z3.2)) * i0 + ((2) * ((c.e : ℂ)) * ((c.gs : ℂ)) * ((c.mass .d : ℂ)) * (ab z0.1 z1.1) * (mb ρ0 (p 2) z0.1) + (-2) * ((c.e : ℂ)) * ((c.gs : ℂ)) * ((c.mass .d : ℂ)) * (ab z0.1 z1.1) ^ 2 * (sb z1.2 ρ0)) * i1 + ((-2) * ((c.e : ℂ)) * ((c.gs : ℂ)) * ((c.mass .d : ℂ)) * (ab z0.1 z1.1) ^ 2 * (sb z3.2 ρ1)) * i2 + ((2) * ((c.e : ℂ)) * ((c.gs : ℂ)) * (N.c 0) * (ab z0.1 z1.1) * (ab z1.1 z2.1)) * i3 + ((2) * ((c.e : ℂ)) * ((c.gs : ℂ)) * (ab z0.1 z1.1) * (ab z0.1 z2.1) * (mb ρ1 (p 2) z1.1) + (-2) * ((c.e : ℂ)) * ((c.gs : ℂ)) * (ab z0.1 z1.1) * (ab z1.1 z2.1) * (mb ρ1 (p 2) z0.1)) * i4 + ((-2) * ((c.e : ℂ)) * ((c.gs : ℂ)) * (N.c 0) * (sb ρ0 ρ1) + (-2) * ((c.e : ℂ)) * ((c.gs : ℂ)) * (mb ρ0 (p 2) z0.1) * (sb z0.2 ρ1) + (2) * ((c.e : ℂ)) * ((c.gs : ℂ)) * (mb ρ1 (p 2) z0.1) * (sb z0.2 ρ0)) * i5 + ((2) * ((c.e : ℂ)) * ((c.gs : ℂ)) * ((c.mass .d : ℂ)) * (ab z0.1 z1.1) ^ 2 * (sb z2.2 ρ0) + (-2) * ((c.e : ℂ)) * ((c.gs : ℂ)) * (ab z0.1 z1.1) * (ab z0.1 z2.1) * (mb ρ0 (p 2) z1.1) + (2) * ((c.e : ℂ)) * ((c.gs : ℂ)) * (ab z0.1 z1.1) * (ab z1.1 z2.1) * (mb ρ0 (p 2) z0.1)) * i6 + ((-2) * ((c.e : ℂ)) * ((c.gs : ℂ)) * (ab z0.1 z1.1) * (ab z1.1 z2.1) * (sb z3.2 ρ1)) * i7 + ((-2) * ((c.e : ℂ)) * ((c.gs : ℂ)) * (ab z0.1 z1.1) * (sb z0.2 ρ0) * (sb z3.2 ρ1) + (-2) * ((c.e : ℂ)) * ((c.gs : ℂ)) * (mb ρ0 (p 2) z1.1) * (sb z3.2 ρ1) + (2) * ((c.e : ℂ)) * ((c.gs : ℂ)) * (mb ρ1 (p 2) z1.1) * (sb z3.2 ρ0)) * i8 + ((2) * ((c.e : ℂ)) * ((c.gs : ℂ)) * (mb ρ1 (p 2) z0.1) * (sb z3.2 ρ0)) * i9 + ((-2) * ((c.e : ℂ)) * ((c.gs : ℂ)) * (mb ρ0 (p 2) z1.1) * (sb z3.2 ρ1) + (2) * ((c.e : ℂ)) * ((c.gs : ℂ)) * (mb ρ1 (p 2) z1.1) * (sb z3.2 ρ0)) * i10 + ((-2) * ((c.e : ℂ)) * ((c.gs : ℂ)) * ((c.mass .d : ℂ)) * (ab z0.1 z3.1) * (sb z0.2 ρ0) + (2) * ((c.e : ℂ)) * ((c.gs : ℂ)) * (N.c 1) * (sb z3.2 ρ0) + (-2) * ((c.e : ℂ)) * ((c.gs : ℂ)) * (ab z0.1 z1.1) * (sb z0.2 z3.2) * (sb z1.2 ρ0) + (2) * ((c.e : ℂ)) * ((c.gs : ℂ)) * (mb ρ0 (p 2) z0.1) * (sb z0.2 z3.2)) * i11 + ((2) * ((c.e : ℂ)) * ((c.gs : ℂ)) * ((c.mass .d : ℂ)) * (N.c 0) * (ab z0.1 z1.1) + (-2) * ((c.e : ℂ)) * ((c.gs : ℂ)) * ((c.mass .d : ℂ)) * (N.c 1) * (ab z0.1 z1.1)) * i12 + ((2) * ((c.e : ℂ)) * ((c.gs : ℂ)) * ((c.mass .d : ℂ)) * (ab z0.1 z3.1) * (sb ρ0 ρ1) + (2) * ((c.e : ℂ)) * ((c.gs : ℂ)) * (mb ρ1 (p 2) z0.1) * (sb z3.2 ρ0)) * i13 + ((-4) * ((c.e : ℂ)) * ((c.gs : ℂ)) * ((c.mass .d : ℂ)) * (ab z0.1 z2.1) * (sb ρ0 ρ1) + (-2) * ((c.e : ℂ)) * ((c.gs : ℂ)) * (ab z0.1 z1.1) * (sb z1.2 z2.2) * (sb ρ0 ρ1) + (2) * ((c.e : ℂ)) * ((c.gs : ℂ)) * (mb ρ1 (p 2) z0.1) * (sb z2.2 ρ0)) * i14 + ((2) * ((c.e : ℂ)) * ((c.gs : ℂ)) * (ab z0.1 z1.1) * (ab z0.1 z2.1) * (sb z0.2 ρ1) + (2) * ((c.e : ℂ)) * ((c.gs : ℂ)) * (ab z0.1 z2.1) * (mb ρ1 (p 2) z1.1)) * i15 + ((-2) * ((c.e : ℂ)) * ((c.gs : ℂ)) * (ab z0.1 z1.1) * (ab z0.1 z2.1) * (sb z0.2 ρ0) + (-2) * ((c.e : ℂ)) * ((c.gs : ℂ)) * (ab z0.1 z2.1) * (mb ρ0 (p 2) z1.1)) * i16 + ((4) * ((c.e : ℂ)) * ((c.gs : ℂ)) * ((c.mass .d : ℂ)) * (ab z0.1 z2.1) * (ab z1.1 z3.1)) * i17 + ((2) * ((c.e : ℂ)) * ((c.gs : ℂ)) * ((c.mass .d : ℂ)) * (ab z0.1 z2.1) * (sb z0.2 ρ1) + (2) * ((c.e : ℂ)) * ((c.gs : ℂ)) * (mb ρ1 (p 2) z0.1) * (sb z0.2 z2.2)) * i18 + ((4) * ((c.e : ℂ)) * ((c.gs : ℂ)) * ((c.mass .d : ℂ)) * (ab z0.1 z1.1) * (sb z3.2 ρ0) + (2) * ((c.e : ℂ)) * ((c.gs : ℂ)) * (ab z0.1 z1.1) * (ab z0.1 z3.1) * (sb z0.2 ρ0) + (2) * ((c.e : ℂ)) * ((c.gs : ℂ)) * (ab z0.1 z1.1) * (ab z1.1 z3.1) * (sb z1.2 ρ0) + (2) * ((c.e : ℂ)) * ((c.gs : ℂ)) * (ab z0.1 z3.1) * (mb ρ0 (p 2) z1.1)) * i19 + ((-2) * ((c.e : ℂ)) * ((c.gs : ℂ)) * ((c.mass .d : ℂ)) * (ab z0.1 z2.1) * (sb z0.2 ρ0) + (2) * ((c.e : ℂ)) * ((c.gs : ℂ)) * (N.c 0) * (sb z2.2 ρ0) + (-2) * ((c.e : ℂ)) * ((c.gs : ℂ)) * (mb ρ0 (p 2) z0.1) * (sb z0.2 z2.2)) * i20 + ((-4) * ((c.e : ℂ)) * ((c.gs : ℂ)) * ((c.mass .d : ℂ)) * (ab z0.1 z1.1) * (sb z3.2 ρ1) + (-2) * ((c.e : ℂ)) * ((c.gs : ℂ)) * (ab z0.1 z1.1) * (ab z0.1 z3.1) * (sb z0.2 ρ1) + (-2) * ((c.e : ℂ)) * ((c.gs : ℂ)) * (ab z0.1 z1.1) * (ab z1.1 z3.1) * (sb z1.2 ρ1) + (-2) * ((c.e : ℂ)) * ((c.gs : ℂ)) * (ab z0.1 z3.1) * (mb ρ1 (p 2) z1.1)) * i21 + ((-2) * ((c.e : ℂ)) * ((c.gs : ℂ)) * (N.c 1) * (sb ρ0 ρ1) + (2) * ((c.e : ℂ)) * ((c.gs : ℂ)) * (ab z0.1 z1.1) * (sb z0.2 z1.2) * (sb ρ0 ρ1)) * i22 + ((-2) * ((c.e : ℂ)) * ((c.gs : ℂ)) * ((c.mass .d : ℂ)) * (ab z0.1 z2.1) * (sb ρ0 ρ1) + (-2) * ((c.e : ℂ)) * ((c.gs : ℂ)) * (ab z0.1 z1.1) * (sb z1.2 z2.2) * (sb ρ0 ρ1) + (2) * ((c.e : ℂ)) * ((c.gs : ℂ)) * (mb ρ1 (p 2) z0.1) * (sb z2.2 ρ0)) * i23 + ((2) * ((c.e : ℂ)) * ((c.gs : ℂ)) * (ab z0.1 z1.1) * (sb z0.2 z2.2) * (sb ρ0 ρ1)) * i24 + ((-2) * ((c.e : ℂ)) * ((c.gs : ℂ)) * ((c.mass .d : ℂ)) ^ 2 * (ab z0.1 z1.1) * (ab z0.1 z2.1) + (2) * ((c.e : ℂ)) * ((c.gs : ℂ)) * (N.c 0) * (ab z0.1 z1.1) * (ab z0.1 z2.1)) * i25 + ((2) * ((c.e : ℂ)) * ((c.gs : ℂ)) * ((c.mass .d : ℂ)) * (ab z0.1 z3.1) * (sb z0.2 ρ1) + (2) * ((c.e : ℂ)) * ((c.gs : ℂ)) * (ab z0.1 z1.1) * (sb z0.2 z3.2) * (sb z1.2 ρ1) + (-2) * ((c.e : ℂ)) * ((c.gs : ℂ)) * (mb ρ1 (p 2) z0.1) * (sb z0.2 z3.2)) * i26 + ((-2) * ((c.e : ℂ)) * ((c.gs : ℂ)) * ((c.mass .d : ℂ)) * (ab z0.1 z1.1) * (mb ρ1 (p 2) z0.1)) * i27 + ((-2) * ((c.e : ℂ)) * ((c.gs : ℂ)) * (N.c 0) * (ab z0.1 z1.1) * (ab z1.1 z3.1)) * i28 + ((-2) * ((c.e : ℂ)) * ((c.gs : ℂ)) * ((c.mass .d : ℂ)) * (ab z0.1 z1.1) ^ 2 * (sb z1.2 z3.2) + (-2) * ((c.e : ℂ)) * ((c.gs : ℂ)) * ((c.mass .d : ℂ)) ^ 2 * (ab z0.1 z1.1) * (ab z0.1 z3.1) + (-2) * ((c.e : ℂ)) * ((c.gs : ℂ)) * (ab z0.1 z1.1) * (ab z1.1 z3.1) * (mb z1.2 (p 2) z0.1)) * i29 + ((-2) * ((c.e : ℂ)) * ((c.gs : ℂ)) * (ab z0.1 z1.1) * (ab z1.1 z3.1) * (sb z2.2 ρ0)) * i30 + ((2) * ((c.e : ℂ)) * ((c.gs : ℂ)) * (ab z0.1 z1.1) * (sb z0.2 ρ0) * (sb z2.2 ρ1)) * i31)) * ((1) * ((N.c 0)⁻¹) * ((N.c 1)⁻¹) / (3)) + ((2) * ((c.e : ℂ)) * ((c.gs : ℂ)) * ((c.mass .d : ℂ)) * ((N.c 1)⁻¹) * (ab z0.1 z1.1) * (sb z2.2 ρ1) * (sb z3.2 ρ0) / (3) + (2) * ((c.e : ℂ)) * ((c.gs : ℂ)) * ((c.mass .d : ℂ)) * ((N.c 1)⁻¹) * (ab z0.1 z3.1) * (ab z1.1 z2.1) * (sb ρ0 ρ1) / (3) + (-2) * ((c.e : ℂ)) * ((c.gs : ℂ)) * ((N.c 1)⁻¹) * (ab z0.1 z1.1) * (ab z1.1 z2.1) * (sb z1.2 ρ1) * (sb z3.2 ρ0) / (3) + (2) * ((c.e : ℂ)) * ((c.gs : ℂ)) * ((N.c 1)⁻¹) * (ab z0.1 z3.1) * (mb ρ0 (p 2) z1.1) * (sb z2.2 ρ1) / (3) + (2) * ((c.e : ℂ)) * ((c.gs : ℂ)) * ((N.c 1)⁻¹) * (ab z1.1 z2.1) * (mb ρ1 (p 2) z0.1) * (sb z3.2 ρ0) / (3)) * y0 + ((-2) * ((c.e : ℂ)) * ((c.gs : ℂ)) * ((c.mass .d : ℂ)) * ((N.c 0)⁻¹) * (ab z0.1 z1.1) * (sb z2.2 ρ0) * (sb z3.2 ρ1) / (3) + (-2) * ((c.e : ℂ)) * ((c.gs : ℂ)) * ((c.mass .d : ℂ)) * ((N.c 0)⁻¹) * (ab z0.1 z2.1) * (ab z1.1 z3.1) * (sb ρ0 ρ1) / (3) + (2) * ((c.e : ℂ)) * ((c.gs : ℂ)) * ((N.c 0)⁻¹) * (ab z0.1 z1.1) * (ab z0.1 z2.1) * (sb z0.2 ρ0) * (sb z3.2 ρ1) / (3) + (2) * ((c.e : ℂ)) * ((c.gs : ℂ)) * ((N.c 0)⁻¹) * (ab z0.1 z2.1) * (mb ρ0 (p 2) z1.1) * (sb z3.2 ρ1) / (3) + (2) * ((c.e : ℂ)) * ((c.gs : ℂ)) * ((N.c 0)⁻¹) * (ab z1.1 z3.1) * (mb ρ1 (p 2) z0.1) * (sb z2.2 ρ0) / (3)) * y1 + ((1) * ((c.e : ℂ)) * ((c.gs : ℂ)) * ((c.mass .d : ℂ)) * ((N.c 0)⁻¹) * (ab z0.1 z1.1) * (sb z2.2 ρ0) * (sb z3.2 ρ1) / (3) + (1) * ((c.e : ℂ)) * ((c.gs : ℂ)) * ((c.mass .d : ℂ)) * ((N.c 0)⁻¹) * (ab z0.1 z2.1) * (ab z1.1 z3.1) * (sb ρ0 ρ1) / (3) + (-1) * ((c.e : ℂ)) * ((c.gs : ℂ)) * ((c.mass .d : ℂ)) * ((N.c 1)⁻¹) * (ab z0.1 z1.1) * (sb z2.2 ρ1) * (sb z3.2 ρ0) / (3) + (-1) * ((c.e : ℂ)) * ((c.gs : ℂ)) * ((c.mass .d : ℂ)) * ((N.c 1)⁻¹) * (ab z0.1 z3.1) * (ab z1.1 z2.1) * (sb ρ0 ρ1) / (3) + (-1) * ((c.e : ℂ)) * ((c.gs : ℂ)) * ((N.c 0)⁻¹) * (ab z0.1 z1.1) * (ab z0.1 z2.1) * (sb z0.2 ρ0) * (sb z3.2 ρ1) / (3) + (-1) * ((c.e : ℂ)) * ((c.gs : ℂ)) * ((N.c 0)⁻¹) * (ab z0.1 z2.1) * (mb ρ0 (p 2) z1.1) * (sb z3.2 ρ1) / (3) + (-1) * ((c.e : ℂ)) * ((c.gs : ℂ)) * ((N.c 0)⁻¹) * (ab z1.1 z3.1) * (mb ρ1 (p 2) z0.1) * (sb z2.2 ρ0) / (3) + (1) * ((c.e : ℂ)) * ((c.gs : ℂ)) * ((N.c 1)⁻¹) * (ab z0.1 z1.1) * (ab z1.1 z2.1) * (sb z1.2 ρ1) * (sb z3.2 ρ0) / (3) + (-1) * ((c.e : ℂ)) * ((c.gs : ℂ)) * ((N.c 1)⁻¹) * (ab z0.1 z3.1) * (mb ρ0 (p 2) z1.1) * (sb z2.2 ρ1) / (3) + (-1) * ((c.e : ℂ)) * ((c.gs : ℂ)) * ((N.c 1)⁻¹) * (ab z1.1 z2.1) * (mb ρ1 (p 2) z0.1) * (sb z3.2 ρ0) / (3)) * x22
set_option maxRecDepth 8000 in
theorem gAdd.amp2_eq (N : Env) (f : Nat → List Int → ℂ) : Cls.gAdd.m_amp2.mean N f .r [] =
    ((sumW (fun x a => (sumW (fun x b => (sumJ (fun x c => (sumJ (fun x d => (x + (((4 : Nat) : ℝ) * (‖(f 0 [a, b, c, d])‖ ^ 2)))) x)) x)) x)) ((0 : Nat) : ℝ)) / ((32 : Nat) : ℝ)) := by rfl
set_option maxRecDepth 8000 in
theorem gAdd.value (N : Env) : meaning N .r Cls.gAdd.methods Cls.gAdd.amp2 [] =
    ((sumW (fun x a => (sumW (fun x b => (sumJ (fun x c => (sumJ (fun x d => (x + (((4 : Nat) : ℝ) * (‖(Cls.gAdd.m_amp.mean N (callMean N []) .c [a, b, c, d])‖ ^ 2)))) x)) x)) x)) ((0 : Nat) : ℝ)) / ((32 : Nat) : ℝ)) :=
  gAdd.amp2_eq N (callMean N [Cls.gAdd.m_amp])
set_option maxRecDepth 8000 in
theorem gAdd.ampPP (N : Env) (f : Nat → List Int → ℂ) (j3 j4 : Int) : Cls.gAdd.m_amp.mean N f .c [2, 2, j3, j4] = gAdd.termPP N j3 j4 := by rfl
set_option maxRecDepth 8000 in
theorem gAdd.ampPM (N : Env) (f : Nat → List Int → ℂ) (j3 j4 : Int) : Cls.gAdd.m_amp.mean N f .c [2, (-2), j3, j4] = gAdd.termPM N j3 j4 := by rfl
set_option maxRecDepth 8000 in
theorem gAdd.ampMP (N : Env) (f : Nat → List Int → ℂ) (j3 j4 : Int) : Cls.gAdd.m_amp.mean N f .c [(-2), 2, j3, j4] = gAdd.termMP N j3 j4 := by rfl
set_option maxRecDepth 8000 in
theorem gAdd.ampMM (N : Env) (f : Nat → List Int → ℂ) (j3 j4 : Int) : Cls.gAdd.m_amp.mean N f .c [(-2), (-2), j3, j4] = gAdd.termMM N j3 j4 := by rfl

theorem gAdd.mass_eq {c : Constants} (hc : c.Physical) (i : Fin 4) : gAdd.proc.massNum (gAdd.rho c) i = gAdd.react.mass c i := by
  fin_cases i <;> first | rfl | exact Nat.cast_zero | exact Nat.cast_zero.trans (hc.neutrino _).symm | (show c.MW / √(((1 : Nat) : ℝ) - c.SW * c.SW) = c.MZ; rw [c.root, c.mz])

variable [FPEnv] in
theorem gAdd.amps {c : Constants} {p : Nat → V4 ℝ} {u : Fin 4 → Fin 3 → Spinor} {ε : Fin 4 → Fin 3 → Vec} (hc : c.Physical) (hh : c.Heavy) (h0 : ∀ i, 0 ≤ gAdd.react.mass c i) (hs : ∀ i : Fin 4, OnShell (p i) (gAdd.react.mass c i)) (hb : Balanced p) (hr : gAdd.react.Regular c p) (hu : ∀ i, gAdd.react.Complete c p i (u i) (ε i)) :
    (gAdd.N c p).c 0 ≠ 0 ∧ (gAdd.N c p).c 1 ≠ 0 ∧ (∀ n, (Ty.r, n) ∈ gAdd.proc.divides → (gAdd.N c p).r n ≠ 0) ∧ (∀ n, (Ty.c, n) ∈ gAdd.proc.divides → (gAdd.N c p).c n ≠ 0) ∧ ∀ (s2 : Fin 2) (s3 : Fin 2) (h0 : Fin 2) (h1 : Fin 2), ‖Cls.gAdd.m_amp.mean (gAdd.N c p) (callMean (gAdd.N c p) []) .c [spinW h0, spinW h1, spinOf s2, spinOf s3]‖ = ‖gAdd.react.bare c p 2 3 0 1 (gAdd.react.codePair c p 2 s2) (gAdd.react.codePair c p 3 s3) (lightE (legA (p 0) 0 0, legS (p 0) 0 1) h0.castSucc) (lightE (legA (p 1) 0 0, legS (p 1) 0 1) h1.castSucc)‖ := by
  have he : gAdd.react.ends = [2] := by decide
  have ht : gAdd.react.starts = [3] := by decide
  have hB : gAdd.react.bosons = [0, 1] := by decide
  obtain ⟨f1, f2, f3⟩ := gAdd.react.regular_line he ht hB hr
  have r0 : (gAdd.N c p).r 0 = c.e := rfl
  have r1 : (gAdd.N c p).r 1 = ((-((1 : Nat) : ℝ)) / ((3 : Nat) : ℝ)) := rfl
  have r2 : (gAdd.N c p).r 2 = c.gs := rfl
  have r3 : (gAdd.N c p).r 3 = (c.mass .d) := rfl
  have c0 : (gAdd.N c p).c 0 = poleDist (c.mass .d) ((0 : Nat) : ℝ) ((VExp.sub 0 2).sum p) := rfl
  rw [Nat.cast_zero, pole_fermion rfl] at c0
  have d0 : ((msq (plus (backward (p 3)) (p 1)) - c.mass .d ^ 2 : ℝ) : ℂ) = (gAdd.N c p).c 0 := by rw [c0, msq_t hb (plus (backward (p 3)) (p 1)) (by simp)]
  have n0 : (gAdd.N c p).c 0 ≠ 0 := by rw [← d0]; exact_mod_cast f2 .d rfl rfl
  have c1 : (gAdd.N c p).c 1 = poleDist (c.mass .d) ((0 : Nat) : ℝ) ((VExp.sub 0 3).sum p) := rfl
  rw [Nat.cast_zero, pole_fermion rfl] at c1
  have d1 : ((msq (plus (backward (p 3)) (p 0)) - c.mass .d ^ 2 : ℝ) : ℂ) = (gAdd.N c p).c 1 := by rw [c1, msq_u hb (plus (backward (p 3)) (p 0)) (by simp)]
  have n1 : (gAdd.N c p).c 1 ≠ 0 := by rw [← d1]; exact_mod_cast f1 .d rfl rfl
  obtain ⟨l0, x0, y0⟩ := gAdd.react.code_light hs hu (n := 0) rfl rfl
  obtain ⟨l1, x1, y1⟩ := gAdd.react.code_light hs hu (n := 1) rfl rfl
  have e02 := l0.pole_sub (m := (c.mass .d)) (onShell_msq (hs 2)) (msq_t hb (plus (p 0) (backward (p 2))) (by simp)) c0
  have e03 := l0.pole_sub (m := (c.mass .d)) (onShell_msq (hs 3)) (msq_u hb (plus (p 0) (backward (p 3))) (by simp)) c1
  have e12 := l1.pole_sub (m := (c.mass .d)) (onShell_msq (hs 2)) (msq_u hb (plus (p 1) (backward (p 2))) (by simp)) c1
  have e13 := l1.pole_sub (m := (c.mass .d)) (onShell_msq (hs 3)) (msq_t hb (plus (p 1) (backward (p 3))) (by simp)) c0
  have m2 : gAdd.react.mass c 2 ≠ 0 := (leg_pos hc hh (by decide)).ne'
  have m3 : gAdd.react.mass c 3 ≠ 0 := (leg_pos hc hh (by decide)).ne'
  have m0 : gAdd.react.mass c 0 = 0 := rfl
  have m1 : gAdd.react.mass c 1 = 0 := rfl
  have hd : gAdd.proc.divides = [(Ty.c, 0), (Ty.c, 1)] := by decide +kernel
  have stPP : ∀ {z2 z3 : Pair} (b2 : Bold (p 2) (gAdd.react.mass c 2) z2) (b3 : Bold (p 3) (gAdd.react.mass c 3) z3), gAdd.formPP (gAdd.N c p) p (legA (p 0) 0 0, legS (p 0) 0 1) (legA (p 1) 0 0, legS (p 1) 0 1) z2 z3 = 1 * gAdd.react.bare c p 2 3 0 1 z2 z3 (lightE (legA (p 0) 0 0, legS (p 0) 0 1) 1) (lightE (legA (p 1) 0 0, legS (p 1) 0 1) 1) := by
    intro z2 z3 b2 b3
    exact (light_plus (z := (legA (p 0) 0 0, legS (p 0) 0 1)) (G := fun E => gAdd.react.bare c p 2 3 0 1 z2 z3 E (lightE (legA (p 1) 0 0, legS (p 1) 0 1) 1)) (gAdd.react.bare_lin₁ c p _ _ _ (by decide)) x0 (light_plus (z := (legA (p 1) 0 0, legS (p 1) 0 1)) (G := fun E => gAdd.react.bare c p 2 3 0 1 z2 z3 (pv (legA (p 0) 0 0, legS (p 0) 0 1).2 (legA (p 0) 0 0, legS (p 0) 0 1).2) E) (gAdd.react.bare_lin₂ c p _ _ _ (by decide)) x1 (gAdd.keyPP hc hb r0 r1 r2 r3 d0 n0 d1 n1 b2 b3 l0 l1 e02 e03 e12 e13 (onShell_msq (hs 2)) (onShell_msq (hs 3)) _ _)))
  have stPM : ∀ {z2 z3 : Pair} (b2 : Bold (p 2) (gAdd.react.mass c 2) z2) (b3 : Bold (p 3) (gAdd.react.mass c 3) z3), gAdd.formPM (gAdd.N c p) p (legA (p 0) 0 0, legS (p 0) 0 1) (legA (p 1) 0 0, legS (p 1) 0 1) z2 z3 = 1 * gAdd.react.bare c p 2 3 0 1 z2 z3 (lightE (legA (p 0) 0 0, legS (p 0) 0 1) 1) (lightE (legA (p 1) 0 0, legS (p 1) 0 1) 0) := by
    intro z2 z3 b2 b3
    exact (light_plus (z := (legA (p 0) 0 0, legS (p 0) 0 1)) (G := fun E => gAdd.react.bare c p 2 3 0 1 z2 z3 E (lightE (legA (p 1) 0 0, legS (p 1) 0 1) 0)) (gAdd.react.bare_lin₁ c p _ _ _ (by decide)) x0 (light_minus (z := (legA (p 1) 0 0, legS (p 1) 0 1)) (G := fun E => gAdd.react.bare c p 2 3 0 1 z2 z3 (pv (legA (p 0) 0 0, legS (p 0) 0 1).2 (legA (p 0) 0 0, legS (p 0) 0 1).2) E) (gAdd.react.bare_lin₂ c p _ _ _ (by decide)) y1 (gAdd.keyPM hc hb r0 r1 r2 d0 n0 d1 n1 b2 b3 l0 l1 e02 e03 e12 e13 (onShell_msq (hs 2)) (onShell_msq (hs 3)) _ _)))
  have stMP : ∀ {z2 z3 : Pair} (b2 : Bold (p 2) (gAdd.react.mass c 2) z2) (b3 : Bold (p 3) (gAdd.react.mass c 3) z3), gAdd.formMP (gAdd.N c p) p (legA (p 0) 0 0, legS (p 0) 0 1) (legA (p 1) 0 0, legS (p 1) 0 1) z2 z3 = 1 * gAdd.react.bare c p 2 3 0 1 z2 z3 (lightE (legA (p 0) 0 0, legS (p 0) 0 1) 0) (lightE (legA (p 1) 0 0, legS (p 1) 0 1) 1) := by
    intro z2 z3 b2 b3
    exact (light_minus (z := (legA (p 0) 0 0, legS (p 0) 0 1)) (G := fun E => gAdd.react.bare c p 2 3 0 1 z2 z3 E (lightE (legA (p 1) 0 0, legS (p 1) 0 1) 1)) (gAdd.react.bare_lin₁ c p _ _ _ (by decide)) y0 (light_plus (z := (legA (p 1) 0 0, legS (p 1) 0 1)) (G := fun E => gAdd.react.bare c p 2 3 0 1 z2 z3 (pv (legA (p 0) 0 0, legS (p 0) 0 1).1 (legA (p 0) 0 0, legS (p 0) 0 1).1) E) (gAdd.react.bare_lin₂ c p _ _ _ (by decide)) x1 (gAdd.keyMP hc hb r0 r1 r2 d0 n0 d1 n1 b2 b3 l0 l1 e02 e03 e12 e13 (onShell_msq (hs 2)) (onShell_msq (hs 3)) _ _)))
  have stMM : ∀ {z2 z3 : Pair} (b2 : Bold (p 2) (gAdd.react.mass c 2) z2) (b3 : Bold (p 3) (gAdd.react.mass c 3) z3), gAdd.formMM (gAdd.N c p) p (legA (p 0) 0 0, legS (p 0) 0 1) (legA (p 1) 0 0, legS (p 1) 0 1) z2 z3 = 1 * gAdd.react.bare c p 2 3 0 1 z2 z3 (lightE (legA (p 0) 0 0, legS (p 0) 0 1) 0) (lightE (legA (p 1) 0 0, legS (p 1) 0 1) 0) := by
    intro z2 z3 b2 b3
    exact (light_minus (z := (legA (p 0) 0 0, legS (p 0) 0 1)) (G := fun E => gAdd.react.bare c p 2 3 0 1 z2 z3 E (lightE (legA (p 1) 0 0, legS (p 1) 0 1) 0)) (gAdd.react.bare_lin₁ c p _ _ _ (by decide)) y0 (light_minus (z := (legA (p 1) 0 0, legS (p 1) 0 1)) (G := fun E => gAdd.react.bare c p 2 3 0 1 z2 z3 (pv (legA (p 0) 0 0, legS (p 0) 0 1).1 (legA (p 0) 0 0, legS (p 0) 0 1).1) E) (gAdd.react.bare_lin₂ c p _ _ _ (by decide)) y1 (gAdd.keyMM hc hb r0 r1 r2 r3 d0 n0 d1 n1 b2 b3 l0 l1 e02 e03 e12 e13 (onShell_msq (hs 2)) (onShell_msq (hs 3)) _ _)))
  have amPP : ∀ (s2 : Fin 2) (s3 : Fin 2), Cls.gAdd.m_amp.mean (gAdd.N c p) (callMean (gAdd.N c p) []) .c [2, 2, spinOf s2, spinOf s3] = 1 * gAdd.react.bare c p 2 3 0 1 (gAdd.react.codePair c p 2 s2) (gAdd.react.codePair c p 3 s3) (lightE (legA (p 0) 0 0, legS (p 0) 0 1) 1) (lightE (legA (p 1) 0 0, legS (p 1) 0 1) 1) := by
    intro s2 s3
    rw [gAdd.ampPP, ← stPP (gAdd.react.codePair_bold hs h0 2 s2) (gAdd.react.codePair_bold hs h0 3 s3)]
    have v2z0z1 : (gAdd.N c p).v 2 [] = sb (legA (p 0) 0 0, legS (p 0) 0 1).2 (legA (p 1) 0 0, legS (p 1) 0 1).2 := bra_square (p := p) (m := gAdd.proc.massNum (gAdd.rho c)) (gAdd.mass_eq hc 0) (gAdd.mass_eq hc 1) (.inr ⟨m0, rfl⟩) (.inr ⟨m1, rfl⟩)
    have v1z2z3 : (gAdd.N c p).v 1 [spinOf s2, spinOf s3] = ab (gAdd.react.codePair c p 2 s2).1 (gAdd.react.codePair c p 3 s3).1 := bra_angle (p := p) (m := gAdd.proc.massNum (gAdd.rho c)) (gAdd.mass_eq hc 2) (gAdd.mass_eq hc 3) (.inl ⟨m2, rfl⟩) (.inl ⟨m3, rfl⟩)
    simp only [gAdd.termPP, gAdd.formPP, v2z0z1, v1z2z3]
  have amPM : ∀ (s2 : Fin 2) (s3 : Fin 2), Cls.gAdd.m_amp.mean (gAdd.N c p) (callMean (gAdd.N c p) []) .c [2, (-2), spinOf s2, spinOf s3] = 1 * gAdd.react.bare c p 2 3 0 1 (gAdd.react.codePair c p 2 s2) (gAdd.react.codePair c p 3 s3) (lightE (legA (p 0) 0 0, legS (p 0) 0 1) 1) (lightE (legA (p 1) 0 0, legS (p 1) 0 1) 0) := by
    intro s2 s3
    rw [gAdd.ampPM, ← stPM (gAdd.react.codePair_bold hs h0 2 s2) (gAdd.react.codePair_bold hs h0 3 s3)]
    have v4z0z2 : (gAdd.N c p).v 4 [spinOf s2] = sb (legA (p 0) 0 0, legS (p 0) 0 1).2 (gAdd.react.codePair c p 2 s2).2 := bra_square (p := p) (m := gAdd.proc.massNum (gAdd.rho c)) (gAdd.mass_eq hc 0) (gAdd.mass_eq hc 2) (.inr ⟨m0, rfl⟩) (.inl ⟨m2, rfl⟩)
    have v7z1z3 : (gAdd.N c p).v 7 [spinOf s3] = ab (legA (p 1) 0 0, legS (p 1) 0 1).1 (gAdd.react.codePair c p 3 s3).1 := bra_angle (p := p) (m := gAdd.proc.massNum (gAdd.rho c)) (gAdd.mass_eq hc 1) (gAdd.mass_eq hc 3) (.inr ⟨m1, rfl⟩) (.inl ⟨m3, rfl⟩)
    have v10z0z3 : (gAdd.N c p).v 10 [spinOf s3] = sb (legA (p 0) 0 0, legS (p 0) 0 1).2 (gAdd.react.codePair c p 3 s3).2 := bra_square (p := p) (m := gAdd.proc.massNum (gAdd.rho c)) (gAdd.mass_eq hc 0) (gAdd.mass_eq hc 3) (.inr ⟨m0, rfl⟩) (.inl ⟨m3, rfl⟩)
    have v9z1z2 : (gAdd.N c p).v 9 [spinOf s2] = ab (legA (p 1) 0 0, legS (p 1) 0 1).1 (gAdd.react.codePair c p 2 s2).1 := bra_angle (p := p) (m := gAdd.proc.massNum (gAdd.rho c)) (gAdd.mass_eq hc 1) (gAdd.mass_eq hc 2) (.inr ⟨m1, rfl⟩) (.inl ⟨m2, rfl⟩)
    have v12z0z1 : (gAdd.N c p).v 12 [] = mb (legA (p 0) 0 0, legS (p 0) 0 1).2 (p 2) (legA (p 1) 0 0, legS (p 1) 0 1).1 := bra_mid_square (p := p) (m := gAdd.proc.massNum (gAdd.rho c)) (gAdd.mass_eq hc 0) (gAdd.mass_eq hc 1) (.inr ⟨m0, rfl⟩) (.inr ⟨m1, rfl⟩)
    simp only [gAdd.termPM, gAdd.formPM, v4z0z2, v7z1z3, v10z0z3, v9z1z2, v12z0z1]
  have amMP : ∀ (s2 : Fin 2) (s3 : Fin 2), Cls.gAdd.m_amp.mean (gAdd.N c p) (callMean (gAdd.N c p) []) .c [(-2), 2, spinOf s2, spinOf s3] = 1 * gAdd.react.bare c p 2 3 0 1 (gAdd.react.codePair c p 2 s2) (gAdd.react.codePair c p 3 s3) (lightE (legA (p 0) 0 0, legS (p 0) 0 1) 0) (lightE (legA (p 1) 0 0, legS (p 1) 0 1) 1) := by
    intro s2 s3
    rw [gAdd.ampMP, ← stMP (gAdd.react.codePair_bold hs h0 2 s2) (gAdd.react.codePair_bold hs h0 3 s3)]
    have v5z0z2 : (gAdd.N c p).v 5 [spinOf s2] = ab (legA (p 0) 0 0, legS (p 0) 0 1).1 (gAdd.react.codePair c p 2 s2).1 := bra_angle (p := p) (m := gAdd.proc.massNum (gAdd.rho c)) (gAdd.mass_eq hc 0) (gAdd.mass_eq hc 2) (.inr ⟨m0, rfl⟩) (.inl ⟨m2, rfl⟩)
    have v6z1z3 : (gAdd.N c p).v 6 [spinOf s3] = sb (legA (p 1) 0 0, legS (p 1) 0 1).2 (gAdd.react.codePair c p 3 s3).2 := bra_square (p := p) (m := gAdd.proc.massNum (gAdd.rho c)) (gAdd.mass_eq hc 1) (gAdd.mass_eq hc 3) (.inr ⟨m1, rfl⟩) (.inl ⟨m3, rfl⟩)
    have v11z0z3 : (gAdd.N c p).v 11 [spinOf s3] = ab (legA (p 0) 0 0, legS (p 0) 0 1).1 (gAdd.react.codePair c p 3 s3).1 := bra_angle (p := p) (m := gAdd.proc.massNum (gAdd.rho c)) (gAdd.mass_eq hc 0) (gAdd.mass_eq hc 3) (.inr ⟨m0, rfl⟩) (.inl ⟨m3, rfl⟩)
    have v8z1z2 : (gAdd.N c p).v 8 [spinOf s2] = sb (legA (p 1) 0 0, legS (p 1) 0 1).2 (gAdd.react.codePair c p 2 s2).2 := bra_square (p := p) (m := gAdd.proc.massNum (gAdd.rho c)) (gAdd.mass_eq hc 1) (gAdd.mass_eq hc 2) (.inr ⟨m1, rfl⟩) (.inl ⟨m2, rfl⟩)
    have v13z1z0 : (gAdd.N c p).v 13 [] = mb (legA (p 1) 0 0, legS (p 1) 0 1).2 (p 2) (legA (p 0) 0 0, legS (p 0) 0 1).1 := bra_mid_square (p := p) (m := gAdd.proc.massNum (gAdd.rho c)) (gAdd.mass_eq hc 1) (gAdd.mass_eq hc 0) (.inr ⟨m1, rfl⟩) (.inr ⟨m0, rfl⟩)
    simp only [gAdd.termMP, gAdd.formMP, v5z0z2, v6z1z3, v11z0z3, v8z1z2, v13z1z0]
  have amMM : ∀ (s2 : Fin 2) (s3 : Fin 2), Cls.gAdd.m_amp.mean (gAdd.N c p) (callMean (gAdd.N c p) []) .c [(-2), (-2), spinOf s2, spinOf s3] = 1 * gAdd.react.bare c p 2 3 0 1 (gAdd.react.codePair c p 2 s2) (gAdd.react.codePair c p 3 s3) (lightE (legA (p 0) 0 0, legS (p 0) 0 1) 0) (lightE (legA (p 1) 0 0, legS (p 1) 0 1) 0) := by
    intro s2 s3
    rw [gAdd.ampMM, ← stMM (gAdd.react.codePair_bold hs h0 2 s2) (gAdd.react.codePair_bold hs h0 3 s3)]
    have v3z0z1 : (gAdd.N c p).v 3 [] = ab (legA (p 0) 0 0, legS (p 0) 0 1).1 (legA (p 1) 0 0, legS (p 1) 0 1).1 := bra_angle (p := p) (m := gAdd.proc.massNum (gAdd.rho c)) (gAdd.mass_eq hc 0) (gAdd.mass_eq hc 1) (.inr ⟨m0, rfl⟩) (.inr ⟨m1, rfl⟩)
    have v0z2z3 : (gAdd.N c p).v 0 [spinOf s2, spinOf s3] = sb (gAdd.react.codePair c p 2 s2).2 (gAdd.react.codePair c p 3 s3).2 := bra_square (p := p) (m := gAdd.proc.massNum (gAdd.rho c)) (gAdd.mass_eq hc 2) (gAdd.mass_eq hc 3) (.inl ⟨m2, rfl⟩) (.inl ⟨m3, rfl⟩)
    simp only [gAdd.termMM, gAdd.formMM, v3z0z1, v0z2z3]
  refine ⟨n0, n1, fun n hn => ?_, fun n hn => ?_, ?_⟩
  · simp [hd] at hn
  · simp [hd] at hn
    rcases hn with rfl | rfl
    · exact n0
    · exact n1
  intro s2 s3 h0 h1
  match h0, h1 with
  | 1, 1 => exact norm_plus (amPP s2 s3)
  | 1, 0 => exact norm_plus (amPM s2 s3)
  | 0, 1 => exact norm_plus (amMP s2 s3)
  | 0, 0 => exact norm_plus (amMM s2 s3)

variable [FPEnv] in
theorem gAdd.agrees : gAdd.Agrees := by
  refine agrees_of (D := []) (E := []) (by simp [all, gAdd]) (by decide +kernel) (by decide) (by decide +kernel) (fun c hc hh => ⟨List.forall_mem_nil _, List.forall_mem_nil _⟩) (fun c hc i => gAdd.mass_eq hc i) (by decide +kernel) ?_
  intro c p u ε hc hh hw h0 hs hb hr hu
  have he : gAdd.react.ends = [2] := by decide
  have ht : gAdd.react.starts = [3] := by decide
  have hB : gAdd.react.bosons = [0, 1] := by decide
  obtain ⟨n0, n1, d1, d2, am⟩ := gAdd.amps hc hh h0 hs hb hr hu
  refine ⟨d1, d2, ?_⟩
  show meaning (gAdd.N c p) .r Cls.gAdd.methods Cls.gAdd.amp2 [] = _
  have s0 : gAdd.react.states 0 = 16 := by decide +kernel
  have s1 : gAdd.react.states 1 = 2 := by decide +kernel
  have sy : gAdd.react.symmetry = 1 := by decide
  have p0 : gAdd.react.spins 0 = {0, 1} := rfl
  have p1 : gAdd.react.spins 1 = {0, 1} := rfl
  have p2 : gAdd.react.spins 2 = {0, 1} := rfl
  have p3 : gAdd.react.spins 3 = {0, 1} := rfl
  have E0 : gAdd.react.codeE c p 0 = lightE (legA (p 0) 0 0, legS (p 0) 0 1) := rfl
  have E1 : gAdd.react.codeE c p 1 = lightE (legA (p 1) 0 0, legS (p 1) 0 1) := rfl
  have hG : gAdd.react.Gauge c p := (gAdd.react.gauge_line he ht hB hh (by decide) (fun n => onShell_msq (hs n)) hb hr (fun n m h h2 => absurd (And.intro h h2) (by revert n m; decide)) (fun _ => ⟨rfl, rfl⟩) (fun _ => ⟨rfl, rfl⟩))
  rw [gAdd.value, gAdd.react.squared_gluon 0 he ht hB (by decide) (by decide +kernel) (by decide +kernel) hs h0 (fun _ b _ hb _ => (boson_pos hc hh hb).ne') hG (E := gAdd.react.codeE c p) (fun n b hl => gAdd.react.codeE_polarised hs h0 hu (fun b hb => (boson_pos hc hh hb).ne') n b hl) hu, sum_colours, s0, s1, sy]
  simp only [sumV_sum, sumJ_sum, sumW_sum, am, p0, p1, p2, p3, E0, E1, Finset.sum_singleton, sum_two, Matrix.cons_val_zero, Matrix.cons_val_one, Matrix.cons_val, two_castSucc]
  try simp only [← Finset.mul_sum]
  push_cast
  first | ring1 | ring_nf

/-! ### gAuu -/

/-- what the methods of the class see -/
noncomputable abbrev gAuu.N [FPEnv] (c : Constants) (p : Nat → V4 ℝ) : Env := gAuu.proc.env (gAuu.rho c) p
/-- `amp` for a gluon of positive helicity and a photon of positive helicity (SM/gAuu.cpp) -/
noncomputable def gAuu.termPP (N : Env) (j3 j4 : Int) : ℂ :=
  (((((((((((((2 : Nat) : ℝ) * N.r 0) * N.r 1) * N.r 2) * N.r 3) : ℝ) : ℂ) * N.v 2 []) * N.v 2 []) * N.v 1 [j3, j4]) / N.c 0) / N.c 1)
/-- the same with spinors in place of their spins -/
noncomputable def gAuu.formPP (N : Env) (p : Nat → V4 ℝ) (z0 z1 z2 z3 : Pair) : ℂ :=
  (((((((((((((2 : Nat) : ℝ) * N.r 0) * N.r 1) * N.r 2) * N.r 3) : ℝ) : ℂ) * (sb z0.2 z1.2)) * (sb z0.2 z1.2)) * (ab z2.1 z3.1)) / N.c 0) / N.c 1)
/-- `amp` for a gluon of positive helicity and a photon of negative helicity (SM/gAuu.cpp) -/
noncomputable def gAuu.termPM (N : Env) (j3 j4 : Int) : ℂ :=
  ((((((((((-((2 : Nat) : ℝ)) * N.r 0) * N.r 1) * N.r 2) : ℝ) : ℂ) * ((N.v 4 [j3] * N.v 7 [j4]) + (N.v 10 [j4] * N.v 9 [j3]))) * N.v 12 []) / N.c 0) / N.c 1)
/-- the same with spinors in place of their spins -/
noncomputable def gAuu.formPM (N : Env) (p : Nat → V4 ℝ) (z0 z1 z2 z3 : Pair) : ℂ :=
  ((((((((((-((2 : Nat) : ℝ)) * N.r 0) * N.r 1) * N.r 2) : ℝ) : ℂ) * (((sb z0.2 z2.2) * (ab z1.1 z3.1)) + ((sb z0.2 z3.2) * (ab z1.1 z2.1)))) * (mb z0.2 (p 2) z1.1)) / N.c 0) / N.c 1)
/-- `amp` for a gluon of negative helicity and a photon of positive helicity (SM/gAuu.cpp) -/
noncomputable def gAuu.termMP (N : Env) (j3 j4 : Int) : ℂ :=
  ((((((((((-((2 : Nat) : ℝ)) * N.r 0) * N.r 1) * N.r 2) : ℝ) : ℂ) * ((N.v 5 [j3] * N.v 6 [j4]) + (N.v 11 [j4] * N.v 8 [j3]))) * N.v 13 []) / N.c 0) / N.c 1)
/-- the same with spinors in place of their spins -/
noncomputable def gAuu.formMP (N : Env) (p : Nat → V4 ℝ) (z0 z1 z2 z3 : Pair) : ℂ :=
  ((((((((((-((2 : Nat) : ℝ)) * N.r 0) * N.r 1) * N.r 2) : ℝ) : ℂ) * (((ab z0.1 z2.1) * (sb z1.2 z3.2)) + ((ab z0.1 z3.1) * (sb z1.2 z2.2)))) * (mb z1.2 (p 2) z0.1)) / N.c 0) / N.c 1)
/-- `amp` for a gluon of negative helicity and a photon of negative helicity (SM/gAuu.cpp) -/
noncomputable def gAuu.termMM (N : Env) (j3 j4 : Int) : ℂ :=
  (((((((((((((2 : Nat) : ℝ) * N.r 0) * N.r 1) * N.r 2) * N.r 3) : ℝ) : ℂ) * N.v 3 []) * N.v 3 []) * N.v 0 [j3, j4]) / N.c 0) / N.c 1)
/-- the same with spinors in place of their spins -/
noncomputable def gAuu.formMM (N : Env) (p : Nat → V4 ℝ) (z0 z1 z2 z3 : Pair) : ℂ :=
  (((((((((((((2 : Nat) : ℝ) * N.r 0) * N.r 1) * N.r 2) * N.r 3) : ℝ) : ℂ) * (ab z0.1 z1.1)) * (ab z0.1 z1.1)) * (sb z2.2 z3.2)) / N.c 0) / N.c 1)
theorem gAuu.keyPP {c : Constants} {p : Nat → V4 ℝ} {N : Env} (hc : c.Physical) (hb : Balanced p) (r0 : N.r 0 = c.e) (r1 : N.r 1 = (((2 : Nat) : ℝ) / ((3 : Nat) : ℝ))) (r2 : N.r 2 = c.gs) (r3 : N.r 3 = (c.mass .u)) (d0 : ((msq (plus (backward (p 3)) (p 1)) - c.mass .u ^ 2 : ℝ) : ℂ) = N.c 0) (n0 : N.c 0 ≠ 0) (d1 : ((msq (plus (backward (p 3)) (p 0)) - c.mass .u ^ 2 : ℝ) : ℂ) = N.c 1) (n1 : N.c 1 ≠ 0) {z0 z1 z2 z3 : Pair} (b2 : Bold (p 2) (c.mass .u) z2) (b3 : Bold (p 3) (c.mass .u) z3) (l0 : Light (p 0) z0) (l1 : Light (p 1) z1) (e02 : mb z0.2 (p 2) z0.1 = -N.c 0) (e03 : mb z0.2 (p 3) z0.1 = -N.c 1) (e12 : mb z1.2 (p 2) z1.1 = -N.c 1) (e13 : mb z1.2 (p 3) z1.1 = -N.c 0) (q2 : msq (p 2) = (c.mass .u) ^ 2) (q3 : msq (p 3) = (c.mass .u) ^ 2) (ρ0 ρ1 : V2) :
    gAuu.formPP N p z0 z1 z2 z3 * ab ρ0 z0.1 * ab ρ1 z1.1 = ((√2 : ℝ) * ((√2 : ℝ) * (1 : ℂ))) * gAuu.react.bare c p 2 3 0 1 z2 z3 (pv ρ0 z0.2) (pv ρ1 z1.2) := by
  rw [gAuu.react.bare_parts c p (i := 2) (j := 3) (a := 0) (b := 1) (x := .gluon) (y := .photon) (k := (p 0)) (k' := (p 1)) (fun _ => rfl) (fun _ => rfl) (f := .u) (g := .u) rfl rfl (l := (backward (p 3))) rfl (e := 1) (e' := -1) (if_neg Bool.false_ne_true) (if_pos rfl)]
  rw [compton_vv (f := .u) (x := .u) (g := .u) (h := (rfl : Spec.after .gluon Flavour.u = some Flavour.u)) (h' := (rfl : Spec.after .photon Flavour.u = some Flavour.u)) (ha := by simp) (hb := by simp)]
  rw [compton_vv (f := .u) (x := .u) (g := .u) (h := (rfl : Spec.after .photon Flavour.u = some Flavour.u)) (h' := (rfl : Spec.after .gluon Flavour.u = some Flavour.u)) (ha := by simp) (hb := by simp)]
  rw [annihilation_none c _ _ (by rfl) (by simp), star_zero, add_zero, gAuu.formPP]
  simp only [d0, d1, lineV_pv, lineV_four, contract_four_pv, contract_pv, mb_plus, mb_backward]
  have i0 := mb_schouten_right z0.2 (p 2) z0.1 z2.1 ρ1
  have i1 := mb_schouten_right z0.2 (p 2) z0.1 z3.1 ρ0
  have i2 := mb_schouten_right z0.2 (p 2) z0.1 z2.1 z3.1
  have i3 := ab_schouten z2.1 ρ0 ρ1 z0.1
  have i4 := ab_schouten z3.1 ρ0 ρ1 z2.1
  have i5 := ab_schouten z3.1 ρ0 ρ1 z0.1
  have i6 := sb_schouten z1.2 z2.2 z3.2 z0.2
  have i7 := mb_schouten_right z0.2 (p 2) z0.1 z2.1 ρ0
  have i8 := mb_schouten_right z1.2 (p 2) z0.1 z2.1 ρ0
  have i9 := mb_schouten_right z0.2 (p 2) z0.1 ρ0 ρ1
  have i10 := mb_schouten_right z0.2 (p 3) z0.1 z2.1 ρ0
  have i11 := mb_schouten_left z0.2 z1.2 z2.2 (p 2) z0.1
  have i12 := mb_schouten_right z0.2 (p 3) z0.1 z3.1 ρ1
  have i13 := mb_schouten_left z0.2 z1.2 z2.2 (p 2) ρ0
  have i14 := ab_schouten z2.1 z3.1 ρ0 z0.1
  have i15 := mb_schouten_right z0.2 (p 2) z0.1 z3.1 ρ1
  have i16 := mb_schouten_right z1.2 (p 2) z0.1 z1.1 ρ0
  have i17 := ab_schouten z1.1 z3.1 ρ1 z0.1
  have i18 := mb_schouten_right z0.2 (p 2) z2.1 ρ0 ρ1
  have i19 := mb_schouten_left z0.2 z1.2 z3.2 (p 2) z0.1
  have i20 := ab_schouten z1.1 z2.1 ρ1 z0.1
  have i21 := ab_schouten z1.1 ρ0 ρ1 z0.1
  have i22 := mb_schouten_right z0.2 (p 3) z0.1 z3.1 ρ0
  have i23 := mb_schouten_right z0.2 (p 2) z0.1 z1.1 z2.1
  have i24 := ab_schouten z2.1 ρ0 ρ1 z1.1
  have i25 := mb_schouten_right z0.2 (p 2) z0.1 z1.1 ρ0
  have i26 := mb_schouten_right z0.2 (p 2) z0.1 z1.1 ρ1
  have i27 := mb_schouten_right z1.2 (p 2) z0.1 z1.1 z3.1
  have i28 := mb_schouten_right z2.2 (p 3) z0.1 z3.1 ρ0
  have i29 := ab_schouten z1.1 z3.1 ρ0 z0.1
  have i30 := mb_schouten_right z0.2 (p 3) z0.1 z2.1 ρ1
  have i31 := mb_schouten_right z2.2 (p 3) z0.1 z3.1 ρ1
  have i32 := ab_schouten z3.1 ρ0 ρ1 z1.1
  have i33 := mb_schouten_left z0.2 z1.2 z2.2 (p 2) z1.1
  have i34 := mb_schouten_right z1.2 (p 2) z0.1 z3.1 ρ0
  simp only [l0.mb_eq, l1.mb_eq, b2.mb_left, b2.mb_right, b3.mb_left, b3.mb_right, e02, e03, e12, e13, mb_three hb z0.2 z1.1, mb_three hb z0.2 z2.1, mb_two hb z0.2 z3.1, mb_three hb z0.2 ρ0, mb_three hb z0.2 ρ1, mb_three hb z1.2 z0.1, mb_three hb z1.2 z2.1, mb_two hb z1.2 z3.1, mb_three hb z1.2 ρ0, mb_three hb z1.2 ρ1, mb_three hb z2.2 z0.1, mb_three hb z2.2 z1.1, mb_three hb z2.2 z2.1, mb_three hb z2.2 ρ0, mb_three hb z2.2 ρ1, mb_two hb z3.2 z0.1, mb_two hb z3.2 z1.1, mb_two hb z3.2 z3.1, mb_two hb z3.2 ρ0, mb_two hb z3.2 ρ1, ab_self, sb_self] at i0 i1 i2 i3 i4 i5 i6 i7 i8 i9 i10 i11 i12 i13 i14 i15 i16 i17 i18 i19 i20 i21 i22 i23 i24 i25 i26 i27 i28 i29 i30 i31 i32 i33 i34 ⊢
  simp only [ab_swap z0.1 z1.1, ab_swap z0.1 z2.1, ab_swap z0.1 z3.1, ab_swap z0.1 ρ0, ab_swap z0.1 ρ1, ab_swap z1.1 z2.1, ab_swap z1.1 z3.1, ab_swap z1.1 ρ0, ab_swap z1.1 ρ1, ab_swap z2.1 z3.1, ab_swap z2.1 ρ0, ab_swap z2.1 ρ1, ab_swap z3.1 ρ0, ab_swap z3.1 ρ1, ab_swap ρ0 ρ1, sb_swap z0.2 z1.2, sb_swap z0.2 z2.2, sb_swap z0.2 z3.2, sb_swap z1.2 z2.2, sb_swap z1.2 z3.2, sb_swap z2.2 z3.2] at i0 i1 i2 i3 i4 i5 i6 i7 i8 i9 i10 i11 i12 i13 i14 i15 i16 i17 i18 i19 i20 i21 i22 i23 i24 i25 i26 i27 i28 i29 i30 i31 i32 i33 i34 ⊢
  simp only [r0, r1, r2, r3, Constants.hL, Constants.hR, Constants.gL, Constants.gR, Constants.yuk, Constants.invVev, Flavour.charge_u, Flavour.isospin_u, ← c.mz]
  have xMW : (c.MW : ℂ) ≠ 0 := by exact_mod_cast hc.MW
  have xSW : (c.SW : ℂ) ≠ 0 := by exact_mod_cast hc.SW
  have xCW : (c.CW : ℂ) ≠ 0 := by exact_mod_cast hc.CW
  have x2 : ((√2 : ℝ) : ℂ) ≠ 0 := by exact_mod_cast (Real.sqrt_pos.2 two_pos).ne'
  have x22 : ((√2 : ℝ) : ℂ) ^ 2 = 2 := by rw [← Complex.ofReal_pow, Real.sq_sqrt two_pos.le]; norm_num
  have x23 : ((√2 : ℝ) : ℂ) ^ 3 = 2 * ((√2 : ℝ) : ℂ) := by rw [← x22]; ring
  have x24 : ((√2 : ℝ) : ℂ) ^ 4 = 4 := by linear_combination (((√2 : ℝ) : ℂ) ^ 2 + 2) * x22
  push_cast at i0 i1 i2 i3 i4 i5 i6 i7 i8 i9 i10 i11 i12 i13 i14 i15 i16 i17 i18 i19 i20 i21 i22 i23 i24 i25 i26 i27 i28 i29 i30 i31 i32 i33 i34 ⊢
  have y0 := mul_inv_cancel₀ n0
  have y1 := mul_inv_cancel₀ n1
  linear_combination ((((-4) * ((c.e : ℂ)) * ((c.gs : ℂ)) * ((c.mass .u : ℂ)) * (ab z3.1 ρ0) * (sb z0.2 z1.2) + (-4) * ((c.e : ℂ)) * ((c.gs : ℂ)) * (mb z1.2 (p 2) ρ0) * (sb z0.2 z3.2)) * i0 + ((-4) * ((c.e : ℂ)) * ((c.gs : ℂ)) * ((c.mass .u : ℂ)) * (ab z2.1 ρ1) * (sb z0.2 z1.2) + (4) * ((c.e : ℂ)) * ((c.gs : ℂ)) * (ab z1.1 ρ1) * (sb z0.2 z1.2) * (sb z1.2 z2.2) + (-8) * ((c.e : ℂ)) * ((c.gs : ℂ)) * (mb z0.2 (p 2) ρ1) * (sb z1.2 z2.2)) * i1 + ((-4) * ((c.e : ℂ)) * ((c.gs : ℂ)) * ((c.mass .u : ℂ)) * (ab ρ0 ρ1) * (sb z0.2 z1.2)) * i2 + ((4) * ((c.e : ℂ)) * ((c.gs : ℂ)) * ((c.mass .u : ℂ)) * (ab z1.1 z3.1) * (sb z0.2 z1.2) ^ 2 + (4) * ((c.e : ℂ)) * ((c.gs : ℂ)) * ((c.mass .u : ℂ)) ^ 2 * (sb z0.2 z1.2) * (sb z0.2 z3.2) + (-4) * ((c.e : ℂ)) * ((c.gs : ℂ)) * (mb z0.2 (p 2) z1.1) * (sb z0.2 z1.2) * (sb z1.2 z3.2)) * i3 + ((-4) * ((c.e : ℂ)) * ((c.gs : ℂ)) * ((c.mass .u : ℂ)) * (N.c 0) * (sb z0.2 z1.2)) * i4 + ((4) * ((c.e : ℂ)) * ((c.gs : ℂ)) * ((c.mass .u : ℂ)) ^ 2 * (sb z0.2 z1.2) * (sb z0.2 z2.2) + (4) * ((c.e : ℂ)) * ((c.gs : ℂ)) * (N.c 1) * (sb z0.2 z1.2) * (sb z0.2 z2.2)) * i5 + ((4) * ((c.e : ℂ)) * ((c.gs : ℂ)) * ((c.mass .u : ℂ)) * (N.c 0) * (ab ρ0 ρ1) + (4) * ((c.e : ℂ)) * ((c.gs : ℂ)) * ((c.mass .u : ℂ)) * (ab z0.1 ρ0) * (ab z1.1 ρ1) * (sb z0.2 z1.2) + (-12) * ((c.e : ℂ)) * ((c.gs : ℂ)) * ((c.mass .u : ℂ)) * (ab z0.1 ρ0) * (mb z0.2 (p 2) ρ1) + (8) * ((c.e : ℂ)) * ((c.gs : ℂ)) * ((c.mass .u : ℂ)) * (ab z0.1 ρ1) * (mb z0.2 (p 2) ρ0)) * i6 + ((8) * ((c.e : ℂ)) * ((c.gs : ℂ)) * ((c.mass .u : ℂ)) * (ab z3.1 ρ1) * (sb z0.2 z1.2) + (-4) * ((c.e : ℂ)) * ((c.gs : ℂ)) * (mb z0.2 (p 2) ρ1) * (sb z1.2 z3.2)) * i7 + ((4) * ((c.e : ℂ)) * ((c.gs : ℂ)) * (mb z0.2 (p 2) ρ1) * (sb z0.2 z3.2)) * i8 + ((4) * ((c.e : ℂ)) * ((c.gs : ℂ)) * ((c.mass .u : ℂ)) * (sb z0.2 z1.2) * (sb z2.2 z3.2) + (-4) * ((c.e : ℂ)) * ((c.gs : ℂ)) * ((c.mass .u : ℂ)) * (sb z0.2 z2.2) * (sb z1.2 z3.2)) * i9 + ((4) * ((c.e : ℂ)) * ((c.gs : ℂ)) * ((c.mass .u : ℂ)) * (ab z3.1 ρ1) * (sb z0.2 z1.2)) * i10 + ((4) * ((c.e : ℂ)) * ((c.gs : ℂ)) * (ab z1.1 ρ0) * (ab z3.1 ρ1) * (sb z0.2 z1.2) + (4) * ((c.e : ℂ)) * ((c.gs : ℂ)) * (ab z3.1 ρ0) * (mb z0.2 (p 2) ρ1)) * i11 + ((-4) * ((c.e : ℂ)) * ((c.gs : ℂ)) * (ab z0.1 ρ0) * (sb z0.2 z1.2) * (sb z0.2 z2.2) + (-4) * ((c.e : ℂ)) * ((c.gs : ℂ)) * (mb z1.2 (p 2) ρ0) * (sb z0.2 z2.2)) * i12 + ((8) * ((c.e : ℂ)) * ((c.gs : ℂ)) * (N.c 0) * (ab z3.1 ρ1)) * i13 + ((4) * ((c.e : ℂ)) * ((c.gs : ℂ)) * ((c.mass .u : ℂ)) * (ab z1.1 ρ1) * (sb z0.2 z1.2) ^ 2) * i14 + ((4) * ((c.e : ℂ)) * ((c.gs : ℂ)) * ((c.mass .u : ℂ)) * (ab z2.1 ρ0) * (sb z0.2 z1.2) + (8) * ((c.e : ℂ)) * ((c.gs : ℂ)) * (mb z0.2 (p 2) ρ0) * (sb z1.2 z2.2) + (-8) * ((c.e : ℂ)) * ((c.gs : ℂ)) * (mb z1.2 (p 2) ρ0) * (sb z0.2 z2.2)) * i15 + ((8) * ((c.e : ℂ)) * ((c.gs : ℂ)) * (ab z3.1 ρ1) * (sb z0.2 z1.2) * (sb z0.2 z2.2)) * i16 + ((8) * ((c.e : ℂ)) * ((c.gs : ℂ)) * (mb z0.2 (p 2) ρ0) * (sb z0.2 z1.2) * (sb z1.2 z2.2) + (-8) * ((c.e : ℂ)) * ((c.gs : ℂ)) * (mb z1.2 (p 2) ρ0) * (sb z0.2 z1.2) * (sb z0.2 z2.2)) * i17 + ((4) * ((c.e : ℂ)) * ((c.gs : ℂ)) * (N.c 1) * (sb z1.2 z3.2)) * i18 + ((4) * ((c.e : ℂ)) * ((c.gs : ℂ)) * (ab z2.1 ρ0) * (mb z0.2 (p 2) ρ1)) * i19 + ((-4) * ((c.e : ℂ)) * ((c.gs : ℂ)) * (mb z0.2 (p 2) ρ0) * (sb z0.2 z1.2) * (sb z1.2 z3.2)) * i20 + ((-4) * ((c.e : ℂ)) * ((c.gs : ℂ)) * (ab z0.1 z3.1) * (sb z0.2 z1.2) ^ 2 * (sb z0.2 z2.2)) * i21 + ((4) * ((c.e : ℂ)) * ((c.gs : ℂ)) * (ab z0.1 ρ1) * (sb z0.2 z1.2) * (sb z0.2 z2.2)) * i22 + ((-4) * ((c.e : ℂ)) * ((c.gs : ℂ)) * (ab ρ0 ρ1) * (sb z0.2 z1.2) * (sb z1.2 z3.2)) * i23 + ((-4) * ((c.e : ℂ)) * ((c.gs : ℂ)) * (N.c 0) * (sb z0.2 z1.2) * (sb z1.2 z3.2)) * i24 + ((4) * ((c.e : ℂ)) * ((c.gs : ℂ)) * (ab z2.1 ρ1) * (sb z0.2 z1.2) * (sb z1.2 z3.2) + (-4) * ((c.e : ℂ)) * ((c.gs : ℂ)) * (ab z3.1 ρ1) * (sb z0.2 z1.2) * (sb z1.2 z2.2)) * i25 + ((-4) * ((c.e : ℂ)) * ((c.gs : ℂ)) * (ab z2.1 ρ0) * (sb z0.2 z1.2) * (sb z1.2 z3.2)) * i26 + ((-4) * ((c.e : ℂ)) * ((c.gs : ℂ)) * (ab ρ0 ρ1) * (sb z0.2 z1.2) * (sb z0.2 z2.2)) * i27 + ((-4) * ((c.e : ℂ)) * ((c.gs : ℂ)) * (ab z1.1 ρ1) * (sb z0.2 z1.2) ^ 2 + (8) * ((c.e : ℂ)) * ((c.gs : ℂ)) * (mb z0.2 (p 2) ρ1) * (sb z0.2 z1.2)) * i28 + ((4) * ((c.e : ℂ)) * ((c.gs : ℂ)) * (ab z1.1 ρ1) * (sb z0.2 z1.2) ^ 2 * (sb z1.2 z2.2) + (-8) * ((c.e : ℂ)) * ((c.gs : ℂ)) * (mb z0.2 (p 2) ρ1) * (sb z0.2 z1.2) * (sb z1.2 z2.2)) * i29 + ((-4) * ((c.e : ℂ)) * ((c.gs : ℂ)) * (mb z0.2 (p 2) ρ0) * (sb z1.2 z3.2)) * i30 + ((-4) * ((c.e : ℂ)) * ((c.gs : ℂ)) * (mb z0.2 (p 2) ρ0) * (sb z0.2 z1.2)) * i31 + ((4) * ((c.e : ℂ)) * ((c.gs : ℂ)) * (mb z1.2 (p 2) z0.1) * (sb z0.2 z1.2) * (sb z0.2 z2.2)) * i32 + ((-4) * ((c.e : ℂ)) * ((c.gs : ℂ)) * (ab z0.1 ρ0) * (ab z3.1 ρ1) * (sb z0.2 z1.2)) * i33 + ((-4) * ((c.e : ℂ)) * ((c.gs : ℂ)) * (ab z1.1 ρ1) * (sb z0.2 z1.2) * (sb z0.2 z2.2) + (4) * ((c.e : ℂ)) * ((c.gs : ℂ)) * (mb z0.2 (p 2) ρ1) * (sb z0.2 z2.2)) * i34)) * ((1) * ((N.c 0)⁻¹) * ((N.c 1)⁻¹) / (3)) + ((-4) * ((c.e : ℂ)) * ((c.gs : ℂ)) * ((c.mass .u : ℂ)) * ((N.c 1)⁻¹) * (ab z2.1 ρ1) * (ab z3.1 ρ0) * (sb z0.2 z1.2) / (3) + (-4) * ((c.e : ℂ)) * ((c.gs : ℂ)) * ((c.mass .u : ℂ)) * ((N.c 1)⁻¹) * (ab ρ0 ρ1) * (sb z0.2 z3.2) * (sb z1.2 z2.2) / (3) + (4) * ((c.e : ℂ)) * ((c.gs : ℂ)) * ((N.c 1)⁻¹) * (ab z1.1 ρ1) * (ab z3.1 ρ0) * (sb z0.2 z1.2) * (sb z1.2 z2.2) / (3) + (-4) * ((c.e : ℂ)) * ((c.gs : ℂ)) * ((N.c 1)⁻¹) * (ab z2.1 ρ1) * (mb z1.2 (p 2) ρ0) * (sb z0.2 z3.2) / (3) + (-4) * ((c.e : ℂ)) * ((c.gs : ℂ)) * ((N.c 1)⁻¹) * (ab z3.1 ρ0) * (mb z0.2 (p 2) ρ1) * (sb z1.2 z2.2) / (3)) * y0 + ((4) * ((c.e : ℂ)) * ((c.gs : ℂ)) * ((c.mass .u : ℂ)) * ((N.c 0)⁻¹) * (ab z2.1 ρ0) * (ab z3.1 ρ1) * (sb z0.2 z1.2) / (3) + (4) * ((c.e : ℂ)) * ((c.gs : ℂ)) * ((c.mass .u : ℂ)) * ((N.c 0)⁻¹) * (ab ρ0 ρ1) * (sb z0.2 z2.2) * (sb z1.2 z3.2) / (3) + (-4) * ((c.e : ℂ)) * ((c.gs : ℂ)) * ((N.c 0)⁻¹) * (ab z0.1 ρ0) * (ab z3.1 ρ1) * (sb z0.2 z1.2) * (sb z0.2 z2.2) / (3) + (-4) * ((c.e : ℂ)) * ((c.gs : ℂ)) * ((N.c 0)⁻¹) * (ab z2.1 ρ0) * (mb z0.2 (p 2) ρ1) * (sb z1.2 z3.2) / (3) + (-4) * ((c.e : ℂ)) * ((c.gs : ℂ)) * ((N.c 0)⁻¹) * (ab z3.1 ρ1) * (mb z1.2 (p 2) ρ0) * (sb z0.2 z2.2) / (3)) * y1 + ((-2) * ((c.e : ℂ)) * ((c.gs : ℂ)) * ((c.mass .u : ℂ)) * ((N.c 0)⁻¹) * (ab z2.1 ρ0) * (ab z3.1 ρ1) * (sb z0.2 z1.2) / (3) + (-2) * ((c.e : ℂ)) * ((c.gs : ℂ)) * ((c.mass .u : ℂ)) * ((N.c 0)⁻¹) * (ab ρ0 ρ1) * (sb z0.2 z2.2) * (sb z1.2 z3.2) / (3) + (2) * ((c.e : ℂ)) * ((c.gs : ℂ)) * ((c.mass .u : ℂ)) * ((N.c 1)⁻¹) * (ab z2.1 ρ1) * (ab z3.1 ρ0) * (sb z0.2 z1.2) / (3) + (2) * ((c.e : ℂ)) * ((c.gs : ℂ)) * ((c.mass .u : ℂ)) * ((N.c 1)⁻¹) * (ab ρ0 ρ1) * (sb z0.2 z3.2) * (sb z1.2 z2.2) / (3) + (2) * ((c.e : ℂ)) * ((c.gs : ℂ)) * ((N.c 0)⁻¹) * (ab z0.1 ρ0) * (ab z3.1 ρ1) * (sb z0.2 z1.2) * (sb z0.2 z2.2) / (3) + (2) * ((c.e : ℂ)) * ((c.gs : ℂ)) * ((N.c 0)⁻¹) * (ab z2.1 ρ0) * (mb z0.2 (p 2) ρ1) * (sb z1.2 z3.2) / (3) + (2) * ((c.e : ℂ)) * ((c.gs : ℂ)) * ((N.c 0)⁻¹) * (ab z3.1 ρ1) * (mb z1.2 (p 2) ρ0) * (sb z0.2 z2.2) / (3) + (-2) * ((c.e : ℂ)) * ((c.gs : ℂ)) * ((N.c 1)⁻¹) * (ab z1.1 ρ1) * (ab z3.1 ρ0) * (sb z0.2 z1.2) * (sb z1.2 z2.2) / (3) + (2) * ((c.e : ℂ)) * ((c.gs : ℂ)) * ((N.c 1)⁻¹) * (ab z2.1 ρ1) * (mb z1.2 (p 2) ρ0) * (sb z0.2 z3.2) / (3) + (2) * ((c.e : ℂ)) * ((c.gs : ℂ)) * ((N.c 1)⁻¹) * (ab z3.1 ρ0) * (mb z0.2 (p 2) ρ1) * (sb z1.2 z2.2) / (3)) * x22
theorem gAuu.keyPM {c : Constants} {p : Nat → V4 ℝ} {N : Env} (hc : c.Physical) (hb : Balanced p) (r0 : N.r 0 = c.e) (r1 : N.r 1 = (((2 : Nat) : ℝ) / ((3 : Nat) : ℝ))) (r2 : N.r 2 = c.gs) (d0 : ((msq (plus (backward (p 3)) (p 1)) - c.mass .u ^ 2 : ℝ) : ℂ) = N.c 0) (n0 : N.c 0 ≠ 0) (d1 : ((msq (plus (backward (p 3)) (p 0)) - c.mass .u ^ 2 : ℝ) : ℂ) = N.c 1) (n1 : N.c 1 ≠ 0) {z0 z1 z2 z3 : Pair} (b2 : Bold (p 2) (c.mass .u) z2) (b3 : Bold (p 3) (c.mass .u) z3) (l0 : Light (p 0) z0) (l1 : Light (p 1) z1) (e02 : mb z0.2 (p 2) z0.1 = -N.c 0) (e03 : mb z0.2 (p 3) z0.1 = -N.c 1) (e12 : mb z1.2 (p 2) z1.1 = -N.c 1) (e13 : mb z1.2 (p 3) z1.1 = -N.c 0) (q2 : msq (p 2) = (c.mass .u) ^ 2) (q3 : msq (p 3) = (c.mass .u) ^ 2) (ρ0 ρ1 : V2) :
    gAuu.formPM N p z0 z1 z2 z3 * ab ρ0 z0.1 * sb ρ1 z1.2 = ((√2 : ℝ) * ((√2 : ℝ) * (1 : ℂ))) * gAuu.react.bare c p 2 3 0 1 z2 z3 (pv ρ0 z0.2) (pv z1.1 ρ1) := by
  rw [gAuu.react.bare_parts c p (i := 2) (j := 3) (a := 0) (b := 1) (x := .gluon) (y := .photon) (k := (p 0)) (k' := (p 1)) (fun _ => rfl) (fun _ => rfl) (f := .u) (g := .u) rfl rfl (l := (backward (p 3))) rfl (e := 1) (e' := -1) (if_neg Bool.false_ne_true) (if_pos rfl)]
  rw [compton_vv (f := .u) (x := .u) (g := .u) (h := (rfl : Spec.after .gluon Flavour.u = some Flavour.u)) (h' := (rfl : Spec.after .photon Flavour.u = some Flavour.u)) (ha := by simp) (hb := by simp)]
  rw [compton_vv (f := .u) (x := .u) (g := .u) (h := (rfl : Spec.after .photon Flavour.u = some Flavour.u)) (h' := (rfl : Spec.after .gluon Flavour.u = some Flavour.u)) (ha := by simp) (hb := by simp)]
  rw [annihilation_none c _ _ (by rfl) (by simp), star_zero, add_zero, gAuu.formPM]
  simp only [d0, d1, lineV_pv, lineV_four, contract_four_pv, contract_pv, mb_plus, mb_backward]
  have i0 := mb_schouten_right z0.2 (p 3) z0.1 z1.1 z2.1
  have i1 := mb_schouten_right z0.2 (p 2) z1.1 z2.1 ρ0
  have i2 := mb_schouten_left z0.2 z3.2 ρ1 (p 2) z0.1
  have i3 := mb_schouten_right z0.2 (p 2) z0.1 z1.1 z2.1
  have i4 := mb_schouten_right z2.2 (p 3) z0.1 z1.1 z3.1
  have i5 := sb_schouten z2.2 z3.2 ρ1 z0.2
  have i6 := sb_schouten z1.2 z2.2 ρ1 z0.2
  have i7 := ab_schouten z1.1 z3.1 ρ0 z0.1
  have i8 := sb_schouten z1.2 z3.2 ρ1 z0.2
  have i9 := mb_schouten_right z2.2 (p 3) z0.1 z3.1 ρ0
  have i10 := mb_schouten_right z1.2 (p 2) z0.1 z1.1 z3.1
  have i11 := sb_schouten z1.2 z2.2 z3.2 z0.2
  have i12 := mb_schouten_right z0.2 (p 2) z0.1 z1.1 z3.1
  have i13 := mb_schouten_left z0.2 z2.2 ρ1 (p 2) z1.1
  have i14 := mb_schouten_left z0.2 z1.2 ρ1 (p 2) z1.1
  have i15 := mb_schouten_right z0.2 (p 2) z0.1 z3.1 ρ0
  have i16 := mb_schouten_left z0.2 z1.2 ρ1 (p 2) z0.1
  have i17 := mb_schouten_right ρ1 (p 2) z0.1 z1.1 z3.1
  have i18 := mb_schouten_right ρ1 (p 2) z0.1 z1.1 ρ0
  have i19 := mb_schouten_right ρ1 (p 2) z0.1 z2.1 ρ0
  have i20 := mb_schouten_left z0.2 z2.2 ρ1 (p 2) z0.1
  have i21 := ab_schouten z2.1 z3.1 ρ0 z1.1
  have i22 := ab_schouten z2.1 z3.1 ρ0 z0.1
  have i23 := mb_schouten_right z0.2 (p 2) z0.1 z1.1 ρ0
  have i24 := ab_schouten z1.1 z2.1 z3.1 z0.1
  have i25 := ab_schouten z1.1 z2.1 ρ0 z0.1
  have i26 := mb_schouten_right z0.2 (p 3) z0.1 z1.1 z3.1
  have i27 := mb_schouten_right ρ1 (p 2) z0.1 z3.1 ρ0
  have i28 := mb_schouten_right z0.2 (p 2) z1.1 z3.1 ρ0
  have i29 := mb_schouten_left z0.2 z1.2 z2.2 (p 2) z1.1
  simp only [l0.mb_eq, l1.mb_eq, b2.mb_left, b2.mb_right, b3.mb_left, b3.mb_right, e02, e03, e12, e13, mb_three hb z0.2 z1.1, mb_three hb z0.2 z2.1, mb_two hb z0.2 z3.1, mb_three hb z0.2 ρ0, mb_three hb z1.2 z0.1, mb_three hb z1.2 z2.1, mb_two hb z1.2 z3.1, mb_three hb z1.2 ρ0, mb_three hb z2.2 z0.1, mb_three hb z2.2 z1.1, mb_three hb z2.2 z2.1, mb_three hb z2.2 ρ0, mb_two hb z3.2 z0.1, mb_two hb z3.2 z1.1, mb_two hb z3.2 z3.1, mb_two hb z3.2 ρ0, mb_three hb ρ1 z0.1, mb_three hb ρ1 z1.1, mb_three hb ρ1 z2.1, mb_two hb ρ1 z3.1, mb_three hb ρ1 ρ0, ab_self, sb_self] at i0 i1 i2 i3 i4 i5 i6 i7 i8 i9 i10 i11 i12 i13 i14 i15 i16 i17 i18 i19 i20 i21 i22 i23 i24 i25 i26 i27 i28 i29 ⊢
  simp only [ab_swap z0.1 z1.1, ab_swap z0.1 z2.1, ab_swap z0.1 z3.1, ab_swap z0.1 ρ0, ab_swap z1.1 z2.1, ab_swap z1.1 z3.1, ab_swap z1.1 ρ0, ab_swap z2.1 z3.1, ab_swap z2.1 ρ0, ab_swap z3.1 ρ0, sb_swap z0.2 z1.2, sb_swap z0.2 z2.2, sb_swap z0.2 z3.2, sb_swap z0.2 ρ1, sb_swap z1.2 z2.2, sb_swap z1.2 z3.2, sb_swap z1.2 ρ1, sb_swap z2.2 z3.2, sb_swap z2.2 ρ1, sb_swap z3.2 ρ1] at i0 i1 i2 i3 i4 i5 i6 i7 i8 i9 i10 i11 i12 i13 i14 i15 i16 i17 i18 i19 i20 i21 i22 i23 i24 i25 i26 i27 i28 i29 ⊢
  simp only [r0, r1, r2, Constants.hL, Constants.hR, Constants.gL, Constants.gR, Constants.yuk, Constants.invVev, Flavour.charge_u, Flavour.isospin_u, ← c.mz]
  have xMW : (c.MW : ℂ) ≠ 0 := by exact_mod_cast hc.MW
  have xSW : (c.SW : ℂ) ≠ 0 := by exact_mod_cast hc.SW
  have xCW : (c.CW : ℂ) ≠ 0 := by exact_mod_cast hc.CW
  have x2 : ((√2 : ℝ) : ℂ) ≠ 0 := by exact_mod_cast (Real.sqrt_pos.2 two_pos).ne'
  have x22 : ((√2 : ℝ) : ℂ) ^ 2 = 2 := by rw [← Complex.ofReal_pow, Real.sq_sqrt two_pos.le]; norm_num
  have x23 : ((√2 : ℝ) : ℂ) ^ 3 = 2 * ((√2 : ℝ) : ℂ) := by rw [← x22]; ring
  have x24 : ((√2 : ℝ) : ℂ) ^ 4 = 4 := by linear_combination (((√2 : ℝ) : ℂ) ^ 2 + 2) * x22
  push_cast at i0 i1 i2 i3 i4 i5 i6 i7 i8 i9 i10 i11 i12 i13 i14 i15 i16 i17 i18 i19 i20 i21 i22 i23 i24 i25 i26 i27 i28 i29 ⊢
  have y0 := mul_inv_cancel₀ n0
  have y1 := mul_inv_cancel₀ n1
  linear_combination ((((-4) * ((c.e : ℂ)) * ((c.gs : ℂ)) * (mb z0.2 (p 2) ρ0) * (sb z3.2 ρ1)) * i0 + ((-4) * ((c.e : ℂ)) * ((c.gs : ℂ)) * (N.c 1) * (sb z3.2 ρ1) + (-4) * ((c.e : ℂ)) * ((c.gs : ℂ)) * (mb ρ1 (p 2) z0.1) * (sb z0.2 z3.2)) * i1 + ((4) * ((c.e : ℂ)) * ((c.gs : ℂ)) * (ab z1.1 z2.1) * (mb z0.2 (p 2) ρ0)) * i2 + ((-4) * ((c.e : ℂ)) * ((c.gs : ℂ)) * (mb z0.2 (p 2) ρ0) * (sb z3.2 ρ1) + (4) * ((c.e : ℂ)) * ((c.gs : ℂ)) * (mb ρ1 (p 2) ρ0) * (sb z0.2 z3.2)) * i3 + ((4) * ((c.e : ℂ)) * ((c.gs : ℂ)) * (ab z1.1 ρ0) * (sb z0.2 z1.2) * (sb z0.2 ρ1) + (-8) * ((c.e : ℂ)) * ((c.gs : ℂ)) * (mb z0.2 (p 2) ρ0) * (sb z0.2 ρ1)) * i4 + ((-8) * ((c.e : ℂ)) * ((c.gs : ℂ)) * ((c.mass .u : ℂ)) * (ab z0.1 z1.1) * (mb z0.2 (p 2) ρ0) + (4) * ((c.e : ℂ)) * ((c.gs : ℂ)) * ((c.mass .u : ℂ)) * (ab z0.1 ρ0) * (mb z0.2 (p 2) z1.1)) * i5 + ((-4) * ((c.e : ℂ)) * ((c.gs : ℂ)) * ((c.mass .u : ℂ)) * (ab z0.1 z1.1) * (ab z1.1 ρ0) * (sb z0.2 z3.2) + (-4) * ((c.e : ℂ)) * ((c.gs : ℂ)) * (ab z0.1 z1.1) * (ab z1.1 z3.1) * (ab z1.1 ρ0) * (sb z0.2 z1.2) + (8) * ((c.e : ℂ)) * ((c.gs : ℂ)) * (ab z0.1 z1.1) * (ab z1.1 z3.1) * (mb z0.2 (p 2) ρ0) + (8) * ((c.e : ℂ)) * ((c.gs : ℂ)) * (ab z0.1 z1.1) * (ab z3.1 ρ0) * (mb z0.2 (p 2) z1.1) + (-4) * ((c.e : ℂ)) * ((c.gs : ℂ)) * (ab z0.1 z3.1) * (ab z1.1 ρ0) * (mb z0.2 (p 2) z1.1)) * i6 + ((-4) * ((c.e : ℂ)) * ((c.gs : ℂ)) * ((c.mass .u : ℂ)) * (ab z1.1 z2.1) * (sb z0.2 z1.2) * (sb z0.2 ρ1) + (-4) * ((c.e : ℂ)) * ((c.gs : ℂ)) * (N.c 1) * (sb z0.2 z2.2) * (sb z0.2 ρ1) + (-8) * ((c.e : ℂ)) * ((c.gs : ℂ)) * (mb z0.2 (p 2) z1.1) * (sb z0.2 z1.2) * (sb z2.2 ρ1) + (-8) * ((c.e : ℂ)) * ((c.gs : ℂ)) * (mb ρ1 (p 2) z1.1) * (sb z0.2 z1.2) * (sb z0.2 z2.2)) * i7 + ((8) * ((c.e : ℂ)) * ((c.gs : ℂ)) * ((c.mass .u : ℂ)) * (ab z0.1 z1.1) * (ab z1.1 ρ0) * (sb z0.2 z2.2) + (4) * ((c.e : ℂ)) * ((c.gs : ℂ)) * (ab z0.1 z1.1) * (ab z1.1 z2.1) * (mb z0.2 (p 2) ρ0)) * i8 + ((-4) * ((c.e : ℂ)) * ((c.gs : ℂ)) * (mb z0.2 (p 2) z1.1) * (sb z0.2 ρ1)) * i9 + ((-4) * ((c.e : ℂ)) * ((c.gs : ℂ)) * (ab z1.1 ρ0) * (sb z0.2 z2.2) * (sb z0.2 ρ1)) * i10 + ((4) * ((c.e : ℂ)) * ((c.gs : ℂ)) * ((c.mass .u : ℂ)) * (ab z0.1 z1.1) * (ab z1.1 ρ0) * (sb z0.2 ρ1)) * i11 + ((-4) * ((c.e : ℂ)) * ((c.gs : ℂ)) * ((c.mass .u : ℂ)) * (ab z2.1 ρ0) * (sb z0.2 ρ1) + (4) * ((c.e : ℂ)) * ((c.gs : ℂ)) * (ab z1.1 ρ0) * (sb z0.2 z1.2) * (sb z2.2 ρ1) + (4) * ((c.e : ℂ)) * ((c.gs : ℂ)) * (ab z1.1 ρ0) * (sb z0.2 z2.2) * (sb z1.2 ρ1) + (-4) * ((c.e : ℂ)) * ((c.gs : ℂ)) * (mb z0.2 (p 2) ρ0) * (sb z2.2 ρ1)) * i12 + ((-8) * ((c.e : ℂ)) * ((c.gs : ℂ)) * (N.c 0) * (ab z3.1 ρ0)) * i13 + ((8) * ((c.e : ℂ)) * ((c.gs : ℂ)) * (ab z0.1 z1.1) * (ab z3.1 ρ0) * (sb z0.2 z2.2)) * i14 + ((-4) * ((c.e : ℂ)) * ((c.gs : ℂ)) * (mb z0.2 (p 2) z1.1) * (sb z2.2 ρ1) + (-8) * ((c.e : ℂ)) * ((c.gs : ℂ)) * (mb ρ1 (p 2) z1.1) * (sb z0.2 z2.2)) * i15 + ((-4) * ((c.e : ℂ)) * ((c.gs : ℂ)) * (ab z1.1 z3.1) * (ab z1.1 ρ0) * (sb z0.2 z2.2)) * i16 + ((8) * ((c.e : ℂ)) * ((c.gs : ℂ)) * (ab z1.1 ρ0) * (sb z0.2 z1.2) * (sb z0.2 z2.2) + (-8) * ((c.e : ℂ)) * ((c.gs : ℂ)) * (mb z0.2 (p 2) ρ0) * (sb z0.2 z2.2)) * i17 + ((8) * ((c.e : ℂ)) * ((c.gs : ℂ)) * ((c.mass .u : ℂ)) * (sb z0.2 z2.2) * (sb z0.2 z3.2)) * i18 + ((4) * ((c.e : ℂ)) * ((c.gs : ℂ)) * (mb z0.2 (p 2) z1.1) * (sb z0.2 z3.2)) * i19 + ((4) * ((c.e : ℂ)) * ((c.gs : ℂ)) * (ab z1.1 z3.1) * (mb z0.2 (p 2) ρ0)) * i20 + ((4) * ((c.e : ℂ)) * ((c.gs : ℂ)) * ((c.mass .u : ℂ)) * (N.c 0) * (sb z0.2 ρ1)) * i21 + ((4) * ((c.e : ℂ)) * ((c.gs : ℂ)) * ((c.mass .u : ℂ)) * (mb z0.2 (p 2) z1.1) * (sb z0.2 ρ1)) * i22 + ((4) * ((c.e : ℂ)) * ((c.gs : ℂ)) * ((c.mass .u : ℂ)) * (ab z2.1 z3.1) * (sb z0.2 ρ1) + (-4) * ((c.e : ℂ)) * ((c.gs : ℂ)) * ((c.mass .u : ℂ)) * (sb z0.2 z3.2) * (sb z2.2 ρ1) + (4) * ((c.e : ℂ)) * ((c.gs : ℂ)) * (ab z1.1 z2.1) * (sb z0.2 z3.2) * (sb z1.2 ρ1) + (-4) * ((c.e : ℂ)) * ((c.gs : ℂ)) * (ab z1.1 z3.1) * (sb z0.2 z1.2) * (sb z2.2 ρ1)) * i23 + ((-4) * ((c.e : ℂ)) * ((c.gs : ℂ)) * ((c.mass .u : ℂ)) * (mb z0.2 (p 2) ρ0) * (sb z0.2 ρ1)) * i24 + ((4) * ((c.e : ℂ)) * ((c.gs : ℂ)) * ((c.mass .u : ℂ)) * (ab z1.1 z3.1) * (sb z0.2 z1.2) * (sb z0.2 ρ1)) * i25 + ((-4) * ((c.e : ℂ)) * ((c.gs : ℂ)) * ((c.mass .u : ℂ)) * (ab z2.1 ρ0) * (sb z0.2 ρ1) + (4) * ((c.e : ℂ)) * ((c.gs : ℂ)) * (mb ρ1 (p 2) ρ0) * (sb z0.2 z2.2)) * i26 + ((-4) * ((c.e : ℂ)) * ((c.gs : ℂ)) * (mb z0.2 (p 2) z1.1) * (sb z0.2 z2.2)) * i27 + ((4) * ((c.e : ℂ)) * ((c.gs : ℂ)) * (mb ρ1 (p 2) z0.1) * (sb z0.2 z2.2)) * i28 + ((-4) * ((c.e : ℂ)) * ((c.gs : ℂ)) * (ab z0.1 z1.1) * (ab z3.1 ρ0) * (sb z0.2 ρ1)) * i29)) * ((1) * ((N.c 0)⁻¹) * ((N.c 1)⁻¹) / (3)) + ((4) * ((c.e : ℂ)) * ((c.gs : ℂ)) * ((c.mass .u : ℂ)) * ((N.c 1)⁻¹) * (ab z1.1 z2.1) * (ab z3.1 ρ0) * (sb z0.2 ρ1) / (3) + (-4) * ((c.e : ℂ)) * ((c.gs : ℂ)) * ((c.mass .u : ℂ)) * ((N.c 1)⁻¹) * (ab z1.1 ρ0) * (sb z0.2 z3.2) * (sb z2.2 ρ1) / (3) + (4) * ((c.e : ℂ)) * ((c.gs : ℂ)) * ((N.c 1)⁻¹) * (ab z1.1 z2.1) * (ab z1.1 ρ0) * (sb z0.2 z3.2) * (sb z1.2 ρ1) / (3) + (4) * ((c.e : ℂ)) * ((c.gs : ℂ)) * ((N.c 1)⁻¹) * (ab z1.1 z2.1) * (mb ρ1 (p 2) ρ0) * (sb z0.2 z3.2) / (3) + (4) * ((c.e : ℂ)) * ((c.gs : ℂ)) * ((N.c 1)⁻¹) * (ab z3.1 ρ0) * (mb z0.2 (p 2) z1.1) * (sb z2.2 ρ1) / (3)) * y0 + ((-4) * ((c.e : ℂ)) * ((c.gs : ℂ)) * ((c.mass .u : ℂ)) * ((N.c 0)⁻¹) * (ab z1.1 z3.1) * (ab z2.1 ρ0) * (sb z0.2 ρ1) / (3) + (4) * ((c.e : ℂ)) * ((c.gs : ℂ)) * ((c.mass .u : ℂ)) * ((N.c 0)⁻¹) * (ab z1.1 ρ0) * (sb z0.2 z2.2) * (sb z3.2 ρ1) / (3) + (4) * ((c.e : ℂ)) * ((c.gs : ℂ)) * ((N.c 0)⁻¹) * (ab z0.1 ρ0) * (ab z1.1 z3.1) * (sb z0.2 z2.2) * (sb z0.2 ρ1) / (3) + (4) * ((c.e : ℂ)) * ((c.gs : ℂ)) * ((N.c 0)⁻¹) * (ab z1.1 z3.1) * (mb ρ1 (p 2) ρ0) * (sb z0.2 z2.2) / (3) + (4) * ((c.e : ℂ)) * ((c.gs : ℂ)) * ((N.c 0)⁻¹) * (ab z2.1 ρ0) * (mb z0.2 (p 2) z1.1) * (sb z3.2 ρ1) / (3)) * y1 + ((2) * ((c.e : ℂ)) * ((c.gs : ℂ)) * ((c.mass .u : ℂ)) * ((N.c 0)⁻¹) * (ab z1.1 z3.1) * (ab z2.1 ρ0) * (sb z0.2 ρ1) / (3) + (-2) * ((c.e : ℂ)) * ((c.gs : ℂ)) * ((c.mass .u : ℂ)) * ((N.c 0)⁻¹) * (ab z1.1 ρ0) * (sb z0.2 z2.2) * (sb z3.2 ρ1) / (3) + (-2) * ((c.e : ℂ)) * ((c.gs : ℂ)) * ((c.mass .u : ℂ)) * ((N.c 1)⁻¹) * (ab z1.1 z2.1) * (ab z3.1 ρ0) * (sb z0.2 ρ1) / (3) + (2) * ((c.e : ℂ)) * ((c.gs : ℂ)) * ((c.mass .u : ℂ)) * ((N.c 1)⁻¹) * (ab z1.1 ρ0) * (sb z0.2 z3.2) * (sb z2.2 ρ1) / (3) + (-2) * ((c.e : ℂ)) * ((c.gs : ℂ)) * ((N.c 0)⁻¹) * (ab z0.1 ρ0) * (ab z1.1 z3.1) * (sb z0.2 z2.2) * (sb z0.2 ρ1) / (3) + (-2) * ((c.e : ℂ)) * ((c.gs : ℂ)) * ((N.c 0)⁻¹) * (ab z1.1 z3.1) * (mb ρ1 (p 2) ρ0) * (sb z0.2 z2.2) / (3) + (-2) * ((c.e : ℂ)) * ((c.gs : ℂ)) * ((N.c 0)⁻¹) * (ab z2.1 ρ0) * (mb z0.2 (p 2) z1.1) * (sb z3.2 ρ1) / (3) + (-2) * ((c.e : ℂ)) * ((c.gs : ℂ)) * ((N.c 1)⁻¹) * (ab z1.1 z2.1) * (ab z1.1 ρ0) * (sb z0.2 z3.2) * (sb z1.2 ρ1) / (3) + (-2) * ((c.e : ℂ)) * ((c.gs : ℂ)) * ((N.c 1)⁻¹) * (ab z1.1 z2.1) * (mb ρ1 (p 2) ρ0) * (sb z0.2 z3.2) / (3) + (-2) * ((c.e : ℂ)) * ((c.gs : ℂ)) * ((N.c 1)⁻¹) * (ab z3.1 ρ0) * (mb z0.2 (p 2) z1.1) * (sb z2.2 ρ1) / (3)) * x22
theorem gAuu.keyMP {c : Constants} {p : Nat → V4 ℝ} {N : Env} (hc : c.Physical) (hb : Balanced p) (r0 : N.r 0 = c.e) (r1 : N.r 1 = (((2 : Nat) : ℝ) / ((3 : Nat) : ℝ))) (r2 : N.r 2 = c.gs) (d0 : ((msq (plus (backward (p 3)) (p 1)) - c.mass .u ^ 2 : ℝ) : ℂ) = N.c 0) (n0 : N.c 0 ≠ 0) (d1 : ((msq (plus (backward (p 3)) (p 0)) - c.mass .u ^ 2 : ℝ) : ℂ) = N.c 1) (n1 : N.c 1 ≠ 0) {z0 z1 z2 z3 : Pair} (b2 : Bold (p 2) (c.mass .u) z2) (b3 : Bold (p 3) (c.mass .u) z3) (l0 : Light (p 0) z0) (l1 : Light (p 1) z1) (e02 : mb z0.2 (p 2) z0.1 = -N.c 0) (e03 : mb z0.2 (p 3) z0.1 = -N.c 1) (e12 : mb z1.2 (p 2) z1.1 = -N.c 1) (e13 : mb z1.2 (p 3) z1.1 = -N.c 0) (q2 : msq (p 2) = (c.mass .u) ^ 2) (q3 : msq (p 3) = (c.mass .u) ^ 2) (ρ0 ρ1 : V2) :
    gAuu.formMP N p z0 z1 z2 z3 * sb ρ0 z0.2 * ab ρ1 z1.1 = ((√2 : ℝ) * ((√2 : ℝ) * (1 : ℂ))) * gAuu.react.bare c p 2 3 0 1 z2 z3 (pv z0.1 ρ0) (pv ρ1 z1.2) := by
  rw [gAuu.react.bare_parts c p (i := 2) (j := 3) (a := 0) (b := 1) (x := .gluon) (y := .photon) (k := (p 0)) (k' := (p 1)) (fun _ => rfl) (fun _ => rfl) (f := .u) (g := .u) rfl rfl (l := (backward (p 3))) rfl (e := 1) (e' := -1) (if_neg Bool.false_ne_true) (if_pos rfl)]
  rw [compton_vv (f := .u) (x := .u) (g := .u) (h := (rfl : Spec.after .gluon Flavour.u = some Flavour.u)) (h' := (rfl : Spec.after .photon Flavour.u = some Flavour.u)) (ha := by simp) (hb := by simp)]
  rw [compton_vv (f := .u) (x := .u) (g := .u) (h := (rfl : Spec.after .photon Flavour.u = some Flavour.u)) (h' := (rfl : Spec.after .gluon Flavour.u = some Flavour.u)) (ha := by simp) (hb := by simp)]
  rw [annihilation_none c _ _ (by rfl) (by simp), star_zero, add_zero, gAuu.formMP]
  simp only [d0, d1, lineV_pv, lineV_four, contract_four_pv, contract_pv, mb_plus, mb_backward]
  have i0 := mb_schouten_right z0.2 (p 3) z0.1 z2.1 z3.1
  have i1 := ab_schouten z2.1 z3.1 ρ1 z0.1
  have i2 := mb_schouten_left z0.2 z1.2 ρ0 (p 2) z0.1
  have i3 := mb_schouten_right z3.2 (p 2) z0.1 z2.1 ρ1
  have i4 := ab_schouten z1.1 z3.1 ρ1 z0.1
  have i5 := mb_schouten_left z0.2 z1.2 z2.2 (p 2) z0.1
  have i6 := mb_schouten_right ρ0 (p 2) z0.1 z3.1 ρ1
  have i7 := sb_schouten z1.2 z3.2 ρ0 z0.2
  have i8 := mb_schouten_left z0.2 z3.2 ρ0 (p 2) z0.1
  have i9 := mb_schouten_right z1.2 (p 2) z0.1 z2.1 ρ1
  have i10 := sb_schouten z1.2 z2.2 z3.2 z0.2
  have i11 := sb_schouten z1.2 z2.2 ρ0 z0.2
  have i12 := mb_schouten_left z0.2 z2.2 ρ0 (p 2) z0.1
  have i13 := mb_schouten_right z0.2 (p 3) z0.1 z2.1 ρ1
  have i14 := mb_schouten_right z0.2 (p 2) z0.1 z2.1 ρ1
  have i15 := mb_schouten_right ρ0 (p 2) z0.1 z2.1 ρ1
  have i16 := mb_schouten_right z1.2 (p 2) z0.1 z1.1 ρ1
  have i17 := sb_schouten z2.2 z3.2 ρ0 z1.2
  have i18 := mb_schouten_right z1.2 (p 3) z0.1 z1.1 z3.1
  have i19 := mb_schouten_right z1.2 (p 2) z0.1 z1.1 z3.1
  have i20 := mb_schouten_right z1.2 (p 2) z0.1 z3.1 ρ1
  have i21 := mb_schouten_right z1.2 (p 3) z0.1 z1.1 z2.1
  have i22 := mb_schouten_right z1.2 (p 2) z0.1 z1.1 z2.1
  have i23 := mb_schouten_left z0.2 z1.2 z3.2 (p 2) z0.1
  have i24 := mb_schouten_right z2.2 (p 3) z0.1 z3.1 ρ1
  have i25 := sb_schouten z2.2 z3.2 ρ0 z0.2
  have i26 := mb_schouten_right ρ0 (p 2) z0.1 z2.1 z3.1
  have i27 := mb_schouten_right z1.2 (p 2) z0.1 z2.1 z3.1
  simp only [l0.mb_eq, l1.mb_eq, b2.mb_left, b2.mb_right, b3.mb_left, b3.mb_right, e02, e03, e12, e13, mb_three hb z0.2 z1.1, mb_three hb z0.2 z2.1, mb_two hb z0.2 z3.1, mb_three hb z0.2 ρ1, mb_three hb z1.2 z0.1, mb_three hb z1.2 z2.1, mb_two hb z1.2 z3.1, mb_three hb z1.2 ρ1, mb_three hb z2.2 z0.1, mb_three hb z2.2 z1.1, mb_three hb z2.2 z2.1, mb_three hb z2.2 ρ1, mb_two hb z3.2 z0.1, mb_two hb z3.2 z1.1, mb_two hb z3.2 z3.1, mb_two hb z3.2 ρ1, mb_three hb ρ0 z0.1, mb_three hb ρ0 z1.1, mb_three hb ρ0 z2.1, mb_two hb ρ0 z3.1, mb_three hb ρ0 ρ1, ab_self, sb_self] at i0 i1 i2 i3 i4 i5 i6 i7 i8 i9 i10 i11 i12 i13 i14 i15 i16 i17 i18 i19 i20 i21 i22 i23 i24 i25 i26 i27 ⊢
  simp only [ab_swap z0.1 z1.1, ab_swap z0.1 z2.1, ab_swap z0.1 z3.1, ab_swap z0.1 ρ1, ab_swap z1.1 z2.1, ab_swap z1.1 z3.1, ab_swap z1.1 ρ1, ab_swap z2.1 z3.1, ab_swap z2.1 ρ1, ab_swap z3.1 ρ1, sb_swap z0.2 z1.2, sb_swap z0.2 z2.2, sb_swap z0.2 z3.2, sb_swap z0.2 ρ0, sb_swap z1.2 z2.2, sb_swap z1.2 z3.2, sb_swap z1.2 ρ0, sb_swap z2.2 z3.2, sb_swap z2.2 ρ0, sb_swap z3.2 ρ0] at i0 i1 i2 i3 i4 i5 i6 i7 i8 i9 i10 i11 i12 i13 i14 i15 i16 i17 i18 i19 i20 i21 i22 i23 i24 i25 i26 i27 ⊢
  simp only [r0, r1, r2, Constants.hL, Constants.hR, Constants.gL, Constants.gR, Constants.yuk, Constants.invVev, Flavour.charge_u, Flavour.isospin_u, ← c.mz]
  have xMW : (c.MW : ℂ) ≠ 0 := by exact_mod_cast hc.MW
  have xSW : (c.SW : ℂ) ≠ 0 := by exact_mod_cast hc.SW
  have xCW : (c.CW : ℂ) ≠ 0 := by exact_mod_cast hc.CW
  have x2 : ((√2 : ℝ) : ℂ) ≠ 0 := by exact_mod_cast (Real.sqrt_pos.2 two_pos).ne'
  have x22 : ((√2 : ℝ) : ℂ) ^ 2 = 2 := by rw [← Complex.ofReal_pow, Real.sq_sqrt two_pos.le]; norm_num
  have x23 : ((√2 : ℝ) : ℂ) ^ 3 = 2 * ((√2 : ℝ) : ℂ) := by rw [← x22]; ring
  have x24 : ((√2 : ℝ) : ℂ) ^ 4 = 4 := by linear_combination (((√2 : ℝ) : ℂ) ^ 2 + 2) * x22
  push_cast at i0 i1 i2 i3 i4 i5 i6 i7 i8 i9 i10 i11 i12 i13 i14 i15 i16 i17 i18 i19 i20 i21 i22 i23 i24 i25 i26 i27 ⊢
  have y0 := mul_inv_cancel₀ n0
  have y1 := mul_inv_cancel₀ n1
  linear_combination ((((-4) * ((c.e : ℂ)) * ((c.gs : ℂ)) * ((c.mass .u : ℂ)) * (ab z0.1 ρ1) * (sb z1.2 ρ0)) * i0 + ((-4) * ((c.e : ℂ)) * ((c.gs : ℂ)) * ((c.mass .u : ℂ)) * (N.c 1) * (sb z1.2 ρ0) + (-4) * ((c.e : ℂ)) * ((c.gs : ℂ)) * ((c.mass .u : ℂ)) * (mb z1.2 (p 2) z0.1) * (sb z0.2 ρ0) + (4) * ((c.e : ℂ)) * ((c.gs : ℂ)) * ((c.mass .u : ℂ)) * (mb ρ0 (p 2) z0.1) * (sb z0.2 z1.2)) * i1 + ((-8) * ((c.e : ℂ)) * ((c.gs : ℂ)) * ((c.mass .u : ℂ)) * (ab z0.1 z2.1) * (ab z3.1 ρ1) + (4) * ((c.e : ℂ)) * ((c.gs : ℂ)) * (ab z0.1 z1.1) * (ab z2.1 ρ1) * (sb z1.2 z3.2) + (-4) * ((c.e : ℂ)) * ((c.gs : ℂ)) * (ab z0.1 z2.1) * (ab z0.1 ρ1) * (sb z0.2 z3.2) + (-4) * ((c.e : ℂ)) * ((c.gs : ℂ)) * (ab z0.1 z2.1) * (ab z1.1 ρ1) * (sb z1.2 z3.2) + (4) * ((c.e : ℂ)) * ((c.gs : ℂ)) * (ab z0.1 z3.1) * (ab z0.1 ρ1) * (sb z0.2 z2.2)) * i2 + ((4) * ((c.e : ℂ)) * ((c.gs : ℂ)) * (N.c 0) * (sb z1.2 ρ0) + (4) * ((c.e : ℂ)) * ((c.gs : ℂ)) * (mb z1.2 (p 2) z0.1) * (sb z0.2 ρ0) + (-4) * ((c.e : ℂ)) * ((c.gs : ℂ)) * (mb ρ0 (p 2) z0.1) * (sb z0.2 z1.2)) * i3 + ((-4) * ((c.e : ℂ)) * ((c.gs : ℂ)) * ((c.mass .u : ℂ)) * (ab z0.1 z2.1) * (sb z0.2 z1.2) * (sb z1.2 ρ0) + (-4) * ((c.e : ℂ)) * ((c.gs : ℂ)) * (mb z1.2 (p 2) z0.1) * (sb z0.2 z2.2) * (sb z1.2 ρ0)) * i4 + ((8) * ((c.e : ℂ)) * ((c.gs : ℂ)) * ((c.mass .u : ℂ)) * (ab z0.1 ρ1) * (sb z3.2 ρ0) + (-4) * ((c.e : ℂ)) * ((c.gs : ℂ)) * (ab z0.1 z1.1) * (ab z3.1 ρ1) * (sb z1.2 ρ0) + (8) * ((c.e : ℂ)) * ((c.gs : ℂ)) * (ab z0.1 z3.1) * (ab z1.1 ρ1) * (sb z1.2 ρ0) + (4) * ((c.e : ℂ)) * ((c.gs : ℂ)) * (ab z0.1 z3.1) * (mb ρ0 (p 2) ρ1)) * i5 + ((4) * ((c.e : ℂ)) * ((c.gs : ℂ)) * (mb z1.2 (p 2) z0.1) * (sb z0.2 z2.2)) * i6 + ((4) * ((c.e : ℂ)) * ((c.gs : ℂ)) * ((c.mass .u : ℂ)) ^ 2 * (ab z0.1 z2.1) * (ab z0.1 ρ1) + (-4) * ((c.e : ℂ)) * ((c.gs : ℂ)) * (N.c 1) * (ab z0.1 z2.1) * (ab z0.1 ρ1) + (-4) * ((c.e : ℂ)) * ((c.gs : ℂ)) * (ab z0.1 z1.1) * (ab z0.1 z2.1) * (mb z1.2 (p 2) ρ1) + (-4) * ((c.e : ℂ)) * ((c.gs : ℂ)) * (ab z0.1 z2.1) * (ab z1.1 ρ1) * (mb z1.2 (p 2) z0.1)) * i7 + ((-4) * ((c.e : ℂ)) * ((c.gs : ℂ)) * (ab z0.1 z2.1) * (mb z1.2 (p 2) ρ1)) * i8 + ((-8) * ((c.e : ℂ)) * ((c.gs : ℂ)) * ((c.mass .u : ℂ)) * (ab z0.1 z3.1) * (sb z0.2 ρ0) + (-4) * ((c.e : ℂ)) * ((c.gs : ℂ)) * (N.c 0) * (sb z3.2 ρ0) + (4) * ((c.e : ℂ)) * ((c.gs : ℂ)) * (mb ρ0 (p 2) z0.1) * (sb z0.2 z3.2)) * i9 + ((-4) * ((c.e : ℂ)) * ((c.gs : ℂ)) * ((c.mass .u : ℂ)) * (ab z0.1 ρ1) * (mb ρ0 (p 2) z0.1)) * i10 + ((4) * ((c.e : ℂ)) * ((c.gs : ℂ)) * ((c.mass .u : ℂ)) ^ 2 * (ab z0.1 z3.1) * (ab z0.1 ρ1) + (-4) * ((c.e : ℂ)) * ((c.gs : ℂ)) * (ab z0.1 z3.1) * (ab z1.1 ρ1) * (mb z1.2 (p 2) z0.1)) * i11 + ((-8) * ((c.e : ℂ)) * ((c.gs : ℂ)) * ((c.mass .u : ℂ)) * (ab z0.1 ρ1) * (sb z1.2 z3.2) + (4) * ((c.e : ℂ)) * ((c.gs : ℂ)) * (ab z0.1 z3.1) * (mb z1.2 (p 2) ρ1)) * i12 + ((4) * ((c.e : ℂ)) * ((c.gs : ℂ)) * ((c.mass .u : ℂ)) * (ab z0.1 z3.1) * (sb z1.2 ρ0)) * i13 + ((4) * ((c.e : ℂ)) * ((c.gs : ℂ)) * ((c.mass .u : ℂ)) * (ab z0.1 z3.1) * (sb z1.2 ρ0)) * i14 + ((8) * ((c.e : ℂ)) * ((c.gs : ℂ)) * ((c.mass .u : ℂ)) * (ab z0.1 z3.1) * (sb z0.2 z1.2) + (-4) * ((c.e : ℂ)) * ((c.gs : ℂ)) * (mb z1.2 (p 2) z0.1) * (sb z0.2 z3.2)) * i15 + ((4) * ((c.e : ℂ)) * ((c.gs : ℂ)) * (ab z0.1 z2.1) * (sb z0.2 z1.2) * (sb z3.2 ρ0) + (-4) * ((c.e : ℂ)) * ((c.gs : ℂ)) * (ab z0.1 z2.1) * (sb z0.2 z3.2) * (sb z1.2 ρ0) + (4) * ((c.e : ℂ)) * ((c.gs : ℂ)) * (ab z0.1 z3.1) * (sb z0.2 z1.2) * (sb z2.2 ρ0)) * i16 + ((8) * ((c.e : ℂ)) * ((c.gs : ℂ)) * ((c.mass .u : ℂ)) * (N.c 0) * (ab z0.1 ρ1)) * i17 + ((4) * ((c.e : ℂ)) * ((c.gs : ℂ)) * (mb z1.2 (p 2) ρ1) * (sb z2.2 ρ0)) * i18 + ((4) * ((c.e : ℂ)) * ((c.gs : ℂ)) * (mb z1.2 (p 2) ρ1) * (sb z2.2 ρ0)) * i19 + ((-4) * ((c.e : ℂ)) * ((c.gs : ℂ)) * (N.c 1) * (sb z2.2 ρ0) + (-4) * ((c.e : ℂ)) * ((c.gs : ℂ)) * (mb ρ0 (p 2) z0.1) * (sb z0.2 z2.2)) * i20 + ((-4) * ((c.e : ℂ)) * ((c.gs : ℂ)) * (mb ρ0 (p 2) ρ1) * (sb z1.2 z3.2)) * i21 + ((-4) * ((c.e : ℂ)) * ((c.gs : ℂ)) * (mb ρ0 (p 2) ρ1) * (sb z1.2 z3.2)) * i22 + ((-4) * ((c.e : ℂ)) * ((c.gs : ℂ)) * (ab z0.1 z2.1) * (mb ρ0 (p 2) ρ1)) * i23 + ((-4) * ((c.e : ℂ)) * ((c.gs : ℂ)) * (N.c 0) * (sb z1.2 ρ0)) * i24 + ((4) * ((c.e : ℂ)) * ((c.gs : ℂ)) * ((c.mass .u : ℂ)) * (ab z0.1 ρ1) * (mb z1.2 (p 2) z0.1)) * i25 + ((-4) * ((c.e : ℂ)) * ((c.gs : ℂ)) * ((c.mass .u : ℂ)) * (ab z0.1 ρ1) * (sb z0.2 z1.2)) * i26 + ((4) * ((c.e : ℂ)) * ((c.gs : ℂ)) * ((c.mass .u : ℂ)) * (ab z0.1 ρ1) * (sb z0.2 ρ0)) * i27)) * ((1) * ((N.c 0)⁻¹) * ((N.c 1)⁻¹) / (3)) + ((-4) * ((c.e : ℂ)) * ((c.gs : ℂ)) * ((c.mass .u : ℂ)) * ((N.c 1)⁻¹) * (ab z0.1 z3.1) * (ab z2.1 ρ1) * (sb z1.2 ρ0) / (3) + (4) * ((c.e : ℂ)) * ((c.gs : ℂ)) * ((c.mass .u : ℂ)) * ((N.c 1)⁻¹) * (ab z0.1 ρ1) * (sb z1.2 z2.2) * (sb z3.2 ρ0) / (3) + (4) * ((c.e : ℂ)) * ((c.gs : ℂ)) * ((N.c 1)⁻¹) * (ab z0.1 z3.1) * (ab z1.1 ρ1) * (sb z1.2 z2.2) * (sb z1.2 ρ0) / (3) + (4) * ((c.e : ℂ)) * ((c.gs : ℂ)) * ((N.c 1)⁻¹) * (ab z0.1 z3.1) * (mb ρ0 (p 2) ρ1) * (sb z1.2 z2.2) / (3) + (4) * ((c.e : ℂ)) * ((c.gs : ℂ)) * ((N.c 1)⁻¹) * (ab z2.1 ρ1) * (mb z1.2 (p 2) z0.1) * (sb z3.2 ρ0) / (3)) * y0 + ((4) * ((c.e : ℂ)) * ((c.gs : ℂ)) * ((c.mass .u : ℂ)) * ((N.c 0)⁻¹) * (ab z0.1 z2.1) * (ab z3.1 ρ1) * (sb z1.2 ρ0) / (3) + (-4) * ((c.e : ℂ)) * ((c.gs : ℂ)) * ((c.mass .u : ℂ)) * ((N.c 0)⁻¹) * (ab z0.1 ρ1) * (sb z1.2 z3.2) * (sb z2.2 ρ0) / (3) + (4) * ((c.e : ℂ)) * ((c.gs : ℂ)) * ((N.c 0)⁻¹) * (ab z0.1 z2.1) * (ab z0.1 ρ1) * (sb z0.2 ρ0) * (sb z1.2 z3.2) / (3) + (4) * ((c.e : ℂ)) * ((c.gs : ℂ)) * ((N.c 0)⁻¹) * (ab z0.1 z2.1) * (mb ρ0 (p 2) ρ1) * (sb z1.2 z3.2) / (3) + (4) * ((c.e : ℂ)) * ((c.gs : ℂ)) * ((N.c 0)⁻¹) * (ab z3.1 ρ1) * (mb z1.2 (p 2) z0.1) * (sb z2.2 ρ0) / (3)) * y1 + ((-2) * ((c.e : ℂ)) * ((c.gs : ℂ)) * ((c.mass .u : ℂ)) * ((N.c 0)⁻¹) * (ab z0.1 z2.1) * (ab z3.1 ρ1) * (sb z1.2 ρ0) / (3) + (2) * ((c.e : ℂ)) * ((c.gs : ℂ)) * ((c.mass .u : ℂ)) * ((N.c 0)⁻¹) * (ab z0.1 ρ1) * (sb z1.2 z3.2) * (sb z2.2 ρ0) / (3) + (2) * ((c.e : ℂ)) * ((c.gs : ℂ)) * ((c.mass .u : ℂ)) * ((N.c 1)⁻¹) * (ab z0.1 z3.1) * (ab z2.1 ρ1) * (sb z1.2 ρ0) / (3) + (-2) * ((c.e : ℂ)) * ((c.gs : ℂ)) * ((c.mass .u : ℂ)) * ((N.c 1)⁻¹) * (ab z0.1 ρ1) * (sb z1.2 z2.2) * (sb z3.2 ρ0) / (3) + (-2) * ((c.e : ℂ)) * ((c.gs : ℂ)) * ((N.c 0)⁻¹) * (ab z0.1 z2.1) * (ab z0.1 ρ1) * (sb z0.2 ρ0) * (sb z1.2 z3.2) / (3) + (-2) * ((c.e : ℂ)) * ((c.gs : ℂ)) * ((N.c 0)⁻¹) * (ab z0.1 z2.1) * (mb ρ0 (p 2) ρ1) * (sb z1.2 z3.2) / (3) + (-2) * ((c.e : ℂ)) * ((c.gs : ℂ)) * ((N.c 0)⁻¹) * (ab z3.1 ρ1) * (mb z1.2 (p 2) z0.1) * (sb z2.2 ρ0) / (3) + (-2) * ((c.e : ℂ)) * ((c.gs : ℂ)) * ((N.c 1)⁻¹) * (ab z0.1 z3.1) * (ab z1.1 ρ1) * (sb z1.2 z2.2) * (sb z1.2 ρ0) / (3) + (-2) * ((c.e : ℂ)) * ((c.gs : ℂ)) * ((N.c 1)⁻¹) * (ab z0.1 z3.1) * (mb ρ0 (p 2) ρ1) * (sb z1.2 z2.2) / (3) + (-2) * ((c.e : ℂ)) * ((c.gs : ℂ)) * ((N.c 1)⁻¹) * (ab z2.1 ρ1) * (mb z1.2 (p 2) z0.1) * (sb z3.2 ρ0) / (3)) * x22
theorem gAuu.keyMM {c : Constants} {p : Nat → V4 ℝ} {N : Env} (hc : c.Physical) (hb : Balanced p) (r0 : N.r 0 = c.e) (r1 : N.r 1 = (((2 : Nat) : ℝ) / ((3 : Nat) : ℝ))) (r2 : N.r 2 = c.gs) (r3 : N.r 3 = (c.mass .u)) (d0 : ((msq (plus (backward (p 3)) (p 1)) - c.mass .u ^ 2 : ℝ) : ℂ) = N.c 0) (n0 : N.c 0 ≠ 0) (d1 : ((msq (plus (backward (p 3)) (p 0)) - c.mass .u ^ 2 : ℝ) : ℂ) = N.c 1) (n1 : N.c 1 ≠ 0) {z0 z1 z2 z3 : Pair} (b2 : Bold (p 2) (c.mass .u) z2) (b3 : Bold (p 3) (c.mass .u) z3) (l0 : Light (p 0) z0) (l1 : Light (p 1) z1) (e02 : mb z0.2 (p 2) z0.1 = -N.c 0) (e03 : mb z0.2 (p 3) z0.1 = -N.c 1) (e12 : mb z1.2 (p 2) z1.1 = -N.c 1) (e13 : mb z1.2 (p 3) z1.1 = -N.c 0) (q2 : msq (p 2) = (c.mass .u) ^ 2) (q3 : msq (p 3) = (c.mass .u) ^ 2) (ρ0 ρ1 : V2) :
    gAuu.formMM N p z0 z1 z2 z3 * sb ρ0 z0.2 * sb ρ1 z1.2 = ((√2 : ℝ) * ((√2 : ℝ) * (1 : ℂ))) * gAuu.react.bare c p 2 3 0 1 z2 z3 (pv z0.1 ρ0) (pv z1.1 ρ1) := by
  rw [gAuu.react.bare_parts c p (i := 2) (j := 3) (a := 0) (b := 1) (x := .gluon) (y := .photon) (k := (p 0)) (k' := (p 1)) (fun _ => rfl) (fun _ => rfl) (f := .u) (g := .u) rfl rfl (l := (backward (p 3))) rfl (e := 1) (e' := -1) (if_neg Bool.false_ne_true) (if_pos rfl)]
  rw [compton_vv (f := .u) (x := .u) (g := .u) (h := (rfl : Spec.after .gluon Flavour.u = some Flavour.u)) (h' := (rfl : Spec.after .photon Flavour.u = some Flavour.u)) (ha := by simp) (hb := by simp)]
  rw [compton_vv (f := .u) (x := .u) (g := .u) (h := (rfl : Spec.after .photon Flavour.u = some Flavour.u)) (h' := (rfl : Spec.after .gluon Flavour.u = some Flavour.u)) (ha := by simp) (hb := by simp)]
  rw [annihilation_none c _ _ (by rfl) (by simp), star_zero, add_zero, gAuu.formMM]
  simp only [d0, d1, lineV_pv, lineV_four, contract_four_pv, contract_pv, mb_plus, mb_backward]
  have i0 := sb_schouten z1.2 ρ0 ρ1 z0.2
  have i1 := sb_schouten z2.2 z3.2 ρ1 z0.2
  have i2 := sb_schouten z1.2 z2.2 ρ0 z0.2
  have i3 := sb_schouten z3.2 ρ0 ρ1 z1.2
  have i4 := sb_schouten z1.2 z3.2 ρ0 z0.2
  have i5 := mb_schouten_right z3.2 (p 2) z0.1 z1.1 z2.1
  have i6 := sb_schouten z1.2 z3.2 ρ1 z0.2
  have i7 := mb_schouten_left z0.2 z1.2 ρ0 (p 2) z0.1
  have i8 := mb_schouten_right z1.2 (p 2) z0.1 z1.1 z2.1
  have i9 := mb_schouten_right z0.2 (p 2) z0.1 z1.1 z2.1
  have i10 := mb_schouten_right z1.2 (p 3) z0.1 z1.1 z2.1
  have i11 := mb_schouten_right ρ1 (p 2) z0.1 z1.1 z2.1
  have i12 := sb_schouten z3.2 ρ0 ρ1 z2.2
  have i13 := mb_schouten_right z0.2 (p 3) z0.1 z1.1 z2.1
  have i14 := mb_schouten_right z0.2 (p 3) z0.1 z1.1 z3.1
  have i15 := mb_schouten_left z0.2 z3.2 ρ0 (p 2) z0.1
  have i16 := mb_schouten_left z0.2 z3.2 ρ1 (p 2) z0.1
  have i17 := mb_schouten_left z0.2 ρ0 ρ1 (p 2) z0.1
  have i18 := mb_schouten_right ρ0 (p 2) z0.1 z1.1 z3.1
  have i19 := mb_schouten_left z0.2 z2.2 ρ1 (p 2) z0.1
  have i20 := mb_schouten_right ρ1 (p 2) z0.1 z1.1 z3.1
  have i21 := mb_schouten_left z0.2 z2.2 ρ0 (p 2) z0.1
  have i22 := mb_schouten_right z2.2 (p 3) z0.1 z1.1 z3.1
  have i23 := mb_schouten_right z0.2 (p 2) z0.1 z1.1 z3.1
  have i24 := mb_schouten_right z1.2 (p 2) z0.1 z1.1 z3.1
  have i25 := sb_schouten z3.2 ρ0 ρ1 z0.2
  have i26 := mb_schouten_right ρ0 (p 2) z0.1 z1.1 z2.1
  have i27 := sb_schouten z2.2 z3.2 ρ0 z0.2
  have i28 := sb_schouten z2.2 ρ0 ρ1 z1.2
  have i29 := sb_schouten z2.2 ρ0 ρ1 z0.2
  have i30 := mb_schouten_left z0.2 z1.2 ρ1 (p 2) z0.1
  have i31 := mb_schouten_right z1.2 (p 3) z0.1 z1.1 z3.1
  simp only [l0.mb_eq, l1.mb_eq, b2.mb_left, b2.mb_right, b3.mb_left, b3.mb_right, e02, e03, e12, e13, mb_three hb z0.2 z1.1, mb_three hb z0.2 z2.1, mb_two hb z0.2 z3.1, mb_three hb z1.2 z0.1, mb_three hb z1.2 z2.1, mb_two hb z1.2 z3.1, mb_three hb z2.2 z0.1, mb_three hb z2.2 z1.1, mb_three hb z2.2 z2.1, mb_two hb z3.2 z0.1, mb_two hb z3.2 z1.1, mb_two hb z3.2 z3.1, mb_three hb ρ0 z0.1, mb_three hb ρ0 z1.1, mb_three hb ρ0 z2.1, mb_two hb ρ0 z3.1, mb_three hb ρ1 z0.1, mb_three hb ρ1 z1.1, mb_three hb ρ1 z2.1, mb_two hb ρ1 z3.1, ab_self, sb_self] at i0 i1 i2 i3 i4 i5 i6 i7 i8 i9 i10 i11 i12 i13 i14 i15 i16 i17 i18 i19 i20 i21 i22 i23 i24 i25 i26 i27 i28 i29 i30 i31 ⊢
  simp only [ab_swap z0.1 z1.1, ab_swap z0.1 z2.1, ab_swap z0.1 z3.1, ab_swap z1.1 z2.1, ab_swap z1.1 z3.1, ab_swap z2.1 z3.1, sb_swap z0.2 z1.2, sb_swap z0.2 z2.2, sb_swap z0.2 z3.2, sb_swap z0.2 ρ0, sb_swap z0.2 ρ1, sb_swap z1.2 z2.2, sb_swap z1.2 z3.2, sb_swap z1.2 ρ0, sb_swap z1.2 ρ1, sb_swap z2.2 z3.2, sb_swap z2.2 ρ0, sb_swap z2.2 ρ1, sb_swap z3.2 ρ0, sb_swap z3.2 ρ1, sb_swap ρ0 ρ1] at i0 i1 i2 i3 i4 i5 i6 i7 i8 i9 i10 i11 i12 i13 i14 i15 i16 i17 i18 i19 i20 i21 i22 i23 i24 i25 i26 i27 i28 i29 i30 i31 ⊢
  simp only [r0, r1, r2, r3, Constants.hL, Constants.hR, Constants.gL, Constants.gR, Constants.yuk, Constants.invVev, Flavour.charge_u, Flavour.isospin_u, ← c.mz]
  have xMW : (c.MW : ℂ) ≠ 0 := by exact_mod_cast hc.MW
  have xSW : (c.SW : ℂ) ≠ 0 := by exact_mod_cast hc.SW
  have xCW : (c.CW : ℂ) ≠ 0 := by exact_mod_cast hc.CW
  have x2 : ((√2 : ℝ) : ℂ) ≠ 0 := by exact_mod_cast (Real.sqrt_pos.2 two_pos).ne'
  have x22 : ((√2 : ℝ) : ℂ) ^ 2 = 2 := by rw [← Complex.ofReal_pow, Real.sq_sqrt two_pos.le]; norm_num
  have x23 : ((√2 : ℝ) : ℂ) ^ 3 = 2 * ((√2 : ℝ) : ℂ) := by rw [← x22]; ring
  have x24 : ((√2 : ℝ) : ℂ) ^ 4 = 4 := by linear_combination (((√2 : ℝ) : ℂ) ^ 2 + 2) * x22
  push_cast at i0 i1 i2 i3 i4 i5 i6 i7 i8 i9 i10 i11 i12 i13 i14 i15 i16 i17 i18 i19 i20 i21 i22 i23 i24 i25 i26 i27 i28 i29 i30 i31 ⊢
  have y0 := mul_inv_cancel₀ n0
  have y1 := mul_inv_cancel₀ n1
  linear_combination ((((-4) * ((c.e : ℂ)) * ((c.gs : ℂ)) * ((c.mass .u : ℂ)) * (ab z0.1 z1.1) ^ 2 * (sb z2.2 z3.2)) * i0 + ((-4) * ((c.e : ℂ)) * ((c.gs : ℂ)) * ((c.mass .u : ℂ)) * (ab z0.1 z1.1) * (mb ρ0 (p 2) z0.1) + (4) * ((c.e : ℂ)) * ((c.gs : ℂ)) * ((c.mass .u : ℂ)) * (ab z0.1 z1.1) ^ 2 * (sb z1.2 ρ0)) * i1 + ((4) * ((c.e : ℂ)) * ((c.gs : ℂ)) * ((c.mass .u : ℂ)) * (ab z0.1 z1.1) ^ 2 * (sb z3.2 ρ1)) * i2 + ((-4) * ((c.e : ℂ)) * ((c.gs : ℂ)) * (N.c 0) * (ab z0.1 z1.1) * (ab z1.1 z2.1)) * i3 + ((-4) * ((c.e : ℂ)) * ((c.gs : ℂ)) * (ab z0.1 z1.1) * (ab z0.1 z2.1) * (mb ρ1 (p 2) z1.1) + (4) * ((c.e : ℂ)) * ((c.gs : ℂ)) * (ab z0.1 z1.1) * (ab z1.1 z2.1) * (mb ρ1 (p 2) z0.1)) * i4 + ((4) * ((c.e : ℂ)) * ((c.gs : ℂ)) * (N.c 0) * (sb ρ0 ρ1) + (4) * ((c.e : ℂ)) * ((c.gs : ℂ)) * (mb ρ0 (p 2) z0.1) * (sb z0.2 ρ1) + (-4) * ((c.e : ℂ)) * ((c.gs : ℂ)) * (mb ρ1 (p 2) z0.1) * (sb z0.2 ρ0)) * i5 + ((-4) * ((c.e : ℂ)) * ((c.gs : ℂ)) * ((c.mass .u : ℂ)) * (ab z0.1 z1.1) ^ 2 * (sb z2.2 ρ0) + (4) * ((c.e : ℂ)) * ((c.gs : ℂ)) * (ab z0.1 z1.1) * (ab z0.1 z2.1) * (mb ρ0 (p 2) z1.1) + (-4) * ((c.e : ℂ)) * ((c.gs : ℂ)) * (ab z0.1 z1.1) * (ab z1.1 z2.1) * (mb ρ0 (p 2) z0.1)) * i6 + ((4) * ((c.e : ℂ)) * ((c.gs : ℂ)) * (ab z0.1 z1.1) * (ab z1.1 z2.1) * (sb z3.2 ρ1)) * i7 + ((4) * ((c.e : ℂ)) * ((c.gs : ℂ)) * (ab z0.1 z1.1) * (sb z0.2 ρ0) * (sb z3.2 ρ1) + (4) * ((c.e : ℂ)) * ((c.gs : ℂ)) * (mb ρ0 (p 2) z1.1) * (sb z3.2 ρ1) + (-4) * ((c.e : ℂ)) * ((c.gs : ℂ)) * (mb ρ1 (p 2) z1.1) * (sb z3.2 ρ0)) * i8 + ((-4) * ((c.e : ℂ)) * ((c.gs : ℂ)) * (mb ρ1 (p 2) z0.1) * (sb z3.2 ρ0)) * i9 + ((4) * ((c.e : ℂ)) * ((c.gs : ℂ)) * (mb ρ0 (p 2) z1.1) * (sb z3.2 ρ1) + (-4) * ((c.e : ℂ)) * ((c.gs : ℂ)) * (mb ρ1 (p 2) z1.1) * (sb z3.2 ρ0)) * i10 + ((4) * ((c.e : ℂ)) * ((c.gs : ℂ)) * ((c.mass .u : ℂ)) * (ab z0.1 z3.1) * (sb z0.2 ρ0) + (-4) * ((c.e : ℂ)) * ((c.gs : ℂ)) * (N.c 1) * (sb z3.2 ρ0) + (4) * ((c.e : ℂ)) * ((c.gs : ℂ)) * (ab z0.1 z1.1) * (sb z0.2 z3.2) * (sb z1.2 ρ0) + (-4) * ((c.e : ℂ)) * ((c.gs : ℂ)) * (mb ρ0 (p 2) z0.1) * (sb z0.2 z3.2)) * i11 + ((-4) * ((c.e : ℂ)) * ((c.gs : ℂ)) * ((c.mass .u : ℂ)) * (N.c 0) * (ab z0.1 z1.1) + (4) * ((c.e : ℂ)) * ((c.gs : ℂ)) * ((c.mass .u : ℂ)) * (N.c 1) * (ab z0.1 z1.1)) * i12 + ((-4) * ((c.e : ℂ)) * ((c.gs : ℂ)) * ((c.mass .u : ℂ)) * (ab z0.1 z3.1) * (sb ρ0 ρ1) + (-4) * ((c.e : ℂ)) * ((c.gs : ℂ)) * (mb ρ1 (p 2) z0.1) * (sb z3.2 ρ0)) * i13 + ((8) * ((c.e : ℂ)) * ((c.gs : ℂ)) * ((c.mass .u : ℂ)) * (ab z0.1 z2.1) * (sb ρ0 ρ1) + (4) * ((c.e : ℂ)) * ((c.gs : ℂ)) * (ab z0.1 z1.1) * (sb z1.2 z2.2) * (sb ρ0 ρ1) + (-4) * ((c.e : ℂ)) * ((c.gs : ℂ)) * (mb ρ1 (p 2) z0.1) * (sb z2.2 ρ0)) * i14 + ((-4) * ((c.e : ℂ)) * ((c.gs : ℂ)) * (ab z0.1 z1.1) * (ab z0.1 z2.1) * (sb z0.2 ρ1) + (-4) * ((c.e : ℂ)) * ((c.gs : ℂ)) * (ab z0.1 z2.1) * (mb ρ1 (p 2) z1.1)) * i15 + ((4) * ((c.e : ℂ)) * ((c.gs : ℂ)) * (ab z0.1 z1.1) * (ab z0.1 z2.1) * (sb z0.2 ρ0) + (4) * ((c.e : ℂ)) * ((c.gs : ℂ)) * (ab z0.1 z2.1) * (mb ρ0 (p 2) z1.1)) * i16 + ((-8) * ((c.e : ℂ)) * ((c.gs : ℂ)) * ((c.mass .u : ℂ)) * (ab z0.1 z2.1) * (ab z1.1 z3.1)) * i17 + ((-4) * ((c.e : ℂ)) * ((c.gs : ℂ)) * ((c.mass .u : ℂ)) * (ab z0.1 z2.1) * (sb z0.2 ρ1) + (-4) * ((c.e : ℂ)) * ((c.gs : ℂ)) * (mb ρ1 (p 2) z0.1) * (sb z0.2 z2.2)) * i18 + ((-8) * ((c.e : ℂ)) * ((c.gs : ℂ)) * ((c.mass .u : ℂ)) * (ab z0.1 z1.1) * (sb z3.2 ρ0) + (-4) * ((c.e : ℂ)) * ((c.gs : ℂ)) * (ab z0.1 z1.1) * (ab z0.1 z3.1) * (sb z0.2 ρ0) + (-4) * ((c.e : ℂ)) * ((c.gs : ℂ)) * (ab z0.1 z1.1) * (ab z1.1 z3.1) * (sb z1.2 ρ0) + (-4) * ((c.e : ℂ)) * ((c.gs : ℂ)) * (ab z0.1 z3.1) * (mb ρ0 (p 2) z1.1)) * i19 + ((4) * ((c.e : ℂ)) * ((c.gs : ℂ)) * ((c.mass .u : ℂ)) * (ab z0.1 z2.1) * (sb z0.2 ρ0) + (-4) * ((c.e : ℂ)) * ((c.gs : ℂ)) * (N.c 0) * (sb z2.2 ρ0) + (4) * ((c.e : ℂ)) * ((c.gs : ℂ)) * (mb ρ0 (p 2) z0.1) * (sb z0.2 z2.2)) * i20 + ((8) * ((c.e : ℂ)) * ((c.gs : ℂ)) * ((c.mass .u : ℂ)) * (ab z0.1 z1.1) * (sb z3.2 ρ1) + (4) * ((c.e : ℂ)) * ((c.gs : ℂ)) * (ab z0.1 z1.1) * (ab z0.1 z3.1) * (sb z0.2 ρ1) + (4) * ((c.e : ℂ)) * ((c.gs : ℂ)) * (ab z0.1 z1.1) * (ab z1.1 z3.1) * (sb z1.2 ρ1) + (4) * ((c.e : ℂ)) * ((c.gs : ℂ)) * (ab z0.1 z3.1) * (mb ρ1 (p 2) z1.1)) * i21 + ((4) * ((c.e : ℂ)) * ((c.gs : ℂ)) * (N.c 1) * (sb ρ0 ρ1) + (-4) * ((c.e : ℂ)) * ((c.gs : ℂ)) * (ab z0.1 z1.1) * (sb z0.2 z1.2) * (sb ρ0 ρ1)) * i22 + ((4) * ((c.e : ℂ)) * ((c.gs : ℂ)) * ((c.mass .u : ℂ)) * (ab z0.1 z2.1) * (sb ρ0 ρ1) + (4) * ((c.e : ℂ)) * ((c.gs : ℂ)) * (ab z0.1 z1.1) * (sb z1.2 z2.2) * (sb ρ0 ρ1) + (-4) * ((c.e : ℂ)) * ((c.gs : ℂ)) * (mb ρ1 (p 2) z0.1) * (sb z2.2 ρ0)) * i23 + ((-4) * ((c.e : ℂ)) * ((c.gs : ℂ)) * (ab z0.1 z1.1) * (sb z0.2 z2.2) * (sb ρ0 ρ1)) * i24 + ((4) * ((c.e : ℂ)) * ((c.gs : ℂ)) * ((c.mass .u : ℂ)) ^ 2 * (ab z0.1 z1.1) * (ab z0.1 z2.1) + (-4) * ((c.e : ℂ)) * ((c.gs : ℂ)) * (N.c 0) * (ab z0.1 z1.1) * (ab z0.1 z2.1)) * i25 + ((-4) * ((c.e : ℂ)) * ((c.gs : ℂ)) * ((c.mass .u : ℂ)) * (ab z0.1 z3.1) * (sb z0.2 ρ1) + (-4) * ((c.e : ℂ)) * ((c.gs : ℂ)) * (ab z0.1 z1.1) * (sb z0.2 z3.2) * (sb z1.2 ρ1) + (4) * ((c.e : ℂ)) * ((c.gs : ℂ)) * (mb ρ1 (p 2) z0.1) * (sb z0.2 z3.2)) * i26 + ((4) * ((c.e : ℂ)) * ((c.gs : ℂ)) * ((c.mass .u : ℂ)) * (ab z0.1 z1.1) * (mb ρ1 (p 2) z0.1)) * i27 + ((4) * ((c.e : ℂ)) * ((c.gs : ℂ)) * (N.c 0) * (ab z0.1 z1.1) * (ab z1.1 z3.1)) * i28 + ((4) * ((c.e : ℂ)) * ((c.gs : ℂ)) * ((c.mass .u : ℂ)) * (ab z0.1 z1.1) ^ 2 * (sb z1.2 z3.2) + (4) * ((c.e : ℂ)) * ((c.gs : ℂ)) * ((c.mass .u : ℂ)) ^ 2 * (ab z0.1 z1.1) * (ab z0.1 z3.1) + (4) * ((c.e : ℂ)) * ((c.gs : ℂ)) * (ab z0.1 z1.1) * (ab z1.1 z3.1) * (mb z1.2 (p 2) z0.1)) * i29 + ((4) * ((c.e : ℂ)) * ((c.gs : ℂ)) * (ab z0.1 z1.1) * (ab z1.1 z3.1) * (sb z2.2 ρ0)) * i30 + ((-4) * ((c.e : ℂ)) * ((c.gs : ℂ)) * (ab z0.1 z1.1) * (sb z0.2 ρ0) * (sb z2.2 ρ1)) * i31)) * ((1) * ((N.c 0)⁻¹) * ((N.c 1)⁻¹) / (3)) + ((-4) * ((c.e : ℂ)) * ((c.gs : ℂ)) * ((c.mass .u : ℂ)) * ((N.c 1)⁻¹) * (ab z0.1 z1.1) * (sb z2.2 ρ1) * (sb z3.2 ρ0) / (3) + (-4) * ((c.e : ℂ)) * ((c.gs : ℂ)) * ((c.mass .u : ℂ)) * ((N.c 1)⁻¹) * (ab z0.1 z3.1) * (ab z1.1 z2.1) * (sb ρ0 ρ1) / (3) + (4) * ((c.e : ℂ)) * ((c.gs : ℂ)) * ((N.c 1)⁻¹) * (ab z0.1 z1.1) * (ab z1.1 z2.1) * (sb z1.2 ρ1) * (sb z3.2 ρ0) / (3) + (-4) * ((c.e : ℂ)) * ((c.gs : ℂ)) * ((N.c 1)⁻¹) * (ab z0.1 z3.1) * (mb ρ0 (p 2) z1.1) * (sb z2.2 ρ1) / (3) + (-4) * ((c.e : ℂ)) * ((c.gs : ℂ)) * ((N.c 1)⁻¹) * (ab z1.1 z2.1) * (mb ρ1 (p 2) z0.1) * (sb z3.2 ρ0) / (3)) * y0 + ((4) * ((c.e : ℂ)) * ((c.gs : ℂ)) * ((c.mass .u : ℂ)) * ((N.c 0)⁻¹) * (ab z0.1 z1.1) * (sb z2.2 ρ0) * (sb z3.2 ρ1) / (3) + (4) * ((c.e : ℂ)) * ((c.gs : ℂ)) * ((c.mass .u : ℂ)) * ((N.c 0)⁻¹) * (ab z0.1 z2.1) * (ab z1.1 z3.1) * (sb ρ0 ρ1) / (3) + (-4) * ((c.e : ℂ)) * ((c.gs : ℂ)) * ((N.c 0)⁻¹) * (ab z0.1 z1.1) * (ab z0.1 z2.1) * (sb z0.2 ρ0) * (sb z3.2 ρ1) / (3) + (-4) * ((c.e : ℂ)) * ((c.gs : ℂ)) * ((N.c 0)⁻¹) * (ab z0.1 z2.1) * (mb ρ0 (p 2) z1.1) * (sb z3.2 ρ1) / (3) + (-4) * ((c.e : ℂ)) * ((c.gs : ℂ)) * ((N.c 0)⁻¹) * (ab z1.1 z3.1) * (mb ρ1 (p 2) z0.1) * (sb z2.2 ρ0) / (3)) * y1 + ((-2) * ((c.e : ℂ)) * ((c.gs : ℂ)) * ((c.mass .u : ℂ)) * ((N.c 0)⁻¹) * (ab z0.1 z1.1) * (sb z2.2 ρ0) * (sb z3.2 ρ1) / (3) + (-2) * ((c.e : ℂ)) * ((c.gs : ℂ)) * ((c.mass .u : ℂ)) * ((N.c 0)⁻¹) * (ab z0.1 z2.1) * (ab z1.1 z3.1) * (sb ρ0 ρ1) / (3) + (2) * ((c.e : ℂ)) * ((c.gs : ℂ)) * ((c.mass .u : ℂ)) * ((N.c 1)⁻¹) * (ab z0.1 z1.1) * (sb z2.2 ρ1) * (sb z3.2 ρ0) / (3) + (2) * ((c.e : ℂ)) * ((c.gs : ℂ)) * ((c.mass .u : ℂ)) * ((N.c 1)⁻¹) * (ab z0.1 z3.1) * (ab z1.1 z2.1) * (sb ρ0 ρ1) / (3) + (2) * ((c.e : ℂ)) * ((c.gs : ℂ)) * ((N.c 0)⁻¹) * (ab z0.1 z1.1) * (ab z0.1 z2.1) * (sb z0.2 ρ0) * (sb z3.2 ρ1) / (3) + (2) * ((c.e : ℂ)) * ((c.gs : ℂ)) * ((N.c 0)⁻¹) * (ab z0.1 z2.1) * (mb ρ0 (p 2) z1.1) * (sb z3.2 ρ1) / (3) + (2) * ((c.e : ℂ)) * ((c.gs : ℂ)) * ((N.c 0)⁻¹) * (ab z1.1 z3.1) * (mb ρ1 (p 2) z0.1) * (sb z2.2 ρ0) / (3) + (-2) * ((c.e : ℂ)) * ((c.gs : ℂ)) * ((N.c 1)⁻¹) * (ab z0.1 z1.1) * (ab z1.1 z2.1) * (sb z1.2 ρ1) * (sb z3.2 ρ0) / (3) + (2) * ((c.e : ℂ)) * ((c.gs : ℂ)) * ((N.c 1)⁻¹) * (ab z0.1 z3.1) * (mb ρ0 (p 2) z1.1) * (sb z2.2 ρ1) / (3) + (2) * ((c.e : ℂ)) * ((c.gs : ℂ)) * ((N.c 1)⁻¹) * (ab z1.1 z2.1) * (mb ρ1 (p 2) z0.1) * (sb z3.2 ρ0) / (3)) * x22
set_option maxRecDepth 8000 in
theorem gAuu.amp2_eq (N : Env) (f : Nat → List Int → ℂ) : Cls.gAuu.m_amp2.mean N f .r [] =
    ((sumW (fun x a => (sumW (fun x b => (sumJ (fun x c => (sumJ (fun x d => (x + (((4 : Nat) : ℝ) * (‖(f 0 [a, b, c, d])‖ ^ 2)))) x)) x)) x)) ((0 : Nat) : ℝ)) / ((32 : Nat) : ℝ)) := by rfl
set_option maxRecDepth 8000 in
theorem gAuu.value (N : Env) : meaning N .r Cls.gAuu.methods Cls.gAuu.amp2 [] =
    ((sumW (fun x a => (sumW (fun x b => (sumJ (fun x c => (sumJ (fun x d => (x + (((4 : Nat) : ℝ) * (‖(Cls.gAuu.m_amp.mean N (callMean N []) .c [a, b, c, d])‖ ^ 2)))) x)) x)) x)) ((0 : Nat) : ℝ)) / ((32 : Nat) : ℝ)) :=
  gAuu.amp2_eq N (callMean N [Cls.gAuu.m_amp])
set_option maxRecDepth 8000 in
theorem gAuu.ampPP (N : Env) (f : Nat → List Int → ℂ) (j3 j4 : Int) : Cls.gAuu.m_amp.mean N f .c [2, 2, j3, j4] = gAuu.termPP N j3 j4 := by rfl
set_option maxRecDepth 8000 in
theorem gAuu.ampPM (N : Env) (f : Nat → List Int → ℂ) (j3 j4 : Int) : Cls.gAuu.m_amp.mean N f .c [2, (-2), j3, j4] = gAuu.termPM N j3 j4 := by rfl
set_option maxRecDepth 8000 in
theorem gAuu.ampMP (N : Env) (f : Nat → List Int → ℂ) (j3 j4 : Int) : Cls.gAuu.m_amp.mean N f .c [(-2), 2, j3, j4] = gAuu.termMP N j3 j4 := by rfl
set_option maxRecDepth 8000 in
theorem gAuu.ampMM (N : Env) (f : Nat → List Int → ℂ) (j3 j4 : Int) : Cls.gAuu.m_amp.mean N f .c [(-2), (-2), j3, j4] = gAuu.termMM N j3 j4 := by rfl

theorem gAuu.mass_eq {c : Constants} (hc : c.Physical) (i : Fin 4) : gAuu.proc.massNum (gAuu.rho c) i = gAuu.react.mass c i := by
  fin_cases i <;> first | rfl | exact Nat.cast_zero | exact Nat.cast_zero.trans (hc.neutrino _).symm | (show c.MW / √(((1 : Nat) : ℝ) - c.SW * c.SW) = c.MZ; rw [c.root, c.mz])

variable [FPEnv] in
theorem gAuu.amps {c : Constants} {p : Nat → V4 ℝ} {u : Fin 4 → Fin 3 → Spinor} {ε : Fin 4 → Fin 3 → Vec} (hc : c.Physical) (hh : c.Heavy) (h0 : ∀ i, 0 ≤ gAuu.react.mass c i) (hs : ∀ i : Fin 4, OnShell (p i) (gAuu.react.mass c i)) (hb : Balanced p) (hr : gAuu.react.Regular c p) (hu : ∀ i, gAuu.react.Complete c p i (u i) (ε i)) :
    (gAuu.N c p).c 0 ≠ 0 ∧ (gAuu.N c p).c 1 ≠ 0 ∧ (∀ n, (Ty.r, n) ∈ gAuu.proc.divides → (gAuu.N c p).r n ≠ 0) ∧ (∀ n, (Ty.c, n) ∈ gAuu.proc.divides → (gAuu.N c p).c n ≠ 0) ∧ ∀ (s2 : Fin 2) (s3 : Fin 2) (h0 : Fin 2) (h1 : Fin 2), ‖Cls.gAuu.m_amp.mean (gAuu.N c p) (callMean (gAuu.N c p) []) .c [spinW h0, spinW h1, spinOf s2, spinOf s3]‖ = ‖gAuu.react.bare c p 2 3 0 1 (gAuu.react.codePair c p 2 s2) (gAuu.react.codePair c p 3 s3) (lightE (legA (p 0) 0 0, legS (p 0) 0 1) h0.castSucc) (lightE (legA (p 1) 0 0, legS (p 1) 0 1) h1.castSucc)‖ := by
  have he : gAuu.react.ends = [2] := by decide
  have ht : gAuu.react.starts = [3] := by decide
  have hB : gAuu.react.bosons = [0, 1] := by decide
  obtain ⟨f1, f2, f3⟩ := gAuu.react.regular_line he ht hB hr
  have r0 : (gAuu.N c p).r 0 = c.e := rfl
  have r1 : (gAuu.N c p).r 1 = (((2 : Nat) : ℝ) / ((3 : Nat) : ℝ)) := rfl
  have r2 : (gAuu.N c p).r 2 = c.gs := rfl
  have r3 : (gAuu.N c p).r 3 = (c.mass .u) := rfl
  have c0 : (gAuu.N c p).c 0 = poleDist (c.mass .u) ((0 : Nat) : ℝ) ((VExp.sub 0 2).sum p) := rfl
  rw [Nat.cast_zero, pole_fermion rfl] at c0
  have d0 : ((msq (plus (backward (p 3)) (p 1)) - c.mass .u ^ 2 : ℝ) : ℂ) = (gAuu.N c p).c 0 := by rw [c0, msq_t hb (plus (backward (p 3)) (p 1)) (by simp)]
  have n0 : (gAuu.N c p).c 0 ≠ 0 := by rw [← d0]; exact_mod_cast f2 .u rfl rfl
  have c1 : (gAuu.N c p).c 1 = poleDist (c.mass .u) ((0 : Nat) : ℝ) ((VExp.sub 0 3).sum p) := rfl
  rw [Nat.cast_zero, pole_fermion rfl] at c1
  have d1 : ((msq (plus (backward (p 3)) (p 0)) - c.mass .u ^ 2 : ℝ) : ℂ) = (gAuu.N c p).c 1 := by rw [c1, msq_u hb (plus (backward (p 3)) (p 0)) (by simp)]
  have n1 : (gAuu.N c p).c 1 ≠ 0 := by rw [← d1]; exact_mod_cast f1 .u rfl rfl
  obtain ⟨l0, x0, y0⟩ := gAuu.react.code_light hs hu (n := 0) rfl rfl
  obtain ⟨l1, x1, y1⟩ := gAuu.react.code_light hs hu (n := 1) rfl rfl
  have e02 := l0.pole_sub (m := (c.mass .u)) (onShell_msq (hs 2)) (msq_t hb (plus (p 0) (backward (p 2))) (by simp)) c0
  have e03 := l0.pole_sub (m := (c.mass .u)) (onShell_msq (hs 3)) (msq_u hb (plus (p 0) (backward (p 3))) (by simp)) c1
  have e12 := l1.pole_sub (m := (c.mass .u)) (onShell_msq (hs 2)) (msq_u hb (plus (p 1) (backward (p 2))) (by simp)) c1
  have e13 := l1.pole_sub (m := (c.mass .u)) (onShell_msq (hs 3)) (msq_t hb (plus (p 1) (backward (p 3))) (by simp)) c0
  have m2 : gAuu.react.mass c 2 ≠ 0 := (leg_pos hc hh (by decide)).ne'
  have m3 : gAuu.react.mass c 3 ≠ 0 := (leg_pos hc hh (by decide)).ne'
  have m0 : gAuu.react.mass c 0 = 0 := rfl
  have m1 : gAuu.react.mass c 1 = 0 := rfl
  have hd : gAuu.proc.divides = [(Ty.c, 0), (Ty.c, 1)] := by decide +kernel
  have stPP : ∀ {z2 z3 : Pair} (b2 : Bold (p 2) (gAuu.react.mass c 2) z2) (b3 : Bold (p 3) (gAuu.react.mass c 3) z3), gAuu.formPP (gAuu.N c p) p (legA (p 0) 0 0, legS (p 0) 0 1) (legA (p 1) 0 0, legS (p 1) 0 1) z2 z3 = 1 * gAuu.react.bare c p 2 3 0 1 z2 z3 (lightE (legA (p 0) 0 0, legS (p 0) 0 1) 1) (lightE (legA (p 1) 0 0, legS (p 1) 0 1) 1) := by
    intro z2 z3 b2 b3
    exact (light_plus (z := (legA (p 0) 0 0, legS (p 0) 0 1)) (G := fun E => gAuu.react.bare c p 2 3 0 1 z2 z3 E (lightE (legA (p 1) 0 0, legS (p 1) 0 1) 1)) (gAuu.react.bare_lin₁ c p _ _ _ (by decide)) x0 (light_plus (z := (legA (p 1) 0 0, legS (p 1) 0 1)) (G := fun E => gAuu.react.bare c p 2 3 0 1 z2 z3 (pv (legA (p 0) 0 0, legS (p 0) 0 1).2 (legA (p 0) 0 0, legS (p 0) 0 1).2) E) (gAuu.react.bare_lin₂ c p _ _ _ (by decide)) x1 (gAuu.keyPP hc hb r0 r1 r2 r3 d0 n0 d1 n1 b2 b3 l0 l1 e02 e03 e12 e13 (onShell_msq (hs 2)) (onShell_msq (hs 3)) _ _)))
  have stPM : ∀ {z2 z3 : Pair} (b2 : Bold (p 2) (gAuu.react.mass c 2) z2) (b3 : Bold (p 3) (gAuu.react.mass c 3) z3), gAuu.formPM (gAuu.N c p) p (legA (p 0) 0 0, legS (p 0) 0 1) (legA (p 1) 0 0, legS (p 1) 0 1) z2 z3 = 1 * gAuu.react.bare c p 2 3 0 1 z2 z3 (lightE (legA (p 0) 0 0, legS (p 0) 0 1) 1) (lightE (legA (p 1) 0 0, legS (p 1) 0 1) 0) := by
    intro z2 z3 b2 b3
    exact (light_plus (z := (legA (p 0) 0 0, legS (p 0) 0 1)) (G := fun E => gAuu.react.bare c p 2 3 0 1 z2 z3 E (lightE (legA (p 1) 0 0, legS (p 1) 0 1) 0)) (gAuu.react.bare_lin₁ c p _ _ _ (by decide)) x0 (light_minus (z := (legA (p 1) 0 0, legS (p 1) 0 1)) (G := fun E => gAuu.react.bare c p 2 3 0 1 z2 z3 (pv (legA (p 0) 0 0, legS (p 0) 0 1).2 (legA (p 0) 0 0, legS (p 0) 0 1).2) E) (gAuu.react.bare_lin₂ c p _ _ _ (by decide)) y1 (gAuu.keyPM hc hb r0 r1 r2 d0 n0 d1 n1 b2 b3 l0 l1 e02 e03 e12 e13 (onShell_msq (hs 2)) (onShell_msq (hs 3)) _ _)))
  have stMP : ∀ {z2 z3 : Pair} (b2 : Bold (p 2) (gAuu.react.mass c 2) z2) (b3 : Bold (p 3) (gAuu.react.mass c 3) z3), gAuu.formMP (gAuu.N c p) p (legA (p 0) 0 0, legS (p 0) 0 1) (legA (p 1) 0 0, legS (p 1) 0 1) z2 z3 = 1 * gAuu.react.bare c p 2 3 0 1 z2 z3 (lightE (legA (p 0) 0 0, legS (p 0) 0 1) 0) (lightE (legA (p 1) 0 0, legS (p 1) 0 1) 1) := by
    intro z2 z3 b2 b3
    exact (light_minus (z := (legA (p 0) 0 0, legS (p 0) 0 1)) (G := fun E => gAuu.react.bare c p 2 3 0 1 z2 z3 E (lightE (legA (p 1) 0 0, legS (p 1) 0 1) 1)) (gAuu.react.bare_lin₁ c p _ _ _ (by decide)) y0 (light_plus (z := (legA (p 1) 0 0, legS (p 1) 0 1)) (G := fun E => gAuu.react.bare c p 2 3 0 1 z2 z3 (pv (legA (p 0) 0 0, legS (p 0) 0 1).1 (legA (p 0) 0 0, legS (p 0) 0 1).1) E) (gAuu.react.bare_lin₂ c p _ _ _ (by decide)) x1 (gAuu.keyMP hc hb r0 r1 r2 d0 n0 d1 n1 b2 b3 l0 l1 e02 e03 e12 e13 (onShell_msq (hs 2)) (onShell_msq (hs 3)) _ _)))
  have stMM : ∀ {z2 z3 : Pair} (b2 : Bold (p 2) (gAuu.react.mass c 2) z2) (b3 : Bold (p 3) (gAuu.react.mass c 3) z3), gAuu.formMM (gAuu.N c p) p (legA (p 0) 0 0, legS (p 0) 0 1) (legA (p 1) 0 0, legS (p 1) 0 1) z2 z3 = 1 * gAuu.react.bare c p 2 3 0 1 z2 z3 (lightE (legA (p 0) 0 0, legS (p 0) 0 1) 0) (lightE (legA (p 1) 0 0, legS (p 1) 0 1) 0) := by
    intro z2 z3 b2 b3
    exact (light_minus (z := (legA (p 0) 0 0, legS (p 0) 0 1)) (G := fun E => gAuu.react.bare c p 2 3 0 1 z2 z3 E (lightE (legA (p 1) 0 0, legS (p 1) 0 1) 0)) (gAuu.react.bare_lin₁ c p _ _ _ (by decide)) y0 (light_minus (z := (legA (p 1) 0 0, legS (p 1) 0 1)) (G := fun E => gAuu.react.bare c p 2 3 0 1 z2 z3 (pv (legA (p 0) 0 0, legS (p 0) 0 1).1 (legA (p 0) 0 0, legS (p 0) 0 1).1) E) (gAuu.react.bare_lin₂ c p _ _ _ (by decide)) y1 (gAuu.keyMM hc hb r0 r1 r2 r3 d0 n0 d1 n1 b2 b3 l0 l1 e02 e03 e12 e13 (onShell_msq (hs 2)) (onShell_msq (hs 3)) _ _)))
  have amPP : ∀ (s2 : Fin 2) (s3 : Fin 2), Cls.gAuu.m_amp.mean (gAuu.N c p) (callMean (gAuu.N c p) []) .c [2, 2, spinOf s2, spinOf s3] = 1 * gAuu.react.bare c p 2 3 0 1 (gAuu.react.codePair c p 2 s2) (gAuu.react.codePair c p 3 s3) (lightE (legA (p 0) 0 0, legS (p 0) 0 1) 1) (lightE (legA (p 1) 0 0, legS (p 1) 0 1) 1) := by
    intro s2 s3
    rw [gAuu.ampPP, ← stPP (gAuu.react.codePair_bold hs h0 2 s2) (gAuu.react.codePair_bold hs h0 3 s3)]
    have v2z0z1 : (gAuu.N c p).v 2 [] = sb (legA (p 0) 0 0, legS (p 0) 0 1).2 (legA (p 1) 0 0, legS (p 1) 0 1).2 := bra_square (p := p) (m := gAuu.proc.massNum (gAuu.rho c)) (gAuu.mass_eq hc 0) (gAuu.mass_eq hc 1) (.inr ⟨m0, rfl⟩) (.inr ⟨m1, rfl⟩)
    have v1z2z3 : (gAuu.N c p).v 1 [spinOf s2, spinOf s3] = ab (gAuu.react.codePair c p 2 s2).1 (gAuu.react.codePair c p 3 s3).1 := bra_angle (p := p) (m := gAuu.proc.massNum (gAuu.rho c)) (gAuu.mass_eq hc 2) (gAuu.mass_eq hc 3) (.inl ⟨m2, rfl⟩) (.inl ⟨m3, rfl⟩)
    simp only [gAuu.termPP, gAuu.formPP, v2z0z1, v1z2z3]
  have amPM : ∀ (s2 : Fin 2) (s3 : Fin 2), Cls.gAuu.m_amp.mean (gAuu.N c p) (callMean (gAuu.N c p) []) .c [2, (-2), spinOf s2, spinOf s3] = 1 * gAuu.react.bare c p 2 3 0 1 (gAuu.react.codePair c p 2 s2) (gAuu.react.codePair c p 3 s3) (lightE (legA (p 0) 0 0, legS (p 0) 0 1) 1) (lightE (legA (p 1) 0 0, legS (p 1) 0 1) 0) := by
    intro s2 s3
    rw [gAuu.ampPM, ← stPM (gAuu.react.codePair_bold hs h0 2 s2) (gAuu.react.codePair_bold hs h0 3 s3)]
    have v4z0z2 : (gAuu.N c p).v 4 [spinOf s2] = sb (legA (p 0) 0 0, legS (p 0) 0 1).2 (gAuu.react.codePair c p 2 s2).2 := bra_square (p := p) (m := gAuu.proc.massNum (gAuu.rho c)) (gAuu.mass_eq hc 0) (gAuu.mass_eq hc 2) (.inr ⟨m0, rfl⟩) (.inl ⟨m2, rfl⟩)
    have v7z1z3 : (gAuu.N c p).v 7 [spinOf s3] = ab (legA (p 1) 0 0, legS (p 1) 0 1).1 (gAuu.react.codePair c p 3 s3).1 := bra_angle (p := p) (m := gAuu.proc.massNum (gAuu.rho c)) (gAuu.mass_eq hc 1) (gAuu.mass_eq hc 3) (.inr ⟨m1, rfl⟩) (.inl ⟨m3, rfl⟩)
    have v10z0z3 : (gAuu.N c p).v 10 [spinOf s3] = sb (legA (p 0) 0 0, legS (p 0) 0 1).2 (gAuu.react.codePair c p 3 s3).2 := bra_square (p := p) (m := gAuu.proc.massNum (gAuu.rho c)) (gAuu.mass_eq hc 0) (gAuu.mass_eq hc 3) (.inr ⟨m0, rfl⟩) (.inl ⟨m3, rfl⟩)
    have v9z1z2 : (gAuu.N c p).v 9 [spinOf s2] = ab (legA (p 1) 0 0, legS (p 1) 0 1).1 (gAuu.react.codePair c p 2 s2).1 := bra_angle (p := p) (m := gAuu.proc.massNum (gAuu.rho c)) (gAuu.mass_eq hc 1) (gAuu.mass_eq hc 2) (.inr ⟨m1, rfl⟩) (.inl ⟨m2, rfl⟩)
    have v12z0z1 : (gAuu.N c p).v 12 [] = mb (legA (p 0) 0 0, legS (p 0) 0 1).2 (p 2) (legA (p 1) 0 0, legS (p 1) 0 1).1 := bra_mid_square (p := p) (m := gAuu.proc.massNum (gAuu.rho c)) (gAuu.mass_eq hc 0) (gAuu.mass_eq hc 1) (.inr ⟨m0, rfl⟩) (.inr ⟨m1, rfl⟩)
    simp only [gAuu.termPM, gAuu.formPM, v4z0z2, v7z1z3, v10z0z3, v9z1z2, v12z0z1]
  have amMP : ∀ (s2 : Fin 2) (s3 : Fin 2), Cls.gAuu.m_amp.mean (gAuu.N c p) (callMean (gAuu.N c p) []) .c [(-2), 2, spinOf s2, spinOf s3] = 1 * gAuu.react.bare c p 2 3 0 1 (gAuu.react.codePair c p 2 s2) (gAuu.react.codePair c p 3 s3) (lightE (legA (p 0) 0 0, legS (p 0) 0 1) 0) (lightE (legA (p 1) 0 0, legS (p 1) 0 1) 1) := by
    intro s2 s3
    rw [gAuu.ampMP, ← stMP (gAuu.react.codePair_bold hs h0 2 s2) (gAuu.react.codePair_bold hs h0 3 s3)]
    have v5z0z2 : (gAuu.N c p).v 5 [spinOf s2] = ab (legA (p 0) 0 0, legS (p 0) 0 1).1 (gAuu.react.codePair c p 2 s2).1 := bra_angle (p := p) (m := gAuu.proc.massNum (gAuu.rho c)) (gAuu.mass_eq hc 0) (gAuu.mass_eq hc 2) (.inr ⟨m0, rfl⟩) (.inl ⟨m2, rfl⟩)
    have v6z1z3 : (gAuu.N c p).v 6 [spinOf s3] = sb (legA (p 1) 0 0, legS (p 1) 0 1).2 (gAuu.react.codePair c p 3 s3).2 := bra_square (p := p) (m := gAuu.proc.massNum (gAuu.rho c)) (gAuu.mass_eq hc 1) (gAuu.mass_eq hc 3) (.inr ⟨m1, rfl⟩) (.inl ⟨m3, rfl⟩)
    have v11z0z3 : (gAuu.N c p).v 11 [spinOf s3] = ab (legA (p 0) 0 0, legS (p 0) 0 1).1 (gAuu.react.codePair c p 3 s3).1 := bra_angle (p := p) (m := gAuu.proc.massNum (gAuu.rho c)) (gAuu.mass_eq hc 0) (gAuu.mass_eq hc 3) (.inr ⟨m0, rfl⟩) (.inl ⟨m3, rfl⟩)
    have v8z1z2 : (gAuu.N c p).v 8 [spinOf s2] = sb (legA (p 1) 0 0, legS (p 1) 0 1).2 (gAuu.react.codePair c p 2 s2).2 := bra_square (p := p) (m := gAuu.proc.massNum (gAuu.rho c)) (gAuu.mass_eq hc 1) (gAuu.mass_eq hc 2) (.inr ⟨m1, rfl⟩) (.inl ⟨m2, rfl⟩)
    have v13z1z0 : (gAuu.N c p).v 13 [] = mb (legA (p 1) 0 0, legS (p 1) 0 1).2 (p 2) (legA (p 0) 0 0, legS (p 0) 0 1).1 := bra_mid_square (p := p) (m := gAuu.proc.massNum (gAuu.rho c)) (gAuu.mass_eq hc 1) (gAuu.mass_eq hc 0) (.inr ⟨m1, rfl⟩) (.inr ⟨m0, rfl⟩)
    simp only [gAuu.termMP, gAuu.formMP, v5z0z2, v6z1z3, v11z0z3, v8z1z2, v13z1z0]
  have amMM : ∀ (s2 : Fin 2) (s3 : Fin 2), Cls.gAuu.m_amp.mean (gAuu.N c p) (callMean (gAuu.N c p) []) .c [(-2), (-2), spinOf s2, spinOf s3] = 1 * gAuu.react.bare c p 2 3 0 1 (gAuu.react.codePair c p 2 s2) (gAuu.react.codePair c p 3 s3) (lightE (legA (p 0) 0 0, legS (p 0) 0 1) 0) (lightE (legA (p 1) 0 0, legS (p 1) 0 1) 0) := by
    intro s2 s3
    rw [gAuu.ampMM, ← stMM (gAuu.react.codePair_bold hs h0 2 s2) (gAuu.react.codePair_bold hs h0 3 s3)]
    have v3z0z1 : (gAuu.N c p).v 3 [] = ab (legA (p 0) 0 0, legS (p 0) 0 1).1 (legA (p 1) 0 0, legS (p 1) 0 1).1 := bra_angle (p := p) (m := gAuu.proc.massNum (gAuu.rho c)) (gAuu.mass_eq hc 0) (gAuu.mass_eq hc 1) (.inr ⟨m0, rfl⟩) (.inr ⟨m1, rfl⟩)
    have v0z2z3 : (gAuu.N c p).v 0 [spinOf s2, spinOf s3] = sb (gAuu.react.codePair c p 2 s2).2 (gAuu.react.codePair c p 3 s3).2 := bra_square (p := p) (m := gAuu.proc.massNum (gAuu.rho c)) (gAuu.mass_eq hc 2) (gAuu.mass_eq hc 3) (.inl ⟨m2, rfl⟩) (.inl ⟨m3, rfl⟩)
    simp only [gAuu.termMM, gAuu.formMM, v3z0z1, v0z2z3]
  refine ⟨n0, n1, fun n hn => ?_, fun n hn => ?_, ?_⟩
  · simp [hd] at hn
  · simp [hd] at hn
    rcases hn with rfl | rfl
    · exact n0
    · exact n1
  intro s2 s3 h0 h1
  match h0, h1 with
  | 1, 1 => exact norm_plus (amPP s2 s3)
  | 1, 0 => exact norm_plus (amPM s2 s3)
  | 0, 1 => exact norm_plus (amMP s2 s3)
  | 0, 0 => exact norm_plus (amMM s2 s3)

variable [FPEnv] in
theorem gAuu.agrees : gAuu.Agrees := by
  refine agrees_of (D := []) (E := []) (by simp [all, gAuu]) (by decide +kernel) (by decide) (by decide +kernel) (fun c hc hh => ⟨List.forall_mem_nil _, List.forall_mem_nil _⟩) (fun c hc i => gAuu.mass_eq hc i) (by decide +kernel) ?_
  intro c p u ε hc hh hw h0 hs hb hr hu
  have he : gAuu.react.ends = [2] := by decide
  have ht : gAuu.react.starts = [3] := by decide
  have hB : gAuu.react.bosons = [0, 1] := by decide
  obtain ⟨n0, n1, d1, d2, am⟩ := gAuu.amps hc hh h0 hs hb hr hu
  refine ⟨d1, d2, ?_⟩
  show meaning (gAuu.N c p) .r Cls.gAuu.methods Cls.gAuu.amp2 [] = _
  have s0 : gAuu.react.states 0 = 16 := by decide +kernel
  have s1 : gAuu.react.states 1 = 2 := by decide +kernel
  have sy : gAuu.react.symmetry = 1 := by decide
  have p0 : gAuu.react.spins 0 = {0, 1} := rfl
  have p1 : gAuu.react.spins 1 = {0, 1} := rfl
  have p2 : gAuu.react.spins 2 = {0, 1} := rfl
  have p3 : gAuu.react.spins 3 = {0, 1} := rfl
  have E0 : gAuu.react.codeE c p 0 = lightE (legA (p 0) 0 0, legS (p 0) 0 1) := rfl
  have E1 : gAuu.react.codeE c p 1 = lightE (legA (p 1) 0 0, legS (p 1) 0 1) := rfl
  have hG : gAuu.react.Gauge c p := (gAuu.react.gauge_line he ht hB hh (by decide) (fun n => onShell_msq (hs n)) hb hr (fun n m h h2 => absurd (And.intro h h2) (by revert n m; decide)) (fun _ => ⟨rfl, rfl⟩) (fun _ => ⟨rfl, rfl⟩))
  rw [gAuu.value, gAuu.react.squared_gluon 0 he ht hB (by decide) (by decide +kernel) (by decide +kernel) hs h0 (fun _ b _ hb _ => (boson_pos hc hh hb).ne') hG (E := gAuu.react.codeE c p) (fun n b hl => gAuu.react.codeE_polarised hs h0 hu (fun b hb => (boson_pos hc hh hb).ne') n b hl) hu, sum_colours, s0, s1, sy]
  simp only [sumV_sum, sumJ_sum, sumW_sum, am, p0, p1, p2, p3, E0, E1, Finset.sum_singleton, sum_two, Matrix.cons_val_zero, Matrix.cons_val_one, Matrix.cons_val, two_castSucc]
  try simp only [← Finset.mul_sum]
  push_cast
  first | ring1 | ring_nf

end Spinas.SM.Rows
