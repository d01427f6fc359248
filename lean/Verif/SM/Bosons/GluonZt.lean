import Verif.SM.LightRows
import Verif.SM.GluonLine

/-! A quark and a gluon become a quark and a Z boson. Generated by tools/bosons/lemit.py: for each class its amplitude at given helicities as a formula in spinors, and the proof that `amp2` is the squared amplitude of the Feynman rules. -/

set_option linter.unusedSimpArgs false
set_option linter.unusedVariables false
set_option linter.unreachableTactic false
set_option linter.unusedTactic false

namespace Spinas.SM.Rows
open Spec Spec.Reaction Props XR Matrix BRow

/-! ### gdZd -/

/-- what the methods of the class see -/
noncomputable abbrev gdZd.N [FPEnv] (c : Constants) (p : Nat → V4 ℝ) : Env := gdZd.proc.env (gdZd.rho c) p
/-- the term that `amp` adds for a choice of spinors, for a gluon of positive helicity (SM/gdZd.cpp) -/
noncomputable def gdZd.termP (N : Env) (w : ℝ) (x : ℂ) (j2 a2 b2 j4 : Int) : ℂ :=
  (x + ((((((w * N.r 9) : ℝ) : ℂ) * (((((N.r 11 : ℝ) : ℂ) * N.v 3 [j2, a2]) * (((((N.r 7 : ℝ) : ℂ) * N.v 2 [j4]) * N.v 5 [b2]) + ((((N.r 3 : ℝ) : ℂ) * N.v 1 [b2]) * N.v 7 [j4]))) + ((((N.r 12 : ℝ) : ℂ) * N.v 4 [a2, j4]) * (((((N.r 3 : ℝ) : ℂ) * N.v 1 [b2]) * N.v 6 [j2]) + ((((N.r 7 : ℝ) : ℂ) * N.v 0 [j2]) * N.v 8 [b2]))))) / N.c 1) / N.c 0))
/-- the same with spinors in place of their spins -/
noncomputable def gdZd.formP (N : Env) (p : Nat → V4 ℝ) (z0 z1 x2 y2 z3 : Pair) : ℂ :=
  (0 + ((((((((1 : Nat) : ℝ) * N.r 9) : ℝ) : ℂ) * (((((N.r 11 : ℝ) : ℂ) * (ab z1.1 x2.1)) * (((((N.r 7 : ℝ) : ℂ) * (sb z0.2 z3.2)) * (mb z0.2 (p 1) y2.1)) + ((((N.r 3 : ℝ) : ℂ) * (sb z0.2 y2.2)) * (mb z0.2 (p 2) z3.1)))) + ((((N.r 12 : ℝ) : ℂ) * (ab x2.1 z3.1)) * (((((N.r 3 : ℝ) : ℂ) * (sb z0.2 y2.2)) * (mb z0.2 (p 2) z1.1)) + ((((N.r 7 : ℝ) : ℂ) * (sb z0.2 z1.2)) * (mb z0.2 (p 3) y2.1)))))) / N.c 1) / N.c 0))
/-- the term that `amp` adds for a choice of spinors, for a gluon of negative helicity (SM/gdZd.cpp) -/
noncomputable def gdZd.termM (N : Env) (w : ℝ) (x : ℂ) (j2 a2 b2 j4 : Int) : ℂ :=
  (x + ((((((w * N.r 9) : ℝ) : ℂ) * (((((N.r 12 : ℝ) : ℂ) * N.v 12 [j2, a2]) * (((((N.r 7 : ℝ) : ℂ) * N.v 11 [j4]) * N.v 14 [b2]) + ((((N.r 3 : ℝ) : ℂ) * N.v 10 [b2]) * N.v 16 [j4]))) + ((((N.r 11 : ℝ) : ℂ) * N.v 13 [a2, j4]) * (((((N.r 3 : ℝ) : ℂ) * N.v 10 [b2]) * N.v 15 [j2]) + ((((N.r 7 : ℝ) : ℂ) * N.v 9 [j2]) * N.v 17 [b2]))))) / N.c 1) / N.c 0))
/-- the same with spinors in place of their spins -/
noncomputable def gdZd.formM (N : Env) (p : Nat → V4 ℝ) (z0 z1 x2 y2 z3 : Pair) : ℂ :=
  (0 + ((((((((1 : Nat) : ℝ) * N.r 9) : ℝ) : ℂ) * (((((N.r 12 : ℝ) : ℂ) * (sb z1.2 x2.2)) * (((((N.r 7 : ℝ) : ℂ) * (ab z0.1 z3.1)) * (mb y2.2 (p 1) z0.1)) + ((((N.r 3 : ℝ) : ℂ) * (ab z0.1 y2.1)) * (mb z3.2 (p 2) z0.1)))) + ((((N.r 11 : ℝ) : ℂ) * (sb x2.2 z3.2)) * (((((N.r 3 : ℝ) : ℂ) * (ab z0.1 y2.1)) * (mb z1.2 (p 2) z0.1)) + ((((N.r 7 : ℝ) : ℂ) * (ab z0.1 z1.1)) * (mb y2.2 (p 3) z0.1)))))) / N.c 1) / N.c 0))
theorem gdZd.keyP {c : Constants} {p : Nat → V4 ℝ} {N : Env} (hc : c.Physical) (hb : Balanced p) (r3 : N.r 3 = (c.mass .d)) (r7 : N.r 7 = (c.MW / c.CW)) (r9 : N.r 9 = (((((2 : Nat) : ℝ) * c.e) * c.gs) / ((((2 : Nat) : ℝ) * c.MW) * c.SW))) (r11 : N.r 11 = (((((-((2 : Nat) : ℝ)) * ((-((1 : Nat) : ℝ)) / ((3 : Nat) : ℝ))) * c.SW) * c.SW) - ((1 : Nat) : ℝ))) (r12 : N.r 12 = ((((-((2 : Nat) : ℝ)) * ((-((1 : Nat) : ℝ)) / ((3 : Nat) : ℝ))) * c.SW) * c.SW)) (d0 : ((msq (plus (p 1) (p 0)) - c.mass .d ^ 2 : ℝ) : ℂ) = N.c 0) (n0 : N.c 0 ≠ 0) (d1 : ((msq (plus (p 1) (backward (p 2))) - c.mass .d ^ 2 : ℝ) : ℂ) = N.c 1) (n1 : N.c 1 ≠ 0) {z0 z1 z2 z3 : Pair} (b1 : Bold (p 1) (c.mass .d) z1) (b2 : Bold (p 2) c.MZ z2) (b3 : Bold (p 3) (c.mass .d) z3) (l0 : Light (p 0) z0) (e01 : mb z0.2 (p 1) z0.1 = N.c 0) (e03 : mb z0.2 (p 3) z0.1 = -N.c 1) (q1 : msq (p 1) = (c.mass .d) ^ 2) (q2 : msq (p 2) = c.MZ ^ 2) (q3 : msq (p 3) = (c.mass .d) ^ 2) (ρ0 : V2) :
    gdZd.formP N p z0 z1 z2 z2 z3 * ab ρ0 z0.1 = ((√2 : ℝ) * ((-1 : ℂ) * ((√2 / c.MZ : ℝ) : ℂ))) * gdZd.react.bare c p 3 1 0 2 z3 z1 (pv ρ0 z0.2) (pv z2.1 z2.2) := by
  rw [gdZd.react.bare_parts c p (i := 3) (j := 1) (a := 0) (b := 2) (x := .gluon) (y := .z) (k := (p 0)) (k' := (backward (p 2))) (fun _ => rfl) (fun _ => rfl) (f := .d) (g := .d) rfl rfl (l := (p 1)) rfl (e := 1) (e' := 1) (if_neg Bool.false_ne_true) (if_neg Bool.false_ne_true)]
  rw [compton_vv (f := .d) (x := .d) (g := .d) (h := (rfl : Spec.after .gluon Flavour.d = some Flavour.d)) (h' := (rfl : Spec.after .z Flavour.d = some Flavour.d)) (ha := by simp) (hb := by simp)]
  rw [compton_vv (f := .d) (x := .d) (g := .d) (h := (rfl : Spec.after .z Flavour.d = some Flavour.d)) (h' := (rfl : Spec.after .gluon Flavour.d = some Flavour.d)) (ha := by simp) (hb := by simp)]
  rw [annihilation_none c _ _ (by rfl) (by simp), star_zero, add_zero, gdZd.formP]
  simp only [d0, d1, lineV_pv, lineV_four, contract_four_pv, contract_pv, mb_plus, mb_backward]
  have i0 := ab_schouten z2.1 z3.1 ρ0 z1.1
  have i1 := ab_schouten z1.1 z2.1 ρ0 z0.1
  have i2 := mb_schouten_right z0.2 (p 2) z0.1 z1.1 z2.1
  have i3 := ab_schouten z1.1 z3.1 ρ0 z0.1
  have i4 := ab_schouten z2.1 z3.1 ρ0 z0.1
  have i5 := mb_schouten_right z0.2 (p 2) z0.1 z1.1 z3.1
  have i6 := sb_schouten z1.2 z2.2 z3.2 z0.2
  have i7 := mb_schouten_right z0.2 (p 1) z0.1 z2.1 ρ0
  have i8 := ab_schouten z1.1 z2.1 z3.1 z0.1
  have i9 := mb_schouten_left z0.2 z1.2 z2.2 (p 2) z0.1
  have i10 := mb_schouten_right z1.2 (p 2) z0.1 z2.1 z3.1
  have i11 := mb_schouten_right z0.2 (p 2) z0.1 z2.1 z3.1
  have i12 := mb_schouten_right z2.2 (p 1) z0.1 z2.1 z3.1
  have i13 := mb_schouten_right z0.2 (p 1) z0.1 z3.1 ρ0
  have i14 := mb_schouten_right z0.2 (p 2) z0.1 z3.1 ρ0
  have i15 := mb_schouten_right z0.2 (p 1) z0.1 z2.1 z3.1
  have i16 := mb_schouten_left z0.2 z1.2 z2.2 (p 1) z0.1
  have i17 := mb_schouten_right z0.2 (p 1) z1.1 z2.1 ρ0
  have i18 := mb_schouten_left z0.2 z1.2 z2.2 (p 1) z2.1
  have i19 := mb_schouten_right z0.2 (p 2) z0.1 z2.1 ρ0
  have i20 := mb_schouten_right z0.2 (p 2) z0.1 z1.1 ρ0
  have i21 := mb_schouten_right z2.2 (p 1) z0.1 z1.1 ρ0
  have i22 := mb_schouten_right z0.2 (p 1) z0.1 z1.1 z2.1
  have i23 := mb_schouten_right z2.2 (p 1) z0.1 z2.1 ρ0
  have i24 := mb_schouten_left z0.2 z1.2 z3.2 (p 1) z2.1
  have i25 := mb_schouten_left z0.2 z2.2 z3.2 (p 2) z0.1
  have i26 := mb_schouten_right z0.2 (p 1) z0.1 z1.1 z3.1
  have i27 := mb_schouten_left z0.2 z2.2 z3.2 (p 1) z0.1
  have i28 := mb_schouten_right z0.2 (p 1) z2.1 z3.1 ρ0
  have i29 := mb_schouten_right z0.2 (p 2) z2.1 z3.1 ρ0
  have i30 := mb_schouten_right z2.2 (p 1) z0.1 z3.1 ρ0
  simp only [l0.mb_eq, b1.mb_left, b1.mb_right, b2.mb_left, b2.mb_right, b3.mb_left, b3.mb_right, e01, e03, mb_two hb z0.2 z0.1, mb_three hb z0.2 z1.1, mb_three hb z0.2 z2.1, mb_two hb z0.2 z3.1, mb_three hb z0.2 ρ0, mb_three hb z1.2 z0.1, mb_three hb z1.2 z1.1, mb_three hb z1.2 z2.1, mb_two hb z1.2 z3.1, mb_three hb z1.2 ρ0, mb_three hb z2.2 z0.1, mb_three hb z2.2 z1.1, mb_three hb z2.2 z2.1, mb_one hb z2.2 z3.1, mb_three hb z2.2 ρ0, mb_two hb z3.2 z0.1, mb_two hb z3.2 z1.1, mb_one hb z3.2 z2.1, mb_two hb z3.2 z3.1, mb_two hb z3.2 ρ0, ab_self, sb_self] at i0 i1 i2 i3 i4 i5 i6 i7 i8 i9 i10 i11 i12 i13 i14 i15 i16 i17 i18 i19 i20 i21 i22 i23 i24 i25 i26 i27 i28 i29 i30 ⊢
  simp only [ab_swap z0.1 z1.1, ab_swap z0.1 z2.1, ab_swap z0.1 z3.1, ab_swap z0.1 ρ0, ab_swap z1.1 z2.1, ab_swap z1.1 z3.1, ab_swap z1.1 ρ0, ab_swap z2.1 z3.1, ab_swap z2.1 ρ0, ab_swap z3.1 ρ0, sb_swap z0.2 z1.2, sb_swap z0.2 z2.2, sb_swap z0.2 z3.2, sb_swap z1.2 z2.2, sb_swap z1.2 z3.2, sb_swap z2.2 z3.2] at i0 i1 i2 i3 i4 i5 i6 i7 i8 i9 i10 i11 i12 i13 i14 i15 i16 i17 i18 i19 i20 i21 i22 i23 i24 i25 i26 i27 i28 i29 i30 ⊢
  simp only [r3, r7, r9, r11, r12, Constants.hL, Constants.hR, Constants.gL, Constants.gR, Constants.yuk, Constants.invVev, Flavour.charge_d, Flavour.isospin_d, ← c.mz]
  have xMW : (c.MW : ℂ) ≠ 0 := by exact_mod_cast hc.MW
  have xSW : (c.SW : ℂ) ≠ 0 := by exact_mod_cast hc.SW
  have xCW : (c.CW : ℂ) ≠ 0 := by exact_mod_cast hc.CW
  have x2 : ((√2 : ℝ) : ℂ) ≠ 0 := by exact_mod_cast (Real.sqrt_pos.2 two_pos).ne'
  have x22 : ((√2 : ℝ) : ℂ) ^ 2 = 2 := by rw [← Complex.ofReal_pow, Real.sq_sqrt two_pos.le]; norm_num
  have x23 : ((√2 : ℝ) : ℂ) ^ 3 = 2 * ((√2 : ℝ) : ℂ) := by rw [← x22]; ring
  have x24 : ((√2 : ℝ) : ℂ) ^ 4 = 4 := by linear_combination (((√2 : ℝ) : ℂ) ^ 2 + 2) * x22
  try simp only [← c.mz] at i0 i1 i2 i3 i4 i5 i6 i7 i8 i9 i10 i11 i12 i13 i14 i15 i16 i17 i18 i19 i20 i21 i22 i23 i24 i25 i26 i27 i28 i29 i30
  push_cast at i0 i1 i2 i3 i4 i5 i6 i7 i8 i9 i10 i11 i12 i13 i14 i15 i16 i17 i18 i19 i20 i21 i22 i23 i24 i25 i26 i27 i28 i29 i30 ⊢
  simp only [div_eq_mul_inv, mul_inv, inv_inv] at i0 i1 i2 i3 i4 i5 i6 i7 i8 i9 i10 i11 i12 i13 i14 i15 i16 i17 i18 i19 i20 i21 i22 i23 i24 i25 i26 i27 i28 i29 i30 ⊢
  have y0 := mul_inv_cancel₀ n0
  have y1 := mul_inv_cancel₀ n1
  have yCW := mul_inv_cancel₀ xCW
  have yMW := mul_inv_cancel₀ xMW
  have ySW := mul_inv_cancel₀ xSW
  linear_combination ((((4) * ((c.SW : ℂ)) ^ 2 * ((c.e : ℂ)) * ((c.gs : ℂ)) * ((c.mass .d : ℂ)) * (N.c 0) * (sb z0.2 z2.2) + (8) * ((c.SW : ℂ)) ^ 2 * ((c.e : ℂ)) * ((c.gs : ℂ)) * ((c.mass .d : ℂ)) * (N.c 1) * (sb z0.2 z2.2) + (-6) * ((c.e : ℂ)) * ((c.gs : ℂ)) * ((c.mass .d : ℂ)) * (N.c 0) * (sb z0.2 z2.2) + (-6) * ((c.e : ℂ)) * ((c.gs : ℂ)) * ((c.mass .d : ℂ)) * (N.c 1) * (sb z0.2 z2.2)) * i0 + ((-2) * ((c.SW : ℂ)) ^ 2 * ((c.e : ℂ)) * ((c.gs : ℂ)) * ((c.mass .d : ℂ)) * (mb z0.2 (p 1) z3.1) * (sb z0.2 z2.2) + (-4) * ((c.SW : ℂ)) ^ 2 * ((c.e : ℂ)) * ((c.gs : ℂ)) * ((c.mass .d : ℂ)) ^ 2 * (sb z0.2 z2.2) * (sb z0.2 z3.2) + (3) * ((c.e : ℂ)) * ((c.gs : ℂ)) * ((c.mass .d : ℂ)) * (mb z0.2 (p 1) z3.1) * (sb z0.2 z2.2) + (3) * ((c.e : ℂ)) * ((c.gs : ℂ)) * ((c.mass .d : ℂ)) ^ 2 * (sb z0.2 z2.2) * (sb z0.2 z3.2)) * i1 + ((-4) * ((c.SW : ℂ)) ^ 2 * ((c.e : ℂ)) * ((c.gs : ℂ)) * ((c.mass .d : ℂ)) * (ab z3.1 ρ0) * (sb z0.2 z2.2) + (3) * ((c.e : ℂ)) * ((c.gs : ℂ)) * ((c.mass .d : ℂ)) * (ab z3.1 ρ0) * (sb z0.2 z2.2)) * i2 + ((-4) * ((c.MW : ℂ)) * ((c.SW : ℂ)) ^ 2 * ((c.e : ℂ)) * ((c.gs : ℂ)) * ((c.CW : ℂ)⁻¹) * ((c.mass .d : ℂ)) * (sb z0.2 z2.2) ^ 2 + (3) * ((c.MW : ℂ)) * ((c.e : ℂ)) * ((c.gs : ℂ)) * ((c.CW : ℂ)⁻¹) * ((c.mass .d : ℂ)) * (sb z0.2 z2.2) ^ 2 + (-2) * ((c.SW : ℂ)) ^ 2 * ((c.e : ℂ)) * ((c.gs : ℂ)) * ((c.mass .d : ℂ)) * (mb z0.2 (p 1) z2.1) * (sb z0.2 z2.2)) * i3 + ((-4) * ((c.SW : ℂ)) ^ 2 * ((c.e : ℂ)) * ((c.gs : ℂ)) * ((c.mass .d : ℂ)) * (mb z0.2 (p 2) z1.1) * (sb z0.2 z2.2) + (-2) * ((c.SW : ℂ)) ^ 2 * ((c.e : ℂ)) * ((c.gs : ℂ)) * ((c.mass .d : ℂ)) ^ 2 * (sb z0.2 z1.2) * (sb z0.2 z2.2) + (3) * ((c.e : ℂ)) * ((c.gs : ℂ)) * ((c.mass .d : ℂ)) * (mb z0.2 (p 2) z1.1) * (sb z0.2 z2.2)) * i4 + ((4) * ((c.SW : ℂ)) ^ 2 * ((c.e : ℂ)) * ((c.gs : ℂ)) * ((c.mass .d : ℂ)) * (ab z2.1 ρ0) * (sb z0.2 z2.2) + (-3) * ((c.e : ℂ)) * ((c.gs : ℂ)) * ((c.mass .d : ℂ)) * (ab z2.1 ρ0) * (sb z0.2 z2.2)) * i5 + ((-2) * ((c.SW : ℂ)) ^ 2 * ((c.e : ℂ)) * ((c.gs : ℂ)) * ((c.mass .d : ℂ)) * (N.c 0) * (ab z2.1 ρ0) + (2) * ((c.SW : ℂ)) ^ 2 * ((c.e : ℂ)) * ((c.gs : ℂ)) * ((c.mass .d : ℂ)) * (ab z0.1 z2.1) * (mb z0.2 (p 1) ρ0) + (-4) * ((c.SW : ℂ)) ^ 2 * ((c.e : ℂ)) * ((c.gs : ℂ)) * ((c.mass .d : ℂ)) * (ab z0.1 z2.1) * (mb z0.2 (p 2) ρ0) + (-3) * ((c.e : ℂ)) * ((c.gs : ℂ)) * ((c.mass .d : ℂ)) * (ab z0.1 z2.1) * (mb z0.2 (p 1) ρ0) + (3) * ((c.e : ℂ)) * ((c.gs : ℂ)) * ((c.mass .d : ℂ)) * (ab z0.1 z2.1) * (mb z0.2 (p 2) ρ0)) * i6 + ((2) * ((c.MW : ℂ)) * ((c.SW : ℂ)) ^ 2 * ((c.e : ℂ)) * ((c.gs : ℂ)) * ((c.CW : ℂ)⁻¹) * (ab z1.1 z2.1) * (sb z0.2 z3.2) + (-3) * ((c.MW : ℂ)) * ((c.e : ℂ)) * ((c.gs : ℂ)) * ((c.CW : ℂ)⁻¹) * (ab z1.1 z2.1) * (sb z0.2 z3.2) + (-2) * ((c.SW : ℂ)) ^ 2 * ((c.e : ℂ)) * ((c.gs : ℂ)) * ((c.mass .d : ℂ)) * (ab z1.1 z3.1) * (sb z0.2 z2.2) + (2) * ((c.SW : ℂ)) ^ 2 * ((c.e : ℂ)) * ((c.gs : ℂ)) * ((c.mass .d : ℂ)) * (sb z0.2 z1.2) * (sb z2.2 z3.2) + (-2) * ((c.SW : ℂ)) ^ 2 * ((c.e : ℂ)) * ((c.gs : ℂ)) * ((c.mass .d : ℂ)) * (sb z0.2 z2.2) * (sb z1.2 z3.2) + (2) * ((c.SW : ℂ)) ^ 2 * ((c.e : ℂ)) * ((c.gs : ℂ)) * (mb z0.2 (p 1) z3.1) * (sb z1.2 z2.2)) * i7 + ((2) * ((c.SW : ℂ)) ^ 2 * ((c.e : ℂ)) * ((c.gs : ℂ)) * ((c.mass .d : ℂ)) * (mb z0.2 (p 1) ρ0) * (sb z0.2 z2.2) + (-3) * ((c.e : ℂ)) * ((c.gs : ℂ)) * ((c.mass .d : ℂ)) * (mb z0.2 (p 1) ρ0) * (sb z0.2 z2.2)) * i8 + ((4) * ((c.SW : ℂ)) ^ 2 * ((c.e : ℂ)) * ((c.gs : ℂ)) * (ab z2.1 z3.1) * (mb z0.2 (p 1) ρ0) + (-4) * ((c.SW : ℂ)) ^ 2 * ((c.e : ℂ)) * ((c.gs : ℂ)) * (ab z2.1 z3.1) * (mb z0.2 (p 2) ρ0) + (-3) * ((c.e : ℂ)) * ((c.gs : ℂ)) * (ab z2.1 z3.1) * (mb z0.2 (p 1) ρ0) + (3) * ((c.e : ℂ)) * ((c.gs : ℂ)) * (ab z2.1 z3.1) * (mb z0.2 (p 2) ρ0)) * i9 + ((4) * ((c.SW : ℂ)) ^ 2 * ((c.e : ℂ)) * ((c.gs : ℂ)) * (mb z0.2 (p 1) ρ0) * (sb z0.2 z2.2) + (-4) * ((c.SW : ℂ)) ^ 2 * ((c.e : ℂ)) * ((c.gs : ℂ)) * (mb z0.2 (p 2) ρ0) * (sb z0.2 z2.2) + (-3) * ((c.e : ℂ)) * ((c.gs : ℂ)) * (mb z0.2 (p 1) ρ0) * (sb z0.2 z2.2) + (3) * ((c.e : ℂ)) * ((c.gs : ℂ)) * (mb z0.2 (p 2) ρ0) * (sb z0.2 z2.2)) * i10 + ((-4) * ((c.SW : ℂ)) ^ 2 * ((c.e : ℂ)) * ((c.gs : ℂ)) * ((c.mass .d : ℂ)) * (ab z1.1 ρ0) * (sb z0.2 z2.2) + (2) * ((c.SW : ℂ)) ^ 2 * ((c.e : ℂ)) * ((c.gs : ℂ)) * (ab z0.1 ρ0) * (sb z0.2 z1.2) * (sb z0.2 z2.2) + (-2) * ((c.SW : ℂ)) ^ 2 * ((c.e : ℂ)) * ((c.gs : ℂ)) * (mb z0.2 (p 1) ρ0) * (sb z1.2 z2.2) + (4) * ((c.SW : ℂ)) ^ 2 * ((c.e : ℂ)) * ((c.gs : ℂ)) * (mb z0.2 (p 2) ρ0) * (sb z1.2 z2.2) + (-2) * ((c.SW : ℂ)) ^ 2 * ((c.e : ℂ)) * ((c.gs : ℂ)) * (mb z2.2 (p 1) ρ0) * (sb z0.2 z1.2) + (3) * ((c.e : ℂ)) * ((c.gs : ℂ)) * ((c.mass .d : ℂ)) * (ab z1.1 ρ0) * (sb z0.2 z2.2) + (3) * ((c.e : ℂ)) * ((c.gs : ℂ)) * (mb z0.2 (p 1) ρ0) * (sb z1.2 z2.2) + (-3) * ((c.e : ℂ)) * ((c.gs : ℂ)) * (mb z0.2 (p 2) ρ0) * (sb z1.2 z2.2)) * i11 + ((4) * ((c.SW : ℂ)) ^ 2 * ((c.e : ℂ)) * ((c.gs : ℂ)) * (mb z0.2 (p 1) ρ0) * (sb z0.2 z1.2) + (-4) * ((c.SW : ℂ)) ^ 2 * ((c.e : ℂ)) * ((c.gs : ℂ)) * (mb z0.2 (p 2) ρ0) * (sb z0.2 z1.2) + (-3) * ((c.e : ℂ)) * ((c.gs : ℂ)) * (mb z0.2 (p 1) ρ0) * (sb z0.2 z1.2) + (3) * ((c.e : ℂ)) * ((c.gs : ℂ)) * (mb z0.2 (p 2) ρ0) * (sb z0.2 z1.2)) * i12 + ((-2) * ((c.MW : ℂ)) * ((c.SW : ℂ)) ^ 2 * ((c.e : ℂ)) * ((c.gs : ℂ)) * ((c.CW : ℂ)⁻¹) * (sb z0.2 z2.2) * (sb z1.2 z2.2) + (4) * ((c.SW : ℂ)) ^ 2 * ((c.e : ℂ)) * ((c.gs : ℂ)) * (mb z2.2 (p 1) z2.1) * (sb z0.2 z1.2) + (-3) * ((c.e : ℂ)) * ((c.gs : ℂ)) * (mb z0.2 (p 1) z2.1) * (sb z1.2 z2.2) + (-3) * ((c.e : ℂ)) * ((c.gs : ℂ)) * (mb z2.2 (p 1) z2.1) * (sb z0.2 z1.2)) * i13 + ((-2) * ((c.SW : ℂ)) ^ 2 * ((c.e : ℂ)) * ((c.gs : ℂ)) * (mb z0.2 (p 1) z2.1) * (sb z1.2 z2.2) + (-4) * ((c.SW : ℂ)) ^ 2 * ((c.e : ℂ)) * ((c.gs : ℂ)) * (mb z2.2 (p 1) z2.1) * (sb z0.2 z1.2) + (3) * ((c.e : ℂ)) * ((c.gs : ℂ)) * (mb z0.2 (p 1) z2.1) * (sb z1.2 z2.2) + (3) * ((c.e : ℂ)) * ((c.gs : ℂ)) * (mb z2.2 (p 1) z2.1) * (sb z0.2 z1.2)) * i14 + ((2) * ((c.SW : ℂ)) ^ 2 * ((c.e : ℂ)) * ((c.gs : ℂ)) * ((c.mass .d : ℂ)) * (ab z1.1 ρ0) * (sb z0.2 z2.2) + (-2) * ((c.SW : ℂ)) ^ 2 * ((c.e : ℂ)) * ((c.gs : ℂ)) * (ab z0.1 ρ0) * (sb z0.2 z1.2) * (sb z0.2 z2.2) + (-2) * ((c.SW : ℂ)) ^ 2 * ((c.e : ℂ)) * ((c.gs : ℂ)) * (mb z0.2 (p 2) ρ0) * (sb z1.2 z2.2) + (2) * ((c.SW : ℂ)) ^ 2 * ((c.e : ℂ)) * ((c.gs : ℂ)) * (mb z2.2 (p 1) ρ0) * (sb z0.2 z1.2) + (-3) * ((c.e : ℂ)) * ((c.gs : ℂ)) * (mb z0.2 (p 1) ρ0) * (sb z1.2 z2.2) + (3) * ((c.e : ℂ)) * ((c.gs : ℂ)) * (mb z0.2 (p 2) ρ0) * (sb z1.2 z2.2)) * i15 + ((-2) * ((c.SW : ℂ)) ^ 2 * ((c.e : ℂ)) * ((c.gs : ℂ)) * (ab z2.1 z3.1) * (mb z0.2 (p 1) ρ0) + (2) * ((c.SW : ℂ)) ^ 2 * ((c.e : ℂ)) * ((c.gs : ℂ)) * (ab z2.1 z3.1) * (mb z0.2 (p 2) ρ0) + (3) * ((c.e : ℂ)) * ((c.gs : ℂ)) * (ab z2.1 z3.1) * (mb z0.2 (p 1) ρ0) + (-3) * ((c.e : ℂ)) * ((c.gs : ℂ)) * (ab z2.1 z3.1) * (mb z0.2 (p 2) ρ0)) * i16 + ((2) * ((c.SW : ℂ)) ^ 2 * ((c.e : ℂ)) * ((c.gs : ℂ)) * (N.c 1) * (sb z2.2 z3.2) + (2) * ((c.SW : ℂ)) ^ 2 * ((c.e : ℂ)) * ((c.gs : ℂ)) * (mb z2.2 (p 1) z0.1) * (sb z0.2 z3.2) + (-3) * ((c.e : ℂ)) * ((c.gs : ℂ)) * (N.c 1) * (sb z2.2 z3.2) + (-3) * ((c.e : ℂ)) * ((c.gs : ℂ)) * (mb z2.2 (p 1) z0.1) * (sb z0.2 z3.2)) * i17 + ((4) * ((c.SW : ℂ)) ^ 2 * ((c.e : ℂ)) * ((c.gs : ℂ)) * (N.c 1) * (ab z3.1 ρ0) + (-3) * ((c.e : ℂ)) * ((c.gs : ℂ)) * (N.c 1) * (ab z3.1 ρ0)) * i18 + ((4) * ((c.SW : ℂ)) ^ 2 * ((c.e : ℂ)) * ((c.gs : ℂ)) * ((c.mass .d : ℂ)) * (ab z1.1 z3.1) * (sb z0.2 z2.2) + (-2) * ((c.SW : ℂ)) ^ 2 * ((c.e : ℂ)) * ((c.gs : ℂ)) * (mb z0.2 (p 1) z3.1) * (sb z1.2 z2.2) + (-3) * ((c.e : ℂ)) * ((c.gs : ℂ)) * ((c.mass .d : ℂ)) * (ab z1.1 z3.1) * (sb z0.2 z2.2)) * i19 + ((-2) * ((c.SW : ℂ)) ^ 2 * ((c.e : ℂ)) * ((c.gs : ℂ)) * ((c.mass .d : ℂ)) * (ab z2.1 z3.1) * (sb z0.2 z2.2) + (3) * ((c.e : ℂ)) * ((c.gs : ℂ)) * ((c.mass .d : ℂ)) * (ab z2.1 z3.1) * (sb z0.2 z2.2)) * i20 + ((2) * ((c.SW : ℂ)) ^ 2 * ((c.e : ℂ)) * ((c.gs : ℂ)) * (mb z0.2 (p 1) z2.1) * (sb z0.2 z3.2) + (-3) * ((c.e : ℂ)) * ((c.gs : ℂ)) * (mb z0.2 (p 1) z2.1) * (sb z0.2 z3.2)) * i21 + ((2) * ((c.SW : ℂ)) ^ 2 * ((c.e : ℂ)) * ((c.gs : ℂ)) * ((c.mass .d : ℂ)) * (ab z3.1 ρ0) * (sb z0.2 z2.2) + (-2) * ((c.SW : ℂ)) ^ 2 * ((c.e : ℂ)) * ((c.gs : ℂ)) * (mb z2.2 (p 1) ρ0) * (sb z0.2 z3.2) + (3) * ((c.e : ℂ)) * ((c.gs : ℂ)) * (mb z2.2 (p 1) ρ0) * (sb z0.2 z3.2)) * i22 + ((4) * ((c.SW : ℂ)) ^ 2 * ((c.e : ℂ)) * ((c.gs : ℂ)) * ((c.mass .d : ℂ)) * (sb z0.2 z1.2) * (sb z0.2 z3.2) + (-3) * ((c.e : ℂ)) * ((c.gs : ℂ)) * ((c.mass .d : ℂ)) * (sb z0.2 z1.2) * (sb z0.2 z3.2)) * i23 + ((-2) * ((c.SW : ℂ)) ^ 2 * ((c.e : ℂ)) * ((c.gs : ℂ)) * ((c.mass .d : ℂ)) * (ab z0.1 ρ0) * (sb z0.2 z2.2)) * i24 + ((-2) * ((c.SW : ℂ)) ^ 2 * ((c.e : ℂ)) * ((c.gs : ℂ)) * (ab z1.1 z2.1) * (mb z0.2 (p 1) ρ0) + (3) * ((c.e : ℂ)) * ((c.gs : ℂ)) * (ab z1.1 z2.1) * (mb z0.2 (p 1) ρ0)) * i25 + ((-2) * ((c.SW : ℂ)) ^ 2 * ((c.e : ℂ)) * ((c.gs : ℂ)) * ((c.mass .d : ℂ)) * (ab z2.1 ρ0) * (sb z0.2 z2.2)) * i26 + ((2) * ((c.SW : ℂ)) ^ 2 * ((c.e : ℂ)) * ((c.gs : ℂ)) * (ab z1.1 z2.1) * (mb z0.2 (p 1) ρ0) + (-3) * ((c.e : ℂ)) * ((c.gs : ℂ)) * (ab z1.1 z2.1) * (mb z0.2 (p 1) ρ0)) * i27 + ((-2) * ((c.SW : ℂ)) ^ 2 * ((c.e : ℂ)) * ((c.gs : ℂ)) * (N.c 1) * (sb z1.2 z2.2) + (-2) * ((c.SW : ℂ)) ^ 2 * ((c.e : ℂ)) * ((c.gs : ℂ)) * (mb z2.2 (p 1) z0.1) * (sb z0.2 z1.2)) * i28 + ((2) * ((c.SW : ℂ)) ^ 2 * ((c.e : ℂ)) * ((c.gs : ℂ)) * (mb z2.2 (p 1) z0.1) * (sb z0.2 z1.2)) * i29 + ((2) * ((c.MW : ℂ)) * ((c.SW : ℂ)) ^ 2 * ((c.e : ℂ)) * ((c.gs : ℂ)) * ((c.CW : ℂ)⁻¹) * (sb z0.2 z1.2) * (sb z0.2 z2.2) + (2) * ((c.SW : ℂ)) ^ 2 * ((c.e : ℂ)) * ((c.gs : ℂ)) * (mb z0.2 (p 1) z2.1) * (sb z0.2 z1.2)) * i30)) * ((1) * ((c.CW : ℂ)) * ((c.CW : ℂ)⁻¹) * ((c.MW : ℂ)⁻¹) * ((c.SW : ℂ)⁻¹) * ((N.c 0)⁻¹) * ((N.c 1)⁻¹) / (3)) + ((-2) * ((c.CW : ℂ)) * ((c.MW : ℂ)) * ((c.SW : ℂ)) ^ 2 * ((c.e : ℂ)) * ((c.gs : ℂ)) * ((c.CW : ℂ)⁻¹) ^ 2 * ((c.MW : ℂ)⁻¹) * ((c.SW : ℂ)⁻¹) * ((N.c 1)⁻¹) * (ab z1.1 z2.1) * (ab z2.1 ρ0) * (sb z0.2 z3.2) / (3) + (2) * ((c.CW : ℂ)) * ((c.MW : ℂ)) * ((c.SW : ℂ)) ^ 2 * ((c.e : ℂ)) * ((c.gs : ℂ)) * ((c.CW : ℂ)⁻¹) ^ 2 * ((c.MW : ℂ)⁻¹) * ((c.SW : ℂ)⁻¹) * ((N.c 1)⁻¹) * (ab z3.1 ρ0) * (sb z0.2 z2.2) * (sb z1.2 z2.2) / (3) + (1) * ((c.CW : ℂ)) * ((c.MW : ℂ)) * ((c.e : ℂ)) * ((c.gs : ℂ)) * ((c.CW : ℂ)⁻¹) ^ 2 * ((c.MW : ℂ)⁻¹) * ((c.SW : ℂ)⁻¹) * ((N.c 1)⁻¹) * (ab z1.1 z2.1) * (ab z2.1 ρ0) * (sb z0.2 z3.2) + (-2) * ((c.CW : ℂ)) * ((c.SW : ℂ)) ^ 2 * ((c.e : ℂ)) * ((c.gs : ℂ)) * ((c.CW : ℂ)⁻¹) * ((c.MW : ℂ)⁻¹) * ((c.SW : ℂ)⁻¹) * ((c.mass .d : ℂ)) * ((N.c 1)⁻¹) * (ab z1.1 z2.1) * (ab z3.1 ρ0) * (sb z0.2 z2.2) / (3) + (2) * ((c.CW : ℂ)) * ((c.SW : ℂ)) ^ 2 * ((c.e : ℂ)) * ((c.gs : ℂ)) * ((c.CW : ℂ)⁻¹) * ((c.MW : ℂ)⁻¹) * ((c.SW : ℂ)⁻¹) * ((c.mass .d : ℂ)) * ((N.c 1)⁻¹) * (ab z2.1 ρ0) * (sb z0.2 z3.2) * (sb z1.2 z2.2) / (3) + (2) * ((c.CW : ℂ)) * ((c.SW : ℂ)) ^ 2 * ((c.e : ℂ)) * ((c.gs : ℂ)) * ((c.CW : ℂ)⁻¹) * ((c.MW : ℂ)⁻¹) * ((c.SW : ℂ)⁻¹) * ((N.c 1)⁻¹) * (ab z1.1 z2.1) * (mb z2.2 (p 1) ρ0) * (sb z0.2 z3.2) / (3) + (2) * ((c.CW : ℂ)) * ((c.SW : ℂ)) ^ 2 * ((c.e : ℂ)) * ((c.gs : ℂ)) * ((c.CW : ℂ)⁻¹) * ((c.MW : ℂ)⁻¹) * ((c.SW : ℂ)⁻¹) * ((N.c 1)⁻¹) * (ab z3.1 ρ0) * (mb z0.2 (p 1) z2.1) * (sb z1.2 z2.2) / (3) + (1) * ((c.CW : ℂ)) * ((c.e : ℂ)) * ((c.gs : ℂ)) * ((c.CW : ℂ)⁻¹) * ((c.MW : ℂ)⁻¹) * ((c.SW : ℂ)⁻¹) * ((c.mass .d : ℂ)) * ((N.c 1)⁻¹) * (ab z1.1 z2.1) * (ab z3.1 ρ0) * (sb z0.2 z2.2) + (-1) * ((c.CW : ℂ)) * ((c.e : ℂ)) * ((c.gs : ℂ)) * ((c.CW : ℂ)⁻¹) * ((c.MW : ℂ)⁻¹) * ((c.SW : ℂ)⁻¹) * ((N.c 1)⁻¹) * (ab z1.1 z2.1) * (mb z2.2 (p 1) ρ0) * (sb z0.2 z3.2)) * y0 + ((-2) * ((c.CW : ℂ)) * ((c.SW : ℂ)) ^ 2 * ((c.e : ℂ)) * ((c.gs : ℂ)) * ((c.CW : ℂ)⁻¹) * ((c.MW : ℂ)⁻¹) * ((c.SW : ℂ)⁻¹) * ((c.mass .d : ℂ)) * ((N.c 0)⁻¹) * (ab z1.1 ρ0) * (ab z2.1 z3.1) * (sb z0.2 z2.2) / (3) + (2) * ((c.CW : ℂ)) * ((c.SW : ℂ)) ^ 2 * ((c.e : ℂ)) * ((c.gs : ℂ)) * ((c.CW : ℂ)⁻¹) * ((c.MW : ℂ)⁻¹) * ((c.SW : ℂ)⁻¹) * ((c.mass .d : ℂ)) * ((N.c 0)⁻¹) * (ab z2.1 ρ0) * (sb z0.2 z1.2) * (sb z2.2 z3.2) / (3) + (-2) * ((c.CW : ℂ)) * ((c.SW : ℂ)) ^ 2 * ((c.e : ℂ)) * ((c.gs : ℂ)) * ((c.CW : ℂ)⁻¹) * ((c.MW : ℂ)⁻¹) * ((c.SW : ℂ)⁻¹) * ((N.c 0)⁻¹) * (ab z0.1 ρ0) * (ab z2.1 z3.1) * (sb z0.2 z1.2) * (sb z0.2 z2.2) / (3) + (2) * ((c.CW : ℂ)) * ((c.SW : ℂ)) ^ 2 * ((c.e : ℂ)) * ((c.gs : ℂ)) * ((c.CW : ℂ)⁻¹) * ((c.MW : ℂ)⁻¹) * ((c.SW : ℂ)⁻¹) * ((N.c 0)⁻¹) * (ab z1.1 ρ0) * (mb z0.2 (p 1) z2.1) * (sb z2.2 z3.2) / (3) + (2) * ((c.CW : ℂ)) * ((c.SW : ℂ)) ^ 2 * ((c.e : ℂ)) * ((c.gs : ℂ)) * ((c.CW : ℂ)⁻¹) * ((c.MW : ℂ)⁻¹) * ((c.SW : ℂ)⁻¹) * ((N.c 0)⁻¹) * (ab z2.1 z3.1) * (mb z2.2 (p 1) ρ0) * (sb z0.2 z1.2) / (3) + (-1) * ((c.CW : ℂ)) * ((c.e : ℂ)) * ((c.gs : ℂ)) * ((c.CW : ℂ)⁻¹) * ((c.MW : ℂ)⁻¹) * ((c.SW : ℂ)⁻¹) * ((c.mass .d : ℂ)) * ((N.c 0)⁻¹) * (ab z2.1 ρ0) * (sb z0.2 z1.2) * (sb z2.2 z3.2) + (-1) * ((c.CW : ℂ)) * ((c.e : ℂ)) * ((c.gs : ℂ)) * ((c.CW : ℂ)⁻¹) * ((c.MW : ℂ)⁻¹) * ((c.SW : ℂ)⁻¹) * ((N.c 0)⁻¹) * (ab z1.1 ρ0) * (mb z0.2 (p 1) z2.1) * (sb z2.2 z3.2)) * y1 + ((1) * ((c.MW : ℂ)) * (((√2 : ℝ) : ℂ)) ^ 2 * ((c.SW : ℂ)) ^ 2 * ((c.e : ℂ)) * ((c.gs : ℂ)) * ((c.CW : ℂ)⁻¹) * ((c.MW : ℂ)⁻¹) * ((c.SW : ℂ)⁻¹) * ((N.c 1)⁻¹) * (ab z1.1 z2.1) * (ab z2.1 ρ0) * (sb z0.2 z3.2) / (3) + (-1) * ((c.MW : ℂ)) * (((√2 : ℝ) : ℂ)) ^ 2 * ((c.SW : ℂ)) ^ 2 * ((c.e : ℂ)) * ((c.gs : ℂ)) * ((c.CW : ℂ)⁻¹) * ((c.MW : ℂ)⁻¹) * ((c.SW : ℂ)⁻¹) * ((N.c 1)⁻¹) * (ab z3.1 ρ0) * (sb z0.2 z2.2) * (sb z1.2 z2.2) / (3) + (-1) * ((c.MW : ℂ)) * (((√2 : ℝ) : ℂ)) ^ 2 * ((c.e : ℂ)) * ((c.gs : ℂ)) * ((c.CW : ℂ)⁻¹) * ((c.MW : ℂ)⁻¹) * ((c.SW : ℂ)⁻¹) * ((N.c 1)⁻¹) * (ab z1.1 z2.1) * (ab z2.1 ρ0) * (sb z0.2 z3.2) / (2) + (2) * ((c.MW : ℂ)) * ((c.SW : ℂ)) ^ 2 * ((c.e : ℂ)) * ((c.gs : ℂ)) * ((c.CW : ℂ)⁻¹) * ((c.MW : ℂ)⁻¹) * ((c.SW : ℂ)⁻¹) * ((N.c 0)⁻¹) * ((N.c 1)⁻¹) * (ab z0.1 ρ0) * (ab z1.1 z2.1) * (mb z0.2 (p 1) z2.1) * (sb z0.2 z3.2) / (3) + (2) * ((c.MW : ℂ)) * ((c.SW : ℂ)) ^ 2 * ((c.e : ℂ)) * ((c.gs : ℂ)) * ((c.CW : ℂ)⁻¹) * ((c.MW : ℂ)⁻¹) * ((c.SW : ℂ)⁻¹) * ((N.c 0)⁻¹) * ((N.c 1)⁻¹) * (ab z0.1 ρ0) * (ab z2.1 z3.1) * (mb z0.2 (p 1) z2.1) * (sb z0.2 z1.2) / (3) + (-2) * ((c.MW : ℂ)) * ((c.SW : ℂ)) ^ 2 * ((c.e : ℂ)) * ((c.gs : ℂ)) * ((c.CW : ℂ)⁻¹) * ((c.MW : ℂ)⁻¹) * ((c.SW : ℂ)⁻¹) * ((N.c 1)⁻¹) * (ab z1.1 z2.1) * (ab z2.1 ρ0) * (sb z0.2 z3.2) / (3) + (2) * ((c.MW : ℂ)) * ((c.SW : ℂ)) ^ 2 * ((c.e : ℂ)) * ((c.gs : ℂ)) * ((c.CW : ℂ)⁻¹) * ((c.MW : ℂ)⁻¹) * ((c.SW : ℂ)⁻¹) * ((N.c 1)⁻¹) * (ab z3.1 ρ0) * (sb z0.2 z2.2) * (sb z1.2 z2.2) / (3) + (-1) * ((c.MW : ℂ)) * ((c.e : ℂ)) * ((c.gs : ℂ)) * ((c.CW : ℂ)⁻¹) * ((c.MW : ℂ)⁻¹) * ((c.SW : ℂ)⁻¹) * ((N.c 0)⁻¹) * ((N.c 1)⁻¹) * (ab z0.1 ρ0) * (ab z1.1 z2.1) * (mb z0.2 (p 1) z2.1) * (sb z0.2 z3.2) + (1) * ((c.MW : ℂ)) * ((c.e : ℂ)) * ((c.gs : ℂ)) * ((c.CW : ℂ)⁻¹) * ((c.MW : ℂ)⁻¹) * ((c.SW : ℂ)⁻¹) * ((N.c 1)⁻¹) * (ab z1.1 z2.1) * (ab z2.1 ρ0) * (sb z0.2 z3.2) + (2) * ((c.MW : ℂ)) ^ 2 * ((c.SW : ℂ)) ^ 2 * ((c.e : ℂ)) * ((c.gs : ℂ)) * ((c.CW : ℂ)⁻¹) ^ 2 * ((c.MW : ℂ)⁻¹) * ((c.SW : ℂ)⁻¹) * ((N.c 0)⁻¹) * ((N.c 1)⁻¹) * (ab z0.1 ρ0) * (ab z2.1 z3.1) * (sb z0.2 z1.2) * (sb z0.2 z2.2) / (3) + (1) * (((√2 : ℝ) : ℂ)) ^ 2 * ((c.SW : ℂ)) ^ 2 * ((c.e : ℂ)) * ((c.gs : ℂ)) * ((c.MW : ℂ)⁻¹) * ((c.SW : ℂ)⁻¹) * ((c.mass .d : ℂ)) * ((N.c 0)⁻¹) * (ab z1.1 ρ0) * (ab z2.1 z3.1) * (sb z0.2 z2.2) / (3) + (-1) * (((√2 : ℝ) : ℂ)) ^ 2 * ((c.SW : ℂ)) ^ 2 * ((c.e : ℂ)) * ((c.gs : ℂ)) * ((c.MW : ℂ)⁻¹) * ((c.SW : ℂ)⁻¹) * ((c.mass .d : ℂ)) * ((N.c 0)⁻¹) * (ab z2.1 ρ0) * (sb z0.2 z1.2) * (sb z2.2 z3.2) / (3) + (1) * (((√2 : ℝ) : ℂ)) ^ 2 * ((c.SW : ℂ)) ^ 2 * ((c.e : ℂ)) * ((c.gs : ℂ)) * ((c.MW : ℂ)⁻¹) * ((c.SW : ℂ)⁻¹) * ((c.mass .d : ℂ)) * ((N.c 1)⁻¹) * (ab z1.1 z2.1) * (ab z3.1 ρ0) * (sb z0.2 z2.2) / (3) + (-1) * (((√2 : ℝ) : ℂ)) ^ 2 * ((c.SW : ℂ)) ^ 2 * ((c.e : ℂ)) * ((c.gs : ℂ)) * ((c.MW : ℂ)⁻¹) * ((c.SW : ℂ)⁻¹) * ((c.mass .d : ℂ)) * ((N.c 1)⁻¹) * (ab z2.1 ρ0) * (sb z0.2 z3.2) * (sb z1.2 z2.2) / (3) + (1) * (((√2 : ℝ) : ℂ)) ^ 2 * ((c.SW : ℂ)) ^ 2 * ((c.e : ℂ)) * ((c.gs : ℂ)) * ((c.MW : ℂ)⁻¹) * ((c.SW : ℂ)⁻¹) * ((N.c 0)⁻¹) * (ab z0.1 ρ0) * (ab z2.1 z3.1) * (sb z0.2 z1.2) * (sb z0.2 z2.2) / (3) + (-1) * (((√2 : ℝ) : ℂ)) ^ 2 * ((c.SW : ℂ)) ^ 2 * ((c.e : ℂ)) * ((c.gs : ℂ)) * ((c.MW : ℂ)⁻¹) * ((c.SW : ℂ)⁻¹) * ((N.c 0)⁻¹) * (ab z1.1 ρ0) * (mb z0.2 (p 1) z2.1) * (sb z2.2 z3.2) / (3) + (-1) * (((√2 : ℝ) : ℂ)) ^ 2 * ((c.SW : ℂ)) ^ 2 * ((c.e : ℂ)) * ((c.gs : ℂ)) * ((c.MW : ℂ)⁻¹) * ((c.SW : ℂ)⁻¹) * ((N.c 0)⁻¹) * (ab z2.1 z3.1) * (mb z2.2 (p 1) ρ0) * (sb z0.2 z1.2) / (3) + (-1) * (((√2 : ℝ) : ℂ)) ^ 2 * ((c.SW : ℂ)) ^ 2 * ((c.e : ℂ)) * ((c.gs : ℂ)) * ((c.MW : ℂ)⁻¹) * ((c.SW : ℂ)⁻¹) * ((N.c 1)⁻¹) * (ab z1.1 z2.1) * (mb z2.2 (p 1) ρ0) * (sb z0.2 z3.2) / (3) + (-1) * (((√2 : ℝ) : ℂ)) ^ 2 * ((c.SW : ℂ)) ^ 2 * ((c.e : ℂ)) * ((c.gs : ℂ)) * ((c.MW : ℂ)⁻¹) * ((c.SW : ℂ)⁻¹) * ((N.c 1)⁻¹) * (ab z3.1 ρ0) * (mb z0.2 (p 1) z2.1) * (sb z1.2 z2.2) / (3) + (1) * (((√2 : ℝ) : ℂ)) ^ 2 * ((c.e : ℂ)) * ((c.gs : ℂ)) * ((c.MW : ℂ)⁻¹) * ((c.SW : ℂ)⁻¹) * ((c.mass .d : ℂ)) * ((N.c 0)⁻¹) * (ab z2.1 ρ0) * (sb z0.2 z1.2) * (sb z2.2 z3.2) / (2) + (-1) * (((√2 : ℝ) : ℂ)) ^ 2 * ((c.e : ℂ)) * ((c.gs : ℂ)) * ((c.MW : ℂ)⁻¹) * ((c.SW : ℂ)⁻¹) * ((c.mass .d : ℂ)) * ((N.c 1)⁻¹) * (ab z1.1 z2.1) * (ab z3.1 ρ0) * (sb z0.2 z2.2) / (2) + (1) * (((√2 : ℝ) : ℂ)) ^ 2 * ((c.e : ℂ)) * ((c.gs : ℂ)) * ((c.MW : ℂ)⁻¹) * ((c.SW : ℂ)⁻¹) * ((N.c 0)⁻¹) * (ab z1.1 ρ0) * (mb z0.2 (p 1) z2.1) * (sb z2.2 z3.2) / (2) + (1) * (((√2 : ℝ) : ℂ)) ^ 2 * ((c.e : ℂ)) * ((c.gs : ℂ)) * ((c.MW : ℂ)⁻¹) * ((c.SW : ℂ)⁻¹) * ((N.c 1)⁻¹) * (ab z1.1 z2.1) * (mb z2.2 (p 1) ρ0) * (sb z0.2 z3.2) / (2) + (2) * ((c.SW : ℂ)) ^ 2 * ((c.e : ℂ)) * ((c.gs : ℂ)) * ((c.MW : ℂ)⁻¹) * ((c.SW : ℂ)⁻¹) * ((c.mass .d : ℂ)) * ((N.c 0)⁻¹) * ((N.c 1)⁻¹) * (ab z0.1 ρ0) * (ab z1.1 z2.1) * (mb z0.2 (p 1) z3.1) * (sb z0.2 z2.2) / (3) + (2) * ((c.SW : ℂ)) ^ 2 * ((c.e : ℂ)) * ((c.gs : ℂ)) * ((c.MW : ℂ)⁻¹) * ((c.SW : ℂ)⁻¹) * ((c.mass .d : ℂ)) * ((N.c 0)⁻¹) * ((N.c 1)⁻¹) * (ab z0.1 ρ0) * (ab z2.1 z3.1) * (mb z0.2 (p 2) z1.1) * (sb z0.2 z2.2) / (3) + (-2) * ((c.SW : ℂ)) ^ 2 * ((c.e : ℂ)) * ((c.gs : ℂ)) * ((c.MW : ℂ)⁻¹) * ((c.SW : ℂ)⁻¹) * ((c.mass .d : ℂ)) * ((N.c 0)⁻¹) * (ab z1.1 ρ0) * (ab z2.1 z3.1) * (sb z0.2 z2.2) / (3) + (2) * ((c.SW : ℂ)) ^ 2 * ((c.e : ℂ)) * ((c.gs : ℂ)) * ((c.MW : ℂ)⁻¹) * ((c.SW : ℂ)⁻¹) * ((c.mass .d : ℂ)) * ((N.c 0)⁻¹) * (ab z2.1 ρ0) * (sb z0.2 z1.2) * (sb z2.2 z3.2) / (3) + (-2) * ((c.SW : ℂ)) ^ 2 * ((c.e : ℂ)) * ((c.gs : ℂ)) * ((c.MW : ℂ)⁻¹) * ((c.SW : ℂ)⁻¹) * ((c.mass .d : ℂ)) * ((N.c 1)⁻¹) * (ab z1.1 z2.1) * (ab z3.1 ρ0) * (sb z0.2 z2.2) / (3) + (2) * ((c.SW : ℂ)) ^ 2 * ((c.e : ℂ)) * ((c.gs : ℂ)) * ((c.MW : ℂ)⁻¹) * ((c.SW : ℂ)⁻¹) * ((c.mass .d : ℂ)) * ((N.c 1)⁻¹) * (ab z2.1 ρ0) * (sb z0.2 z3.2) * (sb z1.2 z2.2) / (3) + (2) * ((c.SW : ℂ)) ^ 2 * ((c.e : ℂ)) * ((c.gs : ℂ)) * ((c.MW : ℂ)⁻¹) * ((c.SW : ℂ)⁻¹) * ((c.mass .d : ℂ)) ^ 2 * ((N.c 0)⁻¹) * ((N.c 1)⁻¹) * (ab z0.1 ρ0) * (ab z1.1 z2.1) * (sb z0.2 z2.2) * (sb z0.2 z3.2) / (3) + (-2) * ((c.SW : ℂ)) ^ 2 * ((c.e : ℂ)) * ((c.gs : ℂ)) * ((c.MW : ℂ)⁻¹) * ((c.SW : ℂ)⁻¹) * ((N.c 0)⁻¹) * (ab z0.1 ρ0) * (ab z2.1 z3.1) * (sb z0.2 z1.2) * (sb z0.2 z2.2) / (3) + (2) * ((c.SW : ℂ)) ^ 2 * ((c.e : ℂ)) * ((c.gs : ℂ)) * ((c.MW : ℂ)⁻¹) * ((c.SW : ℂ)⁻¹) * ((N.c 0)⁻¹) * (ab z1.1 ρ0) * (mb z0.2 (p 1) z2.1) * (sb z2.2 z3.2) / (3) + (2) * ((c.SW : ℂ)) ^ 2 * ((c.e : ℂ)) * ((c.gs : ℂ)) * ((c.MW : ℂ)⁻¹) * ((c.SW : ℂ)⁻¹) * ((N.c 0)⁻¹) * (ab z2.1 z3.1) * (mb z2.2 (p 1) ρ0) * (sb z0.2 z1.2) / (3) + (2) * ((c.SW : ℂ)) ^ 2 * ((c.e : ℂ)) * ((c.gs : ℂ)) * ((c.MW : ℂ)⁻¹) * ((c.SW : ℂ)⁻¹) * ((N.c 1)⁻¹) * (ab z1.1 z2.1) * (mb z2.2 (p 1) ρ0) * (sb z0.2 z3.2) / (3) + (2) * ((c.SW : ℂ)) ^ 2 * ((c.e : ℂ)) * ((c.gs : ℂ)) * ((c.MW : ℂ)⁻¹) * ((c.SW : ℂ)⁻¹) * ((N.c 1)⁻¹) * (ab z3.1 ρ0) * (mb z0.2 (p 1) z2.1) * (sb z1.2 z2.2) / (3) + (-1) * ((c.e : ℂ)) * ((c.gs : ℂ)) * ((c.MW : ℂ)⁻¹) * ((c.SW : ℂ)⁻¹) * ((c.mass .d : ℂ)) * ((N.c 0)⁻¹) * ((N.c 1)⁻¹) * (ab z0.1 ρ0) * (ab z1.1 z2.1) * (mb z0.2 (p 1) z3.1) * (sb z0.2 z2.2) + (-1) * ((c.e : ℂ)) * ((c.gs : ℂ)) * ((c.MW : ℂ)⁻¹) * ((c.SW : ℂ)⁻¹) * ((c.mass .d : ℂ)) * ((N.c 0)⁻¹) * (ab z2.1 ρ0) * (sb z0.2 z1.2) * (sb z2.2 z3.2) + (1) * ((c.e : ℂ)) * ((c.gs : ℂ)) * ((c.MW : ℂ)⁻¹) * ((c.SW : ℂ)⁻¹) * ((c.mass .d : ℂ)) * ((N.c 1)⁻¹) * (ab z1.1 z2.1) * (ab z3.1 ρ0) * (sb z0.2 z2.2) + (-1) * ((c.e : ℂ)) * ((c.gs : ℂ)) * ((c.MW : ℂ)⁻¹) * ((c.SW : ℂ)⁻¹) * ((c.mass .d : ℂ)) ^ 2 * ((N.c 0)⁻¹) * ((N.c 1)⁻¹) * (ab z0.1 ρ0) * (ab z1.1 z2.1) * (sb z0.2 z2.2) * (sb z0.2 z3.2) + (-1) * ((c.e : ℂ)) * ((c.gs : ℂ)) * ((c.MW : ℂ)⁻¹) * ((c.SW : ℂ)⁻¹) * ((N.c 0)⁻¹) * (ab z1.1 ρ0) * (mb z0.2 (p 1) z2.1) * (sb z2.2 z3.2) + (-1) * ((c.e : ℂ)) * ((c.gs : ℂ)) * ((c.MW : ℂ)⁻¹) * ((c.SW : ℂ)⁻¹) * ((N.c 1)⁻¹) * (ab z1.1 z2.1) * (mb z2.2 (p 1) ρ0) * (sb z0.2 z3.2)) * yCW + ((1) * (((√2 : ℝ) : ℂ)) ^ 2 * ((c.SW : ℂ)) ^ 2 * ((c.e : ℂ)) * ((c.gs : ℂ)) * ((c.CW : ℂ)⁻¹) * ((c.SW : ℂ)⁻¹) * ((N.c 1)⁻¹) * (ab z1.1 z2.1) * (ab z2.1 ρ0) * (sb z0.2 z3.2) / (3) + (-1) * (((√2 : ℝ) : ℂ)) ^ 2 * ((c.SW : ℂ)) ^ 2 * ((c.e : ℂ)) * ((c.gs : ℂ)) * ((c.CW : ℂ)⁻¹) * ((c.SW : ℂ)⁻¹) * ((N.c 1)⁻¹) * (ab z3.1 ρ0) * (sb z0.2 z2.2) * (sb z1.2 z2.2) / (3) + (-1) * (((√2 : ℝ) : ℂ)) ^ 2 * ((c.e : ℂ)) * ((c.gs : ℂ)) * ((c.CW : ℂ)⁻¹) * ((c.SW : ℂ)⁻¹) * ((N.c 1)⁻¹) * (ab z1.1 z2.1) * (ab z2.1 ρ0) * (sb z0.2 z3.2) / (2) + (-2) * ((c.SW : ℂ)) ^ 2 * ((c.e : ℂ)) * ((c.gs : ℂ)) * ((c.CW : ℂ)⁻¹) * ((c.SW : ℂ)⁻¹) * ((N.c 1)⁻¹) * (ab z1.1 z2.1) * (ab z2.1 ρ0) * (sb z0.2 z3.2) / (3) + (2) * ((c.SW : ℂ)) ^ 2 * ((c.e : ℂ)) * ((c.gs : ℂ)) * ((c.CW : ℂ)⁻¹) * ((c.SW : ℂ)⁻¹) * ((N.c 1)⁻¹) * (ab z3.1 ρ0) * (sb z0.2 z2.2) * (sb z1.2 z2.2) / (3) + (1) * ((c.e : ℂ)) * ((c.gs : ℂ)) * ((c.CW : ℂ)⁻¹) * ((c.SW : ℂ)⁻¹) * ((N.c 1)⁻¹) * (ab z1.1 z2.1) * (ab z2.1 ρ0) * (sb z0.2 z3.2)) * yMW + ((1) * (((√2 : ℝ) : ℂ)) ^ 2 * ((c.SW : ℂ)) * ((c.e : ℂ)) * ((c.gs : ℂ)) * ((c.CW : ℂ)⁻¹) * ((N.c 1)⁻¹) * (ab z1.1 z2.1) * (ab z2.1 ρ0) * (sb z0.2 z3.2) / (3) + (-1) * (((√2 : ℝ) : ℂ)) ^ 2 * ((c.SW : ℂ)) * ((c.e : ℂ)) * ((c.gs : ℂ)) * ((c.CW : ℂ)⁻¹) * ((N.c 1)⁻¹) * (ab z3.1 ρ0) * (sb z0.2 z2.2) * (sb z1.2 z2.2) / (3) + (1) * (((√2 : ℝ) : ℂ)) ^ 2 * ((c.SW : ℂ)) * ((c.e : ℂ)) * ((c.gs : ℂ)) * ((c.MW : ℂ)⁻¹) * ((c.mass .d : ℂ)) * ((N.c 0)⁻¹) * (ab z1.1 ρ0) * (ab z2.1 z3.1) * (sb z0.2 z2.2) / (3) + (-1) * (((√2 : ℝ) : ℂ)) ^ 2 * ((c.SW : ℂ)) * ((c.e : ℂ)) * ((c.gs : ℂ)) * ((c.MW : ℂ)⁻¹) * ((c.mass .d : ℂ)) * ((N.c 0)⁻¹) * (ab z2.1 ρ0) * (sb z0.2 z1.2) * (sb z2.2 z3.2) / (3) + (1) * (((√2 : ℝ) : ℂ)) ^ 2 * ((c.SW : ℂ)) * ((c.e : ℂ)) * ((c.gs : ℂ)) * ((c.MW : ℂ)⁻¹) * ((c.mass .d : ℂ)) * ((N.c 1)⁻¹) * (ab z1.1 z2.1) * (ab z3.1 ρ0) * (sb z0.2 z2.2) / (3) + (-1) * (((√2 : ℝ) : ℂ)) ^ 2 * ((c.SW : ℂ)) * ((c.e : ℂ)) * ((c.gs : ℂ)) * ((c.MW : ℂ)⁻¹) * ((c.mass .d : ℂ)) * ((N.c 1)⁻¹) * (ab z2.1 ρ0) * (sb z0.2 z3.2) * (sb z1.2 z2.2) / (3) + (1) * (((√2 : ℝ) : ℂ)) ^ 2 * ((c.SW : ℂ)) * ((c.e : ℂ)) * ((c.gs : ℂ)) * ((c.MW : ℂ)⁻¹) * ((N.c 0)⁻¹) * (ab z0.1 ρ0) * (ab z2.1 z3.1) * (sb z0.2 z1.2) * (sb z0.2 z2.2) / (3) + (-1) * (((√2 : ℝ) : ℂ)) ^ 2 * ((c.SW : ℂ)) * ((c.e : ℂ)) * ((c.gs : ℂ)) * ((c.MW : ℂ)⁻¹) * ((N.c 0)⁻¹) * (ab z1.1 ρ0) * (mb z0.2 (p 1) z2.1) * (sb z2.2 z3.2) / (3) + (-1) * (((√2 : ℝ) : ℂ)) ^ 2 * ((c.SW : ℂ)) * ((c.e : ℂ)) * ((c.gs : ℂ)) * ((c.MW : ℂ)⁻¹) * ((N.c 0)⁻¹) * (ab z2.1 z3.1) * (mb z2.2 (p 1) ρ0) * (sb z0.2 z1.2) / (3) + (-1) * (((√2 : ℝ) : ℂ)) ^ 2 * ((c.SW : ℂ)) * ((c.e : ℂ)) * ((c.gs : ℂ)) * ((c.MW : ℂ)⁻¹) * ((N.c 1)⁻¹) * (ab z1.1 z2.1) * (mb z2.2 (p 1) ρ0) * (sb z0.2 z3.2) / (3) + (-1) * (((√2 : ℝ) : ℂ)) ^ 2 * ((c.SW : ℂ)) * ((c.e : ℂ)) * ((c.gs : ℂ)) * ((c.MW : ℂ)⁻¹) * ((N.c 1)⁻¹) * (ab z3.1 ρ0) * (mb z0.2 (p 1) z2.1) * (sb z1.2 z2.2) / (3) + (-2) * ((c.SW : ℂ)) * ((c.e : ℂ)) * ((c.gs : ℂ)) * ((c.CW : ℂ)⁻¹) * ((N.c 1)⁻¹) * (ab z1.1 z2.1) * (ab z2.1 ρ0) * (sb z0.2 z3.2) / (3) + (2) * ((c.SW : ℂ)) * ((c.e : ℂ)) * ((c.gs : ℂ)) * ((c.CW : ℂ)⁻¹) * ((N.c 1)⁻¹) * (ab z3.1 ρ0) * (sb z0.2 z2.2) * (sb z1.2 z2.2) / (3) + (-2) * ((c.SW : ℂ)) * ((c.e : ℂ)) * ((c.gs : ℂ)) * ((c.MW : ℂ)⁻¹) * ((c.mass .d : ℂ)) * ((N.c 0)⁻¹) * (ab z1.1 ρ0) * (ab z2.1 z3.1) * (sb z0.2 z2.2) / (3) + (2) * ((c.SW : ℂ)) * ((c.e : ℂ)) * ((c.gs : ℂ)) * ((c.MW : ℂ)⁻¹) * ((c.mass .d : ℂ)) * ((N.c 0)⁻¹) * (ab z2.1 ρ0) * (sb z0.2 z1.2) * (sb z2.2 z3.2) / (3) + (-2) * ((c.SW : ℂ)) * ((c.e : ℂ)) * ((c.gs : ℂ)) * ((c.MW : ℂ)⁻¹) * ((c.mass .d : ℂ)) * ((N.c 1)⁻¹) * (ab z1.1 z2.1) * (ab z3.1 ρ0) * (sb z0.2 z2.2) / (3) + (2) * ((c.SW : ℂ)) * ((c.e : ℂ)) * ((c.gs : ℂ)) * ((c.MW : ℂ)⁻¹) * ((c.mass .d : ℂ)) * ((N.c 1)⁻¹) * (ab z2.1 ρ0) * (sb z0.2 z3.2) * (sb z1.2 z2.2) / (3) + (-2) * ((c.SW : ℂ)) * ((c.e : ℂ)) * ((c.gs : ℂ)) * ((c.MW : ℂ)⁻¹) * ((N.c 0)⁻¹) * (ab z0.1 ρ0) * (ab z2.1 z3.1) * (sb z0.2 z1.2) * (sb z0.2 z2.2) / (3) + (2) * ((c.SW : ℂ)) * ((c.e : ℂ)) * ((c.gs : ℂ)) * ((c.MW : ℂ)⁻¹) * ((N.c 0)⁻¹) * (ab z1.1 ρ0) * (mb z0.2 (p 1) z2.1) * (sb z2.2 z3.2) / (3) + (2) * ((c.SW : ℂ)) * ((c.e : ℂ)) * ((c.gs : ℂ)) * ((c.MW : ℂ)⁻¹) * ((N.c 0)⁻¹) * (ab z2.1 z3.1) * (mb z2.2 (p 1) ρ0) * (sb z0.2 z1.2) / (3) + (2) * ((c.SW : ℂ)) * ((c.e : ℂ)) * ((c.gs : ℂ)) * ((c.MW : ℂ)⁻¹) * ((N.c 1)⁻¹) * (ab z1.1 z2.1) * (mb z2.2 (p 1) ρ0) * (sb z0.2 z3.2) / (3) + (2) * ((c.SW : ℂ)) * ((c.e : ℂ)) * ((c.gs : ℂ)) * ((c.MW : ℂ)⁻¹) * ((N.c 1)⁻¹) * (ab z3.1 ρ0) * (mb z0.2 (p 1) z2.1) * (sb z1.2 z2.2) / (3)) * ySW + ((1) * ((c.SW : ℂ)) * ((c.e : ℂ)) * ((c.gs : ℂ)) * ((c.CW : ℂ)⁻¹) * ((N.c 1)⁻¹) * (ab z1.1 z2.1) * (ab z2.1 ρ0) * (sb z0.2 z3.2) / (3) + (-1) * ((c.SW : ℂ)) * ((c.e : ℂ)) * ((c.gs : ℂ)) * ((c.CW : ℂ)⁻¹) * ((N.c 1)⁻¹) * (ab z3.1 ρ0) * (sb z0.2 z2.2) * (sb z1.2 z2.2) / (3) + (1) * ((c.SW : ℂ)) * ((c.e : ℂ)) * ((c.gs : ℂ)) * ((c.MW : ℂ)⁻¹) * ((c.mass .d : ℂ)) * ((N.c 0)⁻¹) * (ab z1.1 ρ0) * (ab z2.1 z3.1) * (sb z0.2 z2.2) / (3) + (-1) * ((c.SW : ℂ)) * ((c.e : ℂ)) * ((c.gs : ℂ)) * ((c.MW : ℂ)⁻¹) * ((c.mass .d : ℂ)) * ((N.c 0)⁻¹) * (ab z2.1 ρ0) * (sb z0.2 z1.2) * (sb z2.2 z3.2) / (3) + (1) * ((c.SW : ℂ)) * ((c.e : ℂ)) * ((c.gs : ℂ)) * ((c.MW : ℂ)⁻¹) * ((c.mass .d : ℂ)) * ((N.c 1)⁻¹) * (ab z1.1 z2.1) * (ab z3.1 ρ0) * (sb z0.2 z2.2) / (3) + (-1) * ((c.SW : ℂ)) * ((c.e : ℂ)) * ((c.gs : ℂ)) * ((c.MW : ℂ)⁻¹) * ((c.mass .d : ℂ)) * ((N.c 1)⁻¹) * (ab z2.1 ρ0) * (sb z0.2 z3.2) * (sb z1.2 z2.2) / (3) + (1) * ((c.SW : ℂ)) * ((c.e : ℂ)) * ((c.gs : ℂ)) * ((c.MW : ℂ)⁻¹) * ((N.c 0)⁻¹) * (ab z0.1 ρ0) * (ab z2.1 z3.1) * (sb z0.2 z1.2) * (sb z0.2 z2.2) / (3) + (-1) * ((c.SW : ℂ)) * ((c.e : ℂ)) * ((c.gs : ℂ)) * ((c.MW : ℂ)⁻¹) * ((N.c 0)⁻¹) * (ab z1.1 ρ0) * (mb z0.2 (p 1) z2.1) * (sb z2.2 z3.2) / (3) + (-1) * ((c.SW : ℂ)) * ((c.e : ℂ)) * ((c.gs : ℂ)) * ((c.MW : ℂ)⁻¹) * ((N.c 0)⁻¹) * (ab z2.1 z3.1) * (mb z2.2 (p 1) ρ0) * (sb z0.2 z1.2) / (3) + (-1) * ((c.SW : ℂ)) * ((c.e : ℂ)) * ((c.gs : ℂ)) * ((c.MW : ℂ)⁻¹) * ((N.c 1)⁻¹) * (ab z1.1 z2.1) * (mb z2.2 (p 1) ρ0) * (sb z0.2 z3.2) / (3) + (-1) * ((c.SW : ℂ)) * ((c.e : ℂ)) * ((c.gs : ℂ)) * ((c.MW : ℂ)⁻¹) * ((N.c 1)⁻¹) * (ab z3.1 ρ0) * (mb z0.2 (p 1) z2.1) * (sb z1.2 z2.2) / (3) + (-1) * ((c.e : ℂ)) * ((c.gs : ℂ)) * ((c.CW : ℂ)⁻¹) * ((c.SW : ℂ)⁻¹) * ((N.c 1)⁻¹) * (ab z1.1 z2.1) * (ab z2.1 ρ0) * (sb z0.2 z3.2) / (2) + (1) * ((c.e : ℂ)) * ((c.gs : ℂ)) * ((c.MW : ℂ)⁻¹) * ((c.SW : ℂ)⁻¹) * ((c.mass .d : ℂ)) * ((N.c 0)⁻¹) * (ab z2.1 ρ0) * (sb z0.2 z1.2) * (sb z2.2 z3.2) / (2) + (-1) * ((c.e : ℂ)) * ((c.gs : ℂ)) * ((c.MW : ℂ)⁻¹) * ((c.SW : ℂ)⁻¹) * ((c.mass .d : ℂ)) * ((N.c 1)⁻¹) * (ab z1.1 z2.1) * (ab z3.1 ρ0) * (sb z0.2 z2.2) / (2) + (1) * ((c.e : ℂ)) * ((c.gs : ℂ)) * ((c.MW : ℂ)⁻¹) * ((c.SW : ℂ)⁻¹) * ((N.c 0)⁻¹) * (ab z1.1 ρ0) * (mb z0.2 (p 1) z2.1) * (sb z2.2 z3.2) / (2) + (1) * ((c.e : ℂ)) * ((c.gs : ℂ)) * ((c.MW : ℂ)⁻¹) * ((c.SW : ℂ)⁻¹) * ((N.c 1)⁻¹) * (ab z1.1 z2.1) * (mb z2.2 (p 1) ρ0) * (sb z0.2 z3.2) / (2)) * x22
theorem gdZd.keyM {c : Constants} {p : Nat → V4 ℝ} {N : Env} (hc : c.Physical) (hb : Balanced p) (r3 : N.r 3 = (c.mass .d)) (r7 : N.r 7 = (c.MW / c.CW)) (r9 : N.r 9 = (((((2 : Nat) : ℝ) * c.e) * c.gs) / ((((2 : Nat) : ℝ) * c.MW) * c.SW))) (r11 : N.r 11 = (((((-((2 : Nat) : ℝ)) * ((-((1 : Nat) : ℝ)) / ((3 : Nat) : ℝ))) * c.SW) * c.SW) - ((1 : Nat) : ℝ))) (r12 : N.r 12 = ((((-((2 : Nat) : ℝ)) * ((-((1 : Nat) : ℝ)) / ((3 : Nat) : ℝ))) * c.SW) * c.SW)) (d0 : ((msq (plus (p 1) (p 0)) - c.mass .d ^ 2 : ℝ) : ℂ) = N.c 0) (n0 : N.c 0 ≠ 0) (d1 : ((msq (plus (p 1) (backward (p 2))) - c.mass .d ^ 2 : ℝ) : ℂ) = N.c 1) (n1 : N.c 1 ≠ 0) {z0 z1 z2 z3 : Pair} (b1 : Bold (p 1) (c.mass .d) z1) (b2 : Bold (p 2) c.MZ z2) (b3 : Bold (p 3) (c.mass .d) z3) (l0 : Light (p 0) z0) (e01 : mb z0.2 (p 1) z0.1 = N.c 0) (e03 : mb z0.2 (p 3) z0.1 = -N.c 1) (q1 : msq (p 1) = (c.mass .d) ^ 2) (q2 : msq (p 2) = c.MZ ^ 2) (q3 : msq (p 3) = (c.mass .d) ^ 2) (ρ0 : V2) :
    gdZd.formM N p z0 z1 z2 z2 z3 * sb ρ0 z0.2 = ((√2 : ℝ) * ((1 : ℂ) * ((√2 / c.MZ : ℝ) : ℂ))) * gdZd.react.bare c p 3 1 0 2 z3 z1 (pv z0.1 ρ0) (pv z2.1 z2.2) := by
  rw [gdZd.react.bare_parts c p (i := 3) (j := 1) (a := 0) (b := 2) (x := .gluon) (y := .z) (k := (p 0)) (k' := (backward (p 2))) (fun _ => rfl) (fun _ => rfl) (f := .d) (g := .d) rfl rfl (l := (p 1)) rfl (e := 1) (e' := 1) (if_neg Bool.false_ne_true) (if_neg Bool.false_ne_true)]
  rw [compton_vv (f := .d) (x := .d) (g := .d) (h := (rfl : Spec.after .gluon Flavour.d = some Flavour.d)) (h' := (rfl : Spec.after .z Flavour.d = some Flavour.d)) (ha := by simp) (hb := by simp)]
  rw [compton_vv (f := .d) (x := .d) (g := .d) (h := (rfl : Spec.after .z Flavour.d = some Flavour.d)) (h' := (rfl : Spec.after .gluon Flavour.d = some Flavour.d)) (ha := by simp) (hb := by simp)]
  rw [annihilation_none c _ _ (by rfl) (by simp), star_zero, add_zero, gdZd.formM]
  simp only [d0, d1, lineV_pv, lineV_four, contract_four_pv, contract_pv, mb_plus, mb_backward]
  have i0 := mb_schouten_left z0.2 z1.2 z2.2 (p 1) z0.1
  have i1 := mb_schouten_right ρ0 (p 1) z0.1 z1.1 z2.1
  have i2 := mb_schouten_left z0.2 z1.2 ρ0 (p 1) z0.1
  have i3 := mb_schouten_left z0.2 z2.2 ρ0 (p 1) z0.1
  have i4 := mb_schouten_left z0.2 z1.2 z2.2 (p 2) z0.1
  have i5 := mb_schouten_right z0.2 (p 2) z0.1 z1.1 z3.1
  have i6 := mb_schouten_right z0.2 (p 1) z0.1 z1.1 z3.1
  have i7 := ab_schouten z1.1 z2.1 z3.1 z0.1
  have i8 := mb_schouten_left z0.2 z1.2 ρ0 (p 2) z0.1
  have i9 := mb_schouten_right z2.2 (p 1) z0.1 z2.1 z3.1
  have i10 := mb_schouten_right ρ0 (p 2) z0.1 z2.1 z3.1
  have i11 := mb_schouten_right ρ0 (p 1) z0.1 z2.1 z3.1
  have i12 := mb_schouten_right z1.2 (p 2) z0.1 z2.1 z3.1
  have i13 := sb_schouten z1.2 z3.2 ρ0 z0.2
  have i14 := sb_schouten z2.2 z3.2 ρ0 z0.2
  have i15 := sb_schouten z1.2 z2.2 z3.2 z0.2
  have i16 := sb_schouten z2.2 z3.2 ρ0 z1.2
  have i17 := mb_schouten_left z0.2 z2.2 z3.2 (p 2) z0.1
  have i18 := mb_schouten_left z0.2 z2.2 z3.2 (p 1) z0.1
  have i19 := mb_schouten_right z3.2 (p 1) z0.1 z1.1 z2.1
  have i20 := mb_schouten_left z0.2 z1.2 z3.2 (p 1) z0.1
  have i21 := mb_schouten_right z2.2 (p 1) z0.1 z1.1 z2.1
  have i22 := mb_schouten_right z0.2 (p 2) z0.1 z1.1 z2.1
  have i23 := sb_schouten z1.2 z2.2 ρ0 z0.2
  have i24 := mb_schouten_left z0.2 z3.2 ρ0 (p 1) z0.1
  have i25 := mb_schouten_left z0.2 z1.2 z3.2 (p 2) z0.1
  have i26 := mb_schouten_right z2.2 (p 1) z0.1 z1.1 z3.1
  simp only [l0.mb_eq, b1.mb_left, b1.mb_right, b2.mb_left, b2.mb_right, b3.mb_left, b3.mb_right, e01, e03, mb_two hb z0.2 z0.1, mb_three hb z0.2 z1.1, mb_three hb z0.2 z2.1, mb_two hb z0.2 z3.1, mb_three hb z1.2 z0.1, mb_three hb z1.2 z1.1, mb_three hb z1.2 z2.1, mb_two hb z1.2 z3.1, mb_three hb z2.2 z0.1, mb_three hb z2.2 z1.1, mb_three hb z2.2 z2.1, mb_one hb z2.2 z3.1, mb_two hb z3.2 z0.1, mb_two hb z3.2 z1.1, mb_one hb z3.2 z2.1, mb_two hb z3.2 z3.1, mb_three hb ρ0 z0.1, mb_three hb ρ0 z1.1, mb_three hb ρ0 z2.1, mb_two hb ρ0 z3.1, ab_self, sb_self] at i0 i1 i2 i3 i4 i5 i6 i7 i8 i9 i10 i11 i12 i13 i14 i15 i16 i17 i18 i19 i20 i21 i22 i23 i24 i25 i26 ⊢
  simp only [ab_swap z0.1 z1.1, ab_swap z0.1 z2.1, ab_swap z0.1 z3.1, ab_swap z1.1 z2.1, ab_swap z1.1 z3.1, ab_swap z2.1 z3.1, sb_swap z0.2 z1.2, sb_swap z0.2 z2.2, sb_swap z0.2 z3.2, sb_swap z0.2 ρ0, sb_swap z1.2 z2.2, sb_swap z1.2 z3.2, sb_swap z1.2 ρ0, sb_swap z2.2 z3.2, sb_swap z2.2 ρ0, sb_swap z3.2 ρ0] at i0 i1 i2 i3 i4 i5 i6 i7 i8 i9 i10 i11 i12 i13 i14 i15 i16 i17 i18 i19 i20 i21 i22 i23 i24 i25 i26 ⊢
  simp only [r3, r7, r9, r11, r12, Constants.hL, Constants.hR, Constants.gL, Constants.gR, Constants.yuk, Constants.invVev, Flavour.charge_d, Flavour.isospin_d, ← c.mz]
  have xMW : (c.MW : ℂ) ≠ 0 := by exact_mod_cast hc.MW
  have xSW : (c.SW : ℂ) ≠ 0 := by exact_mod_cast hc.SW
  have xCW : (c.CW : ℂ) ≠ 0 := by exact_mod_cast hc.CW
  have x2 : ((√2 : ℝ) : ℂ) ≠ 0 := by exact_mod_cast (Real.sqrt_pos.2 two_pos).ne'
  have x22 : ((√2 : ℝ) : ℂ) ^ 2 = 2 := by rw [← Complex.ofReal_pow, Real.sq_sqrt two_pos.le]; norm_num
  have x23 : ((√2 : ℝ) : ℂ) ^ 3 = 2 * ((√2 : ℝ) : ℂ) := by rw [← x22]; ring
  have x24 : ((√2 : ℝ) : ℂ) ^ 4 = 4 := by linear_combination (((√2 : ℝ) : ℂ) ^ 2 + 2) * x22
  try simp only [← c.mz] at i0 i1 i2 i3 i4 i5 i6 i7 i8 i9 i10 i11 i12 i13 i14 i15 i16 i17 i18 i19 i20 i21 i22 i23 i24 i25 i26
  push_cast at i0 i1 i2 i3 i4 i5 i6 i7 i8 i9 i10 i11 i12 i13 i14 i15 i16 i17 i18 i19 i20 i21 i22 i23 i24 i25 i26 ⊢
  simp only [div_eq_mul_inv, mul_inv, inv_inv] at i0 i1 i2 i3 i4 i5 i6 i7 i8 i9 i10 i11 i12 i13 i14 i15 i16 i17 i18 i19 i20 i21 i22 i23 i24 i25 i26 ⊢
  have y0 := mul_inv_cancel₀ n0
  have y1 := mul_inv_cancel₀ n1
  have yCW := mul_inv_cancel₀ xCW
  have yMW := mul_inv_cancel₀ xMW
  have ySW := mul_inv_cancel₀ xSW
  linear_combination ((((2) * ((c.MW : ℂ)) * ((c.SW : ℂ)) ^ 2 * ((c.e : ℂ)) * ((c.gs : ℂ)) * ((c.CW : ℂ)⁻¹) * (ab z0.1 z3.1) * (sb z2.2 ρ0) + (4) * ((c.SW : ℂ)) ^ 2 * ((c.e : ℂ)) * ((c.gs : ℂ)) * ((c.mass .d : ℂ)) * (ab z0.1 z2.1) * (sb z3.2 ρ0) + (-2) * ((c.SW : ℂ)) ^ 2 * ((c.e : ℂ)) * ((c.gs : ℂ)) * (ab z0.1 z3.1) * (mb ρ0 (p 1) z2.1) + (-6) * ((c.e : ℂ)) * ((c.gs : ℂ)) * ((c.mass .d : ℂ)) * (ab z0.1 z2.1) * (sb z3.2 ρ0)) * i0 + ((2) * ((c.MW : ℂ)) * ((c.SW : ℂ)) ^ 2 * ((c.e : ℂ)) * ((c.gs : ℂ)) * ((c.CW : ℂ)⁻¹) * (ab z0.1 z2.1) * (sb z0.2 z3.2) + (-3) * ((c.MW : ℂ)) * ((c.e : ℂ)) * ((c.gs : ℂ)) * ((c.CW : ℂ)⁻¹) * (ab z0.1 z2.1) * (sb z0.2 z3.2) + (4) * ((c.SW : ℂ)) ^ 2 * ((c.e : ℂ)) * ((c.gs : ℂ)) * ((c.mass .d : ℂ)) * (ab z0.1 z3.1) * (sb z0.2 z2.2) + (2) * ((c.SW : ℂ)) ^ 2 * ((c.e : ℂ)) * ((c.gs : ℂ)) * (mb z2.2 (p 1) z0.1) * (sb z0.2 z3.2) + (-3) * ((c.e : ℂ)) * ((c.gs : ℂ)) * ((c.mass .d : ℂ)) * (ab z0.1 z3.1) * (sb z0.2 z2.2) + (-3) * ((c.e : ℂ)) * ((c.gs : ℂ)) * (mb z2.2 (p 1) z0.1) * (sb z0.2 z3.2)) * i1 + ((-2) * ((c.MW : ℂ)) * ((c.SW : ℂ)) ^ 2 * ((c.e : ℂ)) * ((c.gs : ℂ)) * ((c.CW : ℂ)⁻¹) * (ab z0.1 z2.1) * (ab z2.1 z3.1) + (4) * ((c.SW : ℂ)) ^ 2 * ((c.e : ℂ)) * ((c.gs : ℂ)) * ((c.mass .d : ℂ)) * (ab z0.1 z2.1) * (sb z2.2 z3.2) + (-2) * ((c.SW : ℂ)) ^ 2 * ((c.e : ℂ)) * ((c.gs : ℂ)) * (ab z0.1 z2.1) * (ab z0.1 z3.1) * (sb z0.2 z2.2) + (2) * ((c.SW : ℂ)) ^ 2 * ((c.e : ℂ)) * ((c.gs : ℂ)) * (ab z0.1 z3.1) * (mb z2.2 (p 1) z2.1) + (-3) * ((c.e : ℂ)) * ((c.gs : ℂ)) * ((c.mass .d : ℂ)) * (ab z0.1 z2.1) * (sb z2.2 z3.2)) * i2 + ((4) * ((c.SW : ℂ)) ^ 2 * ((c.e : ℂ)) * ((c.gs : ℂ)) * ((c.mass .d : ℂ)) * (ab z0.1 z1.1) * (ab z2.1 z3.1) + (-4) * ((c.SW : ℂ)) ^ 2 * ((c.e : ℂ)) * ((c.gs : ℂ)) * ((c.mass .d : ℂ)) * (ab z0.1 z2.1) * (ab z1.1 z3.1) + (-2) * ((c.SW : ℂ)) ^ 2 * ((c.e : ℂ)) * ((c.gs : ℂ)) * ((c.mass .d : ℂ)) * (ab z0.1 z2.1) * (sb z1.2 z3.2) + (-3) * ((c.e : ℂ)) * ((c.gs : ℂ)) * ((c.mass .d : ℂ)) * (ab z0.1 z1.1) * (ab z2.1 z3.1) + (3) * ((c.e : ℂ)) * ((c.gs : ℂ)) * ((c.mass .d : ℂ)) * (ab z0.1 z2.1) * (ab z1.1 z3.1) + (3) * ((c.e : ℂ)) * ((c.gs : ℂ)) * ((c.mass .d : ℂ)) * (ab z0.1 z2.1) * (sb z1.2 z3.2)) * i3 + ((-2) * ((c.SW : ℂ)) ^ 2 * ((c.e : ℂ)) * ((c.gs : ℂ)) * ((c.mass .d : ℂ)) * (ab z0.1 z2.1) * (sb z3.2 ρ0) + (3) * ((c.e : ℂ)) * ((c.gs : ℂ)) * ((c.mass .d : ℂ)) * (ab z0.1 z2.1) * (sb z3.2 ρ0)) * i4 + ((-2) * ((c.SW : ℂ)) ^ 2 * ((c.e : ℂ)) * ((c.gs : ℂ)) * ((c.mass .d : ℂ)) * (ab z0.1 z2.1) * (sb z2.2 ρ0)) * i5 + ((2) * ((c.SW : ℂ)) ^ 2 * ((c.e : ℂ)) * ((c.gs : ℂ)) * ((c.mass .d : ℂ)) * (ab z0.1 z2.1) * (sb z2.2 ρ0)) * i6 + ((-4) * ((c.SW : ℂ)) ^ 2 * ((c.e : ℂ)) * ((c.gs : ℂ)) * ((c.mass .d : ℂ)) * (N.c 0) * (sb z2.2 ρ0) + (-2) * ((c.SW : ℂ)) ^ 2 * ((c.e : ℂ)) * ((c.gs : ℂ)) * ((c.mass .d : ℂ)) * (N.c 1) * (sb z2.2 ρ0) + (2) * ((c.SW : ℂ)) ^ 2 * ((c.e : ℂ)) * ((c.gs : ℂ)) * ((c.mass .d : ℂ)) * (mb z2.2 (p 1) z0.1) * (sb z0.2 ρ0) + (-4) * ((c.SW : ℂ)) ^ 2 * ((c.e : ℂ)) * ((c.gs : ℂ)) * ((c.mass .d : ℂ)) * (mb ρ0 (p 1) z0.1) * (sb z0.2 z2.2) + (3) * ((c.e : ℂ)) * ((c.gs : ℂ)) * ((c.mass .d : ℂ)) * (N.c 0) * (sb z2.2 ρ0) + (3) * ((c.e : ℂ)) * ((c.gs : ℂ)) * ((c.mass .d : ℂ)) * (mb ρ0 (p 1) z0.1) * (sb z0.2 z2.2)) * i7 + ((2) * ((c.MW : ℂ)) * ((c.SW : ℂ)) ^ 2 * ((c.e : ℂ)) * ((c.gs : ℂ)) * ((c.CW : ℂ)⁻¹) * (ab z0.1 z2.1) * (ab z2.1 z3.1) + (-2) * ((c.SW : ℂ)) ^ 2 * ((c.e : ℂ)) * ((c.gs : ℂ)) * ((c.mass .d : ℂ)) * (ab z0.1 z2.1) * (sb z2.2 z3.2) + (2) * ((c.SW : ℂ)) ^ 2 * ((c.e : ℂ)) * ((c.gs : ℂ)) * (ab z0.1 z2.1) * (ab z0.1 z3.1) * (sb z0.2 z2.2) + (-2) * ((c.SW : ℂ)) ^ 2 * ((c.e : ℂ)) * ((c.gs : ℂ)) * (ab z0.1 z3.1) * (mb z2.2 (p 1) z2.1)) * i8 + ((-2) * ((c.SW : ℂ)) ^ 2 * ((c.e : ℂ)) * ((c.gs : ℂ)) * (N.c 1) * (sb z1.2 ρ0) + (2) * ((c.SW : ℂ)) ^ 2 * ((c.e : ℂ)) * ((c.gs : ℂ)) * (mb z1.2 (p 2) z0.1) * (sb z0.2 ρ0) + (2) * ((c.SW : ℂ)) ^ 2 * ((c.e : ℂ)) * ((c.gs : ℂ)) * (mb ρ0 (p 1) z0.1) * (sb z0.2 z1.2) + (-2) * ((c.SW : ℂ)) ^ 2 * ((c.e : ℂ)) * ((c.gs : ℂ)) * (mb ρ0 (p 2) z0.1) * (sb z0.2 z1.2)) * i9 + ((2) * ((c.SW : ℂ)) ^ 2 * ((c.e : ℂ)) * ((c.gs : ℂ)) * (mb z2.2 (p 1) z0.1) * (sb z0.2 z1.2)) * i10 + ((-2) * ((c.SW : ℂ)) ^ 2 * ((c.e : ℂ)) * ((c.gs : ℂ)) * (mb z2.2 (p 1) z0.1) * (sb z0.2 z1.2)) * i11 + ((-2) * ((c.SW : ℂ)) ^ 2 * ((c.e : ℂ)) * ((c.gs : ℂ)) * (mb z2.2 (p 1) z0.1) * (sb z0.2 ρ0)) * i12 + ((-2) * ((c.MW : ℂ)) * ((c.SW : ℂ)) ^ 2 * ((c.e : ℂ)) * ((c.gs : ℂ)) * ((c.CW : ℂ)⁻¹) * ((c.mass .d : ℂ)) * (ab z0.1 z2.1) ^ 2 + (3) * ((c.MW : ℂ)) * ((c.e : ℂ)) * ((c.gs : ℂ)) * ((c.CW : ℂ)⁻¹) * ((c.mass .d : ℂ)) * (ab z0.1 z2.1) ^ 2 + (-2) * ((c.SW : ℂ)) ^ 2 * ((c.e : ℂ)) * ((c.gs : ℂ)) * ((c.mass .d : ℂ)) * (ab z0.1 z2.1) * (mb z2.2 (p 1) z0.1) + (6) * ((c.e : ℂ)) * ((c.gs : ℂ)) * ((c.mass .d : ℂ)) * (ab z0.1 z2.1) * (mb z2.2 (p 1) z0.1)) * i13 + ((-2) * ((c.SW : ℂ)) ^ 2 * ((c.e : ℂ)) * ((c.gs : ℂ)) * ((c.mass .d : ℂ)) * (ab z0.1 z2.1) * (mb z1.2 (p 2) z0.1) + (-4) * ((c.SW : ℂ)) ^ 2 * ((c.e : ℂ)) * ((c.gs : ℂ)) * ((c.mass .d : ℂ)) ^ 2 * (ab z0.1 z1.1) * (ab z0.1 z2.1) + (3) * ((c.e : ℂ)) * ((c.gs : ℂ)) * ((c.mass .d : ℂ)) * (ab z0.1 z2.1) * (mb z1.2 (p 2) z0.1) + (6) * ((c.e : ℂ)) * ((c.gs : ℂ)) * ((c.mass .d : ℂ)) ^ 2 * (ab z0.1 z1.1) * (ab z0.1 z2.1)) * i14 + ((-2) * ((c.SW : ℂ)) ^ 2 * ((c.e : ℂ)) * ((c.gs : ℂ)) * ((c.mass .d : ℂ)) * (ab z0.1 z2.1) * (mb ρ0 (p 1) z0.1) + (3) * ((c.e : ℂ)) * ((c.gs : ℂ)) * ((c.mass .d : ℂ)) * (ab z0.1 z2.1) * (mb ρ0 (p 1) z0.1)) * i15 + ((-2) * ((c.SW : ℂ)) ^ 2 * ((c.e : ℂ)) * ((c.gs : ℂ)) * ((c.mass .d : ℂ)) * (N.c 0) * (ab z0.1 z2.1) + (2) * ((c.SW : ℂ)) ^ 2 * ((c.e : ℂ)) * ((c.gs : ℂ)) * ((c.mass .d : ℂ)) * (N.c 1) * (ab z0.1 z2.1) + (6) * ((c.e : ℂ)) * ((c.gs : ℂ)) * ((c.mass .d : ℂ)) * (N.c 0) * (ab z0.1 z2.1) + (-3) * ((c.e : ℂ)) * ((c.gs : ℂ)) * ((c.mass .d : ℂ)) * (N.c 1) * (ab z0.1 z2.1)) * i16 + ((2) * ((c.SW : ℂ)) ^ 2 * ((c.e : ℂ)) * ((c.gs : ℂ)) * (ab z0.1 z1.1) * (ab z0.1 z2.1) * (sb z0.2 ρ0) + (-2) * ((c.SW : ℂ)) ^ 2 * ((c.e : ℂ)) * ((c.gs : ℂ)) * (ab z0.1 z1.1) * (mb ρ0 (p 1) z2.1) + (-3) * ((c.e : ℂ)) * ((c.gs : ℂ)) * (ab z0.1 z1.1) * (ab z0.1 z2.1) * (sb z0.2 ρ0) + (3) * ((c.e : ℂ)) * ((c.gs : ℂ)) * (ab z0.1 z1.1) * (mb ρ0 (p 1) z2.1)) * i17 + ((-2) * ((c.SW : ℂ)) ^ 2 * ((c.e : ℂ)) * ((c.gs : ℂ)) * (ab z0.1 z1.1) * (ab z0.1 z2.1) * (sb z0.2 ρ0) + (2) * ((c.SW : ℂ)) ^ 2 * ((c.e : ℂ)) * ((c.gs : ℂ)) * (ab z0.1 z1.1) * (mb ρ0 (p 1) z2.1) + (-3) * ((c.e : ℂ)) * ((c.gs : ℂ)) * ((c.mass .d : ℂ)) * (ab z0.1 z2.1) * (sb z1.2 ρ0) + (3) * ((c.e : ℂ)) * ((c.gs : ℂ)) * (ab z0.1 z1.1) * (ab z0.1 z2.1) * (sb z0.2 ρ0) + (-3) * ((c.e : ℂ)) * ((c.gs : ℂ)) * (ab z0.1 z1.1) * (mb ρ0 (p 1) z2.1)) * i18 + ((-2) * ((c.MW : ℂ)) * ((c.SW : ℂ)) ^ 2 * ((c.e : ℂ)) * ((c.gs : ℂ)) * ((c.CW : ℂ)⁻¹) * (ab z0.1 z2.1) * (sb z0.2 ρ0) + (3) * ((c.MW : ℂ)) * ((c.e : ℂ)) * ((c.gs : ℂ)) * ((c.CW : ℂ)⁻¹) * (ab z0.1 z2.1) * (sb z0.2 ρ0) + (-2) * ((c.SW : ℂ)) ^ 2 * ((c.e : ℂ)) * ((c.gs : ℂ)) * (mb z2.2 (p 1) z0.1) * (sb z0.2 ρ0) + (3) * ((c.e : ℂ)) * ((c.gs : ℂ)) * (mb z2.2 (p 1) z0.1) * (sb z0.2 ρ0)) * i19 + ((-2) * ((c.SW : ℂ)) ^ 2 * ((c.e : ℂ)) * ((c.gs : ℂ)) * ((c.mass .d : ℂ)) * (ab z0.1 z2.1) * (sb z2.2 ρ0) + (6) * ((c.e : ℂ)) * ((c.gs : ℂ)) * ((c.mass .d : ℂ)) * (ab z0.1 z2.1) * (sb z2.2 ρ0)) * i20 + ((-2) * ((c.SW : ℂ)) ^ 2 * ((c.e : ℂ)) * ((c.gs : ℂ)) * ((c.mass .d : ℂ)) * (ab z0.1 z3.1) * (sb z0.2 ρ0) + (-2) * ((c.SW : ℂ)) ^ 2 * ((c.e : ℂ)) * ((c.gs : ℂ)) * (N.c 0) * (sb z3.2 ρ0) + (2) * ((c.SW : ℂ)) ^ 2 * ((c.e : ℂ)) * ((c.gs : ℂ)) * (mb z3.2 (p 1) z0.1) * (sb z0.2 ρ0) + (-2) * ((c.SW : ℂ)) ^ 2 * ((c.e : ℂ)) * ((c.gs : ℂ)) * (mb ρ0 (p 1) z0.1) * (sb z0.2 z3.2) + (3) * ((c.e : ℂ)) * ((c.gs : ℂ)) * (N.c 0) * (sb z3.2 ρ0) + (-3) * ((c.e : ℂ)) * ((c.gs : ℂ)) * (mb z3.2 (p 1) z0.1) * (sb z0.2 ρ0) + (3) * ((c.e : ℂ)) * ((c.gs : ℂ)) * (mb ρ0 (p 1) z0.1) * (sb z0.2 z3.2)) * i21 + ((2) * ((c.SW : ℂ)) ^ 2 * ((c.e : ℂ)) * ((c.gs : ℂ)) * ((c.mass .d : ℂ)) * (ab z0.1 z3.1) * (sb z2.2 ρ0)) * i22 + ((-4) * ((c.SW : ℂ)) ^ 2 * ((c.e : ℂ)) * ((c.gs : ℂ)) * ((c.mass .d : ℂ)) ^ 2 * (ab z0.1 z2.1) * (ab z0.1 z3.1) + (-3) * ((c.e : ℂ)) * ((c.gs : ℂ)) * ((c.mass .d : ℂ)) * (ab z0.1 z2.1) * (mb z3.2 (p 1) z0.1) + (3) * ((c.e : ℂ)) * ((c.gs : ℂ)) * ((c.mass .d : ℂ)) ^ 2 * (ab z0.1 z2.1) * (ab z0.1 z3.1)) * i23 + ((-2) * ((c.MW : ℂ)) * ((c.SW : ℂ)) ^ 2 * ((c.e : ℂ)) * ((c.gs : ℂ)) * ((c.CW : ℂ)⁻¹) * (ab z0.1 z2.1) * (ab z1.1 z2.1) + (3) * ((c.MW : ℂ)) * ((c.e : ℂ)) * ((c.gs : ℂ)) * ((c.CW : ℂ)⁻¹) * (ab z0.1 z2.1) * (ab z1.1 z2.1) + (2) * ((c.SW : ℂ)) ^ 2 * ((c.e : ℂ)) * ((c.gs : ℂ)) * (ab z0.1 z1.1) * (mb z2.2 (p 1) z2.1) + (-3) * ((c.e : ℂ)) * ((c.gs : ℂ)) * (ab z0.1 z1.1) * (mb z2.2 (p 1) z2.1)) * i24 + ((2) * ((c.SW : ℂ)) ^ 2 * ((c.e : ℂ)) * ((c.gs : ℂ)) * ((c.mass .d : ℂ)) * (ab z0.1 z2.1) * (sb z2.2 ρ0) + (-3) * ((c.e : ℂ)) * ((c.gs : ℂ)) * ((c.mass .d : ℂ)) * (ab z0.1 z2.1) * (sb z2.2 ρ0)) * i25 + ((3) * ((c.e : ℂ)) * ((c.gs : ℂ)) * ((c.mass .d : ℂ)) * (ab z0.1 z2.1) * (sb z0.2 ρ0)) * i26)) * ((1) * ((c.CW : ℂ)) * ((c.CW : ℂ)⁻¹) * ((c.MW : ℂ)⁻¹) * ((c.SW : ℂ)⁻¹) * ((N.c 0)⁻¹) * ((N.c 1)⁻¹) / (3)) + ((2) * ((c.CW : ℂ)) * ((c.MW : ℂ)) * ((c.SW : ℂ)) ^ 2 * ((c.e : ℂ)) * ((c.gs : ℂ)) * ((c.CW : ℂ)⁻¹) ^ 2 * ((c.MW : ℂ)⁻¹) * ((c.SW : ℂ)⁻¹) * ((N.c 1)⁻¹) * (ab z0.1 z2.1) * (ab z1.1 z2.1) * (sb z3.2 ρ0) / (3) + (-2) * ((c.CW : ℂ)) * ((c.MW : ℂ)) * ((c.SW : ℂ)) ^ 2 * ((c.e : ℂ)) * ((c.gs : ℂ)) * ((c.CW : ℂ)⁻¹) ^ 2 * ((c.MW : ℂ)⁻¹) * ((c.SW : ℂ)⁻¹) * ((N.c 1)⁻¹) * (ab z0.1 z3.1) * (sb z1.2 z2.2) * (sb z2.2 ρ0) / (3) + (-1) * ((c.CW : ℂ)) * ((c.MW : ℂ)) * ((c.e : ℂ)) * ((c.gs : ℂ)) * ((c.CW : ℂ)⁻¹) ^ 2 * ((c.MW : ℂ)⁻¹) * ((c.SW : ℂ)⁻¹) * ((N.c 1)⁻¹) * (ab z0.1 z2.1) * (ab z1.1 z2.1) * (sb z3.2 ρ0) + (-2) * ((c.CW : ℂ)) * ((c.SW : ℂ)) ^ 2 * ((c.e : ℂ)) * ((c.gs : ℂ)) * ((c.CW : ℂ)⁻¹) * ((c.MW : ℂ)⁻¹) * ((c.SW : ℂ)⁻¹) * ((c.mass .d : ℂ)) * ((N.c 1)⁻¹) * (ab z0.1 z2.1) * (sb z1.2 z2.2) * (sb z3.2 ρ0) / (3) + (2) * ((c.CW : ℂ)) * ((c.SW : ℂ)) ^ 2 * ((c.e : ℂ)) * ((c.gs : ℂ)) * ((c.CW : ℂ)⁻¹) * ((c.MW : ℂ)⁻¹) * ((c.SW : ℂ)⁻¹) * ((c.mass .d : ℂ)) * ((N.c 1)⁻¹) * (ab z0.1 z3.1) * (ab z1.1 z2.1) * (sb z2.2 ρ0) / (3) + (2) * ((c.CW : ℂ)) * ((c.SW : ℂ)) ^ 2 * ((c.e : ℂ)) * ((c.gs : ℂ)) * ((c.CW : ℂ)⁻¹) * ((c.MW : ℂ)⁻¹) * ((c.SW : ℂ)⁻¹) * ((N.c 1)⁻¹) * (ab z0.1 z3.1) * (mb ρ0 (p 1) z2.1) * (sb z1.2 z2.2) / (3) + (2) * ((c.CW : ℂ)) * ((c.SW : ℂ)) ^ 2 * ((c.e : ℂ)) * ((c.gs : ℂ)) * ((c.CW : ℂ)⁻¹) * ((c.MW : ℂ)⁻¹) * ((c.SW : ℂ)⁻¹) * ((N.c 1)⁻¹) * (ab z1.1 z2.1) * (mb z2.2 (p 1) z0.1) * (sb z3.2 ρ0) / (3) + (-1) * ((c.CW : ℂ)) * ((c.e : ℂ)) * ((c.gs : ℂ)) * ((c.CW : ℂ)⁻¹) * ((c.MW : ℂ)⁻¹) * ((c.SW : ℂ)⁻¹) * ((c.mass .d : ℂ)) * ((N.c 1)⁻¹) * (ab z0.1 z3.1) * (ab z1.1 z2.1) * (sb z2.2 ρ0) + (-1) * ((c.CW : ℂ)) * ((c.e : ℂ)) * ((c.gs : ℂ)) * ((c.CW : ℂ)⁻¹) * ((c.MW : ℂ)⁻¹) * ((c.SW : ℂ)⁻¹) * ((N.c 1)⁻¹) * (ab z1.1 z2.1) * (mb z2.2 (p 1) z0.1) * (sb z3.2 ρ0)) * y0 + ((2) * ((c.CW : ℂ)) * ((c.SW : ℂ)) ^ 2 * ((c.e : ℂ)) * ((c.gs : ℂ)) * ((c.CW : ℂ)⁻¹) * ((c.MW : ℂ)⁻¹) * ((c.SW : ℂ)⁻¹) * ((c.mass .d : ℂ)) * ((N.c 0)⁻¹) * (ab z0.1 z1.1) * (ab z2.1 z3.1) * (sb z2.2 ρ0) / (3) + (-2) * ((c.CW : ℂ)) * ((c.SW : ℂ)) ^ 2 * ((c.e : ℂ)) * ((c.gs : ℂ)) * ((c.CW : ℂ)⁻¹) * ((c.MW : ℂ)⁻¹) * ((c.SW : ℂ)⁻¹) * ((c.mass .d : ℂ)) * ((N.c 0)⁻¹) * (ab z0.1 z2.1) * (sb z1.2 ρ0) * (sb z2.2 z3.2) / (3) + (-2) * ((c.CW : ℂ)) * ((c.SW : ℂ)) ^ 2 * ((c.e : ℂ)) * ((c.gs : ℂ)) * ((c.CW : ℂ)⁻¹) * ((c.MW : ℂ)⁻¹) * ((c.SW : ℂ)⁻¹) * ((N.c 0)⁻¹) * (ab z0.1 z1.1) * (ab z0.1 z2.1) * (sb z0.2 ρ0) * (sb z2.2 z3.2) / (3) + (2) * ((c.CW : ℂ)) * ((c.SW : ℂ)) ^ 2 * ((c.e : ℂ)) * ((c.gs : ℂ)) * ((c.CW : ℂ)⁻¹) * ((c.MW : ℂ)⁻¹) * ((c.SW : ℂ)⁻¹) * ((N.c 0)⁻¹) * (ab z0.1 z1.1) * (mb ρ0 (p 1) z2.1) * (sb z2.2 z3.2) / (3) + (2) * ((c.CW : ℂ)) * ((c.SW : ℂ)) ^ 2 * ((c.e : ℂ)) * ((c.gs : ℂ)) * ((c.CW : ℂ)⁻¹) * ((c.MW : ℂ)⁻¹) * ((c.SW : ℂ)⁻¹) * ((N.c 0)⁻¹) * (ab z2.1 z3.1) * (mb z2.2 (p 1) z0.1) * (sb z1.2 ρ0) / (3) + (1) * ((c.CW : ℂ)) * ((c.e : ℂ)) * ((c.gs : ℂ)) * ((c.CW : ℂ)⁻¹) * ((c.MW : ℂ)⁻¹) * ((c.SW : ℂ)⁻¹) * ((c.mass .d : ℂ)) * ((N.c 0)⁻¹) * (ab z0.1 z2.1) * (sb z1.2 ρ0) * (sb z2.2 z3.2) + (1) * ((c.CW : ℂ)) * ((c.e : ℂ)) * ((c.gs : ℂ)) * ((c.CW : ℂ)⁻¹) * ((c.MW : ℂ)⁻¹) * ((c.SW : ℂ)⁻¹) * ((N.c 0)⁻¹) * (ab z0.1 z1.1) * (ab z0.1 z2.1) * (sb z0.2 ρ0) * (sb z2.2 z3.2) + (-1) * ((c.CW : ℂ)) * ((c.e : ℂ)) * ((c.gs : ℂ)) * ((c.CW : ℂ)⁻¹) * ((c.MW : ℂ)⁻¹) * ((c.SW : ℂ)⁻¹) * ((N.c 0)⁻¹) * (ab z0.1 z1.1) * (mb ρ0 (p 1) z2.1) * (sb z2.2 z3.2)) * y1 + ((-1) * ((c.MW : ℂ)) * (((√2 : ℝ) : ℂ)) ^ 2 * ((c.SW : ℂ)) ^ 2 * ((c.e : ℂ)) * ((c.gs : ℂ)) * ((c.CW : ℂ)⁻¹) * ((c.MW : ℂ)⁻¹) * ((c.SW : ℂ)⁻¹) * ((N.c 1)⁻¹) * (ab z0.1 z2.1) * (ab z1.1 z2.1) * (sb z3.2 ρ0) / (3) + (1) * ((c.MW : ℂ)) * (((√2 : ℝ) : ℂ)) ^ 2 * ((c.SW : ℂ)) ^ 2 * ((c.e : ℂ)) * ((c.gs : ℂ)) * ((c.CW : ℂ)⁻¹) * ((c.MW : ℂ)⁻¹) * ((c.SW : ℂ)⁻¹) * ((N.c 1)⁻¹) * (ab z0.1 z3.1) * (sb z1.2 z2.2) * (sb z2.2 ρ0) / (3) + (1) * ((c.MW : ℂ)) * (((√2 : ℝ) : ℂ)) ^ 2 * ((c.e : ℂ)) * ((c.gs : ℂ)) * ((c.CW : ℂ)⁻¹) * ((c.MW : ℂ)⁻¹) * ((c.SW : ℂ)⁻¹) * ((N.c 1)⁻¹) * (ab z0.1 z2.1) * (ab z1.1 z2.1) * (sb z3.2 ρ0) / (2) + (2) * ((c.MW : ℂ)) * ((c.SW : ℂ)) ^ 2 * ((c.e : ℂ)) * ((c.gs : ℂ)) * ((c.CW : ℂ)⁻¹) * ((c.MW : ℂ)⁻¹) * ((c.SW : ℂ)⁻¹) * ((N.c 0)⁻¹) * ((N.c 1)⁻¹) * (ab z0.1 z1.1) * (mb z2.2 (p 1) z0.1) * (sb z0.2 ρ0) * (sb z2.2 z3.2) / (3) + (2) * ((c.MW : ℂ)) * ((c.SW : ℂ)) ^ 2 * ((c.e : ℂ)) * ((c.gs : ℂ)) * ((c.CW : ℂ)⁻¹) * ((c.MW : ℂ)⁻¹) * ((c.SW : ℂ)⁻¹) * ((N.c 0)⁻¹) * ((N.c 1)⁻¹) * (ab z0.1 z3.1) * (mb z2.2 (p 1) z0.1) * (sb z0.2 ρ0) * (sb z1.2 z2.2) / (3) + (2) * ((c.MW : ℂ)) * ((c.SW : ℂ)) ^ 2 * ((c.e : ℂ)) * ((c.gs : ℂ)) * ((c.CW : ℂ)⁻¹) * ((c.MW : ℂ)⁻¹) * ((c.SW : ℂ)⁻¹) * ((N.c 1)⁻¹) * (ab z0.1 z2.1) * (ab z1.1 z2.1) * (sb z3.2 ρ0) / (3) + (-2) * ((c.MW : ℂ)) * ((c.SW : ℂ)) ^ 2 * ((c.e : ℂ)) * ((c.gs : ℂ)) * ((c.CW : ℂ)⁻¹) * ((c.MW : ℂ)⁻¹) * ((c.SW : ℂ)⁻¹) * ((N.c 1)⁻¹) * (ab z0.1 z3.1) * (sb z1.2 z2.2) * (sb z2.2 ρ0) / (3) + (-1) * ((c.MW : ℂ)) * ((c.e : ℂ)) * ((c.gs : ℂ)) * ((c.CW : ℂ)⁻¹) * ((c.MW : ℂ)⁻¹) * ((c.SW : ℂ)⁻¹) * ((N.c 0)⁻¹) * ((N.c 1)⁻¹) * (ab z0.1 z1.1) * (mb z2.2 (p 1) z0.1) * (sb z0.2 ρ0) * (sb z2.2 z3.2) + (-1) * ((c.MW : ℂ)) * ((c.e : ℂ)) * ((c.gs : ℂ)) * ((c.CW : ℂ)⁻¹) * ((c.MW : ℂ)⁻¹) * ((c.SW : ℂ)⁻¹) * ((N.c 1)⁻¹) * (ab z0.1 z2.1) * (ab z1.1 z2.1) * (sb z3.2 ρ0) + (2) * ((c.MW : ℂ)) ^ 2 * ((c.SW : ℂ)) ^ 2 * ((c.e : ℂ)) * ((c.gs : ℂ)) * ((c.CW : ℂ)⁻¹) ^ 2 * ((c.MW : ℂ)⁻¹) * ((c.SW : ℂ)⁻¹) * ((N.c 0)⁻¹) * ((N.c 1)⁻¹) * (ab z0.1 z1.1) * (ab z0.1 z2.1) * (sb z0.2 ρ0) * (sb z2.2 z3.2) / (3) + (-1) * ((c.MW : ℂ)) ^ 2 * ((c.e : ℂ)) * ((c.gs : ℂ)) * ((c.CW : ℂ)⁻¹) ^ 2 * ((c.MW : ℂ)⁻¹) * ((c.SW : ℂ)⁻¹) * ((N.c 0)⁻¹) * ((N.c 1)⁻¹) * (ab z0.1 z1.1) * (ab z0.1 z2.1) * (sb z0.2 ρ0) * (sb z2.2 z3.2) + (-1) * (((√2 : ℝ) : ℂ)) ^ 2 * ((c.SW : ℂ)) ^ 2 * ((c.e : ℂ)) * ((c.gs : ℂ)) * ((c.MW : ℂ)⁻¹) * ((c.SW : ℂ)⁻¹) * ((c.mass .d : ℂ)) * ((N.c 0)⁻¹) * (ab z0.1 z1.1) * (ab z2.1 z3.1) * (sb z2.2 ρ0) / (3) + (1) * (((√2 : ℝ) : ℂ)) ^ 2 * ((c.SW : ℂ)) ^ 2 * ((c.e : ℂ)) * ((c.gs : ℂ)) * ((c.MW : ℂ)⁻¹) * ((c.SW : ℂ)⁻¹) * ((c.mass .d : ℂ)) * ((N.c 0)⁻¹) * (ab z0.1 z2.1) * (sb z1.2 ρ0) * (sb z2.2 z3.2) / (3) + (1) * (((√2 : ℝ) : ℂ)) ^ 2 * ((c.SW : ℂ)) ^ 2 * ((c.e : ℂ)) * ((c.gs : ℂ)) * ((c.MW : ℂ)⁻¹) * ((c.SW : ℂ)⁻¹) * ((c.mass .d : ℂ)) * ((N.c 1)⁻¹) * (ab z0.1 z2.1) * (sb z1.2 z2.2) * (sb z3.2 ρ0) / (3) + (-1) * (((√2 : ℝ) : ℂ)) ^ 2 * ((c.SW : ℂ)) ^ 2 * ((c.e : ℂ)) * ((c.gs : ℂ)) * ((c.MW : ℂ)⁻¹) * ((c.SW : ℂ)⁻¹) * ((c.mass .d : ℂ)) * ((N.c 1)⁻¹) * (ab z0.1 z3.1) * (ab z1.1 z2.1) * (sb z2.2 ρ0) / (3) + (1) * (((√2 : ℝ) : ℂ)) ^ 2 * ((c.SW : ℂ)) ^ 2 * ((c.e : ℂ)) * ((c.gs : ℂ)) * ((c.MW : ℂ)⁻¹) * ((c.SW : ℂ)⁻¹) * ((N.c 0)⁻¹) * (ab z0.1 z1.1) * (ab z0.1 z2.1) * (sb z0.2 ρ0) * (sb z2.2 z3.2) / (3) + (-1) * (((√2 : ℝ) : ℂ)) ^ 2 * ((c.SW : ℂ)) ^ 2 * ((c.e : ℂ)) * ((c.gs : ℂ)) * ((c.MW : ℂ)⁻¹) * ((c.SW : ℂ)⁻¹) * ((N.c 0)⁻¹) * (ab z0.1 z1.1) * (mb ρ0 (p 1) z2.1) * (sb z2.2 z3.2) / (3) + (-1) * (((√2 : ℝ) : ℂ)) ^ 2 * ((c.SW : ℂ)) ^ 2 * ((c.e : ℂ)) * ((c.gs : ℂ)) * ((c.MW : ℂ)⁻¹) * ((c.SW : ℂ)⁻¹) * ((N.c 0)⁻¹) * (ab z2.1 z3.1) * (mb z2.2 (p 1) z0.1) * (sb z1.2 ρ0) / (3) + (-1) * (((√2 : ℝ) : ℂ)) ^ 2 * ((c.SW : ℂ)) ^ 2 * ((c.e : ℂ)) * ((c.gs : ℂ)) * ((c.MW : ℂ)⁻¹) * ((c.SW : ℂ)⁻¹) * ((N.c 1)⁻¹) * (ab z0.1 z3.1) * (mb ρ0 (p 1) z2.1) * (sb z1.2 z2.2) / (3) + (-1) * (((√2 : ℝ) : ℂ)) ^ 2 * ((c.SW : ℂ)) ^ 2 * ((c.e : ℂ)) * ((c.gs : ℂ)) * ((c.MW : ℂ)⁻¹) * ((c.SW : ℂ)⁻¹) * ((N.c 1)⁻¹) * (ab z1.1 z2.1) * (mb z2.2 (p 1) z0.1) * (sb z3.2 ρ0) / (3) + (-1) * (((√2 : ℝ) : ℂ)) ^ 2 * ((c.e : ℂ)) * ((c.gs : ℂ)) * ((c.MW : ℂ)⁻¹) * ((c.SW : ℂ)⁻¹) * ((c.mass .d : ℂ)) * ((N.c 0)⁻¹) * (ab z0.1 z2.1) * (sb z1.2 ρ0) * (sb z2.2 z3.2) / (2) + (1) * (((√2 : ℝ) : ℂ)) ^ 2 * ((c.e : ℂ)) * ((c.gs : ℂ)) * ((c.MW : ℂ)⁻¹) * ((c.SW : ℂ)⁻¹) * ((c.mass .d : ℂ)) * ((N.c 1)⁻¹) * (ab z0.1 z3.1) * (ab z1.1 z2.1) * (sb z2.2 ρ0) / (2) + (-1) * (((√2 : ℝ) : ℂ)) ^ 2 * ((c.e : ℂ)) * ((c.gs : ℂ)) * ((c.MW : ℂ)⁻¹) * ((c.SW : ℂ)⁻¹) * ((N.c 0)⁻¹) * (ab z0.1 z1.1) * (ab z0.1 z2.1) * (sb z0.2 ρ0) * (sb z2.2 z3.2) / (2) + (1) * (((√2 : ℝ) : ℂ)) ^ 2 * ((c.e : ℂ)) * ((c.gs : ℂ)) * ((c.MW : ℂ)⁻¹) * ((c.SW : ℂ)⁻¹) * ((N.c 0)⁻¹) * (ab z0.1 z1.1) * (mb ρ0 (p 1) z2.1) * (sb z2.2 z3.2) / (2) + (1) * (((√2 : ℝ) : ℂ)) ^ 2 * ((c.e : ℂ)) * ((c.gs : ℂ)) * ((c.MW : ℂ)⁻¹) * ((c.SW : ℂ)⁻¹) * ((N.c 1)⁻¹) * (ab z1.1 z2.1) * (mb z2.2 (p 1) z0.1) * (sb z3.2 ρ0) / (2) + (2) * ((c.SW : ℂ)) ^ 2 * ((c.e : ℂ)) * ((c.gs : ℂ)) * ((c.MW : ℂ)⁻¹) * ((c.SW : ℂ)⁻¹) * ((c.mass .d : ℂ)) * ((N.c 0)⁻¹) * ((N.c 1)⁻¹) * (ab z0.1 z2.1) * (mb z1.2 (p 2) z0.1) * (sb z0.2 ρ0) * (sb z2.2 z3.2) / (3) + (2) * ((c.SW : ℂ)) ^ 2 * ((c.e : ℂ)) * ((c.gs : ℂ)) * ((c.MW : ℂ)⁻¹) * ((c.SW : ℂ)⁻¹) * ((c.mass .d : ℂ)) * ((N.c 0)⁻¹) * ((N.c 1)⁻¹) * (ab z0.1 z2.1) * (mb z3.2 (p 1) z0.1) * (sb z0.2 ρ0) * (sb z1.2 z2.2) / (3) + (2) * ((c.SW : ℂ)) ^ 2 * ((c.e : ℂ)) * ((c.gs : ℂ)) * ((c.MW : ℂ)⁻¹) * ((c.SW : ℂ)⁻¹) * ((c.mass .d : ℂ)) * ((N.c 0)⁻¹) * (ab z0.1 z1.1) * (ab z2.1 z3.1) * (sb z2.2 ρ0) / (3) + (-2) * ((c.SW : ℂ)) ^ 2 * ((c.e : ℂ)) * ((c.gs : ℂ)) * ((c.MW : ℂ)⁻¹) * ((c.SW : ℂ)⁻¹) * ((c.mass .d : ℂ)) * ((N.c 0)⁻¹) * (ab z0.1 z2.1) * (sb z1.2 ρ0) * (sb z2.2 z3.2) / (3) + (-2) * ((c.SW : ℂ)) ^ 2 * ((c.e : ℂ)) * ((c.gs : ℂ)) * ((c.MW : ℂ)⁻¹) * ((c.SW : ℂ)⁻¹) * ((c.mass .d : ℂ)) * ((N.c 1)⁻¹) * (ab z0.1 z2.1) * (sb z1.2 z2.2) * (sb z3.2 ρ0) / (3) + (2) * ((c.SW : ℂ)) ^ 2 * ((c.e : ℂ)) * ((c.gs : ℂ)) * ((c.MW : ℂ)⁻¹) * ((c.SW : ℂ)⁻¹) * ((c.mass .d : ℂ)) * ((N.c 1)⁻¹) * (ab z0.1 z3.1) * (ab z1.1 z2.1) * (sb z2.2 ρ0) / (3) + (2) * ((c.SW : ℂ)) ^ 2 * ((c.e : ℂ)) * ((c.gs : ℂ)) * ((c.MW : ℂ)⁻¹) * ((c.SW : ℂ)⁻¹) * ((c.mass .d : ℂ)) ^ 2 * ((N.c 0)⁻¹) * ((N.c 1)⁻¹) * (ab z0.1 z2.1) * (ab z0.1 z3.1) * (sb z0.2 ρ0) * (sb z1.2 z2.2) / (3) + (-2) * ((c.SW : ℂ)) ^ 2 * ((c.e : ℂ)) * ((c.gs : ℂ)) * ((c.MW : ℂ)⁻¹) * ((c.SW : ℂ)⁻¹) * ((N.c 0)⁻¹) * (ab z0.1 z1.1) * (ab z0.1 z2.1) * (sb z0.2 ρ0) * (sb z2.2 z3.2) / (3) + (2) * ((c.SW : ℂ)) ^ 2 * ((c.e : ℂ)) * ((c.gs : ℂ)) * ((c.MW : ℂ)⁻¹) * ((c.SW : ℂ)⁻¹) * ((N.c 0)⁻¹) * (ab z0.1 z1.1) * (mb ρ0 (p 1) z2.1) * (sb z2.2 z3.2) / (3) + (2) * ((c.SW : ℂ)) ^ 2 * ((c.e : ℂ)) * ((c.gs : ℂ)) * ((c.MW : ℂ)⁻¹) * ((c.SW : ℂ)⁻¹) * ((N.c 0)⁻¹) * (ab z2.1 z3.1) * (mb z2.2 (p 1) z0.1) * (sb z1.2 ρ0) / (3) + (2) * ((c.SW : ℂ)) ^ 2 * ((c.e : ℂ)) * ((c.gs : ℂ)) * ((c.MW : ℂ)⁻¹) * ((c.SW : ℂ)⁻¹) * ((N.c 1)⁻¹) * (ab z0.1 z3.1) * (mb ρ0 (p 1) z2.1) * (sb z1.2 z2.2) / (3) + (2) * ((c.SW : ℂ)) ^ 2 * ((c.e : ℂ)) * ((c.gs : ℂ)) * ((c.MW : ℂ)⁻¹) * ((c.SW : ℂ)⁻¹) * ((N.c 1)⁻¹) * (ab z1.1 z2.1) * (mb z2.2 (p 1) z0.1) * (sb z3.2 ρ0) / (3) + (-1) * ((c.e : ℂ)) * ((c.gs : ℂ)) * ((c.MW : ℂ)⁻¹) * ((c.SW : ℂ)⁻¹) * ((c.mass .d : ℂ)) * ((N.c 0)⁻¹) * ((N.c 1)⁻¹) * (ab z0.1 z2.1) * (mb z1.2 (p 2) z0.1) * (sb z0.2 ρ0) * (sb z2.2 z3.2) + (1) * ((c.e : ℂ)) * ((c.gs : ℂ)) * ((c.MW : ℂ)⁻¹) * ((c.SW : ℂ)⁻¹) * ((c.mass .d : ℂ)) * ((N.c 0)⁻¹) * (ab z0.1 z2.1) * (sb z1.2 ρ0) * (sb z2.2 z3.2) + (-1) * ((c.e : ℂ)) * ((c.gs : ℂ)) * ((c.MW : ℂ)⁻¹) * ((c.SW : ℂ)⁻¹) * ((c.mass .d : ℂ)) * ((N.c 1)⁻¹) * (ab z0.1 z3.1) * (ab z1.1 z2.1) * (sb z2.2 ρ0) + (1) * ((c.e : ℂ)) * ((c.gs : ℂ)) * ((c.MW : ℂ)⁻¹) * ((c.SW : ℂ)⁻¹) * ((N.c 0)⁻¹) * (ab z0.1 z1.1) * (ab z0.1 z2.1) * (sb z0.2 ρ0) * (sb z2.2 z3.2) + (-1) * ((c.e : ℂ)) * ((c.gs : ℂ)) * ((c.MW : ℂ)⁻¹) * ((c.SW : ℂ)⁻¹) * ((N.c 0)⁻¹) * (ab z0.1 z1.1) * (mb ρ0 (p 1) z2.1) * (sb z2.2 z3.2) + (-1) * ((c.e : ℂ)) * ((c.gs : ℂ)) * ((c.MW : ℂ)⁻¹) * ((c.SW : ℂ)⁻¹) * ((N.c 1)⁻¹) * (ab z1.1 z2.1) * (mb z2.2 (p 1) z0.1) * (sb z3.2 ρ0)) * yCW + ((-1) * (((√2 : ℝ) : ℂ)) ^ 2 * ((c.SW : ℂ)) ^ 2 * ((c.e : ℂ)) * ((c.gs : ℂ)) * ((c.CW : ℂ)⁻¹) * ((c.SW : ℂ)⁻¹) * ((N.c 1)⁻¹) * (ab z0.1 z2.1) * (ab z1.1 z2.1) * (sb z3.2 ρ0) / (3) + (1) * (((√2 : ℝ) : ℂ)) ^ 2 * ((c.SW : ℂ)) ^ 2 * ((c.e : ℂ)) * ((c.gs : ℂ)) * ((c.CW : ℂ)⁻¹) * ((c.SW : ℂ)⁻¹) * ((N.c 1)⁻¹) * (ab z0.1 z3.1) * (sb z1.2 z2.2) * (sb z2.2 ρ0) / (3) + (1) * (((√2 : ℝ) : ℂ)) ^ 2 * ((c.e : ℂ)) * ((c.gs : ℂ)) * ((c.CW : ℂ)⁻¹) * ((c.SW : ℂ)⁻¹) * ((N.c 1)⁻¹) * (ab z0.1 z2.1) * (ab z1.1 z2.1) * (sb z3.2 ρ0) / (2) + (2) * ((c.SW : ℂ)) ^ 2 * ((c.e : ℂ)) * ((c.gs : ℂ)) * ((c.CW : ℂ)⁻¹) * ((c.SW : ℂ)⁻¹) * ((N.c 1)⁻¹) * (ab z0.1 z2.1) * (ab z1.1 z2.1) * (sb z3.2 ρ0) / (3) + (-2) * ((c.SW : ℂ)) ^ 2 * ((c.e : ℂ)) * ((c.gs : ℂ)) * ((c.CW : ℂ)⁻¹) * ((c.SW : ℂ)⁻¹) * ((N.c 1)⁻¹) * (ab z0.1 z3.1) * (sb z1.2 z2.2) * (sb z2.2 ρ0) / (3) + (-1) * ((c.e : ℂ)) * ((c.gs : ℂ)) * ((c.CW : ℂ)⁻¹) * ((c.SW : ℂ)⁻¹) * ((N.c 1)⁻¹) * (ab z0.1 z2.1) * (ab z1.1 z2.1) * (sb z3.2 ρ0)) * yMW + ((-1) * (((√2 : ℝ) : ℂ)) ^ 2 * ((c.SW : ℂ)) * ((c.e : ℂ)) * ((c.gs : ℂ)) * ((c.CW : ℂ)⁻¹) * ((N.c 1)⁻¹) * (ab z0.1 z2.1) * (ab z1.1 z2.1) * (sb z3.2 ρ0) / (3) + (1) * (((√2 : ℝ) : ℂ)) ^ 2 * ((c.SW : ℂ)) * ((c.e : ℂ)) * ((c.gs : ℂ)) * ((c.CW : ℂ)⁻¹) * ((N.c 1)⁻¹) * (ab z0.1 z3.1) * (sb z1.2 z2.2) * (sb z2.2 ρ0) / (3) + (-1) * (((√2 : ℝ) : ℂ)) ^ 2 * ((c.SW : ℂ)) * ((c.e : ℂ)) * ((c.gs : ℂ)) * ((c.MW : ℂ)⁻¹) * ((c.mass .d : ℂ)) * ((N.c 0)⁻¹) * (ab z0.1 z1.1) * (ab z2.1 z3.1) * (sb z2.2 ρ0) / (3) + (1) * (((√2 : ℝ) : ℂ)) ^ 2 * ((c.SW : ℂ)) * ((c.e : ℂ)) * ((c.gs : ℂ)) * ((c.MW : ℂ)⁻¹) * ((c.mass .d : ℂ)) * ((N.c 0)⁻¹) * (ab z0.1 z2.1) * (sb z1.2 ρ0) * (sb z2.2 z3.2) / (3) + (1) * (((√2 : ℝ) : ℂ)) ^ 2 * ((c.SW : ℂ)) * ((c.e : ℂ)) * ((c.gs : ℂ)) * ((c.MW : ℂ)⁻¹) * ((c.mass .d : ℂ)) * ((N.c 1)⁻¹) * (ab z0.1 z2.1) * (sb z1.2 z2.2) * (sb z3.2 ρ0) / (3) + (-1) * (((√2 : ℝ) : ℂ)) ^ 2 * ((c.SW : ℂ)) * ((c.e : ℂ)) * ((c.gs : ℂ)) * ((c.MW : ℂ)⁻¹) * ((c.mass .d : ℂ)) * ((N.c 1)⁻¹) * (ab z0.1 z3.1) * (ab z1.1 z2.1) * (sb z2.2 ρ0) / (3) + (1) * (((√2 : ℝ) : ℂ)) ^ 2 * ((c.SW : ℂ)) * ((c.e : ℂ)) * ((c.gs : ℂ)) * ((c.MW : ℂ)⁻¹) * ((N.c 0)⁻¹) * (ab z0.1 z1.1) * (ab z0.1 z2.1) * (sb z0.2 ρ0) * (sb z2.2 z3.2) / (3) + (-1) * (((√2 : ℝ) : ℂ)) ^ 2 * ((c.SW : ℂ)) * ((c.e : ℂ)) * ((c.gs : ℂ)) * ((c.MW : ℂ)⁻¹) * ((N.c 0)⁻¹) * (ab z0.1 z1.1) * (mb ρ0 (p 1) z2.1) * (sb z2.2 z3.2) / (3) + (-1) * (((√2 : ℝ) : ℂ)) ^ 2 * ((c.SW : ℂ)) * ((c.e : ℂ)) * ((c.gs : ℂ)) * ((c.MW : ℂ)⁻¹) * ((N.c 0)⁻¹) * (ab z2.1 z3.1) * (mb z2.2 (p 1) z0.1) * (sb z1.2 ρ0) / (3) + (-1) * (((√2 : ℝ) : ℂ)) ^ 2 * ((c.SW : ℂ)) * ((c.e : ℂ)) * ((c.gs : ℂ)) * ((c.MW : ℂ)⁻¹) * ((N.c 1)⁻¹) * (ab z0.1 z3.1) * (mb ρ0 (p 1) z2.1) * (sb z1.2 z2.2) / (3) + (-1) * (((√2 : ℝ) : ℂ)) ^ 2 * ((c.SW : ℂ)) * ((c.e : ℂ)) * ((c.gs : ℂ)) * ((c.MW : ℂ)⁻¹) * ((N.c 1)⁻¹) * (ab z1.1 z2.1) * (mb z2.2 (p 1) z0.1) * (sb z3.2 ρ0) / (3) + (2) * ((c.SW : ℂ)) * ((c.e : ℂ)) * ((c.gs : ℂ)) * ((c.CW : ℂ)⁻¹) * ((N.c 1)⁻¹) * (ab z0.1 z2.1) * (ab z1.1 z2.1) * (sb z3.2 ρ0) / (3) + (-2) * ((c.SW : ℂ)) * ((c.e : ℂ)) * ((c.gs : ℂ)) * ((c.CW : ℂ)⁻¹) * ((N.c 1)⁻¹) * (ab z0.1 z3.1) * (sb z1.2 z2.2) * (sb z2.2 ρ0) / (3) + (2) * ((c.SW : ℂ)) * ((c.e : ℂ)) * ((c.gs : ℂ)) * ((c.MW : ℂ)⁻¹) * ((c.mass .d : ℂ)) * ((N.c 0)⁻¹) * (ab z0.1 z1.1) * (ab z2.1 z3.1) * (sb z2.2 ρ0) / (3) + (-2) * ((c.SW : ℂ)) * ((c.e : ℂ)) * ((c.gs : ℂ)) * ((c.MW : ℂ)⁻¹) * ((c.mass .d : ℂ)) * ((N.c 0)⁻¹) * (ab z0.1 z2.1) * (sb z1.2 ρ0) * (sb z2.2 z3.2) / (3) + (-2) * ((c.SW : ℂ)) * ((c.e : ℂ)) * ((c.gs : ℂ)) * ((c.MW : ℂ)⁻¹) * ((c.mass .d : ℂ)) * ((N.c 1)⁻¹) * (ab z0.1 z2.1) * (sb z1.2 z2.2) * (sb z3.2 ρ0) / (3) + (2) * ((c.SW : ℂ)) * ((c.e : ℂ)) * ((c.gs : ℂ)) * ((c.MW : ℂ)⁻¹) * ((c.mass .d : ℂ)) * ((N.c 1)⁻¹) * (ab z0.1 z3.1) * (ab z1.1 z2.1) * (sb z2.2 ρ0) / (3) + (-2) * ((c.SW : ℂ)) * ((c.e : ℂ)) * ((c.gs : ℂ)) * ((c.MW : ℂ)⁻¹) * ((N.c 0)⁻¹) * (ab z0.1 z1.1) * (ab z0.1 z2.1) * (sb z0.2 ρ0) * (sb z2.2 z3.2) / (3) + (2) * ((c.SW : ℂ)) * ((c.e : ℂ)) * ((c.gs : ℂ)) * ((c.MW : ℂ)⁻¹) * ((N.c 0)⁻¹) * (ab z0.1 z1.1) * (mb ρ0 (p 1) z2.1) * (sb z2.2 z3.2) / (3) + (2) * ((c.SW : ℂ)) * ((c.e : ℂ)) * ((c.gs : ℂ)) * ((c.MW : ℂ)⁻¹) * ((N.c 0)⁻¹) * (ab z2.1 z3.1) * (mb z2.2 (p 1) z0.1) * (sb z1.2 ρ0) / (3) + (2) * ((c.SW : ℂ)) * ((c.e : ℂ)) * ((c.gs : ℂ)) * ((c.MW : ℂ)⁻¹) * ((N.c 1)⁻¹) * (ab z0.1 z3.1) * (mb ρ0 (p 1) z2.1) * (sb z1.2 z2.2) / (3) + (2) * ((c.SW : ℂ)) * ((c.e : ℂ)) * ((c.gs : ℂ)) * ((c.MW : ℂ)⁻¹) * ((N.c 1)⁻¹) * (ab z1.1 z2.1) * (mb z2.2 (p 1) z0.1) * (sb z3.2 ρ0) / (3)) * ySW + ((-1) * ((c.SW : ℂ)) * ((c.e : ℂ)) * ((c.gs : ℂ)) * ((c.CW : ℂ)⁻¹) * ((N.c 1)⁻¹) * (ab z0.1 z2.1) * (ab z1.1 z2.1) * (sb z3.2 ρ0) / (3) + (1) * ((c.SW : ℂ)) * ((c.e : ℂ)) * ((c.gs : ℂ)) * ((c.CW : ℂ)⁻¹) * ((N.c 1)⁻¹) * (ab z0.1 z3.1) * (sb z1.2 z2.2) * (sb z2.2 ρ0) / (3) + (-1) * ((c.SW : ℂ)) * ((c.e : ℂ)) * ((c.gs : ℂ)) * ((c.MW : ℂ)⁻¹) * ((c.mass .d : ℂ)) * ((N.c 0)⁻¹) * (ab z0.1 z1.1) * (ab z2.1 z3.1) * (sb z2.2 ρ0) / (3) + (1) * ((c.SW : ℂ)) * ((c.e : ℂ)) * ((c.gs : ℂ)) * ((c.MW : ℂ)⁻¹) * ((c.mass .d : ℂ)) * ((N.c 0)⁻¹) * (ab z0.1 z2.1) * (sb z1.2 ρ0) * (sb z2.2 z3.2) / (3) + (1) * ((c.SW : ℂ)) * ((c.e : ℂ)) * ((c.gs : ℂ)) * ((c.MW : ℂ)⁻¹) * ((c.mass .d : ℂ)) * ((N.c 1)⁻¹) * (ab z0.1 z2.1) * (sb z1.2 z2.2) * (sb z3.2 ρ0) / (3) + (-1) * ((c.SW : ℂ)) * ((c.e : ℂ)) * ((c.gs : ℂ)) * ((c.MW : ℂ)⁻¹) * ((c.mass .d : ℂ)) * ((N.c 1)⁻¹) * (ab z0.1 z3.1) * (ab z1.1 z2.1) * (sb z2.2 ρ0) / (3) + (1) * ((c.SW : ℂ)) * ((c.e : ℂ)) * ((c.gs : ℂ)) * ((c.MW : ℂ)⁻¹) * ((N.c 0)⁻¹) * (ab z0.1 z1.1) * (ab z0.1 z2.1) * (sb z0.2 ρ0) * (sb z2.2 z3.2) / (3) + (-1) * ((c.SW : ℂ)) * ((c.e : ℂ)) * ((c.gs : ℂ)) * ((c.MW : ℂ)⁻¹) * ((N.c 0)⁻¹) * (ab z0.1 z1.1) * (mb ρ0 (p 1) z2.1) * (sb z2.2 z3.2) / (3) + (-1) * ((c.SW : ℂ)) * ((c.e : ℂ)) * ((c.gs : ℂ)) * ((c.MW : ℂ)⁻¹) * ((N.c 0)⁻¹) * (ab z2.1 z3.1) * (mb z2.2 (p 1) z0.1) * (sb z1.2 ρ0) / (3) + (-1) * ((c.SW : ℂ)) * ((c.e : ℂ)) * ((c.gs : ℂ)) * ((c.MW : ℂ)⁻¹) * ((N.c 1)⁻¹) * (ab z0.1 z3.1) * (mb ρ0 (p 1) z2.1) * (sb z1.2 z2.2) / (3) + (-1) * ((c.SW : ℂ)) * ((c.e : ℂ)) * ((c.gs : ℂ)) * ((c.MW : ℂ)⁻¹) * ((N.c 1)⁻¹) * (ab z1.1 z2.1) * (mb z2.2 (p 1) z0.1) * (sb z3.2 ρ0) / (3) + (1) * ((c.e : ℂ)) * ((c.gs : ℂ)) * ((c.CW : ℂ)⁻¹) * ((c.SW : ℂ)⁻¹) * ((N.c 1)⁻¹) * (ab z0.1 z2.1) * (ab z1.1 z2.1) * (sb z3.2 ρ0) / (2) + (-1) * ((c.e : ℂ)) * ((c.gs : ℂ)) * ((c.MW : ℂ)⁻¹) * ((c.SW : ℂ)⁻¹) * ((c.mass .d : ℂ)) * ((N.c 0)⁻¹) * (ab z0.1 z2.1) * (sb z1.2 ρ0) * (sb z2.2 z3.2) / (2) + (1) * ((c.e : ℂ)) * ((c.gs : ℂ)) * ((c.MW : ℂ)⁻¹) * ((c.SW : ℂ)⁻¹) * ((c.mass .d : ℂ)) * ((N.c 1)⁻¹) * (ab z0.1 z3.1) * (ab z1.1 z2.1) * (sb z2.2 ρ0) / (2) + (-1) * ((c.e : ℂ)) * ((c.gs : ℂ)) * ((c.MW : ℂ)⁻¹) * ((c.SW : ℂ)⁻¹) * ((N.c 0)⁻¹) * (ab z0.1 z1.1) * (ab z0.1 z2.1) * (sb z0.2 ρ0) * (sb z2.2 z3.2) / (2) + (1) * ((c.e : ℂ)) * ((c.gs : ℂ)) * ((c.MW : ℂ)⁻¹) * ((c.SW : ℂ)⁻¹) * ((N.c 0)⁻¹) * (ab z0.1 z1.1) * (mb ρ0 (p 1) z2.1) * (sb z2.2 z3.2) / (2) + (1) * ((c.e : ℂ)) * ((c.gs : ℂ)) * ((c.MW : ℂ)⁻¹) * ((c.SW : ℂ)⁻¹) * ((N.c 1)⁻¹) * (ab z1.1 z2.1) * (mb z2.2 (p 1) z0.1) * (sb z3.2 ρ0) / (2)) * x22
set_option maxRecDepth 8000 in
theorem gdZd.amp2_eq (N : Env) (f : Nat → List Int → ℂ) : Cls.gdZd.m_amp2.mean N f .r [] =
    ((sumW (fun x a => (sumJ (fun x b => (sumV (fun x c => (sumJ (fun x d => (x + (((4 : Nat) : ℝ) * (‖(f 0 [a, b, c, d])‖ ^ 2)))) x)) x)) x)) ((0 : Nat) : ℝ)) / ((96 : Nat) : ℝ)) := by rfl
set_option maxRecDepth 8000 in
theorem gdZd.value (N : Env) : meaning N .r Cls.gdZd.methods Cls.gdZd.amp2 [] =
    ((sumW (fun x a => (sumJ (fun x b => (sumV (fun x c => (sumJ (fun x d => (x + (((4 : Nat) : ℝ) * (‖(Cls.gdZd.m_amp.mean N (callMean N []) .c [a, b, c, d])‖ ^ 2)))) x)) x)) x)) ((0 : Nat) : ℝ)) / ((96 : Nat) : ℝ)) :=
  gdZd.amp2_eq N (callMean N [Cls.gdZd.m_amp])
theorem gdZd.termP_lin (N : Env) (w : ℝ) (x : ℂ) (j2 a2 b2 j4 : Int) : gdZd.termP N w x j2 a2 b2 j4 = x + (w : ℂ) * gdZd.termP N 1 0 j2 a2 b2 j4 := by
  simp only [gdZd.termP]; push_cast; ring
theorem gdZd.termM_lin (N : Env) (w : ℝ) (x : ℂ) (j2 a2 b2 j4 : Int) : gdZd.termM N w x j2 a2 b2 j4 = x + (w : ℂ) * gdZd.termM N 1 0 j2 a2 b2 j4 := by
  simp only [gdZd.termM]; push_cast; ring
set_option maxRecDepth 8000 in
theorem gdZd.ampP (N : Env) (f : Nat → List Int → ℂ) (j2 j4 : Int) (t2 : Fin 3) : Cls.gdZd.m_amp.mean N f .c [2, j2, spinV t2, j4] = comb t2 (fun a2 b2 => gdZd.termP N 1 0 j2 (spinOf a2) (spinOf b2) j4) := by
  refine (amp_mean N f (m := 4) (K := 6) (G := fun i => if 0 < i 0 then gdZd.termP N 1 0 (i 1) (i 4) (i 5) (i 3) else if i 0 < 0 then gdZd.termM N 1 0 (i 1) (i 4) (i 5) (i 3) else 0) (fun l => ?_) (fun i i' h => ?_) rfl (by decide) (by decide) (by decide) (by decide) (by decide)).trans ?_
  · by_cases h : 0 < l.i 0
    · refine ⟨_, (if_pos (decide_eq_true h)).trans rfl, rfl, rfl, ?_⟩; rw [if_pos h]; exact gdZd.termP_lin ..
    · by_cases h' : l.i 0 < 0
      · refine ⟨_, (if_neg (fun e => h (of_decide_eq_true e))).trans ((if_pos (decide_eq_true h')).trans rfl), rfl, rfl, ?_⟩; rw [if_neg h, if_pos h']; exact gdZd.termM_lin ..
      · refine ⟨_, (if_neg (fun e => h (of_decide_eq_true e))).trans ((if_neg (fun e => h' (of_decide_eq_true e))).trans rfl), rfl, rfl, ?_⟩; rw [if_neg h, if_neg h', mul_zero, add_zero]
  · simp only [h 0 (by decide), h 1 (by decide), h 3 (by decide), h 4 (by decide), h 5 (by decide)]
  · show amp' _ [spinV t2] = _
    simp only [amp'_comb, amp'_nil]
    rfl
theorem gdZd.formP_x2 (N : Env) (p : Nat → V4 ℝ) (z0 z1 y2 z3 x y : Pair) : gdZd.formP N p z0 z1 (x + y) y2 z3 = gdZd.formP N p z0 z1 x y2 z3 + gdZd.formP N p z0 z1 y y2 z3 := by
  simp only [gdZd.formP, Prod.fst_add, Prod.snd_add, ab_add_left, ab_add_right, sb_add_left, sb_add_right, mb_add_left, mb_add_right]
  ring
theorem gdZd.formP_y2 (N : Env) (p : Nat → V4 ℝ) (z0 z1 x2 z3 x y : Pair) : gdZd.formP N p z0 z1 x2 (x + y) z3 = gdZd.formP N p z0 z1 x2 x z3 + gdZd.formP N p z0 z1 x2 y z3 := by
  simp only [gdZd.formP, Prod.fst_add, Prod.snd_add, ab_add_left, ab_add_right, sb_add_left, sb_add_right, mb_add_left, mb_add_right]
  ring
set_option maxRecDepth 8000 in
theorem gdZd.ampM (N : Env) (f : Nat → List Int → ℂ) (j2 j4 : Int) (t2 : Fin 3) : Cls.gdZd.m_amp.mean N f .c [(-2), j2, spinV t2, j4] = comb t2 (fun a2 b2 => gdZd.termM N 1 0 j2 (spinOf a2) (spinOf b2) j4) := by
  refine (amp_mean N f (m := 4) (K := 6) (G := fun i => if 0 < i 0 then gdZd.termP N 1 0 (i 1) (i 4) (i 5) (i 3) else if i 0 < 0 then gdZd.termM N 1 0 (i 1) (i 4) (i 5) (i 3) else 0) (fun l => ?_) (fun i i' h => ?_) rfl (by decide) (by decide) (by decide) (by decide) (by decide)).trans ?_
  · by_cases h : 0 < l.i 0
    · refine ⟨_, (if_pos (decide_eq_true h)).trans rfl, rfl, rfl, ?_⟩; rw [if_pos h]; exact gdZd.termP_lin ..
    · by_cases h' : l.i 0 < 0
      · refine ⟨_, (if_neg (fun e => h (of_decide_eq_true e))).trans ((if_pos (decide_eq_true h')).trans rfl), rfl, rfl, ?_⟩; rw [if_neg h, if_pos h']; exact gdZd.termM_lin ..
      · refine ⟨_, (if_neg (fun e => h (of_decide_eq_true e))).trans ((if_neg (fun e => h' (of_decide_eq_true e))).trans rfl), rfl, rfl, ?_⟩; rw [if_neg h, if_neg h', mul_zero, add_zero]
  · simp only [h 0 (by decide), h 1 (by decide), h 3 (by decide), h 4 (by decide), h 5 (by decide)]
  · show amp' _ [spinV t2] = _
    simp only [amp'_comb, amp'_nil]
    rfl
theorem gdZd.formM_x2 (N : Env) (p : Nat → V4 ℝ) (z0 z1 y2 z3 x y : Pair) : gdZd.formM N p z0 z1 (x + y) y2 z3 = gdZd.formM N p z0 z1 x y2 z3 + gdZd.formM N p z0 z1 y y2 z3 := by
  simp only [gdZd.formM, Prod.fst_add, Prod.snd_add, ab_add_left, ab_add_right, sb_add_left, sb_add_right, mb_add_left, mb_add_right]
  ring
theorem gdZd.formM_y2 (N : Env) (p : Nat → V4 ℝ) (z0 z1 x2 z3 x y : Pair) : gdZd.formM N p z0 z1 x2 (x + y) z3 = gdZd.formM N p z0 z1 x2 x z3 + gdZd.formM N p z0 z1 x2 y z3 := by
  simp only [gdZd.formM, Prod.fst_add, Prod.snd_add, ab_add_left, ab_add_right, sb_add_left, sb_add_right, mb_add_left, mb_add_right]
  ring

theorem gdZd.mass_eq {c : Constants} (hc : c.Physical) (i : Fin 4) : gdZd.proc.massNum (gdZd.rho c) i = gdZd.react.mass c i := by
  fin_cases i <;> first | rfl | exact Nat.cast_zero | exact Nat.cast_zero.trans (hc.neutrino _).symm | (show c.MW / √(((1 : Nat) : ℝ) - c.SW * c.SW) = c.MZ; rw [c.root, c.mz])

variable [FPEnv] in
theorem gdZd.amps {c : Constants} {p : Nat → V4 ℝ} {u : Fin 4 → Fin 3 → Spinor} {ε : Fin 4 → Fin 3 → Vec} (hc : c.Physical) (hh : c.Heavy) (h0 : ∀ i, 0 ≤ gdZd.react.mass c i) (hs : ∀ i : Fin 4, OnShell (p i) (gdZd.react.mass c i)) (hb : Balanced p) (hr : gdZd.react.Regular c p) (hu : ∀ i, gdZd.react.Complete c p i (u i) (ε i)) :
    (gdZd.N c p).c 0 ≠ 0 ∧ (gdZd.N c p).c 1 ≠ 0 ∧ (∀ n, (Ty.r, n) ∈ gdZd.proc.divides → (gdZd.N c p).r n ≠ 0) ∧ (∀ n, (Ty.c, n) ∈ gdZd.proc.divides → (gdZd.N c p).c n ≠ 0) ∧ ∀ (s1 : Fin 2) (s3 : Fin 2) (h0 : Fin 2) (t2 : Fin 3), ‖Cls.gdZd.m_amp.mean (gdZd.N c p) (callMean (gdZd.N c p) []) .c [spinW h0, spinOf s1, spinV t2, spinOf s3]‖ = ‖gdZd.react.bare c p 3 1 0 2 (gdZd.react.codePair c p 3 s3) (gdZd.react.codePair c p 1 s1) (lightE (legA (p 0) 0 0, legS (p 0) 0 1) h0.castSucc) (gdZd.react.codeVec c p 2 t2)‖ := by
  have he : gdZd.react.ends = [3] := by decide
  have ht : gdZd.react.starts = [1] := by decide
  have hB : gdZd.react.bosons = [0, 2] := by decide
  obtain ⟨f1, f2, f3⟩ := gdZd.react.regular_line he ht hB hr
  have r3 : (gdZd.N c p).r 3 = (c.mass .d) := rfl
  have r7 : (gdZd.N c p).r 7 = (c.MW / √((((1 : Nat) : ℝ) - (c.SW * c.SW)))) := rfl
  simp only [c.root] at r7
  have r9 : (gdZd.N c p).r 9 = (((((2 : Nat) : ℝ) * c.e) * c.gs) / ((((2 : Nat) : ℝ) * c.MW) * c.SW)) := rfl
  have r11 : (gdZd.N c p).r 11 = (((((-((2 : Nat) : ℝ)) * ((-((1 : Nat) : ℝ)) / ((3 : Nat) : ℝ))) * c.SW) * c.SW) - ((1 : Nat) : ℝ)) := rfl
  have r12 : (gdZd.N c p).r 12 = ((((-((2 : Nat) : ℝ)) * ((-((1 : Nat) : ℝ)) / ((3 : Nat) : ℝ))) * c.SW) * c.SW) := rfl
  have c0 : (gdZd.N c p).c 0 = poleDist (c.mass .d) ((0 : Nat) : ℝ) ((VExp.add 0 1).sum p) := rfl
  rw [Nat.cast_zero, pole_fermion rfl] at c0
  have d0 : ((msq (plus (p 1) (p 0)) - c.mass .d ^ 2 : ℝ) : ℂ) = (gdZd.N c p).c 0 := by rw [c0, msq_s hb (plus (p 1) (p 0)) (by simp)]
  have n0 : (gdZd.N c p).c 0 ≠ 0 := by rw [← d0]; exact_mod_cast f1 .d rfl rfl
  have c1 : (gdZd.N c p).c 1 = poleDist (c.mass .d) ((0 : Nat) : ℝ) ((VExp.sub 0 3).sum p) := rfl
  rw [Nat.cast_zero, pole_fermion rfl] at c1
  have d1 : ((msq (plus (p 1) (backward (p 2))) - c.mass .d ^ 2 : ℝ) : ℂ) = (gdZd.N c p).c 1 := by rw [c1, msq_u hb (plus (p 1) (backward (p 2))) (by simp)]
  have n1 : (gdZd.N c p).c 1 ≠ 0 := by rw [← d1]; exact_mod_cast f2 .d rfl rfl
  obtain ⟨l0, x0, y0⟩ := gdZd.react.code_light hs hu (n := 0) rfl rfl
  have e01 := l0.pole_add (m := (c.mass .d)) (onShell_msq (hs 1)) (msq_s hb (plus (p 0) (p 1)) (by simp)) c0
  have e03 := l0.pole_sub (m := (c.mass .d)) (onShell_msq (hs 3)) (msq_u hb (plus (p 0) (backward (p 3))) (by simp)) c1
  have m1 : gdZd.react.mass c 1 ≠ 0 := (leg_pos hc hh (by decide)).ne'
  have m2 : gdZd.react.mass c 2 ≠ 0 := (leg_pos hc hh (by decide)).ne'
  have m3 : gdZd.react.mass c 3 ≠ 0 := (leg_pos hc hh (by decide)).ne'
  have m0 : gdZd.react.mass c 0 = 0 := rfl
  have hd : gdZd.proc.divides = [(Ty.c, 1), (Ty.c, 0)] := by decide +kernel
  have stP : ∀ {z1 z3 : Pair} (b1 : Bold (p 1) (gdZd.react.mass c 1) z1) (b3 : Bold (p 3) (gdZd.react.mass c 3) z3) (t2 : Fin 3), comb t2 (fun a2 b2 => gdZd.formP (gdZd.N c p) p (legA (p 0) 0 0, legS (p 0) 0 1) z1 (gdZd.react.codePair c p 2 a2) (gdZd.react.codePair c p 2 b2) z3) = (-1) * gdZd.react.bare c p 3 1 0 2 z3 z1 (lightE (legA (p 0) 0 0, legS (p 0) 0 1) 1) (gdZd.react.codeVec c p 2 t2) := by
    intro z1 z3 b1 b3 t2
    refine one_vector (p := p 2) (m := gdZd.react.mass c 2) (fun s => gdZd.react.codePair_bold hs h0 2 s) (B := fun x y => gdZd.formP (gdZd.N c p) p (legA (p 0) 0 0, legS (p 0) 0 1) z1 x y z3) (G := fun E => gdZd.react.bare c p 3 1 0 2 z3 z1 (lightE (legA (p 0) 0 0, legS (p 0) 0 1) 1) E) (fun x y z => ?_) (fun x y z => ?_) (gdZd.react.bare_lin₂ c p _ _ _ (by decide)) (-1) (fun z2 b2 => ?_) t2
    · exact gdZd.formP_x2 ..
    · exact gdZd.formP_y2 ..
    · exact (light_plus (z := (legA (p 0) 0 0, legS (p 0) 0 1)) (G := fun E => gdZd.react.bare c p 3 1 0 2 z3 z1 E (pv z2.1 z2.2)) (gdZd.react.bare_lin₁ c p _ _ _ (by decide)) x0 (gdZd.keyP hc hb r3 r7 r9 r11 r12 d0 n0 d1 n1 b1 b2 b3 l0 e01 e03 (onShell_msq (hs 1)) (onShell_msq (hs 2)) (onShell_msq (hs 3)) _)).trans (mul_assoc _ _ _)
  have stM : ∀ {z1 z3 : Pair} (b1 : Bold (p 1) (gdZd.react.mass c 1) z1) (b3 : Bold (p 3) (gdZd.react.mass c 3) z3) (t2 : Fin 3), comb t2 (fun a2 b2 => gdZd.formM (gdZd.N c p) p (legA (p 0) 0 0, legS (p 0) 0 1) z1 (gdZd.react.codePair c p 2 a2) (gdZd.react.codePair c p 2 b2) z3) = 1 * gdZd.react.bare c p 3 1 0 2 z3 z1 (lightE (legA (p 0) 0 0, legS (p 0) 0 1) 0) (gdZd.react.codeVec c p 2 t2) := by
    intro z1 z3 b1 b3 t2
    refine one_vector (p := p 2) (m := gdZd.react.mass c 2) (fun s => gdZd.react.codePair_bold hs h0 2 s) (B := fun x y => gdZd.formM (gdZd.N c p) p (legA (p 0) 0 0, legS (p 0) 0 1) z1 x y z3) (G := fun E => gdZd.react.bare c p 3 1 0 2 z3 z1 (lightE (legA (p 0) 0 0, legS (p 0) 0 1) 0) E) (fun x y z => ?_) (fun x y z => ?_) (gdZd.react.bare_lin₂ c p _ _ _ (by decide)) 1 (fun z2 b2 => ?_) t2
    · exact gdZd.formM_x2 ..
    · exact gdZd.formM_y2 ..
    · exact (light_minus (z := (legA (p 0) 0 0, legS (p 0) 0 1)) (G := fun E => gdZd.react.bare c p 3 1 0 2 z3 z1 E (pv z2.1 z2.2)) (gdZd.react.bare_lin₁ c p _ _ _ (by decide)) y0 (gdZd.keyM hc hb r3 r7 r9 r11 r12 d0 n0 d1 n1 b1 b2 b3 l0 e01 e03 (onShell_msq (hs 1)) (onShell_msq (hs 2)) (onShell_msq (hs 3)) _)).trans (mul_assoc _ _ _)
  have amP : ∀ (s1 : Fin 2) (s3 : Fin 2) (t2 : Fin 3), Cls.gdZd.m_amp.mean (gdZd.N c p) (callMean (gdZd.N c p) []) .c [2, spinOf s1, spinV t2, spinOf s3] = (-1) * gdZd.react.bare c p 3 1 0 2 (gdZd.react.codePair c p 3 s3) (gdZd.react.codePair c p 1 s1) (lightE (legA (p 0) 0 0, legS (p 0) 0 1) 1) (gdZd.react.codeVec c p 2 t2) := by
    intro s1 s3 t2
    rw [gdZd.ampP, ← stP (gdZd.react.codePair_bold hs h0 1 s1) (gdZd.react.codePair_bold hs h0 3 s3) t2]
    refine congrArg (comb t2) (funext fun a2 => funext fun b2 => ?_)
    have v3z1x2 : (gdZd.N c p).v 3 [spinOf s1, spinOf a2] = ab (gdZd.react.codePair c p 1 s1).1 (gdZd.react.codePair c p 2 a2).1 := bra_angle (p := p) (m := gdZd.proc.massNum (gdZd.rho c)) (gdZd.mass_eq hc 1) (gdZd.mass_eq hc 2) (.inl ⟨m1, rfl⟩) (.inl ⟨m2, rfl⟩)
    have v2z0z3 : (gdZd.N c p).v 2 [spinOf s3] = sb (legA (p 0) 0 0, legS (p 0) 0 1).2 (gdZd.react.codePair c p 3 s3).2 := bra_square (p := p) (m := gdZd.proc.massNum (gdZd.rho c)) (gdZd.mass_eq hc 0) (gdZd.mass_eq hc 3) (.inr ⟨m0, rfl⟩) (.inl ⟨m3, rfl⟩)
    have v5z0y2 : (gdZd.N c p).v 5 [spinOf b2] = mb (legA (p 0) 0 0, legS (p 0) 0 1).2 (p 1) (gdZd.react.codePair c p 2 b2).1 := bra_mid_square (p := p) (m := gdZd.proc.massNum (gdZd.rho c)) (gdZd.mass_eq hc 0) (gdZd.mass_eq hc 2) (.inr ⟨m0, rfl⟩) (.inl ⟨m2, rfl⟩)
    have v1z0y2 : (gdZd.N c p).v 1 [spinOf b2] = sb (legA (p 0) 0 0, legS (p 0) 0 1).2 (gdZd.react.codePair c p 2 b2).2 := bra_square (p := p) (m := gdZd.proc.massNum (gdZd.rho c)) (gdZd.mass_eq hc 0) (gdZd.mass_eq hc 2) (.inr ⟨m0, rfl⟩) (.inl ⟨m2, rfl⟩)
    have v7z0z3 : (gdZd.N c p).v 7 [spinOf s3] = mb (legA (p 0) 0 0, legS (p 0) 0 1).2 (p 2) (gdZd.react.codePair c p 3 s3).1 := bra_mid_square (p := p) (m := gdZd.proc.massNum (gdZd.rho c)) (gdZd.mass_eq hc 0) (gdZd.mass_eq hc 3) (.inr ⟨m0, rfl⟩) (.inl ⟨m3, rfl⟩)
    have v4x2z3 : (gdZd.N c p).v 4 [spinOf a2, spinOf s3] = ab (gdZd.react.codePair c p 2 a2).1 (gdZd.react.codePair c p 3 s3).1 := bra_angle (p := p) (m := gdZd.proc.massNum (gdZd.rho c)) (gdZd.mass_eq hc 2) (gdZd.mass_eq hc 3) (.inl ⟨m2, rfl⟩) (.inl ⟨m3, rfl⟩)
    have v6z0z1 : (gdZd.N c p).v 6 [spinOf s1] = mb (legA (p 0) 0 0, legS (p 0) 0 1).2 (p 2) (gdZd.react.codePair c p 1 s1).1 := bra_mid_square (p := p) (m := gdZd.proc.massNum (gdZd.rho c)) (gdZd.mass_eq hc 0) (gdZd.mass_eq hc 1) (.inr ⟨m0, rfl⟩) (.inl ⟨m1, rfl⟩)
    have v0z0z1 : (gdZd.N c p).v 0 [spinOf s1] = sb (legA (p 0) 0 0, legS (p 0) 0 1).2 (gdZd.react.codePair c p 1 s1).2 := bra_square (p := p) (m := gdZd.proc.massNum (gdZd.rho c)) (gdZd.mass_eq hc 0) (gdZd.mass_eq hc 1) (.inr ⟨m0, rfl⟩) (.inl ⟨m1, rfl⟩)
    have v8z0y2 : (gdZd.N c p).v 8 [spinOf b2] = mb (legA (p 0) 0 0, legS (p 0) 0 1).2 (p 3) (gdZd.react.codePair c p 2 b2).1 := bra_mid_square (p := p) (m := gdZd.proc.massNum (gdZd.rho c)) (gdZd.mass_eq hc 0) (gdZd.mass_eq hc 2) (.inr ⟨m0, rfl⟩) (.inl ⟨m2, rfl⟩)
    simp only [gdZd.termP, gdZd.formP, v3z1x2, v2z0z3, v5z0y2, v1z0y2, v7z0z3, v4x2z3, v6z0z1, v0z0z1, v8z0y2]
    push_cast
    ring
  have amM : ∀ (s1 : Fin 2) (s3 : Fin 2) (t2 : Fin 3), Cls.gdZd.m_amp.mean (gdZd.N c p) (callMean (gdZd.N c p) []) .c [(-2), spinOf s1, spinV t2, spinOf s3] = 1 * gdZd.react.bare c p 3 1 0 2 (gdZd.react.codePair c p 3 s3) (gdZd.react.codePair c p 1 s1) (lightE (legA (p 0) 0 0, legS (p 0) 0 1) 0) (gdZd.react.codeVec c p 2 t2) := by
    intro s1 s3 t2
    rw [gdZd.ampM, ← stM (gdZd.react.codePair_bold hs h0 1 s1) (gdZd.react.codePair_bold hs h0 3 s3) t2]
    refine congrArg (comb t2) (funext fun a2 => funext fun b2 => ?_)
    have v12z1x2 : (gdZd.N c p).v 12 [spinOf s1, spinOf a2] = sb (gdZd.react.codePair c p 1 s1).2 (gdZd.react.codePair c p 2 a2).2 := bra_square (p := p) (m := gdZd.proc.massNum (gdZd.rho c)) (gdZd.mass_eq hc 1) (gdZd.mass_eq hc 2) (.inl ⟨m1, rfl⟩) (.inl ⟨m2, rfl⟩)
    have v11z0z3 : (gdZd.N c p).v 11 [spinOf s3] = ab (legA (p 0) 0 0, legS (p 0) 0 1).1 (gdZd.react.codePair c p 3 s3).1 := bra_angle (p := p) (m := gdZd.proc.massNum (gdZd.rho c)) (gdZd.mass_eq hc 0) (gdZd.mass_eq hc 3) (.inr ⟨m0, rfl⟩) (.inl ⟨m3, rfl⟩)
    have v14z0y2 : (gdZd.N c p).v 14 [spinOf b2] = mb (gdZd.react.codePair c p 2 b2).2 (p 1) (legA (p 0) 0 0, legS (p 0) 0 1).1 := bra_mid_angle (p := p) (m := gdZd.proc.massNum (gdZd.rho c)) (gdZd.mass_eq hc 0) (gdZd.mass_eq hc 2) (.inr ⟨m0, rfl⟩) (.inl ⟨m2, rfl⟩)
    have v10z0y2 : (gdZd.N c p).v 10 [spinOf b2] = ab (legA (p 0) 0 0, legS (p 0) 0 1).1 (gdZd.react.codePair c p 2 b2).1 := bra_angle (p := p) (m := gdZd.proc.massNum (gdZd.rho c)) (gdZd.mass_eq hc 0) (gdZd.mass_eq hc 2) (.inr ⟨m0, rfl⟩) (.inl ⟨m2, rfl⟩)
    have v16z0z3 : (gdZd.N c p).v 16 [spinOf s3] = mb (gdZd.react.codePair c p 3 s3).2 (p 2) (legA (p 0) 0 0, legS (p 0) 0 1).1 := bra_mid_angle (p := p) (m := gdZd.proc.massNum (gdZd.rho c)) (gdZd.mass_eq hc 0) (gdZd.mass_eq hc 3) (.inr ⟨m0, rfl⟩) (.inl ⟨m3, rfl⟩)
    have v13x2z3 : (gdZd.N c p).v 13 [spinOf a2, spinOf s3] = sb (gdZd.react.codePair c p 2 a2).2 (gdZd.react.codePair c p 3 s3).2 := bra_square (p := p) (m := gdZd.proc.massNum (gdZd.rho c)) (gdZd.mass_eq hc 2) (gdZd.mass_eq hc 3) (.inl ⟨m2, rfl⟩) (.inl ⟨m3, rfl⟩)
    have v15z0z1 : (gdZd.N c p).v 15 [spinOf s1] = mb (gdZd.react.codePair c p 1 s1).2 (p 2) (legA (p 0) 0 0, legS (p 0) 0 1).1 := bra_mid_angle (p := p) (m := gdZd.proc.massNum (gdZd.rho c)) (gdZd.mass_eq hc 0) (gdZd.mass_eq hc 1) (.inr ⟨m0, rfl⟩) (.inl ⟨m1, rfl⟩)
    have v9z0z1 : (gdZd.N c p).v 9 [spinOf s1] = ab (legA (p 0) 0 0, legS (p 0) 0 1).1 (gdZd.react.codePair c p 1 s1).1 := bra_angle (p := p) (m := gdZd.proc.massNum (gdZd.rho c)) (gdZd.mass_eq hc 0) (gdZd.mass_eq hc 1) (.inr ⟨m0, rfl⟩) (.inl ⟨m1, rfl⟩)
    have v17z0y2 : (gdZd.N c p).v 17 [spinOf b2] = mb (gdZd.react.codePair c p 2 b2).2 (p 3) (legA (p 0) 0 0, legS (p 0) 0 1).1 := bra_mid_angle (p := p) (m := gdZd.proc.massNum (gdZd.rho c)) (gdZd.mass_eq hc 0) (gdZd.mass_eq hc 2) (.inr ⟨m0, rfl⟩) (.inl ⟨m2, rfl⟩)
    simp only [gdZd.termM, gdZd.formM, v12z1x2, v11z0z3, v14z0y2, v10z0y2, v16z0z3, v13x2z3, v15z0z1, v9z0z1, v17z0y2]
    push_cast
    ring
  refine ⟨n0, n1, fun n hn => ?_, fun n hn => ?_, ?_⟩
  · simp [hd] at hn
  · simp [hd] at hn
    rcases hn with rfl | rfl
    · exact n1
    · exact n0
  intro s1 s3 h0 t2
  match h0 with
  | 1 => exact norm_minus (amP s1 s3 t2)
  | 0 => exact norm_plus (amM s1 s3 t2)

variable [FPEnv] in
theorem gdZd.agrees : gdZd.Agrees := by
  refine agrees_of (D := [3, 4]) (E := [4]) (by simp [all, gdZd]) (by decide +kernel) (by decide) (by decide +kernel) (fun c hc hh => ⟨List.forall_mem_cons.2 ⟨hc.MW, List.forall_mem_cons.2 ⟨hc.SW, List.forall_mem_nil _⟩⟩, List.forall_mem_cons.2 ⟨hc.SW_lt, List.forall_mem_nil _⟩⟩) (fun c hc i => gdZd.mass_eq hc i) (by decide +kernel) ?_
  intro c p u ε hc hh hw h0 hs hb hr hu
  have he : gdZd.react.ends = [3] := by decide
  have ht : gdZd.react.starts = [1] := by decide
  have hB : gdZd.react.bosons = [0, 2] := by decide
  obtain ⟨n0, n1, d1, d2, am⟩ := gdZd.amps hc hh h0 hs hb hr hu
  refine ⟨d1, d2, ?_⟩
  show meaning (gdZd.N c p) .r Cls.gdZd.methods Cls.gdZd.amp2 [] = _
  have s0 : gdZd.react.states 0 = 16 := by decide +kernel
  have s1 : gdZd.react.states 1 = 6 := by decide +kernel
  have sy : gdZd.react.symmetry = 1 := by decide
  have p0 : gdZd.react.spins 0 = {0, 1} := rfl
  have p1 : gdZd.react.spins 1 = {0, 1} := rfl
  have p2 : gdZd.react.spins 2 = Finset.univ := rfl
  have p3 : gdZd.react.spins 3 = {0, 1} := rfl
  have E0 : gdZd.react.codeE c p 0 = lightE (legA (p 0) 0 0, legS (p 0) 0 1) := rfl
  have E2 : gdZd.react.codeE c p 2 = gdZd.react.codeVec c p 2 := rfl
  have hG : gdZd.react.Gauge c p := (gdZd.react.gauge_line he ht hB hh (by decide) (fun n => onShell_msq (hs n)) hb hr (fun n m h h2 => absurd (And.intro h h2) (by revert n m; decide)) (fun _ => ⟨rfl, rfl⟩) (fun h => absurd h (by decide)))
  rw [gdZd.value, gdZd.react.squared_gluon 0 he ht hB (by decide) (by decide +kernel) (by decide +kernel) hs h0 (fun _ b _ hb _ => (boson_pos hc hh hb).ne') hG (E := gdZd.react.codeE c p) (fun n b hl => gdZd.react.codeE_polarised hs h0 hu (fun b hb => (boson_pos hc hh hb).ne') n b hl) hu, sum_colours, s0, s1, sy]
  simp only [sumV_sum, sumJ_sum, sumW_sum, am, p0, p1, p2, p3, E0, E2, Finset.sum_singleton, sum_two, Matrix.cons_val_zero, Matrix.cons_val_one, Matrix.cons_val, two_castSucc]
  try simp only [← Finset.mul_sum]
  push_cast
  first | ring1 | ring_nf

/-! ### guZu -/

/-- what the methods of the class see -/
noncomputable abbrev guZu.N [FPEnv] (c : Constants) (p : Nat → V4 ℝ) : Env := guZu.proc.env (guZu.rho c) p
/-- the term that `amp` adds for a choice of spinors, for a gluon of positive helicity (SM/guZu.cpp) -/
noncomputable def guZu.termP (N : Env) (w : ℝ) (x : ℂ) (j2 a2 b2 j4 : Int) : ℂ :=
  (x + ((((((w * N.r 9) : ℝ) : ℂ) * (((((N.r 11 : ℝ) : ℂ) * N.v 3 [j2, a2]) * ((((((-N.r 7) : ℝ) : ℂ) * N.v 2 [j4]) * N.v 5 [b2]) - ((((N.r 3 : ℝ) : ℂ) * N.v 1 [b2]) * N.v 7 [j4]))) + ((((N.r 12 : ℝ) : ℂ) * N.v 4 [a2, j4]) * ((((((-N.r 3) : ℝ) : ℂ) * N.v 1 [b2]) * N.v 6 [j2]) - ((((N.r 7 : ℝ) : ℂ) * N.v 0 [j2]) * N.v 8 [b2]))))) / N.c 1) / N.c 0))
/-- the same with spinors in place of their spins -/
noncomputable def guZu.formP (N : Env) (p : Nat → V4 ℝ) (z0 z1 x2 y2 z3 : Pair) : ℂ :=
  (0 + ((((((((1 : Nat) : ℝ) * N.r 9) : ℝ) : ℂ) * (((((N.r 11 : ℝ) : ℂ) * (ab z1.1 x2.1)) * ((((((-N.r 7) : ℝ) : ℂ) * (sb z0.2 z3.2)) * (mb z0.2 (p 1) y2.1)) - ((((N.r 3 : ℝ) : ℂ) * (sb z0.2 y2.2)) * (mb z0.2 (p 2) z3.1)))) + ((((N.r 12 : ℝ) : ℂ) * (ab x2.1 z3.1)) * ((((((-N.r 3) : ℝ) : ℂ) * (sb z0.2 y2.2)) * (mb z0.2 (p 2) z1.1)) - ((((N.r 7 : ℝ) : ℂ) * (sb z0.2 z1.2)) * (mb z0.2 (p 3) y2.1)))))) / N.c 1) / N.c 0))
/-- the term that `amp` adds for a choice of spinors, for a gluon of negative helicity (SM/guZu.cpp) -/
noncomputable def guZu.termM (N : Env) (w : ℝ) (x : ℂ) (j2 a2 b2 j4 : Int) : ℂ :=
  (x + ((((((w * N.r 9) : ℝ) : ℂ) * (((((N.r 12 : ℝ) : ℂ) * N.v 12 [j2, a2]) * ((((((-N.r 7) : ℝ) : ℂ) * N.v 11 [j4]) * N.v 14 [b2]) - ((((N.r 3 : ℝ) : ℂ) * N.v 10 [b2]) * N.v 16 [j4]))) + ((((N.r 11 : ℝ) : ℂ) * N.v 13 [a2, j4]) * ((((((-N.r 3) : ℝ) : ℂ) * N.v 10 [b2]) * N.v 15 [j2]) - ((((N.r 7 : ℝ) : ℂ) * N.v 9 [j2]) * N.v 17 [b2]))))) / N.c 1) / N.c 0))
/-- the same with spinors in place of their spins -/
noncomputable def guZu.formM (N : Env) (p : Nat → V4 ℝ) (z0 z1 x2 y2 z3 : Pair) : ℂ :=
  (0 + ((((((((1 : Nat) : ℝ) * N.r 9) : ℝ) : ℂ) * (((((N.r 12 : ℝ) : ℂ) * (sb z1.2 x2.2)) * ((((((-N.r 7) : ℝ) : ℂ) * (ab z0.1 z3.1)) * (mb y2.2 (p 1) z0.1)) - ((((N.r 3 : ℝ) : ℂ) * (ab z0.1 y2.1)) * (mb z3.2 (p 2) z0.1)))) + ((((N.r 11 : ℝ) : ℂ) * (sb x2.2 z3.2)) * ((((((-N.r 3) : ℝ) : ℂ) * (ab z0.1 y2.1)) * (mb z1.2 (p 2) z0.1)) - ((((N.r 7 : ℝ) : ℂ) * (ab z0.1 z1.1)) * (mb y2.2 (p 3) z0.1)))))) / N.c 1) / N.c 0))
theorem guZu.keyP {c : Constants} {p : Nat → V4 ℝ} {N : Env} (hc : c.Physical) (hb : Balanced p) (r3 : N.r 3 = (c.mass .u)) (r7 : N.r 7 = (c.MW / c.CW)) (r9 : N.r 9 = (((((2 : Nat) : ℝ) * c.e) * c.gs) / ((((2 : Nat) : ℝ) * c.MW) * c.SW))) (r11 : N.r 11 = (((((-((2 : Nat) : ℝ)) * (((2 : Nat) : ℝ) / ((3 : Nat) : ℝ))) * c.SW) * c.SW) + ((1 : Nat) : ℝ))) (r12 : N.r 12 = ((((-((2 : Nat) : ℝ)) * (((2 : Nat) : ℝ) / ((3 : Nat) : ℝ))) * c.SW) * c.SW)) (d0 : ((msq (plus (p 1) (p 0)) - c.mass .u ^ 2 : ℝ) : ℂ) = N.c 0) (n0 : N.c 0 ≠ 0) (d1 : ((msq (plus (p 1) (backward (p 2))) - c.mass .u ^ 2 : ℝ) : ℂ) = N.c 1) (n1 : N.c 1 ≠ 0) {z0 z1 z2 z3 : Pair} (b1 : Bold (p 1) (c.mass .u) z1) (b2 : Bold (p 2) c.MZ z2) (b3 : Bold (p 3) (c.mass .u) z3) (l0 : Light (p 0) z0) (e01 : mb z0.2 (p 1) z0.1 = N.c 0) (e03 : mb z0.2 (p 3) z0.1 = -N.c 1) (q1 : msq (p 1) = (c.mass .u) ^ 2) (q2 : msq (p 2) = c.MZ ^ 2) (q3 : msq (p 3) = (c.mass .u) ^ 2) (ρ0 : V2) :
    guZu.formP N p z0 z1 z2 z2 z3 * ab ρ0 z0.1 = ((√2 : ℝ) * ((1 : ℂ) * ((√2 / c.MZ : ℝ) : ℂ))) * guZu.react.bare c p 3 1 0 2 z3 z1 (pv ρ0 z0.2) (pv z2.1 z2.2) := by
  rw [guZu.react.bare_parts c p (i := 3) (j := 1) (a := 0) (b := 2) (x := .gluon) (y := .z) (k := (p 0)) (k' := (backward (p 2))) (fun _ => rfl) (fun _ => rfl) (f := .u) (g := .u) rfl rfl (l := (p 1)) rfl (e := 1) (e' := 1) (if_neg Bool.false_ne_true) (if_neg Bool.false_ne_true)]
  rw [compton_vv (f := .u) (x := .u) (g := .u) (h := (rfl : Spec.after .gluon Flavour.u = some Flavour.u)) (h' := (rfl : Spec.after .z Flavour.u = some Flavour.u)) (ha := by simp) (hb := by simp)]
  rw [compton_vv (f := .u) (x := .u) (g := .u) (h := (rfl : Spec.after .z Flavour.u = some Flavour.u)) (h' := (rfl : Spec.after .gluon Flavour.u = some Flavour.u)) (ha := by simp) (hb := by simp)]
  rw [annihilation_none c _ _ (by rfl) (by simp), star_zero, add_zero, guZu.formP]
  simp only [d0, d1, lineV_pv, lineV_four, contract_four_pv, contract_pv, mb_plus, mb_backward]
  have i0 := ab_schouten z2.1 z3.1 ρ0 z1.1
  have i1 := ab_schouten z1.1 z2.1 ρ0 z0.1
  have i2 := mb_schouten_right z0.2 (p 2) z0.1 z1.1 z2.1
  have i3 := ab_schouten z1.1 z3.1 ρ0 z0.1
  have i4 := ab_schouten z2.1 z3.1 ρ0 z0.1
  have i5 := mb_schouten_right z0.2 (p 2) z0.1 z1.1 z3.1
  have i6 := sb_schouten z1.2 z2.2 z3.2 z0.2
  have i7 := mb_schouten_right z0.2 (p 1) z0.1 z2.1 ρ0
  have i8 := ab_schouten z1.1 z2.1 z3.1 z0.1
  have i9 := mb_schouten_left z0.2 z1.2 z2.2 (p 2) z0.1
  have i10 := mb_schouten_right z1.2 (p 2) z0.1 z2.1 z3.1
  have i11 := mb_schouten_right z0.2 (p 2) z0.1 z2.1 z3.1
  have i12 := mb_schouten_right z2.2 (p 1) z0.1 z2.1 z3.1
  have i13 := mb_schouten_right z0.2 (p 1) z0.1 z3.1 ρ0
  have i14 := mb_schouten_right z0.2 (p 2) z0.1 z3.1 ρ0
  have i15 := mb_schouten_right z0.2 (p 1) z0.1 z2.1 z3.1
  have i16 := mb_schouten_left z0.2 z1.2 z2.2 (p 1) z0.1
  have i17 := mb_schouten_right z0.2 (p 1) z1.1 z2.1 ρ0
  have i18 := mb_schouten_left z0.2 z1.2 z2.2 (p 1) z2.1
  have i19 := mb_schouten_right z0.2 (p 2) z0.1 z2.1 ρ0
  have i20 := mb_schouten_right z0.2 (p 2) z0.1 z1.1 ρ0
  have i21 := mb_schouten_right z2.2 (p 1) z0.1 z1.1 ρ0
  have i22 := mb_schouten_right z0.2 (p 1) z0.1 z1.1 z2.1
  have i23 := mb_schouten_right z2.2 (p 1) z0.1 z2.1 ρ0
  have i24 := mb_schouten_left z0.2 z1.2 z3.2 (p 1) z2.1
  have i25 := mb_schouten_left z0.2 z2.2 z3.2 (p 2) z0.1
  have i26 := mb_schouten_right z0.2 (p 1) z0.1 z1.1 z3.1
  have i27 := mb_schouten_left z0.2 z2.2 z3.2 (p 1) z0.1
  have i28 := mb_schouten_right z0.2 (p 1) z2.1 z3.1 ρ0
  have i29 := mb_schouten_right z0.2 (p 2) z2.1 z3.1 ρ0
  have i30 := mb_schouten_right z2.2 (p 1) z0.1 z3.1 ρ0
  simp only [l0.mb_eq, b1.mb_left, b1.mb_right, b2.mb_left, b2.mb_right, b3.mb_left, b3.mb_right, e01, e03, mb_two hb z0.2 z0.1, mb_three hb z0.2 z1.1, mb_three hb z0.2 z2.1, mb_two hb z0.2 z3.1, mb_three hb z0.2 ρ0, mb_three hb z1.2 z0.1, mb_three hb z1.2 z1.1, mb_three hb z1.2 z2.1, mb_two hb z1.2 z3.1, mb_three hb z1.2 ρ0, mb_three hb z2.2 z0.1, mb_three hb z2.2 z1.1, mb_three hb z2.2 z2.1, mb_one hb z2.2 z3.1, mb_three hb z2.2 ρ0, mb_two hb z3.2 z0.1, mb_two hb z3.2 z1.1, mb_one hb z3.2 z2.1, mb_two hb z3.2 z3.1, mb_two hb z3.2 ρ0, ab_self, sb_self] at i0 i1 i2 i3 i4 i5 i6 i7 i8 i9 i10 i11 i12 i13 i14 i15 i16 i17 i18 i19 i20 i21 i22 i23 i24 i25 i26 i27 i28 i29 i30 ⊢
  simp only [ab_swap z0.1 z1.1, ab_swap z0.1 z2.1, ab_swap z0.1 z3.1, ab_swap z0.1 ρ0, ab_swap z1.1 z2.1, ab_swap z1.1 z3.1, ab_swap z1.1 ρ0, ab_swap z2.1 z3.1, ab_swap z2.1 ρ0, ab_swap z3.1 ρ0, sb_swap z0.2 z1.2, sb_swap z0.2 z2.2, sb_swap z0.2 z3.2, sb_swap z1.2 z2.2, sb_swap z1.2 z3.2, sb_swap z2.2 z3.2] at i0 i1 i2 i3 i4 i5 i6 i7 i8 i9 i10 i11 i12 i13 i14 i15 i16 i17 i18 i19 i20 i21 i22 i23 i24 i25 i26 i27 i28 i29 i30 ⊢
  simp only [r3, r7, r9, r11, r12, Constants.hL, Constants.hR, Constants.gL, Constants.gR, Constants.yuk, Constants.invVev, Flavour.charge_u, Flavour.isospin_u, ← c.mz]
  have xMW : (c.MW : ℂ) ≠ 0 := by exact_mod_cast hc.MW
  have xSW : (c.SW : ℂ) ≠ 0 := by exact_mod_cast hc.SW
  have xCW : (c.CW : ℂ) ≠ 0 := by exact_mod_cast hc.CW
  have x2 : ((√2 : ℝ) : ℂ) ≠ 0 := by exact_mod_cast (Real.sqrt_pos.2 two_pos).ne'
  have x22 : ((√2 : ℝ) : ℂ) ^ 2 = 2 := by rw [← Complex.ofReal_pow, Real.sq_sqrt two_pos.le]; norm_num
  have x23 : ((√2 : ℝ) : ℂ) ^ 3 = 2 * ((√2 : ℝ) : ℂ) := by rw [← x22]; ring
  have x24 : ((√2 : ℝ) : ℂ) ^ 4 = 4 := by linear_combination (((√2 : ℝ) : ℂ) ^ 2 + 2) * x22
  try simp only [← c.mz] at i0 i1 i2 i3 i4 i5 i6 i7 i8 i9 i10 i11 i12 i13 i14 i15 i16 i17 i18 i19 i20 i21 i22 i23 i24 i25 i26 i27 i28 i29 i30
  push_cast at i0 i1 i2 i3 i4 i5 i6 i7 i8 i9 i10 i11 i12 i13 i14 i15 i16 i17 i18 i19 i20 i21 i22 i23 i24 i25 i26 i27 i28 i29 i30 ⊢
  simp only [div_eq_mul_inv, mul_inv, inv_inv] at i0 i1 i2 i3 i4 i5 i6 i7 i8 i9 i10 i11 i12 i13 i14 i15 i16 i17 i18 i19 i20 i21 i22 i23 i24 i25 i26 i27 i28 i29 i30 ⊢
  have y0 := mul_inv_cancel₀ n0
  have y1 := mul_inv_cancel₀ n1
  have yCW := mul_inv_cancel₀ xCW
  have yMW := mul_inv_cancel₀ xMW
  have ySW := mul_inv_cancel₀ xSW
  linear_combination ((((8) * ((c.SW : ℂ)) ^ 2 * ((c.e : ℂ)) * ((c.gs : ℂ)) * ((c.mass .u : ℂ)) * (N.c 0) * (sb z0.2 z2.2) + (16) * ((c.SW : ℂ)) ^ 2 * ((c.e : ℂ)) * ((c.gs : ℂ)) * ((c.mass .u : ℂ)) * (N.c 1) * (sb z0.2 z2.2) + (-6) * ((c.e : ℂ)) * ((c.gs : ℂ)) * ((c.mass .u : ℂ)) * (N.c 0) * (sb z0.2 z2.2) + (-6) * ((c.e : ℂ)) * ((c.gs : ℂ)) * ((c.mass .u : ℂ)) * (N.c 1) * (sb z0.2 z2.2)) * i0 + ((-4) * ((c.SW : ℂ)) ^ 2 * ((c.e : ℂ)) * ((c.gs : ℂ)) * ((c.mass .u : ℂ)) * (mb z0.2 (p 1) z3.1) * (sb z0.2 z2.2) + (-8) * ((c.SW : ℂ)) ^ 2 * ((c.e : ℂ)) * ((c.gs : ℂ)) * ((c.mass .u : ℂ)) ^ 2 * (sb z0.2 z2.2) * (sb z0.2 z3.2) + (3) * ((c.e : ℂ)) * ((c.gs : ℂ)) * ((c.mass .u : ℂ)) * (mb z0.2 (p 1) z3.1) * (sb z0.2 z2.2) + (3) * ((c.e : ℂ)) * ((c.gs : ℂ)) * ((c.mass .u : ℂ)) ^ 2 * (sb z0.2 z2.2) * (sb z0.2 z3.2)) * i1 + ((-8) * ((c.SW : ℂ)) ^ 2 * ((c.e : ℂ)) * ((c.gs : ℂ)) * ((c.mass .u : ℂ)) * (ab z3.1 ρ0) * (sb z0.2 z2.2) + (3) * ((c.e : ℂ)) * ((c.gs : ℂ)) * ((c.mass .u : ℂ)) * (ab z3.1 ρ0) * (sb z0.2 z2.2)) * i2 + ((-8) * ((c.MW : ℂ)) * ((c.SW : ℂ)) ^ 2 * ((c.e : ℂ)) * ((c.gs : ℂ)) * ((c.CW : ℂ)⁻¹) * ((c.mass .u : ℂ)) * (sb z0.2 z2.2) ^ 2 + (3) * ((c.MW : ℂ)) * ((c.e : ℂ)) * ((c.gs : ℂ)) * ((c.CW : ℂ)⁻¹) * ((c.mass .u : ℂ)) * (sb z0.2 z2.2) ^ 2 + (-4) * ((c.SW : ℂ)) ^ 2 * ((c.e : ℂ)) * ((c.gs : ℂ)) * ((c.mass .u : ℂ)) * (mb z0.2 (p 1) z2.1) * (sb z0.2 z2.2)) * i3 + ((-8) * ((c.SW : ℂ)) ^ 2 * ((c.e : ℂ)) * ((c.gs : ℂ)) * ((c.mass .u : ℂ)) * (mb z0.2 (p 2) z1.1) * (sb z0.2 z2.2) + (-4) * ((c.SW : ℂ)) ^ 2 * ((c.e : ℂ)) * ((c.gs : ℂ)) * ((c.mass .u : ℂ)) ^ 2 * (sb z0.2 z1.2) * (sb z0.2 z2.2) + (3) * ((c.e : ℂ)) * ((c.gs : ℂ)) * ((c.mass .u : ℂ)) * (mb z0.2 (p 2) z1.1) * (sb z0.2 z2.2)) * i4 + ((8) * ((c.SW : ℂ)) ^ 2 * ((c.e : ℂ)) * ((c.gs : ℂ)) * ((c.mass .u : ℂ)) * (ab z2.1 ρ0) * (sb z0.2 z2.2) + (-3) * ((c.e : ℂ)) * ((c.gs : ℂ)) * ((c.mass .u : ℂ)) * (ab z2.1 ρ0) * (sb z0.2 z2.2)) * i5 + ((-4) * ((c.SW : ℂ)) ^ 2 * ((c.e : ℂ)) * ((c.gs : ℂ)) * ((c.mass .u : ℂ)) * (N.c 0) * (ab z2.1 ρ0) + (4) * ((c.SW : ℂ)) ^ 2 * ((c.e : ℂ)) * ((c.gs : ℂ)) * ((c.mass .u : ℂ)) * (ab z0.1 z2.1) * (mb z0.2 (p 1) ρ0) + (-8) * ((c.SW : ℂ)) ^ 2 * ((c.e : ℂ)) * ((c.gs : ℂ)) * ((c.mass .u : ℂ)) * (ab z0.1 z2.1) * (mb z0.2 (p 2) ρ0) + (-3) * ((c.e : ℂ)) * ((c.gs : ℂ)) * ((c.mass .u : ℂ)) * (ab z0.1 z2.1) * (mb z0.2 (p 1) ρ0) + (3) * ((c.e : ℂ)) * ((c.gs : ℂ)) * ((c.mass .u : ℂ)) * (ab z0.1 z2.1) * (mb z0.2 (p 2) ρ0)) * i6 + ((4) * ((c.MW : ℂ)) * ((c.SW : ℂ)) ^ 2 * ((c.e : ℂ)) * ((c.gs : ℂ)) * ((c.CW : ℂ)⁻¹) * (ab z1.1 z2.1) * (sb z0.2 z3.2) + (-3) * ((c.MW : ℂ)) * ((c.e : ℂ)) * ((c.gs : ℂ)) * ((c.CW : ℂ)⁻¹) * (ab z1.1 z2.1) * (sb z0.2 z3.2) + (-4) * ((c.SW : ℂ)) ^ 2 * ((c.e : ℂ)) * ((c.gs : ℂ)) * ((c.mass .u : ℂ)) * (ab z1.1 z3.1) * (sb z0.2 z2.2) + (4) * ((c.SW : ℂ)) ^ 2 * ((c.e : ℂ)) * ((c.gs : ℂ)) * ((c.mass .u : ℂ)) * (sb z0.2 z1.2) * (sb z2.2 z3.2) + (-4) * ((c.SW : ℂ)) ^ 2 * ((c.e : ℂ)) * ((c.gs : ℂ)) * ((c.mass .u : ℂ)) * (sb z0.2 z2.2) * (sb z1.2 z3.2) + (4) * ((c.SW : ℂ)) ^ 2 * ((c.e : ℂ)) * ((c.gs : ℂ)) * (mb z0.2 (p 1) z3.1) * (sb z1.2 z2.2)) * i7 + ((4) * ((c.SW : ℂ)) ^ 2 * ((c.e : ℂ)) * ((c.gs : ℂ)) * ((c.mass .u : ℂ)) * (mb z0.2 (p 1) ρ0) * (sb z0.2 z2.2) + (-3) * ((c.e : ℂ)) * ((c.gs : ℂ)) * ((c.mass .u : ℂ)) * (mb z0.2 (p 1) ρ0) * (sb z0.2 z2.2)) * i8 + ((8) * ((c.SW : ℂ)) ^ 2 * ((c.e : ℂ)) * ((c.gs : ℂ)) * (ab z2.1 z3.1) * (mb z0.2 (p 1) ρ0) + (-8) * ((c.SW : ℂ)) ^ 2 * ((c.e : ℂ)) * ((c.gs : ℂ)) * (ab z2.1 z3.1) * (mb z0.2 (p 2) ρ0) + (-3) * ((c.e : ℂ)) * ((c.gs : ℂ)) * (ab z2.1 z3.1) * (mb z0.2 (p 1) ρ0) + (3) * ((c.e : ℂ)) * ((c.gs : ℂ)) * (ab z2.1 z3.1) * (mb z0.2 (p 2) ρ0)) * i9 + ((8) * ((c.SW : ℂ)) ^ 2 * ((c.e : ℂ)) * ((c.gs : ℂ)) * (mb z0.2 (p 1) ρ0) * (sb z0.2 z2.2) + (-8) * ((c.SW : ℂ)) ^ 2 * ((c.e : ℂ)) * ((c.gs : ℂ)) * (mb z0.2 (p 2) ρ0) * (sb z0.2 z2.2) + (-3) * ((c.e : ℂ)) * ((c.gs : ℂ)) * (mb z0.2 (p 1) ρ0) * (sb z0.2 z2.2) + (3) * ((c.e : ℂ)) * ((c.gs : ℂ)) * (mb z0.2 (p 2) ρ0) * (sb z0.2 z2.2)) * i10 + ((-8) * ((c.SW : ℂ)) ^ 2 * ((c.e : ℂ)) * ((c.gs : ℂ)) * ((c.mass .u : ℂ)) * (ab z1.1 ρ0) * (sb z0.2 z2.2) + (4) * ((c.SW : ℂ)) ^ 2 * ((c.e : ℂ)) * ((c.gs : ℂ)) * (ab z0.1 ρ0) * (sb z0.2 z1.2) * (sb z0.2 z2.2) + (-4) * ((c.SW : ℂ)) ^ 2 * ((c.e : ℂ)) * ((c.gs : ℂ)) * (mb z0.2 (p 1) ρ0) * (sb z1.2 z2.2) + (8) * ((c.SW : ℂ)) ^ 2 * ((c.e : ℂ)) * ((c.gs : ℂ)) * (mb z0.2 (p 2) ρ0) * (sb z1.2 z2.2) + (-4) * ((c.SW : ℂ)) ^ 2 * ((c.e : ℂ)) * ((c.gs : ℂ)) * (mb z2.2 (p 1) ρ0) * (sb z0.2 z1.2) + (3) * ((c.e : ℂ)) * ((c.gs : ℂ)) * ((c.mass .u : ℂ)) * (ab z1.1 ρ0) * (sb z0.2 z2.2) + (3) * ((c.e : ℂ)) * ((c.gs : ℂ)) * (mb z0.2 (p 1) ρ0) * (sb z1.2 z2.2) + (-3) * ((c.e : ℂ)) * ((c.gs : ℂ)) * (mb z0.2 (p 2) ρ0) * (sb z1.2 z2.2)) * i11 + ((8) * ((c.SW : ℂ)) ^ 2 * ((c.e : ℂ)) * ((c.gs : ℂ)) * (mb z0.2 (p 1) ρ0) * (sb z0.2 z1.2) + (-8) * ((c.SW : ℂ)) ^ 2 * ((c.e : ℂ)) * ((c.gs : ℂ)) * (mb z0.2 (p 2) ρ0) * (sb z0.2 z1.2) + (-3) * ((c.e : ℂ)) * ((c.gs : ℂ)) * (mb z0.2 (p 1) ρ0) * (sb z0.2 z1.2) + (3) * ((c.e : ℂ)) * ((c.gs : ℂ)) * (mb z0.2 (p 2) ρ0) * (sb z0.2 z1.2)) * i12 + ((-4) * ((c.MW : ℂ)) * ((c.SW : ℂ)) ^ 2 * ((c.e : ℂ)) * ((c.gs : ℂ)) * ((c.CW : ℂ)⁻¹) * (sb z0.2 z2.2) * (sb z1.2 z2.2) + (8) * ((c.SW : ℂ)) ^ 2 * ((c.e : ℂ)) * ((c.gs : ℂ)) * (mb z2.2 (p 1) z2.1) * (sb z0.2 z1.2) + (-3) * ((c.e : ℂ)) * ((c.gs : ℂ)) * (mb z0.2 (p 1) z2.1) * (sb z1.2 z2.2) + (-3) * ((c.e : ℂ)) * ((c.gs : ℂ)) * (mb z2.2 (p 1) z2.1) * (sb z0.2 z1.2)) * i13 + ((-4) * ((c.SW : ℂ)) ^ 2 * ((c.e : ℂ)) * ((c.gs : ℂ)) * (mb z0.2 (p 1) z2.1) * (sb z1.2 z2.2) + (-8) * ((c.SW : ℂ)) ^ 2 * ((c.e : ℂ)) * ((c.gs : ℂ)) * (mb z2.2 (p 1) z2.1) * (sb z0.2 z1.2) + (3) * ((c.e : ℂ)) * ((c.gs : ℂ)) * (mb z0.2 (p 1) z2.1) * (sb z1.2 z2.2) + (3) * ((c.e : ℂ)) * ((c.gs : ℂ)) * (mb z2.2 (p 1) z2.1) * (sb z0.2 z1.2)) * i14 + ((4) * ((c.SW : ℂ)) ^ 2 * ((c.e : ℂ)) * ((c.gs : ℂ)) * ((c.mass .u : ℂ)) * (ab z1.1 ρ0) * (sb z0.2 z2.2) + (-4) * ((c.SW : ℂ)) ^ 2 * ((c.e : ℂ)) * ((c.gs : ℂ)) * (ab z0.1 ρ0) * (sb z0.2 z1.2) * (sb z0.2 z2.2) + (-4) * ((c.SW : ℂ)) ^ 2 * ((c.e : ℂ)) * ((c.gs : ℂ)) * (mb z0.2 (p 2) ρ0) * (sb z1.2 z2.2) + (4) * ((c.SW : ℂ)) ^ 2 * ((c.e : ℂ)) * ((c.gs : ℂ)) * (mb z2.2 (p 1) ρ0) * (sb z0.2 z1.2) + (-3) * ((c.e : ℂ)) * ((c.gs : ℂ)) * (mb z0.2 (p 1) ρ0) * (sb z1.2 z2.2) + (3) * ((c.e : ℂ)) * ((c.gs : ℂ)) * (mb z0.2 (p 2) ρ0) * (sb z1.2 z2.2)) * i15 + ((-4) * ((c.SW : ℂ)) ^ 2 * ((c.e : ℂ)) * ((c.gs : ℂ)) * (ab z2.1 z3.1) * (mb z0.2 (p 1) ρ0) + (4) * ((c.SW : ℂ)) ^ 2 * ((c.e : ℂ)) * ((c.gs : ℂ)) * (ab z2.1 z3.1) * (mb z0.2 (p 2) ρ0) + (3) * ((c.e : ℂ)) * ((c.gs : ℂ)) * (ab z2.1 z3.1) * (mb z0.2 (p 1) ρ0) + (-3) * ((c.e : ℂ)) * ((c.gs : ℂ)) * (ab z2.1 z3.1) * (mb z0.2 (p 2) ρ0)) * i16 + ((4) * ((c.SW : ℂ)) ^ 2 * ((c.e : ℂ)) * ((c.gs : ℂ)) * (N.c 1) * (sb z2.2 z3.2) + (4) * ((c.SW : ℂ)) ^ 2 * ((c.e : ℂ)) * ((c.gs : ℂ)) * (mb z2.2 (p 1) z0.1) * (sb z0.2 z3.2) + (-3) * ((c.e : ℂ)) * ((c.gs : ℂ)) * (N.c 1) * (sb z2.2 z3.2) + (-3) * ((c.e : ℂ)) * ((c.gs : ℂ)) * (mb z2.2 (p 1) z0.1) * (sb z0.2 z3.2)) * i17 + ((8) * ((c.SW : ℂ)) ^ 2 * ((c.e : ℂ)) * ((c.gs : ℂ)) * (N.c 1) * (ab z3.1 ρ0) + (-3) * ((c.e : ℂ)) * ((c.gs : ℂ)) * (N.c 1) * (ab z3.1 ρ0)) * i18 + ((8) * ((c.SW : ℂ)) ^ 2 * ((c.e : ℂ)) * ((c.gs : ℂ)) * ((c.mass .u : ℂ)) * (ab z1.1 z3.1) * (sb z0.2 z2.2) + (-4) * ((c.SW : ℂ)) ^ 2 * ((c.e : ℂ)) * ((c.gs : ℂ)) * (mb z0.2 (p 1) z3.1) * (sb z1.2 z2.2) + (-3) * ((c.e : ℂ)) * ((c.gs : ℂ)) * ((c.mass .u : ℂ)) * (ab z1.1 z3.1) * (sb z0.2 z2.2)) * i19 + ((-4) * ((c.SW : ℂ)) ^ 2 * ((c.e : ℂ)) * ((c.gs : ℂ)) * ((c.mass .u : ℂ)) * (ab z2.1 z3.1) * (sb z0.2 z2.2) + (3) * ((c.e : ℂ)) * ((c.gs : ℂ)) * ((c.mass .u : ℂ)) * (ab z2.1 z3.1) * (sb z0.2 z2.2)) * i20 + ((4) * ((c.SW : ℂ)) ^ 2 * ((c.e : ℂ)) * ((c.gs : ℂ)) * (mb z0.2 (p 1) z2.1) * (sb z0.2 z3.2) + (-3) * ((c.e : ℂ)) * ((c.gs : ℂ)) * (mb z0.2 (p 1) z2.1) * (sb z0.2 z3.2)) * i21 + ((4) * ((c.SW : ℂ)) ^ 2 * ((c.e : ℂ)) * ((c.gs : ℂ)) * ((c.mass .u : ℂ)) * (ab z3.1 ρ0) * (sb z0.2 z2.2) + (-4) * ((c.SW : ℂ)) ^ 2 * ((c.e : ℂ)) * ((c.gs : ℂ)) * (mb z2.2 (p 1) ρ0) * (sb z0.2 z3.2) + (3) * ((c.e : ℂ)) * ((c.gs : ℂ)) * (mb z2.2 (p 1) ρ0) * (sb z0.2 z3.2)) * i22 + ((8) * ((c.SW : ℂ)) ^ 2 * ((c.e : ℂ)) * ((c.gs : ℂ)) * ((c.mass .u : ℂ)) * (sb z0.2 z1.2) * (sb z0.2 z3.2) + (-3) * ((c.e : ℂ)) * ((c.gs : ℂ)) * ((c.mass .u : ℂ)) * (sb z0.2 z1.2) * (sb z0.2 z3.2)) * i23 + ((-4) * ((c.SW : ℂ)) ^ 2 * ((c.e : ℂ)) * ((c.gs : ℂ)) * ((c.mass .u : ℂ)) * (ab z0.1 ρ0) * (sb z0.2 z2.2)) * i24 + ((-4) * ((c.SW : ℂ)) ^ 2 * ((c.e : ℂ)) * ((c.gs : ℂ)) * (ab z1.1 z2.1) * (mb z0.2 (p 1) ρ0) + (3) * ((c.e : ℂ)) * ((c.gs : ℂ)) * (ab z1.1 z2.1) * (mb z0.2 (p 1) ρ0)) * i25 + ((-4) * ((c.SW : ℂ)) ^ 2 * ((c.e : ℂ)) * ((c.gs : ℂ)) * ((c.mass .u : ℂ)) * (ab z2.1 ρ0) * (sb z0.2 z2.2)) * i26 + ((4) * ((c.SW : ℂ)) ^ 2 * ((c.e : ℂ)) * ((c.gs : ℂ)) * (ab z1.1 z2.1) * (mb z0.2 (p 1) ρ0) + (-3) * ((c.e : ℂ)) * ((c.gs : ℂ)) * (ab z1.1 z2.1) * (mb z0.2 (p 1) ρ0)) * i27 + ((-4) * ((c.SW : ℂ)) ^ 2 * ((c.e : ℂ)) * ((c.gs : ℂ)) * (N.c 1) * (sb z1.2 z2.2) + (-4) * ((c.SW : ℂ)) ^ 2 * ((c.e : ℂ)) * ((c.gs : ℂ)) * (mb z2.2 (p 1) z0.1) * (sb z0.2 z1.2)) * i28 + ((4) * ((c.SW : ℂ)) ^ 2 * ((c.e : ℂ)) * ((c.gs : ℂ)) * (mb z2.2 (p 1) z0.1) * (sb z0.2 z1.2)) * i29 + ((4) * ((c.MW : ℂ)) * ((c.SW : ℂ)) ^ 2 * ((c.e : ℂ)) * ((c.gs : ℂ)) * ((c.CW : ℂ)⁻¹) * (sb z0.2 z1.2) * (sb z0.2 z2.2) + (4) * ((c.SW : ℂ)) ^ 2 * ((c.e : ℂ)) * ((c.gs : ℂ)) * (mb z0.2 (p 1) z2.1) * (sb z0.2 z1.2)) * i30)) * ((1) * ((c.CW : ℂ)) * ((c.CW : ℂ)⁻¹) * ((c.MW : ℂ)⁻¹) * ((c.SW : ℂ)⁻¹) * ((N.c 0)⁻¹) * ((N.c 1)⁻¹) / (3)) + ((-4) * ((c.CW : ℂ)) * ((c.MW : ℂ)) * ((c.SW : ℂ)) ^ 2 * ((c.e : ℂ)) * ((c.gs : ℂ)) * ((c.CW : ℂ)⁻¹) ^ 2 * ((c.MW : ℂ)⁻¹) * ((c.SW : ℂ)⁻¹) * ((N.c 1)⁻¹) * (ab z1.1 z2.1) * (ab z2.1 ρ0) * (sb z0.2 z3.2) / (3) + (4) * ((c.CW : ℂ)) * ((c.MW : ℂ)) * ((c.SW : ℂ)) ^ 2 * ((c.e : ℂ)) * ((c.gs : ℂ)) * ((c.CW : ℂ)⁻¹) ^ 2 * ((c.MW : ℂ)⁻¹) * ((c.SW : ℂ)⁻¹) * ((N.c 1)⁻¹) * (ab z3.1 ρ0) * (sb z0.2 z2.2) * (sb z1.2 z2.2) / (3) + (1) * ((c.CW : ℂ)) * ((c.MW : ℂ)) * ((c.e : ℂ)) * ((c.gs : ℂ)) * ((c.CW : ℂ)⁻¹) ^ 2 * ((c.MW : ℂ)⁻¹) * ((c.SW : ℂ)⁻¹) * ((N.c 1)⁻¹) * (ab z1.1 z2.1) * (ab z2.1 ρ0) * (sb z0.2 z3.2) + (-4) * ((c.CW : ℂ)) * ((c.SW : ℂ)) ^ 2 * ((c.e : ℂ)) * ((c.gs : ℂ)) * ((c.CW : ℂ)⁻¹) * ((c.MW : ℂ)⁻¹) * ((c.SW : ℂ)⁻¹) * ((c.mass .u : ℂ)) * ((N.c 1)⁻¹) * (ab z1.1 z2.1) * (ab z3.1 ρ0) * (sb z0.2 z2.2) / (3) + (4) * ((c.CW : ℂ)) * ((c.SW : ℂ)) ^ 2 * ((c.e : ℂ)) * ((c.gs : ℂ)) * ((c.CW : ℂ)⁻¹) * ((c.MW : ℂ)⁻¹) * ((c.SW : ℂ)⁻¹) * ((c.mass .u : ℂ)) * ((N.c 1)⁻¹) * (ab z2.1 ρ0) * (sb z0.2 z3.2) * (sb z1.2 z2.2) / (3) + (4) * ((c.CW : ℂ)) * ((c.SW : ℂ)) ^ 2 * ((c.e : ℂ)) * ((c.gs : ℂ)) * ((c.CW : ℂ)⁻¹) * ((c.MW : ℂ)⁻¹) * ((c.SW : ℂ)⁻¹) * ((N.c 1)⁻¹) * (ab z1.1 z2.1) * (mb z2.2 (p 1) ρ0) * (sb z0.2 z3.2) / (3) + (4) * ((c.CW : ℂ)) * ((c.SW : ℂ)) ^ 2 * ((c.e : ℂ)) * ((c.gs : ℂ)) * ((c.CW : ℂ)⁻¹) * ((c.MW : ℂ)⁻¹) * ((c.SW : ℂ)⁻¹) * ((N.c 1)⁻¹) * (ab z3.1 ρ0) * (mb z0.2 (p 1) z2.1) * (sb z1.2 z2.2) / (3) + (1) * ((c.CW : ℂ)) * ((c.e : ℂ)) * ((c.gs : ℂ)) * ((c.CW : ℂ)⁻¹) * ((c.MW : ℂ)⁻¹) * ((c.SW : ℂ)⁻¹) * ((c.mass .u : ℂ)) * ((N.c 1)⁻¹) * (ab z1.1 z2.1) * (ab z3.1 ρ0) * (sb z0.2 z2.2) + (-1) * ((c.CW : ℂ)) * ((c.e : ℂ)) * ((c.gs : ℂ)) * ((c.CW : ℂ)⁻¹) * ((c.MW : ℂ)⁻¹) * ((c.SW : ℂ)⁻¹) * ((N.c 1)⁻¹) * (ab z1.1 z2.1) * (mb z2.2 (p 1) ρ0) * (sb z0.2 z3.2)) * y0 + ((-4) * ((c.CW : ℂ)) * ((c.SW : ℂ)) ^ 2 * ((c.e : ℂ)) * ((c.gs : ℂ)) * ((c.CW : ℂ)⁻¹) * ((c.MW : ℂ)⁻¹) * ((c.SW : ℂ)⁻¹) * ((c.mass .u : ℂ)) * ((N.c 0)⁻¹) * (ab z1.1 ρ0) * (ab z2.1 z3.1) * (sb z0.2 z2.2) / (3) + (4) * ((c.CW : ℂ)) * ((c.SW : ℂ)) ^ 2 * ((c.e : ℂ)) * ((c.gs : ℂ)) * ((c.CW : ℂ)⁻¹) * ((c.MW : ℂ)⁻¹) * ((c.SW : ℂ)⁻¹) * ((c.mass .u : ℂ)) * ((N.c 0)⁻¹) * (ab z2.1 ρ0) * (sb z0.2 z1.2) * (sb z2.2 z3.2) / (3) + (-4) * ((c.CW : ℂ)) * ((c.SW : ℂ)) ^ 2 * ((c.e : ℂ)) * ((c.gs : ℂ)) * ((c.CW : ℂ)⁻¹) * ((c.MW : ℂ)⁻¹) * ((c.SW : ℂ)⁻¹) * ((N.c 0)⁻¹) * (ab z0.1 ρ0) * (ab z2.1 z3.1) * (sb z0.2 z1.2) * (sb z0.2 z2.2) / (3) + (4) * ((c.CW : ℂ)) * ((c.SW : ℂ)) ^ 2 * ((c.e : ℂ)) * ((c.gs : ℂ)) * ((c.CW : ℂ)⁻¹) * ((c.MW : ℂ)⁻¹) * ((c.SW : ℂ)⁻¹) * ((N.c 0)⁻¹) * (ab z1.1 ρ0) * (mb z0.2 (p 1) z2.1) * (sb z2.2 z3.2) / (3) + (4) * ((c.CW : ℂ)) * ((c.SW : ℂ)) ^ 2 * ((c.e : ℂ)) * ((c.gs : ℂ)) * ((c.CW : ℂ)⁻¹) * ((c.MW : ℂ)⁻¹) * ((c.SW : ℂ)⁻¹) * ((N.c 0)⁻¹) * (ab z2.1 z3.1) * (mb z2.2 (p 1) ρ0) * (sb z0.2 z1.2) / (3) + (-1) * ((c.CW : ℂ)) * ((c.e : ℂ)) * ((c.gs : ℂ)) * ((c.CW : ℂ)⁻¹) * ((c.MW : ℂ)⁻¹) * ((c.SW : ℂ)⁻¹) * ((c.mass .u : ℂ)) * ((N.c 0)⁻¹) * (ab z2.1 ρ0) * (sb z0.2 z1.2) * (sb z2.2 z3.2) + (-1) * ((c.CW : ℂ)) * ((c.e : ℂ)) * ((c.gs : ℂ)) * ((c.CW : ℂ)⁻¹) * ((c.MW : ℂ)⁻¹) * ((c.SW : ℂ)⁻¹) * ((N.c 0)⁻¹) * (ab z1.1 ρ0) * (mb z0.2 (p 1) z2.1) * (sb z2.2 z3.2)) * y1 + ((2) * ((c.MW : ℂ)) * (((√2 : ℝ) : ℂ)) ^ 2 * ((c.SW : ℂ)) ^ 2 * ((c.e : ℂ)) * ((c.gs : ℂ)) * ((c.CW : ℂ)⁻¹) * ((c.MW : ℂ)⁻¹) * ((c.SW : ℂ)⁻¹) * ((N.c 1)⁻¹) * (ab z1.1 z2.1) * (ab z2.1 ρ0) * (sb z0.2 z3.2) / (3) + (-2) * ((c.MW : ℂ)) * (((√2 : ℝ) : ℂ)) ^ 2 * ((c.SW : ℂ)) ^ 2 * ((c.e : ℂ)) * ((c.gs : ℂ)) * ((c.CW : ℂ)⁻¹) * ((c.MW : ℂ)⁻¹) * ((c.SW : ℂ)⁻¹) * ((N.c 1)⁻¹) * (ab z3.1 ρ0) * (sb z0.2 z2.2) * (sb z1.2 z2.2) / (3) + (-1) * ((c.MW : ℂ)) * (((√2 : ℝ) : ℂ)) ^ 2 * ((c.e : ℂ)) * ((c.gs : ℂ)) * ((c.CW : ℂ)⁻¹) * ((c.MW : ℂ)⁻¹) * ((c.SW : ℂ)⁻¹) * ((N.c 1)⁻¹) * (ab z1.1 z2.1) * (ab z2.1 ρ0) * (sb z0.2 z3.2) / (2) + (4) * ((c.MW : ℂ)) * ((c.SW : ℂ)) ^ 2 * ((c.e : ℂ)) * ((c.gs : ℂ)) * ((c.CW : ℂ)⁻¹) * ((c.MW : ℂ)⁻¹) * ((c.SW : ℂ)⁻¹) * ((N.c 0)⁻¹) * ((N.c 1)⁻¹) * (ab z0.1 ρ0) * (ab z1.1 z2.1) * (mb z0.2 (p 1) z2.1) * (sb z0.2 z3.2) / (3) + (4) * ((c.MW : ℂ)) * ((c.SW : ℂ)) ^ 2 * ((c.e : ℂ)) * ((c.gs : ℂ)) * ((c.CW : ℂ)⁻¹) * ((c.MW : ℂ)⁻¹) * ((c.SW : ℂ)⁻¹) * ((N.c 0)⁻¹) * ((N.c 1)⁻¹) * (ab z0.1 ρ0) * (ab z2.1 z3.1) * (mb z0.2 (p 1) z2.1) * (sb z0.2 z1.2) / (3) + (-4) * ((c.MW : ℂ)) * ((c.SW : ℂ)) ^ 2 * ((c.e : ℂ)) * ((c.gs : ℂ)) * ((c.CW : ℂ)⁻¹) * ((c.MW : ℂ)⁻¹) * ((c.SW : ℂ)⁻¹) * ((N.c 1)⁻¹) * (ab z1.1 z2.1) * (ab z2.1 ρ0) * (sb z0.2 z3.2) / (3) + (4) * ((c.MW : ℂ)) * ((c.SW : ℂ)) ^ 2 * ((c.e : ℂ)) * ((c.gs : ℂ)) * ((c.CW : ℂ)⁻¹) * ((c.MW : ℂ)⁻¹) * ((c.SW : ℂ)⁻¹) * ((N.c 1)⁻¹) * (ab z3.1 ρ0) * (sb z0.2 z2.2) * (sb z1.2 z2.2) / (3) + (-1) * ((c.MW : ℂ)) * ((c.e : ℂ)) * ((c.gs : ℂ)) * ((c.CW : ℂ)⁻¹) * ((c.MW : ℂ)⁻¹) * ((c.SW : ℂ)⁻¹) * ((N.c 0)⁻¹) * ((N.c 1)⁻¹) * (ab z0.1 ρ0) * (ab z1.1 z2.1) * (mb z0.2 (p 1) z2.1) * (sb z0.2 z3.2) + (1) * ((c.MW : ℂ)) * ((c.e : ℂ)) * ((c.gs : ℂ)) * ((c.CW : ℂ)⁻¹) * ((c.MW : ℂ)⁻¹) * ((c.SW : ℂ)⁻¹) * ((N.c 1)⁻¹) * (ab z1.1 z2.1) * (ab z2.1 ρ0) * (sb z0.2 z3.2) + (4) * ((c.MW : ℂ)) ^ 2 * ((c.SW : ℂ)) ^ 2 * ((c.e : ℂ)) * ((c.gs : ℂ)) * ((c.CW : ℂ)⁻¹) ^ 2 * ((c.MW : ℂ)⁻¹) * ((c.SW : ℂ)⁻¹) * ((N.c 0)⁻¹) * ((N.c 1)⁻¹) * (ab z0.1 ρ0) * (ab z2.1 z3.1) * (sb z0.2 z1.2) * (sb z0.2 z2.2) / (3) + (2) * (((√2 : ℝ) : ℂ)) ^ 2 * ((c.SW : ℂ)) ^ 2 * ((c.e : ℂ)) * ((c.gs : ℂ)) * ((c.MW : ℂ)⁻¹) * ((c.SW : ℂ)⁻¹) * ((c.mass .u : ℂ)) * ((N.c 0)⁻¹) * (ab z1.1 ρ0) * (ab z2.1 z3.1) * (sb z0.2 z2.2) / (3) + (-2) * (((√2 : ℝ) : ℂ)) ^ 2 * ((c.SW : ℂ)) ^ 2 * ((c.e : ℂ)) * ((c.gs : ℂ)) * ((c.MW : ℂ)⁻¹) * ((c.SW : ℂ)⁻¹) * ((c.mass .u : ℂ)) * ((N.c 0)⁻¹) * (ab z2.1 ρ0) * (sb z0.2 z1.2) * (sb z2.2 z3.2) / (3) + (2) * (((√2 : ℝ) : ℂ)) ^ 2 * ((c.SW : ℂ)) ^ 2 * ((c.e : ℂ)) * ((c.gs : ℂ)) * ((c.MW : ℂ)⁻¹) * ((c.SW : ℂ)⁻¹) * ((c.mass .u : ℂ)) * ((N.c 1)⁻¹) * (ab z1.1 z2.1) * (ab z3.1 ρ0) * (sb z0.2 z2.2) / (3) + (-2) * (((√2 : ℝ) : ℂ)) ^ 2 * ((c.SW : ℂ)) ^ 2 * ((c.e : ℂ)) * ((c.gs : ℂ)) * ((c.MW : ℂ)⁻¹) * ((c.SW : ℂ)⁻¹) * ((c.mass .u : ℂ)) * ((N.c 1)⁻¹) * (ab z2.1 ρ0) * (sb z0.2 z3.2) * (sb z1.2 z2.2) / (3) + (2) * (((√2 : ℝ) : ℂ)) ^ 2 * ((c.SW : ℂ)) ^ 2 * ((c.e : ℂ)) * ((c.gs : ℂ)) * ((c.MW : ℂ)⁻¹) * ((c.SW : ℂ)⁻¹) * ((N.c 0)⁻¹) * (ab z0.1 ρ0) * (ab z2.1 z3.1) * (sb z0.2 z1.2) * (sb z0.2 z2.2) / (3) + (-2) * (((√2 : ℝ) : ℂ)) ^ 2 * ((c.SW : ℂ)) ^ 2 * ((c.e : ℂ)) * ((c.gs : ℂ)) * ((c.MW : ℂ)⁻¹) * ((c.SW : ℂ)⁻¹) * ((N.c 0)⁻¹) * (ab z1.1 ρ0) * (mb z0.2 (p 1) z2.1) * (sb z2.2 z3.2) / (3) + (-2) * (((√2 : ℝ) : ℂ)) ^ 2 * ((c.SW : ℂ)) ^ 2 * ((c.e : ℂ)) * ((c.gs : ℂ)) * ((c.MW : ℂ)⁻¹) * ((c.SW : ℂ)⁻¹) * ((N.c 0)⁻¹) * (ab z2.1 z3.1) * (mb z2.2 (p 1) ρ0) * (sb z0.2 z1.2) / (3) + (-2) * (((√2 : ℝ) : ℂ)) ^ 2 * ((c.SW : ℂ)) ^ 2 * ((c.e : ℂ)) * ((c.gs : ℂ)) * ((c.MW : ℂ)⁻¹) * ((c.SW : ℂ)⁻¹) * ((N.c 1)⁻¹) * (ab z1.1 z2.1) * (mb z2.2 (p 1) ρ0) * (sb z0.2 z3.2) / (3) + (-2) * (((√2 : ℝ) : ℂ)) ^ 2 * ((c.SW : ℂ)) ^ 2 * ((c.e : ℂ)) * ((c.gs : ℂ)) * ((c.MW : ℂ)⁻¹) * ((c.SW : ℂ)⁻¹) * ((N.c 1)⁻¹) * (ab z3.1 ρ0) * (mb z0.2 (p 1) z2.1) * (sb z1.2 z2.2) / (3) + (1) * (((√2 : ℝ) : ℂ)) ^ 2 * ((c.e : ℂ)) * ((c.gs : ℂ)) * ((c.MW : ℂ)⁻¹) * ((c.SW : ℂ)⁻¹) * ((c.mass .u : ℂ)) * ((N.c 0)⁻¹) * (ab z2.1 ρ0) * (sb z0.2 z1.2) * (sb z2.2 z3.2) / (2) + (-1) * (((√2 : ℝ) : ℂ)) ^ 2 * ((c.e : ℂ)) * ((c.gs : ℂ)) * ((c.MW : ℂ)⁻¹) * ((c.SW : ℂ)⁻¹) * ((c.mass .u : ℂ)) * ((N.c 1)⁻¹) * (ab z1.1 z2.1) * (ab z3.1 ρ0) * (sb z0.2 z2.2) / (2) + (1) * (((√2 : ℝ) : ℂ)) ^ 2 * ((c.e : ℂ)) * ((c.gs : ℂ)) * ((c.MW : ℂ)⁻¹) * ((c.SW : ℂ)⁻¹) * ((N.c 0)⁻¹) * (ab z1.1 ρ0) * (mb z0.2 (p 1) z2.1) * (sb z2.2 z3.2) / (2) + (1) * (((√2 : ℝ) : ℂ)) ^ 2 * ((c.e : ℂ)) * ((c.gs : ℂ)) * ((c.MW : ℂ)⁻¹) * ((c.SW : ℂ)⁻¹) * ((N.c 1)⁻¹) * (ab z1.1 z2.1) * (mb z2.2 (p 1) ρ0) * (sb z0.2 z3.2) / (2) + (4) * ((c.SW : ℂ)) ^ 2 * ((c.e : ℂ)) * ((c.gs : ℂ)) * ((c.MW : ℂ)⁻¹) * ((c.SW : ℂ)⁻¹) * ((c.mass .u : ℂ)) * ((N.c 0)⁻¹) * ((N.c 1)⁻¹) * (ab z0.1 ρ0) * (ab z1.1 z2.1) * (mb z0.2 (p 1) z3.1) * (sb z0.2 z2.2) / (3) + (4) * ((c.SW : ℂ)) ^ 2 * ((c.e : ℂ)) * ((c.gs : ℂ)) * ((c.MW : ℂ)⁻¹) * ((c.SW : ℂ)⁻¹) * ((c.mass .u : ℂ)) * ((N.c 0)⁻¹) * ((N.c 1)⁻¹) * (ab z0.1 ρ0) * (ab z2.1 z3.1) * (mb z0.2 (p 2) z1.1) * (sb z0.2 z2.2) / (3) + (-4) * ((c.SW : ℂ)) ^ 2 * ((c.e : ℂ)) * ((c.gs : ℂ)) * ((c.MW : ℂ)⁻¹) * ((c.SW : ℂ)⁻¹) * ((c.mass .u : ℂ)) * ((N.c 0)⁻¹) * (ab z1.1 ρ0) * (ab z2.1 z3.1) * (sb z0.2 z2.2) / (3) + (4) * ((c.SW : ℂ)) ^ 2 * ((c.e : ℂ)) * ((c.gs : ℂ)) * ((c.MW : ℂ)⁻¹) * ((c.SW : ℂ)⁻¹) * ((c.mass .u : ℂ)) * ((N.c 0)⁻¹) * (ab z2.1 ρ0) * (sb z0.2 z1.2) * (sb z2.2 z3.2) / (3) + (-4) * ((c.SW : ℂ)) ^ 2 * ((c.e : ℂ)) * ((c.gs : ℂ)) * ((c.MW : ℂ)⁻¹) * ((c.SW : ℂ)⁻¹) * ((c.mass .u : ℂ)) * ((N.c 1)⁻¹) * (ab z1.1 z2.1) * (ab z3.1 ρ0) * (sb z0.2 z2.2) / (3) + (4) * ((c.SW : ℂ)) ^ 2 * ((c.e : ℂ)) * ((c.gs : ℂ)) * ((c.MW : ℂ)⁻¹) * ((c.SW : ℂ)⁻¹) * ((c.mass .u : ℂ)) * ((N.c 1)⁻¹) * (ab z2.1 ρ0) * (sb z0.2 z3.2) * (sb z1.2 z2.2) / (3) + (4) * ((c.SW : ℂ)) ^ 2 * ((c.e : ℂ)) * ((c.gs : ℂ)) * ((c.MW : ℂ)⁻¹) * ((c.SW : ℂ)⁻¹) * ((c.mass .u : ℂ)) ^ 2 * ((N.c 0)⁻¹) * ((N.c 1)⁻¹) * (ab z0.1 ρ0) * (ab z1.1 z2.1) * (sb z0.2 z2.2) * (sb z0.2 z3.2) / (3) + (-4) * ((c.SW : ℂ)) ^ 2 * ((c.e : ℂ)) * ((c.gs : ℂ)) * ((c.MW : ℂ)⁻¹) * ((c.SW : ℂ)⁻¹) * ((N.c 0)⁻¹) * (ab z0.1 ρ0) * (ab z2.1 z3.1) * (sb z0.2 z1.2) * (sb z0.2 z2.2) / (3) + (4) * ((c.SW : ℂ)) ^ 2 * ((c.e : ℂ)) * ((c.gs : ℂ)) * ((c.MW : ℂ)⁻¹) * ((c.SW : ℂ)⁻¹) * ((N.c 0)⁻¹) * (ab z1.1 ρ0) * (mb z0.2 (p 1) z2.1) * (sb z2.2 z3.2) / (3) + (4) * ((c.SW : ℂ)) ^ 2 * ((c.e : ℂ)) * ((c.gs : ℂ)) * ((c.MW : ℂ)⁻¹) * ((c.SW : ℂ)⁻¹) * ((N.c 0)⁻¹) * (ab z2.1 z3.1) * (mb z2.2 (p 1) ρ0) * (sb z0.2 z1.2) / (3) + (4) * ((c.SW : ℂ)) ^ 2 * ((c.e : ℂ)) * ((c.gs : ℂ)) * ((c.MW : ℂ)⁻¹) * ((c.SW : ℂ)⁻¹) * ((N.c 1)⁻¹) * (ab z1.1 z2.1) * (mb z2.2 (p 1) ρ0) * (sb z0.2 z3.2) / (3) + (4) * ((c.SW : ℂ)) ^ 2 * ((c.e : ℂ)) * ((c.gs : ℂ)) * ((c.MW : ℂ)⁻¹) * ((c.SW : ℂ)⁻¹) * ((N.c 1)⁻¹) * (ab z3.1 ρ0) * (mb z0.2 (p 1) z2.1) * (sb z1.2 z2.2) / (3) + (-1) * ((c.e : ℂ)) * ((c.gs : ℂ)) * ((c.MW : ℂ)⁻¹) * ((c.SW : ℂ)⁻¹) * ((c.mass .u : ℂ)) * ((N.c 0)⁻¹) * ((N.c 1)⁻¹) * (ab z0.1 ρ0) * (ab z1.1 z2.1) * (mb z0.2 (p 1) z3.1) * (sb z0.2 z2.2) + (-1) * ((c.e : ℂ)) * ((c.gs : ℂ)) * ((c.MW : ℂ)⁻¹) * ((c.SW : ℂ)⁻¹) * ((c.mass .u : ℂ)) * ((N.c 0)⁻¹) * (ab z2.1 ρ0) * (sb z0.2 z1.2) * (sb z2.2 z3.2) + (1) * ((c.e : ℂ)) * ((c.gs : ℂ)) * ((c.MW : ℂ)⁻¹) * ((c.SW : ℂ)⁻¹) * ((c.mass .u : ℂ)) * ((N.c 1)⁻¹) * (ab z1.1 z2.1) * (ab z3.1 ρ0) * (sb z0.2 z2.2) + (-1) * ((c.e : ℂ)) * ((c.gs : ℂ)) * ((c.MW : ℂ)⁻¹) * ((c.SW : ℂ)⁻¹) * ((c.mass .u : ℂ)) ^ 2 * ((N.c 0)⁻¹) * ((N.c 1)⁻¹) * (ab z0.1 ρ0) * (ab z1.1 z2.1) * (sb z0.2 z2.2) * (sb z0.2 z3.2) + (-1) * ((c.e : ℂ)) * ((c.gs : ℂ)) * ((c.MW : ℂ)⁻¹) * ((c.SW : ℂ)⁻¹) * ((N.c 0)⁻¹) * (ab z1.1 ρ0) * (mb z0.2 (p 1) z2.1) * (sb z2.2 z3.2) + (-1) * ((c.e : ℂ)) * ((c.gs : ℂ)) * ((c.MW : ℂ)⁻¹) * ((c.SW : ℂ)⁻¹) * ((N.c 1)⁻¹) * (ab z1.1 z2.1) * (mb z2.2 (p 1) ρ0) * (sb z0.2 z3.2)) * yCW + ((2) * (((√2 : ℝ) : ℂ)) ^ 2 * ((c.SW : ℂ)) ^ 2 * ((c.e : ℂ)) * ((c.gs : ℂ)) * ((c.CW : ℂ)⁻¹) * ((c.SW : ℂ)⁻¹) * ((N.c 1)⁻¹) * (ab z1.1 z2.1) * (ab z2.1 ρ0) * (sb z0.2 z3.2) / (3) + (-2) * (((√2 : ℝ) : ℂ)) ^ 2 * ((c.SW : ℂ)) ^ 2 * ((c.e : ℂ)) * ((c.gs : ℂ)) * ((c.CW : ℂ)⁻¹) * ((c.SW : ℂ)⁻¹) * ((N.c 1)⁻¹) * (ab z3.1 ρ0) * (sb z0.2 z2.2) * (sb z1.2 z2.2) / (3) + (-1) * (((√2 : ℝ) : ℂ)) ^ 2 * ((c.e : ℂ)) * ((c.gs : ℂ)) * ((c.CW : ℂ)⁻¹) * ((c.SW : ℂ)⁻¹) * ((N.c 1)⁻¹) * (ab z1.1 z2.1) * (ab z2.1 ρ0) * (sb z0.2 z3.2) / (2) + (-4) * ((c.SW : ℂ)) ^ 2 * ((c.e : ℂ)) * ((c.gs : ℂ)) * ((c.CW : ℂ)⁻¹) * ((c.SW : ℂ)⁻¹) * ((N.c 1)⁻¹) * (ab z1.1 z2.1) * (ab z2.1 ρ0) * (sb z0.2 z3.2) / (3) + (4) * ((c.SW : ℂ)) ^ 2 * ((c.e : ℂ)) * ((c.gs : ℂ)) * ((c.CW : ℂ)⁻¹) * ((c.SW : ℂ)⁻¹) * ((N.c 1)⁻¹) * (ab z3.1 ρ0) * (sb z0.2 z2.2) * (sb z1.2 z2.2) / (3) + (1) * ((c.e : ℂ)) * ((c.gs : ℂ)) * ((c.CW : ℂ)⁻¹) * ((c.SW : ℂ)⁻¹) * ((N.c 1)⁻¹) * (ab z1.1 z2.1) * (ab z2.1 ρ0) * (sb z0.2 z3.2)) * yMW + ((2) * (((√2 : ℝ) : ℂ)) ^ 2 * ((c.SW : ℂ)) * ((c.e : ℂ)) * ((c.gs : ℂ)) * ((c.CW : ℂ)⁻¹) * ((N.c 1)⁻¹) * (ab z1.1 z2.1) * (ab z2.1 ρ0) * (sb z0.2 z3.2) / (3) + (-2) * (((√2 : ℝ) : ℂ)) ^ 2 * ((c.SW : ℂ)) * ((c.e : ℂ)) * ((c.gs : ℂ)) * ((c.CW : ℂ)⁻¹) * ((N.c 1)⁻¹) * (ab z3.1 ρ0) * (sb z0.2 z2.2) * (sb z1.2 z2.2) / (3) + (2) * (((√2 : ℝ) : ℂ)) ^ 2 * ((c.SW : ℂ)) * ((c.e : ℂ)) * ((c.gs : ℂ)) * ((c.MW : ℂ)⁻¹) * ((c.mass .u : ℂ)) * ((N.c 0)⁻¹) * (ab z1.1 ρ0) * (ab z2.1 z3.1) * (sb z0.2 z2.2) / (3) + (-2) * (((√2 : ℝ) : ℂ)) ^ 2 * ((c.SW : ℂ)) * ((c.e : ℂ)) * ((c.gs : ℂ)) * ((c.MW : ℂ)⁻¹) * ((c.mass .u : ℂ)) * ((N.c 0)⁻¹) * (ab z2.1 ρ0) * (sb z0.2 z1.2) * (sb z2.2 z3.2) / (3) + (2) * (((√2 : ℝ) : ℂ)) ^ 2 * ((c.SW : ℂ)) * ((c.e : ℂ)) * ((c.gs : ℂ)) * ((c.MW : ℂ)⁻¹) * ((c.mass .u : ℂ)) * ((N.c 1)⁻¹) * (ab z1.1 z2.1) * (ab z3.1 ρ0) * (sb z0.2 z2.2) / (3) + (-2) * (((√2 : ℝ) : ℂ)) ^ 2 * ((c.SW : ℂ)) * ((c.e : ℂ)) * ((c.gs : ℂ)) * ((c.MW : ℂ)⁻¹) * ((c.mass .u : ℂ)) * ((N.c 1)⁻¹) * (ab z2.1 ρ0) * (sb z0.2 z3.2) * (sb z1.2 z2.2) / (3) + (2) * (((√2 : ℝ) : ℂ)) ^ 2 * ((c.SW : ℂ)) * ((c.e : ℂ)) * ((c.gs : ℂ)) * ((c.MW : ℂ)⁻¹) * ((N.c 0)⁻¹) * (ab z0.1 ρ0) * (ab z2.1 z3.1) * (sb z0.2 z1.2) * (sb z0.2 z2.2) / (3) + (-2) * (((√2 : ℝ) : ℂ)) ^ 2 * ((c.SW : ℂ)) * ((c.e : ℂ)) * ((c.gs : ℂ)) * ((c.MW : ℂ)⁻¹) * ((N.c 0)⁻¹) * (ab z1.1 ρ0) * (mb z0.2 (p 1) z2.1) * (sb z2.2 z3.2) / (3) + (-2) * (((√2 : ℝ) : ℂ)) ^ 2 * ((c.SW : ℂ)) * ((c.e : ℂ)) * ((c.gs : ℂ)) * ((c.MW : ℂ)⁻¹) * ((N.c 0)⁻¹) * (ab z2.1 z3.1) * (mb z2.2 (p 1) ρ0) * (sb z0.2 z1.2) / (3) + (-2) * (((√2 : ℝ) : ℂ)) ^ 2 * ((c.SW : ℂ)) * ((c.e : ℂ)) * ((c.gs : ℂ)) * ((c.MW : ℂ)⁻¹) * ((N.c 1)⁻¹) * (ab z1.1 z2.1) * (mb z2.2 (p 1) ρ0) * (sb z0.2 z3.2) / (3) + (-2) * (((√2 : ℝ) : ℂ)) ^ 2 * ((c.SW : ℂ)) * ((c.e : ℂ)) * ((c.gs : ℂ)) * ((c.MW : ℂ)⁻¹) * ((N.c 1)⁻¹) * (ab z3.1 ρ0) * (mb z0.2 (p 1) z2.1) * (sb z1.2 z2.2) / (3) + (-4) * ((c.SW : ℂ)) * ((c.e : ℂ)) * ((c.gs : ℂ)) * ((c.CW : ℂ)⁻¹) * ((N.c 1)⁻¹) * (ab z1.1 z2.1) * (ab z2.1 ρ0) * (sb z0.2 z3.2) / (3) + (4) * ((c.SW : ℂ)) * ((c.e : ℂ)) * ((c.gs : ℂ)) * ((c.CW : ℂ)⁻¹) * ((N.c 1)⁻¹) * (ab z3.1 ρ0) * (sb z0.2 z2.2) * (sb z1.2 z2.2) / (3) + (-4) * ((c.SW : ℂ)) * ((c.e : ℂ)) * ((c.gs : ℂ)) * ((c.MW : ℂ)⁻¹) * ((c.mass .u : ℂ)) * ((N.c 0)⁻¹) * (ab z1.1 ρ0) * (ab z2.1 z3.1) * (sb z0.2 z2.2) / (3) + (4) * ((c.SW : ℂ)) * ((c.e : ℂ)) * ((c.gs : ℂ)) * ((c.MW : ℂ)⁻¹) * ((c.mass .u : ℂ)) * ((N.c 0)⁻¹) * (ab z2.1 ρ0) * (sb z0.2 z1.2) * (sb z2.2 z3.2) / (3) + (-4) * ((c.SW : ℂ)) * ((c.e : ℂ)) * ((c.gs : ℂ)) * ((c.MW : ℂ)⁻¹) * ((c.mass .u : ℂ)) * ((N.c 1)⁻¹) * (ab z1.1 z2.1) * (ab z3.1 ρ0) * (sb z0.2 z2.2) / (3) + (4) * ((c.SW : ℂ)) * ((c.e : ℂ)) * ((c.gs : ℂ)) * ((c.MW : ℂ)⁻¹) * ((c.mass .u : ℂ)) * ((N.c 1)⁻¹) * (ab z2.1 ρ0) * (sb z0.2 z3.2) * (sb z1.2 z2.2) / (3) + (-4) * ((c.SW : ℂ)) * ((c.e : ℂ)) * ((c.gs : ℂ)) * ((c.MW : ℂ)⁻¹) * ((N.c 0)⁻¹) * (ab z0.1 ρ0) * (ab z2.1 z3.1) * (sb z0.2 z1.2) * (sb z0.2 z2.2) / (3) + (4) * ((c.SW : ℂ)) * ((c.e : ℂ)) * ((c.gs : ℂ)) * ((c.MW : ℂ)⁻¹) * ((N.c 0)⁻¹) * (ab z1.1 ρ0) * (mb z0.2 (p 1) z2.1) * (sb z2.2 z3.2) / (3) + (4) * ((c.SW : ℂ)) * ((c.e : ℂ)) * ((c.gs : ℂ)) * ((c.MW : ℂ)⁻¹) * ((N.c 0)⁻¹) * (ab z2.1 z3.1) * (mb z2.2 (p 1) ρ0) * (sb z0.2 z1.2) / (3) + (4) * ((c.SW : ℂ)) * ((c.e : ℂ)) * ((c.gs : ℂ)) * ((c.MW : ℂ)⁻¹) * ((N.c 1)⁻¹) * (ab z1.1 z2.1) * (mb z2.2 (p 1) ρ0) * (sb z0.2 z3.2) / (3) + (4) * ((c.SW : ℂ)) * ((c.e : ℂ)) * ((c.gs : ℂ)) * ((c.MW : ℂ)⁻¹) * ((N.c 1)⁻¹) * (ab z3.1 ρ0) * (mb z0.2 (p 1) z2.1) * (sb z1.2 z2.2) / (3)) * ySW + ((2) * ((c.SW : ℂ)) * ((c.e : ℂ)) * ((c.gs : ℂ)) * ((c.CW : ℂ)⁻¹) * ((N.c 1)⁻¹) * (ab z1.1 z2.1) * (ab z2.1 ρ0) * (sb z0.2 z3.2) / (3) + (-2) * ((c.SW : ℂ)) * ((c.e : ℂ)) * ((c.gs : ℂ)) * ((c.CW : ℂ)⁻¹) * ((N.c 1)⁻¹) * (ab z3.1 ρ0) * (sb z0.2 z2.2) * (sb z1.2 z2.2) / (3) + (2) * ((c.SW : ℂ)) * ((c.e : ℂ)) * ((c.gs : ℂ)) * ((c.MW : ℂ)⁻¹) * ((c.mass .u : ℂ)) * ((N.c 0)⁻¹) * (ab z1.1 ρ0) * (ab z2.1 z3.1) * (sb z0.2 z2.2) / (3) + (-2) * ((c.SW : ℂ)) * ((c.e : ℂ)) * ((c.gs : ℂ)) * ((c.MW : ℂ)⁻¹) * ((c.mass .u : ℂ)) * ((N.c 0)⁻¹) * (ab z2.1 ρ0) * (sb z0.2 z1.2) * (sb z2.2 z3.2) / (3) + (2) * ((c.SW : ℂ)) * ((c.e : ℂ)) * ((c.gs : ℂ)) * ((c.MW : ℂ)⁻¹) * ((c.mass .u : ℂ)) * ((N.c 1)⁻¹) * (ab z1.1 z2.1) * (ab z3.1 ρ0) * (sb z0.2 z2.2) / (3) + (-2) * ((c.SW : ℂ)) * ((c.e : ℂ)) * ((c.gs : ℂ)) * ((c.MW : ℂ)⁻¹) * ((c.mass .u : ℂ)) * ((N.c 1)⁻¹) * (ab z2.1 ρ0) * (sb z0.2 z3.2) * (sb z1.2 z2.2) / (3) + (2) * ((c.SW : ℂ)) * ((c.e : ℂ)) * ((c.gs : ℂ)) * ((c.MW : ℂ)⁻¹) * ((N.c 0)⁻¹) * (ab z0.1 ρ0) * (ab z2.1 z3.1) * (sb z0.2 z1.2) * (sb z0.2 z2.2) / (3) + (-2) * ((c.SW : ℂ)) * ((c.e : ℂ)) * ((c.gs : ℂ)) * ((c.MW : ℂ)⁻¹) * ((N.c 0)⁻¹) * (ab z1.1 ρ0) * (mb z0.2 (p 1) z2.1) * (sb z2.2 z3.2) / (3) + (-2) * ((c.SW : ℂ)) * ((c.e : ℂ)) * ((c.gs : ℂ)) * ((c.MW : ℂ)⁻¹) * ((N.c 0)⁻¹) * (ab z2.1 z3.1) * (mb z2.2 (p 1) ρ0) * (sb z0.2 z1.2) / (3) + (-2) * ((c.SW : ℂ)) * ((c.e : ℂ)) * ((c.gs : ℂ)) * ((c.MW : ℂ)⁻¹) * ((N.c 1)⁻¹) * (ab z1.1 z2.1) * (mb z2.2 (p 1) ρ0) * (sb z0.2 z3.2) / (3) + (-2) * ((c.SW : ℂ)) * ((c.e : ℂ)) * ((c.gs : ℂ)) * ((c.MW : ℂ)⁻¹) * ((N.c 1)⁻¹) * (ab z3.1 ρ0) * (mb z0.2 (p 1) z2.1) * (sb z1.2 z2.2) / (3) + (-1) * ((c.e : ℂ)) * ((c.gs : ℂ)) * ((c.CW : ℂ)⁻¹) * ((c.SW : ℂ)⁻¹) * ((N.c 1)⁻¹) * (ab z1.1 z2.1) * (ab z2.1 ρ0) * (sb z0.2 z3.2) / (2) + (1) * ((c.e : ℂ)) * ((c.gs : ℂ)) * ((c.MW : ℂ)⁻¹) * ((c.SW : ℂ)⁻¹) * ((c.mass .u : ℂ)) * ((N.c 0)⁻¹) * (ab z2.1 ρ0) * (sb z0.2 z1.2) * (sb z2.2 z3.2) / (2) + (-1) * ((c.e : ℂ)) * ((c.gs : ℂ)) * ((c.MW : ℂ)⁻¹) * ((c.SW : ℂ)⁻¹) * ((c.mass .u : ℂ)) * ((N.c 1)⁻¹) * (ab z1.1 z2.1) * (ab z3.1 ρ0) * (sb z0.2 z2.2) / (2) + (1) * ((c.e : ℂ)) * ((c.gs : ℂ)) * ((c.MW : ℂ)⁻¹) * ((c.SW : ℂ)⁻¹) * ((N.c 0)⁻¹) * (ab z1.1 ρ0) * (mb z0.2 (p 1) z2.1) * (sb z2.2 z3.2) / (2) + (1) * ((c.e : ℂ)) * ((c.gs : ℂ)) * ((c.MW : ℂ)⁻¹) * ((c.SW : ℂ)⁻¹) * ((N.c 1)⁻¹) * (ab z1.1 z2.1) * (mb z2.2 (p 1) ρ0) * (sb z0.2 z3.2) / (2)) * x22
theorem guZu.keyM {c : Constants} {p : Nat → V4 ℝ} {N : Env} (hc : c.Physical) (hb : Balanced p) (r3 : N.r 3 = (c.mass .u)) (r7 : N.r 7 = (c.MW / c.CW)) (r9 : N.r 9 = (((((2 : Nat) : ℝ) * c.e) * c.gs) / ((((2 : Nat) : ℝ) * c.MW) * c.SW))) (r11 : N.r 11 = (((((-((2 : Nat) : ℝ)) * (((2 : Nat) : ℝ) / ((3 : Nat) : ℝ))) * c.SW) * c.SW) + ((1 : Nat) : ℝ))) (r12 : N.r 12 = ((((-((2 : Nat) : ℝ)) * (((2 : Nat) : ℝ) / ((3 : Nat) : ℝ))) * c.SW) * c.SW)) (d0 : ((msq (plus (p 1) (p 0)) - c.mass .u ^ 2 : ℝ) : ℂ) = N.c 0) (n0 : N.c 0 ≠ 0) (d1 : ((msq (plus (p 1) (backward (p 2))) - c.mass .u ^ 2 : ℝ) : ℂ) = N.c 1) (n1 : N.c 1 ≠ 0) {z0 z1 z2 z3 : Pair} (b1 : Bold (p 1) (c.mass .u) z1) (b2 : Bold (p 2) c.MZ z2) (b3 : Bold (p 3) (c.mass .u) z3) (l0 : Light (p 0) z0) (e01 : mb z0.2 (p 1) z0.1 = N.c 0) (e03 : mb z0.2 (p 3) z0.1 = -N.c 1) (q1 : msq (p 1) = (c.mass .u) ^ 2) (q2 : msq (p 2) = c.MZ ^ 2) (q3 : msq (p 3) = (c.mass .u) ^ 2) (ρ0 : V2) :
    guZu.formM N p z0 z1 z2 z2 z3 * sb ρ0 z0.2 = ((√2 : ℝ) * ((-1 : ℂ) * ((√2 / c.MZ : ℝ) : ℂ))) * guZu.react.bare c p 3 1 0 2 z3 z1 (pv z0.1 ρ0) (pv z2.1 z2.2) := by
  rw [guZu.react.bare_parts c p (i := 3) (j := 1) (a := 0) (b := 2) (x := .gluon) (y := .z) (k := (p 0)) (k' := (backward (p 2))) (fun _ => rfl) (fun _ => rfl) (f := .u) (g := .u) rfl rfl (l := (p 1)) rfl (e := 1) (e' := 1) (if_neg Bool.false_ne_true) (if_neg Bool.false_ne_true)]
  rw [compton_vv (f := .u) (x := .u) (g := .u) (h := (rfl : Spec.after .gluon Flavour.u = some Flavour.u)) (h' := (rfl : Spec.after .z Flavour.u = some Flavour.u)) (ha := by simp) (hb := by simp)]
  rw [compton_vv (f := .u) (x := .u) (g := .u) (h := (rfl : Spec.after .z Flavour.u = some Flavour.u)) (h' := (rfl : Spec.after .gluon Flavour.u = some Flavour.u)) (ha := by simp) (hb := by simp)]
  rw [annihilation_none c _ _ (by rfl) (by simp), star_zero, add_zero, guZu.formM]
  simp only [d0, d1, lineV_pv, lineV_four, contract_four_pv, contract_pv, mb_plus, mb_backward]
  have i0 := mb_schouten_left z0.2 z1.2 z2.2 (p 1) z0.1
  have i1 := mb_schouten_right ρ0 (p 1) z0.1 z1.1 z2.1
  have i2 := mb_schouten_left z0.2 z1.2 ρ0 (p 1) z0.1
  have i3 := mb_schouten_left z0.2 z2.2 ρ0 (p 1) z0.1
  have i4 := mb_schouten_left z0.2 z1.2 z2.2 (p 2) z0.1
  have i5 := mb_schouten_right z0.2 (p 2) z0.1 z1.1 z3.1
  have i6 := mb_schouten_right z0.2 (p 1) z0.1 z1.1 z3.1
  have i7 := ab_schouten z1.1 z2.1 z3.1 z0.1
  have i8 := mb_schouten_left z0.2 z1.2 ρ0 (p 2) z0.1
  have i9 := mb_schouten_right z2.2 (p 1) z0.1 z2.1 z3.1
  have i10 := mb_schouten_right ρ0 (p 2) z0.1 z2.1 z3.1
  have i11 := mb_schouten_right ρ0 (p 1) z0.1 z2.1 z3.1
  have i12 := mb_schouten_right z1.2 (p 2) z0.1 z2.1 z3.1
  have i13 := sb_schouten z1.2 z3.2 ρ0 z0.2
  have i14 := sb_schouten z2.2 z3.2 ρ0 z0.2
  have i15 := sb_schouten z1.2 z2.2 z3.2 z0.2
  have i16 := sb_schouten z2.2 z3.2 ρ0 z1.2
  have i17 := mb_schouten_left z0.2 z2.2 z3.2 (p 2) z0.1
  have i18 := mb_schouten_left z0.2 z2.2 z3.2 (p 1) z0.1
  have i19 := mb_schouten_right z3.2 (p 1) z0.1 z1.1 z2.1
  have i20 := mb_schouten_left z0.2 z1.2 z3.2 (p 1) z0.1
  have i21 := mb_schouten_right z2.2 (p 1) z0.1 z1.1 z2.1
  have i22 := mb_schouten_right z0.2 (p 2) z0.1 z1.1 z2.1
  have i23 := sb_schouten z1.2 z2.2 ρ0 z0.2
  have i24 := mb_schouten_left z0.2 z3.2 ρ0 (p 1) z0.1
  have i25 := mb_schouten_left z0.2 z1.2 z3.2 (p 2) z0.1
  have i26 := mb_schouten_right z2.2 (p 1) z0.1 z1.1 z3.1
  simp only [l0.mb_eq, b1.mb_left, b1.mb_right, b2.mb_left, b2.mb_right, b3.mb_left, b3.mb_right, e01, e03, mb_two hb z0.2 z0.1, mb_three hb z0.2 z1.1, mb_three hb z0.2 z2.1, mb_two hb z0.2 z3.1, mb_three hb z1.2 z0.1, mb_three hb z1.2 z1.1, mb_three hb z1.2 z2.1, mb_two hb z1.2 z3.1, mb_three hb z2.2 z0.1, mb_three hb z2.2 z1.1, mb_three hb z2.2 z2.1, mb_one hb z2.2 z3.1, mb_two hb z3.2 z0.1, mb_two hb z3.2 z1.1, mb_one hb z3.2 z2.1, mb_two hb z3.2 z3.1, mb_three hb ρ0 z0.1, mb_three hb ρ0 z1.1, mb_three hb ρ0 z2.1, mb_two hb ρ0 z3.1, ab_self, sb_self] at i0 i1 i2 i3 i4 i5 i6 i7 i8 i9 i10 i11 i12 i13 i14 i15 i16 i17 i18 i19 i20 i21 i22 i23 i24 i25 i26 ⊢
  simp only [ab_swap z0.1 z1.1, ab_swap z0.1 z2.1, ab_swap z0.1 z3.1, ab_swap z1.1 z2.1, ab_swap z1.1 z3.1, ab_swap z2.1 z3.1, sb_swap z0.2 z1.2, sb_swap z0.2 z2.2, sb_swap z0.2 z3.2, sb_swap z0.2 ρ0, sb_swap z1.2 z2.2, sb_swap z1.2 z3.2, sb_swap z1.2 ρ0, sb_swap z2.2 z3.2, sb_swap z2.2 ρ0, sb_swap z3.2 ρ0] at i0 i1 i2 i3 i4 i5 i6 i7 i8 i9 i10 i11 i12 i13 i14 i15 i16 i17 i18 i19 i20 i21 i22 i23 i24 i25 i26 ⊢
  simp only [r3, r7, r9, r11, r12, Constants.hL, Constants.hR, Constants.gL, Constants.gR, Constants.yuk, Constants.invVev, Flavour.charge_u, Flavour.isospin_u, ← c.mz]
  have xMW : (c.MW : ℂ) ≠ 0 := by exact_mod_cast hc.MW
  have xSW : (c.SW : ℂ) ≠ 0 := by exact_mod_cast hc.SW
  have xCW : (c.CW : ℂ) ≠ 0 := by exact_mod_cast hc.CW
  have x2 : ((√2 : ℝ) : ℂ) ≠ 0 := by exact_mod_cast (Real.sqrt_pos.2 two_pos).ne'
  have x22 : ((√2 : ℝ) : ℂ) ^ 2 = 2 := by rw [← Complex.ofReal_pow, Real.sq_sqrt two_pos.le]; norm_num
  have x23 : ((√2 : ℝ) : ℂ) ^ 3 = 2 * ((√2 : ℝ) : ℂ) := by rw [← x22]; ring
  have x24 : ((√2 : ℝ) : ℂ) ^ 4 = 4 := by linear_combination (((√2 : ℝ) : ℂ) ^ 2 + 2) * x22
  try simp only [← c.mz] at i0 i1 i2 i3 i4 i5 i6 i7 i8 i9 i10 i11 i12 i13 i14 i15 i16 i17 i18 i19 i20 i21 i22 i23 i24 i25 i26
  push_cast at i0 i1 i2 i3 i4 i5 i6 i7 i8 i9 i10 i11 i12 i13 i14 i15 i16 i17 i18 i19 i20 i21 i22 i23 i24 i25 i26 ⊢
  simp only [div_eq_mul_inv, mul_inv, inv_inv] at i0 i1 i2 i3 i4 i5 i6 i7 i8 i9 i10 i11 i12 i13 i14 i15 i16 i17 i18 i19 i20 i21 i22 i23 i24 i25 i26 ⊢
  have y0 := mul_inv_cancel₀ n0
  have y1 := mul_inv_cancel₀ n1
  have yCW := mul_inv_cancel₀ xCW
  have yMW := mul_inv_cancel₀ xMW
  have ySW := mul_inv_cancel₀ xSW
  linear_combination ((((4) * ((c.MW : ℂ)) * ((c.SW : ℂ)) ^ 2 * ((c.e : ℂ)) * ((c.gs : ℂ)) * ((c.CW : ℂ)⁻¹) * (ab z0.1 z3.1) * (sb z2.2 ρ0) + (8) * ((c.SW : ℂ)) ^ 2 * ((c.e : ℂ)) * ((c.gs : ℂ)) * ((c.mass .u : ℂ)) * (ab z0.1 z2.1) * (sb z3.2 ρ0) + (-4) * ((c.SW : ℂ)) ^ 2 * ((c.e : ℂ)) * ((c.gs : ℂ)) * (ab z0.1 z3.1) * (mb ρ0 (p 1) z2.1) + (-6) * ((c.e : ℂ)) * ((c.gs : ℂ)) * ((c.mass .u : ℂ)) * (ab z0.1 z2.1) * (sb z3.2 ρ0)) * i0 + ((4) * ((c.MW : ℂ)) * ((c.SW : ℂ)) ^ 2 * ((c.e : ℂ)) * ((c.gs : ℂ)) * ((c.CW : ℂ)⁻¹) * (ab z0.1 z2.1) * (sb z0.2 z3.2) + (-3) * ((c.MW : ℂ)) * ((c.e : ℂ)) * ((c.gs : ℂ)) * ((c.CW : ℂ)⁻¹) * (ab z0.1 z2.1) * (sb z0.2 z3.2) + (8) * ((c.SW : ℂ)) ^ 2 * ((c.e : ℂ)) * ((c.gs : ℂ)) * ((c.mass .u : ℂ)) * (ab z0.1 z3.1) * (sb z0.2 z2.2) + (4) * ((c.SW : ℂ)) ^ 2 * ((c.e : ℂ)) * ((c.gs : ℂ)) * (mb z2.2 (p 1) z0.1) * (sb z0.2 z3.2) + (-3) * ((c.e : ℂ)) * ((c.gs : ℂ)) * ((c.mass .u : ℂ)) * (ab z0.1 z3.1) * (sb z0.2 z2.2) + (-3) * ((c.e : ℂ)) * ((c.gs : ℂ)) * (mb z2.2 (p 1) z0.1) * (sb z0.2 z3.2)) * i1 + ((-4) * ((c.MW : ℂ)) * ((c.SW : ℂ)) ^ 2 * ((c.e : ℂ)) * ((c.gs : ℂ)) * ((c.CW : ℂ)⁻¹) * (ab z0.1 z2.1) * (ab z2.1 z3.1) + (8) * ((c.SW : ℂ)) ^ 2 * ((c.e : ℂ)) * ((c.gs : ℂ)) * ((c.mass .u : ℂ)) * (ab z0.1 z2.1) * (sb z2.2 z3.2) + (-4) * ((c.SW : ℂ)) ^ 2 * ((c.e : ℂ)) * ((c.gs : ℂ)) * (ab z0.1 z2.1) * (ab z0.1 z3.1) * (sb z0.2 z2.2) + (4) * ((c.SW : ℂ)) ^ 2 * ((c.e : ℂ)) * ((c.gs : ℂ)) * (ab z0.1 z3.1) * (mb z2.2 (p 1) z2.1) + (-3) * ((c.e : ℂ)) * ((c.gs : ℂ)) * ((c.mass .u : ℂ)) * (ab z0.1 z2.1) * (sb z2.2 z3.2)) * i2 + ((8) * ((c.SW : ℂ)) ^ 2 * ((c.e : ℂ)) * ((c.gs : ℂ)) * ((c.mass .u : ℂ)) * (ab z0.1 z1.1) * (ab z2.1 z3.1) + (-8) * ((c.SW : ℂ)) ^ 2 * ((c.e : ℂ)) * ((c.gs : ℂ)) * ((c.mass .u : ℂ)) * (ab z0.1 z2.1) * (ab z1.1 z3.1) + (-4) * ((c.SW : ℂ)) ^ 2 * ((c.e : ℂ)) * ((c.gs : ℂ)) * ((c.mass .u : ℂ)) * (ab z0.1 z2.1) * (sb z1.2 z3.2) + (-3) * ((c.e : ℂ)) * ((c.gs : ℂ)) * ((c.mass .u : ℂ)) * (ab z0.1 z1.1) * (ab z2.1 z3.1) + (3) * ((c.e : ℂ)) * ((c.gs : ℂ)) * ((c.mass .u : ℂ)) * (ab z0.1 z2.1) * (ab z1.1 z3.1) + (3) * ((c.e : ℂ)) * ((c.gs : ℂ)) * ((c.mass .u : ℂ)) * (ab z0.1 z2.1) * (sb z1.2 z3.2)) * i3 + ((-4) * ((c.SW : ℂ)) ^ 2 * ((c.e : ℂ)) * ((c.gs : ℂ)) * ((c.mass .u : ℂ)) * (ab z0.1 z2.1) * (sb z3.2 ρ0) + (3) * ((c.e : ℂ)) * ((c.gs : ℂ)) * ((c.mass .u : ℂ)) * (ab z0.1 z2.1) * (sb z3.2 ρ0)) * i4 + ((-4) * ((c.SW : ℂ)) ^ 2 * ((c.e : ℂ)) * ((c.gs : ℂ)) * ((c.mass .u : ℂ)) * (ab z0.1 z2.1) * (sb z2.2 ρ0)) * i5 + ((4) * ((c.SW : ℂ)) ^ 2 * ((c.e : ℂ)) * ((c.gs : ℂ)) * ((c.mass .u : ℂ)) * (ab z0.1 z2.1) * (sb z2.2 ρ0)) * i6 + ((-8) * ((c.SW : ℂ)) ^ 2 * ((c.e : ℂ)) * ((c.gs : ℂ)) * ((c.mass .u : ℂ)) * (N.c 0) * (sb z2.2 ρ0) + (-4) * ((c.SW : ℂ)) ^ 2 * ((c.e : ℂ)) * ((c.gs : ℂ)) * ((c.mass .u : ℂ)) * (N.c 1) * (sb z2.2 ρ0) + (4) * ((c.SW : ℂ)) ^ 2 * ((c.e : ℂ)) * ((c.gs : ℂ)) * ((c.mass .u : ℂ)) * (mb z2.2 (p 1) z0.1) * (sb z0.2 ρ0) + (-8) * ((c.SW : ℂ)) ^ 2 * ((c.e : ℂ)) * ((c.gs : ℂ)) * ((c.mass .u : ℂ)) * (mb ρ0 (p 1) z0.1) * (sb z0.2 z2.2) + (3) * ((c.e : ℂ)) * ((c.gs : ℂ)) * ((c.mass .u : ℂ)) * (N.c 0) * (sb z2.2 ρ0) + (3) * ((c.e : ℂ)) * ((c.gs : ℂ)) * ((c.mass .u : ℂ)) * (mb ρ0 (p 1) z0.1) * (sb z0.2 z2.2)) * i7 + ((4) * ((c.MW : ℂ)) * ((c.SW : ℂ)) ^ 2 * ((c.e : ℂ)) * ((c.gs : ℂ)) * ((c.CW : ℂ)⁻¹) * (ab z0.1 z2.1) * (ab z2.1 z3.1) + (-4) * ((c.SW : ℂ)) ^ 2 * ((c.e : ℂ)) * ((c.gs : ℂ)) * ((c.mass .u : ℂ)) * (ab z0.1 z2.1) * (sb z2.2 z3.2) + (4) * ((c.SW : ℂ)) ^ 2 * ((c.e : ℂ)) * ((c.gs : ℂ)) * (ab z0.1 z2.1) * (ab z0.1 z3.1) * (sb z0.2 z2.2) + (-4) * ((c.SW : ℂ)) ^ 2 * ((c.e : ℂ)) * ((c.gs : ℂ)) * (ab z0.1 z3.1) * (mb z2.2 (p 1) z2.1)) * i8 + ((-4) * ((c.SW : ℂ)) ^ 2 * ((c.e : ℂ)) * ((c.gs : ℂ)) * (N.c 1) * (sb z1.2 ρ0) + (4) * ((c.SW : ℂ)) ^ 2 * ((c.e : ℂ)) * ((c.gs : ℂ)) * (mb z1.2 (p 2) z0.1) * (sb z0.2 ρ0) + (4) * ((c.SW : ℂ)) ^ 2 * ((c.e : ℂ)) * ((c.gs : ℂ)) * (mb ρ0 (p 1) z0.1) * (sb z0.2 z1.2) + (-4) * ((c.SW : ℂ)) ^ 2 * ((c.e : ℂ)) * ((c.gs : ℂ)) * (mb ρ0 (p 2) z0.1) * (sb z0.2 z1.2)) * i9 + ((4) * ((c.SW : ℂ)) ^ 2 * ((c.e : ℂ)) * ((c.gs : ℂ)) * (mb z2.2 (p 1) z0.1) * (sb z0.2 z1.2)) * i10 + ((-4) * ((c.SW : ℂ)) ^ 2 * ((c.e : ℂ)) * ((c.gs : ℂ)) * (mb z2.2 (p 1) z0.1) * (sb z0.2 z1.2)) * i11 + ((-4) * ((c.SW : ℂ)) ^ 2 * ((c.e : ℂ)) * ((c.gs : ℂ)) * (mb z2.2 (p 1) z0.1) * (sb z0.2 ρ0)) * i12 + ((-4) * ((c.MW : ℂ)) * ((c.SW : ℂ)) ^ 2 * ((c.e : ℂ)) * ((c.gs : ℂ)) * ((c.CW : ℂ)⁻¹) * ((c.mass .u : ℂ)) * (ab z0.1 z2.1) ^ 2 + (3) * ((c.MW : ℂ)) * ((c.e : ℂ)) * ((c.gs : ℂ)) * ((c.CW : ℂ)⁻¹) * ((c.mass .u : ℂ)) * (ab z0.1 z2.1) ^ 2 + (-4) * ((c.SW : ℂ)) ^ 2 * ((c.e : ℂ)) * ((c.gs : ℂ)) * ((c.mass .u : ℂ)) * (ab z0.1 z2.1) * (mb z2.2 (p 1) z0.1) + (6) * ((c.e : ℂ)) * ((c.gs : ℂ)) * ((c.mass .u : ℂ)) * (ab z0.1 z2.1) * (mb z2.2 (p 1) z0.1)) * i13 + ((-4) * ((c.SW : ℂ)) ^ 2 * ((c.e : ℂ)) * ((c.gs : ℂ)) * ((c.mass .u : ℂ)) * (ab z0.1 z2.1) * (mb z1.2 (p 2) z0.1) + (-8) * ((c.SW : ℂ)) ^ 2 * ((c.e : ℂ)) * ((c.gs : ℂ)) * ((c.mass .u : ℂ)) ^ 2 * (ab z0.1 z1.1) * (ab z0.1 z2.1) + (3) * ((c.e : ℂ)) * ((c.gs : ℂ)) * ((c.mass .u : ℂ)) * (ab z0.1 z2.1) * (mb z1.2 (p 2) z0.1) + (6) * ((c.e : ℂ)) * ((c.gs : ℂ)) * ((c.mass .u : ℂ)) ^ 2 * (ab z0.1 z1.1) * (ab z0.1 z2.1)) * i14 + ((-4) * ((c.SW : ℂ)) ^ 2 * ((c.e : ℂ)) * ((c.gs : ℂ)) * ((c.mass .u : ℂ)) * (ab z0.1 z2.1) * (mb ρ0 (p 1) z0.1) + (3) * ((c.e : ℂ)) * ((c.gs : ℂ)) * ((c.mass .u : ℂ)) * (ab z0.1 z2.1) * (mb ρ0 (p 1) z0.1)) * i15 + ((-4) * ((c.SW : ℂ)) ^ 2 * ((c.e : ℂ)) * ((c.gs : ℂ)) * ((c.mass .u : ℂ)) * (N.c 0) * (ab z0.1 z2.1) + (4) * ((c.SW : ℂ)) ^ 2 * ((c.e : ℂ)) * ((c.gs : ℂ)) * ((c.mass .u : ℂ)) * (N.c 1) * (ab z0.1 z2.1) + (6) * ((c.e : ℂ)) * ((c.gs : ℂ)) * ((c.mass .u : ℂ)) * (N.c 0) * (ab z0.1 z2.1) + (-3) * ((c.e : ℂ)) * ((c.gs : ℂ)) * ((c.mass .u : ℂ)) * (N.c 1) * (ab z0.1 z2.1)) * i16 + ((4) * ((c.SW : ℂ)) ^ 2 * ((c.e : ℂ)) * ((c.gs : ℂ)) * (ab z0.1 z1.1) * (ab z0.1 z2.1) * (sb z0.2 ρ0) + (-4) * ((c.SW : ℂ)) ^ 2 * ((c.e : ℂ)) * ((c.gs : ℂ)) * (ab z0.1 z1.1) * (mb ρ0 (p 1) z2.1) + (-3) * ((c.e : ℂ)) * ((c.gs : ℂ)) * (ab z0.1 z1.1) * (ab z0.1 z2.1) * (sb z0.2 ρ0) + (3) * ((c.e : ℂ)) * ((c.gs : ℂ)) * (ab z0.1 z1.1) * (mb ρ0 (p 1) z2.1)) * i17 + ((-4) * ((c.SW : ℂ)) ^ 2 * ((c.e : ℂ)) * ((c.gs : ℂ)) * (ab z0.1 z1.1) * (ab z0.1 z2.1) * (sb z0.2 ρ0) + (4) * ((c.SW : ℂ)) ^ 2 * ((c.e : ℂ)) * ((c.gs : ℂ)) * (ab z0.1 z1.1) * (mb ρ0 (p 1) z2.1) + (-3) * ((c.e : ℂ)) * ((c.gs : ℂ)) * ((c.mass .u : ℂ)) * (ab z0.1 z2.1) * (sb z1.2 ρ0) + (3) * ((c.e : ℂ)) * ((c.gs : ℂ)) * (ab z0.1 z1.1) * (ab z0.1 z2.1) * (sb z0.2 ρ0) + (-3) * ((c.e : ℂ)) * ((c.gs : ℂ)) * (ab z0.1 z1.1) * (mb ρ0 (p 1) z2.1)) * i18 + ((-4) * ((c.MW : ℂ)) * ((c.SW : ℂ)) ^ 2 * ((c.e : ℂ)) * ((c.gs : ℂ)) * ((c.CW : ℂ)⁻¹) * (ab z0.1 z2.1) * (sb z0.2 ρ0) + (3) * ((c.MW : ℂ)) * ((c.e : ℂ)) * ((c.gs : ℂ)) * ((c.CW : ℂ)⁻¹) * (ab z0.1 z2.1) * (sb z0.2 ρ0) + (-4) * ((c.SW : ℂ)) ^ 2 * ((c.e : ℂ)) * ((c.gs : ℂ)) * (mb z2.2 (p 1) z0.1) * (sb z0.2 ρ0) + (3) * ((c.e : ℂ)) * ((c.gs : ℂ)) * (mb z2.2 (p 1) z0.1) * (sb z0.2 ρ0)) * i19 + ((-4) * ((c.SW : ℂ)) ^ 2 * ((c.e : ℂ)) * ((c.gs : ℂ)) * ((c.mass .u : ℂ)) * (ab z0.1 z2.1) * (sb z2.2 ρ0) + (6) * ((c.e : ℂ)) * ((c.gs : ℂ)) * ((c.mass .u : ℂ)) * (ab z0.1 z2.1) * (sb z2.2 ρ0)) * i20 + ((-4) * ((c.SW : ℂ)) ^ 2 * ((c.e : ℂ)) * ((c.gs : ℂ)) * ((c.mass .u : ℂ)) * (ab z0.1 z3.1) * (sb z0.2 ρ0) + (-4) * ((c.SW : ℂ)) ^ 2 * ((c.e : ℂ)) * ((c.gs : ℂ)) * (N.c 0) * (sb z3.2 ρ0) + (4) * ((c.SW : ℂ)) ^ 2 * ((c.e : ℂ)) * ((c.gs : ℂ)) * (mb z3.2 (p 1) z0.1) * (sb z0.2 ρ0) + (-4) * ((c.SW : ℂ)) ^ 2 * ((c.e : ℂ)) * ((c.gs : ℂ)) * (mb ρ0 (p 1) z0.1) * (sb z0.2 z3.2) + (3) * ((c.e : ℂ)) * ((c.gs : ℂ)) * (N.c 0) * (sb z3.2 ρ0) + (-3) * ((c.e : ℂ)) * ((c.gs : ℂ)) * (mb z3.2 (p 1) z0.1) * (sb z0.2 ρ0) + (3) * ((c.e : ℂ)) * ((c.gs : ℂ)) * (mb ρ0 (p 1) z0.1) * (sb z0.2 z3.2)) * i21 + ((4) * ((c.SW : ℂ)) ^ 2 * ((c.e : ℂ)) * ((c.gs : ℂ)) * ((c.mass .u : ℂ)) * (ab z0.1 z3.1) * (sb z2.2 ρ0)) * i22 + ((-8) * ((c.SW : ℂ)) ^ 2 * ((c.e : ℂ)) * ((c.gs : ℂ)) * ((c.mass .u : ℂ)) ^ 2 * (ab z0.1 z2.1) * (ab z0.1 z3.1) + (-3) * ((c.e : ℂ)) * ((c.gs : ℂ)) * ((c.mass .u : ℂ)) * (ab z0.1 z2.1) * (mb z3.2 (p 1) z0.1) + (3) * ((c.e : ℂ)) * ((c.gs : ℂ)) * ((c.mass .u : ℂ)) ^ 2 * (ab z0.1 z2.1) * (ab z0.1 z3.1)) * i23 + ((-4) * ((c.MW : ℂ)) * ((c.SW : ℂ)) ^ 2 * ((c.e : ℂ)) * ((c.gs : ℂ)) * ((c.CW : ℂ)⁻¹) * (ab z0.1 z2.1) * (ab z1.1 z2.1) + (3) * ((c.MW : ℂ)) * ((c.e : ℂ)) * ((c.gs : ℂ)) * ((c.CW : ℂ)⁻¹) * (ab z0.1 z2.1) * (ab z1.1 z2.1) + (4) * ((c.SW : ℂ)) ^ 2 * ((c.e : ℂ)) * ((c.gs : ℂ)) * (ab z0.1 z1.1) * (mb z2.2 (p 1) z2.1) + (-3) * ((c.e : ℂ)) * ((c.gs : ℂ)) * (ab z0.1 z1.1) * (mb z2.2 (p 1) z2.1)) * i24 + ((4) * ((c.SW : ℂ)) ^ 2 * ((c.e : ℂ)) * ((c.gs : ℂ)) * ((c.mass .u : ℂ)) * (ab z0.1 z2.1) * (sb z2.2 ρ0) + (-3) * ((c.e : ℂ)) * ((c.gs : ℂ)) * ((c.mass .u : ℂ)) * (ab z0.1 z2.1) * (sb z2.2 ρ0)) * i25 + ((3) * ((c.e : ℂ)) * ((c.gs : ℂ)) * ((c.mass .u : ℂ)) * (ab z0.1 z2.1) * (sb z0.2 ρ0)) * i26)) * ((1) * ((c.CW : ℂ)) * ((c.CW : ℂ)⁻¹) * ((c.MW : ℂ)⁻¹) * ((c.SW : ℂ)⁻¹) * ((N.c 0)⁻¹) * ((N.c 1)⁻¹) / (3)) + ((4) * ((c.CW : ℂ)) * ((c.MW : ℂ)) * ((c.SW : ℂ)) ^ 2 * ((c.e : ℂ)) * ((c.gs : ℂ)) * ((c.CW : ℂ)⁻¹) ^ 2 * ((c.MW : ℂ)⁻¹) * ((c.SW : ℂ)⁻¹) * ((N.c 1)⁻¹) * (ab z0.1 z2.1) * (ab z1.1 z2.1) * (sb z3.2 ρ0) / (3) + (-4) * ((c.CW : ℂ)) * ((c.MW : ℂ)) * ((c.SW : ℂ)) ^ 2 * ((c.e : ℂ)) * ((c.gs : ℂ)) * ((c.CW : ℂ)⁻¹) ^ 2 * ((c.MW : ℂ)⁻¹) * ((c.SW : ℂ)⁻¹) * ((N.c 1)⁻¹) * (ab z0.1 z3.1) * (sb z1.2 z2.2) * (sb z2.2 ρ0) / (3) + (-1) * ((c.CW : ℂ)) * ((c.MW : ℂ)) * ((c.e : ℂ)) * ((c.gs : ℂ)) * ((c.CW : ℂ)⁻¹) ^ 2 * ((c.MW : ℂ)⁻¹) * ((c.SW : ℂ)⁻¹) * ((N.c 1)⁻¹) * (ab z0.1 z2.1) * (ab z1.1 z2.1) * (sb z3.2 ρ0) + (-4) * ((c.CW : ℂ)) * ((c.SW : ℂ)) ^ 2 * ((c.e : ℂ)) * ((c.gs : ℂ)) * ((c.CW : ℂ)⁻¹) * ((c.MW : ℂ)⁻¹) * ((c.SW : ℂ)⁻¹) * ((c.mass .u : ℂ)) * ((N.c 1)⁻¹) * (ab z0.1 z2.1) * (sb z1.2 z2.2) * (sb z3.2 ρ0) / (3) + (4) * ((c.CW : ℂ)) * ((c.SW : ℂ)) ^ 2 * ((c.e : ℂ)) * ((c.gs : ℂ)) * ((c.CW : ℂ)⁻¹) * ((c.MW : ℂ)⁻¹) * ((c.SW : ℂ)⁻¹) * ((c.mass .u : ℂ)) * ((N.c 1)⁻¹) * (ab z0.1 z3.1) * (ab z1.1 z2.1) * (sb z2.2 ρ0) / (3) + (4) * ((c.CW : ℂ)) * ((c.SW : ℂ)) ^ 2 * ((c.e : ℂ)) * ((c.gs : ℂ)) * ((c.CW : ℂ)⁻¹) * ((c.MW : ℂ)⁻¹) * ((c.SW : ℂ)⁻¹) * ((N.c 1)⁻¹) * (ab z0.1 z3.1) * (mb ρ0 (p 1) z2.1) * (sb z1.2 z2.2) / (3) + (4) * ((c.CW : ℂ)) * ((c.SW : ℂ)) ^ 2 * ((c.e : ℂ)) * ((c.gs : ℂ)) * ((c.CW : ℂ)⁻¹) * ((c.MW : ℂ)⁻¹) * ((c.SW : ℂ)⁻¹) * ((N.c 1)⁻¹) * (ab z1.1 z2.1) * (mb z2.2 (p 1) z0.1) * (sb z3.2 ρ0) / (3) + (-1) * ((c.CW : ℂ)) * ((c.e : ℂ)) * ((c.gs : ℂ)) * ((c.CW : ℂ)⁻¹) * ((c.MW : ℂ)⁻¹) * ((c.SW : ℂ)⁻¹) * ((c.mass .u : ℂ)) * ((N.c 1)⁻¹) * (ab z0.1 z3.1) * (ab z1.1 z2.1) * (sb z2.2 ρ0) + (-1) * ((c.CW : ℂ)) * ((c.e : ℂ)) * ((c.gs : ℂ)) * ((c.CW : ℂ)⁻¹) * ((c.MW : ℂ)⁻¹) * ((c.SW : ℂ)⁻¹) * ((N.c 1)⁻¹) * (ab z1.1 z2.1) * (mb z2.2 (p 1) z0.1) * (sb z3.2 ρ0)) * y0 + ((4) * ((c.CW : ℂ)) * ((c.SW : ℂ)) ^ 2 * ((c.e : ℂ)) * ((c.gs : ℂ)) * ((c.CW : ℂ)⁻¹) * ((c.MW : ℂ)⁻¹) * ((c.SW : ℂ)⁻¹) * ((c.mass .u : ℂ)) * ((N.c 0)⁻¹) * (ab z0.1 z1.1) * (ab z2.1 z3.1) * (sb z2.2 ρ0) / (3) + (-4) * ((c.CW : ℂ)) * ((c.SW : ℂ)) ^ 2 * ((c.e : ℂ)) * ((c.gs : ℂ)) * ((c.CW : ℂ)⁻¹) * ((c.MW : ℂ)⁻¹) * ((c.SW : ℂ)⁻¹) * ((c.mass .u : ℂ)) * ((N.c 0)⁻¹) * (ab z0.1 z2.1) * (sb z1.2 ρ0) * (sb z2.2 z3.2) / (3) + (-4) * ((c.CW : ℂ)) * ((c.SW : ℂ)) ^ 2 * ((c.e : ℂ)) * ((c.gs : ℂ)) * ((c.CW : ℂ)⁻¹) * ((c.MW : ℂ)⁻¹) * ((c.SW : ℂ)⁻¹) * ((N.c 0)⁻¹) * (ab z0.1 z1.1) * (ab z0.1 z2.1) * (sb z0.2 ρ0) * (sb z2.2 z3.2) / (3) + (4) * ((c.CW : ℂ)) * ((c.SW : ℂ)) ^ 2 * ((c.e : ℂ)) * ((c.gs : ℂ)) * ((c.CW : ℂ)⁻¹) * ((c.MW : ℂ)⁻¹) * ((c.SW : ℂ)⁻¹) * ((N.c 0)⁻¹) * (ab z0.1 z1.1) * (mb ρ0 (p 1) z2.1) * (sb z2.2 z3.2) / (3) + (4) * ((c.CW : ℂ)) * ((c.SW : ℂ)) ^ 2 * ((c.e : ℂ)) * ((c.gs : ℂ)) * ((c.CW : ℂ)⁻¹) * ((c.MW : ℂ)⁻¹) * ((c.SW : ℂ)⁻¹) * ((N.c 0)⁻¹) * (ab z2.1 z3.1) * (mb z2.2 (p 1) z0.1) * (sb z1.2 ρ0) / (3) + (1) * ((c.CW : ℂ)) * ((c.e : ℂ)) * ((c.gs : ℂ)) * ((c.CW : ℂ)⁻¹) * ((c.MW : ℂ)⁻¹) * ((c.SW : ℂ)⁻¹) * ((c.mass .u : ℂ)) * ((N.c 0)⁻¹) * (ab z0.1 z2.1) * (sb z1.2 ρ0) * (sb z2.2 z3.2) + (1) * ((c.CW : ℂ)) * ((c.e : ℂ)) * ((c.gs : ℂ)) * ((c.CW : ℂ)⁻¹) * ((c.MW : ℂ)⁻¹) * ((c.SW : ℂ)⁻¹) * ((N.c 0)⁻¹) * (ab z0.1 z1.1) * (ab z0.1 z2.1) * (sb z0.2 ρ0) * (sb z2.2 z3.2) + (-1) * ((c.CW : ℂ)) * ((c.e : ℂ)) * ((c.gs : ℂ)) * ((c.CW : ℂ)⁻¹) * ((c.MW : ℂ)⁻¹) * ((c.SW : ℂ)⁻¹) * ((N.c 0)⁻¹) * (ab z0.1 z1.1) * (mb ρ0 (p 1) z2.1) * (sb z2.2 z3.2)) * y1 + ((-2) * ((c.MW : ℂ)) * (((√2 : ℝ) : ℂ)) ^ 2 * ((c.SW : ℂ)) ^ 2 * ((c.e : ℂ)) * ((c.gs : ℂ)) * ((c.CW : ℂ)⁻¹) * ((c.MW : ℂ)⁻¹) * ((c.SW : ℂ)⁻¹) * ((N.c 1)⁻¹) * (ab z0.1 z2.1) * (ab z1.1 z2.1) * (sb z3.2 ρ0) / (3) + (2) * ((c.MW : ℂ)) * (((√2 : ℝ) : ℂ)) ^ 2 * ((c.SW : ℂ)) ^ 2 * ((c.e : ℂ)) * ((c.gs : ℂ)) * ((c.CW : ℂ)⁻¹) * ((c.MW : ℂ)⁻¹) * ((c.SW : ℂ)⁻¹) * ((N.c 1)⁻¹) * (ab z0.1 z3.1) * (sb z1.2 z2.2) * (sb z2.2 ρ0) / (3) + (1) * ((c.MW : ℂ)) * (((√2 : ℝ) : ℂ)) ^ 2 * ((c.e : ℂ)) * ((c.gs : ℂ)) * ((c.CW : ℂ)⁻¹) * ((c.MW : ℂ)⁻¹) * ((c.SW : ℂ)⁻¹) * ((N.c 1)⁻¹) * (ab z0.1 z2.1) * (ab z1.1 z2.1) * (sb z3.2 ρ0) / (2) + (4) * ((c.MW : ℂ)) * ((c.SW : ℂ)) ^ 2 * ((c.e : ℂ)) * ((c.gs : ℂ)) * ((c.CW : ℂ)⁻¹) * ((c.MW : ℂ)⁻¹) * ((c.SW : ℂ)⁻¹) * ((N.c 0)⁻¹) * ((N.c 1)⁻¹) * (ab z0.1 z1.1) * (mb z2.2 (p 1) z0.1) * (sb z0.2 ρ0) * (sb z2.2 z3.2) / (3) + (4) * ((c.MW : ℂ)) * ((c.SW : ℂ)) ^ 2 * ((c.e : ℂ)) * ((c.gs : ℂ)) * ((c.CW : ℂ)⁻¹) * ((c.MW : ℂ)⁻¹) * ((c.SW : ℂ)⁻¹) * ((N.c 0)⁻¹) * ((N.c 1)⁻¹) * (ab z0.1 z3.1) * (mb z2.2 (p 1) z0.1) * (sb z0.2 ρ0) * (sb z1.2 z2.2) / (3) + (4) * ((c.MW : ℂ)) * ((c.SW : ℂ)) ^ 2 * ((c.e : ℂ)) * ((c.gs : ℂ)) * ((c.CW : ℂ)⁻¹) * ((c.MW : ℂ)⁻¹) * ((c.SW : ℂ)⁻¹) * ((N.c 1)⁻¹) * (ab z0.1 z2.1) * (ab z1.1 z2.1) * (sb z3.2 ρ0) / (3) + (-4) * ((c.MW : ℂ)) * ((c.SW : ℂ)) ^ 2 * ((c.e : ℂ)) * ((c.gs : ℂ)) * ((c.CW : ℂ)⁻¹) * ((c.MW : ℂ)⁻¹) * ((c.SW : ℂ)⁻¹) * ((N.c 1)⁻¹) * (ab z0.1 z3.1) * (sb z1.2 z2.2) * (sb z2.2 ρ0) / (3) + (-1) * ((c.MW : ℂ)) * ((c.e : ℂ)) * ((c.gs : ℂ)) * ((c.CW : ℂ)⁻¹) * ((c.MW : ℂ)⁻¹) * ((c.SW : ℂ)⁻¹) * ((N.c 0)⁻¹) * ((N.c 1)⁻¹) * (ab z0.1 z1.1) * (mb z2.2 (p 1) z0.1) * (sb z0.2 ρ0) * (sb z2.2 z3.2) + (-1) * ((c.MW : ℂ)) * ((c.e : ℂ)) * ((c.gs : ℂ)) * ((c.CW : ℂ)⁻¹) * ((c.MW : ℂ)⁻¹) * ((c.SW : ℂ)⁻¹) * ((N.c 1)⁻¹) * (ab z0.1 z2.1) * (ab z1.1 z2.1) * (sb z3.2 ρ0) + (4) * ((c.MW : ℂ)) ^ 2 * ((c.SW : ℂ)) ^ 2 * ((c.e : ℂ)) * ((c.gs : ℂ)) * ((c.CW : ℂ)⁻¹) ^ 2 * ((c.MW : ℂ)⁻¹) * ((c.SW : ℂ)⁻¹) * ((N.c 0)⁻¹) * ((N.c 1)⁻¹) * (ab z0.1 z1.1) * (ab z0.1 z2.1) * (sb z0.2 ρ0) * (sb z2.2 z3.2) / (3) + (-1) * ((c.MW : ℂ)) ^ 2 * ((c.e : ℂ)) * ((c.gs : ℂ)) * ((c.CW : ℂ)⁻¹) ^ 2 * ((c.MW : ℂ)⁻¹) * ((c.SW : ℂ)⁻¹) * ((N.c 0)⁻¹) * ((N.c 1)⁻¹) * (ab z0.1 z1.1) * (ab z0.1 z2.1) * (sb z0.2 ρ0) * (sb z2.2 z3.2) + (-2) * (((√2 : ℝ) : ℂ)) ^ 2 * ((c.SW : ℂ)) ^ 2 * ((c.e : ℂ)) * ((c.gs : ℂ)) * ((c.MW : ℂ)⁻¹) * ((c.SW : ℂ)⁻¹) * ((c.mass .u : ℂ)) * ((N.c 0)⁻¹) * (ab z0.1 z1.1) * (ab z2.1 z3.1) * (sb z2.2 ρ0) / (3) + (2) * (((√2 : ℝ) : ℂ)) ^ 2 * ((c.SW : ℂ)) ^ 2 * ((c.e : ℂ)) * ((c.gs : ℂ)) * ((c.MW : ℂ)⁻¹) * ((c.SW : ℂ)⁻¹) * ((c.mass .u : ℂ)) * ((N.c 0)⁻¹) * (ab z0.1 z2.1) * (sb z1.2 ρ0) * (sb z2.2 z3.2) / (3) + (2) * (((√2 : ℝ) : ℂ)) ^ 2 * ((c.SW : ℂ)) ^ 2 * ((c.e : ℂ)) * ((c.gs : ℂ)) * ((c.MW : ℂ)⁻¹) * ((c.SW : ℂ)⁻¹) * ((c.mass .u : ℂ)) * ((N.c 1)⁻¹) * (ab z0.1 z2.1) * (sb z1.2 z2.2) * (sb z3.2 ρ0) / (3) + (-2) * (((√2 : ℝ) : ℂ)) ^ 2 * ((c.SW : ℂ)) ^ 2 * ((c.e : ℂ)) * ((c.gs : ℂ)) * ((c.MW : ℂ)⁻¹) * ((c.SW : ℂ)⁻¹) * ((c.mass .u : ℂ)) * ((N.c 1)⁻¹) * (ab z0.1 z3.1) * (ab z1.1 z2.1) * (sb z2.2 ρ0) / (3) + (2) * (((√2 : ℝ) : ℂ)) ^ 2 * ((c.SW : ℂ)) ^ 2 * ((c.e : ℂ)) * ((c.gs : ℂ)) * ((c.MW : ℂ)⁻¹) * ((c.SW : ℂ)⁻¹) * ((N.c 0)⁻¹) * (ab z0.1 z1.1) * (ab z0.1 z2.1) * (sb z0.2 ρ0) * (sb z2.2 z3.2) / (3) + (-2) * (((√2 : ℝ) : ℂ)) ^ 2 * ((c.SW : ℂ)) ^ 2 * ((c.e : ℂ)) * ((c.gs : ℂ)) * ((c.MW : ℂ)⁻¹) * ((c.SW : ℂ)⁻¹) * ((N.c 0)⁻¹) * (ab z0.1 z1.1) * (mb ρ0 (p 1) z2.1) * (sb z2.2 z3.2) / (3) + (-2) * (((√2 : ℝ) : ℂ)) ^ 2 * ((c.SW : ℂ)) ^ 2 * ((c.e : ℂ)) * ((c.gs : ℂ)) * ((c.MW : ℂ)⁻¹) * ((c.SW : ℂ)⁻¹) * ((N.c 0)⁻¹) * (ab z2.1 z3.1) * (mb z2.2 (p 1) z0.1) * (sb z1.2 ρ0) / (3) + (-2) * (((√2 : ℝ) : ℂ)) ^ 2 * ((c.SW : ℂ)) ^ 2 * ((c.e : ℂ)) * ((c.gs : ℂ)) * ((c.MW : ℂ)⁻¹) * ((c.SW : ℂ)⁻¹) * ((N.c 1)⁻¹) * (ab z0.1 z3.1) * (mb ρ0 (p 1) z2.1) * (sb z1.2 z2.2) / (3) + (-2) * (((√2 : ℝ) : ℂ)) ^ 2 * ((c.SW : ℂ)) ^ 2 * ((c.e : ℂ)) * ((c.gs : ℂ)) * ((c.MW : ℂ)⁻¹) * ((c.SW : ℂ)⁻¹) * ((N.c 1)⁻¹) * (ab z1.1 z2.1) * (mb z2.2 (p 1) z0.1) * (sb z3.2 ρ0) / (3) + (-1) * (((√2 : ℝ) : ℂ)) ^ 2 * ((c.e : ℂ)) * ((c.gs : ℂ)) * ((c.MW : ℂ)⁻¹) * ((c.SW : ℂ)⁻¹) * ((c.mass .u : ℂ)) * ((N.c 0)⁻¹) * (ab z0.1 z2.1) * (sb z1.2 ρ0) * (sb z2.2 z3.2) / (2) + (1) * (((√2 : ℝ) : ℂ)) ^ 2 * ((c.e : ℂ)) * ((c.gs : ℂ)) * ((c.MW : ℂ)⁻¹) * ((c.SW : ℂ)⁻¹) * ((c.mass .u : ℂ)) * ((N.c 1)⁻¹) * (ab z0.1 z3.1) * (ab z1.1 z2.1) * (sb z2.2 ρ0) / (2) + (-1) * (((√2 : ℝ) : ℂ)) ^ 2 * ((c.e : ℂ)) * ((c.gs : ℂ)) * ((c.MW : ℂ)⁻¹) * ((c.SW : ℂ)⁻¹) * ((N.c 0)⁻¹) * (ab z0.1 z1.1) * (ab z0.1 z2.1) * (sb z0.2 ρ0) * (sb z2.2 z3.2) / (2) + (1) * (((√2 : ℝ) : ℂ)) ^ 2 * ((c.e : ℂ)) * ((c.gs : ℂ)) * ((c.MW : ℂ)⁻¹) * ((c.SW : ℂ)⁻¹) * ((N.c 0)⁻¹) * (ab z0.1 z1.1) * (mb ρ0 (p 1) z2.1) * (sb z2.2 z3.2) / (2) + (1) * (((√2 : ℝ) : ℂ)) ^ 2 * ((c.e : ℂ)) * ((c.gs : ℂ)) * ((c.MW : ℂ)⁻¹) * ((c.SW : ℂ)⁻¹) * ((N.c 1)⁻¹) * (ab z1.1 z2.1) * (mb z2.2 (p 1) z0.1) * (sb z3.2 ρ0) / (2) + (4) * ((c.SW : ℂ)) ^ 2 * ((c.e : ℂ)) * ((c.gs : ℂ)) * ((c.MW : ℂ)⁻¹) * ((c.SW : ℂ)⁻¹) * ((c.mass .u : ℂ)) * ((N.c 0)⁻¹) * ((N.c 1)⁻¹) * (ab z0.1 z2.1) * (mb z1.2 (p 2) z0.1) * (sb z0.2 ρ0) * (sb z2.2 z3.2) / (3) + (4) * ((c.SW : ℂ)) ^ 2 * ((c.e : ℂ)) * ((c.gs : ℂ)) * ((c.MW : ℂ)⁻¹) * ((c.SW : ℂ)⁻¹) * ((c.mass .u : ℂ)) * ((N.c 0)⁻¹) * ((N.c 1)⁻¹) * (ab z0.1 z2.1) * (mb z3.2 (p 1) z0.1) * (sb z0.2 ρ0) * (sb z1.2 z2.2) / (3) + (4) * ((c.SW : ℂ)) ^ 2 * ((c.e : ℂ)) * ((c.gs : ℂ)) * ((c.MW : ℂ)⁻¹) * ((c.SW : ℂ)⁻¹) * ((c.mass .u : ℂ)) * ((N.c 0)⁻¹) * (ab z0.1 z1.1) * (ab z2.1 z3.1) * (sb z2.2 ρ0) / (3) + (-4) * ((c.SW : ℂ)) ^ 2 * ((c.e : ℂ)) * ((c.gs : ℂ)) * ((c.MW : ℂ)⁻¹) * ((c.SW : ℂ)⁻¹) * ((c.mass .u : ℂ)) * ((N.c 0)⁻¹) * (ab z0.1 z2.1) * (sb z1.2 ρ0) * (sb z2.2 z3.2) / (3) + (-4) * ((c.SW : ℂ)) ^ 2 * ((c.e : ℂ)) * ((c.gs : ℂ)) * ((c.MW : ℂ)⁻¹) * ((c.SW : ℂ)⁻¹) * ((c.mass .u : ℂ)) * ((N.c 1)⁻¹) * (ab z0.1 z2.1) * (sb z1.2 z2.2) * (sb z3.2 ρ0) / (3) + (4) * ((c.SW : ℂ)) ^ 2 * ((c.e : ℂ)) * ((c.gs : ℂ)) * ((c.MW : ℂ)⁻¹) * ((c.SW : ℂ)⁻¹) * ((c.mass .u : ℂ)) * ((N.c 1)⁻¹) * (ab z0.1 z3.1) * (ab z1.1 z2.1) * (sb z2.2 ρ0) / (3) + (4) * ((c.SW : ℂ)) ^ 2 * ((c.e : ℂ)) * ((c.gs : ℂ)) * ((c.MW : ℂ)⁻¹) * ((c.SW : ℂ)⁻¹) * ((c.mass .u : ℂ)) ^ 2 * ((N.c 0)⁻¹) * ((N.c 1)⁻¹) * (ab z0.1 z2.1) * (ab z0.1 z3.1) * (sb z0.2 ρ0) * (sb z1.2 z2.2) / (3) + (-4) * ((c.SW : ℂ)) ^ 2 * ((c.e : ℂ)) * ((c.gs : ℂ)) * ((c.MW : ℂ)⁻¹) * ((c.SW : ℂ)⁻¹) * ((N.c 0)⁻¹) * (ab z0.1 z1.1) * (ab z0.1 z2.1) * (sb z0.2 ρ0) * (sb z2.2 z3.2) / (3) + (4) * ((c.SW : ℂ)) ^ 2 * ((c.e : ℂ)) * ((c.gs : ℂ)) * ((c.MW : ℂ)⁻¹) * ((c.SW : ℂ)⁻¹) * ((N.c 0)⁻¹) * (ab z0.1 z1.1) * (mb ρ0 (p 1) z2.1) * (sb z2.2 z3.2) / (3) + (4) * ((c.SW : ℂ)) ^ 2 * ((c.e : ℂ)) * ((c.gs : ℂ)) * ((c.MW : ℂ)⁻¹) * ((c.SW : ℂ)⁻¹) * ((N.c 0)⁻¹) * (ab z2.1 z3.1) * (mb z2.2 (p 1) z0.1) * (sb z1.2 ρ0) / (3) + (4) * ((c.SW : ℂ)) ^ 2 * ((c.e : ℂ)) * ((c.gs : ℂ)) * ((c.MW : ℂ)⁻¹) * ((c.SW : ℂ)⁻¹) * ((N.c 1)⁻¹) * (ab z0.1 z3.1) * (mb ρ0 (p 1) z2.1) * (sb z1.2 z2.2) / (3) + (4) * ((c.SW : ℂ)) ^ 2 * ((c.e : ℂ)) * ((c.gs : ℂ)) * ((c.MW : ℂ)⁻¹) * ((c.SW : ℂ)⁻¹) * ((N.c 1)⁻¹) * (ab z1.1 z2.1) * (mb z2.2 (p 1) z0.1) * (sb z3.2 ρ0) / (3) + (-1) * ((c.e : ℂ)) * ((c.gs : ℂ)) * ((c.MW : ℂ)⁻¹) * ((c.SW : ℂ)⁻¹) * ((c.mass .u : ℂ)) * ((N.c 0)⁻¹) * ((N.c 1)⁻¹) * (ab z0.1 z2.1) * (mb z1.2 (p 2) z0.1) * (sb z0.2 ρ0) * (sb z2.2 z3.2) + (1) * ((c.e : ℂ)) * ((c.gs : ℂ)) * ((c.MW : ℂ)⁻¹) * ((c.SW : ℂ)⁻¹) * ((c.mass .u : ℂ)) * ((N.c 0)⁻¹) * (ab z0.1 z2.1) * (sb z1.2 ρ0) * (sb z2.2 z3.2) + (-1) * ((c.e : ℂ)) * ((c.gs : ℂ)) * ((c.MW : ℂ)⁻¹) * ((c.SW : ℂ)⁻¹) * ((c.mass .u : ℂ)) * ((N.c 1)⁻¹) * (ab z0.1 z3.1) * (ab z1.1 z2.1) * (sb z2.2 ρ0) + (1) * ((c.e : ℂ)) * ((c.gs : ℂ)) * ((c.MW : ℂ)⁻¹) * ((c.SW : ℂ)⁻¹) * ((N.c 0)⁻¹) * (ab z0.1 z1.1) * (ab z0.1 z2.1) * (sb z0.2 ρ0) * (sb z2.2 z3.2) + (-1) * ((c.e : ℂ)) * ((c.gs : ℂ)) * ((c.MW : ℂ)⁻¹) * ((c.SW : ℂ)⁻¹) * ((N.c 0)⁻¹) * (ab z0.1 z1.1) * (mb ρ0 (p 1) z2.1) * (sb z2.2 z3.2) + (-1) * ((c.e : ℂ)) * ((c.gs : ℂ)) * ((c.MW : ℂ)⁻¹) * ((c.SW : ℂ)⁻¹) * ((N.c 1)⁻¹) * (ab z1.1 z2.1) * (mb z2.2 (p 1) z0.1) * (sb z3.2 ρ0)) * yCW + ((-2) * (((√2 : ℝ) : ℂ)) ^ 2 * ((c.SW : ℂ)) ^ 2 * ((c.e : ℂ)) * ((c.gs : ℂ)) * ((c.CW : ℂ)⁻¹) * ((c.SW : ℂ)⁻¹) * ((N.c 1)⁻¹) * (ab z0.1 z2.1) * (ab z1.1 z2.1) * (sb z3.2 ρ0) / (3) + (2) * (((√2 : ℝ) : ℂ)) ^ 2 * ((c.SW : ℂ)) ^ 2 * ((c.e : ℂ)) * ((c.gs : ℂ)) * ((c.CW : ℂ)⁻¹) * ((c.SW : ℂ)⁻¹) * ((N.c 1)⁻¹) * (ab z0.1 z3.1) * (sb z1.2 z2.2) * (sb z2.2 ρ0) / (3) + (1) * (((√2 : ℝ) : ℂ)) ^ 2 * ((c.e : ℂ)) * ((c.gs : ℂ)) * ((c.CW : ℂ)⁻¹) * ((c.SW : ℂ)⁻¹) * ((N.c 1)⁻¹) * (ab z0.1 z2.1) * (ab z1.1 z2.1) * (sb z3.2 ρ0) / (2) + (4) * ((c.SW : ℂ)) ^ 2 * ((c.e : ℂ)) * ((c.gs : ℂ)) * ((c.CW : ℂ)⁻¹) * ((c.SW : ℂ)⁻¹) * ((N.c 1)⁻¹) * (ab z0.1 z2.1) * (ab z1.1 z2.1) * (sb z3.2 ρ0) / (3) + (-4) * ((c.SW : ℂ)) ^ 2 * ((c.e : ℂ)) * ((c.gs : ℂ)) * ((c.CW : ℂ)⁻¹) * ((c.SW : ℂ)⁻¹) * ((N.c 1)⁻¹) * (ab z0.1 z3.1) * (sb z1.2 z2.2) * (sb z2.2 ρ0) / (3) + (-1) * ((c.e : ℂ)) * ((c.gs : ℂ)) * ((c.CW : ℂ)⁻¹) * ((c.SW : ℂ)⁻¹) * ((N.c 1)⁻¹) * (ab z0.1 z2.1) * (ab z1.1 z2.1) * (sb z3.2 ρ0)) * yMW + ((-2) * (((√2 : ℝ) : ℂ)) ^ 2 * ((c.SW : ℂ)) * ((c.e : ℂ)) * ((c.gs : ℂ)) * ((c.CW : ℂ)⁻¹) * ((N.c 1)⁻¹) * (ab z0.1 z2.1) * (ab z1.1 z2.1) * (sb z3.2 ρ0) / (3) + (2) * (((√2 : ℝ) : ℂ)) ^ 2 * ((c.SW : ℂ)) * ((c.e : ℂ)) * ((c.gs : ℂ)) * ((c.CW : ℂ)⁻¹) * ((N.c 1)⁻¹) * (ab z0.1 z3.1) * (sb z1.2 z2.2) * (sb z2.2 ρ0) / (3) + (-2) * (((√2 : ℝ) : ℂ)) ^ 2 * ((c.SW : ℂ)) * ((c.e : ℂ)) * ((c.gs : ℂ)) * ((c.MW : ℂ)⁻¹) * ((c.mass .u : ℂ)) * ((N.c 0)⁻¹) * (ab z0.1 z1.1) * (ab z2.1 z3.1) * (sb z2.2 ρ0) / (3) + (2) * (((√2 : ℝ) : ℂ)) ^ 2 * ((c.SW : ℂ)) * ((c.e : ℂ)) * ((c.gs : ℂ)) * ((c.MW : ℂ)⁻¹) * ((c.mass .u : ℂ)) * ((N.c 0)⁻¹) * (ab z0.1 z2.1) * (sb z1.2 ρ0) * (sb z2.2 z3.2) / (3) + (2) * (((√2 : ℝ) : ℂ)) ^ 2 * ((c.SW : ℂ)) * ((c.e : ℂ)) * ((c.gs : ℂ)) * ((c.MW : ℂ)⁻¹) * ((c.mass .u : ℂ)) * ((N.c 1)⁻¹) * (ab z0.1 z2.1) * (sb z1.2 z2.2) * (sb z3.2 ρ0) / (3) + (-2) * (((√2 : ℝ) : ℂ)) ^ 2 * ((c.SW : ℂ)) * ((c.e : ℂ)) * ((c.gs : ℂ)) * ((c.MW : ℂ)⁻¹) * ((c.mass .u : ℂ)) * ((N.c 1)⁻¹) * (ab z0.1 z3.1) * (ab z1.1 z2.1) * (sb z2.2 ρ0) / (3) + (2) * (((√2 : ℝ) : ℂ)) ^ 2 * ((c.SW : ℂ)) * ((c.e : ℂ)) * ((c.gs : ℂ)) * ((c.MW : ℂ)⁻¹) * ((N.c 0)⁻¹) * (ab z0.1 z1.1) * (ab z0.1 z2.1) * (sb z0.2 ρ0) * (sb z2.2 z3.2) / (3) + (-2) * (((√2 : ℝ) : ℂ)) ^ 2 * ((c.SW : ℂ)) * ((c.e : ℂ)) * ((c.gs : ℂ)) * ((c.MW : ℂ)⁻¹) * ((N.c 0)⁻¹) * (ab z0.1 z1.1) * (mb ρ0 (p 1) z2.1) * (sb z2.2 z3.2) / (3) + (-2) * (((√2 : ℝ) : ℂ)) ^ 2 * ((c.SW : ℂ)) * ((c.e : ℂ)) * ((c.gs : ℂ)) * ((c.MW : ℂ)⁻¹) * ((N.c 0)⁻¹) * (ab z2.1 z3.1) * (mb z2.2 (p 1) z0.1) * (sb z1.2 ρ0) / (3) + (-2) * (((√2 : ℝ) : ℂ)) ^ 2 * ((c.SW : ℂ)) * ((c.e : ℂ)) * ((c.gs : ℂ)) * ((c.MW : ℂ)⁻¹) * ((N.c 1)⁻¹) * (ab z0.1 z3.1) * (mb ρ0 (p 1) z2.1) * (sb z1.2 z2.2) / (3) + (-2) * (((√2 : ℝ) : ℂ)) ^ 2 * ((c.SW : ℂ)) * ((c.e : ℂ)) * ((c.gs : ℂ)) * ((c.MW : ℂ)⁻¹) * ((N.c 1)⁻¹) * (ab z1.1 z2.1) * (mb z2.2 (p 1) z0.1) * (sb z3.2 ρ0) / (3) + (4) * ((c.SW : ℂ)) * ((c.e : ℂ)) * ((c.gs : ℂ)) * ((c.CW : ℂ)⁻¹) * ((N.c 1)⁻¹) * (ab z0.1 z2.1) * (ab z1.1 z2.1) * (sb z3.2 ρ0) / (3) + (-4) * ((c.SW : ℂ)) * ((c.e : ℂ)) * ((c.gs : ℂ)) * ((c.CW : ℂ)⁻¹) * ((N.c 1)⁻¹) * (ab z0.1 z3.1) * (sb z1.2 z2.2) * (sb z2.2 ρ0) / (3) + (4) * ((c.SW : ℂ)) * ((c.e : ℂ)) * ((c.gs : ℂ)) * ((c.MW : ℂ)⁻¹) * ((c.mass .u : ℂ)) * ((N.c 0)⁻¹) * (ab z0.1 z1.1) * (ab z2.1 z3.1) * (sb z2.2 ρ0) / (3) + (-4) * ((c.SW : ℂ)) * ((c.e : ℂ)) * ((c.gs : ℂ)) * ((c.MW : ℂ)⁻¹) * ((c.mass .u : ℂ)) * ((N.c 0)⁻¹) * (ab z0.1 z2.1) * (sb z1.2 ρ0) * (sb z2.2 z3.2) / (3) + (-4) * ((c.SW : ℂ)) * ((c.e : ℂ)) * ((c.gs : ℂ)) * ((c.MW : ℂ)⁻¹) * ((c.mass .u : ℂ)) * ((N.c 1)⁻¹) * (ab z0.1 z2.1) * (sb z1.2 z2.2) * (sb z3.2 ρ0) / (3) + (4) * ((c.SW : ℂ)) * ((c.e : ℂ)) * ((c.gs : ℂ)) * ((c.MW : ℂ)⁻¹) * ((c.mass .u : ℂ)) * ((N.c 1)⁻¹) * (ab z0.1 z3.1) * (ab z1.1 z2.1) * (sb z2.2 ρ0) / (3) + (-4) * ((c.SW : ℂ)) * ((c.e : ℂ)) * ((c.gs : ℂ)) * ((c.MW : ℂ)⁻¹) * ((N.c 0)⁻¹) * (ab z0.1 z1.1) * (ab z0.1 z2.1) * (sb z0.2 ρ0) * (sb z2.2 z3.2) / (3) + (4) * ((c.SW : ℂ)) * ((c.e : ℂ)) * ((c.gs : ℂ)) * ((c.MW : ℂ)⁻¹) * ((N.c 0)⁻¹) * (ab z0.1 z1.1) * (mb ρ0 (p 1) z2.1) * (sb z2.2 z3.2) / (3) + (4) * ((c.SW : ℂ)) * ((c.e : ℂ)) * ((c.gs : ℂ)) * ((c.MW : ℂ)⁻¹) * ((N.c 0)⁻¹) * (ab z2.1 z3.1) * (mb z2.2 (p 1) z0.1) * (sb z1.2 ρ0) / (3) + (4) * ((c.SW : ℂ)) * ((c.e : ℂ)) * ((c.gs : ℂ)) * ((c.MW : ℂ)⁻¹) * ((N.c 1)⁻¹) * (ab z0.1 z3.1) * (mb ρ0 (p 1) z2.1) * (sb z1.2 z2.2) / (3) + (4) * ((c.SW : ℂ)) * ((c.e : ℂ)) * ((c.gs : ℂ)) * ((c.MW : ℂ)⁻¹) * ((N.c 1)⁻¹) * (ab z1.1 z2.1) * (mb z2.2 (p 1) z0.1) * (sb z3.2 ρ0) / (3)) * ySW + ((-2) * ((c.SW : ℂ)) * ((c.e : ℂ)) * ((c.gs : ℂ)) * ((c.CW : ℂ)⁻¹) * ((N.c 1)⁻¹) * (ab z0.1 z2.1) * (ab z1.1 z2.1) * (sb z3.2 ρ0) / (3) + (2) * ((c.SW : ℂ)) * ((c.e : ℂ)) * ((c.gs : ℂ)) * ((c.CW : ℂ)⁻¹) * ((N.c 1)⁻¹) * (ab z0.1 z3.1) * (sb z1.2 z2.2) * (sb z2.2 ρ0) / (3) + (-2) * ((c.SW : ℂ)) * ((c.e : ℂ)) * ((c.gs : ℂ)) * ((c.MW : ℂ)⁻¹) * ((c.mass .u : ℂ)) * ((N.c 0)⁻¹) * (ab z0.1 z1.1) * (ab z2.1 z3.1) * (sb z2.2 ρ0) / (3) + (2) * ((c.SW : ℂ)) * ((c.e : ℂ)) * ((c.gs : ℂ)) * ((c.MW : ℂ)⁻¹) * ((c.mass .u : ℂ)) * ((N.c 0)⁻¹) * (ab z0.1 z2.1) * (sb z1.2 ρ0) * (sb z2.2 z3.2) / (3) + (2) * ((c.SW : ℂ)) * ((c.e : ℂ)) * ((c.gs : ℂ)) * ((c.MW : ℂ)⁻¹) * ((c.mass .u : ℂ)) * ((N.c 1)⁻¹) * (ab z0.1 z2.1) * (sb z1.2 z2.2) * (sb z3.2 ρ0) / (3) + (-2) * ((c.SW : ℂ)) * ((c.e : ℂ)) * ((c.gs : ℂ)) * ((c.MW : ℂ)⁻¹) * ((c.mass .u : ℂ)) * ((N.c 1)⁻¹) * (ab z0.1 z3.1) * (ab z1.1 z2.1) * (sb z2.2 ρ0) / (3) + (2) * ((c.SW : ℂ)) * ((c.e : ℂ)) * ((c.gs : ℂ)) * ((c.MW : ℂ)⁻¹) * ((N.c 0)⁻¹) * (ab z0.1 z1.1) * (ab z0.1 z2.1) * (sb z0.2 ρ0) * (sb z2.2 z3.2) / (3) + (-2) * ((c.SW : ℂ)) * ((c.e : ℂ)) * ((c.gs : ℂ)) * ((c.MW : ℂ)⁻¹) * ((N.c 0)⁻¹) * (ab z0.1 z1.1) * (mb ρ0 (p 1) z2.1) * (sb z2.2 z3.2) / (3) + (-2) * ((c.SW : ℂ)) * ((c.e : ℂ)) * ((c.gs : ℂ)) * ((c.MW : ℂ)⁻¹) * ((N.c 0)⁻¹) * (ab z2.1 z3.1) * (mb z2.2 (p 1) z0.1) * (sb z1.2 ρ0) / (3) + (-2) * ((c.SW : ℂ)) * ((c.e : ℂ)) * ((c.gs : ℂ)) * ((c.MW : ℂ)⁻¹) * ((N.c 1)⁻¹) * (ab z0.1 z3.1) * (mb ρ0 (p 1) z2.1) * (sb z1.2 z2.2) / (3) + (-2) * ((c.SW : ℂ)) * ((c.e : ℂ)) * ((c.gs : ℂ)) * ((c.MW : ℂ)⁻¹) * ((N.c 1)⁻¹) * (ab z1.1 z2.1) * (mb z2.2 (p 1) z0.1) * (sb z3.2 ρ0) / (3) + (1) * ((c.e : ℂ)) * ((c.gs : ℂ)) * ((c.CW : ℂ)⁻¹) * ((c.SW : ℂ)⁻¹) * ((N.c 1)⁻¹) * (ab z0.1 z2.1) * (ab z1.1 z2.1) * (sb z3.2 ρ0) / (2) + (-1) * ((c.e : ℂ)) * ((c.gs : ℂ)) * ((c.MW : ℂ)⁻¹) * ((c.SW : ℂ)⁻¹) * ((c.mass .u : ℂ)) * ((N.c 0)⁻¹) * (ab z0.1 z2.1) * (sb z1.2 ρ0) * (sb z2.2 z3.2) / (2) + (1) * ((c.e : ℂ)) * ((c.gs : ℂ)) * ((c.MW : ℂ)⁻¹) * ((c.SW : ℂ)⁻¹) * ((c.mass .u : ℂ)) * ((N.c 1)⁻¹) * (ab z0.1 z3.1) * (ab z1.1 z2.1) * (sb z2.2 ρ0) / (2) + (-1) * ((c.e : ℂ)) * ((c.gs : ℂ)) * ((c.MW : ℂ)⁻¹) * ((c.SW : ℂ)⁻¹) * ((N.c 0)⁻¹) * (ab z0.1 z1.1) * (ab z0.1 z2.1) * (sb z0.2 ρ0) * (sb z2.2 z3.2) / (2) + (1) * ((c.e : ℂ)) * ((c.gs : ℂ)) * ((c.MW : ℂ)⁻¹) * ((c.SW : ℂ)⁻¹) * ((N.c 0)⁻¹) * (ab z0.1 z1.1) * (mb ρ0 (p 1) z2.1) * (sb z2.2 z3.2) / (2) + (1) * ((c.e : ℂ)) * ((c.gs : ℂ)) * ((c.MW : ℂ)⁻¹) * ((c.SW : ℂ)⁻¹) * ((N.c 1)⁻¹) * (ab z1.1 z2.1) * (mb z2.2 (p 1) z0.1) * (sb z3.2 ρ0) / (2)) * x22
set_option maxRecDepth 8000 in
theorem guZu.amp2_eq (N : Env) (f : Nat → List Int → ℂ) : Cls.guZu.m_amp2.mean N f .r [] =
    ((sumW (fun x a => (sumJ (fun x b => (sumV (fun x c => (sumJ (fun x d => (x + (((4 : Nat) : ℝ) * (‖(f 0 [a, b, c, d])‖ ^ 2)))) x)) x)) x)) ((0 : Nat) : ℝ)) / ((96 : Nat) : ℝ)) := by rfl
set_option maxRecDepth 8000 in
theorem guZu.value (N : Env) : meaning N .r Cls.guZu.methods Cls.guZu.amp2 [] =
    ((sumW (fun x a => (sumJ (fun x b => (sumV (fun x c => (sumJ (fun x d => (x + (((4 : Nat) : ℝ) * (‖(Cls.guZu.m_amp.mean N (callMean N []) .c [a, b, c, d])‖ ^ 2)))) x)) x)) x)) ((0 : Nat) : ℝ)) / ((96 : Nat) : ℝ)) :=
  guZu.amp2_eq N (callMean N [Cls.guZu.m_amp])
theorem guZu.termP_lin (N : Env) (w : ℝ) (x : ℂ) (j2 a2 b2 j4 : Int) : guZu.termP N w x j2 a2 b2 j4 = x + (w : ℂ) * guZu.termP N 1 0 j2 a2 b2 j4 := by
  simp only [guZu.termP]; push_cast; ring
theorem guZu.termM_lin (N : Env) (w : ℝ) (x : ℂ) (j2 a2 b2 j4 : Int) : guZu.termM N w x j2 a2 b2 j4 = x + (w : ℂ) * guZu.termM N 1 0 j2 a2 b2 j4 := by
  simp only [guZu.termM]; push_cast; ring
set_option maxRecDepth 8000 in
theorem guZu.ampP (N : Env) (f : Nat → List Int → ℂ) (j2 j4 : Int) (t2 : Fin 3) : Cls.guZu.m_amp.mean N f .c [2, j2, spinV t2, j4] = comb t2 (fun a2 b2 => guZu.termP N 1 0 j2 (spinOf a2) (spinOf b2) j4) := by
  refine (amp_mean N f (m := 4) (K := 6) (G := fun i => if 0 < i 0 then guZu.termP N 1 0 (i 1) (i 4) (i 5) (i 3) else if i 0 < 0 then guZu.termM N 1 0 (i 1) (i 4) (i 5) (i 3) else 0) (fun l => ?_) (fun i i' h => ?_) rfl (by decide) (by decide) (by decide) (by decide) (by decide)).trans ?_
  · by_cases h : 0 < l.i 0
    · refine ⟨_, (if_pos (decide_eq_true h)).trans rfl, rfl, rfl, ?_⟩; rw [if_pos h]; exact guZu.termP_lin ..
    · by_cases h' : l.i 0 < 0
      · refine ⟨_, (if_neg (fun e => h (of_decide_eq_true e))).trans ((if_pos (decide_eq_true h')).trans rfl), rfl, rfl, ?_⟩; rw [if_neg h, if_pos h']; exact guZu.termM_lin ..
      · refine ⟨_, (if_neg (fun e => h (of_decide_eq_true e))).trans ((if_neg (fun e => h' (of_decide_eq_true e))).trans rfl), rfl, rfl, ?_⟩; rw [if_neg h, if_neg h', mul_zero, add_zero]
  · simp only [h 0 (by decide), h 1 (by decide), h 3 (by decide), h 4 (by decide), h 5 (by decide)]
  · show amp' _ [spinV t2] = _
    simp only [amp'_comb, amp'_nil]
    rfl
theorem guZu.formP_x2 (N : Env) (p : Nat → V4 ℝ) (z0 z1 y2 z3 x y : Pair) : guZu.formP N p z0 z1 (x + y) y2 z3 = guZu.formP N p z0 z1 x y2 z3 + guZu.formP N p z0 z1 y y2 z3 := by
  simp only [guZu.formP, Prod.fst_add, Prod.snd_add, ab_add_left, ab_add_right, sb_add_left, sb_add_right, mb_add_left, mb_add_right]
  ring
theorem guZu.formP_y2 (N : Env) (p : Nat → V4 ℝ) (z0 z1 x2 z3 x y : Pair) : guZu.formP N p z0 z1 x2 (x + y) z3 = guZu.formP N p z0 z1 x2 x z3 + guZu.formP N p z0 z1 x2 y z3 := by
  simp only [guZu.formP, Prod.fst_add, Prod.snd_add, ab_add_left, ab_add_right, sb_add_left, sb_add_right, mb_add_left, mb_add_right]
  ring
set_option maxRecDepth 8000 in
theorem guZu.ampM (N : Env) (f : Nat → List Int → ℂ) (j2 j4 : Int) (t2 : Fin 3) : Cls.guZu.m_amp.mean N f .c [(-2), j2, spinV t2, j4] = comb t2 (fun a2 b2 => guZu.termM N 1 0 j2 (spinOf a2) (spinOf b2) j4) := by
  refine (amp_mean N f (m := 4) (K := 6) (G := fun i => if 0 < i 0 then guZu.termP N 1 0 (i 1) (i 4) (i 5) (i 3) else if i 0 < 0 then guZu.termM N 1 0 (i 1) (i 4) (i 5) (i 3) else 0) (fun l => ?_) (fun i i' h => ?_) rfl (by decide) (by decide) (by decide) (by decide) (by decide)).trans ?_
  · by_cases h : 0 < l.i 0
    · refine ⟨_, (if_pos (decide_eq_true h)).trans rfl, rfl, rfl, ?_⟩; rw [if_pos h]; exact guZu.termP_lin ..
    · by_cases h' : l.i 0 < 0
      · refine ⟨_, (if_neg (fun e => h (of_decide_eq_true e))).trans ((if_pos (decide_eq_true h')).trans rfl), rfl, rfl, ?_⟩; rw [if_neg h, if_pos h']; exact guZu.termM_lin ..
      · refine ⟨_, (if_neg (fun e => h (of_decide_eq_true e))).trans ((if_neg (fun e => h' (of_decide_eq_true e))).trans rfl), rfl, rfl, ?_⟩; rw [if_neg h, if_neg h', mul_zero, add_zero]
  · simp only [h 0 (by decide), h 1 (by decide), h 3 (by decide), h 4 (by decide), h 5 (by decide)]
  · show amp' _ [spinV t2] = _
    simp only [amp'_comb, amp'_nil]
    rfl
theorem guZu.formM_x2 (N : Env) (p : Nat → V4 ℝ) (z0 z1 y2 z3 x y : Pair) : guZu.formM N p z0 z1 (x + y) y2 z3 = guZu.formM N p z0 z1 x y2 z3 + guZu.formM N p z0 z1 y y2 z3 := by
  simp only [guZu.formM, Prod.fst_add, Prod.snd_add, ab_add_left, ab_add_right, sb_add_left, sb_add_right, mb_add_left, mb_add_right]
  ring
theorem guZu.formM_y2 (N : Env) (p : Nat → V4 ℝ) (z0 z1 x2 z3 x y : Pair) : guZu.formM N p z0 z1 x2 (x + y) z3 = guZu.formM N p z0 z1 x2 x z3 + guZu.formM N p z0 z1 x2 y z3 := by
  simp only [guZu.formM, Prod.fst_add, Prod.snd_add, ab_add_left, ab_add_right, sb_add_left, sb_add_right, mb_add_left, mb_add_right]
  ring

theorem guZu.mass_eq {c : Constants} (hc : c.Physical) (i : Fin 4) : guZu.proc.massNum (guZu.rho c) i = guZu.react.mass c i := by
  fin_cases i <;> first | rfl | exact Nat.cast_zero | exact Nat.cast_zero.trans (hc.neutrino _).symm | (show c.MW / √(((1 : Nat) : ℝ) - c.SW * c.SW) = c.MZ; rw [c.root, c.mz])

variable [FPEnv] in
theorem guZu.amps {c : Constants} {p : Nat → V4 ℝ} {u : Fin 4 → Fin 3 → Spinor} {ε : Fin 4 → Fin 3 → Vec} (hc : c.Physical) (hh : c.Heavy) (h0 : ∀ i, 0 ≤ guZu.react.mass c i) (hs : ∀ i : Fin 4, OnShell (p i) (guZu.react.mass c i)) (hb : Balanced p) (hr : guZu.react.Regular c p) (hu : ∀ i, guZu.react.Complete c p i (u i) (ε i)) :
    (guZu.N c p).c 0 ≠ 0 ∧ (guZu.N c p).c 1 ≠ 0 ∧ (∀ n, (Ty.r, n) ∈ guZu.proc.divides → (guZu.N c p).r n ≠ 0) ∧ (∀ n, (Ty.c, n) ∈ guZu.proc.divides → (guZu.N c p).c n ≠ 0) ∧ ∀ (s1 : Fin 2) (s3 : Fin 2) (h0 : Fin 2) (t2 : Fin 3), ‖Cls.guZu.m_amp.mean (guZu.N c p) (callMean (guZu.N c p) []) .c [spinW h0, spinOf s1, spinV t2, spinOf s3]‖ = ‖guZu.react.bare c p 3 1 0 2 (guZu.react.codePair c p 3 s3) (guZu.react.codePair c p 1 s1) (lightE (legA (p 0) 0 0, legS (p 0) 0 1) h0.castSucc) (guZu.react.codeVec c p 2 t2)‖ := by
  have he : guZu.react.ends = [3] := by decide
  have ht : guZu.react.starts = [1] := by decide
  have hB : guZu.react.bosons = [0, 2] := by decide
  obtain ⟨f1, f2, f3⟩ := guZu.react.regular_line he ht hB hr
  have r3 : (guZu.N c p).r 3 = (c.mass .u) := rfl
  have r7 : (guZu.N c p).r 7 = (c.MW / √((((1 : Nat) : ℝ) - (c.SW * c.SW)))) := rfl
  simp only [c.root] at r7
  have r9 : (guZu.N c p).r 9 = (((((2 : Nat) : ℝ) * c.e) * c.gs) / ((((2 : Nat) : ℝ) * c.MW) * c.SW)) := rfl
  have r11 : (guZu.N c p).r 11 = (((((-((2 : Nat) : ℝ)) * (((2 : Nat) : ℝ) / ((3 : Nat) : ℝ))) * c.SW) * c.SW) + ((1 : Nat) : ℝ)) := rfl
  have r12 : (guZu.N c p).r 12 = ((((-((2 : Nat) : ℝ)) * (((2 : Nat) : ℝ) / ((3 : Nat) : ℝ))) * c.SW) * c.SW) := rfl
  have c0 : (guZu.N c p).c 0 = poleDist (c.mass .u) ((0 : Nat) : ℝ) ((VExp.add 0 1).sum p) := rfl
  rw [Nat.cast_zero, pole_fermion rfl] at c0
  have d0 : ((msq (plus (p 1) (p 0)) - c.mass .u ^ 2 : ℝ) : ℂ) = (guZu.N c p).c 0 := by rw [c0, msq_s hb (plus (p 1) (p 0)) (by simp)]
  have n0 : (guZu.N c p).c 0 ≠ 0 := by rw [← d0]; exact_mod_cast f1 .u rfl rfl
  have c1 : (guZu.N c p).c 1 = poleDist (c.mass .u) ((0 : Nat) : ℝ) ((VExp.sub 0 3).sum p) := rfl
  rw [Nat.cast_zero, pole_fermion rfl] at c1
  have d1 : ((msq (plus (p 1) (backward (p 2))) - c.mass .u ^ 2 : ℝ) : ℂ) = (guZu.N c p).c 1 := by rw [c1, msq_u hb (plus (p 1) (backward (p 2))) (by simp)]
  have n1 : (guZu.N c p).c 1 ≠ 0 := by rw [← d1]; exact_mod_cast f2 .u rfl rfl
  obtain ⟨l0, x0, y0⟩ := guZu.react.code_light hs hu (n := 0) rfl rfl
  have e01 := l0.pole_add (m := (c.mass .u)) (onShell_msq (hs 1)) (msq_s hb (plus (p 0) (p 1)) (by simp)) c0
  have e03 := l0.pole_sub (m := (c.mass .u)) (onShell_msq (hs 3)) (msq_u hb (plus (p 0) (backward (p 3))) (by simp)) c1
  have m1 : guZu.react.mass c 1 ≠ 0 := (leg_pos hc hh (by decide)).ne'
  have m2 : guZu.react.mass c 2 ≠ 0 := (leg_pos hc hh (by decide)).ne'
  have m3 : guZu.react.mass c 3 ≠ 0 := (leg_pos hc hh (by decide)).ne'
  have m0 : guZu.react.mass c 0 = 0 := rfl
  have hd : guZu.proc.divides = [(Ty.c, 1), (Ty.c, 0)] := by decide +kernel
  have stP : ∀ {z1 z3 : Pair} (b1 : Bold (p 1) (guZu.react.mass c 1) z1) (b3 : Bold (p 3) (guZu.react.mass c 3) z3) (t2 : Fin 3), comb t2 (fun a2 b2 => guZu.formP (guZu.N c p) p (legA (p 0) 0 0, legS (p 0) 0 1) z1 (guZu.react.codePair c p 2 a2) (guZu.react.codePair c p 2 b2) z3) = 1 * guZu.react.bare c p 3 1 0 2 z3 z1 (lightE (legA (p 0) 0 0, legS (p 0) 0 1) 1) (guZu.react.codeVec c p 2 t2) := by
    intro z1 z3 b1 b3 t2
    refine one_vector (p := p 2) (m := guZu.react.mass c 2) (fun s => guZu.react.codePair_bold hs h0 2 s) (B := fun x y => guZu.formP (guZu.N c p) p (legA (p 0) 0 0, legS (p 0) 0 1) z1 x y z3) (G := fun E => guZu.react.bare c p 3 1 0 2 z3 z1 (lightE (legA (p 0) 0 0, legS (p 0) 0 1) 1) E) (fun x y z => ?_) (fun x y z => ?_) (guZu.react.bare_lin₂ c p _ _ _ (by decide)) 1 (fun z2 b2 => ?_) t2
    · exact guZu.formP_x2 ..
    · exact guZu.formP_y2 ..
    · exact (light_plus (z := (legA (p 0) 0 0, legS (p 0) 0 1)) (G := fun E => guZu.react.bare c p 3 1 0 2 z3 z1 E (pv z2.1 z2.2)) (guZu.react.bare_lin₁ c p _ _ _ (by decide)) x0 (guZu.keyP hc hb r3 r7 r9 r11 r12 d0 n0 d1 n1 b1 b2 b3 l0 e01 e03 (onShell_msq (hs 1)) (onShell_msq (hs 2)) (onShell_msq (hs 3)) _)).trans (mul_assoc _ _ _)
  have stM : ∀ {z1 z3 : Pair} (b1 : Bold (p 1) (guZu.react.mass c 1) z1) (b3 : Bold (p 3) (guZu.react.mass c 3) z3) (t2 : Fin 3), comb t2 (fun a2 b2 => guZu.formM (guZu.N c p) p (legA (p 0) 0 0, legS (p 0) 0 1) z1 (guZu.react.codePair c p 2 a2) (guZu.react.codePair c p 2 b2) z3) = (-1) * guZu.react.bare c p 3 1 0 2 z3 z1 (lightE (legA (p 0) 0 0, legS (p 0) 0 1) 0) (guZu.react.codeVec c p 2 t2) := by
    intro z1 z3 b1 b3 t2
    refine one_vector (p := p 2) (m := guZu.react.mass c 2) (fun s => guZu.react.codePair_bold hs h0 2 s) (B := fun x y => guZu.formM (guZu.N c p) p (legA (p 0) 0 0, legS (p 0) 0 1) z1 x y z3) (G := fun E => guZu.react.bare c p 3 1 0 2 z3 z1 (lightE (legA (p 0) 0 0, legS (p 0) 0 1) 0) E) (fun x y z => ?_) (fun x y z => ?_) (guZu.react.bare_lin₂ c p _ _ _ (by decide)) (-1) (fun z2 b2 => ?_) t2
    · exact guZu.formM_x2 ..
    · exact guZu.formM_y2 ..
    · exact (light_minus (z := (legA (p 0) 0 0, legS (p 0) 0 1)) (G := fun E => guZu.react.bare c p 3 1 0 2 z3 z1 E (pv z2.1 z2.2)) (guZu.react.bare_lin₁ c p _ _ _ (by decide)) y0 (guZu.keyM hc hb r3 r7 r9 r11 r12 d0 n0 d1 n1 b1 b2 b3 l0 e01 e03 (onShell_msq (hs 1)) (onShell_msq (hs 2)) (onShell_msq (hs 3)) _)).trans (mul_assoc _ _ _)
  have amP : ∀ (s1 : Fin 2) (s3 : Fin 2) (t2 : Fin 3), Cls.guZu.m_amp.mean (guZu.N c p) (callMean (guZu.N c p) []) .c [2, spinOf s1, spinV t2, spinOf s3] = 1 * guZu.react.bare c p 3 1 0 2 (guZu.react.codePair c p 3 s3) (guZu.react.codePair c p 1 s1) (lightE (legA (p 0) 0 0, legS (p 0) 0 1) 1) (guZu.react.codeVec c p 2 t2) := by
    intro s1 s3 t2
    rw [guZu.ampP, ← stP (guZu.react.codePair_bold hs h0 1 s1) (guZu.react.codePair_bold hs h0 3 s3) t2]
    refine congrArg (comb t2) (funext fun a2 => funext fun b2 => ?_)
    have v3z1x2 : (guZu.N c p).v 3 [spinOf s1, spinOf a2] = ab (guZu.react.codePair c p 1 s1).1 (guZu.react.codePair c p 2 a2).1 := bra_angle (p := p) (m := guZu.proc.massNum (guZu.rho c)) (guZu.mass_eq hc 1) (guZu.mass_eq hc 2) (.inl ⟨m1, rfl⟩) (.inl ⟨m2, rfl⟩)
    have v2z0z3 : (guZu.N c p).v 2 [spinOf s3] = sb (legA (p 0) 0 0, legS (p 0) 0 1).2 (guZu.react.codePair c p 3 s3).2 := bra_square (p := p) (m := guZu.proc.massNum (guZu.rho c)) (guZu.mass_eq hc 0) (guZu.mass_eq hc 3) (.inr ⟨m0, rfl⟩) (.inl ⟨m3, rfl⟩)
    have v5z0y2 : (guZu.N c p).v 5 [spinOf b2] = mb (legA (p 0) 0 0, legS (p 0) 0 1).2 (p 1) (guZu.react.codePair c p 2 b2).1 := bra_mid_square (p := p) (m := guZu.proc.massNum (guZu.rho c)) (guZu.mass_eq hc 0) (guZu.mass_eq hc 2) (.inr ⟨m0, rfl⟩) (.inl ⟨m2, rfl⟩)
    have v1z0y2 : (guZu.N c p).v 1 [spinOf b2] = sb (legA (p 0) 0 0, legS (p 0) 0 1).2 (guZu.react.codePair c p 2 b2).2 := bra_square (p := p) (m := guZu.proc.massNum (guZu.rho c)) (guZu.mass_eq hc 0) (guZu.mass_eq hc 2) (.inr ⟨m0, rfl⟩) (.inl ⟨m2, rfl⟩)
    have v7z0z3 : (guZu.N c p).v 7 [spinOf s3] = mb (legA (p 0) 0 0, legS (p 0) 0 1).2 (p 2) (guZu.react.codePair c p 3 s3).1 := bra_mid_square (p := p) (m := guZu.proc.massNum (guZu.rho c)) (guZu.mass_eq hc 0) (guZu.mass_eq hc 3) (.inr ⟨m0, rfl⟩) (.inl ⟨m3, rfl⟩)
    have v4x2z3 : (guZu.N c p).v 4 [spinOf a2, spinOf s3] = ab (guZu.react.codePair c p 2 a2).1 (guZu.react.codePair c p 3 s3).1 := bra_angle (p := p) (m := guZu.proc.massNum (guZu.rho c)) (guZu.mass_eq hc 2) (guZu.mass_eq hc 3) (.inl ⟨m2, rfl⟩) (.inl ⟨m3, rfl⟩)
    have v6z0z1 : (guZu.N c p).v 6 [spinOf s1] = mb (legA (p 0) 0 0, legS (p 0) 0 1).2 (p 2) (guZu.react.codePair c p 1 s1).1 := bra_mid_square (p := p) (m := guZu.proc.massNum (guZu.rho c)) (guZu.mass_eq hc 0) (guZu.mass_eq hc 1) (.inr ⟨m0, rfl⟩) (.inl ⟨m1, rfl⟩)
    have v0z0z1 : (guZu.N c p).v 0 [spinOf s1] = sb (legA (p 0) 0 0, legS (p 0) 0 1).2 (guZu.react.codePair c p 1 s1).2 := bra_square (p := p) (m := guZu.proc.massNum (guZu.rho c)) (guZu.mass_eq hc 0) (guZu.mass_eq hc 1) (.inr ⟨m0, rfl⟩) (.inl ⟨m1, rfl⟩)
    have v8z0y2 : (guZu.N c p).v 8 [spinOf b2] = mb (legA (p 0) 0 0, legS (p 0) 0 1).2 (p 3) (guZu.react.codePair c p 2 b2).1 := bra_mid_square (p := p) (m := guZu.proc.massNum (guZu.rho c)) (guZu.mass_eq hc 0) (guZu.mass_eq hc 2) (.inr ⟨m0, rfl⟩) (.inl ⟨m2, rfl⟩)
    simp only [guZu.termP, guZu.formP, v3z1x2, v2z0z3, v5z0y2, v1z0y2, v7z0z3, v4x2z3, v6z0z1, v0z0z1, v8z0y2]
    push_cast
    ring
  have amM : ∀ (s1 : Fin 2) (s3 : Fin 2) (t2 : Fin 3), Cls.guZu.m_amp.mean (guZu.N c p) (callMean (guZu.N c p) []) .c [(-2), spinOf s1, spinV t2, spinOf s3] = (-1) * guZu.react.bare c p 3 1 0 2 (guZu.react.codePair c p 3 s3) (guZu.react.codePair c p 1 s1) (lightE (legA (p 0) 0 0, legS (p 0) 0 1) 0) (guZu.react.codeVec c p 2 t2) := by
    intro s1 s3 t2
    rw [guZu.ampM, ← stM (guZu.react.codePair_bold hs h0 1 s1) (guZu.react.codePair_bold hs h0 3 s3) t2]
    refine congrArg (comb t2) (funext fun a2 => funext fun b2 => ?_)
    have v12z1x2 : (guZu.N c p).v 12 [spinOf s1, spinOf a2] = sb (guZu.react.codePair c p 1 s1).2 (guZu.react.codePair c p 2 a2).2 := bra_square (p := p) (m := guZu.proc.massNum (guZu.rho c)) (guZu.mass_eq hc 1) (guZu.mass_eq hc 2) (.inl ⟨m1, rfl⟩) (.inl ⟨m2, rfl⟩)
    have v11z0z3 : (guZu.N c p).v 11 [spinOf s3] = ab (legA (p 0) 0 0, legS (p 0) 0 1).1 (guZu.react.codePair c p 3 s3).1 := bra_angle (p := p) (m := guZu.proc.massNum (guZu.rho c)) (guZu.mass_eq hc 0) (guZu.mass_eq hc 3) (.inr ⟨m0, rfl⟩) (.inl ⟨m3, rfl⟩)
    have v14z0y2 : (guZu.N c p).v 14 [spinOf b2] = mb (guZu.react.codePair c p 2 b2).2 (p 1) (legA (p 0) 0 0, legS (p 0) 0 1).1 := bra_mid_angle (p := p) (m := guZu.proc.massNum (guZu.rho c)) (guZu.mass_eq hc 0) (guZu.mass_eq hc 2) (.inr ⟨m0, rfl⟩) (.inl ⟨m2, rfl⟩)
    have v10z0y2 : (guZu.N c p).v 10 [spinOf b2] = ab (legA (p 0) 0 0, legS (p 0) 0 1).1 (guZu.react.codePair c p 2 b2).1 := bra_angle (p := p) (m := guZu.proc.massNum (guZu.rho c)) (guZu.mass_eq hc 0) (guZu.mass_eq hc 2) (.inr ⟨m0, rfl⟩) (.inl ⟨m2, rfl⟩)
    have v16z0z3 : (guZu.N c p).v 16 [spinOf s3] = mb (guZu.react.codePair c p 3 s3).2 (p 2) (legA (p 0) 0 0, legS (p 0) 0 1).1 := bra_mid_angle (p := p) (m := guZu.proc.massNum (guZu.rho c)) (guZu.mass_eq hc 0) (guZu.mass_eq hc 3) (.inr ⟨m0, rfl⟩) (.inl ⟨m3, rfl⟩)
    have v13x2z3 : (guZu.N c p).v 13 [spinOf a2, spinOf s3] = sb (guZu.react.codePair c p 2 a2).2 (guZu.react.codePair c p 3 s3).2 := bra_square (p := p) (m := guZu.proc.massNum (guZu.rho c)) (guZu.mass_eq hc 2) (guZu.mass_eq hc 3) (.inl ⟨m2, rfl⟩) (.inl ⟨m3, rfl⟩)
    have v15z0z1 : (guZu.N c p).v 15 [spinOf s1] = mb (guZu.react.codePair c p 1 s1).2 (p 2) (legA (p 0) 0 0, legS (p 0) 0 1).1 := bra_mid_angle (p := p) (m := guZu.proc.massNum (guZu.rho c)) (guZu.mass_eq hc 0) (guZu.mass_eq hc 1) (.inr ⟨m0, rfl⟩) (.inl ⟨m1, rfl⟩)
    have v9z0z1 : (guZu.N c p).v 9 [spinOf s1] = ab (legA (p 0) 0 0, legS (p 0) 0 1).1 (guZu.react.codePair c p 1 s1).1 := bra_angle (p := p) (m := guZu.proc.massNum (guZu.rho c)) (guZu.mass_eq hc 0) (guZu.mass_eq hc 1) (.inr ⟨m0, rfl⟩) (.inl ⟨m1, rfl⟩)
    have v17z0y2 : (guZu.N c p).v 17 [spinOf b2] = mb (guZu.react.codePair c p 2 b2).2 (p 3) (legA (p 0) 0 0, legS (p 0) 0 1).1 := bra_mid_angle (p := p) (m := guZu.proc.massNum (guZu.rho c)) (guZu.mass_eq hc 0) (guZu.mass_eq hc 2) (.inr ⟨m0, rfl⟩) (.inl ⟨m2, rfl⟩)
    simp only [guZu.termM, guZu.formM, v12z1x2, v11z0z3, v14z0y2, v10z0y2, v16z0z3, v13x2z3, v15z0z1, v9z0z1, v17z0y2]
    push_cast
    ring
  refine ⟨n0, n1, fun n hn => ?_, fun n hn => ?_, ?_⟩
  · simp [hd] at hn
  · simp [hd] at hn
    rcases hn with rfl | rfl
    · exact n1
    · exact n0
  intro s1 s3 h0 t2
  match h0 with
  | 1 => exact norm_plus (amP s1 s3 t2)
  | 0 => exact norm_minus (amM s1 s3 t2)

variable [FPEnv] in
theorem guZu.agrees : guZu.Agrees := by
  refine agrees_of (D := [3, 4]) (E := [4]) (by simp [all, guZu]) (by decide +kernel) (by decide) (by decide +kernel) (fun c hc hh => ⟨List.forall_mem_cons.2 ⟨hc.MW, List.forall_mem_cons.2 ⟨hc.SW, List.forall_mem_nil _⟩⟩, List.forall_mem_cons.2 ⟨hc.SW_lt, List.forall_mem_nil _⟩⟩) (fun c hc i => guZu.mass_eq hc i) (by decide +kernel) ?_
  intro c p u ε hc hh hw h0 hs hb hr hu
  have he : guZu.react.ends = [3] := by decide
  have ht : guZu.react.starts = [1] := by decide
  have hB : guZu.react.bosons = [0, 2] := by decide
  obtain ⟨n0, n1, d1, d2, am⟩ := guZu.amps hc hh h0 hs hb hr hu
  refine ⟨d1, d2, ?_⟩
  show meaning (guZu.N c p) .r Cls.guZu.methods Cls.guZu.amp2 [] = _
  have s0 : guZu.react.states 0 = 16 := by decide +kernel
  have s1 : guZu.react.states 1 = 6 := by decide +kernel
  have sy : guZu.react.symmetry = 1 := by decide
  have p0 : guZu.react.spins 0 = {0, 1} := rfl
  have p1 : guZu.react.spins 1 = {0, 1} := rfl
  have p2 : guZu.react.spins 2 = Finset.univ := rfl
  have p3 : guZu.react.spins 3 = {0, 1} := rfl
  have E0 : guZu.react.codeE c p 0 = lightE (legA (p 0) 0 0, legS (p 0) 0 1) := rfl
  have E2 : guZu.react.codeE c p 2 = guZu.react.codeVec c p 2 := rfl
  have hG : guZu.react.Gauge c p := (guZu.react.gauge_line he ht hB hh (by decide) (fun n => onShell_msq (hs n)) hb hr (fun n m h h2 => absurd (And.intro h h2) (by revert n m; decide)) (fun _ => ⟨rfl, rfl⟩) (fun h => absurd h (by decide)))
  rw [guZu.value, guZu.react.squared_gluon 0 he ht hB (by decide) (by decide +kernel) (by decide +kernel) hs h0 (fun _ b _ hb _ => (boson_pos hc hh hb).ne') hG (E := guZu.react.codeE c p) (fun n b hl => guZu.react.codeE_polarised hs h0 hu (fun b hb => (boson_pos hc hh hb).ne') n b hl) hu, sum_colours, s0, s1, sy]
  simp only [sumV_sum, sumJ_sum, sumW_sum, am, p0, p1, p2, p3, E0, E2, Finset.sum_singleton, sum_two, Matrix.cons_val_zero, Matrix.cons_val_one, Matrix.cons_val, two_castSucc]
  try simp only [← Finset.mul_sum]
  push_cast
  first | ring1 | ring_nf

end Spinas.SM.Rows
