import Verif.SM.LightRows
import Verif.SM.GluonLine

/-! A gluon and a Z boson become quarks. Generated by tools/bosons/lemit.py: for each class its amplitude at given helicities as a formula in spinors, and the proof that `amp2` is the squared amplitude of the Feynman rules. -/

set_option linter.unusedSimpArgs false
set_option linter.unusedVariables false
set_option linter.unreachableTactic false
set_option linter.unusedTactic false

namespace Spinas.SM.Rows
open Spec Spec.Reaction Props XR Matrix BRow

/-! ### gZdd -/

/-- what the methods of the class see -/
noncomputable abbrev gZdd.N [FPEnv] (c : Constants) (p : Nat → V4 ℝ) : Env := gZdd.proc.env (gZdd.rho c) p
/-- the term that `amp` adds for a choice of spinors, for a gluon of positive helicity (SM/gZdd.cpp) -/
noncomputable def gZdd.termP (N : Env) (w : ℝ) (x : ℂ) (a1 b1 j3 j4 : Int) : ℂ :=
  ((x + (((((((w * N.r 9) : ℝ) : ℂ) * N.v 10 []) * (((((N.r 12 : ℝ) : ℂ) * N.v 6 [a1, j4]) * N.v 3 [b1, j3]) + ((((N.r 11 : ℝ) : ℂ) * N.v 2 [a1, j3]) * N.v 7 [b1, j4]))) / N.c 0) / N.c 1)) + (((((w * N.r 9) : ℝ) : ℂ) * N.v 0 [a1]) * ((((((N.r 12 : ℝ) : ℂ) * N.v 8 [j4]) * N.v 3 [b1, j3]) / N.c 1) - (((((N.r 11 : ℝ) : ℂ) * N.v 4 [j3]) * N.v 7 [b1, j4]) / N.c 0))))
/-- the same with spinors in place of their spins -/
noncomputable def gZdd.formP (N : Env) (p : Nat → V4 ℝ) (z0 x1 y1 z2 z3 : Pair) : ℂ :=
  ((0 + (((((((((1 : Nat) : ℝ) * N.r 9) : ℝ) : ℂ) * (mb z0.2 (p 2) (slashLower (p 3) *ᵥ z0.2))) * (((((N.r 12 : ℝ) : ℂ) * (sb x1.2 z3.2)) * (ab y1.1 z2.1)) + ((((N.r 11 : ℝ) : ℂ) * (sb x1.2 z2.2)) * (ab y1.1 z3.1)))) / N.c 0) / N.c 1)) + (((((((1 : Nat) : ℝ) * N.r 9) : ℝ) : ℂ) * (sb z0.2 x1.2)) * ((((((N.r 12 : ℝ) : ℂ) * (sb z0.2 z3.2)) * (ab y1.1 z2.1)) / N.c 1) - (((((N.r 11 : ℝ) : ℂ) * (sb z0.2 z2.2)) * (ab y1.1 z3.1)) / N.c 0))))
/-- the term that `amp` adds for a choice of spinors, for a gluon of negative helicity (SM/gZdd.cpp) -/
noncomputable def gZdd.termM (N : Env) (w : ℝ) (x : ℂ) (a1 b1 j3 j4 : Int) : ℂ :=
  ((x + (((((((w * N.r 9) : ℝ) : ℂ) * N.v 11 []) * (((((N.r 12 : ℝ) : ℂ) * N.v 6 [a1, j4]) * N.v 3 [b1, j3]) + ((((N.r 11 : ℝ) : ℂ) * N.v 2 [a1, j3]) * N.v 7 [b1, j4]))) / N.c 0) / N.c 1)) + (((((w * N.r 9) : ℝ) : ℂ) * N.v 1 [a1]) * ((((((N.r 11 : ℝ) : ℂ) * N.v 9 [j4]) * N.v 2 [b1, j3]) / N.c 1) - (((((N.r 12 : ℝ) : ℂ) * N.v 5 [j3]) * N.v 6 [b1, j4]) / N.c 0))))
/-- the same with spinors in place of their spins -/
noncomputable def gZdd.formM (N : Env) (p : Nat → V4 ℝ) (z0 x1 y1 z2 z3 : Pair) : ℂ :=
  ((0 + (((((((((1 : Nat) : ℝ) * N.r 9) : ℝ) : ℂ) * (mb (slashUpper (p 3) *ᵥ z0.1) (p 2) z0.1)) * (((((N.r 12 : ℝ) : ℂ) * (sb x1.2 z3.2)) * (ab y1.1 z2.1)) + ((((N.r 11 : ℝ) : ℂ) * (sb x1.2 z2.2)) * (ab y1.1 z3.1)))) / N.c 0) / N.c 1)) + (((((((1 : Nat) : ℝ) * N.r 9) : ℝ) : ℂ) * (ab z0.1 x1.1)) * ((((((N.r 11 : ℝ) : ℂ) * (ab z0.1 z3.1)) * (sb y1.2 z2.2)) / N.c 1) - (((((N.r 12 : ℝ) : ℂ) * (ab z0.1 z2.1)) * (sb y1.2 z3.2)) / N.c 0))))
theorem gZdd.keyP {c : Constants} {p : Nat → V4 ℝ} {N : Env} (hc : c.Physical) (hb : Balanced p) (r9 : N.r 9 = (((((2 : Nat) : ℝ) * c.e) * c.gs) / ((((2 : Nat) : ℝ) * c.MW) * c.SW))) (r11 : N.r 11 = (((((-((2 : Nat) : ℝ)) * ((-((1 : Nat) : ℝ)) / ((3 : Nat) : ℝ))) * c.SW) * c.SW) - ((1 : Nat) : ℝ))) (r12 : N.r 12 = ((((-((2 : Nat) : ℝ)) * ((-((1 : Nat) : ℝ)) / ((3 : Nat) : ℝ))) * c.SW) * c.SW)) (d0 : ((msq (plus (backward (p 3)) (p 1)) - c.mass .d ^ 2 : ℝ) : ℂ) = N.c 0) (n0 : N.c 0 ≠ 0) (d1 : ((msq (plus (backward (p 3)) (p 0)) - c.mass .d ^ 2 : ℝ) : ℂ) = N.c 1) (n1 : N.c 1 ≠ 0) {z0 z1 z2 z3 : Pair} (b1 : Bold (p 1) c.MZ z1) (b2 : Bold (p 2) (c.mass .d) z2) (b3 : Bold (p 3) (c.mass .d) z3) (l0 : Light (p 0) z0) (e02 : mb z0.2 (p 2) z0.1 = -N.c 0) (e03 : mb z0.2 (p 3) z0.1 = -N.c 1) (q1 : msq (p 1) = c.MZ ^ 2) (q2 : msq (p 2) = (c.mass .d) ^ 2) (q3 : msq (p 3) = (c.mass .d) ^ 2) (ρ0 : V2) :
    gZdd.formP N p z0 z1 z1 z2 z3 * ab ρ0 z0.1 = ((√2 : ℝ) * ((1 : ℂ) * ((√2 / c.MZ : ℝ) : ℂ))) * gZdd.react.bare c p 2 3 0 1 z2 z3 (pv ρ0 z0.2) (pv z1.1 z1.2) := by
  rw [gZdd.react.bare_parts c p (i := 2) (j := 3) (a := 0) (b := 1) (x := .gluon) (y := .z) (k := (p 0)) (k' := (p 1)) (fun _ => rfl) (fun _ => rfl) (f := .d) (g := .d) rfl rfl (l := (backward (p 3))) rfl (e := 1) (e' := -1) (if_neg Bool.false_ne_true) (if_pos rfl)]
  rw [compton_vv (f := .d) (x := .d) (g := .d) (h := (rfl : Spec.after .gluon Flavour.d = some Flavour.d)) (h' := (rfl : Spec.after .z Flavour.d = some Flavour.d)) (ha := by simp) (hb := by simp)]
  rw [compton_vv (f := .d) (x := .d) (g := .d) (h := (rfl : Spec.after .z Flavour.d = some Flavour.d)) (h' := (rfl : Spec.after .gluon Flavour.d = some Flavour.d)) (ha := by simp) (hb := by simp)]
  rw [annihilation_none c _ _ (by rfl) (by simp), star_zero, add_zero, gZdd.formP]
  simp only [d0, d1, lineV_pv, lineV_four, contract_four_pv, contract_pv, mb_plus, mb_backward]
  have i0 := chain_square z0.1 z2.1 z0.2 (p 2) (p 3) z0.2
  have i1 := mb_schouten_left z0.2 z1.2 z3.2 (p 1) z2.1
  have i2 := mb_schouten_right z0.2 (p 2) z0.1 z1.1 ρ0
  have i3 := chain_square z0.1 z1.1 z0.2 (p 2) (p 3) z0.2
  have i4 := ab_schouten z1.1 z2.1 ρ0 z0.1
  have i5 := mb_schouten_left z0.2 z1.2 z3.2 (p 2) z1.1
  have i6 := ab_schouten z2.1 z3.1 ρ0 z1.1
  have i7 := sb_schouten z1.2 z2.2 z3.2 z0.2
  have i8 := mb_schouten_right z1.2 (p 2) z0.1 z1.1 z2.1
  have i9 := mb_schouten_right z0.2 (p 2) z0.1 z2.1 ρ0
  have i10 := ab_schouten z1.1 z3.1 ρ0 z0.1
  have i11 := mb_schouten_right z0.2 (p 1) z0.1 z1.1 ρ0
  have i12 := chain_square z0.1 z3.1 z0.2 (p 2) (p 3) z0.2
  have i13 := mb_schouten_right z1.2 (p 2) z0.1 z2.1 ρ0
  have i14 := mb_schouten_right z0.2 (p 2) z1.1 z2.1 ρ0
  have i15 := mb_schouten_right z1.2 (p 2) z0.1 z1.1 ρ0
  have i16 := mb_schouten_right z0.2 (p 2) z0.1 z1.1 z2.1
  have i17 := mb_schouten_right z1.2 (p 2) z0.1 z3.1 ρ0
  have i18 := mb_schouten_right z0.2 (p 2) z0.1 z1.1 z3.1
  have i19 := mb_schouten_right z0.2 (p 1) z0.1 z1.1 z3.1
  have i20 := mb_schouten_right z0.2 (p 1) z1.1 z3.1 ρ0
  have i21 := mb_schouten_left z0.2 z1.2 z2.2 (p 1) z3.1
  have i22 := mb_schouten_right z0.2 (p 2) z1.1 z3.1 ρ0
  have i23 := mb_schouten_right z1.2 (p 2) z0.1 z1.1 z3.1
  have i24 := mb_schouten_right z0.2 (p 2) z0.1 z3.1 ρ0
  have i25 := mb_schouten_right z0.2 (p 1) z0.1 z3.1 ρ0
  have i26 := mb_schouten_left z0.2 z1.2 z2.2 (p 2) z1.1
  simp only [l0.mb_eq, b1.mb_left, b1.mb_right, b2.mb_left, b2.mb_right, b3.mb_left, b3.mb_right, e02, e03, mb_one hb z0.2 z0.1, mb_three hb z0.2 z1.1, mb_three hb z0.2 z2.1, mb_two hb z0.2 z3.1, mb_three hb z0.2 ρ0, mb_three hb z1.2 z0.1, mb_three hb z1.2 z1.1, mb_three hb z1.2 z2.1, mb_two hb z1.2 z3.1, mb_three hb z1.2 ρ0, mb_three hb z2.2 z0.1, mb_three hb z2.2 z1.1, mb_three hb z2.2 z2.1, mb_one hb z2.2 z3.1, mb_three hb z2.2 ρ0, mb_two hb z3.2 z0.1, mb_two hb z3.2 z1.1, mb_one hb z3.2 z2.1, mb_two hb z3.2 z3.1, mb_two hb z3.2 ρ0, ab_self, sb_self] at i0 i1 i2 i3 i4 i5 i6 i7 i8 i9 i10 i11 i12 i13 i14 i15 i16 i17 i18 i19 i20 i21 i22 i23 i24 i25 i26 ⊢
  simp only [ab_swap z0.1 z1.1, ab_swap z0.1 z2.1, ab_swap z0.1 z3.1, ab_swap z0.1 ρ0, ab_swap z1.1 z2.1, ab_swap z1.1 z3.1, ab_swap z1.1 ρ0, ab_swap z2.1 z3.1, ab_swap z2.1 ρ0, ab_swap z3.1 ρ0, sb_swap z0.2 z1.2, sb_swap z0.2 z2.2, sb_swap z0.2 z3.2, sb_swap z1.2 z2.2, sb_swap z1.2 z3.2, sb_swap z2.2 z3.2] at i0 i1 i2 i3 i4 i5 i6 i7 i8 i9 i10 i11 i12 i13 i14 i15 i16 i17 i18 i19 i20 i21 i22 i23 i24 i25 i26 ⊢
  simp only [r9, r11, r12, Constants.hL, Constants.hR, Constants.gL, Constants.gR, Constants.yuk, Constants.invVev, Flavour.charge_d, Flavour.isospin_d, ← c.mz]
  have xMW : (c.MW : ℂ) ≠ 0 := by exact_mod_cast hc.MW
  have xSW : (c.SW : ℂ) ≠ 0 := by exact_mod_cast hc.SW
  have xCW : (c.CW : ℂ) ≠ 0 := by exact_mod_cast hc.CW
  have x2 : ((√2 : ℝ) : ℂ) ≠ 0 := by exact_mod_cast (Real.sqrt_pos.2 two_pos).ne'
  have x22 : ((√2 : ℝ) : ℂ) ^ 2 = 2 := by rw [← Complex.ofReal_pow, Real.sq_sqrt two_pos.le]; norm_num
  have x23 : ((√2 : ℝ) : ℂ) ^ 3 = 2 * ((√2 : ℝ) : ℂ) := by rw [← x22]; ring
  have x24 : ((√2 : ℝ) : ℂ) ^ 4 = 4 := by linear_combination (((√2 : ℝ) : ℂ) ^ 2 + 2) * x22
  try simp only [← c.mz] at i0 i1 i2 i3 i4 i5 i6 i7 i8 i9 i10 i11 i12 i13 i14 i15 i16 i17 i18 i19 i20 i21 i22 i23 i24 i25 i26
  push_cast at i0 i1 i2 i3 i4 i5 i6 i7 i8 i9 i10 i11 i12 i13 i14 i15 i16 i17 i18 i19 i20 i21 i22 i23 i24 i25 i26 ⊢
  simp only [div_eq_mul_inv, mul_inv, inv_inv] at i0 i1 i2 i3 i4 i5 i6 i7 i8 i9 i10 i11 i12 i13 i14 i15 i16 i17 i18 i19 i20 i21 i22 i23 i24 i25 i26 ⊢
  have y0 := mul_inv_cancel₀ n0
  have y1 := mul_inv_cancel₀ n1
  have yCW := mul_inv_cancel₀ xCW
  have yMW := mul_inv_cancel₀ xMW
  have ySW := mul_inv_cancel₀ xSW
  linear_combination ((((-2) * ((c.SW : ℂ)) ^ 2 * ((c.e : ℂ)) * ((c.gs : ℂ)) * (ab z1.1 ρ0) * (sb z1.2 z3.2)) * i0 + ((-2) * ((c.SW : ℂ)) ^ 2 * ((c.e : ℂ)) * ((c.gs : ℂ)) * (N.c 0) * (ab z1.1 ρ0)) * i1 + ((2) * ((c.MW : ℂ)) * ((c.SW : ℂ)) ^ 2 * ((c.e : ℂ)) * ((c.gs : ℂ)) * ((c.CW : ℂ)⁻¹) * (ab z1.1 z3.1) * (sb z0.2 z2.2) + (-3) * ((c.MW : ℂ)) * ((c.e : ℂ)) * ((c.gs : ℂ)) * ((c.CW : ℂ)⁻¹) * (ab z1.1 z3.1) * (sb z0.2 z2.2) + (-2) * ((c.SW : ℂ)) ^ 2 * ((c.e : ℂ)) * ((c.gs : ℂ)) * ((c.mass .d : ℂ)) * (sb z0.2 z1.2) * (sb z2.2 z3.2) + (4) * ((c.SW : ℂ)) ^ 2 * ((c.e : ℂ)) * ((c.gs : ℂ)) * ((c.mass .d : ℂ)) * (sb z0.2 z2.2) * (sb z1.2 z3.2) + (-2) * ((c.SW : ℂ)) ^ 2 * ((c.e : ℂ)) * ((c.gs : ℂ)) * (ab z0.1 z3.1) * (sb z0.2 z1.2) * (sb z0.2 z2.2) + (-3) * ((c.e : ℂ)) * ((c.gs : ℂ)) * ((c.mass .d : ℂ)) * (sb z0.2 z2.2) * (sb z1.2 z3.2) + (3) * ((c.e : ℂ)) * ((c.gs : ℂ)) * (ab z0.1 z3.1) * (sb z0.2 z1.2) * (sb z0.2 z2.2)) * i2 + ((2) * ((c.SW : ℂ)) ^ 2 * ((c.e : ℂ)) * ((c.gs : ℂ)) * (ab z2.1 ρ0) * (sb z1.2 z3.2) + (2) * ((c.SW : ℂ)) ^ 2 * ((c.e : ℂ)) * ((c.gs : ℂ)) * (ab z3.1 ρ0) * (sb z1.2 z2.2) + (-3) * ((c.e : ℂ)) * ((c.gs : ℂ)) * (ab z3.1 ρ0) * (sb z1.2 z2.2)) * i3 + ((-2) * ((c.SW : ℂ)) ^ 2 * ((c.e : ℂ)) * ((c.gs : ℂ)) * (N.c 0) * (sb z0.2 z1.2) * (sb z0.2 z3.2) + (-2) * ((c.SW : ℂ)) ^ 2 * ((c.e : ℂ)) * ((c.gs : ℂ)) * ((mb z0.2 (p 2) (slashLower (p 3) *ᵥ z0.2))) * (sb z1.2 z3.2)) * i4 + ((-2) * ((c.SW : ℂ)) ^ 2 * ((c.e : ℂ)) * ((c.gs : ℂ)) * (N.c 0) * (ab z2.1 ρ0)) * i5 + ((-2) * ((c.SW : ℂ)) ^ 2 * ((c.e : ℂ)) * ((c.gs : ℂ)) * ((c.mass .d : ℂ)) * (N.c 0) * (sb z0.2 z1.2) + (-2) * ((c.SW : ℂ)) ^ 2 * ((c.e : ℂ)) * ((c.gs : ℂ)) * ((c.mass .d : ℂ)) * (N.c 1) * (sb z0.2 z1.2) + (3) * ((c.e : ℂ)) * ((c.gs : ℂ)) * ((c.mass .d : ℂ)) * (N.c 1) * (sb z0.2 z1.2)) * i6 + ((2) * ((c.SW : ℂ)) ^ 2 * ((c.e : ℂ)) * ((c.gs : ℂ)) * ((c.mass .d : ℂ)) * (N.c 1) * (ab z1.1 ρ0) + (2) * ((c.SW : ℂ)) ^ 2 * ((c.e : ℂ)) * ((c.gs : ℂ)) * ((c.mass .d : ℂ)) * (ab z0.1 z1.1) * (mb z0.2 (p 2) ρ0) + (-2) * ((c.SW : ℂ)) ^ 2 * ((c.e : ℂ)) * ((c.gs : ℂ)) * ((c.mass .d : ℂ)) * (ab z0.1 ρ0) * (mb z0.2 (p 2) z1.1) + (-3) * ((c.e : ℂ)) * ((c.gs : ℂ)) * ((c.mass .d : ℂ)) * (N.c 1) * (ab z1.1 ρ0)) * i7 + ((2) * ((c.SW : ℂ)) ^ 2 * ((c.e : ℂ)) * ((c.gs : ℂ)) * (mb z0.2 (p 2) ρ0) * (sb z0.2 z3.2)) * i8 + ((2) * ((c.SW : ℂ)) ^ 2 * ((c.e : ℂ)) * ((c.gs : ℂ)) * (mb z1.2 (p 2) z1.1) * (sb z0.2 z3.2)) * i9 + ((-2) * ((c.SW : ℂ)) ^ 2 * ((c.e : ℂ)) * ((c.gs : ℂ)) * ((mb z0.2 (p 2) (slashLower (p 3) *ᵥ z0.2))) * (sb z1.2 z2.2) + (3) * ((c.e : ℂ)) * ((c.gs : ℂ)) * ((mb z0.2 (p 2) (slashLower (p 3) *ᵥ z0.2))) * (sb z1.2 z2.2)) * i10 + ((-2) * ((c.MW : ℂ)) * ((c.SW : ℂ)) ^ 2 * ((c.e : ℂ)) * ((c.gs : ℂ)) * ((c.CW : ℂ)⁻¹) * (ab z1.1 z3.1) * (sb z0.2 z2.2) + (3) * ((c.MW : ℂ)) * ((c.e : ℂ)) * ((c.gs : ℂ)) * ((c.CW : ℂ)⁻¹) * (ab z1.1 z3.1) * (sb z0.2 z2.2) + (-2) * ((c.SW : ℂ)) ^ 2 * ((c.e : ℂ)) * ((c.gs : ℂ)) * ((c.mass .d : ℂ)) * (sb z0.2 z2.2) * (sb z1.2 z3.2) + (2) * ((c.SW : ℂ)) ^ 2 * ((c.e : ℂ)) * ((c.gs : ℂ)) * (ab z0.1 z3.1) * (sb z0.2 z1.2) * (sb z0.2 z2.2) + (3) * ((c.e : ℂ)) * ((c.gs : ℂ)) * ((c.mass .d : ℂ)) * (sb z0.2 z2.2) * (sb z1.2 z3.2) + (-3) * ((c.e : ℂ)) * ((c.gs : ℂ)) * (ab z0.1 z3.1) * (sb z0.2 z1.2) * (sb z0.2 z2.2)) * i11 + ((-2) * ((c.SW : ℂ)) ^ 2 * ((c.e : ℂ)) * ((c.gs : ℂ)) * (ab z1.1 ρ0) * (sb z1.2 z2.2) + (3) * ((c.e : ℂ)) * ((c.gs : ℂ)) * (ab z1.1 ρ0) * (sb z1.2 z2.2)) * i12 + ((2) * ((c.SW : ℂ)) ^ 2 * ((c.e : ℂ)) * ((c.gs : ℂ)) * (mb z0.2 (p 2) z1.1) * (sb z0.2 z3.2)) * i13 + ((-2) * ((c.SW : ℂ)) ^ 2 * ((c.e : ℂ)) * ((c.gs : ℂ)) * (mb z1.2 (p 2) z0.1) * (sb z0.2 z3.2)) * i14 + ((4) * ((c.SW : ℂ)) ^ 2 * ((c.e : ℂ)) * ((c.gs : ℂ)) * ((c.mass .d : ℂ)) * (sb z0.2 z2.2) * (sb z0.2 z3.2) + (-3) * ((c.e : ℂ)) * ((c.gs : ℂ)) * ((c.mass .d : ℂ)) * (sb z0.2 z2.2) * (sb z0.2 z3.2)) * i15 + ((2) * ((c.SW : ℂ)) ^ 2 * ((c.e : ℂ)) * ((c.gs : ℂ)) * (mb z1.2 (p 2) ρ0) * (sb z0.2 z3.2)) * i16 + ((-2) * ((c.MW : ℂ)) * ((c.SW : ℂ)) ^ 2 * ((c.e : ℂ)) * ((c.gs : ℂ)) * ((c.CW : ℂ)⁻¹) * (sb z0.2 z1.2) * (sb z0.2 z2.2) + (3) * ((c.MW : ℂ)) * ((c.e : ℂ)) * ((c.gs : ℂ)) * ((c.CW : ℂ)⁻¹) * (sb z0.2 z1.2) * (sb z0.2 z2.2) + (-2) * ((c.SW : ℂ)) ^ 2 * ((c.e : ℂ)) * ((c.gs : ℂ)) * (mb z0.2 (p 2) z1.1) * (sb z0.2 z2.2) + (3) * ((c.e : ℂ)) * ((c.gs : ℂ)) * (mb z0.2 (p 2) z1.1) * (sb z0.2 z2.2)) * i17 + ((-2) * ((c.SW : ℂ)) ^ 2 * ((c.e : ℂ)) * ((c.gs : ℂ)) * (mb z1.2 (p 2) ρ0) * (sb z0.2 z2.2) + (3) * ((c.e : ℂ)) * ((c.gs : ℂ)) * (mb z1.2 (p 2) ρ0) * (sb z0.2 z2.2)) * i18 + ((2) * ((c.SW : ℂ)) ^ 2 * ((c.e : ℂ)) * ((c.gs : ℂ)) * (mb z1.2 (p 2) ρ0) * (sb z0.2 z2.2) + (-3) * ((c.e : ℂ)) * ((c.gs : ℂ)) * (mb z1.2 (p 2) ρ0) * (sb z0.2 z2.2)) * i19 + ((-2) * ((c.SW : ℂ)) ^ 2 * ((c.e : ℂ)) * ((c.gs : ℂ)) * (mb z1.2 (p 2) z0.1) * (sb z0.2 z2.2) + (3) * ((c.e : ℂ)) * ((c.gs : ℂ)) * (mb z1.2 (p 2) z0.1) * (sb z0.2 z2.2)) * i20 + ((2) * ((c.SW : ℂ)) ^ 2 * ((c.e : ℂ)) * ((c.gs : ℂ)) * (N.c 1) * (ab z1.1 ρ0) + (-3) * ((c.e : ℂ)) * ((c.gs : ℂ)) * (N.c 1) * (ab z1.1 ρ0)) * i21 + ((2) * ((c.SW : ℂ)) ^ 2 * ((c.e : ℂ)) * ((c.gs : ℂ)) * (mb z1.2 (p 2) z0.1) * (sb z0.2 z2.2) + (-3) * ((c.e : ℂ)) * ((c.gs : ℂ)) * (mb z1.2 (p 2) z0.1) * (sb z0.2 z2.2)) * i22 + ((2) * ((c.SW : ℂ)) ^ 2 * ((c.e : ℂ)) * ((c.gs : ℂ)) * (mb z0.2 (p 1) ρ0) * (sb z0.2 z2.2) + (-2) * ((c.SW : ℂ)) ^ 2 * ((c.e : ℂ)) * ((c.gs : ℂ)) * (mb z0.2 (p 2) ρ0) * (sb z0.2 z2.2) + (-3) * ((c.e : ℂ)) * ((c.gs : ℂ)) * (mb z0.2 (p 1) ρ0) * (sb z0.2 z2.2) + (3) * ((c.e : ℂ)) * ((c.gs : ℂ)) * (mb z0.2 (p 2) ρ0) * (sb z0.2 z2.2)) * i23 + ((-2) * ((c.SW : ℂ)) ^ 2 * ((c.e : ℂ)) * ((c.gs : ℂ)) * (mb z1.2 (p 2) z1.1) * (sb z0.2 z2.2) + (3) * ((c.e : ℂ)) * ((c.gs : ℂ)) * (mb z1.2 (p 2) z1.1) * (sb z0.2 z2.2)) * i24 + ((2) * ((c.SW : ℂ)) ^ 2 * ((c.e : ℂ)) * ((c.gs : ℂ)) * (mb z1.2 (p 2) z1.1) * (sb z0.2 z2.2) + (-3) * ((c.e : ℂ)) * ((c.gs : ℂ)) * (mb z1.2 (p 2) z1.1) * (sb z0.2 z2.2)) * i25 + ((-2) * ((c.SW : ℂ)) ^ 2 * ((c.e : ℂ)) * ((c.gs : ℂ)) * (N.c 1) * (ab z3.1 ρ0) + (3) * ((c.e : ℂ)) * ((c.gs : ℂ)) * (N.c 1) * (ab z3.1 ρ0)) * i26)) * ((1) * ((c.CW : ℂ)) * ((c.CW : ℂ)⁻¹) * ((c.MW : ℂ)⁻¹) * ((c.SW : ℂ)⁻¹) * ((N.c 0)⁻¹) * ((N.c 1)⁻¹) / (3)) + ((-2) * ((c.CW : ℂ)) * ((c.MW : ℂ)) * ((c.SW : ℂ)) ^ 2 * ((c.e : ℂ)) * ((c.gs : ℂ)) * ((c.CW : ℂ)⁻¹) ^ 2 * ((c.MW : ℂ)⁻¹) * ((c.SW : ℂ)⁻¹) * ((N.c 1)⁻¹) * (ab z1.1 z2.1) * (ab z1.1 ρ0) * (sb z0.2 z3.2) / (3) + (-2) * ((c.CW : ℂ)) * ((c.MW : ℂ)) * ((c.SW : ℂ)) ^ 2 * ((c.e : ℂ)) * ((c.gs : ℂ)) * ((c.CW : ℂ)⁻¹) ^ 2 * ((c.MW : ℂ)⁻¹) * ((c.SW : ℂ)⁻¹) * ((N.c 1)⁻¹) * (ab z3.1 ρ0) * (sb z0.2 z1.2) * (sb z1.2 z2.2) / (3) + (1) * ((c.CW : ℂ)) * ((c.MW : ℂ)) * ((c.e : ℂ)) * ((c.gs : ℂ)) * ((c.CW : ℂ)⁻¹) ^ 2 * ((c.MW : ℂ)⁻¹) * ((c.SW : ℂ)⁻¹) * ((N.c 1)⁻¹) * (ab z3.1 ρ0) * (sb z0.2 z1.2) * (sb z1.2 z2.2) + (2) * ((c.CW : ℂ)) * ((c.SW : ℂ)) ^ 2 * ((c.e : ℂ)) * ((c.gs : ℂ)) * ((c.CW : ℂ)⁻¹) * ((c.MW : ℂ)⁻¹) * ((c.SW : ℂ)⁻¹) * ((c.mass .d : ℂ)) * ((N.c 1)⁻¹) * (ab z1.1 z2.1) * (ab z3.1 ρ0) * (sb z0.2 z1.2) / (3) + (2) * ((c.CW : ℂ)) * ((c.SW : ℂ)) ^ 2 * ((c.e : ℂ)) * ((c.gs : ℂ)) * ((c.CW : ℂ)⁻¹) * ((c.MW : ℂ)⁻¹) * ((c.SW : ℂ)⁻¹) * ((c.mass .d : ℂ)) * ((N.c 1)⁻¹) * (ab z1.1 ρ0) * (sb z0.2 z3.2) * (sb z1.2 z2.2) / (3) + (2) * ((c.CW : ℂ)) * ((c.SW : ℂ)) ^ 2 * ((c.e : ℂ)) * ((c.gs : ℂ)) * ((c.CW : ℂ)⁻¹) * ((c.MW : ℂ)⁻¹) * ((c.SW : ℂ)⁻¹) * ((N.c 1)⁻¹) * (ab z0.1 ρ0) * (ab z1.1 z2.1) * (sb z0.2 z1.2) * (sb z0.2 z3.2) / (3) + (2) * ((c.CW : ℂ)) * ((c.SW : ℂ)) ^ 2 * ((c.e : ℂ)) * ((c.gs : ℂ)) * ((c.CW : ℂ)⁻¹) * ((c.MW : ℂ)⁻¹) * ((c.SW : ℂ)⁻¹) * ((N.c 1)⁻¹) * (ab z1.1 z2.1) * (mb z1.2 (p 2) ρ0) * (sb z0.2 z3.2) / (3) + (-2) * ((c.CW : ℂ)) * ((c.SW : ℂ)) ^ 2 * ((c.e : ℂ)) * ((c.gs : ℂ)) * ((c.CW : ℂ)⁻¹) * ((c.MW : ℂ)⁻¹) * ((c.SW : ℂ)⁻¹) * ((N.c 1)⁻¹) * (ab z3.1 ρ0) * (mb z0.2 (p 2) z1.1) * (sb z1.2 z2.2) / (3) + (-1) * ((c.CW : ℂ)) * ((c.e : ℂ)) * ((c.gs : ℂ)) * ((c.CW : ℂ)⁻¹) * ((c.MW : ℂ)⁻¹) * ((c.SW : ℂ)⁻¹) * ((c.mass .d : ℂ)) * ((N.c 1)⁻¹) * (ab z1.1 ρ0) * (sb z0.2 z3.2) * (sb z1.2 z2.2) + (1) * ((c.CW : ℂ)) * ((c.e : ℂ)) * ((c.gs : ℂ)) * ((c.CW : ℂ)⁻¹) * ((c.MW : ℂ)⁻¹) * ((c.SW : ℂ)⁻¹) * ((N.c 1)⁻¹) * (ab z3.1 ρ0) * (mb z0.2 (p 2) z1.1) * (sb z1.2 z2.2)) * y0 + ((-2) * ((c.CW : ℂ)) * ((c.SW : ℂ)) ^ 2 * ((c.e : ℂ)) * ((c.gs : ℂ)) * ((c.CW : ℂ)⁻¹) * ((c.MW : ℂ)⁻¹) * ((c.SW : ℂ)⁻¹) * ((c.mass .d : ℂ)) * ((N.c 0)⁻¹) * (ab z1.1 z3.1) * (ab z2.1 ρ0) * (sb z0.2 z1.2) / (3) + (-2) * ((c.CW : ℂ)) * ((c.SW : ℂ)) ^ 2 * ((c.e : ℂ)) * ((c.gs : ℂ)) * ((c.CW : ℂ)⁻¹) * ((c.MW : ℂ)⁻¹) * ((c.SW : ℂ)⁻¹) * ((c.mass .d : ℂ)) * ((N.c 0)⁻¹) * (ab z1.1 ρ0) * (sb z0.2 z2.2) * (sb z1.2 z3.2) / (3) + (2) * ((c.CW : ℂ)) * ((c.SW : ℂ)) ^ 2 * ((c.e : ℂ)) * ((c.gs : ℂ)) * ((c.CW : ℂ)⁻¹) * ((c.MW : ℂ)⁻¹) * ((c.SW : ℂ)⁻¹) * ((N.c 0)⁻¹) * (ab z1.1 z3.1) * (mb z1.2 (p 2) ρ0) * (sb z0.2 z2.2) / (3) + (-2) * ((c.CW : ℂ)) * ((c.SW : ℂ)) ^ 2 * ((c.e : ℂ)) * ((c.gs : ℂ)) * ((c.CW : ℂ)⁻¹) * ((c.MW : ℂ)⁻¹) * ((c.SW : ℂ)⁻¹) * ((N.c 0)⁻¹) * (ab z2.1 ρ0) * (mb z0.2 (p 2) z1.1) * (sb z1.2 z3.2) / (3) + (1) * ((c.CW : ℂ)) * ((c.e : ℂ)) * ((c.gs : ℂ)) * ((c.CW : ℂ)⁻¹) * ((c.MW : ℂ)⁻¹) * ((c.SW : ℂ)⁻¹) * ((c.mass .d : ℂ)) * ((N.c 0)⁻¹) * (ab z1.1 z3.1) * (ab z2.1 ρ0) * (sb z0.2 z1.2) + (-1) * ((c.CW : ℂ)) * ((c.e : ℂ)) * ((c.gs : ℂ)) * ((c.CW : ℂ)⁻¹) * ((c.MW : ℂ)⁻¹) * ((c.SW : ℂ)⁻¹) * ((N.c 0)⁻¹) * (ab z1.1 z3.1) * (mb z1.2 (p 2) ρ0) * (sb z0.2 z2.2)) * y1 + ((1) * ((c.MW : ℂ)) * (((√2 : ℝ) : ℂ)) ^ 2 * ((c.SW : ℂ)) ^ 2 * ((c.e : ℂ)) * ((c.gs : ℂ)) * ((c.CW : ℂ)⁻¹) * ((c.MW : ℂ)⁻¹) * ((c.SW : ℂ)⁻¹) * ((N.c 1)⁻¹) * (ab z1.1 z2.1) * (ab z1.1 ρ0) * (sb z0.2 z3.2) / (3) + (1) * ((c.MW : ℂ)) * (((√2 : ℝ) : ℂ)) ^ 2 * ((c.SW : ℂ)) ^ 2 * ((c.e : ℂ)) * ((c.gs : ℂ)) * ((c.CW : ℂ)⁻¹) * ((c.MW : ℂ)⁻¹) * ((c.SW : ℂ)⁻¹) * ((N.c 1)⁻¹) * (ab z3.1 ρ0) * (sb z0.2 z1.2) * (sb z1.2 z2.2) / (3) + (-1) * ((c.MW : ℂ)) * (((√2 : ℝ) : ℂ)) ^ 2 * ((c.e : ℂ)) * ((c.gs : ℂ)) * ((c.CW : ℂ)⁻¹) * ((c.MW : ℂ)⁻¹) * ((c.SW : ℂ)⁻¹) * ((N.c 1)⁻¹) * (ab z3.1 ρ0) * (sb z0.2 z1.2) * (sb z1.2 z2.2) / (2) + (-2) * ((c.MW : ℂ)) * ((c.SW : ℂ)) ^ 2 * ((c.e : ℂ)) * ((c.gs : ℂ)) * ((c.CW : ℂ)⁻¹) * ((c.MW : ℂ)⁻¹) * ((c.SW : ℂ)⁻¹) * ((N.c 1)⁻¹) * (ab z1.1 z2.1) * (ab z1.1 ρ0) * (sb z0.2 z3.2) / (3) + (-2) * ((c.MW : ℂ)) * ((c.SW : ℂ)) ^ 2 * ((c.e : ℂ)) * ((c.gs : ℂ)) * ((c.CW : ℂ)⁻¹) * ((c.MW : ℂ)⁻¹) * ((c.SW : ℂ)⁻¹) * ((N.c 1)⁻¹) * (ab z3.1 ρ0) * (sb z0.2 z1.2) * (sb z1.2 z2.2) / (3) + (1) * ((c.MW : ℂ)) * ((c.e : ℂ)) * ((c.gs : ℂ)) * ((c.CW : ℂ)⁻¹) * ((c.MW : ℂ)⁻¹) * ((c.SW : ℂ)⁻¹) * ((N.c 1)⁻¹) * (ab z3.1 ρ0) * (sb z0.2 z1.2) * (sb z1.2 z2.2) + (1) * (((√2 : ℝ) : ℂ)) ^ 2 * ((c.SW : ℂ)) ^ 2 * ((c.e : ℂ)) * ((c.gs : ℂ)) * ((c.MW : ℂ)⁻¹) * ((c.SW : ℂ)⁻¹) * ((c.mass .d : ℂ)) * ((N.c 0)⁻¹) * (ab z1.1 z3.1) * (ab z2.1 ρ0) * (sb z0.2 z1.2) / (3) + (1) * (((√2 : ℝ) : ℂ)) ^ 2 * ((c.SW : ℂ)) ^ 2 * ((c.e : ℂ)) * ((c.gs : ℂ)) * ((c.MW : ℂ)⁻¹) * ((c.SW : ℂ)⁻¹) * ((c.mass .d : ℂ)) * ((N.c 0)⁻¹) * (ab z1.1 ρ0) * (sb z0.2 z2.2) * (sb z1.2 z3.2) / (3) + (-1) * (((√2 : ℝ) : ℂ)) ^ 2 * ((c.SW : ℂ)) ^ 2 * ((c.e : ℂ)) * ((c.gs : ℂ)) * ((c.MW : ℂ)⁻¹) * ((c.SW : ℂ)⁻¹) * ((c.mass .d : ℂ)) * ((N.c 1)⁻¹) * (ab z1.1 z2.1) * (ab z3.1 ρ0) * (sb z0.2 z1.2) / (3) + (-1) * (((√2 : ℝ) : ℂ)) ^ 2 * ((c.SW : ℂ)) ^ 2 * ((c.e : ℂ)) * ((c.gs : ℂ)) * ((c.MW : ℂ)⁻¹) * ((c.SW : ℂ)⁻¹) * ((c.mass .d : ℂ)) * ((N.c 1)⁻¹) * (ab z1.1 ρ0) * (sb z0.2 z3.2) * (sb z1.2 z2.2) / (3) + (-1) * (((√2 : ℝ) : ℂ)) ^ 2 * ((c.SW : ℂ)) ^ 2 * ((c.e : ℂ)) * ((c.gs : ℂ)) * ((c.MW : ℂ)⁻¹) * ((c.SW : ℂ)⁻¹) * ((N.c 0)⁻¹) * (ab z0.1 ρ0) * (ab z1.1 z3.1) * (sb z0.2 z1.2) * (sb z0.2 z2.2) / (3) + (-1) * (((√2 : ℝ) : ℂ)) ^ 2 * ((c.SW : ℂ)) ^ 2 * ((c.e : ℂ)) * ((c.gs : ℂ)) * ((c.MW : ℂ)⁻¹) * ((c.SW : ℂ)⁻¹) * ((N.c 0)⁻¹) * (ab z1.1 z3.1) * (mb z1.2 (p 2) ρ0) * (sb z0.2 z2.2) / (3) + (1) * (((√2 : ℝ) : ℂ)) ^ 2 * ((c.SW : ℂ)) ^ 2 * ((c.e : ℂ)) * ((c.gs : ℂ)) * ((c.MW : ℂ)⁻¹) * ((c.SW : ℂ)⁻¹) * ((N.c 0)⁻¹) * (ab z2.1 ρ0) * (mb z0.2 (p 2) z1.1) * (sb z1.2 z3.2) / (3) + (-1) * (((√2 : ℝ) : ℂ)) ^ 2 * ((c.SW : ℂ)) ^ 2 * ((c.e : ℂ)) * ((c.gs : ℂ)) * ((c.MW : ℂ)⁻¹) * ((c.SW : ℂ)⁻¹) * ((N.c 1)⁻¹) * (ab z1.1 z2.1) * (mb z1.2 (p 2) ρ0) * (sb z0.2 z3.2) / (3) + (1) * (((√2 : ℝ) : ℂ)) ^ 2 * ((c.SW : ℂ)) ^ 2 * ((c.e : ℂ)) * ((c.gs : ℂ)) * ((c.MW : ℂ)⁻¹) * ((c.SW : ℂ)⁻¹) * ((N.c 1)⁻¹) * (ab z3.1 ρ0) * (mb z0.2 (p 2) z1.1) * (sb z1.2 z2.2) / (3) + (-1) * (((√2 : ℝ) : ℂ)) ^ 2 * ((c.e : ℂ)) * ((c.gs : ℂ)) * ((c.MW : ℂ)⁻¹) * ((c.SW : ℂ)⁻¹) * ((c.mass .d : ℂ)) * ((N.c 0)⁻¹) * (ab z1.1 z3.1) * (ab z2.1 ρ0) * (sb z0.2 z1.2) / (2) + (1) * (((√2 : ℝ) : ℂ)) ^ 2 * ((c.e : ℂ)) * ((c.gs : ℂ)) * ((c.MW : ℂ)⁻¹) * ((c.SW : ℂ)⁻¹) * ((c.mass .d : ℂ)) * ((N.c 1)⁻¹) * (ab z1.1 ρ0) * (sb z0.2 z3.2) * (sb z1.2 z2.2) / (2) + (1) * (((√2 : ℝ) : ℂ)) ^ 2 * ((c.e : ℂ)) * ((c.gs : ℂ)) * ((c.MW : ℂ)⁻¹) * ((c.SW : ℂ)⁻¹) * ((N.c 0)⁻¹) * (ab z0.1 ρ0) * (ab z1.1 z3.1) * (sb z0.2 z1.2) * (sb z0.2 z2.2) / (2) + (1) * (((√2 : ℝ) : ℂ)) ^ 2 * ((c.e : ℂ)) * ((c.gs : ℂ)) * ((c.MW : ℂ)⁻¹) * ((c.SW : ℂ)⁻¹) * ((N.c 0)⁻¹) * (ab z1.1 z3.1) * (mb z1.2 (p 2) ρ0) * (sb z0.2 z2.2) / (2) + (-1) * (((√2 : ℝ) : ℂ)) ^ 2 * ((c.e : ℂ)) * ((c.gs : ℂ)) * ((c.MW : ℂ)⁻¹) * ((c.SW : ℂ)⁻¹) * ((N.c 1)⁻¹) * (ab z3.1 ρ0) * (mb z0.2 (p 2) z1.1) * (sb z1.2 z2.2) / (2) + (-2) * ((c.SW : ℂ)) ^ 2 * ((c.e : ℂ)) * ((c.gs : ℂ)) * ((c.MW : ℂ)⁻¹) * ((c.SW : ℂ)⁻¹) * ((c.mass .d : ℂ)) * ((N.c 0)⁻¹) * (ab z1.1 z3.1) * (ab z2.1 ρ0) * (sb z0.2 z1.2) / (3) + (-2) * ((c.SW : ℂ)) ^ 2 * ((c.e : ℂ)) * ((c.gs : ℂ)) * ((c.MW : ℂ)⁻¹) * ((c.SW : ℂ)⁻¹) * ((c.mass .d : ℂ)) * ((N.c 0)⁻¹) * (ab z1.1 ρ0) * (sb z0.2 z2.2) * (sb z1.2 z3.2) / (3) + (2) * ((c.SW : ℂ)) ^ 2 * ((c.e : ℂ)) * ((c.gs : ℂ)) * ((c.MW : ℂ)⁻¹) * ((c.SW : ℂ)⁻¹) * ((c.mass .d : ℂ)) * ((N.c 1)⁻¹) * (ab z1.1 z2.1) * (ab z3.1 ρ0) * (sb z0.2 z1.2) / (3) + (2) * ((c.SW : ℂ)) ^ 2 * ((c.e : ℂ)) * ((c.gs : ℂ)) * ((c.MW : ℂ)⁻¹) * ((c.SW : ℂ)⁻¹) * ((c.mass .d : ℂ)) * ((N.c 1)⁻¹) * (ab z1.1 ρ0) * (sb z0.2 z3.2) * (sb z1.2 z2.2) / (3) + (2) * ((c.SW : ℂ)) ^ 2 * ((c.e : ℂ)) * ((c.gs : ℂ)) * ((c.MW : ℂ)⁻¹) * ((c.SW : ℂ)⁻¹) * ((N.c 0)⁻¹) * ((N.c 1)⁻¹) * (ab z0.1 ρ0) * (ab z1.1 z2.1) * ((mb z0.2 (p 2) (slashLower (p 3) *ᵥ z0.2))) * (sb z1.2 z3.2) / (3) + (2) * ((c.SW : ℂ)) ^ 2 * ((c.e : ℂ)) * ((c.gs : ℂ)) * ((c.MW : ℂ)⁻¹) * ((c.SW : ℂ)⁻¹) * ((N.c 0)⁻¹) * ((N.c 1)⁻¹) * (ab z0.1 ρ0) * (ab z1.1 z3.1) * ((mb z0.2 (p 2) (slashLower (p 3) *ᵥ z0.2))) * (sb z1.2 z2.2) / (3) + (2) * ((c.SW : ℂ)) ^ 2 * ((c.e : ℂ)) * ((c.gs : ℂ)) * ((c.MW : ℂ)⁻¹) * ((c.SW : ℂ)⁻¹) * ((N.c 0)⁻¹) * (ab z1.1 z3.1) * (mb z1.2 (p 2) ρ0) * (sb z0.2 z2.2) / (3) + (-2) * ((c.SW : ℂ)) ^ 2 * ((c.e : ℂ)) * ((c.gs : ℂ)) * ((c.MW : ℂ)⁻¹) * ((c.SW : ℂ)⁻¹) * ((N.c 0)⁻¹) * (ab z2.1 ρ0) * (mb z0.2 (p 2) z1.1) * (sb z1.2 z3.2) / (3) + (2) * ((c.SW : ℂ)) ^ 2 * ((c.e : ℂ)) * ((c.gs : ℂ)) * ((c.MW : ℂ)⁻¹) * ((c.SW : ℂ)⁻¹) * ((N.c 1)⁻¹) * (ab z0.1 ρ0) * (ab z1.1 z2.1) * (sb z0.2 z1.2) * (sb z0.2 z3.2) / (3) + (2) * ((c.SW : ℂ)) ^ 2 * ((c.e : ℂ)) * ((c.gs : ℂ)) * ((c.MW : ℂ)⁻¹) * ((c.SW : ℂ)⁻¹) * ((N.c 1)⁻¹) * (ab z1.1 z2.1) * (mb z1.2 (p 2) ρ0) * (sb z0.2 z3.2) / (3) + (-2) * ((c.SW : ℂ)) ^ 2 * ((c.e : ℂ)) * ((c.gs : ℂ)) * ((c.MW : ℂ)⁻¹) * ((c.SW : ℂ)⁻¹) * ((N.c 1)⁻¹) * (ab z3.1 ρ0) * (mb z0.2 (p 2) z1.1) * (sb z1.2 z2.2) / (3) + (1) * ((c.e : ℂ)) * ((c.gs : ℂ)) * ((c.MW : ℂ)⁻¹) * ((c.SW : ℂ)⁻¹) * ((c.mass .d : ℂ)) * ((N.c 0)⁻¹) * (ab z1.1 z3.1) * (ab z2.1 ρ0) * (sb z0.2 z1.2) + (-1) * ((c.e : ℂ)) * ((c.gs : ℂ)) * ((c.MW : ℂ)⁻¹) * ((c.SW : ℂ)⁻¹) * ((c.mass .d : ℂ)) * ((N.c 1)⁻¹) * (ab z1.1 ρ0) * (sb z0.2 z3.2) * (sb z1.2 z2.2) + (-1) * ((c.e : ℂ)) * ((c.gs : ℂ)) * ((c.MW : ℂ)⁻¹) * ((c.SW : ℂ)⁻¹) * ((N.c 0)⁻¹) * ((N.c 1)⁻¹) * (ab z0.1 ρ0) * (ab z1.1 z3.1) * ((mb z0.2 (p 2) (slashLower (p 3) *ᵥ z0.2))) * (sb z1.2 z2.2) + (-1) * ((c.e : ℂ)) * ((c.gs : ℂ)) * ((c.MW : ℂ)⁻¹) * ((c.SW : ℂ)⁻¹) * ((N.c 0)⁻¹) * (ab z1.1 z3.1) * (mb z1.2 (p 2) ρ0) * (sb z0.2 z2.2) + (1) * ((c.e : ℂ)) * ((c.gs : ℂ)) * ((c.MW : ℂ)⁻¹) * ((c.SW : ℂ)⁻¹) * ((N.c 1)⁻¹) * (ab z3.1 ρ0) * (mb z0.2 (p 2) z1.1) * (sb z1.2 z2.2)) * yCW + ((1) * (((√2 : ℝ) : ℂ)) ^ 2 * ((c.SW : ℂ)) ^ 2 * ((c.e : ℂ)) * ((c.gs : ℂ)) * ((c.CW : ℂ)⁻¹) * ((c.SW : ℂ)⁻¹) * ((N.c 1)⁻¹) * (ab z1.1 z2.1) * (ab z1.1 ρ0) * (sb z0.2 z3.2) / (3) + (1) * (((√2 : ℝ) : ℂ)) ^ 2 * ((c.SW : ℂ)) ^ 2 * ((c.e : ℂ)) * ((c.gs : ℂ)) * ((c.CW : ℂ)⁻¹) * ((c.SW : ℂ)⁻¹) * ((N.c 1)⁻¹) * (ab z3.1 ρ0) * (sb z0.2 z1.2) * (sb z1.2 z2.2) / (3) + (-1) * (((√2 : ℝ) : ℂ)) ^ 2 * ((c.e : ℂ)) * ((c.gs : ℂ)) * ((c.CW : ℂ)⁻¹) * ((c.SW : ℂ)⁻¹) * ((N.c 1)⁻¹) * (ab z3.1 ρ0) * (sb z0.2 z1.2) * (sb z1.2 z2.2) / (2) + (-2) * ((c.SW : ℂ)) ^ 2 * ((c.e : ℂ)) * ((c.gs : ℂ)) * ((c.CW : ℂ)⁻¹) * ((c.SW : ℂ)⁻¹) * ((N.c 1)⁻¹) * (ab z1.1 z2.1) * (ab z1.1 ρ0) * (sb z0.2 z3.2) / (3) + (-2) * ((c.SW : ℂ)) ^ 2 * ((c.e : ℂ)) * ((c.gs : ℂ)) * ((c.CW : ℂ)⁻¹) * ((c.SW : ℂ)⁻¹) * ((N.c 1)⁻¹) * (ab z3.1 ρ0) * (sb z0.2 z1.2) * (sb z1.2 z2.2) / (3) + (1) * ((c.e : ℂ)) * ((c.gs : ℂ)) * ((c.CW : ℂ)⁻¹) * ((c.SW : ℂ)⁻¹) * ((N.c 1)⁻¹) * (ab z3.1 ρ0) * (sb z0.2 z1.2) * (sb z1.2 z2.2)) * yMW + ((1) * (((√2 : ℝ) : ℂ)) ^ 2 * ((c.SW : ℂ)) * ((c.e : ℂ)) * ((c.gs : ℂ)) * ((c.CW : ℂ)⁻¹) * ((N.c 1)⁻¹) * (ab z1.1 z2.1) * (ab z1.1 ρ0) * (sb z0.2 z3.2) / (3) + (1) * (((√2 : ℝ) : ℂ)) ^ 2 * ((c.SW : ℂ)) * ((c.e : ℂ)) * ((c.gs : ℂ)) * ((c.CW : ℂ)⁻¹) * ((N.c 1)⁻¹) * (ab z3.1 ρ0) * (sb z0.2 z1.2) * (sb z1.2 z2.2) / (3) + (1) * (((√2 : ℝ) : ℂ)) ^ 2 * ((c.SW : ℂ)) * ((c.e : ℂ)) * ((c.gs : ℂ)) * ((c.MW : ℂ)⁻¹) * ((c.mass .d : ℂ)) * ((N.c 0)⁻¹) * (ab z1.1 z3.1) * (ab z2.1 ρ0) * (sb z0.2 z1.2) / (3) + (1) * (((√2 : ℝ) : ℂ)) ^ 2 * ((c.SW : ℂ)) * ((c.e : ℂ)) * ((c.gs : ℂ)) * ((c.MW : ℂ)⁻¹) * ((c.mass .d : ℂ)) * ((N.c 0)⁻¹) * (ab z1.1 ρ0) * (sb z0.2 z2.2) * (sb z1.2 z3.2) / (3) + (-1) * (((√2 : ℝ) : ℂ)) ^ 2 * ((c.SW : ℂ)) * ((c.e : ℂ)) * ((c.gs : ℂ)) * ((c.MW : ℂ)⁻¹) * ((c.mass .d : ℂ)) * ((N.c 1)⁻¹) * (ab z1.1 z2.1) * (ab z3.1 ρ0) * (sb z0.2 z1.2) / (3) + (-1) * (((√2 : ℝ) : ℂ)) ^ 2 * ((c.SW : ℂ)) * ((c.e : ℂ)) * ((c.gs : ℂ)) * ((c.MW : ℂ)⁻¹) * ((c.mass .d : ℂ)) * ((N.c 1)⁻¹) * (ab z1.1 ρ0) * (sb z0.2 z3.2) * (sb z1.2 z2.2) / (3) + (-1) * (((√2 : ℝ) : ℂ)) ^ 2 * ((c.SW : ℂ)) * ((c.e : ℂ)) * ((c.gs : ℂ)) * ((c.MW : ℂ)⁻¹) * ((N.c 0)⁻¹) * (ab z0.1 ρ0) * (ab z1.1 z3.1) * (sb z0.2 z1.2) * (sb z0.2 z2.2) / (3) + (-1) * (((√2 : ℝ) : ℂ)) ^ 2 * ((c.SW : ℂ)) * ((c.e : ℂ)) * ((c.gs : ℂ)) * ((c.MW : ℂ)⁻¹) * ((N.c 0)⁻¹) * (ab z1.1 z3.1) * (mb z1.2 (p 2) ρ0) * (sb z0.2 z2.2) / (3) + (1) * (((√2 : ℝ) : ℂ)) ^ 2 * ((c.SW : ℂ)) * ((c.e : ℂ)) * ((c.gs : ℂ)) * ((c.MW : ℂ)⁻¹) * ((N.c 0)⁻¹) * (ab z2.1 ρ0) * (mb z0.2 (p 2) z1.1) * (sb z1.2 z3.2) / (3) + (-1) * (((√2 : ℝ) : ℂ)) ^ 2 * ((c.SW : ℂ)) * ((c.e : ℂ)) * ((c.gs : ℂ)) * ((c.MW : ℂ)⁻¹) * ((N.c 1)⁻¹) * (ab z1.1 z2.1) * (mb z1.2 (p 2) ρ0) * (sb z0.2 z3.2) / (3) + (1) * (((√2 : ℝ) : ℂ)) ^ 2 * ((c.SW : ℂ)) * ((c.e : ℂ)) * ((c.gs : ℂ)) * ((c.MW : ℂ)⁻¹) * ((N.c 1)⁻¹) * (ab z3.1 ρ0) * (mb z0.2 (p 2) z1.1) * (sb z1.2 z2.2) / (3) + (-2) * ((c.SW : ℂ)) * ((c.e : ℂ)) * ((c.gs : ℂ)) * ((c.CW : ℂ)⁻¹) * ((N.c 1)⁻¹) * (ab z1.1 z2.1) * (ab z1.1 ρ0) * (sb z0.2 z3.2) / (3) + (-2) * ((c.SW : ℂ)) * ((c.e : ℂ)) * ((c.gs : ℂ)) * ((c.CW : ℂ)⁻¹) * ((N.c 1)⁻¹) * (ab z3.1 ρ0) * (sb z0.2 z1.2) * (sb z1.2 z2.2) / (3) + (-2) * ((c.SW : ℂ)) * ((c.e : ℂ)) * ((c.gs : ℂ)) * ((c.MW : ℂ)⁻¹) * ((c.mass .d : ℂ)) * ((N.c 0)⁻¹) * (ab z1.1 z3.1) * (ab z2.1 ρ0) * (sb z0.2 z1.2) / (3) + (-2) * ((c.SW : ℂ)) * ((c.e : ℂ)) * ((c.gs : ℂ)) * ((c.MW : ℂ)⁻¹) * ((c.mass .d : ℂ)) * ((N.c 0)⁻¹) * (ab z1.1 ρ0) * (sb z0.2 z2.2) * (sb z1.2 z3.2) / (3) + (2) * ((c.SW : ℂ)) * ((c.e : ℂ)) * ((c.gs : ℂ)) * ((c.MW : ℂ)⁻¹) * ((c.mass .d : ℂ)) * ((N.c 1)⁻¹) * (ab z1.1 z2.1) * (ab z3.1 ρ0) * (sb z0.2 z1.2) / (3) + (2) * ((c.SW : ℂ)) * ((c.e : ℂ)) * ((c.gs : ℂ)) * ((c.MW : ℂ)⁻¹) * ((c.mass .d : ℂ)) * ((N.c 1)⁻¹) * (ab z1.1 ρ0) * (sb z0.2 z3.2) * (sb z1.2 z2.2) / (3) + (2) * ((c.SW : ℂ)) * ((c.e : ℂ)) * ((c.gs : ℂ)) * ((c.MW : ℂ)⁻¹) * ((N.c 0)⁻¹) * (ab z0.1 ρ0) * (ab z1.1 z3.1) * (sb z0.2 z1.2) * (sb z0.2 z2.2) / (3) + (2) * ((c.SW : ℂ)) * ((c.e : ℂ)) * ((c.gs : ℂ)) * ((c.MW : ℂ)⁻¹) * ((N.c 0)⁻¹) * (ab z1.1 z3.1) * (mb z1.2 (p 2) ρ0) * (sb z0.2 z2.2) / (3) + (-2) * ((c.SW : ℂ)) * ((c.e : ℂ)) * ((c.gs : ℂ)) * ((c.MW : ℂ)⁻¹) * ((N.c 0)⁻¹) * (ab z2.1 ρ0) * (mb z0.2 (p 2) z1.1) * (sb z1.2 z3.2) / (3) + (2) * ((c.SW : ℂ)) * ((c.e : ℂ)) * ((c.gs : ℂ)) * ((c.MW : ℂ)⁻¹) * ((N.c 1)⁻¹) * (ab z1.1 z2.1) * (mb z1.2 (p 2) ρ0) * (sb z0.2 z3.2) / (3) + (-2) * ((c.SW : ℂ)) * ((c.e : ℂ)) * ((c.gs : ℂ)) * ((c.MW : ℂ)⁻¹) * ((N.c 1)⁻¹) * (ab z3.1 ρ0) * (mb z0.2 (p 2) z1.1) * (sb z1.2 z2.2) / (3)) * ySW + ((1) * ((c.SW : ℂ)) * ((c.e : ℂ)) * ((c.gs : ℂ)) * ((c.CW : ℂ)⁻¹) * ((N.c 1)⁻¹) * (ab z1.1 z2.1) * (ab z1.1 ρ0) * (sb z0.2 z3.2) / (3) + (1) * ((c.SW : ℂ)) * ((c.e : ℂ)) * ((c.gs : ℂ)) * ((c.CW : ℂ)⁻¹) * ((N.c 1)⁻¹) * (ab z3.1 ρ0) * (sb z0.2 z1.2) * (sb z1.2 z2.2) / (3) + (1) * ((c.SW : ℂ)) * ((c.e : ℂ)) * ((c.gs : ℂ)) * ((c.MW : ℂ)⁻¹) * ((c.mass .d : ℂ)) * ((N.c 0)⁻¹) * (ab z1.1 z3.1) * (ab z2.1 ρ0) * (sb z0.2 z1.2) / (3) + (1) * ((c.SW : ℂ)) * ((c.e : ℂ)) * ((c.gs : ℂ)) * ((c.MW : ℂ)⁻¹) * ((c.mass .d : ℂ)) * ((N.c 0)⁻¹) * (ab z1.1 ρ0) * (sb z0.2 z2.2) * (sb z1.2 z3.2) / (3) + (-1) * ((c.SW : ℂ)) * ((c.e : ℂ)) * ((c.gs : ℂ)) * ((c.MW : ℂ)⁻¹) * ((c.mass .d : ℂ)) * ((N.c 1)⁻¹) * (ab z1.1 z2.1) * (ab z3.1 ρ0) * (sb z0.2 z1.2) / (3) + (-1) * ((c.SW : ℂ)) * ((c.e : ℂ)) * ((c.gs : ℂ)) * ((c.MW : ℂ)⁻¹) * ((c.mass .d : ℂ)) * ((N.c 1)⁻¹) * (ab z1.1 ρ0) * (sb z0.2 z3.2) * (sb z1.2 z2.2) / (3) + (-1) * ((c.SW : ℂ)) * ((c.e : ℂ)) * ((c.gs : ℂ)) * ((c.MW : ℂ)⁻¹) * ((N.c 0)⁻¹) * (ab z0.1 ρ0) * (ab z1.1 z3.1) * (sb z0.2 z1.2) * (sb z0.2 z2.2) / (3) + (-1) * ((c.SW : ℂ)) * ((c.e : ℂ)) * ((c.gs : ℂ)) * ((c.MW : ℂ)⁻¹) * ((N.c 0)⁻¹) * (ab z1.1 z3.1) * (mb z1.2 (p 2) ρ0) * (sb z0.2 z2.2) / (3) + (1) * ((c.SW : ℂ)) * ((c.e : ℂ)) * ((c.gs : ℂ)) * ((c.MW : ℂ)⁻¹) * ((N.c 0)⁻¹) * (ab z2.1 ρ0) * (mb z0.2 (p 2) z1.1) * (sb z1.2 z3.2) / (3) + (-1) * ((c.SW : ℂ)) * ((c.e : ℂ)) * ((c.gs : ℂ)) * ((c.MW : ℂ)⁻¹) * ((N.c 1)⁻¹) * (ab z1.1 z2.1) * (mb z1.2 (p 2) ρ0) * (sb z0.2 z3.2) / (3) + (1) * ((c.SW : ℂ)) * ((c.e : ℂ)) * ((c.gs : ℂ)) * ((c.MW : ℂ)⁻¹) * ((N.c 1)⁻¹) * (ab z3.1 ρ0) * (mb z0.2 (p 2) z1.1) * (sb z1.2 z2.2) / (3) + (-1) * ((c.e : ℂ)) * ((c.gs : ℂ)) * ((c.CW : ℂ)⁻¹) * ((c.SW : ℂ)⁻¹) * ((N.c 1)⁻¹) * (ab z3.1 ρ0) * (sb z0.2 z1.2) * (sb z1.2 z2.2) / (2) + (-1) * ((c.e : ℂ)) * ((c.gs : ℂ)) * ((c.MW : ℂ)⁻¹) * ((c.SW : ℂ)⁻¹) * ((c.mass .d : ℂ)) * ((N.c 0)⁻¹) * (ab z1.1 z3.1) * (ab z2.1 ρ0) * (sb z0.2 z1.2) / (2) + (1) * ((c.e : ℂ)) * ((c.gs : ℂ)) * ((c.MW : ℂ)⁻¹) * ((c.SW : ℂ)⁻¹) * ((c.mass .d : ℂ)) * ((N.c 1)⁻¹) * (ab z1.1 ρ0) * (sb z0.2 z3.2) * (sb z1.2 z2.2) / (2) + (1) * ((c.e : ℂ)) * ((c.gs : ℂ)) * ((c.MW : ℂ)⁻¹) * ((c.SW : ℂ)⁻¹) * ((N.c 0)⁻¹) * (ab z0.1 ρ0) * (ab z1.1 z3.1) * (sb z0.2 z1.2) * (sb z0.2 z2.2) / (2) + (1) * ((c.e : ℂ)) * ((c.gs : ℂ)) * ((c.MW : ℂ)⁻¹) * ((c.SW : ℂ)⁻¹) * ((N.c 0)⁻¹) * (ab z1.1 z3.1) * (mb z1.2 (p 2) ρ0) * (sb z0.2 z2.2) / (2) + (-1) * ((c.e : ℂ)) * ((c.gs : ℂ)) * ((c.MW : ℂ)⁻¹) * ((c.SW : ℂ)⁻¹) * ((N.c 1)⁻¹) * (ab z3.1 ρ0) * (mb z0.2 (p 2) z1.1) * (sb z1.2 z2.2) / (2)) * x22
theorem gZdd.keyM {c : Constants} {p : Nat → V4 ℝ} {N : Env} (hc : c.Physical) (hb : Balanced p) (r9 : N.r 9 = (((((2 : Nat) : ℝ) * c.e) * c.gs) / ((((2 : Nat) : ℝ) * c.MW) * c.SW))) (r11 : N.r 11 = (((((-((2 : Nat) : ℝ)) * ((-((1 : Nat) : ℝ)) / ((3 : Nat) : ℝ))) * c.SW) * c.SW) - ((1 : Nat) : ℝ))) (r12 : N.r 12 = ((((-((2 : Nat) : ℝ)) * ((-((1 : Nat) : ℝ)) / ((3 : Nat) : ℝ))) * c.SW) * c.SW)) (d0 : ((msq (plus (backward (p 3)) (p 1)) - c.mass .d ^ 2 : ℝ) : ℂ) = N.c 0) (n0 : N.c 0 ≠ 0) (d1 : ((msq (plus (backward (p 3)) (p 0)) - c.mass .d ^ 2 : ℝ) : ℂ) = N.c 1) (n1 : N.c 1 ≠ 0) {z0 z1 z2 z3 : Pair} (b1 : Bold (p 1) c.MZ z1) (b2 : Bold (p 2) (c.mass .d) z2) (b3 : Bold (p 3) (c.mass .d) z3) (l0 : Light (p 0) z0) (e02 : mb z0.2 (p 2) z0.1 = -N.c 0) (e03 : mb z0.2 (p 3) z0.1 = -N.c 1) (q1 : msq (p 1) = c.MZ ^ 2) (q2 : msq (p 2) = (c.mass .d) ^ 2) (q3 : msq (p 3) = (c.mass .d) ^ 2) (ρ0 : V2) :
    gZdd.formM N p z0 z1 z1 z2 z3 * sb ρ0 z0.2 = ((√2 : ℝ) * ((1 : ℂ) * ((√2 / c.MZ : ℝ) : ℂ))) * gZdd.react.bare c p 2 3 0 1 z2 z3 (pv z0.1 ρ0) (pv z1.1 z1.2) := by
  rw [gZdd.react.bare_parts c p (i := 2) (j := 3) (a := 0) (b := 1) (x := .gluon) (y := .z) (k := (p 0)) (k' := (p 1)) (fun _ => rfl) (fun _ => rfl) (f := .d) (g := .d) rfl rfl (l := (backward (p 3))) rfl (e := 1) (e' := -1) (if_neg Bool.false_ne_true) (if_pos rfl)]
  rw [compton_vv (f := .d) (x := .d) (g := .d) (h := (rfl : Spec.after .gluon Flavour.d = some Flavour.d)) (h' := (rfl : Spec.after .z Flavour.d = some Flavour.d)) (ha := by simp) (hb := by simp)]
  rw [compton_vv (f := .d) (x := .d) (g := .d) (h := (rfl : Spec.after .z Flavour.d = some Flavour.d)) (h' := (rfl : Spec.after .gluon Flavour.d = some Flavour.d)) (ha := by simp) (hb := by simp)]
  rw [annihilation_none c _ _ (by rfl) (by simp), star_zero, add_zero, gZdd.formM]
  simp only [d0, d1, lineV_pv, lineV_four, contract_four_pv, contract_pv, mb_plus, mb_backward]
  have i0 := chain_angle z0.2 z3.2 z0.1 (p 2) (p 3) z0.1
  have i1 := chain_angle z0.2 z1.2 z0.1 (p 2) (p 3) z0.1
  have i2 := sb_schouten z1.2 z3.2 ρ0 z0.2
  have i3 := mb_schouten_right z1.2 (p 2) z0.1 z1.1 z2.1
  have i4 := sb_schouten z2.2 z3.2 ρ0 z1.2
  have i5 := mb_schouten_left z0.2 z1.2 ρ0 (p 1) z0.1
  have i6 := mb_schouten_right z3.2 (p 1) z0.1 z1.1 z2.1
  have i7 := mb_schouten_right ρ0 (p 1) z0.1 z1.1 z2.1
  have i8 := mb_schouten_left z1.2 z3.2 ρ0 (p 1) z0.1
  have i9 := mb_schouten_left z0.2 z1.2 z3.2 (p 2) z0.1
  have i10 := mb_schouten_left z0.2 z3.2 ρ0 (p 1) z0.1
  have i11 := mb_schouten_left z0.2 z3.2 ρ0 (p 2) z0.1
  have i12 := mb_schouten_right ρ0 (p 2) z0.1 z1.1 z2.1
  have i13 := ab_schouten z1.1 z2.1 z3.1 z0.1
  have i14 := mb_schouten_right z0.2 (p 2) z0.1 z1.1 z2.1
  have i15 := chain_angle z0.2 z2.2 z0.1 (p 2) (p 3) z0.1
  have i16 := sb_schouten z1.2 z2.2 ρ0 z0.2
  have i17 := mb_schouten_right z1.2 (p 2) z0.1 z1.1 z3.1
  have i18 := mb_schouten_right z0.2 (p 2) z0.1 z1.1 z3.1
  have i19 := mb_schouten_right z0.2 (p 1) z0.1 z1.1 z3.1
  have i20 := mb_schouten_left z0.2 z2.2 z3.2 (p 2) z0.1
  have i21 := mb_schouten_left z0.2 z1.2 ρ0 (p 2) z0.1
  have i22 := mb_schouten_left z0.2 z1.2 z3.2 (p 1) z0.1
  have i23 := mb_schouten_right ρ0 (p 2) z0.1 z1.1 z3.1
  have i24 := mb_schouten_left z0.2 z2.2 z3.2 (p 1) z0.1
  have i25 := sb_schouten z1.2 z2.2 z3.2 z0.2
  have i26 := mb_schouten_left z0.2 z1.2 z2.2 (p 2) z0.1
  have i27 := mb_schouten_left z0.2 z2.2 ρ0 (p 2) z0.1
  have i28 := mb_schouten_left z0.2 z1.2 z2.2 (p 1) z0.1
  have i29 := sb_schouten z2.2 z3.2 ρ0 z0.2
  have i30 := mb_schouten_right ρ0 (p 1) z0.1 z1.1 z3.1
  have i31 := mb_schouten_left z0.2 z2.2 ρ0 (p 1) z0.1
  have i32 := mb_schouten_left z1.2 z2.2 ρ0 (p 1) z0.1
  simp only [l0.mb_eq, b1.mb_left, b1.mb_right, b2.mb_left, b2.mb_right, b3.mb_left, b3.mb_right, e02, e03, mb_one hb z0.2 z0.1, mb_three hb z0.2 z1.1, mb_three hb z0.2 z2.1, mb_two hb z0.2 z3.1, mb_three hb z1.2 z0.1, mb_three hb z1.2 z1.1, mb_three hb z1.2 z2.1, mb_two hb z1.2 z3.1, mb_three hb z2.2 z0.1, mb_three hb z2.2 z1.1, mb_three hb z2.2 z2.1, mb_one hb z2.2 z3.1, mb_two hb z3.2 z0.1, mb_two hb z3.2 z1.1, mb_one hb z3.2 z2.1, mb_two hb z3.2 z3.1, mb_three hb ρ0 z0.1, mb_three hb ρ0 z1.1, mb_three hb ρ0 z2.1, mb_two hb ρ0 z3.1, ab_self, sb_self] at i0 i1 i2 i3 i4 i5 i6 i7 i8 i9 i10 i11 i12 i13 i14 i15 i16 i17 i18 i19 i20 i21 i22 i23 i24 i25 i26 i27 i28 i29 i30 i31 i32 ⊢
  simp only [ab_swap z0.1 z1.1, ab_swap z0.1 z2.1, ab_swap z0.1 z3.1, ab_swap z1.1 z2.1, ab_swap z1.1 z3.1, ab_swap z2.1 z3.1, sb_swap z0.2 z1.2, sb_swap z0.2 z2.2, sb_swap z0.2 z3.2, sb_swap z0.2 ρ0, sb_swap z1.2 z2.2, sb_swap z1.2 z3.2, sb_swap z1.2 ρ0, sb_swap z2.2 z3.2, sb_swap z2.2 ρ0, sb_swap z3.2 ρ0] at i0 i1 i2 i3 i4 i5 i6 i7 i8 i9 i10 i11 i12 i13 i14 i15 i16 i17 i18 i19 i20 i21 i22 i23 i24 i25 i26 i27 i28 i29 i30 i31 i32 ⊢
  simp only [r9, r11, r12, Constants.hL, Constants.hR, Constants.gL, Constants.gR, Constants.yuk, Constants.invVev, Flavour.charge_d, Flavour.isospin_d, ← c.mz]
  have xMW : (c.MW : ℂ) ≠ 0 := by exact_mod_cast hc.MW
  have xSW : (c.SW : ℂ) ≠ 0 := by exact_mod_cast hc.SW
  have xCW : (c.CW : ℂ) ≠ 0 := by exact_mod_cast hc.CW
  have x2 : ((√2 : ℝ) : ℂ) ≠ 0 := by exact_mod_cast (Real.sqrt_pos.2 two_pos).ne'
  have x22 : ((√2 : ℝ) : ℂ) ^ 2 = 2 := by rw [← Complex.ofReal_pow, Real.sq_sqrt two_pos.le]; norm_num
  have x23 : ((√2 : ℝ) : ℂ) ^ 3 = 2 * ((√2 : ℝ) : ℂ) := by rw [← x22]; ring
  have x24 : ((√2 : ℝ) : ℂ) ^ 4 = 4 := by linear_combination (((√2 : ℝ) : ℂ) ^ 2 + 2) * x22
  try simp only [← c.mz] at i0 i1 i2 i3 i4 i5 i6 i7 i8 i9 i10 i11 i12 i13 i14 i15 i16 i17 i18 i19 i20 i21 i22 i23 i24 i25 i26 i27 i28 i29 i30 i31 i32
  push_cast at i0 i1 i2 i3 i4 i5 i6 i7 i8 i9 i10 i11 i12 i13 i14 i15 i16 i17 i18 i19 i20 i21 i22 i23 i24 i25 i26 i27 i28 i29 i30 i31 i32 ⊢
  simp only [div_eq_mul_inv, mul_inv, inv_inv] at i0 i1 i2 i3 i4 i5 i6 i7 i8 i9 i10 i11 i12 i13 i14 i15 i16 i17 i18 i19 i20 i21 i22 i23 i24 i25 i26 i27 i28 i29 i30 i31 i32 ⊢
  have y0 := mul_inv_cancel₀ n0
  have y1 := mul_inv_cancel₀ n1
  have yCW := mul_inv_cancel₀ xCW
  have yMW := mul_inv_cancel₀ xMW
  have ySW := mul_inv_cancel₀ xSW
  linear_combination ((((-2) * ((c.SW : ℂ)) ^ 2 * ((c.e : ℂ)) * ((c.gs : ℂ)) * (ab z1.1 z2.1) * (sb z1.2 ρ0)) * i0 + ((2) * ((c.SW : ℂ)) ^ 2 * ((c.e : ℂ)) * ((c.gs : ℂ)) * (ab z1.1 z2.1) * (sb z3.2 ρ0) + (2) * ((c.SW : ℂ)) ^ 2 * ((c.e : ℂ)) * ((c.gs : ℂ)) * (ab z1.1 z3.1) * (sb z2.2 ρ0) + (-3) * ((c.e : ℂ)) * ((c.gs : ℂ)) * (ab z1.1 z3.1) * (sb z2.2 ρ0)) * i1 + ((2) * ((c.SW : ℂ)) ^ 2 * ((c.e : ℂ)) * ((c.gs : ℂ)) * ((c.mass .d : ℂ)) * (ab z0.1 z1.1) * (mb z2.2 (p 1) z0.1) + (-2) * ((c.SW : ℂ)) ^ 2 * ((c.e : ℂ)) * ((c.gs : ℂ)) * (ab z1.1 z2.1) * ((mb (slashUpper (p 3) *ᵥ z0.1) (p 2) z0.1))) * i2 + ((-2) * ((c.SW : ℂ)) ^ 2 * ((c.e : ℂ)) * ((c.gs : ℂ)) * (N.c 1) * (sb z3.2 ρ0) + (2) * ((c.SW : ℂ)) ^ 2 * ((c.e : ℂ)) * ((c.gs : ℂ)) * (mb ρ0 (p 1) z0.1) * (sb z0.2 z3.2) + (-2) * ((c.SW : ℂ)) ^ 2 * ((c.e : ℂ)) * ((c.gs : ℂ)) * (mb ρ0 (p 2) z0.1) * (sb z0.2 z3.2)) * i3 + ((-4) * ((c.SW : ℂ)) ^ 2 * ((c.e : ℂ)) * ((c.gs : ℂ)) * ((c.mass .d : ℂ)) * (N.c 1) * (ab z0.1 z1.1)) * i4 + ((-2) * ((c.MW : ℂ)) * ((c.SW : ℂ)) ^ 2 * ((c.e : ℂ)) * ((c.gs : ℂ)) * ((c.CW : ℂ)⁻¹) * (ab z0.1 z2.1) * (sb z1.2 z3.2) + (-4) * ((c.SW : ℂ)) ^ 2 * ((c.e : ℂ)) * ((c.gs : ℂ)) * ((c.mass .d : ℂ)) * (ab z0.1 z2.1) * (ab z1.1 z3.1) + (2) * ((c.SW : ℂ)) ^ 2 * ((c.e : ℂ)) * ((c.gs : ℂ)) * (ab z0.1 z1.1) * (ab z0.1 z2.1) * (sb z0.2 z3.2)) * i5 + ((-2) * ((c.MW : ℂ)) * ((c.SW : ℂ)) ^ 2 * ((c.e : ℂ)) * ((c.gs : ℂ)) * ((c.CW : ℂ)⁻¹) * (ab z0.1 z1.1) * (sb z0.2 ρ0) + (2) * ((c.SW : ℂ)) ^ 2 * ((c.e : ℂ)) * ((c.gs : ℂ)) * (N.c 0) * (sb z1.2 ρ0) + (2) * ((c.SW : ℂ)) ^ 2 * ((c.e : ℂ)) * ((c.gs : ℂ)) * (N.c 1) * (sb z1.2 ρ0) + (-2) * ((c.SW : ℂ)) ^ 2 * ((c.e : ℂ)) * ((c.gs : ℂ)) * (mb ρ0 (p 1) z0.1) * (sb z0.2 z1.2)) * i6 + ((2) * ((c.SW : ℂ)) ^ 2 * ((c.e : ℂ)) * ((c.gs : ℂ)) * ((c.mass .d : ℂ)) * (ab z0.1 z3.1) * (sb z0.2 z1.2) + (-2) * ((c.SW : ℂ)) ^ 2 * ((c.e : ℂ)) * ((c.gs : ℂ)) * (N.c 0) * (sb z1.2 z3.2) + (-2) * ((c.SW : ℂ)) ^ 2 * ((c.e : ℂ)) * ((c.gs : ℂ)) * (mb z1.2 (p 2) z0.1) * (sb z0.2 z3.2) + (2) * ((c.SW : ℂ)) ^ 2 * ((c.e : ℂ)) * ((c.gs : ℂ)) * (mb z3.2 (p 1) z0.1) * (sb z0.2 z1.2)) * i7 + ((2) * ((c.SW : ℂ)) ^ 2 * ((c.e : ℂ)) * ((c.gs : ℂ)) * (N.c 0) * (ab z1.1 z2.1)) * i8 + ((2) * ((c.MW : ℂ)) * ((c.SW : ℂ)) ^ 2 * ((c.e : ℂ)) * ((c.gs : ℂ)) * ((c.CW : ℂ)⁻¹) * (ab z0.1 z2.1) * (sb z1.2 ρ0) + (-2) * ((c.SW : ℂ)) ^ 2 * ((c.e : ℂ)) * ((c.gs : ℂ)) * (ab z0.1 z1.1) * (mb ρ0 (p 1) z2.1) + (-2) * ((c.SW : ℂ)) ^ 2 * ((c.e : ℂ)) * ((c.gs : ℂ)) * (ab z0.1 z2.1) * (mb ρ0 (p 2) z1.1)) * i9 + ((2) * ((c.SW : ℂ)) ^ 2 * ((c.e : ℂ)) * ((c.gs : ℂ)) * (ab z0.1 z2.1) * (mb z1.2 (p 2) z1.1)) * i10 + ((-2) * ((c.MW : ℂ)) * ((c.SW : ℂ)) ^ 2 * ((c.e : ℂ)) * ((c.gs : ℂ)) * ((c.CW : ℂ)⁻¹) * (ab z0.1 z1.1) * (ab z1.1 z2.1) + (-2) * ((c.SW : ℂ)) ^ 2 * ((c.e : ℂ)) * ((c.gs : ℂ)) * (ab z0.1 z2.1) * (mb z1.2 (p 2) z1.1)) * i11 + ((2) * ((c.MW : ℂ)) * ((c.SW : ℂ)) ^ 2 * ((c.e : ℂ)) * ((c.gs : ℂ)) * ((c.CW : ℂ)⁻¹) * (ab z0.1 z1.1) * (sb z0.2 z3.2) + (2) * ((c.SW : ℂ)) ^ 2 * ((c.e : ℂ)) * ((c.gs : ℂ)) * (mb z1.2 (p 2) z0.1) * (sb z0.2 z3.2)) * i12 + ((-2) * ((c.MW : ℂ)) * ((c.SW : ℂ)) ^ 2 * ((c.e : ℂ)) * ((c.gs : ℂ)) * ((c.CW : ℂ)⁻¹) * ((c.mass .d : ℂ)) * (ab z0.1 z1.1) * (sb z0.2 ρ0) + (2) * ((c.SW : ℂ)) ^ 2 * ((c.e : ℂ)) * ((c.gs : ℂ)) * ((c.mass .d : ℂ)) * (N.c 0) * (sb z1.2 ρ0) + (2) * ((c.SW : ℂ)) ^ 2 * ((c.e : ℂ)) * ((c.gs : ℂ)) * ((c.mass .d : ℂ)) * (N.c 1) * (sb z1.2 ρ0) + (-2) * ((c.SW : ℂ)) ^ 2 * ((c.e : ℂ)) * ((c.gs : ℂ)) * ((c.mass .d : ℂ)) * (mb ρ0 (p 1) z0.1) * (sb z0.2 z1.2)) * i13 + ((2) * ((c.SW : ℂ)) ^ 2 * ((c.e : ℂ)) * ((c.gs : ℂ)) * ((c.mass .d : ℂ)) * (ab z0.1 z3.1) * (sb z1.2 ρ0)) * i14 + ((-2) * ((c.SW : ℂ)) ^ 2 * ((c.e : ℂ)) * ((c.gs : ℂ)) * (ab z1.1 z3.1) * (sb z1.2 ρ0) + (3) * ((c.e : ℂ)) * ((c.gs : ℂ)) * (ab z1.1 z3.1) * (sb z1.2 ρ0)) * i15 + ((-2) * ((c.SW : ℂ)) ^ 2 * ((c.e : ℂ)) * ((c.gs : ℂ)) * (N.c 0) * (ab z0.1 z1.1) * (ab z0.1 z3.1) + (-2) * ((c.SW : ℂ)) ^ 2 * ((c.e : ℂ)) * ((c.gs : ℂ)) * (ab z1.1 z3.1) * ((mb (slashUpper (p 3) *ᵥ z0.1) (p 2) z0.1)) + (3) * ((c.e : ℂ)) * ((c.gs : ℂ)) * (N.c 0) * (ab z0.1 z1.1) * (ab z0.1 z3.1) + (3) * ((c.e : ℂ)) * ((c.gs : ℂ)) * (ab z1.1 z3.1) * ((mb (slashUpper (p 3) *ᵥ z0.1) (p 2) z0.1))) * i16 + ((4) * ((c.SW : ℂ)) ^ 2 * ((c.e : ℂ)) * ((c.gs : ℂ)) * ((c.mass .d : ℂ)) * (ab z0.1 z2.1) * (sb z0.2 ρ0) + (-2) * ((c.SW : ℂ)) ^ 2 * ((c.e : ℂ)) * ((c.gs : ℂ)) * (N.c 0) * (sb z2.2 ρ0) + (2) * ((c.SW : ℂ)) ^ 2 * ((c.e : ℂ)) * ((c.gs : ℂ)) * (mb ρ0 (p 2) z0.1) * (sb z0.2 z2.2) + (-3) * ((c.e : ℂ)) * ((c.gs : ℂ)) * ((c.mass .d : ℂ)) * (ab z0.1 z2.1) * (sb z0.2 ρ0) + (3) * ((c.e : ℂ)) * ((c.gs : ℂ)) * (N.c 0) * (sb z2.2 ρ0) + (-3) * ((c.e : ℂ)) * ((c.gs : ℂ)) * (mb ρ0 (p 2) z0.1) * (sb z0.2 z2.2)) * i17 + ((-2) * ((c.SW : ℂ)) ^ 2 * ((c.e : ℂ)) * ((c.gs : ℂ)) * ((c.mass .d : ℂ)) * (ab z0.1 z2.1) * (sb z1.2 ρ0)) * i18 + ((2) * ((c.SW : ℂ)) ^ 2 * ((c.e : ℂ)) * ((c.gs : ℂ)) * ((c.mass .d : ℂ)) * (ab z0.1 z2.1) * (sb z1.2 ρ0)) * i19 + ((2) * ((c.SW : ℂ)) ^ 2 * ((c.e : ℂ)) * ((c.gs : ℂ)) * ((c.mass .d : ℂ)) * (ab z0.1 z1.1) * (sb z1.2 ρ0)) * i20 + ((2) * ((c.SW : ℂ)) ^ 2 * ((c.e : ℂ)) * ((c.gs : ℂ)) * ((c.mass .d : ℂ)) * (ab z0.1 z1.1) * (sb z2.2 z3.2) + (4) * ((c.SW : ℂ)) ^ 2 * ((c.e : ℂ)) * ((c.gs : ℂ)) * ((c.mass .d : ℂ)) * (ab z0.1 z2.1) * (ab z1.1 z3.1) + (2) * ((c.SW : ℂ)) ^ 2 * ((c.e : ℂ)) * ((c.gs : ℂ)) * (ab z0.1 z1.1) * (ab z0.1 z3.1) * (sb z0.2 z2.2) + (-3) * ((c.e : ℂ)) * ((c.gs : ℂ)) * ((c.mass .d : ℂ)) * (ab z0.1 z2.1) * (ab z1.1 z3.1) + (-3) * ((c.e : ℂ)) * ((c.gs : ℂ)) * (ab z0.1 z1.1) * (ab z0.1 z3.1) * (sb z0.2 z2.2)) * i21 + ((2) * ((c.SW : ℂ)) ^ 2 * ((c.e : ℂ)) * ((c.gs : ℂ)) * (ab z0.1 z2.1) * (mb ρ0 (p 2) z1.1)) * i22 + ((-4) * ((c.SW : ℂ)) ^ 2 * ((c.e : ℂ)) * ((c.gs : ℂ)) * ((c.mass .d : ℂ)) * (ab z0.1 z2.1) * (sb z0.2 z1.2) + (-2) * ((c.SW : ℂ)) ^ 2 * ((c.e : ℂ)) * ((c.gs : ℂ)) * (mb z1.2 (p 2) z0.1) * (sb z0.2 z2.2) + (3) * ((c.e : ℂ)) * ((c.gs : ℂ)) * ((c.mass .d : ℂ)) * (ab z0.1 z2.1) * (sb z0.2 z1.2) + (3) * ((c.e : ℂ)) * ((c.gs : ℂ)) * (mb z1.2 (p 2) z0.1) * (sb z0.2 z2.2)) * i23 + ((-2) * ((c.SW : ℂ)) ^ 2 * ((c.e : ℂ)) * ((c.gs : ℂ)) * ((c.mass .d : ℂ)) * (ab z0.1 z1.1) * (sb z1.2 ρ0)) * i24 + ((2) * ((c.SW : ℂ)) ^ 2 * ((c.e : ℂ)) * ((c.gs : ℂ)) * ((c.mass .d : ℂ)) * (ab z0.1 z1.1) * (mb ρ0 (p 1) z0.1) + (-2) * ((c.SW : ℂ)) ^ 2 * ((c.e : ℂ)) * ((c.gs : ℂ)) * ((c.mass .d : ℂ)) * (ab z0.1 z1.1) * (mb ρ0 (p 2) z0.1)) * i25 + ((4) * ((c.SW : ℂ)) ^ 2 * ((c.e : ℂ)) * ((c.gs : ℂ)) * ((c.mass .d : ℂ)) * (ab z0.1 z1.1) * (sb z3.2 ρ0) + (-2) * ((c.SW : ℂ)) ^ 2 * ((c.e : ℂ)) * ((c.gs : ℂ)) * (ab z0.1 z1.1) * (mb ρ0 (p 1) z3.1) + (2) * ((c.SW : ℂ)) ^ 2 * ((c.e : ℂ)) * ((c.gs : ℂ)) * (ab z0.1 z3.1) * (mb ρ0 (p 2) z1.1) + (-3) * ((c.e : ℂ)) * ((c.gs : ℂ)) * ((c.mass .d : ℂ)) * (ab z0.1 z1.1) * (sb z3.2 ρ0) + (3) * ((c.e : ℂ)) * ((c.gs : ℂ)) * (ab z0.1 z1.1) * (mb ρ0 (p 1) z3.1) + (-3) * ((c.e : ℂ)) * ((c.gs : ℂ)) * (ab z0.1 z3.1) * (mb ρ0 (p 2) z1.1)) * i26 + ((-2) * ((c.MW : ℂ)) * ((c.SW : ℂ)) ^ 2 * ((c.e : ℂ)) * ((c.gs : ℂ)) * ((c.CW : ℂ)⁻¹) * (ab z0.1 z1.1) * (ab z1.1 z3.1) + (3) * ((c.MW : ℂ)) * ((c.e : ℂ)) * ((c.gs : ℂ)) * ((c.CW : ℂ)⁻¹) * (ab z0.1 z1.1) * (ab z1.1 z3.1) + (-4) * ((c.SW : ℂ)) ^ 2 * ((c.e : ℂ)) * ((c.gs : ℂ)) * ((c.mass .d : ℂ)) * (ab z0.1 z1.1) * (sb z1.2 z3.2) + (2) * ((c.SW : ℂ)) ^ 2 * ((c.e : ℂ)) * ((c.gs : ℂ)) * (ab z0.1 z3.1) * (mb z1.2 (p 2) z1.1) + (3) * ((c.e : ℂ)) * ((c.gs : ℂ)) * ((c.mass .d : ℂ)) * (ab z0.1 z1.1) * (sb z1.2 z3.2) + (-3) * ((c.e : ℂ)) * ((c.gs : ℂ)) * (ab z0.1 z3.1) * (mb z1.2 (p 2) z1.1)) * i27 + ((-2) * ((c.SW : ℂ)) ^ 2 * ((c.e : ℂ)) * ((c.gs : ℂ)) * ((c.mass .d : ℂ)) * (ab z0.1 z1.1) * (sb z3.2 ρ0)) * i28 + ((2) * ((c.MW : ℂ)) * ((c.SW : ℂ)) ^ 2 * ((c.e : ℂ)) * ((c.gs : ℂ)) * ((c.CW : ℂ)⁻¹) * ((c.mass .d : ℂ)) * (ab z0.1 z1.1) ^ 2 + (2) * ((c.SW : ℂ)) ^ 2 * ((c.e : ℂ)) * ((c.gs : ℂ)) * ((c.mass .d : ℂ)) * (ab z0.1 z1.1) * (mb z1.2 (p 2) z0.1)) * i29 + ((2) * ((c.SW : ℂ)) ^ 2 * ((c.e : ℂ)) * ((c.gs : ℂ)) * ((c.mass .d : ℂ)) * (ab z0.1 z2.1) * (sb z0.2 z1.2) + (-2) * ((c.SW : ℂ)) ^ 2 * ((c.e : ℂ)) * ((c.gs : ℂ)) * (N.c 0) * (sb z1.2 z2.2) + (3) * ((c.e : ℂ)) * ((c.gs : ℂ)) * (N.c 0) * (sb z1.2 z2.2)) * i30 + ((2) * ((c.SW : ℂ)) ^ 2 * ((c.e : ℂ)) * ((c.gs : ℂ)) * ((c.mass .d : ℂ)) * (ab z0.1 z1.1) * (sb z1.2 z3.2)) * i31 + ((2) * ((c.SW : ℂ)) ^ 2 * ((c.e : ℂ)) * ((c.gs : ℂ)) * (N.c 0) * (ab z1.1 z3.1) + (-3) * ((c.e : ℂ)) * ((c.gs : ℂ)) * (N.c 0) * (ab z1.1 z3.1)) * i32)) * ((1) * ((c.CW : ℂ)) * ((c.CW : ℂ)⁻¹) * ((c.MW : ℂ)⁻¹) * ((c.SW : ℂ)⁻¹) * ((N.c 0)⁻¹) * ((N.c 1)⁻¹) / (3)) + ((-2) * ((c.CW : ℂ)) * ((c.MW : ℂ)) * ((c.SW : ℂ)) ^ 2 * ((c.e : ℂ)) * ((c.gs : ℂ)) * ((c.CW : ℂ)⁻¹) ^ 2 * ((c.MW : ℂ)⁻¹) * ((c.SW : ℂ)⁻¹) * ((N.c 1)⁻¹) * (ab z0.1 z1.1) * (ab z1.1 z2.1) * (sb z3.2 ρ0) / (3) + (-2) * ((c.CW : ℂ)) * ((c.MW : ℂ)) * ((c.SW : ℂ)) ^ 2 * ((c.e : ℂ)) * ((c.gs : ℂ)) * ((c.CW : ℂ)⁻¹) ^ 2 * ((c.MW : ℂ)⁻¹) * ((c.SW : ℂ)⁻¹) * ((N.c 1)⁻¹) * (ab z0.1 z3.1) * (sb z1.2 z2.2) * (sb z1.2 ρ0) / (3) + (1) * ((c.CW : ℂ)) * ((c.MW : ℂ)) * ((c.e : ℂ)) * ((c.gs : ℂ)) * ((c.CW : ℂ)⁻¹) ^ 2 * ((c.MW : ℂ)⁻¹) * ((c.SW : ℂ)⁻¹) * ((N.c 1)⁻¹) * (ab z0.1 z3.1) * (sb z1.2 z2.2) * (sb z1.2 ρ0) + (2) * ((c.CW : ℂ)) * ((c.SW : ℂ)) ^ 2 * ((c.e : ℂ)) * ((c.gs : ℂ)) * ((c.CW : ℂ)⁻¹) * ((c.MW : ℂ)⁻¹) * ((c.SW : ℂ)⁻¹) * ((c.mass .d : ℂ)) * ((N.c 1)⁻¹) * (ab z0.1 z1.1) * (sb z1.2 z2.2) * (sb z3.2 ρ0) / (3) + (2) * ((c.CW : ℂ)) * ((c.SW : ℂ)) ^ 2 * ((c.e : ℂ)) * ((c.gs : ℂ)) * ((c.CW : ℂ)⁻¹) * ((c.MW : ℂ)⁻¹) * ((c.SW : ℂ)⁻¹) * ((c.mass .d : ℂ)) * ((N.c 1)⁻¹) * (ab z0.1 z3.1) * (ab z1.1 z2.1) * (sb z1.2 ρ0) / (3) + (2) * ((c.CW : ℂ)) * ((c.SW : ℂ)) ^ 2 * ((c.e : ℂ)) * ((c.gs : ℂ)) * ((c.CW : ℂ)⁻¹) * ((c.MW : ℂ)⁻¹) * ((c.SW : ℂ)⁻¹) * ((N.c 1)⁻¹) * (ab z0.1 z1.1) * (ab z0.1 z3.1) * (sb z0.2 ρ0) * (sb z1.2 z2.2) / (3) + (2) * ((c.CW : ℂ)) * ((c.SW : ℂ)) ^ 2 * ((c.e : ℂ)) * ((c.gs : ℂ)) * ((c.CW : ℂ)⁻¹) * ((c.MW : ℂ)⁻¹) * ((c.SW : ℂ)⁻¹) * ((N.c 1)⁻¹) * (ab z0.1 z3.1) * (mb ρ0 (p 2) z1.1) * (sb z1.2 z2.2) / (3) + (-2) * ((c.CW : ℂ)) * ((c.SW : ℂ)) ^ 2 * ((c.e : ℂ)) * ((c.gs : ℂ)) * ((c.CW : ℂ)⁻¹) * ((c.MW : ℂ)⁻¹) * ((c.SW : ℂ)⁻¹) * ((N.c 1)⁻¹) * (ab z1.1 z2.1) * (mb z1.2 (p 2) z0.1) * (sb z3.2 ρ0) / (3) + (-1) * ((c.CW : ℂ)) * ((c.e : ℂ)) * ((c.gs : ℂ)) * ((c.CW : ℂ)⁻¹) * ((c.MW : ℂ)⁻¹) * ((c.SW : ℂ)⁻¹) * ((c.mass .d : ℂ)) * ((N.c 1)⁻¹) * (ab z0.1 z1.1) * (sb z1.2 z2.2) * (sb z3.2 ρ0) + (-1) * ((c.CW : ℂ)) * ((c.e : ℂ)) * ((c.gs : ℂ)) * ((c.CW : ℂ)⁻¹) * ((c.MW : ℂ)⁻¹) * ((c.SW : ℂ)⁻¹) * ((N.c 1)⁻¹) * (ab z0.1 z1.1) * (ab z0.1 z3.1) * (sb z0.2 ρ0) * (sb z1.2 z2.2) + (-1) * ((c.CW : ℂ)) * ((c.e : ℂ)) * ((c.gs : ℂ)) * ((c.CW : ℂ)⁻¹) * ((c.MW : ℂ)⁻¹) * ((c.SW : ℂ)⁻¹) * ((N.c 1)⁻¹) * (ab z0.1 z3.1) * (mb ρ0 (p 2) z1.1) * (sb z1.2 z2.2)) * y0 + ((-2) * ((c.CW : ℂ)) * ((c.SW : ℂ)) ^ 2 * ((c.e : ℂ)) * ((c.gs : ℂ)) * ((c.CW : ℂ)⁻¹) * ((c.MW : ℂ)⁻¹) * ((c.SW : ℂ)⁻¹) * ((c.mass .d : ℂ)) * ((N.c 0)⁻¹) * (ab z0.1 z1.1) * (sb z1.2 z3.2) * (sb z2.2 ρ0) / (3) + (-2) * ((c.CW : ℂ)) * ((c.SW : ℂ)) ^ 2 * ((c.e : ℂ)) * ((c.gs : ℂ)) * ((c.CW : ℂ)⁻¹) * ((c.MW : ℂ)⁻¹) * ((c.SW : ℂ)⁻¹) * ((c.mass .d : ℂ)) * ((N.c 0)⁻¹) * (ab z0.1 z2.1) * (ab z1.1 z3.1) * (sb z1.2 ρ0) / (3) + (2) * ((c.CW : ℂ)) * ((c.SW : ℂ)) ^ 2 * ((c.e : ℂ)) * ((c.gs : ℂ)) * ((c.CW : ℂ)⁻¹) * ((c.MW : ℂ)⁻¹) * ((c.SW : ℂ)⁻¹) * ((N.c 0)⁻¹) * (ab z0.1 z2.1) * (mb ρ0 (p 2) z1.1) * (sb z1.2 z3.2) / (3) + (-2) * ((c.CW : ℂ)) * ((c.SW : ℂ)) ^ 2 * ((c.e : ℂ)) * ((c.gs : ℂ)) * ((c.CW : ℂ)⁻¹) * ((c.MW : ℂ)⁻¹) * ((c.SW : ℂ)⁻¹) * ((N.c 0)⁻¹) * (ab z1.1 z3.1) * (mb z1.2 (p 2) z0.1) * (sb z2.2 ρ0) / (3) + (1) * ((c.CW : ℂ)) * ((c.e : ℂ)) * ((c.gs : ℂ)) * ((c.CW : ℂ)⁻¹) * ((c.MW : ℂ)⁻¹) * ((c.SW : ℂ)⁻¹) * ((c.mass .d : ℂ)) * ((N.c 0)⁻¹) * (ab z0.1 z2.1) * (ab z1.1 z3.1) * (sb z1.2 ρ0) + (1) * ((c.CW : ℂ)) * ((c.e : ℂ)) * ((c.gs : ℂ)) * ((c.CW : ℂ)⁻¹) * ((c.MW : ℂ)⁻¹) * ((c.SW : ℂ)⁻¹) * ((N.c 0)⁻¹) * (ab z1.1 z3.1) * (mb z1.2 (p 2) z0.1) * (sb z2.2 ρ0)) * y1 + ((1) * ((c.MW : ℂ)) * (((√2 : ℝ) : ℂ)) ^ 2 * ((c.SW : ℂ)) ^ 2 * ((c.e : ℂ)) * ((c.gs : ℂ)) * ((c.CW : ℂ)⁻¹) * ((c.MW : ℂ)⁻¹) * ((c.SW : ℂ)⁻¹) * ((N.c 1)⁻¹) * (ab z0.1 z1.1) * (ab z1.1 z2.1) * (sb z3.2 ρ0) / (3) + (1) * ((c.MW : ℂ)) * (((√2 : ℝ) : ℂ)) ^ 2 * ((c.SW : ℂ)) ^ 2 * ((c.e : ℂ)) * ((c.gs : ℂ)) * ((c.CW : ℂ)⁻¹) * ((c.MW : ℂ)⁻¹) * ((c.SW : ℂ)⁻¹) * ((N.c 1)⁻¹) * (ab z0.1 z3.1) * (sb z1.2 z2.2) * (sb z1.2 ρ0) / (3) + (-1) * ((c.MW : ℂ)) * (((√2 : ℝ) : ℂ)) ^ 2 * ((c.e : ℂ)) * ((c.gs : ℂ)) * ((c.CW : ℂ)⁻¹) * ((c.MW : ℂ)⁻¹) * ((c.SW : ℂ)⁻¹) * ((N.c 1)⁻¹) * (ab z0.1 z3.1) * (sb z1.2 z2.2) * (sb z1.2 ρ0) / (2) + (-2) * ((c.MW : ℂ)) * ((c.SW : ℂ)) ^ 2 * ((c.e : ℂ)) * ((c.gs : ℂ)) * ((c.CW : ℂ)⁻¹) * ((c.MW : ℂ)⁻¹) * ((c.SW : ℂ)⁻¹) * ((N.c 1)⁻¹) * (ab z0.1 z1.1) * (ab z1.1 z2.1) * (sb z3.2 ρ0) / (3) + (-2) * ((c.MW : ℂ)) * ((c.SW : ℂ)) ^ 2 * ((c.e : ℂ)) * ((c.gs : ℂ)) * ((c.CW : ℂ)⁻¹) * ((c.MW : ℂ)⁻¹) * ((c.SW : ℂ)⁻¹) * ((N.c 1)⁻¹) * (ab z0.1 z3.1) * (sb z1.2 z2.2) * (sb z1.2 ρ0) / (3) + (1) * ((c.MW : ℂ)) * ((c.e : ℂ)) * ((c.gs : ℂ)) * ((c.CW : ℂ)⁻¹) * ((c.MW : ℂ)⁻¹) * ((c.SW : ℂ)⁻¹) * ((N.c 1)⁻¹) * (ab z0.1 z3.1) * (sb z1.2 z2.2) * (sb z1.2 ρ0) + (1) * (((√2 : ℝ) : ℂ)) ^ 2 * ((c.SW : ℂ)) ^ 2 * ((c.e : ℂ)) * ((c.gs : ℂ)) * ((c.MW : ℂ)⁻¹) * ((c.SW : ℂ)⁻¹) * ((c.mass .d : ℂ)) * ((N.c 0)⁻¹) * (ab z0.1 z1.1) * (sb z1.2 z3.2) * (sb z2.2 ρ0) / (3) + (1) * (((√2 : ℝ) : ℂ)) ^ 2 * ((c.SW : ℂ)) ^ 2 * ((c.e : ℂ)) * ((c.gs : ℂ)) * ((c.MW : ℂ)⁻¹) * ((c.SW : ℂ)⁻¹) * ((c.mass .d : ℂ)) * ((N.c 0)⁻¹) * (ab z0.1 z2.1) * (ab z1.1 z3.1) * (sb z1.2 ρ0) / (3) + (-1) * (((√2 : ℝ) : ℂ)) ^ 2 * ((c.SW : ℂ)) ^ 2 * ((c.e : ℂ)) * ((c.gs : ℂ)) * ((c.MW : ℂ)⁻¹) * ((c.SW : ℂ)⁻¹) * ((c.mass .d : ℂ)) * ((N.c 1)⁻¹) * (ab z0.1 z1.1) * (sb z1.2 z2.2) * (sb z3.2 ρ0) / (3) + (-1) * (((√2 : ℝ) : ℂ)) ^ 2 * ((c.SW : ℂ)) ^ 2 * ((c.e : ℂ)) * ((c.gs : ℂ)) * ((c.MW : ℂ)⁻¹) * ((c.SW : ℂ)⁻¹) * ((c.mass .d : ℂ)) * ((N.c 1)⁻¹) * (ab z0.1 z3.1) * (ab z1.1 z2.1) * (sb z1.2 ρ0) / (3) + (-1) * (((√2 : ℝ) : ℂ)) ^ 2 * ((c.SW : ℂ)) ^ 2 * ((c.e : ℂ)) * ((c.gs : ℂ)) * ((c.MW : ℂ)⁻¹) * ((c.SW : ℂ)⁻¹) * ((N.c 0)⁻¹) * (ab z0.1 z1.1) * (ab z0.1 z2.1) * (sb z0.2 ρ0) * (sb z1.2 z3.2) / (3) + (-1) * (((√2 : ℝ) : ℂ)) ^ 2 * ((c.SW : ℂ)) ^ 2 * ((c.e : ℂ)) * ((c.gs : ℂ)) * ((c.MW : ℂ)⁻¹) * ((c.SW : ℂ)⁻¹) * ((N.c 0)⁻¹) * (ab z0.1 z2.1) * (mb ρ0 (p 2) z1.1) * (sb z1.2 z3.2) / (3) + (1) * (((√2 : ℝ) : ℂ)) ^ 2 * ((c.SW : ℂ)) ^ 2 * ((c.e : ℂ)) * ((c.gs : ℂ)) * ((c.MW : ℂ)⁻¹) * ((c.SW : ℂ)⁻¹) * ((N.c 0)⁻¹) * (ab z1.1 z3.1) * (mb z1.2 (p 2) z0.1) * (sb z2.2 ρ0) / (3) + (-1) * (((√2 : ℝ) : ℂ)) ^ 2 * ((c.SW : ℂ)) ^ 2 * ((c.e : ℂ)) * ((c.gs : ℂ)) * ((c.MW : ℂ)⁻¹) * ((c.SW : ℂ)⁻¹) * ((N.c 1)⁻¹) * (ab z0.1 z3.1) * (mb ρ0 (p 2) z1.1) * (sb z1.2 z2.2) / (3) + (1) * (((√2 : ℝ) : ℂ)) ^ 2 * ((c.SW : ℂ)) ^ 2 * ((c.e : ℂ)) * ((c.gs : ℂ)) * ((c.MW : ℂ)⁻¹) * ((c.SW : ℂ)⁻¹) * ((N.c 1)⁻¹) * (ab z1.1 z2.1) * (mb z1.2 (p 2) z0.1) * (sb z3.2 ρ0) / (3) + (-1) * (((√2 : ℝ) : ℂ)) ^ 2 * ((c.e : ℂ)) * ((c.gs : ℂ)) * ((c.MW : ℂ)⁻¹) * ((c.SW : ℂ)⁻¹) * ((c.mass .d : ℂ)) * ((N.c 0)⁻¹) * (ab z0.1 z2.1) * (ab z1.1 z3.1) * (sb z1.2 ρ0) / (2) + (1) * (((√2 : ℝ) : ℂ)) ^ 2 * ((c.e : ℂ)) * ((c.gs : ℂ)) * ((c.MW : ℂ)⁻¹) * ((c.SW : ℂ)⁻¹) * ((c.mass .d : ℂ)) * ((N.c 1)⁻¹) * (ab z0.1 z1.1) * (sb z1.2 z2.2) * (sb z3.2 ρ0) / (2) + (-1) * (((√2 : ℝ) : ℂ)) ^ 2 * ((c.e : ℂ)) * ((c.gs : ℂ)) * ((c.MW : ℂ)⁻¹) * ((c.SW : ℂ)⁻¹) * ((N.c 0)⁻¹) * (ab z1.1 z3.1) * (mb z1.2 (p 2) z0.1) * (sb z2.2 ρ0) / (2) + (1) * (((√2 : ℝ) : ℂ)) ^ 2 * ((c.e : ℂ)) * ((c.gs : ℂ)) * ((c.MW : ℂ)⁻¹) * ((c.SW : ℂ)⁻¹) * ((N.c 1)⁻¹) * (ab z0.1 z3.1) * (mb ρ0 (p 2) z1.1) * (sb z1.2 z2.2) / (2) + (-2) * ((c.SW : ℂ)) ^ 2 * ((c.e : ℂ)) * ((c.gs : ℂ)) * ((c.MW : ℂ)⁻¹) * ((c.SW : ℂ)⁻¹) * ((c.mass .d : ℂ)) * ((N.c 0)⁻¹) * (ab z0.1 z1.1) * (sb z1.2 z3.2) * (sb z2.2 ρ0) / (3) + (-2) * ((c.SW : ℂ)) ^ 2 * ((c.e : ℂ)) * ((c.gs : ℂ)) * ((c.MW : ℂ)⁻¹) * ((c.SW : ℂ)⁻¹) * ((c.mass .d : ℂ)) * ((N.c 0)⁻¹) * (ab z0.1 z2.1) * (ab z1.1 z3.1) * (sb z1.2 ρ0) / (3) + (2) * ((c.SW : ℂ)) ^ 2 * ((c.e : ℂ)) * ((c.gs : ℂ)) * ((c.MW : ℂ)⁻¹) * ((c.SW : ℂ)⁻¹) * ((c.mass .d : ℂ)) * ((N.c 1)⁻¹) * (ab z0.1 z1.1) * (sb z1.2 z2.2) * (sb z3.2 ρ0) / (3) + (2) * ((c.SW : ℂ)) ^ 2 * ((c.e : ℂ)) * ((c.gs : ℂ)) * ((c.MW : ℂ)⁻¹) * ((c.SW : ℂ)⁻¹) * ((c.mass .d : ℂ)) * ((N.c 1)⁻¹) * (ab z0.1 z3.1) * (ab z1.1 z2.1) * (sb z1.2 ρ0) / (3) + (2) * ((c.SW : ℂ)) ^ 2 * ((c.e : ℂ)) * ((c.gs : ℂ)) * ((c.MW : ℂ)⁻¹) * ((c.SW : ℂ)⁻¹) * ((N.c 0)⁻¹) * ((N.c 1)⁻¹) * (ab z1.1 z2.1) * ((mb (slashUpper (p 3) *ᵥ z0.1) (p 2) z0.1)) * (sb z0.2 ρ0) * (sb z1.2 z3.2) / (3) + (2) * ((c.SW : ℂ)) ^ 2 * ((c.e : ℂ)) * ((c.gs : ℂ)) * ((c.MW : ℂ)⁻¹) * ((c.SW : ℂ)⁻¹) * ((N.c 0)⁻¹) * ((N.c 1)⁻¹) * (ab z1.1 z3.1) * ((mb (slashUpper (p 3) *ᵥ z0.1) (p 2) z0.1)) * (sb z0.2 ρ0) * (sb z1.2 z2.2) / (3) + (2) * ((c.SW : ℂ)) ^ 2 * ((c.e : ℂ)) * ((c.gs : ℂ)) * ((c.MW : ℂ)⁻¹) * ((c.SW : ℂ)⁻¹) * ((N.c 0)⁻¹) * (ab z0.1 z2.1) * (mb ρ0 (p 2) z1.1) * (sb z1.2 z3.2) / (3) + (-2) * ((c.SW : ℂ)) ^ 2 * ((c.e : ℂ)) * ((c.gs : ℂ)) * ((c.MW : ℂ)⁻¹) * ((c.SW : ℂ)⁻¹) * ((N.c 0)⁻¹) * (ab z1.1 z3.1) * (mb z1.2 (p 2) z0.1) * (sb z2.2 ρ0) / (3) + (2) * ((c.SW : ℂ)) ^ 2 * ((c.e : ℂ)) * ((c.gs : ℂ)) * ((c.MW : ℂ)⁻¹) * ((c.SW : ℂ)⁻¹) * ((N.c 1)⁻¹) * (ab z0.1 z1.1) * (ab z0.1 z3.1) * (sb z0.2 ρ0) * (sb z1.2 z2.2) / (3) + (2) * ((c.SW : ℂ)) ^ 2 * ((c.e : ℂ)) * ((c.gs : ℂ)) * ((c.MW : ℂ)⁻¹) * ((c.SW : ℂ)⁻¹) * ((N.c 1)⁻¹) * (ab z0.1 z3.1) * (mb ρ0 (p 2) z1.1) * (sb z1.2 z2.2) / (3) + (-2) * ((c.SW : ℂ)) ^ 2 * ((c.e : ℂ)) * ((c.gs : ℂ)) * ((c.MW : ℂ)⁻¹) * ((c.SW : ℂ)⁻¹) * ((N.c 1)⁻¹) * (ab z1.1 z2.1) * (mb z1.2 (p 2) z0.1) * (sb z3.2 ρ0) / (3) + (1) * ((c.e : ℂ)) * ((c.gs : ℂ)) * ((c.MW : ℂ)⁻¹) * ((c.SW : ℂ)⁻¹) * ((c.mass .d : ℂ)) * ((N.c 0)⁻¹) * (ab z0.1 z2.1) * (ab z1.1 z3.1) * (sb z1.2 ρ0) + (-1) * ((c.e : ℂ)) * ((c.gs : ℂ)) * ((c.MW : ℂ)⁻¹) * ((c.SW : ℂ)⁻¹) * ((c.mass .d : ℂ)) * ((N.c 1)⁻¹) * (ab z0.1 z1.1) * (sb z1.2 z2.2) * (sb z3.2 ρ0) + (-1) * ((c.e : ℂ)) * ((c.gs : ℂ)) * ((c.MW : ℂ)⁻¹) * ((c.SW : ℂ)⁻¹) * ((N.c 0)⁻¹) * ((N.c 1)⁻¹) * (ab z1.1 z3.1) * ((mb (slashUpper (p 3) *ᵥ z0.1) (p 2) z0.1)) * (sb z0.2 ρ0) * (sb z1.2 z2.2) + (1) * ((c.e : ℂ)) * ((c.gs : ℂ)) * ((c.MW : ℂ)⁻¹) * ((c.SW : ℂ)⁻¹) * ((N.c 0)⁻¹) * (ab z1.1 z3.1) * (mb z1.2 (p 2) z0.1) * (sb z2.2 ρ0) + (-1) * ((c.e : ℂ)) * ((c.gs : ℂ)) * ((c.MW : ℂ)⁻¹) * ((c.SW : ℂ)⁻¹) * ((N.c 1)⁻¹) * (ab z0.1 z1.1) * (ab z0.1 z3.1) * (sb z0.2 ρ0) * (sb z1.2 z2.2) + (-1) * ((c.e : ℂ)) * ((c.gs : ℂ)) * ((c.MW : ℂ)⁻¹) * ((c.SW : ℂ)⁻¹) * ((N.c 1)⁻¹) * (ab z0.1 z3.1) * (mb ρ0 (p 2) z1.1) * (sb z1.2 z2.2)) * yCW + ((1) * (((√2 : ℝ) : ℂ)) ^ 2 * ((c.SW : ℂ)) ^ 2 * ((c.e : ℂ)) * ((c.gs : ℂ)) * ((c.CW : ℂ)⁻¹) * ((c.SW : ℂ)⁻¹) * ((N.c 1)⁻¹) * (ab z0.1 z1.1) * (ab z1.1 z2.1) * (sb z3.2 ρ0) / (3) + (1) * (((√2 : ℝ) : ℂ)) ^ 2 * ((c.SW : ℂ)) ^ 2 * ((c.e : ℂ)) * ((c.gs : ℂ)) * ((c.CW : ℂ)⁻¹) * ((c.SW : ℂ)⁻¹) * ((N.c 1)⁻¹) * (ab z0.1 z3.1) * (sb z1.2 z2.2) * (sb z1.2 ρ0) / (3) + (-1) * (((√2 : ℝ) : ℂ)) ^ 2 * ((c.e : ℂ)) * ((c.gs : ℂ)) * ((c.CW : ℂ)⁻¹) * ((c.SW : ℂ)⁻¹) * ((N.c 1)⁻¹) * (ab z0.1 z3.1) * (sb z1.2 z2.2) * (sb z1.2 ρ0) / (2) + (-2) * ((c.SW : ℂ)) ^ 2 * ((c.e : ℂ)) * ((c.gs : ℂ)) * ((c.CW : ℂ)⁻¹) * ((c.SW : ℂ)⁻¹) * ((N.c 1)⁻¹) * (ab z0.1 z1.1) * (ab z1.1 z2.1) * (sb z3.2 ρ0) / (3) + (-2) * ((c.SW : ℂ)) ^ 2 * ((c.e : ℂ)) * ((c.gs : ℂ)) * ((c.CW : ℂ)⁻¹) * ((c.SW : ℂ)⁻¹) * ((N.c 1)⁻¹) * (ab z0.1 z3.1) * (sb z1.2 z2.2) * (sb z1.2 ρ0) / (3) + (1) * ((c.e : ℂ)) * ((c.gs : ℂ)) * ((c.CW : ℂ)⁻¹) * ((c.SW : ℂ)⁻¹) * ((N.c 1)⁻¹) * (ab z0.1 z3.1) * (sb z1.2 z2.2) * (sb z1.2 ρ0)) * yMW + ((1) * (((√2 : ℝ) : ℂ)) ^ 2 * ((c.SW : ℂ)) * ((c.e : ℂ)) * ((c.gs : ℂ)) * ((c.CW : ℂ)⁻¹) * ((N.c 1)⁻¹) * (ab z0.1 z1.1) * (ab z1.1 z2.1) * (sb z3.2 ρ0) / (3) + (1) * (((√2 : ℝ) : ℂ)) ^ 2 * ((c.SW : ℂ)) * ((c.e : ℂ)) * ((c.gs : ℂ)) * ((c.CW : ℂ)⁻¹) * ((N.c 1)⁻¹) * (ab z0.1 z3.1) * (sb z1.2 z2.2) * (sb z1.2 ρ0) / (3) + (1) * (((√2 : ℝ) : ℂ)) ^ 2 * ((c.SW : ℂ)) * ((c.e : ℂ)) * ((c.gs : ℂ)) * ((c.MW : ℂ)⁻¹) * ((c.mass .d : ℂ)) * ((N.c 0)⁻¹) * (ab z0.1 z1.1) * (sb z1.2 z3.2) * (sb z2.2 ρ0) / (3) + (1) * (((√2 : ℝ) : ℂ)) ^ 2 * ((c.SW : ℂ)) * ((c.e : ℂ)) * ((c.gs : ℂ)) * ((c.MW : ℂ)⁻¹) * ((c.mass .d : ℂ)) * ((N.c 0)⁻¹) * (ab z0.1 z2.1) * (ab z1.1 z3.1) * (sb z1.2 ρ0) / (3) + (-1) * (((√2 : ℝ) : ℂ)) ^ 2 * ((c.SW : ℂ)) * ((c.e : ℂ)) * ((c.gs : ℂ)) * ((c.MW : ℂ)⁻¹) * ((c.mass .d : ℂ)) * ((N.c 1)⁻¹) * (ab z0.1 z1.1) * (sb z1.2 z2.2) * (sb z3.2 ρ0) / (3) + (-1) * (((√2 : ℝ) : ℂ)) ^ 2 * ((c.SW : ℂ)) * ((c.e : ℂ)) * ((c.gs : ℂ)) * ((c.MW : ℂ)⁻¹) * ((c.mass .d : ℂ)) * ((N.c 1)⁻¹) * (ab z0.1 z3.1) * (ab z1.1 z2.1) * (sb z1.2 ρ0) / (3) + (-1) * (((√2 : ℝ) : ℂ)) ^ 2 * ((c.SW : ℂ)) * ((c.e : ℂ)) * ((c.gs : ℂ)) * ((c.MW : ℂ)⁻¹) * ((N.c 0)⁻¹) * (ab z0.1 z1.1) * (ab z0.1 z2.1) * (sb z0.2 ρ0) * (sb z1.2 z3.2) / (3) + (-1) * (((√2 : ℝ) : ℂ)) ^ 2 * ((c.SW : ℂ)) * ((c.e : ℂ)) * ((c.gs : ℂ)) * ((c.MW : ℂ)⁻¹) * ((N.c 0)⁻¹) * (ab z0.1 z2.1) * (mb ρ0 (p 2) z1.1) * (sb z1.2 z3.2) / (3) + (1) * (((√2 : ℝ) : ℂ)) ^ 2 * ((c.SW : ℂ)) * ((c.e : ℂ)) * ((c.gs : ℂ)) * ((c.MW : ℂ)⁻¹) * ((N.c 0)⁻¹) * (ab z1.1 z3.1) * (mb z1.2 (p 2) z0.1) * (sb z2.2 ρ0) / (3) + (-1) * (((√2 : ℝ) : ℂ)) ^ 2 * ((c.SW : ℂ)) * ((c.e : ℂ)) * ((c.gs : ℂ)) * ((c.MW : ℂ)⁻¹) * ((N.c 1)⁻¹) * (ab z0.1 z3.1) * (mb ρ0 (p 2) z1.1) * (sb z1.2 z2.2) / (3) + (1) * (((√2 : ℝ) : ℂ)) ^ 2 * ((c.SW : ℂ)) * ((c.e : ℂ)) * ((c.gs : ℂ)) * ((c.MW : ℂ)⁻¹) * ((N.c 1)⁻¹) * (ab z1.1 z2.1) * (mb z1.2 (p 2) z0.1) * (sb z3.2 ρ0) / (3) + (-2) * ((c.SW : ℂ)) * ((c.e : ℂ)) * ((c.gs : ℂ)) * ((c.CW : ℂ)⁻¹) * ((N.c 1)⁻¹) * (ab z0.1 z1.1) * (ab z1.1 z2.1) * (sb z3.2 ρ0) / (3) + (-2) * ((c.SW : ℂ)) * ((c.e : ℂ)) * ((c.gs : ℂ)) * ((c.CW : ℂ)⁻¹) * ((N.c 1)⁻¹) * (ab z0.1 z3.1) * (sb z1.2 z2.2) * (sb z1.2 ρ0) / (3) + (-2) * ((c.SW : ℂ)) * ((c.e : ℂ)) * ((c.gs : ℂ)) * ((c.MW : ℂ)⁻¹) * ((c.mass .d : ℂ)) * ((N.c 0)⁻¹) * (ab z0.1 z1.1) * (sb z1.2 z3.2) * (sb z2.2 ρ0) / (3) + (-2) * ((c.SW : ℂ)) * ((c.e : ℂ)) * ((c.gs : ℂ)) * ((c.MW : ℂ)⁻¹) * ((c.mass .d : ℂ)) * ((N.c 0)⁻¹) * (ab z0.1 z2.1) * (ab z1.1 z3.1) * (sb z1.2 ρ0) / (3) + (2) * ((c.SW : ℂ)) * ((c.e : ℂ)) * ((c.gs : ℂ)) * ((c.MW : ℂ)⁻¹) * ((c.mass .d : ℂ)) * ((N.c 1)⁻¹) * (ab z0.1 z1.1) * (sb z1.2 z2.2) * (sb z3.2 ρ0) / (3) + (2) * ((c.SW : ℂ)) * ((c.e : ℂ)) * ((c.gs : ℂ)) * ((c.MW : ℂ)⁻¹) * ((c.mass .d : ℂ)) * ((N.c 1)⁻¹) * (ab z0.1 z3.1) * (ab z1.1 z2.1) * (sb z1.2 ρ0) / (3) + (2) * ((c.SW : ℂ)) * ((c.e : ℂ)) * ((c.gs : ℂ)) * ((c.MW : ℂ)⁻¹) * ((N.c 0)⁻¹) * (ab z0.1 z1.1) * (ab z0.1 z2.1) * (sb z0.2 ρ0) * (sb z1.2 z3.2) / (3) + (2) * ((c.SW : ℂ)) * ((c.e : ℂ)) * ((c.gs : ℂ)) * ((c.MW : ℂ)⁻¹) * ((N.c 0)⁻¹) * (ab z0.1 z2.1) * (mb ρ0 (p 2) z1.1) * (sb z1.2 z3.2) / (3) + (-2) * ((c.SW : ℂ)) * ((c.e : ℂ)) * ((c.gs : ℂ)) * ((c.MW : ℂ)⁻¹) * ((N.c 0)⁻¹) * (ab z1.1 z3.1) * (mb z1.2 (p 2) z0.1) * (sb z2.2 ρ0) / (3) + (2) * ((c.SW : ℂ)) * ((c.e : ℂ)) * ((c.gs : ℂ)) * ((c.MW : ℂ)⁻¹) * ((N.c 1)⁻¹) * (ab z0.1 z3.1) * (mb ρ0 (p 2) z1.1) * (sb z1.2 z2.2) / (3) + (-2) * ((c.SW : ℂ)) * ((c.e : ℂ)) * ((c.gs : ℂ)) * ((c.MW : ℂ)⁻¹) * ((N.c 1)⁻¹) * (ab z1.1 z2.1) * (mb z1.2 (p 2) z0.1) * (sb z3.2 ρ0) / (3)) * ySW + ((1) * ((c.SW : ℂ)) * ((c.e : ℂ)) * ((c.gs : ℂ)) * ((c.CW : ℂ)⁻¹) * ((N.c 1)⁻¹) * (ab z0.1 z1.1) * (ab z1.1 z2.1) * (sb z3.2 ρ0) / (3) + (1) * ((c.SW : ℂ)) * ((c.e : ℂ)) * ((c.gs : ℂ)) * ((c.CW : ℂ)⁻¹) * ((N.c 1)⁻¹) * (ab z0.1 z3.1) * (sb z1.2 z2.2) * (sb z1.2 ρ0) / (3) + (1) * ((c.SW : ℂ)) * ((c.e : ℂ)) * ((c.gs : ℂ)) * ((c.MW : ℂ)⁻¹) * ((c.mass .d : ℂ)) * ((N.c 0)⁻¹) * (ab z0.1 z1.1) * (sb z1.2 z3.2) * (sb z2.2 ρ0) / (3) + (1) * ((c.SW : ℂ)) * ((c.e : ℂ)) * ((c.gs : ℂ)) * ((c.MW : ℂ)⁻¹) * ((c.mass .d : ℂ)) * ((N.c 0)⁻¹) * (ab z0.1 z2.1) * (ab z1.1 z3.1) * (sb z1.2 ρ0) / (3) + (-1) * ((c.SW : ℂ)) * ((c.e : ℂ)) * ((c.gs : ℂ)) * ((c.MW : ℂ)⁻¹) * ((c.mass .d : ℂ)) * ((N.c 1)⁻¹) * (ab z0.1 z1.1) * (sb z1.2 z2.2) * (sb z3.2 ρ0) / (3) + (-1) * ((c.SW : ℂ)) * ((c.e : ℂ)) * ((c.gs : ℂ)) * ((c.MW : ℂ)⁻¹) * ((c.mass .d : ℂ)) * ((N.c 1)⁻¹) * (ab z0.1 z3.1) * (ab z1.1 z2.1) * (sb z1.2 ρ0) / (3) + (-1) * ((c.SW : ℂ)) * ((c.e : ℂ)) * ((c.gs : ℂ)) * ((c.MW : ℂ)⁻¹) * ((N.c 0)⁻¹) * (ab z0.1 z1.1) * (ab z0.1 z2.1) * (sb z0.2 ρ0) * (sb z1.2 z3.2) / (3) + (-1) * ((c.SW : ℂ)) * ((c.e : ℂ)) * ((c.gs : ℂ)) * ((c.MW : ℂ)⁻¹) * ((N.c 0)⁻¹) * (ab z0.1 z2.1) * (mb ρ0 (p 2) z1.1) * (sb z1.2 z3.2) / (3) + (1) * ((c.SW : ℂ)) * ((c.e : ℂ)) * ((c.gs : ℂ)) * ((c.MW : ℂ)⁻¹) * ((N.c 0)⁻¹) * (ab z1.1 z3.1) * (mb z1.2 (p 2) z0.1) * (sb z2.2 ρ0) / (3) + (-1) * ((c.SW : ℂ)) * ((c.e : ℂ)) * ((c.gs : ℂ)) * ((c.MW : ℂ)⁻¹) * ((N.c 1)⁻¹) * (ab z0.1 z3.1) * (mb ρ0 (p 2) z1.1) * (sb z1.2 z2.2) / (3) + (1) * ((c.SW : ℂ)) * ((c.e : ℂ)) * ((c.gs : ℂ)) * ((c.MW : ℂ)⁻¹) * ((N.c 1)⁻¹) * (ab z1.1 z2.1) * (mb z1.2 (p 2) z0.1) * (sb z3.2 ρ0) / (3) + (-1) * ((c.e : ℂ)) * ((c.gs : ℂ)) * ((c.CW : ℂ)⁻¹) * ((c.SW : ℂ)⁻¹) * ((N.c 1)⁻¹) * (ab z0.1 z3.1) * (sb z1.2 z2.2) * (sb z1.2 ρ0) / (2) + (-1) * ((c.e : ℂ)) * ((c.gs : ℂ)) * ((c.MW : ℂ)⁻¹) * ((c.SW : ℂ)⁻¹) * ((c.mass .d : ℂ)) * ((N.c 0)⁻¹) * (ab z0.1 z2.1) * (ab z1.1 z3.1) * (sb z1.2 ρ0) / (2) + (1) * ((c.e : ℂ)) * ((c.gs : ℂ)) * ((c.MW : ℂ)⁻¹) * ((c.SW : ℂ)⁻¹) * ((c.mass .d : ℂ)) * ((N.c 1)⁻¹) * (ab z0.1 z1.1) * (sb z1.2 z2.2) * (sb z3.2 ρ0) / (2) + (-1) * ((c.e : ℂ)) * ((c.gs : ℂ)) * ((c.MW : ℂ)⁻¹) * ((c.SW : ℂ)⁻¹) * ((N.c 0)⁻¹) * (ab z1.1 z3.1) * (mb z1.2 (p 2) z0.1) * (sb z2.2 ρ0) / (2) + (1) * ((c.e : ℂ)) * ((c.gs : ℂ)) * ((c.MW : ℂ)⁻¹) * ((c.SW : ℂ)⁻¹) * ((N.c 1)⁻¹) * (ab z0.1 z3.1) * (mb ρ0 (p 2) z1.1) * (sb z1.2 z2.2) / (2)) * x22
set_option maxRecDepth 8000 in
theorem gZdd.amp2_eq (N : Env) (f : Nat → List Int → ℂ) : Cls.gZdd.m_amp2.mean N f .r [] =
    ((sumW (fun x a => (sumV (fun x b => (sumJ (fun x c => (sumJ (fun x d => (x + (((4 : Nat) : ℝ) * (‖(f 0 [a, b, c, d])‖ ^ 2)))) x)) x)) x)) ((0 : Nat) : ℝ)) / ((48 : Nat) : ℝ)) := by rfl
set_option maxRecDepth 8000 in
theorem gZdd.value (N : Env) : meaning N .r Cls.gZdd.methods Cls.gZdd.amp2 [] =
    ((sumW (fun x a => (sumV (fun x b => (sumJ (fun x c => (sumJ (fun x d => (x + (((4 : Nat) : ℝ) * (‖(Cls.gZdd.m_amp.mean N (callMean N []) .c [a, b, c, d])‖ ^ 2)))) x)) x)) x)) ((0 : Nat) : ℝ)) / ((48 : Nat) : ℝ)) :=
  gZdd.amp2_eq N (callMean N [Cls.gZdd.m_amp])
theorem gZdd.termP_lin (N : Env) (w : ℝ) (x : ℂ) (a1 b1 j3 j4 : Int) : gZdd.termP N w x a1 b1 j3 j4 = x + (w : ℂ) * gZdd.termP N 1 0 a1 b1 j3 j4 := by
  simp only [gZdd.termP]; push_cast; ring
theorem gZdd.termM_lin (N : Env) (w : ℝ) (x : ℂ) (a1 b1 j3 j4 : Int) : gZdd.termM N w x a1 b1 j3 j4 = x + (w : ℂ) * gZdd.termM N 1 0 a1 b1 j3 j4 := by
  simp only [gZdd.termM]; push_cast; ring
set_option maxRecDepth 8000 in
theorem gZdd.ampP (N : Env) (f : Nat → List Int → ℂ) (j3 j4 : Int) (t1 : Fin 3) : Cls.gZdd.m_amp.mean N f .c [2, spinV t1, j3, j4] = comb t1 (fun a1 b1 => gZdd.termP N 1 0 (spinOf a1) (spinOf b1) j3 j4) := by
  refine (amp_mean N f (m := 4) (K := 6) (G := fun i => if 0 < i 0 then gZdd.termP N 1 0 (i 4) (i 5) (i 2) (i 3) else if i 0 < 0 then gZdd.termM N 1 0 (i 4) (i 5) (i 2) (i 3) else 0) (fun l => ?_) (fun i i' h => ?_) rfl (by decide) (by decide) (by decide) (by decide) (by decide)).trans ?_
  · by_cases h : 0 < l.i 0
    · refine ⟨_, (if_pos (decide_eq_true h)).trans rfl, rfl, rfl, ?_⟩; rw [if_pos h]; exact gZdd.termP_lin ..
    · by_cases h' : l.i 0 < 0
      · refine ⟨_, (if_neg (fun e => h (of_decide_eq_true e))).trans ((if_pos (decide_eq_true h')).trans rfl), rfl, rfl, ?_⟩; rw [if_neg h, if_pos h']; exact gZdd.termM_lin ..
      · refine ⟨_, (if_neg (fun e => h (of_decide_eq_true e))).trans ((if_neg (fun e => h' (of_decide_eq_true e))).trans rfl), rfl, rfl, ?_⟩; rw [if_neg h, if_neg h', mul_zero, add_zero]
  · simp only [h 0 (by decide), h 2 (by decide), h 3 (by decide), h 4 (by decide), h 5 (by decide)]
  · show amp' _ [spinV t1] = _
    simp only [amp'_comb, amp'_nil]
    rfl
theorem gZdd.formP_x1 (N : Env) (p : Nat → V4 ℝ) (z0 y1 z2 z3 x y : Pair) : gZdd.formP N p z0 (x + y) y1 z2 z3 = gZdd.formP N p z0 x y1 z2 z3 + gZdd.formP N p z0 y y1 z2 z3 := by
  simp only [gZdd.formP, Prod.fst_add, Prod.snd_add, ab_add_left, ab_add_right, sb_add_left, sb_add_right, mb_add_left, mb_add_right]
  ring
theorem gZdd.formP_y1 (N : Env) (p : Nat → V4 ℝ) (z0 x1 z2 z3 x y : Pair) : gZdd.formP N p z0 x1 (x + y) z2 z3 = gZdd.formP N p z0 x1 x z2 z3 + gZdd.formP N p z0 x1 y z2 z3 := by
  simp only [gZdd.formP, Prod.fst_add, Prod.snd_add, ab_add_left, ab_add_right, sb_add_left, sb_add_right, mb_add_left, mb_add_right]
  ring
set_option maxRecDepth 8000 in
theorem gZdd.ampM (N : Env) (f : Nat → List Int → ℂ) (j3 j4 : Int) (t1 : Fin 3) : Cls.gZdd.m_amp.mean N f .c [(-2), spinV t1, j3, j4] = comb t1 (fun a1 b1 => gZdd.termM N 1 0 (spinOf a1) (spinOf b1) j3 j4) := by
  refine (amp_mean N f (m := 4) (K := 6) (G := fun i => if 0 < i 0 then gZdd.termP N 1 0 (i 4) (i 5) (i 2) (i 3) else if i 0 < 0 then gZdd.termM N 1 0 (i 4) (i 5) (i 2) (i 3) else 0) (fun l => ?_) (fun i i' h => ?_) rfl (by decide) (by decide) (by decide) (by decide) (by decide)).trans ?_
  · by_cases h : 0 < l.i 0
    · refine ⟨_, (if_pos (decide_eq_true h)).trans rfl, rfl, rfl, ?_⟩; rw [if_pos h]; exact gZdd.termP_lin ..
    · by_cases h' : l.i 0 < 0
      · refine ⟨_, (if_neg (fun e => h (of_decide_eq_true e))).trans ((if_pos (decide_eq_true h')).trans rfl), rfl, rfl, ?_⟩; rw [if_neg h, if_pos h']; exact gZdd.termM_lin ..
      · refine ⟨_, (if_neg (fun e => h (of_decide_eq_true e))).trans ((if_neg (fun e => h' (of_decide_eq_true e))).trans rfl), rfl, rfl, ?_⟩; rw [if_neg h, if_neg h', mul_zero, add_zero]
  · simp only [h 0 (by decide), h 2 (by decide), h 3 (by decide), h 4 (by decide), h 5 (by decide)]
  · show amp' _ [spinV t1] = _
    simp only [amp'_comb, amp'_nil]
    rfl
theorem gZdd.formM_x1 (N : Env) (p : Nat → V4 ℝ) (z0 y1 z2 z3 x y : Pair) : gZdd.formM N p z0 (x + y) y1 z2 z3 = gZdd.formM N p z0 x y1 z2 z3 + gZdd.formM N p z0 y y1 z2 z3 := by
  simp only [gZdd.formM, Prod.fst_add, Prod.snd_add, ab_add_left, ab_add_right, sb_add_left, sb_add_right, mb_add_left, mb_add_right]
  ring
theorem gZdd.formM_y1 (N : Env) (p : Nat → V4 ℝ) (z0 x1 z2 z3 x y : Pair) : gZdd.formM N p z0 x1 (x + y) z2 z3 = gZdd.formM N p z0 x1 x z2 z3 + gZdd.formM N p z0 x1 y z2 z3 := by
  simp only [gZdd.formM, Prod.fst_add, Prod.snd_add, ab_add_left, ab_add_right, sb_add_left, sb_add_right, mb_add_left, mb_add_right]
  ring

theorem gZdd.mass_eq {c : Constants} (hc : c.Physical) (i : Fin 4) : gZdd.proc.massNum (gZdd.rho c) i = gZdd.react.mass c i := by
  fin_cases i <;> first | rfl | exact Nat.cast_zero | exact Nat.cast_zero.trans (hc.neutrino _).symm | (show c.MW / √(((1 : Nat) : ℝ) - c.SW * c.SW) = c.MZ; rw [c.root, c.mz])

variable [FPEnv] in
theorem gZdd.amps {c : Constants} {p : Nat → V4 ℝ} {u : Fin 4 → Fin 3 → Spinor} {ε : Fin 4 → Fin 3 → Vec} (hc : c.Physical) (hh : c.Heavy) (h0 : ∀ i, 0 ≤ gZdd.react.mass c i) (hs : ∀ i : Fin 4, OnShell (p i) (gZdd.react.mass c i)) (hb : Balanced p) (hr : gZdd.react.Regular c p) (hu : ∀ i, gZdd.react.Complete c p i (u i) (ε i)) :
    (gZdd.N c p).c 0 ≠ 0 ∧ (gZdd.N c p).c 1 ≠ 0 ∧ (∀ n, (Ty.r, n) ∈ gZdd.proc.divides → (gZdd.N c p).r n ≠ 0) ∧ (∀ n, (Ty.c, n) ∈ gZdd.proc.divides → (gZdd.N c p).c n ≠ 0) ∧ ∀ (s2 : Fin 2) (s3 : Fin 2) (h0 : Fin 2) (t1 : Fin 3), ‖Cls.gZdd.m_amp.mean (gZdd.N c p) (callMean (gZdd.N c p) []) .c [spinW h0, spinV t1, spinOf s2, spinOf s3]‖ = ‖gZdd.react.bare c p 2 3 0 1 (gZdd.react.codePair c p 2 s2) (gZdd.react.codePair c p 3 s3) (lightE (legA (p 0) 0 0, legS (p 0) 0 1) h0.castSucc) (gZdd.react.codeVec c p 1 t1)‖ := by
  have he : gZdd.react.ends = [2] := by decide
  have ht : gZdd.react.starts = [3] := by decide
  have hB : gZdd.react.bosons = [0, 1] := by decide
  obtain ⟨f1, f2, f3⟩ := gZdd.react.regular_line he ht hB hr
  have r9 : (gZdd.N c p).r 9 = (((((2 : Nat) : ℝ) * c.e) * c.gs) / ((((2 : Nat) : ℝ) * c.MW) * c.SW)) := rfl
  have r11 : (gZdd.N c p).r 11 = (((((-((2 : Nat) : ℝ)) * ((-((1 : Nat) : ℝ)) / ((3 : Nat) : ℝ))) * c.SW) * c.SW) - ((1 : Nat) : ℝ)) := rfl
  have r12 : (gZdd.N c p).r 12 = ((((-((2 : Nat) : ℝ)) * ((-((1 : Nat) : ℝ)) / ((3 : Nat) : ℝ))) * c.SW) * c.SW) := rfl
  have c0 : (gZdd.N c p).c 0 = poleDist (c.mass .d) ((0 : Nat) : ℝ) ((VExp.sub 0 2).sum p) := rfl
  rw [Nat.cast_zero, pole_fermion rfl] at c0
  have d0 : ((msq (plus (backward (p 3)) (p 1)) - c.mass .d ^ 2 : ℝ) : ℂ) = (gZdd.N c p).c 0 := by rw [c0, msq_t hb (plus (backward (p 3)) (p 1)) (by simp)]
  have n0 : (gZdd.N c p).c 0 ≠ 0 := by rw [← d0]; exact_mod_cast f2 .d rfl rfl
  have c1 : (gZdd.N c p).c 1 = poleDist (c.mass .d) ((0 : Nat) : ℝ) ((VExp.sub 0 3).sum p) := rfl
  rw [Nat.cast_zero, pole_fermion rfl] at c1
  have d1 : ((msq (plus (backward (p 3)) (p 0)) - c.mass .d ^ 2 : ℝ) : ℂ) = (gZdd.N c p).c 1 := by rw [c1, msq_u hb (plus (backward (p 3)) (p 0)) (by simp)]
  have n1 : (gZdd.N c p).c 1 ≠ 0 := by rw [← d1]; exact_mod_cast f1 .d rfl rfl
  obtain ⟨l0, x0, y0⟩ := gZdd.react.code_light hs hu (n := 0) rfl rfl
  have e02 := l0.pole_sub (m := (c.mass .d)) (onShell_msq (hs 2)) (msq_t hb (plus (p 0) (backward (p 2))) (by simp)) c0
  have e03 := l0.pole_sub (m := (c.mass .d)) (onShell_msq (hs 3)) (msq_u hb (plus (p 0) (backward (p 3))) (by simp)) c1
  have m1 : gZdd.react.mass c 1 ≠ 0 := (leg_pos hc hh (by decide)).ne'
  have m2 : gZdd.react.mass c 2 ≠ 0 := (leg_pos hc hh (by decide)).ne'
  have m3 : gZdd.react.mass c 3 ≠ 0 := (leg_pos hc hh (by decide)).ne'
  have m0 : gZdd.react.mass c 0 = 0 := rfl
  have hd : gZdd.proc.divides = [(Ty.c, 0), (Ty.c, 1)] := by decide +kernel
  have stP : ∀ {z2 z3 : Pair} (b2 : Bold (p 2) (gZdd.react.mass c 2) z2) (b3 : Bold (p 3) (gZdd.react.mass c 3) z3) (t1 : Fin 3), comb t1 (fun a1 b1 => gZdd.formP (gZdd.N c p) p (legA (p 0) 0 0, legS (p 0) 0 1) (gZdd.react.codePair c p 1 a1) (gZdd.react.codePair c p 1 b1) z2 z3) = 1 * gZdd.react.bare c p 2 3 0 1 z2 z3 (lightE (legA (p 0) 0 0, legS (p 0) 0 1) 1) (gZdd.react.codeVec c p 1 t1) := by
    intro z2 z3 b2 b3 t1
    refine one_vector (p := p 1) (m := gZdd.react.mass c 1) (fun s => gZdd.react.codePair_bold hs h0 1 s) (B := fun x y => gZdd.formP (gZdd.N c p) p (legA (p 0) 0 0, legS (p 0) 0 1) x y z2 z3) (G := fun E => gZdd.react.bare c p 2 3 0 1 z2 z3 (lightE (legA (p 0) 0 0, legS (p 0) 0 1) 1) E) (fun x y z => ?_) (fun x y z => ?_) (gZdd.react.bare_lin₂ c p _ _ _ (by decide)) 1 (fun z1 b1 => ?_) t1
    · exact gZdd.formP_x1 ..
    · exact gZdd.formP_y1 ..
    · exact (light_plus (z := (legA (p 0) 0 0, legS (p 0) 0 1)) (G := fun E => gZdd.react.bare c p 2 3 0 1 z2 z3 E (pv z1.1 z1.2)) (gZdd.react.bare_lin₁ c p _ _ _ (by decide)) x0 (gZdd.keyP hc hb r9 r11 r12 d0 n0 d1 n1 b1 b2 b3 l0 e02 e03 (onShell_msq (hs 1)) (onShell_msq (hs 2)) (onShell_msq (hs 3)) _)).trans (mul_assoc _ _ _)
  have stM : ∀ {z2 z3 : Pair} (b2 : Bold (p 2) (gZdd.react.mass c 2) z2) (b3 : Bold (p 3) (gZdd.react.mass c 3) z3) (t1 : Fin 3), comb t1 (fun a1 b1 => gZdd.formM (gZdd.N c p) p (legA (p 0) 0 0, legS (p 0) 0 1) (gZdd.react.codePair c p 1 a1) (gZdd.react.codePair c p 1 b1) z2 z3) = 1 * gZdd.react.bare c p 2 3 0 1 z2 z3 (lightE (legA (p 0) 0 0, legS (p 0) 0 1) 0) (gZdd.react.codeVec c p 1 t1) := by
    intro z2 z3 b2 b3 t1
    refine one_vector (p := p 1) (m := gZdd.react.mass c 1) (fun s => gZdd.react.codePair_bold hs h0 1 s) (B := fun x y => gZdd.formM (gZdd.N c p) p (legA (p 0) 0 0, legS (p 0) 0 1) x y z2 z3) (G := fun E => gZdd.react.bare c p 2 3 0 1 z2 z3 (lightE (legA (p 0) 0 0, legS (p 0) 0 1) 0) E) (fun x y z => ?_) (fun x y z => ?_) (gZdd.react.bare_lin₂ c p _ _ _ (by decide)) 1 (fun z1 b1 => ?_) t1
    · exact gZdd.formM_x1 ..
    · exact gZdd.formM_y1 ..
    · exact (light_minus (z := (legA (p 0) 0 0, legS (p 0) 0 1)) (G := fun E => gZdd.react.bare c p 2 3 0 1 z2 z3 E (pv z1.1 z1.2)) (gZdd.react.bare_lin₁ c p _ _ _ (by decide)) y0 (gZdd.keyM hc hb r9 r11 r12 d0 n0 d1 n1 b1 b2 b3 l0 e02 e03 (onShell_msq (hs 1)) (onShell_msq (hs 2)) (onShell_msq (hs 3)) _)).trans (mul_assoc _ _ _)
  have amP : ∀ (s2 : Fin 2) (s3 : Fin 2) (t1 : Fin 3), Cls.gZdd.m_amp.mean (gZdd.N c p) (callMean (gZdd.N c p) []) .c [2, spinV t1, spinOf s2, spinOf s3] = 1 * gZdd.react.bare c p 2 3 0 1 (gZdd.react.codePair c p 2 s2) (gZdd.react.codePair c p 3 s3) (lightE (legA (p 0) 0 0, legS (p 0) 0 1) 1) (gZdd.react.codeVec c p 1 t1) := by
    intro s2 s3 t1
    rw [gZdd.ampP, ← stP (gZdd.react.codePair_bold hs h0 2 s2) (gZdd.react.codePair_bold hs h0 3 s3) t1]
    refine congrArg (comb t1) (funext fun a1 => funext fun b1 => ?_)
    have v10z0z0 : (gZdd.N c p).v 10 [] = mb (legA (p 0) 0 0, legS (p 0) 0 1).2 (p 2) (slashLower (p 3) *ᵥ (legA (p 0) 0 0, legS (p 0) 0 1).2) := bra_two_square (p := p) (m := gZdd.proc.massNum (gZdd.rho c)) (gZdd.mass_eq hc 0) (gZdd.mass_eq hc 0) (.inr ⟨m0, rfl⟩) (.inr ⟨m0, rfl⟩)
    have v6x1z3 : (gZdd.N c p).v 6 [spinOf a1, spinOf s3] = sb (gZdd.react.codePair c p 1 a1).2 (gZdd.react.codePair c p 3 s3).2 := bra_square (p := p) (m := gZdd.proc.massNum (gZdd.rho c)) (gZdd.mass_eq hc 1) (gZdd.mass_eq hc 3) (.inl ⟨m1, rfl⟩) (.inl ⟨m3, rfl⟩)
    have v3y1z2 : (gZdd.N c p).v 3 [spinOf b1, spinOf s2] = ab (gZdd.react.codePair c p 1 b1).1 (gZdd.react.codePair c p 2 s2).1 := bra_angle (p := p) (m := gZdd.proc.massNum (gZdd.rho c)) (gZdd.mass_eq hc 1) (gZdd.mass_eq hc 2) (.inl ⟨m1, rfl⟩) (.inl ⟨m2, rfl⟩)
    have v2x1z2 : (gZdd.N c p).v 2 [spinOf a1, spinOf s2] = sb (gZdd.react.codePair c p 1 a1).2 (gZdd.react.codePair c p 2 s2).2 := bra_square (p := p) (m := gZdd.proc.massNum (gZdd.rho c)) (gZdd.mass_eq hc 1) (gZdd.mass_eq hc 2) (.inl ⟨m1, rfl⟩) (.inl ⟨m2, rfl⟩)
    have v7y1z3 : (gZdd.N c p).v 7 [spinOf b1, spinOf s3] = ab (gZdd.react.codePair c p 1 b1).1 (gZdd.react.codePair c p 3 s3).1 := bra_angle (p := p) (m := gZdd.proc.massNum (gZdd.rho c)) (gZdd.mass_eq hc 1) (gZdd.mass_eq hc 3) (.inl ⟨m1, rfl⟩) (.inl ⟨m3, rfl⟩)
    have v0z0x1 : (gZdd.N c p).v 0 [spinOf a1] = sb (legA (p 0) 0 0, legS (p 0) 0 1).2 (gZdd.react.codePair c p 1 a1).2 := bra_square (p := p) (m := gZdd.proc.massNum (gZdd.rho c)) (gZdd.mass_eq hc 0) (gZdd.mass_eq hc 1) (.inr ⟨m0, rfl⟩) (.inl ⟨m1, rfl⟩)
    have v8z0z3 : (gZdd.N c p).v 8 [spinOf s3] = sb (legA (p 0) 0 0, legS (p 0) 0 1).2 (gZdd.react.codePair c p 3 s3).2 := bra_square (p := p) (m := gZdd.proc.massNum (gZdd.rho c)) (gZdd.mass_eq hc 0) (gZdd.mass_eq hc 3) (.inr ⟨m0, rfl⟩) (.inl ⟨m3, rfl⟩)
    have v4z0z2 : (gZdd.N c p).v 4 [spinOf s2] = sb (legA (p 0) 0 0, legS (p 0) 0 1).2 (gZdd.react.codePair c p 2 s2).2 := bra_square (p := p) (m := gZdd.proc.massNum (gZdd.rho c)) (gZdd.mass_eq hc 0) (gZdd.mass_eq hc 2) (.inr ⟨m0, rfl⟩) (.inl ⟨m2, rfl⟩)
    simp only [gZdd.termP, gZdd.formP, v10z0z0, v6x1z3, v3y1z2, v2x1z2, v7y1z3, v0z0x1, v8z0z3, v4z0z2]
    push_cast
    ring
  have amM : ∀ (s2 : Fin 2) (s3 : Fin 2) (t1 : Fin 3), Cls.gZdd.m_amp.mean (gZdd.N c p) (callMean (gZdd.N c p) []) .c [(-2), spinV t1, spinOf s2, spinOf s3] = 1 * gZdd.react.bare c p 2 3 0 1 (gZdd.react.codePair c p 2 s2) (gZdd.react.codePair c p 3 s3) (lightE (legA (p 0) 0 0, legS (p 0) 0 1) 0) (gZdd.react.codeVec c p 1 t1) := by
    intro s2 s3 t1
    rw [gZdd.ampM, ← stM (gZdd.react.codePair_bold hs h0 2 s2) (gZdd.react.codePair_bold hs h0 3 s3) t1]
    refine congrArg (comb t1) (funext fun a1 => funext fun b1 => ?_)
    have v11z0z0 : (gZdd.N c p).v 11 [] = mb (slashUpper (p 3) *ᵥ (legA (p 0) 0 0, legS (p 0) 0 1).1) (p 2) (legA (p 0) 0 0, legS (p 0) 0 1).1 := bra_two_angle (p := p) (m := gZdd.proc.massNum (gZdd.rho c)) (gZdd.mass_eq hc 0) (gZdd.mass_eq hc 0) (.inr ⟨m0, rfl⟩) (.inr ⟨m0, rfl⟩)
    have v6x1z3 : (gZdd.N c p).v 6 [spinOf a1, spinOf s3] = sb (gZdd.react.codePair c p 1 a1).2 (gZdd.react.codePair c p 3 s3).2 := bra_square (p := p) (m := gZdd.proc.massNum (gZdd.rho c)) (gZdd.mass_eq hc 1) (gZdd.mass_eq hc 3) (.inl ⟨m1, rfl⟩) (.inl ⟨m3, rfl⟩)
    have v3y1z2 : (gZdd.N c p).v 3 [spinOf b1, spinOf s2] = ab (gZdd.react.codePair c p 1 b1).1 (gZdd.react.codePair c p 2 s2).1 := bra_angle (p := p) (m := gZdd.proc.massNum (gZdd.rho c)) (gZdd.mass_eq hc 1) (gZdd.mass_eq hc 2) (.inl ⟨m1, rfl⟩) (.inl ⟨m2, rfl⟩)
    have v2x1z2 : (gZdd.N c p).v 2 [spinOf a1, spinOf s2] = sb (gZdd.react.codePair c p 1 a1).2 (gZdd.react.codePair c p 2 s2).2 := bra_square (p := p) (m := gZdd.proc.massNum (gZdd.rho c)) (gZdd.mass_eq hc 1) (gZdd.mass_eq hc 2) (.inl ⟨m1, rfl⟩) (.inl ⟨m2, rfl⟩)
    have v7y1z3 : (gZdd.N c p).v 7 [spinOf b1, spinOf s3] = ab (gZdd.react.codePair c p 1 b1).1 (gZdd.react.codePair c p 3 s3).1 := bra_angle (p := p) (m := gZdd.proc.massNum (gZdd.rho c)) (gZdd.mass_eq hc 1) (gZdd.mass_eq hc 3) (.inl ⟨m1, rfl⟩) (.inl ⟨m3, rfl⟩)
    have v1z0x1 : (gZdd.N c p).v 1 [spinOf a1] = ab (legA (p 0) 0 0, legS (p 0) 0 1).1 (gZdd.react.codePair c p 1 a1).1 := bra_angle (p := p) (m := gZdd.proc.massNum (gZdd.rho c)) (gZdd.mass_eq hc 0) (gZdd.mass_eq hc 1) (.inr ⟨m0, rfl⟩) (.inl ⟨m1, rfl⟩)
    have v9z0z3 : (gZdd.N c p).v 9 [spinOf s3] = ab (legA (p 0) 0 0, legS (p 0) 0 1).1 (gZdd.react.codePair c p 3 s3).1 := bra_angle (p := p) (m := gZdd.proc.massNum (gZdd.rho c)) (gZdd.mass_eq hc 0) (gZdd.mass_eq hc 3) (.inr ⟨m0, rfl⟩) (.inl ⟨m3, rfl⟩)
    have v2y1z2 : (gZdd.N c p).v 2 [spinOf b1, spinOf s2] = sb (gZdd.react.codePair c p 1 b1).2 (gZdd.react.codePair c p 2 s2).2 := bra_square (p := p) (m := gZdd.proc.massNum (gZdd.rho c)) (gZdd.mass_eq hc 1) (gZdd.mass_eq hc 2) (.inl ⟨m1, rfl⟩) (.inl ⟨m2, rfl⟩)
    have v5z0z2 : (gZdd.N c p).v 5 [spinOf s2] = ab (legA (p 0) 0 0, legS (p 0) 0 1).1 (gZdd.react.codePair c p 2 s2).1 := bra_angle (p := p) (m := gZdd.proc.massNum (gZdd.rho c)) (gZdd.mass_eq hc 0) (gZdd.mass_eq hc 2) (.inr ⟨m0, rfl⟩) (.inl ⟨m2, rfl⟩)
    have v6y1z3 : (gZdd.N c p).v 6 [spinOf b1, spinOf s3] = sb (gZdd.react.codePair c p 1 b1).2 (gZdd.react.codePair c p 3 s3).2 := bra_square (p := p) (m := gZdd.proc.massNum (gZdd.rho c)) (gZdd.mass_eq hc 1) (gZdd.mass_eq hc 3) (.inl ⟨m1, rfl⟩) (.inl ⟨m3, rfl⟩)
    simp only [gZdd.termM, gZdd.formM, v11z0z0, v6x1z3, v3y1z2, v2x1z2, v7y1z3, v1z0x1, v9z0z3, v2y1z2, v5z0z2, v6y1z3]
    push_cast
    ring
  refine ⟨n0, n1, fun n hn => ?_, fun n hn => ?_, ?_⟩
  · simp [hd] at hn
  · simp [hd] at hn
    rcases hn with rfl | rfl
    · exact n0
    · exact n1
  intro s2 s3 h0 t1
  match h0 with
  | 1 => exact norm_plus (amP s2 s3 t1)
  | 0 => exact norm_plus (amM s2 s3 t1)

variable [FPEnv] in
theorem gZdd.agrees : gZdd.Agrees := by
  refine agrees_of (D := [3, 4]) (E := [4]) (by simp [all, gZdd]) (by decide +kernel) (by decide) (by decide +kernel) (fun c hc hh => ⟨List.forall_mem_cons.2 ⟨hc.MW, List.forall_mem_cons.2 ⟨hc.SW, List.forall_mem_nil _⟩⟩, List.forall_mem_cons.2 ⟨hc.SW_lt, List.forall_mem_nil _⟩⟩) (fun c hc i => gZdd.mass_eq hc i) (by decide +kernel) ?_
  intro c p u ε hc hh hw h0 hs hb hr hu
  have he : gZdd.react.ends = [2] := by decide
  have ht : gZdd.react.starts = [3] := by decide
  have hB : gZdd.react.bosons = [0, 1] := by decide
  obtain ⟨n0, n1, d1, d2, am⟩ := gZdd.amps hc hh h0 hs hb hr hu
  refine ⟨d1, d2, ?_⟩
  show meaning (gZdd.N c p) .r Cls.gZdd.methods Cls.gZdd.amp2 [] = _
  have s0 : gZdd.react.states 0 = 16 := by decide +kernel
  have s1 : gZdd.react.states 1 = 3 := by decide +kernel
  have sy : gZdd.react.symmetry = 1 := by decide
  have p0 : gZdd.react.spins 0 = {0, 1} := rfl
  have p1 : gZdd.react.spins 1 = Finset.univ := rfl
  have p2 : gZdd.react.spins 2 = {0, 1} := rfl
  have p3 : gZdd.react.spins 3 = {0, 1} := rfl
  have E0 : gZdd.react.codeE c p 0 = lightE (legA (p 0) 0 0, legS (p 0) 0 1) := rfl
  have E1 : gZdd.react.codeE c p 1 = gZdd.react.codeVec c p 1 := rfl
  have hG : gZdd.react.Gauge c p := (gZdd.react.gauge_line he ht hB hh (by decide) (fun n => onShell_msq (hs n)) hb hr (fun n m h h2 => absurd (And.intro h h2) (by revert n m; decide)) (fun _ => ⟨rfl, rfl⟩) (fun h => absurd h (by decide)))
  rw [gZdd.value, gZdd.react.squared_gluon 0 he ht hB (by decide) (by decide +kernel) (by decide +kernel) hs h0 (fun _ b _ hb _ => (boson_pos hc hh hb).ne') hG (E := gZdd.react.codeE c p) (fun n b hl => gZdd.react.codeE_polarised hs h0 hu (fun b hb => (boson_pos hc hh hb).ne') n b hl) hu, sum_colours, s0, s1, sy]
  simp only [sumV_sum, sumJ_sum, sumW_sum, am, p0, p1, p2, p3, E0, E1, Finset.sum_singleton, sum_two, Matrix.cons_val_zero, Matrix.cons_val_one, Matrix.cons_val, two_castSucc]
  try simp only [← Finset.mul_sum]
  push_cast
  first | ring1 | ring_nf

/-! ### gZuu -/

/-- what the methods of the class see -/
noncomputable abbrev gZuu.N [FPEnv] (c : Constants) (p : Nat → V4 ℝ) : Env := gZuu.proc.env (gZuu.rho c) p
/-- the term that `amp` adds for a choice of spinors, for a gluon of positive helicity (SM/gZuu.cpp) -/
noncomputable def gZuu.termP (N : Env) (w : ℝ) (x : ℂ) (a1 b1 j3 j4 : Int) : ℂ :=
  ((x + (((((((w * N.r 9) : ℝ) : ℂ) * N.v 10 []) * (((((N.r 12 : ℝ) : ℂ) * N.v 6 [a1, j4]) * N.v 3 [b1, j3]) + ((((N.r 11 : ℝ) : ℂ) * N.v 2 [a1, j3]) * N.v 7 [b1, j4]))) / N.c 0) / N.c 1)) + (((((w * N.r 9) : ℝ) : ℂ) * N.v 0 [a1]) * ((((((N.r 12 : ℝ) : ℂ) * N.v 8 [j4]) * N.v 3 [b1, j3]) / N.c 1) - (((((N.r 11 : ℝ) : ℂ) * N.v 4 [j3]) * N.v 7 [b1, j4]) / N.c 0))))
/-- the same with spinors in place of their spins -/
noncomputable def gZuu.formP (N : Env) (p : Nat → V4 ℝ) (z0 x1 y1 z2 z3 : Pair) : ℂ :=
  ((0 + (((((((((1 : Nat) : ℝ) * N.r 9) : ℝ) : ℂ) * (mb z0.2 (p 2) (slashLower (p 3) *ᵥ z0.2))) * (((((N.r 12 : ℝ) : ℂ) * (sb x1.2 z3.2)) * (ab y1.1 z2.1)) + ((((N.r 11 : ℝ) : ℂ) * (sb x1.2 z2.2)) * (ab y1.1 z3.1)))) / N.c 0) / N.c 1)) + (((((((1 : Nat) : ℝ) * N.r 9) : ℝ) : ℂ) * (sb z0.2 x1.2)) * ((((((N.r 12 : ℝ) : ℂ) * (sb z0.2 z3.2)) * (ab y1.1 z2.1)) / N.c 1) - (((((N.r 11 : ℝ) : ℂ) * (sb z0.2 z2.2)) * (ab y1.1 z3.1)) / N.c 0))))
/-- the term that `amp` adds for a choice of spinors, for a gluon of negative helicity (SM/gZuu.cpp) -/
noncomputable def gZuu.termM (N : Env) (w : ℝ) (x : ℂ) (a1 b1 j3 j4 : Int) : ℂ :=
  ((x + (((((((w * N.r 9) : ℝ) : ℂ) * N.v 11 []) * (((((N.r 12 : ℝ) : ℂ) * N.v 6 [a1, j4]) * N.v 3 [b1, j3]) + ((((N.r 11 : ℝ) : ℂ) * N.v 2 [a1, j3]) * N.v 7 [b1, j4]))) / N.c 0) / N.c 1)) + (((((w * N.r 9) : ℝ) : ℂ) * N.v 1 [a1]) * ((((((N.r 11 : ℝ) : ℂ) * N.v 9 [j4]) * N.v 2 [b1, j3]) / N.c 1) - (((((N.r 12 : ℝ) : ℂ) * N.v 5 [j3]) * N.v 6 [b1, j4]) / N.c 0))))
/-- the same with spinors in place of their spins -/
noncomputable def gZuu.formM (N : Env) (p : Nat → V4 ℝ) (z0 x1 y1 z2 z3 : Pair) : ℂ :=
  ((0 + (((((((((1 : Nat) : ℝ) * N.r 9) : ℝ) : ℂ) * (mb (slashUpper (p 3) *ᵥ z0.1) (p 2) z0.1)) * (((((N.r 12 : ℝ) : ℂ) * (sb x1.2 z3.2)) * (ab y1.1 z2.1)) + ((((N.r 11 : ℝ) : ℂ) * (sb x1.2 z2.2)) * (ab y1.1 z3.1)))) / N.c 0) / N.c 1)) + (((((((1 : Nat) : ℝ) * N.r 9) : ℝ) : ℂ) * (ab z0.1 x1.1)) * ((((((N.r 11 : ℝ) : ℂ) * (ab z0.1 z3.1)) * (sb y1.2 z2.2)) / N.c 1) - (((((N.r 12 : ℝ) : ℂ) * (ab z0.1 z2.1)) * (sb y1.2 z3.2)) / N.c 0))))
theorem gZuu.keyP {c : Constants} {p : Nat → V4 ℝ} {N : Env} (hc : c.Physical) (hb : Balanced p) (r9 : N.r 9 = (((((2 : Nat) : ℝ) * c.e) * c.gs) / ((((2 : Nat) : ℝ) * c.MW) * c.SW))) (r11 : N.r 11 = (((((-((2 : Nat) : ℝ)) * (((2 : Nat) : ℝ) / ((3 : Nat) : ℝ))) * c.SW) * c.SW) + ((1 : Nat) : ℝ))) (r12 : N.r 12 = ((((-((2 : Nat) : ℝ)) * (((2 : Nat) : ℝ) / ((3 : Nat) : ℝ))) * c.SW) * c.SW)) (d0 : ((msq (plus (backward (p 3)) (p 1)) - c.mass .u ^ 2 : ℝ) : ℂ) = N.c 0) (n0 : N.c 0 ≠ 0) (d1 : ((msq (plus (backward (p 3)) (p 0)) - c.mass .u ^ 2 : ℝ) : ℂ) = N.c 1) (n1 : N.c 1 ≠ 0) {z0 z1 z2 z3 : Pair} (b1 : Bold (p 1) c.MZ z1) (b2 : Bold (p 2) (c.mass .u) z2) (b3 : Bold (p 3) (c.mass .u) z3) (l0 : Light (p 0) z0) (e02 : mb z0.2 (p 2) z0.1 = -N.c 0) (e03 : mb z0.2 (p 3) z0.1 = -N.c 1) (q1 : msq (p 1) = c.MZ ^ 2) (q2 : msq (p 2) = (c.mass .u) ^ 2) (q3 : msq (p 3) = (c.mass .u) ^ 2) (ρ0 : V2) :
    gZuu.formP N p z0 z1 z1 z2 z3 * ab ρ0 z0.1 = ((√2 : ℝ) * ((1 : ℂ) * ((√2 / c.MZ : ℝ) : ℂ))) * gZuu.react.bare c p 2 3 0 1 z2 z3 (pv ρ0 z0.2) (pv z1.1 z1.2) := by
  rw [gZuu.react.bare_parts c p (i := 2) (j := 3) (a := 0) (b := 1) (x := .gluon) (y := .z) (k := (p 0)) (k' := (p 1)) (fun _ => rfl) (fun _ => rfl) (f := .u) (g := .u) rfl rfl (l := (backward (p 3))) rfl (e := 1) (e' := -1) (if_neg Bool.false_ne_true) (if_pos rfl)]
  rw [compton_vv (f := .u) (x := .u) (g := .u) (h := (rfl : Spec.after .gluon Flavour.u = some Flavour.u)) (h' := (rfl : Spec.after .z Flavour.u = some Flavour.u)) (ha := by simp) (hb := by simp)]
  rw [compton_vv (f := .u) (x := .u) (g := .u) (h := (rfl : Spec.after .z Flavour.u = some Flavour.u)) (h' := (rfl : Spec.after .gluon Flavour.u = some Flavour.u)) (ha := by simp) (hb := by simp)]
  rw [annihilation_none c _ _ (by rfl) (by simp), star_zero, add_zero, gZuu.formP]
  simp only [d0, d1, lineV_pv, lineV_four, contract_four_pv, contract_pv, mb_plus, mb_backward]
  have i0 := chain_square z0.1 z2.1 z0.2 (p 2) (p 3) z0.2
  have i1 := mb_schouten_left z0.2 z1.2 z3.2 (p 1) z2.1
  have i2 := mb_schouten_right z0.2 (p 2) z0.1 z1.1 ρ0
  have i3 := chain_square z0.1 z1.1 z0.2 (p 2) (p 3) z0.2
  have i4 := ab_schouten z1.1 z2.1 ρ0 z0.1
  have i5 := mb_schouten_left z0.2 z1.2 z3.2 (p 2) z1.1
  have i6 := ab_schouten z2.1 z3.1 ρ0 z1.1
  have i7 := sb_schouten z1.2 z2.2 z3.2 z0.2
  have i8 := mb_schouten_right z1.2 (p 2) z0.1 z1.1 z2.1
  have i9 := mb_schouten_right z0.2 (p 2) z0.1 z2.1 ρ0
  have i10 := ab_schouten z1.1 z3.1 ρ0 z0.1
  have i11 := mb_schouten_right z0.2 (p 1) z0.1 z1.1 ρ0
  have i12 := chain_square z0.1 z3.1 z0.2 (p 2) (p 3) z0.2
  have i13 := mb_schouten_right z1.2 (p 2) z0.1 z2.1 ρ0
  have i14 := mb_schouten_right z0.2 (p 2) z1.1 z2.1 ρ0
  have i15 := mb_schouten_right z1.2 (p 2) z0.1 z1.1 ρ0
  have i16 := mb_schouten_right z0.2 (p 2) z0.1 z1.1 z2.1
  have i17 := mb_schouten_right z1.2 (p 2) z0.1 z3.1 ρ0
  have i18 := mb_schouten_right z0.2 (p 2) z0.1 z1.1 z3.1
  have i19 := mb_schouten_right z0.2 (p 1) z0.1 z1.1 z3.1
  have i20 := mb_schouten_right z0.2 (p 1) z1.1 z3.1 ρ0
  have i21 := mb_schouten_left z0.2 z1.2 z2.2 (p 1) z3.1
  have i22 := mb_schouten_right z0.2 (p 2) z1.1 z3.1 ρ0
  have i23 := mb_schouten_right z1.2 (p 2) z0.1 z1.1 z3.1
  have i24 := mb_schouten_right z0.2 (p 2) z0.1 z3.1 ρ0
  have i25 := mb_schouten_right z0.2 (p 1) z0.1 z3.1 ρ0
  have i26 := mb_schouten_left z0.2 z1.2 z2.2 (p 2) z1.1
  simp only [l0.mb_eq, b1.mb_left, b1.mb_right, b2.mb_left, b2.mb_right, b3.mb_left, b3.mb_right, e02, e03, mb_one hb z0.2 z0.1, mb_three hb z0.2 z1.1, mb_three hb z0.2 z2.1, mb_two hb z0.2 z3.1, mb_three hb z0.2 ρ0, mb_three hb z1.2 z0.1, mb_three hb z1.2 z1.1, mb_three hb z1.2 z2.1, mb_two hb z1.2 z3.1, mb_three hb z1.2 ρ0, mb_three hb z2.2 z0.1, mb_three hb z2.2 z1.1, mb_three hb z2.2 z2.1, mb_one hb z2.2 z3.1, mb_three hb z2.2 ρ0, mb_two hb z3.2 z0.1, mb_two hb z3.2 z1.1, mb_one hb z3.2 z2.1, mb_two hb z3.2 z3.1, mb_two hb z3.2 ρ0, ab_self, sb_self] at i0 i1 i2 i3 i4 i5 i6 i7 i8 i9 i10 i11 i12 i13 i14 i15 i16 i17 i18 i19 i20 i21 i22 i23 i24 i25 i26 ⊢
  simp only [ab_swap z0.1 z1.1, ab_swap z0.1 z2.1, ab_swap z0.1 z3.1, ab_swap z0.1 ρ0, ab_swap z1.1 z2.1, ab_swap z1.1 z3.1, ab_swap z1.1 ρ0, ab_swap z2.1 z3.1, ab_swap z2.1 ρ0, ab_swap z3.1 ρ0, sb_swap z0.2 z1.2, sb_swap z0.2 z2.2, sb_swap z0.2 z3.2, sb_swap z1.2 z2.2, sb_swap z1.2 z3.2, sb_swap z2.2 z3.2] at i0 i1 i2 i3 i4 i5 i6 i7 i8 i9 i10 i11 i12 i13 i14 i15 i16 i17 i18 i19 i20 i21 i22 i23 i24 i25 i26 ⊢
  simp only [r9, r11, r12, Constants.hL, Constants.hR, Constants.gL, Constants.gR, Constants.yuk, Constants.invVev, Flavour.charge_u, Flavour.isospin_u, ← c.mz]
  have xMW : (c.MW : ℂ) ≠ 0 := by exact_mod_cast hc.MW
  have xSW : (c.SW : ℂ) ≠ 0 := by exact_mod_cast hc.SW
  have xCW : (c.CW : ℂ) ≠ 0 := by exact_mod_cast hc.CW
  have x2 : ((√2 : ℝ) : ℂ) ≠ 0 := by exact_mod_cast (Real.sqrt_pos.2 two_pos).ne'
  have x22 : ((√2 : ℝ) : ℂ) ^ 2 = 2 := by rw [← Complex.ofReal_pow, Real.sq_sqrt two_pos.le]; norm_num
  have x23 : ((√2 : ℝ) : ℂ) ^ 3 = 2 * ((√2 : ℝ) : ℂ) := by rw [← x22]; ring
  have x24 : ((√2 : ℝ) : ℂ) ^ 4 = 4 := by linear_combination (((√2 : ℝ) : ℂ) ^ 2 + 2) * x22
  try simp only [← c.mz] at i0 i1 i2 i3 i4 i5 i6 i7 i8 i9 i10 i11 i12 i13 i14 i15 i16 i17 i18 i19 i20 i21 i22 i23 i24 i25 i26
  push_cast at i0 i1 i2 i3 i4 i5 i6 i7 i8 i9 i10 i11 i12 i13 i14 i15 i16 i17 i18 i19 i20 i21 i22 i23 i24 i25 i26 ⊢
  simp only [div_eq_mul_inv, mul_inv, inv_inv] at i0 i1 i2 i3 i4 i5 i6 i7 i8 i9 i10 i11 i12 i13 i14 i15 i16 i17 i18 i19 i20 i21 i22 i23 i24 i25 i26 ⊢
  have y0 := mul_inv_cancel₀ n0
  have y1 := mul_inv_cancel₀ n1
  have yCW := mul_inv_cancel₀ xCW
  have yMW := mul_inv_cancel₀ xMW
  have ySW := mul_inv_cancel₀ xSW
  linear_combination ((((4) * ((c.SW : ℂ)) ^ 2 * ((c.e : ℂ)) * ((c.gs : ℂ)) * (ab z1.1 ρ0) * (sb z1.2 z3.2)) * i0 + ((4) * ((c.SW : ℂ)) ^ 2 * ((c.e : ℂ)) * ((c.gs : ℂ)) * (N.c 0) * (ab z1.1 ρ0)) * i1 + ((-4) * ((c.MW : ℂ)) * ((c.SW : ℂ)) ^ 2 * ((c.e : ℂ)) * ((c.gs : ℂ)) * ((c.CW : ℂ)⁻¹) * (ab z1.1 z3.1) * (sb z0.2 z2.2) + (3) * ((c.MW : ℂ)) * ((c.e : ℂ)) * ((c.gs : ℂ)) * ((c.CW : ℂ)⁻¹) * (ab z1.1 z3.1) * (sb z0.2 z2.2) + (4) * ((c.SW : ℂ)) ^ 2 * ((c.e : ℂ)) * ((c.gs : ℂ)) * ((c.mass .u : ℂ)) * (sb z0.2 z1.2) * (sb z2.2 z3.2) + (-8) * ((c.SW : ℂ)) ^ 2 * ((c.e : ℂ)) * ((c.gs : ℂ)) * ((c.mass .u : ℂ)) * (sb z0.2 z2.2) * (sb z1.2 z3.2) + (4) * ((c.SW : ℂ)) ^ 2 * ((c.e : ℂ)) * ((c.gs : ℂ)) * (ab z0.1 z3.1) * (sb z0.2 z1.2) * (sb z0.2 z2.2) + (3) * ((c.e : ℂ)) * ((c.gs : ℂ)) * ((c.mass .u : ℂ)) * (sb z0.2 z2.2) * (sb z1.2 z3.2) + (-3) * ((c.e : ℂ)) * ((c.gs : ℂ)) * (ab z0.1 z3.1) * (sb z0.2 z1.2) * (sb z0.2 z2.2)) * i2 + ((-4) * ((c.SW : ℂ)) ^ 2 * ((c.e : ℂ)) * ((c.gs : ℂ)) * (ab z2.1 ρ0) * (sb z1.2 z3.2) + (-4) * ((c.SW : ℂ)) ^ 2 * ((c.e : ℂ)) * ((c.gs : ℂ)) * (ab z3.1 ρ0) * (sb z1.2 z2.2) + (3) * ((c.e : ℂ)) * ((c.gs : ℂ)) * (ab z3.1 ρ0) * (sb z1.2 z2.2)) * i3 + ((4) * ((c.SW : ℂ)) ^ 2 * ((c.e : ℂ)) * ((c.gs : ℂ)) * (N.c 0) * (sb z0.2 z1.2) * (sb z0.2 z3.2) + (4) * ((c.SW : ℂ)) ^ 2 * ((c.e : ℂ)) * ((c.gs : ℂ)) * ((mb z0.2 (p 2) (slashLower (p 3) *ᵥ z0.2))) * (sb z1.2 z3.2)) * i4 + ((4) * ((c.SW : ℂ)) ^ 2 * ((c.e : ℂ)) * ((c.gs : ℂ)) * (N.c 0) * (ab z2.1 ρ0)) * i5 + ((4) * ((c.SW : ℂ)) ^ 2 * ((c.e : ℂ)) * ((c.gs : ℂ)) * ((c.mass .u : ℂ)) * (N.c 0) * (sb z0.2 z1.2) + (4) * ((c.SW : ℂ)) ^ 2 * ((c.e : ℂ)) * ((c.gs : ℂ)) * ((c.mass .u : ℂ)) * (N.c 1) * (sb z0.2 z1.2) + (-3) * ((c.e : ℂ)) * ((c.gs : ℂ)) * ((c.mass .u : ℂ)) * (N.c 1) * (sb z0.2 z1.2)) * i6 + ((-4) * ((c.SW : ℂ)) ^ 2 * ((c.e : ℂ)) * ((c.gs : ℂ)) * ((c.mass .u : ℂ)) * (N.c 1) * (ab z1.1 ρ0) + (-4) * ((c.SW : ℂ)) ^ 2 * ((c.e : ℂ)) * ((c.gs : ℂ)) * ((c.mass .u : ℂ)) * (ab z0.1 z1.1) * (mb z0.2 (p 2) ρ0) + (4) * ((c.SW : ℂ)) ^ 2 * ((c.e : ℂ)) * ((c.gs : ℂ)) * ((c.mass .u : ℂ)) * (ab z0.1 ρ0) * (mb z0.2 (p 2) z1.1) + (3) * ((c.e : ℂ)) * ((c.gs : ℂ)) * ((c.mass .u : ℂ)) * (N.c 1) * (ab z1.1 ρ0)) * i7 + ((-4) * ((c.SW : ℂ)) ^ 2 * ((c.e : ℂ)) * ((c.gs : ℂ)) * (mb z0.2 (p 2) ρ0) * (sb z0.2 z3.2)) * i8 + ((-4) * ((c.SW : ℂ)) ^ 2 * ((c.e : ℂ)) * ((c.gs : ℂ)) * (mb z1.2 (p 2) z1.1) * (sb z0.2 z3.2)) * i9 + ((4) * ((c.SW : ℂ)) ^ 2 * ((c.e : ℂ)) * ((c.gs : ℂ)) * ((mb z0.2 (p 2) (slashLower (p 3) *ᵥ z0.2))) * (sb z1.2 z2.2) + (-3) * ((c.e : ℂ)) * ((c.gs : ℂ)) * ((mb z0.2 (p 2) (slashLower (p 3) *ᵥ z0.2))) * (sb z1.2 z2.2)) * i10 + ((4) * ((c.MW : ℂ)) * ((c.SW : ℂ)) ^ 2 * ((c.e : ℂ)) * ((c.gs : ℂ)) * ((c.CW : ℂ)⁻¹) * (ab z1.1 z3.1) * (sb z0.2 z2.2) + (-3) * ((c.MW : ℂ)) * ((c.e : ℂ)) * ((c.gs : ℂ)) * ((c.CW : ℂ)⁻¹) * (ab z1.1 z3.1) * (sb z0.2 z2.2) + (4) * ((c.SW : ℂ)) ^ 2 * ((c.e : ℂ)) * ((c.gs : ℂ)) * ((c.mass .u : ℂ)) * (sb z0.2 z2.2) * (sb z1.2 z3.2) + (-4) * ((c.SW : ℂ)) ^ 2 * ((c.e : ℂ)) * ((c.gs : ℂ)) * (ab z0.1 z3.1) * (sb z0.2 z1.2) * (sb z0.2 z2.2) + (-3) * ((c.e : ℂ)) * ((c.gs : ℂ)) * ((c.mass .u : ℂ)) * (sb z0.2 z2.2) * (sb z1.2 z3.2) + (3) * ((c.e : ℂ)) * ((c.gs : ℂ)) * (ab z0.1 z3.1) * (sb z0.2 z1.2) * (sb z0.2 z2.2)) * i11 + ((4) * ((c.SW : ℂ)) ^ 2 * ((c.e : ℂ)) * ((c.gs : ℂ)) * (ab z1.1 ρ0) * (sb z1.2 z2.2) + (-3) * ((c.e : ℂ)) * ((c.gs : ℂ)) * (ab z1.1 ρ0) * (sb z1.2 z2.2)) * i12 + ((-4) * ((c.SW : ℂ)) ^ 2 * ((c.e : ℂ)) * ((c.gs : ℂ)) * (mb z0.2 (p 2) z1.1) * (sb z0.2 z3.2)) * i13 + ((4) * ((c.SW : ℂ)) ^ 2 * ((c.e : ℂ)) * ((c.gs : ℂ)) * (mb z1.2 (p 2) z0.1) * (sb z0.2 z3.2)) * i14 + ((-8) * ((c.SW : ℂ)) ^ 2 * ((c.e : ℂ)) * ((c.gs : ℂ)) * ((c.mass .u : ℂ)) * (sb z0.2 z2.2) * (sb z0.2 z3.2) + (3) * ((c.e : ℂ)) * ((c.gs : ℂ)) * ((c.mass .u : ℂ)) * (sb z0.2 z2.2) * (sb z0.2 z3.2)) * i15 + ((-4) * ((c.SW : ℂ)) ^ 2 * ((c.e : ℂ)) * ((c.gs : ℂ)) * (mb z1.2 (p 2) ρ0) * (sb z0.2 z3.2)) * i16 + ((4) * ((c.MW : ℂ)) * ((c.SW : ℂ)) ^ 2 * ((c.e : ℂ)) * ((c.gs : ℂ)) * ((c.CW : ℂ)⁻¹) * (sb z0.2 z1.2) * (sb z0.2 z2.2) + (-3) * ((c.MW : ℂ)) * ((c.e : ℂ)) * ((c.gs : ℂ)) * ((c.CW : ℂ)⁻¹) * (sb z0.2 z1.2) * (sb z0.2 z2.2) + (4) * ((c.SW : ℂ)) ^ 2 * ((c.e : ℂ)) * ((c.gs : ℂ)) * (mb z0.2 (p 2) z1.1) * (sb z0.2 z2.2) + (-3) * ((c.e : ℂ)) * ((c.gs : ℂ)) * (mb z0.2 (p 2) z1.1) * (sb z0.2 z2.2)) * i17 + ((4) * ((c.SW : ℂ)) ^ 2 * ((c.e : ℂ)) * ((c.gs : ℂ)) * (mb z1.2 (p 2) ρ0) * (sb z0.2 z2.2) + (-3) * ((c.e : ℂ)) * ((c.gs : ℂ)) * (mb z1.2 (p 2) ρ0) * (sb z0.2 z2.2)) * i18 + ((-4) * ((c.SW : ℂ)) ^ 2 * ((c.e : ℂ)) * ((c.gs : ℂ)) * (mb z1.2 (p 2) ρ0) * (sb z0.2 z2.2) + (3) * ((c.e : ℂ)) * ((c.gs : ℂ)) * (mb z1.2 (p 2) ρ0) * (sb z0.2 z2.2)) * i19 + ((4) * ((c.SW : ℂ)) ^ 2 * ((c.e : ℂ)) * ((c.gs : ℂ)) * (mb z1.2 (p 2) z0.1) * (sb z0.2 z2.2) + (-3) * ((c.e : ℂ)) * ((c.gs : ℂ)) * (mb z1.2 (p 2) z0.1) * (sb z0.2 z2.2)) * i20 + ((-4) * ((c.SW : ℂ)) ^ 2 * ((c.e : ℂ)) * ((c.gs : ℂ)) * (N.c 1) * (ab z1.1 ρ0) + (3) * ((c.e : ℂ)) * ((c.gs : ℂ)) * (N.c 1) * (ab z1.1 ρ0)) * i21 + ((-4) * ((c.SW : ℂ)) ^ 2 * ((c.e : ℂ)) * ((c.gs : ℂ)) * (mb z1.2 (p 2) z0.1) * (sb z0.2 z2.2) + (3) * ((c.e : ℂ)) * ((c.gs : ℂ)) * (mb z1.2 (p 2) z0.1) * (sb z0.2 z2.2)) * i22 + ((-4) * ((c.SW : ℂ)) ^ 2 * ((c.e : ℂ)) * ((c.gs : ℂ)) * (mb z0.2 (p 1) ρ0) * (sb z0.2 z2.2) + (4) * ((c.SW : ℂ)) ^ 2 * ((c.e : ℂ)) * ((c.gs : ℂ)) * (mb z0.2 (p 2) ρ0) * (sb z0.2 z2.2) + (3) * ((c.e : ℂ)) * ((c.gs : ℂ)) * (mb z0.2 (p 1) ρ0) * (sb z0.2 z2.2) + (-3) * ((c.e : ℂ)) * ((c.gs : ℂ)) * (mb z0.2 (p 2) ρ0) * (sb z0.2 z2.2)) * i23 + ((4) * ((c.SW : ℂ)) ^ 2 * ((c.e : ℂ)) * ((c.gs : ℂ)) * (mb z1.2 (p 2) z1.1) * (sb z0.2 z2.2) + (-3) * ((c.e : ℂ)) * ((c.gs : ℂ)) * (mb z1.2 (p 2) z1.1) * (sb z0.2 z2.2)) * i24 + ((-4) * ((c.SW : ℂ)) ^ 2 * ((c.e : ℂ)) * ((c.gs : ℂ)) * (mb z1.2 (p 2) z1.1) * (sb z0.2 z2.2) + (3) * ((c.e : ℂ)) * ((c.gs : ℂ)) * (mb z1.2 (p 2) z1.1) * (sb z0.2 z2.2)) * i25 + ((4) * ((c.SW : ℂ)) ^ 2 * ((c.e : ℂ)) * ((c.gs : ℂ)) * (N.c 1) * (ab z3.1 ρ0) + (-3) * ((c.e : ℂ)) * ((c.gs : ℂ)) * (N.c 1) * (ab z3.1 ρ0)) * i26)) * ((1) * ((c.CW : ℂ)) * ((c.CW : ℂ)⁻¹) * ((c.MW : ℂ)⁻¹) * ((c.SW : ℂ)⁻¹) * ((N.c 0)⁻¹) * ((N.c 1)⁻¹) / (3)) + ((4) * ((c.CW : ℂ)) * ((c.MW : ℂ)) * ((c.SW : ℂ)) ^ 2 * ((c.e : ℂ)) * ((c.gs : ℂ)) * ((c.CW : ℂ)⁻¹) ^ 2 * ((c.MW : ℂ)⁻¹) * ((c.SW : ℂ)⁻¹) * ((N.c 1)⁻¹) * (ab z1.1 z2.1) * (ab z1.1 ρ0) * (sb z0.2 z3.2) / (3) + (4) * ((c.CW : ℂ)) * ((c.MW : ℂ)) * ((c.SW : ℂ)) ^ 2 * ((c.e : ℂ)) * ((c.gs : ℂ)) * ((c.CW : ℂ)⁻¹) ^ 2 * ((c.MW : ℂ)⁻¹) * ((c.SW : ℂ)⁻¹) * ((N.c 1)⁻¹) * (ab z3.1 ρ0) * (sb z0.2 z1.2) * (sb z1.2 z2.2) / (3) + (-1) * ((c.CW : ℂ)) * ((c.MW : ℂ)) * ((c.e : ℂ)) * ((c.gs : ℂ)) * ((c.CW : ℂ)⁻¹) ^ 2 * ((c.MW : ℂ)⁻¹) * ((c.SW : ℂ)⁻¹) * ((N.c 1)⁻¹) * (ab z3.1 ρ0) * (sb z0.2 z1.2) * (sb z1.2 z2.2) + (-4) * ((c.CW : ℂ)) * ((c.SW : ℂ)) ^ 2 * ((c.e : ℂ)) * ((c.gs : ℂ)) * ((c.CW : ℂ)⁻¹) * ((c.MW : ℂ)⁻¹) * ((c.SW : ℂ)⁻¹) * ((c.mass .u : ℂ)) * ((N.c 1)⁻¹) * (ab z1.1 z2.1) * (ab z3.1 ρ0) * (sb z0.2 z1.2) / (3) + (-4) * ((c.CW : ℂ)) * ((c.SW : ℂ)) ^ 2 * ((c.e : ℂ)) * ((c.gs : ℂ)) * ((c.CW : ℂ)⁻¹) * ((c.MW : ℂ)⁻¹) * ((c.SW : ℂ)⁻¹) * ((c.mass .u : ℂ)) * ((N.c 1)⁻¹) * (ab z1.1 ρ0) * (sb z0.2 z3.2) * (sb z1.2 z2.2) / (3) + (-4) * ((c.CW : ℂ)) * ((c.SW : ℂ)) ^ 2 * ((c.e : ℂ)) * ((c.gs : ℂ)) * ((c.CW : ℂ)⁻¹) * ((c.MW : ℂ)⁻¹) * ((c.SW : ℂ)⁻¹) * ((N.c 1)⁻¹) * (ab z0.1 ρ0) * (ab z1.1 z2.1) * (sb z0.2 z1.2) * (sb z0.2 z3.2) / (3) + (-4) * ((c.CW : ℂ)) * ((c.SW : ℂ)) ^ 2 * ((c.e : ℂ)) * ((c.gs : ℂ)) * ((c.CW : ℂ)⁻¹) * ((c.MW : ℂ)⁻¹) * ((c.SW : ℂ)⁻¹) * ((N.c 1)⁻¹) * (ab z1.1 z2.1) * (mb z1.2 (p 2) ρ0) * (sb z0.2 z3.2) / (3) + (4) * ((c.CW : ℂ)) * ((c.SW : ℂ)) ^ 2 * ((c.e : ℂ)) * ((c.gs : ℂ)) * ((c.CW : ℂ)⁻¹) * ((c.MW : ℂ)⁻¹) * ((c.SW : ℂ)⁻¹) * ((N.c 1)⁻¹) * (ab z3.1 ρ0) * (mb z0.2 (p 2) z1.1) * (sb z1.2 z2.2) / (3) + (1) * ((c.CW : ℂ)) * ((c.e : ℂ)) * ((c.gs : ℂ)) * ((c.CW : ℂ)⁻¹) * ((c.MW : ℂ)⁻¹) * ((c.SW : ℂ)⁻¹) * ((c.mass .u : ℂ)) * ((N.c 1)⁻¹) * (ab z1.1 ρ0) * (sb z0.2 z3.2) * (sb z1.2 z2.2) + (-1) * ((c.CW : ℂ)) * ((c.e : ℂ)) * ((c.gs : ℂ)) * ((c.CW : ℂ)⁻¹) * ((c.MW : ℂ)⁻¹) * ((c.SW : ℂ)⁻¹) * ((N.c 1)⁻¹) * (ab z3.1 ρ0) * (mb z0.2 (p 2) z1.1) * (sb z1.2 z2.2)) * y0 + ((4) * ((c.CW : ℂ)) * ((c.SW : ℂ)) ^ 2 * ((c.e : ℂ)) * ((c.gs : ℂ)) * ((c.CW : ℂ)⁻¹) * ((c.MW : ℂ)⁻¹) * ((c.SW : ℂ)⁻¹) * ((c.mass .u : ℂ)) * ((N.c 0)⁻¹) * (ab z1.1 z3.1) * (ab z2.1 ρ0) * (sb z0.2 z1.2) / (3) + (4) * ((c.CW : ℂ)) * ((c.SW : ℂ)) ^ 2 * ((c.e : ℂ)) * ((c.gs : ℂ)) * ((c.CW : ℂ)⁻¹) * ((c.MW : ℂ)⁻¹) * ((c.SW : ℂ)⁻¹) * ((c.mass .u : ℂ)) * ((N.c 0)⁻¹) * (ab z1.1 ρ0) * (sb z0.2 z2.2) * (sb z1.2 z3.2) / (3) + (-4) * ((c.CW : ℂ)) * ((c.SW : ℂ)) ^ 2 * ((c.e : ℂ)) * ((c.gs : ℂ)) * ((c.CW : ℂ)⁻¹) * ((c.MW : ℂ)⁻¹) * ((c.SW : ℂ)⁻¹) * ((N.c 0)⁻¹) * (ab z1.1 z3.1) * (mb z1.2 (p 2) ρ0) * (sb z0.2 z2.2) / (3) + (4) * ((c.CW : ℂ)) * ((c.SW : ℂ)) ^ 2 * ((c.e : ℂ)) * ((c.gs : ℂ)) * ((c.CW : ℂ)⁻¹) * ((c.MW : ℂ)⁻¹) * ((c.SW : ℂ)⁻¹) * ((N.c 0)⁻¹) * (ab z2.1 ρ0) * (mb z0.2 (p 2) z1.1) * (sb z1.2 z3.2) / (3) + (-1) * ((c.CW : ℂ)) * ((c.e : ℂ)) * ((c.gs : ℂ)) * ((c.CW : ℂ)⁻¹) * ((c.MW : ℂ)⁻¹) * ((c.SW : ℂ)⁻¹) * ((c.mass .u : ℂ)) * ((N.c 0)⁻¹) * (ab z1.1 z3.1) * (ab z2.1 ρ0) * (sb z0.2 z1.2) + (1) * ((c.CW : ℂ)) * ((c.e : ℂ)) * ((c.gs : ℂ)) * ((c.CW : ℂ)⁻¹) * ((c.MW : ℂ)⁻¹) * ((c.SW : ℂ)⁻¹) * ((N.c 0)⁻¹) * (ab z1.1 z3.1) * (mb z1.2 (p 2) ρ0) * (sb z0.2 z2.2)) * y1 + ((-2) * ((c.MW : ℂ)) * (((√2 : ℝ) : ℂ)) ^ 2 * ((c.SW : ℂ)) ^ 2 * ((c.e : ℂ)) * ((c.gs : ℂ)) * ((c.CW : ℂ)⁻¹) * ((c.MW : ℂ)⁻¹) * ((c.SW : ℂ)⁻¹) * ((N.c 1)⁻¹) * (ab z1.1 z2.1) * (ab z1.1 ρ0) * (sb z0.2 z3.2) / (3) + (-2) * ((c.MW : ℂ)) * (((√2 : ℝ) : ℂ)) ^ 2 * ((c.SW : ℂ)) ^ 2 * ((c.e : ℂ)) * ((c.gs : ℂ)) * ((c.CW : ℂ)⁻¹) * ((c.MW : ℂ)⁻¹) * ((c.SW : ℂ)⁻¹) * ((N.c 1)⁻¹) * (ab z3.1 ρ0) * (sb z0.2 z1.2) * (sb z1.2 z2.2) / (3) + (1) * ((c.MW : ℂ)) * (((√2 : ℝ) : ℂ)) ^ 2 * ((c.e : ℂ)) * ((c.gs : ℂ)) * ((c.CW : ℂ)⁻¹) * ((c.MW : ℂ)⁻¹) * ((c.SW : ℂ)⁻¹) * ((N.c 1)⁻¹) * (ab z3.1 ρ0) * (sb z0.2 z1.2) * (sb z1.2 z2.2) / (2) + (4) * ((c.MW : ℂ)) * ((c.SW : ℂ)) ^ 2 * ((c.e : ℂ)) * ((c.gs : ℂ)) * ((c.CW : ℂ)⁻¹) * ((c.MW : ℂ)⁻¹) * ((c.SW : ℂ)⁻¹) * ((N.c 1)⁻¹) * (ab z1.1 z2.1) * (ab z1.1 ρ0) * (sb z0.2 z3.2) / (3) + (4) * ((c.MW : ℂ)) * ((c.SW : ℂ)) ^ 2 * ((c.e : ℂ)) * ((c.gs : ℂ)) * ((c.CW : ℂ)⁻¹) * ((c.MW : ℂ)⁻¹) * ((c.SW : ℂ)⁻¹) * ((N.c 1)⁻¹) * (ab z3.1 ρ0) * (sb z0.2 z1.2) * (sb z1.2 z2.2) / (3) + (-1) * ((c.MW : ℂ)) * ((c.e : ℂ)) * ((c.gs : ℂ)) * ((c.CW : ℂ)⁻¹) * ((c.MW : ℂ)⁻¹) * ((c.SW : ℂ)⁻¹) * ((N.c 1)⁻¹) * (ab z3.1 ρ0) * (sb z0.2 z1.2) * (sb z1.2 z2.2) + (-2) * (((√2 : ℝ) : ℂ)) ^ 2 * ((c.SW : ℂ)) ^ 2 * ((c.e : ℂ)) * ((c.gs : ℂ)) * ((c.MW : ℂ)⁻¹) * ((c.SW : ℂ)⁻¹) * ((c.mass .u : ℂ)) * ((N.c 0)⁻¹) * (ab z1.1 z3.1) * (ab z2.1 ρ0) * (sb z0.2 z1.2) / (3) + (-2) * (((√2 : ℝ) : ℂ)) ^ 2 * ((c.SW : ℂ)) ^ 2 * ((c.e : ℂ)) * ((c.gs : ℂ)) * ((c.MW : ℂ)⁻¹) * ((c.SW : ℂ)⁻¹) * ((c.mass .u : ℂ)) * ((N.c 0)⁻¹) * (ab z1.1 ρ0) * (sb z0.2 z2.2) * (sb z1.2 z3.2) / (3) + (2) * (((√2 : ℝ) : ℂ)) ^ 2 * ((c.SW : ℂ)) ^ 2 * ((c.e : ℂ)) * ((c.gs : ℂ)) * ((c.MW : ℂ)⁻¹) * ((c.SW : ℂ)⁻¹) * ((c.mass .u : ℂ)) * ((N.c 1)⁻¹) * (ab z1.1 z2.1) * (ab z3.1 ρ0) * (sb z0.2 z1.2) / (3) + (2) * (((√2 : ℝ) : ℂ)) ^ 2 * ((c.SW : ℂ)) ^ 2 * ((c.e : ℂ)) * ((c.gs : ℂ)) * ((c.MW : ℂ)⁻¹) * ((c.SW : ℂ)⁻¹) * ((c.mass .u : ℂ)) * ((N.c 1)⁻¹) * (ab z1.1 ρ0) * (sb z0.2 z3.2) * (sb z1.2 z2.2) / (3) + (2) * (((√2 : ℝ) : ℂ)) ^ 2 * ((c.SW : ℂ)) ^ 2 * ((c.e : ℂ)) * ((c.gs : ℂ)) * ((c.MW : ℂ)⁻¹) * ((c.SW : ℂ)⁻¹) * ((N.c 0)⁻¹) * (ab z0.1 ρ0) * (ab z1.1 z3.1) * (sb z0.2 z1.2) * (sb z0.2 z2.2) / (3) + (2) * (((√2 : ℝ) : ℂ)) ^ 2 * ((c.SW : ℂ)) ^ 2 * ((c.e : ℂ)) * ((c.gs : ℂ)) * ((c.MW : ℂ)⁻¹) * ((c.SW : ℂ)⁻¹) * ((N.c 0)⁻¹) * (ab z1.1 z3.1) * (mb z1.2 (p 2) ρ0) * (sb z0.2 z2.2) / (3) + (-2) * (((√2 : ℝ) : ℂ)) ^ 2 * ((c.SW : ℂ)) ^ 2 * ((c.e : ℂ)) * ((c.gs : ℂ)) * ((c.MW : ℂ)⁻¹) * ((c.SW : ℂ)⁻¹) * ((N.c 0)⁻¹) * (ab z2.1 ρ0) * (mb z0.2 (p 2) z1.1) * (sb z1.2 z3.2) / (3) + (2) * (((√2 : ℝ) : ℂ)) ^ 2 * ((c.SW : ℂ)) ^ 2 * ((c.e : ℂ)) * ((c.gs : ℂ)) * ((c.MW : ℂ)⁻¹) * ((c.SW : ℂ)⁻¹) * ((N.c 1)⁻¹) * (ab z1.1 z2.1) * (mb z1.2 (p 2) ρ0) * (sb z0.2 z3.2) / (3) + (-2) * (((√2 : ℝ) : ℂ)) ^ 2 * ((c.SW : ℂ)) ^ 2 * ((c.e : ℂ)) * ((c.gs : ℂ)) * ((c.MW : ℂ)⁻¹) * ((c.SW : ℂ)⁻¹) * ((N.c 1)⁻¹) * (ab z3.1 ρ0) * (mb z0.2 (p 2) z1.1) * (sb z1.2 z2.2) / (3) + (1) * (((√2 : ℝ) : ℂ)) ^ 2 * ((c.e : ℂ)) * ((c.gs : ℂ)) * ((c.MW : ℂ)⁻¹) * ((c.SW : ℂ)⁻¹) * ((c.mass .u : ℂ)) * ((N.c 0)⁻¹) * (ab z1.1 z3.1) * (ab z2.1 ρ0) * (sb z0.2 z1.2) / (2) + (-1) * (((√2 : ℝ) : ℂ)) ^ 2 * ((c.e : ℂ)) * ((c.gs : ℂ)) * ((c.MW : ℂ)⁻¹) * ((c.SW : ℂ)⁻¹) * ((c.mass .u : ℂ)) * ((N.c 1)⁻¹) * (ab z1.1 ρ0) * (sb z0.2 z3.2) * (sb z1.2 z2.2) / (2) + (-1) * (((√2 : ℝ) : ℂ)) ^ 2 * ((c.e : ℂ)) * ((c.gs : ℂ)) * ((c.MW : ℂ)⁻¹) * ((c.SW : ℂ)⁻¹) * ((N.c 0)⁻¹) * (ab z0.1 ρ0) * (ab z1.1 z3.1) * (sb z0.2 z1.2) * (sb z0.2 z2.2) / (2) + (-1) * (((√2 : ℝ) : ℂ)) ^ 2 * ((c.e : ℂ)) * ((c.gs : ℂ)) * ((c.MW : ℂ)⁻¹) * ((c.SW : ℂ)⁻¹) * ((N.c 0)⁻¹) * (ab z1.1 z3.1) * (mb z1.2 (p 2) ρ0) * (sb z0.2 z2.2) / (2) + (1) * (((√2 : ℝ) : ℂ)) ^ 2 * ((c.e : ℂ)) * ((c.gs : ℂ)) * ((c.MW : ℂ)⁻¹) * ((c.SW : ℂ)⁻¹) * ((N.c 1)⁻¹) * (ab z3.1 ρ0) * (mb z0.2 (p 2) z1.1) * (sb z1.2 z2.2) / (2) + (4) * ((c.SW : ℂ)) ^ 2 * ((c.e : ℂ)) * ((c.gs : ℂ)) * ((c.MW : ℂ)⁻¹) * ((c.SW : ℂ)⁻¹) * ((c.mass .u : ℂ)) * ((N.c 0)⁻¹) * (ab z1.1 z3.1) * (ab z2.1 ρ0) * (sb z0.2 z1.2) / (3) + (4) * ((c.SW : ℂ)) ^ 2 * ((c.e : ℂ)) * ((c.gs : ℂ)) * ((c.MW : ℂ)⁻¹) * ((c.SW : ℂ)⁻¹) * ((c.mass .u : ℂ)) * ((N.c 0)⁻¹) * (ab z1.1 ρ0) * (sb z0.2 z2.2) * (sb z1.2 z3.2) / (3) + (-4) * ((c.SW : ℂ)) ^ 2 * ((c.e : ℂ)) * ((c.gs : ℂ)) * ((c.MW : ℂ)⁻¹) * ((c.SW : ℂ)⁻¹) * ((c.mass .u : ℂ)) * ((N.c 1)⁻¹) * (ab z1.1 z2.1) * (ab z3.1 ρ0) * (sb z0.2 z1.2) / (3) + (-4) * ((c.SW : ℂ)) ^ 2 * ((c.e : ℂ)) * ((c.gs : ℂ)) * ((c.MW : ℂ)⁻¹) * ((c.SW : ℂ)⁻¹) * ((c.mass .u : ℂ)) * ((N.c 1)⁻¹) * (ab z1.1 ρ0) * (sb z0.2 z3.2) * (sb z1.2 z2.2) / (3) + (-4) * ((c.SW : ℂ)) ^ 2 * ((c.e : ℂ)) * ((c.gs : ℂ)) * ((c.MW : ℂ)⁻¹) * ((c.SW : ℂ)⁻¹) * ((N.c 0)⁻¹) * ((N.c 1)⁻¹) * (ab z0.1 ρ0) * (ab z1.1 z2.1) * ((mb z0.2 (p 2) (slashLower (p 3) *ᵥ z0.2))) * (sb z1.2 z3.2) / (3) + (-4) * ((c.SW : ℂ)) ^ 2 * ((c.e : ℂ)) * ((c.gs : ℂ)) * ((c.MW : ℂ)⁻¹) * ((c.SW : ℂ)⁻¹) * ((N.c 0)⁻¹) * ((N.c 1)⁻¹) * (ab z0.1 ρ0) * (ab z1.1 z3.1) * ((mb z0.2 (p 2) (slashLower (p 3) *ᵥ z0.2))) * (sb z1.2 z2.2) / (3) + (-4) * ((c.SW : ℂ)) ^ 2 * ((c.e : ℂ)) * ((c.gs : ℂ)) * ((c.MW : ℂ)⁻¹) * ((c.SW : ℂ)⁻¹) * ((N.c 0)⁻¹) * (ab z1.1 z3.1) * (mb z1.2 (p 2) ρ0) * (sb z0.2 z2.2) / (3) + (4) * ((c.SW : ℂ)) ^ 2 * ((c.e : ℂ)) * ((c.gs : ℂ)) * ((c.MW : ℂ)⁻¹) * ((c.SW : ℂ)⁻¹) * ((N.c 0)⁻¹) * (ab z2.1 ρ0) * (mb z0.2 (p 2) z1.1) * (sb z1.2 z3.2) / (3) + (-4) * ((c.SW : ℂ)) ^ 2 * ((c.e : ℂ)) * ((c.gs : ℂ)) * ((c.MW : ℂ)⁻¹) * ((c.SW : ℂ)⁻¹) * ((N.c 1)⁻¹) * (ab z0.1 ρ0) * (ab z1.1 z2.1) * (sb z0.2 z1.2) * (sb z0.2 z3.2) / (3) + (-4) * ((c.SW : ℂ)) ^ 2 * ((c.e : ℂ)) * ((c.gs : ℂ)) * ((c.MW : ℂ)⁻¹) * ((c.SW : ℂ)⁻¹) * ((N.c 1)⁻¹) * (ab z1.1 z2.1) * (mb z1.2 (p 2) ρ0) * (sb z0.2 z3.2) / (3) + (4) * ((c.SW : ℂ)) ^ 2 * ((c.e : ℂ)) * ((c.gs : ℂ)) * ((c.MW : ℂ)⁻¹) * ((c.SW : ℂ)⁻¹) * ((N.c 1)⁻¹) * (ab z3.1 ρ0) * (mb z0.2 (p 2) z1.1) * (sb z1.2 z2.2) / (3) + (-1) * ((c.e : ℂ)) * ((c.gs : ℂ)) * ((c.MW : ℂ)⁻¹) * ((c.SW : ℂ)⁻¹) * ((c.mass .u : ℂ)) * ((N.c 0)⁻¹) * (ab z1.1 z3.1) * (ab z2.1 ρ0) * (sb z0.2 z1.2) + (1) * ((c.e : ℂ)) * ((c.gs : ℂ)) * ((c.MW : ℂ)⁻¹) * ((c.SW : ℂ)⁻¹) * ((c.mass .u : ℂ)) * ((N.c 1)⁻¹) * (ab z1.1 ρ0) * (sb z0.2 z3.2) * (sb z1.2 z2.2) + (1) * ((c.e : ℂ)) * ((c.gs : ℂ)) * ((c.MW : ℂ)⁻¹) * ((c.SW : ℂ)⁻¹) * ((N.c 0)⁻¹) * ((N.c 1)⁻¹) * (ab z0.1 ρ0) * (ab z1.1 z3.1) * ((mb z0.2 (p 2) (slashLower (p 3) *ᵥ z0.2))) * (sb z1.2 z2.2) + (1) * ((c.e : ℂ)) * ((c.gs : ℂ)) * ((c.MW : ℂ)⁻¹) * ((c.SW : ℂ)⁻¹) * ((N.c 0)⁻¹) * (ab z1.1 z3.1) * (mb z1.2 (p 2) ρ0) * (sb z0.2 z2.2) + (-1) * ((c.e : ℂ)) * ((c.gs : ℂ)) * ((c.MW : ℂ)⁻¹) * ((c.SW : ℂ)⁻¹) * ((N.c 1)⁻¹) * (ab z3.1 ρ0) * (mb z0.2 (p 2) z1.1) * (sb z1.2 z2.2)) * yCW + ((-2) * (((√2 : ℝ) : ℂ)) ^ 2 * ((c.SW : ℂ)) ^ 2 * ((c.e : ℂ)) * ((c.gs : ℂ)) * ((c.CW : ℂ)⁻¹) * ((c.SW : ℂ)⁻¹) * ((N.c 1)⁻¹) * (ab z1.1 z2.1) * (ab z1.1 ρ0) * (sb z0.2 z3.2) / (3) + (-2) * (((√2 : ℝ) : ℂ)) ^ 2 * ((c.SW : ℂ)) ^ 2 * ((c.e : ℂ)) * ((c.gs : ℂ)) * ((c.CW : ℂ)⁻¹) * ((c.SW : ℂ)⁻¹) * ((N.c 1)⁻¹) * (ab z3.1 ρ0) * (sb z0.2 z1.2) * (sb z1.2 z2.2) / (3) + (1) * (((√2 : ℝ) : ℂ)) ^ 2 * ((c.e : ℂ)) * ((c.gs : ℂ)) * ((c.CW : ℂ)⁻¹) * ((c.SW : ℂ)⁻¹) * ((N.c 1)⁻¹) * (ab z3.1 ρ0) * (sb z0.2 z1.2) * (sb z1.2 z2.2) / (2) + (4) * ((c.SW : ℂ)) ^ 2 * ((c.e : ℂ)) * ((c.gs : ℂ)) * ((c.CW : ℂ)⁻¹) * ((c.SW : ℂ)⁻¹) * ((N.c 1)⁻¹) * (ab z1.1 z2.1) * (ab z1.1 ρ0) * (sb z0.2 z3.2) / (3) + (4) * ((c.SW : ℂ)) ^ 2 * ((c.e : ℂ)) * ((c.gs : ℂ)) * ((c.CW : ℂ)⁻¹) * ((c.SW : ℂ)⁻¹) * ((N.c 1)⁻¹) * (ab z3.1 ρ0) * (sb z0.2 z1.2) * (sb z1.2 z2.2) / (3) + (-1) * ((c.e : ℂ)) * ((c.gs : ℂ)) * ((c.CW : ℂ)⁻¹) * ((c.SW : ℂ)⁻¹) * ((N.c 1)⁻¹) * (ab z3.1 ρ0) * (sb z0.2 z1.2) * (sb z1.2 z2.2)) * yMW + ((-2) * (((√2 : ℝ) : ℂ)) ^ 2 * ((c.SW : ℂ)) * ((c.e : ℂ)) * ((c.gs : ℂ)) * ((c.CW : ℂ)⁻¹) * ((N.c 1)⁻¹) * (ab z1.1 z2.1) * (ab z1.1 ρ0) * (sb z0.2 z3.2) / (3) + (-2) * (((√2 : ℝ) : ℂ)) ^ 2 * ((c.SW : ℂ)) * ((c.e : ℂ)) * ((c.gs : ℂ)) * ((c.CW : ℂ)⁻¹) * ((N.c 1)⁻¹) * (ab z3.1 ρ0) * (sb z0.2 z1.2) * (sb z1.2 z2.2) / (3) + (-2) * (((√2 : ℝ) : ℂ)) ^ 2 * ((c.SW : ℂ)) * ((c.e : ℂ)) * ((c.gs : ℂ)) * ((c.MW : ℂ)⁻¹) * ((c.mass .u : ℂ)) * ((N.c 0)⁻¹) * (ab z1.1 z3.1) * (ab z2.1 ρ0) * (sb z0.2 z1.2) / (3) + (-2) * (((√2 : ℝ) : ℂ)) ^ 2 * ((c.SW : ℂ)) * ((c.e : ℂ)) * ((c.gs : ℂ)) * ((c.MW : ℂ)⁻¹) * ((c.mass .u : ℂ)) * ((N.c 0)⁻¹) * (ab z1.1 ρ0) * (sb z0.2 z2.2) * (sb z1.2 z3.2) / (3) + (2) * (((√2 : ℝ) : ℂ)) ^ 2 * ((c.SW : ℂ)) * ((c.e : ℂ)) * ((c.gs : ℂ)) * ((c.MW : ℂ)⁻¹) * ((c.mass .u : ℂ)) * ((N.c 1)⁻¹) * (ab z1.1 z2.1) * (ab z3.1 ρ0) * (sb z0.2 z1.2) / (3) + (2) * (((√2 : ℝ) : ℂ)) ^ 2 * ((c.SW : ℂ)) * ((c.e : ℂ)) * ((c.gs : ℂ)) * ((c.MW : ℂ)⁻¹) * ((c.mass .u : ℂ)) * ((N.c 1)⁻¹) * (ab z1.1 ρ0) * (sb z0.2 z3.2) * (sb z1.2 z2.2) / (3) + (2) * (((√2 : ℝ) : ℂ)) ^ 2 * ((c.SW : ℂ)) * ((c.e : ℂ)) * ((c.gs : ℂ)) * ((c.MW : ℂ)⁻¹) * ((N.c 0)⁻¹) * (ab z0.1 ρ0) * (ab z1.1 z3.1) * (sb z0.2 z1.2) * (sb z0.2 z2.2) / (3) + (2) * (((√2 : ℝ) : ℂ)) ^ 2 * ((c.SW : ℂ)) * ((c.e : ℂ)) * ((c.gs : ℂ)) * ((c.MW : ℂ)⁻¹) * ((N.c 0)⁻¹) * (ab z1.1 z3.1) * (mb z1.2 (p 2) ρ0) * (sb z0.2 z2.2) / (3) + (-2) * (((√2 : ℝ) : ℂ)) ^ 2 * ((c.SW : ℂ)) * ((c.e : ℂ)) * ((c.gs : ℂ)) * ((c.MW : ℂ)⁻¹) * ((N.c 0)⁻¹) * (ab z2.1 ρ0) * (mb z0.2 (p 2) z1.1) * (sb z1.2 z3.2) / (3) + (2) * (((√2 : ℝ) : ℂ)) ^ 2 * ((c.SW : ℂ)) * ((c.e : ℂ)) * ((c.gs : ℂ)) * ((c.MW : ℂ)⁻¹) * ((N.c 1)⁻¹) * (ab z1.1 z2.1) * (mb z1.2 (p 2) ρ0) * (sb z0.2 z3.2) / (3) + (-2) * (((√2 : ℝ) : ℂ)) ^ 2 * ((c.SW : ℂ)) * ((c.e : ℂ)) * ((c.gs : ℂ)) * ((c.MW : ℂ)⁻¹) * ((N.c 1)⁻¹) * (ab z3.1 ρ0) * (mb z0.2 (p 2) z1.1) * (sb z1.2 z2.2) / (3) + (4) * ((c.SW : ℂ)) * ((c.e : ℂ)) * ((c.gs : ℂ)) * ((c.CW : ℂ)⁻¹) * ((N.c 1)⁻¹) * (ab z1.1 z2.1) * (ab z1.1 ρ0) * (sb z0.2 z3.2) / (3) + (4) * ((c.SW : ℂ)) * ((c.e : ℂ)) * ((c.gs : ℂ)) * ((c.CW : ℂ)⁻¹) * ((N.c 1)⁻¹) * (ab z3.1 ρ0) * (sb z0.2 z1.2) * (sb z1.2 z2.2) / (3) + (4) * ((c.SW : ℂ)) * ((c.e : ℂ)) * ((c.gs : ℂ)) * ((c.MW : ℂ)⁻¹) * ((c.mass .u : ℂ)) * ((N.c 0)⁻¹) * (ab z1.1 z3.1) * (ab z2.1 ρ0) * (sb z0.2 z1.2) / (3) + (4) * ((c.SW : ℂ)) * ((c.e : ℂ)) * ((c.gs : ℂ)) * ((c.MW : ℂ)⁻¹) * ((c.mass .u : ℂ)) * ((N.c 0)⁻¹) * (ab z1.1 ρ0) * (sb z0.2 z2.2) * (sb z1.2 z3.2) / (3) + (-4) * ((c.SW : ℂ)) * ((c.e : ℂ)) * ((c.gs : ℂ)) * ((c.MW : ℂ)⁻¹) * ((c.mass .u : ℂ)) * ((N.c 1)⁻¹) * (ab z1.1 z2.1) * (ab z3.1 ρ0) * (sb z0.2 z1.2) / (3) + (-4) * ((c.SW : ℂ)) * ((c.e : ℂ)) * ((c.gs : ℂ)) * ((c.MW : ℂ)⁻¹) * ((c.mass .u : ℂ)) * ((N.c 1)⁻¹) * (ab z1.1 ρ0) * (sb z0.2 z3.2) * (sb z1.2 z2.2) / (3) + (-4) * ((c.SW : ℂ)) * ((c.e : ℂ)) * ((c.gs : ℂ)) * ((c.MW : ℂ)⁻¹) * ((N.c 0)⁻¹) * (ab z0.1 ρ0) * (ab z1.1 z3.1) * (sb z0.2 z1.2) * (sb z0.2 z2.2) / (3) + (-4) * ((c.SW : ℂ)) * ((c.e : ℂ)) * ((c.gs : ℂ)) * ((c.MW : ℂ)⁻¹) * ((N.c 0)⁻¹) * (ab z1.1 z3.1) * (mb z1.2 (p 2) ρ0) * (sb z0.2 z2.2) / (3) + (4) * ((c.SW : ℂ)) * ((c.e : ℂ)) * ((c.gs : ℂ)) * ((c.MW : ℂ)⁻¹) * ((N.c 0)⁻¹) * (ab z2.1 ρ0) * (mb z0.2 (p 2) z1.1) * (sb z1.2 z3.2) / (3) + (-4) * ((c.SW : ℂ)) * ((c.e : ℂ)) * ((c.gs : ℂ)) * ((c.MW : ℂ)⁻¹) * ((N.c 1)⁻¹) * (ab z1.1 z2.1) * (mb z1.2 (p 2) ρ0) * (sb z0.2 z3.2) / (3) + (4) * ((c.SW : ℂ)) * ((c.e : ℂ)) * ((c.gs : ℂ)) * ((c.MW : ℂ)⁻¹) * ((N.c 1)⁻¹) * (ab z3.1 ρ0) * (mb z0.2 (p 2) z1.1) * (sb z1.2 z2.2) / (3)) * ySW + ((-2) * ((c.SW : ℂ)) * ((c.e : ℂ)) * ((c.gs : ℂ)) * ((c.CW : ℂ)⁻¹) * ((N.c 1)⁻¹) * (ab z1.1 z2.1) * (ab z1.1 ρ0) * (sb z0.2 z3.2) / (3) + (-2) * ((c.SW : ℂ)) * ((c.e : ℂ)) * ((c.gs : ℂ)) * ((c.CW : ℂ)⁻¹) * ((N.c 1)⁻¹) * (ab z3.1 ρ0) * (sb z0.2 z1.2) * (sb z1.2 z2.2) / (3) + (-2) * ((c.SW : ℂ)) * ((c.e : ℂ)) * ((c.gs : ℂ)) * ((c.MW : ℂ)⁻¹) * ((c.mass .u : ℂ)) * ((N.c 0)⁻¹) * (ab z1.1 z3.1) * (ab z2.1 ρ0) * (sb z0.2 z1.2) / (3) + (-2) * ((c.SW : ℂ)) * ((c.e : ℂ)) * ((c.gs : ℂ)) * ((c.MW : ℂ)⁻¹) * ((c.mass .u : ℂ)) * ((N.c 0)⁻¹) * (ab z1.1 ρ0) * (sb z0.2 z2.2) * (sb z1.2 z3.2) / (3) + (2) * ((c.SW : ℂ)) * ((c.e : ℂ)) * ((c.gs : ℂ)) * ((c.MW : ℂ)⁻¹) * ((c.mass .u : ℂ)) * ((N.c 1)⁻¹) * (ab z1.1 z2.1) * (ab z3.1 ρ0) * (sb z0.2 z1.2) / (3) + (2) * ((c.SW : ℂ)) * ((c.e : ℂ)) * ((c.gs : ℂ)) * ((c.MW : ℂ)⁻¹) * ((c.mass .u : ℂ)) * ((N.c 1)⁻¹) * (ab z1.1 ρ0) * (sb z0.2 z3.2) * (sb z1.2 z2.2) / (3) + (2) * ((c.SW : ℂ)) * ((c.e : ℂ)) * ((c.gs : ℂ)) * ((c.MW : ℂ)⁻¹) * ((N.c 0)⁻¹) * (ab z0.1 ρ0) * (ab z1.1 z3.1) * (sb z0.2 z1.2) * (sb z0.2 z2.2) / (3) + (2) * ((c.SW : ℂ)) * ((c.e : ℂ)) * ((c.gs : ℂ)) * ((c.MW : ℂ)⁻¹) * ((N.c 0)⁻¹) * (ab z1.1 z3.1) * (mb z1.2 (p 2) ρ0) * (sb z0.2 z2.2) / (3) + (-2) * ((c.SW : ℂ)) * ((c.e : ℂ)) * ((c.gs : ℂ)) * ((c.MW : ℂ)⁻¹) * ((N.c 0)⁻¹) * (ab z2.1 ρ0) * (mb z0.2 (p 2) z1.1) * (sb z1.2 z3.2) / (3) + (2) * ((c.SW : ℂ)) * ((c.e : ℂ)) * ((c.gs : ℂ)) * ((c.MW : ℂ)⁻¹) * ((N.c 1)⁻¹) * (ab z1.1 z2.1) * (mb z1.2 (p 2) ρ0) * (sb z0.2 z3.2) / (3) + (-2) * ((c.SW : ℂ)) * ((c.e : ℂ)) * ((c.gs : ℂ)) * ((c.MW : ℂ)⁻¹) * ((N.c 1)⁻¹) * (ab z3.1 ρ0) * (mb z0.2 (p 2) z1.1) * (sb z1.2 z2.2) / (3) + (1) * ((c.e : ℂ)) * ((c.gs : ℂ)) * ((c.CW : ℂ)⁻¹) * ((c.SW : ℂ)⁻¹) * ((N.c 1)⁻¹) * (ab z3.1 ρ0) * (sb z0.2 z1.2) * (sb z1.2 z2.2) / (2) + (1) * ((c.e : ℂ)) * ((c.gs : ℂ)) * ((c.MW : ℂ)⁻¹) * ((c.SW : ℂ)⁻¹) * ((c.mass .u : ℂ)) * ((N.c 0)⁻¹) * (ab z1.1 z3.1) * (ab z2.1 ρ0) * (sb z0.2 z1.2) / (2) + (-1) * ((c.e : ℂ)) * ((c.gs : ℂ)) * ((c.MW : ℂ)⁻¹) * ((c.SW : ℂ)⁻¹) * ((c.mass .u : ℂ)) * ((N.c 1)⁻¹) * (ab z1.1 ρ0) * (sb z0.2 z3.2) * (sb z1.2 z2.2) / (2) + (-1) * ((c.e : ℂ)) * ((c.gs : ℂ)) * ((c.MW : ℂ)⁻¹) * ((c.SW : ℂ)⁻¹) * ((N.c 0)⁻¹) * (ab z0.1 ρ0) * (ab z1.1 z3.1) * (sb z0.2 z1.2) * (sb z0.2 z2.2) / (2) + (-1) * ((c.e : ℂ)) * ((c.gs : ℂ)) * ((c.MW : ℂ)⁻¹) * ((c.SW : ℂ)⁻¹) * ((N.c 0)⁻¹) * (ab z1.1 z3.1) * (mb z1.2 (p 2) ρ0) * (sb z0.2 z2.2) / (2) + (1) * ((c.e : ℂ)) * ((c.gs : ℂ)) * ((c.MW : ℂ)⁻¹) * ((c.SW : ℂ)⁻¹) * ((N.c 1)⁻¹) * (ab z3.1 ρ0) * (mb z0.2 (p 2) z1.1) * (sb z1.2 z2.2) / (2)) * x22
theorem gZuu.keyM {c : Constants} {p : Nat → V4 ℝ} {N : Env} (hc : c.Physical) (hb : Balanced p) (r9 : N.r 9 = (((((2 : Nat) : ℝ) * c.e) * c.gs) / ((((2 : Nat) : ℝ) * c.MW) * c.SW))) (r11 : N.r 11 = (((((-((2 : Nat) : ℝ)) * (((2 : Nat) : ℝ) / ((3 : Nat) : ℝ))) * c.SW) * c.SW) + ((1 : Nat) : ℝ))) (r12 : N.r 12 = ((((-((2 : Nat) : ℝ)) * (((2 : Nat) : ℝ) / ((3 : Nat) : ℝ))) * c.SW) * c.SW)) (d0 : ((msq (plus (backward (p 3)) (p 1)) - c.mass .u ^ 2 : ℝ) : ℂ) = N.c 0) (n0 : N.c 0 ≠ 0) (d1 : ((msq (plus (backward (p 3)) (p 0)) - c.mass .u ^ 2 : ℝ) : ℂ) = N.c 1) (n1 : N.c 1 ≠ 0) {z0 z1 z2 z3 : Pair} (b1 : Bold (p 1) c.MZ z1) (b2 : Bold (p 2) (c.mass .u) z2) (b3 : Bold (p 3) (c.mass .u) z3) (l0 : Light (p 0) z0) (e02 : mb z0.2 (p 2) z0.1 = -N.c 0) (e03 : mb z0.2 (p 3) z0.1 = -N.c 1) (q1 : msq (p 1) = c.MZ ^ 2) (q2 : msq (p 2) = (c.mass .u) ^ 2) (q3 : msq (p 3) = (c.mass .u) ^ 2) (ρ0 : V2) :
    gZuu.formM N p z0 z1 z1 z2 z3 * sb ρ0 z0.2 = ((√2 : ℝ) * ((1 : ℂ) * ((√2 / c.MZ : ℝ) : ℂ))) * gZuu.react.bare c p 2 3 0 1 z2 z3 (pv z0.1 ρ0) (pv z1.1 z1.2) := by
  rw [gZuu.react.bare_parts c p (i := 2) (j := 3) (a := 0) (b := 1) (x := .gluon) (y := .z) (k := (p 0)) (k' := (p 1)) (fun _ => rfl) (fun _ => rfl) (f := .u) (g := .u) rfl rfl (l := (backward (p 3))) rfl (e := 1) (e' := -1) (if_neg Bool.false_ne_true) (if_pos rfl)]
  rw [compton_vv (f := .u) (x := .u) (g := .u) (h := (rfl : Spec.after .gluon Flavour.u = some Flavour.u)) (h' := (rfl : Spec.after .z Flavour.u = some Flavour.u)) (ha := by simp) (hb := by simp)]
  rw [compton_vv (f := .u) (x := .u) (g := .u) (h := (rfl : Spec.after .z Flavour.u = some Flavour.u)) (h' := (rfl : Spec.after .gluon Flavour.u = some Flavour.u)) (ha := by simp) (hb := by simp)]
  rw [annihilation_none c _ _ (by rfl) (by simp), star_zero, add_zero, gZuu.formM]
  simp only [d0, d1, lineV_pv, lineV_four, contract_four_pv, contract_pv, mb_plus, mb_backward]
  have i0 := chain_angle z0.2 z3.2 z0.1 (p 2) (p 3) z0.1
  have i1 := chain_angle z0.2 z1.2 z0.1 (p 2) (p 3) z0.1
  have i2 := sb_schouten z1.2 z3.2 ρ0 z0.2
  have i3 := mb_schouten_right z1.2 (p 2) z0.1 z1.1 z2.1
  have i4 := sb_schouten z2.2 z3.2 ρ0 z1.2
  have i5 := mb_schouten_left z0.2 z1.2 ρ0 (p 1) z0.1
  have i6 := mb_schouten_right z3.2 (p 1) z0.1 z1.1 z2.1
  have i7 := mb_schouten_right ρ0 (p 1) z0.1 z1.1 z2.1
  have i8 := mb_schouten_left z1.2 z3.2 ρ0 (p 1) z0.1
  have i9 := mb_schouten_left z0.2 z1.2 z3.2 (p 2) z0.1
  have i10 := mb_schouten_left z0.2 z3.2 ρ0 (p 1) z0.1
  have i11 := mb_schouten_left z0.2 z3.2 ρ0 (p 2) z0.1
  have i12 := mb_schouten_right ρ0 (p 2) z0.1 z1.1 z2.1
  have i13 := ab_schouten z1.1 z2.1 z3.1 z0.1
  have i14 := mb_schouten_right z0.2 (p 2) z0.1 z1.1 z2.1
  have i15 := chain_angle z0.2 z2.2 z0.1 (p 2) (p 3) z0.1
  have i16 := sb_schouten z1.2 z2.2 ρ0 z0.2
  have i17 := mb_schouten_right z1.2 (p 2) z0.1 z1.1 z3.1
  have i18 := mb_schouten_right z0.2 (p 2) z0.1 z1.1 z3.1
  have i19 := mb_schouten_right z0.2 (p 1) z0.1 z1.1 z3.1
  have i20 := mb_schouten_left z0.2 z2.2 z3.2 (p 2) z0.1
  have i21 := mb_schouten_left z0.2 z1.2 ρ0 (p 2) z0.1
  have i22 := mb_schouten_left z0.2 z1.2 z3.2 (p 1) z0.1
  have i23 := mb_schouten_right ρ0 (p 2) z0.1 z1.1 z3.1
  have i24 := mb_schouten_left z0.2 z2.2 z3.2 (p 1) z0.1
  have i25 := sb_schouten z1.2 z2.2 z3.2 z0.2
  have i26 := mb_schouten_left z0.2 z1.2 z2.2 (p 2) z0.1
  have i27 := mb_schouten_left z0.2 z2.2 ρ0 (p 2) z0.1
  have i28 := mb_schouten_left z0.2 z1.2 z2.2 (p 1) z0.1
  have i29 := sb_schouten z2.2 z3.2 ρ0 z0.2
  have i30 := mb_schouten_right ρ0 (p 1) z0.1 z1.1 z3.1
  have i31 := mb_schouten_left z0.2 z2.2 ρ0 (p 1) z0.1
  have i32 := mb_schouten_left z1.2 z2.2 ρ0 (p 1) z0.1
  simp only [l0.mb_eq, b1.mb_left, b1.mb_right, b2.mb_left, b2.mb_right, b3.mb_left, b3.mb_right, e02, e03, mb_one hb z0.2 z0.1, mb_three hb z0.2 z1.1, mb_three hb z0.2 z2.1, mb_two hb z0.2 z3.1, mb_three hb z1.2 z0.1, mb_three hb z1.2 z1.1, mb_three hb z1.2 z2.1, mb_two hb z1.2 z3.1, mb_three hb z2.2 z0.1, mb_three hb z2.2 z1.1, mb_three hb z2.2 z2.1, mb_one hb z2.2 z3.1, mb_two hb z3.2 z0.1, mb_two hb z3.2 z1.1, mb_one hb z3.2 z2.1, mb_two hb z3.2 z3.1, mb_three hb ρ0 z0.1, mb_three hb ρ0 z1.1, mb_three hb ρ0 z2.1, mb_two hb ρ0 z3.1, ab_self, sb_self] at i0 i1 i2 i3 i4 i5 i6 i7 i8 i9 i10 i11 i12 i13 i14 i15 i16 i17 i18 i19 i20 i21 i22 i23 i24 i25 i26 i27 i28 i29 i30 i31 i32 ⊢
  simp only [ab_swap z0.1 z1.1, ab_swap z0.1 z2.1, ab_swap z0.1 z3.1, ab_swap z1.1 z2.1, ab_swap z1.1 z3.1, ab_swap z2.1 z3.1, sb_swap z0.2 z1.2, sb_swap z0.2 z2.2, sb_swap z0.2 z3.2, sb_swap z0.2 ρ0, sb_swap z1.2 z2.2, sb_swap z1.2 z3.2, sb_swap z1.2 ρ0, sb_swap z2.2 z3.2, sb_swap z2.2 ρ0, sb_swap z3.2 ρ0] at i0 i1 i2 i3 i4 i5 i6 i7 i8 i9 i10 i11 i12 i13 i14 i15 i16 i17 i18 i19 i20 i21 i22 i23 i24 i25 i26 i27 i28 i29 i30 i31 i32 ⊢
  simp only [r9, r11, r12, Constants.hL, Constants.hR, Constants.gL, Constants.gR, Constants.yuk, Constants.invVev, Flavour.charge_u, Flavour.isospin_u, ← c.mz]
  have xMW : (c.MW : ℂ) ≠ 0 := by exact_mod_cast hc.MW
  have xSW : (c.SW : ℂ) ≠ 0 := by exact_mod_cast hc.SW
  have xCW : (c.CW : ℂ) ≠ 0 := by exact_mod_cast hc.CW
  have x2 : ((√2 : ℝ) : ℂ) ≠ 0 := by exact_mod_cast (Real.sqrt_pos.2 two_pos).ne'
  have x22 : ((√2 : ℝ) : ℂ) ^ 2 = 2 := by rw [← Complex.ofReal_pow, Real.sq_sqrt two_pos.le]; norm_num
  have x23 : ((√2 : ℝ) : ℂ) ^ 3 = 2 * ((√2 : ℝ) : ℂ) := by rw [← x22]; ring
  have x24 : ((√2 : ℝ) : ℂ) ^ 4 = 4 := by linear_combination (((√2 : ℝ) : ℂ) ^ 2 + 2) * x22
  try simp only [← c.mz] at i0 i1 i2 i3 i4 i5 i6 i7 i8 i9 i10 i11 i12 i13 i14 i15 i16 i17 i18 i19 i20 i21 i22 i23 i24 i25 i26 i27 i28 i29 i30 i31 i32
  push_cast at i0 i1 i2 i3 i4 i5 i6 i7 i8 i9 i10 i11 i12 i13 i14 i15 i16 i17 i18 i19 i20 i21 i22 i23 i24 i25 i26 i27 i28 i29 i30 i31 i32 ⊢
  simp only [div_eq_mul_inv, mul_inv, inv_inv] at i0 i1 i2 i3 i4 i5 i6 i7 i8 i9 i10 i11 i12 i13 i14 i15 i16 i17 i18 i19 i20 i21 i22 i23 i24 i25 i26 i27 i28 i29 i30 i31 i32 ⊢
  have y0 := mul_inv_cancel₀ n0
  have y1 := mul_inv_cancel₀ n1
  have yCW := mul_inv_cancel₀ xCW
  have yMW := mul_inv_cancel₀ xMW
  have ySW := mul_inv_cancel₀ xSW
  linear_combination ((((4) * ((c.SW : ℂ)) ^ 2 * ((c.e : ℂ)) * ((c.gs : ℂ)) * (ab z1.1 z2.1) * (sb z1.2 ρ0)) * i0 + ((-4) * ((c.SW : ℂ)) ^ 2 * ((c.e : ℂ)) * ((c.gs : ℂ)) * (ab z1.1 z2.1) * (sb z3.2 ρ0) + (-4) * ((c.SW : ℂ)) ^ 2 * ((c.e : ℂ)) * ((c.gs : ℂ)) * (ab z1.1 z3.1) * (sb z2.2 ρ0) + (3) * ((c.e : ℂ)) * ((c.gs : ℂ)) * (ab z1.1 z3.1) * (sb z2.2 ρ0)) * i1 + ((-4) * ((c.SW : ℂ)) ^ 2 * ((c.e : ℂ)) * ((c.gs : ℂ)) * ((c.mass .u : ℂ)) * (ab z0.1 z1.1) * (mb z2.2 (p 1) z0.1) + (4) * ((c.SW : ℂ)) ^ 2 * ((c.e : ℂ)) * ((c.gs : ℂ)) * (ab z1.1 z2.1) * ((mb (slashUpper (p 3) *ᵥ z0.1) (p 2) z0.1))) * i2 + ((4) * ((c.SW : ℂ)) ^ 2 * ((c.e : ℂ)) * ((c.gs : ℂ)) * (N.c 1) * (sb z3.2 ρ0) + (-4) * ((c.SW : ℂ)) ^ 2 * ((c.e : ℂ)) * ((c.gs : ℂ)) * (mb ρ0 (p 1) z0.1) * (sb z0.2 z3.2) + (4) * ((c.SW : ℂ)) ^ 2 * ((c.e : ℂ)) * ((c.gs : ℂ)) * (mb ρ0 (p 2) z0.1) * (sb z0.2 z3.2)) * i3 + ((8) * ((c.SW : ℂ)) ^ 2 * ((c.e : ℂ)) * ((c.gs : ℂ)) * ((c.mass .u : ℂ)) * (N.c 1) * (ab z0.1 z1.1)) * i4 + ((4) * ((c.MW : ℂ)) * ((c.SW : ℂ)) ^ 2 * ((c.e : ℂ)) * ((c.gs : ℂ)) * ((c.CW : ℂ)⁻¹) * (ab z0.1 z2.1) * (sb z1.2 z3.2) + (8) * ((c.SW : ℂ)) ^ 2 * ((c.e : ℂ)) * ((c.gs : ℂ)) * ((c.mass .u : ℂ)) * (ab z0.1 z2.1) * (ab z1.1 z3.1) + (-4) * ((c.SW : ℂ)) ^ 2 * ((c.e : ℂ)) * ((c.gs : ℂ)) * (ab z0.1 z1.1) * (ab z0.1 z2.1) * (sb z0.2 z3.2)) * i5 + ((4) * ((c.MW : ℂ)) * ((c.SW : ℂ)) ^ 2 * ((c.e : ℂ)) * ((c.gs : ℂ)) * ((c.CW : ℂ)⁻¹) * (ab z0.1 z1.1) * (sb z0.2 ρ0) + (-4) * ((c.SW : ℂ)) ^ 2 * ((c.e : ℂ)) * ((c.gs : ℂ)) * (N.c 0) * (sb z1.2 ρ0) + (-4) * ((c.SW : ℂ)) ^ 2 * ((c.e : ℂ)) * ((c.gs : ℂ)) * (N.c 1) * (sb z1.2 ρ0) + (4) * ((c.SW : ℂ)) ^ 2 * ((c.e : ℂ)) * ((c.gs : ℂ)) * (mb ρ0 (p 1) z0.1) * (sb z0.2 z1.2)) * i6 + ((-4) * ((c.SW : ℂ)) ^ 2 * ((c.e : ℂ)) * ((c.gs : ℂ)) * ((c.mass .u : ℂ)) * (ab z0.1 z3.1) * (sb z0.2 z1.2) + (4) * ((c.SW : ℂ)) ^ 2 * ((c.e : ℂ)) * ((c.gs : ℂ)) * (N.c 0) * (sb z1.2 z3.2) + (4) * ((c.SW : ℂ)) ^ 2 * ((c.e : ℂ)) * ((c.gs : ℂ)) * (mb z1.2 (p 2) z0.1) * (sb z0.2 z3.2) + (-4) * ((c.SW : ℂ)) ^ 2 * ((c.e : ℂ)) * ((c.gs : ℂ)) * (mb z3.2 (p 1) z0.1) * (sb z0.2 z1.2)) * i7 + ((-4) * ((c.SW : ℂ)) ^ 2 * ((c.e : ℂ)) * ((c.gs : ℂ)) * (N.c 0) * (ab z1.1 z2.1)) * i8 + ((-4) * ((c.MW : ℂ)) * ((c.SW : ℂ)) ^ 2 * ((c.e : ℂ)) * ((c.gs : ℂ)) * ((c.CW : ℂ)⁻¹) * (ab z0.1 z2.1) * (sb z1.2 ρ0) + (4) * ((c.SW : ℂ)) ^ 2 * ((c.e : ℂ)) * ((c.gs : ℂ)) * (ab z0.1 z1.1) * (mb ρ0 (p 1) z2.1) + (4) * ((c.SW : ℂ)) ^ 2 * ((c.e : ℂ)) * ((c.gs : ℂ)) * (ab z0.1 z2.1) * (mb ρ0 (p 2) z1.1)) * i9 + ((-4) * ((c.SW : ℂ)) ^ 2 * ((c.e : ℂ)) * ((c.gs : ℂ)) * (ab z0.1 z2.1) * (mb z1.2 (p 2) z1.1)) * i10 + ((4) * ((c.MW : ℂ)) * ((c.SW : ℂ)) ^ 2 * ((c.e : ℂ)) * ((c.gs : ℂ)) * ((c.CW : ℂ)⁻¹) * (ab z0.1 z1.1) * (ab z1.1 z2.1) + (4) * ((c.SW : ℂ)) ^ 2 * ((c.e : ℂ)) * ((c.gs : ℂ)) * (ab z0.1 z2.1) * (mb z1.2 (p 2) z1.1)) * i11 + ((-4) * ((c.MW : ℂ)) * ((c.SW : ℂ)) ^ 2 * ((c.e : ℂ)) * ((c.gs : ℂ)) * ((c.CW : ℂ)⁻¹) * (ab z0.1 z1.1) * (sb z0.2 z3.2) + (-4) * ((c.SW : ℂ)) ^ 2 * ((c.e : ℂ)) * ((c.gs : ℂ)) * (mb z1.2 (p 2) z0.1) * (sb z0.2 z3.2)) * i12 + ((4) * ((c.MW : ℂ)) * ((c.SW : ℂ)) ^ 2 * ((c.e : ℂ)) * ((c.gs : ℂ)) * ((c.CW : ℂ)⁻¹) * ((c.mass .u : ℂ)) * (ab z0.1 z1.1) * (sb z0.2 ρ0) + (-4) * ((c.SW : ℂ)) ^ 2 * ((c.e : ℂ)) * ((c.gs : ℂ)) * ((c.mass .u : ℂ)) * (N.c 0) * (sb z1.2 ρ0) + (-4) * ((c.SW : ℂ)) ^ 2 * ((c.e : ℂ)) * ((c.gs : ℂ)) * ((c.mass .u : ℂ)) * (N.c 1) * (sb z1.2 ρ0) + (4) * ((c.SW : ℂ)) ^ 2 * ((c.e : ℂ)) * ((c.gs : ℂ)) * ((c.mass .u : ℂ)) * (mb ρ0 (p 1) z0.1) * (sb z0.2 z1.2)) * i13 + ((-4) * ((c.SW : ℂ)) ^ 2 * ((c.e : ℂ)) * ((c.gs : ℂ)) * ((c.mass .u : ℂ)) * (ab z0.1 z3.1) * (sb z1.2 ρ0)) * i14 + ((4) * ((c.SW : ℂ)) ^ 2 * ((c.e : ℂ)) * ((c.gs : ℂ)) * (ab z1.1 z3.1) * (sb z1.2 ρ0) + (-3) * ((c.e : ℂ)) * ((c.gs : ℂ)) * (ab z1.1 z3.1) * (sb z1.2 ρ0)) * i15 + ((4) * ((c.SW : ℂ)) ^ 2 * ((c.e : ℂ)) * ((c.gs : ℂ)) * (N.c 0) * (ab z0.1 z1.1) * (ab z0.1 z3.1) + (4) * ((c.SW : ℂ)) ^ 2 * ((c.e : ℂ)) * ((c.gs : ℂ)) * (ab z1.1 z3.1) * ((mb (slashUpper (p 3) *ᵥ z0.1) (p 2) z0.1)) + (-3) * ((c.e : ℂ)) * ((c.gs : ℂ)) * (N.c 0) * (ab z0.1 z1.1) * (ab z0.1 z3.1) + (-3) * ((c.e : ℂ)) * ((c.gs : ℂ)) * (ab z1.1 z3.1) * ((mb (slashUpper (p 3) *ᵥ z0.1) (p 2) z0.1))) * i16 + ((-8) * ((c.SW : ℂ)) ^ 2 * ((c.e : ℂ)) * ((c.gs : ℂ)) * ((c.mass .u : ℂ)) * (ab z0.1 z2.1) * (sb z0.2 ρ0) + (4) * ((c.SW : ℂ)) ^ 2 * ((c.e : ℂ)) * ((c.gs : ℂ)) * (N.c 0) * (sb z2.2 ρ0) + (-4) * ((c.SW : ℂ)) ^ 2 * ((c.e : ℂ)) * ((c.gs : ℂ)) * (mb ρ0 (p 2) z0.1) * (sb z0.2 z2.2) + (3) * ((c.e : ℂ)) * ((c.gs : ℂ)) * ((c.mass .u : ℂ)) * (ab z0.1 z2.1) * (sb z0.2 ρ0) + (-3) * ((c.e : ℂ)) * ((c.gs : ℂ)) * (N.c 0) * (sb z2.2 ρ0) + (3) * ((c.e : ℂ)) * ((c.gs : ℂ)) * (mb ρ0 (p 2) z0.1) * (sb z0.2 z2.2)) * i17 + ((4) * ((c.SW : ℂ)) ^ 2 * ((c.e : ℂ)) * ((c.gs : ℂ)) * ((c.mass .u : ℂ)) * (ab z0.1 z2.1) * (sb z1.2 ρ0)) * i18 + ((-4) * ((c.SW : ℂ)) ^ 2 * ((c.e : ℂ)) * ((c.gs : ℂ)) * ((c.mass .u : ℂ)) * (ab z0.1 z2.1) * (sb z1.2 ρ0)) * i19 + ((-4) * ((c.SW : ℂ)) ^ 2 * ((c.e : ℂ)) * ((c.gs : ℂ)) * ((c.mass .u : ℂ)) * (ab z0.1 z1.1) * (sb z1.2 ρ0)) * i20 + ((-4) * ((c.SW : ℂ)) ^ 2 * ((c.e : ℂ)) * ((c.gs : ℂ)) * ((c.mass .u : ℂ)) * (ab z0.1 z1.1) * (sb z2.2 z3.2) + (-8) * ((c.SW : ℂ)) ^ 2 * ((c.e : ℂ)) * ((c.gs : ℂ)) * ((c.mass .u : ℂ)) * (ab z0.1 z2.1) * (ab z1.1 z3.1) + (-4) * ((c.SW : ℂ)) ^ 2 * ((c.e : ℂ)) * ((c.gs : ℂ)) * (ab z0.1 z1.1) * (ab z0.1 z3.1) * (sb z0.2 z2.2) + (3) * ((c.e : ℂ)) * ((c.gs : ℂ)) * ((c.mass .u : ℂ)) * (ab z0.1 z2.1) * (ab z1.1 z3.1) + (3) * ((c.e : ℂ)) * ((c.gs : ℂ)) * (ab z0.1 z1.1) * (ab z0.1 z3.1) * (sb z0.2 z2.2)) * i21 + ((-4) * ((c.SW : ℂ)) ^ 2 * ((c.e : ℂ)) * ((c.gs : ℂ)) * (ab z0.1 z2.1) * (mb ρ0 (p 2) z1.1)) * i22 + ((8) * ((c.SW : ℂ)) ^ 2 * ((c.e : ℂ)) * ((c.gs : ℂ)) * ((c.mass .u : ℂ)) * (ab z0.1 z2.1) * (sb z0.2 z1.2) + (4) * ((c.SW : ℂ)) ^ 2 * ((c.e : ℂ)) * ((c.gs : ℂ)) * (mb z1.2 (p 2) z0.1) * (sb z0.2 z2.2) + (-3) * ((c.e : ℂ)) * ((c.gs : ℂ)) * ((c.mass .u : ℂ)) * (ab z0.1 z2.1) * (sb z0.2 z1.2) + (-3) * ((c.e : ℂ)) * ((c.gs : ℂ)) * (mb z1.2 (p 2) z0.1) * (sb z0.2 z2.2)) * i23 + ((4) * ((c.SW : ℂ)) ^ 2 * ((c.e : ℂ)) * ((c.gs : ℂ)) * ((c.mass .u : ℂ)) * (ab z0.1 z1.1) * (sb z1.2 ρ0)) * i24 + ((-4) * ((c.SW : ℂ)) ^ 2 * ((c.e : ℂ)) * ((c.gs : ℂ)) * ((c.mass .u : ℂ)) * (ab z0.1 z1.1) * (mb ρ0 (p 1) z0.1) + (4) * ((c.SW : ℂ)) ^ 2 * ((c.e : ℂ)) * ((c.gs : ℂ)) * ((c.mass .u : ℂ)) * (ab z0.1 z1.1) * (mb ρ0 (p 2) z0.1)) * i25 + ((-8) * ((c.SW : ℂ)) ^ 2 * ((c.e : ℂ)) * ((c.gs : ℂ)) * ((c.mass .u : ℂ)) * (ab z0.1 z1.1) * (sb z3.2 ρ0) + (4) * ((c.SW : ℂ)) ^ 2 * ((c.e : ℂ)) * ((c.gs : ℂ)) * (ab z0.1 z1.1) * (mb ρ0 (p 1) z3.1) + (-4) * ((c.SW : ℂ)) ^ 2 * ((c.e : ℂ)) * ((c.gs : ℂ)) * (ab z0.1 z3.1) * (mb ρ0 (p 2) z1.1) + (3) * ((c.e : ℂ)) * ((c.gs : ℂ)) * ((c.mass .u : ℂ)) * (ab z0.1 z1.1) * (sb z3.2 ρ0) + (-3) * ((c.e : ℂ)) * ((c.gs : ℂ)) * (ab z0.1 z1.1) * (mb ρ0 (p 1) z3.1) + (3) * ((c.e : ℂ)) * ((c.gs : ℂ)) * (ab z0.1 z3.1) * (mb ρ0 (p 2) z1.1)) * i26 + ((4) * ((c.MW : ℂ)) * ((c.SW : ℂ)) ^ 2 * ((c.e : ℂ)) * ((c.gs : ℂ)) * ((c.CW : ℂ)⁻¹) * (ab z0.1 z1.1) * (ab z1.1 z3.1) + (-3) * ((c.MW : ℂ)) * ((c.e : ℂ)) * ((c.gs : ℂ)) * ((c.CW : ℂ)⁻¹) * (ab z0.1 z1.1) * (ab z1.1 z3.1) + (8) * ((c.SW : ℂ)) ^ 2 * ((c.e : ℂ)) * ((c.gs : ℂ)) * ((c.mass .u : ℂ)) * (ab z0.1 z1.1) * (sb z1.2 z3.2) + (-4) * ((c.SW : ℂ)) ^ 2 * ((c.e : ℂ)) * ((c.gs : ℂ)) * (ab z0.1 z3.1) * (mb z1.2 (p 2) z1.1) + (-3) * ((c.e : ℂ)) * ((c.gs : ℂ)) * ((c.mass .u : ℂ)) * (ab z0.1 z1.1) * (sb z1.2 z3.2) + (3) * ((c.e : ℂ)) * ((c.gs : ℂ)) * (ab z0.1 z3.1) * (mb z1.2 (p 2) z1.1)) * i27 + ((4) * ((c.SW : ℂ)) ^ 2 * ((c.e : ℂ)) * ((c.gs : ℂ)) * ((c.mass .u : ℂ)) * (ab z0.1 z1.1) * (sb z3.2 ρ0)) * i28 + ((-4) * ((c.MW : ℂ)) * ((c.SW : ℂ)) ^ 2 * ((c.e : ℂ)) * ((c.gs : ℂ)) * ((c.CW : ℂ)⁻¹) * ((c.mass .u : ℂ)) * (ab z0.1 z1.1) ^ 2 + (-4) * ((c.SW : ℂ)) ^ 2 * ((c.e : ℂ)) * ((c.gs : ℂ)) * ((c.mass .u : ℂ)) * (ab z0.1 z1.1) * (mb z1.2 (p 2) z0.1)) * i29 + ((-4) * ((c.SW : ℂ)) ^ 2 * ((c.e : ℂ)) * ((c.gs : ℂ)) * ((c.mass .u : ℂ)) * (ab z0.1 z2.1) * (sb z0.2 z1.2) + (4) * ((c.SW : ℂ)) ^ 2 * ((c.e : ℂ)) * ((c.gs : ℂ)) * (N.c 0) * (sb z1.2 z2.2) + (-3) * ((c.e : ℂ)) * ((c.gs : ℂ)) * (N.c 0) * (sb z1.2 z2.2)) * i30 + ((-4) * ((c.SW : ℂ)) ^ 2 * ((c.e : ℂ)) * ((c.gs : ℂ)) * ((c.mass .u : ℂ)) * (ab z0.1 z1.1) * (sb z1.2 z3.2)) * i31 + ((-4) * ((c.SW : ℂ)) ^ 2 * ((c.e : ℂ)) * ((c.gs : ℂ)) * (N.c 0) * (ab z1.1 z3.1) + (3) * ((c.e : ℂ)) * ((c.gs : ℂ)) * (N.c 0) * (ab z1.1 z3.1)) * i32)) * ((1) * ((c.CW : ℂ)) * ((c.CW : ℂ)⁻¹) * ((c.MW : ℂ)⁻¹) * ((c.SW : ℂ)⁻¹) * ((N.c 0)⁻¹) * ((N.c 1)⁻¹) / (3)) + ((4) * ((c.CW : ℂ)) * ((c.MW : ℂ)) * ((c.SW : ℂ)) ^ 2 * ((c.e : ℂ)) * ((c.gs : ℂ)) * ((c.CW : ℂ)⁻¹) ^ 2 * ((c.MW : ℂ)⁻¹) * ((c.SW : ℂ)⁻¹) * ((N.c 1)⁻¹) * (ab z0.1 z1.1) * (ab z1.1 z2.1) * (sb z3.2 ρ0) / (3) + (4) * ((c.CW : ℂ)) * ((c.MW : ℂ)) * ((c.SW : ℂ)) ^ 2 * ((c.e : ℂ)) * ((c.gs : ℂ)) * ((c.CW : ℂ)⁻¹) ^ 2 * ((c.MW : ℂ)⁻¹) * ((c.SW : ℂ)⁻¹) * ((N.c 1)⁻¹) * (ab z0.1 z3.1) * (sb z1.2 z2.2) * (sb z1.2 ρ0) / (3) + (-1) * ((c.CW : ℂ)) * ((c.MW : ℂ)) * ((c.e : ℂ)) * ((c.gs : ℂ)) * ((c.CW : ℂ)⁻¹) ^ 2 * ((c.MW : ℂ)⁻¹) * ((c.SW : ℂ)⁻¹) * ((N.c 1)⁻¹) * (ab z0.1 z3.1) * (sb z1.2 z2.2) * (sb z1.2 ρ0) + (-4) * ((c.CW : ℂ)) * ((c.SW : ℂ)) ^ 2 * ((c.e : ℂ)) * ((c.gs : ℂ)) * ((c.CW : ℂ)⁻¹) * ((c.MW : ℂ)⁻¹) * ((c.SW : ℂ)⁻¹) * ((c.mass .u : ℂ)) * ((N.c 1)⁻¹) * (ab z0.1 z1.1) * (sb z1.2 z2.2) * (sb z3.2 ρ0) / (3) + (-4) * ((c.CW : ℂ)) * ((c.SW : ℂ)) ^ 2 * ((c.e : ℂ)) * ((c.gs : ℂ)) * ((c.CW : ℂ)⁻¹) * ((c.MW : ℂ)⁻¹) * ((c.SW : ℂ)⁻¹) * ((c.mass .u : ℂ)) * ((N.c 1)⁻¹) * (ab z0.1 z3.1) * (ab z1.1 z2.1) * (sb z1.2 ρ0) / (3) + (-4) * ((c.CW : ℂ)) * ((c.SW : ℂ)) ^ 2 * ((c.e : ℂ)) * ((c.gs : ℂ)) * ((c.CW : ℂ)⁻¹) * ((c.MW : ℂ)⁻¹) * ((c.SW : ℂ)⁻¹) * ((N.c 1)⁻¹) * (ab z0.1 z1.1) * (ab z0.1 z3.1) * (sb z0.2 ρ0) * (sb z1.2 z2.2) / (3) + (-4) * ((c.CW : ℂ)) * ((c.SW : ℂ)) ^ 2 * ((c.e : ℂ)) * ((c.gs : ℂ)) * ((c.CW : ℂ)⁻¹) * ((c.MW : ℂ)⁻¹) * ((c.SW : ℂ)⁻¹) * ((N.c 1)⁻¹) * (ab z0.1 z3.1) * (mb ρ0 (p 2) z1.1) * (sb z1.2 z2.2) / (3) + (4) * ((c.CW : ℂ)) * ((c.SW : ℂ)) ^ 2 * ((c.e : ℂ)) * ((c.gs : ℂ)) * ((c.CW : ℂ)⁻¹) * ((c.MW : ℂ)⁻¹) * ((c.SW : ℂ)⁻¹) * ((N.c 1)⁻¹) * (ab z1.1 z2.1) * (mb z1.2 (p 2) z0.1) * (sb z3.2 ρ0) / (3) + (1) * ((c.CW : ℂ)) * ((c.e : ℂ)) * ((c.gs : ℂ)) * ((c.CW : ℂ)⁻¹) * ((c.MW : ℂ)⁻¹) * ((c.SW : ℂ)⁻¹) * ((c.mass .u : ℂ)) * ((N.c 1)⁻¹) * (ab z0.1 z1.1) * (sb z1.2 z2.2) * (sb z3.2 ρ0) + (1) * ((c.CW : ℂ)) * ((c.e : ℂ)) * ((c.gs : ℂ)) * ((c.CW : ℂ)⁻¹) * ((c.MW : ℂ)⁻¹) * ((c.SW : ℂ)⁻¹) * ((N.c 1)⁻¹) * (ab z0.1 z1.1) * (ab z0.1 z3.1) * (sb z0.2 ρ0) * (sb z1.2 z2.2) + (1) * ((c.CW : ℂ)) * ((c.e : ℂ)) * ((c.gs : ℂ)) * ((c.CW : ℂ)⁻¹) * ((c.MW : ℂ)⁻¹) * ((c.SW : ℂ)⁻¹) * ((N.c 1)⁻¹) * (ab z0.1 z3.1) * (mb ρ0 (p 2) z1.1) * (sb z1.2 z2.2)) * y0 + ((4) * ((c.CW : ℂ)) * ((c.SW : ℂ)) ^ 2 * ((c.e : ℂ)) * ((c.gs : ℂ)) * ((c.CW : ℂ)⁻¹) * ((c.MW : ℂ)⁻¹) * ((c.SW : ℂ)⁻¹) * ((c.mass .u : ℂ)) * ((N.c 0)⁻¹) * (ab z0.1 z1.1) * (sb z1.2 z3.2) * (sb z2.2 ρ0) / (3) + (4) * ((c.CW : ℂ)) * ((c.SW : ℂ)) ^ 2 * ((c.e : ℂ)) * ((c.gs : ℂ)) * ((c.CW : ℂ)⁻¹) * ((c.MW : ℂ)⁻¹) * ((c.SW : ℂ)⁻¹) * ((c.mass .u : ℂ)) * ((N.c 0)⁻¹) * (ab z0.1 z2.1) * (ab z1.1 z3.1) * (sb z1.2 ρ0) / (3) + (-4) * ((c.CW : ℂ)) * ((c.SW : ℂ)) ^ 2 * ((c.e : ℂ)) * ((c.gs : ℂ)) * ((c.CW : ℂ)⁻¹) * ((c.MW : ℂ)⁻¹) * ((c.SW : ℂ)⁻¹) * ((N.c 0)⁻¹) * (ab z0.1 z2.1) * (mb ρ0 (p 2) z1.1) * (sb z1.2 z3.2) / (3) + (4) * ((c.CW : ℂ)) * ((c.SW : ℂ)) ^ 2 * ((c.e : ℂ)) * ((c.gs : ℂ)) * ((c.CW : ℂ)⁻¹) * ((c.MW : ℂ)⁻¹) * ((c.SW : ℂ)⁻¹) * ((N.c 0)⁻¹) * (ab z1.1 z3.1) * (mb z1.2 (p 2) z0.1) * (sb z2.2 ρ0) / (3) + (-1) * ((c.CW : ℂ)) * ((c.e : ℂ)) * ((c.gs : ℂ)) * ((c.CW : ℂ)⁻¹) * ((c.MW : ℂ)⁻¹) * ((c.SW : ℂ)⁻¹) * ((c.mass .u : ℂ)) * ((N.c 0)⁻¹) * (ab z0.1 z2.1) * (ab z1.1 z3.1) * (sb z1.2 ρ0) + (-1) * ((c.CW : ℂ)) * ((c.e : ℂ)) * ((c.gs : ℂ)) * ((c.CW : ℂ)⁻¹) * ((c.MW : ℂ)⁻¹) * ((c.SW : ℂ)⁻¹) * ((N.c 0)⁻¹) * (ab z1.1 z3.1) * (mb z1.2 (p 2) z0.1) * (sb z2.2 ρ0)) * y1 + ((-2) * ((c.MW : ℂ)) * (((√2 : ℝ) : ℂ)) ^ 2 * ((c.SW : ℂ)) ^ 2 * ((c.e : ℂ)) * ((c.gs : ℂ)) * ((c.CW : ℂ)⁻¹) * ((c.MW : ℂ)⁻¹) * ((c.SW : ℂ)⁻¹) * ((N.c 1)⁻¹) * (ab z0.1 z1.1) * (ab z1.1 z2.1) * (sb z3.2 ρ0) / (3) + (-2) * ((c.MW : ℂ)) * (((√2 : ℝ) : ℂ)) ^ 2 * ((c.SW : ℂ)) ^ 2 * ((c.e : ℂ)) * ((c.gs : ℂ)) * ((c.CW : ℂ)⁻¹) * ((c.MW : ℂ)⁻¹) * ((c.SW : ℂ)⁻¹) * ((N.c 1)⁻¹) * (ab z0.1 z3.1) * (sb z1.2 z2.2) * (sb z1.2 ρ0) / (3) + (1) * ((c.MW : ℂ)) * (((√2 : ℝ) : ℂ)) ^ 2 * ((c.e : ℂ)) * ((c.gs : ℂ)) * ((c.CW : ℂ)⁻¹) * ((c.MW : ℂ)⁻¹) * ((c.SW : ℂ)⁻¹) * ((N.c 1)⁻¹) * (ab z0.1 z3.1) * (sb z1.2 z2.2) * (sb z1.2 ρ0) / (2) + (4) * ((c.MW : ℂ)) * ((c.SW : ℂ)) ^ 2 * ((c.e : ℂ)) * ((c.gs : ℂ)) * ((c.CW : ℂ)⁻¹) * ((c.MW : ℂ)⁻¹) * ((c.SW : ℂ)⁻¹) * ((N.c 1)⁻¹) * (ab z0.1 z1.1) * (ab z1.1 z2.1) * (sb z3.2 ρ0) / (3) + (4) * ((c.MW : ℂ)) * ((c.SW : ℂ)) ^ 2 * ((c.e : ℂ)) * ((c.gs : ℂ)) * ((c.CW : ℂ)⁻¹) * ((c.MW : ℂ)⁻¹) * ((c.SW : ℂ)⁻¹) * ((N.c 1)⁻¹) * (ab z0.1 z3.1) * (sb z1.2 z2.2) * (sb z1.2 ρ0) / (3) + (-1) * ((c.MW : ℂ)) * ((c.e : ℂ)) * ((c.gs : ℂ)) * ((c.CW : ℂ)⁻¹) * ((c.MW : ℂ)⁻¹) * ((c.SW : ℂ)⁻¹) * ((N.c 1)⁻¹) * (ab z0.1 z3.1) * (sb z1.2 z2.2) * (sb z1.2 ρ0) + (-2) * (((√2 : ℝ) : ℂ)) ^ 2 * ((c.SW : ℂ)) ^ 2 * ((c.e : ℂ)) * ((c.gs : ℂ)) * ((c.MW : ℂ)⁻¹) * ((c.SW : ℂ)⁻¹) * ((c.mass .u : ℂ)) * ((N.c 0)⁻¹) * (ab z0.1 z1.1) * (sb z1.2 z3.2) * (sb z2.2 ρ0) / (3) + (-2) * (((√2 : ℝ) : ℂ)) ^ 2 * ((c.SW : ℂ)) ^ 2 * ((c.e : ℂ)) * ((c.gs : ℂ)) * ((c.MW : ℂ)⁻¹) * ((c.SW : ℂ)⁻¹) * ((c.mass .u : ℂ)) * ((N.c 0)⁻¹) * (ab z0.1 z2.1) * (ab z1.1 z3.1) * (sb z1.2 ρ0) / (3) + (2) * (((√2 : ℝ) : ℂ)) ^ 2 * ((c.SW : ℂ)) ^ 2 * ((c.e : ℂ)) * ((c.gs : ℂ)) * ((c.MW : ℂ)⁻¹) * ((c.SW : ℂ)⁻¹) * ((c.mass .u : ℂ)) * ((N.c 1)⁻¹) * (ab z0.1 z1.1) * (sb z1.2 z2.2) * (sb z3.2 ρ0) / (3) + (2) * (((√2 : ℝ) : ℂ)) ^ 2 * ((c.SW : ℂ)) ^ 2 * ((c.e : ℂ)) * ((c.gs : ℂ)) * ((c.MW : ℂ)⁻¹) * ((c.SW : ℂ)⁻¹) * ((c.mass .u : ℂ)) * ((N.c 1)⁻¹) * (ab z0.1 z3.1) * (ab z1.1 z2.1) * (sb z1.2 ρ0) / (3) + (2) * (((√2 : ℝ) : ℂ)) ^ 2 * ((c.SW : ℂ)) ^ 2 * ((c.e : ℂ)) * ((c.gs : ℂ)) * ((c.MW : ℂ)⁻¹) * ((c.SW : ℂ)⁻¹) * ((N.c 0)⁻¹) * (ab z0.1 z1.1) * (ab z0.1 z2.1) * (sb z0.2 ρ0) * (sb z1.2 z3.2) / (3) + (2) * (((√2 : ℝ) : ℂ)) ^ 2 * ((c.SW : ℂ)) ^ 2 * ((c.e : ℂ)) * ((c.gs : ℂ)) * ((c.MW : ℂ)⁻¹) * ((c.SW : ℂ)⁻¹) * ((N.c 0)⁻¹) * (ab z0.1 z2.1) * (mb ρ0 (p 2) z1.1) * (sb z1.2 z3.2) / (3) + (-2) * (((√2 : ℝ) : ℂ)) ^ 2 * ((c.SW : ℂ)) ^ 2 * ((c.e : ℂ)) * ((c.gs : ℂ)) * ((c.MW : ℂ)⁻¹) * ((c.SW : ℂ)⁻¹) * ((N.c 0)⁻¹) * (ab z1.1 z3.1) * (mb z1.2 (p 2) z0.1) * (sb z2.2 ρ0) / (3) + (2) * (((√2 : ℝ) : ℂ)) ^ 2 * ((c.SW : ℂ)) ^ 2 * ((c.e : ℂ)) * ((c.gs : ℂ)) * ((c.MW : ℂ)⁻¹) * ((c.SW : ℂ)⁻¹) * ((N.c 1)⁻¹) * (ab z0.1 z3.1) * (mb ρ0 (p 2) z1.1) * (sb z1.2 z2.2) / (3) + (-2) * (((√2 : ℝ) : ℂ)) ^ 2 * ((c.SW : ℂ)) ^ 2 * ((c.e : ℂ)) * ((c.gs : ℂ)) * ((c.MW : ℂ)⁻¹) * ((c.SW : ℂ)⁻¹) * ((N.c 1)⁻¹) * (ab z1.1 z2.1) * (mb z1.2 (p 2) z0.1) * (sb z3.2 ρ0) / (3) + (1) * (((√2 : ℝ) : ℂ)) ^ 2 * ((c.e : ℂ)) * ((c.gs : ℂ)) * ((c.MW : ℂ)⁻¹) * ((c.SW : ℂ)⁻¹) * ((c.mass .u : ℂ)) * ((N.c 0)⁻¹) * (ab z0.1 z2.1) * (ab z1.1 z3.1) * (sb z1.2 ρ0) / (2) + (-1) * (((√2 : ℝ) : ℂ)) ^ 2 * ((c.e : ℂ)) * ((c.gs : ℂ)) * ((c.MW : ℂ)⁻¹) * ((c.SW : ℂ)⁻¹) * ((c.mass .u : ℂ)) * ((N.c 1)⁻¹) * (ab z0.1 z1.1) * (sb z1.2 z2.2) * (sb z3.2 ρ0) / (2) + (1) * (((√2 : ℝ) : ℂ)) ^ 2 * ((c.e : ℂ)) * ((c.gs : ℂ)) * ((c.MW : ℂ)⁻¹) * ((c.SW : ℂ)⁻¹) * ((N.c 0)⁻¹) * (ab z1.1 z3.1) * (mb z1.2 (p 2) z0.1) * (sb z2.2 ρ0) / (2) + (-1) * (((√2 : ℝ) : ℂ)) ^ 2 * ((c.e : ℂ)) * ((c.gs : ℂ)) * ((c.MW : ℂ)⁻¹) * ((c.SW : ℂ)⁻¹) * ((N.c 1)⁻¹) * (ab z0.1 z3.1) * (mb ρ0 (p 2) z1.1) * (sb z1.2 z2.2) / (2) + (4) * ((c.SW : ℂ)) ^ 2 * ((c.e : ℂ)) * ((c.gs : ℂ)) * ((c.MW : ℂ)⁻¹) * ((c.SW : ℂ)⁻¹) * ((c.mass .u : ℂ)) * ((N.c 0)⁻¹) * (ab z0.1 z1.1) * (sb z1.2 z3.2) * (sb z2.2 ρ0) / (3) + (4) * ((c.SW : ℂ)) ^ 2 * ((c.e : ℂ)) * ((c.gs : ℂ)) * ((c.MW : ℂ)⁻¹) * ((c.SW : ℂ)⁻¹) * ((c.mass .u : ℂ)) * ((N.c 0)⁻¹) * (ab z0.1 z2.1) * (ab z1.1 z3.1) * (sb z1.2 ρ0) / (3) + (-4) * ((c.SW : ℂ)) ^ 2 * ((c.e : ℂ)) * ((c.gs : ℂ)) * ((c.MW : ℂ)⁻¹) * ((c.SW : ℂ)⁻¹) * ((c.mass .u : ℂ)) * ((N.c 1)⁻¹) * (ab z0.1 z1.1) * (sb z1.2 z2.2) * (sb z3.2 ρ0) / (3) + (-4) * ((c.SW : ℂ)) ^ 2 * ((c.e : ℂ)) * ((c.gs : ℂ)) * ((c.MW : ℂ)⁻¹) * ((c.SW : ℂ)⁻¹) * ((c.mass .u : ℂ)) * ((N.c 1)⁻¹) * (ab z0.1 z3.1) * (ab z1.1 z2.1) * (sb z1.2 ρ0) / (3) + (-4) * ((c.SW : ℂ)) ^ 2 * ((c.e : ℂ)) * ((c.gs : ℂ)) * ((c.MW : ℂ)⁻¹) * ((c.SW : ℂ)⁻¹) * ((N.c 0)⁻¹) * ((N.c 1)⁻¹) * (ab z1.1 z2.1) * ((mb (slashUpper (p 3) *ᵥ z0.1) (p 2) z0.1)) * (sb z0.2 ρ0) * (sb z1.2 z3.2) / (3) + (-4) * ((c.SW : ℂ)) ^ 2 * ((c.e : ℂ)) * ((c.gs : ℂ)) * ((c.MW : ℂ)⁻¹) * ((c.SW : ℂ)⁻¹) * ((N.c 0)⁻¹) * ((N.c 1)⁻¹) * (ab z1.1 z3.1) * ((mb (slashUpper (p 3) *ᵥ z0.1) (p 2) z0.1)) * (sb z0.2 ρ0) * (sb z1.2 z2.2) / (3) + (-4) * ((c.SW : ℂ)) ^ 2 * ((c.e : ℂ)) * ((c.gs : ℂ)) * ((c.MW : ℂ)⁻¹) * ((c.SW : ℂ)⁻¹) * ((N.c 0)⁻¹) * (ab z0.1 z2.1) * (mb ρ0 (p 2) z1.1) * (sb z1.2 z3.2) / (3) + (4) * ((c.SW : ℂ)) ^ 2 * ((c.e : ℂ)) * ((c.gs : ℂ)) * ((c.MW : ℂ)⁻¹) * ((c.SW : ℂ)⁻¹) * ((N.c 0)⁻¹) * (ab z1.1 z3.1) * (mb z1.2 (p 2) z0.1) * (sb z2.2 ρ0) / (3) + (-4) * ((c.SW : ℂ)) ^ 2 * ((c.e : ℂ)) * ((c.gs : ℂ)) * ((c.MW : ℂ)⁻¹) * ((c.SW : ℂ)⁻¹) * ((N.c 1)⁻¹) * (ab z0.1 z1.1) * (ab z0.1 z3.1) * (sb z0.2 ρ0) * (sb z1.2 z2.2) / (3) + (-4) * ((c.SW : ℂ)) ^ 2 * ((c.e : ℂ)) * ((c.gs : ℂ)) * ((c.MW : ℂ)⁻¹) * ((c.SW : ℂ)⁻¹) * ((N.c 1)⁻¹) * (ab z0.1 z3.1) * (mb ρ0 (p 2) z1.1) * (sb z1.2 z2.2) / (3) + (4) * ((c.SW : ℂ)) ^ 2 * ((c.e : ℂ)) * ((c.gs : ℂ)) * ((c.MW : ℂ)⁻¹) * ((c.SW : ℂ)⁻¹) * ((N.c 1)⁻¹) * (ab z1.1 z2.1) * (mb z1.2 (p 2) z0.1) * (sb z3.2 ρ0) / (3) + (-1) * ((c.e : ℂ)) * ((c.gs : ℂ)) * ((c.MW : ℂ)⁻¹) * ((c.SW : ℂ)⁻¹) * ((c.mass .u : ℂ)) * ((N.c 0)⁻¹) * (ab z0.1 z2.1) * (ab z1.1 z3.1) * (sb z1.2 ρ0) + (1) * ((c.e : ℂ)) * ((c.gs : ℂ)) * ((c.MW : ℂ)⁻¹) * ((c.SW : ℂ)⁻¹) * ((c.mass .u : ℂ)) * ((N.c 1)⁻¹) * (ab z0.1 z1.1) * (sb z1.2 z2.2) * (sb z3.2 ρ0) + (1) * ((c.e : ℂ)) * ((c.gs : ℂ)) * ((c.MW : ℂ)⁻¹) * ((c.SW : ℂ)⁻¹) * ((N.c 0)⁻¹) * ((N.c 1)⁻¹) * (ab z1.1 z3.1) * ((mb (slashUpper (p 3) *ᵥ z0.1) (p 2) z0.1)) * (sb z0.2 ρ0) * (sb z1.2 z2.2) + (-1) * ((c.e : ℂ)) * ((c.gs : ℂ)) * ((c.MW : ℂ)⁻¹) * ((c.SW : ℂ)⁻¹) * ((N.c 0)⁻¹) * (ab z1.1 z3.1) * (mb z1.2 (p 2) z0.1) * (sb z2.2 ρ0) + (1) * ((c.e : ℂ)) * ((c.gs : ℂ)) * ((c.MW : ℂ)⁻¹) * ((c.SW : ℂ)⁻¹) * ((N.c 1)⁻¹) * (ab z0.1 z1.1) * (ab z0.1 z3.1) * (sb z0.2 ρ0) * (sb z1.2 z2.2) + (1) * ((c.e : ℂ)) * ((c.gs : ℂ)) * ((c.MW : ℂ)⁻¹) * ((c.SW : ℂ)⁻¹) * ((N.c 1)⁻¹) * (ab z0.1 z3.1) * (mb ρ0 (p 2) z1.1) * (sb z1.2 z2.2)) * yCW + ((-2) * (((√2 : ℝ) : ℂ)) ^ 2 * ((c.SW : ℂ)) ^ 2 * ((c.e : ℂ)) * ((c.gs : ℂ)) * ((c.CW : ℂ)⁻¹) * ((c.SW : ℂ)⁻¹) * ((N.c 1)⁻¹) * (ab z0.1 z1.1) * (ab z1.1 z2.1) * (sb z3.2 ρ0) / (3) + (-2) * (((√2 : ℝ) : ℂ)) ^ 2 * ((c.SW : ℂ)) ^ 2 * ((c.e : ℂ)) * ((c.gs : ℂ)) * ((c.CW : ℂ)⁻¹) * ((c.SW : ℂ)⁻¹) * ((N.c 1)⁻¹) * (ab z0.1 z3.1) * (sb z1.2 z2.2) * (sb z1.2 ρ0) / (3) + (1) * (((√2 : ℝ) : ℂ)) ^ 2 * ((c.e : ℂ)) * ((c.gs : ℂ)) * ((c.CW : ℂ)⁻¹) * ((c.SW : ℂ)⁻¹) * ((N.c 1)⁻¹) * (ab z0.1 z3.1) * (sb z1.2 z2.2) * (sb z1.2 ρ0) / (2) + (4) * ((c.SW : ℂ)) ^ 2 * ((c.e : ℂ)) * ((c.gs : ℂ)) * ((c.CW : ℂ)⁻¹) * ((c.SW : ℂ)⁻¹) * ((N.c 1)⁻¹) * (ab z0.1 z1.1) * (ab z1.1 z2.1) * (sb z3.2 ρ0) / (3) + (4) * ((c.SW : ℂ)) ^ 2 * ((c.e : ℂ)) * ((c.gs : ℂ)) * ((c.CW : ℂ)⁻¹) * ((c.SW : ℂ)⁻¹) * ((N.c 1)⁻¹) * (ab z0.1 z3.1) * (sb z1.2 z2.2) * (sb z1.2 ρ0) / (3) + (-1) * ((c.e : ℂ)) * ((c.gs : ℂ)) * ((c.CW : ℂ)⁻¹) * ((c.SW : ℂ)⁻¹) * ((N.c 1)⁻¹) * (ab z0.1 z3.1) * (sb z1.2 z2.2) * (sb z1.2 ρ0)) * yMW + ((-2) * (((√2 : ℝ) : ℂ)) ^ 2 * ((c.SW : ℂ)) * ((c.e : ℂ)) * ((c.gs : ℂ)) * ((c.CW : ℂ)⁻¹) * ((N.c 1)⁻¹) * (ab z0.1 z1.1) * (ab z1.1 z2.1) * (sb z3.2 ρ0) / (3) + (-2) * (((√2 : ℝ) : ℂ)) ^ 2 * ((c.SW : ℂ)) * ((c.e : ℂ)) * ((c.gs : ℂ)) * ((c.CW : ℂ)⁻¹) * ((N.c 1)⁻¹) * (ab z0.1 z3.1) * (sb z1.2 z2.2) * (sb z1.2 ρ0) / (3) + (-2) * (((√2 : ℝ) : ℂ)) ^ 2 * ((c.SW : ℂ)) * ((c.e : ℂ)) * ((c.gs : ℂ)) * ((c.MW : ℂ)⁻¹) * ((c.mass .u : ℂ)) * ((N.c 0)⁻¹) * (ab z0.1 z1.1) * (sb z1.2 z3.2) * (sb z2.2 ρ0) / (3) + (-2) * (((√2 : ℝ) : ℂ)) ^ 2 * ((c.SW : ℂ)) * ((c.e : ℂ)) * ((c.gs : ℂ)) * ((c.MW : ℂ)⁻¹) * ((c.mass .u : ℂ)) * ((N.c 0)⁻¹) * (ab z0.1 z2.1) * (ab z1.1 z3.1) * (sb z1.2 ρ0) / (3) + (2) * (((√2 : ℝ) : ℂ)) ^ 2 * ((c.SW : ℂ)) * ((c.e : ℂ)) * ((c.gs : ℂ)) * ((c.MW : ℂ)⁻¹) * ((c.mass .u : ℂ)) * ((N.c 1)⁻¹) * (ab z0.1 z1.1) * (sb z1.2 z2.2) * (sb z3.2 ρ0) / (3) + (2) * (((√2 : ℝ) : ℂ)) ^ 2 * ((c.SW : ℂ)) * ((c.e : ℂ)) * ((c.gs : ℂ)) * ((c.MW : ℂ)⁻¹) * ((c.mass .u : ℂ)) * ((N.c 1)⁻¹) * (ab z0.1 z3.1) * (ab z1.1 z2.1) * (sb z1.2 ρ0) / (3) + (2) * (((√2 : ℝ) : ℂ)) ^ 2 * ((c.SW : ℂ)) * ((c.e : ℂ)) * ((c.gs : ℂ)) * ((c.MW : ℂ)⁻¹) * ((N.c 0)⁻¹) * (ab z0.1 z1.1) * (ab z0.1 z2.1) * (sb z0.2 ρ0) * (sb z1.2 z3.2) / (3) + (2) * (((√2 : ℝ) : ℂ)) ^ 2 * ((c.SW : ℂ)) * ((c.e : ℂ)) * ((c.gs : ℂ)) * ((c.MW : ℂ)⁻¹) * ((N.c 0)⁻¹) * (ab z0.1 z2.1) * (mb ρ0 (p 2) z1.1) * (sb z1.2 z3.2) / (3) + (-2) * (((√2 : ℝ) : ℂ)) ^ 2 * ((c.SW : ℂ)) * ((c.e : ℂ)) * ((c.gs : ℂ)) * ((c.MW : ℂ)⁻¹) * ((N.c 0)⁻¹) * (ab z1.1 z3.1) * (mb z1.2 (p 2) z0.1) * (sb z2.2 ρ0) / (3) + (2) * (((√2 : ℝ) : ℂ)) ^ 2 * ((c.SW : ℂ)) * ((c.e : ℂ)) * ((c.gs : ℂ)) * ((c.MW : ℂ)⁻¹) * ((N.c 1)⁻¹) * (ab z0.1 z3.1) * (mb ρ0 (p 2) z1.1) * (sb z1.2 z2.2) / (3) + (-2) * (((√2 : ℝ) : ℂ)) ^ 2 * ((c.SW : ℂ)) * ((c.e : ℂ)) * ((c.gs : ℂ)) * ((c.MW : ℂ)⁻¹) * ((N.c 1)⁻¹) * (ab z1.1 z2.1) * (mb z1.2 (p 2) z0.1) * (sb z3.2 ρ0) / (3) + (4) * ((c.SW : ℂ)) * ((c.e : ℂ)) * ((c.gs : ℂ)) * ((c.CW : ℂ)⁻¹) * ((N.c 1)⁻¹) * (ab z0.1 z1.1) * (ab z1.1 z2.1) * (sb z3.2 ρ0) / (3) + (4) * ((c.SW : ℂ)) * ((c.e : ℂ)) * ((c.gs : ℂ)) * ((c.CW : ℂ)⁻¹) * ((N.c 1)⁻¹) * (ab z0.1 z3.1) * (sb z1.2 z2.2) * (sb z1.2 ρ0) / (3) + (4) * ((c.SW : ℂ)) * ((c.e : ℂ)) * ((c.gs : ℂ)) * ((c.MW : ℂ)⁻¹) * ((c.mass .u : ℂ)) * ((N.c 0)⁻¹) * (ab z0.1 z1.1) * (sb z1.2 z3.2) * (sb z2.2 ρ0) / (3) + (4) * ((c.SW : ℂ)) * ((c.e : ℂ)) * ((c.gs : ℂ)) * ((c.MW : ℂ)⁻¹) * ((c.mass .u : ℂ)) * ((N.c 0)⁻¹) * (ab z0.1 z2.1) * (ab z1.1 z3.1) * (sb z1.2 ρ0) / (3) + (-4) * ((c.SW : ℂ)) * ((c.e : ℂ)) * ((c.gs : ℂ)) * ((c.MW : ℂ)⁻¹) * ((c.mass .u : ℂ)) * ((N.c 1)⁻¹) * (ab z0.1 z1.1) * (sb z1.2 z2.2) * (sb z3.2 ρ0) / (3) + (-4) * ((c.SW : ℂ)) * ((c.e : ℂ)) * ((c.gs : ℂ)) * ((c.MW : ℂ)⁻¹) * ((c.mass .u : ℂ)) * ((N.c 1)⁻¹) * (ab z0.1 z3.1) * (ab z1.1 z2.1) * (sb z1.2 ρ0) / (3) + (-4) * ((c.SW : ℂ)) * ((c.e : ℂ)) * ((c.gs : ℂ)) * ((c.MW : ℂ)⁻¹) * ((N.c 0)⁻¹) * (ab z0.1 z1.1) * (ab z0.1 z2.1) * (sb z0.2 ρ0) * (sb z1.2 z3.2) / (3) + (-4) * ((c.SW : ℂ)) * ((c.e : ℂ)) * ((c.gs : ℂ)) * ((c.MW : ℂ)⁻¹) * ((N.c 0)⁻¹) * (ab z0.1 z2.1) * (mb ρ0 (p 2) z1.1) * (sb z1.2 z3.2) / (3) + (4) * ((c.SW : ℂ)) * ((c.e : ℂ)) * ((c.gs : ℂ)) * ((c.MW : ℂ)⁻¹) * ((N.c 0)⁻¹) * (ab z1.1 z3.1) * (mb z1.2 (p 2) z0.1) * (sb z2.2 ρ0) / (3) + (-4) * ((c.SW : ℂ)) * ((c.e : ℂ)) * ((c.gs : ℂ)) * ((c.MW : ℂ)⁻¹) * ((N.c 1)⁻¹) * (ab z0.1 z3.1) * (mb ρ0 (p 2) z1.1) * (sb z1.2 z2.2) / (3) + (4) * ((c.SW : ℂ)) * ((c.e : ℂ)) * ((c.gs : ℂ)) * ((c.MW : ℂ)⁻¹) * ((N.c 1)⁻¹) * (ab z1.1 z2.1) * (mb z1.2 (p 2) z0.1) * (sb z3.2 ρ0) / (3)) * ySW + ((-2) * ((c.SW : ℂ)) * ((c.e : ℂ)) * ((c.gs : ℂ)) * ((c.CW : ℂ)⁻¹) * ((N.c 1)⁻¹) * (ab z0.1 z1.1) * (ab z1.1 z2.1) * (sb z3.2 ρ0) / (3) + (-2) * ((c.SW : ℂ)) * ((c.e : ℂ)) * ((c.gs : ℂ)) * ((c.CW : ℂ)⁻¹) * ((N.c 1)⁻¹) * (ab z0.1 z3.1) * (sb z1.2 z2.2) * (sb z1.2 ρ0) / (3) + (-2) * ((c.SW : ℂ)) * ((c.e : ℂ)) * ((c.gs : ℂ)) * ((c.MW : ℂ)⁻¹) * ((c.mass .u : ℂ)) * ((N.c 0)⁻¹) * (ab z0.1 z1.1) * (sb z1.2 z3.2) * (sb z2.2 ρ0) / (3) + (-2) * ((c.SW : ℂ)) * ((c.e : ℂ)) * ((c.gs : ℂ)) * ((c.MW : ℂ)⁻¹) * ((c.mass .u : ℂ)) * ((N.c 0)⁻¹) * (ab z0.1 z2.1) * (ab z1.1 z3.1) * (sb z1.2 ρ0) / (3) + (2) * ((c.SW : ℂ)) * ((c.e : ℂ)) * ((c.gs : ℂ)) * ((c.MW : ℂ)⁻¹) * ((c.mass .u : ℂ)) * ((N.c 1)⁻¹) * (ab z0.1 z1.1) * (sb z1.2 z2.2) * (sb z3.2 ρ0) / (3) + (2) * ((c.SW : ℂ)) * ((c.e : ℂ)) * ((c.gs : ℂ)) * ((c.MW : ℂ)⁻¹) * ((c.mass .u : ℂ)) * ((N.c 1)⁻¹) * (ab z0.1 z3.1) * (ab z1.1 z2.1) * (sb z1.2 ρ0) / (3) + (2) * ((c.SW : ℂ)) * ((c.e : ℂ)) * ((c.gs : ℂ)) * ((c.MW : ℂ)⁻¹) * ((N.c 0)⁻¹) * (ab z0.1 z1.1) * (ab z0.1 z2.1) * (sb z0.2 ρ0) * (sb z1.2 z3.2) / (3) + (2) * ((c.SW : ℂ)) * ((c.e : ℂ)) * ((c.gs : ℂ)) * ((c.MW : ℂ)⁻¹) * ((N.c 0)⁻¹) * (ab z0.1 z2.1) * (mb ρ0 (p 2) z1.1) * (sb z1.2 z3.2) / (3) + (-2) * ((c.SW : ℂ)) * ((c.e : ℂ)) * ((c.gs : ℂ)) * ((c.MW : ℂ)⁻¹) * ((N.c 0)⁻¹) * (ab z1.1 z3.1) * (mb z1.2 (p 2) z0.1) * (sb z2.2 ρ0) / (3) + (2) * ((c.SW : ℂ)) * ((c.e : ℂ)) * ((c.gs : ℂ)) * ((c.MW : ℂ)⁻¹) * ((N.c 1)⁻¹) * (ab z0.1 z3.1) * (mb ρ0 (p 2) z1.1) * (sb z1.2 z2.2) / (3) + (-2) * ((c.SW : ℂ)) * ((c.e : ℂ)) * ((c.gs : ℂ)) * ((c.MW : ℂ)⁻¹) * ((N.c 1)⁻¹) * (ab z1.1 z2.1) * (mb z1.2 (p 2) z0.1) * (sb z3.2 ρ0) / (3) + (1) * ((c.e : ℂ)) * ((c.gs : ℂ)) * ((c.CW : ℂ)⁻¹) * ((c.SW : ℂ)⁻¹) * ((N.c 1)⁻¹) * (ab z0.1 z3.1) * (sb z1.2 z2.2) * (sb z1.2 ρ0) / (2) + (1) * ((c.e : ℂ)) * ((c.gs : ℂ)) * ((c.MW : ℂ)⁻¹) * ((c.SW : ℂ)⁻¹) * ((c.mass .u : ℂ)) * ((N.c 0)⁻¹) * (ab z0.1 z2.1) * (ab z1.1 z3.1) * (sb z1.2 ρ0) / (2) + (-1) * ((c.e : ℂ)) * ((c.gs : ℂ)) * ((c.MW : ℂ)⁻¹) * ((c.SW : ℂ)⁻¹) * ((c.mass .u : ℂ)) * ((N.c 1)⁻¹) * (ab z0.1 z1.1) * (sb z1.2 z2.2) * (sb z3.2 ρ0) / (2) + (1) * ((c.e : ℂ)) * ((c.gs : ℂ)) * ((c.MW : ℂ)⁻¹) * ((c.SW : ℂ)⁻¹) * ((N.c 0)⁻¹) * (ab z1.1 z3.1) * (mb z1.2 (p 2) z0.1) * (sb z2.2 ρ0) / (2) + (-1) * ((c.e : ℂ)) * ((c.gs : ℂ)) * ((c.MW : ℂ)⁻¹) * ((c.SW : ℂ)⁻¹) * ((N.c 1)⁻¹) * (ab z0.1 z3.1) * (mb ρ0 (p 2) z1.1) * (sb z1.2 z2.2) / (2)) * x22
set_option maxRecDepth 8000 in
theorem gZuu.amp2_eq (N : Env) (f : Nat → List Int → ℂ) : Cls.gZuu.m_amp2.mean N f .r [] =
    ((sumW (fun x a => (sumV (fun x b => (sumJ (fun x c => (sumJ (fun x d => (x + (((4 : Nat) : ℝ) * (‖(f 0 [a, b, c, d])‖ ^ 2)))) x)) x)) x)) ((0 : Nat) : ℝ)) / ((48 : Nat) : ℝ)) := by rfl
set_option maxRecDepth 8000 in
theorem gZuu.value (N : Env) : meaning N .r Cls.gZuu.methods Cls.gZuu.amp2 [] =
    ((sumW (fun x a => (sumV (fun x b => (sumJ (fun x c => (sumJ (fun x d => (x + (((4 : Nat) : ℝ) * (‖(Cls.gZuu.m_amp.mean N (callMean N []) .c [a, b, c, d])‖ ^ 2)))) x)) x)) x)) ((0 : Nat) : ℝ)) / ((48 : Nat) : ℝ)) :=
  gZuu.amp2_eq N (callMean N [Cls.gZuu.m_amp])
theorem gZuu.termP_lin (N : Env) (w : ℝ) (x : ℂ) (a1 b1 j3 j4 : Int) : gZuu.termP N w x a1 b1 j3 j4 = x + (w : ℂ) * gZuu.termP N 1 0 a1 b1 j3 j4 := by
  simp only [gZuu.termP]; push_cast; ring
theorem gZuu.termM_lin (N : Env) (w : ℝ) (x : ℂ) (a1 b1 j3 j4 : Int) : gZuu.termM N w x a1 b1 j3 j4 = x + (w : ℂ) * gZuu.termM N 1 0 a1 b1 j3 j4 := by
  simp only [gZuu.termM]; push_cast; ring
set_option maxRecDepth 8000 in
theorem gZuu.ampP (N : Env) (f : Nat → List Int → ℂ) (j3 j4 : Int) (t1 : Fin 3) : Cls.gZuu.m_amp.mean N f .c [2, spinV t1, j3, j4] = comb t1 (fun a1 b1 => gZuu.termP N 1 0 (spinOf a1) (spinOf b1) j3 j4) := by
  refine (amp_mean N f (m := 4) (K := 6) (G := fun i => if 0 < i 0 then gZuu.termP N 1 0 (i 4) (i 5) (i 2) (i 3) else if i 0 < 0 then gZuu.termM N 1 0 (i 4) (i 5) (i 2) (i 3) else 0) (fun l => ?_) (fun i i' h => ?_) rfl (by decide) (by decide) (by decide) (by decide) (by decide)).trans ?_
  · by_cases h : 0 < l.i 0
    · refine ⟨_, (if_pos (decide_eq_true h)).trans rfl, rfl, rfl, ?_⟩; rw [if_pos h]; exact gZuu.termP_lin ..
    · by_cases h' : l.i 0 < 0
      · refine ⟨_, (if_neg (fun e => h (of_decide_eq_true e))).trans ((if_pos (decide_eq_true h')).trans rfl), rfl, rfl, ?_⟩; rw [if_neg h, if_pos h']; exact gZuu.termM_lin ..
      · refine ⟨_, (if_neg (fun e => h (of_decide_eq_true e))).trans ((if_neg (fun e => h' (of_decide_eq_true e))).trans rfl), rfl, rfl, ?_⟩; rw [if_neg h, if_neg h', mul_zero, add_zero]
  · simp only [h 0 (by decide), h 2 (by decide), h 3 (by decide), h 4 (by decide), h 5 (by decide)]
  · show amp' _ [spinV t1] = _
    simp only [amp'_comb, amp'_nil]
    rfl
theorem gZuu.formP_x1 (N : Env) (p : Nat → V4 ℝ) (z0 y1 z2 z3 x y : Pair) : gZuu.formP N p z0 (x + y) y1 z2 z3 = gZuu.formP N p z0 x y1 z2 z3 + gZuu.formP N p z0 y y1 z2 z3 := by
  simp only [gZuu.formP, Prod.fst_add, Prod.snd_add, ab_add_left, ab_add_right, sb_add_left, sb_add_right, mb_add_left, mb_add_right]
  ring
theorem gZuu.formP_y1 (N : Env) (p : Nat → V4 ℝ) (z0 x1 z2 z3 x y : Pair) : gZuu.formP N p z0 x1 (x + y) z2 z3 = gZuu.formP N p z0 x1 x z2 z3 + gZuu.formP N p z0 x1 y z2 z3 := by
  simp only [gZuu.formP, Prod.fst_add, Prod.snd_add, ab_add_left, ab_add_right, sb_add_left, sb_add_right, mb_add_left, mb_add_right]
  ring
set_option maxRecDepth 8000 in
theorem gZuu.ampM (N : Env) (f : Nat → List Int → ℂ) (j3 j4 : Int) (t1 : Fin 3) : Cls.gZuu.m_amp.mean N f .c [(-2), spinV t1, j3, j4] = comb t1 (fun a1 b1 => gZuu.termM N 1 0 (spinOf a1) (spinOf b1) j3 j4) := by
  refine (amp_mean N f (m := 4) (K := 6) (G := fun i => if 0 < i 0 then gZuu.termP N 1 0 (i 4) (i 5) (i 2) (i 3) else if i 0 < 0 then gZuu.termM N 1 0 (i 4) (i 5) (i 2) (i 3) else 0) (fun l => ?_) (fun i i' h => ?_) rfl (by decide) (by decide) (by decide) (by decide) (by decide)).trans ?_
  · by_cases h : 0 < l.i 0
    · refine ⟨_, (if_pos (decide_eq_true h)).trans rfl, rfl, rfl, ?_⟩; rw [if_pos h]; exact gZuu.termP_lin ..
    · by_cases h' : l.i 0 < 0
      · refine ⟨_, (if_neg (fun e => h (of_decide_eq_true e))).trans ((if_pos (decide_eq_true h')).trans rfl), rfl, rfl, ?_⟩; rw [if_neg h, if_pos h']; exact gZuu.termM_lin ..
      · refine ⟨_, (if_neg (fun e => h (of_decide_eq_true e))).trans ((if_neg (fun e => h' (of_decide_eq_true e))).trans rfl), rfl, rfl, ?_⟩; rw [if_neg h, if_neg h', mul_zero, add_zero]
  · simp only [h 0 (by decide), h 2 (by decide), h 3 (by decide), h 4 (by decide), h 5 (by decide)]
  · show amp' _ [spinV t1] = _
    simp only [amp'_comb, amp'_nil]
    rfl
theorem gZuu.formM_x1 (N : Env) (p : Nat → V4 ℝ) (z0 y1 z2 z3 x y : Pair) : gZuu.formM N p z0 (x + y) y1 z2 z3 = gZuu.formM N p z0 x y1 z2 z3 + gZuu.formM N p z0 y y1 z2 z3 := by
  simp only [gZuu.formM, Prod.fst_add, Prod.snd_add, ab_add_left, ab_add_right, sb_add_left, sb_add_right, mb_add_left, mb_add_right]
  ring
theorem gZuu.formM_y1 (N : Env) (p : Nat → V4 ℝ) (z0 x1 z2 z3 x y : Pair) : gZuu.formM N p z0 x1 (x + y) z2 z3 = gZuu.formM N p z0 x1 x z2 z3 + gZuu.formM N p z0 x1 y z2 z3 := by
  simp only [gZuu.formM, Prod.fst_add, Prod.snd_add, ab_add_left, ab_add_right, sb_add_left, sb_add_right, mb_add_left, mb_add_right]
  ring

theorem gZuu.mass_eq {c : Constants} (hc : c.Physical) (i : Fin 4) : gZuu.proc.massNum (gZuu.rho c) i = gZuu.react.mass c i := by
  fin_cases i <;> first | rfl | exact Nat.cast_zero | exact Nat.cast_zero.trans (hc.neutrino _).symm | (show c.MW / √(((1 : Nat) : ℝ) - c.SW * c.SW) = c.MZ; rw [c.root, c.mz])

variable [FPEnv] in
theorem gZuu.amps {c : Constants} {p : Nat → V4 ℝ} {u : Fin 4 → Fin 3 → Spinor} {ε : Fin 4 → Fin 3 → Vec} (hc : c.Physical) (hh : c.Heavy) (h0 : ∀ i, 0 ≤ gZuu.react.mass c i) (hs : ∀ i : Fin 4, OnShell (p i) (gZuu.react.mass c i)) (hb : Balanced p) (hr : gZuu.react.Regular c p) (hu : ∀ i, gZuu.react.Complete c p i (u i) (ε i)) :
    (gZuu.N c p).c 0 ≠ 0 ∧ (gZuu.N c p).c 1 ≠ 0 ∧ (∀ n, (Ty.r, n) ∈ gZuu.proc.divides → (gZuu.N c p).r n ≠ 0) ∧ (∀ n, (Ty.c, n) ∈ gZuu.proc.divides → (gZuu.N c p).c n ≠ 0) ∧ ∀ (s2 : Fin 2) (s3 : Fin 2) (h0 : Fin 2) (t1 : Fin 3), ‖Cls.gZuu.m_amp.mean (gZuu.N c p) (callMean (gZuu.N c p) []) .c [spinW h0, spinV t1, spinOf s2, spinOf s3]‖ = ‖gZuu.react.bare c p 2 3 0 1 (gZuu.react.codePair c p 2 s2) (gZuu.react.codePair c p 3 s3) (lightE (legA (p 0) 0 0, legS (p 0) 0 1) h0.castSucc) (gZuu.react.codeVec c p 1 t1)‖ := by
  have he : gZuu.react.ends = [2] := by decide
  have ht : gZuu.react.starts = [3] := by decide
  have hB : gZuu.react.bosons = [0, 1] := by decide
  obtain ⟨f1, f2, f3⟩ := gZuu.react.regular_line he ht hB hr
  have r9 : (gZuu.N c p).r 9 = (((((2 : Nat) : ℝ) * c.e) * c.gs) / ((((2 : Nat) : ℝ) * c.MW) * c.SW)) := rfl
  have r11 : (gZuu.N c p).r 11 = (((((-((2 : Nat) : ℝ)) * (((2 : Nat) : ℝ) / ((3 : Nat) : ℝ))) * c.SW) * c.SW) + ((1 : Nat) : ℝ)) := rfl
  have r12 : (gZuu.N c p).r 12 = ((((-((2 : Nat) : ℝ)) * (((2 : Nat) : ℝ) / ((3 : Nat) : ℝ))) * c.SW) * c.SW) := rfl
  have c0 : (gZuu.N c p).c 0 = poleDist (c.mass .u) ((0 : Nat) : ℝ) ((VExp.sub 0 2).sum p) := rfl
  rw [Nat.cast_zero, pole_fermion rfl] at c0
  have d0 : ((msq (plus (backward (p 3)) (p 1)) - c.mass .u ^ 2 : ℝ) : ℂ) = (gZuu.N c p).c 0 := by rw [c0, msq_t hb (plus (backward (p 3)) (p 1)) (by simp)]
  have n0 : (gZuu.N c p).c 0 ≠ 0 := by rw [← d0]; exact_mod_cast f2 .u rfl rfl
  have c1 : (gZuu.N c p).c 1 = poleDist (c.mass .u) ((0 : Nat) : ℝ) ((VExp.sub 0 3).sum p) := rfl
  rw [Nat.cast_zero, pole_fermion rfl] at c1
  have d1 : ((msq (plus (backward (p 3)) (p 0)) - c.mass .u ^ 2 : ℝ) : ℂ) = (gZuu.N c p).c 1 := by rw [c1, msq_u hb (plus (backward (p 3)) (p 0)) (by simp)]
  have n1 : (gZuu.N c p).c 1 ≠ 0 := by rw [← d1]; exact_mod_cast f1 .u rfl rfl
  obtain ⟨l0, x0, y0⟩ := gZuu.react.code_light hs hu (n := 0) rfl rfl
  have e02 := l0.pole_sub (m := (c.mass .u)) (onShell_msq (hs 2)) (msq_t hb (plus (p 0) (backward (p 2))) (by simp)) c0
  have e03 := l0.pole_sub (m := (c.mass .u)) (onShell_msq (hs 3)) (msq_u hb (plus (p 0) (backward (p 3))) (by simp)) c1
  have m1 : gZuu.react.mass c 1 ≠ 0 := (leg_pos hc hh (by decide)).ne'
  have m2 : gZuu.react.mass c 2 ≠ 0 := (leg_pos hc hh (by decide)).ne'
  have m3 : gZuu.react.mass c 3 ≠ 0 := (leg_pos hc hh (by decide)).ne'
  have m0 : gZuu.react.mass c 0 = 0 := rfl
  have hd : gZuu.proc.divides = [(Ty.c, 0), (Ty.c, 1)] := by decide +kernel
  have stP : ∀ {z2 z3 : Pair} (b2 : Bold (p 2) (gZuu.react.mass c 2) z2) (b3 : Bold (p 3) (gZuu.react.mass c 3) z3) (t1 : Fin 3), comb t1 (fun a1 b1 => gZuu.formP (gZuu.N c p) p (legA (p 0) 0 0, legS (p 0) 0 1) (gZuu.react.codePair c p 1 a1) (gZuu.react.codePair c p 1 b1) z2 z3) = 1 * gZuu.react.bare c p 2 3 0 1 z2 z3 (lightE (legA (p 0) 0 0, legS (p 0) 0 1) 1) (gZuu.react.codeVec c p 1 t1) := by
    intro z2 z3 b2 b3 t1
    refine one_vector (p := p 1) (m := gZuu.react.mass c 1) (fun s => gZuu.react.codePair_bold hs h0 1 s) (B := fun x y => gZuu.formP (gZuu.N c p) p (legA (p 0) 0 0, legS (p 0) 0 1) x y z2 z3) (G := fun E => gZuu.react.bare c p 2 3 0 1 z2 z3 (lightE (legA (p 0) 0 0, legS (p 0) 0 1) 1) E) (fun x y z => ?_) (fun x y z => ?_) (gZuu.react.bare_lin₂ c p _ _ _ (by decide)) 1 (fun z1 b1 => ?_) t1
    · exact gZuu.formP_x1 ..
    · exact gZuu.formP_y1 ..
    · exact (light_plus (z := (legA (p 0) 0 0, legS (p 0) 0 1)) (G := fun E => gZuu.react.bare c p 2 3 0 1 z2 z3 E (pv z1.1 z1.2)) (gZuu.react.bare_lin₁ c p _ _ _ (by decide)) x0 (gZuu.keyP hc hb r9 r11 r12 d0 n0 d1 n1 b1 b2 b3 l0 e02 e03 (onShell_msq (hs 1)) (onShell_msq (hs 2)) (onShell_msq (hs 3)) _)).trans (mul_assoc _ _ _)
  have stM : ∀ {z2 z3 : Pair} (b2 : Bold (p 2) (gZuu.react.mass c 2) z2) (b3 : Bold (p 3) (gZuu.react.mass c 3) z3) (t1 : Fin 3), comb t1 (fun a1 b1 => gZuu.formM (gZuu.N c p) p (legA (p 0) 0 0, legS (p 0) 0 1) (gZuu.react.codePair c p 1 a1) (gZuu.react.codePair c p 1 b1) z2 z3) = 1 * gZuu.react.bare c p 2 3 0 1 z2 z3 (lightE (legA (p 0) 0 0, legS (p 0) 0 1) 0) (gZuu.react.codeVec c p 1 t1) := by
    intro z2 z3 b2 b3 t1
    refine one_vector (p := p 1) (m := gZuu.react.mass c 1) (fun s => gZuu.react.codePair_bold hs h0 1 s) (B := fun x y => gZuu.formM (gZuu.N c p) p (legA (p 0) 0 0, legS (p 0) 0 1) x y z2 z3) (G := fun E => gZuu.react.bare c p 2 3 0 1 z2 z3 (lightE (legA (p 0) 0 0, legS (p 0) 0 1) 0) E) (fun x y z => ?_) (fun x y z => ?_) (gZuu.react.bare_lin₂ c p _ _ _ (by decide)) 1 (fun z1 b1 => ?_) t1
    · exact gZuu.formM_x1 ..
    · exact gZuu.formM_y1 ..
    · exact (light_minus (z := (legA (p 0) 0 0, legS (p 0) 0 1)) (G := fun E => gZuu.react.bare c p 2 3 0 1 z2 z3 E (pv z1.1 z1.2)) (gZuu.react.bare_lin₁ c p _ _ _ (by decide)) y0 (gZuu.keyM hc hb r9 r11 r12 d0 n0 d1 n1 b1 b2 b3 l0 e02 e03 (onShell_msq (hs 1)) (onShell_msq (hs 2)) (onShell_msq (hs 3)) _)).trans (mul_assoc _ _ _)
  have amP : ∀ (s2 : Fin 2) (s3 : Fin 2) (t1 : Fin 3), Cls.gZuu.m_amp.mean (gZuu.N c p) (callMean (gZuu.N c p) []) .c [2, spinV t1, spinOf s2, spinOf s3] = 1 * gZuu.react.bare c p 2 3 0 1 (gZuu.react.codePair c p 2 s2) (gZuu.react.codePair c p 3 s3) (lightE (legA (p 0) 0 0, legS (p 0) 0 1) 1) (gZuu.react.codeVec c p 1 t1) := by
    intro s2 s3 t1
    rw [gZuu.ampP, ← stP (gZuu.react.codePair_bold hs h0 2 s2) (gZuu.react.codePair_bold hs h0 3 s3) t1]
    refine congrArg (comb t1) (funext fun a1 => funext fun b1 => ?_)
    have v10z0z0 : (gZuu.N c p).v 10 [] = mb (legA (p 0) 0 0, legS (p 0) 0 1).2 (p 2) (slashLower (p 3) *ᵥ (legA (p 0) 0 0, legS (p 0) 0 1).2) := bra_two_square (p := p) (m := gZuu.proc.massNum (gZuu.rho c)) (gZuu.mass_eq hc 0) (gZuu.mass_eq hc 0) (.inr ⟨m0, rfl⟩) (.inr ⟨m0, rfl⟩)
    have v6x1z3 : (gZuu.N c p).v 6 [spinOf a1, spinOf s3] = sb (gZuu.react.codePair c p 1 a1).2 (gZuu.react.codePair c p 3 s3).2 := bra_square (p := p) (m := gZuu.proc.massNum (gZuu.rho c)) (gZuu.mass_eq hc 1) (gZuu.mass_eq hc 3) (.inl ⟨m1, rfl⟩) (.inl ⟨m3, rfl⟩)
    have v3y1z2 : (gZuu.N c p).v 3 [spinOf b1, spinOf s2] = ab (gZuu.react.codePair c p 1 b1).1 (gZuu.react.codePair c p 2 s2).1 := bra_angle (p := p) (m := gZuu.proc.massNum (gZuu.rho c)) (gZuu.mass_eq hc 1) (gZuu.mass_eq hc 2) (.inl ⟨m1, rfl⟩) (.inl ⟨m2, rfl⟩)
    have v2x1z2 : (gZuu.N c p).v 2 [spinOf a1, spinOf s2] = sb (gZuu.react.codePair c p 1 a1).2 (gZuu.react.codePair c p 2 s2).2 := bra_square (p := p) (m := gZuu.proc.massNum (gZuu.rho c)) (gZuu.mass_eq hc 1) (gZuu.mass_eq hc 2) (.inl ⟨m1, rfl⟩) (.inl ⟨m2, rfl⟩)
    have v7y1z3 : (gZuu.N c p).v 7 [spinOf b1, spinOf s3] = ab (gZuu.react.codePair c p 1 b1).1 (gZuu.react.codePair c p 3 s3).1 := bra_angle (p := p) (m := gZuu.proc.massNum (gZuu.rho c)) (gZuu.mass_eq hc 1) (gZuu.mass_eq hc 3) (.inl ⟨m1, rfl⟩) (.inl ⟨m3, rfl⟩)
    have v0z0x1 : (gZuu.N c p).v 0 [spinOf a1] = sb (legA (p 0) 0 0, legS (p 0) 0 1).2 (gZuu.react.codePair c p 1 a1).2 := bra_square (p := p) (m := gZuu.proc.massNum (gZuu.rho c)) (gZuu.mass_eq hc 0) (gZuu.mass_eq hc 1) (.inr ⟨m0, rfl⟩) (.inl ⟨m1, rfl⟩)
    have v8z0z3 : (gZuu.N c p).v 8 [spinOf s3] = sb (legA (p 0) 0 0, legS (p 0) 0 1).2 (gZuu.react.codePair c p 3 s3).2 := bra_square (p := p) (m := gZuu.proc.massNum (gZuu.rho c)) (gZuu.mass_eq hc 0) (gZuu.mass_eq hc 3) (.inr ⟨m0, rfl⟩) (.inl ⟨m3, rfl⟩)
    have v4z0z2 : (gZuu.N c p).v 4 [spinOf s2] = sb (legA (p 0) 0 0, legS (p 0) 0 1).2 (gZuu.react.codePair c p 2 s2).2 := bra_square (p := p) (m := gZuu.proc.massNum (gZuu.rho c)) (gZuu.mass_eq hc 0) (gZuu.mass_eq hc 2) (.inr ⟨m0, rfl⟩) (.inl ⟨m2, rfl⟩)
    simp only [gZuu.termP, gZuu.formP, v10z0z0, v6x1z3, v3y1z2, v2x1z2, v7y1z3, v0z0x1, v8z0z3, v4z0z2]
    push_cast
    ring
  have amM : ∀ (s2 : Fin 2) (s3 : Fin 2) (t1 : Fin 3), Cls.gZuu.m_amp.mean (gZuu.N c p) (callMean (gZuu.N c p) []) .c [(-2), spinV t1, spinOf s2, spinOf s3] = 1 * gZuu.react.bare c p 2 3 0 1 (gZuu.react.codePair c p 2 s2) (gZuu.react.codePair c p 3 s3) (lightE (legA (p 0) 0 0, legS (p 0) 0 1) 0) (gZuu.react.codeVec c p 1 t1) := by
    intro s2 s3 t1
    rw [gZuu.ampM, ← stM (gZuu.react.codePair_bold hs h0 2 s2) (gZuu.react.codePair_bold hs h0 3 s3) t1]
    refine congrArg (comb t1) (funext fun a1 => funext fun b1 => ?_)
    have v11z0z0 : (gZuu.N c p).v 11 [] = mb (slashUpper (p 3) *ᵥ (legA (p 0) 0 0, legS (p 0) 0 1).1) (p 2) (legA (p 0) 0 0, legS (p 0) 0 1).1 := bra_two_angle (p := p) (m := gZuu.proc.massNum (gZuu.rho c)) (gZuu.mass_eq hc 0) (gZuu.mass_eq hc 0) (.inr ⟨m0, rfl⟩) (.inr ⟨m0, rfl⟩)
    have v6x1z3 : (gZuu.N c p).v 6 [spinOf a1, spinOf s3] = sb (gZuu.react.codePair c p 1 a1).2 (gZuu.react.codePair c p 3 s3).2 := bra_square (p := p) (m := gZuu.proc.massNum (gZuu.rho c)) (gZuu.mass_eq hc 1) (gZuu.mass_eq hc 3) (.inl ⟨m1, rfl⟩) (.inl ⟨m3, rfl⟩)
    have v3y1z2 : (gZuu.N c p).v 3 [spinOf b1, spinOf s2] = ab (gZuu.react.codePair c p 1 b1).1 (gZuu.react.codePair c p 2 s2).1 := bra_angle (p := p) (m := gZuu.proc.massNum (gZuu.rho c)) (gZuu.mass_eq hc 1) (gZuu.mass_eq hc 2) (.inl ⟨m1, rfl⟩) (.inl ⟨m2, rfl⟩)
    have v2x1z2 : (gZuu.N c p).v 2 [spinOf a1, spinOf s2] = sb (gZuu.react.codePair c p 1 a1).2 (gZuu.react.codePair c p 2 s2).2 := bra_square (p := p) (m := gZuu.proc.massNum (gZuu.rho c)) (gZuu.mass_eq hc 1) (gZuu.mass_eq hc 2) (.inl ⟨m1, rfl⟩) (.inl ⟨m2, rfl⟩)
    have v7y1z3 : (gZuu.N c p).v 7 [spinOf b1, spinOf s3] = ab (gZuu.react.codePair c p 1 b1).1 (gZuu.react.codePair c p 3 s3).1 := bra_angle (p := p) (m := gZuu.proc.massNum (gZuu.rho c)) (gZuu.mass_eq hc 1) (gZuu.mass_eq hc 3) (.inl ⟨m1, rfl⟩) (.inl ⟨m3, rfl⟩)
    have v1z0x1 : (gZuu.N c p).v 1 [spinOf a1] = ab (legA (p 0) 0 0, legS (p 0) 0 1).1 (gZuu.react.codePair c p 1 a1).1 := bra_angle (p := p) (m := gZuu.proc.massNum (gZuu.rho c)) (gZuu.mass_eq hc 0) (gZuu.mass_eq hc 1) (.inr ⟨m0, rfl⟩) (.inl ⟨m1, rfl⟩)
    have v9z0z3 : (gZuu.N c p).v 9 [spinOf s3] = ab (legA (p 0) 0 0, legS (p 0) 0 1).1 (gZuu.react.codePair c p 3 s3).1 := bra_angle (p := p) (m := gZuu.proc.massNum (gZuu.rho c)) (gZuu.mass_eq hc 0) (gZuu.mass_eq hc 3) (.inr ⟨m0, rfl⟩) (.inl ⟨m3, rfl⟩)
    have v2y1z2 : (gZuu.N c p).v 2 [spinOf b1, spinOf s2] = sb (gZuu.react.codePair c p 1 b1).2 (gZuu.react.codePair c p 2 s2).2 := bra_square (p := p) (m := gZuu.proc.massNum (gZuu.rho c)) (gZuu.mass_eq hc 1) (gZuu.mass_eq hc 2) (.inl ⟨m1, rfl⟩) (.inl ⟨m2, rfl⟩)
    have v5z0z2 : (gZuu.N c p).v 5 [spinOf s2] = ab (legA (p 0) 0 0, legS (p 0) 0 1).1 (gZuu.react.codePair c p 2 s2).1 := bra_angle (p := p) (m := gZuu.proc.massNum (gZuu.rho c)) (gZuu.mass_eq hc 0) (gZuu.mass_eq hc 2) (.inr ⟨m0, rfl⟩) (.inl ⟨m2, rfl⟩)
    have v6y1z3 : (gZuu.N c p).v 6 [spinOf b1, spinOf s3] = sb (gZuu.react.codePair c p 1 b1).2 (gZuu.react.codePair c p 3 s3).2 := bra_square (p := p) (m := gZuu.proc.massNum (gZuu.rho c)) (gZuu.mass_eq hc 1) (gZuu.mass_eq hc 3) (.inl ⟨m1, rfl⟩) (.inl ⟨m3, rfl⟩)
    simp only [gZuu.termM, gZuu.formM, v11z0z0, v6x1z3, v3y1z2, v2x1z2, v7y1z3, v1z0x1, v9z0z3, v2y1z2, v5z0z2, v6y1z3]
    push_cast
    ring
  refine ⟨n0, n1, fun n hn => ?_, fun n hn => ?_, ?_⟩
  · simp [hd] at hn
  · simp [hd] at hn
    rcases hn with rfl | rfl
    · exact n0
    · exact n1
  intro s2 s3 h0 t1
  match h0 with
  | 1 => exact norm_plus (amP s2 s3 t1)
  | 0 => exact norm_plus (amM s2 s3 t1)

variable [FPEnv] in
theorem gZuu.agrees : gZuu.Agrees := by
  refine agrees_of (D := [3, 4]) (E := [4]) (by simp [all, gZuu]) (by decide +kernel) (by decide) (by decide +kernel) (fun c hc hh => ⟨List.forall_mem_cons.2 ⟨hc.MW, List.forall_mem_cons.2 ⟨hc.SW, List.forall_mem_nil _⟩⟩, List.forall_mem_cons.2 ⟨hc.SW_lt, List.forall_mem_nil _⟩⟩) (fun c hc i => gZuu.mass_eq hc i) (by decide +kernel) ?_
  intro c p u ε hc hh hw h0 hs hb hr hu
  have he : gZuu.react.ends = [2] := by decide
  have ht : gZuu.react.starts = [3] := by decide
  have hB : gZuu.react.bosons = [0, 1] := by decide
  obtain ⟨n0, n1, d1, d2, am⟩ := gZuu.amps hc hh h0 hs hb hr hu
  refine ⟨d1, d2, ?_⟩
  show meaning (gZuu.N c p) .r Cls.gZuu.methods Cls.gZuu.amp2 [] = _
  have s0 : gZuu.react.states 0 = 16 := by decide +kernel
  have s1 : gZuu.react.states 1 = 3 := by decide +kernel
  have sy : gZuu.react.symmetry = 1 := by decide
  have p0 : gZuu.react.spins 0 = {0, 1} := rfl
  have p1 : gZuu.react.spins 1 = Finset.univ := rfl
  have p2 : gZuu.react.spins 2 = {0, 1} := rfl
  have p3 : gZuu.react.spins 3 = {0, 1} := rfl
  have E0 : gZuu.react.codeE c p 0 = lightE (legA (p 0) 0 0, legS (p 0) 0 1) := rfl
  have E1 : gZuu.react.codeE c p 1 = gZuu.react.codeVec c p 1 := rfl
  have hG : gZuu.react.Gauge c p := (gZuu.react.gauge_line he ht hB hh (by decide) (fun n => onShell_msq (hs n)) hb hr (fun n m h h2 => absurd (And.intro h h2) (by revert n m; decide)) (fun _ => ⟨rfl, rfl⟩) (fun h => absurd h (by decide)))
  rw [gZuu.value, gZuu.react.squared_gluon 0 he ht hB (by decide) (by decide +kernel) (by decide +kernel) hs h0 (fun _ b _ hb _ => (boson_pos hc hh hb).ne') hG (E := gZuu.react.codeE c p) (fun n b hl => gZuu.react.codeE_polarised hs h0 hu (fun b hb => (boson_pos hc hh hb).ne') n b hl) hu, sum_colours, s0, s1, sy]
  simp only [sumV_sum, sumJ_sum, sumW_sum, am, p0, p1, p2, p3, E0, E1, Finset.sum_singleton, sum_two, Matrix.cons_val_zero, Matrix.cons_val_one, Matrix.cons_val, two_castSucc]
  try simp only [← Finset.mul_sum]
  push_cast
  first | ring1 | ring_nf

end Spinas.SM.Rows
