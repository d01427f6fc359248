import Verif.SM.LightRows
import Verif.SM.GluonLine

/-! A photon and a Z boson become fermions. Generated by tools/bosons/lemit.py: for each class its amplitude at given helicities as a formula in spinors, and the proof that `amp2` is the squared amplitude of the Feynman rules. -/

set_option linter.unusedSimpArgs false
set_option linter.unusedVariables false
set_option linter.unreachableTactic false
set_option linter.unusedTactic false

namespace Spinas.SM.Rows
open Spec Spec.Reaction Props XR Matrix BRow

/-! ### AZuu -/

/-- what the methods of the class see -/
noncomputable abbrev AZuu.N [FPEnv] (c : Constants) (p : Nat → V4 ℝ) : Env := AZuu.proc.env (AZuu.rho c) p
/-- the term that `amp` adds for a choice of spinors, for a photon of positive helicity (SM/AZuu.cpp) -/
noncomputable def AZuu.termP (N : Env) (w : ℝ) (x : ℂ) (a1 b1 j3 j4 : Int) : ℂ :=
  ((x + (((((((w * N.r 8) * N.r 10) : ℝ) : ℂ) * ((((((N.r 2 : ℝ) : ℂ) * N.v 3 [a1]) * N.v 7 [b1, j4]) * N.v 10 [j3]) - (((((N.r 6 : ℝ) : ℂ) * N.v 4 [j3]) * N.v 7 [a1, j4]) * N.v 13 [b1]))) / N.c 0) / N.c 1)) + (((((((w * N.r 8) * N.r 11) : ℝ) : ℂ) * (((((((-N.r 2) : ℝ) : ℂ) * N.v 3 [a1]) * N.v 6 [b1, j3]) * N.v 11 [j4]) + (((((N.r 6 : ℝ) : ℂ) * N.v 5 [j4]) * N.v 6 [a1, j3]) * N.v 12 [b1]))) / N.c 0) / N.c 1))
/-- the same with spinors in place of their spins -/
noncomputable def AZuu.formP (N : Env) (p : Nat → V4 ℝ) (z0 x1 y1 z2 z3 : Pair) : ℂ :=
  ((0 + (((((((((1 : Nat) : ℝ) * N.r 8) * N.r 10) : ℝ) : ℂ) * ((((((N.r 2 : ℝ) : ℂ) * (sb z0.2 x1.2)) * (ab y1.1 z3.1)) * (mb z0.2 (p 1) z2.1)) - (((((N.r 6 : ℝ) : ℂ) * (sb z0.2 z2.2)) * (ab x1.1 z3.1)) * (mb z0.2 (p 3) y1.1)))) / N.c 0) / N.c 1)) + (((((((((1 : Nat) : ℝ) * N.r 8) * N.r 11) : ℝ) : ℂ) * (((((((-N.r 2) : ℝ) : ℂ) * (sb z0.2 x1.2)) * (ab y1.1 z2.1)) * (mb z0.2 (p 1) z3.1)) + (((((N.r 6 : ℝ) : ℂ) * (sb z0.2 z3.2)) * (ab x1.1 z2.1)) * (mb z0.2 (p 2) y1.1)))) / N.c 0) / N.c 1))
/-- the term that `amp` adds for a choice of spinors, for a photon of negative helicity (SM/AZuu.cpp) -/
noncomputable def AZuu.termM (N : Env) (w : ℝ) (x : ℂ) (a1 b1 j3 j4 : Int) : ℂ :=
  ((x + ((((((((w * N.r 8) * N.r 11) : ℝ) : ℂ) * N.v 9 [a1, j4]) * ((((((-N.r 6) : ℝ) : ℂ) * N.v 1 [j3]) * N.v 15 [b1]) + ((((N.r 2 : ℝ) : ℂ) * N.v 0 [b1]) * N.v 16 [j3]))) / N.c 0) / N.c 1)) + ((((((((w * N.r 8) * N.r 10) : ℝ) : ℂ) * N.v 8 [a1, j3]) * (((((N.r 6 : ℝ) : ℂ) * N.v 2 [j4]) * N.v 14 [b1]) - ((((N.r 2 : ℝ) : ℂ) * N.v 0 [b1]) * N.v 17 [j4]))) / N.c 0) / N.c 1))
/-- the same with spinors in place of their spins -/
noncomputable def AZuu.formM (N : Env) (p : Nat → V4 ℝ) (z0 x1 y1 z2 z3 : Pair) : ℂ :=
  ((0 + ((((((((((1 : Nat) : ℝ) * N.r 8) * N.r 11) : ℝ) : ℂ) * (sb x1.2 z3.2)) * ((((((-N.r 6) : ℝ) : ℂ) * (ab z0.1 z2.1)) * (mb y1.2 (p 3) z0.1)) + ((((N.r 2 : ℝ) : ℂ) * (ab z0.1 y1.1)) * (mb z2.2 (p 1) z0.1)))) / N.c 0) / N.c 1)) + ((((((((((1 : Nat) : ℝ) * N.r 8) * N.r 10) : ℝ) : ℂ) * (sb x1.2 z2.2)) * (((((N.r 6 : ℝ) : ℂ) * (ab z0.1 z3.1)) * (mb y1.2 (p 2) z0.1)) - ((((N.r 2 : ℝ) : ℂ) * (ab z0.1 y1.1)) * (mb z3.2 (p 1) z0.1)))) / N.c 0) / N.c 1))
theorem AZuu.keyP {c : Constants} {p : Nat → V4 ℝ} {N : Env} (hc : c.Physical) (hb : Balanced p) (r2 : N.r 2 = (c.mass .u)) (r6 : N.r 6 = (c.MW / c.CW)) (r8 : N.r 8 = (((c.e * c.e) * (((2 : Nat) : ℝ) / ((3 : Nat) : ℝ))) / (c.MW * c.SW))) (r10 : N.r 10 = (((((-((2 : Nat) : ℝ)) * (((2 : Nat) : ℝ) / ((3 : Nat) : ℝ))) * c.SW) * c.SW) + ((1 : Nat) : ℝ))) (r11 : N.r 11 = ((((-((2 : Nat) : ℝ)) * (((2 : Nat) : ℝ) / ((3 : Nat) : ℝ))) * c.SW) * c.SW)) (d0 : ((msq (plus (backward (p 3)) (p 1)) - c.mass .u ^ 2 : ℝ) : ℂ) = N.c 0) (n0 : N.c 0 ≠ 0) (d1 : ((msq (plus (backward (p 3)) (p 0)) - c.mass .u ^ 2 : ℝ) : ℂ) = N.c 1) (n1 : N.c 1 ≠ 0) {z0 z1 z2 z3 : Pair} (b1 : Bold (p 1) c.MZ z1) (b2 : Bold (p 2) (c.mass .u) z2) (b3 : Bold (p 3) (c.mass .u) z3) (l0 : Light (p 0) z0) (e02 : mb z0.2 (p 2) z0.1 = -N.c 0) (e03 : mb z0.2 (p 3) z0.1 = -N.c 1) (q1 : msq (p 1) = c.MZ ^ 2) (q2 : msq (p 2) = (c.mass .u) ^ 2) (q3 : msq (p 3) = (c.mass .u) ^ 2) (ρ0 : V2) :
    AZuu.formP N p z0 z1 z1 z2 z3 * ab ρ0 z0.1 = ((√2 : ℝ) * ((-1 : ℂ) * ((√2 / c.MZ : ℝ) : ℂ))) * AZuu.react.bare c p 2 3 0 1 z2 z3 (pv ρ0 z0.2) (pv z1.1 z1.2) := by
  rw [AZuu.react.bare_parts c p (i := 2) (j := 3) (a := 0) (b := 1) (x := .photon) (y := .z) (k := (p 0)) (k' := (p 1)) (fun _ => rfl) (fun _ => rfl) (f := .u) (g := .u) rfl rfl (l := (backward (p 3))) rfl (e := 1) (e' := -1) (if_neg Bool.false_ne_true) (if_pos rfl)]
  rw [compton_vv (f := .u) (x := .u) (g := .u) (h := (rfl : Spec.after .photon Flavour.u = some Flavour.u)) (h' := (rfl : Spec.after .z Flavour.u = some Flavour.u)) (ha := by simp) (hb := by simp)]
  rw [compton_vv (f := .u) (x := .u) (g := .u) (h := (rfl : Spec.after .z Flavour.u = some Flavour.u)) (h' := (rfl : Spec.after .photon Flavour.u = some Flavour.u)) (ha := by simp) (hb := by simp)]
  rw [annihilation_none c _ _ (by rfl) (by simp), star_zero, add_zero, AZuu.formP]
  simp only [d0, d1, lineV_pv, lineV_four, contract_four_pv, contract_pv, mb_plus, mb_backward]
  have i0 := mb_schouten_right z0.2 (p 1) z0.1 z1.1 z2.1
  have i1 := ab_schouten z1.1 z3.1 ρ0 z0.1
  have i2 := ab_schouten z2.1 z3.1 ρ0 z1.1
  have i3 := ab_schouten z2.1 z3.1 ρ0 z0.1
  have i4 := mb_schouten_right z0.2 (p 1) z0.1 z1.1 z3.1
  have i5 := ab_schouten z1.1 z2.1 ρ0 z0.1
  have i6 := mb_schouten_right z0.2 (p 1) z0.1 z1.1 ρ0
  have i7 := mb_schouten_right z0.2 (p 1) z1.1 z2.1 ρ0
  have i8 := mb_schouten_right z0.2 (p 2) z0.1 z1.1 ρ0
  have i9 := sb_schouten z1.2 z2.2 z3.2 z0.2
  have i10 := mb_schouten_right z0.2 (p 2) z0.1 z1.1 z2.1
  have i11 := mb_schouten_right z1.2 (p 2) z0.1 z2.1 ρ0
  have i12 := mb_schouten_right z1.2 (p 2) z0.1 z1.1 z2.1
  have i13 := mb_schouten_right z0.2 (p 2) z1.1 z2.1 ρ0
  have i14 := mb_schouten_right z0.2 (p 2) z0.1 z2.1 ρ0
  have i15 := mb_schouten_right z1.2 (p 2) z0.1 z1.1 ρ0
  have i16 := mb_schouten_right z0.2 (p 2) z0.1 z1.1 z3.1
  have i17 := mb_schouten_left z0.2 z1.2 z3.2 (p 2) z1.1
  have i18 := mb_schouten_right z1.2 (p 2) z0.1 z3.1 ρ0
  have i19 := mb_schouten_right z0.2 (p 1) z1.1 z3.1 ρ0
  have i20 := mb_schouten_right z0.2 (p 2) z1.1 z3.1 ρ0
  have i21 := mb_schouten_left z0.2 z1.2 z3.2 (p 1) z0.1
  have i22 := mb_schouten_right z0.2 (p 1) z0.1 z2.1 ρ0
  have i23 := mb_schouten_right z1.2 (p 2) z0.1 z1.1 z3.1
  have i24 := mb_schouten_right z0.2 (p 2) z0.1 z3.1 ρ0
  have i25 := mb_schouten_right z2.2 (p 1) z0.1 z1.1 z3.1
  have i26 := mb_schouten_right z0.2 (p 1) z0.1 z3.1 ρ0
  have i27 := mb_schouten_left z0.2 z1.2 z2.2 (p 1) z0.1
  have i28 := mb_schouten_left z0.2 z1.2 z2.2 (p 2) z1.1
  have i29 := mb_schouten_right z0.2 (p 1) z0.1 z2.1 z3.1
  have i30 := mb_schouten_right z3.2 (p 1) z0.1 z1.1 z2.1
  have i31 := mb_schouten_left z0.2 z1.2 z2.2 (p 2) z0.1
  have i32 := mb_schouten_left z0.2 z1.2 z3.2 (p 2) z0.1
  have i33 := ab_schouten z1.1 z2.1 z3.1 z0.1
  simp only [l0.mb_eq, b1.mb_left, b1.mb_right, b2.mb_left, b2.mb_right, b3.mb_left, b3.mb_right, e02, e03, mb_one hb z0.2 z0.1, mb_three hb z0.2 z1.1, mb_three hb z0.2 z2.1, mb_two hb z0.2 z3.1, mb_three hb z0.2 ρ0, mb_three hb z1.2 z0.1, mb_three hb z1.2 z1.1, mb_three hb z1.2 z2.1, mb_two hb z1.2 z3.1, mb_three hb z1.2 ρ0, mb_three hb z2.2 z0.1, mb_three hb z2.2 z1.1, mb_three hb z2.2 z2.1, mb_one hb z2.2 z3.1, mb_three hb z2.2 ρ0, mb_two hb z3.2 z0.1, mb_two hb z3.2 z1.1, mb_one hb z3.2 z2.1, mb_two hb z3.2 z3.1, mb_two hb z3.2 ρ0, ab_self, sb_self] at i0 i1 i2 i3 i4 i5 i6 i7 i8 i9 i10 i11 i12 i13 i14 i15 i16 i17 i18 i19 i20 i21 i22 i23 i24 i25 i26 i27 i28 i29 i30 i31 i32 i33 ⊢
  simp only [ab_swap z0.1 z1.1, ab_swap z0.1 z2.1, ab_swap z0.1 z3.1, ab_swap z0.1 ρ0, ab_swap z1.1 z2.1, ab_swap z1.1 z3.1, ab_swap z1.1 ρ0, ab_swap z2.1 z3.1, ab_swap z2.1 ρ0, ab_swap z3.1 ρ0, sb_swap z0.2 z1.2, sb_swap z0.2 z2.2, sb_swap z0.2 z3.2, sb_swap z1.2 z2.2, sb_swap z1.2 z3.2, sb_swap z2.2 z3.2] at i0 i1 i2 i3 i4 i5 i6 i7 i8 i9 i10 i11 i12 i13 i14 i15 i16 i17 i18 i19 i20 i21 i22 i23 i24 i25 i26 i27 i28 i29 i30 i31 i32 i33 ⊢
  simp only [r2, r6, r8, r10, r11, Constants.hL, Constants.hR, Constants.gL, Constants.gR, Constants.yuk, Constants.invVev, Flavour.charge_u, Flavour.isospin_u, ← c.mz]
  have xMW : (c.MW : ℂ) ≠ 0 := by exact_mod_cast hc.MW
  have xSW : (c.SW : ℂ) ≠ 0 := by exact_mod_cast hc.SW
  have xCW : (c.CW : ℂ) ≠ 0 := by exact_mod_cast hc.CW
  have x2 : ((√2 : ℝ) : ℂ) ≠ 0 := by exact_mod_cast (Real.sqrt_pos.2 two_pos).ne'
  have x22 : ((√2 : ℝ) : ℂ) ^ 2 = 2 := by rw [← Complex.ofReal_pow, Real.sq_sqrt two_pos.le]; norm_num
  have x23 : ((√2 : ℝ) : ℂ) ^ 3 = 2 * ((√2 : ℝ) : ℂ) := by rw [← x22]; ring
  have x24 : ((√2 : ℝ) : ℂ) ^ 4 = 4 := by linear_combination (((√2 : ℝ) : ℂ) ^ 2 + 2) * x22
  try simp only [← c.mz] at i0 i1 i2 i3 i4 i5 i6 i7 i8 i9 i10 i11 i12 i13 i14 i15 i16 i17 i18 i19 i20 i21 i22 i23 i24 i25 i26 i27 i28 i29 i30 i31 i32 i33
  push_cast at i0 i1 i2 i3 i4 i5 i6 i7 i8 i9 i10 i11 i12 i13 i14 i15 i16 i17 i18 i19 i20 i21 i22 i23 i24 i25 i26 i27 i28 i29 i30 i31 i32 i33 ⊢
  simp only [div_eq_mul_inv, mul_inv, inv_inv] at i0 i1 i2 i3 i4 i5 i6 i7 i8 i9 i10 i11 i12 i13 i14 i15 i16 i17 i18 i19 i20 i21 i22 i23 i24 i25 i26 i27 i28 i29 i30 i31 i32 i33 ⊢
  have y0 := mul_inv_cancel₀ n0
  have y1 := mul_inv_cancel₀ n1
  have yCW := mul_inv_cancel₀ xCW
  have yMW := mul_inv_cancel₀ xMW
  have ySW := mul_inv_cancel₀ xSW
  linear_combination ((((-8) * ((c.SW : ℂ)) ^ 2 * ((c.e : ℂ)) ^ 2 * ((c.mass .u : ℂ)) * (ab z3.1 ρ0) * (sb z0.2 z1.2) + (-8) * ((c.SW : ℂ)) ^ 2 * ((c.e : ℂ)) ^ 2 * (mb z0.2 (p 2) ρ0) * (sb z1.2 z3.2)) * i0 + ((8) * ((c.SW : ℂ)) ^ 2 * ((c.e : ℂ)) ^ 2 * ((c.mass .u : ℂ)) * (mb z0.2 (p 1) z2.1) * (sb z0.2 z1.2)) * i1 + ((-16) * ((c.SW : ℂ)) ^ 2 * ((c.e : ℂ)) ^ 2 * ((c.mass .u : ℂ)) * (N.c 0) * (sb z0.2 z1.2) + (-16) * ((c.SW : ℂ)) ^ 2 * ((c.e : ℂ)) ^ 2 * ((c.mass .u : ℂ)) * (N.c 1) * (sb z0.2 z1.2)) * i2 + ((8) * ((c.MW : ℂ)) * ((c.SW : ℂ)) ^ 2 * ((c.e : ℂ)) ^ 2 * ((c.CW : ℂ)⁻¹) * ((c.mass .u : ℂ)) * (sb z0.2 z1.2) ^ 2) * i3 + ((8) * ((c.SW : ℂ)) ^ 2 * ((c.e : ℂ)) ^ 2 * ((c.mass .u : ℂ)) * (ab z2.1 ρ0) * (sb z0.2 z1.2) + (8) * ((c.SW : ℂ)) ^ 2 * ((c.e : ℂ)) ^ 2 * (ab z0.1 ρ0) * (sb z0.2 z1.2) * (sb z0.2 z2.2) + (8) * ((c.SW : ℂ)) ^ 2 * ((c.e : ℂ)) ^ 2 * (mb z0.2 (p 1) ρ0) * (sb z1.2 z2.2) + (-8) * ((c.SW : ℂ)) ^ 2 * ((c.e : ℂ)) ^ 2 * (mb z0.2 (p 2) ρ0) * (sb z1.2 z2.2) + (8) * ((c.SW : ℂ)) ^ 2 * ((c.e : ℂ)) ^ 2 * (mb z1.2 (p 2) ρ0) * (sb z0.2 z2.2) + (-6) * ((c.e : ℂ)) ^ 2 * (ab z0.1 ρ0) * (sb z0.2 z1.2) * (sb z0.2 z2.2) + (-6) * ((c.e : ℂ)) ^ 2 * (mb z1.2 (p 2) ρ0) * (sb z0.2 z2.2)) * i4 + ((-8) * ((c.SW : ℂ)) ^ 2 * ((c.e : ℂ)) ^ 2 * ((c.mass .u : ℂ)) * (mb z0.2 (p 1) z3.1) * (sb z0.2 z1.2) + (-8) * ((c.SW : ℂ)) ^ 2 * ((c.e : ℂ)) ^ 2 * (N.c 0) * (sb z0.2 z1.2) * (sb z0.2 z3.2) + (6) * ((c.e : ℂ)) ^ 2 * (N.c 0) * (sb z0.2 z1.2) * (sb z0.2 z3.2)) * i5 + ((-8) * ((c.SW : ℂ)) ^ 2 * ((c.e : ℂ)) ^ 2 * ((c.mass .u : ℂ)) * (ab z2.1 z3.1) * (sb z0.2 z1.2) + (-8) * ((c.SW : ℂ)) ^ 2 * ((c.e : ℂ)) ^ 2 * ((c.mass .u : ℂ)) * (sb z0.2 z2.2) * (sb z1.2 z3.2)) * i6 + ((-8) * ((c.SW : ℂ)) ^ 2 * ((c.e : ℂ)) ^ 2 * (N.c 0) * (sb z1.2 z3.2)) * i7 + ((-8) * ((c.MW : ℂ)) * ((c.SW : ℂ)) ^ 2 * ((c.e : ℂ)) ^ 2 * ((c.CW : ℂ)⁻¹) * (ab z1.1 z2.1) * (sb z0.2 z3.2) + (-8) * ((c.SW : ℂ)) ^ 2 * ((c.e : ℂ)) ^ 2 * ((c.mass .u : ℂ)) * (sb z0.2 z1.2) * (sb z2.2 z3.2) + (16) * ((c.SW : ℂ)) ^ 2 * ((c.e : ℂ)) ^ 2 * ((c.mass .u : ℂ)) * (sb z0.2 z2.2) * (sb z1.2 z3.2) + (8) * ((c.SW : ℂ)) ^ 2 * ((c.e : ℂ)) ^ 2 * (ab z0.1 z2.1) * (sb z0.2 z1.2) * (sb z0.2 z3.2) + (8) * ((c.SW : ℂ)) ^ 2 * ((c.e : ℂ)) ^ 2 * (mb z0.2 (p 1) z2.1) * (sb z1.2 z3.2) + (8) * ((c.SW : ℂ)) ^ 2 * ((c.e : ℂ)) ^ 2 * (mb z0.2 (p 1) z3.1) * (sb z1.2 z2.2) + (6) * ((c.e : ℂ)) ^ 2 * ((c.mass .u : ℂ)) * (sb z0.2 z1.2) * (sb z2.2 z3.2) + (-6) * ((c.e : ℂ)) ^ 2 * ((c.mass .u : ℂ)) * (sb z0.2 z2.2) * (sb z1.2 z3.2) + (-6) * ((c.e : ℂ)) ^ 2 * (ab z0.1 z2.1) * (sb z0.2 z1.2) * (sb z0.2 z3.2) + (-6) * ((c.e : ℂ)) ^ 2 * (mb z0.2 (p 1) z3.1) * (sb z1.2 z2.2)) * i8 + ((-8) * ((c.SW : ℂ)) ^ 2 * ((c.e : ℂ)) ^ 2 * ((c.mass .u : ℂ)) * (N.c 0) * (ab z1.1 ρ0) + (8) * ((c.SW : ℂ)) ^ 2 * ((c.e : ℂ)) ^ 2 * ((c.mass .u : ℂ)) * (ab z0.1 z1.1) * (mb z0.2 (p 1) ρ0) + (8) * ((c.SW : ℂ)) ^ 2 * ((c.e : ℂ)) ^ 2 * ((c.mass .u : ℂ)) * (ab z0.1 z1.1) * (mb z0.2 (p 2) ρ0) + (-8) * ((c.SW : ℂ)) ^ 2 * ((c.e : ℂ)) ^ 2 * ((c.mass .u : ℂ)) * (ab z0.1 ρ0) * (mb z0.2 (p 2) z1.1) + (6) * ((c.e : ℂ)) ^ 2 * ((c.mass .u : ℂ)) * (N.c 0) * (ab z1.1 ρ0) + (-12) * ((c.e : ℂ)) ^ 2 * ((c.mass .u : ℂ)) * (ab z0.1 z1.1) * (mb z0.2 (p 2) ρ0) + (6) * ((c.e : ℂ)) ^ 2 * ((c.mass .u : ℂ)) * (ab z0.1 ρ0) * (mb z0.2 (p 2) z1.1)) * i9 + ((-8) * ((c.SW : ℂ)) ^ 2 * ((c.e : ℂ)) ^ 2 * (ab z0.1 ρ0) * (sb z0.2 z1.2) * (sb z0.2 z3.2) + (-8) * ((c.SW : ℂ)) ^ 2 * ((c.e : ℂ)) ^ 2 * (mb z0.2 (p 1) ρ0) * (sb z1.2 z3.2) + (8) * ((c.SW : ℂ)) ^ 2 * ((c.e : ℂ)) ^ 2 * (mb z1.2 (p 2) ρ0) * (sb z0.2 z3.2) + (6) * ((c.e : ℂ)) ^ 2 * (ab z0.1 ρ0) * (sb z0.2 z1.2) * (sb z0.2 z3.2) + (6) * ((c.e : ℂ)) ^ 2 * (mb z0.2 (p 2) ρ0) * (sb z1.2 z3.2)) * i10 + ((8) * ((c.SW : ℂ)) ^ 2 * ((c.e : ℂ)) ^ 2 * (mb z0.2 (p 2) z1.1) * (sb z0.2 z3.2)) * i11 + ((8) * ((c.SW : ℂ)) ^ 2 * ((c.e : ℂ)) ^ 2 * (mb z0.2 (p 2) ρ0) * (sb z0.2 z3.2) + (-6) * ((c.e : ℂ)) ^ 2 * (mb z0.2 (p 2) ρ0) * (sb z0.2 z3.2)) * i12 + ((-8) * ((c.SW : ℂ)) ^ 2 * ((c.e : ℂ)) ^ 2 * (mb z1.2 (p 2) z0.1) * (sb z0.2 z3.2)) * i13 + ((6) * ((c.MW : ℂ)) * ((c.e : ℂ)) ^ 2 * ((c.CW : ℂ)⁻¹) * (sb z0.2 z1.2) * (sb z1.2 z3.2) + (8) * ((c.SW : ℂ)) ^ 2 * ((c.e : ℂ)) ^ 2 * (mb z1.2 (p 2) z1.1) * (sb z0.2 z3.2) + (6) * ((c.e : ℂ)) ^ 2 * (mb z0.2 (p 2) z1.1) * (sb z1.2 z3.2) + (-6) * ((c.e : ℂ)) ^ 2 * (mb z1.2 (p 2) z1.1) * (sb z0.2 z3.2)) * i14 + ((16) * ((c.SW : ℂ)) ^ 2 * ((c.e : ℂ)) ^ 2 * ((c.mass .u : ℂ)) * (sb z0.2 z2.2) * (sb z0.2 z3.2) + (-6) * ((c.e : ℂ)) ^ 2 * ((c.mass .u : ℂ)) * (sb z0.2 z2.2) * (sb z0.2 z3.2)) * i15 + ((-8) * ((c.SW : ℂ)) ^ 2 * ((c.e : ℂ)) ^ 2 * (ab z0.1 ρ0) * (sb z0.2 z1.2) * (sb z0.2 z2.2) + (-8) * ((c.SW : ℂ)) ^ 2 * ((c.e : ℂ)) ^ 2 * (mb z0.2 (p 1) ρ0) * (sb z1.2 z2.2) + (-8) * ((c.SW : ℂ)) ^ 2 * ((c.e : ℂ)) ^ 2 * (mb z1.2 (p 2) ρ0) * (sb z0.2 z2.2) + (6) * ((c.e : ℂ)) ^ 2 * (ab z0.1 ρ0) * (sb z0.2 z1.2) * (sb z0.2 z2.2) + (6) * ((c.e : ℂ)) ^ 2 * (mb z0.2 (p 2) ρ0) * (sb z1.2 z2.2) + (6) * ((c.e : ℂ)) ^ 2 * (mb z1.2 (p 2) ρ0) * (sb z0.2 z2.2)) * i16 + ((-8) * ((c.SW : ℂ)) ^ 2 * ((c.e : ℂ)) ^ 2 * (N.c 0) * (ab z2.1 ρ0) + (6) * ((c.e : ℂ)) ^ 2 * (N.c 0) * (ab z2.1 ρ0)) * i17 + ((-8) * ((c.MW : ℂ)) * ((c.SW : ℂ)) ^ 2 * ((c.e : ℂ)) ^ 2 * ((c.CW : ℂ)⁻¹) * (sb z0.2 z1.2) * (sb z0.2 z2.2) + (6) * ((c.MW : ℂ)) * ((c.e : ℂ)) ^ 2 * ((c.CW : ℂ)⁻¹) * (sb z0.2 z1.2) * (sb z0.2 z2.2) + (-8) * ((c.SW : ℂ)) ^ 2 * ((c.e : ℂ)) ^ 2 * (mb z0.2 (p 2) z1.1) * (sb z0.2 z2.2) + (6) * ((c.e : ℂ)) ^ 2 * (mb z0.2 (p 2) z1.1) * (sb z0.2 z2.2)) * i18 + ((-8) * ((c.SW : ℂ)) ^ 2 * ((c.e : ℂ)) ^ 2 * (N.c 0) * (sb z1.2 z2.2) + (-8) * ((c.SW : ℂ)) ^ 2 * ((c.e : ℂ)) ^ 2 * (mb z1.2 (p 2) z0.1) * (sb z0.2 z2.2) + (6) * ((c.e : ℂ)) ^ 2 * (N.c 0) * (sb z1.2 z2.2) + (6) * ((c.e : ℂ)) ^ 2 * (mb z1.2 (p 2) z0.1) * (sb z0.2 z2.2)) * i19 + ((8) * ((c.SW : ℂ)) ^ 2 * ((c.e : ℂ)) ^ 2 * (mb z1.2 (p 2) z0.1) * (sb z0.2 z2.2) + (-6) * ((c.e : ℂ)) ^ 2 * (mb z1.2 (p 2) z0.1) * (sb z0.2 z2.2)) * i20 + ((8) * ((c.SW : ℂ)) ^ 2 * ((c.e : ℂ)) ^ 2 * (ab z1.1 z2.1) * (mb z0.2 (p 2) ρ0)) * i21 + ((-8) * ((c.SW : ℂ)) ^ 2 * ((c.e : ℂ)) ^ 2 * (mb z0.2 (p 2) z1.1) * (sb z1.2 z3.2) + (6) * ((c.e : ℂ)) ^ 2 * ((c.mass .u : ℂ)) * (ab z1.1 z3.1) * (sb z0.2 z1.2)) * i22 + ((8) * ((c.SW : ℂ)) ^ 2 * ((c.e : ℂ)) ^ 2 * (mb z0.2 (p 1) ρ0) * (sb z0.2 z2.2) + (-8) * ((c.SW : ℂ)) ^ 2 * ((c.e : ℂ)) ^ 2 * (mb z0.2 (p 2) ρ0) * (sb z0.2 z2.2)) * i23 + ((-8) * ((c.SW : ℂ)) ^ 2 * ((c.e : ℂ)) ^ 2 * (mb z1.2 (p 2) z1.1) * (sb z0.2 z2.2) + (6) * ((c.e : ℂ)) ^ 2 * (mb z0.2 (p 2) z1.1) * (sb z1.2 z2.2)) * i24 + ((8) * ((c.SW : ℂ)) ^ 2 * ((c.e : ℂ)) ^ 2 * (mb z0.2 (p 1) ρ0) * (sb z0.2 z1.2) + (-8) * ((c.SW : ℂ)) ^ 2 * ((c.e : ℂ)) ^ 2 * (mb z0.2 (p 2) ρ0) * (sb z0.2 z1.2)) * i25 + ((-8) * ((c.SW : ℂ)) ^ 2 * ((c.e : ℂ)) ^ 2 * (mb z0.2 (p 2) z1.1) * (sb z1.2 z2.2) + (8) * ((c.SW : ℂ)) ^ 2 * ((c.e : ℂ)) ^ 2 * (mb z1.2 (p 2) z1.1) * (sb z0.2 z2.2)) * i26 + ((-8) * ((c.SW : ℂ)) ^ 2 * ((c.e : ℂ)) ^ 2 * (ab z1.1 z3.1) * (mb z0.2 (p 1) ρ0) + (8) * ((c.SW : ℂ)) ^ 2 * ((c.e : ℂ)) ^ 2 * (ab z1.1 z3.1) * (mb z0.2 (p 2) ρ0)) * i27 + ((-8) * ((c.SW : ℂ)) ^ 2 * ((c.e : ℂ)) ^ 2 * (N.c 1) * (ab z3.1 ρ0)) * i28 + ((-8) * ((c.SW : ℂ)) ^ 2 * ((c.e : ℂ)) ^ 2 * ((c.mass .u : ℂ)) * (ab z1.1 ρ0) * (sb z0.2 z1.2)) * i29 + ((-8) * ((c.SW : ℂ)) ^ 2 * ((c.e : ℂ)) ^ 2 * (mb z0.2 (p 2) ρ0) * (sb z0.2 z1.2) + (6) * ((c.e : ℂ)) ^ 2 * (mb z0.2 (p 2) ρ0) * (sb z0.2 z1.2)) * i30 + ((6) * ((c.e : ℂ)) ^ 2 * (ab z1.1 z3.1) * (mb z0.2 (p 1) ρ0) + (-6) * ((c.e : ℂ)) ^ 2 * (ab z1.1 z3.1) * (mb z0.2 (p 2) ρ0)) * i31 + ((-6) * ((c.e : ℂ)) ^ 2 * (ab z1.1 z2.1) * (mb z0.2 (p 2) ρ0)) * i32 + ((6) * ((c.e : ℂ)) ^ 2 * ((c.mass .u : ℂ)) * (mb z0.2 (p 2) ρ0) * (sb z0.2 z1.2)) * i33)) * ((1) * ((c.CW : ℂ)) * ((c.CW : ℂ)⁻¹) * ((c.MW : ℂ)⁻¹) * ((c.SW : ℂ)⁻¹) * ((N.c 0)⁻¹) * ((N.c 1)⁻¹) / (9)) + ((-8) * ((c.CW : ℂ)) * ((c.MW : ℂ)) * ((c.SW : ℂ)) ^ 2 * ((c.e : ℂ)) ^ 2 * ((c.CW : ℂ)⁻¹) ^ 2 * ((c.MW : ℂ)⁻¹) * ((c.SW : ℂ)⁻¹) * ((N.c 1)⁻¹) * (ab z1.1 z2.1) * (ab z1.1 ρ0) * (sb z0.2 z3.2) / (9) + (-8) * ((c.CW : ℂ)) * ((c.MW : ℂ)) * ((c.SW : ℂ)) ^ 2 * ((c.e : ℂ)) ^ 2 * ((c.CW : ℂ)⁻¹) ^ 2 * ((c.MW : ℂ)⁻¹) * ((c.SW : ℂ)⁻¹) * ((N.c 1)⁻¹) * (ab z3.1 ρ0) * (sb z0.2 z1.2) * (sb z1.2 z2.2) / (9) + (2) * ((c.CW : ℂ)) * ((c.MW : ℂ)) * ((c.e : ℂ)) ^ 2 * ((c.CW : ℂ)⁻¹) ^ 2 * ((c.MW : ℂ)⁻¹) * ((c.SW : ℂ)⁻¹) * ((N.c 1)⁻¹) * (ab z3.1 ρ0) * (sb z0.2 z1.2) * (sb z1.2 z2.2) / (3) + (8) * ((c.CW : ℂ)) * ((c.SW : ℂ)) ^ 2 * ((c.e : ℂ)) ^ 2 * ((c.CW : ℂ)⁻¹) * ((c.MW : ℂ)⁻¹) * ((c.SW : ℂ)⁻¹) * ((c.mass .u : ℂ)) * ((N.c 1)⁻¹) * (ab z1.1 z2.1) * (ab z3.1 ρ0) * (sb z0.2 z1.2) / (9) + (8) * ((c.CW : ℂ)) * ((c.SW : ℂ)) ^ 2 * ((c.e : ℂ)) ^ 2 * ((c.CW : ℂ)⁻¹) * ((c.MW : ℂ)⁻¹) * ((c.SW : ℂ)⁻¹) * ((c.mass .u : ℂ)) * ((N.c 1)⁻¹) * (ab z1.1 ρ0) * (sb z0.2 z3.2) * (sb z1.2 z2.2) / (9) + (8) * ((c.CW : ℂ)) * ((c.SW : ℂ)) ^ 2 * ((c.e : ℂ)) ^ 2 * ((c.CW : ℂ)⁻¹) * ((c.MW : ℂ)⁻¹) * ((c.SW : ℂ)⁻¹) * ((N.c 1)⁻¹) * (ab z1.1 z2.1) * (mb z1.2 (p 2) ρ0) * (sb z0.2 z3.2) / (9) + (-8) * ((c.CW : ℂ)) * ((c.SW : ℂ)) ^ 2 * ((c.e : ℂ)) ^ 2 * ((c.CW : ℂ)⁻¹) * ((c.MW : ℂ)⁻¹) * ((c.SW : ℂ)⁻¹) * ((N.c 1)⁻¹) * (ab z3.1 ρ0) * (mb z0.2 (p 2) z1.1) * (sb z1.2 z2.2) / (9) + (-2) * ((c.CW : ℂ)) * ((c.e : ℂ)) ^ 2 * ((c.CW : ℂ)⁻¹) * ((c.MW : ℂ)⁻¹) * ((c.SW : ℂ)⁻¹) * ((c.mass .u : ℂ)) * ((N.c 1)⁻¹) * (ab z1.1 ρ0) * (sb z0.2 z3.2) * (sb z1.2 z2.2) / (3) + (2) * ((c.CW : ℂ)) * ((c.e : ℂ)) ^ 2 * ((c.CW : ℂ)⁻¹) * ((c.MW : ℂ)⁻¹) * ((c.SW : ℂ)⁻¹) * ((N.c 1)⁻¹) * (ab z3.1 ρ0) * (mb z0.2 (p 2) z1.1) * (sb z1.2 z2.2) / (3)) * y0 + ((-8) * ((c.CW : ℂ)) * ((c.SW : ℂ)) ^ 2 * ((c.e : ℂ)) ^ 2 * ((c.CW : ℂ)⁻¹) * ((c.MW : ℂ)⁻¹) * ((c.SW : ℂ)⁻¹) * ((c.mass .u : ℂ)) * ((N.c 0)⁻¹) * (ab z1.1 z3.1) * (ab z2.1 ρ0) * (sb z0.2 z1.2) / (9) + (-8) * ((c.CW : ℂ)) * ((c.SW : ℂ)) ^ 2 * ((c.e : ℂ)) ^ 2 * ((c.CW : ℂ)⁻¹) * ((c.MW : ℂ)⁻¹) * ((c.SW : ℂ)⁻¹) * ((c.mass .u : ℂ)) * ((N.c 0)⁻¹) * (ab z1.1 ρ0) * (sb z0.2 z2.2) * (sb z1.2 z3.2) / (9) + (8) * ((c.CW : ℂ)) * ((c.SW : ℂ)) ^ 2 * ((c.e : ℂ)) ^ 2 * ((c.CW : ℂ)⁻¹) * ((c.MW : ℂ)⁻¹) * ((c.SW : ℂ)⁻¹) * ((N.c 0)⁻¹) * (ab z0.1 ρ0) * (ab z1.1 z3.1) * (sb z0.2 z1.2) * (sb z0.2 z2.2) / (9) + (8) * ((c.CW : ℂ)) * ((c.SW : ℂ)) ^ 2 * ((c.e : ℂ)) ^ 2 * ((c.CW : ℂ)⁻¹) * ((c.MW : ℂ)⁻¹) * ((c.SW : ℂ)⁻¹) * ((N.c 0)⁻¹) * (ab z1.1 z3.1) * (mb z1.2 (p 2) ρ0) * (sb z0.2 z2.2) / (9) + (-8) * ((c.CW : ℂ)) * ((c.SW : ℂ)) ^ 2 * ((c.e : ℂ)) ^ 2 * ((c.CW : ℂ)⁻¹) * ((c.MW : ℂ)⁻¹) * ((c.SW : ℂ)⁻¹) * ((N.c 0)⁻¹) * (ab z2.1 ρ0) * (mb z0.2 (p 2) z1.1) * (sb z1.2 z3.2) / (9) + (2) * ((c.CW : ℂ)) * ((c.e : ℂ)) ^ 2 * ((c.CW : ℂ)⁻¹) * ((c.MW : ℂ)⁻¹) * ((c.SW : ℂ)⁻¹) * ((c.mass .u : ℂ)) * ((N.c 0)⁻¹) * (ab z1.1 z3.1) * (ab z2.1 ρ0) * (sb z0.2 z1.2) / (3) + (-2) * ((c.CW : ℂ)) * ((c.e : ℂ)) ^ 2 * ((c.CW : ℂ)⁻¹) * ((c.MW : ℂ)⁻¹) * ((c.SW : ℂ)⁻¹) * ((N.c 0)⁻¹) * (ab z0.1 ρ0) * (ab z1.1 z3.1) * (sb z0.2 z1.2) * (sb z0.2 z2.2) / (3) + (-2) * ((c.CW : ℂ)) * ((c.e : ℂ)) ^ 2 * ((c.CW : ℂ)⁻¹) * ((c.MW : ℂ)⁻¹) * ((c.SW : ℂ)⁻¹) * ((N.c 0)⁻¹) * (ab z1.1 z3.1) * (mb z1.2 (p 2) ρ0) * (sb z0.2 z2.2) / (3)) * y1 + ((4) * ((c.MW : ℂ)) * (((√2 : ℝ) : ℂ)) ^ 2 * ((c.SW : ℂ)) ^ 2 * ((c.e : ℂ)) ^ 2 * ((c.CW : ℂ)⁻¹) * ((c.MW : ℂ)⁻¹) * ((c.SW : ℂ)⁻¹) * ((N.c 1)⁻¹) * (ab z1.1 z2.1) * (ab z1.1 ρ0) * (sb z0.2 z3.2) / (9) + (4) * ((c.MW : ℂ)) * (((√2 : ℝ) : ℂ)) ^ 2 * ((c.SW : ℂ)) ^ 2 * ((c.e : ℂ)) ^ 2 * ((c.CW : ℂ)⁻¹) * ((c.MW : ℂ)⁻¹) * ((c.SW : ℂ)⁻¹) * ((N.c 1)⁻¹) * (ab z3.1 ρ0) * (sb z0.2 z1.2) * (sb z1.2 z2.2) / (9) + (-1) * ((c.MW : ℂ)) * (((√2 : ℝ) : ℂ)) ^ 2 * ((c.e : ℂ)) ^ 2 * ((c.CW : ℂ)⁻¹) * ((c.MW : ℂ)⁻¹) * ((c.SW : ℂ)⁻¹) * ((N.c 1)⁻¹) * (ab z3.1 ρ0) * (sb z0.2 z1.2) * (sb z1.2 z2.2) / (3) + (-8) * ((c.MW : ℂ)) * ((c.SW : ℂ)) ^ 2 * ((c.e : ℂ)) ^ 2 * ((c.CW : ℂ)⁻¹) * ((c.MW : ℂ)⁻¹) * ((c.SW : ℂ)⁻¹) * ((N.c 0)⁻¹) * ((N.c 1)⁻¹) * (ab z0.1 ρ0) * (ab z1.1 z2.1) * (mb z0.2 (p 2) z1.1) * (sb z0.2 z3.2) / (9) + (-8) * ((c.MW : ℂ)) * ((c.SW : ℂ)) ^ 2 * ((c.e : ℂ)) ^ 2 * ((c.CW : ℂ)⁻¹) * ((c.MW : ℂ)⁻¹) * ((c.SW : ℂ)⁻¹) * ((N.c 0)⁻¹) * ((N.c 1)⁻¹) * (ab z0.1 ρ0) * (ab z1.1 z3.1) * (mb z0.2 (p 2) z1.1) * (sb z0.2 z2.2) / (9) + (-8) * ((c.MW : ℂ)) * ((c.SW : ℂ)) ^ 2 * ((c.e : ℂ)) ^ 2 * ((c.CW : ℂ)⁻¹) * ((c.MW : ℂ)⁻¹) * ((c.SW : ℂ)⁻¹) * ((N.c 1)⁻¹) * (ab z1.1 z2.1) * (ab z1.1 ρ0) * (sb z0.2 z3.2) / (9) + (-8) * ((c.MW : ℂ)) * ((c.SW : ℂ)) ^ 2 * ((c.e : ℂ)) ^ 2 * ((c.CW : ℂ)⁻¹) * ((c.MW : ℂ)⁻¹) * ((c.SW : ℂ)⁻¹) * ((N.c 1)⁻¹) * (ab z3.1 ρ0) * (sb z0.2 z1.2) * (sb z1.2 z2.2) / (9) + (2) * ((c.MW : ℂ)) * ((c.e : ℂ)) ^ 2 * ((c.CW : ℂ)⁻¹) * ((c.MW : ℂ)⁻¹) * ((c.SW : ℂ)⁻¹) * ((N.c 0)⁻¹) * ((N.c 1)⁻¹) * (ab z0.1 ρ0) * (ab z1.1 z3.1) * (mb z0.2 (p 2) z1.1) * (sb z0.2 z2.2) / (3) + (2) * ((c.MW : ℂ)) * ((c.e : ℂ)) ^ 2 * ((c.CW : ℂ)⁻¹) * ((c.MW : ℂ)⁻¹) * ((c.SW : ℂ)⁻¹) * ((N.c 1)⁻¹) * (ab z3.1 ρ0) * (sb z0.2 z1.2) * (sb z1.2 z2.2) / (3) + (-8) * ((c.MW : ℂ)) ^ 2 * ((c.SW : ℂ)) ^ 2 * ((c.e : ℂ)) ^ 2 * ((c.CW : ℂ)⁻¹) ^ 2 * ((c.MW : ℂ)⁻¹) * ((c.SW : ℂ)⁻¹) * ((N.c 0)⁻¹) * ((N.c 1)⁻¹) * (ab z0.1 ρ0) * (ab z1.1 z3.1) * (sb z0.2 z1.2) * (sb z0.2 z2.2) / (9) + (2) * ((c.MW : ℂ)) ^ 2 * ((c.e : ℂ)) ^ 2 * ((c.CW : ℂ)⁻¹) ^ 2 * ((c.MW : ℂ)⁻¹) * ((c.SW : ℂ)⁻¹) * ((N.c 0)⁻¹) * ((N.c 1)⁻¹) * (ab z0.1 ρ0) * (ab z1.1 z3.1) * (sb z0.2 z1.2) * (sb z0.2 z2.2) / (3) + (4) * (((√2 : ℝ) : ℂ)) ^ 2 * ((c.SW : ℂ)) ^ 2 * ((c.e : ℂ)) ^ 2 * ((c.MW : ℂ)⁻¹) * ((c.SW : ℂ)⁻¹) * ((c.mass .u : ℂ)) * ((N.c 0)⁻¹) * (ab z1.1 z3.1) * (ab z2.1 ρ0) * (sb z0.2 z1.2) / (9) + (4) * (((√2 : ℝ) : ℂ)) ^ 2 * ((c.SW : ℂ)) ^ 2 * ((c.e : ℂ)) ^ 2 * ((c.MW : ℂ)⁻¹) * ((c.SW : ℂ)⁻¹) * ((c.mass .u : ℂ)) * ((N.c 0)⁻¹) * (ab z1.1 ρ0) * (sb z0.2 z2.2) * (sb z1.2 z3.2) / (9) + (-4) * (((√2 : ℝ) : ℂ)) ^ 2 * ((c.SW : ℂ)) ^ 2 * ((c.e : ℂ)) ^ 2 * ((c.MW : ℂ)⁻¹) * ((c.SW : ℂ)⁻¹) * ((c.mass .u : ℂ)) * ((N.c 1)⁻¹) * (ab z1.1 z2.1) * (ab z3.1 ρ0) * (sb z0.2 z1.2) / (9) + (-4) * (((√2 : ℝ) : ℂ)) ^ 2 * ((c.SW : ℂ)) ^ 2 * ((c.e : ℂ)) ^ 2 * ((c.MW : ℂ)⁻¹) * ((c.SW : ℂ)⁻¹) * ((c.mass .u : ℂ)) * ((N.c 1)⁻¹) * (ab z1.1 ρ0) * (sb z0.2 z3.2) * (sb z1.2 z2.2) / (9) + (-4) * (((√2 : ℝ) : ℂ)) ^ 2 * ((c.SW : ℂ)) ^ 2 * ((c.e : ℂ)) ^ 2 * ((c.MW : ℂ)⁻¹) * ((c.SW : ℂ)⁻¹) * ((N.c 0)⁻¹) * (ab z0.1 ρ0) * (ab z1.1 z3.1) * (sb z0.2 z1.2) * (sb z0.2 z2.2) / (9) + (-4) * (((√2 : ℝ) : ℂ)) ^ 2 * ((c.SW : ℂ)) ^ 2 * ((c.e : ℂ)) ^ 2 * ((c.MW : ℂ)⁻¹) * ((c.SW : ℂ)⁻¹) * ((N.c 0)⁻¹) * (ab z1.1 z3.1) * (mb z1.2 (p 2) ρ0) * (sb z0.2 z2.2) / (9) + (4) * (((√2 : ℝ) : ℂ)) ^ 2 * ((c.SW : ℂ)) ^ 2 * ((c.e : ℂ)) ^ 2 * ((c.MW : ℂ)⁻¹) * ((c.SW : ℂ)⁻¹) * ((N.c 0)⁻¹) * (ab z2.1 ρ0) * (mb z0.2 (p 2) z1.1) * (sb z1.2 z3.2) / (9) + (-4) * (((√2 : ℝ) : ℂ)) ^ 2 * ((c.SW : ℂ)) ^ 2 * ((c.e : ℂ)) ^ 2 * ((c.MW : ℂ)⁻¹) * ((c.SW : ℂ)⁻¹) * ((N.c 1)⁻¹) * (ab z1.1 z2.1) * (mb z1.2 (p 2) ρ0) * (sb z0.2 z3.2) / (9) + (4) * (((√2 : ℝ) : ℂ)) ^ 2 * ((c.SW : ℂ)) ^ 2 * ((c.e : ℂ)) ^ 2 * ((c.MW : ℂ)⁻¹) * ((c.SW : ℂ)⁻¹) * ((N.c 1)⁻¹) * (ab z3.1 ρ0) * (mb z0.2 (p 2) z1.1) * (sb z1.2 z2.2) / (9) + (-1) * (((√2 : ℝ) : ℂ)) ^ 2 * ((c.e : ℂ)) ^ 2 * ((c.MW : ℂ)⁻¹) * ((c.SW : ℂ)⁻¹) * ((c.mass .u : ℂ)) * ((N.c 0)⁻¹) * (ab z1.1 z3.1) * (ab z2.1 ρ0) * (sb z0.2 z1.2) / (3) + (1) * (((√2 : ℝ) : ℂ)) ^ 2 * ((c.e : ℂ)) ^ 2 * ((c.MW : ℂ)⁻¹) * ((c.SW : ℂ)⁻¹) * ((c.mass .u : ℂ)) * ((N.c 1)⁻¹) * (ab z1.1 ρ0) * (sb z0.2 z3.2) * (sb z1.2 z2.2) / (3) + (1) * (((√2 : ℝ) : ℂ)) ^ 2 * ((c.e : ℂ)) ^ 2 * ((c.MW : ℂ)⁻¹) * ((c.SW : ℂ)⁻¹) * ((N.c 0)⁻¹) * (ab z0.1 ρ0) * (ab z1.1 z3.1) * (sb z0.2 z1.2) * (sb z0.2 z2.2) / (3) + (1) * (((√2 : ℝ) : ℂ)) ^ 2 * ((c.e : ℂ)) ^ 2 * ((c.MW : ℂ)⁻¹) * ((c.SW : ℂ)⁻¹) * ((N.c 0)⁻¹) * (ab z1.1 z3.1) * (mb z1.2 (p 2) ρ0) * (sb z0.2 z2.2) / (3) + (-1) * (((√2 : ℝ) : ℂ)) ^ 2 * ((c.e : ℂ)) ^ 2 * ((c.MW : ℂ)⁻¹) * ((c.SW : ℂ)⁻¹) * ((N.c 1)⁻¹) * (ab z3.1 ρ0) * (mb z0.2 (p 2) z1.1) * (sb z1.2 z2.2) / (3) + (8) * ((c.SW : ℂ)) ^ 2 * ((c.e : ℂ)) ^ 2 * ((c.MW : ℂ)⁻¹) * ((c.SW : ℂ)⁻¹) * ((c.mass .u : ℂ)) * ((N.c 0)⁻¹) * ((N.c 1)⁻¹) * (ab z0.1 ρ0) * (ab z1.1 z2.1) * (mb z0.2 (p 1) z3.1) * (sb z0.2 z1.2) / (9) + (-8) * ((c.SW : ℂ)) ^ 2 * ((c.e : ℂ)) ^ 2 * ((c.MW : ℂ)⁻¹) * ((c.SW : ℂ)⁻¹) * ((c.mass .u : ℂ)) * ((N.c 0)⁻¹) * ((N.c 1)⁻¹) * (ab z0.1 ρ0) * (ab z1.1 z3.1) * (mb z0.2 (p 1) z2.1) * (sb z0.2 z1.2) / (9) + (-8) * ((c.SW : ℂ)) ^ 2 * ((c.e : ℂ)) ^ 2 * ((c.MW : ℂ)⁻¹) * ((c.SW : ℂ)⁻¹) * ((c.mass .u : ℂ)) * ((N.c 0)⁻¹) * (ab z1.1 z3.1) * (ab z2.1 ρ0) * (sb z0.2 z1.2) / (9) + (-8) * ((c.SW : ℂ)) ^ 2 * ((c.e : ℂ)) ^ 2 * ((c.MW : ℂ)⁻¹) * ((c.SW : ℂ)⁻¹) * ((c.mass .u : ℂ)) * ((N.c 0)⁻¹) * (ab z1.1 ρ0) * (sb z0.2 z2.2) * (sb z1.2 z3.2) / (9) + (8) * ((c.SW : ℂ)) ^ 2 * ((c.e : ℂ)) ^ 2 * ((c.MW : ℂ)⁻¹) * ((c.SW : ℂ)⁻¹) * ((c.mass .u : ℂ)) * ((N.c 1)⁻¹) * (ab z1.1 z2.1) * (ab z3.1 ρ0) * (sb z0.2 z1.2) / (9) + (8) * ((c.SW : ℂ)) ^ 2 * ((c.e : ℂ)) ^ 2 * ((c.MW : ℂ)⁻¹) * ((c.SW : ℂ)⁻¹) * ((c.mass .u : ℂ)) * ((N.c 1)⁻¹) * (ab z1.1 ρ0) * (sb z0.2 z3.2) * (sb z1.2 z2.2) / (9) + (8) * ((c.SW : ℂ)) ^ 2 * ((c.e : ℂ)) ^ 2 * ((c.MW : ℂ)⁻¹) * ((c.SW : ℂ)⁻¹) * ((N.c 0)⁻¹) * (ab z0.1 ρ0) * (ab z1.1 z3.1) * (sb z0.2 z1.2) * (sb z0.2 z2.2) / (9) + (8) * ((c.SW : ℂ)) ^ 2 * ((c.e : ℂ)) ^ 2 * ((c.MW : ℂ)⁻¹) * ((c.SW : ℂ)⁻¹) * ((N.c 0)⁻¹) * (ab z1.1 z3.1) * (mb z1.2 (p 2) ρ0) * (sb z0.2 z2.2) / (9) + (-8) * ((c.SW : ℂ)) ^ 2 * ((c.e : ℂ)) ^ 2 * ((c.MW : ℂ)⁻¹) * ((c.SW : ℂ)⁻¹) * ((N.c 0)⁻¹) * (ab z2.1 ρ0) * (mb z0.2 (p 2) z1.1) * (sb z1.2 z3.2) / (9) + (8) * ((c.SW : ℂ)) ^ 2 * ((c.e : ℂ)) ^ 2 * ((c.MW : ℂ)⁻¹) * ((c.SW : ℂ)⁻¹) * ((N.c 1)⁻¹) * (ab z1.1 z2.1) * (mb z1.2 (p 2) ρ0) * (sb z0.2 z3.2) / (9) + (-8) * ((c.SW : ℂ)) ^ 2 * ((c.e : ℂ)) ^ 2 * ((c.MW : ℂ)⁻¹) * ((c.SW : ℂ)⁻¹) * ((N.c 1)⁻¹) * (ab z3.1 ρ0) * (mb z0.2 (p 2) z1.1) * (sb z1.2 z2.2) / (9) + (2) * ((c.e : ℂ)) ^ 2 * ((c.MW : ℂ)⁻¹) * ((c.SW : ℂ)⁻¹) * ((c.mass .u : ℂ)) * ((N.c 0)⁻¹) * ((N.c 1)⁻¹) * (ab z0.1 ρ0) * (ab z1.1 z3.1) * (mb z0.2 (p 1) z2.1) * (sb z0.2 z1.2) / (3) + (2) * ((c.e : ℂ)) ^ 2 * ((c.MW : ℂ)⁻¹) * ((c.SW : ℂ)⁻¹) * ((c.mass .u : ℂ)) * ((N.c 0)⁻¹) * (ab z1.1 z3.1) * (ab z2.1 ρ0) * (sb z0.2 z1.2) / (3) + (-2) * ((c.e : ℂ)) ^ 2 * ((c.MW : ℂ)⁻¹) * ((c.SW : ℂ)⁻¹) * ((c.mass .u : ℂ)) * ((N.c 1)⁻¹) * (ab z1.1 ρ0) * (sb z0.2 z3.2) * (sb z1.2 z2.2) / (3) + (-2) * ((c.e : ℂ)) ^ 2 * ((c.MW : ℂ)⁻¹) * ((c.SW : ℂ)⁻¹) * ((N.c 0)⁻¹) * (ab z0.1 ρ0) * (ab z1.1 z3.1) * (sb z0.2 z1.2) * (sb z0.2 z2.2) / (3) + (-2) * ((c.e : ℂ)) ^ 2 * ((c.MW : ℂ)⁻¹) * ((c.SW : ℂ)⁻¹) * ((N.c 0)⁻¹) * (ab z1.1 z3.1) * (mb z1.2 (p 2) ρ0) * (sb z0.2 z2.2) / (3) + (2) * ((c.e : ℂ)) ^ 2 * ((c.MW : ℂ)⁻¹) * ((c.SW : ℂ)⁻¹) * ((N.c 1)⁻¹) * (ab z3.1 ρ0) * (mb z0.2 (p 2) z1.1) * (sb z1.2 z2.2) / (3)) * yCW + ((4) * (((√2 : ℝ) : ℂ)) ^ 2 * ((c.SW : ℂ)) ^ 2 * ((c.e : ℂ)) ^ 2 * ((c.CW : ℂ)⁻¹) * ((c.SW : ℂ)⁻¹) * ((N.c 1)⁻¹) * (ab z1.1 z2.1) * (ab z1.1 ρ0) * (sb z0.2 z3.2) / (9) + (4) * (((√2 : ℝ) : ℂ)) ^ 2 * ((c.SW : ℂ)) ^ 2 * ((c.e : ℂ)) ^ 2 * ((c.CW : ℂ)⁻¹) * ((c.SW : ℂ)⁻¹) * ((N.c 1)⁻¹) * (ab z3.1 ρ0) * (sb z0.2 z1.2) * (sb z1.2 z2.2) / (9) + (-1) * (((√2 : ℝ) : ℂ)) ^ 2 * ((c.e : ℂ)) ^ 2 * ((c.CW : ℂ)⁻¹) * ((c.SW : ℂ)⁻¹) * ((N.c 1)⁻¹) * (ab z3.1 ρ0) * (sb z0.2 z1.2) * (sb z1.2 z2.2) / (3) + (-8) * ((c.SW : ℂ)) ^ 2 * ((c.e : ℂ)) ^ 2 * ((c.CW : ℂ)⁻¹) * ((c.SW : ℂ)⁻¹) * ((N.c 1)⁻¹) * (ab z1.1 z2.1) * (ab z1.1 ρ0) * (sb z0.2 z3.2) / (9) + (-8) * ((c.SW : ℂ)) ^ 2 * ((c.e : ℂ)) ^ 2 * ((c.CW : ℂ)⁻¹) * ((c.SW : ℂ)⁻¹) * ((N.c 1)⁻¹) * (ab z3.1 ρ0) * (sb z0.2 z1.2) * (sb z1.2 z2.2) / (9) + (2) * ((c.e : ℂ)) ^ 2 * ((c.CW : ℂ)⁻¹) * ((c.SW : ℂ)⁻¹) * ((N.c 1)⁻¹) * (ab z3.1 ρ0) * (sb z0.2 z1.2) * (sb z1.2 z2.2) / (3)) * yMW + ((4) * (((√2 : ℝ) : ℂ)) ^ 2 * ((c.SW : ℂ)) * ((c.e : ℂ)) ^ 2 * ((c.CW : ℂ)⁻¹) * ((N.c 1)⁻¹) * (ab z1.1 z2.1) * (ab z1.1 ρ0) * (sb z0.2 z3.2) / (9) + (4) * (((√2 : ℝ) : ℂ)) ^ 2 * ((c.SW : ℂ)) * ((c.e : ℂ)) ^ 2 * ((c.CW : ℂ)⁻¹) * ((N.c 1)⁻¹) * (ab z3.1 ρ0) * (sb z0.2 z1.2) * (sb z1.2 z2.2) / (9) + (4) * (((√2 : ℝ) : ℂ)) ^ 2 * ((c.SW : ℂ)) * ((c.e : ℂ)) ^ 2 * ((c.MW : ℂ)⁻¹) * ((c.mass .u : ℂ)) * ((N.c 0)⁻¹) * (ab z1.1 z3.1) * (ab z2.1 ρ0) * (sb z0.2 z1.2) / (9) + (4) * (((√2 : ℝ) : ℂ)) ^ 2 * ((c.SW : ℂ)) * ((c.e : ℂ)) ^ 2 * ((c.MW : ℂ)⁻¹) * ((c.mass .u : ℂ)) * ((N.c 0)⁻¹) * (ab z1.1 ρ0) * (sb z0.2 z2.2) * (sb z1.2 z3.2) / (9) + (-4) * (((√2 : ℝ) : ℂ)) ^ 2 * ((c.SW : ℂ)) * ((c.e : ℂ)) ^ 2 * ((c.MW : ℂ)⁻¹) * ((c.mass .u : ℂ)) * ((N.c 1)⁻¹) * (ab z1.1 z2.1) * (ab z3.1 ρ0) * (sb z0.2 z1.2) / (9) + (-4) * (((√2 : ℝ) : ℂ)) ^ 2 * ((c.SW : ℂ)) * ((c.e : ℂ)) ^ 2 * ((c.MW : ℂ)⁻¹) * ((c.mass .u : ℂ)) * ((N.c 1)⁻¹) * (ab z1.1 ρ0) * (sb z0.2 z3.2) * (sb z1.2 z2.2) / (9) + (-4) * (((√2 : ℝ) : ℂ)) ^ 2 * ((c.SW : ℂ)) * ((c.e : ℂ)) ^ 2 * ((c.MW : ℂ)⁻¹) * ((N.c 0)⁻¹) * (ab z0.1 ρ0) * (ab z1.1 z3.1) * (sb z0.2 z1.2) * (sb z0.2 z2.2) / (9) + (-4) * (((√2 : ℝ) : ℂ)) ^ 2 * ((c.SW : ℂ)) * ((c.e : ℂ)) ^ 2 * ((c.MW : ℂ)⁻¹) * ((N.c 0)⁻¹) * (ab z1.1 z3.1) * (mb z1.2 (p 2) ρ0) * (sb z0.2 z2.2) / (9) + (4) * (((√2 : ℝ) : ℂ)) ^ 2 * ((c.SW : ℂ)) * ((c.e : ℂ)) ^ 2 * ((c.MW : ℂ)⁻¹) * ((N.c 0)⁻¹) * (ab z2.1 ρ0) * (mb z0.2 (p 2) z1.1) * (sb z1.2 z3.2) / (9) + (-4) * (((√2 : ℝ) : ℂ)) ^ 2 * ((c.SW : ℂ)) * ((c.e : ℂ)) ^ 2 * ((c.MW : ℂ)⁻¹) * ((N.c 1)⁻¹) * (ab z1.1 z2.1) * (mb z1.2 (p 2) ρ0) * (sb z0.2 z3.2) / (9) + (4) * (((√2 : ℝ) : ℂ)) ^ 2 * ((c.SW : ℂ)) * ((c.e : ℂ)) ^ 2 * ((c.MW : ℂ)⁻¹) * ((N.c 1)⁻¹) * (ab z3.1 ρ0) * (mb z0.2 (p 2) z1.1) * (sb z1.2 z2.2) / (9) + (-8) * ((c.SW : ℂ)) * ((c.e : ℂ)) ^ 2 * ((c.CW : ℂ)⁻¹) * ((N.c 1)⁻¹) * (ab z1.1 z2.1) * (ab z1.1 ρ0) * (sb z0.2 z3.2) / (9) + (-8) * ((c.SW : ℂ)) * ((c.e : ℂ)) ^ 2 * ((c.CW : ℂ)⁻¹) * ((N.c 1)⁻¹) * (ab z3.1 ρ0) * (sb z0.2 z1.2) * (sb z1.2 z2.2) / (9) + (-8) * ((c.SW : ℂ)) * ((c.e : ℂ)) ^ 2 * ((c.MW : ℂ)⁻¹) * ((c.mass .u : ℂ)) * ((N.c 0)⁻¹) * (ab z1.1 z3.1) * (ab z2.1 ρ0) * (sb z0.2 z1.2) / (9) + (-8) * ((c.SW : ℂ)) * ((c.e : ℂ)) ^ 2 * ((c.MW : ℂ)⁻¹) * ((c.mass .u : ℂ)) * ((N.c 0)⁻¹) * (ab z1.1 ρ0) * (sb z0.2 z2.2) * (sb z1.2 z3.2) / (9) + (8) * ((c.SW : ℂ)) * ((c.e : ℂ)) ^ 2 * ((c.MW : ℂ)⁻¹) * ((c.mass .u : ℂ)) * ((N.c 1)⁻¹) * (ab z1.1 z2.1) * (ab z3.1 ρ0) * (sb z0.2 z1.2) / (9) + (8) * ((c.SW : ℂ)) * ((c.e : ℂ)) ^ 2 * ((c.MW : ℂ)⁻¹) * ((c.mass .u : ℂ)) * ((N.c 1)⁻¹) * (ab z1.1 ρ0) * (sb z0.2 z3.2) * (sb z1.2 z2.2) / (9) + (8) * ((c.SW : ℂ)) * ((c.e : ℂ)) ^ 2 * ((c.MW : ℂ)⁻¹) * ((N.c 0)⁻¹) * (ab z0.1 ρ0) * (ab z1.1 z3.1) * (sb z0.2 z1.2) * (sb z0.2 z2.2) / (9) + (8) * ((c.SW : ℂ)) * ((c.e : ℂ)) ^ 2 * ((c.MW : ℂ)⁻¹) * ((N.c 0)⁻¹) * (ab z1.1 z3.1) * (mb z1.2 (p 2) ρ0) * (sb z0.2 z2.2) / (9) + (-8) * ((c.SW : ℂ)) * ((c.e : ℂ)) ^ 2 * ((c.MW : ℂ)⁻¹) * ((N.c 0)⁻¹) * (ab z2.1 ρ0) * (mb z0.2 (p 2) z1.1) * (sb z1.2 z3.2) / (9) + (8) * ((c.SW : ℂ)) * ((c.e : ℂ)) ^ 2 * ((c.MW : ℂ)⁻¹) * ((N.c 1)⁻¹) * (ab z1.1 z2.1) * (mb z1.2 (p 2) ρ0) * (sb z0.2 z3.2) / (9) + (-8) * ((c.SW : ℂ)) * ((c.e : ℂ)) ^ 2 * ((c.MW : ℂ)⁻¹) * ((N.c 1)⁻¹) * (ab z3.1 ρ0) * (mb z0.2 (p 2) z1.1) * (sb z1.2 z2.2) / (9)) * ySW + ((4) * ((c.SW : ℂ)) * ((c.e : ℂ)) ^ 2 * ((c.CW : ℂ)⁻¹) * ((N.c 1)⁻¹) * (ab z1.1 z2.1) * (ab z1.1 ρ0) * (sb z0.2 z3.2) / (9) + (4) * ((c.SW : ℂ)) * ((c.e : ℂ)) ^ 2 * ((c.CW : ℂ)⁻¹) * ((N.c 1)⁻¹) * (ab z3.1 ρ0) * (sb z0.2 z1.2) * (sb z1.2 z2.2) / (9) + (4) * ((c.SW : ℂ)) * ((c.e : ℂ)) ^ 2 * ((c.MW : ℂ)⁻¹) * ((c.mass .u : ℂ)) * ((N.c 0)⁻¹) * (ab z1.1 z3.1) * (ab z2.1 ρ0) * (sb z0.2 z1.2) / (9) + (4) * ((c.SW : ℂ)) * ((c.e : ℂ)) ^ 2 * ((c.MW : ℂ)⁻¹) * ((c.mass .u : ℂ)) * ((N.c 0)⁻¹) * (ab z1.1 ρ0) * (sb z0.2 z2.2) * (sb z1.2 z3.2) / (9) + (-4) * ((c.SW : ℂ)) * ((c.e : ℂ)) ^ 2 * ((c.MW : ℂ)⁻¹) * ((c.mass .u : ℂ)) * ((N.c 1)⁻¹) * (ab z1.1 z2.1) * (ab z3.1 ρ0) * (sb z0.2 z1.2) / (9) + (-4) * ((c.SW : ℂ)) * ((c.e : ℂ)) ^ 2 * ((c.MW : ℂ)⁻¹) * ((c.mass .u : ℂ)) * ((N.c 1)⁻¹) * (ab z1.1 ρ0) * (sb z0.2 z3.2) * (sb z1.2 z2.2) / (9) + (-4) * ((c.SW : ℂ)) * ((c.e : ℂ)) ^ 2 * ((c.MW : ℂ)⁻¹) * ((N.c 0)⁻¹) * (ab z0.1 ρ0) * (ab z1.1 z3.1) * (sb z0.2 z1.2) * (sb z0.2 z2.2) / (9) + (-4) * ((c.SW : ℂ)) * ((c.e : ℂ)) ^ 2 * ((c.MW : ℂ)⁻¹) * ((N.c 0)⁻¹) * (ab z1.1 z3.1) * (mb z1.2 (p 2) ρ0) * (sb z0.2 z2.2) / (9) + (4) * ((c.SW : ℂ)) * ((c.e : ℂ)) ^ 2 * ((c.MW : ℂ)⁻¹) * ((N.c 0)⁻¹) * (ab z2.1 ρ0) * (mb z0.2 (p 2) z1.1) * (sb z1.2 z3.2) / (9) + (-4) * ((c.SW : ℂ)) * ((c.e : ℂ)) ^ 2 * ((c.MW : ℂ)⁻¹) * ((N.c 1)⁻¹) * (ab z1.1 z2.1) * (mb z1.2 (p 2) ρ0) * (sb z0.2 z3.2) / (9) + (4) * ((c.SW : ℂ)) * ((c.e : ℂ)) ^ 2 * ((c.MW : ℂ)⁻¹) * ((N.c 1)⁻¹) * (ab z3.1 ρ0) * (mb z0.2 (p 2) z1.1) * (sb z1.2 z2.2) / (9) + (-1) * ((c.e : ℂ)) ^ 2 * ((c.CW : ℂ)⁻¹) * ((c.SW : ℂ)⁻¹) * ((N.c 1)⁻¹) * (ab z3.1 ρ0) * (sb z0.2 z1.2) * (sb z1.2 z2.2) / (3) + (-1) * ((c.e : ℂ)) ^ 2 * ((c.MW : ℂ)⁻¹) * ((c.SW : ℂ)⁻¹) * ((c.mass .u : ℂ)) * ((N.c 0)⁻¹) * (ab z1.1 z3.1) * (ab z2.1 ρ0) * (sb z0.2 z1.2) / (3) + (1) * ((c.e : ℂ)) ^ 2 * ((c.MW : ℂ)⁻¹) * ((c.SW : ℂ)⁻¹) * ((c.mass .u : ℂ)) * ((N.c 1)⁻¹) * (ab z1.1 ρ0) * (sb z0.2 z3.2) * (sb z1.2 z2.2) / (3) + (1) * ((c.e : ℂ)) ^ 2 * ((c.MW : ℂ)⁻¹) * ((c.SW : ℂ)⁻¹) * ((N.c 0)⁻¹) * (ab z0.1 ρ0) * (ab z1.1 z3.1) * (sb z0.2 z1.2) * (sb z0.2 z2.2) / (3) + (1) * ((c.e : ℂ)) ^ 2 * ((c.MW : ℂ)⁻¹) * ((c.SW : ℂ)⁻¹) * ((N.c 0)⁻¹) * (ab z1.1 z3.1) * (mb z1.2 (p 2) ρ0) * (sb z0.2 z2.2) / (3) + (-1) * ((c.e : ℂ)) ^ 2 * ((c.MW : ℂ)⁻¹) * ((c.SW : ℂ)⁻¹) * ((N.c 1)⁻¹) * (ab z3.1 ρ0) * (mb z0.2 (p 2) z1.1) * (sb z1.2 z2.2) / (3)) * x22
theorem AZuu.keyM {c : Constants} {p : Nat → V4 ℝ} {N : Env} (hc : c.Physical) (hb : Balanced p) (r2 : N.r 2 = (c.mass .u)) (r6 : N.r 6 = (c.MW / c.CW)) (r8 : N.r 8 = (((c.e * c.e) * (((2 : Nat) : ℝ) / ((3 : Nat) : ℝ))) / (c.MW * c.SW))) (r10 : N.r 10 = (((((-((2 : Nat) : ℝ)) * (((2 : Nat) : ℝ) / ((3 : Nat) : ℝ))) * c.SW) * c.SW) + ((1 : Nat) : ℝ))) (r11 : N.r 11 = ((((-((2 : Nat) : ℝ)) * (((2 : Nat) : ℝ) / ((3 : Nat) : ℝ))) * c.SW) * c.SW)) (d0 : ((msq (plus (backward (p 3)) (p 1)) - c.mass .u ^ 2 : ℝ) : ℂ) = N.c 0) (n0 : N.c 0 ≠ 0) (d1 : ((msq (plus (backward (p 3)) (p 0)) - c.mass .u ^ 2 : ℝ) : ℂ) = N.c 1) (n1 : N.c 1 ≠ 0) {z0 z1 z2 z3 : Pair} (b1 : Bold (p 1) c.MZ z1) (b2 : Bold (p 2) (c.mass .u) z2) (b3 : Bold (p 3) (c.mass .u) z3) (l0 : Light (p 0) z0) (e02 : mb z0.2 (p 2) z0.1 = -N.c 0) (e03 : mb z0.2 (p 3) z0.1 = -N.c 1) (q1 : msq (p 1) = c.MZ ^ 2) (q2 : msq (p 2) = (c.mass .u) ^ 2) (q3 : msq (p 3) = (c.mass .u) ^ 2) (ρ0 : V2) :
    AZuu.formM N p z0 z1 z1 z2 z3 * sb ρ0 z0.2 = ((√2 : ℝ) * ((-1 : ℂ) * ((√2 / c.MZ : ℝ) : ℂ))) * AZuu.react.bare c p 2 3 0 1 z2 z3 (pv z0.1 ρ0) (pv z1.1 z1.2) := by
  rw [AZuu.react.bare_parts c p (i := 2) (j := 3) (a := 0) (b := 1) (x := .photon) (y := .z) (k := (p 0)) (k' := (p 1)) (fun _ => rfl) (fun _ => rfl) (f := .u) (g := .u) rfl rfl (l := (backward (p 3))) rfl (e := 1) (e' := -1) (if_neg Bool.false_ne_true) (if_pos rfl)]
  rw [compton_vv (f := .u) (x := .u) (g := .u) (h := (rfl : Spec.after .photon Flavour.u = some Flavour.u)) (h' := (rfl : Spec.after .z Flavour.u = some Flavour.u)) (ha := by simp) (hb := by simp)]
  rw [compton_vv (f := .u) (x := .u) (g := .u) (h := (rfl : Spec.after .z Flavour.u = some Flavour.u)) (h' := (rfl : Spec.after .photon Flavour.u = some Flavour.u)) (ha := by simp) (hb := by simp)]
  rw [annihilation_none c _ _ (by rfl) (by simp), star_zero, add_zero, AZuu.formM]
  simp only [d0, d1, lineV_pv, lineV_four, contract_four_pv, contract_pv, mb_plus, mb_backward]
  have i0 := mb_schouten_left z0.2 z2.2 z3.2 (p 1) z0.1
  have i1 := mb_schouten_right z0.2 (p 2) z0.1 z1.1 z3.1
  have i2 := mb_schouten_right z0.2 (p 1) z0.1 z1.1 z3.1
  have i3 := mb_schouten_left z0.2 z1.2 ρ0 (p 1) z0.1
  have i4 := mb_schouten_right ρ0 (p 1) z0.1 z1.1 z3.1
  have i5 := mb_schouten_right z1.2 (p 2) z0.1 z1.1 z3.1
  have i6 := mb_schouten_left z0.2 z2.2 ρ0 (p 1) z0.1
  have i7 := mb_schouten_left z0.2 z1.2 z2.2 (p 1) z0.1
  have i8 := sb_schouten z1.2 z2.2 ρ0 z0.2
  have i9 := mb_schouten_left z0.2 z2.2 z3.2 (p 2) z0.1
  have i10 := mb_schouten_left z0.2 z1.2 ρ0 (p 2) z0.1
  have i11 := mb_schouten_left z0.2 z1.2 z3.2 (p 1) z0.1
  have i12 := mb_schouten_left z0.2 z1.2 z2.2 (p 2) z0.1
  have i13 := mb_schouten_right z0.2 (p 2) z0.1 z1.1 z2.1
  have i14 := mb_schouten_right z2.2 (p 1) z0.1 z1.1 z3.1
  have i15 := sb_schouten z1.2 z2.2 z3.2 z0.2
  have i16 := mb_schouten_left z0.2 z2.2 ρ0 (p 2) z0.1
  have i17 := mb_schouten_left z0.2 z3.2 ρ0 (p 2) z0.1
  have i18 := mb_schouten_left z0.2 z1.2 z3.2 (p 2) z0.1
  have i19 := mb_schouten_right ρ0 (p 2) z0.1 z1.1 z2.1
  have i20 := mb_schouten_right z1.2 (p 2) z0.1 z1.1 z2.1
  have i21 := sb_schouten z2.2 z3.2 ρ0 z1.2
  have i22 := sb_schouten z1.2 z3.2 ρ0 z0.2
  have i23 := mb_schouten_right ρ0 (p 2) z0.1 z1.1 z3.1
  have i24 := mb_schouten_right z3.2 (p 1) z0.1 z1.1 z2.1
  have i25 := ab_schouten z1.1 z2.1 z3.1 z0.1
  have i26 := sb_schouten z2.2 z3.2 ρ0 z0.2
  simp only [l0.mb_eq, b1.mb_left, b1.mb_right, b2.mb_left, b2.mb_right, b3.mb_left, b3.mb_right, e02, e03, mb_one hb z0.2 z0.1, mb_three hb z0.2 z1.1, mb_three hb z0.2 z2.1, mb_two hb z0.2 z3.1, mb_three hb z1.2 z0.1, mb_three hb z1.2 z1.1, mb_three hb z1.2 z2.1, mb_two hb z1.2 z3.1, mb_three hb z2.2 z0.1, mb_three hb z2.2 z1.1, mb_three hb z2.2 z2.1, mb_one hb z2.2 z3.1, mb_two hb z3.2 z0.1, mb_two hb z3.2 z1.1, mb_one hb z3.2 z2.1, mb_two hb z3.2 z3.1, mb_three hb ρ0 z0.1, mb_three hb ρ0 z1.1, mb_three hb ρ0 z2.1, mb_two hb ρ0 z3.1, ab_self, sb_self] at i0 i1 i2 i3 i4 i5 i6 i7 i8 i9 i10 i11 i12 i13 i14 i15 i16 i17 i18 i19 i20 i21 i22 i23 i24 i25 i26 ⊢
  simp only [ab_swap z0.1 z1.1, ab_swap z0.1 z2.1, ab_swap z0.1 z3.1, ab_swap z1.1 z2.1, ab_swap z1.1 z3.1, ab_swap z2.1 z3.1, sb_swap z0.2 z1.2, sb_swap z0.2 z2.2, sb_swap z0.2 z3.2, sb_swap z0.2 ρ0, sb_swap z1.2 z2.2, sb_swap z1.2 z3.2, sb_swap z1.2 ρ0, sb_swap z2.2 z3.2, sb_swap z2.2 ρ0, sb_swap z3.2 ρ0] at i0 i1 i2 i3 i4 i5 i6 i7 i8 i9 i10 i11 i12 i13 i14 i15 i16 i17 i18 i19 i20 i21 i22 i23 i24 i25 i26 ⊢
  simp only [r2, r6, r8, r10, r11, Constants.hL, Constants.hR, Constants.gL, Constants.gR, Constants.yuk, Constants.invVev, Flavour.charge_u, Flavour.isospin_u, ← c.mz]
  have xMW : (c.MW : ℂ) ≠ 0 := by exact_mod_cast hc.MW
  have xSW : (c.SW : ℂ) ≠ 0 := by exact_mod_cast hc.SW
  have xCW : (c.CW : ℂ) ≠ 0 := by exact_mod_cast hc.CW
  have x2 : ((√2 : ℝ) : ℂ) ≠ 0 := by exact_mod_cast (Real.sqrt_pos.2 two_pos).ne'
  have x22 : ((√2 : ℝ) : ℂ) ^ 2 = 2 := by rw [← Complex.ofReal_pow, Real.sq_sqrt two_pos.le]; norm_num
  have x23 : ((√2 : ℝ) : ℂ) ^ 3 = 2 * ((√2 : ℝ) : ℂ) := by rw [← x22]; ring
  have x24 : ((√2 : ℝ) : ℂ) ^ 4 = 4 := by linear_combination (((√2 : ℝ) : ℂ) ^ 2 + 2) * x22
  try simp only [← c.mz] at i0 i1 i2 i3 i4 i5 i6 i7 i8 i9 i10 i11 i12 i13 i14 i15 i16 i17 i18 i19 i20 i21 i22 i23 i24 i25 i26
  push_cast at i0 i1 i2 i3 i4 i5 i6 i7 i8 i9 i10 i11 i12 i13 i14 i15 i16 i17 i18 i19 i20 i21 i22 i23 i24 i25 i26 ⊢
  simp only [div_eq_mul_inv, mul_inv, inv_inv] at i0 i1 i2 i3 i4 i5 i6 i7 i8 i9 i10 i11 i12 i13 i14 i15 i16 i17 i18 i19 i20 i21 i22 i23 i24 i25 i26 ⊢
  have y0 := mul_inv_cancel₀ n0
  have y1 := mul_inv_cancel₀ n1
  have yCW := mul_inv_cancel₀ xCW
  have yMW := mul_inv_cancel₀ xMW
  have ySW := mul_inv_cancel₀ xSW
  linear_combination ((((-8) * ((c.SW : ℂ)) ^ 2 * ((c.e : ℂ)) ^ 2 * ((c.mass .u : ℂ)) * (ab z0.1 z1.1) * (sb z1.2 ρ0)) * i0 + ((-8) * ((c.SW : ℂ)) ^ 2 * ((c.e : ℂ)) ^ 2 * ((c.mass .u : ℂ)) * (ab z0.1 z2.1) * (sb z1.2 ρ0)) * i1 + ((8) * ((c.SW : ℂ)) ^ 2 * ((c.e : ℂ)) ^ 2 * ((c.mass .u : ℂ)) * (ab z0.1 z2.1) * (sb z1.2 ρ0)) * i2 + ((-16) * ((c.SW : ℂ)) ^ 2 * ((c.e : ℂ)) ^ 2 * ((c.mass .u : ℂ)) * (ab z0.1 z2.1) * (ab z1.1 z3.1) + (-8) * ((c.SW : ℂ)) ^ 2 * ((c.e : ℂ)) ^ 2 * (ab z0.1 z1.1) * (ab z0.1 z3.1) * (sb z0.2 z2.2) + (6) * ((c.e : ℂ)) ^ 2 * ((c.mass .u : ℂ)) * (ab z0.1 z2.1) * (ab z1.1 z3.1) + (6) * ((c.e : ℂ)) ^ 2 * (ab z0.1 z1.1) * (ab z0.1 z3.1) * (sb z0.2 z2.2)) * i3 + ((16) * ((c.SW : ℂ)) ^ 2 * ((c.e : ℂ)) ^ 2 * ((c.mass .u : ℂ)) * (ab z0.1 z2.1) * (sb z0.2 z1.2) + (8) * ((c.SW : ℂ)) ^ 2 * ((c.e : ℂ)) ^ 2 * (mb z1.2 (p 2) z0.1) * (sb z0.2 z2.2) + (-6) * ((c.e : ℂ)) ^ 2 * ((c.mass .u : ℂ)) * (ab z0.1 z2.1) * (sb z0.2 z1.2) + (-6) * ((c.e : ℂ)) ^ 2 * (mb z1.2 (p 2) z0.1) * (sb z0.2 z2.2)) * i4 + ((16) * ((c.SW : ℂ)) ^ 2 * ((c.e : ℂ)) ^ 2 * ((c.mass .u : ℂ)) * (ab z0.1 z2.1) * (sb z0.2 ρ0) + (8) * ((c.SW : ℂ)) ^ 2 * ((c.e : ℂ)) ^ 2 * (N.c 1) * (sb z2.2 ρ0) + (8) * ((c.SW : ℂ)) ^ 2 * ((c.e : ℂ)) ^ 2 * (mb z2.2 (p 1) z0.1) * (sb z0.2 ρ0) + (-8) * ((c.SW : ℂ)) ^ 2 * ((c.e : ℂ)) ^ 2 * (mb ρ0 (p 1) z0.1) * (sb z0.2 z2.2) + (8) * ((c.SW : ℂ)) ^ 2 * ((c.e : ℂ)) ^ 2 * (mb ρ0 (p 2) z0.1) * (sb z0.2 z2.2) + (-12) * ((c.e : ℂ)) ^ 2 * ((c.mass .u : ℂ)) * (ab z0.1 z2.1) * (sb z0.2 ρ0) + (-6) * ((c.e : ℂ)) ^ 2 * (N.c 1) * (sb z2.2 ρ0) + (-6) * ((c.e : ℂ)) ^ 2 * (mb z2.2 (p 1) z0.1) * (sb z0.2 ρ0) + (6) * ((c.e : ℂ)) ^ 2 * (mb ρ0 (p 1) z0.1) * (sb z0.2 z2.2) + (-6) * ((c.e : ℂ)) ^ 2 * (mb ρ0 (p 2) z0.1) * (sb z0.2 z2.2)) * i5 + ((8) * ((c.MW : ℂ)) * ((c.SW : ℂ)) ^ 2 * ((c.e : ℂ)) ^ 2 * ((c.CW : ℂ)⁻¹) * (ab z0.1 z1.1) * (ab z1.1 z3.1) + (-6) * ((c.MW : ℂ)) * ((c.e : ℂ)) ^ 2 * ((c.CW : ℂ)⁻¹) * (ab z0.1 z1.1) * (ab z1.1 z3.1) + (8) * ((c.SW : ℂ)) ^ 2 * ((c.e : ℂ)) ^ 2 * ((c.mass .u : ℂ)) * (ab z0.1 z1.1) * (sb z1.2 z3.2) + (-8) * ((c.SW : ℂ)) ^ 2 * ((c.e : ℂ)) ^ 2 * (ab z0.1 z3.1) * (mb z1.2 (p 2) z1.1) + (-6) * ((c.e : ℂ)) ^ 2 * ((c.mass .u : ℂ)) * (ab z0.1 z1.1) * (sb z1.2 z3.2) + (6) * ((c.e : ℂ)) ^ 2 * (ab z0.1 z3.1) * (mb z1.2 (p 2) z1.1)) * i6 + ((-8) * ((c.SW : ℂ)) ^ 2 * ((c.e : ℂ)) ^ 2 * ((c.mass .u : ℂ)) * (ab z0.1 z1.1) * (sb z3.2 ρ0) + (8) * ((c.SW : ℂ)) ^ 2 * ((c.e : ℂ)) ^ 2 * (ab z0.1 z1.1) * (ab z0.1 z3.1) * (sb z0.2 ρ0) + (-6) * ((c.e : ℂ)) ^ 2 * (ab z0.1 z1.1) * (ab z0.1 z3.1) * (sb z0.2 ρ0)) * i7 + ((8) * ((c.SW : ℂ)) ^ 2 * ((c.e : ℂ)) ^ 2 * (N.c 1) * (ab z0.1 z1.1) * (ab z0.1 z3.1) + (6) * ((c.e : ℂ)) ^ 2 * ((c.mass .u : ℂ)) * (ab z0.1 z1.1) * (mb z3.2 (p 1) z0.1) + (6) * ((c.e : ℂ)) ^ 2 * ((c.mass .u : ℂ)) ^ 2 * (ab z0.1 z1.1) * (ab z0.1 z3.1) + (-6) * ((c.e : ℂ)) ^ 2 * (N.c 1) * (ab z0.1 z1.1) * (ab z0.1 z3.1)) * i8 + ((8) * ((c.SW : ℂ)) ^ 2 * ((c.e : ℂ)) ^ 2 * ((c.mass .u : ℂ)) * (ab z0.1 z1.1) * (sb z1.2 ρ0) + (6) * ((c.e : ℂ)) ^ 2 * ((c.mass .u : ℂ)) * (ab z0.1 z1.1) * (sb z1.2 ρ0)) * i9 + ((8) * ((c.SW : ℂ)) ^ 2 * ((c.e : ℂ)) ^ 2 * ((c.mass .u : ℂ)) * (ab z0.1 z1.1) * (sb z2.2 z3.2) + (16) * ((c.SW : ℂ)) ^ 2 * ((c.e : ℂ)) ^ 2 * ((c.mass .u : ℂ)) * (ab z0.1 z2.1) * (ab z1.1 z3.1) + (8) * ((c.SW : ℂ)) ^ 2 * ((c.e : ℂ)) ^ 2 * (ab z0.1 z1.1) * (ab z0.1 z3.1) * (sb z0.2 z2.2) + (-6) * ((c.e : ℂ)) ^ 2 * ((c.mass .u : ℂ)) * (ab z0.1 z2.1) * (ab z1.1 z3.1) + (-6) * ((c.e : ℂ)) ^ 2 * (ab z0.1 z1.1) * (ab z0.1 z3.1) * (sb z0.2 z2.2)) * i10 + ((8) * ((c.SW : ℂ)) ^ 2 * ((c.e : ℂ)) ^ 2 * (ab z0.1 z1.1) * (ab z0.1 z2.1) * (sb z0.2 ρ0) + (8) * ((c.SW : ℂ)) ^ 2 * ((c.e : ℂ)) ^ 2 * (ab z0.1 z2.1) * (mb ρ0 (p 2) z1.1)) * i11 + ((-8) * ((c.MW : ℂ)) * ((c.SW : ℂ)) ^ 2 * ((c.e : ℂ)) ^ 2 * ((c.CW : ℂ)⁻¹) * (ab z0.1 z3.1) * (sb z1.2 ρ0) + (6) * ((c.MW : ℂ)) * ((c.e : ℂ)) ^ 2 * ((c.CW : ℂ)⁻¹) * (ab z0.1 z3.1) * (sb z1.2 ρ0) + (16) * ((c.SW : ℂ)) ^ 2 * ((c.e : ℂ)) ^ 2 * ((c.mass .u : ℂ)) * (ab z0.1 z1.1) * (sb z3.2 ρ0) + (-8) * ((c.SW : ℂ)) ^ 2 * ((c.e : ℂ)) ^ 2 * (ab z0.1 z1.1) * (ab z0.1 z3.1) * (sb z0.2 ρ0) + (8) * ((c.SW : ℂ)) ^ 2 * ((c.e : ℂ)) ^ 2 * (ab z0.1 z3.1) * (mb ρ0 (p 2) z1.1) + (6) * ((c.e : ℂ)) ^ 2 * (ab z0.1 z1.1) * (ab z0.1 z3.1) * (sb z0.2 ρ0) + (-6) * ((c.e : ℂ)) ^ 2 * (ab z0.1 z3.1) * (mb ρ0 (p 2) z1.1)) * i12 + ((8) * ((c.SW : ℂ)) ^ 2 * ((c.e : ℂ)) ^ 2 * ((c.mass .u : ℂ)) * (ab z0.1 z3.1) * (sb z1.2 ρ0)) * i13 + ((-8) * ((c.SW : ℂ)) ^ 2 * ((c.e : ℂ)) ^ 2 * (mb z1.2 (p 2) z0.1) * (sb z0.2 ρ0) + (6) * ((c.e : ℂ)) ^ 2 * (mb z1.2 (p 2) z0.1) * (sb z0.2 ρ0)) * i14 + ((-8) * ((c.SW : ℂ)) ^ 2 * ((c.e : ℂ)) ^ 2 * ((c.mass .u : ℂ)) * (ab z0.1 z1.1) * (mb ρ0 (p 2) z0.1)) * i15 + ((-8) * ((c.MW : ℂ)) * ((c.SW : ℂ)) ^ 2 * ((c.e : ℂ)) ^ 2 * ((c.CW : ℂ)⁻¹) * (ab z0.1 z1.1) * (ab z1.1 z3.1) + (6) * ((c.MW : ℂ)) * ((c.e : ℂ)) ^ 2 * ((c.CW : ℂ)⁻¹) * (ab z0.1 z1.1) * (ab z1.1 z3.1) + (-16) * ((c.SW : ℂ)) ^ 2 * ((c.e : ℂ)) ^ 2 * ((c.mass .u : ℂ)) * (ab z0.1 z1.1) * (sb z1.2 z3.2) + (8) * ((c.SW : ℂ)) ^ 2 * ((c.e : ℂ)) ^ 2 * (ab z0.1 z3.1) * (mb z1.2 (p 2) z1.1) + (6) * ((c.e : ℂ)) ^ 2 * ((c.mass .u : ℂ)) * (ab z0.1 z1.1) * (sb z1.2 z3.2) + (-6) * ((c.e : ℂ)) ^ 2 * (ab z0.1 z3.1) * (mb z1.2 (p 2) z1.1)) * i16 + ((-8) * ((c.MW : ℂ)) * ((c.SW : ℂ)) ^ 2 * ((c.e : ℂ)) ^ 2 * ((c.CW : ℂ)⁻¹) * (ab z0.1 z1.1) * (ab z1.1 z2.1) + (-8) * ((c.SW : ℂ)) ^ 2 * ((c.e : ℂ)) ^ 2 * (ab z0.1 z2.1) * (mb z1.2 (p 2) z1.1)) * i17 + ((-8) * ((c.SW : ℂ)) ^ 2 * ((c.e : ℂ)) ^ 2 * (ab z0.1 z1.1) * (ab z0.1 z2.1) * (sb z0.2 ρ0) + (-8) * ((c.SW : ℂ)) ^ 2 * ((c.e : ℂ)) ^ 2 * (ab z0.1 z2.1) * (mb ρ0 (p 2) z1.1) + (-6) * ((c.e : ℂ)) ^ 2 * ((c.mass .u : ℂ)) * (ab z0.1 z1.1) * (sb z2.2 ρ0)) * i18 + ((8) * ((c.MW : ℂ)) * ((c.SW : ℂ)) ^ 2 * ((c.e : ℂ)) ^ 2 * ((c.CW : ℂ)⁻¹) * (ab z0.1 z1.1) * (sb z0.2 z3.2) + (8) * ((c.SW : ℂ)) ^ 2 * ((c.e : ℂ)) ^ 2 * (mb z1.2 (p 2) z0.1) * (sb z0.2 z3.2)) * i19 + ((8) * ((c.SW : ℂ)) ^ 2 * ((c.e : ℂ)) ^ 2 * (N.c 0) * (sb z3.2 ρ0) + (8) * ((c.SW : ℂ)) ^ 2 * ((c.e : ℂ)) ^ 2 * (mb z3.2 (p 1) z0.1) * (sb z0.2 ρ0) + (-8) * ((c.SW : ℂ)) ^ 2 * ((c.e : ℂ)) ^ 2 * (mb ρ0 (p 2) z0.1) * (sb z0.2 z3.2) + (6) * ((c.e : ℂ)) ^ 2 * ((c.mass .u : ℂ)) * (ab z0.1 z3.1) * (sb z0.2 ρ0)) * i20 + ((8) * ((c.SW : ℂ)) ^ 2 * ((c.e : ℂ)) ^ 2 * ((c.mass .u : ℂ)) * (N.c 0) * (ab z0.1 z1.1) + (-8) * ((c.SW : ℂ)) ^ 2 * ((c.e : ℂ)) ^ 2 * ((c.mass .u : ℂ)) * (N.c 1) * (ab z0.1 z1.1) + (6) * ((c.e : ℂ)) ^ 2 * ((c.mass .u : ℂ)) * (N.c 0) * (ab z0.1 z1.1)) * i21 + ((8) * ((c.SW : ℂ)) ^ 2 * ((c.e : ℂ)) ^ 2 * ((c.mass .u : ℂ)) * (ab z0.1 z1.1) * (mb z2.2 (p 1) z0.1) + (6) * ((c.e : ℂ)) ^ 2 * ((c.mass .u : ℂ)) ^ 2 * (ab z0.1 z1.1) * (ab z0.1 z2.1)) * i22 + ((-16) * ((c.SW : ℂ)) ^ 2 * ((c.e : ℂ)) ^ 2 * ((c.mass .u : ℂ)) * (ab z0.1 z2.1) * (sb z0.2 z1.2) + (-8) * ((c.SW : ℂ)) ^ 2 * ((c.e : ℂ)) ^ 2 * (mb z1.2 (p 2) z0.1) * (sb z0.2 z2.2) + (6) * ((c.e : ℂ)) ^ 2 * ((c.mass .u : ℂ)) * (ab z0.1 z2.1) * (sb z0.2 z1.2) + (6) * ((c.e : ℂ)) ^ 2 * (mb z1.2 (p 2) z0.1) * (sb z0.2 z2.2)) * i23 + ((-8) * ((c.MW : ℂ)) * ((c.SW : ℂ)) ^ 2 * ((c.e : ℂ)) ^ 2 * ((c.CW : ℂ)⁻¹) * (ab z0.1 z1.1) * (sb z0.2 ρ0) + (-8) * ((c.SW : ℂ)) ^ 2 * ((c.e : ℂ)) ^ 2 * (mb z1.2 (p 2) z0.1) * (sb z0.2 ρ0)) * i24 + ((-8) * ((c.MW : ℂ)) * ((c.SW : ℂ)) ^ 2 * ((c.e : ℂ)) ^ 2 * ((c.CW : ℂ)⁻¹) * ((c.mass .u : ℂ)) * (ab z0.1 z1.1) * (sb z0.2 ρ0) + (-6) * ((c.e : ℂ)) ^ 2 * ((c.mass .u : ℂ)) * (mb z1.2 (p 2) z0.1) * (sb z0.2 ρ0)) * i25 + ((8) * ((c.MW : ℂ)) * ((c.SW : ℂ)) ^ 2 * ((c.e : ℂ)) ^ 2 * ((c.CW : ℂ)⁻¹) * ((c.mass .u : ℂ)) * (ab z0.1 z1.1) ^ 2 + (8) * ((c.SW : ℂ)) ^ 2 * ((c.e : ℂ)) ^ 2 * ((c.mass .u : ℂ)) * (ab z0.1 z1.1) * (mb z1.2 (p 2) z0.1) + (6) * ((c.e : ℂ)) ^ 2 * ((c.mass .u : ℂ)) * (ab z0.1 z1.1) * (mb z1.2 (p 2) z0.1)) * i26)) * ((1) * ((c.CW : ℂ)) * ((c.CW : ℂ)⁻¹) * ((c.MW : ℂ)⁻¹) * ((c.SW : ℂ)⁻¹) * ((N.c 0)⁻¹) * ((N.c 1)⁻¹) / (9)) + ((-8) * ((c.CW : ℂ)) * ((c.MW : ℂ)) * ((c.SW : ℂ)) ^ 2 * ((c.e : ℂ)) ^ 2 * ((c.CW : ℂ)⁻¹) ^ 2 * ((c.MW : ℂ)⁻¹) * ((c.SW : ℂ)⁻¹) * ((N.c 1)⁻¹) * (ab z0.1 z1.1) * (ab z1.1 z2.1) * (sb z3.2 ρ0) / (9) + (-8) * ((c.CW : ℂ)) * ((c.MW : ℂ)) * ((c.SW : ℂ)) ^ 2 * ((c.e : ℂ)) ^ 2 * ((c.CW : ℂ)⁻¹) ^ 2 * ((c.MW : ℂ)⁻¹) * ((c.SW : ℂ)⁻¹) * ((N.c 1)⁻¹) * (ab z0.1 z3.1) * (sb z1.2 z2.2) * (sb z1.2 ρ0) / (9) + (2) * ((c.CW : ℂ)) * ((c.MW : ℂ)) * ((c.e : ℂ)) ^ 2 * ((c.CW : ℂ)⁻¹) ^ 2 * ((c.MW : ℂ)⁻¹) * ((c.SW : ℂ)⁻¹) * ((N.c 1)⁻¹) * (ab z0.1 z3.1) * (sb z1.2 z2.2) * (sb z1.2 ρ0) / (3) + (8) * ((c.CW : ℂ)) * ((c.SW : ℂ)) ^ 2 * ((c.e : ℂ)) ^ 2 * ((c.CW : ℂ)⁻¹) * ((c.MW : ℂ)⁻¹) * ((c.SW : ℂ)⁻¹) * ((c.mass .u : ℂ)) * ((N.c 1)⁻¹) * (ab z0.1 z1.1) * (sb z1.2 z2.2) * (sb z3.2 ρ0) / (9) + (8) * ((c.CW : ℂ)) * ((c.SW : ℂ)) ^ 2 * ((c.e : ℂ)) ^ 2 * ((c.CW : ℂ)⁻¹) * ((c.MW : ℂ)⁻¹) * ((c.SW : ℂ)⁻¹) * ((c.mass .u : ℂ)) * ((N.c 1)⁻¹) * (ab z0.1 z3.1) * (ab z1.1 z2.1) * (sb z1.2 ρ0) / (9) + (8) * ((c.CW : ℂ)) * ((c.SW : ℂ)) ^ 2 * ((c.e : ℂ)) ^ 2 * ((c.CW : ℂ)⁻¹) * ((c.MW : ℂ)⁻¹) * ((c.SW : ℂ)⁻¹) * ((N.c 1)⁻¹) * (ab z0.1 z3.1) * (mb ρ0 (p 2) z1.1) * (sb z1.2 z2.2) / (9) + (-8) * ((c.CW : ℂ)) * ((c.SW : ℂ)) ^ 2 * ((c.e : ℂ)) ^ 2 * ((c.CW : ℂ)⁻¹) * ((c.MW : ℂ)⁻¹) * ((c.SW : ℂ)⁻¹) * ((N.c 1)⁻¹) * (ab z1.1 z2.1) * (mb z1.2 (p 2) z0.1) * (sb z3.2 ρ0) / (9) + (-2) * ((c.CW : ℂ)) * ((c.e : ℂ)) ^ 2 * ((c.CW : ℂ)⁻¹) * ((c.MW : ℂ)⁻¹) * ((c.SW : ℂ)⁻¹) * ((c.mass .u : ℂ)) * ((N.c 1)⁻¹) * (ab z0.1 z1.1) * (sb z1.2 z2.2) * (sb z3.2 ρ0) / (3) + (-2) * ((c.CW : ℂ)) * ((c.e : ℂ)) ^ 2 * ((c.CW : ℂ)⁻¹) * ((c.MW : ℂ)⁻¹) * ((c.SW : ℂ)⁻¹) * ((N.c 1)⁻¹) * (ab z0.1 z3.1) * (mb ρ0 (p 2) z1.1) * (sb z1.2 z2.2) / (3)) * y0 + ((-8) * ((c.CW : ℂ)) * ((c.SW : ℂ)) ^ 2 * ((c.e : ℂ)) ^ 2 * ((c.CW : ℂ)⁻¹) * ((c.MW : ℂ)⁻¹) * ((c.SW : ℂ)⁻¹) * ((c.mass .u : ℂ)) * ((N.c 0)⁻¹) * (ab z0.1 z1.1) * (sb z1.2 z3.2) * (sb z2.2 ρ0) / (9) + (-8) * ((c.CW : ℂ)) * ((c.SW : ℂ)) ^ 2 * ((c.e : ℂ)) ^ 2 * ((c.CW : ℂ)⁻¹) * ((c.MW : ℂ)⁻¹) * ((c.SW : ℂ)⁻¹) * ((c.mass .u : ℂ)) * ((N.c 0)⁻¹) * (ab z0.1 z2.1) * (ab z1.1 z3.1) * (sb z1.2 ρ0) / (9) + (8) * ((c.CW : ℂ)) * ((c.SW : ℂ)) ^ 2 * ((c.e : ℂ)) ^ 2 * ((c.CW : ℂ)⁻¹) * ((c.MW : ℂ)⁻¹) * ((c.SW : ℂ)⁻¹) * ((N.c 0)⁻¹) * (ab z0.1 z1.1) * (ab z0.1 z2.1) * (sb z0.2 ρ0) * (sb z1.2 z3.2) / (9) + (8) * ((c.CW : ℂ)) * ((c.SW : ℂ)) ^ 2 * ((c.e : ℂ)) ^ 2 * ((c.CW : ℂ)⁻¹) * ((c.MW : ℂ)⁻¹) * ((c.SW : ℂ)⁻¹) * ((N.c 0)⁻¹) * (ab z0.1 z2.1) * (mb ρ0 (p 2) z1.1) * (sb z1.2 z3.2) / (9) + (-8) * ((c.CW : ℂ)) * ((c.SW : ℂ)) ^ 2 * ((c.e : ℂ)) ^ 2 * ((c.CW : ℂ)⁻¹) * ((c.MW : ℂ)⁻¹) * ((c.SW : ℂ)⁻¹) * ((N.c 0)⁻¹) * (ab z1.1 z3.1) * (mb z1.2 (p 2) z0.1) * (sb z2.2 ρ0) / (9) + (2) * ((c.CW : ℂ)) * ((c.e : ℂ)) ^ 2 * ((c.CW : ℂ)⁻¹) * ((c.MW : ℂ)⁻¹) * ((c.SW : ℂ)⁻¹) * ((c.mass .u : ℂ)) * ((N.c 0)⁻¹) * (ab z0.1 z2.1) * (ab z1.1 z3.1) * (sb z1.2 ρ0) / (3) + (2) * ((c.CW : ℂ)) * ((c.e : ℂ)) ^ 2 * ((c.CW : ℂ)⁻¹) * ((c.MW : ℂ)⁻¹) * ((c.SW : ℂ)⁻¹) * ((N.c 0)⁻¹) * (ab z1.1 z3.1) * (mb z1.2 (p 2) z0.1) * (sb z2.2 ρ0) / (3)) * y1 + ((4) * ((c.MW : ℂ)) * (((√2 : ℝ) : ℂ)) ^ 2 * ((c.SW : ℂ)) ^ 2 * ((c.e : ℂ)) ^ 2 * ((c.CW : ℂ)⁻¹) * ((c.MW : ℂ)⁻¹) * ((c.SW : ℂ)⁻¹) * ((N.c 1)⁻¹) * (ab z0.1 z1.1) * (ab z1.1 z2.1) * (sb z3.2 ρ0) / (9) + (4) * ((c.MW : ℂ)) * (((√2 : ℝ) : ℂ)) ^ 2 * ((c.SW : ℂ)) ^ 2 * ((c.e : ℂ)) ^ 2 * ((c.CW : ℂ)⁻¹) * ((c.MW : ℂ)⁻¹) * ((c.SW : ℂ)⁻¹) * ((N.c 1)⁻¹) * (ab z0.1 z3.1) * (sb z1.2 z2.2) * (sb z1.2 ρ0) / (9) + (-1) * ((c.MW : ℂ)) * (((√2 : ℝ) : ℂ)) ^ 2 * ((c.e : ℂ)) ^ 2 * ((c.CW : ℂ)⁻¹) * ((c.MW : ℂ)⁻¹) * ((c.SW : ℂ)⁻¹) * ((N.c 1)⁻¹) * (ab z0.1 z3.1) * (sb z1.2 z2.2) * (sb z1.2 ρ0) / (3) + (-8) * ((c.MW : ℂ)) * ((c.SW : ℂ)) ^ 2 * ((c.e : ℂ)) ^ 2 * ((c.CW : ℂ)⁻¹) * ((c.MW : ℂ)⁻¹) * ((c.SW : ℂ)⁻¹) * ((N.c 0)⁻¹) * ((N.c 1)⁻¹) * (ab z0.1 z2.1) * (mb z1.2 (p 2) z0.1) * (sb z0.2 ρ0) * (sb z1.2 z3.2) / (9) + (-8) * ((c.MW : ℂ)) * ((c.SW : ℂ)) ^ 2 * ((c.e : ℂ)) ^ 2 * ((c.CW : ℂ)⁻¹) * ((c.MW : ℂ)⁻¹) * ((c.SW : ℂ)⁻¹) * ((N.c 0)⁻¹) * ((N.c 1)⁻¹) * (ab z0.1 z3.1) * (mb z1.2 (p 2) z0.1) * (sb z0.2 ρ0) * (sb z1.2 z2.2) / (9) + (-8) * ((c.MW : ℂ)) * ((c.SW : ℂ)) ^ 2 * ((c.e : ℂ)) ^ 2 * ((c.CW : ℂ)⁻¹) * ((c.MW : ℂ)⁻¹) * ((c.SW : ℂ)⁻¹) * ((N.c 1)⁻¹) * (ab z0.1 z1.1) * (ab z1.1 z2.1) * (sb z3.2 ρ0) / (9) + (-8) * ((c.MW : ℂ)) * ((c.SW : ℂ)) ^ 2 * ((c.e : ℂ)) ^ 2 * ((c.CW : ℂ)⁻¹) * ((c.MW : ℂ)⁻¹) * ((c.SW : ℂ)⁻¹) * ((N.c 1)⁻¹) * (ab z0.1 z3.1) * (sb z1.2 z2.2) * (sb z1.2 ρ0) / (9) + (2) * ((c.MW : ℂ)) * ((c.e : ℂ)) ^ 2 * ((c.CW : ℂ)⁻¹) * ((c.MW : ℂ)⁻¹) * ((c.SW : ℂ)⁻¹) * ((N.c 0)⁻¹) * ((N.c 1)⁻¹) * (ab z0.1 z3.1) * (mb z1.2 (p 2) z0.1) * (sb z0.2 ρ0) * (sb z1.2 z2.2) / (3) + (2) * ((c.MW : ℂ)) * ((c.e : ℂ)) ^ 2 * ((c.CW : ℂ)⁻¹) * ((c.MW : ℂ)⁻¹) * ((c.SW : ℂ)⁻¹) * ((N.c 1)⁻¹) * (ab z0.1 z3.1) * (sb z1.2 z2.2) * (sb z1.2 ρ0) / (3) + (-8) * ((c.MW : ℂ)) ^ 2 * ((c.SW : ℂ)) ^ 2 * ((c.e : ℂ)) ^ 2 * ((c.CW : ℂ)⁻¹) ^ 2 * ((c.MW : ℂ)⁻¹) * ((c.SW : ℂ)⁻¹) * ((N.c 0)⁻¹) * ((N.c 1)⁻¹) * (ab z0.1 z1.1) * (ab z0.1 z2.1) * (sb z0.2 ρ0) * (sb z1.2 z3.2) / (9) + (4) * (((√2 : ℝ) : ℂ)) ^ 2 * ((c.SW : ℂ)) ^ 2 * ((c.e : ℂ)) ^ 2 * ((c.MW : ℂ)⁻¹) * ((c.SW : ℂ)⁻¹) * ((c.mass .u : ℂ)) * ((N.c 0)⁻¹) * (ab z0.1 z1.1) * (sb z1.2 z3.2) * (sb z2.2 ρ0) / (9) + (4) * (((√2 : ℝ) : ℂ)) ^ 2 * ((c.SW : ℂ)) ^ 2 * ((c.e : ℂ)) ^ 2 * ((c.MW : ℂ)⁻¹) * ((c.SW : ℂ)⁻¹) * ((c.mass .u : ℂ)) * ((N.c 0)⁻¹) * (ab z0.1 z2.1) * (ab z1.1 z3.1) * (sb z1.2 ρ0) / (9) + (-4) * (((√2 : ℝ) : ℂ)) ^ 2 * ((c.SW : ℂ)) ^ 2 * ((c.e : ℂ)) ^ 2 * ((c.MW : ℂ)⁻¹) * ((c.SW : ℂ)⁻¹) * ((c.mass .u : ℂ)) * ((N.c 1)⁻¹) * (ab z0.1 z1.1) * (sb z1.2 z2.2) * (sb z3.2 ρ0) / (9) + (-4) * (((√2 : ℝ) : ℂ)) ^ 2 * ((c.SW : ℂ)) ^ 2 * ((c.e : ℂ)) ^ 2 * ((c.MW : ℂ)⁻¹) * ((c.SW : ℂ)⁻¹) * ((c.mass .u : ℂ)) * ((N.c 1)⁻¹) * (ab z0.1 z3.1) * (ab z1.1 z2.1) * (sb z1.2 ρ0) / (9) + (-4) * (((√2 : ℝ) : ℂ)) ^ 2 * ((c.SW : ℂ)) ^ 2 * ((c.e : ℂ)) ^ 2 * ((c.MW : ℂ)⁻¹) * ((c.SW : ℂ)⁻¹) * ((N.c 0)⁻¹) * (ab z0.1 z1.1) * (ab z0.1 z2.1) * (sb z0.2 ρ0) * (sb z1.2 z3.2) / (9) + (-4) * (((√2 : ℝ) : ℂ)) ^ 2 * ((c.SW : ℂ)) ^ 2 * ((c.e : ℂ)) ^ 2 * ((c.MW : ℂ)⁻¹) * ((c.SW : ℂ)⁻¹) * ((N.c 0)⁻¹) * (ab z0.1 z2.1) * (mb ρ0 (p 2) z1.1) * (sb z1.2 z3.2) / (9) + (4) * (((√2 : ℝ) : ℂ)) ^ 2 * ((c.SW : ℂ)) ^ 2 * ((c.e : ℂ)) ^ 2 * ((c.MW : ℂ)⁻¹) * ((c.SW : ℂ)⁻¹) * ((N.c 0)⁻¹) * (ab z1.1 z3.1) * (mb z1.2 (p 2) z0.1) * (sb z2.2 ρ0) / (9) + (-4) * (((√2 : ℝ) : ℂ)) ^ 2 * ((c.SW : ℂ)) ^ 2 * ((c.e : ℂ)) ^ 2 * ((c.MW : ℂ)⁻¹) * ((c.SW : ℂ)⁻¹) * ((N.c 1)⁻¹) * (ab z0.1 z3.1) * (mb ρ0 (p 2) z1.1) * (sb z1.2 z2.2) / (9) + (4) * (((√2 : ℝ) : ℂ)) ^ 2 * ((c.SW : ℂ)) ^ 2 * ((c.e : ℂ)) ^ 2 * ((c.MW : ℂ)⁻¹) * ((c.SW : ℂ)⁻¹) * ((N.c 1)⁻¹) * (ab z1.1 z2.1) * (mb z1.2 (p 2) z0.1) * (sb z3.2 ρ0) / (9) + (-1) * (((√2 : ℝ) : ℂ)) ^ 2 * ((c.e : ℂ)) ^ 2 * ((c.MW : ℂ)⁻¹) * ((c.SW : ℂ)⁻¹) * ((c.mass .u : ℂ)) * ((N.c 0)⁻¹) * (ab z0.1 z2.1) * (ab z1.1 z3.1) * (sb z1.2 ρ0) / (3) + (1) * (((√2 : ℝ) : ℂ)) ^ 2 * ((c.e : ℂ)) ^ 2 * ((c.MW : ℂ)⁻¹) * ((c.SW : ℂ)⁻¹) * ((c.mass .u : ℂ)) * ((N.c 1)⁻¹) * (ab z0.1 z1.1) * (sb z1.2 z2.2) * (sb z3.2 ρ0) / (3) + (-1) * (((√2 : ℝ) : ℂ)) ^ 2 * ((c.e : ℂ)) ^ 2 * ((c.MW : ℂ)⁻¹) * ((c.SW : ℂ)⁻¹) * ((N.c 0)⁻¹) * (ab z1.1 z3.1) * (mb z1.2 (p 2) z0.1) * (sb z2.2 ρ0) / (3) + (1) * (((√2 : ℝ) : ℂ)) ^ 2 * ((c.e : ℂ)) ^ 2 * ((c.MW : ℂ)⁻¹) * ((c.SW : ℂ)⁻¹) * ((N.c 1)⁻¹) * (ab z0.1 z3.1) * (mb ρ0 (p 2) z1.1) * (sb z1.2 z2.2) / (3) + (-8) * ((c.SW : ℂ)) ^ 2 * ((c.e : ℂ)) ^ 2 * ((c.MW : ℂ)⁻¹) * ((c.SW : ℂ)⁻¹) * ((c.mass .u : ℂ)) * ((N.c 0)⁻¹) * ((N.c 1)⁻¹) * (ab z0.1 z1.1) * (mb z2.2 (p 1) z0.1) * (sb z0.2 ρ0) * (sb z1.2 z3.2) / (9) + (8) * ((c.SW : ℂ)) ^ 2 * ((c.e : ℂ)) ^ 2 * ((c.MW : ℂ)⁻¹) * ((c.SW : ℂ)⁻¹) * ((c.mass .u : ℂ)) * ((N.c 0)⁻¹) * ((N.c 1)⁻¹) * (ab z0.1 z1.1) * (mb z3.2 (p 1) z0.1) * (sb z0.2 ρ0) * (sb z1.2 z2.2) / (9) + (-8) * ((c.SW : ℂ)) ^ 2 * ((c.e : ℂ)) ^ 2 * ((c.MW : ℂ)⁻¹) * ((c.SW : ℂ)⁻¹) * ((c.mass .u : ℂ)) * ((N.c 0)⁻¹) * (ab z0.1 z1.1) * (sb z1.2 z3.2) * (sb z2.2 ρ0) / (9) + (-8) * ((c.SW : ℂ)) ^ 2 * ((c.e : ℂ)) ^ 2 * ((c.MW : ℂ)⁻¹) * ((c.SW : ℂ)⁻¹) * ((c.mass .u : ℂ)) * ((N.c 0)⁻¹) * (ab z0.1 z2.1) * (ab z1.1 z3.1) * (sb z1.2 ρ0) / (9) + (8) * ((c.SW : ℂ)) ^ 2 * ((c.e : ℂ)) ^ 2 * ((c.MW : ℂ)⁻¹) * ((c.SW : ℂ)⁻¹) * ((c.mass .u : ℂ)) * ((N.c 1)⁻¹) * (ab z0.1 z1.1) * (sb z1.2 z2.2) * (sb z3.2 ρ0) / (9) + (8) * ((c.SW : ℂ)) ^ 2 * ((c.e : ℂ)) ^ 2 * ((c.MW : ℂ)⁻¹) * ((c.SW : ℂ)⁻¹) * ((c.mass .u : ℂ)) * ((N.c 1)⁻¹) * (ab z0.1 z3.1) * (ab z1.1 z2.1) * (sb z1.2 ρ0) / (9) + (8) * ((c.SW : ℂ)) ^ 2 * ((c.e : ℂ)) ^ 2 * ((c.MW : ℂ)⁻¹) * ((c.SW : ℂ)⁻¹) * ((N.c 0)⁻¹) * (ab z0.1 z1.1) * (ab z0.1 z2.1) * (sb z0.2 ρ0) * (sb z1.2 z3.2) / (9) + (8) * ((c.SW : ℂ)) ^ 2 * ((c.e : ℂ)) ^ 2 * ((c.MW : ℂ)⁻¹) * ((c.SW : ℂ)⁻¹) * ((N.c 0)⁻¹) * (ab z0.1 z2.1) * (mb ρ0 (p 2) z1.1) * (sb z1.2 z3.2) / (9) + (-8) * ((c.SW : ℂ)) ^ 2 * ((c.e : ℂ)) ^ 2 * ((c.MW : ℂ)⁻¹) * ((c.SW : ℂ)⁻¹) * ((N.c 0)⁻¹) * (ab z1.1 z3.1) * (mb z1.2 (p 2) z0.1) * (sb z2.2 ρ0) / (9) + (8) * ((c.SW : ℂ)) ^ 2 * ((c.e : ℂ)) ^ 2 * ((c.MW : ℂ)⁻¹) * ((c.SW : ℂ)⁻¹) * ((N.c 1)⁻¹) * (ab z0.1 z3.1) * (mb ρ0 (p 2) z1.1) * (sb z1.2 z2.2) / (9) + (-8) * ((c.SW : ℂ)) ^ 2 * ((c.e : ℂ)) ^ 2 * ((c.MW : ℂ)⁻¹) * ((c.SW : ℂ)⁻¹) * ((N.c 1)⁻¹) * (ab z1.1 z2.1) * (mb z1.2 (p 2) z0.1) * (sb z3.2 ρ0) / (9) + (-2) * ((c.e : ℂ)) ^ 2 * ((c.MW : ℂ)⁻¹) * ((c.SW : ℂ)⁻¹) * ((c.mass .u : ℂ)) * ((N.c 0)⁻¹) * ((N.c 1)⁻¹) * (ab z0.1 z1.1) * (mb z3.2 (p 1) z0.1) * (sb z0.2 ρ0) * (sb z1.2 z2.2) / (3) + (2) * ((c.e : ℂ)) ^ 2 * ((c.MW : ℂ)⁻¹) * ((c.SW : ℂ)⁻¹) * ((c.mass .u : ℂ)) * ((N.c 0)⁻¹) * (ab z0.1 z2.1) * (ab z1.1 z3.1) * (sb z1.2 ρ0) / (3) + (-2) * ((c.e : ℂ)) ^ 2 * ((c.MW : ℂ)⁻¹) * ((c.SW : ℂ)⁻¹) * ((c.mass .u : ℂ)) * ((N.c 1)⁻¹) * (ab z0.1 z1.1) * (sb z1.2 z2.2) * (sb z3.2 ρ0) / (3) + (2) * ((c.e : ℂ)) ^ 2 * ((c.MW : ℂ)⁻¹) * ((c.SW : ℂ)⁻¹) * ((N.c 0)⁻¹) * (ab z1.1 z3.1) * (mb z1.2 (p 2) z0.1) * (sb z2.2 ρ0) / (3) + (-2) * ((c.e : ℂ)) ^ 2 * ((c.MW : ℂ)⁻¹) * ((c.SW : ℂ)⁻¹) * ((N.c 1)⁻¹) * (ab z0.1 z3.1) * (mb ρ0 (p 2) z1.1) * (sb z1.2 z2.2) / (3)) * yCW + ((4) * (((√2 : ℝ) : ℂ)) ^ 2 * ((c.SW : ℂ)) ^ 2 * ((c.e : ℂ)) ^ 2 * ((c.CW : ℂ)⁻¹) * ((c.SW : ℂ)⁻¹) * ((N.c 1)⁻¹) * (ab z0.1 z1.1) * (ab z1.1 z2.1) * (sb z3.2 ρ0) / (9) + (4) * (((√2 : ℝ) : ℂ)) ^ 2 * ((c.SW : ℂ)) ^ 2 * ((c.e : ℂ)) ^ 2 * ((c.CW : ℂ)⁻¹) * ((c.SW : ℂ)⁻¹) * ((N.c 1)⁻¹) * (ab z0.1 z3.1) * (sb z1.2 z2.2) * (sb z1.2 ρ0) / (9) + (-1) * (((√2 : ℝ) : ℂ)) ^ 2 * ((c.e : ℂ)) ^ 2 * ((c.CW : ℂ)⁻¹) * ((c.SW : ℂ)⁻¹) * ((N.c 1)⁻¹) * (ab z0.1 z3.1) * (sb z1.2 z2.2) * (sb z1.2 ρ0) / (3) + (-8) * ((c.SW : ℂ)) ^ 2 * ((c.e : ℂ)) ^ 2 * ((c.CW : ℂ)⁻¹) * ((c.SW : ℂ)⁻¹) * ((N.c 1)⁻¹) * (ab z0.1 z1.1) * (ab z1.1 z2.1) * (sb z3.2 ρ0) / (9) + (-8) * ((c.SW : ℂ)) ^ 2 * ((c.e : ℂ)) ^ 2 * ((c.CW : ℂ)⁻¹) * ((c.SW : ℂ)⁻¹) * ((N.c 1)⁻¹) * (ab z0.1 z3.1) * (sb z1.2 z2.2) * (sb z1.2 ρ0) / (9) + (2) * ((c.e : ℂ)) ^ 2 * ((c.CW : ℂ)⁻¹) * ((c.SW : ℂ)⁻¹) * ((N.c 1)⁻¹) * (ab z0.1 z3.1) * (sb z1.2 z2.2) * (sb z1.2 ρ0) / (3)) * yMW + ((4) * (((√2 : ℝ) : ℂ)) ^ 2 * ((c.SW : ℂ)) * ((c.e : ℂ)) ^ 2 * ((c.CW : ℂ)⁻¹) * ((N.c 1)⁻¹) * (ab z0.1 z1.1) * (ab z1.1 z2.1) * (sb z3.2 ρ0) / (9) + (4) * (((√2 : ℝ) : ℂ)) ^ 2 * ((c.SW : ℂ)) * ((c.e : ℂ)) ^ 2 * ((c.CW : ℂ)⁻¹) * ((N.c 1)⁻¹) * (ab z0.1 z3.1) * (sb z1.2 z2.2) * (sb z1.2 ρ0) / (9) + (4) * (((√2 : ℝ) : ℂ)) ^ 2 * ((c.SW : ℂ)) * ((c.e : ℂ)) ^ 2 * ((c.MW : ℂ)⁻¹) * ((c.mass .u : ℂ)) * ((N.c 0)⁻¹) * (ab z0.1 z1.1) * (sb z1.2 z3.2) * (sb z2.2 ρ0) / (9) + (4) * (((√2 : ℝ) : ℂ)) ^ 2 * ((c.SW : ℂ)) * ((c.e : ℂ)) ^ 2 * ((c.MW : ℂ)⁻¹) * ((c.mass .u : ℂ)) * ((N.c 0)⁻¹) * (ab z0.1 z2.1) * (ab z1.1 z3.1) * (sb z1.2 ρ0) / (9) + (-4) * (((√2 : ℝ) : ℂ)) ^ 2 * ((c.SW : ℂ)) * ((c.e : ℂ)) ^ 2 * ((c.MW : ℂ)⁻¹) * ((c.mass .u : ℂ)) * ((N.c 1)⁻¹) * (ab z0.1 z1.1) * (sb z1.2 z2.2) * (sb z3.2 ρ0) / (9) + (-4) * (((√2 : ℝ) : ℂ)) ^ 2 * ((c.SW : ℂ)) * ((c.e : ℂ)) ^ 2 * ((c.MW : ℂ)⁻¹) * ((c.mass .u : ℂ)) * ((N.c 1)⁻¹) * (ab z0.1 z3.1) * (ab z1.1 z2.1) * (sb z1.2 ρ0) / (9) + (-4) * (((√2 : ℝ) : ℂ)) ^ 2 * ((c.SW : ℂ)) * ((c.e : ℂ)) ^ 2 * ((c.MW : ℂ)⁻¹) * ((N.c 0)⁻¹) * (ab z0.1 z1.1) * (ab z0.1 z2.1) * (sb z0.2 ρ0) * (sb z1.2 z3.2) / (9) + (-4) * (((√2 : ℝ) : ℂ)) ^ 2 * ((c.SW : ℂ)) * ((c.e : ℂ)) ^ 2 * ((c.MW : ℂ)⁻¹) * ((N.c 0)⁻¹) * (ab z0.1 z2.1) * (mb ρ0 (p 2) z1.1) * (sb z1.2 z3.2) / (9) + (4) * (((√2 : ℝ) : ℂ)) ^ 2 * ((c.SW : ℂ)) * ((c.e : ℂ)) ^ 2 * ((c.MW : ℂ)⁻¹) * ((N.c 0)⁻¹) * (ab z1.1 z3.1) * (mb z1.2 (p 2) z0.1) * (sb z2.2 ρ0) / (9) + (-4) * (((√2 : ℝ) : ℂ)) ^ 2 * ((c.SW : ℂ)) * ((c.e : ℂ)) ^ 2 * ((c.MW : ℂ)⁻¹) * ((N.c 1)⁻¹) * (ab z0.1 z3.1) * (mb ρ0 (p 2) z1.1) * (sb z1.2 z2.2) / (9) + (4) * (((√2 : ℝ) : ℂ)) ^ 2 * ((c.SW : ℂ)) * ((c.e : ℂ)) ^ 2 * ((c.MW : ℂ)⁻¹) * ((N.c 1)⁻¹) * (ab z1.1 z2.1) * (mb z1.2 (p 2) z0.1) * (sb z3.2 ρ0) / (9) + (-8) * ((c.SW : ℂ)) * ((c.e : ℂ)) ^ 2 * ((c.CW : ℂ)⁻¹) * ((N.c 1)⁻¹) * (ab z0.1 z1.1) * (ab z1.1 z2.1) * (sb z3.2 ρ0) / (9) + (-8) * ((c.SW : ℂ)) * ((c.e : ℂ)) ^ 2 * ((c.CW : ℂ)⁻¹) * ((N.c 1)⁻¹) * (ab z0.1 z3.1) * (sb z1.2 z2.2) * (sb z1.2 ρ0) / (9) + (-8) * ((c.SW : ℂ)) * ((c.e : ℂ)) ^ 2 * ((c.MW : ℂ)⁻¹) * ((c.mass .u : ℂ)) * ((N.c 0)⁻¹) * (ab z0.1 z1.1) * (sb z1.2 z3.2) * (sb z2.2 ρ0) / (9) + (-8) * ((c.SW : ℂ)) * ((c.e : ℂ)) ^ 2 * ((c.MW : ℂ)⁻¹) * ((c.mass .u : ℂ)) * ((N.c 0)⁻¹) * (ab z0.1 z2.1) * (ab z1.1 z3.1) * (sb z1.2 ρ0) / (9) + (8) * ((c.SW : ℂ)) * ((c.e : ℂ)) ^ 2 * ((c.MW : ℂ)⁻¹) * ((c.mass .u : ℂ)) * ((N.c 1)⁻¹) * (ab z0.1 z1.1) * (sb z1.2 z2.2) * (sb z3.2 ρ0) / (9) + (8) * ((c.SW : ℂ)) * ((c.e : ℂ)) ^ 2 * ((c.MW : ℂ)⁻¹) * ((c.mass .u : ℂ)) * ((N.c 1)⁻¹) * (ab z0.1 z3.1) * (ab z1.1 z2.1) * (sb z1.2 ρ0) / (9) + (8) * ((c.SW : ℂ)) * ((c.e : ℂ)) ^ 2 * ((c.MW : ℂ)⁻¹) * ((N.c 0)⁻¹) * (ab z0.1 z1.1) * (ab z0.1 z2.1) * (sb z0.2 ρ0) * (sb z1.2 z3.2) / (9) + (8) * ((c.SW : ℂ)) * ((c.e : ℂ)) ^ 2 * ((c.MW : ℂ)⁻¹) * ((N.c 0)⁻¹) * (ab z0.1 z2.1) * (mb ρ0 (p 2) z1.1) * (sb z1.2 z3.2) / (9) + (-8) * ((c.SW : ℂ)) * ((c.e : ℂ)) ^ 2 * ((c.MW : ℂ)⁻¹) * ((N.c 0)⁻¹) * (ab z1.1 z3.1) * (mb z1.2 (p 2) z0.1) * (sb z2.2 ρ0) / (9) + (8) * ((c.SW : ℂ)) * ((c.e : ℂ)) ^ 2 * ((c.MW : ℂ)⁻¹) * ((N.c 1)⁻¹) * (ab z0.1 z3.1) * (mb ρ0 (p 2) z1.1) * (sb z1.2 z2.2) / (9) + (-8) * ((c.SW : ℂ)) * ((c.e : ℂ)) ^ 2 * ((c.MW : ℂ)⁻¹) * ((N.c 1)⁻¹) * (ab z1.1 z2.1) * (mb z1.2 (p 2) z0.1) * (sb z3.2 ρ0) / (9)) * ySW + ((4) * ((c.SW : ℂ)) * ((c.e : ℂ)) ^ 2 * ((c.CW : ℂ)⁻¹) * ((N.c 1)⁻¹) * (ab z0.1 z1.1) * (ab z1.1 z2.1) * (sb z3.2 ρ0) / (9) + (4) * ((c.SW : ℂ)) * ((c.e : ℂ)) ^ 2 * ((c.CW : ℂ)⁻¹) * ((N.c 1)⁻¹) * (ab z0.1 z3.1) * (sb z1.2 z2.2) * (sb z1.2 ρ0) / (9) + (4) * ((c.SW : ℂ)) * ((c.e : ℂ)) ^ 2 * ((c.MW : ℂ)⁻¹) * ((c.mass .u : ℂ)) * ((N.c 0)⁻¹) * (ab z0.1 z1.1) * (sb z1.2 z3.2) * (sb z2.2 ρ0) / (9) + (4) * ((c.SW : ℂ)) * ((c.e : ℂ)) ^ 2 * ((c.MW : ℂ)⁻¹) * ((c.mass .u : ℂ)) * ((N.c 0)⁻¹) * (ab z0.1 z2.1) * (ab z1.1 z3.1) * (sb z1.2 ρ0) / (9) + (-4) * ((c.SW : ℂ)) * ((c.e : ℂ)) ^ 2 * ((c.MW : ℂ)⁻¹) * ((c.mass .u : ℂ)) * ((N.c 1)⁻¹) * (ab z0.1 z1.1) * (sb z1.2 z2.2) * (sb z3.2 ρ0) / (9) + (-4) * ((c.SW : ℂ)) * ((c.e : ℂ)) ^ 2 * ((c.MW : ℂ)⁻¹) * ((c.mass .u : ℂ)) * ((N.c 1)⁻¹) * (ab z0.1 z3.1) * (ab z1.1 z2.1) * (sb z1.2 ρ0) / (9) + (-4) * ((c.SW : ℂ)) * ((c.e : ℂ)) ^ 2 * ((c.MW : ℂ)⁻¹) * ((N.c 0)⁻¹) * (ab z0.1 z1.1) * (ab z0.1 z2.1) * (sb z0.2 ρ0) * (sb z1.2 z3.2) / (9) + (-4) * ((c.SW : ℂ)) * ((c.e : ℂ)) ^ 2 * ((c.MW : ℂ)⁻¹) * ((N.c 0)⁻¹) * (ab z0.1 z2.1) * (mb ρ0 (p 2) z1.1) * (sb z1.2 z3.2) / (9) + (4) * ((c.SW : ℂ)) * ((c.e : ℂ)) ^ 2 * ((c.MW : ℂ)⁻¹) * ((N.c 0)⁻¹) * (ab z1.1 z3.1) * (mb z1.2 (p 2) z0.1) * (sb z2.2 ρ0) / (9) + (-4) * ((c.SW : ℂ)) * ((c.e : ℂ)) ^ 2 * ((c.MW : ℂ)⁻¹) * ((N.c 1)⁻¹) * (ab z0.1 z3.1) * (mb ρ0 (p 2) z1.1) * (sb z1.2 z2.2) / (9) + (4) * ((c.SW : ℂ)) * ((c.e : ℂ)) ^ 2 * ((c.MW : ℂ)⁻¹) * ((N.c 1)⁻¹) * (ab z1.1 z2.1) * (mb z1.2 (p 2) z0.1) * (sb z3.2 ρ0) / (9) + (-1) * ((c.e : ℂ)) ^ 2 * ((c.CW : ℂ)⁻¹) * ((c.SW : ℂ)⁻¹) * ((N.c 1)⁻¹) * (ab z0.1 z3.1) * (sb z1.2 z2.2) * (sb z1.2 ρ0) / (3) + (-1) * ((c.e : ℂ)) ^ 2 * ((c.MW : ℂ)⁻¹) * ((c.SW : ℂ)⁻¹) * ((c.mass .u : ℂ)) * ((N.c 0)⁻¹) * (ab z0.1 z2.1) * (ab z1.1 z3.1) * (sb z1.2 ρ0) / (3) + (1) * ((c.e : ℂ)) ^ 2 * ((c.MW : ℂ)⁻¹) * ((c.SW : ℂ)⁻¹) * ((c.mass .u : ℂ)) * ((N.c 1)⁻¹) * (ab z0.1 z1.1) * (sb z1.2 z2.2) * (sb z3.2 ρ0) / (3) + (-1) * ((c.e : ℂ)) ^ 2 * ((c.MW : ℂ)⁻¹) * ((c.SW : ℂ)⁻¹) * ((N.c 0)⁻¹) * (ab z1.1 z3.1) * (mb z1.2 (p 2) z0.1) * (sb z2.2 ρ0) / (3) + (1) * ((c.e : ℂ)) ^ 2 * ((c.MW : ℂ)⁻¹) * ((c.SW : ℂ)⁻¹) * ((N.c 1)⁻¹) * (ab z0.1 z3.1) * (mb ρ0 (p 2) z1.1) * (sb z1.2 z2.2) / (3)) * x22
set_option maxRecDepth 8000 in
theorem AZuu.amp2_eq (N : Env) (f : Nat → List Int → ℂ) : Cls.AZuu.m_amp2.mean N f .r [] =
    ((sumW (fun x a => (sumV (fun x b => (sumJ (fun x c => (sumJ (fun x d => (x + (((3 : Nat) : ℝ) * (‖(f 0 [a, b, c, d])‖ ^ 2)))) x)) x)) x)) ((0 : Nat) : ℝ)) / ((6 : Nat) : ℝ)) := by rfl
set_option maxRecDepth 8000 in
theorem AZuu.value (N : Env) : meaning N .r Cls.AZuu.methods Cls.AZuu.amp2 [] =
    ((sumW (fun x a => (sumV (fun x b => (sumJ (fun x c => (sumJ (fun x d => (x + (((3 : Nat) : ℝ) * (‖(Cls.AZuu.m_amp.mean N (callMean N []) .c [a, b, c, d])‖ ^ 2)))) x)) x)) x)) ((0 : Nat) : ℝ)) / ((6 : Nat) : ℝ)) :=
  AZuu.amp2_eq N (callMean N [Cls.AZuu.m_amp])
theorem AZuu.termP_lin (N : Env) (w : ℝ) (x : ℂ) (a1 b1 j3 j4 : Int) : AZuu.termP N w x a1 b1 j3 j4 = x + (w : ℂ) * AZuu.termP N 1 0 a1 b1 j3 j4 := by
  simp only [AZuu.termP]; push_cast; ring
theorem AZuu.termM_lin (N : Env) (w : ℝ) (x : ℂ) (a1 b1 j3 j4 : Int) : AZuu.termM N w x a1 b1 j3 j4 = x + (w : ℂ) * AZuu.termM N 1 0 a1 b1 j3 j4 := by
  simp only [AZuu.termM]; push_cast; ring
set_option maxRecDepth 8000 in
theorem AZuu.ampP (N : Env) (f : Nat → List Int → ℂ) (j3 j4 : Int) (t1 : Fin 3) : Cls.AZuu.m_amp.mean N f .c [2, spinV t1, j3, j4] = comb t1 (fun a1 b1 => AZuu.termP N 1 0 (spinOf a1) (spinOf b1) j3 j4) := by
  refine (amp_mean N f (m := 4) (K := 6) (G := fun i => if 0 < i 0 then AZuu.termP N 1 0 (i 4) (i 5) (i 2) (i 3) else if i 0 < 0 then AZuu.termM N 1 0 (i 4) (i 5) (i 2) (i 3) else 0) (fun l => ?_) (fun i i' h => ?_) rfl (by decide) (by decide) (by decide) (by decide) (by decide)).trans ?_
  · by_cases h : 0 < l.i 0
    · refine ⟨_, (if_pos (decide_eq_true h)).trans rfl, rfl, rfl, ?_⟩; rw [if_pos h]; exact AZuu.termP_lin ..
    · by_cases h' : l.i 0 < 0
      · refine ⟨_, (if_neg (fun e => h (of_decide_eq_true e))).trans ((if_pos (decide_eq_true h')).trans rfl), rfl, rfl, ?_⟩; rw [if_neg h, if_pos h']; exact AZuu.termM_lin ..
      · refine ⟨_, (if_neg (fun e => h (of_decide_eq_true e))).trans ((if_neg (fun e => h' (of_decide_eq_true e))).trans rfl), rfl, rfl, ?_⟩; rw [if_neg h, if_neg h', mul_zero, add_zero]
  · simp only [h 0 (by decide), h 2 (by decide), h 3 (by decide), h 4 (by decide), h 5 (by decide)]
  · show amp' _ [spinV t1] = _
    simp only [amp'_comb, amp'_nil]
    rfl
theorem AZuu.formP_x1 (N : Env) (p : Nat → V4 ℝ) (z0 y1 z2 z3 x y : Pair) : AZuu.formP N p z0 (x + y) y1 z2 z3 = AZuu.formP N p z0 x y1 z2 z3 + AZuu.formP N p z0 y y1 z2 z3 := by
  simp only [AZuu.formP, Prod.fst_add, Prod.snd_add, ab_add_left, ab_add_right, sb_add_left, sb_add_right, mb_add_left, mb_add_right]
  ring
theorem AZuu.formP_y1 (N : Env) (p : Nat → V4 ℝ) (z0 x1 z2 z3 x y : Pair) : AZuu.formP N p z0 x1 (x + y) z2 z3 = AZuu.formP N p z0 x1 x z2 z3 + AZuu.formP N p z0 x1 y z2 z3 := by
  simp only [AZuu.formP, Prod.fst_add, Prod.snd_add, ab_add_left, ab_add_right, sb_add_left, sb_add_right, mb_add_left, mb_add_right]
  ring
set_option maxRecDepth 8000 in
theorem AZuu.ampM (N : Env) (f : Nat → List Int → ℂ) (j3 j4 : Int) (t1 : Fin 3) : Cls.AZuu.m_amp.mean N f .c [(-2), spinV t1, j3, j4] = comb t1 (fun a1 b1 => AZuu.termM N 1 0 (spinOf a1) (spinOf b1) j3 j4) := by
  refine (amp_mean N f (m := 4) (K := 6) (G := fun i => if 0 < i 0 then AZuu.termP N 1 0 (i 4) (i 5) (i 2) (i 3) else if i 0 < 0 then AZuu.termM N 1 0 (i 4) (i 5) (i 2) (i 3) else 0) (fun l => ?_) (fun i i' h => ?_) rfl (by decide) (by decide) (by decide) (by decide) (by decide)).trans ?_
  · by_cases h : 0 < l.i 0
    · refine ⟨_, (if_pos (decide_eq_true h)).trans rfl, rfl, rfl, ?_⟩; rw [if_pos h]; exact AZuu.termP_lin ..
    · by_cases h' : l.i 0 < 0
      · refine ⟨_, (if_neg (fun e => h (of_decide_eq_true e))).trans ((if_pos (decide_eq_true h')).trans rfl), rfl, rfl, ?_⟩; rw [if_neg h, if_pos h']; exact AZuu.termM_lin ..
      · refine ⟨_, (if_neg (fun e => h (of_decide_eq_true e))).trans ((if_neg (fun e => h' (of_decide_eq_true e))).trans rfl), rfl, rfl, ?_⟩; rw [if_neg h, if_neg h', mul_zero, add_zero]
  · simp only [h 0 (by decide), h 2 (by decide), h 3 (by decide), h 4 (by decide), h 5 (by decide)]
  · show amp' _ [spinV t1] = _
    simp only [amp'_comb, amp'_nil]
    rfl
theorem AZuu.formM_x1 (N : Env) (p : Nat → V4 ℝ) (z0 y1 z2 z3 x y : Pair) : AZuu.formM N p z0 (x + y) y1 z2 z3 = AZuu.formM N p z0 x y1 z2 z3 + AZuu.formM N p z0 y y1 z2 z3 := by
  simp only [AZuu.formM, Prod.fst_add, Prod.snd_add, ab_add_left, ab_add_right, sb_add_left, sb_add_right, mb_add_left, mb_add_right]
  ring
theorem AZuu.formM_y1 (N : Env) (p : Nat → V4 ℝ) (z0 x1 z2 z3 x y : Pair) : AZuu.formM N p z0 x1 (x + y) z2 z3 = AZuu.formM N p z0 x1 x z2 z3 + AZuu.formM N p z0 x1 y z2 z3 := by
  simp only [AZuu.formM, Prod.fst_add, Prod.snd_add, ab_add_left, ab_add_right, sb_add_left, sb_add_right, mb_add_left, mb_add_right]
  ring

theorem AZuu.mass_eq {c : Constants} (hc : c.Physical) (i : Fin 4) : AZuu.proc.massNum (AZuu.rho c) i = AZuu.react.mass c i := by
  fin_cases i <;> first | rfl | exact Nat.cast_zero | exact Nat.cast_zero.trans (hc.neutrino _).symm | (show c.MW / √(((1 : Nat) : ℝ) - c.SW * c.SW) = c.MZ; rw [c.root, c.mz])

variable [FPEnv] in
theorem AZuu.amps {c : Constants} {p : Nat → V4 ℝ} {u : Fin 4 → Fin 3 → Spinor} {ε : Fin 4 → Fin 3 → Vec} (hc : c.Physical) (hh : c.Heavy) (h0 : ∀ i, 0 ≤ AZuu.react.mass c i) (hs : ∀ i : Fin 4, OnShell (p i) (AZuu.react.mass c i)) (hb : Balanced p) (hr : AZuu.react.Regular c p) (hu : ∀ i, AZuu.react.Complete c p i (u i) (ε i)) :
    (AZuu.N c p).c 0 ≠ 0 ∧ (AZuu.N c p).c 1 ≠ 0 ∧ (∀ n, (Ty.r, n) ∈ AZuu.proc.divides → (AZuu.N c p).r n ≠ 0) ∧ (∀ n, (Ty.c, n) ∈ AZuu.proc.divides → (AZuu.N c p).c n ≠ 0) ∧ ∀ (s2 : Fin 2) (s3 : Fin 2) (h0 : Fin 2) (t1 : Fin 3), ‖Cls.AZuu.m_amp.mean (AZuu.N c p) (callMean (AZuu.N c p) []) .c [spinW h0, spinV t1, spinOf s2, spinOf s3]‖ = ‖AZuu.react.bare c p 2 3 0 1 (AZuu.react.codePair c p 2 s2) (AZuu.react.codePair c p 3 s3) (lightE (legA (p 0) 0 0, legS (p 0) 0 1) h0.castSucc) (AZuu.react.codeVec c p 1 t1)‖ := by
  have he : AZuu.react.ends = [2] := by decide
  have ht : AZuu.react.starts = [3] := by decide
  have hB : AZuu.react.bosons = [0, 1] := by decide
  obtain ⟨f1, f2, f3⟩ := AZuu.react.regular_line he ht hB hr
  have r2 : (AZuu.N c p).r 2 = (c.mass .u) := rfl
  have r6 : (AZuu.N c p).r 6 = (c.MW / √((((1 : Nat) : ℝ) - (c.SW * c.SW)))) := rfl
  simp only [c.root] at r6
  have r8 : (AZuu.N c p).r 8 = (((c.e * c.e) * (((2 : Nat) : ℝ) / ((3 : Nat) : ℝ))) / (c.MW * c.SW)) := rfl
  have r10 : (AZuu.N c p).r 10 = (((((-((2 : Nat) : ℝ)) * (((2 : Nat) : ℝ) / ((3 : Nat) : ℝ))) * c.SW) * c.SW) + ((1 : Nat) : ℝ)) := rfl
  have r11 : (AZuu.N c p).r 11 = ((((-((2 : Nat) : ℝ)) * (((2 : Nat) : ℝ) / ((3 : Nat) : ℝ))) * c.SW) * c.SW) := rfl
  have c0 : (AZuu.N c p).c 0 = poleDist (c.mass .u) ((0 : Nat) : ℝ) ((VExp.sub 0 2).sum p) := rfl
  rw [Nat.cast_zero, pole_fermion rfl] at c0
  have d0 : ((msq (plus (backward (p 3)) (p 1)) - c.mass .u ^ 2 : ℝ) : ℂ) = (AZuu.N c p).c 0 := by rw [c0, msq_t hb (plus (backward (p 3)) (p 1)) (by simp)]
  have n0 : (AZuu.N c p).c 0 ≠ 0 := by rw [← d0]; exact_mod_cast f2 .u rfl rfl
  have c1 : (AZuu.N c p).c 1 = poleDist (c.mass .u) ((0 : Nat) : ℝ) ((VExp.sub 0 3).sum p) := rfl
  rw [Nat.cast_zero, pole_fermion rfl] at c1
  have d1 : ((msq (plus (backward (p 3)) (p 0)) - c.mass .u ^ 2 : ℝ) : ℂ) = (AZuu.N c p).c 1 := by rw [c1, msq_u hb (plus (backward (p 3)) (p 0)) (by simp)]
  have n1 : (AZuu.N c p).c 1 ≠ 0 := by rw [← d1]; exact_mod_cast f1 .u rfl rfl
  obtain ⟨l0, x0, y0⟩ := AZuu.react.code_light hs hu (n := 0) rfl rfl
  have e02 := l0.pole_sub (m := (c.mass .u)) (onShell_msq (hs 2)) (msq_t hb (plus (p 0) (backward (p 2))) (by simp)) c0
  have e03 := l0.pole_sub (m := (c.mass .u)) (onShell_msq (hs 3)) (msq_u hb (plus (p 0) (backward (p 3))) (by simp)) c1
  have m1 : AZuu.react.mass c 1 ≠ 0 := (leg_pos hc hh (by decide)).ne'
  have m2 : AZuu.react.mass c 2 ≠ 0 := (leg_pos hc hh (by decide)).ne'
  have m3 : AZuu.react.mass c 3 ≠ 0 := (leg_pos hc hh (by decide)).ne'
  have m0 : AZuu.react.mass c 0 = 0 := rfl
  have hd : AZuu.proc.divides = [(Ty.c, 0), (Ty.c, 1)] := by decide +kernel
  have stP : ∀ {z2 z3 : Pair} (b2 : Bold (p 2) (AZuu.react.mass c 2) z2) (b3 : Bold (p 3) (AZuu.react.mass c 3) z3) (t1 : Fin 3), comb t1 (fun a1 b1 => AZuu.formP (AZuu.N c p) p (legA (p 0) 0 0, legS (p 0) 0 1) (AZuu.react.codePair c p 1 a1) (AZuu.react.codePair c p 1 b1) z2 z3) = (-1) * AZuu.react.bare c p 2 3 0 1 z2 z3 (lightE (legA (p 0) 0 0, legS (p 0) 0 1) 1) (AZuu.react.codeVec c p 1 t1) := by
    intro z2 z3 b2 b3 t1
    refine one_vector (p := p 1) (m := AZuu.react.mass c 1) (fun s => AZuu.react.codePair_bold hs h0 1 s) (B := fun x y => AZuu.formP (AZuu.N c p) p (legA (p 0) 0 0, legS (p 0) 0 1) x y z2 z3) (G := fun E => AZuu.react.bare c p 2 3 0 1 z2 z3 (lightE (legA (p 0) 0 0, legS (p 0) 0 1) 1) E) (fun x y z => ?_) (fun x y z => ?_) (AZuu.react.bare_lin₂ c p _ _ _ (by decide)) (-1) (fun z1 b1 => ?_) t1
    · exact AZuu.formP_x1 ..
    · exact AZuu.formP_y1 ..
    · exact (light_plus (z := (legA (p 0) 0 0, legS (p 0) 0 1)) (G := fun E => AZuu.react.bare c p 2 3 0 1 z2 z3 E (pv z1.1 z1.2)) (AZuu.react.bare_lin₁ c p _ _ _ (by decide)) x0 (AZuu.keyP hc hb r2 r6 r8 r10 r11 d0 n0 d1 n1 b1 b2 b3 l0 e02 e03 (onShell_msq (hs 1)) (onShell_msq (hs 2)) (onShell_msq (hs 3)) _)).trans (mul_assoc _ _ _)
  have stM : ∀ {z2 z3 : Pair} (b2 : Bold (p 2) (AZuu.react.mass c 2) z2) (b3 : Bold (p 3) (AZuu.react.mass c 3) z3) (t1 : Fin 3), comb t1 (fun a1 b1 => AZuu.formM (AZuu.N c p) p (legA (p 0) 0 0, legS (p 0) 0 1) (AZuu.react.codePair c p 1 a1) (AZuu.react.codePair c p 1 b1) z2 z3) = (-1) * AZuu.react.bare c p 2 3 0 1 z2 z3 (lightE (legA (p 0) 0 0, legS (p 0) 0 1) 0) (AZuu.react.codeVec c p 1 t1) := by
    intro z2 z3 b2 b3 t1
    refine one_vector (p := p 1) (m := AZuu.react.mass c 1) (fun s => AZuu.react.codePair_bold hs h0 1 s) (B := fun x y => AZuu.formM (AZuu.N c p) p (legA (p 0) 0 0, legS (p 0) 0 1) x y z2 z3) (G := fun E => AZuu.react.bare c p 2 3 0 1 z2 z3 (lightE (legA (p 0) 0 0, legS (p 0) 0 1) 0) E) (fun x y z => ?_) (fun x y z => ?_) (AZuu.react.bare_lin₂ c p _ _ _ (by decide)) (-1) (fun z1 b1 => ?_) t1
    · exact AZuu.formM_x1 ..
    · exact AZuu.formM_y1 ..
    · exact (light_minus (z := (legA (p 0) 0 0, legS (p 0) 0 1)) (G := fun E => AZuu.react.bare c p 2 3 0 1 z2 z3 E (pv z1.1 z1.2)) (AZuu.react.bare_lin₁ c p _ _ _ (by decide)) y0 (AZuu.keyM hc hb r2 r6 r8 r10 r11 d0 n0 d1 n1 b1 b2 b3 l0 e02 e03 (onShell_msq (hs 1)) (onShell_msq (hs 2)) (onShell_msq (hs 3)) _)).trans (mul_assoc _ _ _)
  have amP : ∀ (s2 : Fin 2) (s3 : Fin 2) (t1 : Fin 3), Cls.AZuu.m_amp.mean (AZuu.N c p) (callMean (AZuu.N c p) []) .c [2, spinV t1, spinOf s2, spinOf s3] = (-1) * AZuu.react.bare c p 2 3 0 1 (AZuu.react.codePair c p 2 s2) (AZuu.react.codePair c p 3 s3) (lightE (legA (p 0) 0 0, legS (p 0) 0 1) 1) (AZuu.react.codeVec c p 1 t1) := by
    intro s2 s3 t1
    rw [AZuu.ampP, ← stP (AZuu.react.codePair_bold hs h0 2 s2) (AZuu.react.codePair_bold hs h0 3 s3) t1]
    refine congrArg (comb t1) (funext fun a1 => funext fun b1 => ?_)
    have v3z0x1 : (AZuu.N c p).v 3 [spinOf a1] = sb (legA (p 0) 0 0, legS (p 0) 0 1).2 (AZuu.react.codePair c p 1 a1).2 := bra_square (p := p) (m := AZuu.proc.massNum (AZuu.rho c)) (AZuu.mass_eq hc 0) (AZuu.mass_eq hc 1) (.inr ⟨m0, rfl⟩) (.inl ⟨m1, rfl⟩)
    have v7y1z3 : (AZuu.N c p).v 7 [spinOf b1, spinOf s3] = ab (AZuu.react.codePair c p 1 b1).1 (AZuu.react.codePair c p 3 s3).1 := bra_angle (p := p) (m := AZuu.proc.massNum (AZuu.rho c)) (AZuu.mass_eq hc 1) (AZuu.mass_eq hc 3) (.inl ⟨m1, rfl⟩) (.inl ⟨m3, rfl⟩)
    have v10z0z2 : (AZuu.N c p).v 10 [spinOf s2] = mb (legA (p 0) 0 0, legS (p 0) 0 1).2 (p 1) (AZuu.react.codePair c p 2 s2).1 := bra_mid_square (p := p) (m := AZuu.proc.massNum (AZuu.rho c)) (AZuu.mass_eq hc 0) (AZuu.mass_eq hc 2) (.inr ⟨m0, rfl⟩) (.inl ⟨m2, rfl⟩)
    have v4z0z2 : (AZuu.N c p).v 4 [spinOf s2] = sb (legA (p 0) 0 0, legS (p 0) 0 1).2 (AZuu.react.codePair c p 2 s2).2 := bra_square (p := p) (m := AZuu.proc.massNum (AZuu.rho c)) (AZuu.mass_eq hc 0) (AZuu.mass_eq hc 2) (.inr ⟨m0, rfl⟩) (.inl ⟨m2, rfl⟩)
    have v7x1z3 : (AZuu.N c p).v 7 [spinOf a1, spinOf s3] = ab (AZuu.react.codePair c p 1 a1).1 (AZuu.react.codePair c p 3 s3).1 := bra_angle (p := p) (m := AZuu.proc.massNum (AZuu.rho c)) (AZuu.mass_eq hc 1) (AZuu.mass_eq hc 3) (.inl ⟨m1, rfl⟩) (.inl ⟨m3, rfl⟩)
    have v13z0y1 : (AZuu.N c p).v 13 [spinOf b1] = mb (legA (p 0) 0 0, legS (p 0) 0 1).2 (p 3) (AZuu.react.codePair c p 1 b1).1 := bra_mid_square (p := p) (m := AZuu.proc.massNum (AZuu.rho c)) (AZuu.mass_eq hc 0) (AZuu.mass_eq hc 1) (.inr ⟨m0, rfl⟩) (.inl ⟨m1, rfl⟩)
    have v6y1z2 : (AZuu.N c p).v 6 [spinOf b1, spinOf s2] = ab (AZuu.react.codePair c p 1 b1).1 (AZuu.react.codePair c p 2 s2).1 := bra_angle (p := p) (m := AZuu.proc.massNum (AZuu.rho c)) (AZuu.mass_eq hc 1) (AZuu.mass_eq hc 2) (.inl ⟨m1, rfl⟩) (.inl ⟨m2, rfl⟩)
    have v11z0z3 : (AZuu.N c p).v 11 [spinOf s3] = mb (legA (p 0) 0 0, legS (p 0) 0 1).2 (p 1) (AZuu.react.codePair c p 3 s3).1 := bra_mid_square (p := p) (m := AZuu.proc.massNum (AZuu.rho c)) (AZuu.mass_eq hc 0) (AZuu.mass_eq hc 3) (.inr ⟨m0, rfl⟩) (.inl ⟨m3, rfl⟩)
    have v5z0z3 : (AZuu.N c p).v 5 [spinOf s3] = sb (legA (p 0) 0 0, legS (p 0) 0 1).2 (AZuu.react.codePair c p 3 s3).2 := bra_square (p := p) (m := AZuu.proc.massNum (AZuu.rho c)) (AZuu.mass_eq hc 0) (AZuu.mass_eq hc 3) (.inr ⟨m0, rfl⟩) (.inl ⟨m3, rfl⟩)
    have v6x1z2 : (AZuu.N c p).v 6 [spinOf a1, spinOf s2] = ab (AZuu.react.codePair c p 1 a1).1 (AZuu.react.codePair c p 2 s2).1 := bra_angle (p := p) (m := AZuu.proc.massNum (AZuu.rho c)) (AZuu.mass_eq hc 1) (AZuu.mass_eq hc 2) (.inl ⟨m1, rfl⟩) (.inl ⟨m2, rfl⟩)
    have v12z0y1 : (AZuu.N c p).v 12 [spinOf b1] = mb (legA (p 0) 0 0, legS (p 0) 0 1).2 (p 2) (AZuu.react.codePair c p 1 b1).1 := bra_mid_square (p := p) (m := AZuu.proc.massNum (AZuu.rho c)) (AZuu.mass_eq hc 0) (AZuu.mass_eq hc 1) (.inr ⟨m0, rfl⟩) (.inl ⟨m1, rfl⟩)
    simp only [AZuu.termP, AZuu.formP, v3z0x1, v7y1z3, v10z0z2, v4z0z2, v7x1z3, v13z0y1, v6y1z2, v11z0z3, v5z0z3, v6x1z2, v12z0y1]
    push_cast
    ring
  have amM : ∀ (s2 : Fin 2) (s3 : Fin 2) (t1 : Fin 3), Cls.AZuu.m_amp.mean (AZuu.N c p) (callMean (AZuu.N c p) []) .c [(-2), spinV t1, spinOf s2, spinOf s3] = (-1) * AZuu.react.bare c p 2 3 0 1 (AZuu.react.codePair c p 2 s2) (AZuu.react.codePair c p 3 s3) (lightE (legA (p 0) 0 0, legS (p 0) 0 1) 0) (AZuu.react.codeVec c p 1 t1) := by
    intro s2 s3 t1
    rw [AZuu.ampM, ← stM (AZuu.react.codePair_bold hs h0 2 s2) (AZuu.react.codePair_bold hs h0 3 s3) t1]
    refine congrArg (comb t1) (funext fun a1 => funext fun b1 => ?_)
    have v9x1z3 : (AZuu.N c p).v 9 [spinOf a1, spinOf s3] = sb (AZuu.react.codePair c p 1 a1).2 (AZuu.react.codePair c p 3 s3).2 := bra_square (p := p) (m := AZuu.proc.massNum (AZuu.rho c)) (AZuu.mass_eq hc 1) (AZuu.mass_eq hc 3) (.inl ⟨m1, rfl⟩) (.inl ⟨m3, rfl⟩)
    have v1z0z2 : (AZuu.N c p).v 1 [spinOf s2] = ab (legA (p 0) 0 0, legS (p 0) 0 1).1 (AZuu.react.codePair c p 2 s2).1 := bra_angle (p := p) (m := AZuu.proc.massNum (AZuu.rho c)) (AZuu.mass_eq hc 0) (AZuu.mass_eq hc 2) (.inr ⟨m0, rfl⟩) (.inl ⟨m2, rfl⟩)
    have v15y1z0 : (AZuu.N c p).v 15 [spinOf b1] = mb (AZuu.react.codePair c p 1 b1).2 (p 3) (legA (p 0) 0 0, legS (p 0) 0 1).1 := bra_mid_square (p := p) (m := AZuu.proc.massNum (AZuu.rho c)) (AZuu.mass_eq hc 1) (AZuu.mass_eq hc 0) (.inl ⟨m1, rfl⟩) (.inr ⟨m0, rfl⟩)
    have v0z0y1 : (AZuu.N c p).v 0 [spinOf b1] = ab (legA (p 0) 0 0, legS (p 0) 0 1).1 (AZuu.react.codePair c p 1 b1).1 := bra_angle (p := p) (m := AZuu.proc.massNum (AZuu.rho c)) (AZuu.mass_eq hc 0) (AZuu.mass_eq hc 1) (.inr ⟨m0, rfl⟩) (.inl ⟨m1, rfl⟩)
    have v16z2z0 : (AZuu.N c p).v 16 [spinOf s2] = mb (AZuu.react.codePair c p 2 s2).2 (p 1) (legA (p 0) 0 0, legS (p 0) 0 1).1 := bra_mid_square (p := p) (m := AZuu.proc.massNum (AZuu.rho c)) (AZuu.mass_eq hc 2) (AZuu.mass_eq hc 0) (.inl ⟨m2, rfl⟩) (.inr ⟨m0, rfl⟩)
    have v8x1z2 : (AZuu.N c p).v 8 [spinOf a1, spinOf s2] = sb (AZuu.react.codePair c p 1 a1).2 (AZuu.react.codePair c p 2 s2).2 := bra_square (p := p) (m := AZuu.proc.massNum (AZuu.rho c)) (AZuu.mass_eq hc 1) (AZuu.mass_eq hc 2) (.inl ⟨m1, rfl⟩) (.inl ⟨m2, rfl⟩)
    have v2z0z3 : (AZuu.N c p).v 2 [spinOf s3] = ab (legA (p 0) 0 0, legS (p 0) 0 1).1 (AZuu.react.codePair c p 3 s3).1 := bra_angle (p := p) (m := AZuu.proc.massNum (AZuu.rho c)) (AZuu.mass_eq hc 0) (AZuu.mass_eq hc 3) (.inr ⟨m0, rfl⟩) (.inl ⟨m3, rfl⟩)
    have v14y1z0 : (AZuu.N c p).v 14 [spinOf b1] = mb (AZuu.react.codePair c p 1 b1).2 (p 2) (legA (p 0) 0 0, legS (p 0) 0 1).1 := bra_mid_square (p := p) (m := AZuu.proc.massNum (AZuu.rho c)) (AZuu.mass_eq hc 1) (AZuu.mass_eq hc 0) (.inl ⟨m1, rfl⟩) (.inr ⟨m0, rfl⟩)
    have v17z3z0 : (AZuu.N c p).v 17 [spinOf s3] = mb (AZuu.react.codePair c p 3 s3).2 (p 1) (legA (p 0) 0 0, legS (p 0) 0 1).1 := bra_mid_square (p := p) (m := AZuu.proc.massNum (AZuu.rho c)) (AZuu.mass_eq hc 3) (AZuu.mass_eq hc 0) (.inl ⟨m3, rfl⟩) (.inr ⟨m0, rfl⟩)
    simp only [AZuu.termM, AZuu.formM, v9x1z3, v1z0z2, v15y1z0, v0z0y1, v16z2z0, v8x1z2, v2z0z3, v14y1z0, v17z3z0]
    push_cast
    ring
  refine ⟨n0, n1, fun n hn => ?_, fun n hn => ?_, ?_⟩
  · simp [hd] at hn
  · simp [hd] at hn
    rcases hn with rfl | rfl
    · exact n0
    · exact n1
  intro s2 s3 h0 t1
  match h0 with
  | 1 => exact norm_minus (amP s2 s3 t1)
  | 0 => exact norm_minus (amM s2 s3 t1)

variable [FPEnv] in
theorem AZuu.agrees : AZuu.Agrees := by
  refine agrees_of (D := [2, 3]) (E := [3]) (by simp [all, AZuu]) (by decide +kernel) (by decide) (by decide +kernel) (fun c hc hh => ⟨List.forall_mem_cons.2 ⟨hc.MW, List.forall_mem_cons.2 ⟨hc.SW, List.forall_mem_nil _⟩⟩, List.forall_mem_cons.2 ⟨hc.SW_lt, List.forall_mem_nil _⟩⟩) (fun c hc i => AZuu.mass_eq hc i) (by decide +kernel) ?_
  intro c p u ε hc hh hw h0 hs hb hr hu
  have he : AZuu.react.ends = [2] := by decide
  have ht : AZuu.react.starts = [3] := by decide
  have hB : AZuu.react.bosons = [0, 1] := by decide
  obtain ⟨n0, n1, d1, d2, am⟩ := AZuu.amps hc hh h0 hs hb hr hu
  refine ⟨d1, d2, ?_⟩
  show meaning (AZuu.N c p) .r Cls.AZuu.methods Cls.AZuu.amp2 [] = _
  have s0 : AZuu.react.states 0 = 2 := by decide +kernel
  have s1 : AZuu.react.states 1 = 3 := by decide +kernel
  have sy : AZuu.react.symmetry = 1 := by decide
  have p0 : AZuu.react.spins 0 = {0, 1} := rfl
  have p1 : AZuu.react.spins 1 = Finset.univ := rfl
  have p2 : AZuu.react.spins 2 = {0, 1} := rfl
  have p3 : AZuu.react.spins 3 = {0, 1} := rfl
  have E0 : AZuu.react.codeE c p 0 = lightE (legA (p 0) 0 0, legS (p 0) 0 1) := rfl
  have E1 : AZuu.react.codeE c p 1 = AZuu.react.codeVec c p 1 := rfl
  have hG : AZuu.react.Gauge c p := (AZuu.react.gauge_line he ht hB hh (by decide) (fun n => onShell_msq (hs n)) hb hr (fun n m h h2 => absurd (And.intro h h2) (by revert n m; decide)) (fun _ => ⟨rfl, rfl⟩) (fun h => absurd h (by decide)))
  have lc : AZuu.react.lineColours 2 3 = 3 := by decide +kernel
  rw [AZuu.value, AZuu.react.squared_line he ht hB (by decide) hs h0 (fun _ b _ hb _ => (boson_pos hc hh hb).ne') hG (E := AZuu.react.codeE c p) (fun n b hl => AZuu.react.codeE_polarised hs h0 hu (fun b hb => (boson_pos hc hh hb).ne') n b hl) hu, sum_colours, lc, s0, s1, sy]
  simp only [sumV_sum, sumJ_sum, sumW_sum, am, p0, p1, p2, p3, E0, E1, Finset.sum_singleton, sum_two, Matrix.cons_val_zero, Matrix.cons_val_one, Matrix.cons_val, two_castSucc]
  try simp only [← Finset.mul_sum]
  push_cast
  first | ring1 | ring_nf

/-! ### AZdd -/

/-- what the methods of the class see -/
noncomputable abbrev AZdd.N [FPEnv] (c : Constants) (p : Nat → V4 ℝ) : Env := AZdd.proc.env (AZdd.rho c) p
/-- the term that `amp` adds for a choice of spinors, for a photon of positive helicity (SM/AZdd.cpp) -/
noncomputable def AZdd.termP (N : Env) (w : ℝ) (x : ℂ) (a1 b1 j3 j4 : Int) : ℂ :=
  ((x + (((((((w * N.r 8) : ℝ) : ℂ) * N.v 10 []) * (((((N.r 11 : ℝ) : ℂ) * N.v 6 [a1, j4]) * N.v 3 [b1, j3]) + ((((N.r 10 : ℝ) : ℂ) * N.v 2 [a1, j3]) * N.v 7 [b1, j4]))) / N.c 0) / N.c 1)) + (((((w * N.r 8) : ℝ) : ℂ) * N.v 0 [a1]) * ((((((N.r 11 : ℝ) : ℂ) * N.v 8 [j4]) * N.v 3 [b1, j3]) / N.c 1) - (((((N.r 10 : ℝ) : ℂ) * N.v 4 [j3]) * N.v 7 [b1, j4]) / N.c 0))))
/-- the same with spinors in place of their spins -/
noncomputable def AZdd.formP (N : Env) (p : Nat → V4 ℝ) (z0 x1 y1 z2 z3 : Pair) : ℂ :=
  ((0 + (((((((((1 : Nat) : ℝ) * N.r 8) : ℝ) : ℂ) * (mb z0.2 (p 2) (slashLower (p 3) *ᵥ z0.2))) * (((((N.r 11 : ℝ) : ℂ) * (sb x1.2 z3.2)) * (ab y1.1 z2.1)) + ((((N.r 10 : ℝ) : ℂ) * (sb x1.2 z2.2)) * (ab y1.1 z3.1)))) / N.c 0) / N.c 1)) + (((((((1 : Nat) : ℝ) * N.r 8) : ℝ) : ℂ) * (sb z0.2 x1.2)) * ((((((N.r 11 : ℝ) : ℂ) * (sb z0.2 z3.2)) * (ab y1.1 z2.1)) / N.c 1) - (((((N.r 10 : ℝ) : ℂ) * (sb z0.2 z2.2)) * (ab y1.1 z3.1)) / N.c 0))))
/-- the term that `amp` adds for a choice of spinors, for a photon of negative helicity (SM/AZdd.cpp) -/
noncomputable def AZdd.termM (N : Env) (w : ℝ) (x : ℂ) (a1 b1 j3 j4 : Int) : ℂ :=
  ((x + (((((((w * N.r 8) : ℝ) : ℂ) * N.v 11 []) * (((((N.r 11 : ℝ) : ℂ) * N.v 6 [a1, j4]) * N.v 3 [b1, j3]) + ((((N.r 10 : ℝ) : ℂ) * N.v 2 [a1, j3]) * N.v 7 [b1, j4]))) / N.c 0) / N.c 1)) + (((((w * N.r 8) : ℝ) : ℂ) * N.v 1 [a1]) * ((((((N.r 10 : ℝ) : ℂ) * N.v 9 [j4]) * N.v 2 [b1, j3]) / N.c 1) - (((((N.r 11 : ℝ) : ℂ) * N.v 5 [j3]) * N.v 6 [b1, j4]) / N.c 0))))
/-- the same with spinors in place of their spins -/
noncomputable def AZdd.formM (N : Env) (p : Nat → V4 ℝ) (z0 x1 y1 z2 z3 : Pair) : ℂ :=
  ((0 + (((((((((1 : Nat) : ℝ) * N.r 8) : ℝ) : ℂ) * (mb (slashUpper (p 3) *ᵥ z0.1) (p 2) z0.1)) * (((((N.r 11 : ℝ) : ℂ) * (sb x1.2 z3.2)) * (ab y1.1 z2.1)) + ((((N.r 10 : ℝ) : ℂ) * (sb x1.2 z2.2)) * (ab y1.1 z3.1)))) / N.c 0) / N.c 1)) + (((((((1 : Nat) : ℝ) * N.r 8) : ℝ) : ℂ) * (ab z0.1 x1.1)) * ((((((N.r 10 : ℝ) : ℂ) * (ab z0.1 z3.1)) * (sb y1.2 z2.2)) / N.c 1) - (((((N.r 11 : ℝ) : ℂ) * (ab z0.1 z2.1)) * (sb y1.2 z3.2)) / N.c 0))))
theorem AZdd.keyP {c : Constants} {p : Nat → V4 ℝ} {N : Env} (hc : c.Physical) (hb : Balanced p) (r8 : N.r 8 = ((((((2 : Nat) : ℝ) * c.e) * c.e) * ((-((1 : Nat) : ℝ)) / ((3 : Nat) : ℝ))) / ((((2 : Nat) : ℝ) * c.MW) * c.SW))) (r10 : N.r 10 = (((((-((2 : Nat) : ℝ)) * ((-((1 : Nat) : ℝ)) / ((3 : Nat) : ℝ))) * c.SW) * c.SW) - ((1 : Nat) : ℝ))) (r11 : N.r 11 = ((((-((2 : Nat) : ℝ)) * ((-((1 : Nat) : ℝ)) / ((3 : Nat) : ℝ))) * c.SW) * c.SW)) (d0 : ((msq (plus (backward (p 3)) (p 1)) - c.mass .d ^ 2 : ℝ) : ℂ) = N.c 0) (n0 : N.c 0 ≠ 0) (d1 : ((msq (plus (backward (p 3)) (p 0)) - c.mass .d ^ 2 : ℝ) : ℂ) = N.c 1) (n1 : N.c 1 ≠ 0) {z0 z1 z2 z3 : Pair} (b1 : Bold (p 1) c.MZ z1) (b2 : Bold (p 2) (c.mass .d) z2) (b3 : Bold (p 3) (c.mass .d) z3) (l0 : Light (p 0) z0) (e02 : mb z0.2 (p 2) z0.1 = -N.c 0) (e03 : mb z0.2 (p 3) z0.1 = -N.c 1) (q1 : msq (p 1) = c.MZ ^ 2) (q2 : msq (p 2) = (c.mass .d) ^ 2) (q3 : msq (p 3) = (c.mass .d) ^ 2) (ρ0 : V2) :
    AZdd.formP N p z0 z1 z1 z2 z3 * ab ρ0 z0.1 = ((√2 : ℝ) * ((1 : ℂ) * ((√2 / c.MZ : ℝ) : ℂ))) * AZdd.react.bare c p 2 3 0 1 z2 z3 (pv ρ0 z0.2) (pv z1.1 z1.2) := by
  rw [AZdd.react.bare_parts c p (i := 2) (j := 3) (a := 0) (b := 1) (x := .photon) (y := .z) (k := (p 0)) (k' := (p 1)) (fun _ => rfl) (fun _ => rfl) (f := .d) (g := .d) rfl rfl (l := (backward (p 3))) rfl (e := 1) (e' := -1) (if_neg Bool.false_ne_true) (if_pos rfl)]
  rw [compton_vv (f := .d) (x := .d) (g := .d) (h := (rfl : Spec.after .photon Flavour.d = some Flavour.d)) (h' := (rfl : Spec.after .z Flavour.d = some Flavour.d)) (ha := by simp) (hb := by simp)]
  rw [compton_vv (f := .d) (x := .d) (g := .d) (h := (rfl : Spec.after .z Flavour.d = some Flavour.d)) (h' := (rfl : Spec.after .photon Flavour.d = some Flavour.d)) (ha := by simp) (hb := by simp)]
  rw [annihilation_none c _ _ (by rfl) (by simp), star_zero, add_zero, AZdd.formP]
  simp only [d0, d1, lineV_pv, lineV_four, contract_four_pv, contract_pv, mb_plus, mb_backward]
  have i0 := chain_square z0.1 z2.1 z0.2 (p 2) (p 3) z0.2
  have i1 := mb_schouten_left z0.2 z1.2 z3.2 (p 1) z2.1
  have i2 := mb_schouten_right z0.2 (p 2) z0.1 z1.1 ρ0
  have i3 := chain_square z0.1 z1.1 z0.2 (p 2) (p 3) z0.2
  have i4 := ab_schouten z1.1 z2.1 ρ0 z0.1
  have i5 := mb_schouten_left z0.2 z1.2 z3.2 (p 2) z1.1
  have i6 := ab_schouten z2.1 z3.1 ρ0 z1.1
  have i7 := sb_schouten z1.2 z2.2 z3.2 z0.2
  have i8 := mb_schouten_right z1.2 (p 2) z0.1 z1.1 z2.1
  have i9 := mb_schouten_right z0.2 (p 2) z0.1 z2.1 ρ0
  have i10 := ab_schouten z1.1 z3.1 ρ0 z0.1
  have i11 := mb_schouten_right z0.2 (p 1) z0.1 z1.1 ρ0
  have i12 := chain_square z0.1 z3.1 z0.2 (p 2) (p 3) z0.2
  have i13 := mb_schouten_right z1.2 (p 2) z0.1 z2.1 ρ0
  have i14 := mb_schouten_right z0.2 (p 2) z1.1 z2.1 ρ0
  have i15 := mb_schouten_right z1.2 (p 2) z0.1 z1.1 ρ0
  have i16 := mb_schouten_right z0.2 (p 2) z0.1 z1.1 z2.1
  have i17 := mb_schouten_right z1.2 (p 2) z0.1 z3.1 ρ0
  have i18 := mb_schouten_right z0.2 (p 2) z0.1 z1.1 z3.1
  have i19 := mb_schouten_right z0.2 (p 1) z0.1 z1.1 z3.1
  have i20 := mb_schouten_right z0.2 (p 1) z1.1 z3.1 ρ0
  have i21 := mb_schouten_left z0.2 z1.2 z2.2 (p 1) z3.1
  have i22 := mb_schouten_right z0.2 (p 2) z1.1 z3.1 ρ0
  have i23 := mb_schouten_right z1.2 (p 2) z0.1 z1.1 z3.1
  have i24 := mb_schouten_right z0.2 (p 2) z0.1 z3.1 ρ0
  have i25 := mb_schouten_right z0.2 (p 1) z0.1 z3.1 ρ0
  have i26 := mb_schouten_left z0.2 z1.2 z2.2 (p 2) z1.1
  simp only [l0.mb_eq, b1.mb_left, b1.mb_right, b2.mb_left, b2.mb_right, b3.mb_left, b3.mb_right, e02, e03, mb_one hb z0.2 z0.1, mb_three hb z0.2 z1.1, mb_three hb z0.2 z2.1, mb_two hb z0.2 z3.1, mb_three hb z0.2 ρ0, mb_three hb z1.2 z0.1, mb_three hb z1.2 z1.1, mb_three hb z1.2 z2.1, mb_two hb z1.2 z3.1, mb_three hb z1.2 ρ0, mb_three hb z2.2 z0.1, mb_three hb z2.2 z1.1, mb_three hb z2.2 z2.1, mb_one hb z2.2 z3.1, mb_three hb z2.2 ρ0, mb_two hb z3.2 z0.1, mb_two hb z3.2 z1.1, mb_one hb z3.2 z2.1, mb_two hb z3.2 z3.1, mb_two hb z3.2 ρ0, ab_self, sb_self] at i0 i1 i2 i3 i4 i5 i6 i7 i8 i9 i10 i11 i12 i13 i14 i15 i16 i17 i18 i19 i20 i21 i22 i23 i24 i25 i26 ⊢
  simp only [ab_swap z0.1 z1.1, ab_swap z0.1 z2.1, ab_swap z0.1 z3.1, ab_swap z0.1 ρ0, ab_swap z1.1 z2.1, ab_swap z1.1 z3.1, ab_swap z1.1 ρ0, ab_swap z2.1 z3.1, ab_swap z2.1 ρ0, ab_swap z3.1 ρ0, sb_swap z0.2 z1.2, sb_swap z0.2 z2.2, sb_swap z0.2 z3.2, sb_swap z1.2 z2.2, sb_swap z1.2 z3.2, sb_swap z2.2 z3.2] at i0 i1 i2 i3 i4 i5 i6 i7 i8 i9 i10 i11 i12 i13 i14 i15 i16 i17 i18 i19 i20 i21 i22 i23 i24 i25 i26 ⊢
  simp only [r8, r10, r11, Constants.hL, Constants.hR, Constants.gL, Constants.gR, Constants.yuk, Constants.invVev, Flavour.charge_d, Flavour.isospin_d, ← c.mz]
  have xMW : (c.MW : ℂ) ≠ 0 := by exact_mod_cast hc.MW
  have xSW : (c.SW : ℂ) ≠ 0 := by exact_mod_cast hc.SW
  have xCW : (c.CW : ℂ) ≠ 0 := by exact_mod_cast hc.CW
  have x2 : ((√2 : ℝ) : ℂ) ≠ 0 := by exact_mod_cast (Real.sqrt_pos.2 two_pos).ne'
  have x22 : ((√2 : ℝ) : ℂ) ^ 2 = 2 := by rw [← Complex.ofReal_pow, Real.sq_sqrt two_pos.le]; norm_num
  have x23 : ((√2 : ℝ) : ℂ) ^ 3 = 2 * ((√2 : ℝ) : ℂ) := by rw [← x22]; ring
  have x24 : ((√2 : ℝ) : ℂ) ^ 4 = 4 := by linear_combination (((√2 : ℝ) : ℂ) ^ 2 + 2) * x22
  try simp only [← c.mz] at i0 i1 i2 i3 i4 i5 i6 i7 i8 i9 i10 i11 i12 i13 i14 i15 i16 i17 i18 i19 i20 i21 i22 i23 i24 i25 i26
  push_cast at i0 i1 i2 i3 i4 i5 i6 i7 i8 i9 i10 i11 i12 i13 i14 i15 i16 i17 i18 i19 i20 i21 i22 i23 i24 i25 i26 ⊢
  simp only [div_eq_mul_inv, mul_inv, inv_inv] at i0 i1 i2 i3 i4 i5 i6 i7 i8 i9 i10 i11 i12 i13 i14 i15 i16 i17 i18 i19 i20 i21 i22 i23 i24 i25 i26 ⊢
  have y0 := mul_inv_cancel₀ n0
  have y1 := mul_inv_cancel₀ n1
  have yCW := mul_inv_cancel₀ xCW
  have yMW := mul_inv_cancel₀ xMW
  have ySW := mul_inv_cancel₀ xSW
  linear_combination ((((2) * ((c.SW : ℂ)) ^ 2 * ((c.e : ℂ)) ^ 2 * (ab z1.1 ρ0) * (sb z1.2 z3.2)) * i0 + ((2) * ((c.SW : ℂ)) ^ 2 * ((c.e : ℂ)) ^ 2 * (N.c 0) * (ab z1.1 ρ0)) * i1 + ((-2) * ((c.MW : ℂ)) * ((c.SW : ℂ)) ^ 2 * ((c.e : ℂ)) ^ 2 * ((c.CW : ℂ)⁻¹) * (ab z1.1 z3.1) * (sb z0.2 z2.2) + (3) * ((c.MW : ℂ)) * ((c.e : ℂ)) ^ 2 * ((c.CW : ℂ)⁻¹) * (ab z1.1 z3.1) * (sb z0.2 z2.2) + (2) * ((c.SW : ℂ)) ^ 2 * ((c.e : ℂ)) ^ 2 * ((c.mass .d : ℂ)) * (sb z0.2 z1.2) * (sb z2.2 z3.2) + (-4) * ((c.SW : ℂ)) ^ 2 * ((c.e : ℂ)) ^ 2 * ((c.mass .d : ℂ)) * (sb z0.2 z2.2) * (sb z1.2 z3.2) + (2) * ((c.SW : ℂ)) ^ 2 * ((c.e : ℂ)) ^ 2 * (ab z0.1 z3.1) * (sb z0.2 z1.2) * (sb z0.2 z2.2) + (3) * ((c.e : ℂ)) ^ 2 * ((c.mass .d : ℂ)) * (sb z0.2 z2.2) * (sb z1.2 z3.2) + (-3) * ((c.e : ℂ)) ^ 2 * (ab z0.1 z3.1) * (sb z0.2 z1.2) * (sb z0.2 z2.2)) * i2 + ((-2) * ((c.SW : ℂ)) ^ 2 * ((c.e : ℂ)) ^ 2 * (ab z2.1 ρ0) * (sb z1.2 z3.2) + (-2) * ((c.SW : ℂ)) ^ 2 * ((c.e : ℂ)) ^ 2 * (ab z3.1 ρ0) * (sb z1.2 z2.2) + (3) * ((c.e : ℂ)) ^ 2 * (ab z3.1 ρ0) * (sb z1.2 z2.2)) * i3 + ((2) * ((c.SW : ℂ)) ^ 2 * ((c.e : ℂ)) ^ 2 * (N.c 0) * (sb z0.2 z1.2) * (sb z0.2 z3.2) + (2) * ((c.SW : ℂ)) ^ 2 * ((c.e : ℂ)) ^ 2 * ((mb z0.2 (p 2) (slashLower (p 3) *ᵥ z0.2))) * (sb z1.2 z3.2)) * i4 + ((2) * ((c.SW : ℂ)) ^ 2 * ((c.e : ℂ)) ^ 2 * (N.c 0) * (ab z2.1 ρ0)) * i5 + ((2) * ((c.SW : ℂ)) ^ 2 * ((c.e : ℂ)) ^ 2 * ((c.mass .d : ℂ)) * (N.c 0) * (sb z0.2 z1.2) + (2) * ((c.SW : ℂ)) ^ 2 * ((c.e : ℂ)) ^ 2 * ((c.mass .d : ℂ)) * (N.c 1) * (sb z0.2 z1.2) + (-3) * ((c.e : ℂ)) ^ 2 * ((c.mass .d : ℂ)) * (N.c 1) * (sb z0.2 z1.2)) * i6 + ((-2) * ((c.SW : ℂ)) ^ 2 * ((c.e : ℂ)) ^ 2 * ((c.mass .d : ℂ)) * (N.c 1) * (ab z1.1 ρ0) + (-2) * ((c.SW : ℂ)) ^ 2 * ((c.e : ℂ)) ^ 2 * ((c.mass .d : ℂ)) * (ab z0.1 z1.1) * (mb z0.2 (p 2) ρ0) + (2) * ((c.SW : ℂ)) ^ 2 * ((c.e : ℂ)) ^ 2 * ((c.mass .d : ℂ)) * (ab z0.1 ρ0) * (mb z0.2 (p 2) z1.1) + (3) * ((c.e : ℂ)) ^ 2 * ((c.mass .d : ℂ)) * (N.c 1) * (ab z1.1 ρ0)) * i7 + ((-2) * ((c.SW : ℂ)) ^ 2 * ((c.e : ℂ)) ^ 2 * (mb z0.2 (p 2) ρ0) * (sb z0.2 z3.2)) * i8 + ((-2) * ((c.SW : ℂ)) ^ 2 * ((c.e : ℂ)) ^ 2 * (mb z1.2 (p 2) z1.1) * (sb z0.2 z3.2)) * i9 + ((2) * ((c.SW : ℂ)) ^ 2 * ((c.e : ℂ)) ^ 2 * ((mb z0.2 (p 2) (slashLower (p 3) *ᵥ z0.2))) * (sb z1.2 z2.2) + (-3) * ((c.e : ℂ)) ^ 2 * ((mb z0.2 (p 2) (slashLower (p 3) *ᵥ z0.2))) * (sb z1.2 z2.2)) * i10 + ((2) * ((c.MW : ℂ)) * ((c.SW : ℂ)) ^ 2 * ((c.e : ℂ)) ^ 2 * ((c.CW : ℂ)⁻¹) * (ab z1.1 z3.1) * (sb z0.2 z2.2) + (-3) * ((c.MW : ℂ)) * ((c.e : ℂ)) ^ 2 * ((c.CW : ℂ)⁻¹) * (ab z1.1 z3.1) * (sb z0.2 z2.2) + (2) * ((c.SW : ℂ)) ^ 2 * ((c.e : ℂ)) ^ 2 * ((c.mass .d : ℂ)) * (sb z0.2 z2.2) * (sb z1.2 z3.2) + (-2) * ((c.SW : ℂ)) ^ 2 * ((c.e : ℂ)) ^ 2 * (ab z0.1 z3.1) * (sb z0.2 z1.2) * (sb z0.2 z2.2) + (-3) * ((c.e : ℂ)) ^ 2 * ((c.mass .d : ℂ)) * (sb z0.2 z2.2) * (sb z1.2 z3.2) + (3) * ((c.e : ℂ)) ^ 2 * (ab z0.1 z3.1) * (sb z0.2 z1.2) * (sb z0.2 z2.2)) * i11 + ((2) * ((c.SW : ℂ)) ^ 2 * ((c.e : ℂ)) ^ 2 * (ab z1.1 ρ0) * (sb z1.2 z2.2) + (-3) * ((c.e : ℂ)) ^ 2 * (ab z1.1 ρ0) * (sb z1.2 z2.2)) * i12 + ((-2) * ((c.SW : ℂ)) ^ 2 * ((c.e : ℂ)) ^ 2 * (mb z0.2 (p 2) z1.1) * (sb z0.2 z3.2)) * i13 + ((2) * ((c.SW : ℂ)) ^ 2 * ((c.e : ℂ)) ^ 2 * (mb z1.2 (p 2) z0.1) * (sb z0.2 z3.2)) * i14 + ((-4) * ((c.SW : ℂ)) ^ 2 * ((c.e : ℂ)) ^ 2 * ((c.mass .d : ℂ)) * (sb z0.2 z2.2) * (sb z0.2 z3.2) + (3) * ((c.e : ℂ)) ^ 2 * ((c.mass .d : ℂ)) * (sb z0.2 z2.2) * (sb z0.2 z3.2)) * i15 + ((-2) * ((c.SW : ℂ)) ^ 2 * ((c.e : ℂ)) ^ 2 * (mb z1.2 (p 2) ρ0) * (sb z0.2 z3.2)) * i16 + ((2) * ((c.MW : ℂ)) * ((c.SW : ℂ)) ^ 2 * ((c.e : ℂ)) ^ 2 * ((c.CW : ℂ)⁻¹) * (sb z0.2 z1.2) * (sb z0.2 z2.2) + (-3) * ((c.MW : ℂ)) * ((c.e : ℂ)) ^ 2 * ((c.CW : ℂ)⁻¹) * (sb z0.2 z1.2) * (sb z0.2 z2.2) + (2) * ((c.SW : ℂ)) ^ 2 * ((c.e : ℂ)) ^ 2 * (mb z0.2 (p 2) z1.1) * (sb z0.2 z2.2) + (-3) * ((c.e : ℂ)) ^ 2 * (mb z0.2 (p 2) z1.1) * (sb z0.2 z2.2)) * i17 + ((2) * ((c.SW : ℂ)) ^ 2 * ((c.e : ℂ)) ^ 2 * (mb z1.2 (p 2) ρ0) * (sb z0.2 z2.2) + (-3) * ((c.e : ℂ)) ^ 2 * (mb z1.2 (p 2) ρ0) * (sb z0.2 z2.2)) * i18 + ((-2) * ((c.SW : ℂ)) ^ 2 * ((c.e : ℂ)) ^ 2 * (mb z1.2 (p 2) ρ0) * (sb z0.2 z2.2) + (3) * ((c.e : ℂ)) ^ 2 * (mb z1.2 (p 2) ρ0) * (sb z0.2 z2.2)) * i19 + ((2) * ((c.SW : ℂ)) ^ 2 * ((c.e : ℂ)) ^ 2 * (mb z1.2 (p 2) z0.1) * (sb z0.2 z2.2) + (-3) * ((c.e : ℂ)) ^ 2 * (mb z1.2 (p 2) z0.1) * (sb z0.2 z2.2)) * i20 + ((-2) * ((c.SW : ℂ)) ^ 2 * ((c.e : ℂ)) ^ 2 * (N.c 1) * (ab z1.1 ρ0) + (3) * ((c.e : ℂ)) ^ 2 * (N.c 1) * (ab z1.1 ρ0)) * i21 + ((-2) * ((c.SW : ℂ)) ^ 2 * ((c.e : ℂ)) ^ 2 * (mb z1.2 (p 2) z0.1) * (sb z0.2 z2.2) + (3) * ((c.e : ℂ)) ^ 2 * (mb z1.2 (p 2) z0.1) * (sb z0.2 z2.2)) * i22 + ((-2) * ((c.SW : ℂ)) ^ 2 * ((c.e : ℂ)) ^ 2 * (mb z0.2 (p 1) ρ0) * (sb z0.2 z2.2) + (2) * ((c.SW : ℂ)) ^ 2 * ((c.e : ℂ)) ^ 2 * (mb z0.2 (p 2) ρ0) * (sb z0.2 z2.2) + (3) * ((c.e : ℂ)) ^ 2 * (mb z0.2 (p 1) ρ0) * (sb z0.2 z2.2) + (-3) * ((c.e : ℂ)) ^ 2 * (mb z0.2 (p 2) ρ0) * (sb z0.2 z2.2)) * i23 + ((2) * ((c.SW : ℂ)) ^ 2 * ((c.e : ℂ)) ^ 2 * (mb z1.2 (p 2) z1.1) * (sb z0.2 z2.2) + (-3) * ((c.e : ℂ)) ^ 2 * (mb z1.2 (p 2) z1.1) * (sb z0.2 z2.2)) * i24 + ((-2) * ((c.SW : ℂ)) ^ 2 * ((c.e : ℂ)) ^ 2 * (mb z1.2 (p 2) z1.1) * (sb z0.2 z2.2) + (3) * ((c.e : ℂ)) ^ 2 * (mb z1.2 (p 2) z1.1) * (sb z0.2 z2.2)) * i25 + ((2) * ((c.SW : ℂ)) ^ 2 * ((c.e : ℂ)) ^ 2 * (N.c 1) * (ab z3.1 ρ0) + (-3) * ((c.e : ℂ)) ^ 2 * (N.c 1) * (ab z3.1 ρ0)) * i26)) * ((1) * ((c.CW : ℂ)) * ((c.CW : ℂ)⁻¹) * ((c.MW : ℂ)⁻¹) * ((c.SW : ℂ)⁻¹) * ((N.c 0)⁻¹) * ((N.c 1)⁻¹) / (9)) + ((2) * ((c.CW : ℂ)) * ((c.MW : ℂ)) * ((c.SW : ℂ)) ^ 2 * ((c.e : ℂ)) ^ 2 * ((c.CW : ℂ)⁻¹) ^ 2 * ((c.MW : ℂ)⁻¹) * ((c.SW : ℂ)⁻¹) * ((N.c 1)⁻¹) * (ab z1.1 z2.1) * (ab z1.1 ρ0) * (sb z0.2 z3.2) / (9) + (2) * ((c.CW : ℂ)) * ((c.MW : ℂ)) * ((c.SW : ℂ)) ^ 2 * ((c.e : ℂ)) ^ 2 * ((c.CW : ℂ)⁻¹) ^ 2 * ((c.MW : ℂ)⁻¹) * ((c.SW : ℂ)⁻¹) * ((N.c 1)⁻¹) * (ab z3.1 ρ0) * (sb z0.2 z1.2) * (sb z1.2 z2.2) / (9) + (-1) * ((c.CW : ℂ)) * ((c.MW : ℂ)) * ((c.e : ℂ)) ^ 2 * ((c.CW : ℂ)⁻¹) ^ 2 * ((c.MW : ℂ)⁻¹) * ((c.SW : ℂ)⁻¹) * ((N.c 1)⁻¹) * (ab z3.1 ρ0) * (sb z0.2 z1.2) * (sb z1.2 z2.2) / (3) + (-2) * ((c.CW : ℂ)) * ((c.SW : ℂ)) ^ 2 * ((c.e : ℂ)) ^ 2 * ((c.CW : ℂ)⁻¹) * ((c.MW : ℂ)⁻¹) * ((c.SW : ℂ)⁻¹) * ((c.mass .d : ℂ)) * ((N.c 1)⁻¹) * (ab z1.1 z2.1) * (ab z3.1 ρ0) * (sb z0.2 z1.2) / (9) + (-2) * ((c.CW : ℂ)) * ((c.SW : ℂ)) ^ 2 * ((c.e : ℂ)) ^ 2 * ((c.CW : ℂ)⁻¹) * ((c.MW : ℂ)⁻¹) * ((c.SW : ℂ)⁻¹) * ((c.mass .d : ℂ)) * ((N.c 1)⁻¹) * (ab z1.1 ρ0) * (sb z0.2 z3.2) * (sb z1.2 z2.2) / (9) + (-2) * ((c.CW : ℂ)) * ((c.SW : ℂ)) ^ 2 * ((c.e : ℂ)) ^ 2 * ((c.CW : ℂ)⁻¹) * ((c.MW : ℂ)⁻¹) * ((c.SW : ℂ)⁻¹) * ((N.c 1)⁻¹) * (ab z0.1 ρ0) * (ab z1.1 z2.1) * (sb z0.2 z1.2) * (sb z0.2 z3.2) / (9) + (-2) * ((c.CW : ℂ)) * ((c.SW : ℂ)) ^ 2 * ((c.e : ℂ)) ^ 2 * ((c.CW : ℂ)⁻¹) * ((c.MW : ℂ)⁻¹) * ((c.SW : ℂ)⁻¹) * ((N.c 1)⁻¹) * (ab z1.1 z2.1) * (mb z1.2 (p 2) ρ0) * (sb z0.2 z3.2) / (9) + (2) * ((c.CW : ℂ)) * ((c.SW : ℂ)) ^ 2 * ((c.e : ℂ)) ^ 2 * ((c.CW : ℂ)⁻¹) * ((c.MW : ℂ)⁻¹) * ((c.SW : ℂ)⁻¹) * ((N.c 1)⁻¹) * (ab z3.1 ρ0) * (mb z0.2 (p 2) z1.1) * (sb z1.2 z2.2) / (9) + (1) * ((c.CW : ℂ)) * ((c.e : ℂ)) ^ 2 * ((c.CW : ℂ)⁻¹) * ((c.MW : ℂ)⁻¹) * ((c.SW : ℂ)⁻¹) * ((c.mass .d : ℂ)) * ((N.c 1)⁻¹) * (ab z1.1 ρ0) * (sb z0.2 z3.2) * (sb z1.2 z2.2) / (3) + (-1) * ((c.CW : ℂ)) * ((c.e : ℂ)) ^ 2 * ((c.CW : ℂ)⁻¹) * ((c.MW : ℂ)⁻¹) * ((c.SW : ℂ)⁻¹) * ((N.c 1)⁻¹) * (ab z3.1 ρ0) * (mb z0.2 (p 2) z1.1) * (sb z1.2 z2.2) / (3)) * y0 + ((2) * ((c.CW : ℂ)) * ((c.SW : ℂ)) ^ 2 * ((c.e : ℂ)) ^ 2 * ((c.CW : ℂ)⁻¹) * ((c.MW : ℂ)⁻¹) * ((c.SW : ℂ)⁻¹) * ((c.mass .d : ℂ)) * ((N.c 0)⁻¹) * (ab z1.1 z3.1) * (ab z2.1 ρ0) * (sb z0.2 z1.2) / (9) + (2) * ((c.CW : ℂ)) * ((c.SW : ℂ)) ^ 2 * ((c.e : ℂ)) ^ 2 * ((c.CW : ℂ)⁻¹) * ((c.MW : ℂ)⁻¹) * ((c.SW : ℂ)⁻¹) * ((c.mass .d : ℂ)) * ((N.c 0)⁻¹) * (ab z1.1 ρ0) * (sb z0.2 z2.2) * (sb z1.2 z3.2) / (9) + (-2) * ((c.CW : ℂ)) * ((c.SW : ℂ)) ^ 2 * ((c.e : ℂ)) ^ 2 * ((c.CW : ℂ)⁻¹) * ((c.MW : ℂ)⁻¹) * ((c.SW : ℂ)⁻¹) * ((N.c 0)⁻¹) * (ab z1.1 z3.1) * (mb z1.2 (p 2) ρ0) * (sb z0.2 z2.2) / (9) + (2) * ((c.CW : ℂ)) * ((c.SW : ℂ)) ^ 2 * ((c.e : ℂ)) ^ 2 * ((c.CW : ℂ)⁻¹) * ((c.MW : ℂ)⁻¹) * ((c.SW : ℂ)⁻¹) * ((N.c 0)⁻¹) * (ab z2.1 ρ0) * (mb z0.2 (p 2) z1.1) * (sb z1.2 z3.2) / (9) + (-1) * ((c.CW : ℂ)) * ((c.e : ℂ)) ^ 2 * ((c.CW : ℂ)⁻¹) * ((c.MW : ℂ)⁻¹) * ((c.SW : ℂ)⁻¹) * ((c.mass .d : ℂ)) * ((N.c 0)⁻¹) * (ab z1.1 z3.1) * (ab z2.1 ρ0) * (sb z0.2 z1.2) / (3) + (1) * ((c.CW : ℂ)) * ((c.e : ℂ)) ^ 2 * ((c.CW : ℂ)⁻¹) * ((c.MW : ℂ)⁻¹) * ((c.SW : ℂ)⁻¹) * ((N.c 0)⁻¹) * (ab z1.1 z3.1) * (mb z1.2 (p 2) ρ0) * (sb z0.2 z2.2) / (3)) * y1 + ((-1) * ((c.MW : ℂ)) * (((√2 : ℝ) : ℂ)) ^ 2 * ((c.SW : ℂ)) ^ 2 * ((c.e : ℂ)) ^ 2 * ((c.CW : ℂ)⁻¹) * ((c.MW : ℂ)⁻¹) * ((c.SW : ℂ)⁻¹) * ((N.c 1)⁻¹) * (ab z1.1 z2.1) * (ab z1.1 ρ0) * (sb z0.2 z3.2) / (9) + (-1) * ((c.MW : ℂ)) * (((√2 : ℝ) : ℂ)) ^ 2 * ((c.SW : ℂ)) ^ 2 * ((c.e : ℂ)) ^ 2 * ((c.CW : ℂ)⁻¹) * ((c.MW : ℂ)⁻¹) * ((c.SW : ℂ)⁻¹) * ((N.c 1)⁻¹) * (ab z3.1 ρ0) * (sb z0.2 z1.2) * (sb z1.2 z2.2) / (9) + (1) * ((c.MW : ℂ)) * (((√2 : ℝ) : ℂ)) ^ 2 * ((c.e : ℂ)) ^ 2 * ((c.CW : ℂ)⁻¹) * ((c.MW : ℂ)⁻¹) * ((c.SW : ℂ)⁻¹) * ((N.c 1)⁻¹) * (ab z3.1 ρ0) * (sb z0.2 z1.2) * (sb z1.2 z2.2) / (6) + (2) * ((c.MW : ℂ)) * ((c.SW : ℂ)) ^ 2 * ((c.e : ℂ)) ^ 2 * ((c.CW : ℂ)⁻¹) * ((c.MW : ℂ)⁻¹) * ((c.SW : ℂ)⁻¹) * ((N.c 1)⁻¹) * (ab z1.1 z2.1) * (ab z1.1 ρ0) * (sb z0.2 z3.2) / (9) + (2) * ((c.MW : ℂ)) * ((c.SW : ℂ)) ^ 2 * ((c.e : ℂ)) ^ 2 * ((c.CW : ℂ)⁻¹) * ((c.MW : ℂ)⁻¹) * ((c.SW : ℂ)⁻¹) * ((N.c 1)⁻¹) * (ab z3.1 ρ0) * (sb z0.2 z1.2) * (sb z1.2 z2.2) / (9) + (-1) * ((c.MW : ℂ)) * ((c.e : ℂ)) ^ 2 * ((c.CW : ℂ)⁻¹) * ((c.MW : ℂ)⁻¹) * ((c.SW : ℂ)⁻¹) * ((N.c 1)⁻¹) * (ab z3.1 ρ0) * (sb z0.2 z1.2) * (sb z1.2 z2.2) / (3) + (-1) * (((√2 : ℝ) : ℂ)) ^ 2 * ((c.SW : ℂ)) ^ 2 * ((c.e : ℂ)) ^ 2 * ((c.MW : ℂ)⁻¹) * ((c.SW : ℂ)⁻¹) * ((c.mass .d : ℂ)) * ((N.c 0)⁻¹) * (ab z1.1 z3.1) * (ab z2.1 ρ0) * (sb z0.2 z1.2) / (9) + (-1) * (((√2 : ℝ) : ℂ)) ^ 2 * ((c.SW : ℂ)) ^ 2 * ((c.e : ℂ)) ^ 2 * ((c.MW : ℂ)⁻¹) * ((c.SW : ℂ)⁻¹) * ((c.mass .d : ℂ)) * ((N.c 0)⁻¹) * (ab z1.1 ρ0) * (sb z0.2 z2.2) * (sb z1.2 z3.2) / (9) + (1) * (((√2 : ℝ) : ℂ)) ^ 2 * ((c.SW : ℂ)) ^ 2 * ((c.e : ℂ)) ^ 2 * ((c.MW : ℂ)⁻¹) * ((c.SW : ℂ)⁻¹) * ((c.mass .d : ℂ)) * ((N.c 1)⁻¹) * (ab z1.1 z2.1) * (ab z3.1 ρ0) * (sb z0.2 z1.2) / (9) + (1) * (((√2 : ℝ) : ℂ)) ^ 2 * ((c.SW : ℂ)) ^ 2 * ((c.e : ℂ)) ^ 2 * ((c.MW : ℂ)⁻¹) * ((c.SW : ℂ)⁻¹) * ((c.mass .d : ℂ)) * ((N.c 1)⁻¹) * (ab z1.1 ρ0) * (sb z0.2 z3.2) * (sb z1.2 z2.2) / (9) + (1) * (((√2 : ℝ) : ℂ)) ^ 2 * ((c.SW : ℂ)) ^ 2 * ((c.e : ℂ)) ^ 2 * ((c.MW : ℂ)⁻¹) * ((c.SW : ℂ)⁻¹) * ((N.c 0)⁻¹) * (ab z0.1 ρ0) * (ab z1.1 z3.1) * (sb z0.2 z1.2) * (sb z0.2 z2.2) / (9) + (1) * (((√2 : ℝ) : ℂ)) ^ 2 * ((c.SW : ℂ)) ^ 2 * ((c.e : ℂ)) ^ 2 * ((c.MW : ℂ)⁻¹) * ((c.SW : ℂ)⁻¹) * ((N.c 0)⁻¹) * (ab z1.1 z3.1) * (mb z1.2 (p 2) ρ0) * (sb z0.2 z2.2) / (9) + (-1) * (((√2 : ℝ) : ℂ)) ^ 2 * ((c.SW : ℂ)) ^ 2 * ((c.e : ℂ)) ^ 2 * ((c.MW : ℂ)⁻¹) * ((c.SW : ℂ)⁻¹) * ((N.c 0)⁻¹) * (ab z2.1 ρ0) * (mb z0.2 (p 2) z1.1) * (sb z1.2 z3.2) / (9) + (1) * (((√2 : ℝ) : ℂ)) ^ 2 * ((c.SW : ℂ)) ^ 2 * ((c.e : ℂ)) ^ 2 * ((c.MW : ℂ)⁻¹) * ((c.SW : ℂ)⁻¹) * ((N.c 1)⁻¹) * (ab z1.1 z2.1) * (mb z1.2 (p 2) ρ0) * (sb z0.2 z3.2) / (9) + (-1) * (((√2 : ℝ) : ℂ)) ^ 2 * ((c.SW : ℂ)) ^ 2 * ((c.e : ℂ)) ^ 2 * ((c.MW : ℂ)⁻¹) * ((c.SW : ℂ)⁻¹) * ((N.c 1)⁻¹) * (ab z3.1 ρ0) * (mb z0.2 (p 2) z1.1) * (sb z1.2 z2.2) / (9) + (1) * (((√2 : ℝ) : ℂ)) ^ 2 * ((c.e : ℂ)) ^ 2 * ((c.MW : ℂ)⁻¹) * ((c.SW : ℂ)⁻¹) * ((c.mass .d : ℂ)) * ((N.c 0)⁻¹) * (ab z1.1 z3.1) * (ab z2.1 ρ0) * (sb z0.2 z1.2) / (6) + (-1) * (((√2 : ℝ) : ℂ)) ^ 2 * ((c.e : ℂ)) ^ 2 * ((c.MW : ℂ)⁻¹) * ((c.SW : ℂ)⁻¹) * ((c.mass .d : ℂ)) * ((N.c 1)⁻¹) * (ab z1.1 ρ0) * (sb z0.2 z3.2) * (sb z1.2 z2.2) / (6) + (-1) * (((√2 : ℝ) : ℂ)) ^ 2 * ((c.e : ℂ)) ^ 2 * ((c.MW : ℂ)⁻¹) * ((c.SW : ℂ)⁻¹) * ((N.c 0)⁻¹) * (ab z0.1 ρ0) * (ab z1.1 z3.1) * (sb z0.2 z1.2) * (sb z0.2 z2.2) / (6) + (-1) * (((√2 : ℝ) : ℂ)) ^ 2 * ((c.e : ℂ)) ^ 2 * ((c.MW : ℂ)⁻¹) * ((c.SW : ℂ)⁻¹) * ((N.c 0)⁻¹) * (ab z1.1 z3.1) * (mb z1.2 (p 2) ρ0) * (sb z0.2 z2.2) / (6) + (1) * (((√2 : ℝ) : ℂ)) ^ 2 * ((c.e : ℂ)) ^ 2 * ((c.MW : ℂ)⁻¹) * ((c.SW : ℂ)⁻¹) * ((N.c 1)⁻¹) * (ab z3.1 ρ0) * (mb z0.2 (p 2) z1.1) * (sb z1.2 z2.2) / (6) + (2) * ((c.SW : ℂ)) ^ 2 * ((c.e : ℂ)) ^ 2 * ((c.MW : ℂ)⁻¹) * ((c.SW : ℂ)⁻¹) * ((c.mass .d : ℂ)) * ((N.c 0)⁻¹) * (ab z1.1 z3.1) * (ab z2.1 ρ0) * (sb z0.2 z1.2) / (9) + (2) * ((c.SW : ℂ)) ^ 2 * ((c.e : ℂ)) ^ 2 * ((c.MW : ℂ)⁻¹) * ((c.SW : ℂ)⁻¹) * ((c.mass .d : ℂ)) * ((N.c 0)⁻¹) * (ab z1.1 ρ0) * (sb z0.2 z2.2) * (sb z1.2 z3.2) / (9) + (-2) * ((c.SW : ℂ)) ^ 2 * ((c.e : ℂ)) ^ 2 * ((c.MW : ℂ)⁻¹) * ((c.SW : ℂ)⁻¹) * ((c.mass .d : ℂ)) * ((N.c 1)⁻¹) * (ab z1.1 z2.1) * (ab z3.1 ρ0) * (sb z0.2 z1.2) / (9) + (-2) * ((c.SW : ℂ)) ^ 2 * ((c.e : ℂ)) ^ 2 * ((c.MW : ℂ)⁻¹) * ((c.SW : ℂ)⁻¹) * ((c.mass .d : ℂ)) * ((N.c 1)⁻¹) * (ab z1.1 ρ0) * (sb z0.2 z3.2) * (sb z1.2 z2.2) / (9) + (-2) * ((c.SW : ℂ)) ^ 2 * ((c.e : ℂ)) ^ 2 * ((c.MW : ℂ)⁻¹) * ((c.SW : ℂ)⁻¹) * ((N.c 0)⁻¹) * ((N.c 1)⁻¹) * (ab z0.1 ρ0) * (ab z1.1 z2.1) * ((mb z0.2 (p 2) (slashLower (p 3) *ᵥ z0.2))) * (sb z1.2 z3.2) / (9) + (-2) * ((c.SW : ℂ)) ^ 2 * ((c.e : ℂ)) ^ 2 * ((c.MW : ℂ)⁻¹) * ((c.SW : ℂ)⁻¹) * ((N.c 0)⁻¹) * ((N.c 1)⁻¹) * (ab z0.1 ρ0) * (ab z1.1 z3.1) * ((mb z0.2 (p 2) (slashLower (p 3) *ᵥ z0.2))) * (sb z1.2 z2.2) / (9) + (-2) * ((c.SW : ℂ)) ^ 2 * ((c.e : ℂ)) ^ 2 * ((c.MW : ℂ)⁻¹) * ((c.SW : ℂ)⁻¹) * ((N.c 0)⁻¹) * (ab z1.1 z3.1) * (mb z1.2 (p 2) ρ0) * (sb z0.2 z2.2) / (9) + (2) * ((c.SW : ℂ)) ^ 2 * ((c.e : ℂ)) ^ 2 * ((c.MW : ℂ)⁻¹) * ((c.SW : ℂ)⁻¹) * ((N.c 0)⁻¹) * (ab z2.1 ρ0) * (mb z0.2 (p 2) z1.1) * (sb z1.2 z3.2) / (9) + (-2) * ((c.SW : ℂ)) ^ 2 * ((c.e : ℂ)) ^ 2 * ((c.MW : ℂ)⁻¹) * ((c.SW : ℂ)⁻¹) * ((N.c 1)⁻¹) * (ab z0.1 ρ0) * (ab z1.1 z2.1) * (sb z0.2 z1.2) * (sb z0.2 z3.2) / (9) + (-2) * ((c.SW : ℂ)) ^ 2 * ((c.e : ℂ)) ^ 2 * ((c.MW : ℂ)⁻¹) * ((c.SW : ℂ)⁻¹) * ((N.c 1)⁻¹) * (ab z1.1 z2.1) * (mb z1.2 (p 2) ρ0) * (sb z0.2 z3.2) / (9) + (2) * ((c.SW : ℂ)) ^ 2 * ((c.e : ℂ)) ^ 2 * ((c.MW : ℂ)⁻¹) * ((c.SW : ℂ)⁻¹) * ((N.c 1)⁻¹) * (ab z3.1 ρ0) * (mb z0.2 (p 2) z1.1) * (sb z1.2 z2.2) / (9) + (-1) * ((c.e : ℂ)) ^ 2 * ((c.MW : ℂ)⁻¹) * ((c.SW : ℂ)⁻¹) * ((c.mass .d : ℂ)) * ((N.c 0)⁻¹) * (ab z1.1 z3.1) * (ab z2.1 ρ0) * (sb z0.2 z1.2) / (3) + (1) * ((c.e : ℂ)) ^ 2 * ((c.MW : ℂ)⁻¹) * ((c.SW : ℂ)⁻¹) * ((c.mass .d : ℂ)) * ((N.c 1)⁻¹) * (ab z1.1 ρ0) * (sb z0.2 z3.2) * (sb z1.2 z2.2) / (3) + (1) * ((c.e : ℂ)) ^ 2 * ((c.MW : ℂ)⁻¹) * ((c.SW : ℂ)⁻¹) * ((N.c 0)⁻¹) * ((N.c 1)⁻¹) * (ab z0.1 ρ0) * (ab z1.1 z3.1) * ((mb z0.2 (p 2) (slashLower (p 3) *ᵥ z0.2))) * (sb z1.2 z2.2) / (3) + (1) * ((c.e : ℂ)) ^ 2 * ((c.MW : ℂ)⁻¹) * ((c.SW : ℂ)⁻¹) * ((N.c 0)⁻¹) * (ab z1.1 z3.1) * (mb z1.2 (p 2) ρ0) * (sb z0.2 z2.2) / (3) + (-1) * ((c.e : ℂ)) ^ 2 * ((c.MW : ℂ)⁻¹) * ((c.SW : ℂ)⁻¹) * ((N.c 1)⁻¹) * (ab z3.1 ρ0) * (mb z0.2 (p 2) z1.1) * (sb z1.2 z2.2) / (3)) * yCW + ((-1) * (((√2 : ℝ) : ℂ)) ^ 2 * ((c.SW : ℂ)) ^ 2 * ((c.e : ℂ)) ^ 2 * ((c.CW : ℂ)⁻¹) * ((c.SW : ℂ)⁻¹) * ((N.c 1)⁻¹) * (ab z1.1 z2.1) * (ab z1.1 ρ0) * (sb z0.2 z3.2) / (9) + (-1) * (((√2 : ℝ) : ℂ)) ^ 2 * ((c.SW : ℂ)) ^ 2 * ((c.e : ℂ)) ^ 2 * ((c.CW : ℂ)⁻¹) * ((c.SW : ℂ)⁻¹) * ((N.c 1)⁻¹) * (ab z3.1 ρ0) * (sb z0.2 z1.2) * (sb z1.2 z2.2) / (9) + (1) * (((√2 : ℝ) : ℂ)) ^ 2 * ((c.e : ℂ)) ^ 2 * ((c.CW : ℂ)⁻¹) * ((c.SW : ℂ)⁻¹) * ((N.c 1)⁻¹) * (ab z3.1 ρ0) * (sb z0.2 z1.2) * (sb z1.2 z2.2) / (6) + (2) * ((c.SW : ℂ)) ^ 2 * ((c.e : ℂ)) ^ 2 * ((c.CW : ℂ)⁻¹) * ((c.SW : ℂ)⁻¹) * ((N.c 1)⁻¹) * (ab z1.1 z2.1) * (ab z1.1 ρ0) * (sb z0.2 z3.2) / (9) + (2) * ((c.SW : ℂ)) ^ 2 * ((c.e : ℂ)) ^ 2 * ((c.CW : ℂ)⁻¹) * ((c.SW : ℂ)⁻¹) * ((N.c 1)⁻¹) * (ab z3.1 ρ0) * (sb z0.2 z1.2) * (sb z1.2 z2.2) / (9) + (-1) * ((c.e : ℂ)) ^ 2 * ((c.CW : ℂ)⁻¹) * ((c.SW : ℂ)⁻¹) * ((N.c 1)⁻¹) * (ab z3.1 ρ0) * (sb z0.2 z1.2) * (sb z1.2 z2.2) / (3)) * yMW + ((-1) * (((√2 : ℝ) : ℂ)) ^ 2 * ((c.SW : ℂ)) * ((c.e : ℂ)) ^ 2 * ((c.CW : ℂ)⁻¹) * ((N.c 1)⁻¹) * (ab z1.1 z2.1) * (ab z1.1 ρ0) * (sb z0.2 z3.2) / (9) + (-1) * (((√2 : ℝ) : ℂ)) ^ 2 * ((c.SW : ℂ)) * ((c.e : ℂ)) ^ 2 * ((c.CW : ℂ)⁻¹) * ((N.c 1)⁻¹) * (ab z3.1 ρ0) * (sb z0.2 z1.2) * (sb z1.2 z2.2) / (9) + (-1) * (((√2 : ℝ) : ℂ)) ^ 2 * ((c.SW : ℂ)) * ((c.e : ℂ)) ^ 2 * ((c.MW : ℂ)⁻¹) * ((c.mass .d : ℂ)) * ((N.c 0)⁻¹) * (ab z1.1 z3.1) * (ab z2.1 ρ0) * (sb z0.2 z1.2) / (9) + (-1) * (((√2 : ℝ) : ℂ)) ^ 2 * ((c.SW : ℂ)) * ((c.e : ℂ)) ^ 2 * ((c.MW : ℂ)⁻¹) * ((c.mass .d : ℂ)) * ((N.c 0)⁻¹) * (ab z1.1 ρ0) * (sb z0.2 z2.2) * (sb z1.2 z3.2) / (9) + (1) * (((√2 : ℝ) : ℂ)) ^ 2 * ((c.SW : ℂ)) * ((c.e : ℂ)) ^ 2 * ((c.MW : ℂ)⁻¹) * ((c.mass .d : ℂ)) * ((N.c 1)⁻¹) * (ab z1.1 z2.1) * (ab z3.1 ρ0) * (sb z0.2 z1.2) / (9) + (1) * (((√2 : ℝ) : ℂ)) ^ 2 * ((c.SW : ℂ)) * ((c.e : ℂ)) ^ 2 * ((c.MW : ℂ)⁻¹) * ((c.mass .d : ℂ)) * ((N.c 1)⁻¹) * (ab z1.1 ρ0) * (sb z0.2 z3.2) * (sb z1.2 z2.2) / (9) + (1) * (((√2 : ℝ) : ℂ)) ^ 2 * ((c.SW : ℂ)) * ((c.e : ℂ)) ^ 2 * ((c.MW : ℂ)⁻¹) * ((N.c 0)⁻¹) * (ab z0.1 ρ0) * (ab z1.1 z3.1) * (sb z0.2 z1.2) * (sb z0.2 z2.2) / (9) + (1) * (((√2 : ℝ) : ℂ)) ^ 2 * ((c.SW : ℂ)) * ((c.e : ℂ)) ^ 2 * ((c.MW : ℂ)⁻¹) * ((N.c 0)⁻¹) * (ab z1.1 z3.1) * (mb z1.2 (p 2) ρ0) * (sb z0.2 z2.2) / (9) + (-1) * (((√2 : ℝ) : ℂ)) ^ 2 * ((c.SW : ℂ)) * ((c.e : ℂ)) ^ 2 * ((c.MW : ℂ)⁻¹) * ((N.c 0)⁻¹) * (ab z2.1 ρ0) * (mb z0.2 (p 2) z1.1) * (sb z1.2 z3.2) / (9) + (1) * (((√2 : ℝ) : ℂ)) ^ 2 * ((c.SW : ℂ)) * ((c.e : ℂ)) ^ 2 * ((c.MW : ℂ)⁻¹) * ((N.c 1)⁻¹) * (ab z1.1 z2.1) * (mb z1.2 (p 2) ρ0) * (sb z0.2 z3.2) / (9) + (-1) * (((√2 : ℝ) : ℂ)) ^ 2 * ((c.SW : ℂ)) * ((c.e : ℂ)) ^ 2 * ((c.MW : ℂ)⁻¹) * ((N.c 1)⁻¹) * (ab z3.1 ρ0) * (mb z0.2 (p 2) z1.1) * (sb z1.2 z2.2) / (9) + (2) * ((c.SW : ℂ)) * ((c.e : ℂ)) ^ 2 * ((c.CW : ℂ)⁻¹) * ((N.c 1)⁻¹) * (ab z1.1 z2.1) * (ab z1.1 ρ0) * (sb z0.2 z3.2) / (9) + (2) * ((c.SW : ℂ)) * ((c.e : ℂ)) ^ 2 * ((c.CW : ℂ)⁻¹) * ((N.c 1)⁻¹) * (ab z3.1 ρ0) * (sb z0.2 z1.2) * (sb z1.2 z2.2) / (9) + (2) * ((c.SW : ℂ)) * ((c.e : ℂ)) ^ 2 * ((c.MW : ℂ)⁻¹) * ((c.mass .d : ℂ)) * ((N.c 0)⁻¹) * (ab z1.1 z3.1) * (ab z2.1 ρ0) * (sb z0.2 z1.2) / (9) + (2) * ((c.SW : ℂ)) * ((c.e : ℂ)) ^ 2 * ((c.MW : ℂ)⁻¹) * ((c.mass .d : ℂ)) * ((N.c 0)⁻¹) * (ab z1.1 ρ0) * (sb z0.2 z2.2) * (sb z1.2 z3.2) / (9) + (-2) * ((c.SW : ℂ)) * ((c.e : ℂ)) ^ 2 * ((c.MW : ℂ)⁻¹) * ((c.mass .d : ℂ)) * ((N.c 1)⁻¹) * (ab z1.1 z2.1) * (ab z3.1 ρ0) * (sb z0.2 z1.2) / (9) + (-2) * ((c.SW : ℂ)) * ((c.e : ℂ)) ^ 2 * ((c.MW : ℂ)⁻¹) * ((c.mass .d : ℂ)) * ((N.c 1)⁻¹) * (ab z1.1 ρ0) * (sb z0.2 z3.2) * (sb z1.2 z2.2) / (9) + (-2) * ((c.SW : ℂ)) * ((c.e : ℂ)) ^ 2 * ((c.MW : ℂ)⁻¹) * ((N.c 0)⁻¹) * (ab z0.1 ρ0) * (ab z1.1 z3.1) * (sb z0.2 z1.2) * (sb z0.2 z2.2) / (9) + (-2) * ((c.SW : ℂ)) * ((c.e : ℂ)) ^ 2 * ((c.MW : ℂ)⁻¹) * ((N.c 0)⁻¹) * (ab z1.1 z3.1) * (mb z1.2 (p 2) ρ0) * (sb z0.2 z2.2) / (9) + (2) * ((c.SW : ℂ)) * ((c.e : ℂ)) ^ 2 * ((c.MW : ℂ)⁻¹) * ((N.c 0)⁻¹) * (ab z2.1 ρ0) * (mb z0.2 (p 2) z1.1) * (sb z1.2 z3.2) / (9) + (-2) * ((c.SW : ℂ)) * ((c.e : ℂ)) ^ 2 * ((c.MW : ℂ)⁻¹) * ((N.c 1)⁻¹) * (ab z1.1 z2.1) * (mb z1.2 (p 2) ρ0) * (sb z0.2 z3.2) / (9) + (2) * ((c.SW : ℂ)) * ((c.e : ℂ)) ^ 2 * ((c.MW : ℂ)⁻¹) * ((N.c 1)⁻¹) * (ab z3.1 ρ0) * (mb z0.2 (p 2) z1.1) * (sb z1.2 z2.2) / (9)) * ySW + ((-1) * ((c.SW : ℂ)) * ((c.e : ℂ)) ^ 2 * ((c.CW : ℂ)⁻¹) * ((N.c 1)⁻¹) * (ab z1.1 z2.1) * (ab z1.1 ρ0) * (sb z0.2 z3.2) / (9) + (-1) * ((c.SW : ℂ)) * ((c.e : ℂ)) ^ 2 * ((c.CW : ℂ)⁻¹) * ((N.c 1)⁻¹) * (ab z3.1 ρ0) * (sb z0.2 z1.2) * (sb z1.2 z2.2) / (9) + (-1) * ((c.SW : ℂ)) * ((c.e : ℂ)) ^ 2 * ((c.MW : ℂ)⁻¹) * ((c.mass .d : ℂ)) * ((N.c 0)⁻¹) * (ab z1.1 z3.1) * (ab z2.1 ρ0) * (sb z0.2 z1.2) / (9) + (-1) * ((c.SW : ℂ)) * ((c.e : ℂ)) ^ 2 * ((c.MW : ℂ)⁻¹) * ((c.mass .d : ℂ)) * ((N.c 0)⁻¹) * (ab z1.1 ρ0) * (sb z0.2 z2.2) * (sb z1.2 z3.2) / (9) + (1) * ((c.SW : ℂ)) * ((c.e : ℂ)) ^ 2 * ((c.MW : ℂ)⁻¹) * ((c.mass .d : ℂ)) * ((N.c 1)⁻¹) * (ab z1.1 z2.1) * (ab z3.1 ρ0) * (sb z0.2 z1.2) / (9) + (1) * ((c.SW : ℂ)) * ((c.e : ℂ)) ^ 2 * ((c.MW : ℂ)⁻¹) * ((c.mass .d : ℂ)) * ((N.c 1)⁻¹) * (ab z1.1 ρ0) * (sb z0.2 z3.2) * (sb z1.2 z2.2) / (9) + (1) * ((c.SW : ℂ)) * ((c.e : ℂ)) ^ 2 * ((c.MW : ℂ)⁻¹) * ((N.c 0)⁻¹) * (ab z0.1 ρ0) * (ab z1.1 z3.1) * (sb z0.2 z1.2) * (sb z0.2 z2.2) / (9) + (1) * ((c.SW : ℂ)) * ((c.e : ℂ)) ^ 2 * ((c.MW : ℂ)⁻¹) * ((N.c 0)⁻¹) * (ab z1.1 z3.1) * (mb z1.2 (p 2) ρ0) * (sb z0.2 z2.2) / (9) + (-1) * ((c.SW : ℂ)) * ((c.e : ℂ)) ^ 2 * ((c.MW : ℂ)⁻¹) * ((N.c 0)⁻¹) * (ab z2.1 ρ0) * (mb z0.2 (p 2) z1.1) * (sb z1.2 z3.2) / (9) + (1) * ((c.SW : ℂ)) * ((c.e : ℂ)) ^ 2 * ((c.MW : ℂ)⁻¹) * ((N.c 1)⁻¹) * (ab z1.1 z2.1) * (mb z1.2 (p 2) ρ0) * (sb z0.2 z3.2) / (9) + (-1) * ((c.SW : ℂ)) * ((c.e : ℂ)) ^ 2 * ((c.MW : ℂ)⁻¹) * ((N.c 1)⁻¹) * (ab z3.1 ρ0) * (mb z0.2 (p 2) z1.1) * (sb z1.2 z2.2) / (9) + (1) * ((c.e : ℂ)) ^ 2 * ((c.CW : ℂ)⁻¹) * ((c.SW : ℂ)⁻¹) * ((N.c 1)⁻¹) * (ab z3.1 ρ0) * (sb z0.2 z1.2) * (sb z1.2 z2.2) / (6) + (1) * ((c.e : ℂ)) ^ 2 * ((c.MW : ℂ)⁻¹) * ((c.SW : ℂ)⁻¹) * ((c.mass .d : ℂ)) * ((N.c 0)⁻¹) * (ab z1.1 z3.1) * (ab z2.1 ρ0) * (sb z0.2 z1.2) / (6) + (-1) * ((c.e : ℂ)) ^ 2 * ((c.MW : ℂ)⁻¹) * ((c.SW : ℂ)⁻¹) * ((c.mass .d : ℂ)) * ((N.c 1)⁻¹) * (ab z1.1 ρ0) * (sb z0.2 z3.2) * (sb z1.2 z2.2) / (6) + (-1) * ((c.e : ℂ)) ^ 2 * ((c.MW : ℂ)⁻¹) * ((c.SW : ℂ)⁻¹) * ((N.c 0)⁻¹) * (ab z0.1 ρ0) * (ab z1.1 z3.1) * (sb z0.2 z1.2) * (sb z0.2 z2.2) / (6) + (-1) * ((c.e : ℂ)) ^ 2 * ((c.MW : ℂ)⁻¹) * ((c.SW : ℂ)⁻¹) * ((N.c 0)⁻¹) * (ab z1.1 z3.1) * (mb z1.2 (p 2) ρ0) * (sb z0.2 z2.2) / (6) + (1) * ((c.e : ℂ)) ^ 2 * ((c.MW : ℂ)⁻¹) * ((c.SW : ℂ)⁻¹) * ((N.c 1)⁻¹) * (ab z3.1 ρ0) * (mb z0.2 (p 2) z1.1) * (sb z1.2 z2.2) / (6)) * x22
theorem AZdd.keyM {c : Constants} {p : Nat → V4 ℝ} {N : Env} (hc : c.Physical) (hb : Balanced p) (r8 : N.r 8 = ((((((2 : Nat) : ℝ) * c.e) * c.e) * ((-((1 : Nat) : ℝ)) / ((3 : Nat) : ℝ))) / ((((2 : Nat) : ℝ) * c.MW) * c.SW))) (r10 : N.r 10 = (((((-((2 : Nat) : ℝ)) * ((-((1 : Nat) : ℝ)) / ((3 : Nat) : ℝ))) * c.SW) * c.SW) - ((1 : Nat) : ℝ))) (r11 : N.r 11 = ((((-((2 : Nat) : ℝ)) * ((-((1 : Nat) : ℝ)) / ((3 : Nat) : ℝ))) * c.SW) * c.SW)) (d0 : ((msq (plus (backward (p 3)) (p 1)) - c.mass .d ^ 2 : ℝ) : ℂ) = N.c 0) (n0 : N.c 0 ≠ 0) (d1 : ((msq (plus (backward (p 3)) (p 0)) - c.mass .d ^ 2 : ℝ) : ℂ) = N.c 1) (n1 : N.c 1 ≠ 0) {z0 z1 z2 z3 : Pair} (b1 : Bold (p 1) c.MZ z1) (b2 : Bold (p 2) (c.mass .d) z2) (b3 : Bold (p 3) (c.mass .d) z3) (l0 : Light (p 0) z0) (e02 : mb z0.2 (p 2) z0.1 = -N.c 0) (e03 : mb z0.2 (p 3) z0.1 = -N.c 1) (q1 : msq (p 1) = c.MZ ^ 2) (q2 : msq (p 2) = (c.mass .d) ^ 2) (q3 : msq (p 3) = (c.mass .d) ^ 2) (ρ0 : V2) :
    AZdd.formM N p z0 z1 z1 z2 z3 * sb ρ0 z0.2 = ((√2 : ℝ) * ((1 : ℂ) * ((√2 / c.MZ : ℝ) : ℂ))) * AZdd.react.bare c p 2 3 0 1 z2 z3 (pv z0.1 ρ0) (pv z1.1 z1.2) := by
  rw [AZdd.react.bare_parts c p (i := 2) (j := 3) (a := 0) (b := 1) (x := .photon) (y := .z) (k := (p 0)) (k' := (p 1)) (fun _ => rfl) (fun _ => rfl) (f := .d) (g := .d) rfl rfl (l := (backward (p 3))) rfl (e := 1) (e' := -1) (if_neg Bool.false_ne_true) (if_pos rfl)]
  rw [compton_vv (f := .d) (x := .d) (g := .d) (h := (rfl : Spec.after .photon Flavour.d = some Flavour.d)) (h' := (rfl : Spec.after .z Flavour.d = some Flavour.d)) (ha := by simp) (hb := by simp)]
  rw [compton_vv (f := .d) (x := .d) (g := .d) (h := (rfl : Spec.after .z Flavour.d = some Flavour.d)) (h' := (rfl : Spec.after .photon Flavour.d = some Flavour.d)) (ha := by simp) (hb := by simp)]
  rw [annihilation_none c _ _ (by rfl) (by simp), star_zero, add_zero, AZdd.formM]
  simp only [d0, d1, lineV_pv, lineV_four, contract_four_pv, contract_pv, mb_plus, mb_backward]
  have i0 := chain_angle z0.2 z3.2 z0.1 (p 2) (p 3) z0.1
  have i1 := chain_angle z0.2 z1.2 z0.1 (p 2) (p 3) z0.1
  have i2 := sb_schouten z1.2 z3.2 ρ0 z0.2
  have i3 := mb_schouten_right z1.2 (p 2) z0.1 z1.1 z2.1
  have i4 := sb_schouten z2.2 z3.2 ρ0 z1.2
  have i5 := mb_schouten_left z0.2 z1.2 ρ0 (p 1) z0.1
  have i6 := mb_schouten_right z3.2 (p 1) z0.1 z1.1 z2.1
  have i7 := mb_schouten_right ρ0 (p 1) z0.1 z1.1 z2.1
  have i8 := mb_schouten_left z1.2 z3.2 ρ0 (p 1) z0.1
  have i9 := mb_schouten_left z0.2 z1.2 z3.2 (p 2) z0.1
  have i10 := mb_schouten_left z0.2 z3.2 ρ0 (p 1) z0.1
  have i11 := mb_schouten_left z0.2 z3.2 ρ0 (p 2) z0.1
  have i12 := mb_schouten_right ρ0 (p 2) z0.1 z1.1 z2.1
  have i13 := ab_schouten z1.1 z2.1 z3.1 z0.1
  have i14 := mb_schouten_right z0.2 (p 2) z0.1 z1.1 z2.1
  have i15 := chain_angle z0.2 z2.2 z0.1 (p 2) (p 3) z0.1
  have i16 := sb_schouten z1.2 z2.2 ρ0 z0.2
  have i17 := mb_schouten_right z1.2 (p 2) z0.1 z1.1 z3.1
  have i18 := mb_schouten_right z0.2 (p 2) z0.1 z1.1 z3.1
  have i19 := mb_schouten_right z0.2 (p 1) z0.1 z1.1 z3.1
  have i20 := mb_schouten_left z0.2 z2.2 z3.2 (p 2) z0.1
  have i21 := mb_schouten_left z0.2 z1.2 ρ0 (p 2) z0.1
  have i22 := mb_schouten_left z0.2 z1.2 z3.2 (p 1) z0.1
  have i23 := mb_schouten_right ρ0 (p 2) z0.1 z1.1 z3.1
  have i24 := mb_schouten_left z0.2 z2.2 z3.2 (p 1) z0.1
  have i25 := sb_schouten z1.2 z2.2 z3.2 z0.2
  have i26 := mb_schouten_left z0.2 z1.2 z2.2 (p 2) z0.1
  have i27 := mb_schouten_left z0.2 z2.2 ρ0 (p 2) z0.1
  have i28 := mb_schouten_left z0.2 z1.2 z2.2 (p 1) z0.1
  have i29 := sb_schouten z2.2 z3.2 ρ0 z0.2
  have i30 := mb_schouten_right ρ0 (p 1) z0.1 z1.1 z3.1
  have i31 := mb_schouten_left z0.2 z2.2 ρ0 (p 1) z0.1
  have i32 := mb_schouten_left z1.2 z2.2 ρ0 (p 1) z0.1
  simp only [l0.mb_eq, b1.mb_left, b1.mb_right, b2.mb_left, b2.mb_right, b3.mb_left, b3.mb_right, e02, e03, mb_one hb z0.2 z0.1, mb_three hb z0.2 z1.1, mb_three hb z0.2 z2.1, mb_two hb z0.2 z3.1, mb_three hb z1.2 z0.1, mb_three hb z1.2 z1.1, mb_three hb z1.2 z2.1, mb_two hb z1.2 z3.1, mb_three hb z2.2 z0.1, mb_three hb z2.2 z1.1, mb_three hb z2.2 z2.1, mb_one hb z2.2 z3.1, mb_two hb z3.2 z0.1, mb_two hb z3.2 z1.1, mb_one hb z3.2 z2.1, mb_two hb z3.2 z3.1, mb_three hb ρ0 z0.1, mb_three hb ρ0 z1.1, mb_three hb ρ0 z2.1, mb_two hb ρ0 z3.1, ab_self, sb_self] at i0 i1 i2 i3 i4 i5 i6 i7 i8 i9 i10 i11 i12 i13 i14 i15 i16 i17 i18 i19 i20 i21 i22 i23 i24 i25 i26 i27 i28 i29 i30 i31 i32 ⊢
  simp only [ab_swap z0.1 z1.1, ab_swap z0.1 z2.1, ab_swap z0.1 z3.1, ab_swap z1.1 z2.1, ab_swap z1.1 z3.1, ab_swap z2.1 z3.1, sb_swap z0.2 z1.2, sb_swap z0.2 z2.2, sb_swap z0.2 z3.2, sb_swap z0.2 ρ0, sb_swap z1.2 z2.2, sb_swap z1.2 z3.2, sb_swap z1.2 ρ0, sb_swap z2.2 z3.2, sb_swap z2.2 ρ0, sb_swap z3.2 ρ0] at i0 i1 i2 i3 i4 i5 i6 i7 i8 i9 i10 i11 i12 i13 i14 i15 i16 i17 i18 i19 i20 i21 i22 i23 i24 i25 i26 i27 i28 i29 i30 i31 i32 ⊢
  simp only [r8, r10, r11, Constants.hL, Constants.hR, Constants.gL, Constants.gR, Constants.yuk, Constants.invVev, Flavour.charge_d, Flavour.isospin_d, ← c.mz]
  have xMW : (c.MW : ℂ) ≠ 0 := by exact_mod_cast hc.MW
  have xSW : (c.SW : ℂ) ≠ 0 := by exact_mod_cast hc.SW
  have xCW : (c.CW : ℂ) ≠ 0 := by exact_mod_cast hc.CW
  have x2 : ((√2 : ℝ) : ℂ) ≠ 0 := by exact_mod_cast (Real.sqrt_pos.2 two_pos).ne'
  have x22 : ((√2 : ℝ) : ℂ) ^ 2 = 2 := by rw [← Complex.ofReal_pow, Real.sq_sqrt two_pos.le]; norm_num
  have x23 : ((√2 : ℝ) : ℂ) ^ 3 = 2 * ((√2 : ℝ) : ℂ) := by rw [← x22]; ring
  have x24 : ((√2 : ℝ) : ℂ) ^ 4 = 4 := by linear_combination (((√2 : ℝ) : ℂ) ^ 2 + 2) * x22
  try simp only [← c.mz] at i0 i1 i2 i3 i4 i5 i6 i7 i8 i9 i10 i11 i12 i13 i14 i15 i16 i17 i18 i19 i20 i21 i22 i23 i24 i25 i26 i27 i28 i29 i30 i31 i32
  push_cast at i0 i1 i2 i3 i4 i5 i6 i7 i8 i9 i10 i11 i12 i13 i14 i15 i16 i17 i18 i19 i20 i21 i22 i23 i24 i25 i26 i27 i28 i29 i30 i31 i32 ⊢
  simp only [div_eq_mul_inv, mul_inv, inv_inv] at i0 i1 i2 i3 i4 i5 i6 i7 i8 i9 i10 i11 i12 i13 i14 i15 i16 i17 i18 i19 i20 i21 i22 i23 i24 i25 i26 i27 i28 i29 i30 i31 i32 ⊢
  have y0 := mul_inv_cancel₀ n0
  have y1 := mul_inv_cancel₀ n1
  have yCW := mul_inv_cancel₀ xCW
  have yMW := mul_inv_cancel₀ xMW
  have ySW := mul_inv_cancel₀ xSW
  linear_combination ((((2) * ((c.SW : ℂ)) ^ 2 * ((c.e : ℂ)) ^ 2 * (ab z1.1 z2.1) * (sb z1.2 ρ0)) * i0 + ((-2) * ((c.SW : ℂ)) ^ 2 * ((c.e : ℂ)) ^ 2 * (ab z1.1 z2.1) * (sb z3.2 ρ0) + (-2) * ((c.SW : ℂ)) ^ 2 * ((c.e : ℂ)) ^ 2 * (ab z1.1 z3.1) * (sb z2.2 ρ0) + (3) * ((c.e : ℂ)) ^ 2 * (ab z1.1 z3.1) * (sb z2.2 ρ0)) * i1 + ((-2) * ((c.SW : ℂ)) ^ 2 * ((c.e : ℂ)) ^ 2 * ((c.mass .d : ℂ)) * (ab z0.1 z1.1) * (mb z2.2 (p 1) z0.1) + (2) * ((c.SW : ℂ)) ^ 2 * ((c.e : ℂ)) ^ 2 * (ab z1.1 z2.1) * ((mb (slashUpper (p 3) *ᵥ z0.1) (p 2) z0.1))) * i2 + ((2) * ((c.SW : ℂ)) ^ 2 * ((c.e : ℂ)) ^ 2 * (N.c 1) * (sb z3.2 ρ0) + (-2) * ((c.SW : ℂ)) ^ 2 * ((c.e : ℂ)) ^ 2 * (mb ρ0 (p 1) z0.1) * (sb z0.2 z3.2) + (2) * ((c.SW : ℂ)) ^ 2 * ((c.e : ℂ)) ^ 2 * (mb ρ0 (p 2) z0.1) * (sb z0.2 z3.2)) * i3 + ((4) * ((c.SW : ℂ)) ^ 2 * ((c.e : ℂ)) ^ 2 * ((c.mass .d : ℂ)) * (N.c 1) * (ab z0.1 z1.1)) * i4 + ((2) * ((c.MW : ℂ)) * ((c.SW : ℂ)) ^ 2 * ((c.e : ℂ)) ^ 2 * ((c.CW : ℂ)⁻¹) * (ab z0.1 z2.1) * (sb z1.2 z3.2) + (4) * ((c.SW : ℂ)) ^ 2 * ((c.e : ℂ)) ^ 2 * ((c.mass .d : ℂ)) * (ab z0.1 z2.1) * (ab z1.1 z3.1) + (-2) * ((c.SW : ℂ)) ^ 2 * ((c.e : ℂ)) ^ 2 * (ab z0.1 z1.1) * (ab z0.1 z2.1) * (sb z0.2 z3.2)) * i5 + ((2) * ((c.MW : ℂ)) * ((c.SW : ℂ)) ^ 2 * ((c.e : ℂ)) ^ 2 * ((c.CW : ℂ)⁻¹) * (ab z0.1 z1.1) * (sb z0.2 ρ0) + (-2) * ((c.SW : ℂ)) ^ 2 * ((c.e : ℂ)) ^ 2 * (N.c 0) * (sb z1.2 ρ0) + (-2) * ((c.SW : ℂ)) ^ 2 * ((c.e : ℂ)) ^ 2 * (N.c 1) * (sb z1.2 ρ0) + (2) * ((c.SW : ℂ)) ^ 2 * ((c.e : ℂ)) ^ 2 * (mb ρ0 (p 1) z0.1) * (sb z0.2 z1.2)) * i6 + ((-2) * ((c.SW : ℂ)) ^ 2 * ((c.e : ℂ)) ^ 2 * ((c.mass .d : ℂ)) * (ab z0.1 z3.1) * (sb z0.2 z1.2) + (2) * ((c.SW : ℂ)) ^ 2 * ((c.e : ℂ)) ^ 2 * (N.c 0) * (sb z1.2 z3.2) + (2) * ((c.SW : ℂ)) ^ 2 * ((c.e : ℂ)) ^ 2 * (mb z1.2 (p 2) z0.1) * (sb z0.2 z3.2) + (-2) * ((c.SW : ℂ)) ^ 2 * ((c.e : ℂ)) ^ 2 * (mb z3.2 (p 1) z0.1) * (sb z0.2 z1.2)) * i7 + ((-2) * ((c.SW : ℂ)) ^ 2 * ((c.e : ℂ)) ^ 2 * (N.c 0) * (ab z1.1 z2.1)) * i8 + ((-2) * ((c.MW : ℂ)) * ((c.SW : ℂ)) ^ 2 * ((c.e : ℂ)) ^ 2 * ((c.CW : ℂ)⁻¹) * (ab z0.1 z2.1) * (sb z1.2 ρ0) + (2) * ((c.SW : ℂ)) ^ 2 * ((c.e : ℂ)) ^ 2 * (ab z0.1 z1.1) * (mb ρ0 (p 1) z2.1) + (2) * ((c.SW : ℂ)) ^ 2 * ((c.e : ℂ)) ^ 2 * (ab z0.1 z2.1) * (mb ρ0 (p 2) z1.1)) * i9 + ((-2) * ((c.SW : ℂ)) ^ 2 * ((c.e : ℂ)) ^ 2 * (ab z0.1 z2.1) * (mb z1.2 (p 2) z1.1)) * i10 + ((2) * ((c.MW : ℂ)) * ((c.SW : ℂ)) ^ 2 * ((c.e : ℂ)) ^ 2 * ((c.CW : ℂ)⁻¹) * (ab z0.1 z1.1) * (ab z1.1 z2.1) + (2) * ((c.SW : ℂ)) ^ 2 * ((c.e : ℂ)) ^ 2 * (ab z0.1 z2.1) * (mb z1.2 (p 2) z1.1)) * i11 + ((-2) * ((c.MW : ℂ)) * ((c.SW : ℂ)) ^ 2 * ((c.e : ℂ)) ^ 2 * ((c.CW : ℂ)⁻¹) * (ab z0.1 z1.1) * (sb z0.2 z3.2) + (-2) * ((c.SW : ℂ)) ^ 2 * ((c.e : ℂ)) ^ 2 * (mb z1.2 (p 2) z0.1) * (sb z0.2 z3.2)) * i12 + ((2) * ((c.MW : ℂ)) * ((c.SW : ℂ)) ^ 2 * ((c.e : ℂ)) ^ 2 * ((c.CW : ℂ)⁻¹) * ((c.mass .d : ℂ)) * (ab z0.1 z1.1) * (sb z0.2 ρ0) + (-2) * ((c.SW : ℂ)) ^ 2 * ((c.e : ℂ)) ^ 2 * ((c.mass .d : ℂ)) * (N.c 0) * (sb z1.2 ρ0) + (-2) * ((c.SW : ℂ)) ^ 2 * ((c.e : ℂ)) ^ 2 * ((c.mass .d : ℂ)) * (N.c 1) * (sb z1.2 ρ0) + (2) * ((c.SW : ℂ)) ^ 2 * ((c.e : ℂ)) ^ 2 * ((c.mass .d : ℂ)) * (mb ρ0 (p 1) z0.1) * (sb z0.2 z1.2)) * i13 + ((-2) * ((c.SW : ℂ)) ^ 2 * ((c.e : ℂ)) ^ 2 * ((c.mass .d : ℂ)) * (ab z0.1 z3.1) * (sb z1.2 ρ0)) * i14 + ((2) * ((c.SW : ℂ)) ^ 2 * ((c.e : ℂ)) ^ 2 * (ab z1.1 z3.1) * (sb z1.2 ρ0) + (-3) * ((c.e : ℂ)) ^ 2 * (ab z1.1 z3.1) * (sb z1.2 ρ0)) * i15 + ((2) * ((c.SW : ℂ)) ^ 2 * ((c.e : ℂ)) ^ 2 * (N.c 0) * (ab z0.1 z1.1) * (ab z0.1 z3.1) + (2) * ((c.SW : ℂ)) ^ 2 * ((c.e : ℂ)) ^ 2 * (ab z1.1 z3.1) * ((mb (slashUpper (p 3) *ᵥ z0.1) (p 2) z0.1)) + (-3) * ((c.e : ℂ)) ^ 2 * (N.c 0) * (ab z0.1 z1.1) * (ab z0.1 z3.1) + (-3) * ((c.e : ℂ)) ^ 2 * (ab z1.1 z3.1) * ((mb (slashUpper (p 3) *ᵥ z0.1) (p 2) z0.1))) * i16 + ((-4) * ((c.SW : ℂ)) ^ 2 * ((c.e : ℂ)) ^ 2 * ((c.mass .d : ℂ)) * (ab z0.1 z2.1) * (sb z0.2 ρ0) + (2) * ((c.SW : ℂ)) ^ 2 * ((c.e : ℂ)) ^ 2 * (N.c 0) * (sb z2.2 ρ0) + (-2) * ((c.SW : ℂ)) ^ 2 * ((c.e : ℂ)) ^ 2 * (mb ρ0 (p 2) z0.1) * (sb z0.2 z2.2) + (3) * ((c.e : ℂ)) ^ 2 * ((c.mass .d : ℂ)) * (ab z0.1 z2.1) * (sb z0.2 ρ0) + (-3) * ((c.e : ℂ)) ^ 2 * (N.c 0) * (sb z2.2 ρ0) + (3) * ((c.e : ℂ)) ^ 2 * (mb ρ0 (p 2) z0.1) * (sb z0.2 z2.2)) * i17 + ((2) * ((c.SW : ℂ)) ^ 2 * ((c.e : ℂ)) ^ 2 * ((c.mass .d : ℂ)) * (ab z0.1 z2.1) * (sb z1.2 ρ0)) * i18 + ((-2) * ((c.SW : ℂ)) ^ 2 * ((c.e : ℂ)) ^ 2 * ((c.mass .d : ℂ)) * (ab z0.1 z2.1) * (sb z1.2 ρ0)) * i19 + ((-2) * ((c.SW : ℂ)) ^ 2 * ((c.e : ℂ)) ^ 2 * ((c.mass .d : ℂ)) * (ab z0.1 z1.1) * (sb z1.2 ρ0)) * i20 + ((-2) * ((c.SW : ℂ)) ^ 2 * ((c.e : ℂ)) ^ 2 * ((c.mass .d : ℂ)) * (ab z0.1 z1.1) * (sb z2.2 z3.2) + (-4) * ((c.SW : ℂ)) ^ 2 * ((c.e : ℂ)) ^ 2 * ((c.mass .d : ℂ)) * (ab z0.1 z2.1) * (ab z1.1 z3.1) + (-2) * ((c.SW : ℂ)) ^ 2 * ((c.e : ℂ)) ^ 2 * (ab z0.1 z1.1) * (ab z0.1 z3.1) * (sb z0.2 z2.2) + (3) * ((c.e : ℂ)) ^ 2 * ((c.mass .d : ℂ)) * (ab z0.1 z2.1) * (ab z1.1 z3.1) + (3) * ((c.e : ℂ)) ^ 2 * (ab z0.1 z1.1) * (ab z0.1 z3.1) * (sb z0.2 z2.2)) * i21 + ((-2) * ((c.SW : ℂ)) ^ 2 * ((c.e : ℂ)) ^ 2 * (ab z0.1 z2.1) * (mb ρ0 (p 2) z1.1)) * i22 + ((4) * ((c.SW : ℂ)) ^ 2 * ((c.e : ℂ)) ^ 2 * ((c.mass .d : ℂ)) * (ab z0.1 z2.1) * (sb z0.2 z1.2) + (2) * ((c.SW : ℂ)) ^ 2 * ((c.e : ℂ)) ^ 2 * (mb z1.2 (p 2) z0.1) * (sb z0.2 z2.2) + (-3) * ((c.e : ℂ)) ^ 2 * ((c.mass .d : ℂ)) * (ab z0.1 z2.1) * (sb z0.2 z1.2) + (-3) * ((c.e : ℂ)) ^ 2 * (mb z1.2 (p 2) z0.1) * (sb z0.2 z2.2)) * i23 + ((2) * ((c.SW : ℂ)) ^ 2 * ((c.e : ℂ)) ^ 2 * ((c.mass .d : ℂ)) * (ab z0.1 z1.1) * (sb z1.2 ρ0)) * i24 + ((-2) * ((c.SW : ℂ)) ^ 2 * ((c.e : ℂ)) ^ 2 * ((c.mass .d : ℂ)) * (ab z0.1 z1.1) * (mb ρ0 (p 1) z0.1) + (2) * ((c.SW : ℂ)) ^ 2 * ((c.e : ℂ)) ^ 2 * ((c.mass .d : ℂ)) * (ab z0.1 z1.1) * (mb ρ0 (p 2) z0.1)) * i25 + ((-4) * ((c.SW : ℂ)) ^ 2 * ((c.e : ℂ)) ^ 2 * ((c.mass .d : ℂ)) * (ab z0.1 z1.1) * (sb z3.2 ρ0) + (2) * ((c.SW : ℂ)) ^ 2 * ((c.e : ℂ)) ^ 2 * (ab z0.1 z1.1) * (mb ρ0 (p 1) z3.1) + (-2) * ((c.SW : ℂ)) ^ 2 * ((c.e : ℂ)) ^ 2 * (ab z0.1 z3.1) * (mb ρ0 (p 2) z1.1) + (3) * ((c.e : ℂ)) ^ 2 * ((c.mass .d : ℂ)) * (ab z0.1 z1.1) * (sb z3.2 ρ0) + (-3) * ((c.e : ℂ)) ^ 2 * (ab z0.1 z1.1) * (mb ρ0 (p 1) z3.1) + (3) * ((c.e : ℂ)) ^ 2 * (ab z0.1 z3.1) * (mb ρ0 (p 2) z1.1)) * i26 + ((2) * ((c.MW : ℂ)) * ((c.SW : ℂ)) ^ 2 * ((c.e : ℂ)) ^ 2 * ((c.CW : ℂ)⁻¹) * (ab z0.1 z1.1) * (ab z1.1 z3.1) + (-3) * ((c.MW : ℂ)) * ((c.e : ℂ)) ^ 2 * ((c.CW : ℂ)⁻¹) * (ab z0.1 z1.1) * (ab z1.1 z3.1) + (4) * ((c.SW : ℂ)) ^ 2 * ((c.e : ℂ)) ^ 2 * ((c.mass .d : ℂ)) * (ab z0.1 z1.1) * (sb z1.2 z3.2) + (-2) * ((c.SW : ℂ)) ^ 2 * ((c.e : ℂ)) ^ 2 * (ab z0.1 z3.1) * (mb z1.2 (p 2) z1.1) + (-3) * ((c.e : ℂ)) ^ 2 * ((c.mass .d : ℂ)) * (ab z0.1 z1.1) * (sb z1.2 z3.2) + (3) * ((c.e : ℂ)) ^ 2 * (ab z0.1 z3.1) * (mb z1.2 (p 2) z1.1)) * i27 + ((2) * ((c.SW : ℂ)) ^ 2 * ((c.e : ℂ)) ^ 2 * ((c.mass .d : ℂ)) * (ab z0.1 z1.1) * (sb z3.2 ρ0)) * i28 + ((-2) * ((c.MW : ℂ)) * ((c.SW : ℂ)) ^ 2 * ((c.e : ℂ)) ^ 2 * ((c.CW : ℂ)⁻¹) * ((c.mass .d : ℂ)) * (ab z0.1 z1.1) ^ 2 + (-2) * ((c.SW : ℂ)) ^ 2 * ((c.e : ℂ)) ^ 2 * ((c.mass .d : ℂ)) * (ab z0.1 z1.1) * (mb z1.2 (p 2) z0.1)) * i29 + ((-2) * ((c.SW : ℂ)) ^ 2 * ((c.e : ℂ)) ^ 2 * ((c.mass .d : ℂ)) * (ab z0.1 z2.1) * (sb z0.2 z1.2) + (2) * ((c.SW : ℂ)) ^ 2 * ((c.e : ℂ)) ^ 2 * (N.c 0) * (sb z1.2 z2.2) + (-3) * ((c.e : ℂ)) ^ 2 * (N.c 0) * (sb z1.2 z2.2)) * i30 + ((-2) * ((c.SW : ℂ)) ^ 2 * ((c.e : ℂ)) ^ 2 * ((c.mass .d : ℂ)) * (ab z0.1 z1.1) * (sb z1.2 z3.2)) * i31 + ((-2) * ((c.SW : ℂ)) ^ 2 * ((c.e : ℂ)) ^ 2 * (N.c 0) * (ab z1.1 z3.1) + (3) * ((c.e : ℂ)) ^ 2 * (N.c 0) * (ab z1.1 z3.1)) * i32)) * ((1) * ((c.CW : ℂ)) * ((c.CW : ℂ)⁻¹) * ((c.MW : ℂ)⁻¹) * ((c.SW : ℂ)⁻¹) * ((N.c 0)⁻¹) * ((N.c 1)⁻¹) / (9)) + ((2) * ((c.CW : ℂ)) * ((c.MW : ℂ)) * ((c.SW : ℂ)) ^ 2 * ((c.e : ℂ)) ^ 2 * ((c.CW : ℂ)⁻¹) ^ 2 * ((c.MW : ℂ)⁻¹) * ((c.SW : ℂ)⁻¹) * ((N.c 1)⁻¹) * (ab z0.1 z1.1) * (ab z1.1 z2.1) * (sb z3.2 ρ0) / (9) + (2) * ((c.CW : ℂ)) * ((c.MW : ℂ)) * ((c.SW : ℂ)) ^ 2 * ((c.e : ℂ)) ^ 2 * ((c.CW : ℂ)⁻¹) ^ 2 * ((c.MW : ℂ)⁻¹) * ((c.SW : ℂ)⁻¹) * ((N.c 1)⁻¹) * (ab z0.1 z3.1) * (sb z1.2 z2.2) * (sb z1.2 ρ0) / (9) + (-1) * ((c.CW : ℂ)) * ((c.MW : ℂ)) * ((c.e : ℂ)) ^ 2 * ((c.CW : ℂ)⁻¹) ^ 2 * ((c.MW : ℂ)⁻¹) * ((c.SW : ℂ)⁻¹) * ((N.c 1)⁻¹) * (ab z0.1 z3.1) * (sb z1.2 z2.2) * (sb z1.2 ρ0) / (3) + (-2) * ((c.CW : ℂ)) * ((c.SW : ℂ)) ^ 2 * ((c.e : ℂ)) ^ 2 * ((c.CW : ℂ)⁻¹) * ((c.MW : ℂ)⁻¹) * ((c.SW : ℂ)⁻¹) * ((c.mass .d : ℂ)) * ((N.c 1)⁻¹) * (ab z0.1 z1.1) * (sb z1.2 z2.2) * (sb z3.2 ρ0) / (9) + (-2) * ((c.CW : ℂ)) * ((c.SW : ℂ)) ^ 2 * ((c.e : ℂ)) ^ 2 * ((c.CW : ℂ)⁻¹) * ((c.MW : ℂ)⁻¹) * ((c.SW : ℂ)⁻¹) * ((c.mass .d : ℂ)) * ((N.c 1)⁻¹) * (ab z0.1 z3.1) * (ab z1.1 z2.1) * (sb z1.2 ρ0) / (9) + (-2) * ((c.CW : ℂ)) * ((c.SW : ℂ)) ^ 2 * ((c.e : ℂ)) ^ 2 * ((c.CW : ℂ)⁻¹) * ((c.MW : ℂ)⁻¹) * ((c.SW : ℂ)⁻¹) * ((N.c 1)⁻¹) * (ab z0.1 z1.1) * (ab z0.1 z3.1) * (sb z0.2 ρ0) * (sb z1.2 z2.2) / (9) + (-2) * ((c.CW : ℂ)) * ((c.SW : ℂ)) ^ 2 * ((c.e : ℂ)) ^ 2 * ((c.CW : ℂ)⁻¹) * ((c.MW : ℂ)⁻¹) * ((c.SW : ℂ)⁻¹) * ((N.c 1)⁻¹) * (ab z0.1 z3.1) * (mb ρ0 (p 2) z1.1) * (sb z1.2 z2.2) / (9) + (2) * ((c.CW : ℂ)) * ((c.SW : ℂ)) ^ 2 * ((c.e : ℂ)) ^ 2 * ((c.CW : ℂ)⁻¹) * ((c.MW : ℂ)⁻¹) * ((c.SW : ℂ)⁻¹) * ((N.c 1)⁻¹) * (ab z1.1 z2.1) * (mb z1.2 (p 2) z0.1) * (sb z3.2 ρ0) / (9) + (1) * ((c.CW : ℂ)) * ((c.e : ℂ)) ^ 2 * ((c.CW : ℂ)⁻¹) * ((c.MW : ℂ)⁻¹) * ((c.SW : ℂ)⁻¹) * ((c.mass .d : ℂ)) * ((N.c 1)⁻¹) * (ab z0.1 z1.1) * (sb z1.2 z2.2) * (sb z3.2 ρ0) / (3) + (1) * ((c.CW : ℂ)) * ((c.e : ℂ)) ^ 2 * ((c.CW : ℂ)⁻¹) * ((c.MW : ℂ)⁻¹) * ((c.SW : ℂ)⁻¹) * ((N.c 1)⁻¹) * (ab z0.1 z1.1) * (ab z0.1 z3.1) * (sb z0.2 ρ0) * (sb z1.2 z2.2) / (3) + (1) * ((c.CW : ℂ)) * ((c.e : ℂ)) ^ 2 * ((c.CW : ℂ)⁻¹) * ((c.MW : ℂ)⁻¹) * ((c.SW : ℂ)⁻¹) * ((N.c 1)⁻¹) * (ab z0.1 z3.1) * (mb ρ0 (p 2) z1.1) * (sb z1.2 z2.2) / (3)) * y0 + ((2) * ((c.CW : ℂ)) * ((c.SW : ℂ)) ^ 2 * ((c.e : ℂ)) ^ 2 * ((c.CW : ℂ)⁻¹) * ((c.MW : ℂ)⁻¹) * ((c.SW : ℂ)⁻¹) * ((c.mass .d : ℂ)) * ((N.c 0)⁻¹) * (ab z0.1 z1.1) * (sb z1.2 z3.2) * (sb z2.2 ρ0) / (9) + (2) * ((c.CW : ℂ)) * ((c.SW : ℂ)) ^ 2 * ((c.e : ℂ)) ^ 2 * ((c.CW : ℂ)⁻¹) * ((c.MW : ℂ)⁻¹) * ((c.SW : ℂ)⁻¹) * ((c.mass .d : ℂ)) * ((N.c 0)⁻¹) * (ab z0.1 z2.1) * (ab z1.1 z3.1) * (sb z1.2 ρ0) / (9) + (-2) * ((c.CW : ℂ)) * ((c.SW : ℂ)) ^ 2 * ((c.e : ℂ)) ^ 2 * ((c.CW : ℂ)⁻¹) * ((c.MW : ℂ)⁻¹) * ((c.SW : ℂ)⁻¹) * ((N.c 0)⁻¹) * (ab z0.1 z2.1) * (mb ρ0 (p 2) z1.1) * (sb z1.2 z3.2) / (9) + (2) * ((c.CW : ℂ)) * ((c.SW : ℂ)) ^ 2 * ((c.e : ℂ)) ^ 2 * ((c.CW : ℂ)⁻¹) * ((c.MW : ℂ)⁻¹) * ((c.SW : ℂ)⁻¹) * ((N.c 0)⁻¹) * (ab z1.1 z3.1) * (mb z1.2 (p 2) z0.1) * (sb z2.2 ρ0) / (9) + (-1) * ((c.CW : ℂ)) * ((c.e : ℂ)) ^ 2 * ((c.CW : ℂ)⁻¹) * ((c.MW : ℂ)⁻¹) * ((c.SW : ℂ)⁻¹) * ((c.mass .d : ℂ)) * ((N.c 0)⁻¹) * (ab z0.1 z2.1) * (ab z1.1 z3.1) * (sb z1.2 ρ0) / (3) + (-1) * ((c.CW : ℂ)) * ((c.e : ℂ)) ^ 2 * ((c.CW : ℂ)⁻¹) * ((c.MW : ℂ)⁻¹) * ((c.SW : ℂ)⁻¹) * ((N.c 0)⁻¹) * (ab z1.1 z3.1) * (mb z1.2 (p 2) z0.1) * (sb z2.2 ρ0) / (3)) * y1 + ((-1) * ((c.MW : ℂ)) * (((√2 : ℝ) : ℂ)) ^ 2 * ((c.SW : ℂ)) ^ 2 * ((c.e : ℂ)) ^ 2 * ((c.CW : ℂ)⁻¹) * ((c.MW : ℂ)⁻¹) * ((c.SW : ℂ)⁻¹) * ((N.c 1)⁻¹) * (ab z0.1 z1.1) * (ab z1.1 z2.1) * (sb z3.2 ρ0) / (9) + (-1) * ((c.MW : ℂ)) * (((√2 : ℝ) : ℂ)) ^ 2 * ((c.SW : ℂ)) ^ 2 * ((c.e : ℂ)) ^ 2 * ((c.CW : ℂ)⁻¹) * ((c.MW : ℂ)⁻¹) * ((c.SW : ℂ)⁻¹) * ((N.c 1)⁻¹) * (ab z0.1 z3.1) * (sb z1.2 z2.2) * (sb z1.2 ρ0) / (9) + (1) * ((c.MW : ℂ)) * (((√2 : ℝ) : ℂ)) ^ 2 * ((c.e : ℂ)) ^ 2 * ((c.CW : ℂ)⁻¹) * ((c.MW : ℂ)⁻¹) * ((c.SW : ℂ)⁻¹) * ((N.c 1)⁻¹) * (ab z0.1 z3.1) * (sb z1.2 z2.2) * (sb z1.2 ρ0) / (6) + (2) * ((c.MW : ℂ)) * ((c.SW : ℂ)) ^ 2 * ((c.e : ℂ)) ^ 2 * ((c.CW : ℂ)⁻¹) * ((c.MW : ℂ)⁻¹) * ((c.SW : ℂ)⁻¹) * ((N.c 1)⁻¹) * (ab z0.1 z1.1) * (ab z1.1 z2.1) * (sb z3.2 ρ0) / (9) + (2) * ((c.MW : ℂ)) * ((c.SW : ℂ)) ^ 2 * ((c.e : ℂ)) ^ 2 * ((c.CW : ℂ)⁻¹) * ((c.MW : ℂ)⁻¹) * ((c.SW : ℂ)⁻¹) * ((N.c 1)⁻¹) * (ab z0.1 z3.1) * (sb z1.2 z2.2) * (sb z1.2 ρ0) / (9) + (-1) * ((c.MW : ℂ)) * ((c.e : ℂ)) ^ 2 * ((c.CW : ℂ)⁻¹) * ((c.MW : ℂ)⁻¹) * ((c.SW : ℂ)⁻¹) * ((N.c 1)⁻¹) * (ab z0.1 z3.1) * (sb z1.2 z2.2) * (sb z1.2 ρ0) / (3) + (-1) * (((√2 : ℝ) : ℂ)) ^ 2 * ((c.SW : ℂ)) ^ 2 * ((c.e : ℂ)) ^ 2 * ((c.MW : ℂ)⁻¹) * ((c.SW : ℂ)⁻¹) * ((c.mass .d : ℂ)) * ((N.c 0)⁻¹) * (ab z0.1 z1.1) * (sb z1.2 z3.2) * (sb z2.2 ρ0) / (9) + (-1) * (((√2 : ℝ) : ℂ)) ^ 2 * ((c.SW : ℂ)) ^ 2 * ((c.e : ℂ)) ^ 2 * ((c.MW : ℂ)⁻¹) * ((c.SW : ℂ)⁻¹) * ((c.mass .d : ℂ)) * ((N.c 0)⁻¹) * (ab z0.1 z2.1) * (ab z1.1 z3.1) * (sb z1.2 ρ0) / (9) + (1) * (((√2 : ℝ) : ℂ)) ^ 2 * ((c.SW : ℂ)) ^ 2 * ((c.e : ℂ)) ^ 2 * ((c.MW : ℂ)⁻¹) * ((c.SW : ℂ)⁻¹) * ((c.mass .d : ℂ)) * ((N.c 1)⁻¹) * (ab z0.1 z1.1) * (sb z1.2 z2.2) * (sb z3.2 ρ0) / (9) + (1) * (((√2 : ℝ) : ℂ)) ^ 2 * ((c.SW : ℂ)) ^ 2 * ((c.e : ℂ)) ^ 2 * ((c.MW : ℂ)⁻¹) * ((c.SW : ℂ)⁻¹) * ((c.mass .d : ℂ)) * ((N.c 1)⁻¹) * (ab z0.1 z3.1) * (ab z1.1 z2.1) * (sb z1.2 ρ0) / (9) + (1) * (((√2 : ℝ) : ℂ)) ^ 2 * ((c.SW : ℂ)) ^ 2 * ((c.e : ℂ)) ^ 2 * ((c.MW : ℂ)⁻¹) * ((c.SW : ℂ)⁻¹) * ((N.c 0)⁻¹) * (ab z0.1 z1.1) * (ab z0.1 z2.1) * (sb z0.2 ρ0) * (sb z1.2 z3.2) / (9) + (1) * (((√2 : ℝ) : ℂ)) ^ 2 * ((c.SW : ℂ)) ^ 2 * ((c.e : ℂ)) ^ 2 * ((c.MW : ℂ)⁻¹) * ((c.SW : ℂ)⁻¹) * ((N.c 0)⁻¹) * (ab z0.1 z2.1) * (mb ρ0 (p 2) z1.1) * (sb z1.2 z3.2) / (9) + (-1) * (((√2 : ℝ) : ℂ)) ^ 2 * ((c.SW : ℂ)) ^ 2 * ((c.e : ℂ)) ^ 2 * ((c.MW : ℂ)⁻¹) * ((c.SW : ℂ)⁻¹) * ((N.c 0)⁻¹) * (ab z1.1 z3.1) * (mb z1.2 (p 2) z0.1) * (sb z2.2 ρ0) / (9) + (1) * (((√2 : ℝ) : ℂ)) ^ 2 * ((c.SW : ℂ)) ^ 2 * ((c.e : ℂ)) ^ 2 * ((c.MW : ℂ)⁻¹) * ((c.SW : ℂ)⁻¹) * ((N.c 1)⁻¹) * (ab z0.1 z3.1) * (mb ρ0 (p 2) z1.1) * (sb z1.2 z2.2) / (9) + (-1) * (((√2 : ℝ) : ℂ)) ^ 2 * ((c.SW : ℂ)) ^ 2 * ((c.e : ℂ)) ^ 2 * ((c.MW : ℂ)⁻¹) * ((c.SW : ℂ)⁻¹) * ((N.c 1)⁻¹) * (ab z1.1 z2.1) * (mb z1.2 (p 2) z0.1) * (sb z3.2 ρ0) / (9) + (1) * (((√2 : ℝ) : ℂ)) ^ 2 * ((c.e : ℂ)) ^ 2 * ((c.MW : ℂ)⁻¹) * ((c.SW : ℂ)⁻¹) * ((c.mass .d : ℂ)) * ((N.c 0)⁻¹) * (ab z0.1 z2.1) * (ab z1.1 z3.1) * (sb z1.2 ρ0) / (6) + (-1) * (((√2 : ℝ) : ℂ)) ^ 2 * ((c.e : ℂ)) ^ 2 * ((c.MW : ℂ)⁻¹) * ((c.SW : ℂ)⁻¹) * ((c.mass .d : ℂ)) * ((N.c 1)⁻¹) * (ab z0.1 z1.1) * (sb z1.2 z2.2) * (sb z3.2 ρ0) / (6) + (1) * (((√2 : ℝ) : ℂ)) ^ 2 * ((c.e : ℂ)) ^ 2 * ((c.MW : ℂ)⁻¹) * ((c.SW : ℂ)⁻¹) * ((N.c 0)⁻¹) * (ab z1.1 z3.1) * (mb z1.2 (p 2) z0.1) * (sb z2.2 ρ0) / (6) + (-1) * (((√2 : ℝ) : ℂ)) ^ 2 * ((c.e : ℂ)) ^ 2 * ((c.MW : ℂ)⁻¹) * ((c.SW : ℂ)⁻¹) * ((N.c 1)⁻¹) * (ab z0.1 z3.1) * (mb ρ0 (p 2) z1.1) * (sb z1.2 z2.2) / (6) + (2) * ((c.SW : ℂ)) ^ 2 * ((c.e : ℂ)) ^ 2 * ((c.MW : ℂ)⁻¹) * ((c.SW : ℂ)⁻¹) * ((c.mass .d : ℂ)) * ((N.c 0)⁻¹) * (ab z0.1 z1.1) * (sb z1.2 z3.2) * (sb z2.2 ρ0) / (9) + (2) * ((c.SW : ℂ)) ^ 2 * ((c.e : ℂ)) ^ 2 * ((c.MW : ℂ)⁻¹) * ((c.SW : ℂ)⁻¹) * ((c.mass .d : ℂ)) * ((N.c 0)⁻¹) * (ab z0.1 z2.1) * (ab z1.1 z3.1) * (sb z1.2 ρ0) / (9) + (-2) * ((c.SW : ℂ)) ^ 2 * ((c.e : ℂ)) ^ 2 * ((c.MW : ℂ)⁻¹) * ((c.SW : ℂ)⁻¹) * ((c.mass .d : ℂ)) * ((N.c 1)⁻¹) * (ab z0.1 z1.1) * (sb z1.2 z2.2) * (sb z3.2 ρ0) / (9) + (-2) * ((c.SW : ℂ)) ^ 2 * ((c.e : ℂ)) ^ 2 * ((c.MW : ℂ)⁻¹) * ((c.SW : ℂ)⁻¹) * ((c.mass .d : ℂ)) * ((N.c 1)⁻¹) * (ab z0.1 z3.1) * (ab z1.1 z2.1) * (sb z1.2 ρ0) / (9) + (-2) * ((c.SW : ℂ)) ^ 2 * ((c.e : ℂ)) ^ 2 * ((c.MW : ℂ)⁻¹) * ((c.SW : ℂ)⁻¹) * ((N.c 0)⁻¹) * ((N.c 1)⁻¹) * (ab z1.1 z2.1) * ((mb (slashUpper (p 3) *ᵥ z0.1) (p 2) z0.1)) * (sb z0.2 ρ0) * (sb z1.2 z3.2) / (9) + (-2) * ((c.SW : ℂ)) ^ 2 * ((c.e : ℂ)) ^ 2 * ((c.MW : ℂ)⁻¹) * ((c.SW : ℂ)⁻¹) * ((N.c 0)⁻¹) * ((N.c 1)⁻¹) * (ab z1.1 z3.1) * ((mb (slashUpper (p 3) *ᵥ z0.1) (p 2) z0.1)) * (sb z0.2 ρ0) * (sb z1.2 z2.2) / (9) + (-2) * ((c.SW : ℂ)) ^ 2 * ((c.e : ℂ)) ^ 2 * ((c.MW : ℂ)⁻¹) * ((c.SW : ℂ)⁻¹) * ((N.c 0)⁻¹) * (ab z0.1 z2.1) * (mb ρ0 (p 2) z1.1) * (sb z1.2 z3.2) / (9) + (2) * ((c.SW : ℂ)) ^ 2 * ((c.e : ℂ)) ^ 2 * ((c.MW : ℂ)⁻¹) * ((c.SW : ℂ)⁻¹) * ((N.c 0)⁻¹) * (ab z1.1 z3.1) * (mb z1.2 (p 2) z0.1) * (sb z2.2 ρ0) / (9) + (-2) * ((c.SW : ℂ)) ^ 2 * ((c.e : ℂ)) ^ 2 * ((c.MW : ℂ)⁻¹) * ((c.SW : ℂ)⁻¹) * ((N.c 1)⁻¹) * (ab z0.1 z1.1) * (ab z0.1 z3.1) * (sb z0.2 ρ0) * (sb z1.2 z2.2) / (9) + (-2) * ((c.SW : ℂ)) ^ 2 * ((c.e : ℂ)) ^ 2 * ((c.MW : ℂ)⁻¹) * ((c.SW : ℂ)⁻¹) * ((N.c 1)⁻¹) * (ab z0.1 z3.1) * (mb ρ0 (p 2) z1.1) * (sb z1.2 z2.2) / (9) + (2) * ((c.SW : ℂ)) ^ 2 * ((c.e : ℂ)) ^ 2 * ((c.MW : ℂ)⁻¹) * ((c.SW : ℂ)⁻¹) * ((N.c 1)⁻¹) * (ab z1.1 z2.1) * (mb z1.2 (p 2) z0.1) * (sb z3.2 ρ0) / (9) + (-1) * ((c.e : ℂ)) ^ 2 * ((c.MW : ℂ)⁻¹) * ((c.SW : ℂ)⁻¹) * ((c.mass .d : ℂ)) * ((N.c 0)⁻¹) * (ab z0.1 z2.1) * (ab z1.1 z3.1) * (sb z1.2 ρ0) / (3) + (1) * ((c.e : ℂ)) ^ 2 * ((c.MW : ℂ)⁻¹) * ((c.SW : ℂ)⁻¹) * ((c.mass .d : ℂ)) * ((N.c 1)⁻¹) * (ab z0.1 z1.1) * (sb z1.2 z2.2) * (sb z3.2 ρ0) / (3) + (1) * ((c.e : ℂ)) ^ 2 * ((c.MW : ℂ)⁻¹) * ((c.SW : ℂ)⁻¹) * ((N.c 0)⁻¹) * ((N.c 1)⁻¹) * (ab z1.1 z3.1) * ((mb (slashUpper (p 3) *ᵥ z0.1) (p 2) z0.1)) * (sb z0.2 ρ0) * (sb z1.2 z2.2) / (3) + (-1) * ((c.e : ℂ)) ^ 2 * ((c.MW : ℂ)⁻¹) * ((c.SW : ℂ)⁻¹) * ((N.c 0)⁻¹) * (ab z1.1 z3.1) * (mb z1.2 (p 2) z0.1) * (sb z2.2 ρ0) / (3) + (1) * ((c.e : ℂ)) ^ 2 * ((c.MW : ℂ)⁻¹) * ((c.SW : ℂ)⁻¹) * ((N.c 1)⁻¹) * (ab z0.1 z1.1) * (ab z0.1 z3.1) * (sb z0.2 ρ0) * (sb z1.2 z2.2) / (3) + (1) * ((c.e : ℂ)) ^ 2 * ((c.MW : ℂ)⁻¹) * ((c.SW : ℂ)⁻¹) * ((N.c 1)⁻¹) * (ab z0.1 z3.1) * (mb ρ0 (p 2) z1.1) * (sb z1.2 z2.2) / (3)) * yCW + ((-1) * (((√2 : ℝ) : ℂ)) ^ 2 * ((c.SW : ℂ)) ^ 2 * ((c.e : ℂ)) ^ 2 * ((c.CW : ℂ)⁻¹) * ((c.SW : ℂ)⁻¹) * ((N.c 1)⁻¹) * (ab z0.1 z1.1) * (ab z1.1 z2.1) * (sb z3.2 ρ0) / (9) + (-1) * (((√2 : ℝ) : ℂ)) ^ 2 * ((c.SW : ℂ)) ^ 2 * ((c.e : ℂ)) ^ 2 * ((c.CW : ℂ)⁻¹) * ((c.SW : ℂ)⁻¹) * ((N.c 1)⁻¹) * (ab z0.1 z3.1) * (sb z1.2 z2.2) * (sb z1.2 ρ0) / (9) + (1) * (((√2 : ℝ) : ℂ)) ^ 2 * ((c.e : ℂ)) ^ 2 * ((c.CW : ℂ)⁻¹) * ((c.SW : ℂ)⁻¹) * ((N.c 1)⁻¹) * (ab z0.1 z3.1) * (sb z1.2 z2.2) * (sb z1.2 ρ0) / (6) + (2) * ((c.SW : ℂ)) ^ 2 * ((c.e : ℂ)) ^ 2 * ((c.CW : ℂ)⁻¹) * ((c.SW : ℂ)⁻¹) * ((N.c 1)⁻¹) * (ab z0.1 z1.1) * (ab z1.1 z2.1) * (sb z3.2 ρ0) / (9) + (2) * ((c.SW : ℂ)) ^ 2 * ((c.e : ℂ)) ^ 2 * ((c.CW : ℂ)⁻¹) * ((c.SW : ℂ)⁻¹) * ((N.c 1)⁻¹) * (ab z0.1 z3.1) * (sb z1.2 z2.2) * (sb z1.2 ρ0) / (9) + (-1) * ((c.e : ℂ)) ^ 2 * ((c.CW : ℂ)⁻¹) * ((c.SW : ℂ)⁻¹) * ((N.c 1)⁻¹) * (ab z0.1 z3.1) * (sb z1.2 z2.2) * (sb z1.2 ρ0) / (3)) * yMW + ((-1) * (((√2 : ℝ) : ℂ)) ^ 2 * ((c.SW : ℂ)) * ((c.e : ℂ)) ^ 2 * ((c.CW : ℂ)⁻¹) * ((N.c 1)⁻¹) * (ab z0.1 z1.1) * (ab z1.1 z2.1) * (sb z3.2 ρ0) / (9) + (-1) * (((√2 : ℝ) : ℂ)) ^ 2 * ((c.SW : ℂ)) * ((c.e : ℂ)) ^ 2 * ((c.CW : ℂ)⁻¹) * ((N.c 1)⁻¹) * (ab z0.1 z3.1) * (sb z1.2 z2.2) * (sb z1.2 ρ0) / (9) + (-1) * (((√2 : ℝ) : ℂ)) ^ 2 * ((c.SW : ℂ)) * ((c.e : ℂ)) ^ 2 * ((c.MW : ℂ)⁻¹) * ((c.mass .d : ℂ)) * ((N.c 0)⁻¹) * (ab z0.1 z1.1) * (sb z1.2 z3.2) * (sb z2.2 ρ0) / (9) + (-1) * (((√2 : ℝ) : ℂ)) ^ 2 * ((c.SW : ℂ)) * ((c.e : ℂ)) ^ 2 * ((c.MW : ℂ)⁻¹) * ((c.mass .d : ℂ)) * ((N.c 0)⁻¹) * (ab z0.1 z2.1) * (ab z1.1 z3.1) * (sb z1.2 ρ0) / (9) + (1) * (((√2 : ℝ) : ℂ)) ^ 2 * ((c.SW : ℂ)) * ((c.e : ℂ)) ^ 2 * ((c.MW : ℂ)⁻¹) * ((c.mass .d : ℂ)) * ((N.c 1)⁻¹) * (ab z0.1 z1.1) * (sb z1.2 z2.2) * (sb z3.2 ρ0) / (9) + (1) * (((√2 : ℝ) : ℂ)) ^ 2 * ((c.SW : ℂ)) * ((c.e : ℂ)) ^ 2 * ((c.MW : ℂ)⁻¹) * ((c.mass .d : ℂ)) * ((N.c 1)⁻¹) * (ab z0.1 z3.1) * (ab z1.1 z2.1) * (sb z1.2 ρ0) / (9) + (1) * (((√2 : ℝ) : ℂ)) ^ 2 * ((c.SW : ℂ)) * ((c.e : ℂ)) ^ 2 * ((c.MW : ℂ)⁻¹) * ((N.c 0)⁻¹) * (ab z0.1 z1.1) * (ab z0.1 z2.1) * (sb z0.2 ρ0) * (sb z1.2 z3.2) / (9) + (1) * (((√2 : ℝ) : ℂ)) ^ 2 * ((c.SW : ℂ)) * ((c.e : ℂ)) ^ 2 * ((c.MW : ℂ)⁻¹) * ((N.c 0)⁻¹) * (ab z0.1 z2.1) * (mb ρ0 (p 2) z1.1) * (sb z1.2 z3.2) / (9) + (-1) * (((√2 : ℝ) : ℂ)) ^ 2 * ((c.SW : ℂ)) * ((c.e : ℂ)) ^ 2 * ((c.MW : ℂ)⁻¹) * ((N.c 0)⁻¹) * (ab z1.1 z3.1) * (mb z1.2 (p 2) z0.1) * (sb z2.2 ρ0) / (9) + (1) * (((√2 : ℝ) : ℂ)) ^ 2 * ((c.SW : ℂ)) * ((c.e : ℂ)) ^ 2 * ((c.MW : ℂ)⁻¹) * ((N.c 1)⁻¹) * (ab z0.1 z3.1) * (mb ρ0 (p 2) z1.1) * (sb z1.2 z2.2) / (9) + (-1) * (((√2 : ℝ) : ℂ)) ^ 2 * ((c.SW : ℂ)) * ((c.e : ℂ)) ^ 2 * ((c.MW : ℂ)⁻¹) * ((N.c 1)⁻¹) * (ab z1.1 z2.1) * (mb z1.2 (p 2) z0.1) * (sb z3.2 ρ0) / (9) + (2) * ((c.SW : ℂ)) * ((c.e : ℂ)) ^ 2 * ((c.CW : ℂ)⁻¹) * ((N.c 1)⁻¹) * (ab z0.1 z1.1) * (ab z1.1 z2.1) * (sb z3.2 ρ0) / (9) + (2) * ((c.SW : ℂ)) * ((c.e : ℂ)) ^ 2 * ((c.CW : ℂ)⁻¹) * ((N.c 1)⁻¹) * (ab z0.1 z3.1) * (sb z1.2 z2.2) * (sb z1.2 ρ0) / (9) + (2) * ((c.SW : ℂ)) * ((c.e : ℂ)) ^ 2 * ((c.MW : ℂ)⁻¹) * ((c.mass .d : ℂ)) * ((N.c 0)⁻¹) * (ab z0.1 z1.1) * (sb z1.2 z3.2) * (sb z2.2 ρ0) / (9) + (2) * ((c.SW : ℂ)) * ((c.e : ℂ)) ^ 2 * ((c.MW : ℂ)⁻¹) * ((c.mass .d : ℂ)) * ((N.c 0)⁻¹) * (ab z0.1 z2.1) * (ab z1.1 z3.1) * (sb z1.2 ρ0) / (9) + (-2) * ((c.SW : ℂ)) * ((c.e : ℂ)) ^ 2 * ((c.MW : ℂ)⁻¹) * ((c.mass .d : ℂ)) * ((N.c 1)⁻¹) * (ab z0.1 z1.1) * (sb z1.2 z2.2) * (sb z3.2 ρ0) / (9) + (-2) * ((c.SW : ℂ)) * ((c.e : ℂ)) ^ 2 * ((c.MW : ℂ)⁻¹) * ((c.mass .d : ℂ)) * ((N.c 1)⁻¹) * (ab z0.1 z3.1) * (ab z1.1 z2.1) * (sb z1.2 ρ0) / (9) + (-2) * ((c.SW : ℂ)) * ((c.e : ℂ)) ^ 2 * ((c.MW : ℂ)⁻¹) * ((N.c 0)⁻¹) * (ab z0.1 z1.1) * (ab z0.1 z2.1) * (sb z0.2 ρ0) * (sb z1.2 z3.2) / (9) + (-2) * ((c.SW : ℂ)) * ((c.e : ℂ)) ^ 2 * ((c.MW : ℂ)⁻¹) * ((N.c 0)⁻¹) * (ab z0.1 z2.1) * (mb ρ0 (p 2) z1.1) * (sb z1.2 z3.2) / (9) + (2) * ((c.SW : ℂ)) * ((c.e : ℂ)) ^ 2 * ((c.MW : ℂ)⁻¹) * ((N.c 0)⁻¹) * (ab z1.1 z3.1) * (mb z1.2 (p 2) z0.1) * (sb z2.2 ρ0) / (9) + (-2) * ((c.SW : ℂ)) * ((c.e : ℂ)) ^ 2 * ((c.MW : ℂ)⁻¹) * ((N.c 1)⁻¹) * (ab z0.1 z3.1) * (mb ρ0 (p 2) z1.1) * (sb z1.2 z2.2) / (9) + (2) * ((c.SW : ℂ)) * ((c.e : ℂ)) ^ 2 * ((c.MW : ℂ)⁻¹) * ((N.c 1)⁻¹) * (ab z1.1 z2.1) * (mb z1.2 (p 2) z0.1) * (sb z3.2 ρ0) / (9)) * ySW + ((-1) * ((c.SW : ℂ)) * ((c.e : ℂ)) ^ 2 * ((c.CW : ℂ)⁻¹) * ((N.c 1)⁻¹) * (ab z0.1 z1.1) * (ab z1.1 z2.1) * (sb z3.2 ρ0) / (9) + (-1) * ((c.SW : ℂ)) * ((c.e : ℂ)) ^ 2 * ((c.CW : ℂ)⁻¹) * ((N.c 1)⁻¹) * (ab z0.1 z3.1) * (sb z1.2 z2.2) * (sb z1.2 ρ0) / (9) + (-1) * ((c.SW : ℂ)) * ((c.e : ℂ)) ^ 2 * ((c.MW : ℂ)⁻¹) * ((c.mass .d : ℂ)) * ((N.c 0)⁻¹) * (ab z0.1 z1.1) * (sb z1.2 z3.2) * (sb z2.2 ρ0) / (9) + (-1) * ((c.SW : ℂ)) * ((c.e : ℂ)) ^ 2 * ((c.MW : ℂ)⁻¹) * ((c.mass .d : ℂ)) * ((N.c 0)⁻¹) * (ab z0.1 z2.1) * (ab z1.1 z3.1) * (sb z1.2 ρ0) / (9) + (1) * ((c.SW : ℂ)) * ((c.e : ℂ)) ^ 2 * ((c.MW : ℂ)⁻¹) * ((c.mass .d : ℂ)) * ((N.c 1)⁻¹) * (ab z0.1 z1.1) * (sb z1.2 z2.2) * (sb z3.2 ρ0) / (9) + (1) * ((c.SW : ℂ)) * ((c.e : ℂ)) ^ 2 * ((c.MW : ℂ)⁻¹) * ((c.mass .d : ℂ)) * ((N.c 1)⁻¹) * (ab z0.1 z3.1) * (ab z1.1 z2.1) * (sb z1.2 ρ0) / (9) + (1) * ((c.SW : ℂ)) * ((c.e : ℂ)) ^ 2 * ((c.MW : ℂ)⁻¹) * ((N.c 0)⁻¹) * (ab z0.1 z1.1) * (ab z0.1 z2.1) * (sb z0.2 ρ0) * (sb z1.2 z3.2) / (9) + (1) * ((c.SW : ℂ)) * ((c.e : ℂ)) ^ 2 * ((c.MW : ℂ)⁻¹) * ((N.c 0)⁻¹) * (ab z0.1 z2.1) * (mb ρ0 (p 2) z1.1) * (sb z1.2 z3.2) / (9) + (-1) * ((c.SW : ℂ)) * ((c.e : ℂ)) ^ 2 * ((c.MW : ℂ)⁻¹) * ((N.c 0)⁻¹) * (ab z1.1 z3.1) * (mb z1.2 (p 2) z0.1) * (sb z2.2 ρ0) / (9) + (1) * ((c.SW : ℂ)) * ((c.e : ℂ)) ^ 2 * ((c.MW : ℂ)⁻¹) * ((N.c 1)⁻¹) * (ab z0.1 z3.1) * (mb ρ0 (p 2) z1.1) * (sb z1.2 z2.2) / (9) + (-1) * ((c.SW : ℂ)) * ((c.e : ℂ)) ^ 2 * ((c.MW : ℂ)⁻¹) * ((N.c 1)⁻¹) * (ab z1.1 z2.1) * (mb z1.2 (p 2) z0.1) * (sb z3.2 ρ0) / (9) + (1) * ((c.e : ℂ)) ^ 2 * ((c.CW : ℂ)⁻¹) * ((c.SW : ℂ)⁻¹) * ((N.c 1)⁻¹) * (ab z0.1 z3.1) * (sb z1.2 z2.2) * (sb z1.2 ρ0) / (6) + (1) * ((c.e : ℂ)) ^ 2 * ((c.MW : ℂ)⁻¹) * ((c.SW : ℂ)⁻¹) * ((c.mass .d : ℂ)) * ((N.c 0)⁻¹) * (ab z0.1 z2.1) * (ab z1.1 z3.1) * (sb z1.2 ρ0) / (6) + (-1) * ((c.e : ℂ)) ^ 2 * ((c.MW : ℂ)⁻¹) * ((c.SW : ℂ)⁻¹) * ((c.mass .d : ℂ)) * ((N.c 1)⁻¹) * (ab z0.1 z1.1) * (sb z1.2 z2.2) * (sb z3.2 ρ0) / (6) + (1) * ((c.e : ℂ)) ^ 2 * ((c.MW : ℂ)⁻¹) * ((c.SW : ℂ)⁻¹) * ((N.c 0)⁻¹) * (ab z1.1 z3.1) * (mb z1.2 (p 2) z0.1) * (sb z2.2 ρ0) / (6) + (-1) * ((c.e : ℂ)) ^ 2 * ((c.MW : ℂ)⁻¹) * ((c.SW : ℂ)⁻¹) * ((N.c 1)⁻¹) * (ab z0.1 z3.1) * (mb ρ0 (p 2) z1.1) * (sb z1.2 z2.2) / (6)) * x22
set_option maxRecDepth 8000 in
theorem AZdd.amp2_eq (N : Env) (f : Nat → List Int → ℂ) : Cls.AZdd.m_amp2.mean N f .r [] =
    ((sumW (fun x a => (sumV (fun x b => (sumJ (fun x c => (sumJ (fun x d => (x + (((3 : Nat) : ℝ) * (‖(f 0 [a, b, c, d])‖ ^ 2)))) x)) x)) x)) ((0 : Nat) : ℝ)) / ((6 : Nat) : ℝ)) := by rfl
set_option maxRecDepth 8000 in
theorem AZdd.value (N : Env) : meaning N .r Cls.AZdd.methods Cls.AZdd.amp2 [] =
    ((sumW (fun x a => (sumV (fun x b => (sumJ (fun x c => (sumJ (fun x d => (x + (((3 : Nat) : ℝ) * (‖(Cls.AZdd.m_amp.mean N (callMean N []) .c [a, b, c, d])‖ ^ 2)))) x)) x)) x)) ((0 : Nat) : ℝ)) / ((6 : Nat) : ℝ)) :=
  AZdd.amp2_eq N (callMean N [Cls.AZdd.m_amp])
theorem AZdd.termP_lin (N : Env) (w : ℝ) (x : ℂ) (a1 b1 j3 j4 : Int) : AZdd.termP N w x a1 b1 j3 j4 = x + (w : ℂ) * AZdd.termP N 1 0 a1 b1 j3 j4 := by
  simp only [AZdd.termP]; push_cast; ring
theorem AZdd.termM_lin (N : Env) (w : ℝ) (x : ℂ) (a1 b1 j3 j4 : Int) : AZdd.termM N w x a1 b1 j3 j4 = x + (w : ℂ) * AZdd.termM N 1 0 a1 b1 j3 j4 := by
  simp only [AZdd.termM]; push_cast; ring
set_option maxRecDepth 8000 in
theorem AZdd.ampP (N : Env) (f : Nat → List Int → ℂ) (j3 j4 : Int) (t1 : Fin 3) : Cls.AZdd.m_amp.mean N f .c [2, spinV t1, j3, j4] = comb t1 (fun a1 b1 => AZdd.termP N 1 0 (spinOf a1) (spinOf b1) j3 j4) := by
  refine (amp_mean N f (m := 4) (K := 6) (G := fun i => if 0 < i 0 then AZdd.termP N 1 0 (i 4) (i 5) (i 2) (i 3) else if i 0 < 0 then AZdd.termM N 1 0 (i 4) (i 5) (i 2) (i 3) else 0) (fun l => ?_) (fun i i' h => ?_) rfl (by decide) (by decide) (by decide) (by decide) (by decide)).trans ?_
  · by_cases h : 0 < l.i 0
    · refine ⟨_, (if_pos (decide_eq_true h)).trans rfl, rfl, rfl, ?_⟩; rw [if_pos h]; exact AZdd.termP_lin ..
    · by_cases h' : l.i 0 < 0
      · refine ⟨_, (if_neg (fun e => h (of_decide_eq_true e))).trans ((if_pos (decide_eq_true h')).trans rfl), rfl, rfl, ?_⟩; rw [if_neg h, if_pos h']; exact AZdd.termM_lin ..
      · refine ⟨_, (if_neg (fun e => h (of_decide_eq_true e))).trans ((if_neg (fun e => h' (of_decide_eq_true e))).trans rfl), rfl, rfl, ?_⟩; rw [if_neg h, if_neg h', mul_zero, add_zero]
  · simp only [h 0 (by decide), h 2 (by decide), h 3 (by decide), h 4 (by decide), h 5 (by decide)]
  · show amp' _ [spinV t1] = _
    simp only [amp'_comb, amp'_nil]
    rfl
theorem AZdd.formP_x1 (N : Env) (p : Nat → V4 ℝ) (z0 y1 z2 z3 x y : Pair) : AZdd.formP N p z0 (x + y) y1 z2 z3 = AZdd.formP N p z0 x y1 z2 z3 + AZdd.formP N p z0 y y1 z2 z3 := by
  simp only [AZdd.formP, Prod.fst_add, Prod.snd_add, ab_add_left, ab_add_right, sb_add_left, sb_add_right, mb_add_left, mb_add_right]
  ring
theorem AZdd.formP_y1 (N : Env) (p : Nat → V4 ℝ) (z0 x1 z2 z3 x y : Pair) : AZdd.formP N p z0 x1 (x + y) z2 z3 = AZdd.formP N p z0 x1 x z2 z3 + AZdd.formP N p z0 x1 y z2 z3 := by
  simp only [AZdd.formP, Prod.fst_add, Prod.snd_add, ab_add_left, ab_add_right, sb_add_left, sb_add_right, mb_add_left, mb_add_right]
  ring
set_option maxRecDepth 8000 in
theorem AZdd.ampM (N : Env) (f : Nat → List Int → ℂ) (j3 j4 : Int) (t1 : Fin 3) : Cls.AZdd.m_amp.mean N f .c [(-2), spinV t1, j3, j4] = comb t1 (fun a1 b1 => AZdd.termM N 1 0 (spinOf a1) (spinOf b1) j3 j4) := by
  refine (amp_mean N f (m := 4) (K := 6) (G := fun i => if 0 < i 0 then AZdd.termP N 1 0 (i 4) (i 5) (i 2) (i 3) else if i 0 < 0 then AZdd.termM N 1 0 (i 4) (i 5) (i 2) (i 3) else 0) (fun l => ?_) (fun i i' h => ?_) rfl (by decide) (by decide) (by decide) (by decide) (by decide)).trans ?_
  · by_cases h : 0 < l.i 0
    · refine ⟨_, (if_pos (decide_eq_true h)).trans rfl, rfl, rfl, ?_⟩; rw [if_pos h]; exact AZdd.termP_lin ..
    · by_cases h' : l.i 0 < 0
      · refine ⟨_, (if_neg (fun e => h (of_decide_eq_true e))).trans ((if_pos (decide_eq_true h')).trans rfl), rfl, rfl, ?_⟩; rw [if_neg h, if_pos h']; exact AZdd.termM_lin ..
      · refine ⟨_, (if_neg (fun e => h (of_decide_eq_true e))).trans ((if_neg (fun e => h' (of_decide_eq_true e))).trans rfl), rfl, rfl, ?_⟩; rw [if_neg h, if_neg h', mul_zero, add_zero]
  · simp only [h 0 (by decide), h 2 (by decide), h 3 (by decide), h 4 (by decide), h 5 (by decide)]
  · show amp' _ [spinV t1] = _
    simp only [amp'_comb, amp'_nil]
    rfl
theorem AZdd.formM_x1 (N : Env) (p : Nat → V4 ℝ) (z0 y1 z2 z3 x y : Pair) : AZdd.formM N p z0 (x + y) y1 z2 z3 = AZdd.formM N p z0 x y1 z2 z3 + AZdd.formM N p z0 y y1 z2 z3 := by
  simp only [AZdd.formM, Prod.fst_add, Prod.snd_add, ab_add_left, ab_add_right, sb_add_left, sb_add_right, mb_add_left, mb_add_right]
  ring
theorem AZdd.formM_y1 (N : Env) (p : Nat → V4 ℝ) (z0 x1 z2 z3 x y : Pair) : AZdd.formM N p z0 x1 (x + y) z2 z3 = AZdd.formM N p z0 x1 x z2 z3 + AZdd.formM N p z0 x1 y z2 z3 := by
  simp only [AZdd.formM, Prod.fst_add, Prod.snd_add, ab_add_left, ab_add_right, sb_add_left, sb_add_right, mb_add_left, mb_add_right]
  ring

theorem AZdd.mass_eq {c : Constants} (hc : c.Physical) (i : Fin 4) : AZdd.proc.massNum (AZdd.rho c) i = AZdd.react.mass c i := by
  fin_cases i <;> first | rfl | exact Nat.cast_zero | exact Nat.cast_zero.trans (hc.neutrino _).symm | (show c.MW / √(((1 : Nat) : ℝ) - c.SW * c.SW) = c.MZ; rw [c.root, c.mz])

variable [FPEnv] in
theorem AZdd.amps {c : Constants} {p : Nat → V4 ℝ} {u : Fin 4 → Fin 3 → Spinor} {ε : Fin 4 → Fin 3 → Vec} (hc : c.Physical) (hh : c.Heavy) (h0 : ∀ i, 0 ≤ AZdd.react.mass c i) (hs : ∀ i : Fin 4, OnShell (p i) (AZdd.react.mass c i)) (hb : Balanced p) (hr : AZdd.react.Regular c p) (hu : ∀ i, AZdd.react.Complete c p i (u i) (ε i)) :
    (AZdd.N c p).c 0 ≠ 0 ∧ (AZdd.N c p).c 1 ≠ 0 ∧ (∀ n, (Ty.r, n) ∈ AZdd.proc.divides → (AZdd.N c p).r n ≠ 0) ∧ (∀ n, (Ty.c, n) ∈ AZdd.proc.divides → (AZdd.N c p).c n ≠ 0) ∧ ∀ (s2 : Fin 2) (s3 : Fin 2) (h0 : Fin 2) (t1 : Fin 3), ‖Cls.AZdd.m_amp.mean (AZdd.N c p) (callMean (AZdd.N c p) []) .c [spinW h0, spinV t1, spinOf s2, spinOf s3]‖ = ‖AZdd.react.bare c p 2 3 0 1 (AZdd.react.codePair c p 2 s2) (AZdd.react.codePair c p 3 s3) (lightE (legA (p 0) 0 0, legS (p 0) 0 1) h0.castSucc) (AZdd.react.codeVec c p 1 t1)‖ := by
  have he : AZdd.react.ends = [2] := by decide
  have ht : AZdd.react.starts = [3] := by decide
  have hB : AZdd.react.bosons = [0, 1] := by decide
  obtain ⟨f1, f2, f3⟩ := AZdd.react.regular_line he ht hB hr
  have r8 : (AZdd.N c p).r 8 = ((((((2 : Nat) : ℝ) * c.e) * c.e) * ((-((1 : Nat) : ℝ)) / ((3 : Nat) : ℝ))) / ((((2 : Nat) : ℝ) * c.MW) * c.SW)) := rfl
  have r10 : (AZdd.N c p).r 10 = (((((-((2 : Nat) : ℝ)) * ((-((1 : Nat) : ℝ)) / ((3 : Nat) : ℝ))) * c.SW) * c.SW) - ((1 : Nat) : ℝ)) := rfl
  have r11 : (AZdd.N c p).r 11 = ((((-((2 : Nat) : ℝ)) * ((-((1 : Nat) : ℝ)) / ((3 : Nat) : ℝ))) * c.SW) * c.SW) := rfl
  have c0 : (AZdd.N c p).c 0 = poleDist (c.mass .d) ((0 : Nat) : ℝ) ((VExp.sub 0 2).sum p) := rfl
  rw [Nat.cast_zero, pole_fermion rfl] at c0
  have d0 : ((msq (plus (backward (p 3)) (p 1)) - c.mass .d ^ 2 : ℝ) : ℂ) = (AZdd.N c p).c 0 := by rw [c0, msq_t hb (plus (backward (p 3)) (p 1)) (by simp)]
  have n0 : (AZdd.N c p).c 0 ≠ 0 := by rw [← d0]; exact_mod_cast f2 .d rfl rfl
  have c1 : (AZdd.N c p).c 1 = poleDist (c.mass .d) ((0 : Nat) : ℝ) ((VExp.sub 0 3).sum p) := rfl
  rw [Nat.cast_zero, pole_fermion rfl] at c1
  have d1 : ((msq (plus (backward (p 3)) (p 0)) - c.mass .d ^ 2 : ℝ) : ℂ) = (AZdd.N c p).c 1 := by rw [c1, msq_u hb (plus (backward (p 3)) (p 0)) (by simp)]
  have n1 : (AZdd.N c p).c 1 ≠ 0 := by rw [← d1]; exact_mod_cast f1 .d rfl rfl
  obtain ⟨l0, x0, y0⟩ := AZdd.react.code_light hs hu (n := 0) rfl rfl
  have e02 := l0.pole_sub (m := (c.mass .d)) (onShell_msq (hs 2)) (msq_t hb (plus (p 0) (backward (p 2))) (by simp)) c0
  have e03 := l0.pole_sub (m := (c.mass .d)) (onShell_msq (hs 3)) (msq_u hb (plus (p 0) (backward (p 3))) (by simp)) c1
  have m1 : AZdd.react.mass c 1 ≠ 0 := (leg_pos hc hh (by decide)).ne'
  have m2 : AZdd.react.mass c 2 ≠ 0 := (leg_pos hc hh (by decide)).ne'
  have m3 : AZdd.react.mass c 3 ≠ 0 := (leg_pos hc hh (by decide)).ne'
  have m0 : AZdd.react.mass c 0 = 0 := rfl
  have hd : AZdd.proc.divides = [(Ty.c, 0), (Ty.c, 1)] := by decide +kernel
  have stP : ∀ {z2 z3 : Pair} (b2 : Bold (p 2) (AZdd.react.mass c 2) z2) (b3 : Bold (p 3) (AZdd.react.mass c 3) z3) (t1 : Fin 3), comb t1 (fun a1 b1 => AZdd.formP (AZdd.N c p) p (legA (p 0) 0 0, legS (p 0) 0 1) (AZdd.react.codePair c p 1 a1) (AZdd.react.codePair c p 1 b1) z2 z3) = 1 * AZdd.react.bare c p 2 3 0 1 z2 z3 (lightE (legA (p 0) 0 0, legS (p 0) 0 1) 1) (AZdd.react.codeVec c p 1 t1) := by
    intro z2 z3 b2 b3 t1
    refine one_vector (p := p 1) (m := AZdd.react.mass c 1) (fun s => AZdd.react.codePair_bold hs h0 1 s) (B := fun x y => AZdd.formP (AZdd.N c p) p (legA (p 0) 0 0, legS (p 0) 0 1) x y z2 z3) (G := fun E => AZdd.react.bare c p 2 3 0 1 z2 z3 (lightE (legA (p 0) 0 0, legS (p 0) 0 1) 1) E) (fun x y z => ?_) (fun x y z => ?_) (AZdd.react.bare_lin₂ c p _ _ _ (by decide)) 1 (fun z1 b1 => ?_) t1
    · exact AZdd.formP_x1 ..
    · exact AZdd.formP_y1 ..
    · exact (light_plus (z := (legA (p 0) 0 0, legS (p 0) 0 1)) (G := fun E => AZdd.react.bare c p 2 3 0 1 z2 z3 E (pv z1.1 z1.2)) (AZdd.react.bare_lin₁ c p _ _ _ (by decide)) x0 (AZdd.keyP hc hb r8 r10 r11 d0 n0 d1 n1 b1 b2 b3 l0 e02 e03 (onShell_msq (hs 1)) (onShell_msq (hs 2)) (onShell_msq (hs 3)) _)).trans (mul_assoc _ _ _)
  have stM : ∀ {z2 z3 : Pair} (b2 : Bold (p 2) (AZdd.react.mass c 2) z2) (b3 : Bold (p 3) (AZdd.react.mass c 3) z3) (t1 : Fin 3), comb t1 (fun a1 b1 => AZdd.formM (AZdd.N c p) p (legA (p 0) 0 0, legS (p 0) 0 1) (AZdd.react.codePair c p 1 a1) (AZdd.react.codePair c p 1 b1) z2 z3) = 1 * AZdd.react.bare c p 2 3 0 1 z2 z3 (lightE (legA (p 0) 0 0, legS (p 0) 0 1) 0) (AZdd.react.codeVec c p 1 t1) := by
    intro z2 z3 b2 b3 t1
    refine one_vector (p := p 1) (m := AZdd.react.mass c 1) (fun s => AZdd.react.codePair_bold hs h0 1 s) (B := fun x y => AZdd.formM (AZdd.N c p) p (legA (p 0) 0 0, legS (p 0) 0 1) x y z2 z3) (G := fun E => AZdd.react.bare c p 2 3 0 1 z2 z3 (lightE (legA (p 0) 0 0, legS (p 0) 0 1) 0) E) (fun x y z => ?_) (fun x y z => ?_) (AZdd.react.bare_lin₂ c p _ _ _ (by decide)) 1 (fun z1 b1 => ?_) t1
    · exact AZdd.formM_x1 ..
    · exact AZdd.formM_y1 ..
    · exact (light_minus (z := (legA (p 0) 0 0, legS (p 0) 0 1)) (G := fun E => AZdd.react.bare c p 2 3 0 1 z2 z3 E (pv z1.1 z1.2)) (AZdd.react.bare_lin₁ c p _ _ _ (by decide)) y0 (AZdd.keyM hc hb r8 r10 r11 d0 n0 d1 n1 b1 b2 b3 l0 e02 e03 (onShell_msq (hs 1)) (onShell_msq (hs 2)) (onShell_msq (hs 3)) _)).trans (mul_assoc _ _ _)
  have amP : ∀ (s2 : Fin 2) (s3 : Fin 2) (t1 : Fin 3), Cls.AZdd.m_amp.mean (AZdd.N c p) (callMean (AZdd.N c p) []) .c [2, spinV t1, spinOf s2, spinOf s3] = 1 * AZdd.react.bare c p 2 3 0 1 (AZdd.react.codePair c p 2 s2) (AZdd.react.codePair c p 3 s3) (lightE (legA (p 0) 0 0, legS (p 0) 0 1) 1) (AZdd.react.codeVec c p 1 t1) := by
    intro s2 s3 t1
    rw [AZdd.ampP, ← stP (AZdd.react.codePair_bold hs h0 2 s2) (AZdd.react.codePair_bold hs h0 3 s3) t1]
    refine congrArg (comb t1) (funext fun a1 => funext fun b1 => ?_)
    have v10z0z0 : (AZdd.N c p).v 10 [] = mb (legA (p 0) 0 0, legS (p 0) 0 1).2 (p 2) (slashLower (p 3) *ᵥ (legA (p 0) 0 0, legS (p 0) 0 1).2) := bra_two_square (p := p) (m := AZdd.proc.massNum (AZdd.rho c)) (AZdd.mass_eq hc 0) (AZdd.mass_eq hc 0) (.inr ⟨m0, rfl⟩) (.inr ⟨m0, rfl⟩)
    have v6x1z3 : (AZdd.N c p).v 6 [spinOf a1, spinOf s3] = sb (AZdd.react.codePair c p 1 a1).2 (AZdd.react.codePair c p 3 s3).2 := bra_square (p := p) (m := AZdd.proc.massNum (AZdd.rho c)) (AZdd.mass_eq hc 1) (AZdd.mass_eq hc 3) (.inl ⟨m1, rfl⟩) (.inl ⟨m3, rfl⟩)
    have v3y1z2 : (AZdd.N c p).v 3 [spinOf b1, spinOf s2] = ab (AZdd.react.codePair c p 1 b1).1 (AZdd.react.codePair c p 2 s2).1 := bra_angle (p := p) (m := AZdd.proc.massNum (AZdd.rho c)) (AZdd.mass_eq hc 1) (AZdd.mass_eq hc 2) (.inl ⟨m1, rfl⟩) (.inl ⟨m2, rfl⟩)
    have v2x1z2 : (AZdd.N c p).v 2 [spinOf a1, spinOf s2] = sb (AZdd.react.codePair c p 1 a1).2 (AZdd.react.codePair c p 2 s2).2 := bra_square (p := p) (m := AZdd.proc.massNum (AZdd.rho c)) (AZdd.mass_eq hc 1) (AZdd.mass_eq hc 2) (.inl ⟨m1, rfl⟩) (.inl ⟨m2, rfl⟩)
    have v7y1z3 : (AZdd.N c p).v 7 [spinOf b1, spinOf s3] = ab (AZdd.react.codePair c p 1 b1).1 (AZdd.react.codePair c p 3 s3).1 := bra_angle (p := p) (m := AZdd.proc.massNum (AZdd.rho c)) (AZdd.mass_eq hc 1) (AZdd.mass_eq hc 3) (.inl ⟨m1, rfl⟩) (.inl ⟨m3, rfl⟩)
    have v0z0x1 : (AZdd.N c p).v 0 [spinOf a1] = sb (legA (p 0) 0 0, legS (p 0) 0 1).2 (AZdd.react.codePair c p 1 a1).2 := bra_square (p := p) (m := AZdd.proc.massNum (AZdd.rho c)) (AZdd.mass_eq hc 0) (AZdd.mass_eq hc 1) (.inr ⟨m0, rfl⟩) (.inl ⟨m1, rfl⟩)
    have v8z0z3 : (AZdd.N c p).v 8 [spinOf s3] = sb (legA (p 0) 0 0, legS (p 0) 0 1).2 (AZdd.react.codePair c p 3 s3).2 := bra_square (p := p) (m := AZdd.proc.massNum (AZdd.rho c)) (AZdd.mass_eq hc 0) (AZdd.mass_eq hc 3) (.inr ⟨m0, rfl⟩) (.inl ⟨m3, rfl⟩)
    have v4z0z2 : (AZdd.N c p).v 4 [spinOf s2] = sb (legA (p 0) 0 0, legS (p 0) 0 1).2 (AZdd.react.codePair c p 2 s2).2 := bra_square (p := p) (m := AZdd.proc.massNum (AZdd.rho c)) (AZdd.mass_eq hc 0) (AZdd.mass_eq hc 2) (.inr ⟨m0, rfl⟩) (.inl ⟨m2, rfl⟩)
    simp only [AZdd.termP, AZdd.formP, v10z0z0, v6x1z3, v3y1z2, v2x1z2, v7y1z3, v0z0x1, v8z0z3, v4z0z2]
    push_cast
    ring
  have amM : ∀ (s2 : Fin 2) (s3 : Fin 2) (t1 : Fin 3), Cls.AZdd.m_amp.mean (AZdd.N c p) (callMean (AZdd.N c p) []) .c [(-2), spinV t1, spinOf s2, spinOf s3] = 1 * AZdd.react.bare c p 2 3 0 1 (AZdd.react.codePair c p 2 s2) (AZdd.react.codePair c p 3 s3) (lightE (legA (p 0) 0 0, legS (p 0) 0 1) 0) (AZdd.react.codeVec c p 1 t1) := by
    intro s2 s3 t1
    rw [AZdd.ampM, ← stM (AZdd.react.codePair_bold hs h0 2 s2) (AZdd.react.codePair_bold hs h0 3 s3) t1]
    refine congrArg (comb t1) (funext fun a1 => funext fun b1 => ?_)
    have v11z0z0 : (AZdd.N c p).v 11 [] = mb (slashUpper (p 3) *ᵥ (legA (p 0) 0 0, legS (p 0) 0 1).1) (p 2) (legA (p 0) 0 0, legS (p 0) 0 1).1 := bra_two_angle (p := p) (m := AZdd.proc.massNum (AZdd.rho c)) (AZdd.mass_eq hc 0) (AZdd.mass_eq hc 0) (.inr ⟨m0, rfl⟩) (.inr ⟨m0, rfl⟩)
    have v6x1z3 : (AZdd.N c p).v 6 [spinOf a1, spinOf s3] = sb (AZdd.react.codePair c p 1 a1).2 (AZdd.react.codePair c p 3 s3).2 := bra_square (p := p) (m := AZdd.proc.massNum (AZdd.rho c)) (AZdd.mass_eq hc 1) (AZdd.mass_eq hc 3) (.inl ⟨m1, rfl⟩) (.inl ⟨m3, rfl⟩)
    have v3y1z2 : (AZdd.N c p).v 3 [spinOf b1, spinOf s2] = ab (AZdd.react.codePair c p 1 b1).1 (AZdd.react.codePair c p 2 s2).1 := bra_angle (p := p) (m := AZdd.proc.massNum (AZdd.rho c)) (AZdd.mass_eq hc 1) (AZdd.mass_eq hc 2) (.inl ⟨m1, rfl⟩) (.inl ⟨m2, rfl⟩)
    have v2x1z2 : (AZdd.N c p).v 2 [spinOf a1, spinOf s2] = sb (AZdd.react.codePair c p 1 a1).2 (AZdd.react.codePair c p 2 s2).2 := bra_square (p := p) (m := AZdd.proc.massNum (AZdd.rho c)) (AZdd.mass_eq hc 1) (AZdd.mass_eq hc 2) (.inl ⟨m1, rfl⟩) (.inl ⟨m2, rfl⟩)
    have v7y1z3 : (AZdd.N c p).v 7 [spinOf b1, spinOf s3] = ab (AZdd.react.codePair c p 1 b1).1 (AZdd.react.codePair c p 3 s3).1 := bra_angle (p := p) (m := AZdd.proc.massNum (AZdd.rho c)) (AZdd.mass_eq hc 1) (AZdd.mass_eq hc 3) (.inl ⟨m1, rfl⟩) (.inl ⟨m3, rfl⟩)
    have v1z0x1 : (AZdd.N c p).v 1 [spinOf a1] = ab (legA (p 0) 0 0, legS (p 0) 0 1).1 (AZdd.react.codePair c p 1 a1).1 := bra_angle (p := p) (m := AZdd.proc.massNum (AZdd.rho c)) (AZdd.mass_eq hc 0) (AZdd.mass_eq hc 1) (.inr ⟨m0, rfl⟩) (.inl ⟨m1, rfl⟩)
    have v9z0z3 : (AZdd.N c p).v 9 [spinOf s3] = ab (legA (p 0) 0 0, legS (p 0) 0 1).1 (AZdd.react.codePair c p 3 s3).1 := bra_angle (p := p) (m := AZdd.proc.massNum (AZdd.rho c)) (AZdd.mass_eq hc 0) (AZdd.mass_eq hc 3) (.inr ⟨m0, rfl⟩) (.inl ⟨m3, rfl⟩)
    have v2y1z2 : (AZdd.N c p).v 2 [spinOf b1, spinOf s2] = sb (AZdd.react.codePair c p 1 b1).2 (AZdd.react.codePair c p 2 s2).2 := bra_square (p := p) (m := AZdd.proc.massNum (AZdd.rho c)) (AZdd.mass_eq hc 1) (AZdd.mass_eq hc 2) (.inl ⟨m1, rfl⟩) (.inl ⟨m2, rfl⟩)
    have v5z0z2 : (AZdd.N c p).v 5 [spinOf s2] = ab (legA (p 0) 0 0, legS (p 0) 0 1).1 (AZdd.react.codePair c p 2 s2).1 := bra_angle (p := p) (m := AZdd.proc.massNum (AZdd.rho c)) (AZdd.mass_eq hc 0) (AZdd.mass_eq hc 2) (.inr ⟨m0, rfl⟩) (.inl ⟨m2, rfl⟩)
    have v6y1z3 : (AZdd.N c p).v 6 [spinOf b1, spinOf s3] = sb (AZdd.react.codePair c p 1 b1).2 (AZdd.react.codePair c p 3 s3).2 := bra_square (p := p) (m := AZdd.proc.massNum (AZdd.rho c)) (AZdd.mass_eq hc 1) (AZdd.mass_eq hc 3) (.inl ⟨m1, rfl⟩) (.inl ⟨m3, rfl⟩)
    simp only [AZdd.termM, AZdd.formM, v11z0z0, v6x1z3, v3y1z2, v2x1z2, v7y1z3, v1z0x1, v9z0z3, v2y1z2, v5z0z2, v6y1z3]
    push_cast
    ring
  refine ⟨n0, n1, fun n hn => ?_, fun n hn => ?_, ?_⟩
  · simp [hd] at hn
  · simp [hd] at hn
    rcases hn with rfl | rfl
    · exact n0
    · exact n1
  intro s2 s3 h0 t1
  match h0 with
  | 1 => exact norm_plus (amP s2 s3 t1)
  | 0 => exact norm_plus (amM s2 s3 t1)

variable [FPEnv] in
theorem AZdd.agrees : AZdd.Agrees := by
  refine agrees_of (D := [2, 3]) (E := [3]) (by simp [all, AZdd]) (by decide +kernel) (by decide) (by decide +kernel) (fun c hc hh => ⟨List.forall_mem_cons.2 ⟨hc.MW, List.forall_mem_cons.2 ⟨hc.SW, List.forall_mem_nil _⟩⟩, List.forall_mem_cons.2 ⟨hc.SW_lt, List.forall_mem_nil _⟩⟩) (fun c hc i => AZdd.mass_eq hc i) (by decide +kernel) ?_
  intro c p u ε hc hh hw h0 hs hb hr hu
  have he : AZdd.react.ends = [2] := by decide
  have ht : AZdd.react.starts = [3] := by decide
  have hB : AZdd.react.bosons = [0, 1] := by decide
  obtain ⟨n0, n1, d1, d2, am⟩ := AZdd.amps hc hh h0 hs hb hr hu
  refine ⟨d1, d2, ?_⟩
  show meaning (AZdd.N c p) .r Cls.AZdd.methods Cls.AZdd.amp2 [] = _
  have s0 : AZdd.react.states 0 = 2 := by decide +kernel
  have s1 : AZdd.react.states 1 = 3 := by decide +kernel
  have sy : AZdd.react.symmetry = 1 := by decide
  have p0 : AZdd.react.spins 0 = {0, 1} := rfl
  have p1 : AZdd.react.spins 1 = Finset.univ := rfl
  have p2 : AZdd.react.spins 2 = {0, 1} := rfl
  have p3 : AZdd.react.spins 3 = {0, 1} := rfl
  have E0 : AZdd.react.codeE c p 0 = lightE (legA (p 0) 0 0, legS (p 0) 0 1) := rfl
  have E1 : AZdd.react.codeE c p 1 = AZdd.react.codeVec c p 1 := rfl
  have hG : AZdd.react.Gauge c p := (AZdd.react.gauge_line he ht hB hh (by decide) (fun n => onShell_msq (hs n)) hb hr (fun n m h h2 => absurd (And.intro h h2) (by revert n m; decide)) (fun _ => ⟨rfl, rfl⟩) (fun h => absurd h (by decide)))
  have lc : AZdd.react.lineColours 2 3 = 3 := by decide +kernel
  rw [AZdd.value, AZdd.react.squared_line he ht hB (by decide) hs h0 (fun _ b _ hb _ => (boson_pos hc hh hb).ne') hG (E := AZdd.react.codeE c p) (fun n b hl => AZdd.react.codeE_polarised hs h0 hu (fun b hb => (boson_pos hc hh hb).ne') n b hl) hu, sum_colours, lc, s0, s1, sy]
  simp only [sumV_sum, sumJ_sum, sumW_sum, am, p0, p1, p2, p3, E0, E1, Finset.sum_singleton, sum_two, Matrix.cons_val_zero, Matrix.cons_val_one, Matrix.cons_val, two_castSucc]
  try simp only [← Finset.mul_sum]
  push_cast
  first | ring1 | ring_nf

/-! ### AZee -/

/-- what the methods of the class see -/
noncomputable abbrev AZee.N [FPEnv] (c : Constants) (p : Nat → V4 ℝ) : Env := AZee.proc.env (AZee.rho c) p
/-- the term that `amp` adds for a choice of spinors, for a photon of positive helicity (SM/AZee.cpp) -/
noncomputable def AZee.termP (N : Env) (w : ℝ) (x : ℂ) (a1 b1 j3 j4 : Int) : ℂ :=
  ((x + (((((((w * N.r 7) : ℝ) : ℂ) * N.v 10 []) * (((((N.r 10 : ℝ) : ℂ) * N.v 6 [a1, j4]) * N.v 3 [b1, j3]) + ((((N.r 9 : ℝ) : ℂ) * N.v 2 [a1, j3]) * N.v 7 [b1, j4]))) / N.c 0) / N.c 1)) + (((((w * N.r 7) : ℝ) : ℂ) * N.v 0 [a1]) * ((((((N.r 10 : ℝ) : ℂ) * N.v 8 [j4]) * N.v 3 [b1, j3]) / N.c 1) - (((((N.r 9 : ℝ) : ℂ) * N.v 4 [j3]) * N.v 7 [b1, j4]) / N.c 0))))
/-- the same with spinors in place of their spins -/
noncomputable def AZee.formP (N : Env) (p : Nat → V4 ℝ) (z0 x1 y1 z2 z3 : Pair) : ℂ :=
  ((0 + (((((((((1 : Nat) : ℝ) * N.r 7) : ℝ) : ℂ) * (mb z0.2 (p 2) (slashLower (p 3) *ᵥ z0.2))) * (((((N.r 10 : ℝ) : ℂ) * (sb x1.2 z3.2)) * (ab y1.1 z2.1)) + ((((N.r 9 : ℝ) : ℂ) * (sb x1.2 z2.2)) * (ab y1.1 z3.1)))) / N.c 0) / N.c 1)) + (((((((1 : Nat) : ℝ) * N.r 7) : ℝ) : ℂ) * (sb z0.2 x1.2)) * ((((((N.r 10 : ℝ) : ℂ) * (sb z0.2 z3.2)) * (ab y1.1 z2.1)) / N.c 1) - (((((N.r 9 : ℝ) : ℂ) * (sb z0.2 z2.2)) * (ab y1.1 z3.1)) / N.c 0))))
/-- the term that `amp` adds for a choice of spinors, for a photon of negative helicity (SM/AZee.cpp) -/
noncomputable def AZee.termM (N : Env) (w : ℝ) (x : ℂ) (a1 b1 j3 j4 : Int) : ℂ :=
  ((x + (((((((w * N.r 7) : ℝ) : ℂ) * N.v 11 []) * (((((N.r 10 : ℝ) : ℂ) * N.v 6 [a1, j4]) * N.v 3 [b1, j3]) + ((((N.r 9 : ℝ) : ℂ) * N.v 2 [a1, j3]) * N.v 7 [b1, j4]))) / N.c 0) / N.c 1)) + (((((w * N.r 7) : ℝ) : ℂ) * N.v 1 [a1]) * ((((((N.r 9 : ℝ) : ℂ) * N.v 9 [j4]) * N.v 2 [b1, j3]) / N.c 1) - (((((N.r 10 : ℝ) : ℂ) * N.v 5 [j3]) * N.v 6 [b1, j4]) / N.c 0))))
/-- the same with spinors in place of their spins -/
noncomputable def AZee.formM (N : Env) (p : Nat → V4 ℝ) (z0 x1 y1 z2 z3 : Pair) : ℂ :=
  ((0 + (((((((((1 : Nat) : ℝ) * N.r 7) : ℝ) : ℂ) * (mb (slashUpper (p 3) *ᵥ z0.1) (p 2) z0.1)) * (((((N.r 10 : ℝ) : ℂ) * (sb x1.2 z3.2)) * (ab y1.1 z2.1)) + ((((N.r 9 : ℝ) : ℂ) * (sb x1.2 z2.2)) * (ab y1.1 z3.1)))) / N.c 0) / N.c 1)) + (((((((1 : Nat) : ℝ) * N.r 7) : ℝ) : ℂ) * (ab z0.1 x1.1)) * ((((((N.r 9 : ℝ) : ℂ) * (ab z0.1 z3.1)) * (sb y1.2 z2.2)) / N.c 1) - (((((N.r 10 : ℝ) : ℂ) * (ab z0.1 z2.1)) * (sb y1.2 z3.2)) / N.c 0))))
theorem AZee.keyP {c : Constants} {p : Nat → V4 ℝ} {N : Env} (hc : c.Physical) (hb : Balanced p) (r7 : N.r 7 = (((((2 : Nat) : ℝ) * c.e) * c.e) / ((((2 : Nat) : ℝ) * c.MW) * c.SW))) (r9 : N.r 9 = (((((2 : Nat) : ℝ) * c.SW) * c.SW) - ((1 : Nat) : ℝ))) (r10 : N.r 10 = ((((2 : Nat) : ℝ) * c.SW) * c.SW)) (d0 : ((msq (plus (backward (p 3)) (p 1)) - c.mass .e ^ 2 : ℝ) : ℂ) = N.c 0) (n0 : N.c 0 ≠ 0) (d1 : ((msq (plus (backward (p 3)) (p 0)) - c.mass .e ^ 2 : ℝ) : ℂ) = N.c 1) (n1 : N.c 1 ≠ 0) {z0 z1 z2 z3 : Pair} (b1 : Bold (p 1) c.MZ z1) (b2 : Bold (p 2) (c.mass .e) z2) (b3 : Bold (p 3) (c.mass .e) z3) (l0 : Light (p 0) z0) (e02 : mb z0.2 (p 2) z0.1 = -N.c 0) (e03 : mb z0.2 (p 3) z0.1 = -N.c 1) (q1 : msq (p 1) = c.MZ ^ 2) (q2 : msq (p 2) = (c.mass .e) ^ 2) (q3 : msq (p 3) = (c.mass .e) ^ 2) (ρ0 : V2) :
    AZee.formP N p z0 z1 z1 z2 z3 * ab ρ0 z0.1 = ((√2 : ℝ) * ((-1 : ℂ) * ((√2 / c.MZ : ℝ) : ℂ))) * AZee.react.bare c p 2 3 0 1 z2 z3 (pv ρ0 z0.2) (pv z1.1 z1.2) := by
  rw [AZee.react.bare_parts c p (i := 2) (j := 3) (a := 0) (b := 1) (x := .photon) (y := .z) (k := (p 0)) (k' := (p 1)) (fun _ => rfl) (fun _ => rfl) (f := .e) (g := .e) rfl rfl (l := (backward (p 3))) rfl (e := 1) (e' := -1) (if_neg Bool.false_ne_true) (if_pos rfl)]
  rw [compton_vv (f := .e) (x := .e) (g := .e) (h := (rfl : Spec.after .photon Flavour.e = some Flavour.e)) (h' := (rfl : Spec.after .z Flavour.e = some Flavour.e)) (ha := by simp) (hb := by simp)]
  rw [compton_vv (f := .e) (x := .e) (g := .e) (h := (rfl : Spec.after .z Flavour.e = some Flavour.e)) (h' := (rfl : Spec.after .photon Flavour.e = some Flavour.e)) (ha := by simp) (hb := by simp)]
  rw [annihilation_none c _ _ (by rfl) (by simp), star_zero, add_zero, AZee.formP]
  simp only [d0, d1, lineV_pv, lineV_four, contract_four_pv, contract_pv, mb_plus, mb_backward]
  have i0 := chain_square z0.1 z2.1 z0.2 (p 2) (p 3) z0.2
  have i1 := mb_schouten_left z0.2 z1.2 z3.2 (p 1) z2.1
  have i2 := mb_schouten_right z0.2 (p 2) z0.1 z1.1 ρ0
  have i3 := chain_square z0.1 z1.1 z0.2 (p 2) (p 3) z0.2
  have i4 := ab_schouten z1.1 z2.1 ρ0 z0.1
  have i5 := mb_schouten_left z0.2 z1.2 z3.2 (p 2) z1.1
  have i6 := ab_schouten z2.1 z3.1 ρ0 z1.1
  have i7 := sb_schouten z1.2 z2.2 z3.2 z0.2
  have i8 := mb_schouten_right z1.2 (p 2) z0.1 z1.1 z2.1
  have i9 := mb_schouten_right z0.2 (p 2) z0.1 z2.1 ρ0
  have i10 := ab_schouten z1.1 z3.1 ρ0 z0.1
  have i11 := mb_schouten_right z0.2 (p 1) z0.1 z1.1 ρ0
  have i12 := chain_square z0.1 z3.1 z0.2 (p 2) (p 3) z0.2
  have i13 := mb_schouten_right z1.2 (p 2) z0.1 z2.1 ρ0
  have i14 := mb_schouten_right z0.2 (p 2) z1.1 z2.1 ρ0
  have i15 := mb_schouten_right z1.2 (p 2) z0.1 z1.1 ρ0
  have i16 := mb_schouten_right z0.2 (p 2) z0.1 z1.1 z2.1
  have i17 := mb_schouten_right z1.2 (p 2) z0.1 z3.1 ρ0
  have i18 := mb_schouten_right z0.2 (p 2) z0.1 z1.1 z3.1
  have i19 := mb_schouten_right z0.2 (p 1) z0.1 z1.1 z3.1
  have i20 := mb_schouten_right z0.2 (p 1) z1.1 z3.1 ρ0
  have i21 := mb_schouten_left z0.2 z1.2 z2.2 (p 1) z3.1
  have i22 := mb_schouten_right z0.2 (p 2) z1.1 z3.1 ρ0
  have i23 := mb_schouten_right z1.2 (p 2) z0.1 z1.1 z3.1
  have i24 := mb_schouten_right z0.2 (p 2) z0.1 z3.1 ρ0
  have i25 := mb_schouten_right z0.2 (p 1) z0.1 z3.1 ρ0
  have i26 := mb_schouten_left z0.2 z1.2 z2.2 (p 2) z1.1
  simp only [l0.mb_eq, b1.mb_left, b1.mb_right, b2.mb_left, b2.mb_right, b3.mb_left, b3.mb_right, e02, e03, mb_one hb z0.2 z0.1, mb_three hb z0.2 z1.1, mb_three hb z0.2 z2.1, mb_two hb z0.2 z3.1, mb_three hb z0.2 ρ0, mb_three hb z1.2 z0.1, mb_three hb z1.2 z1.1, mb_three hb z1.2 z2.1, mb_two hb z1.2 z3.1, mb_three hb z1.2 ρ0, mb_three hb z2.2 z0.1, mb_three hb z2.2 z1.1, mb_three hb z2.2 z2.1, mb_one hb z2.2 z3.1, mb_three hb z2.2 ρ0, mb_two hb z3.2 z0.1, mb_two hb z3.2 z1.1, mb_one hb z3.2 z2.1, mb_two hb z3.2 z3.1, mb_two hb z3.2 ρ0, ab_self, sb_self] at i0 i1 i2 i3 i4 i5 i6 i7 i8 i9 i10 i11 i12 i13 i14 i15 i16 i17 i18 i19 i20 i21 i22 i23 i24 i25 i26 ⊢
  simp only [ab_swap z0.1 z1.1, ab_swap z0.1 z2.1, ab_swap z0.1 z3.1, ab_swap z0.1 ρ0, ab_swap z1.1 z2.1, ab_swap z1.1 z3.1, ab_swap z1.1 ρ0, ab_swap z2.1 z3.1, ab_swap z2.1 ρ0, ab_swap z3.1 ρ0, sb_swap z0.2 z1.2, sb_swap z0.2 z2.2, sb_swap z0.2 z3.2, sb_swap z1.2 z2.2, sb_swap z1.2 z3.2, sb_swap z2.2 z3.2] at i0 i1 i2 i3 i4 i5 i6 i7 i8 i9 i10 i11 i12 i13 i14 i15 i16 i17 i18 i19 i20 i21 i22 i23 i24 i25 i26 ⊢
  simp only [r7, r9, r10, Constants.hL, Constants.hR, Constants.gL, Constants.gR, Constants.yuk, Constants.invVev, Flavour.charge_e, Flavour.isospin_e, ← c.mz]
  have xMW : (c.MW : ℂ) ≠ 0 := by exact_mod_cast hc.MW
  have xSW : (c.SW : ℂ) ≠ 0 := by exact_mod_cast hc.SW
  have xCW : (c.CW : ℂ) ≠ 0 := by exact_mod_cast hc.CW
  have x2 : ((√2 : ℝ) : ℂ) ≠ 0 := by exact_mod_cast (Real.sqrt_pos.2 two_pos).ne'
  have x22 : ((√2 : ℝ) : ℂ) ^ 2 = 2 := by rw [← Complex.ofReal_pow, Real.sq_sqrt two_pos.le]; norm_num
  have x23 : ((√2 : ℝ) : ℂ) ^ 3 = 2 * ((√2 : ℝ) : ℂ) := by rw [← x22]; ring
  have x24 : ((√2 : ℝ) : ℂ) ^ 4 = 4 := by linear_combination (((√2 : ℝ) : ℂ) ^ 2 + 2) * x22
  try simp only [← c.mz] at i0 i1 i2 i3 i4 i5 i6 i7 i8 i9 i10 i11 i12 i13 i14 i15 i16 i17 i18 i19 i20 i21 i22 i23 i24 i25 i26
  push_cast at i0 i1 i2 i3 i4 i5 i6 i7 i8 i9 i10 i11 i12 i13 i14 i15 i16 i17 i18 i19 i20 i21 i22 i23 i24 i25 i26 ⊢
  simp only [div_eq_mul_inv, mul_inv, inv_inv] at i0 i1 i2 i3 i4 i5 i6 i7 i8 i9 i10 i11 i12 i13 i14 i15 i16 i17 i18 i19 i20 i21 i22 i23 i24 i25 i26 ⊢
  have y0 := mul_inv_cancel₀ n0
  have y1 := mul_inv_cancel₀ n1
  have yCW := mul_inv_cancel₀ xCW
  have yMW := mul_inv_cancel₀ xMW
  have ySW := mul_inv_cancel₀ xSW
  linear_combination ((((-2) * ((c.SW : ℂ)) ^ 2 * ((c.e : ℂ)) ^ 2 * (ab z1.1 ρ0) * (sb z1.2 z3.2)) * i0 + ((-2) * ((c.SW : ℂ)) ^ 2 * ((c.e : ℂ)) ^ 2 * (N.c 0) * (ab z1.1 ρ0)) * i1 + ((2) * ((c.MW : ℂ)) * ((c.SW : ℂ)) ^ 2 * ((c.e : ℂ)) ^ 2 * ((c.CW : ℂ)⁻¹) * (ab z1.1 z3.1) * (sb z0.2 z2.2) + (-1) * ((c.MW : ℂ)) * ((c.e : ℂ)) ^ 2 * ((c.CW : ℂ)⁻¹) * (ab z1.1 z3.1) * (sb z0.2 z2.2) + (-2) * ((c.SW : ℂ)) ^ 2 * ((c.e : ℂ)) ^ 2 * ((c.mass .e : ℂ)) * (sb z0.2 z1.2) * (sb z2.2 z3.2) + (4) * ((c.SW : ℂ)) ^ 2 * ((c.e : ℂ)) ^ 2 * ((c.mass .e : ℂ)) * (sb z0.2 z2.2) * (sb z1.2 z3.2) + (-2) * ((c.SW : ℂ)) ^ 2 * ((c.e : ℂ)) ^ 2 * (ab z0.1 z3.1) * (sb z0.2 z1.2) * (sb z0.2 z2.2) + (-1) * ((c.e : ℂ)) ^ 2 * ((c.mass .e : ℂ)) * (sb z0.2 z2.2) * (sb z1.2 z3.2) + (1) * ((c.e : ℂ)) ^ 2 * (ab z0.1 z3.1) * (sb z0.2 z1.2) * (sb z0.2 z2.2)) * i2 + ((2) * ((c.SW : ℂ)) ^ 2 * ((c.e : ℂ)) ^ 2 * (ab z2.1 ρ0) * (sb z1.2 z3.2) + (2) * ((c.SW : ℂ)) ^ 2 * ((c.e : ℂ)) ^ 2 * (ab z3.1 ρ0) * (sb z1.2 z2.2) + (-1) * ((c.e : ℂ)) ^ 2 * (ab z3.1 ρ0) * (sb z1.2 z2.2)) * i3 + ((-2) * ((c.SW : ℂ)) ^ 2 * ((c.e : ℂ)) ^ 2 * (N.c 0) * (sb z0.2 z1.2) * (sb z0.2 z3.2) + (-2) * ((c.SW : ℂ)) ^ 2 * ((c.e : ℂ)) ^ 2 * ((mb z0.2 (p 2) (slashLower (p 3) *ᵥ z0.2))) * (sb z1.2 z3.2)) * i4 + ((-2) * ((c.SW : ℂ)) ^ 2 * ((c.e : ℂ)) ^ 2 * (N.c 0) * (ab z2.1 ρ0)) * i5 + ((-2) * ((c.SW : ℂ)) ^ 2 * ((c.e : ℂ)) ^ 2 * ((c.mass .e : ℂ)) * (N.c 0) * (sb z0.2 z1.2) + (-2) * ((c.SW : ℂ)) ^ 2 * ((c.e : ℂ)) ^ 2 * ((c.mass .e : ℂ)) * (N.c 1) * (sb z0.2 z1.2) + (1) * ((c.e : ℂ)) ^ 2 * ((c.mass .e : ℂ)) * (N.c 1) * (sb z0.2 z1.2)) * i6 + ((2) * ((c.SW : ℂ)) ^ 2 * ((c.e : ℂ)) ^ 2 * ((c.mass .e : ℂ)) * (N.c 1) * (ab z1.1 ρ0) + (2) * ((c.SW : ℂ)) ^ 2 * ((c.e : ℂ)) ^ 2 * ((c.mass .e : ℂ)) * (ab z0.1 z1.1) * (mb z0.2 (p 2) ρ0) + (-2) * ((c.SW : ℂ)) ^ 2 * ((c.e : ℂ)) ^ 2 * ((c.mass .e : ℂ)) * (ab z0.1 ρ0) * (mb z0.2 (p 2) z1.1) + (-1) * ((c.e : ℂ)) ^ 2 * ((c.mass .e : ℂ)) * (N.c 1) * (ab z1.1 ρ0)) * i7 + ((2) * ((c.SW : ℂ)) ^ 2 * ((c.e : ℂ)) ^ 2 * (mb z0.2 (p 2) ρ0) * (sb z0.2 z3.2)) * i8 + ((2) * ((c.SW : ℂ)) ^ 2 * ((c.e : ℂ)) ^ 2 * (mb z1.2 (p 2) z1.1) * (sb z0.2 z3.2)) * i9 + ((-2) * ((c.SW : ℂ)) ^ 2 * ((c.e : ℂ)) ^ 2 * ((mb z0.2 (p 2) (slashLower (p 3) *ᵥ z0.2))) * (sb z1.2 z2.2) + (1) * ((c.e : ℂ)) ^ 2 * ((mb z0.2 (p 2) (slashLower (p 3) *ᵥ z0.2))) * (sb z1.2 z2.2)) * i10 + ((-2) * ((c.MW : ℂ)) * ((c.SW : ℂ)) ^ 2 * ((c.e : ℂ)) ^ 2 * ((c.CW : ℂ)⁻¹) * (ab z1.1 z3.1) * (sb z0.2 z2.2) + (1) * ((c.MW : ℂ)) * ((c.e : ℂ)) ^ 2 * ((c.CW : ℂ)⁻¹) * (ab z1.1 z3.1) * (sb z0.2 z2.2) + (-2) * ((c.SW : ℂ)) ^ 2 * ((c.e : ℂ)) ^ 2 * ((c.mass .e : ℂ)) * (sb z0.2 z2.2) * (sb z1.2 z3.2) + (2) * ((c.SW : ℂ)) ^ 2 * ((c.e : ℂ)) ^ 2 * (ab z0.1 z3.1) * (sb z0.2 z1.2) * (sb z0.2 z2.2) + (1) * ((c.e : ℂ)) ^ 2 * ((c.mass .e : ℂ)) * (sb z0.2 z2.2) * (sb z1.2 z3.2) + (-1) * ((c.e : ℂ)) ^ 2 * (ab z0.1 z3.1) * (sb z0.2 z1.2) * (sb z0.2 z2.2)) * i11 + ((-2) * ((c.SW : ℂ)) ^ 2 * ((c.e : ℂ)) ^ 2 * (ab z1.1 ρ0) * (sb z1.2 z2.2) + (1) * ((c.e : ℂ)) ^ 2 * (ab z1.1 ρ0) * (sb z1.2 z2.2)) * i12 + ((2) * ((c.SW : ℂ)) ^ 2 * ((c.e : ℂ)) ^ 2 * (mb z0.2 (p 2) z1.1) * (sb z0.2 z3.2)) * i13 + ((-2) * ((c.SW : ℂ)) ^ 2 * ((c.e : ℂ)) ^ 2 * (mb z1.2 (p 2) z0.1) * (sb z0.2 z3.2)) * i14 + ((4) * ((c.SW : ℂ)) ^ 2 * ((c.e : ℂ)) ^ 2 * ((c.mass .e : ℂ)) * (sb z0.2 z2.2) * (sb z0.2 z3.2) + (-1) * ((c.e : ℂ)) ^ 2 * ((c.mass .e : ℂ)) * (sb z0.2 z2.2) * (sb z0.2 z3.2)) * i15 + ((2) * ((c.SW : ℂ)) ^ 2 * ((c.e : ℂ)) ^ 2 * (mb z1.2 (p 2) ρ0) * (sb z0.2 z3.2)) * i16 + ((-2) * ((c.MW : ℂ)) * ((c.SW : ℂ)) ^ 2 * ((c.e : ℂ)) ^ 2 * ((c.CW : ℂ)⁻¹) * (sb z0.2 z1.2) * (sb z0.2 z2.2) + (1) * ((c.MW : ℂ)) * ((c.e : ℂ)) ^ 2 * ((c.CW : ℂ)⁻¹) * (sb z0.2 z1.2) * (sb z0.2 z2.2) + (-2) * ((c.SW : ℂ)) ^ 2 * ((c.e : ℂ)) ^ 2 * (mb z0.2 (p 2) z1.1) * (sb z0.2 z2.2) + (1) * ((c.e : ℂ)) ^ 2 * (mb z0.2 (p 2) z1.1) * (sb z0.2 z2.2)) * i17 + ((-2) * ((c.SW : ℂ)) ^ 2 * ((c.e : ℂ)) ^ 2 * (mb z1.2 (p 2) ρ0) * (sb z0.2 z2.2) + (1) * ((c.e : ℂ)) ^ 2 * (mb z1.2 (p 2) ρ0) * (sb z0.2 z2.2)) * i18 + ((2) * ((c.SW : ℂ)) ^ 2 * ((c.e : ℂ)) ^ 2 * (mb z1.2 (p 2) ρ0) * (sb z0.2 z2.2) + (-1) * ((c.e : ℂ)) ^ 2 * (mb z1.2 (p 2) ρ0) * (sb z0.2 z2.2)) * i19 + ((-2) * ((c.SW : ℂ)) ^ 2 * ((c.e : ℂ)) ^ 2 * (mb z1.2 (p 2) z0.1) * (sb z0.2 z2.2) + (1) * ((c.e : ℂ)) ^ 2 * (mb z1.2 (p 2) z0.1) * (sb z0.2 z2.2)) * i20 + ((2) * ((c.SW : ℂ)) ^ 2 * ((c.e : ℂ)) ^ 2 * (N.c 1) * (ab z1.1 ρ0) + (-1) * ((c.e : ℂ)) ^ 2 * (N.c 1) * (ab z1.1 ρ0)) * i21 + ((2) * ((c.SW : ℂ)) ^ 2 * ((c.e : ℂ)) ^ 2 * (mb z1.2 (p 2) z0.1) * (sb z0.2 z2.2) + (-1) * ((c.e : ℂ)) ^ 2 * (mb z1.2 (p 2) z0.1) * (sb z0.2 z2.2)) * i22 + ((2) * ((c.SW : ℂ)) ^ 2 * ((c.e : ℂ)) ^ 2 * (mb z0.2 (p 1) ρ0) * (sb z0.2 z2.2) + (-2) * ((c.SW : ℂ)) ^ 2 * ((c.e : ℂ)) ^ 2 * (mb z0.2 (p 2) ρ0) * (sb z0.2 z2.2) + (-1) * ((c.e : ℂ)) ^ 2 * (mb z0.2 (p 1) ρ0) * (sb z0.2 z2.2) + (1) * ((c.e : ℂ)) ^ 2 * (mb z0.2 (p 2) ρ0) * (sb z0.2 z2.2)) * i23 + ((-2) * ((c.SW : ℂ)) ^ 2 * ((c.e : ℂ)) ^ 2 * (mb z1.2 (p 2) z1.1) * (sb z0.2 z2.2) + (1) * ((c.e : ℂ)) ^ 2 * (mb z1.2 (p 2) z1.1) * (sb z0.2 z2.2)) * i24 + ((2) * ((c.SW : ℂ)) ^ 2 * ((c.e : ℂ)) ^ 2 * (mb z1.2 (p 2) z1.1) * (sb z0.2 z2.2) + (-1) * ((c.e : ℂ)) ^ 2 * (mb z1.2 (p 2) z1.1) * (sb z0.2 z2.2)) * i25 + ((-2) * ((c.SW : ℂ)) ^ 2 * ((c.e : ℂ)) ^ 2 * (N.c 1) * (ab z3.1 ρ0) + (1) * ((c.e : ℂ)) ^ 2 * (N.c 1) * (ab z3.1 ρ0)) * i26)) * ((1) * ((c.CW : ℂ)) * ((c.CW : ℂ)⁻¹) * ((c.MW : ℂ)⁻¹) * ((c.SW : ℂ)⁻¹) * ((N.c 0)⁻¹) * ((N.c 1)⁻¹)) + ((-2) * ((c.CW : ℂ)) * ((c.MW : ℂ)) * ((c.SW : ℂ)) ^ 2 * ((c.e : ℂ)) ^ 2 * ((c.CW : ℂ)⁻¹) ^ 2 * ((c.MW : ℂ)⁻¹) * ((c.SW : ℂ)⁻¹) * ((N.c 1)⁻¹) * (ab z1.1 z2.1) * (ab z1.1 ρ0) * (sb z0.2 z3.2) + (-2) * ((c.CW : ℂ)) * ((c.MW : ℂ)) * ((c.SW : ℂ)) ^ 2 * ((c.e : ℂ)) ^ 2 * ((c.CW : ℂ)⁻¹) ^ 2 * ((c.MW : ℂ)⁻¹) * ((c.SW : ℂ)⁻¹) * ((N.c 1)⁻¹) * (ab z3.1 ρ0) * (sb z0.2 z1.2) * (sb z1.2 z2.2) + (1) * ((c.CW : ℂ)) * ((c.MW : ℂ)) * ((c.e : ℂ)) ^ 2 * ((c.CW : ℂ)⁻¹) ^ 2 * ((c.MW : ℂ)⁻¹) * ((c.SW : ℂ)⁻¹) * ((N.c 1)⁻¹) * (ab z3.1 ρ0) * (sb z0.2 z1.2) * (sb z1.2 z2.2) + (2) * ((c.CW : ℂ)) * ((c.SW : ℂ)) ^ 2 * ((c.e : ℂ)) ^ 2 * ((c.CW : ℂ)⁻¹) * ((c.MW : ℂ)⁻¹) * ((c.SW : ℂ)⁻¹) * ((c.mass .e : ℂ)) * ((N.c 1)⁻¹) * (ab z1.1 z2.1) * (ab z3.1 ρ0) * (sb z0.2 z1.2) + (2) * ((c.CW : ℂ)) * ((c.SW : ℂ)) ^ 2 * ((c.e : ℂ)) ^ 2 * ((c.CW : ℂ)⁻¹) * ((c.MW : ℂ)⁻¹) * ((c.SW : ℂ)⁻¹) * ((c.mass .e : ℂ)) * ((N.c 1)⁻¹) * (ab z1.1 ρ0) * (sb z0.2 z3.2) * (sb z1.2 z2.2) + (2) * ((c.CW : ℂ)) * ((c.SW : ℂ)) ^ 2 * ((c.e : ℂ)) ^ 2 * ((c.CW : ℂ)⁻¹) * ((c.MW : ℂ)⁻¹) * ((c.SW : ℂ)⁻¹) * ((N.c 1)⁻¹) * (ab z0.1 ρ0) * (ab z1.1 z2.1) * (sb z0.2 z1.2) * (sb z0.2 z3.2) + (2) * ((c.CW : ℂ)) * ((c.SW : ℂ)) ^ 2 * ((c.e : ℂ)) ^ 2 * ((c.CW : ℂ)⁻¹) * ((c.MW : ℂ)⁻¹) * ((c.SW : ℂ)⁻¹) * ((N.c 1)⁻¹) * (ab z1.1 z2.1) * (mb z1.2 (p 2) ρ0) * (sb z0.2 z3.2) + (-2) * ((c.CW : ℂ)) * ((c.SW : ℂ)) ^ 2 * ((c.e : ℂ)) ^ 2 * ((c.CW : ℂ)⁻¹) * ((c.MW : ℂ)⁻¹) * ((c.SW : ℂ)⁻¹) * ((N.c 1)⁻¹) * (ab z3.1 ρ0) * (mb z0.2 (p 2) z1.1) * (sb z1.2 z2.2) + (-1) * ((c.CW : ℂ)) * ((c.e : ℂ)) ^ 2 * ((c.CW : ℂ)⁻¹) * ((c.MW : ℂ)⁻¹) * ((c.SW : ℂ)⁻¹) * ((c.mass .e : ℂ)) * ((N.c 1)⁻¹) * (ab z1.1 ρ0) * (sb z0.2 z3.2) * (sb z1.2 z2.2) + (1) * ((c.CW : ℂ)) * ((c.e : ℂ)) ^ 2 * ((c.CW : ℂ)⁻¹) * ((c.MW : ℂ)⁻¹) * ((c.SW : ℂ)⁻¹) * ((N.c 1)⁻¹) * (ab z3.1 ρ0) * (mb z0.2 (p 2) z1.1) * (sb z1.2 z2.2)) * y0 + ((-2) * ((c.CW : ℂ)) * ((c.SW : ℂ)) ^ 2 * ((c.e : ℂ)) ^ 2 * ((c.CW : ℂ)⁻¹) * ((c.MW : ℂ)⁻¹) * ((c.SW : ℂ)⁻¹) * ((c.mass .e : ℂ)) * ((N.c 0)⁻¹) * (ab z1.1 z3.1) * (ab z2.1 ρ0) * (sb z0.2 z1.2) + (-2) * ((c.CW : ℂ)) * ((c.SW : ℂ)) ^ 2 * ((c.e : ℂ)) ^ 2 * ((c.CW : ℂ)⁻¹) * ((c.MW : ℂ)⁻¹) * ((c.SW : ℂ)⁻¹) * ((c.mass .e : ℂ)) * ((N.c 0)⁻¹) * (ab z1.1 ρ0) * (sb z0.2 z2.2) * (sb z1.2 z3.2) + (2) * ((c.CW : ℂ)) * ((c.SW : ℂ)) ^ 2 * ((c.e : ℂ)) ^ 2 * ((c.CW : ℂ)⁻¹) * ((c.MW : ℂ)⁻¹) * ((c.SW : ℂ)⁻¹) * ((N.c 0)⁻¹) * (ab z1.1 z3.1) * (mb z1.2 (p 2) ρ0) * (sb z0.2 z2.2) + (-2) * ((c.CW : ℂ)) * ((c.SW : ℂ)) ^ 2 * ((c.e : ℂ)) ^ 2 * ((c.CW : ℂ)⁻¹) * ((c.MW : ℂ)⁻¹) * ((c.SW : ℂ)⁻¹) * ((N.c 0)⁻¹) * (ab z2.1 ρ0) * (mb z0.2 (p 2) z1.1) * (sb z1.2 z3.2) + (1) * ((c.CW : ℂ)) * ((c.e : ℂ)) ^ 2 * ((c.CW : ℂ)⁻¹) * ((c.MW : ℂ)⁻¹) * ((c.SW : ℂ)⁻¹) * ((c.mass .e : ℂ)) * ((N.c 0)⁻¹) * (ab z1.1 z3.1) * (ab z2.1 ρ0) * (sb z0.2 z1.2) + (-1) * ((c.CW : ℂ)) * ((c.e : ℂ)) ^ 2 * ((c.CW : ℂ)⁻¹) * ((c.MW : ℂ)⁻¹) * ((c.SW : ℂ)⁻¹) * ((N.c 0)⁻¹) * (ab z1.1 z3.1) * (mb z1.2 (p 2) ρ0) * (sb z0.2 z2.2)) * y1 + ((1) * ((c.MW : ℂ)) * (((√2 : ℝ) : ℂ)) ^ 2 * ((c.SW : ℂ)) ^ 2 * ((c.e : ℂ)) ^ 2 * ((c.CW : ℂ)⁻¹) * ((c.MW : ℂ)⁻¹) * ((c.SW : ℂ)⁻¹) * ((N.c 1)⁻¹) * (ab z1.1 z2.1) * (ab z1.1 ρ0) * (sb z0.2 z3.2) + (1) * ((c.MW : ℂ)) * (((√2 : ℝ) : ℂ)) ^ 2 * ((c.SW : ℂ)) ^ 2 * ((c.e : ℂ)) ^ 2 * ((c.CW : ℂ)⁻¹) * ((c.MW : ℂ)⁻¹) * ((c.SW : ℂ)⁻¹) * ((N.c 1)⁻¹) * (ab z3.1 ρ0) * (sb z0.2 z1.2) * (sb z1.2 z2.2) + (-1) * ((c.MW : ℂ)) * (((√2 : ℝ) : ℂ)) ^ 2 * ((c.e : ℂ)) ^ 2 * ((c.CW : ℂ)⁻¹) * ((c.MW : ℂ)⁻¹) * ((c.SW : ℂ)⁻¹) * ((N.c 1)⁻¹) * (ab z3.1 ρ0) * (sb z0.2 z1.2) * (sb z1.2 z2.2) / (2) + (-2) * ((c.MW : ℂ)) * ((c.SW : ℂ)) ^ 2 * ((c.e : ℂ)) ^ 2 * ((c.CW : ℂ)⁻¹) * ((c.MW : ℂ)⁻¹) * ((c.SW : ℂ)⁻¹) * ((N.c 1)⁻¹) * (ab z1.1 z2.1) * (ab z1.1 ρ0) * (sb z0.2 z3.2) + (-2) * ((c.MW : ℂ)) * ((c.SW : ℂ)) ^ 2 * ((c.e : ℂ)) ^ 2 * ((c.CW : ℂ)⁻¹) * ((c.MW : ℂ)⁻¹) * ((c.SW : ℂ)⁻¹) * ((N.c 1)⁻¹) * (ab z3.1 ρ0) * (sb z0.2 z1.2) * (sb z1.2 z2.2) + (1) * ((c.MW : ℂ)) * ((c.e : ℂ)) ^ 2 * ((c.CW : ℂ)⁻¹) * ((c.MW : ℂ)⁻¹) * ((c.SW : ℂ)⁻¹) * ((N.c 1)⁻¹) * (ab z3.1 ρ0) * (sb z0.2 z1.2) * (sb z1.2 z2.2) + (1) * (((√2 : ℝ) : ℂ)) ^ 2 * ((c.SW : ℂ)) ^ 2 * ((c.e : ℂ)) ^ 2 * ((c.MW : ℂ)⁻¹) * ((c.SW : ℂ)⁻¹) * ((c.mass .e : ℂ)) * ((N.c 0)⁻¹) * (ab z1.1 z3.1) * (ab z2.1 ρ0) * (sb z0.2 z1.2) + (1) * (((√2 : ℝ) : ℂ)) ^ 2 * ((c.SW : ℂ)) ^ 2 * ((c.e : ℂ)) ^ 2 * ((c.MW : ℂ)⁻¹) * ((c.SW : ℂ)⁻¹) * ((c.mass .e : ℂ)) * ((N.c 0)⁻¹) * (ab z1.1 ρ0) * (sb z0.2 z2.2) * (sb z1.2 z3.2) + (-1) * (((√2 : ℝ) : ℂ)) ^ 2 * ((c.SW : ℂ)) ^ 2 * ((c.e : ℂ)) ^ 2 * ((c.MW : ℂ)⁻¹) * ((c.SW : ℂ)⁻¹) * ((c.mass .e : ℂ)) * ((N.c 1)⁻¹) * (ab z1.1 z2.1) * (ab z3.1 ρ0) * (sb z0.2 z1.2) + (-1) * (((√2 : ℝ) : ℂ)) ^ 2 * ((c.SW : ℂ)) ^ 2 * ((c.e : ℂ)) ^ 2 * ((c.MW : ℂ)⁻¹) * ((c.SW : ℂ)⁻¹) * ((c.mass .e : ℂ)) * ((N.c 1)⁻¹) * (ab z1.1 ρ0) * (sb z0.2 z3.2) * (sb z1.2 z2.2) + (-1) * (((√2 : ℝ) : ℂ)) ^ 2 * ((c.SW : ℂ)) ^ 2 * ((c.e : ℂ)) ^ 2 * ((c.MW : ℂ)⁻¹) * ((c.SW : ℂ)⁻¹) * ((N.c 0)⁻¹) * (ab z0.1 ρ0) * (ab z1.1 z3.1) * (sb z0.2 z1.2) * (sb z0.2 z2.2) + (-1) * (((√2 : ℝ) : ℂ)) ^ 2 * ((c.SW : ℂ)) ^ 2 * ((c.e : ℂ)) ^ 2 * ((c.MW : ℂ)⁻¹) * ((c.SW : ℂ)⁻¹) * ((N.c 0)⁻¹) * (ab z1.1 z3.1) * (mb z1.2 (p 2) ρ0) * (sb z0.2 z2.2) + (1) * (((√2 : ℝ) : ℂ)) ^ 2 * ((c.SW : ℂ)) ^ 2 * ((c.e : ℂ)) ^ 2 * ((c.MW : ℂ)⁻¹) * ((c.SW : ℂ)⁻¹) * ((N.c 0)⁻¹) * (ab z2.1 ρ0) * (mb z0.2 (p 2) z1.1) * (sb z1.2 z3.2) + (-1) * (((√2 : ℝ) : ℂ)) ^ 2 * ((c.SW : ℂ)) ^ 2 * ((c.e : ℂ)) ^ 2 * ((c.MW : ℂ)⁻¹) * ((c.SW : ℂ)⁻¹) * ((N.c 1)⁻¹) * (ab z1.1 z2.1) * (mb z1.2 (p 2) ρ0) * (sb z0.2 z3.2) + (1) * (((√2 : ℝ) : ℂ)) ^ 2 * ((c.SW : ℂ)) ^ 2 * ((c.e : ℂ)) ^ 2 * ((c.MW : ℂ)⁻¹) * ((c.SW : ℂ)⁻¹) * ((N.c 1)⁻¹) * (ab z3.1 ρ0) * (mb z0.2 (p 2) z1.1) * (sb z1.2 z2.2) + (-1) * (((√2 : ℝ) : ℂ)) ^ 2 * ((c.e : ℂ)) ^ 2 * ((c.MW : ℂ)⁻¹) * ((c.SW : ℂ)⁻¹) * ((c.mass .e : ℂ)) * ((N.c 0)⁻¹) * (ab z1.1 z3.1) * (ab z2.1 ρ0) * (sb z0.2 z1.2) / (2) + (1) * (((√2 : ℝ) : ℂ)) ^ 2 * ((c.e : ℂ)) ^ 2 * ((c.MW : ℂ)⁻¹) * ((c.SW : ℂ)⁻¹) * ((c.mass .e : ℂ)) * ((N.c 1)⁻¹) * (ab z1.1 ρ0) * (sb z0.2 z3.2) * (sb z1.2 z2.2) / (2) + (1) * (((√2 : ℝ) : ℂ)) ^ 2 * ((c.e : ℂ)) ^ 2 * ((c.MW : ℂ)⁻¹) * ((c.SW : ℂ)⁻¹) * ((N.c 0)⁻¹) * (ab z0.1 ρ0) * (ab z1.1 z3.1) * (sb z0.2 z1.2) * (sb z0.2 z2.2) / (2) + (1) * (((√2 : ℝ) : ℂ)) ^ 2 * ((c.e : ℂ)) ^ 2 * ((c.MW : ℂ)⁻¹) * ((c.SW : ℂ)⁻¹) * ((N.c 0)⁻¹) * (ab z1.1 z3.1) * (mb z1.2 (p 2) ρ0) * (sb z0.2 z2.2) / (2) + (-1) * (((√2 : ℝ) : ℂ)) ^ 2 * ((c.e : ℂ)) ^ 2 * ((c.MW : ℂ)⁻¹) * ((c.SW : ℂ)⁻¹) * ((N.c 1)⁻¹) * (ab z3.1 ρ0) * (mb z0.2 (p 2) z1.1) * (sb z1.2 z2.2) / (2) + (-2) * ((c.SW : ℂ)) ^ 2 * ((c.e : ℂ)) ^ 2 * ((c.MW : ℂ)⁻¹) * ((c.SW : ℂ)⁻¹) * ((c.mass .e : ℂ)) * ((N.c 0)⁻¹) * (ab z1.1 z3.1) * (ab z2.1 ρ0) * (sb z0.2 z1.2) + (-2) * ((c.SW : ℂ)) ^ 2 * ((c.e : ℂ)) ^ 2 * ((c.MW : ℂ)⁻¹) * ((c.SW : ℂ)⁻¹) * ((c.mass .e : ℂ)) * ((N.c 0)⁻¹) * (ab z1.1 ρ0) * (sb z0.2 z2.2) * (sb z1.2 z3.2) + (2) * ((c.SW : ℂ)) ^ 2 * ((c.e : ℂ)) ^ 2 * ((c.MW : ℂ)⁻¹) * ((c.SW : ℂ)⁻¹) * ((c.mass .e : ℂ)) * ((N.c 1)⁻¹) * (ab z1.1 z2.1) * (ab z3.1 ρ0) * (sb z0.2 z1.2) + (2) * ((c.SW : ℂ)) ^ 2 * ((c.e : ℂ)) ^ 2 * ((c.MW : ℂ)⁻¹) * ((c.SW : ℂ)⁻¹) * ((c.mass .e : ℂ)) * ((N.c 1)⁻¹) * (ab z1.1 ρ0) * (sb z0.2 z3.2) * (sb z1.2 z2.2) + (2) * ((c.SW : ℂ)) ^ 2 * ((c.e : ℂ)) ^ 2 * ((c.MW : ℂ)⁻¹) * ((c.SW : ℂ)⁻¹) * ((N.c 0)⁻¹) * ((N.c 1)⁻¹) * (ab z0.1 ρ0) * (ab z1.1 z2.1) * ((mb z0.2 (p 2) (slashLower (p 3) *ᵥ z0.2))) * (sb z1.2 z3.2) + (2) * ((c.SW : ℂ)) ^ 2 * ((c.e : ℂ)) ^ 2 * ((c.MW : ℂ)⁻¹) * ((c.SW : ℂ)⁻¹) * ((N.c 0)⁻¹) * ((N.c 1)⁻¹) * (ab z0.1 ρ0) * (ab z1.1 z3.1) * ((mb z0.2 (p 2) (slashLower (p 3) *ᵥ z0.2))) * (sb z1.2 z2.2) + (2) * ((c.SW : ℂ)) ^ 2 * ((c.e : ℂ)) ^ 2 * ((c.MW : ℂ)⁻¹) * ((c.SW : ℂ)⁻¹) * ((N.c 0)⁻¹) * (ab z1.1 z3.1) * (mb z1.2 (p 2) ρ0) * (sb z0.2 z2.2) + (-2) * ((c.SW : ℂ)) ^ 2 * ((c.e : ℂ)) ^ 2 * ((c.MW : ℂ)⁻¹) * ((c.SW : ℂ)⁻¹) * ((N.c 0)⁻¹) * (ab z2.1 ρ0) * (mb z0.2 (p 2) z1.1) * (sb z1.2 z3.2) + (2) * ((c.SW : ℂ)) ^ 2 * ((c.e : ℂ)) ^ 2 * ((c.MW : ℂ)⁻¹) * ((c.SW : ℂ)⁻¹) * ((N.c 1)⁻¹) * (ab z0.1 ρ0) * (ab z1.1 z2.1) * (sb z0.2 z1.2) * (sb z0.2 z3.2) + (2) * ((c.SW : ℂ)) ^ 2 * ((c.e : ℂ)) ^ 2 * ((c.MW : ℂ)⁻¹) * ((c.SW : ℂ)⁻¹) * ((N.c 1)⁻¹) * (ab z1.1 z2.1) * (mb z1.2 (p 2) ρ0) * (sb z0.2 z3.2) + (-2) * ((c.SW : ℂ)) ^ 2 * ((c.e : ℂ)) ^ 2 * ((c.MW : ℂ)⁻¹) * ((c.SW : ℂ)⁻¹) * ((N.c 1)⁻¹) * (ab z3.1 ρ0) * (mb z0.2 (p 2) z1.1) * (sb z1.2 z2.2) + (1) * ((c.e : ℂ)) ^ 2 * ((c.MW : ℂ)⁻¹) * ((c.SW : ℂ)⁻¹) * ((c.mass .e : ℂ)) * ((N.c 0)⁻¹) * (ab z1.1 z3.1) * (ab z2.1 ρ0) * (sb z0.2 z1.2) + (-1) * ((c.e : ℂ)) ^ 2 * ((c.MW : ℂ)⁻¹) * ((c.SW : ℂ)⁻¹) * ((c.mass .e : ℂ)) * ((N.c 1)⁻¹) * (ab z1.1 ρ0) * (sb z0.2 z3.2) * (sb z1.2 z2.2) + (-1) * ((c.e : ℂ)) ^ 2 * ((c.MW : ℂ)⁻¹) * ((c.SW : ℂ)⁻¹) * ((N.c 0)⁻¹) * ((N.c 1)⁻¹) * (ab z0.1 ρ0) * (ab z1.1 z3.1) * ((mb z0.2 (p 2) (slashLower (p 3) *ᵥ z0.2))) * (sb z1.2 z2.2) + (-1) * ((c.e : ℂ)) ^ 2 * ((c.MW : ℂ)⁻¹) * ((c.SW : ℂ)⁻¹) * ((N.c 0)⁻¹) * (ab z1.1 z3.1) * (mb z1.2 (p 2) ρ0) * (sb z0.2 z2.2) + (1) * ((c.e : ℂ)) ^ 2 * ((c.MW : ℂ)⁻¹) * ((c.SW : ℂ)⁻¹) * ((N.c 1)⁻¹) * (ab z3.1 ρ0) * (mb z0.2 (p 2) z1.1) * (sb z1.2 z2.2)) * yCW + ((1) * (((√2 : ℝ) : ℂ)) ^ 2 * ((c.SW : ℂ)) ^ 2 * ((c.e : ℂ)) ^ 2 * ((c.CW : ℂ)⁻¹) * ((c.SW : ℂ)⁻¹) * ((N.c 1)⁻¹) * (ab z1.1 z2.1) * (ab z1.1 ρ0) * (sb z0.2 z3.2) + (1) * (((√2 : ℝ) : ℂ)) ^ 2 * ((c.SW : ℂ)) ^ 2 * ((c.e : ℂ)) ^ 2 * ((c.CW : ℂ)⁻¹) * ((c.SW : ℂ)⁻¹) * ((N.c 1)⁻¹) * (ab z3.1 ρ0) * (sb z0.2 z1.2) * (sb z1.2 z2.2) + (-1) * (((√2 : ℝ) : ℂ)) ^ 2 * ((c.e : ℂ)) ^ 2 * ((c.CW : ℂ)⁻¹) * ((c.SW : ℂ)⁻¹) * ((N.c 1)⁻¹) * (ab z3.1 ρ0) * (sb z0.2 z1.2) * (sb z1.2 z2.2) / (2) + (-2) * ((c.SW : ℂ)) ^ 2 * ((c.e : ℂ)) ^ 2 * ((c.CW : ℂ)⁻¹) * ((c.SW : ℂ)⁻¹) * ((N.c 1)⁻¹) * (ab z1.1 z2.1) * (ab z1.1 ρ0) * (sb z0.2 z3.2) + (-2) * ((c.SW : ℂ)) ^ 2 * ((c.e : ℂ)) ^ 2 * ((c.CW : ℂ)⁻¹) * ((c.SW : ℂ)⁻¹) * ((N.c 1)⁻¹) * (ab z3.1 ρ0) * (sb z0.2 z1.2) * (sb z1.2 z2.2) + (1) * ((c.e : ℂ)) ^ 2 * ((c.CW : ℂ)⁻¹) * ((c.SW : ℂ)⁻¹) * ((N.c 1)⁻¹) * (ab z3.1 ρ0) * (sb z0.2 z1.2) * (sb z1.2 z2.2)) * yMW + ((1) * (((√2 : ℝ) : ℂ)) ^ 2 * ((c.SW : ℂ)) * ((c.e : ℂ)) ^ 2 * ((c.CW : ℂ)⁻¹) * ((N.c 1)⁻¹) * (ab z1.1 z2.1) * (ab z1.1 ρ0) * (sb z0.2 z3.2) + (1) * (((√2 : ℝ) : ℂ)) ^ 2 * ((c.SW : ℂ)) * ((c.e : ℂ)) ^ 2 * ((c.CW : ℂ)⁻¹) * ((N.c 1)⁻¹) * (ab z3.1 ρ0) * (sb z0.2 z1.2) * (sb z1.2 z2.2) + (1) * (((√2 : ℝ) : ℂ)) ^ 2 * ((c.SW : ℂ)) * ((c.e : ℂ)) ^ 2 * ((c.MW : ℂ)⁻¹) * ((c.mass .e : ℂ)) * ((N.c 0)⁻¹) * (ab z1.1 z3.1) * (ab z2.1 ρ0) * (sb z0.2 z1.2) + (1) * (((√2 : ℝ) : ℂ)) ^ 2 * ((c.SW : ℂ)) * ((c.e : ℂ)) ^ 2 * ((c.MW : ℂ)⁻¹) * ((c.mass .e : ℂ)) * ((N.c 0)⁻¹) * (ab z1.1 ρ0) * (sb z0.2 z2.2) * (sb z1.2 z3.2) + (-1) * (((√2 : ℝ) : ℂ)) ^ 2 * ((c.SW : ℂ)) * ((c.e : ℂ)) ^ 2 * ((c.MW : ℂ)⁻¹) * ((c.mass .e : ℂ)) * ((N.c 1)⁻¹) * (ab z1.1 z2.1) * (ab z3.1 ρ0) * (sb z0.2 z1.2) + (-1) * (((√2 : ℝ) : ℂ)) ^ 2 * ((c.SW : ℂ)) * ((c.e : ℂ)) ^ 2 * ((c.MW : ℂ)⁻¹) * ((c.mass .e : ℂ)) * ((N.c 1)⁻¹) * (ab z1.1 ρ0) * (sb z0.2 z3.2) * (sb z1.2 z2.2) + (-1) * (((√2 : ℝ) : ℂ)) ^ 2 * ((c.SW : ℂ)) * ((c.e : ℂ)) ^ 2 * ((c.MW : ℂ)⁻¹) * ((N.c 0)⁻¹) * (ab z0.1 ρ0) * (ab z1.1 z3.1) * (sb z0.2 z1.2) * (sb z0.2 z2.2) + (-1) * (((√2 : ℝ) : ℂ)) ^ 2 * ((c.SW : ℂ)) * ((c.e : ℂ)) ^ 2 * ((c.MW : ℂ)⁻¹) * ((N.c 0)⁻¹) * (ab z1.1 z3.1) * (mb z1.2 (p 2) ρ0) * (sb z0.2 z2.2) + (1) * (((√2 : ℝ) : ℂ)) ^ 2 * ((c.SW : ℂ)) * ((c.e : ℂ)) ^ 2 * ((c.MW : ℂ)⁻¹) * ((N.c 0)⁻¹) * (ab z2.1 ρ0) * (mb z0.2 (p 2) z1.1) * (sb z1.2 z3.2) + (-1) * (((√2 : ℝ) : ℂ)) ^ 2 * ((c.SW : ℂ)) * ((c.e : ℂ)) ^ 2 * ((c.MW : ℂ)⁻¹) * ((N.c 1)⁻¹) * (ab z1.1 z2.1) * (mb z1.2 (p 2) ρ0) * (sb z0.2 z3.2) + (1) * (((√2 : ℝ) : ℂ)) ^ 2 * ((c.SW : ℂ)) * ((c.e : ℂ)) ^ 2 * ((c.MW : ℂ)⁻¹) * ((N.c 1)⁻¹) * (ab z3.1 ρ0) * (mb z0.2 (p 2) z1.1) * (sb z1.2 z2.2) + (-2) * ((c.SW : ℂ)) * ((c.e : ℂ)) ^ 2 * ((c.CW : ℂ)⁻¹) * ((N.c 1)⁻¹) * (ab z1.1 z2.1) * (ab z1.1 ρ0) * (sb z0.2 z3.2) + (-2) * ((c.SW : ℂ)) * ((c.e : ℂ)) ^ 2 * ((c.CW : ℂ)⁻¹) * ((N.c 1)⁻¹) * (ab z3.1 ρ0) * (sb z0.2 z1.2) * (sb z1.2 z2.2) + (-2) * ((c.SW : ℂ)) * ((c.e : ℂ)) ^ 2 * ((c.MW : ℂ)⁻¹) * ((c.mass .e : ℂ)) * ((N.c 0)⁻¹) * (ab z1.1 z3.1) * (ab z2.1 ρ0) * (sb z0.2 z1.2) + (-2) * ((c.SW : ℂ)) * ((c.e : ℂ)) ^ 2 * ((c.MW : ℂ)⁻¹) * ((c.mass .e : ℂ)) * ((N.c 0)⁻¹) * (ab z1.1 ρ0) * (sb z0.2 z2.2) * (sb z1.2 z3.2) + (2) * ((c.SW : ℂ)) * ((c.e : ℂ)) ^ 2 * ((c.MW : ℂ)⁻¹) * ((c.mass .e : ℂ)) * ((N.c 1)⁻¹) * (ab z1.1 z2.1) * (ab z3.1 ρ0) * (sb z0.2 z1.2) + (2) * ((c.SW : ℂ)) * ((c.e : ℂ)) ^ 2 * ((c.MW : ℂ)⁻¹) * ((c.mass .e : ℂ)) * ((N.c 1)⁻¹) * (ab z1.1 ρ0) * (sb z0.2 z3.2) * (sb z1.2 z2.2) + (2) * ((c.SW : ℂ)) * ((c.e : ℂ)) ^ 2 * ((c.MW : ℂ)⁻¹) * ((N.c 0)⁻¹) * (ab z0.1 ρ0) * (ab z1.1 z3.1) * (sb z0.2 z1.2) * (sb z0.2 z2.2) + (2) * ((c.SW : ℂ)) * ((c.e : ℂ)) ^ 2 * ((c.MW : ℂ)⁻¹) * ((N.c 0)⁻¹) * (ab z1.1 z3.1) * (mb z1.2 (p 2) ρ0) * (sb z0.2 z2.2) + (-2) * ((c.SW : ℂ)) * ((c.e : ℂ)) ^ 2 * ((c.MW : ℂ)⁻¹) * ((N.c 0)⁻¹) * (ab z2.1 ρ0) * (mb z0.2 (p 2) z1.1) * (sb z1.2 z3.2) + (2) * ((c.SW : ℂ)) * ((c.e : ℂ)) ^ 2 * ((c.MW : ℂ)⁻¹) * ((N.c 1)⁻¹) * (ab z1.1 z2.1) * (mb z1.2 (p 2) ρ0) * (sb z0.2 z3.2) + (-2) * ((c.SW : ℂ)) * ((c.e : ℂ)) ^ 2 * ((c.MW : ℂ)⁻¹) * ((N.c 1)⁻¹) * (ab z3.1 ρ0) * (mb z0.2 (p 2) z1.1) * (sb z1.2 z2.2)) * ySW + ((1) * ((c.SW : ℂ)) * ((c.e : ℂ)) ^ 2 * ((c.CW : ℂ)⁻¹) * ((N.c 1)⁻¹) * (ab z1.1 z2.1) * (ab z1.1 ρ0) * (sb z0.2 z3.2) + (1) * ((c.SW : ℂ)) * ((c.e : ℂ)) ^ 2 * ((c.CW : ℂ)⁻¹) * ((N.c 1)⁻¹) * (ab z3.1 ρ0) * (sb z0.2 z1.2) * (sb z1.2 z2.2) + (1) * ((c.SW : ℂ)) * ((c.e : ℂ)) ^ 2 * ((c.MW : ℂ)⁻¹) * ((c.mass .e : ℂ)) * ((N.c 0)⁻¹) * (ab z1.1 z3.1) * (ab z2.1 ρ0) * (sb z0.2 z1.2) + (1) * ((c.SW : ℂ)) * ((c.e : ℂ)) ^ 2 * ((c.MW : ℂ)⁻¹) * ((c.mass .e : ℂ)) * ((N.c 0)⁻¹) * (ab z1.1 ρ0) * (sb z0.2 z2.2) * (sb z1.2 z3.2) + (-1) * ((c.SW : ℂ)) * ((c.e : ℂ)) ^ 2 * ((c.MW : ℂ)⁻¹) * ((c.mass .e : ℂ)) * ((N.c 1)⁻¹) * (ab z1.1 z2.1) * (ab z3.1 ρ0) * (sb z0.2 z1.2) + (-1) * ((c.SW : ℂ)) * ((c.e : ℂ)) ^ 2 * ((c.MW : ℂ)⁻¹) * ((c.mass .e : ℂ)) * ((N.c 1)⁻¹) * (ab z1.1 ρ0) * (sb z0.2 z3.2) * (sb z1.2 z2.2) + (-1) * ((c.SW : ℂ)) * ((c.e : ℂ)) ^ 2 * ((c.MW : ℂ)⁻¹) * ((N.c 0)⁻¹) * (ab z0.1 ρ0) * (ab z1.1 z3.1) * (sb z0.2 z1.2) * (sb z0.2 z2.2) + (-1) * ((c.SW : ℂ)) * ((c.e : ℂ)) ^ 2 * ((c.MW : ℂ)⁻¹) * ((N.c 0)⁻¹) * (ab z1.1 z3.1) * (mb z1.2 (p 2) ρ0) * (sb z0.2 z2.2) + (1) * ((c.SW : ℂ)) * ((c.e : ℂ)) ^ 2 * ((c.MW : ℂ)⁻¹) * ((N.c 0)⁻¹) * (ab z2.1 ρ0) * (mb z0.2 (p 2) z1.1) * (sb z1.2 z3.2) + (-1) * ((c.SW : ℂ)) * ((c.e : ℂ)) ^ 2 * ((c.MW : ℂ)⁻¹) * ((N.c 1)⁻¹) * (ab z1.1 z2.1) * (mb z1.2 (p 2) ρ0) * (sb z0.2 z3.2) + (1) * ((c.SW : ℂ)) * ((c.e : ℂ)) ^ 2 * ((c.MW : ℂ)⁻¹) * ((N.c 1)⁻¹) * (ab z3.1 ρ0) * (mb z0.2 (p 2) z1.1) * (sb z1.2 z2.2) + (-1) * ((c.e : ℂ)) ^ 2 * ((c.CW : ℂ)⁻¹) * ((c.SW : ℂ)⁻¹) * ((N.c 1)⁻¹) * (ab z3.1 ρ0) * (sb z0.2 z1.2) * (sb z1.2 z2.2) / (2) + (-1) * ((c.e : ℂ)) ^ 2 * ((c.MW : ℂ)⁻¹) * ((c.SW : ℂ)⁻¹) * ((c.mass .e : ℂ)) * ((N.c 0)⁻¹) * (ab z1.1 z3.1) * (ab z2.1 ρ0) * (sb z0.2 z1.2) / (2) + (1) * ((c.e : ℂ)) ^ 2 * ((c.MW : ℂ)⁻¹) * ((c.SW : ℂ)⁻¹) * ((c.mass .e : ℂ)) * ((N.c 1)⁻¹) * (ab z1.1 ρ0) * (sb z0.2 z3.2) * (sb z1.2 z2.2) / (2) + (1) * ((c.e : ℂ)) ^ 2 * ((c.MW : ℂ)⁻¹) * ((c.SW : ℂ)⁻¹) * ((N.c 0)⁻¹) * (ab z0.1 ρ0) * (ab z1.1 z3.1) * (sb z0.2 z1.2) * (sb z0.2 z2.2) / (2) + (1) * ((c.e : ℂ)) ^ 2 * ((c.MW : ℂ)⁻¹) * ((c.SW : ℂ)⁻¹) * ((N.c 0)⁻¹) * (ab z1.1 z3.1) * (mb z1.2 (p 2) ρ0) * (sb z0.2 z2.2) / (2) + (-1) * ((c.e : ℂ)) ^ 2 * ((c.MW : ℂ)⁻¹) * ((c.SW : ℂ)⁻¹) * ((N.c 1)⁻¹) * (ab z3.1 ρ0) * (mb z0.2 (p 2) z1.1) * (sb z1.2 z2.2) / (2)) * x22
theorem AZee.keyM {c : Constants} {p : Nat → V4 ℝ} {N : Env} (hc : c.Physical) (hb : Balanced p) (r7 : N.r 7 = (((((2 : Nat) : ℝ) * c.e) * c.e) / ((((2 : Nat) : ℝ) * c.MW) * c.SW))) (r9 : N.r 9 = (((((2 : Nat) : ℝ) * c.SW) * c.SW) - ((1 : Nat) : ℝ))) (r10 : N.r 10 = ((((2 : Nat) : ℝ) * c.SW) * c.SW)) (d0 : ((msq (plus (backward (p 3)) (p 1)) - c.mass .e ^ 2 : ℝ) : ℂ) = N.c 0) (n0 : N.c 0 ≠ 0) (d1 : ((msq (plus (backward (p 3)) (p 0)) - c.mass .e ^ 2 : ℝ) : ℂ) = N.c 1) (n1 : N.c 1 ≠ 0) {z0 z1 z2 z3 : Pair} (b1 : Bold (p 1) c.MZ z1) (b2 : Bold (p 2) (c.mass .e) z2) (b3 : Bold (p 3) (c.mass .e) z3) (l0 : Light (p 0) z0) (e02 : mb z0.2 (p 2) z0.1 = -N.c 0) (e03 : mb z0.2 (p 3) z0.1 = -N.c 1) (q1 : msq (p 1) = c.MZ ^ 2) (q2 : msq (p 2) = (c.mass .e) ^ 2) (q3 : msq (p 3) = (c.mass .e) ^ 2) (ρ0 : V2) :
    AZee.formM N p z0 z1 z1 z2 z3 * sb ρ0 z0.2 = ((√2 : ℝ) * ((-1 : ℂ) * ((√2 / c.MZ : ℝ) : ℂ))) * AZee.react.bare c p 2 3 0 1 z2 z3 (pv z0.1 ρ0) (pv z1.1 z1.2) := by
  rw [AZee.react.bare_parts c p (i := 2) (j := 3) (a := 0) (b := 1) (x := .photon) (y := .z) (k := (p 0)) (k' := (p 1)) (fun _ => rfl) (fun _ => rfl) (f := .e) (g := .e) rfl rfl (l := (backward (p 3))) rfl (e := 1) (e' := -1) (if_neg Bool.false_ne_true) (if_pos rfl)]
  rw [compton_vv (f := .e) (x := .e) (g := .e) (h := (rfl : Spec.after .photon Flavour.e = some Flavour.e)) (h' := (rfl : Spec.after .z Flavour.e = some Flavour.e)) (ha := by simp) (hb := by simp)]
  rw [compton_vv (f := .e) (x := .e) (g := .e) (h := (rfl : Spec.after .z Flavour.e = some Flavour.e)) (h' := (rfl : Spec.after .photon Flavour.e = some Flavour.e)) (ha := by simp) (hb := by simp)]
  rw [annihilation_none c _ _ (by rfl) (by simp), star_zero, add_zero, AZee.formM]
  simp only [d0, d1, lineV_pv, lineV_four, contract_four_pv, contract_pv, mb_plus, mb_backward]
  have i0 := chain_angle z0.2 z3.2 z0.1 (p 2) (p 3) z0.1
  have i1 := chain_angle z0.2 z1.2 z0.1 (p 2) (p 3) z0.1
  have i2 := sb_schouten z1.2 z3.2 ρ0 z0.2
  have i3 := mb_schouten_right z1.2 (p 2) z0.1 z1.1 z2.1
  have i4 := sb_schouten z2.2 z3.2 ρ0 z1.2
  have i5 := mb_schouten_left z0.2 z1.2 ρ0 (p 1) z0.1
  have i6 := mb_schouten_right z3.2 (p 1) z0.1 z1.1 z2.1
  have i7 := mb_schouten_right ρ0 (p 1) z0.1 z1.1 z2.1
  have i8 := mb_schouten_left z1.2 z3.2 ρ0 (p 1) z0.1
  have i9 := mb_schouten_left z0.2 z1.2 z3.2 (p 2) z0.1
  have i10 := mb_schouten_left z0.2 z3.2 ρ0 (p 1) z0.1
  have i11 := mb_schouten_left z0.2 z3.2 ρ0 (p 2) z0.1
  have i12 := mb_schouten_right ρ0 (p 2) z0.1 z1.1 z2.1
  have i13 := ab_schouten z1.1 z2.1 z3.1 z0.1
  have i14 := mb_schouten_right z0.2 (p 2) z0.1 z1.1 z2.1
  have i15 := chain_angle z0.2 z2.2 z0.1 (p 2) (p 3) z0.1
  have i16 := sb_schouten z1.2 z2.2 ρ0 z0.2
  have i17 := mb_schouten_right z1.2 (p 2) z0.1 z1.1 z3.1
  have i18 := mb_schouten_right z0.2 (p 2) z0.1 z1.1 z3.1
  have i19 := mb_schouten_right z0.2 (p 1) z0.1 z1.1 z3.1
  have i20 := mb_schouten_left z0.2 z2.2 z3.2 (p 2) z0.1
  have i21 := mb_schouten_left z0.2 z1.2 ρ0 (p 2) z0.1
  have i22 := mb_schouten_left z0.2 z1.2 z3.2 (p 1) z0.1
  have i23 := mb_schouten_right ρ0 (p 2) z0.1 z1.1 z3.1
  have i24 := mb_schouten_left z0.2 z2.2 z3.2 (p 1) z0.1
  have i25 := sb_schouten z1.2 z2.2 z3.2 z0.2
  have i26 := mb_schouten_left z0.2 z1.2 z2.2 (p 2) z0.1
  have i27 := mb_schouten_left z0.2 z2.2 ρ0 (p 2) z0.1
  have i28 := mb_schouten_left z0.2 z1.2 z2.2 (p 1) z0.1
  have i29 := sb_schouten z2.2 z3.2 ρ0 z0.2
  have i30 := mb_schouten_right ρ0 (p 1) z0.1 z1.1 z3.1
  have i31 := mb_schouten_left z0.2 z2.2 ρ0 (p 1) z0.1
  have i32 := mb_schouten_left z1.2 z2.2 ρ0 (p 1) z0.1
  simp only [l0.mb_eq, b1.mb_left, b1.mb_right, b2.mb_left, b2.mb_right, b3.mb_left, b3.mb_right, e02, e03, mb_one hb z0.2 z0.1, mb_three hb z0.2 z1.1, mb_three hb z0.2 z2.1, mb_two hb z0.2 z3.1, mb_three hb z1.2 z0.1, mb_three hb z1.2 z1.1, mb_three hb z1.2 z2.1, mb_two hb z1.2 z3.1, mb_three hb z2.2 z0.1, mb_three hb z2.2 z1.1, mb_three hb z2.2 z2.1, mb_one hb z2.2 z3.1, mb_two hb z3.2 z0.1, mb_two hb z3.2 z1.1, mb_one hb z3.2 z2.1, mb_two hb z3.2 z3.1, mb_three hb ρ0 z0.1, mb_three hb ρ0 z1.1, mb_three hb ρ0 z2.1, mb_two hb ρ0 z3.1, ab_self, sb_self] at i0 i1 i2 i3 i4 i5 i6 i7 i8 i9 i10 i11 i12 i13 i14 i15 i16 i17 i18 i19 i20 i21 i22 i23 i24 i25 i26 i27 i28 i29 i30 i31 i32 ⊢
  simp only [ab_swap z0.1 z1.1, ab_swap z0.1 z2.1, ab_swap z0.1 z3.1, ab_swap z1.1 z2.1, ab_swap z1.1 z3.1, ab_swap z2.1 z3.1, sb_swap z0.2 z1.2, sb_swap z0.2 z2.2, sb_swap z0.2 z3.2, sb_swap z0.2 ρ0, sb_swap z1.2 z2.2, sb_swap z1.2 z3.2, sb_swap z1.2 ρ0, sb_swap z2.2 z3.2, sb_swap z2.2 ρ0, sb_swap z3.2 ρ0] at i0 i1 i2 i3 i4 i5 i6 i7 i8 i9 i10 i11 i12 i13 i14 i15 i16 i17 i18 i19 i20 i21 i22 i23 i24 i25 i26 i27 i28 i29 i30 i31 i32 ⊢
  simp only [r7, r9, r10, Constants.hL, Constants.hR, Constants.gL, Constants.gR, Constants.yuk, Constants.invVev, Flavour.charge_e, Flavour.isospin_e, ← c.mz]
  have xMW : (c.MW : ℂ) ≠ 0 := by exact_mod_cast hc.MW
  have xSW : (c.SW : ℂ) ≠ 0 := by exact_mod_cast hc.SW
  have xCW : (c.CW : ℂ) ≠ 0 := by exact_mod_cast hc.CW
  have x2 : ((√2 : ℝ) : ℂ) ≠ 0 := by exact_mod_cast (Real.sqrt_pos.2 two_pos).ne'
  have x22 : ((√2 : ℝ) : ℂ) ^ 2 = 2 := by rw [← Complex.ofReal_pow, Real.sq_sqrt two_pos.le]; norm_num
  have x23 : ((√2 : ℝ) : ℂ) ^ 3 = 2 * ((√2 : ℝ) : ℂ) := by rw [← x22]; ring
  have x24 : ((√2 : ℝ) : ℂ) ^ 4 = 4 := by linear_combination (((√2 : ℝ) : ℂ) ^ 2 + 2) * x22
  try simp only [← c.mz] at i0 i1 i2 i3 i4 i5 i6 i7 i8 i9 i10 i11 i12 i13 i14 i15 i16 i17 i18 i19 i20 i21 i22 i23 i24 i25 i26 i27 i28 i29 i30 i31 i32
  push_cast at i0 i1 i2 i3 i4 i5 i6 i7 i8 i9 i10 i11 i12 i13 i14 i15 i16 i17 i18 i19 i20 i21 i22 i23 i24 i25 i26 i27 i28 i29 i30 i31 i32 ⊢
  simp only [div_eq_mul_inv, mul_inv, inv_inv] at i0 i1 i2 i3 i4 i5 i6 i7 i8 i9 i10 i11 i12 i13 i14 i15 i16 i17 i18 i19 i20 i21 i22 i23 i24 i25 i26 i27 i28 i29 i30 i31 i32 ⊢
  have y0 := mul_inv_cancel₀ n0
  have y1 := mul_inv_cancel₀ n1
  have yCW := mul_inv_cancel₀ xCW
  have yMW := mul_inv_cancel₀ xMW
  have ySW := mul_inv_cancel₀ xSW
  linear_combination ((((-2) * ((c.SW : ℂ)) ^ 2 * ((c.e : ℂ)) ^ 2 * (ab z1.1 z2.1) * (sb z1.2 ρ0)) * i0 + ((2) * ((c.SW : ℂ)) ^ 2 * ((c.e : ℂ)) ^ 2 * (ab z1.1 z2.1) * (sb z3.2 ρ0) + (2) * ((c.SW : ℂ)) ^ 2 * ((c.e : ℂ)) ^ 2 * (ab z1.1 z3.1) * (sb z2.2 ρ0) + (-1) * ((c.e : ℂ)) ^ 2 * (ab z1.1 z3.1) * (sb z2.2 ρ0)) * i1 + ((2) * ((c.SW : ℂ)) ^ 2 * ((c.e : ℂ)) ^ 2 * ((c.mass .e : ℂ)) * (ab z0.1 z1.1) * (mb z2.2 (p 1) z0.1) + (-2) * ((c.SW : ℂ)) ^ 2 * ((c.e : ℂ)) ^ 2 * (ab z1.1 z2.1) * ((mb (slashUpper (p 3) *ᵥ z0.1) (p 2) z0.1))) * i2 + ((-2) * ((c.SW : ℂ)) ^ 2 * ((c.e : ℂ)) ^ 2 * (N.c 1) * (sb z3.2 ρ0) + (2) * ((c.SW : ℂ)) ^ 2 * ((c.e : ℂ)) ^ 2 * (mb ρ0 (p 1) z0.1) * (sb z0.2 z3.2) + (-2) * ((c.SW : ℂ)) ^ 2 * ((c.e : ℂ)) ^ 2 * (mb ρ0 (p 2) z0.1) * (sb z0.2 z3.2)) * i3 + ((-4) * ((c.SW : ℂ)) ^ 2 * ((c.e : ℂ)) ^ 2 * ((c.mass .e : ℂ)) * (N.c 1) * (ab z0.1 z1.1)) * i4 + ((-2) * ((c.MW : ℂ)) * ((c.SW : ℂ)) ^ 2 * ((c.e : ℂ)) ^ 2 * ((c.CW : ℂ)⁻¹) * (ab z0.1 z2.1) * (sb z1.2 z3.2) + (-4) * ((c.SW : ℂ)) ^ 2 * ((c.e : ℂ)) ^ 2 * ((c.mass .e : ℂ)) * (ab z0.1 z2.1) * (ab z1.1 z3.1) + (2) * ((c.SW : ℂ)) ^ 2 * ((c.e : ℂ)) ^ 2 * (ab z0.1 z1.1) * (ab z0.1 z2.1) * (sb z0.2 z3.2)) * i5 + ((-2) * ((c.MW : ℂ)) * ((c.SW : ℂ)) ^ 2 * ((c.e : ℂ)) ^ 2 * ((c.CW : ℂ)⁻¹) * (ab z0.1 z1.1) * (sb z0.2 ρ0) + (2) * ((c.SW : ℂ)) ^ 2 * ((c.e : ℂ)) ^ 2 * (N.c 0) * (sb z1.2 ρ0) + (2) * ((c.SW : ℂ)) ^ 2 * ((c.e : ℂ)) ^ 2 * (N.c 1) * (sb z1.2 ρ0) + (-2) * ((c.SW : ℂ)) ^ 2 * ((c.e : ℂ)) ^ 2 * (mb ρ0 (p 1) z0.1) * (sb z0.2 z1.2)) * i6 + ((2) * ((c.SW : ℂ)) ^ 2 * ((c.e : ℂ)) ^ 2 * ((c.mass .e : ℂ)) * (ab z0.1 z3.1) * (sb z0.2 z1.2) + (-2) * ((c.SW : ℂ)) ^ 2 * ((c.e : ℂ)) ^ 2 * (N.c 0) * (sb z1.2 z3.2) + (-2) * ((c.SW : ℂ)) ^ 2 * ((c.e : ℂ)) ^ 2 * (mb z1.2 (p 2) z0.1) * (sb z0.2 z3.2) + (2) * ((c.SW : ℂ)) ^ 2 * ((c.e : ℂ)) ^ 2 * (mb z3.2 (p 1) z0.1) * (sb z0.2 z1.2)) * i7 + ((2) * ((c.SW : ℂ)) ^ 2 * ((c.e : ℂ)) ^ 2 * (N.c 0) * (ab z1.1 z2.1)) * i8 + ((2) * ((c.MW : ℂ)) * ((c.SW : ℂ)) ^ 2 * ((c.e : ℂ)) ^ 2 * ((c.CW : ℂ)⁻¹) * (ab z0.1 z2.1) * (sb z1.2 ρ0) + (-2) * ((c.SW : ℂ)) ^ 2 * ((c.e : ℂ)) ^ 2 * (ab z0.1 z1.1) * (mb ρ0 (p 1) z2.1) + (-2) * ((c.SW : ℂ)) ^ 2 * ((c.e : ℂ)) ^ 2 * (ab z0.1 z2.1) * (mb ρ0 (p 2) z1.1)) * i9 + ((2) * ((c.SW : ℂ)) ^ 2 * ((c.e : ℂ)) ^ 2 * (ab z0.1 z2.1) * (mb z1.2 (p 2) z1.1)) * i10 + ((-2) * ((c.MW : ℂ)) * ((c.SW : ℂ)) ^ 2 * ((c.e : ℂ)) ^ 2 * ((c.CW : ℂ)⁻¹) * (ab z0.1 z1.1) * (ab z1.1 z2.1) + (-2) * ((c.SW : ℂ)) ^ 2 * ((c.e : ℂ)) ^ 2 * (ab z0.1 z2.1) * (mb z1.2 (p 2) z1.1)) * i11 + ((2) * ((c.MW : ℂ)) * ((c.SW : ℂ)) ^ 2 * ((c.e : ℂ)) ^ 2 * ((c.CW : ℂ)⁻¹) * (ab z0.1 z1.1) * (sb z0.2 z3.2) + (2) * ((c.SW : ℂ)) ^ 2 * ((c.e : ℂ)) ^ 2 * (mb z1.2 (p 2) z0.1) * (sb z0.2 z3.2)) * i12 + ((-2) * ((c.MW : ℂ)) * ((c.SW : ℂ)) ^ 2 * ((c.e : ℂ)) ^ 2 * ((c.CW : ℂ)⁻¹) * ((c.mass .e : ℂ)) * (ab z0.1 z1.1) * (sb z0.2 ρ0) + (2) * ((c.SW : ℂ)) ^ 2 * ((c.e : ℂ)) ^ 2 * ((c.mass .e : ℂ)) * (N.c 0) * (sb z1.2 ρ0) + (2) * ((c.SW : ℂ)) ^ 2 * ((c.e : ℂ)) ^ 2 * ((c.mass .e : ℂ)) * (N.c 1) * (sb z1.2 ρ0) + (-2) * ((c.SW : ℂ)) ^ 2 * ((c.e : ℂ)) ^ 2 * ((c.mass .e : ℂ)) * (mb ρ0 (p 1) z0.1) * (sb z0.2 z1.2)) * i13 + ((2) * ((c.SW : ℂ)) ^ 2 * ((c.e : ℂ)) ^ 2 * ((c.mass .e : ℂ)) * (ab z0.1 z3.1) * (sb z1.2 ρ0)) * i14 + ((-2) * ((c.SW : ℂ)) ^ 2 * ((c.e : ℂ)) ^ 2 * (ab z1.1 z3.1) * (sb z1.2 ρ0) + (1) * ((c.e : ℂ)) ^ 2 * (ab z1.1 z3.1) * (sb z1.2 ρ0)) * i15 + ((-2) * ((c.SW : ℂ)) ^ 2 * ((c.e : ℂ)) ^ 2 * (N.c 0) * (ab z0.1 z1.1) * (ab z0.1 z3.1) + (-2) * ((c.SW : ℂ)) ^ 2 * ((c.e : ℂ)) ^ 2 * (ab z1.1 z3.1) * ((mb (slashUpper (p 3) *ᵥ z0.1) (p 2) z0.1)) + (1) * ((c.e : ℂ)) ^ 2 * (N.c 0) * (ab z0.1 z1.1) * (ab z0.1 z3.1) + (1) * ((c.e : ℂ)) ^ 2 * (ab z1.1 z3.1) * ((mb (slashUpper (p 3) *ᵥ z0.1) (p 2) z0.1))) * i16 + ((4) * ((c.SW : ℂ)) ^ 2 * ((c.e : ℂ)) ^ 2 * ((c.mass .e : ℂ)) * (ab z0.1 z2.1) * (sb z0.2 ρ0) + (-2) * ((c.SW : ℂ)) ^ 2 * ((c.e : ℂ)) ^ 2 * (N.c 0) * (sb z2.2 ρ0) + (2) * ((c.SW : ℂ)) ^ 2 * ((c.e : ℂ)) ^ 2 * (mb ρ0 (p 2) z0.1) * (sb z0.2 z2.2) + (-1) * ((c.e : ℂ)) ^ 2 * ((c.mass .e : ℂ)) * (ab z0.1 z2.1) * (sb z0.2 ρ0) + (1) * ((c.e : ℂ)) ^ 2 * (N.c 0) * (sb z2.2 ρ0) + (-1) * ((c.e : ℂ)) ^ 2 * (mb ρ0 (p 2) z0.1) * (sb z0.2 z2.2)) * i17 + ((-2) * ((c.SW : ℂ)) ^ 2 * ((c.e : ℂ)) ^ 2 * ((c.mass .e : ℂ)) * (ab z0.1 z2.1) * (sb z1.2 ρ0)) * i18 + ((2) * ((c.SW : ℂ)) ^ 2 * ((c.e : ℂ)) ^ 2 * ((c.mass .e : ℂ)) * (ab z0.1 z2.1) * (sb z1.2 ρ0)) * i19 + ((2) * ((c.SW : ℂ)) ^ 2 * ((c.e : ℂ)) ^ 2 * ((c.mass .e : ℂ)) * (ab z0.1 z1.1) * (sb z1.2 ρ0)) * i20 + ((2) * ((c.SW : ℂ)) ^ 2 * ((c.e : ℂ)) ^ 2 * ((c.mass .e : ℂ)) * (ab z0.1 z1.1) * (sb z2.2 z3.2) + (4) * ((c.SW : ℂ)) ^ 2 * ((c.e : ℂ)) ^ 2 * ((c.mass .e : ℂ)) * (ab z0.1 z2.1) * (ab z1.1 z3.1) + (2) * ((c.SW : ℂ)) ^ 2 * ((c.e : ℂ)) ^ 2 * (ab z0.1 z1.1) * (ab z0.1 z3.1) * (sb z0.2 z2.2) + (-1) * ((c.e : ℂ)) ^ 2 * ((c.mass .e : ℂ)) * (ab z0.1 z2.1) * (ab z1.1 z3.1) + (-1) * ((c.e : ℂ)) ^ 2 * (ab z0.1 z1.1) * (ab z0.1 z3.1) * (sb z0.2 z2.2)) * i21 + ((2) * ((c.SW : ℂ)) ^ 2 * ((c.e : ℂ)) ^ 2 * (ab z0.1 z2.1) * (mb ρ0 (p 2) z1.1)) * i22 + ((-4) * ((c.SW : ℂ)) ^ 2 * ((c.e : ℂ)) ^ 2 * ((c.mass .e : ℂ)) * (ab z0.1 z2.1) * (sb z0.2 z1.2) + (-2) * ((c.SW : ℂ)) ^ 2 * ((c.e : ℂ)) ^ 2 * (mb z1.2 (p 2) z0.1) * (sb z0.2 z2.2) + (1) * ((c.e : ℂ)) ^ 2 * ((c.mass .e : ℂ)) * (ab z0.1 z2.1) * (sb z0.2 z1.2) + (1) * ((c.e : ℂ)) ^ 2 * (mb z1.2 (p 2) z0.1) * (sb z0.2 z2.2)) * i23 + ((-2) * ((c.SW : ℂ)) ^ 2 * ((c.e : ℂ)) ^ 2 * ((c.mass .e : ℂ)) * (ab z0.1 z1.1) * (sb z1.2 ρ0)) * i24 + ((2) * ((c.SW : ℂ)) ^ 2 * ((c.e : ℂ)) ^ 2 * ((c.mass .e : ℂ)) * (ab z0.1 z1.1) * (mb ρ0 (p 1) z0.1) + (-2) * ((c.SW : ℂ)) ^ 2 * ((c.e : ℂ)) ^ 2 * ((c.mass .e : ℂ)) * (ab z0.1 z1.1) * (mb ρ0 (p 2) z0.1)) * i25 + ((4) * ((c.SW : ℂ)) ^ 2 * ((c.e : ℂ)) ^ 2 * ((c.mass .e : ℂ)) * (ab z0.1 z1.1) * (sb z3.2 ρ0) + (-2) * ((c.SW : ℂ)) ^ 2 * ((c.e : ℂ)) ^ 2 * (ab z0.1 z1.1) * (mb ρ0 (p 1) z3.1) + (2) * ((c.SW : ℂ)) ^ 2 * ((c.e : ℂ)) ^ 2 * (ab z0.1 z3.1) * (mb ρ0 (p 2) z1.1) + (-1) * ((c.e : ℂ)) ^ 2 * ((c.mass .e : ℂ)) * (ab z0.1 z1.1) * (sb z3.2 ρ0) + (1) * ((c.e : ℂ)) ^ 2 * (ab z0.1 z1.1) * (mb ρ0 (p 1) z3.1) + (-1) * ((c.e : ℂ)) ^ 2 * (ab z0.1 z3.1) * (mb ρ0 (p 2) z1.1)) * i26 + ((-2) * ((c.MW : ℂ)) * ((c.SW : ℂ)) ^ 2 * ((c.e : ℂ)) ^ 2 * ((c.CW : ℂ)⁻¹) * (ab z0.1 z1.1) * (ab z1.1 z3.1) + (1) * ((c.MW : ℂ)) * ((c.e : ℂ)) ^ 2 * ((c.CW : ℂ)⁻¹) * (ab z0.1 z1.1) * (ab z1.1 z3.1) + (-4) * ((c.SW : ℂ)) ^ 2 * ((c.e : ℂ)) ^ 2 * ((c.mass .e : ℂ)) * (ab z0.1 z1.1) * (sb z1.2 z3.2) + (2) * ((c.SW : ℂ)) ^ 2 * ((c.e : ℂ)) ^ 2 * (ab z0.1 z3.1) * (mb z1.2 (p 2) z1.1) + (1) * ((c.e : ℂ)) ^ 2 * ((c.mass .e : ℂ)) * (ab z0.1 z1.1) * (sb z1.2 z3.2) + (-1) * ((c.e : ℂ)) ^ 2 * (ab z0.1 z3.1) * (mb z1.2 (p 2) z1.1)) * i27 + ((-2) * ((c.SW : ℂ)) ^ 2 * ((c.e : ℂ)) ^ 2 * ((c.mass .e : ℂ)) * (ab z0.1 z1.1) * (sb z3.2 ρ0)) * i28 + ((2) * ((c.MW : ℂ)) * ((c.SW : ℂ)) ^ 2 * ((c.e : ℂ)) ^ 2 * ((c.CW : ℂ)⁻¹) * ((c.mass .e : ℂ)) * (ab z0.1 z1.1) ^ 2 + (2) * ((c.SW : ℂ)) ^ 2 * ((c.e : ℂ)) ^ 2 * ((c.mass .e : ℂ)) * (ab z0.1 z1.1) * (mb z1.2 (p 2) z0.1)) * i29 + ((2) * ((c.SW : ℂ)) ^ 2 * ((c.e : ℂ)) ^ 2 * ((c.mass .e : ℂ)) * (ab z0.1 z2.1) * (sb z0.2 z1.2) + (-2) * ((c.SW : ℂ)) ^ 2 * ((c.e : ℂ)) ^ 2 * (N.c 0) * (sb z1.2 z2.2) + (1) * ((c.e : ℂ)) ^ 2 * (N.c 0) * (sb z1.2 z2.2)) * i30 + ((2) * ((c.SW : ℂ)) ^ 2 * ((c.e : ℂ)) ^ 2 * ((c.mass .e : ℂ)) * (ab z0.1 z1.1) * (sb z1.2 z3.2)) * i31 + ((2) * ((c.SW : ℂ)) ^ 2 * ((c.e : ℂ)) ^ 2 * (N.c 0) * (ab z1.1 z3.1) + (-1) * ((c.e : ℂ)) ^ 2 * (N.c 0) * (ab z1.1 z3.1)) * i32)) * ((1) * ((c.CW : ℂ)) * ((c.CW : ℂ)⁻¹) * ((c.MW : ℂ)⁻¹) * ((c.SW : ℂ)⁻¹) * ((N.c 0)⁻¹) * ((N.c 1)⁻¹)) + ((-2) * ((c.CW : ℂ)) * ((c.MW : ℂ)) * ((c.SW : ℂ)) ^ 2 * ((c.e : ℂ)) ^ 2 * ((c.CW : ℂ)⁻¹) ^ 2 * ((c.MW : ℂ)⁻¹) * ((c.SW : ℂ)⁻¹) * ((N.c 1)⁻¹) * (ab z0.1 z1.1) * (ab z1.1 z2.1) * (sb z3.2 ρ0) + (-2) * ((c.CW : ℂ)) * ((c.MW : ℂ)) * ((c.SW : ℂ)) ^ 2 * ((c.e : ℂ)) ^ 2 * ((c.CW : ℂ)⁻¹) ^ 2 * ((c.MW : ℂ)⁻¹) * ((c.SW : ℂ)⁻¹) * ((N.c 1)⁻¹) * (ab z0.1 z3.1) * (sb z1.2 z2.2) * (sb z1.2 ρ0) + (1) * ((c.CW : ℂ)) * ((c.MW : ℂ)) * ((c.e : ℂ)) ^ 2 * ((c.CW : ℂ)⁻¹) ^ 2 * ((c.MW : ℂ)⁻¹) * ((c.SW : ℂ)⁻¹) * ((N.c 1)⁻¹) * (ab z0.1 z3.1) * (sb z1.2 z2.2) * (sb z1.2 ρ0) + (2) * ((c.CW : ℂ)) * ((c.SW : ℂ)) ^ 2 * ((c.e : ℂ)) ^ 2 * ((c.CW : ℂ)⁻¹) * ((c.MW : ℂ)⁻¹) * ((c.SW : ℂ)⁻¹) * ((c.mass .e : ℂ)) * ((N.c 1)⁻¹) * (ab z0.1 z1.1) * (sb z1.2 z2.2) * (sb z3.2 ρ0) + (2) * ((c.CW : ℂ)) * ((c.SW : ℂ)) ^ 2 * ((c.e : ℂ)) ^ 2 * ((c.CW : ℂ)⁻¹) * ((c.MW : ℂ)⁻¹) * ((c.SW : ℂ)⁻¹) * ((c.mass .e : ℂ)) * ((N.c 1)⁻¹) * (ab z0.1 z3.1) * (ab z1.1 z2.1) * (sb z1.2 ρ0) + (2) * ((c.CW : ℂ)) * ((c.SW : ℂ)) ^ 2 * ((c.e : ℂ)) ^ 2 * ((c.CW : ℂ)⁻¹) * ((c.MW : ℂ)⁻¹) * ((c.SW : ℂ)⁻¹) * ((N.c 1)⁻¹) * (ab z0.1 z1.1) * (ab z0.1 z3.1) * (sb z0.2 ρ0) * (sb z1.2 z2.2) + (2) * ((c.CW : ℂ)) * ((c.SW : ℂ)) ^ 2 * ((c.e : ℂ)) ^ 2 * ((c.CW : ℂ)⁻¹) * ((c.MW : ℂ)⁻¹) * ((c.SW : ℂ)⁻¹) * ((N.c 1)⁻¹) * (ab z0.1 z3.1) * (mb ρ0 (p 2) z1.1) * (sb z1.2 z2.2) + (-2) * ((c.CW : ℂ)) * ((c.SW : ℂ)) ^ 2 * ((c.e : ℂ)) ^ 2 * ((c.CW : ℂ)⁻¹) * ((c.MW : ℂ)⁻¹) * ((c.SW : ℂ)⁻¹) * ((N.c 1)⁻¹) * (ab z1.1 z2.1) * (mb z1.2 (p 2) z0.1) * (sb z3.2 ρ0) + (-1) * ((c.CW : ℂ)) * ((c.e : ℂ)) ^ 2 * ((c.CW : ℂ)⁻¹) * ((c.MW : ℂ)⁻¹) * ((c.SW : ℂ)⁻¹) * ((c.mass .e : ℂ)) * ((N.c 1)⁻¹) * (ab z0.1 z1.1) * (sb z1.2 z2.2) * (sb z3.2 ρ0) + (-1) * ((c.CW : ℂ)) * ((c.e : ℂ)) ^ 2 * ((c.CW : ℂ)⁻¹) * ((c.MW : ℂ)⁻¹) * ((c.SW : ℂ)⁻¹) * ((N.c 1)⁻¹) * (ab z0.1 z1.1) * (ab z0.1 z3.1) * (sb z0.2 ρ0) * (sb z1.2 z2.2) + (-1) * ((c.CW : ℂ)) * ((c.e : ℂ)) ^ 2 * ((c.CW : ℂ)⁻¹) * ((c.MW : ℂ)⁻¹) * ((c.SW : ℂ)⁻¹) * ((N.c 1)⁻¹) * (ab z0.1 z3.1) * (mb ρ0 (p 2) z1.1) * (sb z1.2 z2.2)) * y0 + ((-2) * ((c.CW : ℂ)) * ((c.SW : ℂ)) ^ 2 * ((c.e : ℂ)) ^ 2 * ((c.CW : ℂ)⁻¹) * ((c.MW : ℂ)⁻¹) * ((c.SW : ℂ)⁻¹) * ((c.mass .e : ℂ)) * ((N.c 0)⁻¹) * (ab z0.1 z1.1) * (sb z1.2 z3.2) * (sb z2.2 ρ0) + (-2) * ((c.CW : ℂ)) * ((c.SW : ℂ)) ^ 2 * ((c.e : ℂ)) ^ 2 * ((c.CW : ℂ)⁻¹) * ((c.MW : ℂ)⁻¹) * ((c.SW : ℂ)⁻¹) * ((c.mass .e : ℂ)) * ((N.c 0)⁻¹) * (ab z0.1 z2.1) * (ab z1.1 z3.1) * (sb z1.2 ρ0) + (2) * ((c.CW : ℂ)) * ((c.SW : ℂ)) ^ 2 * ((c.e : ℂ)) ^ 2 * ((c.CW : ℂ)⁻¹) * ((c.MW : ℂ)⁻¹) * ((c.SW : ℂ)⁻¹) * ((N.c 0)⁻¹) * (ab z0.1 z2.1) * (mb ρ0 (p 2) z1.1) * (sb z1.2 z3.2) + (-2) * ((c.CW : ℂ)) * ((c.SW : ℂ)) ^ 2 * ((c.e : ℂ)) ^ 2 * ((c.CW : ℂ)⁻¹) * ((c.MW : ℂ)⁻¹) * ((c.SW : ℂ)⁻¹) * ((N.c 0)⁻¹) * (ab z1.1 z3.1) * (mb z1.2 (p 2) z0.1) * (sb z2.2 ρ0) + (1) * ((c.CW : ℂ)) * ((c.e : ℂ)) ^ 2 * ((c.CW : ℂ)⁻¹) * ((c.MW : ℂ)⁻¹) * ((c.SW : ℂ)⁻¹) * ((c.mass .e : ℂ)) * ((N.c 0)⁻¹) * (ab z0.1 z2.1) * (ab z1.1 z3.1) * (sb z1.2 ρ0) + (1) * ((c.CW : ℂ)) * ((c.e : ℂ)) ^ 2 * ((c.CW : ℂ)⁻¹) * ((c.MW : ℂ)⁻¹) * ((c.SW : ℂ)⁻¹) * ((N.c 0)⁻¹) * (ab z1.1 z3.1) * (mb z1.2 (p 2) z0.1) * (sb z2.2 ρ0)) * y1 + ((1) * ((c.MW : ℂ)) * (((√2 : ℝ) : ℂ)) ^ 2 * ((c.SW : ℂ)) ^ 2 * ((c.e : ℂ)) ^ 2 * ((c.CW : ℂ)⁻¹) * ((c.MW : ℂ)⁻¹) * ((c.SW : ℂ)⁻¹) * ((N.c 1)⁻¹) * (ab z0.1 z1.1) * (ab z1.1 z2.1) * (sb z3.2 ρ0) + (1) * ((c.MW : ℂ)) * (((√2 : ℝ) : ℂ)) ^ 2 * ((c.SW : ℂ)) ^ 2 * ((c.e : ℂ)) ^ 2 * ((c.CW : ℂ)⁻¹) * ((c.MW : ℂ)⁻¹) * ((c.SW : ℂ)⁻¹) * ((N.c 1)⁻¹) * (ab z0.1 z3.1) * (sb z1.2 z2.2) * (sb z1.2 ρ0) + (-1) * ((c.MW : ℂ)) * (((√2 : ℝ) : ℂ)) ^ 2 * ((c.e : ℂ)) ^ 2 * ((c.CW : ℂ)⁻¹) * ((c.MW : ℂ)⁻¹) * ((c.SW : ℂ)⁻¹) * ((N.c 1)⁻¹) * (ab z0.1 z3.1) * (sb z1.2 z2.2) * (sb z1.2 ρ0) / (2) + (-2) * ((c.MW : ℂ)) * ((c.SW : ℂ)) ^ 2 * ((c.e : ℂ)) ^ 2 * ((c.CW : ℂ)⁻¹) * ((c.MW : ℂ)⁻¹) * ((c.SW : ℂ)⁻¹) * ((N.c 1)⁻¹) * (ab z0.1 z1.1) * (ab z1.1 z2.1) * (sb z3.2 ρ0) + (-2) * ((c.MW : ℂ)) * ((c.SW : ℂ)) ^ 2 * ((c.e : ℂ)) ^ 2 * ((c.CW : ℂ)⁻¹) * ((c.MW : ℂ)⁻¹) * ((c.SW : ℂ)⁻¹) * ((N.c 1)⁻¹) * (ab z0.1 z3.1) * (sb z1.2 z2.2) * (sb z1.2 ρ0) + (1) * ((c.MW : ℂ)) * ((c.e : ℂ)) ^ 2 * ((c.CW : ℂ)⁻¹) * ((c.MW : ℂ)⁻¹) * ((c.SW : ℂ)⁻¹) * ((N.c 1)⁻¹) * (ab z0.1 z3.1) * (sb z1.2 z2.2) * (sb z1.2 ρ0) + (1) * (((√2 : ℝ) : ℂ)) ^ 2 * ((c.SW : ℂ)) ^ 2 * ((c.e : ℂ)) ^ 2 * ((c.MW : ℂ)⁻¹) * ((c.SW : ℂ)⁻¹) * ((c.mass .e : ℂ)) * ((N.c 0)⁻¹) * (ab z0.1 z1.1) * (sb z1.2 z3.2) * (sb z2.2 ρ0) + (1) * (((√2 : ℝ) : ℂ)) ^ 2 * ((c.SW : ℂ)) ^ 2 * ((c.e : ℂ)) ^ 2 * ((c.MW : ℂ)⁻¹) * ((c.SW : ℂ)⁻¹) * ((c.mass .e : ℂ)) * ((N.c 0)⁻¹) * (ab z0.1 z2.1) * (ab z1.1 z3.1) * (sb z1.2 ρ0) + (-1) * (((√2 : ℝ) : ℂ)) ^ 2 * ((c.SW : ℂ)) ^ 2 * ((c.e : ℂ)) ^ 2 * ((c.MW : ℂ)⁻¹) * ((c.SW : ℂ)⁻¹) * ((c.mass .e : ℂ)) * ((N.c 1)⁻¹) * (ab z0.1 z1.1) * (sb z1.2 z2.2) * (sb z3.2 ρ0) + (-1) * (((√2 : ℝ) : ℂ)) ^ 2 * ((c.SW : ℂ)) ^ 2 * ((c.e : ℂ)) ^ 2 * ((c.MW : ℂ)⁻¹) * ((c.SW : ℂ)⁻¹) * ((c.mass .e : ℂ)) * ((N.c 1)⁻¹) * (ab z0.1 z3.1) * (ab z1.1 z2.1) * (sb z1.2 ρ0) + (-1) * (((√2 : ℝ) : ℂ)) ^ 2 * ((c.SW : ℂ)) ^ 2 * ((c.e : ℂ)) ^ 2 * ((c.MW : ℂ)⁻¹) * ((c.SW : ℂ)⁻¹) * ((N.c 0)⁻¹) * (ab z0.1 z1.1) * (ab z0.1 z2.1) * (sb z0.2 ρ0) * (sb z1.2 z3.2) + (-1) * (((√2 : ℝ) : ℂ)) ^ 2 * ((c.SW : ℂ)) ^ 2 * ((c.e : ℂ)) ^ 2 * ((c.MW : ℂ)⁻¹) * ((c.SW : ℂ)⁻¹) * ((N.c 0)⁻¹) * (ab z0.1 z2.1) * (mb ρ0 (p 2) z1.1) * (sb z1.2 z3.2) + (1) * (((√2 : ℝ) : ℂ)) ^ 2 * ((c.SW : ℂ)) ^ 2 * ((c.e : ℂ)) ^ 2 * ((c.MW : ℂ)⁻¹) * ((c.SW : ℂ)⁻¹) * ((N.c 0)⁻¹) * (ab z1.1 z3.1) * (mb z1.2 (p 2) z0.1) * (sb z2.2 ρ0) + (-1) * (((√2 : ℝ) : ℂ)) ^ 2 * ((c.SW : ℂ)) ^ 2 * ((c.e : ℂ)) ^ 2 * ((c.MW : ℂ)⁻¹) * ((c.SW : ℂ)⁻¹) * ((N.c 1)⁻¹) * (ab z0.1 z3.1) * (mb ρ0 (p 2) z1.1) * (sb z1.2 z2.2) + (1) * (((√2 : ℝ) : ℂ)) ^ 2 * ((c.SW : ℂ)) ^ 2 * ((c.e : ℂ)) ^ 2 * ((c.MW : ℂ)⁻¹) * ((c.SW : ℂ)⁻¹) * ((N.c 1)⁻¹) * (ab z1.1 z2.1) * (mb z1.2 (p 2) z0.1) * (sb z3.2 ρ0) + (-1) * (((√2 : ℝ) : ℂ)) ^ 2 * ((c.e : ℂ)) ^ 2 * ((c.MW : ℂ)⁻¹) * ((c.SW : ℂ)⁻¹) * ((c.mass .e : ℂ)) * ((N.c 0)⁻¹) * (ab z0.1 z2.1) * (ab z1.1 z3.1) * (sb z1.2 ρ0) / (2) + (1) * (((√2 : ℝ) : ℂ)) ^ 2 * ((c.e : ℂ)) ^ 2 * ((c.MW : ℂ)⁻¹) * ((c.SW : ℂ)⁻¹) * ((c.mass .e : ℂ)) * ((N.c 1)⁻¹) * (ab z0.1 z1.1) * (sb z1.2 z2.2) * (sb z3.2 ρ0) / (2) + (-1) * (((√2 : ℝ) : ℂ)) ^ 2 * ((c.e : ℂ)) ^ 2 * ((c.MW : ℂ)⁻¹) * ((c.SW : ℂ)⁻¹) * ((N.c 0)⁻¹) * (ab z1.1 z3.1) * (mb z1.2 (p 2) z0.1) * (sb z2.2 ρ0) / (2) + (1) * (((√2 : ℝ) : ℂ)) ^ 2 * ((c.e : ℂ)) ^ 2 * ((c.MW : ℂ)⁻¹) * ((c.SW : ℂ)⁻¹) * ((N.c 1)⁻¹) * (ab z0.1 z3.1) * (mb ρ0 (p 2) z1.1) * (sb z1.2 z2.2) / (2) + (-2) * ((c.SW : ℂ)) ^ 2 * ((c.e : ℂ)) ^ 2 * ((c.MW : ℂ)⁻¹) * ((c.SW : ℂ)⁻¹) * ((c.mass .e : ℂ)) * ((N.c 0)⁻¹) * (ab z0.1 z1.1) * (sb z1.2 z3.2) * (sb z2.2 ρ0) + (-2) * ((c.SW : ℂ)) ^ 2 * ((c.e : ℂ)) ^ 2 * ((c.MW : ℂ)⁻¹) * ((c.SW : ℂ)⁻¹) * ((c.mass .e : ℂ)) * ((N.c 0)⁻¹) * (ab z0.1 z2.1) * (ab z1.1 z3.1) * (sb z1.2 ρ0) + (2) * ((c.SW : ℂ)) ^ 2 * ((c.e : ℂ)) ^ 2 * ((c.MW : ℂ)⁻¹) * ((c.SW : ℂ)⁻¹) * ((c.mass .e : ℂ)) * ((N.c 1)⁻¹) * (ab z0.1 z1.1) * (sb z1.2 z2.2) * (sb z3.2 ρ0) + (2) * ((c.SW : ℂ)) ^ 2 * ((c.e : ℂ)) ^ 2 * ((c.MW : ℂ)⁻¹) * ((c.SW : ℂ)⁻¹) * ((c.mass .e : ℂ)) * ((N.c 1)⁻¹) * (ab z0.1 z3.1) * (ab z1.1 z2.1) * (sb z1.2 ρ0) + (2) * ((c.SW : ℂ)) ^ 2 * ((c.e : ℂ)) ^ 2 * ((c.MW : ℂ)⁻¹) * ((c.SW : ℂ)⁻¹) * ((N.c 0)⁻¹) * ((N.c 1)⁻¹) * (ab z1.1 z2.1) * ((mb (slashUpper (p 3) *ᵥ z0.1) (p 2) z0.1)) * (sb z0.2 ρ0) * (sb z1.2 z3.2) + (2) * ((c.SW : ℂ)) ^ 2 * ((c.e : ℂ)) ^ 2 * ((c.MW : ℂ)⁻¹) * ((c.SW : ℂ)⁻¹) * ((N.c 0)⁻¹) * ((N.c 1)⁻¹) * (ab z1.1 z3.1) * ((mb (slashUpper (p 3) *ᵥ z0.1) (p 2) z0.1)) * (sb z0.2 ρ0) * (sb z1.2 z2.2) + (2) * ((c.SW : ℂ)) ^ 2 * ((c.e : ℂ)) ^ 2 * ((c.MW : ℂ)⁻¹) * ((c.SW : ℂ)⁻¹) * ((N.c 0)⁻¹) * (ab z0.1 z2.1) * (mb ρ0 (p 2) z1.1) * (sb z1.2 z3.2) + (-2) * ((c.SW : ℂ)) ^ 2 * ((c.e : ℂ)) ^ 2 * ((c.MW : ℂ)⁻¹) * ((c.SW : ℂ)⁻¹) * ((N.c 0)⁻¹) * (ab z1.1 z3.1) * (mb z1.2 (p 2) z0.1) * (sb z2.2 ρ0) + (2) * ((c.SW : ℂ)) ^ 2 * ((c.e : ℂ)) ^ 2 * ((c.MW : ℂ)⁻¹) * ((c.SW : ℂ)⁻¹) * ((N.c 1)⁻¹) * (ab z0.1 z1.1) * (ab z0.1 z3.1) * (sb z0.2 ρ0) * (sb z1.2 z2.2) + (2) * ((c.SW : ℂ)) ^ 2 * ((c.e : ℂ)) ^ 2 * ((c.MW : ℂ)⁻¹) * ((c.SW : ℂ)⁻¹) * ((N.c 1)⁻¹) * (ab z0.1 z3.1) * (mb ρ0 (p 2) z1.1) * (sb z1.2 z2.2) + (-2) * ((c.SW : ℂ)) ^ 2 * ((c.e : ℂ)) ^ 2 * ((c.MW : ℂ)⁻¹) * ((c.SW : ℂ)⁻¹) * ((N.c 1)⁻¹) * (ab z1.1 z2.1) * (mb z1.2 (p 2) z0.1) * (sb z3.2 ρ0) + (1) * ((c.e : ℂ)) ^ 2 * ((c.MW : ℂ)⁻¹) * ((c.SW : ℂ)⁻¹) * ((c.mass .e : ℂ)) * ((N.c 0)⁻¹) * (ab z0.1 z2.1) * (ab z1.1 z3.1) * (sb z1.2 ρ0) + (-1) * ((c.e : ℂ)) ^ 2 * ((c.MW : ℂ)⁻¹) * ((c.SW : ℂ)⁻¹) * ((c.mass .e : ℂ)) * ((N.c 1)⁻¹) * (ab z0.1 z1.1) * (sb z1.2 z2.2) * (sb z3.2 ρ0) + (-1) * ((c.e : ℂ)) ^ 2 * ((c.MW : ℂ)⁻¹) * ((c.SW : ℂ)⁻¹) * ((N.c 0)⁻¹) * ((N.c 1)⁻¹) * (ab z1.1 z3.1) * ((mb (slashUpper (p 3) *ᵥ z0.1) (p 2) z0.1)) * (sb z0.2 ρ0) * (sb z1.2 z2.2) + (1) * ((c.e : ℂ)) ^ 2 * ((c.MW : ℂ)⁻¹) * ((c.SW : ℂ)⁻¹) * ((N.c 0)⁻¹) * (ab z1.1 z3.1) * (mb z1.2 (p 2) z0.1) * (sb z2.2 ρ0) + (-1) * ((c.e : ℂ)) ^ 2 * ((c.MW : ℂ)⁻¹) * ((c.SW : ℂ)⁻¹) * ((N.c 1)⁻¹) * (ab z0.1 z1.1) * (ab z0.1 z3.1) * (sb z0.2 ρ0) * (sb z1.2 z2.2) + (-1) * ((c.e : ℂ)) ^ 2 * ((c.MW : ℂ)⁻¹) * ((c.SW : ℂ)⁻¹) * ((N.c 1)⁻¹) * (ab z0.1 z3.1) * (mb ρ0 (p 2) z1.1) * (sb z1.2 z2.2)) * yCW + ((1) * (((√2 : ℝ) : ℂ)) ^ 2 * ((c.SW : ℂ)) ^ 2 * ((c.e : ℂ)) ^ 2 * ((c.CW : ℂ)⁻¹) * ((c.SW : ℂ)⁻¹) * ((N.c 1)⁻¹) * (ab z0.1 z1.1) * (ab z1.1 z2.1) * (sb z3.2 ρ0) + (1) * (((√2 : ℝ) : ℂ)) ^ 2 * ((c.SW : ℂ)) ^ 2 * ((c.e : ℂ)) ^ 2 * ((c.CW : ℂ)⁻¹) * ((c.SW : ℂ)⁻¹) * ((N.c 1)⁻¹) * (ab z0.1 z3.1) * (sb z1.2 z2.2) * (sb z1.2 ρ0) + (-1) * (((√2 : ℝ) : ℂ)) ^ 2 * ((c.e : ℂ)) ^ 2 * ((c.CW : ℂ)⁻¹) * ((c.SW : ℂ)⁻¹) * ((N.c 1)⁻¹) * (ab z0.1 z3.1) * (sb z1.2 z2.2) * (sb z1.2 ρ0) / (2) + (-2) * ((c.SW : ℂ)) ^ 2 * ((c.e : ℂ)) ^ 2 * ((c.CW : ℂ)⁻¹) * ((c.SW : ℂ)⁻¹) * ((N.c 1)⁻¹) * (ab z0.1 z1.1) * (ab z1.1 z2.1) * (sb z3.2 ρ0) + (-2) * ((c.SW : ℂ)) ^ 2 * ((c.e : ℂ)) ^ 2 * ((c.CW : ℂ)⁻¹) * ((c.SW : ℂ)⁻¹) * ((N.c 1)⁻¹) * (ab z0.1 z3.1) * (sb z1.2 z2.2) * (sb z1.2 ρ0) + (1) * ((c.e : ℂ)) ^ 2 * ((c.CW : ℂ)⁻¹) * ((c.SW : ℂ)⁻¹) * ((N.c 1)⁻¹) * (ab z0.1 z3.1) * (sb z1.2 z2.2) * (sb z1.2 ρ0)) * yMW + ((1) * (((√2 : ℝ) : ℂ)) ^ 2 * ((c.SW : ℂ)) * ((c.e : ℂ)) ^ 2 * ((c.CW : ℂ)⁻¹) * ((N.c 1)⁻¹) * (ab z0.1 z1.1) * (ab z1.1 z2.1) * (sb z3.2 ρ0) + (1) * (((√2 : ℝ) : ℂ)) ^ 2 * ((c.SW : ℂ)) * ((c.e : ℂ)) ^ 2 * ((c.CW : ℂ)⁻¹) * ((N.c 1)⁻¹) * (ab z0.1 z3.1) * (sb z1.2 z2.2) * (sb z1.2 ρ0) + (1) * (((√2 : ℝ) : ℂ)) ^ 2 * ((c.SW : ℂ)) * ((c.e : ℂ)) ^ 2 * ((c.MW : ℂ)⁻¹) * ((c.mass .e : ℂ)) * ((N.c 0)⁻¹) * (ab z0.1 z1.1) * (sb z1.2 z3.2) * (sb z2.2 ρ0) + (1) * (((√2 : ℝ) : ℂ)) ^ 2 * ((c.SW : ℂ)) * ((c.e : ℂ)) ^ 2 * ((c.MW : ℂ)⁻¹) * ((c.mass .e : ℂ)) * ((N.c 0)⁻¹) * (ab z0.1 z2.1) * (ab z1.1 z3.1) * (sb z1.2 ρ0) + (-1) * (((√2 : ℝ) : ℂ)) ^ 2 * ((c.SW : ℂ)) * ((c.e : ℂ)) ^ 2 * ((c.MW : ℂ)⁻¹) * ((c.mass .e : ℂ)) * ((N.c 1)⁻¹) * (ab z0.1 z1.1) * (sb z1.2 z2.2) * (sb z3.2 ρ0) + (-1) * (((√2 : ℝ) : ℂ)) ^ 2 * ((c.SW : ℂ)) * ((c.e : ℂ)) ^ 2 * ((c.MW : ℂ)⁻¹) * ((c.mass .e : ℂ)) * ((N.c 1)⁻¹) * (ab z0.1 z3.1) * (ab z1.1 z2.1) * (sb z1.2 ρ0) + (-1) * (((√2 : ℝ) : ℂ)) ^ 2 * ((c.SW : ℂ)) * ((c.e : ℂ)) ^ 2 * ((c.MW : ℂ)⁻¹) * ((N.c 0)⁻¹) * (ab z0.1 z1.1) * (ab z0.1 z2.1) * (sb z0.2 ρ0) * (sb z1.2 z3.2) + (-1) * (((√2 : ℝ) : ℂ)) ^ 2 * ((c.SW : ℂ)) * ((c.e : ℂ)) ^ 2 * ((c.MW : ℂ)⁻¹) * ((N.c 0)⁻¹) * (ab z0.1 z2.1) * (mb ρ0 (p 2) z1.1) * (sb z1.2 z3.2) + (1) * (((√2 : ℝ) : ℂ)) ^ 2 * ((c.SW : ℂ)) * ((c.e : ℂ)) ^ 2 * ((c.MW : ℂ)⁻¹) * ((N.c 0)⁻¹) * (ab z1.1 z3.1) * (mb z1.2 (p 2) z0.1) * (sb z2.2 ρ0) + (-1) * (((√2 : ℝ) : ℂ)) ^ 2 * ((c.SW : ℂ)) * ((c.e : ℂ)) ^ 2 * ((c.MW : ℂ)⁻¹) * ((N.c 1)⁻¹) * (ab z0.1 z3.1) * (mb ρ0 (p 2) z1.1) * (sb z1.2 z2.2) + (1) * (((√2 : ℝ) : ℂ)) ^ 2 * ((c.SW : ℂ)) * ((c.e : ℂ)) ^ 2 * ((c.MW : ℂ)⁻¹) * ((N.c 1)⁻¹) * (ab z1.1 z2.1) * (mb z1.2 (p 2) z0.1) * (sb z3.2 ρ0) + (-2) * ((c.SW : ℂ)) * ((c.e : ℂ)) ^ 2 * ((c.CW : ℂ)⁻¹) * ((N.c 1)⁻¹) * (ab z0.1 z1.1) * (ab z1.1 z2.1) * (sb z3.2 ρ0) + (-2) * ((c.SW : ℂ)) * ((c.e : ℂ)) ^ 2 * ((c.CW : ℂ)⁻¹) * ((N.c 1)⁻¹) * (ab z0.1 z3.1) * (sb z1.2 z2.2) * (sb z1.2 ρ0) + (-2) * ((c.SW : ℂ)) * ((c.e : ℂ)) ^ 2 * ((c.MW : ℂ)⁻¹) * ((c.mass .e : ℂ)) * ((N.c 0)⁻¹) * (ab z0.1 z1.1) * (sb z1.2 z3.2) * (sb z2.2 ρ0) + (-2) * ((c.SW : ℂ)) * ((c.e : ℂ)) ^ 2 * ((c.MW : ℂ)⁻¹) * ((c.mass .e : ℂ)) * ((N.c 0)⁻¹) * (ab z0.1 z2.1) * (ab z1.1 z3.1) * (sb z1.2 ρ0) + (2) * ((c.SW : ℂ)) * ((c.e : ℂ)) ^ 2 * ((c.MW : ℂ)⁻¹) * ((c.mass .e : ℂ)) * ((N.c 1)⁻¹) * (ab z0.1 z1.1) * (sb z1.2 z2.2) * (sb z3.2 ρ0) + (2) * ((c.SW : ℂ)) * ((c.e : ℂ)) ^ 2 * ((c.MW : ℂ)⁻¹) * ((c.mass .e : ℂ)) * ((N.c 1)⁻¹) * (ab z0.1 z3.1) * (ab z1.1 z2.1) * (sb z1.2 ρ0) + (2) * ((c.SW : ℂ)) * ((c.e : ℂ)) ^ 2 * ((c.MW : ℂ)⁻¹) * ((N.c 0)⁻¹) * (ab z0.1 z1.1) * (ab z0.1 z2.1) * (sb z0.2 ρ0) * (sb z1.2 z3.2) + (2) * ((c.SW : ℂ)) * ((c.e : ℂ)) ^ 2 * ((c.MW : ℂ)⁻¹) * ((N.c 0)⁻¹) * (ab z0.1 z2.1) * (mb ρ0 (p 2) z1.1) * (sb z1.2 z3.2) + (-2) * ((c.SW : ℂ)) * ((c.e : ℂ)) ^ 2 * ((c.MW : ℂ)⁻¹) * ((N.c 0)⁻¹) * (ab z1.1 z3.1) * (mb z1.2 (p 2) z0.1) * (sb z2.2 ρ0) + (2) * ((c.SW : ℂ)) * ((c.e : ℂ)) ^ 2 * ((c.MW : ℂ)⁻¹) * ((N.c 1)⁻¹) * (ab z0.1 z3.1) * (mb ρ0 (p 2) z1.1) * (sb z1.2 z2.2) + (-2) * ((c.SW : ℂ)) * ((c.e : ℂ)) ^ 2 * ((c.MW : ℂ)⁻¹) * ((N.c 1)⁻¹) * (ab z1.1 z2.1) * (mb z1.2 (p 2) z0.1) * (sb z3.2 ρ0)) * ySW + ((1) * ((c.SW : ℂ)) * ((c.e : ℂ)) ^ 2 * ((c.CW : ℂ)⁻¹) * ((N.c 1)⁻¹) * (ab z0.1 z1.1) * (ab z1.1 z2.1) * (sb z3.2 ρ0) + (1) * ((c.SW : ℂ)) * ((c.e : ℂ)) ^ 2 * ((c.CW : ℂ)⁻¹) * ((N.c 1)⁻¹) * (ab z0.1 z3.1) * (sb z1.2 z2.2) * (sb z1.2 ρ0) + (1) * ((c.SW : ℂ)) * ((c.e : ℂ)) ^ 2 * ((c.MW : ℂ)⁻¹) * ((c.mass .e : ℂ)) * ((N.c 0)⁻¹) * (ab z0.1 z1.1) * (sb z1.2 z3.2) * (sb z2.2 ρ0) + (1) * ((c.SW : ℂ)) * ((c.e : ℂ)) ^ 2 * ((c.MW : ℂ)⁻¹) * ((c.mass .e : ℂ)) * ((N.c 0)⁻¹) * (ab z0.1 z2.1) * (ab z1.1 z3.1) * (sb z1.2 ρ0) + (-1) * ((c.SW : ℂ)) * ((c.e : ℂ)) ^ 2 * ((c.MW : ℂ)⁻¹) * ((c.mass .e : ℂ)) * ((N.c 1)⁻¹) * (ab z0.1 z1.1) * (sb z1.2 z2.2) * (sb z3.2 ρ0) + (-1) * ((c.SW : ℂ)) * ((c.e : ℂ)) ^ 2 * ((c.MW : ℂ)⁻¹) * ((c.mass .e : ℂ)) * ((N.c 1)⁻¹) * (ab z0.1 z3.1) * (ab z1.1 z2.1) * (sb z1.2 ρ0) + (-1) * ((c.SW : ℂ)) * ((c.e : ℂ)) ^ 2 * ((c.MW : ℂ)⁻¹) * ((N.c 0)⁻¹) * (ab z0.1 z1.1) * (ab z0.1 z2.1) * (sb z0.2 ρ0) * (sb z1.2 z3.2) + (-1) * ((c.SW : ℂ)) * ((c.e : ℂ)) ^ 2 * ((c.MW : ℂ)⁻¹) * ((N.c 0)⁻¹) * (ab z0.1 z2.1) * (mb ρ0 (p 2) z1.1) * (sb z1.2 z3.2) + (1) * ((c.SW : ℂ)) * ((c.e : ℂ)) ^ 2 * ((c.MW : ℂ)⁻¹) * ((N.c 0)⁻¹) * (ab z1.1 z3.1) * (mb z1.2 (p 2) z0.1) * (sb z2.2 ρ0) + (-1) * ((c.SW : ℂ)) * ((c.e : ℂ)) ^ 2 * ((c.MW : ℂ)⁻¹) * ((N.c 1)⁻¹) * (ab z0.1 z3.1) * (mb ρ0 (p 2) z1.1) * (sb z1.2 z2.2) + (1) * ((c.SW : ℂ)) * ((c.e : ℂ)) ^ 2 * ((c.MW : ℂ)⁻¹) * ((N.c 1)⁻¹) * (ab z1.1 z2.1) * (mb z1.2 (p 2) z0.1) * (sb z3.2 ρ0) + (-1) * ((c.e : ℂ)) ^ 2 * ((c.CW : ℂ)⁻¹) * ((c.SW : ℂ)⁻¹) * ((N.c 1)⁻¹) * (ab z0.1 z3.1) * (sb z1.2 z2.2) * (sb z1.2 ρ0) / (2) + (-1) * ((c.e : ℂ)) ^ 2 * ((c.MW : ℂ)⁻¹) * ((c.SW : ℂ)⁻¹) * ((c.mass .e : ℂ)) * ((N.c 0)⁻¹) * (ab z0.1 z2.1) * (ab z1.1 z3.1) * (sb z1.2 ρ0) / (2) + (1) * ((c.e : ℂ)) ^ 2 * ((c.MW : ℂ)⁻¹) * ((c.SW : ℂ)⁻¹) * ((c.mass .e : ℂ)) * ((N.c 1)⁻¹) * (ab z0.1 z1.1) * (sb z1.2 z2.2) * (sb z3.2 ρ0) / (2) + (-1) * ((c.e : ℂ)) ^ 2 * ((c.MW : ℂ)⁻¹) * ((c.SW : ℂ)⁻¹) * ((N.c 0)⁻¹) * (ab z1.1 z3.1) * (mb z1.2 (p 2) z0.1) * (sb z2.2 ρ0) / (2) + (1) * ((c.e : ℂ)) ^ 2 * ((c.MW : ℂ)⁻¹) * ((c.SW : ℂ)⁻¹) * ((N.c 1)⁻¹) * (ab z0.1 z3.1) * (mb ρ0 (p 2) z1.1) * (sb z1.2 z2.2) / (2)) * x22
set_option maxRecDepth 8000 in
theorem AZee.amp2_eq (N : Env) (f : Nat → List Int → ℂ) : Cls.AZee.m_amp2.mean N f .r [] =
    ((sumW (fun x a => (sumV (fun x b => (sumJ (fun x c => (sumJ (fun x d => (x + (‖(f 0 [a, b, c, d])‖ ^ 2))) x)) x)) x)) ((0 : Nat) : ℝ)) / ((6 : Nat) : ℝ)) := by rfl
set_option maxRecDepth 8000 in
theorem AZee.value (N : Env) : meaning N .r Cls.AZee.methods Cls.AZee.amp2 [] =
    ((sumW (fun x a => (sumV (fun x b => (sumJ (fun x c => (sumJ (fun x d => (x + (‖(Cls.AZee.m_amp.mean N (callMean N []) .c [a, b, c, d])‖ ^ 2))) x)) x)) x)) ((0 : Nat) : ℝ)) / ((6 : Nat) : ℝ)) :=
  AZee.amp2_eq N (callMean N [Cls.AZee.m_amp])
theorem AZee.termP_lin (N : Env) (w : ℝ) (x : ℂ) (a1 b1 j3 j4 : Int) : AZee.termP N w x a1 b1 j3 j4 = x + (w : ℂ) * AZee.termP N 1 0 a1 b1 j3 j4 := by
  simp only [AZee.termP]; push_cast; ring
theorem AZee.termM_lin (N : Env) (w : ℝ) (x : ℂ) (a1 b1 j3 j4 : Int) : AZee.termM N w x a1 b1 j3 j4 = x + (w : ℂ) * AZee.termM N 1 0 a1 b1 j3 j4 := by
  simp only [AZee.termM]; push_cast; ring
set_option maxRecDepth 8000 in
theorem AZee.ampP (N : Env) (f : Nat → List Int → ℂ) (j3 j4 : Int) (t1 : Fin 3) : Cls.AZee.m_amp.mean N f .c [2, spinV t1, j3, j4] = comb t1 (fun a1 b1 => AZee.termP N 1 0 (spinOf a1) (spinOf b1) j3 j4) := by
  refine (amp_mean N f (m := 4) (K := 6) (G := fun i => if 0 < i 0 then AZee.termP N 1 0 (i 4) (i 5) (i 2) (i 3) else if i 0 < 0 then AZee.termM N 1 0 (i 4) (i 5) (i 2) (i 3) else 0) (fun l => ?_) (fun i i' h => ?_) rfl (by decide) (by decide) (by decide) (by decide) (by decide)).trans ?_
  · by_cases h : 0 < l.i 0
    · refine ⟨_, (if_pos (decide_eq_true h)).trans rfl, rfl, rfl, ?_⟩; rw [if_pos h]; exact AZee.termP_lin ..
    · by_cases h' : l.i 0 < 0
      · refine ⟨_, (if_neg (fun e => h (of_decide_eq_true e))).trans ((if_pos (decide_eq_true h')).trans rfl), rfl, rfl, ?_⟩; rw [if_neg h, if_pos h']; exact AZee.termM_lin ..
      · refine ⟨_, (if_neg (fun e => h (of_decide_eq_true e))).trans ((if_neg (fun e => h' (of_decide_eq_true e))).trans rfl), rfl, rfl, ?_⟩; rw [if_neg h, if_neg h', mul_zero, add_zero]
  · simp only [h 0 (by decide), h 2 (by decide), h 3 (by decide), h 4 (by decide), h 5 (by decide)]
  · show amp' _ [spinV t1] = _
    simp only [amp'_comb, amp'_nil]
    rfl
theorem AZee.formP_x1 (N : Env) (p : Nat → V4 ℝ) (z0 y1 z2 z3 x y : Pair) : AZee.formP N p z0 (x + y) y1 z2 z3 = AZee.formP N p z0 x y1 z2 z3 + AZee.formP N p z0 y y1 z2 z3 := by
  simp only [AZee.formP, Prod.fst_add, Prod.snd_add, ab_add_left, ab_add_right, sb_add_left, sb_add_right, mb_add_left, mb_add_right]
  ring
theorem AZee.formP_y1 (N : Env) (p : Nat → V4 ℝ) (z0 x1 z2 z3 x y : Pair) : AZee.formP N p z0 x1 (x + y) z2 z3 = AZee.formP N p z0 x1 x z2 z3 + AZee.formP N p z0 x1 y z2 z3 := by
  simp only [AZee.formP, Prod.fst_add, Prod.snd_add, ab_add_left, ab_add_right, sb_add_left, sb_add_right, mb_add_left, mb_add_right]
  ring
set_option maxRecDepth 8000 in
theorem AZee.ampM (N : Env) (f : Nat → List Int → ℂ) (j3 j4 : Int) (t1 : Fin 3) : Cls.AZee.m_amp.mean N f .c [(-2), spinV t1, j3, j4] = comb t1 (fun a1 b1 => AZee.termM N 1 0 (spinOf a1) (spinOf b1) j3 j4) := by
  refine (amp_mean N f (m := 4) (K := 6) (G := fun i => if 0 < i 0 then AZee.termP N 1 0 (i 4) (i 5) (i 2) (i 3) else if i 0 < 0 then AZee.termM N 1 0 (i 4) (i 5) (i 2) (i 3) else 0) (fun l => ?_) (fun i i' h => ?_) rfl (by decide) (by decide) (by decide) (by decide) (by decide)).trans ?_
  · by_cases h : 0 < l.i 0
    · refine ⟨_, (if_pos (decide_eq_true h)).trans rfl, rfl, rfl, ?_⟩; rw [if_pos h]; exact AZee.termP_lin ..
    · by_cases h' : l.i 0 < 0
      · refine ⟨_, (if_neg (fun e => h (of_decide_eq_true e))).trans ((if_pos (decide_eq_true h')).trans rfl), rfl, rfl, ?_⟩; rw [if_neg h, if_pos h']; exact AZee.termM_lin ..
      · refine ⟨_, (if_neg (fun e => h (of_decide_eq_true e))).trans ((if_neg (fun e => h' (of_decide_eq_true e))).trans rfl), rfl, rfl, ?_⟩; rw [if_neg h, if_neg h', mul_zero, add_zero]
  · simp only [h 0 (by decide), h 2 (by decide), h 3 (by decide), h 4 (by decide), h 5 (by decide)]
  · show amp' _ [spinV t1] = _
    simp only [amp'_comb, amp'_nil]
    rfl
theorem AZee.formM_x1 (N : Env) (p : Nat → V4 ℝ) (z0 y1 z2 z3 x y : Pair) : AZee.formM N p z0 (x + y) y1 z2 z3 = AZee.formM N p z0 x y1 z2 z3 + AZee.formM N p z0 y y1 z2 z3 := by
  simp only [AZee.formM, Prod.fst_add, Prod.snd_add, ab_add_left, ab_add_right, sb_add_left, sb_add_right, mb_add_left, mb_add_right]
  ring
theorem AZee.formM_y1 (N : Env) (p : Nat → V4 ℝ) (z0 x1 z2 z3 x y : Pair) : AZee.formM N p z0 x1 (x + y) z2 z3 = AZee.formM N p z0 x1 x z2 z3 + AZee.formM N p z0 x1 y z2 z3 := by
  simp only [AZee.formM, Prod.fst_add, Prod.snd_add, ab_add_left, ab_add_right, sb_add_left, sb_add_right, mb_add_left, mb_add_right]
  ring

theorem AZee.mass_eq {c : Constants} (hc : c.Physical) (i : Fin 4) : AZee.proc.massNum (AZee.rho c) i = AZee.react.mass c i := by
  fin_cases i <;> first | rfl | exact Nat.cast_zero | exact Nat.cast_zero.trans (hc.neutrino _).symm | (show c.MW / √(((1 : Nat) : ℝ) - c.SW * c.SW) = c.MZ; rw [c.root, c.mz])

variable [FPEnv] in
theorem AZee.amps {c : Constants} {p : Nat → V4 ℝ} {u : Fin 4 → Fin 3 → Spinor} {ε : Fin 4 → Fin 3 → Vec} (hc : c.Physical) (hh : c.Heavy) (h0 : ∀ i, 0 ≤ AZee.react.mass c i) (hs : ∀ i : Fin 4, OnShell (p i) (AZee.react.mass c i)) (hb : Balanced p) (hr : AZee.react.Regular c p) (hu : ∀ i, AZee.react.Complete c p i (u i) (ε i)) :
    (AZee.N c p).c 0 ≠ 0 ∧ (AZee.N c p).c 1 ≠ 0 ∧ (∀ n, (Ty.r, n) ∈ AZee.proc.divides → (AZee.N c p).r n ≠ 0) ∧ (∀ n, (Ty.c, n) ∈ AZee.proc.divides → (AZee.N c p).c n ≠ 0) ∧ ∀ (s2 : Fin 2) (s3 : Fin 2) (h0 : Fin 2) (t1 : Fin 3), ‖Cls.AZee.m_amp.mean (AZee.N c p) (callMean (AZee.N c p) []) .c [spinW h0, spinV t1, spinOf s2, spinOf s3]‖ = ‖AZee.react.bare c p 2 3 0 1 (AZee.react.codePair c p 2 s2) (AZee.react.codePair c p 3 s3) (lightE (legA (p 0) 0 0, legS (p 0) 0 1) h0.castSucc) (AZee.react.codeVec c p 1 t1)‖ := by
  have he : AZee.react.ends = [2] := by decide
  have ht : AZee.react.starts = [3] := by decide
  have hB : AZee.react.bosons = [0, 1] := by decide
  obtain ⟨f1, f2, f3⟩ := AZee.react.regular_line he ht hB hr
  have r7 : (AZee.N c p).r 7 = (((((2 : Nat) : ℝ) * c.e) * c.e) / ((((2 : Nat) : ℝ) * c.MW) * c.SW)) := rfl
  have r9 : (AZee.N c p).r 9 = (((((2 : Nat) : ℝ) * c.SW) * c.SW) - ((1 : Nat) : ℝ)) := rfl
  have r10 : (AZee.N c p).r 10 = ((((2 : Nat) : ℝ) * c.SW) * c.SW) := rfl
  have c0 : (AZee.N c p).c 0 = poleDist (c.mass .e) ((0 : Nat) : ℝ) ((VExp.sub 0 2).sum p) := rfl
  rw [Nat.cast_zero, pole_fermion rfl] at c0
  have d0 : ((msq (plus (backward (p 3)) (p 1)) - c.mass .e ^ 2 : ℝ) : ℂ) = (AZee.N c p).c 0 := by rw [c0, msq_t hb (plus (backward (p 3)) (p 1)) (by simp)]
  have n0 : (AZee.N c p).c 0 ≠ 0 := by rw [← d0]; exact_mod_cast f2 .e rfl rfl
  have c1 : (AZee.N c p).c 1 = poleDist (c.mass .e) ((0 : Nat) : ℝ) ((VExp.sub 0 3).sum p) := rfl
  rw [Nat.cast_zero, pole_fermion rfl] at c1
  have d1 : ((msq (plus (backward (p 3)) (p 0)) - c.mass .e ^ 2 : ℝ) : ℂ) = (AZee.N c p).c 1 := by rw [c1, msq_u hb (plus (backward (p 3)) (p 0)) (by simp)]
  have n1 : (AZee.N c p).c 1 ≠ 0 := by rw [← d1]; exact_mod_cast f1 .e rfl rfl
  obtain ⟨l0, x0, y0⟩ := AZee.react.code_light hs hu (n := 0) rfl rfl
  have e02 := l0.pole_sub (m := (c.mass .e)) (onShell_msq (hs 2)) (msq_t hb (plus (p 0) (backward (p 2))) (by simp)) c0
  have e03 := l0.pole_sub (m := (c.mass .e)) (onShell_msq (hs 3)) (msq_u hb (plus (p 0) (backward (p 3))) (by simp)) c1
  have m1 : AZee.react.mass c 1 ≠ 0 := (leg_pos hc hh (by decide)).ne'
  have m2 : AZee.react.mass c 2 ≠ 0 := (leg_pos hc hh (by decide)).ne'
  have m3 : AZee.react.mass c 3 ≠ 0 := (leg_pos hc hh (by decide)).ne'
  have m0 : AZee.react.mass c 0 = 0 := rfl
  have hd : AZee.proc.divides = [(Ty.c, 0), (Ty.c, 1)] := by decide +kernel
  have stP : ∀ {z2 z3 : Pair} (b2 : Bold (p 2) (AZee.react.mass c 2) z2) (b3 : Bold (p 3) (AZee.react.mass c 3) z3) (t1 : Fin 3), comb t1 (fun a1 b1 => AZee.formP (AZee.N c p) p (legA (p 0) 0 0, legS (p 0) 0 1) (AZee.react.codePair c p 1 a1) (AZee.react.codePair c p 1 b1) z2 z3) = (-1) * AZee.react.bare c p 2 3 0 1 z2 z3 (lightE (legA (p 0) 0 0, legS (p 0) 0 1) 1) (AZee.react.codeVec c p 1 t1) := by
    intro z2 z3 b2 b3 t1
    refine one_vector (p := p 1) (m := AZee.react.mass c 1) (fun s => AZee.react.codePair_bold hs h0 1 s) (B := fun x y => AZee.formP (AZee.N c p) p (legA (p 0) 0 0, legS (p 0) 0 1) x y z2 z3) (G := fun E => AZee.react.bare c p 2 3 0 1 z2 z3 (lightE (legA (p 0) 0 0, legS (p 0) 0 1) 1) E) (fun x y z => ?_) (fun x y z => ?_) (AZee.react.bare_lin₂ c p _ _ _ (by decide)) (-1) (fun z1 b1 => ?_) t1
    · exact AZee.formP_x1 ..
    · exact AZee.formP_y1 ..
    · exact (light_plus (z := (legA (p 0) 0 0, legS (p 0) 0 1)) (G := fun E => AZee.react.bare c p 2 3 0 1 z2 z3 E (pv z1.1 z1.2)) (AZee.react.bare_lin₁ c p _ _ _ (by decide)) x0 (AZee.keyP hc hb r7 r9 r10 d0 n0 d1 n1 b1 b2 b3 l0 e02 e03 (onShell_msq (hs 1)) (onShell_msq (hs 2)) (onShell_msq (hs 3)) _)).trans (mul_assoc _ _ _)
  have stM : ∀ {z2 z3 : Pair} (b2 : Bold (p 2) (AZee.react.mass c 2) z2) (b3 : Bold (p 3) (AZee.react.mass c 3) z3) (t1 : Fin 3), comb t1 (fun a1 b1 => AZee.formM (AZee.N c p) p (legA (p 0) 0 0, legS (p 0) 0 1) (AZee.react.codePair c p 1 a1) (AZee.react.codePair c p 1 b1) z2 z3) = (-1) * AZee.react.bare c p 2 3 0 1 z2 z3 (lightE (legA (p 0) 0 0, legS (p 0) 0 1) 0) (AZee.react.codeVec c p 1 t1) := by
    intro z2 z3 b2 b3 t1
    refine one_vector (p := p 1) (m := AZee.react.mass c 1) (fun s => AZee.react.codePair_bold hs h0 1 s) (B := fun x y => AZee.formM (AZee.N c p) p (legA (p 0) 0 0, legS (p 0) 0 1) x y z2 z3) (G := fun E => AZee.react.bare c p 2 3 0 1 z2 z3 (lightE (legA (p 0) 0 0, legS (p 0) 0 1) 0) E) (fun x y z => ?_) (fun x y z => ?_) (AZee.react.bare_lin₂ c p _ _ _ (by decide)) (-1) (fun z1 b1 => ?_) t1
    · exact AZee.formM_x1 ..
    · exact AZee.formM_y1 ..
    · exact (light_minus (z := (legA (p 0) 0 0, legS (p 0) 0 1)) (G := fun E => AZee.react.bare c p 2 3 0 1 z2 z3 E (pv z1.1 z1.2)) (AZee.react.bare_lin₁ c p _ _ _ (by decide)) y0 (AZee.keyM hc hb r7 r9 r10 d0 n0 d1 n1 b1 b2 b3 l0 e02 e03 (onShell_msq (hs 1)) (onShell_msq (hs 2)) (onShell_msq (hs 3)) _)).trans (mul_assoc _ _ _)
  have amP : ∀ (s2 : Fin 2) (s3 : Fin 2) (t1 : Fin 3), Cls.AZee.m_amp.mean (AZee.N c p) (callMean (AZee.N c p) []) .c [2, spinV t1, spinOf s2, spinOf s3] = (-1) * AZee.react.bare c p 2 3 0 1 (AZee.react.codePair c p 2 s2) (AZee.react.codePair c p 3 s3) (lightE (legA (p 0) 0 0, legS (p 0) 0 1) 1) (AZee.react.codeVec c p 1 t1) := by
    intro s2 s3 t1
    rw [AZee.ampP, ← stP (AZee.react.codePair_bold hs h0 2 s2) (AZee.react.codePair_bold hs h0 3 s3) t1]
    refine congrArg (comb t1) (funext fun a1 => funext fun b1 => ?_)
    have v10z0z0 : (AZee.N c p).v 10 [] = mb (legA (p 0) 0 0, legS (p 0) 0 1).2 (p 2) (slashLower (p 3) *ᵥ (legA (p 0) 0 0, legS (p 0) 0 1).2) := bra_two_square (p := p) (m := AZee.proc.massNum (AZee.rho c)) (AZee.mass_eq hc 0) (AZee.mass_eq hc 0) (.inr ⟨m0, rfl⟩) (.inr ⟨m0, rfl⟩)
    have v6x1z3 : (AZee.N c p).v 6 [spinOf a1, spinOf s3] = sb (AZee.react.codePair c p 1 a1).2 (AZee.react.codePair c p 3 s3).2 := bra_square (p := p) (m := AZee.proc.massNum (AZee.rho c)) (AZee.mass_eq hc 1) (AZee.mass_eq hc 3) (.inl ⟨m1, rfl⟩) (.inl ⟨m3, rfl⟩)
    have v3y1z2 : (AZee.N c p).v 3 [spinOf b1, spinOf s2] = ab (AZee.react.codePair c p 1 b1).1 (AZee.react.codePair c p 2 s2).1 := bra_angle (p := p) (m := AZee.proc.massNum (AZee.rho c)) (AZee.mass_eq hc 1) (AZee.mass_eq hc 2) (.inl ⟨m1, rfl⟩) (.inl ⟨m2, rfl⟩)
    have v2x1z2 : (AZee.N c p).v 2 [spinOf a1, spinOf s2] = sb (AZee.react.codePair c p 1 a1).2 (AZee.react.codePair c p 2 s2).2 := bra_square (p := p) (m := AZee.proc.massNum (AZee.rho c)) (AZee.mass_eq hc 1) (AZee.mass_eq hc 2) (.inl ⟨m1, rfl⟩) (.inl ⟨m2, rfl⟩)
    have v7y1z3 : (AZee.N c p).v 7 [spinOf b1, spinOf s3] = ab (AZee.react.codePair c p 1 b1).1 (AZee.react.codePair c p 3 s3).1 := bra_angle (p := p) (m := AZee.proc.massNum (AZee.rho c)) (AZee.mass_eq hc 1) (AZee.mass_eq hc 3) (.inl ⟨m1, rfl⟩) (.inl ⟨m3, rfl⟩)
    have v0z0x1 : (AZee.N c p).v 0 [spinOf a1] = sb (legA (p 0) 0 0, legS (p 0) 0 1).2 (AZee.react.codePair c p 1 a1).2 := bra_square (p := p) (m := AZee.proc.massNum (AZee.rho c)) (AZee.mass_eq hc 0) (AZee.mass_eq hc 1) (.inr ⟨m0, rfl⟩) (.inl ⟨m1, rfl⟩)
    have v8z0z3 : (AZee.N c p).v 8 [spinOf s3] = sb (legA (p 0) 0 0, legS (p 0) 0 1).2 (AZee.react.codePair c p 3 s3).2 := bra_square (p := p) (m := AZee.proc.massNum (AZee.rho c)) (AZee.mass_eq hc 0) (AZee.mass_eq hc 3) (.inr ⟨m0, rfl⟩) (.inl ⟨m3, rfl⟩)
    have v4z0z2 : (AZee.N c p).v 4 [spinOf s2] = sb (legA (p 0) 0 0, legS (p 0) 0 1).2 (AZee.react.codePair c p 2 s2).2 := bra_square (p := p) (m := AZee.proc.massNum (AZee.rho c)) (AZee.mass_eq hc 0) (AZee.mass_eq hc 2) (.inr ⟨m0, rfl⟩) (.inl ⟨m2, rfl⟩)
    simp only [AZee.termP, AZee.formP, v10z0z0, v6x1z3, v3y1z2, v2x1z2, v7y1z3, v0z0x1, v8z0z3, v4z0z2]
    push_cast
    ring
  have amM : ∀ (s2 : Fin 2) (s3 : Fin 2) (t1 : Fin 3), Cls.AZee.m_amp.mean (AZee.N c p) (callMean (AZee.N c p) []) .c [(-2), spinV t1, spinOf s2, spinOf s3] = (-1) * AZee.react.bare c p 2 3 0 1 (AZee.react.codePair c p 2 s2) (AZee.react.codePair c p 3 s3) (lightE (legA (p 0) 0 0, legS (p 0) 0 1) 0) (AZee.react.codeVec c p 1 t1) := by
    intro s2 s3 t1
    rw [AZee.ampM, ← stM (AZee.react.codePair_bold hs h0 2 s2) (AZee.react.codePair_bold hs h0 3 s3) t1]
    refine congrArg (comb t1) (funext fun a1 => funext fun b1 => ?_)
    have v11z0z0 : (AZee.N c p).v 11 [] = mb (slashUpper (p 3) *ᵥ (legA (p 0) 0 0, legS (p 0) 0 1).1) (p 2) (legA (p 0) 0 0, legS (p 0) 0 1).1 := bra_two_angle (p := p) (m := AZee.proc.massNum (AZee.rho c)) (AZee.mass_eq hc 0) (AZee.mass_eq hc 0) (.inr ⟨m0, rfl⟩) (.inr ⟨m0, rfl⟩)
    have v6x1z3 : (AZee.N c p).v 6 [spinOf a1, spinOf s3] = sb (AZee.react.codePair c p 1 a1).2 (AZee.react.codePair c p 3 s3).2 := bra_square (p := p) (m := AZee.proc.massNum (AZee.rho c)) (AZee.mass_eq hc 1) (AZee.mass_eq hc 3) (.inl ⟨m1, rfl⟩) (.inl ⟨m3, rfl⟩)
    have v3y1z2 : (AZee.N c p).v 3 [spinOf b1, spinOf s2] = ab (AZee.react.codePair c p 1 b1).1 (AZee.react.codePair c p 2 s2).1 := bra_angle (p := p) (m := AZee.proc.massNum (AZee.rho c)) (AZee.mass_eq hc 1) (AZee.mass_eq hc 2) (.inl ⟨m1, rfl⟩) (.inl ⟨m2, rfl⟩)
    have v2x1z2 : (AZee.N c p).v 2 [spinOf a1, spinOf s2] = sb (AZee.react.codePair c p 1 a1).2 (AZee.react.codePair c p 2 s2).2 := bra_square (p := p) (m := AZee.proc.massNum (AZee.rho c)) (AZee.mass_eq hc 1) (AZee.mass_eq hc 2) (.inl ⟨m1, rfl⟩) (.inl ⟨m2, rfl⟩)
    have v7y1z3 : (AZee.N c p).v 7 [spinOf b1, spinOf s3] = ab (AZee.react.codePair c p 1 b1).1 (AZee.react.codePair c p 3 s3).1 := bra_angle (p := p) (m := AZee.proc.massNum (AZee.rho c)) (AZee.mass_eq hc 1) (AZee.mass_eq hc 3) (.inl ⟨m1, rfl⟩) (.inl ⟨m3, rfl⟩)
    have v1z0x1 : (AZee.N c p).v 1 [spinOf a1] = ab (legA (p 0) 0 0, legS (p 0) 0 1).1 (AZee.react.codePair c p 1 a1).1 := bra_angle (p := p) (m := AZee.proc.massNum (AZee.rho c)) (AZee.mass_eq hc 0) (AZee.mass_eq hc 1) (.inr ⟨m0, rfl⟩) (.inl ⟨m1, rfl⟩)
    have v9z0z3 : (AZee.N c p).v 9 [spinOf s3] = ab (legA (p 0) 0 0, legS (p 0) 0 1).1 (AZee.react.codePair c p 3 s3).1 := bra_angle (p := p) (m := AZee.proc.massNum (AZee.rho c)) (AZee.mass_eq hc 0) (AZee.mass_eq hc 3) (.inr ⟨m0, rfl⟩) (.inl ⟨m3, rfl⟩)
    have v2y1z2 : (AZee.N c p).v 2 [spinOf b1, spinOf s2] = sb (AZee.react.codePair c p 1 b1).2 (AZee.react.codePair c p 2 s2).2 := bra_square (p := p) (m := AZee.proc.massNum (AZee.rho c)) (AZee.mass_eq hc 1) (AZee.mass_eq hc 2) (.inl ⟨m1, rfl⟩) (.inl ⟨m2, rfl⟩)
    have v5z0z2 : (AZee.N c p).v 5 [spinOf s2] = ab (legA (p 0) 0 0, legS (p 0) 0 1).1 (AZee.react.codePair c p 2 s2).1 := bra_angle (p := p) (m := AZee.proc.massNum (AZee.rho c)) (AZee.mass_eq hc 0) (AZee.mass_eq hc 2) (.inr ⟨m0, rfl⟩) (.inl ⟨m2, rfl⟩)
    have v6y1z3 : (AZee.N c p).v 6 [spinOf b1, spinOf s3] = sb (AZee.react.codePair c p 1 b1).2 (AZee.react.codePair c p 3 s3).2 := bra_square (p := p) (m := AZee.proc.massNum (AZee.rho c)) (AZee.mass_eq hc 1) (AZee.mass_eq hc 3) (.inl ⟨m1, rfl⟩) (.inl ⟨m3, rfl⟩)
    simp only [AZee.termM, AZee.formM, v11z0z0, v6x1z3, v3y1z2, v2x1z2, v7y1z3, v1z0x1, v9z0z3, v2y1z2, v5z0z2, v6y1z3]
    push_cast
    ring
  refine ⟨n0, n1, fun n hn => ?_, fun n hn => ?_, ?_⟩
  · simp [hd] at hn
  · simp [hd] at hn
    rcases hn with rfl | rfl
    · exact n0
    · exact n1
  intro s2 s3 h0 t1
  match h0 with
  | 1 => exact norm_minus (amP s2 s3 t1)
  | 0 => exact norm_minus (amM s2 s3 t1)

variable [FPEnv] in
theorem AZee.agrees : AZee.Agrees := by
  refine agrees_of (D := [2, 3]) (E := [3]) (by simp [all, AZee]) (by decide +kernel) (by decide) (by decide +kernel) (fun c hc hh => ⟨List.forall_mem_cons.2 ⟨hc.MW, List.forall_mem_cons.2 ⟨hc.SW, List.forall_mem_nil _⟩⟩, List.forall_mem_cons.2 ⟨hc.SW_lt, List.forall_mem_nil _⟩⟩) (fun c hc i => AZee.mass_eq hc i) (by decide +kernel) ?_
  intro c p u ε hc hh hw h0 hs hb hr hu
  have he : AZee.react.ends = [2] := by decide
  have ht : AZee.react.starts = [3] := by decide
  have hB : AZee.react.bosons = [0, 1] := by decide
  obtain ⟨n0, n1, d1, d2, am⟩ := AZee.amps hc hh h0 hs hb hr hu
  refine ⟨d1, d2, ?_⟩
  show meaning (AZee.N c p) .r Cls.AZee.methods Cls.AZee.amp2 [] = _
  have s0 : AZee.react.states 0 = 2 := by decide +kernel
  have s1 : AZee.react.states 1 = 3 := by decide +kernel
  have sy : AZee.react.symmetry = 1 := by decide
  have p0 : AZee.react.spins 0 = {0, 1} := rfl
  have p1 : AZee.react.spins 1 = Finset.univ := rfl
  have p2 : AZee.react.spins 2 = {0, 1} := rfl
  have p3 : AZee.react.spins 3 = {0, 1} := rfl
  have E0 : AZee.react.codeE c p 0 = lightE (legA (p 0) 0 0, legS (p 0) 0 1) := rfl
  have E1 : AZee.react.codeE c p 1 = AZee.react.codeVec c p 1 := rfl
  have hG : AZee.react.Gauge c p := (AZee.react.gauge_line he ht hB hh (by decide) (fun n => onShell_msq (hs n)) hb hr (fun n m h h2 => absurd (And.intro h h2) (by revert n m; decide)) (fun _ => ⟨rfl, rfl⟩) (fun h => absurd h (by decide)))
  have lc : AZee.react.lineColours 2 3 = 1 := by decide +kernel
  rw [AZee.value, AZee.react.squared_line he ht hB (by decide) hs h0 (fun _ b _ hb _ => (boson_pos hc hh hb).ne') hG (E := AZee.react.codeE c p) (fun n b hl => AZee.react.codeE_polarised hs h0 hu (fun b hb => (boson_pos hc hh hb).ne') n b hl) hu, sum_colours, lc, s0, s1, sy]
  simp only [sumV_sum, sumJ_sum, sumW_sum, am, p0, p1, p2, p3, E0, E1, Finset.sum_singleton, sum_two, Matrix.cons_val_zero, Matrix.cons_val_one, Matrix.cons_val, two_castSucc]
  try simp only [← Finset.mul_sum]
  push_cast
  first | ring1 | ring_nf

end Spinas.SM.Rows
