import Verif.SM.LightRows
import Verif.SM.GluonLine

/-! A fermion and a photon become a fermion and a Z boson. Generated by tools/bosons/lemit.py: for each class its amplitude at given helicities as a formula in spinors, and the proof that `amp2` is the squared amplitude of the Feynman rules. -/

set_option linter.unusedSimpArgs false
set_option linter.unusedVariables false
set_option linter.unreachableTactic false
set_option linter.unusedTactic false

namespace Spinas.SM.Rows
open Spec Spec.Reaction Props XR Matrix BRow

/-! ### AuZu -/

/-- what the methods of the class see -/
noncomputable abbrev AuZu.N [FPEnv] (c : Constants) (p : Nat → V4 ℝ) : Env := AuZu.proc.env (AuZu.rho c) p
/-- the term that `amp` adds for a choice of spinors, for a photon of positive helicity (SM/AuZu.cpp) -/
noncomputable def AuZu.termP (N : Env) (w : ℝ) (x : ℂ) (j2 a2 b2 j4 : Int) : ℂ :=
  (x + ((((((w * N.r 8) : ℝ) : ℂ) * ((((((-N.r 10) : ℝ) : ℂ) * N.v 3 [j2, a2]) * (((((N.r 6 : ℝ) : ℂ) * N.v 2 [j4]) * N.v 5 [b2]) + ((((N.r 2 : ℝ) : ℂ) * N.v 1 [b2]) * N.v 7 [j4]))) - ((((N.r 11 : ℝ) : ℂ) * N.v 4 [a2, j4]) * (((((N.r 2 : ℝ) : ℂ) * N.v 1 [b2]) * N.v 6 [j2]) + ((((N.r 6 : ℝ) : ℂ) * N.v 0 [j2]) * N.v 8 [b2]))))) / N.c 1) / N.c 0))
/-- the same with spinors in place of their spins -/
noncomputable def AuZu.formP (N : Env) (p : Nat → V4 ℝ) (z0 z1 x2 y2 z3 : Pair) : ℂ :=
  (0 + ((((((((1 : Nat) : ℝ) * N.r 8) : ℝ) : ℂ) * ((((((-N.r 10) : ℝ) : ℂ) * (ab z1.1 x2.1)) * (((((N.r 6 : ℝ) : ℂ) * (sb z0.2 z3.2)) * (mb z0.2 (p 1) y2.1)) + ((((N.r 2 : ℝ) : ℂ) * (sb z0.2 y2.2)) * (mb z0.2 (p 2) z3.1)))) - ((((N.r 11 : ℝ) : ℂ) * (ab x2.1 z3.1)) * (((((N.r 2 : ℝ) : ℂ) * (sb z0.2 y2.2)) * (mb z0.2 (p 2) z1.1)) + ((((N.r 6 : ℝ) : ℂ) * (sb z0.2 z1.2)) * (mb z0.2 (p 3) y2.1)))))) / N.c 1) / N.c 0))
/-- the term that `amp` adds for a choice of spinors, for a photon of negative helicity (SM/AuZu.cpp) -/
noncomputable def AuZu.termM (N : Env) (w : ℝ) (x : ℂ) (j2 a2 b2 j4 : Int) : ℂ :=
  (x + ((((((w * N.r 8) : ℝ) : ℂ) * ((((((-N.r 11) : ℝ) : ℂ) * N.v 12 [j2, a2]) * (((((N.r 6 : ℝ) : ℂ) * N.v 11 [j4]) * N.v 14 [b2]) + ((((N.r 2 : ℝ) : ℂ) * N.v 10 [b2]) * N.v 16 [j4]))) - ((((N.r 10 : ℝ) : ℂ) * N.v 13 [a2, j4]) * (((((N.r 2 : ℝ) : ℂ) * N.v 10 [b2]) * N.v 15 [j2]) + ((((N.r 6 : ℝ) : ℂ) * N.v 9 [j2]) * N.v 17 [b2]))))) / N.c 1) / N.c 0))
/-- the same with spinors in place of their spins -/
noncomputable def AuZu.formM (N : Env) (p : Nat → V4 ℝ) (z0 z1 x2 y2 z3 : Pair) : ℂ :=
  (0 + ((((((((1 : Nat) : ℝ) * N.r 8) : ℝ) : ℂ) * ((((((-N.r 11) : ℝ) : ℂ) * (sb z1.2 x2.2)) * (((((N.r 6 : ℝ) : ℂ) * (ab z0.1 z3.1)) * (mb y2.2 (p 1) z0.1)) + ((((N.r 2 : ℝ) : ℂ) * (ab z0.1 y2.1)) * (mb z3.2 (p 2) z0.1)))) - ((((N.r 10 : ℝ) : ℂ) * (sb x2.2 z3.2)) * (((((N.r 2 : ℝ) : ℂ) * (ab z0.1 y2.1)) * (mb z1.2 (p 2) z0.1)) + ((((N.r 6 : ℝ) : ℂ) * (ab z0.1 z1.1)) * (mb y2.2 (p 3) z0.1)))))) / N.c 1) / N.c 0))
theorem AuZu.keyP {c : Constants} {p : Nat → V4 ℝ} {N : Env} (hc : c.Physical) (hb : Balanced p) (r2 : N.r 2 = (c.mass .u)) (r6 : N.r 6 = (c.MW / c.CW)) (r8 : N.r 8 = (((c.e * c.e) * (((2 : Nat) : ℝ) / ((3 : Nat) : ℝ))) / (c.MW * c.SW))) (r10 : N.r 10 = (((((-((2 : Nat) : ℝ)) * (((2 : Nat) : ℝ) / ((3 : Nat) : ℝ))) * c.SW) * c.SW) + ((1 : Nat) : ℝ))) (r11 : N.r 11 = ((((-((2 : Nat) : ℝ)) * (((2 : Nat) : ℝ) / ((3 : Nat) : ℝ))) * c.SW) * c.SW)) (d0 : ((msq (plus (p 1) (p 0)) - c.mass .u ^ 2 : ℝ) : ℂ) = N.c 0) (n0 : N.c 0 ≠ 0) (d1 : ((msq (plus (p 1) (backward (p 2))) - c.mass .u ^ 2 : ℝ) : ℂ) = N.c 1) (n1 : N.c 1 ≠ 0) {z0 z1 z2 z3 : Pair} (b1 : Bold (p 1) (c.mass .u) z1) (b2 : Bold (p 2) c.MZ z2) (b3 : Bold (p 3) (c.mass .u) z3) (l0 : Light (p 0) z0) (e01 : mb z0.2 (p 1) z0.1 = N.c 0) (e03 : mb z0.2 (p 3) z0.1 = -N.c 1) (q1 : msq (p 1) = (c.mass .u) ^ 2) (q2 : msq (p 2) = c.MZ ^ 2) (q3 : msq (p 3) = (c.mass .u) ^ 2) (ρ0 : V2) :
    AuZu.formP N p z0 z1 z2 z2 z3 * ab ρ0 z0.1 = ((√2 : ℝ) * ((1 : ℂ) * ((√2 / c.MZ : ℝ) : ℂ))) * AuZu.react.bare c p 3 1 0 2 z3 z1 (pv ρ0 z0.2) (pv z2.1 z2.2) := by
  rw [AuZu.react.bare_parts c p (i := 3) (j := 1) (a := 0) (b := 2) (x := .photon) (y := .z) (k := (p 0)) (k' := (backward (p 2))) (fun _ => rfl) (fun _ => rfl) (f := .u) (g := .u) rfl rfl (l := (p 1)) rfl (e := 1) (e' := 1) (if_neg Bool.false_ne_true) (if_neg Bool.false_ne_true)]
  rw [compton_vv (f := .u) (x := .u) (g := .u) (h := (rfl : Spec.after .photon Flavour.u = some Flavour.u)) (h' := (rfl : Spec.after .z Flavour.u = some Flavour.u)) (ha := by simp) (hb := by simp)]
  rw [compton_vv (f := .u) (x := .u) (g := .u) (h := (rfl : Spec.after .z Flavour.u = some Flavour.u)) (h' := (rfl : Spec.after .photon Flavour.u = some Flavour.u)) (ha := by simp) (hb := by simp)]
  rw [annihilation_none c _ _ (by rfl) (by simp), star_zero, add_zero, AuZu.formP]
  simp only [d0, d1, lineV_pv, lineV_four, contract_four_pv, contract_pv, mb_plus, mb_backward]
  have i0 := ab_schouten z2.1 z3.1 ρ0 z1.1
  have i1 := ab_schouten z1.1 z2.1 ρ0 z0.1
  have i2 := mb_schouten_right z0.2 (p 2) z0.1 z1.1 z2.1
  have i3 := ab_schouten z1.1 z3.1 ρ0 z0.1
  have i4 := ab_schouten z2.1 z3.1 ρ0 z0.1
  have i5 := mb_schouten_right z0.2 (p 2) z0.1 z1.1 z3.1
  have i6 := sb_schouten z1.2 z2.2 z3.2 z0.2
  have i7 := mb_schouten_right z0.2 (p 1) z0.1 z2.1 ρ0
  have i8 := ab_schouten z1.1 z2.1 z3.1 z0.1
  have i9 := mb_schouten_left z0.2 z1.2 z2.2 (p 2) z0.1
  have i10 := mb_schouten_right z1.2 (p 2) z0.1 z2.1 z3.1
  have i11 := mb_schouten_right z0.2 (p 2) z0.1 z2.1 z3.1
  have i12 := mb_schouten_right z2.2 (p 1) z0.1 z2.1 z3.1
  have i13 := mb_schouten_right z0.2 (p 1) z0.1 z3.1 ρ0
  have i14 := mb_schouten_right z0.2 (p 2) z0.1 z3.1 ρ0
  have i15 := mb_schouten_right z0.2 (p 1) z0.1 z2.1 z3.1
  have i16 := mb_schouten_left z0.2 z1.2 z2.2 (p 1) z0.1
  have i17 := mb_schouten_right z0.2 (p 1) z1.1 z2.1 ρ0
  have i18 := mb_schouten_left z0.2 z1.2 z2.2 (p 1) z2.1
  have i19 := mb_schouten_right z0.2 (p 2) z0.1 z2.1 ρ0
  have i20 := mb_schouten_right z0.2 (p 2) z0.1 z1.1 ρ0
  have i21 := mb_schouten_right z2.2 (p 1) z0.1 z1.1 ρ0
  have i22 := mb_schouten_right z0.2 (p 1) z0.1 z1.1 z2.1
  have i23 := mb_schouten_right z2.2 (p 1) z0.1 z2.1 ρ0
  have i24 := mb_schouten_left z0.2 z1.2 z3.2 (p 1) z2.1
  have i25 := mb_schouten_left z0.2 z2.2 z3.2 (p 2) z0.1
  have i26 := mb_schouten_right z0.2 (p 1) z0.1 z1.1 z3.1
  have i27 := mb_schouten_left z0.2 z2.2 z3.2 (p 1) z0.1
  have i28 := mb_schouten_right z0.2 (p 1) z2.1 z3.1 ρ0
  have i29 := mb_schouten_right z0.2 (p 2) z2.1 z3.1 ρ0
  have i30 := mb_schouten_right z2.2 (p 1) z0.1 z3.1 ρ0
  simp only [l0.mb_eq, b1.mb_left, b1.mb_right, b2.mb_left, b2.mb_right, b3.mb_left, b3.mb_right, e01, e03, mb_two hb z0.2 z0.1, mb_three hb z0.2 z1.1, mb_three hb z0.2 z2.1, mb_two hb z0.2 z3.1, mb_three hb z0.2 ρ0, mb_three hb z1.2 z0.1, mb_three hb z1.2 z1.1, mb_three hb z1.2 z2.1, mb_two hb z1.2 z3.1, mb_three hb z1.2 ρ0, mb_three hb z2.2 z0.1, mb_three hb z2.2 z1.1, mb_three hb z2.2 z2.1, mb_one hb z2.2 z3.1, mb_three hb z2.2 ρ0, mb_two hb z3.2 z0.1, mb_two hb z3.2 z1.1, mb_one hb z3.2 z2.1, mb_two hb z3.2 z3.1, mb_two hb z3.2 ρ0, ab_self, sb_self] at i0 i1 i2 i3 i4 i5 i6 i7 i8 i9 i10 i11 i12 i13 i14 i15 i16 i17 i18 i19 i20 i21 i22 i23 i24 i25 i26 i27 i28 i29 i30 ⊢
  simp only [ab_swap z0.1 z1.1, ab_swap z0.1 z2.1, ab_swap z0.1 z3.1, ab_swap z0.1 ρ0, ab_swap z1.1 z2.1, ab_swap z1.1 z3.1, ab_swap z1.1 ρ0, ab_swap z2.1 z3.1, ab_swap z2.1 ρ0, ab_swap z3.1 ρ0, sb_swap z0.2 z1.2, sb_swap z0.2 z2.2, sb_swap z0.2 z3.2, sb_swap z1.2 z2.2, sb_swap z1.2 z3.2, sb_swap z2.2 z3.2] at i0 i1 i2 i3 i4 i5 i6 i7 i8 i9 i10 i11 i12 i13 i14 i15 i16 i17 i18 i19 i20 i21 i22 i23 i24 i25 i26 i27 i28 i29 i30 ⊢
  simp only [r2, r6, r8, r10, r11, Constants.hL, Constants.hR, Constants.gL, Constants.gR, Constants.yuk, Constants.invVev, Flavour.charge_u, Flavour.isospin_u, ← c.mz]
  have xMW : (c.MW : ℂ) ≠ 0 := by exact_mod_cast hc.MW
  have xSW : (c.SW : ℂ) ≠ 0 := by exact_mod_cast hc.SW
  have xCW : (c.CW : ℂ) ≠ 0 := by exact_mod_cast hc.CW
  have x2 : ((√2 : ℝ) : ℂ) ≠ 0 := by exact_mod_cast (Real.sqrt_pos.2 two_pos).ne'
  have x22 : ((√2 : ℝ) : ℂ) ^ 2 = 2 := by rw [← Complex.ofReal_pow, Real.sq_sqrt two_pos.le]; norm_num
  have x23 : ((√2 : ℝ) : ℂ) ^ 3 = 2 * ((√2 : ℝ) : ℂ) := by rw [← x22]; ring
  have x24 : ((√2 : ℝ) : ℂ) ^ 4 = 4 := by linear_combination (((√2 : ℝ) : ℂ) ^ 2 + 2) * x22
  try simp only [← c.mz] at i0 i1 i2 i3 i4 i5 i6 i7 i8 i9 i10 i11 i12 i13 i14 i15 i16 i17 i18 i19 i20 i21 i22 i23 i24 i25 i26 i27 i28 i29 i30
  push_cast at i0 i1 i2 i3 i4 i5 i6 i7 i8 i9 i10 i11 i12 i13 i14 i15 i16 i17 i18 i19 i20 i21 i22 i23 i24 i25 i26 i27 i28 i29 i30 ⊢
  simp only [div_eq_mul_inv, mul_inv, inv_inv] at i0 i1 i2 i3 i4 i5 i6 i7 i8 i9 i10 i11 i12 i13 i14 i15 i16 i17 i18 i19 i20 i21 i22 i23 i24 i25 i26 i27 i28 i29 i30 ⊢
  have y0 := mul_inv_cancel₀ n0
  have y1 := mul_inv_cancel₀ n1
  have yCW := mul_inv_cancel₀ xCW
  have yMW := mul_inv_cancel₀ xMW
  have ySW := mul_inv_cancel₀ xSW
  linear_combination ((((16) * ((c.SW : ℂ)) ^ 2 * ((c.e : ℂ)) ^ 2 * ((c.mass .u : ℂ)) * (N.c 0) * (sb z0.2 z2.2) + (32) * ((c.SW : ℂ)) ^ 2 * ((c.e : ℂ)) ^ 2 * ((c.mass .u : ℂ)) * (N.c 1) * (sb z0.2 z2.2) + (-12) * ((c.e : ℂ)) ^ 2 * ((c.mass .u : ℂ)) * (N.c 0) * (sb z0.2 z2.2) + (-12) * ((c.e : ℂ)) ^ 2 * ((c.mass .u : ℂ)) * (N.c 1) * (sb z0.2 z2.2)) * i0 + ((-8) * ((c.SW : ℂ)) ^ 2 * ((c.e : ℂ)) ^ 2 * ((c.mass .u : ℂ)) * (mb z0.2 (p 1) z3.1) * (sb z0.2 z2.2) + (-16) * ((c.SW : ℂ)) ^ 2 * ((c.e : ℂ)) ^ 2 * ((c.mass .u : ℂ)) ^ 2 * (sb z0.2 z2.2) * (sb z0.2 z3.2) + (6) * ((c.e : ℂ)) ^ 2 * ((c.mass .u : ℂ)) * (mb z0.2 (p 1) z3.1) * (sb z0.2 z2.2) + (6) * ((c.e : ℂ)) ^ 2 * ((c.mass .u : ℂ)) ^ 2 * (sb z0.2 z2.2) * (sb z0.2 z3.2)) * i1 + ((-16) * ((c.SW : ℂ)) ^ 2 * ((c.e : ℂ)) ^ 2 * ((c.mass .u : ℂ)) * (ab z3.1 ρ0) * (sb z0.2 z2.2) + (6) * ((c.e : ℂ)) ^ 2 * ((c.mass .u : ℂ)) * (ab z3.1 ρ0) * (sb z0.2 z2.2)) * i2 + ((-16) * ((c.MW : ℂ)) * ((c.SW : ℂ)) ^ 2 * ((c.e : ℂ)) ^ 2 * ((c.CW : ℂ)⁻¹) * ((c.mass .u : ℂ)) * (sb z0.2 z2.2) ^ 2 + (6) * ((c.MW : ℂ)) * ((c.e : ℂ)) ^ 2 * ((c.CW : ℂ)⁻¹) * ((c.mass .u : ℂ)) * (sb z0.2 z2.2) ^ 2 + (-8) * ((c.SW : ℂ)) ^ 2 * ((c.e : ℂ)) ^ 2 * ((c.mass .u : ℂ)) * (mb z0.2 (p 1) z2.1) * (sb z0.2 z2.2)) * i3 + ((-16) * ((c.SW : ℂ)) ^ 2 * ((c.e : ℂ)) ^ 2 * ((c.mass .u : ℂ)) * (mb z0.2 (p 2) z1.1) * (sb z0.2 z2.2) + (-8) * ((c.SW : ℂ)) ^ 2 * ((c.e : ℂ)) ^ 2 * ((c.mass .u : ℂ)) ^ 2 * (sb z0.2 z1.2) * (sb z0.2 z2.2) + (6) * ((c.e : ℂ)) ^ 2 * ((c.mass .u : ℂ)) * (mb z0.2 (p 2) z1.1) * (sb z0.2 z2.2)) * i4 + ((16) * ((c.SW : ℂ)) ^ 2 * ((c.e : ℂ)) ^ 2 * ((c.mass .u : ℂ)) * (ab z2.1 ρ0) * (sb z0.2 z2.2) + (-6) * ((c.e : ℂ)) ^ 2 * ((c.mass .u : ℂ)) * (ab z2.1 ρ0) * (sb z0.2 z2.2)) * i5 + ((-8) * ((c.SW : ℂ)) ^ 2 * ((c.e : ℂ)) ^ 2 * ((c.mass .u : ℂ)) * (N.c 0) * (ab z2.1 ρ0) + (8) * ((c.SW : ℂ)) ^ 2 * ((c.e : ℂ)) ^ 2 * ((c.mass .u : ℂ)) * (ab z0.1 z2.1) * (mb z0.2 (p 1) ρ0) + (-16) * ((c.SW : ℂ)) ^ 2 * ((c.e : ℂ)) ^ 2 * ((c.mass .u : ℂ)) * (ab z0.1 z2.1) * (mb z0.2 (p 2) ρ0) + (-6) * ((c.e : ℂ)) ^ 2 * ((c.mass .u : ℂ)) * (ab z0.1 z2.1) * (mb z0.2 (p 1) ρ0) + (6) * ((c.e : ℂ)) ^ 2 * ((c.mass .u : ℂ)) * (ab z0.1 z2.1) * (mb z0.2 (p 2) ρ0)) * i6 + ((8) * ((c.MW : ℂ)) * ((c.SW : ℂ)) ^ 2 * ((c.e : ℂ)) ^ 2 * ((c.CW : ℂ)⁻¹) * (ab z1.1 z2.1) * (sb z0.2 z3.2) + (-6) * ((c.MW : ℂ)) * ((c.e : ℂ)) ^ 2 * ((c.CW : ℂ)⁻¹) * (ab z1.1 z2.1) * (sb z0.2 z3.2) + (-8) * ((c.SW : ℂ)) ^ 2 * ((c.e : ℂ)) ^ 2 * ((c.mass .u : ℂ)) * (ab z1.1 z3.1) * (sb z0.2 z2.2) + (8) * ((c.SW : ℂ)) ^ 2 * ((c.e : ℂ)) ^ 2 * ((c.mass .u : ℂ)) * (sb z0.2 z1.2) * (sb z2.2 z3.2) + (-8) * ((c.SW : ℂ)) ^ 2 * ((c.e : ℂ)) ^ 2 * ((c.mass .u : ℂ)) * (sb z0.2 z2.2) * (sb z1.2 z3.2) + (8) * ((c.SW : ℂ)) ^ 2 * ((c.e : ℂ)) ^ 2 * (mb z0.2 (p 1) z3.1) * (sb z1.2 z2.2)) * i7 + ((8) * ((c.SW : ℂ)) ^ 2 * ((c.e : ℂ)) ^ 2 * ((c.mass .u : ℂ)) * (mb z0.2 (p 1) ρ0) * (sb z0.2 z2.2) + (-6) * ((c.e : ℂ)) ^ 2 * ((c.mass .u : ℂ)) * (mb z0.2 (p 1) ρ0) * (sb z0.2 z2.2)) * i8 + ((16) * ((c.SW : ℂ)) ^ 2 * ((c.e : ℂ)) ^ 2 * (ab z2.1 z3.1) * (mb z0.2 (p 1) ρ0) + (-16) * ((c.SW : ℂ)) ^ 2 * ((c.e : ℂ)) ^ 2 * (ab z2.1 z3.1) * (mb z0.2 (p 2) ρ0) + (-6) * ((c.e : ℂ)) ^ 2 * (ab z2.1 z3.1) * (mb z0.2 (p 1) ρ0) + (6) * ((c.e : ℂ)) ^ 2 * (ab z2.1 z3.1) * (mb z0.2 (p 2) ρ0)) * i9 + ((16) * ((c.SW : ℂ)) ^ 2 * ((c.e : ℂ)) ^ 2 * (mb z0.2 (p 1) ρ0) * (sb z0.2 z2.2) + (-16) * ((c.SW : ℂ)) ^ 2 * ((c.e : ℂ)) ^ 2 * (mb z0.2 (p 2) ρ0) * (sb z0.2 z2.2) + (-6) * ((c.e : ℂ)) ^ 2 * (mb z0.2 (p 1) ρ0) * (sb z0.2 z2.2) + (6) * ((c.e : ℂ)) ^ 2 * (mb z0.2 (p 2) ρ0) * (sb z0.2 z2.2)) * i10 + ((-16) * ((c.SW : ℂ)) ^ 2 * ((c.e : ℂ)) ^ 2 * ((c.mass .u : ℂ)) * (ab z1.1 ρ0) * (sb z0.2 z2.2) + (8) * ((c.SW : ℂ)) ^ 2 * ((c.e : ℂ)) ^ 2 * (ab z0.1 ρ0) * (sb z0.2 z1.2) * (sb z0.2 z2.2) + (-8) * ((c.SW : ℂ)) ^ 2 * ((c.e : ℂ)) ^ 2 * (mb z0.2 (p 1) ρ0) * (sb z1.2 z2.2) + (16) * ((c.SW : ℂ)) ^ 2 * ((c.e : ℂ)) ^ 2 * (mb z0.2 (p 2) ρ0) * (sb z1.2 z2.2) + (-8) * ((c.SW : ℂ)) ^ 2 * ((c.e : ℂ)) ^ 2 * (mb z2.2 (p 1) ρ0) * (sb z0.2 z1.2) + (6) * ((c.e : ℂ)) ^ 2 * ((c.mass .u : ℂ)) * (ab z1.1 ρ0) * (sb z0.2 z2.2) + (6) * ((c.e : ℂ)) ^ 2 * (mb z0.2 (p 1) ρ0) * (sb z1.2 z2.2) + (-6) * ((c.e : ℂ)) ^ 2 * (mb z0.2 (p 2) ρ0) * (sb z1.2 z2.2)) * i11 + ((16) * ((c.SW : ℂ)) ^ 2 * ((c.e : ℂ)) ^ 2 * (mb z0.2 (p 1) ρ0) * (sb z0.2 z1.2) + (-16) * ((c.SW : ℂ)) ^ 2 * ((c.e : ℂ)) ^ 2 * (mb z0.2 (p 2) ρ0) * (sb z0.2 z1.2) + (-6) * ((c.e : ℂ)) ^ 2 * (mb z0.2 (p 1) ρ0) * (sb z0.2 z1.2) + (6) * ((c.e : ℂ)) ^ 2 * (mb z0.2 (p 2) ρ0) * (sb z0.2 z1.2)) * i12 + ((-8) * ((c.MW : ℂ)) * ((c.SW : ℂ)) ^ 2 * ((c.e : ℂ)) ^ 2 * ((c.CW : ℂ)⁻¹) * (sb z0.2 z2.2) * (sb z1.2 z2.2) + (16) * ((c.SW : ℂ)) ^ 2 * ((c.e : ℂ)) ^ 2 * (mb z2.2 (p 1) z2.1) * (sb z0.2 z1.2) + (-6) * ((c.e : ℂ)) ^ 2 * (mb z0.2 (p 1) z2.1) * (sb z1.2 z2.2) + (-6) * ((c.e : ℂ)) ^ 2 * (mb z2.2 (p 1) z2.1) * (sb z0.2 z1.2)) * i13 + ((-8) * ((c.SW : ℂ)) ^ 2 * ((c.e : ℂ)) ^ 2 * (mb z0.2 (p 1) z2.1) * (sb z1.2 z2.2) + (-16) * ((c.SW : ℂ)) ^ 2 * ((c.e : ℂ)) ^ 2 * (mb z2.2 (p 1) z2.1) * (sb z0.2 z1.2) + (6) * ((c.e : ℂ)) ^ 2 * (mb z0.2 (p 1) z2.1) * (sb z1.2 z2.2) + (6) * ((c.e : ℂ)) ^ 2 * (mb z2.2 (p 1) z2.1) * (sb z0.2 z1.2)) * i14 + ((8) * ((c.SW : ℂ)) ^ 2 * ((c.e : ℂ)) ^ 2 * ((c.mass .u : ℂ)) * (ab z1.1 ρ0) * (sb z0.2 z2.2) + (-8) * ((c.SW : ℂ)) ^ 2 * ((c.e : ℂ)) ^ 2 * (ab z0.1 ρ0) * (sb z0.2 z1.2) * (sb z0.2 z2.2) + (-8) * ((c.SW : ℂ)) ^ 2 * ((c.e : ℂ)) ^ 2 * (mb z0.2 (p 2) ρ0) * (sb z1.2 z2.2) + (8) * ((c.SW : ℂ)) ^ 2 * ((c.e : ℂ)) ^ 2 * (mb z2.2 (p 1) ρ0) * (sb z0.2 z1.2) + (-6) * ((c.e : ℂ)) ^ 2 * (mb z0.2 (p 1) ρ0) * (sb z1.2 z2.2) + (6) * ((c.e : ℂ)) ^ 2 * (mb z0.2 (p 2) ρ0) * (sb z1.2 z2.2)) * i15 + ((-8) * ((c.SW : ℂ)) ^ 2 * ((c.e : ℂ)) ^ 2 * (ab z2.1 z3.1) * (mb z0.2 (p 1) ρ0) + (8) * ((c.SW : ℂ)) ^ 2 * ((c.e : ℂ)) ^ 2 * (ab z2.1 z3.1) * (mb z0.2 (p 2) ρ0) + (6) * ((c.e : ℂ)) ^ 2 * (ab z2.1 z3.1) * (mb z0.2 (p 1) ρ0) + (-6) * ((c.e : ℂ)) ^ 2 * (ab z2.1 z3.1) * (mb z0.2 (p 2) ρ0)) * i16 + ((8) * ((c.SW : ℂ)) ^ 2 * ((c.e : ℂ)) ^ 2 * (N.c 1) * (sb z2.2 z3.2) + (8) * ((c.SW : ℂ)) ^ 2 * ((c.e : ℂ)) ^ 2 * (mb z2.2 (p 1) z0.1) * (sb z0.2 z3.2) + (-6) * ((c.e : ℂ)) ^ 2 * (N.c 1) * (sb z2.2 z3.2) + (-6) * ((c.e : ℂ)) ^ 2 * (mb z2.2 (p 1) z0.1) * (sb z0.2 z3.2)) * i17 + ((16) * ((c.SW : ℂ)) ^ 2 * ((c.e : ℂ)) ^ 2 * (N.c 1) * (ab z3.1 ρ0) + (-6) * ((c.e : ℂ)) ^ 2 * (N.c 1) * (ab z3.1 ρ0)) * i18 + ((16) * ((c.SW : ℂ)) ^ 2 * ((c.e : ℂ)) ^ 2 * ((c.mass .u : ℂ)) * (ab z1.1 z3.1) * (sb z0.2 z2.2) + (-8) * ((c.SW : ℂ)) ^ 2 * ((c.e : ℂ)) ^ 2 * (mb z0.2 (p 1) z3.1) * (sb z1.2 z2.2) + (-6) * ((c.e : ℂ)) ^ 2 * ((c.mass .u : ℂ)) * (ab z1.1 z3.1) * (sb z0.2 z2.2)) * i19 + ((-8) * ((c.SW : ℂ)) ^ 2 * ((c.e : ℂ)) ^ 2 * ((c.mass .u : ℂ)) * (ab z2.1 z3.1) * (sb z0.2 z2.2) + (6) * ((c.e : ℂ)) ^ 2 * ((c.mass .u : ℂ)) * (ab z2.1 z3.1) * (sb z0.2 z2.2)) * i20 + ((8) * ((c.SW : ℂ)) ^ 2 * ((c.e : ℂ)) ^ 2 * (mb z0.2 (p 1) z2.1) * (sb z0.2 z3.2) + (-6) * ((c.e : ℂ)) ^ 2 * (mb z0.2 (p 1) z2.1) * (sb z0.2 z3.2)) * i21 + ((8) * ((c.SW : ℂ)) ^ 2 * ((c.e : ℂ)) ^ 2 * ((c.mass .u : ℂ)) * (ab z3.1 ρ0) * (sb z0.2 z2.2) + (-8) * ((c.SW : ℂ)) ^ 2 * ((c.e : ℂ)) ^ 2 * (mb z2.2 (p 1) ρ0) * (sb z0.2 z3.2) + (6) * ((c.e : ℂ)) ^ 2 * (mb z2.2 (p 1) ρ0) * (sb z0.2 z3.2)) * i22 + ((16) * ((c.SW : ℂ)) ^ 2 * ((c.e : ℂ)) ^ 2 * ((c.mass .u : ℂ)) * (sb z0.2 z1.2) * (sb z0.2 z3.2) + (-6) * ((c.e : ℂ)) ^ 2 * ((c.mass .u : ℂ)) * (sb z0.2 z1.2) * (sb z0.2 z3.2)) * i23 + ((-8) * ((c.SW : ℂ)) ^ 2 * ((c.e : ℂ)) ^ 2 * ((c.mass .u : ℂ)) * (ab z0.1 ρ0) * (sb z0.2 z2.2)) * i24 + ((-8) * ((c.SW : ℂ)) ^ 2 * ((c.e : ℂ)) ^ 2 * (ab z1.1 z2.1) * (mb z0.2 (p 1) ρ0) + (6) * ((c.e : ℂ)) ^ 2 * (ab z1.1 z2.1) * (mb z0.2 (p 1) ρ0)) * i25 + ((-8) * ((c.SW : ℂ)) ^ 2 * ((c.e : ℂ)) ^ 2 * ((c.mass .u : ℂ)) * (ab z2.1 ρ0) * (sb z0.2 z2.2)) * i26 + ((8) * ((c.SW : ℂ)) ^ 2 * ((c.e : ℂ)) ^ 2 * (ab z1.1 z2.1) * (mb z0.2 (p 1) ρ0) + (-6) * ((c.e : ℂ)) ^ 2 * (ab z1.1 z2.1) * (mb z0.2 (p 1) ρ0)) * i27 + ((-8) * ((c.SW : ℂ)) ^ 2 * ((c.e : ℂ)) ^ 2 * (N.c 1) * (sb z1.2 z2.2) + (-8) * ((c.SW : ℂ)) ^ 2 * ((c.e : ℂ)) ^ 2 * (mb z2.2 (p 1) z0.1) * (sb z0.2 z1.2)) * i28 + ((8) * ((c.SW : ℂ)) ^ 2 * ((c.e : ℂ)) ^ 2 * (mb z2.2 (p 1) z0.1) * (sb z0.2 z1.2)) * i29 + ((8) * ((c.MW : ℂ)) * ((c.SW : ℂ)) ^ 2 * ((c.e : ℂ)) ^ 2 * ((c.CW : ℂ)⁻¹) * (sb z0.2 z1.2) * (sb z0.2 z2.2) + (8) * ((c.SW : ℂ)) ^ 2 * ((c.e : ℂ)) ^ 2 * (mb z0.2 (p 1) z2.1) * (sb z0.2 z1.2)) * i30)) * ((1) * ((c.CW : ℂ)) * ((c.CW : ℂ)⁻¹) * ((c.MW : ℂ)⁻¹) * ((c.SW : ℂ)⁻¹) * ((N.c 0)⁻¹) * ((N.c 1)⁻¹) / (9)) + ((-8) * ((c.CW : ℂ)) * ((c.MW : ℂ)) * ((c.SW : ℂ)) ^ 2 * ((c.e : ℂ)) ^ 2 * ((c.CW : ℂ)⁻¹) ^ 2 * ((c.MW : ℂ)⁻¹) * ((c.SW : ℂ)⁻¹) * ((N.c 1)⁻¹) * (ab z1.1 z2.1) * (ab z2.1 ρ0) * (sb z0.2 z3.2) / (9) + (8) * ((c.CW : ℂ)) * ((c.MW : ℂ)) * ((c.SW : ℂ)) ^ 2 * ((c.e : ℂ)) ^ 2 * ((c.CW : ℂ)⁻¹) ^ 2 * ((c.MW : ℂ)⁻¹) * ((c.SW : ℂ)⁻¹) * ((N.c 1)⁻¹) * (ab z3.1 ρ0) * (sb z0.2 z2.2) * (sb z1.2 z2.2) / (9) + (2) * ((c.CW : ℂ)) * ((c.MW : ℂ)) * ((c.e : ℂ)) ^ 2 * ((c.CW : ℂ)⁻¹) ^ 2 * ((c.MW : ℂ)⁻¹) * ((c.SW : ℂ)⁻¹) * ((N.c 1)⁻¹) * (ab z1.1 z2.1) * (ab z2.1 ρ0) * (sb z0.2 z3.2) / (3) + (-8) * ((c.CW : ℂ)) * ((c.SW : ℂ)) ^ 2 * ((c.e : ℂ)) ^ 2 * ((c.CW : ℂ)⁻¹) * ((c.MW : ℂ)⁻¹) * ((c.SW : ℂ)⁻¹) * ((c.mass .u : ℂ)) * ((N.c 1)⁻¹) * (ab z1.1 z2.1) * (ab z3.1 ρ0) * (sb z0.2 z2.2) / (9) + (8) * ((c.CW : ℂ)) * ((c.SW : ℂ)) ^ 2 * ((c.e : ℂ)) ^ 2 * ((c.CW : ℂ)⁻¹) * ((c.MW : ℂ)⁻¹) * ((c.SW : ℂ)⁻¹) * ((c.mass .u : ℂ)) * ((N.c 1)⁻¹) * (ab z2.1 ρ0) * (sb z0.2 z3.2) * (sb z1.2 z2.2) / (9) + (8) * ((c.CW : ℂ)) * ((c.SW : ℂ)) ^ 2 * ((c.e : ℂ)) ^ 2 * ((c.CW : ℂ)⁻¹) * ((c.MW : ℂ)⁻¹) * ((c.SW : ℂ)⁻¹) * ((N.c 1)⁻¹) * (ab z1.1 z2.1) * (mb z2.2 (p 1) ρ0) * (sb z0.2 z3.2) / (9) + (8) * ((c.CW : ℂ)) * ((c.SW : ℂ)) ^ 2 * ((c.e : ℂ)) ^ 2 * ((c.CW : ℂ)⁻¹) * ((c.MW : ℂ)⁻¹) * ((c.SW : ℂ)⁻¹) * ((N.c 1)⁻¹) * (ab z3.1 ρ0) * (mb z0.2 (p 1) z2.1) * (sb z1.2 z2.2) / (9) + (2) * ((c.CW : ℂ)) * ((c.e : ℂ)) ^ 2 * ((c.CW : ℂ)⁻¹) * ((c.MW : ℂ)⁻¹) * ((c.SW : ℂ)⁻¹) * ((c.mass .u : ℂ)) * ((N.c 1)⁻¹) * (ab z1.1 z2.1) * (ab z3.1 ρ0) * (sb z0.2 z2.2) / (3) + (-2) * ((c.CW : ℂ)) * ((c.e : ℂ)) ^ 2 * ((c.CW : ℂ)⁻¹) * ((c.MW : ℂ)⁻¹) * ((c.SW : ℂ)⁻¹) * ((N.c 1)⁻¹) * (ab z1.1 z2.1) * (mb z2.2 (p 1) ρ0) * (sb z0.2 z3.2) / (3)) * y0 + ((-8) * ((c.CW : ℂ)) * ((c.SW : ℂ)) ^ 2 * ((c.e : ℂ)) ^ 2 * ((c.CW : ℂ)⁻¹) * ((c.MW : ℂ)⁻¹) * ((c.SW : ℂ)⁻¹) * ((c.mass .u : ℂ)) * ((N.c 0)⁻¹) * (ab z1.1 ρ0) * (ab z2.1 z3.1) * (sb z0.2 z2.2) / (9) + (8) * ((c.CW : ℂ)) * ((c.SW : ℂ)) ^ 2 * ((c.e : ℂ)) ^ 2 * ((c.CW : ℂ)⁻¹) * ((c.MW : ℂ)⁻¹) * ((c.SW : ℂ)⁻¹) * ((c.mass .u : ℂ)) * ((N.c 0)⁻¹) * (ab z2.1 ρ0) * (sb z0.2 z1.2) * (sb z2.2 z3.2) / (9) + (-8) * ((c.CW : ℂ)) * ((c.SW : ℂ)) ^ 2 * ((c.e : ℂ)) ^ 2 * ((c.CW : ℂ)⁻¹) * ((c.MW : ℂ)⁻¹) * ((c.SW : ℂ)⁻¹) * ((N.c 0)⁻¹) * (ab z0.1 ρ0) * (ab z2.1 z3.1) * (sb z0.2 z1.2) * (sb z0.2 z2.2) / (9) + (8) * ((c.CW : ℂ)) * ((c.SW : ℂ)) ^ 2 * ((c.e : ℂ)) ^ 2 * ((c.CW : ℂ)⁻¹) * ((c.MW : ℂ)⁻¹) * ((c.SW : ℂ)⁻¹) * ((N.c 0)⁻¹) * (ab z1.1 ρ0) * (mb z0.2 (p 1) z2.1) * (sb z2.2 z3.2) / (9) + (8) * ((c.CW : ℂ)) * ((c.SW : ℂ)) ^ 2 * ((c.e : ℂ)) ^ 2 * ((c.CW : ℂ)⁻¹) * ((c.MW : ℂ)⁻¹) * ((c.SW : ℂ)⁻¹) * ((N.c 0)⁻¹) * (ab z2.1 z3.1) * (mb z2.2 (p 1) ρ0) * (sb z0.2 z1.2) / (9) + (-2) * ((c.CW : ℂ)) * ((c.e : ℂ)) ^ 2 * ((c.CW : ℂ)⁻¹) * ((c.MW : ℂ)⁻¹) * ((c.SW : ℂ)⁻¹) * ((c.mass .u : ℂ)) * ((N.c 0)⁻¹) * (ab z2.1 ρ0) * (sb z0.2 z1.2) * (sb z2.2 z3.2) / (3) + (-2) * ((c.CW : ℂ)) * ((c.e : ℂ)) ^ 2 * ((c.CW : ℂ)⁻¹) * ((c.MW : ℂ)⁻¹) * ((c.SW : ℂ)⁻¹) * ((N.c 0)⁻¹) * (ab z1.1 ρ0) * (mb z0.2 (p 1) z2.1) * (sb z2.2 z3.2) / (3)) * y1 + ((4) * ((c.MW : ℂ)) * (((√2 : ℝ) : ℂ)) ^ 2 * ((c.SW : ℂ)) ^ 2 * ((c.e : ℂ)) ^ 2 * ((c.CW : ℂ)⁻¹) * ((c.MW : ℂ)⁻¹) * ((c.SW : ℂ)⁻¹) * ((N.c 1)⁻¹) * (ab z1.1 z2.1) * (ab z2.1 ρ0) * (sb z0.2 z3.2) / (9) + (-4) * ((c.MW : ℂ)) * (((√2 : ℝ) : ℂ)) ^ 2 * ((c.SW : ℂ)) ^ 2 * ((c.e : ℂ)) ^ 2 * ((c.CW : ℂ)⁻¹) * ((c.MW : ℂ)⁻¹) * ((c.SW : ℂ)⁻¹) * ((N.c 1)⁻¹) * (ab z3.1 ρ0) * (sb z0.2 z2.2) * (sb z1.2 z2.2) / (9) + (-1) * ((c.MW : ℂ)) * (((√2 : ℝ) : ℂ)) ^ 2 * ((c.e : ℂ)) ^ 2 * ((c.CW : ℂ)⁻¹) * ((c.MW : ℂ)⁻¹) * ((c.SW : ℂ)⁻¹) * ((N.c 1)⁻¹) * (ab z1.1 z2.1) * (ab z2.1 ρ0) * (sb z0.2 z3.2) / (3) + (8) * ((c.MW : ℂ)) * ((c.SW : ℂ)) ^ 2 * ((c.e : ℂ)) ^ 2 * ((c.CW : ℂ)⁻¹) * ((c.MW : ℂ)⁻¹) * ((c.SW : ℂ)⁻¹) * ((N.c 0)⁻¹) * ((N.c 1)⁻¹) * (ab z0.1 ρ0) * (ab z1.1 z2.1) * (mb z0.2 (p 1) z2.1) * (sb z0.2 z3.2) / (9) + (8) * ((c.MW : ℂ)) * ((c.SW : ℂ)) ^ 2 * ((c.e : ℂ)) ^ 2 * ((c.CW : ℂ)⁻¹) * ((c.MW : ℂ)⁻¹) * ((c.SW : ℂ)⁻¹) * ((N.c 0)⁻¹) * ((N.c 1)⁻¹) * (ab z0.1 ρ0) * (ab z2.1 z3.1) * (mb z0.2 (p 1) z2.1) * (sb z0.2 z1.2) / (9) + (-8) * ((c.MW : ℂ)) * ((c.SW : ℂ)) ^ 2 * ((c.e : ℂ)) ^ 2 * ((c.CW : ℂ)⁻¹) * ((c.MW : ℂ)⁻¹) * ((c.SW : ℂ)⁻¹) * ((N.c 1)⁻¹) * (ab z1.1 z2.1) * (ab z2.1 ρ0) * (sb z0.2 z3.2) / (9) + (8) * ((c.MW : ℂ)) * ((c.SW : ℂ)) ^ 2 * ((c.e : ℂ)) ^ 2 * ((c.CW : ℂ)⁻¹) * ((c.MW : ℂ)⁻¹) * ((c.SW : ℂ)⁻¹) * ((N.c 1)⁻¹) * (ab z3.1 ρ0) * (sb z0.2 z2.2) * (sb z1.2 z2.2) / (9) + (-2) * ((c.MW : ℂ)) * ((c.e : ℂ)) ^ 2 * ((c.CW : ℂ)⁻¹) * ((c.MW : ℂ)⁻¹) * ((c.SW : ℂ)⁻¹) * ((N.c 0)⁻¹) * ((N.c 1)⁻¹) * (ab z0.1 ρ0) * (ab z1.1 z2.1) * (mb z0.2 (p 1) z2.1) * (sb z0.2 z3.2) / (3) + (2) * ((c.MW : ℂ)) * ((c.e : ℂ)) ^ 2 * ((c.CW : ℂ)⁻¹) * ((c.MW : ℂ)⁻¹) * ((c.SW : ℂ)⁻¹) * ((N.c 1)⁻¹) * (ab z1.1 z2.1) * (ab z2.1 ρ0) * (sb z0.2 z3.2) / (3) + (8) * ((c.MW : ℂ)) ^ 2 * ((c.SW : ℂ)) ^ 2 * ((c.e : ℂ)) ^ 2 * ((c.CW : ℂ)⁻¹) ^ 2 * ((c.MW : ℂ)⁻¹) * ((c.SW : ℂ)⁻¹) * ((N.c 0)⁻¹) * ((N.c 1)⁻¹) * (ab z0.1 ρ0) * (ab z2.1 z3.1) * (sb z0.2 z1.2) * (sb z0.2 z2.2) / (9) + (4) * (((√2 : ℝ) : ℂ)) ^ 2 * ((c.SW : ℂ)) ^ 2 * ((c.e : ℂ)) ^ 2 * ((c.MW : ℂ)⁻¹) * ((c.SW : ℂ)⁻¹) * ((c.mass .u : ℂ)) * ((N.c 0)⁻¹) * (ab z1.1 ρ0) * (ab z2.1 z3.1) * (sb z0.2 z2.2) / (9) + (-4) * (((√2 : ℝ) : ℂ)) ^ 2 * ((c.SW : ℂ)) ^ 2 * ((c.e : ℂ)) ^ 2 * ((c.MW : ℂ)⁻¹) * ((c.SW : ℂ)⁻¹) * ((c.mass .u : ℂ)) * ((N.c 0)⁻¹) * (ab z2.1 ρ0) * (sb z0.2 z1.2) * (sb z2.2 z3.2) / (9) + (4) * (((√2 : ℝ) : ℂ)) ^ 2 * ((c.SW : ℂ)) ^ 2 * ((c.e : ℂ)) ^ 2 * ((c.MW : ℂ)⁻¹) * ((c.SW : ℂ)⁻¹) * ((c.mass .u : ℂ)) * ((N.c 1)⁻¹) * (ab z1.1 z2.1) * (ab z3.1 ρ0) * (sb z0.2 z2.2) / (9) + (-4) * (((√2 : ℝ) : ℂ)) ^ 2 * ((c.SW : ℂ)) ^ 2 * ((c.e : ℂ)) ^ 2 * ((c.MW : ℂ)⁻¹) * ((c.SW : ℂ)⁻¹) * ((c.mass .u : ℂ)) * ((N.c 1)⁻¹) * (ab z2.1 ρ0) * (sb z0.2 z3.2) * (sb z1.2 z2.2) / (9) + (4) * (((√2 : ℝ) : ℂ)) ^ 2 * ((c.SW : ℂ)) ^ 2 * ((c.e : ℂ)) ^ 2 * ((c.MW : ℂ)⁻¹) * ((c.SW : ℂ)⁻¹) * ((N.c 0)⁻¹) * (ab z0.1 ρ0) * (ab z2.1 z3.1) * (sb z0.2 z1.2) * (sb z0.2 z2.2) / (9) + (-4) * (((√2 : ℝ) : ℂ)) ^ 2 * ((c.SW : ℂ)) ^ 2 * ((c.e : ℂ)) ^ 2 * ((c.MW : ℂ)⁻¹) * ((c.SW : ℂ)⁻¹) * ((N.c 0)⁻¹) * (ab z1.1 ρ0) * (mb z0.2 (p 1) z2.1) * (sb z2.2 z3.2) / (9) + (-4) * (((√2 : ℝ) : ℂ)) ^ 2 * ((c.SW : ℂ)) ^ 2 * ((c.e : ℂ)) ^ 2 * ((c.MW : ℂ)⁻¹) * ((c.SW : ℂ)⁻¹) * ((N.c 0)⁻¹) * (ab z2.1 z3.1) * (mb z2.2 (p 1) ρ0) * (sb z0.2 z1.2) / (9) + (-4) * (((√2 : ℝ) : ℂ)) ^ 2 * ((c.SW : ℂ)) ^ 2 * ((c.e : ℂ)) ^ 2 * ((c.MW : ℂ)⁻¹) * ((c.SW : ℂ)⁻¹) * ((N.c 1)⁻¹) * (ab z1.1 z2.1) * (mb z2.2 (p 1) ρ0) * (sb z0.2 z3.2) / (9) + (-4) * (((√2 : ℝ) : ℂ)) ^ 2 * ((c.SW : ℂ)) ^ 2 * ((c.e : ℂ)) ^ 2 * ((c.MW : ℂ)⁻¹) * ((c.SW : ℂ)⁻¹) * ((N.c 1)⁻¹) * (ab z3.1 ρ0) * (mb z0.2 (p 1) z2.1) * (sb z1.2 z2.2) / (9) + (1) * (((√2 : ℝ) : ℂ)) ^ 2 * ((c.e : ℂ)) ^ 2 * ((c.MW : ℂ)⁻¹) * ((c.SW : ℂ)⁻¹) * ((c.mass .u : ℂ)) * ((N.c 0)⁻¹) * (ab z2.1 ρ0) * (sb z0.2 z1.2) * (sb z2.2 z3.2) / (3) + (-1) * (((√2 : ℝ) : ℂ)) ^ 2 * ((c.e : ℂ)) ^ 2 * ((c.MW : ℂ)⁻¹) * ((c.SW : ℂ)⁻¹) * ((c.mass .u : ℂ)) * ((N.c 1)⁻¹) * (ab z1.1 z2.1) * (ab z3.1 ρ0) * (sb z0.2 z2.2) / (3) + (1) * (((√2 : ℝ) : ℂ)) ^ 2 * ((c.e : ℂ)) ^ 2 * ((c.MW : ℂ)⁻¹) * ((c.SW : ℂ)⁻¹) * ((N.c 0)⁻¹) * (ab z1.1 ρ0) * (mb z0.2 (p 1) z2.1) * (sb z2.2 z3.2) / (3) + (1) * (((√2 : ℝ) : ℂ)) ^ 2 * ((c.e : ℂ)) ^ 2 * ((c.MW : ℂ)⁻¹) * ((c.SW : ℂ)⁻¹) * ((N.c 1)⁻¹) * (ab z1.1 z2.1) * (mb z2.2 (p 1) ρ0) * (sb z0.2 z3.2) / (3) + (8) * ((c.SW : ℂ)) ^ 2 * ((c.e : ℂ)) ^ 2 * ((c.MW : ℂ)⁻¹) * ((c.SW : ℂ)⁻¹) * ((c.mass .u : ℂ)) * ((N.c 0)⁻¹) * ((N.c 1)⁻¹) * (ab z0.1 ρ0) * (ab z1.1 z2.1) * (mb z0.2 (p 1) z3.1) * (sb z0.2 z2.2) / (9) + (8) * ((c.SW : ℂ)) ^ 2 * ((c.e : ℂ)) ^ 2 * ((c.MW : ℂ)⁻¹) * ((c.SW : ℂ)⁻¹) * ((c.mass .u : ℂ)) * ((N.c 0)⁻¹) * ((N.c 1)⁻¹) * (ab z0.1 ρ0) * (ab z2.1 z3.1) * (mb z0.2 (p 2) z1.1) * (sb z0.2 z2.2) / (9) + (-8) * ((c.SW : ℂ)) ^ 2 * ((c.e : ℂ)) ^ 2 * ((c.MW : ℂ)⁻¹) * ((c.SW : ℂ)⁻¹) * ((c.mass .u : ℂ)) * ((N.c 0)⁻¹) * (ab z1.1 ρ0) * (ab z2.1 z3.1) * (sb z0.2 z2.2) / (9) + (8) * ((c.SW : ℂ)) ^ 2 * ((c.e : ℂ)) ^ 2 * ((c.MW : ℂ)⁻¹) * ((c.SW : ℂ)⁻¹) * ((c.mass .u : ℂ)) * ((N.c 0)⁻¹) * (ab z2.1 ρ0) * (sb z0.2 z1.2) * (sb z2.2 z3.2) / (9) + (-8) * ((c.SW : ℂ)) ^ 2 * ((c.e : ℂ)) ^ 2 * ((c.MW : ℂ)⁻¹) * ((c.SW : ℂ)⁻¹) * ((c.mass .u : ℂ)) * ((N.c 1)⁻¹) * (ab z1.1 z2.1) * (ab z3.1 ρ0) * (sb z0.2 z2.2) / (9) + (8) * ((c.SW : ℂ)) ^ 2 * ((c.e : ℂ)) ^ 2 * ((c.MW : ℂ)⁻¹) * ((c.SW : ℂ)⁻¹) * ((c.mass .u : ℂ)) * ((N.c 1)⁻¹) * (ab z2.1 ρ0) * (sb z0.2 z3.2) * (sb z1.2 z2.2) / (9) + (8) * ((c.SW : ℂ)) ^ 2 * ((c.e : ℂ)) ^ 2 * ((c.MW : ℂ)⁻¹) * ((c.SW : ℂ)⁻¹) * ((c.mass .u : ℂ)) ^ 2 * ((N.c 0)⁻¹) * ((N.c 1)⁻¹) * (ab z0.1 ρ0) * (ab z1.1 z2.1) * (sb z0.2 z2.2) * (sb z0.2 z3.2) / (9) + (-8) * ((c.SW : ℂ)) ^ 2 * ((c.e : ℂ)) ^ 2 * ((c.MW : ℂ)⁻¹) * ((c.SW : ℂ)⁻¹) * ((N.c 0)⁻¹) * (ab z0.1 ρ0) * (ab z2.1 z3.1) * (sb z0.2 z1.2) * (sb z0.2 z2.2) / (9) + (8) * ((c.SW : ℂ)) ^ 2 * ((c.e : ℂ)) ^ 2 * ((c.MW : ℂ)⁻¹) * ((c.SW : ℂ)⁻¹) * ((N.c 0)⁻¹) * (ab z1.1 ρ0) * (mb z0.2 (p 1) z2.1) * (sb z2.2 z3.2) / (9) + (8) * ((c.SW : ℂ)) ^ 2 * ((c.e : ℂ)) ^ 2 * ((c.MW : ℂ)⁻¹) * ((c.SW : ℂ)⁻¹) * ((N.c 0)⁻¹) * (ab z2.1 z3.1) * (mb z2.2 (p 1) ρ0) * (sb z0.2 z1.2) / (9) + (8) * ((c.SW : ℂ)) ^ 2 * ((c.e : ℂ)) ^ 2 * ((c.MW : ℂ)⁻¹) * ((c.SW : ℂ)⁻¹) * ((N.c 1)⁻¹) * (ab z1.1 z2.1) * (mb z2.2 (p 1) ρ0) * (sb z0.2 z3.2) / (9) + (8) * ((c.SW : ℂ)) ^ 2 * ((c.e : ℂ)) ^ 2 * ((c.MW : ℂ)⁻¹) * ((c.SW : ℂ)⁻¹) * ((N.c 1)⁻¹) * (ab z3.1 ρ0) * (mb z0.2 (p 1) z2.1) * (sb z1.2 z2.2) / (9) + (-2) * ((c.e : ℂ)) ^ 2 * ((c.MW : ℂ)⁻¹) * ((c.SW : ℂ)⁻¹) * ((c.mass .u : ℂ)) * ((N.c 0)⁻¹) * ((N.c 1)⁻¹) * (ab z0.1 ρ0) * (ab z1.1 z2.1) * (mb z0.2 (p 1) z3.1) * (sb z0.2 z2.2) / (3) + (-2) * ((c.e : ℂ)) ^ 2 * ((c.MW : ℂ)⁻¹) * ((c.SW : ℂ)⁻¹) * ((c.mass .u : ℂ)) * ((N.c 0)⁻¹) * (ab z2.1 ρ0) * (sb z0.2 z1.2) * (sb z2.2 z3.2) / (3) + (2) * ((c.e : ℂ)) ^ 2 * ((c.MW : ℂ)⁻¹) * ((c.SW : ℂ)⁻¹) * ((c.mass .u : ℂ)) * ((N.c 1)⁻¹) * (ab z1.1 z2.1) * (ab z3.1 ρ0) * (sb z0.2 z2.2) / (3) + (-2) * ((c.e : ℂ)) ^ 2 * ((c.MW : ℂ)⁻¹) * ((c.SW : ℂ)⁻¹) * ((c.mass .u : ℂ)) ^ 2 * ((N.c 0)⁻¹) * ((N.c 1)⁻¹) * (ab z0.1 ρ0) * (ab z1.1 z2.1) * (sb z0.2 z2.2) * (sb z0.2 z3.2) / (3) + (-2) * ((c.e : ℂ)) ^ 2 * ((c.MW : ℂ)⁻¹) * ((c.SW : ℂ)⁻¹) * ((N.c 0)⁻¹) * (ab z1.1 ρ0) * (mb z0.2 (p 1) z2.1) * (sb z2.2 z3.2) / (3) + (-2) * ((c.e : ℂ)) ^ 2 * ((c.MW : ℂ)⁻¹) * ((c.SW : ℂ)⁻¹) * ((N.c 1)⁻¹) * (ab z1.1 z2.1) * (mb z2.2 (p 1) ρ0) * (sb z0.2 z3.2) / (3)) * yCW + ((4) * (((√2 : ℝ) : ℂ)) ^ 2 * ((c.SW : ℂ)) ^ 2 * ((c.e : ℂ)) ^ 2 * ((c.CW : ℂ)⁻¹) * ((c.SW : ℂ)⁻¹) * ((N.c 1)⁻¹) * (ab z1.1 z2.1) * (ab z2.1 ρ0) * (sb z0.2 z3.2) / (9) + (-4) * (((√2 : ℝ) : ℂ)) ^ 2 * ((c.SW : ℂ)) ^ 2 * ((c.e : ℂ)) ^ 2 * ((c.CW : ℂ)⁻¹) * ((c.SW : ℂ)⁻¹) * ((N.c 1)⁻¹) * (ab z3.1 ρ0) * (sb z0.2 z2.2) * (sb z1.2 z2.2) / (9) + (-1) * (((√2 : ℝ) : ℂ)) ^ 2 * ((c.e : ℂ)) ^ 2 * ((c.CW : ℂ)⁻¹) * ((c.SW : ℂ)⁻¹) * ((N.c 1)⁻¹) * (ab z1.1 z2.1) * (ab z2.1 ρ0) * (sb z0.2 z3.2) / (3) + (-8) * ((c.SW : ℂ)) ^ 2 * ((c.e : ℂ)) ^ 2 * ((c.CW : ℂ)⁻¹) * ((c.SW : ℂ)⁻¹) * ((N.c 1)⁻¹) * (ab z1.1 z2.1) * (ab z2.1 ρ0) * (sb z0.2 z3.2) / (9) + (8) * ((c.SW : ℂ)) ^ 2 * ((c.e : ℂ)) ^ 2 * ((c.CW : ℂ)⁻¹) * ((c.SW : ℂ)⁻¹) * ((N.c 1)⁻¹) * (ab z3.1 ρ0) * (sb z0.2 z2.2) * (sb z1.2 z2.2) / (9) + (2) * ((c.e : ℂ)) ^ 2 * ((c.CW : ℂ)⁻¹) * ((c.SW : ℂ)⁻¹) * ((N.c 1)⁻¹) * (ab z1.1 z2.1) * (ab z2.1 ρ0) * (sb z0.2 z3.2) / (3)) * yMW + ((4) * (((√2 : ℝ) : ℂ)) ^ 2 * ((c.SW : ℂ)) * ((c.e : ℂ)) ^ 2 * ((c.CW : ℂ)⁻¹) * ((N.c 1)⁻¹) * (ab z1.1 z2.1) * (ab z2.1 ρ0) * (sb z0.2 z3.2) / (9) + (-4) * (((√2 : ℝ) : ℂ)) ^ 2 * ((c.SW : ℂ)) * ((c.e : ℂ)) ^ 2 * ((c.CW : ℂ)⁻¹) * ((N.c 1)⁻¹) * (ab z3.1 ρ0) * (sb z0.2 z2.2) * (sb z1.2 z2.2) / (9) + (4) * (((√2 : ℝ) : ℂ)) ^ 2 * ((c.SW : ℂ)) * ((c.e : ℂ)) ^ 2 * ((c.MW : ℂ)⁻¹) * ((c.mass .u : ℂ)) * ((N.c 0)⁻¹) * (ab z1.1 ρ0) * (ab z2.1 z3.1) * (sb z0.2 z2.2) / (9) + (-4) * (((√2 : ℝ) : ℂ)) ^ 2 * ((c.SW : ℂ)) * ((c.e : ℂ)) ^ 2 * ((c.MW : ℂ)⁻¹) * ((c.mass .u : ℂ)) * ((N.c 0)⁻¹) * (ab z2.1 ρ0) * (sb z0.2 z1.2) * (sb z2.2 z3.2) / (9) + (4) * (((√2 : ℝ) : ℂ)) ^ 2 * ((c.SW : ℂ)) * ((c.e : ℂ)) ^ 2 * ((c.MW : ℂ)⁻¹) * ((c.mass .u : ℂ)) * ((N.c 1)⁻¹) * (ab z1.1 z2.1) * (ab z3.1 ρ0) * (sb z0.2 z2.2) / (9) + (-4) * (((√2 : ℝ) : ℂ)) ^ 2 * ((c.SW : ℂ)) * ((c.e : ℂ)) ^ 2 * ((c.MW : ℂ)⁻¹) * ((c.mass .u : ℂ)) * ((N.c 1)⁻¹) * (ab z2.1 ρ0) * (sb z0.2 z3.2) * (sb z1.2 z2.2) / (9) + (4) * (((√2 : ℝ) : ℂ)) ^ 2 * ((c.SW : ℂ)) * ((c.e : ℂ)) ^ 2 * ((c.MW : ℂ)⁻¹) * ((N.c 0)⁻¹) * (ab z0.1 ρ0) * (ab z2.1 z3.1) * (sb z0.2 z1.2) * (sb z0.2 z2.2) / (9) + (-4) * (((√2 : ℝ) : ℂ)) ^ 2 * ((c.SW : ℂ)) * ((c.e : ℂ)) ^ 2 * ((c.MW : ℂ)⁻¹) * ((N.c 0)⁻¹) * (ab z1.1 ρ0) * (mb z0.2 (p 1) z2.1) * (sb z2.2 z3.2) / (9) + (-4) * (((√2 : ℝ) : ℂ)) ^ 2 * ((c.SW : ℂ)) * ((c.e : ℂ)) ^ 2 * ((c.MW : ℂ)⁻¹) * ((N.c 0)⁻¹) * (ab z2.1 z3.1) * (mb z2.2 (p 1) ρ0) * (sb z0.2 z1.2) / (9) + (-4) * (((√2 : ℝ) : ℂ)) ^ 2 * ((c.SW : ℂ)) * ((c.e : ℂ)) ^ 2 * ((c.MW : ℂ)⁻¹) * ((N.c 1)⁻¹) * (ab z1.1 z2.1) * (mb z2.2 (p 1) ρ0) * (sb z0.2 z3.2) / (9) + (-4) * (((√2 : ℝ) : ℂ)) ^ 2 * ((c.SW : ℂ)) * ((c.e : ℂ)) ^ 2 * ((c.MW : ℂ)⁻¹) * ((N.c 1)⁻¹) * (ab z3.1 ρ0) * (mb z0.2 (p 1) z2.1) * (sb z1.2 z2.2) / (9) + (-8) * ((c.SW : ℂ)) * ((c.e : ℂ)) ^ 2 * ((c.CW : ℂ)⁻¹) * ((N.c 1)⁻¹) * (ab z1.1 z2.1) * (ab z2.1 ρ0) * (sb z0.2 z3.2) / (9) + (8) * ((c.SW : ℂ)) * ((c.e : ℂ)) ^ 2 * ((c.CW : ℂ)⁻¹) * ((N.c 1)⁻¹) * (ab z3.1 ρ0) * (sb z0.2 z2.2) * (sb z1.2 z2.2) / (9) + (-8) * ((c.SW : ℂ)) * ((c.e : ℂ)) ^ 2 * ((c.MW : ℂ)⁻¹) * ((c.mass .u : ℂ)) * ((N.c 0)⁻¹) * (ab z1.1 ρ0) * (ab z2.1 z3.1) * (sb z0.2 z2.2) / (9) + (8) * ((c.SW : ℂ)) * ((c.e : ℂ)) ^ 2 * ((c.MW : ℂ)⁻¹) * ((c.mass .u : ℂ)) * ((N.c 0)⁻¹) * (ab z2.1 ρ0) * (sb z0.2 z1.2) * (sb z2.2 z3.2) / (9) + (-8) * ((c.SW : ℂ)) * ((c.e : ℂ)) ^ 2 * ((c.MW : ℂ)⁻¹) * ((c.mass .u : ℂ)) * ((N.c 1)⁻¹) * (ab z1.1 z2.1) * (ab z3.1 ρ0) * (sb z0.2 z2.2) / (9) + (8) * ((c.SW : ℂ)) * ((c.e : ℂ)) ^ 2 * ((c.MW : ℂ)⁻¹) * ((c.mass .u : ℂ)) * ((N.c 1)⁻¹) * (ab z2.1 ρ0) * (sb z0.2 z3.2) * (sb z1.2 z2.2) / (9) + (-8) * ((c.SW : ℂ)) * ((c.e : ℂ)) ^ 2 * ((c.MW : ℂ)⁻¹) * ((N.c 0)⁻¹) * (ab z0.1 ρ0) * (ab z2.1 z3.1) * (sb z0.2 z1.2) * (sb z0.2 z2.2) / (9) + (8) * ((c.SW : ℂ)) * ((c.e : ℂ)) ^ 2 * ((c.MW : ℂ)⁻¹) * ((N.c 0)⁻¹) * (ab z1.1 ρ0) * (mb z0.2 (p 1) z2.1) * (sb z2.2 z3.2) / (9) + (8) * ((c.SW : ℂ)) * ((c.e : ℂ)) ^ 2 * ((c.MW : ℂ)⁻¹) * ((N.c 0)⁻¹) * (ab z2.1 z3.1) * (mb z2.2 (p 1) ρ0) * (sb z0.2 z1.2) / (9) + (8) * ((c.SW : ℂ)) * ((c.e : ℂ)) ^ 2 * ((c.MW : ℂ)⁻¹) * ((N.c 1)⁻¹) * (ab z1.1 z2.1) * (mb z2.2 (p 1) ρ0) * (sb z0.2 z3.2) / (9) + (8) * ((c.SW : ℂ)) * ((c.e : ℂ)) ^ 2 * ((c.MW : ℂ)⁻¹) * ((N.c 1)⁻¹) * (ab z3.1 ρ0) * (mb z0.2 (p 1) z2.1) * (sb z1.2 z2.2) / (9)) * ySW + ((4) * ((c.SW : ℂ)) * ((c.e : ℂ)) ^ 2 * ((c.CW : ℂ)⁻¹) * ((N.c 1)⁻¹) * (ab z1.1 z2.1) * (ab z2.1 ρ0) * (sb z0.2 z3.2) / (9) + (-4) * ((c.SW : ℂ)) * ((c.e : ℂ)) ^ 2 * ((c.CW : ℂ)⁻¹) * ((N.c 1)⁻¹) * (ab z3.1 ρ0) * (sb z0.2 z2.2) * (sb z1.2 z2.2) / (9) + (4) * ((c.SW : ℂ)) * ((c.e : ℂ)) ^ 2 * ((c.MW : ℂ)⁻¹) * ((c.mass .u : ℂ)) * ((N.c 0)⁻¹) * (ab z1.1 ρ0) * (ab z2.1 z3.1) * (sb z0.2 z2.2) / (9) + (-4) * ((c.SW : ℂ)) * ((c.e : ℂ)) ^ 2 * ((c.MW : ℂ)⁻¹) * ((c.mass .u : ℂ)) * ((N.c 0)⁻¹) * (ab z2.1 ρ0) * (sb z0.2 z1.2) * (sb z2.2 z3.2) / (9) + (4) * ((c.SW : ℂ)) * ((c.e : ℂ)) ^ 2 * ((c.MW : ℂ)⁻¹) * ((c.mass .u : ℂ)) * ((N.c 1)⁻¹) * (ab z1.1 z2.1) * (ab z3.1 ρ0) * (sb z0.2 z2.2) / (9) + (-4) * ((c.SW : ℂ)) * ((c.e : ℂ)) ^ 2 * ((c.MW : ℂ)⁻¹) * ((c.mass .u : ℂ)) * ((N.c 1)⁻¹) * (ab z2.1 ρ0) * (sb z0.2 z3.2) * (sb z1.2 z2.2) / (9) + (4) * ((c.SW : ℂ)) * ((c.e : ℂ)) ^ 2 * ((c.MW : ℂ)⁻¹) * ((N.c 0)⁻¹) * (ab z0.1 ρ0) * (ab z2.1 z3.1) * (sb z0.2 z1.2) * (sb z0.2 z2.2) / (9) + (-4) * ((c.SW : ℂ)) * ((c.e : ℂ)) ^ 2 * ((c.MW : ℂ)⁻¹) * ((N.c 0)⁻¹) * (ab z1.1 ρ0) * (mb z0.2 (p 1) z2.1) * (sb z2.2 z3.2) / (9) + (-4) * ((c.SW : ℂ)) * ((c.e : ℂ)) ^ 2 * ((c.MW : ℂ)⁻¹) * ((N.c 0)⁻¹) * (ab z2.1 z3.1) * (mb z2.2 (p 1) ρ0) * (sb z0.2 z1.2) / (9) + (-4) * ((c.SW : ℂ)) * ((c.e : ℂ)) ^ 2 * ((c.MW : ℂ)⁻¹) * ((N.c 1)⁻¹) * (ab z1.1 z2.1) * (mb z2.2 (p 1) ρ0) * (sb z0.2 z3.2) / (9) + (-4) * ((c.SW : ℂ)) * ((c.e : ℂ)) ^ 2 * ((c.MW : ℂ)⁻¹) * ((N.c 1)⁻¹) * (ab z3.1 ρ0) * (mb z0.2 (p 1) z2.1) * (sb z1.2 z2.2) / (9) + (-1) * ((c.e : ℂ)) ^ 2 * ((c.CW : ℂ)⁻¹) * ((c.SW : ℂ)⁻¹) * ((N.c 1)⁻¹) * (ab z1.1 z2.1) * (ab z2.1 ρ0) * (sb z0.2 z3.2) / (3) + (1) * ((c.e : ℂ)) ^ 2 * ((c.MW : ℂ)⁻¹) * ((c.SW : ℂ)⁻¹) * ((c.mass .u : ℂ)) * ((N.c 0)⁻¹) * (ab z2.1 ρ0) * (sb z0.2 z1.2) * (sb z2.2 z3.2) / (3) + (-1) * ((c.e : ℂ)) ^ 2 * ((c.MW : ℂ)⁻¹) * ((c.SW : ℂ)⁻¹) * ((c.mass .u : ℂ)) * ((N.c 1)⁻¹) * (ab z1.1 z2.1) * (ab z3.1 ρ0) * (sb z0.2 z2.2) / (3) + (1) * ((c.e : ℂ)) ^ 2 * ((c.MW : ℂ)⁻¹) * ((c.SW : ℂ)⁻¹) * ((N.c 0)⁻¹) * (ab z1.1 ρ0) * (mb z0.2 (p 1) z2.1) * (sb z2.2 z3.2) / (3) + (1) * ((c.e : ℂ)) ^ 2 * ((c.MW : ℂ)⁻¹) * ((c.SW : ℂ)⁻¹) * ((N.c 1)⁻¹) * (ab z1.1 z2.1) * (mb z2.2 (p 1) ρ0) * (sb z0.2 z3.2) / (3)) * x22
theorem AuZu.keyM {c : Constants} {p : Nat → V4 ℝ} {N : Env} (hc : c.Physical) (hb : Balanced p) (r2 : N.r 2 = (c.mass .u)) (r6 : N.r 6 = (c.MW / c.CW)) (r8 : N.r 8 = (((c.e * c.e) * (((2 : Nat) : ℝ) / ((3 : Nat) : ℝ))) / (c.MW * c.SW))) (r10 : N.r 10 = (((((-((2 : Nat) : ℝ)) * (((2 : Nat) : ℝ) / ((3 : Nat) : ℝ))) * c.SW) * c.SW) + ((1 : Nat) : ℝ))) (r11 : N.r 11 = ((((-((2 : Nat) : ℝ)) * (((2 : Nat) : ℝ) / ((3 : Nat) : ℝ))) * c.SW) * c.SW)) (d0 : ((msq (plus (p 1) (p 0)) - c.mass .u ^ 2 : ℝ) : ℂ) = N.c 0) (n0 : N.c 0 ≠ 0) (d1 : ((msq (plus (p 1) (backward (p 2))) - c.mass .u ^ 2 : ℝ) : ℂ) = N.c 1) (n1 : N.c 1 ≠ 0) {z0 z1 z2 z3 : Pair} (b1 : Bold (p 1) (c.mass .u) z1) (b2 : Bold (p 2) c.MZ z2) (b3 : Bold (p 3) (c.mass .u) z3) (l0 : Light (p 0) z0) (e01 : mb z0.2 (p 1) z0.1 = N.c 0) (e03 : mb z0.2 (p 3) z0.1 = -N.c 1) (q1 : msq (p 1) = (c.mass .u) ^ 2) (q2 : msq (p 2) = c.MZ ^ 2) (q3 : msq (p 3) = (c.mass .u) ^ 2) (ρ0 : V2) :
    AuZu.formM N p z0 z1 z2 z2 z3 * sb ρ0 z0.2 = ((√2 : ℝ) * ((-1 : ℂ) * ((√2 / c.MZ : ℝ) : ℂ))) * AuZu.react.bare c p 3 1 0 2 z3 z1 (pv z0.1 ρ0) (pv z2.1 z2.2) := by
  rw [AuZu.react.bare_parts c p (i := 3) (j := 1) (a := 0) (b := 2) (x := .photon) (y := .z) (k := (p 0)) (k' := (backward (p 2))) (fun _ => rfl) (fun _ => rfl) (f := .u) (g := .u) rfl rfl (l := (p 1)) rfl (e := 1) (e' := 1) (if_neg Bool.false_ne_true) (if_neg Bool.false_ne_true)]
  rw [compton_vv (f := .u) (x := .u) (g := .u) (h := (rfl : Spec.after .photon Flavour.u = some Flavour.u)) (h' := (rfl : Spec.after .z Flavour.u = some Flavour.u)) (ha := by simp) (hb := by simp)]
  rw [compton_vv (f := .u) (x := .u) (g := .u) (h := (rfl : Spec.after .z Flavour.u = some Flavour.u)) (h' := (rfl : Spec.after .photon Flavour.u = some Flavour.u)) (ha := by simp) (hb := by simp)]
  rw [annihilation_none c _ _ (by rfl) (by simp), star_zero, add_zero, AuZu.formM]
  simp only [d0, d1, lineV_pv, lineV_four, contract_four_pv, contract_pv, mb_plus, mb_backward]
  have i0 := mb_schouten_left z0.2 z1.2 z2.2 (p 1) z0.1
  have i1 := mb_schouten_right ρ0 (p 1) z0.1 z1.1 z2.1
  have i2 := mb_schouten_left z0.2 z1.2 ρ0 (p 1) z0.1
  have i3 := mb_schouten_left z0.2 z2.2 ρ0 (p 1) z0.1
  have i4 := mb_schouten_left z0.2 z1.2 z2.2 (p 2) z0.1
  have i5 := mb_schouten_right z0.2 (p 2) z0.1 z1.1 z3.1
  have i6 := mb_schouten_right z0.2 (p 1) z0.1 z1.1 z3.1
  have i7 := ab_schouten z1.1 z2.1 z3.1 z0.1
  have i8 := mb_schouten_left z0.2 z1.2 ρ0 (p 2) z0.1
  have i9 := mb_schouten_right z2.2 (p 1) z0.1 z2.1 z3.1
  have i10 := mb_schouten_right ρ0 (p 2) z0.1 z2.1 z3.1
  have i11 := mb_schouten_right ρ0 (p 1) z0.1 z2.1 z3.1
  have i12 := mb_schouten_right z1.2 (p 2) z0.1 z2.1 z3.1
  have i13 := sb_schouten z1.2 z3.2 ρ0 z0.2
  have i14 := sb_schouten z2.2 z3.2 ρ0 z0.2
  have i15 := sb_schouten z1.2 z2.2 z3.2 z0.2
  have i16 := sb_schouten z2.2 z3.2 ρ0 z1.2
  have i17 := mb_schouten_left z0.2 z2.2 z3.2 (p 2) z0.1
  have i18 := mb_schouten_left z0.2 z2.2 z3.2 (p 1) z0.1
  have i19 := mb_schouten_right z3.2 (p 1) z0.1 z1.1 z2.1
  have i20 := mb_schouten_left z0.2 z1.2 z3.2 (p 1) z0.1
  have i21 := mb_schouten_right z2.2 (p 1) z0.1 z1.1 z2.1
  have i22 := mb_schouten_right z0.2 (p 2) z0.1 z1.1 z2.1
  have i23 := sb_schouten z1.2 z2.2 ρ0 z0.2
  have i24 := mb_schouten_left z0.2 z3.2 ρ0 (p 1) z0.1
  have i25 := mb_schouten_left z0.2 z1.2 z3.2 (p 2) z0.1
  have i26 := mb_schouten_right z2.2 (p 1) z0.1 z1.1 z3.1
  simp only [l0.mb_eq, b1.mb_left, b1.mb_right, b2.mb_left, b2.mb_right, b3.mb_left, b3.mb_right, e01, e03, mb_two hb z0.2 z0.1, mb_three hb z0.2 z1.1, mb_three hb z0.2 z2.1, mb_two hb z0.2 z3.1, mb_three hb z1.2 z0.1, mb_three hb z1.2 z1.1, mb_three hb z1.2 z2.1, mb_two hb z1.2 z3.1, mb_three hb z2.2 z0.1, mb_three hb z2.2 z1.1, mb_three hb z2.2 z2.1, mb_one hb z2.2 z3.1, mb_two hb z3.2 z0.1, mb_two hb z3.2 z1.1, mb_one hb z3.2 z2.1, mb_two hb z3.2 z3.1, mb_three hb ρ0 z0.1, mb_three hb ρ0 z1.1, mb_three hb ρ0 z2.1, mb_two hb ρ0 z3.1, ab_self, sb_self] at i0 i1 i2 i3 i4 i5 i6 i7 i8 i9 i10 i11 i12 i13 i14 i15 i16 i17 i18 i19 i20 i21 i22 i23 i24 i25 i26 ⊢
  simp only [ab_swap z0.1 z1.1, ab_swap z0.1 z2.1, ab_swap z0.1 z3.1, ab_swap z1.1 z2.1, ab_swap z1.1 z3.1, ab_swap z2.1 z3.1, sb_swap z0.2 z1.2, sb_swap z0.2 z2.2, sb_swap z0.2 z3.2, sb_swap z0.2 ρ0, sb_swap z1.2 z2.2, sb_swap z1.2 z3.2, sb_swap z1.2 ρ0, sb_swap z2.2 z3.2, sb_swap z2.2 ρ0, sb_swap z3.2 ρ0] at i0 i1 i2 i3 i4 i5 i6 i7 i8 i9 i10 i11 i12 i13 i14 i15 i16 i17 i18 i19 i20 i21 i22 i23 i24 i25 i26 ⊢
  simp only [r2, r6, r8, r10, r11, Constants.hL, Constants.hR, Constants.gL, Constants.gR, Constants.yuk, Constants.invVev, Flavour.charge_u, Flavour.isospin_u, ← c.mz]
  have xMW : (c.MW : ℂ) ≠ 0 := by exact_mod_cast hc.MW
  have xSW : (c.SW : ℂ) ≠ 0 := by exact_mod_cast hc.SW
  have xCW : (c.CW : ℂ) ≠ 0 := by exact_mod_cast hc.CW
  have x2 : ((√2 : ℝ) : ℂ) ≠ 0 := by exact_mod_cast (Real.sqrt_pos.2 two_pos).ne'
  have x22 : ((√2 : ℝ) : ℂ) ^ 2 = 2 := by rw [← Complex.ofReal_pow, Real.sq_sqrt two_pos.le]; norm_num
  have x23 : ((√2 : ℝ) : ℂ) ^ 3 = 2 * ((√2 : ℝ) : ℂ) := by rw [← x22]; ring
  have x24 : ((√2 : ℝ) : ℂ) ^ 4 = 4 := by linear_combination (((√2 : ℝ) : ℂ) ^ 2 + 2) * x22
  try simp only [← c.mz] at i0 i1 i2 i3 i4 i5 i6 i7 i8 i9 i10 i11 i12 i13 i14 i15 i16 i17 i18 i19 i20 i21 i22 i23 i24 i25 i26
  push_cast at i0 i1 i2 i3 i4 i5 i6 i7 i8 i9 i10 i11 i12 i13 i14 i15 i16 i17 i18 i19 i20 i21 i22 i23 i24 i25 i26 ⊢
  simp only [div_eq_mul_inv, mul_inv, inv_inv] at i0 i1 i2 i3 i4 i5 i6 i7 i8 i9 i10 i11 i12 i13 i14 i15 i16 i17 i18 i19 i20 i21 i22 i23 i24 i25 i26 ⊢
  have y0 := mul_inv_cancel₀ n0
  have y1 := mul_inv_cancel₀ n1
  have yCW := mul_inv_cancel₀ xCW
  have yMW := mul_inv_cancel₀ xMW
  have ySW := mul_inv_cancel₀ xSW
  linear_combination ((((8) * ((c.MW : ℂ)) * ((c.SW : ℂ)) ^ 2 * ((c.e : ℂ)) ^ 2 * ((c.CW : ℂ)⁻¹) * (ab z0.1 z3.1) * (sb z2.2 ρ0) + (16) * ((c.SW : ℂ)) ^ 2 * ((c.e : ℂ)) ^ 2 * ((c.mass .u : ℂ)) * (ab z0.1 z2.1) * (sb z3.2 ρ0) + (-8) * ((c.SW : ℂ)) ^ 2 * ((c.e : ℂ)) ^ 2 * (ab z0.1 z3.1) * (mb ρ0 (p 1) z2.1) + (-12) * ((c.e : ℂ)) ^ 2 * ((c.mass .u : ℂ)) * (ab z0.1 z2.1) * (sb z3.2 ρ0)) * i0 + ((8) * ((c.MW : ℂ)) * ((c.SW : ℂ)) ^ 2 * ((c.e : ℂ)) ^ 2 * ((c.CW : ℂ)⁻¹) * (ab z0.1 z2.1) * (sb z0.2 z3.2) + (-6) * ((c.MW : ℂ)) * ((c.e : ℂ)) ^ 2 * ((c.CW : ℂ)⁻¹) * (ab z0.1 z2.1) * (sb z0.2 z3.2) + (16) * ((c.SW : ℂ)) ^ 2 * ((c.e : ℂ)) ^ 2 * ((c.mass .u : ℂ)) * (ab z0.1 z3.1) * (sb z0.2 z2.2) + (8) * ((c.SW : ℂ)) ^ 2 * ((c.e : ℂ)) ^ 2 * (mb z2.2 (p 1) z0.1) * (sb z0.2 z3.2) + (-6) * ((c.e : ℂ)) ^ 2 * ((c.mass .u : ℂ)) * (ab z0.1 z3.1) * (sb z0.2 z2.2) + (-6) * ((c.e : ℂ)) ^ 2 * (mb z2.2 (p 1) z0.1) * (sb z0.2 z3.2)) * i1 + ((-8) * ((c.MW : ℂ)) * ((c.SW : ℂ)) ^ 2 * ((c.e : ℂ)) ^ 2 * ((c.CW : ℂ)⁻¹) * (ab z0.1 z2.1) * (ab z2.1 z3.1) + (16) * ((c.SW : ℂ)) ^ 2 * ((c.e : ℂ)) ^ 2 * ((c.mass .u : ℂ)) * (ab z0.1 z2.1) * (sb z2.2 z3.2) + (-8) * ((c.SW : ℂ)) ^ 2 * ((c.e : ℂ)) ^ 2 * (ab z0.1 z2.1) * (ab z0.1 z3.1) * (sb z0.2 z2.2) + (8) * ((c.SW : ℂ)) ^ 2 * ((c.e : ℂ)) ^ 2 * (ab z0.1 z3.1) * (mb z2.2 (p 1) z2.1) + (-6) * ((c.e : ℂ)) ^ 2 * ((c.mass .u : ℂ)) * (ab z0.1 z2.1) * (sb z2.2 z3.2)) * i2 + ((16) * ((c.SW : ℂ)) ^ 2 * ((c.e : ℂ)) ^ 2 * ((c.mass .u : ℂ)) * (ab z0.1 z1.1) * (ab z2.1 z3.1) + (-16) * ((c.SW : ℂ)) ^ 2 * ((c.e : ℂ)) ^ 2 * ((c.mass .u : ℂ)) * (ab z0.1 z2.1) * (ab z1.1 z3.1) + (-8) * ((c.SW : ℂ)) ^ 2 * ((c.e : ℂ)) ^ 2 * ((c.mass .u : ℂ)) * (ab z0.1 z2.1) * (sb z1.2 z3.2) + (-6) * ((c.e : ℂ)) ^ 2 * ((c.mass .u : ℂ)) * (ab z0.1 z1.1) * (ab z2.1 z3.1) + (6) * ((c.e : ℂ)) ^ 2 * ((c.mass .u : ℂ)) * (ab z0.1 z2.1) * (ab z1.1 z3.1) + (6) * ((c.e : ℂ)) ^ 2 * ((c.mass .u : ℂ)) * (ab z0.1 z2.1) * (sb z1.2 z3.2)) * i3 + ((-8) * ((c.SW : ℂ)) ^ 2 * ((c.e : ℂ)) ^ 2 * ((c.mass .u : ℂ)) * (ab z0.1 z2.1) * (sb z3.2 ρ0) + (6) * ((c.e : ℂ)) ^ 2 * ((c.mass .u : ℂ)) * (ab z0.1 z2.1) * (sb z3.2 ρ0)) * i4 + ((-8) * ((c.SW : ℂ)) ^ 2 * ((c.e : ℂ)) ^ 2 * ((c.mass .u : ℂ)) * (ab z0.1 z2.1) * (sb z2.2 ρ0)) * i5 + ((8) * ((c.SW : ℂ)) ^ 2 * ((c.e : ℂ)) ^ 2 * ((c.mass .u : ℂ)) * (ab z0.1 z2.1) * (sb z2.2 ρ0)) * i6 + ((-16) * ((c.SW : ℂ)) ^ 2 * ((c.e : ℂ)) ^ 2 * ((c.mass .u : ℂ)) * (N.c 0) * (sb z2.2 ρ0) + (-8) * ((c.SW : ℂ)) ^ 2 * ((c.e : ℂ)) ^ 2 * ((c.mass .u : ℂ)) * (N.c 1) * (sb z2.2 ρ0) + (8) * ((c.SW : ℂ)) ^ 2 * ((c.e : ℂ)) ^ 2 * ((c.mass .u : ℂ)) * (mb z2.2 (p 1) z0.1) * (sb z0.2 ρ0) + (-16) * ((c.SW : ℂ)) ^ 2 * ((c.e : ℂ)) ^ 2 * ((c.mass .u : ℂ)) * (mb ρ0 (p 1) z0.1) * (sb z0.2 z2.2) + (6) * ((c.e : ℂ)) ^ 2 * ((c.mass .u : ℂ)) * (N.c 0) * (sb z2.2 ρ0) + (6) * ((c.e : ℂ)) ^ 2 * ((c.mass .u : ℂ)) * (mb ρ0 (p 1) z0.1) * (sb z0.2 z2.2)) * i7 + ((8) * ((c.MW : ℂ)) * ((c.SW : ℂ)) ^ 2 * ((c.e : ℂ)) ^ 2 * ((c.CW : ℂ)⁻¹) * (ab z0.1 z2.1) * (ab z2.1 z3.1) + (-8) * ((c.SW : ℂ)) ^ 2 * ((c.e : ℂ)) ^ 2 * ((c.mass .u : ℂ)) * (ab z0.1 z2.1) * (sb z2.2 z3.2) + (8) * ((c.SW : ℂ)) ^ 2 * ((c.e : ℂ)) ^ 2 * (ab z0.1 z2.1) * (ab z0.1 z3.1) * (sb z0.2 z2.2) + (-8) * ((c.SW : ℂ)) ^ 2 * ((c.e : ℂ)) ^ 2 * (ab z0.1 z3.1) * (mb z2.2 (p 1) z2.1)) * i8 + ((-8) * ((c.SW : ℂ)) ^ 2 * ((c.e : ℂ)) ^ 2 * (N.c 1) * (sb z1.2 ρ0) + (8) * ((c.SW : ℂ)) ^ 2 * ((c.e : ℂ)) ^ 2 * (mb z1.2 (p 2) z0.1) * (sb z0.2 ρ0) + (8) * ((c.SW : ℂ)) ^ 2 * ((c.e : ℂ)) ^ 2 * (mb ρ0 (p 1) z0.1) * (sb z0.2 z1.2) + (-8) * ((c.SW : ℂ)) ^ 2 * ((c.e : ℂ)) ^ 2 * (mb ρ0 (p 2) z0.1) * (sb z0.2 z1.2)) * i9 + ((8) * ((c.SW : ℂ)) ^ 2 * ((c.e : ℂ)) ^ 2 * (mb z2.2 (p 1) z0.1) * (sb z0.2 z1.2)) * i10 + ((-8) * ((c.SW : ℂ)) ^ 2 * ((c.e : ℂ)) ^ 2 * (mb z2.2 (p 1) z0.1) * (sb z0.2 z1.2)) * i11 + ((-8) * ((c.SW : ℂ)) ^ 2 * ((c.e : ℂ)) ^ 2 * (mb z2.2 (p 1) z0.1) * (sb z0.2 ρ0)) * i12 + ((-8) * ((c.MW : ℂ)) * ((c.SW : ℂ)) ^ 2 * ((c.e : ℂ)) ^ 2 * ((c.CW : ℂ)⁻¹) * ((c.mass .u : ℂ)) * (ab z0.1 z2.1) ^ 2 + (6) * ((c.MW : ℂ)) * ((c.e : ℂ)) ^ 2 * ((c.CW : ℂ)⁻¹) * ((c.mass .u : ℂ)) * (ab z0.1 z2.1) ^ 2 + (-8) * ((c.SW : ℂ)) ^ 2 * ((c.e : ℂ)) ^ 2 * ((c.mass .u : ℂ)) * (ab z0.1 z2.1) * (mb z2.2 (p 1) z0.1) + (12) * ((c.e : ℂ)) ^ 2 * ((c.mass .u : ℂ)) * (ab z0.1 z2.1) * (mb z2.2 (p 1) z0.1)) * i13 + ((-8) * ((c.SW : ℂ)) ^ 2 * ((c.e : ℂ)) ^ 2 * ((c.mass .u : ℂ)) * (ab z0.1 z2.1) * (mb z1.2 (p 2) z0.1) + (-16) * ((c.SW : ℂ)) ^ 2 * ((c.e : ℂ)) ^ 2 * ((c.mass .u : ℂ)) ^ 2 * (ab z0.1 z1.1) * (ab z0.1 z2.1) + (6) * ((c.e : ℂ)) ^ 2 * ((c.mass .u : ℂ)) * (ab z0.1 z2.1) * (mb z1.2 (p 2) z0.1) + (12) * ((c.e : ℂ)) ^ 2 * ((c.mass .u : ℂ)) ^ 2 * (ab z0.1 z1.1) * (ab z0.1 z2.1)) * i14 + ((-8) * ((c.SW : ℂ)) ^ 2 * ((c.e : ℂ)) ^ 2 * ((c.mass .u : ℂ)) * (ab z0.1 z2.1) * (mb ρ0 (p 1) z0.1) + (6) * ((c.e : ℂ)) ^ 2 * ((c.mass .u : ℂ)) * (ab z0.1 z2.1) * (mb ρ0 (p 1) z0.1)) * i15 + ((-8) * ((c.SW : ℂ)) ^ 2 * ((c.e : ℂ)) ^ 2 * ((c.mass .u : ℂ)) * (N.c 0) * (ab z0.1 z2.1) + (8) * ((c.SW : ℂ)) ^ 2 * ((c.e : ℂ)) ^ 2 * ((c.mass .u : ℂ)) * (N.c 1) * (ab z0.1 z2.1) + (12) * ((c.e : ℂ)) ^ 2 * ((c.mass .u : ℂ)) * (N.c 0) * (ab z0.1 z2.1) + (-6) * ((c.e : ℂ)) ^ 2 * ((c.mass .u : ℂ)) * (N.c 1) * (ab z0.1 z2.1)) * i16 + ((8) * ((c.SW : ℂ)) ^ 2 * ((c.e : ℂ)) ^ 2 * (ab z0.1 z1.1) * (ab z0.1 z2.1) * (sb z0.2 ρ0) + (-8) * ((c.SW : ℂ)) ^ 2 * ((c.e : ℂ)) ^ 2 * (ab z0.1 z1.1) * (mb ρ0 (p 1) z2.1) + (-6) * ((c.e : ℂ)) ^ 2 * (ab z0.1 z1.1) * (ab z0.1 z2.1) * (sb z0.2 ρ0) + (6) * ((c.e : ℂ)) ^ 2 * (ab z0.1 z1.1) * (mb ρ0 (p 1) z2.1)) * i17 + ((-8) * ((c.SW : ℂ)) ^ 2 * ((c.e : ℂ)) ^ 2 * (ab z0.1 z1.1) * (ab z0.1 z2.1) * (sb z0.2 ρ0) + (8) * ((c.SW : ℂ)) ^ 2 * ((c.e : ℂ)) ^ 2 * (ab z0.1 z1.1) * (mb ρ0 (p 1) z2.1) + (-6) * ((c.e : ℂ)) ^ 2 * ((c.mass .u : ℂ)) * (ab z0.1 z2.1) * (sb z1.2 ρ0) + (6) * ((c.e : ℂ)) ^ 2 * (ab z0.1 z1.1) * (ab z0.1 z2.1) * (sb z0.2 ρ0) + (-6) * ((c.e : ℂ)) ^ 2 * (ab z0.1 z1.1) * (mb ρ0 (p 1) z2.1)) * i18 + ((-8) * ((c.MW : ℂ)) * ((c.SW : ℂ)) ^ 2 * ((c.e : ℂ)) ^ 2 * ((c.CW : ℂ)⁻¹) * (ab z0.1 z2.1) * (sb z0.2 ρ0) + (6) * ((c.MW : ℂ)) * ((c.e : ℂ)) ^ 2 * ((c.CW : ℂ)⁻¹) * (ab z0.1 z2.1) * (sb z0.2 ρ0) + (-8) * ((c.SW : ℂ)) ^ 2 * ((c.e : ℂ)) ^ 2 * (mb z2.2 (p 1) z0.1) * (sb z0.2 ρ0) + (6) * ((c.e : ℂ)) ^ 2 * (mb z2.2 (p 1) z0.1) * (sb z0.2 ρ0)) * i19 + ((-8) * ((c.SW : ℂ)) ^ 2 * ((c.e : ℂ)) ^ 2 * ((c.mass .u : ℂ)) * (ab z0.1 z2.1) * (sb z2.2 ρ0) + (12) * ((c.e : ℂ)) ^ 2 * ((c.mass .u : ℂ)) * (ab z0.1 z2.1) * (sb z2.2 ρ0)) * i20 + ((-8) * ((c.SW : ℂ)) ^ 2 * ((c.e : ℂ)) ^ 2 * ((c.mass .u : ℂ)) * (ab z0.1 z3.1) * (sb z0.2 ρ0) + (-8) * ((c.SW : ℂ)) ^ 2 * ((c.e : ℂ)) ^ 2 * (N.c 0) * (sb z3.2 ρ0) + (8) * ((c.SW : ℂ)) ^ 2 * ((c.e : ℂ)) ^ 2 * (mb z3.2 (p 1) z0.1) * (sb z0.2 ρ0) + (-8) * ((c.SW : ℂ)) ^ 2 * ((c.e : ℂ)) ^ 2 * (mb ρ0 (p 1) z0.1) * (sb z0.2 z3.2) + (6) * ((c.e : ℂ)) ^ 2 * (N.c 0) * (sb z3.2 ρ0) + (-6) * ((c.e : ℂ)) ^ 2 * (mb z3.2 (p 1) z0.1) * (sb z0.2 ρ0) + (6) * ((c.e : ℂ)) ^ 2 * (mb ρ0 (p 1) z0.1) * (sb z0.2 z3.2)) * i21 + ((8) * ((c.SW : ℂ)) ^ 2 * ((c.e : ℂ)) ^ 2 * ((c.mass .u : ℂ)) * (ab z0.1 z3.1) * (sb z2.2 ρ0)) * i22 + ((-16) * ((c.SW : ℂ)) ^ 2 * ((c.e : ℂ)) ^ 2 * ((c.mass .u : ℂ)) ^ 2 * (ab z0.1 z2.1) * (ab z0.1 z3.1) + (-6) * ((c.e : ℂ)) ^ 2 * ((c.mass .u : ℂ)) * (ab z0.1 z2.1) * (mb z3.2 (p 1) z0.1) + (6) * ((c.e : ℂ)) ^ 2 * ((c.mass .u : ℂ)) ^ 2 * (ab z0.1 z2.1) * (ab z0.1 z3.1)) * i23 + ((-8) * ((c.MW : ℂ)) * ((c.SW : ℂ)) ^ 2 * ((c.e : ℂ)) ^ 2 * ((c.CW : ℂ)⁻¹) * (ab z0.1 z2.1) * (ab z1.1 z2.1) + (6) * ((c.MW : ℂ)) * ((c.e : ℂ)) ^ 2 * ((c.CW : ℂ)⁻¹) * (ab z0.1 z2.1) * (ab z1.1 z2.1) + (8) * ((c.SW : ℂ)) ^ 2 * ((c.e : ℂ)) ^ 2 * (ab z0.1 z1.1) * (mb z2.2 (p 1) z2.1) + (-6) * ((c.e : ℂ)) ^ 2 * (ab z0.1 z1.1) * (mb z2.2 (p 1) z2.1)) * i24 + ((8) * ((c.SW : ℂ)) ^ 2 * ((c.e : ℂ)) ^ 2 * ((c.mass .u : ℂ)) * (ab z0.1 z2.1) * (sb z2.2 ρ0) + (-6) * ((c.e : ℂ)) ^ 2 * ((c.mass .u : ℂ)) * (ab z0.1 z2.1) * (sb z2.2 ρ0)) * i25 + ((6) * ((c.e : ℂ)) ^ 2 * ((c.mass .u : ℂ)) * (ab z0.1 z2.1) * (sb z0.2 ρ0)) * i26)) * ((1) * ((c.CW : ℂ)) * ((c.CW : ℂ)⁻¹) * ((c.MW : ℂ)⁻¹) * ((c.SW : ℂ)⁻¹) * ((N.c 0)⁻¹) * ((N.c 1)⁻¹) / (9)) + ((8) * ((c.CW : ℂ)) * ((c.MW : ℂ)) * ((c.SW : ℂ)) ^ 2 * ((c.e : ℂ)) ^ 2 * ((c.CW : ℂ)⁻¹) ^ 2 * ((c.MW : ℂ)⁻¹) * ((c.SW : ℂ)⁻¹) * ((N.c 1)⁻¹) * (ab z0.1 z2.1) * (ab z1.1 z2.1) * (sb z3.2 ρ0) / (9) + (-8) * ((c.CW : ℂ)) * ((c.MW : ℂ)) * ((c.SW : ℂ)) ^ 2 * ((c.e : ℂ)) ^ 2 * ((c.CW : ℂ)⁻¹) ^ 2 * ((c.MW : ℂ)⁻¹) * ((c.SW : ℂ)⁻¹) * ((N.c 1)⁻¹) * (ab z0.1 z3.1) * (sb z1.2 z2.2) * (sb z2.2 ρ0) / (9) + (-2) * ((c.CW : ℂ)) * ((c.MW : ℂ)) * ((c.e : ℂ)) ^ 2 * ((c.CW : ℂ)⁻¹) ^ 2 * ((c.MW : ℂ)⁻¹) * ((c.SW : ℂ)⁻¹) * ((N.c 1)⁻¹) * (ab z0.1 z2.1) * (ab z1.1 z2.1) * (sb z3.2 ρ0) / (3) + (-8) * ((c.CW : ℂ)) * ((c.SW : ℂ)) ^ 2 * ((c.e : ℂ)) ^ 2 * ((c.CW : ℂ)⁻¹) * ((c.MW : ℂ)⁻¹) * ((c.SW : ℂ)⁻¹) * ((c.mass .u : ℂ)) * ((N.c 1)⁻¹) * (ab z0.1 z2.1) * (sb z1.2 z2.2) * (sb z3.2 ρ0) / (9) + (8) * ((c.CW : ℂ)) * ((c.SW : ℂ)) ^ 2 * ((c.e : ℂ)) ^ 2 * ((c.CW : ℂ)⁻¹) * ((c.MW : ℂ)⁻¹) * ((c.SW : ℂ)⁻¹) * ((c.mass .u : ℂ)) * ((N.c 1)⁻¹) * (ab z0.1 z3.1) * (ab z1.1 z2.1) * (sb z2.2 ρ0) / (9) + (8) * ((c.CW : ℂ)) * ((c.SW : ℂ)) ^ 2 * ((c.e : ℂ)) ^ 2 * ((c.CW : ℂ)⁻¹) * ((c.MW : ℂ)⁻¹) * ((c.SW : ℂ)⁻¹) * ((N.c 1)⁻¹) * (ab z0.1 z3.1) * (mb ρ0 (p 1) z2.1) * (sb z1.2 z2.2) / (9) + (8) * ((c.CW : ℂ)) * ((c.SW : ℂ)) ^ 2 * ((c.e : ℂ)) ^ 2 * ((c.CW : ℂ)⁻¹) * ((c.MW : ℂ)⁻¹) * ((c.SW : ℂ)⁻¹) * ((N.c 1)⁻¹) * (ab z1.1 z2.1) * (mb z2.2 (p 1) z0.1) * (sb z3.2 ρ0) / (9) + (-2) * ((c.CW : ℂ)) * ((c.e : ℂ)) ^ 2 * ((c.CW : ℂ)⁻¹) * ((c.MW : ℂ)⁻¹) * ((c.SW : ℂ)⁻¹) * ((c.mass .u : ℂ)) * ((N.c 1)⁻¹) * (ab z0.1 z3.1) * (ab z1.1 z2.1) * (sb z2.2 ρ0) / (3) + (-2) * ((c.CW : ℂ)) * ((c.e : ℂ)) ^ 2 * ((c.CW : ℂ)⁻¹) * ((c.MW : ℂ)⁻¹) * ((c.SW : ℂ)⁻¹) * ((N.c 1)⁻¹) * (ab z1.1 z2.1) * (mb z2.2 (p 1) z0.1) * (sb z3.2 ρ0) / (3)) * y0 + ((8) * ((c.CW : ℂ)) * ((c.SW : ℂ)) ^ 2 * ((c.e : ℂ)) ^ 2 * ((c.CW : ℂ)⁻¹) * ((c.MW : ℂ)⁻¹) * ((c.SW : ℂ)⁻¹) * ((c.mass .u : ℂ)) * ((N.c 0)⁻¹) * (ab z0.1 z1.1) * (ab z2.1 z3.1) * (sb z2.2 ρ0) / (9) + (-8) * ((c.CW : ℂ)) * ((c.SW : ℂ)) ^ 2 * ((c.e : ℂ)) ^ 2 * ((c.CW : ℂ)⁻¹) * ((c.MW : ℂ)⁻¹) * ((c.SW : ℂ)⁻¹) * ((c.mass .u : ℂ)) * ((N.c 0)⁻¹) * (ab z0.1 z2.1) * (sb z1.2 ρ0) * (sb z2.2 z3.2) / (9) + (-8) * ((c.CW : ℂ)) * ((c.SW : ℂ)) ^ 2 * ((c.e : ℂ)) ^ 2 * ((c.CW : ℂ)⁻¹) * ((c.MW : ℂ)⁻¹) * ((c.SW : ℂ)⁻¹) * ((N.c 0)⁻¹) * (ab z0.1 z1.1) * (ab z0.1 z2.1) * (sb z0.2 ρ0) * (sb z2.2 z3.2) / (9) + (8) * ((c.CW : ℂ)) * ((c.SW : ℂ)) ^ 2 * ((c.e : ℂ)) ^ 2 * ((c.CW : ℂ)⁻¹) * ((c.MW : ℂ)⁻¹) * ((c.SW : ℂ)⁻¹) * ((N.c 0)⁻¹) * (ab z0.1 z1.1) * (mb ρ0 (p 1) z2.1) * (sb z2.2 z3.2) / (9) + (8) * ((c.CW : ℂ)) * ((c.SW : ℂ)) ^ 2 * ((c.e : ℂ)) ^ 2 * ((c.CW : ℂ)⁻¹) * ((c.MW : ℂ)⁻¹) * ((c.SW : ℂ)⁻¹) * ((N.c 0)⁻¹) * (ab z2.1 z3.1) * (mb z2.2 (p 1) z0.1) * (sb z1.2 ρ0) / (9) + (2) * ((c.CW : ℂ)) * ((c.e : ℂ)) ^ 2 * ((c.CW : ℂ)⁻¹) * ((c.MW : ℂ)⁻¹) * ((c.SW : ℂ)⁻¹) * ((c.mass .u : ℂ)) * ((N.c 0)⁻¹) * (ab z0.1 z2.1) * (sb z1.2 ρ0) * (sb z2.2 z3.2) / (3) + (2) * ((c.CW : ℂ)) * ((c.e : ℂ)) ^ 2 * ((c.CW : ℂ)⁻¹) * ((c.MW : ℂ)⁻¹) * ((c.SW : ℂ)⁻¹) * ((N.c 0)⁻¹) * (ab z0.1 z1.1) * (ab z0.1 z2.1) * (sb z0.2 ρ0) * (sb z2.2 z3.2) / (3) + (-2) * ((c.CW : ℂ)) * ((c.e : ℂ)) ^ 2 * ((c.CW : ℂ)⁻¹) * ((c.MW : ℂ)⁻¹) * ((c.SW : ℂ)⁻¹) * ((N.c 0)⁻¹) * (ab z0.1 z1.1) * (mb ρ0 (p 1) z2.1) * (sb z2.2 z3.2) / (3)) * y1 + ((-4) * ((c.MW : ℂ)) * (((√2 : ℝ) : ℂ)) ^ 2 * ((c.SW : ℂ)) ^ 2 * ((c.e : ℂ)) ^ 2 * ((c.CW : ℂ)⁻¹) * ((c.MW : ℂ)⁻¹) * ((c.SW : ℂ)⁻¹) * ((N.c 1)⁻¹) * (ab z0.1 z2.1) * (ab z1.1 z2.1) * (sb z3.2 ρ0) / (9) + (4) * ((c.MW : ℂ)) * (((√2 : ℝ) : ℂ)) ^ 2 * ((c.SW : ℂ)) ^ 2 * ((c.e : ℂ)) ^ 2 * ((c.CW : ℂ)⁻¹) * ((c.MW : ℂ)⁻¹) * ((c.SW : ℂ)⁻¹) * ((N.c 1)⁻¹) * (ab z0.1 z3.1) * (sb z1.2 z2.2) * (sb z2.2 ρ0) / (9) + (1) * ((c.MW : ℂ)) * (((√2 : ℝ) : ℂ)) ^ 2 * ((c.e : ℂ)) ^ 2 * ((c.CW : ℂ)⁻¹) * ((c.MW : ℂ)⁻¹) * ((c.SW : ℂ)⁻¹) * ((N.c 1)⁻¹) * (ab z0.1 z2.1) * (ab z1.1 z2.1) * (sb z3.2 ρ0) / (3) + (8) * ((c.MW : ℂ)) * ((c.SW : ℂ)) ^ 2 * ((c.e : ℂ)) ^ 2 * ((c.CW : ℂ)⁻¹) * ((c.MW : ℂ)⁻¹) * ((c.SW : ℂ)⁻¹) * ((N.c 0)⁻¹) * ((N.c 1)⁻¹) * (ab z0.1 z1.1) * (mb z2.2 (p 1) z0.1) * (sb z0.2 ρ0) * (sb z2.2 z3.2) / (9) + (8) * ((c.MW : ℂ)) * ((c.SW : ℂ)) ^ 2 * ((c.e : ℂ)) ^ 2 * ((c.CW : ℂ)⁻¹) * ((c.MW : ℂ)⁻¹) * ((c.SW : ℂ)⁻¹) * ((N.c 0)⁻¹) * ((N.c 1)⁻¹) * (ab z0.1 z3.1) * (mb z2.2 (p 1) z0.1) * (sb z0.2 ρ0) * (sb z1.2 z2.2) / (9) + (8) * ((c.MW : ℂ)) * ((c.SW : ℂ)) ^ 2 * ((c.e : ℂ)) ^ 2 * ((c.CW : ℂ)⁻¹) * ((c.MW : ℂ)⁻¹) * ((c.SW : ℂ)⁻¹) * ((N.c 1)⁻¹) * (ab z0.1 z2.1) * (ab z1.1 z2.1) * (sb z3.2 ρ0) / (9) + (-8) * ((c.MW : ℂ)) * ((c.SW : ℂ)) ^ 2 * ((c.e : ℂ)) ^ 2 * ((c.CW : ℂ)⁻¹) * ((c.MW : ℂ)⁻¹) * ((c.SW : ℂ)⁻¹) * ((N.c 1)⁻¹) * (ab z0.1 z3.1) * (sb z1.2 z2.2) * (sb z2.2 ρ0) / (9) + (-2) * ((c.MW : ℂ)) * ((c.e : ℂ)) ^ 2 * ((c.CW : ℂ)⁻¹) * ((c.MW : ℂ)⁻¹) * ((c.SW : ℂ)⁻¹) * ((N.c 0)⁻¹) * ((N.c 1)⁻¹) * (ab z0.1 z1.1) * (mb z2.2 (p 1) z0.1) * (sb z0.2 ρ0) * (sb z2.2 z3.2) / (3) + (-2) * ((c.MW : ℂ)) * ((c.e : ℂ)) ^ 2 * ((c.CW : ℂ)⁻¹) * ((c.MW : ℂ)⁻¹) * ((c.SW : ℂ)⁻¹) * ((N.c 1)⁻¹) * (ab z0.1 z2.1) * (ab z1.1 z2.1) * (sb z3.2 ρ0) / (3) + (8) * ((c.MW : ℂ)) ^ 2 * ((c.SW : ℂ)) ^ 2 * ((c.e : ℂ)) ^ 2 * ((c.CW : ℂ)⁻¹) ^ 2 * ((c.MW : ℂ)⁻¹) * ((c.SW : ℂ)⁻¹) * ((N.c 0)⁻¹) * ((N.c 1)⁻¹) * (ab z0.1 z1.1) * (ab z0.1 z2.1) * (sb z0.2 ρ0) * (sb z2.2 z3.2) / (9) + (-2) * ((c.MW : ℂ)) ^ 2 * ((c.e : ℂ)) ^ 2 * ((c.CW : ℂ)⁻¹) ^ 2 * ((c.MW : ℂ)⁻¹) * ((c.SW : ℂ)⁻¹) * ((N.c 0)⁻¹) * ((N.c 1)⁻¹) * (ab z0.1 z1.1) * (ab z0.1 z2.1) * (sb z0.2 ρ0) * (sb z2.2 z3.2) / (3) + (-4) * (((√2 : ℝ) : ℂ)) ^ 2 * ((c.SW : ℂ)) ^ 2 * ((c.e : ℂ)) ^ 2 * ((c.MW : ℂ)⁻¹) * ((c.SW : ℂ)⁻¹) * ((c.mass .u : ℂ)) * ((N.c 0)⁻¹) * (ab z0.1 z1.1) * (ab z2.1 z3.1) * (sb z2.2 ρ0) / (9) + (4) * (((√2 : ℝ) : ℂ)) ^ 2 * ((c.SW : ℂ)) ^ 2 * ((c.e : ℂ)) ^ 2 * ((c.MW : ℂ)⁻¹) * ((c.SW : ℂ)⁻¹) * ((c.mass .u : ℂ)) * ((N.c 0)⁻¹) * (ab z0.1 z2.1) * (sb z1.2 ρ0) * (sb z2.2 z3.2) / (9) + (4) * (((√2 : ℝ) : ℂ)) ^ 2 * ((c.SW : ℂ)) ^ 2 * ((c.e : ℂ)) ^ 2 * ((c.MW : ℂ)⁻¹) * ((c.SW : ℂ)⁻¹) * ((c.mass .u : ℂ)) * ((N.c 1)⁻¹) * (ab z0.1 z2.1) * (sb z1.2 z2.2) * (sb z3.2 ρ0) / (9) + (-4) * (((√2 : ℝ) : ℂ)) ^ 2 * ((c.SW : ℂ)) ^ 2 * ((c.e : ℂ)) ^ 2 * ((c.MW : ℂ)⁻¹) * ((c.SW : ℂ)⁻¹) * ((c.mass .u : ℂ)) * ((N.c 1)⁻¹) * (ab z0.1 z3.1) * (ab z1.1 z2.1) * (sb z2.2 ρ0) / (9) + (4) * (((√2 : ℝ) : ℂ)) ^ 2 * ((c.SW : ℂ)) ^ 2 * ((c.e : ℂ)) ^ 2 * ((c.MW : ℂ)⁻¹) * ((c.SW : ℂ)⁻¹) * ((N.c 0)⁻¹) * (ab z0.1 z1.1) * (ab z0.1 z2.1) * (sb z0.2 ρ0) * (sb z2.2 z3.2) / (9) + (-4) * (((√2 : ℝ) : ℂ)) ^ 2 * ((c.SW : ℂ)) ^ 2 * ((c.e : ℂ)) ^ 2 * ((c.MW : ℂ)⁻¹) * ((c.SW : ℂ)⁻¹) * ((N.c 0)⁻¹) * (ab z0.1 z1.1) * (mb ρ0 (p 1) z2.1) * (sb z2.2 z3.2) / (9) + (-4) * (((√2 : ℝ) : ℂ)) ^ 2 * ((c.SW : ℂ)) ^ 2 * ((c.e : ℂ)) ^ 2 * ((c.MW : ℂ)⁻¹) * ((c.SW : ℂ)⁻¹) * ((N.c 0)⁻¹) * (ab z2.1 z3.1) * (mb z2.2 (p 1) z0.1) * (sb z1.2 ρ0) / (9) + (-4) * (((√2 : ℝ) : ℂ)) ^ 2 * ((c.SW : ℂ)) ^ 2 * ((c.e : ℂ)) ^ 2 * ((c.MW : ℂ)⁻¹) * ((c.SW : ℂ)⁻¹) * ((N.c 1)⁻¹) * (ab z0.1 z3.1) * (mb ρ0 (p 1) z2.1) * (sb z1.2 z2.2) / (9) + (-4) * (((√2 : ℝ) : ℂ)) ^ 2 * ((c.SW : ℂ)) ^ 2 * ((c.e : ℂ)) ^ 2 * ((c.MW : ℂ)⁻¹) * ((c.SW : ℂ)⁻¹) * ((N.c 1)⁻¹) * (ab z1.1 z2.1) * (mb z2.2 (p 1) z0.1) * (sb z3.2 ρ0) / (9) + (-1) * (((√2 : ℝ) : ℂ)) ^ 2 * ((c.e : ℂ)) ^ 2 * ((c.MW : ℂ)⁻¹) * ((c.SW : ℂ)⁻¹) * ((c.mass .u : ℂ)) * ((N.c 0)⁻¹) * (ab z0.1 z2.1) * (sb z1.2 ρ0) * (sb z2.2 z3.2) / (3) + (1) * (((√2 : ℝ) : ℂ)) ^ 2 * ((c.e : ℂ)) ^ 2 * ((c.MW : ℂ)⁻¹) * ((c.SW : ℂ)⁻¹) * ((c.mass .u : ℂ)) * ((N.c 1)⁻¹) * (ab z0.1 z3.1) * (ab z1.1 z2.1) * (sb z2.2 ρ0) / (3) + (-1) * (((√2 : ℝ) : ℂ)) ^ 2 * ((c.e : ℂ)) ^ 2 * ((c.MW : ℂ)⁻¹) * ((c.SW : ℂ)⁻¹) * ((N.c 0)⁻¹) * (ab z0.1 z1.1) * (ab z0.1 z2.1) * (sb z0.2 ρ0) * (sb z2.2 z3.2) / (3) + (1) * (((√2 : ℝ) : ℂ)) ^ 2 * ((c.e : ℂ)) ^ 2 * ((c.MW : ℂ)⁻¹) * ((c.SW : ℂ)⁻¹) * ((N.c 0)⁻¹) * (ab z0.1 z1.1) * (mb ρ0 (p 1) z2.1) * (sb z2.2 z3.2) / (3) + (1) * (((√2 : ℝ) : ℂ)) ^ 2 * ((c.e : ℂ)) ^ 2 * ((c.MW : ℂ)⁻¹) * ((c.SW : ℂ)⁻¹) * ((N.c 1)⁻¹) * (ab z1.1 z2.1) * (mb z2.2 (p 1) z0.1) * (sb z3.2 ρ0) / (3) + (8) * ((c.SW : ℂ)) ^ 2 * ((c.e : ℂ)) ^ 2 * ((c.MW : ℂ)⁻¹) * ((c.SW : ℂ)⁻¹) * ((c.mass .u : ℂ)) * ((N.c 0)⁻¹) * ((N.c 1)⁻¹) * (ab z0.1 z2.1) * (mb z1.2 (p 2) z0.1) * (sb z0.2 ρ0) * (sb z2.2 z3.2) / (9) + (8) * ((c.SW : ℂ)) ^ 2 * ((c.e : ℂ)) ^ 2 * ((c.MW : ℂ)⁻¹) * ((c.SW : ℂ)⁻¹) * ((c.mass .u : ℂ)) * ((N.c 0)⁻¹) * ((N.c 1)⁻¹) * (ab z0.1 z2.1) * (mb z3.2 (p 1) z0.1) * (sb z0.2 ρ0) * (sb z1.2 z2.2) / (9) + (8) * ((c.SW : ℂ)) ^ 2 * ((c.e : ℂ)) ^ 2 * ((c.MW : ℂ)⁻¹) * ((c.SW : ℂ)⁻¹) * ((c.mass .u : ℂ)) * ((N.c 0)⁻¹) * (ab z0.1 z1.1) * (ab z2.1 z3.1) * (sb z2.2 ρ0) / (9) + (-8) * ((c.SW : ℂ)) ^ 2 * ((c.e : ℂ)) ^ 2 * ((c.MW : ℂ)⁻¹) * ((c.SW : ℂ)⁻¹) * ((c.mass .u : ℂ)) * ((N.c 0)⁻¹) * (ab z0.1 z2.1) * (sb z1.2 ρ0) * (sb z2.2 z3.2) / (9) + (-8) * ((c.SW : ℂ)) ^ 2 * ((c.e : ℂ)) ^ 2 * ((c.MW : ℂ)⁻¹) * ((c.SW : ℂ)⁻¹) * ((c.mass .u : ℂ)) * ((N.c 1)⁻¹) * (ab z0.1 z2.1) * (sb z1.2 z2.2) * (sb z3.2 ρ0) / (9) + (8) * ((c.SW : ℂ)) ^ 2 * ((c.e : ℂ)) ^ 2 * ((c.MW : ℂ)⁻¹) * ((c.SW : ℂ)⁻¹) * ((c.mass .u : ℂ)) * ((N.c 1)⁻¹) * (ab z0.1 z3.1) * (ab z1.1 z2.1) * (sb z2.2 ρ0) / (9) + (8) * ((c.SW : ℂ)) ^ 2 * ((c.e : ℂ)) ^ 2 * ((c.MW : ℂ)⁻¹) * ((c.SW : ℂ)⁻¹) * ((c.mass .u : ℂ)) ^ 2 * ((N.c 0)⁻¹) * ((N.c 1)⁻¹) * (ab z0.1 z2.1) * (ab z0.1 z3.1) * (sb z0.2 ρ0) * (sb z1.2 z2.2) / (9) + (-8) * ((c.SW : ℂ)) ^ 2 * ((c.e : ℂ)) ^ 2 * ((c.MW : ℂ)⁻¹) * ((c.SW : ℂ)⁻¹) * ((N.c 0)⁻¹) * (ab z0.1 z1.1) * (ab z0.1 z2.1) * (sb z0.2 ρ0) * (sb z2.2 z3.2) / (9) + (8) * ((c.SW : ℂ)) ^ 2 * ((c.e : ℂ)) ^ 2 * ((c.MW : ℂ)⁻¹) * ((c.SW : ℂ)⁻¹) * ((N.c 0)⁻¹) * (ab z0.1 z1.1) * (mb ρ0 (p 1) z2.1) * (sb z2.2 z3.2) / (9) + (8) * ((c.SW : ℂ)) ^ 2 * ((c.e : ℂ)) ^ 2 * ((c.MW : ℂ)⁻¹) * ((c.SW : ℂ)⁻¹) * ((N.c 0)⁻¹) * (ab z2.1 z3.1) * (mb z2.2 (p 1) z0.1) * (sb z1.2 ρ0) / (9) + (8) * ((c.SW : ℂ)) ^ 2 * ((c.e : ℂ)) ^ 2 * ((c.MW : ℂ)⁻¹) * ((c.SW : ℂ)⁻¹) * ((N.c 1)⁻¹) * (ab z0.1 z3.1) * (mb ρ0 (p 1) z2.1) * (sb z1.2 z2.2) / (9) + (8) * ((c.SW : ℂ)) ^ 2 * ((c.e : ℂ)) ^ 2 * ((c.MW : ℂ)⁻¹) * ((c.SW : ℂ)⁻¹) * ((N.c 1)⁻¹) * (ab z1.1 z2.1) * (mb z2.2 (p 1) z0.1) * (sb z3.2 ρ0) / (9) + (-2) * ((c.e : ℂ)) ^ 2 * ((c.MW : ℂ)⁻¹) * ((c.SW : ℂ)⁻¹) * ((c.mass .u : ℂ)) * ((N.c 0)⁻¹) * ((N.c 1)⁻¹) * (ab z0.1 z2.1) * (mb z1.2 (p 2) z0.1) * (sb z0.2 ρ0) * (sb z2.2 z3.2) / (3) + (2) * ((c.e : ℂ)) ^ 2 * ((c.MW : ℂ)⁻¹) * ((c.SW : ℂ)⁻¹) * ((c.mass .u : ℂ)) * ((N.c 0)⁻¹) * (ab z0.1 z2.1) * (sb z1.2 ρ0) * (sb z2.2 z3.2) / (3) + (-2) * ((c.e : ℂ)) ^ 2 * ((c.MW : ℂ)⁻¹) * ((c.SW : ℂ)⁻¹) * ((c.mass .u : ℂ)) * ((N.c 1)⁻¹) * (ab z0.1 z3.1) * (ab z1.1 z2.1) * (sb z2.2 ρ0) / (3) + (2) * ((c.e : ℂ)) ^ 2 * ((c.MW : ℂ)⁻¹) * ((c.SW : ℂ)⁻¹) * ((N.c 0)⁻¹) * (ab z0.1 z1.1) * (ab z0.1 z2.1) * (sb z0.2 ρ0) * (sb z2.2 z3.2) / (3) + (-2) * ((c.e : ℂ)) ^ 2 * ((c.MW : ℂ)⁻¹) * ((c.SW : ℂ)⁻¹) * ((N.c 0)⁻¹) * (ab z0.1 z1.1) * (mb ρ0 (p 1) z2.1) * (sb z2.2 z3.2) / (3) + (-2) * ((c.e : ℂ)) ^ 2 * ((c.MW : ℂ)⁻¹) * ((c.SW : ℂ)⁻¹) * ((N.c 1)⁻¹) * (ab z1.1 z2.1) * (mb z2.2 (p 1) z0.1) * (sb z3.2 ρ0) / (3)) * yCW + ((-4) * (((√2 : ℝ) : ℂ)) ^ 2 * ((c.SW : ℂ)) ^ 2 * ((c.e : ℂ)) ^ 2 * ((c.CW : ℂ)⁻¹) * ((c.SW : ℂ)⁻¹) * ((N.c 1)⁻¹) * (ab z0.1 z2.1) * (ab z1.1 z2.1) * (sb z3.2 ρ0) / (9) + (4) * (((√2 : ℝ) : ℂ)) ^ 2 * ((c.SW : ℂ)) ^ 2 * ((c.e : ℂ)) ^ 2 * ((c.CW : ℂ)⁻¹) * ((c.SW : ℂ)⁻¹) * ((N.c 1)⁻¹) * (ab z0.1 z3.1) * (sb z1.2 z2.2) * (sb z2.2 ρ0) / (9) + (1) * (((√2 : ℝ) : ℂ)) ^ 2 * ((c.e : ℂ)) ^ 2 * ((c.CW : ℂ)⁻¹) * ((c.SW : ℂ)⁻¹) * ((N.c 1)⁻¹) * (ab z0.1 z2.1) * (ab z1.1 z2.1) * (sb z3.2 ρ0) / (3) + (8) * ((c.SW : ℂ)) ^ 2 * ((c.e : ℂ)) ^ 2 * ((c.CW : ℂ)⁻¹) * ((c.SW : ℂ)⁻¹) * ((N.c 1)⁻¹) * (ab z0.1 z2.1) * (ab z1.1 z2.1) * (sb z3.2 ρ0) / (9) + (-8) * ((c.SW : ℂ)) ^ 2 * ((c.e : ℂ)) ^ 2 * ((c.CW : ℂ)⁻¹) * ((c.SW : ℂ)⁻¹) * ((N.c 1)⁻¹) * (ab z0.1 z3.1) * (sb z1.2 z2.2) * (sb z2.2 ρ0) / (9) + (-2) * ((c.e : ℂ)) ^ 2 * ((c.CW : ℂ)⁻¹) * ((c.SW : ℂ)⁻¹) * ((N.c 1)⁻¹) * (ab z0.1 z2.1) * (ab z1.1 z2.1) * (sb z3.2 ρ0) / (3)) * yMW + ((-4) * (((√2 : ℝ) : ℂ)) ^ 2 * ((c.SW : ℂ)) * ((c.e : ℂ)) ^ 2 * ((c.CW : ℂ)⁻¹) * ((N.c 1)⁻¹) * (ab z0.1 z2.1) * (ab z1.1 z2.1) * (sb z3.2 ρ0) / (9) + (4) * (((√2 : ℝ) : ℂ)) ^ 2 * ((c.SW : ℂ)) * ((c.e : ℂ)) ^ 2 * ((c.CW : ℂ)⁻¹) * ((N.c 1)⁻¹) * (ab z0.1 z3.1) * (sb z1.2 z2.2) * (sb z2.2 ρ0) / (9) + (-4) * (((√2 : ℝ) : ℂ)) ^ 2 * ((c.SW : ℂ)) * ((c.e : ℂ)) ^ 2 * ((c.MW : ℂ)⁻¹) * ((c.mass .u : ℂ)) * ((N.c 0)⁻¹) * (ab z0.1 z1.1) * (ab z2.1 z3.1) * (sb z2.2 ρ0) / (9) + (4) * (((√2 : ℝ) : ℂ)) ^ 2 * ((c.SW : ℂ)) * ((c.e : ℂ)) ^ 2 * ((c.MW : ℂ)⁻¹) * ((c.mass .u : ℂ)) * ((N.c 0)⁻¹) * (ab z0.1 z2.1) * (sb z1.2 ρ0) * (sb z2.2 z3.2) / (9) + (4) * (((√2 : ℝ) : ℂ)) ^ 2 * ((c.SW : ℂ)) * ((c.e : ℂ)) ^ 2 * ((c.MW : ℂ)⁻¹) * ((c.mass .u : ℂ)) * ((N.c 1)⁻¹) * (ab z0.1 z2.1) * (sb z1.2 z2.2) * (sb z3.2 ρ0) / (9) + (-4) * (((√2 : ℝ) : ℂ)) ^ 2 * ((c.SW : ℂ)) * ((c.e : ℂ)) ^ 2 * ((c.MW : ℂ)⁻¹) * ((c.mass .u : ℂ)) * ((N.c 1)⁻¹) * (ab z0.1 z3.1) * (ab z1.1 z2.1) * (sb z2.2 ρ0) / (9) + (4) * (((√2 : ℝ) : ℂ)) ^ 2 * ((c.SW : ℂ)) * ((c.e : ℂ)) ^ 2 * ((c.MW : ℂ)⁻¹) * ((N.c 0)⁻¹) * (ab z0.1 z1.1) * (ab z0.1 z2.1) * (sb z0.2 ρ0) * (sb z2.2 z3.2) / (9) + (-4) * (((√2 : ℝ) : ℂ)) ^ 2 * ((c.SW : ℂ)) * ((c.e : ℂ)) ^ 2 * ((c.MW : ℂ)⁻¹) * ((N.c 0)⁻¹) * (ab z0.1 z1.1) * (mb ρ0 (p 1) z2.1) * (sb z2.2 z3.2) / (9) + (-4) * (((√2 : ℝ) : ℂ)) ^ 2 * ((c.SW : ℂ)) * ((c.e : ℂ)) ^ 2 * ((c.MW : ℂ)⁻¹) * ((N.c 0)⁻¹) * (ab z2.1 z3.1) * (mb z2.2 (p 1) z0.1) * (sb z1.2 ρ0) / (9) + (-4) * (((√2 : ℝ) : ℂ)) ^ 2 * ((c.SW : ℂ)) * ((c.e : ℂ)) ^ 2 * ((c.MW : ℂ)⁻¹) * ((N.c 1)⁻¹) * (ab z0.1 z3.1) * (mb ρ0 (p 1) z2.1) * (sb z1.2 z2.2) / (9) + (-4) * (((√2 : ℝ) : ℂ)) ^ 2 * ((c.SW : ℂ)) * ((c.e : ℂ)) ^ 2 * ((c.MW : ℂ)⁻¹) * ((N.c 1)⁻¹) * (ab z1.1 z2.1) * (mb z2.2 (p 1) z0.1) * (sb z3.2 ρ0) / (9) + (8) * ((c.SW : ℂ)) * ((c.e : ℂ)) ^ 2 * ((c.CW : ℂ)⁻¹) * ((N.c 1)⁻¹) * (ab z0.1 z2.1) * (ab z1.1 z2.1) * (sb z3.2 ρ0) / (9) + (-8) * ((c.SW : ℂ)) * ((c.e : ℂ)) ^ 2 * ((c.CW : ℂ)⁻¹) * ((N.c 1)⁻¹) * (ab z0.1 z3.1) * (sb z1.2 z2.2) * (sb z2.2 ρ0) / (9) + (8) * ((c.SW : ℂ)) * ((c.e : ℂ)) ^ 2 * ((c.MW : ℂ)⁻¹) * ((c.mass .u : ℂ)) * ((N.c 0)⁻¹) * (ab z0.1 z1.1) * (ab z2.1 z3.1) * (sb z2.2 ρ0) / (9) + (-8) * ((c.SW : ℂ)) * ((c.e : ℂ)) ^ 2 * ((c.MW : ℂ)⁻¹) * ((c.mass .u : ℂ)) * ((N.c 0)⁻¹) * (ab z0.1 z2.1) * (sb z1.2 ρ0) * (sb z2.2 z3.2) / (9) + (-8) * ((c.SW : ℂ)) * ((c.e : ℂ)) ^ 2 * ((c.MW : ℂ)⁻¹) * ((c.mass .u : ℂ)) * ((N.c 1)⁻¹) * (ab z0.1 z2.1) * (sb z1.2 z2.2) * (sb z3.2 ρ0) / (9) + (8) * ((c.SW : ℂ)) * ((c.e : ℂ)) ^ 2 * ((c.MW : ℂ)⁻¹) * ((c.mass .u : ℂ)) * ((N.c 1)⁻¹) * (ab z0.1 z3.1) * (ab z1.1 z2.1) * (sb z2.2 ρ0) / (9) + (-8) * ((c.SW : ℂ)) * ((c.e : ℂ)) ^ 2 * ((c.MW : ℂ)⁻¹) * ((N.c 0)⁻¹) * (ab z0.1 z1.1) * (ab z0.1 z2.1) * (sb z0.2 ρ0) * (sb z2.2 z3.2) / (9) + (8) * ((c.SW : ℂ)) * ((c.e : ℂ)) ^ 2 * ((c.MW : ℂ)⁻¹) * ((N.c 0)⁻¹) * (ab z0.1 z1.1) * (mb ρ0 (p 1) z2.1) * (sb z2.2 z3.2) / (9) + (8) * ((c.SW : ℂ)) * ((c.e : ℂ)) ^ 2 * ((c.MW : ℂ)⁻¹) * ((N.c 0)⁻¹) * (ab z2.1 z3.1) * (mb z2.2 (p 1) z0.1) * (sb z1.2 ρ0) / (9) + (8) * ((c.SW : ℂ)) * ((c.e : ℂ)) ^ 2 * ((c.MW : ℂ)⁻¹) * ((N.c 1)⁻¹) * (ab z0.1 z3.1) * (mb ρ0 (p 1) z2.1) * (sb z1.2 z2.2) / (9) + (8) * ((c.SW : ℂ)) * ((c.e : ℂ)) ^ 2 * ((c.MW : ℂ)⁻¹) * ((N.c 1)⁻¹) * (ab z1.1 z2.1) * (mb z2.2 (p 1) z0.1) * (sb z3.2 ρ0) / (9)) * ySW + ((-4) * ((c.SW : ℂ)) * ((c.e : ℂ)) ^ 2 * ((c.CW : ℂ)⁻¹) * ((N.c 1)⁻¹) * (ab z0.1 z2.1) * (ab z1.1 z2.1) * (sb z3.2 ρ0) / (9) + (4) * ((c.SW : ℂ)) * ((c.e : ℂ)) ^ 2 * ((c.CW : ℂ)⁻¹) * ((N.c 1)⁻¹) * (ab z0.1 z3.1) * (sb z1.2 z2.2) * (sb z2.2 ρ0) / (9) + (-4) * ((c.SW : ℂ)) * ((c.e : ℂ)) ^ 2 * ((c.MW : ℂ)⁻¹) * ((c.mass .u : ℂ)) * ((N.c 0)⁻¹) * (ab z0.1 z1.1) * (ab z2.1 z3.1) * (sb z2.2 ρ0) / (9) + (4) * ((c.SW : ℂ)) * ((c.e : ℂ)) ^ 2 * ((c.MW : ℂ)⁻¹) * ((c.mass .u : ℂ)) * ((N.c 0)⁻¹) * (ab z0.1 z2.1) * (sb z1.2 ρ0) * (sb z2.2 z3.2) / (9) + (4) * ((c.SW : ℂ)) * ((c.e : ℂ)) ^ 2 * ((c.MW : ℂ)⁻¹) * ((c.mass .u : ℂ)) * ((N.c 1)⁻¹) * (ab z0.1 z2.1) * (sb z1.2 z2.2) * (sb z3.2 ρ0) / (9) + (-4) * ((c.SW : ℂ)) * ((c.e : ℂ)) ^ 2 * ((c.MW : ℂ)⁻¹) * ((c.mass .u : ℂ)) * ((N.c 1)⁻¹) * (ab z0.1 z3.1) * (ab z1.1 z2.1) * (sb z2.2 ρ0) / (9) + (4) * ((c.SW : ℂ)) * ((c.e : ℂ)) ^ 2 * ((c.MW : ℂ)⁻¹) * ((N.c 0)⁻¹) * (ab z0.1 z1.1) * (ab z0.1 z2.1) * (sb z0.2 ρ0) * (sb z2.2 z3.2) / (9) + (-4) * ((c.SW : ℂ)) * ((c.e : ℂ)) ^ 2 * ((c.MW : ℂ)⁻¹) * ((N.c 0)⁻¹) * (ab z0.1 z1.1) * (mb ρ0 (p 1) z2.1) * (sb z2.2 z3.2) / (9) + (-4) * ((c.SW : ℂ)) * ((c.e : ℂ)) ^ 2 * ((c.MW : ℂ)⁻¹) * ((N.c 0)⁻¹) * (ab z2.1 z3.1) * (mb z2.2 (p 1) z0.1) * (sb z1.2 ρ0) / (9) + (-4) * ((c.SW : ℂ)) * ((c.e : ℂ)) ^ 2 * ((c.MW : ℂ)⁻¹) * ((N.c 1)⁻¹) * (ab z0.1 z3.1) * (mb ρ0 (p 1) z2.1) * (sb z1.2 z2.2) / (9) + (-4) * ((c.SW : ℂ)) * ((c.e : ℂ)) ^ 2 * ((c.MW : ℂ)⁻¹) * ((N.c 1)⁻¹) * (ab z1.1 z2.1) * (mb z2.2 (p 1) z0.1) * (sb z3.2 ρ0) / (9) + (1) * ((c.e : ℂ)) ^ 2 * ((c.CW : ℂ)⁻¹) * ((c.SW : ℂ)⁻¹) * ((N.c 1)⁻¹) * (ab z0.1 z2.1) * (ab z1.1 z2.1) * (sb z3.2 ρ0) / (3) + (-1) * ((c.e : ℂ)) ^ 2 * ((c.MW : ℂ)⁻¹) * ((c.SW : ℂ)⁻¹) * ((c.mass .u : ℂ)) * ((N.c 0)⁻¹) * (ab z0.1 z2.1) * (sb z1.2 ρ0) * (sb z2.2 z3.2) / (3) + (1) * ((c.e : ℂ)) ^ 2 * ((c.MW : ℂ)⁻¹) * ((c.SW : ℂ)⁻¹) * ((c.mass .u : ℂ)) * ((N.c 1)⁻¹) * (ab z0.1 z3.1) * (ab z1.1 z2.1) * (sb z2.2 ρ0) / (3) + (-1) * ((c.e : ℂ)) ^ 2 * ((c.MW : ℂ)⁻¹) * ((c.SW : ℂ)⁻¹) * ((N.c 0)⁻¹) * (ab z0.1 z1.1) * (ab z0.1 z2.1) * (sb z0.2 ρ0) * (sb z2.2 z3.2) / (3) + (1) * ((c.e : ℂ)) ^ 2 * ((c.MW : ℂ)⁻¹) * ((c.SW : ℂ)⁻¹) * ((N.c 0)⁻¹) * (ab z0.1 z1.1) * (mb ρ0 (p 1) z2.1) * (sb z2.2 z3.2) / (3) + (1) * ((c.e : ℂ)) ^ 2 * ((c.MW : ℂ)⁻¹) * ((c.SW : ℂ)⁻¹) * ((N.c 1)⁻¹) * (ab z1.1 z2.1) * (mb z2.2 (p 1) z0.1) * (sb z3.2 ρ0) / (3)) * x22
set_option maxRecDepth 8000 in
theorem AuZu.amp2_eq (N : Env) (f : Nat → List Int → ℂ) : Cls.AuZu.m_amp2.mean N f .r [] =
    ((sumW (fun x a => (sumJ (fun x b => (sumV (fun x c => (sumJ (fun x d => (x + (((3 : Nat) : ℝ) * (‖(f 0 [a, b, c, d])‖ ^ 2)))) x)) x)) x)) ((0 : Nat) : ℝ)) / ((12 : Nat) : ℝ)) := by rfl
set_option maxRecDepth 8000 in
theorem AuZu.value (N : Env) : meaning N .r Cls.AuZu.methods Cls.AuZu.amp2 [] =
    ((sumW (fun x a => (sumJ (fun x b => (sumV (fun x c => (sumJ (fun x d => (x + (((3 : Nat) : ℝ) * (‖(Cls.AuZu.m_amp.mean N (callMean N []) .c [a, b, c, d])‖ ^ 2)))) x)) x)) x)) ((0 : Nat) : ℝ)) / ((12 : Nat) : ℝ)) :=
  AuZu.amp2_eq N (callMean N [Cls.AuZu.m_amp])
theorem AuZu.termP_lin (N : Env) (w : ℝ) (x : ℂ) (j2 a2 b2 j4 : Int) : AuZu.termP N w x j2 a2 b2 j4 = x + (w : ℂ) * AuZu.termP N 1 0 j2 a2 b2 j4 := by
  simp only [AuZu.termP]; push_cast; ring
theorem AuZu.termM_lin (N : Env) (w : ℝ) (x : ℂ) (j2 a2 b2 j4 : Int) : AuZu.termM N w x j2 a2 b2 j4 = x + (w : ℂ) * AuZu.termM N 1 0 j2 a2 b2 j4 := by
  simp only [AuZu.termM]; push_cast; ring
set_option maxRecDepth 8000 in
theorem AuZu.ampP (N : Env) (f : Nat → List Int → ℂ) (j2 j4 : Int) (t2 : Fin 3) : Cls.AuZu.m_amp.mean N f .c [2, j2, spinV t2, j4] = comb t2 (fun a2 b2 => AuZu.termP N 1 0 j2 (spinOf a2) (spinOf b2) j4) := by
  refine (amp_mean N f (m := 4) (K := 6) (G := fun i => if 0 < i 0 then AuZu.termP N 1 0 (i 1) (i 4) (i 5) (i 3) else if i 0 < 0 then AuZu.termM N 1 0 (i 1) (i 4) (i 5) (i 3) else 0) (fun l => ?_) (fun i i' h => ?_) rfl (by decide) (by decide) (by decide) (by decide) (by decide)).trans ?_
  · by_cases h : 0 < l.i 0
    · refine ⟨_, (if_pos (decide_eq_true h)).trans rfl, rfl, rfl, ?_⟩; rw [if_pos h]; exact AuZu.termP_lin ..
    · by_cases h' : l.i 0 < 0
      · refine ⟨_, (if_neg (fun e => h (of_decide_eq_true e))).trans ((if_pos (decide_eq_true h')).trans rfl), rfl, rfl, ?_⟩; rw [if_neg h, if_pos h']; exact AuZu.termM_lin ..
      · refine ⟨_, (if_neg (fun e => h (of_decide_eq_true e))).trans ((if_neg (fun e => h' (of_decide_eq_true e))).trans rfl), rfl, rfl, ?_⟩; rw [if_neg h, if_neg h', mul_zero, add_zero]
  · simp only [h 0 (by decide), h 1 (by decide), h 3 (by decide), h 4 (by decide), h 5 (by decide)]
  · show amp' _ [spinV t2] = _
    simp only [amp'_comb, amp'_nil]
    rfl
theorem AuZu.formP_x2 (N : Env) (p : Nat → V4 ℝ) (z0 z1 y2 z3 x y : Pair) : AuZu.formP N p z0 z1 (x + y) y2 z3 = AuZu.formP N p z0 z1 x y2 z3 + AuZu.formP N p z0 z1 y y2 z3 := by
  simp only [AuZu.formP, Prod.fst_add, Prod.snd_add, ab_add_left, ab_add_right, sb_add_left, sb_add_right, mb_add_left, mb_add_right]
  ring
theorem AuZu.formP_y2 (N : Env) (p : Nat → V4 ℝ) (z0 z1 x2 z3 x y : Pair) : AuZu.formP N p z0 z1 x2 (x + y) z3 = AuZu.formP N p z0 z1 x2 x z3 + AuZu.formP N p z0 z1 x2 y z3 := by
  simp only [AuZu.formP, Prod.fst_add, Prod.snd_add, ab_add_left, ab_add_right, sb_add_left, sb_add_right, mb_add_left, mb_add_right]
  ring
set_option maxRecDepth 8000 in
theorem AuZu.ampM (N : Env) (f : Nat → List Int → ℂ) (j2 j4 : Int) (t2 : Fin 3) : Cls.AuZu.m_amp.mean N f .c [(-2), j2, spinV t2, j4] = comb t2 (fun a2 b2 => AuZu.termM N 1 0 j2 (spinOf a2) (spinOf b2) j4) := by
  refine (amp_mean N f (m := 4) (K := 6) (G := fun i => if 0 < i 0 then AuZu.termP N 1 0 (i 1) (i 4) (i 5) (i 3) else if i 0 < 0 then AuZu.termM N 1 0 (i 1) (i 4) (i 5) (i 3) else 0) (fun l => ?_) (fun i i' h => ?_) rfl (by decide) (by decide) (by decide) (by decide) (by decide)).trans ?_
  · by_cases h : 0 < l.i 0
    · refine ⟨_, (if_pos (decide_eq_true h)).trans rfl, rfl, rfl, ?_⟩; rw [if_pos h]; exact AuZu.termP_lin ..
    · by_cases h' : l.i 0 < 0
      · refine ⟨_, (if_neg (fun e => h (of_decide_eq_true e))).trans ((if_pos (decide_eq_true h')).trans rfl), rfl, rfl, ?_⟩; rw [if_neg h, if_pos h']; exact AuZu.termM_lin ..
      · refine ⟨_, (if_neg (fun e => h (of_decide_eq_true e))).trans ((if_neg (fun e => h' (of_decide_eq_true e))).trans rfl), rfl, rfl, ?_⟩; rw [if_neg h, if_neg h', mul_zero, add_zero]
  · simp only [h 0 (by decide), h 1 (by decide), h 3 (by decide), h 4 (by decide), h 5 (by decide)]
  · show amp' _ [spinV t2] = _
    simp only [amp'_comb, amp'_nil]
    rfl
theorem AuZu.formM_x2 (N : Env) (p : Nat → V4 ℝ) (z0 z1 y2 z3 x y : Pair) : AuZu.formM N p z0 z1 (x + y) y2 z3 = AuZu.formM N p z0 z1 x y2 z3 + AuZu.formM N p z0 z1 y y2 z3 := by
  simp only [AuZu.formM, Prod.fst_add, Prod.snd_add, ab_add_left, ab_add_right, sb_add_left, sb_add_right, mb_add_left, mb_add_right]
  ring
theorem AuZu.formM_y2 (N : Env) (p : Nat → V4 ℝ) (z0 z1 x2 z3 x y : Pair) : AuZu.formM N p z0 z1 x2 (x + y) z3 = AuZu.formM N p z0 z1 x2 x z3 + AuZu.formM N p z0 z1 x2 y z3 := by
  simp only [AuZu.formM, Prod.fst_add, Prod.snd_add, ab_add_left, ab_add_right, sb_add_left, sb_add_right, mb_add_left, mb_add_right]
  ring

theorem AuZu.mass_eq {c : Constants} (hc : c.Physical) (i : Fin 4) : AuZu.proc.massNum (AuZu.rho c) i = AuZu.react.mass c i := by
  fin_cases i <;> first | rfl | exact Nat.cast_zero | exact Nat.cast_zero.trans (hc.neutrino _).symm | (show c.MW / √(((1 : Nat) : ℝ) - c.SW * c.SW) = c.MZ; rw [c.root, c.mz])

variable [FPEnv] in
theorem AuZu.amps {c : Constants} {p : Nat → V4 ℝ} {u : Fin 4 → Fin 3 → Spinor} {ε : Fin 4 → Fin 3 → Vec} (hc : c.Physical) (hh : c.Heavy) (h0 : ∀ i, 0 ≤ AuZu.react.mass c i) (hs : ∀ i : Fin 4, OnShell (p i) (AuZu.react.mass c i)) (hb : Balanced p) (hr : AuZu.react.Regular c p) (hu : ∀ i, AuZu.react.Complete c p i (u i) (ε i)) :
    (AuZu.N c p).c 0 ≠ 0 ∧ (AuZu.N c p).c 1 ≠ 0 ∧ (∀ n, (Ty.r, n) ∈ AuZu.proc.divides → (AuZu.N c p).r n ≠ 0) ∧ (∀ n, (Ty.c, n) ∈ AuZu.proc.divides → (AuZu.N c p).c n ≠ 0) ∧ ∀ (s1 : Fin 2) (s3 : Fin 2) (h0 : Fin 2) (t2 : Fin 3), ‖Cls.AuZu.m_amp.mean (AuZu.N c p) (callMean (AuZu.N c p) []) .c [spinW h0, spinOf s1, spinV t2, spinOf s3]‖ = ‖AuZu.react.bare c p 3 1 0 2 (AuZu.react.codePair c p 3 s3) (AuZu.react.codePair c p 1 s1) (lightE (legA (p 0) 0 0, legS (p 0) 0 1) h0.castSucc) (AuZu.react.codeVec c p 2 t2)‖ := by
  have he : AuZu.react.ends = [3] := by decide
  have ht : AuZu.react.starts = [1] := by decide
  have hB : AuZu.react.bosons = [0, 2] := by decide
  obtain ⟨f1, f2, f3⟩ := AuZu.react.regular_line he ht hB hr
  have r2 : (AuZu.N c p).r 2 = (c.mass .u) := rfl
  have r6 : (AuZu.N c p).r 6 = (c.MW / √((((1 : Nat) : ℝ) - (c.SW * c.SW)))) := rfl
  simp only [c.root] at r6
  have r8 : (AuZu.N c p).r 8 = (((c.e * c.e) * (((2 : Nat) : ℝ) / ((3 : Nat) : ℝ))) / (c.MW * c.SW)) := rfl
  have r10 : (AuZu.N c p).r 10 = (((((-((2 : Nat) : ℝ)) * (((2 : Nat) : ℝ) / ((3 : Nat) : ℝ))) * c.SW) * c.SW) + ((1 : Nat) : ℝ)) := rfl
  have r11 : (AuZu.N c p).r 11 = ((((-((2 : Nat) : ℝ)) * (((2 : Nat) : ℝ) / ((3 : Nat) : ℝ))) * c.SW) * c.SW) := rfl
  have c0 : (AuZu.N c p).c 0 = poleDist (c.mass .u) ((0 : Nat) : ℝ) ((VExp.add 0 1).sum p) := rfl
  rw [Nat.cast_zero, pole_fermion rfl] at c0
  have d0 : ((msq (plus (p 1) (p 0)) - c.mass .u ^ 2 : ℝ) : ℂ) = (AuZu.N c p).c 0 := by rw [c0, msq_s hb (plus (p 1) (p 0)) (by simp)]
  have n0 : (AuZu.N c p).c 0 ≠ 0 := by rw [← d0]; exact_mod_cast f1 .u rfl rfl
  have c1 : (AuZu.N c p).c 1 = poleDist (c.mass .u) ((0 : Nat) : ℝ) ((VExp.sub 0 3).sum p) := rfl
  rw [Nat.cast_zero, pole_fermion rfl] at c1
  have d1 : ((msq (plus (p 1) (backward (p 2))) - c.mass .u ^ 2 : ℝ) : ℂ) = (AuZu.N c p).c 1 := by rw [c1, msq_u hb (plus (p 1) (backward (p 2))) (by simp)]
  have n1 : (AuZu.N c p).c 1 ≠ 0 := by rw [← d1]; exact_mod_cast f2 .u rfl rfl
  obtain ⟨l0, x0, y0⟩ := AuZu.react.code_light hs hu (n := 0) rfl rfl
  have e01 := l0.pole_add (m := (c.mass .u)) (onShell_msq (hs 1)) (msq_s hb (plus (p 0) (p 1)) (by simp)) c0
  have e03 := l0.pole_sub (m := (c.mass .u)) (onShell_msq (hs 3)) (msq_u hb (plus (p 0) (backward (p 3))) (by simp)) c1
  have m1 : AuZu.react.mass c 1 ≠ 0 := (leg_pos hc hh (by decide)).ne'
  have m2 : AuZu.react.mass c 2 ≠ 0 := (leg_pos hc hh (by decide)).ne'
  have m3 : AuZu.react.mass c 3 ≠ 0 := (leg_pos hc hh (by decide)).ne'
  have m0 : AuZu.react.mass c 0 = 0 := rfl
  have hd : AuZu.proc.divides = [(Ty.c, 1), (Ty.c, 0)] := by decide +kernel
  have stP : ∀ {z1 z3 : Pair} (b1 : Bold (p 1) (AuZu.react.mass c 1) z1) (b3 : Bold (p 3) (AuZu.react.mass c 3) z3) (t2 : Fin 3), comb t2 (fun a2 b2 => AuZu.formP (AuZu.N c p) p (legA (p 0) 0 0, legS (p 0) 0 1) z1 (AuZu.react.codePair c p 2 a2) (AuZu.react.codePair c p 2 b2) z3) = 1 * AuZu.react.bare c p 3 1 0 2 z3 z1 (lightE (legA (p 0) 0 0, legS (p 0) 0 1) 1) (AuZu.react.codeVec c p 2 t2) := by
    intro z1 z3 b1 b3 t2
    refine one_vector (p := p 2) (m := AuZu.react.mass c 2) (fun s => AuZu.react.codePair_bold hs h0 2 s) (B := fun x y => AuZu.formP (AuZu.N c p) p (legA (p 0) 0 0, legS (p 0) 0 1) z1 x y z3) (G := fun E => AuZu.react.bare c p 3 1 0 2 z3 z1 (lightE (legA (p 0) 0 0, legS (p 0) 0 1) 1) E) (fun x y z => ?_) (fun x y z => ?_) (AuZu.react.bare_lin₂ c p _ _ _ (by decide)) 1 (fun z2 b2 => ?_) t2
    · exact AuZu.formP_x2 ..
    · exact AuZu.formP_y2 ..
    · exact (light_plus (z := (legA (p 0) 0 0, legS (p 0) 0 1)) (G := fun E => AuZu.react.bare c p 3 1 0 2 z3 z1 E (pv z2.1 z2.2)) (AuZu.react.bare_lin₁ c p _ _ _ (by decide)) x0 (AuZu.keyP hc hb r2 r6 r8 r10 r11 d0 n0 d1 n1 b1 b2 b3 l0 e01 e03 (onShell_msq (hs 1)) (onShell_msq (hs 2)) (onShell_msq (hs 3)) _)).trans (mul_assoc _ _ _)
  have stM : ∀ {z1 z3 : Pair} (b1 : Bold (p 1) (AuZu.react.mass c 1) z1) (b3 : Bold (p 3) (AuZu.react.mass c 3) z3) (t2 : Fin 3), comb t2 (fun a2 b2 => AuZu.formM (AuZu.N c p) p (legA (p 0) 0 0, legS (p 0) 0 1) z1 (AuZu.react.codePair c p 2 a2) (AuZu.react.codePair c p 2 b2) z3) = (-1) * AuZu.react.bare c p 3 1 0 2 z3 z1 (lightE (legA (p 0) 0 0, legS (p 0) 0 1) 0) (AuZu.react.codeVec c p 2 t2) := by
    intro z1 z3 b1 b3 t2
    refine one_vector (p := p 2) (m := AuZu.react.mass c 2) (fun s => AuZu.react.codePair_bold hs h0 2 s) (B := fun x y => AuZu.formM (AuZu.N c p) p (legA (p 0) 0 0, legS (p 0) 0 1) z1 x y z3) (G := fun E => AuZu.react.bare c p 3 1 0 2 z3 z1 (lightE (legA (p 0) 0 0, legS (p 0) 0 1) 0) E) (fun x y z => ?_) (fun x y z => ?_) (AuZu.react.bare_lin₂ c p _ _ _ (by decide)) (-1) (fun z2 b2 => ?_) t2
    · exact AuZu.formM_x2 ..
    · exact AuZu.formM_y2 ..
    · exact (light_minus (z := (legA (p 0) 0 0, legS (p 0) 0 1)) (G := fun E => AuZu.react.bare c p 3 1 0 2 z3 z1 E (pv z2.1 z2.2)) (AuZu.react.bare_lin₁ c p _ _ _ (by decide)) y0 (AuZu.keyM hc hb r2 r6 r8 r10 r11 d0 n0 d1 n1 b1 b2 b3 l0 e01 e03 (onShell_msq (hs 1)) (onShell_msq (hs 2)) (onShell_msq (hs 3)) _)).trans (mul_assoc _ _ _)
  have amP : ∀ (s1 : Fin 2) (s3 : Fin 2) (t2 : Fin 3), Cls.AuZu.m_amp.mean (AuZu.N c p) (callMean (AuZu.N c p) []) .c [2, spinOf s1, spinV t2, spinOf s3] = 1 * AuZu.react.bare c p 3 1 0 2 (AuZu.react.codePair c p 3 s3) (AuZu.react.codePair c p 1 s1) (lightE (legA (p 0) 0 0, legS (p 0) 0 1) 1) (AuZu.react.codeVec c p 2 t2) := by
    intro s1 s3 t2
    rw [AuZu.ampP, ← stP (AuZu.react.codePair_bold hs h0 1 s1) (AuZu.react.codePair_bold hs h0 3 s3) t2]
    refine congrArg (comb t2) (funext fun a2 => funext fun b2 => ?_)
    have v3z1x2 : (AuZu.N c p).v 3 [spinOf s1, spinOf a2] = ab (AuZu.react.codePair c p 1 s1).1 (AuZu.react.codePair c p 2 a2).1 := bra_angle (p := p) (m := AuZu.proc.massNum (AuZu.rho c)) (AuZu.mass_eq hc 1) (AuZu.mass_eq hc 2) (.inl ⟨m1, rfl⟩) (.inl ⟨m2, rfl⟩)
    have v2z0z3 : (AuZu.N c p).v 2 [spinOf s3] = sb (legA (p 0) 0 0, legS (p 0) 0 1).2 (AuZu.react.codePair c p 3 s3).2 := bra_square (p := p) (m := AuZu.proc.massNum (AuZu.rho c)) (AuZu.mass_eq hc 0) (AuZu.mass_eq hc 3) (.inr ⟨m0, rfl⟩) (.inl ⟨m3, rfl⟩)
    have v5z0y2 : (AuZu.N c p).v 5 [spinOf b2] = mb (legA (p 0) 0 0, legS (p 0) 0 1).2 (p 1) (AuZu.react.codePair c p 2 b2).1 := bra_mid_square (p := p) (m := AuZu.proc.massNum (AuZu.rho c)) (AuZu.mass_eq hc 0) (AuZu.mass_eq hc 2) (.inr ⟨m0, rfl⟩) (.inl ⟨m2, rfl⟩)
    have v1z0y2 : (AuZu.N c p).v 1 [spinOf b2] = sb (legA (p 0) 0 0, legS (p 0) 0 1).2 (AuZu.react.codePair c p 2 b2).2 := bra_square (p := p) (m := AuZu.proc.massNum (AuZu.rho c)) (AuZu.mass_eq hc 0) (AuZu.mass_eq hc 2) (.inr ⟨m0, rfl⟩) (.inl ⟨m2, rfl⟩)
    have v7z0z3 : (AuZu.N c p).v 7 [spinOf s3] = mb (legA (p 0) 0 0, legS (p 0) 0 1).2 (p 2) (AuZu.react.codePair c p 3 s3).1 := bra_mid_square (p := p) (m := AuZu.proc.massNum (AuZu.rho c)) (AuZu.mass_eq hc 0) (AuZu.mass_eq hc 3) (.inr ⟨m0, rfl⟩) (.inl ⟨m3, rfl⟩)
    have v4x2z3 : (AuZu.N c p).v 4 [spinOf a2, spinOf s3] = ab (AuZu.react.codePair c p 2 a2).1 (AuZu.react.codePair c p 3 s3).1 := bra_angle (p := p) (m := AuZu.proc.massNum (AuZu.rho c)) (AuZu.mass_eq hc 2) (AuZu.mass_eq hc 3) (.inl ⟨m2, rfl⟩) (.inl ⟨m3, rfl⟩)
    have v6z0z1 : (AuZu.N c p).v 6 [spinOf s1] = mb (legA (p 0) 0 0, legS (p 0) 0 1).2 (p 2) (AuZu.react.codePair c p 1 s1).1 := bra_mid_square (p := p) (m := AuZu.proc.massNum (AuZu.rho c)) (AuZu.mass_eq hc 0) (AuZu.mass_eq hc 1) (.inr ⟨m0, rfl⟩) (.inl ⟨m1, rfl⟩)
    have v0z0z1 : (AuZu.N c p).v 0 [spinOf s1] = sb (legA (p 0) 0 0, legS (p 0) 0 1).2 (AuZu.react.codePair c p 1 s1).2 := bra_square (p := p) (m := AuZu.proc.massNum (AuZu.rho c)) (AuZu.mass_eq hc 0) (AuZu.mass_eq hc 1) (.inr ⟨m0, rfl⟩) (.inl ⟨m1, rfl⟩)
    have v8z0y2 : (AuZu.N c p).v 8 [spinOf b2] = mb (legA (p 0) 0 0, legS (p 0) 0 1).2 (p 3) (AuZu.react.codePair c p 2 b2).1 := bra_mid_square (p := p) (m := AuZu.proc.massNum (AuZu.rho c)) (AuZu.mass_eq hc 0) (AuZu.mass_eq hc 2) (.inr ⟨m0, rfl⟩) (.inl ⟨m2, rfl⟩)
    simp only [AuZu.termP, AuZu.formP, v3z1x2, v2z0z3, v5z0y2, v1z0y2, v7z0z3, v4x2z3, v6z0z1, v0z0z1, v8z0y2]
    push_cast
    ring
  have amM : ∀ (s1 : Fin 2) (s3 : Fin 2) (t2 : Fin 3), Cls.AuZu.m_amp.mean (AuZu.N c p) (callMean (AuZu.N c p) []) .c [(-2), spinOf s1, spinV t2, spinOf s3] = (-1) * AuZu.react.bare c p 3 1 0 2 (AuZu.react.codePair c p 3 s3) (AuZu.react.codePair c p 1 s1) (lightE (legA (p 0) 0 0, legS (p 0) 0 1) 0) (AuZu.react.codeVec c p 2 t2) := by
    intro s1 s3 t2
    rw [AuZu.ampM, ← stM (AuZu.react.codePair_bold hs h0 1 s1) (AuZu.react.codePair_bold hs h0 3 s3) t2]
    refine congrArg (comb t2) (funext fun a2 => funext fun b2 => ?_)
    have v12z1x2 : (AuZu.N c p).v 12 [spinOf s1, spinOf a2] = sb (AuZu.react.codePair c p 1 s1).2 (AuZu.react.codePair c p 2 a2).2 := bra_square (p := p) (m := AuZu.proc.massNum (AuZu.rho c)) (AuZu.mass_eq hc 1) (AuZu.mass_eq hc 2) (.inl ⟨m1, rfl⟩) (.inl ⟨m2, rfl⟩)
    have v11z0z3 : (AuZu.N c p).v 11 [spinOf s3] = ab (legA (p 0) 0 0, legS (p 0) 0 1).1 (AuZu.react.codePair c p 3 s3).1 := bra_angle (p := p) (m := AuZu.proc.massNum (AuZu.rho c)) (AuZu.mass_eq hc 0) (AuZu.mass_eq hc 3) (.inr ⟨m0, rfl⟩) (.inl ⟨m3, rfl⟩)
    have v14z0y2 : (AuZu.N c p).v 14 [spinOf b2] = mb (AuZu.react.codePair c p 2 b2).2 (p 1) (legA (p 0) 0 0, legS (p 0) 0 1).1 := bra_mid_angle (p := p) (m := AuZu.proc.massNum (AuZu.rho c)) (AuZu.mass_eq hc 0) (AuZu.mass_eq hc 2) (.inr ⟨m0, rfl⟩) (.inl ⟨m2, rfl⟩)
    have v10z0y2 : (AuZu.N c p).v 10 [spinOf b2] = ab (legA (p 0) 0 0, legS (p 0) 0 1).1 (AuZu.react.codePair c p 2 b2).1 := bra_angle (p := p) (m := AuZu.proc.massNum (AuZu.rho c)) (AuZu.mass_eq hc 0) (AuZu.mass_eq hc 2) (.inr ⟨m0, rfl⟩) (.inl ⟨m2, rfl⟩)
    have v16z0z3 : (AuZu.N c p).v 16 [spinOf s3] = mb (AuZu.react.codePair c p 3 s3).2 (p 2) (legA (p 0) 0 0, legS (p 0) 0 1).1 := bra_mid_angle (p := p) (m := AuZu.proc.massNum (AuZu.rho c)) (AuZu.mass_eq hc 0) (AuZu.mass_eq hc 3) (.inr ⟨m0, rfl⟩) (.inl ⟨m3, rfl⟩)
    have v13x2z3 : (AuZu.N c p).v 13 [spinOf a2, spinOf s3] = sb (AuZu.react.codePair c p 2 a2).2 (AuZu.react.codePair c p 3 s3).2 := bra_square (p := p) (m := AuZu.proc.massNum (AuZu.rho c)) (AuZu.mass_eq hc 2) (AuZu.mass_eq hc 3) (.inl ⟨m2, rfl⟩) (.inl ⟨m3, rfl⟩)
    have v15z0z1 : (AuZu.N c p).v 15 [spinOf s1] = mb (AuZu.react.codePair c p 1 s1).2 (p 2) (legA (p 0) 0 0, legS (p 0) 0 1).1 := bra_mid_angle (p := p) (m := AuZu.proc.massNum (AuZu.rho c)) (AuZu.mass_eq hc 0) (AuZu.mass_eq hc 1) (.inr ⟨m0, rfl⟩) (.inl ⟨m1, rfl⟩)
    have v9z0z1 : (AuZu.N c p).v 9 [spinOf s1] = ab (legA (p 0) 0 0, legS (p 0) 0 1).1 (AuZu.react.codePair c p 1 s1).1 := bra_angle (p := p) (m := AuZu.proc.massNum (AuZu.rho c)) (AuZu.mass_eq hc 0) (AuZu.mass_eq hc 1) (.inr ⟨m0, rfl⟩) (.inl ⟨m1, rfl⟩)
    have v17z0y2 : (AuZu.N c p).v 17 [spinOf b2] = mb (AuZu.react.codePair c p 2 b2).2 (p 3) (legA (p 0) 0 0, legS (p 0) 0 1).1 := bra_mid_angle (p := p) (m := AuZu.proc.massNum (AuZu.rho c)) (AuZu.mass_eq hc 0) (AuZu.mass_eq hc 2) (.inr ⟨m0, rfl⟩) (.inl ⟨m2, rfl⟩)
    simp only [AuZu.termM, AuZu.formM, v12z1x2, v11z0z3, v14z0y2, v10z0y2, v16z0z3, v13x2z3, v15z0z1, v9z0z1, v17z0y2]
    push_cast
    ring
  refine ⟨n0, n1, fun n hn => ?_, fun n hn => ?_, ?_⟩
  · simp [hd] at hn
  · simp [hd] at hn
    rcases hn with rfl | rfl
    · exact n1
    · exact n0
  intro s1 s3 h0 t2
  match h0 with
  | 1 => exact norm_plus (amP s1 s3 t2)
  | 0 => exact norm_minus (amM s1 s3 t2)

variable [FPEnv] in
theorem AuZu.agrees : AuZu.Agrees := by
  refine agrees_of (D := [2, 3]) (E := [3]) (by simp [all, AuZu]) (by decide +kernel) (by decide) (by decide +kernel) (fun c hc hh => ⟨List.forall_mem_cons.2 ⟨hc.MW, List.forall_mem_cons.2 ⟨hc.SW, List.forall_mem_nil _⟩⟩, List.forall_mem_cons.2 ⟨hc.SW_lt, List.forall_mem_nil _⟩⟩) (fun c hc i => AuZu.mass_eq hc i) (by decide +kernel) ?_
  intro c p u ε hc hh hw h0 hs hb hr hu
  have he : AuZu.react.ends = [3] := by decide
  have ht : AuZu.react.starts = [1] := by decide
  have hB : AuZu.react.bosons = [0, 2] := by decide
  obtain ⟨n0, n1, d1, d2, am⟩ := AuZu.amps hc hh h0 hs hb hr hu
  refine ⟨d1, d2, ?_⟩
  show meaning (AuZu.N c p) .r Cls.AuZu.methods Cls.AuZu.amp2 [] = _
  have s0 : AuZu.react.states 0 = 2 := by decide +kernel
  have s1 : AuZu.react.states 1 = 6 := by decide +kernel
  have sy : AuZu.react.symmetry = 1 := by decide
  have p0 : AuZu.react.spins 0 = {0, 1} := rfl
  have p1 : AuZu.react.spins 1 = {0, 1} := rfl
  have p2 : AuZu.react.spins 2 = Finset.univ := rfl
  have p3 : AuZu.react.spins 3 = {0, 1} := rfl
  have E0 : AuZu.react.codeE c p 0 = lightE (legA (p 0) 0 0, legS (p 0) 0 1) := rfl
  have E2 : AuZu.react.codeE c p 2 = AuZu.react.codeVec c p 2 := rfl
  have hG : AuZu.react.Gauge c p := (AuZu.react.gauge_line he ht hB hh (by decide) (fun n => onShell_msq (hs n)) hb hr (fun n m h h2 => absurd (And.intro h h2) (by revert n m; decide)) (fun _ => ⟨rfl, rfl⟩) (fun h => absurd h (by decide)))
  have lc : AuZu.react.lineColours 3 1 = 3 := by decide +kernel
  rw [AuZu.value, AuZu.react.squared_line he ht hB (by decide) hs h0 (fun _ b _ hb _ => (boson_pos hc hh hb).ne') hG (E := AuZu.react.codeE c p) (fun n b hl => AuZu.react.codeE_polarised hs h0 hu (fun b hb => (boson_pos hc hh hb).ne') n b hl) hu, sum_colours, lc, s0, s1, sy]
  simp only [sumV_sum, sumJ_sum, sumW_sum, am, p0, p1, p2, p3, E0, E2, Finset.sum_singleton, sum_two, Matrix.cons_val_zero, Matrix.cons_val_one, Matrix.cons_val, two_castSucc]
  try simp only [← Finset.mul_sum]
  push_cast
  first | ring1 | ring_nf

/-! ### AdZd -/

/-- what the methods of the class see -/
noncomputable abbrev AdZd.N [FPEnv] (c : Constants) (p : Nat → V4 ℝ) : Env := AdZd.proc.env (AdZd.rho c) p
/-- the term that `amp` adds for a choice of spinors, for a photon of positive helicity (SM/AdZd.cpp) -/
noncomputable def AdZd.termP (N : Env) (w : ℝ) (x : ℂ) (j2 a2 b2 j4 : Int) : ℂ :=
  (x + ((((((w * N.r 8) : ℝ) : ℂ) * (((((N.r 10 : ℝ) : ℂ) * N.v 3 [j2, a2]) * (((((N.r 6 : ℝ) : ℂ) * N.v 2 [j4]) * N.v 5 [b2]) + ((((N.r 2 : ℝ) : ℂ) * N.v 1 [b2]) * N.v 7 [j4]))) + ((((N.r 11 : ℝ) : ℂ) * N.v 4 [a2, j4]) * (((((N.r 2 : ℝ) : ℂ) * N.v 1 [b2]) * N.v 6 [j2]) + ((((N.r 6 : ℝ) : ℂ) * N.v 0 [j2]) * N.v 8 [b2]))))) / N.c 1) / N.c 0))
/-- the same with spinors in place of their spins -/
noncomputable def AdZd.formP (N : Env) (p : Nat → V4 ℝ) (z0 z1 x2 y2 z3 : Pair) : ℂ :=
  (0 + ((((((((1 : Nat) : ℝ) * N.r 8) : ℝ) : ℂ) * (((((N.r 10 : ℝ) : ℂ) * (ab z1.1 x2.1)) * (((((N.r 6 : ℝ) : ℂ) * (sb z0.2 z3.2)) * (mb z0.2 (p 1) y2.1)) + ((((N.r 2 : ℝ) : ℂ) * (sb z0.2 y2.2)) * (mb z0.2 (p 2) z3.1)))) + ((((N.r 11 : ℝ) : ℂ) * (ab x2.1 z3.1)) * (((((N.r 2 : ℝ) : ℂ) * (sb z0.2 y2.2)) * (mb z0.2 (p 2) z1.1)) + ((((N.r 6 : ℝ) : ℂ) * (sb z0.2 z1.2)) * (mb z0.2 (p 3) y2.1)))))) / N.c 1) / N.c 0))
/-- the term that `amp` adds for a choice of spinors, for a photon of negative helicity (SM/AdZd.cpp) -/
noncomputable def AdZd.termM (N : Env) (w : ℝ) (x : ℂ) (j2 a2 b2 j4 : Int) : ℂ :=
  (x + ((((((w * N.r 8) : ℝ) : ℂ) * (((((N.r 11 : ℝ) : ℂ) * N.v 12 [j2, a2]) * (((((N.r 6 : ℝ) : ℂ) * N.v 11 [j4]) * N.v 14 [b2]) + ((((N.r 2 : ℝ) : ℂ) * N.v 10 [b2]) * N.v 16 [j4]))) + ((((N.r 10 : ℝ) : ℂ) * N.v 13 [a2, j4]) * (((((N.r 2 : ℝ) : ℂ) * N.v 10 [b2]) * N.v 15 [j2]) + ((((N.r 6 : ℝ) : ℂ) * N.v 9 [j2]) * N.v 17 [b2]))))) / N.c 1) / N.c 0))
/-- the same with spinors in place of their spins -/
noncomputable def AdZd.formM (N : Env) (p : Nat → V4 ℝ) (z0 z1 x2 y2 z3 : Pair) : ℂ :=
  (0 + ((((((((1 : Nat) : ℝ) * N.r 8) : ℝ) : ℂ) * (((((N.r 11 : ℝ) : ℂ) * (sb z1.2 x2.2)) * (((((N.r 6 : ℝ) : ℂ) * (ab z0.1 z3.1)) * (mb y2.2 (p 1) z0.1)) + ((((N.r 2 : ℝ) : ℂ) * (ab z0.1 y2.1)) * (mb z3.2 (p 2) z0.1)))) + ((((N.r 10 : ℝ) : ℂ) * (sb x2.2 z3.2)) * (((((N.r 2 : ℝ) : ℂ) * (ab z0.1 y2.1)) * (mb z1.2 (p 2) z0.1)) + ((((N.r 6 : ℝ) : ℂ) * (ab z0.1 z1.1)) * (mb y2.2 (p 3) z0.1)))))) / N.c 1) / N.c 0))
theorem AdZd.keyP {c : Constants} {p : Nat → V4 ℝ} {N : Env} (hc : c.Physical) (hb : Balanced p) (r2 : N.r 2 = (c.mass .d)) (r6 : N.r 6 = (c.MW / c.CW)) (r8 : N.r 8 = ((((((2 : Nat) : ℝ) * c.e) * c.e) * ((-((1 : Nat) : ℝ)) / ((3 : Nat) : ℝ))) / ((((2 : Nat) : ℝ) * c.MW) * c.SW))) (r10 : N.r 10 = (((((-((2 : Nat) : ℝ)) * ((-((1 : Nat) : ℝ)) / ((3 : Nat) : ℝ))) * c.SW) * c.SW) - ((1 : Nat) : ℝ))) (r11 : N.r 11 = ((((-((2 : Nat) : ℝ)) * ((-((1 : Nat) : ℝ)) / ((3 : Nat) : ℝ))) * c.SW) * c.SW)) (d0 : ((msq (plus (p 1) (p 0)) - c.mass .d ^ 2 : ℝ) : ℂ) = N.c 0) (n0 : N.c 0 ≠ 0) (d1 : ((msq (plus (p 1) (backward (p 2))) - c.mass .d ^ 2 : ℝ) : ℂ) = N.c 1) (n1 : N.c 1 ≠ 0) {z0 z1 z2 z3 : Pair} (b1 : Bold (p 1) (c.mass .d) z1) (b2 : Bold (p 2) c.MZ z2) (b3 : Bold (p 3) (c.mass .d) z3) (l0 : Light (p 0) z0) (e01 : mb z0.2 (p 1) z0.1 = N.c 0) (e03 : mb z0.2 (p 3) z0.1 = -N.c 1) (q1 : msq (p 1) = (c.mass .d) ^ 2) (q2 : msq (p 2) = c.MZ ^ 2) (q3 : msq (p 3) = (c.mass .d) ^ 2) (ρ0 : V2) :
    AdZd.formP N p z0 z1 z2 z2 z3 * ab ρ0 z0.1 = ((√2 : ℝ) * ((-1 : ℂ) * ((√2 / c.MZ : ℝ) : ℂ))) * AdZd.react.bare c p 3 1 0 2 z3 z1 (pv ρ0 z0.2) (pv z2.1 z2.2) := by
  rw [AdZd.react.bare_parts c p (i := 3) (j := 1) (a := 0) (b := 2) (x := .photon) (y := .z) (k := (p 0)) (k' := (backward (p 2))) (fun _ => rfl) (fun _ => rfl) (f := .d) (g := .d) rfl rfl (l := (p 1)) rfl (e := 1) (e' := 1) (if_neg Bool.false_ne_true) (if_neg Bool.false_ne_true)]
  rw [compton_vv (f := .d) (x := .d) (g := .d) (h := (rfl : Spec.after .photon Flavour.d = some Flavour.d)) (h' := (rfl : Spec.after .z Flavour.d = some Flavour.d)) (ha := by simp) (hb := by simp)]
  rw [compton_vv (f := .d) (x := .d) (g := .d) (h := (rfl : Spec.after .z Flavour.d = some Flavour.d)) (h' := (rfl : Spec.after .photon Flavour.d = some Flavour.d)) (ha := by simp) (hb := by simp)]
  rw [annihilation_none c _ _ (by rfl) (by simp), star_zero, add_zero, AdZd.formP]
  simp only [d0, d1, lineV_pv, lineV_four, contract_four_pv, contract_pv, mb_plus, mb_backward]
  have i0 := ab_schouten z2.1 z3.1 ρ0 z1.1
  have i1 := ab_schouten z1.1 z2.1 ρ0 z0.1
  have i2 := mb_schouten_right z0.2 (p 2) z0.1 z1.1 z2.1
  have i3 := ab_schouten z1.1 z3.1 ρ0 z0.1
  have i4 := ab_schouten z2.1 z3.1 ρ0 z0.1
  have i5 := mb_schouten_right z0.2 (p 2) z0.1 z1.1 z3.1
  have i6 := sb_schouten z1.2 z2.2 z3.2 z0.2
  have i7 := mb_schouten_right z0.2 (p 1) z0.1 z2.1 ρ0
  have i8 := ab_schouten z1.1 z2.1 z3.1 z0.1
  have i9 := mb_schouten_left z0.2 z1.2 z2.2 (p 2) z0.1
  have i10 := mb_schouten_right z1.2 (p 2) z0.1 z2.1 z3.1
  have i11 := mb_schouten_right z0.2 (p 2) z0.1 z2.1 z3.1
  have i12 := mb_schouten_right z2.2 (p 1) z0.1 z2.1 z3.1
  have i13 := mb_schouten_right z0.2 (p 1) z0.1 z3.1 ρ0
  have i14 := mb_schouten_right z0.2 (p 2) z0.1 z3.1 ρ0
  have i15 := mb_schouten_right z0.2 (p 1) z0.1 z2.1 z3.1
  have i16 := mb_schouten_left z0.2 z1.2 z2.2 (p 1) z0.1
  have i17 := mb_schouten_right z0.2 (p 1) z1.1 z2.1 ρ0
  have i18 := mb_schouten_left z0.2 z1.2 z2.2 (p 1) z2.1
  have i19 := mb_schouten_right z0.2 (p 2) z0.1 z2.1 ρ0
  have i20 := mb_schouten_right z0.2 (p 2) z0.1 z1.1 ρ0
  have i21 := mb_schouten_right z2.2 (p 1) z0.1 z1.1 ρ0
  have i22 := mb_schouten_right z0.2 (p 1) z0.1 z1.1 z2.1
  have i23 := mb_schouten_right z2.2 (p 1) z0.1 z2.1 ρ0
  have i24 := mb_schouten_left z0.2 z1.2 z3.2 (p 1) z2.1
  have i25 := mb_schouten_left z0.2 z2.2 z3.2 (p 2) z0.1
  have i26 := mb_schouten_right z0.2 (p 1) z0.1 z1.1 z3.1
  have i27 := mb_schouten_left z0.2 z2.2 z3.2 (p 1) z0.1
  have i28 := mb_schouten_right z0.2 (p 1) z2.1 z3.1 ρ0
  have i29 := mb_schouten_right z0.2 (p 2) z2.1 z3.1 ρ0
  have i30 := mb_schouten_right z2.2 (p 1) z0.1 z3.1 ρ0
  simp only [l0.mb_eq, b1.mb_left, b1.mb_right, b2.mb_left, b2.mb_right, b3.mb_left, b3.mb_right, e01, e03, mb_two hb z0.2 z0.1, mb_three hb z0.2 z1.1, mb_three hb z0.2 z2.1, mb_two hb z0.2 z3.1, mb_three hb z0.2 ρ0, mb_three hb z1.2 z0.1, mb_three hb z1.2 z1.1, mb_three hb z1.2 z2.1, mb_two hb z1.2 z3.1, mb_three hb z1.2 ρ0, mb_three hb z2.2 z0.1, mb_three hb z2.2 z1.1, mb_three hb z2.2 z2.1, mb_one hb z2.2 z3.1, mb_three hb z2.2 ρ0, mb_two hb z3.2 z0.1, mb_two hb z3.2 z1.1, mb_one hb z3.2 z2.1, mb_two hb z3.2 z3.1, mb_two hb z3.2 ρ0, ab_self, sb_self] at i0 i1 i2 i3 i4 i5 i6 i7 i8 i9 i10 i11 i12 i13 i14 i15 i16 i17 i18 i19 i20 i21 i22 i23 i24 i25 i26 i27 i28 i29 i30 ⊢
  simp only [ab_swap z0.1 z1.1, ab_swap z0.1 z2.1, ab_swap z0.1 z3.1, ab_swap z0.1 ρ0, ab_swap z1.1 z2.1, ab_swap z1.1 z3.1, ab_swap z1.1 ρ0, ab_swap z2.1 z3.1, ab_swap z2.1 ρ0, ab_swap z3.1 ρ0, sb_swap z0.2 z1.2, sb_swap z0.2 z2.2, sb_swap z0.2 z3.2, sb_swap z1.2 z2.2, sb_swap z1.2 z3.2, sb_swap z2.2 z3.2] at i0 i1 i2 i3 i4 i5 i6 i7 i8 i9 i10 i11 i12 i13 i14 i15 i16 i17 i18 i19 i20 i21 i22 i23 i24 i25 i26 i27 i28 i29 i30 ⊢
  simp only [r2, r6, r8, r10, r11, Constants.hL, Constants.hR, Constants.gL, Constants.gR, Constants.yuk, Constants.invVev, Flavour.charge_d, Flavour.isospin_d, ← c.mz]
  have xMW : (c.MW : ℂ) ≠ 0 := by exact_mod_cast hc.MW
  have xSW : (c.SW : ℂ) ≠ 0 := by exact_mod_cast hc.SW
  have xCW : (c.CW : ℂ) ≠ 0 := by exact_mod_cast hc.CW
  have x2 : ((√2 : ℝ) : ℂ) ≠ 0 := by exact_mod_cast (Real.sqrt_pos.2 two_pos).ne'
  have x22 : ((√2 : ℝ) : ℂ) ^ 2 = 2 := by rw [← Complex.ofReal_pow, Real.sq_sqrt two_pos.le]; norm_num
  have x23 : ((√2 : ℝ) : ℂ) ^ 3 = 2 * ((√2 : ℝ) : ℂ) := by rw [← x22]; ring
  have x24 : ((√2 : ℝ) : ℂ) ^ 4 = 4 := by linear_combination (((√2 : ℝ) : ℂ) ^ 2 + 2) * x22
  try simp only [← c.mz] at i0 i1 i2 i3 i4 i5 i6 i7 i8 i9 i10 i11 i12 i13 i14 i15 i16 i17 i18 i19 i20 i21 i22 i23 i24 i25 i26 i27 i28 i29 i30
  push_cast at i0 i1 i2 i3 i4 i5 i6 i7 i8 i9 i10 i11 i12 i13 i14 i15 i16 i17 i18 i19 i20 i21 i22 i23 i24 i25 i26 i27 i28 i29 i30 ⊢
  simp only [div_eq_mul_inv, mul_inv, inv_inv] at i0 i1 i2 i3 i4 i5 i6 i7 i8 i9 i10 i11 i12 i13 i14 i15 i16 i17 i18 i19 i20 i21 i22 i23 i24 i25 i26 i27 i28 i29 i30 ⊢
  have y0 := mul_inv_cancel₀ n0
  have y1 := mul_inv_cancel₀ n1
  have yCW := mul_inv_cancel₀ xCW
  have yMW := mul_inv_cancel₀ xMW
  have ySW := mul_inv_cancel₀ xSW
  linear_combination ((((-4) * ((c.SW : ℂ)) ^ 2 * ((c.e : ℂ)) ^ 2 * ((c.mass .d : ℂ)) * (N.c 0) * (sb z0.2 z2.2) + (-8) * ((c.SW : ℂ)) ^ 2 * ((c.e : ℂ)) ^ 2 * ((c.mass .d : ℂ)) * (N.c 1) * (sb z0.2 z2.2) + (6) * ((c.e : ℂ)) ^ 2 * ((c.mass .d : ℂ)) * (N.c 0) * (sb z0.2 z2.2) + (6) * ((c.e : ℂ)) ^ 2 * ((c.mass .d : ℂ)) * (N.c 1) * (sb z0.2 z2.2)) * i0 + ((2) * ((c.SW : ℂ)) ^ 2 * ((c.e : ℂ)) ^ 2 * ((c.mass .d : ℂ)) * (mb z0.2 (p 1) z3.1) * (sb z0.2 z2.2) + (4) * ((c.SW : ℂ)) ^ 2 * ((c.e : ℂ)) ^ 2 * ((c.mass .d : ℂ)) ^ 2 * (sb z0.2 z2.2) * (sb z0.2 z3.2) + (-3) * ((c.e : ℂ)) ^ 2 * ((c.mass .d : ℂ)) * (mb z0.2 (p 1) z3.1) * (sb z0.2 z2.2) + (-3) * ((c.e : ℂ)) ^ 2 * ((c.mass .d : ℂ)) ^ 2 * (sb z0.2 z2.2) * (sb z0.2 z3.2)) * i1 + ((4) * ((c.SW : ℂ)) ^ 2 * ((c.e : ℂ)) ^ 2 * ((c.mass .d : ℂ)) * (ab z3.1 ρ0) * (sb z0.2 z2.2) + (-3) * ((c.e : ℂ)) ^ 2 * ((c.mass .d : ℂ)) * (ab z3.1 ρ0) * (sb z0.2 z2.2)) * i2 + ((4) * ((c.MW : ℂ)) * ((c.SW : ℂ)) ^ 2 * ((c.e : ℂ)) ^ 2 * ((c.CW : ℂ)⁻¹) * ((c.mass .d : ℂ)) * (sb z0.2 z2.2) ^ 2 + (-3) * ((c.MW : ℂ)) * ((c.e : ℂ)) ^ 2 * ((c.CW : ℂ)⁻¹) * ((c.mass .d : ℂ)) * (sb z0.2 z2.2) ^ 2 + (2) * ((c.SW : ℂ)) ^ 2 * ((c.e : ℂ)) ^ 2 * ((c.mass .d : ℂ)) * (mb z0.2 (p 1) z2.1) * (sb z0.2 z2.2)) * i3 + ((4) * ((c.SW : ℂ)) ^ 2 * ((c.e : ℂ)) ^ 2 * ((c.mass .d : ℂ)) * (mb z0.2 (p 2) z1.1) * (sb z0.2 z2.2) + (2) * ((c.SW : ℂ)) ^ 2 * ((c.e : ℂ)) ^ 2 * ((c.mass .d : ℂ)) ^ 2 * (sb z0.2 z1.2) * (sb z0.2 z2.2) + (-3) * ((c.e : ℂ)) ^ 2 * ((c.mass .d : ℂ)) * (mb z0.2 (p 2) z1.1) * (sb z0.2 z2.2)) * i4 + ((-4) * ((c.SW : ℂ)) ^ 2 * ((c.e : ℂ)) ^ 2 * ((c.mass .d : ℂ)) * (ab z2.1 ρ0) * (sb z0.2 z2.2) + (3) * ((c.e : ℂ)) ^ 2 * ((c.mass .d : ℂ)) * (ab z2.1 ρ0) * (sb z0.2 z2.2)) * i5 + ((2) * ((c.SW : ℂ)) ^ 2 * ((c.e : ℂ)) ^ 2 * ((c.mass .d : ℂ)) * (N.c 0) * (ab z2.1 ρ0) + (-2) * ((c.SW : ℂ)) ^ 2 * ((c.e : ℂ)) ^ 2 * ((c.mass .d : ℂ)) * (ab z0.1 z2.1) * (mb z0.2 (p 1) ρ0) + (4) * ((c.SW : ℂ)) ^ 2 * ((c.e : ℂ)) ^ 2 * ((c.mass .d : ℂ)) * (ab z0.1 z2.1) * (mb z0.2 (p 2) ρ0) + (3) * ((c.e : ℂ)) ^ 2 * ((c.mass .d : ℂ)) * (ab z0.1 z2.1) * (mb z0.2 (p 1) ρ0) + (-3) * ((c.e : ℂ)) ^ 2 * ((c.mass .d : ℂ)) * (ab z0.1 z2.1) * (mb z0.2 (p 2) ρ0)) * i6 + ((-2) * ((c.MW : ℂ)) * ((c.SW : ℂ)) ^ 2 * ((c.e : ℂ)) ^ 2 * ((c.CW : ℂ)⁻¹) * (ab z1.1 z2.1) * (sb z0.2 z3.2) + (3) * ((c.MW : ℂ)) * ((c.e : ℂ)) ^ 2 * ((c.CW : ℂ)⁻¹) * (ab z1.1 z2.1) * (sb z0.2 z3.2) + (2) * ((c.SW : ℂ)) ^ 2 * ((c.e : ℂ)) ^ 2 * ((c.mass .d : ℂ)) * (ab z1.1 z3.1) * (sb z0.2 z2.2) + (-2) * ((c.SW : ℂ)) ^ 2 * ((c.e : ℂ)) ^ 2 * ((c.mass .d : ℂ)) * (sb z0.2 z1.2) * (sb z2.2 z3.2) + (2) * ((c.SW : ℂ)) ^ 2 * ((c.e : ℂ)) ^ 2 * ((c.mass .d : ℂ)) * (sb z0.2 z2.2) * (sb z1.2 z3.2) + (-2) * ((c.SW : ℂ)) ^ 2 * ((c.e : ℂ)) ^ 2 * (mb z0.2 (p 1) z3.1) * (sb z1.2 z2.2)) * i7 + ((-2) * ((c.SW : ℂ)) ^ 2 * ((c.e : ℂ)) ^ 2 * ((c.mass .d : ℂ)) * (mb z0.2 (p 1) ρ0) * (sb z0.2 z2.2) + (3) * ((c.e : ℂ)) ^ 2 * ((c.mass .d : ℂ)) * (mb z0.2 (p 1) ρ0) * (sb z0.2 z2.2)) * i8 + ((-4) * ((c.SW : ℂ)) ^ 2 * ((c.e : ℂ)) ^ 2 * (ab z2.1 z3.1) * (mb z0.2 (p 1) ρ0) + (4) * ((c.SW : ℂ)) ^ 2 * ((c.e : ℂ)) ^ 2 * (ab z2.1 z3.1) * (mb z0.2 (p 2) ρ0) + (3) * ((c.e : ℂ)) ^ 2 * (ab z2.1 z3.1) * (mb z0.2 (p 1) ρ0) + (-3) * ((c.e : ℂ)) ^ 2 * (ab z2.1 z3.1) * (mb z0.2 (p 2) ρ0)) * i9 + ((-4) * ((c.SW : ℂ)) ^ 2 * ((c.e : ℂ)) ^ 2 * (mb z0.2 (p 1) ρ0) * (sb z0.2 z2.2) + (4) * ((c.SW : ℂ)) ^ 2 * ((c.e : ℂ)) ^ 2 * (mb z0.2 (p 2) ρ0) * (sb z0.2 z2.2) + (3) * ((c.e : ℂ)) ^ 2 * (mb z0.2 (p 1) ρ0) * (sb z0.2 z2.2) + (-3) * ((c.e : ℂ)) ^ 2 * (mb z0.2 (p 2) ρ0) * (sb z0.2 z2.2)) * i10 + ((4) * ((c.SW : ℂ)) ^ 2 * ((c.e : ℂ)) ^ 2 * ((c.mass .d : ℂ)) * (ab z1.1 ρ0) * (sb z0.2 z2.2) + (-2) * ((c.SW : ℂ)) ^ 2 * ((c.e : ℂ)) ^ 2 * (ab z0.1 ρ0) * (sb z0.2 z1.2) * (sb z0.2 z2.2) + (2) * ((c.SW : ℂ)) ^ 2 * ((c.e : ℂ)) ^ 2 * (mb z0.2 (p 1) ρ0) * (sb z1.2 z2.2) + (-4) * ((c.SW : ℂ)) ^ 2 * ((c.e : ℂ)) ^ 2 * (mb z0.2 (p 2) ρ0) * (sb z1.2 z2.2) + (2) * ((c.SW : ℂ)) ^ 2 * ((c.e : ℂ)) ^ 2 * (mb z2.2 (p 1) ρ0) * (sb z0.2 z1.2) + (-3) * ((c.e : ℂ)) ^ 2 * ((c.mass .d : ℂ)) * (ab z1.1 ρ0) * (sb z0.2 z2.2) + (-3) * ((c.e : ℂ)) ^ 2 * (mb z0.2 (p 1) ρ0) * (sb z1.2 z2.2) + (3) * ((c.e : ℂ)) ^ 2 * (mb z0.2 (p 2) ρ0) * (sb z1.2 z2.2)) * i11 + ((-4) * ((c.SW : ℂ)) ^ 2 * ((c.e : ℂ)) ^ 2 * (mb z0.2 (p 1) ρ0) * (sb z0.2 z1.2) + (4) * ((c.SW : ℂ)) ^ 2 * ((c.e : ℂ)) ^ 2 * (mb z0.2 (p 2) ρ0) * (sb z0.2 z1.2) + (3) * ((c.e : ℂ)) ^ 2 * (mb z0.2 (p 1) ρ0) * (sb z0.2 z1.2) + (-3) * ((c.e : ℂ)) ^ 2 * (mb z0.2 (p 2) ρ0) * (sb z0.2 z1.2)) * i12 + ((2) * ((c.MW : ℂ)) * ((c.SW : ℂ)) ^ 2 * ((c.e : ℂ)) ^ 2 * ((c.CW : ℂ)⁻¹) * (sb z0.2 z2.2) * (sb z1.2 z2.2) + (-4) * ((c.SW : ℂ)) ^ 2 * ((c.e : ℂ)) ^ 2 * (mb z2.2 (p 1) z2.1) * (sb z0.2 z1.2) + (3) * ((c.e : ℂ)) ^ 2 * (mb z0.2 (p 1) z2.1) * (sb z1.2 z2.2) + (3) * ((c.e : ℂ)) ^ 2 * (mb z2.2 (p 1) z2.1) * (sb z0.2 z1.2)) * i13 + ((2) * ((c.SW : ℂ)) ^ 2 * ((c.e : ℂ)) ^ 2 * (mb z0.2 (p 1) z2.1) * (sb z1.2 z2.2) + (4) * ((c.SW : ℂ)) ^ 2 * ((c.e : ℂ)) ^ 2 * (mb z2.2 (p 1) z2.1) * (sb z0.2 z1.2) + (-3) * ((c.e : ℂ)) ^ 2 * (mb z0.2 (p 1) z2.1) * (sb z1.2 z2.2) + (-3) * ((c.e : ℂ)) ^ 2 * (mb z2.2 (p 1) z2.1) * (sb z0.2 z1.2)) * i14 + ((-2) * ((c.SW : ℂ)) ^ 2 * ((c.e : ℂ)) ^ 2 * ((c.mass .d : ℂ)) * (ab z1.1 ρ0) * (sb z0.2 z2.2) + (2) * ((c.SW : ℂ)) ^ 2 * ((c.e : ℂ)) ^ 2 * (ab z0.1 ρ0) * (sb z0.2 z1.2) * (sb z0.2 z2.2) + (2) * ((c.SW : ℂ)) ^ 2 * ((c.e : ℂ)) ^ 2 * (mb z0.2 (p 2) ρ0) * (sb z1.2 z2.2) + (-2) * ((c.SW : ℂ)) ^ 2 * ((c.e : ℂ)) ^ 2 * (mb z2.2 (p 1) ρ0) * (sb z0.2 z1.2) + (3) * ((c.e : ℂ)) ^ 2 * (mb z0.2 (p 1) ρ0) * (sb z1.2 z2.2) + (-3) * ((c.e : ℂ)) ^ 2 * (mb z0.2 (p 2) ρ0) * (sb z1.2 z2.2)) * i15 + ((2) * ((c.SW : ℂ)) ^ 2 * ((c.e : ℂ)) ^ 2 * (ab z2.1 z3.1) * (mb z0.2 (p 1) ρ0) + (-2) * ((c.SW : ℂ)) ^ 2 * ((c.e : ℂ)) ^ 2 * (ab z2.1 z3.1) * (mb z0.2 (p 2) ρ0) + (-3) * ((c.e : ℂ)) ^ 2 * (ab z2.1 z3.1) * (mb z0.2 (p 1) ρ0) + (3) * ((c.e : ℂ)) ^ 2 * (ab z2.1 z3.1) * (mb z0.2 (p 2) ρ0)) * i16 + ((-2) * ((c.SW : ℂ)) ^ 2 * ((c.e : ℂ)) ^ 2 * (N.c 1) * (sb z2.2 z3.2) + (-2) * ((c.SW : ℂ)) ^ 2 * ((c.e : ℂ)) ^ 2 * (mb z2.2 (p 1) z0.1) * (sb z0.2 z3.2) + (3) * ((c.e : ℂ)) ^ 2 * (N.c 1) * (sb z2.2 z3.2) + (3) * ((c.e : ℂ)) ^ 2 * (mb z2.2 (p 1) z0.1) * (sb z0.2 z3.2)) * i17 + ((-4) * ((c.SW : ℂ)) ^ 2 * ((c.e : ℂ)) ^ 2 * (N.c 1) * (ab z3.1 ρ0) + (3) * ((c.e : ℂ)) ^ 2 * (N.c 1) * (ab z3.1 ρ0)) * i18 + ((-4) * ((c.SW : ℂ)) ^ 2 * ((c.e : ℂ)) ^ 2 * ((c.mass .d : ℂ)) * (ab z1.1 z3.1) * (sb z0.2 z2.2) + (2) * ((c.SW : ℂ)) ^ 2 * ((c.e : ℂ)) ^ 2 * (mb z0.2 (p 1) z3.1) * (sb z1.2 z2.2) + (3) * ((c.e : ℂ)) ^ 2 * ((c.mass .d : ℂ)) * (ab z1.1 z3.1) * (sb z0.2 z2.2)) * i19 + ((2) * ((c.SW : ℂ)) ^ 2 * ((c.e : ℂ)) ^ 2 * ((c.mass .d : ℂ)) * (ab z2.1 z3.1) * (sb z0.2 z2.2) + (-3) * ((c.e : ℂ)) ^ 2 * ((c.mass .d : ℂ)) * (ab z2.1 z3.1) * (sb z0.2 z2.2)) * i20 + ((-2) * ((c.SW : ℂ)) ^ 2 * ((c.e : ℂ)) ^ 2 * (mb z0.2 (p 1) z2.1) * (sb z0.2 z3.2) + (3) * ((c.e : ℂ)) ^ 2 * (mb z0.2 (p 1) z2.1) * (sb z0.2 z3.2)) * i21 + ((-2) * ((c.SW : ℂ)) ^ 2 * ((c.e : ℂ)) ^ 2 * ((c.mass .d : ℂ)) * (ab z3.1 ρ0) * (sb z0.2 z2.2) + (2) * ((c.SW : ℂ)) ^ 2 * ((c.e : ℂ)) ^ 2 * (mb z2.2 (p 1) ρ0) * (sb z0.2 z3.2) + (-3) * ((c.e : ℂ)) ^ 2 * (mb z2.2 (p 1) ρ0) * (sb z0.2 z3.2)) * i22 + ((-4) * ((c.SW : ℂ)) ^ 2 * ((c.e : ℂ)) ^ 2 * ((c.mass .d : ℂ)) * (sb z0.2 z1.2) * (sb z0.2 z3.2) + (3) * ((c.e : ℂ)) ^ 2 * ((c.mass .d : ℂ)) * (sb z0.2 z1.2) * (sb z0.2 z3.2)) * i23 + ((2) * ((c.SW : ℂ)) ^ 2 * ((c.e : ℂ)) ^ 2 * ((c.mass .d : ℂ)) * (ab z0.1 ρ0) * (sb z0.2 z2.2)) * i24 + ((2) * ((c.SW : ℂ)) ^ 2 * ((c.e : ℂ)) ^ 2 * (ab z1.1 z2.1) * (mb z0.2 (p 1) ρ0) + (-3) * ((c.e : ℂ)) ^ 2 * (ab z1.1 z2.1) * (mb z0.2 (p 1) ρ0)) * i25 + ((2) * ((c.SW : ℂ)) ^ 2 * ((c.e : ℂ)) ^ 2 * ((c.mass .d : ℂ)) * (ab z2.1 ρ0) * (sb z0.2 z2.2)) * i26 + ((-2) * ((c.SW : ℂ)) ^ 2 * ((c.e : ℂ)) ^ 2 * (ab z1.1 z2.1) * (mb z0.2 (p 1) ρ0) + (3) * ((c.e : ℂ)) ^ 2 * (ab z1.1 z2.1) * (mb z0.2 (p 1) ρ0)) * i27 + ((2) * ((c.SW : ℂ)) ^ 2 * ((c.e : ℂ)) ^ 2 * (N.c 1) * (sb z1.2 z2.2) + (2) * ((c.SW : ℂ)) ^ 2 * ((c.e : ℂ)) ^ 2 * (mb z2.2 (p 1) z0.1) * (sb z0.2 z1.2)) * i28 + ((-2) * ((c.SW : ℂ)) ^ 2 * ((c.e : ℂ)) ^ 2 * (mb z2.2 (p 1) z0.1) * (sb z0.2 z1.2)) * i29 + ((-2) * ((c.MW : ℂ)) * ((c.SW : ℂ)) ^ 2 * ((c.e : ℂ)) ^ 2 * ((c.CW : ℂ)⁻¹) * (sb z0.2 z1.2) * (sb z0.2 z2.2) + (-2) * ((c.SW : ℂ)) ^ 2 * ((c.e : ℂ)) ^ 2 * (mb z0.2 (p 1) z2.1) * (sb z0.2 z1.2)) * i30)) * ((1) * ((c.CW : ℂ)) * ((c.CW : ℂ)⁻¹) * ((c.MW : ℂ)⁻¹) * ((c.SW : ℂ)⁻¹) * ((N.c 0)⁻¹) * ((N.c 1)⁻¹) / (9)) + ((2) * ((c.CW : ℂ)) * ((c.MW : ℂ)) * ((c.SW : ℂ)) ^ 2 * ((c.e : ℂ)) ^ 2 * ((c.CW : ℂ)⁻¹) ^ 2 * ((c.MW : ℂ)⁻¹) * ((c.SW : ℂ)⁻¹) * ((N.c 1)⁻¹) * (ab z1.1 z2.1) * (ab z2.1 ρ0) * (sb z0.2 z3.2) / (9) + (-2) * ((c.CW : ℂ)) * ((c.MW : ℂ)) * ((c.SW : ℂ)) ^ 2 * ((c.e : ℂ)) ^ 2 * ((c.CW : ℂ)⁻¹) ^ 2 * ((c.MW : ℂ)⁻¹) * ((c.SW : ℂ)⁻¹) * ((N.c 1)⁻¹) * (ab z3.1 ρ0) * (sb z0.2 z2.2) * (sb z1.2 z2.2) / (9) + (-1) * ((c.CW : ℂ)) * ((c.MW : ℂ)) * ((c.e : ℂ)) ^ 2 * ((c.CW : ℂ)⁻¹) ^ 2 * ((c.MW : ℂ)⁻¹) * ((c.SW : ℂ)⁻¹) * ((N.c 1)⁻¹) * (ab z1.1 z2.1) * (ab z2.1 ρ0) * (sb z0.2 z3.2) / (3) + (2) * ((c.CW : ℂ)) * ((c.SW : ℂ)) ^ 2 * ((c.e : ℂ)) ^ 2 * ((c.CW : ℂ)⁻¹) * ((c.MW : ℂ)⁻¹) * ((c.SW : ℂ)⁻¹) * ((c.mass .d : ℂ)) * ((N.c 1)⁻¹) * (ab z1.1 z2.1) * (ab z3.1 ρ0) * (sb z0.2 z2.2) / (9) + (-2) * ((c.CW : ℂ)) * ((c.SW : ℂ)) ^ 2 * ((c.e : ℂ)) ^ 2 * ((c.CW : ℂ)⁻¹) * ((c.MW : ℂ)⁻¹) * ((c.SW : ℂ)⁻¹) * ((c.mass .d : ℂ)) * ((N.c 1)⁻¹) * (ab z2.1 ρ0) * (sb z0.2 z3.2) * (sb z1.2 z2.2) / (9) + (-2) * ((c.CW : ℂ)) * ((c.SW : ℂ)) ^ 2 * ((c.e : ℂ)) ^ 2 * ((c.CW : ℂ)⁻¹) * ((c.MW : ℂ)⁻¹) * ((c.SW : ℂ)⁻¹) * ((N.c 1)⁻¹) * (ab z1.1 z2.1) * (mb z2.2 (p 1) ρ0) * (sb z0.2 z3.2) / (9) + (-2) * ((c.CW : ℂ)) * ((c.SW : ℂ)) ^ 2 * ((c.e : ℂ)) ^ 2 * ((c.CW : ℂ)⁻¹) * ((c.MW : ℂ)⁻¹) * ((c.SW : ℂ)⁻¹) * ((N.c 1)⁻¹) * (ab z3.1 ρ0) * (mb z0.2 (p 1) z2.1) * (sb z1.2 z2.2) / (9) + (-1) * ((c.CW : ℂ)) * ((c.e : ℂ)) ^ 2 * ((c.CW : ℂ)⁻¹) * ((c.MW : ℂ)⁻¹) * ((c.SW : ℂ)⁻¹) * ((c.mass .d : ℂ)) * ((N.c 1)⁻¹) * (ab z1.1 z2.1) * (ab z3.1 ρ0) * (sb z0.2 z2.2) / (3) + (1) * ((c.CW : ℂ)) * ((c.e : ℂ)) ^ 2 * ((c.CW : ℂ)⁻¹) * ((c.MW : ℂ)⁻¹) * ((c.SW : ℂ)⁻¹) * ((N.c 1)⁻¹) * (ab z1.1 z2.1) * (mb z2.2 (p 1) ρ0) * (sb z0.2 z3.2) / (3)) * y0 + ((2) * ((c.CW : ℂ)) * ((c.SW : ℂ)) ^ 2 * ((c.e : ℂ)) ^ 2 * ((c.CW : ℂ)⁻¹) * ((c.MW : ℂ)⁻¹) * ((c.SW : ℂ)⁻¹) * ((c.mass .d : ℂ)) * ((N.c 0)⁻¹) * (ab z1.1 ρ0) * (ab z2.1 z3.1) * (sb z0.2 z2.2) / (9) + (-2) * ((c.CW : ℂ)) * ((c.SW : ℂ)) ^ 2 * ((c.e : ℂ)) ^ 2 * ((c.CW : ℂ)⁻¹) * ((c.MW : ℂ)⁻¹) * ((c.SW : ℂ)⁻¹) * ((c.mass .d : ℂ)) * ((N.c 0)⁻¹) * (ab z2.1 ρ0) * (sb z0.2 z1.2) * (sb z2.2 z3.2) / (9) + (2) * ((c.CW : ℂ)) * ((c.SW : ℂ)) ^ 2 * ((c.e : ℂ)) ^ 2 * ((c.CW : ℂ)⁻¹) * ((c.MW : ℂ)⁻¹) * ((c.SW : ℂ)⁻¹) * ((N.c 0)⁻¹) * (ab z0.1 ρ0) * (ab z2.1 z3.1) * (sb z0.2 z1.2) * (sb z0.2 z2.2) / (9) + (-2) * ((c.CW : ℂ)) * ((c.SW : ℂ)) ^ 2 * ((c.e : ℂ)) ^ 2 * ((c.CW : ℂ)⁻¹) * ((c.MW : ℂ)⁻¹) * ((c.SW : ℂ)⁻¹) * ((N.c 0)⁻¹) * (ab z1.1 ρ0) * (mb z0.2 (p 1) z2.1) * (sb z2.2 z3.2) / (9) + (-2) * ((c.CW : ℂ)) * ((c.SW : ℂ)) ^ 2 * ((c.e : ℂ)) ^ 2 * ((c.CW : ℂ)⁻¹) * ((c.MW : ℂ)⁻¹) * ((c.SW : ℂ)⁻¹) * ((N.c 0)⁻¹) * (ab z2.1 z3.1) * (mb z2.2 (p 1) ρ0) * (sb z0.2 z1.2) / (9) + (1) * ((c.CW : ℂ)) * ((c.e : ℂ)) ^ 2 * ((c.CW : ℂ)⁻¹) * ((c.MW : ℂ)⁻¹) * ((c.SW : ℂ)⁻¹) * ((c.mass .d : ℂ)) * ((N.c 0)⁻¹) * (ab z2.1 ρ0) * (sb z0.2 z1.2) * (sb z2.2 z3.2) / (3) + (1) * ((c.CW : ℂ)) * ((c.e : ℂ)) ^ 2 * ((c.CW : ℂ)⁻¹) * ((c.MW : ℂ)⁻¹) * ((c.SW : ℂ)⁻¹) * ((N.c 0)⁻¹) * (ab z1.1 ρ0) * (mb z0.2 (p 1) z2.1) * (sb z2.2 z3.2) / (3)) * y1 + ((-1) * ((c.MW : ℂ)) * (((√2 : ℝ) : ℂ)) ^ 2 * ((c.SW : ℂ)) ^ 2 * ((c.e : ℂ)) ^ 2 * ((c.CW : ℂ)⁻¹) * ((c.MW : ℂ)⁻¹) * ((c.SW : ℂ)⁻¹) * ((N.c 1)⁻¹) * (ab z1.1 z2.1) * (ab z2.1 ρ0) * (sb z0.2 z3.2) / (9) + (1) * ((c.MW : ℂ)) * (((√2 : ℝ) : ℂ)) ^ 2 * ((c.SW : ℂ)) ^ 2 * ((c.e : ℂ)) ^ 2 * ((c.CW : ℂ)⁻¹) * ((c.MW : ℂ)⁻¹) * ((c.SW : ℂ)⁻¹) * ((N.c 1)⁻¹) * (ab z3.1 ρ0) * (sb z0.2 z2.2) * (sb z1.2 z2.2) / (9) + (1) * ((c.MW : ℂ)) * (((√2 : ℝ) : ℂ)) ^ 2 * ((c.e : ℂ)) ^ 2 * ((c.CW : ℂ)⁻¹) * ((c.MW : ℂ)⁻¹) * ((c.SW : ℂ)⁻¹) * ((N.c 1)⁻¹) * (ab z1.1 z2.1) * (ab z2.1 ρ0) * (sb z0.2 z3.2) / (6) + (-2) * ((c.MW : ℂ)) * ((c.SW : ℂ)) ^ 2 * ((c.e : ℂ)) ^ 2 * ((c.CW : ℂ)⁻¹) * ((c.MW : ℂ)⁻¹) * ((c.SW : ℂ)⁻¹) * ((N.c 0)⁻¹) * ((N.c 1)⁻¹) * (ab z0.1 ρ0) * (ab z1.1 z2.1) * (mb z0.2 (p 1) z2.1) * (sb z0.2 z3.2) / (9) + (-2) * ((c.MW : ℂ)) * ((c.SW : ℂ)) ^ 2 * ((c.e : ℂ)) ^ 2 * ((c.CW : ℂ)⁻¹) * ((c.MW : ℂ)⁻¹) * ((c.SW : ℂ)⁻¹) * ((N.c 0)⁻¹) * ((N.c 1)⁻¹) * (ab z0.1 ρ0) * (ab z2.1 z3.1) * (mb z0.2 (p 1) z2.1) * (sb z0.2 z1.2) / (9) + (2) * ((c.MW : ℂ)) * ((c.SW : ℂ)) ^ 2 * ((c.e : ℂ)) ^ 2 * ((c.CW : ℂ)⁻¹) * ((c.MW : ℂ)⁻¹) * ((c.SW : ℂ)⁻¹) * ((N.c 1)⁻¹) * (ab z1.1 z2.1) * (ab z2.1 ρ0) * (sb z0.2 z3.2) / (9) + (-2) * ((c.MW : ℂ)) * ((c.SW : ℂ)) ^ 2 * ((c.e : ℂ)) ^ 2 * ((c.CW : ℂ)⁻¹) * ((c.MW : ℂ)⁻¹) * ((c.SW : ℂ)⁻¹) * ((N.c 1)⁻¹) * (ab z3.1 ρ0) * (sb z0.2 z2.2) * (sb z1.2 z2.2) / (9) + (1) * ((c.MW : ℂ)) * ((c.e : ℂ)) ^ 2 * ((c.CW : ℂ)⁻¹) * ((c.MW : ℂ)⁻¹) * ((c.SW : ℂ)⁻¹) * ((N.c 0)⁻¹) * ((N.c 1)⁻¹) * (ab z0.1 ρ0) * (ab z1.1 z2.1) * (mb z0.2 (p 1) z2.1) * (sb z0.2 z3.2) / (3) + (-1) * ((c.MW : ℂ)) * ((c.e : ℂ)) ^ 2 * ((c.CW : ℂ)⁻¹) * ((c.MW : ℂ)⁻¹) * ((c.SW : ℂ)⁻¹) * ((N.c 1)⁻¹) * (ab z1.1 z2.1) * (ab z2.1 ρ0) * (sb z0.2 z3.2) / (3) + (-2) * ((c.MW : ℂ)) ^ 2 * ((c.SW : ℂ)) ^ 2 * ((c.e : ℂ)) ^ 2 * ((c.CW : ℂ)⁻¹) ^ 2 * ((c.MW : ℂ)⁻¹) * ((c.SW : ℂ)⁻¹) * ((N.c 0)⁻¹) * ((N.c 1)⁻¹) * (ab z0.1 ρ0) * (ab z2.1 z3.1) * (sb z0.2 z1.2) * (sb z0.2 z2.2) / (9) + (-1) * (((√2 : ℝ) : ℂ)) ^ 2 * ((c.SW : ℂ)) ^ 2 * ((c.e : ℂ)) ^ 2 * ((c.MW : ℂ)⁻¹) * ((c.SW : ℂ)⁻¹) * ((c.mass .d : ℂ)) * ((N.c 0)⁻¹) * (ab z1.1 ρ0) * (ab z2.1 z3.1) * (sb z0.2 z2.2) / (9) + (1) * (((√2 : ℝ) : ℂ)) ^ 2 * ((c.SW : ℂ)) ^ 2 * ((c.e : ℂ)) ^ 2 * ((c.MW : ℂ)⁻¹) * ((c.SW : ℂ)⁻¹) * ((c.mass .d : ℂ)) * ((N.c 0)⁻¹) * (ab z2.1 ρ0) * (sb z0.2 z1.2) * (sb z2.2 z3.2) / (9) + (-1) * (((√2 : ℝ) : ℂ)) ^ 2 * ((c.SW : ℂ)) ^ 2 * ((c.e : ℂ)) ^ 2 * ((c.MW : ℂ)⁻¹) * ((c.SW : ℂ)⁻¹) * ((c.mass .d : ℂ)) * ((N.c 1)⁻¹) * (ab z1.1 z2.1) * (ab z3.1 ρ0) * (sb z0.2 z2.2) / (9) + (1) * (((√2 : ℝ) : ℂ)) ^ 2 * ((c.SW : ℂ)) ^ 2 * ((c.e : ℂ)) ^ 2 * ((c.MW : ℂ)⁻¹) * ((c.SW : ℂ)⁻¹) * ((c.mass .d : ℂ)) * ((N.c 1)⁻¹) * (ab z2.1 ρ0) * (sb z0.2 z3.2) * (sb z1.2 z2.2) / (9) + (-1) * (((√2 : ℝ) : ℂ)) ^ 2 * ((c.SW : ℂ)) ^ 2 * ((c.e : ℂ)) ^ 2 * ((c.MW : ℂ)⁻¹) * ((c.SW : ℂ)⁻¹) * ((N.c 0)⁻¹) * (ab z0.1 ρ0) * (ab z2.1 z3.1) * (sb z0.2 z1.2) * (sb z0.2 z2.2) / (9) + (1) * (((√2 : ℝ) : ℂ)) ^ 2 * ((c.SW : ℂ)) ^ 2 * ((c.e : ℂ)) ^ 2 * ((c.MW : ℂ)⁻¹) * ((c.SW : ℂ)⁻¹) * ((N.c 0)⁻¹) * (ab z1.1 ρ0) * (mb z0.2 (p 1) z2.1) * (sb z2.2 z3.2) / (9) + (1) * (((√2 : ℝ) : ℂ)) ^ 2 * ((c.SW : ℂ)) ^ 2 * ((c.e : ℂ)) ^ 2 * ((c.MW : ℂ)⁻¹) * ((c.SW : ℂ)⁻¹) * ((N.c 0)⁻¹) * (ab z2.1 z3.1) * (mb z2.2 (p 1) ρ0) * (sb z0.2 z1.2) / (9) + (1) * (((√2 : ℝ) : ℂ)) ^ 2 * ((c.SW : ℂ)) ^ 2 * ((c.e : ℂ)) ^ 2 * ((c.MW : ℂ)⁻¹) * ((c.SW : ℂ)⁻¹) * ((N.c 1)⁻¹) * (ab z1.1 z2.1) * (mb z2.2 (p 1) ρ0) * (sb z0.2 z3.2) / (9) + (1) * (((√2 : ℝ) : ℂ)) ^ 2 * ((c.SW : ℂ)) ^ 2 * ((c.e : ℂ)) ^ 2 * ((c.MW : ℂ)⁻¹) * ((c.SW : ℂ)⁻¹) * ((N.c 1)⁻¹) * (ab z3.1 ρ0) * (mb z0.2 (p 1) z2.1) * (sb z1.2 z2.2) / (9) + (-1) * (((√2 : ℝ) : ℂ)) ^ 2 * ((c.e : ℂ)) ^ 2 * ((c.MW : ℂ)⁻¹) * ((c.SW : ℂ)⁻¹) * ((c.mass .d : ℂ)) * ((N.c 0)⁻¹) * (ab z2.1 ρ0) * (sb z0.2 z1.2) * (sb z2.2 z3.2) / (6) + (1) * (((√2 : ℝ) : ℂ)) ^ 2 * ((c.e : ℂ)) ^ 2 * ((c.MW : ℂ)⁻¹) * ((c.SW : ℂ)⁻¹) * ((c.mass .d : ℂ)) * ((N.c 1)⁻¹) * (ab z1.1 z2.1) * (ab z3.1 ρ0) * (sb z0.2 z2.2) / (6) + (-1) * (((√2 : ℝ) : ℂ)) ^ 2 * ((c.e : ℂ)) ^ 2 * ((c.MW : ℂ)⁻¹) * ((c.SW : ℂ)⁻¹) * ((N.c 0)⁻¹) * (ab z1.1 ρ0) * (mb z0.2 (p 1) z2.1) * (sb z2.2 z3.2) / (6) + (-1) * (((√2 : ℝ) : ℂ)) ^ 2 * ((c.e : ℂ)) ^ 2 * ((c.MW : ℂ)⁻¹) * ((c.SW : ℂ)⁻¹) * ((N.c 1)⁻¹) * (ab z1.1 z2.1) * (mb z2.2 (p 1) ρ0) * (sb z0.2 z3.2) / (6) + (-2) * ((c.SW : ℂ)) ^ 2 * ((c.e : ℂ)) ^ 2 * ((c.MW : ℂ)⁻¹) * ((c.SW : ℂ)⁻¹) * ((c.mass .d : ℂ)) * ((N.c 0)⁻¹) * ((N.c 1)⁻¹) * (ab z0.1 ρ0) * (ab z1.1 z2.1) * (mb z0.2 (p 1) z3.1) * (sb z0.2 z2.2) / (9) + (-2) * ((c.SW : ℂ)) ^ 2 * ((c.e : ℂ)) ^ 2 * ((c.MW : ℂ)⁻¹) * ((c.SW : ℂ)⁻¹) * ((c.mass .d : ℂ)) * ((N.c 0)⁻¹) * ((N.c 1)⁻¹) * (ab z0.1 ρ0) * (ab z2.1 z3.1) * (mb z0.2 (p 2) z1.1) * (sb z0.2 z2.2) / (9) + (2) * ((c.SW : ℂ)) ^ 2 * ((c.e : ℂ)) ^ 2 * ((c.MW : ℂ)⁻¹) * ((c.SW : ℂ)⁻¹) * ((c.mass .d : ℂ)) * ((N.c 0)⁻¹) * (ab z1.1 ρ0) * (ab z2.1 z3.1) * (sb z0.2 z2.2) / (9) + (-2) * ((c.SW : ℂ)) ^ 2 * ((c.e : ℂ)) ^ 2 * ((c.MW : ℂ)⁻¹) * ((c.SW : ℂ)⁻¹) * ((c.mass .d : ℂ)) * ((N.c 0)⁻¹) * (ab z2.1 ρ0) * (sb z0.2 z1.2) * (sb z2.2 z3.2) / (9) + (2) * ((c.SW : ℂ)) ^ 2 * ((c.e : ℂ)) ^ 2 * ((c.MW : ℂ)⁻¹) * ((c.SW : ℂ)⁻¹) * ((c.mass .d : ℂ)) * ((N.c 1)⁻¹) * (ab z1.1 z2.1) * (ab z3.1 ρ0) * (sb z0.2 z2.2) / (9) + (-2) * ((c.SW : ℂ)) ^ 2 * ((c.e : ℂ)) ^ 2 * ((c.MW : ℂ)⁻¹) * ((c.SW : ℂ)⁻¹) * ((c.mass .d : ℂ)) * ((N.c 1)⁻¹) * (ab z2.1 ρ0) * (sb z0.2 z3.2) * (sb z1.2 z2.2) / (9) + (-2) * ((c.SW : ℂ)) ^ 2 * ((c.e : ℂ)) ^ 2 * ((c.MW : ℂ)⁻¹) * ((c.SW : ℂ)⁻¹) * ((c.mass .d : ℂ)) ^ 2 * ((N.c 0)⁻¹) * ((N.c 1)⁻¹) * (ab z0.1 ρ0) * (ab z1.1 z2.1) * (sb z0.2 z2.2) * (sb z0.2 z3.2) / (9) + (2) * ((c.SW : ℂ)) ^ 2 * ((c.e : ℂ)) ^ 2 * ((c.MW : ℂ)⁻¹) * ((c.SW : ℂ)⁻¹) * ((N.c 0)⁻¹) * (ab z0.1 ρ0) * (ab z2.1 z3.1) * (sb z0.2 z1.2) * (sb z0.2 z2.2) / (9) + (-2) * ((c.SW : ℂ)) ^ 2 * ((c.e : ℂ)) ^ 2 * ((c.MW : ℂ)⁻¹) * ((c.SW : ℂ)⁻¹) * ((N.c 0)⁻¹) * (ab z1.1 ρ0) * (mb z0.2 (p 1) z2.1) * (sb z2.2 z3.2) / (9) + (-2) * ((c.SW : ℂ)) ^ 2 * ((c.e : ℂ)) ^ 2 * ((c.MW : ℂ)⁻¹) * ((c.SW : ℂ)⁻¹) * ((N.c 0)⁻¹) * (ab z2.1 z3.1) * (mb z2.2 (p 1) ρ0) * (sb z0.2 z1.2) / (9) + (-2) * ((c.SW : ℂ)) ^ 2 * ((c.e : ℂ)) ^ 2 * ((c.MW : ℂ)⁻¹) * ((c.SW : ℂ)⁻¹) * ((N.c 1)⁻¹) * (ab z1.1 z2.1) * (mb z2.2 (p 1) ρ0) * (sb z0.2 z3.2) / (9) + (-2) * ((c.SW : ℂ)) ^ 2 * ((c.e : ℂ)) ^ 2 * ((c.MW : ℂ)⁻¹) * ((c.SW : ℂ)⁻¹) * ((N.c 1)⁻¹) * (ab z3.1 ρ0) * (mb z0.2 (p 1) z2.1) * (sb z1.2 z2.2) / (9) + (1) * ((c.e : ℂ)) ^ 2 * ((c.MW : ℂ)⁻¹) * ((c.SW : ℂ)⁻¹) * ((c.mass .d : ℂ)) * ((N.c 0)⁻¹) * ((N.c 1)⁻¹) * (ab z0.1 ρ0) * (ab z1.1 z2.1) * (mb z0.2 (p 1) z3.1) * (sb z0.2 z2.2) / (3) + (1) * ((c.e : ℂ)) ^ 2 * ((c.MW : ℂ)⁻¹) * ((c.SW : ℂ)⁻¹) * ((c.mass .d : ℂ)) * ((N.c 0)⁻¹) * (ab z2.1 ρ0) * (sb z0.2 z1.2) * (sb z2.2 z3.2) / (3) + (-1) * ((c.e : ℂ)) ^ 2 * ((c.MW : ℂ)⁻¹) * ((c.SW : ℂ)⁻¹) * ((c.mass .d : ℂ)) * ((N.c 1)⁻¹) * (ab z1.1 z2.1) * (ab z3.1 ρ0) * (sb z0.2 z2.2) / (3) + (1) * ((c.e : ℂ)) ^ 2 * ((c.MW : ℂ)⁻¹) * ((c.SW : ℂ)⁻¹) * ((c.mass .d : ℂ)) ^ 2 * ((N.c 0)⁻¹) * ((N.c 1)⁻¹) * (ab z0.1 ρ0) * (ab z1.1 z2.1) * (sb z0.2 z2.2) * (sb z0.2 z3.2) / (3) + (1) * ((c.e : ℂ)) ^ 2 * ((c.MW : ℂ)⁻¹) * ((c.SW : ℂ)⁻¹) * ((N.c 0)⁻¹) * (ab z1.1 ρ0) * (mb z0.2 (p 1) z2.1) * (sb z2.2 z3.2) / (3) + (1) * ((c.e : ℂ)) ^ 2 * ((c.MW : ℂ)⁻¹) * ((c.SW : ℂ)⁻¹) * ((N.c 1)⁻¹) * (ab z1.1 z2.1) * (mb z2.2 (p 1) ρ0) * (sb z0.2 z3.2) / (3)) * yCW + ((-1) * (((√2 : ℝ) : ℂ)) ^ 2 * ((c.SW : ℂ)) ^ 2 * ((c.e : ℂ)) ^ 2 * ((c.CW : ℂ)⁻¹) * ((c.SW : ℂ)⁻¹) * ((N.c 1)⁻¹) * (ab z1.1 z2.1) * (ab z2.1 ρ0) * (sb z0.2 z3.2) / (9) + (1) * (((√2 : ℝ) : ℂ)) ^ 2 * ((c.SW : ℂ)) ^ 2 * ((c.e : ℂ)) ^ 2 * ((c.CW : ℂ)⁻¹) * ((c.SW : ℂ)⁻¹) * ((N.c 1)⁻¹) * (ab z3.1 ρ0) * (sb z0.2 z2.2) * (sb z1.2 z2.2) / (9) + (1) * (((√2 : ℝ) : ℂ)) ^ 2 * ((c.e : ℂ)) ^ 2 * ((c.CW : ℂ)⁻¹) * ((c.SW : ℂ)⁻¹) * ((N.c 1)⁻¹) * (ab z1.1 z2.1) * (ab z2.1 ρ0) * (sb z0.2 z3.2) / (6) + (2) * ((c.SW : ℂ)) ^ 2 * ((c.e : ℂ)) ^ 2 * ((c.CW : ℂ)⁻¹) * ((c.SW : ℂ)⁻¹) * ((N.c 1)⁻¹) * (ab z1.1 z2.1) * (ab z2.1 ρ0) * (sb z0.2 z3.2) / (9) + (-2) * ((c.SW : ℂ)) ^ 2 * ((c.e : ℂ)) ^ 2 * ((c.CW : ℂ)⁻¹) * ((c.SW : ℂ)⁻¹) * ((N.c 1)⁻¹) * (ab z3.1 ρ0) * (sb z0.2 z2.2) * (sb z1.2 z2.2) / (9) + (-1) * ((c.e : ℂ)) ^ 2 * ((c.CW : ℂ)⁻¹) * ((c.SW : ℂ)⁻¹) * ((N.c 1)⁻¹) * (ab z1.1 z2.1) * (ab z2.1 ρ0) * (sb z0.2 z3.2) / (3)) * yMW + ((-1) * (((√2 : ℝ) : ℂ)) ^ 2 * ((c.SW : ℂ)) * ((c.e : ℂ)) ^ 2 * ((c.CW : ℂ)⁻¹) * ((N.c 1)⁻¹) * (ab z1.1 z2.1) * (ab z2.1 ρ0) * (sb z0.2 z3.2) / (9) + (1) * (((√2 : ℝ) : ℂ)) ^ 2 * ((c.SW : ℂ)) * ((c.e : ℂ)) ^ 2 * ((c.CW : ℂ)⁻¹) * ((N.c 1)⁻¹) * (ab z3.1 ρ0) * (sb z0.2 z2.2) * (sb z1.2 z2.2) / (9) + (-1) * (((√2 : ℝ) : ℂ)) ^ 2 * ((c.SW : ℂ)) * ((c.e : ℂ)) ^ 2 * ((c.MW : ℂ)⁻¹) * ((c.mass .d : ℂ)) * ((N.c 0)⁻¹) * (ab z1.1 ρ0) * (ab z2.1 z3.1) * (sb z0.2 z2.2) / (9) + (1) * (((√2 : ℝ) : ℂ)) ^ 2 * ((c.SW : ℂ)) * ((c.e : ℂ)) ^ 2 * ((c.MW : ℂ)⁻¹) * ((c.mass .d : ℂ)) * ((N.c 0)⁻¹) * (ab z2.1 ρ0) * (sb z0.2 z1.2) * (sb z2.2 z3.2) / (9) + (-1) * (((√2 : ℝ) : ℂ)) ^ 2 * ((c.SW : ℂ)) * ((c.e : ℂ)) ^ 2 * ((c.MW : ℂ)⁻¹) * ((c.mass .d : ℂ)) * ((N.c 1)⁻¹) * (ab z1.1 z2.1) * (ab z3.1 ρ0) * (sb z0.2 z2.2) / (9) + (1) * (((√2 : ℝ) : ℂ)) ^ 2 * ((c.SW : ℂ)) * ((c.e : ℂ)) ^ 2 * ((c.MW : ℂ)⁻¹) * ((c.mass .d : ℂ)) * ((N.c 1)⁻¹) * (ab z2.1 ρ0) * (sb z0.2 z3.2) * (sb z1.2 z2.2) / (9) + (-1) * (((√2 : ℝ) : ℂ)) ^ 2 * ((c.SW : ℂ)) * ((c.e : ℂ)) ^ 2 * ((c.MW : ℂ)⁻¹) * ((N.c 0)⁻¹) * (ab z0.1 ρ0) * (ab z2.1 z3.1) * (sb z0.2 z1.2) * (sb z0.2 z2.2) / (9) + (1) * (((√2 : ℝ) : ℂ)) ^ 2 * ((c.SW : ℂ)) * ((c.e : ℂ)) ^ 2 * ((c.MW : ℂ)⁻¹) * ((N.c 0)⁻¹) * (ab z1.1 ρ0) * (mb z0.2 (p 1) z2.1) * (sb z2.2 z3.2) / (9) + (1) * (((√2 : ℝ) : ℂ)) ^ 2 * ((c.SW : ℂ)) * ((c.e : ℂ)) ^ 2 * ((c.MW : ℂ)⁻¹) * ((N.c 0)⁻¹) * (ab z2.1 z3.1) * (mb z2.2 (p 1) ρ0) * (sb z0.2 z1.2) / (9) + (1) * (((√2 : ℝ) : ℂ)) ^ 2 * ((c.SW : ℂ)) * ((c.e : ℂ)) ^ 2 * ((c.MW : ℂ)⁻¹) * ((N.c 1)⁻¹) * (ab z1.1 z2.1) * (mb z2.2 (p 1) ρ0) * (sb z0.2 z3.2) / (9) + (1) * (((√2 : ℝ) : ℂ)) ^ 2 * ((c.SW : ℂ)) * ((c.e : ℂ)) ^ 2 * ((c.MW : ℂ)⁻¹) * ((N.c 1)⁻¹) * (ab z3.1 ρ0) * (mb z0.2 (p 1) z2.1) * (sb z1.2 z2.2) / (9) + (2) * ((c.SW : ℂ)) * ((c.e : ℂ)) ^ 2 * ((c.CW : ℂ)⁻¹) * ((N.c 1)⁻¹) * (ab z1.1 z2.1) * (ab z2.1 ρ0) * (sb z0.2 z3.2) / (9) + (-2) * ((c.SW : ℂ)) * ((c.e : ℂ)) ^ 2 * ((c.CW : ℂ)⁻¹) * ((N.c 1)⁻¹) * (ab z3.1 ρ0) * (sb z0.2 z2.2) * (sb z1.2 z2.2) / (9) + (2) * ((c.SW : ℂ)) * ((c.e : ℂ)) ^ 2 * ((c.MW : ℂ)⁻¹) * ((c.mass .d : ℂ)) * ((N.c 0)⁻¹) * (ab z1.1 ρ0) * (ab z2.1 z3.1) * (sb z0.2 z2.2) / (9) + (-2) * ((c.SW : ℂ)) * ((c.e : ℂ)) ^ 2 * ((c.MW : ℂ)⁻¹) * ((c.mass .d : ℂ)) * ((N.c 0)⁻¹) * (ab z2.1 ρ0) * (sb z0.2 z1.2) * (sb z2.2 z3.2) / (9) + (2) * ((c.SW : ℂ)) * ((c.e : ℂ)) ^ 2 * ((c.MW : ℂ)⁻¹) * ((c.mass .d : ℂ)) * ((N.c 1)⁻¹) * (ab z1.1 z2.1) * (ab z3.1 ρ0) * (sb z0.2 z2.2) / (9) + (-2) * ((c.SW : ℂ)) * ((c.e : ℂ)) ^ 2 * ((c.MW : ℂ)⁻¹) * ((c.mass .d : ℂ)) * ((N.c 1)⁻¹) * (ab z2.1 ρ0) * (sb z0.2 z3.2) * (sb z1.2 z2.2) / (9) + (2) * ((c.SW : ℂ)) * ((c.e : ℂ)) ^ 2 * ((c.MW : ℂ)⁻¹) * ((N.c 0)⁻¹) * (ab z0.1 ρ0) * (ab z2.1 z3.1) * (sb z0.2 z1.2) * (sb z0.2 z2.2) / (9) + (-2) * ((c.SW : ℂ)) * ((c.e : ℂ)) ^ 2 * ((c.MW : ℂ)⁻¹) * ((N.c 0)⁻¹) * (ab z1.1 ρ0) * (mb z0.2 (p 1) z2.1) * (sb z2.2 z3.2) / (9) + (-2) * ((c.SW : ℂ)) * ((c.e : ℂ)) ^ 2 * ((c.MW : ℂ)⁻¹) * ((N.c 0)⁻¹) * (ab z2.1 z3.1) * (mb z2.2 (p 1) ρ0) * (sb z0.2 z1.2) / (9) + (-2) * ((c.SW : ℂ)) * ((c.e : ℂ)) ^ 2 * ((c.MW : ℂ)⁻¹) * ((N.c 1)⁻¹) * (ab z1.1 z2.1) * (mb z2.2 (p 1) ρ0) * (sb z0.2 z3.2) / (9) + (-2) * ((c.SW : ℂ)) * ((c.e : ℂ)) ^ 2 * ((c.MW : ℂ)⁻¹) * ((N.c 1)⁻¹) * (ab z3.1 ρ0) * (mb z0.2 (p 1) z2.1) * (sb z1.2 z2.2) / (9)) * ySW + ((-1) * ((c.SW : ℂ)) * ((c.e : ℂ)) ^ 2 * ((c.CW : ℂ)⁻¹) * ((N.c 1)⁻¹) * (ab z1.1 z2.1) * (ab z2.1 ρ0) * (sb z0.2 z3.2) / (9) + (1) * ((c.SW : ℂ)) * ((c.e : ℂ)) ^ 2 * ((c.CW : ℂ)⁻¹) * ((N.c 1)⁻¹) * (ab z3.1 ρ0) * (sb z0.2 z2.2) * (sb z1.2 z2.2) / (9) + (-1) * ((c.SW : ℂ)) * ((c.e : ℂ)) ^ 2 * ((c.MW : ℂ)⁻¹) * ((c.mass .d : ℂ)) * ((N.c 0)⁻¹) * (ab z1.1 ρ0) * (ab z2.1 z3.1) * (sb z0.2 z2.2) / (9) + (1) * ((c.SW : ℂ)) * ((c.e : ℂ)) ^ 2 * ((c.MW : ℂ)⁻¹) * ((c.mass .d : ℂ)) * ((N.c 0)⁻¹) * (ab z2.1 ρ0) * (sb z0.2 z1.2) * (sb z2.2 z3.2) / (9) + (-1) * ((c.SW : ℂ)) * ((c.e : ℂ)) ^ 2 * ((c.MW : ℂ)⁻¹) * ((c.mass .d : ℂ)) * ((N.c 1)⁻¹) * (ab z1.1 z2.1) * (ab z3.1 ρ0) * (sb z0.2 z2.2) / (9) + (1) * ((c.SW : ℂ)) * ((c.e : ℂ)) ^ 2 * ((c.MW : ℂ)⁻¹) * ((c.mass .d : ℂ)) * ((N.c 1)⁻¹) * (ab z2.1 ρ0) * (sb z0.2 z3.2) * (sb z1.2 z2.2) / (9) + (-1) * ((c.SW : ℂ)) * ((c.e : ℂ)) ^ 2 * ((c.MW : ℂ)⁻¹) * ((N.c 0)⁻¹) * (ab z0.1 ρ0) * (ab z2.1 z3.1) * (sb z0.2 z1.2) * (sb z0.2 z2.2) / (9) + (1) * ((c.SW : ℂ)) * ((c.e : ℂ)) ^ 2 * ((c.MW : ℂ)⁻¹) * ((N.c 0)⁻¹) * (ab z1.1 ρ0) * (mb z0.2 (p 1) z2.1) * (sb z2.2 z3.2) / (9) + (1) * ((c.SW : ℂ)) * ((c.e : ℂ)) ^ 2 * ((c.MW : ℂ)⁻¹) * ((N.c 0)⁻¹) * (ab z2.1 z3.1) * (mb z2.2 (p 1) ρ0) * (sb z0.2 z1.2) / (9) + (1) * ((c.SW : ℂ)) * ((c.e : ℂ)) ^ 2 * ((c.MW : ℂ)⁻¹) * ((N.c 1)⁻¹) * (ab z1.1 z2.1) * (mb z2.2 (p 1) ρ0) * (sb z0.2 z3.2) / (9) + (1) * ((c.SW : ℂ)) * ((c.e : ℂ)) ^ 2 * ((c.MW : ℂ)⁻¹) * ((N.c 1)⁻¹) * (ab z3.1 ρ0) * (mb z0.2 (p 1) z2.1) * (sb z1.2 z2.2) / (9) + (1) * ((c.e : ℂ)) ^ 2 * ((c.CW : ℂ)⁻¹) * ((c.SW : ℂ)⁻¹) * ((N.c 1)⁻¹) * (ab z1.1 z2.1) * (ab z2.1 ρ0) * (sb z0.2 z3.2) / (6) + (-1) * ((c.e : ℂ)) ^ 2 * ((c.MW : ℂ)⁻¹) * ((c.SW : ℂ)⁻¹) * ((c.mass .d : ℂ)) * ((N.c 0)⁻¹) * (ab z2.1 ρ0) * (sb z0.2 z1.2) * (sb z2.2 z3.2) / (6) + (1) * ((c.e : ℂ)) ^ 2 * ((c.MW : ℂ)⁻¹) * ((c.SW : ℂ)⁻¹) * ((c.mass .d : ℂ)) * ((N.c 1)⁻¹) * (ab z1.1 z2.1) * (ab z3.1 ρ0) * (sb z0.2 z2.2) / (6) + (-1) * ((c.e : ℂ)) ^ 2 * ((c.MW : ℂ)⁻¹) * ((c.SW : ℂ)⁻¹) * ((N.c 0)⁻¹) * (ab z1.1 ρ0) * (mb z0.2 (p 1) z2.1) * (sb z2.2 z3.2) / (6) + (-1) * ((c.e : ℂ)) ^ 2 * ((c.MW : ℂ)⁻¹) * ((c.SW : ℂ)⁻¹) * ((N.c 1)⁻¹) * (ab z1.1 z2.1) * (mb z2.2 (p 1) ρ0) * (sb z0.2 z3.2) / (6)) * x22
theorem AdZd.keyM {c : Constants} {p : Nat → V4 ℝ} {N : Env} (hc : c.Physical) (hb : Balanced p) (r2 : N.r 2 = (c.mass .d)) (r6 : N.r 6 = (c.MW / c.CW)) (r8 : N.r 8 = ((((((2 : Nat) : ℝ) * c.e) * c.e) * ((-((1 : Nat) : ℝ)) / ((3 : Nat) : ℝ))) / ((((2 : Nat) : ℝ) * c.MW) * c.SW))) (r10 : N.r 10 = (((((-((2 : Nat) : ℝ)) * ((-((1 : Nat) : ℝ)) / ((3 : Nat) : ℝ))) * c.SW) * c.SW) - ((1 : Nat) : ℝ))) (r11 : N.r 11 = ((((-((2 : Nat) : ℝ)) * ((-((1 : Nat) : ℝ)) / ((3 : Nat) : ℝ))) * c.SW) * c.SW)) (d0 : ((msq (plus (p 1) (p 0)) - c.mass .d ^ 2 : ℝ) : ℂ) = N.c 0) (n0 : N.c 0 ≠ 0) (d1 : ((msq (plus (p 1) (backward (p 2))) - c.mass .d ^ 2 : ℝ) : ℂ) = N.c 1) (n1 : N.c 1 ≠ 0) {z0 z1 z2 z3 : Pair} (b1 : Bold (p 1) (c.mass .d) z1) (b2 : Bold (p 2) c.MZ z2) (b3 : Bold (p 3) (c.mass .d) z3) (l0 : Light (p 0) z0) (e01 : mb z0.2 (p 1) z0.1 = N.c 0) (e03 : mb z0.2 (p 3) z0.1 = -N.c 1) (q1 : msq (p 1) = (c.mass .d) ^ 2) (q2 : msq (p 2) = c.MZ ^ 2) (q3 : msq (p 3) = (c.mass .d) ^ 2) (ρ0 : V2) :
    AdZd.formM N p z0 z1 z2 z2 z3 * sb ρ0 z0.2 = ((√2 : ℝ) * ((1 : ℂ) * ((√2 / c.MZ : ℝ) : ℂ))) * AdZd.react.bare c p 3 1 0 2 z3 z1 (pv z0.1 ρ0) (pv z2.1 z2.2) := by
  rw [AdZd.react.bare_parts c p (i := 3) (j := 1) (a := 0) (b := 2) (x := .photon) (y := .z) (k := (p 0)) (k' := (backward (p 2))) (fun _ => rfl) (fun _ => rfl) (f := .d) (g := .d) rfl rfl (l := (p 1)) rfl (e := 1) (e' := 1) (if_neg Bool.false_ne_true) (if_neg Bool.false_ne_true)]
  rw [compton_vv (f := .d) (x := .d) (g := .d) (h := (rfl : Spec.after .photon Flavour.d = some Flavour.d)) (h' := (rfl : Spec.after .z Flavour.d = some Flavour.d)) (ha := by simp) (hb := by simp)]
  rw [compton_vv (f := .d) (x := .d) (g := .d) (h := (rfl : Spec.after .z Flavour.d = some Flavour.d)) (h' := (rfl : Spec.after .photon Flavour.d = some Flavour.d)) (ha := by simp) (hb := by simp)]
  rw [annihilation_none c _ _ (by rfl) (by simp), star_zero, add_zero, AdZd.formM]
  simp only [d0, d1, lineV_pv, lineV_four, contract_four_pv, contract_pv, mb_plus, mb_backward]
  have i0 := mb_schouten_left z0.2 z1.2 z2.2 (p 1) z0.1
  have i1 := mb_schouten_right ρ0 (p 1) z0.1 z1.1 z2.1
  have i2 := mb_schouten_left z0.2 z1.2 ρ0 (p 1) z0.1
  have i3 := mb_schouten_left z0.2 z2.2 ρ0 (p 1) z0.1
  have i4 := mb_schouten_left z0.2 z1.2 z2.2 (p 2) z0.1
  have i5 := mb_schouten_right z0.2 (p 2) z0.1 z1.1 z3.1
  have i6 := mb_schouten_right z0.2 (p 1) z0.1 z1.1 z3.1
  have i7 := ab_schouten z1.1 z2.1 z3.1 z0.1
  have i8 := mb_schouten_left z0.2 z1.2 ρ0 (p 2) z0.1
  have i9 := mb_schouten_right z2.2 (p 1) z0.1 z2.1 z3.1
  have i10 := mb_schouten_right ρ0 (p 2) z0.1 z2.1 z3.1
  have i11 := mb_schouten_right ρ0 (p 1) z0.1 z2.1 z3.1
  have i12 := mb_schouten_right z1.2 (p 2) z0.1 z2.1 z3.1
  have i13 := sb_schouten z1.2 z3.2 ρ0 z0.2
  have i14 := sb_schouten z2.2 z3.2 ρ0 z0.2
  have i15 := sb_schouten z1.2 z2.2 z3.2 z0.2
  have i16 := sb_schouten z2.2 z3.2 ρ0 z1.2
  have i17 := mb_schouten_left z0.2 z2.2 z3.2 (p 2) z0.1
  have i18 := mb_schouten_left z0.2 z2.2 z3.2 (p 1) z0.1
  have i19 := mb_schouten_right z3.2 (p 1) z0.1 z1.1 z2.1
  have i20 := mb_schouten_left z0.2 z1.2 z3.2 (p 1) z0.1
  have i21 := mb_schouten_right z2.2 (p 1) z0.1 z1.1 z2.1
  have i22 := mb_schouten_right z0.2 (p 2) z0.1 z1.1 z2.1
  have i23 := sb_schouten z1.2 z2.2 ρ0 z0.2
  have i24 := mb_schouten_left z0.2 z3.2 ρ0 (p 1) z0.1
  have i25 := mb_schouten_left z0.2 z1.2 z3.2 (p 2) z0.1
  have i26 := mb_schouten_right z2.2 (p 1) z0.1 z1.1 z3.1
  simp only [l0.mb_eq, b1.mb_left, b1.mb_right, b2.mb_left, b2.mb_right, b3.mb_left, b3.mb_right, e01, e03, mb_two hb z0.2 z0.1, mb_three hb z0.2 z1.1, mb_three hb z0.2 z2.1, mb_two hb z0.2 z3.1, mb_three hb z1.2 z0.1, mb_three hb z1.2 z1.1, mb_three hb z1.2 z2.1, mb_two hb z1.2 z3.1, mb_three hb z2.2 z0.1, mb_three hb z2.2 z1.1, mb_three hb z2.2 z2.1, mb_one hb z2.2 z3.1, mb_two hb z3.2 z0.1, mb_two hb z3.2 z1.1, mb_one hb z3.2 z2.1, mb_two hb z3.2 z3.1, mb_three hb ρ0 z0.1, mb_three hb ρ0 z1.1, mb_three hb ρ0 z2.1, mb_two hb ρ0 z3.1, ab_self, sb_self] at i0 i1 i2 i3 i4 i5 i6 i7 i8 i9 i10 i11 i12 i13 i14 i15 i16 i17 i18 i19 i20 i21 i22 i23 i24 i25 i26 ⊢
  simp only [ab_swap z0.1 z1.1, ab_swap z0.1 z2.1, ab_swap z0.1 z3.1, ab_swap z1.1 z2.1, ab_swap z1.1 z3.1, ab_swap z2.1 z3.1, sb_swap z0.2 z1.2, sb_swap z0.2 z2.2, sb_swap z0.2 z3.2, sb_swap z0.2 ρ0, sb_swap z1.2 z2.2, sb_swap z1.2 z3.2, sb_swap z1.2 ρ0, sb_swap z2.2 z3.2, sb_swap z2.2 ρ0, sb_swap z3.2 ρ0] at i0 i1 i2 i3 i4 i5 i6 i7 i8 i9 i10 i11 i12 i13 i14 i15 i16 i17 i18 i19 i20 i21 i22 i23 i24 i25 i26 ⊢
  simp only [r2, r6, r8, r10, r11, Constants.hL, Constants.hR, Constants.gL, Constants.gR, Constants.yuk, Constants.invVev, Flavour.charge_d, Flavour.isospin_d, ← c.mz]
  have xMW : (c.MW : ℂ) ≠ 0 := by exact_mod_cast hc.MW
  have xSW : (c.SW : ℂ) ≠ 0 := by exact_mod_cast hc.SW
  have xCW : (c.CW : ℂ) ≠ 0 := by exact_mod_cast hc.CW
  have x2 : ((√2 : ℝ) : ℂ) ≠ 0 := by exact_mod_cast (Real.sqrt_pos.2 two_pos).ne'
  have x22 : ((√2 : ℝ) : ℂ) ^ 2 = 2 := by rw [← Complex.ofReal_pow, Real.sq_sqrt two_pos.le]; norm_num
  have x23 : ((√2 : ℝ) : ℂ) ^ 3 = 2 * ((√2 : ℝ) : ℂ) := by rw [← x22]; ring
  have x24 : ((√2 : ℝ) : ℂ) ^ 4 = 4 := by linear_combination (((√2 : ℝ) : ℂ) ^ 2 + 2) * x22
  try simp only [← c.mz] at i0 i1 i2 i3 i4 i5 i6 i7 i8 i9 i10 i11 i12 i13 i14 i15 i16 i17 i18 i19 i20 i21 i22 i23 i24 i25 i26
  push_cast at i0 i1 i2 i3 i4 i5 i6 i7 i8 i9 i10 i11 i12 i13 i14 i15 i16 i17 i18 i19 i20 i21 i22 i23 i24 i25 i26 ⊢
  simp only [div_eq_mul_inv, mul_inv, inv_inv] at i0 i1 i2 i3 i4 i5 i6 i7 i8 i9 i10 i11 i12 i13 i14 i15 i16 i17 i18 i19 i20 i21 i22 i23 i24 i25 i26 ⊢
  have y0 := mul_inv_cancel₀ n0
  have y1 := mul_inv_cancel₀ n1
  have yCW := mul_inv_cancel₀ xCW
  have yMW := mul_inv_cancel₀ xMW
  have ySW := mul_inv_cancel₀ xSW
  linear_combination ((((-2) * ((c.MW : ℂ)) * ((c.SW : ℂ)) ^ 2 * ((c.e : ℂ)) ^ 2 * ((c.CW : ℂ)⁻¹) * (ab z0.1 z3.1) * (sb z2.2 ρ0) + (-4) * ((c.SW : ℂ)) ^ 2 * ((c.e : ℂ)) ^ 2 * ((c.mass .d : ℂ)) * (ab z0.1 z2.1) * (sb z3.2 ρ0) + (2) * ((c.SW : ℂ)) ^ 2 * ((c.e : ℂ)) ^ 2 * (ab z0.1 z3.1) * (mb ρ0 (p 1) z2.1) + (6) * ((c.e : ℂ)) ^ 2 * ((c.mass .d : ℂ)) * (ab z0.1 z2.1) * (sb z3.2 ρ0)) * i0 + ((-2) * ((c.MW : ℂ)) * ((c.SW : ℂ)) ^ 2 * ((c.e : ℂ)) ^ 2 * ((c.CW : ℂ)⁻¹) * (ab z0.1 z2.1) * (sb z0.2 z3.2) + (3) * ((c.MW : ℂ)) * ((c.e : ℂ)) ^ 2 * ((c.CW : ℂ)⁻¹) * (ab z0.1 z2.1) * (sb z0.2 z3.2) + (-4) * ((c.SW : ℂ)) ^ 2 * ((c.e : ℂ)) ^ 2 * ((c.mass .d : ℂ)) * (ab z0.1 z3.1) * (sb z0.2 z2.2) + (-2) * ((c.SW : ℂ)) ^ 2 * ((c.e : ℂ)) ^ 2 * (mb z2.2 (p 1) z0.1) * (sb z0.2 z3.2) + (3) * ((c.e : ℂ)) ^ 2 * ((c.mass .d : ℂ)) * (ab z0.1 z3.1) * (sb z0.2 z2.2) + (3) * ((c.e : ℂ)) ^ 2 * (mb z2.2 (p 1) z0.1) * (sb z0.2 z3.2)) * i1 + ((2) * ((c.MW : ℂ)) * ((c.SW : ℂ)) ^ 2 * ((c.e : ℂ)) ^ 2 * ((c.CW : ℂ)⁻¹) * (ab z0.1 z2.1) * (ab z2.1 z3.1) + (-4) * ((c.SW : ℂ)) ^ 2 * ((c.e : ℂ)) ^ 2 * ((c.mass .d : ℂ)) * (ab z0.1 z2.1) * (sb z2.2 z3.2) + (2) * ((c.SW : ℂ)) ^ 2 * ((c.e : ℂ)) ^ 2 * (ab z0.1 z2.1) * (ab z0.1 z3.1) * (sb z0.2 z2.2) + (-2) * ((c.SW : ℂ)) ^ 2 * ((c.e : ℂ)) ^ 2 * (ab z0.1 z3.1) * (mb z2.2 (p 1) z2.1) + (3) * ((c.e : ℂ)) ^ 2 * ((c.mass .d : ℂ)) * (ab z0.1 z2.1) * (sb z2.2 z3.2)) * i2 + ((-4) * ((c.SW : ℂ)) ^ 2 * ((c.e : ℂ)) ^ 2 * ((c.mass .d : ℂ)) * (ab z0.1 z1.1) * (ab z2.1 z3.1) + (4) * ((c.SW : ℂ)) ^ 2 * ((c.e : ℂ)) ^ 2 * ((c.mass .d : ℂ)) * (ab z0.1 z2.1) * (ab z1.1 z3.1) + (2) * ((c.SW : ℂ)) ^ 2 * ((c.e : ℂ)) ^ 2 * ((c.mass .d : ℂ)) * (ab z0.1 z2.1) * (sb z1.2 z3.2) + (3) * ((c.e : ℂ)) ^ 2 * ((c.mass .d : ℂ)) * (ab z0.1 z1.1) * (ab z2.1 z3.1) + (-3) * ((c.e : ℂ)) ^ 2 * ((c.mass .d : ℂ)) * (ab z0.1 z2.1) * (ab z1.1 z3.1) + (-3) * ((c.e : ℂ)) ^ 2 * ((c.mass .d : ℂ)) * (ab z0.1 z2.1) * (sb z1.2 z3.2)) * i3 + ((2) * ((c.SW : ℂ)) ^ 2 * ((c.e : ℂ)) ^ 2 * ((c.mass .d : ℂ)) * (ab z0.1 z2.1) * (sb z3.2 ρ0) + (-3) * ((c.e : ℂ)) ^ 2 * ((c.mass .d : ℂ)) * (ab z0.1 z2.1) * (sb z3.2 ρ0)) * i4 + ((2) * ((c.SW : ℂ)) ^ 2 * ((c.e : ℂ)) ^ 2 * ((c.mass .d : ℂ)) * (ab z0.1 z2.1) * (sb z2.2 ρ0)) * i5 + ((-2) * ((c.SW : ℂ)) ^ 2 * ((c.e : ℂ)) ^ 2 * ((c.mass .d : ℂ)) * (ab z0.1 z2.1) * (sb z2.2 ρ0)) * i6 + ((4) * ((c.SW : ℂ)) ^ 2 * ((c.e : ℂ)) ^ 2 * ((c.mass .d : ℂ)) * (N.c 0) * (sb z2.2 ρ0) + (2) * ((c.SW : ℂ)) ^ 2 * ((c.e : ℂ)) ^ 2 * ((c.mass .d : ℂ)) * (N.c 1) * (sb z2.2 ρ0) + (-2) * ((c.SW : ℂ)) ^ 2 * ((c.e : ℂ)) ^ 2 * ((c.mass .d : ℂ)) * (mb z2.2 (p 1) z0.1) * (sb z0.2 ρ0) + (4) * ((c.SW : ℂ)) ^ 2 * ((c.e : ℂ)) ^ 2 * ((c.mass .d : ℂ)) * (mb ρ0 (p 1) z0.1) * (sb z0.2 z2.2) + (-3) * ((c.e : ℂ)) ^ 2 * ((c.mass .d : ℂ)) * (N.c 0) * (sb z2.2 ρ0) + (-3) * ((c.e : ℂ)) ^ 2 * ((c.mass .d : ℂ)) * (mb ρ0 (p 1) z0.1) * (sb z0.2 z2.2)) * i7 + ((-2) * ((c.MW : ℂ)) * ((c.SW : ℂ)) ^ 2 * ((c.e : ℂ)) ^ 2 * ((c.CW : ℂ)⁻¹) * (ab z0.1 z2.1) * (ab z2.1 z3.1) + (2) * ((c.SW : ℂ)) ^ 2 * ((c.e : ℂ)) ^ 2 * ((c.mass .d : ℂ)) * (ab z0.1 z2.1) * (sb z2.2 z3.2) + (-2) * ((c.SW : ℂ)) ^ 2 * ((c.e : ℂ)) ^ 2 * (ab z0.1 z2.1) * (ab z0.1 z3.1) * (sb z0.2 z2.2) + (2) * ((c.SW : ℂ)) ^ 2 * ((c.e : ℂ)) ^ 2 * (ab z0.1 z3.1) * (mb z2.2 (p 1) z2.1)) * i8 + ((2) * ((c.SW : ℂ)) ^ 2 * ((c.e : ℂ)) ^ 2 * (N.c 1) * (sb z1.2 ρ0) + (-2) * ((c.SW : ℂ)) ^ 2 * ((c.e : ℂ)) ^ 2 * (mb z1.2 (p 2) z0.1) * (sb z0.2 ρ0) + (-2) * ((c.SW : ℂ)) ^ 2 * ((c.e : ℂ)) ^ 2 * (mb ρ0 (p 1) z0.1) * (sb z0.2 z1.2) + (2) * ((c.SW : ℂ)) ^ 2 * ((c.e : ℂ)) ^ 2 * (mb ρ0 (p 2) z0.1) * (sb z0.2 z1.2)) * i9 + ((-2) * ((c.SW : ℂ)) ^ 2 * ((c.e : ℂ)) ^ 2 * (mb z2.2 (p 1) z0.1) * (sb z0.2 z1.2)) * i10 + ((2) * ((c.SW : ℂ)) ^ 2 * ((c.e : ℂ)) ^ 2 * (mb z2.2 (p 1) z0.1) * (sb z0.2 z1.2)) * i11 + ((2) * ((c.SW : ℂ)) ^ 2 * ((c.e : ℂ)) ^ 2 * (mb z2.2 (p 1) z0.1) * (sb z0.2 ρ0)) * i12 + ((2) * ((c.MW : ℂ)) * ((c.SW : ℂ)) ^ 2 * ((c.e : ℂ)) ^ 2 * ((c.CW : ℂ)⁻¹) * ((c.mass .d : ℂ)) * (ab z0.1 z2.1) ^ 2 + (-3) * ((c.MW : ℂ)) * ((c.e : ℂ)) ^ 2 * ((c.CW : ℂ)⁻¹) * ((c.mass .d : ℂ)) * (ab z0.1 z2.1) ^ 2 + (2) * ((c.SW : ℂ)) ^ 2 * ((c.e : ℂ)) ^ 2 * ((c.mass .d : ℂ)) * (ab z0.1 z2.1) * (mb z2.2 (p 1) z0.1) + (-6) * ((c.e : ℂ)) ^ 2 * ((c.mass .d : ℂ)) * (ab z0.1 z2.1) * (mb z2.2 (p 1) z0.1)) * i13 + ((2) * ((c.SW : ℂ)) ^ 2 * ((c.e : ℂ)) ^ 2 * ((c.mass .d : ℂ)) * (ab z0.1 z2.1) * (mb z1.2 (p 2) z0.1) + (4) * ((c.SW : ℂ)) ^ 2 * ((c.e : ℂ)) ^ 2 * ((c.mass .d : ℂ)) ^ 2 * (ab z0.1 z1.1) * (ab z0.1 z2.1) + (-3) * ((c.e : ℂ)) ^ 2 * ((c.mass .d : ℂ)) * (ab z0.1 z2.1) * (mb z1.2 (p 2) z0.1) + (-6) * ((c.e : ℂ)) ^ 2 * ((c.mass .d : ℂ)) ^ 2 * (ab z0.1 z1.1) * (ab z0.1 z2.1)) * i14 + ((2) * ((c.SW : ℂ)) ^ 2 * ((c.e : ℂ)) ^ 2 * ((c.mass .d : ℂ)) * (ab z0.1 z2.1) * (mb ρ0 (p 1) z0.1) + (-3) * ((c.e : ℂ)) ^ 2 * ((c.mass .d : ℂ)) * (ab z0.1 z2.1) * (mb ρ0 (p 1) z0.1)) * i15 + ((2) * ((c.SW : ℂ)) ^ 2 * ((c.e : ℂ)) ^ 2 * ((c.mass .d : ℂ)) * (N.c 0) * (ab z0.1 z2.1) + (-2) * ((c.SW : ℂ)) ^ 2 * ((c.e : ℂ)) ^ 2 * ((c.mass .d : ℂ)) * (N.c 1) * (ab z0.1 z2.1) + (-6) * ((c.e : ℂ)) ^ 2 * ((c.mass .d : ℂ)) * (N.c 0) * (ab z0.1 z2.1) + (3) * ((c.e : ℂ)) ^ 2 * ((c.mass .d : ℂ)) * (N.c 1) * (ab z0.1 z2.1)) * i16 + ((-2) * ((c.SW : ℂ)) ^ 2 * ((c.e : ℂ)) ^ 2 * (ab z0.1 z1.1) * (ab z0.1 z2.1) * (sb z0.2 ρ0) + (2) * ((c.SW : ℂ)) ^ 2 * ((c.e : ℂ)) ^ 2 * (ab z0.1 z1.1) * (mb ρ0 (p 1) z2.1) + (3) * ((c.e : ℂ)) ^ 2 * (ab z0.1 z1.1) * (ab z0.1 z2.1) * (sb z0.2 ρ0) + (-3) * ((c.e : ℂ)) ^ 2 * (ab z0.1 z1.1) * (mb ρ0 (p 1) z2.1)) * i17 + ((2) * ((c.SW : ℂ)) ^ 2 * ((c.e : ℂ)) ^ 2 * (ab z0.1 z1.1) * (ab z0.1 z2.1) * (sb z0.2 ρ0) + (-2) * ((c.SW : ℂ)) ^ 2 * ((c.e : ℂ)) ^ 2 * (ab z0.1 z1.1) * (mb ρ0 (p 1) z2.1) + (3) * ((c.e : ℂ)) ^ 2 * ((c.mass .d : ℂ)) * (ab z0.1 z2.1) * (sb z1.2 ρ0) + (-3) * ((c.e : ℂ)) ^ 2 * (ab z0.1 z1.1) * (ab z0.1 z2.1) * (sb z0.2 ρ0) + (3) * ((c.e : ℂ)) ^ 2 * (ab z0.1 z1.1) * (mb ρ0 (p 1) z2.1)) * i18 + ((2) * ((c.MW : ℂ)) * ((c.SW : ℂ)) ^ 2 * ((c.e : ℂ)) ^ 2 * ((c.CW : ℂ)⁻¹) * (ab z0.1 z2.1) * (sb z0.2 ρ0) + (-3) * ((c.MW : ℂ)) * ((c.e : ℂ)) ^ 2 * ((c.CW : ℂ)⁻¹) * (ab z0.1 z2.1) * (sb z0.2 ρ0) + (2) * ((c.SW : ℂ)) ^ 2 * ((c.e : ℂ)) ^ 2 * (mb z2.2 (p 1) z0.1) * (sb z0.2 ρ0) + (-3) * ((c.e : ℂ)) ^ 2 * (mb z2.2 (p 1) z0.1) * (sb z0.2 ρ0)) * i19 + ((2) * ((c.SW : ℂ)) ^ 2 * ((c.e : ℂ)) ^ 2 * ((c.mass .d : ℂ)) * (ab z0.1 z2.1) * (sb z2.2 ρ0) + (-6) * ((c.e : ℂ)) ^ 2 * ((c.mass .d : ℂ)) * (ab z0.1 z2.1) * (sb z2.2 ρ0)) * i20 + ((2) * ((c.SW : ℂ)) ^ 2 * ((c.e : ℂ)) ^ 2 * ((c.mass .d : ℂ)) * (ab z0.1 z3.1) * (sb z0.2 ρ0) + (2) * ((c.SW : ℂ)) ^ 2 * ((c.e : ℂ)) ^ 2 * (N.c 0) * (sb z3.2 ρ0) + (-2) * ((c.SW : ℂ)) ^ 2 * ((c.e : ℂ)) ^ 2 * (mb z3.2 (p 1) z0.1) * (sb z0.2 ρ0) + (2) * ((c.SW : ℂ)) ^ 2 * ((c.e : ℂ)) ^ 2 * (mb ρ0 (p 1) z0.1) * (sb z0.2 z3.2) + (-3) * ((c.e : ℂ)) ^ 2 * (N.c 0) * (sb z3.2 ρ0) + (3) * ((c.e : ℂ)) ^ 2 * (mb z3.2 (p 1) z0.1) * (sb z0.2 ρ0) + (-3) * ((c.e : ℂ)) ^ 2 * (mb ρ0 (p 1) z0.1) * (sb z0.2 z3.2)) * i21 + ((-2) * ((c.SW : ℂ)) ^ 2 * ((c.e : ℂ)) ^ 2 * ((c.mass .d : ℂ)) * (ab z0.1 z3.1) * (sb z2.2 ρ0)) * i22 + ((4) * ((c.SW : ℂ)) ^ 2 * ((c.e : ℂ)) ^ 2 * ((c.mass .d : ℂ)) ^ 2 * (ab z0.1 z2.1) * (ab z0.1 z3.1) + (3) * ((c.e : ℂ)) ^ 2 * ((c.mass .d : ℂ)) * (ab z0.1 z2.1) * (mb z3.2 (p 1) z0.1) + (-3) * ((c.e : ℂ)) ^ 2 * ((c.mass .d : ℂ)) ^ 2 * (ab z0.1 z2.1) * (ab z0.1 z3.1)) * i23 + ((2) * ((c.MW : ℂ)) * ((c.SW : ℂ)) ^ 2 * ((c.e : ℂ)) ^ 2 * ((c.CW : ℂ)⁻¹) * (ab z0.1 z2.1) * (ab z1.1 z2.1) + (-3) * ((c.MW : ℂ)) * ((c.e : ℂ)) ^ 2 * ((c.CW : ℂ)⁻¹) * (ab z0.1 z2.1) * (ab z1.1 z2.1) + (-2) * ((c.SW : ℂ)) ^ 2 * ((c.e : ℂ)) ^ 2 * (ab z0.1 z1.1) * (mb z2.2 (p 1) z2.1) + (3) * ((c.e : ℂ)) ^ 2 * (ab z0.1 z1.1) * (mb z2.2 (p 1) z2.1)) * i24 + ((-2) * ((c.SW : ℂ)) ^ 2 * ((c.e : ℂ)) ^ 2 * ((c.mass .d : ℂ)) * (ab z0.1 z2.1) * (sb z2.2 ρ0) + (3) * ((c.e : ℂ)) ^ 2 * ((c.mass .d : ℂ)) * (ab z0.1 z2.1) * (sb z2.2 ρ0)) * i25 + ((-3) * ((c.e : ℂ)) ^ 2 * ((c.mass .d : ℂ)) * (ab z0.1 z2.1) * (sb z0.2 ρ0)) * i26)) * ((1) * ((c.CW : ℂ)) * ((c.CW : ℂ)⁻¹) * ((c.MW : ℂ)⁻¹) * ((c.SW : ℂ)⁻¹) * ((N.c 0)⁻¹) * ((N.c 1)⁻¹) / (9)) + ((-2) * ((c.CW : ℂ)) * ((c.MW : ℂ)) * ((c.SW : ℂ)) ^ 2 * ((c.e : ℂ)) ^ 2 * ((c.CW : ℂ)⁻¹) ^ 2 * ((c.MW : ℂ)⁻¹) * ((c.SW : ℂ)⁻¹) * ((N.c 1)⁻¹) * (ab z0.1 z2.1) * (ab z1.1 z2.1) * (sb z3.2 ρ0) / (9) + (2) * ((c.CW : ℂ)) * ((c.MW : ℂ)) * ((c.SW : ℂ)) ^ 2 * ((c.e : ℂ)) ^ 2 * ((c.CW : ℂ)⁻¹) ^ 2 * ((c.MW : ℂ)⁻¹) * ((c.SW : ℂ)⁻¹) * ((N.c 1)⁻¹) * (ab z0.1 z3.1) * (sb z1.2 z2.2) * (sb z2.2 ρ0) / (9) + (1) * ((c.CW : ℂ)) * ((c.MW : ℂ)) * ((c.e : ℂ)) ^ 2 * ((c.CW : ℂ)⁻¹) ^ 2 * ((c.MW : ℂ)⁻¹) * ((c.SW : ℂ)⁻¹) * ((N.c 1)⁻¹) * (ab z0.1 z2.1) * (ab z1.1 z2.1) * (sb z3.2 ρ0) / (3) + (2) * ((c.CW : ℂ)) * ((c.SW : ℂ)) ^ 2 * ((c.e : ℂ)) ^ 2 * ((c.CW : ℂ)⁻¹) * ((c.MW : ℂ)⁻¹) * ((c.SW : ℂ)⁻¹) * ((c.mass .d : ℂ)) * ((N.c 1)⁻¹) * (ab z0.1 z2.1) * (sb z1.2 z2.2) * (sb z3.2 ρ0) / (9) + (-2) * ((c.CW : ℂ)) * ((c.SW : ℂ)) ^ 2 * ((c.e : ℂ)) ^ 2 * ((c.CW : ℂ)⁻¹) * ((c.MW : ℂ)⁻¹) * ((c.SW : ℂ)⁻¹) * ((c.mass .d : ℂ)) * ((N.c 1)⁻¹) * (ab z0.1 z3.1) * (ab z1.1 z2.1) * (sb z2.2 ρ0) / (9) + (-2) * ((c.CW : ℂ)) * ((c.SW : ℂ)) ^ 2 * ((c.e : ℂ)) ^ 2 * ((c.CW : ℂ)⁻¹) * ((c.MW : ℂ)⁻¹) * ((c.SW : ℂ)⁻¹) * ((N.c 1)⁻¹) * (ab z0.1 z3.1) * (mb ρ0 (p 1) z2.1) * (sb z1.2 z2.2) / (9) + (-2) * ((c.CW : ℂ)) * ((c.SW : ℂ)) ^ 2 * ((c.e : ℂ)) ^ 2 * ((c.CW : ℂ)⁻¹) * ((c.MW : ℂ)⁻¹) * ((c.SW : ℂ)⁻¹) * ((N.c 1)⁻¹) * (ab z1.1 z2.1) * (mb z2.2 (p 1) z0.1) * (sb z3.2 ρ0) / (9) + (1) * ((c.CW : ℂ)) * ((c.e : ℂ)) ^ 2 * ((c.CW : ℂ)⁻¹) * ((c.MW : ℂ)⁻¹) * ((c.SW : ℂ)⁻¹) * ((c.mass .d : ℂ)) * ((N.c 1)⁻¹) * (ab z0.1 z3.1) * (ab z1.1 z2.1) * (sb z2.2 ρ0) / (3) + (1) * ((c.CW : ℂ)) * ((c.e : ℂ)) ^ 2 * ((c.CW : ℂ)⁻¹) * ((c.MW : ℂ)⁻¹) * ((c.SW : ℂ)⁻¹) * ((N.c 1)⁻¹) * (ab z1.1 z2.1) * (mb z2.2 (p 1) z0.1) * (sb z3.2 ρ0) / (3)) * y0 + ((-2) * ((c.CW : ℂ)) * ((c.SW : ℂ)) ^ 2 * ((c.e : ℂ)) ^ 2 * ((c.CW : ℂ)⁻¹) * ((c.MW : ℂ)⁻¹) * ((c.SW : ℂ)⁻¹) * ((c.mass .d : ℂ)) * ((N.c 0)⁻¹) * (ab z0.1 z1.1) * (ab z2.1 z3.1) * (sb z2.2 ρ0) / (9) + (2) * ((c.CW : ℂ)) * ((c.SW : ℂ)) ^ 2 * ((c.e : ℂ)) ^ 2 * ((c.CW : ℂ)⁻¹) * ((c.MW : ℂ)⁻¹) * ((c.SW : ℂ)⁻¹) * ((c.mass .d : ℂ)) * ((N.c 0)⁻¹) * (ab z0.1 z2.1) * (sb z1.2 ρ0) * (sb z2.2 z3.2) / (9) + (2) * ((c.CW : ℂ)) * ((c.SW : ℂ)) ^ 2 * ((c.e : ℂ)) ^ 2 * ((c.CW : ℂ)⁻¹) * ((c.MW : ℂ)⁻¹) * ((c.SW : ℂ)⁻¹) * ((N.c 0)⁻¹) * (ab z0.1 z1.1) * (ab z0.1 z2.1) * (sb z0.2 ρ0) * (sb z2.2 z3.2) / (9) + (-2) * ((c.CW : ℂ)) * ((c.SW : ℂ)) ^ 2 * ((c.e : ℂ)) ^ 2 * ((c.CW : ℂ)⁻¹) * ((c.MW : ℂ)⁻¹) * ((c.SW : ℂ)⁻¹) * ((N.c 0)⁻¹) * (ab z0.1 z1.1) * (mb ρ0 (p 1) z2.1) * (sb z2.2 z3.2) / (9) + (-2) * ((c.CW : ℂ)) * ((c.SW : ℂ)) ^ 2 * ((c.e : ℂ)) ^ 2 * ((c.CW : ℂ)⁻¹) * ((c.MW : ℂ)⁻¹) * ((c.SW : ℂ)⁻¹) * ((N.c 0)⁻¹) * (ab z2.1 z3.1) * (mb z2.2 (p 1) z0.1) * (sb z1.2 ρ0) / (9) + (-1) * ((c.CW : ℂ)) * ((c.e : ℂ)) ^ 2 * ((c.CW : ℂ)⁻¹) * ((c.MW : ℂ)⁻¹) * ((c.SW : ℂ)⁻¹) * ((c.mass .d : ℂ)) * ((N.c 0)⁻¹) * (ab z0.1 z2.1) * (sb z1.2 ρ0) * (sb z2.2 z3.2) / (3) + (-1) * ((c.CW : ℂ)) * ((c.e : ℂ)) ^ 2 * ((c.CW : ℂ)⁻¹) * ((c.MW : ℂ)⁻¹) * ((c.SW : ℂ)⁻¹) * ((N.c 0)⁻¹) * (ab z0.1 z1.1) * (ab z0.1 z2.1) * (sb z0.2 ρ0) * (sb z2.2 z3.2) / (3) + (1) * ((c.CW : ℂ)) * ((c.e : ℂ)) ^ 2 * ((c.CW : ℂ)⁻¹) * ((c.MW : ℂ)⁻¹) * ((c.SW : ℂ)⁻¹) * ((N.c 0)⁻¹) * (ab z0.1 z1.1) * (mb ρ0 (p 1) z2.1) * (sb z2.2 z3.2) / (3)) * y1 + ((1) * ((c.MW : ℂ)) * (((√2 : ℝ) : ℂ)) ^ 2 * ((c.SW : ℂ)) ^ 2 * ((c.e : ℂ)) ^ 2 * ((c.CW : ℂ)⁻¹) * ((c.MW : ℂ)⁻¹) * ((c.SW : ℂ)⁻¹) * ((N.c 1)⁻¹) * (ab z0.1 z2.1) * (ab z1.1 z2.1) * (sb z3.2 ρ0) / (9) + (-1) * ((c.MW : ℂ)) * (((√2 : ℝ) : ℂ)) ^ 2 * ((c.SW : ℂ)) ^ 2 * ((c.e : ℂ)) ^ 2 * ((c.CW : ℂ)⁻¹) * ((c.MW : ℂ)⁻¹) * ((c.SW : ℂ)⁻¹) * ((N.c 1)⁻¹) * (ab z0.1 z3.1) * (sb z1.2 z2.2) * (sb z2.2 ρ0) / (9) + (-1) * ((c.MW : ℂ)) * (((√2 : ℝ) : ℂ)) ^ 2 * ((c.e : ℂ)) ^ 2 * ((c.CW : ℂ)⁻¹) * ((c.MW : ℂ)⁻¹) * ((c.SW : ℂ)⁻¹) * ((N.c 1)⁻¹) * (ab z0.1 z2.1) * (ab z1.1 z2.1) * (sb z3.2 ρ0) / (6) + (-2) * ((c.MW : ℂ)) * ((c.SW : ℂ)) ^ 2 * ((c.e : ℂ)) ^ 2 * ((c.CW : ℂ)⁻¹) * ((c.MW : ℂ)⁻¹) * ((c.SW : ℂ)⁻¹) * ((N.c 0)⁻¹) * ((N.c 1)⁻¹) * (ab z0.1 z1.1) * (mb z2.2 (p 1) z0.1) * (sb z0.2 ρ0) * (sb z2.2 z3.2) / (9) + (-2) * ((c.MW : ℂ)) * ((c.SW : ℂ)) ^ 2 * ((c.e : ℂ)) ^ 2 * ((c.CW : ℂ)⁻¹) * ((c.MW : ℂ)⁻¹) * ((c.SW : ℂ)⁻¹) * ((N.c 0)⁻¹) * ((N.c 1)⁻¹) * (ab z0.1 z3.1) * (mb z2.2 (p 1) z0.1) * (sb z0.2 ρ0) * (sb z1.2 z2.2) / (9) + (-2) * ((c.MW : ℂ)) * ((c.SW : ℂ)) ^ 2 * ((c.e : ℂ)) ^ 2 * ((c.CW : ℂ)⁻¹) * ((c.MW : ℂ)⁻¹) * ((c.SW : ℂ)⁻¹) * ((N.c 1)⁻¹) * (ab z0.1 z2.1) * (ab z1.1 z2.1) * (sb z3.2 ρ0) / (9) + (2) * ((c.MW : ℂ)) * ((c.SW : ℂ)) ^ 2 * ((c.e : ℂ)) ^ 2 * ((c.CW : ℂ)⁻¹) * ((c.MW : ℂ)⁻¹) * ((c.SW : ℂ)⁻¹) * ((N.c 1)⁻¹) * (ab z0.1 z3.1) * (sb z1.2 z2.2) * (sb z2.2 ρ0) / (9) + (1) * ((c.MW : ℂ)) * ((c.e : ℂ)) ^ 2 * ((c.CW : ℂ)⁻¹) * ((c.MW : ℂ)⁻¹) * ((c.SW : ℂ)⁻¹) * ((N.c 0)⁻¹) * ((N.c 1)⁻¹) * (ab z0.1 z1.1) * (mb z2.2 (p 1) z0.1) * (sb z0.2 ρ0) * (sb z2.2 z3.2) / (3) + (1) * ((c.MW : ℂ)) * ((c.e : ℂ)) ^ 2 * ((c.CW : ℂ)⁻¹) * ((c.MW : ℂ)⁻¹) * ((c.SW : ℂ)⁻¹) * ((N.c 1)⁻¹) * (ab z0.1 z2.1) * (ab z1.1 z2.1) * (sb z3.2 ρ0) / (3) + (-2) * ((c.MW : ℂ)) ^ 2 * ((c.SW : ℂ)) ^ 2 * ((c.e : ℂ)) ^ 2 * ((c.CW : ℂ)⁻¹) ^ 2 * ((c.MW : ℂ)⁻¹) * ((c.SW : ℂ)⁻¹) * ((N.c 0)⁻¹) * ((N.c 1)⁻¹) * (ab z0.1 z1.1) * (ab z0.1 z2.1) * (sb z0.2 ρ0) * (sb z2.2 z3.2) / (9) + (1) * ((c.MW : ℂ)) ^ 2 * ((c.e : ℂ)) ^ 2 * ((c.CW : ℂ)⁻¹) ^ 2 * ((c.MW : ℂ)⁻¹) * ((c.SW : ℂ)⁻¹) * ((N.c 0)⁻¹) * ((N.c 1)⁻¹) * (ab z0.1 z1.1) * (ab z0.1 z2.1) * (sb z0.2 ρ0) * (sb z2.2 z3.2) / (3) + (1) * (((√2 : ℝ) : ℂ)) ^ 2 * ((c.SW : ℂ)) ^ 2 * ((c.e : ℂ)) ^ 2 * ((c.MW : ℂ)⁻¹) * ((c.SW : ℂ)⁻¹) * ((c.mass .d : ℂ)) * ((N.c 0)⁻¹) * (ab z0.1 z1.1) * (ab z2.1 z3.1) * (sb z2.2 ρ0) / (9) + (-1) * (((√2 : ℝ) : ℂ)) ^ 2 * ((c.SW : ℂ)) ^ 2 * ((c.e : ℂ)) ^ 2 * ((c.MW : ℂ)⁻¹) * ((c.SW : ℂ)⁻¹) * ((c.mass .d : ℂ)) * ((N.c 0)⁻¹) * (ab z0.1 z2.1) * (sb z1.2 ρ0) * (sb z2.2 z3.2) / (9) + (-1) * (((√2 : ℝ) : ℂ)) ^ 2 * ((c.SW : ℂ)) ^ 2 * ((c.e : ℂ)) ^ 2 * ((c.MW : ℂ)⁻¹) * ((c.SW : ℂ)⁻¹) * ((c.mass .d : ℂ)) * ((N.c 1)⁻¹) * (ab z0.1 z2.1) * (sb z1.2 z2.2) * (sb z3.2 ρ0) / (9) + (1) * (((√2 : ℝ) : ℂ)) ^ 2 * ((c.SW : ℂ)) ^ 2 * ((c.e : ℂ)) ^ 2 * ((c.MW : ℂ)⁻¹) * ((c.SW : ℂ)⁻¹) * ((c.mass .d : ℂ)) * ((N.c 1)⁻¹) * (ab z0.1 z3.1) * (ab z1.1 z2.1) * (sb z2.2 ρ0) / (9) + (-1) * (((√2 : ℝ) : ℂ)) ^ 2 * ((c.SW : ℂ)) ^ 2 * ((c.e : ℂ)) ^ 2 * ((c.MW : ℂ)⁻¹) * ((c.SW : ℂ)⁻¹) * ((N.c 0)⁻¹) * (ab z0.1 z1.1) * (ab z0.1 z2.1) * (sb z0.2 ρ0) * (sb z2.2 z3.2) / (9) + (1) * (((√2 : ℝ) : ℂ)) ^ 2 * ((c.SW : ℂ)) ^ 2 * ((c.e : ℂ)) ^ 2 * ((c.MW : ℂ)⁻¹) * ((c.SW : ℂ)⁻¹) * ((N.c 0)⁻¹) * (ab z0.1 z1.1) * (mb ρ0 (p 1) z2.1) * (sb z2.2 z3.2) / (9) + (1) * (((√2 : ℝ) : ℂ)) ^ 2 * ((c.SW : ℂ)) ^ 2 * ((c.e : ℂ)) ^ 2 * ((c.MW : ℂ)⁻¹) * ((c.SW : ℂ)⁻¹) * ((N.c 0)⁻¹) * (ab z2.1 z3.1) * (mb z2.2 (p 1) z0.1) * (sb z1.2 ρ0) / (9) + (1) * (((√2 : ℝ) : ℂ)) ^ 2 * ((c.SW : ℂ)) ^ 2 * ((c.e : ℂ)) ^ 2 * ((c.MW : ℂ)⁻¹) * ((c.SW : ℂ)⁻¹) * ((N.c 1)⁻¹) * (ab z0.1 z3.1) * (mb ρ0 (p 1) z2.1) * (sb z1.2 z2.2) / (9) + (1) * (((√2 : ℝ) : ℂ)) ^ 2 * ((c.SW : ℂ)) ^ 2 * ((c.e : ℂ)) ^ 2 * ((c.MW : ℂ)⁻¹) * ((c.SW : ℂ)⁻¹) * ((N.c 1)⁻¹) * (ab z1.1 z2.1) * (mb z2.2 (p 1) z0.1) * (sb z3.2 ρ0) / (9) + (1) * (((√2 : ℝ) : ℂ)) ^ 2 * ((c.e : ℂ)) ^ 2 * ((c.MW : ℂ)⁻¹) * ((c.SW : ℂ)⁻¹) * ((c.mass .d : ℂ)) * ((N.c 0)⁻¹) * (ab z0.1 z2.1) * (sb z1.2 ρ0) * (sb z2.2 z3.2) / (6) + (-1) * (((√2 : ℝ) : ℂ)) ^ 2 * ((c.e : ℂ)) ^ 2 * ((c.MW : ℂ)⁻¹) * ((c.SW : ℂ)⁻¹) * ((c.mass .d : ℂ)) * ((N.c 1)⁻¹) * (ab z0.1 z3.1) * (ab z1.1 z2.1) * (sb z2.2 ρ0) / (6) + (1) * (((√2 : ℝ) : ℂ)) ^ 2 * ((c.e : ℂ)) ^ 2 * ((c.MW : ℂ)⁻¹) * ((c.SW : ℂ)⁻¹) * ((N.c 0)⁻¹) * (ab z0.1 z1.1) * (ab z0.1 z2.1) * (sb z0.2 ρ0) * (sb z2.2 z3.2) / (6) + (-1) * (((√2 : ℝ) : ℂ)) ^ 2 * ((c.e : ℂ)) ^ 2 * ((c.MW : ℂ)⁻¹) * ((c.SW : ℂ)⁻¹) * ((N.c 0)⁻¹) * (ab z0.1 z1.1) * (mb ρ0 (p 1) z2.1) * (sb z2.2 z3.2) / (6) + (-1) * (((√2 : ℝ) : ℂ)) ^ 2 * ((c.e : ℂ)) ^ 2 * ((c.MW : ℂ)⁻¹) * ((c.SW : ℂ)⁻¹) * ((N.c 1)⁻¹) * (ab z1.1 z2.1) * (mb z2.2 (p 1) z0.1) * (sb z3.2 ρ0) / (6) + (-2) * ((c.SW : ℂ)) ^ 2 * ((c.e : ℂ)) ^ 2 * ((c.MW : ℂ)⁻¹) * ((c.SW : ℂ)⁻¹) * ((c.mass .d : ℂ)) * ((N.c 0)⁻¹) * ((N.c 1)⁻¹) * (ab z0.1 z2.1) * (mb z1.2 (p 2) z0.1) * (sb z0.2 ρ0) * (sb z2.2 z3.2) / (9) + (-2) * ((c.SW : ℂ)) ^ 2 * ((c.e : ℂ)) ^ 2 * ((c.MW : ℂ)⁻¹) * ((c.SW : ℂ)⁻¹) * ((c.mass .d : ℂ)) * ((N.c 0)⁻¹) * ((N.c 1)⁻¹) * (ab z0.1 z2.1) * (mb z3.2 (p 1) z0.1) * (sb z0.2 ρ0) * (sb z1.2 z2.2) / (9) + (-2) * ((c.SW : ℂ)) ^ 2 * ((c.e : ℂ)) ^ 2 * ((c.MW : ℂ)⁻¹) * ((c.SW : ℂ)⁻¹) * ((c.mass .d : ℂ)) * ((N.c 0)⁻¹) * (ab z0.1 z1.1) * (ab z2.1 z3.1) * (sb z2.2 ρ0) / (9) + (2) * ((c.SW : ℂ)) ^ 2 * ((c.e : ℂ)) ^ 2 * ((c.MW : ℂ)⁻¹) * ((c.SW : ℂ)⁻¹) * ((c.mass .d : ℂ)) * ((N.c 0)⁻¹) * (ab z0.1 z2.1) * (sb z1.2 ρ0) * (sb z2.2 z3.2) / (9) + (2) * ((c.SW : ℂ)) ^ 2 * ((c.e : ℂ)) ^ 2 * ((c.MW : ℂ)⁻¹) * ((c.SW : ℂ)⁻¹) * ((c.mass .d : ℂ)) * ((N.c 1)⁻¹) * (ab z0.1 z2.1) * (sb z1.2 z2.2) * (sb z3.2 ρ0) / (9) + (-2) * ((c.SW : ℂ)) ^ 2 * ((c.e : ℂ)) ^ 2 * ((c.MW : ℂ)⁻¹) * ((c.SW : ℂ)⁻¹) * ((c.mass .d : ℂ)) * ((N.c 1)⁻¹) * (ab z0.1 z3.1) * (ab z1.1 z2.1) * (sb z2.2 ρ0) / (9) + (-2) * ((c.SW : ℂ)) ^ 2 * ((c.e : ℂ)) ^ 2 * ((c.MW : ℂ)⁻¹) * ((c.SW : ℂ)⁻¹) * ((c.mass .d : ℂ)) ^ 2 * ((N.c 0)⁻¹) * ((N.c 1)⁻¹) * (ab z0.1 z2.1) * (ab z0.1 z3.1) * (sb z0.2 ρ0) * (sb z1.2 z2.2) / (9) + (2) * ((c.SW : ℂ)) ^ 2 * ((c.e : ℂ)) ^ 2 * ((c.MW : ℂ)⁻¹) * ((c.SW : ℂ)⁻¹) * ((N.c 0)⁻¹) * (ab z0.1 z1.1) * (ab z0.1 z2.1) * (sb z0.2 ρ0) * (sb z2.2 z3.2) / (9) + (-2) * ((c.SW : ℂ)) ^ 2 * ((c.e : ℂ)) ^ 2 * ((c.MW : ℂ)⁻¹) * ((c.SW : ℂ)⁻¹) * ((N.c 0)⁻¹) * (ab z0.1 z1.1) * (mb ρ0 (p 1) z2.1) * (sb z2.2 z3.2) / (9) + (-2) * ((c.SW : ℂ)) ^ 2 * ((c.e : ℂ)) ^ 2 * ((c.MW : ℂ)⁻¹) * ((c.SW : ℂ)⁻¹) * ((N.c 0)⁻¹) * (ab z2.1 z3.1) * (mb z2.2 (p 1) z0.1) * (sb z1.2 ρ0) / (9) + (-2) * ((c.SW : ℂ)) ^ 2 * ((c.e : ℂ)) ^ 2 * ((c.MW : ℂ)⁻¹) * ((c.SW : ℂ)⁻¹) * ((N.c 1)⁻¹) * (ab z0.1 z3.1) * (mb ρ0 (p 1) z2.1) * (sb z1.2 z2.2) / (9) + (-2) * ((c.SW : ℂ)) ^ 2 * ((c.e : ℂ)) ^ 2 * ((c.MW : ℂ)⁻¹) * ((c.SW : ℂ)⁻¹) * ((N.c 1)⁻¹) * (ab z1.1 z2.1) * (mb z2.2 (p 1) z0.1) * (sb z3.2 ρ0) / (9) + (1) * ((c.e : ℂ)) ^ 2 * ((c.MW : ℂ)⁻¹) * ((c.SW : ℂ)⁻¹) * ((c.mass .d : ℂ)) * ((N.c 0)⁻¹) * ((N.c 1)⁻¹) * (ab z0.1 z2.1) * (mb z1.2 (p 2) z0.1) * (sb z0.2 ρ0) * (sb z2.2 z3.2) / (3) + (-1) * ((c.e : ℂ)) ^ 2 * ((c.MW : ℂ)⁻¹) * ((c.SW : ℂ)⁻¹) * ((c.mass .d : ℂ)) * ((N.c 0)⁻¹) * (ab z0.1 z2.1) * (sb z1.2 ρ0) * (sb z2.2 z3.2) / (3) + (1) * ((c.e : ℂ)) ^ 2 * ((c.MW : ℂ)⁻¹) * ((c.SW : ℂ)⁻¹) * ((c.mass .d : ℂ)) * ((N.c 1)⁻¹) * (ab z0.1 z3.1) * (ab z1.1 z2.1) * (sb z2.2 ρ0) / (3) + (-1) * ((c.e : ℂ)) ^ 2 * ((c.MW : ℂ)⁻¹) * ((c.SW : ℂ)⁻¹) * ((N.c 0)⁻¹) * (ab z0.1 z1.1) * (ab z0.1 z2.1) * (sb z0.2 ρ0) * (sb z2.2 z3.2) / (3) + (1) * ((c.e : ℂ)) ^ 2 * ((c.MW : ℂ)⁻¹) * ((c.SW : ℂ)⁻¹) * ((N.c 0)⁻¹) * (ab z0.1 z1.1) * (mb ρ0 (p 1) z2.1) * (sb z2.2 z3.2) / (3) + (1) * ((c.e : ℂ)) ^ 2 * ((c.MW : ℂ)⁻¹) * ((c.SW : ℂ)⁻¹) * ((N.c 1)⁻¹) * (ab z1.1 z2.1) * (mb z2.2 (p 1) z0.1) * (sb z3.2 ρ0) / (3)) * yCW + ((1) * (((√2 : ℝ) : ℂ)) ^ 2 * ((c.SW : ℂ)) ^ 2 * ((c.e : ℂ)) ^ 2 * ((c.CW : ℂ)⁻¹) * ((c.SW : ℂ)⁻¹) * ((N.c 1)⁻¹) * (ab z0.1 z2.1) * (ab z1.1 z2.1) * (sb z3.2 ρ0) / (9) + (-1) * (((√2 : ℝ) : ℂ)) ^ 2 * ((c.SW : ℂ)) ^ 2 * ((c.e : ℂ)) ^ 2 * ((c.CW : ℂ)⁻¹) * ((c.SW : ℂ)⁻¹) * ((N.c 1)⁻¹) * (ab z0.1 z3.1) * (sb z1.2 z2.2) * (sb z2.2 ρ0) / (9) + (-1) * (((√2 : ℝ) : ℂ)) ^ 2 * ((c.e : ℂ)) ^ 2 * ((c.CW : ℂ)⁻¹) * ((c.SW : ℂ)⁻¹) * ((N.c 1)⁻¹) * (ab z0.1 z2.1) * (ab z1.1 z2.1) * (sb z3.2 ρ0) / (6) + (-2) * ((c.SW : ℂ)) ^ 2 * ((c.e : ℂ)) ^ 2 * ((c.CW : ℂ)⁻¹) * ((c.SW : ℂ)⁻¹) * ((N.c 1)⁻¹) * (ab z0.1 z2.1) * (ab z1.1 z2.1) * (sb z3.2 ρ0) / (9) + (2) * ((c.SW : ℂ)) ^ 2 * ((c.e : ℂ)) ^ 2 * ((c.CW : ℂ)⁻¹) * ((c.SW : ℂ)⁻¹) * ((N.c 1)⁻¹) * (ab z0.1 z3.1) * (sb z1.2 z2.2) * (sb z2.2 ρ0) / (9) + (1) * ((c.e : ℂ)) ^ 2 * ((c.CW : ℂ)⁻¹) * ((c.SW : ℂ)⁻¹) * ((N.c 1)⁻¹) * (ab z0.1 z2.1) * (ab z1.1 z2.1) * (sb z3.2 ρ0) / (3)) * yMW + ((1) * (((√2 : ℝ) : ℂ)) ^ 2 * ((c.SW : ℂ)) * ((c.e : ℂ)) ^ 2 * ((c.CW : ℂ)⁻¹) * ((N.c 1)⁻¹) * (ab z0.1 z2.1) * (ab z1.1 z2.1) * (sb z3.2 ρ0) / (9) + (-1) * (((√2 : ℝ) : ℂ)) ^ 2 * ((c.SW : ℂ)) * ((c.e : ℂ)) ^ 2 * ((c.CW : ℂ)⁻¹) * ((N.c 1)⁻¹) * (ab z0.1 z3.1) * (sb z1.2 z2.2) * (sb z2.2 ρ0) / (9) + (1) * (((√2 : ℝ) : ℂ)) ^ 2 * ((c.SW : ℂ)) * ((c.e : ℂ)) ^ 2 * ((c.MW : ℂ)⁻¹) * ((c.mass .d : ℂ)) * ((N.c 0)⁻¹) * (ab z0.1 z1.1) * (ab z2.1 z3.1) * (sb z2.2 ρ0) / (9) + (-1) * (((√2 : ℝ) : ℂ)) ^ 2 * ((c.SW : ℂ)) * ((c.e : ℂ)) ^ 2 * ((c.MW : ℂ)⁻¹) * ((c.mass .d : ℂ)) * ((N.c 0)⁻¹) * (ab z0.1 z2.1) * (sb z1.2 ρ0) * (sb z2.2 z3.2) / (9) + (-1) * (((√2 : ℝ) : ℂ)) ^ 2 * ((c.SW : ℂ)) * ((c.e : ℂ)) ^ 2 * ((c.MW : ℂ)⁻¹) * ((c.mass .d : ℂ)) * ((N.c 1)⁻¹) * (ab z0.1 z2.1) * (sb z1.2 z2.2) * (sb z3.2 ρ0) / (9) + (1) * (((√2 : ℝ) : ℂ)) ^ 2 * ((c.SW : ℂ)) * ((c.e : ℂ)) ^ 2 * ((c.MW : ℂ)⁻¹) * ((c.mass .d : ℂ)) * ((N.c 1)⁻¹) * (ab z0.1 z3.1) * (ab z1.1 z2.1) * (sb z2.2 ρ0) / (9) + (-1) * (((√2 : ℝ) : ℂ)) ^ 2 * ((c.SW : ℂ)) * ((c.e : ℂ)) ^ 2 * ((c.MW : ℂ)⁻¹) * ((N.c 0)⁻¹) * (ab z0.1 z1.1) * (ab z0.1 z2.1) * (sb z0.2 ρ0) * (sb z2.2 z3.2) / (9) + (1) * (((√2 : ℝ) : ℂ)) ^ 2 * ((c.SW : ℂ)) * ((c.e : ℂ)) ^ 2 * ((c.MW : ℂ)⁻¹) * ((N.c 0)⁻¹) * (ab z0.1 z1.1) * (mb ρ0 (p 1) z2.1) * (sb z2.2 z3.2) / (9) + (1) * (((√2 : ℝ) : ℂ)) ^ 2 * ((c.SW : ℂ)) * ((c.e : ℂ)) ^ 2 * ((c.MW : ℂ)⁻¹) * ((N.c 0)⁻¹) * (ab z2.1 z3.1) * (mb z2.2 (p 1) z0.1) * (sb z1.2 ρ0) / (9) + (1) * (((√2 : ℝ) : ℂ)) ^ 2 * ((c.SW : ℂ)) * ((c.e : ℂ)) ^ 2 * ((c.MW : ℂ)⁻¹) * ((N.c 1)⁻¹) * (ab z0.1 z3.1) * (mb ρ0 (p 1) z2.1) * (sb z1.2 z2.2) / (9) + (1) * (((√2 : ℝ) : ℂ)) ^ 2 * ((c.SW : ℂ)) * ((c.e : ℂ)) ^ 2 * ((c.MW : ℂ)⁻¹) * ((N.c 1)⁻¹) * (ab z1.1 z2.1) * (mb z2.2 (p 1) z0.1) * (sb z3.2 ρ0) / (9) + (-2) * ((c.SW : ℂ)) * ((c.e : ℂ)) ^ 2 * ((c.CW : ℂ)⁻¹) * ((N.c 1)⁻¹) * (ab z0.1 z2.1) * (ab z1.1 z2.1) * (sb z3.2 ρ0) / (9) + (2) * ((c.SW : ℂ)) * ((c.e : ℂ)) ^ 2 * ((c.CW : ℂ)⁻¹) * ((N.c 1)⁻¹) * (ab z0.1 z3.1) * (sb z1.2 z2.2) * (sb z2.2 ρ0) / (9) + (-2) * ((c.SW : ℂ)) * ((c.e : ℂ)) ^ 2 * ((c.MW : ℂ)⁻¹) * ((c.mass .d : ℂ)) * ((N.c 0)⁻¹) * (ab z0.1 z1.1) * (ab z2.1 z3.1) * (sb z2.2 ρ0) / (9) + (2) * ((c.SW : ℂ)) * ((c.e : ℂ)) ^ 2 * ((c.MW : ℂ)⁻¹) * ((c.mass .d : ℂ)) * ((N.c 0)⁻¹) * (ab z0.1 z2.1) * (sb z1.2 ρ0) * (sb z2.2 z3.2) / (9) + (2) * ((c.SW : ℂ)) * ((c.e : ℂ)) ^ 2 * ((c.MW : ℂ)⁻¹) * ((c.mass .d : ℂ)) * ((N.c 1)⁻¹) * (ab z0.1 z2.1) * (sb z1.2 z2.2) * (sb z3.2 ρ0) / (9) + (-2) * ((c.SW : ℂ)) * ((c.e : ℂ)) ^ 2 * ((c.MW : ℂ)⁻¹) * ((c.mass .d : ℂ)) * ((N.c 1)⁻¹) * (ab z0.1 z3.1) * (ab z1.1 z2.1) * (sb z2.2 ρ0) / (9) + (2) * ((c.SW : ℂ)) * ((c.e : ℂ)) ^ 2 * ((c.MW : ℂ)⁻¹) * ((N.c 0)⁻¹) * (ab z0.1 z1.1) * (ab z0.1 z2.1) * (sb z0.2 ρ0) * (sb z2.2 z3.2) / (9) + (-2) * ((c.SW : ℂ)) * ((c.e : ℂ)) ^ 2 * ((c.MW : ℂ)⁻¹) * ((N.c 0)⁻¹) * (ab z0.1 z1.1) * (mb ρ0 (p 1) z2.1) * (sb z2.2 z3.2) / (9) + (-2) * ((c.SW : ℂ)) * ((c.e : ℂ)) ^ 2 * ((c.MW : ℂ)⁻¹) * ((N.c 0)⁻¹) * (ab z2.1 z3.1) * (mb z2.2 (p 1) z0.1) * (sb z1.2 ρ0) / (9) + (-2) * ((c.SW : ℂ)) * ((c.e : ℂ)) ^ 2 * ((c.MW : ℂ)⁻¹) * ((N.c 1)⁻¹) * (ab z0.1 z3.1) * (mb ρ0 (p 1) z2.1) * (sb z1.2 z2.2) / (9) + (-2) * ((c.SW : ℂ)) * ((c.e : ℂ)) ^ 2 * ((c.MW : ℂ)⁻¹) * ((N.c 1)⁻¹) * (ab z1.1 z2.1) * (mb z2.2 (p 1) z0.1) * (sb z3.2 ρ0) / (9)) * ySW + ((1) * ((c.SW : ℂ)) * ((c.e : ℂ)) ^ 2 * ((c.CW : ℂ)⁻¹) * ((N.c 1)⁻¹) * (ab z0.1 z2.1) * (ab z1.1 z2.1) * (sb z3.2 ρ0) / (9) + (-1) * ((c.SW : ℂ)) * ((c.e : ℂ)) ^ 2 * ((c.CW : ℂ)⁻¹) * ((N.c 1)⁻¹) * (ab z0.1 z3.1) * (sb z1.2 z2.2) * (sb z2.2 ρ0) / (9) + (1) * ((c.SW : ℂ)) * ((c.e : ℂ)) ^ 2 * ((c.MW : ℂ)⁻¹) * ((c.mass .d : ℂ)) * ((N.c 0)⁻¹) * (ab z0.1 z1.1) * (ab z2.1 z3.1) * (sb z2.2 ρ0) / (9) + (-1) * ((c.SW : ℂ)) * ((c.e : ℂ)) ^ 2 * ((c.MW : ℂ)⁻¹) * ((c.mass .d : ℂ)) * ((N.c 0)⁻¹) * (ab z0.1 z2.1) * (sb z1.2 ρ0) * (sb z2.2 z3.2) / (9) + (-1) * ((c.SW : ℂ)) * ((c.e : ℂ)) ^ 2 * ((c.MW : ℂ)⁻¹) * ((c.mass .d : ℂ)) * ((N.c 1)⁻¹) * (ab z0.1 z2.1) * (sb z1.2 z2.2) * (sb z3.2 ρ0) / (9) + (1) * ((c.SW : ℂ)) * ((c.e : ℂ)) ^ 2 * ((c.MW : ℂ)⁻¹) * ((c.mass .d : ℂ)) * ((N.c 1)⁻¹) * (ab z0.1 z3.1) * (ab z1.1 z2.1) * (sb z2.2 ρ0) / (9) + (-1) * ((c.SW : ℂ)) * ((c.e : ℂ)) ^ 2 * ((c.MW : ℂ)⁻¹) * ((N.c 0)⁻¹) * (ab z0.1 z1.1) * (ab z0.1 z2.1) * (sb z0.2 ρ0) * (sb z2.2 z3.2) / (9) + (1) * ((c.SW : ℂ)) * ((c.e : ℂ)) ^ 2 * ((c.MW : ℂ)⁻¹) * ((N.c 0)⁻¹) * (ab z0.1 z1.1) * (mb ρ0 (p 1) z2.1) * (sb z2.2 z3.2) / (9) + (1) * ((c.SW : ℂ)) * ((c.e : ℂ)) ^ 2 * ((c.MW : ℂ)⁻¹) * ((N.c 0)⁻¹) * (ab z2.1 z3.1) * (mb z2.2 (p 1) z0.1) * (sb z1.2 ρ0) / (9) + (1) * ((c.SW : ℂ)) * ((c.e : ℂ)) ^ 2 * ((c.MW : ℂ)⁻¹) * ((N.c 1)⁻¹) * (ab z0.1 z3.1) * (mb ρ0 (p 1) z2.1) * (sb z1.2 z2.2) / (9) + (1) * ((c.SW : ℂ)) * ((c.e : ℂ)) ^ 2 * ((c.MW : ℂ)⁻¹) * ((N.c 1)⁻¹) * (ab z1.1 z2.1) * (mb z2.2 (p 1) z0.1) * (sb z3.2 ρ0) / (9) + (-1) * ((c.e : ℂ)) ^ 2 * ((c.CW : ℂ)⁻¹) * ((c.SW : ℂ)⁻¹) * ((N.c 1)⁻¹) * (ab z0.1 z2.1) * (ab z1.1 z2.1) * (sb z3.2 ρ0) / (6) + (1) * ((c.e : ℂ)) ^ 2 * ((c.MW : ℂ)⁻¹) * ((c.SW : ℂ)⁻¹) * ((c.mass .d : ℂ)) * ((N.c 0)⁻¹) * (ab z0.1 z2.1) * (sb z1.2 ρ0) * (sb z2.2 z3.2) / (6) + (-1) * ((c.e : ℂ)) ^ 2 * ((c.MW : ℂ)⁻¹) * ((c.SW : ℂ)⁻¹) * ((c.mass .d : ℂ)) * ((N.c 1)⁻¹) * (ab z0.1 z3.1) * (ab z1.1 z2.1) * (sb z2.2 ρ0) / (6) + (1) * ((c.e : ℂ)) ^ 2 * ((c.MW : ℂ)⁻¹) * ((c.SW : ℂ)⁻¹) * ((N.c 0)⁻¹) * (ab z0.1 z1.1) * (ab z0.1 z2.1) * (sb z0.2 ρ0) * (sb z2.2 z3.2) / (6) + (-1) * ((c.e : ℂ)) ^ 2 * ((c.MW : ℂ)⁻¹) * ((c.SW : ℂ)⁻¹) * ((N.c 0)⁻¹) * (ab z0.1 z1.1) * (mb ρ0 (p 1) z2.1) * (sb z2.2 z3.2) / (6) + (-1) * ((c.e : ℂ)) ^ 2 * ((c.MW : ℂ)⁻¹) * ((c.SW : ℂ)⁻¹) * ((N.c 1)⁻¹) * (ab z1.1 z2.1) * (mb z2.2 (p 1) z0.1) * (sb z3.2 ρ0) / (6)) * x22
set_option maxRecDepth 8000 in
theorem AdZd.amp2_eq (N : Env) (f : Nat → List Int → ℂ) : Cls.AdZd.m_amp2.mean N f .r [] =
    ((sumW (fun x a => (sumJ (fun x b => (sumV (fun x c => (sumJ (fun x d => (x + (((3 : Nat) : ℝ) * (‖(f 0 [a, b, c, d])‖ ^ 2)))) x)) x)) x)) ((0 : Nat) : ℝ)) / ((12 : Nat) : ℝ)) := by rfl
set_option maxRecDepth 8000 in
theorem AdZd.value (N : Env) : meaning N .r Cls.AdZd.methods Cls.AdZd.amp2 [] =
    ((sumW (fun x a => (sumJ (fun x b => (sumV (fun x c => (sumJ (fun x d => (x + (((3 : Nat) : ℝ) * (‖(Cls.AdZd.m_amp.mean N (callMean N []) .c [a, b, c, d])‖ ^ 2)))) x)) x)) x)) ((0 : Nat) : ℝ)) / ((12 : Nat) : ℝ)) :=
  AdZd.amp2_eq N (callMean N [Cls.AdZd.m_amp])
theorem AdZd.termP_lin (N : Env) (w : ℝ) (x : ℂ) (j2 a2 b2 j4 : Int) : AdZd.termP N w x j2 a2 b2 j4 = x + (w : ℂ) * AdZd.termP N 1 0 j2 a2 b2 j4 := by
  simp only [AdZd.termP]; push_cast; ring
theorem AdZd.termM_lin (N : Env) (w : ℝ) (x : ℂ) (j2 a2 b2 j4 : Int) : AdZd.termM N w x j2 a2 b2 j4 = x + (w : ℂ) * AdZd.termM N 1 0 j2 a2 b2 j4 := by
  simp only [AdZd.termM]; push_cast; ring
set_option maxRecDepth 8000 in
theorem AdZd.ampP (N : Env) (f : Nat → List Int → ℂ) (j2 j4 : Int) (t2 : Fin 3) : Cls.AdZd.m_amp.mean N f .c [2, j2, spinV t2, j4] = comb t2 (fun a2 b2 => AdZd.termP N 1 0 j2 (spinOf a2) (spinOf b2) j4) := by
  refine (amp_mean N f (m := 4) (K := 6) (G := fun i => if 0 < i 0 then AdZd.termP N 1 0 (i 1) (i 4) (i 5) (i 3) else if i 0 < 0 then AdZd.termM N 1 0 (i 1) (i 4) (i 5) (i 3) else 0) (fun l => ?_) (fun i i' h => ?_) rfl (by decide) (by decide) (by decide) (by decide) (by decide)).trans ?_
  · by_cases h : 0 < l.i 0
    · refine ⟨_, (if_pos (decide_eq_true h)).trans rfl, rfl, rfl, ?_⟩; rw [if_pos h]; exact AdZd.termP_lin ..
    · by_cases h' : l.i 0 < 0
      · refine ⟨_, (if_neg (fun e => h (of_decide_eq_true e))).trans ((if_pos (decide_eq_true h')).trans rfl), rfl, rfl, ?_⟩; rw [if_neg h, if_pos h']; exact AdZd.termM_lin ..
      · refine ⟨_, (if_neg (fun e => h (of_decide_eq_true e))).trans ((if_neg (fun e => h' (of_decide_eq_true e))).trans rfl), rfl, rfl, ?_⟩; rw [if_neg h, if_neg h', mul_zero, add_zero]
  · simp only [h 0 (by decide), h 1 (by decide), h 3 (by decide), h 4 (by decide), h 5 (by decide)]
  · show amp' _ [spinV t2] = _
    simp only [amp'_comb, amp'_nil]
    rfl
theorem AdZd.formP_x2 (N : Env) (p : Nat → V4 ℝ) (z0 z1 y2 z3 x y : Pair) : AdZd.formP N p z0 z1 (x + y) y2 z3 = AdZd.formP N p z0 z1 x y2 z3 + AdZd.formP N p z0 z1 y y2 z3 := by
  simp only [AdZd.formP, Prod.fst_add, Prod.snd_add, ab_add_left, ab_add_right, sb_add_left, sb_add_right, mb_add_left, mb_add_right]
  ring
theorem AdZd.formP_y2 (N : Env) (p : Nat → V4 ℝ) (z0 z1 x2 z3 x y : Pair) : AdZd.formP N p z0 z1 x2 (x + y) z3 = AdZd.formP N p z0 z1 x2 x z3 + AdZd.formP N p z0 z1 x2 y z3 := by
  simp only [AdZd.formP, Prod.fst_add, Prod.snd_add, ab_add_left, ab_add_right, sb_add_left, sb_add_right, mb_add_left, mb_add_right]
  ring
set_option maxRecDepth 8000 in
theorem AdZd.ampM (N : Env) (f : Nat → List Int → ℂ) (j2 j4 : Int) (t2 : Fin 3) : Cls.AdZd.m_amp.mean N f .c [(-2), j2, spinV t2, j4] = comb t2 (fun a2 b2 => AdZd.termM N 1 0 j2 (spinOf a2) (spinOf b2) j4) := by
  refine (amp_mean N f (m := 4) (K := 6) (G := fun i => if 0 < i 0 then AdZd.termP N 1 0 (i 1) (i 4) (i 5) (i 3) else if i 0 < 0 then AdZd.termM N 1 0 (i 1) (i 4) (i 5) (i 3) else 0) (fun l => ?_) (fun i i' h => ?_) rfl (by decide) (by decide) (by decide) (by decide) (by decide)).trans ?_
  · by_cases h : 0 < l.i 0
    · refine ⟨_, (if_pos (decide_eq_true h)).trans rfl, rfl, rfl, ?_⟩; rw [if_pos h]; exact AdZd.termP_lin ..
    · by_cases h' : l.i 0 < 0
      · refine ⟨_, (if_neg (fun e => h (of_decide_eq_true e))).trans ((if_pos (decide_eq_true h')).trans rfl), rfl, rfl, ?_⟩; rw [if_neg h, if_pos h']; exact AdZd.termM_lin ..
      · refine ⟨_, (if_neg (fun e => h (of_decide_eq_true e))).trans ((if_neg (fun e => h' (of_decide_eq_true e))).trans rfl), rfl, rfl, ?_⟩; rw [if_neg h, if_neg h', mul_zero, add_zero]
  · simp only [h 0 (by decide), h 1 (by decide), h 3 (by decide), h 4 (by decide), h 5 (by decide)]
  · show amp' _ [spinV t2] = _
    simp only [amp'_comb, amp'_nil]
    rfl
theorem AdZd.formM_x2 (N : Env) (p : Nat → V4 ℝ) (z0 z1 y2 z3 x y : Pair) : AdZd.formM N p z0 z1 (x + y) y2 z3 = AdZd.formM N p z0 z1 x y2 z3 + AdZd.formM N p z0 z1 y y2 z3 := by
  simp only [AdZd.formM, Prod.fst_add, Prod.snd_add, ab_add_left, ab_add_right, sb_add_left, sb_add_right, mb_add_left, mb_add_right]
  ring
theorem AdZd.formM_y2 (N : Env) (p : Nat → V4 ℝ) (z0 z1 x2 z3 x y : Pair) : AdZd.formM N p z0 z1 x2 (x + y) z3 = AdZd.formM N p z0 z1 x2 x z3 + AdZd.formM N p z0 z1 x2 y z3 := by
  simp only [AdZd.formM, Prod.fst_add, Prod.snd_add, ab_add_left, ab_add_right, sb_add_left, sb_add_right, mb_add_left, mb_add_right]
  ring

theorem AdZd.mass_eq {c : Constants} (hc : c.Physical) (i : Fin 4) : AdZd.proc.massNum (AdZd.rho c) i = AdZd.react.mass c i := by
  fin_cases i <;> first | rfl | exact Nat.cast_zero | exact Nat.cast_zero.trans (hc.neutrino _).symm | (show c.MW / √(((1 : Nat) : ℝ) - c.SW * c.SW) = c.MZ; rw [c.root, c.mz])

variable [FPEnv] in
theorem AdZd.amps {c : Constants} {p : Nat → V4 ℝ} {u : Fin 4 → Fin 3 → Spinor} {ε : Fin 4 → Fin 3 → Vec} (hc : c.Physical) (hh : c.Heavy) (h0 : ∀ i, 0 ≤ AdZd.react.mass c i) (hs : ∀ i : Fin 4, OnShell (p i) (AdZd.react.mass c i)) (hb : Balanced p) (hr : AdZd.react.Regular c p) (hu : ∀ i, AdZd.react.Complete c p i (u i) (ε i)) :
    (AdZd.N c p).c 0 ≠ 0 ∧ (AdZd.N c p).c 1 ≠ 0 ∧ (∀ n, (Ty.r, n) ∈ AdZd.proc.divides → (AdZd.N c p).r n ≠ 0) ∧ (∀ n, (Ty.c, n) ∈ AdZd.proc.divides → (AdZd.N c p).c n ≠ 0) ∧ ∀ (s1 : Fin 2) (s3 : Fin 2) (h0 : Fin 2) (t2 : Fin 3), ‖Cls.AdZd.m_amp.mean (AdZd.N c p) (callMean (AdZd.N c p) []) .c [spinW h0, spinOf s1, spinV t2, spinOf s3]‖ = ‖AdZd.react.bare c p 3 1 0 2 (AdZd.react.codePair c p 3 s3) (AdZd.react.codePair c p 1 s1) (lightE (legA (p 0) 0 0, legS (p 0) 0 1) h0.castSucc) (AdZd.react.codeVec c p 2 t2)‖ := by
  have he : AdZd.react.ends = [3] := by decide
  have ht : AdZd.react.starts = [1] := by decide
  have hB : AdZd.react.bosons = [0, 2] := by decide
  obtain ⟨f1, f2, f3⟩ := AdZd.react.regular_line he ht hB hr
  have r2 : (AdZd.N c p).r 2 = (c.mass .d) := rfl
  have r6 : (AdZd.N c p).r 6 = (c.MW / √((((1 : Nat) : ℝ) - (c.SW * c.SW)))) := rfl
  simp only [c.root] at r6
  have r8 : (AdZd.N c p).r 8 = ((((((2 : Nat) : ℝ) * c.e) * c.e) * ((-((1 : Nat) : ℝ)) / ((3 : Nat) : ℝ))) / ((((2 : Nat) : ℝ) * c.MW) * c.SW)) := rfl
  have r10 : (AdZd.N c p).r 10 = (((((-((2 : Nat) : ℝ)) * ((-((1 : Nat) : ℝ)) / ((3 : Nat) : ℝ))) * c.SW) * c.SW) - ((1 : Nat) : ℝ)) := rfl
  have r11 : (AdZd.N c p).r 11 = ((((-((2 : Nat) : ℝ)) * ((-((1 : Nat) : ℝ)) / ((3 : Nat) : ℝ))) * c.SW) * c.SW) := rfl
  have c0 : (AdZd.N c p).c 0 = poleDist (c.mass .d) ((0 : Nat) : ℝ) ((VExp.add 0 1).sum p) := rfl
  rw [Nat.cast_zero, pole_fermion rfl] at c0
  have d0 : ((msq (plus (p 1) (p 0)) - c.mass .d ^ 2 : ℝ) : ℂ) = (AdZd.N c p).c 0 := by rw [c0, msq_s hb (plus (p 1) (p 0)) (by simp)]
  have n0 : (AdZd.N c p).c 0 ≠ 0 := by rw [← d0]; exact_mod_cast f1 .d rfl rfl
  have c1 : (AdZd.N c p).c 1 = poleDist (c.mass .d) ((0 : Nat) : ℝ) ((VExp.sub 0 3).sum p) := rfl
  rw [Nat.cast_zero, pole_fermion rfl] at c1
  have d1 : ((msq (plus (p 1) (backward (p 2))) - c.mass .d ^ 2 : ℝ) : ℂ) = (AdZd.N c p).c 1 := by rw [c1, msq_u hb (plus (p 1) (backward (p 2))) (by simp)]
  have n1 : (AdZd.N c p).c 1 ≠ 0 := by rw [← d1]; exact_mod_cast f2 .d rfl rfl
  obtain ⟨l0, x0, y0⟩ := AdZd.react.code_light hs hu (n := 0) rfl rfl
  have e01 := l0.pole_add (m := (c.mass .d)) (onShell_msq (hs 1)) (msq_s hb (plus (p 0) (p 1)) (by simp)) c0
  have e03 := l0.pole_sub (m := (c.mass .d)) (onShell_msq (hs 3)) (msq_u hb (plus (p 0) (backward (p 3))) (by simp)) c1
  have m1 : AdZd.react.mass c 1 ≠ 0 := (leg_pos hc hh (by decide)).ne'
  have m2 : AdZd.react.mass c 2 ≠ 0 := (leg_pos hc hh (by decide)).ne'
  have m3 : AdZd.react.mass c 3 ≠ 0 := (leg_pos hc hh (by decide)).ne'
  have m0 : AdZd.react.mass c 0 = 0 := rfl
  have hd : AdZd.proc.divides = [(Ty.c, 1), (Ty.c, 0)] := by decide +kernel
  have stP : ∀ {z1 z3 : Pair} (b1 : Bold (p 1) (AdZd.react.mass c 1) z1) (b3 : Bold (p 3) (AdZd.react.mass c 3) z3) (t2 : Fin 3), comb t2 (fun a2 b2 => AdZd.formP (AdZd.N c p) p (legA (p 0) 0 0, legS (p 0) 0 1) z1 (AdZd.react.codePair c p 2 a2) (AdZd.react.codePair c p 2 b2) z3) = (-1) * AdZd.react.bare c p 3 1 0 2 z3 z1 (lightE (legA (p 0) 0 0, legS (p 0) 0 1) 1) (AdZd.react.codeVec c p 2 t2) := by
    intro z1 z3 b1 b3 t2
    refine one_vector (p := p 2) (m := AdZd.react.mass c 2) (fun s => AdZd.react.codePair_bold hs h0 2 s) (B := fun x y => AdZd.formP (AdZd.N c p) p (legA (p 0) 0 0, legS (p 0) 0 1) z1 x y z3) (G := fun E => AdZd.react.bare c p 3 1 0 2 z3 z1 (lightE (legA (p 0) 0 0, legS (p 0) 0 1) 1) E) (fun x y z => ?_) (fun x y z => ?_) (AdZd.react.bare_lin₂ c p _ _ _ (by decide)) (-1) (fun z2 b2 => ?_) t2
    · exact AdZd.formP_x2 ..
    · exact AdZd.formP_y2 ..
    · exact (light_plus (z := (legA (p 0) 0 0, legS (p 0) 0 1)) (G := fun E => AdZd.react.bare c p 3 1 0 2 z3 z1 E (pv z2.1 z2.2)) (AdZd.react.bare_lin₁ c p _ _ _ (by decide)) x0 (AdZd.keyP hc hb r2 r6 r8 r10 r11 d0 n0 d1 n1 b1 b2 b3 l0 e01 e03 (onShell_msq (hs 1)) (onShell_msq (hs 2)) (onShell_msq (hs 3)) _)).trans (mul_assoc _ _ _)
  have stM : ∀ {z1 z3 : Pair} (b1 : Bold (p 1) (AdZd.react.mass c 1) z1) (b3 : Bold (p 3) (AdZd.react.mass c 3) z3) (t2 : Fin 3), comb t2 (fun a2 b2 => AdZd.formM (AdZd.N c p) p (legA (p 0) 0 0, legS (p 0) 0 1) z1 (AdZd.react.codePair c p 2 a2) (AdZd.react.codePair c p 2 b2) z3) = 1 * AdZd.react.bare c p 3 1 0 2 z3 z1 (lightE (legA (p 0) 0 0, legS (p 0) 0 1) 0) (AdZd.react.codeVec c p 2 t2) := by
    intro z1 z3 b1 b3 t2
    refine one_vector (p := p 2) (m := AdZd.react.mass c 2) (fun s => AdZd.react.codePair_bold hs h0 2 s) (B := fun x y => AdZd.formM (AdZd.N c p) p (legA (p 0) 0 0, legS (p 0) 0 1) z1 x y z3) (G := fun E => AdZd.react.bare c p 3 1 0 2 z3 z1 (lightE (legA (p 0) 0 0, legS (p 0) 0 1) 0) E) (fun x y z => ?_) (fun x y z => ?_) (AdZd.react.bare_lin₂ c p _ _ _ (by decide)) 1 (fun z2 b2 => ?_) t2
    · exact AdZd.formM_x2 ..
    · exact AdZd.formM_y2 ..
    · exact (light_minus (z := (legA (p 0) 0 0, legS (p 0) 0 1)) (G := fun E => AdZd.react.bare c p 3 1 0 2 z3 z1 E (pv z2.1 z2.2)) (AdZd.react.bare_lin₁ c p _ _ _ (by decide)) y0 (AdZd.keyM hc hb r2 r6 r8 r10 r11 d0 n0 d1 n1 b1 b2 b3 l0 e01 e03 (onShell_msq (hs 1)) (onShell_msq (hs 2)) (onShell_msq (hs 3)) _)).trans (mul_assoc _ _ _)
  have amP : ∀ (s1 : Fin 2) (s3 : Fin 2) (t2 : Fin 3), Cls.AdZd.m_amp.mean (AdZd.N c p) (callMean (AdZd.N c p) []) .c [2, spinOf s1, spinV t2, spinOf s3] = (-1) * AdZd.react.bare c p 3 1 0 2 (AdZd.react.codePair c p 3 s3) (AdZd.react.codePair c p 1 s1) (lightE (legA (p 0) 0 0, legS (p 0) 0 1) 1) (AdZd.react.codeVec c p 2 t2) := by
    intro s1 s3 t2
    rw [AdZd.ampP, ← stP (AdZd.react.codePair_bold hs h0 1 s1) (AdZd.react.codePair_bold hs h0 3 s3) t2]
    refine congrArg (comb t2) (funext fun a2 => funext fun b2 => ?_)
    have v3z1x2 : (AdZd.N c p).v 3 [spinOf s1, spinOf a2] = ab (AdZd.react.codePair c p 1 s1).1 (AdZd.react.codePair c p 2 a2).1 := bra_angle (p := p) (m := AdZd.proc.massNum (AdZd.rho c)) (AdZd.mass_eq hc 1) (AdZd.mass_eq hc 2) (.inl ⟨m1, rfl⟩) (.inl ⟨m2, rfl⟩)
    have v2z0z3 : (AdZd.N c p).v 2 [spinOf s3] = sb (legA (p 0) 0 0, legS (p 0) 0 1).2 (AdZd.react.codePair c p 3 s3).2 := bra_square (p := p) (m := AdZd.proc.massNum (AdZd.rho c)) (AdZd.mass_eq hc 0) (AdZd.mass_eq hc 3) (.inr ⟨m0, rfl⟩) (.inl ⟨m3, rfl⟩)
    have v5z0y2 : (AdZd.N c p).v 5 [spinOf b2] = mb (legA (p 0) 0 0, legS (p 0) 0 1).2 (p 1) (AdZd.react.codePair c p 2 b2).1 := bra_mid_square (p := p) (m := AdZd.proc.massNum (AdZd.rho c)) (AdZd.mass_eq hc 0) (AdZd.mass_eq hc 2) (.inr ⟨m0, rfl⟩) (.inl ⟨m2, rfl⟩)
    have v1z0y2 : (AdZd.N c p).v 1 [spinOf b2] = sb (legA (p 0) 0 0, legS (p 0) 0 1).2 (AdZd.react.codePair c p 2 b2).2 := bra_square (p := p) (m := AdZd.proc.massNum (AdZd.rho c)) (AdZd.mass_eq hc 0) (AdZd.mass_eq hc 2) (.inr ⟨m0, rfl⟩) (.inl ⟨m2, rfl⟩)
    have v7z0z3 : (AdZd.N c p).v 7 [spinOf s3] = mb (legA (p 0) 0 0, legS (p 0) 0 1).2 (p 2) (AdZd.react.codePair c p 3 s3).1 := bra_mid_square (p := p) (m := AdZd.proc.massNum (AdZd.rho c)) (AdZd.mass_eq hc 0) (AdZd.mass_eq hc 3) (.inr ⟨m0, rfl⟩) (.inl ⟨m3, rfl⟩)
    have v4x2z3 : (AdZd.N c p).v 4 [spinOf a2, spinOf s3] = ab (AdZd.react.codePair c p 2 a2).1 (AdZd.react.codePair c p 3 s3).1 := bra_angle (p := p) (m := AdZd.proc.massNum (AdZd.rho c)) (AdZd.mass_eq hc 2) (AdZd.mass_eq hc 3) (.inl ⟨m2, rfl⟩) (.inl ⟨m3, rfl⟩)
    have v6z0z1 : (AdZd.N c p).v 6 [spinOf s1] = mb (legA (p 0) 0 0, legS (p 0) 0 1).2 (p 2) (AdZd.react.codePair c p 1 s1).1 := bra_mid_square (p := p) (m := AdZd.proc.massNum (AdZd.rho c)) (AdZd.mass_eq hc 0) (AdZd.mass_eq hc 1) (.inr ⟨m0, rfl⟩) (.inl ⟨m1, rfl⟩)
    have v0z0z1 : (AdZd.N c p).v 0 [spinOf s1] = sb (legA (p 0) 0 0, legS (p 0) 0 1).2 (AdZd.react.codePair c p 1 s1).2 := bra_square (p := p) (m := AdZd.proc.massNum (AdZd.rho c)) (AdZd.mass_eq hc 0) (AdZd.mass_eq hc 1) (.inr ⟨m0, rfl⟩) (.inl ⟨m1, rfl⟩)
    have v8z0y2 : (AdZd.N c p).v 8 [spinOf b2] = mb (legA (p 0) 0 0, legS (p 0) 0 1).2 (p 3) (AdZd.react.codePair c p 2 b2).1 := bra_mid_square (p := p) (m := AdZd.proc.massNum (AdZd.rho c)) (AdZd.mass_eq hc 0) (AdZd.mass_eq hc 2) (.inr ⟨m0, rfl⟩) (.inl ⟨m2, rfl⟩)
    simp only [AdZd.termP, AdZd.formP, v3z1x2, v2z0z3, v5z0y2, v1z0y2, v7z0z3, v4x2z3, v6z0z1, v0z0z1, v8z0y2]
    push_cast
    ring
  have amM : ∀ (s1 : Fin 2) (s3 : Fin 2) (t2 : Fin 3), Cls.AdZd.m_amp.mean (AdZd.N c p) (callMean (AdZd.N c p) []) .c [(-2), spinOf s1, spinV t2, spinOf s3] = 1 * AdZd.react.bare c p 3 1 0 2 (AdZd.react.codePair c p 3 s3) (AdZd.react.codePair c p 1 s1) (lightE (legA (p 0) 0 0, legS (p 0) 0 1) 0) (AdZd.react.codeVec c p 2 t2) := by
    intro s1 s3 t2
    rw [AdZd.ampM, ← stM (AdZd.react.codePair_bold hs h0 1 s1) (AdZd.react.codePair_bold hs h0 3 s3) t2]
    refine congrArg (comb t2) (funext fun a2 => funext fun b2 => ?_)
    have v12z1x2 : (AdZd.N c p).v 12 [spinOf s1, spinOf a2] = sb (AdZd.react.codePair c p 1 s1).2 (AdZd.react.codePair c p 2 a2).2 := bra_square (p := p) (m := AdZd.proc.massNum (AdZd.rho c)) (AdZd.mass_eq hc 1) (AdZd.mass_eq hc 2) (.inl ⟨m1, rfl⟩) (.inl ⟨m2, rfl⟩)
    have v11z0z3 : (AdZd.N c p).v 11 [spinOf s3] = ab (legA (p 0) 0 0, legS (p 0) 0 1).1 (AdZd.react.codePair c p 3 s3).1 := bra_angle (p := p) (m := AdZd.proc.massNum (AdZd.rho c)) (AdZd.mass_eq hc 0) (AdZd.mass_eq hc 3) (.inr ⟨m0, rfl⟩) (.inl ⟨m3, rfl⟩)
    have v14z0y2 : (AdZd.N c p).v 14 [spinOf b2] = mb (AdZd.react.codePair c p 2 b2).2 (p 1) (legA (p 0) 0 0, legS (p 0) 0 1).1 := bra_mid_angle (p := p) (m := AdZd.proc.massNum (AdZd.rho c)) (AdZd.mass_eq hc 0) (AdZd.mass_eq hc 2) (.inr ⟨m0, rfl⟩) (.inl ⟨m2, rfl⟩)
    have v10z0y2 : (AdZd.N c p).v 10 [spinOf b2] = ab (legA (p 0) 0 0, legS (p 0) 0 1).1 (AdZd.react.codePair c p 2 b2).1 := bra_angle (p := p) (m := AdZd.proc.massNum (AdZd.rho c)) (AdZd.mass_eq hc 0) (AdZd.mass_eq hc 2) (.inr ⟨m0, rfl⟩) (.inl ⟨m2, rfl⟩)
    have v16z0z3 : (AdZd.N c p).v 16 [spinOf s3] = mb (AdZd.react.codePair c p 3 s3).2 (p 2) (legA (p 0) 0 0, legS (p 0) 0 1).1 := bra_mid_angle (p := p) (m := AdZd.proc.massNum (AdZd.rho c)) (AdZd.mass_eq hc 0) (AdZd.mass_eq hc 3) (.inr ⟨m0, rfl⟩) (.inl ⟨m3, rfl⟩)
    have v13x2z3 : (AdZd.N c p).v 13 [spinOf a2, spinOf s3] = sb (AdZd.react.codePair c p 2 a2).2 (AdZd.react.codePair c p 3 s3).2 := bra_square (p := p) (m := AdZd.proc.massNum (AdZd.rho c)) (AdZd.mass_eq hc 2) (AdZd.mass_eq hc 3) (.inl ⟨m2, rfl⟩) (.inl ⟨m3, rfl⟩)
    have v15z0z1 : (AdZd.N c p).v 15 [spinOf s1] = mb (AdZd.react.codePair c p 1 s1).2 (p 2) (legA (p 0) 0 0, legS (p 0) 0 1).1 := bra_mid_angle (p := p) (m := AdZd.proc.massNum (AdZd.rho c)) (AdZd.mass_eq hc 0) (AdZd.mass_eq hc 1) (.inr ⟨m0, rfl⟩) (.inl ⟨m1, rfl⟩)
    have v9z0z1 : (AdZd.N c p).v 9 [spinOf s1] = ab (legA (p 0) 0 0, legS (p 0) 0 1).1 (AdZd.react.codePair c p 1 s1).1 := bra_angle (p := p) (m := AdZd.proc.massNum (AdZd.rho c)) (AdZd.mass_eq hc 0) (AdZd.mass_eq hc 1) (.inr ⟨m0, rfl⟩) (.inl ⟨m1, rfl⟩)
    have v17z0y2 : (AdZd.N c p).v 17 [spinOf b2] = mb (AdZd.react.codePair c p 2 b2).2 (p 3) (legA (p 0) 0 0, legS (p 0) 0 1).1 := bra_mid_angle (p := p) (m := AdZd.proc.massNum (AdZd.rho c)) (AdZd.mass_eq hc 0) (AdZd.mass_eq hc 2) (.inr ⟨m0, rfl⟩) (.inl ⟨m2, rfl⟩)
    simp only [AdZd.termM, AdZd.formM, v12z1x2, v11z0z3, v14z0y2, v10z0y2, v16z0z3, v13x2z3, v15z0z1, v9z0z1, v17z0y2]
    push_cast
    ring
  refine ⟨n0, n1, fun n hn => ?_, fun n hn => ?_, ?_⟩
  · simp [hd] at hn
  · simp [hd] at hn
    rcases hn with rfl | rfl
    · exact n1
    · exact n0
  intro s1 s3 h0 t2
  match h0 with
  | 1 => exact norm_minus (amP s1 s3 t2)
  | 0 => exact norm_plus (amM s1 s3 t2)

variable [FPEnv] in
theorem AdZd.agrees : AdZd.Agrees := by
  refine agrees_of (D := [2, 3]) (E := [3]) (by simp [all, AdZd]) (by decide +kernel) (by decide) (by decide +kernel) (fun c hc hh => ⟨List.forall_mem_cons.2 ⟨hc.MW, List.forall_mem_cons.2 ⟨hc.SW, List.forall_mem_nil _⟩⟩, List.forall_mem_cons.2 ⟨hc.SW_lt, List.forall_mem_nil _⟩⟩) (fun c hc i => AdZd.mass_eq hc i) (by decide +kernel) ?_
  intro c p u ε hc hh hw h0 hs hb hr hu
  have he : AdZd.react.ends = [3] := by decide
  have ht : AdZd.react.starts = [1] := by decide
  have hB : AdZd.react.bosons = [0, 2] := by decide
  obtain ⟨n0, n1, d1, d2, am⟩ := AdZd.amps hc hh h0 hs hb hr hu
  refine ⟨d1, d2, ?_⟩
  show meaning (AdZd.N c p) .r Cls.AdZd.methods Cls.AdZd.amp2 [] = _
  have s0 : AdZd.react.states 0 = 2 := by decide +kernel
  have s1 : AdZd.react.states 1 = 6 := by decide +kernel
  have sy : AdZd.react.symmetry = 1 := by decide
  have p0 : AdZd.react.spins 0 = {0, 1} := rfl
  have p1 : AdZd.react.spins 1 = {0, 1} := rfl
  have p2 : AdZd.react.spins 2 = Finset.univ := rfl
  have p3 : AdZd.react.spins 3 = {0, 1} := rfl
  have E0 : AdZd.react.codeE c p 0 = lightE (legA (p 0) 0 0, legS (p 0) 0 1) := rfl
  have E2 : AdZd.react.codeE c p 2 = AdZd.react.codeVec c p 2 := rfl
  have hG : AdZd.react.Gauge c p := (AdZd.react.gauge_line he ht hB hh (by decide) (fun n => onShell_msq (hs n)) hb hr (fun n m h h2 => absurd (And.intro h h2) (by revert n m; decide)) (fun _ => ⟨rfl, rfl⟩) (fun h => absurd h (by decide)))
  have lc : AdZd.react.lineColours 3 1 = 3 := by decide +kernel
  rw [AdZd.value, AdZd.react.squared_line he ht hB (by decide) hs h0 (fun _ b _ hb _ => (boson_pos hc hh hb).ne') hG (E := AdZd.react.codeE c p) (fun n b hl => AdZd.react.codeE_polarised hs h0 hu (fun b hb => (boson_pos hc hh hb).ne') n b hl) hu, sum_colours, lc, s0, s1, sy]
  simp only [sumV_sum, sumJ_sum, sumW_sum, am, p0, p1, p2, p3, E0, E2, Finset.sum_singleton, sum_two, Matrix.cons_val_zero, Matrix.cons_val_one, Matrix.cons_val, two_castSucc]
  try simp only [← Finset.mul_sum]
  push_cast
  first | ring1 | ring_nf

/-! ### AeZe -/

/-- what the methods of the class see -/
noncomputable abbrev AeZe.N [FPEnv] (c : Constants) (p : Nat → V4 ℝ) : Env := AeZe.proc.env (AeZe.rho c) p
/-- the term that `amp` adds for a choice of spinors, for a photon of positive helicity (SM/AeZe.cpp) -/
noncomputable def AeZe.termP (N : Env) (w : ℝ) (x : ℂ) (j2 a2 b2 j4 : Int) : ℂ :=
  (x + ((((((w * N.r 7) : ℝ) : ℂ) * (((((N.r 9 : ℝ) : ℂ) * N.v 6 [j2, a2]) * (((((N.r 5 : ℝ) : ℂ) * N.v 4 [j4]) * N.v 10 [b2]) + ((((N.r 1 : ℝ) : ℂ) * N.v 2 [b2]) * N.v 14 [j4]))) + ((((N.r 10 : ℝ) : ℂ) * N.v 8 [a2, j4]) * (((((N.r 1 : ℝ) : ℂ) * N.v 2 [b2]) * N.v 12 [j2]) + ((((N.r 5 : ℝ) : ℂ) * N.v 0 [j2]) * N.v 16 [b2]))))) / N.c 1) / N.c 0))
/-- the same with spinors in place of their spins -/
noncomputable def AeZe.formP (N : Env) (p : Nat → V4 ℝ) (z0 z1 x2 y2 z3 : Pair) : ℂ :=
  (0 + ((((((((1 : Nat) : ℝ) * N.r 7) : ℝ) : ℂ) * (((((N.r 9 : ℝ) : ℂ) * (ab z1.1 x2.1)) * (((((N.r 5 : ℝ) : ℂ) * (sb z0.2 z3.2)) * (mb z0.2 (p 1) y2.1)) + ((((N.r 1 : ℝ) : ℂ) * (sb z0.2 y2.2)) * (mb z0.2 (p 2) z3.1)))) + ((((N.r 10 : ℝ) : ℂ) * (ab x2.1 z3.1)) * (((((N.r 1 : ℝ) : ℂ) * (sb z0.2 y2.2)) * (mb z0.2 (p 2) z1.1)) + ((((N.r 5 : ℝ) : ℂ) * (sb z0.2 z1.2)) * (mb z0.2 (p 3) y2.1)))))) / N.c 1) / N.c 0))
/-- the term that `amp` adds for a choice of spinors, for a photon of negative helicity (SM/AeZe.cpp) -/
noncomputable def AeZe.termM (N : Env) (w : ℝ) (x : ℂ) (j2 a2 b2 j4 : Int) : ℂ :=
  (x + ((((((w * N.r 7) : ℝ) : ℂ) * ((((N.r 10 : ℝ) : ℂ) * ((((((N.r 5 : ℝ) : ℂ) * N.v 5 [j4]) * N.v 7 [j2, a2]) * N.v 11 [b2]) + (((((N.r 1 : ℝ) : ℂ) * N.v 3 [a2]) * N.v 7 [j2, b2]) * N.v 15 [j4]))) + (((N.r 9 : ℝ) : ℂ) * ((((((N.r 1 : ℝ) : ℂ) * N.v 3 [a2]) * N.v 9 [b2, j4]) * N.v 13 [j2]) + (((((N.r 5 : ℝ) : ℂ) * N.v 1 [j2]) * N.v 9 [a2, j4]) * N.v 17 [b2]))))) / N.c 1) / N.c 0))
/-- the same with spinors in place of their spins -/
noncomputable def AeZe.formM (N : Env) (p : Nat → V4 ℝ) (z0 z1 x2 y2 z3 : Pair) : ℂ :=
  (0 + ((((((((1 : Nat) : ℝ) * N.r 7) : ℝ) : ℂ) * ((((N.r 10 : ℝ) : ℂ) * ((((((N.r 5 : ℝ) : ℂ) * (ab z0.1 z3.1)) * (sb z1.2 x2.2)) * (mb y2.2 (p 1) z0.1)) + (((((N.r 1 : ℝ) : ℂ) * (ab z0.1 x2.1)) * (sb z1.2 y2.2)) * (mb z3.2 (p 2) z0.1)))) + (((N.r 9 : ℝ) : ℂ) * ((((((N.r 1 : ℝ) : ℂ) * (ab z0.1 x2.1)) * (sb y2.2 z3.2)) * (mb z1.2 (p 2) z0.1)) + (((((N.r 5 : ℝ) : ℂ) * (ab z0.1 z1.1)) * (sb x2.2 z3.2)) * (mb y2.2 (p 3) z0.1)))))) / N.c 1) / N.c 0))
theorem AeZe.keyP {c : Constants} {p : Nat → V4 ℝ} {N : Env} (hc : c.Physical) (hb : Balanced p) (r1 : N.r 1 = (c.mass .e)) (r5 : N.r 5 = (c.MW / c.CW)) (r7 : N.r 7 = ((c.e * c.e) / (c.MW * c.SW))) (r9 : N.r 9 = (((((2 : Nat) : ℝ) * c.SW) * c.SW) - ((1 : Nat) : ℝ))) (r10 : N.r 10 = ((((2 : Nat) : ℝ) * c.SW) * c.SW)) (d0 : ((msq (plus (p 1) (backward (p 2))) - c.mass .e ^ 2 : ℝ) : ℂ) = N.c 0) (n0 : N.c 0 ≠ 0) (d1 : ((msq (plus (p 1) (p 0)) - c.mass .e ^ 2 : ℝ) : ℂ) = N.c 1) (n1 : N.c 1 ≠ 0) {z0 z1 z2 z3 : Pair} (b1 : Bold (p 1) (c.mass .e) z1) (b2 : Bold (p 2) c.MZ z2) (b3 : Bold (p 3) (c.mass .e) z3) (l0 : Light (p 0) z0) (e01 : mb z0.2 (p 1) z0.1 = N.c 1) (e03 : mb z0.2 (p 3) z0.1 = -N.c 0) (q1 : msq (p 1) = (c.mass .e) ^ 2) (q2 : msq (p 2) = c.MZ ^ 2) (q3 : msq (p 3) = (c.mass .e) ^ 2) (ρ0 : V2) :
    AeZe.formP N p z0 z1 z2 z2 z3 * ab ρ0 z0.1 = ((√2 : ℝ) * ((1 : ℂ) * ((√2 / c.MZ : ℝ) : ℂ))) * AeZe.react.bare c p 3 1 0 2 z3 z1 (pv ρ0 z0.2) (pv z2.1 z2.2) := by
  rw [AeZe.react.bare_parts c p (i := 3) (j := 1) (a := 0) (b := 2) (x := .photon) (y := .z) (k := (p 0)) (k' := (backward (p 2))) (fun _ => rfl) (fun _ => rfl) (f := .e) (g := .e) rfl rfl (l := (p 1)) rfl (e := 1) (e' := 1) (if_neg Bool.false_ne_true) (if_neg Bool.false_ne_true)]
  rw [compton_vv (f := .e) (x := .e) (g := .e) (h := (rfl : Spec.after .photon Flavour.e = some Flavour.e)) (h' := (rfl : Spec.after .z Flavour.e = some Flavour.e)) (ha := by simp) (hb := by simp)]
  rw [compton_vv (f := .e) (x := .e) (g := .e) (h := (rfl : Spec.after .z Flavour.e = some Flavour.e)) (h' := (rfl : Spec.after .photon Flavour.e = some Flavour.e)) (ha := by simp) (hb := by simp)]
  rw [annihilation_none c _ _ (by rfl) (by simp), star_zero, add_zero, AeZe.formP]
  simp only [d0, d1, lineV_pv, lineV_four, contract_four_pv, contract_pv, mb_plus, mb_backward]
  have i0 := ab_schouten z2.1 z3.1 ρ0 z1.1
  have i1 := ab_schouten z1.1 z2.1 ρ0 z0.1
  have i2 := mb_schouten_right z0.2 (p 2) z0.1 z1.1 z2.1
  have i3 := ab_schouten z1.1 z3.1 ρ0 z0.1
  have i4 := ab_schouten z2.1 z3.1 ρ0 z0.1
  have i5 := mb_schouten_right z0.2 (p 2) z0.1 z1.1 z3.1
  have i6 := sb_schouten z1.2 z2.2 z3.2 z0.2
  have i7 := mb_schouten_right z0.2 (p 1) z0.1 z2.1 ρ0
  have i8 := ab_schouten z1.1 z2.1 z3.1 z0.1
  have i9 := mb_schouten_left z0.2 z1.2 z2.2 (p 2) z0.1
  have i10 := mb_schouten_right z1.2 (p 2) z0.1 z2.1 z3.1
  have i11 := mb_schouten_right z0.2 (p 2) z0.1 z2.1 z3.1
  have i12 := mb_schouten_right z2.2 (p 1) z0.1 z2.1 z3.1
  have i13 := mb_schouten_right z0.2 (p 1) z0.1 z3.1 ρ0
  have i14 := mb_schouten_right z0.2 (p 2) z0.1 z3.1 ρ0
  have i15 := mb_schouten_right z0.2 (p 1) z0.1 z2.1 z3.1
  have i16 := mb_schouten_left z0.2 z1.2 z2.2 (p 1) z0.1
  have i17 := mb_schouten_right z0.2 (p 1) z1.1 z2.1 ρ0
  have i18 := mb_schouten_left z0.2 z1.2 z2.2 (p 1) z2.1
  have i19 := mb_schouten_right z0.2 (p 2) z0.1 z2.1 ρ0
  have i20 := mb_schouten_right z0.2 (p 2) z0.1 z1.1 ρ0
  have i21 := mb_schouten_right z2.2 (p 1) z0.1 z1.1 ρ0
  have i22 := mb_schouten_right z0.2 (p 1) z0.1 z1.1 z2.1
  have i23 := mb_schouten_right z2.2 (p 1) z0.1 z2.1 ρ0
  have i24 := mb_schouten_left z0.2 z1.2 z3.2 (p 1) z2.1
  have i25 := mb_schouten_left z0.2 z2.2 z3.2 (p 2) z0.1
  have i26 := mb_schouten_right z0.2 (p 1) z0.1 z1.1 z3.1
  have i27 := mb_schouten_left z0.2 z2.2 z3.2 (p 1) z0.1
  have i28 := mb_schouten_right z0.2 (p 1) z2.1 z3.1 ρ0
  have i29 := mb_schouten_right z0.2 (p 2) z2.1 z3.1 ρ0
  have i30 := mb_schouten_right z2.2 (p 1) z0.1 z3.1 ρ0
  simp only [l0.mb_eq, b1.mb_left, b1.mb_right, b2.mb_left, b2.mb_right, b3.mb_left, b3.mb_right, e01, e03, mb_two hb z0.2 z0.1, mb_three hb z0.2 z1.1, mb_three hb z0.2 z2.1, mb_two hb z0.2 z3.1, mb_three hb z0.2 ρ0, mb_three hb z1.2 z0.1, mb_three hb z1.2 z1.1, mb_three hb z1.2 z2.1, mb_two hb z1.2 z3.1, mb_three hb z1.2 ρ0, mb_three hb z2.2 z0.1, mb_three hb z2.2 z1.1, mb_three hb z2.2 z2.1, mb_one hb z2.2 z3.1, mb_three hb z2.2 ρ0, mb_two hb z3.2 z0.1, mb_two hb z3.2 z1.1, mb_one hb z3.2 z2.1, mb_two hb z3.2 z3.1, mb_two hb z3.2 ρ0, ab_self, sb_self] at i0 i1 i2 i3 i4 i5 i6 i7 i8 i9 i10 i11 i12 i13 i14 i15 i16 i17 i18 i19 i20 i21 i22 i23 i24 i25 i26 i27 i28 i29 i30 ⊢
  simp only [ab_swap z0.1 z1.1, ab_swap z0.1 z2.1, ab_swap z0.1 z3.1, ab_swap z0.1 ρ0, ab_swap z1.1 z2.1, ab_swap z1.1 z3.1, ab_swap z1.1 ρ0, ab_swap z2.1 z3.1, ab_swap z2.1 ρ0, ab_swap z3.1 ρ0, sb_swap z0.2 z1.2, sb_swap z0.2 z2.2, sb_swap z0.2 z3.2, sb_swap z1.2 z2.2, sb_swap z1.2 z3.2, sb_swap z2.2 z3.2] at i0 i1 i2 i3 i4 i5 i6 i7 i8 i9 i10 i11 i12 i13 i14 i15 i16 i17 i18 i19 i20 i21 i22 i23 i24 i25 i26 i27 i28 i29 i30 ⊢
  simp only [r1, r5, r7, r9, r10, Constants.hL, Constants.hR, Constants.gL, Constants.gR, Constants.yuk, Constants.invVev, Flavour.charge_e, Flavour.isospin_e, ← c.mz]
  have xMW : (c.MW : ℂ) ≠ 0 := by exact_mod_cast hc.MW
  have xSW : (c.SW : ℂ) ≠ 0 := by exact_mod_cast hc.SW
  have xCW : (c.CW : ℂ) ≠ 0 := by exact_mod_cast hc.CW
  have x2 : ((√2 : ℝ) : ℂ) ≠ 0 := by exact_mod_cast (Real.sqrt_pos.2 two_pos).ne'
  have x22 : ((√2 : ℝ) : ℂ) ^ 2 = 2 := by rw [← Complex.ofReal_pow, Real.sq_sqrt two_pos.le]; norm_num
  have x23 : ((√2 : ℝ) : ℂ) ^ 3 = 2 * ((√2 : ℝ) : ℂ) := by rw [← x22]; ring
  have x24 : ((√2 : ℝ) : ℂ) ^ 4 = 4 := by linear_combination (((√2 : ℝ) : ℂ) ^ 2 + 2) * x22
  try simp only [← c.mz] at i0 i1 i2 i3 i4 i5 i6 i7 i8 i9 i10 i11 i12 i13 i14 i15 i16 i17 i18 i19 i20 i21 i22 i23 i24 i25 i26 i27 i28 i29 i30
  push_cast at i0 i1 i2 i3 i4 i5 i6 i7 i8 i9 i10 i11 i12 i13 i14 i15 i16 i17 i18 i19 i20 i21 i22 i23 i24 i25 i26 i27 i28 i29 i30 ⊢
  simp only [div_eq_mul_inv, mul_inv, inv_inv] at i0 i1 i2 i3 i4 i5 i6 i7 i8 i9 i10 i11 i12 i13 i14 i15 i16 i17 i18 i19 i20 i21 i22 i23 i24 i25 i26 i27 i28 i29 i30 ⊢
  have y0 := mul_inv_cancel₀ n0
  have y1 := mul_inv_cancel₀ n1
  have yCW := mul_inv_cancel₀ xCW
  have yMW := mul_inv_cancel₀ xMW
  have ySW := mul_inv_cancel₀ xSW
  linear_combination ((((8) * ((c.SW : ℂ)) ^ 2 * ((c.e : ℂ)) ^ 2 * ((c.mass .e : ℂ)) * (N.c 0) * (sb z0.2 z2.2) + (4) * ((c.SW : ℂ)) ^ 2 * ((c.e : ℂ)) ^ 2 * ((c.mass .e : ℂ)) * (N.c 1) * (sb z0.2 z2.2) + (-2) * ((c.e : ℂ)) ^ 2 * ((c.mass .e : ℂ)) * (N.c 0) * (sb z0.2 z2.2) + (-2) * ((c.e : ℂ)) ^ 2 * ((c.mass .e : ℂ)) * (N.c 1) * (sb z0.2 z2.2)) * i0 + ((-2) * ((c.SW : ℂ)) ^ 2 * ((c.e : ℂ)) ^ 2 * ((c.mass .e : ℂ)) * (mb z0.2 (p 1) z3.1) * (sb z0.2 z2.2) + (-4) * ((c.SW : ℂ)) ^ 2 * ((c.e : ℂ)) ^ 2 * ((c.mass .e : ℂ)) ^ 2 * (sb z0.2 z2.2) * (sb z0.2 z3.2) + (1) * ((c.e : ℂ)) ^ 2 * ((c.mass .e : ℂ)) * (mb z0.2 (p 1) z3.1) * (sb z0.2 z2.2) + (1) * ((c.e : ℂ)) ^ 2 * ((c.mass .e : ℂ)) ^ 2 * (sb z0.2 z2.2) * (sb z0.2 z3.2)) * i1 + ((-4) * ((c.SW : ℂ)) ^ 2 * ((c.e : ℂ)) ^ 2 * ((c.mass .e : ℂ)) * (ab z3.1 ρ0) * (sb z0.2 z2.2) + (1) * ((c.e : ℂ)) ^ 2 * ((c.mass .e : ℂ)) * (ab z3.1 ρ0) * (sb z0.2 z2.2)) * i2 + ((-4) * ((c.MW : ℂ)) * ((c.SW : ℂ)) ^ 2 * ((c.e : ℂ)) ^ 2 * ((c.CW : ℂ)⁻¹) * ((c.mass .e : ℂ)) * (sb z0.2 z2.2) ^ 2 + (1) * ((c.MW : ℂ)) * ((c.e : ℂ)) ^ 2 * ((c.CW : ℂ)⁻¹) * ((c.mass .e : ℂ)) * (sb z0.2 z2.2) ^ 2 + (-2) * ((c.SW : ℂ)) ^ 2 * ((c.e : ℂ)) ^ 2 * ((c.mass .e : ℂ)) * (mb z0.2 (p 1) z2.1) * (sb z0.2 z2.2)) * i3 + ((-4) * ((c.SW : ℂ)) ^ 2 * ((c.e : ℂ)) ^ 2 * ((c.mass .e : ℂ)) * (mb z0.2 (p 2) z1.1) * (sb z0.2 z2.2) + (-2) * ((c.SW : ℂ)) ^ 2 * ((c.e : ℂ)) ^ 2 * ((c.mass .e : ℂ)) ^ 2 * (sb z0.2 z1.2) * (sb z0.2 z2.2) + (1) * ((c.e : ℂ)) ^ 2 * ((c.mass .e : ℂ)) * (mb z0.2 (p 2) z1.1) * (sb z0.2 z2.2)) * i4 + ((4) * ((c.SW : ℂ)) ^ 2 * ((c.e : ℂ)) ^ 2 * ((c.mass .e : ℂ)) * (ab z2.1 ρ0) * (sb z0.2 z2.2) + (-1) * ((c.e : ℂ)) ^ 2 * ((c.mass .e : ℂ)) * (ab z2.1 ρ0) * (sb z0.2 z2.2)) * i5 + ((-2) * ((c.SW : ℂ)) ^ 2 * ((c.e : ℂ)) ^ 2 * ((c.mass .e : ℂ)) * (N.c 1) * (ab z2.1 ρ0) + (2) * ((c.SW : ℂ)) ^ 2 * ((c.e : ℂ)) ^ 2 * ((c.mass .e : ℂ)) * (ab z0.1 z2.1) * (mb z0.2 (p 1) ρ0) + (-4) * ((c.SW : ℂ)) ^ 2 * ((c.e : ℂ)) ^ 2 * ((c.mass .e : ℂ)) * (ab z0.1 z2.1) * (mb z0.2 (p 2) ρ0) + (-1) * ((c.e : ℂ)) ^ 2 * ((c.mass .e : ℂ)) * (ab z0.1 z2.1) * (mb z0.2 (p 1) ρ0) + (1) * ((c.e : ℂ)) ^ 2 * ((c.mass .e : ℂ)) * (ab z0.1 z2.1) * (mb z0.2 (p 2) ρ0)) * i6 + ((2) * ((c.MW : ℂ)) * ((c.SW : ℂ)) ^ 2 * ((c.e : ℂ)) ^ 2 * ((c.CW : ℂ)⁻¹) * (ab z1.1 z2.1) * (sb z0.2 z3.2) + (-1) * ((c.MW : ℂ)) * ((c.e : ℂ)) ^ 2 * ((c.CW : ℂ)⁻¹) * (ab z1.1 z2.1) * (sb z0.2 z3.2) + (-2) * ((c.SW : ℂ)) ^ 2 * ((c.e : ℂ)) ^ 2 * ((c.mass .e : ℂ)) * (ab z1.1 z3.1) * (sb z0.2 z2.2) + (2) * ((c.SW : ℂ)) ^ 2 * ((c.e : ℂ)) ^ 2 * ((c.mass .e : ℂ)) * (sb z0.2 z1.2) * (sb z2.2 z3.2) + (-2) * ((c.SW : ℂ)) ^ 2 * ((c.e : ℂ)) ^ 2 * ((c.mass .e : ℂ)) * (sb z0.2 z2.2) * (sb z1.2 z3.2) + (2) * ((c.SW : ℂ)) ^ 2 * ((c.e : ℂ)) ^ 2 * (mb z0.2 (p 1) z3.1) * (sb z1.2 z2.2)) * i7 + ((2) * ((c.SW : ℂ)) ^ 2 * ((c.e : ℂ)) ^ 2 * ((c.mass .e : ℂ)) * (mb z0.2 (p 1) ρ0) * (sb z0.2 z2.2) + (-1) * ((c.e : ℂ)) ^ 2 * ((c.mass .e : ℂ)) * (mb z0.2 (p 1) ρ0) * (sb z0.2 z2.2)) * i8 + ((4) * ((c.SW : ℂ)) ^ 2 * ((c.e : ℂ)) ^ 2 * (ab z2.1 z3.1) * (mb z0.2 (p 1) ρ0) + (-4) * ((c.SW : ℂ)) ^ 2 * ((c.e : ℂ)) ^ 2 * (ab z2.1 z3.1) * (mb z0.2 (p 2) ρ0) + (-1) * ((c.e : ℂ)) ^ 2 * (ab z2.1 z3.1) * (mb z0.2 (p 1) ρ0) + (1) * ((c.e : ℂ)) ^ 2 * (ab z2.1 z3.1) * (mb z0.2 (p 2) ρ0)) * i9 + ((4) * ((c.SW : ℂ)) ^ 2 * ((c.e : ℂ)) ^ 2 * (mb z0.2 (p 1) ρ0) * (sb z0.2 z2.2) + (-4) * ((c.SW : ℂ)) ^ 2 * ((c.e : ℂ)) ^ 2 * (mb z0.2 (p 2) ρ0) * (sb z0.2 z2.2) + (-1) * ((c.e : ℂ)) ^ 2 * (mb z0.2 (p 1) ρ0) * (sb z0.2 z2.2) + (1) * ((c.e : ℂ)) ^ 2 * (mb z0.2 (p 2) ρ0) * (sb z0.2 z2.2)) * i10 + ((-4) * ((c.SW : ℂ)) ^ 2 * ((c.e : ℂ)) ^ 2 * ((c.mass .e : ℂ)) * (ab z1.1 ρ0) * (sb z0.2 z2.2) + (2) * ((c.SW : ℂ)) ^ 2 * ((c.e : ℂ)) ^ 2 * (ab z0.1 ρ0) * (sb z0.2 z1.2) * (sb z0.2 z2.2) + (-2) * ((c.SW : ℂ)) ^ 2 * ((c.e : ℂ)) ^ 2 * (mb z0.2 (p 1) ρ0) * (sb z1.2 z2.2) + (4) * ((c.SW : ℂ)) ^ 2 * ((c.e : ℂ)) ^ 2 * (mb z0.2 (p 2) ρ0) * (sb z1.2 z2.2) + (-2) * ((c.SW : ℂ)) ^ 2 * ((c.e : ℂ)) ^ 2 * (mb z2.2 (p 1) ρ0) * (sb z0.2 z1.2) + (1) * ((c.e : ℂ)) ^ 2 * ((c.mass .e : ℂ)) * (ab z1.1 ρ0) * (sb z0.2 z2.2) + (1) * ((c.e : ℂ)) ^ 2 * (mb z0.2 (p 1) ρ0) * (sb z1.2 z2.2) + (-1) * ((c.e : ℂ)) ^ 2 * (mb z0.2 (p 2) ρ0) * (sb z1.2 z2.2)) * i11 + ((4) * ((c.SW : ℂ)) ^ 2 * ((c.e : ℂ)) ^ 2 * (mb z0.2 (p 1) ρ0) * (sb z0.2 z1.2) + (-4) * ((c.SW : ℂ)) ^ 2 * ((c.e : ℂ)) ^ 2 * (mb z0.2 (p 2) ρ0) * (sb z0.2 z1.2) + (-1) * ((c.e : ℂ)) ^ 2 * (mb z0.2 (p 1) ρ0) * (sb z0.2 z1.2) + (1) * ((c.e : ℂ)) ^ 2 * (mb z0.2 (p 2) ρ0) * (sb z0.2 z1.2)) * i12 + ((-2) * ((c.MW : ℂ)) * ((c.SW : ℂ)) ^ 2 * ((c.e : ℂ)) ^ 2 * ((c.CW : ℂ)⁻¹) * (sb z0.2 z2.2) * (sb z1.2 z2.2) + (4) * ((c.SW : ℂ)) ^ 2 * ((c.e : ℂ)) ^ 2 * (mb z2.2 (p 1) z2.1) * (sb z0.2 z1.2) + (-1) * ((c.e : ℂ)) ^ 2 * (mb z0.2 (p 1) z2.1) * (sb z1.2 z2.2) + (-1) * ((c.e : ℂ)) ^ 2 * (mb z2.2 (p 1) z2.1) * (sb z0.2 z1.2)) * i13 + ((-2) * ((c.SW : ℂ)) ^ 2 * ((c.e : ℂ)) ^ 2 * (mb z0.2 (p 1) z2.1) * (sb z1.2 z2.2) + (-4) * ((c.SW : ℂ)) ^ 2 * ((c.e : ℂ)) ^ 2 * (mb z2.2 (p 1) z2.1) * (sb z0.2 z1.2) + (1) * ((c.e : ℂ)) ^ 2 * (mb z0.2 (p 1) z2.1) * (sb z1.2 z2.2) + (1) * ((c.e : ℂ)) ^ 2 * (mb z2.2 (p 1) z2.1) * (sb z0.2 z1.2)) * i14 + ((2) * ((c.SW : ℂ)) ^ 2 * ((c.e : ℂ)) ^ 2 * ((c.mass .e : ℂ)) * (ab z1.1 ρ0) * (sb z0.2 z2.2) + (-2) * ((c.SW : ℂ)) ^ 2 * ((c.e : ℂ)) ^ 2 * (ab z0.1 ρ0) * (sb z0.2 z1.2) * (sb z0.2 z2.2) + (-2) * ((c.SW : ℂ)) ^ 2 * ((c.e : ℂ)) ^ 2 * (mb z0.2 (p 2) ρ0) * (sb z1.2 z2.2) + (2) * ((c.SW : ℂ)) ^ 2 * ((c.e : ℂ)) ^ 2 * (mb z2.2 (p 1) ρ0) * (sb z0.2 z1.2) + (-1) * ((c.e : ℂ)) ^ 2 * (mb z0.2 (p 1) ρ0) * (sb z1.2 z2.2) + (1) * ((c.e : ℂ)) ^ 2 * (mb z0.2 (p 2) ρ0) * (sb z1.2 z2.2)) * i15 + ((-2) * ((c.SW : ℂ)) ^ 2 * ((c.e : ℂ)) ^ 2 * (ab z2.1 z3.1) * (mb z0.2 (p 1) ρ0) + (2) * ((c.SW : ℂ)) ^ 2 * ((c.e : ℂ)) ^ 2 * (ab z2.1 z3.1) * (mb z0.2 (p 2) ρ0) + (1) * ((c.e : ℂ)) ^ 2 * (ab z2.1 z3.1) * (mb z0.2 (p 1) ρ0) + (-1) * ((c.e : ℂ)) ^ 2 * (ab z2.1 z3.1) * (mb z0.2 (p 2) ρ0)) * i16 + ((2) * ((c.SW : ℂ)) ^ 2 * ((c.e : ℂ)) ^ 2 * (N.c 0) * (sb z2.2 z3.2) + (2) * ((c.SW : ℂ)) ^ 2 * ((c.e : ℂ)) ^ 2 * (mb z2.2 (p 1) z0.1) * (sb z0.2 z3.2) + (-1) * ((c.e : ℂ)) ^ 2 * (N.c 0) * (sb z2.2 z3.2) + (-1) * ((c.e : ℂ)) ^ 2 * (mb z2.2 (p 1) z0.1) * (sb z0.2 z3.2)) * i17 + ((4) * ((c.SW : ℂ)) ^ 2 * ((c.e : ℂ)) ^ 2 * (N.c 0) * (ab z3.1 ρ0) + (-1) * ((c.e : ℂ)) ^ 2 * (N.c 0) * (ab z3.1 ρ0)) * i18 + ((4) * ((c.SW : ℂ)) ^ 2 * ((c.e : ℂ)) ^ 2 * ((c.mass .e : ℂ)) * (ab z1.1 z3.1) * (sb z0.2 z2.2) + (-2) * ((c.SW : ℂ)) ^ 2 * ((c.e : ℂ)) ^ 2 * (mb z0.2 (p 1) z3.1) * (sb z1.2 z2.2) + (-1) * ((c.e : ℂ)) ^ 2 * ((c.mass .e : ℂ)) * (ab z1.1 z3.1) * (sb z0.2 z2.2)) * i19 + ((-2) * ((c.SW : ℂ)) ^ 2 * ((c.e : ℂ)) ^ 2 * ((c.mass .e : ℂ)) * (ab z2.1 z3.1) * (sb z0.2 z2.2) + (1) * ((c.e : ℂ)) ^ 2 * ((c.mass .e : ℂ)) * (ab z2.1 z3.1) * (sb z0.2 z2.2)) * i20 + ((2) * ((c.SW : ℂ)) ^ 2 * ((c.e : ℂ)) ^ 2 * (mb z0.2 (p 1) z2.1) * (sb z0.2 z3.2) + (-1) * ((c.e : ℂ)) ^ 2 * (mb z0.2 (p 1) z2.1) * (sb z0.2 z3.2)) * i21 + ((2) * ((c.SW : ℂ)) ^ 2 * ((c.e : ℂ)) ^ 2 * ((c.mass .e : ℂ)) * (ab z3.1 ρ0) * (sb z0.2 z2.2) + (-2) * ((c.SW : ℂ)) ^ 2 * ((c.e : ℂ)) ^ 2 * (mb z2.2 (p 1) ρ0) * (sb z0.2 z3.2) + (1) * ((c.e : ℂ)) ^ 2 * (mb z2.2 (p 1) ρ0) * (sb z0.2 z3.2)) * i22 + ((4) * ((c.SW : ℂ)) ^ 2 * ((c.e : ℂ)) ^ 2 * ((c.mass .e : ℂ)) * (sb z0.2 z1.2) * (sb z0.2 z3.2) + (-1) * ((c.e : ℂ)) ^ 2 * ((c.mass .e : ℂ)) * (sb z0.2 z1.2) * (sb z0.2 z3.2)) * i23 + ((-2) * ((c.SW : ℂ)) ^ 2 * ((c.e : ℂ)) ^ 2 * ((c.mass .e : ℂ)) * (ab z0.1 ρ0) * (sb z0.2 z2.2)) * i24 + ((-2) * ((c.SW : ℂ)) ^ 2 * ((c.e : ℂ)) ^ 2 * (ab z1.1 z2.1) * (mb z0.2 (p 1) ρ0) + (1) * ((c.e : ℂ)) ^ 2 * (ab z1.1 z2.1) * (mb z0.2 (p 1) ρ0)) * i25 + ((-2) * ((c.SW : ℂ)) ^ 2 * ((c.e : ℂ)) ^ 2 * ((c.mass .e : ℂ)) * (ab z2.1 ρ0) * (sb z0.2 z2.2)) * i26 + ((2) * ((c.SW : ℂ)) ^ 2 * ((c.e : ℂ)) ^ 2 * (ab z1.1 z2.1) * (mb z0.2 (p 1) ρ0) + (-1) * ((c.e : ℂ)) ^ 2 * (ab z1.1 z2.1) * (mb z0.2 (p 1) ρ0)) * i27 + ((-2) * ((c.SW : ℂ)) ^ 2 * ((c.e : ℂ)) ^ 2 * (N.c 0) * (sb z1.2 z2.2) + (-2) * ((c.SW : ℂ)) ^ 2 * ((c.e : ℂ)) ^ 2 * (mb z2.2 (p 1) z0.1) * (sb z0.2 z1.2)) * i28 + ((2) * ((c.SW : ℂ)) ^ 2 * ((c.e : ℂ)) ^ 2 * (mb z2.2 (p 1) z0.1) * (sb z0.2 z1.2)) * i29 + ((2) * ((c.MW : ℂ)) * ((c.SW : ℂ)) ^ 2 * ((c.e : ℂ)) ^ 2 * ((c.CW : ℂ)⁻¹) * (sb z0.2 z1.2) * (sb z0.2 z2.2) + (2) * ((c.SW : ℂ)) ^ 2 * ((c.e : ℂ)) ^ 2 * (mb z0.2 (p 1) z2.1) * (sb z0.2 z1.2)) * i30)) * ((1) * ((c.CW : ℂ)) * ((c.CW : ℂ)⁻¹) * ((c.MW : ℂ)⁻¹) * ((c.SW : ℂ)⁻¹) * ((N.c 0)⁻¹) * ((N.c 1)⁻¹)) + ((-2) * ((c.CW : ℂ)) * ((c.SW : ℂ)) ^ 2 * ((c.e : ℂ)) ^ 2 * ((c.CW : ℂ)⁻¹) * ((c.MW : ℂ)⁻¹) * ((c.SW : ℂ)⁻¹) * ((c.mass .e : ℂ)) * ((N.c 1)⁻¹) * (ab z1.1 ρ0) * (ab z2.1 z3.1) * (sb z0.2 z2.2) + (2) * ((c.CW : ℂ)) * ((c.SW : ℂ)) ^ 2 * ((c.e : ℂ)) ^ 2 * ((c.CW : ℂ)⁻¹) * ((c.MW : ℂ)⁻¹) * ((c.SW : ℂ)⁻¹) * ((c.mass .e : ℂ)) * ((N.c 1)⁻¹) * (ab z2.1 ρ0) * (sb z0.2 z1.2) * (sb z2.2 z3.2) + (-2) * ((c.CW : ℂ)) * ((c.SW : ℂ)) ^ 2 * ((c.e : ℂ)) ^ 2 * ((c.CW : ℂ)⁻¹) * ((c.MW : ℂ)⁻¹) * ((c.SW : ℂ)⁻¹) * ((N.c 1)⁻¹) * (ab z0.1 ρ0) * (ab z2.1 z3.1) * (sb z0.2 z1.2) * (sb z0.2 z2.2) + (2) * ((c.CW : ℂ)) * ((c.SW : ℂ)) ^ 2 * ((c.e : ℂ)) ^ 2 * ((c.CW : ℂ)⁻¹) * ((c.MW : ℂ)⁻¹) * ((c.SW : ℂ)⁻¹) * ((N.c 1)⁻¹) * (ab z1.1 ρ0) * (mb z0.2 (p 1) z2.1) * (sb z2.2 z3.2) + (2) * ((c.CW : ℂ)) * ((c.SW : ℂ)) ^ 2 * ((c.e : ℂ)) ^ 2 * ((c.CW : ℂ)⁻¹) * ((c.MW : ℂ)⁻¹) * ((c.SW : ℂ)⁻¹) * ((N.c 1)⁻¹) * (ab z2.1 z3.1) * (mb z2.2 (p 1) ρ0) * (sb z0.2 z1.2) + (-1) * ((c.CW : ℂ)) * ((c.e : ℂ)) ^ 2 * ((c.CW : ℂ)⁻¹) * ((c.MW : ℂ)⁻¹) * ((c.SW : ℂ)⁻¹) * ((c.mass .e : ℂ)) * ((N.c 1)⁻¹) * (ab z2.1 ρ0) * (sb z0.2 z1.2) * (sb z2.2 z3.2) + (-1) * ((c.CW : ℂ)) * ((c.e : ℂ)) ^ 2 * ((c.CW : ℂ)⁻¹) * ((c.MW : ℂ)⁻¹) * ((c.SW : ℂ)⁻¹) * ((N.c 1)⁻¹) * (ab z1.1 ρ0) * (mb z0.2 (p 1) z2.1) * (sb z2.2 z3.2)) * y0 + ((-2) * ((c.CW : ℂ)) * ((c.MW : ℂ)) * ((c.SW : ℂ)) ^ 2 * ((c.e : ℂ)) ^ 2 * ((c.CW : ℂ)⁻¹) ^ 2 * ((c.MW : ℂ)⁻¹) * ((c.SW : ℂ)⁻¹) * ((N.c 0)⁻¹) * (ab z1.1 z2.1) * (ab z2.1 ρ0) * (sb z0.2 z3.2) + (2) * ((c.CW : ℂ)) * ((c.MW : ℂ)) * ((c.SW : ℂ)) ^ 2 * ((c.e : ℂ)) ^ 2 * ((c.CW : ℂ)⁻¹) ^ 2 * ((c.MW : ℂ)⁻¹) * ((c.SW : ℂ)⁻¹) * ((N.c 0)⁻¹) * (ab z3.1 ρ0) * (sb z0.2 z2.2) * (sb z1.2 z2.2) + (1) * ((c.CW : ℂ)) * ((c.MW : ℂ)) * ((c.e : ℂ)) ^ 2 * ((c.CW : ℂ)⁻¹) ^ 2 * ((c.MW : ℂ)⁻¹) * ((c.SW : ℂ)⁻¹) * ((N.c 0)⁻¹) * (ab z1.1 z2.1) * (ab z2.1 ρ0) * (sb z0.2 z3.2) + (-2) * ((c.CW : ℂ)) * ((c.SW : ℂ)) ^ 2 * ((c.e : ℂ)) ^ 2 * ((c.CW : ℂ)⁻¹) * ((c.MW : ℂ)⁻¹) * ((c.SW : ℂ)⁻¹) * ((c.mass .e : ℂ)) * ((N.c 0)⁻¹) * (ab z1.1 z2.1) * (ab z3.1 ρ0) * (sb z0.2 z2.2) + (2) * ((c.CW : ℂ)) * ((c.SW : ℂ)) ^ 2 * ((c.e : ℂ)) ^ 2 * ((c.CW : ℂ)⁻¹) * ((c.MW : ℂ)⁻¹) * ((c.SW : ℂ)⁻¹) * ((c.mass .e : ℂ)) * ((N.c 0)⁻¹) * (ab z2.1 ρ0) * (sb z0.2 z3.2) * (sb z1.2 z2.2) + (2) * ((c.CW : ℂ)) * ((c.SW : ℂ)) ^ 2 * ((c.e : ℂ)) ^ 2 * ((c.CW : ℂ)⁻¹) * ((c.MW : ℂ)⁻¹) * ((c.SW : ℂ)⁻¹) * ((N.c 0)⁻¹) * (ab z1.1 z2.1) * (mb z2.2 (p 1) ρ0) * (sb z0.2 z3.2) + (2) * ((c.CW : ℂ)) * ((c.SW : ℂ)) ^ 2 * ((c.e : ℂ)) ^ 2 * ((c.CW : ℂ)⁻¹) * ((c.MW : ℂ)⁻¹) * ((c.SW : ℂ)⁻¹) * ((N.c 0)⁻¹) * (ab z3.1 ρ0) * (mb z0.2 (p 1) z2.1) * (sb z1.2 z2.2) + (1) * ((c.CW : ℂ)) * ((c.e : ℂ)) ^ 2 * ((c.CW : ℂ)⁻¹) * ((c.MW : ℂ)⁻¹) * ((c.SW : ℂ)⁻¹) * ((c.mass .e : ℂ)) * ((N.c 0)⁻¹) * (ab z1.1 z2.1) * (ab z3.1 ρ0) * (sb z0.2 z2.2) + (-1) * ((c.CW : ℂ)) * ((c.e : ℂ)) ^ 2 * ((c.CW : ℂ)⁻¹) * ((c.MW : ℂ)⁻¹) * ((c.SW : ℂ)⁻¹) * ((N.c 0)⁻¹) * (ab z1.1 z2.1) * (mb z2.2 (p 1) ρ0) * (sb z0.2 z3.2)) * y1 + ((1) * ((c.MW : ℂ)) * (((√2 : ℝ) : ℂ)) ^ 2 * ((c.SW : ℂ)) ^ 2 * ((c.e : ℂ)) ^ 2 * ((c.CW : ℂ)⁻¹) * ((c.MW : ℂ)⁻¹) * ((c.SW : ℂ)⁻¹) * ((N.c 0)⁻¹) * (ab z1.1 z2.1) * (ab z2.1 ρ0) * (sb z0.2 z3.2) + (-1) * ((c.MW : ℂ)) * (((√2 : ℝ) : ℂ)) ^ 2 * ((c.SW : ℂ)) ^ 2 * ((c.e : ℂ)) ^ 2 * ((c.CW : ℂ)⁻¹) * ((c.MW : ℂ)⁻¹) * ((c.SW : ℂ)⁻¹) * ((N.c 0)⁻¹) * (ab z3.1 ρ0) * (sb z0.2 z2.2) * (sb z1.2 z2.2) + (-1) * ((c.MW : ℂ)) * (((√2 : ℝ) : ℂ)) ^ 2 * ((c.e : ℂ)) ^ 2 * ((c.CW : ℂ)⁻¹) * ((c.MW : ℂ)⁻¹) * ((c.SW : ℂ)⁻¹) * ((N.c 0)⁻¹) * (ab z1.1 z2.1) * (ab z2.1 ρ0) * (sb z0.2 z3.2) / (2) + (2) * ((c.MW : ℂ)) * ((c.SW : ℂ)) ^ 2 * ((c.e : ℂ)) ^ 2 * ((c.CW : ℂ)⁻¹) * ((c.MW : ℂ)⁻¹) * ((c.SW : ℂ)⁻¹) * ((N.c 0)⁻¹) * ((N.c 1)⁻¹) * (ab z0.1 ρ0) * (ab z1.1 z2.1) * (mb z0.2 (p 1) z2.1) * (sb z0.2 z3.2) + (2) * ((c.MW : ℂ)) * ((c.SW : ℂ)) ^ 2 * ((c.e : ℂ)) ^ 2 * ((c.CW : ℂ)⁻¹) * ((c.MW : ℂ)⁻¹) * ((c.SW : ℂ)⁻¹) * ((N.c 0)⁻¹) * ((N.c 1)⁻¹) * (ab z0.1 ρ0) * (ab z2.1 z3.1) * (mb z0.2 (p 1) z2.1) * (sb z0.2 z1.2) + (-2) * ((c.MW : ℂ)) * ((c.SW : ℂ)) ^ 2 * ((c.e : ℂ)) ^ 2 * ((c.CW : ℂ)⁻¹) * ((c.MW : ℂ)⁻¹) * ((c.SW : ℂ)⁻¹) * ((N.c 0)⁻¹) * (ab z1.1 z2.1) * (ab z2.1 ρ0) * (sb z0.2 z3.2) + (2) * ((c.MW : ℂ)) * ((c.SW : ℂ)) ^ 2 * ((c.e : ℂ)) ^ 2 * ((c.CW : ℂ)⁻¹) * ((c.MW : ℂ)⁻¹) * ((c.SW : ℂ)⁻¹) * ((N.c 0)⁻¹) * (ab z3.1 ρ0) * (sb z0.2 z2.2) * (sb z1.2 z2.2) + (-1) * ((c.MW : ℂ)) * ((c.e : ℂ)) ^ 2 * ((c.CW : ℂ)⁻¹) * ((c.MW : ℂ)⁻¹) * ((c.SW : ℂ)⁻¹) * ((N.c 0)⁻¹) * ((N.c 1)⁻¹) * (ab z0.1 ρ0) * (ab z1.1 z2.1) * (mb z0.2 (p 1) z2.1) * (sb z0.2 z3.2) + (1) * ((c.MW : ℂ)) * ((c.e : ℂ)) ^ 2 * ((c.CW : ℂ)⁻¹) * ((c.MW : ℂ)⁻¹) * ((c.SW : ℂ)⁻¹) * ((N.c 0)⁻¹) * (ab z1.1 z2.1) * (ab z2.1 ρ0) * (sb z0.2 z3.2) + (2) * ((c.MW : ℂ)) ^ 2 * ((c.SW : ℂ)) ^ 2 * ((c.e : ℂ)) ^ 2 * ((c.CW : ℂ)⁻¹) ^ 2 * ((c.MW : ℂ)⁻¹) * ((c.SW : ℂ)⁻¹) * ((N.c 0)⁻¹) * ((N.c 1)⁻¹) * (ab z0.1 ρ0) * (ab z2.1 z3.1) * (sb z0.2 z1.2) * (sb z0.2 z2.2) + (1) * (((√2 : ℝ) : ℂ)) ^ 2 * ((c.SW : ℂ)) ^ 2 * ((c.e : ℂ)) ^ 2 * ((c.MW : ℂ)⁻¹) * ((c.SW : ℂ)⁻¹) * ((c.mass .e : ℂ)) * ((N.c 0)⁻¹) * (ab z1.1 z2.1) * (ab z3.1 ρ0) * (sb z0.2 z2.2) + (-1) * (((√2 : ℝ) : ℂ)) ^ 2 * ((c.SW : ℂ)) ^ 2 * ((c.e : ℂ)) ^ 2 * ((c.MW : ℂ)⁻¹) * ((c.SW : ℂ)⁻¹) * ((c.mass .e : ℂ)) * ((N.c 0)⁻¹) * (ab z2.1 ρ0) * (sb z0.2 z3.2) * (sb z1.2 z2.2) + (1) * (((√2 : ℝ) : ℂ)) ^ 2 * ((c.SW : ℂ)) ^ 2 * ((c.e : ℂ)) ^ 2 * ((c.MW : ℂ)⁻¹) * ((c.SW : ℂ)⁻¹) * ((c.mass .e : ℂ)) * ((N.c 1)⁻¹) * (ab z1.1 ρ0) * (ab z2.1 z3.1) * (sb z0.2 z2.2) + (-1) * (((√2 : ℝ) : ℂ)) ^ 2 * ((c.SW : ℂ)) ^ 2 * ((c.e : ℂ)) ^ 2 * ((c.MW : ℂ)⁻¹) * ((c.SW : ℂ)⁻¹) * ((c.mass .e : ℂ)) * ((N.c 1)⁻¹) * (ab z2.1 ρ0) * (sb z0.2 z1.2) * (sb z2.2 z3.2) + (-1) * (((√2 : ℝ) : ℂ)) ^ 2 * ((c.SW : ℂ)) ^ 2 * ((c.e : ℂ)) ^ 2 * ((c.MW : ℂ)⁻¹) * ((c.SW : ℂ)⁻¹) * ((N.c 0)⁻¹) * (ab z1.1 z2.1) * (mb z2.2 (p 1) ρ0) * (sb z0.2 z3.2) + (-1) * (((√2 : ℝ) : ℂ)) ^ 2 * ((c.SW : ℂ)) ^ 2 * ((c.e : ℂ)) ^ 2 * ((c.MW : ℂ)⁻¹) * ((c.SW : ℂ)⁻¹) * ((N.c 0)⁻¹) * (ab z3.1 ρ0) * (mb z0.2 (p 1) z2.1) * (sb z1.2 z2.2) + (1) * (((√2 : ℝ) : ℂ)) ^ 2 * ((c.SW : ℂ)) ^ 2 * ((c.e : ℂ)) ^ 2 * ((c.MW : ℂ)⁻¹) * ((c.SW : ℂ)⁻¹) * ((N.c 1)⁻¹) * (ab z0.1 ρ0) * (ab z2.1 z3.1) * (sb z0.2 z1.2) * (sb z0.2 z2.2) + (-1) * (((√2 : ℝ) : ℂ)) ^ 2 * ((c.SW : ℂ)) ^ 2 * ((c.e : ℂ)) ^ 2 * ((c.MW : ℂ)⁻¹) * ((c.SW : ℂ)⁻¹) * ((N.c 1)⁻¹) * (ab z1.1 ρ0) * (mb z0.2 (p 1) z2.1) * (sb z2.2 z3.2) + (-1) * (((√2 : ℝ) : ℂ)) ^ 2 * ((c.SW : ℂ)) ^ 2 * ((c.e : ℂ)) ^ 2 * ((c.MW : ℂ)⁻¹) * ((c.SW : ℂ)⁻¹) * ((N.c 1)⁻¹) * (ab z2.1 z3.1) * (mb z2.2 (p 1) ρ0) * (sb z0.2 z1.2) + (-1) * (((√2 : ℝ) : ℂ)) ^ 2 * ((c.e : ℂ)) ^ 2 * ((c.MW : ℂ)⁻¹) * ((c.SW : ℂ)⁻¹) * ((c.mass .e : ℂ)) * ((N.c 0)⁻¹) * (ab z1.1 z2.1) * (ab z3.1 ρ0) * (sb z0.2 z2.2) / (2) + (1) * (((√2 : ℝ) : ℂ)) ^ 2 * ((c.e : ℂ)) ^ 2 * ((c.MW : ℂ)⁻¹) * ((c.SW : ℂ)⁻¹) * ((c.mass .e : ℂ)) * ((N.c 1)⁻¹) * (ab z2.1 ρ0) * (sb z0.2 z1.2) * (sb z2.2 z3.2) / (2) + (1) * (((√2 : ℝ) : ℂ)) ^ 2 * ((c.e : ℂ)) ^ 2 * ((c.MW : ℂ)⁻¹) * ((c.SW : ℂ)⁻¹) * ((N.c 0)⁻¹) * (ab z1.1 z2.1) * (mb z2.2 (p 1) ρ0) * (sb z0.2 z3.2) / (2) + (1) * (((√2 : ℝ) : ℂ)) ^ 2 * ((c.e : ℂ)) ^ 2 * ((c.MW : ℂ)⁻¹) * ((c.SW : ℂ)⁻¹) * ((N.c 1)⁻¹) * (ab z1.1 ρ0) * (mb z0.2 (p 1) z2.1) * (sb z2.2 z3.2) / (2) + (2) * ((c.SW : ℂ)) ^ 2 * ((c.e : ℂ)) ^ 2 * ((c.MW : ℂ)⁻¹) * ((c.SW : ℂ)⁻¹) * ((c.mass .e : ℂ)) * ((N.c 0)⁻¹) * ((N.c 1)⁻¹) * (ab z0.1 ρ0) * (ab z1.1 z2.1) * (mb z0.2 (p 1) z3.1) * (sb z0.2 z2.2) + (2) * ((c.SW : ℂ)) ^ 2 * ((c.e : ℂ)) ^ 2 * ((c.MW : ℂ)⁻¹) * ((c.SW : ℂ)⁻¹) * ((c.mass .e : ℂ)) * ((N.c 0)⁻¹) * ((N.c 1)⁻¹) * (ab z0.1 ρ0) * (ab z2.1 z3.1) * (mb z0.2 (p 2) z1.1) * (sb z0.2 z2.2) + (-2) * ((c.SW : ℂ)) ^ 2 * ((c.e : ℂ)) ^ 2 * ((c.MW : ℂ)⁻¹) * ((c.SW : ℂ)⁻¹) * ((c.mass .e : ℂ)) * ((N.c 0)⁻¹) * (ab z1.1 z2.1) * (ab z3.1 ρ0) * (sb z0.2 z2.2) + (2) * ((c.SW : ℂ)) ^ 2 * ((c.e : ℂ)) ^ 2 * ((c.MW : ℂ)⁻¹) * ((c.SW : ℂ)⁻¹) * ((c.mass .e : ℂ)) * ((N.c 0)⁻¹) * (ab z2.1 ρ0) * (sb z0.2 z3.2) * (sb z1.2 z2.2) + (-2) * ((c.SW : ℂ)) ^ 2 * ((c.e : ℂ)) ^ 2 * ((c.MW : ℂ)⁻¹) * ((c.SW : ℂ)⁻¹) * ((c.mass .e : ℂ)) * ((N.c 1)⁻¹) * (ab z1.1 ρ0) * (ab z2.1 z3.1) * (sb z0.2 z2.2) + (2) * ((c.SW : ℂ)) ^ 2 * ((c.e : ℂ)) ^ 2 * ((c.MW : ℂ)⁻¹) * ((c.SW : ℂ)⁻¹) * ((c.mass .e : ℂ)) * ((N.c 1)⁻¹) * (ab z2.1 ρ0) * (sb z0.2 z1.2) * (sb z2.2 z3.2) + (2) * ((c.SW : ℂ)) ^ 2 * ((c.e : ℂ)) ^ 2 * ((c.MW : ℂ)⁻¹) * ((c.SW : ℂ)⁻¹) * ((c.mass .e : ℂ)) ^ 2 * ((N.c 0)⁻¹) * ((N.c 1)⁻¹) * (ab z0.1 ρ0) * (ab z1.1 z2.1) * (sb z0.2 z2.2) * (sb z0.2 z3.2) + (2) * ((c.SW : ℂ)) ^ 2 * ((c.e : ℂ)) ^ 2 * ((c.MW : ℂ)⁻¹) * ((c.SW : ℂ)⁻¹) * ((N.c 0)⁻¹) * (ab z1.1 z2.1) * (mb z2.2 (p 1) ρ0) * (sb z0.2 z3.2) + (2) * ((c.SW : ℂ)) ^ 2 * ((c.e : ℂ)) ^ 2 * ((c.MW : ℂ)⁻¹) * ((c.SW : ℂ)⁻¹) * ((N.c 0)⁻¹) * (ab z3.1 ρ0) * (mb z0.2 (p 1) z2.1) * (sb z1.2 z2.2) + (-2) * ((c.SW : ℂ)) ^ 2 * ((c.e : ℂ)) ^ 2 * ((c.MW : ℂ)⁻¹) * ((c.SW : ℂ)⁻¹) * ((N.c 1)⁻¹) * (ab z0.1 ρ0) * (ab z2.1 z3.1) * (sb z0.2 z1.2) * (sb z0.2 z2.2) + (2) * ((c.SW : ℂ)) ^ 2 * ((c.e : ℂ)) ^ 2 * ((c.MW : ℂ)⁻¹) * ((c.SW : ℂ)⁻¹) * ((N.c 1)⁻¹) * (ab z1.1 ρ0) * (mb z0.2 (p 1) z2.1) * (sb z2.2 z3.2) + (2) * ((c.SW : ℂ)) ^ 2 * ((c.e : ℂ)) ^ 2 * ((c.MW : ℂ)⁻¹) * ((c.SW : ℂ)⁻¹) * ((N.c 1)⁻¹) * (ab z2.1 z3.1) * (mb z2.2 (p 1) ρ0) * (sb z0.2 z1.2) + (-1) * ((c.e : ℂ)) ^ 2 * ((c.MW : ℂ)⁻¹) * ((c.SW : ℂ)⁻¹) * ((c.mass .e : ℂ)) * ((N.c 0)⁻¹) * ((N.c 1)⁻¹) * (ab z0.1 ρ0) * (ab z1.1 z2.1) * (mb z0.2 (p 1) z3.1) * (sb z0.2 z2.2) + (1) * ((c.e : ℂ)) ^ 2 * ((c.MW : ℂ)⁻¹) * ((c.SW : ℂ)⁻¹) * ((c.mass .e : ℂ)) * ((N.c 0)⁻¹) * (ab z1.1 z2.1) * (ab z3.1 ρ0) * (sb z0.2 z2.2) + (-1) * ((c.e : ℂ)) ^ 2 * ((c.MW : ℂ)⁻¹) * ((c.SW : ℂ)⁻¹) * ((c.mass .e : ℂ)) * ((N.c 1)⁻¹) * (ab z2.1 ρ0) * (sb z0.2 z1.2) * (sb z2.2 z3.2) + (-1) * ((c.e : ℂ)) ^ 2 * ((c.MW : ℂ)⁻¹) * ((c.SW : ℂ)⁻¹) * ((c.mass .e : ℂ)) ^ 2 * ((N.c 0)⁻¹) * ((N.c 1)⁻¹) * (ab z0.1 ρ0) * (ab z1.1 z2.1) * (sb z0.2 z2.2) * (sb z0.2 z3.2) + (-1) * ((c.e : ℂ)) ^ 2 * ((c.MW : ℂ)⁻¹) * ((c.SW : ℂ)⁻¹) * ((N.c 0)⁻¹) * (ab z1.1 z2.1) * (mb z2.2 (p 1) ρ0) * (sb z0.2 z3.2) + (-1) * ((c.e : ℂ)) ^ 2 * ((c.MW : ℂ)⁻¹) * ((c.SW : ℂ)⁻¹) * ((N.c 1)⁻¹) * (ab z1.1 ρ0) * (mb z0.2 (p 1) z2.1) * (sb z2.2 z3.2)) * yCW + ((1) * (((√2 : ℝ) : ℂ)) ^ 2 * ((c.SW : ℂ)) ^ 2 * ((c.e : ℂ)) ^ 2 * ((c.CW : ℂ)⁻¹) * ((c.SW : ℂ)⁻¹) * ((N.c 0)⁻¹) * (ab z1.1 z2.1) * (ab z2.1 ρ0) * (sb z0.2 z3.2) + (-1) * (((√2 : ℝ) : ℂ)) ^ 2 * ((c.SW : ℂ)) ^ 2 * ((c.e : ℂ)) ^ 2 * ((c.CW : ℂ)⁻¹) * ((c.SW : ℂ)⁻¹) * ((N.c 0)⁻¹) * (ab z3.1 ρ0) * (sb z0.2 z2.2) * (sb z1.2 z2.2) + (-1) * (((√2 : ℝ) : ℂ)) ^ 2 * ((c.e : ℂ)) ^ 2 * ((c.CW : ℂ)⁻¹) * ((c.SW : ℂ)⁻¹) * ((N.c 0)⁻¹) * (ab z1.1 z2.1) * (ab z2.1 ρ0) * (sb z0.2 z3.2) / (2) + (-2) * ((c.SW : ℂ)) ^ 2 * ((c.e : ℂ)) ^ 2 * ((c.CW : ℂ)⁻¹) * ((c.SW : ℂ)⁻¹) * ((N.c 0)⁻¹) * (ab z1.1 z2.1) * (ab z2.1 ρ0) * (sb z0.2 z3.2) + (2) * ((c.SW : ℂ)) ^ 2 * ((c.e : ℂ)) ^ 2 * ((c.CW : ℂ)⁻¹) * ((c.SW : ℂ)⁻¹) * ((N.c 0)⁻¹) * (ab z3.1 ρ0) * (sb z0.2 z2.2) * (sb z1.2 z2.2) + (1) * ((c.e : ℂ)) ^ 2 * ((c.CW : ℂ)⁻¹) * ((c.SW : ℂ)⁻¹) * ((N.c 0)⁻¹) * (ab z1.1 z2.1) * (ab z2.1 ρ0) * (sb z0.2 z3.2)) * yMW + ((1) * (((√2 : ℝ) : ℂ)) ^ 2 * ((c.SW : ℂ)) * ((c.e : ℂ)) ^ 2 * ((c.CW : ℂ)⁻¹) * ((N.c 0)⁻¹) * (ab z1.1 z2.1) * (ab z2.1 ρ0) * (sb z0.2 z3.2) + (-1) * (((√2 : ℝ) : ℂ)) ^ 2 * ((c.SW : ℂ)) * ((c.e : ℂ)) ^ 2 * ((c.CW : ℂ)⁻¹) * ((N.c 0)⁻¹) * (ab z3.1 ρ0) * (sb z0.2 z2.2) * (sb z1.2 z2.2) + (1) * (((√2 : ℝ) : ℂ)) ^ 2 * ((c.SW : ℂ)) * ((c.e : ℂ)) ^ 2 * ((c.MW : ℂ)⁻¹) * ((c.mass .e : ℂ)) * ((N.c 0)⁻¹) * (ab z1.1 z2.1) * (ab z3.1 ρ0) * (sb z0.2 z2.2) + (-1) * (((√2 : ℝ) : ℂ)) ^ 2 * ((c.SW : ℂ)) * ((c.e : ℂ)) ^ 2 * ((c.MW : ℂ)⁻¹) * ((c.mass .e : ℂ)) * ((N.c 0)⁻¹) * (ab z2.1 ρ0) * (sb z0.2 z3.2) * (sb z1.2 z2.2) + (1) * (((√2 : ℝ) : ℂ)) ^ 2 * ((c.SW : ℂ)) * ((c.e : ℂ)) ^ 2 * ((c.MW : ℂ)⁻¹) * ((c.mass .e : ℂ)) * ((N.c 1)⁻¹) * (ab z1.1 ρ0) * (ab z2.1 z3.1) * (sb z0.2 z2.2) + (-1) * (((√2 : ℝ) : ℂ)) ^ 2 * ((c.SW : ℂ)) * ((c.e : ℂ)) ^ 2 * ((c.MW : ℂ)⁻¹) * ((c.mass .e : ℂ)) * ((N.c 1)⁻¹) * (ab z2.1 ρ0) * (sb z0.2 z1.2) * (sb z2.2 z3.2) + (-1) * (((√2 : ℝ) : ℂ)) ^ 2 * ((c.SW : ℂ)) * ((c.e : ℂ)) ^ 2 * ((c.MW : ℂ)⁻¹) * ((N.c 0)⁻¹) * (ab z1.1 z2.1) * (mb z2.2 (p 1) ρ0) * (sb z0.2 z3.2) + (-1) * (((√2 : ℝ) : ℂ)) ^ 2 * ((c.SW : ℂ)) * ((c.e : ℂ)) ^ 2 * ((c.MW : ℂ)⁻¹) * ((N.c 0)⁻¹) * (ab z3.1 ρ0) * (mb z0.2 (p 1) z2.1) * (sb z1.2 z2.2) + (1) * (((√2 : ℝ) : ℂ)) ^ 2 * ((c.SW : ℂ)) * ((c.e : ℂ)) ^ 2 * ((c.MW : ℂ)⁻¹) * ((N.c 1)⁻¹) * (ab z0.1 ρ0) * (ab z2.1 z3.1) * (sb z0.2 z1.2) * (sb z0.2 z2.2) + (-1) * (((√2 : ℝ) : ℂ)) ^ 2 * ((c.SW : ℂ)) * ((c.e : ℂ)) ^ 2 * ((c.MW : ℂ)⁻¹) * ((N.c 1)⁻¹) * (ab z1.1 ρ0) * (mb z0.2 (p 1) z2.1) * (sb z2.2 z3.2) + (-1) * (((√2 : ℝ) : ℂ)) ^ 2 * ((c.SW : ℂ)) * ((c.e : ℂ)) ^ 2 * ((c.MW : ℂ)⁻¹) * ((N.c 1)⁻¹) * (ab z2.1 z3.1) * (mb z2.2 (p 1) ρ0) * (sb z0.2 z1.2) + (-2) * ((c.SW : ℂ)) * ((c.e : ℂ)) ^ 2 * ((c.CW : ℂ)⁻¹) * ((N.c 0)⁻¹) * (ab z1.1 z2.1) * (ab z2.1 ρ0) * (sb z0.2 z3.2) + (2) * ((c.SW : ℂ)) * ((c.e : ℂ)) ^ 2 * ((c.CW : ℂ)⁻¹) * ((N.c 0)⁻¹) * (ab z3.1 ρ0) * (sb z0.2 z2.2) * (sb z1.2 z2.2) + (-2) * ((c.SW : ℂ)) * ((c.e : ℂ)) ^ 2 * ((c.MW : ℂ)⁻¹) * ((c.mass .e : ℂ)) * ((N.c 0)⁻¹) * (ab z1.1 z2.1) * (ab z3.1 ρ0) * (sb z0.2 z2.2) + (2) * ((c.SW : ℂ)) * ((c.e : ℂ)) ^ 2 * ((c.MW : ℂ)⁻¹) * ((c.mass .e : ℂ)) * ((N.c 0)⁻¹) * (ab z2.1 ρ0) * (sb z0.2 z3.2) * (sb z1.2 z2.2) + (-2) * ((c.SW : ℂ)) * ((c.e : ℂ)) ^ 2 * ((c.MW : ℂ)⁻¹) * ((c.mass .e : ℂ)) * ((N.c 1)⁻¹) * (ab z1.1 ρ0) * (ab z2.1 z3.1) * (sb z0.2 z2.2) + (2) * ((c.SW : ℂ)) * ((c.e : ℂ)) ^ 2 * ((c.MW : ℂ)⁻¹) * ((c.mass .e : ℂ)) * ((N.c 1)⁻¹) * (ab z2.1 ρ0) * (sb z0.2 z1.2) * (sb z2.2 z3.2) + (2) * ((c.SW : ℂ)) * ((c.e : ℂ)) ^ 2 * ((c.MW : ℂ)⁻¹) * ((N.c 0)⁻¹) * (ab z1.1 z2.1) * (mb z2.2 (p 1) ρ0) * (sb z0.2 z3.2) + (2) * ((c.SW : ℂ)) * ((c.e : ℂ)) ^ 2 * ((c.MW : ℂ)⁻¹) * ((N.c 0)⁻¹) * (ab z3.1 ρ0) * (mb z0.2 (p 1) z2.1) * (sb z1.2 z2.2) + (-2) * ((c.SW : ℂ)) * ((c.e : ℂ)) ^ 2 * ((c.MW : ℂ)⁻¹) * ((N.c 1)⁻¹) * (ab z0.1 ρ0) * (ab z2.1 z3.1) * (sb z0.2 z1.2) * (sb z0.2 z2.2) + (2) * ((c.SW : ℂ)) * ((c.e : ℂ)) ^ 2 * ((c.MW : ℂ)⁻¹) * ((N.c 1)⁻¹) * (ab z1.1 ρ0) * (mb z0.2 (p 1) z2.1) * (sb z2.2 z3.2) + (2) * ((c.SW : ℂ)) * ((c.e : ℂ)) ^ 2 * ((c.MW : ℂ)⁻¹) * ((N.c 1)⁻¹) * (ab z2.1 z3.1) * (mb z2.2 (p 1) ρ0) * (sb z0.2 z1.2)) * ySW + ((1) * ((c.SW : ℂ)) * ((c.e : ℂ)) ^ 2 * ((c.CW : ℂ)⁻¹) * ((N.c 0)⁻¹) * (ab z1.1 z2.1) * (ab z2.1 ρ0) * (sb z0.2 z3.2) + (-1) * ((c.SW : ℂ)) * ((c.e : ℂ)) ^ 2 * ((c.CW : ℂ)⁻¹) * ((N.c 0)⁻¹) * (ab z3.1 ρ0) * (sb z0.2 z2.2) * (sb z1.2 z2.2) + (1) * ((c.SW : ℂ)) * ((c.e : ℂ)) ^ 2 * ((c.MW : ℂ)⁻¹) * ((c.mass .e : ℂ)) * ((N.c 0)⁻¹) * (ab z1.1 z2.1) * (ab z3.1 ρ0) * (sb z0.2 z2.2) + (-1) * ((c.SW : ℂ)) * ((c.e : ℂ)) ^ 2 * ((c.MW : ℂ)⁻¹) * ((c.mass .e : ℂ)) * ((N.c 0)⁻¹) * (ab z2.1 ρ0) * (sb z0.2 z3.2) * (sb z1.2 z2.2) + (1) * ((c.SW : ℂ)) * ((c.e : ℂ)) ^ 2 * ((c.MW : ℂ)⁻¹) * ((c.mass .e : ℂ)) * ((N.c 1)⁻¹) * (ab z1.1 ρ0) * (ab z2.1 z3.1) * (sb z0.2 z2.2) + (-1) * ((c.SW : ℂ)) * ((c.e : ℂ)) ^ 2 * ((c.MW : ℂ)⁻¹) * ((c.mass .e : ℂ)) * ((N.c 1)⁻¹) * (ab z2.1 ρ0) * (sb z0.2 z1.2) * (sb z2.2 z3.2) + (-1) * ((c.SW : ℂ)) * ((c.e : ℂ)) ^ 2 * ((c.MW : ℂ)⁻¹) * ((N.c 0)⁻¹) * (ab z1.1 z2.1) * (mb z2.2 (p 1) ρ0) * (sb z0.2 z3.2) + (-1) * ((c.SW : ℂ)) * ((c.e : ℂ)) ^ 2 * ((c.MW : ℂ)⁻¹) * ((N.c 0)⁻¹) * (ab z3.1 ρ0) * (mb z0.2 (p 1) z2.1) * (sb z1.2 z2.2) + (1) * ((c.SW : ℂ)) * ((c.e : ℂ)) ^ 2 * ((c.MW : ℂ)⁻¹) * ((N.c 1)⁻¹) * (ab z0.1 ρ0) * (ab z2.1 z3.1) * (sb z0.2 z1.2) * (sb z0.2 z2.2) + (-1) * ((c.SW : ℂ)) * ((c.e : ℂ)) ^ 2 * ((c.MW : ℂ)⁻¹) * ((N.c 1)⁻¹) * (ab z1.1 ρ0) * (mb z0.2 (p 1) z2.1) * (sb z2.2 z3.2) + (-1) * ((c.SW : ℂ)) * ((c.e : ℂ)) ^ 2 * ((c.MW : ℂ)⁻¹) * ((N.c 1)⁻¹) * (ab z2.1 z3.1) * (mb z2.2 (p 1) ρ0) * (sb z0.2 z1.2) + (-1) * ((c.e : ℂ)) ^ 2 * ((c.CW : ℂ)⁻¹) * ((c.SW : ℂ)⁻¹) * ((N.c 0)⁻¹) * (ab z1.1 z2.1) * (ab z2.1 ρ0) * (sb z0.2 z3.2) / (2) + (-1) * ((c.e : ℂ)) ^ 2 * ((c.MW : ℂ)⁻¹) * ((c.SW : ℂ)⁻¹) * ((c.mass .e : ℂ)) * ((N.c 0)⁻¹) * (ab z1.1 z2.1) * (ab z3.1 ρ0) * (sb z0.2 z2.2) / (2) + (1) * ((c.e : ℂ)) ^ 2 * ((c.MW : ℂ)⁻¹) * ((c.SW : ℂ)⁻¹) * ((c.mass .e : ℂ)) * ((N.c 1)⁻¹) * (ab z2.1 ρ0) * (sb z0.2 z1.2) * (sb z2.2 z3.2) / (2) + (1) * ((c.e : ℂ)) ^ 2 * ((c.MW : ℂ)⁻¹) * ((c.SW : ℂ)⁻¹) * ((N.c 0)⁻¹) * (ab z1.1 z2.1) * (mb z2.2 (p 1) ρ0) * (sb z0.2 z3.2) / (2) + (1) * ((c.e : ℂ)) ^ 2 * ((c.MW : ℂ)⁻¹) * ((c.SW : ℂ)⁻¹) * ((N.c 1)⁻¹) * (ab z1.1 ρ0) * (mb z0.2 (p 1) z2.1) * (sb z2.2 z3.2) / (2)) * x22
theorem AeZe.keyM {c : Constants} {p : Nat → V4 ℝ} {N : Env} (hc : c.Physical) (hb : Balanced p) (r1 : N.r 1 = (c.mass .e)) (r5 : N.r 5 = (c.MW / c.CW)) (r7 : N.r 7 = ((c.e * c.e) / (c.MW * c.SW))) (r9 : N.r 9 = (((((2 : Nat) : ℝ) * c.SW) * c.SW) - ((1 : Nat) : ℝ))) (r10 : N.r 10 = ((((2 : Nat) : ℝ) * c.SW) * c.SW)) (d0 : ((msq (plus (p 1) (backward (p 2))) - c.mass .e ^ 2 : ℝ) : ℂ) = N.c 0) (n0 : N.c 0 ≠ 0) (d1 : ((msq (plus (p 1) (p 0)) - c.mass .e ^ 2 : ℝ) : ℂ) = N.c 1) (n1 : N.c 1 ≠ 0) {z0 z1 z2 z3 : Pair} (b1 : Bold (p 1) (c.mass .e) z1) (b2 : Bold (p 2) c.MZ z2) (b3 : Bold (p 3) (c.mass .e) z3) (l0 : Light (p 0) z0) (e01 : mb z0.2 (p 1) z0.1 = N.c 1) (e03 : mb z0.2 (p 3) z0.1 = -N.c 0) (q1 : msq (p 1) = (c.mass .e) ^ 2) (q2 : msq (p 2) = c.MZ ^ 2) (q3 : msq (p 3) = (c.mass .e) ^ 2) (ρ0 : V2) :
    AeZe.formM N p z0 z1 z2 z2 z3 * sb ρ0 z0.2 = ((√2 : ℝ) * ((-1 : ℂ) * ((√2 / c.MZ : ℝ) : ℂ))) * AeZe.react.bare c p 3 1 0 2 z3 z1 (pv z0.1 ρ0) (pv z2.1 z2.2) := by
  rw [AeZe.react.bare_parts c p (i := 3) (j := 1) (a := 0) (b := 2) (x := .photon) (y := .z) (k := (p 0)) (k' := (backward (p 2))) (fun _ => rfl) (fun _ => rfl) (f := .e) (g := .e) rfl rfl (l := (p 1)) rfl (e := 1) (e' := 1) (if_neg Bool.false_ne_true) (if_neg Bool.false_ne_true)]
  rw [compton_vv (f := .e) (x := .e) (g := .e) (h := (rfl : Spec.after .photon Flavour.e = some Flavour.e)) (h' := (rfl : Spec.after .z Flavour.e = some Flavour.e)) (ha := by simp) (hb := by simp)]
  rw [compton_vv (f := .e) (x := .e) (g := .e) (h := (rfl : Spec.after .z Flavour.e = some Flavour.e)) (h' := (rfl : Spec.after .photon Flavour.e = some Flavour.e)) (ha := by simp) (hb := by simp)]
  rw [annihilation_none c _ _ (by rfl) (by simp), star_zero, add_zero, AeZe.formM]
  simp only [d0, d1, lineV_pv, lineV_four, contract_four_pv, contract_pv, mb_plus, mb_backward]
  have i0 := mb_schouten_left z0.2 z1.2 z2.2 (p 1) z0.1
  have i1 := mb_schouten_right ρ0 (p 1) z0.1 z1.1 z2.1
  have i2 := mb_schouten_left z0.2 z1.2 ρ0 (p 1) z0.1
  have i3 := mb_schouten_left z0.2 z2.2 ρ0 (p 1) z0.1
  have i4 := mb_schouten_left z0.2 z1.2 z2.2 (p 2) z0.1
  have i5 := mb_schouten_right z0.2 (p 2) z0.1 z1.1 z3.1
  have i6 := mb_schouten_right z0.2 (p 1) z0.1 z1.1 z3.1
  have i7 := ab_schouten z1.1 z2.1 z3.1 z0.1
  have i8 := mb_schouten_left z0.2 z1.2 ρ0 (p 2) z0.1
  have i9 := mb_schouten_right z2.2 (p 1) z0.1 z2.1 z3.1
  have i10 := mb_schouten_right ρ0 (p 2) z0.1 z2.1 z3.1
  have i11 := mb_schouten_right ρ0 (p 1) z0.1 z2.1 z3.1
  have i12 := mb_schouten_right z1.2 (p 2) z0.1 z2.1 z3.1
  have i13 := sb_schouten z1.2 z3.2 ρ0 z0.2
  have i14 := sb_schouten z2.2 z3.2 ρ0 z0.2
  have i15 := sb_schouten z1.2 z2.2 z3.2 z0.2
  have i16 := sb_schouten z2.2 z3.2 ρ0 z1.2
  have i17 := mb_schouten_left z0.2 z2.2 z3.2 (p 2) z0.1
  have i18 := mb_schouten_left z0.2 z2.2 z3.2 (p 1) z0.1
  have i19 := mb_schouten_right z3.2 (p 1) z0.1 z1.1 z2.1
  have i20 := mb_schouten_left z0.2 z1.2 z3.2 (p 1) z0.1
  have i21 := mb_schouten_right z2.2 (p 1) z0.1 z1.1 z2.1
  have i22 := mb_schouten_right z0.2 (p 2) z0.1 z1.1 z2.1
  have i23 := sb_schouten z1.2 z2.2 ρ0 z0.2
  have i24 := mb_schouten_left z0.2 z3.2 ρ0 (p 1) z0.1
  have i25 := mb_schouten_left z0.2 z1.2 z3.2 (p 2) z0.1
  have i26 := mb_schouten_right z2.2 (p 1) z0.1 z1.1 z3.1
  simp only [l0.mb_eq, b1.mb_left, b1.mb_right, b2.mb_left, b2.mb_right, b3.mb_left, b3.mb_right, e01, e03, mb_two hb z0.2 z0.1, mb_three hb z0.2 z1.1, mb_three hb z0.2 z2.1, mb_two hb z0.2 z3.1, mb_three hb z1.2 z0.1, mb_three hb z1.2 z1.1, mb_three hb z1.2 z2.1, mb_two hb z1.2 z3.1, mb_three hb z2.2 z0.1, mb_three hb z2.2 z1.1, mb_three hb z2.2 z2.1, mb_one hb z2.2 z3.1, mb_two hb z3.2 z0.1, mb_two hb z3.2 z1.1, mb_one hb z3.2 z2.1, mb_two hb z3.2 z3.1, mb_three hb ρ0 z0.1, mb_three hb ρ0 z1.1, mb_three hb ρ0 z2.1, mb_two hb ρ0 z3.1, ab_self, sb_self] at i0 i1 i2 i3 i4 i5 i6 i7 i8 i9 i10 i11 i12 i13 i14 i15 i16 i17 i18 i19 i20 i21 i22 i23 i24 i25 i26 ⊢
  simp only [ab_swap z0.1 z1.1, ab_swap z0.1 z2.1, ab_swap z0.1 z3.1, ab_swap z1.1 z2.1, ab_swap z1.1 z3.1, ab_swap z2.1 z3.1, sb_swap z0.2 z1.2, sb_swap z0.2 z2.2, sb_swap z0.2 z3.2, sb_swap z0.2 ρ0, sb_swap z1.2 z2.2, sb_swap z1.2 z3.2, sb_swap z1.2 ρ0, sb_swap z2.2 z3.2, sb_swap z2.2 ρ0, sb_swap z3.2 ρ0] at i0 i1 i2 i3 i4 i5 i6 i7 i8 i9 i10 i11 i12 i13 i14 i15 i16 i17 i18 i19 i20 i21 i22 i23 i24 i25 i26 ⊢
  simp only [r1, r5, r7, r9, r10, Constants.hL, Constants.hR, Constants.gL, Constants.gR, Constants.yuk, Constants.invVev, Flavour.charge_e, Flavour.isospin_e, ← c.mz]
  have xMW : (c.MW : ℂ) ≠ 0 := by exact_mod_cast hc.MW
  have xSW : (c.SW : ℂ) ≠ 0 := by exact_mod_cast hc.SW
  have xCW : (c.CW : ℂ) ≠ 0 := by exact_mod_cast hc.CW
  have x2 : ((√2 : ℝ) : ℂ) ≠ 0 := by exact_mod_cast (Real.sqrt_pos.2 two_pos).ne'
  have x22 : ((√2 : ℝ) : ℂ) ^ 2 = 2 := by rw [← Complex.ofReal_pow, Real.sq_sqrt two_pos.le]; norm_num
  have x23 : ((√2 : ℝ) : ℂ) ^ 3 = 2 * ((√2 : ℝ) : ℂ) := by rw [← x22]; ring
  have x24 : ((√2 : ℝ) : ℂ) ^ 4 = 4 := by linear_combination (((√2 : ℝ) : ℂ) ^ 2 + 2) * x22
  try simp only [← c.mz] at i0 i1 i2 i3 i4 i5 i6 i7 i8 i9 i10 i11 i12 i13 i14 i15 i16 i17 i18 i19 i20 i21 i22 i23 i24 i25 i26
  push_cast at i0 i1 i2 i3 i4 i5 i6 i7 i8 i9 i10 i11 i12 i13 i14 i15 i16 i17 i18 i19 i20 i21 i22 i23 i24 i25 i26 ⊢
  simp only [div_eq_mul_inv, mul_inv, inv_inv] at i0 i1 i2 i3 i4 i5 i6 i7 i8 i9 i10 i11 i12 i13 i14 i15 i16 i17 i18 i19 i20 i21 i22 i23 i24 i25 i26 ⊢
  have y0 := mul_inv_cancel₀ n0
  have y1 := mul_inv_cancel₀ n1
  have yCW := mul_inv_cancel₀ xCW
  have yMW := mul_inv_cancel₀ xMW
  have ySW := mul_inv_cancel₀ xSW
  linear_combination ((((2) * ((c.MW : ℂ)) * ((c.SW : ℂ)) ^ 2 * ((c.e : ℂ)) ^ 2 * ((c.CW : ℂ)⁻¹) * (ab z0.1 z3.1) * (sb z2.2 ρ0) + (4) * ((c.SW : ℂ)) ^ 2 * ((c.e : ℂ)) ^ 2 * ((c.mass .e : ℂ)) * (ab z0.1 z2.1) * (sb z3.2 ρ0) + (-2) * ((c.SW : ℂ)) ^ 2 * ((c.e : ℂ)) ^ 2 * (ab z0.1 z3.1) * (mb ρ0 (p 1) z2.1) + (-2) * ((c.e : ℂ)) ^ 2 * ((c.mass .e : ℂ)) * (ab z0.1 z2.1) * (sb z3.2 ρ0)) * i0 + ((2) * ((c.MW : ℂ)) * ((c.SW : ℂ)) ^ 2 * ((c.e : ℂ)) ^ 2 * ((c.CW : ℂ)⁻¹) * (ab z0.1 z2.1) * (sb z0.2 z3.2) + (-1) * ((c.MW : ℂ)) * ((c.e : ℂ)) ^ 2 * ((c.CW : ℂ)⁻¹) * (ab z0.1 z2.1) * (sb z0.2 z3.2) + (4) * ((c.SW : ℂ)) ^ 2 * ((c.e : ℂ)) ^ 2 * ((c.mass .e : ℂ)) * (ab z0.1 z3.1) * (sb z0.2 z2.2) + (2) * ((c.SW : ℂ)) ^ 2 * ((c.e : ℂ)) ^ 2 * (mb z2.2 (p 1) z0.1) * (sb z0.2 z3.2) + (-1) * ((c.e : ℂ)) ^ 2 * ((c.mass .e : ℂ)) * (ab z0.1 z3.1) * (sb z0.2 z2.2) + (-1) * ((c.e : ℂ)) ^ 2 * (mb z2.2 (p 1) z0.1) * (sb z0.2 z3.2)) * i1 + ((-2) * ((c.MW : ℂ)) * ((c.SW : ℂ)) ^ 2 * ((c.e : ℂ)) ^ 2 * ((c.CW : ℂ)⁻¹) * (ab z0.1 z2.1) * (ab z2.1 z3.1) + (4) * ((c.SW : ℂ)) ^ 2 * ((c.e : ℂ)) ^ 2 * ((c.mass .e : ℂ)) * (ab z0.1 z2.1) * (sb z2.2 z3.2) + (-2) * ((c.SW : ℂ)) ^ 2 * ((c.e : ℂ)) ^ 2 * (ab z0.1 z2.1) * (ab z0.1 z3.1) * (sb z0.2 z2.2) + (2) * ((c.SW : ℂ)) ^ 2 * ((c.e : ℂ)) ^ 2 * (ab z0.1 z3.1) * (mb z2.2 (p 1) z2.1) + (-1) * ((c.e : ℂ)) ^ 2 * ((c.mass .e : ℂ)) * (ab z0.1 z2.1) * (sb z2.2 z3.2)) * i2 + ((4) * ((c.SW : ℂ)) ^ 2 * ((c.e : ℂ)) ^ 2 * ((c.mass .e : ℂ)) * (ab z0.1 z1.1) * (ab z2.1 z3.1) + (-4) * ((c.SW : ℂ)) ^ 2 * ((c.e : ℂ)) ^ 2 * ((c.mass .e : ℂ)) * (ab z0.1 z2.1) * (ab z1.1 z3.1) + (-2) * ((c.SW : ℂ)) ^ 2 * ((c.e : ℂ)) ^ 2 * ((c.mass .e : ℂ)) * (ab z0.1 z2.1) * (sb z1.2 z3.2) + (-1) * ((c.e : ℂ)) ^ 2 * ((c.mass .e : ℂ)) * (ab z0.1 z1.1) * (ab z2.1 z3.1) + (1) * ((c.e : ℂ)) ^ 2 * ((c.mass .e : ℂ)) * (ab z0.1 z2.1) * (ab z1.1 z3.1) + (1) * ((c.e : ℂ)) ^ 2 * ((c.mass .e : ℂ)) * (ab z0.1 z2.1) * (sb z1.2 z3.2)) * i3 + ((-2) * ((c.SW : ℂ)) ^ 2 * ((c.e : ℂ)) ^ 2 * ((c.mass .e : ℂ)) * (ab z0.1 z2.1) * (sb z3.2 ρ0) + (1) * ((c.e : ℂ)) ^ 2 * ((c.mass .e : ℂ)) * (ab z0.1 z2.1) * (sb z3.2 ρ0)) * i4 + ((-2) * ((c.SW : ℂ)) ^ 2 * ((c.e : ℂ)) ^ 2 * ((c.mass .e : ℂ)) * (ab z0.1 z2.1) * (sb z2.2 ρ0)) * i5 + ((2) * ((c.SW : ℂ)) ^ 2 * ((c.e : ℂ)) ^ 2 * ((c.mass .e : ℂ)) * (ab z0.1 z2.1) * (sb z2.2 ρ0)) * i6 + ((-2) * ((c.SW : ℂ)) ^ 2 * ((c.e : ℂ)) ^ 2 * ((c.mass .e : ℂ)) * (N.c 0) * (sb z2.2 ρ0) + (-4) * ((c.SW : ℂ)) ^ 2 * ((c.e : ℂ)) ^ 2 * ((c.mass .e : ℂ)) * (N.c 1) * (sb z2.2 ρ0) + (2) * ((c.SW : ℂ)) ^ 2 * ((c.e : ℂ)) ^ 2 * ((c.mass .e : ℂ)) * (mb z2.2 (p 1) z0.1) * (sb z0.2 ρ0) + (-4) * ((c.SW : ℂ)) ^ 2 * ((c.e : ℂ)) ^ 2 * ((c.mass .e : ℂ)) * (mb ρ0 (p 1) z0.1) * (sb z0.2 z2.2) + (1) * ((c.e : ℂ)) ^ 2 * ((c.mass .e : ℂ)) * (N.c 1) * (sb z2.2 ρ0) + (1) * ((c.e : ℂ)) ^ 2 * ((c.mass .e : ℂ)) * (mb ρ0 (p 1) z0.1) * (sb z0.2 z2.2)) * i7 + ((2) * ((c.MW : ℂ)) * ((c.SW : ℂ)) ^ 2 * ((c.e : ℂ)) ^ 2 * ((c.CW : ℂ)⁻¹) * (ab z0.1 z2.1) * (ab z2.1 z3.1) + (-2) * ((c.SW : ℂ)) ^ 2 * ((c.e : ℂ)) ^ 2 * ((c.mass .e : ℂ)) * (ab z0.1 z2.1) * (sb z2.2 z3.2) + (2) * ((c.SW : ℂ)) ^ 2 * ((c.e : ℂ)) ^ 2 * (ab z0.1 z2.1) * (ab z0.1 z3.1) * (sb z0.2 z2.2) + (-2) * ((c.SW : ℂ)) ^ 2 * ((c.e : ℂ)) ^ 2 * (ab z0.1 z3.1) * (mb z2.2 (p 1) z2.1)) * i8 + ((-2) * ((c.SW : ℂ)) ^ 2 * ((c.e : ℂ)) ^ 2 * (N.c 0) * (sb z1.2 ρ0) + (2) * ((c.SW : ℂ)) ^ 2 * ((c.e : ℂ)) ^ 2 * (mb z1.2 (p 2) z0.1) * (sb z0.2 ρ0) + (2) * ((c.SW : ℂ)) ^ 2 * ((c.e : ℂ)) ^ 2 * (mb ρ0 (p 1) z0.1) * (sb z0.2 z1.2) + (-2) * ((c.SW : ℂ)) ^ 2 * ((c.e : ℂ)) ^ 2 * (mb ρ0 (p 2) z0.1) * (sb z0.2 z1.2)) * i9 + ((2) * ((c.SW : ℂ)) ^ 2 * ((c.e : ℂ)) ^ 2 * (mb z2.2 (p 1) z0.1) * (sb z0.2 z1.2)) * i10 + ((-2) * ((c.SW : ℂ)) ^ 2 * ((c.e : ℂ)) ^ 2 * (mb z2.2 (p 1) z0.1) * (sb z0.2 z1.2)) * i11 + ((-2) * ((c.SW : ℂ)) ^ 2 * ((c.e : ℂ)) ^ 2 * (mb z2.2 (p 1) z0.1) * (sb z0.2 ρ0)) * i12 + ((-2) * ((c.MW : ℂ)) * ((c.SW : ℂ)) ^ 2 * ((c.e : ℂ)) ^ 2 * ((c.CW : ℂ)⁻¹) * ((c.mass .e : ℂ)) * (ab z0.1 z2.1) ^ 2 + (1) * ((c.MW : ℂ)) * ((c.e : ℂ)) ^ 2 * ((c.CW : ℂ)⁻¹) * ((c.mass .e : ℂ)) * (ab z0.1 z2.1) ^ 2 + (-2) * ((c.SW : ℂ)) ^ 2 * ((c.e : ℂ)) ^ 2 * ((c.mass .e : ℂ)) * (ab z0.1 z2.1) * (mb z2.2 (p 1) z0.1) + (2) * ((c.e : ℂ)) ^ 2 * ((c.mass .e : ℂ)) * (ab z0.1 z2.1) * (mb z2.2 (p 1) z0.1)) * i13 + ((-2) * ((c.SW : ℂ)) ^ 2 * ((c.e : ℂ)) ^ 2 * ((c.mass .e : ℂ)) * (ab z0.1 z2.1) * (mb z1.2 (p 2) z0.1) + (-4) * ((c.SW : ℂ)) ^ 2 * ((c.e : ℂ)) ^ 2 * ((c.mass .e : ℂ)) ^ 2 * (ab z0.1 z1.1) * (ab z0.1 z2.1) + (1) * ((c.e : ℂ)) ^ 2 * ((c.mass .e : ℂ)) * (ab z0.1 z2.1) * (mb z1.2 (p 2) z0.1) + (2) * ((c.e : ℂ)) ^ 2 * ((c.mass .e : ℂ)) ^ 2 * (ab z0.1 z1.1) * (ab z0.1 z2.1)) * i14 + ((-2) * ((c.SW : ℂ)) ^ 2 * ((c.e : ℂ)) ^ 2 * ((c.mass .e : ℂ)) * (ab z0.1 z2.1) * (mb ρ0 (p 1) z0.1) + (1) * ((c.e : ℂ)) ^ 2 * ((c.mass .e : ℂ)) * (ab z0.1 z2.1) * (mb ρ0 (p 1) z0.1)) * i15 + ((2) * ((c.SW : ℂ)) ^ 2 * ((c.e : ℂ)) ^ 2 * ((c.mass .e : ℂ)) * (N.c 0) * (ab z0.1 z2.1) + (-2) * ((c.SW : ℂ)) ^ 2 * ((c.e : ℂ)) ^ 2 * ((c.mass .e : ℂ)) * (N.c 1) * (ab z0.1 z2.1) + (-1) * ((c.e : ℂ)) ^ 2 * ((c.mass .e : ℂ)) * (N.c 0) * (ab z0.1 z2.1) + (2) * ((c.e : ℂ)) ^ 2 * ((c.mass .e : ℂ)) * (N.c 1) * (ab z0.1 z2.1)) * i16 + ((2) * ((c.SW : ℂ)) ^ 2 * ((c.e : ℂ)) ^ 2 * (ab z0.1 z1.1) * (ab z0.1 z2.1) * (sb z0.2 ρ0) + (-2) * ((c.SW : ℂ)) ^ 2 * ((c.e : ℂ)) ^ 2 * (ab z0.1 z1.1) * (mb ρ0 (p 1) z2.1) + (-1) * ((c.e : ℂ)) ^ 2 * (ab z0.1 z1.1) * (ab z0.1 z2.1) * (sb z0.2 ρ0) + (1) * ((c.e : ℂ)) ^ 2 * (ab z0.1 z1.1) * (mb ρ0 (p 1) z2.1)) * i17 + ((-2) * ((c.SW : ℂ)) ^ 2 * ((c.e : ℂ)) ^ 2 * (ab z0.1 z1.1) * (ab z0.1 z2.1) * (sb z0.2 ρ0) + (2) * ((c.SW : ℂ)) ^ 2 * ((c.e : ℂ)) ^ 2 * (ab z0.1 z1.1) * (mb ρ0 (p 1) z2.1) + (-1) * ((c.e : ℂ)) ^ 2 * ((c.mass .e : ℂ)) * (ab z0.1 z2.1) * (sb z1.2 ρ0) + (1) * ((c.e : ℂ)) ^ 2 * (ab z0.1 z1.1) * (ab z0.1 z2.1) * (sb z0.2 ρ0) + (-1) * ((c.e : ℂ)) ^ 2 * (ab z0.1 z1.1) * (mb ρ0 (p 1) z2.1)) * i18 + ((-2) * ((c.MW : ℂ)) * ((c.SW : ℂ)) ^ 2 * ((c.e : ℂ)) ^ 2 * ((c.CW : ℂ)⁻¹) * (ab z0.1 z2.1) * (sb z0.2 ρ0) + (1) * ((c.MW : ℂ)) * ((c.e : ℂ)) ^ 2 * ((c.CW : ℂ)⁻¹) * (ab z0.1 z2.1) * (sb z0.2 ρ0) + (-2) * ((c.SW : ℂ)) ^ 2 * ((c.e : ℂ)) ^ 2 * (mb z2.2 (p 1) z0.1) * (sb z0.2 ρ0) + (1) * ((c.e : ℂ)) ^ 2 * (mb z2.2 (p 1) z0.1) * (sb z0.2 ρ0)) * i19 + ((-2) * ((c.SW : ℂ)) ^ 2 * ((c.e : ℂ)) ^ 2 * ((c.mass .e : ℂ)) * (ab z0.1 z2.1) * (sb z2.2 ρ0) + (2) * ((c.e : ℂ)) ^ 2 * ((c.mass .e : ℂ)) * (ab z0.1 z2.1) * (sb z2.2 ρ0)) * i20 + ((-2) * ((c.SW : ℂ)) ^ 2 * ((c.e : ℂ)) ^ 2 * ((c.mass .e : ℂ)) * (ab z0.1 z3.1) * (sb z0.2 ρ0) + (-2) * ((c.SW : ℂ)) ^ 2 * ((c.e : ℂ)) ^ 2 * (N.c 1) * (sb z3.2 ρ0) + (2) * ((c.SW : ℂ)) ^ 2 * ((c.e : ℂ)) ^ 2 * (mb z3.2 (p 1) z0.1) * (sb z0.2 ρ0) + (-2) * ((c.SW : ℂ)) ^ 2 * ((c.e : ℂ)) ^ 2 * (mb ρ0 (p 1) z0.1) * (sb z0.2 z3.2) + (1) * ((c.e : ℂ)) ^ 2 * (N.c 1) * (sb z3.2 ρ0) + (-1) * ((c.e : ℂ)) ^ 2 * (mb z3.2 (p 1) z0.1) * (sb z0.2 ρ0) + (1) * ((c.e : ℂ)) ^ 2 * (mb ρ0 (p 1) z0.1) * (sb z0.2 z3.2)) * i21 + ((2) * ((c.SW : ℂ)) ^ 2 * ((c.e : ℂ)) ^ 2 * ((c.mass .e : ℂ)) * (ab z0.1 z3.1) * (sb z2.2 ρ0)) * i22 + ((-4) * ((c.SW : ℂ)) ^ 2 * ((c.e : ℂ)) ^ 2 * ((c.mass .e : ℂ)) ^ 2 * (ab z0.1 z2.1) * (ab z0.1 z3.1) + (-1) * ((c.e : ℂ)) ^ 2 * ((c.mass .e : ℂ)) * (ab z0.1 z2.1) * (mb z3.2 (p 1) z0.1) + (1) * ((c.e : ℂ)) ^ 2 * ((c.mass .e : ℂ)) ^ 2 * (ab z0.1 z2.1) * (ab z0.1 z3.1)) * i23 + ((-2) * ((c.MW : ℂ)) * ((c.SW : ℂ)) ^ 2 * ((c.e : ℂ)) ^ 2 * ((c.CW : ℂ)⁻¹) * (ab z0.1 z2.1) * (ab z1.1 z2.1) + (1) * ((c.MW : ℂ)) * ((c.e : ℂ)) ^ 2 * ((c.CW : ℂ)⁻¹) * (ab z0.1 z2.1) * (ab z1.1 z2.1) + (2) * ((c.SW : ℂ)) ^ 2 * ((c.e : ℂ)) ^ 2 * (ab z0.1 z1.1) * (mb z2.2 (p 1) z2.1) + (-1) * ((c.e : ℂ)) ^ 2 * (ab z0.1 z1.1) * (mb z2.2 (p 1) z2.1)) * i24 + ((2) * ((c.SW : ℂ)) ^ 2 * ((c.e : ℂ)) ^ 2 * ((c.mass .e : ℂ)) * (ab z0.1 z2.1) * (sb z2.2 ρ0) + (-1) * ((c.e : ℂ)) ^ 2 * ((c.mass .e : ℂ)) * (ab z0.1 z2.1) * (sb z2.2 ρ0)) * i25 + ((1) * ((c.e : ℂ)) ^ 2 * ((c.mass .e : ℂ)) * (ab z0.1 z2.1) * (sb z0.2 ρ0)) * i26)) * ((1) * ((c.CW : ℂ)) * ((c.CW : ℂ)⁻¹) * ((c.MW : ℂ)⁻¹) * ((c.SW : ℂ)⁻¹) * ((N.c 0)⁻¹) * ((N.c 1)⁻¹)) + ((2) * ((c.CW : ℂ)) * ((c.SW : ℂ)) ^ 2 * ((c.e : ℂ)) ^ 2 * ((c.CW : ℂ)⁻¹) * ((c.MW : ℂ)⁻¹) * ((c.SW : ℂ)⁻¹) * ((c.mass .e : ℂ)) * ((N.c 1)⁻¹) * (ab z0.1 z1.1) * (ab z2.1 z3.1) * (sb z2.2 ρ0) + (-2) * ((c.CW : ℂ)) * ((c.SW : ℂ)) ^ 2 * ((c.e : ℂ)) ^ 2 * ((c.CW : ℂ)⁻¹) * ((c.MW : ℂ)⁻¹) * ((c.SW : ℂ)⁻¹) * ((c.mass .e : ℂ)) * ((N.c 1)⁻¹) * (ab z0.1 z2.1) * (sb z1.2 ρ0) * (sb z2.2 z3.2) + (-2) * ((c.CW : ℂ)) * ((c.SW : ℂ)) ^ 2 * ((c.e : ℂ)) ^ 2 * ((c.CW : ℂ)⁻¹) * ((c.MW : ℂ)⁻¹) * ((c.SW : ℂ)⁻¹) * ((N.c 1)⁻¹) * (ab z0.1 z1.1) * (ab z0.1 z2.1) * (sb z0.2 ρ0) * (sb z2.2 z3.2) + (2) * ((c.CW : ℂ)) * ((c.SW : ℂ)) ^ 2 * ((c.e : ℂ)) ^ 2 * ((c.CW : ℂ)⁻¹) * ((c.MW : ℂ)⁻¹) * ((c.SW : ℂ)⁻¹) * ((N.c 1)⁻¹) * (ab z0.1 z1.1) * (mb ρ0 (p 1) z2.1) * (sb z2.2 z3.2) + (2) * ((c.CW : ℂ)) * ((c.SW : ℂ)) ^ 2 * ((c.e : ℂ)) ^ 2 * ((c.CW : ℂ)⁻¹) * ((c.MW : ℂ)⁻¹) * ((c.SW : ℂ)⁻¹) * ((N.c 1)⁻¹) * (ab z2.1 z3.1) * (mb z2.2 (p 1) z0.1) * (sb z1.2 ρ0) + (1) * ((c.CW : ℂ)) * ((c.e : ℂ)) ^ 2 * ((c.CW : ℂ)⁻¹) * ((c.MW : ℂ)⁻¹) * ((c.SW : ℂ)⁻¹) * ((c.mass .e : ℂ)) * ((N.c 1)⁻¹) * (ab z0.1 z2.1) * (sb z1.2 ρ0) * (sb z2.2 z3.2) + (1) * ((c.CW : ℂ)) * ((c.e : ℂ)) ^ 2 * ((c.CW : ℂ)⁻¹) * ((c.MW : ℂ)⁻¹) * ((c.SW : ℂ)⁻¹) * ((N.c 1)⁻¹) * (ab z0.1 z1.1) * (ab z0.1 z2.1) * (sb z0.2 ρ0) * (sb z2.2 z3.2) + (-1) * ((c.CW : ℂ)) * ((c.e : ℂ)) ^ 2 * ((c.CW : ℂ)⁻¹) * ((c.MW : ℂ)⁻¹) * ((c.SW : ℂ)⁻¹) * ((N.c 1)⁻¹) * (ab z0.1 z1.1) * (mb ρ0 (p 1) z2.1) * (sb z2.2 z3.2)) * y0 + ((2) * ((c.CW : ℂ)) * ((c.MW : ℂ)) * ((c.SW : ℂ)) ^ 2 * ((c.e : ℂ)) ^ 2 * ((c.CW : ℂ)⁻¹) ^ 2 * ((c.MW : ℂ)⁻¹) * ((c.SW : ℂ)⁻¹) * ((N.c 0)⁻¹) * (ab z0.1 z2.1) * (ab z1.1 z2.1) * (sb z3.2 ρ0) + (-2) * ((c.CW : ℂ)) * ((c.MW : ℂ)) * ((c.SW : ℂ)) ^ 2 * ((c.e : ℂ)) ^ 2 * ((c.CW : ℂ)⁻¹) ^ 2 * ((c.MW : ℂ)⁻¹) * ((c.SW : ℂ)⁻¹) * ((N.c 0)⁻¹) * (ab z0.1 z3.1) * (sb z1.2 z2.2) * (sb z2.2 ρ0) + (-1) * ((c.CW : ℂ)) * ((c.MW : ℂ)) * ((c.e : ℂ)) ^ 2 * ((c.CW : ℂ)⁻¹) ^ 2 * ((c.MW : ℂ)⁻¹) * ((c.SW : ℂ)⁻¹) * ((N.c 0)⁻¹) * (ab z0.1 z2.1) * (ab z1.1 z2.1) * (sb z3.2 ρ0) + (-2) * ((c.CW : ℂ)) * ((c.SW : ℂ)) ^ 2 * ((c.e : ℂ)) ^ 2 * ((c.CW : ℂ)⁻¹) * ((c.MW : ℂ)⁻¹) * ((c.SW : ℂ)⁻¹) * ((c.mass .e : ℂ)) * ((N.c 0)⁻¹) * (ab z0.1 z2.1) * (sb z1.2 z2.2) * (sb z3.2 ρ0) + (2) * ((c.CW : ℂ)) * ((c.SW : ℂ)) ^ 2 * ((c.e : ℂ)) ^ 2 * ((c.CW : ℂ)⁻¹) * ((c.MW : ℂ)⁻¹) * ((c.SW : ℂ)⁻¹) * ((c.mass .e : ℂ)) * ((N.c 0)⁻¹) * (ab z0.1 z3.1) * (ab z1.1 z2.1) * (sb z2.2 ρ0) + (2) * ((c.CW : ℂ)) * ((c.SW : ℂ)) ^ 2 * ((c.e : ℂ)) ^ 2 * ((c.CW : ℂ)⁻¹) * ((c.MW : ℂ)⁻¹) * ((c.SW : ℂ)⁻¹) * ((N.c 0)⁻¹) * (ab z0.1 z3.1) * (mb ρ0 (p 1) z2.1) * (sb z1.2 z2.2) + (2) * ((c.CW : ℂ)) * ((c.SW : ℂ)) ^ 2 * ((c.e : ℂ)) ^ 2 * ((c.CW : ℂ)⁻¹) * ((c.MW : ℂ)⁻¹) * ((c.SW : ℂ)⁻¹) * ((N.c 0)⁻¹) * (ab z1.1 z2.1) * (mb z2.2 (p 1) z0.1) * (sb z3.2 ρ0) + (-1) * ((c.CW : ℂ)) * ((c.e : ℂ)) ^ 2 * ((c.CW : ℂ)⁻¹) * ((c.MW : ℂ)⁻¹) * ((c.SW : ℂ)⁻¹) * ((c.mass .e : ℂ)) * ((N.c 0)⁻¹) * (ab z0.1 z3.1) * (ab z1.1 z2.1) * (sb z2.2 ρ0) + (-1) * ((c.CW : ℂ)) * ((c.e : ℂ)) ^ 2 * ((c.CW : ℂ)⁻¹) * ((c.MW : ℂ)⁻¹) * ((c.SW : ℂ)⁻¹) * ((N.c 0)⁻¹) * (ab z1.1 z2.1) * (mb z2.2 (p 1) z0.1) * (sb z3.2 ρ0)) * y1 + ((-1) * ((c.MW : ℂ)) * (((√2 : ℝ) : ℂ)) ^ 2 * ((c.SW : ℂ)) ^ 2 * ((c.e : ℂ)) ^ 2 * ((c.CW : ℂ)⁻¹) * ((c.MW : ℂ)⁻¹) * ((c.SW : ℂ)⁻¹) * ((N.c 0)⁻¹) * (ab z0.1 z2.1) * (ab z1.1 z2.1) * (sb z3.2 ρ0) + (1) * ((c.MW : ℂ)) * (((√2 : ℝ) : ℂ)) ^ 2 * ((c.SW : ℂ)) ^ 2 * ((c.e : ℂ)) ^ 2 * ((c.CW : ℂ)⁻¹) * ((c.MW : ℂ)⁻¹) * ((c.SW : ℂ)⁻¹) * ((N.c 0)⁻¹) * (ab z0.1 z3.1) * (sb z1.2 z2.2) * (sb z2.2 ρ0) + (1) * ((c.MW : ℂ)) * (((√2 : ℝ) : ℂ)) ^ 2 * ((c.e : ℂ)) ^ 2 * ((c.CW : ℂ)⁻¹) * ((c.MW : ℂ)⁻¹) * ((c.SW : ℂ)⁻¹) * ((N.c 0)⁻¹) * (ab z0.1 z2.1) * (ab z1.1 z2.1) * (sb z3.2 ρ0) / (2) + (2) * ((c.MW : ℂ)) * ((c.SW : ℂ)) ^ 2 * ((c.e : ℂ)) ^ 2 * ((c.CW : ℂ)⁻¹) * ((c.MW : ℂ)⁻¹) * ((c.SW : ℂ)⁻¹) * ((N.c 0)⁻¹) * ((N.c 1)⁻¹) * (ab z0.1 z1.1) * (mb z2.2 (p 1) z0.1) * (sb z0.2 ρ0) * (sb z2.2 z3.2) + (2) * ((c.MW : ℂ)) * ((c.SW : ℂ)) ^ 2 * ((c.e : ℂ)) ^ 2 * ((c.CW : ℂ)⁻¹) * ((c.MW : ℂ)⁻¹) * ((c.SW : ℂ)⁻¹) * ((N.c 0)⁻¹) * ((N.c 1)⁻¹) * (ab z0.1 z3.1) * (mb z2.2 (p 1) z0.1) * (sb z0.2 ρ0) * (sb z1.2 z2.2) + (2) * ((c.MW : ℂ)) * ((c.SW : ℂ)) ^ 2 * ((c.e : ℂ)) ^ 2 * ((c.CW : ℂ)⁻¹) * ((c.MW : ℂ)⁻¹) * ((c.SW : ℂ)⁻¹) * ((N.c 0)⁻¹) * (ab z0.1 z2.1) * (ab z1.1 z2.1) * (sb z3.2 ρ0) + (-2) * ((c.MW : ℂ)) * ((c.SW : ℂ)) ^ 2 * ((c.e : ℂ)) ^ 2 * ((c.CW : ℂ)⁻¹) * ((c.MW : ℂ)⁻¹) * ((c.SW : ℂ)⁻¹) * ((N.c 0)⁻¹) * (ab z0.1 z3.1) * (sb z1.2 z2.2) * (sb z2.2 ρ0) + (-1) * ((c.MW : ℂ)) * ((c.e : ℂ)) ^ 2 * ((c.CW : ℂ)⁻¹) * ((c.MW : ℂ)⁻¹) * ((c.SW : ℂ)⁻¹) * ((N.c 0)⁻¹) * ((N.c 1)⁻¹) * (ab z0.1 z1.1) * (mb z2.2 (p 1) z0.1) * (sb z0.2 ρ0) * (sb z2.2 z3.2) + (-1) * ((c.MW : ℂ)) * ((c.e : ℂ)) ^ 2 * ((c.CW : ℂ)⁻¹) * ((c.MW : ℂ)⁻¹) * ((c.SW : ℂ)⁻¹) * ((N.c 0)⁻¹) * (ab z0.1 z2.1) * (ab z1.1 z2.1) * (sb z3.2 ρ0) + (2) * ((c.MW : ℂ)) ^ 2 * ((c.SW : ℂ)) ^ 2 * ((c.e : ℂ)) ^ 2 * ((c.CW : ℂ)⁻¹) ^ 2 * ((c.MW : ℂ)⁻¹) * ((c.SW : ℂ)⁻¹) * ((N.c 0)⁻¹) * ((N.c 1)⁻¹) * (ab z0.1 z1.1) * (ab z0.1 z2.1) * (sb z0.2 ρ0) * (sb z2.2 z3.2) + (-1) * ((c.MW : ℂ)) ^ 2 * ((c.e : ℂ)) ^ 2 * ((c.CW : ℂ)⁻¹) ^ 2 * ((c.MW : ℂ)⁻¹) * ((c.SW : ℂ)⁻¹) * ((N.c 0)⁻¹) * ((N.c 1)⁻¹) * (ab z0.1 z1.1) * (ab z0.1 z2.1) * (sb z0.2 ρ0) * (sb z2.2 z3.2) + (1) * (((√2 : ℝ) : ℂ)) ^ 2 * ((c.SW : ℂ)) ^ 2 * ((c.e : ℂ)) ^ 2 * ((c.MW : ℂ)⁻¹) * ((c.SW : ℂ)⁻¹) * ((c.mass .e : ℂ)) * ((N.c 0)⁻¹) * (ab z0.1 z2.1) * (sb z1.2 z2.2) * (sb z3.2 ρ0) + (-1) * (((√2 : ℝ) : ℂ)) ^ 2 * ((c.SW : ℂ)) ^ 2 * ((c.e : ℂ)) ^ 2 * ((c.MW : ℂ)⁻¹) * ((c.SW : ℂ)⁻¹) * ((c.mass .e : ℂ)) * ((N.c 0)⁻¹) * (ab z0.1 z3.1) * (ab z1.1 z2.1) * (sb z2.2 ρ0) + (-1) * (((√2 : ℝ) : ℂ)) ^ 2 * ((c.SW : ℂ)) ^ 2 * ((c.e : ℂ)) ^ 2 * ((c.MW : ℂ)⁻¹) * ((c.SW : ℂ)⁻¹) * ((c.mass .e : ℂ)) * ((N.c 1)⁻¹) * (ab z0.1 z1.1) * (ab z2.1 z3.1) * (sb z2.2 ρ0) + (1) * (((√2 : ℝ) : ℂ)) ^ 2 * ((c.SW : ℂ)) ^ 2 * ((c.e : ℂ)) ^ 2 * ((c.MW : ℂ)⁻¹) * ((c.SW : ℂ)⁻¹) * ((c.mass .e : ℂ)) * ((N.c 1)⁻¹) * (ab z0.1 z2.1) * (sb z1.2 ρ0) * (sb z2.2 z3.2) + (-1) * (((√2 : ℝ) : ℂ)) ^ 2 * ((c.SW : ℂ)) ^ 2 * ((c.e : ℂ)) ^ 2 * ((c.MW : ℂ)⁻¹) * ((c.SW : ℂ)⁻¹) * ((N.c 0)⁻¹) * (ab z0.1 z3.1) * (mb ρ0 (p 1) z2.1) * (sb z1.2 z2.2) + (-1) * (((√2 : ℝ) : ℂ)) ^ 2 * ((c.SW : ℂ)) ^ 2 * ((c.e : ℂ)) ^ 2 * ((c.MW : ℂ)⁻¹) * ((c.SW : ℂ)⁻¹) * ((N.c 0)⁻¹) * (ab z1.1 z2.1) * (mb z2.2 (p 1) z0.1) * (sb z3.2 ρ0) + (1) * (((√2 : ℝ) : ℂ)) ^ 2 * ((c.SW : ℂ)) ^ 2 * ((c.e : ℂ)) ^ 2 * ((c.MW : ℂ)⁻¹) * ((c.SW : ℂ)⁻¹) * ((N.c 1)⁻¹) * (ab z0.1 z1.1) * (ab z0.1 z2.1) * (sb z0.2 ρ0) * (sb z2.2 z3.2) + (-1) * (((√2 : ℝ) : ℂ)) ^ 2 * ((c.SW : ℂ)) ^ 2 * ((c.e : ℂ)) ^ 2 * ((c.MW : ℂ)⁻¹) * ((c.SW : ℂ)⁻¹) * ((N.c 1)⁻¹) * (ab z0.1 z1.1) * (mb ρ0 (p 1) z2.1) * (sb z2.2 z3.2) + (-1) * (((√2 : ℝ) : ℂ)) ^ 2 * ((c.SW : ℂ)) ^ 2 * ((c.e : ℂ)) ^ 2 * ((c.MW : ℂ)⁻¹) * ((c.SW : ℂ)⁻¹) * ((N.c 1)⁻¹) * (ab z2.1 z3.1) * (mb z2.2 (p 1) z0.1) * (sb z1.2 ρ0) + (1) * (((√2 : ℝ) : ℂ)) ^ 2 * ((c.e : ℂ)) ^ 2 * ((c.MW : ℂ)⁻¹) * ((c.SW : ℂ)⁻¹) * ((c.mass .e : ℂ)) * ((N.c 0)⁻¹) * (ab z0.1 z3.1) * (ab z1.1 z2.1) * (sb z2.2 ρ0) / (2) + (-1) * (((√2 : ℝ) : ℂ)) ^ 2 * ((c.e : ℂ)) ^ 2 * ((c.MW : ℂ)⁻¹) * ((c.SW : ℂ)⁻¹) * ((c.mass .e : ℂ)) * ((N.c 1)⁻¹) * (ab z0.1 z2.1) * (sb z1.2 ρ0) * (sb z2.2 z3.2) / (2) + (1) * (((√2 : ℝ) : ℂ)) ^ 2 * ((c.e : ℂ)) ^ 2 * ((c.MW : ℂ)⁻¹) * ((c.SW : ℂ)⁻¹) * ((N.c 0)⁻¹) * (ab z1.1 z2.1) * (mb z2.2 (p 1) z0.1) * (sb z3.2 ρ0) / (2) + (-1) * (((√2 : ℝ) : ℂ)) ^ 2 * ((c.e : ℂ)) ^ 2 * ((c.MW : ℂ)⁻¹) * ((c.SW : ℂ)⁻¹) * ((N.c 1)⁻¹) * (ab z0.1 z1.1) * (ab z0.1 z2.1) * (sb z0.2 ρ0) * (sb z2.2 z3.2) / (2) + (1) * (((√2 : ℝ) : ℂ)) ^ 2 * ((c.e : ℂ)) ^ 2 * ((c.MW : ℂ)⁻¹) * ((c.SW : ℂ)⁻¹) * ((N.c 1)⁻¹) * (ab z0.1 z1.1) * (mb ρ0 (p 1) z2.1) * (sb z2.2 z3.2) / (2) + (2) * ((c.SW : ℂ)) ^ 2 * ((c.e : ℂ)) ^ 2 * ((c.MW : ℂ)⁻¹) * ((c.SW : ℂ)⁻¹) * ((c.mass .e : ℂ)) * ((N.c 0)⁻¹) * ((N.c 1)⁻¹) * (ab z0.1 z2.1) * (mb z1.2 (p 2) z0.1) * (sb z0.2 ρ0) * (sb z2.2 z3.2) + (2) * ((c.SW : ℂ)) ^ 2 * ((c.e : ℂ)) ^ 2 * ((c.MW : ℂ)⁻¹) * ((c.SW : ℂ)⁻¹) * ((c.mass .e : ℂ)) * ((N.c 0)⁻¹) * ((N.c 1)⁻¹) * (ab z0.1 z2.1) * (mb z3.2 (p 1) z0.1) * (sb z0.2 ρ0) * (sb z1.2 z2.2) + (-2) * ((c.SW : ℂ)) ^ 2 * ((c.e : ℂ)) ^ 2 * ((c.MW : ℂ)⁻¹) * ((c.SW : ℂ)⁻¹) * ((c.mass .e : ℂ)) * ((N.c 0)⁻¹) * (ab z0.1 z2.1) * (sb z1.2 z2.2) * (sb z3.2 ρ0) + (2) * ((c.SW : ℂ)) ^ 2 * ((c.e : ℂ)) ^ 2 * ((c.MW : ℂ)⁻¹) * ((c.SW : ℂ)⁻¹) * ((c.mass .e : ℂ)) * ((N.c 0)⁻¹) * (ab z0.1 z3.1) * (ab z1.1 z2.1) * (sb z2.2 ρ0) + (2) * ((c.SW : ℂ)) ^ 2 * ((c.e : ℂ)) ^ 2 * ((c.MW : ℂ)⁻¹) * ((c.SW : ℂ)⁻¹) * ((c.mass .e : ℂ)) * ((N.c 1)⁻¹) * (ab z0.1 z1.1) * (ab z2.1 z3.1) * (sb z2.2 ρ0) + (-2) * ((c.SW : ℂ)) ^ 2 * ((c.e : ℂ)) ^ 2 * ((c.MW : ℂ)⁻¹) * ((c.SW : ℂ)⁻¹) * ((c.mass .e : ℂ)) * ((N.c 1)⁻¹) * (ab z0.1 z2.1) * (sb z1.2 ρ0) * (sb z2.2 z3.2) + (2) * ((c.SW : ℂ)) ^ 2 * ((c.e : ℂ)) ^ 2 * ((c.MW : ℂ)⁻¹) * ((c.SW : ℂ)⁻¹) * ((c.mass .e : ℂ)) ^ 2 * ((N.c 0)⁻¹) * ((N.c 1)⁻¹) * (ab z0.1 z2.1) * (ab z0.1 z3.1) * (sb z0.2 ρ0) * (sb z1.2 z2.2) + (2) * ((c.SW : ℂ)) ^ 2 * ((c.e : ℂ)) ^ 2 * ((c.MW : ℂ)⁻¹) * ((c.SW : ℂ)⁻¹) * ((N.c 0)⁻¹) * (ab z0.1 z3.1) * (mb ρ0 (p 1) z2.1) * (sb z1.2 z2.2) + (2) * ((c.SW : ℂ)) ^ 2 * ((c.e : ℂ)) ^ 2 * ((c.MW : ℂ)⁻¹) * ((c.SW : ℂ)⁻¹) * ((N.c 0)⁻¹) * (ab z1.1 z2.1) * (mb z2.2 (p 1) z0.1) * (sb z3.2 ρ0) + (-2) * ((c.SW : ℂ)) ^ 2 * ((c.e : ℂ)) ^ 2 * ((c.MW : ℂ)⁻¹) * ((c.SW : ℂ)⁻¹) * ((N.c 1)⁻¹) * (ab z0.1 z1.1) * (ab z0.1 z2.1) * (sb z0.2 ρ0) * (sb z2.2 z3.2) + (2) * ((c.SW : ℂ)) ^ 2 * ((c.e : ℂ)) ^ 2 * ((c.MW : ℂ)⁻¹) * ((c.SW : ℂ)⁻¹) * ((N.c 1)⁻¹) * (ab z0.1 z1.1) * (mb ρ0 (p 1) z2.1) * (sb z2.2 z3.2) + (2) * ((c.SW : ℂ)) ^ 2 * ((c.e : ℂ)) ^ 2 * ((c.MW : ℂ)⁻¹) * ((c.SW : ℂ)⁻¹) * ((N.c 1)⁻¹) * (ab z2.1 z3.1) * (mb z2.2 (p 1) z0.1) * (sb z1.2 ρ0) + (-1) * ((c.e : ℂ)) ^ 2 * ((c.MW : ℂ)⁻¹) * ((c.SW : ℂ)⁻¹) * ((c.mass .e : ℂ)) * ((N.c 0)⁻¹) * ((N.c 1)⁻¹) * (ab z0.1 z2.1) * (mb z1.2 (p 2) z0.1) * (sb z0.2 ρ0) * (sb z2.2 z3.2) + (-1) * ((c.e : ℂ)) ^ 2 * ((c.MW : ℂ)⁻¹) * ((c.SW : ℂ)⁻¹) * ((c.mass .e : ℂ)) * ((N.c 0)⁻¹) * (ab z0.1 z3.1) * (ab z1.1 z2.1) * (sb z2.2 ρ0) + (1) * ((c.e : ℂ)) ^ 2 * ((c.MW : ℂ)⁻¹) * ((c.SW : ℂ)⁻¹) * ((c.mass .e : ℂ)) * ((N.c 1)⁻¹) * (ab z0.1 z2.1) * (sb z1.2 ρ0) * (sb z2.2 z3.2) + (-1) * ((c.e : ℂ)) ^ 2 * ((c.MW : ℂ)⁻¹) * ((c.SW : ℂ)⁻¹) * ((N.c 0)⁻¹) * (ab z1.1 z2.1) * (mb z2.2 (p 1) z0.1) * (sb z3.2 ρ0) + (1) * ((c.e : ℂ)) ^ 2 * ((c.MW : ℂ)⁻¹) * ((c.SW : ℂ)⁻¹) * ((N.c 1)⁻¹) * (ab z0.1 z1.1) * (ab z0.1 z2.1) * (sb z0.2 ρ0) * (sb z2.2 z3.2) + (-1) * ((c.e : ℂ)) ^ 2 * ((c.MW : ℂ)⁻¹) * ((c.SW : ℂ)⁻¹) * ((N.c 1)⁻¹) * (ab z0.1 z1.1) * (mb ρ0 (p 1) z2.1) * (sb z2.2 z3.2)) * yCW + ((-1) * (((√2 : ℝ) : ℂ)) ^ 2 * ((c.SW : ℂ)) ^ 2 * ((c.e : ℂ)) ^ 2 * ((c.CW : ℂ)⁻¹) * ((c.SW : ℂ)⁻¹) * ((N.c 0)⁻¹) * (ab z0.1 z2.1) * (ab z1.1 z2.1) * (sb z3.2 ρ0) + (1) * (((√2 : ℝ) : ℂ)) ^ 2 * ((c.SW : ℂ)) ^ 2 * ((c.e : ℂ)) ^ 2 * ((c.CW : ℂ)⁻¹) * ((c.SW : ℂ)⁻¹) * ((N.c 0)⁻¹) * (ab z0.1 z3.1) * (sb z1.2 z2.2) * (sb z2.2 ρ0) + (1) * (((√2 : ℝ) : ℂ)) ^ 2 * ((c.e : ℂ)) ^ 2 * ((c.CW : ℂ)⁻¹) * ((c.SW : ℂ)⁻¹) * ((N.c 0)⁻¹) * (ab z0.1 z2.1) * (ab z1.1 z2.1) * (sb z3.2 ρ0) / (2) + (2) * ((c.SW : ℂ)) ^ 2 * ((c.e : ℂ)) ^ 2 * ((c.CW : ℂ)⁻¹) * ((c.SW : ℂ)⁻¹) * ((N.c 0)⁻¹) * (ab z0.1 z2.1) * (ab z1.1 z2.1) * (sb z3.2 ρ0) + (-2) * ((c.SW : ℂ)) ^ 2 * ((c.e : ℂ)) ^ 2 * ((c.CW : ℂ)⁻¹) * ((c.SW : ℂ)⁻¹) * ((N.c 0)⁻¹) * (ab z0.1 z3.1) * (sb z1.2 z2.2) * (sb z2.2 ρ0) + (-1) * ((c.e : ℂ)) ^ 2 * ((c.CW : ℂ)⁻¹) * ((c.SW : ℂ)⁻¹) * ((N.c 0)⁻¹) * (ab z0.1 z2.1) * (ab z1.1 z2.1) * (sb z3.2 ρ0)) * yMW + ((-1) * (((√2 : ℝ) : ℂ)) ^ 2 * ((c.SW : ℂ)) * ((c.e : ℂ)) ^ 2 * ((c.CW : ℂ)⁻¹) * ((N.c 0)⁻¹) * (ab z0.1 z2.1) * (ab z1.1 z2.1) * (sb z3.2 ρ0) + (1) * (((√2 : ℝ) : ℂ)) ^ 2 * ((c.SW : ℂ)) * ((c.e : ℂ)) ^ 2 * ((c.CW : ℂ)⁻¹) * ((N.c 0)⁻¹) * (ab z0.1 z3.1) * (sb z1.2 z2.2) * (sb z2.2 ρ0) + (1) * (((√2 : ℝ) : ℂ)) ^ 2 * ((c.SW : ℂ)) * ((c.e : ℂ)) ^ 2 * ((c.MW : ℂ)⁻¹) * ((c.mass .e : ℂ)) * ((N.c 0)⁻¹) * (ab z0.1 z2.1) * (sb z1.2 z2.2) * (sb z3.2 ρ0) + (-1) * (((√2 : ℝ) : ℂ)) ^ 2 * ((c.SW : ℂ)) * ((c.e : ℂ)) ^ 2 * ((c.MW : ℂ)⁻¹) * ((c.mass .e : ℂ)) * ((N.c 0)⁻¹) * (ab z0.1 z3.1) * (ab z1.1 z2.1) * (sb z2.2 ρ0) + (-1) * (((√2 : ℝ) : ℂ)) ^ 2 * ((c.SW : ℂ)) * ((c.e : ℂ)) ^ 2 * ((c.MW : ℂ)⁻¹) * ((c.mass .e : ℂ)) * ((N.c 1)⁻¹) * (ab z0.1 z1.1) * (ab z2.1 z3.1) * (sb z2.2 ρ0) + (1) * (((√2 : ℝ) : ℂ)) ^ 2 * ((c.SW : ℂ)) * ((c.e : ℂ)) ^ 2 * ((c.MW : ℂ)⁻¹) * ((c.mass .e : ℂ)) * ((N.c 1)⁻¹) * (ab z0.1 z2.1) * (sb z1.2 ρ0) * (sb z2.2 z3.2) + (-1) * (((√2 : ℝ) : ℂ)) ^ 2 * ((c.SW : ℂ)) * ((c.e : ℂ)) ^ 2 * ((c.MW : ℂ)⁻¹) * ((N.c 0)⁻¹) * (ab z0.1 z3.1) * (mb ρ0 (p 1) z2.1) * (sb z1.2 z2.2) + (-1) * (((√2 : ℝ) : ℂ)) ^ 2 * ((c.SW : ℂ)) * ((c.e : ℂ)) ^ 2 * ((c.MW : ℂ)⁻¹) * ((N.c 0)⁻¹) * (ab z1.1 z2.1) * (mb z2.2 (p 1) z0.1) * (sb z3.2 ρ0) + (1) * (((√2 : ℝ) : ℂ)) ^ 2 * ((c.SW : ℂ)) * ((c.e : ℂ)) ^ 2 * ((c.MW : ℂ)⁻¹) * ((N.c 1)⁻¹) * (ab z0.1 z1.1) * (ab z0.1 z2.1) * (sb z0.2 ρ0) * (sb z2.2 z3.2) + (-1) * (((√2 : ℝ) : ℂ)) ^ 2 * ((c.SW : ℂ)) * ((c.e : ℂ)) ^ 2 * ((c.MW : ℂ)⁻¹) * ((N.c 1)⁻¹) * (ab z0.1 z1.1) * (mb ρ0 (p 1) z2.1) * (sb z2.2 z3.2) + (-1) * (((√2 : ℝ) : ℂ)) ^ 2 * ((c.SW : ℂ)) * ((c.e : ℂ)) ^ 2 * ((c.MW : ℂ)⁻¹) * ((N.c 1)⁻¹) * (ab z2.1 z3.1) * (mb z2.2 (p 1) z0.1) * (sb z1.2 ρ0) + (2) * ((c.SW : ℂ)) * ((c.e : ℂ)) ^ 2 * ((c.CW : ℂ)⁻¹) * ((N.c 0)⁻¹) * (ab z0.1 z2.1) * (ab z1.1 z2.1) * (sb z3.2 ρ0) + (-2) * ((c.SW : ℂ)) * ((c.e : ℂ)) ^ 2 * ((c.CW : ℂ)⁻¹) * ((N.c 0)⁻¹) * (ab z0.1 z3.1) * (sb z1.2 z2.2) * (sb z2.2 ρ0) + (-2) * ((c.SW : ℂ)) * ((c.e : ℂ)) ^ 2 * ((c.MW : ℂ)⁻¹) * ((c.mass .e : ℂ)) * ((N.c 0)⁻¹) * (ab z0.1 z2.1) * (sb z1.2 z2.2) * (sb z3.2 ρ0) + (2) * ((c.SW : ℂ)) * ((c.e : ℂ)) ^ 2 * ((c.MW : ℂ)⁻¹) * ((c.mass .e : ℂ)) * ((N.c 0)⁻¹) * (ab z0.1 z3.1) * (ab z1.1 z2.1) * (sb z2.2 ρ0) + (2) * ((c.SW : ℂ)) * ((c.e : ℂ)) ^ 2 * ((c.MW : ℂ)⁻¹) * ((c.mass .e : ℂ)) * ((N.c 1)⁻¹) * (ab z0.1 z1.1) * (ab z2.1 z3.1) * (sb z2.2 ρ0) + (-2) * ((c.SW : ℂ)) * ((c.e : ℂ)) ^ 2 * ((c.MW : ℂ)⁻¹) * ((c.mass .e : ℂ)) * ((N.c 1)⁻¹) * (ab z0.1 z2.1) * (sb z1.2 ρ0) * (sb z2.2 z3.2) + (2) * ((c.SW : ℂ)) * ((c.e : ℂ)) ^ 2 * ((c.MW : ℂ)⁻¹) * ((N.c 0)⁻¹) * (ab z0.1 z3.1) * (mb ρ0 (p 1) z2.1) * (sb z1.2 z2.2) + (2) * ((c.SW : ℂ)) * ((c.e : ℂ)) ^ 2 * ((c.MW : ℂ)⁻¹) * ((N.c 0)⁻¹) * (ab z1.1 z2.1) * (mb z2.2 (p 1) z0.1) * (sb z3.2 ρ0) + (-2) * ((c.SW : ℂ)) * ((c.e : ℂ)) ^ 2 * ((c.MW : ℂ)⁻¹) * ((N.c 1)⁻¹) * (ab z0.1 z1.1) * (ab z0.1 z2.1) * (sb z0.2 ρ0) * (sb z2.2 z3.2) + (2) * ((c.SW : ℂ)) * ((c.e : ℂ)) ^ 2 * ((c.MW : ℂ)⁻¹) * ((N.c 1)⁻¹) * (ab z0.1 z1.1) * (mb ρ0 (p 1) z2.1) * (sb z2.2 z3.2) + (2) * ((c.SW : ℂ)) * ((c.e : ℂ)) ^ 2 * ((c.MW : ℂ)⁻¹) * ((N.c 1)⁻¹) * (ab z2.1 z3.1) * (mb z2.2 (p 1) z0.1) * (sb z1.2 ρ0)) * ySW + ((-1) * ((c.SW : ℂ)) * ((c.e : ℂ)) ^ 2 * ((c.CW : ℂ)⁻¹) * ((N.c 0)⁻¹) * (ab z0.1 z2.1) * (ab z1.1 z2.1) * (sb z3.2 ρ0) + (1) * ((c.SW : ℂ)) * ((c.e : ℂ)) ^ 2 * ((c.CW : ℂ)⁻¹) * ((N.c 0)⁻¹) * (ab z0.1 z3.1) * (sb z1.2 z2.2) * (sb z2.2 ρ0) + (1) * ((c.SW : ℂ)) * ((c.e : ℂ)) ^ 2 * ((c.MW : ℂ)⁻¹) * ((c.mass .e : ℂ)) * ((N.c 0)⁻¹) * (ab z0.1 z2.1) * (sb z1.2 z2.2) * (sb z3.2 ρ0) + (-1) * ((c.SW : ℂ)) * ((c.e : ℂ)) ^ 2 * ((c.MW : ℂ)⁻¹) * ((c.mass .e : ℂ)) * ((N.c 0)⁻¹) * (ab z0.1 z3.1) * (ab z1.1 z2.1) * (sb z2.2 ρ0) + (-1) * ((c.SW : ℂ)) * ((c.e : ℂ)) ^ 2 * ((c.MW : ℂ)⁻¹) * ((c.mass .e : ℂ)) * ((N.c 1)⁻¹) * (ab z0.1 z1.1) * (ab z2.1 z3.1) * (sb z2.2 ρ0) + (1) * ((c.SW : ℂ)) * ((c.e : ℂ)) ^ 2 * ((c.MW : ℂ)⁻¹) * ((c.mass .e : ℂ)) * ((N.c 1)⁻¹) * (ab z0.1 z2.1) * (sb z1.2 ρ0) * (sb z2.2 z3.2) + (-1) * ((c.SW : ℂ)) * ((c.e : ℂ)) ^ 2 * ((c.MW : ℂ)⁻¹) * ((N.c 0)⁻¹) * (ab z0.1 z3.1) * (mb ρ0 (p 1) z2.1) * (sb z1.2 z2.2) + (-1) * ((c.SW : ℂ)) * ((c.e : ℂ)) ^ 2 * ((c.MW : ℂ)⁻¹) * ((N.c 0)⁻¹) * (ab z1.1 z2.1) * (mb z2.2 (p 1) z0.1) * (sb z3.2 ρ0) + (1) * ((c.SW : ℂ)) * ((c.e : ℂ)) ^ 2 * ((c.MW : ℂ)⁻¹) * ((N.c 1)⁻¹) * (ab z0.1 z1.1) * (ab z0.1 z2.1) * (sb z0.2 ρ0) * (sb z2.2 z3.2) + (-1) * ((c.SW : ℂ)) * ((c.e : ℂ)) ^ 2 * ((c.MW : ℂ)⁻¹) * ((N.c 1)⁻¹) * (ab z0.1 z1.1) * (mb ρ0 (p 1) z2.1) * (sb z2.2 z3.2) + (-1) * ((c.SW : ℂ)) * ((c.e : ℂ)) ^ 2 * ((c.MW : ℂ)⁻¹) * ((N.c 1)⁻¹) * (ab z2.1 z3.1) * (mb z2.2 (p 1) z0.1) * (sb z1.2 ρ0) + (1) * ((c.e : ℂ)) ^ 2 * ((c.CW : ℂ)⁻¹) * ((c.SW : ℂ)⁻¹) * ((N.c 0)⁻¹) * (ab z0.1 z2.1) * (ab z1.1 z2.1) * (sb z3.2 ρ0) / (2) + (1) * ((c.e : ℂ)) ^ 2 * ((c.MW : ℂ)⁻¹) * ((c.SW : ℂ)⁻¹) * ((c.mass .e : ℂ)) * ((N.c 0)⁻¹) * (ab z0.1 z3.1) * (ab z1.1 z2.1) * (sb z2.2 ρ0) / (2) + (-1) * ((c.e : ℂ)) ^ 2 * ((c.MW : ℂ)⁻¹) * ((c.SW : ℂ)⁻¹) * ((c.mass .e : ℂ)) * ((N.c 1)⁻¹) * (ab z0.1 z2.1) * (sb z1.2 ρ0) * (sb z2.2 z3.2) / (2) + (1) * ((c.e : ℂ)) ^ 2 * ((c.MW : ℂ)⁻¹) * ((c.SW : ℂ)⁻¹) * ((N.c 0)⁻¹) * (ab z1.1 z2.1) * (mb z2.2 (p 1) z0.1) * (sb z3.2 ρ0) / (2) + (-1) * ((c.e : ℂ)) ^ 2 * ((c.MW : ℂ)⁻¹) * ((c.SW : ℂ)⁻¹) * ((N.c 1)⁻¹) * (ab z0.1 z1.1) * (ab z0.1 z2.1) * (sb z0.2 ρ0) * (sb z2.2 z3.2) / (2) + (1) * ((c.e : ℂ)) ^ 2 * ((c.MW : ℂ)⁻¹) * ((c.SW : ℂ)⁻¹) * ((N.c 1)⁻¹) * (ab z0.1 z1.1) * (mb ρ0 (p 1) z2.1) * (sb z2.2 z3.2) / (2)) * x22
set_option maxRecDepth 8000 in
theorem AeZe.amp2_eq (N : Env) (f : Nat → List Int → ℂ) : Cls.AeZe.m_amp2.mean N f .r [] =
    ((sumW (fun x a => (sumJ (fun x b => (sumV (fun x c => (sumJ (fun x d => (x + (‖(f 0 [a, b, c, d])‖ ^ 2))) x)) x)) x)) ((0 : Nat) : ℝ)) / ((4 : Nat) : ℝ)) := by rfl
set_option maxRecDepth 8000 in
theorem AeZe.value (N : Env) : meaning N .r Cls.AeZe.methods Cls.AeZe.amp2 [] =
    ((sumW (fun x a => (sumJ (fun x b => (sumV (fun x c => (sumJ (fun x d => (x + (‖(Cls.AeZe.m_amp.mean N (callMean N []) .c [a, b, c, d])‖ ^ 2))) x)) x)) x)) ((0 : Nat) : ℝ)) / ((4 : Nat) : ℝ)) :=
  AeZe.amp2_eq N (callMean N [Cls.AeZe.m_amp])
theorem AeZe.termP_lin (N : Env) (w : ℝ) (x : ℂ) (j2 a2 b2 j4 : Int) : AeZe.termP N w x j2 a2 b2 j4 = x + (w : ℂ) * AeZe.termP N 1 0 j2 a2 b2 j4 := by
  simp only [AeZe.termP]; push_cast; ring
theorem AeZe.termM_lin (N : Env) (w : ℝ) (x : ℂ) (j2 a2 b2 j4 : Int) : AeZe.termM N w x j2 a2 b2 j4 = x + (w : ℂ) * AeZe.termM N 1 0 j2 a2 b2 j4 := by
  simp only [AeZe.termM]; push_cast; ring
set_option maxRecDepth 8000 in
theorem AeZe.ampP (N : Env) (f : Nat → List Int → ℂ) (j2 j4 : Int) (t2 : Fin 3) : Cls.AeZe.m_amp.mean N f .c [2, j2, spinV t2, j4] = comb t2 (fun a2 b2 => AeZe.termP N 1 0 j2 (spinOf a2) (spinOf b2) j4) := by
  refine (amp_mean N f (m := 4) (K := 6) (G := fun i => if 0 < i 0 then AeZe.termP N 1 0 (i 1) (i 4) (i 5) (i 3) else if i 0 < 0 then AeZe.termM N 1 0 (i 1) (i 4) (i 5) (i 3) else 0) (fun l => ?_) (fun i i' h => ?_) rfl (by decide) (by decide) (by decide) (by decide) (by decide)).trans ?_
  · by_cases h : 0 < l.i 0
    · refine ⟨_, (if_pos (decide_eq_true h)).trans rfl, rfl, rfl, ?_⟩; rw [if_pos h]; exact AeZe.termP_lin ..
    · by_cases h' : l.i 0 < 0
      · refine ⟨_, (if_neg (fun e => h (of_decide_eq_true e))).trans ((if_pos (decide_eq_true h')).trans rfl), rfl, rfl, ?_⟩; rw [if_neg h, if_pos h']; exact AeZe.termM_lin ..
      · refine ⟨_, (if_neg (fun e => h (of_decide_eq_true e))).trans ((if_neg (fun e => h' (of_decide_eq_true e))).trans rfl), rfl, rfl, ?_⟩; rw [if_neg h, if_neg h', mul_zero, add_zero]
  · simp only [h 0 (by decide), h 1 (by decide), h 3 (by decide), h 4 (by decide), h 5 (by decide)]
  · show amp' _ [spinV t2] = _
    simp only [amp'_comb, amp'_nil]
    rfl
theorem AeZe.formP_x2 (N : Env) (p : Nat → V4 ℝ) (z0 z1 y2 z3 x y : Pair) : AeZe.formP N p z0 z1 (x + y) y2 z3 = AeZe.formP N p z0 z1 x y2 z3 + AeZe.formP N p z0 z1 y y2 z3 := by
  simp only [AeZe.formP, Prod.fst_add, Prod.snd_add, ab_add_left, ab_add_right, sb_add_left, sb_add_right, mb_add_left, mb_add_right]
  ring
theorem AeZe.formP_y2 (N : Env) (p : Nat → V4 ℝ) (z0 z1 x2 z3 x y : Pair) : AeZe.formP N p z0 z1 x2 (x + y) z3 = AeZe.formP N p z0 z1 x2 x z3 + AeZe.formP N p z0 z1 x2 y z3 := by
  simp only [AeZe.formP, Prod.fst_add, Prod.snd_add, ab_add_left, ab_add_right, sb_add_left, sb_add_right, mb_add_left, mb_add_right]
  ring
set_option maxRecDepth 8000 in
theorem AeZe.ampM (N : Env) (f : Nat → List Int → ℂ) (j2 j4 : Int) (t2 : Fin 3) : Cls.AeZe.m_amp.mean N f .c [(-2), j2, spinV t2, j4] = comb t2 (fun a2 b2 => AeZe.termM N 1 0 j2 (spinOf a2) (spinOf b2) j4) := by
  refine (amp_mean N f (m := 4) (K := 6) (G := fun i => if 0 < i 0 then AeZe.termP N 1 0 (i 1) (i 4) (i 5) (i 3) else if i 0 < 0 then AeZe.termM N 1 0 (i 1) (i 4) (i 5) (i 3) else 0) (fun l => ?_) (fun i i' h => ?_) rfl (by decide) (by decide) (by decide) (by decide) (by decide)).trans ?_
  · by_cases h : 0 < l.i 0
    · refine ⟨_, (if_pos (decide_eq_true h)).trans rfl, rfl, rfl, ?_⟩; rw [if_pos h]; exact AeZe.termP_lin ..
    · by_cases h' : l.i 0 < 0
      · refine ⟨_, (if_neg (fun e => h (of_decide_eq_true e))).trans ((if_pos (decide_eq_true h')).trans rfl), rfl, rfl, ?_⟩; rw [if_neg h, if_pos h']; exact AeZe.termM_lin ..
      · refine ⟨_, (if_neg (fun e => h (of_decide_eq_true e))).trans ((if_neg (fun e => h' (of_decide_eq_true e))).trans rfl), rfl, rfl, ?_⟩; rw [if_neg h, if_neg h', mul_zero, add_zero]
  · simp only [h 0 (by decide), h 1 (by decide), h 3 (by decide), h 4 (by decide), h 5 (by decide)]
  · show amp' _ [spinV t2] = _
    simp only [amp'_comb, amp'_nil]
    rfl
theorem AeZe.formM_x2 (N : Env) (p : Nat → V4 ℝ) (z0 z1 y2 z3 x y : Pair) : AeZe.formM N p z0 z1 (x + y) y2 z3 = AeZe.formM N p z0 z1 x y2 z3 + AeZe.formM N p z0 z1 y y2 z3 := by
  simp only [AeZe.formM, Prod.fst_add, Prod.snd_add, ab_add_left, ab_add_right, sb_add_left, sb_add_right, mb_add_left, mb_add_right]
  ring
theorem AeZe.formM_y2 (N : Env) (p : Nat → V4 ℝ) (z0 z1 x2 z3 x y : Pair) : AeZe.formM N p z0 z1 x2 (x + y) z3 = AeZe.formM N p z0 z1 x2 x z3 + AeZe.formM N p z0 z1 x2 y z3 := by
  simp only [AeZe.formM, Prod.fst_add, Prod.snd_add, ab_add_left, ab_add_right, sb_add_left, sb_add_right, mb_add_left, mb_add_right]
  ring

theorem AeZe.mass_eq {c : Constants} (hc : c.Physical) (i : Fin 4) : AeZe.proc.massNum (AeZe.rho c) i = AeZe.react.mass c i := by
  fin_cases i <;> first | rfl | exact Nat.cast_zero | exact Nat.cast_zero.trans (hc.neutrino _).symm | (show c.MW / √(((1 : Nat) : ℝ) - c.SW * c.SW) = c.MZ; rw [c.root, c.mz])

variable [FPEnv] in
theorem AeZe.amps {c : Constants} {p : Nat → V4 ℝ} {u : Fin 4 → Fin 3 → Spinor} {ε : Fin 4 → Fin 3 → Vec} (hc : c.Physical) (hh : c.Heavy) (h0 : ∀ i, 0 ≤ AeZe.react.mass c i) (hs : ∀ i : Fin 4, OnShell (p i) (AeZe.react.mass c i)) (hb : Balanced p) (hr : AeZe.react.Regular c p) (hu : ∀ i, AeZe.react.Complete c p i (u i) (ε i)) :
    (AeZe.N c p).c 0 ≠ 0 ∧ (AeZe.N c p).c 1 ≠ 0 ∧ (∀ n, (Ty.r, n) ∈ AeZe.proc.divides → (AeZe.N c p).r n ≠ 0) ∧ (∀ n, (Ty.c, n) ∈ AeZe.proc.divides → (AeZe.N c p).c n ≠ 0) ∧ ∀ (s1 : Fin 2) (s3 : Fin 2) (h0 : Fin 2) (t2 : Fin 3), ‖Cls.AeZe.m_amp.mean (AeZe.N c p) (callMean (AeZe.N c p) []) .c [spinW h0, spinOf s1, spinV t2, spinOf s3]‖ = ‖AeZe.react.bare c p 3 1 0 2 (AeZe.react.codePair c p 3 s3) (AeZe.react.codePair c p 1 s1) (lightE (legA (p 0) 0 0, legS (p 0) 0 1) h0.castSucc) (AeZe.react.codeVec c p 2 t2)‖ := by
  have he : AeZe.react.ends = [3] := by decide
  have ht : AeZe.react.starts = [1] := by decide
  have hB : AeZe.react.bosons = [0, 2] := by decide
  obtain ⟨f1, f2, f3⟩ := AeZe.react.regular_line he ht hB hr
  have r1 : (AeZe.N c p).r 1 = (c.mass .e) := rfl
  have r5 : (AeZe.N c p).r 5 = (c.MW / √((((1 : Nat) : ℝ) - (c.SW * c.SW)))) := rfl
  simp only [c.root] at r5
  have r7 : (AeZe.N c p).r 7 = ((c.e * c.e) / (c.MW * c.SW)) := rfl
  have r9 : (AeZe.N c p).r 9 = (((((2 : Nat) : ℝ) * c.SW) * c.SW) - ((1 : Nat) : ℝ)) := rfl
  have r10 : (AeZe.N c p).r 10 = ((((2 : Nat) : ℝ) * c.SW) * c.SW) := rfl
  have c0 : (AeZe.N c p).c 0 = poleDist (c.mass .e) ((0 : Nat) : ℝ) ((VExp.sub 0 3).sum p) := rfl
  rw [Nat.cast_zero, pole_fermion rfl] at c0
  have d0 : ((msq (plus (p 1) (backward (p 2))) - c.mass .e ^ 2 : ℝ) : ℂ) = (AeZe.N c p).c 0 := by rw [c0, msq_u hb (plus (p 1) (backward (p 2))) (by simp)]
  have n0 : (AeZe.N c p).c 0 ≠ 0 := by rw [← d0]; exact_mod_cast f2 .e rfl rfl
  have c1 : (AeZe.N c p).c 1 = poleDist (c.mass .e) ((0 : Nat) : ℝ) ((VExp.add 0 1).sum p) := rfl
  rw [Nat.cast_zero, pole_fermion rfl] at c1
  have d1 : ((msq (plus (p 1) (p 0)) - c.mass .e ^ 2 : ℝ) : ℂ) = (AeZe.N c p).c 1 := by rw [c1, msq_s hb (plus (p 1) (p 0)) (by simp)]
  have n1 : (AeZe.N c p).c 1 ≠ 0 := by rw [← d1]; exact_mod_cast f1 .e rfl rfl
  obtain ⟨l0, x0, y0⟩ := AeZe.react.code_light hs hu (n := 0) rfl rfl
  have e01 := l0.pole_add (m := (c.mass .e)) (onShell_msq (hs 1)) (msq_s hb (plus (p 0) (p 1)) (by simp)) c1
  have e03 := l0.pole_sub (m := (c.mass .e)) (onShell_msq (hs 3)) (msq_u hb (plus (p 0) (backward (p 3))) (by simp)) c0
  have m1 : AeZe.react.mass c 1 ≠ 0 := (leg_pos hc hh (by decide)).ne'
  have m2 : AeZe.react.mass c 2 ≠ 0 := (leg_pos hc hh (by decide)).ne'
  have m3 : AeZe.react.mass c 3 ≠ 0 := (leg_pos hc hh (by decide)).ne'
  have m0 : AeZe.react.mass c 0 = 0 := rfl
  have hd : AeZe.proc.divides = [(Ty.c, 1), (Ty.c, 0)] := by decide +kernel
  have stP : ∀ {z1 z3 : Pair} (b1 : Bold (p 1) (AeZe.react.mass c 1) z1) (b3 : Bold (p 3) (AeZe.react.mass c 3) z3) (t2 : Fin 3), comb t2 (fun a2 b2 => AeZe.formP (AeZe.N c p) p (legA (p 0) 0 0, legS (p 0) 0 1) z1 (AeZe.react.codePair c p 2 a2) (AeZe.react.codePair c p 2 b2) z3) = 1 * AeZe.react.bare c p 3 1 0 2 z3 z1 (lightE (legA (p 0) 0 0, legS (p 0) 0 1) 1) (AeZe.react.codeVec c p 2 t2) := by
    intro z1 z3 b1 b3 t2
    refine one_vector (p := p 2) (m := AeZe.react.mass c 2) (fun s => AeZe.react.codePair_bold hs h0 2 s) (B := fun x y => AeZe.formP (AeZe.N c p) p (legA (p 0) 0 0, legS (p 0) 0 1) z1 x y z3) (G := fun E => AeZe.react.bare c p 3 1 0 2 z3 z1 (lightE (legA (p 0) 0 0, legS (p 0) 0 1) 1) E) (fun x y z => ?_) (fun x y z => ?_) (AeZe.react.bare_lin₂ c p _ _ _ (by decide)) 1 (fun z2 b2 => ?_) t2
    · exact AeZe.formP_x2 ..
    · exact AeZe.formP_y2 ..
    · exact (light_plus (z := (legA (p 0) 0 0, legS (p 0) 0 1)) (G := fun E => AeZe.react.bare c p 3 1 0 2 z3 z1 E (pv z2.1 z2.2)) (AeZe.react.bare_lin₁ c p _ _ _ (by decide)) x0 (AeZe.keyP hc hb r1 r5 r7 r9 r10 d0 n0 d1 n1 b1 b2 b3 l0 e01 e03 (onShell_msq (hs 1)) (onShell_msq (hs 2)) (onShell_msq (hs 3)) _)).trans (mul_assoc _ _ _)
  have stM : ∀ {z1 z3 : Pair} (b1 : Bold (p 1) (AeZe.react.mass c 1) z1) (b3 : Bold (p 3) (AeZe.react.mass c 3) z3) (t2 : Fin 3), comb t2 (fun a2 b2 => AeZe.formM (AeZe.N c p) p (legA (p 0) 0 0, legS (p 0) 0 1) z1 (AeZe.react.codePair c p 2 a2) (AeZe.react.codePair c p 2 b2) z3) = (-1) * AeZe.react.bare c p 3 1 0 2 z3 z1 (lightE (legA (p 0) 0 0, legS (p 0) 0 1) 0) (AeZe.react.codeVec c p 2 t2) := by
    intro z1 z3 b1 b3 t2
    refine one_vector (p := p 2) (m := AeZe.react.mass c 2) (fun s => AeZe.react.codePair_bold hs h0 2 s) (B := fun x y => AeZe.formM (AeZe.N c p) p (legA (p 0) 0 0, legS (p 0) 0 1) z1 x y z3) (G := fun E => AeZe.react.bare c p 3 1 0 2 z3 z1 (lightE (legA (p 0) 0 0, legS (p 0) 0 1) 0) E) (fun x y z => ?_) (fun x y z => ?_) (AeZe.react.bare_lin₂ c p _ _ _ (by decide)) (-1) (fun z2 b2 => ?_) t2
    · exact AeZe.formM_x2 ..
    · exact AeZe.formM_y2 ..
    · exact (light_minus (z := (legA (p 0) 0 0, legS (p 0) 0 1)) (G := fun E => AeZe.react.bare c p 3 1 0 2 z3 z1 E (pv z2.1 z2.2)) (AeZe.react.bare_lin₁ c p _ _ _ (by decide)) y0 (AeZe.keyM hc hb r1 r5 r7 r9 r10 d0 n0 d1 n1 b1 b2 b3 l0 e01 e03 (onShell_msq (hs 1)) (onShell_msq (hs 2)) (onShell_msq (hs 3)) _)).trans (mul_assoc _ _ _)
  have amP : ∀ (s1 : Fin 2) (s3 : Fin 2) (t2 : Fin 3), Cls.AeZe.m_amp.mean (AeZe.N c p) (callMean (AeZe.N c p) []) .c [2, spinOf s1, spinV t2, spinOf s3] = 1 * AeZe.react.bare c p 3 1 0 2 (AeZe.react.codePair c p 3 s3) (AeZe.react.codePair c p 1 s1) (lightE (legA (p 0) 0 0, legS (p 0) 0 1) 1) (AeZe.react.codeVec c p 2 t2) := by
    intro s1 s3 t2
    rw [AeZe.ampP, ← stP (AeZe.react.codePair_bold hs h0 1 s1) (AeZe.react.codePair_bold hs h0 3 s3) t2]
    refine congrArg (comb t2) (funext fun a2 => funext fun b2 => ?_)
    have v6z1x2 : (AeZe.N c p).v 6 [spinOf s1, spinOf a2] = ab (AeZe.react.codePair c p 1 s1).1 (AeZe.react.codePair c p 2 a2).1 := bra_angle (p := p) (m := AeZe.proc.massNum (AeZe.rho c)) (AeZe.mass_eq hc 1) (AeZe.mass_eq hc 2) (.inl ⟨m1, rfl⟩) (.inl ⟨m2, rfl⟩)
    have v4z0z3 : (AeZe.N c p).v 4 [spinOf s3] = sb (legA (p 0) 0 0, legS (p 0) 0 1).2 (AeZe.react.codePair c p 3 s3).2 := bra_square (p := p) (m := AeZe.proc.massNum (AeZe.rho c)) (AeZe.mass_eq hc 0) (AeZe.mass_eq hc 3) (.inr ⟨m0, rfl⟩) (.inl ⟨m3, rfl⟩)
    have v10z0y2 : (AeZe.N c p).v 10 [spinOf b2] = mb (legA (p 0) 0 0, legS (p 0) 0 1).2 (p 1) (AeZe.react.codePair c p 2 b2).1 := bra_mid_square (p := p) (m := AeZe.proc.massNum (AeZe.rho c)) (AeZe.mass_eq hc 0) (AeZe.mass_eq hc 2) (.inr ⟨m0, rfl⟩) (.inl ⟨m2, rfl⟩)
    have v2z0y2 : (AeZe.N c p).v 2 [spinOf b2] = sb (legA (p 0) 0 0, legS (p 0) 0 1).2 (AeZe.react.codePair c p 2 b2).2 := bra_square (p := p) (m := AeZe.proc.massNum (AeZe.rho c)) (AeZe.mass_eq hc 0) (AeZe.mass_eq hc 2) (.inr ⟨m0, rfl⟩) (.inl ⟨m2, rfl⟩)
    have v14z0z3 : (AeZe.N c p).v 14 [spinOf s3] = mb (legA (p 0) 0 0, legS (p 0) 0 1).2 (p 2) (AeZe.react.codePair c p 3 s3).1 := bra_mid_square (p := p) (m := AeZe.proc.massNum (AeZe.rho c)) (AeZe.mass_eq hc 0) (AeZe.mass_eq hc 3) (.inr ⟨m0, rfl⟩) (.inl ⟨m3, rfl⟩)
    have v8x2z3 : (AeZe.N c p).v 8 [spinOf a2, spinOf s3] = ab (AeZe.react.codePair c p 2 a2).1 (AeZe.react.codePair c p 3 s3).1 := bra_angle (p := p) (m := AeZe.proc.massNum (AeZe.rho c)) (AeZe.mass_eq hc 2) (AeZe.mass_eq hc 3) (.inl ⟨m2, rfl⟩) (.inl ⟨m3, rfl⟩)
    have v12z0z1 : (AeZe.N c p).v 12 [spinOf s1] = mb (legA (p 0) 0 0, legS (p 0) 0 1).2 (p 2) (AeZe.react.codePair c p 1 s1).1 := bra_mid_square (p := p) (m := AeZe.proc.massNum (AeZe.rho c)) (AeZe.mass_eq hc 0) (AeZe.mass_eq hc 1) (.inr ⟨m0, rfl⟩) (.inl ⟨m1, rfl⟩)
    have v0z0z1 : (AeZe.N c p).v 0 [spinOf s1] = sb (legA (p 0) 0 0, legS (p 0) 0 1).2 (AeZe.react.codePair c p 1 s1).2 := bra_square (p := p) (m := AeZe.proc.massNum (AeZe.rho c)) (AeZe.mass_eq hc 0) (AeZe.mass_eq hc 1) (.inr ⟨m0, rfl⟩) (.inl ⟨m1, rfl⟩)
    have v16z0y2 : (AeZe.N c p).v 16 [spinOf b2] = mb (legA (p 0) 0 0, legS (p 0) 0 1).2 (p 3) (AeZe.react.codePair c p 2 b2).1 := bra_mid_square (p := p) (m := AeZe.proc.massNum (AeZe.rho c)) (AeZe.mass_eq hc 0) (AeZe.mass_eq hc 2) (.inr ⟨m0, rfl⟩) (.inl ⟨m2, rfl⟩)
    simp only [AeZe.termP, AeZe.formP, v6z1x2, v4z0z3, v10z0y2, v2z0y2, v14z0z3, v8x2z3, v12z0z1, v0z0z1, v16z0y2]
    push_cast
    ring
  have amM : ∀ (s1 : Fin 2) (s3 : Fin 2) (t2 : Fin 3), Cls.AeZe.m_amp.mean (AeZe.N c p) (callMean (AeZe.N c p) []) .c [(-2), spinOf s1, spinV t2, spinOf s3] = (-1) * AeZe.react.bare c p 3 1 0 2 (AeZe.react.codePair c p 3 s3) (AeZe.react.codePair c p 1 s1) (lightE (legA (p 0) 0 0, legS (p 0) 0 1) 0) (AeZe.react.codeVec c p 2 t2) := by
    intro s1 s3 t2
    rw [AeZe.ampM, ← stM (AeZe.react.codePair_bold hs h0 1 s1) (AeZe.react.codePair_bold hs h0 3 s3) t2]
    refine congrArg (comb t2) (funext fun a2 => funext fun b2 => ?_)
    have v5z0z3 : (AeZe.N c p).v 5 [spinOf s3] = ab (legA (p 0) 0 0, legS (p 0) 0 1).1 (AeZe.react.codePair c p 3 s3).1 := bra_angle (p := p) (m := AeZe.proc.massNum (AeZe.rho c)) (AeZe.mass_eq hc 0) (AeZe.mass_eq hc 3) (.inr ⟨m0, rfl⟩) (.inl ⟨m3, rfl⟩)
    have v7z1x2 : (AeZe.N c p).v 7 [spinOf s1, spinOf a2] = sb (AeZe.react.codePair c p 1 s1).2 (AeZe.react.codePair c p 2 a2).2 := bra_square (p := p) (m := AeZe.proc.massNum (AeZe.rho c)) (AeZe.mass_eq hc 1) (AeZe.mass_eq hc 2) (.inl ⟨m1, rfl⟩) (.inl ⟨m2, rfl⟩)
    have v11z0y2 : (AeZe.N c p).v 11 [spinOf b2] = mb (AeZe.react.codePair c p 2 b2).2 (p 1) (legA (p 0) 0 0, legS (p 0) 0 1).1 := bra_mid_angle (p := p) (m := AeZe.proc.massNum (AeZe.rho c)) (AeZe.mass_eq hc 0) (AeZe.mass_eq hc 2) (.inr ⟨m0, rfl⟩) (.inl ⟨m2, rfl⟩)
    have v3z0x2 : (AeZe.N c p).v 3 [spinOf a2] = ab (legA (p 0) 0 0, legS (p 0) 0 1).1 (AeZe.react.codePair c p 2 a2).1 := bra_angle (p := p) (m := AeZe.proc.massNum (AeZe.rho c)) (AeZe.mass_eq hc 0) (AeZe.mass_eq hc 2) (.inr ⟨m0, rfl⟩) (.inl ⟨m2, rfl⟩)
    have v7z1y2 : (AeZe.N c p).v 7 [spinOf s1, spinOf b2] = sb (AeZe.react.codePair c p 1 s1).2 (AeZe.react.codePair c p 2 b2).2 := bra_square (p := p) (m := AeZe.proc.massNum (AeZe.rho c)) (AeZe.mass_eq hc 1) (AeZe.mass_eq hc 2) (.inl ⟨m1, rfl⟩) (.inl ⟨m2, rfl⟩)
    have v15z0z3 : (AeZe.N c p).v 15 [spinOf s3] = mb (AeZe.react.codePair c p 3 s3).2 (p 2) (legA (p 0) 0 0, legS (p 0) 0 1).1 := bra_mid_angle (p := p) (m := AeZe.proc.massNum (AeZe.rho c)) (AeZe.mass_eq hc 0) (AeZe.mass_eq hc 3) (.inr ⟨m0, rfl⟩) (.inl ⟨m3, rfl⟩)
    have v9y2z3 : (AeZe.N c p).v 9 [spinOf b2, spinOf s3] = sb (AeZe.react.codePair c p 2 b2).2 (AeZe.react.codePair c p 3 s3).2 := bra_square (p := p) (m := AeZe.proc.massNum (AeZe.rho c)) (AeZe.mass_eq hc 2) (AeZe.mass_eq hc 3) (.inl ⟨m2, rfl⟩) (.inl ⟨m3, rfl⟩)
    have v13z0z1 : (AeZe.N c p).v 13 [spinOf s1] = mb (AeZe.react.codePair c p 1 s1).2 (p 2) (legA (p 0) 0 0, legS (p 0) 0 1).1 := bra_mid_angle (p := p) (m := AeZe.proc.massNum (AeZe.rho c)) (AeZe.mass_eq hc 0) (AeZe.mass_eq hc 1) (.inr ⟨m0, rfl⟩) (.inl ⟨m1, rfl⟩)
    have v1z0z1 : (AeZe.N c p).v 1 [spinOf s1] = ab (legA (p 0) 0 0, legS (p 0) 0 1).1 (AeZe.react.codePair c p 1 s1).1 := bra_angle (p := p) (m := AeZe.proc.massNum (AeZe.rho c)) (AeZe.mass_eq hc 0) (AeZe.mass_eq hc 1) (.inr ⟨m0, rfl⟩) (.inl ⟨m1, rfl⟩)
    have v9x2z3 : (AeZe.N c p).v 9 [spinOf a2, spinOf s3] = sb (AeZe.react.codePair c p 2 a2).2 (AeZe.react.codePair c p 3 s3).2 := bra_square (p := p) (m := AeZe.proc.massNum (AeZe.rho c)) (AeZe.mass_eq hc 2) (AeZe.mass_eq hc 3) (.inl ⟨m2, rfl⟩) (.inl ⟨m3, rfl⟩)
    have v17z0y2 : (AeZe.N c p).v 17 [spinOf b2] = mb (AeZe.react.codePair c p 2 b2).2 (p 3) (legA (p 0) 0 0, legS (p 0) 0 1).1 := bra_mid_angle (p := p) (m := AeZe.proc.massNum (AeZe.rho c)) (AeZe.mass_eq hc 0) (AeZe.mass_eq hc 2) (.inr ⟨m0, rfl⟩) (.inl ⟨m2, rfl⟩)
    simp only [AeZe.termM, AeZe.formM, v5z0z3, v7z1x2, v11z0y2, v3z0x2, v7z1y2, v15z0z3, v9y2z3, v13z0z1, v1z0z1, v9x2z3, v17z0y2]
    push_cast
    ring
  refine ⟨n0, n1, fun n hn => ?_, fun n hn => ?_, ?_⟩
  · simp [hd] at hn
  · simp [hd] at hn
    rcases hn with rfl | rfl
    · exact n1
    · exact n0
  intro s1 s3 h0 t2
  match h0 with
  | 1 => exact norm_plus (amP s1 s3 t2)
  | 0 => exact norm_minus (amM s1 s3 t2)

variable [FPEnv] in
theorem AeZe.agrees : AeZe.Agrees := by
  refine agrees_of (D := [2, 3]) (E := [3]) (by simp [all, AeZe]) (by decide +kernel) (by decide) (by decide +kernel) (fun c hc hh => ⟨List.forall_mem_cons.2 ⟨hc.MW, List.forall_mem_cons.2 ⟨hc.SW, List.forall_mem_nil _⟩⟩, List.forall_mem_cons.2 ⟨hc.SW_lt, List.forall_mem_nil _⟩⟩) (fun c hc i => AeZe.mass_eq hc i) (by decide +kernel) ?_
  intro c p u ε hc hh hw h0 hs hb hr hu
  have he : AeZe.react.ends = [3] := by decide
  have ht : AeZe.react.starts = [1] := by decide
  have hB : AeZe.react.bosons = [0, 2] := by decide
  obtain ⟨n0, n1, d1, d2, am⟩ := AeZe.amps hc hh h0 hs hb hr hu
  refine ⟨d1, d2, ?_⟩
  show meaning (AeZe.N c p) .r Cls.AeZe.methods Cls.AeZe.amp2 [] = _
  have s0 : AeZe.react.states 0 = 2 := by decide +kernel
  have s1 : AeZe.react.states 1 = 2 := by decide +kernel
  have sy : AeZe.react.symmetry = 1 := by decide
  have p0 : AeZe.react.spins 0 = {0, 1} := rfl
  have p1 : AeZe.react.spins 1 = {0, 1} := rfl
  have p2 : AeZe.react.spins 2 = Finset.univ := rfl
  have p3 : AeZe.react.spins 3 = {0, 1} := rfl
  have E0 : AeZe.react.codeE c p 0 = lightE (legA (p 0) 0 0, legS (p 0) 0 1) := rfl
  have E2 : AeZe.react.codeE c p 2 = AeZe.react.codeVec c p 2 := rfl
  have hG : AeZe.react.Gauge c p := (AeZe.react.gauge_line he ht hB hh (by decide) (fun n => onShell_msq (hs n)) hb hr (fun n m h h2 => absurd (And.intro h h2) (by revert n m; decide)) (fun _ => ⟨rfl, rfl⟩) (fun h => absurd h (by decide)))
  have lc : AeZe.react.lineColours 3 1 = 1 := by decide +kernel
  rw [AeZe.value, AeZe.react.squared_line he ht hB (by decide) hs h0 (fun _ b _ hb _ => (boson_pos hc hh hb).ne') hG (E := AeZe.react.codeE c p) (fun n b hl => AeZe.react.codeE_polarised hs h0 hu (fun b hb => (boson_pos hc hh hb).ne') n b hl) hu, sum_colours, lc, s0, s1, sy]
  simp only [sumV_sum, sumJ_sum, sumW_sum, am, p0, p1, p2, p3, E0, E2, Finset.sum_singleton, sum_two, Matrix.cons_val_zero, Matrix.cons_val_one, Matrix.cons_val, two_castSucc]
  try simp only [← Finset.mul_sum]
  push_cast
  first | ring1 | ring_nf

end Spinas.SM.Rows
