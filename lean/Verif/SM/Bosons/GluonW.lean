import Verif.SM.LightRows
import Verif.SM.GluonLine

/-! Quarks, a gluon and a W boson. Generated by tools/bosons/lemit.py: for each class its amplitude at given helicities as a formula in spinors, and the proof that `amp2` is the squared amplitude of the Feynman rules. -/

set_option linter.unusedSimpArgs false
set_option linter.unusedVariables false
set_option linter.unreachableTactic false
set_option linter.unusedTactic false

namespace Spinas.SM.Rows
open Spec Spec.Reaction Props XR Matrix BRow

/-! ### gWud -/

/-- what the methods of the class see -/
noncomputable abbrev gWud.N [FPEnv] (c : Constants) (p : Nat → V4 ℝ) : Env := gWud.proc.env (gWud.rho c) p
/-- the term that `amp` adds for a choice of spinors, for a gluon of positive helicity (SM/gWud.cpp) -/
noncomputable def gWud.termP (N : Env) (w : ℝ) (x : ℂ) (a1 b1 j3 j4 : Int) : ℂ :=
  (x + (((((((w * N.r 6) : ℝ) : ℂ) * N.v 2 [a1, j4]) * (((((N.r 4 : ℝ) : ℂ) * N.v 1 [j3]) * N.v 3 [b1]) + (N.v 0 [b1] * (((((N.r 3 * N.r 3) : ℝ) : ℂ) * N.v 1 [j3]) - (((N.r 2 : ℝ) : ℂ) * N.v 4 [j3]))))) / N.c 1) / N.c 2))
/-- the same with spinors in place of their spins -/
noncomputable def gWud.formP (N : Env) (p : Nat → V4 ℝ) (z0 x1 y1 z2 z3 : Pair) : ℂ :=
  (0 + (((((((((1 : Nat) : ℝ) * N.r 6) : ℝ) : ℂ) * (ab x1.1 z3.1)) * (((((N.r 4 : ℝ) : ℂ) * (sb z0.2 z2.2)) * (mb z0.2 (p 3) y1.1)) + ((sb z0.2 y1.2) * (((((N.r 3 * N.r 3) : ℝ) : ℂ) * (sb z0.2 z2.2)) - (((N.r 2 : ℝ) : ℂ) * (mb z0.2 (p 3) z2.1)))))) / N.c 1) / N.c 2))
/-- the term that `amp` adds for a choice of spinors, for a gluon of negative helicity (SM/gWud.cpp) -/
noncomputable def gWud.termM (N : Env) (w : ℝ) (x : ℂ) (a1 b1 j3 j4 : Int) : ℂ :=
  (x + (((((((w * N.r 6) : ℝ) : ℂ) * N.v 7 [a1, j3]) * ((((((-N.r 4) : ℝ) : ℂ) * N.v 6 [j4]) * N.v 8 [b1]) + (N.v 5 [b1] * ((((((-N.r 2) * N.r 2) : ℝ) : ℂ) * N.v 6 [j4]) + (((N.r 3 : ℝ) : ℂ) * N.v 9 [j4]))))) / N.c 1) / N.c 2))
/-- the same with spinors in place of their spins -/
noncomputable def gWud.formM (N : Env) (p : Nat → V4 ℝ) (z0 x1 y1 z2 z3 : Pair) : ℂ :=
  (0 + (((((((((1 : Nat) : ℝ) * N.r 6) : ℝ) : ℂ) * (sb x1.2 z2.2)) * ((((((-N.r 4) : ℝ) : ℂ) * (ab z0.1 z3.1)) * (mb y1.2 (p 2) z0.1)) + ((ab z0.1 y1.1) * ((((((-N.r 2) * N.r 2) : ℝ) : ℂ) * (ab z0.1 z3.1)) + (((N.r 3 : ℝ) : ℂ) * (mb z3.2 (p 2) z0.1)))))) / N.c 1) / N.c 2))
theorem gWud.keyP {c : Constants} {p : Nat → V4 ℝ} {N : Env} (hc : c.Physical) (hb : Balanced p) (r2 : N.r 2 = (c.mass .u)) (r3 : N.r 3 = (c.mass .d)) (r4 : N.r 4 = c.MW) (r6 : N.r 6 = (((√(((2 : Nat) : ℝ)) * c.e) * c.gs) / (c.MW * c.SW))) (d1 : ((msq (plus (backward (p 3)) (p 1)) - c.mass .u ^ 2 : ℝ) : ℂ) = N.c 1) (n1 : N.c 1 ≠ 0) (d2 : ((msq (plus (backward (p 3)) (p 0)) - c.mass .d ^ 2 : ℝ) : ℂ) = N.c 2) (n2 : N.c 2 ≠ 0) {z0 z1 z2 z3 : Pair} (b1 : Bold (p 1) c.MW z1) (b2 : Bold (p 2) (c.mass .u) z2) (b3 : Bold (p 3) (c.mass .d) z3) (l0 : Light (p 0) z0) (e02 : mb z0.2 (p 2) z0.1 = -N.c 1) (e03 : mb z0.2 (p 3) z0.1 = -N.c 2) (q1 : msq (p 1) = c.MW ^ 2) (q2 : msq (p 2) = (c.mass .u) ^ 2) (q3 : msq (p 3) = (c.mass .d) ^ 2) (ρ0 : V2) :
    gWud.formP N p z0 z1 z1 z2 z3 * ab ρ0 z0.1 = ((√2 : ℝ) * ((1 : ℂ) * ((√2 / c.MW : ℝ) : ℂ))) * gWud.react.bare c p 2 3 0 1 z2 z3 (pv ρ0 z0.2) (pv z1.1 z1.2) := by
  rw [gWud.react.bare_parts c p (i := 2) (j := 3) (a := 0) (b := 1) (x := .gluon) (y := .wPlus) (k := (p 0)) (k' := (p 1)) (fun _ => rfl) (fun _ => rfl) (f := .d) (g := .u) rfl rfl (l := (backward (p 3))) rfl (e := 1) (e' := -1) (if_neg Bool.false_ne_true) (if_pos rfl)]
  rw [compton_vv (f := .d) (x := .d) (g := .u) (h := (rfl : Spec.after .gluon Flavour.d = some Flavour.d)) (h' := (rfl : Spec.after .wPlus Flavour.d = some Flavour.u)) (ha := by simp) (hb := by simp)]
  rw [compton_vv (f := .d) (x := .u) (g := .u) (h := (rfl : Spec.after .wPlus Flavour.d = some Flavour.u)) (h' := (rfl : Spec.after .gluon Flavour.u = some Flavour.u)) (ha := by simp) (hb := by simp)]
  rw [annihilation_none c _ _ (by rfl) (by simp), star_zero, add_zero, gWud.formP]
  simp only [d1, d2, lineV_pv, lineV_four, contract_four_pv, contract_pv, mb_plus, mb_backward]
  have i0 := sb_schouten z1.2 z2.2 z3.2 z0.2
  have i1 := mb_schouten_left z0.2 z1.2 z2.2 (p 2) z0.1
  have i2 := mb_schouten_right z0.2 (p 2) z0.1 z3.1 ρ0
  have i3 := mb_schouten_right z0.2 (p 2) z0.1 z1.1 z3.1
  have i4 := mb_schouten_right z0.2 (p 1) z0.1 z2.1 ρ0
  have i5 := mb_schouten_right z0.2 (p 2) z0.1 z2.1 ρ0
  have i6 := mb_schouten_right z1.2 (p 2) z0.1 z3.1 ρ0
  have i7 := mb_schouten_right z0.2 (p 1) z1.1 z3.1 ρ0
  have i8 := mb_schouten_right z0.2 (p 2) z1.1 z3.1 ρ0
  have i9 := mb_schouten_right z1.2 (p 2) z0.1 z1.1 ρ0
  have i10 := mb_schouten_right z0.2 (p 2) z0.1 z1.1 ρ0
  have i11 := mb_schouten_right z0.2 (p 1) z0.1 z1.1 z3.1
  have i12 := mb_schouten_left z0.2 z1.2 z3.2 (p 2) z1.1
  simp only [l0.mb_eq, b1.mb_left, b1.mb_right, b2.mb_left, b2.mb_right, b3.mb_left, b3.mb_right, e02, e03, mb_one hb z0.2 z0.1, mb_three hb z0.2 z1.1, mb_three hb z0.2 z2.1, mb_two hb z0.2 z3.1, mb_three hb z0.2 ρ0, mb_three hb z1.2 z0.1, mb_three hb z1.2 z1.1, mb_three hb z1.2 z2.1, mb_two hb z1.2 z3.1, mb_three hb z1.2 ρ0, mb_three hb z2.2 z0.1, mb_three hb z2.2 z1.1, mb_three hb z2.2 z2.1, mb_one hb z2.2 z3.1, mb_three hb z2.2 ρ0, mb_two hb z3.2 z0.1, mb_two hb z3.2 z1.1, mb_one hb z3.2 z2.1, mb_two hb z3.2 z3.1, mb_two hb z3.2 ρ0, ab_self, sb_self] at i0 i1 i2 i3 i4 i5 i6 i7 i8 i9 i10 i11 i12 ⊢
  simp only [ab_swap z0.1 z1.1, ab_swap z0.1 z2.1, ab_swap z0.1 z3.1, ab_swap z0.1 ρ0, ab_swap z1.1 z2.1, ab_swap z1.1 z3.1, ab_swap z1.1 ρ0, ab_swap z2.1 z3.1, ab_swap z2.1 ρ0, ab_swap z3.1 ρ0, sb_swap z0.2 z1.2, sb_swap z0.2 z2.2, sb_swap z0.2 z3.2, sb_swap z1.2 z2.2, sb_swap z1.2 z3.2, sb_swap z2.2 z3.2] at i0 i1 i2 i3 i4 i5 i6 i7 i8 i9 i10 i11 i12 ⊢
  simp only [r2, r3, r4, r6, Constants.hL, Constants.hR, Constants.gL, Constants.gR, Constants.yuk, Constants.invVev, Flavour.charge_d, Flavour.isospin_d, Flavour.charge_u, Flavour.isospin_u, ← c.mz]
  have xMW : (c.MW : ℂ) ≠ 0 := by exact_mod_cast hc.MW
  have xSW : (c.SW : ℂ) ≠ 0 := by exact_mod_cast hc.SW
  have xCW : (c.CW : ℂ) ≠ 0 := by exact_mod_cast hc.CW
  have x2 : ((√2 : ℝ) : ℂ) ≠ 0 := by exact_mod_cast (Real.sqrt_pos.2 two_pos).ne'
  have x22 : ((√2 : ℝ) : ℂ) ^ 2 = 2 := by rw [← Complex.ofReal_pow, Real.sq_sqrt two_pos.le]; norm_num
  have x23 : ((√2 : ℝ) : ℂ) ^ 3 = 2 * ((√2 : ℝ) : ℂ) := by rw [← x22]; ring
  have x24 : ((√2 : ℝ) : ℂ) ^ 4 = 4 := by linear_combination (((√2 : ℝ) : ℂ) ^ 2 + 2) * x22
  push_cast at i0 i1 i2 i3 i4 i5 i6 i7 i8 i9 i10 i11 i12 ⊢
  have y1 := mul_inv_cancel₀ n1
  have y2 := mul_inv_cancel₀ n2
  have yMW := mul_inv_cancel₀ xMW
  have yR2 : ((√2 : ℝ) : ℂ)⁻¹ = ((√2 : ℝ) : ℂ) / 2 := by rw [inv_eq_iff_eq_inv, inv_div, eq_div_iff x2, ← x22]; ring
  linear_combination ((((-1) * (((√2 : ℝ) : ℂ)) * ((c.e : ℂ)) * ((c.gs : ℂ)) * ((c.mass .d : ℂ)) * (N.c 1) * (ab z1.1 ρ0) + (1) * (((√2 : ℝ) : ℂ)) * ((c.e : ℂ)) * ((c.gs : ℂ)) * ((c.mass .d : ℂ)) * (ab z0.1 z1.1) * (mb z0.2 (p 2) ρ0) + (-1) * (((√2 : ℝ) : ℂ)) * ((c.e : ℂ)) * ((c.gs : ℂ)) * ((c.mass .d : ℂ)) * (ab z0.1 ρ0) * (mb z0.2 (p 2) z1.1)) * i0 + ((-1) * (((√2 : ℝ) : ℂ)) * ((c.e : ℂ)) * ((c.gs : ℂ)) * (ab z1.1 z3.1) * (mb z0.2 (p 1) ρ0) + (1) * (((√2 : ℝ) : ℂ)) * ((c.e : ℂ)) * ((c.gs : ℂ)) * (ab z1.1 z3.1) * (mb z0.2 (p 2) ρ0)) * i1 + ((-1) * (((√2 : ℝ) : ℂ)) * ((c.e : ℂ)) * ((c.gs : ℂ)) * (mb z0.2 (p 2) z1.1) * (sb z1.2 z2.2)) * i2 + ((-1) * (((√2 : ℝ) : ℂ)) * ((c.e : ℂ)) * ((c.gs : ℂ)) * (ab z0.1 ρ0) * (sb z0.2 z1.2) * (sb z0.2 z2.2) + (-1) * (((√2 : ℝ) : ℂ)) * ((c.e : ℂ)) * ((c.gs : ℂ)) * (mb z0.2 (p 2) ρ0) * (sb z1.2 z2.2) + (-1) * (((√2 : ℝ) : ℂ)) * ((c.e : ℂ)) * ((c.gs : ℂ)) * (mb z1.2 (p 2) ρ0) * (sb z0.2 z2.2)) * i3 + ((-1) * (((√2 : ℝ) : ℂ)) * ((c.e : ℂ)) * ((c.gs : ℂ)) * ((c.mass .u : ℂ)) * (ab z1.1 z3.1) * (sb z0.2 z1.2)) * i4 + ((1) * (((√2 : ℝ) : ℂ)) * ((c.e : ℂ)) * ((c.gs : ℂ)) * ((c.mass .u : ℂ)) * (ab z1.1 z3.1) * (sb z0.2 z1.2)) * i5 + ((-1) * ((c.MW : ℂ)) * (((√2 : ℝ) : ℂ)) * ((c.e : ℂ)) * ((c.gs : ℂ)) * (sb z0.2 z1.2) * (sb z0.2 z2.2) + (-1) * (((√2 : ℝ) : ℂ)) * ((c.e : ℂ)) * ((c.gs : ℂ)) * (mb z0.2 (p 2) z1.1) * (sb z0.2 z2.2)) * i6 + ((-1) * (((√2 : ℝ) : ℂ)) * ((c.e : ℂ)) * ((c.gs : ℂ)) * (N.c 1) * (sb z1.2 z2.2) + (-1) * (((√2 : ℝ) : ℂ)) * ((c.e : ℂ)) * ((c.gs : ℂ)) * (mb z1.2 (p 2) z0.1) * (sb z0.2 z2.2)) * i7 + ((1) * (((√2 : ℝ) : ℂ)) * ((c.e : ℂ)) * ((c.gs : ℂ)) * (mb z1.2 (p 2) z0.1) * (sb z0.2 z2.2)) * i8 + ((1) * (((√2 : ℝ) : ℂ)) * ((c.e : ℂ)) * ((c.gs : ℂ)) * ((c.mass .d : ℂ)) * (sb z0.2 z2.2) * (sb z0.2 z3.2)) * i9 + ((-1) * (((√2 : ℝ) : ℂ)) * ((c.e : ℂ)) * ((c.gs : ℂ)) * ((c.mass .d : ℂ)) * (sb z0.2 z1.2) * (sb z2.2 z3.2) + (1) * (((√2 : ℝ) : ℂ)) * ((c.e : ℂ)) * ((c.gs : ℂ)) * ((c.mass .d : ℂ)) * (sb z0.2 z2.2) * (sb z1.2 z3.2) + (1) * (((√2 : ℝ) : ℂ)) * ((c.e : ℂ)) * ((c.gs : ℂ)) * (mb z0.2 (p 1) z3.1) * (sb z1.2 z2.2)) * i10 + ((1) * (((√2 : ℝ) : ℂ)) * ((c.e : ℂ)) * ((c.gs : ℂ)) * (ab z0.1 ρ0) * (sb z0.2 z1.2) * (sb z0.2 z2.2) + (1) * (((√2 : ℝ) : ℂ)) * ((c.e : ℂ)) * ((c.gs : ℂ)) * (mb z1.2 (p 2) ρ0) * (sb z0.2 z2.2)) * i11 + ((-1) * (((√2 : ℝ) : ℂ)) * ((c.e : ℂ)) * ((c.gs : ℂ)) * ((c.mass .d : ℂ)) * (ab z0.1 ρ0) * (sb z0.2 z2.2)) * i12)) * ((1) * ((c.MW : ℂ)⁻¹) * ((c.SW : ℂ)⁻¹) * ((N.c 1)⁻¹) * ((N.c 2)⁻¹)) + ((-1) * ((c.MW : ℂ)) * (((√2 : ℝ) : ℂ)) * ((c.e : ℂ)) * ((c.gs : ℂ)) * ((c.MW : ℂ)⁻¹) * ((c.SW : ℂ)⁻¹) * ((N.c 2)⁻¹) * (ab z3.1 ρ0) * (sb z0.2 z1.2) * (sb z1.2 z2.2) + (1) * (((√2 : ℝ) : ℂ)) * ((c.e : ℂ)) * ((c.gs : ℂ)) * ((c.MW : ℂ)⁻¹) * ((c.SW : ℂ)⁻¹) * ((c.mass .d : ℂ)) * ((N.c 2)⁻¹) * (ab z1.1 ρ0) * (sb z0.2 z3.2) * (sb z1.2 z2.2) + (-1) * (((√2 : ℝ) : ℂ)) * ((c.e : ℂ)) * ((c.gs : ℂ)) * ((c.MW : ℂ)⁻¹) * ((c.SW : ℂ)⁻¹) * ((N.c 2)⁻¹) * (ab z3.1 ρ0) * (mb z0.2 (p 2) z1.1) * (sb z1.2 z2.2)) * y1 + ((-1) * (((√2 : ℝ) : ℂ)) * ((c.e : ℂ)) * ((c.gs : ℂ)) * ((c.MW : ℂ)⁻¹) * ((c.SW : ℂ)⁻¹) * ((c.mass .u : ℂ)) * ((N.c 1)⁻¹) * (ab z1.1 z3.1) * (ab z2.1 ρ0) * (sb z0.2 z1.2) + (1) * (((√2 : ℝ) : ℂ)) * ((c.e : ℂ)) * ((c.gs : ℂ)) * ((c.MW : ℂ)⁻¹) * ((c.SW : ℂ)⁻¹) * ((N.c 1)⁻¹) * (ab z0.1 ρ0) * (ab z1.1 z3.1) * (sb z0.2 z1.2) * (sb z0.2 z2.2) + (1) * (((√2 : ℝ) : ℂ)) * ((c.e : ℂ)) * ((c.gs : ℂ)) * ((c.MW : ℂ)⁻¹) * ((c.SW : ℂ)⁻¹) * ((N.c 1)⁻¹) * (ab z1.1 z3.1) * (mb z1.2 (p 2) ρ0) * (sb z0.2 z2.2)) * y2 + ((-1) * (((√2 : ℝ) : ℂ)) * ((c.e : ℂ)) * ((c.gs : ℂ)) * ((c.SW : ℂ)⁻¹) * ((N.c 2)⁻¹) * (ab z3.1 ρ0) * (sb z0.2 z1.2) * (sb z1.2 z2.2) + (1) * (((√2 : ℝ) : ℂ)) ^ 2 * ((c.e : ℂ)) * ((c.gs : ℂ)) * (((√2 : ℝ) : ℂ)⁻¹) * ((c.SW : ℂ)⁻¹) * ((N.c 2)⁻¹) * (ab z3.1 ρ0) * (sb z0.2 z1.2) * (sb z1.2 z2.2)) * yMW + ((-1) * (((√2 : ℝ) : ℂ)) ^ 2 * ((c.e : ℂ)) * ((c.gs : ℂ)) * ((c.MW : ℂ)⁻¹) * ((c.SW : ℂ)⁻¹) * ((c.mass .d : ℂ)) * ((N.c 2)⁻¹) * (ab z1.1 ρ0) * (sb z0.2 z3.2) * (sb z1.2 z2.2) + (1) * (((√2 : ℝ) : ℂ)) ^ 2 * ((c.e : ℂ)) * ((c.gs : ℂ)) * ((c.MW : ℂ)⁻¹) * ((c.SW : ℂ)⁻¹) * ((c.mass .u : ℂ)) * ((N.c 1)⁻¹) * (ab z1.1 z3.1) * (ab z2.1 ρ0) * (sb z0.2 z1.2) + (-1) * (((√2 : ℝ) : ℂ)) ^ 2 * ((c.e : ℂ)) * ((c.gs : ℂ)) * ((c.MW : ℂ)⁻¹) * ((c.SW : ℂ)⁻¹) * ((N.c 1)⁻¹) * (ab z0.1 ρ0) * (ab z1.1 z3.1) * (sb z0.2 z1.2) * (sb z0.2 z2.2) + (-1) * (((√2 : ℝ) : ℂ)) ^ 2 * ((c.e : ℂ)) * ((c.gs : ℂ)) * ((c.MW : ℂ)⁻¹) * ((c.SW : ℂ)⁻¹) * ((N.c 1)⁻¹) * (ab z1.1 z3.1) * (mb z1.2 (p 2) ρ0) * (sb z0.2 z2.2) + (1) * (((√2 : ℝ) : ℂ)) ^ 2 * ((c.e : ℂ)) * ((c.gs : ℂ)) * ((c.MW : ℂ)⁻¹) * ((c.SW : ℂ)⁻¹) * ((N.c 2)⁻¹) * (ab z3.1 ρ0) * (mb z0.2 (p 2) z1.1) * (sb z1.2 z2.2) + (1) * (((√2 : ℝ) : ℂ)) ^ 2 * ((c.e : ℂ)) * ((c.gs : ℂ)) * ((c.SW : ℂ)⁻¹) * ((N.c 2)⁻¹) * (ab z3.1 ρ0) * (sb z0.2 z1.2) * (sb z1.2 z2.2)) * yR2 + ((-1) * (((√2 : ℝ) : ℂ)) * ((c.e : ℂ)) * ((c.gs : ℂ)) * ((c.MW : ℂ)⁻¹) * ((c.SW : ℂ)⁻¹) * ((c.mass .d : ℂ)) * ((N.c 2)⁻¹) * (ab z1.1 ρ0) * (sb z0.2 z3.2) * (sb z1.2 z2.2) / (2) + (1) * (((√2 : ℝ) : ℂ)) * ((c.e : ℂ)) * ((c.gs : ℂ)) * ((c.MW : ℂ)⁻¹) * ((c.SW : ℂ)⁻¹) * ((c.mass .u : ℂ)) * ((N.c 1)⁻¹) * (ab z1.1 z3.1) * (ab z2.1 ρ0) * (sb z0.2 z1.2) / (2) + (-1) * (((√2 : ℝ) : ℂ)) * ((c.e : ℂ)) * ((c.gs : ℂ)) * ((c.MW : ℂ)⁻¹) * ((c.SW : ℂ)⁻¹) * ((N.c 1)⁻¹) * (ab z0.1 ρ0) * (ab z1.1 z3.1) * (sb z0.2 z1.2) * (sb z0.2 z2.2) / (2) + (-1) * (((√2 : ℝ) : ℂ)) * ((c.e : ℂ)) * ((c.gs : ℂ)) * ((c.MW : ℂ)⁻¹) * ((c.SW : ℂ)⁻¹) * ((N.c 1)⁻¹) * (ab z1.1 z3.1) * (mb z1.2 (p 2) ρ0) * (sb z0.2 z2.2) / (2) + (1) * (((√2 : ℝ) : ℂ)) * ((c.e : ℂ)) * ((c.gs : ℂ)) * ((c.MW : ℂ)⁻¹) * ((c.SW : ℂ)⁻¹) * ((N.c 2)⁻¹) * (ab z3.1 ρ0) * (mb z0.2 (p 2) z1.1) * (sb z1.2 z2.2) / (2) + (1) * (((√2 : ℝ) : ℂ)) * ((c.e : ℂ)) * ((c.gs : ℂ)) * ((c.SW : ℂ)⁻¹) * ((N.c 2)⁻¹) * (ab z3.1 ρ0) * (sb z0.2 z1.2) * (sb z1.2 z2.2) / (2)) * x22
theorem gWud.keyM {c : Constants} {p : Nat → V4 ℝ} {N : Env} (hc : c.Physical) (hb : Balanced p) (r2 : N.r 2 = (c.mass .u)) (r3 : N.r 3 = (c.mass .d)) (r4 : N.r 4 = c.MW) (r6 : N.r 6 = (((√(((2 : Nat) : ℝ)) * c.e) * c.gs) / (c.MW * c.SW))) (d1 : ((msq (plus (backward (p 3)) (p 1)) - c.mass .u ^ 2 : ℝ) : ℂ) = N.c 1) (n1 : N.c 1 ≠ 0) (d2 : ((msq (plus (backward (p 3)) (p 0)) - c.mass .d ^ 2 : ℝ) : ℂ) = N.c 2) (n2 : N.c 2 ≠ 0) {z0 z1 z2 z3 : Pair} (b1 : Bold (p 1) c.MW z1) (b2 : Bold (p 2) (c.mass .u) z2) (b3 : Bold (p 3) (c.mass .d) z3) (l0 : Light (p 0) z0) (e02 : mb z0.2 (p 2) z0.1 = -N.c 1) (e03 : mb z0.2 (p 3) z0.1 = -N.c 2) (q1 : msq (p 1) = c.MW ^ 2) (q2 : msq (p 2) = (c.mass .u) ^ 2) (q3 : msq (p 3) = (c.mass .d) ^ 2) (ρ0 : V2) :
    gWud.formM N p z0 z1 z1 z2 z3 * sb ρ0 z0.2 = ((√2 : ℝ) * ((1 : ℂ) * ((√2 / c.MW : ℝ) : ℂ))) * gWud.react.bare c p 2 3 0 1 z2 z3 (pv z0.1 ρ0) (pv z1.1 z1.2) := by
  rw [gWud.react.bare_parts c p (i := 2) (j := 3) (a := 0) (b := 1) (x := .gluon) (y := .wPlus) (k := (p 0)) (k' := (p 1)) (fun _ => rfl) (fun _ => rfl) (f := .d) (g := .u) rfl rfl (l := (backward (p 3))) rfl (e := 1) (e' := -1) (if_neg Bool.false_ne_true) (if_pos rfl)]
  rw [compton_vv (f := .d) (x := .d) (g := .u) (h := (rfl : Spec.after .gluon Flavour.d = some Flavour.d)) (h' := (rfl : Spec.after .wPlus Flavour.d = some Flavour.u)) (ha := by simp) (hb := by simp)]
  rw [compton_vv (f := .d) (x := .u) (g := .u) (h := (rfl : Spec.after .wPlus Flavour.d = some Flavour.u)) (h' := (rfl : Spec.after .gluon Flavour.u = some Flavour.u)) (ha := by simp) (hb := by simp)]
  rw [annihilation_none c _ _ (by rfl) (by simp), star_zero, add_zero, gWud.formM]
  simp only [d1, d2, lineV_pv, lineV_four, contract_four_pv, contract_pv, mb_plus, mb_backward]
  have i0 := mb_schouten_left z0.2 z1.2 ρ0 (p 1) z0.1
  have i1 := mb_schouten_left z0.2 z2.2 ρ0 (p 2) z0.1
  have i2 := mb_schouten_left z0.2 z1.2 ρ0 (p 2) z0.1
  have i3 := mb_schouten_left z0.2 z1.2 z2.2 (p 2) z0.1
  have i4 := mb_schouten_left z0.2 z1.2 z2.2 (p 1) z0.1
  have i5 := mb_schouten_right ρ0 (p 2) z0.1 z1.1 z3.1
  have i6 := sb_schouten z2.2 z3.2 ρ0 z0.2
  have i7 := mb_schouten_right ρ0 (p 1) z0.1 z1.1 z3.1
  have i8 := mb_schouten_left z0.2 z2.2 z3.2 (p 2) z0.1
  have i9 := mb_schouten_left z0.2 z1.2 z3.2 (p 2) z0.1
  have i10 := sb_schouten z1.2 z2.2 ρ0 z0.2
  have i11 := sb_schouten z2.2 z3.2 ρ0 z1.2
  have i12 := mb_schouten_right z1.2 (p 2) z0.1 z1.1 z3.1
  have i13 := mb_schouten_left z0.2 z2.2 ρ0 (p 1) z0.1
  have i14 := sb_schouten z1.2 z3.2 ρ0 z0.2
  have i15 := mb_schouten_right z2.2 (p 1) z0.1 z1.1 z3.1
  have i16 := ab_schouten z1.1 z2.1 z3.1 z0.1
  have i17 := mb_schouten_right z1.2 (p 2) z0.1 z1.1 z2.1
  simp only [l0.mb_eq, b1.mb_left, b1.mb_right, b2.mb_left, b2.mb_right, b3.mb_left, b3.mb_right, e02, e03, mb_one hb z0.2 z0.1, mb_three hb z0.2 z1.1, mb_three hb z0.2 z2.1, mb_two hb z0.2 z3.1, mb_three hb z1.2 z0.1, mb_three hb z1.2 z1.1, mb_three hb z1.2 z2.1, mb_two hb z1.2 z3.1, mb_three hb z2.2 z0.1, mb_three hb z2.2 z1.1, mb_three hb z2.2 z2.1, mb_one hb z2.2 z3.1, mb_two hb z3.2 z0.1, mb_two hb z3.2 z1.1, mb_one hb z3.2 z2.1, mb_two hb z3.2 z3.1, mb_three hb ρ0 z0.1, mb_three hb ρ0 z1.1, mb_three hb ρ0 z2.1, mb_two hb ρ0 z3.1, ab_self, sb_self] at i0 i1 i2 i3 i4 i5 i6 i7 i8 i9 i10 i11 i12 i13 i14 i15 i16 i17 ⊢
  simp only [ab_swap z0.1 z1.1, ab_swap z0.1 z2.1, ab_swap z0.1 z3.1, ab_swap z1.1 z2.1, ab_swap z1.1 z3.1, ab_swap z2.1 z3.1, sb_swap z0.2 z1.2, sb_swap z0.2 z2.2, sb_swap z0.2 z3.2, sb_swap z0.2 ρ0, sb_swap z1.2 z2.2, sb_swap z1.2 z3.2, sb_swap z1.2 ρ0, sb_swap z2.2 z3.2, sb_swap z2.2 ρ0, sb_swap z3.2 ρ0] at i0 i1 i2 i3 i4 i5 i6 i7 i8 i9 i10 i11 i12 i13 i14 i15 i16 i17 ⊢
  simp only [r2, r3, r4, r6, Constants.hL, Constants.hR, Constants.gL, Constants.gR, Constants.yuk, Constants.invVev, Flavour.charge_d, Flavour.isospin_d, Flavour.charge_u, Flavour.isospin_u, ← c.mz]
  have xMW : (c.MW : ℂ) ≠ 0 := by exact_mod_cast hc.MW
  have xSW : (c.SW : ℂ) ≠ 0 := by exact_mod_cast hc.SW
  have xCW : (c.CW : ℂ) ≠ 0 := by exact_mod_cast hc.CW
  have x2 : ((√2 : ℝ) : ℂ) ≠ 0 := by exact_mod_cast (Real.sqrt_pos.2 two_pos).ne'
  have x22 : ((√2 : ℝ) : ℂ) ^ 2 = 2 := by rw [← Complex.ofReal_pow, Real.sq_sqrt two_pos.le]; norm_num
  have x23 : ((√2 : ℝ) : ℂ) ^ 3 = 2 * ((√2 : ℝ) : ℂ) := by rw [← x22]; ring
  have x24 : ((√2 : ℝ) : ℂ) ^ 4 = 4 := by linear_combination (((√2 : ℝ) : ℂ) ^ 2 + 2) * x22
  push_cast at i0 i1 i2 i3 i4 i5 i6 i7 i8 i9 i10 i11 i12 i13 i14 i15 i16 i17 ⊢
  have y1 := mul_inv_cancel₀ n1
  have y2 := mul_inv_cancel₀ n2
  have yMW := mul_inv_cancel₀ xMW
  have yR2 : ((√2 : ℝ) : ℂ)⁻¹ = ((√2 : ℝ) : ℂ) / 2 := by rw [inv_eq_iff_eq_inv, inv_div, eq_div_iff x2, ← x22]; ring
  linear_combination ((((-1) * (((√2 : ℝ) : ℂ)) * ((c.e : ℂ)) * ((c.gs : ℂ)) * ((c.mass .u : ℂ)) * (ab z0.1 z2.1) * (ab z1.1 z3.1) + (-1) * (((√2 : ℝ) : ℂ)) * ((c.e : ℂ)) * ((c.gs : ℂ)) * (ab z0.1 z1.1) * (ab z0.1 z3.1) * (sb z0.2 z2.2)) * i0 + ((-1) * ((c.MW : ℂ)) * (((√2 : ℝ) : ℂ)) * ((c.e : ℂ)) * ((c.gs : ℂ)) * (ab z0.1 z1.1) * (ab z1.1 z3.1) + (-1) * (((√2 : ℝ) : ℂ)) * ((c.e : ℂ)) * ((c.gs : ℂ)) * ((c.mass .d : ℂ)) * (ab z0.1 z1.1) * (sb z1.2 z3.2) + (1) * (((√2 : ℝ) : ℂ)) * ((c.e : ℂ)) * ((c.gs : ℂ)) * (ab z0.1 z3.1) * (mb z1.2 (p 2) z1.1)) * i1 + ((1) * (((√2 : ℝ) : ℂ)) * ((c.e : ℂ)) * ((c.gs : ℂ)) * ((c.mass .u : ℂ)) * (ab z0.1 z2.1) * (ab z1.1 z3.1) + (1) * (((√2 : ℝ) : ℂ)) * ((c.e : ℂ)) * ((c.gs : ℂ)) * (ab z0.1 z1.1) * (ab z0.1 z3.1) * (sb z0.2 z2.2)) * i2 + ((-1) * ((c.MW : ℂ)) * (((√2 : ℝ) : ℂ)) * ((c.e : ℂ)) * ((c.gs : ℂ)) * (ab z0.1 z3.1) * (sb z1.2 ρ0) + (-1) * (((√2 : ℝ) : ℂ)) * ((c.e : ℂ)) * ((c.gs : ℂ)) * (ab z0.1 z1.1) * (ab z0.1 z3.1) * (sb z0.2 ρ0) + (1) * (((√2 : ℝ) : ℂ)) * ((c.e : ℂ)) * ((c.gs : ℂ)) * (ab z0.1 z3.1) * (mb ρ0 (p 2) z1.1)) * i3 + ((1) * (((√2 : ℝ) : ℂ)) * ((c.e : ℂ)) * ((c.gs : ℂ)) * (ab z0.1 z1.1) * (ab z0.1 z3.1) * (sb z0.2 ρ0)) * i4 + ((-1) * (((√2 : ℝ) : ℂ)) * ((c.e : ℂ)) * ((c.gs : ℂ)) * ((c.mass .u : ℂ)) * (ab z0.1 z2.1) * (sb z0.2 z1.2) + (-1) * (((√2 : ℝ) : ℂ)) * ((c.e : ℂ)) * ((c.gs : ℂ)) * (mb z1.2 (p 2) z0.1) * (sb z0.2 z2.2)) * i5 + ((-1) * (((√2 : ℝ) : ℂ)) * ((c.e : ℂ)) * ((c.gs : ℂ)) * ((c.mass .d : ℂ)) * (ab z0.1 z1.1) * (mb z1.2 (p 2) z0.1)) * i6 + ((1) * (((√2 : ℝ) : ℂ)) * ((c.e : ℂ)) * ((c.gs : ℂ)) * ((c.mass .u : ℂ)) * (ab z0.1 z2.1) * (sb z0.2 z1.2) + (1) * (((√2 : ℝ) : ℂ)) * ((c.e : ℂ)) * ((c.gs : ℂ)) * (mb z1.2 (p 2) z0.1) * (sb z0.2 z2.2)) * i7 + ((-1) * (((√2 : ℝ) : ℂ)) * ((c.e : ℂ)) * ((c.gs : ℂ)) * ((c.mass .d : ℂ)) * (ab z0.1 z1.1) * (sb z1.2 ρ0)) * i8 + ((1) * (((√2 : ℝ) : ℂ)) * ((c.e : ℂ)) * ((c.gs : ℂ)) * ((c.mass .d : ℂ)) * (ab z0.1 z1.1) * (sb z2.2 ρ0)) * i9 + ((-1) * (((√2 : ℝ) : ℂ)) * ((c.e : ℂ)) * ((c.gs : ℂ)) * ((c.mass .d : ℂ)) * (ab z0.1 z1.1) * (mb z3.2 (p 1) z0.1) + (-1) * (((√2 : ℝ) : ℂ)) * ((c.e : ℂ)) * ((c.gs : ℂ)) * ((c.mass .d : ℂ)) ^ 2 * (ab z0.1 z1.1) * (ab z0.1 z3.1) + (1) * (((√2 : ℝ) : ℂ)) * ((c.e : ℂ)) * ((c.gs : ℂ)) * (N.c 2) * (ab z0.1 z1.1) * (ab z0.1 z3.1)) * i10 + ((-1) * (((√2 : ℝ) : ℂ)) * ((c.e : ℂ)) * ((c.gs : ℂ)) * ((c.mass .d : ℂ)) * (N.c 1) * (ab z0.1 z1.1)) * i11 + ((2) * (((√2 : ℝ) : ℂ)) * ((c.e : ℂ)) * ((c.gs : ℂ)) * ((c.mass .u : ℂ)) * (ab z0.1 z2.1) * (sb z0.2 ρ0) + (1) * (((√2 : ℝ) : ℂ)) * ((c.e : ℂ)) * ((c.gs : ℂ)) * (N.c 2) * (sb z2.2 ρ0) + (1) * (((√2 : ℝ) : ℂ)) * ((c.e : ℂ)) * ((c.gs : ℂ)) * (mb z2.2 (p 1) z0.1) * (sb z0.2 ρ0) + (-1) * (((√2 : ℝ) : ℂ)) * ((c.e : ℂ)) * ((c.gs : ℂ)) * (mb ρ0 (p 1) z0.1) * (sb z0.2 z2.2) + (1) * (((√2 : ℝ) : ℂ)) * ((c.e : ℂ)) * ((c.gs : ℂ)) * (mb ρ0 (p 2) z0.1) * (sb z0.2 z2.2)) * i12 + ((1) * ((c.MW : ℂ)) * (((√2 : ℝ) : ℂ)) * ((c.e : ℂ)) * ((c.gs : ℂ)) * (ab z0.1 z1.1) * (ab z1.1 z3.1) + (1) * (((√2 : ℝ) : ℂ)) * ((c.e : ℂ)) * ((c.gs : ℂ)) * ((c.mass .d : ℂ)) * (ab z0.1 z1.1) * (sb z1.2 z3.2) + (-1) * (((√2 : ℝ) : ℂ)) * ((c.e : ℂ)) * ((c.gs : ℂ)) * (ab z0.1 z3.1) * (mb z1.2 (p 2) z1.1)) * i13 + ((-1) * (((√2 : ℝ) : ℂ)) * ((c.e : ℂ)) * ((c.gs : ℂ)) * ((c.mass .d : ℂ)) * ((c.mass .u : ℂ)) * (ab z0.1 z1.1) * (ab z0.1 z2.1)) * i14 + ((-1) * (((√2 : ℝ) : ℂ)) * ((c.e : ℂ)) * ((c.gs : ℂ)) * (mb z1.2 (p 2) z0.1) * (sb z0.2 ρ0)) * i15 + ((1) * (((√2 : ℝ) : ℂ)) * ((c.e : ℂ)) * ((c.gs : ℂ)) * ((c.mass .u : ℂ)) * (mb z1.2 (p 2) z0.1) * (sb z0.2 ρ0)) * i16 + ((-1) * (((√2 : ℝ) : ℂ)) * ((c.e : ℂ)) * ((c.gs : ℂ)) * ((c.mass .u : ℂ)) * (ab z0.1 z3.1) * (sb z0.2 ρ0)) * i17)) * ((1) * ((c.MW : ℂ)⁻¹) * ((c.SW : ℂ)⁻¹) * ((N.c 1)⁻¹) * ((N.c 2)⁻¹)) + ((-1) * ((c.MW : ℂ)) * (((√2 : ℝ) : ℂ)) * ((c.e : ℂ)) * ((c.gs : ℂ)) * ((c.MW : ℂ)⁻¹) * ((c.SW : ℂ)⁻¹) * ((N.c 2)⁻¹) * (ab z0.1 z3.1) * (sb z1.2 z2.2) * (sb z1.2 ρ0) + (1) * (((√2 : ℝ) : ℂ)) * ((c.e : ℂ)) * ((c.gs : ℂ)) * ((c.MW : ℂ)⁻¹) * ((c.SW : ℂ)⁻¹) * ((c.mass .d : ℂ)) * ((N.c 2)⁻¹) * (ab z0.1 z1.1) * (sb z1.2 z2.2) * (sb z3.2 ρ0) + (1) * (((√2 : ℝ) : ℂ)) * ((c.e : ℂ)) * ((c.gs : ℂ)) * ((c.MW : ℂ)⁻¹) * ((c.SW : ℂ)⁻¹) * ((N.c 2)⁻¹) * (ab z0.1 z3.1) * (mb ρ0 (p 2) z1.1) * (sb z1.2 z2.2)) * y1 + ((-1) * (((√2 : ℝ) : ℂ)) * ((c.e : ℂ)) * ((c.gs : ℂ)) * ((c.MW : ℂ)⁻¹) * ((c.SW : ℂ)⁻¹) * ((c.mass .u : ℂ)) * ((N.c 1)⁻¹) * (ab z0.1 z2.1) * (ab z1.1 z3.1) * (sb z1.2 ρ0) + (-1) * (((√2 : ℝ) : ℂ)) * ((c.e : ℂ)) * ((c.gs : ℂ)) * ((c.MW : ℂ)⁻¹) * ((c.SW : ℂ)⁻¹) * ((N.c 1)⁻¹) * (ab z1.1 z3.1) * (mb z1.2 (p 2) z0.1) * (sb z2.2 ρ0)) * y2 + ((-1) * (((√2 : ℝ) : ℂ)) * ((c.e : ℂ)) * ((c.gs : ℂ)) * ((c.SW : ℂ)⁻¹) * ((N.c 2)⁻¹) * (ab z0.1 z3.1) * (sb z1.2 z2.2) * (sb z1.2 ρ0) + (1) * (((√2 : ℝ) : ℂ)) ^ 2 * ((c.e : ℂ)) * ((c.gs : ℂ)) * (((√2 : ℝ) : ℂ)⁻¹) * ((c.SW : ℂ)⁻¹) * ((N.c 2)⁻¹) * (ab z0.1 z3.1) * (sb z1.2 z2.2) * (sb z1.2 ρ0)) * yMW + ((-1) * (((√2 : ℝ) : ℂ)) ^ 2 * ((c.e : ℂ)) * ((c.gs : ℂ)) * ((c.MW : ℂ)⁻¹) * ((c.SW : ℂ)⁻¹) * ((c.mass .d : ℂ)) * ((N.c 2)⁻¹) * (ab z0.1 z1.1) * (sb z1.2 z2.2) * (sb z3.2 ρ0) + (1) * (((√2 : ℝ) : ℂ)) ^ 2 * ((c.e : ℂ)) * ((c.gs : ℂ)) * ((c.MW : ℂ)⁻¹) * ((c.SW : ℂ)⁻¹) * ((c.mass .u : ℂ)) * ((N.c 1)⁻¹) * (ab z0.1 z2.1) * (ab z1.1 z3.1) * (sb z1.2 ρ0) + (1) * (((√2 : ℝ) : ℂ)) ^ 2 * ((c.e : ℂ)) * ((c.gs : ℂ)) * ((c.MW : ℂ)⁻¹) * ((c.SW : ℂ)⁻¹) * ((N.c 1)⁻¹) * (ab z1.1 z3.1) * (mb z1.2 (p 2) z0.1) * (sb z2.2 ρ0) + (-1) * (((√2 : ℝ) : ℂ)) ^ 2 * ((c.e : ℂ)) * ((c.gs : ℂ)) * ((c.MW : ℂ)⁻¹) * ((c.SW : ℂ)⁻¹) * ((N.c 2)⁻¹) * (ab z0.1 z3.1) * (mb ρ0 (p 2) z1.1) * (sb z1.2 z2.2) + (1) * (((√2 : ℝ) : ℂ)) ^ 2 * ((c.e : ℂ)) * ((c.gs : ℂ)) * ((c.SW : ℂ)⁻¹) * ((N.c 2)⁻¹) * (ab z0.1 z3.1) * (sb z1.2 z2.2) * (sb z1.2 ρ0)) * yR2 + ((-1) * (((√2 : ℝ) : ℂ)) * ((c.e : ℂ)) * ((c.gs : ℂ)) * ((c.MW : ℂ)⁻¹) * ((c.SW : ℂ)⁻¹) * ((c.mass .d : ℂ)) * ((N.c 2)⁻¹) * (ab z0.1 z1.1) * (sb z1.2 z2.2) * (sb z3.2 ρ0) / (2) + (1) * (((√2 : ℝ) : ℂ)) * ((c.e : ℂ)) * ((c.gs : ℂ)) * ((c.MW : ℂ)⁻¹) * ((c.SW : ℂ)⁻¹) * ((c.mass .u : ℂ)) * ((N.c 1)⁻¹) * (ab z0.1 z2.1) * (ab z1.1 z3.1) * (sb z1.2 ρ0) / (2) + (1) * (((√2 : ℝ) : ℂ)) * ((c.e : ℂ)) * ((c.gs : ℂ)) * ((c.MW : ℂ)⁻¹) * ((c.SW : ℂ)⁻¹) * ((N.c 1)⁻¹) * (ab z1.1 z3.1) * (mb z1.2 (p 2) z0.1) * (sb z2.2 ρ0) / (2) + (-1) * (((√2 : ℝ) : ℂ)) * ((c.e : ℂ)) * ((c.gs : ℂ)) * ((c.MW : ℂ)⁻¹) * ((c.SW : ℂ)⁻¹) * ((N.c 2)⁻¹) * (ab z0.1 z3.1) * (mb ρ0 (p 2) z1.1) * (sb z1.2 z2.2) / (2) + (1) * (((√2 : ℝ) : ℂ)) * ((c.e : ℂ)) * ((c.gs : ℂ)) * ((c.SW : ℂ)⁻¹) * ((N.c 2)⁻¹) * (ab z0.1 z3.1) * (sb z1.2 z2.2) * (sb z1.2 ρ0) / (2)) * x22
set_option maxRecDepth 8000 in
theorem gWud.amp2_eq (N : Env) (f : Nat → List Int → ℂ) : Cls.gWud.m_amp2.mean N f .r [] =
    ((sumW (fun x a => (sumV (fun x b => (sumJ (fun x c => (sumJ (fun x d => (x + (((4 : Nat) : ℝ) * (‖(f 0 [a, b, c, d])‖ ^ 2)))) x)) x)) x)) ((0 : Nat) : ℝ)) / ((48 : Nat) : ℝ)) := by rfl
set_option maxRecDepth 8000 in
theorem gWud.value (N : Env) : meaning N .r Cls.gWud.methods Cls.gWud.amp2 [] =
    ((sumW (fun x a => (sumV (fun x b => (sumJ (fun x c => (sumJ (fun x d => (x + (((4 : Nat) : ℝ) * (‖(Cls.gWud.m_amp.mean N (callMean N []) .c [a, b, c, d])‖ ^ 2)))) x)) x)) x)) ((0 : Nat) : ℝ)) / ((48 : Nat) : ℝ)) :=
  gWud.amp2_eq N (callMean N [Cls.gWud.m_amp])
theorem gWud.termP_lin (N : Env) (w : ℝ) (x : ℂ) (a1 b1 j3 j4 : Int) : gWud.termP N w x a1 b1 j3 j4 = x + (w : ℂ) * gWud.termP N 1 0 a1 b1 j3 j4 := by
  simp only [gWud.termP]; push_cast; ring
theorem gWud.termM_lin (N : Env) (w : ℝ) (x : ℂ) (a1 b1 j3 j4 : Int) : gWud.termM N w x a1 b1 j3 j4 = x + (w : ℂ) * gWud.termM N 1 0 a1 b1 j3 j4 := by
  simp only [gWud.termM]; push_cast; ring
set_option maxRecDepth 8000 in
theorem gWud.ampP (N : Env) (f : Nat → List Int → ℂ) (j3 j4 : Int) (t1 : Fin 3) : Cls.gWud.m_amp.mean N f .c [2, spinV t1, j3, j4] = comb t1 (fun a1 b1 => gWud.termP N 1 0 (spinOf a1) (spinOf b1) j3 j4) := by
  refine (amp_mean N f (m := 4) (K := 6) (G := fun i => if 0 < i 0 then gWud.termP N 1 0 (i 4) (i 5) (i 2) (i 3) else if i 0 < 0 then gWud.termM N 1 0 (i 4) (i 5) (i 2) (i 3) else 0) (fun l => ?_) (fun i i' h => ?_) rfl (by decide) (by decide) (by decide) (by decide) (by decide)).trans ?_
  · by_cases h : 0 < l.i 0
    · refine ⟨_, (if_pos (decide_eq_true h)).trans rfl, rfl, rfl, ?_⟩; rw [if_pos h]; exact gWud.termP_lin ..
    · by_cases h' : l.i 0 < 0
      · refine ⟨_, (if_neg (fun e => h (of_decide_eq_true e))).trans ((if_pos (decide_eq_true h')).trans rfl), rfl, rfl, ?_⟩; rw [if_neg h, if_pos h']; exact gWud.termM_lin ..
      · refine ⟨_, (if_neg (fun e => h (of_decide_eq_true e))).trans ((if_neg (fun e => h' (of_decide_eq_true e))).trans rfl), rfl, rfl, ?_⟩; rw [if_neg h, if_neg h', mul_zero, add_zero]
  · simp only [h 0 (by decide), h 2 (by decide), h 3 (by decide), h 4 (by decide), h 5 (by decide)]
  · show amp' _ [spinV t1] = _
    simp only [amp'_comb, amp'_nil]
    rfl
theorem gWud.formP_x1 (N : Env) (p : Nat → V4 ℝ) (z0 y1 z2 z3 x y : Pair) : gWud.formP N p z0 (x + y) y1 z2 z3 = gWud.formP N p z0 x y1 z2 z3 + gWud.formP N p z0 y y1 z2 z3 := by
  simp only [gWud.formP, Prod.fst_add, Prod.snd_add, ab_add_left, ab_add_right, sb_add_left, sb_add_right, mb_add_left, mb_add_right]
  ring
theorem gWud.formP_y1 (N : Env) (p : Nat → V4 ℝ) (z0 x1 z2 z3 x y : Pair) : gWud.formP N p z0 x1 (x + y) z2 z3 = gWud.formP N p z0 x1 x z2 z3 + gWud.formP N p z0 x1 y z2 z3 := by
  simp only [gWud.formP, Prod.fst_add, Prod.snd_add, ab_add_left, ab_add_right, sb_add_left, sb_add_right, mb_add_left, mb_add_right]
  ring
set_option maxRecDepth 8000 in
theorem gWud.ampM (N : Env) (f : Nat → List Int → ℂ) (j3 j4 : Int) (t1 : Fin 3) : Cls.gWud.m_amp.mean N f .c [(-2), spinV t1, j3, j4] = comb t1 (fun a1 b1 => gWud.termM N 1 0 (spinOf a1) (spinOf b1) j3 j4) := by
  refine (amp_mean N f (m := 4) (K := 6) (G := fun i => if 0 < i 0 then gWud.termP N 1 0 (i 4) (i 5) (i 2) (i 3) else if i 0 < 0 then gWud.termM N 1 0 (i 4) (i 5) (i 2) (i 3) else 0) (fun l => ?_) (fun i i' h => ?_) rfl (by decide) (by decide) (by decide) (by decide) (by decide)).trans ?_
  · by_cases h : 0 < l.i 0
    · refine ⟨_, (if_pos (decide_eq_true h)).trans rfl, rfl, rfl, ?_⟩; rw [if_pos h]; exact gWud.termP_lin ..
    · by_cases h' : l.i 0 < 0
      · refine ⟨_, (if_neg (fun e => h (of_decide_eq_true e))).trans ((if_pos (decide_eq_true h')).trans rfl), rfl, rfl, ?_⟩; rw [if_neg h, if_pos h']; exact gWud.termM_lin ..
      · refine ⟨_, (if_neg (fun e => h (of_decide_eq_true e))).trans ((if_neg (fun e => h' (of_decide_eq_true e))).trans rfl), rfl, rfl, ?_⟩; rw [if_neg h, if_neg h', mul_zero, add_zero]
  · simp only [h 0 (by decide), h 2 (by decide), h 3 (by decide), h 4 (by decide), h 5 (by decide)]
  · show amp' _ [spinV t1] = _
    simp only [amp'_comb, amp'_nil]
    rfl
theorem gWud.formM_x1 (N : Env) (p : Nat → V4 ℝ) (z0 y1 z2 z3 x y : Pair) : gWud.formM N p z0 (x + y) y1 z2 z3 = gWud.formM N p z0 x y1 z2 z3 + gWud.formM N p z0 y y1 z2 z3 := by
  simp only [gWud.formM, Prod.fst_add, Prod.snd_add, ab_add_left, ab_add_right, sb_add_left, sb_add_right, mb_add_left, mb_add_right]
  ring
theorem gWud.formM_y1 (N : Env) (p : Nat → V4 ℝ) (z0 x1 z2 z3 x y : Pair) : gWud.formM N p z0 x1 (x + y) z2 z3 = gWud.formM N p z0 x1 x z2 z3 + gWud.formM N p z0 x1 y z2 z3 := by
  simp only [gWud.formM, Prod.fst_add, Prod.snd_add, ab_add_left, ab_add_right, sb_add_left, sb_add_right, mb_add_left, mb_add_right]
  ring
set_option maxRecDepth 8000 in
theorem gWud.ampP_one (N : Env) (f : Nat → List Int → ℂ) (j3 j4 : Int) (t1 : Fin 3) : Cls.gWud.m_amp.mean N f .c [1, spinV t1, j3, j4] = comb t1 (fun a1 b1 => gWud.termP N 1 0 (spinOf a1) (spinOf b1) j3 j4) := by
  refine (amp_mean N f (m := 4) (K := 6) (G := fun i => if 0 < i 0 then gWud.termP N 1 0 (i 4) (i 5) (i 2) (i 3) else if i 0 < 0 then gWud.termM N 1 0 (i 4) (i 5) (i 2) (i 3) else 0) (fun l => ?_) (fun i i' h => ?_) rfl (by decide) (by decide) (by decide) (by decide) (by decide)).trans ?_
  · by_cases h : 0 < l.i 0
    · refine ⟨_, (if_pos (decide_eq_true h)).trans rfl, rfl, rfl, ?_⟩; rw [if_pos h]; exact gWud.termP_lin ..
    · by_cases h' : l.i 0 < 0
      · refine ⟨_, (if_neg (fun e => h (of_decide_eq_true e))).trans ((if_pos (decide_eq_true h')).trans rfl), rfl, rfl, ?_⟩; rw [if_neg h, if_pos h']; exact gWud.termM_lin ..
      · refine ⟨_, (if_neg (fun e => h (of_decide_eq_true e))).trans ((if_neg (fun e => h' (of_decide_eq_true e))).trans rfl), rfl, rfl, ?_⟩; rw [if_neg h, if_neg h', mul_zero, add_zero]
  · simp only [h 0 (by decide), h 2 (by decide), h 3 (by decide), h 4 (by decide), h 5 (by decide)]
  · show amp' _ [spinV t1] = _
    simp only [amp'_comb, amp'_nil]
    rfl

theorem gWud.mass_eq {c : Constants} (hc : c.Physical) (i : Fin 4) : gWud.proc.massNum (gWud.rho c) i = gWud.react.mass c i := by
  fin_cases i <;> first | rfl | exact Nat.cast_zero | exact Nat.cast_zero.trans (hc.neutrino _).symm | (show c.MW / √(((1 : Nat) : ℝ) - c.SW * c.SW) = c.MZ; rw [c.root, c.mz])

variable [FPEnv] in
theorem gWud.amps {c : Constants} {p : Nat → V4 ℝ} {u : Fin 4 → Fin 3 → Spinor} {ε : Fin 4 → Fin 3 → Vec} (hc : c.Physical) (hh : c.Heavy) (h0 : ∀ i, 0 ≤ gWud.react.mass c i) (hs : ∀ i : Fin 4, OnShell (p i) (gWud.react.mass c i)) (hb : Balanced p) (hr : gWud.react.Regular c p) (hu : ∀ i, gWud.react.Complete c p i (u i) (ε i)) :
    (gWud.N c p).c 1 ≠ 0 ∧ (gWud.N c p).c 2 ≠ 0 ∧ (∀ n, (Ty.r, n) ∈ gWud.proc.divides → (gWud.N c p).r n ≠ 0) ∧ (∀ n, (Ty.c, n) ∈ gWud.proc.divides → (gWud.N c p).c n ≠ 0) ∧ ∀ (s2 : Fin 2) (s3 : Fin 2) (h0 : Fin 2) (t1 : Fin 3), ‖Cls.gWud.m_amp.mean (gWud.N c p) (callMean (gWud.N c p) []) .c [spinW h0, spinV t1, spinOf s2, spinOf s3]‖ = ‖gWud.react.bare c p 2 3 0 1 (gWud.react.codePair c p 2 s2) (gWud.react.codePair c p 3 s3) (lightE (legA (p 0) 0 0, legS (p 0) 0 1) h0.castSucc) (gWud.react.codeVec c p 1 t1)‖ := by
  have he : gWud.react.ends = [2] := by decide
  have ht : gWud.react.starts = [3] := by decide
  have hB : gWud.react.bosons = [0, 1] := by decide
  obtain ⟨f1, f2, f3⟩ := gWud.react.regular_line he ht hB hr
  have r2 : (gWud.N c p).r 2 = (c.mass .u) := rfl
  have r3 : (gWud.N c p).r 3 = (c.mass .d) := rfl
  have r4 : (gWud.N c p).r 4 = c.MW := rfl
  have r6 : (gWud.N c p).r 6 = (((√(((2 : Nat) : ℝ)) * c.e) * c.gs) / (c.MW * c.SW)) := rfl
  have c1 : (gWud.N c p).c 1 = poleDist (c.mass .u) ((0 : Nat) : ℝ) ((VExp.sub 0 2).sum p) := rfl
  rw [Nat.cast_zero, pole_fermion rfl] at c1
  have d1 : ((msq (plus (backward (p 3)) (p 1)) - c.mass .u ^ 2 : ℝ) : ℂ) = (gWud.N c p).c 1 := by rw [c1, msq_t hb (plus (backward (p 3)) (p 1)) (by simp)]
  have n1 : (gWud.N c p).c 1 ≠ 0 := by rw [← d1]; exact_mod_cast f2 .u rfl rfl
  have c2 : (gWud.N c p).c 2 = poleDist (c.mass .d) ((0 : Nat) : ℝ) ((VExp.sub 0 3).sum p) := rfl
  rw [Nat.cast_zero, pole_fermion rfl] at c2
  have d2 : ((msq (plus (backward (p 3)) (p 0)) - c.mass .d ^ 2 : ℝ) : ℂ) = (gWud.N c p).c 2 := by rw [c2, msq_u hb (plus (backward (p 3)) (p 0)) (by simp)]
  have n2 : (gWud.N c p).c 2 ≠ 0 := by rw [← d2]; exact_mod_cast f1 .d rfl rfl
  obtain ⟨l0, x0, y0⟩ := gWud.react.code_light hs hu (n := 0) rfl rfl
  have e02 := l0.pole_sub (m := (c.mass .u)) (onShell_msq (hs 2)) (msq_t hb (plus (p 0) (backward (p 2))) (by simp)) c1
  have e03 := l0.pole_sub (m := (c.mass .d)) (onShell_msq (hs 3)) (msq_u hb (plus (p 0) (backward (p 3))) (by simp)) c2
  have m1 : gWud.react.mass c 1 ≠ 0 := (leg_pos hc hh (by decide)).ne'
  have m2 : gWud.react.mass c 2 ≠ 0 := (leg_pos hc hh (by decide)).ne'
  have m3 : gWud.react.mass c 3 ≠ 0 := (leg_pos hc hh (by decide)).ne'
  have m0 : gWud.react.mass c 0 = 0 := rfl
  have hd : gWud.proc.divides = [(Ty.c, 1), (Ty.c, 2)] := by decide +kernel
  have stP : ∀ {z2 z3 : Pair} (b2 : Bold (p 2) (gWud.react.mass c 2) z2) (b3 : Bold (p 3) (gWud.react.mass c 3) z3) (t1 : Fin 3), comb t1 (fun a1 b1 => gWud.formP (gWud.N c p) p (legA (p 0) 0 0, legS (p 0) 0 1) (gWud.react.codePair c p 1 a1) (gWud.react.codePair c p 1 b1) z2 z3) = 1 * gWud.react.bare c p 2 3 0 1 z2 z3 (lightE (legA (p 0) 0 0, legS (p 0) 0 1) 1) (gWud.react.codeVec c p 1 t1) := by
    intro z2 z3 b2 b3 t1
    refine one_vector (p := p 1) (m := gWud.react.mass c 1) (fun s => gWud.react.codePair_bold hs h0 1 s) (B := fun x y => gWud.formP (gWud.N c p) p (legA (p 0) 0 0, legS (p 0) 0 1) x y z2 z3) (G := fun E => gWud.react.bare c p 2 3 0 1 z2 z3 (lightE (legA (p 0) 0 0, legS (p 0) 0 1) 1) E) (fun x y z => ?_) (fun x y z => ?_) (gWud.react.bare_lin₂ c p _ _ _ (by decide)) 1 (fun z1 b1 => ?_) t1
    · exact gWud.formP_x1 ..
    · exact gWud.formP_y1 ..
    · exact (light_plus (z := (legA (p 0) 0 0, legS (p 0) 0 1)) (G := fun E => gWud.react.bare c p 2 3 0 1 z2 z3 E (pv z1.1 z1.2)) (gWud.react.bare_lin₁ c p _ _ _ (by decide)) x0 (gWud.keyP hc hb r2 r3 r4 r6 d1 n1 d2 n2 b1 b2 b3 l0 e02 e03 (onShell_msq (hs 1)) (onShell_msq (hs 2)) (onShell_msq (hs 3)) _)).trans (mul_assoc _ _ _)
  have stM : ∀ {z2 z3 : Pair} (b2 : Bold (p 2) (gWud.react.mass c 2) z2) (b3 : Bold (p 3) (gWud.react.mass c 3) z3) (t1 : Fin 3), comb t1 (fun a1 b1 => gWud.formM (gWud.N c p) p (legA (p 0) 0 0, legS (p 0) 0 1) (gWud.react.codePair c p 1 a1) (gWud.react.codePair c p 1 b1) z2 z3) = 1 * gWud.react.bare c p 2 3 0 1 z2 z3 (lightE (legA (p 0) 0 0, legS (p 0) 0 1) 0) (gWud.react.codeVec c p 1 t1) := by
    intro z2 z3 b2 b3 t1
    refine one_vector (p := p 1) (m := gWud.react.mass c 1) (fun s => gWud.react.codePair_bold hs h0 1 s) (B := fun x y => gWud.formM (gWud.N c p) p (legA (p 0) 0 0, legS (p 0) 0 1) x y z2 z3) (G := fun E => gWud.react.bare c p 2 3 0 1 z2 z3 (lightE (legA (p 0) 0 0, legS (p 0) 0 1) 0) E) (fun x y z => ?_) (fun x y z => ?_) (gWud.react.bare_lin₂ c p _ _ _ (by decide)) 1 (fun z1 b1 => ?_) t1
    · exact gWud.formM_x1 ..
    · exact gWud.formM_y1 ..
    · exact (light_minus (z := (legA (p 0) 0 0, legS (p 0) 0 1)) (G := fun E => gWud.react.bare c p 2 3 0 1 z2 z3 E (pv z1.1 z1.2)) (gWud.react.bare_lin₁ c p _ _ _ (by decide)) y0 (gWud.keyM hc hb r2 r3 r4 r6 d1 n1 d2 n2 b1 b2 b3 l0 e02 e03 (onShell_msq (hs 1)) (onShell_msq (hs 2)) (onShell_msq (hs 3)) _)).trans (mul_assoc _ _ _)
  have amP : ∀ (s2 : Fin 2) (s3 : Fin 2) (t1 : Fin 3), Cls.gWud.m_amp.mean (gWud.N c p) (callMean (gWud.N c p) []) .c [2, spinV t1, spinOf s2, spinOf s3] = 1 * gWud.react.bare c p 2 3 0 1 (gWud.react.codePair c p 2 s2) (gWud.react.codePair c p 3 s3) (lightE (legA (p 0) 0 0, legS (p 0) 0 1) 1) (gWud.react.codeVec c p 1 t1) := by
    intro s2 s3 t1
    rw [gWud.ampP, ← stP (gWud.react.codePair_bold hs h0 2 s2) (gWud.react.codePair_bold hs h0 3 s3) t1]
    refine congrArg (comb t1) (funext fun a1 => funext fun b1 => ?_)
    have v2x1z3 : (gWud.N c p).v 2 [spinOf a1, spinOf s3] = ab (gWud.react.codePair c p 1 a1).1 (gWud.react.codePair c p 3 s3).1 := bra_angle (p := p) (m := gWud.proc.massNum (gWud.rho c)) (gWud.mass_eq hc 1) (gWud.mass_eq hc 3) (.inl ⟨m1, rfl⟩) (.inl ⟨m3, rfl⟩)
    have v1z0z2 : (gWud.N c p).v 1 [spinOf s2] = sb (legA (p 0) 0 0, legS (p 0) 0 1).2 (gWud.react.codePair c p 2 s2).2 := bra_square (p := p) (m := gWud.proc.massNum (gWud.rho c)) (gWud.mass_eq hc 0) (gWud.mass_eq hc 2) (.inr ⟨m0, rfl⟩) (.inl ⟨m2, rfl⟩)
    have v3z0y1 : (gWud.N c p).v 3 [spinOf b1] = mb (legA (p 0) 0 0, legS (p 0) 0 1).2 (p 3) (gWud.react.codePair c p 1 b1).1 := bra_mid_square (p := p) (m := gWud.proc.massNum (gWud.rho c)) (gWud.mass_eq hc 0) (gWud.mass_eq hc 1) (.inr ⟨m0, rfl⟩) (.inl ⟨m1, rfl⟩)
    have v0z0y1 : (gWud.N c p).v 0 [spinOf b1] = sb (legA (p 0) 0 0, legS (p 0) 0 1).2 (gWud.react.codePair c p 1 b1).2 := bra_square (p := p) (m := gWud.proc.massNum (gWud.rho c)) (gWud.mass_eq hc 0) (gWud.mass_eq hc 1) (.inr ⟨m0, rfl⟩) (.inl ⟨m1, rfl⟩)
    have v4z0z2 : (gWud.N c p).v 4 [spinOf s2] = mb (legA (p 0) 0 0, legS (p 0) 0 1).2 (p 3) (gWud.react.codePair c p 2 s2).1 := bra_mid_square (p := p) (m := gWud.proc.massNum (gWud.rho c)) (gWud.mass_eq hc 0) (gWud.mass_eq hc 2) (.inr ⟨m0, rfl⟩) (.inl ⟨m2, rfl⟩)
    simp only [gWud.termP, gWud.formP, v2x1z3, v1z0z2, v3z0y1, v0z0y1, v4z0z2]
    push_cast
    ring
  have amM : ∀ (s2 : Fin 2) (s3 : Fin 2) (t1 : Fin 3), Cls.gWud.m_amp.mean (gWud.N c p) (callMean (gWud.N c p) []) .c [(-2), spinV t1, spinOf s2, spinOf s3] = 1 * gWud.react.bare c p 2 3 0 1 (gWud.react.codePair c p 2 s2) (gWud.react.codePair c p 3 s3) (lightE (legA (p 0) 0 0, legS (p 0) 0 1) 0) (gWud.react.codeVec c p 1 t1) := by
    intro s2 s3 t1
    rw [gWud.ampM, ← stM (gWud.react.codePair_bold hs h0 2 s2) (gWud.react.codePair_bold hs h0 3 s3) t1]
    refine congrArg (comb t1) (funext fun a1 => funext fun b1 => ?_)
    have v7x1z2 : (gWud.N c p).v 7 [spinOf a1, spinOf s2] = sb (gWud.react.codePair c p 1 a1).2 (gWud.react.codePair c p 2 s2).2 := bra_square (p := p) (m := gWud.proc.massNum (gWud.rho c)) (gWud.mass_eq hc 1) (gWud.mass_eq hc 2) (.inl ⟨m1, rfl⟩) (.inl ⟨m2, rfl⟩)
    have v6z0z3 : (gWud.N c p).v 6 [spinOf s3] = ab (legA (p 0) 0 0, legS (p 0) 0 1).1 (gWud.react.codePair c p 3 s3).1 := bra_angle (p := p) (m := gWud.proc.massNum (gWud.rho c)) (gWud.mass_eq hc 0) (gWud.mass_eq hc 3) (.inr ⟨m0, rfl⟩) (.inl ⟨m3, rfl⟩)
    have v8y1z0 : (gWud.N c p).v 8 [spinOf b1] = mb (gWud.react.codePair c p 1 b1).2 (p 2) (legA (p 0) 0 0, legS (p 0) 0 1).1 := bra_mid_square (p := p) (m := gWud.proc.massNum (gWud.rho c)) (gWud.mass_eq hc 1) (gWud.mass_eq hc 0) (.inl ⟨m1, rfl⟩) (.inr ⟨m0, rfl⟩)
    have v5z0y1 : (gWud.N c p).v 5 [spinOf b1] = ab (legA (p 0) 0 0, legS (p 0) 0 1).1 (gWud.react.codePair c p 1 b1).1 := bra_angle (p := p) (m := gWud.proc.massNum (gWud.rho c)) (gWud.mass_eq hc 0) (gWud.mass_eq hc 1) (.inr ⟨m0, rfl⟩) (.inl ⟨m1, rfl⟩)
    have v9z3z0 : (gWud.N c p).v 9 [spinOf s3] = mb (gWud.react.codePair c p 3 s3).2 (p 2) (legA (p 0) 0 0, legS (p 0) 0 1).1 := bra_mid_square (p := p) (m := gWud.proc.massNum (gWud.rho c)) (gWud.mass_eq hc 3) (gWud.mass_eq hc 0) (.inl ⟨m3, rfl⟩) (.inr ⟨m0, rfl⟩)
    simp only [gWud.termM, gWud.formM, v7x1z2, v6z0z3, v8y1z0, v5z0y1, v9z3z0]
    push_cast
    ring
  refine ⟨n1, n2, fun n hn => ?_, fun n hn => ?_, ?_⟩
  · simp [hd] at hn
  · simp [hd] at hn
    rcases hn with rfl | rfl
    · exact n1
    · exact n2
  intro s2 s3 h0 t1
  match h0 with
  | 1 => exact norm_plus (amP s2 s3 t1)
  | 0 => exact norm_plus (amM s2 s3 t1)

variable [FPEnv] in
theorem gWud.agrees : gWud.Agrees := by
  refine agrees_of (D := [4, 5]) (E := [5]) (by simp [all, gWud]) (by decide +kernel) (by decide) (by decide +kernel) (fun c hc hh => ⟨List.forall_mem_cons.2 ⟨hc.MW, List.forall_mem_cons.2 ⟨hc.SW, List.forall_mem_nil _⟩⟩, List.forall_mem_cons.2 ⟨hc.SW_lt, List.forall_mem_nil _⟩⟩) (fun c hc i => gWud.mass_eq hc i) (by decide +kernel) ?_
  intro c p u ε hc hh hw h0 hs hb hr hu
  have he : gWud.react.ends = [2] := by decide
  have ht : gWud.react.starts = [3] := by decide
  have hB : gWud.react.bosons = [0, 1] := by decide
  obtain ⟨n1, n2, d1, d2, am⟩ := gWud.amps hc hh h0 hs hb hr hu
  refine ⟨d1, d2, ?_⟩
  show meaning (gWud.N c p) .r Cls.gWud.methods Cls.gWud.amp2 [] = _
  have s0 : gWud.react.states 0 = 16 := by decide +kernel
  have s1 : gWud.react.states 1 = 3 := by decide +kernel
  have sy : gWud.react.symmetry = 1 := by decide
  have p0 : gWud.react.spins 0 = {0, 1} := rfl
  have p1 : gWud.react.spins 1 = Finset.univ := rfl
  have p2 : gWud.react.spins 2 = {0, 1} := rfl
  have p3 : gWud.react.spins 3 = {0, 1} := rfl
  have E0 : gWud.react.codeE c p 0 = lightE (legA (p 0) 0 0, legS (p 0) 0 1) := rfl
  have E1 : gWud.react.codeE c p 1 = gWud.react.codeVec c p 1 := rfl
  have hG : gWud.react.Gauge c p := (gWud.react.gauge_line he ht hB hh (by decide) (fun n => onShell_msq (hs n)) hb hr (fun n m h h2 => absurd (And.intro h h2) (by revert n m; decide)) (fun _ => ⟨rfl, rfl⟩) (fun h => absurd h (by decide)))
  rw [gWud.value, gWud.react.squared_gluon 0 he ht hB (by decide) (by decide +kernel) (by decide +kernel) hs h0 (fun _ b _ hb _ => (boson_pos hc hh hb).ne') hG (E := gWud.react.codeE c p) (fun n b hl => gWud.react.codeE_polarised hs h0 hu (fun b hb => (boson_pos hc hh hb).ne') n b hl) hu, sum_colours, s0, s1, sy]
  simp only [sumV_sum, sumJ_sum, sumW_sum, am, p0, p1, p2, p3, E0, E1, Finset.sum_singleton, sum_two, Matrix.cons_val_zero, Matrix.cons_val_one, Matrix.cons_val, two_castSucc]
  try simp only [← Finset.mul_sum]
  push_cast
  first | ring1 | ring_nf

/-! ### dWgu -/

/-- what the methods of the class see -/
noncomputable abbrev dWgu.N [FPEnv] (c : Constants) (p : Nat → V4 ℝ) : Env := dWgu.proc.env (dWgu.rho c) p
/-- the term that `amp` adds for a choice of spinors, for a gluon of positive helicity (SM/dWgu.cpp) -/
noncomputable def dWgu.termP (N : Env) (w : ℝ) (x : ℂ) (j1 a1 b1 j4 : Int) : ℂ :=
  (x + ((((((((((-w) * N.r 6) : ℝ) : ℂ) * N.v 0 [a1, j1]) * N.v 1 [b1, j4]) * N.v 4 []) / N.c 0) / N.c 1) - (((((((w * N.r 6) : ℝ) : ℂ) * N.v 2 [a1]) * N.v 3 [j4]) * N.v 0 [b1, j1]) / N.c 0)))
/-- the same with spinors in place of their spins -/
noncomputable def dWgu.formP (N : Env) (p : Nat → V4 ℝ) (z0 x1 y1 z2 z3 : Pair) : ℂ :=
  (0 + ((((((((((-((1 : Nat) : ℝ)) * N.r 6) : ℝ) : ℂ) * (ab x1.1 z0.1)) * (sb y1.2 z3.2)) * (mb z2.2 (p 3) (slashLower (p 0) *ᵥ z2.2))) / N.c 0) / N.c 1) - (((((((((1 : Nat) : ℝ) * N.r 6) : ℝ) : ℂ) * (sb z2.2 x1.2)) * (sb z2.2 z3.2)) * (ab y1.1 z0.1)) / N.c 0)))
/-- the term that `amp` adds for a choice of spinors, for a gluon of negative helicity (SM/dWgu.cpp) -/
noncomputable def dWgu.termM (N : Env) (w : ℝ) (x : ℂ) (j1 a1 b1 j4 : Int) : ℂ :=
  (x + ((((((((((-w) * N.r 6) : ℝ) : ℂ) * N.v 0 [a1, j1]) * N.v 1 [b1, j4]) * N.v 7 []) / N.c 0) / N.c 1) + (((((((w * N.r 6) : ℝ) : ℂ) * N.v 5 [a1]) * N.v 6 [j1]) * N.v 1 [b1, j4]) / N.c 1)))
/-- the same with spinors in place of their spins -/
noncomputable def dWgu.formM (N : Env) (p : Nat → V4 ℝ) (z0 x1 y1 z2 z3 : Pair) : ℂ :=
  (0 + ((((((((((-((1 : Nat) : ℝ)) * N.r 6) : ℝ) : ℂ) * (ab x1.1 z0.1)) * (sb y1.2 z3.2)) * (mb (slashUpper (p 0) *ᵥ z2.1) (p 3) z2.1)) / N.c 0) / N.c 1) + (((((((((1 : Nat) : ℝ) * N.r 6) : ℝ) : ℂ) * (ab z2.1 x1.1)) * (ab z2.1 z0.1)) * (sb y1.2 z3.2)) / N.c 1)))
theorem dWgu.keyP {c : Constants} {p : Nat → V4 ℝ} {N : Env} (hc : c.Physical) (hb : Balanced p) (r6 : N.r 6 = (((√(((2 : Nat) : ℝ)) * c.e) * c.gs) / (c.MW * c.SW))) (d0 : ((msq (plus (p 0) (p 1)) - c.mass .u ^ 2 : ℝ) : ℂ) = N.c 0) (n0 : N.c 0 ≠ 0) (d1 : ((msq (plus (p 0) (backward (p 2))) - c.mass .d ^ 2 : ℝ) : ℂ) = N.c 1) (n1 : N.c 1 ≠ 0) {z0 z1 z2 z3 : Pair} (b0 : Bold (p 0) (c.mass .d) z0) (b1 : Bold (p 1) c.MW z1) (b3 : Bold (p 3) (c.mass .u) z3) (l2 : Light (p 2) z2) (e20 : mb z2.2 (p 0) z2.1 = -N.c 1) (e23 : mb z2.2 (p 3) z2.1 = N.c 0) (q0 : msq (p 0) = (c.mass .d) ^ 2) (q1 : msq (p 1) = c.MW ^ 2) (q3 : msq (p 3) = (c.mass .u) ^ 2) (ρ2 : V2) :
    dWgu.formP N p z0 z1 z1 z2 z3 * ab ρ2 z2.1 = ((√2 : ℝ) * ((-1 : ℂ) * ((√2 / c.MW : ℝ) : ℂ))) * dWgu.react.bare c p 3 0 1 2 z3 z0 (pv z1.1 z1.2) (pv ρ2 z2.2) := by
  rw [dWgu.react.bare_parts c p (i := 3) (j := 0) (a := 1) (b := 2) (x := .wPlus) (y := .gluon) (k := (p 1)) (k' := (backward (p 2))) (fun _ => rfl) (fun _ => rfl) (f := .d) (g := .u) rfl rfl (l := (p 0)) rfl (e := 1) (e' := 1) (if_neg Bool.false_ne_true) (if_neg Bool.false_ne_true)]
  rw [compton_vv (f := .d) (x := .u) (g := .u) (h := (rfl : Spec.after .wPlus Flavour.d = some Flavour.u)) (h' := (rfl : Spec.after .gluon Flavour.u = some Flavour.u)) (ha := by simp) (hb := by simp)]
  rw [compton_vv (f := .d) (x := .d) (g := .u) (h := (rfl : Spec.after .gluon Flavour.d = some Flavour.d)) (h' := (rfl : Spec.after .wPlus Flavour.d = some Flavour.u)) (ha := by simp) (hb := by simp)]
  rw [annihilation_none' c _ _ (by rfl) (by simp), star_zero, add_zero, dWgu.formP]
  simp only [d0, d1, lineV_pv, lineV_four, contract_four_pv, contract_pv, mb_plus, mb_backward]
  have i0 := chain_square z0.1 z1.1 z2.2 (p 3) (p 0) z2.2
  have i1 := mb_schouten_right z2.2 (p 0) z1.1 z2.1 ρ2
  have i2 := sb_schouten z1.2 z2.2 z3.2 z0.2
  have i3 := mb_schouten_right z2.2 (p 0) z0.1 z1.1 ρ2
  have i4 := mb_schouten_left z1.2 z2.2 z3.2 (p 0) z1.1
  have i5 := mb_schouten_left z1.2 z2.2 z3.2 (p 1) z0.1
  have i6 := ab_schouten z1.1 z2.1 ρ2 z0.1
  have i7 := ab_schouten z1.1 z3.1 ρ2 z0.1
  have i8 := mb_schouten_right z2.2 (p 0) z0.1 z2.1 ρ2
  have i9 := mb_schouten_right z2.2 (p 1) z0.1 z1.1 z2.1
  have i10 := mb_schouten_right z1.2 (p 0) z0.1 z1.1 ρ2
  simp only [l2.mb_eq, b0.mb_left, b0.mb_right, b1.mb_left, b1.mb_right, b3.mb_left, b3.mb_right, e20, e23, mb_three hb z0.2 z0.1, mb_three hb z0.2 z1.1, mb_three hb z0.2 z2.1, mb_one hb z0.2 z3.1, mb_three hb z0.2 ρ2, mb_three hb z1.2 z0.1, mb_three hb z1.2 z1.1, mb_three hb z1.2 z2.1, mb_nought hb z1.2 z3.1, mb_three hb z1.2 ρ2, mb_three hb z2.2 z0.1, mb_three hb z2.2 z1.1, mb_one hb z2.2 z2.1, mb_one hb z2.2 z3.1, mb_three hb z2.2 ρ2, mb_one hb z3.2 z0.1, mb_nought hb z3.2 z1.1, mb_one hb z3.2 z2.1, mb_one hb z3.2 z3.1, mb_one hb z3.2 ρ2, ab_self, sb_self] at i0 i1 i2 i3 i4 i5 i6 i7 i8 i9 i10 ⊢
  simp only [ab_swap z0.1 z1.1, ab_swap z0.1 z2.1, ab_swap z0.1 z3.1, ab_swap z0.1 ρ2, ab_swap z1.1 z2.1, ab_swap z1.1 z3.1, ab_swap z1.1 ρ2, ab_swap z2.1 z3.1, ab_swap z2.1 ρ2, ab_swap z3.1 ρ2, sb_swap z0.2 z1.2, sb_swap z0.2 z2.2, sb_swap z0.2 z3.2, sb_swap z1.2 z2.2, sb_swap z1.2 z3.2, sb_swap z2.2 z3.2] at i0 i1 i2 i3 i4 i5 i6 i7 i8 i9 i10 ⊢
  simp only [r6, Constants.hL, Constants.hR, Constants.gL, Constants.gR, Constants.yuk, Constants.invVev, Flavour.charge_d, Flavour.isospin_d, Flavour.charge_u, Flavour.isospin_u, ← c.mz]
  have xMW : (c.MW : ℂ) ≠ 0 := by exact_mod_cast hc.MW
  have xSW : (c.SW : ℂ) ≠ 0 := by exact_mod_cast hc.SW
  have xCW : (c.CW : ℂ) ≠ 0 := by exact_mod_cast hc.CW
  have x2 : ((√2 : ℝ) : ℂ) ≠ 0 := by exact_mod_cast (Real.sqrt_pos.2 two_pos).ne'
  have x22 : ((√2 : ℝ) : ℂ) ^ 2 = 2 := by rw [← Complex.ofReal_pow, Real.sq_sqrt two_pos.le]; norm_num
  have x23 : ((√2 : ℝ) : ℂ) ^ 3 = 2 * ((√2 : ℝ) : ℂ) := by rw [← x22]; ring
  have x24 : ((√2 : ℝ) : ℂ) ^ 4 = 4 := by linear_combination (((√2 : ℝ) : ℂ) ^ 2 + 2) * x22
  push_cast at i0 i1 i2 i3 i4 i5 i6 i7 i8 i9 i10 ⊢
  have y0 := mul_inv_cancel₀ n0
  have y1 := mul_inv_cancel₀ n1
  have yMW := mul_inv_cancel₀ xMW
  have yR2 : ((√2 : ℝ) : ℂ)⁻¹ = ((√2 : ℝ) : ℂ) / 2 := by rw [inv_eq_iff_eq_inv, inv_div, eq_div_iff x2, ← x22]; ring
  linear_combination ((((-1) * (((√2 : ℝ) : ℂ)) * ((c.e : ℂ)) * ((c.gs : ℂ)) * (ab z2.1 ρ2) * (sb z1.2 z3.2)) * i0 + ((1) * (((√2 : ℝ) : ℂ)) * ((c.e : ℂ)) * ((c.gs : ℂ)) * (mb z2.2 (p 1) z0.1) * (sb z1.2 z3.2)) * i1 + ((1) * (((√2 : ℝ) : ℂ)) * ((c.e : ℂ)) * ((c.gs : ℂ)) * ((c.mass .d : ℂ)) * (N.c 1) * (ab z1.1 ρ2)) * i2 + ((1) * (((√2 : ℝ) : ℂ)) * ((c.e : ℂ)) * ((c.gs : ℂ)) * (N.c 0) * (sb z1.2 z3.2) + (1) * (((√2 : ℝ) : ℂ)) * ((c.e : ℂ)) * ((c.gs : ℂ)) * (N.c 1) * (sb z1.2 z3.2)) * i3 + ((-1) * (((√2 : ℝ) : ℂ)) * ((c.e : ℂ)) * ((c.gs : ℂ)) * (N.c 1) * (ab z0.1 ρ2)) * i4 + ((1) * (((√2 : ℝ) : ℂ)) * ((c.e : ℂ)) * ((c.gs : ℂ)) * (N.c 1) * (ab z1.1 ρ2)) * i5 + ((1) * (((√2 : ℝ) : ℂ)) * ((c.e : ℂ)) * ((c.gs : ℂ)) * (N.c 1) * (sb z1.2 z2.2) * (sb z2.2 z3.2)) * i6 + ((-1) * (((√2 : ℝ) : ℂ)) * ((c.e : ℂ)) * ((c.gs : ℂ)) * ((c.mass .u : ℂ)) * (N.c 1) * (sb z1.2 z2.2)) * i7 + ((-1) * ((c.MW : ℂ)) * (((√2 : ℝ) : ℂ)) * ((c.e : ℂ)) * ((c.gs : ℂ)) * (sb z1.2 z2.2) * (sb z1.2 z3.2)) * i8 + ((-1) * (((√2 : ℝ) : ℂ)) * ((c.e : ℂ)) * ((c.gs : ℂ)) * (mb z2.2 (p 0) ρ2) * (sb z1.2 z3.2)) * i9 + ((-1) * (((√2 : ℝ) : ℂ)) * ((c.e : ℂ)) * ((c.gs : ℂ)) * (N.c 1) * (sb z2.2 z3.2)) * i10)) * ((1) * ((c.MW : ℂ)⁻¹) * ((c.SW : ℂ)⁻¹) * ((N.c 0)⁻¹) * ((N.c 1)⁻¹)) + ((-1) * (((√2 : ℝ) : ℂ)) * ((c.e : ℂ)) * ((c.gs : ℂ)) * ((c.MW : ℂ)⁻¹) * ((c.SW : ℂ)⁻¹) * ((c.mass .d : ℂ)) * ((N.c 1)⁻¹) * (ab z1.1 ρ2) * (sb z0.2 z2.2) * (sb z1.2 z3.2) + (1) * (((√2 : ℝ) : ℂ)) * ((c.e : ℂ)) * ((c.gs : ℂ)) * ((c.MW : ℂ)⁻¹) * ((c.SW : ℂ)⁻¹) * ((N.c 1)⁻¹) * (ab z0.1 ρ2) * (mb z2.2 (p 0) z1.1) * (sb z1.2 z3.2)) * y0 + ((1) * ((c.MW : ℂ)) * (((√2 : ℝ) : ℂ)) * ((c.e : ℂ)) * ((c.gs : ℂ)) * ((c.MW : ℂ)⁻¹) * ((c.SW : ℂ)⁻¹) * ((N.c 0)⁻¹) * (ab z0.1 z1.1) * (ab z1.1 ρ2) * (sb z2.2 z3.2) + (1) * (((√2 : ℝ) : ℂ)) * ((c.e : ℂ)) * ((c.gs : ℂ)) * ((c.MW : ℂ)⁻¹) * ((c.SW : ℂ)⁻¹) * ((c.mass .u : ℂ)) * ((N.c 0)⁻¹) * (ab z0.1 z1.1) * (ab z3.1 ρ2) * (sb z1.2 z2.2) + (-1) * (((√2 : ℝ) : ℂ)) * ((c.e : ℂ)) * ((c.gs : ℂ)) * ((c.MW : ℂ)⁻¹) * ((c.SW : ℂ)⁻¹) * ((N.c 0)⁻¹) * (ab z0.1 z1.1) * (ab z2.1 ρ2) * (sb z1.2 z2.2) * (sb z2.2 z3.2) + (1) * (((√2 : ℝ) : ℂ)) * ((c.e : ℂ)) * ((c.gs : ℂ)) * ((c.MW : ℂ)⁻¹) * ((c.SW : ℂ)⁻¹) * ((N.c 0)⁻¹) * (ab z0.1 z1.1) * (mb z1.2 (p 0) ρ2) * (sb z2.2 z3.2)) * y1 + ((1) * (((√2 : ℝ) : ℂ)) * ((c.e : ℂ)) * ((c.gs : ℂ)) * ((c.SW : ℂ)⁻¹) * ((N.c 0)⁻¹) * (ab z0.1 z1.1) * (ab z1.1 ρ2) * (sb z2.2 z3.2) + (-1) * (((√2 : ℝ) : ℂ)) ^ 2 * ((c.e : ℂ)) * ((c.gs : ℂ)) * (((√2 : ℝ) : ℂ)⁻¹) * ((c.SW : ℂ)⁻¹) * ((N.c 0)⁻¹) * (ab z0.1 z1.1) * (ab z1.1 ρ2) * (sb z2.2 z3.2)) * yMW + ((1) * (((√2 : ℝ) : ℂ)) ^ 2 * ((c.e : ℂ)) * ((c.gs : ℂ)) * ((c.MW : ℂ)⁻¹) * ((c.SW : ℂ)⁻¹) * ((c.mass .d : ℂ)) * ((N.c 1)⁻¹) * (ab z1.1 ρ2) * (sb z0.2 z2.2) * (sb z1.2 z3.2) + (-1) * (((√2 : ℝ) : ℂ)) ^ 2 * ((c.e : ℂ)) * ((c.gs : ℂ)) * ((c.MW : ℂ)⁻¹) * ((c.SW : ℂ)⁻¹) * ((c.mass .u : ℂ)) * ((N.c 0)⁻¹) * (ab z0.1 z1.1) * (ab z3.1 ρ2) * (sb z1.2 z2.2) + (-1) * (((√2 : ℝ) : ℂ)) ^ 2 * ((c.e : ℂ)) * ((c.gs : ℂ)) * ((c.MW : ℂ)⁻¹) * ((c.SW : ℂ)⁻¹) * ((N.c 0)⁻¹) * (ab z0.1 z1.1) * (mb z1.2 (p 0) ρ2) * (sb z2.2 z3.2) + (-1) * (((√2 : ℝ) : ℂ)) ^ 2 * ((c.e : ℂ)) * ((c.gs : ℂ)) * ((c.MW : ℂ)⁻¹) * ((c.SW : ℂ)⁻¹) * ((N.c 1)⁻¹) * (ab z0.1 ρ2) * (mb z2.2 (p 0) z1.1) * (sb z1.2 z3.2) + (-1) * (((√2 : ℝ) : ℂ)) ^ 2 * ((c.e : ℂ)) * ((c.gs : ℂ)) * ((c.SW : ℂ)⁻¹) * ((N.c 0)⁻¹) * (ab z0.1 z1.1) * (ab z1.1 ρ2) * (sb z2.2 z3.2)) * yR2 + ((1) * (((√2 : ℝ) : ℂ)) * ((c.e : ℂ)) * ((c.gs : ℂ)) * ((c.MW : ℂ)⁻¹) * ((c.SW : ℂ)⁻¹) * ((c.mass .d : ℂ)) * ((N.c 1)⁻¹) * (ab z1.1 ρ2) * (sb z0.2 z2.2) * (sb z1.2 z3.2) / (2) + (-1) * (((√2 : ℝ) : ℂ)) * ((c.e : ℂ)) * ((c.gs : ℂ)) * ((c.MW : ℂ)⁻¹) * ((c.SW : ℂ)⁻¹) * ((c.mass .u : ℂ)) * ((N.c 0)⁻¹) * (ab z0.1 z1.1) * (ab z3.1 ρ2) * (sb z1.2 z2.2) / (2) + (-1) * (((√2 : ℝ) : ℂ)) * ((c.e : ℂ)) * ((c.gs : ℂ)) * ((c.MW : ℂ)⁻¹) * ((c.SW : ℂ)⁻¹) * ((N.c 0)⁻¹) * (ab z0.1 z1.1) * (mb z1.2 (p 0) ρ2) * (sb z2.2 z3.2) / (2) + (-1) * (((√2 : ℝ) : ℂ)) * ((c.e : ℂ)) * ((c.gs : ℂ)) * ((c.MW : ℂ)⁻¹) * ((c.SW : ℂ)⁻¹) * ((N.c 1)⁻¹) * (ab z0.1 ρ2) * (mb z2.2 (p 0) z1.1) * (sb z1.2 z3.2) / (2) + (-1) * (((√2 : ℝ) : ℂ)) * ((c.e : ℂ)) * ((c.gs : ℂ)) * ((c.SW : ℂ)⁻¹) * ((N.c 0)⁻¹) * (ab z0.1 z1.1) * (ab z1.1 ρ2) * (sb z2.2 z3.2) / (2)) * x22
theorem dWgu.keyM {c : Constants} {p : Nat → V4 ℝ} {N : Env} (hc : c.Physical) (hb : Balanced p) (r6 : N.r 6 = (((√(((2 : Nat) : ℝ)) * c.e) * c.gs) / (c.MW * c.SW))) (d0 : ((msq (plus (p 0) (p 1)) - c.mass .u ^ 2 : ℝ) : ℂ) = N.c 0) (n0 : N.c 0 ≠ 0) (d1 : ((msq (plus (p 0) (backward (p 2))) - c.mass .d ^ 2 : ℝ) : ℂ) = N.c 1) (n1 : N.c 1 ≠ 0) {z0 z1 z2 z3 : Pair} (b0 : Bold (p 0) (c.mass .d) z0) (b1 : Bold (p 1) c.MW z1) (b3 : Bold (p 3) (c.mass .u) z3) (l2 : Light (p 2) z2) (e20 : mb z2.2 (p 0) z2.1 = -N.c 1) (e23 : mb z2.2 (p 3) z2.1 = N.c 0) (q0 : msq (p 0) = (c.mass .d) ^ 2) (q1 : msq (p 1) = c.MW ^ 2) (q3 : msq (p 3) = (c.mass .u) ^ 2) (ρ2 : V2) :
    dWgu.formM N p z0 z1 z1 z2 z3 * sb ρ2 z2.2 = ((√2 : ℝ) * ((-1 : ℂ) * ((√2 / c.MW : ℝ) : ℂ))) * dWgu.react.bare c p 3 0 1 2 z3 z0 (pv z1.1 z1.2) (pv z2.1 ρ2) := by
  rw [dWgu.react.bare_parts c p (i := 3) (j := 0) (a := 1) (b := 2) (x := .wPlus) (y := .gluon) (k := (p 1)) (k' := (backward (p 2))) (fun _ => rfl) (fun _ => rfl) (f := .d) (g := .u) rfl rfl (l := (p 0)) rfl (e := 1) (e' := 1) (if_neg Bool.false_ne_true) (if_neg Bool.false_ne_true)]
  rw [compton_vv (f := .d) (x := .u) (g := .u) (h := (rfl : Spec.after .wPlus Flavour.d = some Flavour.u)) (h' := (rfl : Spec.after .gluon Flavour.u = some Flavour.u)) (ha := by simp) (hb := by simp)]
  rw [compton_vv (f := .d) (x := .d) (g := .u) (h := (rfl : Spec.after .gluon Flavour.d = some Flavour.d)) (h' := (rfl : Spec.after .wPlus Flavour.d = some Flavour.u)) (ha := by simp) (hb := by simp)]
  rw [annihilation_none' c _ _ (by rfl) (by simp), star_zero, add_zero, dWgu.formM]
  simp only [d0, d1, lineV_pv, lineV_four, contract_four_pv, contract_pv, mb_plus, mb_backward]
  have i0 := mb_schouten_right z3.2 (p 0) z0.1 z1.1 z2.1
  have i1 := ab_schouten z1.1 z2.1 z3.1 z0.1
  have i2 := mb_schouten_left z1.2 z3.2 ρ2 (p 0) z1.1
  have i3 := mb_schouten_right z1.2 (p 0) z0.1 z1.1 z2.1
  have i4 := chain_angle z1.2 z3.2 z2.1 (p 3) (p 0) z2.1
  have i5 := mb_schouten_left z1.2 z2.2 z3.2 (p 0) z1.1
  have i6 := mb_schouten_left z2.2 z3.2 ρ2 (p 1) z0.1
  have i7 := mb_schouten_right ρ2 (p 1) z0.1 z1.1 z2.1
  have i8 := mb_schouten_right z2.2 (p 0) z0.1 z1.1 z2.1
  have i9 := mb_schouten_left z1.2 z3.2 ρ2 (p 1) z0.1
  have i10 := mb_schouten_right z2.2 (p 1) z0.1 z1.1 z2.1
  have i11 := sb_schouten z2.2 z3.2 ρ2 z1.2
  have i12 := sb_schouten z1.2 z3.2 ρ2 z0.2
  have i13 := sb_schouten z1.2 z2.2 z3.2 z0.2
  have i14 := mb_schouten_left z1.2 z2.2 ρ2 (p 1) z0.1
  simp only [l2.mb_eq, b0.mb_left, b0.mb_right, b1.mb_left, b1.mb_right, b3.mb_left, b3.mb_right, e20, e23, mb_three hb z0.2 z0.1, mb_three hb z0.2 z1.1, mb_three hb z0.2 z2.1, mb_one hb z0.2 z3.1, mb_three hb z1.2 z0.1, mb_three hb z1.2 z1.1, mb_three hb z1.2 z2.1, mb_nought hb z1.2 z3.1, mb_three hb z2.2 z0.1, mb_three hb z2.2 z1.1, mb_one hb z2.2 z2.1, mb_one hb z2.2 z3.1, mb_one hb z3.2 z0.1, mb_nought hb z3.2 z1.1, mb_one hb z3.2 z2.1, mb_one hb z3.2 z3.1, mb_three hb ρ2 z0.1, mb_three hb ρ2 z1.1, mb_three hb ρ2 z2.1, mb_one hb ρ2 z3.1, ab_self, sb_self] at i0 i1 i2 i3 i4 i5 i6 i7 i8 i9 i10 i11 i12 i13 i14 ⊢
  simp only [ab_swap z0.1 z1.1, ab_swap z0.1 z2.1, ab_swap z0.1 z3.1, ab_swap z1.1 z2.1, ab_swap z1.1 z3.1, ab_swap z2.1 z3.1, sb_swap z0.2 z1.2, sb_swap z0.2 z2.2, sb_swap z0.2 z3.2, sb_swap z0.2 ρ2, sb_swap z1.2 z2.2, sb_swap z1.2 z3.2, sb_swap z1.2 ρ2, sb_swap z2.2 z3.2, sb_swap z2.2 ρ2, sb_swap z3.2 ρ2] at i0 i1 i2 i3 i4 i5 i6 i7 i8 i9 i10 i11 i12 i13 i14 ⊢
  simp only [r6, Constants.hL, Constants.hR, Constants.gL, Constants.gR, Constants.yuk, Constants.invVev, Flavour.charge_d, Flavour.isospin_d, Flavour.charge_u, Flavour.isospin_u, ← c.mz]
  have xMW : (c.MW : ℂ) ≠ 0 := by exact_mod_cast hc.MW
  have xSW : (c.SW : ℂ) ≠ 0 := by exact_mod_cast hc.SW
  have xCW : (c.CW : ℂ) ≠ 0 := by exact_mod_cast hc.CW
  have x2 : ((√2 : ℝ) : ℂ) ≠ 0 := by exact_mod_cast (Real.sqrt_pos.2 two_pos).ne'
  have x22 : ((√2 : ℝ) : ℂ) ^ 2 = 2 := by rw [← Complex.ofReal_pow, Real.sq_sqrt two_pos.le]; norm_num
  have x23 : ((√2 : ℝ) : ℂ) ^ 3 = 2 * ((√2 : ℝ) : ℂ) := by rw [← x22]; ring
  have x24 : ((√2 : ℝ) : ℂ) ^ 4 = 4 := by linear_combination (((√2 : ℝ) : ℂ) ^ 2 + 2) * x22
  push_cast at i0 i1 i2 i3 i4 i5 i6 i7 i8 i9 i10 i11 i12 i13 i14 ⊢
  have y0 := mul_inv_cancel₀ n0
  have y1 := mul_inv_cancel₀ n1
  have yMW := mul_inv_cancel₀ xMW
  have yR2 : ((√2 : ℝ) : ℂ)⁻¹ = ((√2 : ℝ) : ℂ) / 2 := by rw [inv_eq_iff_eq_inv, inv_div, eq_div_iff x2, ← x22]; ring
  linear_combination ((((1) * (((√2 : ℝ) : ℂ)) * ((c.e : ℂ)) * ((c.gs : ℂ)) * (N.c 0) * (sb z1.2 ρ2) + (1) * (((√2 : ℝ) : ℂ)) * ((c.e : ℂ)) * ((c.gs : ℂ)) * (N.c 1) * (sb z1.2 ρ2) + (1) * (((√2 : ℝ) : ℂ)) * ((c.e : ℂ)) * ((c.gs : ℂ)) * (mb z1.2 (p 0) z2.1) * (sb z2.2 ρ2) + (-1) * (((√2 : ℝ) : ℂ)) * ((c.e : ℂ)) * ((c.gs : ℂ)) * (mb ρ2 (p 1) z2.1) * (sb z1.2 z2.2)) * i0 + ((1) * (((√2 : ℝ) : ℂ)) * ((c.e : ℂ)) * ((c.gs : ℂ)) * ((c.mass .u : ℂ)) * (N.c 1) * (sb z1.2 ρ2) + (1) * (((√2 : ℝ) : ℂ)) * ((c.e : ℂ)) * ((c.gs : ℂ)) * ((c.mass .u : ℂ)) * (mb z1.2 (p 0) z2.1) * (sb z2.2 ρ2)) * i1 + ((-1) * (((√2 : ℝ) : ℂ)) * ((c.e : ℂ)) * ((c.gs : ℂ)) * (N.c 0) * (ab z0.1 z2.1)) * i2 + ((-1) * (((√2 : ℝ) : ℂ)) * ((c.e : ℂ)) * ((c.gs : ℂ)) * (N.c 0) * (sb z3.2 ρ2) + (-1) * (((√2 : ℝ) : ℂ)) * ((c.e : ℂ)) * ((c.gs : ℂ)) * (mb ρ2 (p 1) z2.1) * (sb z2.2 z3.2)) * i3 + ((-1) * (((√2 : ℝ) : ℂ)) * ((c.e : ℂ)) * ((c.gs : ℂ)) * (ab z0.1 z1.1) * (sb z2.2 ρ2)) * i4 + ((-1) * (((√2 : ℝ) : ℂ)) * ((c.e : ℂ)) * ((c.gs : ℂ)) * (ab z0.1 z2.1) * (mb ρ2 (p 1) z2.1)) * i5 + ((-1) * (((√2 : ℝ) : ℂ)) * ((c.e : ℂ)) * ((c.gs : ℂ)) * (ab z1.1 z2.1) * (mb z1.2 (p 0) z2.1)) * i6 + ((1) * (((√2 : ℝ) : ℂ)) * ((c.e : ℂ)) * ((c.gs : ℂ)) * (N.c 1) * (sb z1.2 z3.2) + (1) * (((√2 : ℝ) : ℂ)) * ((c.e : ℂ)) * ((c.gs : ℂ)) * (mb z1.2 (p 0) z2.1) * (sb z2.2 z3.2) + (1) * (((√2 : ℝ) : ℂ)) * ((c.e : ℂ)) * ((c.gs : ℂ)) * (mb z3.2 (p 0) z2.1) * (sb z1.2 z2.2)) * i7 + ((1) * (((√2 : ℝ) : ℂ)) * ((c.e : ℂ)) * ((c.gs : ℂ)) * (mb ρ2 (p 1) z2.1) * (sb z1.2 z3.2)) * i8 + ((-1) * (((√2 : ℝ) : ℂ)) * ((c.e : ℂ)) * ((c.gs : ℂ)) * (N.c 1) * (ab z1.1 z2.1)) * i9 + ((1) * (((√2 : ℝ) : ℂ)) * ((c.e : ℂ)) * ((c.gs : ℂ)) * (mb z1.2 (p 0) z2.1) * (sb z3.2 ρ2) + (-1) * (((√2 : ℝ) : ℂ)) * ((c.e : ℂ)) * ((c.gs : ℂ)) * (mb z3.2 (p 0) z2.1) * (sb z1.2 ρ2)) * i10 + ((1) * ((c.MW : ℂ)) * (((√2 : ℝ) : ℂ)) * ((c.e : ℂ)) * ((c.gs : ℂ)) * (ab z0.1 z2.1) * (mb z1.2 (p 0) z2.1)) * i11 + ((1) * (((√2 : ℝ) : ℂ)) * ((c.e : ℂ)) * ((c.gs : ℂ)) * ((c.mass .d : ℂ)) * (N.c 0) * (ab z1.1 z2.1)) * i12 + ((1) * (((√2 : ℝ) : ℂ)) * ((c.e : ℂ)) * ((c.gs : ℂ)) * ((c.mass .d : ℂ)) * (ab z1.1 z2.1) * (mb ρ2 (p 1) z2.1)) * i13 + ((-1) * (((√2 : ℝ) : ℂ)) * ((c.e : ℂ)) * ((c.gs : ℂ)) * (ab z1.1 z2.1) * (mb z3.2 (p 0) z2.1)) * i14)) * ((1) * ((c.MW : ℂ)⁻¹) * ((c.SW : ℂ)⁻¹) * ((N.c 0)⁻¹) * ((N.c 1)⁻¹)) + ((-1) * (((√2 : ℝ) : ℂ)) * ((c.e : ℂ)) * ((c.gs : ℂ)) * ((c.MW : ℂ)⁻¹) * ((c.SW : ℂ)⁻¹) * ((c.mass .d : ℂ)) * ((N.c 1)⁻¹) * (ab z1.1 z2.1) * (sb z0.2 ρ2) * (sb z1.2 z3.2) + (1) * (((√2 : ℝ) : ℂ)) * ((c.e : ℂ)) * ((c.gs : ℂ)) * ((c.MW : ℂ)⁻¹) * ((c.SW : ℂ)⁻¹) * ((N.c 1)⁻¹) * (ab z0.1 z2.1) * (mb ρ2 (p 0) z1.1) * (sb z1.2 z3.2)) * y0 + ((-1) * ((c.MW : ℂ)) * (((√2 : ℝ) : ℂ)) * ((c.e : ℂ)) * ((c.gs : ℂ)) * ((c.MW : ℂ)⁻¹) * ((c.SW : ℂ)⁻¹) * ((N.c 0)⁻¹) * (ab z0.1 z1.1) * (ab z1.1 z2.1) * (sb z3.2 ρ2) + (-1) * (((√2 : ℝ) : ℂ)) * ((c.e : ℂ)) * ((c.gs : ℂ)) * ((c.MW : ℂ)⁻¹) * ((c.SW : ℂ)⁻¹) * ((c.mass .u : ℂ)) * ((N.c 0)⁻¹) * (ab z0.1 z1.1) * (ab z2.1 z3.1) * (sb z1.2 ρ2) + (-1) * (((√2 : ℝ) : ℂ)) * ((c.e : ℂ)) * ((c.gs : ℂ)) * ((c.MW : ℂ)⁻¹) * ((c.SW : ℂ)⁻¹) * ((N.c 0)⁻¹) * (ab z0.1 z1.1) * (mb z1.2 (p 0) z2.1) * (sb z3.2 ρ2)) * y1 + ((-1) * (((√2 : ℝ) : ℂ)) * ((c.e : ℂ)) * ((c.gs : ℂ)) * ((c.SW : ℂ)⁻¹) * ((N.c 0)⁻¹) * (ab z0.1 z1.1) * (ab z1.1 z2.1) * (sb z3.2 ρ2) + (1) * (((√2 : ℝ) : ℂ)) ^ 2 * ((c.e : ℂ)) * ((c.gs : ℂ)) * (((√2 : ℝ) : ℂ)⁻¹) * ((c.SW : ℂ)⁻¹) * ((N.c 0)⁻¹) * (ab z0.1 z1.1) * (ab z1.1 z2.1) * (sb z3.2 ρ2)) * yMW + ((1) * (((√2 : ℝ) : ℂ)) ^ 2 * ((c.e : ℂ)) * ((c.gs : ℂ)) * ((c.MW : ℂ)⁻¹) * ((c.SW : ℂ)⁻¹) * ((c.mass .d : ℂ)) * ((N.c 1)⁻¹) * (ab z1.1 z2.1) * (sb z0.2 ρ2) * (sb z1.2 z3.2) + (1) * (((√2 : ℝ) : ℂ)) ^ 2 * ((c.e : ℂ)) * ((c.gs : ℂ)) * ((c.MW : ℂ)⁻¹) * ((c.SW : ℂ)⁻¹) * ((c.mass .u : ℂ)) * ((N.c 0)⁻¹) * (ab z0.1 z1.1) * (ab z2.1 z3.1) * (sb z1.2 ρ2) + (1) * (((√2 : ℝ) : ℂ)) ^ 2 * ((c.e : ℂ)) * ((c.gs : ℂ)) * ((c.MW : ℂ)⁻¹) * ((c.SW : ℂ)⁻¹) * ((N.c 0)⁻¹) * (ab z0.1 z1.1) * (mb z1.2 (p 0) z2.1) * (sb z3.2 ρ2) + (1) * (((√2 : ℝ) : ℂ)) ^ 2 * ((c.e : ℂ)) * ((c.gs : ℂ)) * ((c.MW : ℂ)⁻¹) * ((c.SW : ℂ)⁻¹) * ((N.c 1)⁻¹) * (ab z0.1 z2.1) * (ab z1.1 z2.1) * (sb z1.2 z3.2) * (sb z2.2 ρ2) + (-1) * (((√2 : ℝ) : ℂ)) ^ 2 * ((c.e : ℂ)) * ((c.gs : ℂ)) * ((c.MW : ℂ)⁻¹) * ((c.SW : ℂ)⁻¹) * ((N.c 1)⁻¹) * (ab z0.1 z2.1) * (mb ρ2 (p 0) z1.1) * (sb z1.2 z3.2) + (1) * (((√2 : ℝ) : ℂ)) ^ 2 * ((c.e : ℂ)) * ((c.gs : ℂ)) * ((c.SW : ℂ)⁻¹) * ((N.c 0)⁻¹) * (ab z0.1 z1.1) * (ab z1.1 z2.1) * (sb z3.2 ρ2)) * yR2 + ((1) * (((√2 : ℝ) : ℂ)) * ((c.e : ℂ)) * ((c.gs : ℂ)) * ((c.MW : ℂ)⁻¹) * ((c.SW : ℂ)⁻¹) * ((c.mass .d : ℂ)) * ((N.c 1)⁻¹) * (ab z1.1 z2.1) * (sb z0.2 ρ2) * (sb z1.2 z3.2) / (2) + (1) * (((√2 : ℝ) : ℂ)) * ((c.e : ℂ)) * ((c.gs : ℂ)) * ((c.MW : ℂ)⁻¹) * ((c.SW : ℂ)⁻¹) * ((c.mass .u : ℂ)) * ((N.c 0)⁻¹) * (ab z0.1 z1.1) * (ab z2.1 z3.1) * (sb z1.2 ρ2) / (2) + (1) * (((√2 : ℝ) : ℂ)) * ((c.e : ℂ)) * ((c.gs : ℂ)) * ((c.MW : ℂ)⁻¹) * ((c.SW : ℂ)⁻¹) * ((N.c 0)⁻¹) * (ab z0.1 z1.1) * (mb z1.2 (p 0) z2.1) * (sb z3.2 ρ2) / (2) + (1) * (((√2 : ℝ) : ℂ)) * ((c.e : ℂ)) * ((c.gs : ℂ)) * ((c.MW : ℂ)⁻¹) * ((c.SW : ℂ)⁻¹) * ((N.c 1)⁻¹) * (ab z0.1 z2.1) * (ab z1.1 z2.1) * (sb z1.2 z3.2) * (sb z2.2 ρ2) / (2) + (-1) * (((√2 : ℝ) : ℂ)) * ((c.e : ℂ)) * ((c.gs : ℂ)) * ((c.MW : ℂ)⁻¹) * ((c.SW : ℂ)⁻¹) * ((N.c 1)⁻¹) * (ab z0.1 z2.1) * (mb ρ2 (p 0) z1.1) * (sb z1.2 z3.2) / (2) + (1) * (((√2 : ℝ) : ℂ)) * ((c.e : ℂ)) * ((c.gs : ℂ)) * ((c.SW : ℂ)⁻¹) * ((N.c 0)⁻¹) * (ab z0.1 z1.1) * (ab z1.1 z2.1) * (sb z3.2 ρ2) / (2)) * x22
set_option maxRecDepth 8000 in
theorem dWgu.amp2_eq (N : Env) (f : Nat → List Int → ℂ) : Cls.dWgu.m_amp2.mean N f .r [] =
    ((sumJ (fun x a => (sumV (fun x b => (sumW (fun x c => (sumJ (fun x d => (x + (((4 : Nat) : ℝ) * (‖(f 0 [a, b, c, d])‖ ^ 2)))) x)) x)) x)) ((0 : Nat) : ℝ)) / ((18 : Nat) : ℝ)) := by rfl
set_option maxRecDepth 8000 in
theorem dWgu.value (N : Env) : meaning N .r Cls.dWgu.methods Cls.dWgu.amp2 [] =
    ((sumJ (fun x a => (sumV (fun x b => (sumW (fun x c => (sumJ (fun x d => (x + (((4 : Nat) : ℝ) * (‖(Cls.dWgu.m_amp.mean N (callMean N []) .c [a, b, c, d])‖ ^ 2)))) x)) x)) x)) ((0 : Nat) : ℝ)) / ((18 : Nat) : ℝ)) :=
  dWgu.amp2_eq N (callMean N [Cls.dWgu.m_amp])
theorem dWgu.termP_lin (N : Env) (w : ℝ) (x : ℂ) (j1 a1 b1 j4 : Int) : dWgu.termP N w x j1 a1 b1 j4 = x + (w : ℂ) * dWgu.termP N 1 0 j1 a1 b1 j4 := by
  simp only [dWgu.termP]; push_cast; ring
theorem dWgu.termM_lin (N : Env) (w : ℝ) (x : ℂ) (j1 a1 b1 j4 : Int) : dWgu.termM N w x j1 a1 b1 j4 = x + (w : ℂ) * dWgu.termM N 1 0 j1 a1 b1 j4 := by
  simp only [dWgu.termM]; push_cast; ring
set_option maxRecDepth 8000 in
theorem dWgu.ampP (N : Env) (f : Nat → List Int → ℂ) (j1 j4 : Int) (t1 : Fin 3) : Cls.dWgu.m_amp.mean N f .c [j1, spinV t1, 2, j4] = comb t1 (fun a1 b1 => dWgu.termP N 1 0 j1 (spinOf a1) (spinOf b1) j4) := by
  refine (amp_mean N f (m := 4) (K := 6) (G := fun i => if 0 < i 2 then dWgu.termP N 1 0 (i 0) (i 4) (i 5) (i 3) else if i 2 < 0 then dWgu.termM N 1 0 (i 0) (i 4) (i 5) (i 3) else 0) (fun l => ?_) (fun i i' h => ?_) rfl (by decide) (by decide) (by decide) (by decide) (by decide)).trans ?_
  · by_cases h : 0 < l.i 2
    · refine ⟨_, (if_pos (decide_eq_true h)).trans rfl, rfl, rfl, ?_⟩; rw [if_pos h]; exact dWgu.termP_lin ..
    · by_cases h' : l.i 2 < 0
      · refine ⟨_, (if_neg (fun e => h (of_decide_eq_true e))).trans ((if_pos (decide_eq_true h')).trans rfl), rfl, rfl, ?_⟩; rw [if_neg h, if_pos h']; exact dWgu.termM_lin ..
      · refine ⟨_, (if_neg (fun e => h (of_decide_eq_true e))).trans ((if_neg (fun e => h' (of_decide_eq_true e))).trans rfl), rfl, rfl, ?_⟩; rw [if_neg h, if_neg h', mul_zero, add_zero]
  · simp only [h 0 (by decide), h 2 (by decide), h 3 (by decide), h 4 (by decide), h 5 (by decide)]
  · show amp' _ [spinV t1] = _
    simp only [amp'_comb, amp'_nil]
    rfl
theorem dWgu.formP_x1 (N : Env) (p : Nat → V4 ℝ) (z0 y1 z2 z3 x y : Pair) : dWgu.formP N p z0 (x + y) y1 z2 z3 = dWgu.formP N p z0 x y1 z2 z3 + dWgu.formP N p z0 y y1 z2 z3 := by
  simp only [dWgu.formP, Prod.fst_add, Prod.snd_add, ab_add_left, ab_add_right, sb_add_left, sb_add_right, mb_add_left, mb_add_right]
  ring
theorem dWgu.formP_y1 (N : Env) (p : Nat → V4 ℝ) (z0 x1 z2 z3 x y : Pair) : dWgu.formP N p z0 x1 (x + y) z2 z3 = dWgu.formP N p z0 x1 x z2 z3 + dWgu.formP N p z0 x1 y z2 z3 := by
  simp only [dWgu.formP, Prod.fst_add, Prod.snd_add, ab_add_left, ab_add_right, sb_add_left, sb_add_right, mb_add_left, mb_add_right]
  ring
set_option maxRecDepth 8000 in
theorem dWgu.ampM (N : Env) (f : Nat → List Int → ℂ) (j1 j4 : Int) (t1 : Fin 3) : Cls.dWgu.m_amp.mean N f .c [j1, spinV t1, (-2), j4] = comb t1 (fun a1 b1 => dWgu.termM N 1 0 j1 (spinOf a1) (spinOf b1) j4) := by
  refine (amp_mean N f (m := 4) (K := 6) (G := fun i => if 0 < i 2 then dWgu.termP N 1 0 (i 0) (i 4) (i 5) (i 3) else if i 2 < 0 then dWgu.termM N 1 0 (i 0) (i 4) (i 5) (i 3) else 0) (fun l => ?_) (fun i i' h => ?_) rfl (by decide) (by decide) (by decide) (by decide) (by decide)).trans ?_
  · by_cases h : 0 < l.i 2
    · refine ⟨_, (if_pos (decide_eq_true h)).trans rfl, rfl, rfl, ?_⟩; rw [if_pos h]; exact dWgu.termP_lin ..
    · by_cases h' : l.i 2 < 0
      · refine ⟨_, (if_neg (fun e => h (of_decide_eq_true e))).trans ((if_pos (decide_eq_true h')).trans rfl), rfl, rfl, ?_⟩; rw [if_neg h, if_pos h']; exact dWgu.termM_lin ..
      · refine ⟨_, (if_neg (fun e => h (of_decide_eq_true e))).trans ((if_neg (fun e => h' (of_decide_eq_true e))).trans rfl), rfl, rfl, ?_⟩; rw [if_neg h, if_neg h', mul_zero, add_zero]
  · simp only [h 0 (by decide), h 2 (by decide), h 3 (by decide), h 4 (by decide), h 5 (by decide)]
  · show amp' _ [spinV t1] = _
    simp only [amp'_comb, amp'_nil]
    rfl
theorem dWgu.formM_x1 (N : Env) (p : Nat → V4 ℝ) (z0 y1 z2 z3 x y : Pair) : dWgu.formM N p z0 (x + y) y1 z2 z3 = dWgu.formM N p z0 x y1 z2 z3 + dWgu.formM N p z0 y y1 z2 z3 := by
  simp only [dWgu.formM, Prod.fst_add, Prod.snd_add, ab_add_left, ab_add_right, sb_add_left, sb_add_right, mb_add_left, mb_add_right]
  ring
theorem dWgu.formM_y1 (N : Env) (p : Nat → V4 ℝ) (z0 x1 z2 z3 x y : Pair) : dWgu.formM N p z0 x1 (x + y) z2 z3 = dWgu.formM N p z0 x1 x z2 z3 + dWgu.formM N p z0 x1 y z2 z3 := by
  simp only [dWgu.formM, Prod.fst_add, Prod.snd_add, ab_add_left, ab_add_right, sb_add_left, sb_add_right, mb_add_left, mb_add_right]
  ring

theorem dWgu.mass_eq {c : Constants} (hc : c.Physical) (i : Fin 4) : dWgu.proc.massNum (dWgu.rho c) i = dWgu.react.mass c i := by
  fin_cases i <;> first | rfl | exact Nat.cast_zero | exact Nat.cast_zero.trans (hc.neutrino _).symm | (show c.MW / √(((1 : Nat) : ℝ) - c.SW * c.SW) = c.MZ; rw [c.root, c.mz])

variable [FPEnv] in
theorem dWgu.agrees : dWgu.Agrees := by
  refine agrees_of (D := [4, 5]) (E := [5]) (by simp [all, dWgu]) (by decide +kernel) (by decide) (by decide +kernel) (fun c hc hh => ⟨List.forall_mem_cons.2 ⟨hc.MW, List.forall_mem_cons.2 ⟨hc.SW, List.forall_mem_nil _⟩⟩, List.forall_mem_cons.2 ⟨hc.SW_lt, List.forall_mem_nil _⟩⟩) (fun c hc i => dWgu.mass_eq hc i) (by decide +kernel) ?_
  intro c p u ε hc hh hw h0 hs hb hr hu
  have he : dWgu.react.ends = [3] := by decide
  have ht : dWgu.react.starts = [0] := by decide
  have hB : dWgu.react.bosons = [1, 2] := by decide
  obtain ⟨f1, f2, f3⟩ := dWgu.react.regular_line he ht hB hr
  have r6 : (dWgu.N c p).r 6 = (((√(((2 : Nat) : ℝ)) * c.e) * c.gs) / (c.MW * c.SW)) := rfl
  have c0 : (dWgu.N c p).c 0 = poleDist (c.mass .u) ((0 : Nat) : ℝ) ((VExp.add 0 1).sum p) := rfl
  rw [Nat.cast_zero, pole_fermion rfl] at c0
  have d0 : ((msq (plus (p 0) (p 1)) - c.mass .u ^ 2 : ℝ) : ℂ) = (dWgu.N c p).c 0 := by rw [c0, msq_s hb (plus (p 0) (p 1)) (by simp)]
  have n0 : (dWgu.N c p).c 0 ≠ 0 := by rw [← d0]; exact_mod_cast f1 .u rfl rfl
  have c1 : (dWgu.N c p).c 1 = poleDist (c.mass .d) ((0 : Nat) : ℝ) ((VExp.sub 0 2).sum p) := rfl
  rw [Nat.cast_zero, pole_fermion rfl] at c1
  have d1 : ((msq (plus (p 0) (backward (p 2))) - c.mass .d ^ 2 : ℝ) : ℂ) = (dWgu.N c p).c 1 := by rw [c1, msq_t hb (plus (p 0) (backward (p 2))) (by simp)]
  have n1 : (dWgu.N c p).c 1 ≠ 0 := by rw [← d1]; exact_mod_cast f2 .d rfl rfl
  obtain ⟨l2, x2, y2⟩ := dWgu.react.code_light hs hu (n := 2) rfl rfl
  have e20 := l2.pole_sub' (m := (c.mass .d)) (onShell_msq (hs 0)) (msq_t hb (plus (p 0) (backward (p 2))) (by simp)) c1
  have e23 := l2.pole_add (m := (c.mass .u)) (onShell_msq (hs 3)) (msq_s hb (plus (p 2) (p 3)) (by simp)) c0
  have m0 : dWgu.react.mass c 0 ≠ 0 := (leg_pos hc hh (by decide)).ne'
  have m1 : dWgu.react.mass c 1 ≠ 0 := (leg_pos hc hh (by decide)).ne'
  have m3 : dWgu.react.mass c 3 ≠ 0 := (leg_pos hc hh (by decide)).ne'
  have m2 : dWgu.react.mass c 2 = 0 := rfl
  have hd : dWgu.proc.divides = [(Ty.c, 0), (Ty.c, 1)] := by decide +kernel
  refine ⟨fun n hn => ?_, fun n hn => ?_, ?_⟩
  · simp [hd] at hn
  · simp [hd] at hn
    rcases hn with rfl | rfl
    · exact n0
    · exact n1
  have stP : ∀ {z0 z3 : Pair} (b0 : Bold (p 0) (dWgu.react.mass c 0) z0) (b3 : Bold (p 3) (dWgu.react.mass c 3) z3) (t1 : Fin 3), comb t1 (fun a1 b1 => dWgu.formP (dWgu.N c p) p z0 (dWgu.react.codePair c p 1 a1) (dWgu.react.codePair c p 1 b1) (legA (p 2) 0 0, legS (p 2) 0 1) z3) = (-1) * dWgu.react.bare c p 3 0 1 2 z3 z0 (dWgu.react.codeVec c p 1 t1) (lightE (legA (p 2) 0 0, legS (p 2) 0 1) 1) := by
    intro z0 z3 b0 b3 t1
    refine one_vector (p := p 1) (m := dWgu.react.mass c 1) (fun s => dWgu.react.codePair_bold hs h0 1 s) (B := fun x y => dWgu.formP (dWgu.N c p) p z0 x y (legA (p 2) 0 0, legS (p 2) 0 1) z3) (G := fun E => dWgu.react.bare c p 3 0 1 2 z3 z0 E (lightE (legA (p 2) 0 0, legS (p 2) 0 1) 1)) (fun x y z => ?_) (fun x y z => ?_) (dWgu.react.bare_lin₁ c p _ _ _ (by decide)) (-1) (fun z1 b1 => ?_) t1
    · exact dWgu.formP_x1 ..
    · exact dWgu.formP_y1 ..
    · exact (light_plus (z := (legA (p 2) 0 0, legS (p 2) 0 1)) (G := fun E => dWgu.react.bare c p 3 0 1 2 z3 z0 (pv z1.1 z1.2) E) (dWgu.react.bare_lin₂ c p _ _ _ (by decide)) x2 (dWgu.keyP hc hb r6 d0 n0 d1 n1 b0 b1 b3 l2 e20 e23 (onShell_msq (hs 0)) (onShell_msq (hs 1)) (onShell_msq (hs 3)) _)).trans (mul_assoc _ _ _)
  have stM : ∀ {z0 z3 : Pair} (b0 : Bold (p 0) (dWgu.react.mass c 0) z0) (b3 : Bold (p 3) (dWgu.react.mass c 3) z3) (t1 : Fin 3), comb t1 (fun a1 b1 => dWgu.formM (dWgu.N c p) p z0 (dWgu.react.codePair c p 1 a1) (dWgu.react.codePair c p 1 b1) (legA (p 2) 0 0, legS (p 2) 0 1) z3) = (-1) * dWgu.react.bare c p 3 0 1 2 z3 z0 (dWgu.react.codeVec c p 1 t1) (lightE (legA (p 2) 0 0, legS (p 2) 0 1) 0) := by
    intro z0 z3 b0 b3 t1
    refine one_vector (p := p 1) (m := dWgu.react.mass c 1) (fun s => dWgu.react.codePair_bold hs h0 1 s) (B := fun x y => dWgu.formM (dWgu.N c p) p z0 x y (legA (p 2) 0 0, legS (p 2) 0 1) z3) (G := fun E => dWgu.react.bare c p 3 0 1 2 z3 z0 E (lightE (legA (p 2) 0 0, legS (p 2) 0 1) 0)) (fun x y z => ?_) (fun x y z => ?_) (dWgu.react.bare_lin₁ c p _ _ _ (by decide)) (-1) (fun z1 b1 => ?_) t1
    · exact dWgu.formM_x1 ..
    · exact dWgu.formM_y1 ..
    · exact (light_minus (z := (legA (p 2) 0 0, legS (p 2) 0 1)) (G := fun E => dWgu.react.bare c p 3 0 1 2 z3 z0 (pv z1.1 z1.2) E) (dWgu.react.bare_lin₂ c p _ _ _ (by decide)) y2 (dWgu.keyM hc hb r6 d0 n0 d1 n1 b0 b1 b3 l2 e20 e23 (onShell_msq (hs 0)) (onShell_msq (hs 1)) (onShell_msq (hs 3)) _)).trans (mul_assoc _ _ _)
  have amP : ∀ (s0 : Fin 2) (s3 : Fin 2) (t1 : Fin 3), Cls.dWgu.m_amp.mean (dWgu.N c p) (callMean (dWgu.N c p) []) .c [spinOf s0, spinV t1, 2, spinOf s3] = (-1) * dWgu.react.bare c p 3 0 1 2 (dWgu.react.codePair c p 3 s3) (dWgu.react.codePair c p 0 s0) (dWgu.react.codeVec c p 1 t1) (lightE (legA (p 2) 0 0, legS (p 2) 0 1) 1) := by
    intro s0 s3 t1
    rw [dWgu.ampP, ← stP (dWgu.react.codePair_bold hs h0 0 s0) (dWgu.react.codePair_bold hs h0 3 s3) t1]
    refine congrArg (comb t1) (funext fun a1 => funext fun b1 => ?_)
    have v0x1z0 : (dWgu.N c p).v 0 [spinOf a1, spinOf s0] = ab (dWgu.react.codePair c p 1 a1).1 (dWgu.react.codePair c p 0 s0).1 := bra_angle (p := p) (m := dWgu.proc.massNum (dWgu.rho c)) (dWgu.mass_eq hc 1) (dWgu.mass_eq hc 0) (.inl ⟨m1, rfl⟩) (.inl ⟨m0, rfl⟩)
    have v1y1z3 : (dWgu.N c p).v 1 [spinOf b1, spinOf s3] = sb (dWgu.react.codePair c p 1 b1).2 (dWgu.react.codePair c p 3 s3).2 := bra_square (p := p) (m := dWgu.proc.massNum (dWgu.rho c)) (dWgu.mass_eq hc 1) (dWgu.mass_eq hc 3) (.inl ⟨m1, rfl⟩) (.inl ⟨m3, rfl⟩)
    have v4z2z2 : (dWgu.N c p).v 4 [] = mb (legA (p 2) 0 0, legS (p 2) 0 1).2 (p 3) (slashLower (p 0) *ᵥ (legA (p 2) 0 0, legS (p 2) 0 1).2) := bra_two_square (p := p) (m := dWgu.proc.massNum (dWgu.rho c)) (dWgu.mass_eq hc 2) (dWgu.mass_eq hc 2) (.inr ⟨m2, rfl⟩) (.inr ⟨m2, rfl⟩)
    have v2z2x1 : (dWgu.N c p).v 2 [spinOf a1] = sb (legA (p 2) 0 0, legS (p 2) 0 1).2 (dWgu.react.codePair c p 1 a1).2 := bra_square (p := p) (m := dWgu.proc.massNum (dWgu.rho c)) (dWgu.mass_eq hc 2) (dWgu.mass_eq hc 1) (.inr ⟨m2, rfl⟩) (.inl ⟨m1, rfl⟩)
    have v3z2z3 : (dWgu.N c p).v 3 [spinOf s3] = sb (legA (p 2) 0 0, legS (p 2) 0 1).2 (dWgu.react.codePair c p 3 s3).2 := bra_square (p := p) (m := dWgu.proc.massNum (dWgu.rho c)) (dWgu.mass_eq hc 2) (dWgu.mass_eq hc 3) (.inr ⟨m2, rfl⟩) (.inl ⟨m3, rfl⟩)
    have v0y1z0 : (dWgu.N c p).v 0 [spinOf b1, spinOf s0] = ab (dWgu.react.codePair c p 1 b1).1 (dWgu.react.codePair c p 0 s0).1 := bra_angle (p := p) (m := dWgu.proc.massNum (dWgu.rho c)) (dWgu.mass_eq hc 1) (dWgu.mass_eq hc 0) (.inl ⟨m1, rfl⟩) (.inl ⟨m0, rfl⟩)
    simp only [dWgu.termP, dWgu.formP, v0x1z0, v1y1z3, v4z2z2, v2z2x1, v3z2z3, v0y1z0]
    push_cast
    ring
  have amM : ∀ (s0 : Fin 2) (s3 : Fin 2) (t1 : Fin 3), Cls.dWgu.m_amp.mean (dWgu.N c p) (callMean (dWgu.N c p) []) .c [spinOf s0, spinV t1, (-2), spinOf s3] = (-1) * dWgu.react.bare c p 3 0 1 2 (dWgu.react.codePair c p 3 s3) (dWgu.react.codePair c p 0 s0) (dWgu.react.codeVec c p 1 t1) (lightE (legA (p 2) 0 0, legS (p 2) 0 1) 0) := by
    intro s0 s3 t1
    rw [dWgu.ampM, ← stM (dWgu.react.codePair_bold hs h0 0 s0) (dWgu.react.codePair_bold hs h0 3 s3) t1]
    refine congrArg (comb t1) (funext fun a1 => funext fun b1 => ?_)
    have v0x1z0 : (dWgu.N c p).v 0 [spinOf a1, spinOf s0] = ab (dWgu.react.codePair c p 1 a1).1 (dWgu.react.codePair c p 0 s0).1 := bra_angle (p := p) (m := dWgu.proc.massNum (dWgu.rho c)) (dWgu.mass_eq hc 1) (dWgu.mass_eq hc 0) (.inl ⟨m1, rfl⟩) (.inl ⟨m0, rfl⟩)
    have v1y1z3 : (dWgu.N c p).v 1 [spinOf b1, spinOf s3] = sb (dWgu.react.codePair c p 1 b1).2 (dWgu.react.codePair c p 3 s3).2 := bra_square (p := p) (m := dWgu.proc.massNum (dWgu.rho c)) (dWgu.mass_eq hc 1) (dWgu.mass_eq hc 3) (.inl ⟨m1, rfl⟩) (.inl ⟨m3, rfl⟩)
    have v7z2z2 : (dWgu.N c p).v 7 [] = mb (slashUpper (p 0) *ᵥ (legA (p 2) 0 0, legS (p 2) 0 1).1) (p 3) (legA (p 2) 0 0, legS (p 2) 0 1).1 := bra_two_angle (p := p) (m := dWgu.proc.massNum (dWgu.rho c)) (dWgu.mass_eq hc 2) (dWgu.mass_eq hc 2) (.inr ⟨m2, rfl⟩) (.inr ⟨m2, rfl⟩)
    have v5z2x1 : (dWgu.N c p).v 5 [spinOf a1] = ab (legA (p 2) 0 0, legS (p 2) 0 1).1 (dWgu.react.codePair c p 1 a1).1 := bra_angle (p := p) (m := dWgu.proc.massNum (dWgu.rho c)) (dWgu.mass_eq hc 2) (dWgu.mass_eq hc 1) (.inr ⟨m2, rfl⟩) (.inl ⟨m1, rfl⟩)
    have v6z2z0 : (dWgu.N c p).v 6 [spinOf s0] = ab (legA (p 2) 0 0, legS (p 2) 0 1).1 (dWgu.react.codePair c p 0 s0).1 := bra_angle (p := p) (m := dWgu.proc.massNum (dWgu.rho c)) (dWgu.mass_eq hc 2) (dWgu.mass_eq hc 0) (.inr ⟨m2, rfl⟩) (.inl ⟨m0, rfl⟩)
    simp only [dWgu.termM, dWgu.formM, v0x1z0, v1y1z3, v7z2z2, v5z2x1, v6z2z0]
    push_cast
    ring
  have am : ∀ (s0 : Fin 2) (s3 : Fin 2) (h2 : Fin 2) (t1 : Fin 3), ‖Cls.dWgu.m_amp.mean (dWgu.N c p) (callMean (dWgu.N c p) []) .c [spinOf s0, spinV t1, spinW h2, spinOf s3]‖ = ‖dWgu.react.bare c p 3 0 1 2 (dWgu.react.codePair c p 3 s3) (dWgu.react.codePair c p 0 s0) (dWgu.react.codeVec c p 1 t1) (lightE (legA (p 2) 0 0, legS (p 2) 0 1) h2.castSucc)‖ := by
    intro s0 s3 h2 t1
    match h2 with
    | 1 => exact norm_minus (amP s0 s3 t1)
    | 0 => exact norm_minus (amM s0 s3 t1)
  show meaning (dWgu.N c p) .r Cls.dWgu.methods Cls.dWgu.amp2 [] = _
  have s0 : dWgu.react.states 0 = 6 := by decide +kernel
  have s1 : dWgu.react.states 1 = 3 := by decide +kernel
  have sy : dWgu.react.symmetry = 1 := by decide
  have p0 : dWgu.react.spins 0 = {0, 1} := rfl
  have p1 : dWgu.react.spins 1 = Finset.univ := rfl
  have p2 : dWgu.react.spins 2 = {0, 1} := rfl
  have p3 : dWgu.react.spins 3 = {0, 1} := rfl
  have E1 : dWgu.react.codeE c p 1 = dWgu.react.codeVec c p 1 := rfl
  have E2 : dWgu.react.codeE c p 2 = lightE (legA (p 2) 0 0, legS (p 2) 0 1) := rfl
  have hG : dWgu.react.Gauge c p := (dWgu.react.gauge_line he ht hB hh (by decide) (fun n => onShell_msq (hs n)) hb hr (fun n m h h2 => absurd (And.intro h h2) (by revert n m; decide)) (fun h => absurd h (by decide)) (fun _ => ⟨rfl, rfl⟩))
  rw [dWgu.value, dWgu.react.squared_gluon 2 he ht hB (by decide) (by decide +kernel) (by decide +kernel) hs h0 (fun _ b _ hb _ => (boson_pos hc hh hb).ne') hG (E := dWgu.react.codeE c p) (fun n b hl => dWgu.react.codeE_polarised hs h0 hu (fun b hb => (boson_pos hc hh hb).ne') n b hl) hu, sum_colours, s0, s1, sy]
  simp only [sumV_sum, sumJ_sum, sumW_sum, am, p0, p1, p2, p3, E1, E2, Finset.sum_singleton, sum_two, Matrix.cons_val_zero, Matrix.cons_val_one, Matrix.cons_val, two_castSucc]
  try simp only [← Finset.mul_sum]
  push_cast
  first | ring1 | ring_nf

end Spinas.SM.Rows
