import Verif.SM.LightRows
import Verif.SM.GluonLine

/-! Compton scattering. Generated by tools/bosons/lemit.py: for each class its amplitude at given helicities as a formula in spinors, and the proof that `amp2` is the squared amplitude of the Feynman rules. -/

set_option linter.unusedSimpArgs false
set_option linter.unusedVariables false
set_option linter.unreachableTactic false
set_option linter.unusedTactic false

namespace Spinas.SM.Rows
open Spec Spec.Reaction Props XR Matrix BRow

/-! ### uAAu -/

/-- what the methods of the class see -/
noncomputable abbrev uAAu.N [FPEnv] (c : Constants) (p : Nat → V4 ℝ) : Env := uAAu.proc.env (uAAu.rho c) p
/-- `amp` for a photon of positive helicity and a photon of positive helicity (SM/uAAu.cpp) -/
noncomputable def uAAu.termPP (N : Env) (j1 j4 : Int) : ℂ :=
  ((((((((((((((2 : Nat) : ℝ) * N.r 0) * N.r 0) * N.r 1) * N.r 1) * N.r 2) : ℝ) : ℂ) * N.v 8 []) * N.v 8 []) * N.v 11 [j1, j4]) / N.c 0) / N.c 1)
/-- the same with spinors in place of their spins -/
noncomputable def uAAu.formPP (N : Env) (p : Nat → V4 ℝ) (z0 z1 z2 z3 : Pair) : ℂ :=
  ((((((((((((((2 : Nat) : ℝ) * N.r 0) * N.r 0) * N.r 1) * N.r 1) * N.r 2) : ℝ) : ℂ) * (sb z1.2 z2.2)) * (sb z1.2 z2.2)) * (ab z0.1 z3.1)) / N.c 0) / N.c 1)
/-- `amp` for a photon of positive helicity and a photon of negative helicity (SM/uAAu.cpp) -/
noncomputable def uAAu.termPM (N : Env) (j1 j4 : Int) : ℂ :=
  (((((((((((-((2 : Nat) : ℝ)) * N.r 0) * N.r 0) * N.r 1) * N.r 1) : ℝ) : ℂ) * ((N.v 1 [j4] * N.v 2 [j1]) - (N.v 5 [j1] * N.v 6 [j4]))) * N.v 13 []) / N.c 0) / N.c 1)
/-- the same with spinors in place of their spins -/
noncomputable def uAAu.formPM (N : Env) (p : Nat → V4 ℝ) (z0 z1 z2 z3 : Pair) : ℂ :=
  (((((((((((-((2 : Nat) : ℝ)) * N.r 0) * N.r 0) * N.r 1) * N.r 1) : ℝ) : ℂ) * (((ab z2.1 z3.1) * (sb z0.2 z1.2)) - ((ab z0.1 z2.1) * (sb z1.2 z3.2)))) * (mb z1.2 (p 3) z2.1)) / N.c 0) / N.c 1)
/-- `amp` for a photon of negative helicity and a photon of positive helicity (SM/uAAu.cpp) -/
noncomputable def uAAu.termMP (N : Env) (j1 j4 : Int) : ℂ :=
  ((((((((((((2 : Nat) : ℝ) * N.r 0) * N.r 0) * N.r 1) * N.r 1) : ℝ) : ℂ) * ((N.v 0 [j4] * N.v 3 [j1]) - (N.v 4 [j1] * N.v 7 [j4]))) * N.v 12 []) / N.c 0) / N.c 1)
/-- the same with spinors in place of their spins -/
noncomputable def uAAu.formMP (N : Env) (p : Nat → V4 ℝ) (z0 z1 z2 z3 : Pair) : ℂ :=
  ((((((((((((2 : Nat) : ℝ) * N.r 0) * N.r 0) * N.r 1) * N.r 1) : ℝ) : ℂ) * (((sb z2.2 z3.2) * (ab z0.1 z1.1)) - ((sb z0.2 z2.2) * (ab z1.1 z3.1)))) * (mb z2.2 (p 3) z1.1)) / N.c 0) / N.c 1)
/-- `amp` for a photon of negative helicity and a photon of negative helicity (SM/uAAu.cpp) -/
noncomputable def uAAu.termMM (N : Env) (j1 j4 : Int) : ℂ :=
  (((((((((((((-((2 : Nat) : ℝ)) * N.r 0) * N.r 0) * N.r 1) * N.r 1) * N.r 2) : ℝ) : ℂ) * N.v 9 []) * N.v 9 []) * N.v 10 [j1, j4]) / N.c 0) / N.c 1)
/-- the same with spinors in place of their spins -/
noncomputable def uAAu.formMM (N : Env) (p : Nat → V4 ℝ) (z0 z1 z2 z3 : Pair) : ℂ :=
  (((((((((((((-((2 : Nat) : ℝ)) * N.r 0) * N.r 0) * N.r 1) * N.r 1) * N.r 2) : ℝ) : ℂ) * (ab z1.1 z2.1)) * (ab z1.1 z2.1)) * (sb z0.2 z3.2)) / N.c 0) / N.c 1)
theorem uAAu.keyPP {c : Constants} {p : Nat → V4 ℝ} {N : Env} (hc : c.Physical) (hb : Balanced p) (r0 : N.r 0 = c.e) (r1 : N.r 1 = (((2 : Nat) : ℝ) / ((3 : Nat) : ℝ))) (r2 : N.r 2 = (c.mass .u)) (d0 : ((msq (plus (p 0) (backward (p 2))) - c.mass .u ^ 2 : ℝ) : ℂ) = N.c 0) (n0 : N.c 0 ≠ 0) (d1 : ((msq (plus (p 0) (p 1)) - c.mass .u ^ 2 : ℝ) : ℂ) = N.c 1) (n1 : N.c 1 ≠ 0) {z0 z1 z2 z3 : Pair} (b0 : Bold (p 0) (c.mass .u) z0) (b3 : Bold (p 3) (c.mass .u) z3) (l1 : Light (p 1) z1) (l2 : Light (p 2) z2) (e10 : mb z1.2 (p 0) z1.1 = N.c 1) (e13 : mb z1.2 (p 3) z1.1 = -N.c 0) (e20 : mb z2.2 (p 0) z2.1 = -N.c 0) (e23 : mb z2.2 (p 3) z2.1 = N.c 1) (q0 : msq (p 0) = (c.mass .u) ^ 2) (q3 : msq (p 3) = (c.mass .u) ^ 2) (ρ1 ρ2 : V2) :
    uAAu.formPP N p z0 z1 z2 z3 * ab ρ1 z1.1 * ab ρ2 z2.1 = ((√2 : ℝ) * ((√2 : ℝ) * (1 : ℂ))) * uAAu.react.bare c p 3 0 1 2 z3 z0 (pv ρ1 z1.2) (pv ρ2 z2.2) := by
  rw [uAAu.react.bare_parts c p (i := 3) (j := 0) (a := 1) (b := 2) (x := .photon) (y := .photon) (k := (p 1)) (k' := (backward (p 2))) (fun _ => rfl) (fun _ => rfl) (f := .u) (g := .u) rfl rfl (l := (p 0)) rfl (e := 1) (e' := 1) (if_neg Bool.false_ne_true) (if_neg Bool.false_ne_true)]
  rw [compton_vv (f := .u) (x := .u) (g := .u) (h := (rfl : Spec.after .photon Flavour.u = some Flavour.u)) (h' := (rfl : Spec.after .photon Flavour.u = some Flavour.u)) (ha := by simp) (hb := by simp)]
  rw [compton_vv (f := .u) (x := .u) (g := .u) (h := (rfl : Spec.after .photon Flavour.u = some Flavour.u)) (h' := (rfl : Spec.after .photon Flavour.u = some Flavour.u)) (ha := by simp) (hb := by simp)]
  rw [annihilation_none c _ _ (by rfl) (by simp), star_zero, add_zero, uAAu.formPP]
  simp only [d0, d1, lineV_pv, lineV_four, contract_four_pv, contract_pv, mb_plus, mb_backward]
  have i0 := ab_schouten z1.1 z3.1 ρ1 z0.1
  have i1 := mb_schouten_left z0.2 z1.2 z2.2 (p 0) ρ1
  have i2 := mb_schouten_right z1.2 (p 0) z1.1 z3.1 ρ2
  have i3 := ab_schouten z2.1 ρ1 ρ2 z1.1
  have i4 := mb_schouten_left z0.2 z1.2 z2.2 (p 0) z1.1
  have i5 := mb_schouten_right z2.2 (p 0) z1.1 z3.1 ρ1
  have i6 := mb_schouten_right z0.2 (p 3) z1.1 z3.1 ρ1
  have i7 := ab_schouten z2.1 z3.1 ρ1 z1.1
  have i8 := sb_schouten z1.2 z2.2 z3.2 z0.2
  have i9 := ab_schouten z3.1 ρ1 ρ2 z2.1
  have i10 := mb_schouten_right z1.2 (p 3) z0.1 z1.1 ρ1
  have i11 := mb_schouten_right z1.2 (p 0) z0.1 z1.1 ρ1
  have i12 := mb_schouten_right z1.2 (p 0) z3.1 ρ1 ρ2
  have i13 := mb_schouten_right z1.2 (p 0) z0.1 z1.1 z3.1
  have i14 := ab_schouten z3.1 ρ1 ρ2 z0.1
  have i15 := mb_schouten_right z1.2 (p 3) z1.1 z3.1 ρ1
  have i16 := mb_schouten_right z1.2 (p 0) z0.1 z1.1 ρ2
  have i17 := mb_schouten_left z1.2 z2.2 z3.2 (p 0) z1.1
  have i18 := ab_schouten z1.1 z2.1 ρ1 z0.1
  have i19 := mb_schouten_right z1.2 (p 3) z1.1 z3.1 ρ2
  have i20 := mb_schouten_right z2.2 (p 0) z0.1 z1.1 ρ1
  have i21 := mb_schouten_right z1.2 (p 0) z1.1 z3.1 ρ1
  have i22 := mb_schouten_left z0.2 z1.2 z2.2 (p 0) z2.1
  have i23 := mb_schouten_right z1.2 (p 0) z1.1 z2.1 z3.1
  have i24 := mb_schouten_right z1.2 (p 0) z0.1 ρ1 ρ2
  have i25 := mb_schouten_right z0.2 (p 3) z3.1 ρ1 ρ2
  have i26 := mb_schouten_right z1.2 (p 3) z0.1 z1.1 z3.1
  have i27 := mb_schouten_right z0.2 (p 3) z1.1 z2.1 z3.1
  have i28 := mb_schouten_right z1.2 (p 0) z1.1 z2.1 ρ2
  have i29 := ab_schouten z3.1 ρ1 ρ2 z1.1
  have i30 := mb_schouten_right z1.2 (p 0) z0.1 z2.1 ρ2
  have i31 := mb_schouten_right z1.2 (p 3) z0.1 z1.1 ρ2
  have i32 := mb_schouten_right z1.2 (p 0) z0.1 z1.1 z2.1
  have i33 := ab_schouten z2.1 ρ1 ρ2 z0.1
  have i34 := mb_schouten_right z1.2 (p 0) z0.1 z2.1 ρ1
  have i35 := ab_schouten z1.1 ρ1 ρ2 z0.1
  have i36 := mb_schouten_right z2.2 (p 0) z1.1 z2.1 z3.1
  simp only [l1.mb_eq, l2.mb_eq, b0.mb_left, b0.mb_right, b3.mb_left, b3.mb_right, e10, e13, e20, e23, mb_three hb z0.2 z0.1, mb_three hb z0.2 z1.1, mb_three hb z0.2 z2.1, mb_three hb z0.2 ρ1, mb_three hb z0.2 ρ2, mb_three hb z1.2 z0.1, mb_three hb z1.2 z2.1, mb_nought hb z1.2 z3.1, mb_three hb z1.2 ρ1, mb_three hb z1.2 ρ2, mb_three hb z2.2 z0.1, mb_three hb z2.2 z1.1, mb_nought hb z2.2 z3.1, mb_three hb z2.2 ρ1, mb_three hb z2.2 ρ2, mb_nought hb z3.2 z1.1, mb_nought hb z3.2 z2.1, mb_nought hb z3.2 z3.1, mb_nought hb z3.2 ρ1, mb_nought hb z3.2 ρ2, ab_self, sb_self] at i0 i1 i2 i3 i4 i5 i6 i7 i8 i9 i10 i11 i12 i13 i14 i15 i16 i17 i18 i19 i20 i21 i22 i23 i24 i25 i26 i27 i28 i29 i30 i31 i32 i33 i34 i35 i36 ⊢
  simp only [ab_swap z0.1 z1.1, ab_swap z0.1 z2.1, ab_swap z0.1 z3.1, ab_swap z0.1 ρ1, ab_swap z0.1 ρ2, ab_swap z1.1 z2.1, ab_swap z1.1 z3.1, ab_swap z1.1 ρ1, ab_swap z1.1 ρ2, ab_swap z2.1 z3.1, ab_swap z2.1 ρ1, ab_swap z2.1 ρ2, ab_swap z3.1 ρ1, ab_swap z3.1 ρ2, ab_swap ρ1 ρ2, sb_swap z0.2 z1.2, sb_swap z0.2 z2.2, sb_swap z0.2 z3.2, sb_swap z1.2 z2.2, sb_swap z1.2 z3.2, sb_swap z2.2 z3.2] at i0 i1 i2 i3 i4 i5 i6 i7 i8 i9 i10 i11 i12 i13 i14 i15 i16 i17 i18 i19 i20 i21 i22 i23 i24 i25 i26 i27 i28 i29 i30 i31 i32 i33 i34 i35 i36 ⊢
  simp only [r0, r1, r2, Constants.hL, Constants.hR, Constants.gL, Constants.gR, Constants.yuk, Constants.invVev, Flavour.charge_u, Flavour.isospin_u, ← c.mz]
  have xMW : (c.MW : ℂ) ≠ 0 := by exact_mod_cast hc.MW
  have xSW : (c.SW : ℂ) ≠ 0 := by exact_mod_cast hc.SW
  have xCW : (c.CW : ℂ) ≠ 0 := by exact_mod_cast hc.CW
  have x2 : ((√2 : ℝ) : ℂ) ≠ 0 := by exact_mod_cast (Real.sqrt_pos.2 two_pos).ne'
  have x22 : ((√2 : ℝ) : ℂ) ^ 2 = 2 := by rw [← Complex.ofReal_pow, Real.sq_sqrt two_pos.le]; norm_num
  have x23 : ((√2 : ℝ) : ℂ) ^ 3 = 2 * ((√2 : ℝ) : ℂ) := by rw [← x22]; ring
  have x24 : ((√2 : ℝ) : ℂ) ^ 4 = 4 := by linear_combination (((√2 : ℝ) : ℂ) ^ 2 + 2) * x22
  push_cast at i0 i1 i2 i3 i4 i5 i6 i7 i8 i9 i10 i11 i12 i13 i14 i15 i16 i17 i18 i19 i20 i21 i22 i23 i24 i25 i26 i27 i28 i29 i30 i31 i32 i33 i34 i35 i36 ⊢
  have y0 := mul_inv_cancel₀ n0
  have y1 := mul_inv_cancel₀ n1
  linear_combination ((((-8) * ((c.e : ℂ)) ^ 2 * ((c.mass .u : ℂ)) * (ab z2.1 ρ2) * (sb z1.2 z2.2) ^ 2) * i0 + ((16) * ((c.e : ℂ)) ^ 2 * (N.c 0) * (ab z3.1 ρ2)) * i1 + ((8) * ((c.e : ℂ)) ^ 2 * (ab z1.1 ρ1) * (sb z0.2 z1.2) * (sb z1.2 z2.2) + (-8) * ((c.e : ℂ)) ^ 2 * (ab z2.1 ρ1) * (sb z0.2 z2.2) * (sb z1.2 z2.2)) * i2 + ((-16) * ((c.e : ℂ)) ^ 2 * ((c.mass .u : ℂ)) * (sb z0.2 z1.2) * (sb z1.2 z2.2) * (sb z2.2 z3.2) + (8) * ((c.e : ℂ)) ^ 2 * ((c.mass .u : ℂ)) * (sb z0.2 z2.2) * (sb z1.2 z2.2) * (sb z1.2 z3.2) + (8) * ((c.e : ℂ)) ^ 2 * (ab z1.1 z3.1) * (sb z0.2 z1.2) * (sb z1.2 z2.2) ^ 2 + (-8) * ((c.e : ℂ)) ^ 2 * (ab z2.1 z3.1) * (sb z0.2 z2.2) * (sb z1.2 z2.2) ^ 2) * i3 + ((-8) * ((c.e : ℂ)) ^ 2 * (ab z2.1 ρ1) * (ab z3.1 ρ2) * (sb z1.2 z2.2) + (8) * ((c.e : ℂ)) ^ 2 * (ab z3.1 ρ1) * (mb z1.2 (p 0) ρ2)) * i4 + ((8) * ((c.e : ℂ)) ^ 2 * (ab z2.1 ρ2) * (sb z0.2 z1.2) * (sb z1.2 z2.2) + (-8) * ((c.e : ℂ)) ^ 2 * (mb z1.2 (p 0) ρ2) * (sb z0.2 z1.2)) * i5 + ((8) * ((c.e : ℂ)) ^ 2 * (ab z2.1 ρ2) * (sb z1.2 z2.2) ^ 2 + (-8) * ((c.e : ℂ)) ^ 2 * (mb z1.2 (p 0) ρ2) * (sb z1.2 z2.2)) * i6 + ((-8) * ((c.e : ℂ)) ^ 2 * (ab z2.1 ρ2) * (sb z0.2 z2.2) * (sb z1.2 z2.2) ^ 2 + (16) * ((c.e : ℂ)) ^ 2 * (mb z1.2 (p 0) ρ2) * (sb z0.2 z2.2) * (sb z1.2 z2.2)) * i7 + ((16) * ((c.e : ℂ)) ^ 2 * ((c.mass .u : ℂ)) * (N.c 0) * (ab ρ1 ρ2) + (8) * ((c.e : ℂ)) ^ 2 * ((c.mass .u : ℂ)) * (N.c 1) * (ab ρ1 ρ2) + (16) * ((c.e : ℂ)) ^ 2 * ((c.mass .u : ℂ)) * (ab z1.1 z2.1) * (ab ρ1 ρ2) * (sb z1.2 z2.2) + (-8) * ((c.e : ℂ)) ^ 2 * ((c.mass .u : ℂ)) * (ab z1.1 ρ1) * (ab z2.1 ρ2) * (sb z1.2 z2.2) + (8) * ((c.e : ℂ)) ^ 2 * ((c.mass .u : ℂ)) * (ab z1.1 ρ1) * (mb z1.2 (p 0) ρ2)) * i8 + ((16) * ((c.e : ℂ)) ^ 2 * (N.c 0) * (sb z0.2 z2.2) * (sb z1.2 z2.2) + (8) * ((c.e : ℂ)) ^ 2 * (N.c 1) * (sb z0.2 z2.2) * (sb z1.2 z2.2) + (-8) * ((c.e : ℂ)) ^ 2 * (mb z2.2 (p 0) z1.1) * (sb z0.2 z1.2) * (sb z1.2 z2.2)) * i9 + ((-8) * ((c.e : ℂ)) ^ 2 * ((c.mass .u : ℂ)) * (ab z3.1 ρ2) * (sb z1.2 z2.2) + (16) * ((c.e : ℂ)) ^ 2 * (mb z1.2 (p 0) ρ2) * (sb z2.2 z3.2)) * i10 + ((8) * ((c.e : ℂ)) ^ 2 * ((c.mass .u : ℂ)) * (ab z3.1 ρ2) * (sb z1.2 z2.2) + (-8) * ((c.e : ℂ)) ^ 2 * (ab z2.1 ρ2) * (sb z1.2 z2.2) * (sb z2.2 z3.2) + (-16) * ((c.e : ℂ)) ^ 2 * (mb z1.2 (p 0) ρ2) * (sb z2.2 z3.2)) * i11 + ((-16) * ((c.e : ℂ)) ^ 2 * (N.c 0) * (sb z0.2 z2.2)) * i12 + ((-16) * ((c.e : ℂ)) ^ 2 * ((c.mass .u : ℂ)) * (ab ρ1 ρ2) * (sb z1.2 z2.2)) * i13 + ((-16) * ((c.e : ℂ)) ^ 2 * ((c.mass .u : ℂ)) * (N.c 0) * (sb z1.2 z2.2) + (-16) * ((c.e : ℂ)) ^ 2 * ((c.mass .u : ℂ)) * (N.c 1) * (sb z1.2 z2.2)) * i14 + ((8) * ((c.e : ℂ)) ^ 2 * (ab z1.1 ρ2) * (sb z0.2 z1.2) * (sb z1.2 z2.2) + (-16) * ((c.e : ℂ)) ^ 2 * (mb z1.2 (p 0) ρ2) * (sb z0.2 z2.2)) * i15 + ((8) * ((c.e : ℂ)) ^ 2 * (ab z2.1 ρ1) * (sb z1.2 z2.2) * (sb z2.2 z3.2) + (8) * ((c.e : ℂ)) ^ 2 * (mb z1.2 (p 0) ρ1) * (sb z2.2 z3.2) + (-8) * ((c.e : ℂ)) ^ 2 * (mb z2.2 (p 0) ρ1) * (sb z1.2 z3.2)) * i16 + ((-8) * ((c.e : ℂ)) ^ 2 * (ab z0.1 ρ1) * (mb z1.2 (p 0) ρ2)) * i17 + ((8) * ((c.e : ℂ)) ^ 2 * (mb z1.2 (p 0) ρ2) * (sb z1.2 z2.2) * (sb z2.2 z3.2)) * i18 + ((-8) * ((c.e : ℂ)) ^ 2 * (ab z1.1 ρ1) * (sb z0.2 z1.2) * (sb z1.2 z2.2) + (8) * ((c.e : ℂ)) ^ 2 * (mb z2.2 (p 0) ρ1) * (sb z0.2 z1.2)) * i19 + ((8) * ((c.e : ℂ)) ^ 2 * (mb z1.2 (p 0) ρ2) * (sb z1.2 z3.2)) * i20 + ((-8) * ((c.e : ℂ)) ^ 2 * (ab z1.1 ρ2) * (sb z0.2 z1.2) * (sb z1.2 z2.2) + (16) * ((c.e : ℂ)) ^ 2 * (mb z1.2 (p 0) ρ2) * (sb z0.2 z2.2)) * i21 + ((8) * ((c.e : ℂ)) ^ 2 * (ab z1.1 ρ1) * (ab z3.1 ρ2) * (sb z1.2 z2.2)) * i22 + ((-8) * ((c.e : ℂ)) ^ 2 * (ab ρ1 ρ2) * (sb z0.2 z2.2) * (sb z1.2 z2.2)) * i23 + ((-8) * ((c.e : ℂ)) ^ 2 * (N.c 0) * (sb z2.2 z3.2) + (-8) * ((c.e : ℂ)) ^ 2 * (N.c 1) * (sb z2.2 z3.2)) * i24 + ((16) * ((c.e : ℂ)) ^ 2 * (N.c 0) * (sb z1.2 z2.2) + (8) * ((c.e : ℂ)) ^ 2 * (N.c 1) * (sb z1.2 z2.2)) * i25 + ((16) * ((c.e : ℂ)) ^ 2 * ((c.mass .u : ℂ)) * (ab ρ1 ρ2) * (sb z1.2 z2.2)) * i26 + ((16) * ((c.e : ℂ)) ^ 2 * (ab ρ1 ρ2) * (sb z1.2 z2.2) ^ 2) * i27 + ((-8) * ((c.e : ℂ)) ^ 2 * (ab z3.1 ρ1) * (sb z0.2 z2.2) * (sb z1.2 z2.2)) * i28 + ((-8) * ((c.e : ℂ)) ^ 2 * (N.c 0) * (sb z0.2 z1.2) * (sb z1.2 z2.2) + (-8) * ((c.e : ℂ)) ^ 2 * (mb z1.2 (p 0) z2.1) * (sb z0.2 z2.2) * (sb z1.2 z2.2)) * i29 + ((-8) * ((c.e : ℂ)) ^ 2 * (ab z1.1 ρ1) * (sb z1.2 z2.2) * (sb z2.2 z3.2)) * i30 + ((-8) * ((c.e : ℂ)) ^ 2 * (mb z1.2 (p 0) ρ1) * (sb z2.2 z3.2)) * i31 + ((8) * ((c.e : ℂ)) ^ 2 * (ab ρ1 ρ2) * (sb z1.2 z2.2) * (sb z2.2 z3.2)) * i32 + ((8) * ((c.e : ℂ)) ^ 2 * (N.c 1) * (sb z1.2 z2.2) * (sb z2.2 z3.2)) * i33 + ((8) * ((c.e : ℂ)) ^ 2 * (ab z1.1 ρ2) * (sb z1.2 z2.2) * (sb z2.2 z3.2)) * i34 + ((-8) * ((c.e : ℂ)) ^ 2 * (mb z1.2 (p 0) z2.1) * (sb z1.2 z2.2) * (sb z2.2 z3.2)) * i35 + ((8) * ((c.e : ℂ)) ^ 2 * (ab ρ1 ρ2) * (sb z0.2 z1.2) * (sb z1.2 z2.2)) * i36)) * ((1) * ((N.c 0)⁻¹) * ((N.c 1)⁻¹) / (9)) + ((-8) * ((c.e : ℂ)) ^ 2 * ((c.mass .u : ℂ)) * ((N.c 1)⁻¹) * (ab z0.1 ρ1) * (ab z3.1 ρ2) * (sb z1.2 z2.2) / (9) + (-8) * ((c.e : ℂ)) ^ 2 * ((c.mass .u : ℂ)) * ((N.c 1)⁻¹) * (ab ρ1 ρ2) * (sb z0.2 z1.2) * (sb z2.2 z3.2) / (9) + (-8) * ((c.e : ℂ)) ^ 2 * ((N.c 1)⁻¹) * (ab z0.1 ρ1) * (mb z1.2 (p 0) ρ2) * (sb z2.2 z3.2) / (9) + (8) * ((c.e : ℂ)) ^ 2 * ((N.c 1)⁻¹) * (ab z1.1 ρ1) * (ab z3.1 ρ2) * (sb z0.2 z1.2) * (sb z1.2 z2.2) / (9) + (-8) * ((c.e : ℂ)) ^ 2 * ((N.c 1)⁻¹) * (ab z3.1 ρ2) * (mb z2.2 (p 0) ρ1) * (sb z0.2 z1.2) / (9)) * y0 + ((8) * ((c.e : ℂ)) ^ 2 * ((c.mass .u : ℂ)) * ((N.c 0)⁻¹) * (ab z0.1 ρ2) * (ab z3.1 ρ1) * (sb z1.2 z2.2) / (9) + (8) * ((c.e : ℂ)) ^ 2 * ((c.mass .u : ℂ)) * ((N.c 0)⁻¹) * (ab ρ1 ρ2) * (sb z0.2 z2.2) * (sb z1.2 z3.2) / (9) + (-8) * ((c.e : ℂ)) ^ 2 * ((N.c 0)⁻¹) * (ab z0.1 ρ2) * (mb z2.2 (p 0) ρ1) * (sb z1.2 z3.2) / (9) + (8) * ((c.e : ℂ)) ^ 2 * ((N.c 0)⁻¹) * (ab z2.1 ρ2) * (ab z3.1 ρ1) * (sb z0.2 z2.2) * (sb z1.2 z2.2) / (9) + (-8) * ((c.e : ℂ)) ^ 2 * ((N.c 0)⁻¹) * (ab z3.1 ρ1) * (mb z1.2 (p 0) ρ2) * (sb z0.2 z2.2) / (9)) * y1 + ((-4) * ((c.e : ℂ)) ^ 2 * ((c.mass .u : ℂ)) * ((N.c 0)⁻¹) * (ab z0.1 ρ2) * (ab z3.1 ρ1) * (sb z1.2 z2.2) / (9) + (-4) * ((c.e : ℂ)) ^ 2 * ((c.mass .u : ℂ)) * ((N.c 0)⁻¹) * (ab ρ1 ρ2) * (sb z0.2 z2.2) * (sb z1.2 z3.2) / (9) + (4) * ((c.e : ℂ)) ^ 2 * ((c.mass .u : ℂ)) * ((N.c 1)⁻¹) * (ab z0.1 ρ1) * (ab z3.1 ρ2) * (sb z1.2 z2.2) / (9) + (4) * ((c.e : ℂ)) ^ 2 * ((c.mass .u : ℂ)) * ((N.c 1)⁻¹) * (ab ρ1 ρ2) * (sb z0.2 z1.2) * (sb z2.2 z3.2) / (9) + (4) * ((c.e : ℂ)) ^ 2 * ((N.c 0)⁻¹) * (ab z0.1 ρ2) * (mb z2.2 (p 0) ρ1) * (sb z1.2 z3.2) / (9) + (-4) * ((c.e : ℂ)) ^ 2 * ((N.c 0)⁻¹) * (ab z2.1 ρ2) * (ab z3.1 ρ1) * (sb z0.2 z2.2) * (sb z1.2 z2.2) / (9) + (4) * ((c.e : ℂ)) ^ 2 * ((N.c 0)⁻¹) * (ab z3.1 ρ1) * (mb z1.2 (p 0) ρ2) * (sb z0.2 z2.2) / (9) + (4) * ((c.e : ℂ)) ^ 2 * ((N.c 1)⁻¹) * (ab z0.1 ρ1) * (mb z1.2 (p 0) ρ2) * (sb z2.2 z3.2) / (9) + (-4) * ((c.e : ℂ)) ^ 2 * ((N.c 1)⁻¹) * (ab z1.1 ρ1) * (ab z3.1 ρ2) * (sb z0.2 z1.2) * (sb z1.2 z2.2) / (9) + (4) * ((c.e : ℂ)) ^ 2 * ((N.c 1)⁻¹) * (ab z3.1 ρ2) * (mb z2.2 (p 0) ρ1) * (sb z0.2 z1.2) / (9)) * x22
theorem uAAu.keyPM {c : Constants} {p : Nat → V4 ℝ} {N : Env} (hc : c.Physical) (hb : Balanced p) (r0 : N.r 0 = c.e) (r1 : N.r 1 = (((2 : Nat) : ℝ) / ((3 : Nat) : ℝ))) (d0 : ((msq (plus (p 0) (backward (p 2))) - c.mass .u ^ 2 : ℝ) : ℂ) = N.c 0) (n0 : N.c 0 ≠ 0) (d1 : ((msq (plus (p 0) (p 1)) - c.mass .u ^ 2 : ℝ) : ℂ) = N.c 1) (n1 : N.c 1 ≠ 0) {z0 z1 z2 z3 : Pair} (b0 : Bold (p 0) (c.mass .u) z0) (b3 : Bold (p 3) (c.mass .u) z3) (l1 : Light (p 1) z1) (l2 : Light (p 2) z2) (e10 : mb z1.2 (p 0) z1.1 = N.c 1) (e13 : mb z1.2 (p 3) z1.1 = -N.c 0) (e20 : mb z2.2 (p 0) z2.1 = -N.c 0) (e23 : mb z2.2 (p 3) z2.1 = N.c 1) (q0 : msq (p 0) = (c.mass .u) ^ 2) (q3 : msq (p 3) = (c.mass .u) ^ 2) (ρ1 ρ2 : V2) :
    uAAu.formPM N p z0 z1 z2 z3 * ab ρ1 z1.1 * sb ρ2 z2.2 = ((√2 : ℝ) * ((√2 : ℝ) * (-1 : ℂ))) * uAAu.react.bare c p 3 0 1 2 z3 z0 (pv ρ1 z1.2) (pv z2.1 ρ2) := by
  rw [uAAu.react.bare_parts c p (i := 3) (j := 0) (a := 1) (b := 2) (x := .photon) (y := .photon) (k := (p 1)) (k' := (backward (p 2))) (fun _ => rfl) (fun _ => rfl) (f := .u) (g := .u) rfl rfl (l := (p 0)) rfl (e := 1) (e' := 1) (if_neg Bool.false_ne_true) (if_neg Bool.false_ne_true)]
  rw [compton_vv (f := .u) (x := .u) (g := .u) (h := (rfl : Spec.after .photon Flavour.u = some Flavour.u)) (h' := (rfl : Spec.after .photon Flavour.u = some Flavour.u)) (ha := by simp) (hb := by simp)]
  rw [compton_vv (f := .u) (x := .u) (g := .u) (h := (rfl : Spec.after .photon Flavour.u = some Flavour.u)) (h' := (rfl : Spec.after .photon Flavour.u = some Flavour.u)) (ha := by simp) (hb := by simp)]
  rw [annihilation_none c _ _ (by rfl) (by simp), star_zero, add_zero, uAAu.formPM]
  simp only [d0, d1, lineV_pv, lineV_four, contract_four_pv, contract_pv, mb_plus, mb_backward]
  have i0 := sb_schouten z1.2 z2.2 ρ2 z0.2
  have i1 := ab_schouten z2.1 z3.1 ρ1 z1.1
  have i2 := ab_schouten z1.1 z2.1 ρ1 z0.1
  have i3 := ab_schouten z2.1 z3.1 ρ1 z0.1
  have i4 := mb_schouten_right ρ2 (p 0) z1.1 z2.1 z3.1
  have i5 := mb_schouten_right ρ2 (p 0) z0.1 z1.1 z2.1
  have i6 := mb_schouten_right z1.2 (p 0) z0.1 z1.1 ρ1
  have i7 := sb_schouten z1.2 z3.2 ρ2 z0.2
  have i8 := mb_schouten_right z0.2 (p 3) z1.1 z2.1 z3.1
  have i9 := mb_schouten_left z0.2 z1.2 ρ2 (p 0) z2.1
  have i10 := mb_schouten_right z1.2 (p 0) z1.1 z2.1 z3.1
  have i11 := mb_schouten_right z1.2 (p 3) z1.1 z3.1 ρ1
  have i12 := mb_schouten_right z1.2 (p 3) z1.1 z2.1 z3.1
  have i13 := mb_schouten_left z0.2 z1.2 ρ2 (p 0) z1.1
  have i14 := mb_schouten_left z1.2 z3.2 ρ2 (p 0) z1.1
  have i15 := mb_schouten_right z1.2 (p 0) z0.1 z2.1 ρ1
  have i16 := sb_schouten z2.2 z3.2 ρ2 z1.2
  have i17 := mb_schouten_right z1.2 (p 0) z0.1 z1.1 z2.1
  have i18 := mb_schouten_right z1.2 (p 3) z0.1 z1.1 z2.1
  have i19 := mb_schouten_left z0.2 z1.2 z2.2 (p 0) z2.1
  have i20 := mb_schouten_right z1.2 (p 3) z1.1 z2.1 ρ1
  have i21 := mb_schouten_right z1.2 (p 3) z0.1 z1.1 ρ1
  have i22 := mb_schouten_right z1.2 (p 3) z0.1 z1.1 z3.1
  have i23 := mb_schouten_right z1.2 (p 0) z0.1 z1.1 z3.1
  have i24 := mb_schouten_right z1.2 (p 0) z2.1 z3.1 ρ1
  have i25 := mb_schouten_right z0.2 (p 3) z2.1 z3.1 ρ1
  have i26 := mb_schouten_left z0.2 z1.2 z2.2 (p 0) z1.1
  have i27 := mb_schouten_right z2.2 (p 0) z1.1 z2.1 z3.1
  have i28 := sb_schouten z1.2 z2.2 z3.2 z0.2
  have i29 := mb_schouten_right ρ2 (p 0) z0.1 z2.1 ρ1
  have i30 := mb_schouten_right z1.2 (p 0) z1.1 z2.1 ρ1
  have i31 := mb_schouten_right ρ2 (p 0) z1.1 z3.1 ρ1
  have i32 := mb_schouten_right ρ2 (p 0) z0.1 z1.1 ρ1
  have i33 := mb_schouten_right z1.2 (p 0) z1.1 z3.1 ρ1
  simp only [l1.mb_eq, l2.mb_eq, b0.mb_left, b0.mb_right, b3.mb_left, b3.mb_right, e10, e13, e20, e23, mb_three hb z0.2 z0.1, mb_three hb z0.2 z1.1, mb_three hb z0.2 z2.1, mb_three hb z0.2 ρ1, mb_three hb z1.2 z0.1, mb_three hb z1.2 z2.1, mb_nought hb z1.2 z3.1, mb_three hb z1.2 ρ1, mb_three hb z2.2 z0.1, mb_three hb z2.2 z1.1, mb_nought hb z2.2 z3.1, mb_three hb z2.2 ρ1, mb_nought hb z3.2 z1.1, mb_nought hb z3.2 z2.1, mb_nought hb z3.2 z3.1, mb_nought hb z3.2 ρ1, mb_three hb ρ2 z0.1, mb_three hb ρ2 z1.1, mb_three hb ρ2 z2.1, mb_nought hb ρ2 z3.1, mb_three hb ρ2 ρ1, ab_self, sb_self] at i0 i1 i2 i3 i4 i5 i6 i7 i8 i9 i10 i11 i12 i13 i14 i15 i16 i17 i18 i19 i20 i21 i22 i23 i24 i25 i26 i27 i28 i29 i30 i31 i32 i33 ⊢
  simp only [ab_swap z0.1 z1.1, ab_swap z0.1 z2.1, ab_swap z0.1 z3.1, ab_swap z0.1 ρ1, ab_swap z1.1 z2.1, ab_swap z1.1 z3.1, ab_swap z1.1 ρ1, ab_swap z2.1 z3.1, ab_swap z2.1 ρ1, ab_swap z3.1 ρ1, sb_swap z0.2 z1.2, sb_swap z0.2 z2.2, sb_swap z0.2 z3.2, sb_swap z0.2 ρ2, sb_swap z1.2 z2.2, sb_swap z1.2 z3.2, sb_swap z1.2 ρ2, sb_swap z2.2 z3.2, sb_swap z2.2 ρ2, sb_swap z3.2 ρ2] at i0 i1 i2 i3 i4 i5 i6 i7 i8 i9 i10 i11 i12 i13 i14 i15 i16 i17 i18 i19 i20 i21 i22 i23 i24 i25 i26 i27 i28 i29 i30 i31 i32 i33 ⊢
  simp only [r0, r1, Constants.hL, Constants.hR, Constants.gL, Constants.gR, Constants.yuk, Constants.invVev, Flavour.charge_u, Flavour.isospin_u, ← c.mz]
  have xMW : (c.MW : ℂ) ≠ 0 := by exact_mod_cast hc.MW
  have xSW : (c.SW : ℂ) ≠ 0 := by exact_mod_cast hc.SW
  have xCW : (c.CW : ℂ) ≠ 0 := by exact_mod_cast hc.CW
  have x2 : ((√2 : ℝ) : ℂ) ≠ 0 := by exact_mod_cast (Real.sqrt_pos.2 two_pos).ne'
  have x22 : ((√2 : ℝ) : ℂ) ^ 2 = 2 := by rw [← Complex.ofReal_pow, Real.sq_sqrt two_pos.le]; norm_num
  have x23 : ((√2 : ℝ) : ℂ) ^ 3 = 2 * ((√2 : ℝ) : ℂ) := by rw [← x22]; ring
  have x24 : ((√2 : ℝ) : ℂ) ^ 4 = 4 := by linear_combination (((√2 : ℝ) : ℂ) ^ 2 + 2) * x22
  push_cast at i0 i1 i2 i3 i4 i5 i6 i7 i8 i9 i10 i11 i12 i13 i14 i15 i16 i17 i18 i19 i20 i21 i22 i23 i24 i25 i26 i27 i28 i29 i30 i31 i32 i33 ⊢
  have y0 := mul_inv_cancel₀ n0
  have y1 := mul_inv_cancel₀ n1
  linear_combination ((((-16) * ((c.e : ℂ)) ^ 2 * (N.c 0) * (ab z2.1 z3.1) * (ab z2.1 ρ1) + (-8) * ((c.e : ℂ)) ^ 2 * (N.c 1) * (ab z2.1 z3.1) * (ab z2.1 ρ1) + (-8) * ((c.e : ℂ)) ^ 2 * (ab z1.1 z2.1) * (ab z2.1 z3.1) * (mb z1.2 (p 0) ρ1) + (8) * ((c.e : ℂ)) ^ 2 * (ab z1.1 z2.1) * (ab z3.1 ρ1) * (mb z1.2 (p 0) z2.1) + (-8) * ((c.e : ℂ)) ^ 2 * (ab z1.1 z3.1) * (ab z2.1 ρ1) * (mb z1.2 (p 0) z2.1)) * i0 + ((-24) * ((c.e : ℂ)) ^ 2 * (N.c 0) * (sb z0.2 z1.2) * (sb z1.2 ρ2) + (-8) * ((c.e : ℂ)) ^ 2 * (N.c 1) * (sb z0.2 z1.2) * (sb z1.2 ρ2) + (-8) * ((c.e : ℂ)) ^ 2 * (mb z1.2 (p 0) z2.1) * (sb z0.2 z1.2) * (sb z2.2 ρ2) + (-8) * ((c.e : ℂ)) ^ 2 * (mb z1.2 (p 0) z2.1) * (sb z0.2 ρ2) * (sb z1.2 z2.2)) * i1 + ((-16) * ((c.e : ℂ)) ^ 2 * (mb z1.2 (p 0) z2.1) * (sb z1.2 z2.2) * (sb z3.2 ρ2) + (-8) * ((c.e : ℂ)) ^ 2 * (mb z1.2 (p 0) z2.1) * (sb z1.2 z3.2) * (sb z2.2 ρ2)) * i2 + ((-8) * ((c.e : ℂ)) ^ 2 * ((c.mass .u : ℂ)) * (N.c 0) * (sb z1.2 ρ2) + (-8) * ((c.e : ℂ)) ^ 2 * ((c.mass .u : ℂ)) * (N.c 1) * (sb z1.2 ρ2)) * i3 + ((16) * ((c.e : ℂ)) ^ 2 * (ab z2.1 ρ1) * (sb z0.2 z1.2) * (sb z1.2 z2.2) + (-16) * ((c.e : ℂ)) ^ 2 * (mb z1.2 (p 0) ρ1) * (sb z0.2 z1.2)) * i4 + ((-16) * ((c.e : ℂ)) ^ 2 * (mb z1.2 (p 0) ρ1) * (sb z1.2 z3.2)) * i5 + ((8) * ((c.e : ℂ)) ^ 2 * (mb z1.2 (p 0) z2.1) * (sb z3.2 ρ2) + (16) * ((c.e : ℂ)) ^ 2 * (mb ρ2 (p 0) z2.1) * (sb z1.2 z3.2)) * i6 + ((16) * ((c.e : ℂ)) ^ 2 * ((c.mass .u : ℂ)) * (N.c 0) * (ab z2.1 ρ1) + (8) * ((c.e : ℂ)) ^ 2 * ((c.mass .u : ℂ)) * (N.c 1) * (ab z2.1 ρ1) + (8) * ((c.e : ℂ)) ^ 2 * ((c.mass .u : ℂ)) * (ab z1.1 z2.1) * (mb z1.2 (p 0) ρ1)) * i7 + ((-8) * ((c.e : ℂ)) ^ 2 * (ab z2.1 ρ1) * (sb z1.2 z2.2) * (sb z1.2 ρ2) + (-8) * ((c.e : ℂ)) ^ 2 * (mb z1.2 (p 0) ρ1) * (sb z1.2 ρ2)) * i8 + ((-16) * ((c.e : ℂ)) ^ 2 * (N.c 0) * (ab z3.1 ρ1)) * i9 + ((16) * ((c.e : ℂ)) ^ 2 * (ab z2.1 ρ1) * (sb z0.2 z1.2) * (sb z2.2 ρ2) + (8) * ((c.e : ℂ)) ^ 2 * (ab z2.1 ρ1) * (sb z0.2 z2.2) * (sb z1.2 ρ2) + (8) * ((c.e : ℂ)) ^ 2 * (mb z1.2 (p 0) ρ1) * (sb z0.2 ρ2)) * i10 + ((-16) * ((c.e : ℂ)) ^ 2 * (mb ρ2 (p 0) z2.1) * (sb z0.2 z1.2)) * i11 + ((-16) * ((c.e : ℂ)) ^ 2 * (ab z2.1 ρ1) * (sb z0.2 z1.2) * (sb z2.2 ρ2) + (-16) * ((c.e : ℂ)) ^ 2 * (mb z1.2 (p 0) ρ1) * (sb z0.2 ρ2) + (-8) * ((c.e : ℂ)) ^ 2 * (mb ρ2 (p 0) ρ1) * (sb z0.2 z1.2)) * i12 + ((-8) * ((c.e : ℂ)) ^ 2 * (ab z2.1 z3.1) * (ab z2.1 ρ1) * (sb z1.2 z2.2) + (8) * ((c.e : ℂ)) ^ 2 * (ab z2.1 z3.1) * (mb z1.2 (p 0) ρ1)) * i13 + ((-8) * ((c.e : ℂ)) ^ 2 * (ab z0.1 z2.1) * (mb z1.2 (p 0) ρ1)) * i14 + ((-24) * ((c.e : ℂ)) ^ 2 * (N.c 0) * (sb z3.2 ρ2) + (-8) * ((c.e : ℂ)) ^ 2 * (N.c 1) * (sb z3.2 ρ2) + (-16) * ((c.e : ℂ)) ^ 2 * (ab z1.1 z2.1) * (sb z1.2 z2.2) * (sb z3.2 ρ2) + (-8) * ((c.e : ℂ)) ^ 2 * (ab z1.1 z2.1) * (sb z1.2 z3.2) * (sb z2.2 ρ2) + (-8) * ((c.e : ℂ)) ^ 2 * (mb ρ2 (p 0) z1.1) * (sb z1.2 z3.2)) * i15 + ((-8) * ((c.e : ℂ)) ^ 2 * (ab z0.1 z2.1) * (ab z1.1 z2.1) * (mb z1.2 (p 0) ρ1)) * i16 + ((-8) * ((c.e : ℂ)) ^ 2 * ((c.mass .u : ℂ)) * (ab z3.1 ρ1) * (sb z1.2 ρ2) + (8) * ((c.e : ℂ)) ^ 2 * (ab z2.1 ρ1) * (sb z1.2 z3.2) * (sb z2.2 ρ2) + (-16) * ((c.e : ℂ)) ^ 2 * (mb z1.2 (p 0) ρ1) * (sb z3.2 ρ2) + (-8) * ((c.e : ℂ)) ^ 2 * (mb ρ2 (p 0) ρ1) * (sb z1.2 z3.2)) * i17 + ((8) * ((c.e : ℂ)) ^ 2 * ((c.mass .u : ℂ)) * (ab z3.1 ρ1) * (sb z1.2 ρ2) + (24) * ((c.e : ℂ)) ^ 2 * (mb z1.2 (p 0) ρ1) * (sb z3.2 ρ2)) * i18 + ((-8) * ((c.e : ℂ)) ^ 2 * (ab z1.1 z2.1) * (ab z3.1 ρ1) * (sb z1.2 ρ2)) * i19 + ((16) * ((c.e : ℂ)) ^ 2 * (ab z1.1 z3.1) * (sb z0.2 z1.2) * (sb z1.2 ρ2)) * i20 + ((-16) * ((c.e : ℂ)) ^ 2 * (mb z1.2 (p 0) z2.1) * (sb z3.2 ρ2)) * i21 + ((-8) * ((c.e : ℂ)) ^ 2 * ((c.mass .u : ℂ)) * (ab z2.1 ρ1) * (sb z1.2 ρ2)) * i22 + ((8) * ((c.e : ℂ)) ^ 2 * ((c.mass .u : ℂ)) * (ab z2.1 ρ1) * (sb z1.2 ρ2)) * i23 + ((-16) * ((c.e : ℂ)) ^ 2 * (N.c 0) * (sb z0.2 ρ2) + (8) * ((c.e : ℂ)) ^ 2 * (mb ρ2 (p 0) z1.1) * (sb z0.2 z1.2)) * i24 + ((16) * ((c.e : ℂ)) ^ 2 * (N.c 0) * (sb z1.2 ρ2) + (8) * ((c.e : ℂ)) ^ 2 * (N.c 1) * (sb z1.2 ρ2)) * i25 + ((8) * ((c.e : ℂ)) ^ 2 * (ab z2.1 z3.1) * (ab z2.1 ρ1) * (sb z1.2 ρ2)) * i26 + ((-8) * ((c.e : ℂ)) ^ 2 * (ab z2.1 ρ1) * (sb z0.2 z1.2) * (sb z1.2 ρ2)) * i27 + ((-8) * ((c.e : ℂ)) ^ 2 * ((c.mass .u : ℂ)) * (ab z1.1 z2.1) * (ab z2.1 ρ1) * (sb z1.2 ρ2)) * i28 + ((-16) * ((c.e : ℂ)) ^ 2 * (N.c 1) * (sb z1.2 z3.2)) * i29 + ((-8) * ((c.e : ℂ)) ^ 2 * (ab z1.1 z3.1) * (sb z0.2 z1.2) * (sb z1.2 ρ2) + (-8) * ((c.e : ℂ)) ^ 2 * (ab z2.1 z3.1) * (sb z0.2 z1.2) * (sb z2.2 ρ2)) * i30 + ((-8) * ((c.e : ℂ)) ^ 2 * (mb z1.2 (p 0) z2.1) * (sb z0.2 z1.2)) * i31 + ((8) * ((c.e : ℂ)) ^ 2 * (mb z1.2 (p 0) z2.1) * (sb z1.2 z3.2)) * i32 + ((-8) * ((c.e : ℂ)) ^ 2 * (mb z1.2 (p 0) z2.1) * (sb z0.2 ρ2)) * i33)) * ((1) * ((N.c 0)⁻¹) * ((N.c 1)⁻¹) / (9)) + ((-8) * ((c.e : ℂ)) ^ 2 * ((c.mass .u : ℂ)) * ((N.c 1)⁻¹) * (ab z0.1 ρ1) * (ab z2.1 z3.1) * (sb z1.2 ρ2) / (9) + (8) * ((c.e : ℂ)) ^ 2 * ((c.mass .u : ℂ)) * ((N.c 1)⁻¹) * (ab z2.1 ρ1) * (sb z0.2 z1.2) * (sb z3.2 ρ2) / (9) + (-8) * ((c.e : ℂ)) ^ 2 * ((N.c 1)⁻¹) * (ab z0.1 ρ1) * (mb z1.2 (p 0) z2.1) * (sb z3.2 ρ2) / (9) + (8) * ((c.e : ℂ)) ^ 2 * ((N.c 1)⁻¹) * (ab z1.1 ρ1) * (ab z2.1 z3.1) * (sb z0.2 z1.2) * (sb z1.2 ρ2) / (9) + (-8) * ((c.e : ℂ)) ^ 2 * ((N.c 1)⁻¹) * (ab z2.1 z3.1) * (mb ρ2 (p 0) ρ1) * (sb z0.2 z1.2) / (9)) * y0 + ((-8) * ((c.e : ℂ)) ^ 2 * ((c.mass .u : ℂ)) * ((N.c 0)⁻¹) * (ab z0.1 z2.1) * (ab z3.1 ρ1) * (sb z1.2 ρ2) / (9) + (8) * ((c.e : ℂ)) ^ 2 * ((c.mass .u : ℂ)) * ((N.c 0)⁻¹) * (ab z2.1 ρ1) * (sb z0.2 ρ2) * (sb z1.2 z3.2) / (9) + (8) * ((c.e : ℂ)) ^ 2 * ((N.c 0)⁻¹) * (ab z0.1 z2.1) * (ab z2.1 ρ1) * (sb z1.2 z3.2) * (sb z2.2 ρ2) / (9) + (8) * ((c.e : ℂ)) ^ 2 * ((N.c 0)⁻¹) * (ab z0.1 z2.1) * (mb ρ2 (p 0) ρ1) * (sb z1.2 z3.2) / (9) + (8) * ((c.e : ℂ)) ^ 2 * ((N.c 0)⁻¹) * (ab z3.1 ρ1) * (mb z1.2 (p 0) z2.1) * (sb z0.2 ρ2) / (9)) * y1 + ((4) * ((c.e : ℂ)) ^ 2 * ((c.mass .u : ℂ)) * ((N.c 0)⁻¹) * (ab z0.1 z2.1) * (ab z3.1 ρ1) * (sb z1.2 ρ2) / (9) + (-4) * ((c.e : ℂ)) ^ 2 * ((c.mass .u : ℂ)) * ((N.c 0)⁻¹) * (ab z2.1 ρ1) * (sb z0.2 ρ2) * (sb z1.2 z3.2) / (9) + (4) * ((c.e : ℂ)) ^ 2 * ((c.mass .u : ℂ)) * ((N.c 1)⁻¹) * (ab z0.1 ρ1) * (ab z2.1 z3.1) * (sb z1.2 ρ2) / (9) + (-4) * ((c.e : ℂ)) ^ 2 * ((c.mass .u : ℂ)) * ((N.c 1)⁻¹) * (ab z2.1 ρ1) * (sb z0.2 z1.2) * (sb z3.2 ρ2) / (9) + (-4) * ((c.e : ℂ)) ^ 2 * ((N.c 0)⁻¹) * (ab z0.1 z2.1) * (ab z2.1 ρ1) * (sb z1.2 z3.2) * (sb z2.2 ρ2) / (9) + (-4) * ((c.e : ℂ)) ^ 2 * ((N.c 0)⁻¹) * (ab z0.1 z2.1) * (mb ρ2 (p 0) ρ1) * (sb z1.2 z3.2) / (9) + (-4) * ((c.e : ℂ)) ^ 2 * ((N.c 0)⁻¹) * (ab z3.1 ρ1) * (mb z1.2 (p 0) z2.1) * (sb z0.2 ρ2) / (9) + (4) * ((c.e : ℂ)) ^ 2 * ((N.c 1)⁻¹) * (ab z0.1 ρ1) * (mb z1.2 (p 0) z2.1) * (sb z3.2 ρ2) / (9) + (-4) * ((c.e : ℂ)) ^ 2 * ((N.c 1)⁻¹) * (ab z1.1 ρ1) * (ab z2.1 z3.1) * (sb z0.2 z1.2) * (sb z1.2 ρ2) / (9) + (4) * ((c.e : ℂ)) ^ 2 * ((N.c 1)⁻¹) * (ab z2.1 z3.1) * (mb ρ2 (p 0) ρ1) * (sb z0.2 z1.2) / (9)) * x22
theorem uAAu.keyMP {c : Constants} {p : Nat → V4 ℝ} {N : Env} (hc : c.Physical) (hb : Balanced p) (r0 : N.r 0 = c.e) (r1 : N.r 1 = (((2 : Nat) : ℝ) / ((3 : Nat) : ℝ))) (d0 : ((msq (plus (p 0) (backward (p 2))) - c.mass .u ^ 2 : ℝ) : ℂ) = N.c 0) (n0 : N.c 0 ≠ 0) (d1 : ((msq (plus (p 0) (p 1)) - c.mass .u ^ 2 : ℝ) : ℂ) = N.c 1) (n1 : N.c 1 ≠ 0) {z0 z1 z2 z3 : Pair} (b0 : Bold (p 0) (c.mass .u) z0) (b3 : Bold (p 3) (c.mass .u) z3) (l1 : Light (p 1) z1) (l2 : Light (p 2) z2) (e10 : mb z1.2 (p 0) z1.1 = N.c 1) (e13 : mb z1.2 (p 3) z1.1 = -N.c 0) (e20 : mb z2.2 (p 0) z2.1 = -N.c 0) (e23 : mb z2.2 (p 3) z2.1 = N.c 1) (q0 : msq (p 0) = (c.mass .u) ^ 2) (q3 : msq (p 3) = (c.mass .u) ^ 2) (ρ1 ρ2 : V2) :
    uAAu.formMP N p z0 z1 z2 z3 * sb ρ1 z1.2 * ab ρ2 z2.1 = ((√2 : ℝ) * ((√2 : ℝ) * (-1 : ℂ))) * uAAu.react.bare c p 3 0 1 2 z3 z0 (pv z1.1 ρ1) (pv ρ2 z2.2) := by
  rw [uAAu.react.bare_parts c p (i := 3) (j := 0) (a := 1) (b := 2) (x := .photon) (y := .photon) (k := (p 1)) (k' := (backward (p 2))) (fun _ => rfl) (fun _ => rfl) (f := .u) (g := .u) rfl rfl (l := (p 0)) rfl (e := 1) (e' := 1) (if_neg Bool.false_ne_true) (if_neg Bool.false_ne_true)]
  rw [compton_vv (f := .u) (x := .u) (g := .u) (h := (rfl : Spec.after .photon Flavour.u = some Flavour.u)) (h' := (rfl : Spec.after .photon Flavour.u = some Flavour.u)) (ha := by simp) (hb := by simp)]
  rw [compton_vv (f := .u) (x := .u) (g := .u) (h := (rfl : Spec.after .photon Flavour.u = some Flavour.u)) (h' := (rfl : Spec.after .photon Flavour.u = some Flavour.u)) (ha := by simp) (hb := by simp)]
  rw [annihilation_none c _ _ (by rfl) (by simp), star_zero, add_zero, uAAu.formMP]
  simp only [d0, d1, lineV_pv, lineV_four, contract_four_pv, contract_pv, mb_plus, mb_backward]
  have i0 := mb_schouten_right z2.2 (p 3) z0.1 z1.1 z2.1
  have i1 := mb_schouten_right z2.2 (p 0) z0.1 z1.1 ρ2
  have i2 := mb_schouten_right z2.2 (p 0) z0.1 z1.1 z2.1
  have i3 := ab_schouten z1.1 z2.1 ρ2 z0.1
  have i4 := mb_schouten_right z1.2 (p 3) z0.1 z1.1 ρ2
  have i5 := mb_schouten_right z1.2 (p 0) z0.1 z1.1 ρ2
  have i6 := sb_schouten z1.2 z2.2 ρ1 z0.2
  have i7 := mb_schouten_right z0.2 (p 3) z1.1 z3.1 ρ2
  have i8 := ab_schouten z2.1 z3.1 ρ2 z1.1
  have i9 := mb_schouten_left z0.2 z2.2 ρ1 (p 0) z1.1
  have i10 := mb_schouten_right z1.2 (p 3) z1.1 z3.1 ρ2
  have i11 := mb_schouten_right z1.2 (p 0) z1.1 z3.1 ρ2
  have i12 := sb_schouten z2.2 z3.2 ρ1 z1.2
  have i13 := mb_schouten_right ρ1 (p 0) z1.1 z2.1 z3.1
  have i14 := mb_schouten_right z2.2 (p 0) z1.1 z2.1 z3.1
  have i15 := sb_schouten z2.2 z3.2 ρ1 z0.2
  have i16 := mb_schouten_right ρ1 (p 0) z1.1 z3.1 ρ2
  have i17 := mb_schouten_right ρ1 (p 0) z1.1 z2.1 ρ2
  have i18 := mb_schouten_right z2.2 (p 3) z1.1 z2.1 z3.1
  have i19 := mb_schouten_left z0.2 z1.2 z2.2 (p 0) z1.1
  have i20 := mb_schouten_left z0.2 z1.2 ρ1 (p 0) z1.1
  have i21 := mb_schouten_right z2.2 (p 0) z1.1 z3.1 ρ2
  have i22 := mb_schouten_right z0.2 (p 3) z1.1 z2.1 z3.1
  have i23 := ab_schouten z1.1 z3.1 ρ2 z0.1
  have i24 := mb_schouten_right z2.2 (p 0) z0.1 z1.1 z3.1
  have i25 := mb_schouten_left z1.2 z3.2 ρ1 (p 0) z1.1
  have i26 := sb_schouten z1.2 z2.2 z3.2 z0.2
  have i27 := mb_schouten_right ρ1 (p 0) z0.1 z1.1 z3.1
  have i28 := mb_schouten_right z1.2 (p 3) z1.1 z2.1 z3.1
  have i29 := mb_schouten_right z1.2 (p 0) z1.1 z2.1 z3.1
  have i30 := mb_schouten_left z1.2 z2.2 z3.2 (p 0) z1.1
  have i31 := mb_schouten_right ρ1 (p 0) z0.1 z1.1 ρ2
  have i32 := sb_schouten z1.2 z3.2 ρ1 z0.2
  have i33 := mb_schouten_right z1.2 (p 3) z0.1 z1.1 z3.1
  simp only [l1.mb_eq, l2.mb_eq, b0.mb_left, b0.mb_right, b3.mb_left, b3.mb_right, e10, e13, e20, e23, mb_three hb z0.2 z0.1, mb_three hb z0.2 z1.1, mb_three hb z0.2 z2.1, mb_three hb z0.2 ρ2, mb_three hb z1.2 z0.1, mb_three hb z1.2 z2.1, mb_nought hb z1.2 z3.1, mb_three hb z1.2 ρ2, mb_three hb z2.2 z0.1, mb_three hb z2.2 z1.1, mb_nought hb z2.2 z3.1, mb_three hb z2.2 ρ2, mb_nought hb z3.2 z1.1, mb_nought hb z3.2 z2.1, mb_nought hb z3.2 z3.1, mb_nought hb z3.2 ρ2, mb_three hb ρ1 z0.1, mb_three hb ρ1 z1.1, mb_three hb ρ1 z2.1, mb_nought hb ρ1 z3.1, mb_three hb ρ1 ρ2, ab_self, sb_self] at i0 i1 i2 i3 i4 i5 i6 i7 i8 i9 i10 i11 i12 i13 i14 i15 i16 i17 i18 i19 i20 i21 i22 i23 i24 i25 i26 i27 i28 i29 i30 i31 i32 i33 ⊢
  simp only [ab_swap z0.1 z1.1, ab_swap z0.1 z2.1, ab_swap z0.1 z3.1, ab_swap z0.1 ρ2, ab_swap z1.1 z2.1, ab_swap z1.1 z3.1, ab_swap z1.1 ρ2, ab_swap z2.1 z3.1, ab_swap z2.1 ρ2, ab_swap z3.1 ρ2, sb_swap z0.2 z1.2, sb_swap z0.2 z2.2, sb_swap z0.2 z3.2, sb_swap z0.2 ρ1, sb_swap z1.2 z2.2, sb_swap z1.2 z3.2, sb_swap z1.2 ρ1, sb_swap z2.2 z3.2, sb_swap z2.2 ρ1, sb_swap z3.2 ρ1] at i0 i1 i2 i3 i4 i5 i6 i7 i8 i9 i10 i11 i12 i13 i14 i15 i16 i17 i18 i19 i20 i21 i22 i23 i24 i25 i26 i27 i28 i29 i30 i31 i32 i33 ⊢
  simp only [r0, r1, Constants.hL, Constants.hR, Constants.gL, Constants.gR, Constants.yuk, Constants.invVev, Flavour.charge_u, Flavour.isospin_u, ← c.mz]
  have xMW : (c.MW : ℂ) ≠ 0 := by exact_mod_cast hc.MW
  have xSW : (c.SW : ℂ) ≠ 0 := by exact_mod_cast hc.SW
  have xCW : (c.CW : ℂ) ≠ 0 := by exact_mod_cast hc.CW
  have x2 : ((√2 : ℝ) : ℂ) ≠ 0 := by exact_mod_cast (Real.sqrt_pos.2 two_pos).ne'
  have x22 : ((√2 : ℝ) : ℂ) ^ 2 = 2 := by rw [← Complex.ofReal_pow, Real.sq_sqrt two_pos.le]; norm_num
  have x23 : ((√2 : ℝ) : ℂ) ^ 3 = 2 * ((√2 : ℝ) : ℂ) := by rw [← x22]; ring
  have x24 : ((√2 : ℝ) : ℂ) ^ 4 = 4 := by linear_combination (((√2 : ℝ) : ℂ) ^ 2 + 2) * x22
  push_cast at i0 i1 i2 i3 i4 i5 i6 i7 i8 i9 i10 i11 i12 i13 i14 i15 i16 i17 i18 i19 i20 i21 i22 i23 i24 i25 i26 i27 i28 i29 i30 i31 i32 i33 ⊢
  have y0 := mul_inv_cancel₀ n0
  have y1 := mul_inv_cancel₀ n1
  linear_combination ((((8) * ((c.e : ℂ)) ^ 2 * (mb z2.2 (p 0) ρ2) * (sb z3.2 ρ1) + (-8) * ((c.e : ℂ)) ^ 2 * (mb ρ1 (p 0) ρ2) * (sb z2.2 z3.2)) * i0 + ((-8) * ((c.e : ℂ)) ^ 2 * (N.c 0) * (sb z3.2 ρ1) + (-16) * ((c.e : ℂ)) ^ 2 * (N.c 1) * (sb z3.2 ρ1) + (-16) * ((c.e : ℂ)) ^ 2 * (ab z1.1 z2.1) * (sb z1.2 z2.2) * (sb z3.2 ρ1) + (8) * ((c.e : ℂ)) ^ 2 * (ab z1.1 z2.1) * (sb z1.2 z3.2) * (sb z2.2 ρ1) + (-8) * ((c.e : ℂ)) ^ 2 * (mb ρ1 (p 0) z1.1) * (sb z1.2 z3.2)) * i1 + ((8) * ((c.e : ℂ)) ^ 2 * (ab z1.1 ρ2) * (sb z1.2 z2.2) * (sb z3.2 ρ1) + (-8) * ((c.e : ℂ)) ^ 2 * (ab z1.1 ρ2) * (sb z1.2 z3.2) * (sb z2.2 ρ1) + (-8) * ((c.e : ℂ)) ^ 2 * (mb z2.2 (p 0) ρ2) * (sb z3.2 ρ1) + (8) * ((c.e : ℂ)) ^ 2 * (mb ρ1 (p 0) ρ2) * (sb z2.2 z3.2)) * i2 + ((-16) * ((c.e : ℂ)) ^ 2 * (mb z2.2 (p 0) z1.1) * (sb z1.2 z2.2) * (sb z3.2 ρ1) + (8) * ((c.e : ℂ)) ^ 2 * (mb z2.2 (p 0) z1.1) * (sb z1.2 z3.2) * (sb z2.2 ρ1)) * i3 + ((-8) * ((c.e : ℂ)) ^ 2 * (mb z2.2 (p 0) z1.1) * (sb z3.2 ρ1)) * i4 + ((8) * ((c.e : ℂ)) ^ 2 * (mb z2.2 (p 0) z1.1) * (sb z3.2 ρ1)) * i5 + ((8) * ((c.e : ℂ)) ^ 2 * ((c.mass .u : ℂ)) * (ab z1.1 z2.1) * (ab z1.1 ρ2) * (sb z2.2 z3.2) + (-8) * ((c.e : ℂ)) ^ 2 * ((c.mass .u : ℂ)) ^ 2 * (ab z1.1 z3.1) * (ab z1.1 ρ2) + (-8) * ((c.e : ℂ)) ^ 2 * (N.c 1) * (ab z1.1 z3.1) * (ab z1.1 ρ2) + (8) * ((c.e : ℂ)) ^ 2 * (ab z1.1 z3.1) * (ab z2.1 ρ2) * (mb z2.2 (p 0) z1.1)) * i6 + ((-8) * ((c.e : ℂ)) ^ 2 * (N.c 0) * (sb z2.2 ρ1) + (8) * ((c.e : ℂ)) ^ 2 * (N.c 1) * (sb z2.2 ρ1) + (-8) * ((c.e : ℂ)) ^ 2 * (mb z2.2 (p 0) z1.1) * (sb z1.2 ρ1) + (8) * ((c.e : ℂ)) ^ 2 * (mb ρ1 (p 0) z1.1) * (sb z1.2 z2.2)) * i7 + ((8) * ((c.e : ℂ)) ^ 2 * (N.c 0) * (sb z0.2 z2.2) * (sb z2.2 ρ1) + (-8) * ((c.e : ℂ)) ^ 2 * (N.c 1) * (sb z0.2 z2.2) * (sb z2.2 ρ1) + (8) * ((c.e : ℂ)) ^ 2 * (mb z2.2 (p 0) z1.1) * (sb z0.2 z2.2) * (sb z1.2 ρ1) + (-8) * ((c.e : ℂ)) ^ 2 * (mb ρ1 (p 0) z1.1) * (sb z0.2 z2.2) * (sb z1.2 z2.2)) * i8 + ((8) * ((c.e : ℂ)) ^ 2 * (N.c 0) * (ab z3.1 ρ2) + (-8) * ((c.e : ℂ)) ^ 2 * (N.c 1) * (ab z3.1 ρ2) + (8) * ((c.e : ℂ)) ^ 2 * (ab z1.1 z3.1) * (ab z2.1 ρ2) * (sb z1.2 z2.2)) * i9 + ((-8) * ((c.e : ℂ)) ^ 2 * (mb ρ1 (p 0) z1.1) * (sb z0.2 z2.2)) * i10 + ((8) * ((c.e : ℂ)) ^ 2 * (mb ρ1 (p 0) z1.1) * (sb z0.2 z2.2)) * i11 + ((-8) * ((c.e : ℂ)) ^ 2 * ((c.mass .u : ℂ)) ^ 2 * (ab z0.1 z1.1) * (ab z1.1 ρ2) + (8) * ((c.e : ℂ)) ^ 2 * (N.c 0) * (ab z0.1 z1.1) * (ab z1.1 ρ2) + (8) * ((c.e : ℂ)) ^ 2 * (ab z0.1 z1.1) * (ab z1.1 z2.1) * (mb z2.2 (p 0) ρ2) + (8) * ((c.e : ℂ)) ^ 2 * (ab z0.1 z1.1) * (ab z2.1 ρ2) * (mb z2.2 (p 0) z1.1)) * i12 + ((16) * ((c.e : ℂ)) ^ 2 * (ab z1.1 ρ2) * (sb z0.2 z2.2) * (sb z1.2 z2.2)) * i13 + ((8) * ((c.e : ℂ)) ^ 2 * (ab z1.1 ρ2) * (sb z0.2 z1.2) * (sb z2.2 ρ1) + (-16) * ((c.e : ℂ)) ^ 2 * (ab z1.1 ρ2) * (sb z0.2 z2.2) * (sb z1.2 ρ1) + (16) * ((c.e : ℂ)) ^ 2 * (mb ρ1 (p 0) ρ2) * (sb z0.2 z2.2)) * i14 + ((-8) * ((c.e : ℂ)) ^ 2 * ((c.mass .u : ℂ)) * (N.c 0) * (ab z1.1 ρ2) + (8) * ((c.e : ℂ)) ^ 2 * ((c.mass .u : ℂ)) * (N.c 1) * (ab z1.1 ρ2) + (-8) * ((c.e : ℂ)) ^ 2 * ((c.mass .u : ℂ)) * (ab z1.1 z2.1) * (ab z1.1 ρ2) * (sb z1.2 z2.2)) * i15 + ((-16) * ((c.e : ℂ)) ^ 2 * (N.c 0) * (sb z0.2 z2.2) + (-8) * ((c.e : ℂ)) ^ 2 * (mb z2.2 (p 0) z1.1) * (sb z0.2 z1.2)) * i16 + ((-16) * ((c.e : ℂ)) ^ 2 * (ab z1.1 z3.1) * (sb z0.2 z2.2) * (sb z1.2 z2.2)) * i17 + ((8) * ((c.e : ℂ)) ^ 2 * (ab z1.1 ρ2) * (sb z0.2 z2.2) * (sb z1.2 ρ1) + (-16) * ((c.e : ℂ)) ^ 2 * (mb ρ1 (p 0) ρ2) * (sb z0.2 z2.2)) * i18 + ((-8) * ((c.e : ℂ)) ^ 2 * (ab z1.1 z3.1) * (ab z2.1 ρ2) * (sb z2.2 ρ1) + (8) * ((c.e : ℂ)) ^ 2 * (ab z1.1 z3.1) * (mb ρ1 (p 0) ρ2)) * i19 + ((-8) * ((c.e : ℂ)) ^ 2 * (ab z1.1 z3.1) * (mb z2.2 (p 0) ρ2)) * i20 + ((-8) * ((c.e : ℂ)) ^ 2 * (N.c 1) * (sb z0.2 ρ1) + (8) * ((c.e : ℂ)) ^ 2 * (mb ρ1 (p 0) z1.1) * (sb z0.2 z1.2)) * i21 + ((8) * ((c.e : ℂ)) ^ 2 * (ab z1.1 ρ2) * (sb z1.2 z2.2) * (sb z2.2 ρ1)) * i22 + ((8) * ((c.e : ℂ)) ^ 2 * ((c.mass .u : ℂ)) * (N.c 0) * (sb z2.2 ρ1) + (8) * ((c.e : ℂ)) ^ 2 * ((c.mass .u : ℂ)) * (mb z2.2 (p 0) z1.1) * (sb z1.2 ρ1) + (-8) * ((c.e : ℂ)) ^ 2 * ((c.mass .u : ℂ)) * (mb ρ1 (p 0) z1.1) * (sb z1.2 z2.2)) * i23 + ((-8) * ((c.e : ℂ)) ^ 2 * ((c.mass .u : ℂ)) * (ab z1.1 ρ2) * (sb z1.2 ρ1)) * i24 + ((8) * ((c.e : ℂ)) ^ 2 * (ab z0.1 z1.1) * (mb z2.2 (p 0) ρ2)) * i25 + ((-8) * ((c.e : ℂ)) ^ 2 * ((c.mass .u : ℂ)) * (ab z1.1 ρ2) * (mb ρ1 (p 0) z1.1)) * i26 + ((8) * ((c.e : ℂ)) ^ 2 * ((c.mass .u : ℂ)) * (ab z1.1 ρ2) * (sb z1.2 z2.2)) * i27 + ((-8) * ((c.e : ℂ)) ^ 2 * (ab z1.1 ρ2) * (sb z0.2 z2.2) * (sb z2.2 ρ1)) * i28 + ((8) * ((c.e : ℂ)) ^ 2 * (ab z1.1 ρ2) * (sb z0.2 z2.2) * (sb z2.2 ρ1)) * i29 + ((8) * ((c.e : ℂ)) ^ 2 * (ab z0.1 z1.1) * (mb ρ1 (p 0) ρ2)) * i30 + ((8) * ((c.e : ℂ)) ^ 2 * (mb z2.2 (p 0) z1.1) * (sb z1.2 z3.2)) * i31 + ((-8) * ((c.e : ℂ)) ^ 2 * ((c.mass .u : ℂ)) * (ab z1.1 ρ2) * (mb z2.2 (p 0) z1.1)) * i32 + ((8) * ((c.e : ℂ)) ^ 2 * ((c.mass .u : ℂ)) * (ab z1.1 ρ2) * (sb z2.2 ρ1)) * i33)) * ((1) * ((N.c 0)⁻¹) * ((N.c 1)⁻¹) / (9)) + ((-8) * ((c.e : ℂ)) ^ 2 * ((c.mass .u : ℂ)) * ((N.c 1)⁻¹) * (ab z0.1 z1.1) * (ab z3.1 ρ2) * (sb z2.2 ρ1) / (9) + (8) * ((c.e : ℂ)) ^ 2 * ((c.mass .u : ℂ)) * ((N.c 1)⁻¹) * (ab z1.1 ρ2) * (sb z0.2 ρ1) * (sb z2.2 z3.2) / (9) + (-8) * ((c.e : ℂ)) ^ 2 * ((N.c 1)⁻¹) * (ab z0.1 z1.1) * (ab z1.1 ρ2) * (sb z1.2 ρ1) * (sb z2.2 z3.2) / (9) + (8) * ((c.e : ℂ)) ^ 2 * ((N.c 1)⁻¹) * (ab z0.1 z1.1) * (mb ρ1 (p 0) ρ2) * (sb z2.2 z3.2) / (9) + (8) * ((c.e : ℂ)) ^ 2 * ((N.c 1)⁻¹) * (ab z3.1 ρ2) * (mb z2.2 (p 0) z1.1) * (sb z0.2 ρ1) / (9)) * y0 + ((-8) * ((c.e : ℂ)) ^ 2 * ((c.mass .u : ℂ)) * ((N.c 0)⁻¹) * (ab z0.1 ρ2) * (ab z1.1 z3.1) * (sb z2.2 ρ1) / (9) + (8) * ((c.e : ℂ)) ^ 2 * ((c.mass .u : ℂ)) * ((N.c 0)⁻¹) * (ab z1.1 ρ2) * (sb z0.2 z2.2) * (sb z3.2 ρ1) / (9) + (-8) * ((c.e : ℂ)) ^ 2 * ((N.c 0)⁻¹) * (ab z0.1 ρ2) * (mb z2.2 (p 0) z1.1) * (sb z3.2 ρ1) / (9) + (-8) * ((c.e : ℂ)) ^ 2 * ((N.c 0)⁻¹) * (ab z1.1 z3.1) * (ab z2.1 ρ2) * (sb z0.2 z2.2) * (sb z2.2 ρ1) / (9) + (-8) * ((c.e : ℂ)) ^ 2 * ((N.c 0)⁻¹) * (ab z1.1 z3.1) * (mb ρ1 (p 0) ρ2) * (sb z0.2 z2.2) / (9)) * y1 + ((4) * ((c.e : ℂ)) ^ 2 * ((c.mass .u : ℂ)) * ((N.c 0)⁻¹) * (ab z0.1 ρ2) * (ab z1.1 z3.1) * (sb z2.2 ρ1) / (9) + (-4) * ((c.e : ℂ)) ^ 2 * ((c.mass .u : ℂ)) * ((N.c 0)⁻¹) * (ab z1.1 ρ2) * (sb z0.2 z2.2) * (sb z3.2 ρ1) / (9) + (4) * ((c.e : ℂ)) ^ 2 * ((c.mass .u : ℂ)) * ((N.c 1)⁻¹) * (ab z0.1 z1.1) * (ab z3.1 ρ2) * (sb z2.2 ρ1) / (9) + (-4) * ((c.e : ℂ)) ^ 2 * ((c.mass .u : ℂ)) * ((N.c 1)⁻¹) * (ab z1.1 ρ2) * (sb z0.2 ρ1) * (sb z2.2 z3.2) / (9) + (4) * ((c.e : ℂ)) ^ 2 * ((N.c 0)⁻¹) * (ab z0.1 ρ2) * (mb z2.2 (p 0) z1.1) * (sb z3.2 ρ1) / (9) + (4) * ((c.e : ℂ)) ^ 2 * ((N.c 0)⁻¹) * (ab z1.1 z3.1) * (ab z2.1 ρ2) * (sb z0.2 z2.2) * (sb z2.2 ρ1) / (9) + (4) * ((c.e : ℂ)) ^ 2 * ((N.c 0)⁻¹) * (ab z1.1 z3.1) * (mb ρ1 (p 0) ρ2) * (sb z0.2 z2.2) / (9) + (4) * ((c.e : ℂ)) ^ 2 * ((N.c 1)⁻¹) * (ab z0.1 z1.1) * (ab z1.1 ρ2) * (sb z1.2 ρ1) * (sb z2.2 z3.2) / (9) + (-4) * ((c.e : ℂ)) ^ 2 * ((N.c 1)⁻¹) * (ab z0.1 z1.1) * (mb ρ1 (p 0) ρ2) * (sb z2.2 z3.2) / (9) + (-4) * ((c.e : ℂ)) ^ 2 * ((N.c 1)⁻¹) * (ab z3.1 ρ2) * (mb z2.2 (p 0) z1.1) * (sb z0.2 ρ1) / (9)) * x22
theorem uAAu.keyMM {c : Constants} {p : Nat → V4 ℝ} {N : Env} (hc : c.Physical) (hb : Balanced p) (r0 : N.r 0 = c.e) (r1 : N.r 1 = (((2 : Nat) : ℝ) / ((3 : Nat) : ℝ))) (r2 : N.r 2 = (c.mass .u)) (d0 : ((msq (plus (p 0) (backward (p 2))) - c.mass .u ^ 2 : ℝ) : ℂ) = N.c 0) (n0 : N.c 0 ≠ 0) (d1 : ((msq (plus (p 0) (p 1)) - c.mass .u ^ 2 : ℝ) : ℂ) = N.c 1) (n1 : N.c 1 ≠ 0) {z0 z1 z2 z3 : Pair} (b0 : Bold (p 0) (c.mass .u) z0) (b3 : Bold (p 3) (c.mass .u) z3) (l1 : Light (p 1) z1) (l2 : Light (p 2) z2) (e10 : mb z1.2 (p 0) z1.1 = N.c 1) (e13 : mb z1.2 (p 3) z1.1 = -N.c 0) (e20 : mb z2.2 (p 0) z2.1 = -N.c 0) (e23 : mb z2.2 (p 3) z2.1 = N.c 1) (q0 : msq (p 0) = (c.mass .u) ^ 2) (q3 : msq (p 3) = (c.mass .u) ^ 2) (ρ1 ρ2 : V2) :
    uAAu.formMM N p z0 z1 z2 z3 * sb ρ1 z1.2 * sb ρ2 z2.2 = ((√2 : ℝ) * ((√2 : ℝ) * (1 : ℂ))) * uAAu.react.bare c p 3 0 1 2 z3 z0 (pv z1.1 ρ1) (pv z2.1 ρ2) := by
  rw [uAAu.react.bare_parts c p (i := 3) (j := 0) (a := 1) (b := 2) (x := .photon) (y := .photon) (k := (p 1)) (k' := (backward (p 2))) (fun _ => rfl) (fun _ => rfl) (f := .u) (g := .u) rfl rfl (l := (p 0)) rfl (e := 1) (e' := 1) (if_neg Bool.false_ne_true) (if_neg Bool.false_ne_true)]
  rw [compton_vv (f := .u) (x := .u) (g := .u) (h := (rfl : Spec.after .photon Flavour.u = some Flavour.u)) (h' := (rfl : Spec.after .photon Flavour.u = some Flavour.u)) (ha := by simp) (hb := by simp)]
  rw [compton_vv (f := .u) (x := .u) (g := .u) (h := (rfl : Spec.after .photon Flavour.u = some Flavour.u)) (h' := (rfl : Spec.after .photon Flavour.u = some Flavour.u)) (ha := by simp) (hb := by simp)]
  rw [annihilation_none c _ _ (by rfl) (by simp), star_zero, add_zero, uAAu.formMM]
  simp only [d0, d1, lineV_pv, lineV_four, contract_four_pv, contract_pv, mb_plus, mb_backward]
  have i0 := mb_schouten_left z0.2 ρ1 ρ2 (p 0) z1.1
  have i1 := sb_schouten z3.2 ρ1 ρ2 z0.2
  have i2 := mb_schouten_right z0.2 (p 3) z1.1 z2.1 z3.1
  have i3 := mb_schouten_right z1.2 (p 0) z1.1 z2.1 z3.1
  have i4 := mb_schouten_right z2.2 (p 3) z0.1 z1.1 z2.1
  have i5 := mb_schouten_right z2.2 (p 0) z0.1 z1.1 z2.1
  have i6 := mb_schouten_left z1.2 z2.2 ρ1 (p 0) z1.1
  have i7 := sb_schouten z2.2 z3.2 ρ1 z1.2
  have i8 := mb_schouten_right ρ2 (p 0) z0.1 z1.1 z2.1
  have i9 := mb_schouten_right z1.2 (p 3) z1.1 z2.1 z3.1
  have i10 := mb_schouten_right z1.2 (p 3) z0.1 z1.1 z2.1
  have i11 := mb_schouten_right z1.2 (p 0) z0.1 z1.1 z2.1
  have i12 := sb_schouten z2.2 ρ1 ρ2 z0.2
  have i13 := sb_schouten z1.2 ρ1 ρ2 z0.2
  have i14 := sb_schouten z2.2 z3.2 ρ2 z0.2
  have i15 := mb_schouten_right z2.2 (p 3) z1.1 z2.1 z3.1
  have i16 := mb_schouten_right z2.2 (p 0) z1.1 z2.1 z3.1
  have i17 := sb_schouten z1.2 z2.2 z3.2 z0.2
  have i18 := mb_schouten_left z1.2 z3.2 ρ2 (p 0) z1.1
  have i19 := mb_schouten_right ρ1 (p 0) z0.1 z1.1 z2.1
  have i20 := sb_schouten z1.2 z3.2 ρ1 z0.2
  have i21 := ab_schouten z1.1 z2.1 z3.1 z0.1
  have i22 := mb_schouten_left z1.2 z3.2 ρ1 (p 0) z1.1
  have i23 := sb_schouten z1.2 z3.2 ρ2 z0.2
  have i24 := sb_schouten z3.2 ρ1 ρ2 z1.2
  have i25 := mb_schouten_right ρ2 (p 0) z0.1 z1.1 z3.1
  have i26 := mb_schouten_right ρ1 (p 0) z0.1 z1.1 z3.1
  have i27 := sb_schouten z2.2 z3.2 ρ2 z1.2
  have i28 := mb_schouten_right z3.2 (p 0) z0.1 z1.1 z2.1
  have i29 := sb_schouten z2.2 ρ1 ρ2 z1.2
  have i30 := mb_schouten_left z0.2 z2.2 ρ2 (p 0) z1.1
  have i31 := sb_schouten z1.2 z2.2 ρ1 z0.2
  have i32 := mb_schouten_right ρ2 (p 0) z1.1 z2.1 z3.1
  have i33 := mb_schouten_right ρ1 (p 0) z1.1 z2.1 z3.1
  have i34 := mb_schouten_left z0.2 z1.2 ρ2 (p 0) z1.1
  have i35 := mb_schouten_left z0.2 z1.2 ρ1 (p 0) z1.1
  have i36 := mb_schouten_left z0.2 z2.2 ρ1 (p 0) z1.1
  have i37 := sb_schouten z1.2 z2.2 ρ2 z0.2
  have i38 := sb_schouten z3.2 ρ1 ρ2 z2.2
  have i39 := mb_schouten_right z1.2 (p 0) z0.1 z1.1 z3.1
  have i40 := mb_schouten_left z0.2 z1.2 z2.2 (p 0) z1.1
  simp only [l1.mb_eq, l2.mb_eq, b0.mb_left, b0.mb_right, b3.mb_left, b3.mb_right, e10, e13, e20, e23, mb_three hb z0.2 z0.1, mb_three hb z0.2 z1.1, mb_three hb z0.2 z2.1, mb_three hb z1.2 z0.1, mb_three hb z1.2 z2.1, mb_nought hb z1.2 z3.1, mb_three hb z2.2 z0.1, mb_three hb z2.2 z1.1, mb_nought hb z2.2 z3.1, mb_nought hb z3.2 z1.1, mb_nought hb z3.2 z2.1, mb_nought hb z3.2 z3.1, mb_three hb ρ1 z0.1, mb_three hb ρ1 z1.1, mb_three hb ρ1 z2.1, mb_nought hb ρ1 z3.1, mb_three hb ρ2 z0.1, mb_three hb ρ2 z1.1, mb_three hb ρ2 z2.1, mb_nought hb ρ2 z3.1, ab_self, sb_self] at i0 i1 i2 i3 i4 i5 i6 i7 i8 i9 i10 i11 i12 i13 i14 i15 i16 i17 i18 i19 i20 i21 i22 i23 i24 i25 i26 i27 i28 i29 i30 i31 i32 i33 i34 i35 i36 i37 i38 i39 i40 ⊢
  simp only [ab_swap z0.1 z1.1, ab_swap z0.1 z2.1, ab_swap z0.1 z3.1, ab_swap z1.1 z2.1, ab_swap z1.1 z3.1, ab_swap z2.1 z3.1, sb_swap z0.2 z1.2, sb_swap z0.2 z2.2, sb_swap z0.2 z3.2, sb_swap z0.2 ρ1, sb_swap z0.2 ρ2, sb_swap z1.2 z2.2, sb_swap z1.2 z3.2, sb_swap z1.2 ρ1, sb_swap z1.2 ρ2, sb_swap z2.2 z3.2, sb_swap z2.2 ρ1, sb_swap z2.2 ρ2, sb_swap z3.2 ρ1, sb_swap z3.2 ρ2, sb_swap ρ1 ρ2] at i0 i1 i2 i3 i4 i5 i6 i7 i8 i9 i10 i11 i12 i13 i14 i15 i16 i17 i18 i19 i20 i21 i22 i23 i24 i25 i26 i27 i28 i29 i30 i31 i32 i33 i34 i35 i36 i37 i38 i39 i40 ⊢
  simp only [r0, r1, r2, Constants.hL, Constants.hR, Constants.gL, Constants.gR, Constants.yuk, Constants.invVev, Flavour.charge_u, Flavour.isospin_u, ← c.mz]
  have xMW : (c.MW : ℂ) ≠ 0 := by exact_mod_cast hc.MW
  have xSW : (c.SW : ℂ) ≠ 0 := by exact_mod_cast hc.SW
  have xCW : (c.CW : ℂ) ≠ 0 := by exact_mod_cast hc.CW
  have x2 : ((√2 : ℝ) : ℂ) ≠ 0 := by exact_mod_cast (Real.sqrt_pos.2 two_pos).ne'
  have x22 : ((√2 : ℝ) : ℂ) ^ 2 = 2 := by rw [← Complex.ofReal_pow, Real.sq_sqrt two_pos.le]; norm_num
  have x23 : ((√2 : ℝ) : ℂ) ^ 3 = 2 * ((√2 : ℝ) : ℂ) := by rw [← x22]; ring
  have x24 : ((√2 : ℝ) : ℂ) ^ 4 = 4 := by linear_combination (((√2 : ℝ) : ℂ) ^ 2 + 2) * x22
  push_cast at i0 i1 i2 i3 i4 i5 i6 i7 i8 i9 i10 i11 i12 i13 i14 i15 i16 i17 i18 i19 i20 i21 i22 i23 i24 i25 i26 i27 i28 i29 i30 i31 i32 i33 i34 i35 i36 i37 i38 i39 i40 ⊢
  have y0 := mul_inv_cancel₀ n0
  have y1 := mul_inv_cancel₀ n1
  linear_combination ((((-16) * ((c.e : ℂ)) ^ 2 * (N.c 0) * (ab z2.1 z3.1)) * i0 + ((8) * ((c.e : ℂ)) ^ 2 * ((c.mass .u : ℂ)) * (N.c 0) * (ab z1.1 z2.1) + (-8) * ((c.e : ℂ)) ^ 2 * ((c.mass .u : ℂ)) * (N.c 1) * (ab z1.1 z2.1)) * i1 + ((8) * ((c.e : ℂ)) ^ 2 * (N.c 0) * (sb ρ1 ρ2) + (8) * ((c.e : ℂ)) ^ 2 * (ab z1.1 z2.1) * (sb z1.2 z2.2) * (sb ρ1 ρ2)) * i2 + ((-8) * ((c.e : ℂ)) ^ 2 * (ab z1.1 z2.1) * (sb z0.2 z2.2) * (sb ρ1 ρ2) + (-16) * ((c.e : ℂ)) ^ 2 * (mb ρ1 (p 0) z1.1) * (sb z0.2 ρ2) + (8) * ((c.e : ℂ)) ^ 2 * (mb ρ2 (p 0) z1.1) * (sb z0.2 ρ1)) * i3 + ((-8) * ((c.e : ℂ)) ^ 2 * (mb ρ1 (p 0) z2.1) * (sb z3.2 ρ2) + (8) * ((c.e : ℂ)) ^ 2 * (mb ρ2 (p 0) z2.1) * (sb z3.2 ρ1)) * i4 + ((-8) * ((c.e : ℂ)) ^ 2 * (ab z1.1 z2.1) * (sb z1.2 ρ1) * (sb z3.2 ρ2) + (8) * ((c.e : ℂ)) ^ 2 * (mb ρ1 (p 0) z2.1) * (sb z3.2 ρ2) + (-8) * ((c.e : ℂ)) ^ 2 * (mb ρ2 (p 0) z2.1) * (sb z3.2 ρ1)) * i5 + ((8) * ((c.e : ℂ)) ^ 2 * (ab z0.1 z2.1) * (ab z1.1 z2.1) * (sb z3.2 ρ2)) * i6 + ((-8) * ((c.e : ℂ)) ^ 2 * (ab z0.1 z1.1) * (ab z1.1 z2.1) * (mb ρ2 (p 0) z2.1) + (8) * ((c.e : ℂ)) ^ 2 * (ab z0.1 z2.1) * (ab z1.1 z2.1) * (mb ρ2 (p 0) z1.1)) * i7 + ((-8) * ((c.e : ℂ)) ^ 2 * (N.c 0) * (sb z3.2 ρ1) + (-8) * ((c.e : ℂ)) ^ 2 * (ab z1.1 z2.1) * (sb z1.2 z3.2) * (sb z2.2 ρ1) + (8) * ((c.e : ℂ)) ^ 2 * (mb ρ1 (p 0) z1.1) * (sb z1.2 z3.2)) * i8 + ((8) * ((c.e : ℂ)) ^ 2 * (ab z1.1 z2.1) * (sb z0.2 z2.2) * (sb ρ1 ρ2) + (16) * ((c.e : ℂ)) ^ 2 * (mb ρ1 (p 0) z1.1) * (sb z0.2 ρ2) + (-8) * ((c.e : ℂ)) ^ 2 * (mb ρ2 (p 0) z1.1) * (sb z0.2 ρ1)) * i9 + ((8) * ((c.e : ℂ)) ^ 2 * ((c.mass .u : ℂ)) * (ab z1.1 z3.1) * (sb ρ1 ρ2) + (-8) * ((c.e : ℂ)) ^ 2 * (mb ρ2 (p 0) z1.1) * (sb z3.2 ρ1)) * i10 + ((-8) * ((c.e : ℂ)) ^ 2 * ((c.mass .u : ℂ)) * (ab z1.1 z3.1) * (sb ρ1 ρ2) + (8) * ((c.e : ℂ)) ^ 2 * (mb ρ2 (p 0) z1.1) * (sb z3.2 ρ1)) * i11 + ((8) * ((c.e : ℂ)) ^ 2 * ((c.mass .u : ℂ)) * (ab z1.1 z2.1) ^ 2 * (sb z1.2 z3.2) + (16) * ((c.e : ℂ)) ^ 2 * (N.c 1) * (ab z1.1 z2.1) * (ab z2.1 z3.1)) * i12 + ((-8) * ((c.e : ℂ)) ^ 2 * ((c.mass .u : ℂ)) * (ab z1.1 z2.1) ^ 2 * (sb z2.2 z3.2) + (-8) * ((c.e : ℂ)) ^ 2 * ((c.mass .u : ℂ)) ^ 2 * (ab z1.1 z2.1) * (ab z1.1 z3.1) + (-8) * ((c.e : ℂ)) ^ 2 * (N.c 1) * (ab z1.1 z2.1) * (ab z1.1 z3.1) + (-8) * ((c.e : ℂ)) ^ 2 * (ab z1.1 z2.1) * (ab z2.1 z3.1) * (mb z2.2 (p 0) z1.1)) * i13 + ((8) * ((c.e : ℂ)) ^ 2 * ((c.mass .u : ℂ)) * (ab z1.1 z2.1) ^ 2 * (sb z1.2 ρ1)) * i14 + ((-8) * ((c.e : ℂ)) ^ 2 * (ab z1.1 z2.1) * (sb z0.2 z1.2) * (sb ρ1 ρ2) + (8) * ((c.e : ℂ)) ^ 2 * (ab z1.1 z2.1) * (sb z0.2 ρ1) * (sb z1.2 ρ2)) * i15 + ((8) * ((c.e : ℂ)) ^ 2 * (ab z1.1 z2.1) * (sb z0.2 z1.2) * (sb ρ1 ρ2)) * i16 + ((8) * ((c.e : ℂ)) ^ 2 * ((c.mass .u : ℂ)) * (ab z1.1 z2.1) ^ 2 * (sb ρ1 ρ2)) * i17 + ((-8) * ((c.e : ℂ)) ^ 2 * (ab z0.1 z1.1) * (ab z1.1 z2.1) * (sb z1.2 ρ1) + (8) * ((c.e : ℂ)) ^ 2 * (ab z0.1 z1.1) * (mb ρ1 (p 0) z2.1)) * i18 + ((8) * ((c.e : ℂ)) ^ 2 * (ab z1.1 z2.1) * (sb z1.2 z3.2) * (sb z2.2 ρ2) + (-8) * ((c.e : ℂ)) ^ 2 * (mb ρ2 (p 0) z1.1) * (sb z1.2 z3.2)) * i19 + ((8) * ((c.e : ℂ)) ^ 2 * ((c.mass .u : ℂ)) * (ab z1.1 z2.1) * (mb ρ2 (p 0) z1.1)) * i20 + ((8) * ((c.e : ℂ)) ^ 2 * ((c.mass .u : ℂ)) * (N.c 1) * (sb ρ1 ρ2) + (-8) * ((c.e : ℂ)) ^ 2 * ((c.mass .u : ℂ)) * (mb ρ1 (p 0) z1.1) * (sb z1.2 ρ2) + (8) * ((c.e : ℂ)) ^ 2 * ((c.mass .u : ℂ)) * (mb ρ2 (p 0) z1.1) * (sb z1.2 ρ1)) * i21 + ((8) * ((c.e : ℂ)) ^ 2 * (ab z0.1 z1.1) * (ab z1.1 z2.1) * (sb z1.2 ρ2) + (-8) * ((c.e : ℂ)) ^ 2 * (ab z0.1 z1.1) * (mb ρ2 (p 0) z2.1)) * i22 + ((-8) * ((c.e : ℂ)) ^ 2 * ((c.mass .u : ℂ)) * (ab z1.1 z2.1) * (mb ρ1 (p 0) z1.1)) * i23 + ((8) * ((c.e : ℂ)) ^ 2 * ((c.mass .u : ℂ)) ^ 2 * (ab z0.1 z1.1) * (ab z1.1 z2.1) + (-8) * ((c.e : ℂ)) ^ 2 * (N.c 1) * (ab z0.1 z1.1) * (ab z1.1 z2.1)) * i24 + ((8) * ((c.e : ℂ)) ^ 2 * ((c.mass .u : ℂ)) * (ab z1.1 z2.1) * (sb z1.2 ρ1)) * i25 + ((-8) * ((c.e : ℂ)) ^ 2 * ((c.mass .u : ℂ)) * (ab z1.1 z2.1) * (sb z1.2 ρ2)) * i26 + ((8) * ((c.e : ℂ)) ^ 2 * (ab z0.1 z1.1) * (ab z1.1 z2.1) * (mb ρ1 (p 0) z2.1) + (-8) * ((c.e : ℂ)) ^ 2 * (ab z0.1 z2.1) * (ab z1.1 z2.1) * (mb ρ1 (p 0) z1.1)) * i27 + ((8) * ((c.e : ℂ)) ^ 2 * (N.c 1) * (sb ρ1 ρ2) + (-8) * ((c.e : ℂ)) ^ 2 * (mb ρ1 (p 0) z1.1) * (sb z1.2 ρ2) + (8) * ((c.e : ℂ)) ^ 2 * (mb ρ2 (p 0) z1.1) * (sb z1.2 ρ1)) * i28 + ((-24) * ((c.e : ℂ)) ^ 2 * ((c.mass .u : ℂ)) * (ab z0.1 z1.1) * (ab z1.1 z2.1) * (ab z2.1 z3.1)) * i29 + ((-8) * ((c.e : ℂ)) ^ 2 * (ab z1.1 z2.1) * (ab z2.1 z3.1) * (sb z1.2 ρ1)) * i30 + ((-8) * ((c.e : ℂ)) ^ 2 * (ab z1.1 z2.1) * (ab z2.1 z3.1) * (mb ρ2 (p 0) z1.1)) * i31 + ((-8) * ((c.e : ℂ)) ^ 2 * (N.c 1) * (sb z0.2 ρ1) + (8) * ((c.e : ℂ)) ^ 2 * (mb ρ1 (p 0) z1.1) * (sb z0.2 z1.2)) * i32 + ((16) * ((c.e : ℂ)) ^ 2 * (N.c 1) * (sb z0.2 ρ2) + (-8) * ((c.e : ℂ)) ^ 2 * (mb ρ2 (p 0) z1.1) * (sb z0.2 z1.2)) * i33 + ((8) * ((c.e : ℂ)) ^ 2 * (ab z1.1 z2.1) * (ab z1.1 z3.1) * (sb z1.2 ρ1) + (-8) * ((c.e : ℂ)) ^ 2 * (ab z1.1 z3.1) * (mb ρ1 (p 0) z2.1)) * i34 + ((-8) * ((c.e : ℂ)) ^ 2 * (ab z1.1 z2.1) * (ab z1.1 z3.1) * (sb z1.2 ρ2) + (-8) * ((c.e : ℂ)) ^ 2 * (ab z1.1 z2.1) * (ab z2.1 z3.1) * (sb z2.2 ρ2) + (8) * ((c.e : ℂ)) ^ 2 * (ab z1.1 z3.1) * (mb ρ2 (p 0) z2.1)) * i35 + ((16) * ((c.e : ℂ)) ^ 2 * (ab z1.1 z2.1) * (ab z2.1 z3.1) * (sb z1.2 ρ2)) * i36 + ((16) * ((c.e : ℂ)) ^ 2 * (ab z1.1 z2.1) * (ab z2.1 z3.1) * (mb ρ1 (p 0) z1.1)) * i37 + ((8) * ((c.e : ℂ)) ^ 2 * (N.c 1) * (ab z0.1 z2.1) * (ab z1.1 z2.1)) * i38 + ((8) * ((c.e : ℂ)) ^ 2 * ((c.mass .u : ℂ)) * (ab z1.1 z2.1) * (sb ρ1 ρ2)) * i39 + ((8) * ((c.e : ℂ)) ^ 2 * (ab z1.1 z2.1) * (ab z2.1 z3.1) * (sb ρ1 ρ2)) * i40)) * ((1) * ((N.c 0)⁻¹) * ((N.c 1)⁻¹) / (9)) + ((8) * ((c.e : ℂ)) ^ 2 * ((c.mass .u : ℂ)) * ((N.c 1)⁻¹) * (ab z0.1 z1.1) * (ab z2.1 z3.1) * (sb ρ1 ρ2) / (9) + (8) * ((c.e : ℂ)) ^ 2 * ((c.mass .u : ℂ)) * ((N.c 1)⁻¹) * (ab z1.1 z2.1) * (sb z0.2 ρ1) * (sb z3.2 ρ2) / (9) + (-8) * ((c.e : ℂ)) ^ 2 * ((N.c 1)⁻¹) * (ab z0.1 z1.1) * (ab z1.1 z2.1) * (sb z1.2 ρ1) * (sb z3.2 ρ2) / (9) + (8) * ((c.e : ℂ)) ^ 2 * ((N.c 1)⁻¹) * (ab z0.1 z1.1) * (mb ρ1 (p 0) z2.1) * (sb z3.2 ρ2) / (9) + (8) * ((c.e : ℂ)) ^ 2 * ((N.c 1)⁻¹) * (ab z2.1 z3.1) * (mb ρ2 (p 0) z1.1) * (sb z0.2 ρ1) / (9)) * y0 + ((-8) * ((c.e : ℂ)) ^ 2 * ((c.mass .u : ℂ)) * ((N.c 0)⁻¹) * (ab z0.1 z2.1) * (ab z1.1 z3.1) * (sb ρ1 ρ2) / (9) + (-8) * ((c.e : ℂ)) ^ 2 * ((c.mass .u : ℂ)) * ((N.c 0)⁻¹) * (ab z1.1 z2.1) * (sb z0.2 ρ2) * (sb z3.2 ρ1) / (9) + (-8) * ((c.e : ℂ)) ^ 2 * ((N.c 0)⁻¹) * (ab z0.1 z2.1) * (ab z1.1 z2.1) * (sb z2.2 ρ2) * (sb z3.2 ρ1) / (9) + (8) * ((c.e : ℂ)) ^ 2 * ((N.c 0)⁻¹) * (ab z0.1 z2.1) * (mb ρ2 (p 0) z1.1) * (sb z3.2 ρ1) / (9) + (8) * ((c.e : ℂ)) ^ 2 * ((N.c 0)⁻¹) * (ab z1.1 z3.1) * (mb ρ1 (p 0) z2.1) * (sb z0.2 ρ2) / (9)) * y1 + ((4) * ((c.e : ℂ)) ^ 2 * ((c.mass .u : ℂ)) * ((N.c 0)⁻¹) * (ab z0.1 z2.1) * (ab z1.1 z3.1) * (sb ρ1 ρ2) / (9) + (4) * ((c.e : ℂ)) ^ 2 * ((c.mass .u : ℂ)) * ((N.c 0)⁻¹) * (ab z1.1 z2.1) * (sb z0.2 ρ2) * (sb z3.2 ρ1) / (9) + (-4) * ((c.e : ℂ)) ^ 2 * ((c.mass .u : ℂ)) * ((N.c 1)⁻¹) * (ab z0.1 z1.1) * (ab z2.1 z3.1) * (sb ρ1 ρ2) / (9) + (-4) * ((c.e : ℂ)) ^ 2 * ((c.mass .u : ℂ)) * ((N.c 1)⁻¹) * (ab z1.1 z2.1) * (sb z0.2 ρ1) * (sb z3.2 ρ2) / (9) + (4) * ((c.e : ℂ)) ^ 2 * ((N.c 0)⁻¹) * (ab z0.1 z2.1) * (ab z1.1 z2.1) * (sb z2.2 ρ2) * (sb z3.2 ρ1) / (9) + (-4) * ((c.e : ℂ)) ^ 2 * ((N.c 0)⁻¹) * (ab z0.1 z2.1) * (mb ρ2 (p 0) z1.1) * (sb z3.2 ρ1) / (9) + (-4) * ((c.e : ℂ)) ^ 2 * ((N.c 0)⁻¹) * (ab z1.1 z3.1) * (mb ρ1 (p 0) z2.1) * (sb z0.2 ρ2) / (9) + (4) * ((c.e : ℂ)) ^ 2 * ((N.c 1)⁻¹) * (ab z0.1 z1.1) * (ab z1.1 z2.1) * (sb z1.2 ρ1) * (sb z3.2 ρ2) / (9) + (-4) * ((c.e : ℂ)) ^ 2 * ((N.c 1)⁻¹) * (ab z0.1 z1.1) * (mb ρ1 (p 0) z2.1) * (sb z3.2 ρ2) / (9) + (-4) * ((c.e : ℂ)) ^ 2 * ((N.c 1)⁻¹) * (ab z2.1 z3.1) * (mb ρ2 (p 0) z1.1) * (sb z0.2 ρ1) / (9)) * x22
set_option maxRecDepth 8000 in
theorem uAAu.amp2_eq (N : Env) (f : Nat → List Int → ℂ) : Cls.uAAu.m_amp2.mean N f .r [] =
    ((sumJ (fun x a => (sumW (fun x b => (sumW (fun x c => (sumJ (fun x d => (x + (((3 : Nat) : ℝ) * (‖(f 0 [a, b, c, d])‖ ^ 2)))) x)) x)) x)) ((0 : Nat) : ℝ)) / ((12 : Nat) : ℝ)) := by rfl
set_option maxRecDepth 8000 in
theorem uAAu.value (N : Env) : meaning N .r Cls.uAAu.methods Cls.uAAu.amp2 [] =
    ((sumJ (fun x a => (sumW (fun x b => (sumW (fun x c => (sumJ (fun x d => (x + (((3 : Nat) : ℝ) * (‖(Cls.uAAu.m_amp.mean N (callMean N []) .c [a, b, c, d])‖ ^ 2)))) x)) x)) x)) ((0 : Nat) : ℝ)) / ((12 : Nat) : ℝ)) :=
  uAAu.amp2_eq N (callMean N [Cls.uAAu.m_amp])
set_option maxRecDepth 8000 in
theorem uAAu.ampPP (N : Env) (f : Nat → List Int → ℂ) (j1 j4 : Int) : Cls.uAAu.m_amp.mean N f .c [j1, 2, 2, j4] = uAAu.termPP N j1 j4 := by rfl
set_option maxRecDepth 8000 in
theorem uAAu.ampPM (N : Env) (f : Nat → List Int → ℂ) (j1 j4 : Int) : Cls.uAAu.m_amp.mean N f .c [j1, 2, (-2), j4] = uAAu.termPM N j1 j4 := by rfl
set_option maxRecDepth 8000 in
theorem uAAu.ampMP (N : Env) (f : Nat → List Int → ℂ) (j1 j4 : Int) : Cls.uAAu.m_amp.mean N f .c [j1, (-2), 2, j4] = uAAu.termMP N j1 j4 := by rfl
set_option maxRecDepth 8000 in
theorem uAAu.ampMM (N : Env) (f : Nat → List Int → ℂ) (j1 j4 : Int) : Cls.uAAu.m_amp.mean N f .c [j1, (-2), (-2), j4] = uAAu.termMM N j1 j4 := by rfl

theorem uAAu.mass_eq {c : Constants} (hc : c.Physical) (i : Fin 4) : uAAu.proc.massNum (uAAu.rho c) i = uAAu.react.mass c i := by
  fin_cases i <;> first | rfl | exact Nat.cast_zero | exact Nat.cast_zero.trans (hc.neutrino _).symm | (show c.MW / √(((1 : Nat) : ℝ) - c.SW * c.SW) = c.MZ; rw [c.root, c.mz])

variable [FPEnv] in
theorem uAAu.amps {c : Constants} {p : Nat → V4 ℝ} {u : Fin 4 → Fin 3 → Spinor} {ε : Fin 4 → Fin 3 → Vec} (hc : c.Physical) (hh : c.Heavy) (h0 : ∀ i, 0 ≤ uAAu.react.mass c i) (hs : ∀ i : Fin 4, OnShell (p i) (uAAu.react.mass c i)) (hb : Balanced p) (hr : uAAu.react.Regular c p) (hu : ∀ i, uAAu.react.Complete c p i (u i) (ε i)) :
    (uAAu.N c p).c 0 ≠ 0 ∧ (uAAu.N c p).c 1 ≠ 0 ∧ (∀ n, (Ty.r, n) ∈ uAAu.proc.divides → (uAAu.N c p).r n ≠ 0) ∧ (∀ n, (Ty.c, n) ∈ uAAu.proc.divides → (uAAu.N c p).c n ≠ 0) ∧ ∀ (s0 : Fin 2) (s3 : Fin 2) (h1 : Fin 2) (h2 : Fin 2), ‖Cls.uAAu.m_amp.mean (uAAu.N c p) (callMean (uAAu.N c p) []) .c [spinOf s0, spinW h1, spinW h2, spinOf s3]‖ = ‖uAAu.react.bare c p 3 0 1 2 (uAAu.react.codePair c p 3 s3) (uAAu.react.codePair c p 0 s0) (lightE (legA (p 1) 0 0, legS (p 1) 0 1) h1.castSucc) (lightE (legA (p 2) 0 0, legS (p 2) 0 1) h2.castSucc)‖ := by
  have he : uAAu.react.ends = [3] := by decide
  have ht : uAAu.react.starts = [0] := by decide
  have hB : uAAu.react.bosons = [1, 2] := by decide
  obtain ⟨f1, f2, f3⟩ := uAAu.react.regular_line he ht hB hr
  have r0 : (uAAu.N c p).r 0 = c.e := rfl
  have r1 : (uAAu.N c p).r 1 = (((2 : Nat) : ℝ) / ((3 : Nat) : ℝ)) := rfl
  have r2 : (uAAu.N c p).r 2 = (c.mass .u) := rfl
  have c0 : (uAAu.N c p).c 0 = poleDist (c.mass .u) ((0 : Nat) : ℝ) ((VExp.sub 0 2).sum p) := rfl
  rw [Nat.cast_zero, pole_fermion rfl] at c0
  have d0 : ((msq (plus (p 0) (backward (p 2))) - c.mass .u ^ 2 : ℝ) : ℂ) = (uAAu.N c p).c 0 := by rw [c0, msq_t hb (plus (p 0) (backward (p 2))) (by simp)]
  have n0 : (uAAu.N c p).c 0 ≠ 0 := by rw [← d0]; exact_mod_cast f2 .u rfl rfl
  have c1 : (uAAu.N c p).c 1 = poleDist (c.mass .u) ((0 : Nat) : ℝ) ((VExp.add 0 1).sum p) := rfl
  rw [Nat.cast_zero, pole_fermion rfl] at c1
  have d1 : ((msq (plus (p 0) (p 1)) - c.mass .u ^ 2 : ℝ) : ℂ) = (uAAu.N c p).c 1 := by rw [c1, msq_s hb (plus (p 0) (p 1)) (by simp)]
  have n1 : (uAAu.N c p).c 1 ≠ 0 := by rw [← d1]; exact_mod_cast f1 .u rfl rfl
  obtain ⟨l1, x1, y1⟩ := uAAu.react.code_light hs hu (n := 1) rfl rfl
  obtain ⟨l2, x2, y2⟩ := uAAu.react.code_light hs hu (n := 2) rfl rfl
  have e10 := l1.pole_add (m := (c.mass .u)) (onShell_msq (hs 0)) (msq_s hb (plus (p 1) (p 0)) (by simp)) c1
  have e13 := l1.pole_sub (m := (c.mass .u)) (onShell_msq (hs 3)) (msq_t hb (plus (p 1) (backward (p 3))) (by simp)) c0
  have e20 := l2.pole_sub' (m := (c.mass .u)) (onShell_msq (hs 0)) (msq_t hb (plus (p 0) (backward (p 2))) (by simp)) c0
  have e23 := l2.pole_add (m := (c.mass .u)) (onShell_msq (hs 3)) (msq_s hb (plus (p 2) (p 3)) (by simp)) c1
  have m0 : uAAu.react.mass c 0 ≠ 0 := (leg_pos hc hh (by decide)).ne'
  have m3 : uAAu.react.mass c 3 ≠ 0 := (leg_pos hc hh (by decide)).ne'
  have m1 : uAAu.react.mass c 1 = 0 := rfl
  have m2 : uAAu.react.mass c 2 = 0 := rfl
  have hd : uAAu.proc.divides = [(Ty.c, 0), (Ty.c, 1)] := by decide +kernel
  have stPP : ∀ {z0 z3 : Pair} (b0 : Bold (p 0) (uAAu.react.mass c 0) z0) (b3 : Bold (p 3) (uAAu.react.mass c 3) z3), uAAu.formPP (uAAu.N c p) p z0 (legA (p 1) 0 0, legS (p 1) 0 1) (legA (p 2) 0 0, legS (p 2) 0 1) z3 = 1 * uAAu.react.bare c p 3 0 1 2 z3 z0 (lightE (legA (p 1) 0 0, legS (p 1) 0 1) 1) (lightE (legA (p 2) 0 0, legS (p 2) 0 1) 1) := by
    intro z0 z3 b0 b3
    exact (light_plus (z := (legA (p 1) 0 0, legS (p 1) 0 1)) (G := fun E => uAAu.react.bare c p 3 0 1 2 z3 z0 E (lightE (legA (p 2) 0 0, legS (p 2) 0 1) 1)) (uAAu.react.bare_lin₁ c p _ _ _ (by decide)) x1 (light_plus (z := (legA (p 2) 0 0, legS (p 2) 0 1)) (G := fun E => uAAu.react.bare c p 3 0 1 2 z3 z0 (pv (legA (p 1) 0 0, legS (p 1) 0 1).2 (legA (p 1) 0 0, legS (p 1) 0 1).2) E) (uAAu.react.bare_lin₂ c p _ _ _ (by decide)) x2 (uAAu.keyPP hc hb r0 r1 r2 d0 n0 d1 n1 b0 b3 l1 l2 e10 e13 e20 e23 (onShell_msq (hs 0)) (onShell_msq (hs 3)) _ _)))
  have stPM : ∀ {z0 z3 : Pair} (b0 : Bold (p 0) (uAAu.react.mass c 0) z0) (b3 : Bold (p 3) (uAAu.react.mass c 3) z3), uAAu.formPM (uAAu.N c p) p z0 (legA (p 1) 0 0, legS (p 1) 0 1) (legA (p 2) 0 0, legS (p 2) 0 1) z3 = (-1) * uAAu.react.bare c p 3 0 1 2 z3 z0 (lightE (legA (p 1) 0 0, legS (p 1) 0 1) 1) (lightE (legA (p 2) 0 0, legS (p 2) 0 1) 0) := by
    intro z0 z3 b0 b3
    exact (light_plus (z := (legA (p 1) 0 0, legS (p 1) 0 1)) (G := fun E => uAAu.react.bare c p 3 0 1 2 z3 z0 E (lightE (legA (p 2) 0 0, legS (p 2) 0 1) 0)) (uAAu.react.bare_lin₁ c p _ _ _ (by decide)) x1 (light_minus (z := (legA (p 2) 0 0, legS (p 2) 0 1)) (G := fun E => uAAu.react.bare c p 3 0 1 2 z3 z0 (pv (legA (p 1) 0 0, legS (p 1) 0 1).2 (legA (p 1) 0 0, legS (p 1) 0 1).2) E) (uAAu.react.bare_lin₂ c p _ _ _ (by decide)) y2 (uAAu.keyPM hc hb r0 r1 d0 n0 d1 n1 b0 b3 l1 l2 e10 e13 e20 e23 (onShell_msq (hs 0)) (onShell_msq (hs 3)) _ _)))
  have stMP : ∀ {z0 z3 : Pair} (b0 : Bold (p 0) (uAAu.react.mass c 0) z0) (b3 : Bold (p 3) (uAAu.react.mass c 3) z3), uAAu.formMP (uAAu.N c p) p z0 (legA (p 1) 0 0, legS (p 1) 0 1) (legA (p 2) 0 0, legS (p 2) 0 1) z3 = (-1) * uAAu.react.bare c p 3 0 1 2 z3 z0 (lightE (legA (p 1) 0 0, legS (p 1) 0 1) 0) (lightE (legA (p 2) 0 0, legS (p 2) 0 1) 1) := by
    intro z0 z3 b0 b3
    exact (light_minus (z := (legA (p 1) 0 0, legS (p 1) 0 1)) (G := fun E => uAAu.react.bare c p 3 0 1 2 z3 z0 E (lightE (legA (p 2) 0 0, legS (p 2) 0 1) 1)) (uAAu.react.bare_lin₁ c p _ _ _ (by decide)) y1 (light_plus (z := (legA (p 2) 0 0, legS (p 2) 0 1)) (G := fun E => uAAu.react.bare c p 3 0 1 2 z3 z0 (pv (legA (p 1) 0 0, legS (p 1) 0 1).1 (legA (p 1) 0 0, legS (p 1) 0 1).1) E) (uAAu.react.bare_lin₂ c p _ _ _ (by decide)) x2 (uAAu.keyMP hc hb r0 r1 d0 n0 d1 n1 b0 b3 l1 l2 e10 e13 e20 e23 (onShell_msq (hs 0)) (onShell_msq (hs 3)) _ _)))
  have stMM : ∀ {z0 z3 : Pair} (b0 : Bold (p 0) (uAAu.react.mass c 0) z0) (b3 : Bold (p 3) (uAAu.react.mass c 3) z3), uAAu.formMM (uAAu.N c p) p z0 (legA (p 1) 0 0, legS (p 1) 0 1) (legA (p 2) 0 0, legS (p 2) 0 1) z3 = 1 * uAAu.react.bare c p 3 0 1 2 z3 z0 (lightE (legA (p 1) 0 0, legS (p 1) 0 1) 0) (lightE (legA (p 2) 0 0, legS (p 2) 0 1) 0) := by
    intro z0 z3 b0 b3
    exact (light_minus (z := (legA (p 1) 0 0, legS (p 1) 0 1)) (G := fun E => uAAu.react.bare c p 3 0 1 2 z3 z0 E (lightE (legA (p 2) 0 0, legS (p 2) 0 1) 0)) (uAAu.react.bare_lin₁ c p _ _ _ (by decide)) y1 (light_minus (z := (legA (p 2) 0 0, legS (p 2) 0 1)) (G := fun E => uAAu.react.bare c p 3 0 1 2 z3 z0 (pv (legA (p 1) 0 0, legS (p 1) 0 1).1 (legA (p 1) 0 0, legS (p 1) 0 1).1) E) (uAAu.react.bare_lin₂ c p _ _ _ (by decide)) y2 (uAAu.keyMM hc hb r0 r1 r2 d0 n0 d1 n1 b0 b3 l1 l2 e10 e13 e20 e23 (onShell_msq (hs 0)) (onShell_msq (hs 3)) _ _)))
  have amPP : ∀ (s0 : Fin 2) (s3 : Fin 2), Cls.uAAu.m_amp.mean (uAAu.N c p) (callMean (uAAu.N c p) []) .c [spinOf s0, 2, 2, spinOf s3] = 1 * uAAu.react.bare c p 3 0 1 2 (uAAu.react.codePair c p 3 s3) (uAAu.react.codePair c p 0 s0) (lightE (legA (p 1) 0 0, legS (p 1) 0 1) 1) (lightE (legA (p 2) 0 0, legS (p 2) 0 1) 1) := by
    intro s0 s3
    rw [uAAu.ampPP, ← stPP (uAAu.react.codePair_bold hs h0 0 s0) (uAAu.react.codePair_bold hs h0 3 s3)]
    have v8z1z2 : (uAAu.N c p).v 8 [] = sb (legA (p 1) 0 0, legS (p 1) 0 1).2 (legA (p 2) 0 0, legS (p 2) 0 1).2 := bra_square (p := p) (m := uAAu.proc.massNum (uAAu.rho c)) (uAAu.mass_eq hc 1) (uAAu.mass_eq hc 2) (.inr ⟨m1, rfl⟩) (.inr ⟨m2, rfl⟩)
    have v11z0z3 : (uAAu.N c p).v 11 [spinOf s0, spinOf s3] = ab (uAAu.react.codePair c p 0 s0).1 (uAAu.react.codePair c p 3 s3).1 := bra_angle (p := p) (m := uAAu.proc.massNum (uAAu.rho c)) (uAAu.mass_eq hc 0) (uAAu.mass_eq hc 3) (.inl ⟨m0, rfl⟩) (.inl ⟨m3, rfl⟩)
    simp only [uAAu.termPP, uAAu.formPP, v8z1z2, v11z0z3]
  have amPM : ∀ (s0 : Fin 2) (s3 : Fin 2), Cls.uAAu.m_amp.mean (uAAu.N c p) (callMean (uAAu.N c p) []) .c [spinOf s0, 2, (-2), spinOf s3] = (-1) * uAAu.react.bare c p 3 0 1 2 (uAAu.react.codePair c p 3 s3) (uAAu.react.codePair c p 0 s0) (lightE (legA (p 1) 0 0, legS (p 1) 0 1) 1) (lightE (legA (p 2) 0 0, legS (p 2) 0 1) 0) := by
    intro s0 s3
    rw [uAAu.ampPM, ← stPM (uAAu.react.codePair_bold hs h0 0 s0) (uAAu.react.codePair_bold hs h0 3 s3)]
    have v1z2z3 : (uAAu.N c p).v 1 [spinOf s3] = ab (legA (p 2) 0 0, legS (p 2) 0 1).1 (uAAu.react.codePair c p 3 s3).1 := bra_angle (p := p) (m := uAAu.proc.massNum (uAAu.rho c)) (uAAu.mass_eq hc 2) (uAAu.mass_eq hc 3) (.inr ⟨m2, rfl⟩) (.inl ⟨m3, rfl⟩)
    have v2z0z1 : (uAAu.N c p).v 2 [spinOf s0] = sb (uAAu.react.codePair c p 0 s0).2 (legA (p 1) 0 0, legS (p 1) 0 1).2 := bra_square (p := p) (m := uAAu.proc.massNum (uAAu.rho c)) (uAAu.mass_eq hc 0) (uAAu.mass_eq hc 1) (.inl ⟨m0, rfl⟩) (.inr ⟨m1, rfl⟩)
    have v5z0z2 : (uAAu.N c p).v 5 [spinOf s0] = ab (uAAu.react.codePair c p 0 s0).1 (legA (p 2) 0 0, legS (p 2) 0 1).1 := bra_angle (p := p) (m := uAAu.proc.massNum (uAAu.rho c)) (uAAu.mass_eq hc 0) (uAAu.mass_eq hc 2) (.inl ⟨m0, rfl⟩) (.inr ⟨m2, rfl⟩)
    have v6z1z3 : (uAAu.N c p).v 6 [spinOf s3] = sb (legA (p 1) 0 0, legS (p 1) 0 1).2 (uAAu.react.codePair c p 3 s3).2 := bra_square (p := p) (m := uAAu.proc.massNum (uAAu.rho c)) (uAAu.mass_eq hc 1) (uAAu.mass_eq hc 3) (.inr ⟨m1, rfl⟩) (.inl ⟨m3, rfl⟩)
    have v13z1z2 : (uAAu.N c p).v 13 [] = mb (legA (p 1) 0 0, legS (p 1) 0 1).2 (p 3) (legA (p 2) 0 0, legS (p 2) 0 1).1 := bra_mid_square (p := p) (m := uAAu.proc.massNum (uAAu.rho c)) (uAAu.mass_eq hc 1) (uAAu.mass_eq hc 2) (.inr ⟨m1, rfl⟩) (.inr ⟨m2, rfl⟩)
    simp only [uAAu.termPM, uAAu.formPM, v1z2z3, v2z0z1, v5z0z2, v6z1z3, v13z1z2]
  have amMP : ∀ (s0 : Fin 2) (s3 : Fin 2), Cls.uAAu.m_amp.mean (uAAu.N c p) (callMean (uAAu.N c p) []) .c [spinOf s0, (-2), 2, spinOf s3] = (-1) * uAAu.react.bare c p 3 0 1 2 (uAAu.react.codePair c p 3 s3) (uAAu.react.codePair c p 0 s0) (lightE (legA (p 1) 0 0, legS (p 1) 0 1) 0) (lightE (legA (p 2) 0 0, legS (p 2) 0 1) 1) := by
    intro s0 s3
    rw [uAAu.ampMP, ← stMP (uAAu.react.codePair_bold hs h0 0 s0) (uAAu.react.codePair_bold hs h0 3 s3)]
    have v0z2z3 : (uAAu.N c p).v 0 [spinOf s3] = sb (legA (p 2) 0 0, legS (p 2) 0 1).2 (uAAu.react.codePair c p 3 s3).2 := bra_square (p := p) (m := uAAu.proc.massNum (uAAu.rho c)) (uAAu.mass_eq hc 2) (uAAu.mass_eq hc 3) (.inr ⟨m2, rfl⟩) (.inl ⟨m3, rfl⟩)
    have v3z0z1 : (uAAu.N c p).v 3 [spinOf s0] = ab (uAAu.react.codePair c p 0 s0).1 (legA (p 1) 0 0, legS (p 1) 0 1).1 := bra_angle (p := p) (m := uAAu.proc.massNum (uAAu.rho c)) (uAAu.mass_eq hc 0) (uAAu.mass_eq hc 1) (.inl ⟨m0, rfl⟩) (.inr ⟨m1, rfl⟩)
    have v4z0z2 : (uAAu.N c p).v 4 [spinOf s0] = sb (uAAu.react.codePair c p 0 s0).2 (legA (p 2) 0 0, legS (p 2) 0 1).2 := bra_square (p := p) (m := uAAu.proc.massNum (uAAu.rho c)) (uAAu.mass_eq hc 0) (uAAu.mass_eq hc 2) (.inl ⟨m0, rfl⟩) (.inr ⟨m2, rfl⟩)
    have v7z1z3 : (uAAu.N c p).v 7 [spinOf s3] = ab (legA (p 1) 0 0, legS (p 1) 0 1).1 (uAAu.react.codePair c p 3 s3).1 := bra_angle (p := p) (m := uAAu.proc.massNum (uAAu.rho c)) (uAAu.mass_eq hc 1) (uAAu.mass_eq hc 3) (.inr ⟨m1, rfl⟩) (.inl ⟨m3, rfl⟩)
    have v12z2z1 : (uAAu.N c p).v 12 [] = mb (legA (p 2) 0 0, legS (p 2) 0 1).2 (p 3) (legA (p 1) 0 0, legS (p 1) 0 1).1 := bra_mid_square (p := p) (m := uAAu.proc.massNum (uAAu.rho c)) (uAAu.mass_eq hc 2) (uAAu.mass_eq hc 1) (.inr ⟨m2, rfl⟩) (.inr ⟨m1, rfl⟩)
    simp only [uAAu.termMP, uAAu.formMP, v0z2z3, v3z0z1, v4z0z2, v7z1z3, v12z2z1]
  have amMM : ∀ (s0 : Fin 2) (s3 : Fin 2), Cls.uAAu.m_amp.mean (uAAu.N c p) (callMean (uAAu.N c p) []) .c [spinOf s0, (-2), (-2), spinOf s3] = 1 * uAAu.react.bare c p 3 0 1 2 (uAAu.react.codePair c p 3 s3) (uAAu.react.codePair c p 0 s0) (lightE (legA (p 1) 0 0, legS (p 1) 0 1) 0) (lightE (legA (p 2) 0 0, legS (p 2) 0 1) 0) := by
    intro s0 s3
    rw [uAAu.ampMM, ← stMM (uAAu.react.codePair_bold hs h0 0 s0) (uAAu.react.codePair_bold hs h0 3 s3)]
    have v9z1z2 : (uAAu.N c p).v 9 [] = ab (legA (p 1) 0 0, legS (p 1) 0 1).1 (legA (p 2) 0 0, legS (p 2) 0 1).1 := bra_angle (p := p) (m := uAAu.proc.massNum (uAAu.rho c)) (uAAu.mass_eq hc 1) (uAAu.mass_eq hc 2) (.inr ⟨m1, rfl⟩) (.inr ⟨m2, rfl⟩)
    have v10z0z3 : (uAAu.N c p).v 10 [spinOf s0, spinOf s3] = sb (uAAu.react.codePair c p 0 s0).2 (uAAu.react.codePair c p 3 s3).2 := bra_square (p := p) (m := uAAu.proc.massNum (uAAu.rho c)) (uAAu.mass_eq hc 0) (uAAu.mass_eq hc 3) (.inl ⟨m0, rfl⟩) (.inl ⟨m3, rfl⟩)
    simp only [uAAu.termMM, uAAu.formMM, v9z1z2, v10z0z3]
  refine ⟨n0, n1, fun n hn => ?_, fun n hn => ?_, ?_⟩
  · simp [hd] at hn
  · simp [hd] at hn
    rcases hn with rfl | rfl
    · exact n0
    · exact n1
  intro s0 s3 h1 h2
  match h1, h2 with
  | 1, 1 => exact norm_plus (amPP s0 s3)
  | 1, 0 => exact norm_minus (amPM s0 s3)
  | 0, 1 => exact norm_minus (amMP s0 s3)
  | 0, 0 => exact norm_plus (amMM s0 s3)

variable [FPEnv] in
theorem uAAu.agrees : uAAu.Agrees := by
  refine agrees_of (D := []) (E := []) (by simp [all, uAAu]) (by decide +kernel) (by decide) (by decide +kernel) (fun c hc hh => ⟨List.forall_mem_nil _, List.forall_mem_nil _⟩) (fun c hc i => uAAu.mass_eq hc i) (by decide +kernel) ?_
  intro c p u ε hc hh hw h0 hs hb hr hu
  have he : uAAu.react.ends = [3] := by decide
  have ht : uAAu.react.starts = [0] := by decide
  have hB : uAAu.react.bosons = [1, 2] := by decide
  obtain ⟨n0, n1, d1, d2, am⟩ := uAAu.amps hc hh h0 hs hb hr hu
  refine ⟨d1, d2, ?_⟩
  show meaning (uAAu.N c p) .r Cls.uAAu.methods Cls.uAAu.amp2 [] = _
  have s0 : uAAu.react.states 0 = 6 := by decide +kernel
  have s1 : uAAu.react.states 1 = 2 := by decide +kernel
  have sy : uAAu.react.symmetry = 1 := by decide
  have p0 : uAAu.react.spins 0 = {0, 1} := rfl
  have p1 : uAAu.react.spins 1 = {0, 1} := rfl
  have p2 : uAAu.react.spins 2 = {0, 1} := rfl
  have p3 : uAAu.react.spins 3 = {0, 1} := rfl
  have E1 : uAAu.react.codeE c p 1 = lightE (legA (p 1) 0 0, legS (p 1) 0 1) := rfl
  have E2 : uAAu.react.codeE c p 2 = lightE (legA (p 2) 0 0, legS (p 2) 0 1) := rfl
  have hG : uAAu.react.Gauge c p := (uAAu.react.gauge_line he ht hB hh (by decide) (fun n => onShell_msq (hs n)) hb hr (fun n m h h2 => absurd (And.intro h h2) (by revert n m; decide)) (fun _ => ⟨rfl, rfl⟩) (fun _ => ⟨rfl, rfl⟩))
  have lc : uAAu.react.lineColours 3 0 = 3 := by decide +kernel
  rw [uAAu.value, uAAu.react.squared_line he ht hB (by decide) hs h0 (fun _ b _ hb _ => (boson_pos hc hh hb).ne') hG (E := uAAu.react.codeE c p) (fun n b hl => uAAu.react.codeE_polarised hs h0 hu (fun b hb => (boson_pos hc hh hb).ne') n b hl) hu, sum_colours, lc, s0, s1, sy]
  simp only [sumV_sum, sumJ_sum, sumW_sum, am, p0, p1, p2, p3, E1, E2, Finset.sum_singleton, sum_two, Matrix.cons_val_zero, Matrix.cons_val_one, Matrix.cons_val, two_castSucc]
  try simp only [← Finset.mul_sum]
  push_cast
  first | ring1 | ring_nf

/-! ### dAAd -/

/-- what the methods of the class see -/
noncomputable abbrev dAAd.N [FPEnv] (c : Constants) (p : Nat → V4 ℝ) : Env := dAAd.proc.env (dAAd.rho c) p
/-- `amp` for a photon of positive helicity and a photon of positive helicity (SM/dAAd.cpp) -/
noncomputable def dAAd.termPP (N : Env) (j1 j4 : Int) : ℂ :=
  ((((((((((((((2 : Nat) : ℝ) * N.r 0) * N.r 0) * N.r 1) * N.r 1) * N.r 2) : ℝ) : ℂ) * N.v 8 []) * N.v 8 []) * N.v 11 [j1, j4]) / N.c 1) / N.c 0)
/-- the same with spinors in place of their spins -/
noncomputable def dAAd.formPP (N : Env) (p : Nat → V4 ℝ) (z0 z1 z2 z3 : Pair) : ℂ :=
  ((((((((((((((2 : Nat) : ℝ) * N.r 0) * N.r 0) * N.r 1) * N.r 1) * N.r 2) : ℝ) : ℂ) * (sb z1.2 z2.2)) * (sb z1.2 z2.2)) * (ab z0.1 z3.1)) / N.c 1) / N.c 0)
/-- `amp` for a photon of positive helicity and a photon of negative helicity (SM/dAAd.cpp) -/
noncomputable def dAAd.termPM (N : Env) (j1 j4 : Int) : ℂ :=
  (((((((((((-((2 : Nat) : ℝ)) * N.r 0) * N.r 0) * N.r 1) * N.r 1) : ℝ) : ℂ) * ((N.v 1 [j4] * N.v 2 [j1]) - (N.v 5 [j1] * N.v 6 [j4]))) * N.v 13 []) / N.c 1) / N.c 0)
/-- the same with spinors in place of their spins -/
noncomputable def dAAd.formPM (N : Env) (p : Nat → V4 ℝ) (z0 z1 z2 z3 : Pair) : ℂ :=
  (((((((((((-((2 : Nat) : ℝ)) * N.r 0) * N.r 0) * N.r 1) * N.r 1) : ℝ) : ℂ) * (((ab z2.1 z3.1) * (sb z0.2 z1.2)) - ((ab z0.1 z2.1) * (sb z1.2 z3.2)))) * (mb z1.2 (p 3) z2.1)) / N.c 1) / N.c 0)
/-- `amp` for a photon of negative helicity and a photon of positive helicity (SM/dAAd.cpp) -/
noncomputable def dAAd.termMP (N : Env) (j1 j4 : Int) : ℂ :=
  (((((((((((-((2 : Nat) : ℝ)) * N.r 0) * N.r 0) * N.r 1) * N.r 1) : ℝ) : ℂ) * ((N.v 0 [j4] * N.v 3 [j1]) - (N.v 4 [j1] * N.v 7 [j4]))) * N.v 12 []) / N.c 1) / N.c 0)
/-- the same with spinors in place of their spins -/
noncomputable def dAAd.formMP (N : Env) (p : Nat → V4 ℝ) (z0 z1 z2 z3 : Pair) : ℂ :=
  (((((((((((-((2 : Nat) : ℝ)) * N.r 0) * N.r 0) * N.r 1) * N.r 1) : ℝ) : ℂ) * (((sb z2.2 z3.2) * (ab z0.1 z1.1)) - ((sb z0.2 z2.2) * (ab z1.1 z3.1)))) * (mb z2.2 (p 3) z1.1)) / N.c 1) / N.c 0)
/-- `amp` for a photon of negative helicity and a photon of negative helicity (SM/dAAd.cpp) -/
noncomputable def dAAd.termMM (N : Env) (j1 j4 : Int) : ℂ :=
  (((((((((((((-((2 : Nat) : ℝ)) * N.r 0) * N.r 0) * N.r 1) * N.r 1) * N.r 2) : ℝ) : ℂ) * N.v 9 []) * N.v 9 []) * N.v 10 [j1, j4]) / N.c 1) / N.c 0)
/-- the same with spinors in place of their spins -/
noncomputable def dAAd.formMM (N : Env) (p : Nat → V4 ℝ) (z0 z1 z2 z3 : Pair) : ℂ :=
  (((((((((((((-((2 : Nat) : ℝ)) * N.r 0) * N.r 0) * N.r 1) * N.r 1) * N.r 2) : ℝ) : ℂ) * (ab z1.1 z2.1)) * (ab z1.1 z2.1)) * (sb z0.2 z3.2)) / N.c 1) / N.c 0)
theorem dAAd.keyPP {c : Constants} {p : Nat → V4 ℝ} {N : Env} (hc : c.Physical) (hb : Balanced p) (r0 : N.r 0 = c.e) (r1 : N.r 1 = ((-((1 : Nat) : ℝ)) / ((3 : Nat) : ℝ))) (r2 : N.r 2 = (c.mass .d)) (d0 : ((msq (plus (p 0) (backward (p 2))) - c.mass .d ^ 2 : ℝ) : ℂ) = N.c 0) (n0 : N.c 0 ≠ 0) (d1 : ((msq (plus (p 0) (p 1)) - c.mass .d ^ 2 : ℝ) : ℂ) = N.c 1) (n1 : N.c 1 ≠ 0) {z0 z1 z2 z3 : Pair} (b0 : Bold (p 0) (c.mass .d) z0) (b3 : Bold (p 3) (c.mass .d) z3) (l1 : Light (p 1) z1) (l2 : Light (p 2) z2) (e10 : mb z1.2 (p 0) z1.1 = N.c 1) (e13 : mb z1.2 (p 3) z1.1 = -N.c 0) (e20 : mb z2.2 (p 0) z2.1 = -N.c 0) (e23 : mb z2.2 (p 3) z2.1 = N.c 1) (q0 : msq (p 0) = (c.mass .d) ^ 2) (q3 : msq (p 3) = (c.mass .d) ^ 2) (ρ1 ρ2 : V2) :
    dAAd.formPP N p z0 z1 z2 z3 * ab ρ1 z1.1 * ab ρ2 z2.1 = ((√2 : ℝ) * ((√2 : ℝ) * (1 : ℂ))) * dAAd.react.bare c p 3 0 1 2 z3 z0 (pv ρ1 z1.2) (pv ρ2 z2.2) := by
  rw [dAAd.react.bare_parts c p (i := 3) (j := 0) (a := 1) (b := 2) (x := .photon) (y := .photon) (k := (p 1)) (k' := (backward (p 2))) (fun _ => rfl) (fun _ => rfl) (f := .d) (g := .d) rfl rfl (l := (p 0)) rfl (e := 1) (e' := 1) (if_neg Bool.false_ne_true) (if_neg Bool.false_ne_true)]
  rw [compton_vv (f := .d) (x := .d) (g := .d) (h := (rfl : Spec.after .photon Flavour.d = some Flavour.d)) (h' := (rfl : Spec.after .photon Flavour.d = some Flavour.d)) (ha := by simp) (hb := by simp)]
  rw [compton_vv (f := .d) (x := .d) (g := .d) (h := (rfl : Spec.after .photon Flavour.d = some Flavour.d)) (h' := (rfl : Spec.after .photon Flavour.d = some Flavour.d)) (ha := by simp) (hb := by simp)]
  rw [annihilation_none c _ _ (by rfl) (by simp), star_zero, add_zero, dAAd.formPP]
  simp only [d0, d1, lineV_pv, lineV_four, contract_four_pv, contract_pv, mb_plus, mb_backward]
  have i0 := ab_schouten z1.1 z3.1 ρ1 z0.1
  have i1 := mb_schouten_left z0.2 z1.2 z2.2 (p 0) ρ1
  have i2 := mb_schouten_right z1.2 (p 0) z1.1 z3.1 ρ2
  have i3 := ab_schouten z2.1 ρ1 ρ2 z1.1
  have i4 := mb_schouten_left z0.2 z1.2 z2.2 (p 0) z1.1
  have i5 := mb_schouten_right z2.2 (p 0) z1.1 z3.1 ρ1
  have i6 := mb_schouten_right z0.2 (p 3) z1.1 z3.1 ρ1
  have i7 := ab_schouten z2.1 z3.1 ρ1 z1.1
  have i8 := sb_schouten z1.2 z2.2 z3.2 z0.2
  have i9 := ab_schouten z3.1 ρ1 ρ2 z2.1
  have i10 := mb_schouten_right z1.2 (p 3) z0.1 z1.1 ρ1
  have i11 := mb_schouten_right z1.2 (p 0) z0.1 z1.1 ρ1
  have i12 := mb_schouten_right z1.2 (p 0) z3.1 ρ1 ρ2
  have i13 := mb_schouten_right z1.2 (p 0) z0.1 z1.1 z3.1
  have i14 := ab_schouten z3.1 ρ1 ρ2 z0.1
  have i15 := mb_schouten_right z1.2 (p 3) z1.1 z3.1 ρ1
  have i16 := mb_schouten_right z1.2 (p 0) z0.1 z1.1 ρ2
  have i17 := mb_schouten_left z1.2 z2.2 z3.2 (p 0) z1.1
  have i18 := ab_schouten z1.1 z2.1 ρ1 z0.1
  have i19 := mb_schouten_right z1.2 (p 3) z1.1 z3.1 ρ2
  have i20 := mb_schouten_right z2.2 (p 0) z0.1 z1.1 ρ1
  have i21 := mb_schouten_right z1.2 (p 0) z1.1 z3.1 ρ1
  have i22 := mb_schouten_left z0.2 z1.2 z2.2 (p 0) z2.1
  have i23 := mb_schouten_right z1.2 (p 0) z1.1 z2.1 z3.1
  have i24 := mb_schouten_right z1.2 (p 0) z0.1 ρ1 ρ2
  have i25 := mb_schouten_right z0.2 (p 3) z3.1 ρ1 ρ2
  have i26 := mb_schouten_right z1.2 (p 3) z0.1 z1.1 z3.1
  have i27 := mb_schouten_right z0.2 (p 3) z1.1 z2.1 z3.1
  have i28 := mb_schouten_right z1.2 (p 0) z1.1 z2.1 ρ2
  have i29 := ab_schouten z3.1 ρ1 ρ2 z1.1
  have i30 := mb_schouten_right z1.2 (p 0) z0.1 z2.1 ρ2
  have i31 := mb_schouten_right z1.2 (p 3) z0.1 z1.1 ρ2
  have i32 := mb_schouten_right z1.2 (p 0) z0.1 z1.1 z2.1
  have i33 := ab_schouten z2.1 ρ1 ρ2 z0.1
  have i34 := mb_schouten_right z1.2 (p 0) z0.1 z2.1 ρ1
  have i35 := ab_schouten z1.1 ρ1 ρ2 z0.1
  have i36 := mb_schouten_right z2.2 (p 0) z1.1 z2.1 z3.1
  simp only [l1.mb_eq, l2.mb_eq, b0.mb_left, b0.mb_right, b3.mb_left, b3.mb_right, e10, e13, e20, e23, mb_three hb z0.2 z0.1, mb_three hb z0.2 z1.1, mb_three hb z0.2 z2.1, mb_three hb z0.2 ρ1, mb_three hb z0.2 ρ2, mb_three hb z1.2 z0.1, mb_three hb z1.2 z2.1, mb_nought hb z1.2 z3.1, mb_three hb z1.2 ρ1, mb_three hb z1.2 ρ2, mb_three hb z2.2 z0.1, mb_three hb z2.2 z1.1, mb_nought hb z2.2 z3.1, mb_three hb z2.2 ρ1, mb_three hb z2.2 ρ2, mb_nought hb z3.2 z1.1, mb_nought hb z3.2 z2.1, mb_nought hb z3.2 z3.1, mb_nought hb z3.2 ρ1, mb_nought hb z3.2 ρ2, ab_self, sb_self] at i0 i1 i2 i3 i4 i5 i6 i7 i8 i9 i10 i11 i12 i13 i14 i15 i16 i17 i18 i19 i20 i21 i22 i23 i24 i25 i26 i27 i28 i29 i30 i31 i32 i33 i34 i35 i36 ⊢
  simp only [ab_swap z0.1 z1.1, ab_swap z0.1 z2.1, ab_swap z0.1 z3.1, ab_swap z0.1 ρ1, ab_swap z0.1 ρ2, ab_swap z1.1 z2.1, ab_swap z1.1 z3.1, ab_swap z1.1 ρ1, ab_swap z1.1 ρ2, ab_swap z2.1 z3.1, ab_swap z2.1 ρ1, ab_swap z2.1 ρ2, ab_swap z3.1 ρ1, ab_swap z3.1 ρ2, ab_swap ρ1 ρ2, sb_swap z0.2 z1.2, sb_swap z0.2 z2.2, sb_swap z0.2 z3.2, sb_swap z1.2 z2.2, sb_swap z1.2 z3.2, sb_swap z2.2 z3.2] at i0 i1 i2 i3 i4 i5 i6 i7 i8 i9 i10 i11 i12 i13 i14 i15 i16 i17 i18 i19 i20 i21 i22 i23 i24 i25 i26 i27 i28 i29 i30 i31 i32 i33 i34 i35 i36 ⊢
  simp only [r0, r1, r2, Constants.hL, Constants.hR, Constants.gL, Constants.gR, Constants.yuk, Constants.invVev, Flavour.charge_d, Flavour.isospin_d, ← c.mz]
  have xMW : (c.MW : ℂ) ≠ 0 := by exact_mod_cast hc.MW
  have xSW : (c.SW : ℂ) ≠ 0 := by exact_mod_cast hc.SW
  have xCW : (c.CW : ℂ) ≠ 0 := by exact_mod_cast hc.CW
  have x2 : ((√2 : ℝ) : ℂ) ≠ 0 := by exact_mod_cast (Real.sqrt_pos.2 two_pos).ne'
  have x22 : ((√2 : ℝ) : ℂ) ^ 2 = 2 := by rw [← Complex.ofReal_pow, Real.sq_sqrt two_pos.le]; norm_num
  have x23 : ((√2 : ℝ) : ℂ) ^ 3 = 2 * ((√2 : ℝ) : ℂ) := by rw [← x22]; ring
  have x24 : ((√2 : ℝ) : ℂ) ^ 4 = 4 := by linear_combination (((√2 : ℝ) : ℂ) ^ 2 + 2) * x22
  push_cast at i0 i1 i2 i3 i4 i5 i6 i7 i8 i9 i10 i11 i12 i13 i14 i15 i16 i17 i18 i19 i20 i21 i22 i23 i24 i25 i26 i27 i28 i29 i30 i31 i32 i33 i34 i35 i36 ⊢
  have y0 := mul_inv_cancel₀ n0
  have y1 := mul_inv_cancel₀ n1
  linear_combination ((((-2) * ((c.e : ℂ)) ^ 2 * ((c.mass .d : ℂ)) * (ab z2.1 ρ2) * (sb z1.2 z2.2) ^ 2) * i0 + ((4) * ((c.e : ℂ)) ^ 2 * (N.c 0) * (ab z3.1 ρ2)) * i1 + ((2) * ((c.e : ℂ)) ^ 2 * (ab z1.1 ρ1) * (sb z0.2 z1.2) * (sb z1.2 z2.2) + (-2) * ((c.e : ℂ)) ^ 2 * (ab z2.1 ρ1) * (sb z0.2 z2.2) * (sb z1.2 z2.2)) * i2 + ((-4) * ((c.e : ℂ)) ^ 2 * ((c.mass .d : ℂ)) * (sb z0.2 z1.2) * (sb z1.2 z2.2) * (sb z2.2 z3.2) + (2) * ((c.e : ℂ)) ^ 2 * ((c.mass .d : ℂ)) * (sb z0.2 z2.2) * (sb z1.2 z2.2) * (sb z1.2 z3.2) + (2) * ((c.e : ℂ)) ^ 2 * (ab z1.1 z3.1) * (sb z0.2 z1.2) * (sb z1.2 z2.2) ^ 2 + (-2) * ((c.e : ℂ)) ^ 2 * (ab z2.1 z3.1) * (sb z0.2 z2.2) * (sb z1.2 z2.2) ^ 2) * i3 + ((-2) * ((c.e : ℂ)) ^ 2 * (ab z2.1 ρ1) * (ab z3.1 ρ2) * (sb z1.2 z2.2) + (2) * ((c.e : ℂ)) ^ 2 * (ab z3.1 ρ1) * (mb z1.2 (p 0) ρ2)) * i4 + ((2) * ((c.e : ℂ)) ^ 2 * (ab z2.1 ρ2) * (sb z0.2 z1.2) * (sb z1.2 z2.2) + (-2) * ((c.e : ℂ)) ^ 2 * (mb z1.2 (p 0) ρ2) * (sb z0.2 z1.2)) * i5 + ((2) * ((c.e : ℂ)) ^ 2 * (ab z2.1 ρ2) * (sb z1.2 z2.2) ^ 2 + (-2) * ((c.e : ℂ)) ^ 2 * (mb z1.2 (p 0) ρ2) * (sb z1.2 z2.2)) * i6 + ((-2) * ((c.e : ℂ)) ^ 2 * (ab z2.1 ρ2) * (sb z0.2 z2.2) * (sb z1.2 z2.2) ^ 2 + (4) * ((c.e : ℂ)) ^ 2 * (mb z1.2 (p 0) ρ2) * (sb z0.2 z2.2) * (sb z1.2 z2.2)) * i7 + ((4) * ((c.e : ℂ)) ^ 2 * ((c.mass .d : ℂ)) * (N.c 0) * (ab ρ1 ρ2) + (2) * ((c.e : ℂ)) ^ 2 * ((c.mass .d : ℂ)) * (N.c 1) * (ab ρ1 ρ2) + (4) * ((c.e : ℂ)) ^ 2 * ((c.mass .d : ℂ)) * (ab z1.1 z2.1) * (ab ρ1 ρ2) * (sb z1.2 z2.2) + (-2) * ((c.e : ℂ)) ^ 2 * ((c.mass .d : ℂ)) * (ab z1.1 ρ1) * (ab z2.1 ρ2) * (sb z1.2 z2.2) + (2) * ((c.e : ℂ)) ^ 2 * ((c.mass .d : ℂ)) * (ab z1.1 ρ1) * (mb z1.2 (p 0) ρ2)) * i8 + ((4) * ((c.e : ℂ)) ^ 2 * (N.c 0) * (sb z0.2 z2.2) * (sb z1.2 z2.2) + (2) * ((c.e : ℂ)) ^ 2 * (N.c 1) * (sb z0.2 z2.2) * (sb z1.2 z2.2) + (-2) * ((c.e : ℂ)) ^ 2 * (mb z2.2 (p 0) z1.1) * (sb z0.2 z1.2) * (sb z1.2 z2.2)) * i9 + ((-2) * ((c.e : ℂ)) ^ 2 * ((c.mass .d : ℂ)) * (ab z3.1 ρ2) * (sb z1.2 z2.2) + (4) * ((c.e : ℂ)) ^ 2 * (mb z1.2 (p 0) ρ2) * (sb z2.2 z3.2)) * i10 + ((2) * ((c.e : ℂ)) ^ 2 * ((c.mass .d : ℂ)) * (ab z3.1 ρ2) * (sb z1.2 z2.2) + (-2) * ((c.e : ℂ)) ^ 2 * (ab z2.1 ρ2) * (sb z1.2 z2.2) * (sb z2.2 z3.2) + (-4) * ((c.e : ℂ)) ^ 2 * (mb z1.2 (p 0) ρ2) * (sb z2.2 z3.2)) * i11 + ((-4) * ((c.e : ℂ)) ^ 2 * (N.c 0) * (sb z0.2 z2.2)) * i12 + ((-4) * ((c.e : ℂ)) ^ 2 * ((c.mass .d : ℂ)) * (ab ρ1 ρ2) * (sb z1.2 z2.2)) * i13 + ((-4) * ((c.e : ℂ)) ^ 2 * ((c.mass .d : ℂ)) * (N.c 0) * (sb z1.2 z2.2) + (-4) * ((c.e : ℂ)) ^ 2 * ((c.mass .d : ℂ)) * (N.c 1) * (sb z1.2 z2.2)) * i14 + ((2) * ((c.e : ℂ)) ^ 2 * (ab z1.1 ρ2) * (sb z0.2 z1.2) * (sb z1.2 z2.2) + (-4) * ((c.e : ℂ)) ^ 2 * (mb z1.2 (p 0) ρ2) * (sb z0.2 z2.2)) * i15 + ((2) * ((c.e : ℂ)) ^ 2 * (ab z2.1 ρ1) * (sb z1.2 z2.2) * (sb z2.2 z3.2) + (2) * ((c.e : ℂ)) ^ 2 * (mb z1.2 (p 0) ρ1) * (sb z2.2 z3.2) + (-2) * ((c.e : ℂ)) ^ 2 * (mb z2.2 (p 0) ρ1) * (sb z1.2 z3.2)) * i16 + ((-2) * ((c.e : ℂ)) ^ 2 * (ab z0.1 ρ1) * (mb z1.2 (p 0) ρ2)) * i17 + ((2) * ((c.e : ℂ)) ^ 2 * (mb z1.2 (p 0) ρ2) * (sb z1.2 z2.2) * (sb z2.2 z3.2)) * i18 + ((-2) * ((c.e : ℂ)) ^ 2 * (ab z1.1 ρ1) * (sb z0.2 z1.2) * (sb z1.2 z2.2) + (2) * ((c.e : ℂ)) ^ 2 * (mb z2.2 (p 0) ρ1) * (sb z0.2 z1.2)) * i19 + ((2) * ((c.e : ℂ)) ^ 2 * (mb z1.2 (p 0) ρ2) * (sb z1.2 z3.2)) * i20 + ((-2) * ((c.e : ℂ)) ^ 2 * (ab z1.1 ρ2) * (sb z0.2 z1.2) * (sb z1.2 z2.2) + (4) * ((c.e : ℂ)) ^ 2 * (mb z1.2 (p 0) ρ2) * (sb z0.2 z2.2)) * i21 + ((2) * ((c.e : ℂ)) ^ 2 * (ab z1.1 ρ1) * (ab z3.1 ρ2) * (sb z1.2 z2.2)) * i22 + ((-2) * ((c.e : ℂ)) ^ 2 * (ab ρ1 ρ2) * (sb z0.2 z2.2) * (sb z1.2 z2.2)) * i23 + ((-2) * ((c.e : ℂ)) ^ 2 * (N.c 0) * (sb z2.2 z3.2) + (-2) * ((c.e : ℂ)) ^ 2 * (N.c 1) * (sb z2.2 z3.2)) * i24 + ((4) * ((c.e : ℂ)) ^ 2 * (N.c 0) * (sb z1.2 z2.2) + (2) * ((c.e : ℂ)) ^ 2 * (N.c 1) * (sb z1.2 z2.2)) * i25 + ((4) * ((c.e : ℂ)) ^ 2 * ((c.mass .d : ℂ)) * (ab ρ1 ρ2) * (sb z1.2 z2.2)) * i26 + ((4) * ((c.e : ℂ)) ^ 2 * (ab ρ1 ρ2) * (sb z1.2 z2.2) ^ 2) * i27 + ((-2) * ((c.e : ℂ)) ^ 2 * (ab z3.1 ρ1) * (sb z0.2 z2.2) * (sb z1.2 z2.2)) * i28 + ((-2) * ((c.e : ℂ)) ^ 2 * (N.c 0) * (sb z0.2 z1.2) * (sb z1.2 z2.2) + (-2) * ((c.e : ℂ)) ^ 2 * (mb z1.2 (p 0) z2.1) * (sb z0.2 z2.2) * (sb z1.2 z2.2)) * i29 + ((-2) * ((c.e : ℂ)) ^ 2 * (ab z1.1 ρ1) * (sb z1.2 z2.2) * (sb z2.2 z3.2)) * i30 + ((-2) * ((c.e : ℂ)) ^ 2 * (mb z1.2 (p 0) ρ1) * (sb z2.2 z3.2)) * i31 + ((2) * ((c.e : ℂ)) ^ 2 * (ab ρ1 ρ2) * (sb z1.2 z2.2) * (sb z2.2 z3.2)) * i32 + ((2) * ((c.e : ℂ)) ^ 2 * (N.c 1) * (sb z1.2 z2.2) * (sb z2.2 z3.2)) * i33 + ((2) * ((c.e : ℂ)) ^ 2 * (ab z1.1 ρ2) * (sb z1.2 z2.2) * (sb z2.2 z3.2)) * i34 + ((-2) * ((c.e : ℂ)) ^ 2 * (mb z1.2 (p 0) z2.1) * (sb z1.2 z2.2) * (sb z2.2 z3.2)) * i35 + ((2) * ((c.e : ℂ)) ^ 2 * (ab ρ1 ρ2) * (sb z0.2 z1.2) * (sb z1.2 z2.2)) * i36)) * ((1) * ((N.c 0)⁻¹) * ((N.c 1)⁻¹) / (9)) + ((-2) * ((c.e : ℂ)) ^ 2 * ((c.mass .d : ℂ)) * ((N.c 1)⁻¹) * (ab z0.1 ρ1) * (ab z3.1 ρ2) * (sb z1.2 z2.2) / (9) + (-2) * ((c.e : ℂ)) ^ 2 * ((c.mass .d : ℂ)) * ((N.c 1)⁻¹) * (ab ρ1 ρ2) * (sb z0.2 z1.2) * (sb z2.2 z3.2) / (9) + (-2) * ((c.e : ℂ)) ^ 2 * ((N.c 1)⁻¹) * (ab z0.1 ρ1) * (mb z1.2 (p 0) ρ2) * (sb z2.2 z3.2) / (9) + (2) * ((c.e : ℂ)) ^ 2 * ((N.c 1)⁻¹) * (ab z1.1 ρ1) * (ab z3.1 ρ2) * (sb z0.2 z1.2) * (sb z1.2 z2.2) / (9) + (-2) * ((c.e : ℂ)) ^ 2 * ((N.c 1)⁻¹) * (ab z3.1 ρ2) * (mb z2.2 (p 0) ρ1) * (sb z0.2 z1.2) / (9)) * y0 + ((2) * ((c.e : ℂ)) ^ 2 * ((c.mass .d : ℂ)) * ((N.c 0)⁻¹) * (ab z0.1 ρ2) * (ab z3.1 ρ1) * (sb z1.2 z2.2) / (9) + (2) * ((c.e : ℂ)) ^ 2 * ((c.mass .d : ℂ)) * ((N.c 0)⁻¹) * (ab ρ1 ρ2) * (sb z0.2 z2.2) * (sb z1.2 z3.2) / (9) + (-2) * ((c.e : ℂ)) ^ 2 * ((N.c 0)⁻¹) * (ab z0.1 ρ2) * (mb z2.2 (p 0) ρ1) * (sb z1.2 z3.2) / (9) + (2) * ((c.e : ℂ)) ^ 2 * ((N.c 0)⁻¹) * (ab z2.1 ρ2) * (ab z3.1 ρ1) * (sb z0.2 z2.2) * (sb z1.2 z2.2) / (9) + (-2) * ((c.e : ℂ)) ^ 2 * ((N.c 0)⁻¹) * (ab z3.1 ρ1) * (mb z1.2 (p 0) ρ2) * (sb z0.2 z2.2) / (9)) * y1 + ((-1) * ((c.e : ℂ)) ^ 2 * ((c.mass .d : ℂ)) * ((N.c 0)⁻¹) * (ab z0.1 ρ2) * (ab z3.1 ρ1) * (sb z1.2 z2.2) / (9) + (-1) * ((c.e : ℂ)) ^ 2 * ((c.mass .d : ℂ)) * ((N.c 0)⁻¹) * (ab ρ1 ρ2) * (sb z0.2 z2.2) * (sb z1.2 z3.2) / (9) + (1) * ((c.e : ℂ)) ^ 2 * ((c.mass .d : ℂ)) * ((N.c 1)⁻¹) * (ab z0.1 ρ1) * (ab z3.1 ρ2) * (sb z1.2 z2.2) / (9) + (1) * ((c.e : ℂ)) ^ 2 * ((c.mass .d : ℂ)) * ((N.c 1)⁻¹) * (ab ρ1 ρ2) * (sb z0.2 z1.2) * (sb z2.2 z3.2) / (9) + (1) * ((c.e : ℂ)) ^ 2 * ((N.c 0)⁻¹) * (ab z0.1 ρ2) * (mb z2.2 (p 0) ρ1) * (sb z1.2 z3.2) / (9) + (-1) * ((c.e : ℂ)) ^ 2 * ((N.c 0)⁻¹) * (ab z2.1 ρ2) * (ab z3.1 ρ1) * (sb z0.2 z2.2) * (sb z1.2 z2.2) / (9) + (1) * ((c.e : ℂ)) ^ 2 * ((N.c 0)⁻¹) * (ab z3.1 ρ1) * (mb z1.2 (p 0) ρ2) * (sb z0.2 z2.2) / (9) + (1) * ((c.e : ℂ)) ^ 2 * ((N.c 1)⁻¹) * (ab z0.1 ρ1) * (mb z1.2 (p 0) ρ2) * (sb z2.2 z3.2) / (9) + (-1) * ((c.e : ℂ)) ^ 2 * ((N.c 1)⁻¹) * (ab z1.1 ρ1) * (ab z3.1 ρ2) * (sb z0.2 z1.2) * (sb z1.2 z2.2) / (9) + (1) * ((c.e : ℂ)) ^ 2 * ((N.c 1)⁻¹) * (ab z3.1 ρ2) * (mb z2.2 (p 0) ρ1) * (sb z0.2 z1.2) / (9)) * x22
theorem dAAd.keyPM {c : Constants} {p : Nat → V4 ℝ} {N : Env} (hc : c.Physical) (hb : Balanced p) (r0 : N.r 0 = c.e) (r1 : N.r 1 = ((-((1 : Nat) : ℝ)) / ((3 : Nat) : ℝ))) (d0 : ((msq (plus (p 0) (backward (p 2))) - c.mass .d ^ 2 : ℝ) : ℂ) = N.c 0) (n0 : N.c 0 ≠ 0) (d1 : ((msq (plus (p 0) (p 1)) - c.mass .d ^ 2 : ℝ) : ℂ) = N.c 1) (n1 : N.c 1 ≠ 0) {z0 z1 z2 z3 : Pair} (b0 : Bold (p 0) (c.mass .d) z0) (b3 : Bold (p 3) (c.mass .d) z3) (l1 : Light (p 1) z1) (l2 : Light (p 2) z2) (e10 : mb z1.2 (p 0) z1.1 = N.c 1) (e13 : mb z1.2 (p 3) z1.1 = -N.c 0) (e20 : mb z2.2 (p 0) z2.1 = -N.c 0) (e23 : mb z2.2 (p 3) z2.1 = N.c 1) (q0 : msq (p 0) = (c.mass .d) ^ 2) (q3 : msq (p 3) = (c.mass .d) ^ 2) (ρ1 ρ2 : V2) :
    dAAd.formPM N p z0 z1 z2 z3 * ab ρ1 z1.1 * sb ρ2 z2.2 = ((√2 : ℝ) * ((√2 : ℝ) * (-1 : ℂ))) * dAAd.react.bare c p 3 0 1 2 z3 z0 (pv ρ1 z1.2) (pv z2.1 ρ2) := by
  rw [dAAd.react.bare_parts c p (i := 3) (j := 0) (a := 1) (b := 2) (x := .photon) (y := .photon) (k := (p 1)) (k' := (backward (p 2))) (fun _ => rfl) (fun _ => rfl) (f := .d) (g := .d) rfl rfl (l := (p 0)) rfl (e := 1) (e' := 1) (if_neg Bool.false_ne_true) (if_neg Bool.false_ne_true)]
  rw [compton_vv (f := .d) (x := .d) (g := .d) (h := (rfl : Spec.after .photon Flavour.d = some Flavour.d)) (h' := (rfl : Spec.after .photon Flavour.d = some Flavour.d)) (ha := by simp) (hb := by simp)]
  rw [compton_vv (f := .d) (x := .d) (g := .d) (h := (rfl : Spec.after .photon Flavour.d = some Flavour.d)) (h' := (rfl : Spec.after .photon Flavour.d = some Flavour.d)) (ha := by simp) (hb := by simp)]
  rw [annihilation_none c _ _ (by rfl) (by simp), star_zero, add_zero, dAAd.formPM]
  simp only [d0, d1, lineV_pv, lineV_four, contract_four_pv, contract_pv, mb_plus, mb_backward]
  have i0 := sb_schouten z1.2 z2.2 ρ2 z0.2
  have i1 := ab_schouten z2.1 z3.1 ρ1 z1.1
  have i2 := ab_schouten z1.1 z2.1 ρ1 z0.1
  have i3 := ab_schouten z2.1 z3.1 ρ1 z0.1
  have i4 := mb_schouten_right ρ2 (p 0) z1.1 z2.1 z3.1
  have i5 := mb_schouten_right ρ2 (p 0) z0.1 z1.1 z2.1
  have i6 := mb_schouten_right z1.2 (p 0) z0.1 z1.1 ρ1
  have i7 := sb_schouten z1.2 z3.2 ρ2 z0.2
  have i8 := mb_schouten_right z0.2 (p 3) z1.1 z2.1 z3.1
  have i9 := mb_schouten_left z0.2 z1.2 ρ2 (p 0) z2.1
  have i10 := mb_schouten_right z1.2 (p 0) z1.1 z2.1 z3.1
  have i11 := mb_schouten_right z1.2 (p 3) z1.1 z3.1 ρ1
  have i12 := mb_schouten_right z1.2 (p 3) z1.1 z2.1 z3.1
  have i13 := mb_schouten_left z0.2 z1.2 ρ2 (p 0) z1.1
  have i14 := mb_schouten_left z1.2 z3.2 ρ2 (p 0) z1.1
  have i15 := mb_schouten_right z1.2 (p 0) z0.1 z2.1 ρ1
  have i16 := sb_schouten z2.2 z3.2 ρ2 z1.2
  have i17 := mb_schouten_right z1.2 (p 0) z0.1 z1.1 z2.1
  have i18 := mb_schouten_right z1.2 (p 3) z0.1 z1.1 z2.1
  have i19 := mb_schouten_left z0.2 z1.2 z2.2 (p 0) z2.1
  have i20 := mb_schouten_right z1.2 (p 3) z1.1 z2.1 ρ1
  have i21 := mb_schouten_right z1.2 (p 3) z0.1 z1.1 ρ1
  have i22 := mb_schouten_right z1.2 (p 3) z0.1 z1.1 z3.1
  have i23 := mb_schouten_right z1.2 (p 0) z0.1 z1.1 z3.1
  have i24 := mb_schouten_right z1.2 (p 0) z2.1 z3.1 ρ1
  have i25 := mb_schouten_right z0.2 (p 3) z2.1 z3.1 ρ1
  have i26 := mb_schouten_left z0.2 z1.2 z2.2 (p 0) z1.1
  have i27 := mb_schouten_right z2.2 (p 0) z1.1 z2.1 z3.1
  have i28 := sb_schouten z1.2 z2.2 z3.2 z0.2
  have i29 := mb_schouten_right ρ2 (p 0) z0.1 z2.1 ρ1
  have i30 := mb_schouten_right z1.2 (p 0) z1.1 z2.1 ρ1
  have i31 := mb_schouten_right ρ2 (p 0) z1.1 z3.1 ρ1
  have i32 := mb_schouten_right ρ2 (p 0) z0.1 z1.1 ρ1
  have i33 := mb_schouten_right z1.2 (p 0) z1.1 z3.1 ρ1
  simp only [l1.mb_eq, l2.mb_eq, b0.mb_left, b0.mb_right, b3.mb_left, b3.mb_right, e10, e13, e20, e23, mb_three hb z0.2 z0.1, mb_three hb z0.2 z1.1, mb_three hb z0.2 z2.1, mb_three hb z0.2 ρ1, mb_three hb z1.2 z0.1, mb_three hb z1.2 z2.1, mb_nought hb z1.2 z3.1, mb_three hb z1.2 ρ1, mb_three hb z2.2 z0.1, mb_three hb z2.2 z1.1, mb_nought hb z2.2 z3.1, mb_three hb z2.2 ρ1, mb_nought hb z3.2 z1.1, mb_nought hb z3.2 z2.1, mb_nought hb z3.2 z3.1, mb_nought hb z3.2 ρ1, mb_three hb ρ2 z0.1, mb_three hb ρ2 z1.1, mb_three hb ρ2 z2.1, mb_nought hb ρ2 z3.1, mb_three hb ρ2 ρ1, ab_self, sb_self] at i0 i1 i2 i3 i4 i5 i6 i7 i8 i9 i10 i11 i12 i13 i14 i15 i16 i17 i18 i19 i20 i21 i22 i23 i24 i25 i26 i27 i28 i29 i30 i31 i32 i33 ⊢
  simp only [ab_swap z0.1 z1.1, ab_swap z0.1 z2.1, ab_swap z0.1 z3.1, ab_swap z0.1 ρ1, ab_swap z1.1 z2.1, ab_swap z1.1 z3.1, ab_swap z1.1 ρ1, ab_swap z2.1 z3.1, ab_swap z2.1 ρ1, ab_swap z3.1 ρ1, sb_swap z0.2 z1.2, sb_swap z0.2 z2.2, sb_swap z0.2 z3.2, sb_swap z0.2 ρ2, sb_swap z1.2 z2.2, sb_swap z1.2 z3.2, sb_swap z1.2 ρ2, sb_swap z2.2 z3.2, sb_swap z2.2 ρ2, sb_swap z3.2 ρ2] at i0 i1 i2 i3 i4 i5 i6 i7 i8 i9 i10 i11 i12 i13 i14 i15 i16 i17 i18 i19 i20 i21 i22 i23 i24 i25 i26 i27 i28 i29 i30 i31 i32 i33 ⊢
  simp only [r0, r1, Constants.hL, Constants.hR, Constants.gL, Constants.gR, Constants.yuk, Constants.invVev, Flavour.charge_d, Flavour.isospin_d, ← c.mz]
  have xMW : (c.MW : ℂ) ≠ 0 := by exact_mod_cast hc.MW
  have xSW : (c.SW : ℂ) ≠ 0 := by exact_mod_cast hc.SW
  have xCW : (c.CW : ℂ) ≠ 0 := by exact_mod_cast hc.CW
  have x2 : ((√2 : ℝ) : ℂ) ≠ 0 := by exact_mod_cast (Real.sqrt_pos.2 two_pos).ne'
  have x22 : ((√2 : ℝ) : ℂ) ^ 2 = 2 := by rw [← Complex.ofReal_pow, Real.sq_sqrt two_pos.le]; norm_num
  have x23 : ((√2 : ℝ) : ℂ) ^ 3 = 2 * ((√2 : ℝ) : ℂ) := by rw [← x22]; ring
  have x24 : ((√2 : ℝ) : ℂ) ^ 4 = 4 := by linear_combination (((√2 : ℝ) : ℂ) ^ 2 + 2) * x22
  push_cast at i0 i1 i2 i3 i4 i5 i6 i7 i8 i9 i10 i11 i12 i13 i14 i15 i16 i17 i18 i19 i20 i21 i22 i23 i24 i25 i26 i27 i28 i29 i30 i31 i32 i33 ⊢
  have y0 := mul_inv_cancel₀ n0
  have y1 := mul_inv_cancel₀ n1
  linear_combination ((((-4) * ((c.e : ℂ)) ^ 2 * (N.c 0) * (ab z2.1 z3.1) * (ab z2.1 ρ1) + (-2) * ((c.e : ℂ)) ^ 2 * (N.c 1) * (ab z2.1 z3.1) * (ab z2.1 ρ1) + (-2) * ((c.e : ℂ)) ^ 2 * (ab z1.1 z2.1) * (ab z2.1 z3.1) * (mb z1.2 (p 0) ρ1) + (2) * ((c.e : ℂ)) ^ 2 * (ab z1.1 z2.1) * (ab z3.1 ρ1) * (mb z1.2 (p 0) z2.1) + (-2) * ((c.e : ℂ)) ^ 2 * (ab z1.1 z3.1) * (ab z2.1 ρ1) * (mb z1.2 (p 0) z2.1)) * i0 + ((-6) * ((c.e : ℂ)) ^ 2 * (N.c 0) * (sb z0.2 z1.2) * (sb z1.2 ρ2) + (-2) * ((c.e : ℂ)) ^ 2 * (N.c 1) * (sb z0.2 z1.2) * (sb z1.2 ρ2) + (-2) * ((c.e : ℂ)) ^ 2 * (mb z1.2 (p 0) z2.1) * (sb z0.2 z1.2) * (sb z2.2 ρ2) + (-2) * ((c.e : ℂ)) ^ 2 * (mb z1.2 (p 0) z2.1) * (sb z0.2 ρ2) * (sb z1.2 z2.2)) * i1 + ((-4) * ((c.e : ℂ)) ^ 2 * (mb z1.2 (p 0) z2.1) * (sb z1.2 z2.2) * (sb z3.2 ρ2) + (-2) * ((c.e : ℂ)) ^ 2 * (mb z1.2 (p 0) z2.1) * (sb z1.2 z3.2) * (sb z2.2 ρ2)) * i2 + ((-2) * ((c.e : ℂ)) ^ 2 * ((c.mass .d : ℂ)) * (N.c 0) * (sb z1.2 ρ2) + (-2) * ((c.e : ℂ)) ^ 2 * ((c.mass .d : ℂ)) * (N.c 1) * (sb z1.2 ρ2)) * i3 + ((4) * ((c.e : ℂ)) ^ 2 * (ab z2.1 ρ1) * (sb z0.2 z1.2) * (sb z1.2 z2.2) + (-4) * ((c.e : ℂ)) ^ 2 * (mb z1.2 (p 0) ρ1) * (sb z0.2 z1.2)) * i4 + ((-4) * ((c.e : ℂ)) ^ 2 * (mb z1.2 (p 0) ρ1) * (sb z1.2 z3.2)) * i5 + ((2) * ((c.e : ℂ)) ^ 2 * (mb z1.2 (p 0) z2.1) * (sb z3.2 ρ2) + (4) * ((c.e : ℂ)) ^ 2 * (mb ρ2 (p 0) z2.1) * (sb z1.2 z3.2)) * i6 + ((4) * ((c.e : ℂ)) ^ 2 * ((c.mass .d : ℂ)) * (N.c 0) * (ab z2.1 ρ1) + (2) * ((c.e : ℂ)) ^ 2 * ((c.mass .d : ℂ)) * (N.c 1) * (ab z2.1 ρ1) + (2) * ((c.e : ℂ)) ^ 2 * ((c.mass .d : ℂ)) * (ab z1.1 z2.1) * (mb z1.2 (p 0) ρ1)) * i7 + ((-2) * ((c.e : ℂ)) ^ 2 * (ab z2.1 ρ1) * (sb z1.2 z2.2) * (sb z1.2 ρ2) + (-2) * ((c.e : ℂ)) ^ 2 * (mb z1.2 (p 0) ρ1) * (sb z1.2 ρ2)) * i8 + ((-4) * ((c.e : ℂ)) ^ 2 * (N.c 0) * (ab z3.1 ρ1)) * i9 + ((4) * ((c.e : ℂ)) ^ 2 * (ab z2.1 ρ1) * (sb z0.2 z1.2) * (sb z2.2 ρ2) + (2) * ((c.e : ℂ)) ^ 2 * (ab z2.1 ρ1) * (sb z0.2 z2.2) * (sb z1.2 ρ2) + (2) * ((c.e : ℂ)) ^ 2 * (mb z1.2 (p 0) ρ1) * (sb z0.2 ρ2)) * i10 + ((-4) * ((c.e : ℂ)) ^ 2 * (mb ρ2 (p 0) z2.1) * (sb z0.2 z1.2)) * i11 + ((-4) * ((c.e : ℂ)) ^ 2 * (ab z2.1 ρ1) * (sb z0.2 z1.2) * (sb z2.2 ρ2) + (-4) * ((c.e : ℂ)) ^ 2 * (mb z1.2 (p 0) ρ1) * (sb z0.2 ρ2) + (-2) * ((c.e : ℂ)) ^ 2 * (mb ρ2 (p 0) ρ1) * (sb z0.2 z1.2)) * i12 + ((-2) * ((c.e : ℂ)) ^ 2 * (ab z2.1 z3.1) * (ab z2.1 ρ1) * (sb z1.2 z2.2) + (2) * ((c.e : ℂ)) ^ 2 * (ab z2.1 z3.1) * (mb z1.2 (p 0) ρ1)) * i13 + ((-2) * ((c.e : ℂ)) ^ 2 * (ab z0.1 z2.1) * (mb z1.2 (p 0) ρ1)) * i14 + ((-6) * ((c.e : ℂ)) ^ 2 * (N.c 0) * (sb z3.2 ρ2) + (-2) * ((c.e : ℂ)) ^ 2 * (N.c 1) * (sb z3.2 ρ2) + (-4) * ((c.e : ℂ)) ^ 2 * (ab z1.1 z2.1) * (sb z1.2 z2.2) * (sb z3.2 ρ2) + (-2) * ((c.e : ℂ)) ^ 2 * (ab z1.1 z2.1) * (sb z1.2 z3.2) * (sb z2.2 ρ2) + (-2) * ((c.e : ℂ)) ^ 2 * (mb ρ2 (p 0) z1.1) * (sb z1.2 z3.2)) * i15 + ((-2) * ((c.e : ℂ)) ^ 2 * (ab z0.1 z2.1) * (ab z1.1 z2.1) * (mb z1.2 (p 0) ρ1)) * i16 + ((-2) * ((c.e : ℂ)) ^ 2 * ((c.mass .d : ℂ)) * (ab z3.1 ρ1) * (sb z1.2 ρ2) + (2) * ((c.e : ℂ)) ^ 2 * (ab z2.1 ρ1) * (sb z1.2 z3.2) * (sb z2.2 ρ2) + (-4) * ((c.e : ℂ)) ^ 2 * (mb z1.2 (p 0) ρ1) * (sb z3.2 ρ2) + (-2) * ((c.e : ℂ)) ^ 2 * (mb ρ2 (p 0) ρ1) * (sb z1.2 z3.2)) * i17 + ((2) * ((c.e : ℂ)) ^ 2 * ((c.mass .d : ℂ)) * (ab z3.1 ρ1) * (sb z1.2 ρ2) + (6) * ((c.e : ℂ)) ^ 2 * (mb z1.2 (p 0) ρ1) * (sb z3.2 ρ2)) * i18 + ((-2) * ((c.e : ℂ)) ^ 2 * (ab z1.1 z2.1) * (ab z3.1 ρ1) * (sb z1.2 ρ2)) * i19 + ((4) * ((c.e : ℂ)) ^ 2 * (ab z1.1 z3.1) * (sb z0.2 z1.2) * (sb z1.2 ρ2)) * i20 + ((-4) * ((c.e : ℂ)) ^ 2 * (mb z1.2 (p 0) z2.1) * (sb z3.2 ρ2)) * i21 + ((-2) * ((c.e : ℂ)) ^ 2 * ((c.mass .d : ℂ)) * (ab z2.1 ρ1) * (sb z1.2 ρ2)) * i22 + ((2) * ((c.e : ℂ)) ^ 2 * ((c.mass .d : ℂ)) * (ab z2.1 ρ1) * (sb z1.2 ρ2)) * i23 + ((-4) * ((c.e : ℂ)) ^ 2 * (N.c 0) * (sb z0.2 ρ2) + (2) * ((c.e : ℂ)) ^ 2 * (mb ρ2 (p 0) z1.1) * (sb z0.2 z1.2)) * i24 + ((4) * ((c.e : ℂ)) ^ 2 * (N.c 0) * (sb z1.2 ρ2) + (2) * ((c.e : ℂ)) ^ 2 * (N.c 1) * (sb z1.2 ρ2)) * i25 + ((2) * ((c.e : ℂ)) ^ 2 * (ab z2.1 z3.1) * (ab z2.1 ρ1) * (sb z1.2 ρ2)) * i26 + ((-2) * ((c.e : ℂ)) ^ 2 * (ab z2.1 ρ1) * (sb z0.2 z1.2) * (sb z1.2 ρ2)) * i27 + ((-2) * ((c.e : ℂ)) ^ 2 * ((c.mass .d : ℂ)) * (ab z1.1 z2.1) * (ab z2.1 ρ1) * (sb z1.2 ρ2)) * i28 + ((-4) * ((c.e : ℂ)) ^ 2 * (N.c 1) * (sb z1.2 z3.2)) * i29 + ((-2) * ((c.e : ℂ)) ^ 2 * (ab z1.1 z3.1) * (sb z0.2 z1.2) * (sb z1.2 ρ2) + (-2) * ((c.e : ℂ)) ^ 2 * (ab z2.1 z3.1) * (sb z0.2 z1.2) * (sb z2.2 ρ2)) * i30 + ((-2) * ((c.e : ℂ)) ^ 2 * (mb z1.2 (p 0) z2.1) * (sb z0.2 z1.2)) * i31 + ((2) * ((c.e : ℂ)) ^ 2 * (mb z1.2 (p 0) z2.1) * (sb z1.2 z3.2)) * i32 + ((-2) * ((c.e : ℂ)) ^ 2 * (mb z1.2 (p 0) z2.1) * (sb z0.2 ρ2)) * i33)) * ((1) * ((N.c 0)⁻¹) * ((N.c 1)⁻¹) / (9)) + ((-2) * ((c.e : ℂ)) ^ 2 * ((c.mass .d : ℂ)) * ((N.c 1)⁻¹) * (ab z0.1 ρ1) * (ab z2.1 z3.1) * (sb z1.2 ρ2) / (9) + (2) * ((c.e : ℂ)) ^ 2 * ((c.mass .d : ℂ)) * ((N.c 1)⁻¹) * (ab z2.1 ρ1) * (sb z0.2 z1.2) * (sb z3.2 ρ2) / (9) + (-2) * ((c.e : ℂ)) ^ 2 * ((N.c 1)⁻¹) * (ab z0.1 ρ1) * (mb z1.2 (p 0) z2.1) * (sb z3.2 ρ2) / (9) + (2) * ((c.e : ℂ)) ^ 2 * ((N.c 1)⁻¹) * (ab z1.1 ρ1) * (ab z2.1 z3.1) * (sb z0.2 z1.2) * (sb z1.2 ρ2) / (9) + (-2) * ((c.e : ℂ)) ^ 2 * ((N.c 1)⁻¹) * (ab z2.1 z3.1) * (mb ρ2 (p 0) ρ1) * (sb z0.2 z1.2) / (9)) * y0 + ((-2) * ((c.e : ℂ)) ^ 2 * ((c.mass .d : ℂ)) * ((N.c 0)⁻¹) * (ab z0.1 z2.1) * (ab z3.1 ρ1) * (sb z1.2 ρ2) / (9) + (2) * ((c.e : ℂ)) ^ 2 * ((c.mass .d : ℂ)) * ((N.c 0)⁻¹) * (ab z2.1 ρ1) * (sb z0.2 ρ2) * (sb z1.2 z3.2) / (9) + (2) * ((c.e : ℂ)) ^ 2 * ((N.c 0)⁻¹) * (ab z0.1 z2.1) * (ab z2.1 ρ1) * (sb z1.2 z3.2) * (sb z2.2 ρ2) / (9) + (2) * ((c.e : ℂ)) ^ 2 * ((N.c 0)⁻¹) * (ab z0.1 z2.1) * (mb ρ2 (p 0) ρ1) * (sb z1.2 z3.2) / (9) + (2) * ((c.e : ℂ)) ^ 2 * ((N.c 0)⁻¹) * (ab z3.1 ρ1) * (mb z1.2 (p 0) z2.1) * (sb z0.2 ρ2) / (9)) * y1 + ((1) * ((c.e : ℂ)) ^ 2 * ((c.mass .d : ℂ)) * ((N.c 0)⁻¹) * (ab z0.1 z2.1) * (ab z3.1 ρ1) * (sb z1.2 ρ2) / (9) + (-1) * ((c.e : ℂ)) ^ 2 * ((c.mass .d : ℂ)) * ((N.c 0)⁻¹) * (ab z2.1 ρ1) * (sb z0.2 ρ2) * (sb z1.2 z3.2) / (9) + (1) * ((c.e : ℂ)) ^ 2 * ((c.mass .d : ℂ)) * ((N.c 1)⁻¹) * (ab z0.1 ρ1) * (ab z2.1 z3.1) * (sb z1.2 ρ2) / (9) + (-1) * ((c.e : ℂ)) ^ 2 * ((c.mass .d : ℂ)) * ((N.c 1)⁻¹) * (ab z2.1 ρ1) * (sb z0.2 z1.2) * (sb z3.2 ρ2) / (9) + (-1) * ((c.e : ℂ)) ^ 2 * ((N.c 0)⁻¹) * (ab z0.1 z2.1) * (ab z2.1 ρ1) * (sb z1.2 z3.2) * (sb z2.2 ρ2) / (9) + (-1) * ((c.e : ℂ)) ^ 2 * ((N.c 0)⁻¹) * (ab z0.1 z2.1) * (mb ρ2 (p 0) ρ1) * (sb z1.2 z3.2) / (9) + (-1) * ((c.e : ℂ)) ^ 2 * ((N.c 0)⁻¹) * (ab z3.1 ρ1) * (mb z1.2 (p 0) z2.1) * (sb z0.2 ρ2) / (9) + (1) * ((c.e : ℂ)) ^ 2 * ((N.c 1)⁻¹) * (ab z0.1 ρ1) * (mb z1.2 (p 0) z2.1) * (sb z3.2 ρ2) / (9) + (-1) * ((c.e : ℂ)) ^ 2 * ((N.c 1)⁻¹) * (ab z1.1 ρ1) * (ab z2.1 z3.1) * (sb z0.2 z1.2) * (sb z1.2 ρ2) / (9) + (1) * ((c.e : ℂ)) ^ 2 * ((N.c 1)⁻¹) * (ab z2.1 z3.1) * (mb ρ2 (p 0) ρ1) * (sb z0.2 z1.2) / (9)) * x22
theorem dAAd.keyMP {c : Constants} {p : Nat → V4 ℝ} {N : Env} (hc : c.Physical) (hb : Balanced p) (r0 : N.r 0 = c.e) (r1 : N.r 1 = ((-((1 : Nat) : ℝ)) / ((3 : Nat) : ℝ))) (d0 : ((msq (plus (p 0) (backward (p 2))) - c.mass .d ^ 2 : ℝ) : ℂ) = N.c 0) (n0 : N.c 0 ≠ 0) (d1 : ((msq (plus (p 0) (p 1)) - c.mass .d ^ 2 : ℝ) : ℂ) = N.c 1) (n1 : N.c 1 ≠ 0) {z0 z1 z2 z3 : Pair} (b0 : Bold (p 0) (c.mass .d) z0) (b3 : Bold (p 3) (c.mass .d) z3) (l1 : Light (p 1) z1) (l2 : Light (p 2) z2) (e10 : mb z1.2 (p 0) z1.1 = N.c 1) (e13 : mb z1.2 (p 3) z1.1 = -N.c 0) (e20 : mb z2.2 (p 0) z2.1 = -N.c 0) (e23 : mb z2.2 (p 3) z2.1 = N.c 1) (q0 : msq (p 0) = (c.mass .d) ^ 2) (q3 : msq (p 3) = (c.mass .d) ^ 2) (ρ1 ρ2 : V2) :
    dAAd.formMP N p z0 z1 z2 z3 * sb ρ1 z1.2 * ab ρ2 z2.1 = ((√2 : ℝ) * ((√2 : ℝ) * (1 : ℂ))) * dAAd.react.bare c p 3 0 1 2 z3 z0 (pv z1.1 ρ1) (pv ρ2 z2.2) := by
  rw [dAAd.react.bare_parts c p (i := 3) (j := 0) (a := 1) (b := 2) (x := .photon) (y := .photon) (k := (p 1)) (k' := (backward (p 2))) (fun _ => rfl) (fun _ => rfl) (f := .d) (g := .d) rfl rfl (l := (p 0)) rfl (e := 1) (e' := 1) (if_neg Bool.false_ne_true) (if_neg Bool.false_ne_true)]
  rw [compton_vv (f := .d) (x := .d) (g := .d) (h := (rfl : Spec.after .photon Flavour.d = some Flavour.d)) (h' := (rfl : Spec.after .photon Flavour.d = some Flavour.d)) (ha := by simp) (hb := by simp)]
  rw [compton_vv (f := .d) (x := .d) (g := .d) (h := (rfl : Spec.after .photon Flavour.d = some Flavour.d)) (h' := (rfl : Spec.after .photon Flavour.d = some Flavour.d)) (ha := by simp) (hb := by simp)]
  rw [annihilation_none c _ _ (by rfl) (by simp), star_zero, add_zero, dAAd.formMP]
  simp only [d0, d1, lineV_pv, lineV_four, contract_four_pv, contract_pv, mb_plus, mb_backward]
  have i0 := mb_schouten_right z2.2 (p 3) z0.1 z1.1 z2.1
  have i1 := mb_schouten_right z2.2 (p 0) z0.1 z1.1 ρ2
  have i2 := mb_schouten_right z2.2 (p 0) z0.1 z1.1 z2.1
  have i3 := ab_schouten z1.1 z2.1 ρ2 z0.1
  have i4 := mb_schouten_right z1.2 (p 3) z0.1 z1.1 ρ2
  have i5 := mb_schouten_right z1.2 (p 0) z0.1 z1.1 ρ2
  have i6 := sb_schouten z1.2 z2.2 ρ1 z0.2
  have i7 := mb_schouten_right z0.2 (p 3) z1.1 z3.1 ρ2
  have i8 := ab_schouten z2.1 z3.1 ρ2 z1.1
  have i9 := mb_schouten_left z0.2 z2.2 ρ1 (p 0) z1.1
  have i10 := mb_schouten_right z1.2 (p 3) z1.1 z3.1 ρ2
  have i11 := mb_schouten_right z1.2 (p 0) z1.1 z3.1 ρ2
  have i12 := sb_schouten z2.2 z3.2 ρ1 z1.2
  have i13 := mb_schouten_right ρ1 (p 0) z1.1 z2.1 z3.1
  have i14 := mb_schouten_right z2.2 (p 0) z1.1 z2.1 z3.1
  have i15 := sb_schouten z2.2 z3.2 ρ1 z0.2
  have i16 := mb_schouten_right ρ1 (p 0) z1.1 z3.1 ρ2
  have i17 := mb_schouten_right ρ1 (p 0) z1.1 z2.1 ρ2
  have i18 := mb_schouten_right z2.2 (p 3) z1.1 z2.1 z3.1
  have i19 := mb_schouten_left z0.2 z1.2 z2.2 (p 0) z1.1
  have i20 := mb_schouten_left z0.2 z1.2 ρ1 (p 0) z1.1
  have i21 := mb_schouten_right z2.2 (p 0) z1.1 z3.1 ρ2
  have i22 := mb_schouten_right z0.2 (p 3) z1.1 z2.1 z3.1
  have i23 := ab_schouten z1.1 z3.1 ρ2 z0.1
  have i24 := mb_schouten_right z2.2 (p 0) z0.1 z1.1 z3.1
  have i25 := mb_schouten_left z1.2 z3.2 ρ1 (p 0) z1.1
  have i26 := sb_schouten z1.2 z2.2 z3.2 z0.2
  have i27 := mb_schouten_right ρ1 (p 0) z0.1 z1.1 z3.1
  have i28 := mb_schouten_right z1.2 (p 3) z1.1 z2.1 z3.1
  have i29 := mb_schouten_right z1.2 (p 0) z1.1 z2.1 z3.1
  have i30 := mb_schouten_left z1.2 z2.2 z3.2 (p 0) z1.1
  have i31 := mb_schouten_right ρ1 (p 0) z0.1 z1.1 ρ2
  have i32 := sb_schouten z1.2 z3.2 ρ1 z0.2
  have i33 := mb_schouten_right z1.2 (p 3) z0.1 z1.1 z3.1
  simp only [l1.mb_eq, l2.mb_eq, b0.mb_left, b0.mb_right, b3.mb_left, b3.mb_right, e10, e13, e20, e23, mb_three hb z0.2 z0.1, mb_three hb z0.2 z1.1, mb_three hb z0.2 z2.1, mb_three hb z0.2 ρ2, mb_three hb z1.2 z0.1, mb_three hb z1.2 z2.1, mb_nought hb z1.2 z3.1, mb_three hb z1.2 ρ2, mb_three hb z2.2 z0.1, mb_three hb z2.2 z1.1, mb_nought hb z2.2 z3.1, mb_three hb z2.2 ρ2, mb_nought hb z3.2 z1.1, mb_nought hb z3.2 z2.1, mb_nought hb z3.2 z3.1, mb_nought hb z3.2 ρ2, mb_three hb ρ1 z0.1, mb_three hb ρ1 z1.1, mb_three hb ρ1 z2.1, mb_nought hb ρ1 z3.1, mb_three hb ρ1 ρ2, ab_self, sb_self] at i0 i1 i2 i3 i4 i5 i6 i7 i8 i9 i10 i11 i12 i13 i14 i15 i16 i17 i18 i19 i20 i21 i22 i23 i24 i25 i26 i27 i28 i29 i30 i31 i32 i33 ⊢
  simp only [ab_swap z0.1 z1.1, ab_swap z0.1 z2.1, ab_swap z0.1 z3.1, ab_swap z0.1 ρ2, ab_swap z1.1 z2.1, ab_swap z1.1 z3.1, ab_swap z1.1 ρ2, ab_swap z2.1 z3.1, ab_swap z2.1 ρ2, ab_swap z3.1 ρ2, sb_swap z0.2 z1.2, sb_swap z0.2 z2.2, sb_swap z0.2 z3.2, sb_swap z0.2 ρ1, sb_swap z1.2 z2.2, sb_swap z1.2 z3.2, sb_swap z1.2 ρ1, sb_swap z2.2 z3.2, sb_swap z2.2 ρ1, sb_swap z3.2 ρ1] at i0 i1 i2 i3 i4 i5 i6 i7 i8 i9 i10 i11 i12 i13 i14 i15 i16 i17 i18 i19 i20 i21 i22 i23 i24 i25 i26 i27 i28 i29 i30 i31 i32 i33 ⊢
  simp only [r0, r1, Constants.hL, Constants.hR, Constants.gL, Constants.gR, Constants.yuk, Constants.invVev, Flavour.charge_d, Flavour.isospin_d, ← c.mz]
  have xMW : (c.MW : ℂ) ≠ 0 := by exact_mod_cast hc.MW
  have xSW : (c.SW : ℂ) ≠ 0 := by exact_mod_cast hc.SW
  have xCW : (c.CW : ℂ) ≠ 0 := by exact_mod_cast hc.CW
  have x2 : ((√2 : ℝ) : ℂ) ≠ 0 := by exact_mod_cast (Real.sqrt_pos.2 two_pos).ne'
  have x22 : ((√2 : ℝ) : ℂ) ^ 2 = 2 := by rw [← Complex.ofReal_pow, Real.sq_sqrt two_pos.le]; norm_num
  have x23 : ((√2 : ℝ) : ℂ) ^ 3 = 2 * ((√2 : ℝ) : ℂ) := by rw [← x22]; ring
  have x24 : ((√2 : ℝ) : ℂ) ^ 4 = 4 := by linear_combination (((√2 : ℝ) : ℂ) ^ 2 + 2) * x22
  push_cast at i0 i1 i2 i3 i4 i5 i6 i7 i8 i9 i10 i11 i12 i13 i14 i15 i16 i17 i18 i19 i20 i21 i22 i23 i24 i25 i26 i27 i28 i29 i30 i31 i32 i33 ⊢
  have y0 := mul_inv_cancel₀ n0
  have y1 := mul_inv_cancel₀ n1
  linear_combination ((((-2) * ((c.e : ℂ)) ^ 2 * (mb z2.2 (p 0) ρ2) * (sb z3.2 ρ1) + (2) * ((c.e : ℂ)) ^ 2 * (mb ρ1 (p 0) ρ2) * (sb z2.2 z3.2)) * i0 + ((2) * ((c.e : ℂ)) ^ 2 * (N.c 0) * (sb z3.2 ρ1) + (4) * ((c.e : ℂ)) ^ 2 * (N.c 1) * (sb z3.2 ρ1) + (4) * ((c.e : ℂ)) ^ 2 * (ab z1.1 z2.1) * (sb z1.2 z2.2) * (sb z3.2 ρ1) + (-2) * ((c.e : ℂ)) ^ 2 * (ab z1.1 z2.1) * (sb z1.2 z3.2) * (sb z2.2 ρ1) + (2) * ((c.e : ℂ)) ^ 2 * (mb ρ1 (p 0) z1.1) * (sb z1.2 z3.2)) * i1 + ((-2) * ((c.e : ℂ)) ^ 2 * (ab z1.1 ρ2) * (sb z1.2 z2.2) * (sb z3.2 ρ1) + (2) * ((c.e : ℂ)) ^ 2 * (ab z1.1 ρ2) * (sb z1.2 z3.2) * (sb z2.2 ρ1) + (2) * ((c.e : ℂ)) ^ 2 * (mb z2.2 (p 0) ρ2) * (sb z3.2 ρ1) + (-2) * ((c.e : ℂ)) ^ 2 * (mb ρ1 (p 0) ρ2) * (sb z2.2 z3.2)) * i2 + ((4) * ((c.e : ℂ)) ^ 2 * (mb z2.2 (p 0) z1.1) * (sb z1.2 z2.2) * (sb z3.2 ρ1) + (-2) * ((c.e : ℂ)) ^ 2 * (mb z2.2 (p 0) z1.1) * (sb z1.2 z3.2) * (sb z2.2 ρ1)) * i3 + ((2) * ((c.e : ℂ)) ^ 2 * (mb z2.2 (p 0) z1.1) * (sb z3.2 ρ1)) * i4 + ((-2) * ((c.e : ℂ)) ^ 2 * (mb z2.2 (p 0) z1.1) * (sb z3.2 ρ1)) * i5 + ((-2) * ((c.e : ℂ)) ^ 2 * ((c.mass .d : ℂ)) * (ab z1.1 z2.1) * (ab z1.1 ρ2) * (sb z2.2 z3.2) + (2) * ((c.e : ℂ)) ^ 2 * ((c.mass .d : ℂ)) ^ 2 * (ab z1.1 z3.1) * (ab z1.1 ρ2) + (2) * ((c.e : ℂ)) ^ 2 * (N.c 1) * (ab z1.1 z3.1) * (ab z1.1 ρ2) + (-2) * ((c.e : ℂ)) ^ 2 * (ab z1.1 z3.1) * (ab z2.1 ρ2) * (mb z2.2 (p 0) z1.1)) * i6 + ((2) * ((c.e : ℂ)) ^ 2 * (N.c 0) * (sb z2.2 ρ1) + (-2) * ((c.e : ℂ)) ^ 2 * (N.c 1) * (sb z2.2 ρ1) + (2) * ((c.e : ℂ)) ^ 2 * (mb z2.2 (p 0) z1.1) * (sb z1.2 ρ1) + (-2) * ((c.e : ℂ)) ^ 2 * (mb ρ1 (p 0) z1.1) * (sb z1.2 z2.2)) * i7 + ((-2) * ((c.e : ℂ)) ^ 2 * (N.c 0) * (sb z0.2 z2.2) * (sb z2.2 ρ1) + (2) * ((c.e : ℂ)) ^ 2 * (N.c 1) * (sb z0.2 z2.2) * (sb z2.2 ρ1) + (-2) * ((c.e : ℂ)) ^ 2 * (mb z2.2 (p 0) z1.1) * (sb z0.2 z2.2) * (sb z1.2 ρ1) + (2) * ((c.e : ℂ)) ^ 2 * (mb ρ1 (p 0) z1.1) * (sb z0.2 z2.2) * (sb z1.2 z2.2)) * i8 + ((-2) * ((c.e : ℂ)) ^ 2 * (N.c 0) * (ab z3.1 ρ2) + (2) * ((c.e : ℂ)) ^ 2 * (N.c 1) * (ab z3.1 ρ2) + (-2) * ((c.e : ℂ)) ^ 2 * (ab z1.1 z3.1) * (ab z2.1 ρ2) * (sb z1.2 z2.2)) * i9 + ((2) * ((c.e : ℂ)) ^ 2 * (mb ρ1 (p 0) z1.1) * (sb z0.2 z2.2)) * i10 + ((-2) * ((c.e : ℂ)) ^ 2 * (mb ρ1 (p 0) z1.1) * (sb z0.2 z2.2)) * i11 + ((2) * ((c.e : ℂ)) ^ 2 * ((c.mass .d : ℂ)) ^ 2 * (ab z0.1 z1.1) * (ab z1.1 ρ2) + (-2) * ((c.e : ℂ)) ^ 2 * (N.c 0) * (ab z0.1 z1.1) * (ab z1.1 ρ2) + (-2) * ((c.e : ℂ)) ^ 2 * (ab z0.1 z1.1) * (ab z1.1 z2.1) * (mb z2.2 (p 0) ρ2) + (-2) * ((c.e : ℂ)) ^ 2 * (ab z0.1 z1.1) * (ab z2.1 ρ2) * (mb z2.2 (p 0) z1.1)) * i12 + ((-4) * ((c.e : ℂ)) ^ 2 * (ab z1.1 ρ2) * (sb z0.2 z2.2) * (sb z1.2 z2.2)) * i13 + ((-2) * ((c.e : ℂ)) ^ 2 * (ab z1.1 ρ2) * (sb z0.2 z1.2) * (sb z2.2 ρ1) + (4) * ((c.e : ℂ)) ^ 2 * (ab z1.1 ρ2) * (sb z0.2 z2.2) * (sb z1.2 ρ1) + (-4) * ((c.e : ℂ)) ^ 2 * (mb ρ1 (p 0) ρ2) * (sb z0.2 z2.2)) * i14 + ((2) * ((c.e : ℂ)) ^ 2 * ((c.mass .d : ℂ)) * (N.c 0) * (ab z1.1 ρ2) + (-2) * ((c.e : ℂ)) ^ 2 * ((c.mass .d : ℂ)) * (N.c 1) * (ab z1.1 ρ2) + (2) * ((c.e : ℂ)) ^ 2 * ((c.mass .d : ℂ)) * (ab z1.1 z2.1) * (ab z1.1 ρ2) * (sb z1.2 z2.2)) * i15 + ((4) * ((c.e : ℂ)) ^ 2 * (N.c 0) * (sb z0.2 z2.2) + (2) * ((c.e : ℂ)) ^ 2 * (mb z2.2 (p 0) z1.1) * (sb z0.2 z1.2)) * i16 + ((4) * ((c.e : ℂ)) ^ 2 * (ab z1.1 z3.1) * (sb z0.2 z2.2) * (sb z1.2 z2.2)) * i17 + ((-2) * ((c.e : ℂ)) ^ 2 * (ab z1.1 ρ2) * (sb z0.2 z2.2) * (sb z1.2 ρ1) + (4) * ((c.e : ℂ)) ^ 2 * (mb ρ1 (p 0) ρ2) * (sb z0.2 z2.2)) * i18 + ((2) * ((c.e : ℂ)) ^ 2 * (ab z1.1 z3.1) * (ab z2.1 ρ2) * (sb z2.2 ρ1) + (-2) * ((c.e : ℂ)) ^ 2 * (ab z1.1 z3.1) * (mb ρ1 (p 0) ρ2)) * i19 + ((2) * ((c.e : ℂ)) ^ 2 * (ab z1.1 z3.1) * (mb z2.2 (p 0) ρ2)) * i20 + ((2) * ((c.e : ℂ)) ^ 2 * (N.c 1) * (sb z0.2 ρ1) + (-2) * ((c.e : ℂ)) ^ 2 * (mb ρ1 (p 0) z1.1) * (sb z0.2 z1.2)) * i21 + ((-2) * ((c.e : ℂ)) ^ 2 * (ab z1.1 ρ2) * (sb z1.2 z2.2) * (sb z2.2 ρ1)) * i22 + ((-2) * ((c.e : ℂ)) ^ 2 * ((c.mass .d : ℂ)) * (N.c 0) * (sb z2.2 ρ1) + (-2) * ((c.e : ℂ)) ^ 2 * ((c.mass .d : ℂ)) * (mb z2.2 (p 0) z1.1) * (sb z1.2 ρ1) + (2) * ((c.e : ℂ)) ^ 2 * ((c.mass .d : ℂ)) * (mb ρ1 (p 0) z1.1) * (sb z1.2 z2.2)) * i23 + ((2) * ((c.e : ℂ)) ^ 2 * ((c.mass .d : ℂ)) * (ab z1.1 ρ2) * (sb z1.2 ρ1)) * i24 + ((-2) * ((c.e : ℂ)) ^ 2 * (ab z0.1 z1.1) * (mb z2.2 (p 0) ρ2)) * i25 + ((2) * ((c.e : ℂ)) ^ 2 * ((c.mass .d : ℂ)) * (ab z1.1 ρ2) * (mb ρ1 (p 0) z1.1)) * i26 + ((-2) * ((c.e : ℂ)) ^ 2 * ((c.mass .d : ℂ)) * (ab z1.1 ρ2) * (sb z1.2 z2.2)) * i27 + ((2) * ((c.e : ℂ)) ^ 2 * (ab z1.1 ρ2) * (sb z0.2 z2.2) * (sb z2.2 ρ1)) * i28 + ((-2) * ((c.e : ℂ)) ^ 2 * (ab z1.1 ρ2) * (sb z0.2 z2.2) * (sb z2.2 ρ1)) * i29 + ((-2) * ((c.e : ℂ)) ^ 2 * (ab z0.1 z1.1) * (mb ρ1 (p 0) ρ2)) * i30 + ((-2) * ((c.e : ℂ)) ^ 2 * (mb z2.2 (p 0) z1.1) * (sb z1.2 z3.2)) * i31 + ((2) * ((c.e : ℂ)) ^ 2 * ((c.mass .d : ℂ)) * (ab z1.1 ρ2) * (mb z2.2 (p 0) z1.1)) * i32 + ((-2) * ((c.e : ℂ)) ^ 2 * ((c.mass .d : ℂ)) * (ab z1.1 ρ2) * (sb z2.2 ρ1)) * i33)) * ((1) * ((N.c 0)⁻¹) * ((N.c 1)⁻¹) / (9)) + ((2) * ((c.e : ℂ)) ^ 2 * ((c.mass .d : ℂ)) * ((N.c 1)⁻¹) * (ab z0.1 z1.1) * (ab z3.1 ρ2) * (sb z2.2 ρ1) / (9) + (-2) * ((c.e : ℂ)) ^ 2 * ((c.mass .d : ℂ)) * ((N.c 1)⁻¹) * (ab z1.1 ρ2) * (sb z0.2 ρ1) * (sb z2.2 z3.2) / (9) + (2) * ((c.e : ℂ)) ^ 2 * ((N.c 1)⁻¹) * (ab z0.1 z1.1) * (ab z1.1 ρ2) * (sb z1.2 ρ1) * (sb z2.2 z3.2) / (9) + (-2) * ((c.e : ℂ)) ^ 2 * ((N.c 1)⁻¹) * (ab z0.1 z1.1) * (mb ρ1 (p 0) ρ2) * (sb z2.2 z3.2) / (9) + (-2) * ((c.e : ℂ)) ^ 2 * ((N.c 1)⁻¹) * (ab z3.1 ρ2) * (mb z2.2 (p 0) z1.1) * (sb z0.2 ρ1) / (9)) * y0 + ((2) * ((c.e : ℂ)) ^ 2 * ((c.mass .d : ℂ)) * ((N.c 0)⁻¹) * (ab z0.1 ρ2) * (ab z1.1 z3.1) * (sb z2.2 ρ1) / (9) + (-2) * ((c.e : ℂ)) ^ 2 * ((c.mass .d : ℂ)) * ((N.c 0)⁻¹) * (ab z1.1 ρ2) * (sb z0.2 z2.2) * (sb z3.2 ρ1) / (9) + (2) * ((c.e : ℂ)) ^ 2 * ((N.c 0)⁻¹) * (ab z0.1 ρ2) * (mb z2.2 (p 0) z1.1) * (sb z3.2 ρ1) / (9) + (2) * ((c.e : ℂ)) ^ 2 * ((N.c 0)⁻¹) * (ab z1.1 z3.1) * (ab z2.1 ρ2) * (sb z0.2 z2.2) * (sb z2.2 ρ1) / (9) + (2) * ((c.e : ℂ)) ^ 2 * ((N.c 0)⁻¹) * (ab z1.1 z3.1) * (mb ρ1 (p 0) ρ2) * (sb z0.2 z2.2) / (9)) * y1 + ((-1) * ((c.e : ℂ)) ^ 2 * ((c.mass .d : ℂ)) * ((N.c 0)⁻¹) * (ab z0.1 ρ2) * (ab z1.1 z3.1) * (sb z2.2 ρ1) / (9) + (1) * ((c.e : ℂ)) ^ 2 * ((c.mass .d : ℂ)) * ((N.c 0)⁻¹) * (ab z1.1 ρ2) * (sb z0.2 z2.2) * (sb z3.2 ρ1) / (9) + (-1) * ((c.e : ℂ)) ^ 2 * ((c.mass .d : ℂ)) * ((N.c 1)⁻¹) * (ab z0.1 z1.1) * (ab z3.1 ρ2) * (sb z2.2 ρ1) / (9) + (1) * ((c.e : ℂ)) ^ 2 * ((c.mass .d : ℂ)) * ((N.c 1)⁻¹) * (ab z1.1 ρ2) * (sb z0.2 ρ1) * (sb z2.2 z3.2) / (9) + (-1) * ((c.e : ℂ)) ^ 2 * ((N.c 0)⁻¹) * (ab z0.1 ρ2) * (mb z2.2 (p 0) z1.1) * (sb z3.2 ρ1) / (9) + (-1) * ((c.e : ℂ)) ^ 2 * ((N.c 0)⁻¹) * (ab z1.1 z3.1) * (ab z2.1 ρ2) * (sb z0.2 z2.2) * (sb z2.2 ρ1) / (9) + (-1) * ((c.e : ℂ)) ^ 2 * ((N.c 0)⁻¹) * (ab z1.1 z3.1) * (mb ρ1 (p 0) ρ2) * (sb z0.2 z2.2) / (9) + (-1) * ((c.e : ℂ)) ^ 2 * ((N.c 1)⁻¹) * (ab z0.1 z1.1) * (ab z1.1 ρ2) * (sb z1.2 ρ1) * (sb z2.2 z3.2) / (9) + (1) * ((c.e : ℂ)) ^ 2 * ((N.c 1)⁻¹) * (ab z0.1 z1.1) * (mb ρ1 (p 0) ρ2) * (sb z2.2 z3.2) / (9) + (1) * ((c.e : ℂ)) ^ 2 * ((N.c 1)⁻¹) * (ab z3.1 ρ2) * (mb z2.2 (p 0) z1.1) * (sb z0.2 ρ1) / (9)) * x22
theorem dAAd.keyMM {c : Constants} {p : Nat → V4 ℝ} {N : Env} (hc : c.Physical) (hb : Balanced p) (r0 : N.r 0 = c.e) (r1 : N.r 1 = ((-((1 : Nat) : ℝ)) / ((3 : Nat) : ℝ))) (r2 : N.r 2 = (c.mass .d)) (d0 : ((msq (plus (p 0) (backward (p 2))) - c.mass .d ^ 2 : ℝ) : ℂ) = N.c 0) (n0 : N.c 0 ≠ 0) (d1 : ((msq (plus (p 0) (p 1)) - c.mass .d ^ 2 : ℝ) : ℂ) = N.c 1) (n1 : N.c 1 ≠ 0) {z0 z1 z2 z3 : Pair} (b0 : Bold (p 0) (c.mass .d) z0) (b3 : Bold (p 3) (c.mass .d) z3) (l1 : Light (p 1) z1) (l2 : Light (p 2) z2) (e10 : mb z1.2 (p 0) z1.1 = N.c 1) (e13 : mb z1.2 (p 3) z1.1 = -N.c 0) (e20 : mb z2.2 (p 0) z2.1 = -N.c 0) (e23 : mb z2.2 (p 3) z2.1 = N.c 1) (q0 : msq (p 0) = (c.mass .d) ^ 2) (q3 : msq (p 3) = (c.mass .d) ^ 2) (ρ1 ρ2 : V2) :
    dAAd.formMM N p z0 z1 z2 z3 * sb ρ1 z1.2 * sb ρ2 z2.2 = ((√2 : ℝ) * ((√2 : ℝ) * (1 : ℂ))) * dAAd.react.bare c p 3 0 1 2 z3 z0 (pv z1.1 ρ1) (pv z2.1 ρ2) := by
  rw [dAAd.react.bare_parts c p (i := 3) (j := 0) (a := 1) (b := 2) (x := .photon) (y := .photon) (k := (p 1)) (k' := (backward (p 2))) (fun _ => rfl) (fun _ => rfl) (f := .d) (g := .d) rfl rfl (l := (p 0)) rfl (e := 1) (e' := 1) (if_neg Bool.false_ne_true) (if_neg Bool.false_ne_true)]
  rw [compton_vv (f := .d) (x := .d) (g := .d) (h := (rfl : Spec.after .photon Flavour.d = some Flavour.d)) (h' := (rfl : Spec.after .photon Flavour.d = some Flavour.d)) (ha := by simp) (hb := by simp)]
  rw [compton_vv (f := .d) (x := .d) (g := .d) (h := (rfl : Spec.after .photon Flavour.d = some Flavour.d)) (h' := (rfl : Spec.after .photon Flavour.d = some Flavour.d)) (ha := by simp) (hb := by simp)]
  rw [annihilation_none c _ _ (by rfl) (by simp), star_zero, add_zero, dAAd.formMM]
  simp only [d0, d1, lineV_pv, lineV_four, contract_four_pv, contract_pv, mb_plus, mb_backward]
  have i0 := mb_schouten_left z0.2 ρ1 ρ2 (p 0) z1.1
  have i1 := sb_schouten z3.2 ρ1 ρ2 z0.2
  have i2 := mb_schouten_right z0.2 (p 3) z1.1 z2.1 z3.1
  have i3 := mb_schouten_right z1.2 (p 0) z1.1 z2.1 z3.1
  have i4 := mb_schouten_right z2.2 (p 3) z0.1 z1.1 z2.1
  have i5 := mb_schouten_right z2.2 (p 0) z0.1 z1.1 z2.1
  have i6 := mb_schouten_left z1.2 z2.2 ρ1 (p 0) z1.1
  have i7 := sb_schouten z2.2 z3.2 ρ1 z1.2
  have i8 := mb_schouten_right ρ2 (p 0) z0.1 z1.1 z2.1
  have i9 := mb_schouten_right z1.2 (p 3) z1.1 z2.1 z3.1
  have i10 := mb_schouten_right z1.2 (p 3) z0.1 z1.1 z2.1
  have i11 := mb_schouten_right z1.2 (p 0) z0.1 z1.1 z2.1
  have i12 := sb_schouten z2.2 ρ1 ρ2 z0.2
  have i13 := sb_schouten z1.2 ρ1 ρ2 z0.2
  have i14 := sb_schouten z2.2 z3.2 ρ2 z0.2
  have i15 := mb_schouten_right z2.2 (p 3) z1.1 z2.1 z3.1
  have i16 := mb_schouten_right z2.2 (p 0) z1.1 z2.1 z3.1
  have i17 := sb_schouten z1.2 z2.2 z3.2 z0.2
  have i18 := mb_schouten_left z1.2 z3.2 ρ2 (p 0) z1.1
  have i19 := mb_schouten_right ρ1 (p 0) z0.1 z1.1 z2.1
  have i20 := sb_schouten z1.2 z3.2 ρ1 z0.2
  have i21 := ab_schouten z1.1 z2.1 z3.1 z0.1
  have i22 := mb_schouten_left z1.2 z3.2 ρ1 (p 0) z1.1
  have i23 := sb_schouten z1.2 z3.2 ρ2 z0.2
  have i24 := sb_schouten z3.2 ρ1 ρ2 z1.2
  have i25 := mb_schouten_right ρ2 (p 0) z0.1 z1.1 z3.1
  have i26 := mb_schouten_right ρ1 (p 0) z0.1 z1.1 z3.1
  have i27 := sb_schouten z2.2 z3.2 ρ2 z1.2
  have i28 := mb_schouten_right z3.2 (p 0) z0.1 z1.1 z2.1
  have i29 := sb_schouten z2.2 ρ1 ρ2 z1.2
  have i30 := mb_schouten_left z0.2 z2.2 ρ2 (p 0) z1.1
  have i31 := sb_schouten z1.2 z2.2 ρ1 z0.2
  have i32 := mb_schouten_right ρ2 (p 0) z1.1 z2.1 z3.1
  have i33 := mb_schouten_right ρ1 (p 0) z1.1 z2.1 z3.1
  have i34 := mb_schouten_left z0.2 z1.2 ρ2 (p 0) z1.1
  have i35 := mb_schouten_left z0.2 z1.2 ρ1 (p 0) z1.1
  have i36 := mb_schouten_left z0.2 z2.2 ρ1 (p 0) z1.1
  have i37 := sb_schouten z1.2 z2.2 ρ2 z0.2
  have i38 := sb_schouten z3.2 ρ1 ρ2 z2.2
  have i39 := mb_schouten_right z1.2 (p 0) z0.1 z1.1 z3.1
  have i40 := mb_schouten_left z0.2 z1.2 z2.2 (p 0) z1.1
  simp only [l1.mb_eq, l2.mb_eq, b0.mb_left, b0.mb_right, b3.mb_left, b3.mb_right, e10, e13, e20, e23, mb_three hb z0.2 z0.1, mb_three hb z0.2 z1.1, mb_three hb z0.2 z2.1, mb_three hb z1.2 z0.1, mb_three hb z1.2 z2.1, mb_nought hb z1.2 z3.1, mb_three hb z2.2 z0.1, mb_three hb z2.2 z1.1, mb_nought hb z2.2 z3.1, mb_nought hb z3.2 z1.1, mb_nought hb z3.2 z2.1, mb_nought hb z3.2 z3.1, mb_three hb ρ1 z0.1, mb_three hb ρ1 z1.1, mb_three hb ρ1 z2.1, mb_nought hb ρ1 z3.1, mb_three hb ρ2 z0.1, mb_three hb ρ2 z1.1, mb_three hb ρ2 z2.1, mb_nought hb ρ2 z3.1, ab_self, sb_self] at i0 i1 i2 i3 i4 i5 i6 i7 i8 i9 i10 i11 i12 i13 i14 i15 i16 i17 i18 i19 i20 i21 i22 i23 i24 i25 i26 i27 i28 i29 i30 i31 i32 i33 i34 i35 i36 i37 i38 i39 i40 ⊢
  simp only [ab_swap z0.1 z1.1, ab_swap z0.1 z2.1, ab_swap z0.1 z3.1, ab_swap z1.1 z2.1, ab_swap z1.1 z3.1, ab_swap z2.1 z3.1, sb_swap z0.2 z1.2, sb_swap z0.2 z2.2, sb_swap z0.2 z3.2, sb_swap z0.2 ρ1, sb_swap z0.2 ρ2, sb_swap z1.2 z2.2, sb_swap z1.2 z3.2, sb_swap z1.2 ρ1, sb_swap z1.2 ρ2, sb_swap z2.2 z3.2, sb_swap z2.2 ρ1, sb_swap z2.2 ρ2, sb_swap z3.2 ρ1, sb_swap z3.2 ρ2, sb_swap ρ1 ρ2] at i0 i1 i2 i3 i4 i5 i6 i7 i8 i9 i10 i11 i12 i13 i14 i15 i16 i17 i18 i19 i20 i21 i22 i23 i24 i25 i26 i27 i28 i29 i30 i31 i32 i33 i34 i35 i36 i37 i38 i39 i40 ⊢
  simp only [r0, r1, r2, Constants.hL, Constants.hR, Constants.gL, Constants.gR, Constants.yuk, Constants.invVev, Flavour.charge_d, Flavour.isospin_d, ← c.mz]
  have xMW : (c.MW : ℂ) ≠ 0 := by exact_mod_cast hc.MW
  have xSW : (c.SW : ℂ) ≠ 0 := by exact_mod_cast hc.SW
  have xCW : (c.CW : ℂ) ≠ 0 := by exact_mod_cast hc.CW
  have x2 : ((√2 : ℝ) : ℂ) ≠ 0 := by exact_mod_cast (Real.sqrt_pos.2 two_pos).ne'
  have x22 : ((√2 : ℝ) : ℂ) ^ 2 = 2 := by rw [← Complex.ofReal_pow, Real.sq_sqrt two_pos.le]; norm_num
  have x23 : ((√2 : ℝ) : ℂ) ^ 3 = 2 * ((√2 : ℝ) : ℂ) := by rw [← x22]; ring
  have x24 : ((√2 : ℝ) : ℂ) ^ 4 = 4 := by linear_combination (((√2 : ℝ) : ℂ) ^ 2 + 2) * x22
  push_cast at i0 i1 i2 i3 i4 i5 i6 i7 i8 i9 i10 i11 i12 i13 i14 i15 i16 i17 i18 i19 i20 i21 i22 i23 i24 i25 i26 i27 i28 i29 i30 i31 i32 i33 i34 i35 i36 i37 i38 i39 i40 ⊢
  have y0 := mul_inv_cancel₀ n0
  have y1 := mul_inv_cancel₀ n1
  linear_combination ((((-4) * ((c.e : ℂ)) ^ 2 * (N.c 0) * (ab z2.1 z3.1)) * i0 + ((2) * ((c.e : ℂ)) ^ 2 * ((c.mass .d : ℂ)) * (N.c 0) * (ab z1.1 z2.1) + (-2) * ((c.e : ℂ)) ^ 2 * ((c.mass .d : ℂ)) * (N.c 1) * (ab z1.1 z2.1)) * i1 + ((2) * ((c.e : ℂ)) ^ 2 * (N.c 0) * (sb ρ1 ρ2) + (2) * ((c.e : ℂ)) ^ 2 * (ab z1.1 z2.1) * (sb z1.2 z2.2) * (sb ρ1 ρ2)) * i2 + ((-2) * ((c.e : ℂ)) ^ 2 * (ab z1.1 z2.1) * (sb z0.2 z2.2) * (sb ρ1 ρ2) + (-4) * ((c.e : ℂ)) ^ 2 * (mb ρ1 (p 0) z1.1) * (sb z0.2 ρ2) + (2) * ((c.e : ℂ)) ^ 2 * (mb ρ2 (p 0) z1.1) * (sb z0.2 ρ1)) * i3 + ((-2) * ((c.e : ℂ)) ^ 2 * (mb ρ1 (p 0) z2.1) * (sb z3.2 ρ2) + (2) * ((c.e : ℂ)) ^ 2 * (mb ρ2 (p 0) z2.1) * (sb z3.2 ρ1)) * i4 + ((-2) * ((c.e : ℂ)) ^ 2 * (ab z1.1 z2.1) * (sb z1.2 ρ1) * (sb z3.2 ρ2) + (2) * ((c.e : ℂ)) ^ 2 * (mb ρ1 (p 0) z2.1) * (sb z3.2 ρ2) + (-2) * ((c.e : ℂ)) ^ 2 * (mb ρ2 (p 0) z2.1) * (sb z3.2 ρ1)) * i5 + ((2) * ((c.e : ℂ)) ^ 2 * (ab z0.1 z2.1) * (ab z1.1 z2.1) * (sb z3.2 ρ2)) * i6 + ((-2) * ((c.e : ℂ)) ^ 2 * (ab z0.1 z1.1) * (ab z1.1 z2.1) * (mb ρ2 (p 0) z2.1) + (2) * ((c.e : ℂ)) ^ 2 * (ab z0.1 z2.1) * (ab z1.1 z2.1) * (mb ρ2 (p 0) z1.1)) * i7 + ((-2) * ((c.e : ℂ)) ^ 2 * (N.c 0) * (sb z3.2 ρ1) + (-2) * ((c.e : ℂ)) ^ 2 * (ab z1.1 z2.1) * (sb z1.2 z3.2) * (sb z2.2 ρ1) + (2) * ((c.e : ℂ)) ^ 2 * (mb ρ1 (p 0) z1.1) * (sb z1.2 z3.2)) * i8 + ((2) * ((c.e : ℂ)) ^ 2 * (ab z1.1 z2.1) * (sb z0.2 z2.2) * (sb ρ1 ρ2) + (4) * ((c.e : ℂ)) ^ 2 * (mb ρ1 (p 0) z1.1) * (sb z0.2 ρ2) + (-2) * ((c.e : ℂ)) ^ 2 * (mb ρ2 (p 0) z1.1) * (sb z0.2 ρ1)) * i9 + ((2) * ((c.e : ℂ)) ^ 2 * ((c.mass .d : ℂ)) * (ab z1.1 z3.1) * (sb ρ1 ρ2) + (-2) * ((c.e : ℂ)) ^ 2 * (mb ρ2 (p 0) z1.1) * (sb z3.2 ρ1)) * i10 + ((-2) * ((c.e : ℂ)) ^ 2 * ((c.mass .d : ℂ)) * (ab z1.1 z3.1) * (sb ρ1 ρ2) + (2) * ((c.e : ℂ)) ^ 2 * (mb ρ2 (p 0) z1.1) * (sb z3.2 ρ1)) * i11 + ((2) * ((c.e : ℂ)) ^ 2 * ((c.mass .d : ℂ)) * (ab z1.1 z2.1) ^ 2 * (sb z1.2 z3.2) + (4) * ((c.e : ℂ)) ^ 2 * (N.c 1) * (ab z1.1 z2.1) * (ab z2.1 z3.1)) * i12 + ((-2) * ((c.e : ℂ)) ^ 2 * ((c.mass .d : ℂ)) * (ab z1.1 z2.1) ^ 2 * (sb z2.2 z3.2) + (-2) * ((c.e : ℂ)) ^ 2 * ((c.mass .d : ℂ)) ^ 2 * (ab z1.1 z2.1) * (ab z1.1 z3.1) + (-2) * ((c.e : ℂ)) ^ 2 * (N.c 1) * (ab z1.1 z2.1) * (ab z1.1 z3.1) + (-2) * ((c.e : ℂ)) ^ 2 * (ab z1.1 z2.1) * (ab z2.1 z3.1) * (mb z2.2 (p 0) z1.1)) * i13 + ((2) * ((c.e : ℂ)) ^ 2 * ((c.mass .d : ℂ)) * (ab z1.1 z2.1) ^ 2 * (sb z1.2 ρ1)) * i14 + ((-2) * ((c.e : ℂ)) ^ 2 * (ab z1.1 z2.1) * (sb z0.2 z1.2) * (sb ρ1 ρ2) + (2) * ((c.e : ℂ)) ^ 2 * (ab z1.1 z2.1) * (sb z0.2 ρ1) * (sb z1.2 ρ2)) * i15 + ((2) * ((c.e : ℂ)) ^ 2 * (ab z1.1 z2.1) * (sb z0.2 z1.2) * (sb ρ1 ρ2)) * i16 + ((2) * ((c.e : ℂ)) ^ 2 * ((c.mass .d : ℂ)) * (ab z1.1 z2.1) ^ 2 * (sb ρ1 ρ2)) * i17 + ((-2) * ((c.e : ℂ)) ^ 2 * (ab z0.1 z1.1) * (ab z1.1 z2.1) * (sb z1.2 ρ1) + (2) * ((c.e : ℂ)) ^ 2 * (ab z0.1 z1.1) * (mb ρ1 (p 0) z2.1)) * i18 + ((2) * ((c.e : ℂ)) ^ 2 * (ab z1.1 z2.1) * (sb z1.2 z3.2) * (sb z2.2 ρ2) + (-2) * ((c.e : ℂ)) ^ 2 * (mb ρ2 (p 0) z1.1) * (sb z1.2 z3.2)) * i19 + ((2) * ((c.e : ℂ)) ^ 2 * ((c.mass .d : ℂ)) * (ab z1.1 z2.1) * (mb ρ2 (p 0) z1.1)) * i20 + ((2) * ((c.e : ℂ)) ^ 2 * ((c.mass .d : ℂ)) * (N.c 1) * (sb ρ1 ρ2) + (-2) * ((c.e : ℂ)) ^ 2 * ((c.mass .d : ℂ)) * (mb ρ1 (p 0) z1.1) * (sb z1.2 ρ2) + (2) * ((c.e : ℂ)) ^ 2 * ((c.mass .d : ℂ)) * (mb ρ2 (p 0) z1.1) * (sb z1.2 ρ1)) * i21 + ((2) * ((c.e : ℂ)) ^ 2 * (ab z0.1 z1.1) * (ab z1.1 z2.1) * (sb z1.2 ρ2) + (-2) * ((c.e : ℂ)) ^ 2 * (ab z0.1 z1.1) * (mb ρ2 (p 0) z2.1)) * i22 + ((-2) * ((c.e : ℂ)) ^ 2 * ((c.mass .d : ℂ)) * (ab z1.1 z2.1) * (mb ρ1 (p 0) z1.1)) * i23 + ((2) * ((c.e : ℂ)) ^ 2 * ((c.mass .d : ℂ)) ^ 2 * (ab z0.1 z1.1) * (ab z1.1 z2.1) + (-2) * ((c.e : ℂ)) ^ 2 * (N.c 1) * (ab z0.1 z1.1) * (ab z1.1 z2.1)) * i24 + ((2) * ((c.e : ℂ)) ^ 2 * ((c.mass .d : ℂ)) * (ab z1.1 z2.1) * (sb z1.2 ρ1)) * i25 + ((-2) * ((c.e : ℂ)) ^ 2 * ((c.mass .d : ℂ)) * (ab z1.1 z2.1) * (sb z1.2 ρ2)) * i26 + ((2) * ((c.e : ℂ)) ^ 2 * (ab z0.1 z1.1) * (ab z1.1 z2.1) * (mb ρ1 (p 0) z2.1) + (-2) * ((c.e : ℂ)) ^ 2 * (ab z0.1 z2.1) * (ab z1.1 z2.1) * (mb ρ1 (p 0) z1.1)) * i27 + ((2) * ((c.e : ℂ)) ^ 2 * (N.c 1) * (sb ρ1 ρ2) + (-2) * ((c.e : ℂ)) ^ 2 * (mb ρ1 (p 0) z1.1) * (sb z1.2 ρ2) + (2) * ((c.e : ℂ)) ^ 2 * (mb ρ2 (p 0) z1.1) * (sb z1.2 ρ1)) * i28 + ((-6) * ((c.e : ℂ)) ^ 2 * ((c.mass .d : ℂ)) * (ab z0.1 z1.1) * (ab z1.1 z2.1) * (ab z2.1 z3.1)) * i29 + ((-2) * ((c.e : ℂ)) ^ 2 * (ab z1.1 z2.1) * (ab z2.1 z3.1) * (sb z1.2 ρ1)) * i30 + ((-2) * ((c.e : ℂ)) ^ 2 * (ab z1.1 z2.1) * (ab z2.1 z3.1) * (mb ρ2 (p 0) z1.1)) * i31 + ((-2) * ((c.e : ℂ)) ^ 2 * (N.c 1) * (sb z0.2 ρ1) + (2) * ((c.e : ℂ)) ^ 2 * (mb ρ1 (p 0) z1.1) * (sb z0.2 z1.2)) * i32 + ((4) * ((c.e : ℂ)) ^ 2 * (N.c 1) * (sb z0.2 ρ2) + (-2) * ((c.e : ℂ)) ^ 2 * (mb ρ2 (p 0) z1.1) * (sb z0.2 z1.2)) * i33 + ((2) * ((c.e : ℂ)) ^ 2 * (ab z1.1 z2.1) * (ab z1.1 z3.1) * (sb z1.2 ρ1) + (-2) * ((c.e : ℂ)) ^ 2 * (ab z1.1 z3.1) * (mb ρ1 (p 0) z2.1)) * i34 + ((-2) * ((c.e : ℂ)) ^ 2 * (ab z1.1 z2.1) * (ab z1.1 z3.1) * (sb z1.2 ρ2) + (-2) * ((c.e : ℂ)) ^ 2 * (ab z1.1 z2.1) * (ab z2.1 z3.1) * (sb z2.2 ρ2) + (2) * ((c.e : ℂ)) ^ 2 * (ab z1.1 z3.1) * (mb ρ2 (p 0) z2.1)) * i35 + ((4) * ((c.e : ℂ)) ^ 2 * (ab z1.1 z2.1) * (ab z2.1 z3.1) * (sb z1.2 ρ2)) * i36 + ((4) * ((c.e : ℂ)) ^ 2 * (ab z1.1 z2.1) * (ab z2.1 z3.1) * (mb ρ1 (p 0) z1.1)) * i37 + ((2) * ((c.e : ℂ)) ^ 2 * (N.c 1) * (ab z0.1 z2.1) * (ab z1.1 z2.1)) * i38 + ((2) * ((c.e : ℂ)) ^ 2 * ((c.mass .d : ℂ)) * (ab z1.1 z2.1) * (sb ρ1 ρ2)) * i39 + ((2) * ((c.e : ℂ)) ^ 2 * (ab z1.1 z2.1) * (ab z2.1 z3.1) * (sb ρ1 ρ2)) * i40)) * ((1) * ((N.c 0)⁻¹) * ((N.c 1)⁻¹) / (9)) + ((2) * ((c.e : ℂ)) ^ 2 * ((c.mass .d : ℂ)) * ((N.c 1)⁻¹) * (ab z0.1 z1.1) * (ab z2.1 z3.1) * (sb ρ1 ρ2) / (9) + (2) * ((c.e : ℂ)) ^ 2 * ((c.mass .d : ℂ)) * ((N.c 1)⁻¹) * (ab z1.1 z2.1) * (sb z0.2 ρ1) * (sb z3.2 ρ2) / (9) + (-2) * ((c.e : ℂ)) ^ 2 * ((N.c 1)⁻¹) * (ab z0.1 z1.1) * (ab z1.1 z2.1) * (sb z1.2 ρ1) * (sb z3.2 ρ2) / (9) + (2) * ((c.e : ℂ)) ^ 2 * ((N.c 1)⁻¹) * (ab z0.1 z1.1) * (mb ρ1 (p 0) z2.1) * (sb z3.2 ρ2) / (9) + (2) * ((c.e : ℂ)) ^ 2 * ((N.c 1)⁻¹) * (ab z2.1 z3.1) * (mb ρ2 (p 0) z1.1) * (sb z0.2 ρ1) / (9)) * y0 + ((-2) * ((c.e : ℂ)) ^ 2 * ((c.mass .d : ℂ)) * ((N.c 0)⁻¹) * (ab z0.1 z2.1) * (ab z1.1 z3.1) * (sb ρ1 ρ2) / (9) + (-2) * ((c.e : ℂ)) ^ 2 * ((c.mass .d : ℂ)) * ((N.c 0)⁻¹) * (ab z1.1 z2.1) * (sb z0.2 ρ2) * (sb z3.2 ρ1) / (9) + (-2) * ((c.e : ℂ)) ^ 2 * ((N.c 0)⁻¹) * (ab z0.1 z2.1) * (ab z1.1 z2.1) * (sb z2.2 ρ2) * (sb z3.2 ρ1) / (9) + (2) * ((c.e : ℂ)) ^ 2 * ((N.c 0)⁻¹) * (ab z0.1 z2.1) * (mb ρ2 (p 0) z1.1) * (sb z3.2 ρ1) / (9) + (2) * ((c.e : ℂ)) ^ 2 * ((N.c 0)⁻¹) * (ab z1.1 z3.1) * (mb ρ1 (p 0) z2.1) * (sb z0.2 ρ2) / (9)) * y1 + ((1) * ((c.e : ℂ)) ^ 2 * ((c.mass .d : ℂ)) * ((N.c 0)⁻¹) * (ab z0.1 z2.1) * (ab z1.1 z3.1) * (sb ρ1 ρ2) / (9) + (1) * ((c.e : ℂ)) ^ 2 * ((c.mass .d : ℂ)) * ((N.c 0)⁻¹) * (ab z1.1 z2.1) * (sb z0.2 ρ2) * (sb z3.2 ρ1) / (9) + (-1) * ((c.e : ℂ)) ^ 2 * ((c.mass .d : ℂ)) * ((N.c 1)⁻¹) * (ab z0.1 z1.1) * (ab z2.1 z3.1) * (sb ρ1 ρ2) / (9) + (-1) * ((c.e : ℂ)) ^ 2 * ((c.mass .d : ℂ)) * ((N.c 1)⁻¹) * (ab z1.1 z2.1) * (sb z0.2 ρ1) * (sb z3.2 ρ2) / (9) + (1) * ((c.e : ℂ)) ^ 2 * ((N.c 0)⁻¹) * (ab z0.1 z2.1) * (ab z1.1 z2.1) * (sb z2.2 ρ2) * (sb z3.2 ρ1) / (9) + (-1) * ((c.e : ℂ)) ^ 2 * ((N.c 0)⁻¹) * (ab z0.1 z2.1) * (mb ρ2 (p 0) z1.1) * (sb z3.2 ρ1) / (9) + (-1) * ((c.e : ℂ)) ^ 2 * ((N.c 0)⁻¹) * (ab z1.1 z3.1) * (mb ρ1 (p 0) z2.1) * (sb z0.2 ρ2) / (9) + (1) * ((c.e : ℂ)) ^ 2 * ((N.c 1)⁻¹) * (ab z0.1 z1.1) * (ab z1.1 z2.1) * (sb z1.2 ρ1) * (sb z3.2 ρ2) / (9) + (-1) * ((c.e : ℂ)) ^ 2 * ((N.c 1)⁻¹) * (ab z0.1 z1.1) * (mb ρ1 (p 0) z2.1) * (sb z3.2 ρ2) / (9) + (-1) * ((c.e : ℂ)) ^ 2 * ((N.c 1)⁻¹) * (ab z2.1 z3.1) * (mb ρ2 (p 0) z1.1) * (sb z0.2 ρ1) / (9)) * x22
set_option maxRecDepth 8000 in
theorem dAAd.amp2_eq (N : Env) (f : Nat → List Int → ℂ) : Cls.dAAd.m_amp2.mean N f .r [] =
    ((sumJ (fun x a => (sumW (fun x b => (sumW (fun x c => (sumJ (fun x d => (x + (((3 : Nat) : ℝ) * (‖(f 0 [a, b, c, d])‖ ^ 2)))) x)) x)) x)) ((0 : Nat) : ℝ)) / ((12 : Nat) : ℝ)) := by rfl
set_option maxRecDepth 8000 in
theorem dAAd.value (N : Env) : meaning N .r Cls.dAAd.methods Cls.dAAd.amp2 [] =
    ((sumJ (fun x a => (sumW (fun x b => (sumW (fun x c => (sumJ (fun x d => (x + (((3 : Nat) : ℝ) * (‖(Cls.dAAd.m_amp.mean N (callMean N []) .c [a, b, c, d])‖ ^ 2)))) x)) x)) x)) ((0 : Nat) : ℝ)) / ((12 : Nat) : ℝ)) :=
  dAAd.amp2_eq N (callMean N [Cls.dAAd.m_amp])
set_option maxRecDepth 8000 in
theorem dAAd.ampPP (N : Env) (f : Nat → List Int → ℂ) (j1 j4 : Int) : Cls.dAAd.m_amp.mean N f .c [j1, 2, 2, j4] = dAAd.termPP N j1 j4 := by rfl
set_option maxRecDepth 8000 in
theorem dAAd.ampPM (N : Env) (f : Nat → List Int → ℂ) (j1 j4 : Int) : Cls.dAAd.m_amp.mean N f .c [j1, 2, (-2), j4] = dAAd.termPM N j1 j4 := by rfl
set_option maxRecDepth 8000 in
theorem dAAd.ampMP (N : Env) (f : Nat → List Int → ℂ) (j1 j4 : Int) : Cls.dAAd.m_amp.mean N f .c [j1, (-2), 2, j4] = dAAd.termMP N j1 j4 := by rfl
set_option maxRecDepth 8000 in
theorem dAAd.ampMM (N : Env) (f : Nat → List Int → ℂ) (j1 j4 : Int) : Cls.dAAd.m_amp.mean N f .c [j1, (-2), (-2), j4] = dAAd.termMM N j1 j4 := by rfl

theorem dAAd.mass_eq {c : Constants} (hc : c.Physical) (i : Fin 4) : dAAd.proc.massNum (dAAd.rho c) i = dAAd.react.mass c i := by
  fin_cases i <;> first | rfl | exact Nat.cast_zero | exact Nat.cast_zero.trans (hc.neutrino _).symm | (show c.MW / √(((1 : Nat) : ℝ) - c.SW * c.SW) = c.MZ; rw [c.root, c.mz])

variable [FPEnv] in
theorem dAAd.amps {c : Constants} {p : Nat → V4 ℝ} {u : Fin 4 → Fin 3 → Spinor} {ε : Fin 4 → Fin 3 → Vec} (hc : c.Physical) (hh : c.Heavy) (h0 : ∀ i, 0 ≤ dAAd.react.mass c i) (hs : ∀ i : Fin 4, OnShell (p i) (dAAd.react.mass c i)) (hb : Balanced p) (hr : dAAd.react.Regular c p) (hu : ∀ i, dAAd.react.Complete c p i (u i) (ε i)) :
    (dAAd.N c p).c 0 ≠ 0 ∧ (dAAd.N c p).c 1 ≠ 0 ∧ (∀ n, (Ty.r, n) ∈ dAAd.proc.divides → (dAAd.N c p).r n ≠ 0) ∧ (∀ n, (Ty.c, n) ∈ dAAd.proc.divides → (dAAd.N c p).c n ≠ 0) ∧ ∀ (s0 : Fin 2) (s3 : Fin 2) (h1 : Fin 2) (h2 : Fin 2), ‖Cls.dAAd.m_amp.mean (dAAd.N c p) (callMean (dAAd.N c p) []) .c [spinOf s0, spinW h1, spinW h2, spinOf s3]‖ = ‖dAAd.react.bare c p 3 0 1 2 (dAAd.react.codePair c p 3 s3) (dAAd.react.codePair c p 0 s0) (lightE (legA (p 1) 0 0, legS (p 1) 0 1) h1.castSucc) (lightE (legA (p 2) 0 0, legS (p 2) 0 1) h2.castSucc)‖ := by
  have he : dAAd.react.ends = [3] := by decide
  have ht : dAAd.react.starts = [0] := by decide
  have hB : dAAd.react.bosons = [1, 2] := by decide
  obtain ⟨f1, f2, f3⟩ := dAAd.react.regular_line he ht hB hr
  have r0 : (dAAd.N c p).r 0 = c.e := rfl
  have r1 : (dAAd.N c p).r 1 = ((-((1 : Nat) : ℝ)) / ((3 : Nat) : ℝ)) := rfl
  have r2 : (dAAd.N c p).r 2 = (c.mass .d) := rfl
  have c0 : (dAAd.N c p).c 0 = poleDist (c.mass .d) ((0 : Nat) : ℝ) ((VExp.sub 0 2).sum p) := rfl
  rw [Nat.cast_zero, pole_fermion rfl] at c0
  have d0 : ((msq (plus (p 0) (backward (p 2))) - c.mass .d ^ 2 : ℝ) : ℂ) = (dAAd.N c p).c 0 := by rw [c0, msq_t hb (plus (p 0) (backward (p 2))) (by simp)]
  have n0 : (dAAd.N c p).c 0 ≠ 0 := by rw [← d0]; exact_mod_cast f2 .d rfl rfl
  have c1 : (dAAd.N c p).c 1 = poleDist (c.mass .d) ((0 : Nat) : ℝ) ((VExp.add 0 1).sum p) := rfl
  rw [Nat.cast_zero, pole_fermion rfl] at c1
  have d1 : ((msq (plus (p 0) (p 1)) - c.mass .d ^ 2 : ℝ) : ℂ) = (dAAd.N c p).c 1 := by rw [c1, msq_s hb (plus (p 0) (p 1)) (by simp)]
  have n1 : (dAAd.N c p).c 1 ≠ 0 := by rw [← d1]; exact_mod_cast f1 .d rfl rfl
  obtain ⟨l1, x1, y1⟩ := dAAd.react.code_light hs hu (n := 1) rfl rfl
  obtain ⟨l2, x2, y2⟩ := dAAd.react.code_light hs hu (n := 2) rfl rfl
  have e10 := l1.pole_add (m := (c.mass .d)) (onShell_msq (hs 0)) (msq_s hb (plus (p 1) (p 0)) (by simp)) c1
  have e13 := l1.pole_sub (m := (c.mass .d)) (onShell_msq (hs 3)) (msq_t hb (plus (p 1) (backward (p 3))) (by simp)) c0
  have e20 := l2.pole_sub' (m := (c.mass .d)) (onShell_msq (hs 0)) (msq_t hb (plus (p 0) (backward (p 2))) (by simp)) c0
  have e23 := l2.pole_add (m := (c.mass .d)) (onShell_msq (hs 3)) (msq_s hb (plus (p 2) (p 3)) (by simp)) c1
  have m0 : dAAd.react.mass c 0 ≠ 0 := (leg_pos hc hh (by decide)).ne'
  have m3 : dAAd.react.mass c 3 ≠ 0 := (leg_pos hc hh (by decide)).ne'
  have m1 : dAAd.react.mass c 1 = 0 := rfl
  have m2 : dAAd.react.mass c 2 = 0 := rfl
  have hd : dAAd.proc.divides = [(Ty.c, 1), (Ty.c, 0)] := by decide +kernel
  have stPP : ∀ {z0 z3 : Pair} (b0 : Bold (p 0) (dAAd.react.mass c 0) z0) (b3 : Bold (p 3) (dAAd.react.mass c 3) z3), dAAd.formPP (dAAd.N c p) p z0 (legA (p 1) 0 0, legS (p 1) 0 1) (legA (p 2) 0 0, legS (p 2) 0 1) z3 = 1 * dAAd.react.bare c p 3 0 1 2 z3 z0 (lightE (legA (p 1) 0 0, legS (p 1) 0 1) 1) (lightE (legA (p 2) 0 0, legS (p 2) 0 1) 1) := by
    intro z0 z3 b0 b3
    exact (light_plus (z := (legA (p 1) 0 0, legS (p 1) 0 1)) (G := fun E => dAAd.react.bare c p 3 0 1 2 z3 z0 E (lightE (legA (p 2) 0 0, legS (p 2) 0 1) 1)) (dAAd.react.bare_lin₁ c p _ _ _ (by decide)) x1 (light_plus (z := (legA (p 2) 0 0, legS (p 2) 0 1)) (G := fun E => dAAd.react.bare c p 3 0 1 2 z3 z0 (pv (legA (p 1) 0 0, legS (p 1) 0 1).2 (legA (p 1) 0 0, legS (p 1) 0 1).2) E) (dAAd.react.bare_lin₂ c p _ _ _ (by decide)) x2 (dAAd.keyPP hc hb r0 r1 r2 d0 n0 d1 n1 b0 b3 l1 l2 e10 e13 e20 e23 (onShell_msq (hs 0)) (onShell_msq (hs 3)) _ _)))
  have stPM : ∀ {z0 z3 : Pair} (b0 : Bold (p 0) (dAAd.react.mass c 0) z0) (b3 : Bold (p 3) (dAAd.react.mass c 3) z3), dAAd.formPM (dAAd.N c p) p z0 (legA (p 1) 0 0, legS (p 1) 0 1) (legA (p 2) 0 0, legS (p 2) 0 1) z3 = (-1) * dAAd.react.bare c p 3 0 1 2 z3 z0 (lightE (legA (p 1) 0 0, legS (p 1) 0 1) 1) (lightE (legA (p 2) 0 0, legS (p 2) 0 1) 0) := by
    intro z0 z3 b0 b3
    exact (light_plus (z := (legA (p 1) 0 0, legS (p 1) 0 1)) (G := fun E => dAAd.react.bare c p 3 0 1 2 z3 z0 E (lightE (legA (p 2) 0 0, legS (p 2) 0 1) 0)) (dAAd.react.bare_lin₁ c p _ _ _ (by decide)) x1 (light_minus (z := (legA (p 2) 0 0, legS (p 2) 0 1)) (G := fun E => dAAd.react.bare c p 3 0 1 2 z3 z0 (pv (legA (p 1) 0 0, legS (p 1) 0 1).2 (legA (p 1) 0 0, legS (p 1) 0 1).2) E) (dAAd.react.bare_lin₂ c p _ _ _ (by decide)) y2 (dAAd.keyPM hc hb r0 r1 d0 n0 d1 n1 b0 b3 l1 l2 e10 e13 e20 e23 (onShell_msq (hs 0)) (onShell_msq (hs 3)) _ _)))
  have stMP : ∀ {z0 z3 : Pair} (b0 : Bold (p 0) (dAAd.react.mass c 0) z0) (b3 : Bold (p 3) (dAAd.react.mass c 3) z3), dAAd.formMP (dAAd.N c p) p z0 (legA (p 1) 0 0, legS (p 1) 0 1) (legA (p 2) 0 0, legS (p 2) 0 1) z3 = 1 * dAAd.react.bare c p 3 0 1 2 z3 z0 (lightE (legA (p 1) 0 0, legS (p 1) 0 1) 0) (lightE (legA (p 2) 0 0, legS (p 2) 0 1) 1) := by
    intro z0 z3 b0 b3
    exact (light_minus (z := (legA (p 1) 0 0, legS (p 1) 0 1)) (G := fun E => dAAd.react.bare c p 3 0 1 2 z3 z0 E (lightE (legA (p 2) 0 0, legS (p 2) 0 1) 1)) (dAAd.react.bare_lin₁ c p _ _ _ (by decide)) y1 (light_plus (z := (legA (p 2) 0 0, legS (p 2) 0 1)) (G := fun E => dAAd.react.bare c p 3 0 1 2 z3 z0 (pv (legA (p 1) 0 0, legS (p 1) 0 1).1 (legA (p 1) 0 0, legS (p 1) 0 1).1) E) (dAAd.react.bare_lin₂ c p _ _ _ (by decide)) x2 (dAAd.keyMP hc hb r0 r1 d0 n0 d1 n1 b0 b3 l1 l2 e10 e13 e20 e23 (onShell_msq (hs 0)) (onShell_msq (hs 3)) _ _)))
  have stMM : ∀ {z0 z3 : Pair} (b0 : Bold (p 0) (dAAd.react.mass c 0) z0) (b3 : Bold (p 3) (dAAd.react.mass c 3) z3), dAAd.formMM (dAAd.N c p) p z0 (legA (p 1) 0 0, legS (p 1) 0 1) (legA (p 2) 0 0, legS (p 2) 0 1) z3 = 1 * dAAd.react.bare c p 3 0 1 2 z3 z0 (lightE (legA (p 1) 0 0, legS (p 1) 0 1) 0) (lightE (legA (p 2) 0 0, legS (p 2) 0 1) 0) := by
    intro z0 z3 b0 b3
    exact (light_minus (z := (legA (p 1) 0 0, legS (p 1) 0 1)) (G := fun E => dAAd.react.bare c p 3 0 1 2 z3 z0 E (lightE (legA (p 2) 0 0, legS (p 2) 0 1) 0)) (dAAd.react.bare_lin₁ c p _ _ _ (by decide)) y1 (light_minus (z := (legA (p 2) 0 0, legS (p 2) 0 1)) (G := fun E => dAAd.react.bare c p 3 0 1 2 z3 z0 (pv (legA (p 1) 0 0, legS (p 1) 0 1).1 (legA (p 1) 0 0, legS (p 1) 0 1).1) E) (dAAd.react.bare_lin₂ c p _ _ _ (by decide)) y2 (dAAd.keyMM hc hb r0 r1 r2 d0 n0 d1 n1 b0 b3 l1 l2 e10 e13 e20 e23 (onShell_msq (hs 0)) (onShell_msq (hs 3)) _ _)))
  have amPP : ∀ (s0 : Fin 2) (s3 : Fin 2), Cls.dAAd.m_amp.mean (dAAd.N c p) (callMean (dAAd.N c p) []) .c [spinOf s0, 2, 2, spinOf s3] = 1 * dAAd.react.bare c p 3 0 1 2 (dAAd.react.codePair c p 3 s3) (dAAd.react.codePair c p 0 s0) (lightE (legA (p 1) 0 0, legS (p 1) 0 1) 1) (lightE (legA (p 2) 0 0, legS (p 2) 0 1) 1) := by
    intro s0 s3
    rw [dAAd.ampPP, ← stPP (dAAd.react.codePair_bold hs h0 0 s0) (dAAd.react.codePair_bold hs h0 3 s3)]
    have v8z1z2 : (dAAd.N c p).v 8 [] = sb (legA (p 1) 0 0, legS (p 1) 0 1).2 (legA (p 2) 0 0, legS (p 2) 0 1).2 := bra_square (p := p) (m := dAAd.proc.massNum (dAAd.rho c)) (dAAd.mass_eq hc 1) (dAAd.mass_eq hc 2) (.inr ⟨m1, rfl⟩) (.inr ⟨m2, rfl⟩)
    have v11z0z3 : (dAAd.N c p).v 11 [spinOf s0, spinOf s3] = ab (dAAd.react.codePair c p 0 s0).1 (dAAd.react.codePair c p 3 s3).1 := bra_angle (p := p) (m := dAAd.proc.massNum (dAAd.rho c)) (dAAd.mass_eq hc 0) (dAAd.mass_eq hc 3) (.inl ⟨m0, rfl⟩) (.inl ⟨m3, rfl⟩)
    simp only [dAAd.termPP, dAAd.formPP, v8z1z2, v11z0z3]
  have amPM : ∀ (s0 : Fin 2) (s3 : Fin 2), Cls.dAAd.m_amp.mean (dAAd.N c p) (callMean (dAAd.N c p) []) .c [spinOf s0, 2, (-2), spinOf s3] = (-1) * dAAd.react.bare c p 3 0 1 2 (dAAd.react.codePair c p 3 s3) (dAAd.react.codePair c p 0 s0) (lightE (legA (p 1) 0 0, legS (p 1) 0 1) 1) (lightE (legA (p 2) 0 0, legS (p 2) 0 1) 0) := by
    intro s0 s3
    rw [dAAd.ampPM, ← stPM (dAAd.react.codePair_bold hs h0 0 s0) (dAAd.react.codePair_bold hs h0 3 s3)]
    have v1z2z3 : (dAAd.N c p).v 1 [spinOf s3] = ab (legA (p 2) 0 0, legS (p 2) 0 1).1 (dAAd.react.codePair c p 3 s3).1 := bra_angle (p := p) (m := dAAd.proc.massNum (dAAd.rho c)) (dAAd.mass_eq hc 2) (dAAd.mass_eq hc 3) (.inr ⟨m2, rfl⟩) (.inl ⟨m3, rfl⟩)
    have v2z0z1 : (dAAd.N c p).v 2 [spinOf s0] = sb (dAAd.react.codePair c p 0 s0).2 (legA (p 1) 0 0, legS (p 1) 0 1).2 := bra_square (p := p) (m := dAAd.proc.massNum (dAAd.rho c)) (dAAd.mass_eq hc 0) (dAAd.mass_eq hc 1) (.inl ⟨m0, rfl⟩) (.inr ⟨m1, rfl⟩)
    have v5z0z2 : (dAAd.N c p).v 5 [spinOf s0] = ab (dAAd.react.codePair c p 0 s0).1 (legA (p 2) 0 0, legS (p 2) 0 1).1 := bra_angle (p := p) (m := dAAd.proc.massNum (dAAd.rho c)) (dAAd.mass_eq hc 0) (dAAd.mass_eq hc 2) (.inl ⟨m0, rfl⟩) (.inr ⟨m2, rfl⟩)
    have v6z1z3 : (dAAd.N c p).v 6 [spinOf s3] = sb (legA (p 1) 0 0, legS (p 1) 0 1).2 (dAAd.react.codePair c p 3 s3).2 := bra_square (p := p) (m := dAAd.proc.massNum (dAAd.rho c)) (dAAd.mass_eq hc 1) (dAAd.mass_eq hc 3) (.inr ⟨m1, rfl⟩) (.inl ⟨m3, rfl⟩)
    have v13z1z2 : (dAAd.N c p).v 13 [] = mb (legA (p 1) 0 0, legS (p 1) 0 1).2 (p 3) (legA (p 2) 0 0, legS (p 2) 0 1).1 := bra_mid_square (p := p) (m := dAAd.proc.massNum (dAAd.rho c)) (dAAd.mass_eq hc 1) (dAAd.mass_eq hc 2) (.inr ⟨m1, rfl⟩) (.inr ⟨m2, rfl⟩)
    simp only [dAAd.termPM, dAAd.formPM, v1z2z3, v2z0z1, v5z0z2, v6z1z3, v13z1z2]
  have amMP : ∀ (s0 : Fin 2) (s3 : Fin 2), Cls.dAAd.m_amp.mean (dAAd.N c p) (callMean (dAAd.N c p) []) .c [spinOf s0, (-2), 2, spinOf s3] = 1 * dAAd.react.bare c p 3 0 1 2 (dAAd.react.codePair c p 3 s3) (dAAd.react.codePair c p 0 s0) (lightE (legA (p 1) 0 0, legS (p 1) 0 1) 0) (lightE (legA (p 2) 0 0, legS (p 2) 0 1) 1) := by
    intro s0 s3
    rw [dAAd.ampMP, ← stMP (dAAd.react.codePair_bold hs h0 0 s0) (dAAd.react.codePair_bold hs h0 3 s3)]
    have v0z2z3 : (dAAd.N c p).v 0 [spinOf s3] = sb (legA (p 2) 0 0, legS (p 2) 0 1).2 (dAAd.react.codePair c p 3 s3).2 := bra_square (p := p) (m := dAAd.proc.massNum (dAAd.rho c)) (dAAd.mass_eq hc 2) (dAAd.mass_eq hc 3) (.inr ⟨m2, rfl⟩) (.inl ⟨m3, rfl⟩)
    have v3z0z1 : (dAAd.N c p).v 3 [spinOf s0] = ab (dAAd.react.codePair c p 0 s0).1 (legA (p 1) 0 0, legS (p 1) 0 1).1 := bra_angle (p := p) (m := dAAd.proc.massNum (dAAd.rho c)) (dAAd.mass_eq hc 0) (dAAd.mass_eq hc 1) (.inl ⟨m0, rfl⟩) (.inr ⟨m1, rfl⟩)
    have v4z0z2 : (dAAd.N c p).v 4 [spinOf s0] = sb (dAAd.react.codePair c p 0 s0).2 (legA (p 2) 0 0, legS (p 2) 0 1).2 := bra_square (p := p) (m := dAAd.proc.massNum (dAAd.rho c)) (dAAd.mass_eq hc 0) (dAAd.mass_eq hc 2) (.inl ⟨m0, rfl⟩) (.inr ⟨m2, rfl⟩)
    have v7z1z3 : (dAAd.N c p).v 7 [spinOf s3] = ab (legA (p 1) 0 0, legS (p 1) 0 1).1 (dAAd.react.codePair c p 3 s3).1 := bra_angle (p := p) (m := dAAd.proc.massNum (dAAd.rho c)) (dAAd.mass_eq hc 1) (dAAd.mass_eq hc 3) (.inr ⟨m1, rfl⟩) (.inl ⟨m3, rfl⟩)
    have v12z2z1 : (dAAd.N c p).v 12 [] = mb (legA (p 2) 0 0, legS (p 2) 0 1).2 (p 3) (legA (p 1) 0 0, legS (p 1) 0 1).1 := bra_mid_square (p := p) (m := dAAd.proc.massNum (dAAd.rho c)) (dAAd.mass_eq hc 2) (dAAd.mass_eq hc 1) (.inr ⟨m2, rfl⟩) (.inr ⟨m1, rfl⟩)
    simp only [dAAd.termMP, dAAd.formMP, v0z2z3, v3z0z1, v4z0z2, v7z1z3, v12z2z1]
  have amMM : ∀ (s0 : Fin 2) (s3 : Fin 2), Cls.dAAd.m_amp.mean (dAAd.N c p) (callMean (dAAd.N c p) []) .c [spinOf s0, (-2), (-2), spinOf s3] = 1 * dAAd.react.bare c p 3 0 1 2 (dAAd.react.codePair c p 3 s3) (dAAd.react.codePair c p 0 s0) (lightE (legA (p 1) 0 0, legS (p 1) 0 1) 0) (lightE (legA (p 2) 0 0, legS (p 2) 0 1) 0) := by
    intro s0 s3
    rw [dAAd.ampMM, ← stMM (dAAd.react.codePair_bold hs h0 0 s0) (dAAd.react.codePair_bold hs h0 3 s3)]
    have v9z1z2 : (dAAd.N c p).v 9 [] = ab (legA (p 1) 0 0, legS (p 1) 0 1).1 (legA (p 2) 0 0, legS (p 2) 0 1).1 := bra_angle (p := p) (m := dAAd.proc.massNum (dAAd.rho c)) (dAAd.mass_eq hc 1) (dAAd.mass_eq hc 2) (.inr ⟨m1, rfl⟩) (.inr ⟨m2, rfl⟩)
    have v10z0z3 : (dAAd.N c p).v 10 [spinOf s0, spinOf s3] = sb (dAAd.react.codePair c p 0 s0).2 (dAAd.react.codePair c p 3 s3).2 := bra_square (p := p) (m := dAAd.proc.massNum (dAAd.rho c)) (dAAd.mass_eq hc 0) (dAAd.mass_eq hc 3) (.inl ⟨m0, rfl⟩) (.inl ⟨m3, rfl⟩)
    simp only [dAAd.termMM, dAAd.formMM, v9z1z2, v10z0z3]
  refine ⟨n0, n1, fun n hn => ?_, fun n hn => ?_, ?_⟩
  · simp [hd] at hn
  · simp [hd] at hn
    rcases hn with rfl | rfl
    · exact n1
    · exact n0
  intro s0 s3 h1 h2
  match h1, h2 with
  | 1, 1 => exact norm_plus (amPP s0 s3)
  | 1, 0 => exact norm_minus (amPM s0 s3)
  | 0, 1 => exact norm_plus (amMP s0 s3)
  | 0, 0 => exact norm_plus (amMM s0 s3)

variable [FPEnv] in
theorem dAAd.agrees : dAAd.Agrees := by
  refine agrees_of (D := []) (E := []) (by simp [all, dAAd]) (by decide +kernel) (by decide) (by decide +kernel) (fun c hc hh => ⟨List.forall_mem_nil _, List.forall_mem_nil _⟩) (fun c hc i => dAAd.mass_eq hc i) (by decide +kernel) ?_
  intro c p u ε hc hh hw h0 hs hb hr hu
  have he : dAAd.react.ends = [3] := by decide
  have ht : dAAd.react.starts = [0] := by decide
  have hB : dAAd.react.bosons = [1, 2] := by decide
  obtain ⟨n0, n1, d1, d2, am⟩ := dAAd.amps hc hh h0 hs hb hr hu
  refine ⟨d1, d2, ?_⟩
  show meaning (dAAd.N c p) .r Cls.dAAd.methods Cls.dAAd.amp2 [] = _
  have s0 : dAAd.react.states 0 = 6 := by decide +kernel
  have s1 : dAAd.react.states 1 = 2 := by decide +kernel
  have sy : dAAd.react.symmetry = 1 := by decide
  have p0 : dAAd.react.spins 0 = {0, 1} := rfl
  have p1 : dAAd.react.spins 1 = {0, 1} := rfl
  have p2 : dAAd.react.spins 2 = {0, 1} := rfl
  have p3 : dAAd.react.spins 3 = {0, 1} := rfl
  have E1 : dAAd.react.codeE c p 1 = lightE (legA (p 1) 0 0, legS (p 1) 0 1) := rfl
  have E2 : dAAd.react.codeE c p 2 = lightE (legA (p 2) 0 0, legS (p 2) 0 1) := rfl
  have hG : dAAd.react.Gauge c p := (dAAd.react.gauge_line he ht hB hh (by decide) (fun n => onShell_msq (hs n)) hb hr (fun n m h h2 => absurd (And.intro h h2) (by revert n m; decide)) (fun _ => ⟨rfl, rfl⟩) (fun _ => ⟨rfl, rfl⟩))
  have lc : dAAd.react.lineColours 3 0 = 3 := by decide +kernel
  rw [dAAd.value, dAAd.react.squared_line he ht hB (by decide) hs h0 (fun _ b _ hb _ => (boson_pos hc hh hb).ne') hG (E := dAAd.react.codeE c p) (fun n b hl => dAAd.react.codeE_polarised hs h0 hu (fun b hb => (boson_pos hc hh hb).ne') n b hl) hu, sum_colours, lc, s0, s1, sy]
  simp only [sumV_sum, sumJ_sum, sumW_sum, am, p0, p1, p2, p3, E1, E2, Finset.sum_singleton, sum_two, Matrix.cons_val_zero, Matrix.cons_val_one, Matrix.cons_val, two_castSucc]
  try simp only [← Finset.mul_sum]
  push_cast
  first | ring1 | ring_nf

/-! ### eAAe -/

/-- what the methods of the class see -/
noncomputable abbrev eAAe.N [FPEnv] (c : Constants) (p : Nat → V4 ℝ) : Env := eAAe.proc.env (eAAe.rho c) p
/-- `amp` for a photon of positive helicity and a photon of positive helicity (SM/eAAe.cpp) -/
noncomputable def eAAe.termPP (N : Env) (j1 j4 : Int) : ℂ :=
  ((((((((((((2 : Nat) : ℝ) * N.r 0) * N.r 0) * N.r 1) : ℝ) : ℂ) * N.v 8 []) * N.v 8 []) * N.v 11 [j1, j4]) / N.c 0) / N.c 1)
/-- the same with spinors in place of their spins -/
noncomputable def eAAe.formPP (N : Env) (p : Nat → V4 ℝ) (z0 z1 z2 z3 : Pair) : ℂ :=
  ((((((((((((2 : Nat) : ℝ) * N.r 0) * N.r 0) * N.r 1) : ℝ) : ℂ) * (sb z1.2 z2.2)) * (sb z1.2 z2.2)) * (ab z0.1 z3.1)) / N.c 0) / N.c 1)
/-- `amp` for a photon of positive helicity and a photon of negative helicity (SM/eAAe.cpp) -/
noncomputable def eAAe.termPM (N : Env) (j1 j4 : Int) : ℂ :=
  (((((((((-((2 : Nat) : ℝ)) * N.r 0) * N.r 0) : ℝ) : ℂ) * ((N.v 1 [j4] * N.v 2 [j1]) - (N.v 5 [j1] * N.v 6 [j4]))) * N.v 13 []) / N.c 0) / N.c 1)
/-- the same with spinors in place of their spins -/
noncomputable def eAAe.formPM (N : Env) (p : Nat → V4 ℝ) (z0 z1 z2 z3 : Pair) : ℂ :=
  (((((((((-((2 : Nat) : ℝ)) * N.r 0) * N.r 0) : ℝ) : ℂ) * (((ab z2.1 z3.1) * (sb z0.2 z1.2)) - ((ab z0.1 z2.1) * (sb z1.2 z3.2)))) * (mb z1.2 (p 3) z2.1)) / N.c 0) / N.c 1)
/-- `amp` for a photon of negative helicity and a photon of positive helicity (SM/eAAe.cpp) -/
noncomputable def eAAe.termMP (N : Env) (j1 j4 : Int) : ℂ :=
  ((((((((((2 : Nat) : ℝ) * N.r 0) * N.r 0) : ℝ) : ℂ) * ((N.v 0 [j4] * N.v 3 [j1]) - (N.v 4 [j1] * N.v 7 [j4]))) * N.v 12 []) / N.c 0) / N.c 1)
/-- the same with spinors in place of their spins -/
noncomputable def eAAe.formMP (N : Env) (p : Nat → V4 ℝ) (z0 z1 z2 z3 : Pair) : ℂ :=
  ((((((((((2 : Nat) : ℝ) * N.r 0) * N.r 0) : ℝ) : ℂ) * (((sb z2.2 z3.2) * (ab z0.1 z1.1)) - ((sb z0.2 z2.2) * (ab z1.1 z3.1)))) * (mb z2.2 (p 3) z1.1)) / N.c 0) / N.c 1)
/-- `amp` for a photon of negative helicity and a photon of negative helicity (SM/eAAe.cpp) -/
noncomputable def eAAe.termMM (N : Env) (j1 j4 : Int) : ℂ :=
  (((((((((((-((2 : Nat) : ℝ)) * N.r 0) * N.r 0) * N.r 1) : ℝ) : ℂ) * N.v 9 []) * N.v 9 []) * N.v 10 [j1, j4]) / N.c 0) / N.c 1)
/-- the same with spinors in place of their spins -/
noncomputable def eAAe.formMM (N : Env) (p : Nat → V4 ℝ) (z0 z1 z2 z3 : Pair) : ℂ :=
  (((((((((((-((2 : Nat) : ℝ)) * N.r 0) * N.r 0) * N.r 1) : ℝ) : ℂ) * (ab z1.1 z2.1)) * (ab z1.1 z2.1)) * (sb z0.2 z3.2)) / N.c 0) / N.c 1)
theorem eAAe.keyPP {c : Constants} {p : Nat → V4 ℝ} {N : Env} (hc : c.Physical) (hb : Balanced p) (r0 : N.r 0 = c.e) (r1 : N.r 1 = (c.mass .e)) (d0 : ((msq (plus (p 0) (p 1)) - c.mass .e ^ 2 : ℝ) : ℂ) = N.c 0) (n0 : N.c 0 ≠ 0) (d1 : ((msq (plus (p 0) (backward (p 2))) - c.mass .e ^ 2 : ℝ) : ℂ) = N.c 1) (n1 : N.c 1 ≠ 0) {z0 z1 z2 z3 : Pair} (b0 : Bold (p 0) (c.mass .e) z0) (b3 : Bold (p 3) (c.mass .e) z3) (l1 : Light (p 1) z1) (l2 : Light (p 2) z2) (e10 : mb z1.2 (p 0) z1.1 = N.c 0) (e13 : mb z1.2 (p 3) z1.1 = -N.c 1) (e20 : mb z2.2 (p 0) z2.1 = -N.c 1) (e23 : mb z2.2 (p 3) z2.1 = N.c 0) (q0 : msq (p 0) = (c.mass .e) ^ 2) (q3 : msq (p 3) = (c.mass .e) ^ 2) (ρ1 ρ2 : V2) :
    eAAe.formPP N p z0 z1 z2 z3 * ab ρ1 z1.1 * ab ρ2 z2.1 = ((√2 : ℝ) * ((√2 : ℝ) * (1 : ℂ))) * eAAe.react.bare c p 3 0 1 2 z3 z0 (pv ρ1 z1.2) (pv ρ2 z2.2) := by
  rw [eAAe.react.bare_parts c p (i := 3) (j := 0) (a := 1) (b := 2) (x := .photon) (y := .photon) (k := (p 1)) (k' := (backward (p 2))) (fun _ => rfl) (fun _ => rfl) (f := .e) (g := .e) rfl rfl (l := (p 0)) rfl (e := 1) (e' := 1) (if_neg Bool.false_ne_true) (if_neg Bool.false_ne_true)]
  rw [compton_vv (f := .e) (x := .e) (g := .e) (h := (rfl : Spec.after .photon Flavour.e = some Flavour.e)) (h' := (rfl : Spec.after .photon Flavour.e = some Flavour.e)) (ha := by simp) (hb := by simp)]
  rw [compton_vv (f := .e) (x := .e) (g := .e) (h := (rfl : Spec.after .photon Flavour.e = some Flavour.e)) (h' := (rfl : Spec.after .photon Flavour.e = some Flavour.e)) (ha := by simp) (hb := by simp)]
  rw [annihilation_none c _ _ (by rfl) (by simp), star_zero, add_zero, eAAe.formPP]
  simp only [d0, d1, lineV_pv, lineV_four, contract_four_pv, contract_pv, mb_plus, mb_backward]
  have i0 := ab_schouten z1.1 z3.1 ρ1 z0.1
  have i1 := mb_schouten_right z1.2 (p 0) z1.1 z2.1 z3.1
  have i2 := ab_schouten z1.1 ρ1 ρ2 z0.1
  have i3 := ab_schouten z3.1 ρ1 ρ2 z1.1
  have i4 := mb_schouten_left z0.2 z1.2 z2.2 (p 0) ρ1
  have i5 := mb_schouten_right z2.2 (p 0) z1.1 z3.1 ρ1
  have i6 := mb_schouten_right z1.2 (p 0) z1.1 z3.1 ρ2
  have i7 := mb_schouten_right z2.2 (p 0) z0.1 z1.1 ρ1
  have i8 := mb_schouten_right z1.2 (p 0) z0.1 z1.1 ρ2
  have i9 := sb_schouten z1.2 z2.2 z3.2 z0.2
  have i10 := mb_schouten_right z0.2 (p 3) z1.1 z3.1 ρ1
  have i11 := mb_schouten_right z1.2 (p 0) z0.1 z3.1 ρ2
  have i12 := ab_schouten z1.1 z3.1 ρ2 z0.1
  have i13 := mb_schouten_right z0.2 (p 3) z1.1 z3.1 ρ2
  have i14 := mb_schouten_right z1.2 (p 0) z0.1 z3.1 ρ1
  have i15 := ab_schouten z3.1 ρ1 ρ2 z2.1
  have i16 := ab_schouten z2.1 z3.1 ρ1 z1.1
  have i17 := mb_schouten_right z1.2 (p 0) z0.1 z1.1 ρ1
  have i18 := mb_schouten_right z1.2 (p 0) z0.1 z1.1 z3.1
  have i19 := ab_schouten z3.1 ρ1 ρ2 z0.1
  have i20 := ab_schouten z2.1 z3.1 ρ2 z1.1
  have i21 := mb_schouten_right z1.2 (p 0) z1.1 z3.1 ρ1
  have i22 := mb_schouten_left z0.2 z1.2 z2.2 (p 0) z1.1
  have i23 := mb_schouten_right z2.2 (p 0) z1.1 z2.1 ρ1
  have i24 := ab_schouten z2.1 ρ1 ρ2 z1.1
  have i25 := mb_schouten_right z1.2 (p 0) z1.1 z2.1 ρ2
  have i26 := mb_schouten_right z1.2 (p 0) z0.1 ρ1 ρ2
  have i27 := mb_schouten_right z1.2 (p 3) z0.1 z1.1 ρ1
  have i28 := mb_schouten_left z0.2 z1.2 z2.2 (p 0) z2.1
  have i29 := mb_schouten_right z1.2 (p 3) z1.1 z3.1 ρ1
  have i30 := mb_schouten_right z1.2 (p 0) z0.1 z2.1 ρ1
  have i31 := mb_schouten_right z1.2 (p 3) z0.1 z1.1 ρ2
  have i32 := mb_schouten_right z1.2 (p 0) z0.1 z1.1 z2.1
  have i33 := ab_schouten z2.1 ρ1 ρ2 z0.1
  have i34 := mb_schouten_right z1.2 (p 0) z0.1 z2.1 ρ2
  have i35 := mb_schouten_right z1.2 (p 3) z1.1 z3.1 ρ2
  have i36 := mb_schouten_right z0.2 (p 3) z3.1 ρ1 ρ2
  have i37 := mb_schouten_left z1.2 z2.2 z3.2 (p 0) z1.1
  have i38 := ab_schouten z1.1 z2.1 ρ1 z0.1
  have i39 := mb_schouten_right z2.2 (p 0) z1.1 z2.1 z3.1
  simp only [l1.mb_eq, l2.mb_eq, b0.mb_left, b0.mb_right, b3.mb_left, b3.mb_right, e10, e13, e20, e23, mb_three hb z0.2 z0.1, mb_three hb z0.2 z1.1, mb_three hb z0.2 z2.1, mb_three hb z0.2 ρ1, mb_three hb z0.2 ρ2, mb_three hb z1.2 z0.1, mb_three hb z1.2 z2.1, mb_nought hb z1.2 z3.1, mb_three hb z1.2 ρ1, mb_three hb z1.2 ρ2, mb_three hb z2.2 z0.1, mb_three hb z2.2 z1.1, mb_nought hb z2.2 z3.1, mb_three hb z2.2 ρ1, mb_three hb z2.2 ρ2, mb_nought hb z3.2 z1.1, mb_nought hb z3.2 z2.1, mb_nought hb z3.2 z3.1, mb_nought hb z3.2 ρ1, mb_nought hb z3.2 ρ2, ab_self, sb_self] at i0 i1 i2 i3 i4 i5 i6 i7 i8 i9 i10 i11 i12 i13 i14 i15 i16 i17 i18 i19 i20 i21 i22 i23 i24 i25 i26 i27 i28 i29 i30 i31 i32 i33 i34 i35 i36 i37 i38 i39 ⊢
  simp only [ab_swap z0.1 z1.1, ab_swap z0.1 z2.1, ab_swap z0.1 z3.1, ab_swap z0.1 ρ1, ab_swap z0.1 ρ2, ab_swap z1.1 z2.1, ab_swap z1.1 z3.1, ab_swap z1.1 ρ1, ab_swap z1.1 ρ2, ab_swap z2.1 z3.1, ab_swap z2.1 ρ1, ab_swap z2.1 ρ2, ab_swap z3.1 ρ1, ab_swap z3.1 ρ2, ab_swap ρ1 ρ2, sb_swap z0.2 z1.2, sb_swap z0.2 z2.2, sb_swap z0.2 z3.2, sb_swap z1.2 z2.2, sb_swap z1.2 z3.2, sb_swap z2.2 z3.2] at i0 i1 i2 i3 i4 i5 i6 i7 i8 i9 i10 i11 i12 i13 i14 i15 i16 i17 i18 i19 i20 i21 i22 i23 i24 i25 i26 i27 i28 i29 i30 i31 i32 i33 i34 i35 i36 i37 i38 i39 ⊢
  simp only [r0, r1, Constants.hL, Constants.hR, Constants.gL, Constants.gR, Constants.yuk, Constants.invVev, Flavour.charge_e, Flavour.isospin_e, ← c.mz]
  have xMW : (c.MW : ℂ) ≠ 0 := by exact_mod_cast hc.MW
  have xSW : (c.SW : ℂ) ≠ 0 := by exact_mod_cast hc.SW
  have xCW : (c.CW : ℂ) ≠ 0 := by exact_mod_cast hc.CW
  have x2 : ((√2 : ℝ) : ℂ) ≠ 0 := by exact_mod_cast (Real.sqrt_pos.2 two_pos).ne'
  have x22 : ((√2 : ℝ) : ℂ) ^ 2 = 2 := by rw [← Complex.ofReal_pow, Real.sq_sqrt two_pos.le]; norm_num
  have x23 : ((√2 : ℝ) : ℂ) ^ 3 = 2 * ((√2 : ℝ) : ℂ) := by rw [← x22]; ring
  have x24 : ((√2 : ℝ) : ℂ) ^ 4 = 4 := by linear_combination (((√2 : ℝ) : ℂ) ^ 2 + 2) * x22
  push_cast at i0 i1 i2 i3 i4 i5 i6 i7 i8 i9 i10 i11 i12 i13 i14 i15 i16 i17 i18 i19 i20 i21 i22 i23 i24 i25 i26 i27 i28 i29 i30 i31 i32 i33 i34 i35 i36 i37 i38 i39 ⊢
  have y0 := mul_inv_cancel₀ n0
  have y1 := mul_inv_cancel₀ n1
  linear_combination ((((-2) * ((c.e : ℂ)) ^ 2 * ((c.mass .e : ℂ)) * (ab z2.1 ρ2) * (sb z1.2 z2.2) ^ 2 + (4) * ((c.e : ℂ)) ^ 2 * ((c.mass .e : ℂ)) * (mb z1.2 (p 0) ρ2) * (sb z1.2 z2.2)) * i0 + ((2) * ((c.e : ℂ)) ^ 2 * (ab ρ1 ρ2) * (sb z0.2 z2.2) * (sb z1.2 z2.2)) * i1 + ((4) * ((c.e : ℂ)) ^ 2 * ((c.mass .e : ℂ)) * (ab z2.1 z3.1) * (sb z1.2 z2.2) ^ 2 + (-4) * ((c.e : ℂ)) ^ 2 * ((c.mass .e : ℂ)) ^ 2 * (sb z1.2 z2.2) * (sb z1.2 z3.2) + (2) * ((c.e : ℂ)) ^ 2 * (mb z1.2 (p 0) z2.1) * (sb z1.2 z2.2) * (sb z2.2 z3.2)) * i2 + ((4) * ((c.e : ℂ)) ^ 2 * ((c.mass .e : ℂ)) ^ 2 * (sb z0.2 z1.2) * (sb z1.2 z2.2) + (-2) * ((c.e : ℂ)) ^ 2 * (N.c 1) * (sb z0.2 z1.2) * (sb z1.2 z2.2) + (2) * ((c.e : ℂ)) ^ 2 * (mb z1.2 (p 0) z2.1) * (sb z0.2 z2.2) * (sb z1.2 z2.2)) * i3 + ((-4) * ((c.e : ℂ)) ^ 2 * (N.c 0) * (ab z3.1 ρ2)) * i4 + ((2) * ((c.e : ℂ)) ^ 2 * (ab z2.1 ρ2) * (sb z0.2 z1.2) * (sb z1.2 z2.2) + (-2) * ((c.e : ℂ)) ^ 2 * (mb z1.2 (p 0) ρ2) * (sb z0.2 z1.2)) * i5 + ((2) * ((c.e : ℂ)) ^ 2 * (ab z1.1 ρ1) * (sb z0.2 z1.2) * (sb z1.2 z2.2) + (-2) * ((c.e : ℂ)) ^ 2 * (ab z2.1 ρ1) * (sb z0.2 z2.2) * (sb z1.2 z2.2) + (-4) * ((c.e : ℂ)) ^ 2 * (mb z1.2 (p 0) ρ1) * (sb z0.2 z2.2) + (4) * ((c.e : ℂ)) ^ 2 * (mb z2.2 (p 0) ρ1) * (sb z0.2 z1.2)) * i6 + ((2) * ((c.e : ℂ)) ^ 2 * (mb z1.2 (p 0) ρ2) * (sb z1.2 z3.2)) * i7 + ((-2) * ((c.e : ℂ)) ^ 2 * (ab z2.1 ρ1) * (sb z1.2 z2.2) * (sb z2.2 z3.2) + (2) * ((c.e : ℂ)) ^ 2 * (mb z1.2 (p 0) ρ1) * (sb z2.2 z3.2) + (-2) * ((c.e : ℂ)) ^ 2 * (mb z2.2 (p 0) ρ1) * (sb z1.2 z3.2)) * i8 + ((2) * ((c.e : ℂ)) ^ 2 * ((c.mass .e : ℂ)) * (N.c 0) * (ab ρ1 ρ2) + (-2) * ((c.e : ℂ)) ^ 2 * ((c.mass .e : ℂ)) * (ab z1.1 ρ1) * (ab z2.1 ρ2) * (sb z1.2 z2.2) + (6) * ((c.e : ℂ)) ^ 2 * ((c.mass .e : ℂ)) * (ab z1.1 ρ1) * (mb z1.2 (p 0) ρ2) + (-4) * ((c.e : ℂ)) ^ 2 * ((c.mass .e : ℂ)) * (ab z1.1 ρ2) * (mb z1.2 (p 0) ρ1)) * i9 + ((2) * ((c.e : ℂ)) ^ 2 * (ab z2.1 ρ2) * (sb z1.2 z2.2) ^ 2 + (-6) * ((c.e : ℂ)) ^ 2 * (mb z1.2 (p 0) ρ2) * (sb z1.2 z2.2)) * i10 + ((4) * ((c.e : ℂ)) ^ 2 * ((c.mass .e : ℂ)) * (ab z1.1 ρ1) * (sb z1.2 z2.2)) * i11 + ((-4) * ((c.e : ℂ)) ^ 2 * ((c.mass .e : ℂ)) * (mb z1.2 (p 0) ρ1) * (sb z1.2 z2.2)) * i12 + ((4) * ((c.e : ℂ)) ^ 2 * (mb z1.2 (p 0) ρ1) * (sb z1.2 z2.2)) * i13 + ((-4) * ((c.e : ℂ)) ^ 2 * ((c.mass .e : ℂ)) * (ab z1.1 ρ2) * (sb z1.2 z2.2)) * i14 + ((-2) * ((c.e : ℂ)) ^ 2 * (N.c 0) * (sb z0.2 z2.2) * (sb z1.2 z2.2) + (-2) * ((c.e : ℂ)) ^ 2 * (mb z2.2 (p 0) z1.1) * (sb z0.2 z1.2) * (sb z1.2 z2.2)) * i15 + ((-2) * ((c.e : ℂ)) ^ 2 * (ab z2.1 ρ2) * (sb z0.2 z2.2) * (sb z1.2 z2.2) ^ 2 + (4) * ((c.e : ℂ)) ^ 2 * (mb z1.2 (p 0) ρ2) * (sb z0.2 z2.2) * (sb z1.2 z2.2)) * i16 + ((-2) * ((c.e : ℂ)) ^ 2 * ((c.mass .e : ℂ)) * (ab z3.1 ρ2) * (sb z1.2 z2.2) + (2) * ((c.e : ℂ)) ^ 2 * (ab z2.1 ρ2) * (sb z1.2 z2.2) * (sb z2.2 z3.2) + (-4) * ((c.e : ℂ)) ^ 2 * (mb z1.2 (p 0) ρ2) * (sb z2.2 z3.2)) * i17 + ((-4) * ((c.e : ℂ)) ^ 2 * ((c.mass .e : ℂ)) * (ab ρ1 ρ2) * (sb z1.2 z2.2)) * i18 + ((-4) * ((c.e : ℂ)) ^ 2 * ((c.mass .e : ℂ)) * (N.c 0) * (sb z1.2 z2.2)) * i19 + ((-4) * ((c.e : ℂ)) ^ 2 * (mb z1.2 (p 0) ρ1) * (sb z0.2 z2.2) * (sb z1.2 z2.2) + (4) * ((c.e : ℂ)) ^ 2 * (mb z2.2 (p 0) ρ1) * (sb z0.2 z1.2) * (sb z1.2 z2.2)) * i20 + ((-2) * ((c.e : ℂ)) ^ 2 * (ab z1.1 ρ2) * (sb z0.2 z1.2) * (sb z1.2 z2.2) + (4) * ((c.e : ℂ)) ^ 2 * (mb z1.2 (p 0) ρ2) * (sb z0.2 z2.2)) * i21 + ((2) * ((c.e : ℂ)) ^ 2 * (ab z2.1 ρ1) * (ab z3.1 ρ2) * (sb z1.2 z2.2) + (2) * ((c.e : ℂ)) ^ 2 * (ab z3.1 ρ1) * (mb z1.2 (p 0) ρ2)) * i22 + ((-4) * ((c.e : ℂ)) ^ 2 * (ab z3.1 ρ2) * (sb z0.2 z1.2) * (sb z1.2 z2.2)) * i23 + ((4) * ((c.e : ℂ)) ^ 2 * ((c.mass .e : ℂ)) * (sb z0.2 z1.2) * (sb z1.2 z2.2) * (sb z2.2 z3.2) + (2) * ((c.e : ℂ)) ^ 2 * ((c.mass .e : ℂ)) * (sb z0.2 z2.2) * (sb z1.2 z2.2) * (sb z1.2 z3.2) + (-2) * ((c.e : ℂ)) ^ 2 * (ab z1.1 z3.1) * (sb z0.2 z1.2) * (sb z1.2 z2.2) ^ 2 + (-2) * ((c.e : ℂ)) ^ 2 * (ab z2.1 z3.1) * (sb z0.2 z2.2) * (sb z1.2 z2.2) ^ 2) * i24 + ((2) * ((c.e : ℂ)) ^ 2 * (ab z3.1 ρ1) * (sb z0.2 z2.2) * (sb z1.2 z2.2)) * i25 + ((-2) * ((c.e : ℂ)) ^ 2 * (N.c 0) * (sb z2.2 z3.2) + (2) * ((c.e : ℂ)) ^ 2 * (N.c 1) * (sb z2.2 z3.2)) * i26 + ((2) * ((c.e : ℂ)) ^ 2 * ((c.mass .e : ℂ)) * (ab z3.1 ρ2) * (sb z1.2 z2.2)) * i27 + ((-2) * ((c.e : ℂ)) ^ 2 * (ab z1.1 ρ1) * (ab z3.1 ρ2) * (sb z1.2 z2.2)) * i28 + ((-2) * ((c.e : ℂ)) ^ 2 * (ab z1.1 ρ2) * (sb z0.2 z1.2) * (sb z1.2 z2.2)) * i29 + ((-2) * ((c.e : ℂ)) ^ 2 * (ab z1.1 ρ2) * (sb z1.2 z2.2) * (sb z2.2 z3.2)) * i30 + ((2) * ((c.e : ℂ)) ^ 2 * (mb z1.2 (p 0) ρ1) * (sb z2.2 z3.2)) * i31 + ((-2) * ((c.e : ℂ)) ^ 2 * (ab ρ1 ρ2) * (sb z1.2 z2.2) * (sb z2.2 z3.2)) * i32 + ((-2) * ((c.e : ℂ)) ^ 2 * (N.c 0) * (sb z1.2 z2.2) * (sb z2.2 z3.2)) * i33 + ((2) * ((c.e : ℂ)) ^ 2 * (ab z1.1 ρ1) * (sb z1.2 z2.2) * (sb z2.2 z3.2)) * i34 + ((2) * ((c.e : ℂ)) ^ 2 * (ab z1.1 ρ1) * (sb z0.2 z1.2) * (sb z1.2 z2.2) + (-2) * ((c.e : ℂ)) ^ 2 * (mb z2.2 (p 0) ρ1) * (sb z0.2 z1.2)) * i35 + ((2) * ((c.e : ℂ)) ^ 2 * (N.c 0) * (sb z1.2 z2.2)) * i36 + ((-2) * ((c.e : ℂ)) ^ 2 * (ab z0.1 ρ1) * (mb z1.2 (p 0) ρ2)) * i37 + ((2) * ((c.e : ℂ)) ^ 2 * (mb z1.2 (p 0) ρ2) * (sb z1.2 z2.2) * (sb z2.2 z3.2)) * i38 + ((2) * ((c.e : ℂ)) ^ 2 * (ab ρ1 ρ2) * (sb z0.2 z1.2) * (sb z1.2 z2.2)) * i39)) * ((1) * ((N.c 0)⁻¹) * ((N.c 1)⁻¹)) + ((2) * ((c.e : ℂ)) ^ 2 * ((c.mass .e : ℂ)) * ((N.c 1)⁻¹) * (ab z0.1 ρ2) * (ab z3.1 ρ1) * (sb z1.2 z2.2) + (2) * ((c.e : ℂ)) ^ 2 * ((c.mass .e : ℂ)) * ((N.c 1)⁻¹) * (ab ρ1 ρ2) * (sb z0.2 z2.2) * (sb z1.2 z3.2) + (-2) * ((c.e : ℂ)) ^ 2 * ((N.c 1)⁻¹) * (ab z0.1 ρ2) * (mb z2.2 (p 0) ρ1) * (sb z1.2 z3.2) + (2) * ((c.e : ℂ)) ^ 2 * ((N.c 1)⁻¹) * (ab z2.1 ρ2) * (ab z3.1 ρ1) * (sb z0.2 z2.2) * (sb z1.2 z2.2) + (-2) * ((c.e : ℂ)) ^ 2 * ((N.c 1)⁻¹) * (ab z3.1 ρ1) * (mb z1.2 (p 0) ρ2) * (sb z0.2 z2.2)) * y0 + ((-2) * ((c.e : ℂ)) ^ 2 * ((c.mass .e : ℂ)) * ((N.c 0)⁻¹) * (ab z0.1 ρ1) * (ab z3.1 ρ2) * (sb z1.2 z2.2) + (-2) * ((c.e : ℂ)) ^ 2 * ((c.mass .e : ℂ)) * ((N.c 0)⁻¹) * (ab ρ1 ρ2) * (sb z0.2 z1.2) * (sb z2.2 z3.2) + (-2) * ((c.e : ℂ)) ^ 2 * ((N.c 0)⁻¹) * (ab z0.1 ρ1) * (mb z1.2 (p 0) ρ2) * (sb z2.2 z3.2) + (2) * ((c.e : ℂ)) ^ 2 * ((N.c 0)⁻¹) * (ab z1.1 ρ1) * (ab z3.1 ρ2) * (sb z0.2 z1.2) * (sb z1.2 z2.2) + (-2) * ((c.e : ℂ)) ^ 2 * ((N.c 0)⁻¹) * (ab z3.1 ρ2) * (mb z2.2 (p 0) ρ1) * (sb z0.2 z1.2)) * y1 + ((1) * ((c.e : ℂ)) ^ 2 * ((c.mass .e : ℂ)) * ((N.c 0)⁻¹) * (ab z0.1 ρ1) * (ab z3.1 ρ2) * (sb z1.2 z2.2) + (1) * ((c.e : ℂ)) ^ 2 * ((c.mass .e : ℂ)) * ((N.c 0)⁻¹) * (ab ρ1 ρ2) * (sb z0.2 z1.2) * (sb z2.2 z3.2) + (-1) * ((c.e : ℂ)) ^ 2 * ((c.mass .e : ℂ)) * ((N.c 1)⁻¹) * (ab z0.1 ρ2) * (ab z3.1 ρ1) * (sb z1.2 z2.2) + (-1) * ((c.e : ℂ)) ^ 2 * ((c.mass .e : ℂ)) * ((N.c 1)⁻¹) * (ab ρ1 ρ2) * (sb z0.2 z2.2) * (sb z1.2 z3.2) + (1) * ((c.e : ℂ)) ^ 2 * ((N.c 0)⁻¹) * (ab z0.1 ρ1) * (mb z1.2 (p 0) ρ2) * (sb z2.2 z3.2) + (-1) * ((c.e : ℂ)) ^ 2 * ((N.c 0)⁻¹) * (ab z1.1 ρ1) * (ab z3.1 ρ2) * (sb z0.2 z1.2) * (sb z1.2 z2.2) + (1) * ((c.e : ℂ)) ^ 2 * ((N.c 0)⁻¹) * (ab z3.1 ρ2) * (mb z2.2 (p 0) ρ1) * (sb z0.2 z1.2) + (1) * ((c.e : ℂ)) ^ 2 * ((N.c 1)⁻¹) * (ab z0.1 ρ2) * (mb z2.2 (p 0) ρ1) * (sb z1.2 z3.2) + (-1) * ((c.e : ℂ)) ^ 2 * ((N.c 1)⁻¹) * (ab z2.1 ρ2) * (ab z3.1 ρ1) * (sb z0.2 z2.2) * (sb z1.2 z2.2) + (1) * ((c.e : ℂ)) ^ 2 * ((N.c 1)⁻¹) * (ab z3.1 ρ1) * (mb z1.2 (p 0) ρ2) * (sb z0.2 z2.2)) * x22
theorem eAAe.keyPM {c : Constants} {p : Nat → V4 ℝ} {N : Env} (hc : c.Physical) (hb : Balanced p) (r0 : N.r 0 = c.e) (d0 : ((msq (plus (p 0) (p 1)) - c.mass .e ^ 2 : ℝ) : ℂ) = N.c 0) (n0 : N.c 0 ≠ 0) (d1 : ((msq (plus (p 0) (backward (p 2))) - c.mass .e ^ 2 : ℝ) : ℂ) = N.c 1) (n1 : N.c 1 ≠ 0) {z0 z1 z2 z3 : Pair} (b0 : Bold (p 0) (c.mass .e) z0) (b3 : Bold (p 3) (c.mass .e) z3) (l1 : Light (p 1) z1) (l2 : Light (p 2) z2) (e10 : mb z1.2 (p 0) z1.1 = N.c 0) (e13 : mb z1.2 (p 3) z1.1 = -N.c 1) (e20 : mb z2.2 (p 0) z2.1 = -N.c 1) (e23 : mb z2.2 (p 3) z2.1 = N.c 0) (q0 : msq (p 0) = (c.mass .e) ^ 2) (q3 : msq (p 3) = (c.mass .e) ^ 2) (ρ1 ρ2 : V2) :
    eAAe.formPM N p z0 z1 z2 z3 * ab ρ1 z1.1 * sb ρ2 z2.2 = ((√2 : ℝ) * ((√2 : ℝ) * (-1 : ℂ))) * eAAe.react.bare c p 3 0 1 2 z3 z0 (pv ρ1 z1.2) (pv z2.1 ρ2) := by
  rw [eAAe.react.bare_parts c p (i := 3) (j := 0) (a := 1) (b := 2) (x := .photon) (y := .photon) (k := (p 1)) (k' := (backward (p 2))) (fun _ => rfl) (fun _ => rfl) (f := .e) (g := .e) rfl rfl (l := (p 0)) rfl (e := 1) (e' := 1) (if_neg Bool.false_ne_true) (if_neg Bool.false_ne_true)]
  rw [compton_vv (f := .e) (x := .e) (g := .e) (h := (rfl : Spec.after .photon Flavour.e = some Flavour.e)) (h' := (rfl : Spec.after .photon Flavour.e = some Flavour.e)) (ha := by simp) (hb := by simp)]
  rw [compton_vv (f := .e) (x := .e) (g := .e) (h := (rfl : Spec.after .photon Flavour.e = some Flavour.e)) (h' := (rfl : Spec.after .photon Flavour.e = some Flavour.e)) (ha := by simp) (hb := by simp)]
  rw [annihilation_none c _ _ (by rfl) (by simp), star_zero, add_zero, eAAe.formPM]
  simp only [d0, d1, lineV_pv, lineV_four, contract_four_pv, contract_pv, mb_plus, mb_backward]
  have i0 := sb_schouten z1.2 z2.2 ρ2 z0.2
  have i1 := ab_schouten z2.1 z3.1 ρ1 z1.1
  have i2 := ab_schouten z1.1 z2.1 ρ1 z0.1
  have i3 := mb_schouten_right ρ2 (p 0) z1.1 z2.1 z3.1
  have i4 := mb_schouten_right ρ2 (p 0) z0.1 z1.1 z2.1
  have i5 := mb_schouten_right z1.2 (p 0) z0.1 z1.1 ρ1
  have i6 := sb_schouten z1.2 z3.2 ρ2 z0.2
  have i7 := mb_schouten_right z0.2 (p 3) z1.1 z2.1 z3.1
  have i8 := ab_schouten z2.1 z3.1 ρ1 z0.1
  have i9 := mb_schouten_left z0.2 z1.2 ρ2 (p 0) z2.1
  have i10 := mb_schouten_right z1.2 (p 0) z1.1 z2.1 z3.1
  have i11 := mb_schouten_right z1.2 (p 3) z1.1 z3.1 ρ1
  have i12 := mb_schouten_right z1.2 (p 3) z1.1 z2.1 z3.1
  have i13 := mb_schouten_left z0.2 z1.2 ρ2 (p 0) z1.1
  have i14 := mb_schouten_left z1.2 z3.2 ρ2 (p 0) z1.1
  have i15 := mb_schouten_right z1.2 (p 0) z0.1 z2.1 ρ1
  have i16 := sb_schouten z2.2 z3.2 ρ2 z1.2
  have i17 := mb_schouten_right z1.2 (p 0) z0.1 z1.1 z2.1
  have i18 := mb_schouten_right z1.2 (p 3) z0.1 z1.1 z2.1
  have i19 := mb_schouten_left z0.2 z1.2 z2.2 (p 0) z2.1
  have i20 := mb_schouten_right z1.2 (p 3) z1.1 z2.1 ρ1
  have i21 := mb_schouten_right z1.2 (p 3) z0.1 z1.1 ρ1
  have i22 := mb_schouten_right z1.2 (p 3) z0.1 z1.1 z3.1
  have i23 := mb_schouten_right z1.2 (p 0) z0.1 z1.1 z3.1
  have i24 := mb_schouten_left z0.2 z1.2 z2.2 (p 0) z1.1
  have i25 := mb_schouten_right z2.2 (p 0) z1.1 z2.1 z3.1
  have i26 := sb_schouten z1.2 z2.2 z3.2 z0.2
  have i27 := mb_schouten_right z1.2 (p 0) z2.1 z3.1 ρ1
  have i28 := mb_schouten_right z0.2 (p 3) z2.1 z3.1 ρ1
  have i29 := mb_schouten_right ρ2 (p 0) z0.1 z2.1 ρ1
  have i30 := mb_schouten_right z1.2 (p 0) z1.1 z2.1 ρ1
  have i31 := mb_schouten_right ρ2 (p 0) z1.1 z3.1 ρ1
  have i32 := mb_schouten_right ρ2 (p 0) z0.1 z1.1 ρ1
  have i33 := mb_schouten_right z1.2 (p 0) z1.1 z3.1 ρ1
  simp only [l1.mb_eq, l2.mb_eq, b0.mb_left, b0.mb_right, b3.mb_left, b3.mb_right, e10, e13, e20, e23, mb_three hb z0.2 z0.1, mb_three hb z0.2 z1.1, mb_three hb z0.2 z2.1, mb_three hb z0.2 ρ1, mb_three hb z1.2 z0.1, mb_three hb z1.2 z2.1, mb_nought hb z1.2 z3.1, mb_three hb z1.2 ρ1, mb_three hb z2.2 z0.1, mb_three hb z2.2 z1.1, mb_nought hb z2.2 z3.1, mb_three hb z2.2 ρ1, mb_nought hb z3.2 z1.1, mb_nought hb z3.2 z2.1, mb_nought hb z3.2 z3.1, mb_nought hb z3.2 ρ1, mb_three hb ρ2 z0.1, mb_three hb ρ2 z1.1, mb_three hb ρ2 z2.1, mb_nought hb ρ2 z3.1, mb_three hb ρ2 ρ1, ab_self, sb_self] at i0 i1 i2 i3 i4 i5 i6 i7 i8 i9 i10 i11 i12 i13 i14 i15 i16 i17 i18 i19 i20 i21 i22 i23 i24 i25 i26 i27 i28 i29 i30 i31 i32 i33 ⊢
  simp only [ab_swap z0.1 z1.1, ab_swap z0.1 z2.1, ab_swap z0.1 z3.1, ab_swap z0.1 ρ1, ab_swap z1.1 z2.1, ab_swap z1.1 z3.1, ab_swap z1.1 ρ1, ab_swap z2.1 z3.1, ab_swap z2.1 ρ1, ab_swap z3.1 ρ1, sb_swap z0.2 z1.2, sb_swap z0.2 z2.2, sb_swap z0.2 z3.2, sb_swap z0.2 ρ2, sb_swap z1.2 z2.2, sb_swap z1.2 z3.2, sb_swap z1.2 ρ2, sb_swap z2.2 z3.2, sb_swap z2.2 ρ2, sb_swap z3.2 ρ2] at i0 i1 i2 i3 i4 i5 i6 i7 i8 i9 i10 i11 i12 i13 i14 i15 i16 i17 i18 i19 i20 i21 i22 i23 i24 i25 i26 i27 i28 i29 i30 i31 i32 i33 ⊢
  simp only [r0, Constants.hL, Constants.hR, Constants.gL, Constants.gR, Constants.yuk, Constants.invVev, Flavour.charge_e, Flavour.isospin_e, ← c.mz]
  have xMW : (c.MW : ℂ) ≠ 0 := by exact_mod_cast hc.MW
  have xSW : (c.SW : ℂ) ≠ 0 := by exact_mod_cast hc.SW
  have xCW : (c.CW : ℂ) ≠ 0 := by exact_mod_cast hc.CW
  have x2 : ((√2 : ℝ) : ℂ) ≠ 0 := by exact_mod_cast (Real.sqrt_pos.2 two_pos).ne'
  have x22 : ((√2 : ℝ) : ℂ) ^ 2 = 2 := by rw [← Complex.ofReal_pow, Real.sq_sqrt two_pos.le]; norm_num
  have x23 : ((√2 : ℝ) : ℂ) ^ 3 = 2 * ((√2 : ℝ) : ℂ) := by rw [← x22]; ring
  have x24 : ((√2 : ℝ) : ℂ) ^ 4 = 4 := by linear_combination (((√2 : ℝ) : ℂ) ^ 2 + 2) * x22
  push_cast at i0 i1 i2 i3 i4 i5 i6 i7 i8 i9 i10 i11 i12 i13 i14 i15 i16 i17 i18 i19 i20 i21 i22 i23 i24 i25 i26 i27 i28 i29 i30 i31 i32 i33 ⊢
  have y0 := mul_inv_cancel₀ n0
  have y1 := mul_inv_cancel₀ n1
  linear_combination ((((-2) * ((c.e : ℂ)) ^ 2 * (N.c 0) * (ab z2.1 z3.1) * (ab z2.1 ρ1) + (-4) * ((c.e : ℂ)) ^ 2 * (N.c 1) * (ab z2.1 z3.1) * (ab z2.1 ρ1) + (-2) * ((c.e : ℂ)) ^ 2 * (ab z1.1 z2.1) * (ab z2.1 z3.1) * (mb z1.2 (p 0) ρ1) + (2) * ((c.e : ℂ)) ^ 2 * (ab z1.1 z2.1) * (ab z3.1 ρ1) * (mb z1.2 (p 0) z2.1) + (-2) * ((c.e : ℂ)) ^ 2 * (ab z1.1 z3.1) * (ab z2.1 ρ1) * (mb z1.2 (p 0) z2.1)) * i0 + ((-2) * ((c.e : ℂ)) ^ 2 * (N.c 0) * (sb z0.2 z1.2) * (sb z1.2 ρ2) + (-6) * ((c.e : ℂ)) ^ 2 * (N.c 1) * (sb z0.2 z1.2) * (sb z1.2 ρ2) + (-2) * ((c.e : ℂ)) ^ 2 * (mb z1.2 (p 0) z2.1) * (sb z0.2 z1.2) * (sb z2.2 ρ2) + (-2) * ((c.e : ℂ)) ^ 2 * (mb z1.2 (p 0) z2.1) * (sb z0.2 ρ2) * (sb z1.2 z2.2)) * i1 + ((-4) * ((c.e : ℂ)) ^ 2 * (mb z1.2 (p 0) z2.1) * (sb z1.2 z2.2) * (sb z3.2 ρ2) + (-2) * ((c.e : ℂ)) ^ 2 * (mb z1.2 (p 0) z2.1) * (sb z1.2 z3.2) * (sb z2.2 ρ2)) * i2 + ((4) * ((c.e : ℂ)) ^ 2 * (ab z2.1 ρ1) * (sb z0.2 z1.2) * (sb z1.2 z2.2) + (-4) * ((c.e : ℂ)) ^ 2 * (mb z1.2 (p 0) ρ1) * (sb z0.2 z1.2)) * i3 + ((-4) * ((c.e : ℂ)) ^ 2 * (mb z1.2 (p 0) ρ1) * (sb z1.2 z3.2)) * i4 + ((2) * ((c.e : ℂ)) ^ 2 * (mb z1.2 (p 0) z2.1) * (sb z3.2 ρ2) + (4) * ((c.e : ℂ)) ^ 2 * (mb ρ2 (p 0) z2.1) * (sb z1.2 z3.2)) * i5 + ((2) * ((c.e : ℂ)) ^ 2 * ((c.mass .e : ℂ)) * (N.c 0) * (ab z2.1 ρ1) + (4) * ((c.e : ℂ)) ^ 2 * ((c.mass .e : ℂ)) * (N.c 1) * (ab z2.1 ρ1) + (2) * ((c.e : ℂ)) ^ 2 * ((c.mass .e : ℂ)) * (ab z1.1 z2.1) * (mb z1.2 (p 0) ρ1)) * i6 + ((-2) * ((c.e : ℂ)) ^ 2 * (ab z2.1 ρ1) * (sb z1.2 z2.2) * (sb z1.2 ρ2) + (-2) * ((c.e : ℂ)) ^ 2 * (mb z1.2 (p 0) ρ1) * (sb z1.2 ρ2)) * i7 + ((-2) * ((c.e : ℂ)) ^ 2 * ((c.mass .e : ℂ)) * (N.c 0) * (sb z1.2 ρ2) + (-2) * ((c.e : ℂ)) ^ 2 * ((c.mass .e : ℂ)) * (N.c 1) * (sb z1.2 ρ2)) * i8 + ((-4) * ((c.e : ℂ)) ^ 2 * (N.c 1) * (ab z3.1 ρ1)) * i9 + ((4) * ((c.e : ℂ)) ^ 2 * (ab z2.1 ρ1) * (sb z0.2 z1.2) * (sb z2.2 ρ2) + (2) * ((c.e : ℂ)) ^ 2 * (ab z2.1 ρ1) * (sb z0.2 z2.2) * (sb z1.2 ρ2) + (2) * ((c.e : ℂ)) ^ 2 * (mb z1.2 (p 0) ρ1) * (sb z0.2 ρ2)) * i10 + ((-4) * ((c.e : ℂ)) ^ 2 * (mb ρ2 (p 0) z2.1) * (sb z0.2 z1.2)) * i11 + ((-4) * ((c.e : ℂ)) ^ 2 * (ab z2.1 ρ1) * (sb z0.2 z1.2) * (sb z2.2 ρ2) + (-4) * ((c.e : ℂ)) ^ 2 * (mb z1.2 (p 0) ρ1) * (sb z0.2 ρ2) + (-2) * ((c.e : ℂ)) ^ 2 * (mb ρ2 (p 0) ρ1) * (sb z0.2 z1.2)) * i12 + ((-2) * ((c.e : ℂ)) ^ 2 * (ab z2.1 z3.1) * (ab z2.1 ρ1) * (sb z1.2 z2.2) + (2) * ((c.e : ℂ)) ^ 2 * (ab z2.1 z3.1) * (mb z1.2 (p 0) ρ1)) * i13 + ((-2) * ((c.e : ℂ)) ^ 2 * (ab z0.1 z2.1) * (mb z1.2 (p 0) ρ1)) * i14 + ((-2) * ((c.e : ℂ)) ^ 2 * (N.c 0) * (sb z3.2 ρ2) + (-6) * ((c.e : ℂ)) ^ 2 * (N.c 1) * (sb z3.2 ρ2) + (-4) * ((c.e : ℂ)) ^ 2 * (ab z1.1 z2.1) * (sb z1.2 z2.2) * (sb z3.2 ρ2) + (-2) * ((c.e : ℂ)) ^ 2 * (ab z1.1 z2.1) * (sb z1.2 z3.2) * (sb z2.2 ρ2) + (-2) * ((c.e : ℂ)) ^ 2 * (mb ρ2 (p 0) z1.1) * (sb z1.2 z3.2)) * i15 + ((-2) * ((c.e : ℂ)) ^ 2 * (ab z0.1 z2.1) * (ab z1.1 z2.1) * (mb z1.2 (p 0) ρ1)) * i16 + ((-2) * ((c.e : ℂ)) ^ 2 * ((c.mass .e : ℂ)) * (ab z3.1 ρ1) * (sb z1.2 ρ2) + (2) * ((c.e : ℂ)) ^ 2 * (ab z2.1 ρ1) * (sb z1.2 z3.2) * (sb z2.2 ρ2) + (-4) * ((c.e : ℂ)) ^ 2 * (mb z1.2 (p 0) ρ1) * (sb z3.2 ρ2) + (-2) * ((c.e : ℂ)) ^ 2 * (mb ρ2 (p 0) ρ1) * (sb z1.2 z3.2)) * i17 + ((2) * ((c.e : ℂ)) ^ 2 * ((c.mass .e : ℂ)) * (ab z3.1 ρ1) * (sb z1.2 ρ2) + (6) * ((c.e : ℂ)) ^ 2 * (mb z1.2 (p 0) ρ1) * (sb z3.2 ρ2)) * i18 + ((-2) * ((c.e : ℂ)) ^ 2 * (ab z1.1 z2.1) * (ab z3.1 ρ1) * (sb z1.2 ρ2)) * i19 + ((4) * ((c.e : ℂ)) ^ 2 * (ab z1.1 z3.1) * (sb z0.2 z1.2) * (sb z1.2 ρ2)) * i20 + ((-4) * ((c.e : ℂ)) ^ 2 * (mb z1.2 (p 0) z2.1) * (sb z3.2 ρ2)) * i21 + ((-2) * ((c.e : ℂ)) ^ 2 * ((c.mass .e : ℂ)) * (ab z2.1 ρ1) * (sb z1.2 ρ2)) * i22 + ((2) * ((c.e : ℂ)) ^ 2 * ((c.mass .e : ℂ)) * (ab z2.1 ρ1) * (sb z1.2 ρ2)) * i23 + ((2) * ((c.e : ℂ)) ^ 2 * (ab z2.1 z3.1) * (ab z2.1 ρ1) * (sb z1.2 ρ2)) * i24 + ((-2) * ((c.e : ℂ)) ^ 2 * (ab z2.1 ρ1) * (sb z0.2 z1.2) * (sb z1.2 ρ2)) * i25 + ((-2) * ((c.e : ℂ)) ^ 2 * ((c.mass .e : ℂ)) * (ab z1.1 z2.1) * (ab z2.1 ρ1) * (sb z1.2 ρ2)) * i26 + ((-4) * ((c.e : ℂ)) ^ 2 * (N.c 1) * (sb z0.2 ρ2) + (2) * ((c.e : ℂ)) ^ 2 * (mb ρ2 (p 0) z1.1) * (sb z0.2 z1.2)) * i27 + ((2) * ((c.e : ℂ)) ^ 2 * (N.c 0) * (sb z1.2 ρ2) + (4) * ((c.e : ℂ)) ^ 2 * (N.c 1) * (sb z1.2 ρ2)) * i28 + ((-4) * ((c.e : ℂ)) ^ 2 * (N.c 0) * (sb z1.2 z3.2)) * i29 + ((-2) * ((c.e : ℂ)) ^ 2 * (ab z1.1 z3.1) * (sb z0.2 z1.2) * (sb z1.2 ρ2) + (-2) * ((c.e : ℂ)) ^ 2 * (ab z2.1 z3.1) * (sb z0.2 z1.2) * (sb z2.2 ρ2)) * i30 + ((-2) * ((c.e : ℂ)) ^ 2 * (mb z1.2 (p 0) z2.1) * (sb z0.2 z1.2)) * i31 + ((2) * ((c.e : ℂ)) ^ 2 * (mb z1.2 (p 0) z2.1) * (sb z1.2 z3.2)) * i32 + ((-2) * ((c.e : ℂ)) ^ 2 * (mb z1.2 (p 0) z2.1) * (sb z0.2 ρ2)) * i33)) * ((1) * ((N.c 0)⁻¹) * ((N.c 1)⁻¹)) + ((-2) * ((c.e : ℂ)) ^ 2 * ((c.mass .e : ℂ)) * ((N.c 1)⁻¹) * (ab z0.1 z2.1) * (ab z3.1 ρ1) * (sb z1.2 ρ2) + (2) * ((c.e : ℂ)) ^ 2 * ((c.mass .e : ℂ)) * ((N.c 1)⁻¹) * (ab z2.1 ρ1) * (sb z0.2 ρ2) * (sb z1.2 z3.2) + (2) * ((c.e : ℂ)) ^ 2 * ((N.c 1)⁻¹) * (ab z0.1 z2.1) * (ab z2.1 ρ1) * (sb z1.2 z3.2) * (sb z2.2 ρ2) + (2) * ((c.e : ℂ)) ^ 2 * ((N.c 1)⁻¹) * (ab z0.1 z2.1) * (mb ρ2 (p 0) ρ1) * (sb z1.2 z3.2) + (2) * ((c.e : ℂ)) ^ 2 * ((N.c 1)⁻¹) * (ab z3.1 ρ1) * (mb z1.2 (p 0) z2.1) * (sb z0.2 ρ2)) * y0 + ((-2) * ((c.e : ℂ)) ^ 2 * ((c.mass .e : ℂ)) * ((N.c 0)⁻¹) * (ab z0.1 ρ1) * (ab z2.1 z3.1) * (sb z1.2 ρ2) + (2) * ((c.e : ℂ)) ^ 2 * ((c.mass .e : ℂ)) * ((N.c 0)⁻¹) * (ab z2.1 ρ1) * (sb z0.2 z1.2) * (sb z3.2 ρ2) + (-2) * ((c.e : ℂ)) ^ 2 * ((N.c 0)⁻¹) * (ab z0.1 ρ1) * (mb z1.2 (p 0) z2.1) * (sb z3.2 ρ2) + (2) * ((c.e : ℂ)) ^ 2 * ((N.c 0)⁻¹) * (ab z1.1 ρ1) * (ab z2.1 z3.1) * (sb z0.2 z1.2) * (sb z1.2 ρ2) + (-2) * ((c.e : ℂ)) ^ 2 * ((N.c 0)⁻¹) * (ab z2.1 z3.1) * (mb ρ2 (p 0) ρ1) * (sb z0.2 z1.2)) * y1 + ((1) * ((c.e : ℂ)) ^ 2 * ((c.mass .e : ℂ)) * ((N.c 0)⁻¹) * (ab z0.1 ρ1) * (ab z2.1 z3.1) * (sb z1.2 ρ2) + (-1) * ((c.e : ℂ)) ^ 2 * ((c.mass .e : ℂ)) * ((N.c 0)⁻¹) * (ab z2.1 ρ1) * (sb z0.2 z1.2) * (sb z3.2 ρ2) + (1) * ((c.e : ℂ)) ^ 2 * ((c.mass .e : ℂ)) * ((N.c 1)⁻¹) * (ab z0.1 z2.1) * (ab z3.1 ρ1) * (sb z1.2 ρ2) + (-1) * ((c.e : ℂ)) ^ 2 * ((c.mass .e : ℂ)) * ((N.c 1)⁻¹) * (ab z2.1 ρ1) * (sb z0.2 ρ2) * (sb z1.2 z3.2) + (1) * ((c.e : ℂ)) ^ 2 * ((N.c 0)⁻¹) * (ab z0.1 ρ1) * (mb z1.2 (p 0) z2.1) * (sb z3.2 ρ2) + (-1) * ((c.e : ℂ)) ^ 2 * ((N.c 0)⁻¹) * (ab z1.1 ρ1) * (ab z2.1 z3.1) * (sb z0.2 z1.2) * (sb z1.2 ρ2) + (1) * ((c.e : ℂ)) ^ 2 * ((N.c 0)⁻¹) * (ab z2.1 z3.1) * (mb ρ2 (p 0) ρ1) * (sb z0.2 z1.2) + (-1) * ((c.e : ℂ)) ^ 2 * ((N.c 1)⁻¹) * (ab z0.1 z2.1) * (ab z2.1 ρ1) * (sb z1.2 z3.2) * (sb z2.2 ρ2) + (-1) * ((c.e : ℂ)) ^ 2 * ((N.c 1)⁻¹) * (ab z0.1 z2.1) * (mb ρ2 (p 0) ρ1) * (sb z1.2 z3.2) + (-1) * ((c.e : ℂ)) ^ 2 * ((N.c 1)⁻¹) * (ab z3.1 ρ1) * (mb z1.2 (p 0) z2.1) * (sb z0.2 ρ2)) * x22
theorem eAAe.keyMP {c : Constants} {p : Nat → V4 ℝ} {N : Env} (hc : c.Physical) (hb : Balanced p) (r0 : N.r 0 = c.e) (d0 : ((msq (plus (p 0) (p 1)) - c.mass .e ^ 2 : ℝ) : ℂ) = N.c 0) (n0 : N.c 0 ≠ 0) (d1 : ((msq (plus (p 0) (backward (p 2))) - c.mass .e ^ 2 : ℝ) : ℂ) = N.c 1) (n1 : N.c 1 ≠ 0) {z0 z1 z2 z3 : Pair} (b0 : Bold (p 0) (c.mass .e) z0) (b3 : Bold (p 3) (c.mass .e) z3) (l1 : Light (p 1) z1) (l2 : Light (p 2) z2) (e10 : mb z1.2 (p 0) z1.1 = N.c 0) (e13 : mb z1.2 (p 3) z1.1 = -N.c 1) (e20 : mb z2.2 (p 0) z2.1 = -N.c 1) (e23 : mb z2.2 (p 3) z2.1 = N.c 0) (q0 : msq (p 0) = (c.mass .e) ^ 2) (q3 : msq (p 3) = (c.mass .e) ^ 2) (ρ1 ρ2 : V2) :
    eAAe.formMP N p z0 z1 z2 z3 * sb ρ1 z1.2 * ab ρ2 z2.1 = ((√2 : ℝ) * ((√2 : ℝ) * (-1 : ℂ))) * eAAe.react.bare c p 3 0 1 2 z3 z0 (pv z1.1 ρ1) (pv ρ2 z2.2) := by
  rw [eAAe.react.bare_parts c p (i := 3) (j := 0) (a := 1) (b := 2) (x := .photon) (y := .photon) (k := (p 1)) (k' := (backward (p 2))) (fun _ => rfl) (fun _ => rfl) (f := .e) (g := .e) rfl rfl (l := (p 0)) rfl (e := 1) (e' := 1) (if_neg Bool.false_ne_true) (if_neg Bool.false_ne_true)]
  rw [compton_vv (f := .e) (x := .e) (g := .e) (h := (rfl : Spec.after .photon Flavour.e = some Flavour.e)) (h' := (rfl : Spec.after .photon Flavour.e = some Flavour.e)) (ha := by simp) (hb := by simp)]
  rw [compton_vv (f := .e) (x := .e) (g := .e) (h := (rfl : Spec.after .photon Flavour.e = some Flavour.e)) (h' := (rfl : Spec.after .photon Flavour.e = some Flavour.e)) (ha := by simp) (hb := by simp)]
  rw [annihilation_none c _ _ (by rfl) (by simp), star_zero, add_zero, eAAe.formMP]
  simp only [d0, d1, lineV_pv, lineV_four, contract_four_pv, contract_pv, mb_plus, mb_backward]
  have i0 := mb_schouten_left z0.2 z2.2 ρ1 (p 0) z1.1
  have i1 := ab_schouten z1.1 z3.1 ρ2 z0.1
  have i2 := mb_schouten_right z2.2 (p 0) z0.1 z1.1 z2.1
  have i3 := sb_schouten z2.2 z3.2 ρ1 z1.2
  have i4 := sb_schouten z2.2 z3.2 ρ1 z0.2
  have i5 := sb_schouten z1.2 z2.2 ρ1 z0.2
  have i6 := mb_schouten_right z2.2 (p 3) z1.1 z2.1 z3.1
  have i7 := mb_schouten_right z0.2 (p 3) z1.1 z3.1 ρ2
  have i8 := ab_schouten z2.1 z3.1 ρ2 z1.1
  have i9 := mb_schouten_right z2.2 (p 0) z0.1 z1.1 z3.1
  have i10 := mb_schouten_right z2.2 (p 0) z1.1 z2.1 z3.1
  have i11 := mb_schouten_right z0.2 (p 3) z1.1 z2.1 z3.1
  have i12 := mb_schouten_right z1.2 (p 3) z0.1 z1.1 z3.1
  have i13 := mb_schouten_left z1.2 z3.2 ρ1 (p 0) z1.1
  have i14 := mb_schouten_right z2.2 (p 0) z0.1 z1.1 ρ2
  have i15 := sb_schouten z1.2 z2.2 z3.2 z0.2
  have i16 := mb_schouten_right ρ1 (p 0) z0.1 z1.1 z3.1
  have i17 := ab_schouten z1.1 z2.1 ρ2 z0.1
  have i18 := mb_schouten_left z0.2 z1.2 ρ1 (p 0) z1.1
  have i19 := mb_schouten_right z2.2 (p 0) z1.1 z3.1 ρ2
  have i20 := mb_schouten_left z0.2 z1.2 z2.2 (p 0) z1.1
  have i21 := mb_schouten_right ρ1 (p 0) z1.1 z3.1 ρ2
  have i22 := mb_schouten_left z1.2 z2.2 z3.2 (p 0) z1.1
  have i23 := mb_schouten_right z2.2 (p 3) z0.1 z1.1 z2.1
  have i24 := mb_schouten_right ρ1 (p 0) z0.1 z1.1 ρ2
  have i25 := sb_schouten z1.2 z3.2 ρ1 z0.2
  have i26 := mb_schouten_right z1.2 (p 3) z1.1 z2.1 z3.1
  have i27 := mb_schouten_right z1.2 (p 3) z0.1 z1.1 ρ2
  have i28 := mb_schouten_right z1.2 (p 0) z0.1 z1.1 ρ2
  have i29 := mb_schouten_right z1.2 (p 0) z1.1 z2.1 z3.1
  have i30 := mb_schouten_right z1.2 (p 3) z1.1 z3.1 ρ2
  have i31 := mb_schouten_right z1.2 (p 0) z1.1 z3.1 ρ2
  simp only [l1.mb_eq, l2.mb_eq, b0.mb_left, b0.mb_right, b3.mb_left, b3.mb_right, e10, e13, e20, e23, mb_three hb z0.2 z0.1, mb_three hb z0.2 z1.1, mb_three hb z0.2 z2.1, mb_three hb z0.2 ρ2, mb_three hb z1.2 z0.1, mb_three hb z1.2 z2.1, mb_nought hb z1.2 z3.1, mb_three hb z1.2 ρ2, mb_three hb z2.2 z0.1, mb_three hb z2.2 z1.1, mb_nought hb z2.2 z3.1, mb_three hb z2.2 ρ2, mb_nought hb z3.2 z1.1, mb_nought hb z3.2 z2.1, mb_nought hb z3.2 z3.1, mb_nought hb z3.2 ρ2, mb_three hb ρ1 z0.1, mb_three hb ρ1 z1.1, mb_three hb ρ1 z2.1, mb_nought hb ρ1 z3.1, mb_three hb ρ1 ρ2, ab_self, sb_self] at i0 i1 i2 i3 i4 i5 i6 i7 i8 i9 i10 i11 i12 i13 i14 i15 i16 i17 i18 i19 i20 i21 i22 i23 i24 i25 i26 i27 i28 i29 i30 i31 ⊢
  simp only [ab_swap z0.1 z1.1, ab_swap z0.1 z2.1, ab_swap z0.1 z3.1, ab_swap z0.1 ρ2, ab_swap z1.1 z2.1, ab_swap z1.1 z3.1, ab_swap z1.1 ρ2, ab_swap z2.1 z3.1, ab_swap z2.1 ρ2, ab_swap z3.1 ρ2, sb_swap z0.2 z1.2, sb_swap z0.2 z2.2, sb_swap z0.2 z3.2, sb_swap z0.2 ρ1, sb_swap z1.2 z2.2, sb_swap z1.2 z3.2, sb_swap z1.2 ρ1, sb_swap z2.2 z3.2, sb_swap z2.2 ρ1, sb_swap z3.2 ρ1] at i0 i1 i2 i3 i4 i5 i6 i7 i8 i9 i10 i11 i12 i13 i14 i15 i16 i17 i18 i19 i20 i21 i22 i23 i24 i25 i26 i27 i28 i29 i30 i31 ⊢
  simp only [r0, Constants.hL, Constants.hR, Constants.gL, Constants.gR, Constants.yuk, Constants.invVev, Flavour.charge_e, Flavour.isospin_e, ← c.mz]
  have xMW : (c.MW : ℂ) ≠ 0 := by exact_mod_cast hc.MW
  have xSW : (c.SW : ℂ) ≠ 0 := by exact_mod_cast hc.SW
  have xCW : (c.CW : ℂ) ≠ 0 := by exact_mod_cast hc.CW
  have x2 : ((√2 : ℝ) : ℂ) ≠ 0 := by exact_mod_cast (Real.sqrt_pos.2 two_pos).ne'
  have x22 : ((√2 : ℝ) : ℂ) ^ 2 = 2 := by rw [← Complex.ofReal_pow, Real.sq_sqrt two_pos.le]; norm_num
  have x23 : ((√2 : ℝ) : ℂ) ^ 3 = 2 * ((√2 : ℝ) : ℂ) := by rw [← x22]; ring
  have x24 : ((√2 : ℝ) : ℂ) ^ 4 = 4 := by linear_combination (((√2 : ℝ) : ℂ) ^ 2 + 2) * x22
  push_cast at i0 i1 i2 i3 i4 i5 i6 i7 i8 i9 i10 i11 i12 i13 i14 i15 i16 i17 i18 i19 i20 i21 i22 i23 i24 i25 i26 i27 i28 i29 i30 i31 ⊢
  have y0 := mul_inv_cancel₀ n0
  have y1 := mul_inv_cancel₀ n1
  linear_combination ((((-2) * ((c.e : ℂ)) ^ 2 * (N.c 0) * (ab z3.1 ρ2) + (2) * ((c.e : ℂ)) ^ 2 * (N.c 1) * (ab z3.1 ρ2) + (2) * ((c.e : ℂ)) ^ 2 * (ab z1.1 z3.1) * (ab z2.1 ρ2) * (sb z1.2 z2.2)) * i0 + ((2) * ((c.e : ℂ)) ^ 2 * ((c.mass .e : ℂ)) * (N.c 1) * (sb z2.2 ρ1) + (2) * ((c.e : ℂ)) ^ 2 * ((c.mass .e : ℂ)) * (mb z2.2 (p 0) z1.1) * (sb z1.2 ρ1) + (-2) * ((c.e : ℂ)) ^ 2 * ((c.mass .e : ℂ)) * (mb ρ1 (p 0) z1.1) * (sb z1.2 z2.2)) * i1 + ((2) * ((c.e : ℂ)) ^ 2 * (ab z1.1 ρ2) * (sb z1.2 z2.2) * (sb z3.2 ρ1) + (-2) * ((c.e : ℂ)) ^ 2 * (ab z1.1 ρ2) * (sb z1.2 z3.2) * (sb z2.2 ρ1) + (2) * ((c.e : ℂ)) ^ 2 * (mb z2.2 (p 0) ρ2) * (sb z3.2 ρ1) + (2) * ((c.e : ℂ)) ^ 2 * (mb ρ1 (p 0) ρ2) * (sb z2.2 z3.2)) * i2 + ((-2) * ((c.e : ℂ)) ^ 2 * ((c.mass .e : ℂ)) ^ 2 * (ab z0.1 z1.1) * (ab z1.1 ρ2) + (2) * ((c.e : ℂ)) ^ 2 * (N.c 1) * (ab z0.1 z1.1) * (ab z1.1 ρ2) + (2) * ((c.e : ℂ)) ^ 2 * (ab z0.1 z1.1) * (ab z1.1 z2.1) * (mb z2.2 (p 0) ρ2) + (2) * ((c.e : ℂ)) ^ 2 * (ab z0.1 z1.1) * (ab z2.1 ρ2) * (mb z2.2 (p 0) z1.1)) * i3 + ((2) * ((c.e : ℂ)) ^ 2 * ((c.mass .e : ℂ)) * (N.c 0) * (ab z1.1 ρ2) + (-2) * ((c.e : ℂ)) ^ 2 * ((c.mass .e : ℂ)) * (N.c 1) * (ab z1.1 ρ2) + (-2) * ((c.e : ℂ)) ^ 2 * ((c.mass .e : ℂ)) * (ab z1.1 z2.1) * (ab z1.1 ρ2) * (sb z1.2 z2.2)) * i4 + ((2) * ((c.e : ℂ)) ^ 2 * ((c.mass .e : ℂ)) * (ab z1.1 z2.1) * (ab z1.1 ρ2) * (sb z2.2 z3.2) + (-2) * ((c.e : ℂ)) ^ 2 * ((c.mass .e : ℂ)) ^ 2 * (ab z1.1 z3.1) * (ab z1.1 ρ2) + (-2) * ((c.e : ℂ)) ^ 2 * (N.c 0) * (ab z1.1 z3.1) * (ab z1.1 ρ2) + (2) * ((c.e : ℂ)) ^ 2 * (ab z1.1 z3.1) * (ab z2.1 ρ2) * (mb z2.2 (p 0) z1.1)) * i5 + ((-2) * ((c.e : ℂ)) ^ 2 * (ab z1.1 ρ2) * (sb z0.2 z2.2) * (sb z1.2 ρ1)) * i6 + ((2) * ((c.e : ℂ)) ^ 2 * (N.c 0) * (sb z2.2 ρ1) + (-2) * ((c.e : ℂ)) ^ 2 * (N.c 1) * (sb z2.2 ρ1) + (-2) * ((c.e : ℂ)) ^ 2 * (mb z2.2 (p 0) z1.1) * (sb z1.2 ρ1) + (2) * ((c.e : ℂ)) ^ 2 * (mb ρ1 (p 0) z1.1) * (sb z1.2 z2.2)) * i7 + ((-2) * ((c.e : ℂ)) ^ 2 * (N.c 0) * (sb z0.2 z2.2) * (sb z2.2 ρ1) + (2) * ((c.e : ℂ)) ^ 2 * (N.c 1) * (sb z0.2 z2.2) * (sb z2.2 ρ1) + (2) * ((c.e : ℂ)) ^ 2 * (mb z2.2 (p 0) z1.1) * (sb z0.2 z2.2) * (sb z1.2 ρ1) + (-2) * ((c.e : ℂ)) ^ 2 * (mb ρ1 (p 0) z1.1) * (sb z0.2 z2.2) * (sb z1.2 z2.2)) * i8 + ((-2) * ((c.e : ℂ)) ^ 2 * ((c.mass .e : ℂ)) * (ab z1.1 ρ2) * (sb z1.2 ρ1)) * i9 + ((2) * ((c.e : ℂ)) ^ 2 * (ab z1.1 ρ2) * (sb z0.2 z1.2) * (sb z2.2 ρ1)) * i10 + ((2) * ((c.e : ℂ)) ^ 2 * (ab z1.1 ρ2) * (sb z1.2 z2.2) * (sb z2.2 ρ1)) * i11 + ((2) * ((c.e : ℂ)) ^ 2 * ((c.mass .e : ℂ)) * (ab z1.1 ρ2) * (sb z2.2 ρ1)) * i12 + ((2) * ((c.e : ℂ)) ^ 2 * (ab z0.1 z1.1) * (mb z2.2 (p 0) ρ2)) * i13 + ((2) * ((c.e : ℂ)) ^ 2 * (N.c 1) * (sb z3.2 ρ1) + (2) * ((c.e : ℂ)) ^ 2 * (ab z1.1 z2.1) * (sb z1.2 z3.2) * (sb z2.2 ρ1) + (-2) * ((c.e : ℂ)) ^ 2 * (mb ρ1 (p 0) z1.1) * (sb z1.2 z3.2)) * i14 + ((-2) * ((c.e : ℂ)) ^ 2 * ((c.mass .e : ℂ)) * (ab z1.1 ρ2) * (mb ρ1 (p 0) z1.1)) * i15 + ((2) * ((c.e : ℂ)) ^ 2 * ((c.mass .e : ℂ)) * (ab z1.1 ρ2) * (sb z1.2 z2.2)) * i16 + ((2) * ((c.e : ℂ)) ^ 2 * (mb z2.2 (p 0) z1.1) * (sb z1.2 z3.2) * (sb z2.2 ρ1)) * i17 + ((-2) * ((c.e : ℂ)) ^ 2 * (ab z1.1 z3.1) * (mb z2.2 (p 0) ρ2)) * i18 + ((-2) * ((c.e : ℂ)) ^ 2 * (N.c 0) * (sb z0.2 ρ1) + (2) * ((c.e : ℂ)) ^ 2 * (mb ρ1 (p 0) z1.1) * (sb z0.2 z1.2)) * i19 + ((-2) * ((c.e : ℂ)) ^ 2 * (ab z1.1 z3.1) * (ab z2.1 ρ2) * (sb z2.2 ρ1) + (2) * ((c.e : ℂ)) ^ 2 * (ab z1.1 z3.1) * (mb ρ1 (p 0) ρ2)) * i20 + ((4) * ((c.e : ℂ)) ^ 2 * (N.c 0) * (sb z0.2 z2.2) + (-2) * ((c.e : ℂ)) ^ 2 * (mb z2.2 (p 0) z1.1) * (sb z0.2 z1.2)) * i21 + ((2) * ((c.e : ℂ)) ^ 2 * (ab z0.1 z1.1) * (mb ρ1 (p 0) ρ2)) * i22 + ((-2) * ((c.e : ℂ)) ^ 2 * (mb z2.2 (p 0) ρ2) * (sb z3.2 ρ1) + (-2) * ((c.e : ℂ)) ^ 2 * (mb ρ1 (p 0) ρ2) * (sb z2.2 z3.2)) * i23 + ((2) * ((c.e : ℂ)) ^ 2 * (mb z2.2 (p 0) z1.1) * (sb z1.2 z3.2)) * i24 + ((-2) * ((c.e : ℂ)) ^ 2 * ((c.mass .e : ℂ)) * (ab z1.1 ρ2) * (mb z2.2 (p 0) z1.1)) * i25 + ((2) * ((c.e : ℂ)) ^ 2 * (ab z1.1 ρ2) * (sb z0.2 z2.2) * (sb z2.2 ρ1)) * i26 + ((2) * ((c.e : ℂ)) ^ 2 * (mb z2.2 (p 0) z1.1) * (sb z3.2 ρ1)) * i27 + ((-2) * ((c.e : ℂ)) ^ 2 * (mb z2.2 (p 0) z1.1) * (sb z3.2 ρ1)) * i28 + ((-2) * ((c.e : ℂ)) ^ 2 * (ab z1.1 ρ2) * (sb z0.2 z2.2) * (sb z2.2 ρ1)) * i29 + ((2) * ((c.e : ℂ)) ^ 2 * (mb ρ1 (p 0) z1.1) * (sb z0.2 z2.2)) * i30 + ((-2) * ((c.e : ℂ)) ^ 2 * (mb ρ1 (p 0) z1.1) * (sb z0.2 z2.2)) * i31)) * ((1) * ((N.c 0)⁻¹) * ((N.c 1)⁻¹)) + ((-2) * ((c.e : ℂ)) ^ 2 * ((c.mass .e : ℂ)) * ((N.c 1)⁻¹) * (ab z0.1 ρ2) * (ab z1.1 z3.1) * (sb z2.2 ρ1) + (2) * ((c.e : ℂ)) ^ 2 * ((c.mass .e : ℂ)) * ((N.c 1)⁻¹) * (ab z1.1 ρ2) * (sb z0.2 z2.2) * (sb z3.2 ρ1) + (-2) * ((c.e : ℂ)) ^ 2 * ((N.c 1)⁻¹) * (ab z0.1 ρ2) * (mb z2.2 (p 0) z1.1) * (sb z3.2 ρ1) + (-2) * ((c.e : ℂ)) ^ 2 * ((N.c 1)⁻¹) * (ab z1.1 z3.1) * (ab z2.1 ρ2) * (sb z0.2 z2.2) * (sb z2.2 ρ1) + (-2) * ((c.e : ℂ)) ^ 2 * ((N.c 1)⁻¹) * (ab z1.1 z3.1) * (mb ρ1 (p 0) ρ2) * (sb z0.2 z2.2)) * y0 + ((-2) * ((c.e : ℂ)) ^ 2 * ((c.mass .e : ℂ)) * ((N.c 0)⁻¹) * (ab z0.1 z1.1) * (ab z3.1 ρ2) * (sb z2.2 ρ1) + (2) * ((c.e : ℂ)) ^ 2 * ((c.mass .e : ℂ)) * ((N.c 0)⁻¹) * (ab z1.1 ρ2) * (sb z0.2 ρ1) * (sb z2.2 z3.2) + (-2) * ((c.e : ℂ)) ^ 2 * ((N.c 0)⁻¹) * (ab z0.1 z1.1) * (ab z1.1 ρ2) * (sb z1.2 ρ1) * (sb z2.2 z3.2) + (2) * ((c.e : ℂ)) ^ 2 * ((N.c 0)⁻¹) * (ab z0.1 z1.1) * (mb ρ1 (p 0) ρ2) * (sb z2.2 z3.2) + (2) * ((c.e : ℂ)) ^ 2 * ((N.c 0)⁻¹) * (ab z3.1 ρ2) * (mb z2.2 (p 0) z1.1) * (sb z0.2 ρ1)) * y1 + ((1) * ((c.e : ℂ)) ^ 2 * ((c.mass .e : ℂ)) * ((N.c 0)⁻¹) * (ab z0.1 z1.1) * (ab z3.1 ρ2) * (sb z2.2 ρ1) + (-1) * ((c.e : ℂ)) ^ 2 * ((c.mass .e : ℂ)) * ((N.c 0)⁻¹) * (ab z1.1 ρ2) * (sb z0.2 ρ1) * (sb z2.2 z3.2) + (1) * ((c.e : ℂ)) ^ 2 * ((c.mass .e : ℂ)) * ((N.c 1)⁻¹) * (ab z0.1 ρ2) * (ab z1.1 z3.1) * (sb z2.2 ρ1) + (-1) * ((c.e : ℂ)) ^ 2 * ((c.mass .e : ℂ)) * ((N.c 1)⁻¹) * (ab z1.1 ρ2) * (sb z0.2 z2.2) * (sb z3.2 ρ1) + (1) * ((c.e : ℂ)) ^ 2 * ((N.c 0)⁻¹) * (ab z0.1 z1.1) * (ab z1.1 ρ2) * (sb z1.2 ρ1) * (sb z2.2 z3.2) + (-1) * ((c.e : ℂ)) ^ 2 * ((N.c 0)⁻¹) * (ab z0.1 z1.1) * (mb ρ1 (p 0) ρ2) * (sb z2.2 z3.2) + (-1) * ((c.e : ℂ)) ^ 2 * ((N.c 0)⁻¹) * (ab z3.1 ρ2) * (mb z2.2 (p 0) z1.1) * (sb z0.2 ρ1) + (1) * ((c.e : ℂ)) ^ 2 * ((N.c 1)⁻¹) * (ab z0.1 ρ2) * (mb z2.2 (p 0) z1.1) * (sb z3.2 ρ1) + (1) * ((c.e : ℂ)) ^ 2 * ((N.c 1)⁻¹) * (ab z1.1 z3.1) * (ab z2.1 ρ2) * (sb z0.2 z2.2) * (sb z2.2 ρ1) + (1) * ((c.e : ℂ)) ^ 2 * ((N.c 1)⁻¹) * (ab z1.1 z3.1) * (mb ρ1 (p 0) ρ2) * (sb z0.2 z2.2)) * x22
theorem eAAe.keyMM {c : Constants} {p : Nat → V4 ℝ} {N : Env} (hc : c.Physical) (hb : Balanced p) (r0 : N.r 0 = c.e) (r1 : N.r 1 = (c.mass .e)) (d0 : ((msq (plus (p 0) (p 1)) - c.mass .e ^ 2 : ℝ) : ℂ) = N.c 0) (n0 : N.c 0 ≠ 0) (d1 : ((msq (plus (p 0) (backward (p 2))) - c.mass .e ^ 2 : ℝ) : ℂ) = N.c 1) (n1 : N.c 1 ≠ 0) {z0 z1 z2 z3 : Pair} (b0 : Bold (p 0) (c.mass .e) z0) (b3 : Bold (p 3) (c.mass .e) z3) (l1 : Light (p 1) z1) (l2 : Light (p 2) z2) (e10 : mb z1.2 (p 0) z1.1 = N.c 0) (e13 : mb z1.2 (p 3) z1.1 = -N.c 1) (e20 : mb z2.2 (p 0) z2.1 = -N.c 1) (e23 : mb z2.2 (p 3) z2.1 = N.c 0) (q0 : msq (p 0) = (c.mass .e) ^ 2) (q3 : msq (p 3) = (c.mass .e) ^ 2) (ρ1 ρ2 : V2) :
    eAAe.formMM N p z0 z1 z2 z3 * sb ρ1 z1.2 * sb ρ2 z2.2 = ((√2 : ℝ) * ((√2 : ℝ) * (1 : ℂ))) * eAAe.react.bare c p 3 0 1 2 z3 z0 (pv z1.1 ρ1) (pv z2.1 ρ2) := by
  rw [eAAe.react.bare_parts c p (i := 3) (j := 0) (a := 1) (b := 2) (x := .photon) (y := .photon) (k := (p 1)) (k' := (backward (p 2))) (fun _ => rfl) (fun _ => rfl) (f := .e) (g := .e) rfl rfl (l := (p 0)) rfl (e := 1) (e' := 1) (if_neg Bool.false_ne_true) (if_neg Bool.false_ne_true)]
  rw [compton_vv (f := .e) (x := .e) (g := .e) (h := (rfl : Spec.after .photon Flavour.e = some Flavour.e)) (h' := (rfl : Spec.after .photon Flavour.e = some Flavour.e)) (ha := by simp) (hb := by simp)]
  rw [compton_vv (f := .e) (x := .e) (g := .e) (h := (rfl : Spec.after .photon Flavour.e = some Flavour.e)) (h' := (rfl : Spec.after .photon Flavour.e = some Flavour.e)) (ha := by simp) (hb := by simp)]
  rw [annihilation_none c _ _ (by rfl) (by simp), star_zero, add_zero, eAAe.formMM]
  simp only [d0, d1, lineV_pv, lineV_four, contract_four_pv, contract_pv, mb_plus, mb_backward]
  have i0 := mb_schouten_right z2.2 (p 0) z1.1 z2.1 z3.1
  have i1 := sb_schouten z1.2 z2.2 z3.2 z0.2
  have i2 := mb_schouten_right z0.2 (p 3) z1.1 z2.1 z3.1
  have i3 := mb_schouten_right z2.2 (p 0) z0.1 z1.1 z2.1
  have i4 := mb_schouten_left z0.2 z2.2 ρ2 (p 0) z1.1
  have i5 := mb_schouten_left z0.2 z1.2 z2.2 (p 0) z1.1
  have i6 := sb_schouten z1.2 ρ1 ρ2 z0.2
  have i7 := sb_schouten z3.2 ρ1 ρ2 z0.2
  have i8 := ab_schouten z1.1 z2.1 z3.1 z0.1
  have i9 := mb_schouten_right z1.2 (p 3) z0.1 z1.1 z3.1
  have i10 := mb_schouten_left z0.2 z1.2 ρ2 (p 0) z1.1
  have i11 := mb_schouten_left z1.2 z3.2 ρ2 (p 0) z1.1
  have i12 := mb_schouten_right ρ1 (p 0) z0.1 z1.1 z2.1
  have i13 := sb_schouten z1.2 z3.2 ρ1 z0.2
  have i14 := mb_schouten_right ρ2 (p 0) z0.1 z1.1 z3.1
  have i15 := mb_schouten_left z1.2 z3.2 ρ1 (p 0) z1.1
  have i16 := mb_schouten_right ρ2 (p 0) z0.1 z1.1 z2.1
  have i17 := mb_schouten_right z2.2 (p 3) z0.1 z1.1 z2.1
  have i18 := sb_schouten z2.2 z3.2 ρ1 z1.2
  have i19 := mb_schouten_right z1.2 (p 3) z0.1 z1.1 z2.1
  have i20 := mb_schouten_right z1.2 (p 0) z0.1 z1.1 z2.1
  have i21 := mb_schouten_right z1.2 (p 3) z1.1 z2.1 z3.1
  have i22 := mb_schouten_left z0.2 z1.2 ρ1 (p 0) z1.1
  have i23 := mb_schouten_right ρ2 (p 0) z1.1 z2.1 z3.1
  have i24 := mb_schouten_right ρ1 (p 0) z1.1 z2.1 z3.1
  have i25 := sb_schouten z2.2 z3.2 ρ2 z1.2
  have i26 := sb_schouten z2.2 ρ1 ρ2 z1.2
  have i27 := mb_schouten_left z0.2 ρ1 ρ2 (p 0) z1.1
  have i28 := mb_schouten_right z1.2 (p 0) z0.1 z1.1 z3.1
  have i29 := sb_schouten z1.2 z2.2 ρ1 z0.2
  have i30 := mb_schouten_right z1.2 (p 0) z1.1 z2.1 z3.1
  have i31 := sb_schouten z2.2 ρ1 ρ2 z0.2
  have i32 := mb_schouten_right z3.2 (p 0) z0.1 z1.1 z2.1
  have i33 := sb_schouten z3.2 ρ1 ρ2 z2.2
  have i34 := mb_schouten_left z1.2 z2.2 ρ1 (p 0) z1.1
  have i35 := mb_schouten_right z2.2 (p 3) z1.1 z2.1 z3.1
  have i36 := sb_schouten z3.2 ρ1 ρ2 z1.2
  have i37 := sb_schouten z2.2 z3.2 ρ2 z0.2
  have i38 := mb_schouten_right ρ1 (p 0) z0.1 z1.1 z3.1
  have i39 := sb_schouten z1.2 z3.2 ρ2 z0.2
  simp only [l1.mb_eq, l2.mb_eq, b0.mb_left, b0.mb_right, b3.mb_left, b3.mb_right, e10, e13, e20, e23, mb_three hb z0.2 z0.1, mb_three hb z0.2 z1.1, mb_three hb z0.2 z2.1, mb_three hb z1.2 z0.1, mb_three hb z1.2 z2.1, mb_nought hb z1.2 z3.1, mb_three hb z2.2 z0.1, mb_three hb z2.2 z1.1, mb_nought hb z2.2 z3.1, mb_nought hb z3.2 z1.1, mb_nought hb z3.2 z2.1, mb_nought hb z3.2 z3.1, mb_three hb ρ1 z0.1, mb_three hb ρ1 z1.1, mb_three hb ρ1 z2.1, mb_nought hb ρ1 z3.1, mb_three hb ρ2 z0.1, mb_three hb ρ2 z1.1, mb_three hb ρ2 z2.1, mb_nought hb ρ2 z3.1, ab_self, sb_self] at i0 i1 i2 i3 i4 i5 i6 i7 i8 i9 i10 i11 i12 i13 i14 i15 i16 i17 i18 i19 i20 i21 i22 i23 i24 i25 i26 i27 i28 i29 i30 i31 i32 i33 i34 i35 i36 i37 i38 i39 ⊢
  simp only [ab_swap z0.1 z1.1, ab_swap z0.1 z2.1, ab_swap z0.1 z3.1, ab_swap z1.1 z2.1, ab_swap z1.1 z3.1, ab_swap z2.1 z3.1, sb_swap z0.2 z1.2, sb_swap z0.2 z2.2, sb_swap z0.2 z3.2, sb_swap z0.2 ρ1, sb_swap z0.2 ρ2, sb_swap z1.2 z2.2, sb_swap z1.2 z3.2, sb_swap z1.2 ρ1, sb_swap z1.2 ρ2, sb_swap z2.2 z3.2, sb_swap z2.2 ρ1, sb_swap z2.2 ρ2, sb_swap z3.2 ρ1, sb_swap z3.2 ρ2, sb_swap ρ1 ρ2] at i0 i1 i2 i3 i4 i5 i6 i7 i8 i9 i10 i11 i12 i13 i14 i15 i16 i17 i18 i19 i20 i21 i22 i23 i24 i25 i26 i27 i28 i29 i30 i31 i32 i33 i34 i35 i36 i37 i38 i39 ⊢
  simp only [r0, r1, Constants.hL, Constants.hR, Constants.gL, Constants.gR, Constants.yuk, Constants.invVev, Flavour.charge_e, Flavour.isospin_e, ← c.mz]
  have xMW : (c.MW : ℂ) ≠ 0 := by exact_mod_cast hc.MW
  have xSW : (c.SW : ℂ) ≠ 0 := by exact_mod_cast hc.SW
  have xCW : (c.CW : ℂ) ≠ 0 := by exact_mod_cast hc.CW
  have x2 : ((√2 : ℝ) : ℂ) ≠ 0 := by exact_mod_cast (Real.sqrt_pos.2 two_pos).ne'
  have x22 : ((√2 : ℝ) : ℂ) ^ 2 = 2 := by rw [← Complex.ofReal_pow, Real.sq_sqrt two_pos.le]; norm_num
  have x23 : ((√2 : ℝ) : ℂ) ^ 3 = 2 * ((√2 : ℝ) : ℂ) := by rw [← x22]; ring
  have x24 : ((√2 : ℝ) : ℂ) ^ 4 = 4 := by linear_combination (((√2 : ℝ) : ℂ) ^ 2 + 2) * x22
  push_cast at i0 i1 i2 i3 i4 i5 i6 i7 i8 i9 i10 i11 i12 i13 i14 i15 i16 i17 i18 i19 i20 i21 i22 i23 i24 i25 i26 i27 i28 i29 i30 i31 i32 i33 i34 i35 i36 i37 i38 i39 ⊢
  have y0 := mul_inv_cancel₀ n0
  have y1 := mul_inv_cancel₀ n1
  linear_combination ((((2) * ((c.e : ℂ)) ^ 2 * (ab z1.1 z2.1) * (sb z0.2 z1.2) * (sb ρ1 ρ2)) * i0 + ((2) * ((c.e : ℂ)) ^ 2 * ((c.mass .e : ℂ)) * (ab z1.1 z2.1) ^ 2 * (sb ρ1 ρ2)) * i1 + ((2) * ((c.e : ℂ)) ^ 2 * (N.c 1) * (sb ρ1 ρ2) + (2) * ((c.e : ℂ)) ^ 2 * (ab z1.1 z2.1) * (sb z1.2 z2.2) * (sb ρ1 ρ2)) * i2 + ((-2) * ((c.e : ℂ)) ^ 2 * (ab z1.1 z2.1) * (sb z1.2 ρ1) * (sb z3.2 ρ2) + (2) * ((c.e : ℂ)) ^ 2 * (mb ρ1 (p 0) z2.1) * (sb z3.2 ρ2) + (-2) * ((c.e : ℂ)) ^ 2 * (mb ρ2 (p 0) z2.1) * (sb z3.2 ρ1)) * i3 + ((2) * ((c.e : ℂ)) ^ 2 * (ab z1.1 z2.1) * (ab z2.1 z3.1) * (sb z1.2 ρ1)) * i4 + ((-2) * ((c.e : ℂ)) ^ 2 * (ab z1.1 z2.1) * (ab z2.1 z3.1) * (sb ρ1 ρ2)) * i5 + ((-2) * ((c.e : ℂ)) ^ 2 * ((c.mass .e : ℂ)) * (ab z1.1 z2.1) ^ 2 * (sb z2.2 z3.2) + (-2) * ((c.e : ℂ)) ^ 2 * ((c.mass .e : ℂ)) ^ 2 * (ab z1.1 z2.1) * (ab z1.1 z3.1) + (-2) * ((c.e : ℂ)) ^ 2 * (N.c 0) * (ab z1.1 z2.1) * (ab z1.1 z3.1) + (2) * ((c.e : ℂ)) ^ 2 * (ab z1.1 z2.1) * (ab z2.1 z3.1) * (mb z2.2 (p 0) z1.1)) * i6 + ((-2) * ((c.e : ℂ)) ^ 2 * ((c.mass .e : ℂ)) * (N.c 0) * (ab z1.1 z2.1) + (2) * ((c.e : ℂ)) ^ 2 * ((c.mass .e : ℂ)) * (N.c 1) * (ab z1.1 z2.1)) * i7 + ((-2) * ((c.e : ℂ)) ^ 2 * ((c.mass .e : ℂ)) * (N.c 0) * (sb ρ1 ρ2) + (-4) * ((c.e : ℂ)) ^ 2 * ((c.mass .e : ℂ)) * (N.c 1) * (sb ρ1 ρ2) + (-2) * ((c.e : ℂ)) ^ 2 * ((c.mass .e : ℂ)) * (mb ρ1 (p 0) z1.1) * (sb z1.2 ρ2) + (2) * ((c.e : ℂ)) ^ 2 * ((c.mass .e : ℂ)) * (mb ρ2 (p 0) z1.1) * (sb z1.2 ρ1)) * i8 + ((4) * ((c.e : ℂ)) ^ 2 * ((c.mass .e : ℂ)) * (ab z1.1 z2.1) * (sb ρ1 ρ2)) * i9 + ((2) * ((c.e : ℂ)) ^ 2 * (ab z1.1 z2.1) * (ab z1.1 z3.1) * (sb z1.2 ρ1) + (-4) * ((c.e : ℂ)) ^ 2 * (ab z1.1 z2.1) * (ab z2.1 z3.1) * (sb z2.2 ρ1) + (-2) * ((c.e : ℂ)) ^ 2 * (ab z1.1 z3.1) * (mb ρ1 (p 0) z2.1)) * i10 + ((-2) * ((c.e : ℂ)) ^ 2 * (ab z0.1 z1.1) * (ab z1.1 z2.1) * (sb z1.2 ρ1) + (2) * ((c.e : ℂ)) ^ 2 * (ab z0.1 z1.1) * (mb ρ1 (p 0) z2.1)) * i11 + ((2) * ((c.e : ℂ)) ^ 2 * (ab z1.1 z2.1) * (sb z1.2 z3.2) * (sb z2.2 ρ2) + (-2) * ((c.e : ℂ)) ^ 2 * (mb ρ2 (p 0) z1.1) * (sb z1.2 z3.2)) * i12 + ((2) * ((c.e : ℂ)) ^ 2 * ((c.mass .e : ℂ)) * (ab z1.1 z2.1) * (mb ρ2 (p 0) z1.1)) * i13 + ((2) * ((c.e : ℂ)) ^ 2 * ((c.mass .e : ℂ)) * (ab z1.1 z2.1) * (sb z1.2 ρ1)) * i14 + ((2) * ((c.e : ℂ)) ^ 2 * (ab z0.1 z1.1) * (ab z1.1 z2.1) * (sb z1.2 ρ2) + (-2) * ((c.e : ℂ)) ^ 2 * (ab z0.1 z1.1) * (mb ρ2 (p 0) z2.1)) * i15 + ((-2) * ((c.e : ℂ)) ^ 2 * (N.c 1) * (sb z3.2 ρ1) + (-2) * ((c.e : ℂ)) ^ 2 * (ab z1.1 z2.1) * (sb z1.2 z3.2) * (sb z2.2 ρ1) + (2) * ((c.e : ℂ)) ^ 2 * (mb ρ1 (p 0) z1.1) * (sb z1.2 z3.2)) * i16 + ((-2) * ((c.e : ℂ)) ^ 2 * (mb ρ1 (p 0) z2.1) * (sb z3.2 ρ2) + (2) * ((c.e : ℂ)) ^ 2 * (mb ρ2 (p 0) z2.1) * (sb z3.2 ρ1)) * i17 + ((-2) * ((c.e : ℂ)) ^ 2 * (ab z0.1 z1.1) * (ab z1.1 z2.1) * (mb ρ2 (p 0) z2.1) + (2) * ((c.e : ℂ)) ^ 2 * (ab z0.1 z2.1) * (ab z1.1 z2.1) * (mb ρ2 (p 0) z1.1)) * i18 + ((-2) * ((c.e : ℂ)) ^ 2 * ((c.mass .e : ℂ)) * (ab z1.1 z3.1) * (sb ρ1 ρ2) + (-2) * ((c.e : ℂ)) ^ 2 * (mb ρ2 (p 0) z1.1) * (sb z3.2 ρ1)) * i19 + ((2) * ((c.e : ℂ)) ^ 2 * ((c.mass .e : ℂ)) * (ab z1.1 z3.1) * (sb ρ1 ρ2) + (2) * ((c.e : ℂ)) ^ 2 * (mb ρ2 (p 0) z1.1) * (sb z3.2 ρ1)) * i20 + ((2) * ((c.e : ℂ)) ^ 2 * (ab z1.1 z2.1) * (sb z0.2 z2.2) * (sb ρ1 ρ2) + (2) * ((c.e : ℂ)) ^ 2 * (mb ρ2 (p 0) z1.1) * (sb z0.2 ρ1)) * i21 + ((-2) * ((c.e : ℂ)) ^ 2 * (ab z1.1 z2.1) * (ab z1.1 z3.1) * (sb z1.2 ρ2) + (2) * ((c.e : ℂ)) ^ 2 * (ab z1.1 z2.1) * (ab z2.1 z3.1) * (sb z2.2 ρ2) + (2) * ((c.e : ℂ)) ^ 2 * (ab z1.1 z3.1) * (mb ρ2 (p 0) z2.1)) * i22 + ((-2) * ((c.e : ℂ)) ^ 2 * (N.c 0) * (sb z0.2 ρ1) + (2) * ((c.e : ℂ)) ^ 2 * (mb ρ1 (p 0) z1.1) * (sb z0.2 z1.2)) * i23 + ((4) * ((c.e : ℂ)) ^ 2 * (N.c 0) * (sb z0.2 ρ2) + (-2) * ((c.e : ℂ)) ^ 2 * (mb ρ2 (p 0) z1.1) * (sb z0.2 z1.2)) * i24 + ((2) * ((c.e : ℂ)) ^ 2 * (ab z0.1 z1.1) * (ab z1.1 z2.1) * (mb ρ1 (p 0) z2.1) + (-2) * ((c.e : ℂ)) ^ 2 * (ab z0.1 z2.1) * (ab z1.1 z2.1) * (mb ρ1 (p 0) z1.1)) * i25 + ((2) * ((c.e : ℂ)) ^ 2 * ((c.mass .e : ℂ)) * (ab z0.1 z1.1) * (ab z1.1 z2.1) * (ab z2.1 z3.1)) * i26 + ((4) * ((c.e : ℂ)) ^ 2 * (N.c 0) * (ab z2.1 z3.1)) * i27 + ((-2) * ((c.e : ℂ)) ^ 2 * ((c.mass .e : ℂ)) * (ab z1.1 z2.1) * (sb ρ1 ρ2)) * i28 + ((2) * ((c.e : ℂ)) ^ 2 * (ab z1.1 z2.1) * (ab z2.1 z3.1) * (mb ρ2 (p 0) z1.1)) * i29 + ((-2) * ((c.e : ℂ)) ^ 2 * (ab z1.1 z2.1) * (sb z0.2 z2.2) * (sb ρ1 ρ2) + (-2) * ((c.e : ℂ)) ^ 2 * (mb ρ2 (p 0) z1.1) * (sb z0.2 ρ1)) * i30 + ((2) * ((c.e : ℂ)) ^ 2 * ((c.mass .e : ℂ)) * (ab z1.1 z2.1) ^ 2 * (sb z1.2 z3.2)) * i31 + ((2) * ((c.e : ℂ)) ^ 2 * (N.c 0) * (sb ρ1 ρ2) + (-2) * ((c.e : ℂ)) ^ 2 * (mb ρ1 (p 0) z1.1) * (sb z1.2 ρ2) + (2) * ((c.e : ℂ)) ^ 2 * (mb ρ2 (p 0) z1.1) * (sb z1.2 ρ1)) * i32 + ((2) * ((c.e : ℂ)) ^ 2 * (N.c 0) * (ab z0.1 z2.1) * (ab z1.1 z2.1)) * i33 + ((2) * ((c.e : ℂ)) ^ 2 * (ab z0.1 z2.1) * (ab z1.1 z2.1) * (sb z3.2 ρ2)) * i34 + ((-2) * ((c.e : ℂ)) ^ 2 * (ab z1.1 z2.1) * (sb z0.2 z1.2) * (sb ρ1 ρ2) + (2) * ((c.e : ℂ)) ^ 2 * (ab z1.1 z2.1) * (sb z0.2 ρ1) * (sb z1.2 ρ2)) * i35 + ((2) * ((c.e : ℂ)) ^ 2 * ((c.mass .e : ℂ)) ^ 2 * (ab z0.1 z1.1) * (ab z1.1 z2.1) + (-2) * ((c.e : ℂ)) ^ 2 * (N.c 0) * (ab z0.1 z1.1) * (ab z1.1 z2.1)) * i36 + ((2) * ((c.e : ℂ)) ^ 2 * ((c.mass .e : ℂ)) * (ab z1.1 z2.1) ^ 2 * (sb z1.2 ρ1)) * i37 + ((-2) * ((c.e : ℂ)) ^ 2 * ((c.mass .e : ℂ)) * (ab z1.1 z2.1) * (sb z1.2 ρ2)) * i38 + ((-2) * ((c.e : ℂ)) ^ 2 * ((c.mass .e : ℂ)) * (ab z1.1 z2.1) * (mb ρ1 (p 0) z1.1)) * i39)) * ((1) * ((N.c 0)⁻¹) * ((N.c 1)⁻¹)) + ((-2) * ((c.e : ℂ)) ^ 2 * ((c.mass .e : ℂ)) * ((N.c 1)⁻¹) * (ab z0.1 z2.1) * (ab z1.1 z3.1) * (sb ρ1 ρ2) + (-2) * ((c.e : ℂ)) ^ 2 * ((c.mass .e : ℂ)) * ((N.c 1)⁻¹) * (ab z1.1 z2.1) * (sb z0.2 ρ2) * (sb z3.2 ρ1) + (-2) * ((c.e : ℂ)) ^ 2 * ((N.c 1)⁻¹) * (ab z0.1 z2.1) * (ab z1.1 z2.1) * (sb z2.2 ρ2) * (sb z3.2 ρ1) + (2) * ((c.e : ℂ)) ^ 2 * ((N.c 1)⁻¹) * (ab z0.1 z2.1) * (mb ρ2 (p 0) z1.1) * (sb z3.2 ρ1) + (2) * ((c.e : ℂ)) ^ 2 * ((N.c 1)⁻¹) * (ab z1.1 z3.1) * (mb ρ1 (p 0) z2.1) * (sb z0.2 ρ2)) * y0 + ((2) * ((c.e : ℂ)) ^ 2 * ((c.mass .e : ℂ)) * ((N.c 0)⁻¹) * (ab z0.1 z1.1) * (ab z2.1 z3.1) * (sb ρ1 ρ2) + (2) * ((c.e : ℂ)) ^ 2 * ((c.mass .e : ℂ)) * ((N.c 0)⁻¹) * (ab z1.1 z2.1) * (sb z0.2 ρ1) * (sb z3.2 ρ2) + (-2) * ((c.e : ℂ)) ^ 2 * ((N.c 0)⁻¹) * (ab z0.1 z1.1) * (ab z1.1 z2.1) * (sb z1.2 ρ1) * (sb z3.2 ρ2) + (2) * ((c.e : ℂ)) ^ 2 * ((N.c 0)⁻¹) * (ab z0.1 z1.1) * (mb ρ1 (p 0) z2.1) * (sb z3.2 ρ2) + (2) * ((c.e : ℂ)) ^ 2 * ((N.c 0)⁻¹) * (ab z2.1 z3.1) * (mb ρ2 (p 0) z1.1) * (sb z0.2 ρ1)) * y1 + ((-1) * ((c.e : ℂ)) ^ 2 * ((c.mass .e : ℂ)) * ((N.c 0)⁻¹) * (ab z0.1 z1.1) * (ab z2.1 z3.1) * (sb ρ1 ρ2) + (-1) * ((c.e : ℂ)) ^ 2 * ((c.mass .e : ℂ)) * ((N.c 0)⁻¹) * (ab z1.1 z2.1) * (sb z0.2 ρ1) * (sb z3.2 ρ2) + (1) * ((c.e : ℂ)) ^ 2 * ((c.mass .e : ℂ)) * ((N.c 1)⁻¹) * (ab z0.1 z2.1) * (ab z1.1 z3.1) * (sb ρ1 ρ2) + (1) * ((c.e : ℂ)) ^ 2 * ((c.mass .e : ℂ)) * ((N.c 1)⁻¹) * (ab z1.1 z2.1) * (sb z0.2 ρ2) * (sb z3.2 ρ1) + (1) * ((c.e : ℂ)) ^ 2 * ((N.c 0)⁻¹) * (ab z0.1 z1.1) * (ab z1.1 z2.1) * (sb z1.2 ρ1) * (sb z3.2 ρ2) + (-1) * ((c.e : ℂ)) ^ 2 * ((N.c 0)⁻¹) * (ab z0.1 z1.1) * (mb ρ1 (p 0) z2.1) * (sb z3.2 ρ2) + (-1) * ((c.e : ℂ)) ^ 2 * ((N.c 0)⁻¹) * (ab z2.1 z3.1) * (mb ρ2 (p 0) z1.1) * (sb z0.2 ρ1) + (1) * ((c.e : ℂ)) ^ 2 * ((N.c 1)⁻¹) * (ab z0.1 z2.1) * (ab z1.1 z2.1) * (sb z2.2 ρ2) * (sb z3.2 ρ1) + (-1) * ((c.e : ℂ)) ^ 2 * ((N.c 1)⁻¹) * (ab z0.1 z2.1) * (mb ρ2 (p 0) z1.1) * (sb z3.2 ρ1) + (-1) * ((c.e : ℂ)) ^ 2 * ((N.c 1)⁻¹) * (ab z1.1 z3.1) * (mb ρ1 (p 0) z2.1) * (sb z0.2 ρ2)) * x22
set_option maxRecDepth 8000 in
theorem eAAe.amp2_eq (N : Env) (f : Nat → List Int → ℂ) : Cls.eAAe.m_amp2.mean N f .r [] =
    ((sumJ (fun x a => (sumW (fun x b => (sumW (fun x c => (sumJ (fun x d => (x + (‖(f 0 [a, b, c, d])‖ ^ 2))) x)) x)) x)) ((0 : Nat) : ℝ)) / ((4 : Nat) : ℝ)) := by rfl
set_option maxRecDepth 8000 in
theorem eAAe.value (N : Env) : meaning N .r Cls.eAAe.methods Cls.eAAe.amp2 [] =
    ((sumJ (fun x a => (sumW (fun x b => (sumW (fun x c => (sumJ (fun x d => (x + (‖(Cls.eAAe.m_amp.mean N (callMean N []) .c [a, b, c, d])‖ ^ 2))) x)) x)) x)) ((0 : Nat) : ℝ)) / ((4 : Nat) : ℝ)) :=
  eAAe.amp2_eq N (callMean N [Cls.eAAe.m_amp])
set_option maxRecDepth 8000 in
theorem eAAe.ampPP (N : Env) (f : Nat → List Int → ℂ) (j1 j4 : Int) : Cls.eAAe.m_amp.mean N f .c [j1, 2, 2, j4] = eAAe.termPP N j1 j4 := by rfl
set_option maxRecDepth 8000 in
theorem eAAe.ampPM (N : Env) (f : Nat → List Int → ℂ) (j1 j4 : Int) : Cls.eAAe.m_amp.mean N f .c [j1, 2, (-2), j4] = eAAe.termPM N j1 j4 := by rfl
set_option maxRecDepth 8000 in
theorem eAAe.ampMP (N : Env) (f : Nat → List Int → ℂ) (j1 j4 : Int) : Cls.eAAe.m_amp.mean N f .c [j1, (-2), 2, j4] = eAAe.termMP N j1 j4 := by rfl
set_option maxRecDepth 8000 in
theorem eAAe.ampMM (N : Env) (f : Nat → List Int → ℂ) (j1 j4 : Int) : Cls.eAAe.m_amp.mean N f .c [j1, (-2), (-2), j4] = eAAe.termMM N j1 j4 := by rfl

theorem eAAe.mass_eq {c : Constants} (hc : c.Physical) (i : Fin 4) : eAAe.proc.massNum (eAAe.rho c) i = eAAe.react.mass c i := by
  fin_cases i <;> first | rfl | exact Nat.cast_zero | exact Nat.cast_zero.trans (hc.neutrino _).symm | (show c.MW / √(((1 : Nat) : ℝ) - c.SW * c.SW) = c.MZ; rw [c.root, c.mz])

variable [FPEnv] in
theorem eAAe.amps {c : Constants} {p : Nat → V4 ℝ} {u : Fin 4 → Fin 3 → Spinor} {ε : Fin 4 → Fin 3 → Vec} (hc : c.Physical) (hh : c.Heavy) (h0 : ∀ i, 0 ≤ eAAe.react.mass c i) (hs : ∀ i : Fin 4, OnShell (p i) (eAAe.react.mass c i)) (hb : Balanced p) (hr : eAAe.react.Regular c p) (hu : ∀ i, eAAe.react.Complete c p i (u i) (ε i)) :
    (eAAe.N c p).c 0 ≠ 0 ∧ (eAAe.N c p).c 1 ≠ 0 ∧ (∀ n, (Ty.r, n) ∈ eAAe.proc.divides → (eAAe.N c p).r n ≠ 0) ∧ (∀ n, (Ty.c, n) ∈ eAAe.proc.divides → (eAAe.N c p).c n ≠ 0) ∧ ∀ (s0 : Fin 2) (s3 : Fin 2) (h1 : Fin 2) (h2 : Fin 2), ‖Cls.eAAe.m_amp.mean (eAAe.N c p) (callMean (eAAe.N c p) []) .c [spinOf s0, spinW h1, spinW h2, spinOf s3]‖ = ‖eAAe.react.bare c p 3 0 1 2 (eAAe.react.codePair c p 3 s3) (eAAe.react.codePair c p 0 s0) (lightE (legA (p 1) 0 0, legS (p 1) 0 1) h1.castSucc) (lightE (legA (p 2) 0 0, legS (p 2) 0 1) h2.castSucc)‖ := by
  have he : eAAe.react.ends = [3] := by decide
  have ht : eAAe.react.starts = [0] := by decide
  have hB : eAAe.react.bosons = [1, 2] := by decide
  obtain ⟨f1, f2, f3⟩ := eAAe.react.regular_line he ht hB hr
  have r0 : (eAAe.N c p).r 0 = c.e := rfl
  have r1 : (eAAe.N c p).r 1 = (c.mass .e) := rfl
  have c0 : (eAAe.N c p).c 0 = poleDist (c.mass .e) ((0 : Nat) : ℝ) ((VExp.add 0 1).sum p) := rfl
  rw [Nat.cast_zero, pole_fermion rfl] at c0
  have d0 : ((msq (plus (p 0) (p 1)) - c.mass .e ^ 2 : ℝ) : ℂ) = (eAAe.N c p).c 0 := by rw [c0, msq_s hb (plus (p 0) (p 1)) (by simp)]
  have n0 : (eAAe.N c p).c 0 ≠ 0 := by rw [← d0]; exact_mod_cast f1 .e rfl rfl
  have c1 : (eAAe.N c p).c 1 = poleDist (c.mass .e) ((0 : Nat) : ℝ) ((VExp.sub 0 2).sum p) := rfl
  rw [Nat.cast_zero, pole_fermion rfl] at c1
  have d1 : ((msq (plus (p 0) (backward (p 2))) - c.mass .e ^ 2 : ℝ) : ℂ) = (eAAe.N c p).c 1 := by rw [c1, msq_t hb (plus (p 0) (backward (p 2))) (by simp)]
  have n1 : (eAAe.N c p).c 1 ≠ 0 := by rw [← d1]; exact_mod_cast f2 .e rfl rfl
  obtain ⟨l1, x1, y1⟩ := eAAe.react.code_light hs hu (n := 1) rfl rfl
  obtain ⟨l2, x2, y2⟩ := eAAe.react.code_light hs hu (n := 2) rfl rfl
  have e10 := l1.pole_add (m := (c.mass .e)) (onShell_msq (hs 0)) (msq_s hb (plus (p 1) (p 0)) (by simp)) c0
  have e13 := l1.pole_sub (m := (c.mass .e)) (onShell_msq (hs 3)) (msq_t hb (plus (p 1) (backward (p 3))) (by simp)) c1
  have e20 := l2.pole_sub' (m := (c.mass .e)) (onShell_msq (hs 0)) (msq_t hb (plus (p 0) (backward (p 2))) (by simp)) c1
  have e23 := l2.pole_add (m := (c.mass .e)) (onShell_msq (hs 3)) (msq_s hb (plus (p 2) (p 3)) (by simp)) c0
  have m0 : eAAe.react.mass c 0 ≠ 0 := (leg_pos hc hh (by decide)).ne'
  have m3 : eAAe.react.mass c 3 ≠ 0 := (leg_pos hc hh (by decide)).ne'
  have m1 : eAAe.react.mass c 1 = 0 := rfl
  have m2 : eAAe.react.mass c 2 = 0 := rfl
  have hd : eAAe.proc.divides = [(Ty.c, 0), (Ty.c, 1)] := by decide +kernel
  have stPP : ∀ {z0 z3 : Pair} (b0 : Bold (p 0) (eAAe.react.mass c 0) z0) (b3 : Bold (p 3) (eAAe.react.mass c 3) z3), eAAe.formPP (eAAe.N c p) p z0 (legA (p 1) 0 0, legS (p 1) 0 1) (legA (p 2) 0 0, legS (p 2) 0 1) z3 = 1 * eAAe.react.bare c p 3 0 1 2 z3 z0 (lightE (legA (p 1) 0 0, legS (p 1) 0 1) 1) (lightE (legA (p 2) 0 0, legS (p 2) 0 1) 1) := by
    intro z0 z3 b0 b3
    exact (light_plus (z := (legA (p 1) 0 0, legS (p 1) 0 1)) (G := fun E => eAAe.react.bare c p 3 0 1 2 z3 z0 E (lightE (legA (p 2) 0 0, legS (p 2) 0 1) 1)) (eAAe.react.bare_lin₁ c p _ _ _ (by decide)) x1 (light_plus (z := (legA (p 2) 0 0, legS (p 2) 0 1)) (G := fun E => eAAe.react.bare c p 3 0 1 2 z3 z0 (pv (legA (p 1) 0 0, legS (p 1) 0 1).2 (legA (p 1) 0 0, legS (p 1) 0 1).2) E) (eAAe.react.bare_lin₂ c p _ _ _ (by decide)) x2 (eAAe.keyPP hc hb r0 r1 d0 n0 d1 n1 b0 b3 l1 l2 e10 e13 e20 e23 (onShell_msq (hs 0)) (onShell_msq (hs 3)) _ _)))
  have stPM : ∀ {z0 z3 : Pair} (b0 : Bold (p 0) (eAAe.react.mass c 0) z0) (b3 : Bold (p 3) (eAAe.react.mass c 3) z3), eAAe.formPM (eAAe.N c p) p z0 (legA (p 1) 0 0, legS (p 1) 0 1) (legA (p 2) 0 0, legS (p 2) 0 1) z3 = (-1) * eAAe.react.bare c p 3 0 1 2 z3 z0 (lightE (legA (p 1) 0 0, legS (p 1) 0 1) 1) (lightE (legA (p 2) 0 0, legS (p 2) 0 1) 0) := by
    intro z0 z3 b0 b3
    exact (light_plus (z := (legA (p 1) 0 0, legS (p 1) 0 1)) (G := fun E => eAAe.react.bare c p 3 0 1 2 z3 z0 E (lightE (legA (p 2) 0 0, legS (p 2) 0 1) 0)) (eAAe.react.bare_lin₁ c p _ _ _ (by decide)) x1 (light_minus (z := (legA (p 2) 0 0, legS (p 2) 0 1)) (G := fun E => eAAe.react.bare c p 3 0 1 2 z3 z0 (pv (legA (p 1) 0 0, legS (p 1) 0 1).2 (legA (p 1) 0 0, legS (p 1) 0 1).2) E) (eAAe.react.bare_lin₂ c p _ _ _ (by decide)) y2 (eAAe.keyPM hc hb r0 d0 n0 d1 n1 b0 b3 l1 l2 e10 e13 e20 e23 (onShell_msq (hs 0)) (onShell_msq (hs 3)) _ _)))
  have stMP : ∀ {z0 z3 : Pair} (b0 : Bold (p 0) (eAAe.react.mass c 0) z0) (b3 : Bold (p 3) (eAAe.react.mass c 3) z3), eAAe.formMP (eAAe.N c p) p z0 (legA (p 1) 0 0, legS (p 1) 0 1) (legA (p 2) 0 0, legS (p 2) 0 1) z3 = (-1) * eAAe.react.bare c p 3 0 1 2 z3 z0 (lightE (legA (p 1) 0 0, legS (p 1) 0 1) 0) (lightE (legA (p 2) 0 0, legS (p 2) 0 1) 1) := by
    intro z0 z3 b0 b3
    exact (light_minus (z := (legA (p 1) 0 0, legS (p 1) 0 1)) (G := fun E => eAAe.react.bare c p 3 0 1 2 z3 z0 E (lightE (legA (p 2) 0 0, legS (p 2) 0 1) 1)) (eAAe.react.bare_lin₁ c p _ _ _ (by decide)) y1 (light_plus (z := (legA (p 2) 0 0, legS (p 2) 0 1)) (G := fun E => eAAe.react.bare c p 3 0 1 2 z3 z0 (pv (legA (p 1) 0 0, legS (p 1) 0 1).1 (legA (p 1) 0 0, legS (p 1) 0 1).1) E) (eAAe.react.bare_lin₂ c p _ _ _ (by decide)) x2 (eAAe.keyMP hc hb r0 d0 n0 d1 n1 b0 b3 l1 l2 e10 e13 e20 e23 (onShell_msq (hs 0)) (onShell_msq (hs 3)) _ _)))
  have stMM : ∀ {z0 z3 : Pair} (b0 : Bold (p 0) (eAAe.react.mass c 0) z0) (b3 : Bold (p 3) (eAAe.react.mass c 3) z3), eAAe.formMM (eAAe.N c p) p z0 (legA (p 1) 0 0, legS (p 1) 0 1) (legA (p 2) 0 0, legS (p 2) 0 1) z3 = 1 * eAAe.react.bare c p 3 0 1 2 z3 z0 (lightE (legA (p 1) 0 0, legS (p 1) 0 1) 0) (lightE (legA (p 2) 0 0, legS (p 2) 0 1) 0) := by
    intro z0 z3 b0 b3
    exact (light_minus (z := (legA (p 1) 0 0, legS (p 1) 0 1)) (G := fun E => eAAe.react.bare c p 3 0 1 2 z3 z0 E (lightE (legA (p 2) 0 0, legS (p 2) 0 1) 0)) (eAAe.react.bare_lin₁ c p _ _ _ (by decide)) y1 (light_minus (z := (legA (p 2) 0 0, legS (p 2) 0 1)) (G := fun E => eAAe.react.bare c p 3 0 1 2 z3 z0 (pv (legA (p 1) 0 0, legS (p 1) 0 1).1 (legA (p 1) 0 0, legS (p 1) 0 1).1) E) (eAAe.react.bare_lin₂ c p _ _ _ (by decide)) y2 (eAAe.keyMM hc hb r0 r1 d0 n0 d1 n1 b0 b3 l1 l2 e10 e13 e20 e23 (onShell_msq (hs 0)) (onShell_msq (hs 3)) _ _)))
  have amPP : ∀ (s0 : Fin 2) (s3 : Fin 2), Cls.eAAe.m_amp.mean (eAAe.N c p) (callMean (eAAe.N c p) []) .c [spinOf s0, 2, 2, spinOf s3] = 1 * eAAe.react.bare c p 3 0 1 2 (eAAe.react.codePair c p 3 s3) (eAAe.react.codePair c p 0 s0) (lightE (legA (p 1) 0 0, legS (p 1) 0 1) 1) (lightE (legA (p 2) 0 0, legS (p 2) 0 1) 1) := by
    intro s0 s3
    rw [eAAe.ampPP, ← stPP (eAAe.react.codePair_bold hs h0 0 s0) (eAAe.react.codePair_bold hs h0 3 s3)]
    have v8z1z2 : (eAAe.N c p).v 8 [] = sb (legA (p 1) 0 0, legS (p 1) 0 1).2 (legA (p 2) 0 0, legS (p 2) 0 1).2 := bra_square (p := p) (m := eAAe.proc.massNum (eAAe.rho c)) (eAAe.mass_eq hc 1) (eAAe.mass_eq hc 2) (.inr ⟨m1, rfl⟩) (.inr ⟨m2, rfl⟩)
    have v11z0z3 : (eAAe.N c p).v 11 [spinOf s0, spinOf s3] = ab (eAAe.react.codePair c p 0 s0).1 (eAAe.react.codePair c p 3 s3).1 := bra_angle (p := p) (m := eAAe.proc.massNum (eAAe.rho c)) (eAAe.mass_eq hc 0) (eAAe.mass_eq hc 3) (.inl ⟨m0, rfl⟩) (.inl ⟨m3, rfl⟩)
    simp only [eAAe.termPP, eAAe.formPP, v8z1z2, v11z0z3]
  have amPM : ∀ (s0 : Fin 2) (s3 : Fin 2), Cls.eAAe.m_amp.mean (eAAe.N c p) (callMean (eAAe.N c p) []) .c [spinOf s0, 2, (-2), spinOf s3] = (-1) * eAAe.react.bare c p 3 0 1 2 (eAAe.react.codePair c p 3 s3) (eAAe.react.codePair c p 0 s0) (lightE (legA (p 1) 0 0, legS (p 1) 0 1) 1) (lightE (legA (p 2) 0 0, legS (p 2) 0 1) 0) := by
    intro s0 s3
    rw [eAAe.ampPM, ← stPM (eAAe.react.codePair_bold hs h0 0 s0) (eAAe.react.codePair_bold hs h0 3 s3)]
    have v1z2z3 : (eAAe.N c p).v 1 [spinOf s3] = ab (legA (p 2) 0 0, legS (p 2) 0 1).1 (eAAe.react.codePair c p 3 s3).1 := bra_angle (p := p) (m := eAAe.proc.massNum (eAAe.rho c)) (eAAe.mass_eq hc 2) (eAAe.mass_eq hc 3) (.inr ⟨m2, rfl⟩) (.inl ⟨m3, rfl⟩)
    have v2z0z1 : (eAAe.N c p).v 2 [spinOf s0] = sb (eAAe.react.codePair c p 0 s0).2 (legA (p 1) 0 0, legS (p 1) 0 1).2 := bra_square (p := p) (m := eAAe.proc.massNum (eAAe.rho c)) (eAAe.mass_eq hc 0) (eAAe.mass_eq hc 1) (.inl ⟨m0, rfl⟩) (.inr ⟨m1, rfl⟩)
    have v5z0z2 : (eAAe.N c p).v 5 [spinOf s0] = ab (eAAe.react.codePair c p 0 s0).1 (legA (p 2) 0 0, legS (p 2) 0 1).1 := bra_angle (p := p) (m := eAAe.proc.massNum (eAAe.rho c)) (eAAe.mass_eq hc 0) (eAAe.mass_eq hc 2) (.inl ⟨m0, rfl⟩) (.inr ⟨m2, rfl⟩)
    have v6z1z3 : (eAAe.N c p).v 6 [spinOf s3] = sb (legA (p 1) 0 0, legS (p 1) 0 1).2 (eAAe.react.codePair c p 3 s3).2 := bra_square (p := p) (m := eAAe.proc.massNum (eAAe.rho c)) (eAAe.mass_eq hc 1) (eAAe.mass_eq hc 3) (.inr ⟨m1, rfl⟩) (.inl ⟨m3, rfl⟩)
    have v13z1z2 : (eAAe.N c p).v 13 [] = mb (legA (p 1) 0 0, legS (p 1) 0 1).2 (p 3) (legA (p 2) 0 0, legS (p 2) 0 1).1 := bra_mid_square (p := p) (m := eAAe.proc.massNum (eAAe.rho c)) (eAAe.mass_eq hc 1) (eAAe.mass_eq hc 2) (.inr ⟨m1, rfl⟩) (.inr ⟨m2, rfl⟩)
    simp only [eAAe.termPM, eAAe.formPM, v1z2z3, v2z0z1, v5z0z2, v6z1z3, v13z1z2]
  have amMP : ∀ (s0 : Fin 2) (s3 : Fin 2), Cls.eAAe.m_amp.mean (eAAe.N c p) (callMean (eAAe.N c p) []) .c [spinOf s0, (-2), 2, spinOf s3] = (-1) * eAAe.react.bare c p 3 0 1 2 (eAAe.react.codePair c p 3 s3) (eAAe.react.codePair c p 0 s0) (lightE (legA (p 1) 0 0, legS (p 1) 0 1) 0) (lightE (legA (p 2) 0 0, legS (p 2) 0 1) 1) := by
    intro s0 s3
    rw [eAAe.ampMP, ← stMP (eAAe.react.codePair_bold hs h0 0 s0) (eAAe.react.codePair_bold hs h0 3 s3)]
    have v0z2z3 : (eAAe.N c p).v 0 [spinOf s3] = sb (legA (p 2) 0 0, legS (p 2) 0 1).2 (eAAe.react.codePair c p 3 s3).2 := bra_square (p := p) (m := eAAe.proc.massNum (eAAe.rho c)) (eAAe.mass_eq hc 2) (eAAe.mass_eq hc 3) (.inr ⟨m2, rfl⟩) (.inl ⟨m3, rfl⟩)
    have v3z0z1 : (eAAe.N c p).v 3 [spinOf s0] = ab (eAAe.react.codePair c p 0 s0).1 (legA (p 1) 0 0, legS (p 1) 0 1).1 := bra_angle (p := p) (m := eAAe.proc.massNum (eAAe.rho c)) (eAAe.mass_eq hc 0) (eAAe.mass_eq hc 1) (.inl ⟨m0, rfl⟩) (.inr ⟨m1, rfl⟩)
    have v4z0z2 : (eAAe.N c p).v 4 [spinOf s0] = sb (eAAe.react.codePair c p 0 s0).2 (legA (p 2) 0 0, legS (p 2) 0 1).2 := bra_square (p := p) (m := eAAe.proc.massNum (eAAe.rho c)) (eAAe.mass_eq hc 0) (eAAe.mass_eq hc 2) (.inl ⟨m0, rfl⟩) (.inr ⟨m2, rfl⟩)
    have v7z1z3 : (eAAe.N c p).v 7 [spinOf s3] = ab (legA (p 1) 0 0, legS (p 1) 0 1).1 (eAAe.react.codePair c p 3 s3).1 := bra_angle (p := p) (m := eAAe.proc.massNum (eAAe.rho c)) (eAAe.mass_eq hc 1) (eAAe.mass_eq hc 3) (.inr ⟨m1, rfl⟩) (.inl ⟨m3, rfl⟩)
    have v12z2z1 : (eAAe.N c p).v 12 [] = mb (legA (p 2) 0 0, legS (p 2) 0 1).2 (p 3) (legA (p 1) 0 0, legS (p 1) 0 1).1 := bra_mid_square (p := p) (m := eAAe.proc.massNum (eAAe.rho c)) (eAAe.mass_eq hc 2) (eAAe.mass_eq hc 1) (.inr ⟨m2, rfl⟩) (.inr ⟨m1, rfl⟩)
    simp only [eAAe.termMP, eAAe.formMP, v0z2z3, v3z0z1, v4z0z2, v7z1z3, v12z2z1]
  have amMM : ∀ (s0 : Fin 2) (s3 : Fin 2), Cls.eAAe.m_amp.mean (eAAe.N c p) (callMean (eAAe.N c p) []) .c [spinOf s0, (-2), (-2), spinOf s3] = 1 * eAAe.react.bare c p 3 0 1 2 (eAAe.react.codePair c p 3 s3) (eAAe.react.codePair c p 0 s0) (lightE (legA (p 1) 0 0, legS (p 1) 0 1) 0) (lightE (legA (p 2) 0 0, legS (p 2) 0 1) 0) := by
    intro s0 s3
    rw [eAAe.ampMM, ← stMM (eAAe.react.codePair_bold hs h0 0 s0) (eAAe.react.codePair_bold hs h0 3 s3)]
    have v9z1z2 : (eAAe.N c p).v 9 [] = ab (legA (p 1) 0 0, legS (p 1) 0 1).1 (legA (p 2) 0 0, legS (p 2) 0 1).1 := bra_angle (p := p) (m := eAAe.proc.massNum (eAAe.rho c)) (eAAe.mass_eq hc 1) (eAAe.mass_eq hc 2) (.inr ⟨m1, rfl⟩) (.inr ⟨m2, rfl⟩)
    have v10z0z3 : (eAAe.N c p).v 10 [spinOf s0, spinOf s3] = sb (eAAe.react.codePair c p 0 s0).2 (eAAe.react.codePair c p 3 s3).2 := bra_square (p := p) (m := eAAe.proc.massNum (eAAe.rho c)) (eAAe.mass_eq hc 0) (eAAe.mass_eq hc 3) (.inl ⟨m0, rfl⟩) (.inl ⟨m3, rfl⟩)
    simp only [eAAe.termMM, eAAe.formMM, v9z1z2, v10z0z3]
  refine ⟨n0, n1, fun n hn => ?_, fun n hn => ?_, ?_⟩
  · simp [hd] at hn
  · simp [hd] at hn
    rcases hn with rfl | rfl
    · exact n0
    · exact n1
  intro s0 s3 h1 h2
  match h1, h2 with
  | 1, 1 => exact norm_plus (amPP s0 s3)
  | 1, 0 => exact norm_minus (amPM s0 s3)
  | 0, 1 => exact norm_minus (amMP s0 s3)
  | 0, 0 => exact norm_plus (amMM s0 s3)

variable [FPEnv] in
theorem eAAe.agrees : eAAe.Agrees := by
  refine agrees_of (D := []) (E := []) (by simp [all, eAAe]) (by decide +kernel) (by decide) (by decide +kernel) (fun c hc hh => ⟨List.forall_mem_nil _, List.forall_mem_nil _⟩) (fun c hc i => eAAe.mass_eq hc i) (by decide +kernel) ?_
  intro c p u ε hc hh hw h0 hs hb hr hu
  have he : eAAe.react.ends = [3] := by decide
  have ht : eAAe.react.starts = [0] := by decide
  have hB : eAAe.react.bosons = [1, 2] := by decide
  obtain ⟨n0, n1, d1, d2, am⟩ := eAAe.amps hc hh h0 hs hb hr hu
  refine ⟨d1, d2, ?_⟩
  show meaning (eAAe.N c p) .r Cls.eAAe.methods Cls.eAAe.amp2 [] = _
  have s0 : eAAe.react.states 0 = 2 := by decide +kernel
  have s1 : eAAe.react.states 1 = 2 := by decide +kernel
  have sy : eAAe.react.symmetry = 1 := by decide
  have p0 : eAAe.react.spins 0 = {0, 1} := rfl
  have p1 : eAAe.react.spins 1 = {0, 1} := rfl
  have p2 : eAAe.react.spins 2 = {0, 1} := rfl
  have p3 : eAAe.react.spins 3 = {0, 1} := rfl
  have E1 : eAAe.react.codeE c p 1 = lightE (legA (p 1) 0 0, legS (p 1) 0 1) := rfl
  have E2 : eAAe.react.codeE c p 2 = lightE (legA (p 2) 0 0, legS (p 2) 0 1) := rfl
  have hG : eAAe.react.Gauge c p := (eAAe.react.gauge_line he ht hB hh (by decide) (fun n => onShell_msq (hs n)) hb hr (fun n m h h2 => absurd (And.intro h h2) (by revert n m; decide)) (fun _ => ⟨rfl, rfl⟩) (fun _ => ⟨rfl, rfl⟩))
  have lc : eAAe.react.lineColours 3 0 = 1 := by decide +kernel
  rw [eAAe.value, eAAe.react.squared_line he ht hB (by decide) hs h0 (fun _ b _ hb _ => (boson_pos hc hh hb).ne') hG (E := eAAe.react.codeE c p) (fun n b hl => eAAe.react.codeE_polarised hs h0 hu (fun b hb => (boson_pos hc hh hb).ne') n b hl) hu, sum_colours, lc, s0, s1, sy]
  simp only [sumV_sum, sumJ_sum, sumW_sum, am, p0, p1, p2, p3, E1, E2, Finset.sum_singleton, sum_two, Matrix.cons_val_zero, Matrix.cons_val_one, Matrix.cons_val, two_castSucc]
  try simp only [← Finset.mul_sum]
  push_cast
  first | ring1 | ring_nf

end Spinas.SM.Rows
