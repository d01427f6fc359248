import Verif.SM.LightRows
import Verif.SM.GluonLine

/-! Two photons become fermions. Generated by tools/bosons/lemit.py: for each class its amplitude at given helicities as a formula in spinors, and the proof that `amp2` is the squared amplitude of the Feynman rules. -/

set_option linter.unusedSimpArgs false
set_option linter.unusedVariables false
set_option linter.unreachableTactic false
set_option linter.unusedTactic false

namespace Spinas.SM.Rows
open Spec Spec.Reaction Props XR Matrix BRow

/-! ### AAuu -/

/-- what the methods of the class see -/
noncomputable abbrev AAuu.N [FPEnv] (c : Constants) (p : Nat → V4 ℝ) : Env := AAuu.proc.env (AAuu.rho c) p
/-- `amp` for a photon of positive helicity and a photon of positive helicity (SM/AAuu.cpp) -/
noncomputable def AAuu.termPP (N : Env) (j3 j4 : Int) : ℂ :=
  ((((((((((((((2 : Nat) : ℝ) * N.r 0) * N.r 0) * N.r 1) * N.r 1) * N.r 2) : ℝ) : ℂ) * N.v 2 []) * N.v 2 []) * N.v 1 [j3, j4]) / N.c 0) / N.c 1)
/-- the same with spinors in place of their spins -/
noncomputable def AAuu.formPP (N : Env) (p : Nat → V4 ℝ) (z0 z1 z2 z3 : Pair) : ℂ :=
  ((((((((((((((2 : Nat) : ℝ) * N.r 0) * N.r 0) * N.r 1) * N.r 1) * N.r 2) : ℝ) : ℂ) * (sb z0.2 z1.2)) * (sb z0.2 z1.2)) * (ab z2.1 z3.1)) / N.c 0) / N.c 1)
/-- `amp` for a photon of positive helicity and a photon of negative helicity (SM/AAuu.cpp) -/
noncomputable def AAuu.termPM (N : Env) (j3 j4 : Int) : ℂ :=
  (((((((((((-((2 : Nat) : ℝ)) * N.r 0) * N.r 0) * N.r 1) * N.r 1) : ℝ) : ℂ) * ((N.v 4 [j3] * N.v 7 [j4]) + (N.v 10 [j4] * N.v 9 [j3]))) * N.v 12 []) / N.c 0) / N.c 1)
/-- the same with spinors in place of their spins -/
noncomputable def AAuu.formPM (N : Env) (p : Nat → V4 ℝ) (z0 z1 z2 z3 : Pair) : ℂ :=
  (((((((((((-((2 : Nat) : ℝ)) * N.r 0) * N.r 0) * N.r 1) * N.r 1) : ℝ) : ℂ) * (((sb z0.2 z2.2) * (ab z1.1 z3.1)) + ((sb z0.2 z3.2) * (ab z1.1 z2.1)))) * (mb z0.2 (p 2) z1.1)) / N.c 0) / N.c 1)
/-- `amp` for a photon of negative helicity and a photon of positive helicity (SM/AAuu.cpp) -/
noncomputable def AAuu.termMP (N : Env) (j3 j4 : Int) : ℂ :=
  (((((((((((-((2 : Nat) : ℝ)) * N.r 0) * N.r 0) * N.r 1) * N.r 1) : ℝ) : ℂ) * ((N.v 5 [j3] * N.v 6 [j4]) + (N.v 11 [j4] * N.v 8 [j3]))) * N.v 13 []) / N.c 0) / N.c 1)
/-- the same with spinors in place of their spins -/
noncomputable def AAuu.formMP (N : Env) (p : Nat → V4 ℝ) (z0 z1 z2 z3 : Pair) : ℂ :=
  (((((((((((-((2 : Nat) : ℝ)) * N.r 0) * N.r 0) * N.r 1) * N.r 1) : ℝ) : ℂ) * (((ab z0.1 z2.1) * (sb z1.2 z3.2)) + ((ab z0.1 z3.1) * (sb z1.2 z2.2)))) * (mb z1.2 (p 2) z0.1)) / N.c 0) / N.c 1)
/-- `amp` for a photon of negative helicity and a photon of negative helicity (SM/AAuu.cpp) -/
noncomputable def AAuu.termMM (N : Env) (j3 j4 : Int) : ℂ :=
  ((((((((((((((2 : Nat) : ℝ) * N.r 0) * N.r 0) * N.r 1) * N.r 1) * N.r 2) : ℝ) : ℂ) * N.v 3 []) * N.v 3 []) * N.v 0 [j3, j4]) / N.c 0) / N.c 1)
/-- the same with spinors in place of their spins -/
noncomputable def AAuu.formMM (N : Env) (p : Nat → V4 ℝ) (z0 z1 z2 z3 : Pair) : ℂ :=
  ((((((((((((((2 : Nat) : ℝ) * N.r 0) * N.r 0) * N.r 1) * N.r 1) * N.r 2) : ℝ) : ℂ) * (ab z0.1 z1.1)) * (ab z0.1 z1.1)) * (sb z2.2 z3.2)) / N.c 0) / N.c 1)
theorem AAuu.keyPP {c : Constants} {p : Nat → V4 ℝ} {N : Env} (hc : c.Physical) (hb : Balanced p) (r0 : N.r 0 = c.e) (r1 : N.r 1 = (((2 : Nat) : ℝ) / ((3 : Nat) : ℝ))) (r2 : N.r 2 = (c.mass .u)) (d0 : ((msq (plus (backward (p 3)) (p 1)) - c.mass .u ^ 2 : ℝ) : ℂ) = N.c 0) (n0 : N.c 0 ≠ 0) (d1 : ((msq (plus (backward (p 3)) (p 0)) - c.mass .u ^ 2 : ℝ) : ℂ) = N.c 1) (n1 : N.c 1 ≠ 0) {z0 z1 z2 z3 : Pair} (b2 : Bold (p 2) (c.mass .u) z2) (b3 : Bold (p 3) (c.mass .u) z3) (l0 : Light (p 0) z0) (l1 : Light (p 1) z1) (e02 : mb z0.2 (p 2) z0.1 = -N.c 0) (e03 : mb z0.2 (p 3) z0.1 = -N.c 1) (e12 : mb z1.2 (p 2) z1.1 = -N.c 1) (e13 : mb z1.2 (p 3) z1.1 = -N.c 0) (q2 : msq (p 2) = (c.mass .u) ^ 2) (q3 : msq (p 3) = (c.mass .u) ^ 2) (ρ0 ρ1 : V2) :
    AAuu.formPP N p z0 z1 z2 z3 * ab ρ0 z0.1 * ab ρ1 z1.1 = ((√2 : ℝ) * ((√2 : ℝ) * (1 : ℂ))) * AAuu.react.bare c p 2 3 0 1 z2 z3 (pv ρ0 z0.2) (pv ρ1 z1.2) := by
  rw [AAuu.react.bare_parts c p (i := 2) (j := 3) (a := 0) (b := 1) (x := .photon) (y := .photon) (k := (p 0)) (k' := (p 1)) (fun _ => rfl) (fun _ => rfl) (f := .u) (g := .u) rfl rfl (l := (backward (p 3))) rfl (e := 1) (e' := -1) (if_neg Bool.false_ne_true) (if_pos rfl)]
  rw [compton_vv (f := .u) (x := .u) (g := .u) (h := (rfl : Spec.after .photon Flavour.u = some Flavour.u)) (h' := (rfl : Spec.after .photon Flavour.u = some Flavour.u)) (ha := by simp) (hb := by simp)]
  rw [compton_vv (f := .u) (x := .u) (g := .u) (h := (rfl : Spec.after .photon Flavour.u = some Flavour.u)) (h' := (rfl : Spec.after .photon Flavour.u = some Flavour.u)) (ha := by simp) (hb := by simp)]
  rw [annihilation_none c _ _ (by rfl) (by simp), star_zero, add_zero, AAuu.formPP]
  simp only [d0, d1, lineV_pv, lineV_four, contract_four_pv, contract_pv, mb_plus, mb_backward]
  have i0 := mb_schouten_right z0.2 (p 2) z0.1 z2.1 ρ1
  have i1 := mb_schouten_right z0.2 (p 2) z0.1 z3.1 ρ0
  have i2 := mb_schouten_right z0.2 (p 2) z0.1 z2.1 z3.1
  have i3 := ab_schouten z2.1 ρ0 ρ1 z0.1
  have i4 := ab_schouten z3.1 ρ0 ρ1 z2.1
  have i5 := ab_schouten z3.1 ρ0 ρ1 z0.1
  have i6 := sb_schouten z1.2 z2.2 z3.2 z0.2
  have i7 := mb_schouten_right z0.2 (p 2) z0.1 z2.1 ρ0
  have i8 := mb_schouten_right z1.2 (p 2) z0.1 z2.1 ρ0
  have i9 := mb_schouten_right z0.2 (p 2) z0.1 ρ0 ρ1
  have i10 := mb_schouten_right z0.2 (p 3) z0.1 z2.1 ρ0
  have i11 := mb_schouten_left z0.2 z1.2 z2.2 (p 2) z0.1
  have i12 := mb_schouten_right z0.2 (p 3) z0.1 z3.1 ρ1
  have i13 := mb_schouten_left z0.2 z1.2 z2.2 (p 2) ρ0
  have i14 := ab_schouten z2.1 z3.1 ρ0 z0.1
  have i15 := mb_schouten_right z0.2 (p 2) z0.1 z3.1 ρ1
  have i16 := mb_schouten_right z1.2 (p 2) z0.1 z1.1 ρ0
  have i17 := ab_schouten z1.1 z3.1 ρ1 z0.1
  have i18 := mb_schouten_right z0.2 (p 2) z2.1 ρ0 ρ1
  have i19 := mb_schouten_left z0.2 z1.2 z3.2 (p 2) z0.1
  have i20 := ab_schouten z1.1 z2.1 ρ1 z0.1
  have i21 := ab_schouten z1.1 ρ0 ρ1 z0.1
  have i22 := mb_schouten_right z0.2 (p 3) z0.1 z3.1 ρ0
  have i23 := mb_schouten_right z0.2 (p 2) z0.1 z1.1 z2.1
  have i24 := ab_schouten z2.1 ρ0 ρ1 z1.1
  have i25 := mb_schouten_right z0.2 (p 2) z0.1 z1.1 ρ0
  have i26 := mb_schouten_right z0.2 (p 2) z0.1 z1.1 ρ1
  have i27 := mb_schouten_right z1.2 (p 2) z0.1 z1.1 z3.1
  have i28 := mb_schouten_right z2.2 (p 3) z0.1 z3.1 ρ0
  have i29 := ab_schouten z1.1 z3.1 ρ0 z0.1
  have i30 := mb_schouten_right z0.2 (p 3) z0.1 z2.1 ρ1
  have i31 := mb_schouten_right z2.2 (p 3) z0.1 z3.1 ρ1
  have i32 := ab_schouten z3.1 ρ0 ρ1 z1.1
  have i33 := mb_schouten_left z0.2 z1.2 z2.2 (p 2) z1.1
  have i34 := mb_schouten_right z1.2 (p 2) z0.1 z3.1 ρ0
  simp only [l0.mb_eq, l1.mb_eq, b2.mb_left, b2.mb_right, b3.mb_left, b3.mb_right, e02, e03, e12, e13, mb_three hb z0.2 z1.1, mb_three hb z0.2 z2.1, mb_two hb z0.2 z3.1, mb_three hb z0.2 ρ0, mb_three hb z0.2 ρ1, mb_three hb z1.2 z0.1, mb_three hb z1.2 z2.1, mb_two hb z1.2 z3.1, mb_three hb z1.2 ρ0, mb_three hb z1.2 ρ1, mb_three hb z2.2 z0.1, mb_three hb z2.2 z1.1, mb_three hb z2.2 z2.1, mb_three hb z2.2 ρ0, mb_three hb z2.2 ρ1, mb_two hb z3.2 z0.1, mb_two hb z3.2 z1.1, mb_two hb z3.2 z3.1, mb_two hb z3.2 ρ0, mb_two hb z3.2 ρ1, ab_self, sb_self] at i0 i1 i2 i3 i4 i5 i6 i7 i8 i9 i10 i11 i12 i13 i14 i15 i16 i17 i18 i19 i20 i21 i22 i23 i24 i25 i26 i27 i28 i29 i30 i31 i32 i33 i34 ⊢
  simp only [ab_swap z0.1 z1.1, ab_swap z0.1 z2.1, ab_swap z0.1 z3.1, ab_swap z0.1 ρ0, ab_swap z0.1 ρ1, ab_swap z1.1 z2.1, ab_swap z1.1 z3.1, ab_swap z1.1 ρ0, ab_swap z1.1 ρ1, ab_swap z2.1 z3.1, ab_swap z2.1 ρ0, ab_swap z2.1 ρ1, ab_swap z3.1 ρ0, ab_swap z3.1 ρ1, ab_swap ρ0 ρ1, sb_swap z0.2 z1.2, sb_swap z0.2 z2.2, sb_swap z0.2 z3.2, sb_swap z1.2 z2.2, sb_swap z1.2 z3.2, sb_swap z2.2 z3.2] at i0 i1 i2 i3 i4 i5 i6 i7 i8 i9 i10 i11 i12 i13 i14 i15 i16 i17 i18 i19 i20 i21 i22 i23 i24 i25 i26 i27 i28 i29 i30 i31 i32 i33 i34 ⊢
  simp only [r0, r1, r2, Constants.hL, Constants.hR, Constants.gL, Constants.gR, Constants.yuk, Constants.invVev, Flavour.charge_u, Flavour.isospin_u, ← c.mz]
  have xMW : (c.MW : ℂ) ≠ 0 := by exact_mod_cast hc.MW
  have xSW : (c.SW : ℂ) ≠ 0 := by exact_mod_cast hc.SW
  have xCW : (c.CW : ℂ) ≠ 0 := by exact_mod_cast hc.CW
  have x2 : ((√2 : ℝ) : ℂ) ≠ 0 := by exact_mod_cast (Real.sqrt_pos.2 two_pos).ne'
  have x22 : ((√2 : ℝ) : ℂ) ^ 2 = 2 := by rw [← Complex.ofReal_pow, Real.sq_sqrt two_pos.le]; norm_num
  have x23 : ((√2 : ℝ) : ℂ) ^ 3 = 2 * ((√2 : ℝ) : ℂ) := by rw [← x22]; ring
  have x24 : ((√2 : ℝ) : ℂ) ^ 4 = 4 := by linear_combination (((√2 : ℝ) : ℂ) ^ 2 + 2) * x22
  push_cast at i0 i1 i2 i3 i4 i5 i6 i7 i8 i9 i10 i11 i12 i13 i14 i15 i16 i17 i18 i19 i20 i21 i22 i23 i24 i25 i26 i27 i28 i29 i30 i31 i32 i33 i34 ⊢
  have y0 := mul_inv_cancel₀ n0
  have y1 := mul_inv_cancel₀ n1
  linear_combination ((((-8) * ((c.e : ℂ)) ^ 2 * ((c.mass .u : ℂ)) * (ab z3.1 ρ0) * (sb z0.2 z1.2) + (-8) * ((c.e : ℂ)) ^ 2 * (mb z1.2 (p 2) ρ0) * (sb z0.2 z3.2)) * i0 + ((-8) * ((c.e : ℂ)) ^ 2 * ((c.mass .u : ℂ)) * (ab z2.1 ρ1) * (sb z0.2 z1.2) + (8) * ((c.e : ℂ)) ^ 2 * (ab z1.1 ρ1) * (sb z0.2 z1.2) * (sb z1.2 z2.2) + (-16) * ((c.e : ℂ)) ^ 2 * (mb z0.2 (p 2) ρ1) * (sb z1.2 z2.2)) * i1 + ((-8) * ((c.e : ℂ)) ^ 2 * ((c.mass .u : ℂ)) * (ab ρ0 ρ1) * (sb z0.2 z1.2)) * i2 + ((8) * ((c.e : ℂ)) ^ 2 * ((c.mass .u : ℂ)) * (ab z1.1 z3.1) * (sb z0.2 z1.2) ^ 2 + (8) * ((c.e : ℂ)) ^ 2 * ((c.mass .u : ℂ)) ^ 2 * (sb z0.2 z1.2) * (sb z0.2 z3.2) + (-8) * ((c.e : ℂ)) ^ 2 * (mb z0.2 (p 2) z1.1) * (sb z0.2 z1.2) * (sb z1.2 z3.2)) * i3 + ((-8) * ((c.e : ℂ)) ^ 2 * ((c.mass .u : ℂ)) * (N.c 0) * (sb z0.2 z1.2)) * i4 + ((8) * ((c.e : ℂ)) ^ 2 * ((c.mass .u : ℂ)) ^ 2 * (sb z0.2 z1.2) * (sb z0.2 z2.2) + (8) * ((c.e : ℂ)) ^ 2 * (N.c 1) * (sb z0.2 z1.2) * (sb z0.2 z2.2)) * i5 + ((8) * ((c.e : ℂ)) ^ 2 * ((c.mass .u : ℂ)) * (N.c 0) * (ab ρ0 ρ1) + (8) * ((c.e : ℂ)) ^ 2 * ((c.mass .u : ℂ)) * (ab z0.1 ρ0) * (ab z1.1 ρ1) * (sb z0.2 z1.2) + (-24) * ((c.e : ℂ)) ^ 2 * ((c.mass .u : ℂ)) * (ab z0.1 ρ0) * (mb z0.2 (p 2) ρ1) + (16) * ((c.e : ℂ)) ^ 2 * ((c.mass .u : ℂ)) * (ab z0.1 ρ1) * (mb z0.2 (p 2) ρ0)) * i6 + ((16) * ((c.e : ℂ)) ^ 2 * ((c.mass .u : ℂ)) * (ab z3.1 ρ1) * (sb z0.2 z1.2) + (-8) * ((c.e : ℂ)) ^ 2 * (mb z0.2 (p 2) ρ1) * (sb z1.2 z3.2)) * i7 + ((8) * ((c.e : ℂ)) ^ 2 * (mb z0.2 (p 2) ρ1) * (sb z0.2 z3.2)) * i8 + ((8) * ((c.e : ℂ)) ^ 2 * ((c.mass .u : ℂ)) * (sb z0.2 z1.2) * (sb z2.2 z3.2) + (-8) * ((c.e : ℂ)) ^ 2 * ((c.mass .u : ℂ)) * (sb z0.2 z2.2) * (sb z1.2 z3.2)) * i9 + ((8) * ((c.e : ℂ)) ^ 2 * ((c.mass .u : ℂ)) * (ab z3.1 ρ1) * (sb z0.2 z1.2)) * i10 + ((8) * ((c.e : ℂ)) ^ 2 * (ab z1.1 ρ0) * (ab z3.1 ρ1) * (sb z0.2 z1.2) + (8) * ((c.e : ℂ)) ^ 2 * (ab z3.1 ρ0) * (mb z0.2 (p 2) ρ1)) * i11 + ((-8) * ((c.e : ℂ)) ^ 2 * (ab z0.1 ρ0) * (sb z0.2 z1.2) * (sb z0.2 z2.2) + (-8) * ((c.e : ℂ)) ^ 2 * (mb z1.2 (p 2) ρ0) * (sb z0.2 z2.2)) * i12 + ((16) * ((c.e : ℂ)) ^ 2 * (N.c 0) * (ab z3.1 ρ1)) * i13 + ((8) * ((c.e : ℂ)) ^ 2 * ((c.mass .u : ℂ)) * (ab z1.1 ρ1) * (sb z0.2 z1.2) ^ 2) * i14 + ((8) * ((c.e : ℂ)) ^ 2 * ((c.mass .u : ℂ)) * (ab z2.1 ρ0) * (sb z0.2 z1.2) + (16) * ((c.e : ℂ)) ^ 2 * (mb z0.2 (p 2) ρ0) * (sb z1.2 z2.2) + (-16) * ((c.e : ℂ)) ^ 2 * (mb z1.2 (p 2) ρ0) * (sb z0.2 z2.2)) * i15 + ((16) * ((c.e : ℂ)) ^ 2 * (ab z3.1 ρ1) * (sb z0.2 z1.2) * (sb z0.2 z2.2)) * i16 + ((16) * ((c.e : ℂ)) ^ 2 * (mb z0.2 (p 2) ρ0) * (sb z0.2 z1.2) * (sb z1.2 z2.2) + (-16) * ((c.e : ℂ)) ^ 2 * (mb z1.2 (p 2) ρ0) * (sb z0.2 z1.2) * (sb z0.2 z2.2)) * i17 + ((8) * ((c.e : ℂ)) ^ 2 * (N.c 1) * (sb z1.2 z3.2)) * i18 + ((8) * ((c.e : ℂ)) ^ 2 * (ab z2.1 ρ0) * (mb z0.2 (p 2) ρ1)) * i19 + ((-8) * ((c.e : ℂ)) ^ 2 * (mb z0.2 (p 2) ρ0) * (sb z0.2 z1.2) * (sb z1.2 z3.2)) * i20 + ((-8) * ((c.e : ℂ)) ^ 2 * (ab z0.1 z3.1) * (sb z0.2 z1.2) ^ 2 * (sb z0.2 z2.2)) * i21 + ((8) * ((c.e : ℂ)) ^ 2 * (ab z0.1 ρ1) * (sb z0.2 z1.2) * (sb z0.2 z2.2)) * i22 + ((-8) * ((c.e : ℂ)) ^ 2 * (ab ρ0 ρ1) * (sb z0.2 z1.2) * (sb z1.2 z3.2)) * i23 + ((-8) * ((c.e : ℂ)) ^ 2 * (N.c 0) * (sb z0.2 z1.2) * (sb z1.2 z3.2)) * i24 + ((8) * ((c.e : ℂ)) ^ 2 * (ab z2.1 ρ1) * (sb z0.2 z1.2) * (sb z1.2 z3.2) + (-8) * ((c.e : ℂ)) ^ 2 * (ab z3.1 ρ1) * (sb z0.2 z1.2) * (sb z1.2 z2.2)) * i25 + ((-8) * ((c.e : ℂ)) ^ 2 * (ab z2.1 ρ0) * (sb z0.2 z1.2) * (sb z1.2 z3.2)) * i26 + ((-8) * ((c.e : ℂ)) ^ 2 * (ab ρ0 ρ1) * (sb z0.2 z1.2) * (sb z0.2 z2.2)) * i27 + ((-8) * ((c.e : ℂ)) ^ 2 * (ab z1.1 ρ1) * (sb z0.2 z1.2) ^ 2 + (16) * ((c.e : ℂ)) ^ 2 * (mb z0.2 (p 2) ρ1) * (sb z0.2 z1.2)) * i28 + ((8) * ((c.e : ℂ)) ^ 2 * (ab z1.1 ρ1) * (sb z0.2 z1.2) ^ 2 * (sb z1.2 z2.2) + (-16) * ((c.e : ℂ)) ^ 2 * (mb z0.2 (p 2) ρ1) * (sb z0.2 z1.2) * (sb z1.2 z2.2)) * i29 + ((-8) * ((c.e : ℂ)) ^ 2 * (mb z0.2 (p 2) ρ0) * (sb z1.2 z3.2)) * i30 + ((-8) * ((c.e : ℂ)) ^ 2 * (mb z0.2 (p 2) ρ0) * (sb z0.2 z1.2)) * i31 + ((8) * ((c.e : ℂ)) ^ 2 * (mb z1.2 (p 2) z0.1) * (sb z0.2 z1.2) * (sb z0.2 z2.2)) * i32 + ((-8) * ((c.e : ℂ)) ^ 2 * (ab z0.1 ρ0) * (ab z3.1 ρ1) * (sb z0.2 z1.2)) * i33 + ((-8) * ((c.e : ℂ)) ^ 2 * (ab z1.1 ρ1) * (sb z0.2 z1.2) * (sb z0.2 z2.2) + (8) * ((c.e : ℂ)) ^ 2 * (mb z0.2 (p 2) ρ1) * (sb z0.2 z2.2)) * i34)) * ((1) * ((N.c 0)⁻¹) * ((N.c 1)⁻¹) / (9)) + ((-8) * ((c.e : ℂ)) ^ 2 * ((c.mass .u : ℂ)) * ((N.c 1)⁻¹) * (ab z2.1 ρ1) * (ab z3.1 ρ0) * (sb z0.2 z1.2) / (9) + (-8) * ((c.e : ℂ)) ^ 2 * ((c.mass .u : ℂ)) * ((N.c 1)⁻¹) * (ab ρ0 ρ1) * (sb z0.2 z3.2) * (sb z1.2 z2.2) / (9) + (8) * ((c.e : ℂ)) ^ 2 * ((N.c 1)⁻¹) * (ab z1.1 ρ1) * (ab z3.1 ρ0) * (sb z0.2 z1.2) * (sb z1.2 z2.2) / (9) + (-8) * ((c.e : ℂ)) ^ 2 * ((N.c 1)⁻¹) * (ab z2.1 ρ1) * (mb z1.2 (p 2) ρ0) * (sb z0.2 z3.2) / (9) + (-8) * ((c.e : ℂ)) ^ 2 * ((N.c 1)⁻¹) * (ab z3.1 ρ0) * (mb z0.2 (p 2) ρ1) * (sb z1.2 z2.2) / (9)) * y0 + ((8) * ((c.e : ℂ)) ^ 2 * ((c.mass .u : ℂ)) * ((N.c 0)⁻¹) * (ab z2.1 ρ0) * (ab z3.1 ρ1) * (sb z0.2 z1.2) / (9) + (8) * ((c.e : ℂ)) ^ 2 * ((c.mass .u : ℂ)) * ((N.c 0)⁻¹) * (ab ρ0 ρ1) * (sb z0.2 z2.2) * (sb z1.2 z3.2) / (9) + (-8) * ((c.e : ℂ)) ^ 2 * ((N.c 0)⁻¹) * (ab z0.1 ρ0) * (ab z3.1 ρ1) * (sb z0.2 z1.2) * (sb z0.2 z2.2) / (9) + (-8) * ((c.e : ℂ)) ^ 2 * ((N.c 0)⁻¹) * (ab z2.1 ρ0) * (mb z0.2 (p 2) ρ1) * (sb z1.2 z3.2) / (9) + (-8) * ((c.e : ℂ)) ^ 2 * ((N.c 0)⁻¹) * (ab z3.1 ρ1) * (mb z1.2 (p 2) ρ0) * (sb z0.2 z2.2) / (9)) * y1 + ((-4) * ((c.e : ℂ)) ^ 2 * ((c.mass .u : ℂ)) * ((N.c 0)⁻¹) * (ab z2.1 ρ0) * (ab z3.1 ρ1) * (sb z0.2 z1.2) / (9) + (-4) * ((c.e : ℂ)) ^ 2 * ((c.mass .u : ℂ)) * ((N.c 0)⁻¹) * (ab ρ0 ρ1) * (sb z0.2 z2.2) * (sb z1.2 z3.2) / (9) + (4) * ((c.e : ℂ)) ^ 2 * ((c.mass .u : ℂ)) * ((N.c 1)⁻¹) * (ab z2.1 ρ1) * (ab z3.1 ρ0) * (sb z0.2 z1.2) / (9) + (4) * ((c.e : ℂ)) ^ 2 * ((c.mass .u : ℂ)) * ((N.c 1)⁻¹) * (ab ρ0 ρ1) * (sb z0.2 z3.2) * (sb z1.2 z2.2) / (9) + (4) * ((c.e : ℂ)) ^ 2 * ((N.c 0)⁻¹) * (ab z0.1 ρ0) * (ab z3.1 ρ1) * (sb z0.2 z1.2) * (sb z0.2 z2.2) / (9) + (4) * ((c.e : ℂ)) ^ 2 * ((N.c 0)⁻¹) * (ab z2.1 ρ0) * (mb z0.2 (p 2) ρ1) * (sb z1.2 z3.2) / (9) + (4) * ((c.e : ℂ)) ^ 2 * ((N.c 0)⁻¹) * (ab z3.1 ρ1) * (mb z1.2 (p 2) ρ0) * (sb z0.2 z2.2) / (9) + (-4) * ((c.e : ℂ)) ^ 2 * ((N.c 1)⁻¹) * (ab z1.1 ρ1) * (ab z3.1 ρ0) * (sb z0.2 z1.2) * (sb z1.2 z2.2) / (9) + (4) * ((c.e : ℂ)) ^ 2 * ((N.c 1)⁻¹) * (ab z2.1 ρ1) * (mb z1.2 (p 2) ρ0) * (sb z0.2 z3.2) / (9) + (4) * ((c.e : ℂ)) ^ 2 * ((N.c 1)⁻¹) * (ab z3.1 ρ0) * (mb z0.2 (p 2) ρ1) * (sb z1.2 z2.2) / (9)) * x22
theorem AAuu.keyPM {c : Constants} {p : Nat → V4 ℝ} {N : Env} (hc : c.Physical) (hb : Balanced p) (r0 : N.r 0 = c.e) (r1 : N.r 1 = (((2 : Nat) : ℝ) / ((3 : Nat) : ℝ))) (d0 : ((msq (plus (backward (p 3)) (p 1)) - c.mass .u ^ 2 : ℝ) : ℂ) = N.c 0) (n0 : N.c 0 ≠ 0) (d1 : ((msq (plus (backward (p 3)) (p 0)) - c.mass .u ^ 2 : ℝ) : ℂ) = N.c 1) (n1 : N.c 1 ≠ 0) {z0 z1 z2 z3 : Pair} (b2 : Bold (p 2) (c.mass .u) z2) (b3 : Bold (p 3) (c.mass .u) z3) (l0 : Light (p 0) z0) (l1 : Light (p 1) z1) (e02 : mb z0.2 (p 2) z0.1 = -N.c 0) (e03 : mb z0.2 (p 3) z0.1 = -N.c 1) (e12 : mb z1.2 (p 2) z1.1 = -N.c 1) (e13 : mb z1.2 (p 3) z1.1 = -N.c 0) (q2 : msq (p 2) = (c.mass .u) ^ 2) (q3 : msq (p 3) = (c.mass .u) ^ 2) (ρ0 ρ1 : V2) :
    AAuu.formPM N p z0 z1 z2 z3 * ab ρ0 z0.1 * sb ρ1 z1.2 = ((√2 : ℝ) * ((√2 : ℝ) * (1 : ℂ))) * AAuu.react.bare c p 2 3 0 1 z2 z3 (pv ρ0 z0.2) (pv z1.1 ρ1) := by
  rw [AAuu.react.bare_parts c p (i := 2) (j := 3) (a := 0) (b := 1) (x := .photon) (y := .photon) (k := (p 0)) (k' := (p 1)) (fun _ => rfl) (fun _ => rfl) (f := .u) (g := .u) rfl rfl (l := (backward (p 3))) rfl (e := 1) (e' := -1) (if_neg Bool.false_ne_true) (if_pos rfl)]
  rw [compton_vv (f := .u) (x := .u) (g := .u) (h := (rfl : Spec.after .photon Flavour.u = some Flavour.u)) (h' := (rfl : Spec.after .photon Flavour.u = some Flavour.u)) (ha := by simp) (hb := by simp)]
  rw [compton_vv (f := .u) (x := .u) (g := .u) (h := (rfl : Spec.after .photon Flavour.u = some Flavour.u)) (h' := (rfl : Spec.after .photon Flavour.u = some Flavour.u)) (ha := by simp) (hb := by simp)]
  rw [annihilation_none c _ _ (by rfl) (by simp), star_zero, add_zero, AAuu.formPM]
  simp only [d0, d1, lineV_pv, lineV_four, contract_four_pv, contract_pv, mb_plus, mb_backward]
  have i0 := mb_schouten_right z0.2 (p 3) z0.1 z1.1 z2.1
  have i1 := mb_schouten_right z0.2 (p 2) z1.1 z2.1 ρ0
  have i2 := mb_schouten_left z0.2 z3.2 ρ1 (p 2) z0.1
  have i3 := mb_schouten_right z0.2 (p 2) z0.1 z1.1 z2.1
  have i4 := mb_schouten_right z2.2 (p 3) z0.1 z1.1 z3.1
  have i5 := sb_schouten z2.2 z3.2 ρ1 z0.2
  have i6 := sb_schouten z1.2 z2.2 ρ1 z0.2
  have i7 := ab_schouten z1.1 z3.1 ρ0 z0.1
  have i8 := sb_schouten z1.2 z3.2 ρ1 z0.2
  have i9 := mb_schouten_right z2.2 (p 3) z0.1 z3.1 ρ0
  have i10 := mb_schouten_right z1.2 (p 2) z0.1 z1.1 z3.1
  have i11 := sb_schouten z1.2 z2.2 z3.2 z0.2
  have i12 := mb_schouten_right z0.2 (p 2) z0.1 z1.1 z3.1
  have i13 := mb_schouten_left z0.2 z2.2 ρ1 (p 2) z1.1
  have i14 := mb_schouten_left z0.2 z1.2 ρ1 (p 2) z1.1
  have i15 := mb_schouten_right z0.2 (p 2) z0.1 z3.1 ρ0
  have i16 := mb_schouten_left z0.2 z1.2 ρ1 (p 2) z0.1
  have i17 := mb_schouten_right ρ1 (p 2) z0.1 z1.1 z3.1
  have i18 := mb_schouten_right ρ1 (p 2) z0.1 z1.1 ρ0
  have i19 := mb_schouten_right ρ1 (p 2) z0.1 z2.1 ρ0
  have i20 := mb_schouten_left z0.2 z2.2 ρ1 (p 2) z0.1
  have i21 := ab_schouten z2.1 z3.1 ρ0 z1.1
  have i22 := ab_schouten z2.1 z3.1 ρ0 z0.1
  have i23 := mb_schouten_right z0.2 (p 2) z0.1 z1.1 ρ0
  have i24 := ab_schouten z1.1 z2.1 z3.1 z0.1
  have i25 := ab_schouten z1.1 z2.1 ρ0 z0.1
  have i26 := mb_schouten_right z0.2 (p 3) z0.1 z1.1 z3.1
  have i27 := mb_schouten_right ρ1 (p 2) z0.1 z3.1 ρ0
  have i28 := mb_schouten_right z0.2 (p 2) z1.1 z3.1 ρ0
  have i29 := mb_schouten_left z0.2 z1.2 z2.2 (p 2) z1.1
  simp only [l0.mb_eq, l1.mb_eq, b2.mb_left, b2.mb_right, b3.mb_left, b3.mb_right, e02, e03, e12, e13, mb_three hb z0.2 z1.1, mb_three hb z0.2 z2.1, mb_two hb z0.2 z3.1, mb_three hb z0.2 ρ0, mb_three hb z1.2 z0.1, mb_three hb z1.2 z2.1, mb_two hb z1.2 z3.1, mb_three hb z1.2 ρ0, mb_three hb z2.2 z0.1, mb_three hb z2.2 z1.1, mb_three hb z2.2 z2.1, mb_three hb z2.2 ρ0, mb_two hb z3.2 z0.1, mb_two hb z3.2 z1.1, mb_two hb z3.2 z3.1, mb_two hb z3.2 ρ0, mb_three hb ρ1 z0.1, mb_three hb ρ1 z1.1, mb_three hb ρ1 z2.1, mb_two hb ρ1 z3.1, mb_three hb ρ1 ρ0, ab_self, sb_self] at i0 i1 i2 i3 i4 i5 i6 i7 i8 i9 i10 i11 i12 i13 i14 i15 i16 i17 i18 i19 i20 i21 i22 i23 i24 i25 i26 i27 i28 i29 ⊢
  simp only [ab_swap z0.1 z1.1, ab_swap z0.1 z2.1, ab_swap z0.1 z3.1, ab_swap z0.1 ρ0, ab_swap z1.1 z2.1, ab_swap z1.1 z3.1, ab_swap z1.1 ρ0, ab_swap z2.1 z3.1, ab_swap z2.1 ρ0, ab_swap z3.1 ρ0, sb_swap z0.2 z1.2, sb_swap z0.2 z2.2, sb_swap z0.2 z3.2, sb_swap z0.2 ρ1, sb_swap z1.2 z2.2, sb_swap z1.2 z3.2, sb_swap z1.2 ρ1, sb_swap z2.2 z3.2, sb_swap z2.2 ρ1, sb_swap z3.2 ρ1] at i0 i1 i2 i3 i4 i5 i6 i7 i8 i9 i10 i11 i12 i13 i14 i15 i16 i17 i18 i19 i20 i21 i22 i23 i24 i25 i26 i27 i28 i29 ⊢
  simp only [r0, r1, Constants.hL, Constants.hR, Constants.gL, Constants.gR, Constants.yuk, Constants.invVev, Flavour.charge_u, Flavour.isospin_u, ← c.mz]
  have xMW : (c.MW : ℂ) ≠ 0 := by exact_mod_cast hc.MW
  have xSW : (c.SW : ℂ) ≠ 0 := by exact_mod_cast hc.SW
  have xCW : (c.CW : ℂ) ≠ 0 := by exact_mod_cast hc.CW
  have x2 : ((√2 : ℝ) : ℂ) ≠ 0 := by exact_mod_cast (Real.sqrt_pos.2 two_pos).ne'
  have x22 : ((√2 : ℝ) : ℂ) ^ 2 = 2 := by rw [← Complex.ofReal_pow, Real.sq_sqrt two_pos.le]; norm_num
  have x23 : ((√2 : ℝ) : ℂ) ^ 3 = 2 * ((√2 : ℝ) : ℂ) := by rw [← x22]; ring
  have x24 : ((√2 : ℝ) : ℂ) ^ 4 = 4 := by linear_combination (((√2 : ℝ) : ℂ) ^ 2 + 2) * x22
  push_cast at i0 i1 i2 i3 i4 i5 i6 i7 i8 i9 i10 i11 i12 i13 i14 i15 i16 i17 i18 i19 i20 i21 i22 i23 i24 i25 i26 i27 i28 i29 ⊢
  have y0 := mul_inv_cancel₀ n0
  have y1 := mul_inv_cancel₀ n1
  linear_combination ((((-8) * ((c.e : ℂ)) ^ 2 * (mb z0.2 (p 2) ρ0) * (sb z3.2 ρ1)) * i0 + ((-8) * ((c.e : ℂ)) ^ 2 * (N.c 1) * (sb z3.2 ρ1) + (-8) * ((c.e : ℂ)) ^ 2 * (mb ρ1 (p 2) z0.1) * (sb z0.2 z3.2)) * i1 + ((8) * ((c.e : ℂ)) ^ 2 * (ab z1.1 z2.1) * (mb z0.2 (p 2) ρ0)) * i2 + ((-8) * ((c.e : ℂ)) ^ 2 * (mb z0.2 (p 2) ρ0) * (sb z3.2 ρ1) + (8) * ((c.e : ℂ)) ^ 2 * (mb ρ1 (p 2) ρ0) * (sb z0.2 z3.2)) * i3 + ((8) * ((c.e : ℂ)) ^ 2 * (ab z1.1 ρ0) * (sb z0.2 z1.2) * (sb z0.2 ρ1) + (-16) * ((c.e : ℂ)) ^ 2 * (mb z0.2 (p 2) ρ0) * (sb z0.2 ρ1)) * i4 + ((-16) * ((c.e : ℂ)) ^ 2 * ((c.mass .u : ℂ)) * (ab z0.1 z1.1) * (mb z0.2 (p 2) ρ0) + (8) * ((c.e : ℂ)) ^ 2 * ((c.mass .u : ℂ)) * (ab z0.1 ρ0) * (mb z0.2 (p 2) z1.1)) * i5 + ((-8) * ((c.e : ℂ)) ^ 2 * ((c.mass .u : ℂ)) * (ab z0.1 z1.1) * (ab z1.1 ρ0) * (sb z0.2 z3.2) + (-8) * ((c.e : ℂ)) ^ 2 * (ab z0.1 z1.1) * (ab z1.1 z3.1) * (ab z1.1 ρ0) * (sb z0.2 z1.2) + (16) * ((c.e : ℂ)) ^ 2 * (ab z0.1 z1.1) * (ab z1.1 z3.1) * (mb z0.2 (p 2) ρ0) + (16) * ((c.e : ℂ)) ^ 2 * (ab z0.1 z1.1) * (ab z3.1 ρ0) * (mb z0.2 (p 2) z1.1) + (-8) * ((c.e : ℂ)) ^ 2 * (ab z0.1 z3.1) * (ab z1.1 ρ0) * (mb z0.2 (p 2) z1.1)) * i6 + ((-8) * ((c.e : ℂ)) ^ 2 * ((c.mass .u : ℂ)) * (ab z1.1 z2.1) * (sb z0.2 z1.2) * (sb z0.2 ρ1) + (-8) * ((c.e : ℂ)) ^ 2 * (N.c 1) * (sb z0.2 z2.2) * (sb z0.2 ρ1) + (-16) * ((c.e : ℂ)) ^ 2 * (mb z0.2 (p 2) z1.1) * (sb z0.2 z1.2) * (sb z2.2 ρ1) + (-16) * ((c.e : ℂ)) ^ 2 * (mb ρ1 (p 2) z1.1) * (sb z0.2 z1.2) * (sb z0.2 z2.2)) * i7 + ((16) * ((c.e : ℂ)) ^ 2 * ((c.mass .u : ℂ)) * (ab z0.1 z1.1) * (ab z1.1 ρ0) * (sb z0.2 z2.2) + (8) * ((c.e : ℂ)) ^ 2 * (ab z0.1 z1.1) * (ab z1.1 z2.1) * (mb z0.2 (p 2) ρ0)) * i8 + ((-8) * ((c.e : ℂ)) ^ 2 * (mb z0.2 (p 2) z1.1) * (sb z0.2 ρ1)) * i9 + ((-8) * ((c.e : ℂ)) ^ 2 * (ab z1.1 ρ0) * (sb z0.2 z2.2) * (sb z0.2 ρ1)) * i10 + ((8) * ((c.e : ℂ)) ^ 2 * ((c.mass .u : ℂ)) * (ab z0.1 z1.1) * (ab z1.1 ρ0) * (sb z0.2 ρ1)) * i11 + ((-8) * ((c.e : ℂ)) ^ 2 * ((c.mass .u : ℂ)) * (ab z2.1 ρ0) * (sb z0.2 ρ1) + (8) * ((c.e : ℂ)) ^ 2 * (ab z1.1 ρ0) * (sb z0.2 z1.2) * (sb z2.2 ρ1) + (8) * ((c.e : ℂ)) ^ 2 * (ab z1.1 ρ0) * (sb z0.2 z2.2) * (sb z1.2 ρ1) + (-8) * ((c.e : ℂ)) ^ 2 * (mb z0.2 (p 2) ρ0) * (sb z2.2 ρ1)) * i12 + ((-16) * ((c.e : ℂ)) ^ 2 * (N.c 0) * (ab z3.1 ρ0)) * i13 + ((16) * ((c.e : ℂ)) ^ 2 * (ab z0.1 z1.1) * (ab z3.1 ρ0) * (sb z0.2 z2.2)) * i14 + ((-8) * ((c.e : ℂ)) ^ 2 * (mb z0.2 (p 2) z1.1) * (sb z2.2 ρ1) + (-16) * ((c.e : ℂ)) ^ 2 * (mb ρ1 (p 2) z1.1) * (sb z0.2 z2.2)) * i15 + ((-8) * ((c.e : ℂ)) ^ 2 * (ab z1.1 z3.1) * (ab z1.1 ρ0) * (sb z0.2 z2.2)) * i16 + ((16) * ((c.e : ℂ)) ^ 2 * (ab z1.1 ρ0) * (sb z0.2 z1.2) * (sb z0.2 z2.2) + (-16) * ((c.e : ℂ)) ^ 2 * (mb z0.2 (p 2) ρ0) * (sb z0.2 z2.2)) * i17 + ((16) * ((c.e : ℂ)) ^ 2 * ((c.mass .u : ℂ)) * (sb z0.2 z2.2) * (sb z0.2 z3.2)) * i18 + ((8) * ((c.e : ℂ)) ^ 2 * (mb z0.2 (p 2) z1.1) * (sb z0.2 z3.2)) * i19 + ((8) * ((c.e : ℂ)) ^ 2 * (ab z1.1 z3.1) * (mb z0.2 (p 2) ρ0)) * i20 + ((8) * ((c.e : ℂ)) ^ 2 * ((c.mass .u : ℂ)) * (N.c 0) * (sb z0.2 ρ1)) * i21 + ((8) * ((c.e : ℂ)) ^ 2 * ((c.mass .u : ℂ)) * (mb z0.2 (p 2) z1.1) * (sb z0.2 ρ1)) * i22 + ((8) * ((c.e : ℂ)) ^ 2 * ((c.mass .u : ℂ)) * (ab z2.1 z3.1) * (sb z0.2 ρ1) + (-8) * ((c.e : ℂ)) ^ 2 * ((c.mass .u : ℂ)) * (sb z0.2 z3.2) * (sb z2.2 ρ1) + (8) * ((c.e : ℂ)) ^ 2 * (ab z1.1 z2.1) * (sb z0.2 z3.2) * (sb z1.2 ρ1) + (-8) * ((c.e : ℂ)) ^ 2 * (ab z1.1 z3.1) * (sb z0.2 z1.2) * (sb z2.2 ρ1)) * i23 + ((-8) * ((c.e : ℂ)) ^ 2 * ((c.mass .u : ℂ)) * (mb z0.2 (p 2) ρ0) * (sb z0.2 ρ1)) * i24 + ((8) * ((c.e : ℂ)) ^ 2 * ((c.mass .u : ℂ)) * (ab z1.1 z3.1) * (sb z0.2 z1.2) * (sb z0.2 ρ1)) * i25 + ((-8) * ((c.e : ℂ)) ^ 2 * ((c.mass .u : ℂ)) * (ab z2.1 ρ0) * (sb z0.2 ρ1) + (8) * ((c.e : ℂ)) ^ 2 * (mb ρ1 (p 2) ρ0) * (sb z0.2 z2.2)) * i26 + ((-8) * ((c.e : ℂ)) ^ 2 * (mb z0.2 (p 2) z1.1) * (sb z0.2 z2.2)) * i27 + ((8) * ((c.e : ℂ)) ^ 2 * (mb ρ1 (p 2) z0.1) * (sb z0.2 z2.2)) * i28 + ((-8) * ((c.e : ℂ)) ^ 2 * (ab z0.1 z1.1) * (ab z3.1 ρ0) * (sb z0.2 ρ1)) * i29)) * ((1) * ((N.c 0)⁻¹) * ((N.c 1)⁻¹) / (9)) + ((8) * ((c.e : ℂ)) ^ 2 * ((c.mass .u : ℂ)) * ((N.c 1)⁻¹) * (ab z1.1 z2.1) * (ab z3.1 ρ0) * (sb z0.2 ρ1) / (9) + (-8) * ((c.e : ℂ)) ^ 2 * ((c.mass .u : ℂ)) * ((N.c 1)⁻¹) * (ab z1.1 ρ0) * (sb z0.2 z3.2) * (sb z2.2 ρ1) / (9) + (8) * ((c.e : ℂ)) ^ 2 * ((N.c 1)⁻¹) * (ab z1.1 z2.1) * (ab z1.1 ρ0) * (sb z0.2 z3.2) * (sb z1.2 ρ1) / (9) + (8) * ((c.e : ℂ)) ^ 2 * ((N.c 1)⁻¹) * (ab z1.1 z2.1) * (mb ρ1 (p 2) ρ0) * (sb z0.2 z3.2) / (9) + (8) * ((c.e : ℂ)) ^ 2 * ((N.c 1)⁻¹) * (ab z3.1 ρ0) * (mb z0.2 (p 2) z1.1) * (sb z2.2 ρ1) / (9)) * y0 + ((-8) * ((c.e : ℂ)) ^ 2 * ((c.mass .u : ℂ)) * ((N.c 0)⁻¹) * (ab z1.1 z3.1) * (ab z2.1 ρ0) * (sb z0.2 ρ1) / (9) + (8) * ((c.e : ℂ)) ^ 2 * ((c.mass .u : ℂ)) * ((N.c 0)⁻¹) * (ab z1.1 ρ0) * (sb z0.2 z2.2) * (sb z3.2 ρ1) / (9) + (8) * ((c.e : ℂ)) ^ 2 * ((N.c 0)⁻¹) * (ab z0.1 ρ0) * (ab z1.1 z3.1) * (sb z0.2 z2.2) * (sb z0.2 ρ1) / (9) + (8) * ((c.e : ℂ)) ^ 2 * ((N.c 0)⁻¹) * (ab z1.1 z3.1) * (mb ρ1 (p 2) ρ0) * (sb z0.2 z2.2) / (9) + (8) * ((c.e : ℂ)) ^ 2 * ((N.c 0)⁻¹) * (ab z2.1 ρ0) * (mb z0.2 (p 2) z1.1) * (sb z3.2 ρ1) / (9)) * y1 + ((4) * ((c.e : ℂ)) ^ 2 * ((c.mass .u : ℂ)) * ((N.c 0)⁻¹) * (ab z1.1 z3.1) * (ab z2.1 ρ0) * (sb z0.2 ρ1) / (9) + (-4) * ((c.e : ℂ)) ^ 2 * ((c.mass .u : ℂ)) * ((N.c 0)⁻¹) * (ab z1.1 ρ0) * (sb z0.2 z2.2) * (sb z3.2 ρ1) / (9) + (-4) * ((c.e : ℂ)) ^ 2 * ((c.mass .u : ℂ)) * ((N.c 1)⁻¹) * (ab z1.1 z2.1) * (ab z3.1 ρ0) * (sb z0.2 ρ1) / (9) + (4) * ((c.e : ℂ)) ^ 2 * ((c.mass .u : ℂ)) * ((N.c 1)⁻¹) * (ab z1.1 ρ0) * (sb z0.2 z3.2) * (sb z2.2 ρ1) / (9) + (-4) * ((c.e : ℂ)) ^ 2 * ((N.c 0)⁻¹) * (ab z0.1 ρ0) * (ab z1.1 z3.1) * (sb z0.2 z2.2) * (sb z0.2 ρ1) / (9) + (-4) * ((c.e : ℂ)) ^ 2 * ((N.c 0)⁻¹) * (ab z1.1 z3.1) * (mb ρ1 (p 2) ρ0) * (sb z0.2 z2.2) / (9) + (-4) * ((c.e : ℂ)) ^ 2 * ((N.c 0)⁻¹) * (ab z2.1 ρ0) * (mb z0.2 (p 2) z1.1) * (sb z3.2 ρ1) / (9) + (-4) * ((c.e : ℂ)) ^ 2 * ((N.c 1)⁻¹) * (ab z1.1 z2.1) * (ab z1.1 ρ0) * (sb z0.2 z3.2) * (sb z1.2 ρ1) / (9) + (-4) * ((c.e : ℂ)) ^ 2 * ((N.c 1)⁻¹) * (ab z1.1 z2.1) * (mb ρ1 (p 2) ρ0) * (sb z0.2 z3.2) / (9) + (-4) * ((c.e : ℂ)) ^ 2 * ((N.c 1)⁻¹) * (ab z3.1 ρ0) * (mb z0.2 (p 2) z1.1) * (sb z2.2 ρ1) / (9)) * x22
theorem AAuu.keyMP {c : Constants} {p : Nat → V4 ℝ} {N : Env} (hc : c.Physical) (hb : Balanced p) (r0 : N.r 0 = c.e) (r1 : N.r 1 = (((2 : Nat) : ℝ) / ((3 : Nat) : ℝ))) (d0 : ((msq (plus (backward (p 3)) (p 1)) - c.mass .u ^ 2 : ℝ) : ℂ) = N.c 0) (n0 : N.c 0 ≠ 0) (d1 : ((msq (plus (backward (p 3)) (p 0)) - c.mass .u ^ 2 : ℝ) : ℂ) = N.c 1) (n1 : N.c 1 ≠ 0) {z0 z1 z2 z3 : Pair} (b2 : Bold (p 2) (c.mass .u) z2) (b3 : Bold (p 3) (c.mass .u) z3) (l0 : Light (p 0) z0) (l1 : Light (p 1) z1) (e02 : mb z0.2 (p 2) z0.1 = -N.c 0) (e03 : mb z0.2 (p 3) z0.1 = -N.c 1) (e12 : mb z1.2 (p 2) z1.1 = -N.c 1) (e13 : mb z1.2 (p 3) z1.1 = -N.c 0) (q2 : msq (p 2) = (c.mass .u) ^ 2) (q3 : msq (p 3) = (c.mass .u) ^ 2) (ρ0 ρ1 : V2) :
    AAuu.formMP N p z0 z1 z2 z3 * sb ρ0 z0.2 * ab ρ1 z1.1 = ((√2 : ℝ) * ((√2 : ℝ) * (1 : ℂ))) * AAuu.react.bare c p 2 3 0 1 z2 z3 (pv z0.1 ρ0) (pv ρ1 z1.2) := by
  rw [AAuu.react.bare_parts c p (i := 2) (j := 3) (a := 0) (b := 1) (x := .photon) (y := .photon) (k := (p 0)) (k' := (p 1)) (fun _ => rfl) (fun _ => rfl) (f := .u) (g := .u) rfl rfl (l := (backward (p 3))) rfl (e := 1) (e' := -1) (if_neg Bool.false_ne_true) (if_pos rfl)]
  rw [compton_vv (f := .u) (x := .u) (g := .u) (h := (rfl : Spec.after .photon Flavour.u = some Flavour.u)) (h' := (rfl : Spec.after .photon Flavour.u = some Flavour.u)) (ha := by simp) (hb := by simp)]
  rw [compton_vv (f := .u) (x := .u) (g := .u) (h := (rfl : Spec.after .photon Flavour.u = some Flavour.u)) (h' := (rfl : Spec.after .photon Flavour.u = some Flavour.u)) (ha := by simp) (hb := by simp)]
  rw [annihilation_none c _ _ (by rfl) (by simp), star_zero, add_zero, AAuu.formMP]
  simp only [d0, d1, lineV_pv, lineV_four, contract_four_pv, contract_pv, mb_plus, mb_backward]
  have i0 := mb_schouten_right z0.2 (p 3) z0.1 z2.1 z3.1
  have i1 := ab_schouten z2.1 z3.1 ρ1 z0.1
  have i2 := mb_schouten_left z0.2 z1.2 ρ0 (p 2) z0.1
  have i3 := mb_schouten_right z3.2 (p 2) z0.1 z2.1 ρ1
  have i4 := ab_schouten z1.1 z3.1 ρ1 z0.1
  have i5 := mb_schouten_left z0.2 z1.2 z2.2 (p 2) z0.1
  have i6 := mb_schouten_right ρ0 (p 2) z0.1 z3.1 ρ1
  have i7 := sb_schouten z1.2 z3.2 ρ0 z0.2
  have i8 := mb_schouten_left z0.2 z3.2 ρ0 (p 2) z0.1
  have i9 := mb_schouten_right z1.2 (p 2) z0.1 z2.1 ρ1
  have i10 := sb_schouten z1.2 z2.2 z3.2 z0.2
  have i11 := sb_schouten z1.2 z2.2 ρ0 z0.2
  have i12 := mb_schouten_left z0.2 z2.2 ρ0 (p 2) z0.1
  have i13 := mb_schouten_right z0.2 (p 3) z0.1 z2.1 ρ1
  have i14 := mb_schouten_right z0.2 (p 2) z0.1 z2.1 ρ1
  have i15 := mb_schouten_right ρ0 (p 2) z0.1 z2.1 ρ1
  have i16 := mb_schouten_right z1.2 (p 2) z0.1 z1.1 ρ1
  have i17 := sb_schouten z2.2 z3.2 ρ0 z1.2
  have i18 := mb_schouten_right z1.2 (p 3) z0.1 z1.1 z3.1
  have i19 := mb_schouten_right z1.2 (p 2) z0.1 z1.1 z3.1
  have i20 := mb_schouten_right z1.2 (p 2) z0.1 z3.1 ρ1
  have i21 := mb_schouten_right z1.2 (p 3) z0.1 z1.1 z2.1
  have i22 := mb_schouten_right z1.2 (p 2) z0.1 z1.1 z2.1
  have i23 := mb_schouten_left z0.2 z1.2 z3.2 (p 2) z0.1
  have i24 := mb_schouten_right z2.2 (p 3) z0.1 z3.1 ρ1
  have i25 := sb_schouten z2.2 z3.2 ρ0 z0.2
  have i26 := mb_schouten_right ρ0 (p 2) z0.1 z2.1 z3.1
  have i27 := mb_schouten_right z1.2 (p 2) z0.1 z2.1 z3.1
  simp only [l0.mb_eq, l1.mb_eq, b2.mb_left, b2.mb_right, b3.mb_left, b3.mb_right, e02, e03, e12, e13, mb_three hb z0.2 z1.1, mb_three hb z0.2 z2.1, mb_two hb z0.2 z3.1, mb_three hb z0.2 ρ1, mb_three hb z1.2 z0.1, mb_three hb z1.2 z2.1, mb_two hb z1.2 z3.1, mb_three hb z1.2 ρ1, mb_three hb z2.2 z0.1, mb_three hb z2.2 z1.1, mb_three hb z2.2 z2.1, mb_three hb z2.2 ρ1, mb_two hb z3.2 z0.1, mb_two hb z3.2 z1.1, mb_two hb z3.2 z3.1, mb_two hb z3.2 ρ1, mb_three hb ρ0 z0.1, mb_three hb ρ0 z1.1, mb_three hb ρ0 z2.1, mb_two hb ρ0 z3.1, mb_three hb ρ0 ρ1, ab_self, sb_self] at i0 i1 i2 i3 i4 i5 i6 i7 i8 i9 i10 i11 i12 i13 i14 i15 i16 i17 i18 i19 i20 i21 i22 i23 i24 i25 i26 i27 ⊢
  simp only [ab_swap z0.1 z1.1, ab_swap z0.1 z2.1, ab_swap z0.1 z3.1, ab_swap z0.1 ρ1, ab_swap z1.1 z2.1, ab_swap z1.1 z3.1, ab_swap z1.1 ρ1, ab_swap z2.1 z3.1, ab_swap z2.1 ρ1, ab_swap z3.1 ρ1, sb_swap z0.2 z1.2, sb_swap z0.2 z2.2, sb_swap z0.2 z3.2, sb_swap z0.2 ρ0, sb_swap z1.2 z2.2, sb_swap z1.2 z3.2, sb_swap z1.2 ρ0, sb_swap z2.2 z3.2, sb_swap z2.2 ρ0, sb_swap z3.2 ρ0] at i0 i1 i2 i3 i4 i5 i6 i7 i8 i9 i10 i11 i12 i13 i14 i15 i16 i17 i18 i19 i20 i21 i22 i23 i24 i25 i26 i27 ⊢
  simp only [r0, r1, Constants.hL, Constants.hR, Constants.gL, Constants.gR, Constants.yuk, Constants.invVev, Flavour.charge_u, Flavour.isospin_u, ← c.mz]
  have xMW : (c.MW : ℂ) ≠ 0 := by exact_mod_cast hc.MW
  have xSW : (c.SW : ℂ) ≠ 0 := by exact_mod_cast hc.SW
  have xCW : (c.CW : ℂ) ≠ 0 := by exact_mod_cast hc.CW
  have x2 : ((√2 : ℝ) : ℂ) ≠ 0 := by exact_mod_cast (Real.sqrt_pos.2 two_pos).ne'
  have x22 : ((√2 : ℝ) : ℂ) ^ 2 = 2 := by rw [← Complex.ofReal_pow, Real.sq_sqrt two_pos.le]; norm_num
  have x23 : ((√2 : ℝ) : ℂ) ^ 3 = 2 * ((√2 : ℝ) : ℂ) := by rw [← x22]; ring
  have x24 : ((√2 : ℝ) : ℂ) ^ 4 = 4 := by linear_combination (((√2 : ℝ) : ℂ) ^ 2 + 2) * x22
  push_cast at i0 i1 i2 i3 i4 i5 i6 i7 i8 i9 i10 i11 i12 i13 i14 i15 i16 i17 i18 i19 i20 i21 i22 i23 i24 i25 i26 i27 ⊢
  have y0 := mul_inv_cancel₀ n0
  have y1 := mul_inv_cancel₀ n1
  linear_combination ((((-8) * ((c.e : ℂ)) ^ 2 * ((c.mass .u : ℂ)) * (ab z0.1 ρ1) * (sb z1.2 ρ0)) * i0 + ((-8) * ((c.e : ℂ)) ^ 2 * ((c.mass .u : ℂ)) * (N.c 1) * (sb z1.2 ρ0) + (-8) * ((c.e : ℂ)) ^ 2 * ((c.mass .u : ℂ)) * (mb z1.2 (p 2) z0.1) * (sb z0.2 ρ0) + (8) * ((c.e : ℂ)) ^ 2 * ((c.mass .u : ℂ)) * (mb ρ0 (p 2) z0.1) * (sb z0.2 z1.2)) * i1 + ((-16) * ((c.e : ℂ)) ^ 2 * ((c.mass .u : ℂ)) * (ab z0.1 z2.1) * (ab z3.1 ρ1) + (8) * ((c.e : ℂ)) ^ 2 * (ab z0.1 z1.1) * (ab z2.1 ρ1) * (sb z1.2 z3.2) + (-8) * ((c.e : ℂ)) ^ 2 * (ab z0.1 z2.1) * (ab z0.1 ρ1) * (sb z0.2 z3.2) + (-8) * ((c.e : ℂ)) ^ 2 * (ab z0.1 z2.1) * (ab z1.1 ρ1) * (sb z1.2 z3.2) + (8) * ((c.e : ℂ)) ^ 2 * (ab z0.1 z3.1) * (ab z0.1 ρ1) * (sb z0.2 z2.2)) * i2 + ((8) * ((c.e : ℂ)) ^ 2 * (N.c 0) * (sb z1.2 ρ0) + (8) * ((c.e : ℂ)) ^ 2 * (mb z1.2 (p 2) z0.1) * (sb z0.2 ρ0) + (-8) * ((c.e : ℂ)) ^ 2 * (mb ρ0 (p 2) z0.1) * (sb z0.2 z1.2)) * i3 + ((-8) * ((c.e : ℂ)) ^ 2 * ((c.mass .u : ℂ)) * (ab z0.1 z2.1) * (sb z0.2 z1.2) * (sb z1.2 ρ0) + (-8) * ((c.e : ℂ)) ^ 2 * (mb z1.2 (p 2) z0.1) * (sb z0.2 z2.2) * (sb z1.2 ρ0)) * i4 + ((16) * ((c.e : ℂ)) ^ 2 * ((c.mass .u : ℂ)) * (ab z0.1 ρ1) * (sb z3.2 ρ0) + (-8) * ((c.e : ℂ)) ^ 2 * (ab z0.1 z1.1) * (ab z3.1 ρ1) * (sb z1.2 ρ0) + (16) * ((c.e : ℂ)) ^ 2 * (ab z0.1 z3.1) * (ab z1.1 ρ1) * (sb z1.2 ρ0) + (8) * ((c.e : ℂ)) ^ 2 * (ab z0.1 z3.1) * (mb ρ0 (p 2) ρ1)) * i5 + ((8) * ((c.e : ℂ)) ^ 2 * (mb z1.2 (p 2) z0.1) * (sb z0.2 z2.2)) * i6 + ((8) * ((c.e : ℂ)) ^ 2 * ((c.mass .u : ℂ)) ^ 2 * (ab z0.1 z2.1) * (ab z0.1 ρ1) + (-8) * ((c.e : ℂ)) ^ 2 * (N.c 1) * (ab z0.1 z2.1) * (ab z0.1 ρ1) + (-8) * ((c.e : ℂ)) ^ 2 * (ab z0.1 z1.1) * (ab z0.1 z2.1) * (mb z1.2 (p 2) ρ1) + (-8) * ((c.e : ℂ)) ^ 2 * (ab z0.1 z2.1) * (ab z1.1 ρ1) * (mb z1.2 (p 2) z0.1)) * i7 + ((-8) * ((c.e : ℂ)) ^ 2 * (ab z0.1 z2.1) * (mb z1.2 (p 2) ρ1)) * i8 + ((-16) * ((c.e : ℂ)) ^ 2 * ((c.mass .u : ℂ)) * (ab z0.1 z3.1) * (sb z0.2 ρ0) + (-8) * ((c.e : ℂ)) ^ 2 * (N.c 0) * (sb z3.2 ρ0) + (8) * ((c.e : ℂ)) ^ 2 * (mb ρ0 (p 2) z0.1) * (sb z0.2 z3.2)) * i9 + ((-8) * ((c.e : ℂ)) ^ 2 * ((c.mass .u : ℂ)) * (ab z0.1 ρ1) * (mb ρ0 (p 2) z0.1)) * i10 + ((8) * ((c.e : ℂ)) ^ 2 * ((c.mass .u : ℂ)) ^ 2 * (ab z0.1 z3.1) * (ab z0.1 ρ1) + (-8) * ((c.e : ℂ)) ^ 2 * (ab z0.1 z3.1) * (ab z1.1 ρ1) * (mb z1.2 (p 2) z0.1)) * i11 + ((-16) * ((c.e : ℂ)) ^ 2 * ((c.mass .u : ℂ)) * (ab z0.1 ρ1) * (sb z1.2 z3.2) + (8) * ((c.e : ℂ)) ^ 2 * (ab z0.1 z3.1) * (mb z1.2 (p 2) ρ1)) * i12 + ((8) * ((c.e : ℂ)) ^ 2 * ((c.mass .u : ℂ)) * (ab z0.1 z3.1) * (sb z1.2 ρ0)) * i13 + ((8) * ((c.e : ℂ)) ^ 2 * ((c.mass .u : ℂ)) * (ab z0.1 z3.1) * (sb z1.2 ρ0)) * i14 + ((16) * ((c.e : ℂ)) ^ 2 * ((c.mass .u : ℂ)) * (ab z0.1 z3.1) * (sb z0.2 z1.2) + (-8) * ((c.e : ℂ)) ^ 2 * (mb z1.2 (p 2) z0.1) * (sb z0.2 z3.2)) * i15 + ((8) * ((c.e : ℂ)) ^ 2 * (ab z0.1 z2.1) * (sb z0.2 z1.2) * (sb z3.2 ρ0) + (-8) * ((c.e : ℂ)) ^ 2 * (ab z0.1 z2.1) * (sb z0.2 z3.2) * (sb z1.2 ρ0) + (8) * ((c.e : ℂ)) ^ 2 * (ab z0.1 z3.1) * (sb z0.2 z1.2) * (sb z2.2 ρ0)) * i16 + ((16) * ((c.e : ℂ)) ^ 2 * ((c.mass .u : ℂ)) * (N.c 0) * (ab z0.1 ρ1)) * i17 + ((8) * ((c.e : ℂ)) ^ 2 * (mb z1.2 (p 2) ρ1) * (sb z2.2 ρ0)) * i18 + ((8) * ((c.e : ℂ)) ^ 2 * (mb z1.2 (p 2) ρ1) * (sb z2.2 ρ0)) * i19 + ((-8) * ((c.e : ℂ)) ^ 2 * (N.c 1) * (sb z2.2 ρ0) + (-8) * ((c.e : ℂ)) ^ 2 * (mb ρ0 (p 2) z0.1) * (sb z0.2 z2.2)) * i20 + ((-8) * ((c.e : ℂ)) ^ 2 * (mb ρ0 (p 2) ρ1) * (sb z1.2 z3.2)) * i21 + ((-8) * ((c.e : ℂ)) ^ 2 * (mb ρ0 (p 2) ρ1) * (sb z1.2 z3.2)) * i22 + ((-8) * ((c.e : ℂ)) ^ 2 * (ab z0.1 z2.1) * (mb ρ0 (p 2) ρ1)) * i23 + ((-8) * ((c.e : ℂ)) ^ 2 * (N.c 0) * (sb z1.2 ρ0)) * i24 + ((8) * ((c.e : ℂ)) ^ 2 * ((c.mass .u : ℂ)) * (ab z0.1 ρ1) * (mb z1.2 (p 2) z0.1)) * i25 + ((-8) * ((c.e : ℂ)) ^ 2 * ((c.mass .u : ℂ)) * (ab z0.1 ρ1) * (sb z0.2 z1.2)) * i26 + ((8) * ((c.e : ℂ)) ^ 2 * ((c.mass .u : ℂ)) * (ab z0.1 ρ1) * (sb z0.2 ρ0)) * i27)) * ((1) * ((N.c 0)⁻¹) * ((N.c 1)⁻¹) / (9)) + ((-8) * ((c.e : ℂ)) ^ 2 * ((c.mass .u : ℂ)) * ((N.c 1)⁻¹) * (ab z0.1 z3.1) * (ab z2.1 ρ1) * (sb z1.2 ρ0) / (9) + (8) * ((c.e : ℂ)) ^ 2 * ((c.mass .u : ℂ)) * ((N.c 1)⁻¹) * (ab z0.1 ρ1) * (sb z1.2 z2.2) * (sb z3.2 ρ0) / (9) + (8) * ((c.e : ℂ)) ^ 2 * ((N.c 1)⁻¹) * (ab z0.1 z3.1) * (ab z1.1 ρ1) * (sb z1.2 z2.2) * (sb z1.2 ρ0) / (9) + (8) * ((c.e : ℂ)) ^ 2 * ((N.c 1)⁻¹) * (ab z0.1 z3.1) * (mb ρ0 (p 2) ρ1) * (sb z1.2 z2.2) / (9) + (8) * ((c.e : ℂ)) ^ 2 * ((N.c 1)⁻¹) * (ab z2.1 ρ1) * (mb z1.2 (p 2) z0.1) * (sb z3.2 ρ0) / (9)) * y0 + ((8) * ((c.e : ℂ)) ^ 2 * ((c.mass .u : ℂ)) * ((N.c 0)⁻¹) * (ab z0.1 z2.1) * (ab z3.1 ρ1) * (sb z1.2 ρ0) / (9) + (-8) * ((c.e : ℂ)) ^ 2 * ((c.mass .u : ℂ)) * ((N.c 0)⁻¹) * (ab z0.1 ρ1) * (sb z1.2 z3.2) * (sb z2.2 ρ0) / (9) + (8) * ((c.e : ℂ)) ^ 2 * ((N.c 0)⁻¹) * (ab z0.1 z2.1) * (ab z0.1 ρ1) * (sb z0.2 ρ0) * (sb z1.2 z3.2) / (9) + (8) * ((c.e : ℂ)) ^ 2 * ((N.c 0)⁻¹) * (ab z0.1 z2.1) * (mb ρ0 (p 2) ρ1) * (sb z1.2 z3.2) / (9) + (8) * ((c.e : ℂ)) ^ 2 * ((N.c 0)⁻¹) * (ab z3.1 ρ1) * (mb z1.2 (p 2) z0.1) * (sb z2.2 ρ0) / (9)) * y1 + ((-4) * ((c.e : ℂ)) ^ 2 * ((c.mass .u : ℂ)) * ((N.c 0)⁻¹) * (ab z0.1 z2.1) * (ab z3.1 ρ1) * (sb z1.2 ρ0) / (9) + (4) * ((c.e : ℂ)) ^ 2 * ((c.mass .u : ℂ)) * ((N.c 0)⁻¹) * (ab z0.1 ρ1) * (sb z1.2 z3.2) * (sb z2.2 ρ0) / (9) + (4) * ((c.e : ℂ)) ^ 2 * ((c.mass .u : ℂ)) * ((N.c 1)⁻¹) * (ab z0.1 z3.1) * (ab z2.1 ρ1) * (sb z1.2 ρ0) / (9) + (-4) * ((c.e : ℂ)) ^ 2 * ((c.mass .u : ℂ)) * ((N.c 1)⁻¹) * (ab z0.1 ρ1) * (sb z1.2 z2.2) * (sb z3.2 ρ0) / (9) + (-4) * ((c.e : ℂ)) ^ 2 * ((N.c 0)⁻¹) * (ab z0.1 z2.1) * (ab z0.1 ρ1) * (sb z0.2 ρ0) * (sb z1.2 z3.2) / (9) + (-4) * ((c.e : ℂ)) ^ 2 * ((N.c 0)⁻¹) * (ab z0.1 z2.1) * (mb ρ0 (p 2) ρ1) * (sb z1.2 z3.2) / (9) + (-4) * ((c.e : ℂ)) ^ 2 * ((N.c 0)⁻¹) * (ab z3.1 ρ1) * (mb z1.2 (p 2) z0.1) * (sb z2.2 ρ0) / (9) + (-4) * ((c.e : ℂ)) ^ 2 * ((N.c 1)⁻¹) * (ab z0.1 z3.1) * (ab z1.1 ρ1) * (sb z1.2 z2.2) * (sb z1.2 ρ0) / (9) + (-4) * ((c.e : ℂ)) ^ 2 * ((N.c 1)⁻¹) * (ab z0.1 z3.1) * (mb ρ0 (p 2) ρ1) * (sb z1.2 z2.2) / (9) + (-4) * ((c.e : ℂ)) ^ 2 * ((N.c 1)⁻¹) * (ab z2.1 ρ1) * (mb z1.2 (p 2) z0.1) * (sb z3.2 ρ0) / (9)) * x22
theorem AAuu.keyMM {c : Constants} {p : Nat → V4 ℝ} {N : Env} (hc : c.Physical) (hb : Balanced p) (r0 : N.r 0 = c.e) (r1 : N.r 1 = (((2 : Nat) : ℝ) / ((3 : Nat) : ℝ))) (r2 : N.r 2 = (c.mass .u)) (d0 : ((msq (plus (backward (p 3)) (p 1)) - c.mass .u ^ 2 : ℝ) : ℂ) = N.c 0) (n0 : N.c 0 ≠ 0) (d1 : ((msq (plus (backward (p 3)) (p 0)) - c.mass .u ^ 2 : ℝ) : ℂ) = N.c 1) (n1 : N.c 1 ≠ 0) {z0 z1 z2 z3 : Pair} (b2 : Bold (p 2) (c.mass .u) z2) (b3 : Bold (p 3) (c.mass .u) z3) (l0 : Light (p 0) z0) (l1 : Light (p 1) z1) (e02 : mb z0.2 (p 2) z0.1 = -N.c 0) (e03 : mb z0.2 (p 3) z0.1 = -N.c 1) (e12 : mb z1.2 (p 2) z1.1 = -N.c 1) (e13 : mb z1.2 (p 3) z1.1 = -N.c 0) (q2 : msq (p 2) = (c.mass .u) ^ 2) (q3 : msq (p 3) = (c.mass .u) ^ 2) (ρ0 ρ1 : V2) :
    AAuu.formMM N p z0 z1 z2 z3 * sb ρ0 z0.2 * sb ρ1 z1.2 = ((√2 : ℝ) * ((√2 : ℝ) * (1 : ℂ))) * AAuu.react.bare c p 2 3 0 1 z2 z3 (pv z0.1 ρ0) (pv z1.1 ρ1) := by
  rw [AAuu.react.bare_parts c p (i := 2) (j := 3) (a := 0) (b := 1) (x := .photon) (y := .photon) (k := (p 0)) (k' := (p 1)) (fun _ => rfl) (fun _ => rfl) (f := .u) (g := .u) rfl rfl (l := (backward (p 3))) rfl (e := 1) (e' := -1) (if_neg Bool.false_ne_true) (if_pos rfl)]
  rw [compton_vv (f := .u) (x := .u) (g := .u) (h := (rfl : Spec.after .photon Flavour.u = some Flavour.u)) (h' := (rfl : Spec.after .photon Flavour.u = some Flavour.u)) (ha := by simp) (hb := by simp)]
  rw [compton_vv (f := .u) (x := .u) (g := .u) (h := (rfl : Spec.after .photon Flavour.u = some Flavour.u)) (h' := (rfl : Spec.after .photon Flavour.u = some Flavour.u)) (ha := by simp) (hb := by simp)]
  rw [annihilation_none c _ _ (by rfl) (by simp), star_zero, add_zero, AAuu.formMM]
  simp only [d0, d1, lineV_pv, lineV_four, contract_four_pv, contract_pv, mb_plus, mb_backward]
  have i0 := sb_schouten z1.2 ρ0 ρ1 z0.2
  have i1 := sb_schouten z2.2 z3.2 ρ1 z0.2
  have i2 := sb_schouten z1.2 z2.2 ρ0 z0.2
  have i3 := sb_schouten z3.2 ρ0 ρ1 z1.2
  have i4 := sb_schouten z1.2 z3.2 ρ0 z0.2
  have i5 := mb_schouten_right z3.2 (p 2) z0.1 z1.1 z2.1
  have i6 := sb_schouten z1.2 z3.2 ρ1 z0.2
  have i7 := mb_schouten_left z0.2 z1.2 ρ0 (p 2) z0.1
  have i8 := mb_schouten_right z1.2 (p 2) z0.1 z1.1 z2.1
  have i9 := mb_schouten_right z0.2 (p 2) z0.1 z1.1 z2.1
  have i10 := mb_schouten_right z1.2 (p 3) z0.1 z1.1 z2.1
  have i11 := mb_schouten_right ρ1 (p 2) z0.1 z1.1 z2.1
  have i12 := sb_schouten z3.2 ρ0 ρ1 z2.2
  have i13 := mb_schouten_right z0.2 (p 3) z0.1 z1.1 z2.1
  have i14 := mb_schouten_right z0.2 (p 3) z0.1 z1.1 z3.1
  have i15 := mb_schouten_left z0.2 z3.2 ρ0 (p 2) z0.1
  have i16 := mb_schouten_left z0.2 z3.2 ρ1 (p 2) z0.1
  have i17 := mb_schouten_left z0.2 ρ0 ρ1 (p 2) z0.1
  have i18 := mb_schouten_right ρ0 (p 2) z0.1 z1.1 z3.1
  have i19 := mb_schouten_left z0.2 z2.2 ρ1 (p 2) z0.1
  have i20 := mb_schouten_right ρ1 (p 2) z0.1 z1.1 z3.1
  have i21 := mb_schouten_left z0.2 z2.2 ρ0 (p 2) z0.1
  have i22 := mb_schouten_right z2.2 (p 3) z0.1 z1.1 z3.1
  have i23 := mb_schouten_right z0.2 (p 2) z0.1 z1.1 z3.1
  have i24 := mb_schouten_right z1.2 (p 2) z0.1 z1.1 z3.1
  have i25 := sb_schouten z3.2 ρ0 ρ1 z0.2
  have i26 := mb_schouten_right ρ0 (p 2) z0.1 z1.1 z2.1
  have i27 := sb_schouten z2.2 z3.2 ρ0 z0.2
  have i28 := sb_schouten z2.2 ρ0 ρ1 z1.2
  have i29 := sb_schouten z2.2 ρ0 ρ1 z0.2
  have i30 := mb_schouten_left z0.2 z1.2 ρ1 (p 2) z0.1
  have i31 := mb_schouten_right z1.2 (p 3) z0.1 z1.1 z3.1
  simp only [l0.mb_eq, l1.mb_eq, b2.mb_left, b2.mb_right, b3.mb_left, b3.mb_right, e02, e03, e12, e13, mb_three hb z0.2 z1.1, mb_three hb z0.2 z2.1, mb_two hb z0.2 z3.1, mb_three hb z1.2 z0.1, mb_three hb z1.2 z2.1, mb_two hb z1.2 z3.1, mb_three hb z2.2 z0.1, mb_three hb z2.2 z1.1, mb_three hb z2.2 z2.1, mb_two hb z3.2 z0.1, mb_two hb z3.2 z1.1, mb_two hb z3.2 z3.1, mb_three hb ρ0 z0.1, mb_three hb ρ0 z1.1, mb_three hb ρ0 z2.1, mb_two hb ρ0 z3.1, mb_three hb ρ1 z0.1, mb_three hb ρ1 z1.1, mb_three hb ρ1 z2.1, mb_two hb ρ1 z3.1, ab_self, sb_self] at i0 i1 i2 i3 i4 i5 i6 i7 i8 i9 i10 i11 i12 i13 i14 i15 i16 i17 i18 i19 i20 i21 i22 i23 i24 i25 i26 i27 i28 i29 i30 i31 ⊢
  simp only [ab_swap z0.1 z1.1, ab_swap z0.1 z2.1, ab_swap z0.1 z3.1, ab_swap z1.1 z2.1, ab_swap z1.1 z3.1, ab_swap z2.1 z3.1, sb_swap z0.2 z1.2, sb_swap z0.2 z2.2, sb_swap z0.2 z3.2, sb_swap z0.2 ρ0, sb_swap z0.2 ρ1, sb_swap z1.2 z2.2, sb_swap z1.2 z3.2, sb_swap z1.2 ρ0, sb_swap z1.2 ρ1, sb_swap z2.2 z3.2, sb_swap z2.2 ρ0, sb_swap z2.2 ρ1, sb_swap z3.2 ρ0, sb_swap z3.2 ρ1, sb_swap ρ0 ρ1] at i0 i1 i2 i3 i4 i5 i6 i7 i8 i9 i10 i11 i12 i13 i14 i15 i16 i17 i18 i19 i20 i21 i22 i23 i24 i25 i26 i27 i28 i29 i30 i31 ⊢
  simp only [r0, r1, r2, Constants.hL, Constants.hR, Constants.gL, Constants.gR, Constants.yuk, Constants.invVev, Flavour.charge_u, Flavour.isospin_u, ← c.mz]
  have xMW : (c.MW : ℂ) ≠ 0 := by exact_mod_cast hc.MW
  have xSW : (c.SW : ℂ) ≠ 0 := by exact_mod_cast hc.SW
  have xCW : (c.CW : ℂ) ≠ 0 := by exact_mod_cast hc.CW
  have x2 : ((√2 : ℝ) : ℂ) ≠ 0 := by exact_mod_cast (Real.sqrt_pos.2 two_pos).ne'
  have x22 : ((√2 : ℝ) : ℂ) ^ 2 = 2 := by rw [← Complex.ofReal_pow, Real.sq_sqrt two_pos.le]; norm_num
  have x23 : ((√2 : ℝ) : ℂ) ^ 3 = 2 * ((√2 : ℝ) : ℂ) := by rw [← x22]; ring
  have x24 : ((√2 : ℝ) : ℂ) ^ 4 = 4 := by linear_combination (((√2 : ℝ) : ℂ) ^ 2 + 2) * x22
  push_cast at i0 i1 i2 i3 i4 i5 i6 i7 i8 i9 i10 i11 i12 i13 i14 i15 i16 i17 i18 i19 i20 i21 i22 i23 i24 i25 i26 i27 i28 i29 i30 i31 ⊢
  have y0 := mul_inv_cancel₀ n0
  have y1 := mul_inv_cancel₀ n1
  linear_combination ((((-8) * ((c.e : ℂ)) ^ 2 * ((c.mass .u : ℂ)) * (ab z0.1 z1.1) ^ 2 * (sb z2.2 z3.2)) * i0 + ((-8) * ((c.e : ℂ)) ^ 2 * ((c.mass .u : ℂ)) * (ab z0.1 z1.1) * (mb ρ0 (p 2) z0.1) + (8) * ((c.e : ℂ)) ^ 2 * ((c.mass .u : ℂ)) * (ab z0.1 z1.1) ^ 2 * (sb z1.2 ρ0)) * i1 + ((8) * ((c.e : ℂ)) ^ 2 * ((c.mass .u : ℂ)) * (ab z0.1 z1.1) ^ 2 * (sb z3.2 ρ1)) * i2 + ((-8) * ((c.e : ℂ)) ^ 2 * (N.c 0) * (ab z0.1 z1.1) * (ab z1.1 z2.1)) * i3 + ((-8) * ((c.e : ℂ)) ^ 2 * (ab z0.1 z1.1) * (ab z0.1 z2.1) * (mb ρ1 (p 2) z1.1) + (8) * ((c.e : ℂ)) ^ 2 * (ab z0.1 z1.1) * (ab z1.1 z2.1) * (mb ρ1 (p 2) z0.1)) * i4 + ((8) * ((c.e : ℂ)) ^ 2 * (N.c 0) * (sb ρ0 ρ1) + (8) * ((c.e : ℂ)) ^ 2 * (mb ρ0 (p 2) z0.1) * (sb z0.2 ρ1) + (-8) * ((c.e : ℂ)) ^ 2 * (mb ρ1 (p 2) z0.1) * (sb z0.2 ρ0)) * i5 + ((-8) * ((c.e : ℂ)) ^ 2 * ((c.mass .u : ℂ)) * (ab z0.1 z1.1) ^ 2 * (sb z2.2 ρ0) + (8) * ((c.e : ℂ)) ^ 2 * (ab z0.1 z1.1) * (ab z0.1 z2.1) * (mb ρ0 (p 2) z1.1) + (-8) * ((c.e : ℂ)) ^ 2 * (ab z0.1 z1.1) * (ab z1.1 z2.1) * (mb ρ0 (p 2) z0.1)) * i6 + ((8) * ((c.e : ℂ)) ^ 2 * (ab z0.1 z1.1) * (ab z1.1 z2.1) * (sb z3.2 ρ1)) * i7 + ((8) * ((c.e : ℂ)) ^ 2 * (ab z0.1 z1.1) * (sb z0.2 ρ0) * (sb z3.2 ρ1) + (8) * ((c.e : ℂ)) ^ 2 * (mb ρ0 (p 2) z1.1) * (sb z3.2 ρ1) + (-8) * ((c.e : ℂ)) ^ 2 * (mb ρ1 (p 2) z1.1) * (sb z3.2 ρ0)) * i8 + ((-8) * ((c.e : ℂ)) ^ 2 * (mb ρ1 (p 2) z0.1) * (sb z3.2 ρ0)) * i9 + ((8) * ((c.e : ℂ)) ^ 2 * (mb ρ0 (p 2) z1.1) * (sb z3.2 ρ1) + (-8) * ((c.e : ℂ)) ^ 2 * (mb ρ1 (p 2) z1.1) * (sb z3.2 ρ0)) * i10 + ((8) * ((c.e : ℂ)) ^ 2 * ((c.mass .u : ℂ)) * (ab z0.1 z3.1) * (sb z0.2 ρ0) + (-8) * ((c.e : ℂ)) ^ 2 * (N.c 1) * (sb z3.2 ρ0) + (8) * ((c.e : ℂ)) ^ 2 * (ab z0.1 z1.1) * (sb z0.2 z3.2) * (sb z1.2 ρ0) + (-8) * ((c.e : ℂ)) ^ 2 * (mb ρ0 (p 2) z0.1) * (sb z0.2 z3.2)) * i11 + ((-8) * ((c.e : ℂ)) ^ 2 * ((c.mass .u : ℂ)) * (N.c 0) * (ab z0.1 z1.1) + (8) * ((c.e : ℂ)) ^ 2 * ((c.mass .u : ℂ)) * (N.c 1) * (ab z0.1 z1.1)) * i12 + ((-8) * ((c.e : ℂ)) ^ 2 * ((c.mass .u : ℂ)) * (ab z0.1 z3.1) * (sb ρ0 ρ1) + (-8) * ((c.e : ℂ)) ^ 2 * (mb ρ1 (p 2) z0.1) * (sb z3.2 ρ0)) * i13 + ((16) * ((c.e : ℂ)) ^ 2 * ((c.mass .u : ℂ)) * (ab z0.1 z2.1) * (sb ρ0 ρ1) + (8) * ((c.e : ℂ)) ^ 2 * (ab z0.1 z1.1) * (sb z1.2 z2.2) * (sb ρ0 ρ1) + (-8) * ((c.e : ℂ)) ^ 2 * (mb ρ1 (p 2) z0.1) * (sb z2.2 ρ0)) * i14 + ((-8) * ((c.e : ℂ)) ^ 2 * (ab z0.1 z1.1) * (ab z0.1 z2.1) * (sb z0.2 ρ1) + (-8) * ((c.e : ℂ)) ^ 2 * (ab z0.1 z2.1) * (mb ρ1 (p 2) z1.1)) * i15 + ((8) * ((c.e : ℂ)) ^ 2 * (ab z0.1 z1.1) * (ab z0.1 z2.1) * (sb z0.2 ρ0) + (8) * ((c.e : ℂ)) ^ 2 * (ab z0.1 z2.1) * (mb ρ0 (p 2) z1.1)) * i16 + ((-16) * ((c.e : ℂ)) ^ 2 * ((c.mass .u : ℂ)) * (ab z0.1 z2.1) * (ab z1.1 z3.1)) * i17 + ((-8) * ((c.e : ℂ)) ^ 2 * ((c.mass .u : ℂ)) * (ab z0.1 z2.1) * (sb z0.2 ρ1) + (-8) * ((c.e : ℂ)) ^ 2 * (mb ρ1 (p 2) z0.1) * (sb z0.2 z2.2)) * i18 + ((-16) * ((c.e : ℂ)) ^ 2 * ((c.mass .u : ℂ)) * (ab z0.1 z1.1) * (sb z3.2 ρ0) + (-8) * ((c.e : ℂ)) ^ 2 * (ab z0.1 z1.1) * (ab z0.1 z3.1) * (sb z0.2 ρ0) + (-8) * ((c.e : ℂ)) ^ 2 * (ab z0.1 z1.1) * (ab z1.1 z3.1) * (sb z1.2 ρ0) + (-8) * ((c.e : ℂ)) ^ 2 * (ab z0.1 z3.1) * (mb ρ0 (p 2) z1.1)) * i19 + ((8) * ((c.e : ℂ)) ^ 2 * ((c.mass .u : ℂ)) * (ab z0.1 z2.1) * (sb z0.2 ρ0) + (-8) * ((c.e : ℂ)) ^ 2 * (N.c 0) * (sb z2.2 ρ0) + (8) * ((c.e : ℂ)) ^ 2 * (mb ρ0 (p 2) z0.1) * (sb z0.2 z2.2)) * i20 + ((16) * ((c.e : ℂ)) ^ 2 * ((c.mass .u : ℂ)) * (ab z0.1 z1.1) * (sb z3.2 ρ1) + (8) * ((c.e : ℂ)) ^ 2 * (ab z0.1 z1.1) * (ab z0.1 z3.1) * (sb z0.2 ρ1) + (8) * ((c.e : ℂ)) ^ 2 * (ab z0.1 z1.1) * (ab z1.1 z3.1) * (sb z1.2 ρ1) + (8) * ((c.e : ℂ)) ^ 2 * (ab z0.1 z3.1) * (mb ρ1 (p 2) z1.1)) * i21 + ((8) * ((c.e : ℂ)) ^ 2 * (N.c 1) * (sb ρ0 ρ1) + (-8) * ((c.e : ℂ)) ^ 2 * (ab z0.1 z1.1) * (sb z0.2 z1.2) * (sb ρ0 ρ1)) * i22 + ((8) * ((c.e : ℂ)) ^ 2 * ((c.mass .u : ℂ)) * (ab z0.1 z2.1) * (sb ρ0 ρ1) + (8) * ((c.e : ℂ)) ^ 2 * (ab z0.1 z1.1) * (sb z1.2 z2.2) * (sb ρ0 ρ1) + (-8) * ((c.e : ℂ)) ^ 2 * (mb ρ1 (p 2) z0.1) * (sb z2.2 ρ0)) * i23 + ((-8) * ((c.e : ℂ)) ^ 2 * (ab z0.1 z1.1) * (sb z0.2 z2.2) * (sb ρ0 ρ1)) * i24 + ((8) * ((c.e : ℂ)) ^ 2 * ((c.mass .u : ℂ)) ^ 2 * (ab z0.1 z1.1) * (ab z0.1 z2.1) + (-8) * ((c.e : ℂ)) ^ 2 * (N.c 0) * (ab z0.1 z1.1) * (ab z0.1 z2.1)) * i25 + ((-8) * ((c.e : ℂ)) ^ 2 * ((c.mass .u : ℂ)) * (ab z0.1 z3.1) * (sb z0.2 ρ1) + (-8) * ((c.e : ℂ)) ^ 2 * (ab z0.1 z1.1) * (sb z0.2 z3.2) * (sb z1.2 ρ1) + (8) * ((c.e : ℂ)) ^ 2 * (mb ρ1 (p 2) z0.1) * (sb z0.2 z3.2)) * i26 + ((8) * ((c.e : ℂ)) ^ 2 * ((c.mass .u : ℂ)) * (ab z0.1 z1.1) * (mb ρ1 (p 2) z0.1)) * i27 + ((8) * ((c.e : ℂ)) ^ 2 * (N.c 0) * (ab z0.1 z1.1) * (ab z1.1 z3.1)) * i28 + ((8) * ((c.e : ℂ)) ^ 2 * ((c.mass .u : ℂ)) * (ab z0.1 z1.1) ^ 2 * (sb z1.2 z3.2) + (8) * ((c.e : ℂ)) ^ 2 * ((c.mass .u : ℂ)) ^ 2 * (ab z0.1 z1.1) * (ab z0.1 z3.1) + (8) * ((c.e : ℂ)) ^ 2 * (ab z0.1 z1.1) * (ab z1.1 z3.1) * (mb z1.2 (p 2) z0.1)) * i29 + ((8) * ((c.e : ℂ)) ^ 2 * (ab z0.1 z1.1) * (ab z1.1 z3.1) * (sb z2.2 ρ0)) * i30 + ((-8) * ((c.e : ℂ)) ^ 2 * (ab z0.1 z1.1) * (sb z0.2 ρ0) * (sb z2.2 ρ1)) * i31)) * ((1) * ((N.c 0)⁻¹) * ((N.c 1)⁻¹) / (9)) + ((-8) * ((c.e : ℂ)) ^ 2 * ((c.mass .u : ℂ)) * ((N.c 1)⁻¹) * (ab z0.1 z1.1) * (sb z2.2 ρ1) * (sb z3.2 ρ0) / (9) + (-8) * ((c.e : ℂ)) ^ 2 * ((c.mass .u : ℂ)) * ((N.c 1)⁻¹) * (ab z0.1 z3.1) * (ab z1.1 z2.1) * (sb ρ0 ρ1) / (9) + (8) * ((c.e : ℂ)) ^ 2 * ((N.c 1)⁻¹) * (ab z0.1 z1.1) * (ab z1.1 z2.1) * (sb z1.2 ρ1) * (sb z3.2 ρ0) / (9) + (-8) * ((c.e : ℂ)) ^ 2 * ((N.c 1)⁻¹) * (ab z0.1 z3.1) * (mb ρ0 (p 2) z1.1) * (sb z2.2 ρ1) / (9) + (-8) * ((c.e : ℂ)) ^ 2 * ((N.c 1)⁻¹) * (ab z1.1 z2.1) * (mb ρ1 (p 2) z0.1) * (sb z3.2 ρ0) / (9)) * y0 + ((8) * ((c.e : ℂ)) ^ 2 * ((c.mass .u : ℂ)) * ((N.c 0)⁻¹) * (ab z0.1 z1.1) * (sb z2.2 ρ0) * (sb z3.2 ρ1) / (9) + (8) * ((c.e : ℂ)) ^ 2 * ((c.mass .u : ℂ)) * ((N.c 0)⁻¹) * (ab z0.1 z2.1) * (ab z1.1 z3.1) * (sb ρ0 ρ1) / (9) + (-8) * ((c.e : ℂ)) ^ 2 * ((N.c 0)⁻¹) * (ab z0.1 z1.1) * (ab z0.1 z2.1) * (sb z0.2 ρ0) * (sb z3.2 ρ1) / (9) + (-8) * ((c.e : ℂ)) ^ 2 * ((N.c 0)⁻¹) * (ab z0.1 z2.1) * (mb ρ0 (p 2) z1.1) * (sb z3.2 ρ1) / (9) + (-8) * ((c.e : ℂ)) ^ 2 * ((N.c 0)⁻¹) * (ab z1.1 z3.1) * (mb ρ1 (p 2) z0.1) * (sb z2.2 ρ0) / (9)) * y1 + ((-4) * ((c.e : ℂ)) ^ 2 * ((c.mass .u : ℂ)) * ((N.c 0)⁻¹) * (ab z0.1 z1.1) * (sb z2.2 ρ0) * (sb z3.2 ρ1) / (9) + (-4) * ((c.e : ℂ)) ^ 2 * ((c.mass .u : ℂ)) * ((N.c 0)⁻¹) * (ab z0.1 z2.1) * (ab z1.1 z3.1) * (sb ρ0 ρ1) / (9) + (4) * ((c.e : ℂ)) ^ 2 * ((c.mass .u : ℂ)) * ((N.c 1)⁻¹) * (ab z0.1 z1.1) * (sb z2.2 ρ1) * (sb z3.2 ρ0) / (9) + (4) * ((c.e : ℂ)) ^ 2 * ((c.mass .u : ℂ)) * ((N.c 1)⁻¹) * (ab z0.1 z3.1) * (ab z1.1 z2.1) * (sb ρ0 ρ1) / (9) + (4) * ((c.e : ℂ)) ^ 2 * ((N.c 0)⁻¹) * (ab z0.1 z1.1) * (ab z0.1 z2.1) * (sb z0.2 ρ0) * (sb z3.2 ρ1) / (9) + (4) * ((c.e : ℂ)) ^ 2 * ((N.c 0)⁻¹) * (ab z0.1 z2.1) * (mb ρ0 (p 2) z1.1) * (sb z3.2 ρ1) / (9) + (4) * ((c.e : ℂ)) ^ 2 * ((N.c 0)⁻¹) * (ab z1.1 z3.1) * (mb ρ1 (p 2) z0.1) * (sb z2.2 ρ0) / (9) + (-4) * ((c.e : ℂ)) ^ 2 * ((N.c 1)⁻¹) * (ab z0.1 z1.1) * (ab z1.1 z2.1) * (sb z1.2 ρ1) * (sb z3.2 ρ0) / (9) + (4) * ((c.e : ℂ)) ^ 2 * ((N.c 1)⁻¹) * (ab z0.1 z3.1) * (mb ρ0 (p 2) z1.1) * (sb z2.2 ρ1) / (9) + (4) * ((c.e : ℂ)) ^ 2 * ((N.c 1)⁻¹) * (ab z1.1 z2.1) * (mb ρ1 (p 2) z0.1) * (sb z3.2 ρ0) / (9)) * x22
set_option maxRecDepth 8000 in
theorem AAuu.amp2_eq (N : Env) (f : Nat → List Int → ℂ) : Cls.AAuu.m_amp2.mean N f .r [] =
    ((sumW (fun x a => (sumW (fun x b => (sumJ (fun x c => (sumJ (fun x d => (x + (((3 : Nat) : ℝ) * (‖(f 0 [a, b, c, d])‖ ^ 2)))) x)) x)) x)) ((0 : Nat) : ℝ)) / ((4 : Nat) : ℝ)) := by rfl
set_option maxRecDepth 8000 in
theorem AAuu.value (N : Env) : meaning N .r Cls.AAuu.methods Cls.AAuu.amp2 [] =
    ((sumW (fun x a => (sumW (fun x b => (sumJ (fun x c => (sumJ (fun x d => (x + (((3 : Nat) : ℝ) * (‖(Cls.AAuu.m_amp.mean N (callMean N []) .c [a, b, c, d])‖ ^ 2)))) x)) x)) x)) ((0 : Nat) : ℝ)) / ((4 : Nat) : ℝ)) :=
  AAuu.amp2_eq N (callMean N [Cls.AAuu.m_amp])
set_option maxRecDepth 8000 in
theorem AAuu.ampPP (N : Env) (f : Nat → List Int → ℂ) (j3 j4 : Int) : Cls.AAuu.m_amp.mean N f .c [2, 2, j3, j4] = AAuu.termPP N j3 j4 := by rfl
set_option maxRecDepth 8000 in
theorem AAuu.ampPM (N : Env) (f : Nat → List Int → ℂ) (j3 j4 : Int) : Cls.AAuu.m_amp.mean N f .c [2, (-2), j3, j4] = AAuu.termPM N j3 j4 := by rfl
set_option maxRecDepth 8000 in
theorem AAuu.ampMP (N : Env) (f : Nat → List Int → ℂ) (j3 j4 : Int) : Cls.AAuu.m_amp.mean N f .c [(-2), 2, j3, j4] = AAuu.termMP N j3 j4 := by rfl
set_option maxRecDepth 8000 in
theorem AAuu.ampMM (N : Env) (f : Nat → List Int → ℂ) (j3 j4 : Int) : Cls.AAuu.m_amp.mean N f .c [(-2), (-2), j3, j4] = AAuu.termMM N j3 j4 := by rfl

theorem AAuu.mass_eq {c : Constants} (hc : c.Physical) (i : Fin 4) : AAuu.proc.massNum (AAuu.rho c) i = AAuu.react.mass c i := by
  fin_cases i <;> first | rfl | exact Nat.cast_zero | exact Nat.cast_zero.trans (hc.neutrino _).symm | (show c.MW / √(((1 : Nat) : ℝ) - c.SW * c.SW) = c.MZ; rw [c.root, c.mz])

variable [FPEnv] in
theorem AAuu.amps {c : Constants} {p : Nat → V4 ℝ} {u : Fin 4 → Fin 3 → Spinor} {ε : Fin 4 → Fin 3 → Vec} (hc : c.Physical) (hh : c.Heavy) (h0 : ∀ i, 0 ≤ AAuu.react.mass c i) (hs : ∀ i : Fin 4, OnShell (p i) (AAuu.react.mass c i)) (hb : Balanced p) (hr : AAuu.react.Regular c p) (hu : ∀ i, AAuu.react.Complete c p i (u i) (ε i)) :
    (AAuu.N c p).c 0 ≠ 0 ∧ (AAuu.N c p).c 1 ≠ 0 ∧ (∀ n, (Ty.r, n) ∈ AAuu.proc.divides → (AAuu.N c p).r n ≠ 0) ∧ (∀ n, (Ty.c, n) ∈ AAuu.proc.divides → (AAuu.N c p).c n ≠ 0) ∧ ∀ (s2 : Fin 2) (s3 : Fin 2) (h0 : Fin 2) (h1 : Fin 2), ‖Cls.AAuu.m_amp.mean (AAuu.N c p) (callMean (AAuu.N c p) []) .c [spinW h0, spinW h1, spinOf s2, spinOf s3]‖ = ‖AAuu.react.bare c p 2 3 0 1 (AAuu.react.codePair c p 2 s2) (AAuu.react.codePair c p 3 s3) (lightE (legA (p 0) 0 0, legS (p 0) 0 1) h0.castSucc) (lightE (legA (p 1) 0 0, legS (p 1) 0 1) h1.castSucc)‖ := by
  have he : AAuu.react.ends = [2] := by decide
  have ht : AAuu.react.starts = [3] := by decide
  have hB : AAuu.react.bosons = [0, 1] := by decide
  obtain ⟨f1, f2, f3⟩ := AAuu.react.regular_line he ht hB hr
  have r0 : (AAuu.N c p).r 0 = c.e := rfl
  have r1 : (AAuu.N c p).r 1 = (((2 : Nat) : ℝ) / ((3 : Nat) : ℝ)) := rfl
  have r2 : (AAuu.N c p).r 2 = (c.mass .u) := rfl
  have c0 : (AAuu.N c p).c 0 = poleDist (c.mass .u) ((0 : Nat) : ℝ) ((VExp.sub 0 2).sum p) := rfl
  rw [Nat.cast_zero, pole_fermion rfl] at c0
  have d0 : ((msq (plus (backward (p 3)) (p 1)) - c.mass .u ^ 2 : ℝ) : ℂ) = (AAuu.N c p).c 0 := by rw [c0, msq_t hb (plus (backward (p 3)) (p 1)) (by simp)]
  have n0 : (AAuu.N c p).c 0 ≠ 0 := by rw [← d0]; exact_mod_cast f2 .u rfl rfl
  have c1 : (AAuu.N c p).c 1 = poleDist (c.mass .u) ((0 : Nat) : ℝ) ((VExp.sub 0 3).sum p) := rfl
  rw [Nat.cast_zero, pole_fermion rfl] at c1
  have d1 : ((msq (plus (backward (p 3)) (p 0)) - c.mass .u ^ 2 : ℝ) : ℂ) = (AAuu.N c p).c 1 := by rw [c1, msq_u hb (plus (backward (p 3)) (p 0)) (by simp)]
  have n1 : (AAuu.N c p).c 1 ≠ 0 := by rw [← d1]; exact_mod_cast f1 .u rfl rfl
  obtain ⟨l0, x0, y0⟩ := AAuu.react.code_light hs hu (n := 0) rfl rfl
  obtain ⟨l1, x1, y1⟩ := AAuu.react.code_light hs hu (n := 1) rfl rfl
  have e02 := l0.pole_sub (m := (c.mass .u)) (onShell_msq (hs 2)) (msq_t hb (plus (p 0) (backward (p 2))) (by simp)) c0
  have e03 := l0.pole_sub (m := (c.mass .u)) (onShell_msq (hs 3)) (msq_u hb (plus (p 0) (backward (p 3))) (by simp)) c1
  have e12 := l1.pole_sub (m := (c.mass .u)) (onShell_msq (hs 2)) (msq_u hb (plus (p 1) (backward (p 2))) (by simp)) c1
  have e13 := l1.pole_sub (m := (c.mass .u)) (onShell_msq (hs 3)) (msq_t hb (plus (p 1) (backward (p 3))) (by simp)) c0
  have m2 : AAuu.react.mass c 2 ≠ 0 := (leg_pos hc hh (by decide)).ne'
  have m3 : AAuu.react.mass c 3 ≠ 0 := (leg_pos hc hh (by decide)).ne'
  have m0 : AAuu.react.mass c 0 = 0 := rfl
  have m1 : AAuu.react.mass c 1 = 0 := rfl
  have hd : AAuu.proc.divides = [(Ty.c, 0), (Ty.c, 1)] := by decide +kernel
  have stPP : ∀ {z2 z3 : Pair} (b2 : Bold (p 2) (AAuu.react.mass c 2) z2) (b3 : Bold (p 3) (AAuu.react.mass c 3) z3), AAuu.formPP (AAuu.N c p) p (legA (p 0) 0 0, legS (p 0) 0 1) (legA (p 1) 0 0, legS (p 1) 0 1) z2 z3 = 1 * AAuu.react.bare c p 2 3 0 1 z2 z3 (lightE (legA (p 0) 0 0, legS (p 0) 0 1) 1) (lightE (legA (p 1) 0 0, legS (p 1) 0 1) 1) := by
    intro z2 z3 b2 b3
    exact (light_plus (z := (legA (p 0) 0 0, legS (p 0) 0 1)) (G := fun E => AAuu.react.bare c p 2 3 0 1 z2 z3 E (lightE (legA (p 1) 0 0, legS (p 1) 0 1) 1)) (AAuu.react.bare_lin₁ c p _ _ _ (by decide)) x0 (light_plus (z := (legA (p 1) 0 0, legS (p 1) 0 1)) (G := fun E => AAuu.react.bare c p 2 3 0 1 z2 z3 (pv (legA (p 0) 0 0, legS (p 0) 0 1).2 (legA (p 0) 0 0, legS (p 0) 0 1).2) E) (AAuu.react.bare_lin₂ c p _ _ _ (by decide)) x1 (AAuu.keyPP hc hb r0 r1 r2 d0 n0 d1 n1 b2 b3 l0 l1 e02 e03 e12 e13 (onShell_msq (hs 2)) (onShell_msq (hs 3)) _ _)))
  have stPM : ∀ {z2 z3 : Pair} (b2 : Bold (p 2) (AAuu.react.mass c 2) z2) (b3 : Bold (p 3) (AAuu.react.mass c 3) z3), AAuu.formPM (AAuu.N c p) p (legA (p 0) 0 0, legS (p 0) 0 1) (legA (p 1) 0 0, legS (p 1) 0 1) z2 z3 = 1 * AAuu.react.bare c p 2 3 0 1 z2 z3 (lightE (legA (p 0) 0 0, legS (p 0) 0 1) 1) (lightE (legA (p 1) 0 0, legS (p 1) 0 1) 0) := by
    intro z2 z3 b2 b3
    exact (light_plus (z := (legA (p 0) 0 0, legS (p 0) 0 1)) (G := fun E => AAuu.react.bare c p 2 3 0 1 z2 z3 E (lightE (legA (p 1) 0 0, legS (p 1) 0 1) 0)) (AAuu.react.bare_lin₁ c p _ _ _ (by decide)) x0 (light_minus (z := (legA (p 1) 0 0, legS (p 1) 0 1)) (G := fun E => AAuu.react.bare c p 2 3 0 1 z2 z3 (pv (legA (p 0) 0 0, legS (p 0) 0 1).2 (legA (p 0) 0 0, legS (p 0) 0 1).2) E) (AAuu.react.bare_lin₂ c p _ _ _ (by decide)) y1 (AAuu.keyPM hc hb r0 r1 d0 n0 d1 n1 b2 b3 l0 l1 e02 e03 e12 e13 (onShell_msq (hs 2)) (onShell_msq (hs 3)) _ _)))
  have stMP : ∀ {z2 z3 : Pair} (b2 : Bold (p 2) (AAuu.react.mass c 2) z2) (b3 : Bold (p 3) (AAuu.react.mass c 3) z3), AAuu.formMP (AAuu.N c p) p (legA (p 0) 0 0, legS (p 0) 0 1) (legA (p 1) 0 0, legS (p 1) 0 1) z2 z3 = 1 * AAuu.react.bare c p 2 3 0 1 z2 z3 (lightE (legA (p 0) 0 0, legS (p 0) 0 1) 0) (lightE (legA (p 1) 0 0, legS (p 1) 0 1) 1) := by
    intro z2 z3 b2 b3
    exact (light_minus (z := (legA (p 0) 0 0, legS (p 0) 0 1)) (G := fun E => AAuu.react.bare c p 2 3 0 1 z2 z3 E (lightE (legA (p 1) 0 0, legS (p 1) 0 1) 1)) (AAuu.react.bare_lin₁ c p _ _ _ (by decide)) y0 (light_plus (z := (legA (p 1) 0 0, legS (p 1) 0 1)) (G := fun E => AAuu.react.bare c p 2 3 0 1 z2 z3 (pv (legA (p 0) 0 0, legS (p 0) 0 1).1 (legA (p 0) 0 0, legS (p 0) 0 1).1) E) (AAuu.react.bare_lin₂ c p _ _ _ (by decide)) x1 (AAuu.keyMP hc hb r0 r1 d0 n0 d1 n1 b2 b3 l0 l1 e02 e03 e12 e13 (onShell_msq (hs 2)) (onShell_msq (hs 3)) _ _)))
  have stMM : ∀ {z2 z3 : Pair} (b2 : Bold (p 2) (AAuu.react.mass c 2) z2) (b3 : Bold (p 3) (AAuu.react.mass c 3) z3), AAuu.formMM (AAuu.N c p) p (legA (p 0) 0 0, legS (p 0) 0 1) (legA (p 1) 0 0, legS (p 1) 0 1) z2 z3 = 1 * AAuu.react.bare c p 2 3 0 1 z2 z3 (lightE (legA (p 0) 0 0, legS (p 0) 0 1) 0) (lightE (legA (p 1) 0 0, legS (p 1) 0 1) 0) := by
    intro z2 z3 b2 b3
    exact (light_minus (z := (legA (p 0) 0 0, legS (p 0) 0 1)) (G := fun E => AAuu.react.bare c p 2 3 0 1 z2 z3 E (lightE (legA (p 1) 0 0, legS (p 1) 0 1) 0)) (AAuu.react.bare_lin₁ c p _ _ _ (by decide)) y0 (light_minus (z := (legA (p 1) 0 0, legS (p 1) 0 1)) (G := fun E => AAuu.react.bare c p 2 3 0 1 z2 z3 (pv (legA (p 0) 0 0, legS (p 0) 0 1).1 (legA (p 0) 0 0, legS (p 0) 0 1).1) E) (AAuu.react.bare_lin₂ c p _ _ _ (by decide)) y1 (AAuu.keyMM hc hb r0 r1 r2 d0 n0 d1 n1 b2 b3 l0 l1 e02 e03 e12 e13 (onShell_msq (hs 2)) (onShell_msq (hs 3)) _ _)))
  have amPP : ∀ (s2 : Fin 2) (s3 : Fin 2), Cls.AAuu.m_amp.mean (AAuu.N c p) (callMean (AAuu.N c p) []) .c [2, 2, spinOf s2, spinOf s3] = 1 * AAuu.react.bare c p 2 3 0 1 (AAuu.react.codePair c p 2 s2) (AAuu.react.codePair c p 3 s3) (lightE (legA (p 0) 0 0, legS (p 0) 0 1) 1) (lightE (legA (p 1) 0 0, legS (p 1) 0 1) 1) := by
    intro s2 s3
    rw [AAuu.ampPP, ← stPP (AAuu.react.codePair_bold hs h0 2 s2) (AAuu.react.codePair_bold hs h0 3 s3)]
    have v2z0z1 : (AAuu.N c p).v 2 [] = sb (legA (p 0) 0 0, legS (p 0) 0 1).2 (legA (p 1) 0 0, legS (p 1) 0 1).2 := bra_square (p := p) (m := AAuu.proc.massNum (AAuu.rho c)) (AAuu.mass_eq hc 0) (AAuu.mass_eq hc 1) (.inr ⟨m0, rfl⟩) (.inr ⟨m1, rfl⟩)
    have v1z2z3 : (AAuu.N c p).v 1 [spinOf s2, spinOf s3] = ab (AAuu.react.codePair c p 2 s2).1 (AAuu.react.codePair c p 3 s3).1 := bra_angle (p := p) (m := AAuu.proc.massNum (AAuu.rho c)) (AAuu.mass_eq hc 2) (AAuu.mass_eq hc 3) (.inl ⟨m2, rfl⟩) (.inl ⟨m3, rfl⟩)
    simp only [AAuu.termPP, AAuu.formPP, v2z0z1, v1z2z3]
  have amPM : ∀ (s2 : Fin 2) (s3 : Fin 2), Cls.AAuu.m_amp.mean (AAuu.N c p) (callMean (AAuu.N c p) []) .c [2, (-2), spinOf s2, spinOf s3] = 1 * AAuu.react.bare c p 2 3 0 1 (AAuu.react.codePair c p 2 s2) (AAuu.react.codePair c p 3 s3) (lightE (legA (p 0) 0 0, legS (p 0) 0 1) 1) (lightE (legA (p 1) 0 0, legS (p 1) 0 1) 0) := by
    intro s2 s3
    rw [AAuu.ampPM, ← stPM (AAuu.react.codePair_bold hs h0 2 s2) (AAuu.react.codePair_bold hs h0 3 s3)]
    have v4z0z2 : (AAuu.N c p).v 4 [spinOf s2] = sb (legA (p 0) 0 0, legS (p 0) 0 1).2 (AAuu.react.codePair c p 2 s2).2 := bra_square (p := p) (m := AAuu.proc.massNum (AAuu.rho c)) (AAuu.mass_eq hc 0) (AAuu.mass_eq hc 2) (.inr ⟨m0, rfl⟩) (.inl ⟨m2, rfl⟩)
    have v7z1z3 : (AAuu.N c p).v 7 [spinOf s3] = ab (legA (p 1) 0 0, legS (p 1) 0 1).1 (AAuu.react.codePair c p 3 s3).1 := bra_angle (p := p) (m := AAuu.proc.massNum (AAuu.rho c)) (AAuu.mass_eq hc 1) (AAuu.mass_eq hc 3) (.inr ⟨m1, rfl⟩) (.inl ⟨m3, rfl⟩)
    have v10z0z3 : (AAuu.N c p).v 10 [spinOf s3] = sb (legA (p 0) 0 0, legS (p 0) 0 1).2 (AAuu.react.codePair c p 3 s3).2 := bra_square (p := p) (m := AAuu.proc.massNum (AAuu.rho c)) (AAuu.mass_eq hc 0) (AAuu.mass_eq hc 3) (.inr ⟨m0, rfl⟩) (.inl ⟨m3, rfl⟩)
    have v9z1z2 : (AAuu.N c p).v 9 [spinOf s2] = ab (legA (p 1) 0 0, legS (p 1) 0 1).1 (AAuu.react.codePair c p 2 s2).1 := bra_angle (p := p) (m := AAuu.proc.massNum (AAuu.rho c)) (AAuu.mass_eq hc 1) (AAuu.mass_eq hc 2) (.inr ⟨m1, rfl⟩) (.inl ⟨m2, rfl⟩)
    have v12z0z1 : (AAuu.N c p).v 12 [] = mb (legA (p 0) 0 0, legS (p 0) 0 1).2 (p 2) (legA (p 1) 0 0, legS (p 1) 0 1).1 := bra_mid_square (p := p) (m := AAuu.proc.massNum (AAuu.rho c)) (AAuu.mass_eq hc 0) (AAuu.mass_eq hc 1) (.inr ⟨m0, rfl⟩) (.inr ⟨m1, rfl⟩)
    simp only [AAuu.termPM, AAuu.formPM, v4z0z2, v7z1z3, v10z0z3, v9z1z2, v12z0z1]
  have amMP : ∀ (s2 : Fin 2) (s3 : Fin 2), Cls.AAuu.m_amp.mean (AAuu.N c p) (callMean (AAuu.N c p) []) .c [(-2), 2, spinOf s2, spinOf s3] = 1 * AAuu.react.bare c p 2 3 0 1 (AAuu.react.codePair c p 2 s2) (AAuu.react.codePair c p 3 s3) (lightE (legA (p 0) 0 0, legS (p 0) 0 1) 0) (lightE (legA (p 1) 0 0, legS (p 1) 0 1) 1) := by
    intro s2 s3
    rw [AAuu.ampMP, ← stMP (AAuu.react.codePair_bold hs h0 2 s2) (AAuu.react.codePair_bold hs h0 3 s3)]
    have v5z0z2 : (AAuu.N c p).v 5 [spinOf s2] = ab (legA (p 0) 0 0, legS (p 0) 0 1).1 (AAuu.react.codePair c p 2 s2).1 := bra_angle (p := p) (m := AAuu.proc.massNum (AAuu.rho c)) (AAuu.mass_eq hc 0) (AAuu.mass_eq hc 2) (.inr ⟨m0, rfl⟩) (.inl ⟨m2, rfl⟩)
    have v6z1z3 : (AAuu.N c p).v 6 [spinOf s3] = sb (legA (p 1) 0 0, legS (p 1) 0 1).2 (AAuu.react.codePair c p 3 s3).2 := bra_square (p := p) (m := AAuu.proc.massNum (AAuu.rho c)) (AAuu.mass_eq hc 1) (AAuu.mass_eq hc 3) (.inr ⟨m1, rfl⟩) (.inl ⟨m3, rfl⟩)
    have v11z0z3 : (AAuu.N c p).v 11 [spinOf s3] = ab (legA (p 0) 0 0, legS (p 0) 0 1).1 (AAuu.react.codePair c p 3 s3).1 := bra_angle (p := p) (m := AAuu.proc.massNum (AAuu.rho c)) (AAuu.mass_eq hc 0) (AAuu.mass_eq hc 3) (.inr ⟨m0, rfl⟩) (.inl ⟨m3, rfl⟩)
    have v8z1z2 : (AAuu.N c p).v 8 [spinOf s2] = sb (legA (p 1) 0 0, legS (p 1) 0 1).2 (AAuu.react.codePair c p 2 s2).2 := bra_square (p := p) (m := AAuu.proc.massNum (AAuu.rho c)) (AAuu.mass_eq hc 1) (AAuu.mass_eq hc 2) (.inr ⟨m1, rfl⟩) (.inl ⟨m2, rfl⟩)
    have v13z1z0 : (AAuu.N c p).v 13 [] = mb (legA (p 1) 0 0, legS (p 1) 0 1).2 (p 2) (legA (p 0) 0 0, legS (p 0) 0 1).1 := bra_mid_square (p := p) (m := AAuu.proc.massNum (AAuu.rho c)) (AAuu.mass_eq hc 1) (AAuu.mass_eq hc 0) (.inr ⟨m1, rfl⟩) (.inr ⟨m0, rfl⟩)
    simp only [AAuu.termMP, AAuu.formMP, v5z0z2, v6z1z3, v11z0z3, v8z1z2, v13z1z0]
  have amMM : ∀ (s2 : Fin 2) (s3 : Fin 2), Cls.AAuu.m_amp.mean (AAuu.N c p) (callMean (AAuu.N c p) []) .c [(-2), (-2), spinOf s2, spinOf s3] = 1 * AAuu.react.bare c p 2 3 0 1 (AAuu.react.codePair c p 2 s2) (AAuu.react.codePair c p 3 s3) (lightE (legA (p 0) 0 0, legS (p 0) 0 1) 0) (lightE (legA (p 1) 0 0, legS (p 1) 0 1) 0) := by
    intro s2 s3
    rw [AAuu.ampMM, ← stMM (AAuu.react.codePair_bold hs h0 2 s2) (AAuu.react.codePair_bold hs h0 3 s3)]
    have v3z0z1 : (AAuu.N c p).v 3 [] = ab (legA (p 0) 0 0, legS (p 0) 0 1).1 (legA (p 1) 0 0, legS (p 1) 0 1).1 := bra_angle (p := p) (m := AAuu.proc.massNum (AAuu.rho c)) (AAuu.mass_eq hc 0) (AAuu.mass_eq hc 1) (.inr ⟨m0, rfl⟩) (.inr ⟨m1, rfl⟩)
    have v0z2z3 : (AAuu.N c p).v 0 [spinOf s2, spinOf s3] = sb (AAuu.react.codePair c p 2 s2).2 (AAuu.react.codePair c p 3 s3).2 := bra_square (p := p) (m := AAuu.proc.massNum (AAuu.rho c)) (AAuu.mass_eq hc 2) (AAuu.mass_eq hc 3) (.inl ⟨m2, rfl⟩) (.inl ⟨m3, rfl⟩)
    simp only [AAuu.termMM, AAuu.formMM, v3z0z1, v0z2z3]
  refine ⟨n0, n1, fun n hn => ?_, fun n hn => ?_, ?_⟩
  · simp [hd] at hn
  · simp [hd] at hn
    rcases hn with rfl | rfl
    · exact n0
    · exact n1
  intro s2 s3 h0 h1
  match h0, h1 with
  | 1, 1 => exact norm_plus (amPP s2 s3)
  | 1, 0 => exact norm_plus (amPM s2 s3)
  | 0, 1 => exact norm_plus (amMP s2 s3)
  | 0, 0 => exact norm_plus (amMM s2 s3)

variable [FPEnv] in
theorem AAuu.agrees : AAuu.Agrees := by
  refine agrees_of (D := []) (E := []) (by simp [all, AAuu]) (by decide +kernel) (by decide) (by decide +kernel) (fun c hc hh => ⟨List.forall_mem_nil _, List.forall_mem_nil _⟩) (fun c hc i => AAuu.mass_eq hc i) (by decide +kernel) ?_
  intro c p u ε hc hh hw h0 hs hb hr hu
  have he : AAuu.react.ends = [2] := by decide
  have ht : AAuu.react.starts = [3] := by decide
  have hB : AAuu.react.bosons = [0, 1] := by decide
  obtain ⟨n0, n1, d1, d2, am⟩ := AAuu.amps hc hh h0 hs hb hr hu
  refine ⟨d1, d2, ?_⟩
  show meaning (AAuu.N c p) .r Cls.AAuu.methods Cls.AAuu.amp2 [] = _
  have s0 : AAuu.react.states 0 = 2 := by decide +kernel
  have s1 : AAuu.react.states 1 = 2 := by decide +kernel
  have sy : AAuu.react.symmetry = 1 := by decide
  have p0 : AAuu.react.spins 0 = {0, 1} := rfl
  have p1 : AAuu.react.spins 1 = {0, 1} := rfl
  have p2 : AAuu.react.spins 2 = {0, 1} := rfl
  have p3 : AAuu.react.spins 3 = {0, 1} := rfl
  have E0 : AAuu.react.codeE c p 0 = lightE (legA (p 0) 0 0, legS (p 0) 0 1) := rfl
  have E1 : AAuu.react.codeE c p 1 = lightE (legA (p 1) 0 0, legS (p 1) 0 1) := rfl
  have hG : AAuu.react.Gauge c p := (AAuu.react.gauge_line he ht hB hh (by decide) (fun n => onShell_msq (hs n)) hb hr (fun n m h h2 => absurd (And.intro h h2) (by revert n m; decide)) (fun _ => ⟨rfl, rfl⟩) (fun _ => ⟨rfl, rfl⟩))
  have lc : AAuu.react.lineColours 2 3 = 3 := by decide +kernel
  rw [AAuu.value, AAuu.react.squared_line he ht hB (by decide) hs h0 (fun _ b _ hb _ => (boson_pos hc hh hb).ne') hG (E := AAuu.react.codeE c p) (fun n b hl => AAuu.react.codeE_polarised hs h0 hu (fun b hb => (boson_pos hc hh hb).ne') n b hl) hu, sum_colours, lc, s0, s1, sy]
  simp only [sumV_sum, sumJ_sum, sumW_sum, am, p0, p1, p2, p3, E0, E1, Finset.sum_singleton, sum_two, Matrix.cons_val_zero, Matrix.cons_val_one, Matrix.cons_val, two_castSucc]
  try simp only [← Finset.mul_sum]
  push_cast
  first | ring1 | ring_nf

/-! ### AAdd -/

/-- what the methods of the class see -/
noncomputable abbrev AAdd.N [FPEnv] (c : Constants) (p : Nat → V4 ℝ) : Env := AAdd.proc.env (AAdd.rho c) p
/-- `amp` for a photon of positive helicity and a photon of positive helicity (SM/AAdd.cpp) -/
noncomputable def AAdd.termPP (N : Env) (j3 j4 : Int) : ℂ :=
  ((((((((((((((2 : Nat) : ℝ) * N.r 0) * N.r 0) * N.r 1) * N.r 1) * N.r 2) : ℝ) : ℂ) * N.v 2 []) * N.v 2 []) * N.v 1 [j3, j4]) / N.c 0) / N.c 1)
/-- the same with spinors in place of their spins -/
noncomputable def AAdd.formPP (N : Env) (p : Nat → V4 ℝ) (z0 z1 z2 z3 : Pair) : ℂ :=
  ((((((((((((((2 : Nat) : ℝ) * N.r 0) * N.r 0) * N.r 1) * N.r 1) * N.r 2) : ℝ) : ℂ) * (sb z0.2 z1.2)) * (sb z0.2 z1.2)) * (ab z2.1 z3.1)) / N.c 0) / N.c 1)
/-- `amp` for a photon of positive helicity and a photon of negative helicity (SM/AAdd.cpp) -/
noncomputable def AAdd.termPM (N : Env) (j3 j4 : Int) : ℂ :=
  (((((((((((-((2 : Nat) : ℝ)) * N.r 0) * N.r 0) * N.r 1) * N.r 1) : ℝ) : ℂ) * ((N.v 4 [j3] * N.v 7 [j4]) + (N.v 10 [j4] * N.v 9 [j3]))) * N.v 12 []) / N.c 0) / N.c 1)
/-- the same with spinors in place of their spins -/
noncomputable def AAdd.formPM (N : Env) (p : Nat → V4 ℝ) (z0 z1 z2 z3 : Pair) : ℂ :=
  (((((((((((-((2 : Nat) : ℝ)) * N.r 0) * N.r 0) * N.r 1) * N.r 1) : ℝ) : ℂ) * (((sb z0.2 z2.2) * (ab z1.1 z3.1)) + ((sb z0.2 z3.2) * (ab z1.1 z2.1)))) * (mb z0.2 (p 2) z1.1)) / N.c 0) / N.c 1)
/-- `amp` for a photon of negative helicity and a photon of positive helicity (SM/AAdd.cpp) -/
noncomputable def AAdd.termMP (N : Env) (j3 j4 : Int) : ℂ :=
  (((((((((((-((2 : Nat) : ℝ)) * N.r 0) * N.r 0) * N.r 1) * N.r 1) : ℝ) : ℂ) * ((N.v 5 [j3] * N.v 6 [j4]) + (N.v 11 [j4] * N.v 8 [j3]))) * N.v 13 []) / N.c 0) / N.c 1)
/-- the same with spinors in place of their spins -/
noncomputable def AAdd.formMP (N : Env) (p : Nat → V4 ℝ) (z0 z1 z2 z3 : Pair) : ℂ :=
  (((((((((((-((2 : Nat) : ℝ)) * N.r 0) * N.r 0) * N.r 1) * N.r 1) : ℝ) : ℂ) * (((ab z0.1 z2.1) * (sb z1.2 z3.2)) + ((ab z0.1 z3.1) * (sb z1.2 z2.2)))) * (mb z1.2 (p 2) z0.1)) / N.c 0) / N.c 1)
/-- `amp` for a photon of negative helicity and a photon of negative helicity (SM/AAdd.cpp) -/
noncomputable def AAdd.termMM (N : Env) (j3 j4 : Int) : ℂ :=
  ((((((((((((((2 : Nat) : ℝ) * N.r 0) * N.r 0) * N.r 1) * N.r 1) * N.r 2) : ℝ) : ℂ) * N.v 3 []) * N.v 3 []) * N.v 0 [j3, j4]) / N.c 0) / N.c 1)
/-- the same with spinors in place of their spins -/
noncomputable def AAdd.formMM (N : Env) (p : Nat → V4 ℝ) (z0 z1 z2 z3 : Pair) : ℂ :=
  ((((((((((((((2 : Nat) : ℝ) * N.r 0) * N.r 0) * N.r 1) * N.r 1) * N.r 2) : ℝ) : ℂ) * (ab z0.1 z1.1)) * (ab z0.1 z1.1)) * (sb z2.2 z3.2)) / N.c 0) / N.c 1)
theorem AAdd.keyPP {c : Constants} {p : Nat → V4 ℝ} {N : Env} (hc : c.Physical) (hb : Balanced p) (r0 : N.r 0 = c.e) (r1 : N.r 1 = ((-((1 : Nat) : ℝ)) / ((3 : Nat) : ℝ))) (r2 : N.r 2 = (c.mass .d)) (d0 : ((msq (plus (backward (p 3)) (p 1)) - c.mass .d ^ 2 : ℝ) : ℂ) = N.c 0) (n0 : N.c 0 ≠ 0) (d1 : ((msq (plus (backward (p 3)) (p 0)) - c.mass .d ^ 2 : ℝ) : ℂ) = N.c 1) (n1 : N.c 1 ≠ 0) {z0 z1 z2 z3 : Pair} (b2 : Bold (p 2) (c.mass .d) z2) (b3 : Bold (p 3) (c.mass .d) z3) (l0 : Light (p 0) z0) (l1 : Light (p 1) z1) (e02 : mb z0.2 (p 2) z0.1 = -N.c 0) (e03 : mb z0.2 (p 3) z0.1 = -N.c 1) (e12 : mb z1.2 (p 2) z1.1 = -N.c 1) (e13 : mb z1.2 (p 3) z1.1 = -N.c 0) (q2 : msq (p 2) = (c.mass .d) ^ 2) (q3 : msq (p 3) = (c.mass .d) ^ 2) (ρ0 ρ1 : V2) :
    AAdd.formPP N p z0 z1 z2 z3 * ab ρ0 z0.1 * ab ρ1 z1.1 = ((√2 : ℝ) * ((√2 : ℝ) * (1 : ℂ))) * AAdd.react.bare c p 2 3 0 1 z2 z3 (pv ρ0 z0.2) (pv ρ1 z1.2) := by
  rw [AAdd.react.bare_parts c p (i := 2) (j := 3) (a := 0) (b := 1) (x := .photon) (y := .photon) (k := (p 0)) (k' := (p 1)) (fun _ => rfl) (fun _ => rfl) (f := .d) (g := .d) rfl rfl (l := (backward (p 3))) rfl (e := 1) (e' := -1) (if_neg Bool.false_ne_true) (if_pos rfl)]
  rw [compton_vv (f := .d) (x := .d) (g := .d) (h := (rfl : Spec.after .photon Flavour.d = some Flavour.d)) (h' := (rfl : Spec.after .photon Flavour.d = some Flavour.d)) (ha := by simp) (hb := by simp)]
  rw [compton_vv (f := .d) (x := .d) (g := .d) (h := (rfl : Spec.after .photon Flavour.d = some Flavour.d)) (h' := (rfl : Spec.after .photon Flavour.d = some Flavour.d)) (ha := by simp) (hb := by simp)]
  rw [annihilation_none c _ _ (by rfl) (by simp), star_zero, add_zero, AAdd.formPP]
  simp only [d0, d1, lineV_pv, lineV_four, contract_four_pv, contract_pv, mb_plus, mb_backward]
  have i0 := mb_schouten_right z0.2 (p 2) z0.1 z2.1 ρ1
  have i1 := mb_schouten_right z0.2 (p 2) z0.1 z3.1 ρ0
  have i2 := mb_schouten_right z0.2 (p 2) z0.1 z2.1 z3.1
  have i3 := ab_schouten z2.1 ρ0 ρ1 z0.1
  have i4 := ab_schouten z3.1 ρ0 ρ1 z2.1
  have i5 := ab_schouten z3.1 ρ0 ρ1 z0.1
  have i6 := sb_schouten z1.2 z2.2 z3.2 z0.2
  have i7 := mb_schouten_right z0.2 (p 2) z0.1 z2.1 ρ0
  have i8 := mb_schouten_right z1.2 (p 2) z0.1 z2.1 ρ0
  have i9 := mb_schouten_right z0.2 (p 2) z0.1 ρ0 ρ1
  have i10 := mb_schouten_right z0.2 (p 3) z0.1 z2.1 ρ0
  have i11 := mb_schouten_left z0.2 z1.2 z2.2 (p 2) z0.1
  have i12 := mb_schouten_right z0.2 (p 3) z0.1 z3.1 ρ1
  have i13 := mb_schouten_left z0.2 z1.2 z2.2 (p 2) ρ0
  have i14 := ab_schouten z2.1 z3.1 ρ0 z0.1
  have i15 := mb_schouten_right z0.2 (p 2) z0.1 z3.1 ρ1
  have i16 := mb_schouten_right z1.2 (p 2) z0.1 z1.1 ρ0
  have i17 := ab_schouten z1.1 z3.1 ρ1 z0.1
  have i18 := mb_schouten_right z0.2 (p 2) z2.1 ρ0 ρ1
  have i19 := mb_schouten_left z0.2 z1.2 z3.2 (p 2) z0.1
  have i20 := ab_schouten z1.1 z2.1 ρ1 z0.1
  have i21 := ab_schouten z1.1 ρ0 ρ1 z0.1
  have i22 := mb_schouten_right z0.2 (p 3) z0.1 z3.1 ρ0
  have i23 := mb_schouten_right z0.2 (p 2) z0.1 z1.1 z2.1
  have i24 := ab_schouten z2.1 ρ0 ρ1 z1.1
  have i25 := mb_schouten_right z0.2 (p 2) z0.1 z1.1 ρ0
  have i26 := mb_schouten_right z0.2 (p 2) z0.1 z1.1 ρ1
  have i27 := mb_schouten_right z1.2 (p 2) z0.1 z1.1 z3.1
  have i28 := mb_schouten_right z2.2 (p 3) z0.1 z3.1 ρ0
  have i29 := ab_schouten z1.1 z3.1 ρ0 z0.1
  have i30 := mb_schouten_right z0.2 (p 3) z0.1 z2.1 ρ1
  have i31 := mb_schouten_right z2.2 (p 3) z0.1 z3.1 ρ1
  have i32 := ab_schouten z3.1 ρ0 ρ1 z1.1
  have i33 := mb_schouten_left z0.2 z1.2 z2.2 (p 2) z1.1
  have i34 := mb_schouten_right z1.2 (p 2) z0.1 z3.1 ρ0
  simp only [l0.mb_eq, l1.mb_eq, b2.mb_left, b2.mb_right, b3.mb_left, b3.mb_right, e02, e03, e12, e13, mb_three hb z0.2 z1.1, mb_three hb z0.2 z2.1, mb_two hb z0.2 z3.1, mb_three hb z0.2 ρ0, mb_three hb z0.2 ρ1, mb_three hb z1.2 z0.1, mb_three hb z1.2 z2.1, mb_two hb z1.2 z3.1, mb_three hb z1.2 ρ0, mb_three hb z1.2 ρ1, mb_three hb z2.2 z0.1, mb_three hb z2.2 z1.1, mb_three hb z2.2 z2.1, mb_three hb z2.2 ρ0, mb_three hb z2.2 ρ1, mb_two hb z3.2 z0.1, mb_two hb z3.2 z1.1, mb_two hb z3.2 z3.1, mb_two hb z3.2 ρ0, mb_two hb z3.2 ρ1, ab_self, sb_self] at i0 i1 i2 i3 i4 i5 i6 i7 i8 i9 i10 i11 i12 i13 i14 i15 i16 i17 i18 i19 i20 i21 i22 i23 i24 i25 i26 i27 i28 i29 i30 i31 i32 i33 i34 ⊢
  simp only [ab_swap z0.1 z1.1, ab_swap z0.1 z2.1, ab_swap z0.1 z3.1, ab_swap z0.1 ρ0, ab_swap z0.1 ρ1, ab_swap z1.1 z2.1, ab_swap z1.1 z3.1, ab_swap z1.1 ρ0, ab_swap z1.1 ρ1, ab_swap z2.1 z3.1, ab_swap z2.1 ρ0, ab_swap z2.1 ρ1, ab_swap z3.1 ρ0, ab_swap z3.1 ρ1, ab_swap ρ0 ρ1, sb_swap z0.2 z1.2, sb_swap z0.2 z2.2, sb_swap z0.2 z3.2, sb_swap z1.2 z2.2, sb_swap z1.2 z3.2, sb_swap z2.2 z3.2] at i0 i1 i2 i3 i4 i5 i6 i7 i8 i9 i10 i11 i12 i13 i14 i15 i16 i17 i18 i19 i20 i21 i22 i23 i24 i25 i26 i27 i28 i29 i30 i31 i32 i33 i34 ⊢
  simp only [r0, r1, r2, Constants.hL, Constants.hR, Constants.gL, Constants.gR, Constants.yuk, Constants.invVev, Flavour.charge_d, Flavour.isospin_d, ← c.mz]
  have xMW : (c.MW : ℂ) ≠ 0 := by exact_mod_cast hc.MW
  have xSW : (c.SW : ℂ) ≠ 0 := by exact_mod_cast hc.SW
  have xCW : (c.CW : ℂ) ≠ 0 := by exact_mod_cast hc.CW
  have x2 : ((√2 : ℝ) : ℂ) ≠ 0 := by exact_mod_cast (Real.sqrt_pos.2 two_pos).ne'
  have x22 : ((√2 : ℝ) : ℂ) ^ 2 = 2 := by rw [← Complex.ofReal_pow, Real.sq_sqrt two_pos.le]; norm_num
  have x23 : ((√2 : ℝ) : ℂ) ^ 3 = 2 * ((√2 : ℝ) : ℂ) := by rw [← x22]; ring
  have x24 : ((√2 : ℝ) : ℂ) ^ 4 = 4 := by linear_combination (((√2 : ℝ) : ℂ) ^ 2 + 2) * x22
  push_cast at i0 i1 i2 i3 i4 i5 i6 i7 i8 i9 i10 i11 i12 i13 i14 i15 i16 i17 i18 i19 i20 i21 i22 i23 i24 i25 i26 i27 i28 i29 i30 i31 i32 i33 i34 ⊢
  have y0 := mul_inv_cancel₀ n0
  have y1 := mul_inv_cancel₀ n1
  linear_combination ((((-2) * ((c.e : ℂ)) ^ 2 * ((c.mass .d : ℂ)) * (ab z3.1 ρ0) * (sb z0.2 z1.2) + (-2) * ((c.e : ℂ)) ^ 2 * (mb z1.2 (p 2) ρ0) * (sb z0.2 z3.2)) * i0 + ((-2) * ((c.e : ℂ)) ^ 2 * ((c.mass .d : ℂ)) * (ab z2.1 ρ1) * (sb z0.2 z1.2) + (2) * ((c.e : ℂ)) ^ 2 * (ab z1.1 ρ1) * (sb z0.2 z1.2) * (sb z1.2 z2.2) + (-4) * ((c.e : ℂ)) ^ 2 * (mb z0.2 (p 2) ρ1) * (sb z1.2 z2.2)) * i1 + ((-2) * ((c.e : ℂ)) ^ 2 * ((c.mass .d : ℂ)) * (ab ρ0 ρ1) * (sb z0.2 z1.2)) * i2 + ((2) * ((c.e : ℂ)) ^ 2 * ((c.mass .d : ℂ)) * (ab z1.1 z3.1) * (sb z0.2 z1.2) ^ 2 + (2) * ((c.e : ℂ)) ^ 2 * ((c.mass .d : ℂ)) ^ 2 * (sb z0.2 z1.2) * (sb z0.2 z3.2) + (-2) * ((c.e : ℂ)) ^ 2 * (mb z0.2 (p 2) z1.1) * (sb z0.2 z1.2) * (sb z1.2 z3.2)) * i3 + ((-2) * ((c.e : ℂ)) ^ 2 * ((c.mass .d : ℂ)) * (N.c 0) * (sb z0.2 z1.2)) * i4 + ((2) * ((c.e : ℂ)) ^ 2 * ((c.mass .d : ℂ)) ^ 2 * (sb z0.2 z1.2) * (sb z0.2 z2.2) + (2) * ((c.e : ℂ)) ^ 2 * (N.c 1) * (sb z0.2 z1.2) * (sb z0.2 z2.2)) * i5 + ((2) * ((c.e : ℂ)) ^ 2 * ((c.mass .d : ℂ)) * (N.c 0) * (ab ρ0 ρ1) + (2) * ((c.e : ℂ)) ^ 2 * ((c.mass .d : ℂ)) * (ab z0.1 ρ0) * (ab z1.1 ρ1) * (sb z0.2 z1.2) + (-6) * ((c.e : ℂ)) ^ 2 * ((c.mass .d : ℂ)) * (ab z0.1 ρ0) * (mb z0.2 (p 2) ρ1) + (4) * ((c.e : ℂ)) ^ 2 * ((c.mass .d : ℂ)) * (ab z0.1 ρ1) * (mb z0.2 (p 2) ρ0)) * i6 + ((4) * ((c.e : ℂ)) ^ 2 * ((c.mass .d : ℂ)) * (ab z3.1 ρ1) * (sb z0.2 z1.2) + (-2) * ((c.e : ℂ)) ^ 2 * (mb z0.2 (p 2) ρ1) * (sb z1.2 z3.2)) * i7 + ((2) * ((c.e : ℂ)) ^ 2 * (mb z0.2 (p 2) ρ1) * (sb z0.2 z3.2)) * i8 + ((2) * ((c.e : ℂ)) ^ 2 * ((c.mass .d : ℂ)) * (sb z0.2 z1.2) * (sb z2.2 z3.2) + (-2) * ((c.e : ℂ)) ^ 2 * ((c.mass .d : ℂ)) * (sb z0.2 z2.2) * (sb z1.2 z3.2)) * i9 + ((2) * ((c.e : ℂ)) ^ 2 * ((c.mass .d : ℂ)) * (ab z3.1 ρ1) * (sb z0.2 z1.2)) * i10 + ((2) * ((c.e : ℂ)) ^ 2 * (ab z1.1 ρ0) * (ab z3.1 ρ1) * (sb z0.2 z1.2) + (2) * ((c.e : ℂ)) ^ 2 * (ab z3.1 ρ0) * (mb z0.2 (p 2) ρ1)) * i11 + ((-2) * ((c.e : ℂ)) ^ 2 * (ab z0.1 ρ0) * (sb z0.2 z1.2) * (sb z0.2 z2.2) + (-2) * ((c.e : ℂ)) ^ 2 * (mb z1.2 (p 2) ρ0) * (sb z0.2 z2.2)) * i12 + ((4) * ((c.e : ℂ)) ^ 2 * (N.c 0) * (ab z3.1 ρ1)) * i13 + ((2) * ((c.e : ℂ)) ^ 2 * ((c.mass .d : ℂ)) * (ab z1.1 ρ1) * (sb z0.2 z1.2) ^ 2) * i14 + ((2) * ((c.e : ℂ)) ^ 2 * ((c.mass .d : ℂ)) * (ab z2.1 ρ0) * (sb z0.2 z1.2) + (4) * ((c.e : ℂ)) ^ 2 * (mb z0.2 (p 2) ρ0) * (sb z1.2 z2.2) + (-4) * ((c.e : ℂ)) ^ 2 * (mb z1.2 (p 2) ρ0) * (sb z0.2 z2.2)) * i15 + ((4) * ((c.e : ℂ)) ^ 2 * (ab z3.1 ρ1) * (sb z0.2 z1.2) * (sb z0.2 z2.2)) * i16 + ((4) * ((c.e : ℂ)) ^ 2 * (mb z0.2 (p 2) ρ0) * (sb z0.2 z1.2) * (sb z1.2 z2.2) + (-4) * ((c.e : ℂ)) ^ 2 * (mb z1.2 (p 2) ρ0) * (sb z0.2 z1.2) * (sb z0.2 z2.2)) * i17 + ((2) * ((c.e : ℂ)) ^ 2 * (N.c 1) * (sb z1.2 z3.2)) * i18 + ((2) * ((c.e : ℂ)) ^ 2 * (ab z2.1 ρ0) * (mb z0.2 (p 2) ρ1)) * i19 + ((-2) * ((c.e : ℂ)) ^ 2 * (mb z0.2 (p 2) ρ0) * (sb z0.2 z1.2) * (sb z1.2 z3.2)) * i20 + ((-2) * ((c.e : ℂ)) ^ 2 * (ab z0.1 z3.1) * (sb z0.2 z1.2) ^ 2 * (sb z0.2 z2.2)) * i21 + ((2) * ((c.e : ℂ)) ^ 2 * (ab z0.1 ρ1) * (sb z0.2 z1.2) * (sb z0.2 z2.2)) * i22 + ((-2) * ((c.e : ℂ)) ^ 2 * (ab ρ0 ρ1) * (sb z0.2 z1.2) * (sb z1.2 z3.2)) * i23 + ((-2) * ((c.e : ℂ)) ^ 2 * (N.c 0) * (sb z0.2 z1.2) * (sb z1.2 z3.2)) * i24 + ((2) * ((c.e : ℂ)) ^ 2 * (ab z2.1 ρ1) * (sb z0.2 z1.2) * (sb z1.2 z3.2) + (-2) * ((c.e : ℂ)) ^ 2 * (ab z3.1 ρ1) * (sb z0.2 z1.2) * (sb z1.2 z2.2)) * i25 + ((-2) * ((c.e : ℂ)) ^ 2 * (ab z2.1 ρ0) * (sb z0.2 z1.2) * (sb z1.2 z3.2)) * i26 + ((-2) * ((c.e : ℂ)) ^ 2 * (ab ρ0 ρ1) * (sb z0.2 z1.2) * (sb z0.2 z2.2)) * i27 + ((-2) * ((c.e : ℂ)) ^ 2 * (ab z1.1 ρ1) * (sb z0.2 z1.2) ^ 2 + (4) * ((c.e : ℂ)) ^ 2 * (mb z0.2 (p 2) ρ1) * (sb z0.2 z1.2)) * i28 + ((2) * ((c.e : ℂ)) ^ 2 * (ab z1.1 ρ1) * (sb z0.2 z1.2) ^ 2 * (sb z1.2 z2.2) + (-4) * ((c.e : ℂ)) ^ 2 * (mb z0.2 (p 2) ρ1) * (sb z0.2 z1.2) * (sb z1.2 z2.2)) * i29 + ((-2) * ((c.e : ℂ)) ^ 2 * (mb z0.2 (p 2) ρ0) * (sb z1.2 z3.2)) * i30 + ((-2) * ((c.e : ℂ)) ^ 2 * (mb z0.2 (p 2) ρ0) * (sb z0.2 z1.2)) * i31 + ((2) * ((c.e : ℂ)) ^ 2 * (mb z1.2 (p 2) z0.1) * (sb z0.2 z1.2) * (sb z0.2 z2.2)) * i32 + ((-2) * ((c.e : ℂ)) ^ 2 * (ab z0.1 ρ0) * (ab z3.1 ρ1) * (sb z0.2 z1.2)) * i33 + ((-2) * ((c.e : ℂ)) ^ 2 * (ab z1.1 ρ1) * (sb z0.2 z1.2) * (sb z0.2 z2.2) + (2) * ((c.e : ℂ)) ^ 2 * (mb z0.2 (p 2) ρ1) * (sb z0.2 z2.2)) * i34)) * ((1) * ((N.c 0)⁻¹) * ((N.c 1)⁻¹) / (9)) + ((-2) * ((c.e : ℂ)) ^ 2 * ((c.mass .d : ℂ)) * ((N.c 1)⁻¹) * (ab z2.1 ρ1) * (ab z3.1 ρ0) * (sb z0.2 z1.2) / (9) + (-2) * ((c.e : ℂ)) ^ 2 * ((c.mass .d : ℂ)) * ((N.c 1)⁻¹) * (ab ρ0 ρ1) * (sb z0.2 z3.2) * (sb z1.2 z2.2) / (9) + (2) * ((c.e : ℂ)) ^ 2 * ((N.c 1)⁻¹) * (ab z1.1 ρ1) * (ab z3.1 ρ0) * (sb z0.2 z1.2) * (sb z1.2 z2.2) / (9) + (-2) * ((c.e : ℂ)) ^ 2 * ((N.c 1)⁻¹) * (ab z2.1 ρ1) * (mb z1.2 (p 2) ρ0) * (sb z0.2 z3.2) / (9) + (-2) * ((c.e : ℂ)) ^ 2 * ((N.c 1)⁻¹) * (ab z3.1 ρ0) * (mb z0.2 (p 2) ρ1) * (sb z1.2 z2.2) / (9)) * y0 + ((2) * ((c.e : ℂ)) ^ 2 * ((c.mass .d : ℂ)) * ((N.c 0)⁻¹) * (ab z2.1 ρ0) * (ab z3.1 ρ1) * (sb z0.2 z1.2) / (9) + (2) * ((c.e : ℂ)) ^ 2 * ((c.mass .d : ℂ)) * ((N.c 0)⁻¹) * (ab ρ0 ρ1) * (sb z0.2 z2.2) * (sb z1.2 z3.2) / (9) + (-2) * ((c.e : ℂ)) ^ 2 * ((N.c 0)⁻¹) * (ab z0.1 ρ0) * (ab z3.1 ρ1) * (sb z0.2 z1.2) * (sb z0.2 z2.2) / (9) + (-2) * ((c.e : ℂ)) ^ 2 * ((N.c 0)⁻¹) * (ab z2.1 ρ0) * (mb z0.2 (p 2) ρ1) * (sb z1.2 z3.2) / (9) + (-2) * ((c.e : ℂ)) ^ 2 * ((N.c 0)⁻¹) * (ab z3.1 ρ1) * (mb z1.2 (p 2) ρ0) * (sb z0.2 z2.2) / (9)) * y1 + ((-1) * ((c.e : ℂ)) ^ 2 * ((c.mass .d : ℂ)) * ((N.c 0)⁻¹) * (ab z2.1 ρ0) * (ab z3.1 ρ1) * (sb z0.2 z1.2) / (9) + (-1) * ((c.e : ℂ)) ^ 2 * ((c.mass .d : ℂ)) * ((N.c 0)⁻¹) * (ab ρ0 ρ1) * (sb z0.2 z2.2) * (sb z1.2 z3.2) / (9) + (1) * ((c.e : ℂ)) ^ 2 * ((c.mass .d : ℂ)) * ((N.c 1)⁻¹) * (ab z2.1 ρ1) * (ab z3.1 ρ0) * (sb z0.2 z1.2) / (9) + (1) * ((c.e : ℂ)) ^ 2 * ((c.mass .d : ℂ)) * ((N.c 1)⁻¹) * (ab ρ0 ρ1) * (sb z0.2 z3.2) * (sb z1.2 z2.2) / (9) + (1) * ((c.e : ℂ)) ^ 2 * ((N.c 0)⁻¹) * (ab z0.1 ρ0) * (ab z3.1 ρ1) * (sb z0.2 z1.2) * (sb z0.2 z2.2) / (9) + (1) * ((c.e : ℂ)) ^ 2 * ((N.c 0)⁻¹) * (ab z2.1 ρ0) * (mb z0.2 (p 2) ρ1) * (sb z1.2 z3.2) / (9) + (1) * ((c.e : ℂ)) ^ 2 * ((N.c 0)⁻¹) * (ab z3.1 ρ1) * (mb z1.2 (p 2) ρ0) * (sb z0.2 z2.2) / (9) + (-1) * ((c.e : ℂ)) ^ 2 * ((N.c 1)⁻¹) * (ab z1.1 ρ1) * (ab z3.1 ρ0) * (sb z0.2 z1.2) * (sb z1.2 z2.2) / (9) + (1) * ((c.e : ℂ)) ^ 2 * ((N.c 1)⁻¹) * (ab z2.1 ρ1) * (mb z1.2 (p 2) ρ0) * (sb z0.2 z3.2) / (9) + (1) * ((c.e : ℂ)) ^ 2 * ((N.c 1)⁻¹) * (ab z3.1 ρ0) * (mb z0.2 (p 2) ρ1) * (sb z1.2 z2.2) / (9)) * x22
theorem AAdd.keyPM {c : Constants} {p : Nat → V4 ℝ} {N : Env} (hc : c.Physical) (hb : Balanced p) (r0 : N.r 0 = c.e) (r1 : N.r 1 = ((-((1 : Nat) : ℝ)) / ((3 : Nat) : ℝ))) (d0 : ((msq (plus (backward (p 3)) (p 1)) - c.mass .d ^ 2 : ℝ) : ℂ) = N.c 0) (n0 : N.c 0 ≠ 0) (d1 : ((msq (plus (backward (p 3)) (p 0)) - c.mass .d ^ 2 : ℝ) : ℂ) = N.c 1) (n1 : N.c 1 ≠ 0) {z0 z1 z2 z3 : Pair} (b2 : Bold (p 2) (c.mass .d) z2) (b3 : Bold (p 3) (c.mass .d) z3) (l0 : Light (p 0) z0) (l1 : Light (p 1) z1) (e02 : mb z0.2 (p 2) z0.1 = -N.c 0) (e03 : mb z0.2 (p 3) z0.1 = -N.c 1) (e12 : mb z1.2 (p 2) z1.1 = -N.c 1) (e13 : mb z1.2 (p 3) z1.1 = -N.c 0) (q2 : msq (p 2) = (c.mass .d) ^ 2) (q3 : msq (p 3) = (c.mass .d) ^ 2) (ρ0 ρ1 : V2) :
    AAdd.formPM N p z0 z1 z2 z3 * ab ρ0 z0.1 * sb ρ1 z1.2 = ((√2 : ℝ) * ((√2 : ℝ) * (1 : ℂ))) * AAdd.react.bare c p 2 3 0 1 z2 z3 (pv ρ0 z0.2) (pv z1.1 ρ1) := by
  rw [AAdd.react.bare_parts c p (i := 2) (j := 3) (a := 0) (b := 1) (x := .photon) (y := .photon) (k := (p 0)) (k' := (p 1)) (fun _ => rfl) (fun _ => rfl) (f := .d) (g := .d) rfl rfl (l := (backward (p 3))) rfl (e := 1) (e' := -1) (if_neg Bool.false_ne_true) (if_pos rfl)]
  rw [compton_vv (f := .d) (x := .d) (g := .d) (h := (rfl : Spec.after .photon Flavour.d = some Flavour.d)) (h' := (rfl : Spec.after .photon Flavour.d = some Flavour.d)) (ha := by simp) (hb := by simp)]
  rw [compton_vv (f := .d) (x := .d) (g := .d) (h := (rfl : Spec.after .photon Flavour.d = some Flavour.d)) (h' := (rfl : Spec.after .photon Flavour.d = some Flavour.d)) (ha := by simp) (hb := by simp)]
  rw [annihilation_none c _ _ (by rfl) (by simp), star_zero, add_zero, AAdd.formPM]
  simp only [d0, d1, lineV_pv, lineV_four, contract_four_pv, contract_pv, mb_plus, mb_backward]
  have i0 := mb_schouten_right z0.2 (p 3) z0.1 z1.1 z2.1
  have i1 := mb_schouten_right z0.2 (p 2) z1.1 z2.1 ρ0
  have i2 := mb_schouten_left z0.2 z3.2 ρ1 (p 2) z0.1
  have i3 := mb_schouten_right z0.2 (p 2) z0.1 z1.1 z2.1
  have i4 := mb_schouten_right z2.2 (p 3) z0.1 z1.1 z3.1
  have i5 := sb_schouten z2.2 z3.2 ρ1 z0.2
  have i6 := sb_schouten z1.2 z2.2 ρ1 z0.2
  have i7 := ab_schouten z1.1 z3.1 ρ0 z0.1
  have i8 := sb_schouten z1.2 z3.2 ρ1 z0.2
  have i9 := mb_schouten_right z2.2 (p 3) z0.1 z3.1 ρ0
  have i10 := mb_schouten_right z1.2 (p 2) z0.1 z1.1 z3.1
  have i11 := sb_schouten z1.2 z2.2 z3.2 z0.2
  have i12 := mb_schouten_right z0.2 (p 2) z0.1 z1.1 z3.1
  have i13 := mb_schouten_left z0.2 z2.2 ρ1 (p 2) z1.1
  have i14 := mb_schouten_left z0.2 z1.2 ρ1 (p 2) z1.1
  have i15 := mb_schouten_right z0.2 (p 2) z0.1 z3.1 ρ0
  have i16 := mb_schouten_left z0.2 z1.2 ρ1 (p 2) z0.1
  have i17 := mb_schouten_right ρ1 (p 2) z0.1 z1.1 z3.1
  have i18 := mb_schouten_right ρ1 (p 2) z0.1 z1.1 ρ0
  have i19 := mb_schouten_right ρ1 (p 2) z0.1 z2.1 ρ0
  have i20 := mb_schouten_left z0.2 z2.2 ρ1 (p 2) z0.1
  have i21 := ab_schouten z2.1 z3.1 ρ0 z1.1
  have i22 := ab_schouten z2.1 z3.1 ρ0 z0.1
  have i23 := mb_schouten_right z0.2 (p 2) z0.1 z1.1 ρ0
  have i24 := ab_schouten z1.1 z2.1 z3.1 z0.1
  have i25 := ab_schouten z1.1 z2.1 ρ0 z0.1
  have i26 := mb_schouten_right z0.2 (p 3) z0.1 z1.1 z3.1
  have i27 := mb_schouten_right ρ1 (p 2) z0.1 z3.1 ρ0
  have i28 := mb_schouten_right z0.2 (p 2) z1.1 z3.1 ρ0
  have i29 := mb_schouten_left z0.2 z1.2 z2.2 (p 2) z1.1
  simp only [l0.mb_eq, l1.mb_eq, b2.mb_left, b2.mb_right, b3.mb_left, b3.mb_right, e02, e03, e12, e13, mb_three hb z0.2 z1.1, mb_three hb z0.2 z2.1, mb_two hb z0.2 z3.1, mb_three hb z0.2 ρ0, mb_three hb z1.2 z0.1, mb_three hb z1.2 z2.1, mb_two hb z1.2 z3.1, mb_three hb z1.2 ρ0, mb_three hb z2.2 z0.1, mb_three hb z2.2 z1.1, mb_three hb z2.2 z2.1, mb_three hb z2.2 ρ0, mb_two hb z3.2 z0.1, mb_two hb z3.2 z1.1, mb_two hb z3.2 z3.1, mb_two hb z3.2 ρ0, mb_three hb ρ1 z0.1, mb_three hb ρ1 z1.1, mb_three hb ρ1 z2.1, mb_two hb ρ1 z3.1, mb_three hb ρ1 ρ0, ab_self, sb_self] at i0 i1 i2 i3 i4 i5 i6 i7 i8 i9 i10 i11 i12 i13 i14 i15 i16 i17 i18 i19 i20 i21 i22 i23 i24 i25 i26 i27 i28 i29 ⊢
  simp only [ab_swap z0.1 z1.1, ab_swap z0.1 z2.1, ab_swap z0.1 z3.1, ab_swap z0.1 ρ0, ab_swap z1.1 z2.1, ab_swap z1.1 z3.1, ab_swap z1.1 ρ0, ab_swap z2.1 z3.1, ab_swap z2.1 ρ0, ab_swap z3.1 ρ0, sb_swap z0.2 z1.2, sb_swap z0.2 z2.2, sb_swap z0.2 z3.2, sb_swap z0.2 ρ1, sb_swap z1.2 z2.2, sb_swap z1.2 z3.2, sb_swap z1.2 ρ1, sb_swap z2.2 z3.2, sb_swap z2.2 ρ1, sb_swap z3.2 ρ1] at i0 i1 i2 i3 i4 i5 i6 i7 i8 i9 i10 i11 i12 i13 i14 i15 i16 i17 i18 i19 i20 i21 i22 i23 i24 i25 i26 i27 i28 i29 ⊢
  simp only [r0, r1, Constants.hL, Constants.hR, Constants.gL, Constants.gR, Constants.yuk, Constants.invVev, Flavour.charge_d, Flavour.isospin_d, ← c.mz]
  have xMW : (c.MW : ℂ) ≠ 0 := by exact_mod_cast hc.MW
  have xSW : (c.SW : ℂ) ≠ 0 := by exact_mod_cast hc.SW
  have xCW : (c.CW : ℂ) ≠ 0 := by exact_mod_cast hc.CW
  have x2 : ((√2 : ℝ) : ℂ) ≠ 0 := by exact_mod_cast (Real.sqrt_pos.2 two_pos).ne'
  have x22 : ((√2 : ℝ) : ℂ) ^ 2 = 2 := by rw [← Complex.ofReal_pow, Real.sq_sqrt two_pos.le]; norm_num
  have x23 : ((√2 : ℝ) : ℂ) ^ 3 = 2 * ((√2 : ℝ) : ℂ) := by rw [← x22]; ring
  have x24 : ((√2 : ℝ) : ℂ) ^ 4 = 4 := by linear_combination (((√2 : ℝ) : ℂ) ^ 2 + 2) * x22
  push_cast at i0 i1 i2 i3 i4 i5 i6 i7 i8 i9 i10 i11 i12 i13 i14 i15 i16 i17 i18 i19 i20 i21 i22 i23 i24 i25 i26 i27 i28 i29 ⊢
  have y0 := mul_inv_cancel₀ n0
  have y1 := mul_inv_cancel₀ n1
  linear_combination ((((-2) * ((c.e : ℂ)) ^ 2 * (mb z0.2 (p 2) ρ0) * (sb z3.2 ρ1)) * i0 + ((-2) * ((c.e : ℂ)) ^ 2 * (N.c 1) * (sb z3.2 ρ1) + (-2) * ((c.e : ℂ)) ^ 2 * (mb ρ1 (p 2) z0.1) * (sb z0.2 z3.2)) * i1 + ((2) * ((c.e : ℂ)) ^ 2 * (ab z1.1 z2.1) * (mb z0.2 (p 2) ρ0)) * i2 + ((-2) * ((c.e : ℂ)) ^ 2 * (mb z0.2 (p 2) ρ0) * (sb z3.2 ρ1) + (2) * ((c.e : ℂ)) ^ 2 * (mb ρ1 (p 2) ρ0) * (sb z0.2 z3.2)) * i3 + ((2) * ((c.e : ℂ)) ^ 2 * (ab z1.1 ρ0) * (sb z0.2 z1.2) * (sb z0.2 ρ1) + (-4) * ((c.e : ℂ)) ^ 2 * (mb z0.2 (p 2) ρ0) * (sb z0.2 ρ1)) * i4 + ((-4) * ((c.e : ℂ)) ^ 2 * ((c.mass .d : ℂ)) * (ab z0.1 z1.1) * (mb z0.2 (p 2) ρ0) + (2) * ((c.e : ℂ)) ^ 2 * ((c.mass .d : ℂ)) * (ab z0.1 ρ0) * (mb z0.2 (p 2) z1.1)) * i5 + ((-2) * ((c.e : ℂ)) ^ 2 * ((c.mass .d : ℂ)) * (ab z0.1 z1.1) * (ab z1.1 ρ0) * (sb z0.2 z3.2) + (-2) * ((c.e : ℂ)) ^ 2 * (ab z0.1 z1.1) * (ab z1.1 z3.1) * (ab z1.1 ρ0) * (sb z0.2 z1.2) + (4) * ((c.e : ℂ)) ^ 2 * (ab z0.1 z1.1) * (ab z1.1 z3.1) * (mb z0.2 (p 2) ρ0) + (4) * ((c.e : ℂ)) ^ 2 * (ab z0.1 z1.1) * (ab z3.1 ρ0) * (mb z0.2 (p 2) z1.1) + (-2) * ((c.e : ℂ)) ^ 2 * (ab z0.1 z3.1) * (ab z1.1 ρ0) * (mb z0.2 (p 2) z1.1)) * i6 + ((-2) * ((c.e : ℂ)) ^ 2 * ((c.mass .d : ℂ)) * (ab z1.1 z2.1) * (sb z0.2 z1.2) * (sb z0.2 ρ1) + (-2) * ((c.e : ℂ)) ^ 2 * (N.c 1) * (sb z0.2 z2.2) * (sb z0.2 ρ1) + (-4) * ((c.e : ℂ)) ^ 2 * (mb z0.2 (p 2) z1.1) * (sb z0.2 z1.2) * (sb z2.2 ρ1) + (-4) * ((c.e : ℂ)) ^ 2 * (mb ρ1 (p 2) z1.1) * (sb z0.2 z1.2) * (sb z0.2 z2.2)) * i7 + ((4) * ((c.e : ℂ)) ^ 2 * ((c.mass .d : ℂ)) * (ab z0.1 z1.1) * (ab z1.1 ρ0) * (sb z0.2 z2.2) + (2) * ((c.e : ℂ)) ^ 2 * (ab z0.1 z1.1) * (ab z1.1 z2.1) * (mb z0.2 (p 2) ρ0)) * i8 + ((-2) * ((c.e : ℂ)) ^ 2 * (mb z0.2 (p 2) z1.1) * (sb z0.2 ρ1)) * i9 + ((-2) * ((c.e : ℂ)) ^ 2 * (ab z1.1 ρ0) * (sb z0.2 z2.2) * (sb z0.2 ρ1)) * i10 + ((2) * ((c.e : ℂ)) ^ 2 * ((c.mass .d : ℂ)) * (ab z0.1 z1.1) * (ab z1.1 ρ0) * (sb z0.2 ρ1)) * i11 + ((-2) * ((c.e : ℂ)) ^ 2 * ((c.mass .d : ℂ)) * (ab z2.1 ρ0) * (sb z0.2 ρ1) + (2) * ((c.e : ℂ)) ^ 2 * (ab z1.1 ρ0) * (sb z0.2 z1.2) * (sb z2.2 ρ1) + (2) * ((c.e : ℂ)) ^ 2 * (ab z1.1 ρ0) * (sb z0.2 z2.2) * (sb z1.2 ρ1) + (-2) * ((c.e : ℂ)) ^ 2 * (mb z0.2 (p 2) ρ0) * (sb z2.2 ρ1)) * i12 + ((-4) * ((c.e : ℂ)) ^ 2 * (N.c 0) * (ab z3.1 ρ0)) * i13 + ((4) * ((c.e : ℂ)) ^ 2 * (ab z0.1 z1.1) * (ab z3.1 ρ0) * (sb z0.2 z2.2)) * i14 + ((-2) * ((c.e : ℂ)) ^ 2 * (mb z0.2 (p 2) z1.1) * (sb z2.2 ρ1) + (-4) * ((c.e : ℂ)) ^ 2 * (mb ρ1 (p 2) z1.1) * (sb z0.2 z2.2)) * i15 + ((-2) * ((c.e : ℂ)) ^ 2 * (ab z1.1 z3.1) * (ab z1.1 ρ0) * (sb z0.2 z2.2)) * i16 + ((4) * ((c.e : ℂ)) ^ 2 * (ab z1.1 ρ0) * (sb z0.2 z1.2) * (sb z0.2 z2.2) + (-4) * ((c.e : ℂ)) ^ 2 * (mb z0.2 (p 2) ρ0) * (sb z0.2 z2.2)) * i17 + ((4) * ((c.e : ℂ)) ^ 2 * ((c.mass .d : ℂ)) * (sb z0.2 z2.2) * (sb z0.2 z3.2)) * i18 + ((2) * ((c.e : ℂ)) ^ 2 * (mb z0.2 (p 2) z1.1) * (sb z0.2 z3.2)) * i19 + ((2) * ((c.e : ℂ)) ^ 2 * (ab z1.1 z3.1) * (mb z0.2 (p 2) ρ0)) * i20 + ((2) * ((c.e : ℂ)) ^ 2 * ((c.mass .d : ℂ)) * (N.c 0) * (sb z0.2 ρ1)) * i21 + ((2) * ((c.e : ℂ)) ^ 2 * ((c.mass .d : ℂ)) * (mb z0.2 (p 2) z1.1) * (sb z0.2 ρ1)) * i22 + ((2) * ((c.e : ℂ)) ^ 2 * ((c.mass .d : ℂ)) * (ab z2.1 z3.1) * (sb z0.2 ρ1) + (-2) * ((c.e : ℂ)) ^ 2 * ((c.mass .d : ℂ)) * (sb z0.2 z3.2) * (sb z2.2 ρ1) + (2) * ((c.e : ℂ)) ^ 2 * (ab z1.1 z2.1) * (sb z0.2 z3.2) * (sb z1.2 ρ1) + (-2) * ((c.e : ℂ)) ^ 2 * (ab z1.1 z3.1) * (sb z0.2 z1.2) * (sb z2.2 ρ1)) * i23 + ((-2) * ((c.e : ℂ)) ^ 2 * ((c.mass .d : ℂ)) * (mb z0.2 (p 2) ρ0) * (sb z0.2 ρ1)) * i24 + ((2) * ((c.e : ℂ)) ^ 2 * ((c.mass .d : ℂ)) * (ab z1.1 z3.1) * (sb z0.2 z1.2) * (sb z0.2 ρ1)) * i25 + ((-2) * ((c.e : ℂ)) ^ 2 * ((c.mass .d : ℂ)) * (ab z2.1 ρ0) * (sb z0.2 ρ1) + (2) * ((c.e : ℂ)) ^ 2 * (mb ρ1 (p 2) ρ0) * (sb z0.2 z2.2)) * i26 + ((-2) * ((c.e : ℂ)) ^ 2 * (mb z0.2 (p 2) z1.1) * (sb z0.2 z2.2)) * i27 + ((2) * ((c.e : ℂ)) ^ 2 * (mb ρ1 (p 2) z0.1) * (sb z0.2 z2.2)) * i28 + ((-2) * ((c.e : ℂ)) ^ 2 * (ab z0.1 z1.1) * (ab z3.1 ρ0) * (sb z0.2 ρ1)) * i29)) * ((1) * ((N.c 0)⁻¹) * ((N.c 1)⁻¹) / (9)) + ((2) * ((c.e : ℂ)) ^ 2 * ((c.mass .d : ℂ)) * ((N.c 1)⁻¹) * (ab z1.1 z2.1) * (ab z3.1 ρ0) * (sb z0.2 ρ1) / (9) + (-2) * ((c.e : ℂ)) ^ 2 * ((c.mass .d : ℂ)) * ((N.c 1)⁻¹) * (ab z1.1 ρ0) * (sb z0.2 z3.2) * (sb z2.2 ρ1) / (9) + (2) * ((c.e : ℂ)) ^ 2 * ((N.c 1)⁻¹) * (ab z1.1 z2.1) * (ab z1.1 ρ0) * (sb z0.2 z3.2) * (sb z1.2 ρ1) / (9) + (2) * ((c.e : ℂ)) ^ 2 * ((N.c 1)⁻¹) * (ab z1.1 z2.1) * (mb ρ1 (p 2) ρ0) * (sb z0.2 z3.2) / (9) + (2) * ((c.e : ℂ)) ^ 2 * ((N.c 1)⁻¹) * (ab z3.1 ρ0) * (mb z0.2 (p 2) z1.1) * (sb z2.2 ρ1) / (9)) * y0 + ((-2) * ((c.e : ℂ)) ^ 2 * ((c.mass .d : ℂ)) * ((N.c 0)⁻¹) * (ab z1.1 z3.1) * (ab z2.1 ρ0) * (sb z0.2 ρ1) / (9) + (2) * ((c.e : ℂ)) ^ 2 * ((c.mass .d : ℂ)) * ((N.c 0)⁻¹) * (ab z1.1 ρ0) * (sb z0.2 z2.2) * (sb z3.2 ρ1) / (9) + (2) * ((c.e : ℂ)) ^ 2 * ((N.c 0)⁻¹) * (ab z0.1 ρ0) * (ab z1.1 z3.1) * (sb z0.2 z2.2) * (sb z0.2 ρ1) / (9) + (2) * ((c.e : ℂ)) ^ 2 * ((N.c 0)⁻¹) * (ab z1.1 z3.1) * (mb ρ1 (p 2) ρ0) * (sb z0.2 z2.2) / (9) + (2) * ((c.e : ℂ)) ^ 2 * ((N.c 0)⁻¹) * (ab z2.1 ρ0) * (mb z0.2 (p 2) z1.1) * (sb z3.2 ρ1) / (9)) * y1 + ((1) * ((c.e : ℂ)) ^ 2 * ((c.mass .d : ℂ)) * ((N.c 0)⁻¹) * (ab z1.1 z3.1) * (ab z2.1 ρ0) * (sb z0.2 ρ1) / (9) + (-1) * ((c.e : ℂ)) ^ 2 * ((c.mass .d : ℂ)) * ((N.c 0)⁻¹) * (ab z1.1 ρ0) * (sb z0.2 z2.2) * (sb z3.2 ρ1) / (9) + (-1) * ((c.e : ℂ)) ^ 2 * ((c.mass .d : ℂ)) * ((N.c 1)⁻¹) * (ab z1.1 z2.1) * (ab z3.1 ρ0) * (sb z0.2 ρ1) / (9) + (1) * ((c.e : ℂ)) ^ 2 * ((c.mass .d : ℂ)) * ((N.c 1)⁻¹) * (ab z1.1 ρ0) * (sb z0.2 z3.2) * (sb z2.2 ρ1) / (9) + (-1) * ((c.e : ℂ)) ^ 2 * ((N.c 0)⁻¹) * (ab z0.1 ρ0) * (ab z1.1 z3.1) * (sb z0.2 z2.2) * (sb z0.2 ρ1) / (9) + (-1) * ((c.e : ℂ)) ^ 2 * ((N.c 0)⁻¹) * (ab z1.1 z3.1) * (mb ρ1 (p 2) ρ0) * (sb z0.2 z2.2) / (9) + (-1) * ((c.e : ℂ)) ^ 2 * ((N.c 0)⁻¹) * (ab z2.1 ρ0) * (mb z0.2 (p 2) z1.1) * (sb z3.2 ρ1) / (9) + (-1) * ((c.e : ℂ)) ^ 2 * ((N.c 1)⁻¹) * (ab z1.1 z2.1) * (ab z1.1 ρ0) * (sb z0.2 z3.2) * (sb z1.2 ρ1) / (9) + (-1) * ((c.e : ℂ)) ^ 2 * ((N.c 1)⁻¹) * (ab z1.1 z2.1) * (mb ρ1 (p 2) ρ0) * (sb z0.2 z3.2) / (9) + (-1) * ((c.e : ℂ)) ^ 2 * ((N.c 1)⁻¹) * (ab z3.1 ρ0) * (mb z0.2 (p 2) z1.1) * (sb z2.2 ρ1) / (9)) * x22
theorem AAdd.keyMP {c : Constants} {p : Nat → V4 ℝ} {N : Env} (hc : c.Physical) (hb : Balanced p) (r0 : N.r 0 = c.e) (r1 : N.r 1 = ((-((1 : Nat) : ℝ)) / ((3 : Nat) : ℝ))) (d0 : ((msq (plus (backward (p 3)) (p 1)) - c.mass .d ^ 2 : ℝ) : ℂ) = N.c 0) (n0 : N.c 0 ≠ 0) (d1 : ((msq (plus (backward (p 3)) (p 0)) - c.mass .d ^ 2 : ℝ) : ℂ) = N.c 1) (n1 : N.c 1 ≠ 0) {z0 z1 z2 z3 : Pair} (b2 : Bold (p 2) (c.mass .d) z2) (b3 : Bold (p 3) (c.mass .d) z3) (l0 : Light (p 0) z0) (l1 : Light (p 1) z1) (e02 : mb z0.2 (p 2) z0.1 = -N.c 0) (e03 : mb z0.2 (p 3) z0.1 = -N.c 1) (e12 : mb z1.2 (p 2) z1.1 = -N.c 1) (e13 : mb z1.2 (p 3) z1.1 = -N.c 0) (q2 : msq (p 2) = (c.mass .d) ^ 2) (q3 : msq (p 3) = (c.mass .d) ^ 2) (ρ0 ρ1 : V2) :
    AAdd.formMP N p z0 z1 z2 z3 * sb ρ0 z0.2 * ab ρ1 z1.1 = ((√2 : ℝ) * ((√2 : ℝ) * (1 : ℂ))) * AAdd.react.bare c p 2 3 0 1 z2 z3 (pv z0.1 ρ0) (pv ρ1 z1.2) := by
  rw [AAdd.react.bare_parts c p (i := 2) (j := 3) (a := 0) (b := 1) (x := .photon) (y := .photon) (k := (p 0)) (k' := (p 1)) (fun _ => rfl) (fun _ => rfl) (f := .d) (g := .d) rfl rfl (l := (backward (p 3))) rfl (e := 1) (e' := -1) (if_neg Bool.false_ne_true) (if_pos rfl)]
  rw [compton_vv (f := .d) (x := .d) (g := .d) (h := (rfl : Spec.after .photon Flavour.d = some Flavour.d)) (h' := (rfl : Spec.after .photon Flavour.d = some Flavour.d)) (ha := by simp) (hb := by simp)]
  rw [compton_vv (f := .d) (x := .d) (g := .d) (h := (rfl : Spec.after .photon Flavour.d = some Flavour.d)) (h' := (rfl : Spec.after .photon Flavour.d = some Flavour.d)) (ha := by simp) (hb := by simp)]
  rw [annihilation_none c _ _ (by rfl) (by simp), star_zero, add_zero, AAdd.formMP]
  simp only [d0, d1, lineV_pv, lineV_four, contract_four_pv, contract_pv, mb_plus, mb_backward]
  have i0 := mb_schouten_right z0.2 (p 3) z0.1 z2.1 z3.1
  have i1 := ab_schouten z2.1 z3.1 ρ1 z0.1
  have i2 := mb_schouten_left z0.2 z1.2 ρ0 (p 2) z0.1
  have i3 := mb_schouten_right z3.2 (p 2) z0.1 z2.1 ρ1
  have i4 := ab_schouten z1.1 z3.1 ρ1 z0.1
  have i5 := mb_schouten_left z0.2 z1.2 z2.2 (p 2) z0.1
  have i6 := mb_schouten_right ρ0 (p 2) z0.1 z3.1 ρ1
  have i7 := sb_schouten z1.2 z3.2 ρ0 z0.2
  have i8 := mb_schouten_left z0.2 z3.2 ρ0 (p 2) z0.1
  have i9 := mb_schouten_right z1.2 (p 2) z0.1 z2.1 ρ1
  have i10 := sb_schouten z1.2 z2.2 z3.2 z0.2
  have i11 := sb_schouten z1.2 z2.2 ρ0 z0.2
  have i12 := mb_schouten_left z0.2 z2.2 ρ0 (p 2) z0.1
  have i13 := mb_schouten_right z0.2 (p 3) z0.1 z2.1 ρ1
  have i14 := mb_schouten_right z0.2 (p 2) z0.1 z2.1 ρ1
  have i15 := mb_schouten_right ρ0 (p 2) z0.1 z2.1 ρ1
  have i16 := mb_schouten_right z1.2 (p 2) z0.1 z1.1 ρ1
  have i17 := sb_schouten z2.2 z3.2 ρ0 z1.2
  have i18 := mb_schouten_right z1.2 (p 3) z0.1 z1.1 z3.1
  have i19 := mb_schouten_right z1.2 (p 2) z0.1 z1.1 z3.1
  have i20 := mb_schouten_right z1.2 (p 2) z0.1 z3.1 ρ1
  have i21 := mb_schouten_right z1.2 (p 3) z0.1 z1.1 z2.1
  have i22 := mb_schouten_right z1.2 (p 2) z0.1 z1.1 z2.1
  have i23 := mb_schouten_left z0.2 z1.2 z3.2 (p 2) z0.1
  have i24 := mb_schouten_right z2.2 (p 3) z0.1 z3.1 ρ1
  have i25 := sb_schouten z2.2 z3.2 ρ0 z0.2
  have i26 := mb_schouten_right ρ0 (p 2) z0.1 z2.1 z3.1
  have i27 := mb_schouten_right z1.2 (p 2) z0.1 z2.1 z3.1
  simp only [l0.mb_eq, l1.mb_eq, b2.mb_left, b2.mb_right, b3.mb_left, b3.mb_right, e02, e03, e12, e13, mb_three hb z0.2 z1.1, mb_three hb z0.2 z2.1, mb_two hb z0.2 z3.1, mb_three hb z0.2 ρ1, mb_three hb z1.2 z0.1, mb_three hb z1.2 z2.1, mb_two hb z1.2 z3.1, mb_three hb z1.2 ρ1, mb_three hb z2.2 z0.1, mb_three hb z2.2 z1.1, mb_three hb z2.2 z2.1, mb_three hb z2.2 ρ1, mb_two hb z3.2 z0.1, mb_two hb z3.2 z1.1, mb_two hb z3.2 z3.1, mb_two hb z3.2 ρ1, mb_three hb ρ0 z0.1, mb_three hb ρ0 z1.1, mb_three hb ρ0 z2.1, mb_two hb ρ0 z3.1, mb_three hb ρ0 ρ1, ab_self, sb_self] at i0 i1 i2 i3 i4 i5 i6 i7 i8 i9 i10 i11 i12 i13 i14 i15 i16 i17 i18 i19 i20 i21 i22 i23 i24 i25 i26 i27 ⊢
  simp only [ab_swap z0.1 z1.1, ab_swap z0.1 z2.1, ab_swap z0.1 z3.1, ab_swap z0.1 ρ1, ab_swap z1.1 z2.1, ab_swap z1.1 z3.1, ab_swap z1.1 ρ1, ab_swap z2.1 z3.1, ab_swap z2.1 ρ1, ab_swap z3.1 ρ1, sb_swap z0.2 z1.2, sb_swap z0.2 z2.2, sb_swap z0.2 z3.2, sb_swap z0.2 ρ0, sb_swap z1.2 z2.2, sb_swap z1.2 z3.2, sb_swap z1.2 ρ0, sb_swap z2.2 z3.2, sb_swap z2.2 ρ0, sb_swap z3.2 ρ0] at i0 i1 i2 i3 i4 i5 i6 i7 i8 i9 i10 i11 i12 i13 i14 i15 i16 i17 i18 i19 i20 i21 i22 i23 i24 i25 i26 i27 ⊢
  simp only [r0, r1, Constants.hL, Constants.hR, Constants.gL, Constants.gR, Constants.yuk, Constants.invVev, Flavour.charge_d, Flavour.isospin_d, ← c.mz]
  have xMW : (c.MW : ℂ) ≠ 0 := by exact_mod_cast hc.MW
  have xSW : (c.SW : ℂ) ≠ 0 := by exact_mod_cast hc.SW
  have xCW : (c.CW : ℂ) ≠ 0 := by exact_mod_cast hc.CW
  have x2 : ((√2 : ℝ) : ℂ) ≠ 0 := by exact_mod_cast (Real.sqrt_pos.2 two_pos).ne'
  have x22 : ((√2 : ℝ) : ℂ) ^ 2 = 2 := by rw [← Complex.ofReal_pow, Real.sq_sqrt two_pos.le]; norm_num
  have x23 : ((√2 : ℝ) : ℂ) ^ 3 = 2 * ((√2 : ℝ) : ℂ) := by rw [← x22]; ring
  have x24 : ((√2 : ℝ) : ℂ) ^ 4 = 4 := by linear_combination (((√2 : ℝ) : ℂ) ^ 2 + 2) * x22
  push_cast at i0 i1 i2 i3 i4 i5 i6 i7 i8 i9 i10 i11 i12 i13 i14 i15 i16 i17 i18 i19 i20 i21 i22 i23 i24 i25 i26 i27 ⊢
  have y0 := mul_inv_cancel₀ n0
  have y1 := mul_inv_cancel₀ n1
  linear_combination ((((-2) * ((c.e : ℂ)) ^ 2 * ((c.mass .d : ℂ)) * (ab z0.1 ρ1) * (sb z1.2 ρ0)) * i0 + ((-2) * ((c.e : ℂ)) ^ 2 * ((c.mass .d : ℂ)) * (N.c 1) * (sb z1.2 ρ0) + (-2) * ((c.e : ℂ)) ^ 2 * ((c.mass .d : ℂ)) * (mb z1.2 (p 2) z0.1) * (sb z0.2 ρ0) + (2) * ((c.e : ℂ)) ^ 2 * ((c.mass .d : ℂ)) * (mb ρ0 (p 2) z0.1) * (sb z0.2 z1.2)) * i1 + ((-4) * ((c.e : ℂ)) ^ 2 * ((c.mass .d : ℂ)) * (ab z0.1 z2.1) * (ab z3.1 ρ1) + (2) * ((c.e : ℂ)) ^ 2 * (ab z0.1 z1.1) * (ab z2.1 ρ1) * (sb z1.2 z3.2) + (-2) * ((c.e : ℂ)) ^ 2 * (ab z0.1 z2.1) * (ab z0.1 ρ1) * (sb z0.2 z3.2) + (-2) * ((c.e : ℂ)) ^ 2 * (ab z0.1 z2.1) * (ab z1.1 ρ1) * (sb z1.2 z3.2) + (2) * ((c.e : ℂ)) ^ 2 * (ab z0.1 z3.1) * (ab z0.1 ρ1) * (sb z0.2 z2.2)) * i2 + ((2) * ((c.e : ℂ)) ^ 2 * (N.c 0) * (sb z1.2 ρ0) + (2) * ((c.e : ℂ)) ^ 2 * (mb z1.2 (p 2) z0.1) * (sb z0.2 ρ0) + (-2) * ((c.e : ℂ)) ^ 2 * (mb ρ0 (p 2) z0.1) * (sb z0.2 z1.2)) * i3 + ((-2) * ((c.e : ℂ)) ^ 2 * ((c.mass .d : ℂ)) * (ab z0.1 z2.1) * (sb z0.2 z1.2) * (sb z1.2 ρ0) + (-2) * ((c.e : ℂ)) ^ 2 * (mb z1.2 (p 2) z0.1) * (sb z0.2 z2.2) * (sb z1.2 ρ0)) * i4 + ((4) * ((c.e : ℂ)) ^ 2 * ((c.mass .d : ℂ)) * (ab z0.1 ρ1) * (sb z3.2 ρ0) + (-2) * ((c.e : ℂ)) ^ 2 * (ab z0.1 z1.1) * (ab z3.1 ρ1) * (sb z1.2 ρ0) + (4) * ((c.e : ℂ)) ^ 2 * (ab z0.1 z3.1) * (ab z1.1 ρ1) * (sb z1.2 ρ0) + (2) * ((c.e : ℂ)) ^ 2 * (ab z0.1 z3.1) * (mb ρ0 (p 2) ρ1)) * i5 + ((2) * ((c.e : ℂ)) ^ 2 * (mb z1.2 (p 2) z0.1) * (sb z0.2 z2.2)) * i6 + ((2) * ((c.e : ℂ)) ^ 2 * ((c.mass .d : ℂ)) ^ 2 * (ab z0.1 z2.1) * (ab z0.1 ρ1) + (-2) * ((c.e : ℂ)) ^ 2 * (N.c 1) * (ab z0.1 z2.1) * (ab z0.1 ρ1) + (-2) * ((c.e : ℂ)) ^ 2 * (ab z0.1 z1.1) * (ab z0.1 z2.1) * (mb z1.2 (p 2) ρ1) + (-2) * ((c.e : ℂ)) ^ 2 * (ab z0.1 z2.1) * (ab z1.1 ρ1) * (mb z1.2 (p 2) z0.1)) * i7 + ((-2) * ((c.e : ℂ)) ^ 2 * (ab z0.1 z2.1) * (mb z1.2 (p 2) ρ1)) * i8 + ((-4) * ((c.e : ℂ)) ^ 2 * ((c.mass .d : ℂ)) * (ab z0.1 z3.1) * (sb z0.2 ρ0) + (-2) * ((c.e : ℂ)) ^ 2 * (N.c 0) * (sb z3.2 ρ0) + (2) * ((c.e : ℂ)) ^ 2 * (mb ρ0 (p 2) z0.1) * (sb z0.2 z3.2)) * i9 + ((-2) * ((c.e : ℂ)) ^ 2 * ((c.mass .d : ℂ)) * (ab z0.1 ρ1) * (mb ρ0 (p 2) z0.1)) * i10 + ((2) * ((c.e : ℂ)) ^ 2 * ((c.mass .d : ℂ)) ^ 2 * (ab z0.1 z3.1) * (ab z0.1 ρ1) + (-2) * ((c.e : ℂ)) ^ 2 * (ab z0.1 z3.1) * (ab z1.1 ρ1) * (mb z1.2 (p 2) z0.1)) * i11 + ((-4) * ((c.e : ℂ)) ^ 2 * ((c.mass .d : ℂ)) * (ab z0.1 ρ1) * (sb z1.2 z3.2) + (2) * ((c.e : ℂ)) ^ 2 * (ab z0.1 z3.1) * (mb z1.2 (p 2) ρ1)) * i12 + ((2) * ((c.e : ℂ)) ^ 2 * ((c.mass .d : ℂ)) * (ab z0.1 z3.1) * (sb z1.2 ρ0)) * i13 + ((2) * ((c.e : ℂ)) ^ 2 * ((c.mass .d : ℂ)) * (ab z0.1 z3.1) * (sb z1.2 ρ0)) * i14 + ((4) * ((c.e : ℂ)) ^ 2 * ((c.mass .d : ℂ)) * (ab z0.1 z3.1) * (sb z0.2 z1.2) + (-2) * ((c.e : ℂ)) ^ 2 * (mb z1.2 (p 2) z0.1) * (sb z0.2 z3.2)) * i15 + ((2) * ((c.e : ℂ)) ^ 2 * (ab z0.1 z2.1) * (sb z0.2 z1.2) * (sb z3.2 ρ0) + (-2) * ((c.e : ℂ)) ^ 2 * (ab z0.1 z2.1) * (sb z0.2 z3.2) * (sb z1.2 ρ0) + (2) * ((c.e : ℂ)) ^ 2 * (ab z0.1 z3.1) * (sb z0.2 z1.2) * (sb z2.2 ρ0)) * i16 + ((4) * ((c.e : ℂ)) ^ 2 * ((c.mass .d : ℂ)) * (N.c 0) * (ab z0.1 ρ1)) * i17 + ((2) * ((c.e : ℂ)) ^ 2 * (mb z1.2 (p 2) ρ1) * (sb z2.2 ρ0)) * i18 + ((2) * ((c.e : ℂ)) ^ 2 * (mb z1.2 (p 2) ρ1) * (sb z2.2 ρ0)) * i19 + ((-2) * ((c.e : ℂ)) ^ 2 * (N.c 1) * (sb z2.2 ρ0) + (-2) * ((c.e : ℂ)) ^ 2 * (mb ρ0 (p 2) z0.1) * (sb z0.2 z2.2)) * i20 + ((-2) * ((c.e : ℂ)) ^ 2 * (mb ρ0 (p 2) ρ1) * (sb z1.2 z3.2)) * i21 + ((-2) * ((c.e : ℂ)) ^ 2 * (mb ρ0 (p 2) ρ1) * (sb z1.2 z3.2)) * i22 + ((-2) * ((c.e : ℂ)) ^ 2 * (ab z0.1 z2.1) * (mb ρ0 (p 2) ρ1)) * i23 + ((-2) * ((c.e : ℂ)) ^ 2 * (N.c 0) * (sb z1.2 ρ0)) * i24 + ((2) * ((c.e : ℂ)) ^ 2 * ((c.mass .d : ℂ)) * (ab z0.1 ρ1) * (mb z1.2 (p 2) z0.1)) * i25 + ((-2) * ((c.e : ℂ)) ^ 2 * ((c.mass .d : ℂ)) * (ab z0.1 ρ1) * (sb z0.2 z1.2)) * i26 + ((2) * ((c.e : ℂ)) ^ 2 * ((c.mass .d : ℂ)) * (ab z0.1 ρ1) * (sb z0.2 ρ0)) * i27)) * ((1) * ((N.c 0)⁻¹) * ((N.c 1)⁻¹) / (9)) + ((-2) * ((c.e : ℂ)) ^ 2 * ((c.mass .d : ℂ)) * ((N.c 1)⁻¹) * (ab z0.1 z3.1) * (ab z2.1 ρ1) * (sb z1.2 ρ0) / (9) + (2) * ((c.e : ℂ)) ^ 2 * ((c.mass .d : ℂ)) * ((N.c 1)⁻¹) * (ab z0.1 ρ1) * (sb z1.2 z2.2) * (sb z3.2 ρ0) / (9) + (2) * ((c.e : ℂ)) ^ 2 * ((N.c 1)⁻¹) * (ab z0.1 z3.1) * (ab z1.1 ρ1) * (sb z1.2 z2.2) * (sb z1.2 ρ0) / (9) + (2) * ((c.e : ℂ)) ^ 2 * ((N.c 1)⁻¹) * (ab z0.1 z3.1) * (mb ρ0 (p 2) ρ1) * (sb z1.2 z2.2) / (9) + (2) * ((c.e : ℂ)) ^ 2 * ((N.c 1)⁻¹) * (ab z2.1 ρ1) * (mb z1.2 (p 2) z0.1) * (sb z3.2 ρ0) / (9)) * y0 + ((2) * ((c.e : ℂ)) ^ 2 * ((c.mass .d : ℂ)) * ((N.c 0)⁻¹) * (ab z0.1 z2.1) * (ab z3.1 ρ1) * (sb z1.2 ρ0) / (9) + (-2) * ((c.e : ℂ)) ^ 2 * ((c.mass .d : ℂ)) * ((N.c 0)⁻¹) * (ab z0.1 ρ1) * (sb z1.2 z3.2) * (sb z2.2 ρ0) / (9) + (2) * ((c.e : ℂ)) ^ 2 * ((N.c 0)⁻¹) * (ab z0.1 z2.1) * (ab z0.1 ρ1) * (sb z0.2 ρ0) * (sb z1.2 z3.2) / (9) + (2) * ((c.e : ℂ)) ^ 2 * ((N.c 0)⁻¹) * (ab z0.1 z2.1) * (mb ρ0 (p 2) ρ1) * (sb z1.2 z3.2) / (9) + (2) * ((c.e : ℂ)) ^ 2 * ((N.c 0)⁻¹) * (ab z3.1 ρ1) * (mb z1.2 (p 2) z0.1) * (sb z2.2 ρ0) / (9)) * y1 + ((-1) * ((c.e : ℂ)) ^ 2 * ((c.mass .d : ℂ)) * ((N.c 0)⁻¹) * (ab z0.1 z2.1) * (ab z3.1 ρ1) * (sb z1.2 ρ0) / (9) + (1) * ((c.e : ℂ)) ^ 2 * ((c.mass .d : ℂ)) * ((N.c 0)⁻¹) * (ab z0.1 ρ1) * (sb z1.2 z3.2) * (sb z2.2 ρ0) / (9) + (1) * ((c.e : ℂ)) ^ 2 * ((c.mass .d : ℂ)) * ((N.c 1)⁻¹) * (ab z0.1 z3.1) * (ab z2.1 ρ1) * (sb z1.2 ρ0) / (9) + (-1) * ((c.e : ℂ)) ^ 2 * ((c.mass .d : ℂ)) * ((N.c 1)⁻¹) * (ab z0.1 ρ1) * (sb z1.2 z2.2) * (sb z3.2 ρ0) / (9) + (-1) * ((c.e : ℂ)) ^ 2 * ((N.c 0)⁻¹) * (ab z0.1 z2.1) * (ab z0.1 ρ1) * (sb z0.2 ρ0) * (sb z1.2 z3.2) / (9) + (-1) * ((c.e : ℂ)) ^ 2 * ((N.c 0)⁻¹) * (ab z0.1 z2.1) * (mb ρ0 (p 2) ρ1) * (sb z1.2 z3.2) / (9) + (-1) * ((c.e : ℂ)) ^ 2 * ((N.c 0)⁻¹) * (ab z3.1 ρ1) * (mb z1.2 (p 2) z0.1) * (sb z2.2 ρ0) / (9) + (-1) * ((c.e : ℂ)) ^ 2 * ((N.c 1)⁻¹) * (ab z0.1 z3.1) * (ab z1.1 ρ1) * (sb z1.2 z2.2) * (sb z1.2 ρ0) / (9) + (-1) * ((c.e : ℂ)) ^ 2 * ((N.c 1)⁻¹) * (ab z0.1 z3.1) * (mb ρ0 (p 2) ρ1) * (sb z1.2 z2.2) / (9) + (-1) * ((c.e : ℂ)) ^ 2 * ((N.c 1)⁻¹) * (ab z2.1 ρ1) * (mb z1.2 (p 2) z0.1) * (sb z3.2 ρ0) / (9)) * x22
theorem AAdd.keyMM {c : Constants} {p : Nat → V4 ℝ} {N : Env} (hc : c.Physical) (hb : Balanced p) (r0 : N.r 0 = c.e) (r1 : N.r 1 = ((-((1 : Nat) : ℝ)) / ((3 : Nat) : ℝ))) (r2 : N.r 2 = (c.mass .d)) (d0 : ((msq (plus (backward (p 3)) (p 1)) - c.mass .d ^ 2 : ℝ) : ℂ) = N.c 0) (n0 : N.c 0 ≠ 0) (d1 : ((msq (plus (backward (p 3)) (p 0)) - c.mass .d ^ 2 : ℝ) : ℂ) = N.c 1) (n1 : N.c 1 ≠ 0) {z0 z1 z2 z3 : Pair} (b2 : Bold (p 2) (c.mass .d) z2) (b3 : Bold (p 3) (c.mass .d) z3) (l0 : Light (p 0) z0) (l1 : Light (p 1) z1) (e02 : mb z0.2 (p 2) z0.1 = -N.c 0) (e03 : mb z0.2 (p 3) z0.1 = -N.c 1) (e12 : mb z1.2 (p 2) z1.1 = -N.c 1) (e13 : mb z1.2 (p 3) z1.1 = -N.c 0) (q2 : msq (p 2) = (c.mass .d) ^ 2) (q3 : msq (p 3) = (c.mass .d) ^ 2) (ρ0 ρ1 : V2) :
    AAdd.formMM N p z0 z1 z2 z3 * sb ρ0 z0.2 * sb ρ1 z1.2 = ((√2 : ℝ) * ((√2 : ℝ) * (1 : ℂ))) * AAdd.react.bare c p 2 3 0 1 z2 z3 (pv z0.1 ρ0) (pv z1.1 ρ1) := by
  rw [AAdd.react.bare_parts c p (i := 2) (j := 3) (a := 0) (b := 1) (x := .photon) (y := .photon) (k := (p 0)) (k' := (p 1)) (fun _ => rfl) (fun _ => rfl) (f := .d) (g := .d) rfl rfl (l := (backward (p 3))) rfl (e := 1) (e' := -1) (if_neg Bool.false_ne_true) (if_pos rfl)]
  rw [compton_vv (f := .d) (x := .d) (g := .d) (h := (rfl : Spec.after .photon Flavour.d = some Flavour.d)) (h' := (rfl : Spec.after .photon Flavour.d = some Flavour.d)) (ha := by simp) (hb := by simp)]
  rw [compton_vv (f := .d) (x := .d) (g := .d) (h := (rfl : Spec.after .photon Flavour.d = some Flavour.d)) (h' := (rfl : Spec.after .photon Flavour.d = some Flavour.d)) (ha := by simp) (hb := by simp)]
  rw [annihilation_none c _ _ (by rfl) (by simp), star_zero, add_zero, AAdd.formMM]
  simp only [d0, d1, lineV_pv, lineV_four, contract_four_pv, contract_pv, mb_plus, mb_backward]
  have i0 := sb_schouten z1.2 ρ0 ρ1 z0.2
  have i1 := sb_schouten z2.2 z3.2 ρ1 z0.2
  have i2 := sb_schouten z1.2 z2.2 ρ0 z0.2
  have i3 := sb_schouten z3.2 ρ0 ρ1 z1.2
  have i4 := sb_schouten z1.2 z3.2 ρ0 z0.2
  have i5 := mb_schouten_right z3.2 (p 2) z0.1 z1.1 z2.1
  have i6 := sb_schouten z1.2 z3.2 ρ1 z0.2
  have i7 := mb_schouten_left z0.2 z1.2 ρ0 (p 2) z0.1
  have i8 := mb_schouten_right z1.2 (p 2) z0.1 z1.1 z2.1
  have i9 := mb_schouten_right z0.2 (p 2) z0.1 z1.1 z2.1
  have i10 := mb_schouten_right z1.2 (p 3) z0.1 z1.1 z2.1
  have i11 := mb_schouten_right ρ1 (p 2) z0.1 z1.1 z2.1
  have i12 := sb_schouten z3.2 ρ0 ρ1 z2.2
  have i13 := mb_schouten_right z0.2 (p 3) z0.1 z1.1 z2.1
  have i14 := mb_schouten_right z0.2 (p 3) z0.1 z1.1 z3.1
  have i15 := mb_schouten_left z0.2 z3.2 ρ0 (p 2) z0.1
  have i16 := mb_schouten_left z0.2 z3.2 ρ1 (p 2) z0.1
  have i17 := mb_schouten_left z0.2 ρ0 ρ1 (p 2) z0.1
  have i18 := mb_schouten_right ρ0 (p 2) z0.1 z1.1 z3.1
  have i19 := mb_schouten_left z0.2 z2.2 ρ1 (p 2) z0.1
  have i20 := mb_schouten_right ρ1 (p 2) z0.1 z1.1 z3.1
  have i21 := mb_schouten_left z0.2 z2.2 ρ0 (p 2) z0.1
  have i22 := mb_schouten_right z2.2 (p 3) z0.1 z1.1 z3.1
  have i23 := mb_schouten_right z0.2 (p 2) z0.1 z1.1 z3.1
  have i24 := mb_schouten_right z1.2 (p 2) z0.1 z1.1 z3.1
  have i25 := sb_schouten z3.2 ρ0 ρ1 z0.2
  have i26 := mb_schouten_right ρ0 (p 2) z0.1 z1.1 z2.1
  have i27 := sb_schouten z2.2 z3.2 ρ0 z0.2
  have i28 := sb_schouten z2.2 ρ0 ρ1 z1.2
  have i29 := sb_schouten z2.2 ρ0 ρ1 z0.2
  have i30 := mb_schouten_left z0.2 z1.2 ρ1 (p 2) z0.1
  have i31 := mb_schouten_right z1.2 (p 3) z0.1 z1.1 z3.1
  simp only [l0.mb_eq, l1.mb_eq, b2.mb_left, b2.mb_right, b3.mb_left, b3.mb_right, e02, e03, e12, e13, mb_three hb z0.2 z1.1, mb_three hb z0.2 z2.1, mb_two hb z0.2 z3.1, mb_three hb z1.2 z0.1, mb_three hb z1.2 z2.1, mb_two hb z1.2 z3.1, mb_three hb z2.2 z0.1, mb_three hb z2.2 z1.1, mb_three hb z2.2 z2.1, mb_two hb z3.2 z0.1, mb_two hb z3.2 z1.1, mb_two hb z3.2 z3.1, mb_three hb ρ0 z0.1, mb_three hb ρ0 z1.1, mb_three hb ρ0 z2.1, mb_two hb ρ0 z3.1, mb_three hb ρ1 z0.1, mb_three hb ρ1 z1.1, mb_three hb ρ1 z2.1, mb_two hb ρ1 z3.1, ab_self, sb_self] at i0 i1 i2 i3 i4 i5 i6 i7 i8 i9 i10 i11 i12 i13 i14 i15 i16 i17 i18 i19 i20 i21 i22 i23 i24 i25 i26 i27 i28 i29 i30 i31 ⊢
  simp only [ab_swap z0.1 z1.1, ab_swap z0.1 z2.1, ab_swap z0.1 z3.1, ab_swap z1.1 z2.1, ab_swap z1.1 z3.1, ab_swap z2.1 z3.1, sb_swap z0.2 z1.2, sb_swap z0.2 z2.2, sb_swap z0.2 z3.2, sb_swap z0.2 ρ0, sb_swap z0.2 ρ1, sb_swap z1.2 z2.2, sb_swap z1.2 z3.2, sb_swap z1.2 ρ0, sb_swap z1.2 ρ1, sb_swap z2.2 z3.2, sb_swap z2.2 ρ0, sb_swap z2.2 ρ1, sb_swap z3.2 ρ0, sb_swap z3.2 ρ1, sb_swap ρ0 ρ1] at i0 i1 i2 i3 i4 i5 i6 i7 i8 i9 i10 i11 i12 i13 i14 i15 i16 i17 i18 i19 i20 i21 i22 i23 i24 i25 i26 i27 i28 i29 i30 i31 ⊢
  simp only [r0, r1, r2, Constants.hL, Constants.hR, Constants.gL, Constants.gR, Constants.yuk, Constants.invVev, Flavour.charge_d, Flavour.isospin_d, ← c.mz]
  have xMW : (c.MW : ℂ) ≠ 0 := by exact_mod_cast hc.MW
  have xSW : (c.SW : ℂ) ≠ 0 := by exact_mod_cast hc.SW
  have xCW : (c.CW : ℂ) ≠ 0 := by exact_mod_cast hc.CW
  have x2 : ((√2 : ℝ) : ℂ) ≠ 0 := by exact_mod_cast (Real.sqrt_pos.2 two_pos).ne'
  have x22 : ((√2 : ℝ) : ℂ) ^ 2 = 2 := by rw [← Complex.ofReal_pow, Real.sq_sqrt two_pos.le]; norm_num
  have x23 : ((√2 : ℝ) : ℂ) ^ 3 = 2 * ((√2 : ℝ) : ℂ) := by rw [← x22]; ring
  have x24 : ((√2 : ℝ) : ℂ) ^ 4 = 4 := by linear_combination (((√2 : ℝ) : ℂ) ^ 2 + 2) * x22
  push_cast at i0 i1 i2 i3 i4 i5 i6 i7 i8 i9 i10 i11 i12 i13 i14 i15 i16 i17 i18 i19 i20 i21 i22 i23 i24 i25 i26 i27 i28 i29 i30 i31 ⊢
  have y0 := mul_inv_cancel₀ n0
  have y1 := mul_inv_cancel₀ n1
  linear_combination ((((-2) * ((c.e : ℂ)) ^ 2 * ((c.mass .d : ℂ)) * (ab z0.1 z1.1) ^ 2 * (sb z2.2 z3.2)) * i0 + ((-2) * ((c.e : ℂ)) ^ 2 * ((c.mass .d : ℂ)) * (ab z0.1 z1.1) * (mb ρ0 (p 2) z0.1) + (2) * ((c.e : ℂ)) ^ 2 * ((c.mass .d : ℂ)) * (ab z0.1 z1.1) ^ 2 * (sb z1.2 ρ0)) * i1 + ((2) * ((c.e : ℂ)) ^ 2 * ((c.mass .d : ℂ)) * (ab z0.1 z1.1) ^ 2 * (sb z3.2 ρ1)) * i2 + ((-2) * ((c.e : ℂ)) ^ 2 * (N.c 0) * (ab z0.1 z1.1) * (ab z1.1 z2.1)) * i3 + ((-2) * ((c.e : ℂ)) ^ 2 * (ab z0.1 z1.1) * (ab z0.1 z2.1) * (mb ρ1 (p 2) z1.1) + (2) * ((c.e : ℂ)) ^ 2 * (ab z0.1 z1.1) * (ab z1.1 z2.1) * (mb ρ1 (p 2) z0.1)) * i4 + ((2) * ((c.e : ℂ)) ^ 2 * (N.c 0) * (sb ρ0 ρ1) + (2) * ((c.e : ℂ)) ^ 2 * (mb ρ0 (p 2) z0.1) * (sb z0.2 ρ1) + (-2) * ((c.e : ℂ)) ^ 2 * (mb ρ1 (p 2) z0.1) * (sb z0.2 ρ0)) * i5 + ((-2) * ((c.e : ℂ)) ^ 2 * ((c.mass .d : ℂ)) * (ab z0.1 z1.1) ^ 2 * (sb z2.2 ρ0) + (2) * ((c.e : ℂ)) ^ 2 * (ab z0.1 z1.1) * (ab z0.1 z2.1) * (mb ρ0 (p 2) z1.1) + (-2) * ((c.e : ℂ)) ^ 2 * (ab z0.1 z1.1) * (ab z1.1 z2.1) * (mb ρ0 (p 2) z0.1)) * i6 + ((2) * ((c.e : ℂ)) ^ 2 * (ab z0.1 z1.1) * (ab z1.1 z2.1) * (sb z3.2 ρ1)) * i7 + ((2) * ((c.e : ℂ)) ^ 2 * (ab z0.1 z1.1) * (sb z0.2 ρ0) * (sb z3.2 ρ1) + (2) * ((c.e : ℂ)) ^ 2 * (mb ρ0 (p 2) z1.1) * (sb z3.2 ρ1) + (-2) * ((c.e : ℂ)) ^ 2 * (mb ρ1 (p 2) z1.1) * (sb z3.2 ρ0)) * i8 + ((-2) * ((c.e : ℂ)) ^ 2 * (mb ρ1 (p 2) z0.1) * (sb z3.2 ρ0)) * i9 + ((2) * ((c.e : ℂ)) ^ 2 * (mb ρ0 (p 2) z1.1) * (sb z3.2 ρ1) + (-2) * ((c.e : ℂ)) ^ 2 * (mb ρ1 (p 2) z1.1) * (sb z3.2 ρ0)) * i10 + ((2) * ((c.e : ℂ)) ^ 2 * ((c.mass .d : ℂ)) * (ab z0.1 z3.1) * (sb z0.2 ρ0) + (-2) * ((c.e : ℂ)) ^ 2 * (N.c 1) * (sb z3.2 ρ0) + (2) * ((c.e : ℂ)) ^ 2 * (ab z0.1 z1.1) * (sb z0.2 z3.2) * (sb z1.2 ρ0) + (-2) * ((c.e : ℂ)) ^ 2 * (mb ρ0 (p 2) z0.1) * (sb z0.2 z3.2)) * i11 + ((-2) * ((c.e : ℂ)) ^ 2 * ((c.mass .d : ℂ)) * (N.c 0) * (ab z0.1 z1.1) + (2) * ((c.e : ℂ)) ^ 2 * ((c.mass .d : ℂ)) * (N.c 1) * (ab z0.1 z1.1)) * i12 + ((-2) * ((c.e : ℂ)) ^ 2 * ((c.mass .d : ℂ)) * (ab z0.1 z3.1) * (sb ρ0 ρ1) + (-2) * ((c.e : ℂ)) ^ 2 * (mb ρ1 (p 2) z0.1) * (sb z3.2 ρ0)) * i13 + ((4) * ((c.e : ℂ)) ^ 2 * ((c.mass .d : ℂ)) * (ab z0.1 z2.1) * (sb ρ0 ρ1) + (2) * ((c.e : ℂ)) ^ 2 * (ab z0.1 z1.1) * (sb z1.2 z2.2) * (sb ρ0 ρ1) + (-2) * ((c.e : ℂ)) ^ 2 * (mb ρ1 (p 2) z0.1) * (sb z2.2 ρ0)) * i14 + ((-2) * ((c.e : ℂ)) ^ 2 * (ab z0.1 z1.1) * (ab z0.1 z2.1) * (sb z0.2 ρ1) + (-2) * ((c.e : ℂ)) ^ 2 * (ab z0.1 z2.1) * (mb ρ1 (p 2) z1.1)) * i15 + ((2) * ((c.e : ℂ)) ^ 2 * (ab z0.1 z1.1) * (ab z0.1 z2.1) * (sb z0.2 ρ0) + (2) * ((c.e : ℂ)) ^ 2 * (ab z0.1 z2.1) * (mb ρ0 (p 2) z1.1)) * i16 + ((-4) * ((c.e : ℂ)) ^ 2 * ((c.mass .d : ℂ)) * (ab z0.1 z2.1) * (ab z1.1 z3.1)) * i17 + ((-2) * ((c.e : ℂ)) ^ 2 * ((c.mass .d : ℂ)) * (ab z0.1 z2.1) * (sb z0.2 ρ1) + (-2) * ((c.e : ℂ)) ^ 2 * (mb ρ1 (p 2) z0.1) * (sb z0.2 z2.2)) * i18 + ((-4) * ((c.e : ℂ)) ^ 2 * ((c.mass .d : ℂ)) * (ab z0.1 z1.1) * (sb z3.2 ρ0) + (-2) * ((c.e : ℂ)) ^ 2 * (ab z0.1 z1.1) * (ab z0.1 z3.1) * (sb z0.2 ρ0) + (-2) * ((c.e : ℂ)) ^ 2 * (ab z0.1 z1.1) * (ab z1.1 z3.1) * (sb z1.2 ρ0) + (-2) * ((c.e : ℂ)) ^ 2 * (ab z0.1 z3.1) * (mb ρ0 (p 2) z1.1)) * i19 + ((2) * ((c.e : ℂ)) ^ 2 * ((c.mass .d : ℂ)) * (ab z0.1 z2.1) * (sb z0.2 ρ0) + (-2) * ((c.e : ℂ)) ^ 2 * (N.c 0) * (sb z2.2 ρ0) + (2) * ((c.e : ℂ)) ^ 2 * (mb ρ0 (p 2) z0.1) * (sb z0.2 z2.2)) * i20 + ((4) * ((c.e : ℂ)) ^ 2 * ((c.mass .d : ℂ)) * (ab z0.1 z1.1) * (sb z3.2 ρ1) + (2) * ((c.e : ℂ)) ^ 2 * (ab z0.1 z1.1) * (ab z0.1 z3.1) * (sb z0.2 ρ1) + (2) * ((c.e : ℂ)) ^ 2 * (ab z0.1 z1.1) * (ab z1.1 z3.1) * (sb z1.2 ρ1) + (2) * ((c.e : ℂ)) ^ 2 * (ab z0.1 z3.1) * (mb ρ1 (p 2) z1.1)) * i21 + ((2) * ((c.e : ℂ)) ^ 2 * (N.c 1) * (sb ρ0 ρ1) + (-2) * ((c.e : ℂ)) ^ 2 * (ab z0.1 z1.1) * (sb z0.2 z1.2) * (sb ρ0 ρ1)) * i22 + ((2) * ((c.e : ℂ)) ^ 2 * ((c.mass .d : ℂ)) * (ab z0.1 z2.1) * (sb ρ0 ρ1) + (2) * ((c.e : ℂ)) ^ 2 * (ab z0.1 z1.1) * (sb z1.2 z2.2) * (sb ρ0 ρ1) + (-2) * ((c.e : ℂ)) ^ 2 * (mb ρ1 (p 2) z0.1) * (sb z2.2 ρ0)) * i23 + ((-2) * ((c.e : ℂ)) ^ 2 * (ab z0.1 z1.1) * (sb z0.2 z2.2) * (sb ρ0 ρ1)) * i24 + ((2) * ((c.e : ℂ)) ^ 2 * ((c.mass .d : ℂ)) ^ 2 * (ab z0.1 z1.1) * (ab z0.1 z2.1) + (-2) * ((c.e : ℂ)) ^ 2 * (N.c 0) * (ab z0.1 z1.1) * (ab z0.1 z2.1)) * i25 + ((-2) * ((c.e : ℂ)) ^ 2 * ((c.mass .d : ℂ)) * (ab z0.1 z3.1) * (sb z0.2 ρ1) + (-2) * ((c.e : ℂ)) ^ 2 * (ab z0.1 z1.1) * (sb z0.2 z3.2) * (sb z1.2 ρ1) + (2) * ((c.e : ℂ)) ^ 2 * (mb ρ1 (p 2) z0.1) * (sb z0.2 z3.2)) * i26 + ((2) * ((c.e : ℂ)) ^ 2 * ((c.mass .d : ℂ)) * (ab z0.1 z1.1) * (mb ρ1 (p 2) z0.1)) * i27 + ((2) * ((c.e : ℂ)) ^ 2 * (N.c 0) * (ab z0.1 z1.1) * (ab z1.1 z3.1)) * i28 + ((2) * ((c.e : ℂ)) ^ 2 * ((c.mass .d : ℂ)) * (ab z0.1 z1.1) ^ 2 * (sb z1.2 z3.2) + (2) * ((c.e : ℂ)) ^ 2 * ((c.mass .d : ℂ)) ^ 2 * (ab z0.1 z1.1) * (ab z0.1 z3.1) + (2) * ((c.e : ℂ)) ^ 2 * (ab z0.1 z1.1) * (ab z1.1 z3.1) * (mb z1.2 (p 2) z0.1)) * i29 + ((2) * ((c.e : ℂ)) ^ 2 * (ab z0.1 z1.1) * (ab z1.1 z3.1) * (sb z2.2 ρ0)) * i30 + ((-2) * ((c.e : ℂ)) ^ 2 * (ab z0.1 z1.1) * (sb z0.2 ρ0) * (sb z2.2 ρ1)) * i31)) * ((1) * ((N.c 0)⁻¹) * ((N.c 1)⁻¹) / (9)) + ((-2) * ((c.e : ℂ)) ^ 2 * ((c.mass .d : ℂ)) * ((N.c 1)⁻¹) * (ab z0.1 z1.1) * (sb z2.2 ρ1) * (sb z3.2 ρ0) / (9) + (-2) * ((c.e : ℂ)) ^ 2 * ((c.mass .d : ℂ)) * ((N.c 1)⁻¹) * (ab z0.1 z3.1) * (ab z1.1 z2.1) * (sb ρ0 ρ1) / (9) + (2) * ((c.e : ℂ)) ^ 2 * ((N.c 1)⁻¹) * (ab z0.1 z1.1) * (ab z1.1 z2.1) * (sb z1.2 ρ1) * (sb z3.2 ρ0) / (9) + (-2) * ((c.e : ℂ)) ^ 2 * ((N.c 1)⁻¹) * (ab z0.1 z3.1) * (mb ρ0 (p 2) z1.1) * (sb z2.2 ρ1) / (9) + (-2) * ((c.e : ℂ)) ^ 2 * ((N.c 1)⁻¹) * (ab z1.1 z2.1) * (mb ρ1 (p 2) z0.1) * (sb z3.2 ρ0) / (9)) * y0 + ((2) * ((c.e : ℂ)) ^ 2 * ((c.mass .d : ℂ)) * ((N.c 0)⁻¹) * (ab z0.1 z1.1) * (sb z2.2 ρ0) * (sb z3.2 ρ1) / (9) + (2) * ((c.e : ℂ)) ^ 2 * ((c.mass .d : ℂ)) * ((N.c 0)⁻¹) * (ab z0.1 z2.1) * (ab z1.1 z3.1) * (sb ρ0 ρ1) / (9) + (-2) * ((c.e : ℂ)) ^ 2 * ((N.c 0)⁻¹) * (ab z0.1 z1.1) * (ab z0.1 z2.1) * (sb z0.2 ρ0) * (sb z3.2 ρ1) / (9) + (-2) * ((c.e : ℂ)) ^ 2 * ((N.c 0)⁻¹) * (ab z0.1 z2.1) * (mb ρ0 (p 2) z1.1) * (sb z3.2 ρ1) / (9) + (-2) * ((c.e : ℂ)) ^ 2 * ((N.c 0)⁻¹) * (ab z1.1 z3.1) * (mb ρ1 (p 2) z0.1) * (sb z2.2 ρ0) / (9)) * y1 + ((-1) * ((c.e : ℂ)) ^ 2 * ((c.mass .d : ℂ)) * ((N.c 0)⁻¹) * (ab z0.1 z1.1) * (sb z2.2 ρ0) * (sb z3.2 ρ1) / (9) + (-1) * ((c.e : ℂ)) ^ 2 * ((c.mass .d : ℂ)) * ((N.c 0)⁻¹) * (ab z0.1 z2.1) * (ab z1.1 z3.1) * (sb ρ0 ρ1) / (9) + (1) * ((c.e : ℂ)) ^ 2 * ((c.mass .d : ℂ)) * ((N.c 1)⁻¹) * (ab z0.1 z1.1) * (sb z2.2 ρ1) * (sb z3.2 ρ0) / (9) + (1) * ((c.e : ℂ)) ^ 2 * ((c.mass .d : ℂ)) * ((N.c 1)⁻¹) * (ab z0.1 z3.1) * (ab z1.1 z2.1) * (sb ρ0 ρ1) / (9) + (1) * ((c.e : ℂ)) ^ 2 * ((N.c 0)⁻¹) * (ab z0.1 z1.1) * (ab z0.1 z2.1) * (sb z0.2 ρ0) * (sb z3.2 ρ1) / (9) + (1) * ((c.e : ℂ)) ^ 2 * ((N.c 0)⁻¹) * (ab z0.1 z2.1) * (mb ρ0 (p 2) z1.1) * (sb z3.2 ρ1) / (9) + (1) * ((c.e : ℂ)) ^ 2 * ((N.c 0)⁻¹) * (ab z1.1 z3.1) * (mb ρ1 (p 2) z0.1) * (sb z2.2 ρ0) / (9) + (-1) * ((c.e : ℂ)) ^ 2 * ((N.c 1)⁻¹) * (ab z0.1 z1.1) * (ab z1.1 z2.1) * (sb z1.2 ρ1) * (sb z3.2 ρ0) / (9) + (1) * ((c.e : ℂ)) ^ 2 * ((N.c 1)⁻¹) * (ab z0.1 z3.1) * (mb ρ0 (p 2) z1.1) * (sb z2.2 ρ1) / (9) + (1) * ((c.e : ℂ)) ^ 2 * ((N.c 1)⁻¹) * (ab z1.1 z2.1) * (mb ρ1 (p 2) z0.1) * (sb z3.2 ρ0) / (9)) * x22
set_option maxRecDepth 8000 in
theorem AAdd.amp2_eq (N : Env) (f : Nat → List Int → ℂ) : Cls.AAdd.m_amp2.mean N f .r [] =
    ((sumW (fun x a => (sumW (fun x b => (sumJ (fun x c => (sumJ (fun x d => (x + (((3 : Nat) : ℝ) * (‖(f 0 [a, b, c, d])‖ ^ 2)))) x)) x)) x)) ((0 : Nat) : ℝ)) / ((4 : Nat) : ℝ)) := by rfl
set_option maxRecDepth 8000 in
theorem AAdd.value (N : Env) : meaning N .r Cls.AAdd.methods Cls.AAdd.amp2 [] =
    ((sumW (fun x a => (sumW (fun x b => (sumJ (fun x c => (sumJ (fun x d => (x + (((3 : Nat) : ℝ) * (‖(Cls.AAdd.m_amp.mean N (callMean N []) .c [a, b, c, d])‖ ^ 2)))) x)) x)) x)) ((0 : Nat) : ℝ)) / ((4 : Nat) : ℝ)) :=
  AAdd.amp2_eq N (callMean N [Cls.AAdd.m_amp])
set_option maxRecDepth 8000 in
theorem AAdd.ampPP (N : Env) (f : Nat → List Int → ℂ) (j3 j4 : Int) : Cls.AAdd.m_amp.mean N f .c [2, 2, j3, j4] = AAdd.termPP N j3 j4 := by rfl
set_option maxRecDepth 8000 in
theorem AAdd.ampPM (N : Env) (f : Nat → List Int → ℂ) (j3 j4 : Int) : Cls.AAdd.m_amp.mean N f .c [2, (-2), j3, j4] = AAdd.termPM N j3 j4 := by rfl
set_option maxRecDepth 8000 in
theorem AAdd.ampMP (N : Env) (f : Nat → List Int → ℂ) (j3 j4 : Int) : Cls.AAdd.m_amp.mean N f .c [(-2), 2, j3, j4] = AAdd.termMP N j3 j4 := by rfl
set_option maxRecDepth 8000 in
theorem AAdd.ampMM (N : Env) (f : Nat → List Int → ℂ) (j3 j4 : Int) : Cls.AAdd.m_amp.mean N f .c [(-2), (-2), j3, j4] = AAdd.termMM N j3 j4 := by rfl

theorem AAdd.mass_eq {c : Constants} (hc : c.Physical) (i : Fin 4) : AAdd.proc.massNum (AAdd.rho c) i = AAdd.react.mass c i := by
  fin_cases i <;> first | rfl | exact Nat.cast_zero | exact Nat.cast_zero.trans (hc.neutrino _).symm | (show c.MW / √(((1 : Nat) : ℝ) - c.SW * c.SW) = c.MZ; rw [c.root, c.mz])

variable [FPEnv] in
theorem AAdd.amps {c : Constants} {p : Nat → V4 ℝ} {u : Fin 4 → Fin 3 → Spinor} {ε : Fin 4 → Fin 3 → Vec} (hc : c.Physical) (hh : c.Heavy) (h0 : ∀ i, 0 ≤ AAdd.react.mass c i) (hs : ∀ i : Fin 4, OnShell (p i) (AAdd.react.mass c i)) (hb : Balanced p) (hr : AAdd.react.Regular c p) (hu : ∀ i, AAdd.react.Complete c p i (u i) (ε i)) :
    (AAdd.N c p).c 0 ≠ 0 ∧ (AAdd.N c p).c 1 ≠ 0 ∧ (∀ n, (Ty.r, n) ∈ AAdd.proc.divides → (AAdd.N c p).r n ≠ 0) ∧ (∀ n, (Ty.c, n) ∈ AAdd.proc.divides → (AAdd.N c p).c n ≠ 0) ∧ ∀ (s2 : Fin 2) (s3 : Fin 2) (h0 : Fin 2) (h1 : Fin 2), ‖Cls.AAdd.m_amp.mean (AAdd.N c p) (callMean (AAdd.N c p) []) .c [spinW h0, spinW h1, spinOf s2, spinOf s3]‖ = ‖AAdd.react.bare c p 2 3 0 1 (AAdd.react.codePair c p 2 s2) (AAdd.react.codePair c p 3 s3) (lightE (legA (p 0) 0 0, legS (p 0) 0 1) h0.castSucc) (lightE (legA (p 1) 0 0, legS (p 1) 0 1) h1.castSucc)‖ := by
  have he : AAdd.react.ends = [2] := by decide
  have ht : AAdd.react.starts = [3] := by decide
  have hB : AAdd.react.bosons = [0, 1] := by decide
  obtain ⟨f1, f2, f3⟩ := AAdd.react.regular_line he ht hB hr
  have r0 : (AAdd.N c p).r 0 = c.e := rfl
  have r1 : (AAdd.N c p).r 1 = ((-((1 : Nat) : ℝ)) / ((3 : Nat) : ℝ)) := rfl
  have r2 : (AAdd.N c p).r 2 = (c.mass .d) := rfl
  have c0 : (AAdd.N c p).c 0 = poleDist (c.mass .d) ((0 : Nat) : ℝ) ((VExp.sub 0 2).sum p) := rfl
  rw [Nat.cast_zero, pole_fermion rfl] at c0
  have d0 : ((msq (plus (backward (p 3)) (p 1)) - c.mass .d ^ 2 : ℝ) : ℂ) = (AAdd.N c p).c 0 := by rw [c0, msq_t hb (plus (backward (p 3)) (p 1)) (by simp)]
  have n0 : (AAdd.N c p).c 0 ≠ 0 := by rw [← d0]; exact_mod_cast f2 .d rfl rfl
  have c1 : (AAdd.N c p).c 1 = poleDist (c.mass .d) ((0 : Nat) : ℝ) ((VExp.sub 0 3).sum p) := rfl
  rw [Nat.cast_zero, pole_fermion rfl] at c1
  have d1 : ((msq (plus (backward (p 3)) (p 0)) - c.mass .d ^ 2 : ℝ) : ℂ) = (AAdd.N c p).c 1 := by rw [c1, msq_u hb (plus (backward (p 3)) (p 0)) (by simp)]
  have n1 : (AAdd.N c p).c 1 ≠ 0 := by rw [← d1]; exact_mod_cast f1 .d rfl rfl
  obtain ⟨l0, x0, y0⟩ := AAdd.react.code_light hs hu (n := 0) rfl rfl
  obtain ⟨l1, x1, y1⟩ := AAdd.react.code_light hs hu (n := 1) rfl rfl
  have e02 := l0.pole_sub (m := (c.mass .d)) (onShell_msq (hs 2)) (msq_t hb (plus (p 0) (backward (p 2))) (by simp)) c0
  have e03 := l0.pole_sub (m := (c.mass .d)) (onShell_msq (hs 3)) (msq_u hb (plus (p 0) (backward (p 3))) (by simp)) c1
  have e12 := l1.pole_sub (m := (c.mass .d)) (onShell_msq (hs 2)) (msq_u hb (plus (p 1) (backward (p 2))) (by simp)) c1
  have e13 := l1.pole_sub (m := (c.mass .d)) (onShell_msq (hs 3)) (msq_t hb (plus (p 1) (backward (p 3))) (by simp)) c0
  have m2 : AAdd.react.mass c 2 ≠ 0 := (leg_pos hc hh (by decide)).ne'
  have m3 : AAdd.react.mass c 3 ≠ 0 := (leg_pos hc hh (by decide)).ne'
  have m0 : AAdd.react.mass c 0 = 0 := rfl
  have m1 : AAdd.react.mass c 1 = 0 := rfl
  have hd : AAdd.proc.divides = [(Ty.c, 0), (Ty.c, 1)] := by decide +kernel
  have stPP : ∀ {z2 z3 : Pair} (b2 : Bold (p 2) (AAdd.react.mass c 2) z2) (b3 : Bold (p 3) (AAdd.react.mass c 3) z3), AAdd.formPP (AAdd.N c p) p (legA (p 0) 0 0, legS (p 0) 0 1) (legA (p 1) 0 0, legS (p 1) 0 1) z2 z3 = 1 * AAdd.react.bare c p 2 3 0 1 z2 z3 (lightE (legA (p 0) 0 0, legS (p 0) 0 1) 1) (lightE (legA (p 1) 0 0, legS (p 1) 0 1) 1) := by
    intro z2 z3 b2 b3
    exact (light_plus (z := (legA (p 0) 0 0, legS (p 0) 0 1)) (G := fun E => AAdd.react.bare c p 2 3 0 1 z2 z3 E (lightE (legA (p 1) 0 0, legS (p 1) 0 1) 1)) (AAdd.react.bare_lin₁ c p _ _ _ (by decide)) x0 (light_plus (z := (legA (p 1) 0 0, legS (p 1) 0 1)) (G := fun E => AAdd.react.bare c p 2 3 0 1 z2 z3 (pv (legA (p 0) 0 0, legS (p 0) 0 1).2 (legA (p 0) 0 0, legS (p 0) 0 1).2) E) (AAdd.react.bare_lin₂ c p _ _ _ (by decide)) x1 (AAdd.keyPP hc hb r0 r1 r2 d0 n0 d1 n1 b2 b3 l0 l1 e02 e03 e12 e13 (onShell_msq (hs 2)) (onShell_msq (hs 3)) _ _)))
  have stPM : ∀ {z2 z3 : Pair} (b2 : Bold (p 2) (AAdd.react.mass c 2) z2) (b3 : Bold (p 3) (AAdd.react.mass c 3) z3), AAdd.formPM (AAdd.N c p) p (legA (p 0) 0 0, legS (p 0) 0 1) (legA (p 1) 0 0, legS (p 1) 0 1) z2 z3 = 1 * AAdd.react.bare c p 2 3 0 1 z2 z3 (lightE (legA (p 0) 0 0, legS (p 0) 0 1) 1) (lightE (legA (p 1) 0 0, legS (p 1) 0 1) 0) := by
    intro z2 z3 b2 b3
    exact (light_plus (z := (legA (p 0) 0 0, legS (p 0) 0 1)) (G := fun E => AAdd.react.bare c p 2 3 0 1 z2 z3 E (lightE (legA (p 1) 0 0, legS (p 1) 0 1) 0)) (AAdd.react.bare_lin₁ c p _ _ _ (by decide)) x0 (light_minus (z := (legA (p 1) 0 0, legS (p 1) 0 1)) (G := fun E => AAdd.react.bare c p 2 3 0 1 z2 z3 (pv (legA (p 0) 0 0, legS (p 0) 0 1).2 (legA (p 0) 0 0, legS (p 0) 0 1).2) E) (AAdd.react.bare_lin₂ c p _ _ _ (by decide)) y1 (AAdd.keyPM hc hb r0 r1 d0 n0 d1 n1 b2 b3 l0 l1 e02 e03 e12 e13 (onShell_msq (hs 2)) (onShell_msq (hs 3)) _ _)))
  have stMP : ∀ {z2 z3 : Pair} (b2 : Bold (p 2) (AAdd.react.mass c 2) z2) (b3 : Bold (p 3) (AAdd.react.mass c 3) z3), AAdd.formMP (AAdd.N c p) p (legA (p 0) 0 0, legS (p 0) 0 1) (legA (p 1) 0 0, legS (p 1) 0 1) z2 z3 = 1 * AAdd.react.bare c p 2 3 0 1 z2 z3 (lightE (legA (p 0) 0 0, legS (p 0) 0 1) 0) (lightE (legA (p 1) 0 0, legS (p 1) 0 1) 1) := by
    intro z2 z3 b2 b3
    exact (light_minus (z := (legA (p 0) 0 0, legS (p 0) 0 1)) (G := fun E => AAdd.react.bare c p 2 3 0 1 z2 z3 E (lightE (legA (p 1) 0 0, legS (p 1) 0 1) 1)) (AAdd.react.bare_lin₁ c p _ _ _ (by decide)) y0 (light_plus (z := (legA (p 1) 0 0, legS (p 1) 0 1)) (G := fun E => AAdd.react.bare c p 2 3 0 1 z2 z3 (pv (legA (p 0) 0 0, legS (p 0) 0 1).1 (legA (p 0) 0 0, legS (p 0) 0 1).1) E) (AAdd.react.bare_lin₂ c p _ _ _ (by decide)) x1 (AAdd.keyMP hc hb r0 r1 d0 n0 d1 n1 b2 b3 l0 l1 e02 e03 e12 e13 (onShell_msq (hs 2)) (onShell_msq (hs 3)) _ _)))
  have stMM : ∀ {z2 z3 : Pair} (b2 : Bold (p 2) (AAdd.react.mass c 2) z2) (b3 : Bold (p 3) (AAdd.react.mass c 3) z3), AAdd.formMM (AAdd.N c p) p (legA (p 0) 0 0, legS (p 0) 0 1) (legA (p 1) 0 0, legS (p 1) 0 1) z2 z3 = 1 * AAdd.react.bare c p 2 3 0 1 z2 z3 (lightE (legA (p 0) 0 0, legS (p 0) 0 1) 0) (lightE (legA (p 1) 0 0, legS (p 1) 0 1) 0) := by
    intro z2 z3 b2 b3
    exact (light_minus (z := (legA (p 0) 0 0, legS (p 0) 0 1)) (G := fun E => AAdd.react.bare c p 2 3 0 1 z2 z3 E (lightE (legA (p 1) 0 0, legS (p 1) 0 1) 0)) (AAdd.react.bare_lin₁ c p _ _ _ (by decide)) y0 (light_minus (z := (legA (p 1) 0 0, legS (p 1) 0 1)) (G := fun E => AAdd.react.bare c p 2 3 0 1 z2 z3 (pv (legA (p 0) 0 0, legS (p 0) 0 1).1 (legA (p 0) 0 0, legS (p 0) 0 1).1) E) (AAdd.react.bare_lin₂ c p _ _ _ (by decide)) y1 (AAdd.keyMM hc hb r0 r1 r2 d0 n0 d1 n1 b2 b3 l0 l1 e02 e03 e12 e13 (onShell_msq (hs 2)) (onShell_msq (hs 3)) _ _)))
  have amPP : ∀ (s2 : Fin 2) (s3 : Fin 2), Cls.AAdd.m_amp.mean (AAdd.N c p) (callMean (AAdd.N c p) []) .c [2, 2, spinOf s2, spinOf s3] = 1 * AAdd.react.bare c p 2 3 0 1 (AAdd.react.codePair c p 2 s2) (AAdd.react.codePair c p 3 s3) (lightE (legA (p 0) 0 0, legS (p 0) 0 1) 1) (lightE (legA (p 1) 0 0, legS (p 1) 0 1) 1) := by
    intro s2 s3
    rw [AAdd.ampPP, ← stPP (AAdd.react.codePair_bold hs h0 2 s2) (AAdd.react.codePair_bold hs h0 3 s3)]
    have v2z0z1 : (AAdd.N c p).v 2 [] = sb (legA (p 0) 0 0, legS (p 0) 0 1).2 (legA (p 1) 0 0, legS (p 1) 0 1).2 := bra_square (p := p) (m := AAdd.proc.massNum (AAdd.rho c)) (AAdd.mass_eq hc 0) (AAdd.mass_eq hc 1) (.inr ⟨m0, rfl⟩) (.inr ⟨m1, rfl⟩)
    have v1z2z3 : (AAdd.N c p).v 1 [spinOf s2, spinOf s3] = ab (AAdd.react.codePair c p 2 s2).1 (AAdd.react.codePair c p 3 s3).1 := bra_angle (p := p) (m := AAdd.proc.massNum (AAdd.rho c)) (AAdd.mass_eq hc 2) (AAdd.mass_eq hc 3) (.inl ⟨m2, rfl⟩) (.inl ⟨m3, rfl⟩)
    simp only [AAdd.termPP, AAdd.formPP, v2z0z1, v1z2z3]
  have amPM : ∀ (s2 : Fin 2) (s3 : Fin 2), Cls.AAdd.m_amp.mean (AAdd.N c p) (callMean (AAdd.N c p) []) .c [2, (-2), spinOf s2, spinOf s3] = 1 * AAdd.react.bare c p 2 3 0 1 (AAdd.react.codePair c p 2 s2) (AAdd.react.codePair c p 3 s3) (lightE (legA (p 0) 0 0, legS (p 0) 0 1) 1) (lightE (legA (p 1) 0 0, legS (p 1) 0 1) 0) := by
    intro s2 s3
    rw [AAdd.ampPM, ← stPM (AAdd.react.codePair_bold hs h0 2 s2) (AAdd.react.codePair_bold hs h0 3 s3)]
    have v4z0z2 : (AAdd.N c p).v 4 [spinOf s2] = sb (legA (p 0) 0 0, legS (p 0) 0 1).2 (AAdd.react.codePair c p 2 s2).2 := bra_square (p := p) (m := AAdd.proc.massNum (AAdd.rho c)) (AAdd.mass_eq hc 0) (AAdd.mass_eq hc 2) (.inr ⟨m0, rfl⟩) (.inl ⟨m2, rfl⟩)
    have v7z1z3 : (AAdd.N c p).v 7 [spinOf s3] = ab (legA (p 1) 0 0, legS (p 1) 0 1).1 (AAdd.react.codePair c p 3 s3).1 := bra_angle (p := p) (m := AAdd.proc.massNum (AAdd.rho c)) (AAdd.mass_eq hc 1) (AAdd.mass_eq hc 3) (.inr ⟨m1, rfl⟩) (.inl ⟨m3, rfl⟩)
    have v10z0z3 : (AAdd.N c p).v 10 [spinOf s3] = sb (legA (p 0) 0 0, legS (p 0) 0 1).2 (AAdd.react.codePair c p 3 s3).2 := bra_square (p := p) (m := AAdd.proc.massNum (AAdd.rho c)) (AAdd.mass_eq hc 0) (AAdd.mass_eq hc 3) (.inr ⟨m0, rfl⟩) (.inl ⟨m3, rfl⟩)
    have v9z1z2 : (AAdd.N c p).v 9 [spinOf s2] = ab (legA (p 1) 0 0, legS (p 1) 0 1).1 (AAdd.react.codePair c p 2 s2).1 := bra_angle (p := p) (m := AAdd.proc.massNum (AAdd.rho c)) (AAdd.mass_eq hc 1) (AAdd.mass_eq hc 2) (.inr ⟨m1, rfl⟩) (.inl ⟨m2, rfl⟩)
    have v12z0z1 : (AAdd.N c p).v 12 [] = mb (legA (p 0) 0 0, legS (p 0) 0 1).2 (p 2) (legA (p 1) 0 0, legS (p 1) 0 1).1 := bra_mid_square (p := p) (m := AAdd.proc.massNum (AAdd.rho c)) (AAdd.mass_eq hc 0) (AAdd.mass_eq hc 1) (.inr ⟨m0, rfl⟩) (.inr ⟨m1, rfl⟩)
    simp only [AAdd.termPM, AAdd.formPM, v4z0z2, v7z1z3, v10z0z3, v9z1z2, v12z0z1]
  have amMP : ∀ (s2 : Fin 2) (s3 : Fin 2), Cls.AAdd.m_amp.mean (AAdd.N c p) (callMean (AAdd.N c p) []) .c [(-2), 2, spinOf s2, spinOf s3] = 1 * AAdd.react.bare c p 2 3 0 1 (AAdd.react.codePair c p 2 s2) (AAdd.react.codePair c p 3 s3) (lightE (legA (p 0) 0 0, legS (p 0) 0 1) 0) (lightE (legA (p 1) 0 0, legS (p 1) 0 1) 1) := by
    intro s2 s3
    rw [AAdd.ampMP, ← stMP (AAdd.react.codePair_bold hs h0 2 s2) (AAdd.react.codePair_bold hs h0 3 s3)]
    have v5z0z2 : (AAdd.N c p).v 5 [spinOf s2] = ab (legA (p 0) 0 0, legS (p 0) 0 1).1 (AAdd.react.codePair c p 2 s2).1 := bra_angle (p := p) (m := AAdd.proc.massNum (AAdd.rho c)) (AAdd.mass_eq hc 0) (AAdd.mass_eq hc 2) (.inr ⟨m0, rfl⟩) (.inl ⟨m2, rfl⟩)
    have v6z1z3 : (AAdd.N c p).v 6 [spinOf s3] = sb (legA (p 1) 0 0, legS (p 1) 0 1).2 (AAdd.react.codePair c p 3 s3).2 := bra_square (p := p) (m := AAdd.proc.massNum (AAdd.rho c)) (AAdd.mass_eq hc 1) (AAdd.mass_eq hc 3) (.inr ⟨m1, rfl⟩) (.inl ⟨m3, rfl⟩)
    have v11z0z3 : (AAdd.N c p).v 11 [spinOf s3] = ab (legA (p 0) 0 0, legS (p 0) 0 1).1 (AAdd.react.codePair c p 3 s3).1 := bra_angle (p := p) (m := AAdd.proc.massNum (AAdd.rho c)) (AAdd.mass_eq hc 0) (AAdd.mass_eq hc 3) (.inr ⟨m0, rfl⟩) (.inl ⟨m3, rfl⟩)
    have v8z1z2 : (AAdd.N c p).v 8 [spinOf s2] = sb (legA (p 1) 0 0, legS (p 1) 0 1).2 (AAdd.react.codePair c p 2 s2).2 := bra_square (p := p) (m := AAdd.proc.massNum (AAdd.rho c)) (AAdd.mass_eq hc 1) (AAdd.mass_eq hc 2) (.inr ⟨m1, rfl⟩) (.inl ⟨m2, rfl⟩)
    have v13z1z0 : (AAdd.N c p).v 13 [] = mb (legA (p 1) 0 0, legS (p 1) 0 1).2 (p 2) (legA (p 0) 0 0, legS (p 0) 0 1).1 := bra_mid_square (p := p) (m := AAdd.proc.massNum (AAdd.rho c)) (AAdd.mass_eq hc 1) (AAdd.mass_eq hc 0) (.inr ⟨m1, rfl⟩) (.inr ⟨m0, rfl⟩)
    simp only [AAdd.termMP, AAdd.formMP, v5z0z2, v6z1z3, v11z0z3, v8z1z2, v13z1z0]
  have amMM : ∀ (s2 : Fin 2) (s3 : Fin 2), Cls.AAdd.m_amp.mean (AAdd.N c p) (callMean (AAdd.N c p) []) .c [(-2), (-2), spinOf s2, spinOf s3] = 1 * AAdd.react.bare c p 2 3 0 1 (AAdd.react.codePair c p 2 s2) (AAdd.react.codePair c p 3 s3) (lightE (legA (p 0) 0 0, legS (p 0) 0 1) 0) (lightE (legA (p 1) 0 0, legS (p 1) 0 1) 0) := by
    intro s2 s3
    rw [AAdd.ampMM, ← stMM (AAdd.react.codePair_bold hs h0 2 s2) (AAdd.react.codePair_bold hs h0 3 s3)]
    have v3z0z1 : (AAdd.N c p).v 3 [] = ab (legA (p 0) 0 0, legS (p 0) 0 1).1 (legA (p 1) 0 0, legS (p 1) 0 1).1 := bra_angle (p := p) (m := AAdd.proc.massNum (AAdd.rho c)) (AAdd.mass_eq hc 0) (AAdd.mass_eq hc 1) (.inr ⟨m0, rfl⟩) (.inr ⟨m1, rfl⟩)
    have v0z2z3 : (AAdd.N c p).v 0 [spinOf s2, spinOf s3] = sb (AAdd.react.codePair c p 2 s2).2 (AAdd.react.codePair c p 3 s3).2 := bra_square (p := p) (m := AAdd.proc.massNum (AAdd.rho c)) (AAdd.mass_eq hc 2) (AAdd.mass_eq hc 3) (.inl ⟨m2, rfl⟩) (.inl ⟨m3, rfl⟩)
    simp only [AAdd.termMM, AAdd.formMM, v3z0z1, v0z2z3]
  refine ⟨n0, n1, fun n hn => ?_, fun n hn => ?_, ?_⟩
  · simp [hd] at hn
  · simp [hd] at hn
    rcases hn with rfl | rfl
    · exact n0
    · exact n1
  intro s2 s3 h0 h1
  match h0, h1 with
  | 1, 1 => exact norm_plus (amPP s2 s3)
  | 1, 0 => exact norm_plus (amPM s2 s3)
  | 0, 1 => exact norm_plus (amMP s2 s3)
  | 0, 0 => exact norm_plus (amMM s2 s3)

variable [FPEnv] in
theorem AAdd.agrees : AAdd.Agrees := by
  refine agrees_of (D := []) (E := []) (by simp [all, AAdd]) (by decide +kernel) (by decide) (by decide +kernel) (fun c hc hh => ⟨List.forall_mem_nil _, List.forall_mem_nil _⟩) (fun c hc i => AAdd.mass_eq hc i) (by decide +kernel) ?_
  intro c p u ε hc hh hw h0 hs hb hr hu
  have he : AAdd.react.ends = [2] := by decide
  have ht : AAdd.react.starts = [3] := by decide
  have hB : AAdd.react.bosons = [0, 1] := by decide
  obtain ⟨n0, n1, d1, d2, am⟩ := AAdd.amps hc hh h0 hs hb hr hu
  refine ⟨d1, d2, ?_⟩
  show meaning (AAdd.N c p) .r Cls.AAdd.methods Cls.AAdd.amp2 [] = _
  have s0 : AAdd.react.states 0 = 2 := by decide +kernel
  have s1 : AAdd.react.states 1 = 2 := by decide +kernel
  have sy : AAdd.react.symmetry = 1 := by decide
  have p0 : AAdd.react.spins 0 = {0, 1} := rfl
  have p1 : AAdd.react.spins 1 = {0, 1} := rfl
  have p2 : AAdd.react.spins 2 = {0, 1} := rfl
  have p3 : AAdd.react.spins 3 = {0, 1} := rfl
  have E0 : AAdd.react.codeE c p 0 = lightE (legA (p 0) 0 0, legS (p 0) 0 1) := rfl
  have E1 : AAdd.react.codeE c p 1 = lightE (legA (p 1) 0 0, legS (p 1) 0 1) := rfl
  have hG : AAdd.react.Gauge c p := (AAdd.react.gauge_line he ht hB hh (by decide) (fun n => onShell_msq (hs n)) hb hr (fun n m h h2 => absurd (And.intro h h2) (by revert n m; decide)) (fun _ => ⟨rfl, rfl⟩) (fun _ => ⟨rfl, rfl⟩))
  have lc : AAdd.react.lineColours 2 3 = 3 := by decide +kernel
  rw [AAdd.value, AAdd.react.squared_line he ht hB (by decide) hs h0 (fun _ b _ hb _ => (boson_pos hc hh hb).ne') hG (E := AAdd.react.codeE c p) (fun n b hl => AAdd.react.codeE_polarised hs h0 hu (fun b hb => (boson_pos hc hh hb).ne') n b hl) hu, sum_colours, lc, s0, s1, sy]
  simp only [sumV_sum, sumJ_sum, sumW_sum, am, p0, p1, p2, p3, E0, E1, Finset.sum_singleton, sum_two, Matrix.cons_val_zero, Matrix.cons_val_one, Matrix.cons_val, two_castSucc]
  try simp only [← Finset.mul_sum]
  push_cast
  first | ring1 | ring_nf

/-! ### AAee -/

/-- what the methods of the class see -/
noncomputable abbrev AAee.N [FPEnv] (c : Constants) (p : Nat → V4 ℝ) : Env := AAee.proc.env (AAee.rho c) p
/-- `amp` for a photon of positive helicity and a photon of positive helicity (SM/AAee.cpp) -/
noncomputable def AAee.termPP (N : Env) (j3 j4 : Int) : ℂ :=
  ((((((((((((2 : Nat) : ℝ) * N.r 0) * N.r 0) * N.r 1) : ℝ) : ℂ) * N.v 2 []) * N.v 2 []) * N.v 1 [j3, j4]) / N.c 0) / N.c 1)
/-- the same with spinors in place of their spins -/
noncomputable def AAee.formPP (N : Env) (p : Nat → V4 ℝ) (z0 z1 z2 z3 : Pair) : ℂ :=
  ((((((((((((2 : Nat) : ℝ) * N.r 0) * N.r 0) * N.r 1) : ℝ) : ℂ) * (sb z0.2 z1.2)) * (sb z0.2 z1.2)) * (ab z2.1 z3.1)) / N.c 0) / N.c 1)
/-- `amp` for a photon of positive helicity and a photon of negative helicity (SM/AAee.cpp) -/
noncomputable def AAee.termPM (N : Env) (j3 j4 : Int) : ℂ :=
  (((((((((-((2 : Nat) : ℝ)) * N.r 0) * N.r 0) : ℝ) : ℂ) * ((N.v 4 [j3] * N.v 7 [j4]) + (N.v 10 [j4] * N.v 9 [j3]))) * N.v 12 []) / N.c 0) / N.c 1)
/-- the same with spinors in place of their spins -/
noncomputable def AAee.formPM (N : Env) (p : Nat → V4 ℝ) (z0 z1 z2 z3 : Pair) : ℂ :=
  (((((((((-((2 : Nat) : ℝ)) * N.r 0) * N.r 0) : ℝ) : ℂ) * (((sb z0.2 z2.2) * (ab z1.1 z3.1)) + ((sb z0.2 z3.2) * (ab z1.1 z2.1)))) * (mb z0.2 (p 2) z1.1)) / N.c 0) / N.c 1)
/-- `amp` for a photon of negative helicity and a photon of positive helicity (SM/AAee.cpp) -/
noncomputable def AAee.termMP (N : Env) (j3 j4 : Int) : ℂ :=
  (((((((((-((2 : Nat) : ℝ)) * N.r 0) * N.r 0) : ℝ) : ℂ) * ((N.v 5 [j3] * N.v 6 [j4]) + (N.v 11 [j4] * N.v 8 [j3]))) * N.v 13 []) / N.c 0) / N.c 1)
/-- the same with spinors in place of their spins -/
noncomputable def AAee.formMP (N : Env) (p : Nat → V4 ℝ) (z0 z1 z2 z3 : Pair) : ℂ :=
  (((((((((-((2 : Nat) : ℝ)) * N.r 0) * N.r 0) : ℝ) : ℂ) * (((ab z0.1 z2.1) * (sb z1.2 z3.2)) + ((ab z0.1 z3.1) * (sb z1.2 z2.2)))) * (mb z1.2 (p 2) z0.1)) / N.c 0) / N.c 1)
/-- `amp` for a photon of negative helicity and a photon of negative helicity (SM/AAee.cpp) -/
noncomputable def AAee.termMM (N : Env) (j3 j4 : Int) : ℂ :=
  ((((((((((((2 : Nat) : ℝ) * N.r 0) * N.r 0) * N.r 1) : ℝ) : ℂ) * N.v 3 []) * N.v 3 []) * N.v 0 [j3, j4]) / N.c 0) / N.c 1)
/-- the same with spinors in place of their spins -/
noncomputable def AAee.formMM (N : Env) (p : Nat → V4 ℝ) (z0 z1 z2 z3 : Pair) : ℂ :=
  ((((((((((((2 : Nat) : ℝ) * N.r 0) * N.r 0) * N.r 1) : ℝ) : ℂ) * (ab z0.1 z1.1)) * (ab z0.1 z1.1)) * (sb z2.2 z3.2)) / N.c 0) / N.c 1)
theorem AAee.keyPP {c : Constants} {p : Nat → V4 ℝ} {N : Env} (hc : c.Physical) (hb : Balanced p) (r0 : N.r 0 = c.e) (r1 : N.r 1 = (c.mass .e)) (d0 : ((msq (plus (backward (p 3)) (p 1)) - c.mass .e ^ 2 : ℝ) : ℂ) = N.c 0) (n0 : N.c 0 ≠ 0) (d1 : ((msq (plus (backward (p 3)) (p 0)) - c.mass .e ^ 2 : ℝ) : ℂ) = N.c 1) (n1 : N.c 1 ≠ 0) {z0 z1 z2 z3 : Pair} (b2 : Bold (p 2) (c.mass .e) z2) (b3 : Bold (p 3) (c.mass .e) z3) (l0 : Light (p 0) z0) (l1 : Light (p 1) z1) (e02 : mb z0.2 (p 2) z0.1 = -N.c 0) (e03 : mb z0.2 (p 3) z0.1 = -N.c 1) (e12 : mb z1.2 (p 2) z1.1 = -N.c 1) (e13 : mb z1.2 (p 3) z1.1 = -N.c 0) (q2 : msq (p 2) = (c.mass .e) ^ 2) (q3 : msq (p 3) = (c.mass .e) ^ 2) (ρ0 ρ1 : V2) :
    AAee.formPP N p z0 z1 z2 z3 * ab ρ0 z0.1 * ab ρ1 z1.1 = ((√2 : ℝ) * ((√2 : ℝ) * (1 : ℂ))) * AAee.react.bare c p 2 3 0 1 z2 z3 (pv ρ0 z0.2) (pv ρ1 z1.2) := by
  rw [AAee.react.bare_parts c p (i := 2) (j := 3) (a := 0) (b := 1) (x := .photon) (y := .photon) (k := (p 0)) (k' := (p 1)) (fun _ => rfl) (fun _ => rfl) (f := .e) (g := .e) rfl rfl (l := (backward (p 3))) rfl (e := 1) (e' := -1) (if_neg Bool.false_ne_true) (if_pos rfl)]
  rw [compton_vv (f := .e) (x := .e) (g := .e) (h := (rfl : Spec.after .photon Flavour.e = some Flavour.e)) (h' := (rfl : Spec.after .photon Flavour.e = some Flavour.e)) (ha := by simp) (hb := by simp)]
  rw [compton_vv (f := .e) (x := .e) (g := .e) (h := (rfl : Spec.after .photon Flavour.e = some Flavour.e)) (h' := (rfl : Spec.after .photon Flavour.e = some Flavour.e)) (ha := by simp) (hb := by simp)]
  rw [annihilation_none c _ _ (by rfl) (by simp), star_zero, add_zero, AAee.formPP]
  simp only [d0, d1, lineV_pv, lineV_four, contract_four_pv, contract_pv, mb_plus, mb_backward]
  have i0 := mb_schouten_right z0.2 (p 2) z0.1 z2.1 ρ1
  have i1 := mb_schouten_right z0.2 (p 2) z0.1 z3.1 ρ0
  have i2 := mb_schouten_right z0.2 (p 2) z0.1 z2.1 z3.1
  have i3 := ab_schouten z2.1 ρ0 ρ1 z0.1
  have i4 := ab_schouten z3.1 ρ0 ρ1 z2.1
  have i5 := ab_schouten z3.1 ρ0 ρ1 z0.1
  have i6 := sb_schouten z1.2 z2.2 z3.2 z0.2
  have i7 := mb_schouten_right z0.2 (p 2) z0.1 z2.1 ρ0
  have i8 := mb_schouten_right z1.2 (p 2) z0.1 z2.1 ρ0
  have i9 := mb_schouten_right z0.2 (p 2) z0.1 ρ0 ρ1
  have i10 := mb_schouten_right z0.2 (p 3) z0.1 z2.1 ρ0
  have i11 := mb_schouten_left z0.2 z1.2 z2.2 (p 2) z0.1
  have i12 := mb_schouten_right z0.2 (p 3) z0.1 z3.1 ρ1
  have i13 := mb_schouten_left z0.2 z1.2 z2.2 (p 2) ρ0
  have i14 := ab_schouten z2.1 z3.1 ρ0 z0.1
  have i15 := mb_schouten_right z0.2 (p 2) z0.1 z3.1 ρ1
  have i16 := mb_schouten_right z1.2 (p 2) z0.1 z1.1 ρ0
  have i17 := ab_schouten z1.1 z3.1 ρ1 z0.1
  have i18 := mb_schouten_right z0.2 (p 2) z2.1 ρ0 ρ1
  have i19 := mb_schouten_left z0.2 z1.2 z3.2 (p 2) z0.1
  have i20 := ab_schouten z1.1 z2.1 ρ1 z0.1
  have i21 := ab_schouten z1.1 ρ0 ρ1 z0.1
  have i22 := mb_schouten_right z0.2 (p 3) z0.1 z3.1 ρ0
  have i23 := mb_schouten_right z0.2 (p 2) z0.1 z1.1 z2.1
  have i24 := ab_schouten z2.1 ρ0 ρ1 z1.1
  have i25 := mb_schouten_right z0.2 (p 2) z0.1 z1.1 ρ0
  have i26 := mb_schouten_right z0.2 (p 2) z0.1 z1.1 ρ1
  have i27 := mb_schouten_right z1.2 (p 2) z0.1 z1.1 z3.1
  have i28 := mb_schouten_right z2.2 (p 3) z0.1 z3.1 ρ0
  have i29 := ab_schouten z1.1 z3.1 ρ0 z0.1
  have i30 := mb_schouten_right z0.2 (p 3) z0.1 z2.1 ρ1
  have i31 := mb_schouten_right z2.2 (p 3) z0.1 z3.1 ρ1
  have i32 := ab_schouten z3.1 ρ0 ρ1 z1.1
  have i33 := mb_schouten_left z0.2 z1.2 z2.2 (p 2) z1.1
  have i34 := mb_schouten_right z1.2 (p 2) z0.1 z3.1 ρ0
  simp only [l0.mb_eq, l1.mb_eq, b2.mb_left, b2.mb_right, b3.mb_left, b3.mb_right, e02, e03, e12, e13, mb_three hb z0.2 z1.1, mb_three hb z0.2 z2.1, mb_two hb z0.2 z3.1, mb_three hb z0.2 ρ0, mb_three hb z0.2 ρ1, mb_three hb z1.2 z0.1, mb_three hb z1.2 z2.1, mb_two hb z1.2 z3.1, mb_three hb z1.2 ρ0, mb_three hb z1.2 ρ1, mb_three hb z2.2 z0.1, mb_three hb z2.2 z1.1, mb_three hb z2.2 z2.1, mb_three hb z2.2 ρ0, mb_three hb z2.2 ρ1, mb_two hb z3.2 z0.1, mb_two hb z3.2 z1.1, mb_two hb z3.2 z3.1, mb_two hb z3.2 ρ0, mb_two hb z3.2 ρ1, ab_self, sb_self] at i0 i1 i2 i3 i4 i5 i6 i7 i8 i9 i10 i11 i12 i13 i14 i15 i16 i17 i18 i19 i20 i21 i22 i23 i24 i25 i26 i27 i28 i29 i30 i31 i32 i33 i34 ⊢
  simp only [ab_swap z0.1 z1.1, ab_swap z0.1 z2.1, ab_swap z0.1 z3.1, ab_swap z0.1 ρ0, ab_swap z0.1 ρ1, ab_swap z1.1 z2.1, ab_swap z1.1 z3.1, ab_swap z1.1 ρ0, ab_swap z1.1 ρ1, ab_swap z2.1 z3.1, ab_swap z2.1 ρ0, ab_swap z2.1 ρ1, ab_swap z3.1 ρ0, ab_swap z3.1 ρ1, ab_swap ρ0 ρ1, sb_swap z0.2 z1.2, sb_swap z0.2 z2.2, sb_swap z0.2 z3.2, sb_swap z1.2 z2.2, sb_swap z1.2 z3.2, sb_swap z2.2 z3.2] at i0 i1 i2 i3 i4 i5 i6 i7 i8 i9 i10 i11 i12 i13 i14 i15 i16 i17 i18 i19 i20 i21 i22 i23 i24 i25 i26 i27 i28 i29 i30 i31 i32 i33 i34 ⊢
  simp only [r0, r1, Constants.hL, Constants.hR, Constants.gL, Constants.gR, Constants.yuk, Constants.invVev, Flavour.charge_e, Flavour.isospin_e, ← c.mz]
  have xMW : (c.MW : ℂ) ≠ 0 := by exact_mod_cast hc.MW
  have xSW : (c.SW : ℂ) ≠ 0 := by exact_mod_cast hc.SW
  have xCW : (c.CW : ℂ) ≠ 0 := by exact_mod_cast hc.CW
  have x2 : ((√2 : ℝ) : ℂ) ≠ 0 := by exact_mod_cast (Real.sqrt_pos.2 two_pos).ne'
  have x22 : ((√2 : ℝ) : ℂ) ^ 2 = 2 := by rw [← Complex.ofReal_pow, Real.sq_sqrt two_pos.le]; norm_num
  have x23 : ((√2 : ℝ) : ℂ) ^ 3 = 2 * ((√2 : ℝ) : ℂ) := by rw [← x22]; ring
  have x24 : ((√2 : ℝ) : ℂ) ^ 4 = 4 := by linear_combination (((√2 : ℝ) : ℂ) ^ 2 + 2) * x22
  push_cast at i0 i1 i2 i3 i4 i5 i6 i7 i8 i9 i10 i11 i12 i13 i14 i15 i16 i17 i18 i19 i20 i21 i22 i23 i24 i25 i26 i27 i28 i29 i30 i31 i32 i33 i34 ⊢
  have y0 := mul_inv_cancel₀ n0
  have y1 := mul_inv_cancel₀ n1
  linear_combination ((((-2) * ((c.e : ℂ)) ^ 2 * ((c.mass .e : ℂ)) * (ab z3.1 ρ0) * (sb z0.2 z1.2) + (-2) * ((c.e : ℂ)) ^ 2 * (mb z1.2 (p 2) ρ0) * (sb z0.2 z3.2)) * i0 + ((-2) * ((c.e : ℂ)) ^ 2 * ((c.mass .e : ℂ)) * (ab z2.1 ρ1) * (sb z0.2 z1.2) + (2) * ((c.e : ℂ)) ^ 2 * (ab z1.1 ρ1) * (sb z0.2 z1.2) * (sb z1.2 z2.2) + (-4) * ((c.e : ℂ)) ^ 2 * (mb z0.2 (p 2) ρ1) * (sb z1.2 z2.2)) * i1 + ((-2) * ((c.e : ℂ)) ^ 2 * ((c.mass .e : ℂ)) * (ab ρ0 ρ1) * (sb z0.2 z1.2)) * i2 + ((2) * ((c.e : ℂ)) ^ 2 * ((c.mass .e : ℂ)) * (ab z1.1 z3.1) * (sb z0.2 z1.2) ^ 2 + (2) * ((c.e : ℂ)) ^ 2 * ((c.mass .e : ℂ)) ^ 2 * (sb z0.2 z1.2) * (sb z0.2 z3.2) + (-2) * ((c.e : ℂ)) ^ 2 * (mb z0.2 (p 2) z1.1) * (sb z0.2 z1.2) * (sb z1.2 z3.2)) * i3 + ((-2) * ((c.e : ℂ)) ^ 2 * ((c.mass .e : ℂ)) * (N.c 0) * (sb z0.2 z1.2)) * i4 + ((2) * ((c.e : ℂ)) ^ 2 * ((c.mass .e : ℂ)) ^ 2 * (sb z0.2 z1.2) * (sb z0.2 z2.2) + (2) * ((c.e : ℂ)) ^ 2 * (N.c 1) * (sb z0.2 z1.2) * (sb z0.2 z2.2)) * i5 + ((2) * ((c.e : ℂ)) ^ 2 * ((c.mass .e : ℂ)) * (N.c 0) * (ab ρ0 ρ1) + (2) * ((c.e : ℂ)) ^ 2 * ((c.mass .e : ℂ)) * (ab z0.1 ρ0) * (ab z1.1 ρ1) * (sb z0.2 z1.2) + (-6) * ((c.e : ℂ)) ^ 2 * ((c.mass .e : ℂ)) * (ab z0.1 ρ0) * (mb z0.2 (p 2) ρ1) + (4) * ((c.e : ℂ)) ^ 2 * ((c.mass .e : ℂ)) * (ab z0.1 ρ1) * (mb z0.2 (p 2) ρ0)) * i6 + ((4) * ((c.e : ℂ)) ^ 2 * ((c.mass .e : ℂ)) * (ab z3.1 ρ1) * (sb z0.2 z1.2) + (-2) * ((c.e : ℂ)) ^ 2 * (mb z0.2 (p 2) ρ1) * (sb z1.2 z3.2)) * i7 + ((2) * ((c.e : ℂ)) ^ 2 * (mb z0.2 (p 2) ρ1) * (sb z0.2 z3.2)) * i8 + ((2) * ((c.e : ℂ)) ^ 2 * ((c.mass .e : ℂ)) * (sb z0.2 z1.2) * (sb z2.2 z3.2) + (-2) * ((c.e : ℂ)) ^ 2 * ((c.mass .e : ℂ)) * (sb z0.2 z2.2) * (sb z1.2 z3.2)) * i9 + ((2) * ((c.e : ℂ)) ^ 2 * ((c.mass .e : ℂ)) * (ab z3.1 ρ1) * (sb z0.2 z1.2)) * i10 + ((2) * ((c.e : ℂ)) ^ 2 * (ab z1.1 ρ0) * (ab z3.1 ρ1) * (sb z0.2 z1.2) + (2) * ((c.e : ℂ)) ^ 2 * (ab z3.1 ρ0) * (mb z0.2 (p 2) ρ1)) * i11 + ((-2) * ((c.e : ℂ)) ^ 2 * (ab z0.1 ρ0) * (sb z0.2 z1.2) * (sb z0.2 z2.2) + (-2) * ((c.e : ℂ)) ^ 2 * (mb z1.2 (p 2) ρ0) * (sb z0.2 z2.2)) * i12 + ((4) * ((c.e : ℂ)) ^ 2 * (N.c 0) * (ab z3.1 ρ1)) * i13 + ((2) * ((c.e : ℂ)) ^ 2 * ((c.mass .e : ℂ)) * (ab z1.1 ρ1) * (sb z0.2 z1.2) ^ 2) * i14 + ((2) * ((c.e : ℂ)) ^ 2 * ((c.mass .e : ℂ)) * (ab z2.1 ρ0) * (sb z0.2 z1.2) + (4) * ((c.e : ℂ)) ^ 2 * (mb z0.2 (p 2) ρ0) * (sb z1.2 z2.2) + (-4) * ((c.e : ℂ)) ^ 2 * (mb z1.2 (p 2) ρ0) * (sb z0.2 z2.2)) * i15 + ((4) * ((c.e : ℂ)) ^ 2 * (ab z3.1 ρ1) * (sb z0.2 z1.2) * (sb z0.2 z2.2)) * i16 + ((4) * ((c.e : ℂ)) ^ 2 * (mb z0.2 (p 2) ρ0) * (sb z0.2 z1.2) * (sb z1.2 z2.2) + (-4) * ((c.e : ℂ)) ^ 2 * (mb z1.2 (p 2) ρ0) * (sb z0.2 z1.2) * (sb z0.2 z2.2)) * i17 + ((2) * ((c.e : ℂ)) ^ 2 * (N.c 1) * (sb z1.2 z3.2)) * i18 + ((2) * ((c.e : ℂ)) ^ 2 * (ab z2.1 ρ0) * (mb z0.2 (p 2) ρ1)) * i19 + ((-2) * ((c.e : ℂ)) ^ 2 * (mb z0.2 (p 2) ρ0) * (sb z0.2 z1.2) * (sb z1.2 z3.2)) * i20 + ((-2) * ((c.e : ℂ)) ^ 2 * (ab z0.1 z3.1) * (sb z0.2 z1.2) ^ 2 * (sb z0.2 z2.2)) * i21 + ((2) * ((c.e : ℂ)) ^ 2 * (ab z0.1 ρ1) * (sb z0.2 z1.2) * (sb z0.2 z2.2)) * i22 + ((-2) * ((c.e : ℂ)) ^ 2 * (ab ρ0 ρ1) * (sb z0.2 z1.2) * (sb z1.2 z3.2)) * i23 + ((-2) * ((c.e : ℂ)) ^ 2 * (N.c 0) * (sb z0.2 z1.2) * (sb z1.2 z3.2)) * i24 + ((2) * ((c.e : ℂ)) ^ 2 * (ab z2.1 ρ1) * (sb z0.2 z1.2) * (sb z1.2 z3.2) + (-2) * ((c.e : ℂ)) ^ 2 * (ab z3.1 ρ1) * (sb z0.2 z1.2) * (sb z1.2 z2.2)) * i25 + ((-2) * ((c.e : ℂ)) ^ 2 * (ab z2.1 ρ0) * (sb z0.2 z1.2) * (sb z1.2 z3.2)) * i26 + ((-2) * ((c.e : ℂ)) ^ 2 * (ab ρ0 ρ1) * (sb z0.2 z1.2) * (sb z0.2 z2.2)) * i27 + ((-2) * ((c.e : ℂ)) ^ 2 * (ab z1.1 ρ1) * (sb z0.2 z1.2) ^ 2 + (4) * ((c.e : ℂ)) ^ 2 * (mb z0.2 (p 2) ρ1) * (sb z0.2 z1.2)) * i28 + ((2) * ((c.e : ℂ)) ^ 2 * (ab z1.1 ρ1) * (sb z0.2 z1.2) ^ 2 * (sb z1.2 z2.2) + (-4) * ((c.e : ℂ)) ^ 2 * (mb z0.2 (p 2) ρ1) * (sb z0.2 z1.2) * (sb z1.2 z2.2)) * i29 + ((-2) * ((c.e : ℂ)) ^ 2 * (mb z0.2 (p 2) ρ0) * (sb z1.2 z3.2)) * i30 + ((-2) * ((c.e : ℂ)) ^ 2 * (mb z0.2 (p 2) ρ0) * (sb z0.2 z1.2)) * i31 + ((2) * ((c.e : ℂ)) ^ 2 * (mb z1.2 (p 2) z0.1) * (sb z0.2 z1.2) * (sb z0.2 z2.2)) * i32 + ((-2) * ((c.e : ℂ)) ^ 2 * (ab z0.1 ρ0) * (ab z3.1 ρ1) * (sb z0.2 z1.2)) * i33 + ((-2) * ((c.e : ℂ)) ^ 2 * (ab z1.1 ρ1) * (sb z0.2 z1.2) * (sb z0.2 z2.2) + (2) * ((c.e : ℂ)) ^ 2 * (mb z0.2 (p 2) ρ1) * (sb z0.2 z2.2)) * i34)) * ((1) * ((N.c 0)⁻¹) * ((N.c 1)⁻¹)) + ((-2) * ((c.e : ℂ)) ^ 2 * ((c.mass .e : ℂ)) * ((N.c 1)⁻¹) * (ab z2.1 ρ1) * (ab z3.1 ρ0) * (sb z0.2 z1.2) + (-2) * ((c.e : ℂ)) ^ 2 * ((c.mass .e : ℂ)) * ((N.c 1)⁻¹) * (ab ρ0 ρ1) * (sb z0.2 z3.2) * (sb z1.2 z2.2) + (2) * ((c.e : ℂ)) ^ 2 * ((N.c 1)⁻¹) * (ab z1.1 ρ1) * (ab z3.1 ρ0) * (sb z0.2 z1.2) * (sb z1.2 z2.2) + (-2) * ((c.e : ℂ)) ^ 2 * ((N.c 1)⁻¹) * (ab z2.1 ρ1) * (mb z1.2 (p 2) ρ0) * (sb z0.2 z3.2) + (-2) * ((c.e : ℂ)) ^ 2 * ((N.c 1)⁻¹) * (ab z3.1 ρ0) * (mb z0.2 (p 2) ρ1) * (sb z1.2 z2.2)) * y0 + ((2) * ((c.e : ℂ)) ^ 2 * ((c.mass .e : ℂ)) * ((N.c 0)⁻¹) * (ab z2.1 ρ0) * (ab z3.1 ρ1) * (sb z0.2 z1.2) + (2) * ((c.e : ℂ)) ^ 2 * ((c.mass .e : ℂ)) * ((N.c 0)⁻¹) * (ab ρ0 ρ1) * (sb z0.2 z2.2) * (sb z1.2 z3.2) + (-2) * ((c.e : ℂ)) ^ 2 * ((N.c 0)⁻¹) * (ab z0.1 ρ0) * (ab z3.1 ρ1) * (sb z0.2 z1.2) * (sb z0.2 z2.2) + (-2) * ((c.e : ℂ)) ^ 2 * ((N.c 0)⁻¹) * (ab z2.1 ρ0) * (mb z0.2 (p 2) ρ1) * (sb z1.2 z3.2) + (-2) * ((c.e : ℂ)) ^ 2 * ((N.c 0)⁻¹) * (ab z3.1 ρ1) * (mb z1.2 (p 2) ρ0) * (sb z0.2 z2.2)) * y1 + ((-1) * ((c.e : ℂ)) ^ 2 * ((c.mass .e : ℂ)) * ((N.c 0)⁻¹) * (ab z2.1 ρ0) * (ab z3.1 ρ1) * (sb z0.2 z1.2) + (-1) * ((c.e : ℂ)) ^ 2 * ((c.mass .e : ℂ)) * ((N.c 0)⁻¹) * (ab ρ0 ρ1) * (sb z0.2 z2.2) * (sb z1.2 z3.2) + (1) * ((c.e : ℂ)) ^ 2 * ((c.mass .e : ℂ)) * ((N.c 1)⁻¹) * (ab z2.1 ρ1) * (ab z3.1 ρ0) * (sb z0.2 z1.2) + (1) * ((c.e : ℂ)) ^ 2 * ((c.mass .e : ℂ)) * ((N.c 1)⁻¹) * (ab ρ0 ρ1) * (sb z0.2 z3.2) * (sb z1.2 z2.2) + (1) * ((c.e : ℂ)) ^ 2 * ((N.c 0)⁻¹) * (ab z0.1 ρ0) * (ab z3.1 ρ1) * (sb z0.2 z1.2) * (sb z0.2 z2.2) + (1) * ((c.e : ℂ)) ^ 2 * ((N.c 0)⁻¹) * (ab z2.1 ρ0) * (mb z0.2 (p 2) ρ1) * (sb z1.2 z3.2) + (1) * ((c.e : ℂ)) ^ 2 * ((N.c 0)⁻¹) * (ab z3.1 ρ1) * (mb z1.2 (p 2) ρ0) * (sb z0.2 z2.2) + (-1) * ((c.e : ℂ)) ^ 2 * ((N.c 1)⁻¹) * (ab z1.1 ρ1) * (ab z3.1 ρ0) * (sb z0.2 z1.2) * (sb z1.2 z2.2) + (1) * ((c.e : ℂ)) ^ 2 * ((N.c 1)⁻¹) * (ab z2.1 ρ1) * (mb z1.2 (p 2) ρ0) * (sb z0.2 z3.2) + (1) * ((c.e : ℂ)) ^ 2 * ((N.c 1)⁻¹) * (ab z3.1 ρ0) * (mb z0.2 (p 2) ρ1) * (sb z1.2 z2.2)) * x22
theorem AAee.keyPM {c : Constants} {p : Nat → V4 ℝ} {N : Env} (hc : c.Physical) (hb : Balanced p) (r0 : N.r 0 = c.e) (d0 : ((msq (plus (backward (p 3)) (p 1)) - c.mass .e ^ 2 : ℝ) : ℂ) = N.c 0) (n0 : N.c 0 ≠ 0) (d1 : ((msq (plus (backward (p 3)) (p 0)) - c.mass .e ^ 2 : ℝ) : ℂ) = N.c 1) (n1 : N.c 1 ≠ 0) {z0 z1 z2 z3 : Pair} (b2 : Bold (p 2) (c.mass .e) z2) (b3 : Bold (p 3) (c.mass .e) z3) (l0 : Light (p 0) z0) (l1 : Light (p 1) z1) (e02 : mb z0.2 (p 2) z0.1 = -N.c 0) (e03 : mb z0.2 (p 3) z0.1 = -N.c 1) (e12 : mb z1.2 (p 2) z1.1 = -N.c 1) (e13 : mb z1.2 (p 3) z1.1 = -N.c 0) (q2 : msq (p 2) = (c.mass .e) ^ 2) (q3 : msq (p 3) = (c.mass .e) ^ 2) (ρ0 ρ1 : V2) :
    AAee.formPM N p z0 z1 z2 z3 * ab ρ0 z0.1 * sb ρ1 z1.2 = ((√2 : ℝ) * ((√2 : ℝ) * (1 : ℂ))) * AAee.react.bare c p 2 3 0 1 z2 z3 (pv ρ0 z0.2) (pv z1.1 ρ1) := by
  rw [AAee.react.bare_parts c p (i := 2) (j := 3) (a := 0) (b := 1) (x := .photon) (y := .photon) (k := (p 0)) (k' := (p 1)) (fun _ => rfl) (fun _ => rfl) (f := .e) (g := .e) rfl rfl (l := (backward (p 3))) rfl (e := 1) (e' := -1) (if_neg Bool.false_ne_true) (if_pos rfl)]
  rw [compton_vv (f := .e) (x := .e) (g := .e) (h := (rfl : Spec.after .photon Flavour.e = some Flavour.e)) (h' := (rfl : Spec.after .photon Flavour.e = some Flavour.e)) (ha := by simp) (hb := by simp)]
  rw [compton_vv (f := .e) (x := .e) (g := .e) (h := (rfl : Spec.after .photon Flavour.e = some Flavour.e)) (h' := (rfl : Spec.after .photon Flavour.e = some Flavour.e)) (ha := by simp) (hb := by simp)]
  rw [annihilation_none c _ _ (by rfl) (by simp), star_zero, add_zero, AAee.formPM]
  simp only [d0, d1, lineV_pv, lineV_four, contract_four_pv, contract_pv, mb_plus, mb_backward]
  have i0 := mb_schouten_right z0.2 (p 3) z0.1 z1.1 z2.1
  have i1 := mb_schouten_right z0.2 (p 2) z1.1 z2.1 ρ0
  have i2 := mb_schouten_left z0.2 z3.2 ρ1 (p 2) z0.1
  have i3 := mb_schouten_right z0.2 (p 2) z0.1 z1.1 z2.1
  have i4 := mb_schouten_right z2.2 (p 3) z0.1 z1.1 z3.1
  have i5 := sb_schouten z2.2 z3.2 ρ1 z0.2
  have i6 := sb_schouten z1.2 z2.2 ρ1 z0.2
  have i7 := ab_schouten z1.1 z3.1 ρ0 z0.1
  have i8 := sb_schouten z1.2 z3.2 ρ1 z0.2
  have i9 := mb_schouten_right z2.2 (p 3) z0.1 z3.1 ρ0
  have i10 := mb_schouten_right z1.2 (p 2) z0.1 z1.1 z3.1
  have i11 := sb_schouten z1.2 z2.2 z3.2 z0.2
  have i12 := mb_schouten_right z0.2 (p 2) z0.1 z1.1 z3.1
  have i13 := mb_schouten_left z0.2 z2.2 ρ1 (p 2) z1.1
  have i14 := mb_schouten_left z0.2 z1.2 ρ1 (p 2) z1.1
  have i15 := mb_schouten_right z0.2 (p 2) z0.1 z3.1 ρ0
  have i16 := mb_schouten_left z0.2 z1.2 ρ1 (p 2) z0.1
  have i17 := mb_schouten_right ρ1 (p 2) z0.1 z1.1 z3.1
  have i18 := mb_schouten_right ρ1 (p 2) z0.1 z1.1 ρ0
  have i19 := mb_schouten_right ρ1 (p 2) z0.1 z2.1 ρ0
  have i20 := mb_schouten_left z0.2 z2.2 ρ1 (p 2) z0.1
  have i21 := ab_schouten z2.1 z3.1 ρ0 z1.1
  have i22 := ab_schouten z2.1 z3.1 ρ0 z0.1
  have i23 := mb_schouten_right z0.2 (p 2) z0.1 z1.1 ρ0
  have i24 := ab_schouten z1.1 z2.1 z3.1 z0.1
  have i25 := ab_schouten z1.1 z2.1 ρ0 z0.1
  have i26 := mb_schouten_right z0.2 (p 3) z0.1 z1.1 z3.1
  have i27 := mb_schouten_right ρ1 (p 2) z0.1 z3.1 ρ0
  have i28 := mb_schouten_right z0.2 (p 2) z1.1 z3.1 ρ0
  have i29 := mb_schouten_left z0.2 z1.2 z2.2 (p 2) z1.1
  simp only [l0.mb_eq, l1.mb_eq, b2.mb_left, b2.mb_right, b3.mb_left, b3.mb_right, e02, e03, e12, e13, mb_three hb z0.2 z1.1, mb_three hb z0.2 z2.1, mb_two hb z0.2 z3.1, mb_three hb z0.2 ρ0, mb_three hb z1.2 z0.1, mb_three hb z1.2 z2.1, mb_two hb z1.2 z3.1, mb_three hb z1.2 ρ0, mb_three hb z2.2 z0.1, mb_three hb z2.2 z1.1, mb_three hb z2.2 z2.1, mb_three hb z2.2 ρ0, mb_two hb z3.2 z0.1, mb_two hb z3.2 z1.1, mb_two hb z3.2 z3.1, mb_two hb z3.2 ρ0, mb_three hb ρ1 z0.1, mb_three hb ρ1 z1.1, mb_three hb ρ1 z2.1, mb_two hb ρ1 z3.1, mb_three hb ρ1 ρ0, ab_self, sb_self] at i0 i1 i2 i3 i4 i5 i6 i7 i8 i9 i10 i11 i12 i13 i14 i15 i16 i17 i18 i19 i20 i21 i22 i23 i24 i25 i26 i27 i28 i29 ⊢
  simp only [ab_swap z0.1 z1.1, ab_swap z0.1 z2.1, ab_swap z0.1 z3.1, ab_swap z0.1 ρ0, ab_swap z1.1 z2.1, ab_swap z1.1 z3.1, ab_swap z1.1 ρ0, ab_swap z2.1 z3.1, ab_swap z2.1 ρ0, ab_swap z3.1 ρ0, sb_swap z0.2 z1.2, sb_swap z0.2 z2.2, sb_swap z0.2 z3.2, sb_swap z0.2 ρ1, sb_swap z1.2 z2.2, sb_swap z1.2 z3.2, sb_swap z1.2 ρ1, sb_swap z2.2 z3.2, sb_swap z2.2 ρ1, sb_swap z3.2 ρ1] at i0 i1 i2 i3 i4 i5 i6 i7 i8 i9 i10 i11 i12 i13 i14 i15 i16 i17 i18 i19 i20 i21 i22 i23 i24 i25 i26 i27 i28 i29 ⊢
  simp only [r0, Constants.hL, Constants.hR, Constants.gL, Constants.gR, Constants.yuk, Constants.invVev, Flavour.charge_e, Flavour.isospin_e, ← c.mz]
  have xMW : (c.MW : ℂ) ≠ 0 := by exact_mod_cast hc.MW
  have xSW : (c.SW : ℂ) ≠ 0 := by exact_mod_cast hc.SW
  have xCW : (c.CW : ℂ) ≠ 0 := by exact_mod_cast hc.CW
  have x2 : ((√2 : ℝ) : ℂ) ≠ 0 := by exact_mod_cast (Real.sqrt_pos.2 two_pos).ne'
  have x22 : ((√2 : ℝ) : ℂ) ^ 2 = 2 := by rw [← Complex.ofReal_pow, Real.sq_sqrt two_pos.le]; norm_num
  have x23 : ((√2 : ℝ) : ℂ) ^ 3 = 2 * ((√2 : ℝ) : ℂ) := by rw [← x22]; ring
  have x24 : ((√2 : ℝ) : ℂ) ^ 4 = 4 := by linear_combination (((√2 : ℝ) : ℂ) ^ 2 + 2) * x22
  push_cast at i0 i1 i2 i3 i4 i5 i6 i7 i8 i9 i10 i11 i12 i13 i14 i15 i16 i17 i18 i19 i20 i21 i22 i23 i24 i25 i26 i27 i28 i29 ⊢
  have y0 := mul_inv_cancel₀ n0
  have y1 := mul_inv_cancel₀ n1
  linear_combination ((((-2) * ((c.e : ℂ)) ^ 2 * (mb z0.2 (p 2) ρ0) * (sb z3.2 ρ1)) * i0 + ((-2) * ((c.e : ℂ)) ^ 2 * (N.c 1) * (sb z3.2 ρ1) + (-2) * ((c.e : ℂ)) ^ 2 * (mb ρ1 (p 2) z0.1) * (sb z0.2 z3.2)) * i1 + ((2) * ((c.e : ℂ)) ^ 2 * (ab z1.1 z2.1) * (mb z0.2 (p 2) ρ0)) * i2 + ((-2) * ((c.e : ℂ)) ^ 2 * (mb z0.2 (p 2) ρ0) * (sb z3.2 ρ1) + (2) * ((c.e : ℂ)) ^ 2 * (mb ρ1 (p 2) ρ0) * (sb z0.2 z3.2)) * i3 + ((2) * ((c.e : ℂ)) ^ 2 * (ab z1.1 ρ0) * (sb z0.2 z1.2) * (sb z0.2 ρ1) + (-4) * ((c.e : ℂ)) ^ 2 * (mb z0.2 (p 2) ρ0) * (sb z0.2 ρ1)) * i4 + ((-4) * ((c.e : ℂ)) ^ 2 * ((c.mass .e : ℂ)) * (ab z0.1 z1.1) * (mb z0.2 (p 2) ρ0) + (2) * ((c.e : ℂ)) ^ 2 * ((c.mass .e : ℂ)) * (ab z0.1 ρ0) * (mb z0.2 (p 2) z1.1)) * i5 + ((-2) * ((c.e : ℂ)) ^ 2 * ((c.mass .e : ℂ)) * (ab z0.1 z1.1) * (ab z1.1 ρ0) * (sb z0.2 z3.2) + (-2) * ((c.e : ℂ)) ^ 2 * (ab z0.1 z1.1) * (ab z1.1 z3.1) * (ab z1.1 ρ0) * (sb z0.2 z1.2) + (4) * ((c.e : ℂ)) ^ 2 * (ab z0.1 z1.1) * (ab z1.1 z3.1) * (mb z0.2 (p 2) ρ0) + (4) * ((c.e : ℂ)) ^ 2 * (ab z0.1 z1.1) * (ab z3.1 ρ0) * (mb z0.2 (p 2) z1.1) + (-2) * ((c.e : ℂ)) ^ 2 * (ab z0.1 z3.1) * (ab z1.1 ρ0) * (mb z0.2 (p 2) z1.1)) * i6 + ((-2) * ((c.e : ℂ)) ^ 2 * ((c.mass .e : ℂ)) * (ab z1.1 z2.1) * (sb z0.2 z1.2) * (sb z0.2 ρ1) + (-2) * ((c.e : ℂ)) ^ 2 * (N.c 1) * (sb z0.2 z2.2) * (sb z0.2 ρ1) + (-4) * ((c.e : ℂ)) ^ 2 * (mb z0.2 (p 2) z1.1) * (sb z0.2 z1.2) * (sb z2.2 ρ1) + (-4) * ((c.e : ℂ)) ^ 2 * (mb ρ1 (p 2) z1.1) * (sb z0.2 z1.2) * (sb z0.2 z2.2)) * i7 + ((4) * ((c.e : ℂ)) ^ 2 * ((c.mass .e : ℂ)) * (ab z0.1 z1.1) * (ab z1.1 ρ0) * (sb z0.2 z2.2) + (2) * ((c.e : ℂ)) ^ 2 * (ab z0.1 z1.1) * (ab z1.1 z2.1) * (mb z0.2 (p 2) ρ0)) * i8 + ((-2) * ((c.e : ℂ)) ^ 2 * (mb z0.2 (p 2) z1.1) * (sb z0.2 ρ1)) * i9 + ((-2) * ((c.e : ℂ)) ^ 2 * (ab z1.1 ρ0) * (sb z0.2 z2.2) * (sb z0.2 ρ1)) * i10 + ((2) * ((c.e : ℂ)) ^ 2 * ((c.mass .e : ℂ)) * (ab z0.1 z1.1) * (ab z1.1 ρ0) * (sb z0.2 ρ1)) * i11 + ((-2) * ((c.e : ℂ)) ^ 2 * ((c.mass .e : ℂ)) * (ab z2.1 ρ0) * (sb z0.2 ρ1) + (2) * ((c.e : ℂ)) ^ 2 * (ab z1.1 ρ0) * (sb z0.2 z1.2) * (sb z2.2 ρ1) + (2) * ((c.e : ℂ)) ^ 2 * (ab z1.1 ρ0) * (sb z0.2 z2.2) * (sb z1.2 ρ1) + (-2) * ((c.e : ℂ)) ^ 2 * (mb z0.2 (p 2) ρ0) * (sb z2.2 ρ1)) * i12 + ((-4) * ((c.e : ℂ)) ^ 2 * (N.c 0) * (ab z3.1 ρ0)) * i13 + ((4) * ((c.e : ℂ)) ^ 2 * (ab z0.1 z1.1) * (ab z3.1 ρ0) * (sb z0.2 z2.2)) * i14 + ((-2) * ((c.e : ℂ)) ^ 2 * (mb z0.2 (p 2) z1.1) * (sb z2.2 ρ1) + (-4) * ((c.e : ℂ)) ^ 2 * (mb ρ1 (p 2) z1.1) * (sb z0.2 z2.2)) * i15 + ((-2) * ((c.e : ℂ)) ^ 2 * (ab z1.1 z3.1) * (ab z1.1 ρ0) * (sb z0.2 z2.2)) * i16 + ((4) * ((c.e : ℂ)) ^ 2 * (ab z1.1 ρ0) * (sb z0.2 z1.2) * (sb z0.2 z2.2) + (-4) * ((c.e : ℂ)) ^ 2 * (mb z0.2 (p 2) ρ0) * (sb z0.2 z2.2)) * i17 + ((4) * ((c.e : ℂ)) ^ 2 * ((c.mass .e : ℂ)) * (sb z0.2 z2.2) * (sb z0.2 z3.2)) * i18 + ((2) * ((c.e : ℂ)) ^ 2 * (mb z0.2 (p 2) z1.1) * (sb z0.2 z3.2)) * i19 + ((2) * ((c.e : ℂ)) ^ 2 * (ab z1.1 z3.1) * (mb z0.2 (p 2) ρ0)) * i20 + ((2) * ((c.e : ℂ)) ^ 2 * ((c.mass .e : ℂ)) * (N.c 0) * (sb z0.2 ρ1)) * i21 + ((2) * ((c.e : ℂ)) ^ 2 * ((c.mass .e : ℂ)) * (mb z0.2 (p 2) z1.1) * (sb z0.2 ρ1)) * i22 + ((2) * ((c.e : ℂ)) ^ 2 * ((c.mass .e : ℂ)) * (ab z2.1 z3.1) * (sb z0.2 ρ1) + (-2) * ((c.e : ℂ)) ^ 2 * ((c.mass .e : ℂ)) * (sb z0.2 z3.2) * (sb z2.2 ρ1) + (2) * ((c.e : ℂ)) ^ 2 * (ab z1.1 z2.1) * (sb z0.2 z3.2) * (sb z1.2 ρ1) + (-2) * ((c.e : ℂ)) ^ 2 * (ab z1.1 z3.1) * (sb z0.2 z1.2) * (sb z2.2 ρ1)) * i23 + ((-2) * ((c.e : ℂ)) ^ 2 * ((c.mass .e : ℂ)) * (mb z0.2 (p 2) ρ0) * (sb z0.2 ρ1)) * i24 + ((2) * ((c.e : ℂ)) ^ 2 * ((c.mass .e : ℂ)) * (ab z1.1 z3.1) * (sb z0.2 z1.2) * (sb z0.2 ρ1)) * i25 + ((-2) * ((c.e : ℂ)) ^ 2 * ((c.mass .e : ℂ)) * (ab z2.1 ρ0) * (sb z0.2 ρ1) + (2) * ((c.e : ℂ)) ^ 2 * (mb ρ1 (p 2) ρ0) * (sb z0.2 z2.2)) * i26 + ((-2) * ((c.e : ℂ)) ^ 2 * (mb z0.2 (p 2) z1.1) * (sb z0.2 z2.2)) * i27 + ((2) * ((c.e : ℂ)) ^ 2 * (mb ρ1 (p 2) z0.1) * (sb z0.2 z2.2)) * i28 + ((-2) * ((c.e : ℂ)) ^ 2 * (ab z0.1 z1.1) * (ab z3.1 ρ0) * (sb z0.2 ρ1)) * i29)) * ((1) * ((N.c 0)⁻¹) * ((N.c 1)⁻¹)) + ((2) * ((c.e : ℂ)) ^ 2 * ((c.mass .e : ℂ)) * ((N.c 1)⁻¹) * (ab z1.1 z2.1) * (ab z3.1 ρ0) * (sb z0.2 ρ1) + (-2) * ((c.e : ℂ)) ^ 2 * ((c.mass .e : ℂ)) * ((N.c 1)⁻¹) * (ab z1.1 ρ0) * (sb z0.2 z3.2) * (sb z2.2 ρ1) + (2) * ((c.e : ℂ)) ^ 2 * ((N.c 1)⁻¹) * (ab z1.1 z2.1) * (ab z1.1 ρ0) * (sb z0.2 z3.2) * (sb z1.2 ρ1) + (2) * ((c.e : ℂ)) ^ 2 * ((N.c 1)⁻¹) * (ab z1.1 z2.1) * (mb ρ1 (p 2) ρ0) * (sb z0.2 z3.2) + (2) * ((c.e : ℂ)) ^ 2 * ((N.c 1)⁻¹) * (ab z3.1 ρ0) * (mb z0.2 (p 2) z1.1) * (sb z2.2 ρ1)) * y0 + ((-2) * ((c.e : ℂ)) ^ 2 * ((c.mass .e : ℂ)) * ((N.c 0)⁻¹) * (ab z1.1 z3.1) * (ab z2.1 ρ0) * (sb z0.2 ρ1) + (2) * ((c.e : ℂ)) ^ 2 * ((c.mass .e : ℂ)) * ((N.c 0)⁻¹) * (ab z1.1 ρ0) * (sb z0.2 z2.2) * (sb z3.2 ρ1) + (2) * ((c.e : ℂ)) ^ 2 * ((N.c 0)⁻¹) * (ab z0.1 ρ0) * (ab z1.1 z3.1) * (sb z0.2 z2.2) * (sb z0.2 ρ1) + (2) * ((c.e : ℂ)) ^ 2 * ((N.c 0)⁻¹) * (ab z1.1 z3.1) * (mb ρ1 (p 2) ρ0) * (sb z0.2 z2.2) + (2) * ((c.e : ℂ)) ^ 2 * ((N.c 0)⁻¹) * (ab z2.1 ρ0) * (mb z0.2 (p 2) z1.1) * (sb z3.2 ρ1)) * y1 + ((1) * ((c.e : ℂ)) ^ 2 * ((c.mass .e : ℂ)) * ((N.c 0)⁻¹) * (ab z1.1 z3.1) * (ab z2.1 ρ0) * (sb z0.2 ρ1) + (-1) * ((c.e : ℂ)) ^ 2 * ((c.mass .e : ℂ)) * ((N.c 0)⁻¹) * (ab z1.1 ρ0) * (sb z0.2 z2.2) * (sb z3.2 ρ1) + (-1) * ((c.e : ℂ)) ^ 2 * ((c.mass .e : ℂ)) * ((N.c 1)⁻¹) * (ab z1.1 z2.1) * (ab z3.1 ρ0) * (sb z0.2 ρ1) + (1) * ((c.e : ℂ)) ^ 2 * ((c.mass .e : ℂ)) * ((N.c 1)⁻¹) * (ab z1.1 ρ0) * (sb z0.2 z3.2) * (sb z2.2 ρ1) + (-1) * ((c.e : ℂ)) ^ 2 * ((N.c 0)⁻¹) * (ab z0.1 ρ0) * (ab z1.1 z3.1) * (sb z0.2 z2.2) * (sb z0.2 ρ1) + (-1) * ((c.e : ℂ)) ^ 2 * ((N.c 0)⁻¹) * (ab z1.1 z3.1) * (mb ρ1 (p 2) ρ0) * (sb z0.2 z2.2) + (-1) * ((c.e : ℂ)) ^ 2 * ((N.c 0)⁻¹) * (ab z2.1 ρ0) * (mb z0.2 (p 2) z1.1) * (sb z3.2 ρ1) + (-1) * ((c.e : ℂ)) ^ 2 * ((N.c 1)⁻¹) * (ab z1.1 z2.1) * (ab z1.1 ρ0) * (sb z0.2 z3.2) * (sb z1.2 ρ1) + (-1) * ((c.e : ℂ)) ^ 2 * ((N.c 1)⁻¹) * (ab z1.1 z2.1) * (mb ρ1 (p 2) ρ0) * (sb z0.2 z3.2) + (-1) * ((c.e : ℂ)) ^ 2 * ((N.c 1)⁻¹) * (ab z3.1 ρ0) * (mb z0.2 (p 2) z1.1) * (sb z2.2 ρ1)) * x22
theorem AAee.keyMP {c : Constants} {p : Nat → V4 ℝ} {N : Env} (hc : c.Physical) (hb : Balanced p) (r0 : N.r 0 = c.e) (d0 : ((msq (plus (backward (p 3)) (p 1)) - c.mass .e ^ 2 : ℝ) : ℂ) = N.c 0) (n0 : N.c 0 ≠ 0) (d1 : ((msq (plus (backward (p 3)) (p 0)) - c.mass .e ^ 2 : ℝ) : ℂ) = N.c 1) (n1 : N.c 1 ≠ 0) {z0 z1 z2 z3 : Pair} (b2 : Bold (p 2) (c.mass .e) z2) (b3 : Bold (p 3) (c.mass .e) z3) (l0 : Light (p 0) z0) (l1 : Light (p 1) z1) (e02 : mb z0.2 (p 2) z0.1 = -N.c 0) (e03 : mb z0.2 (p 3) z0.1 = -N.c 1) (e12 : mb z1.2 (p 2) z1.1 = -N.c 1) (e13 : mb z1.2 (p 3) z1.1 = -N.c 0) (q2 : msq (p 2) = (c.mass .e) ^ 2) (q3 : msq (p 3) = (c.mass .e) ^ 2) (ρ0 ρ1 : V2) :
    AAee.formMP N p z0 z1 z2 z3 * sb ρ0 z0.2 * ab ρ1 z1.1 = ((√2 : ℝ) * ((√2 : ℝ) * (1 : ℂ))) * AAee.react.bare c p 2 3 0 1 z2 z3 (pv z0.1 ρ0) (pv ρ1 z1.2) := by
  rw [AAee.react.bare_parts c p (i := 2) (j := 3) (a := 0) (b := 1) (x := .photon) (y := .photon) (k := (p 0)) (k' := (p 1)) (fun _ => rfl) (fun _ => rfl) (f := .e) (g := .e) rfl rfl (l := (backward (p 3))) rfl (e := 1) (e' := -1) (if_neg Bool.false_ne_true) (if_pos rfl)]
  rw [compton_vv (f := .e) (x := .e) (g := .e) (h := (rfl : Spec.after .photon Flavour.e = some Flavour.e)) (h' := (rfl : Spec.after .photon Flavour.e = some Flavour.e)) (ha := by simp) (hb := by simp)]
  rw [compton_vv (f := .e) (x := .e) (g := .e) (h := (rfl : Spec.after .photon Flavour.e = some Flavour.e)) (h' := (rfl : Spec.after .photon Flavour.e = some Flavour.e)) (ha := by simp) (hb := by simp)]
  rw [annihilation_none c _ _ (by rfl) (by simp), star_zero, add_zero, AAee.formMP]
  simp only [d0, d1, lineV_pv, lineV_four, contract_four_pv, contract_pv, mb_plus, mb_backward]
  have i0 := mb_schouten_right z0.2 (p 3) z0.1 z2.1 z3.1
  have i1 := ab_schouten z2.1 z3.1 ρ1 z0.1
  have i2 := mb_schouten_left z0.2 z1.2 ρ0 (p 2) z0.1
  have i3 := mb_schouten_right z3.2 (p 2) z0.1 z2.1 ρ1
  have i4 := ab_schouten z1.1 z3.1 ρ1 z0.1
  have i5 := mb_schouten_left z0.2 z1.2 z2.2 (p 2) z0.1
  have i6 := mb_schouten_right ρ0 (p 2) z0.1 z3.1 ρ1
  have i7 := sb_schouten z1.2 z3.2 ρ0 z0.2
  have i8 := mb_schouten_left z0.2 z3.2 ρ0 (p 2) z0.1
  have i9 := mb_schouten_right z1.2 (p 2) z0.1 z2.1 ρ1
  have i10 := sb_schouten z1.2 z2.2 z3.2 z0.2
  have i11 := sb_schouten z1.2 z2.2 ρ0 z0.2
  have i12 := mb_schouten_left z0.2 z2.2 ρ0 (p 2) z0.1
  have i13 := mb_schouten_right z0.2 (p 3) z0.1 z2.1 ρ1
  have i14 := mb_schouten_right z0.2 (p 2) z0.1 z2.1 ρ1
  have i15 := mb_schouten_right ρ0 (p 2) z0.1 z2.1 ρ1
  have i16 := mb_schouten_right z1.2 (p 2) z0.1 z1.1 ρ1
  have i17 := sb_schouten z2.2 z3.2 ρ0 z1.2
  have i18 := mb_schouten_right z1.2 (p 3) z0.1 z1.1 z3.1
  have i19 := mb_schouten_right z1.2 (p 2) z0.1 z1.1 z3.1
  have i20 := mb_schouten_right z1.2 (p 2) z0.1 z3.1 ρ1
  have i21 := mb_schouten_right z1.2 (p 3) z0.1 z1.1 z2.1
  have i22 := mb_schouten_right z1.2 (p 2) z0.1 z1.1 z2.1
  have i23 := mb_schouten_left z0.2 z1.2 z3.2 (p 2) z0.1
  have i24 := mb_schouten_right z2.2 (p 3) z0.1 z3.1 ρ1
  have i25 := sb_schouten z2.2 z3.2 ρ0 z0.2
  have i26 := mb_schouten_right ρ0 (p 2) z0.1 z2.1 z3.1
  have i27 := mb_schouten_right z1.2 (p 2) z0.1 z2.1 z3.1
  simp only [l0.mb_eq, l1.mb_eq, b2.mb_left, b2.mb_right, b3.mb_left, b3.mb_right, e02, e03, e12, e13, mb_three hb z0.2 z1.1, mb_three hb z0.2 z2.1, mb_two hb z0.2 z3.1, mb_three hb z0.2 ρ1, mb_three hb z1.2 z0.1, mb_three hb z1.2 z2.1, mb_two hb z1.2 z3.1, mb_three hb z1.2 ρ1, mb_three hb z2.2 z0.1, mb_three hb z2.2 z1.1, mb_three hb z2.2 z2.1, mb_three hb z2.2 ρ1, mb_two hb z3.2 z0.1, mb_two hb z3.2 z1.1, mb_two hb z3.2 z3.1, mb_two hb z3.2 ρ1, mb_three hb ρ0 z0.1, mb_three hb ρ0 z1.1, mb_three hb ρ0 z2.1, mb_two hb ρ0 z3.1, mb_three hb ρ0 ρ1, ab_self, sb_self] at i0 i1 i2 i3 i4 i5 i6 i7 i8 i9 i10 i11 i12 i13 i14 i15 i16 i17 i18 i19 i20 i21 i22 i23 i24 i25 i26 i27 ⊢
  simp only [ab_swap z0.1 z1.1, ab_swap z0.1 z2.1, ab_swap z0.1 z3.1, ab_swap z0.1 ρ1, ab_swap z1.1 z2.1, ab_swap z1.1 z3.1, ab_swap z1.1 ρ1, ab_swap z2.1 z3.1, ab_swap z2.1 ρ1, ab_swap z3.1 ρ1, sb_swap z0.2 z1.2, sb_swap z0.2 z2.2, sb_swap z0.2 z3.2, sb_swap z0.2 ρ0, sb_swap z1.2 z2.2, sb_swap z1.2 z3.2, sb_swap z1.2 ρ0, sb_swap z2.2 z3.2, sb_swap z2.2 ρ0, sb_swap z3.2 ρ0] at i0 i1 i2 i3 i4 i5 i6 i7 i8 i9 i10 i11 i12 i13 i14 i15 i16 i17 i18 i19 i20 i21 i22 i23 i24 i25 i26 i27 ⊢
  simp only [r0, Constants.hL, Constants.hR, Constants.gL, Constants.gR, Constants.yuk, Constants.invVev, Flavour.charge_e, Flavour.isospin_e, ← c.mz]
  have xMW : (c.MW : ℂ) ≠ 0 := by exact_mod_cast hc.MW
  have xSW : (c.SW : ℂ) ≠ 0 := by exact_mod_cast hc.SW
  have xCW : (c.CW : ℂ) ≠ 0 := by exact_mod_cast hc.CW
  have x2 : ((√2 : ℝ) : ℂ) ≠ 0 := by exact_mod_cast (Real.sqrt_pos.2 two_pos).ne'
  have x22 : ((√2 : ℝ) : ℂ) ^ 2 = 2 := by rw [← Complex.ofReal_pow, Real.sq_sqrt two_pos.le]; norm_num
  have x23 : ((√2 : ℝ) : ℂ) ^ 3 = 2 * ((√2 : ℝ) : ℂ) := by rw [← x22]; ring
  have x24 : ((√2 : ℝ) : ℂ) ^ 4 = 4 := by linear_combination (((√2 : ℝ) : ℂ) ^ 2 + 2) * x22
  push_cast at i0 i1 i2 i3 i4 i5 i6 i7 i8 i9 i10 i11 i12 i13 i14 i15 i16 i17 i18 i19 i20 i21 i22 i23 i24 i25 i26 i27 ⊢
  have y0 := mul_inv_cancel₀ n0
  have y1 := mul_inv_cancel₀ n1
  linear_combination ((((-2) * ((c.e : ℂ)) ^ 2 * ((c.mass .e : ℂ)) * (ab z0.1 ρ1) * (sb z1.2 ρ0)) * i0 + ((-2) * ((c.e : ℂ)) ^ 2 * ((c.mass .e : ℂ)) * (N.c 1) * (sb z1.2 ρ0) + (-2) * ((c.e : ℂ)) ^ 2 * ((c.mass .e : ℂ)) * (mb z1.2 (p 2) z0.1) * (sb z0.2 ρ0) + (2) * ((c.e : ℂ)) ^ 2 * ((c.mass .e : ℂ)) * (mb ρ0 (p 2) z0.1) * (sb z0.2 z1.2)) * i1 + ((-4) * ((c.e : ℂ)) ^ 2 * ((c.mass .e : ℂ)) * (ab z0.1 z2.1) * (ab z3.1 ρ1) + (2) * ((c.e : ℂ)) ^ 2 * (ab z0.1 z1.1) * (ab z2.1 ρ1) * (sb z1.2 z3.2) + (-2) * ((c.e : ℂ)) ^ 2 * (ab z0.1 z2.1) * (ab z0.1 ρ1) * (sb z0.2 z3.2) + (-2) * ((c.e : ℂ)) ^ 2 * (ab z0.1 z2.1) * (ab z1.1 ρ1) * (sb z1.2 z3.2) + (2) * ((c.e : ℂ)) ^ 2 * (ab z0.1 z3.1) * (ab z0.1 ρ1) * (sb z0.2 z2.2)) * i2 + ((2) * ((c.e : ℂ)) ^ 2 * (N.c 0) * (sb z1.2 ρ0) + (2) * ((c.e : ℂ)) ^ 2 * (mb z1.2 (p 2) z0.1) * (sb z0.2 ρ0) + (-2) * ((c.e : ℂ)) ^ 2 * (mb ρ0 (p 2) z0.1) * (sb z0.2 z1.2)) * i3 + ((-2) * ((c.e : ℂ)) ^ 2 * ((c.mass .e : ℂ)) * (ab z0.1 z2.1) * (sb z0.2 z1.2) * (sb z1.2 ρ0) + (-2) * ((c.e : ℂ)) ^ 2 * (mb z1.2 (p 2) z0.1) * (sb z0.2 z2.2) * (sb z1.2 ρ0)) * i4 + ((4) * ((c.e : ℂ)) ^ 2 * ((c.mass .e : ℂ)) * (ab z0.1 ρ1) * (sb z3.2 ρ0) + (-2) * ((c.e : ℂ)) ^ 2 * (ab z0.1 z1.1) * (ab z3.1 ρ1) * (sb z1.2 ρ0) + (4) * ((c.e : ℂ)) ^ 2 * (ab z0.1 z3.1) * (ab z1.1 ρ1) * (sb z1.2 ρ0) + (2) * ((c.e : ℂ)) ^ 2 * (ab z0.1 z3.1) * (mb ρ0 (p 2) ρ1)) * i5 + ((2) * ((c.e : ℂ)) ^ 2 * (mb z1.2 (p 2) z0.1) * (sb z0.2 z2.2)) * i6 + ((2) * ((c.e : ℂ)) ^ 2 * ((c.mass .e : ℂ)) ^ 2 * (ab z0.1 z2.1) * (ab z0.1 ρ1) + (-2) * ((c.e : ℂ)) ^ 2 * (N.c 1) * (ab z0.1 z2.1) * (ab z0.1 ρ1) + (-2) * ((c.e : ℂ)) ^ 2 * (ab z0.1 z1.1) * (ab z0.1 z2.1) * (mb z1.2 (p 2) ρ1) + (-2) * ((c.e : ℂ)) ^ 2 * (ab z0.1 z2.1) * (ab z1.1 ρ1) * (mb z1.2 (p 2) z0.1)) * i7 + ((-2) * ((c.e : ℂ)) ^ 2 * (ab z0.1 z2.1) * (mb z1.2 (p 2) ρ1)) * i8 + ((-4) * ((c.e : ℂ)) ^ 2 * ((c.mass .e : ℂ)) * (ab z0.1 z3.1) * (sb z0.2 ρ0) + (-2) * ((c.e : ℂ)) ^ 2 * (N.c 0) * (sb z3.2 ρ0) + (2) * ((c.e : ℂ)) ^ 2 * (mb ρ0 (p 2) z0.1) * (sb z0.2 z3.2)) * i9 + ((-2) * ((c.e : ℂ)) ^ 2 * ((c.mass .e : ℂ)) * (ab z0.1 ρ1) * (mb ρ0 (p 2) z0.1)) * i10 + ((2) * ((c.e : ℂ)) ^ 2 * ((c.mass .e : ℂ)) ^ 2 * (ab z0.1 z3.1) * (ab z0.1 ρ1) + (-2) * ((c.e : ℂ)) ^ 2 * (ab z0.1 z3.1) * (ab z1.1 ρ1) * (mb z1.2 (p 2) z0.1)) * i11 + ((-4) * ((c.e : ℂ)) ^ 2 * ((c.mass .e : ℂ)) * (ab z0.1 ρ1) * (sb z1.2 z3.2) + (2) * ((c.e : ℂ)) ^ 2 * (ab z0.1 z3.1) * (mb z1.2 (p 2) ρ1)) * i12 + ((2) * ((c.e : ℂ)) ^ 2 * ((c.mass .e : ℂ)) * (ab z0.1 z3.1) * (sb z1.2 ρ0)) * i13 + ((2) * ((c.e : ℂ)) ^ 2 * ((c.mass .e : ℂ)) * (ab z0.1 z3.1) * (sb z1.2 ρ0)) * i14 + ((4) * ((c.e : ℂ)) ^ 2 * ((c.mass .e : ℂ)) * (ab z0.1 z3.1) * (sb z0.2 z1.2) + (-2) * ((c.e : ℂ)) ^ 2 * (mb z1.2 (p 2) z0.1) * (sb z0.2 z3.2)) * i15 + ((2) * ((c.e : ℂ)) ^ 2 * (ab z0.1 z2.1) * (sb z0.2 z1.2) * (sb z3.2 ρ0) + (-2) * ((c.e : ℂ)) ^ 2 * (ab z0.1 z2.1) * (sb z0.2 z3.2) * (sb z1.2 ρ0) + (2) * ((c.e : ℂ)) ^ 2 * (ab z0.1 z3.1) * (sb z0.2 z1.2) * (sb z2.2 ρ0)) * i16 + ((4) * ((c.e : ℂ)) ^ 2 * ((c.mass .e : ℂ)) * (N.c 0) * (ab z0.1 ρ1)) * i17 + ((2) * ((c.e : ℂ)) ^ 2 * (mb z1.2 (p 2) ρ1) * (sb z2.2 ρ0)) * i18 + ((2) * ((c.e : ℂ)) ^ 2 * (mb z1.2 (p 2) ρ1) * (sb z2.2 ρ0)) * i19 + ((-2) * ((c.e : ℂ)) ^ 2 * (N.c 1) * (sb z2.2 ρ0) + (-2) * ((c.e : ℂ)) ^ 2 * (mb ρ0 (p 2) z0.1) * (sb z0.2 z2.2)) * i20 + ((-2) * ((c.e : ℂ)) ^ 2 * (mb ρ0 (p 2) ρ1) * (sb z1.2 z3.2)) * i21 + ((-2) * ((c.e : ℂ)) ^ 2 * (mb ρ0 (p 2) ρ1) * (sb z1.2 z3.2)) * i22 + ((-2) * ((c.e : ℂ)) ^ 2 * (ab z0.1 z2.1) * (mb ρ0 (p 2) ρ1)) * i23 + ((-2) * ((c.e : ℂ)) ^ 2 * (N.c 0) * (sb z1.2 ρ0)) * i24 + ((2) * ((c.e : ℂ)) ^ 2 * ((c.mass .e : ℂ)) * (ab z0.1 ρ1) * (mb z1.2 (p 2) z0.1)) * i25 + ((-2) * ((c.e : ℂ)) ^ 2 * ((c.mass .e : ℂ)) * (ab z0.1 ρ1) * (sb z0.2 z1.2)) * i26 + ((2) * ((c.e : ℂ)) ^ 2 * ((c.mass .e : ℂ)) * (ab z0.1 ρ1) * (sb z0.2 ρ0)) * i27)) * ((1) * ((N.c 0)⁻¹) * ((N.c 1)⁻¹)) + ((-2) * ((c.e : ℂ)) ^ 2 * ((c.mass .e : ℂ)) * ((N.c 1)⁻¹) * (ab z0.1 z3.1) * (ab z2.1 ρ1) * (sb z1.2 ρ0) + (2) * ((c.e : ℂ)) ^ 2 * ((c.mass .e : ℂ)) * ((N.c 1)⁻¹) * (ab z0.1 ρ1) * (sb z1.2 z2.2) * (sb z3.2 ρ0) + (2) * ((c.e : ℂ)) ^ 2 * ((N.c 1)⁻¹) * (ab z0.1 z3.1) * (ab z1.1 ρ1) * (sb z1.2 z2.2) * (sb z1.2 ρ0) + (2) * ((c.e : ℂ)) ^ 2 * ((N.c 1)⁻¹) * (ab z0.1 z3.1) * (mb ρ0 (p 2) ρ1) * (sb z1.2 z2.2) + (2) * ((c.e : ℂ)) ^ 2 * ((N.c 1)⁻¹) * (ab z2.1 ρ1) * (mb z1.2 (p 2) z0.1) * (sb z3.2 ρ0)) * y0 + ((2) * ((c.e : ℂ)) ^ 2 * ((c.mass .e : ℂ)) * ((N.c 0)⁻¹) * (ab z0.1 z2.1) * (ab z3.1 ρ1) * (sb z1.2 ρ0) + (-2) * ((c.e : ℂ)) ^ 2 * ((c.mass .e : ℂ)) * ((N.c 0)⁻¹) * (ab z0.1 ρ1) * (sb z1.2 z3.2) * (sb z2.2 ρ0) + (2) * ((c.e : ℂ)) ^ 2 * ((N.c 0)⁻¹) * (ab z0.1 z2.1) * (ab z0.1 ρ1) * (sb z0.2 ρ0) * (sb z1.2 z3.2) + (2) * ((c.e : ℂ)) ^ 2 * ((N.c 0)⁻¹) * (ab z0.1 z2.1) * (mb ρ0 (p 2) ρ1) * (sb z1.2 z3.2) + (2) * ((c.e : ℂ)) ^ 2 * ((N.c 0)⁻¹) * (ab z3.1 ρ1) * (mb z1.2 (p 2) z0.1) * (sb z2.2 ρ0)) * y1 + ((-1) * ((c.e : ℂ)) ^ 2 * ((c.mass .e : ℂ)) * ((N.c 0)⁻¹) * (ab z0.1 z2.1) * (ab z3.1 ρ1) * (sb z1.2 ρ0) + (1) * ((c.e : ℂ)) ^ 2 * ((c.mass .e : ℂ)) * ((N.c 0)⁻¹) * (ab z0.1 ρ1) * (sb z1.2 z3.2) * (sb z2.2 ρ0) + (1) * ((c.e : ℂ)) ^ 2 * ((c.mass .e : ℂ)) * ((N.c 1)⁻¹) * (ab z0.1 z3.1) * (ab z2.1 ρ1) * (sb z1.2 ρ0) + (-1) * ((c.e : ℂ)) ^ 2 * ((c.mass .e : ℂ)) * ((N.c 1)⁻¹) * (ab z0.1 ρ1) * (sb z1.2 z2.2) * (sb z3.2 ρ0) + (-1) * ((c.e : ℂ)) ^ 2 * ((N.c 0)⁻¹) * (ab z0.1 z2.1) * (ab z0.1 ρ1) * (sb z0.2 ρ0) * (sb z1.2 z3.2) + (-1) * ((c.e : ℂ)) ^ 2 * ((N.c 0)⁻¹) * (ab z0.1 z2.1) * (mb ρ0 (p 2) ρ1) * (sb z1.2 z3.2) + (-1) * ((c.e : ℂ)) ^ 2 * ((N.c 0)⁻¹) * (ab z3.1 ρ1) * (mb z1.2 (p 2) z0.1) * (sb z2.2 ρ0) + (-1) * ((c.e : ℂ)) ^ 2 * ((N.c 1)⁻¹) * (ab z0.1 z3.1) * (ab z1.1 ρ1) * (sb z1.2 z2.2) * (sb z1.2 ρ0) + (-1) * ((c.e : ℂ)) ^ 2 * ((N.c 1)⁻¹) * (ab z0.1 z3.1) * (mb ρ0 (p 2) ρ1) * (sb z1.2 z2.2) + (-1) * ((c.e : ℂ)) ^ 2 * ((N.c 1)⁻¹) * (ab z2.1 ρ1) * (mb z1.2 (p 2) z0.1) * (sb z3.2 ρ0)) * x22
theorem AAee.keyMM {c : Constants} {p : Nat → V4 ℝ} {N : Env} (hc : c.Physical) (hb : Balanced p) (r0 : N.r 0 = c.e) (r1 : N.r 1 = (c.mass .e)) (d0 : ((msq (plus (backward (p 3)) (p 1)) - c.mass .e ^ 2 : ℝ) : ℂ) = N.c 0) (n0 : N.c 0 ≠ 0) (d1 : ((msq (plus (backward (p 3)) (p 0)) - c.mass .e ^ 2 : ℝ) : ℂ) = N.c 1) (n1 : N.c 1 ≠ 0) {z0 z1 z2 z3 : Pair} (b2 : Bold (p 2) (c.mass .e) z2) (b3 : Bold (p 3) (c.mass .e) z3) (l0 : Light (p 0) z0) (l1 : Light (p 1) z1) (e02 : mb z0.2 (p 2) z0.1 = -N.c 0) (e03 : mb z0.2 (p 3) z0.1 = -N.c 1) (e12 : mb z1.2 (p 2) z1.1 = -N.c 1) (e13 : mb z1.2 (p 3) z1.1 = -N.c 0) (q2 : msq (p 2) = (c.mass .e) ^ 2) (q3 : msq (p 3) = (c.mass .e) ^ 2) (ρ0 ρ1 : V2) :
    AAee.formMM N p z0 z1 z2 z3 * sb ρ0 z0.2 * sb ρ1 z1.2 = ((√2 : ℝ) * ((√2 : ℝ) * (1 : ℂ))) * AAee.react.bare c p 2 3 0 1 z2 z3 (pv z0.1 ρ0) (pv z1.1 ρ1) := by
  rw [AAee.react.bare_parts c p (i := 2) (j := 3) (a := 0) (b := 1) (x := .photon) (y := .photon) (k := (p 0)) (k' := (p 1)) (fun _ => rfl) (fun _ => rfl) (f := .e) (g := .e) rfl rfl (l := (backward (p 3))) rfl (e := 1) (e' := -1) (if_neg Bool.false_ne_true) (if_pos rfl)]
  rw [compton_vv (f := .e) (x := .e) (g := .e) (h := (rfl : Spec.after .photon Flavour.e = some Flavour.e)) (h' := (rfl : Spec.after .photon Flavour.e = some Flavour.e)) (ha := by simp) (hb := by simp)]
  rw [compton_vv (f := .e) (x := .e) (g := .e) (h := (rfl : Spec.after .photon Flavour.e = some Flavour.e)) (h' := (rfl : Spec.after .photon Flavour.e = some Flavour.e)) (ha := by simp) (hb := by simp)]
  rw [annihilation_none c _ _ (by rfl) (by simp), star_zero, add_zero, AAee.formMM]
  simp only [d0, d1, lineV_pv, lineV_four, contract_four_pv, contract_pv, mb_plus, mb_backward]
  have i0 := sb_schouten z1.2 ρ0 ρ1 z0.2
  have i1 := sb_schouten z2.2 z3.2 ρ1 z0.2
  have i2 := sb_schouten z1.2 z2.2 ρ0 z0.2
  have i3 := sb_schouten z3.2 ρ0 ρ1 z1.2
  have i4 := sb_schouten z1.2 z3.2 ρ0 z0.2
  have i5 := mb_schouten_right z3.2 (p 2) z0.1 z1.1 z2.1
  have i6 := sb_schouten z1.2 z3.2 ρ1 z0.2
  have i7 := mb_schouten_left z0.2 z1.2 ρ0 (p 2) z0.1
  have i8 := mb_schouten_right z1.2 (p 2) z0.1 z1.1 z2.1
  have i9 := mb_schouten_right z0.2 (p 2) z0.1 z1.1 z2.1
  have i10 := mb_schouten_right z1.2 (p 3) z0.1 z1.1 z2.1
  have i11 := mb_schouten_right ρ1 (p 2) z0.1 z1.1 z2.1
  have i12 := sb_schouten z3.2 ρ0 ρ1 z2.2
  have i13 := mb_schouten_right z0.2 (p 3) z0.1 z1.1 z2.1
  have i14 := mb_schouten_right z0.2 (p 3) z0.1 z1.1 z3.1
  have i15 := mb_schouten_left z0.2 z3.2 ρ0 (p 2) z0.1
  have i16 := mb_schouten_left z0.2 z3.2 ρ1 (p 2) z0.1
  have i17 := mb_schouten_left z0.2 ρ0 ρ1 (p 2) z0.1
  have i18 := mb_schouten_right ρ0 (p 2) z0.1 z1.1 z3.1
  have i19 := mb_schouten_left z0.2 z2.2 ρ1 (p 2) z0.1
  have i20 := mb_schouten_right ρ1 (p 2) z0.1 z1.1 z3.1
  have i21 := mb_schouten_left z0.2 z2.2 ρ0 (p 2) z0.1
  have i22 := mb_schouten_right z2.2 (p 3) z0.1 z1.1 z3.1
  have i23 := mb_schouten_right z0.2 (p 2) z0.1 z1.1 z3.1
  have i24 := mb_schouten_right z1.2 (p 2) z0.1 z1.1 z3.1
  have i25 := sb_schouten z3.2 ρ0 ρ1 z0.2
  have i26 := mb_schouten_right ρ0 (p 2) z0.1 z1.1 z2.1
  have i27 := sb_schouten z2.2 z3.2 ρ0 z0.2
  have i28 := sb_schouten z2.2 ρ0 ρ1 z1.2
  have i29 := sb_schouten z2.2 ρ0 ρ1 z0.2
  have i30 := mb_schouten_left z0.2 z1.2 ρ1 (p 2) z0.1
  have i31 := mb_schouten_right z1.2 (p 3) z0.1 z1.1 z3.1
  simp only [l0.mb_eq, l1.mb_eq, b2.mb_left, b2.mb_right, b3.mb_left, b3.mb_right, e02, e03, e12, e13, mb_three hb z0.2 z1.1, mb_three hb z0.2 z2.1, mb_two hb z0.2 z3.1, mb_three hb z1.2 z0.1, mb_three hb z1.2 z2.1, mb_two hb z1.2 z3.1, mb_three hb z2.2 z0.1, mb_three hb z2.2 z1.1, mb_three hb z2.2 z2.1, mb_two hb z3.2 z0.1, mb_two hb z3.2 z1.1, mb_two hb z3.2 z3.1, mb_three hb ρ0 z0.1, mb_three hb ρ0 z1.1, mb_three hb ρ0 z2.1, mb_two hb ρ0 z3.1, mb_three hb ρ1 z0.1, mb_three hb ρ1 z1.1, mb_three hb ρ1 z2.1, mb_two hb ρ1 z3.1, ab_self, sb_self] at i0 i1 i2 i3 i4 i5 i6 i7 i8 i9 i10 i11 i12 i13 i14 i15 i16 i17 i18 i19 i20 i21 i22 i23 i24 i25 i26 i27 i28 i29 i30 i31 ⊢
  simp only [ab_swap z0.1 z1.1, ab_swap z0.1 z2.1, ab_swap z0.1 z3.1, ab_swap z1.1 z2.1, ab_swap z1.1 z3.1, ab_swap z2.1 z3.1, sb_swap z0.2 z1.2, sb_swap z0.2 z2.2, sb_swap z0.2 z3.2, sb_swap z0.2 ρ0, sb_swap z0.2 ρ1, sb_swap z1.2 z2.2, sb_swap z1.2 z3.2, sb_swap z1.2 ρ0, sb_swap z1.2 ρ1, sb_swap z2.2 z3.2, sb_swap z2.2 ρ0, sb_swap z2.2 ρ1, sb_swap z3.2 ρ0, sb_swap z3.2 ρ1, sb_swap ρ0 ρ1] at i0 i1 i2 i3 i4 i5 i6 i7 i8 i9 i10 i11 i12 i13 i14 i15 i16 i17 i18 i19 i20 i21 i22 i23 i24 i25 i26 i27 i28 i29 i30 i31 ⊢
  simp only [r0, r1, Constants.hL, Constants.hR, Constants.gL, Constants.gR, Constants.yuk, Constants.invVev, Flavour.charge_e, Flavour.isospin_e, ← c.mz]
  have xMW : (c.MW : ℂ) ≠ 0 := by exact_mod_cast hc.MW
  have xSW : (c.SW : ℂ) ≠ 0 := by exact_mod_cast hc.SW
  have xCW : (c.CW : ℂ) ≠ 0 := by exact_mod_cast hc.CW
  have x2 : ((√2 : ℝ) : ℂ) ≠ 0 := by exact_mod_cast (Real.sqrt_pos.2 two_pos).ne'
  have x22 : ((√2 : ℝ) : ℂ) ^ 2 = 2 := by rw [← Complex.ofReal_pow, Real.sq_sqrt two_pos.le]; norm_num
  have x23 : ((√2 : ℝ) : ℂ) ^ 3 = 2 * ((√2 : ℝ) : ℂ) := by rw [← x22]; ring
  have x24 : ((√2 : ℝ) : ℂ) ^ 4 = 4 := by linear_combination (((√2 : ℝ) : ℂ) ^ 2 + 2) * x22
  push_cast at i0 i1 i2 i3 i4 i5 i6 i7 i8 i9 i10 i11 i12 i13 i14 i15 i16 i17 i18 i19 i20 i21 i22 i23 i24 i25 i26 i27 i28 i29 i30 i31 ⊢
  have y0 := mul_inv_cancel₀ n0
  have y1 := mul_inv_cancel₀ n1
  linear_combination ((((-2) * ((c.e : ℂ)) ^ 2 * ((c.mass .e : ℂ)) * (ab z0.1 z1.1) ^ 2 * (sb z2.2 z3.2)) * i0 + ((-2) * ((c.e : ℂ)) ^ 2 * ((c.mass .e : ℂ)) * (ab z0.1 z1.1) * (mb ρ0 (p 2) z0.1) + (2) * ((c.e : ℂ)) ^ 2 * ((c.mass .e : ℂ)) * (ab z0.1 z1.1) ^ 2 * (sb z1.2 ρ0)) * i1 + ((2) * ((c.e : ℂ)) ^ 2 * ((c.mass .e : ℂ)) * (ab z0.1 z1.1) ^ 2 * (sb z3.2 ρ1)) * i2 + ((-2) * ((c.e : ℂ)) ^ 2 * (N.c 0) * (ab z0.1 z1.1) * (ab z1.1 z2.1)) * i3 + ((-2) * ((c.e : ℂ)) ^ 2 * (ab z0.1 z1.1) * (ab z0.1 z2.1) * (mb ρ1 (p 2) z1.1) + (2) * ((c.e : ℂ)) ^ 2 * (ab z0.1 z1.1) * (ab z1.1 z2.1) * (mb ρ1 (p 2) z0.1)) * i4 + ((2) * ((c.e : ℂ)) ^ 2 * (N.c 0) * (sb ρ0 ρ1) + (2) * ((c.e : ℂ)) ^ 2 * (mb ρ0 (p 2) z0.1) * (sb z0.2 ρ1) + (-2) * ((c.e : ℂ)) ^ 2 * (mb ρ1 (p 2) z0.1) * (sb z0.2 ρ0)) * i5 + ((-2) * ((c.e : ℂ)) ^ 2 * ((c.mass .e : ℂ)) * (ab z0.1 z1.1) ^ 2 * (sb z2.2 ρ0) + (2) * ((c.e : ℂ)) ^ 2 * (ab z0.1 z1.1) * (ab z0.1 z2.1) * (mb ρ0 (p 2) z1.1) + (-2) * ((c.e : ℂ)) ^ 2 * (ab z0.1 z1.1) * (ab z1.1 z2.1) * (mb ρ0 (p 2) z0.1)) * i6 + ((2) * ((c.e : ℂ)) ^ 2 * (ab z0.1 z1.1) * (ab z1.1 z2.1) * (sb z3.2 ρ1)) * i7 + ((2) * ((c.e : ℂ)) ^ 2 * (ab z0.1 z1.1) * (sb z0.2 ρ0) * (sb z3.2 ρ1) + (2) * ((c.e : ℂ)) ^ 2 * (mb ρ0 (p 2) z1.1) * (sb z3.2 ρ1) + (-2) * ((c.e : ℂ)) ^ 2 * (mb ρ1 (p 2) z1.1) * (sb z3.2 ρ0)) * i8 + ((-2) * ((c.e : ℂ)) ^ 2 * (mb ρ1 (p 2) z0.1) * (sb z3.2 ρ0)) * i9 + ((2) * ((c.e : ℂ)) ^ 2 * (mb ρ0 (p 2) z1.1) * (sb z3.2 ρ1) + (-2) * ((c.e : ℂ)) ^ 2 * (mb ρ1 (p 2) z1.1) * (sb z3.2 ρ0)) * i10 + ((2) * ((c.e : ℂ)) ^ 2 * ((c.mass .e : ℂ)) * (ab z0.1 z3.1) * (sb z0.2 ρ0) + (-2) * ((c.e : ℂ)) ^ 2 * (N.c 1) * (sb z3.2 ρ0) + (2) * ((c.e : ℂ)) ^ 2 * (ab z0.1 z1.1) * (sb z0.2 z3.2) * (sb z1.2 ρ0) + (-2) * ((c.e : ℂ)) ^ 2 * (mb ρ0 (p 2) z0.1) * (sb z0.2 z3.2)) * i11 + ((-2) * ((c.e : ℂ)) ^ 2 * ((c.mass .e : ℂ)) * (N.c 0) * (ab z0.1 z1.1) + (2) * ((c.e : ℂ)) ^ 2 * ((c.mass .e : ℂ)) * (N.c 1) * (ab z0.1 z1.1)) * i12 + ((-2) * ((c.e : ℂ)) ^ 2 * ((c.mass .e : ℂ)) * (ab z0.1 z3.1) * (sb ρ0 ρ1) + (-2) * ((c.e : ℂ)) ^ 2 * (mb ρ1 (p 2) z0.1) * (sb z3.2 ρ0)) * i13 + ((4) * ((c.e : ℂ)) ^ 2 * ((c.mass .e : ℂ)) * (ab z0.1 z2.1) * (sb ρ0 ρ1) + (2) * ((c.e : ℂ)) ^ 2 * (ab z0.1 z1.1) * (sb z1.2 z2.2) * (sb ρ0 ρ1) + (-2) * ((c.e : ℂ)) ^ 2 * (mb ρ1 (p 2) z0.1) * (sb z2.2 ρ0)) * i14 + ((-2) * ((c.e : ℂ)) ^ 2 * (ab z0.1 z1.1) * (ab z0.1 z2.1) * (sb z0.2 ρ1) + (-2) * ((c.e : ℂ)) ^ 2 * (ab z0.1 z2.1) * (mb ρ1 (p 2) z1.1)) * i15 + ((2) * ((c.e : ℂ)) ^ 2 * (ab z0.1 z1.1) * (ab z0.1 z2.1) * (sb z0.2 ρ0) + (2) * ((c.e : ℂ)) ^ 2 * (ab z0.1 z2.1) * (mb ρ0 (p 2) z1.1)) * i16 + ((-4) * ((c.e : ℂ)) ^ 2 * ((c.mass .e : ℂ)) * (ab z0.1 z2.1) * (ab z1.1 z3.1)) * i17 + ((-2) * ((c.e : ℂ)) ^ 2 * ((c.mass .e : ℂ)) * (ab z0.1 z2.1) * (sb z0.2 ρ1) + (-2) * ((c.e : ℂ)) ^ 2 * (mb ρ1 (p 2) z0.1) * (sb z0.2 z2.2)) * i18 + ((-4) * ((c.e : ℂ)) ^ 2 * ((c.mass .e : ℂ)) * (ab z0.1 z1.1) * (sb z3.2 ρ0) + (-2) * ((c.e : ℂ)) ^ 2 * (ab z0.1 z1.1) * (ab z0.1 z3.1) * (sb z0.2 ρ0) + (-2) * ((c.e : ℂ)) ^ 2 * (ab z0.1 z1.1) * (ab z1.1 z3.1) * (sb z1.2 ρ0) + (-2) * ((c.e : ℂ)) ^ 2 * (ab z0.1 z3.1) * (mb ρ0 (p 2) z1.1)) * i19 + ((2) * ((c.e : ℂ)) ^ 2 * ((c.mass .e : ℂ)) * (ab z0.1 z2.1) * (sb z0.2 ρ0) + (-2) * ((c.e : ℂ)) ^ 2 * (N.c 0) * (sb z2.2 ρ0) + (2) * ((c.e : ℂ)) ^ 2 * (mb ρ0 (p 2) z0.1) * (sb z0.2 z2.2)) * i20 + ((4) * ((c.e : ℂ)) ^ 2 * ((c.mass .e : ℂ)) * (ab z0.1 z1.1) * (sb z3.2 ρ1) + (2) * ((c.e : ℂ)) ^ 2 * (ab z0.1 z1.1) * (ab z0.1 z3.1) * (sb z0.2 ρ1) + (2) * ((c.e : ℂ)) ^ 2 * (ab z0.1 z1.1) * (ab z1.1 z3.1) * (sb z1.2 ρ1) + (2) * ((c.e : ℂ)) ^ 2 * (ab z0.1 z3.1) * (mb ρ1 (p 2) z1.1)) * i21 + ((2) * ((c.e : ℂ)) ^ 2 * (N.c 1) * (sb ρ0 ρ1) + (-2) * ((c.e : ℂ)) ^ 2 * (ab z0.1 z1.1) * (sb z0.2 z1.2) * (sb ρ0 ρ1)) * i22 + ((2) * ((c.e : ℂ)) ^ 2 * ((c.mass .e : ℂ)) * (ab z0.1 z2.1) * (sb ρ0 ρ1) + (2) * ((c.e : ℂ)) ^ 2 * (ab z0.1 z1.1) * (sb z1.2 z2.2) * (sb ρ0 ρ1) + (-2) * ((c.e : ℂ)) ^ 2 * (mb ρ1 (p 2) z0.1) * (sb z2.2 ρ0)) * i23 + ((-2) * ((c.e : ℂ)) ^ 2 * (ab z0.1 z1.1) * (sb z0.2 z2.2) * (sb ρ0 ρ1)) * i24 + ((2) * ((c.e : ℂ)) ^ 2 * ((c.mass .e : ℂ)) ^ 2 * (ab z0.1 z1.1) * (ab z0.1 z2.1) + (-2) * ((c.e : ℂ)) ^ 2 * (N.c 0) * (ab z0.1 z1.1) * (ab z0.1 z2.1)) * i25 + ((-2) * ((c.e : ℂ)) ^ 2 * ((c.mass .e : ℂ)) * (ab z0.1 z3.1) * (sb z0.2 ρ1) + (-2) * ((c.e : ℂ)) ^ 2 * (ab z0.1 z1.1) * (sb z0.2 z3.2) * (sb z1.2 ρ1) + (2) * ((c.e : ℂ)) ^ 2 * (mb ρ1 (p 2) z0.1) * (sb z0.2 z3.2)) * i26 + ((2) * ((c.e : ℂ)) ^ 2 * ((c.mass .e : ℂ)) * (ab z0.1 z1.1) * (mb ρ1 (p 2) z0.1)) * i27 + ((2) * ((c.e : ℂ)) ^ 2 * (N.c 0) * (ab z0.1 z1.1) * (ab z1.1 z3.1)) * i28 + ((2) * ((c.e : ℂ)) ^ 2 * ((c.mass .e : ℂ)) * (ab z0.1 z1.1) ^ 2 * (sb z1.2 z3.2) + (2) * ((c.e : ℂ)) ^ 2 * ((c.mass .e : ℂ)) ^ 2 * (ab z0.1 z1.1) * (ab z0.1 z3.1) + (2) * ((c.e : ℂ)) ^ 2 * (ab z0.1 z1.1) * (ab z1.1 z3.1) * (mb z1.2 (p 2) z0.1)) * i29 + ((2) * ((c.e : ℂ)) ^ 2 * (ab z0.1 z1.1) * (ab z1.1 z3.1) * (sb z2.2 ρ0)) * i30 + ((-2) * ((c.e : ℂ)) ^ 2 * (ab z0.1 z1.1) * (sb z0.2 ρ0) * (sb z2.2 ρ1)) * i31)) * ((1) * ((N.c 0)⁻¹) * ((N.c 1)⁻¹)) + ((-2) * ((c.e : ℂ)) ^ 2 * ((c.mass .e : ℂ)) * ((N.c 1)⁻¹) * (ab z0.1 z1.1) * (sb z2.2 ρ1) * (sb z3.2 ρ0) + (-2) * ((c.e : ℂ)) ^ 2 * ((c.mass .e : ℂ)) * ((N.c 1)⁻¹) * (ab z0.1 z3.1) * (ab z1.1 z2.1) * (sb ρ0 ρ1) + (2) * ((c.e : ℂ)) ^ 2 * ((N.c 1)⁻¹) * (ab z0.1 z1.1) * (ab z1.1 z2.1) * (sb z1.2 ρ1) * (sb z3.2 ρ0) + (-2) * ((c.e : ℂ)) ^ 2 * ((N.c 1)⁻¹) * (ab z0.1 z3.1) * (mb ρ0 (p 2) z1.1) * (sb z2.2 ρ1) + (-2) * ((c.e : ℂ)) ^ 2 * ((N.c 1)⁻¹) * (ab z1.1 z2.1) * (mb ρ1 (p 2) z0.1) * (sb z3.2 ρ0)) * y0 + ((2) * ((c.e : ℂ)) ^ 2 * ((c.mass .e : ℂ)) * ((N.c 0)⁻¹) * (ab z0.1 z1.1) * (sb z2.2 ρ0) * (sb z3.2 ρ1) + (2) * ((c.e : ℂ)) ^ 2 * ((c.mass .e : ℂ)) * ((N.c 0)⁻¹) * (ab z0.1 z2.1) * (ab z1.1 z3.1) * (sb ρ0 ρ1) + (-2) * ((c.e : ℂ)) ^ 2 * ((N.c 0)⁻¹) * (ab z0.1 z1.1) * (ab z0.1 z2.1) * (sb z0.2 ρ0) * (sb z3.2 ρ1) + (-2) * ((c.e : ℂ)) ^ 2 * ((N.c 0)⁻¹) * (ab z0.1 z2.1) * (mb ρ0 (p 2) z1.1) * (sb z3.2 ρ1) + (-2) * ((c.e : ℂ)) ^ 2 * ((N.c 0)⁻¹) * (ab z1.1 z3.1) * (mb ρ1 (p 2) z0.1) * (sb z2.2 ρ0)) * y1 + ((-1) * ((c.e : ℂ)) ^ 2 * ((c.mass .e : ℂ)) * ((N.c 0)⁻¹) * (ab z0.1 z1.1) * (sb z2.2 ρ0) * (sb z3.2 ρ1) + (-1) * ((c.e : ℂ)) ^ 2 * ((c.mass .e : ℂ)) * ((N.c 0)⁻¹) * (ab z0.1 z2.1) * (ab z1.1 z3.1) * (sb ρ0 ρ1) + (1) * ((c.e : ℂ)) ^ 2 * ((c.mass .e : ℂ)) * ((N.c 1)⁻¹) * (ab z0.1 z1.1) * (sb z2.2 ρ1) * (sb z3.2 ρ0) + (1) * ((c.e : ℂ)) ^ 2 * ((c.mass .e : ℂ)) * ((N.c 1)⁻¹) * (ab z0.1 z3.1) * (ab z1.1 z2.1) * (sb ρ0 ρ1) + (1) * ((c.e : ℂ)) ^ 2 * ((N.c 0)⁻¹) * (ab z0.1 z1.1) * (ab z0.1 z2.1) * (sb z0.2 ρ0) * (sb z3.2 ρ1) + (1) * ((c.e : ℂ)) ^ 2 * ((N.c 0)⁻¹) * (ab z0.1 z2.1) * (mb ρ0 (p 2) z1.1) * (sb z3.2 ρ1) + (1) * ((c.e : ℂ)) ^ 2 * ((N.c 0)⁻¹) * (ab z1.1 z3.1) * (mb ρ1 (p 2) z0.1) * (sb z2.2 ρ0) + (-1) * ((c.e : ℂ)) ^ 2 * ((N.c 1)⁻¹) * (ab z0.1 z1.1) * (ab z1.1 z2.1) * (sb z1.2 ρ1) * (sb z3.2 ρ0) + (1) * ((c.e : ℂ)) ^ 2 * ((N.c 1)⁻¹) * (ab z0.1 z3.1) * (mb ρ0 (p 2) z1.1) * (sb z2.2 ρ1) + (1) * ((c.e : ℂ)) ^ 2 * ((N.c 1)⁻¹) * (ab z1.1 z2.1) * (mb ρ1 (p 2) z0.1) * (sb z3.2 ρ0)) * x22
set_option maxRecDepth 8000 in
theorem AAee.amp2_eq (N : Env) (f : Nat → List Int → ℂ) : Cls.AAee.m_amp2.mean N f .r [] =
    ((sumW (fun x a => (sumW (fun x b => (sumJ (fun x c => (sumJ (fun x d => (x + (‖(f 0 [a, b, c, d])‖ ^ 2))) x)) x)) x)) ((0 : Nat) : ℝ)) / ((4 : Nat) : ℝ)) := by rfl
set_option maxRecDepth 8000 in
theorem AAee.value (N : Env) : meaning N .r Cls.AAee.methods Cls.AAee.amp2 [] =
    ((sumW (fun x a => (sumW (fun x b => (sumJ (fun x c => (sumJ (fun x d => (x + (‖(Cls.AAee.m_amp.mean N (callMean N []) .c [a, b, c, d])‖ ^ 2))) x)) x)) x)) ((0 : Nat) : ℝ)) / ((4 : Nat) : ℝ)) :=
  AAee.amp2_eq N (callMean N [Cls.AAee.m_amp])
set_option maxRecDepth 8000 in
theorem AAee.ampPP (N : Env) (f : Nat → List Int → ℂ) (j3 j4 : Int) : Cls.AAee.m_amp.mean N f .c [2, 2, j3, j4] = AAee.termPP N j3 j4 := by rfl
set_option maxRecDepth 8000 in
theorem AAee.ampPM (N : Env) (f : Nat → List Int → ℂ) (j3 j4 : Int) : Cls.AAee.m_amp.mean N f .c [2, (-2), j3, j4] = AAee.termPM N j3 j4 := by rfl
set_option maxRecDepth 8000 in
theorem AAee.ampMP (N : Env) (f : Nat → List Int → ℂ) (j3 j4 : Int) : Cls.AAee.m_amp.mean N f .c [(-2), 2, j3, j4] = AAee.termMP N j3 j4 := by rfl
set_option maxRecDepth 8000 in
theorem AAee.ampMM (N : Env) (f : Nat → List Int → ℂ) (j3 j4 : Int) : Cls.AAee.m_amp.mean N f .c [(-2), (-2), j3, j4] = AAee.termMM N j3 j4 := by rfl

theorem AAee.mass_eq {c : Constants} (hc : c.Physical) (i : Fin 4) : AAee.proc.massNum (AAee.rho c) i = AAee.react.mass c i := by
  fin_cases i <;> first | rfl | exact Nat.cast_zero | exact Nat.cast_zero.trans (hc.neutrino _).symm | (show c.MW / √(((1 : Nat) : ℝ) - c.SW * c.SW) = c.MZ; rw [c.root, c.mz])

variable [FPEnv] in
theorem AAee.amps {c : Constants} {p : Nat → V4 ℝ} {u : Fin 4 → Fin 3 → Spinor} {ε : Fin 4 → Fin 3 → Vec} (hc : c.Physical) (hh : c.Heavy) (h0 : ∀ i, 0 ≤ AAee.react.mass c i) (hs : ∀ i : Fin 4, OnShell (p i) (AAee.react.mass c i)) (hb : Balanced p) (hr : AAee.react.Regular c p) (hu : ∀ i, AAee.react.Complete c p i (u i) (ε i)) :
    (AAee.N c p).c 0 ≠ 0 ∧ (AAee.N c p).c 1 ≠ 0 ∧ (∀ n, (Ty.r, n) ∈ AAee.proc.divides → (AAee.N c p).r n ≠ 0) ∧ (∀ n, (Ty.c, n) ∈ AAee.proc.divides → (AAee.N c p).c n ≠ 0) ∧ ∀ (s2 : Fin 2) (s3 : Fin 2) (h0 : Fin 2) (h1 : Fin 2), ‖Cls.AAee.m_amp.mean (AAee.N c p) (callMean (AAee.N c p) []) .c [spinW h0, spinW h1, spinOf s2, spinOf s3]‖ = ‖AAee.react.bare c p 2 3 0 1 (AAee.react.codePair c p 2 s2) (AAee.react.codePair c p 3 s3) (lightE (legA (p 0) 0 0, legS (p 0) 0 1) h0.castSucc) (lightE (legA (p 1) 0 0, legS (p 1) 0 1) h1.castSucc)‖ := by
  have he : AAee.react.ends = [2] := by decide
  have ht : AAee.react.starts = [3] := by decide
  have hB : AAee.react.bosons = [0, 1] := by decide
  obtain ⟨f1, f2, f3⟩ := AAee.react.regular_line he ht hB hr
  have r0 : (AAee.N c p).r 0 = c.e := rfl
  have r1 : (AAee.N c p).r 1 = (c.mass .e) := rfl
  have c0 : (AAee.N c p).c 0 = poleDist (c.mass .e) ((0 : Nat) : ℝ) ((VExp.sub 0 2).sum p) := rfl
  rw [Nat.cast_zero, pole_fermion rfl] at c0
  have d0 : ((msq (plus (backward (p 3)) (p 1)) - c.mass .e ^ 2 : ℝ) : ℂ) = (AAee.N c p).c 0 := by rw [c0, msq_t hb (plus (backward (p 3)) (p 1)) (by simp)]
  have n0 : (AAee.N c p).c 0 ≠ 0 := by rw [← d0]; exact_mod_cast f2 .e rfl rfl
  have c1 : (AAee.N c p).c 1 = poleDist (c.mass .e) ((0 : Nat) : ℝ) ((VExp.sub 0 3).sum p) := rfl
  rw [Nat.cast_zero, pole_fermion rfl] at c1
  have d1 : ((msq (plus (backward (p 3)) (p 0)) - c.mass .e ^ 2 : ℝ) : ℂ) = (AAee.N c p).c 1 := by rw [c1, msq_u hb (plus (backward (p 3)) (p 0)) (by simp)]
  have n1 : (AAee.N c p).c 1 ≠ 0 := by rw [← d1]; exact_mod_cast f1 .e rfl rfl
  obtain ⟨l0, x0, y0⟩ := AAee.react.code_light hs hu (n := 0) rfl rfl
  obtain ⟨l1, x1, y1⟩ := AAee.react.code_light hs hu (n := 1) rfl rfl
  have e02 := l0.pole_sub (m := (c.mass .e)) (onShell_msq (hs 2)) (msq_t hb (plus (p 0) (backward (p 2))) (by simp)) c0
  have e03 := l0.pole_sub (m := (c.mass .e)) (onShell_msq (hs 3)) (msq_u hb (plus (p 0) (backward (p 3))) (by simp)) c1
  have e12 := l1.pole_sub (m := (c.mass .e)) (onShell_msq (hs 2)) (msq_u hb (plus (p 1) (backward (p 2))) (by simp)) c1
  have e13 := l1.pole_sub (m := (c.mass .e)) (onShell_msq (hs 3)) (msq_t hb (plus (p 1) (backward (p 3))) (by simp)) c0
  have m2 : AAee.react.mass c 2 ≠ 0 := (leg_pos hc hh (by decide)).ne'
  have m3 : AAee.react.mass c 3 ≠ 0 := (leg_pos hc hh (by decide)).ne'
  have m0 : AAee.react.mass c 0 = 0 := rfl
  have m1 : AAee.react.mass c 1 = 0 := rfl
  have hd : AAee.proc.divides = [(Ty.c, 0), (Ty.c, 1)] := by decide +kernel
  have stPP : ∀ {z2 z3 : Pair} (b2 : Bold (p 2) (AAee.react.mass c 2) z2) (b3 : Bold (p 3) (AAee.react.mass c 3) z3), AAee.formPP (AAee.N c p) p (legA (p 0) 0 0, legS (p 0) 0 1) (legA (p 1) 0 0, legS (p 1) 0 1) z2 z3 = 1 * AAee.react.bare c p 2 3 0 1 z2 z3 (lightE (legA (p 0) 0 0, legS (p 0) 0 1) 1) (lightE (legA (p 1) 0 0, legS (p 1) 0 1) 1) := by
    intro z2 z3 b2 b3
    exact (light_plus (z := (legA (p 0) 0 0, legS (p 0) 0 1)) (G := fun E => AAee.react.bare c p 2 3 0 1 z2 z3 E (lightE (legA (p 1) 0 0, legS (p 1) 0 1) 1)) (AAee.react.bare_lin₁ c p _ _ _ (by decide)) x0 (light_plus (z := (legA (p 1) 0 0, legS (p 1) 0 1)) (G := fun E => AAee.react.bare c p 2 3 0 1 z2 z3 (pv (legA (p 0) 0 0, legS (p 0) 0 1).2 (legA (p 0) 0 0, legS (p 0) 0 1).2) E) (AAee.react.bare_lin₂ c p _ _ _ (by decide)) x1 (AAee.keyPP hc hb r0 r1 d0 n0 d1 n1 b2 b3 l0 l1 e02 e03 e12 e13 (onShell_msq (hs 2)) (onShell_msq (hs 3)) _ _)))
  have stPM : ∀ {z2 z3 : Pair} (b2 : Bold (p 2) (AAee.react.mass c 2) z2) (b3 : Bold (p 3) (AAee.react.mass c 3) z3), AAee.formPM (AAee.N c p) p (legA (p 0) 0 0, legS (p 0) 0 1) (legA (p 1) 0 0, legS (p 1) 0 1) z2 z3 = 1 * AAee.react.bare c p 2 3 0 1 z2 z3 (lightE (legA (p 0) 0 0, legS (p 0) 0 1) 1) (lightE (legA (p 1) 0 0, legS (p 1) 0 1) 0) := by
    intro z2 z3 b2 b3
    exact (light_plus (z := (legA (p 0) 0 0, legS (p 0) 0 1)) (G := fun E => AAee.react.bare c p 2 3 0 1 z2 z3 E (lightE (legA (p 1) 0 0, legS (p 1) 0 1) 0)) (AAee.react.bare_lin₁ c p _ _ _ (by decide)) x0 (light_minus (z := (legA (p 1) 0 0, legS (p 1) 0 1)) (G := fun E => AAee.react.bare c p 2 3 0 1 z2 z3 (pv (legA (p 0) 0 0, legS (p 0) 0 1).2 (legA (p 0) 0 0, legS (p 0) 0 1).2) E) (AAee.react.bare_lin₂ c p _ _ _ (by decide)) y1 (AAee.keyPM hc hb r0 d0 n0 d1 n1 b2 b3 l0 l1 e02 e03 e12 e13 (onShell_msq (hs 2)) (onShell_msq (hs 3)) _ _)))
  have stMP : ∀ {z2 z3 : Pair} (b2 : Bold (p 2) (AAee.react.mass c 2) z2) (b3 : Bold (p 3) (AAee.react.mass c 3) z3), AAee.formMP (AAee.N c p) p (legA (p 0) 0 0, legS (p 0) 0 1) (legA (p 1) 0 0, legS (p 1) 0 1) z2 z3 = 1 * AAee.react.bare c p 2 3 0 1 z2 z3 (lightE (legA (p 0) 0 0, legS (p 0) 0 1) 0) (lightE (legA (p 1) 0 0, legS (p 1) 0 1) 1) := by
    intro z2 z3 b2 b3
    exact (light_minus (z := (legA (p 0) 0 0, legS (p 0) 0 1)) (G := fun E => AAee.react.bare c p 2 3 0 1 z2 z3 E (lightE (legA (p 1) 0 0, legS (p 1) 0 1) 1)) (AAee.react.bare_lin₁ c p _ _ _ (by decide)) y0 (light_plus (z := (legA (p 1) 0 0, legS (p 1) 0 1)) (G := fun E => AAee.react.bare c p 2 3 0 1 z2 z3 (pv (legA (p 0) 0 0, legS (p 0) 0 1).1 (legA (p 0) 0 0, legS (p 0) 0 1).1) E) (AAee.react.bare_lin₂ c p _ _ _ (by decide)) x1 (AAee.keyMP hc hb r0 d0 n0 d1 n1 b2 b3 l0 l1 e02 e03 e12 e13 (onShell_msq (hs 2)) (onShell_msq (hs 3)) _ _)))
  have stMM : ∀ {z2 z3 : Pair} (b2 : Bold (p 2) (AAee.react.mass c 2) z2) (b3 : Bold (p 3) (AAee.react.mass c 3) z3), AAee.formMM (AAee.N c p) p (legA (p 0) 0 0, legS (p 0) 0 1) (legA (p 1) 0 0, legS (p 1) 0 1) z2 z3 = 1 * AAee.react.bare c p 2 3 0 1 z2 z3 (lightE (legA (p 0) 0 0, legS (p 0) 0 1) 0) (lightE (legA (p 1) 0 0, legS (p 1) 0 1) 0) := by
    intro z2 z3 b2 b3
    exact (light_minus (z := (legA (p 0) 0 0, legS (p 0) 0 1)) (G := fun E => AAee.react.bare c p 2 3 0 1 z2 z3 E (lightE (legA (p 1) 0 0, legS (p 1) 0 1) 0)) (AAee.react.bare_lin₁ c p _ _ _ (by decide)) y0 (light_minus (z := (legA (p 1) 0 0, legS (p 1) 0 1)) (G := fun E => AAee.react.bare c p 2 3 0 1 z2 z3 (pv (legA (p 0) 0 0, legS (p 0) 0 1).1 (legA (p 0) 0 0, legS (p 0) 0 1).1) E) (AAee.react.bare_lin₂ c p _ _ _ (by decide)) y1 (AAee.keyMM hc hb r0 r1 d0 n0 d1 n1 b2 b3 l0 l1 e02 e03 e12 e13 (onShell_msq (hs 2)) (onShell_msq (hs 3)) _ _)))
  have amPP : ∀ (s2 : Fin 2) (s3 : Fin 2), Cls.AAee.m_amp.mean (AAee.N c p) (callMean (AAee.N c p) []) .c [2, 2, spinOf s2, spinOf s3] = 1 * AAee.react.bare c p 2 3 0 1 (AAee.react.codePair c p 2 s2) (AAee.react.codePair c p 3 s3) (lightE (legA (p 0) 0 0, legS (p 0) 0 1) 1) (lightE (legA (p 1) 0 0, legS (p 1) 0 1) 1) := by
    intro s2 s3
    rw [AAee.ampPP, ← stPP (AAee.react.codePair_bold hs h0 2 s2) (AAee.react.codePair_bold hs h0 3 s3)]
    have v2z0z1 : (AAee.N c p).v 2 [] = sb (legA (p 0) 0 0, legS (p 0) 0 1).2 (legA (p 1) 0 0, legS (p 1) 0 1).2 := bra_square (p := p) (m := AAee.proc.massNum (AAee.rho c)) (AAee.mass_eq hc 0) (AAee.mass_eq hc 1) (.inr ⟨m0, rfl⟩) (.inr ⟨m1, rfl⟩)
    have v1z2z3 : (AAee.N c p).v 1 [spinOf s2, spinOf s3] = ab (AAee.react.codePair c p 2 s2).1 (AAee.react.codePair c p 3 s3).1 := bra_angle (p := p) (m := AAee.proc.massNum (AAee.rho c)) (AAee.mass_eq hc 2) (AAee.mass_eq hc 3) (.inl ⟨m2, rfl⟩) (.inl ⟨m3, rfl⟩)
    simp only [AAee.termPP, AAee.formPP, v2z0z1, v1z2z3]
  have amPM : ∀ (s2 : Fin 2) (s3 : Fin 2), Cls.AAee.m_amp.mean (AAee.N c p) (callMean (AAee.N c p) []) .c [2, (-2), spinOf s2, spinOf s3] = 1 * AAee.react.bare c p 2 3 0 1 (AAee.react.codePair c p 2 s2) (AAee.react.codePair c p 3 s3) (lightE (legA (p 0) 0 0, legS (p 0) 0 1) 1) (lightE (legA (p 1) 0 0, legS (p 1) 0 1) 0) := by
    intro s2 s3
    rw [AAee.ampPM, ← stPM (AAee.react.codePair_bold hs h0 2 s2) (AAee.react.codePair_bold hs h0 3 s3)]
    have v4z0z2 : (AAee.N c p).v 4 [spinOf s2] = sb (legA (p 0) 0 0, legS (p 0) 0 1).2 (AAee.react.codePair c p 2 s2).2 := bra_square (p := p) (m := AAee.proc.massNum (AAee.rho c)) (AAee.mass_eq hc 0) (AAee.mass_eq hc 2) (.inr ⟨m0, rfl⟩) (.inl ⟨m2, rfl⟩)
    have v7z1z3 : (AAee.N c p).v 7 [spinOf s3] = ab (legA (p 1) 0 0, legS (p 1) 0 1).1 (AAee.react.codePair c p 3 s3).1 := bra_angle (p := p) (m := AAee.proc.massNum (AAee.rho c)) (AAee.mass_eq hc 1) (AAee.mass_eq hc 3) (.inr ⟨m1, rfl⟩) (.inl ⟨m3, rfl⟩)
    have v10z0z3 : (AAee.N c p).v 10 [spinOf s3] = sb (legA (p 0) 0 0, legS (p 0) 0 1).2 (AAee.react.codePair c p 3 s3).2 := bra_square (p := p) (m := AAee.proc.massNum (AAee.rho c)) (AAee.mass_eq hc 0) (AAee.mass_eq hc 3) (.inr ⟨m0, rfl⟩) (.inl ⟨m3, rfl⟩)
    have v9z1z2 : (AAee.N c p).v 9 [spinOf s2] = ab (legA (p 1) 0 0, legS (p 1) 0 1).1 (AAee.react.codePair c p 2 s2).1 := bra_angle (p := p) (m := AAee.proc.massNum (AAee.rho c)) (AAee.mass_eq hc 1) (AAee.mass_eq hc 2) (.inr ⟨m1, rfl⟩) (.inl ⟨m2, rfl⟩)
    have v12z0z1 : (AAee.N c p).v 12 [] = mb (legA (p 0) 0 0, legS (p 0) 0 1).2 (p 2) (legA (p 1) 0 0, legS (p 1) 0 1).1 := bra_mid_square (p := p) (m := AAee.proc.massNum (AAee.rho c)) (AAee.mass_eq hc 0) (AAee.mass_eq hc 1) (.inr ⟨m0, rfl⟩) (.inr ⟨m1, rfl⟩)
    simp only [AAee.termPM, AAee.formPM, v4z0z2, v7z1z3, v10z0z3, v9z1z2, v12z0z1]
  have amMP : ∀ (s2 : Fin 2) (s3 : Fin 2), Cls.AAee.m_amp.mean (AAee.N c p) (callMean (AAee.N c p) []) .c [(-2), 2, spinOf s2, spinOf s3] = 1 * AAee.react.bare c p 2 3 0 1 (AAee.react.codePair c p 2 s2) (AAee.react.codePair c p 3 s3) (lightE (legA (p 0) 0 0, legS (p 0) 0 1) 0) (lightE (legA (p 1) 0 0, legS (p 1) 0 1) 1) := by
    intro s2 s3
    rw [AAee.ampMP, ← stMP (AAee.react.codePair_bold hs h0 2 s2) (AAee.react.codePair_bold hs h0 3 s3)]
    have v5z0z2 : (AAee.N c p).v 5 [spinOf s2] = ab (legA (p 0) 0 0, legS (p 0) 0 1).1 (AAee.react.codePair c p 2 s2).1 := bra_angle (p := p) (m := AAee.proc.massNum (AAee.rho c)) (AAee.mass_eq hc 0) (AAee.mass_eq hc 2) (.inr ⟨m0, rfl⟩) (.inl ⟨m2, rfl⟩)
    have v6z1z3 : (AAee.N c p).v 6 [spinOf s3] = sb (legA (p 1) 0 0, legS (p 1) 0 1).2 (AAee.react.codePair c p 3 s3).2 := bra_square (p := p) (m := AAee.proc.massNum (AAee.rho c)) (AAee.mass_eq hc 1) (AAee.mass_eq hc 3) (.inr ⟨m1, rfl⟩) (.inl ⟨m3, rfl⟩)
    have v11z0z3 : (AAee.N c p).v 11 [spinOf s3] = ab (legA (p 0) 0 0, legS (p 0) 0 1).1 (AAee.react.codePair c p 3 s3).1 := bra_angle (p := p) (m := AAee.proc.massNum (AAee.rho c)) (AAee.mass_eq hc 0) (AAee.mass_eq hc 3) (.inr ⟨m0, rfl⟩) (.inl ⟨m3, rfl⟩)
    have v8z1z2 : (AAee.N c p).v 8 [spinOf s2] = sb (legA (p 1) 0 0, legS (p 1) 0 1).2 (AAee.react.codePair c p 2 s2).2 := bra_square (p := p) (m := AAee.proc.massNum (AAee.rho c)) (AAee.mass_eq hc 1) (AAee.mass_eq hc 2) (.inr ⟨m1, rfl⟩) (.inl ⟨m2, rfl⟩)
    have v13z1z0 : (AAee.N c p).v 13 [] = mb (legA (p 1) 0 0, legS (p 1) 0 1).2 (p 2) (legA (p 0) 0 0, legS (p 0) 0 1).1 := bra_mid_square (p := p) (m := AAee.proc.massNum (AAee.rho c)) (AAee.mass_eq hc 1) (AAee.mass_eq hc 0) (.inr ⟨m1, rfl⟩) (.inr ⟨m0, rfl⟩)
    simp only [AAee.termMP, AAee.formMP, v5z0z2, v6z1z3, v11z0z3, v8z1z2, v13z1z0]
  have amMM : ∀ (s2 : Fin 2) (s3 : Fin 2), Cls.AAee.m_amp.mean (AAee.N c p) (callMean (AAee.N c p) []) .c [(-2), (-2), spinOf s2, spinOf s3] = 1 * AAee.react.bare c p 2 3 0 1 (AAee.react.codePair c p 2 s2) (AAee.react.codePair c p 3 s3) (lightE (legA (p 0) 0 0, legS (p 0) 0 1) 0) (lightE (legA (p 1) 0 0, legS (p 1) 0 1) 0) := by
    intro s2 s3
    rw [AAee.ampMM, ← stMM (AAee.react.codePair_bold hs h0 2 s2) (AAee.react.codePair_bold hs h0 3 s3)]
    have v3z0z1 : (AAee.N c p).v 3 [] = ab (legA (p 0) 0 0, legS (p 0) 0 1).1 (legA (p 1) 0 0, legS (p 1) 0 1).1 := bra_angle (p := p) (m := AAee.proc.massNum (AAee.rho c)) (AAee.mass_eq hc 0) (AAee.mass_eq hc 1) (.inr ⟨m0, rfl⟩) (.inr ⟨m1, rfl⟩)
    have v0z2z3 : (AAee.N c p).v 0 [spinOf s2, spinOf s3] = sb (AAee.react.codePair c p 2 s2).2 (AAee.react.codePair c p 3 s3).2 := bra_square (p := p) (m := AAee.proc.massNum (AAee.rho c)) (AAee.mass_eq hc 2) (AAee.mass_eq hc 3) (.inl ⟨m2, rfl⟩) (.inl ⟨m3, rfl⟩)
    simp only [AAee.termMM, AAee.formMM, v3z0z1, v0z2z3]
  refine ⟨n0, n1, fun n hn => ?_, fun n hn => ?_, ?_⟩
  · simp [hd] at hn
  · simp [hd] at hn
    rcases hn with rfl | rfl
    · exact n0
    · exact n1
  intro s2 s3 h0 h1
  match h0, h1 with
  | 1, 1 => exact norm_plus (amPP s2 s3)
  | 1, 0 => exact norm_plus (amPM s2 s3)
  | 0, 1 => exact norm_plus (amMP s2 s3)
  | 0, 0 => exact norm_plus (amMM s2 s3)

variable [FPEnv] in
theorem AAee.agrees : AAee.Agrees := by
  refine agrees_of (D := []) (E := []) (by simp [all, AAee]) (by decide +kernel) (by decide) (by decide +kernel) (fun c hc hh => ⟨List.forall_mem_nil _, List.forall_mem_nil _⟩) (fun c hc i => AAee.mass_eq hc i) (by decide +kernel) ?_
  intro c p u ε hc hh hw h0 hs hb hr hu
  have he : AAee.react.ends = [2] := by decide
  have ht : AAee.react.starts = [3] := by decide
  have hB : AAee.react.bosons = [0, 1] := by decide
  obtain ⟨n0, n1, d1, d2, am⟩ := AAee.amps hc hh h0 hs hb hr hu
  refine ⟨d1, d2, ?_⟩
  show meaning (AAee.N c p) .r Cls.AAee.methods Cls.AAee.amp2 [] = _
  have s0 : AAee.react.states 0 = 2 := by decide +kernel
  have s1 : AAee.react.states 1 = 2 := by decide +kernel
  have sy : AAee.react.symmetry = 1 := by decide
  have p0 : AAee.react.spins 0 = {0, 1} := rfl
  have p1 : AAee.react.spins 1 = {0, 1} := rfl
  have p2 : AAee.react.spins 2 = {0, 1} := rfl
  have p3 : AAee.react.spins 3 = {0, 1} := rfl
  have E0 : AAee.react.codeE c p 0 = lightE (legA (p 0) 0 0, legS (p 0) 0 1) := rfl
  have E1 : AAee.react.codeE c p 1 = lightE (legA (p 1) 0 0, legS (p 1) 0 1) := rfl
  have hG : AAee.react.Gauge c p := (AAee.react.gauge_line he ht hB hh (by decide) (fun n => onShell_msq (hs n)) hb hr (fun n m h h2 => absurd (And.intro h h2) (by revert n m; decide)) (fun _ => ⟨rfl, rfl⟩) (fun _ => ⟨rfl, rfl⟩))
  have lc : AAee.react.lineColours 2 3 = 1 := by decide +kernel
  rw [AAee.value, AAee.react.squared_line he ht hB (by decide) hs h0 (fun _ b _ hb _ => (boson_pos hc hh hb).ne') hG (E := AAee.react.codeE c p) (fun n b hl => AAee.react.codeE_polarised hs h0 hu (fun b hb => (boson_pos hc hh hb).ne') n b hl) hu, sum_colours, lc, s0, s1, sy]
  simp only [sumV_sum, sumJ_sum, sumW_sum, am, p0, p1, p2, p3, E0, E1, Finset.sum_singleton, sum_two, Matrix.cons_val_zero, Matrix.cons_val_one, Matrix.cons_val, two_castSucc]
  try simp only [← Finset.mul_sum]
  push_cast
  first | ring1 | ring_nf

end Spinas.SM.Rows
