import Verif.SM.LightRows
import Verif.SM.GluonLine

/-! Fermions become two photons. Generated by tools/bosons/lemit.py: for each class its amplitude at given helicities as a formula in spinors, and the proof that `amp2` is the squared amplitude of the Feynman rules. -/

set_option linter.unusedSimpArgs false
set_option linter.unusedVariables false
set_option linter.unreachableTactic false
set_option linter.unusedTactic false

namespace Spinas.SM.Rows
open Spec Spec.Reaction Props XR Matrix BRow

/-! ### uuAA -/

/-- what the methods of the class see -/
noncomputable abbrev uuAA.N [FPEnv] (c : Constants) (p : Nat → V4 ℝ) : Env := uuAA.proc.env (uuAA.rho c) p
/-- `amp` for a photon of positive helicity and a photon of positive helicity (SM/uuAA.cpp) -/
noncomputable def uuAA.termPP (N : Env) (j1 j2 : Int) : ℂ :=
  ((((((((((((((2 : Nat) : ℝ) * N.r 0) * N.r 0) * N.r 1) * N.r 1) * N.r 2) : ℝ) : ℂ) * N.v 0 []) * N.v 0 []) * N.v 3 [j1, j2]) / N.c 0) / N.c 1)
/-- the same with spinors in place of their spins -/
noncomputable def uuAA.formPP (N : Env) (p : Nat → V4 ℝ) (z0 z1 z2 z3 : Pair) : ℂ :=
  ((((((((((((((2 : Nat) : ℝ) * N.r 0) * N.r 0) * N.r 1) * N.r 1) * N.r 2) : ℝ) : ℂ) * (sb z2.2 z3.2)) * (sb z2.2 z3.2)) * (ab z0.1 z1.1)) / N.c 0) / N.c 1)
/-- `amp` for a photon of positive helicity and a photon of negative helicity (SM/uuAA.cpp) -/
noncomputable def uuAA.termPM (N : Env) (j1 j2 : Int) : ℂ :=
  ((((((((((((2 : Nat) : ℝ) * N.r 0) * N.r 0) * N.r 1) * N.r 1) : ℝ) : ℂ) * ((N.v 4 [j1] * N.v 7 [j2]) + (N.v 8 [j2] * N.v 11 [j1]))) * N.v 12 []) / N.c 0) / N.c 1)
/-- the same with spinors in place of their spins -/
noncomputable def uuAA.formPM (N : Env) (p : Nat → V4 ℝ) (z0 z1 z2 z3 : Pair) : ℂ :=
  ((((((((((((2 : Nat) : ℝ) * N.r 0) * N.r 0) * N.r 1) * N.r 1) : ℝ) : ℂ) * (((sb z0.2 z2.2) * (ab z1.1 z3.1)) + ((sb z1.2 z2.2) * (ab z0.1 z3.1)))) * (mb z2.2 (p 0) z3.1)) / N.c 0) / N.c 1)
/-- `amp` for a photon of negative helicity and a photon of positive helicity (SM/uuAA.cpp) -/
noncomputable def uuAA.termMP (N : Env) (j1 j2 : Int) : ℂ :=
  ((((((((((((2 : Nat) : ℝ) * N.r 0) * N.r 0) * N.r 1) * N.r 1) : ℝ) : ℂ) * ((N.v 5 [j1] * N.v 6 [j2]) + (N.v 9 [j2] * N.v 10 [j1]))) * N.v 13 []) / N.c 0) / N.c 1)
/-- the same with spinors in place of their spins -/
noncomputable def uuAA.formMP (N : Env) (p : Nat → V4 ℝ) (z0 z1 z2 z3 : Pair) : ℂ :=
  ((((((((((((2 : Nat) : ℝ) * N.r 0) * N.r 0) * N.r 1) * N.r 1) : ℝ) : ℂ) * (((ab z0.1 z2.1) * (sb z1.2 z3.2)) + ((ab z1.1 z2.1) * (sb z0.2 z3.2)))) * (mb z3.2 (p 0) z2.1)) / N.c 0) / N.c 1)
/-- `amp` for a photon of negative helicity and a photon of negative helicity (SM/uuAA.cpp) -/
noncomputable def uuAA.termMM (N : Env) (j1 j2 : Int) : ℂ :=
  ((((((((((((((2 : Nat) : ℝ) * N.r 0) * N.r 0) * N.r 1) * N.r 1) * N.r 2) : ℝ) : ℂ) * N.v 1 []) * N.v 1 []) * N.v 2 [j1, j2]) / N.c 0) / N.c 1)
/-- the same with spinors in place of their spins -/
noncomputable def uuAA.formMM (N : Env) (p : Nat → V4 ℝ) (z0 z1 z2 z3 : Pair) : ℂ :=
  ((((((((((((((2 : Nat) : ℝ) * N.r 0) * N.r 0) * N.r 1) * N.r 1) * N.r 2) : ℝ) : ℂ) * (ab z2.1 z3.1)) * (ab z2.1 z3.1)) * (sb z0.2 z1.2)) / N.c 0) / N.c 1)
theorem uuAA.keyPP {c : Constants} {p : Nat → V4 ℝ} {N : Env} (hc : c.Physical) (hb : Balanced p) (r0 : N.r 0 = c.e) (r1 : N.r 1 = (((2 : Nat) : ℝ) / ((3 : Nat) : ℝ))) (r2 : N.r 2 = (c.mass .u)) (d0 : ((msq (plus (p 0) (backward (p 2))) - c.mass .u ^ 2 : ℝ) : ℂ) = N.c 0) (n0 : N.c 0 ≠ 0) (d1 : ((msq (plus (p 0) (backward (p 3))) - c.mass .u ^ 2 : ℝ) : ℂ) = N.c 1) (n1 : N.c 1 ≠ 0) {z0 z1 z2 z3 : Pair} (b0 : Bold (p 0) (c.mass .u) z0) (b1 : Bold (p 1) (c.mass .u) z1) (l2 : Light (p 2) z2) (l3 : Light (p 3) z3) (e20 : mb z2.2 (p 0) z2.1 = -N.c 0) (e21 : mb z2.2 (p 1) z2.1 = -N.c 1) (e30 : mb z3.2 (p 0) z3.1 = -N.c 1) (e31 : mb z3.2 (p 1) z3.1 = -N.c 0) (q0 : msq (p 0) = (c.mass .u) ^ 2) (q1 : msq (p 1) = (c.mass .u) ^ 2) (ρ2 ρ3 : V2) :
    uuAA.formPP N p z0 z1 z2 z3 * ab ρ2 z2.1 * ab ρ3 z3.1 = ((√2 : ℝ) * ((√2 : ℝ) * (-1 : ℂ))) * uuAA.react.bare c p 1 0 2 3 z1 z0 (pv ρ2 z2.2) (pv ρ3 z3.2) := by
  rw [uuAA.react.bare_parts c p (i := 1) (j := 0) (a := 2) (b := 3) (x := .photon) (y := .photon) (k := (backward (p 2))) (k' := (backward (p 3))) (fun _ => rfl) (fun _ => rfl) (f := .u) (g := .u) rfl rfl (l := (p 0)) rfl (e := -1) (e' := 1) (if_pos rfl) (if_neg Bool.false_ne_true)]
  rw [compton_vv (f := .u) (x := .u) (g := .u) (h := (rfl : Spec.after .photon Flavour.u = some Flavour.u)) (h' := (rfl : Spec.after .photon Flavour.u = some Flavour.u)) (ha := by simp) (hb := by simp)]
  rw [compton_vv (f := .u) (x := .u) (g := .u) (h := (rfl : Spec.after .photon Flavour.u = some Flavour.u)) (h' := (rfl : Spec.after .photon Flavour.u = some Flavour.u)) (ha := by simp) (hb := by simp)]
  rw [annihilation_none c _ _ (by rfl) (by simp), star_zero, add_zero, uuAA.formPP]
  simp only [d0, d1, lineV_pv, lineV_four, contract_four_pv, contract_pv, mb_plus, mb_backward]
  have i0 := ab_schouten z1.1 z2.1 ρ2 z0.1
  have i1 := ab_schouten z3.1 ρ2 ρ3 z2.1
  have i2 := mb_schouten_right z1.2 (p 0) z0.1 z2.1 ρ2
  have i3 := ab_schouten z2.1 ρ2 ρ3 z1.1
  have i4 := ab_schouten z2.1 ρ2 ρ3 z0.1
  have i5 := mb_schouten_right z2.2 (p 0) z0.1 z1.1 z2.1
  have i6 := ab_schouten z1.1 ρ2 ρ3 z0.1
  have i7 := mb_schouten_right z0.2 (p 1) z1.1 z2.1 ρ2
  have i8 := mb_schouten_right z3.2 (p 0) z1.1 z2.1 ρ2
  have i9 := mb_schouten_right z2.2 (p 0) z0.1 z2.1 ρ3
  have i10 := mb_schouten_left z0.2 z2.2 z3.2 (p 0) z2.1
  have i11 := mb_schouten_right z0.2 (p 1) z1.1 z2.1 ρ3
  have i12 := ab_schouten z2.1 z3.1 ρ3 z1.1
  have i13 := mb_schouten_right z0.2 (p 1) z1.1 ρ2 ρ3
  have i14 := ab_schouten z3.1 ρ2 ρ3 z1.1
  have i15 := mb_schouten_right z1.2 (p 0) z0.1 z2.1 ρ3
  have i16 := ab_schouten z2.1 z3.1 ρ3 z0.1
  have i17 := mb_schouten_left z0.2 z2.2 z3.2 (p 0) z3.1
  have i18 := ab_schouten z2.1 z3.1 ρ2 z0.1
  have i19 := ab_schouten z1.1 z2.1 z3.1 z0.1
  have i20 := mb_schouten_right z2.2 (p 0) z1.1 z3.1 ρ2
  have i21 := mb_schouten_right z3.2 (p 0) z0.1 z2.1 ρ2
  have i22 := sb_schouten z1.2 z2.2 z3.2 z0.2
  have i23 := mb_schouten_right z2.2 (p 0) z0.1 z1.1 ρ3
  have i24 := mb_schouten_right z2.2 (p 0) z0.1 z1.1 ρ2
  have i25 := ab_schouten z1.1 z2.1 ρ3 z0.1
  have i26 := mb_schouten_left z0.2 z2.2 z3.2 (p 0) ρ2
  have i27 := mb_schouten_right z2.2 (p 0) z0.1 z2.1 ρ2
  have i28 := mb_schouten_right z2.2 (p 0) z1.1 z2.1 ρ3
  have i29 := mb_schouten_right z3.2 (p 0) z1.1 z3.1 ρ2
  have i30 := ab_schouten z2.1 z3.1 ρ2 z1.1
  have i31 := mb_schouten_right z2.2 (p 0) z0.1 ρ2 ρ3
  have i32 := mb_schouten_right z2.2 (p 1) z0.1 z2.1 ρ2
  have i33 := mb_schouten_right z2.2 (p 1) z1.1 z2.1 ρ3
  have i34 := mb_schouten_right z0.2 (p 1) z1.1 z2.1 z3.1
  have i35 := mb_schouten_left z1.2 z2.2 z3.2 (p 0) z2.1
  have i36 := mb_schouten_right z2.2 (p 1) z0.1 z2.1 ρ3
  have i37 := mb_schouten_right z2.2 (p 0) z1.1 z2.1 ρ2
  have i38 := mb_schouten_right z2.2 (p 0) z0.1 z2.1 z3.1
  have i39 := ab_schouten z3.1 ρ2 ρ3 z0.1
  have i40 := mb_schouten_right z1.2 (p 0) z0.1 z2.1 z3.1
  have i41 := mb_schouten_right z1.2 (p 0) z0.1 ρ2 ρ3
  have i42 := mb_schouten_right z2.2 (p 1) z0.1 z2.1 z3.1
  have i43 := mb_schouten_right z2.2 (p 1) z1.1 z2.1 z3.1
  have i44 := mb_schouten_right z2.2 (p 0) z1.1 z2.1 z3.1
  simp only [l2.mb_eq, l3.mb_eq, b0.mb_left, b0.mb_right, b1.mb_left, b1.mb_right, e20, e21, e30, e31, mb_one hb z0.2 z0.1, mb_one hb z0.2 z2.1, mb_one hb z0.2 z3.1, mb_one hb z0.2 ρ2, mb_one hb z0.2 ρ3, mb_nought hb z1.2 z1.1, mb_nought hb z1.2 z2.1, mb_nought hb z1.2 z3.1, mb_nought hb z1.2 ρ2, mb_nought hb z1.2 ρ3, mb_one hb z2.2 z0.1, mb_nought hb z2.2 z1.1, mb_one hb z2.2 z3.1, mb_one hb z2.2 ρ2, mb_one hb z2.2 ρ3, mb_one hb z3.2 z0.1, mb_nought hb z3.2 z1.1, mb_one hb z3.2 z2.1, mb_one hb z3.2 ρ2, mb_one hb z3.2 ρ3, ab_self, sb_self] at i0 i1 i2 i3 i4 i5 i6 i7 i8 i9 i10 i11 i12 i13 i14 i15 i16 i17 i18 i19 i20 i21 i22 i23 i24 i25 i26 i27 i28 i29 i30 i31 i32 i33 i34 i35 i36 i37 i38 i39 i40 i41 i42 i43 i44 ⊢
  simp only [ab_swap z0.1 z1.1, ab_swap z0.1 z2.1, ab_swap z0.1 z3.1, ab_swap z0.1 ρ2, ab_swap z0.1 ρ3, ab_swap z1.1 z2.1, ab_swap z1.1 z3.1, ab_swap z1.1 ρ2, ab_swap z1.1 ρ3, ab_swap z2.1 z3.1, ab_swap z2.1 ρ2, ab_swap z2.1 ρ3, ab_swap z3.1 ρ2, ab_swap z3.1 ρ3, ab_swap ρ2 ρ3, sb_swap z0.2 z1.2, sb_swap z0.2 z2.2, sb_swap z0.2 z3.2, sb_swap z1.2 z2.2, sb_swap z1.2 z3.2, sb_swap z2.2 z3.2] at i0 i1 i2 i3 i4 i5 i6 i7 i8 i9 i10 i11 i12 i13 i14 i15 i16 i17 i18 i19 i20 i21 i22 i23 i24 i25 i26 i27 i28 i29 i30 i31 i32 i33 i34 i35 i36 i37 i38 i39 i40 i41 i42 i43 i44 ⊢
  simp only [r0, r1, r2, Constants.hL, Constants.hR, Constants.gL, Constants.gR, Constants.yuk, Constants.invVev, Flavour.charge_u, Flavour.isospin_u, ← c.mz]
  have xMW : (c.MW : ℂ) ≠ 0 := by exact_mod_cast hc.MW
  have xSW : (c.SW : ℂ) ≠ 0 := by exact_mod_cast hc.SW
  have xCW : (c.CW : ℂ) ≠ 0 := by exact_mod_cast hc.CW
  have x2 : ((√2 : ℝ) : ℂ) ≠ 0 := by exact_mod_cast (Real.sqrt_pos.2 two_pos).ne'
  have x22 : ((√2 : ℝ) : ℂ) ^ 2 = 2 := by rw [← Complex.ofReal_pow, Real.sq_sqrt two_pos.le]; norm_num
  have x23 : ((√2 : ℝ) : ℂ) ^ 3 = 2 * ((√2 : ℝ) : ℂ) := by rw [← x22]; ring
  have x24 : ((√2 : ℝ) : ℂ) ^ 4 = 4 := by linear_combination (((√2 : ℝ) : ℂ) ^ 2 + 2) * x22
  push_cast at i0 i1 i2 i3 i4 i5 i6 i7 i8 i9 i10 i11 i12 i13 i14 i15 i16 i17 i18 i19 i20 i21 i22 i23 i24 i25 i26 i27 i28 i29 i30 i31 i32 i33 i34 i35 i36 i37 i38 i39 i40 i41 i42 i43 i44 ⊢
  have y0 := mul_inv_cancel₀ n0
  have y1 := mul_inv_cancel₀ n1
  linear_combination ((((8) * ((c.e : ℂ)) ^ 2 * ((c.mass .u : ℂ)) * (ab z3.1 ρ3) * (sb z2.2 z3.2) ^ 2 + (-16) * ((c.e : ℂ)) ^ 2 * ((c.mass .u : ℂ)) * (mb z2.2 (p 0) ρ3) * (sb z2.2 z3.2)) * i0 + ((-8) * ((c.e : ℂ)) ^ 2 * ((c.mass .u : ℂ)) * (sb z0.2 z2.2) * (sb z1.2 z3.2) * (sb z2.2 z3.2) + (8) * ((c.e : ℂ)) ^ 2 * ((c.mass .u : ℂ)) * (sb z0.2 z3.2) * (sb z1.2 z2.2) * (sb z2.2 z3.2)) * i1 + ((8) * ((c.e : ℂ)) ^ 2 * (mb z2.2 (p 0) ρ3) * (sb z2.2 z3.2)) * i2 + ((-16) * ((c.e : ℂ)) ^ 2 * ((c.mass .u : ℂ)) ^ 2 * (sb z0.2 z2.2) * (sb z2.2 z3.2) + (16) * ((c.e : ℂ)) ^ 2 * (ab z2.1 z3.1) * (sb z0.2 z2.2) * (sb z2.2 z3.2) ^ 2) * i3 + ((-16) * ((c.e : ℂ)) ^ 2 * ((c.mass .u : ℂ)) * (ab z1.1 z3.1) * (sb z2.2 z3.2) ^ 2 + (-16) * ((c.e : ℂ)) ^ 2 * ((c.mass .u : ℂ)) ^ 2 * (sb z1.2 z2.2) * (sb z2.2 z3.2) + (8) * ((c.e : ℂ)) ^ 2 * (ab z2.1 z3.1) * (sb z1.2 z2.2) * (sb z2.2 z3.2) ^ 2) * i4 + ((16) * ((c.e : ℂ)) ^ 2 * ((c.mass .u : ℂ)) * (ab ρ2 ρ3) * (sb z2.2 z3.2)) * i5 + ((16) * ((c.e : ℂ)) ^ 2 * ((c.mass .u : ℂ)) * (N.c 0) * (sb z2.2 z3.2) + (8) * ((c.e : ℂ)) ^ 2 * ((c.mass .u : ℂ)) * (ab z2.1 z3.1) * (sb z2.2 z3.2) ^ 2) * i6 + ((8) * ((c.e : ℂ)) ^ 2 * (ab z3.1 ρ3) * (sb z2.2 z3.2) ^ 2 + (-16) * ((c.e : ℂ)) ^ 2 * (mb z2.2 (p 0) ρ3) * (sb z2.2 z3.2)) * i7 + ((8) * ((c.e : ℂ)) ^ 2 * (ab z3.1 ρ3) * (sb z0.2 z2.2) * (sb z2.2 z3.2) + (8) * ((c.e : ℂ)) ^ 2 * (mb z2.2 (p 0) ρ3) * (sb z0.2 z2.2)) * i8 + ((-8) * ((c.e : ℂ)) ^ 2 * (ab z3.1 ρ2) * (sb z1.2 z3.2) * (sb z2.2 z3.2) + (8) * ((c.e : ℂ)) ^ 2 * (mb z2.2 (p 0) ρ2) * (sb z1.2 z3.2) + (-8) * ((c.e : ℂ)) ^ 2 * (mb z3.2 (p 0) ρ2) * (sb z1.2 z2.2)) * i9 + ((8) * ((c.e : ℂ)) ^ 2 * (ab z1.1 ρ2) * (ab z3.1 ρ3) * (sb z2.2 z3.2) + (8) * ((c.e : ℂ)) ^ 2 * (ab z1.1 ρ2) * (mb z2.2 (p 0) ρ3)) * i10 + ((8) * ((c.e : ℂ)) ^ 2 * (mb z2.2 (p 0) ρ2) * (sb z2.2 z3.2)) * i11 + ((-16) * ((c.e : ℂ)) ^ 2 * (ab z2.1 ρ2) * (sb z0.2 z2.2) * (sb z2.2 z3.2) ^ 2 + (-8) * ((c.e : ℂ)) ^ 2 * (ab z3.1 ρ2) * (sb z0.2 z3.2) * (sb z2.2 z3.2) ^ 2 + (-8) * ((c.e : ℂ)) ^ 2 * (mb z2.2 (p 0) ρ2) * (sb z0.2 z3.2) * (sb z2.2 z3.2)) * i12 + ((8) * ((c.e : ℂ)) ^ 2 * (N.c 0) * (sb z2.2 z3.2) + (8) * ((c.e : ℂ)) ^ 2 * (N.c 1) * (sb z2.2 z3.2)) * i13 + ((8) * ((c.e : ℂ)) ^ 2 * (N.c 0) * (sb z0.2 z3.2) * (sb z2.2 z3.2) + (8) * ((c.e : ℂ)) ^ 2 * (N.c 1) * (sb z0.2 z3.2) * (sb z2.2 z3.2) + (8) * ((c.e : ℂ)) ^ 2 * (ab z2.1 z3.1) * (sb z0.2 z3.2) * (sb z2.2 z3.2) ^ 2) * i14 + ((-8) * ((c.e : ℂ)) ^ 2 * (mb z2.2 (p 0) ρ2) * (sb z2.2 z3.2)) * i15 + ((-8) * ((c.e : ℂ)) ^ 2 * ((c.mass .u : ℂ)) * (ab z1.1 ρ2) * (sb z2.2 z3.2) ^ 2 + (-8) * ((c.e : ℂ)) ^ 2 * (ab z2.1 ρ2) * (sb z1.2 z2.2) * (sb z2.2 z3.2) ^ 2 + (8) * ((c.e : ℂ)) ^ 2 * (mb z2.2 (p 0) ρ2) * (sb z1.2 z3.2) * (sb z2.2 z3.2)) * i16 + ((-8) * ((c.e : ℂ)) ^ 2 * (ab z1.1 ρ2) * (ab z2.1 ρ3) * (sb z2.2 z3.2)) * i17 + ((8) * ((c.e : ℂ)) ^ 2 * ((c.mass .u : ℂ)) * (ab z1.1 ρ3) * (sb z2.2 z3.2) ^ 2 + (8) * ((c.e : ℂ)) ^ 2 * (ab z2.1 ρ3) * (sb z1.2 z2.2) * (sb z2.2 z3.2) ^ 2) * i18 + ((-8) * ((c.e : ℂ)) ^ 2 * ((c.mass .u : ℂ)) * (ab ρ2 ρ3) * (sb z2.2 z3.2) ^ 2) * i19 + ((8) * ((c.e : ℂ)) ^ 2 * (ab z2.1 ρ3) * (sb z0.2 z3.2) * (sb z2.2 z3.2)) * i20 + ((8) * ((c.e : ℂ)) ^ 2 * (mb z2.2 (p 0) ρ3) * (sb z1.2 z2.2)) * i21 + ((8) * ((c.e : ℂ)) ^ 2 * ((c.mass .u : ℂ)) * (N.c 0) * (ab ρ2 ρ3) + (-8) * ((c.e : ℂ)) ^ 2 * ((c.mass .u : ℂ)) * (ab z2.1 z3.1) * (ab ρ2 ρ3) * (sb z2.2 z3.2) + (8) * ((c.e : ℂ)) ^ 2 * ((c.mass .u : ℂ)) * (ab z2.1 ρ2) * (ab z3.1 ρ3) * (sb z2.2 z3.2) + (-24) * ((c.e : ℂ)) ^ 2 * ((c.mass .u : ℂ)) * (ab z2.1 ρ2) * (mb z2.2 (p 0) ρ3) + (16) * ((c.e : ℂ)) ^ 2 * ((c.mass .u : ℂ)) * (ab z2.1 ρ3) * (mb z2.2 (p 0) ρ2)) * i22 + ((16) * ((c.e : ℂ)) ^ 2 * ((c.mass .u : ℂ)) * (ab z2.1 ρ2) * (sb z2.2 z3.2)) * i23 + ((-16) * ((c.e : ℂ)) ^ 2 * ((c.mass .u : ℂ)) * (ab z2.1 ρ3) * (sb z2.2 z3.2)) * i24 + ((16) * ((c.e : ℂ)) ^ 2 * ((c.mass .u : ℂ)) * (mb z2.2 (p 0) ρ2) * (sb z2.2 z3.2)) * i25 + ((16) * ((c.e : ℂ)) ^ 2 * (N.c 0) * (ab z1.1 ρ3)) * i26 + ((-8) * ((c.e : ℂ)) ^ 2 * ((c.mass .u : ℂ)) * (ab z1.1 ρ3) * (sb z2.2 z3.2) + (8) * ((c.e : ℂ)) ^ 2 * (ab z3.1 ρ3) * (sb z1.2 z3.2) * (sb z2.2 z3.2) + (-16) * ((c.e : ℂ)) ^ 2 * (mb z2.2 (p 0) ρ3) * (sb z1.2 z3.2)) * i27 + ((8) * ((c.e : ℂ)) ^ 2 * (ab z2.1 ρ2) * (sb z0.2 z2.2) * (sb z2.2 z3.2) + (16) * ((c.e : ℂ)) ^ 2 * (mb z2.2 (p 0) ρ2) * (sb z0.2 z3.2) + (-16) * ((c.e : ℂ)) ^ 2 * (mb z3.2 (p 0) ρ2) * (sb z0.2 z2.2)) * i28 + ((-16) * ((c.e : ℂ)) ^ 2 * (ab z2.1 ρ3) * (sb z0.2 z2.2) * (sb z2.2 z3.2)) * i29 + ((16) * ((c.e : ℂ)) ^ 2 * (ab z2.1 ρ3) * (sb z0.2 z2.2) * (sb z2.2 z3.2) ^ 2 + (16) * ((c.e : ℂ)) ^ 2 * (mb z2.2 (p 0) ρ3) * (sb z0.2 z3.2) * (sb z2.2 z3.2)) * i30 + ((8) * ((c.e : ℂ)) ^ 2 * (N.c 0) * (sb z1.2 z3.2) + (-8) * ((c.e : ℂ)) ^ 2 * (N.c 1) * (sb z1.2 z3.2)) * i31 + ((-8) * ((c.e : ℂ)) ^ 2 * ((c.mass .u : ℂ)) * (ab z1.1 ρ3) * (sb z2.2 z3.2) + (-8) * ((c.e : ℂ)) ^ 2 * (ab z2.1 ρ3) * (sb z1.2 z2.2) * (sb z2.2 z3.2)) * i32 + ((-8) * ((c.e : ℂ)) ^ 2 * (mb z3.2 (p 0) ρ2) * (sb z0.2 z2.2)) * i33 + ((-16) * ((c.e : ℂ)) ^ 2 * (ab ρ2 ρ3) * (sb z2.2 z3.2) ^ 2) * i34 + ((8) * ((c.e : ℂ)) ^ 2 * (ab z0.1 ρ2) * (mb z2.2 (p 0) ρ3)) * i35 + ((8) * ((c.e : ℂ)) ^ 2 * (ab z2.1 ρ2) * (sb z1.2 z2.2) * (sb z2.2 z3.2) + (-8) * ((c.e : ℂ)) ^ 2 * (mb z2.2 (p 0) ρ2) * (sb z1.2 z3.2)) * i36 + ((-8) * ((c.e : ℂ)) ^ 2 * (ab z2.1 ρ3) * (sb z0.2 z2.2) * (sb z2.2 z3.2) + (-16) * ((c.e : ℂ)) ^ 2 * (mb z2.2 (p 0) ρ3) * (sb z0.2 z3.2)) * i37 + ((-8) * ((c.e : ℂ)) ^ 2 * (ab ρ2 ρ3) * (sb z1.2 z3.2) * (sb z2.2 z3.2)) * i38 + ((8) * ((c.e : ℂ)) ^ 2 * (N.c 0) * (sb z1.2 z3.2) * (sb z2.2 z3.2) + (8) * ((c.e : ℂ)) ^ 2 * (N.c 1) * (sb z1.2 z3.2) * (sb z2.2 z3.2)) * i39 + ((-8) * ((c.e : ℂ)) ^ 2 * (ab ρ2 ρ3) * (sb z2.2 z3.2) ^ 2) * i40 + ((8) * ((c.e : ℂ)) ^ 2 * (N.c 1) * (sb z2.2 z3.2)) * i41 + ((-8) * ((c.e : ℂ)) ^ 2 * (ab ρ2 ρ3) * (sb z1.2 z3.2) * (sb z2.2 z3.2)) * i42 + ((-8) * ((c.e : ℂ)) ^ 2 * (ab ρ2 ρ3) * (sb z0.2 z3.2) * (sb z2.2 z3.2)) * i43 + ((-8) * ((c.e : ℂ)) ^ 2 * (ab ρ2 ρ3) * (sb z0.2 z3.2) * (sb z2.2 z3.2)) * i44)) * ((1) * ((N.c 0)⁻¹) * ((N.c 1)⁻¹) / (9)) + ((-8) * ((c.e : ℂ)) ^ 2 * ((c.mass .u : ℂ)) * ((N.c 1)⁻¹) * (ab z0.1 ρ3) * (ab z1.1 ρ2) * (sb z2.2 z3.2) / (9) + (-8) * ((c.e : ℂ)) ^ 2 * ((c.mass .u : ℂ)) * ((N.c 1)⁻¹) * (ab ρ2 ρ3) * (sb z0.2 z3.2) * (sb z1.2 z2.2) / (9) + (8) * ((c.e : ℂ)) ^ 2 * ((N.c 1)⁻¹) * (ab z0.1 ρ3) * (mb z3.2 (p 0) ρ2) * (sb z1.2 z2.2) / (9) + (-8) * ((c.e : ℂ)) ^ 2 * ((N.c 1)⁻¹) * (ab z1.1 ρ2) * (ab z3.1 ρ3) * (sb z0.2 z3.2) * (sb z2.2 z3.2) / (9) + (8) * ((c.e : ℂ)) ^ 2 * ((N.c 1)⁻¹) * (ab z1.1 ρ2) * (mb z2.2 (p 0) ρ3) * (sb z0.2 z3.2) / (9)) * y0 + ((8) * ((c.e : ℂ)) ^ 2 * ((c.mass .u : ℂ)) * ((N.c 0)⁻¹) * (ab z0.1 ρ2) * (ab z1.1 ρ3) * (sb z2.2 z3.2) / (9) + (8) * ((c.e : ℂ)) ^ 2 * ((c.mass .u : ℂ)) * ((N.c 0)⁻¹) * (ab ρ2 ρ3) * (sb z0.2 z2.2) * (sb z1.2 z3.2) / (9) + (8) * ((c.e : ℂ)) ^ 2 * ((N.c 0)⁻¹) * (ab z0.1 ρ2) * (mb z2.2 (p 0) ρ3) * (sb z1.2 z3.2) / (9) + (8) * ((c.e : ℂ)) ^ 2 * ((N.c 0)⁻¹) * (ab z1.1 ρ3) * (ab z2.1 ρ2) * (sb z0.2 z2.2) * (sb z2.2 z3.2) / (9) + (8) * ((c.e : ℂ)) ^ 2 * ((N.c 0)⁻¹) * (ab z1.1 ρ3) * (mb z3.2 (p 0) ρ2) * (sb z0.2 z2.2) / (9)) * y1 + ((-4) * ((c.e : ℂ)) ^ 2 * ((c.mass .u : ℂ)) * ((N.c 0)⁻¹) * (ab z0.1 ρ2) * (ab z1.1 ρ3) * (sb z2.2 z3.2) / (9) + (-4) * ((c.e : ℂ)) ^ 2 * ((c.mass .u : ℂ)) * ((N.c 0)⁻¹) * (ab ρ2 ρ3) * (sb z0.2 z2.2) * (sb z1.2 z3.2) / (9) + (4) * ((c.e : ℂ)) ^ 2 * ((c.mass .u : ℂ)) * ((N.c 1)⁻¹) * (ab z0.1 ρ3) * (ab z1.1 ρ2) * (sb z2.2 z3.2) / (9) + (4) * ((c.e : ℂ)) ^ 2 * ((c.mass .u : ℂ)) * ((N.c 1)⁻¹) * (ab ρ2 ρ3) * (sb z0.2 z3.2) * (sb z1.2 z2.2) / (9) + (-4) * ((c.e : ℂ)) ^ 2 * ((N.c 0)⁻¹) * (ab z0.1 ρ2) * (mb z2.2 (p 0) ρ3) * (sb z1.2 z3.2) / (9) + (-4) * ((c.e : ℂ)) ^ 2 * ((N.c 0)⁻¹) * (ab z1.1 ρ3) * (ab z2.1 ρ2) * (sb z0.2 z2.2) * (sb z2.2 z3.2) / (9) + (-4) * ((c.e : ℂ)) ^ 2 * ((N.c 0)⁻¹) * (ab z1.1 ρ3) * (mb z3.2 (p 0) ρ2) * (sb z0.2 z2.2) / (9) + (-4) * ((c.e : ℂ)) ^ 2 * ((N.c 1)⁻¹) * (ab z0.1 ρ3) * (mb z3.2 (p 0) ρ2) * (sb z1.2 z2.2) / (9) + (4) * ((c.e : ℂ)) ^ 2 * ((N.c 1)⁻¹) * (ab z1.1 ρ2) * (ab z3.1 ρ3) * (sb z0.2 z3.2) * (sb z2.2 z3.2) / (9) + (-4) * ((c.e : ℂ)) ^ 2 * ((N.c 1)⁻¹) * (ab z1.1 ρ2) * (mb z2.2 (p 0) ρ3) * (sb z0.2 z3.2) / (9)) * x22
theorem uuAA.keyPM {c : Constants} {p : Nat → V4 ℝ} {N : Env} (hc : c.Physical) (hb : Balanced p) (r0 : N.r 0 = c.e) (r1 : N.r 1 = (((2 : Nat) : ℝ) / ((3 : Nat) : ℝ))) (d0 : ((msq (plus (p 0) (backward (p 2))) - c.mass .u ^ 2 : ℝ) : ℂ) = N.c 0) (n0 : N.c 0 ≠ 0) (d1 : ((msq (plus (p 0) (backward (p 3))) - c.mass .u ^ 2 : ℝ) : ℂ) = N.c 1) (n1 : N.c 1 ≠ 0) {z0 z1 z2 z3 : Pair} (b0 : Bold (p 0) (c.mass .u) z0) (b1 : Bold (p 1) (c.mass .u) z1) (l2 : Light (p 2) z2) (l3 : Light (p 3) z3) (e20 : mb z2.2 (p 0) z2.1 = -N.c 0) (e21 : mb z2.2 (p 1) z2.1 = -N.c 1) (e30 : mb z3.2 (p 0) z3.1 = -N.c 1) (e31 : mb z3.2 (p 1) z3.1 = -N.c 0) (q0 : msq (p 0) = (c.mass .u) ^ 2) (q1 : msq (p 1) = (c.mass .u) ^ 2) (ρ2 ρ3 : V2) :
    uuAA.formPM N p z0 z1 z2 z3 * ab ρ2 z2.1 * sb ρ3 z3.2 = ((√2 : ℝ) * ((√2 : ℝ) * (1 : ℂ))) * uuAA.react.bare c p 1 0 2 3 z1 z0 (pv ρ2 z2.2) (pv z3.1 ρ3) := by
  rw [uuAA.react.bare_parts c p (i := 1) (j := 0) (a := 2) (b := 3) (x := .photon) (y := .photon) (k := (backward (p 2))) (k' := (backward (p 3))) (fun _ => rfl) (fun _ => rfl) (f := .u) (g := .u) rfl rfl (l := (p 0)) rfl (e := -1) (e' := 1) (if_pos rfl) (if_neg Bool.false_ne_true)]
  rw [compton_vv (f := .u) (x := .u) (g := .u) (h := (rfl : Spec.after .photon Flavour.u = some Flavour.u)) (h' := (rfl : Spec.after .photon Flavour.u = some Flavour.u)) (ha := by simp) (hb := by simp)]
  rw [compton_vv (f := .u) (x := .u) (g := .u) (h := (rfl : Spec.after .photon Flavour.u = some Flavour.u)) (h' := (rfl : Spec.after .photon Flavour.u = some Flavour.u)) (ha := by simp) (hb := by simp)]
  rw [annihilation_none c _ _ (by rfl) (by simp), star_zero, add_zero, uuAA.formPM]
  simp only [d0, d1, lineV_pv, lineV_four, contract_four_pv, contract_pv, mb_plus, mb_backward]
  have i0 := mb_schouten_right z2.2 (p 1) z1.1 z2.1 z3.1
  have i1 := sb_schouten z1.2 z2.2 ρ3 z0.2
  have i2 := mb_schouten_right z2.2 (p 0) z1.1 z3.1 ρ2
  have i3 := mb_schouten_right z1.2 (p 0) z0.1 z3.1 ρ2
  have i4 := mb_schouten_right z2.2 (p 1) z0.1 z2.1 ρ2
  have i5 := mb_schouten_right z1.2 (p 0) z0.1 z2.1 z3.1
  have i6 := mb_schouten_right z2.2 (p 1) z0.1 z2.1 z3.1
  have i7 := mb_schouten_right z2.2 (p 0) z0.1 z2.1 ρ2
  have i8 := mb_schouten_right z2.2 (p 0) z0.1 z2.1 z3.1
  have i9 := mb_schouten_left z0.2 z1.2 z2.2 (p 0) z3.1
  have i10 := mb_schouten_left z0.2 z2.2 ρ3 (p 0) z3.1
  have i11 := mb_schouten_right z2.2 (p 0) z0.1 z1.1 z2.1
  have i12 := ab_schouten z1.1 z3.1 ρ2 z0.1
  have i13 := mb_schouten_right z2.2 (p 0) z1.1 z2.1 z3.1
  have i14 := mb_schouten_right z0.2 (p 1) z1.1 z2.1 z3.1
  have i15 := mb_schouten_right z2.2 (p 0) z0.1 z3.1 ρ2
  have i16 := sb_schouten z2.2 z3.2 ρ3 z1.2
  have i17 := ab_schouten z2.1 z3.1 ρ2 z0.1
  have i18 := mb_schouten_right z2.2 (p 1) z1.1 z2.1 ρ2
  have i19 := mb_schouten_left z1.2 z2.2 ρ3 (p 0) z2.1
  have i20 := mb_schouten_left z0.2 z2.2 ρ3 (p 0) z2.1
  have i21 := mb_schouten_right ρ3 (p 0) z0.1 z3.1 ρ2
  have i22 := sb_schouten z1.2 z2.2 z3.2 z0.2
  have i23 := sb_schouten z2.2 z3.2 ρ3 z0.2
  have i24 := mb_schouten_right ρ3 (p 0) z0.1 z2.1 z3.1
  have i25 := mb_schouten_right ρ3 (p 0) z1.1 z2.1 z3.1
  have i26 := mb_schouten_right z2.2 (p 1) z0.1 z1.1 z2.1
  have i27 := ab_schouten z1.1 z2.1 z3.1 z0.1
  have i28 := mb_schouten_right z2.2 (p 0) z0.1 z1.1 ρ2
  have i29 := mb_schouten_right ρ3 (p 0) z1.1 z2.1 ρ2
  have i30 := mb_schouten_right ρ3 (p 0) z0.1 z2.1 ρ2
  have i31 := ab_schouten z2.1 z3.1 ρ2 z1.1
  simp only [l2.mb_eq, l3.mb_eq, b0.mb_left, b0.mb_right, b1.mb_left, b1.mb_right, e20, e21, e30, e31, mb_one hb z0.2 z0.1, mb_one hb z0.2 z2.1, mb_one hb z0.2 z3.1, mb_one hb z0.2 ρ2, mb_nought hb z1.2 z1.1, mb_nought hb z1.2 z2.1, mb_nought hb z1.2 z3.1, mb_nought hb z1.2 ρ2, mb_one hb z2.2 z0.1, mb_nought hb z2.2 z1.1, mb_one hb z2.2 z3.1, mb_one hb z2.2 ρ2, mb_one hb z3.2 z0.1, mb_nought hb z3.2 z1.1, mb_one hb z3.2 z2.1, mb_one hb z3.2 ρ2, mb_one hb ρ3 z0.1, mb_nought hb ρ3 z1.1, mb_one hb ρ3 z2.1, mb_one hb ρ3 z3.1, mb_one hb ρ3 ρ2, ab_self, sb_self] at i0 i1 i2 i3 i4 i5 i6 i7 i8 i9 i10 i11 i12 i13 i14 i15 i16 i17 i18 i19 i20 i21 i22 i23 i24 i25 i26 i27 i28 i29 i30 i31 ⊢
  simp only [ab_swap z0.1 z1.1, ab_swap z0.1 z2.1, ab_swap z0.1 z3.1, ab_swap z0.1 ρ2, ab_swap z1.1 z2.1, ab_swap z1.1 z3.1, ab_swap z1.1 ρ2, ab_swap z2.1 z3.1, ab_swap z2.1 ρ2, ab_swap z3.1 ρ2, sb_swap z0.2 z1.2, sb_swap z0.2 z2.2, sb_swap z0.2 z3.2, sb_swap z0.2 ρ3, sb_swap z1.2 z2.2, sb_swap z1.2 z3.2, sb_swap z1.2 ρ3, sb_swap z2.2 z3.2, sb_swap z2.2 ρ3, sb_swap z3.2 ρ3] at i0 i1 i2 i3 i4 i5 i6 i7 i8 i9 i10 i11 i12 i13 i14 i15 i16 i17 i18 i19 i20 i21 i22 i23 i24 i25 i26 i27 i28 i29 i30 i31 ⊢
  simp only [r0, r1, Constants.hL, Constants.hR, Constants.gL, Constants.gR, Constants.yuk, Constants.invVev, Flavour.charge_u, Flavour.isospin_u, ← c.mz]
  have xMW : (c.MW : ℂ) ≠ 0 := by exact_mod_cast hc.MW
  have xSW : (c.SW : ℂ) ≠ 0 := by exact_mod_cast hc.SW
  have xCW : (c.CW : ℂ) ≠ 0 := by exact_mod_cast hc.CW
  have x2 : ((√2 : ℝ) : ℂ) ≠ 0 := by exact_mod_cast (Real.sqrt_pos.2 two_pos).ne'
  have x22 : ((√2 : ℝ) : ℂ) ^ 2 = 2 := by rw [← Complex.ofReal_pow, Real.sq_sqrt two_pos.le]; norm_num
  have x23 : ((√2 : ℝ) : ℂ) ^ 3 = 2 * ((√2 : ℝ) : ℂ) := by rw [← x22]; ring
  have x24 : ((√2 : ℝ) : ℂ) ^ 4 = 4 := by linear_combination (((√2 : ℝ) : ℂ) ^ 2 + 2) * x22
  push_cast at i0 i1 i2 i3 i4 i5 i6 i7 i8 i9 i10 i11 i12 i13 i14 i15 i16 i17 i18 i19 i20 i21 i22 i23 i24 i25 i26 i27 i28 i29 i30 i31 ⊢
  have y0 := mul_inv_cancel₀ n0
  have y1 := mul_inv_cancel₀ n1
  linear_combination ((((8) * ((c.e : ℂ)) ^ 2 * (ab z2.1 ρ2) * (sb z0.2 z2.2) * (sb z2.2 ρ3) + (16) * ((c.e : ℂ)) ^ 2 * (ab z3.1 ρ2) * (sb z0.2 z2.2) * (sb z3.2 ρ3) + (-16) * ((c.e : ℂ)) ^ 2 * (ab z3.1 ρ2) * (sb z0.2 z3.2) * (sb z2.2 ρ3) + (16) * ((c.e : ℂ)) ^ 2 * (mb z2.2 (p 0) ρ2) * (sb z0.2 ρ3) + (8) * ((c.e : ℂ)) ^ 2 * (mb ρ3 (p 0) ρ2) * (sb z0.2 z2.2)) * i0 + ((-16) * ((c.e : ℂ)) ^ 2 * ((c.mass .u : ℂ)) * (N.c 0) * (ab z3.1 ρ2) + (-16) * ((c.e : ℂ)) ^ 2 * ((c.mass .u : ℂ)) * (N.c 1) * (ab z3.1 ρ2) + (-16) * ((c.e : ℂ)) ^ 2 * ((c.mass .u : ℂ)) * (ab z2.1 z3.1) * (ab z3.1 ρ2) * (sb z2.2 z3.2) + (16) * ((c.e : ℂ)) ^ 2 * ((c.mass .u : ℂ)) * (ab z2.1 z3.1) * (mb z2.2 (p 0) ρ2) + (-8) * ((c.e : ℂ)) ^ 2 * ((c.mass .u : ℂ)) * (ab z2.1 ρ2) * (mb z2.2 (p 0) z3.1)) * i1 + ((-8) * ((c.e : ℂ)) ^ 2 * (N.c 0) * (sb z0.2 ρ3) + (-16) * ((c.e : ℂ)) ^ 2 * (N.c 1) * (sb z0.2 ρ3) + (-8) * ((c.e : ℂ)) ^ 2 * (mb ρ3 (p 0) z2.1) * (sb z0.2 z2.2)) * i2 + ((16) * ((c.e : ℂ)) ^ 2 * (N.c 0) * (sb z2.2 ρ3) + (16) * ((c.e : ℂ)) ^ 2 * (N.c 1) * (sb z2.2 ρ3)) * i3 + ((16) * ((c.e : ℂ)) ^ 2 * (ab z2.1 z3.1) * (sb z1.2 z2.2) * (sb z2.2 ρ3) + (-16) * ((c.e : ℂ)) ^ 2 * (mb z2.2 (p 0) z3.1) * (sb z1.2 ρ3)) * i4 + ((-16) * ((c.e : ℂ)) ^ 2 * (ab z3.1 ρ2) * (sb z2.2 z3.2) * (sb z2.2 ρ3)) * i5 + ((-8) * ((c.e : ℂ)) ^ 2 * ((c.mass .u : ℂ)) * (ab z1.1 ρ2) * (sb z2.2 ρ3) + (-16) * ((c.e : ℂ)) ^ 2 * (ab z2.1 ρ2) * (sb z1.2 z2.2) * (sb z2.2 ρ3) + (-16) * ((c.e : ℂ)) ^ 2 * (ab z3.1 ρ2) * (sb z1.2 z3.2) * (sb z2.2 ρ3) + (24) * ((c.e : ℂ)) ^ 2 * (mb z2.2 (p 0) ρ2) * (sb z1.2 ρ3)) * i6 + ((16) * ((c.e : ℂ)) ^ 2 * (ab z2.1 z3.1) * (sb z1.2 z2.2) * (sb z2.2 ρ3) + (-16) * ((c.e : ℂ)) ^ 2 * (mb z2.2 (p 0) z3.1) * (sb z1.2 ρ3) + (16) * ((c.e : ℂ)) ^ 2 * (mb ρ3 (p 0) z3.1) * (sb z1.2 z2.2)) * i7 + ((-8) * ((c.e : ℂ)) ^ 2 * ((c.mass .u : ℂ)) * (ab z1.1 ρ2) * (sb z2.2 ρ3) + (-16) * ((c.e : ℂ)) ^ 2 * (ab z2.1 ρ2) * (sb z1.2 z2.2) * (sb z2.2 ρ3) + (8) * ((c.e : ℂ)) ^ 2 * (ab z3.1 ρ2) * (sb z1.2 z2.2) * (sb z3.2 ρ3) + (-16) * ((c.e : ℂ)) ^ 2 * (ab z3.1 ρ2) * (sb z1.2 z3.2) * (sb z2.2 ρ3) + (24) * ((c.e : ℂ)) ^ 2 * (mb z2.2 (p 0) ρ2) * (sb z1.2 ρ3) + (-8) * ((c.e : ℂ)) ^ 2 * (mb ρ3 (p 0) ρ2) * (sb z1.2 z2.2)) * i8 + ((8) * ((c.e : ℂ)) ^ 2 * ((c.mass .u : ℂ)) * (ab z2.1 ρ2) * (sb z2.2 ρ3)) * i9 + ((16) * ((c.e : ℂ)) ^ 2 * (N.c 1) * (ab z1.1 ρ2)) * i10 + ((-16) * ((c.e : ℂ)) ^ 2 * ((c.mass .u : ℂ)) * (ab z3.1 ρ2) * (sb z2.2 ρ3)) * i11 + ((-16) * ((c.e : ℂ)) ^ 2 * ((c.mass .u : ℂ)) * (N.c 0) * (sb z2.2 ρ3) + (-8) * ((c.e : ℂ)) ^ 2 * ((c.mass .u : ℂ)) * (N.c 1) * (sb z2.2 ρ3) + (8) * ((c.e : ℂ)) ^ 2 * ((c.mass .u : ℂ)) * (ab z2.1 z3.1) * (sb z2.2 z3.2) * (sb z2.2 ρ3)) * i12 + ((16) * ((c.e : ℂ)) ^ 2 * (ab z3.1 ρ2) * (sb z0.2 z2.2) * (sb z3.2 ρ3) + (-16) * ((c.e : ℂ)) ^ 2 * (ab z3.1 ρ2) * (sb z0.2 z3.2) * (sb z2.2 ρ3) + (16) * ((c.e : ℂ)) ^ 2 * (mb z2.2 (p 0) ρ2) * (sb z0.2 ρ3)) * i13 + ((-16) * ((c.e : ℂ)) ^ 2 * (ab z3.1 ρ2) * (sb z2.2 z3.2) * (sb z2.2 ρ3) + (16) * ((c.e : ℂ)) ^ 2 * (mb z2.2 (p 0) ρ2) * (sb z2.2 ρ3)) * i14 + ((-16) * ((c.e : ℂ)) ^ 2 * (N.c 0) * (sb z1.2 ρ3) + (-24) * ((c.e : ℂ)) ^ 2 * (N.c 1) * (sb z1.2 ρ3) + (-24) * ((c.e : ℂ)) ^ 2 * (ab z2.1 z3.1) * (sb z1.2 z2.2) * (sb z3.2 ρ3) + (16) * ((c.e : ℂ)) ^ 2 * (ab z2.1 z3.1) * (sb z1.2 z3.2) * (sb z2.2 ρ3) + (-8) * ((c.e : ℂ)) ^ 2 * (mb ρ3 (p 0) z2.1) * (sb z1.2 z2.2)) * i15 + ((16) * ((c.e : ℂ)) ^ 2 * (ab z0.1 z2.1) * (ab z3.1 ρ2) * (mb z2.2 (p 0) z3.1) + (24) * ((c.e : ℂ)) ^ 2 * (ab z0.1 z3.1) * (ab z2.1 z3.1) * (mb z2.2 (p 0) ρ2) + (-16) * ((c.e : ℂ)) ^ 2 * (ab z0.1 z3.1) * (ab z2.1 ρ2) * (mb z2.2 (p 0) z3.1)) * i16 + ((8) * ((c.e : ℂ)) ^ 2 * ((c.mass .u : ℂ)) ^ 2 * (sb z1.2 z2.2) * (sb z2.2 ρ3) + (-24) * ((c.e : ℂ)) ^ 2 * (mb z2.2 (p 0) z3.1) * (sb z1.2 z2.2) * (sb z3.2 ρ3) + (16) * ((c.e : ℂ)) ^ 2 * (mb z2.2 (p 0) z3.1) * (sb z1.2 z3.2) * (sb z2.2 ρ3)) * i17 + ((-16) * ((c.e : ℂ)) ^ 2 * (mb ρ3 (p 0) z3.1) * (sb z0.2 z2.2)) * i18 + ((-8) * ((c.e : ℂ)) ^ 2 * (ab z0.1 z3.1) * (mb z2.2 (p 0) ρ2)) * i19 + ((8) * ((c.e : ℂ)) ^ 2 * (ab z1.1 z3.1) * (ab z3.1 ρ2) * (sb z2.2 z3.2) + (-8) * ((c.e : ℂ)) ^ 2 * (ab z1.1 z3.1) * (mb z2.2 (p 0) ρ2)) * i20 + ((16) * ((c.e : ℂ)) ^ 2 * (N.c 0) * (sb z1.2 z2.2)) * i21 + ((16) * ((c.e : ℂ)) ^ 2 * ((c.mass .u : ℂ)) * (ab z2.1 z3.1) * (ab z3.1 ρ2) * (sb z2.2 ρ3)) * i22 + ((16) * ((c.e : ℂ)) ^ 2 * ((c.mass .u : ℂ)) * (ab z2.1 z3.1) * (ab z3.1 ρ2) * (sb z1.2 z2.2) + (-16) * ((c.e : ℂ)) ^ 2 * (N.c 0) * (ab z1.1 z3.1) * (ab z3.1 ρ2) + (-16) * ((c.e : ℂ)) ^ 2 * (N.c 1) * (ab z1.1 z3.1) * (ab z3.1 ρ2) + (16) * ((c.e : ℂ)) ^ 2 * (ab z1.1 z3.1) * (ab z2.1 z3.1) * (mb z2.2 (p 0) ρ2)) * i23 + ((-16) * ((c.e : ℂ)) ^ 2 * (mb z2.2 (p 0) ρ2) * (sb z1.2 z2.2)) * i24 + ((16) * ((c.e : ℂ)) ^ 2 * (ab z3.1 ρ2) * (sb z0.2 z2.2) * (sb z2.2 z3.2) + (-16) * ((c.e : ℂ)) ^ 2 * (mb z2.2 (p 0) ρ2) * (sb z0.2 z2.2)) * i25 + ((-8) * ((c.e : ℂ)) ^ 2 * ((c.mass .u : ℂ)) * (ab z3.1 ρ2) * (sb z2.2 ρ3)) * i26 + ((-8) * ((c.e : ℂ)) ^ 2 * ((c.mass .u : ℂ)) * (ab z3.1 ρ2) * (sb z2.2 z3.2) * (sb z2.2 ρ3) + (8) * ((c.e : ℂ)) ^ 2 * ((c.mass .u : ℂ)) * (mb z2.2 (p 0) ρ2) * (sb z2.2 ρ3)) * i27 + ((-8) * ((c.e : ℂ)) ^ 2 * ((c.mass .u : ℂ)) * (ab z2.1 z3.1) * (sb z2.2 ρ3)) * i28 + ((8) * ((c.e : ℂ)) ^ 2 * (mb z2.2 (p 0) z3.1) * (sb z0.2 z2.2)) * i29 + ((8) * ((c.e : ℂ)) ^ 2 * (mb z2.2 (p 0) z3.1) * (sb z1.2 z2.2)) * i30 + ((8) * ((c.e : ℂ)) ^ 2 * ((c.mass .u : ℂ)) ^ 2 * (sb z0.2 z2.2) * (sb z2.2 ρ3)) * i31)) * ((1) * ((N.c 0)⁻¹) * ((N.c 1)⁻¹) / (9)) + ((8) * ((c.e : ℂ)) ^ 2 * ((c.mass .u : ℂ)) * ((N.c 1)⁻¹) * (ab z0.1 z3.1) * (ab z1.1 ρ2) * (sb z2.2 ρ3) / (9) + (-8) * ((c.e : ℂ)) ^ 2 * ((c.mass .u : ℂ)) * ((N.c 1)⁻¹) * (ab z3.1 ρ2) * (sb z0.2 ρ3) * (sb z1.2 z2.2) / (9) + (-8) * ((c.e : ℂ)) ^ 2 * ((N.c 1)⁻¹) * (ab z0.1 z3.1) * (ab z3.1 ρ2) * (sb z1.2 z2.2) * (sb z3.2 ρ3) / (9) + (-8) * ((c.e : ℂ)) ^ 2 * ((N.c 1)⁻¹) * (ab z0.1 z3.1) * (mb ρ3 (p 0) ρ2) * (sb z1.2 z2.2) / (9) + (-8) * ((c.e : ℂ)) ^ 2 * ((N.c 1)⁻¹) * (ab z1.1 ρ2) * (mb z2.2 (p 0) z3.1) * (sb z0.2 ρ3) / (9)) * y0 + ((-8) * ((c.e : ℂ)) ^ 2 * ((c.mass .u : ℂ)) * ((N.c 0)⁻¹) * (ab z0.1 ρ2) * (ab z1.1 z3.1) * (sb z2.2 ρ3) / (9) + (8) * ((c.e : ℂ)) ^ 2 * ((c.mass .u : ℂ)) * ((N.c 0)⁻¹) * (ab z3.1 ρ2) * (sb z0.2 z2.2) * (sb z1.2 ρ3) / (9) + (-8) * ((c.e : ℂ)) ^ 2 * ((N.c 0)⁻¹) * (ab z0.1 ρ2) * (mb z2.2 (p 0) z3.1) * (sb z1.2 ρ3) / (9) + (-8) * ((c.e : ℂ)) ^ 2 * ((N.c 0)⁻¹) * (ab z1.1 z3.1) * (ab z2.1 ρ2) * (sb z0.2 z2.2) * (sb z2.2 ρ3) / (9) + (-8) * ((c.e : ℂ)) ^ 2 * ((N.c 0)⁻¹) * (ab z1.1 z3.1) * (mb ρ3 (p 0) ρ2) * (sb z0.2 z2.2) / (9)) * y1 + ((4) * ((c.e : ℂ)) ^ 2 * ((c.mass .u : ℂ)) * ((N.c 0)⁻¹) * (ab z0.1 ρ2) * (ab z1.1 z3.1) * (sb z2.2 ρ3) / (9) + (-4) * ((c.e : ℂ)) ^ 2 * ((c.mass .u : ℂ)) * ((N.c 0)⁻¹) * (ab z3.1 ρ2) * (sb z0.2 z2.2) * (sb z1.2 ρ3) / (9) + (-4) * ((c.e : ℂ)) ^ 2 * ((c.mass .u : ℂ)) * ((N.c 1)⁻¹) * (ab z0.1 z3.1) * (ab z1.1 ρ2) * (sb z2.2 ρ3) / (9) + (4) * ((c.e : ℂ)) ^ 2 * ((c.mass .u : ℂ)) * ((N.c 1)⁻¹) * (ab z3.1 ρ2) * (sb z0.2 ρ3) * (sb z1.2 z2.2) / (9) + (4) * ((c.e : ℂ)) ^ 2 * ((N.c 0)⁻¹) * (ab z0.1 ρ2) * (mb z2.2 (p 0) z3.1) * (sb z1.2 ρ3) / (9) + (4) * ((c.e : ℂ)) ^ 2 * ((N.c 0)⁻¹) * (ab z1.1 z3.1) * (ab z2.1 ρ2) * (sb z0.2 z2.2) * (sb z2.2 ρ3) / (9) + (4) * ((c.e : ℂ)) ^ 2 * ((N.c 0)⁻¹) * (ab z1.1 z3.1) * (mb ρ3 (p 0) ρ2) * (sb z0.2 z2.2) / (9) + (4) * ((c.e : ℂ)) ^ 2 * ((N.c 1)⁻¹) * (ab z0.1 z3.1) * (ab z3.1 ρ2) * (sb z1.2 z2.2) * (sb z3.2 ρ3) / (9) + (4) * ((c.e : ℂ)) ^ 2 * ((N.c 1)⁻¹) * (ab z0.1 z3.1) * (mb ρ3 (p 0) ρ2) * (sb z1.2 z2.2) / (9) + (4) * ((c.e : ℂ)) ^ 2 * ((N.c 1)⁻¹) * (ab z1.1 ρ2) * (mb z2.2 (p 0) z3.1) * (sb z0.2 ρ3) / (9)) * x22
theorem uuAA.keyMP {c : Constants} {p : Nat → V4 ℝ} {N : Env} (hc : c.Physical) (hb : Balanced p) (r0 : N.r 0 = c.e) (r1 : N.r 1 = (((2 : Nat) : ℝ) / ((3 : Nat) : ℝ))) (d0 : ((msq (plus (p 0) (backward (p 2))) - c.mass .u ^ 2 : ℝ) : ℂ) = N.c 0) (n0 : N.c 0 ≠ 0) (d1 : ((msq (plus (p 0) (backward (p 3))) - c.mass .u ^ 2 : ℝ) : ℂ) = N.c 1) (n1 : N.c 1 ≠ 0) {z0 z1 z2 z3 : Pair} (b0 : Bold (p 0) (c.mass .u) z0) (b1 : Bold (p 1) (c.mass .u) z1) (l2 : Light (p 2) z2) (l3 : Light (p 3) z3) (e20 : mb z2.2 (p 0) z2.1 = -N.c 0) (e21 : mb z2.2 (p 1) z2.1 = -N.c 1) (e30 : mb z3.2 (p 0) z3.1 = -N.c 1) (e31 : mb z3.2 (p 1) z3.1 = -N.c 0) (q0 : msq (p 0) = (c.mass .u) ^ 2) (q1 : msq (p 1) = (c.mass .u) ^ 2) (ρ2 ρ3 : V2) :
    uuAA.formMP N p z0 z1 z2 z3 * sb ρ2 z2.2 * ab ρ3 z3.1 = ((√2 : ℝ) * ((√2 : ℝ) * (1 : ℂ))) * uuAA.react.bare c p 1 0 2 3 z1 z0 (pv z2.1 ρ2) (pv ρ3 z3.2) := by
  rw [uuAA.react.bare_parts c p (i := 1) (j := 0) (a := 2) (b := 3) (x := .photon) (y := .photon) (k := (backward (p 2))) (k' := (backward (p 3))) (fun _ => rfl) (fun _ => rfl) (f := .u) (g := .u) rfl rfl (l := (p 0)) rfl (e := -1) (e' := 1) (if_pos rfl) (if_neg Bool.false_ne_true)]
  rw [compton_vv (f := .u) (x := .u) (g := .u) (h := (rfl : Spec.after .photon Flavour.u = some Flavour.u)) (h' := (rfl : Spec.after .photon Flavour.u = some Flavour.u)) (ha := by simp) (hb := by simp)]
  rw [compton_vv (f := .u) (x := .u) (g := .u) (h := (rfl : Spec.after .photon Flavour.u = some Flavour.u)) (h' := (rfl : Spec.after .photon Flavour.u = some Flavour.u)) (ha := by simp) (hb := by simp)]
  rw [annihilation_none c _ _ (by rfl) (by simp), star_zero, add_zero, uuAA.formMP]
  simp only [d0, d1, lineV_pv, lineV_four, contract_four_pv, contract_pv, mb_plus, mb_backward]
  have i0 := mb_schouten_right z0.2 (p 1) z1.1 z2.1 ρ3
  have i1 := ab_schouten z2.1 z3.1 ρ3 z1.1
  have i2 := mb_schouten_right z0.2 (p 1) z1.1 z2.1 z3.1
  have i3 := mb_schouten_right z2.2 (p 1) z1.1 z2.1 z3.1
  have i4 := mb_schouten_right z2.2 (p 0) z1.1 z2.1 z3.1
  have i5 := mb_schouten_right z3.2 (p 0) z1.1 z2.1 z3.1
  have i6 := sb_schouten z2.2 z3.2 ρ2 z0.2
  have i7 := mb_schouten_left z0.2 z1.2 z3.2 (p 0) z2.1
  have i8 := mb_schouten_right z2.2 (p 0) z0.1 z1.1 z2.1
  have i9 := ab_schouten z1.1 z2.1 ρ3 z0.1
  have i10 := mb_schouten_left z0.2 z2.2 ρ2 (p 0) z2.1
  have i11 := mb_schouten_left z0.2 z1.2 ρ2 (p 0) z2.1
  have i12 := mb_schouten_right z3.2 (p 1) z1.1 z2.1 z3.1
  have i13 := mb_schouten_left z1.2 z2.2 ρ2 (p 0) z2.1
  have i14 := mb_schouten_right z3.2 (p 0) z0.1 z2.1 ρ3
  have i15 := mb_schouten_left z1.2 z2.2 z3.2 (p 0) z2.1
  have i16 := mb_schouten_right ρ2 (p 0) z0.1 z2.1 ρ3
  have i17 := mb_schouten_left z0.2 z2.2 z3.2 (p 0) z2.1
  have i18 := mb_schouten_right ρ2 (p 0) z1.1 z2.1 ρ3
  have i19 := sb_schouten z1.2 z2.2 ρ2 z0.2
  have i20 := mb_schouten_right z2.2 (p 1) z0.1 z1.1 z2.1
  have i21 := mb_schouten_right z3.2 (p 0) z0.1 z1.1 z2.1
  have i22 := ab_schouten z1.1 z3.1 ρ3 z0.1
  have i23 := mb_schouten_left z0.2 z3.2 ρ2 (p 0) z2.1
  have i24 := mb_schouten_right z2.2 (p 1) z0.1 z2.1 ρ3
  have i25 := mb_schouten_right z2.2 (p 0) z0.1 z2.1 ρ3
  have i26 := mb_schouten_right z3.2 (p 0) z0.1 z2.1 z3.1
  have i27 := mb_schouten_right z3.2 (p 1) z0.1 z2.1 z3.1
  have i28 := sb_schouten z1.2 z2.2 z3.2 z0.2
  have i29 := sb_schouten z1.2 z3.2 ρ2 z0.2
  have i30 := sb_schouten z2.2 z3.2 ρ2 z1.2
  have i31 := mb_schouten_right z3.2 (p 0) z1.1 z2.1 ρ3
  have i32 := ab_schouten z2.1 z3.1 ρ3 z0.1
  have i33 := mb_schouten_right z1.2 (p 0) z0.1 z2.1 ρ3
  have i34 := mb_schouten_right z2.2 (p 1) z0.1 z2.1 z3.1
  have i35 := mb_schouten_right z2.2 (p 0) z0.1 z2.1 z3.1
  have i36 := mb_schouten_right z1.2 (p 0) z0.1 z2.1 z3.1
  have i37 := mb_schouten_right z2.2 (p 1) z1.1 z2.1 ρ3
  have i38 := mb_schouten_right z2.2 (p 0) z1.1 z2.1 ρ3
  have i39 := mb_schouten_right z0.2 (p 1) z1.1 z3.1 ρ3
  simp only [l2.mb_eq, l3.mb_eq, b0.mb_left, b0.mb_right, b1.mb_left, b1.mb_right, e20, e21, e30, e31, mb_one hb z0.2 z0.1, mb_one hb z0.2 z2.1, mb_one hb z0.2 z3.1, mb_one hb z0.2 ρ3, mb_nought hb z1.2 z1.1, mb_nought hb z1.2 z2.1, mb_nought hb z1.2 z3.1, mb_nought hb z1.2 ρ3, mb_one hb z2.2 z0.1, mb_nought hb z2.2 z1.1, mb_one hb z2.2 z3.1, mb_one hb z2.2 ρ3, mb_one hb z3.2 z0.1, mb_nought hb z3.2 z1.1, mb_one hb z3.2 z2.1, mb_one hb z3.2 ρ3, mb_one hb ρ2 z0.1, mb_nought hb ρ2 z1.1, mb_one hb ρ2 z2.1, mb_one hb ρ2 z3.1, mb_one hb ρ2 ρ3, ab_self, sb_self] at i0 i1 i2 i3 i4 i5 i6 i7 i8 i9 i10 i11 i12 i13 i14 i15 i16 i17 i18 i19 i20 i21 i22 i23 i24 i25 i26 i27 i28 i29 i30 i31 i32 i33 i34 i35 i36 i37 i38 i39 ⊢
  simp only [ab_swap z0.1 z1.1, ab_swap z0.1 z2.1, ab_swap z0.1 z3.1, ab_swap z0.1 ρ3, ab_swap z1.1 z2.1, ab_swap z1.1 z3.1, ab_swap z1.1 ρ3, ab_swap z2.1 z3.1, ab_swap z2.1 ρ3, ab_swap z3.1 ρ3, sb_swap z0.2 z1.2, sb_swap z0.2 z2.2, sb_swap z0.2 z3.2, sb_swap z0.2 ρ2, sb_swap z1.2 z2.2, sb_swap z1.2 z3.2, sb_swap z1.2 ρ2, sb_swap z2.2 z3.2, sb_swap z2.2 ρ2, sb_swap z3.2 ρ2] at i0 i1 i2 i3 i4 i5 i6 i7 i8 i9 i10 i11 i12 i13 i14 i15 i16 i17 i18 i19 i20 i21 i22 i23 i24 i25 i26 i27 i28 i29 i30 i31 i32 i33 i34 i35 i36 i37 i38 i39 ⊢
  simp only [r0, r1, Constants.hL, Constants.hR, Constants.gL, Constants.gR, Constants.yuk, Constants.invVev, Flavour.charge_u, Flavour.isospin_u, ← c.mz]
  have xMW : (c.MW : ℂ) ≠ 0 := by exact_mod_cast hc.MW
  have xSW : (c.SW : ℂ) ≠ 0 := by exact_mod_cast hc.SW
  have xCW : (c.CW : ℂ) ≠ 0 := by exact_mod_cast hc.CW
  have x2 : ((√2 : ℝ) : ℂ) ≠ 0 := by exact_mod_cast (Real.sqrt_pos.2 two_pos).ne'
  have x22 : ((√2 : ℝ) : ℂ) ^ 2 = 2 := by rw [← Complex.ofReal_pow, Real.sq_sqrt two_pos.le]; norm_num
  have x23 : ((√2 : ℝ) : ℂ) ^ 3 = 2 * ((√2 : ℝ) : ℂ) := by rw [← x22]; ring
  have x24 : ((√2 : ℝ) : ℂ) ^ 4 = 4 := by linear_combination (((√2 : ℝ) : ℂ) ^ 2 + 2) * x22
  push_cast at i0 i1 i2 i3 i4 i5 i6 i7 i8 i9 i10 i11 i12 i13 i14 i15 i16 i17 i18 i19 i20 i21 i22 i23 i24 i25 i26 i27 i28 i29 i30 i31 i32 i33 i34 i35 i36 i37 i38 i39 ⊢
  have y0 := mul_inv_cancel₀ n0
  have y1 := mul_inv_cancel₀ n1
  linear_combination ((((16) * ((c.e : ℂ)) ^ 2 * (N.c 1) * (sb z3.2 ρ2) + (-8) * ((c.e : ℂ)) ^ 2 * (mb z3.2 (p 0) z2.1) * (sb z2.2 ρ2)) * i0 + ((8) * ((c.e : ℂ)) ^ 2 * (N.c 0) * (sb z0.2 z3.2) * (sb z3.2 ρ2) + (-8) * ((c.e : ℂ)) ^ 2 * (N.c 1) * (sb z0.2 z3.2) * (sb z3.2 ρ2) + (8) * ((c.e : ℂ)) ^ 2 * (mb z3.2 (p 0) z2.1) * (sb z0.2 z2.2) * (sb z3.2 ρ2) + (8) * ((c.e : ℂ)) ^ 2 * (mb z3.2 (p 0) z2.1) * (sb z0.2 z3.2) * (sb z2.2 ρ2)) * i1 + ((-16) * ((c.e : ℂ)) ^ 2 * (ab z2.1 ρ3) * (sb z2.2 z3.2) * (sb z3.2 ρ2)) * i2 + ((-8) * ((c.e : ℂ)) ^ 2 * (ab z2.1 ρ3) * (sb z0.2 z3.2) * (sb z3.2 ρ2)) * i3 + ((-8) * ((c.e : ℂ)) ^ 2 * (ab z2.1 ρ3) * (sb z0.2 z3.2) * (sb z3.2 ρ2)) * i4 + ((16) * ((c.e : ℂ)) ^ 2 * (ab z2.1 ρ3) * (sb z0.2 z2.2) * (sb z3.2 ρ2) + (8) * ((c.e : ℂ)) ^ 2 * (ab z3.1 ρ3) * (sb z0.2 z3.2) * (sb z3.2 ρ2)) * i5 + ((8) * ((c.e : ℂ)) ^ 2 * ((c.mass .u : ℂ)) * (ab z2.1 z3.1) * (ab z2.1 ρ3) * (sb z1.2 z3.2) + (8) * ((c.e : ℂ)) ^ 2 * ((c.mass .u : ℂ)) ^ 2 * (ab z1.1 z2.1) * (ab z2.1 ρ3) + (-8) * ((c.e : ℂ)) ^ 2 * (ab z1.1 z2.1) * (ab z3.1 ρ3) * (mb z3.2 (p 0) z2.1) + (8) * ((c.e : ℂ)) ^ 2 * (ab z1.1 z3.1) * (ab z2.1 ρ3) * (mb z3.2 (p 0) z2.1)) * i6 + ((8) * ((c.e : ℂ)) ^ 2 * ((c.mass .u : ℂ)) * (ab z3.1 ρ3) * (sb z3.2 ρ2)) * i7 + ((8) * ((c.e : ℂ)) ^ 2 * ((c.mass .u : ℂ)) * (ab z2.1 ρ3) * (sb z3.2 ρ2)) * i8 + ((8) * ((c.e : ℂ)) ^ 2 * ((c.mass .u : ℂ)) * (N.c 0) * (sb z3.2 ρ2) + (16) * ((c.e : ℂ)) ^ 2 * ((c.mass .u : ℂ)) * (N.c 1) * (sb z3.2 ρ2) + (-8) * ((c.e : ℂ)) ^ 2 * ((c.mass .u : ℂ)) * (mb z3.2 (p 0) z2.1) * (sb z2.2 ρ2)) * i9 + ((8) * ((c.e : ℂ)) ^ 2 * (ab z1.1 z2.1) * (ab z2.1 ρ3) * (sb z2.2 z3.2) + (8) * ((c.e : ℂ)) ^ 2 * (ab z1.1 z2.1) * (mb z3.2 (p 0) ρ3)) * i10 + ((-8) * ((c.e : ℂ)) ^ 2 * ((c.mass .u : ℂ)) * (ab z2.1 ρ3) * (sb z2.2 z3.2)) * i11 + ((16) * ((c.e : ℂ)) ^ 2 * (ab z2.1 ρ3) * (sb z0.2 z3.2) * (sb z2.2 ρ2)) * i12 + ((8) * ((c.e : ℂ)) ^ 2 * (ab z0.1 z2.1) * (mb z3.2 (p 0) ρ3)) * i13 + ((8) * ((c.e : ℂ)) ^ 2 * (N.c 1) * (sb z1.2 ρ2) + (8) * ((c.e : ℂ)) ^ 2 * (ab z2.1 z3.1) * (sb z1.2 z2.2) * (sb z3.2 ρ2) + (-8) * ((c.e : ℂ)) ^ 2 * (mb ρ2 (p 0) z2.1) * (sb z1.2 z2.2)) * i14 + ((-8) * ((c.e : ℂ)) ^ 2 * (ab z0.1 z2.1) * (mb ρ2 (p 0) ρ3)) * i15 + ((8) * ((c.e : ℂ)) ^ 2 * (mb z3.2 (p 0) z2.1) * (sb z1.2 z2.2)) * i16 + ((-8) * ((c.e : ℂ)) ^ 2 * (ab z1.1 z2.1) * (mb ρ2 (p 0) ρ3)) * i17 + ((16) * ((c.e : ℂ)) ^ 2 * (N.c 0) * (sb z0.2 z3.2) + (8) * ((c.e : ℂ)) ^ 2 * (mb z3.2 (p 0) z2.1) * (sb z0.2 z2.2)) * i18 + ((-8) * ((c.e : ℂ)) ^ 2 * ((c.mass .u : ℂ)) * (ab z2.1 ρ3) * (mb z3.2 (p 0) z2.1)) * i19 + ((16) * ((c.e : ℂ)) ^ 2 * ((c.mass .u : ℂ)) * (ab z2.1 ρ3) * (sb z3.2 ρ2)) * i20 + ((8) * ((c.e : ℂ)) ^ 2 * ((c.mass .u : ℂ)) * (ab z2.1 ρ3) * (sb z2.2 ρ2) + (-8) * ((c.e : ℂ)) ^ 2 * ((c.mass .u : ℂ)) * (ab z3.1 ρ3) * (sb z3.2 ρ2)) * i21 + ((8) * ((c.e : ℂ)) ^ 2 * ((c.mass .u : ℂ)) * (mb z3.2 (p 0) z2.1) * (sb z3.2 ρ2)) * i22 + ((16) * ((c.e : ℂ)) ^ 2 * (N.c 0) * (ab z1.1 ρ3)) * i23 + ((-8) * ((c.e : ℂ)) ^ 2 * ((c.mass .u : ℂ)) * (ab z1.1 z2.1) * (sb z3.2 ρ2) + (8) * ((c.e : ℂ)) ^ 2 * (mb z3.2 (p 0) z2.1) * (sb z1.2 ρ2)) * i24 + ((-8) * ((c.e : ℂ)) ^ 2 * ((c.mass .u : ℂ)) * (ab z1.1 z2.1) * (sb z3.2 ρ2) + (8) * ((c.e : ℂ)) ^ 2 * (mb z3.2 (p 0) z2.1) * (sb z1.2 ρ2)) * i25 + ((8) * ((c.e : ℂ)) ^ 2 * (ab z2.1 ρ3) * (sb z1.2 z2.2) * (sb z3.2 ρ2) + (-8) * ((c.e : ℂ)) ^ 2 * (ab z2.1 ρ3) * (sb z1.2 z3.2) * (sb z2.2 ρ2) + (8) * ((c.e : ℂ)) ^ 2 * (mb z3.2 (p 0) ρ3) * (sb z1.2 ρ2) + (-8) * ((c.e : ℂ)) ^ 2 * (mb ρ2 (p 0) ρ3) * (sb z1.2 z3.2)) * i26 + ((8) * ((c.e : ℂ)) ^ 2 * (ab z2.1 ρ3) * (sb z1.2 z2.2) * (sb z3.2 ρ2) + (8) * ((c.e : ℂ)) ^ 2 * (mb z3.2 (p 0) ρ3) * (sb z1.2 ρ2) + (-8) * ((c.e : ℂ)) ^ 2 * (mb ρ2 (p 0) ρ3) * (sb z1.2 z3.2)) * i27 + ((-8) * ((c.e : ℂ)) ^ 2 * ((c.mass .u : ℂ)) * (ab z2.1 z3.1) * (ab z2.1 ρ3) * (sb z3.2 ρ2) + (8) * ((c.e : ℂ)) ^ 2 * ((c.mass .u : ℂ)) * (ab z2.1 ρ3) * (mb ρ2 (p 0) z2.1)) * i28 + ((-8) * ((c.e : ℂ)) ^ 2 * ((c.mass .u : ℂ)) * (N.c 0) * (ab z2.1 ρ3) + (8) * ((c.e : ℂ)) ^ 2 * ((c.mass .u : ℂ)) * (N.c 1) * (ab z2.1 ρ3)) * i29 + ((8) * ((c.e : ℂ)) ^ 2 * ((c.mass .u : ℂ)) ^ 2 * (ab z0.1 z2.1) * (ab z2.1 ρ3) + (-8) * ((c.e : ℂ)) ^ 2 * (ab z0.1 z2.1) * (ab z2.1 z3.1) * (mb z3.2 (p 0) ρ3) + (-8) * ((c.e : ℂ)) ^ 2 * (ab z0.1 z2.1) * (ab z3.1 ρ3) * (mb z3.2 (p 0) z2.1) + (8) * ((c.e : ℂ)) ^ 2 * (ab z0.1 z3.1) * (ab z2.1 ρ3) * (mb z3.2 (p 0) z2.1)) * i30 + ((-8) * ((c.e : ℂ)) ^ 2 * (N.c 0) * (sb z0.2 ρ2) + (-8) * ((c.e : ℂ)) ^ 2 * (mb ρ2 (p 0) z2.1) * (sb z0.2 z2.2)) * i31 + ((-8) * ((c.e : ℂ)) ^ 2 * (N.c 0) * (sb z1.2 z3.2) * (sb z3.2 ρ2) + (-8) * ((c.e : ℂ)) ^ 2 * (N.c 1) * (sb z1.2 z3.2) * (sb z3.2 ρ2) + (8) * ((c.e : ℂ)) ^ 2 * (mb z3.2 (p 0) z2.1) * (sb z1.2 z2.2) * (sb z3.2 ρ2)) * i32 + ((8) * ((c.e : ℂ)) ^ 2 * (N.c 0) * (sb z3.2 ρ2) + (8) * ((c.e : ℂ)) ^ 2 * (N.c 1) * (sb z3.2 ρ2)) * i33 + ((-8) * ((c.e : ℂ)) ^ 2 * (ab z2.1 ρ3) * (sb z1.2 z3.2) * (sb z3.2 ρ2)) * i34 + ((-8) * ((c.e : ℂ)) ^ 2 * (ab z2.1 ρ3) * (sb z1.2 z3.2) * (sb z3.2 ρ2)) * i35 + ((-8) * ((c.e : ℂ)) ^ 2 * (ab z2.1 ρ3) * (sb z2.2 z3.2) * (sb z3.2 ρ2)) * i36 + ((-8) * ((c.e : ℂ)) ^ 2 * (ab z2.1 z3.1) * (sb z0.2 z3.2) * (sb z3.2 ρ2) + (8) * ((c.e : ℂ)) ^ 2 * (mb z3.2 (p 0) z2.1) * (sb z0.2 ρ2)) * i37 + ((-8) * ((c.e : ℂ)) ^ 2 * (ab z2.1 z3.1) * (sb z0.2 z3.2) * (sb z3.2 ρ2) + (8) * ((c.e : ℂ)) ^ 2 * (mb z3.2 (p 0) z2.1) * (sb z0.2 ρ2)) * i38 + ((8) * ((c.e : ℂ)) ^ 2 * (mb z3.2 (p 0) z2.1) * (sb z3.2 ρ2)) * i39)) * ((1) * ((N.c 0)⁻¹) * ((N.c 1)⁻¹) / (9)) + ((-8) * ((c.e : ℂ)) ^ 2 * ((c.mass .u : ℂ)) * ((N.c 1)⁻¹) * (ab z0.1 ρ3) * (ab z1.1 z2.1) * (sb z3.2 ρ2) / (9) + (8) * ((c.e : ℂ)) ^ 2 * ((c.mass .u : ℂ)) * ((N.c 1)⁻¹) * (ab z2.1 ρ3) * (sb z0.2 z3.2) * (sb z1.2 ρ2) / (9) + (-8) * ((c.e : ℂ)) ^ 2 * ((N.c 1)⁻¹) * (ab z0.1 ρ3) * (mb z3.2 (p 0) z2.1) * (sb z1.2 ρ2) / (9) + (-8) * ((c.e : ℂ)) ^ 2 * ((N.c 1)⁻¹) * (ab z1.1 z2.1) * (ab z3.1 ρ3) * (sb z0.2 z3.2) * (sb z3.2 ρ2) / (9) + (-8) * ((c.e : ℂ)) ^ 2 * ((N.c 1)⁻¹) * (ab z1.1 z2.1) * (mb ρ2 (p 0) ρ3) * (sb z0.2 z3.2) / (9)) * y0 + ((8) * ((c.e : ℂ)) ^ 2 * ((c.mass .u : ℂ)) * ((N.c 0)⁻¹) * (ab z0.1 z2.1) * (ab z1.1 ρ3) * (sb z3.2 ρ2) / (9) + (-8) * ((c.e : ℂ)) ^ 2 * ((c.mass .u : ℂ)) * ((N.c 0)⁻¹) * (ab z2.1 ρ3) * (sb z0.2 ρ2) * (sb z1.2 z3.2) / (9) + (-8) * ((c.e : ℂ)) ^ 2 * ((N.c 0)⁻¹) * (ab z0.1 z2.1) * (ab z2.1 ρ3) * (sb z1.2 z3.2) * (sb z2.2 ρ2) / (9) + (-8) * ((c.e : ℂ)) ^ 2 * ((N.c 0)⁻¹) * (ab z0.1 z2.1) * (mb ρ2 (p 0) ρ3) * (sb z1.2 z3.2) / (9) + (-8) * ((c.e : ℂ)) ^ 2 * ((N.c 0)⁻¹) * (ab z1.1 ρ3) * (mb z3.2 (p 0) z2.1) * (sb z0.2 ρ2) / (9)) * y1 + ((-4) * ((c.e : ℂ)) ^ 2 * ((c.mass .u : ℂ)) * ((N.c 0)⁻¹) * (ab z0.1 z2.1) * (ab z1.1 ρ3) * (sb z3.2 ρ2) / (9) + (4) * ((c.e : ℂ)) ^ 2 * ((c.mass .u : ℂ)) * ((N.c 0)⁻¹) * (ab z2.1 ρ3) * (sb z0.2 ρ2) * (sb z1.2 z3.2) / (9) + (4) * ((c.e : ℂ)) ^ 2 * ((c.mass .u : ℂ)) * ((N.c 1)⁻¹) * (ab z0.1 ρ3) * (ab z1.1 z2.1) * (sb z3.2 ρ2) / (9) + (-4) * ((c.e : ℂ)) ^ 2 * ((c.mass .u : ℂ)) * ((N.c 1)⁻¹) * (ab z2.1 ρ3) * (sb z0.2 z3.2) * (sb z1.2 ρ2) / (9) + (4) * ((c.e : ℂ)) ^ 2 * ((N.c 0)⁻¹) * (ab z0.1 z2.1) * (ab z2.1 ρ3) * (sb z1.2 z3.2) * (sb z2.2 ρ2) / (9) + (4) * ((c.e : ℂ)) ^ 2 * ((N.c 0)⁻¹) * (ab z0.1 z2.1) * (mb ρ2 (p 0) ρ3) * (sb z1.2 z3.2) / (9) + (4) * ((c.e : ℂ)) ^ 2 * ((N.c 0)⁻¹) * (ab z1.1 ρ3) * (mb z3.2 (p 0) z2.1) * (sb z0.2 ρ2) / (9) + (4) * ((c.e : ℂ)) ^ 2 * ((N.c 1)⁻¹) * (ab z0.1 ρ3) * (mb z3.2 (p 0) z2.1) * (sb z1.2 ρ2) / (9) + (4) * ((c.e : ℂ)) ^ 2 * ((N.c 1)⁻¹) * (ab z1.1 z2.1) * (ab z3.1 ρ3) * (sb z0.2 z3.2) * (sb z3.2 ρ2) / (9) + (4) * ((c.e : ℂ)) ^ 2 * ((N.c 1)⁻¹) * (ab z1.1 z2.1) * (mb ρ2 (p 0) ρ3) * (sb z0.2 z3.2) / (9)) * x22
theorem uuAA.keyMM {c : Constants} {p : Nat → V4 ℝ} {N : Env} (hc : c.Physical) (hb : Balanced p) (r0 : N.r 0 = c.e) (r1 : N.r 1 = (((2 : Nat) : ℝ) / ((3 : Nat) : ℝ))) (r2 : N.r 2 = (c.mass .u)) (d0 : ((msq (plus (p 0) (backward (p 2))) - c.mass .u ^ 2 : ℝ) : ℂ) = N.c 0) (n0 : N.c 0 ≠ 0) (d1 : ((msq (plus (p 0) (backward (p 3))) - c.mass .u ^ 2 : ℝ) : ℂ) = N.c 1) (n1 : N.c 1 ≠ 0) {z0 z1 z2 z3 : Pair} (b0 : Bold (p 0) (c.mass .u) z0) (b1 : Bold (p 1) (c.mass .u) z1) (l2 : Light (p 2) z2) (l3 : Light (p 3) z3) (e20 : mb z2.2 (p 0) z2.1 = -N.c 0) (e21 : mb z2.2 (p 1) z2.1 = -N.c 1) (e30 : mb z3.2 (p 0) z3.1 = -N.c 1) (e31 : mb z3.2 (p 1) z3.1 = -N.c 0) (q0 : msq (p 0) = (c.mass .u) ^ 2) (q1 : msq (p 1) = (c.mass .u) ^ 2) (ρ2 ρ3 : V2) :
    uuAA.formMM N p z0 z1 z2 z3 * sb ρ2 z2.2 * sb ρ3 z3.2 = ((√2 : ℝ) * ((√2 : ℝ) * (-1 : ℂ))) * uuAA.react.bare c p 1 0 2 3 z1 z0 (pv z2.1 ρ2) (pv z3.1 ρ3) := by
  rw [uuAA.react.bare_parts c p (i := 1) (j := 0) (a := 2) (b := 3) (x := .photon) (y := .photon) (k := (backward (p 2))) (k' := (backward (p 3))) (fun _ => rfl) (fun _ => rfl) (f := .u) (g := .u) rfl rfl (l := (p 0)) rfl (e := -1) (e' := 1) (if_pos rfl) (if_neg Bool.false_ne_true)]
  rw [compton_vv (f := .u) (x := .u) (g := .u) (h := (rfl : Spec.after .photon Flavour.u = some Flavour.u)) (h' := (rfl : Spec.after .photon Flavour.u = some Flavour.u)) (ha := by simp) (hb := by simp)]
  rw [compton_vv (f := .u) (x := .u) (g := .u) (h := (rfl : Spec.after .photon Flavour.u = some Flavour.u)) (h' := (rfl : Spec.after .photon Flavour.u = some Flavour.u)) (ha := by simp) (hb := by simp)]
  rw [annihilation_none c _ _ (by rfl) (by simp), star_zero, add_zero, uuAA.formMM]
  simp only [d0, d1, lineV_pv, lineV_four, contract_four_pv, contract_pv, mb_plus, mb_backward]
  have i0 := mb_schouten_left z0.2 z1.2 z2.2 (p 0) z2.1
  have i1 := mb_schouten_right z3.2 (p 1) z0.1 z2.1 z3.1
  have i2 := mb_schouten_right z1.2 (p 0) z0.1 z2.1 z3.1
  have i3 := mb_schouten_right z2.2 (p 0) z0.1 z1.1 z2.1
  have i4 := ab_schouten z1.1 z2.1 z3.1 z0.1
  have i5 := mb_schouten_right z3.2 (p 0) z0.1 z2.1 z3.1
  have i6 := sb_schouten z3.2 ρ2 ρ3 z2.2
  have i7 := mb_schouten_right z2.2 (p 1) z0.1 z2.1 z3.1
  have i8 := sb_schouten z1.2 z2.2 z3.2 z0.2
  have i9 := sb_schouten z3.2 ρ2 ρ3 z0.2
  have i10 := mb_schouten_left z0.2 z2.2 ρ3 (p 0) z2.1
  have i11 := mb_schouten_left z0.2 z2.2 ρ2 (p 0) z2.1
  have i12 := mb_schouten_left z0.2 z1.2 ρ2 (p 0) z2.1
  have i13 := mb_schouten_right z2.2 (p 1) z0.1 z1.1 z2.1
  have i14 := sb_schouten z1.2 ρ2 ρ3 z0.2
  have i15 := mb_schouten_right ρ2 (p 0) z1.1 z2.1 z3.1
  have i16 := sb_schouten z2.2 ρ2 ρ3 z1.2
  have i17 := sb_schouten z2.2 ρ2 ρ3 z0.2
  have i18 := sb_schouten z1.2 z2.2 ρ2 z0.2
  have i19 := mb_schouten_left z0.2 ρ2 ρ3 (p 0) z2.1
  have i20 := mb_schouten_right z2.2 (p 0) z0.1 z2.1 z3.1
  have i21 := mb_schouten_left z1.2 z2.2 ρ3 (p 0) z2.1
  have i22 := mb_schouten_right ρ2 (p 0) z0.1 z2.1 z3.1
  have i23 := mb_schouten_left z1.2 z2.2 ρ2 (p 0) z2.1
  have i24 := mb_schouten_right ρ3 (p 0) z0.1 z2.1 z3.1
  have i25 := mb_schouten_right ρ3 (p 0) z1.1 z2.1 z3.1
  have i26 := sb_schouten z1.2 z2.2 ρ3 z0.2
  have i27 := sb_schouten z2.2 z3.2 ρ2 z1.2
  have i28 := sb_schouten z2.2 z3.2 ρ3 z1.2
  have i29 := mb_schouten_right z0.2 (p 1) z1.1 z2.1 z3.1
  have i30 := sb_schouten z2.2 z3.2 ρ2 z0.2
  have i31 := mb_schouten_right z2.2 (p 1) z1.1 z2.1 z3.1
  have i32 := mb_schouten_right z2.2 (p 0) z1.1 z2.1 z3.1
  have i33 := mb_schouten_left z0.2 z1.2 ρ3 (p 0) z2.1
  simp only [l2.mb_eq, l3.mb_eq, b0.mb_left, b0.mb_right, b1.mb_left, b1.mb_right, e20, e21, e30, e31, mb_one hb z0.2 z0.1, mb_one hb z0.2 z2.1, mb_one hb z0.2 z3.1, mb_nought hb z1.2 z1.1, mb_nought hb z1.2 z2.1, mb_nought hb z1.2 z3.1, mb_one hb z2.2 z0.1, mb_nought hb z2.2 z1.1, mb_one hb z2.2 z3.1, mb_one hb z3.2 z0.1, mb_nought hb z3.2 z1.1, mb_one hb z3.2 z2.1, mb_one hb ρ2 z0.1, mb_nought hb ρ2 z1.1, mb_one hb ρ2 z2.1, mb_one hb ρ2 z3.1, mb_one hb ρ3 z0.1, mb_nought hb ρ3 z1.1, mb_one hb ρ3 z2.1, mb_one hb ρ3 z3.1, ab_self, sb_self] at i0 i1 i2 i3 i4 i5 i6 i7 i8 i9 i10 i11 i12 i13 i14 i15 i16 i17 i18 i19 i20 i21 i22 i23 i24 i25 i26 i27 i28 i29 i30 i31 i32 i33 ⊢
  simp only [ab_swap z0.1 z1.1, ab_swap z0.1 z2.1, ab_swap z0.1 z3.1, ab_swap z1.1 z2.1, ab_swap z1.1 z3.1, ab_swap z2.1 z3.1, sb_swap z0.2 z1.2, sb_swap z0.2 z2.2, sb_swap z0.2 z3.2, sb_swap z0.2 ρ2, sb_swap z0.2 ρ3, sb_swap z1.2 z2.2, sb_swap z1.2 z3.2, sb_swap z1.2 ρ2, sb_swap z1.2 ρ3, sb_swap z2.2 z3.2, sb_swap z2.2 ρ2, sb_swap z2.2 ρ3, sb_swap z3.2 ρ2, sb_swap z3.2 ρ3, sb_swap ρ2 ρ3] at i0 i1 i2 i3 i4 i5 i6 i7 i8 i9 i10 i11 i12 i13 i14 i15 i16 i17 i18 i19 i20 i21 i22 i23 i24 i25 i26 i27 i28 i29 i30 i31 i32 i33 ⊢
  simp only [r0, r1, r2, Constants.hL, Constants.hR, Constants.gL, Constants.gR, Constants.yuk, Constants.invVev, Flavour.charge_u, Flavour.isospin_u, ← c.mz]
  have xMW : (c.MW : ℂ) ≠ 0 := by exact_mod_cast hc.MW
  have xSW : (c.SW : ℂ) ≠ 0 := by exact_mod_cast hc.SW
  have xCW : (c.CW : ℂ) ≠ 0 := by exact_mod_cast hc.CW
  have x2 : ((√2 : ℝ) : ℂ) ≠ 0 := by exact_mod_cast (Real.sqrt_pos.2 two_pos).ne'
  have x22 : ((√2 : ℝ) : ℂ) ^ 2 = 2 := by rw [← Complex.ofReal_pow, Real.sq_sqrt two_pos.le]; norm_num
  have x23 : ((√2 : ℝ) : ℂ) ^ 3 = 2 * ((√2 : ℝ) : ℂ) := by rw [← x22]; ring
  have x24 : ((√2 : ℝ) : ℂ) ^ 4 = 4 := by linear_combination (((√2 : ℝ) : ℂ) ^ 2 + 2) * x22
  push_cast at i0 i1 i2 i3 i4 i5 i6 i7 i8 i9 i10 i11 i12 i13 i14 i15 i16 i17 i18 i19 i20 i21 i22 i23 i24 i25 i26 i27 i28 i29 i30 i31 i32 i33 ⊢
  have y0 := mul_inv_cancel₀ n0
  have y1 := mul_inv_cancel₀ n1
  linear_combination ((((-16) * ((c.e : ℂ)) ^ 2 * ((c.mass .u : ℂ)) * (ab z2.1 z3.1) * (sb ρ2 ρ3)) * i0 + ((-16) * ((c.e : ℂ)) ^ 2 * (ab z2.1 z3.1) * (sb z1.2 z2.2) * (sb ρ2 ρ3) + (8) * ((c.e : ℂ)) ^ 2 * (ab z2.1 z3.1) * (sb z1.2 ρ2) * (sb z2.2 ρ3) + (8) * ((c.e : ℂ)) ^ 2 * (mb ρ2 (p 0) z3.1) * (sb z1.2 ρ3) + (-8) * ((c.e : ℂ)) ^ 2 * (mb ρ3 (p 0) z3.1) * (sb z1.2 ρ2)) * i1 + ((-8) * ((c.e : ℂ)) ^ 2 * (N.c 0) * (sb ρ2 ρ3) + (-8) * ((c.e : ℂ)) ^ 2 * (N.c 1) * (sb ρ2 ρ3) + (8) * ((c.e : ℂ)) ^ 2 * (ab z2.1 z3.1) * (sb z2.2 z3.2) * (sb ρ2 ρ3) + (8) * ((c.e : ℂ)) ^ 2 * (ab z2.1 z3.1) * (sb z2.2 ρ2) * (sb z3.2 ρ3) + (-8) * ((c.e : ℂ)) ^ 2 * (mb ρ3 (p 0) z2.1) * (sb z2.2 ρ2)) * i2 + ((24) * ((c.e : ℂ)) ^ 2 * ((c.mass .u : ℂ)) * (ab z2.1 z3.1) * (sb ρ2 ρ3)) * i3 + ((24) * ((c.e : ℂ)) ^ 2 * ((c.mass .u : ℂ)) * (N.c 0) * (sb ρ2 ρ3) + (16) * ((c.e : ℂ)) ^ 2 * ((c.mass .u : ℂ)) * (N.c 1) * (sb ρ2 ρ3)) * i4 + ((-16) * ((c.e : ℂ)) ^ 2 * (ab z2.1 z3.1) * (sb z1.2 z2.2) * (sb ρ2 ρ3) + (8) * ((c.e : ℂ)) ^ 2 * (ab z2.1 z3.1) * (sb z1.2 ρ2) * (sb z2.2 ρ3) + (8) * ((c.e : ℂ)) ^ 2 * (mb ρ2 (p 0) z3.1) * (sb z1.2 ρ3) + (-8) * ((c.e : ℂ)) ^ 2 * (mb ρ3 (p 0) z3.1) * (sb z1.2 ρ2)) * i5 + ((-16) * ((c.e : ℂ)) ^ 2 * ((c.mass .u : ℂ)) * (ab z0.1 z2.1) * (ab z1.1 z3.1) * (ab z2.1 z3.1)) * i6 + ((-8) * ((c.e : ℂ)) ^ 2 * ((c.mass .u : ℂ)) * (ab z1.1 z2.1) * (sb ρ2 ρ3) + (8) * ((c.e : ℂ)) ^ 2 * (ab z2.1 z3.1) * (sb z1.2 z3.2) * (sb ρ2 ρ3) + (-8) * ((c.e : ℂ)) ^ 2 * (mb ρ3 (p 0) z2.1) * (sb z1.2 ρ2)) * i7 + ((-8) * ((c.e : ℂ)) ^ 2 * ((c.mass .u : ℂ)) * (ab z2.1 z3.1) ^ 2 * (sb ρ2 ρ3)) * i8 + ((8) * ((c.e : ℂ)) ^ 2 * ((c.mass .u : ℂ)) * (ab z2.1 z3.1) ^ 2 * (sb z1.2 z2.2)) * i9 + ((16) * ((c.e : ℂ)) ^ 2 * (ab z1.1 z2.1) * (ab z2.1 z3.1) * (sb z2.2 ρ2) + (8) * ((c.e : ℂ)) ^ 2 * (ab z1.1 z2.1) * (mb ρ2 (p 0) z3.1) + (16) * ((c.e : ℂ)) ^ 2 * (ab z1.1 z3.1) * (ab z2.1 z3.1) * (sb z3.2 ρ2)) * i10 + ((-8) * ((c.e : ℂ)) ^ 2 * (ab z1.1 z2.1) * (ab z2.1 z3.1) * (sb z2.2 ρ3) + (-8) * ((c.e : ℂ)) ^ 2 * (ab z1.1 z2.1) * (mb ρ3 (p 0) z3.1) + (-8) * ((c.e : ℂ)) ^ 2 * (ab z1.1 z3.1) * (ab z2.1 z3.1) * (sb z3.2 ρ3)) * i11 + ((8) * ((c.e : ℂ)) ^ 2 * ((c.mass .u : ℂ)) * (ab z2.1 z3.1) * (sb z2.2 ρ3)) * i12 + ((16) * ((c.e : ℂ)) ^ 2 * ((c.mass .u : ℂ)) * (ab z2.1 z3.1) * (sb ρ2 ρ3)) * i13 + ((-8) * ((c.e : ℂ)) ^ 2 * ((c.mass .u : ℂ)) * (N.c 0) * (ab z2.1 z3.1) + (8) * ((c.e : ℂ)) ^ 2 * ((c.mass .u : ℂ)) * (N.c 1) * (ab z2.1 z3.1)) * i14 + ((-16) * ((c.e : ℂ)) ^ 2 * (N.c 0) * (sb z0.2 ρ3) + (-8) * ((c.e : ℂ)) ^ 2 * (mb ρ3 (p 0) z2.1) * (sb z0.2 z2.2)) * i15 + ((8) * ((c.e : ℂ)) ^ 2 * ((c.mass .u : ℂ)) ^ 2 * (ab z0.1 z2.1) * (ab z2.1 z3.1) + (-8) * ((c.e : ℂ)) ^ 2 * (N.c 0) * (ab z0.1 z2.1) * (ab z2.1 z3.1) + (-8) * ((c.e : ℂ)) ^ 2 * (N.c 1) * (ab z0.1 z2.1) * (ab z2.1 z3.1) + (8) * ((c.e : ℂ)) ^ 2 * (ab z0.1 z2.1) * (ab z2.1 z3.1) ^ 2 * (sb z2.2 z3.2)) * i16 + ((8) * ((c.e : ℂ)) ^ 2 * ((c.mass .u : ℂ)) * (ab z2.1 z3.1) ^ 2 * (sb z1.2 z3.2) + (8) * ((c.e : ℂ)) ^ 2 * ((c.mass .u : ℂ)) ^ 2 * (ab z1.1 z2.1) * (ab z2.1 z3.1)) * i17 + ((8) * ((c.e : ℂ)) ^ 2 * ((c.mass .u : ℂ)) * (ab z2.1 z3.1) * (mb ρ3 (p 0) z2.1)) * i18 + ((16) * ((c.e : ℂ)) ^ 2 * (N.c 0) * (ab z1.1 z3.1)) * i19 + ((-8) * ((c.e : ℂ)) ^ 2 * ((c.mass .u : ℂ)) * (ab z1.1 z2.1) * (sb ρ2 ρ3) + (8) * ((c.e : ℂ)) ^ 2 * (ab z2.1 z3.1) * (sb z1.2 z3.2) * (sb ρ2 ρ3) + (-8) * ((c.e : ℂ)) ^ 2 * (mb ρ3 (p 0) z2.1) * (sb z1.2 ρ2)) * i20 + ((8) * ((c.e : ℂ)) ^ 2 * (ab z0.1 z2.1) * (ab z2.1 z3.1) * (sb z2.2 ρ2) + (8) * ((c.e : ℂ)) ^ 2 * (ab z0.1 z2.1) * (mb ρ2 (p 0) z3.1)) * i21 + ((8) * ((c.e : ℂ)) ^ 2 * (ab z2.1 z3.1) * (sb z1.2 z2.2) * (sb z3.2 ρ3) + (-8) * ((c.e : ℂ)) ^ 2 * (mb ρ3 (p 0) z2.1) * (sb z1.2 z2.2)) * i22 + ((-8) * ((c.e : ℂ)) ^ 2 * (ab z0.1 z2.1) * (mb ρ3 (p 0) z3.1) + (8) * ((c.e : ℂ)) ^ 2 * (ab z0.1 z3.1) * (ab z2.1 z3.1) * (sb z3.2 ρ3)) * i23 + ((-8) * ((c.e : ℂ)) ^ 2 * (N.c 1) * (sb z1.2 ρ2) + (-8) * ((c.e : ℂ)) ^ 2 * (ab z2.1 z3.1) * (sb z1.2 z2.2) * (sb z3.2 ρ2) + (8) * ((c.e : ℂ)) ^ 2 * (mb ρ2 (p 0) z2.1) * (sb z1.2 z2.2)) * i24 + ((8) * ((c.e : ℂ)) ^ 2 * (N.c 0) * (sb z0.2 ρ2) + (8) * ((c.e : ℂ)) ^ 2 * (mb ρ2 (p 0) z2.1) * (sb z0.2 z2.2)) * i25 + ((-8) * ((c.e : ℂ)) ^ 2 * ((c.mass .u : ℂ)) * (ab z2.1 z3.1) * (mb ρ2 (p 0) z2.1)) * i26 + ((8) * ((c.e : ℂ)) ^ 2 * (ab z0.1 z2.1) * (ab z2.1 z3.1) * (mb ρ3 (p 0) z3.1) + (-8) * ((c.e : ℂ)) ^ 2 * (ab z0.1 z3.1) * (ab z2.1 z3.1) * (mb ρ3 (p 0) z2.1)) * i27 + ((-8) * ((c.e : ℂ)) ^ 2 * (ab z0.1 z2.1) * (ab z2.1 z3.1) * (mb ρ2 (p 0) z3.1) + (-8) * ((c.e : ℂ)) ^ 2 * (ab z0.1 z2.1) * (ab z2.1 z3.1) ^ 2 * (sb z2.2 ρ2)) * i28 + ((-8) * ((c.e : ℂ)) ^ 2 * (mb ρ3 (p 0) z2.1) * (sb z2.2 ρ2)) * i29 + ((-8) * ((c.e : ℂ)) ^ 2 * (ab z1.1 z3.1) * (ab z2.1 z3.1) * (mb ρ3 (p 0) z2.1)) * i30 + ((-8) * ((c.e : ℂ)) ^ 2 * (mb ρ3 (p 0) z2.1) * (sb z0.2 ρ2)) * i31 + ((-8) * ((c.e : ℂ)) ^ 2 * (mb ρ3 (p 0) z2.1) * (sb z0.2 ρ2)) * i32 + ((-8) * ((c.e : ℂ)) ^ 2 * ((c.mass .u : ℂ)) * (ab z2.1 z3.1) * (sb z2.2 ρ2)) * i33)) * ((1) * ((N.c 0)⁻¹) * ((N.c 1)⁻¹) / (9)) + ((-8) * ((c.e : ℂ)) ^ 2 * ((c.mass .u : ℂ)) * ((N.c 1)⁻¹) * (ab z0.1 z3.1) * (ab z1.1 z2.1) * (sb ρ2 ρ3) / (9) + (-8) * ((c.e : ℂ)) ^ 2 * ((c.mass .u : ℂ)) * ((N.c 1)⁻¹) * (ab z2.1 z3.1) * (sb z0.2 ρ3) * (sb z1.2 ρ2) / (9) + (-8) * ((c.e : ℂ)) ^ 2 * ((N.c 1)⁻¹) * (ab z0.1 z3.1) * (ab z2.1 z3.1) * (sb z1.2 ρ2) * (sb z3.2 ρ3) / (9) + (8) * ((c.e : ℂ)) ^ 2 * ((N.c 1)⁻¹) * (ab z0.1 z3.1) * (mb ρ3 (p 0) z2.1) * (sb z1.2 ρ2) / (9) + (8) * ((c.e : ℂ)) ^ 2 * ((N.c 1)⁻¹) * (ab z1.1 z2.1) * (mb ρ2 (p 0) z3.1) * (sb z0.2 ρ3) / (9)) * y0 + ((8) * ((c.e : ℂ)) ^ 2 * ((c.mass .u : ℂ)) * ((N.c 0)⁻¹) * (ab z0.1 z2.1) * (ab z1.1 z3.1) * (sb ρ2 ρ3) / (9) + (8) * ((c.e : ℂ)) ^ 2 * ((c.mass .u : ℂ)) * ((N.c 0)⁻¹) * (ab z2.1 z3.1) * (sb z0.2 ρ2) * (sb z1.2 ρ3) / (9) + (8) * ((c.e : ℂ)) ^ 2 * ((N.c 0)⁻¹) * (ab z0.1 z2.1) * (ab z2.1 z3.1) * (sb z1.2 ρ3) * (sb z2.2 ρ2) / (9) + (8) * ((c.e : ℂ)) ^ 2 * ((N.c 0)⁻¹) * (ab z0.1 z2.1) * (mb ρ2 (p 0) z3.1) * (sb z1.2 ρ3) / (9) + (8) * ((c.e : ℂ)) ^ 2 * ((N.c 0)⁻¹) * (ab z1.1 z3.1) * (mb ρ3 (p 0) z2.1) * (sb z0.2 ρ2) / (9)) * y1 + ((-4) * ((c.e : ℂ)) ^ 2 * ((c.mass .u : ℂ)) * ((N.c 0)⁻¹) * (ab z0.1 z2.1) * (ab z1.1 z3.1) * (sb ρ2 ρ3) / (9) + (-4) * ((c.e : ℂ)) ^ 2 * ((c.mass .u : ℂ)) * ((N.c 0)⁻¹) * (ab z2.1 z3.1) * (sb z0.2 ρ2) * (sb z1.2 ρ3) / (9) + (4) * ((c.e : ℂ)) ^ 2 * ((c.mass .u : ℂ)) * ((N.c 1)⁻¹) * (ab z0.1 z3.1) * (ab z1.1 z2.1) * (sb ρ2 ρ3) / (9) + (4) * ((c.e : ℂ)) ^ 2 * ((c.mass .u : ℂ)) * ((N.c 1)⁻¹) * (ab z2.1 z3.1) * (sb z0.2 ρ3) * (sb z1.2 ρ2) / (9) + (-4) * ((c.e : ℂ)) ^ 2 * ((N.c 0)⁻¹) * (ab z0.1 z2.1) * (ab z2.1 z3.1) * (sb z1.2 ρ3) * (sb z2.2 ρ2) / (9) + (-4) * ((c.e : ℂ)) ^ 2 * ((N.c 0)⁻¹) * (ab z0.1 z2.1) * (mb ρ2 (p 0) z3.1) * (sb z1.2 ρ3) / (9) + (-4) * ((c.e : ℂ)) ^ 2 * ((N.c 0)⁻¹) * (ab z1.1 z3.1) * (mb ρ3 (p 0) z2.1) * (sb z0.2 ρ2) / (9) + (4) * ((c.e : ℂ)) ^ 2 * ((N.c 1)⁻¹) * (ab z0.1 z3.1) * (ab z2.1 z3.1) * (sb z1.2 ρ2) * (sb z3.2 ρ3) / (9) + (-4) * ((c.e : ℂ)) ^ 2 * ((N.c 1)⁻¹) * (ab z0.1 z3.1) * (mb ρ3 (p 0) z2.1) * (sb z1.2 ρ2) / (9) + (-4) * ((c.e : ℂ)) ^ 2 * ((N.c 1)⁻¹) * (ab z1.1 z2.1) * (mb ρ2 (p 0) z3.1) * (sb z0.2 ρ3) / (9)) * x22
set_option maxRecDepth 8000 in
theorem uuAA.amp2_eq (N : Env) (f : Nat → List Int → ℂ) : Cls.uuAA.m_amp2.mean N f .r [] =
    ((sumJ (fun x a => (sumJ (fun x b => (sumW (fun x c => (sumW (fun x d => (x + (((3 : Nat) : ℝ) * (‖(f 0 [a, b, c, d])‖ ^ 2)))) x)) x)) x)) ((0 : Nat) : ℝ)) / ((72 : Nat) : ℝ)) := by rfl
set_option maxRecDepth 8000 in
theorem uuAA.value (N : Env) : meaning N .r Cls.uuAA.methods Cls.uuAA.amp2 [] =
    ((sumJ (fun x a => (sumJ (fun x b => (sumW (fun x c => (sumW (fun x d => (x + (((3 : Nat) : ℝ) * (‖(Cls.uuAA.m_amp.mean N (callMean N []) .c [a, b, c, d])‖ ^ 2)))) x)) x)) x)) ((0 : Nat) : ℝ)) / ((72 : Nat) : ℝ)) :=
  uuAA.amp2_eq N (callMean N [Cls.uuAA.m_amp])
set_option maxRecDepth 8000 in
theorem uuAA.ampPP (N : Env) (f : Nat → List Int → ℂ) (j1 j2 : Int) : Cls.uuAA.m_amp.mean N f .c [j1, j2, 2, 2] = uuAA.termPP N j1 j2 := by rfl
set_option maxRecDepth 8000 in
theorem uuAA.ampPM (N : Env) (f : Nat → List Int → ℂ) (j1 j2 : Int) : Cls.uuAA.m_amp.mean N f .c [j1, j2, 2, (-2)] = uuAA.termPM N j1 j2 := by rfl
set_option maxRecDepth 8000 in
theorem uuAA.ampMP (N : Env) (f : Nat → List Int → ℂ) (j1 j2 : Int) : Cls.uuAA.m_amp.mean N f .c [j1, j2, (-2), 2] = uuAA.termMP N j1 j2 := by rfl
set_option maxRecDepth 8000 in
theorem uuAA.ampMM (N : Env) (f : Nat → List Int → ℂ) (j1 j2 : Int) : Cls.uuAA.m_amp.mean N f .c [j1, j2, (-2), (-2)] = uuAA.termMM N j1 j2 := by rfl

theorem uuAA.mass_eq {c : Constants} (hc : c.Physical) (i : Fin 4) : uuAA.proc.massNum (uuAA.rho c) i = uuAA.react.mass c i := by
  fin_cases i <;> first | rfl | exact Nat.cast_zero | exact Nat.cast_zero.trans (hc.neutrino _).symm | (show c.MW / √(((1 : Nat) : ℝ) - c.SW * c.SW) = c.MZ; rw [c.root, c.mz])

variable [FPEnv] in
theorem uuAA.agrees : uuAA.Agrees := by
  refine agrees_of (D := []) (E := []) (by simp [all, uuAA]) (by decide +kernel) (by decide) (by decide +kernel) (fun c hc hh => ⟨List.forall_mem_nil _, List.forall_mem_nil _⟩) (fun c hc i => uuAA.mass_eq hc i) (by decide +kernel) ?_
  intro c p u ε hc hh hw h0 hs hb hr hu
  have he : uuAA.react.ends = [1] := by decide
  have ht : uuAA.react.starts = [0] := by decide
  have hB : uuAA.react.bosons = [2, 3] := by decide
  obtain ⟨f1, f2, f3⟩ := uuAA.react.regular_line he ht hB hr
  have r0 : (uuAA.N c p).r 0 = c.e := rfl
  have r1 : (uuAA.N c p).r 1 = (((2 : Nat) : ℝ) / ((3 : Nat) : ℝ)) := rfl
  have r2 : (uuAA.N c p).r 2 = (c.mass .u) := rfl
  have c0 : (uuAA.N c p).c 0 = poleDist (c.mass .u) ((0 : Nat) : ℝ) ((VExp.sub 0 2).sum p) := rfl
  rw [Nat.cast_zero, pole_fermion rfl] at c0
  have d0 : ((msq (plus (p 0) (backward (p 2))) - c.mass .u ^ 2 : ℝ) : ℂ) = (uuAA.N c p).c 0 := by rw [c0, msq_t hb (plus (p 0) (backward (p 2))) (by simp)]
  have n0 : (uuAA.N c p).c 0 ≠ 0 := by rw [← d0]; exact_mod_cast f1 .u rfl rfl
  have c1 : (uuAA.N c p).c 1 = poleDist (c.mass .u) ((0 : Nat) : ℝ) ((VExp.sub 0 3).sum p) := rfl
  rw [Nat.cast_zero, pole_fermion rfl] at c1
  have d1 : ((msq (plus (p 0) (backward (p 3))) - c.mass .u ^ 2 : ℝ) : ℂ) = (uuAA.N c p).c 1 := by rw [c1, msq_u hb (plus (p 0) (backward (p 3))) (by simp)]
  have n1 : (uuAA.N c p).c 1 ≠ 0 := by rw [← d1]; exact_mod_cast f2 .u rfl rfl
  obtain ⟨l2, x2, y2⟩ := uuAA.react.code_light hs hu (n := 2) rfl rfl
  obtain ⟨l3, x3, y3⟩ := uuAA.react.code_light hs hu (n := 3) rfl rfl
  have e20 := l2.pole_sub' (m := (c.mass .u)) (onShell_msq (hs 0)) (msq_t hb (plus (p 0) (backward (p 2))) (by simp)) c0
  have e21 := l2.pole_sub' (m := (c.mass .u)) (onShell_msq (hs 1)) (msq_u hb (plus (p 1) (backward (p 2))) (by simp)) c1
  have e30 := l3.pole_sub' (m := (c.mass .u)) (onShell_msq (hs 0)) (msq_u hb (plus (p 0) (backward (p 3))) (by simp)) c1
  have e31 := l3.pole_sub' (m := (c.mass .u)) (onShell_msq (hs 1)) (msq_t hb (plus (p 1) (backward (p 3))) (by simp)) c0
  have m0 : uuAA.react.mass c 0 ≠ 0 := (leg_pos hc hh (by decide)).ne'
  have m1 : uuAA.react.mass c 1 ≠ 0 := (leg_pos hc hh (by decide)).ne'
  have m2 : uuAA.react.mass c 2 = 0 := rfl
  have m3 : uuAA.react.mass c 3 = 0 := rfl
  have hd : uuAA.proc.divides = [(Ty.c, 0), (Ty.c, 1)] := by decide +kernel
  refine ⟨fun n hn => ?_, fun n hn => ?_, ?_⟩
  · simp [hd] at hn
  · simp [hd] at hn
    rcases hn with rfl | rfl
    · exact n0
    · exact n1
  have stPP : ∀ {z0 z1 : Pair} (b0 : Bold (p 0) (uuAA.react.mass c 0) z0) (b1 : Bold (p 1) (uuAA.react.mass c 1) z1), uuAA.formPP (uuAA.N c p) p z0 z1 (legA (p 2) 0 0, legS (p 2) 0 1) (legA (p 3) 0 0, legS (p 3) 0 1) = (-1) * uuAA.react.bare c p 1 0 2 3 z1 z0 (lightE (legA (p 2) 0 0, legS (p 2) 0 1) 1) (lightE (legA (p 3) 0 0, legS (p 3) 0 1) 1) := by
    intro z0 z1 b0 b1
    exact (light_plus (z := (legA (p 2) 0 0, legS (p 2) 0 1)) (G := fun E => uuAA.react.bare c p 1 0 2 3 z1 z0 E (lightE (legA (p 3) 0 0, legS (p 3) 0 1) 1)) (uuAA.react.bare_lin₁ c p _ _ _ (by decide)) x2 (light_plus (z := (legA (p 3) 0 0, legS (p 3) 0 1)) (G := fun E => uuAA.react.bare c p 1 0 2 3 z1 z0 (pv (legA (p 2) 0 0, legS (p 2) 0 1).2 (legA (p 2) 0 0, legS (p 2) 0 1).2) E) (uuAA.react.bare_lin₂ c p _ _ _ (by decide)) x3 (uuAA.keyPP hc hb r0 r1 r2 d0 n0 d1 n1 b0 b1 l2 l3 e20 e21 e30 e31 (onShell_msq (hs 0)) (onShell_msq (hs 1)) _ _)))
  have stPM : ∀ {z0 z1 : Pair} (b0 : Bold (p 0) (uuAA.react.mass c 0) z0) (b1 : Bold (p 1) (uuAA.react.mass c 1) z1), uuAA.formPM (uuAA.N c p) p z0 z1 (legA (p 2) 0 0, legS (p 2) 0 1) (legA (p 3) 0 0, legS (p 3) 0 1) = 1 * uuAA.react.bare c p 1 0 2 3 z1 z0 (lightE (legA (p 2) 0 0, legS (p 2) 0 1) 1) (lightE (legA (p 3) 0 0, legS (p 3) 0 1) 0) := by
    intro z0 z1 b0 b1
    exact (light_plus (z := (legA (p 2) 0 0, legS (p 2) 0 1)) (G := fun E => uuAA.react.bare c p 1 0 2 3 z1 z0 E (lightE (legA (p 3) 0 0, legS (p 3) 0 1) 0)) (uuAA.react.bare_lin₁ c p _ _ _ (by decide)) x2 (light_minus (z := (legA (p 3) 0 0, legS (p 3) 0 1)) (G := fun E => uuAA.react.bare c p 1 0 2 3 z1 z0 (pv (legA (p 2) 0 0, legS (p 2) 0 1).2 (legA (p 2) 0 0, legS (p 2) 0 1).2) E) (uuAA.react.bare_lin₂ c p _ _ _ (by decide)) y3 (uuAA.keyPM hc hb r0 r1 d0 n0 d1 n1 b0 b1 l2 l3 e20 e21 e30 e31 (onShell_msq (hs 0)) (onShell_msq (hs 1)) _ _)))
  have stMP : ∀ {z0 z1 : Pair} (b0 : Bold (p 0) (uuAA.react.mass c 0) z0) (b1 : Bold (p 1) (uuAA.react.mass c 1) z1), uuAA.formMP (uuAA.N c p) p z0 z1 (legA (p 2) 0 0, legS (p 2) 0 1) (legA (p 3) 0 0, legS (p 3) 0 1) = 1 * uuAA.react.bare c p 1 0 2 3 z1 z0 (lightE (legA (p 2) 0 0, legS (p 2) 0 1) 0) (lightE (legA (p 3) 0 0, legS (p 3) 0 1) 1) := by
    intro z0 z1 b0 b1
    exact (light_minus (z := (legA (p 2) 0 0, legS (p 2) 0 1)) (G := fun E => uuAA.react.bare c p 1 0 2 3 z1 z0 E (lightE (legA (p 3) 0 0, legS (p 3) 0 1) 1)) (uuAA.react.bare_lin₁ c p _ _ _ (by decide)) y2 (light_plus (z := (legA (p 3) 0 0, legS (p 3) 0 1)) (G := fun E => uuAA.react.bare c p 1 0 2 3 z1 z0 (pv (legA (p 2) 0 0, legS (p 2) 0 1).1 (legA (p 2) 0 0, legS (p 2) 0 1).1) E) (uuAA.react.bare_lin₂ c p _ _ _ (by decide)) x3 (uuAA.keyMP hc hb r0 r1 d0 n0 d1 n1 b0 b1 l2 l3 e20 e21 e30 e31 (onShell_msq (hs 0)) (onShell_msq (hs 1)) _ _)))
  have stMM : ∀ {z0 z1 : Pair} (b0 : Bold (p 0) (uuAA.react.mass c 0) z0) (b1 : Bold (p 1) (uuAA.react.mass c 1) z1), uuAA.formMM (uuAA.N c p) p z0 z1 (legA (p 2) 0 0, legS (p 2) 0 1) (legA (p 3) 0 0, legS (p 3) 0 1) = (-1) * uuAA.react.bare c p 1 0 2 3 z1 z0 (lightE (legA (p 2) 0 0, legS (p 2) 0 1) 0) (lightE (legA (p 3) 0 0, legS (p 3) 0 1) 0) := by
    intro z0 z1 b0 b1
    exact (light_minus (z := (legA (p 2) 0 0, legS (p 2) 0 1)) (G := fun E => uuAA.react.bare c p 1 0 2 3 z1 z0 E (lightE (legA (p 3) 0 0, legS (p 3) 0 1) 0)) (uuAA.react.bare_lin₁ c p _ _ _ (by decide)) y2 (light_minus (z := (legA (p 3) 0 0, legS (p 3) 0 1)) (G := fun E => uuAA.react.bare c p 1 0 2 3 z1 z0 (pv (legA (p 2) 0 0, legS (p 2) 0 1).1 (legA (p 2) 0 0, legS (p 2) 0 1).1) E) (uuAA.react.bare_lin₂ c p _ _ _ (by decide)) y3 (uuAA.keyMM hc hb r0 r1 r2 d0 n0 d1 n1 b0 b1 l2 l3 e20 e21 e30 e31 (onShell_msq (hs 0)) (onShell_msq (hs 1)) _ _)))
  have amPP : ∀ (s0 : Fin 2) (s1 : Fin 2), Cls.uuAA.m_amp.mean (uuAA.N c p) (callMean (uuAA.N c p) []) .c [spinOf s0, spinOf s1, 2, 2] = (-1) * uuAA.react.bare c p 1 0 2 3 (uuAA.react.codePair c p 1 s1) (uuAA.react.codePair c p 0 s0) (lightE (legA (p 2) 0 0, legS (p 2) 0 1) 1) (lightE (legA (p 3) 0 0, legS (p 3) 0 1) 1) := by
    intro s0 s1
    rw [uuAA.ampPP, ← stPP (uuAA.react.codePair_bold hs h0 0 s0) (uuAA.react.codePair_bold hs h0 1 s1)]
    have v0z2z3 : (uuAA.N c p).v 0 [] = sb (legA (p 2) 0 0, legS (p 2) 0 1).2 (legA (p 3) 0 0, legS (p 3) 0 1).2 := bra_square (p := p) (m := uuAA.proc.massNum (uuAA.rho c)) (uuAA.mass_eq hc 2) (uuAA.mass_eq hc 3) (.inr ⟨m2, rfl⟩) (.inr ⟨m3, rfl⟩)
    have v3z0z1 : (uuAA.N c p).v 3 [spinOf s0, spinOf s1] = ab (uuAA.react.codePair c p 0 s0).1 (uuAA.react.codePair c p 1 s1).1 := bra_angle (p := p) (m := uuAA.proc.massNum (uuAA.rho c)) (uuAA.mass_eq hc 0) (uuAA.mass_eq hc 1) (.inl ⟨m0, rfl⟩) (.inl ⟨m1, rfl⟩)
    simp only [uuAA.termPP, uuAA.formPP, v0z2z3, v3z0z1]
  have amPM : ∀ (s0 : Fin 2) (s1 : Fin 2), Cls.uuAA.m_amp.mean (uuAA.N c p) (callMean (uuAA.N c p) []) .c [spinOf s0, spinOf s1, 2, (-2)] = 1 * uuAA.react.bare c p 1 0 2 3 (uuAA.react.codePair c p 1 s1) (uuAA.react.codePair c p 0 s0) (lightE (legA (p 2) 0 0, legS (p 2) 0 1) 1) (lightE (legA (p 3) 0 0, legS (p 3) 0 1) 0) := by
    intro s0 s1
    rw [uuAA.ampPM, ← stPM (uuAA.react.codePair_bold hs h0 0 s0) (uuAA.react.codePair_bold hs h0 1 s1)]
    have v4z0z2 : (uuAA.N c p).v 4 [spinOf s0] = sb (uuAA.react.codePair c p 0 s0).2 (legA (p 2) 0 0, legS (p 2) 0 1).2 := bra_square (p := p) (m := uuAA.proc.massNum (uuAA.rho c)) (uuAA.mass_eq hc 0) (uuAA.mass_eq hc 2) (.inl ⟨m0, rfl⟩) (.inr ⟨m2, rfl⟩)
    have v7z1z3 : (uuAA.N c p).v 7 [spinOf s1] = ab (uuAA.react.codePair c p 1 s1).1 (legA (p 3) 0 0, legS (p 3) 0 1).1 := bra_angle (p := p) (m := uuAA.proc.massNum (uuAA.rho c)) (uuAA.mass_eq hc 1) (uuAA.mass_eq hc 3) (.inl ⟨m1, rfl⟩) (.inr ⟨m3, rfl⟩)
    have v8z1z2 : (uuAA.N c p).v 8 [spinOf s1] = sb (uuAA.react.codePair c p 1 s1).2 (legA (p 2) 0 0, legS (p 2) 0 1).2 := bra_square (p := p) (m := uuAA.proc.massNum (uuAA.rho c)) (uuAA.mass_eq hc 1) (uuAA.mass_eq hc 2) (.inl ⟨m1, rfl⟩) (.inr ⟨m2, rfl⟩)
    have v11z0z3 : (uuAA.N c p).v 11 [spinOf s0] = ab (uuAA.react.codePair c p 0 s0).1 (legA (p 3) 0 0, legS (p 3) 0 1).1 := bra_angle (p := p) (m := uuAA.proc.massNum (uuAA.rho c)) (uuAA.mass_eq hc 0) (uuAA.mass_eq hc 3) (.inl ⟨m0, rfl⟩) (.inr ⟨m3, rfl⟩)
    have v12z2z3 : (uuAA.N c p).v 12 [] = mb (legA (p 2) 0 0, legS (p 2) 0 1).2 (p 0) (legA (p 3) 0 0, legS (p 3) 0 1).1 := bra_mid_square (p := p) (m := uuAA.proc.massNum (uuAA.rho c)) (uuAA.mass_eq hc 2) (uuAA.mass_eq hc 3) (.inr ⟨m2, rfl⟩) (.inr ⟨m3, rfl⟩)
    simp only [uuAA.termPM, uuAA.formPM, v4z0z2, v7z1z3, v8z1z2, v11z0z3, v12z2z3]
  have amMP : ∀ (s0 : Fin 2) (s1 : Fin 2), Cls.uuAA.m_amp.mean (uuAA.N c p) (callMean (uuAA.N c p) []) .c [spinOf s0, spinOf s1, (-2), 2] = 1 * uuAA.react.bare c p 1 0 2 3 (uuAA.react.codePair c p 1 s1) (uuAA.react.codePair c p 0 s0) (lightE (legA (p 2) 0 0, legS (p 2) 0 1) 0) (lightE (legA (p 3) 0 0, legS (p 3) 0 1) 1) := by
    intro s0 s1
    rw [uuAA.ampMP, ← stMP (uuAA.react.codePair_bold hs h0 0 s0) (uuAA.react.codePair_bold hs h0 1 s1)]
    have v5z0z2 : (uuAA.N c p).v 5 [spinOf s0] = ab (uuAA.react.codePair c p 0 s0).1 (legA (p 2) 0 0, legS (p 2) 0 1).1 := bra_angle (p := p) (m := uuAA.proc.massNum (uuAA.rho c)) (uuAA.mass_eq hc 0) (uuAA.mass_eq hc 2) (.inl ⟨m0, rfl⟩) (.inr ⟨m2, rfl⟩)
    have v6z1z3 : (uuAA.N c p).v 6 [spinOf s1] = sb (uuAA.react.codePair c p 1 s1).2 (legA (p 3) 0 0, legS (p 3) 0 1).2 := bra_square (p := p) (m := uuAA.proc.massNum (uuAA.rho c)) (uuAA.mass_eq hc 1) (uuAA.mass_eq hc 3) (.inl ⟨m1, rfl⟩) (.inr ⟨m3, rfl⟩)
    have v9z1z2 : (uuAA.N c p).v 9 [spinOf s1] = ab (uuAA.react.codePair c p 1 s1).1 (legA (p 2) 0 0, legS (p 2) 0 1).1 := bra_angle (p := p) (m := uuAA.proc.massNum (uuAA.rho c)) (uuAA.mass_eq hc 1) (uuAA.mass_eq hc 2) (.inl ⟨m1, rfl⟩) (.inr ⟨m2, rfl⟩)
    have v10z0z3 : (uuAA.N c p).v 10 [spinOf s0] = sb (uuAA.react.codePair c p 0 s0).2 (legA (p 3) 0 0, legS (p 3) 0 1).2 := bra_square (p := p) (m := uuAA.proc.massNum (uuAA.rho c)) (uuAA.mass_eq hc 0) (uuAA.mass_eq hc 3) (.inl ⟨m0, rfl⟩) (.inr ⟨m3, rfl⟩)
    have v13z3z2 : (uuAA.N c p).v 13 [] = mb (legA (p 3) 0 0, legS (p 3) 0 1).2 (p 0) (legA (p 2) 0 0, legS (p 2) 0 1).1 := bra_mid_square (p := p) (m := uuAA.proc.massNum (uuAA.rho c)) (uuAA.mass_eq hc 3) (uuAA.mass_eq hc 2) (.inr ⟨m3, rfl⟩) (.inr ⟨m2, rfl⟩)
    simp only [uuAA.termMP, uuAA.formMP, v5z0z2, v6z1z3, v9z1z2, v10z0z3, v13z3z2]
  have amMM : ∀ (s0 : Fin 2) (s1 : Fin 2), Cls.uuAA.m_amp.mean (uuAA.N c p) (callMean (uuAA.N c p) []) .c [spinOf s0, spinOf s1, (-2), (-2)] = (-1) * uuAA.react.bare c p 1 0 2 3 (uuAA.react.codePair c p 1 s1) (uuAA.react.codePair c p 0 s0) (lightE (legA (p 2) 0 0, legS (p 2) 0 1) 0) (lightE (legA (p 3) 0 0, legS (p 3) 0 1) 0) := by
    intro s0 s1
    rw [uuAA.ampMM, ← stMM (uuAA.react.codePair_bold hs h0 0 s0) (uuAA.react.codePair_bold hs h0 1 s1)]
    have v1z2z3 : (uuAA.N c p).v 1 [] = ab (legA (p 2) 0 0, legS (p 2) 0 1).1 (legA (p 3) 0 0, legS (p 3) 0 1).1 := bra_angle (p := p) (m := uuAA.proc.massNum (uuAA.rho c)) (uuAA.mass_eq hc 2) (uuAA.mass_eq hc 3) (.inr ⟨m2, rfl⟩) (.inr ⟨m3, rfl⟩)
    have v2z0z1 : (uuAA.N c p).v 2 [spinOf s0, spinOf s1] = sb (uuAA.react.codePair c p 0 s0).2 (uuAA.react.codePair c p 1 s1).2 := bra_square (p := p) (m := uuAA.proc.massNum (uuAA.rho c)) (uuAA.mass_eq hc 0) (uuAA.mass_eq hc 1) (.inl ⟨m0, rfl⟩) (.inl ⟨m1, rfl⟩)
    simp only [uuAA.termMM, uuAA.formMM, v1z2z3, v2z0z1]
  have am : ∀ (s0 : Fin 2) (s1 : Fin 2) (h2 : Fin 2) (h3 : Fin 2), ‖Cls.uuAA.m_amp.mean (uuAA.N c p) (callMean (uuAA.N c p) []) .c [spinOf s0, spinOf s1, spinW h2, spinW h3]‖ = ‖uuAA.react.bare c p 1 0 2 3 (uuAA.react.codePair c p 1 s1) (uuAA.react.codePair c p 0 s0) (lightE (legA (p 2) 0 0, legS (p 2) 0 1) h2.castSucc) (lightE (legA (p 3) 0 0, legS (p 3) 0 1) h3.castSucc)‖ := by
    intro s0 s1 h2 h3
    match h2, h3 with
    | 1, 1 => exact norm_minus (amPP s0 s1)
    | 1, 0 => exact norm_plus (amPM s0 s1)
    | 0, 1 => exact norm_plus (amMP s0 s1)
    | 0, 0 => exact norm_minus (amMM s0 s1)
  show meaning (uuAA.N c p) .r Cls.uuAA.methods Cls.uuAA.amp2 [] = _
  have s0 : uuAA.react.states 0 = 6 := by decide +kernel
  have s1 : uuAA.react.states 1 = 6 := by decide +kernel
  have sy : uuAA.react.symmetry = 2 := by decide
  have p0 : uuAA.react.spins 0 = {0, 1} := rfl
  have p1 : uuAA.react.spins 1 = {0, 1} := rfl
  have p2 : uuAA.react.spins 2 = {0, 1} := rfl
  have p3 : uuAA.react.spins 3 = {0, 1} := rfl
  have E2 : uuAA.react.codeE c p 2 = lightE (legA (p 2) 0 0, legS (p 2) 0 1) := rfl
  have E3 : uuAA.react.codeE c p 3 = lightE (legA (p 3) 0 0, legS (p 3) 0 1) := rfl
  have hG : uuAA.react.Gauge c p := (uuAA.react.gauge_line he ht hB hh (by decide) (fun n => onShell_msq (hs n)) hb hr (fun n m h h2 => absurd (And.intro h h2) (by revert n m; decide)) (fun _ => ⟨rfl, rfl⟩) (fun _ => ⟨rfl, rfl⟩))
  have lc : uuAA.react.lineColours 1 0 = 3 := by decide +kernel
  rw [uuAA.value, uuAA.react.squared_line he ht hB (by decide) hs h0 (fun _ b _ hb _ => (boson_pos hc hh hb).ne') hG (E := uuAA.react.codeE c p) (fun n b hl => uuAA.react.codeE_polarised hs h0 hu (fun b hb => (boson_pos hc hh hb).ne') n b hl) hu, sum_colours, lc, s0, s1, sy]
  simp only [sumV_sum, sumJ_sum, sumW_sum, am, p0, p1, p2, p3, E2, E3, Finset.sum_singleton, sum_two, Matrix.cons_val_zero, Matrix.cons_val_one, Matrix.cons_val, two_castSucc]
  try simp only [← Finset.mul_sum]
  push_cast
  first | ring1 | ring_nf

/-! ### ddAA -/

/-- what the methods of the class see -/
noncomputable abbrev ddAA.N [FPEnv] (c : Constants) (p : Nat → V4 ℝ) : Env := ddAA.proc.env (ddAA.rho c) p
/-- `amp` for a photon of positive helicity and a photon of positive helicity (SM/ddAA.cpp) -/
noncomputable def ddAA.termPP (N : Env) (j1 j2 : Int) : ℂ :=
  ((((((((((((((2 : Nat) : ℝ) * N.r 0) * N.r 0) * N.r 1) * N.r 1) * N.r 2) : ℝ) : ℂ) * N.v 0 []) * N.v 0 []) * N.v 3 [j1, j2]) / N.c 0) / N.c 1)
/-- the same with spinors in place of their spins -/
noncomputable def ddAA.formPP (N : Env) (p : Nat → V4 ℝ) (z0 z1 z2 z3 : Pair) : ℂ :=
  ((((((((((((((2 : Nat) : ℝ) * N.r 0) * N.r 0) * N.r 1) * N.r 1) * N.r 2) : ℝ) : ℂ) * (sb z2.2 z3.2)) * (sb z2.2 z3.2)) * (ab z0.1 z1.1)) / N.c 0) / N.c 1)
/-- `amp` for a photon of positive helicity and a photon of negative helicity (SM/ddAA.cpp) -/
noncomputable def ddAA.termPM (N : Env) (j1 j2 : Int) : ℂ :=
  ((((((((((((2 : Nat) : ℝ) * N.r 0) * N.r 0) * N.r 1) * N.r 1) : ℝ) : ℂ) * ((N.v 4 [j1] * N.v 7 [j2]) + (N.v 8 [j2] * N.v 11 [j1]))) * N.v 12 []) / N.c 0) / N.c 1)
/-- the same with spinors in place of their spins -/
noncomputable def ddAA.formPM (N : Env) (p : Nat → V4 ℝ) (z0 z1 z2 z3 : Pair) : ℂ :=
  ((((((((((((2 : Nat) : ℝ) * N.r 0) * N.r 0) * N.r 1) * N.r 1) : ℝ) : ℂ) * (((sb z0.2 z2.2) * (ab z1.1 z3.1)) + ((sb z1.2 z2.2) * (ab z0.1 z3.1)))) * (mb z2.2 (p 0) z3.1)) / N.c 0) / N.c 1)
/-- `amp` for a photon of negative helicity and a photon of positive helicity (SM/ddAA.cpp) -/
noncomputable def ddAA.termMP (N : Env) (j1 j2 : Int) : ℂ :=
  ((((((((((((2 : Nat) : ℝ) * N.r 0) * N.r 0) * N.r 1) * N.r 1) : ℝ) : ℂ) * ((N.v 5 [j1] * N.v 6 [j2]) + (N.v 9 [j2] * N.v 10 [j1]))) * N.v 13 []) / N.c 0) / N.c 1)
/-- the same with spinors in place of their spins -/
noncomputable def ddAA.formMP (N : Env) (p : Nat → V4 ℝ) (z0 z1 z2 z3 : Pair) : ℂ :=
  ((((((((((((2 : Nat) : ℝ) * N.r 0) * N.r 0) * N.r 1) * N.r 1) : ℝ) : ℂ) * (((ab z0.1 z2.1) * (sb z1.2 z3.2)) + ((ab z1.1 z2.1) * (sb z0.2 z3.2)))) * (mb z3.2 (p 0) z2.1)) / N.c 0) / N.c 1)
/-- `amp` for a photon of negative helicity and a photon of negative helicity (SM/ddAA.cpp) -/
noncomputable def ddAA.termMM (N : Env) (j1 j2 : Int) : ℂ :=
  ((((((((((((((2 : Nat) : ℝ) * N.r 0) * N.r 0) * N.r 1) * N.r 1) * N.r 2) : ℝ) : ℂ) * N.v 1 []) * N.v 1 []) * N.v 2 [j1, j2]) / N.c 0) / N.c 1)
/-- the same with spinors in place of their spins -/
noncomputable def ddAA.formMM (N : Env) (p : Nat → V4 ℝ) (z0 z1 z2 z3 : Pair) : ℂ :=
  ((((((((((((((2 : Nat) : ℝ) * N.r 0) * N.r 0) * N.r 1) * N.r 1) * N.r 2) : ℝ) : ℂ) * (ab z2.1 z3.1)) * (ab z2.1 z3.1)) * (sb z0.2 z1.2)) / N.c 0) / N.c 1)
theorem ddAA.keyPP {c : Constants} {p : Nat → V4 ℝ} {N : Env} (hc : c.Physical) (hb : Balanced p) (r0 : N.r 0 = c.e) (r1 : N.r 1 = ((-((1 : Nat) : ℝ)) / ((3 : Nat) : ℝ))) (r2 : N.r 2 = (c.mass .d)) (d0 : ((msq (plus (p 0) (backward (p 2))) - c.mass .d ^ 2 : ℝ) : ℂ) = N.c 0) (n0 : N.c 0 ≠ 0) (d1 : ((msq (plus (p 0) (backward (p 3))) - c.mass .d ^ 2 : ℝ) : ℂ) = N.c 1) (n1 : N.c 1 ≠ 0) {z0 z1 z2 z3 : Pair} (b0 : Bold (p 0) (c.mass .d) z0) (b1 : Bold (p 1) (c.mass .d) z1) (l2 : Light (p 2) z2) (l3 : Light (p 3) z3) (e20 : mb z2.2 (p 0) z2.1 = -N.c 0) (e21 : mb z2.2 (p 1) z2.1 = -N.c 1) (e30 : mb z3.2 (p 0) z3.1 = -N.c 1) (e31 : mb z3.2 (p 1) z3.1 = -N.c 0) (q0 : msq (p 0) = (c.mass .d) ^ 2) (q1 : msq (p 1) = (c.mass .d) ^ 2) (ρ2 ρ3 : V2) :
    ddAA.formPP N p z0 z1 z2 z3 * ab ρ2 z2.1 * ab ρ3 z3.1 = ((√2 : ℝ) * ((√2 : ℝ) * (-1 : ℂ))) * ddAA.react.bare c p 1 0 2 3 z1 z0 (pv ρ2 z2.2) (pv ρ3 z3.2) := by
  rw [ddAA.react.bare_parts c p (i := 1) (j := 0) (a := 2) (b := 3) (x := .photon) (y := .photon) (k := (backward (p 2))) (k' := (backward (p 3))) (fun _ => rfl) (fun _ => rfl) (f := .d) (g := .d) rfl rfl (l := (p 0)) rfl (e := -1) (e' := 1) (if_pos rfl) (if_neg Bool.false_ne_true)]
  rw [compton_vv (f := .d) (x := .d) (g := .d) (h := (rfl : Spec.after .photon Flavour.d = some Flavour.d)) (h' := (rfl : Spec.after .photon Flavour.d = some Flavour.d)) (ha := by simp) (hb := by simp)]
  rw [compton_vv (f := .d) (x := .d) (g := .d) (h := (rfl : Spec.after .photon Flavour.d = some Flavour.d)) (h' := (rfl : Spec.after .photon Flavour.d = some Flavour.d)) (ha := by simp) (hb := by simp)]
  rw [annihilation_none c _ _ (by rfl) (by simp), star_zero, add_zero, ddAA.formPP]
  simp only [d0, d1, lineV_pv, lineV_four, contract_four_pv, contract_pv, mb_plus, mb_backward]
  have i0 := ab_schouten z1.1 z2.1 ρ2 z0.1
  have i1 := ab_schouten z3.1 ρ2 ρ3 z2.1
  have i2 := mb_schouten_right z1.2 (p 0) z0.1 z2.1 ρ2
  have i3 := ab_schouten z2.1 ρ2 ρ3 z1.1
  have i4 := ab_schouten z2.1 ρ2 ρ3 z0.1
  have i5 := mb_schouten_right z2.2 (p 0) z0.1 z1.1 z2.1
  have i6 := ab_schouten z1.1 ρ2 ρ3 z0.1
  have i7 := mb_schouten_right z0.2 (p 1) z1.1 z2.1 ρ2
  have i8 := mb_schouten_right z3.2 (p 0) z1.1 z2.1 ρ2
  have i9 := mb_schouten_right z2.2 (p 0) z0.1 z2.1 ρ3
  have i10 := mb_schouten_left z0.2 z2.2 z3.2 (p 0) z2.1
  have i11 := mb_schouten_right z0.2 (p 1) z1.1 z2.1 ρ3
  have i12 := ab_schouten z2.1 z3.1 ρ3 z1.1
  have i13 := mb_schouten_right z0.2 (p 1) z1.1 ρ2 ρ3
  have i14 := ab_schouten z3.1 ρ2 ρ3 z1.1
  have i15 := mb_schouten_right z1.2 (p 0) z0.1 z2.1 ρ3
  have i16 := ab_schouten z2.1 z3.1 ρ3 z0.1
  have i17 := mb_schouten_left z0.2 z2.2 z3.2 (p 0) z3.1
  have i18 := ab_schouten z2.1 z3.1 ρ2 z0.1
  have i19 := ab_schouten z1.1 z2.1 z3.1 z0.1
  have i20 := mb_schouten_right z2.2 (p 0) z1.1 z3.1 ρ2
  have i21 := mb_schouten_right z3.2 (p 0) z0.1 z2.1 ρ2
  have i22 := sb_schouten z1.2 z2.2 z3.2 z0.2
  have i23 := mb_schouten_right z2.2 (p 0) z0.1 z1.1 ρ3
  have i24 := mb_schouten_right z2.2 (p 0) z0.1 z1.1 ρ2
  have i25 := ab_schouten z1.1 z2.1 ρ3 z0.1
  have i26 := mb_schouten_left z0.2 z2.2 z3.2 (p 0) ρ2
  have i27 := mb_schouten_right z2.2 (p 0) z0.1 z2.1 ρ2
  have i28 := mb_schouten_right z2.2 (p 0) z1.1 z2.1 ρ3
  have i29 := mb_schouten_right z3.2 (p 0) z1.1 z3.1 ρ2
  have i30 := ab_schouten z2.1 z3.1 ρ2 z1.1
  have i31 := mb_schouten_right z2.2 (p 0) z0.1 ρ2 ρ3
  have i32 := mb_schouten_right z2.2 (p 1) z0.1 z2.1 ρ2
  have i33 := mb_schouten_right z2.2 (p 1) z1.1 z2.1 ρ3
  have i34 := mb_schouten_right z0.2 (p 1) z1.1 z2.1 z3.1
  have i35 := mb_schouten_left z1.2 z2.2 z3.2 (p 0) z2.1
  have i36 := mb_schouten_right z2.2 (p 1) z0.1 z2.1 ρ3
  have i37 := mb_schouten_right z2.2 (p 0) z1.1 z2.1 ρ2
  have i38 := mb_schouten_right z2.2 (p 0) z0.1 z2.1 z3.1
  have i39 := ab_schouten z3.1 ρ2 ρ3 z0.1
  have i40 := mb_schouten_right z1.2 (p 0) z0.1 z2.1 z3.1
  have i41 := mb_schouten_right z1.2 (p 0) z0.1 ρ2 ρ3
  have i42 := mb_schouten_right z2.2 (p 1) z0.1 z2.1 z3.1
  have i43 := mb_schouten_right z2.2 (p 1) z1.1 z2.1 z3.1
  have i44 := mb_schouten_right z2.2 (p 0) z1.1 z2.1 z3.1
  simp only [l2.mb_eq, l3.mb_eq, b0.mb_left, b0.mb_right, b1.mb_left, b1.mb_right, e20, e21, e30, e31, mb_one hb z0.2 z0.1, mb_one hb z0.2 z2.1, mb_one hb z0.2 z3.1, mb_one hb z0.2 ρ2, mb_one hb z0.2 ρ3, mb_nought hb z1.2 z1.1, mb_nought hb z1.2 z2.1, mb_nought hb z1.2 z3.1, mb_nought hb z1.2 ρ2, mb_nought hb z1.2 ρ3, mb_one hb z2.2 z0.1, mb_nought hb z2.2 z1.1, mb_one hb z2.2 z3.1, mb_one hb z2.2 ρ2, mb_one hb z2.2 ρ3, mb_one hb z3.2 z0.1, mb_nought hb z3.2 z1.1, mb_one hb z3.2 z2.1, mb_one hb z3.2 ρ2, mb_one hb z3.2 ρ3, ab_self, sb_self] at i0 i1 i2 i3 i4 i5 i6 i7 i8 i9 i10 i11 i12 i13 i14 i15 i16 i17 i18 i19 i20 i21 i22 i23 i24 i25 i26 i27 i28 i29 i30 i31 i32 i33 i34 i35 i36 i37 i38 i39 i40 i41 i42 i43 i44 ⊢
  simp only [ab_swap z0.1 z1.1, ab_swap z0.1 z2.1, ab_swap z0.1 z3.1, ab_swap z0.1 ρ2, ab_swap z0.1 ρ3, ab_swap z1.1 z2.1, ab_swap z1.1 z3.1, ab_swap z1.1 ρ2, ab_swap z1.1 ρ3, ab_swap z2.1 z3.1, ab_swap z2.1 ρ2, ab_swap z2.1 ρ3, ab_swap z3.1 ρ2, ab_swap z3.1 ρ3, ab_swap ρ2 ρ3, sb_swap z0.2 z1.2, sb_swap z0.2 z2.2, sb_swap z0.2 z3.2, sb_swap z1.2 z2.2, sb_swap z1.2 z3.2, sb_swap z2.2 z3.2] at i0 i1 i2 i3 i4 i5 i6 i7 i8 i9 i10 i11 i12 i13 i14 i15 i16 i17 i18 i19 i20 i21 i22 i23 i24 i25 i26 i27 i28 i29 i30 i31 i32 i33 i34 i35 i36 i37 i38 i39 i40 i41 i42 i43 i44 ⊢
  simp only [r0, r1, r2, Constants.hL, Constants.hR, Constants.gL, Constants.gR, Constants.yuk, Constants.invVev, Flavour.charge_d, Flavour.isospin_d, ← c.mz]
  have xMW : (c.MW : ℂ) ≠ 0 := by exact_mod_cast hc.MW
  have xSW : (c.SW : ℂ) ≠ 0 := by exact_mod_cast hc.SW
  have xCW : (c.CW : ℂ) ≠ 0 := by exact_mod_cast hc.CW
  have x2 : ((√2 : ℝ) : ℂ) ≠ 0 := by exact_mod_cast (Real.sqrt_pos.2 two_pos).ne'
  have x22 : ((√2 : ℝ) : ℂ) ^ 2 = 2 := by rw [← Complex.ofReal_pow, Real.sq_sqrt two_pos.le]; norm_num
  have x23 : ((√2 : ℝ) : ℂ) ^ 3 = 2 * ((√2 : ℝ) : ℂ) := by rw [← x22]; ring
  have x24 : ((√2 : ℝ) : ℂ) ^ 4 = 4 := by linear_combination (((√2 : ℝ) : ℂ) ^ 2 + 2) * x22
  push_cast at i0 i1 i2 i3 i4 i5 i6 i7 i8 i9 i10 i11 i12 i13 i14 i15 i16 i17 i18 i19 i20 i21 i22 i23 i24 i25 i26 i27 i28 i29 i30 i31 i32 i33 i34 i35 i36 i37 i38 i39 i40 i41 i42 i43 i44 ⊢
  have y0 := mul_inv_cancel₀ n0
  have y1 := mul_inv_cancel₀ n1
  linear_combination ((((2) * ((c.e : ℂ)) ^ 2 * ((c.mass .d : ℂ)) * (ab z3.1 ρ3) * (sb z2.2 z3.2) ^ 2 + (-4) * ((c.e : ℂ)) ^ 2 * ((c.mass .d : ℂ)) * (mb z2.2 (p 0) ρ3) * (sb z2.2 z3.2)) * i0 + ((-2) * ((c.e : ℂ)) ^ 2 * ((c.mass .d : ℂ)) * (sb z0.2 z2.2) * (sb z1.2 z3.2) * (sb z2.2 z3.2) + (2) * ((c.e : ℂ)) ^ 2 * ((c.mass .d : ℂ)) * (sb z0.2 z3.2) * (sb z1.2 z2.2) * (sb z2.2 z3.2)) * i1 + ((2) * ((c.e : ℂ)) ^ 2 * (mb z2.2 (p 0) ρ3) * (sb z2.2 z3.2)) * i2 + ((-4) * ((c.e : ℂ)) ^ 2 * ((c.mass .d : ℂ)) ^ 2 * (sb z0.2 z2.2) * (sb z2.2 z3.2) + (4) * ((c.e : ℂ)) ^ 2 * (ab z2.1 z3.1) * (sb z0.2 z2.2) * (sb z2.2 z3.2) ^ 2) * i3 + ((-4) * ((c.e : ℂ)) ^ 2 * ((c.mass .d : ℂ)) * (ab z1.1 z3.1) * (sb z2.2 z3.2) ^ 2 + (-4) * ((c.e : ℂ)) ^ 2 * ((c.mass .d : ℂ)) ^ 2 * (sb z1.2 z2.2) * (sb z2.2 z3.2) + (2) * ((c.e : ℂ)) ^ 2 * (ab z2.1 z3.1) * (sb z1.2 z2.2) * (sb z2.2 z3.2) ^ 2) * i4 + ((4) * ((c.e : ℂ)) ^ 2 * ((c.mass .d : ℂ)) * (ab ρ2 ρ3) * (sb z2.2 z3.2)) * i5 + ((4) * ((c.e : ℂ)) ^ 2 * ((c.mass .d : ℂ)) * (N.c 0) * (sb z2.2 z3.2) + (2) * ((c.e : ℂ)) ^ 2 * ((c.mass .d : ℂ)) * (ab z2.1 z3.1) * (sb z2.2 z3.2) ^ 2) * i6 + ((2) * ((c.e : ℂ)) ^ 2 * (ab z3.1 ρ3) * (sb z2.2 z3.2) ^ 2 + (-4) * ((c.e : ℂ)) ^ 2 * (mb z2.2 (p 0) ρ3) * (sb z2.2 z3.2)) * i7 + ((2) * ((c.e : ℂ)) ^ 2 * (ab z3.1 ρ3) * (sb z0.2 z2.2) * (sb z2.2 z3.2) + (2) * ((c.e : ℂ)) ^ 2 * (mb z2.2 (p 0) ρ3) * (sb z0.2 z2.2)) * i8 + ((-2) * ((c.e : ℂ)) ^ 2 * (ab z3.1 ρ2) * (sb z1.2 z3.2) * (sb z2.2 z3.2) + (2) * ((c.e : ℂ)) ^ 2 * (mb z2.2 (p 0) ρ2) * (sb z1.2 z3.2) + (-2) * ((c.e : ℂ)) ^ 2 * (mb z3.2 (p 0) ρ2) * (sb z1.2 z2.2)) * i9 + ((2) * ((c.e : ℂ)) ^ 2 * (ab z1.1 ρ2) * (ab z3.1 ρ3) * (sb z2.2 z3.2) + (2) * ((c.e : ℂ)) ^ 2 * (ab z1.1 ρ2) * (mb z2.2 (p 0) ρ3)) * i10 + ((2) * ((c.e : ℂ)) ^ 2 * (mb z2.2 (p 0) ρ2) * (sb z2.2 z3.2)) * i11 + ((-4) * ((c.e : ℂ)) ^ 2 * (ab z2.1 ρ2) * (sb z0.2 z2.2) * (sb z2.2 z3.2) ^ 2 + (-2) * ((c.e : ℂ)) ^ 2 * (ab z3.1 ρ2) * (sb z0.2 z3.2) * (sb z2.2 z3.2) ^ 2 + (-2) * ((c.e : ℂ)) ^ 2 * (mb z2.2 (p 0) ρ2) * (sb z0.2 z3.2) * (sb z2.2 z3.2)) * i12 + ((2) * ((c.e : ℂ)) ^ 2 * (N.c 0) * (sb z2.2 z3.2) + (2) * ((c.e : ℂ)) ^ 2 * (N.c 1) * (sb z2.2 z3.2)) * i13 + ((2) * ((c.e : ℂ)) ^ 2 * (N.c 0) * (sb z0.2 z3.2) * (sb z2.2 z3.2) + (2) * ((c.e : ℂ)) ^ 2 * (N.c 1) * (sb z0.2 z3.2) * (sb z2.2 z3.2) + (2) * ((c.e : ℂ)) ^ 2 * (ab z2.1 z3.1) * (sb z0.2 z3.2) * (sb z2.2 z3.2) ^ 2) * i14 + ((-2) * ((c.e : ℂ)) ^ 2 * (mb z2.2 (p 0) ρ2) * (sb z2.2 z3.2)) * i15 + ((-2) * ((c.e : ℂ)) ^ 2 * ((c.mass .d : ℂ)) * (ab z1.1 ρ2) * (sb z2.2 z3.2) ^ 2 + (-2) * ((c.e : ℂ)) ^ 2 * (ab z2.1 ρ2) * (sb z1.2 z2.2) * (sb z2.2 z3.2) ^ 2 + (2) * ((c.e : ℂ)) ^ 2 * (mb z2.2 (p 0) ρ2) * (sb z1.2 z3.2) * (sb z2.2 z3.2)) * i16 + ((-2) * ((c.e : ℂ)) ^ 2 * (ab z1.1 ρ2) * (ab z2.1 ρ3) * (sb z2.2 z3.2)) * i17 + ((2) * ((c.e : ℂ)) ^ 2 * ((c.mass .d : ℂ)) * (ab z1.1 ρ3) * (sb z2.2 z3.2) ^ 2 + (2) * ((c.e : ℂ)) ^ 2 * (ab z2.1 ρ3) * (sb z1.2 z2.2) * (sb z2.2 z3.2) ^ 2) * i18 + ((-2) * ((c.e : ℂ)) ^ 2 * ((c.mass .d : ℂ)) * (ab ρ2 ρ3) * (sb z2.2 z3.2) ^ 2) * i19 + ((2) * ((c.e : ℂ)) ^ 2 * (ab z2.1 ρ3) * (sb z0.2 z3.2) * (sb z2.2 z3.2)) * i20 + ((2) * ((c.e : ℂ)) ^ 2 * (mb z2.2 (p 0) ρ3) * (sb z1.2 z2.2)) * i21 + ((2) * ((c.e : ℂ)) ^ 2 * ((c.mass .d : ℂ)) * (N.c 0) * (ab ρ2 ρ3) + (-2) * ((c.e : ℂ)) ^ 2 * ((c.mass .d : ℂ)) * (ab z2.1 z3.1) * (ab ρ2 ρ3) * (sb z2.2 z3.2) + (2) * ((c.e : ℂ)) ^ 2 * ((c.mass .d : ℂ)) * (ab z2.1 ρ2) * (ab z3.1 ρ3) * (sb z2.2 z3.2) + (-6) * ((c.e : ℂ)) ^ 2 * ((c.mass .d : ℂ)) * (ab z2.1 ρ2) * (mb z2.2 (p 0) ρ3) + (4) * ((c.e : ℂ)) ^ 2 * ((c.mass .d : ℂ)) * (ab z2.1 ρ3) * (mb z2.2 (p 0) ρ2)) * i22 + ((4) * ((c.e : ℂ)) ^ 2 * ((c.mass .d : ℂ)) * (ab z2.1 ρ2) * (sb z2.2 z3.2)) * i23 + ((-4) * ((c.e : ℂ)) ^ 2 * ((c.mass .d : ℂ)) * (ab z2.1 ρ3) * (sb z2.2 z3.2)) * i24 + ((4) * ((c.e : ℂ)) ^ 2 * ((c.mass .d : ℂ)) * (mb z2.2 (p 0) ρ2) * (sb z2.2 z3.2)) * i25 + ((4) * ((c.e : ℂ)) ^ 2 * (N.c 0) * (ab z1.1 ρ3)) * i26 + ((-2) * ((c.e : ℂ)) ^ 2 * ((c.mass .d : ℂ)) * (ab z1.1 ρ3) * (sb z2.2 z3.2) + (2) * ((c.e : ℂ)) ^ 2 * (ab z3.1 ρ3) * (sb z1.2 z3.2) * (sb z2.2 z3.2) + (-4) * ((c.e : ℂ)) ^ 2 * (mb z2.2 (p 0) ρ3) * (sb z1.2 z3.2)) * i27 + ((2) * ((c.e : ℂ)) ^ 2 * (ab z2.1 ρ2) * (sb z0.2 z2.2) * (sb z2.2 z3.2) + (4) * ((c.e : ℂ)) ^ 2 * (mb z2.2 (p 0) ρ2) * (sb z0.2 z3.2) + (-4) * ((c.e : ℂ)) ^ 2 * (mb z3.2 (p 0) ρ2) * (sb z0.2 z2.2)) * i28 + ((-4) * ((c.e : ℂ)) ^ 2 * (ab z2.1 ρ3) * (sb z0.2 z2.2) * (sb z2.2 z3.2)) * i29 + ((4) * ((c.e : ℂ)) ^ 2 * (ab z2.1 ρ3) * (sb z0.2 z2.2) * (sb z2.2 z3.2) ^ 2 + (4) * ((c.e : ℂ)) ^ 2 * (mb z2.2 (p 0) ρ3) * (sb z0.2 z3.2) * (sb z2.2 z3.2)) * i30 + ((2) * ((c.e : ℂ)) ^ 2 * (N.c 0) * (sb z1.2 z3.2) + (-2) * ((c.e : ℂ)) ^ 2 * (N.c 1) * (sb z1.2 z3.2)) * i31 + ((-2) * ((c.e : ℂ)) ^ 2 * ((c.mass .d : ℂ)) * (ab z1.1 ρ3) * (sb z2.2 z3.2) + (-2) * ((c.e : ℂ)) ^ 2 * (ab z2.1 ρ3) * (sb z1.2 z2.2) * (sb z2.2 z3.2)) * i32 + ((-2) * ((c.e : ℂ)) ^ 2 * (mb z3.2 (p 0) ρ2) * (sb z0.2 z2.2)) * i33 + ((-4) * ((c.e : ℂ)) ^ 2 * (ab ρ2 ρ3) * (sb z2.2 z3.2) ^ 2) * i34 + ((2) * ((c.e : ℂ)) ^ 2 * (ab z0.1 ρ2) * (mb z2.2 (p 0) ρ3)) * i35 + ((2) * ((c.e : ℂ)) ^ 2 * (ab z2.1 ρ2) * (sb z1.2 z2.2) * (sb z2.2 z3.2) + (-2) * ((c.e : ℂ)) ^ 2 * (mb z2.2 (p 0) ρ2) * (sb z1.2 z3.2)) * i36 + ((-2) * ((c.e : ℂ)) ^ 2 * (ab z2.1 ρ3) * (sb z0.2 z2.2) * (sb z2.2 z3.2) + (-4) * ((c.e : ℂ)) ^ 2 * (mb z2.2 (p 0) ρ3) * (sb z0.2 z3.2)) * i37 + ((-2) * ((c.e : ℂ)) ^ 2 * (ab ρ2 ρ3) * (sb z1.2 z3.2) * (sb z2.2 z3.2)) * i38 + ((2) * ((c.e : ℂ)) ^ 2 * (N.c 0) * (sb z1.2 z3.2) * (sb z2.2 z3.2) + (2) * ((c.e : ℂ)) ^ 2 * (N.c 1) * (sb z1.2 z3.2) * (sb z2.2 z3.2)) * i39 + ((-2) * ((c.e : ℂ)) ^ 2 * (ab ρ2 ρ3) * (sb z2.2 z3.2) ^ 2) * i40 + ((2) * ((c.e : ℂ)) ^ 2 * (N.c 1) * (sb z2.2 z3.2)) * i41 + ((-2) * ((c.e : ℂ)) ^ 2 * (ab ρ2 ρ3) * (sb z1.2 z3.2) * (sb z2.2 z3.2)) * i42 + ((-2) * ((c.e : ℂ)) ^ 2 * (ab ρ2 ρ3) * (sb z0.2 z3.2) * (sb z2.2 z3.2)) * i43 + ((-2) * ((c.e : ℂ)) ^ 2 * (ab ρ2 ρ3) * (sb z0.2 z3.2) * (sb z2.2 z3.2)) * i44)) * ((1) * ((N.c 0)⁻¹) * ((N.c 1)⁻¹) / (9)) + ((-2) * ((c.e : ℂ)) ^ 2 * ((c.mass .d : ℂ)) * ((N.c 1)⁻¹) * (ab z0.1 ρ3) * (ab z1.1 ρ2) * (sb z2.2 z3.2) / (9) + (-2) * ((c.e : ℂ)) ^ 2 * ((c.mass .d : ℂ)) * ((N.c 1)⁻¹) * (ab ρ2 ρ3) * (sb z0.2 z3.2) * (sb z1.2 z2.2) / (9) + (2) * ((c.e : ℂ)) ^ 2 * ((N.c 1)⁻¹) * (ab z0.1 ρ3) * (mb z3.2 (p 0) ρ2) * (sb z1.2 z2.2) / (9) + (-2) * ((c.e : ℂ)) ^ 2 * ((N.c 1)⁻¹) * (ab z1.1 ρ2) * (ab z3.1 ρ3) * (sb z0.2 z3.2) * (sb z2.2 z3.2) / (9) + (2) * ((c.e : ℂ)) ^ 2 * ((N.c 1)⁻¹) * (ab z1.1 ρ2) * (mb z2.2 (p 0) ρ3) * (sb z0.2 z3.2) / (9)) * y0 + ((2) * ((c.e : ℂ)) ^ 2 * ((c.mass .d : ℂ)) * ((N.c 0)⁻¹) * (ab z0.1 ρ2) * (ab z1.1 ρ3) * (sb z2.2 z3.2) / (9) + (2) * ((c.e : ℂ)) ^ 2 * ((c.mass .d : ℂ)) * ((N.c 0)⁻¹) * (ab ρ2 ρ3) * (sb z0.2 z2.2) * (sb z1.2 z3.2) / (9) + (2) * ((c.e : ℂ)) ^ 2 * ((N.c 0)⁻¹) * (ab z0.1 ρ2) * (mb z2.2 (p 0) ρ3) * (sb z1.2 z3.2) / (9) + (2) * ((c.e : ℂ)) ^ 2 * ((N.c 0)⁻¹) * (ab z1.1 ρ3) * (ab z2.1 ρ2) * (sb z0.2 z2.2) * (sb z2.2 z3.2) / (9) + (2) * ((c.e : ℂ)) ^ 2 * ((N.c 0)⁻¹) * (ab z1.1 ρ3) * (mb z3.2 (p 0) ρ2) * (sb z0.2 z2.2) / (9)) * y1 + ((-1) * ((c.e : ℂ)) ^ 2 * ((c.mass .d : ℂ)) * ((N.c 0)⁻¹) * (ab z0.1 ρ2) * (ab z1.1 ρ3) * (sb z2.2 z3.2) / (9) + (-1) * ((c.e : ℂ)) ^ 2 * ((c.mass .d : ℂ)) * ((N.c 0)⁻¹) * (ab ρ2 ρ3) * (sb z0.2 z2.2) * (sb z1.2 z3.2) / (9) + (1) * ((c.e : ℂ)) ^ 2 * ((c.mass .d : ℂ)) * ((N.c 1)⁻¹) * (ab z0.1 ρ3) * (ab z1.1 ρ2) * (sb z2.2 z3.2) / (9) + (1) * ((c.e : ℂ)) ^ 2 * ((c.mass .d : ℂ)) * ((N.c 1)⁻¹) * (ab ρ2 ρ3) * (sb z0.2 z3.2) * (sb z1.2 z2.2) / (9) + (-1) * ((c.e : ℂ)) ^ 2 * ((N.c 0)⁻¹) * (ab z0.1 ρ2) * (mb z2.2 (p 0) ρ3) * (sb z1.2 z3.2) / (9) + (-1) * ((c.e : ℂ)) ^ 2 * ((N.c 0)⁻¹) * (ab z1.1 ρ3) * (ab z2.1 ρ2) * (sb z0.2 z2.2) * (sb z2.2 z3.2) / (9) + (-1) * ((c.e : ℂ)) ^ 2 * ((N.c 0)⁻¹) * (ab z1.1 ρ3) * (mb z3.2 (p 0) ρ2) * (sb z0.2 z2.2) / (9) + (-1) * ((c.e : ℂ)) ^ 2 * ((N.c 1)⁻¹) * (ab z0.1 ρ3) * (mb z3.2 (p 0) ρ2) * (sb z1.2 z2.2) / (9) + (1) * ((c.e : ℂ)) ^ 2 * ((N.c 1)⁻¹) * (ab z1.1 ρ2) * (ab z3.1 ρ3) * (sb z0.2 z3.2) * (sb z2.2 z3.2) / (9) + (-1) * ((c.e : ℂ)) ^ 2 * ((N.c 1)⁻¹) * (ab z1.1 ρ2) * (mb z2.2 (p 0) ρ3) * (sb z0.2 z3.2) / (9)) * x22
theorem ddAA.keyPM {c : Constants} {p : Nat → V4 ℝ} {N : Env} (hc : c.Physical) (hb : Balanced p) (r0 : N.r 0 = c.e) (r1 : N.r 1 = ((-((1 : Nat) : ℝ)) / ((3 : Nat) : ℝ))) (d0 : ((msq (plus (p 0) (backward (p 2))) - c.mass .d ^ 2 : ℝ) : ℂ) = N.c 0) (n0 : N.c 0 ≠ 0) (d1 : ((msq (plus (p 0) (backward (p 3))) - c.mass .d ^ 2 : ℝ) : ℂ) = N.c 1) (n1 : N.c 1 ≠ 0) {z0 z1 z2 z3 : Pair} (b0 : Bold (p 0) (c.mass .d) z0) (b1 : Bold (p 1) (c.mass .d) z1) (l2 : Light (p 2) z2) (l3 : Light (p 3) z3) (e20 : mb z2.2 (p 0) z2.1 = -N.c 0) (e21 : mb z2.2 (p 1) z2.1 = -N.c 1) (e30 : mb z3.2 (p 0) z3.1 = -N.c 1) (e31 : mb z3.2 (p 1) z3.1 = -N.c 0) (q0 : msq (p 0) = (c.mass .d) ^ 2) (q1 : msq (p 1) = (c.mass .d) ^ 2) (ρ2 ρ3 : V2) :
    ddAA.formPM N p z0 z1 z2 z3 * ab ρ2 z2.1 * sb ρ3 z3.2 = ((√2 : ℝ) * ((√2 : ℝ) * (1 : ℂ))) * ddAA.react.bare c p 1 0 2 3 z1 z0 (pv ρ2 z2.2) (pv z3.1 ρ3) := by
  rw [ddAA.react.bare_parts c p (i := 1) (j := 0) (a := 2) (b := 3) (x := .photon) (y := .photon) (k := (backward (p 2))) (k' := (backward (p 3))) (fun _ => rfl) (fun _ => rfl) (f := .d) (g := .d) rfl rfl (l := (p 0)) rfl (e := -1) (e' := 1) (if_pos rfl) (if_neg Bool.false_ne_true)]
  rw [compton_vv (f := .d) (x := .d) (g := .d) (h := (rfl : Spec.after .photon Flavour.d = some Flavour.d)) (h' := (rfl : Spec.after .photon Flavour.d = some Flavour.d)) (ha := by simp) (hb := by simp)]
  rw [compton_vv (f := .d) (x := .d) (g := .d) (h := (rfl : Spec.after .photon Flavour.d = some Flavour.d)) (h' := (rfl : Spec.after .photon Flavour.d = some Flavour.d)) (ha := by simp) (hb := by simp)]
  rw [annihilation_none c _ _ (by rfl) (by simp), star_zero, add_zero, ddAA.formPM]
  simp only [d0, d1, lineV_pv, lineV_four, contract_four_pv, contract_pv, mb_plus, mb_backward]
  have i0 := mb_schouten_right z2.2 (p 1) z1.1 z2.1 z3.1
  have i1 := sb_schouten z1.2 z2.2 ρ3 z0.2
  have i2 := mb_schouten_right z2.2 (p 0) z1.1 z3.1 ρ2
  have i3 := mb_schouten_right z1.2 (p 0) z0.1 z3.1 ρ2
  have i4 := mb_schouten_right z2.2 (p 1) z0.1 z2.1 ρ2
  have i5 := mb_schouten_right z1.2 (p 0) z0.1 z2.1 z3.1
  have i6 := mb_schouten_right z2.2 (p 1) z0.1 z2.1 z3.1
  have i7 := mb_schouten_right z2.2 (p 0) z0.1 z2.1 ρ2
  have i8 := mb_schouten_right z2.2 (p 0) z0.1 z2.1 z3.1
  have i9 := mb_schouten_left z0.2 z1.2 z2.2 (p 0) z3.1
  have i10 := mb_schouten_left z0.2 z2.2 ρ3 (p 0) z3.1
  have i11 := mb_schouten_right z2.2 (p 0) z0.1 z1.1 z2.1
  have i12 := ab_schouten z1.1 z3.1 ρ2 z0.1
  have i13 := mb_schouten_right z2.2 (p 0) z1.1 z2.1 z3.1
  have i14 := mb_schouten_right z0.2 (p 1) z1.1 z2.1 z3.1
  have i15 := mb_schouten_right z2.2 (p 0) z0.1 z3.1 ρ2
  have i16 := sb_schouten z2.2 z3.2 ρ3 z1.2
  have i17 := ab_schouten z2.1 z3.1 ρ2 z0.1
  have i18 := mb_schouten_right z2.2 (p 1) z1.1 z2.1 ρ2
  have i19 := mb_schouten_left z1.2 z2.2 ρ3 (p 0) z2.1
  have i20 := mb_schouten_left z0.2 z2.2 ρ3 (p 0) z2.1
  have i21 := mb_schouten_right ρ3 (p 0) z0.1 z3.1 ρ2
  have i22 := sb_schouten z1.2 z2.2 z3.2 z0.2
  have i23 := sb_schouten z2.2 z3.2 ρ3 z0.2
  have i24 := mb_schouten_right ρ3 (p 0) z0.1 z2.1 z3.1
  have i25 := mb_schouten_right ρ3 (p 0) z1.1 z2.1 z3.1
  have i26 := mb_schouten_right z2.2 (p 1) z0.1 z1.1 z2.1
  have i27 := ab_schouten z1.1 z2.1 z3.1 z0.1
  have i28 := mb_schouten_right z2.2 (p 0) z0.1 z1.1 ρ2
  have i29 := mb_schouten_right ρ3 (p 0) z1.1 z2.1 ρ2
  have i30 := mb_schouten_right ρ3 (p 0) z0.1 z2.1 ρ2
  have i31 := ab_schouten z2.1 z3.1 ρ2 z1.1
  simp only [l2.mb_eq, l3.mb_eq, b0.mb_left, b0.mb_right, b1.mb_left, b1.mb_right, e20, e21, e30, e31, mb_one hb z0.2 z0.1, mb_one hb z0.2 z2.1, mb_one hb z0.2 z3.1, mb_one hb z0.2 ρ2, mb_nought hb z1.2 z1.1, mb_nought hb z1.2 z2.1, mb_nought hb z1.2 z3.1, mb_nought hb z1.2 ρ2, mb_one hb z2.2 z0.1, mb_nought hb z2.2 z1.1, mb_one hb z2.2 z3.1, mb_one hb z2.2 ρ2, mb_one hb z3.2 z0.1, mb_nought hb z3.2 z1.1, mb_one hb z3.2 z2.1, mb_one hb z3.2 ρ2, mb_one hb ρ3 z0.1, mb_nought hb ρ3 z1.1, mb_one hb ρ3 z2.1, mb_one hb ρ3 z3.1, mb_one hb ρ3 ρ2, ab_self, sb_self] at i0 i1 i2 i3 i4 i5 i6 i7 i8 i9 i10 i11 i12 i13 i14 i15 i16 i17 i18 i19 i20 i21 i22 i23 i24 i25 i26 i27 i28 i29 i30 i31 ⊢
  simp only [ab_swap z0.1 z1.1, ab_swap z0.1 z2.1, ab_swap z0.1 z3.1, ab_swap z0.1 ρ2, ab_swap z1.1 z2.1, ab_swap z1.1 z3.1, ab_swap z1.1 ρ2, ab_swap z2.1 z3.1, ab_swap z2.1 ρ2, ab_swap z3.1 ρ2, sb_swap z0.2 z1.2, sb_swap z0.2 z2.2, sb_swap z0.2 z3.2, sb_swap z0.2 ρ3, sb_swap z1.2 z2.2, sb_swap z1.2 z3.2, sb_swap z1.2 ρ3, sb_swap z2.2 z3.2, sb_swap z2.2 ρ3, sb_swap z3.2 ρ3] at i0 i1 i2 i3 i4 i5 i6 i7 i8 i9 i10 i11 i12 i13 i14 i15 i16 i17 i18 i19 i20 i21 i22 i23 i24 i25 i26 i27 i28 i29 i30 i31 ⊢
  simp only [r0, r1, Constants.hL, Constants.hR, Constants.gL, Constants.gR, Constants.yuk, Constants.invVev, Flavour.charge_d, Flavour.isospin_d, ← c.mz]
  have xMW : (c.MW : ℂ) ≠ 0 := by exact_mod_cast hc.MW
  have xSW : (c.SW : ℂ) ≠ 0 := by exact_mod_cast hc.SW
  have xCW : (c.CW : ℂ) ≠ 0 := by exact_mod_cast hc.CW
  have x2 : ((√2 : ℝ) : ℂ) ≠ 0 := by exact_mod_cast (Real.sqrt_pos.2 two_pos).ne'
  have x22 : ((√2 : ℝ) : ℂ) ^ 2 = 2 := by rw [← Complex.ofReal_pow, Real.sq_sqrt two_pos.le]; norm_num
  have x23 : ((√2 : ℝ) : ℂ) ^ 3 = 2 * ((√2 : ℝ) : ℂ) := by rw [← x22]; ring
  have x24 : ((√2 : ℝ) : ℂ) ^ 4 = 4 := by linear_combination (((√2 : ℝ) : ℂ) ^ 2 + 2) * x22
  push_cast at i0 i1 i2 i3 i4 i5 i6 i7 i8 i9 i10 i11 i12 i13 i14 i15 i16 i17 i18 i19 i20 i21 i22 i23 i24 i25 i26 i27 i28 i29 i30 i31 ⊢
  have y0 := mul_inv_cancel₀ n0
  have y1 := mul_inv_cancel₀ n1
  linear_combination ((((2) * ((c.e : ℂ)) ^ 2 * (ab z2.1 ρ2) * (sb z0.2 z2.2) * (sb z2.2 ρ3) + (4) * ((c.e : ℂ)) ^ 2 * (ab z3.1 ρ2) * (sb z0.2 z2.2) * (sb z3.2 ρ3) + (-4) * ((c.e : ℂ)) ^ 2 * (ab z3.1 ρ2) * (sb z0.2 z3.2) * (sb z2.2 ρ3) + (4) * ((c.e : ℂ)) ^ 2 * (mb z2.2 (p 0) ρ2) * (sb z0.2 ρ3) + (2) * ((c.e : ℂ)) ^ 2 * (mb ρ3 (p 0) ρ2) * (sb z0.2 z2.2)) * i0 + ((-4) * ((c.e : ℂ)) ^ 2 * ((c.mass .d : ℂ)) * (N.c 0) * (ab z3.1 ρ2) + (-4) * ((c.e : ℂ)) ^ 2 * ((c.mass .d : ℂ)) * (N.c 1) * (ab z3.1 ρ2) + (-4) * ((c.e : ℂ)) ^ 2 * ((c.mass .d : ℂ)) * (ab z2.1 z3.1) * (ab z3.1 ρ2) * (sb z2.2 z3.2) + (4) * ((c.e : ℂ)) ^ 2 * ((c.mass .d : ℂ)) * (ab z2.1 z3.1) * (mb z2.2 (p 0) ρ2) + (-2) * ((c.e : ℂ)) ^ 2 * ((c.mass .d : ℂ)) * (ab z2.1 ρ2) * (mb z2.2 (p 0) z3.1)) * i1 + ((-2) * ((c.e : ℂ)) ^ 2 * (N.c 0) * (sb z0.2 ρ3) + (-4) * ((c.e : ℂ)) ^ 2 * (N.c 1) * (sb z0.2 ρ3) + (-2) * ((c.e : ℂ)) ^ 2 * (mb ρ3 (p 0) z2.1) * (sb z0.2 z2.2)) * i2 + ((4) * ((c.e : ℂ)) ^ 2 * (N.c 0) * (sb z2.2 ρ3) + (4) * ((c.e : ℂ)) ^ 2 * (N.c 1) * (sb z2.2 ρ3)) * i3 + ((4) * ((c.e : ℂ)) ^ 2 * (ab z2.1 z3.1) * (sb z1.2 z2.2) * (sb z2.2 ρ3) + (-4) * ((c.e : ℂ)) ^ 2 * (mb z2.2 (p 0) z3.1) * (sb z1.2 ρ3)) * i4 + ((-4) * ((c.e : ℂ)) ^ 2 * (ab z3.1 ρ2) * (sb z2.2 z3.2) * (sb z2.2 ρ3)) * i5 + ((-2) * ((c.e : ℂ)) ^ 2 * ((c.mass .d : ℂ)) * (ab z1.1 ρ2) * (sb z2.2 ρ3) + (-4) * ((c.e : ℂ)) ^ 2 * (ab z2.1 ρ2) * (sb z1.2 z2.2) * (sb z2.2 ρ3) + (-4) * ((c.e : ℂ)) ^ 2 * (ab z3.1 ρ2) * (sb z1.2 z3.2) * (sb z2.2 ρ3) + (6) * ((c.e : ℂ)) ^ 2 * (mb z2.2 (p 0) ρ2) * (sb z1.2 ρ3)) * i6 + ((4) * ((c.e : ℂ)) ^ 2 * (ab z2.1 z3.1) * (sb z1.2 z2.2) * (sb z2.2 ρ3) + (-4) * ((c.e : ℂ)) ^ 2 * (mb z2.2 (p 0) z3.1) * (sb z1.2 ρ3) + (4) * ((c.e : ℂ)) ^ 2 * (mb ρ3 (p 0) z3.1) * (sb z1.2 z2.2)) * i7 + ((-2) * ((c.e : ℂ)) ^ 2 * ((c.mass .d : ℂ)) * (ab z1.1 ρ2) * (sb z2.2 ρ3) + (-4) * ((c.e : ℂ)) ^ 2 * (ab z2.1 ρ2) * (sb z1.2 z2.2) * (sb z2.2 ρ3) + (2) * ((c.e : ℂ)) ^ 2 * (ab z3.1 ρ2) * (sb z1.2 z2.2) * (sb z3.2 ρ3) + (-4) * ((c.e : ℂ)) ^ 2 * (ab z3.1 ρ2) * (sb z1.2 z3.2) * (sb z2.2 ρ3) + (6) * ((c.e : ℂ)) ^ 2 * (mb z2.2 (p 0) ρ2) * (sb z1.2 ρ3) + (-2) * ((c.e : ℂ)) ^ 2 * (mb ρ3 (p 0) ρ2) * (sb z1.2 z2.2)) * i8 + ((2) * ((c.e : ℂ)) ^ 2 * ((c.mass .d : ℂ)) * (ab z2.1 ρ2) * (sb z2.2 ρ3)) * i9 + ((4) * ((c.e : ℂ)) ^ 2 * (N.c 1) * (ab z1.1 ρ2)) * i10 + ((-4) * ((c.e : ℂ)) ^ 2 * ((c.mass .d : ℂ)) * (ab z3.1 ρ2) * (sb z2.2 ρ3)) * i11 + ((-4) * ((c.e : ℂ)) ^ 2 * ((c.mass .d : ℂ)) * (N.c 0) * (sb z2.2 ρ3) + (-2) * ((c.e : ℂ)) ^ 2 * ((c.mass .d : ℂ)) * (N.c 1) * (sb z2.2 ρ3) + (2) * ((c.e : ℂ)) ^ 2 * ((c.mass .d : ℂ)) * (ab z2.1 z3.1) * (sb z2.2 z3.2) * (sb z2.2 ρ3)) * i12 + ((4) * ((c.e : ℂ)) ^ 2 * (ab z3.1 ρ2) * (sb z0.2 z2.2) * (sb z3.2 ρ3) + (-4) * ((c.e : ℂ)) ^ 2 * (ab z3.1 ρ2) * (sb z0.2 z3.2) * (sb z2.2 ρ3) + (4) * ((c.e : ℂ)) ^ 2 * (mb z2.2 (p 0) ρ2) * (sb z0.2 ρ3)) * i13 + ((-4) * ((c.e : ℂ)) ^ 2 * (ab z3.1 ρ2) * (sb z2.2 z3.2) * (sb z2.2 ρ3) + (4) * ((c.e : ℂ)) ^ 2 * (mb z2.2 (p 0) ρ2) * (sb z2.2 ρ3)) * i14 + ((-4) * ((c.e : ℂ)) ^ 2 * (N.c 0) * (sb z1.2 ρ3) + (-6) * ((c.e : ℂ)) ^ 2 * (N.c 1) * (sb z1.2 ρ3) + (-6) * ((c.e : ℂ)) ^ 2 * (ab z2.1 z3.1) * (sb z1.2 z2.2) * (sb z3.2 ρ3) + (4) * ((c.e : ℂ)) ^ 2 * (ab z2.1 z3.1) * (sb z1.2 z3.2) * (sb z2.2 ρ3) + (-2) * ((c.e : ℂ)) ^ 2 * (mb ρ3 (p 0) z2.1) * (sb z1.2 z2.2)) * i15 + ((4) * ((c.e : ℂ)) ^ 2 * (ab z0.1 z2.1) * (ab z3.1 ρ2) * (mb z2.2 (p 0) z3.1) + (6) * ((c.e : ℂ)) ^ 2 * (ab z0.1 z3.1) * (ab z2.1 z3.1) * (mb z2.2 (p 0) ρ2) + (-4) * ((c.e : ℂ)) ^ 2 * (ab z0.1 z3.1) * (ab z2.1 ρ2) * (mb z2.2 (p 0) z3.1)) * i16 + ((2) * ((c.e : ℂ)) ^ 2 * ((c.mass .d : ℂ)) ^ 2 * (sb z1.2 z2.2) * (sb z2.2 ρ3) + (-6) * ((c.e : ℂ)) ^ 2 * (mb z2.2 (p 0) z3.1) * (sb z1.2 z2.2) * (sb z3.2 ρ3) + (4) * ((c.e : ℂ)) ^ 2 * (mb z2.2 (p 0) z3.1) * (sb z1.2 z3.2) * (sb z2.2 ρ3)) * i17 + ((-4) * ((c.e : ℂ)) ^ 2 * (mb ρ3 (p 0) z3.1) * (sb z0.2 z2.2)) * i18 + ((-2) * ((c.e : ℂ)) ^ 2 * (ab z0.1 z3.1) * (mb z2.2 (p 0) ρ2)) * i19 + ((2) * ((c.e : ℂ)) ^ 2 * (ab z1.1 z3.1) * (ab z3.1 ρ2) * (sb z2.2 z3.2) + (-2) * ((c.e : ℂ)) ^ 2 * (ab z1.1 z3.1) * (mb z2.2 (p 0) ρ2)) * i20 + ((4) * ((c.e : ℂ)) ^ 2 * (N.c 0) * (sb z1.2 z2.2)) * i21 + ((4) * ((c.e : ℂ)) ^ 2 * ((c.mass .d : ℂ)) * (ab z2.1 z3.1) * (ab z3.1 ρ2) * (sb z2.2 ρ3)) * i22 + ((4) * ((c.e : ℂ)) ^ 2 * ((c.mass .d : ℂ)) * (ab z2.1 z3.1) * (ab z3.1 ρ2) * (sb z1.2 z2.2) + (-4) * ((c.e : ℂ)) ^ 2 * (N.c 0) * (ab z1.1 z3.1) * (ab z3.1 ρ2) + (-4) * ((c.e : ℂ)) ^ 2 * (N.c 1) * (ab z1.1 z3.1) * (ab z3.1 ρ2) + (4) * ((c.e : ℂ)) ^ 2 * (ab z1.1 z3.1) * (ab z2.1 z3.1) * (mb z2.2 (p 0) ρ2)) * i23 + ((-4) * ((c.e : ℂ)) ^ 2 * (mb z2.2 (p 0) ρ2) * (sb z1.2 z2.2)) * i24 + ((4) * ((c.e : ℂ)) ^ 2 * (ab z3.1 ρ2) * (sb z0.2 z2.2) * (sb z2.2 z3.2) + (-4) * ((c.e : ℂ)) ^ 2 * (mb z2.2 (p 0) ρ2) * (sb z0.2 z2.2)) * i25 + ((-2) * ((c.e : ℂ)) ^ 2 * ((c.mass .d : ℂ)) * (ab z3.1 ρ2) * (sb z2.2 ρ3)) * i26 + ((-2) * ((c.e : ℂ)) ^ 2 * ((c.mass .d : ℂ)) * (ab z3.1 ρ2) * (sb z2.2 z3.2) * (sb z2.2 ρ3) + (2) * ((c.e : ℂ)) ^ 2 * ((c.mass .d : ℂ)) * (mb z2.2 (p 0) ρ2) * (sb z2.2 ρ3)) * i27 + ((-2) * ((c.e : ℂ)) ^ 2 * ((c.mass .d : ℂ)) * (ab z2.1 z3.1) * (sb z2.2 ρ3)) * i28 + ((2) * ((c.e : ℂ)) ^ 2 * (mb z2.2 (p 0) z3.1) * (sb z0.2 z2.2)) * i29 + ((2) * ((c.e : ℂ)) ^ 2 * (mb z2.2 (p 0) z3.1) * (sb z1.2 z2.2)) * i30 + ((2) * ((c.e : ℂ)) ^ 2 * ((c.mass .d : ℂ)) ^ 2 * (sb z0.2 z2.2) * (sb z2.2 ρ3)) * i31)) * ((1) * ((N.c 0)⁻¹) * ((N.c 1)⁻¹) / (9)) + ((2) * ((c.e : ℂ)) ^ 2 * ((c.mass .d : ℂ)) * ((N.c 1)⁻¹) * (ab z0.1 z3.1) * (ab z1.1 ρ2) * (sb z2.2 ρ3) / (9) + (-2) * ((c.e : ℂ)) ^ 2 * ((c.mass .d : ℂ)) * ((N.c 1)⁻¹) * (ab z3.1 ρ2) * (sb z0.2 ρ3) * (sb z1.2 z2.2) / (9) + (-2) * ((c.e : ℂ)) ^ 2 * ((N.c 1)⁻¹) * (ab z0.1 z3.1) * (ab z3.1 ρ2) * (sb z1.2 z2.2) * (sb z3.2 ρ3) / (9) + (-2) * ((c.e : ℂ)) ^ 2 * ((N.c 1)⁻¹) * (ab z0.1 z3.1) * (mb ρ3 (p 0) ρ2) * (sb z1.2 z2.2) / (9) + (-2) * ((c.e : ℂ)) ^ 2 * ((N.c 1)⁻¹) * (ab z1.1 ρ2) * (mb z2.2 (p 0) z3.1) * (sb z0.2 ρ3) / (9)) * y0 + ((-2) * ((c.e : ℂ)) ^ 2 * ((c.mass .d : ℂ)) * ((N.c 0)⁻¹) * (ab z0.1 ρ2) * (ab z1.1 z3.1) * (sb z2.2 ρ3) / (9) + (2) * ((c.e : ℂ)) ^ 2 * ((c.mass .d : ℂ)) * ((N.c 0)⁻¹) * (ab z3.1 ρ2) * (sb z0.2 z2.2) * (sb z1.2 ρ3) / (9) + (-2) * ((c.e : ℂ)) ^ 2 * ((N.c 0)⁻¹) * (ab z0.1 ρ2) * (mb z2.2 (p 0) z3.1) * (sb z1.2 ρ3) / (9) + (-2) * ((c.e : ℂ)) ^ 2 * ((N.c 0)⁻¹) * (ab z1.1 z3.1) * (ab z2.1 ρ2) * (sb z0.2 z2.2) * (sb z2.2 ρ3) / (9) + (-2) * ((c.e : ℂ)) ^ 2 * ((N.c 0)⁻¹) * (ab z1.1 z3.1) * (mb ρ3 (p 0) ρ2) * (sb z0.2 z2.2) / (9)) * y1 + ((1) * ((c.e : ℂ)) ^ 2 * ((c.mass .d : ℂ)) * ((N.c 0)⁻¹) * (ab z0.1 ρ2) * (ab z1.1 z3.1) * (sb z2.2 ρ3) / (9) + (-1) * ((c.e : ℂ)) ^ 2 * ((c.mass .d : ℂ)) * ((N.c 0)⁻¹) * (ab z3.1 ρ2) * (sb z0.2 z2.2) * (sb z1.2 ρ3) / (9) + (-1) * ((c.e : ℂ)) ^ 2 * ((c.mass .d : ℂ)) * ((N.c 1)⁻¹) * (ab z0.1 z3.1) * (ab z1.1 ρ2) * (sb z2.2 ρ3) / (9) + (1) * ((c.e : ℂ)) ^ 2 * ((c.mass .d : ℂ)) * ((N.c 1)⁻¹) * (ab z3.1 ρ2) * (sb z0.2 ρ3) * (sb z1.2 z2.2) / (9) + (1) * ((c.e : ℂ)) ^ 2 * ((N.c 0)⁻¹) * (ab z0.1 ρ2) * (mb z2.2 (p 0) z3.1) * (sb z1.2 ρ3) / (9) + (1) * ((c.e : ℂ)) ^ 2 * ((N.c 0)⁻¹) * (ab z1.1 z3.1) * (ab z2.1 ρ2) * (sb z0.2 z2.2) * (sb z2.2 ρ3) / (9) + (1) * ((c.e : ℂ)) ^ 2 * ((N.c 0)⁻¹) * (ab z1.1 z3.1) * (mb ρ3 (p 0) ρ2) * (sb z0.2 z2.2) / (9) + (1) * ((c.e : ℂ)) ^ 2 * ((N.c 1)⁻¹) * (ab z0.1 z3.1) * (ab z3.1 ρ2) * (sb z1.2 z2.2) * (sb z3.2 ρ3) / (9) + (1) * ((c.e : ℂ)) ^ 2 * ((N.c 1)⁻¹) * (ab z0.1 z3.1) * (mb ρ3 (p 0) ρ2) * (sb z1.2 z2.2) / (9) + (1) * ((c.e : ℂ)) ^ 2 * ((N.c 1)⁻¹) * (ab z1.1 ρ2) * (mb z2.2 (p 0) z3.1) * (sb z0.2 ρ3) / (9)) * x22
theorem ddAA.keyMP {c : Constants} {p : Nat → V4 ℝ} {N : Env} (hc : c.Physical) (hb : Balanced p) (r0 : N.r 0 = c.e) (r1 : N.r 1 = ((-((1 : Nat) : ℝ)) / ((3 : Nat) : ℝ))) (d0 : ((msq (plus (p 0) (backward (p 2))) - c.mass .d ^ 2 : ℝ) : ℂ) = N.c 0) (n0 : N.c 0 ≠ 0) (d1 : ((msq (plus (p 0) (backward (p 3))) - c.mass .d ^ 2 : ℝ) : ℂ) = N.c 1) (n1 : N.c 1 ≠ 0) {z0 z1 z2 z3 : Pair} (b0 : Bold (p 0) (c.mass .d) z0) (b1 : Bold (p 1) (c.mass .d) z1) (l2 : Light (p 2) z2) (l3 : Light (p 3) z3) (e20 : mb z2.2 (p 0) z2.1 = -N.c 0) (e21 : mb z2.2 (p 1) z2.1 = -N.c 1) (e30 : mb z3.2 (p 0) z3.1 = -N.c 1) (e31 : mb z3.2 (p 1) z3.1 = -N.c 0) (q0 : msq (p 0) = (c.mass .d) ^ 2) (q1 : msq (p 1) = (c.mass .d) ^ 2) (ρ2 ρ3 : V2) :
    ddAA.formMP N p z0 z1 z2 z3 * sb ρ2 z2.2 * ab ρ3 z3.1 = ((√2 : ℝ) * ((√2 : ℝ) * (1 : ℂ))) * ddAA.react.bare c p 1 0 2 3 z1 z0 (pv z2.1 ρ2) (pv ρ3 z3.2) := by
  rw [ddAA.react.bare_parts c p (i := 1) (j := 0) (a := 2) (b := 3) (x := .photon) (y := .photon) (k := (backward (p 2))) (k' := (backward (p 3))) (fun _ => rfl) (fun _ => rfl) (f := .d) (g := .d) rfl rfl (l := (p 0)) rfl (e := -1) (e' := 1) (if_pos rfl) (if_neg Bool.false_ne_true)]
  rw [compton_vv (f := .d) (x := .d) (g := .d) (h := (rfl : Spec.after .photon Flavour.d = some Flavour.d)) (h' := (rfl : Spec.after .photon Flavour.d = some Flavour.d)) (ha := by simp) (hb := by simp)]
  rw [compton_vv (f := .d) (x := .d) (g := .d) (h := (rfl : Spec.after .photon Flavour.d = some Flavour.d)) (h' := (rfl : Spec.after .photon Flavour.d = some Flavour.d)) (ha := by simp) (hb := by simp)]
  rw [annihilation_none c _ _ (by rfl) (by simp), star_zero, add_zero, ddAA.formMP]
  simp only [d0, d1, lineV_pv, lineV_four, contract_four_pv, contract_pv, mb_plus, mb_backward]
  have i0 := mb_schouten_right z0.2 (p 1) z1.1 z2.1 ρ3
  have i1 := ab_schouten z2.1 z3.1 ρ3 z1.1
  have i2 := mb_schouten_right z0.2 (p 1) z1.1 z2.1 z3.1
  have i3 := mb_schouten_right z2.2 (p 1) z1.1 z2.1 z3.1
  have i4 := mb_schouten_right z2.2 (p 0) z1.1 z2.1 z3.1
  have i5 := mb_schouten_right z3.2 (p 0) z1.1 z2.1 z3.1
  have i6 := sb_schouten z2.2 z3.2 ρ2 z0.2
  have i7 := mb_schouten_left z0.2 z1.2 z3.2 (p 0) z2.1
  have i8 := mb_schouten_right z2.2 (p 0) z0.1 z1.1 z2.1
  have i9 := ab_schouten z1.1 z2.1 ρ3 z0.1
  have i10 := mb_schouten_left z0.2 z2.2 ρ2 (p 0) z2.1
  have i11 := mb_schouten_left z0.2 z1.2 ρ2 (p 0) z2.1
  have i12 := mb_schouten_right z3.2 (p 1) z1.1 z2.1 z3.1
  have i13 := mb_schouten_left z1.2 z2.2 ρ2 (p 0) z2.1
  have i14 := mb_schouten_right z3.2 (p 0) z0.1 z2.1 ρ3
  have i15 := mb_schouten_left z1.2 z2.2 z3.2 (p 0) z2.1
  have i16 := mb_schouten_right ρ2 (p 0) z0.1 z2.1 ρ3
  have i17 := mb_schouten_left z0.2 z2.2 z3.2 (p 0) z2.1
  have i18 := mb_schouten_right ρ2 (p 0) z1.1 z2.1 ρ3
  have i19 := sb_schouten z1.2 z2.2 ρ2 z0.2
  have i20 := mb_schouten_right z2.2 (p 1) z0.1 z1.1 z2.1
  have i21 := mb_schouten_right z3.2 (p 0) z0.1 z1.1 z2.1
  have i22 := ab_schouten z1.1 z3.1 ρ3 z0.1
  have i23 := mb_schouten_left z0.2 z3.2 ρ2 (p 0) z2.1
  have i24 := mb_schouten_right z2.2 (p 1) z0.1 z2.1 ρ3
  have i25 := mb_schouten_right z2.2 (p 0) z0.1 z2.1 ρ3
  have i26 := mb_schouten_right z3.2 (p 0) z0.1 z2.1 z3.1
  have i27 := mb_schouten_right z3.2 (p 1) z0.1 z2.1 z3.1
  have i28 := sb_schouten z1.2 z2.2 z3.2 z0.2
  have i29 := sb_schouten z1.2 z3.2 ρ2 z0.2
  have i30 := sb_schouten z2.2 z3.2 ρ2 z1.2
  have i31 := mb_schouten_right z3.2 (p 0) z1.1 z2.1 ρ3
  have i32 := ab_schouten z2.1 z3.1 ρ3 z0.1
  have i33 := mb_schouten_right z1.2 (p 0) z0.1 z2.1 ρ3
  have i34 := mb_schouten_right z2.2 (p 1) z0.1 z2.1 z3.1
  have i35 := mb_schouten_right z2.2 (p 0) z0.1 z2.1 z3.1
  have i36 := mb_schouten_right z1.2 (p 0) z0.1 z2.1 z3.1
  have i37 := mb_schouten_right z2.2 (p 1) z1.1 z2.1 ρ3
  have i38 := mb_schouten_right z2.2 (p 0) z1.1 z2.1 ρ3
  have i39 := mb_schouten_right z0.2 (p 1) z1.1 z3.1 ρ3
  simp only [l2.mb_eq, l3.mb_eq, b0.mb_left, b0.mb_right, b1.mb_left, b1.mb_right, e20, e21, e30, e31, mb_one hb z0.2 z0.1, mb_one hb z0.2 z2.1, mb_one hb z0.2 z3.1, mb_one hb z0.2 ρ3, mb_nought hb z1.2 z1.1, mb_nought hb z1.2 z2.1, mb_nought hb z1.2 z3.1, mb_nought hb z1.2 ρ3, mb_one hb z2.2 z0.1, mb_nought hb z2.2 z1.1, mb_one hb z2.2 z3.1, mb_one hb z2.2 ρ3, mb_one hb z3.2 z0.1, mb_nought hb z3.2 z1.1, mb_one hb z3.2 z2.1, mb_one hb z3.2 ρ3, mb_one hb ρ2 z0.1, mb_nought hb ρ2 z1.1, mb_one hb ρ2 z2.1, mb_one hb ρ2 z3.1, mb_one hb ρ2 ρ3, ab_self, sb_self] at i0 i1 i2 i3 i4 i5 i6 i7 i8 i9 i10 i11 i12 i13 i14 i15 i16 i17 i18 i19 i20 i21 i22 i23 i24 i25 i26 i27 i28 i29 i30 i31 i32 i33 i34 i35 i36 i37 i38 i39 ⊢
  simp only [ab_swap z0.1 z1.1, ab_swap z0.1 z2.1, ab_swap z0.1 z3.1, ab_swap z0.1 ρ3, ab_swap z1.1 z2.1, ab_swap z1.1 z3.1, ab_swap z1.1 ρ3, ab_swap z2.1 z3.1, ab_swap z2.1 ρ3, ab_swap z3.1 ρ3, sb_swap z0.2 z1.2, sb_swap z0.2 z2.2, sb_swap z0.2 z3.2, sb_swap z0.2 ρ2, sb_swap z1.2 z2.2, sb_swap z1.2 z3.2, sb_swap z1.2 ρ2, sb_swap z2.2 z3.2, sb_swap z2.2 ρ2, sb_swap z3.2 ρ2] at i0 i1 i2 i3 i4 i5 i6 i7 i8 i9 i10 i11 i12 i13 i14 i15 i16 i17 i18 i19 i20 i21 i22 i23 i24 i25 i26 i27 i28 i29 i30 i31 i32 i33 i34 i35 i36 i37 i38 i39 ⊢
  simp only [r0, r1, Constants.hL, Constants.hR, Constants.gL, Constants.gR, Constants.yuk, Constants.invVev, Flavour.charge_d, Flavour.isospin_d, ← c.mz]
  have xMW : (c.MW : ℂ) ≠ 0 := by exact_mod_cast hc.MW
  have xSW : (c.SW : ℂ) ≠ 0 := by exact_mod_cast hc.SW
  have xCW : (c.CW : ℂ) ≠ 0 := by exact_mod_cast hc.CW
  have x2 : ((√2 : ℝ) : ℂ) ≠ 0 := by exact_mod_cast (Real.sqrt_pos.2 two_pos).ne'
  have x22 : ((√2 : ℝ) : ℂ) ^ 2 = 2 := by rw [← Complex.ofReal_pow, Real.sq_sqrt two_pos.le]; norm_num
  have x23 : ((√2 : ℝ) : ℂ) ^ 3 = 2 * ((√2 : ℝ) : ℂ) := by rw [← x22]; ring
  have x24 : ((√2 : ℝ) : ℂ) ^ 4 = 4 := by linear_combination (((√2 : ℝ) : ℂ) ^ 2 + 2) * x22
  push_cast at i0 i1 i2 i3 i4 i5 i6 i7 i8 i9 i10 i11 i12 i13 i14 i15 i16 i17 i18 i19 i20 i21 i22 i23 i24 i25 i26 i27 i28 i29 i30 i31 i32 i33 i34 i35 i36 i37 i38 i39 ⊢
  have y0 := mul_inv_cancel₀ n0
  have y1 := mul_inv_cancel₀ n1
  linear_combination ((((4) * ((c.e : ℂ)) ^ 2 * (N.c 1) * (sb z3.2 ρ2) + (-2) * ((c.e : ℂ)) ^ 2 * (mb z3.2 (p 0) z2.1) * (sb z2.2 ρ2)) * i0 + ((2) * ((c.e : ℂ)) ^ 2 * (N.c 0) * (sb z0.2 z3.2) * (sb z3.2 ρ2) + (-2) * ((c.e : ℂ)) ^ 2 * (N.c 1) * (sb z0.2 z3.2) * (sb z3.2 ρ2) + (2) * ((c.e : ℂ)) ^ 2 * (mb z3.2 (p 0) z2.1) * (sb z0.2 z2.2) * (sb z3.2 ρ2) + (2) * ((c.e : ℂ)) ^ 2 * (mb z3.2 (p 0) z2.1) * (sb z0.2 z3.2) * (sb z2.2 ρ2)) * i1 + ((-4) * ((c.e : ℂ)) ^ 2 * (ab z2.1 ρ3) * (sb z2.2 z3.2) * (sb z3.2 ρ2)) * i2 + ((-2) * ((c.e : ℂ)) ^ 2 * (ab z2.1 ρ3) * (sb z0.2 z3.2) * (sb z3.2 ρ2)) * i3 + ((-2) * ((c.e : ℂ)) ^ 2 * (ab z2.1 ρ3) * (sb z0.2 z3.2) * (sb z3.2 ρ2)) * i4 + ((4) * ((c.e : ℂ)) ^ 2 * (ab z2.1 ρ3) * (sb z0.2 z2.2) * (sb z3.2 ρ2) + (2) * ((c.e : ℂ)) ^ 2 * (ab z3.1 ρ3) * (sb z0.2 z3.2) * (sb z3.2 ρ2)) * i5 + ((2) * ((c.e : ℂ)) ^ 2 * ((c.mass .d : ℂ)) * (ab z2.1 z3.1) * (ab z2.1 ρ3) * (sb z1.2 z3.2) + (2) * ((c.e : ℂ)) ^ 2 * ((c.mass .d : ℂ)) ^ 2 * (ab z1.1 z2.1) * (ab z2.1 ρ3) + (-2) * ((c.e : ℂ)) ^ 2 * (ab z1.1 z2.1) * (ab z3.1 ρ3) * (mb z3.2 (p 0) z2.1) + (2) * ((c.e : ℂ)) ^ 2 * (ab z1.1 z3.1) * (ab z2.1 ρ3) * (mb z3.2 (p 0) z2.1)) * i6 + ((2) * ((c.e : ℂ)) ^ 2 * ((c.mass .d : ℂ)) * (ab z3.1 ρ3) * (sb z3.2 ρ2)) * i7 + ((2) * ((c.e : ℂ)) ^ 2 * ((c.mass .d : ℂ)) * (ab z2.1 ρ3) * (sb z3.2 ρ2)) * i8 + ((2) * ((c.e : ℂ)) ^ 2 * ((c.mass .d : ℂ)) * (N.c 0) * (sb z3.2 ρ2) + (4) * ((c.e : ℂ)) ^ 2 * ((c.mass .d : ℂ)) * (N.c 1) * (sb z3.2 ρ2) + (-2) * ((c.e : ℂ)) ^ 2 * ((c.mass .d : ℂ)) * (mb z3.2 (p 0) z2.1) * (sb z2.2 ρ2)) * i9 + ((2) * ((c.e : ℂ)) ^ 2 * (ab z1.1 z2.1) * (ab z2.1 ρ3) * (sb z2.2 z3.2) + (2) * ((c.e : ℂ)) ^ 2 * (ab z1.1 z2.1) * (mb z3.2 (p 0) ρ3)) * i10 + ((-2) * ((c.e : ℂ)) ^ 2 * ((c.mass .d : ℂ)) * (ab z2.1 ρ3) * (sb z2.2 z3.2)) * i11 + ((4) * ((c.e : ℂ)) ^ 2 * (ab z2.1 ρ3) * (sb z0.2 z3.2) * (sb z2.2 ρ2)) * i12 + ((2) * ((c.e : ℂ)) ^ 2 * (ab z0.1 z2.1) * (mb z3.2 (p 0) ρ3)) * i13 + ((2) * ((c.e : ℂ)) ^ 2 * (N.c 1) * (sb z1.2 ρ2) + (2) * ((c.e : ℂ)) ^ 2 * (ab z2.1 z3.1) * (sb z1.2 z2.2) * (sb z3.2 ρ2) + (-2) * ((c.e : ℂ)) ^ 2 * (mb ρ2 (p 0) z2.1) * (sb z1.2 z2.2)) * i14 + ((-2) * ((c.e : ℂ)) ^ 2 * (ab z0.1 z2.1) * (mb ρ2 (p 0) ρ3)) * i15 + ((2) * ((c.e : ℂ)) ^ 2 * (mb z3.2 (p 0) z2.1) * (sb z1.2 z2.2)) * i16 + ((-2) * ((c.e : ℂ)) ^ 2 * (ab z1.1 z2.1) * (mb ρ2 (p 0) ρ3)) * i17 + ((4) * ((c.e : ℂ)) ^ 2 * (N.c 0) * (sb z0.2 z3.2) + (2) * ((c.e : ℂ)) ^ 2 * (mb z3.2 (p 0) z2.1) * (sb z0.2 z2.2)) * i18 + ((-2) * ((c.e : ℂ)) ^ 2 * ((c.mass .d : ℂ)) * (ab z2.1 ρ3) * (mb z3.2 (p 0) z2.1)) * i19 + ((4) * ((c.e : ℂ)) ^ 2 * ((c.mass .d : ℂ)) * (ab z2.1 ρ3) * (sb z3.2 ρ2)) * i20 + ((2) * ((c.e : ℂ)) ^ 2 * ((c.mass .d : ℂ)) * (ab z2.1 ρ3) * (sb z2.2 ρ2) + (-2) * ((c.e : ℂ)) ^ 2 * ((c.mass .d : ℂ)) * (ab z3.1 ρ3) * (sb z3.2 ρ2)) * i21 + ((2) * ((c.e : ℂ)) ^ 2 * ((c.mass .d : ℂ)) * (mb z3.2 (p 0) z2.1) * (sb z3.2 ρ2)) * i22 + ((4) * ((c.e : ℂ)) ^ 2 * (N.c 0) * (ab z1.1 ρ3)) * i23 + ((-2) * ((c.e : ℂ)) ^ 2 * ((c.mass .d : ℂ)) * (ab z1.1 z2.1) * (sb z3.2 ρ2) + (2) * ((c.e : ℂ)) ^ 2 * (mb z3.2 (p 0) z2.1) * (sb z1.2 ρ2)) * i24 + ((-2) * ((c.e : ℂ)) ^ 2 * ((c.mass .d : ℂ)) * (ab z1.1 z2.1) * (sb z3.2 ρ2) + (2) * ((c.e : ℂ)) ^ 2 * (mb z3.2 (p 0) z2.1) * (sb z1.2 ρ2)) * i25 + ((2) * ((c.e : ℂ)) ^ 2 * (ab z2.1 ρ3) * (sb z1.2 z2.2) * (sb z3.2 ρ2) + (-2) * ((c.e : ℂ)) ^ 2 * (ab z2.1 ρ3) * (sb z1.2 z3.2) * (sb z2.2 ρ2) + (2) * ((c.e : ℂ)) ^ 2 * (mb z3.2 (p 0) ρ3) * (sb z1.2 ρ2) + (-2) * ((c.e : ℂ)) ^ 2 * (mb ρ2 (p 0) ρ3) * (sb z1.2 z3.2)) * i26 + ((2) * ((c.e : ℂ)) ^ 2 * (ab z2.1 ρ3) * (sb z1.2 z2.2) * (sb z3.2 ρ2) + (2) * ((c.e : ℂ)) ^ 2 * (mb z3.2 (p 0) ρ3) * (sb z1.2 ρ2) + (-2) * ((c.e : ℂ)) ^ 2 * (mb ρ2 (p 0) ρ3) * (sb z1.2 z3.2)) * i27 + ((-2) * ((c.e : ℂ)) ^ 2 * ((c.mass .d : ℂ)) * (ab z2.1 z3.1) * (ab z2.1 ρ3) * (sb z3.2 ρ2) + (2) * ((c.e : ℂ)) ^ 2 * ((c.mass .d : ℂ)) * (ab z2.1 ρ3) * (mb ρ2 (p 0) z2.1)) * i28 + ((-2) * ((c.e : ℂ)) ^ 2 * ((c.mass .d : ℂ)) * (N.c 0) * (ab z2.1 ρ3) + (2) * ((c.e : ℂ)) ^ 2 * ((c.mass .d : ℂ)) * (N.c 1) * (ab z2.1 ρ3)) * i29 + ((2) * ((c.e : ℂ)) ^ 2 * ((c.mass .d : ℂ)) ^ 2 * (ab z0.1 z2.1) * (ab z2.1 ρ3) + (-2) * ((c.e : ℂ)) ^ 2 * (ab z0.1 z2.1) * (ab z2.1 z3.1) * (mb z3.2 (p 0) ρ3) + (-2) * ((c.e : ℂ)) ^ 2 * (ab z0.1 z2.1) * (ab z3.1 ρ3) * (mb z3.2 (p 0) z2.1) + (2) * ((c.e : ℂ)) ^ 2 * (ab z0.1 z3.1) * (ab z2.1 ρ3) * (mb z3.2 (p 0) z2.1)) * i30 + ((-2) * ((c.e : ℂ)) ^ 2 * (N.c 0) * (sb z0.2 ρ2) + (-2) * ((c.e : ℂ)) ^ 2 * (mb ρ2 (p 0) z2.1) * (sb z0.2 z2.2)) * i31 + ((-2) * ((c.e : ℂ)) ^ 2 * (N.c 0) * (sb z1.2 z3.2) * (sb z3.2 ρ2) + (-2) * ((c.e : ℂ)) ^ 2 * (N.c 1) * (sb z1.2 z3.2) * (sb z3.2 ρ2) + (2) * ((c.e : ℂ)) ^ 2 * (mb z3.2 (p 0) z2.1) * (sb z1.2 z2.2) * (sb z3.2 ρ2)) * i32 + ((2) * ((c.e : ℂ)) ^ 2 * (N.c 0) * (sb z3.2 ρ2) + (2) * ((c.e : ℂ)) ^ 2 * (N.c 1) * (sb z3.2 ρ2)) * i33 + ((-2) * ((c.e : ℂ)) ^ 2 * (ab z2.1 ρ3) * (sb z1.2 z3.2) * (sb z3.2 ρ2)) * i34 + ((-2) * ((c.e : ℂ)) ^ 2 * (ab z2.1 ρ3) * (sb z1.2 z3.2) * (sb z3.2 ρ2)) * i35 + ((-2) * ((c.e : ℂ)) ^ 2 * (ab z2.1 ρ3) * (sb z2.2 z3.2) * (sb z3.2 ρ2)) * i36 + ((-2) * ((c.e : ℂ)) ^ 2 * (ab z2.1 z3.1) * (sb z0.2 z3.2) * (sb z3.2 ρ2) + (2) * ((c.e : ℂ)) ^ 2 * (mb z3.2 (p 0) z2.1) * (sb z0.2 ρ2)) * i37 + ((-2) * ((c.e : ℂ)) ^ 2 * (ab z2.1 z3.1) * (sb z0.2 z3.2) * (sb z3.2 ρ2) + (2) * ((c.e : ℂ)) ^ 2 * (mb z3.2 (p 0) z2.1) * (sb z0.2 ρ2)) * i38 + ((2) * ((c.e : ℂ)) ^ 2 * (mb z3.2 (p 0) z2.1) * (sb z3.2 ρ2)) * i39)) * ((1) * ((N.c 0)⁻¹) * ((N.c 1)⁻¹) / (9)) + ((-2) * ((c.e : ℂ)) ^ 2 * ((c.mass .d : ℂ)) * ((N.c 1)⁻¹) * (ab z0.1 ρ3) * (ab z1.1 z2.1) * (sb z3.2 ρ2) / (9) + (2) * ((c.e : ℂ)) ^ 2 * ((c.mass .d : ℂ)) * ((N.c 1)⁻¹) * (ab z2.1 ρ3) * (sb z0.2 z3.2) * (sb z1.2 ρ2) / (9) + (-2) * ((c.e : ℂ)) ^ 2 * ((N.c 1)⁻¹) * (ab z0.1 ρ3) * (mb z3.2 (p 0) z2.1) * (sb z1.2 ρ2) / (9) + (-2) * ((c.e : ℂ)) ^ 2 * ((N.c 1)⁻¹) * (ab z1.1 z2.1) * (ab z3.1 ρ3) * (sb z0.2 z3.2) * (sb z3.2 ρ2) / (9) + (-2) * ((c.e : ℂ)) ^ 2 * ((N.c 1)⁻¹) * (ab z1.1 z2.1) * (mb ρ2 (p 0) ρ3) * (sb z0.2 z3.2) / (9)) * y0 + ((2) * ((c.e : ℂ)) ^ 2 * ((c.mass .d : ℂ)) * ((N.c 0)⁻¹) * (ab z0.1 z2.1) * (ab z1.1 ρ3) * (sb z3.2 ρ2) / (9) + (-2) * ((c.e : ℂ)) ^ 2 * ((c.mass .d : ℂ)) * ((N.c 0)⁻¹) * (ab z2.1 ρ3) * (sb z0.2 ρ2) * (sb z1.2 z3.2) / (9) + (-2) * ((c.e : ℂ)) ^ 2 * ((N.c 0)⁻¹) * (ab z0.1 z2.1) * (ab z2.1 ρ3) * (sb z1.2 z3.2) * (sb z2.2 ρ2) / (9) + (-2) * ((c.e : ℂ)) ^ 2 * ((N.c 0)⁻¹) * (ab z0.1 z2.1) * (mb ρ2 (p 0) ρ3) * (sb z1.2 z3.2) / (9) + (-2) * ((c.e : ℂ)) ^ 2 * ((N.c 0)⁻¹) * (ab z1.1 ρ3) * (mb z3.2 (p 0) z2.1) * (sb z0.2 ρ2) / (9)) * y1 + ((-1) * ((c.e : ℂ)) ^ 2 * ((c.mass .d : ℂ)) * ((N.c 0)⁻¹) * (ab z0.1 z2.1) * (ab z1.1 ρ3) * (sb z3.2 ρ2) / (9) + (1) * ((c.e : ℂ)) ^ 2 * ((c.mass .d : ℂ)) * ((N.c 0)⁻¹) * (ab z2.1 ρ3) * (sb z0.2 ρ2) * (sb z1.2 z3.2) / (9) + (1) * ((c.e : ℂ)) ^ 2 * ((c.mass .d : ℂ)) * ((N.c 1)⁻¹) * (ab z0.1 ρ3) * (ab z1.1 z2.1) * (sb z3.2 ρ2) / (9) + (-1) * ((c.e : ℂ)) ^ 2 * ((c.mass .d : ℂ)) * ((N.c 1)⁻¹) * (ab z2.1 ρ3) * (sb z0.2 z3.2) * (sb z1.2 ρ2) / (9) + (1) * ((c.e : ℂ)) ^ 2 * ((N.c 0)⁻¹) * (ab z0.1 z2.1) * (ab z2.1 ρ3) * (sb z1.2 z3.2) * (sb z2.2 ρ2) / (9) + (1) * ((c.e : ℂ)) ^ 2 * ((N.c 0)⁻¹) * (ab z0.1 z2.1) * (mb ρ2 (p 0) ρ3) * (sb z1.2 z3.2) / (9) + (1) * ((c.e : ℂ)) ^ 2 * ((N.c 0)⁻¹) * (ab z1.1 ρ3) * (mb z3.2 (p 0) z2.1) * (sb z0.2 ρ2) / (9) + (1) * ((c.e : ℂ)) ^ 2 * ((N.c 1)⁻¹) * (ab z0.1 ρ3) * (mb z3.2 (p 0) z2.1) * (sb z1.2 ρ2) / (9) + (1) * ((c.e : ℂ)) ^ 2 * ((N.c 1)⁻¹) * (ab z1.1 z2.1) * (ab z3.1 ρ3) * (sb z0.2 z3.2) * (sb z3.2 ρ2) / (9) + (1) * ((c.e : ℂ)) ^ 2 * ((N.c 1)⁻¹) * (ab z1.1 z2.1) * (mb ρ2 (p 0) ρ3) * (sb z0.2 z3.2) / (9)) * x22
theorem ddAA.keyMM {c : Constants} {p : Nat → V4 ℝ} {N : Env} (hc : c.Physical) (hb : Balanced p) (r0 : N.r 0 = c.e) (r1 : N.r 1 = ((-((1 : Nat) : ℝ)) / ((3 : Nat) : ℝ))) (r2 : N.r 2 = (c.mass .d)) (d0 : ((msq (plus (p 0) (backward (p 2))) - c.mass .d ^ 2 : ℝ) : ℂ) = N.c 0) (n0 : N.c 0 ≠ 0) (d1 : ((msq (plus (p 0) (backward (p 3))) - c.mass .d ^ 2 : ℝ) : ℂ) = N.c 1) (n1 : N.c 1 ≠ 0) {z0 z1 z2 z3 : Pair} (b0 : Bold (p 0) (c.mass .d) z0) (b1 : Bold (p 1) (c.mass .d) z1) (l2 : Light (p 2) z2) (l3 : Light (p 3) z3) (e20 : mb z2.2 (p 0) z2.1 = -N.c 0) (e21 : mb z2.2 (p 1) z2.1 = -N.c 1) (e30 : mb z3.2 (p 0) z3.1 = -N.c 1) (e31 : mb z3.2 (p 1) z3.1 = -N.c 0) (q0 : msq (p 0) = (c.mass .d) ^ 2) (q1 : msq (p 1) = (c.mass .d) ^ 2) (ρ2 ρ3 : V2) :
    ddAA.formMM N p z0 z1 z2 z3 * sb ρ2 z2.2 * sb ρ3 z3.2 = ((√2 : ℝ) * ((√2 : ℝ) * (-1 : ℂ))) * ddAA.react.bare c p 1 0 2 3 z1 z0 (pv z2.1 ρ2) (pv z3.1 ρ3) := by
  rw [ddAA.react.bare_parts c p (i := 1) (j := 0) (a := 2) (b := 3) (x := .photon) (y := .photon) (k := (backward (p 2))) (k' := (backward (p 3))) (fun _ => rfl) (fun _ => rfl) (f := .d) (g := .d) rfl rfl (l := (p 0)) rfl (e := -1) (e' := 1) (if_pos rfl) (if_neg Bool.false_ne_true)]
  rw [compton_vv (f := .d) (x := .d) (g := .d) (h := (rfl : Spec.after .photon Flavour.d = some Flavour.d)) (h' := (rfl : Spec.after .photon Flavour.d = some Flavour.d)) (ha := by simp) (hb := by simp)]
  rw [compton_vv (f := .d) (x := .d) (g := .d) (h := (rfl : Spec.after .photon Flavour.d = some Flavour.d)) (h' := (rfl : Spec.after .photon Flavour.d = some Flavour.d)) (ha := by simp) (hb := by simp)]
  rw [annihilation_none c _ _ (by rfl) (by simp), star_zero, add_zero, ddAA.formMM]
  simp only [d0, d1, lineV_pv, lineV_four, contract_four_pv, contract_pv, mb_plus, mb_backward]
  have i0 := mb_schouten_left z0.2 z1.2 z2.2 (p 0) z2.1
  have i1 := mb_schouten_right z3.2 (p 1) z0.1 z2.1 z3.1
  have i2 := mb_schouten_right z1.2 (p 0) z0.1 z2.1 z3.1
  have i3 := mb_schouten_right z2.2 (p 0) z0.1 z1.1 z2.1
  have i4 := ab_schouten z1.1 z2.1 z3.1 z0.1
  have i5 := mb_schouten_right z3.2 (p 0) z0.1 z2.1 z3.1
  have i6 := sb_schouten z3.2 ρ2 ρ3 z2.2
  have i7 := mb_schouten_right z2.2 (p 1) z0.1 z2.1 z3.1
  have i8 := sb_schouten z1.2 z2.2 z3.2 z0.2
  have i9 := sb_schouten z3.2 ρ2 ρ3 z0.2
  have i10 := mb_schouten_left z0.2 z2.2 ρ3 (p 0) z2.1
  have i11 := mb_schouten_left z0.2 z2.2 ρ2 (p 0) z2.1
  have i12 := mb_schouten_left z0.2 z1.2 ρ2 (p 0) z2.1
  have i13 := mb_schouten_right z2.2 (p 1) z0.1 z1.1 z2.1
  have i14 := sb_schouten z1.2 ρ2 ρ3 z0.2
  have i15 := mb_schouten_right ρ2 (p 0) z1.1 z2.1 z3.1
  have i16 := sb_schouten z2.2 ρ2 ρ3 z1.2
  have i17 := sb_schouten z2.2 ρ2 ρ3 z0.2
  have i18 := sb_schouten z1.2 z2.2 ρ2 z0.2
  have i19 := mb_schouten_left z0.2 ρ2 ρ3 (p 0) z2.1
  have i20 := mb_schouten_right z2.2 (p 0) z0.1 z2.1 z3.1
  have i21 := mb_schouten_left z1.2 z2.2 ρ3 (p 0) z2.1
  have i22 := mb_schouten_right ρ2 (p 0) z0.1 z2.1 z3.1
  have i23 := mb_schouten_left z1.2 z2.2 ρ2 (p 0) z2.1
  have i24 := mb_schouten_right ρ3 (p 0) z0.1 z2.1 z3.1
  have i25 := mb_schouten_right ρ3 (p 0) z1.1 z2.1 z3.1
  have i26 := sb_schouten z1.2 z2.2 ρ3 z0.2
  have i27 := sb_schouten z2.2 z3.2 ρ2 z1.2
  have i28 := sb_schouten z2.2 z3.2 ρ3 z1.2
  have i29 := mb_schouten_right z0.2 (p 1) z1.1 z2.1 z3.1
  have i30 := sb_schouten z2.2 z3.2 ρ2 z0.2
  have i31 := mb_schouten_right z2.2 (p 1) z1.1 z2.1 z3.1
  have i32 := mb_schouten_right z2.2 (p 0) z1.1 z2.1 z3.1
  have i33 := mb_schouten_left z0.2 z1.2 ρ3 (p 0) z2.1
  simp only [l2.mb_eq, l3.mb_eq, b0.mb_left, b0.mb_right, b1.mb_left, b1.mb_right, e20, e21, e30, e31, mb_one hb z0.2 z0.1, mb_one hb z0.2 z2.1, mb_one hb z0.2 z3.1, mb_nought hb z1.2 z1.1, mb_nought hb z1.2 z2.1, mb_nought hb z1.2 z3.1, mb_one hb z2.2 z0.1, mb_nought hb z2.2 z1.1, mb_one hb z2.2 z3.1, mb_one hb z3.2 z0.1, mb_nought hb z3.2 z1.1, mb_one hb z3.2 z2.1, mb_one hb ρ2 z0.1, mb_nought hb ρ2 z1.1, mb_one hb ρ2 z2.1, mb_one hb ρ2 z3.1, mb_one hb ρ3 z0.1, mb_nought hb ρ3 z1.1, mb_one hb ρ3 z2.1, mb_one hb ρ3 z3.1, ab_self, sb_self] at i0 i1 i2 i3 i4 i5 i6 i7 i8 i9 i10 i11 i12 i13 i14 i15 i16 i17 i18 i19 i20 i21 i22 i23 i24 i25 i26 i27 i28 i29 i30 i31 i32 i33 ⊢
  simp only [ab_swap z0.1 z1.1, ab_swap z0.1 z2.1, ab_swap z0.1 z3.1, ab_swap z1.1 z2.1, ab_swap z1.1 z3.1, ab_swap z2.1 z3.1, sb_swap z0.2 z1.2, sb_swap z0.2 z2.2, sb_swap z0.2 z3.2, sb_swap z0.2 ρ2, sb_swap z0.2 ρ3, sb_swap z1.2 z2.2, sb_swap z1.2 z3.2, sb_swap z1.2 ρ2, sb_swap z1.2 ρ3, sb_swap z2.2 z3.2, sb_swap z2.2 ρ2, sb_swap z2.2 ρ3, sb_swap z3.2 ρ2, sb_swap z3.2 ρ3, sb_swap ρ2 ρ3] at i0 i1 i2 i3 i4 i5 i6 i7 i8 i9 i10 i11 i12 i13 i14 i15 i16 i17 i18 i19 i20 i21 i22 i23 i24 i25 i26 i27 i28 i29 i30 i31 i32 i33 ⊢
  simp only [r0, r1, r2, Constants.hL, Constants.hR, Constants.gL, Constants.gR, Constants.yuk, Constants.invVev, Flavour.charge_d, Flavour.isospin_d, ← c.mz]
  have xMW : (c.MW : ℂ) ≠ 0 := by exact_mod_cast hc.MW
  have xSW : (c.SW : ℂ) ≠ 0 := by exact_mod_cast hc.SW
  have xCW : (c.CW : ℂ) ≠ 0 := by exact_mod_cast hc.CW
  have x2 : ((√2 : ℝ) : ℂ) ≠ 0 := by exact_mod_cast (Real.sqrt_pos.2 two_pos).ne'
  have x22 : ((√2 : ℝ) : ℂ) ^ 2 = 2 := by rw [← Complex.ofReal_pow, Real.sq_sqrt two_pos.le]; norm_num
  have x23 : ((√2 : ℝ) : ℂ) ^ 3 = 2 * ((√2 : ℝ) : ℂ) := by rw [← x22]; ring
  have x24 : ((√2 : ℝ) : ℂ) ^ 4 = 4 := by linear_combination (((√2 : ℝ) : ℂ) ^ 2 + 2) * x22
  push_cast at i0 i1 i2 i3 i4 i5 i6 i7 i8 i9 i10 i11 i12 i13 i14 i15 i16 i17 i18 i19 i20 i21 i22 i23 i24 i25 i26 i27 i28 i29 i30 i31 i32 i33 ⊢
  have y0 := mul_inv_cancel₀ n0
  have y1 := mul_inv_cancel₀ n1
  linear_combination ((((-4) * ((c.e : ℂ)) ^ 2 * ((c.mass .d : ℂ)) * (ab z2.1 z3.1) * (sb ρ2 ρ3)) * i0 + ((-4) * ((c.e : ℂ)) ^ 2 * (ab z2.1 z3.1) * (sb z1.2 z2.2) * (sb ρ2 ρ3) + (2) * ((c.e : ℂ)) ^ 2 * (ab z2.1 z3.1) * (sb z1.2 ρ2) * (sb z2.2 ρ3) + (2) * ((c.e : ℂ)) ^ 2 * (mb ρ2 (p 0) z3.1) * (sb z1.2 ρ3) + (-2) * ((c.e : ℂ)) ^ 2 * (mb ρ3 (p 0) z3.1) * (sb z1.2 ρ2)) * i1 + ((-2) * ((c.e : ℂ)) ^ 2 * (N.c 0) * (sb ρ2 ρ3) + (-2) * ((c.e : ℂ)) ^ 2 * (N.c 1) * (sb ρ2 ρ3) + (2) * ((c.e : ℂ)) ^ 2 * (ab z2.1 z3.1) * (sb z2.2 z3.2) * (sb ρ2 ρ3) + (2) * ((c.e : ℂ)) ^ 2 * (ab z2.1 z3.1) * (sb z2.2 ρ2) * (sb z3.2 ρ3) + (-2) * ((c.e : ℂ)) ^ 2 * (mb ρ3 (p 0) z2.1) * (sb z2.2 ρ2)) * i2 + ((6) * ((c.e : ℂ)) ^ 2 * ((c.mass .d : ℂ)) * (ab z2.1 z3.1) * (sb ρ2 ρ3)) * i3 + ((6) * ((c.e : ℂ)) ^ 2 * ((c.mass .d : ℂ)) * (N.c 0) * (sb ρ2 ρ3) + (4) * ((c.e : ℂ)) ^ 2 * ((c.mass .d : ℂ)) * (N.c 1) * (sb ρ2 ρ3)) * i4 + ((-4) * ((c.e : ℂ)) ^ 2 * (ab z2.1 z3.1) * (sb z1.2 z2.2) * (sb ρ2 ρ3) + (2) * ((c.e : ℂ)) ^ 2 * (ab z2.1 z3.1) * (sb z1.2 ρ2) * (sb z2.2 ρ3) + (2) * ((c.e : ℂ)) ^ 2 * (mb ρ2 (p 0) z3.1) * (sb z1.2 ρ3) + (-2) * ((c.e : ℂ)) ^ 2 * (mb ρ3 (p 0) z3.1) * (sb z1.2 ρ2)) * i5 + ((-4) * ((c.e : ℂ)) ^ 2 * ((c.mass .d : ℂ)) * (ab z0.1 z2.1) * (ab z1.1 z3.1) * (ab z2.1 z3.1)) * i6 + ((-2) * ((c.e : ℂ)) ^ 2 * ((c.mass .d : ℂ)) * (ab z1.1 z2.1) * (sb ρ2 ρ3) + (2) * ((c.e : ℂ)) ^ 2 * (ab z2.1 z3.1) * (sb z1.2 z3.2) * (sb ρ2 ρ3) + (-2) * ((c.e : ℂ)) ^ 2 * (mb ρ3 (p 0) z2.1) * (sb z1.2 ρ2)) * i7 + ((-2) * ((c.e : ℂ)) ^ 2 * ((c.mass .d : ℂ)) * (ab z2.1 z3.1) ^ 2 * (sb ρ2 ρ3)) * i8 + ((2) * ((c.e : ℂ)) ^ 2 * ((c.mass .d : ℂ)) * (ab z2.1 z3.1) ^ 2 * (sb z1.2 z2.2)) * i9 + ((4) * ((c.e : ℂ)) ^ 2 * (ab z1.1 z2.1) * (ab z2.1 z3.1) * (sb z2.2 ρ2) + (2) * ((c.e : ℂ)) ^ 2 * (ab z1.1 z2.1) * (mb ρ2 (p 0) z3.1) + (4) * ((c.e : ℂ)) ^ 2 * (ab z1.1 z3.1) * (ab z2.1 z3.1) * (sb z3.2 ρ2)) * i10 + ((-2) * ((c.e : ℂ)) ^ 2 * (ab z1.1 z2.1) * (ab z2.1 z3.1) * (sb z2.2 ρ3) + (-2) * ((c.e : ℂ)) ^ 2 * (ab z1.1 z2.1) * (mb ρ3 (p 0) z3.1) + (-2) * ((c.e : ℂ)) ^ 2 * (ab z1.1 z3.1) * (ab z2.1 z3.1) * (sb z3.2 ρ3)) * i11 + ((2) * ((c.e : ℂ)) ^ 2 * ((c.mass .d : ℂ)) * (ab z2.1 z3.1) * (sb z2.2 ρ3)) * i12 + ((4) * ((c.e : ℂ)) ^ 2 * ((c.mass .d : ℂ)) * (ab z2.1 z3.1) * (sb ρ2 ρ3)) * i13 + ((-2) * ((c.e : ℂ)) ^ 2 * ((c.mass .d : ℂ)) * (N.c 0) * (ab z2.1 z3.1) + (2) * ((c.e : ℂ)) ^ 2 * ((c.mass .d : ℂ)) * (N.c 1) * (ab z2.1 z3.1)) * i14 + ((-4) * ((c.e : ℂ)) ^ 2 * (N.c 0) * (sb z0.2 ρ3) + (-2) * ((c.e : ℂ)) ^ 2 * (mb ρ3 (p 0) z2.1) * (sb z0.2 z2.2)) * i15 + ((2) * ((c.e : ℂ)) ^ 2 * ((c.mass .d : ℂ)) ^ 2 * (ab z0.1 z2.1) * (ab z2.1 z3.1) + (-2) * ((c.e : ℂ)) ^ 2 * (N.c 0) * (ab z0.1 z2.1) * (ab z2.1 z3.1) + (-2) * ((c.e : ℂ)) ^ 2 * (N.c 1) * (ab z0.1 z2.1) * (ab z2.1 z3.1) + (2) * ((c.e : ℂ)) ^ 2 * (ab z0.1 z2.1) * (ab z2.1 z3.1) ^ 2 * (sb z2.2 z3.2)) * i16 + ((2) * ((c.e : ℂ)) ^ 2 * ((c.mass .d : ℂ)) * (ab z2.1 z3.1) ^ 2 * (sb z1.2 z3.2) + (2) * ((c.e : ℂ)) ^ 2 * ((c.mass .d : ℂ)) ^ 2 * (ab z1.1 z2.1) * (ab z2.1 z3.1)) * i17 + ((2) * ((c.e : ℂ)) ^ 2 * ((c.mass .d : ℂ)) * (ab z2.1 z3.1) * (mb ρ3 (p 0) z2.1)) * i18 + ((4) * ((c.e : ℂ)) ^ 2 * (N.c 0) * (ab z1.1 z3.1)) * i19 + ((-2) * ((c.e : ℂ)) ^ 2 * ((c.mass .d : ℂ)) * (ab z1.1 z2.1) * (sb ρ2 ρ3) + (2) * ((c.e : ℂ)) ^ 2 * (ab z2.1 z3.1) * (sb z1.2 z3.2) * (sb ρ2 ρ3) + (-2) * ((c.e : ℂ)) ^ 2 * (mb ρ3 (p 0) z2.1) * (sb z1.2 ρ2)) * i20 + ((2) * ((c.e : ℂ)) ^ 2 * (ab z0.1 z2.1) * (ab z2.1 z3.1) * (sb z2.2 ρ2) + (2) * ((c.e : ℂ)) ^ 2 * (ab z0.1 z2.1) * (mb ρ2 (p 0) z3.1)) * i21 + ((2) * ((c.e : ℂ)) ^ 2 * (ab z2.1 z3.1) * (sb z1.2 z2.2) * (sb z3.2 ρ3) + (-2) * ((c.e : ℂ)) ^ 2 * (mb ρ3 (p 0) z2.1) * (sb z1.2 z2.2)) * i22 + ((-2) * ((c.e : ℂ)) ^ 2 * (ab z0.1 z2.1) * (mb ρ3 (p 0) z3.1) + (2) * ((c.e : ℂ)) ^ 2 * (ab z0.1 z3.1) * (ab z2.1 z3.1) * (sb z3.2 ρ3)) * i23 + ((-2) * ((c.e : ℂ)) ^ 2 * (N.c 1) * (sb z1.2 ρ2) + (-2) * ((c.e : ℂ)) ^ 2 * (ab z2.1 z3.1) * (sb z1.2 z2.2) * (sb z3.2 ρ2) + (2) * ((c.e : ℂ)) ^ 2 * (mb ρ2 (p 0) z2.1) * (sb z1.2 z2.2)) * i24 + ((2) * ((c.e : ℂ)) ^ 2 * (N.c 0) * (sb z0.2 ρ2) + (2) * ((c.e : ℂ)) ^ 2 * (mb ρ2 (p 0) z2.1) * (sb z0.2 z2.2)) * i25 + ((-2) * ((c.e : ℂ)) ^ 2 * ((c.mass .d : ℂ)) * (ab z2.1 z3.1) * (mb ρ2 (p 0) z2.1)) * i26 + ((2) * ((c.e : ℂ)) ^ 2 * (ab z0.1 z2.1) * (ab z2.1 z3.1) * (mb ρ3 (p 0) z3.1) + (-2) * ((c.e : ℂ)) ^ 2 * (ab z0.1 z3.1) * (ab z2.1 z3.1) * (mb ρ3 (p 0) z2.1)) * i27 + ((-2) * ((c.e : ℂ)) ^ 2 * (ab z0.1 z2.1) * (ab z2.1 z3.1) * (mb ρ2 (p 0) z3.1) + (-2) * ((c.e : ℂ)) ^ 2 * (ab z0.1 z2.1) * (ab z2.1 z3.1) ^ 2 * (sb z2.2 ρ2)) * i28 + ((-2) * ((c.e : ℂ)) ^ 2 * (mb ρ3 (p 0) z2.1) * (sb z2.2 ρ2)) * i29 + ((-2) * ((c.e : ℂ)) ^ 2 * (ab z1.1 z3.1) * (ab z2.1 z3.1) * (mb ρ3 (p 0) z2.1)) * i30 + ((-2) * ((c.e : ℂ)) ^ 2 * (mb ρ3 (p 0) z2.1) * (sb z0.2 ρ2)) * i31 + ((-2) * ((c.e : ℂ)) ^ 2 * (mb ρ3 (p 0) z2.1) * (sb z0.2 ρ2)) * i32 + ((-2) * ((c.e : ℂ)) ^ 2 * ((c.mass .d : ℂ)) * (ab z2.1 z3.1) * (sb z2.2 ρ2)) * i33)) * ((1) * ((N.c 0)⁻¹) * ((N.c 1)⁻¹) / (9)) + ((-2) * ((c.e : ℂ)) ^ 2 * ((c.mass .d : ℂ)) * ((N.c 1)⁻¹) * (ab z0.1 z3.1) * (ab z1.1 z2.1) * (sb ρ2 ρ3) / (9) + (-2) * ((c.e : ℂ)) ^ 2 * ((c.mass .d : ℂ)) * ((N.c 1)⁻¹) * (ab z2.1 z3.1) * (sb z0.2 ρ3) * (sb z1.2 ρ2) / (9) + (-2) * ((c.e : ℂ)) ^ 2 * ((N.c 1)⁻¹) * (ab z0.1 z3.1) * (ab z2.1 z3.1) * (sb z1.2 ρ2) * (sb z3.2 ρ3) / (9) + (2) * ((c.e : ℂ)) ^ 2 * ((N.c 1)⁻¹) * (ab z0.1 z3.1) * (mb ρ3 (p 0) z2.1) * (sb z1.2 ρ2) / (9) + (2) * ((c.e : ℂ)) ^ 2 * ((N.c 1)⁻¹) * (ab z1.1 z2.1) * (mb ρ2 (p 0) z3.1) * (sb z0.2 ρ3) / (9)) * y0 + ((2) * ((c.e : ℂ)) ^ 2 * ((c.mass .d : ℂ)) * ((N.c 0)⁻¹) * (ab z0.1 z2.1) * (ab z1.1 z3.1) * (sb ρ2 ρ3) / (9) + (2) * ((c.e : ℂ)) ^ 2 * ((c.mass .d : ℂ)) * ((N.c 0)⁻¹) * (ab z2.1 z3.1) * (sb z0.2 ρ2) * (sb z1.2 ρ3) / (9) + (2) * ((c.e : ℂ)) ^ 2 * ((N.c 0)⁻¹) * (ab z0.1 z2.1) * (ab z2.1 z3.1) * (sb z1.2 ρ3) * (sb z2.2 ρ2) / (9) + (2) * ((c.e : ℂ)) ^ 2 * ((N.c 0)⁻¹) * (ab z0.1 z2.1) * (mb ρ2 (p 0) z3.1) * (sb z1.2 ρ3) / (9) + (2) * ((c.e : ℂ)) ^ 2 * ((N.c 0)⁻¹) * (ab z1.1 z3.1) * (mb ρ3 (p 0) z2.1) * (sb z0.2 ρ2) / (9)) * y1 + ((-1) * ((c.e : ℂ)) ^ 2 * ((c.mass .d : ℂ)) * ((N.c 0)⁻¹) * (ab z0.1 z2.1) * (ab z1.1 z3.1) * (sb ρ2 ρ3) / (9) + (-1) * ((c.e : ℂ)) ^ 2 * ((c.mass .d : ℂ)) * ((N.c 0)⁻¹) * (ab z2.1 z3.1) * (sb z0.2 ρ2) * (sb z1.2 ρ3) / (9) + (1) * ((c.e : ℂ)) ^ 2 * ((c.mass .d : ℂ)) * ((N.c 1)⁻¹) * (ab z0.1 z3.1) * (ab z1.1 z2.1) * (sb ρ2 ρ3) / (9) + (1) * ((c.e : ℂ)) ^ 2 * ((c.mass .d : ℂ)) * ((N.c 1)⁻¹) * (ab z2.1 z3.1) * (sb z0.2 ρ3) * (sb z1.2 ρ2) / (9) + (-1) * ((c.e : ℂ)) ^ 2 * ((N.c 0)⁻¹) * (ab z0.1 z2.1) * (ab z2.1 z3.1) * (sb z1.2 ρ3) * (sb z2.2 ρ2) / (9) + (-1) * ((c.e : ℂ)) ^ 2 * ((N.c 0)⁻¹) * (ab z0.1 z2.1) * (mb ρ2 (p 0) z3.1) * (sb z1.2 ρ3) / (9) + (-1) * ((c.e : ℂ)) ^ 2 * ((N.c 0)⁻¹) * (ab z1.1 z3.1) * (mb ρ3 (p 0) z2.1) * (sb z0.2 ρ2) / (9) + (1) * ((c.e : ℂ)) ^ 2 * ((N.c 1)⁻¹) * (ab z0.1 z3.1) * (ab z2.1 z3.1) * (sb z1.2 ρ2) * (sb z3.2 ρ3) / (9) + (-1) * ((c.e : ℂ)) ^ 2 * ((N.c 1)⁻¹) * (ab z0.1 z3.1) * (mb ρ3 (p 0) z2.1) * (sb z1.2 ρ2) / (9) + (-1) * ((c.e : ℂ)) ^ 2 * ((N.c 1)⁻¹) * (ab z1.1 z2.1) * (mb ρ2 (p 0) z3.1) * (sb z0.2 ρ3) / (9)) * x22
set_option maxRecDepth 8000 in
theorem ddAA.amp2_eq (N : Env) (f : Nat → List Int → ℂ) : Cls.ddAA.m_amp2.mean N f .r [] =
    ((sumJ (fun x a => (sumJ (fun x b => (sumW (fun x c => (sumW (fun x d => (x + (((3 : Nat) : ℝ) * (‖(f 0 [a, b, c, d])‖ ^ 2)))) x)) x)) x)) ((0 : Nat) : ℝ)) / ((72 : Nat) : ℝ)) := by rfl
set_option maxRecDepth 8000 in
theorem ddAA.value (N : Env) : meaning N .r Cls.ddAA.methods Cls.ddAA.amp2 [] =
    ((sumJ (fun x a => (sumJ (fun x b => (sumW (fun x c => (sumW (fun x d => (x + (((3 : Nat) : ℝ) * (‖(Cls.ddAA.m_amp.mean N (callMean N []) .c [a, b, c, d])‖ ^ 2)))) x)) x)) x)) ((0 : Nat) : ℝ)) / ((72 : Nat) : ℝ)) :=
  ddAA.amp2_eq N (callMean N [Cls.ddAA.m_amp])
set_option maxRecDepth 8000 in
theorem ddAA.ampPP (N : Env) (f : Nat → List Int → ℂ) (j1 j2 : Int) : Cls.ddAA.m_amp.mean N f .c [j1, j2, 2, 2] = ddAA.termPP N j1 j2 := by rfl
set_option maxRecDepth 8000 in
theorem ddAA.ampPM (N : Env) (f : Nat → List Int → ℂ) (j1 j2 : Int) : Cls.ddAA.m_amp.mean N f .c [j1, j2, 2, (-2)] = ddAA.termPM N j1 j2 := by rfl
set_option maxRecDepth 8000 in
theorem ddAA.ampMP (N : Env) (f : Nat → List Int → ℂ) (j1 j2 : Int) : Cls.ddAA.m_amp.mean N f .c [j1, j2, (-2), 2] = ddAA.termMP N j1 j2 := by rfl
set_option maxRecDepth 8000 in
theorem ddAA.ampMM (N : Env) (f : Nat → List Int → ℂ) (j1 j2 : Int) : Cls.ddAA.m_amp.mean N f .c [j1, j2, (-2), (-2)] = ddAA.termMM N j1 j2 := by rfl

theorem ddAA.mass_eq {c : Constants} (hc : c.Physical) (i : Fin 4) : ddAA.proc.massNum (ddAA.rho c) i = ddAA.react.mass c i := by
  fin_cases i <;> first | rfl | exact Nat.cast_zero | exact Nat.cast_zero.trans (hc.neutrino _).symm | (show c.MW / √(((1 : Nat) : ℝ) - c.SW * c.SW) = c.MZ; rw [c.root, c.mz])

variable [FPEnv] in
theorem ddAA.agrees : ddAA.Agrees := by
  refine agrees_of (D := []) (E := []) (by simp [all, ddAA]) (by decide +kernel) (by decide) (by decide +kernel) (fun c hc hh => ⟨List.forall_mem_nil _, List.forall_mem_nil _⟩) (fun c hc i => ddAA.mass_eq hc i) (by decide +kernel) ?_
  intro c p u ε hc hh hw h0 hs hb hr hu
  have he : ddAA.react.ends = [1] := by decide
  have ht : ddAA.react.starts = [0] := by decide
  have hB : ddAA.react.bosons = [2, 3] := by decide
  obtain ⟨f1, f2, f3⟩ := ddAA.react.regular_line he ht hB hr
  have r0 : (ddAA.N c p).r 0 = c.e := rfl
  have r1 : (ddAA.N c p).r 1 = ((-((1 : Nat) : ℝ)) / ((3 : Nat) : ℝ)) := rfl
  have r2 : (ddAA.N c p).r 2 = (c.mass .d) := rfl
  have c0 : (ddAA.N c p).c 0 = poleDist (c.mass .d) ((0 : Nat) : ℝ) ((VExp.sub 0 2).sum p) := rfl
  rw [Nat.cast_zero, pole_fermion rfl] at c0
  have d0 : ((msq (plus (p 0) (backward (p 2))) - c.mass .d ^ 2 : ℝ) : ℂ) = (ddAA.N c p).c 0 := by rw [c0, msq_t hb (plus (p 0) (backward (p 2))) (by simp)]
  have n0 : (ddAA.N c p).c 0 ≠ 0 := by rw [← d0]; exact_mod_cast f1 .d rfl rfl
  have c1 : (ddAA.N c p).c 1 = poleDist (c.mass .d) ((0 : Nat) : ℝ) ((VExp.sub 0 3).sum p) := rfl
  rw [Nat.cast_zero, pole_fermion rfl] at c1
  have d1 : ((msq (plus (p 0) (backward (p 3))) - c.mass .d ^ 2 : ℝ) : ℂ) = (ddAA.N c p).c 1 := by rw [c1, msq_u hb (plus (p 0) (backward (p 3))) (by simp)]
  have n1 : (ddAA.N c p).c 1 ≠ 0 := by rw [← d1]; exact_mod_cast f2 .d rfl rfl
  obtain ⟨l2, x2, y2⟩ := ddAA.react.code_light hs hu (n := 2) rfl rfl
  obtain ⟨l3, x3, y3⟩ := ddAA.react.code_light hs hu (n := 3) rfl rfl
  have e20 := l2.pole_sub' (m := (c.mass .d)) (onShell_msq (hs 0)) (msq_t hb (plus (p 0) (backward (p 2))) (by simp)) c0
  have e21 := l2.pole_sub' (m := (c.mass .d)) (onShell_msq (hs 1)) (msq_u hb (plus (p 1) (backward (p 2))) (by simp)) c1
  have e30 := l3.pole_sub' (m := (c.mass .d)) (onShell_msq (hs 0)) (msq_u hb (plus (p 0) (backward (p 3))) (by simp)) c1
  have e31 := l3.pole_sub' (m := (c.mass .d)) (onShell_msq (hs 1)) (msq_t hb (plus (p 1) (backward (p 3))) (by simp)) c0
  have m0 : ddAA.react.mass c 0 ≠ 0 := (leg_pos hc hh (by decide)).ne'
  have m1 : ddAA.react.mass c 1 ≠ 0 := (leg_pos hc hh (by decide)).ne'
  have m2 : ddAA.react.mass c 2 = 0 := rfl
  have m3 : ddAA.react.mass c 3 = 0 := rfl
  have hd : ddAA.proc.divides = [(Ty.c, 0), (Ty.c, 1)] := by decide +kernel
  refine ⟨fun n hn => ?_, fun n hn => ?_, ?_⟩
  · simp [hd] at hn
  · simp [hd] at hn
    rcases hn with rfl | rfl
    · exact n0
    · exact n1
  have stPP : ∀ {z0 z1 : Pair} (b0 : Bold (p 0) (ddAA.react.mass c 0) z0) (b1 : Bold (p 1) (ddAA.react.mass c 1) z1), ddAA.formPP (ddAA.N c p) p z0 z1 (legA (p 2) 0 0, legS (p 2) 0 1) (legA (p 3) 0 0, legS (p 3) 0 1) = (-1) * ddAA.react.bare c p 1 0 2 3 z1 z0 (lightE (legA (p 2) 0 0, legS (p 2) 0 1) 1) (lightE (legA (p 3) 0 0, legS (p 3) 0 1) 1) := by
    intro z0 z1 b0 b1
    exact (light_plus (z := (legA (p 2) 0 0, legS (p 2) 0 1)) (G := fun E => ddAA.react.bare c p 1 0 2 3 z1 z0 E (lightE (legA (p 3) 0 0, legS (p 3) 0 1) 1)) (ddAA.react.bare_lin₁ c p _ _ _ (by decide)) x2 (light_plus (z := (legA (p 3) 0 0, legS (p 3) 0 1)) (G := fun E => ddAA.react.bare c p 1 0 2 3 z1 z0 (pv (legA (p 2) 0 0, legS (p 2) 0 1).2 (legA (p 2) 0 0, legS (p 2) 0 1).2) E) (ddAA.react.bare_lin₂ c p _ _ _ (by decide)) x3 (ddAA.keyPP hc hb r0 r1 r2 d0 n0 d1 n1 b0 b1 l2 l3 e20 e21 e30 e31 (onShell_msq (hs 0)) (onShell_msq (hs 1)) _ _)))
  have stPM : ∀ {z0 z1 : Pair} (b0 : Bold (p 0) (ddAA.react.mass c 0) z0) (b1 : Bold (p 1) (ddAA.react.mass c 1) z1), ddAA.formPM (ddAA.N c p) p z0 z1 (legA (p 2) 0 0, legS (p 2) 0 1) (legA (p 3) 0 0, legS (p 3) 0 1) = 1 * ddAA.react.bare c p 1 0 2 3 z1 z0 (lightE (legA (p 2) 0 0, legS (p 2) 0 1) 1) (lightE (legA (p 3) 0 0, legS (p 3) 0 1) 0) := by
    intro z0 z1 b0 b1
    exact (light_plus (z := (legA (p 2) 0 0, legS (p 2) 0 1)) (G := fun E => ddAA.react.bare c p 1 0 2 3 z1 z0 E (lightE (legA (p 3) 0 0, legS (p 3) 0 1) 0)) (ddAA.react.bare_lin₁ c p _ _ _ (by decide)) x2 (light_minus (z := (legA (p 3) 0 0, legS (p 3) 0 1)) (G := fun E => ddAA.react.bare c p 1 0 2 3 z1 z0 (pv (legA (p 2) 0 0, legS (p 2) 0 1).2 (legA (p 2) 0 0, legS (p 2) 0 1).2) E) (ddAA.react.bare_lin₂ c p _ _ _ (by decide)) y3 (ddAA.keyPM hc hb r0 r1 d0 n0 d1 n1 b0 b1 l2 l3 e20 e21 e30 e31 (onShell_msq (hs 0)) (onShell_msq (hs 1)) _ _)))
  have stMP : ∀ {z0 z1 : Pair} (b0 : Bold (p 0) (ddAA.react.mass c 0) z0) (b1 : Bold (p 1) (ddAA.react.mass c 1) z1), ddAA.formMP (ddAA.N c p) p z0 z1 (legA (p 2) 0 0, legS (p 2) 0 1) (legA (p 3) 0 0, legS (p 3) 0 1) = 1 * ddAA.react.bare c p 1 0 2 3 z1 z0 (lightE (legA (p 2) 0 0, legS (p 2) 0 1) 0) (lightE (legA (p 3) 0 0, legS (p 3) 0 1) 1) := by
    intro z0 z1 b0 b1
    exact (light_minus (z := (legA (p 2) 0 0, legS (p 2) 0 1)) (G := fun E => ddAA.react.bare c p 1 0 2 3 z1 z0 E (lightE (legA (p 3) 0 0, legS (p 3) 0 1) 1)) (ddAA.react.bare_lin₁ c p _ _ _ (by decide)) y2 (light_plus (z := (legA (p 3) 0 0, legS (p 3) 0 1)) (G := fun E => ddAA.react.bare c p 1 0 2 3 z1 z0 (pv (legA (p 2) 0 0, legS (p 2) 0 1).1 (legA (p 2) 0 0, legS (p 2) 0 1).1) E) (ddAA.react.bare_lin₂ c p _ _ _ (by decide)) x3 (ddAA.keyMP hc hb r0 r1 d0 n0 d1 n1 b0 b1 l2 l3 e20 e21 e30 e31 (onShell_msq (hs 0)) (onShell_msq (hs 1)) _ _)))
  have stMM : ∀ {z0 z1 : Pair} (b0 : Bold (p 0) (ddAA.react.mass c 0) z0) (b1 : Bold (p 1) (ddAA.react.mass c 1) z1), ddAA.formMM (ddAA.N c p) p z0 z1 (legA (p 2) 0 0, legS (p 2) 0 1) (legA (p 3) 0 0, legS (p 3) 0 1) = (-1) * ddAA.react.bare c p 1 0 2 3 z1 z0 (lightE (legA (p 2) 0 0, legS (p 2) 0 1) 0) (lightE (legA (p 3) 0 0, legS (p 3) 0 1) 0) := by
    intro z0 z1 b0 b1
    exact (light_minus (z := (legA (p 2) 0 0, legS (p 2) 0 1)) (G := fun E => ddAA.react.bare c p 1 0 2 3 z1 z0 E (lightE (legA (p 3) 0 0, legS (p 3) 0 1) 0)) (ddAA.react.bare_lin₁ c p _ _ _ (by decide)) y2 (light_minus (z := (legA (p 3) 0 0, legS (p 3) 0 1)) (G := fun E => ddAA.react.bare c p 1 0 2 3 z1 z0 (pv (legA (p 2) 0 0, legS (p 2) 0 1).1 (legA (p 2) 0 0, legS (p 2) 0 1).1) E) (ddAA.react.bare_lin₂ c p _ _ _ (by decide)) y3 (ddAA.keyMM hc hb r0 r1 r2 d0 n0 d1 n1 b0 b1 l2 l3 e20 e21 e30 e31 (onShell_msq (hs 0)) (onShell_msq (hs 1)) _ _)))
  have amPP : ∀ (s0 : Fin 2) (s1 : Fin 2), Cls.ddAA.m_amp.mean (ddAA.N c p) (callMean (ddAA.N c p) []) .c [spinOf s0, spinOf s1, 2, 2] = (-1) * ddAA.react.bare c p 1 0 2 3 (ddAA.react.codePair c p 1 s1) (ddAA.react.codePair c p 0 s0) (lightE (legA (p 2) 0 0, legS (p 2) 0 1) 1) (lightE (legA (p 3) 0 0, legS (p 3) 0 1) 1) := by
    intro s0 s1
    rw [ddAA.ampPP, ← stPP (ddAA.react.codePair_bold hs h0 0 s0) (ddAA.react.codePair_bold hs h0 1 s1)]
    have v0z2z3 : (ddAA.N c p).v 0 [] = sb (legA (p 2) 0 0, legS (p 2) 0 1).2 (legA (p 3) 0 0, legS (p 3) 0 1).2 := bra_square (p := p) (m := ddAA.proc.massNum (ddAA.rho c)) (ddAA.mass_eq hc 2) (ddAA.mass_eq hc 3) (.inr ⟨m2, rfl⟩) (.inr ⟨m3, rfl⟩)
    have v3z0z1 : (ddAA.N c p).v 3 [spinOf s0, spinOf s1] = ab (ddAA.react.codePair c p 0 s0).1 (ddAA.react.codePair c p 1 s1).1 := bra_angle (p := p) (m := ddAA.proc.massNum (ddAA.rho c)) (ddAA.mass_eq hc 0) (ddAA.mass_eq hc 1) (.inl ⟨m0, rfl⟩) (.inl ⟨m1, rfl⟩)
    simp only [ddAA.termPP, ddAA.formPP, v0z2z3, v3z0z1]
  have amPM : ∀ (s0 : Fin 2) (s1 : Fin 2), Cls.ddAA.m_amp.mean (ddAA.N c p) (callMean (ddAA.N c p) []) .c [spinOf s0, spinOf s1, 2, (-2)] = 1 * ddAA.react.bare c p 1 0 2 3 (ddAA.react.codePair c p 1 s1) (ddAA.react.codePair c p 0 s0) (lightE (legA (p 2) 0 0, legS (p 2) 0 1) 1) (lightE (legA (p 3) 0 0, legS (p 3) 0 1) 0) := by
    intro s0 s1
    rw [ddAA.ampPM, ← stPM (ddAA.react.codePair_bold hs h0 0 s0) (ddAA.react.codePair_bold hs h0 1 s1)]
    have v4z0z2 : (ddAA.N c p).v 4 [spinOf s0] = sb (ddAA.react.codePair c p 0 s0).2 (legA (p 2) 0 0, legS (p 2) 0 1).2 := bra_square (p := p) (m := ddAA.proc.massNum (ddAA.rho c)) (ddAA.mass_eq hc 0) (ddAA.mass_eq hc 2) (.inl ⟨m0, rfl⟩) (.inr ⟨m2, rfl⟩)
    have v7z1z3 : (ddAA.N c p).v 7 [spinOf s1] = ab (ddAA.react.codePair c p 1 s1).1 (legA (p 3) 0 0, legS (p 3) 0 1).1 := bra_angle (p := p) (m := ddAA.proc.massNum (ddAA.rho c)) (ddAA.mass_eq hc 1) (ddAA.mass_eq hc 3) (.inl ⟨m1, rfl⟩) (.inr ⟨m3, rfl⟩)
    have v8z1z2 : (ddAA.N c p).v 8 [spinOf s1] = sb (ddAA.react.codePair c p 1 s1).2 (legA (p 2) 0 0, legS (p 2) 0 1).2 := bra_square (p := p) (m := ddAA.proc.massNum (ddAA.rho c)) (ddAA.mass_eq hc 1) (ddAA.mass_eq hc 2) (.inl ⟨m1, rfl⟩) (.inr ⟨m2, rfl⟩)
    have v11z0z3 : (ddAA.N c p).v 11 [spinOf s0] = ab (ddAA.react.codePair c p 0 s0).1 (legA (p 3) 0 0, legS (p 3) 0 1).1 := bra_angle (p := p) (m := ddAA.proc.massNum (ddAA.rho c)) (ddAA.mass_eq hc 0) (ddAA.mass_eq hc 3) (.inl ⟨m0, rfl⟩) (.inr ⟨m3, rfl⟩)
    have v12z2z3 : (ddAA.N c p).v 12 [] = mb (legA (p 2) 0 0, legS (p 2) 0 1).2 (p 0) (legA (p 3) 0 0, legS (p 3) 0 1).1 := bra_mid_square (p := p) (m := ddAA.proc.massNum (ddAA.rho c)) (ddAA.mass_eq hc 2) (ddAA.mass_eq hc 3) (.inr ⟨m2, rfl⟩) (.inr ⟨m3, rfl⟩)
    simp only [ddAA.termPM, ddAA.formPM, v4z0z2, v7z1z3, v8z1z2, v11z0z3, v12z2z3]
  have amMP : ∀ (s0 : Fin 2) (s1 : Fin 2), Cls.ddAA.m_amp.mean (ddAA.N c p) (callMean (ddAA.N c p) []) .c [spinOf s0, spinOf s1, (-2), 2] = 1 * ddAA.react.bare c p 1 0 2 3 (ddAA.react.codePair c p 1 s1) (ddAA.react.codePair c p 0 s0) (lightE (legA (p 2) 0 0, legS (p 2) 0 1) 0) (lightE (legA (p 3) 0 0, legS (p 3) 0 1) 1) := by
    intro s0 s1
    rw [ddAA.ampMP, ← stMP (ddAA.react.codePair_bold hs h0 0 s0) (ddAA.react.codePair_bold hs h0 1 s1)]
    have v5z0z2 : (ddAA.N c p).v 5 [spinOf s0] = ab (ddAA.react.codePair c p 0 s0).1 (legA (p 2) 0 0, legS (p 2) 0 1).1 := bra_angle (p := p) (m := ddAA.proc.massNum (ddAA.rho c)) (ddAA.mass_eq hc 0) (ddAA.mass_eq hc 2) (.inl ⟨m0, rfl⟩) (.inr ⟨m2, rfl⟩)
    have v6z1z3 : (ddAA.N c p).v 6 [spinOf s1] = sb (ddAA.react.codePair c p 1 s1).2 (legA (p 3) 0 0, legS (p 3) 0 1).2 := bra_square (p := p) (m := ddAA.proc.massNum (ddAA.rho c)) (ddAA.mass_eq hc 1) (ddAA.mass_eq hc 3) (.inl ⟨m1, rfl⟩) (.inr ⟨m3, rfl⟩)
    have v9z1z2 : (ddAA.N c p).v 9 [spinOf s1] = ab (ddAA.react.codePair c p 1 s1).1 (legA (p 2) 0 0, legS (p 2) 0 1).1 := bra_angle (p := p) (m := ddAA.proc.massNum (ddAA.rho c)) (ddAA.mass_eq hc 1) (ddAA.mass_eq hc 2) (.inl ⟨m1, rfl⟩) (.inr ⟨m2, rfl⟩)
    have v10z0z3 : (ddAA.N c p).v 10 [spinOf s0] = sb (ddAA.react.codePair c p 0 s0).2 (legA (p 3) 0 0, legS (p 3) 0 1).2 := bra_square (p := p) (m := ddAA.proc.massNum (ddAA.rho c)) (ddAA.mass_eq hc 0) (ddAA.mass_eq hc 3) (.inl ⟨m0, rfl⟩) (.inr ⟨m3, rfl⟩)
    have v13z3z2 : (ddAA.N c p).v 13 [] = mb (legA (p 3) 0 0, legS (p 3) 0 1).2 (p 0) (legA (p 2) 0 0, legS (p 2) 0 1).1 := bra_mid_square (p := p) (m := ddAA.proc.massNum (ddAA.rho c)) (ddAA.mass_eq hc 3) (ddAA.mass_eq hc 2) (.inr ⟨m3, rfl⟩) (.inr ⟨m2, rfl⟩)
    simp only [ddAA.termMP, ddAA.formMP, v5z0z2, v6z1z3, v9z1z2, v10z0z3, v13z3z2]
  have amMM : ∀ (s0 : Fin 2) (s1 : Fin 2), Cls.ddAA.m_amp.mean (ddAA.N c p) (callMean (ddAA.N c p) []) .c [spinOf s0, spinOf s1, (-2), (-2)] = (-1) * ddAA.react.bare c p 1 0 2 3 (ddAA.react.codePair c p 1 s1) (ddAA.react.codePair c p 0 s0) (lightE (legA (p 2) 0 0, legS (p 2) 0 1) 0) (lightE (legA (p 3) 0 0, legS (p 3) 0 1) 0) := by
    intro s0 s1
    rw [ddAA.ampMM, ← stMM (ddAA.react.codePair_bold hs h0 0 s0) (ddAA.react.codePair_bold hs h0 1 s1)]
    have v1z2z3 : (ddAA.N c p).v 1 [] = ab (legA (p 2) 0 0, legS (p 2) 0 1).1 (legA (p 3) 0 0, legS (p 3) 0 1).1 := bra_angle (p := p) (m := ddAA.proc.massNum (ddAA.rho c)) (ddAA.mass_eq hc 2) (ddAA.mass_eq hc 3) (.inr ⟨m2, rfl⟩) (.inr ⟨m3, rfl⟩)
    have v2z0z1 : (ddAA.N c p).v 2 [spinOf s0, spinOf s1] = sb (ddAA.react.codePair c p 0 s0).2 (ddAA.react.codePair c p 1 s1).2 := bra_square (p := p) (m := ddAA.proc.massNum (ddAA.rho c)) (ddAA.mass_eq hc 0) (ddAA.mass_eq hc 1) (.inl ⟨m0, rfl⟩) (.inl ⟨m1, rfl⟩)
    simp only [ddAA.termMM, ddAA.formMM, v1z2z3, v2z0z1]
  have am : ∀ (s0 : Fin 2) (s1 : Fin 2) (h2 : Fin 2) (h3 : Fin 2), ‖Cls.ddAA.m_amp.mean (ddAA.N c p) (callMean (ddAA.N c p) []) .c [spinOf s0, spinOf s1, spinW h2, spinW h3]‖ = ‖ddAA.react.bare c p 1 0 2 3 (ddAA.react.codePair c p 1 s1) (ddAA.react.codePair c p 0 s0) (lightE (legA (p 2) 0 0, legS (p 2) 0 1) h2.castSucc) (lightE (legA (p 3) 0 0, legS (p 3) 0 1) h3.castSucc)‖ := by
    intro s0 s1 h2 h3
    match h2, h3 with
    | 1, 1 => exact norm_minus (amPP s0 s1)
    | 1, 0 => exact norm_plus (amPM s0 s1)
    | 0, 1 => exact norm_plus (amMP s0 s1)
    | 0, 0 => exact norm_minus (amMM s0 s1)
  show meaning (ddAA.N c p) .r Cls.ddAA.methods Cls.ddAA.amp2 [] = _
  have s0 : ddAA.react.states 0 = 6 := by decide +kernel
  have s1 : ddAA.react.states 1 = 6 := by decide +kernel
  have sy : ddAA.react.symmetry = 2 := by decide
  have p0 : ddAA.react.spins 0 = {0, 1} := rfl
  have p1 : ddAA.react.spins 1 = {0, 1} := rfl
  have p2 : ddAA.react.spins 2 = {0, 1} := rfl
  have p3 : ddAA.react.spins 3 = {0, 1} := rfl
  have E2 : ddAA.react.codeE c p 2 = lightE (legA (p 2) 0 0, legS (p 2) 0 1) := rfl
  have E3 : ddAA.react.codeE c p 3 = lightE (legA (p 3) 0 0, legS (p 3) 0 1) := rfl
  have hG : ddAA.react.Gauge c p := (ddAA.react.gauge_line he ht hB hh (by decide) (fun n => onShell_msq (hs n)) hb hr (fun n m h h2 => absurd (And.intro h h2) (by revert n m; decide)) (fun _ => ⟨rfl, rfl⟩) (fun _ => ⟨rfl, rfl⟩))
  have lc : ddAA.react.lineColours 1 0 = 3 := by decide +kernel
  rw [ddAA.value, ddAA.react.squared_line he ht hB (by decide) hs h0 (fun _ b _ hb _ => (boson_pos hc hh hb).ne') hG (E := ddAA.react.codeE c p) (fun n b hl => ddAA.react.codeE_polarised hs h0 hu (fun b hb => (boson_pos hc hh hb).ne') n b hl) hu, sum_colours, lc, s0, s1, sy]
  simp only [sumV_sum, sumJ_sum, sumW_sum, am, p0, p1, p2, p3, E2, E3, Finset.sum_singleton, sum_two, Matrix.cons_val_zero, Matrix.cons_val_one, Matrix.cons_val, two_castSucc]
  try simp only [← Finset.mul_sum]
  push_cast
  first | ring1 | ring_nf

/-! ### eeAA -/

/-- what the methods of the class see -/
noncomputable abbrev eeAA.N [FPEnv] (c : Constants) (p : Nat → V4 ℝ) : Env := eeAA.proc.env (eeAA.rho c) p
/-- `amp` for a photon of positive helicity and a photon of positive helicity (SM/eeAA.cpp) -/
noncomputable def eeAA.termPP (N : Env) (j1 j2 : Int) : ℂ :=
  ((((((((((((2 : Nat) : ℝ) * N.r 0) * N.r 0) * N.r 1) : ℝ) : ℂ) * N.v 0 []) * N.v 0 []) * N.v 3 [j1, j2]) / N.c 0) / N.c 1)
/-- the same with spinors in place of their spins -/
noncomputable def eeAA.formPP (N : Env) (p : Nat → V4 ℝ) (z0 z1 z2 z3 : Pair) : ℂ :=
  ((((((((((((2 : Nat) : ℝ) * N.r 0) * N.r 0) * N.r 1) : ℝ) : ℂ) * (sb z2.2 z3.2)) * (sb z2.2 z3.2)) * (ab z0.1 z1.1)) / N.c 0) / N.c 1)
/-- `amp` for a photon of positive helicity and a photon of negative helicity (SM/eeAA.cpp) -/
noncomputable def eeAA.termPM (N : Env) (j1 j2 : Int) : ℂ :=
  ((((((((((2 : Nat) : ℝ) * N.r 0) * N.r 0) : ℝ) : ℂ) * ((N.v 4 [j1] * N.v 7 [j2]) + (N.v 8 [j2] * N.v 11 [j1]))) * N.v 12 []) / N.c 0) / N.c 1)
/-- the same with spinors in place of their spins -/
noncomputable def eeAA.formPM (N : Env) (p : Nat → V4 ℝ) (z0 z1 z2 z3 : Pair) : ℂ :=
  ((((((((((2 : Nat) : ℝ) * N.r 0) * N.r 0) : ℝ) : ℂ) * (((sb z0.2 z2.2) * (ab z1.1 z3.1)) + ((sb z1.2 z2.2) * (ab z0.1 z3.1)))) * (mb z2.2 (p 0) z3.1)) / N.c 0) / N.c 1)
/-- `amp` for a photon of negative helicity and a photon of positive helicity (SM/eeAA.cpp) -/
noncomputable def eeAA.termMP (N : Env) (j1 j2 : Int) : ℂ :=
  ((((((((((2 : Nat) : ℝ) * N.r 0) * N.r 0) : ℝ) : ℂ) * ((N.v 5 [j1] * N.v 6 [j2]) + (N.v 9 [j2] * N.v 10 [j1]))) * N.v 13 []) / N.c 0) / N.c 1)
/-- the same with spinors in place of their spins -/
noncomputable def eeAA.formMP (N : Env) (p : Nat → V4 ℝ) (z0 z1 z2 z3 : Pair) : ℂ :=
  ((((((((((2 : Nat) : ℝ) * N.r 0) * N.r 0) : ℝ) : ℂ) * (((ab z0.1 z2.1) * (sb z1.2 z3.2)) + ((ab z1.1 z2.1) * (sb z0.2 z3.2)))) * (mb z3.2 (p 0) z2.1)) / N.c 0) / N.c 1)
/-- `amp` for a photon of negative helicity and a photon of negative helicity (SM/eeAA.cpp) -/
noncomputable def eeAA.termMM (N : Env) (j1 j2 : Int) : ℂ :=
  ((((((((((((2 : Nat) : ℝ) * N.r 0) * N.r 0) * N.r 1) : ℝ) : ℂ) * N.v 1 []) * N.v 1 []) * N.v 2 [j1, j2]) / N.c 0) / N.c 1)
/-- the same with spinors in place of their spins -/
noncomputable def eeAA.formMM (N : Env) (p : Nat → V4 ℝ) (z0 z1 z2 z3 : Pair) : ℂ :=
  ((((((((((((2 : Nat) : ℝ) * N.r 0) * N.r 0) * N.r 1) : ℝ) : ℂ) * (ab z2.1 z3.1)) * (ab z2.1 z3.1)) * (sb z0.2 z1.2)) / N.c 0) / N.c 1)
theorem eeAA.keyPP {c : Constants} {p : Nat → V4 ℝ} {N : Env} (hc : c.Physical) (hb : Balanced p) (r0 : N.r 0 = c.e) (r1 : N.r 1 = (c.mass .e)) (d0 : ((msq (plus (p 0) (backward (p 2))) - c.mass .e ^ 2 : ℝ) : ℂ) = N.c 0) (n0 : N.c 0 ≠ 0) (d1 : ((msq (plus (p 0) (backward (p 3))) - c.mass .e ^ 2 : ℝ) : ℂ) = N.c 1) (n1 : N.c 1 ≠ 0) {z0 z1 z2 z3 : Pair} (b0 : Bold (p 0) (c.mass .e) z0) (b1 : Bold (p 1) (c.mass .e) z1) (l2 : Light (p 2) z2) (l3 : Light (p 3) z3) (e20 : mb z2.2 (p 0) z2.1 = -N.c 0) (e21 : mb z2.2 (p 1) z2.1 = -N.c 1) (e30 : mb z3.2 (p 0) z3.1 = -N.c 1) (e31 : mb z3.2 (p 1) z3.1 = -N.c 0) (q0 : msq (p 0) = (c.mass .e) ^ 2) (q1 : msq (p 1) = (c.mass .e) ^ 2) (ρ2 ρ3 : V2) :
    eeAA.formPP N p z0 z1 z2 z3 * ab ρ2 z2.1 * ab ρ3 z3.1 = ((√2 : ℝ) * ((√2 : ℝ) * (-1 : ℂ))) * eeAA.react.bare c p 1 0 2 3 z1 z0 (pv ρ2 z2.2) (pv ρ3 z3.2) := by
  rw [eeAA.react.bare_parts c p (i := 1) (j := 0) (a := 2) (b := 3) (x := .photon) (y := .photon) (k := (backward (p 2))) (k' := (backward (p 3))) (fun _ => rfl) (fun _ => rfl) (f := .e) (g := .e) rfl rfl (l := (p 0)) rfl (e := -1) (e' := 1) (if_pos rfl) (if_neg Bool.false_ne_true)]
  rw [compton_vv (f := .e) (x := .e) (g := .e) (h := (rfl : Spec.after .photon Flavour.e = some Flavour.e)) (h' := (rfl : Spec.after .photon Flavour.e = some Flavour.e)) (ha := by simp) (hb := by simp)]
  rw [compton_vv (f := .e) (x := .e) (g := .e) (h := (rfl : Spec.after .photon Flavour.e = some Flavour.e)) (h' := (rfl : Spec.after .photon Flavour.e = some Flavour.e)) (ha := by simp) (hb := by simp)]
  rw [annihilation_none c _ _ (by rfl) (by simp), star_zero, add_zero, eeAA.formPP]
  simp only [d0, d1, lineV_pv, lineV_four, contract_four_pv, contract_pv, mb_plus, mb_backward]
  have i0 := ab_schouten z1.1 z2.1 ρ2 z0.1
  have i1 := ab_schouten z3.1 ρ2 ρ3 z2.1
  have i2 := mb_schouten_right z1.2 (p 0) z0.1 z2.1 ρ2
  have i3 := ab_schouten z2.1 ρ2 ρ3 z1.1
  have i4 := ab_schouten z2.1 ρ2 ρ3 z0.1
  have i5 := mb_schouten_right z2.2 (p 0) z0.1 z1.1 z2.1
  have i6 := ab_schouten z1.1 ρ2 ρ3 z0.1
  have i7 := mb_schouten_right z0.2 (p 1) z1.1 z2.1 ρ2
  have i8 := mb_schouten_right z3.2 (p 0) z1.1 z2.1 ρ2
  have i9 := mb_schouten_right z2.2 (p 0) z0.1 z2.1 ρ3
  have i10 := mb_schouten_left z0.2 z2.2 z3.2 (p 0) z2.1
  have i11 := mb_schouten_right z0.2 (p 1) z1.1 z2.1 ρ3
  have i12 := ab_schouten z2.1 z3.1 ρ3 z1.1
  have i13 := mb_schouten_right z0.2 (p 1) z1.1 ρ2 ρ3
  have i14 := ab_schouten z3.1 ρ2 ρ3 z1.1
  have i15 := mb_schouten_right z1.2 (p 0) z0.1 z2.1 ρ3
  have i16 := ab_schouten z2.1 z3.1 ρ3 z0.1
  have i17 := mb_schouten_left z0.2 z2.2 z3.2 (p 0) z3.1
  have i18 := ab_schouten z2.1 z3.1 ρ2 z0.1
  have i19 := ab_schouten z1.1 z2.1 z3.1 z0.1
  have i20 := mb_schouten_right z2.2 (p 0) z1.1 z3.1 ρ2
  have i21 := mb_schouten_right z3.2 (p 0) z0.1 z2.1 ρ2
  have i22 := sb_schouten z1.2 z2.2 z3.2 z0.2
  have i23 := mb_schouten_right z2.2 (p 0) z0.1 z1.1 ρ3
  have i24 := mb_schouten_right z2.2 (p 0) z0.1 z1.1 ρ2
  have i25 := ab_schouten z1.1 z2.1 ρ3 z0.1
  have i26 := mb_schouten_left z0.2 z2.2 z3.2 (p 0) ρ2
  have i27 := mb_schouten_right z2.2 (p 0) z0.1 z2.1 ρ2
  have i28 := mb_schouten_right z2.2 (p 0) z1.1 z2.1 ρ3
  have i29 := mb_schouten_right z3.2 (p 0) z1.1 z3.1 ρ2
  have i30 := ab_schouten z2.1 z3.1 ρ2 z1.1
  have i31 := mb_schouten_right z2.2 (p 0) z0.1 ρ2 ρ3
  have i32 := mb_schouten_right z2.2 (p 1) z0.1 z2.1 ρ2
  have i33 := mb_schouten_right z2.2 (p 1) z1.1 z2.1 ρ3
  have i34 := mb_schouten_right z0.2 (p 1) z1.1 z2.1 z3.1
  have i35 := mb_schouten_left z1.2 z2.2 z3.2 (p 0) z2.1
  have i36 := mb_schouten_right z2.2 (p 1) z0.1 z2.1 ρ3
  have i37 := mb_schouten_right z2.2 (p 0) z1.1 z2.1 ρ2
  have i38 := mb_schouten_right z2.2 (p 0) z0.1 z2.1 z3.1
  have i39 := ab_schouten z3.1 ρ2 ρ3 z0.1
  have i40 := mb_schouten_right z1.2 (p 0) z0.1 z2.1 z3.1
  have i41 := mb_schouten_right z1.2 (p 0) z0.1 ρ2 ρ3
  have i42 := mb_schouten_right z2.2 (p 1) z0.1 z2.1 z3.1
  have i43 := mb_schouten_right z2.2 (p 1) z1.1 z2.1 z3.1
  have i44 := mb_schouten_right z2.2 (p 0) z1.1 z2.1 z3.1
  simp only [l2.mb_eq, l3.mb_eq, b0.mb_left, b0.mb_right, b1.mb_left, b1.mb_right, e20, e21, e30, e31, mb_one hb z0.2 z0.1, mb_one hb z0.2 z2.1, mb_one hb z0.2 z3.1, mb_one hb z0.2 ρ2, mb_one hb z0.2 ρ3, mb_nought hb z1.2 z1.1, mb_nought hb z1.2 z2.1, mb_nought hb z1.2 z3.1, mb_nought hb z1.2 ρ2, mb_nought hb z1.2 ρ3, mb_one hb z2.2 z0.1, mb_nought hb z2.2 z1.1, mb_one hb z2.2 z3.1, mb_one hb z2.2 ρ2, mb_one hb z2.2 ρ3, mb_one hb z3.2 z0.1, mb_nought hb z3.2 z1.1, mb_one hb z3.2 z2.1, mb_one hb z3.2 ρ2, mb_one hb z3.2 ρ3, ab_self, sb_self] at i0 i1 i2 i3 i4 i5 i6 i7 i8 i9 i10 i11 i12 i13 i14 i15 i16 i17 i18 i19 i20 i21 i22 i23 i24 i25 i26 i27 i28 i29 i30 i31 i32 i33 i34 i35 i36 i37 i38 i39 i40 i41 i42 i43 i44 ⊢
  simp only [ab_swap z0.1 z1.1, ab_swap z0.1 z2.1, ab_swap z0.1 z3.1, ab_swap z0.1 ρ2, ab_swap z0.1 ρ3, ab_swap z1.1 z2.1, ab_swap z1.1 z3.1, ab_swap z1.1 ρ2, ab_swap z1.1 ρ3, ab_swap z2.1 z3.1, ab_swap z2.1 ρ2, ab_swap z2.1 ρ3, ab_swap z3.1 ρ2, ab_swap z3.1 ρ3, ab_swap ρ2 ρ3, sb_swap z0.2 z1.2, sb_swap z0.2 z2.2, sb_swap z0.2 z3.2, sb_swap z1.2 z2.2, sb_swap z1.2 z3.2, sb_swap z2.2 z3.2] at i0 i1 i2 i3 i4 i5 i6 i7 i8 i9 i10 i11 i12 i13 i14 i15 i16 i17 i18 i19 i20 i21 i22 i23 i24 i25 i26 i27 i28 i29 i30 i31 i32 i33 i34 i35 i36 i37 i38 i39 i40 i41 i42 i43 i44 ⊢
  simp only [r0, r1, Constants.hL, Constants.hR, Constants.gL, Constants.gR, Constants.yuk, Constants.invVev, Flavour.charge_e, Flavour.isospin_e, ← c.mz]
  have xMW : (c.MW : ℂ) ≠ 0 := by exact_mod_cast hc.MW
  have xSW : (c.SW : ℂ) ≠ 0 := by exact_mod_cast hc.SW
  have xCW : (c.CW : ℂ) ≠ 0 := by exact_mod_cast hc.CW
  have x2 : ((√2 : ℝ) : ℂ) ≠ 0 := by exact_mod_cast (Real.sqrt_pos.2 two_pos).ne'
  have x22 : ((√2 : ℝ) : ℂ) ^ 2 = 2 := by rw [← Complex.ofReal_pow, Real.sq_sqrt two_pos.le]; norm_num
  have x23 : ((√2 : ℝ) : ℂ) ^ 3 = 2 * ((√2 : ℝ) : ℂ) := by rw [← x22]; ring
  have x24 : ((√2 : ℝ) : ℂ) ^ 4 = 4 := by linear_combination (((√2 : ℝ) : ℂ) ^ 2 + 2) * x22
  push_cast at i0 i1 i2 i3 i4 i5 i6 i7 i8 i9 i10 i11 i12 i13 i14 i15 i16 i17 i18 i19 i20 i21 i22 i23 i24 i25 i26 i27 i28 i29 i30 i31 i32 i33 i34 i35 i36 i37 i38 i39 i40 i41 i42 i43 i44 ⊢
  have y0 := mul_inv_cancel₀ n0
  have y1 := mul_inv_cancel₀ n1
  linear_combination ((((2) * ((c.e : ℂ)) ^ 2 * ((c.mass .e : ℂ)) * (ab z3.1 ρ3) * (sb z2.2 z3.2) ^ 2 + (-4) * ((c.e : ℂ)) ^ 2 * ((c.mass .e : ℂ)) * (mb z2.2 (p 0) ρ3) * (sb z2.2 z3.2)) * i0 + ((-2) * ((c.e : ℂ)) ^ 2 * ((c.mass .e : ℂ)) * (sb z0.2 z2.2) * (sb z1.2 z3.2) * (sb z2.2 z3.2) + (2) * ((c.e : ℂ)) ^ 2 * ((c.mass .e : ℂ)) * (sb z0.2 z3.2) * (sb z1.2 z2.2) * (sb z2.2 z3.2)) * i1 + ((2) * ((c.e : ℂ)) ^ 2 * (mb z2.2 (p 0) ρ3) * (sb z2.2 z3.2)) * i2 + ((-4) * ((c.e : ℂ)) ^ 2 * ((c.mass .e : ℂ)) ^ 2 * (sb z0.2 z2.2) * (sb z2.2 z3.2) + (4) * ((c.e : ℂ)) ^ 2 * (ab z2.1 z3.1) * (sb z0.2 z2.2) * (sb z2.2 z3.2) ^ 2) * i3 + ((-4) * ((c.e : ℂ)) ^ 2 * ((c.mass .e : ℂ)) * (ab z1.1 z3.1) * (sb z2.2 z3.2) ^ 2 + (-4) * ((c.e : ℂ)) ^ 2 * ((c.mass .e : ℂ)) ^ 2 * (sb z1.2 z2.2) * (sb z2.2 z3.2) + (2) * ((c.e : ℂ)) ^ 2 * (ab z2.1 z3.1) * (sb z1.2 z2.2) * (sb z2.2 z3.2) ^ 2) * i4 + ((4) * ((c.e : ℂ)) ^ 2 * ((c.mass .e : ℂ)) * (ab ρ2 ρ3) * (sb z2.2 z3.2)) * i5 + ((4) * ((c.e : ℂ)) ^ 2 * ((c.mass .e : ℂ)) * (N.c 0) * (sb z2.2 z3.2) + (2) * ((c.e : ℂ)) ^ 2 * ((c.mass .e : ℂ)) * (ab z2.1 z3.1) * (sb z2.2 z3.2) ^ 2) * i6 + ((2) * ((c.e : ℂ)) ^ 2 * (ab z3.1 ρ3) * (sb z2.2 z3.2) ^ 2 + (-4) * ((c.e : ℂ)) ^ 2 * (mb z2.2 (p 0) ρ3) * (sb z2.2 z3.2)) * i7 + ((2) * ((c.e : ℂ)) ^ 2 * (ab z3.1 ρ3) * (sb z0.2 z2.2) * (sb z2.2 z3.2) + (2) * ((c.e : ℂ)) ^ 2 * (mb z2.2 (p 0) ρ3) * (sb z0.2 z2.2)) * i8 + ((-2) * ((c.e : ℂ)) ^ 2 * (ab z3.1 ρ2) * (sb z1.2 z3.2) * (sb z2.2 z3.2) + (2) * ((c.e : ℂ)) ^ 2 * (mb z2.2 (p 0) ρ2) * (sb z1.2 z3.2) + (-2) * ((c.e : ℂ)) ^ 2 * (mb z3.2 (p 0) ρ2) * (sb z1.2 z2.2)) * i9 + ((2) * ((c.e : ℂ)) ^ 2 * (ab z1.1 ρ2) * (ab z3.1 ρ3) * (sb z2.2 z3.2) + (2) * ((c.e : ℂ)) ^ 2 * (ab z1.1 ρ2) * (mb z2.2 (p 0) ρ3)) * i10 + ((2) * ((c.e : ℂ)) ^ 2 * (mb z2.2 (p 0) ρ2) * (sb z2.2 z3.2)) * i11 + ((-4) * ((c.e : ℂ)) ^ 2 * (ab z2.1 ρ2) * (sb z0.2 z2.2) * (sb z2.2 z3.2) ^ 2 + (-2) * ((c.e : ℂ)) ^ 2 * (ab z3.1 ρ2) * (sb z0.2 z3.2) * (sb z2.2 z3.2) ^ 2 + (-2) * ((c.e : ℂ)) ^ 2 * (mb z2.2 (p 0) ρ2) * (sb z0.2 z3.2) * (sb z2.2 z3.2)) * i12 + ((2) * ((c.e : ℂ)) ^ 2 * (N.c 0) * (sb z2.2 z3.2) + (2) * ((c.e : ℂ)) ^ 2 * (N.c 1) * (sb z2.2 z3.2)) * i13 + ((2) * ((c.e : ℂ)) ^ 2 * (N.c 0) * (sb z0.2 z3.2) * (sb z2.2 z3.2) + (2) * ((c.e : ℂ)) ^ 2 * (N.c 1) * (sb z0.2 z3.2) * (sb z2.2 z3.2) + (2) * ((c.e : ℂ)) ^ 2 * (ab z2.1 z3.1) * (sb z0.2 z3.2) * (sb z2.2 z3.2) ^ 2) * i14 + ((-2) * ((c.e : ℂ)) ^ 2 * (mb z2.2 (p 0) ρ2) * (sb z2.2 z3.2)) * i15 + ((-2) * ((c.e : ℂ)) ^ 2 * ((c.mass .e : ℂ)) * (ab z1.1 ρ2) * (sb z2.2 z3.2) ^ 2 + (-2) * ((c.e : ℂ)) ^ 2 * (ab z2.1 ρ2) * (sb z1.2 z2.2) * (sb z2.2 z3.2) ^ 2 + (2) * ((c.e : ℂ)) ^ 2 * (mb z2.2 (p 0) ρ2) * (sb z1.2 z3.2) * (sb z2.2 z3.2)) * i16 + ((-2) * ((c.e : ℂ)) ^ 2 * (ab z1.1 ρ2) * (ab z2.1 ρ3) * (sb z2.2 z3.2)) * i17 + ((2) * ((c.e : ℂ)) ^ 2 * ((c.mass .e : ℂ)) * (ab z1.1 ρ3) * (sb z2.2 z3.2) ^ 2 + (2) * ((c.e : ℂ)) ^ 2 * (ab z2.1 ρ3) * (sb z1.2 z2.2) * (sb z2.2 z3.2) ^ 2) * i18 + ((-2) * ((c.e : ℂ)) ^ 2 * ((c.mass .e : ℂ)) * (ab ρ2 ρ3) * (sb z2.2 z3.2) ^ 2) * i19 + ((2) * ((c.e : ℂ)) ^ 2 * (ab z2.1 ρ3) * (sb z0.2 z3.2) * (sb z2.2 z3.2)) * i20 + ((2) * ((c.e : ℂ)) ^ 2 * (mb z2.2 (p 0) ρ3) * (sb z1.2 z2.2)) * i21 + ((2) * ((c.e : ℂ)) ^ 2 * ((c.mass .e : ℂ)) * (N.c 0) * (ab ρ2 ρ3) + (-2) * ((c.e : ℂ)) ^ 2 * ((c.mass .e : ℂ)) * (ab z2.1 z3.1) * (ab ρ2 ρ3) * (sb z2.2 z3.2) + (2) * ((c.e : ℂ)) ^ 2 * ((c.mass .e : ℂ)) * (ab z2.1 ρ2) * (ab z3.1 ρ3) * (sb z2.2 z3.2) + (-6) * ((c.e : ℂ)) ^ 2 * ((c.mass .e : ℂ)) * (ab z2.1 ρ2) * (mb z2.2 (p 0) ρ3) + (4) * ((c.e : ℂ)) ^ 2 * ((c.mass .e : ℂ)) * (ab z2.1 ρ3) * (mb z2.2 (p 0) ρ2)) * i22 + ((4) * ((c.e : ℂ)) ^ 2 * ((c.mass .e : ℂ)) * (ab z2.1 ρ2) * (sb z2.2 z3.2)) * i23 + ((-4) * ((c.e : ℂ)) ^ 2 * ((c.mass .e : ℂ)) * (ab z2.1 ρ3) * (sb z2.2 z3.2)) * i24 + ((4) * ((c.e : ℂ)) ^ 2 * ((c.mass .e : ℂ)) * (mb z2.2 (p 0) ρ2) * (sb z2.2 z3.2)) * i25 + ((4) * ((c.e : ℂ)) ^ 2 * (N.c 0) * (ab z1.1 ρ3)) * i26 + ((-2) * ((c.e : ℂ)) ^ 2 * ((c.mass .e : ℂ)) * (ab z1.1 ρ3) * (sb z2.2 z3.2) + (2) * ((c.e : ℂ)) ^ 2 * (ab z3.1 ρ3) * (sb z1.2 z3.2) * (sb z2.2 z3.2) + (-4) * ((c.e : ℂ)) ^ 2 * (mb z2.2 (p 0) ρ3) * (sb z1.2 z3.2)) * i27 + ((2) * ((c.e : ℂ)) ^ 2 * (ab z2.1 ρ2) * (sb z0.2 z2.2) * (sb z2.2 z3.2) + (4) * ((c.e : ℂ)) ^ 2 * (mb z2.2 (p 0) ρ2) * (sb z0.2 z3.2) + (-4) * ((c.e : ℂ)) ^ 2 * (mb z3.2 (p 0) ρ2) * (sb z0.2 z2.2)) * i28 + ((-4) * ((c.e : ℂ)) ^ 2 * (ab z2.1 ρ3) * (sb z0.2 z2.2) * (sb z2.2 z3.2)) * i29 + ((4) * ((c.e : ℂ)) ^ 2 * (ab z2.1 ρ3) * (sb z0.2 z2.2) * (sb z2.2 z3.2) ^ 2 + (4) * ((c.e : ℂ)) ^ 2 * (mb z2.2 (p 0) ρ3) * (sb z0.2 z3.2) * (sb z2.2 z3.2)) * i30 + ((2) * ((c.e : ℂ)) ^ 2 * (N.c 0) * (sb z1.2 z3.2) + (-2) * ((c.e : ℂ)) ^ 2 * (N.c 1) * (sb z1.2 z3.2)) * i31 + ((-2) * ((c.e : ℂ)) ^ 2 * ((c.mass .e : ℂ)) * (ab z1.1 ρ3) * (sb z2.2 z3.2) + (-2) * ((c.e : ℂ)) ^ 2 * (ab z2.1 ρ3) * (sb z1.2 z2.2) * (sb z2.2 z3.2)) * i32 + ((-2) * ((c.e : ℂ)) ^ 2 * (mb z3.2 (p 0) ρ2) * (sb z0.2 z2.2)) * i33 + ((-4) * ((c.e : ℂ)) ^ 2 * (ab ρ2 ρ3) * (sb z2.2 z3.2) ^ 2) * i34 + ((2) * ((c.e : ℂ)) ^ 2 * (ab z0.1 ρ2) * (mb z2.2 (p 0) ρ3)) * i35 + ((2) * ((c.e : ℂ)) ^ 2 * (ab z2.1 ρ2) * (sb z1.2 z2.2) * (sb z2.2 z3.2) + (-2) * ((c.e : ℂ)) ^ 2 * (mb z2.2 (p 0) ρ2) * (sb z1.2 z3.2)) * i36 + ((-2) * ((c.e : ℂ)) ^ 2 * (ab z2.1 ρ3) * (sb z0.2 z2.2) * (sb z2.2 z3.2) + (-4) * ((c.e : ℂ)) ^ 2 * (mb z2.2 (p 0) ρ3) * (sb z0.2 z3.2)) * i37 + ((-2) * ((c.e : ℂ)) ^ 2 * (ab ρ2 ρ3) * (sb z1.2 z3.2) * (sb z2.2 z3.2)) * i38 + ((2) * ((c.e : ℂ)) ^ 2 * (N.c 0) * (sb z1.2 z3.2) * (sb z2.2 z3.2) + (2) * ((c.e : ℂ)) ^ 2 * (N.c 1) * (sb z1.2 z3.2) * (sb z2.2 z3.2)) * i39 + ((-2) * ((c.e : ℂ)) ^ 2 * (ab ρ2 ρ3) * (sb z2.2 z3.2) ^ 2) * i40 + ((2) * ((c.e : ℂ)) ^ 2 * (N.c 1) * (sb z2.2 z3.2)) * i41 + ((-2) * ((c.e : ℂ)) ^ 2 * (ab ρ2 ρ3) * (sb z1.2 z3.2) * (sb z2.2 z3.2)) * i42 + ((-2) * ((c.e : ℂ)) ^ 2 * (ab ρ2 ρ3) * (sb z0.2 z3.2) * (sb z2.2 z3.2)) * i43 + ((-2) * ((c.e : ℂ)) ^ 2 * (ab ρ2 ρ3) * (sb z0.2 z3.2) * (sb z2.2 z3.2)) * i44)) * ((1) * ((N.c 0)⁻¹) * ((N.c 1)⁻¹)) + ((-2) * ((c.e : ℂ)) ^ 2 * ((c.mass .e : ℂ)) * ((N.c 1)⁻¹) * (ab z0.1 ρ3) * (ab z1.1 ρ2) * (sb z2.2 z3.2) + (-2) * ((c.e : ℂ)) ^ 2 * ((c.mass .e : ℂ)) * ((N.c 1)⁻¹) * (ab ρ2 ρ3) * (sb z0.2 z3.2) * (sb z1.2 z2.2) + (2) * ((c.e : ℂ)) ^ 2 * ((N.c 1)⁻¹) * (ab z0.1 ρ3) * (mb z3.2 (p 0) ρ2) * (sb z1.2 z2.2) + (-2) * ((c.e : ℂ)) ^ 2 * ((N.c 1)⁻¹) * (ab z1.1 ρ2) * (ab z3.1 ρ3) * (sb z0.2 z3.2) * (sb z2.2 z3.2) + (2) * ((c.e : ℂ)) ^ 2 * ((N.c 1)⁻¹) * (ab z1.1 ρ2) * (mb z2.2 (p 0) ρ3) * (sb z0.2 z3.2)) * y0 + ((2) * ((c.e : ℂ)) ^ 2 * ((c.mass .e : ℂ)) * ((N.c 0)⁻¹) * (ab z0.1 ρ2) * (ab z1.1 ρ3) * (sb z2.2 z3.2) + (2) * ((c.e : ℂ)) ^ 2 * ((c.mass .e : ℂ)) * ((N.c 0)⁻¹) * (ab ρ2 ρ3) * (sb z0.2 z2.2) * (sb z1.2 z3.2) + (2) * ((c.e : ℂ)) ^ 2 * ((N.c 0)⁻¹) * (ab z0.1 ρ2) * (mb z2.2 (p 0) ρ3) * (sb z1.2 z3.2) + (2) * ((c.e : ℂ)) ^ 2 * ((N.c 0)⁻¹) * (ab z1.1 ρ3) * (ab z2.1 ρ2) * (sb z0.2 z2.2) * (sb z2.2 z3.2) + (2) * ((c.e : ℂ)) ^ 2 * ((N.c 0)⁻¹) * (ab z1.1 ρ3) * (mb z3.2 (p 0) ρ2) * (sb z0.2 z2.2)) * y1 + ((-1) * ((c.e : ℂ)) ^ 2 * ((c.mass .e : ℂ)) * ((N.c 0)⁻¹) * (ab z0.1 ρ2) * (ab z1.1 ρ3) * (sb z2.2 z3.2) + (-1) * ((c.e : ℂ)) ^ 2 * ((c.mass .e : ℂ)) * ((N.c 0)⁻¹) * (ab ρ2 ρ3) * (sb z0.2 z2.2) * (sb z1.2 z3.2) + (1) * ((c.e : ℂ)) ^ 2 * ((c.mass .e : ℂ)) * ((N.c 1)⁻¹) * (ab z0.1 ρ3) * (ab z1.1 ρ2) * (sb z2.2 z3.2) + (1) * ((c.e : ℂ)) ^ 2 * ((c.mass .e : ℂ)) * ((N.c 1)⁻¹) * (ab ρ2 ρ3) * (sb z0.2 z3.2) * (sb z1.2 z2.2) + (-1) * ((c.e : ℂ)) ^ 2 * ((N.c 0)⁻¹) * (ab z0.1 ρ2) * (mb z2.2 (p 0) ρ3) * (sb z1.2 z3.2) + (-1) * ((c.e : ℂ)) ^ 2 * ((N.c 0)⁻¹) * (ab z1.1 ρ3) * (ab z2.1 ρ2) * (sb z0.2 z2.2) * (sb z2.2 z3.2) + (-1) * ((c.e : ℂ)) ^ 2 * ((N.c 0)⁻¹) * (ab z1.1 ρ3) * (mb z3.2 (p 0) ρ2) * (sb z0.2 z2.2) + (-1) * ((c.e : ℂ)) ^ 2 * ((N.c 1)⁻¹) * (ab z0.1 ρ3) * (mb z3.2 (p 0) ρ2) * (sb z1.2 z2.2) + (1) * ((c.e : ℂ)) ^ 2 * ((N.c 1)⁻¹) * (ab z1.1 ρ2) * (ab z3.1 ρ3) * (sb z0.2 z3.2) * (sb z2.2 z3.2) + (-1) * ((c.e : ℂ)) ^ 2 * ((N.c 1)⁻¹) * (ab z1.1 ρ2) * (mb z2.2 (p 0) ρ3) * (sb z0.2 z3.2)) * x22
theorem eeAA.keyPM {c : Constants} {p : Nat → V4 ℝ} {N : Env} (hc : c.Physical) (hb : Balanced p) (r0 : N.r 0 = c.e) (d0 : ((msq (plus (p 0) (backward (p 2))) - c.mass .e ^ 2 : ℝ) : ℂ) = N.c 0) (n0 : N.c 0 ≠ 0) (d1 : ((msq (plus (p 0) (backward (p 3))) - c.mass .e ^ 2 : ℝ) : ℂ) = N.c 1) (n1 : N.c 1 ≠ 0) {z0 z1 z2 z3 : Pair} (b0 : Bold (p 0) (c.mass .e) z0) (b1 : Bold (p 1) (c.mass .e) z1) (l2 : Light (p 2) z2) (l3 : Light (p 3) z3) (e20 : mb z2.2 (p 0) z2.1 = -N.c 0) (e21 : mb z2.2 (p 1) z2.1 = -N.c 1) (e30 : mb z3.2 (p 0) z3.1 = -N.c 1) (e31 : mb z3.2 (p 1) z3.1 = -N.c 0) (q0 : msq (p 0) = (c.mass .e) ^ 2) (q1 : msq (p 1) = (c.mass .e) ^ 2) (ρ2 ρ3 : V2) :
    eeAA.formPM N p z0 z1 z2 z3 * ab ρ2 z2.1 * sb ρ3 z3.2 = ((√2 : ℝ) * ((√2 : ℝ) * (1 : ℂ))) * eeAA.react.bare c p 1 0 2 3 z1 z0 (pv ρ2 z2.2) (pv z3.1 ρ3) := by
  rw [eeAA.react.bare_parts c p (i := 1) (j := 0) (a := 2) (b := 3) (x := .photon) (y := .photon) (k := (backward (p 2))) (k' := (backward (p 3))) (fun _ => rfl) (fun _ => rfl) (f := .e) (g := .e) rfl rfl (l := (p 0)) rfl (e := -1) (e' := 1) (if_pos rfl) (if_neg Bool.false_ne_true)]
  rw [compton_vv (f := .e) (x := .e) (g := .e) (h := (rfl : Spec.after .photon Flavour.e = some Flavour.e)) (h' := (rfl : Spec.after .photon Flavour.e = some Flavour.e)) (ha := by simp) (hb := by simp)]
  rw [compton_vv (f := .e) (x := .e) (g := .e) (h := (rfl : Spec.after .photon Flavour.e = some Flavour.e)) (h' := (rfl : Spec.after .photon Flavour.e = some Flavour.e)) (ha := by simp) (hb := by simp)]
  rw [annihilation_none c _ _ (by rfl) (by simp), star_zero, add_zero, eeAA.formPM]
  simp only [d0, d1, lineV_pv, lineV_four, contract_four_pv, contract_pv, mb_plus, mb_backward]
  have i0 := mb_schouten_right z2.2 (p 1) z1.1 z2.1 z3.1
  have i1 := sb_schouten z1.2 z2.2 ρ3 z0.2
  have i2 := mb_schouten_right z2.2 (p 0) z1.1 z3.1 ρ2
  have i3 := mb_schouten_right z1.2 (p 0) z0.1 z3.1 ρ2
  have i4 := mb_schouten_right z2.2 (p 1) z0.1 z2.1 ρ2
  have i5 := mb_schouten_right z1.2 (p 0) z0.1 z2.1 z3.1
  have i6 := mb_schouten_right z2.2 (p 1) z0.1 z2.1 z3.1
  have i7 := mb_schouten_right z2.2 (p 0) z0.1 z2.1 ρ2
  have i8 := mb_schouten_right z2.2 (p 0) z0.1 z2.1 z3.1
  have i9 := mb_schouten_left z0.2 z1.2 z2.2 (p 0) z3.1
  have i10 := mb_schouten_left z0.2 z2.2 ρ3 (p 0) z3.1
  have i11 := mb_schouten_right z2.2 (p 0) z0.1 z1.1 z2.1
  have i12 := ab_schouten z1.1 z3.1 ρ2 z0.1
  have i13 := mb_schouten_right z2.2 (p 0) z1.1 z2.1 z3.1
  have i14 := mb_schouten_right z0.2 (p 1) z1.1 z2.1 z3.1
  have i15 := mb_schouten_right z2.2 (p 0) z0.1 z3.1 ρ2
  have i16 := sb_schouten z2.2 z3.2 ρ3 z1.2
  have i17 := ab_schouten z2.1 z3.1 ρ2 z0.1
  have i18 := mb_schouten_right z2.2 (p 1) z1.1 z2.1 ρ2
  have i19 := mb_schouten_left z1.2 z2.2 ρ3 (p 0) z2.1
  have i20 := mb_schouten_left z0.2 z2.2 ρ3 (p 0) z2.1
  have i21 := mb_schouten_right ρ3 (p 0) z0.1 z3.1 ρ2
  have i22 := sb_schouten z1.2 z2.2 z3.2 z0.2
  have i23 := sb_schouten z2.2 z3.2 ρ3 z0.2
  have i24 := mb_schouten_right ρ3 (p 0) z0.1 z2.1 z3.1
  have i25 := mb_schouten_right ρ3 (p 0) z1.1 z2.1 z3.1
  have i26 := mb_schouten_right z2.2 (p 1) z0.1 z1.1 z2.1
  have i27 := ab_schouten z1.1 z2.1 z3.1 z0.1
  have i28 := mb_schouten_right z2.2 (p 0) z0.1 z1.1 ρ2
  have i29 := mb_schouten_right ρ3 (p 0) z1.1 z2.1 ρ2
  have i30 := mb_schouten_right ρ3 (p 0) z0.1 z2.1 ρ2
  have i31 := ab_schouten z2.1 z3.1 ρ2 z1.1
  simp only [l2.mb_eq, l3.mb_eq, b0.mb_left, b0.mb_right, b1.mb_left, b1.mb_right, e20, e21, e30, e31, mb_one hb z0.2 z0.1, mb_one hb z0.2 z2.1, mb_one hb z0.2 z3.1, mb_one hb z0.2 ρ2, mb_nought hb z1.2 z1.1, mb_nought hb z1.2 z2.1, mb_nought hb z1.2 z3.1, mb_nought hb z1.2 ρ2, mb_one hb z2.2 z0.1, mb_nought hb z2.2 z1.1, mb_one hb z2.2 z3.1, mb_one hb z2.2 ρ2, mb_one hb z3.2 z0.1, mb_nought hb z3.2 z1.1, mb_one hb z3.2 z2.1, mb_one hb z3.2 ρ2, mb_one hb ρ3 z0.1, mb_nought hb ρ3 z1.1, mb_one hb ρ3 z2.1, mb_one hb ρ3 z3.1, mb_one hb ρ3 ρ2, ab_self, sb_self] at i0 i1 i2 i3 i4 i5 i6 i7 i8 i9 i10 i11 i12 i13 i14 i15 i16 i17 i18 i19 i20 i21 i22 i23 i24 i25 i26 i27 i28 i29 i30 i31 ⊢
  simp only [ab_swap z0.1 z1.1, ab_swap z0.1 z2.1, ab_swap z0.1 z3.1, ab_swap z0.1 ρ2, ab_swap z1.1 z2.1, ab_swap z1.1 z3.1, ab_swap z1.1 ρ2, ab_swap z2.1 z3.1, ab_swap z2.1 ρ2, ab_swap z3.1 ρ2, sb_swap z0.2 z1.2, sb_swap z0.2 z2.2, sb_swap z0.2 z3.2, sb_swap z0.2 ρ3, sb_swap z1.2 z2.2, sb_swap z1.2 z3.2, sb_swap z1.2 ρ3, sb_swap z2.2 z3.2, sb_swap z2.2 ρ3, sb_swap z3.2 ρ3] at i0 i1 i2 i3 i4 i5 i6 i7 i8 i9 i10 i11 i12 i13 i14 i15 i16 i17 i18 i19 i20 i21 i22 i23 i24 i25 i26 i27 i28 i29 i30 i31 ⊢
  simp only [r0, Constants.hL, Constants.hR, Constants.gL, Constants.gR, Constants.yuk, Constants.invVev, Flavour.charge_e, Flavour.isospin_e, ← c.mz]
  have xMW : (c.MW : ℂ) ≠ 0 := by exact_mod_cast hc.MW
  have xSW : (c.SW : ℂ) ≠ 0 := by exact_mod_cast hc.SW
  have xCW : (c.CW : ℂ) ≠ 0 := by exact_mod_cast hc.CW
  have x2 : ((√2 : ℝ) : ℂ) ≠ 0 := by exact_mod_cast (Real.sqrt_pos.2 two_pos).ne'
  have x22 : ((√2 : ℝ) : ℂ) ^ 2 = 2 := by rw [← Complex.ofReal_pow, Real.sq_sqrt two_pos.le]; norm_num
  have x23 : ((√2 : ℝ) : ℂ) ^ 3 = 2 * ((√2 : ℝ) : ℂ) := by rw [← x22]; ring
  have x24 : ((√2 : ℝ) : ℂ) ^ 4 = 4 := by linear_combination (((√2 : ℝ) : ℂ) ^ 2 + 2) * x22
  push_cast at i0 i1 i2 i3 i4 i5 i6 i7 i8 i9 i10 i11 i12 i13 i14 i15 i16 i17 i18 i19 i20 i21 i22 i23 i24 i25 i26 i27 i28 i29 i30 i31 ⊢
  have y0 := mul_inv_cancel₀ n0
  have y1 := mul_inv_cancel₀ n1
  linear_combination ((((2) * ((c.e : ℂ)) ^ 2 * (ab z2.1 ρ2) * (sb z0.2 z2.2) * (sb z2.2 ρ3) + (4) * ((c.e : ℂ)) ^ 2 * (ab z3.1 ρ2) * (sb z0.2 z2.2) * (sb z3.2 ρ3) + (-4) * ((c.e : ℂ)) ^ 2 * (ab z3.1 ρ2) * (sb z0.2 z3.2) * (sb z2.2 ρ3) + (4) * ((c.e : ℂ)) ^ 2 * (mb z2.2 (p 0) ρ2) * (sb z0.2 ρ3) + (2) * ((c.e : ℂ)) ^ 2 * (mb ρ3 (p 0) ρ2) * (sb z0.2 z2.2)) * i0 + ((-4) * ((c.e : ℂ)) ^ 2 * ((c.mass .e : ℂ)) * (N.c 0) * (ab z3.1 ρ2) + (-4) * ((c.e : ℂ)) ^ 2 * ((c.mass .e : ℂ)) * (N.c 1) * (ab z3.1 ρ2) + (-4) * ((c.e : ℂ)) ^ 2 * ((c.mass .e : ℂ)) * (ab z2.1 z3.1) * (ab z3.1 ρ2) * (sb z2.2 z3.2) + (4) * ((c.e : ℂ)) ^ 2 * ((c.mass .e : ℂ)) * (ab z2.1 z3.1) * (mb z2.2 (p 0) ρ2) + (-2) * ((c.e : ℂ)) ^ 2 * ((c.mass .e : ℂ)) * (ab z2.1 ρ2) * (mb z2.2 (p 0) z3.1)) * i1 + ((-2) * ((c.e : ℂ)) ^ 2 * (N.c 0) * (sb z0.2 ρ3) + (-4) * ((c.e : ℂ)) ^ 2 * (N.c 1) * (sb z0.2 ρ3) + (-2) * ((c.e : ℂ)) ^ 2 * (mb ρ3 (p 0) z2.1) * (sb z0.2 z2.2)) * i2 + ((4) * ((c.e : ℂ)) ^ 2 * (N.c 0) * (sb z2.2 ρ3) + (4) * ((c.e : ℂ)) ^ 2 * (N.c 1) * (sb z2.2 ρ3)) * i3 + ((4) * ((c.e : ℂ)) ^ 2 * (ab z2.1 z3.1) * (sb z1.2 z2.2) * (sb z2.2 ρ3) + (-4) * ((c.e : ℂ)) ^ 2 * (mb z2.2 (p 0) z3.1) * (sb z1.2 ρ3)) * i4 + ((-4) * ((c.e : ℂ)) ^ 2 * (ab z3.1 ρ2) * (sb z2.2 z3.2) * (sb z2.2 ρ3)) * i5 + ((-2) * ((c.e : ℂ)) ^ 2 * ((c.mass .e : ℂ)) * (ab z1.1 ρ2) * (sb z2.2 ρ3) + (-4) * ((c.e : ℂ)) ^ 2 * (ab z2.1 ρ2) * (sb z1.2 z2.2) * (sb z2.2 ρ3) + (-4) * ((c.e : ℂ)) ^ 2 * (ab z3.1 ρ2) * (sb z1.2 z3.2) * (sb z2.2 ρ3) + (6) * ((c.e : ℂ)) ^ 2 * (mb z2.2 (p 0) ρ2) * (sb z1.2 ρ3)) * i6 + ((4) * ((c.e : ℂ)) ^ 2 * (ab z2.1 z3.1) * (sb z1.2 z2.2) * (sb z2.2 ρ3) + (-4) * ((c.e : ℂ)) ^ 2 * (mb z2.2 (p 0) z3.1) * (sb z1.2 ρ3) + (4) * ((c.e : ℂ)) ^ 2 * (mb ρ3 (p 0) z3.1) * (sb z1.2 z2.2)) * i7 + ((-2) * ((c.e : ℂ)) ^ 2 * ((c.mass .e : ℂ)) * (ab z1.1 ρ2) * (sb z2.2 ρ3) + (-4) * ((c.e : ℂ)) ^ 2 * (ab z2.1 ρ2) * (sb z1.2 z2.2) * (sb z2.2 ρ3) + (2) * ((c.e : ℂ)) ^ 2 * (ab z3.1 ρ2) * (sb z1.2 z2.2) * (sb z3.2 ρ3) + (-4) * ((c.e : ℂ)) ^ 2 * (ab z3.1 ρ2) * (sb z1.2 z3.2) * (sb z2.2 ρ3) + (6) * ((c.e : ℂ)) ^ 2 * (mb z2.2 (p 0) ρ2) * (sb z1.2 ρ3) + (-2) * ((c.e : ℂ)) ^ 2 * (mb ρ3 (p 0) ρ2) * (sb z1.2 z2.2)) * i8 + ((2) * ((c.e : ℂ)) ^ 2 * ((c.mass .e : ℂ)) * (ab z2.1 ρ2) * (sb z2.2 ρ3)) * i9 + ((4) * ((c.e : ℂ)) ^ 2 * (N.c 1) * (ab z1.1 ρ2)) * i10 + ((-4) * ((c.e : ℂ)) ^ 2 * ((c.mass .e : ℂ)) * (ab z3.1 ρ2) * (sb z2.2 ρ3)) * i11 + ((-4) * ((c.e : ℂ)) ^ 2 * ((c.mass .e : ℂ)) * (N.c 0) * (sb z2.2 ρ3) + (-2) * ((c.e : ℂ)) ^ 2 * ((c.mass .e : ℂ)) * (N.c 1) * (sb z2.2 ρ3) + (2) * ((c.e : ℂ)) ^ 2 * ((c.mass .e : ℂ)) * (ab z2.1 z3.1) * (sb z2.2 z3.2) * (sb z2.2 ρ3)) * i12 + ((4) * ((c.e : ℂ)) ^ 2 * (ab z3.1 ρ2) * (sb z0.2 z2.2) * (sb z3.2 ρ3) + (-4) * ((c.e : ℂ)) ^ 2 * (ab z3.1 ρ2) * (sb z0.2 z3.2) * (sb z2.2 ρ3) + (4) * ((c.e : ℂ)) ^ 2 * (mb z2.2 (p 0) ρ2) * (sb z0.2 ρ3)) * i13 + ((-4) * ((c.e : ℂ)) ^ 2 * (ab z3.1 ρ2) * (sb z2.2 z3.2) * (sb z2.2 ρ3) + (4) * ((c.e : ℂ)) ^ 2 * (mb z2.2 (p 0) ρ2) * (sb z2.2 ρ3)) * i14 + ((-4) * ((c.e : ℂ)) ^ 2 * (N.c 0) * (sb z1.2 ρ3) + (-6) * ((c.e : ℂ)) ^ 2 * (N.c 1) * (sb z1.2 ρ3) + (-6) * ((c.e : ℂ)) ^ 2 * (ab z2.1 z3.1) * (sb z1.2 z2.2) * (sb z3.2 ρ3) + (4) * ((c.e : ℂ)) ^ 2 * (ab z2.1 z3.1) * (sb z1.2 z3.2) * (sb z2.2 ρ3) + (-2) * ((c.e : ℂ)) ^ 2 * (mb ρ3 (p 0) z2.1) * (sb z1.2 z2.2)) * i15 + ((4) * ((c.e : ℂ)) ^ 2 * (ab z0.1 z2.1) * (ab z3.1 ρ2) * (mb z2.2 (p 0) z3.1) + (6) * ((c.e : ℂ)) ^ 2 * (ab z0.1 z3.1) * (ab z2.1 z3.1) * (mb z2.2 (p 0) ρ2) + (-4) * ((c.e : ℂ)) ^ 2 * (ab z0.1 z3.1) * (ab z2.1 ρ2) * (mb z2.2 (p 0) z3.1)) * i16 + ((2) * ((c.e : ℂ)) ^ 2 * ((c.mass .e : ℂ)) ^ 2 * (sb z1.2 z2.2) * (sb z2.2 ρ3) + (-6) * ((c.e : ℂ)) ^ 2 * (mb z2.2 (p 0) z3.1) * (sb z1.2 z2.2) * (sb z3.2 ρ3) + (4) * ((c.e : ℂ)) ^ 2 * (mb z2.2 (p 0) z3.1) * (sb z1.2 z3.2) * (sb z2.2 ρ3)) * i17 + ((-4) * ((c.e : ℂ)) ^ 2 * (mb ρ3 (p 0) z3.1) * (sb z0.2 z2.2)) * i18 + ((-2) * ((c.e : ℂ)) ^ 2 * (ab z0.1 z3.1) * (mb z2.2 (p 0) ρ2)) * i19 + ((2) * ((c.e : ℂ)) ^ 2 * (ab z1.1 z3.1) * (ab z3.1 ρ2) * (sb z2.2 z3.2) + (-2) * ((c.e : ℂ)) ^ 2 * (ab z1.1 z3.1) * (mb z2.2 (p 0) ρ2)) * i20 + ((4) * ((c.e : ℂ)) ^ 2 * (N.c 0) * (sb z1.2 z2.2)) * i21 + ((4) * ((c.e : ℂ)) ^ 2 * ((c.mass .e : ℂ)) * (ab z2.1 z3.1) * (ab z3.1 ρ2) * (sb z2.2 ρ3)) * i22 + ((4) * ((c.e : ℂ)) ^ 2 * ((c.mass .e : ℂ)) * (ab z2.1 z3.1) * (ab z3.1 ρ2) * (sb z1.2 z2.2) + (-4) * ((c.e : ℂ)) ^ 2 * (N.c 0) * (ab z1.1 z3.1) * (ab z3.1 ρ2) + (-4) * ((c.e : ℂ)) ^ 2 * (N.c 1) * (ab z1.1 z3.1) * (ab z3.1 ρ2) + (4) * ((c.e : ℂ)) ^ 2 * (ab z1.1 z3.1) * (ab z2.1 z3.1) * (mb z2.2 (p 0) ρ2)) * i23 + ((-4) * ((c.e : ℂ)) ^ 2 * (mb z2.2 (p 0) ρ2) * (sb z1.2 z2.2)) * i24 + ((4) * ((c.e : ℂ)) ^ 2 * (ab z3.1 ρ2) * (sb z0.2 z2.2) * (sb z2.2 z3.2) + (-4) * ((c.e : ℂ)) ^ 2 * (mb z2.2 (p 0) ρ2) * (sb z0.2 z2.2)) * i25 + ((-2) * ((c.e : ℂ)) ^ 2 * ((c.mass .e : ℂ)) * (ab z3.1 ρ2) * (sb z2.2 ρ3)) * i26 + ((-2) * ((c.e : ℂ)) ^ 2 * ((c.mass .e : ℂ)) * (ab z3.1 ρ2) * (sb z2.2 z3.2) * (sb z2.2 ρ3) + (2) * ((c.e : ℂ)) ^ 2 * ((c.mass .e : ℂ)) * (mb z2.2 (p 0) ρ2) * (sb z2.2 ρ3)) * i27 + ((-2) * ((c.e : ℂ)) ^ 2 * ((c.mass .e : ℂ)) * (ab z2.1 z3.1) * (sb z2.2 ρ3)) * i28 + ((2) * ((c.e : ℂ)) ^ 2 * (mb z2.2 (p 0) z3.1) * (sb z0.2 z2.2)) * i29 + ((2) * ((c.e : ℂ)) ^ 2 * (mb z2.2 (p 0) z3.1) * (sb z1.2 z2.2)) * i30 + ((2) * ((c.e : ℂ)) ^ 2 * ((c.mass .e : ℂ)) ^ 2 * (sb z0.2 z2.2) * (sb z2.2 ρ3)) * i31)) * ((1) * ((N.c 0)⁻¹) * ((N.c 1)⁻¹)) + ((2) * ((c.e : ℂ)) ^ 2 * ((c.mass .e : ℂ)) * ((N.c 1)⁻¹) * (ab z0.1 z3.1) * (ab z1.1 ρ2) * (sb z2.2 ρ3) + (-2) * ((c.e : ℂ)) ^ 2 * ((c.mass .e : ℂ)) * ((N.c 1)⁻¹) * (ab z3.1 ρ2) * (sb z0.2 ρ3) * (sb z1.2 z2.2) + (-2) * ((c.e : ℂ)) ^ 2 * ((N.c 1)⁻¹) * (ab z0.1 z3.1) * (ab z3.1 ρ2) * (sb z1.2 z2.2) * (sb z3.2 ρ3) + (-2) * ((c.e : ℂ)) ^ 2 * ((N.c 1)⁻¹) * (ab z0.1 z3.1) * (mb ρ3 (p 0) ρ2) * (sb z1.2 z2.2) + (-2) * ((c.e : ℂ)) ^ 2 * ((N.c 1)⁻¹) * (ab z1.1 ρ2) * (mb z2.2 (p 0) z3.1) * (sb z0.2 ρ3)) * y0 + ((-2) * ((c.e : ℂ)) ^ 2 * ((c.mass .e : ℂ)) * ((N.c 0)⁻¹) * (ab z0.1 ρ2) * (ab z1.1 z3.1) * (sb z2.2 ρ3) + (2) * ((c.e : ℂ)) ^ 2 * ((c.mass .e : ℂ)) * ((N.c 0)⁻¹) * (ab z3.1 ρ2) * (sb z0.2 z2.2) * (sb z1.2 ρ3) + (-2) * ((c.e : ℂ)) ^ 2 * ((N.c 0)⁻¹) * (ab z0.1 ρ2) * (mb z2.2 (p 0) z3.1) * (sb z1.2 ρ3) + (-2) * ((c.e : ℂ)) ^ 2 * ((N.c 0)⁻¹) * (ab z1.1 z3.1) * (ab z2.1 ρ2) * (sb z0.2 z2.2) * (sb z2.2 ρ3) + (-2) * ((c.e : ℂ)) ^ 2 * ((N.c 0)⁻¹) * (ab z1.1 z3.1) * (mb ρ3 (p 0) ρ2) * (sb z0.2 z2.2)) * y1 + ((1) * ((c.e : ℂ)) ^ 2 * ((c.mass .e : ℂ)) * ((N.c 0)⁻¹) * (ab z0.1 ρ2) * (ab z1.1 z3.1) * (sb z2.2 ρ3) + (-1) * ((c.e : ℂ)) ^ 2 * ((c.mass .e : ℂ)) * ((N.c 0)⁻¹) * (ab z3.1 ρ2) * (sb z0.2 z2.2) * (sb z1.2 ρ3) + (-1) * ((c.e : ℂ)) ^ 2 * ((c.mass .e : ℂ)) * ((N.c 1)⁻¹) * (ab z0.1 z3.1) * (ab z1.1 ρ2) * (sb z2.2 ρ3) + (1) * ((c.e : ℂ)) ^ 2 * ((c.mass .e : ℂ)) * ((N.c 1)⁻¹) * (ab z3.1 ρ2) * (sb z0.2 ρ3) * (sb z1.2 z2.2) + (1) * ((c.e : ℂ)) ^ 2 * ((N.c 0)⁻¹) * (ab z0.1 ρ2) * (mb z2.2 (p 0) z3.1) * (sb z1.2 ρ3) + (1) * ((c.e : ℂ)) ^ 2 * ((N.c 0)⁻¹) * (ab z1.1 z3.1) * (ab z2.1 ρ2) * (sb z0.2 z2.2) * (sb z2.2 ρ3) + (1) * ((c.e : ℂ)) ^ 2 * ((N.c 0)⁻¹) * (ab z1.1 z3.1) * (mb ρ3 (p 0) ρ2) * (sb z0.2 z2.2) + (1) * ((c.e : ℂ)) ^ 2 * ((N.c 1)⁻¹) * (ab z0.1 z3.1) * (ab z3.1 ρ2) * (sb z1.2 z2.2) * (sb z3.2 ρ3) + (1) * ((c.e : ℂ)) ^ 2 * ((N.c 1)⁻¹) * (ab z0.1 z3.1) * (mb ρ3 (p 0) ρ2) * (sb z1.2 z2.2) + (1) * ((c.e : ℂ)) ^ 2 * ((N.c 1)⁻¹) * (ab z1.1 ρ2) * (mb z2.2 (p 0) z3.1) * (sb z0.2 ρ3)) * x22
theorem eeAA.keyMP {c : Constants} {p : Nat → V4 ℝ} {N : Env} (hc : c.Physical) (hb : Balanced p) (r0 : N.r 0 = c.e) (d0 : ((msq (plus (p 0) (backward (p 2))) - c.mass .e ^ 2 : ℝ) : ℂ) = N.c 0) (n0 : N.c 0 ≠ 0) (d1 : ((msq (plus (p 0) (backward (p 3))) - c.mass .e ^ 2 : ℝ) : ℂ) = N.c 1) (n1 : N.c 1 ≠ 0) {z0 z1 z2 z3 : Pair} (b0 : Bold (p 0) (c.mass .e) z0) (b1 : Bold (p 1) (c.mass .e) z1) (l2 : Light (p 2) z2) (l3 : Light (p 3) z3) (e20 : mb z2.2 (p 0) z2.1 = -N.c 0) (e21 : mb z2.2 (p 1) z2.1 = -N.c 1) (e30 : mb z3.2 (p 0) z3.1 = -N.c 1) (e31 : mb z3.2 (p 1) z3.1 = -N.c 0) (q0 : msq (p 0) = (c.mass .e) ^ 2) (q1 : msq (p 1) = (c.mass .e) ^ 2) (ρ2 ρ3 : V2) :
    eeAA.formMP N p z0 z1 z2 z3 * sb ρ2 z2.2 * ab ρ3 z3.1 = ((√2 : ℝ) * ((√2 : ℝ) * (1 : ℂ))) * eeAA.react.bare c p 1 0 2 3 z1 z0 (pv z2.1 ρ2) (pv ρ3 z3.2) := by
  rw [eeAA.react.bare_parts c p (i := 1) (j := 0) (a := 2) (b := 3) (x := .photon) (y := .photon) (k := (backward (p 2))) (k' := (backward (p 3))) (fun _ => rfl) (fun _ => rfl) (f := .e) (g := .e) rfl rfl (l := (p 0)) rfl (e := -1) (e' := 1) (if_pos rfl) (if_neg Bool.false_ne_true)]
  rw [compton_vv (f := .e) (x := .e) (g := .e) (h := (rfl : Spec.after .photon Flavour.e = some Flavour.e)) (h' := (rfl : Spec.after .photon Flavour.e = some Flavour.e)) (ha := by simp) (hb := by simp)]
  rw [compton_vv (f := .e) (x := .e) (g := .e) (h := (rfl : Spec.after .photon Flavour.e = some Flavour.e)) (h' := (rfl : Spec.after .photon Flavour.e = some Flavour.e)) (ha := by simp) (hb := by simp)]
  rw [annihilation_none c _ _ (by rfl) (by simp), star_zero, add_zero, eeAA.formMP]
  simp only [d0, d1, lineV_pv, lineV_four, contract_four_pv, contract_pv, mb_plus, mb_backward]
  have i0 := mb_schouten_right z0.2 (p 1) z1.1 z2.1 ρ3
  have i1 := ab_schouten z2.1 z3.1 ρ3 z1.1
  have i2 := mb_schouten_right z0.2 (p 1) z1.1 z2.1 z3.1
  have i3 := mb_schouten_right z2.2 (p 1) z1.1 z2.1 z3.1
  have i4 := mb_schouten_right z2.2 (p 0) z1.1 z2.1 z3.1
  have i5 := mb_schouten_right z3.2 (p 0) z1.1 z2.1 z3.1
  have i6 := sb_schouten z2.2 z3.2 ρ2 z0.2
  have i7 := mb_schouten_left z0.2 z1.2 z3.2 (p 0) z2.1
  have i8 := mb_schouten_right z2.2 (p 0) z0.1 z1.1 z2.1
  have i9 := ab_schouten z1.1 z2.1 ρ3 z0.1
  have i10 := mb_schouten_left z0.2 z2.2 ρ2 (p 0) z2.1
  have i11 := mb_schouten_left z0.2 z1.2 ρ2 (p 0) z2.1
  have i12 := mb_schouten_right z3.2 (p 1) z1.1 z2.1 z3.1
  have i13 := mb_schouten_left z1.2 z2.2 ρ2 (p 0) z2.1
  have i14 := mb_schouten_right z3.2 (p 0) z0.1 z2.1 ρ3
  have i15 := mb_schouten_left z1.2 z2.2 z3.2 (p 0) z2.1
  have i16 := mb_schouten_right ρ2 (p 0) z0.1 z2.1 ρ3
  have i17 := mb_schouten_left z0.2 z2.2 z3.2 (p 0) z2.1
  have i18 := mb_schouten_right ρ2 (p 0) z1.1 z2.1 ρ3
  have i19 := sb_schouten z1.2 z2.2 ρ2 z0.2
  have i20 := mb_schouten_right z2.2 (p 1) z0.1 z1.1 z2.1
  have i21 := mb_schouten_right z3.2 (p 0) z0.1 z1.1 z2.1
  have i22 := ab_schouten z1.1 z3.1 ρ3 z0.1
  have i23 := mb_schouten_left z0.2 z3.2 ρ2 (p 0) z2.1
  have i24 := mb_schouten_right z2.2 (p 1) z0.1 z2.1 ρ3
  have i25 := mb_schouten_right z2.2 (p 0) z0.1 z2.1 ρ3
  have i26 := mb_schouten_right z3.2 (p 0) z0.1 z2.1 z3.1
  have i27 := mb_schouten_right z3.2 (p 1) z0.1 z2.1 z3.1
  have i28 := sb_schouten z1.2 z2.2 z3.2 z0.2
  have i29 := sb_schouten z1.2 z3.2 ρ2 z0.2
  have i30 := sb_schouten z2.2 z3.2 ρ2 z1.2
  have i31 := mb_schouten_right z3.2 (p 0) z1.1 z2.1 ρ3
  have i32 := ab_schouten z2.1 z3.1 ρ3 z0.1
  have i33 := mb_schouten_right z1.2 (p 0) z0.1 z2.1 ρ3
  have i34 := mb_schouten_right z2.2 (p 1) z0.1 z2.1 z3.1
  have i35 := mb_schouten_right z2.2 (p 0) z0.1 z2.1 z3.1
  have i36 := mb_schouten_right z1.2 (p 0) z0.1 z2.1 z3.1
  have i37 := mb_schouten_right z2.2 (p 1) z1.1 z2.1 ρ3
  have i38 := mb_schouten_right z2.2 (p 0) z1.1 z2.1 ρ3
  have i39 := mb_schouten_right z0.2 (p 1) z1.1 z3.1 ρ3
  simp only [l2.mb_eq, l3.mb_eq, b0.mb_left, b0.mb_right, b1.mb_left, b1.mb_right, e20, e21, e30, e31, mb_one hb z0.2 z0.1, mb_one hb z0.2 z2.1, mb_one hb z0.2 z3.1, mb_one hb z0.2 ρ3, mb_nought hb z1.2 z1.1, mb_nought hb z1.2 z2.1, mb_nought hb z1.2 z3.1, mb_nought hb z1.2 ρ3, mb_one hb z2.2 z0.1, mb_nought hb z2.2 z1.1, mb_one hb z2.2 z3.1, mb_one hb z2.2 ρ3, mb_one hb z3.2 z0.1, mb_nought hb z3.2 z1.1, mb_one hb z3.2 z2.1, mb_one hb z3.2 ρ3, mb_one hb ρ2 z0.1, mb_nought hb ρ2 z1.1, mb_one hb ρ2 z2.1, mb_one hb ρ2 z3.1, mb_one hb ρ2 ρ3, ab_self, sb_self] at i0 i1 i2 i3 i4 i5 i6 i7 i8 i9 i10 i11 i12 i13 i14 i15 i16 i17 i18 i19 i20 i21 i22 i23 i24 i25 i26 i27 i28 i29 i30 i31 i32 i33 i34 i35 i36 i37 i38 i39 ⊢
  simp only [ab_swap z0.1 z1.1, ab_swap z0.1 z2.1, ab_swap z0.1 z3.1, ab_swap z0.1 ρ3, ab_swap z1.1 z2.1, ab_swap z1.1 z3.1, ab_swap z1.1 ρ3, ab_swap z2.1 z3.1, ab_swap z2.1 ρ3, ab_swap z3.1 ρ3, sb_swap z0.2 z1.2, sb_swap z0.2 z2.2, sb_swap z0.2 z3.2, sb_swap z0.2 ρ2, sb_swap z1.2 z2.2, sb_swap z1.2 z3.2, sb_swap z1.2 ρ2, sb_swap z2.2 z3.2, sb_swap z2.2 ρ2, sb_swap z3.2 ρ2] at i0 i1 i2 i3 i4 i5 i6 i7 i8 i9 i10 i11 i12 i13 i14 i15 i16 i17 i18 i19 i20 i21 i22 i23 i24 i25 i26 i27 i28 i29 i30 i31 i32 i33 i34 i35 i36 i37 i38 i39 ⊢
  simp only [r0, Constants.hL, Constants.hR, Constants.gL, Constants.gR, Constants.yuk, Constants.invVev, Flavour.charge_e, Flavour.isospin_e, ← c.mz]
  have xMW : (c.MW : ℂ) ≠ 0 := by exact_mod_cast hc.MW
  have xSW : (c.SW : ℂ) ≠ 0 := by exact_mod_cast hc.SW
  have xCW : (c.CW : ℂ) ≠ 0 := by exact_mod_cast hc.CW
  have x2 : ((√2 : ℝ) : ℂ) ≠ 0 := by exact_mod_cast (Real.sqrt_pos.2 two_pos).ne'
  have x22 : ((√2 : ℝ) : ℂ) ^ 2 = 2 := by rw [← Complex.ofReal_pow, Real.sq_sqrt two_pos.le]; norm_num
  have x23 : ((√2 : ℝ) : ℂ) ^ 3 = 2 * ((√2 : ℝ) : ℂ) := by rw [← x22]; ring
  have x24 : ((√2 : ℝ) : ℂ) ^ 4 = 4 := by linear_combination (((√2 : ℝ) : ℂ) ^ 2 + 2) * x22
  push_cast at i0 i1 i2 i3 i4 i5 i6 i7 i8 i9 i10 i11 i12 i13 i14 i15 i16 i17 i18 i19 i20 i21 i22 i23 i24 i25 i26 i27 i28 i29 i30 i31 i32 i33 i34 i35 i36 i37 i38 i39 ⊢
  have y0 := mul_inv_cancel₀ n0
  have y1 := mul_inv_cancel₀ n1
  linear_combination ((((4) * ((c.e : ℂ)) ^ 2 * (N.c 1) * (sb z3.2 ρ2) + (-2) * ((c.e : ℂ)) ^ 2 * (mb z3.2 (p 0) z2.1) * (sb z2.2 ρ2)) * i0 + ((2) * ((c.e : ℂ)) ^ 2 * (N.c 0) * (sb z0.2 z3.2) * (sb z3.2 ρ2) + (-2) * ((c.e : ℂ)) ^ 2 * (N.c 1) * (sb z0.2 z3.2) * (sb z3.2 ρ2) + (2) * ((c.e : ℂ)) ^ 2 * (mb z3.2 (p 0) z2.1) * (sb z0.2 z2.2) * (sb z3.2 ρ2) + (2) * ((c.e : ℂ)) ^ 2 * (mb z3.2 (p 0) z2.1) * (sb z0.2 z3.2) * (sb z2.2 ρ2)) * i1 + ((-4) * ((c.e : ℂ)) ^ 2 * (ab z2.1 ρ3) * (sb z2.2 z3.2) * (sb z3.2 ρ2)) * i2 + ((-2) * ((c.e : ℂ)) ^ 2 * (ab z2.1 ρ3) * (sb z0.2 z3.2) * (sb z3.2 ρ2)) * i3 + ((-2) * ((c.e : ℂ)) ^ 2 * (ab z2.1 ρ3) * (sb z0.2 z3.2) * (sb z3.2 ρ2)) * i4 + ((4) * ((c.e : ℂ)) ^ 2 * (ab z2.1 ρ3) * (sb z0.2 z2.2) * (sb z3.2 ρ2) + (2) * ((c.e : ℂ)) ^ 2 * (ab z3.1 ρ3) * (sb z0.2 z3.2) * (sb z3.2 ρ2)) * i5 + ((2) * ((c.e : ℂ)) ^ 2 * ((c.mass .e : ℂ)) * (ab z2.1 z3.1) * (ab z2.1 ρ3) * (sb z1.2 z3.2) + (2) * ((c.e : ℂ)) ^ 2 * ((c.mass .e : ℂ)) ^ 2 * (ab z1.1 z2.1) * (ab z2.1 ρ3) + (-2) * ((c.e : ℂ)) ^ 2 * (ab z1.1 z2.1) * (ab z3.1 ρ3) * (mb z3.2 (p 0) z2.1) + (2) * ((c.e : ℂ)) ^ 2 * (ab z1.1 z3.1) * (ab z2.1 ρ3) * (mb z3.2 (p 0) z2.1)) * i6 + ((2) * ((c.e : ℂ)) ^ 2 * ((c.mass .e : ℂ)) * (ab z3.1 ρ3) * (sb z3.2 ρ2)) * i7 + ((2) * ((c.e : ℂ)) ^ 2 * ((c.mass .e : ℂ)) * (ab z2.1 ρ3) * (sb z3.2 ρ2)) * i8 + ((2) * ((c.e : ℂ)) ^ 2 * ((c.mass .e : ℂ)) * (N.c 0) * (sb z3.2 ρ2) + (4) * ((c.e : ℂ)) ^ 2 * ((c.mass .e : ℂ)) * (N.c 1) * (sb z3.2 ρ2) + (-2) * ((c.e : ℂ)) ^ 2 * ((c.mass .e : ℂ)) * (mb z3.2 (p 0) z2.1) * (sb z2.2 ρ2)) * i9 + ((2) * ((c.e : ℂ)) ^ 2 * (ab z1.1 z2.1) * (ab z2.1 ρ3) * (sb z2.2 z3.2) + (2) * ((c.e : ℂ)) ^ 2 * (ab z1.1 z2.1) * (mb z3.2 (p 0) ρ3)) * i10 + ((-2) * ((c.e : ℂ)) ^ 2 * ((c.mass .e : ℂ)) * (ab z2.1 ρ3) * (sb z2.2 z3.2)) * i11 + ((4) * ((c.e : ℂ)) ^ 2 * (ab z2.1 ρ3) * (sb z0.2 z3.2) * (sb z2.2 ρ2)) * i12 + ((2) * ((c.e : ℂ)) ^ 2 * (ab z0.1 z2.1) * (mb z3.2 (p 0) ρ3)) * i13 + ((2) * ((c.e : ℂ)) ^ 2 * (N.c 1) * (sb z1.2 ρ2) + (2) * ((c.e : ℂ)) ^ 2 * (ab z2.1 z3.1) * (sb z1.2 z2.2) * (sb z3.2 ρ2) + (-2) * ((c.e : ℂ)) ^ 2 * (mb ρ2 (p 0) z2.1) * (sb z1.2 z2.2)) * i14 + ((-2) * ((c.e : ℂ)) ^ 2 * (ab z0.1 z2.1) * (mb ρ2 (p 0) ρ3)) * i15 + ((2) * ((c.e : ℂ)) ^ 2 * (mb z3.2 (p 0) z2.1) * (sb z1.2 z2.2)) * i16 + ((-2) * ((c.e : ℂ)) ^ 2 * (ab z1.1 z2.1) * (mb ρ2 (p 0) ρ3)) * i17 + ((4) * ((c.e : ℂ)) ^ 2 * (N.c 0) * (sb z0.2 z3.2) + (2) * ((c.e : ℂ)) ^ 2 * (mb z3.2 (p 0) z2.1) * (sb z0.2 z2.2)) * i18 + ((-2) * ((c.e : ℂ)) ^ 2 * ((c.mass .e : ℂ)) * (ab z2.1 ρ3) * (mb z3.2 (p 0) z2.1)) * i19 + ((4) * ((c.e : ℂ)) ^ 2 * ((c.mass .e : ℂ)) * (ab z2.1 ρ3) * (sb z3.2 ρ2)) * i20 + ((2) * ((c.e : ℂ)) ^ 2 * ((c.mass .e : ℂ)) * (ab z2.1 ρ3) * (sb z2.2 ρ2) + (-2) * ((c.e : ℂ)) ^ 2 * ((c.mass .e : ℂ)) * (ab z3.1 ρ3) * (sb z3.2 ρ2)) * i21 + ((2) * ((c.e : ℂ)) ^ 2 * ((c.mass .e : ℂ)) * (mb z3.2 (p 0) z2.1) * (sb z3.2 ρ2)) * i22 + ((4) * ((c.e : ℂ)) ^ 2 * (N.c 0) * (ab z1.1 ρ3)) * i23 + ((-2) * ((c.e : ℂ)) ^ 2 * ((c.mass .e : ℂ)) * (ab z1.1 z2.1) * (sb z3.2 ρ2) + (2) * ((c.e : ℂ)) ^ 2 * (mb z3.2 (p 0) z2.1) * (sb z1.2 ρ2)) * i24 + ((-2) * ((c.e : ℂ)) ^ 2 * ((c.mass .e : ℂ)) * (ab z1.1 z2.1) * (sb z3.2 ρ2) + (2) * ((c.e : ℂ)) ^ 2 * (mb z3.2 (p 0) z2.1) * (sb z1.2 ρ2)) * i25 + ((2) * ((c.e : ℂ)) ^ 2 * (ab z2.1 ρ3) * (sb z1.2 z2.2) * (sb z3.2 ρ2) + (-2) * ((c.e : ℂ)) ^ 2 * (ab z2.1 ρ3) * (sb z1.2 z3.2) * (sb z2.2 ρ2) + (2) * ((c.e : ℂ)) ^ 2 * (mb z3.2 (p 0) ρ3) * (sb z1.2 ρ2) + (-2) * ((c.e : ℂ)) ^ 2 * (mb ρ2 (p 0) ρ3) * (sb z1.2 z3.2)) * i26 + ((2) * ((c.e : ℂ)) ^ 2 * (ab z2.1 ρ3) * (sb z1.2 z2.2) * (sb z3.2 ρ2) + (2) * ((c.e : ℂ)) ^ 2 * (mb z3.2 (p 0) ρ3) * (sb z1.2 ρ2) + (-2) * ((c.e : ℂ)) ^ 2 * (mb ρ2 (p 0) ρ3) * (sb z1.2 z3.2)) * i27 + ((-2) * ((c.e : ℂ)) ^ 2 * ((c.mass .e : ℂ)) * (ab z2.1 z3.1) * (ab z2.1 ρ3) * (sb z3.2 ρ2) + (2) * ((c.e : ℂ)) ^ 2 * ((c.mass .e : ℂ)) * (ab z2.1 ρ3) * (mb ρ2 (p 0) z2.1)) * i28 + ((-2) * ((c.e : ℂ)) ^ 2 * ((c.mass .e : ℂ)) * (N.c 0) * (ab z2.1 ρ3) + (2) * ((c.e : ℂ)) ^ 2 * ((c.mass .e : ℂ)) * (N.c 1) * (ab z2.1 ρ3)) * i29 + ((2) * ((c.e : ℂ)) ^ 2 * ((c.mass .e : ℂ)) ^ 2 * (ab z0.1 z2.1) * (ab z2.1 ρ3) + (-2) * ((c.e : ℂ)) ^ 2 * (ab z0.1 z2.1) * (ab z2.1 z3.1) * (mb z3.2 (p 0) ρ3) + (-2) * ((c.e : ℂ)) ^ 2 * (ab z0.1 z2.1) * (ab z3.1 ρ3) * (mb z3.2 (p 0) z2.1) + (2) * ((c.e : ℂ)) ^ 2 * (ab z0.1 z3.1) * (ab z2.1 ρ3) * (mb z3.2 (p 0) z2.1)) * i30 + ((-2) * ((c.e : ℂ)) ^ 2 * (N.c 0) * (sb z0.2 ρ2) + (-2) * ((c.e : ℂ)) ^ 2 * (mb ρ2 (p 0) z2.1) * (sb z0.2 z2.2)) * i31 + ((-2) * ((c.e : ℂ)) ^ 2 * (N.c 0) * (sb z1.2 z3.2) * (sb z3.2 ρ2) + (-2) * ((c.e : ℂ)) ^ 2 * (N.c 1) * (sb z1.2 z3.2) * (sb z3.2 ρ2) + (2) * ((c.e : ℂ)) ^ 2 * (mb z3.2 (p 0) z2.1) * (sb z1.2 z2.2) * (sb z3.2 ρ2)) * i32 + ((2) * ((c.e : ℂ)) ^ 2 * (N.c 0) * (sb z3.2 ρ2) + (2) * ((c.e : ℂ)) ^ 2 * (N.c 1) * (sb z3.2 ρ2)) * i33 + ((-2) * ((c.e : ℂ)) ^ 2 * (ab z2.1 ρ3) * (sb z1.2 z3.2) * (sb z3.2 ρ2)) * i34 + ((-2) * ((c.e : ℂ)) ^ 2 * (ab z2.1 ρ3) * (sb z1.2 z3.2) * (sb z3.2 ρ2)) * i35 + ((-2) * ((c.e : ℂ)) ^ 2 * (ab z2.1 ρ3) * (sb z2.2 z3.2) * (sb z3.2 ρ2)) * i36 + ((-2) * ((c.e : ℂ)) ^ 2 * (ab z2.1 z3.1) * (sb z0.2 z3.2) * (sb z3.2 ρ2) + (2) * ((c.e : ℂ)) ^ 2 * (mb z3.2 (p 0) z2.1) * (sb z0.2 ρ2)) * i37 + ((-2) * ((c.e : ℂ)) ^ 2 * (ab z2.1 z3.1) * (sb z0.2 z3.2) * (sb z3.2 ρ2) + (2) * ((c.e : ℂ)) ^ 2 * (mb z3.2 (p 0) z2.1) * (sb z0.2 ρ2)) * i38 + ((2) * ((c.e : ℂ)) ^ 2 * (mb z3.2 (p 0) z2.1) * (sb z3.2 ρ2)) * i39)) * ((1) * ((N.c 0)⁻¹) * ((N.c 1)⁻¹)) + ((-2) * ((c.e : ℂ)) ^ 2 * ((c.mass .e : ℂ)) * ((N.c 1)⁻¹) * (ab z0.1 ρ3) * (ab z1.1 z2.1) * (sb z3.2 ρ2) + (2) * ((c.e : ℂ)) ^ 2 * ((c.mass .e : ℂ)) * ((N.c 1)⁻¹) * (ab z2.1 ρ3) * (sb z0.2 z3.2) * (sb z1.2 ρ2) + (-2) * ((c.e : ℂ)) ^ 2 * ((N.c 1)⁻¹) * (ab z0.1 ρ3) * (mb z3.2 (p 0) z2.1) * (sb z1.2 ρ2) + (-2) * ((c.e : ℂ)) ^ 2 * ((N.c 1)⁻¹) * (ab z1.1 z2.1) * (ab z3.1 ρ3) * (sb z0.2 z3.2) * (sb z3.2 ρ2) + (-2) * ((c.e : ℂ)) ^ 2 * ((N.c 1)⁻¹) * (ab z1.1 z2.1) * (mb ρ2 (p 0) ρ3) * (sb z0.2 z3.2)) * y0 + ((2) * ((c.e : ℂ)) ^ 2 * ((c.mass .e : ℂ)) * ((N.c 0)⁻¹) * (ab z0.1 z2.1) * (ab z1.1 ρ3) * (sb z3.2 ρ2) + (-2) * ((c.e : ℂ)) ^ 2 * ((c.mass .e : ℂ)) * ((N.c 0)⁻¹) * (ab z2.1 ρ3) * (sb z0.2 ρ2) * (sb z1.2 z3.2) + (-2) * ((c.e : ℂ)) ^ 2 * ((N.c 0)⁻¹) * (ab z0.1 z2.1) * (ab z2.1 ρ3) * (sb z1.2 z3.2) * (sb z2.2 ρ2) + (-2) * ((c.e : ℂ)) ^ 2 * ((N.c 0)⁻¹) * (ab z0.1 z2.1) * (mb ρ2 (p 0) ρ3) * (sb z1.2 z3.2) + (-2) * ((c.e : ℂ)) ^ 2 * ((N.c 0)⁻¹) * (ab z1.1 ρ3) * (mb z3.2 (p 0) z2.1) * (sb z0.2 ρ2)) * y1 + ((-1) * ((c.e : ℂ)) ^ 2 * ((c.mass .e : ℂ)) * ((N.c 0)⁻¹) * (ab z0.1 z2.1) * (ab z1.1 ρ3) * (sb z3.2 ρ2) + (1) * ((c.e : ℂ)) ^ 2 * ((c.mass .e : ℂ)) * ((N.c 0)⁻¹) * (ab z2.1 ρ3) * (sb z0.2 ρ2) * (sb z1.2 z3.2) + (1) * ((c.e : ℂ)) ^ 2 * ((c.mass .e : ℂ)) * ((N.c 1)⁻¹) * (ab z0.1 ρ3) * (ab z1.1 z2.1) * (sb z3.2 ρ2) + (-1) * ((c.e : ℂ)) ^ 2 * ((c.mass .e : ℂ)) * ((N.c 1)⁻¹) * (ab z2.1 ρ3) * (sb z0.2 z3.2) * (sb z1.2 ρ2) + (1) * ((c.e : ℂ)) ^ 2 * ((N.c 0)⁻¹) * (ab z0.1 z2.1) * (ab z2.1 ρ3) * (sb z1.2 z3.2) * (sb z2.2 ρ2) + (1) * ((c.e : ℂ)) ^ 2 * ((N.c 0)⁻¹) * (ab z0.1 z2.1) * (mb ρ2 (p 0) ρ3) * (sb z1.2 z3.2) + (1) * ((c.e : ℂ)) ^ 2 * ((N.c 0)⁻¹) * (ab z1.1 ρ3) * (mb z3.2 (p 0) z2.1) * (sb z0.2 ρ2) + (1) * ((c.e : ℂ)) ^ 2 * ((N.c 1)⁻¹) * (ab z0.1 ρ3) * (mb z3.2 (p 0) z2.1) * (sb z1.2 ρ2) + (1) * ((c.e : ℂ)) ^ 2 * ((N.c 1)⁻¹) * (ab z1.1 z2.1) * (ab z3.1 ρ3) * (sb z0.2 z3.2) * (sb z3.2 ρ2) + (1) * ((c.e : ℂ)) ^ 2 * ((N.c 1)⁻¹) * (ab z1.1 z2.1) * (mb ρ2 (p 0) ρ3) * (sb z0.2 z3.2)) * x22
theorem eeAA.keyMM {c : Constants} {p : Nat → V4 ℝ} {N : Env} (hc : c.Physical) (hb : Balanced p) (r0 : N.r 0 = c.e) (r1 : N.r 1 = (c.mass .e)) (d0 : ((msq (plus (p 0) (backward (p 2))) - c.mass .e ^ 2 : ℝ) : ℂ) = N.c 0) (n0 : N.c 0 ≠ 0) (d1 : ((msq (plus (p 0) (backward (p 3))) - c.mass .e ^ 2 : ℝ) : ℂ) = N.c 1) (n1 : N.c 1 ≠ 0) {z0 z1 z2 z3 : Pair} (b0 : Bold (p 0) (c.mass .e) z0) (b1 : Bold (p 1) (c.mass .e) z1) (l2 : Light (p 2) z2) (l3 : Light (p 3) z3) (e20 : mb z2.2 (p 0) z2.1 = -N.c 0) (e21 : mb z2.2 (p 1) z2.1 = -N.c 1) (e30 : mb z3.2 (p 0) z3.1 = -N.c 1) (e31 : mb z3.2 (p 1) z3.1 = -N.c 0) (q0 : msq (p 0) = (c.mass .e) ^ 2) (q1 : msq (p 1) = (c.mass .e) ^ 2) (ρ2 ρ3 : V2) :
    eeAA.formMM N p z0 z1 z2 z3 * sb ρ2 z2.2 * sb ρ3 z3.2 = ((√2 : ℝ) * ((√2 : ℝ) * (-1 : ℂ))) * eeAA.react.bare c p 1 0 2 3 z1 z0 (pv z2.1 ρ2) (pv z3.1 ρ3) := by
  rw [eeAA.react.bare_parts c p (i := 1) (j := 0) (a := 2) (b := 3) (x := .photon) (y := .photon) (k := (backward (p 2))) (k' := (backward (p 3))) (fun _ => rfl) (fun _ => rfl) (f := .e) (g := .e) rfl rfl (l := (p 0)) rfl (e := -1) (e' := 1) (if_pos rfl) (if_neg Bool.false_ne_true)]
  rw [compton_vv (f := .e) (x := .e) (g := .e) (h := (rfl : Spec.after .photon Flavour.e = some Flavour.e)) (h' := (rfl : Spec.after .photon Flavour.e = some Flavour.e)) (ha := by simp) (hb := by simp)]
  rw [compton_vv (f := .e) (x := .e) (g := .e) (h := (rfl : Spec.after .photon Flavour.e = some Flavour.e)) (h' := (rfl : Spec.after .photon Flavour.e = some Flavour.e)) (ha := by simp) (hb := by simp)]
  rw [annihilation_none c _ _ (by rfl) (by simp), star_zero, add_zero, eeAA.formMM]
  simp only [d0, d1, lineV_pv, lineV_four, contract_four_pv, contract_pv, mb_plus, mb_backward]
  have i0 := mb_schouten_left z0.2 z1.2 z2.2 (p 0) z2.1
  have i1 := mb_schouten_right z3.2 (p 1) z0.1 z2.1 z3.1
  have i2 := mb_schouten_right z1.2 (p 0) z0.1 z2.1 z3.1
  have i3 := mb_schouten_right z2.2 (p 0) z0.1 z1.1 z2.1
  have i4 := ab_schouten z1.1 z2.1 z3.1 z0.1
  have i5 := mb_schouten_right z3.2 (p 0) z0.1 z2.1 z3.1
  have i6 := sb_schouten z3.2 ρ2 ρ3 z2.2
  have i7 := mb_schouten_right z2.2 (p 1) z0.1 z2.1 z3.1
  have i8 := sb_schouten z1.2 z2.2 z3.2 z0.2
  have i9 := sb_schouten z3.2 ρ2 ρ3 z0.2
  have i10 := mb_schouten_left z0.2 z2.2 ρ3 (p 0) z2.1
  have i11 := mb_schouten_left z0.2 z2.2 ρ2 (p 0) z2.1
  have i12 := mb_schouten_left z0.2 z1.2 ρ2 (p 0) z2.1
  have i13 := mb_schouten_right z2.2 (p 1) z0.1 z1.1 z2.1
  have i14 := sb_schouten z1.2 ρ2 ρ3 z0.2
  have i15 := mb_schouten_right ρ2 (p 0) z1.1 z2.1 z3.1
  have i16 := sb_schouten z2.2 ρ2 ρ3 z1.2
  have i17 := sb_schouten z2.2 ρ2 ρ3 z0.2
  have i18 := sb_schouten z1.2 z2.2 ρ2 z0.2
  have i19 := mb_schouten_left z0.2 ρ2 ρ3 (p 0) z2.1
  have i20 := mb_schouten_right z2.2 (p 0) z0.1 z2.1 z3.1
  have i21 := mb_schouten_left z1.2 z2.2 ρ3 (p 0) z2.1
  have i22 := mb_schouten_right ρ2 (p 0) z0.1 z2.1 z3.1
  have i23 := mb_schouten_left z1.2 z2.2 ρ2 (p 0) z2.1
  have i24 := mb_schouten_right ρ3 (p 0) z0.1 z2.1 z3.1
  have i25 := mb_schouten_right ρ3 (p 0) z1.1 z2.1 z3.1
  have i26 := sb_schouten z1.2 z2.2 ρ3 z0.2
  have i27 := sb_schouten z2.2 z3.2 ρ2 z1.2
  have i28 := sb_schouten z2.2 z3.2 ρ3 z1.2
  have i29 := mb_schouten_right z0.2 (p 1) z1.1 z2.1 z3.1
  have i30 := sb_schouten z2.2 z3.2 ρ2 z0.2
  have i31 := mb_schouten_right z2.2 (p 1) z1.1 z2.1 z3.1
  have i32 := mb_schouten_right z2.2 (p 0) z1.1 z2.1 z3.1
  have i33 := mb_schouten_left z0.2 z1.2 ρ3 (p 0) z2.1
  simp only [l2.mb_eq, l3.mb_eq, b0.mb_left, b0.mb_right, b1.mb_left, b1.mb_right, e20, e21, e30, e31, mb_one hb z0.2 z0.1, mb_one hb z0.2 z2.1, mb_one hb z0.2 z3.1, mb_nought hb z1.2 z1.1, mb_nought hb z1.2 z2.1, mb_nought hb z1.2 z3.1, mb_one hb z2.2 z0.1, mb_nought hb z2.2 z1.1, mb_one hb z2.2 z3.1, mb_one hb z3.2 z0.1, mb_nought hb z3.2 z1.1, mb_one hb z3.2 z2.1, mb_one hb ρ2 z0.1, mb_nought hb ρ2 z1.1, mb_one hb ρ2 z2.1, mb_one hb ρ2 z3.1, mb_one hb ρ3 z0.1, mb_nought hb ρ3 z1.1, mb_one hb ρ3 z2.1, mb_one hb ρ3 z3.1, ab_self, sb_self] at i0 i1 i2 i3 i4 i5 i6 i7 i8 i9 i10 i11 i12 i13 i14 i15 i16 i17 i18 i19 i20 i21 i22 i23 i24 i25 i26 i27 i28 i29 i30 i31 i32 i33 ⊢
  simp only [ab_swap z0.1 z1.1, ab_swap z0.1 z2.1, ab_swap z0.1 z3.1, ab_swap z1.1 z2.1, ab_swap z1.1 z3.1, ab_swap z2.1 z3.1, sb_swap z0.2 z1.2, sb_swap z0.2 z2.2, sb_swap z0.2 z3.2, sb_swap z0.2 ρ2, sb_swap z0.2 ρ3, sb_swap z1.2 z2.2, sb_swap z1.2 z3.2, sb_swap z1.2 ρ2, sb_swap z1.2 ρ3, sb_swap z2.2 z3.2, sb_swap z2.2 ρ2, sb_swap z2.2 ρ3, sb_swap z3.2 ρ2, sb_swap z3.2 ρ3, sb_swap ρ2 ρ3] at i0 i1 i2 i3 i4 i5 i6 i7 i8 i9 i10 i11 i12 i13 i14 i15 i16 i17 i18 i19 i20 i21 i22 i23 i24 i25 i26 i27 i28 i29 i30 i31 i32 i33 ⊢
  simp only [r0, r1, Constants.hL, Constants.hR, Constants.gL, Constants.gR, Constants.yuk, Constants.invVev, Flavour.charge_e, Flavour.isospin_e, ← c.mz]
  have xMW : (c.MW : ℂ) ≠ 0 := by exact_mod_cast hc.MW
  have xSW : (c.SW : ℂ) ≠ 0 := by exact_mod_cast hc.SW
  have xCW : (c.CW : ℂ) ≠ 0 := by exact_mod_cast hc.CW
  have x2 : ((√2 : ℝ) : ℂ) ≠ 0 := by exact_mod_cast (Real.sqrt_pos.2 two_pos).ne'
  have x22 : ((√2 : ℝ) : ℂ) ^ 2 = 2 := by rw [← Complex.ofReal_pow, Real.sq_sqrt two_pos.le]; norm_num
  have x23 : ((√2 : ℝ) : ℂ) ^ 3 = 2 * ((√2 : ℝ) : ℂ) := by rw [← x22]; ring
  have x24 : ((√2 : ℝ) : ℂ) ^ 4 = 4 := by linear_combination (((√2 : ℝ) : ℂ) ^ 2 + 2) * x22
  push_cast at i0 i1 i2 i3 i4 i5 i6 i7 i8 i9 i10 i11 i12 i13 i14 i15 i16 i17 i18 i19 i20 i21 i22 i23 i24 i25 i26 i27 i28 i29 i30 i31 i32 i33 ⊢
  have y0 := mul_inv_cancel₀ n0
  have y1 := mul_inv_cancel₀ n1
  linear_combination ((((-4) * ((c.e : ℂ)) ^ 2 * ((c.mass .e : ℂ)) * (ab z2.1 z3.1) * (sb ρ2 ρ3)) * i0 + ((-4) * ((c.e : ℂ)) ^ 2 * (ab z2.1 z3.1) * (sb z1.2 z2.2) * (sb ρ2 ρ3) + (2) * ((c.e : ℂ)) ^ 2 * (ab z2.1 z3.1) * (sb z1.2 ρ2) * (sb z2.2 ρ3) + (2) * ((c.e : ℂ)) ^ 2 * (mb ρ2 (p 0) z3.1) * (sb z1.2 ρ3) + (-2) * ((c.e : ℂ)) ^ 2 * (mb ρ3 (p 0) z3.1) * (sb z1.2 ρ2)) * i1 + ((-2) * ((c.e : ℂ)) ^ 2 * (N.c 0) * (sb ρ2 ρ3) + (-2) * ((c.e : ℂ)) ^ 2 * (N.c 1) * (sb ρ2 ρ3) + (2) * ((c.e : ℂ)) ^ 2 * (ab z2.1 z3.1) * (sb z2.2 z3.2) * (sb ρ2 ρ3) + (2) * ((c.e : ℂ)) ^ 2 * (ab z2.1 z3.1) * (sb z2.2 ρ2) * (sb z3.2 ρ3) + (-2) * ((c.e : ℂ)) ^ 2 * (mb ρ3 (p 0) z2.1) * (sb z2.2 ρ2)) * i2 + ((6) * ((c.e : ℂ)) ^ 2 * ((c.mass .e : ℂ)) * (ab z2.1 z3.1) * (sb ρ2 ρ3)) * i3 + ((6) * ((c.e : ℂ)) ^ 2 * ((c.mass .e : ℂ)) * (N.c 0) * (sb ρ2 ρ3) + (4) * ((c.e : ℂ)) ^ 2 * ((c.mass .e : ℂ)) * (N.c 1) * (sb ρ2 ρ3)) * i4 + ((-4) * ((c.e : ℂ)) ^ 2 * (ab z2.1 z3.1) * (sb z1.2 z2.2) * (sb ρ2 ρ3) + (2) * ((c.e : ℂ)) ^ 2 * (ab z2.1 z3.1) * (sb z1.2 ρ2) * (sb z2.2 ρ3) + (2) * ((c.e : ℂ)) ^ 2 * (mb ρ2 (p 0) z3.1) * (sb z1.2 ρ3) + (-2) * ((c.e : ℂ)) ^ 2 * (mb ρ3 (p 0) z3.1) * (sb z1.2 ρ2)) * i5 + ((-4) * ((c.e : ℂ)) ^ 2 * ((c.mass .e : ℂ)) * (ab z0.1 z2.1) * (ab z1.1 z3.1) * (ab z2.1 z3.1)) * i6 + ((-2) * ((c.e : ℂ)) ^ 2 * ((c.mass .e : ℂ)) * (ab z1.1 z2.1) * (sb ρ2 ρ3) + (2) * ((c.e : ℂ)) ^ 2 * (ab z2.1 z3.1) * (sb z1.2 z3.2) * (sb ρ2 ρ3) + (-2) * ((c.e : ℂ)) ^ 2 * (mb ρ3 (p 0) z2.1) * (sb z1.2 ρ2)) * i7 + ((-2) * ((c.e : ℂ)) ^ 2 * ((c.mass .e : ℂ)) * (ab z2.1 z3.1) ^ 2 * (sb ρ2 ρ3)) * i8 + ((2) * ((c.e : ℂ)) ^ 2 * ((c.mass .e : ℂ)) * (ab z2.1 z3.1) ^ 2 * (sb z1.2 z2.2)) * i9 + ((4) * ((c.e : ℂ)) ^ 2 * (ab z1.1 z2.1) * (ab z2.1 z3.1) * (sb z2.2 ρ2) + (2) * ((c.e : ℂ)) ^ 2 * (ab z1.1 z2.1) * (mb ρ2 (p 0) z3.1) + (4) * ((c.e : ℂ)) ^ 2 * (ab z1.1 z3.1) * (ab z2.1 z3.1) * (sb z3.2 ρ2)) * i10 + ((-2) * ((c.e : ℂ)) ^ 2 * (ab z1.1 z2.1) * (ab z2.1 z3.1) * (sb z2.2 ρ3) + (-2) * ((c.e : ℂ)) ^ 2 * (ab z1.1 z2.1) * (mb ρ3 (p 0) z3.1) + (-2) * ((c.e : ℂ)) ^ 2 * (ab z1.1 z3.1) * (ab z2.1 z3.1) * (sb z3.2 ρ3)) * i11 + ((2) * ((c.e : ℂ)) ^ 2 * ((c.mass .e : ℂ)) * (ab z2.1 z3.1) * (sb z2.2 ρ3)) * i12 + ((4) * ((c.e : ℂ)) ^ 2 * ((c.mass .e : ℂ)) * (ab z2.1 z3.1) * (sb ρ2 ρ3)) * i13 + ((-2) * ((c.e : ℂ)) ^ 2 * ((c.mass .e : ℂ)) * (N.c 0) * (ab z2.1 z3.1) + (2) * ((c.e : ℂ)) ^ 2 * ((c.mass .e : ℂ)) * (N.c 1) * (ab z2.1 z3.1)) * i14 + ((-4) * ((c.e : ℂ)) ^ 2 * (N.c 0) * (sb z0.2 ρ3) + (-2) * ((c.e : ℂ)) ^ 2 * (mb ρ3 (p 0) z2.1) * (sb z0.2 z2.2)) * i15 + ((2) * ((c.e : ℂ)) ^ 2 * ((c.mass .e : ℂ)) ^ 2 * (ab z0.1 z2.1) * (ab z2.1 z3.1) + (-2) * ((c.e : ℂ)) ^ 2 * (N.c 0) * (ab z0.1 z2.1) * (ab z2.1 z3.1) + (-2) * ((c.e : ℂ)) ^ 2 * (N.c 1) * (ab z0.1 z2.1) * (ab z2.1 z3.1) + (2) * ((c.e : ℂ)) ^ 2 * (ab z0.1 z2.1) * (ab z2.1 z3.1) ^ 2 * (sb z2.2 z3.2)) * i16 + ((2) * ((c.e : ℂ)) ^ 2 * ((c.mass .e : ℂ)) * (ab z2.1 z3.1) ^ 2 * (sb z1.2 z3.2) + (2) * ((c.e : ℂ)) ^ 2 * ((c.mass .e : ℂ)) ^ 2 * (ab z1.1 z2.1) * (ab z2.1 z3.1)) * i17 + ((2) * ((c.e : ℂ)) ^ 2 * ((c.mass .e : ℂ)) * (ab z2.1 z3.1) * (mb ρ3 (p 0) z2.1)) * i18 + ((4) * ((c.e : ℂ)) ^ 2 * (N.c 0) * (ab z1.1 z3.1)) * i19 + ((-2) * ((c.e : ℂ)) ^ 2 * ((c.mass .e : ℂ)) * (ab z1.1 z2.1) * (sb ρ2 ρ3) + (2) * ((c.e : ℂ)) ^ 2 * (ab z2.1 z3.1) * (sb z1.2 z3.2) * (sb ρ2 ρ3) + (-2) * ((c.e : ℂ)) ^ 2 * (mb ρ3 (p 0) z2.1) * (sb z1.2 ρ2)) * i20 + ((2) * ((c.e : ℂ)) ^ 2 * (ab z0.1 z2.1) * (ab z2.1 z3.1) * (sb z2.2 ρ2) + (2) * ((c.e : ℂ)) ^ 2 * (ab z0.1 z2.1) * (mb ρ2 (p 0) z3.1)) * i21 + ((2) * ((c.e : ℂ)) ^ 2 * (ab z2.1 z3.1) * (sb z1.2 z2.2) * (sb z3.2 ρ3) + (-2) * ((c.e : ℂ)) ^ 2 * (mb ρ3 (p 0) z2.1) * (sb z1.2 z2.2)) * i22 + ((-2) * ((c.e : ℂ)) ^ 2 * (ab z0.1 z2.1) * (mb ρ3 (p 0) z3.1) + (2) * ((c.e : ℂ)) ^ 2 * (ab z0.1 z3.1) * (ab z2.1 z3.1) * (sb z3.2 ρ3)) * i23 + ((-2) * ((c.e : ℂ)) ^ 2 * (N.c 1) * (sb z1.2 ρ2) + (-2) * ((c.e : ℂ)) ^ 2 * (ab z2.1 z3.1) * (sb z1.2 z2.2) * (sb z3.2 ρ2) + (2) * ((c.e : ℂ)) ^ 2 * (mb ρ2 (p 0) z2.1) * (sb z1.2 z2.2)) * i24 + ((2) * ((c.e : ℂ)) ^ 2 * (N.c 0) * (sb z0.2 ρ2) + (2) * ((c.e : ℂ)) ^ 2 * (mb ρ2 (p 0) z2.1) * (sb z0.2 z2.2)) * i25 + ((-2) * ((c.e : ℂ)) ^ 2 * ((c.mass .e : ℂ)) * (ab z2.1 z3.1) * (mb ρ2 (p 0) z2.1)) * i26 + ((2) * ((c.e : ℂ)) ^ 2 * (ab z0.1 z2.1) * (ab z2.1 z3.1) * (mb ρ3 (p 0) z3.1) + (-2) * ((c.e : ℂ)) ^ 2 * (ab z0.1 z3.1) * (ab z2.1 z3.1) * (mb ρ3 (p 0) z2.1)) * i27 + ((-2) * ((c.e : ℂ)) ^ 2 * (ab z0.1 z2.1) * (ab z2.1 z3.1) * (mb ρ2 (p 0) z3.1) + (-2) * ((c.e : ℂ)) ^ 2 * (ab z0.1 z2.1) * (ab z2.1 z3.1) ^ 2 * (sb z2.2 ρ2)) * i28 + ((-2) * ((c.e : ℂ)) ^ 2 * (mb ρ3 (p 0) z2.1) * (sb z2.2 ρ2)) * i29 + ((-2) * ((c.e : ℂ)) ^ 2 * (ab z1.1 z3.1) * (ab z2.1 z3.1) * (mb ρ3 (p 0) z2.1)) * i30 + ((-2) * ((c.e : ℂ)) ^ 2 * (mb ρ3 (p 0) z2.1) * (sb z0.2 ρ2)) * i31 + ((-2) * ((c.e : ℂ)) ^ 2 * (mb ρ3 (p 0) z2.1) * (sb z0.2 ρ2)) * i32 + ((-2) * ((c.e : ℂ)) ^ 2 * ((c.mass .e : ℂ)) * (ab z2.1 z3.1) * (sb z2.2 ρ2)) * i33)) * ((1) * ((N.c 0)⁻¹) * ((N.c 1)⁻¹)) + ((-2) * ((c.e : ℂ)) ^ 2 * ((c.mass .e : ℂ)) * ((N.c 1)⁻¹) * (ab z0.1 z3.1) * (ab z1.1 z2.1) * (sb ρ2 ρ3) + (-2) * ((c.e : ℂ)) ^ 2 * ((c.mass .e : ℂ)) * ((N.c 1)⁻¹) * (ab z2.1 z3.1) * (sb z0.2 ρ3) * (sb z1.2 ρ2) + (-2) * ((c.e : ℂ)) ^ 2 * ((N.c 1)⁻¹) * (ab z0.1 z3.1) * (ab z2.1 z3.1) * (sb z1.2 ρ2) * (sb z3.2 ρ3) + (2) * ((c.e : ℂ)) ^ 2 * ((N.c 1)⁻¹) * (ab z0.1 z3.1) * (mb ρ3 (p 0) z2.1) * (sb z1.2 ρ2) + (2) * ((c.e : ℂ)) ^ 2 * ((N.c 1)⁻¹) * (ab z1.1 z2.1) * (mb ρ2 (p 0) z3.1) * (sb z0.2 ρ3)) * y0 + ((2) * ((c.e : ℂ)) ^ 2 * ((c.mass .e : ℂ)) * ((N.c 0)⁻¹) * (ab z0.1 z2.1) * (ab z1.1 z3.1) * (sb ρ2 ρ3) + (2) * ((c.e : ℂ)) ^ 2 * ((c.mass .e : ℂ)) * ((N.c 0)⁻¹) * (ab z2.1 z3.1) * (sb z0.2 ρ2) * (sb z1.2 ρ3) + (2) * ((c.e : ℂ)) ^ 2 * ((N.c 0)⁻¹) * (ab z0.1 z2.1) * (ab z2.1 z3.1) * (sb z1.2 ρ3) * (sb z2.2 ρ2) + (2) * ((c.e : ℂ)) ^ 2 * ((N.c 0)⁻¹) * (ab z0.1 z2.1) * (mb ρ2 (p 0) z3.1) * (sb z1.2 ρ3) + (2) * ((c.e : ℂ)) ^ 2 * ((N.c 0)⁻¹) * (ab z1.1 z3.1) * (mb ρ3 (p 0) z2.1) * (sb z0.2 ρ2)) * y1 + ((-1) * ((c.e : ℂ)) ^ 2 * ((c.mass .e : ℂ)) * ((N.c 0)⁻¹) * (ab z0.1 z2.1) * (ab z1.1 z3.1) * (sb ρ2 ρ3) + (-1) * ((c.e : ℂ)) ^ 2 * ((c.mass .e : ℂ)) * ((N.c 0)⁻¹) * (ab z2.1 z3.1) * (sb z0.2 ρ2) * (sb z1.2 ρ3) + (1) * ((c.e : ℂ)) ^ 2 * ((c.mass .e : ℂ)) * ((N.c 1)⁻¹) * (ab z0.1 z3.1) * (ab z1.1 z2.1) * (sb ρ2 ρ3) + (1) * ((c.e : ℂ)) ^ 2 * ((c.mass .e : ℂ)) * ((N.c 1)⁻¹) * (ab z2.1 z3.1) * (sb z0.2 ρ3) * (sb z1.2 ρ2) + (-1) * ((c.e : ℂ)) ^ 2 * ((N.c 0)⁻¹) * (ab z0.1 z2.1) * (ab z2.1 z3.1) * (sb z1.2 ρ3) * (sb z2.2 ρ2) + (-1) * ((c.e : ℂ)) ^ 2 * ((N.c 0)⁻¹) * (ab z0.1 z2.1) * (mb ρ2 (p 0) z3.1) * (sb z1.2 ρ3) + (-1) * ((c.e : ℂ)) ^ 2 * ((N.c 0)⁻¹) * (ab z1.1 z3.1) * (mb ρ3 (p 0) z2.1) * (sb z0.2 ρ2) + (1) * ((c.e : ℂ)) ^ 2 * ((N.c 1)⁻¹) * (ab z0.1 z3.1) * (ab z2.1 z3.1) * (sb z1.2 ρ2) * (sb z3.2 ρ3) + (-1) * ((c.e : ℂ)) ^ 2 * ((N.c 1)⁻¹) * (ab z0.1 z3.1) * (mb ρ3 (p 0) z2.1) * (sb z1.2 ρ2) + (-1) * ((c.e : ℂ)) ^ 2 * ((N.c 1)⁻¹) * (ab z1.1 z2.1) * (mb ρ2 (p 0) z3.1) * (sb z0.2 ρ3)) * x22
set_option maxRecDepth 8000 in
theorem eeAA.amp2_eq (N : Env) (f : Nat → List Int → ℂ) : Cls.eeAA.m_amp2.mean N f .r [] =
    ((sumJ (fun x a => (sumJ (fun x b => (sumW (fun x c => (sumW (fun x d => (x + (‖(f 0 [a, b, c, d])‖ ^ 2))) x)) x)) x)) ((0 : Nat) : ℝ)) / ((8 : Nat) : ℝ)) := by rfl
set_option maxRecDepth 8000 in
theorem eeAA.value (N : Env) : meaning N .r Cls.eeAA.methods Cls.eeAA.amp2 [] =
    ((sumJ (fun x a => (sumJ (fun x b => (sumW (fun x c => (sumW (fun x d => (x + (‖(Cls.eeAA.m_amp.mean N (callMean N []) .c [a, b, c, d])‖ ^ 2))) x)) x)) x)) ((0 : Nat) : ℝ)) / ((8 : Nat) : ℝ)) :=
  eeAA.amp2_eq N (callMean N [Cls.eeAA.m_amp])
set_option maxRecDepth 8000 in
theorem eeAA.ampPP (N : Env) (f : Nat → List Int → ℂ) (j1 j2 : Int) : Cls.eeAA.m_amp.mean N f .c [j1, j2, 2, 2] = eeAA.termPP N j1 j2 := by rfl
set_option maxRecDepth 8000 in
theorem eeAA.ampPM (N : Env) (f : Nat → List Int → ℂ) (j1 j2 : Int) : Cls.eeAA.m_amp.mean N f .c [j1, j2, 2, (-2)] = eeAA.termPM N j1 j2 := by rfl
set_option maxRecDepth 8000 in
theorem eeAA.ampMP (N : Env) (f : Nat → List Int → ℂ) (j1 j2 : Int) : Cls.eeAA.m_amp.mean N f .c [j1, j2, (-2), 2] = eeAA.termMP N j1 j2 := by rfl
set_option maxRecDepth 8000 in
theorem eeAA.ampMM (N : Env) (f : Nat → List Int → ℂ) (j1 j2 : Int) : Cls.eeAA.m_amp.mean N f .c [j1, j2, (-2), (-2)] = eeAA.termMM N j1 j2 := by rfl

theorem eeAA.mass_eq {c : Constants} (hc : c.Physical) (i : Fin 4) : eeAA.proc.massNum (eeAA.rho c) i = eeAA.react.mass c i := by
  fin_cases i <;> first | rfl | exact Nat.cast_zero | exact Nat.cast_zero.trans (hc.neutrino _).symm | (show c.MW / √(((1 : Nat) : ℝ) - c.SW * c.SW) = c.MZ; rw [c.root, c.mz])

variable [FPEnv] in
theorem eeAA.agrees : eeAA.Agrees := by
  refine agrees_of (D := []) (E := []) (by simp [all, eeAA]) (by decide +kernel) (by decide) (by decide +kernel) (fun c hc hh => ⟨List.forall_mem_nil _, List.forall_mem_nil _⟩) (fun c hc i => eeAA.mass_eq hc i) (by decide +kernel) ?_
  intro c p u ε hc hh hw h0 hs hb hr hu
  have he : eeAA.react.ends = [1] := by decide
  have ht : eeAA.react.starts = [0] := by decide
  have hB : eeAA.react.bosons = [2, 3] := by decide
  obtain ⟨f1, f2, f3⟩ := eeAA.react.regular_line he ht hB hr
  have r0 : (eeAA.N c p).r 0 = c.e := rfl
  have r1 : (eeAA.N c p).r 1 = (c.mass .e) := rfl
  have c0 : (eeAA.N c p).c 0 = poleDist (c.mass .e) ((0 : Nat) : ℝ) ((VExp.sub 0 2).sum p) := rfl
  rw [Nat.cast_zero, pole_fermion rfl] at c0
  have d0 : ((msq (plus (p 0) (backward (p 2))) - c.mass .e ^ 2 : ℝ) : ℂ) = (eeAA.N c p).c 0 := by rw [c0, msq_t hb (plus (p 0) (backward (p 2))) (by simp)]
  have n0 : (eeAA.N c p).c 0 ≠ 0 := by rw [← d0]; exact_mod_cast f1 .e rfl rfl
  have c1 : (eeAA.N c p).c 1 = poleDist (c.mass .e) ((0 : Nat) : ℝ) ((VExp.sub 0 3).sum p) := rfl
  rw [Nat.cast_zero, pole_fermion rfl] at c1
  have d1 : ((msq (plus (p 0) (backward (p 3))) - c.mass .e ^ 2 : ℝ) : ℂ) = (eeAA.N c p).c 1 := by rw [c1, msq_u hb (plus (p 0) (backward (p 3))) (by simp)]
  have n1 : (eeAA.N c p).c 1 ≠ 0 := by rw [← d1]; exact_mod_cast f2 .e rfl rfl
  obtain ⟨l2, x2, y2⟩ := eeAA.react.code_light hs hu (n := 2) rfl rfl
  obtain ⟨l3, x3, y3⟩ := eeAA.react.code_light hs hu (n := 3) rfl rfl
  have e20 := l2.pole_sub' (m := (c.mass .e)) (onShell_msq (hs 0)) (msq_t hb (plus (p 0) (backward (p 2))) (by simp)) c0
  have e21 := l2.pole_sub' (m := (c.mass .e)) (onShell_msq (hs 1)) (msq_u hb (plus (p 1) (backward (p 2))) (by simp)) c1
  have e30 := l3.pole_sub' (m := (c.mass .e)) (onShell_msq (hs 0)) (msq_u hb (plus (p 0) (backward (p 3))) (by simp)) c1
  have e31 := l3.pole_sub' (m := (c.mass .e)) (onShell_msq (hs 1)) (msq_t hb (plus (p 1) (backward (p 3))) (by simp)) c0
  have m0 : eeAA.react.mass c 0 ≠ 0 := (leg_pos hc hh (by decide)).ne'
  have m1 : eeAA.react.mass c 1 ≠ 0 := (leg_pos hc hh (by decide)).ne'
  have m2 : eeAA.react.mass c 2 = 0 := rfl
  have m3 : eeAA.react.mass c 3 = 0 := rfl
  have hd : eeAA.proc.divides = [(Ty.c, 0), (Ty.c, 1)] := by decide +kernel
  refine ⟨fun n hn => ?_, fun n hn => ?_, ?_⟩
  · simp [hd] at hn
  · simp [hd] at hn
    rcases hn with rfl | rfl
    · exact n0
    · exact n1
  have stPP : ∀ {z0 z1 : Pair} (b0 : Bold (p 0) (eeAA.react.mass c 0) z0) (b1 : Bold (p 1) (eeAA.react.mass c 1) z1), eeAA.formPP (eeAA.N c p) p z0 z1 (legA (p 2) 0 0, legS (p 2) 0 1) (legA (p 3) 0 0, legS (p 3) 0 1) = (-1) * eeAA.react.bare c p 1 0 2 3 z1 z0 (lightE (legA (p 2) 0 0, legS (p 2) 0 1) 1) (lightE (legA (p 3) 0 0, legS (p 3) 0 1) 1) := by
    intro z0 z1 b0 b1
    exact (light_plus (z := (legA (p 2) 0 0, legS (p 2) 0 1)) (G := fun E => eeAA.react.bare c p 1 0 2 3 z1 z0 E (lightE (legA (p 3) 0 0, legS (p 3) 0 1) 1)) (eeAA.react.bare_lin₁ c p _ _ _ (by decide)) x2 (light_plus (z := (legA (p 3) 0 0, legS (p 3) 0 1)) (G := fun E => eeAA.react.bare c p 1 0 2 3 z1 z0 (pv (legA (p 2) 0 0, legS (p 2) 0 1).2 (legA (p 2) 0 0, legS (p 2) 0 1).2) E) (eeAA.react.bare_lin₂ c p _ _ _ (by decide)) x3 (eeAA.keyPP hc hb r0 r1 d0 n0 d1 n1 b0 b1 l2 l3 e20 e21 e30 e31 (onShell_msq (hs 0)) (onShell_msq (hs 1)) _ _)))
  have stPM : ∀ {z0 z1 : Pair} (b0 : Bold (p 0) (eeAA.react.mass c 0) z0) (b1 : Bold (p 1) (eeAA.react.mass c 1) z1), eeAA.formPM (eeAA.N c p) p z0 z1 (legA (p 2) 0 0, legS (p 2) 0 1) (legA (p 3) 0 0, legS (p 3) 0 1) = 1 * eeAA.react.bare c p 1 0 2 3 z1 z0 (lightE (legA (p 2) 0 0, legS (p 2) 0 1) 1) (lightE (legA (p 3) 0 0, legS (p 3) 0 1) 0) := by
    intro z0 z1 b0 b1
    exact (light_plus (z := (legA (p 2) 0 0, legS (p 2) 0 1)) (G := fun E => eeAA.react.bare c p 1 0 2 3 z1 z0 E (lightE (legA (p 3) 0 0, legS (p 3) 0 1) 0)) (eeAA.react.bare_lin₁ c p _ _ _ (by decide)) x2 (light_minus (z := (legA (p 3) 0 0, legS (p 3) 0 1)) (G := fun E => eeAA.react.bare c p 1 0 2 3 z1 z0 (pv (legA (p 2) 0 0, legS (p 2) 0 1).2 (legA (p 2) 0 0, legS (p 2) 0 1).2) E) (eeAA.react.bare_lin₂ c p _ _ _ (by decide)) y3 (eeAA.keyPM hc hb r0 d0 n0 d1 n1 b0 b1 l2 l3 e20 e21 e30 e31 (onShell_msq (hs 0)) (onShell_msq (hs 1)) _ _)))
  have stMP : ∀ {z0 z1 : Pair} (b0 : Bold (p 0) (eeAA.react.mass c 0) z0) (b1 : Bold (p 1) (eeAA.react.mass c 1) z1), eeAA.formMP (eeAA.N c p) p z0 z1 (legA (p 2) 0 0, legS (p 2) 0 1) (legA (p 3) 0 0, legS (p 3) 0 1) = 1 * eeAA.react.bare c p 1 0 2 3 z1 z0 (lightE (legA (p 2) 0 0, legS (p 2) 0 1) 0) (lightE (legA (p 3) 0 0, legS (p 3) 0 1) 1) := by
    intro z0 z1 b0 b1
    exact (light_minus (z := (legA (p 2) 0 0, legS (p 2) 0 1)) (G := fun E => eeAA.react.bare c p 1 0 2 3 z1 z0 E (lightE (legA (p 3) 0 0, legS (p 3) 0 1) 1)) (eeAA.react.bare_lin₁ c p _ _ _ (by decide)) y2 (light_plus (z := (legA (p 3) 0 0, legS (p 3) 0 1)) (G := fun E => eeAA.react.bare c p 1 0 2 3 z1 z0 (pv (legA (p 2) 0 0, legS (p 2) 0 1).1 (legA (p 2) 0 0, legS (p 2) 0 1).1) E) (eeAA.react.bare_lin₂ c p _ _ _ (by decide)) x3 (eeAA.keyMP hc hb r0 d0 n0 d1 n1 b0 b1 l2 l3 e20 e21 e30 e31 (onShell_msq (hs 0)) (onShell_msq (hs 1)) _ _)))
  have stMM : ∀ {z0 z1 : Pair} (b0 : Bold (p 0) (eeAA.react.mass c 0) z0) (b1 : Bold (p 1) (eeAA.react.mass c 1) z1), eeAA.formMM (eeAA.N c p) p z0 z1 (legA (p 2) 0 0, legS (p 2) 0 1) (legA (p 3) 0 0, legS (p 3) 0 1) = (-1) * eeAA.react.bare c p 1 0 2 3 z1 z0 (lightE (legA (p 2) 0 0, legS (p 2) 0 1) 0) (lightE (legA (p 3) 0 0, legS (p 3) 0 1) 0) := by
    intro z0 z1 b0 b1
    exact (light_minus (z := (legA (p 2) 0 0, legS (p 2) 0 1)) (G := fun E => eeAA.react.bare c p 1 0 2 3 z1 z0 E (lightE (legA (p 3) 0 0, legS (p 3) 0 1) 0)) (eeAA.react.bare_lin₁ c p _ _ _ (by decide)) y2 (light_minus (z := (legA (p 3) 0 0, legS (p 3) 0 1)) (G := fun E => eeAA.react.bare c p 1 0 2 3 z1 z0 (pv (legA (p 2) 0 0, legS (p 2) 0 1).1 (legA (p 2) 0 0, legS (p 2) 0 1).1) E) (eeAA.react.bare_lin₂ c p _ _ _ (by decide)) y3 (eeAA.keyMM hc hb r0 r1 d0 n0 d1 n1 b0 b1 l2 l3 e20 e21 e30 e31 (onShell_msq (hs 0)) (onShell_msq (hs 1)) _ _)))
  have amPP : ∀ (s0 : Fin 2) (s1 : Fin 2), Cls.eeAA.m_amp.mean (eeAA.N c p) (callMean (eeAA.N c p) []) .c [spinOf s0, spinOf s1, 2, 2] = (-1) * eeAA.react.bare c p 1 0 2 3 (eeAA.react.codePair c p 1 s1) (eeAA.react.codePair c p 0 s0) (lightE (legA (p 2) 0 0, legS (p 2) 0 1) 1) (lightE (legA (p 3) 0 0, legS (p 3) 0 1) 1) := by
    intro s0 s1
    rw [eeAA.ampPP, ← stPP (eeAA.react.codePair_bold hs h0 0 s0) (eeAA.react.codePair_bold hs h0 1 s1)]
    have v0z2z3 : (eeAA.N c p).v 0 [] = sb (legA (p 2) 0 0, legS (p 2) 0 1).2 (legA (p 3) 0 0, legS (p 3) 0 1).2 := bra_square (p := p) (m := eeAA.proc.massNum (eeAA.rho c)) (eeAA.mass_eq hc 2) (eeAA.mass_eq hc 3) (.inr ⟨m2, rfl⟩) (.inr ⟨m3, rfl⟩)
    have v3z0z1 : (eeAA.N c p).v 3 [spinOf s0, spinOf s1] = ab (eeAA.react.codePair c p 0 s0).1 (eeAA.react.codePair c p 1 s1).1 := bra_angle (p := p) (m := eeAA.proc.massNum (eeAA.rho c)) (eeAA.mass_eq hc 0) (eeAA.mass_eq hc 1) (.inl ⟨m0, rfl⟩) (.inl ⟨m1, rfl⟩)
    simp only [eeAA.termPP, eeAA.formPP, v0z2z3, v3z0z1]
  have amPM : ∀ (s0 : Fin 2) (s1 : Fin 2), Cls.eeAA.m_amp.mean (eeAA.N c p) (callMean (eeAA.N c p) []) .c [spinOf s0, spinOf s1, 2, (-2)] = 1 * eeAA.react.bare c p 1 0 2 3 (eeAA.react.codePair c p 1 s1) (eeAA.react.codePair c p 0 s0) (lightE (legA (p 2) 0 0, legS (p 2) 0 1) 1) (lightE (legA (p 3) 0 0, legS (p 3) 0 1) 0) := by
    intro s0 s1
    rw [eeAA.ampPM, ← stPM (eeAA.react.codePair_bold hs h0 0 s0) (eeAA.react.codePair_bold hs h0 1 s1)]
    have v4z0z2 : (eeAA.N c p).v 4 [spinOf s0] = sb (eeAA.react.codePair c p 0 s0).2 (legA (p 2) 0 0, legS (p 2) 0 1).2 := bra_square (p := p) (m := eeAA.proc.massNum (eeAA.rho c)) (eeAA.mass_eq hc 0) (eeAA.mass_eq hc 2) (.inl ⟨m0, rfl⟩) (.inr ⟨m2, rfl⟩)
    have v7z1z3 : (eeAA.N c p).v 7 [spinOf s1] = ab (eeAA.react.codePair c p 1 s1).1 (legA (p 3) 0 0, legS (p 3) 0 1).1 := bra_angle (p := p) (m := eeAA.proc.massNum (eeAA.rho c)) (eeAA.mass_eq hc 1) (eeAA.mass_eq hc 3) (.inl ⟨m1, rfl⟩) (.inr ⟨m3, rfl⟩)
    have v8z1z2 : (eeAA.N c p).v 8 [spinOf s1] = sb (eeAA.react.codePair c p 1 s1).2 (legA (p 2) 0 0, legS (p 2) 0 1).2 := bra_square (p := p) (m := eeAA.proc.massNum (eeAA.rho c)) (eeAA.mass_eq hc 1) (eeAA.mass_eq hc 2) (.inl ⟨m1, rfl⟩) (.inr ⟨m2, rfl⟩)
    have v11z0z3 : (eeAA.N c p).v 11 [spinOf s0] = ab (eeAA.react.codePair c p 0 s0).1 (legA (p 3) 0 0, legS (p 3) 0 1).1 := bra_angle (p := p) (m := eeAA.proc.massNum (eeAA.rho c)) (eeAA.mass_eq hc 0) (eeAA.mass_eq hc 3) (.inl ⟨m0, rfl⟩) (.inr ⟨m3, rfl⟩)
    have v12z2z3 : (eeAA.N c p).v 12 [] = mb (legA (p 2) 0 0, legS (p 2) 0 1).2 (p 0) (legA (p 3) 0 0, legS (p 3) 0 1).1 := bra_mid_square (p := p) (m := eeAA.proc.massNum (eeAA.rho c)) (eeAA.mass_eq hc 2) (eeAA.mass_eq hc 3) (.inr ⟨m2, rfl⟩) (.inr ⟨m3, rfl⟩)
    simp only [eeAA.termPM, eeAA.formPM, v4z0z2, v7z1z3, v8z1z2, v11z0z3, v12z2z3]
  have amMP : ∀ (s0 : Fin 2) (s1 : Fin 2), Cls.eeAA.m_amp.mean (eeAA.N c p) (callMean (eeAA.N c p) []) .c [spinOf s0, spinOf s1, (-2), 2] = 1 * eeAA.react.bare c p 1 0 2 3 (eeAA.react.codePair c p 1 s1) (eeAA.react.codePair c p 0 s0) (lightE (legA (p 2) 0 0, legS (p 2) 0 1) 0) (lightE (legA (p 3) 0 0, legS (p 3) 0 1) 1) := by
    intro s0 s1
    rw [eeAA.ampMP, ← stMP (eeAA.react.codePair_bold hs h0 0 s0) (eeAA.react.codePair_bold hs h0 1 s1)]
    have v5z0z2 : (eeAA.N c p).v 5 [spinOf s0] = ab (eeAA.react.codePair c p 0 s0).1 (legA (p 2) 0 0, legS (p 2) 0 1).1 := bra_angle (p := p) (m := eeAA.proc.massNum (eeAA.rho c)) (eeAA.mass_eq hc 0) (eeAA.mass_eq hc 2) (.inl ⟨m0, rfl⟩) (.inr ⟨m2, rfl⟩)
    have v6z1z3 : (eeAA.N c p).v 6 [spinOf s1] = sb (eeAA.react.codePair c p 1 s1).2 (legA (p 3) 0 0, legS (p 3) 0 1).2 := bra_square (p := p) (m := eeAA.proc.massNum (eeAA.rho c)) (eeAA.mass_eq hc 1) (eeAA.mass_eq hc 3) (.inl ⟨m1, rfl⟩) (.inr ⟨m3, rfl⟩)
    have v9z1z2 : (eeAA.N c p).v 9 [spinOf s1] = ab (eeAA.react.codePair c p 1 s1).1 (legA (p 2) 0 0, legS (p 2) 0 1).1 := bra_angle (p := p) (m := eeAA.proc.massNum (eeAA.rho c)) (eeAA.mass_eq hc 1) (eeAA.mass_eq hc 2) (.inl ⟨m1, rfl⟩) (.inr ⟨m2, rfl⟩)
    have v10z0z3 : (eeAA.N c p).v 10 [spinOf s0] = sb (eeAA.react.codePair c p 0 s0).2 (legA (p 3) 0 0, legS (p 3) 0 1).2 := bra_square (p := p) (m := eeAA.proc.massNum (eeAA.rho c)) (eeAA.mass_eq hc 0) (eeAA.mass_eq hc 3) (.inl ⟨m0, rfl⟩) (.inr ⟨m3, rfl⟩)
    have v13z3z2 : (eeAA.N c p).v 13 [] = mb (legA (p 3) 0 0, legS (p 3) 0 1).2 (p 0) (legA (p 2) 0 0, legS (p 2) 0 1).1 := bra_mid_square (p := p) (m := eeAA.proc.massNum (eeAA.rho c)) (eeAA.mass_eq hc 3) (eeAA.mass_eq hc 2) (.inr ⟨m3, rfl⟩) (.inr ⟨m2, rfl⟩)
    simp only [eeAA.termMP, eeAA.formMP, v5z0z2, v6z1z3, v9z1z2, v10z0z3, v13z3z2]
  have amMM : ∀ (s0 : Fin 2) (s1 : Fin 2), Cls.eeAA.m_amp.mean (eeAA.N c p) (callMean (eeAA.N c p) []) .c [spinOf s0, spinOf s1, (-2), (-2)] = (-1) * eeAA.react.bare c p 1 0 2 3 (eeAA.react.codePair c p 1 s1) (eeAA.react.codePair c p 0 s0) (lightE (legA (p 2) 0 0, legS (p 2) 0 1) 0) (lightE (legA (p 3) 0 0, legS (p 3) 0 1) 0) := by
    intro s0 s1
    rw [eeAA.ampMM, ← stMM (eeAA.react.codePair_bold hs h0 0 s0) (eeAA.react.codePair_bold hs h0 1 s1)]
    have v1z2z3 : (eeAA.N c p).v 1 [] = ab (legA (p 2) 0 0, legS (p 2) 0 1).1 (legA (p 3) 0 0, legS (p 3) 0 1).1 := bra_angle (p := p) (m := eeAA.proc.massNum (eeAA.rho c)) (eeAA.mass_eq hc 2) (eeAA.mass_eq hc 3) (.inr ⟨m2, rfl⟩) (.inr ⟨m3, rfl⟩)
    have v2z0z1 : (eeAA.N c p).v 2 [spinOf s0, spinOf s1] = sb (eeAA.react.codePair c p 0 s0).2 (eeAA.react.codePair c p 1 s1).2 := bra_square (p := p) (m := eeAA.proc.massNum (eeAA.rho c)) (eeAA.mass_eq hc 0) (eeAA.mass_eq hc 1) (.inl ⟨m0, rfl⟩) (.inl ⟨m1, rfl⟩)
    simp only [eeAA.termMM, eeAA.formMM, v1z2z3, v2z0z1]
  have am : ∀ (s0 : Fin 2) (s1 : Fin 2) (h2 : Fin 2) (h3 : Fin 2), ‖Cls.eeAA.m_amp.mean (eeAA.N c p) (callMean (eeAA.N c p) []) .c [spinOf s0, spinOf s1, spinW h2, spinW h3]‖ = ‖eeAA.react.bare c p 1 0 2 3 (eeAA.react.codePair c p 1 s1) (eeAA.react.codePair c p 0 s0) (lightE (legA (p 2) 0 0, legS (p 2) 0 1) h2.castSucc) (lightE (legA (p 3) 0 0, legS (p 3) 0 1) h3.castSucc)‖ := by
    intro s0 s1 h2 h3
    match h2, h3 with
    | 1, 1 => exact norm_minus (amPP s0 s1)
    | 1, 0 => exact norm_plus (amPM s0 s1)
    | 0, 1 => exact norm_plus (amMP s0 s1)
    | 0, 0 => exact norm_minus (amMM s0 s1)
  show meaning (eeAA.N c p) .r Cls.eeAA.methods Cls.eeAA.amp2 [] = _
  have s0 : eeAA.react.states 0 = 2 := by decide +kernel
  have s1 : eeAA.react.states 1 = 2 := by decide +kernel
  have sy : eeAA.react.symmetry = 2 := by decide
  have p0 : eeAA.react.spins 0 = {0, 1} := rfl
  have p1 : eeAA.react.spins 1 = {0, 1} := rfl
  have p2 : eeAA.react.spins 2 = {0, 1} := rfl
  have p3 : eeAA.react.spins 3 = {0, 1} := rfl
  have E2 : eeAA.react.codeE c p 2 = lightE (legA (p 2) 0 0, legS (p 2) 0 1) := rfl
  have E3 : eeAA.react.codeE c p 3 = lightE (legA (p 3) 0 0, legS (p 3) 0 1) := rfl
  have hG : eeAA.react.Gauge c p := (eeAA.react.gauge_line he ht hB hh (by decide) (fun n => onShell_msq (hs n)) hb hr (fun n m h h2 => absurd (And.intro h h2) (by revert n m; decide)) (fun _ => ⟨rfl, rfl⟩) (fun _ => ⟨rfl, rfl⟩))
  have lc : eeAA.react.lineColours 1 0 = 1 := by decide +kernel
  rw [eeAA.value, eeAA.react.squared_line he ht hB (by decide) hs h0 (fun _ b _ hb _ => (boson_pos hc hh hb).ne') hG (E := eeAA.react.codeE c p) (fun n b hl => eeAA.react.codeE_polarised hs h0 hu (fun b hb => (boson_pos hc hh hb).ne') n b hl) hu, sum_colours, lc, s0, s1, sy]
  simp only [sumV_sum, sumJ_sum, sumW_sum, am, p0, p1, p2, p3, E2, E3, Finset.sum_singleton, sum_two, Matrix.cons_val_zero, Matrix.cons_val_one, Matrix.cons_val, two_castSucc]
  try simp only [← Finset.mul_sum]
  push_cast
  first | ring1 | ring_nf

end Spinas.SM.Rows
