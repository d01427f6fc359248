import Verif.SM.VevRows
import Verif.SM.GluonLine

/-! Electrons, a photon and a Higgs boson. Generated by tools/bosons/lemit.py: for each class its amplitude at given helicities as a formula in spinors, and the proof that `amp2` is the squared amplitude of the Feynman rules. -/

set_option linter.unusedSimpArgs false
set_option linter.unusedVariables false
set_option linter.unreachableTactic false
set_option linter.unusedTactic false

namespace Spinas.SM.Rows
open Spec Spec.Reaction Props XR Matrix BRow

/-! ### eeAh -/

/-- what the methods of the class see -/
noncomputable abbrev eeAh.N [FPEnv] (c : Constants) (v : ℝ) (p : Nat → V4 ℝ) : Env := eeAh.proc.env (eeAh.rhoVev c v) p
/-- `amp` for a photon of positive helicity (SM/eeAh.cpp) -/
noncomputable def eeAh.termP (N : Env) (j1 j2 : Int) : ℂ :=
  ((((((((N.r 4 * N.r 0) * N.r 1) / N.r 3) : ℝ) : ℂ) * (((((((((-N.r 2) * N.r 2) : ℝ) : ℂ) * N.v 0 [j1]) * N.v 2 [j2]) + ((((N.r 1 : ℝ) : ℂ) * N.v 0 [j1]) * N.v 6 [j2])) + ((((N.r 1 : ℝ) : ℂ) * N.v 2 [j2]) * N.v 8 [j1])) + (N.v 5 [j1, j2] * N.v 10 []))) / N.c 0) / N.c 1)
/-- the same with spinors in place of their spins -/
noncomputable def eeAh.formP (N : Env) (p : Nat → V4 ℝ) (z0 z1 z2 : Pair) : ℂ :=
  ((((((((N.r 4 * N.r 0) * N.r 1) / N.r 3) : ℝ) : ℂ) * (((((((((-N.r 2) * N.r 2) : ℝ) : ℂ) * (sb z0.2 z2.2)) * (sb z1.2 z2.2)) + ((((N.r 1 : ℝ) : ℂ) * (sb z0.2 z2.2)) * (mb z2.2 (p 3) z1.1))) + ((((N.r 1 : ℝ) : ℂ) * (sb z1.2 z2.2)) * (mb z2.2 (p 3) z0.1))) + ((ab z0.1 z1.1) * (mb z2.2 (p 1) (slashLower (p 3) *ᵥ z2.2))))) / N.c 0) / N.c 1)
/-- `amp` for a photon of negative helicity (SM/eeAh.cpp) -/
noncomputable def eeAh.termM (N : Env) (j1 j2 : Int) : ℂ :=
  ((((((((N.r 4 * N.r 0) * N.r 1) / N.r 3) : ℝ) : ℂ) * (((((((((-N.r 2) * N.r 2) : ℝ) : ℂ) * N.v 1 [j1]) * N.v 3 [j2]) + ((((N.r 1 : ℝ) : ℂ) * N.v 1 [j1]) * N.v 7 [j2])) + ((((N.r 1 : ℝ) : ℂ) * N.v 3 [j2]) * N.v 9 [j1])) + (N.v 4 [j1, j2] * N.v 11 []))) / N.c 0) / N.c 1)
/-- the same with spinors in place of their spins -/
noncomputable def eeAh.formM (N : Env) (p : Nat → V4 ℝ) (z0 z1 z2 : Pair) : ℂ :=
  ((((((((N.r 4 * N.r 0) * N.r 1) / N.r 3) : ℝ) : ℂ) * (((((((((-N.r 2) * N.r 2) : ℝ) : ℂ) * (ab z0.1 z2.1)) * (ab z1.1 z2.1)) + ((((N.r 1 : ℝ) : ℂ) * (ab z0.1 z2.1)) * (mb z1.2 (p 3) z2.1))) + ((((N.r 1 : ℝ) : ℂ) * (ab z1.1 z2.1)) * (mb z0.2 (p 3) z2.1))) + ((sb z0.2 z1.2) * (mb (slashUpper (p 3) *ᵥ z2.1) (p 1) z2.1)))) / N.c 0) / N.c 1)
theorem eeAh.keyP {c : Constants} {p : Nat → V4 ℝ} {N : Env} (hc : c.Physical) (hb : Balanced p) (r0 : N.r 0 = c.e) (r1 : N.r 1 = (c.mass .e)) (r2 : N.r 2 = c.MH) (r3 : N.r 3 = (2 * c.MW * c.SW / c.e)) (r4 : N.r 4 = √(((2 : Nat) : ℝ))) (d0 : ((msq (plus (p 0) (backward (p 2))) - c.mass .e ^ 2 : ℝ) : ℂ) = N.c 0) (n0 : N.c 0 ≠ 0) (d1 : ((msq (plus (p 0) (backward (p 3))) - c.mass .e ^ 2 : ℝ) : ℂ) = N.c 1) (n1 : N.c 1 ≠ 0) {z0 z1 z2 : Pair} (b0 : Bold (p 0) (c.mass .e) z0) (b1 : Bold (p 1) (c.mass .e) z1) (l2 : Light (p 2) z2) (e20 : mb z2.2 (p 0) z2.1 = -N.c 0) (e21 : mb z2.2 (p 1) z2.1 = -N.c 1) (q0 : msq (p 0) = (c.mass .e) ^ 2) (q1 : msq (p 1) = (c.mass .e) ^ 2) (q3 : msq (p 3) = c.MH ^ 2) (ρ2 : V2) (E3 : Vec) :
    eeAh.formP N p z0 z1 z2 * ab ρ2 z2.1 = ((√2 : ℝ) * (-1 : ℂ)) * eeAh.react.bare c p 1 0 2 3 z1 z0 (pv ρ2 z2.2) E3 := by
  rw [eeAh.react.bare_parts c p (i := 1) (j := 0) (a := 2) (b := 3) (x := .photon) (y := .higgs) (k := (backward (p 2))) (k' := (backward (p 3))) (fun _ => rfl) (fun _ => rfl) (f := .e) (g := .e) rfl rfl (l := (p 0)) rfl (e := -1) (e' := 1) (if_pos rfl) (if_neg Bool.false_ne_true)]
  rw [compton_vh (f := .e) (x := .e) (g := .e) (h := (rfl : Spec.after .photon Flavour.e = some Flavour.e)) (h' := (rfl : Spec.after .higgs Flavour.e = some Flavour.e)) (ha := by simp)]
  rw [compton_hv (f := .e) (x := .e) (g := .e) (h := (rfl : Spec.after .higgs Flavour.e = some Flavour.e)) (h' := (rfl : Spec.after .photon Flavour.e = some Flavour.e)) (hb := by simp)]
  rw [annihilation_none c _ _ (by rfl) (by simp), star_zero, add_zero, eeAh.formP]
  simp only [d0, d1, lineV_pv, lineV_four, contract_four_pv, contract_pv, mb_plus, mb_backward]
  have i0 := chain_square z0.1 z1.1 z2.2 (p 1) (p 3) z2.2
  have i1 := mb_schouten_right z2.2 (p 1) z0.1 z1.1 z2.1
  have i2 := mb_schouten_right z2.2 (p 0) z0.1 z1.1 ρ2
  have i3 := mb_schouten_right z2.2 (p 0) z1.1 z2.1 ρ2
  have i4 := mb_schouten_right z2.2 (p 0) z0.1 z2.1 ρ2
  have i5 := mb_schouten_right z2.2 (p 1) z0.1 z2.1 ρ2
  have i6 := mb_det z0.2 z2.2 (p 3) z2.1 ρ2
  rw [q3] at i6
  have i7 := mb_schouten_left z0.2 z1.2 z2.2 (p 0) ρ2
  have i8 := mb_schouten_left z0.2 z1.2 z2.2 (p 1) z2.1
  have i9 := mb_schouten_right z2.2 (p 0) z0.1 z1.1 z2.1
  have i10 := mb_schouten_left z0.2 z1.2 z2.2 (p 1) ρ2
  have i11 := mb_schouten_right z2.2 (p 1) z0.1 z1.1 ρ2
  simp only [l2.mb_eq, b0.mb_left, b0.mb_right, b1.mb_left, b1.mb_right, e20, e21, mb_three hb z0.2 z0.1, mb_three hb z0.2 z1.1, mb_three hb z0.2 z2.1, mb_three hb z0.2 ρ2, mb_three hb z1.2 z0.1, mb_three hb z1.2 z1.1, mb_three hb z1.2 z2.1, mb_three hb z1.2 ρ2, mb_three hb z2.2 z0.1, mb_three hb z2.2 z1.1, mb_three hb z2.2 z2.1, mb_three hb z2.2 ρ2, ab_self, sb_self] at i0 i1 i2 i3 i4 i5 i6 i7 i8 i9 i10 i11 ⊢
  simp only [ab_swap z0.1 z1.1, ab_swap z0.1 z2.1, ab_swap z0.1 ρ2, ab_swap z1.1 z2.1, ab_swap z1.1 ρ2, ab_swap z2.1 ρ2, sb_swap z0.2 z1.2, sb_swap z0.2 z2.2, sb_swap z1.2 z2.2] at i0 i1 i2 i3 i4 i5 i6 i7 i8 i9 i10 i11 ⊢
  simp only [r0, r1, r2, r3, r4, Constants.hL, Constants.hR, Constants.gL, Constants.gR, Constants.yuk, Constants.invVev, Flavour.charge_e, Flavour.isospin_e, ← c.mz]
  have xMW : (c.MW : ℂ) ≠ 0 := by exact_mod_cast hc.MW
  have xSW : (c.SW : ℂ) ≠ 0 := by exact_mod_cast hc.SW
  have xCW : (c.CW : ℂ) ≠ 0 := by exact_mod_cast hc.CW
  have x2 : ((√2 : ℝ) : ℂ) ≠ 0 := by exact_mod_cast (Real.sqrt_pos.2 two_pos).ne'
  have x22 : ((√2 : ℝ) : ℂ) ^ 2 = 2 := by rw [← Complex.ofReal_pow, Real.sq_sqrt two_pos.le]; norm_num
  have x23 : ((√2 : ℝ) : ℂ) ^ 3 = 2 * ((√2 : ℝ) : ℂ) := by rw [← x22]; ring
  have x24 : ((√2 : ℝ) : ℂ) ^ 4 = 4 := by linear_combination (((√2 : ℝ) : ℂ) ^ 2 + 2) * x22
  push_cast at i0 i1 i2 i3 i4 i5 i6 i7 i8 i9 i10 i11 ⊢
  simp only [div_eq_mul_inv, mul_inv, inv_inv] at i0 i1 i2 i3 i4 i5 i6 i7 i8 i9 i10 i11 ⊢
  have y0 := mul_inv_cancel₀ n0
  have y1 := mul_inv_cancel₀ n1
  linear_combination ((((-1) * (((√2 : ℝ) : ℂ)) * ((c.e : ℂ)) ^ 2 * ((c.mass .e : ℂ)) * (ab z2.1 ρ2)) * i0 + ((-2) * (((√2 : ℝ) : ℂ)) * ((c.e : ℂ)) ^ 2 * ((c.mass .e : ℂ)) * (mb z2.2 (p 0) ρ2)) * i1 + ((-1) * (((√2 : ℝ) : ℂ)) * ((c.e : ℂ)) ^ 2 * ((c.mass .e : ℂ)) * (N.c 0) + (-2) * (((√2 : ℝ) : ℂ)) * ((c.e : ℂ)) ^ 2 * ((c.mass .e : ℂ)) * (N.c 1)) * i2 + ((2) * (((√2 : ℝ) : ℂ)) * ((c.e : ℂ)) ^ 2 * ((c.mass .e : ℂ)) * (mb z2.2 (p 1) z0.1)) * i3 + ((-1) * (((√2 : ℝ) : ℂ)) * ((c.e : ℂ)) ^ 2 * ((c.mass .e : ℂ)) * (mb z2.2 (p 0) z1.1) + (-3) * (((√2 : ℝ) : ℂ)) * ((c.e : ℂ)) ^ 2 * ((c.mass .e : ℂ)) ^ 2 * (sb z1.2 z2.2)) * i4 + ((-1) * (((√2 : ℝ) : ℂ)) * ((c.e : ℂ)) ^ 2 * ((c.mass .e : ℂ)) * (mb z2.2 (p 0) z1.1) + (-1) * (((√2 : ℝ) : ℂ)) * ((c.e : ℂ)) ^ 2 * ((c.mass .e : ℂ)) ^ 2 * (sb z1.2 z2.2)) * i5 + ((1) * (((√2 : ℝ) : ℂ)) * ((c.e : ℂ)) ^ 2 * ((c.mass .e : ℂ)) * (sb z1.2 z2.2)) * i6 + ((-1) * (((√2 : ℝ) : ℂ)) * ((c.e : ℂ)) ^ 2 * ((c.mass .e : ℂ)) * (N.c 1)) * i7 + ((-1) * (((√2 : ℝ) : ℂ)) * ((c.e : ℂ)) ^ 2 * ((c.mass .e : ℂ)) * (mb z2.2 (p 0) ρ2) + (-1) * (((√2 : ℝ) : ℂ)) * ((c.e : ℂ)) ^ 2 * ((c.mass .e : ℂ)) * (mb z2.2 (p 1) ρ2)) * i8 + ((-1) * (((√2 : ℝ) : ℂ)) * ((c.e : ℂ)) ^ 2 * ((c.mass .e : ℂ)) * (mb z2.2 (p 0) ρ2) + (-1) * (((√2 : ℝ) : ℂ)) * ((c.e : ℂ)) ^ 2 * ((c.mass .e : ℂ)) * (mb z2.2 (p 1) ρ2)) * i9 + ((-1) * (((√2 : ℝ) : ℂ)) * ((c.e : ℂ)) ^ 2 * ((c.mass .e : ℂ)) * (N.c 1)) * i10 + ((-1) * (((√2 : ℝ) : ℂ)) * ((c.e : ℂ)) ^ 2 * ((c.mass .e : ℂ)) * (N.c 0)) * i11)) * ((1) * ((c.MW : ℂ)⁻¹) * ((c.SW : ℂ)⁻¹) * ((N.c 0)⁻¹) * ((N.c 1)⁻¹) / (2)) + ((-1) * (((√2 : ℝ) : ℂ)) * ((c.e : ℂ)) ^ 2 * ((c.MW : ℂ)⁻¹) * ((c.SW : ℂ)⁻¹) * ((c.mass .e : ℂ)) * ((N.c 1)⁻¹) * (ab z1.1 ρ2) * (mb z2.2 (p 1) z0.1) / (2) + (1) * (((√2 : ℝ) : ℂ)) * ((c.e : ℂ)) ^ 2 * ((c.MW : ℂ)⁻¹) * ((c.SW : ℂ)⁻¹) * ((c.mass .e : ℂ)) * ((N.c 1)⁻¹) * (ab z2.1 ρ2) * (sb z0.2 z2.2) * (sb z1.2 z2.2) / (2) + (-1) * (((√2 : ℝ) : ℂ)) * ((c.e : ℂ)) ^ 2 * ((c.MW : ℂ)⁻¹) * ((c.SW : ℂ)⁻¹) * ((c.mass .e : ℂ)) * ((N.c 1)⁻¹) * (mb z0.2 (p 1) ρ2) * (sb z1.2 z2.2) / (2) + (1) * (((√2 : ℝ) : ℂ)) * ((c.e : ℂ)) ^ 2 * ((c.MW : ℂ)⁻¹) * ((c.SW : ℂ)⁻¹) * ((c.mass .e : ℂ)) ^ 2 * ((N.c 1)⁻¹) * (ab z0.1 ρ2) * (sb z1.2 z2.2) / (2) + (1) * (((√2 : ℝ) : ℂ)) * ((c.e : ℂ)) ^ 2 * ((c.MW : ℂ)⁻¹) * ((c.SW : ℂ)⁻¹) * ((c.mass .e : ℂ)) ^ 2 * ((N.c 1)⁻¹) * (ab z1.1 ρ2) * (sb z0.2 z2.2) / (2)) * y0 + ((-1) * (((√2 : ℝ) : ℂ)) * ((c.e : ℂ)) ^ 2 * ((c.MW : ℂ)⁻¹) * ((c.SW : ℂ)⁻¹) * ((c.mass .e : ℂ)) * ((N.c 0)⁻¹) * (ab z0.1 ρ2) * (mb z2.2 (p 0) z1.1) / (2) + (1) * (((√2 : ℝ) : ℂ)) * ((c.e : ℂ)) ^ 2 * ((c.MW : ℂ)⁻¹) * ((c.SW : ℂ)⁻¹) * ((c.mass .e : ℂ)) * ((N.c 0)⁻¹) * (ab z2.1 ρ2) * (sb z0.2 z2.2) * (sb z1.2 z2.2) / (2) + (-1) * (((√2 : ℝ) : ℂ)) * ((c.e : ℂ)) ^ 2 * ((c.MW : ℂ)⁻¹) * ((c.SW : ℂ)⁻¹) * ((c.mass .e : ℂ)) * ((N.c 0)⁻¹) * (mb z1.2 (p 0) ρ2) * (sb z0.2 z2.2) / (2) + (1) * (((√2 : ℝ) : ℂ)) * ((c.e : ℂ)) ^ 2 * ((c.MW : ℂ)⁻¹) * ((c.SW : ℂ)⁻¹) * ((c.mass .e : ℂ)) ^ 2 * ((N.c 0)⁻¹) * (ab z0.1 ρ2) * (sb z1.2 z2.2) / (2) + (1) * (((√2 : ℝ) : ℂ)) * ((c.e : ℂ)) ^ 2 * ((c.MW : ℂ)⁻¹) * ((c.SW : ℂ)⁻¹) * ((c.mass .e : ℂ)) ^ 2 * ((N.c 0)⁻¹) * (ab z1.1 ρ2) * (sb z0.2 z2.2) / (2)) * y1
theorem eeAh.keyM {c : Constants} {p : Nat → V4 ℝ} {N : Env} (hc : c.Physical) (hb : Balanced p) (r0 : N.r 0 = c.e) (r1 : N.r 1 = (c.mass .e)) (r2 : N.r 2 = c.MH) (r3 : N.r 3 = (2 * c.MW * c.SW / c.e)) (r4 : N.r 4 = √(((2 : Nat) : ℝ))) (d0 : ((msq (plus (p 0) (backward (p 2))) - c.mass .e ^ 2 : ℝ) : ℂ) = N.c 0) (n0 : N.c 0 ≠ 0) (d1 : ((msq (plus (p 0) (backward (p 3))) - c.mass .e ^ 2 : ℝ) : ℂ) = N.c 1) (n1 : N.c 1 ≠ 0) {z0 z1 z2 : Pair} (b0 : Bold (p 0) (c.mass .e) z0) (b1 : Bold (p 1) (c.mass .e) z1) (l2 : Light (p 2) z2) (e20 : mb z2.2 (p 0) z2.1 = -N.c 0) (e21 : mb z2.2 (p 1) z2.1 = -N.c 1) (q0 : msq (p 0) = (c.mass .e) ^ 2) (q1 : msq (p 1) = (c.mass .e) ^ 2) (q3 : msq (p 3) = c.MH ^ 2) (ρ2 : V2) (E3 : Vec) :
    eeAh.formM N p z0 z1 z2 * sb ρ2 z2.2 = ((√2 : ℝ) * (-1 : ℂ)) * eeAh.react.bare c p 1 0 2 3 z1 z0 (pv z2.1 ρ2) E3 := by
  rw [eeAh.react.bare_parts c p (i := 1) (j := 0) (a := 2) (b := 3) (x := .photon) (y := .higgs) (k := (backward (p 2))) (k' := (backward (p 3))) (fun _ => rfl) (fun _ => rfl) (f := .e) (g := .e) rfl rfl (l := (p 0)) rfl (e := -1) (e' := 1) (if_pos rfl) (if_neg Bool.false_ne_true)]
  rw [compton_vh (f := .e) (x := .e) (g := .e) (h := (rfl : Spec.after .photon Flavour.e = some Flavour.e)) (h' := (rfl : Spec.after .higgs Flavour.e = some Flavour.e)) (ha := by simp)]
  rw [compton_hv (f := .e) (x := .e) (g := .e) (h := (rfl : Spec.after .higgs Flavour.e = some Flavour.e)) (h' := (rfl : Spec.after .photon Flavour.e = some Flavour.e)) (hb := by simp)]
  rw [annihilation_none c _ _ (by rfl) (by simp), star_zero, add_zero, eeAh.formM]
  simp only [d0, d1, lineV_pv, lineV_four, contract_four_pv, contract_pv, mb_plus, mb_backward]
  have i0 := mb_schouten_left z0.2 z2.2 ρ2 (p 0) z2.1
  have i1 := mb_schouten_left z0.2 z2.2 ρ2 (p 1) z2.1
  have i2 := mb_det z2.2 ρ2 (p 3) z0.1 z2.1
  rw [q3] at i2
  have i3 := mb_schouten_right ρ2 (p 0) z0.1 z1.1 z2.1
  have i4 := mb_schouten_right z2.2 (p 1) z0.1 z1.1 z2.1
  have i5 := mb_schouten_right ρ2 (p 1) z0.1 z1.1 z2.1
  have i6 := mb_schouten_left z0.2 z1.2 ρ2 (p 0) z2.1
  have i7 := mb_schouten_left z0.2 z1.2 z2.2 (p 0) z2.1
  have i8 := mb_schouten_left z0.2 z1.2 ρ2 (p 1) z2.1
  have i9 := mb_schouten_left z0.2 z1.2 z2.2 (p 1) z2.1
  have i10 := mb_schouten_left z1.2 z2.2 ρ2 (p 0) z2.1
  have i11 := chain_angle z0.2 z1.2 z2.1 (p 1) (p 3) z2.1
  simp only [l2.mb_eq, b0.mb_left, b0.mb_right, b1.mb_left, b1.mb_right, e20, e21, mb_three hb z0.2 z0.1, mb_three hb z0.2 z1.1, mb_three hb z0.2 z2.1, mb_three hb z1.2 z0.1, mb_three hb z1.2 z1.1, mb_three hb z1.2 z2.1, mb_three hb z2.2 z0.1, mb_three hb z2.2 z1.1, mb_three hb z2.2 z2.1, mb_three hb ρ2 z0.1, mb_three hb ρ2 z1.1, mb_three hb ρ2 z2.1, ab_self, sb_self] at i0 i1 i2 i3 i4 i5 i6 i7 i8 i9 i10 i11 ⊢
  simp only [ab_swap z0.1 z1.1, ab_swap z0.1 z2.1, ab_swap z1.1 z2.1, sb_swap z0.2 z1.2, sb_swap z0.2 z2.2, sb_swap z0.2 ρ2, sb_swap z1.2 z2.2, sb_swap z1.2 ρ2, sb_swap z2.2 ρ2] at i0 i1 i2 i3 i4 i5 i6 i7 i8 i9 i10 i11 ⊢
  simp only [r0, r1, r2, r3, r4, Constants.hL, Constants.hR, Constants.gL, Constants.gR, Constants.yuk, Constants.invVev, Flavour.charge_e, Flavour.isospin_e, ← c.mz]
  have xMW : (c.MW : ℂ) ≠ 0 := by exact_mod_cast hc.MW
  have xSW : (c.SW : ℂ) ≠ 0 := by exact_mod_cast hc.SW
  have xCW : (c.CW : ℂ) ≠ 0 := by exact_mod_cast hc.CW
  have x2 : ((√2 : ℝ) : ℂ) ≠ 0 := by exact_mod_cast (Real.sqrt_pos.2 two_pos).ne'
  have x22 : ((√2 : ℝ) : ℂ) ^ 2 = 2 := by rw [← Complex.ofReal_pow, Real.sq_sqrt two_pos.le]; norm_num
  have x23 : ((√2 : ℝ) : ℂ) ^ 3 = 2 * ((√2 : ℝ) : ℂ) := by rw [← x22]; ring
  have x24 : ((√2 : ℝ) : ℂ) ^ 4 = 4 := by linear_combination (((√2 : ℝ) : ℂ) ^ 2 + 2) * x22
  push_cast at i0 i1 i2 i3 i4 i5 i6 i7 i8 i9 i10 i11 ⊢
  simp only [div_eq_mul_inv, mul_inv, inv_inv] at i0 i1 i2 i3 i4 i5 i6 i7 i8 i9 i10 i11 ⊢
  have y0 := mul_inv_cancel₀ n0
  have y1 := mul_inv_cancel₀ n1
  linear_combination ((((-1) * (((√2 : ℝ) : ℂ)) * ((c.e : ℂ)) ^ 2 * ((c.mass .e : ℂ)) * (mb z1.2 (p 0) z2.1) + (-3) * (((√2 : ℝ) : ℂ)) * ((c.e : ℂ)) ^ 2 * ((c.mass .e : ℂ)) ^ 2 * (ab z1.1 z2.1)) * i0 + ((-1) * (((√2 : ℝ) : ℂ)) * ((c.e : ℂ)) ^ 2 * ((c.mass .e : ℂ)) * (mb z1.2 (p 0) z2.1) + (-1) * (((√2 : ℝ) : ℂ)) * ((c.e : ℂ)) ^ 2 * ((c.mass .e : ℂ)) ^ 2 * (ab z1.1 z2.1)) * i1 + ((1) * (((√2 : ℝ) : ℂ)) * ((c.e : ℂ)) ^ 2 * ((c.mass .e : ℂ)) * (ab z1.1 z2.1)) * i2 + ((-1) * (((√2 : ℝ) : ℂ)) * ((c.e : ℂ)) ^ 2 * ((c.mass .e : ℂ)) * (N.c 1)) * i3 + ((-1) * (((√2 : ℝ) : ℂ)) * ((c.e : ℂ)) ^ 2 * ((c.mass .e : ℂ)) * (mb ρ2 (p 0) z2.1) + (-1) * (((√2 : ℝ) : ℂ)) * ((c.e : ℂ)) ^ 2 * ((c.mass .e : ℂ)) * (mb ρ2 (p 1) z2.1)) * i4 + ((-1) * (((√2 : ℝ) : ℂ)) * ((c.e : ℂ)) ^ 2 * ((c.mass .e : ℂ)) * (N.c 1)) * i5 + ((-1) * (((√2 : ℝ) : ℂ)) * ((c.e : ℂ)) ^ 2 * ((c.mass .e : ℂ)) * (N.c 0) + (-2) * (((√2 : ℝ) : ℂ)) * ((c.e : ℂ)) ^ 2 * ((c.mass .e : ℂ)) * (N.c 1)) * i6 + ((-1) * (((√2 : ℝ) : ℂ)) * ((c.e : ℂ)) ^ 2 * ((c.mass .e : ℂ)) * (mb ρ2 (p 0) z2.1) + (-1) * (((√2 : ℝ) : ℂ)) * ((c.e : ℂ)) ^ 2 * ((c.mass .e : ℂ)) * (mb ρ2 (p 1) z2.1)) * i7 + ((-1) * (((√2 : ℝ) : ℂ)) * ((c.e : ℂ)) ^ 2 * ((c.mass .e : ℂ)) * (N.c 0)) * i8 + ((-2) * (((√2 : ℝ) : ℂ)) * ((c.e : ℂ)) ^ 2 * ((c.mass .e : ℂ)) * (mb ρ2 (p 0) z2.1)) * i9 + ((2) * (((√2 : ℝ) : ℂ)) * ((c.e : ℂ)) ^ 2 * ((c.mass .e : ℂ)) * (mb z0.2 (p 1) z2.1)) * i10 + ((-1) * (((√2 : ℝ) : ℂ)) * ((c.e : ℂ)) ^ 2 * ((c.mass .e : ℂ)) * (sb z2.2 ρ2)) * i11)) * ((1) * ((c.MW : ℂ)⁻¹) * ((c.SW : ℂ)⁻¹) * ((N.c 0)⁻¹) * ((N.c 1)⁻¹) / (2)) + ((1) * (((√2 : ℝ) : ℂ)) * ((c.e : ℂ)) ^ 2 * ((c.MW : ℂ)⁻¹) * ((c.SW : ℂ)⁻¹) * ((c.mass .e : ℂ)) * ((N.c 1)⁻¹) * (ab z0.1 z2.1) * (ab z1.1 z2.1) * (sb z2.2 ρ2) / (2) + (-1) * (((√2 : ℝ) : ℂ)) * ((c.e : ℂ)) ^ 2 * ((c.MW : ℂ)⁻¹) * ((c.SW : ℂ)⁻¹) * ((c.mass .e : ℂ)) * ((N.c 1)⁻¹) * (ab z1.1 z2.1) * (mb ρ2 (p 1) z0.1) / (2) + (-1) * (((√2 : ℝ) : ℂ)) * ((c.e : ℂ)) ^ 2 * ((c.MW : ℂ)⁻¹) * ((c.SW : ℂ)⁻¹) * ((c.mass .e : ℂ)) * ((N.c 1)⁻¹) * (mb z0.2 (p 1) z2.1) * (sb z1.2 ρ2) / (2) + (1) * (((√2 : ℝ) : ℂ)) * ((c.e : ℂ)) ^ 2 * ((c.MW : ℂ)⁻¹) * ((c.SW : ℂ)⁻¹) * ((c.mass .e : ℂ)) ^ 2 * ((N.c 1)⁻¹) * (ab z0.1 z2.1) * (sb z1.2 ρ2) / (2) + (1) * (((√2 : ℝ) : ℂ)) * ((c.e : ℂ)) ^ 2 * ((c.MW : ℂ)⁻¹) * ((c.SW : ℂ)⁻¹) * ((c.mass .e : ℂ)) ^ 2 * ((N.c 1)⁻¹) * (ab z1.1 z2.1) * (sb z0.2 ρ2) / (2)) * y0 + ((1) * (((√2 : ℝ) : ℂ)) * ((c.e : ℂ)) ^ 2 * ((c.MW : ℂ)⁻¹) * ((c.SW : ℂ)⁻¹) * ((c.mass .e : ℂ)) * ((N.c 0)⁻¹) * (ab z0.1 z2.1) * (ab z1.1 z2.1) * (sb z2.2 ρ2) / (2) + (-1) * (((√2 : ℝ) : ℂ)) * ((c.e : ℂ)) ^ 2 * ((c.MW : ℂ)⁻¹) * ((c.SW : ℂ)⁻¹) * ((c.mass .e : ℂ)) * ((N.c 0)⁻¹) * (ab z0.1 z2.1) * (mb ρ2 (p 0) z1.1) / (2) + (-1) * (((√2 : ℝ) : ℂ)) * ((c.e : ℂ)) ^ 2 * ((c.MW : ℂ)⁻¹) * ((c.SW : ℂ)⁻¹) * ((c.mass .e : ℂ)) * ((N.c 0)⁻¹) * (mb z1.2 (p 0) z2.1) * (sb z0.2 ρ2) / (2) + (1) * (((√2 : ℝ) : ℂ)) * ((c.e : ℂ)) ^ 2 * ((c.MW : ℂ)⁻¹) * ((c.SW : ℂ)⁻¹) * ((c.mass .e : ℂ)) ^ 2 * ((N.c 0)⁻¹) * (ab z0.1 z2.1) * (sb z1.2 ρ2) / (2) + (1) * (((√2 : ℝ) : ℂ)) * ((c.e : ℂ)) ^ 2 * ((c.MW : ℂ)⁻¹) * ((c.SW : ℂ)⁻¹) * ((c.mass .e : ℂ)) ^ 2 * ((N.c 0)⁻¹) * (ab z1.1 z2.1) * (sb z0.2 ρ2) / (2)) * y1
set_option maxRecDepth 8000 in
theorem eeAh.amp2_eq (N : Env) (f : Nat → List Int → ℂ) : Cls.eeAh.m_amp2.mean N f .r [] =
    ((sumJ (fun x a => (sumJ (fun x b => (sumW (fun x c => (x + (‖(f 0 [a, b, c])‖ ^ 2))) x)) x)) ((0 : Nat) : ℝ)) / ((4 : Nat) : ℝ)) := by rfl
set_option maxRecDepth 8000 in
theorem eeAh.value (N : Env) : meaning N .r Cls.eeAh.methods Cls.eeAh.amp2 [] =
    ((sumJ (fun x a => (sumJ (fun x b => (sumW (fun x c => (x + (‖(Cls.eeAh.m_amp.mean N (callMean N []) .c [a, b, c])‖ ^ 2))) x)) x)) ((0 : Nat) : ℝ)) / ((4 : Nat) : ℝ)) :=
  eeAh.amp2_eq N (callMean N [Cls.eeAh.m_amp])
set_option maxRecDepth 8000 in
theorem eeAh.ampP (N : Env) (f : Nat → List Int → ℂ) (j1 j2 : Int) : Cls.eeAh.m_amp.mean N f .c [j1, j2, 2] = eeAh.termP N j1 j2 := by rfl
set_option maxRecDepth 8000 in
theorem eeAh.ampM (N : Env) (f : Nat → List Int → ℂ) (j1 j2 : Int) : Cls.eeAh.m_amp.mean N f .c [j1, j2, (-2)] = eeAh.termM N j1 j2 := by rfl

theorem eeAh.mass_eq {c : Constants} {v : ℝ} (hc : c.Physical) (i : Fin 4) : eeAh.proc.massNum (eeAh.rhoVev c v) i = eeAh.react.mass c i := by
  fin_cases i <;> first | rfl | exact Nat.cast_zero | exact Nat.cast_zero.trans (hc.neutrino _).symm | (show c.MW / √(((1 : Nat) : ℝ) - c.SW * c.SW) = c.MZ; rw [c.root, c.mz])

variable [FPEnv] in
theorem eeAh.agrees : eeAh.AgreesVev := by
  refine agreesVev_of (D := []) (E := []) (by simp [all, eeAh]) (by decide +kernel) (by decide) (by decide +kernel) (fun c v hc hh _ => ⟨List.forall_mem_nil _, List.forall_mem_nil _⟩) (fun c v hc i => eeAh.mass_eq hc i) (by decide +kernel) ?_
  intro c v p u ε hc hh hve h0 hs hb hr hu
  obtain ⟨e0, hv0, hV⟩ := vev_eq hc hve
  have he : eeAh.react.ends = [1] := by decide
  have ht : eeAh.react.starts = [0] := by decide
  have hB : eeAh.react.bosons = [2, 3] := by decide
  obtain ⟨f1, f2, f3⟩ := eeAh.react.regular_line he ht hB hr
  have r0 : (eeAh.N c v p).r 0 = c.e := rfl
  have r1 : (eeAh.N c v p).r 1 = (c.mass .e) := rfl
  have r2 : (eeAh.N c v p).r 2 = c.MH := rfl
  have r3 : (eeAh.N c v p).r 3 = (2 * c.MW * c.SW / c.e) := hV
  have r4 : (eeAh.N c v p).r 4 = √(((2 : Nat) : ℝ)) := rfl
  have c0 : (eeAh.N c v p).c 0 = poleDist (c.mass .e) ((0 : Nat) : ℝ) ((VExp.sub 0 2).sum p) := rfl
  rw [Nat.cast_zero, pole_fermion rfl] at c0
  have d0 : ((msq (plus (p 0) (backward (p 2))) - c.mass .e ^ 2 : ℝ) : ℂ) = (eeAh.N c v p).c 0 := by rw [c0, msq_t hb (plus (p 0) (backward (p 2))) (by simp)]
  have n0 : (eeAh.N c v p).c 0 ≠ 0 := by rw [← d0]; exact_mod_cast f1 .e rfl rfl
  have c1 : (eeAh.N c v p).c 1 = poleDist (c.mass .e) ((0 : Nat) : ℝ) ((VExp.sub 0 3).sum p) := rfl
  rw [Nat.cast_zero, pole_fermion rfl] at c1
  have d1 : ((msq (plus (p 0) (backward (p 3))) - c.mass .e ^ 2 : ℝ) : ℂ) = (eeAh.N c v p).c 1 := by rw [c1, msq_u hb (plus (p 0) (backward (p 3))) (by simp)]
  have n1 : (eeAh.N c v p).c 1 ≠ 0 := by rw [← d1]; exact_mod_cast f2 .e rfl rfl
  obtain ⟨l2, x2, y2⟩ := eeAh.react.code_light hs hu (n := 2) rfl rfl
  have e20 := l2.pole_sub' (m := (c.mass .e)) (onShell_msq (hs 0)) (msq_t hb (plus (p 0) (backward (p 2))) (by simp)) c0
  have e21 := l2.pole_sub' (m := (c.mass .e)) (onShell_msq (hs 1)) (msq_u hb (plus (p 1) (backward (p 2))) (by simp)) c1
  have m0 : eeAh.react.mass c 0 ≠ 0 := (leg_pos hc hh (by decide)).ne'
  have m1 : eeAh.react.mass c 1 ≠ 0 := (leg_pos hc hh (by decide)).ne'
  have m2 : eeAh.react.mass c 2 = 0 := rfl
  have hd : eeAh.proc.divides = [(Ty.r, 3), (Ty.c, 0), (Ty.c, 1)] := by decide +kernel
  refine ⟨fun n hn => ?_, fun n hn => ?_, ?_⟩
  · simp [hd] at hn
    subst hn
    · exact hv0
  · simp [hd] at hn
    rcases hn with rfl | rfl
    · exact n0
    · exact n1
  have stP : ∀ {z0 z1 : Pair} (b0 : Bold (p 0) (eeAh.react.mass c 0) z0) (b1 : Bold (p 1) (eeAh.react.mass c 1) z1), eeAh.formP (eeAh.N c v p) p z0 z1 (legA (p 2) 0 0, legS (p 2) 0 1) = (-1) * eeAh.react.bare c p 1 0 2 3 z1 z0 (lightE (legA (p 2) 0 0, legS (p 2) 0 1) 1) (eeAh.react.codeVec c p 3 0) := by
    intro z0 z1 b0 b1
    exact (light_plus (z := (legA (p 2) 0 0, legS (p 2) 0 1)) (G := fun E => eeAh.react.bare c p 1 0 2 3 z1 z0 E (eeAh.react.codeVec c p 3 0)) (eeAh.react.bare_lin₁ c p _ _ _ (by decide)) x2 (eeAh.keyP hc hb r0 r1 r2 r3 r4 d0 n0 d1 n1 b0 b1 l2 e20 e21 (onShell_msq (hs 0)) (onShell_msq (hs 1)) (onShell_msq (hs 3)) _ (eeAh.react.codeVec c p 3 0)))
  have stM : ∀ {z0 z1 : Pair} (b0 : Bold (p 0) (eeAh.react.mass c 0) z0) (b1 : Bold (p 1) (eeAh.react.mass c 1) z1), eeAh.formM (eeAh.N c v p) p z0 z1 (legA (p 2) 0 0, legS (p 2) 0 1) = (-1) * eeAh.react.bare c p 1 0 2 3 z1 z0 (lightE (legA (p 2) 0 0, legS (p 2) 0 1) 0) (eeAh.react.codeVec c p 3 0) := by
    intro z0 z1 b0 b1
    exact (light_minus (z := (legA (p 2) 0 0, legS (p 2) 0 1)) (G := fun E => eeAh.react.bare c p 1 0 2 3 z1 z0 E (eeAh.react.codeVec c p 3 0)) (eeAh.react.bare_lin₁ c p _ _ _ (by decide)) y2 (eeAh.keyM hc hb r0 r1 r2 r3 r4 d0 n0 d1 n1 b0 b1 l2 e20 e21 (onShell_msq (hs 0)) (onShell_msq (hs 1)) (onShell_msq (hs 3)) _ (eeAh.react.codeVec c p 3 0)))
  have amP : ∀ (s0 : Fin 2) (s1 : Fin 2), Cls.eeAh.m_amp.mean (eeAh.N c v p) (callMean (eeAh.N c v p) []) .c [spinOf s0, spinOf s1, 2] = (-1) * eeAh.react.bare c p 1 0 2 3 (eeAh.react.codePair c p 1 s1) (eeAh.react.codePair c p 0 s0) (lightE (legA (p 2) 0 0, legS (p 2) 0 1) 1) (eeAh.react.codeVec c p 3 0) := by
    intro s0 s1
    rw [eeAh.ampP, ← stP (eeAh.react.codePair_bold hs h0 0 s0) (eeAh.react.codePair_bold hs h0 1 s1)]
    have v0z0z2 : (eeAh.N c v p).v 0 [spinOf s0] = sb (eeAh.react.codePair c p 0 s0).2 (legA (p 2) 0 0, legS (p 2) 0 1).2 := bra_square (p := p) (m := eeAh.proc.massNum (eeAh.rhoVev c v)) (eeAh.mass_eq hc 0) (eeAh.mass_eq hc 2) (.inl ⟨m0, rfl⟩) (.inr ⟨m2, rfl⟩)
    have v2z1z2 : (eeAh.N c v p).v 2 [spinOf s1] = sb (eeAh.react.codePair c p 1 s1).2 (legA (p 2) 0 0, legS (p 2) 0 1).2 := bra_square (p := p) (m := eeAh.proc.massNum (eeAh.rhoVev c v)) (eeAh.mass_eq hc 1) (eeAh.mass_eq hc 2) (.inl ⟨m1, rfl⟩) (.inr ⟨m2, rfl⟩)
    have v6z2z1 : (eeAh.N c v p).v 6 [spinOf s1] = mb (legA (p 2) 0 0, legS (p 2) 0 1).2 (p 3) (eeAh.react.codePair c p 1 s1).1 := bra_mid_square (p := p) (m := eeAh.proc.massNum (eeAh.rhoVev c v)) (eeAh.mass_eq hc 2) (eeAh.mass_eq hc 1) (.inr ⟨m2, rfl⟩) (.inl ⟨m1, rfl⟩)
    have v8z2z0 : (eeAh.N c v p).v 8 [spinOf s0] = mb (legA (p 2) 0 0, legS (p 2) 0 1).2 (p 3) (eeAh.react.codePair c p 0 s0).1 := bra_mid_square (p := p) (m := eeAh.proc.massNum (eeAh.rhoVev c v)) (eeAh.mass_eq hc 2) (eeAh.mass_eq hc 0) (.inr ⟨m2, rfl⟩) (.inl ⟨m0, rfl⟩)
    have v5z0z1 : (eeAh.N c v p).v 5 [spinOf s0, spinOf s1] = ab (eeAh.react.codePair c p 0 s0).1 (eeAh.react.codePair c p 1 s1).1 := bra_angle (p := p) (m := eeAh.proc.massNum (eeAh.rhoVev c v)) (eeAh.mass_eq hc 0) (eeAh.mass_eq hc 1) (.inl ⟨m0, rfl⟩) (.inl ⟨m1, rfl⟩)
    have v10z2z2 : (eeAh.N c v p).v 10 [] = mb (legA (p 2) 0 0, legS (p 2) 0 1).2 (p 1) (slashLower (p 3) *ᵥ (legA (p 2) 0 0, legS (p 2) 0 1).2) := bra_two_square (p := p) (m := eeAh.proc.massNum (eeAh.rhoVev c v)) (eeAh.mass_eq hc 2) (eeAh.mass_eq hc 2) (.inr ⟨m2, rfl⟩) (.inr ⟨m2, rfl⟩)
    simp only [eeAh.termP, eeAh.formP, v0z0z2, v2z1z2, v6z2z1, v8z2z0, v5z0z1, v10z2z2]
  have amM : ∀ (s0 : Fin 2) (s1 : Fin 2), Cls.eeAh.m_amp.mean (eeAh.N c v p) (callMean (eeAh.N c v p) []) .c [spinOf s0, spinOf s1, (-2)] = (-1) * eeAh.react.bare c p 1 0 2 3 (eeAh.react.codePair c p 1 s1) (eeAh.react.codePair c p 0 s0) (lightE (legA (p 2) 0 0, legS (p 2) 0 1) 0) (eeAh.react.codeVec c p 3 0) := by
    intro s0 s1
    rw [eeAh.ampM, ← stM (eeAh.react.codePair_bold hs h0 0 s0) (eeAh.react.codePair_bold hs h0 1 s1)]
    have v1z0z2 : (eeAh.N c v p).v 1 [spinOf s0] = ab (eeAh.react.codePair c p 0 s0).1 (legA (p 2) 0 0, legS (p 2) 0 1).1 := bra_angle (p := p) (m := eeAh.proc.massNum (eeAh.rhoVev c v)) (eeAh.mass_eq hc 0) (eeAh.mass_eq hc 2) (.inl ⟨m0, rfl⟩) (.inr ⟨m2, rfl⟩)
    have v3z1z2 : (eeAh.N c v p).v 3 [spinOf s1] = ab (eeAh.react.codePair c p 1 s1).1 (legA (p 2) 0 0, legS (p 2) 0 1).1 := bra_angle (p := p) (m := eeAh.proc.massNum (eeAh.rhoVev c v)) (eeAh.mass_eq hc 1) (eeAh.mass_eq hc 2) (.inl ⟨m1, rfl⟩) (.inr ⟨m2, rfl⟩)
    have v7z2z1 : (eeAh.N c v p).v 7 [spinOf s1] = mb (eeAh.react.codePair c p 1 s1).2 (p 3) (legA (p 2) 0 0, legS (p 2) 0 1).1 := bra_mid_angle (p := p) (m := eeAh.proc.massNum (eeAh.rhoVev c v)) (eeAh.mass_eq hc 2) (eeAh.mass_eq hc 1) (.inr ⟨m2, rfl⟩) (.inl ⟨m1, rfl⟩)
    have v9z2z0 : (eeAh.N c v p).v 9 [spinOf s0] = mb (eeAh.react.codePair c p 0 s0).2 (p 3) (legA (p 2) 0 0, legS (p 2) 0 1).1 := bra_mid_angle (p := p) (m := eeAh.proc.massNum (eeAh.rhoVev c v)) (eeAh.mass_eq hc 2) (eeAh.mass_eq hc 0) (.inr ⟨m2, rfl⟩) (.inl ⟨m0, rfl⟩)
    have v4z0z1 : (eeAh.N c v p).v 4 [spinOf s0, spinOf s1] = sb (eeAh.react.codePair c p 0 s0).2 (eeAh.react.codePair c p 1 s1).2 := bra_square (p := p) (m := eeAh.proc.massNum (eeAh.rhoVev c v)) (eeAh.mass_eq hc 0) (eeAh.mass_eq hc 1) (.inl ⟨m0, rfl⟩) (.inl ⟨m1, rfl⟩)
    have v11z2z2 : (eeAh.N c v p).v 11 [] = mb (slashUpper (p 3) *ᵥ (legA (p 2) 0 0, legS (p 2) 0 1).1) (p 1) (legA (p 2) 0 0, legS (p 2) 0 1).1 := bra_two_angle (p := p) (m := eeAh.proc.massNum (eeAh.rhoVev c v)) (eeAh.mass_eq hc 2) (eeAh.mass_eq hc 2) (.inr ⟨m2, rfl⟩) (.inr ⟨m2, rfl⟩)
    simp only [eeAh.termM, eeAh.formM, v1z0z2, v3z1z2, v7z2z1, v9z2z0, v4z0z1, v11z2z2]
  have am : ∀ (s0 : Fin 2) (s1 : Fin 2) (h2 : Fin 2), ‖Cls.eeAh.m_amp.mean (eeAh.N c v p) (callMean (eeAh.N c v p) []) .c [spinOf s0, spinOf s1, spinW h2]‖ = ‖eeAh.react.bare c p 1 0 2 3 (eeAh.react.codePair c p 1 s1) (eeAh.react.codePair c p 0 s0) (lightE (legA (p 2) 0 0, legS (p 2) 0 1) h2.castSucc) (eeAh.react.codeVec c p 3 0)‖ := by
    intro s0 s1 h2
    match h2 with
    | 1 => exact norm_minus (amP s0 s1)
    | 0 => exact norm_minus (amM s0 s1)
  show meaning (eeAh.N c v p) .r Cls.eeAh.methods Cls.eeAh.amp2 [] = _
  have s0 : eeAh.react.states 0 = 2 := by decide +kernel
  have s1 : eeAh.react.states 1 = 2 := by decide +kernel
  have sy : eeAh.react.symmetry = 1 := by decide
  have p0 : eeAh.react.spins 0 = {0, 1} := rfl
  have p1 : eeAh.react.spins 1 = {0, 1} := rfl
  have p2 : eeAh.react.spins 2 = {0, 1} := rfl
  have p3 : eeAh.react.spins 3 = {0} := rfl
  have E2 : eeAh.react.codeE c p 2 = lightE (legA (p 2) 0 0, legS (p 2) 0 1) := rfl
  have E3 : eeAh.react.codeE c p 3 = eeAh.react.codeVec c p 3 := rfl
  have hG : eeAh.react.Gauge c p := (eeAh.react.gauge_line he ht hB hh (by decide) (fun n => onShell_msq (hs n)) hb hr (fun n m h h2 => absurd (And.intro h h2) (by revert n m; decide)) (fun _ => ⟨rfl, rfl⟩) (fun h => absurd h (by decide)))
  have lc : eeAh.react.lineColours 1 0 = 1 := by decide +kernel
  rw [eeAh.value, eeAh.react.squared_line he ht hB (by decide) hs h0 (fun _ b _ hb _ => (boson_pos hc hh hb).ne') hG (E := eeAh.react.codeE c p) (fun n b hl => eeAh.react.codeE_polarised hs h0 hu (fun b hb => (boson_pos hc hh hb).ne') n b hl) hu, sum_colours, lc, s0, s1, sy]
  simp only [sumV_sum, sumJ_sum, sumW_sum, am, p0, p1, p2, p3, E2, E3, Finset.sum_singleton, sum_two, Matrix.cons_val_zero, Matrix.cons_val_one, Matrix.cons_val, two_castSucc]
  try simp only [← Finset.mul_sum]
  push_cast
  first | ring1 | ring_nf

/-! ### eAeh -/

/-- what the methods of the class see -/
noncomputable abbrev eAeh.N [FPEnv] (c : Constants) (v : ℝ) (p : Nat → V4 ℝ) : Env := eAeh.proc.env (eAeh.rhoVev c v) p
/-- `amp` for a photon of positive helicity (SM/eAeh.cpp) -/
noncomputable def eAeh.termP (N : Env) (j1 j3 : Int) : ℂ :=
  ((((((((N.r 4 * N.r 0) * N.r 1) / N.r 3) : ℝ) : ℂ) * ((((((((N.r 2 * N.r 2) : ℝ) : ℂ) * N.v 0 [j1]) * N.v 2 [j3]) - ((((N.r 1 : ℝ) : ℂ) * N.v 0 [j1]) * N.v 6 [j3])) - ((((N.r 1 : ℝ) : ℂ) * N.v 2 [j3]) * N.v 8 [j1])) + (N.v 5 [j1, j3] * N.v 10 []))) / N.c 0) / N.c 1)
/-- the same with spinors in place of their spins -/
noncomputable def eAeh.formP (N : Env) (p : Nat → V4 ℝ) (z0 z1 z2 : Pair) : ℂ :=
  ((((((((N.r 4 * N.r 0) * N.r 1) / N.r 3) : ℝ) : ℂ) * ((((((((N.r 2 * N.r 2) : ℝ) : ℂ) * (sb z0.2 z1.2)) * (sb z1.2 z2.2)) - ((((N.r 1 : ℝ) : ℂ) * (sb z0.2 z1.2)) * (mb z1.2 (p 3) z2.1))) - ((((N.r 1 : ℝ) : ℂ) * (sb z1.2 z2.2)) * (mb z1.2 (p 3) z0.1))) + ((ab z0.1 z2.1) * (mb z1.2 (p 2) (slashLower (p 3) *ᵥ z1.2))))) / N.c 0) / N.c 1)
/-- `amp` for a photon of negative helicity (SM/eAeh.cpp) -/
noncomputable def eAeh.termM (N : Env) (j1 j3 : Int) : ℂ :=
  ((((((((N.r 4 * N.r 0) * N.r 1) / N.r 3) : ℝ) : ℂ) * (((((((((-N.r 2) * N.r 2) : ℝ) : ℂ) * N.v 1 [j1]) * N.v 3 [j3]) + ((((N.r 1 : ℝ) : ℂ) * N.v 1 [j1]) * N.v 7 [j3])) + ((((N.r 1 : ℝ) : ℂ) * N.v 3 [j3]) * N.v 9 [j1])) - (N.v 4 [j1, j3] * N.v 11 []))) / N.c 0) / N.c 1)
/-- the same with spinors in place of their spins -/
noncomputable def eAeh.formM (N : Env) (p : Nat → V4 ℝ) (z0 z1 z2 : Pair) : ℂ :=
  ((((((((N.r 4 * N.r 0) * N.r 1) / N.r 3) : ℝ) : ℂ) * (((((((((-N.r 2) * N.r 2) : ℝ) : ℂ) * (ab z0.1 z1.1)) * (ab z1.1 z2.1)) + ((((N.r 1 : ℝ) : ℂ) * (ab z0.1 z1.1)) * (mb z2.2 (p 3) z1.1))) + ((((N.r 1 : ℝ) : ℂ) * (ab z1.1 z2.1)) * (mb z0.2 (p 3) z1.1))) - ((sb z0.2 z2.2) * (mb (slashUpper (p 3) *ᵥ z1.1) (p 2) z1.1)))) / N.c 0) / N.c 1)
theorem eAeh.keyP {c : Constants} {p : Nat → V4 ℝ} {N : Env} (hc : c.Physical) (hb : Balanced p) (r0 : N.r 0 = c.e) (r1 : N.r 1 = (c.mass .e)) (r2 : N.r 2 = c.MH) (r3 : N.r 3 = (2 * c.MW * c.SW / c.e)) (r4 : N.r 4 = √(((2 : Nat) : ℝ))) (d0 : ((msq (plus (p 0) (p 1)) - c.mass .e ^ 2 : ℝ) : ℂ) = N.c 0) (n0 : N.c 0 ≠ 0) (d1 : ((msq (plus (p 0) (backward (p 3))) - c.mass .e ^ 2 : ℝ) : ℂ) = N.c 1) (n1 : N.c 1 ≠ 0) {z0 z1 z2 : Pair} (b0 : Bold (p 0) (c.mass .e) z0) (b2 : Bold (p 2) (c.mass .e) z2) (l1 : Light (p 1) z1) (e10 : mb z1.2 (p 0) z1.1 = N.c 0) (e12 : mb z1.2 (p 2) z1.1 = -N.c 1) (q0 : msq (p 0) = (c.mass .e) ^ 2) (q2 : msq (p 2) = (c.mass .e) ^ 2) (q3 : msq (p 3) = c.MH ^ 2) (ρ1 : V2) (E3 : Vec) :
    eAeh.formP N p z0 z1 z2 * ab ρ1 z1.1 = ((√2 : ℝ) * (-1 : ℂ)) * eAeh.react.bare c p 2 0 1 3 z2 z0 (pv ρ1 z1.2) E3 := by
  rw [eAeh.react.bare_parts c p (i := 2) (j := 0) (a := 1) (b := 3) (x := .photon) (y := .higgs) (k := (p 1)) (k' := (backward (p 3))) (fun _ => rfl) (fun _ => rfl) (f := .e) (g := .e) rfl rfl (l := (p 0)) rfl (e := 1) (e' := 1) (if_neg Bool.false_ne_true) (if_neg Bool.false_ne_true)]
  rw [compton_vh (f := .e) (x := .e) (g := .e) (h := (rfl : Spec.after .photon Flavour.e = some Flavour.e)) (h' := (rfl : Spec.after .higgs Flavour.e = some Flavour.e)) (ha := by simp)]
  rw [compton_hv (f := .e) (x := .e) (g := .e) (h := (rfl : Spec.after .higgs Flavour.e = some Flavour.e)) (h' := (rfl : Spec.after .photon Flavour.e = some Flavour.e)) (hb := by simp)]
  rw [annihilation_none c _ _ (by rfl) (by simp), star_zero, add_zero, eAeh.formP]
  simp only [d0, d1, lineV_pv, lineV_four, contract_four_pv, contract_pv, mb_plus, mb_backward]
  have i0 := mb_schouten_right z1.2 (p 0) z0.1 z1.1 ρ1
  have i1 := mb_schouten_right z1.2 (p 0) z0.1 z1.1 z2.1
  have i2 := mb_schouten_right z1.2 (p 0) z0.1 z2.1 ρ1
  have i3 := mb_schouten_left z0.2 z1.2 z2.2 (p 2) z1.1
  have i4 := mb_det z0.2 z1.2 (p 3) z1.1 ρ1
  rw [q3] at i4
  have i5 := mb_schouten_right z1.2 (p 2) z0.1 z1.1 z2.1
  have i6 := mb_schouten_right z1.2 (p 0) z1.1 z2.1 ρ1
  have i7 := mb_schouten_right z1.2 (p 2) z0.1 z1.1 ρ1
  have i8 := mb_schouten_right z1.2 (p 2) z0.1 z2.1 ρ1
  have i9 := chain_square z0.1 z2.1 z1.2 (p 2) (p 3) z1.2
  have i10 := mb_schouten_left z0.2 z1.2 z2.2 (p 0) ρ1
  have i11 := mb_schouten_left z0.2 z1.2 z2.2 (p 2) ρ1
  simp only [l1.mb_eq, b0.mb_left, b0.mb_right, b2.mb_left, b2.mb_right, e10, e12, mb_three hb z0.2 z0.1, mb_three hb z0.2 z1.1, mb_three hb z0.2 z2.1, mb_three hb z0.2 ρ1, mb_three hb z1.2 z0.1, mb_three hb z1.2 z1.1, mb_three hb z1.2 z2.1, mb_three hb z1.2 ρ1, mb_three hb z2.2 z0.1, mb_three hb z2.2 z1.1, mb_three hb z2.2 z2.1, mb_three hb z2.2 ρ1, ab_self, sb_self] at i0 i1 i2 i3 i4 i5 i6 i7 i8 i9 i10 i11 ⊢
  simp only [ab_swap z0.1 z1.1, ab_swap z0.1 z2.1, ab_swap z0.1 ρ1, ab_swap z1.1 z2.1, ab_swap z1.1 ρ1, ab_swap z2.1 ρ1, sb_swap z0.2 z1.2, sb_swap z0.2 z2.2, sb_swap z1.2 z2.2] at i0 i1 i2 i3 i4 i5 i6 i7 i8 i9 i10 i11 ⊢
  simp only [r0, r1, r2, r3, r4, Constants.hL, Constants.hR, Constants.gL, Constants.gR, Constants.yuk, Constants.invVev, Flavour.charge_e, Flavour.isospin_e, ← c.mz]
  have xMW : (c.MW : ℂ) ≠ 0 := by exact_mod_cast hc.MW
  have xSW : (c.SW : ℂ) ≠ 0 := by exact_mod_cast hc.SW
  have xCW : (c.CW : ℂ) ≠ 0 := by exact_mod_cast hc.CW
  have x2 : ((√2 : ℝ) : ℂ) ≠ 0 := by exact_mod_cast (Real.sqrt_pos.2 two_pos).ne'
  have x22 : ((√2 : ℝ) : ℂ) ^ 2 = 2 := by rw [← Complex.ofReal_pow, Real.sq_sqrt two_pos.le]; norm_num
  have x23 : ((√2 : ℝ) : ℂ) ^ 3 = 2 * ((√2 : ℝ) : ℂ) := by rw [← x22]; ring
  have x24 : ((√2 : ℝ) : ℂ) ^ 4 = 4 := by linear_combination (((√2 : ℝ) : ℂ) ^ 2 + 2) * x22
  push_cast at i0 i1 i2 i3 i4 i5 i6 i7 i8 i9 i10 i11 ⊢
  simp only [div_eq_mul_inv, mul_inv, inv_inv] at i0 i1 i2 i3 i4 i5 i6 i7 i8 i9 i10 i11 ⊢
  have y0 := mul_inv_cancel₀ n0
  have y1 := mul_inv_cancel₀ n1
  linear_combination ((((1) * (((√2 : ℝ) : ℂ)) * ((c.e : ℂ)) ^ 2 * ((c.mass .e : ℂ)) * (mb z1.2 (p 0) z2.1) + (3) * (((√2 : ℝ) : ℂ)) * ((c.e : ℂ)) ^ 2 * ((c.mass .e : ℂ)) ^ 2 * (sb z1.2 z2.2)) * i0 + ((-1) * (((√2 : ℝ) : ℂ)) * ((c.e : ℂ)) ^ 2 * ((c.mass .e : ℂ)) * (mb z1.2 (p 0) ρ1) + (1) * (((√2 : ℝ) : ℂ)) * ((c.e : ℂ)) ^ 2 * ((c.mass .e : ℂ)) * (mb z1.2 (p 2) ρ1)) * i1 + ((-1) * (((√2 : ℝ) : ℂ)) * ((c.e : ℂ)) ^ 2 * ((c.mass .e : ℂ)) * (N.c 0) + (-2) * (((√2 : ℝ) : ℂ)) * ((c.e : ℂ)) ^ 2 * ((c.mass .e : ℂ)) * (N.c 1)) * i2 + ((-1) * (((√2 : ℝ) : ℂ)) * ((c.e : ℂ)) ^ 2 * ((c.mass .e : ℂ)) * (mb z1.2 (p 0) ρ1) + (1) * (((√2 : ℝ) : ℂ)) * ((c.e : ℂ)) ^ 2 * ((c.mass .e : ℂ)) * (mb z1.2 (p 2) ρ1)) * i3 + ((-1) * (((√2 : ℝ) : ℂ)) * ((c.e : ℂ)) ^ 2 * ((c.mass .e : ℂ)) * (sb z1.2 z2.2)) * i4 + ((2) * (((√2 : ℝ) : ℂ)) * ((c.e : ℂ)) ^ 2 * ((c.mass .e : ℂ)) * (mb z1.2 (p 0) ρ1)) * i5 + ((-2) * (((√2 : ℝ) : ℂ)) * ((c.e : ℂ)) ^ 2 * ((c.mass .e : ℂ)) * (mb z1.2 (p 2) z0.1)) * i6 + ((-1) * (((√2 : ℝ) : ℂ)) * ((c.e : ℂ)) ^ 2 * ((c.mass .e : ℂ)) * (mb z1.2 (p 0) z2.1) + (-1) * (((√2 : ℝ) : ℂ)) * ((c.e : ℂ)) ^ 2 * ((c.mass .e : ℂ)) ^ 2 * (sb z1.2 z2.2)) * i7 + ((1) * (((√2 : ℝ) : ℂ)) * ((c.e : ℂ)) ^ 2 * ((c.mass .e : ℂ)) * (N.c 0)) * i8 + ((-1) * (((√2 : ℝ) : ℂ)) * ((c.e : ℂ)) ^ 2 * ((c.mass .e : ℂ)) * (ab z1.1 ρ1)) * i9 + ((-1) * (((√2 : ℝ) : ℂ)) * ((c.e : ℂ)) ^ 2 * ((c.mass .e : ℂ)) * (N.c 1)) * i10 + ((1) * (((√2 : ℝ) : ℂ)) * ((c.e : ℂ)) ^ 2 * ((c.mass .e : ℂ)) * (N.c 1)) * i11)) * ((1) * ((c.MW : ℂ)⁻¹) * ((c.SW : ℂ)⁻¹) * ((N.c 0)⁻¹) * ((N.c 1)⁻¹) / (2)) + ((-1) * (((√2 : ℝ) : ℂ)) * ((c.e : ℂ)) ^ 2 * ((c.MW : ℂ)⁻¹) * ((c.SW : ℂ)⁻¹) * ((c.mass .e : ℂ)) * ((N.c 1)⁻¹) * (ab z1.1 ρ1) * (sb z0.2 z1.2) * (sb z1.2 z2.2) / (2) + (1) * (((√2 : ℝ) : ℂ)) * ((c.e : ℂ)) ^ 2 * ((c.MW : ℂ)⁻¹) * ((c.SW : ℂ)⁻¹) * ((c.mass .e : ℂ)) * ((N.c 1)⁻¹) * (ab z2.1 ρ1) * (mb z1.2 (p 2) z0.1) / (2) + (1) * (((√2 : ℝ) : ℂ)) * ((c.e : ℂ)) ^ 2 * ((c.MW : ℂ)⁻¹) * ((c.SW : ℂ)⁻¹) * ((c.mass .e : ℂ)) * ((N.c 1)⁻¹) * (mb z0.2 (p 2) ρ1) * (sb z1.2 z2.2) / (2) + (1) * (((√2 : ℝ) : ℂ)) * ((c.e : ℂ)) ^ 2 * ((c.MW : ℂ)⁻¹) * ((c.SW : ℂ)⁻¹) * ((c.mass .e : ℂ)) ^ 2 * ((N.c 1)⁻¹) * (ab z0.1 ρ1) * (sb z1.2 z2.2) / (2) + (1) * (((√2 : ℝ) : ℂ)) * ((c.e : ℂ)) ^ 2 * ((c.MW : ℂ)⁻¹) * ((c.SW : ℂ)⁻¹) * ((c.mass .e : ℂ)) ^ 2 * ((N.c 1)⁻¹) * (ab z2.1 ρ1) * (sb z0.2 z1.2) / (2)) * y0 + ((-1) * (((√2 : ℝ) : ℂ)) * ((c.e : ℂ)) ^ 2 * ((c.MW : ℂ)⁻¹) * ((c.SW : ℂ)⁻¹) * ((c.mass .e : ℂ)) * ((N.c 0)⁻¹) * (ab z0.1 ρ1) * (mb z1.2 (p 0) z2.1) / (2) + (-1) * (((√2 : ℝ) : ℂ)) * ((c.e : ℂ)) ^ 2 * ((c.MW : ℂ)⁻¹) * ((c.SW : ℂ)⁻¹) * ((c.mass .e : ℂ)) * ((N.c 0)⁻¹) * (ab z1.1 ρ1) * (sb z0.2 z1.2) * (sb z1.2 z2.2) / (2) + (1) * (((√2 : ℝ) : ℂ)) * ((c.e : ℂ)) ^ 2 * ((c.MW : ℂ)⁻¹) * ((c.SW : ℂ)⁻¹) * ((c.mass .e : ℂ)) * ((N.c 0)⁻¹) * (mb z2.2 (p 0) ρ1) * (sb z0.2 z1.2) / (2) + (1) * (((√2 : ℝ) : ℂ)) * ((c.e : ℂ)) ^ 2 * ((c.MW : ℂ)⁻¹) * ((c.SW : ℂ)⁻¹) * ((c.mass .e : ℂ)) ^ 2 * ((N.c 0)⁻¹) * (ab z0.1 ρ1) * (sb z1.2 z2.2) / (2) + (1) * (((√2 : ℝ) : ℂ)) * ((c.e : ℂ)) ^ 2 * ((c.MW : ℂ)⁻¹) * ((c.SW : ℂ)⁻¹) * ((c.mass .e : ℂ)) ^ 2 * ((N.c 0)⁻¹) * (ab z2.1 ρ1) * (sb z0.2 z1.2) / (2)) * y1
theorem eAeh.keyM {c : Constants} {p : Nat → V4 ℝ} {N : Env} (hc : c.Physical) (hb : Balanced p) (r0 : N.r 0 = c.e) (r1 : N.r 1 = (c.mass .e)) (r2 : N.r 2 = c.MH) (r3 : N.r 3 = (2 * c.MW * c.SW / c.e)) (r4 : N.r 4 = √(((2 : Nat) : ℝ))) (d0 : ((msq (plus (p 0) (p 1)) - c.mass .e ^ 2 : ℝ) : ℂ) = N.c 0) (n0 : N.c 0 ≠ 0) (d1 : ((msq (plus (p 0) (backward (p 3))) - c.mass .e ^ 2 : ℝ) : ℂ) = N.c 1) (n1 : N.c 1 ≠ 0) {z0 z1 z2 : Pair} (b0 : Bold (p 0) (c.mass .e) z0) (b2 : Bold (p 2) (c.mass .e) z2) (l1 : Light (p 1) z1) (e10 : mb z1.2 (p 0) z1.1 = N.c 0) (e12 : mb z1.2 (p 2) z1.1 = -N.c 1) (q0 : msq (p 0) = (c.mass .e) ^ 2) (q2 : msq (p 2) = (c.mass .e) ^ 2) (q3 : msq (p 3) = c.MH ^ 2) (ρ1 : V2) (E3 : Vec) :
    eAeh.formM N p z0 z1 z2 * sb ρ1 z1.2 = ((√2 : ℝ) * (-1 : ℂ)) * eAeh.react.bare c p 2 0 1 3 z2 z0 (pv z1.1 ρ1) E3 := by
  rw [eAeh.react.bare_parts c p (i := 2) (j := 0) (a := 1) (b := 3) (x := .photon) (y := .higgs) (k := (p 1)) (k' := (backward (p 3))) (fun _ => rfl) (fun _ => rfl) (f := .e) (g := .e) rfl rfl (l := (p 0)) rfl (e := 1) (e' := 1) (if_neg Bool.false_ne_true) (if_neg Bool.false_ne_true)]
  rw [compton_vh (f := .e) (x := .e) (g := .e) (h := (rfl : Spec.after .photon Flavour.e = some Flavour.e)) (h' := (rfl : Spec.after .higgs Flavour.e = some Flavour.e)) (ha := by simp)]
  rw [compton_hv (f := .e) (x := .e) (g := .e) (h := (rfl : Spec.after .higgs Flavour.e = some Flavour.e)) (h' := (rfl : Spec.after .photon Flavour.e = some Flavour.e)) (hb := by simp)]
  rw [annihilation_none c _ _ (by rfl) (by simp), star_zero, add_zero, eAeh.formM]
  simp only [d0, d1, lineV_pv, lineV_four, contract_four_pv, contract_pv, mb_plus, mb_backward]
  have i0 := mb_schouten_left z0.2 z1.2 ρ1 (p 0) z1.1
  have i1 := mb_schouten_left z0.2 z1.2 z2.2 (p 0) z1.1
  have i2 := mb_schouten_right z1.2 (p 2) z0.1 z1.1 z2.1
  have i3 := mb_schouten_left z0.2 z2.2 ρ1 (p 0) z1.1
  have i4 := mb_det z1.2 ρ1 (p 3) z0.1 z1.1
  rw [q3] at i4
  have i5 := mb_schouten_left z0.2 z1.2 z2.2 (p 2) z1.1
  have i6 := mb_schouten_left z1.2 z2.2 ρ1 (p 0) z1.1
  have i7 := mb_schouten_left z0.2 z1.2 ρ1 (p 2) z1.1
  have i8 := mb_schouten_left z0.2 z2.2 ρ1 (p 2) z1.1
  have i9 := mb_schouten_right ρ1 (p 0) z0.1 z1.1 z2.1
  have i10 := chain_angle z0.2 z2.2 z1.1 (p 2) (p 3) z1.1
  have i11 := mb_schouten_right ρ1 (p 2) z0.1 z1.1 z2.1
  simp only [l1.mb_eq, b0.mb_left, b0.mb_right, b2.mb_left, b2.mb_right, e10, e12, mb_three hb z0.2 z0.1, mb_three hb z0.2 z1.1, mb_three hb z0.2 z2.1, mb_three hb z1.2 z0.1, mb_three hb z1.2 z1.1, mb_three hb z1.2 z2.1, mb_three hb z2.2 z0.1, mb_three hb z2.2 z1.1, mb_three hb z2.2 z2.1, mb_three hb ρ1 z0.1, mb_three hb ρ1 z1.1, mb_three hb ρ1 z2.1, ab_self, sb_self] at i0 i1 i2 i3 i4 i5 i6 i7 i8 i9 i10 i11 ⊢
  simp only [ab_swap z0.1 z1.1, ab_swap z0.1 z2.1, ab_swap z1.1 z2.1, sb_swap z0.2 z1.2, sb_swap z0.2 z2.2, sb_swap z0.2 ρ1, sb_swap z1.2 z2.2, sb_swap z1.2 ρ1, sb_swap z2.2 ρ1] at i0 i1 i2 i3 i4 i5 i6 i7 i8 i9 i10 i11 ⊢
  simp only [r0, r1, r2, r3, r4, Constants.hL, Constants.hR, Constants.gL, Constants.gR, Constants.yuk, Constants.invVev, Flavour.charge_e, Flavour.isospin_e, ← c.mz]
  have xMW : (c.MW : ℂ) ≠ 0 := by exact_mod_cast hc.MW
  have xSW : (c.SW : ℂ) ≠ 0 := by exact_mod_cast hc.SW
  have xCW : (c.CW : ℂ) ≠ 0 := by exact_mod_cast hc.CW
  have x2 : ((√2 : ℝ) : ℂ) ≠ 0 := by exact_mod_cast (Real.sqrt_pos.2 two_pos).ne'
  have x22 : ((√2 : ℝ) : ℂ) ^ 2 = 2 := by rw [← Complex.ofReal_pow, Real.sq_sqrt two_pos.le]; norm_num
  have x23 : ((√2 : ℝ) : ℂ) ^ 3 = 2 * ((√2 : ℝ) : ℂ) := by rw [← x22]; ring
  have x24 : ((√2 : ℝ) : ℂ) ^ 4 = 4 := by linear_combination (((√2 : ℝ) : ℂ) ^ 2 + 2) * x22
  push_cast at i0 i1 i2 i3 i4 i5 i6 i7 i8 i9 i10 i11 ⊢
  simp only [div_eq_mul_inv, mul_inv, inv_inv] at i0 i1 i2 i3 i4 i5 i6 i7 i8 i9 i10 i11 ⊢
  have y0 := mul_inv_cancel₀ n0
  have y1 := mul_inv_cancel₀ n1
  linear_combination ((((-1) * (((√2 : ℝ) : ℂ)) * ((c.e : ℂ)) ^ 2 * ((c.mass .e : ℂ)) * (mb z2.2 (p 0) z1.1) + (-3) * (((√2 : ℝ) : ℂ)) * ((c.e : ℂ)) ^ 2 * ((c.mass .e : ℂ)) ^ 2 * (ab z1.1 z2.1)) * i0 + ((1) * (((√2 : ℝ) : ℂ)) * ((c.e : ℂ)) ^ 2 * ((c.mass .e : ℂ)) * (mb ρ1 (p 0) z1.1) + (-1) * (((√2 : ℝ) : ℂ)) * ((c.e : ℂ)) ^ 2 * ((c.mass .e : ℂ)) * (mb ρ1 (p 2) z1.1)) * i1 + ((1) * (((√2 : ℝ) : ℂ)) * ((c.e : ℂ)) ^ 2 * ((c.mass .e : ℂ)) * (mb ρ1 (p 0) z1.1) + (-1) * (((√2 : ℝ) : ℂ)) * ((c.e : ℂ)) ^ 2 * ((c.mass .e : ℂ)) * (mb ρ1 (p 2) z1.1)) * i2 + ((1) * (((√2 : ℝ) : ℂ)) * ((c.e : ℂ)) ^ 2 * ((c.mass .e : ℂ)) * (N.c 0) + (2) * (((√2 : ℝ) : ℂ)) * ((c.e : ℂ)) ^ 2 * ((c.mass .e : ℂ)) * (N.c 1)) * i3 + ((1) * (((√2 : ℝ) : ℂ)) * ((c.e : ℂ)) ^ 2 * ((c.mass .e : ℂ)) * (ab z1.1 z2.1)) * i4 + ((-2) * (((√2 : ℝ) : ℂ)) * ((c.e : ℂ)) ^ 2 * ((c.mass .e : ℂ)) * (mb ρ1 (p 0) z1.1)) * i5 + ((2) * (((√2 : ℝ) : ℂ)) * ((c.e : ℂ)) ^ 2 * ((c.mass .e : ℂ)) * (mb z0.2 (p 2) z1.1)) * i6 + ((1) * (((√2 : ℝ) : ℂ)) * ((c.e : ℂ)) ^ 2 * ((c.mass .e : ℂ)) * (mb z2.2 (p 0) z1.1) + (1) * (((√2 : ℝ) : ℂ)) * ((c.e : ℂ)) ^ 2 * ((c.mass .e : ℂ)) ^ 2 * (ab z1.1 z2.1)) * i7 + ((-1) * (((√2 : ℝ) : ℂ)) * ((c.e : ℂ)) ^ 2 * ((c.mass .e : ℂ)) * (N.c 0)) * i8 + ((1) * (((√2 : ℝ) : ℂ)) * ((c.e : ℂ)) ^ 2 * ((c.mass .e : ℂ)) * (N.c 1)) * i9 + ((1) * (((√2 : ℝ) : ℂ)) * ((c.e : ℂ)) ^ 2 * ((c.mass .e : ℂ)) * (sb z1.2 ρ1)) * i10 + ((-1) * (((√2 : ℝ) : ℂ)) * ((c.e : ℂ)) ^ 2 * ((c.mass .e : ℂ)) * (N.c 1)) * i11)) * ((1) * ((c.MW : ℂ)⁻¹) * ((c.SW : ℂ)⁻¹) * ((N.c 0)⁻¹) * ((N.c 1)⁻¹) / (2)) + ((1) * (((√2 : ℝ) : ℂ)) * ((c.e : ℂ)) ^ 2 * ((c.MW : ℂ)⁻¹) * ((c.SW : ℂ)⁻¹) * ((c.mass .e : ℂ)) * ((N.c 1)⁻¹) * (ab z0.1 z1.1) * (ab z1.1 z2.1) * (sb z1.2 ρ1) / (2) + (-1) * (((√2 : ℝ) : ℂ)) * ((c.e : ℂ)) ^ 2 * ((c.MW : ℂ)⁻¹) * ((c.SW : ℂ)⁻¹) * ((c.mass .e : ℂ)) * ((N.c 1)⁻¹) * (ab z1.1 z2.1) * (mb ρ1 (p 2) z0.1) / (2) + (-1) * (((√2 : ℝ) : ℂ)) * ((c.e : ℂ)) ^ 2 * ((c.MW : ℂ)⁻¹) * ((c.SW : ℂ)⁻¹) * ((c.mass .e : ℂ)) * ((N.c 1)⁻¹) * (mb z0.2 (p 2) z1.1) * (sb z2.2 ρ1) / (2) + (-1) * (((√2 : ℝ) : ℂ)) * ((c.e : ℂ)) ^ 2 * ((c.MW : ℂ)⁻¹) * ((c.SW : ℂ)⁻¹) * ((c.mass .e : ℂ)) ^ 2 * ((N.c 1)⁻¹) * (ab z0.1 z1.1) * (sb z2.2 ρ1) / (2) + (-1) * (((√2 : ℝ) : ℂ)) * ((c.e : ℂ)) ^ 2 * ((c.MW : ℂ)⁻¹) * ((c.SW : ℂ)⁻¹) * ((c.mass .e : ℂ)) ^ 2 * ((N.c 1)⁻¹) * (ab z1.1 z2.1) * (sb z0.2 ρ1) / (2)) * y0 + ((1) * (((√2 : ℝ) : ℂ)) * ((c.e : ℂ)) ^ 2 * ((c.MW : ℂ)⁻¹) * ((c.SW : ℂ)⁻¹) * ((c.mass .e : ℂ)) * ((N.c 0)⁻¹) * (ab z0.1 z1.1) * (ab z1.1 z2.1) * (sb z1.2 ρ1) / (2) + (-1) * (((√2 : ℝ) : ℂ)) * ((c.e : ℂ)) ^ 2 * ((c.MW : ℂ)⁻¹) * ((c.SW : ℂ)⁻¹) * ((c.mass .e : ℂ)) * ((N.c 0)⁻¹) * (ab z0.1 z1.1) * (mb ρ1 (p 0) z2.1) / (2) + (1) * (((√2 : ℝ) : ℂ)) * ((c.e : ℂ)) ^ 2 * ((c.MW : ℂ)⁻¹) * ((c.SW : ℂ)⁻¹) * ((c.mass .e : ℂ)) * ((N.c 0)⁻¹) * (mb z2.2 (p 0) z1.1) * (sb z0.2 ρ1) / (2) + (-1) * (((√2 : ℝ) : ℂ)) * ((c.e : ℂ)) ^ 2 * ((c.MW : ℂ)⁻¹) * ((c.SW : ℂ)⁻¹) * ((c.mass .e : ℂ)) ^ 2 * ((N.c 0)⁻¹) * (ab z0.1 z1.1) * (sb z2.2 ρ1) / (2) + (-1) * (((√2 : ℝ) : ℂ)) * ((c.e : ℂ)) ^ 2 * ((c.MW : ℂ)⁻¹) * ((c.SW : ℂ)⁻¹) * ((c.mass .e : ℂ)) ^ 2 * ((N.c 0)⁻¹) * (ab z1.1 z2.1) * (sb z0.2 ρ1) / (2)) * y1
set_option maxRecDepth 8000 in
theorem eAeh.amp2_eq (N : Env) (f : Nat → List Int → ℂ) : Cls.eAeh.m_amp2.mean N f .r [] =
    ((sumJ (fun x a => (sumW (fun x b => (sumJ (fun x c => (x + (‖(f 0 [a, b, c])‖ ^ 2))) x)) x)) ((0 : Nat) : ℝ)) / ((4 : Nat) : ℝ)) := by rfl
set_option maxRecDepth 8000 in
theorem eAeh.value (N : Env) : meaning N .r Cls.eAeh.methods Cls.eAeh.amp2 [] =
    ((sumJ (fun x a => (sumW (fun x b => (sumJ (fun x c => (x + (‖(Cls.eAeh.m_amp.mean N (callMean N []) .c [a, b, c])‖ ^ 2))) x)) x)) ((0 : Nat) : ℝ)) / ((4 : Nat) : ℝ)) :=
  eAeh.amp2_eq N (callMean N [Cls.eAeh.m_amp])
set_option maxRecDepth 8000 in
theorem eAeh.ampP (N : Env) (f : Nat → List Int → ℂ) (j1 j3 : Int) : Cls.eAeh.m_amp.mean N f .c [j1, 2, j3] = eAeh.termP N j1 j3 := by rfl
set_option maxRecDepth 8000 in
theorem eAeh.ampM (N : Env) (f : Nat → List Int → ℂ) (j1 j3 : Int) : Cls.eAeh.m_amp.mean N f .c [j1, (-2), j3] = eAeh.termM N j1 j3 := by rfl

theorem eAeh.mass_eq {c : Constants} {v : ℝ} (hc : c.Physical) (i : Fin 4) : eAeh.proc.massNum (eAeh.rhoVev c v) i = eAeh.react.mass c i := by
  fin_cases i <;> first | rfl | exact Nat.cast_zero | exact Nat.cast_zero.trans (hc.neutrino _).symm | (show c.MW / √(((1 : Nat) : ℝ) - c.SW * c.SW) = c.MZ; rw [c.root, c.mz])

variable [FPEnv] in
theorem eAeh.amps {c : Constants} {v : ℝ} {p : Nat → V4 ℝ} {u : Fin 4 → Fin 3 → Spinor} {ε : Fin 4 → Fin 3 → Vec} (hc : c.Physical) (hh : c.Heavy) (hve : v * c.e = 2 * c.MW * c.SW) (h0 : ∀ i, 0 ≤ eAeh.react.mass c i) (hs : ∀ i : Fin 4, OnShell (p i) (eAeh.react.mass c i)) (hb : Balanced p) (hr : eAeh.react.Regular c p) (hu : ∀ i, eAeh.react.Complete c p i (u i) (ε i)) :
    (eAeh.N c v p).c 0 ≠ 0 ∧ (eAeh.N c v p).c 1 ≠ 0 ∧ (∀ n, (Ty.r, n) ∈ eAeh.proc.divides → (eAeh.N c v p).r n ≠ 0) ∧ (∀ n, (Ty.c, n) ∈ eAeh.proc.divides → (eAeh.N c v p).c n ≠ 0) ∧ ∀ (s0 : Fin 2) (s2 : Fin 2) (h1 : Fin 2), ‖Cls.eAeh.m_amp.mean (eAeh.N c v p) (callMean (eAeh.N c v p) []) .c [spinOf s0, spinW h1, spinOf s2]‖ = ‖eAeh.react.bare c p 2 0 1 3 (eAeh.react.codePair c p 2 s2) (eAeh.react.codePair c p 0 s0) (lightE (legA (p 1) 0 0, legS (p 1) 0 1) h1.castSucc) (eAeh.react.codeVec c p 3 0)‖ := by
  obtain ⟨e0, hv0, hV⟩ := vev_eq hc hve
  have he : eAeh.react.ends = [2] := by decide
  have ht : eAeh.react.starts = [0] := by decide
  have hB : eAeh.react.bosons = [1, 3] := by decide
  obtain ⟨f1, f2, f3⟩ := eAeh.react.regular_line he ht hB hr
  have r0 : (eAeh.N c v p).r 0 = c.e := rfl
  have r1 : (eAeh.N c v p).r 1 = (c.mass .e) := rfl
  have r2 : (eAeh.N c v p).r 2 = c.MH := rfl
  have r3 : (eAeh.N c v p).r 3 = (2 * c.MW * c.SW / c.e) := hV
  have r4 : (eAeh.N c v p).r 4 = √(((2 : Nat) : ℝ)) := rfl
  have c0 : (eAeh.N c v p).c 0 = poleDist (c.mass .e) ((0 : Nat) : ℝ) ((VExp.add 0 1).sum p) := rfl
  rw [Nat.cast_zero, pole_fermion rfl] at c0
  have d0 : ((msq (plus (p 0) (p 1)) - c.mass .e ^ 2 : ℝ) : ℂ) = (eAeh.N c v p).c 0 := by rw [c0, msq_s hb (plus (p 0) (p 1)) (by simp)]
  have n0 : (eAeh.N c v p).c 0 ≠ 0 := by rw [← d0]; exact_mod_cast f1 .e rfl rfl
  have c1 : (eAeh.N c v p).c 1 = poleDist (c.mass .e) ((0 : Nat) : ℝ) ((VExp.sub 0 3).sum p) := rfl
  rw [Nat.cast_zero, pole_fermion rfl] at c1
  have d1 : ((msq (plus (p 0) (backward (p 3))) - c.mass .e ^ 2 : ℝ) : ℂ) = (eAeh.N c v p).c 1 := by rw [c1, msq_u hb (plus (p 0) (backward (p 3))) (by simp)]
  have n1 : (eAeh.N c v p).c 1 ≠ 0 := by rw [← d1]; exact_mod_cast f2 .e rfl rfl
  obtain ⟨l1, x1, y1⟩ := eAeh.react.code_light hs hu (n := 1) rfl rfl
  have e10 := l1.pole_add (m := (c.mass .e)) (onShell_msq (hs 0)) (msq_s hb (plus (p 1) (p 0)) (by simp)) c0
  have e12 := l1.pole_sub (m := (c.mass .e)) (onShell_msq (hs 2)) (msq_u hb (plus (p 1) (backward (p 2))) (by simp)) c1
  have m0 : eAeh.react.mass c 0 ≠ 0 := (leg_pos hc hh (by decide)).ne'
  have m2 : eAeh.react.mass c 2 ≠ 0 := (leg_pos hc hh (by decide)).ne'
  have m1 : eAeh.react.mass c 1 = 0 := rfl
  have hd : eAeh.proc.divides = [(Ty.r, 3), (Ty.c, 0), (Ty.c, 1)] := by decide +kernel
  have stP : ∀ {z0 z2 : Pair} (b0 : Bold (p 0) (eAeh.react.mass c 0) z0) (b2 : Bold (p 2) (eAeh.react.mass c 2) z2), eAeh.formP (eAeh.N c v p) p z0 (legA (p 1) 0 0, legS (p 1) 0 1) z2 = (-1) * eAeh.react.bare c p 2 0 1 3 z2 z0 (lightE (legA (p 1) 0 0, legS (p 1) 0 1) 1) (eAeh.react.codeVec c p 3 0) := by
    intro z0 z2 b0 b2
    exact (light_plus (z := (legA (p 1) 0 0, legS (p 1) 0 1)) (G := fun E => eAeh.react.bare c p 2 0 1 3 z2 z0 E (eAeh.react.codeVec c p 3 0)) (eAeh.react.bare_lin₁ c p _ _ _ (by decide)) x1 (eAeh.keyP hc hb r0 r1 r2 r3 r4 d0 n0 d1 n1 b0 b2 l1 e10 e12 (onShell_msq (hs 0)) (onShell_msq (hs 2)) (onShell_msq (hs 3)) _ (eAeh.react.codeVec c p 3 0)))
  have stM : ∀ {z0 z2 : Pair} (b0 : Bold (p 0) (eAeh.react.mass c 0) z0) (b2 : Bold (p 2) (eAeh.react.mass c 2) z2), eAeh.formM (eAeh.N c v p) p z0 (legA (p 1) 0 0, legS (p 1) 0 1) z2 = (-1) * eAeh.react.bare c p 2 0 1 3 z2 z0 (lightE (legA (p 1) 0 0, legS (p 1) 0 1) 0) (eAeh.react.codeVec c p 3 0) := by
    intro z0 z2 b0 b2
    exact (light_minus (z := (legA (p 1) 0 0, legS (p 1) 0 1)) (G := fun E => eAeh.react.bare c p 2 0 1 3 z2 z0 E (eAeh.react.codeVec c p 3 0)) (eAeh.react.bare_lin₁ c p _ _ _ (by decide)) y1 (eAeh.keyM hc hb r0 r1 r2 r3 r4 d0 n0 d1 n1 b0 b2 l1 e10 e12 (onShell_msq (hs 0)) (onShell_msq (hs 2)) (onShell_msq (hs 3)) _ (eAeh.react.codeVec c p 3 0)))
  have amP : ∀ (s0 : Fin 2) (s2 : Fin 2), Cls.eAeh.m_amp.mean (eAeh.N c v p) (callMean (eAeh.N c v p) []) .c [spinOf s0, 2, spinOf s2] = (-1) * eAeh.react.bare c p 2 0 1 3 (eAeh.react.codePair c p 2 s2) (eAeh.react.codePair c p 0 s0) (lightE (legA (p 1) 0 0, legS (p 1) 0 1) 1) (eAeh.react.codeVec c p 3 0) := by
    intro s0 s2
    rw [eAeh.ampP, ← stP (eAeh.react.codePair_bold hs h0 0 s0) (eAeh.react.codePair_bold hs h0 2 s2)]
    have v0z0z1 : (eAeh.N c v p).v 0 [spinOf s0] = sb (eAeh.react.codePair c p 0 s0).2 (legA (p 1) 0 0, legS (p 1) 0 1).2 := bra_square (p := p) (m := eAeh.proc.massNum (eAeh.rhoVev c v)) (eAeh.mass_eq hc 0) (eAeh.mass_eq hc 1) (.inl ⟨m0, rfl⟩) (.inr ⟨m1, rfl⟩)
    have v2z1z2 : (eAeh.N c v p).v 2 [spinOf s2] = sb (legA (p 1) 0 0, legS (p 1) 0 1).2 (eAeh.react.codePair c p 2 s2).2 := bra_square (p := p) (m := eAeh.proc.massNum (eAeh.rhoVev c v)) (eAeh.mass_eq hc 1) (eAeh.mass_eq hc 2) (.inr ⟨m1, rfl⟩) (.inl ⟨m2, rfl⟩)
    have v6z1z2 : (eAeh.N c v p).v 6 [spinOf s2] = mb (legA (p 1) 0 0, legS (p 1) 0 1).2 (p 3) (eAeh.react.codePair c p 2 s2).1 := bra_mid_square (p := p) (m := eAeh.proc.massNum (eAeh.rhoVev c v)) (eAeh.mass_eq hc 1) (eAeh.mass_eq hc 2) (.inr ⟨m1, rfl⟩) (.inl ⟨m2, rfl⟩)
    have v8z1z0 : (eAeh.N c v p).v 8 [spinOf s0] = mb (legA (p 1) 0 0, legS (p 1) 0 1).2 (p 3) (eAeh.react.codePair c p 0 s0).1 := bra_mid_square (p := p) (m := eAeh.proc.massNum (eAeh.rhoVev c v)) (eAeh.mass_eq hc 1) (eAeh.mass_eq hc 0) (.inr ⟨m1, rfl⟩) (.inl ⟨m0, rfl⟩)
    have v5z0z2 : (eAeh.N c v p).v 5 [spinOf s0, spinOf s2] = ab (eAeh.react.codePair c p 0 s0).1 (eAeh.react.codePair c p 2 s2).1 := bra_angle (p := p) (m := eAeh.proc.massNum (eAeh.rhoVev c v)) (eAeh.mass_eq hc 0) (eAeh.mass_eq hc 2) (.inl ⟨m0, rfl⟩) (.inl ⟨m2, rfl⟩)
    have v10z1z1 : (eAeh.N c v p).v 10 [] = mb (legA (p 1) 0 0, legS (p 1) 0 1).2 (p 2) (slashLower (p 3) *ᵥ (legA (p 1) 0 0, legS (p 1) 0 1).2) := bra_two_square (p := p) (m := eAeh.proc.massNum (eAeh.rhoVev c v)) (eAeh.mass_eq hc 1) (eAeh.mass_eq hc 1) (.inr ⟨m1, rfl⟩) (.inr ⟨m1, rfl⟩)
    simp only [eAeh.termP, eAeh.formP, v0z0z1, v2z1z2, v6z1z2, v8z1z0, v5z0z2, v10z1z1]
  have amM : ∀ (s0 : Fin 2) (s2 : Fin 2), Cls.eAeh.m_amp.mean (eAeh.N c v p) (callMean (eAeh.N c v p) []) .c [spinOf s0, (-2), spinOf s2] = (-1) * eAeh.react.bare c p 2 0 1 3 (eAeh.react.codePair c p 2 s2) (eAeh.react.codePair c p 0 s0) (lightE (legA (p 1) 0 0, legS (p 1) 0 1) 0) (eAeh.react.codeVec c p 3 0) := by
    intro s0 s2
    rw [eAeh.ampM, ← stM (eAeh.react.codePair_bold hs h0 0 s0) (eAeh.react.codePair_bold hs h0 2 s2)]
    have v1z0z1 : (eAeh.N c v p).v 1 [spinOf s0] = ab (eAeh.react.codePair c p 0 s0).1 (legA (p 1) 0 0, legS (p 1) 0 1).1 := bra_angle (p := p) (m := eAeh.proc.massNum (eAeh.rhoVev c v)) (eAeh.mass_eq hc 0) (eAeh.mass_eq hc 1) (.inl ⟨m0, rfl⟩) (.inr ⟨m1, rfl⟩)
    have v3z1z2 : (eAeh.N c v p).v 3 [spinOf s2] = ab (legA (p 1) 0 0, legS (p 1) 0 1).1 (eAeh.react.codePair c p 2 s2).1 := bra_angle (p := p) (m := eAeh.proc.massNum (eAeh.rhoVev c v)) (eAeh.mass_eq hc 1) (eAeh.mass_eq hc 2) (.inr ⟨m1, rfl⟩) (.inl ⟨m2, rfl⟩)
    have v7z1z2 : (eAeh.N c v p).v 7 [spinOf s2] = mb (eAeh.react.codePair c p 2 s2).2 (p 3) (legA (p 1) 0 0, legS (p 1) 0 1).1 := bra_mid_angle (p := p) (m := eAeh.proc.massNum (eAeh.rhoVev c v)) (eAeh.mass_eq hc 1) (eAeh.mass_eq hc 2) (.inr ⟨m1, rfl⟩) (.inl ⟨m2, rfl⟩)
    have v9z1z0 : (eAeh.N c v p).v 9 [spinOf s0] = mb (eAeh.react.codePair c p 0 s0).2 (p 3) (legA (p 1) 0 0, legS (p 1) 0 1).1 := bra_mid_angle (p := p) (m := eAeh.proc.massNum (eAeh.rhoVev c v)) (eAeh.mass_eq hc 1) (eAeh.mass_eq hc 0) (.inr ⟨m1, rfl⟩) (.inl ⟨m0, rfl⟩)
    have v4z0z2 : (eAeh.N c v p).v 4 [spinOf s0, spinOf s2] = sb (eAeh.react.codePair c p 0 s0).2 (eAeh.react.codePair c p 2 s2).2 := bra_square (p := p) (m := eAeh.proc.massNum (eAeh.rhoVev c v)) (eAeh.mass_eq hc 0) (eAeh.mass_eq hc 2) (.inl ⟨m0, rfl⟩) (.inl ⟨m2, rfl⟩)
    have v11z1z1 : (eAeh.N c v p).v 11 [] = mb (slashUpper (p 3) *ᵥ (legA (p 1) 0 0, legS (p 1) 0 1).1) (p 2) (legA (p 1) 0 0, legS (p 1) 0 1).1 := bra_two_angle (p := p) (m := eAeh.proc.massNum (eAeh.rhoVev c v)) (eAeh.mass_eq hc 1) (eAeh.mass_eq hc 1) (.inr ⟨m1, rfl⟩) (.inr ⟨m1, rfl⟩)
    simp only [eAeh.termM, eAeh.formM, v1z0z1, v3z1z2, v7z1z2, v9z1z0, v4z0z2, v11z1z1]
  refine ⟨n0, n1, fun n hn => ?_, fun n hn => ?_, ?_⟩
  · simp [hd] at hn
    subst hn
    · exact hv0
  · simp [hd] at hn
    rcases hn with rfl | rfl
    · exact n0
    · exact n1
  intro s0 s2 h1
  match h1 with
  | 1 => exact norm_minus (amP s0 s2)
  | 0 => exact norm_minus (amM s0 s2)

variable [FPEnv] in
theorem eAeh.agrees : eAeh.AgreesVev := by
  refine agreesVev_of (D := []) (E := []) (by simp [all, eAeh]) (by decide +kernel) (by decide) (by decide +kernel) (fun c v hc hh _ => ⟨List.forall_mem_nil _, List.forall_mem_nil _⟩) (fun c v hc i => eAeh.mass_eq hc i) (by decide +kernel) ?_
  intro c v p u ε hc hh hve h0 hs hb hr hu
  have he : eAeh.react.ends = [2] := by decide
  have ht : eAeh.react.starts = [0] := by decide
  have hB : eAeh.react.bosons = [1, 3] := by decide
  obtain ⟨n0, n1, d1, d2, am⟩ := eAeh.amps hc hh hve h0 hs hb hr hu
  refine ⟨d1, d2, ?_⟩
  show meaning (eAeh.N c v p) .r Cls.eAeh.methods Cls.eAeh.amp2 [] = _
  have s0 : eAeh.react.states 0 = 2 := by decide +kernel
  have s1 : eAeh.react.states 1 = 2 := by decide +kernel
  have sy : eAeh.react.symmetry = 1 := by decide
  have p0 : eAeh.react.spins 0 = {0, 1} := rfl
  have p1 : eAeh.react.spins 1 = {0, 1} := rfl
  have p2 : eAeh.react.spins 2 = {0, 1} := rfl
  have p3 : eAeh.react.spins 3 = {0} := rfl
  have E1 : eAeh.react.codeE c p 1 = lightE (legA (p 1) 0 0, legS (p 1) 0 1) := rfl
  have E3 : eAeh.react.codeE c p 3 = eAeh.react.codeVec c p 3 := rfl
  have hG : eAeh.react.Gauge c p := (eAeh.react.gauge_line he ht hB hh (by decide) (fun n => onShell_msq (hs n)) hb hr (fun n m h h2 => absurd (And.intro h h2) (by revert n m; decide)) (fun _ => ⟨rfl, rfl⟩) (fun h => absurd h (by decide)))
  have lc : eAeh.react.lineColours 2 0 = 1 := by decide +kernel
  rw [eAeh.value, eAeh.react.squared_line he ht hB (by decide) hs h0 (fun _ b _ hb _ => (boson_pos hc hh hb).ne') hG (E := eAeh.react.codeE c p) (fun n b hl => eAeh.react.codeE_polarised hs h0 hu (fun b hb => (boson_pos hc hh hb).ne') n b hl) hu, sum_colours, lc, s0, s1, sy]
  simp only [sumV_sum, sumJ_sum, sumW_sum, am, p0, p1, p2, p3, E1, E3, Finset.sum_singleton, sum_two, Matrix.cons_val_zero, Matrix.cons_val_one, Matrix.cons_val, two_castSucc]
  try simp only [← Finset.mul_sum]
  push_cast
  first | ring1 | ring_nf

end Spinas.SM.Rows
