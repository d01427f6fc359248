import Verif.SM.LightRows
import Verif.SM.GluonLine

/-! Quarks, a photon and a Higgs boson. Generated by tools/bosons/lemit.py: for each class its amplitude at given helicities as a formula in spinors, and the proof that `amp2` is the squared amplitude of the Feynman rules. -/

set_option linter.unusedSimpArgs false
set_option linter.unusedVariables false
set_option linter.unreachableTactic false
set_option linter.unusedTactic false

namespace Spinas.SM.Rows
open Spec Spec.Reaction Props XR Matrix BRow

/-! ### uuAh -/

/-- what the methods of the class see -/
noncomputable abbrev uuAh.N [FPEnv] (c : Constants) (p : Nat → V4 ℝ) : Env := uuAh.proc.env (uuAh.rho c) p
/-- `amp` for a photon of positive helicity (SM/uuAh.cpp) -/
noncomputable def uuAh.termP (N : Env) (j1 j2 : Int) : ℂ :=
  (((((N.r 6 : ℝ) : ℂ) * (((((((((-N.r 3) * N.r 3) : ℝ) : ℂ) * N.v 0 [j1]) * N.v 2 [j2]) + ((((N.r 2 : ℝ) : ℂ) * N.v 0 [j1]) * N.v 6 [j2])) + ((((N.r 2 : ℝ) : ℂ) * N.v 2 [j2]) * N.v 8 [j1])) + (N.v 5 [j1, j2] * N.v 10 []))) / N.c 0) / N.c 1)
/-- the same with spinors in place of their spins -/
noncomputable def uuAh.formP (N : Env) (p : Nat → V4 ℝ) (z0 z1 z2 : Pair) : ℂ :=
  (((((N.r 6 : ℝ) : ℂ) * (((((((((-N.r 3) * N.r 3) : ℝ) : ℂ) * (sb z0.2 z2.2)) * (sb z1.2 z2.2)) + ((((N.r 2 : ℝ) : ℂ) * (sb z0.2 z2.2)) * (mb z2.2 (p 3) z1.1))) + ((((N.r 2 : ℝ) : ℂ) * (sb z1.2 z2.2)) * (mb z2.2 (p 3) z0.1))) + ((ab z0.1 z1.1) * (mb z2.2 (p 1) (slashLower (p 3) *ᵥ z2.2))))) / N.c 0) / N.c 1)
/-- `amp` for a photon of negative helicity (SM/uuAh.cpp) -/
noncomputable def uuAh.termM (N : Env) (j1 j2 : Int) : ℂ :=
  (((((N.r 6 : ℝ) : ℂ) * (((((((((-N.r 3) * N.r 3) : ℝ) : ℂ) * N.v 1 [j1]) * N.v 3 [j2]) + ((((N.r 2 : ℝ) : ℂ) * N.v 1 [j1]) * N.v 7 [j2])) + ((((N.r 2 : ℝ) : ℂ) * N.v 3 [j2]) * N.v 9 [j1])) + (N.v 4 [j1, j2] * N.v 11 []))) / N.c 0) / N.c 1)
/-- the same with spinors in place of their spins -/
noncomputable def uuAh.formM (N : Env) (p : Nat → V4 ℝ) (z0 z1 z2 : Pair) : ℂ :=
  (((((N.r 6 : ℝ) : ℂ) * (((((((((-N.r 3) * N.r 3) : ℝ) : ℂ) * (ab z0.1 z2.1)) * (ab z1.1 z2.1)) + ((((N.r 2 : ℝ) : ℂ) * (ab z0.1 z2.1)) * (mb z1.2 (p 3) z2.1))) + ((((N.r 2 : ℝ) : ℂ) * (ab z1.1 z2.1)) * (mb z0.2 (p 3) z2.1))) + ((sb z0.2 z1.2) * (mb (slashUpper (p 3) *ᵥ z2.1) (p 1) z2.1)))) / N.c 0) / N.c 1)
theorem uuAh.keyP {c : Constants} {p : Nat → V4 ℝ} {N : Env} (hc : c.Physical) (hb : Balanced p) (r2 : N.r 2 = (c.mass .u)) (r3 : N.r 3 = c.MH) (r6 : N.r 6 = ((((c.e * c.e) * (((2 : Nat) : ℝ) / ((3 : Nat) : ℝ))) * (c.mass .u)) / ((√(((2 : Nat) : ℝ)) * c.MW) * c.SW))) (d0 : ((msq (plus (p 0) (backward (p 2))) - c.mass .u ^ 2 : ℝ) : ℂ) = N.c 0) (n0 : N.c 0 ≠ 0) (d1 : ((msq (plus (p 0) (backward (p 3))) - c.mass .u ^ 2 : ℝ) : ℂ) = N.c 1) (n1 : N.c 1 ≠ 0) {z0 z1 z2 : Pair} (b0 : Bold (p 0) (c.mass .u) z0) (b1 : Bold (p 1) (c.mass .u) z1) (l2 : Light (p 2) z2) (e20 : mb z2.2 (p 0) z2.1 = -N.c 0) (e21 : mb z2.2 (p 1) z2.1 = -N.c 1) (q0 : msq (p 0) = (c.mass .u) ^ 2) (q1 : msq (p 1) = (c.mass .u) ^ 2) (q3 : msq (p 3) = c.MH ^ 2) (ρ2 : V2) (E3 : Vec) :
    uuAh.formP N p z0 z1 z2 * ab ρ2 z2.1 = ((√2 : ℝ) * (1 : ℂ)) * uuAh.react.bare c p 1 0 2 3 z1 z0 (pv ρ2 z2.2) E3 := by
  rw [uuAh.react.bare_parts c p (i := 1) (j := 0) (a := 2) (b := 3) (x := .photon) (y := .higgs) (k := (backward (p 2))) (k' := (backward (p 3))) (fun _ => rfl) (fun _ => rfl) (f := .u) (g := .u) rfl rfl (l := (p 0)) rfl (e := -1) (e' := 1) (if_pos rfl) (if_neg Bool.false_ne_true)]
  rw [compton_vh (f := .u) (x := .u) (g := .u) (h := (rfl : Spec.after .photon Flavour.u = some Flavour.u)) (h' := (rfl : Spec.after .higgs Flavour.u = some Flavour.u)) (ha := by simp)]
  rw [compton_hv (f := .u) (x := .u) (g := .u) (h := (rfl : Spec.after .higgs Flavour.u = some Flavour.u)) (h' := (rfl : Spec.after .photon Flavour.u = some Flavour.u)) (hb := by simp)]
  rw [annihilation_none c _ _ (by rfl) (by simp), star_zero, add_zero, uuAh.formP]
  simp only [d0, d1, lineV_pv, lineV_four, contract_four_pv, contract_pv, mb_plus, mb_backward]
  have i0 := chain_square z0.1 z1.1 z2.2 (p 1) (p 3) z2.2
  have i1 := mb_schouten_right z2.2 (p 1) z0.1 z1.1 z2.1
  have i2 := mb_schouten_right z2.2 (p 0) z0.1 z1.1 ρ2
  have i3 := mb_schouten_right z2.2 (p 0) z1.1 z2.1 ρ2
  have i4 := mb_schouten_right z2.2 (p 0) z0.1 z2.1 ρ2
  have i5 := mb_schouten_right z2.2 (p 1) z0.1 z2.1 ρ2
  have i6 := mb_det z0.2 z2.2 (p 3) z2.1 ρ2
  rw [q3] at i6
  have i7 := mb_schouten_left z0.2 z1.2 z2.2 (p 0) ρ2
  have i8 := mb_schouten_left z0.2 z1.2 z2.2 (p 1) z2.1
  have i9 := mb_schouten_right z2.2 (p 0) z0.1 z1.1 z2.1
  have i10 := mb_schouten_left z0.2 z1.2 z2.2 (p 1) ρ2
  have i11 := mb_schouten_right z2.2 (p 1) z0.1 z1.1 ρ2
  simp only [l2.mb_eq, b0.mb_left, b0.mb_right, b1.mb_left, b1.mb_right, e20, e21, mb_three hb z0.2 z0.1, mb_three hb z0.2 z1.1, mb_three hb z0.2 z2.1, mb_three hb z0.2 ρ2, mb_three hb z1.2 z0.1, mb_three hb z1.2 z1.1, mb_three hb z1.2 z2.1, mb_three hb z1.2 ρ2, mb_three hb z2.2 z0.1, mb_three hb z2.2 z1.1, mb_three hb z2.2 z2.1, mb_three hb z2.2 ρ2, ab_self, sb_self] at i0 i1 i2 i3 i4 i5 i6 i7 i8 i9 i10 i11 ⊢
  simp only [ab_swap z0.1 z1.1, ab_swap z0.1 z2.1, ab_swap z0.1 ρ2, ab_swap z1.1 z2.1, ab_swap z1.1 ρ2, ab_swap z2.1 ρ2, sb_swap z0.2 z1.2, sb_swap z0.2 z2.2, sb_swap z1.2 z2.2] at i0 i1 i2 i3 i4 i5 i6 i7 i8 i9 i10 i11 ⊢
  simp only [r2, r3, r6, Constants.hL, Constants.hR, Constants.gL, Constants.gR, Constants.yuk, Constants.invVev, Flavour.charge_u, Flavour.isospin_u, ← c.mz]
  have xMW : (c.MW : ℂ) ≠ 0 := by exact_mod_cast hc.MW
  have xSW : (c.SW : ℂ) ≠ 0 := by exact_mod_cast hc.SW
  have xCW : (c.CW : ℂ) ≠ 0 := by exact_mod_cast hc.CW
  have x2 : ((√2 : ℝ) : ℂ) ≠ 0 := by exact_mod_cast (Real.sqrt_pos.2 two_pos).ne'
  have x22 : ((√2 : ℝ) : ℂ) ^ 2 = 2 := by rw [← Complex.ofReal_pow, Real.sq_sqrt two_pos.le]; norm_num
  have x23 : ((√2 : ℝ) : ℂ) ^ 3 = 2 * ((√2 : ℝ) : ℂ) := by rw [← x22]; ring
  have x24 : ((√2 : ℝ) : ℂ) ^ 4 = 4 := by linear_combination (((√2 : ℝ) : ℂ) ^ 2 + 2) * x22
  push_cast at i0 i1 i2 i3 i4 i5 i6 i7 i8 i9 i10 i11 ⊢
  have y0 := mul_inv_cancel₀ n0
  have y1 := mul_inv_cancel₀ n1
  have yR2 : ((√2 : ℝ) : ℂ)⁻¹ = ((√2 : ℝ) : ℂ) / 2 := by rw [inv_eq_iff_eq_inv, inv_div, eq_div_iff x2, ← x22]; ring
  linear_combination ((((-1) * (((√2 : ℝ) : ℂ)) * ((c.e : ℂ)) ^ 2 * ((c.mass .u : ℂ)) * (ab z2.1 ρ2)) * i0 + ((-2) * (((√2 : ℝ) : ℂ)) * ((c.e : ℂ)) ^ 2 * ((c.mass .u : ℂ)) * (mb z2.2 (p 0) ρ2)) * i1 + ((-1) * (((√2 : ℝ) : ℂ)) * ((c.e : ℂ)) ^ 2 * ((c.mass .u : ℂ)) * (N.c 0) + (-2) * (((√2 : ℝ) : ℂ)) * ((c.e : ℂ)) ^ 2 * ((c.mass .u : ℂ)) * (N.c 1)) * i2 + ((2) * (((√2 : ℝ) : ℂ)) * ((c.e : ℂ)) ^ 2 * ((c.mass .u : ℂ)) * (mb z2.2 (p 1) z0.1)) * i3 + ((-1) * (((√2 : ℝ) : ℂ)) * ((c.e : ℂ)) ^ 2 * ((c.mass .u : ℂ)) * (mb z2.2 (p 0) z1.1) + (-3) * (((√2 : ℝ) : ℂ)) * ((c.e : ℂ)) ^ 2 * ((c.mass .u : ℂ)) ^ 2 * (sb z1.2 z2.2)) * i4 + ((-1) * (((√2 : ℝ) : ℂ)) * ((c.e : ℂ)) ^ 2 * ((c.mass .u : ℂ)) * (mb z2.2 (p 0) z1.1) + (-1) * (((√2 : ℝ) : ℂ)) * ((c.e : ℂ)) ^ 2 * ((c.mass .u : ℂ)) ^ 2 * (sb z1.2 z2.2)) * i5 + ((1) * (((√2 : ℝ) : ℂ)) * ((c.e : ℂ)) ^ 2 * ((c.mass .u : ℂ)) * (sb z1.2 z2.2)) * i6 + ((-1) * (((√2 : ℝ) : ℂ)) * ((c.e : ℂ)) ^ 2 * ((c.mass .u : ℂ)) * (N.c 1)) * i7 + ((-1) * (((√2 : ℝ) : ℂ)) * ((c.e : ℂ)) ^ 2 * ((c.mass .u : ℂ)) * (mb z2.2 (p 0) ρ2) + (-1) * (((√2 : ℝ) : ℂ)) * ((c.e : ℂ)) ^ 2 * ((c.mass .u : ℂ)) * (mb z2.2 (p 1) ρ2)) * i8 + ((-1) * (((√2 : ℝ) : ℂ)) * ((c.e : ℂ)) ^ 2 * ((c.mass .u : ℂ)) * (mb z2.2 (p 0) ρ2) + (-1) * (((√2 : ℝ) : ℂ)) * ((c.e : ℂ)) ^ 2 * ((c.mass .u : ℂ)) * (mb z2.2 (p 1) ρ2)) * i9 + ((-1) * (((√2 : ℝ) : ℂ)) * ((c.e : ℂ)) ^ 2 * ((c.mass .u : ℂ)) * (N.c 1)) * i10 + ((-1) * (((√2 : ℝ) : ℂ)) * ((c.e : ℂ)) ^ 2 * ((c.mass .u : ℂ)) * (N.c 0)) * i11)) * ((1) * ((c.MW : ℂ)⁻¹) * ((c.SW : ℂ)⁻¹) * ((N.c 0)⁻¹) * ((N.c 1)⁻¹) / (3)) + ((-1) * (((√2 : ℝ) : ℂ)) * ((c.e : ℂ)) ^ 2 * ((c.MW : ℂ)⁻¹) * ((c.SW : ℂ)⁻¹) * ((c.mass .u : ℂ)) * ((N.c 1)⁻¹) * (ab z1.1 ρ2) * (mb z2.2 (p 1) z0.1) / (3) + (1) * (((√2 : ℝ) : ℂ)) * ((c.e : ℂ)) ^ 2 * ((c.MW : ℂ)⁻¹) * ((c.SW : ℂ)⁻¹) * ((c.mass .u : ℂ)) * ((N.c 1)⁻¹) * (ab z2.1 ρ2) * (sb z0.2 z2.2) * (sb z1.2 z2.2) / (3) + (-1) * (((√2 : ℝ) : ℂ)) * ((c.e : ℂ)) ^ 2 * ((c.MW : ℂ)⁻¹) * ((c.SW : ℂ)⁻¹) * ((c.mass .u : ℂ)) * ((N.c 1)⁻¹) * (mb z0.2 (p 1) ρ2) * (sb z1.2 z2.2) / (3) + (1) * (((√2 : ℝ) : ℂ)) * ((c.e : ℂ)) ^ 2 * ((c.MW : ℂ)⁻¹) * ((c.SW : ℂ)⁻¹) * ((c.mass .u : ℂ)) ^ 2 * ((N.c 1)⁻¹) * (ab z0.1 ρ2) * (sb z1.2 z2.2) / (3) + (1) * (((√2 : ℝ) : ℂ)) * ((c.e : ℂ)) ^ 2 * ((c.MW : ℂ)⁻¹) * ((c.SW : ℂ)⁻¹) * ((c.mass .u : ℂ)) ^ 2 * ((N.c 1)⁻¹) * (ab z1.1 ρ2) * (sb z0.2 z2.2) / (3)) * y0 + ((-1) * (((√2 : ℝ) : ℂ)) * ((c.e : ℂ)) ^ 2 * ((c.MW : ℂ)⁻¹) * ((c.SW : ℂ)⁻¹) * ((c.mass .u : ℂ)) * ((N.c 0)⁻¹) * (ab z0.1 ρ2) * (mb z2.2 (p 0) z1.1) / (3) + (1) * (((√2 : ℝ) : ℂ)) * ((c.e : ℂ)) ^ 2 * ((c.MW : ℂ)⁻¹) * ((c.SW : ℂ)⁻¹) * ((c.mass .u : ℂ)) * ((N.c 0)⁻¹) * (ab z2.1 ρ2) * (sb z0.2 z2.2) * (sb z1.2 z2.2) / (3) + (-1) * (((√2 : ℝ) : ℂ)) * ((c.e : ℂ)) ^ 2 * ((c.MW : ℂ)⁻¹) * ((c.SW : ℂ)⁻¹) * ((c.mass .u : ℂ)) * ((N.c 0)⁻¹) * (mb z1.2 (p 0) ρ2) * (sb z0.2 z2.2) / (3) + (1) * (((√2 : ℝ) : ℂ)) * ((c.e : ℂ)) ^ 2 * ((c.MW : ℂ)⁻¹) * ((c.SW : ℂ)⁻¹) * ((c.mass .u : ℂ)) ^ 2 * ((N.c 0)⁻¹) * (ab z0.1 ρ2) * (sb z1.2 z2.2) / (3) + (1) * (((√2 : ℝ) : ℂ)) * ((c.e : ℂ)) ^ 2 * ((c.MW : ℂ)⁻¹) * ((c.SW : ℂ)⁻¹) * ((c.mass .u : ℂ)) ^ 2 * ((N.c 0)⁻¹) * (ab z1.1 ρ2) * (sb z0.2 z2.2) / (3)) * y1 + ((2) * ((c.MH : ℂ)) ^ 2 * ((c.e : ℂ)) ^ 2 * ((c.MW : ℂ)⁻¹) * ((c.SW : ℂ)⁻¹) * ((c.mass .u : ℂ)) * ((N.c 0)⁻¹) * ((N.c 1)⁻¹) * (ab z2.1 ρ2) * (sb z0.2 z2.2) * (sb z1.2 z2.2) / (3) + (-2) * ((c.e : ℂ)) ^ 2 * ((c.MW : ℂ)⁻¹) * ((c.SW : ℂ)⁻¹) * ((c.mass .u : ℂ)) * ((N.c 0)⁻¹) * ((N.c 1)⁻¹) * (ab z0.1 z1.1) * (ab z2.1 ρ2) * ((mb z2.2 (p 1) (slashLower (p 3) *ᵥ z2.2))) / (3) + (-2) * ((c.e : ℂ)) ^ 2 * ((c.MW : ℂ)⁻¹) * ((c.SW : ℂ)⁻¹) * ((c.mass .u : ℂ)) ^ 2 * ((N.c 0)⁻¹) * ((N.c 1)⁻¹) * (ab z2.1 ρ2) * (mb z2.2 (p 0) z1.1) * (sb z0.2 z2.2) / (3) + (-2) * ((c.e : ℂ)) ^ 2 * ((c.MW : ℂ)⁻¹) * ((c.SW : ℂ)⁻¹) * ((c.mass .u : ℂ)) ^ 2 * ((N.c 0)⁻¹) * ((N.c 1)⁻¹) * (ab z2.1 ρ2) * (mb z2.2 (p 1) z0.1) * (sb z1.2 z2.2) / (3) + (-4) * ((c.e : ℂ)) ^ 2 * ((c.MW : ℂ)⁻¹) * ((c.SW : ℂ)⁻¹) * ((c.mass .u : ℂ)) ^ 3 * ((N.c 0)⁻¹) * ((N.c 1)⁻¹) * (ab z2.1 ρ2) * (sb z0.2 z2.2) * (sb z1.2 z2.2) / (3)) * yR2
theorem uuAh.keyM {c : Constants} {p : Nat → V4 ℝ} {N : Env} (hc : c.Physical) (hb : Balanced p) (r2 : N.r 2 = (c.mass .u)) (r3 : N.r 3 = c.MH) (r6 : N.r 6 = ((((c.e * c.e) * (((2 : Nat) : ℝ) / ((3 : Nat) : ℝ))) * (c.mass .u)) / ((√(((2 : Nat) : ℝ)) * c.MW) * c.SW))) (d0 : ((msq (plus (p 0) (backward (p 2))) - c.mass .u ^ 2 : ℝ) : ℂ) = N.c 0) (n0 : N.c 0 ≠ 0) (d1 : ((msq (plus (p 0) (backward (p 3))) - c.mass .u ^ 2 : ℝ) : ℂ) = N.c 1) (n1 : N.c 1 ≠ 0) {z0 z1 z2 : Pair} (b0 : Bold (p 0) (c.mass .u) z0) (b1 : Bold (p 1) (c.mass .u) z1) (l2 : Light (p 2) z2) (e20 : mb z2.2 (p 0) z2.1 = -N.c 0) (e21 : mb z2.2 (p 1) z2.1 = -N.c 1) (q0 : msq (p 0) = (c.mass .u) ^ 2) (q1 : msq (p 1) = (c.mass .u) ^ 2) (q3 : msq (p 3) = c.MH ^ 2) (ρ2 : V2) (E3 : Vec) :
    uuAh.formM N p z0 z1 z2 * sb ρ2 z2.2 = ((√2 : ℝ) * (1 : ℂ)) * uuAh.react.bare c p 1 0 2 3 z1 z0 (pv z2.1 ρ2) E3 := by
  rw [uuAh.react.bare_parts c p (i := 1) (j := 0) (a := 2) (b := 3) (x := .photon) (y := .higgs) (k := (backward (p 2))) (k' := (backward (p 3))) (fun _ => rfl) (fun _ => rfl) (f := .u) (g := .u) rfl rfl (l := (p 0)) rfl (e := -1) (e' := 1) (if_pos rfl) (if_neg Bool.false_ne_true)]
  rw [compton_vh (f := .u) (x := .u) (g := .u) (h := (rfl : Spec.after .photon Flavour.u = some Flavour.u)) (h' := (rfl : Spec.after .higgs Flavour.u = some Flavour.u)) (ha := by simp)]
  rw [compton_hv (f := .u) (x := .u) (g := .u) (h := (rfl : Spec.after .higgs Flavour.u = some Flavour.u)) (h' := (rfl : Spec.after .photon Flavour.u = some Flavour.u)) (hb := by simp)]
  rw [annihilation_none c _ _ (by rfl) (by simp), star_zero, add_zero, uuAh.formM]
  simp only [d0, d1, lineV_pv, lineV_four, contract_four_pv, contract_pv, mb_plus, mb_backward]
  have i0 := mb_schouten_left z0.2 z2.2 ρ2 (p 0) z2.1
  have i1 := mb_schouten_left z0.2 z2.2 ρ2 (p 1) z2.1
  have i2 := mb_det z2.2 ρ2 (p 3) z0.1 z2.1
  rw [q3] at i2
  have i3 := mb_schouten_right ρ2 (p 0) z0.1 z1.1 z2.1
  have i4 := mb_schouten_right z2.2 (p 1) z0.1 z1.1 z2.1
  have i5 := mb_schouten_right ρ2 (p 1) z0.1 z1.1 z2.1
  have i6 := mb_schouten_left z0.2 z1.2 ρ2 (p 0) z2.1
  have i7 := mb_schouten_left z0.2 z1.2 z2.2 (p 0) z2.1
  have i8 := mb_schouten_left z0.2 z1.2 ρ2 (p 1) z2.1
  have i9 := mb_schouten_left z0.2 z1.2 z2.2 (p 1) z2.1
  have i10 := mb_schouten_left z1.2 z2.2 ρ2 (p 0) z2.1
  have i11 := chain_angle z0.2 z1.2 z2.1 (p 1) (p 3) z2.1
  simp only [l2.mb_eq, b0.mb_left, b0.mb_right, b1.mb_left, b1.mb_right, e20, e21, mb_three hb z0.2 z0.1, mb_three hb z0.2 z1.1, mb_three hb z0.2 z2.1, mb_three hb z1.2 z0.1, mb_three hb z1.2 z1.1, mb_three hb z1.2 z2.1, mb_three hb z2.2 z0.1, mb_three hb z2.2 z1.1, mb_three hb z2.2 z2.1, mb_three hb ρ2 z0.1, mb_three hb ρ2 z1.1, mb_three hb ρ2 z2.1, ab_self, sb_self] at i0 i1 i2 i3 i4 i5 i6 i7 i8 i9 i10 i11 ⊢
  simp only [ab_swap z0.1 z1.1, ab_swap z0.1 z2.1, ab_swap z1.1 z2.1, sb_swap z0.2 z1.2, sb_swap z0.2 z2.2, sb_swap z0.2 ρ2, sb_swap z1.2 z2.2, sb_swap z1.2 ρ2, sb_swap z2.2 ρ2] at i0 i1 i2 i3 i4 i5 i6 i7 i8 i9 i10 i11 ⊢
  simp only [r2, r3, r6, Constants.hL, Constants.hR, Constants.gL, Constants.gR, Constants.yuk, Constants.invVev, Flavour.charge_u, Flavour.isospin_u, ← c.mz]
  have xMW : (c.MW : ℂ) ≠ 0 := by exact_mod_cast hc.MW
  have xSW : (c.SW : ℂ) ≠ 0 := by exact_mod_cast hc.SW
  have xCW : (c.CW : ℂ) ≠ 0 := by exact_mod_cast hc.CW
  have x2 : ((√2 : ℝ) : ℂ) ≠ 0 := by exact_mod_cast (Real.sqrt_pos.2 two_pos).ne'
  have x22 : ((√2 : ℝ) : ℂ) ^ 2 = 2 := by rw [← Complex.ofReal_pow, Real.sq_sqrt two_pos.le]; norm_num
  have x23 : ((√2 : ℝ) : ℂ) ^ 3 = 2 * ((√2 : ℝ) : ℂ) := by rw [← x22]; ring
  have x24 : ((√2 : ℝ) : ℂ) ^ 4 = 4 := by linear_combination (((√2 : ℝ) : ℂ) ^ 2 + 2) * x22
  push_cast at i0 i1 i2 i3 i4 i5 i6 i7 i8 i9 i10 i11 ⊢
  have y0 := mul_inv_cancel₀ n0
  have y1 := mul_inv_cancel₀ n1
  have yR2 : ((√2 : ℝ) : ℂ)⁻¹ = ((√2 : ℝ) : ℂ) / 2 := by rw [inv_eq_iff_eq_inv, inv_div, eq_div_iff x2, ← x22]; ring
  linear_combination ((((-1) * (((√2 : ℝ) : ℂ)) * ((c.e : ℂ)) ^ 2 * ((c.mass .u : ℂ)) * (mb z1.2 (p 0) z2.1) + (-3) * (((√2 : ℝ) : ℂ)) * ((c.e : ℂ)) ^ 2 * ((c.mass .u : ℂ)) ^ 2 * (ab z1.1 z2.1)) * i0 + ((-1) * (((√2 : ℝ) : ℂ)) * ((c.e : ℂ)) ^ 2 * ((c.mass .u : ℂ)) * (mb z1.2 (p 0) z2.1) + (-1) * (((√2 : ℝ) : ℂ)) * ((c.e : ℂ)) ^ 2 * ((c.mass .u : ℂ)) ^ 2 * (ab z1.1 z2.1)) * i1 + ((1) * (((√2 : ℝ) : ℂ)) * ((c.e : ℂ)) ^ 2 * ((c.mass .u : ℂ)) * (ab z1.1 z2.1)) * i2 + ((-1) * (((√2 : ℝ) : ℂ)) * ((c.e : ℂ)) ^ 2 * ((c.mass .u : ℂ)) * (N.c 1)) * i3 + ((-1) * (((√2 : ℝ) : ℂ)) * ((c.e : ℂ)) ^ 2 * ((c.mass .u : ℂ)) * (mb ρ2 (p 0) z2.1) + (-1) * (((√2 : ℝ) : ℂ)) * ((c.e : ℂ)) ^ 2 * ((c.mass .u : ℂ)) * (mb ρ2 (p 1) z2.1)) * i4 + ((-1) * (((√2 : ℝ) : ℂ)) * ((c.e : ℂ)) ^ 2 * ((c.mass .u : ℂ)) * (N.c 1)) * i5 + ((-1) * (((√2 : ℝ) : ℂ)) * ((c.e : ℂ)) ^ 2 * ((c.mass .u : ℂ)) * (N.c 0) + (-2) * (((√2 : ℝ) : ℂ)) * ((c.e : ℂ)) ^ 2 * ((c.mass .u : ℂ)) * (N.c 1)) * i6 + ((-1) * (((√2 : ℝ) : ℂ)) * ((c.e : ℂ)) ^ 2 * ((c.mass .u : ℂ)) * (mb ρ2 (p 0) z2.1) + (-1) * (((√2 : ℝ) : ℂ)) * ((c.e : ℂ)) ^ 2 * ((c.mass .u : ℂ)) * (mb ρ2 (p 1) z2.1)) * i7 + ((-1) * (((√2 : ℝ) : ℂ)) * ((c.e : ℂ)) ^ 2 * ((c.mass .u : ℂ)) * (N.c 0)) * i8 + ((-2) * (((√2 : ℝ) : ℂ)) * ((c.e : ℂ)) ^ 2 * ((c.mass .u : ℂ)) * (mb ρ2 (p 0) z2.1)) * i9 + ((2) * (((√2 : ℝ) : ℂ)) * ((c.e : ℂ)) ^ 2 * ((c.mass .u : ℂ)) * (mb z0.2 (p 1) z2.1)) * i10 + ((-1) * (((√2 : ℝ) : ℂ)) * ((c.e : ℂ)) ^ 2 * ((c.mass .u : ℂ)) * (sb z2.2 ρ2)) * i11)) * ((1) * ((c.MW : ℂ)⁻¹) * ((c.SW : ℂ)⁻¹) * ((N.c 0)⁻¹) * ((N.c 1)⁻¹) / (3)) + ((1) * (((√2 : ℝ) : ℂ)) * ((c.e : ℂ)) ^ 2 * ((c.MW : ℂ)⁻¹) * ((c.SW : ℂ)⁻¹) * ((c.mass .u : ℂ)) * ((N.c 1)⁻¹) * (ab z0.1 z2.1) * (ab z1.1 z2.1) * (sb z2.2 ρ2) / (3) + (-1) * (((√2 : ℝ) : ℂ)) * ((c.e : ℂ)) ^ 2 * ((c.MW : ℂ)⁻¹) * ((c.SW : ℂ)⁻¹) * ((c.mass .u : ℂ)) * ((N.c 1)⁻¹) * (ab z1.1 z2.1) * (mb ρ2 (p 1) z0.1) / (3) + (-1) * (((√2 : ℝ) : ℂ)) * ((c.e : ℂ)) ^ 2 * ((c.MW : ℂ)⁻¹) * ((c.SW : ℂ)⁻¹) * ((c.mass .u : ℂ)) * ((N.c 1)⁻¹) * (mb z0.2 (p 1) z2.1) * (sb z1.2 ρ2) / (3) + (1) * (((√2 : ℝ) : ℂ)) * ((c.e : ℂ)) ^ 2 * ((c.MW : ℂ)⁻¹) * ((c.SW : ℂ)⁻¹) * ((c.mass .u : ℂ)) ^ 2 * ((N.c 1)⁻¹) * (ab z0.1 z2.1) * (sb z1.2 ρ2) / (3) + (1) * (((√2 : ℝ) : ℂ)) * ((c.e : ℂ)) ^ 2 * ((c.MW : ℂ)⁻¹) * ((c.SW : ℂ)⁻¹) * ((c.mass .u : ℂ)) ^ 2 * ((N.c 1)⁻¹) * (ab z1.1 z2.1) * (sb z0.2 ρ2) / (3)) * y0 + ((1) * (((√2 : ℝ) : ℂ)) * ((c.e : ℂ)) ^ 2 * ((c.MW : ℂ)⁻¹) * ((c.SW : ℂ)⁻¹) * ((c.mass .u : ℂ)) * ((N.c 0)⁻¹) * (ab z0.1 z2.1) * (ab z1.1 z2.1) * (sb z2.2 ρ2) / (3) + (-1) * (((√2 : ℝ) : ℂ)) * ((c.e : ℂ)) ^ 2 * ((c.MW : ℂ)⁻¹) * ((c.SW : ℂ)⁻¹) * ((c.mass .u : ℂ)) * ((N.c 0)⁻¹) * (ab z0.1 z2.1) * (mb ρ2 (p 0) z1.1) / (3) + (-1) * (((√2 : ℝ) : ℂ)) * ((c.e : ℂ)) ^ 2 * ((c.MW : ℂ)⁻¹) * ((c.SW : ℂ)⁻¹) * ((c.mass .u : ℂ)) * ((N.c 0)⁻¹) * (mb z1.2 (p 0) z2.1) * (sb z0.2 ρ2) / (3) + (1) * (((√2 : ℝ) : ℂ)) * ((c.e : ℂ)) ^ 2 * ((c.MW : ℂ)⁻¹) * ((c.SW : ℂ)⁻¹) * ((c.mass .u : ℂ)) ^ 2 * ((N.c 0)⁻¹) * (ab z0.1 z2.1) * (sb z1.2 ρ2) / (3) + (1) * (((√2 : ℝ) : ℂ)) * ((c.e : ℂ)) ^ 2 * ((c.MW : ℂ)⁻¹) * ((c.SW : ℂ)⁻¹) * ((c.mass .u : ℂ)) ^ 2 * ((N.c 0)⁻¹) * (ab z1.1 z2.1) * (sb z0.2 ρ2) / (3)) * y1 + ((2) * ((c.MH : ℂ)) ^ 2 * ((c.e : ℂ)) ^ 2 * ((c.MW : ℂ)⁻¹) * ((c.SW : ℂ)⁻¹) * ((c.mass .u : ℂ)) * ((N.c 0)⁻¹) * ((N.c 1)⁻¹) * (ab z0.1 z2.1) * (ab z1.1 z2.1) * (sb z2.2 ρ2) / (3) + (-2) * ((c.e : ℂ)) ^ 2 * ((c.MW : ℂ)⁻¹) * ((c.SW : ℂ)⁻¹) * ((c.mass .u : ℂ)) * ((N.c 0)⁻¹) * ((N.c 1)⁻¹) * ((mb (slashUpper (p 3) *ᵥ z2.1) (p 1) z2.1)) * (sb z0.2 z1.2) * (sb z2.2 ρ2) / (3) + (-2) * ((c.e : ℂ)) ^ 2 * ((c.MW : ℂ)⁻¹) * ((c.SW : ℂ)⁻¹) * ((c.mass .u : ℂ)) ^ 2 * ((N.c 0)⁻¹) * ((N.c 1)⁻¹) * (ab z0.1 z2.1) * (mb z1.2 (p 0) z2.1) * (sb z2.2 ρ2) / (3) + (-2) * ((c.e : ℂ)) ^ 2 * ((c.MW : ℂ)⁻¹) * ((c.SW : ℂ)⁻¹) * ((c.mass .u : ℂ)) ^ 2 * ((N.c 0)⁻¹) * ((N.c 1)⁻¹) * (ab z1.1 z2.1) * (mb z0.2 (p 1) z2.1) * (sb z2.2 ρ2) / (3) + (-4) * ((c.e : ℂ)) ^ 2 * ((c.MW : ℂ)⁻¹) * ((c.SW : ℂ)⁻¹) * ((c.mass .u : ℂ)) ^ 3 * ((N.c 0)⁻¹) * ((N.c 1)⁻¹) * (ab z0.1 z2.1) * (ab z1.1 z2.1) * (sb z2.2 ρ2) / (3)) * yR2
set_option maxRecDepth 8000 in
theorem uuAh.amp2_eq (N : Env) (f : Nat → List Int → ℂ) : Cls.uuAh.m_amp2.mean N f .r [] =
    ((sumJ (fun x a => (sumJ (fun x b => (sumW (fun x c => (x + (((3 : Nat) : ℝ) * (‖(f 0 [a, b, c])‖ ^ 2)))) x)) x)) ((0 : Nat) : ℝ)) / ((36 : Nat) : ℝ)) := by rfl
set_option maxRecDepth 8000 in
theorem uuAh.value (N : Env) : meaning N .r Cls.uuAh.methods Cls.uuAh.amp2 [] =
    ((sumJ (fun x a => (sumJ (fun x b => (sumW (fun x c => (x + (((3 : Nat) : ℝ) * (‖(Cls.uuAh.m_amp.mean N (callMean N []) .c [a, b, c])‖ ^ 2)))) x)) x)) ((0 : Nat) : ℝ)) / ((36 : Nat) : ℝ)) :=
  uuAh.amp2_eq N (callMean N [Cls.uuAh.m_amp])
set_option maxRecDepth 8000 in
theorem uuAh.ampP (N : Env) (f : Nat → List Int → ℂ) (j1 j2 : Int) : Cls.uuAh.m_amp.mean N f .c [j1, j2, 2] = uuAh.termP N j1 j2 := by rfl
set_option maxRecDepth 8000 in
theorem uuAh.ampM (N : Env) (f : Nat → List Int → ℂ) (j1 j2 : Int) : Cls.uuAh.m_amp.mean N f .c [j1, j2, (-2)] = uuAh.termM N j1 j2 := by rfl

theorem uuAh.mass_eq {c : Constants} (hc : c.Physical) (i : Fin 4) : uuAh.proc.massNum (uuAh.rho c) i = uuAh.react.mass c i := by
  fin_cases i <;> first | rfl | exact Nat.cast_zero | exact Nat.cast_zero.trans (hc.neutrino _).symm | (show c.MW / √(((1 : Nat) : ℝ) - c.SW * c.SW) = c.MZ; rw [c.root, c.mz])

variable [FPEnv] in
theorem uuAh.agrees : uuAh.Agrees := by
  refine agrees_of (D := [3, 4]) (E := [4]) (by simp [all, uuAh]) (by decide +kernel) (by decide) (by decide +kernel) (fun c hc hh => ⟨List.forall_mem_cons.2 ⟨hc.MW, List.forall_mem_cons.2 ⟨hc.SW, List.forall_mem_nil _⟩⟩, List.forall_mem_cons.2 ⟨hc.SW_lt, List.forall_mem_nil _⟩⟩) (fun c hc i => uuAh.mass_eq hc i) (by decide +kernel) ?_
  intro c p u ε hc hh hw h0 hs hb hr hu
  have he : uuAh.react.ends = [1] := by decide
  have ht : uuAh.react.starts = [0] := by decide
  have hB : uuAh.react.bosons = [2, 3] := by decide
  obtain ⟨f1, f2, f3⟩ := uuAh.react.regular_line he ht hB hr
  have r2 : (uuAh.N c p).r 2 = (c.mass .u) := rfl
  have r3 : (uuAh.N c p).r 3 = c.MH := rfl
  have r6 : (uuAh.N c p).r 6 = ((((c.e * c.e) * (((2 : Nat) : ℝ) / ((3 : Nat) : ℝ))) * (c.mass .u)) / ((√(((2 : Nat) : ℝ)) * c.MW) * c.SW)) := rfl
  have c0 : (uuAh.N c p).c 0 = poleDist (c.mass .u) ((0 : Nat) : ℝ) ((VExp.sub 0 2).sum p) := rfl
  rw [Nat.cast_zero, pole_fermion rfl] at c0
  have d0 : ((msq (plus (p 0) (backward (p 2))) - c.mass .u ^ 2 : ℝ) : ℂ) = (uuAh.N c p).c 0 := by rw [c0, msq_t hb (plus (p 0) (backward (p 2))) (by simp)]
  have n0 : (uuAh.N c p).c 0 ≠ 0 := by rw [← d0]; exact_mod_cast f1 .u rfl rfl
  have c1 : (uuAh.N c p).c 1 = poleDist (c.mass .u) ((0 : Nat) : ℝ) ((VExp.sub 0 3).sum p) := rfl
  rw [Nat.cast_zero, pole_fermion rfl] at c1
  have d1 : ((msq (plus (p 0) (backward (p 3))) - c.mass .u ^ 2 : ℝ) : ℂ) = (uuAh.N c p).c 1 := by rw [c1, msq_u hb (plus (p 0) (backward (p 3))) (by simp)]
  have n1 : (uuAh.N c p).c 1 ≠ 0 := by rw [← d1]; exact_mod_cast f2 .u rfl rfl
  obtain ⟨l2, x2, y2⟩ := uuAh.react.code_light hs hu (n := 2) rfl rfl
  have e20 := l2.pole_sub' (m := (c.mass .u)) (onShell_msq (hs 0)) (msq_t hb (plus (p 0) (backward (p 2))) (by simp)) c0
  have e21 := l2.pole_sub' (m := (c.mass .u)) (onShell_msq (hs 1)) (msq_u hb (plus (p 1) (backward (p 2))) (by simp)) c1
  have m0 : uuAh.react.mass c 0 ≠ 0 := (leg_pos hc hh (by decide)).ne'
  have m1 : uuAh.react.mass c 1 ≠ 0 := (leg_pos hc hh (by decide)).ne'
  have m2 : uuAh.react.mass c 2 = 0 := rfl
  have hd : uuAh.proc.divides = [(Ty.c, 0), (Ty.c, 1)] := by decide +kernel
  refine ⟨fun n hn => ?_, fun n hn => ?_, ?_⟩
  · simp [hd] at hn
  · simp [hd] at hn
    rcases hn with rfl | rfl
    · exact n0
    · exact n1
  have stP : ∀ {z0 z1 : Pair} (b0 : Bold (p 0) (uuAh.react.mass c 0) z0) (b1 : Bold (p 1) (uuAh.react.mass c 1) z1), uuAh.formP (uuAh.N c p) p z0 z1 (legA (p 2) 0 0, legS (p 2) 0 1) = 1 * uuAh.react.bare c p 1 0 2 3 z1 z0 (lightE (legA (p 2) 0 0, legS (p 2) 0 1) 1) (uuAh.react.codeVec c p 3 0) := by
    intro z0 z1 b0 b1
    exact (light_plus (z := (legA (p 2) 0 0, legS (p 2) 0 1)) (G := fun E => uuAh.react.bare c p 1 0 2 3 z1 z0 E (uuAh.react.codeVec c p 3 0)) (uuAh.react.bare_lin₁ c p _ _ _ (by decide)) x2 (uuAh.keyP hc hb r2 r3 r6 d0 n0 d1 n1 b0 b1 l2 e20 e21 (onShell_msq (hs 0)) (onShell_msq (hs 1)) (onShell_msq (hs 3)) _ (uuAh.react.codeVec c p 3 0)))
  have stM : ∀ {z0 z1 : Pair} (b0 : Bold (p 0) (uuAh.react.mass c 0) z0) (b1 : Bold (p 1) (uuAh.react.mass c 1) z1), uuAh.formM (uuAh.N c p) p z0 z1 (legA (p 2) 0 0, legS (p 2) 0 1) = 1 * uuAh.react.bare c p 1 0 2 3 z1 z0 (lightE (legA (p 2) 0 0, legS (p 2) 0 1) 0) (uuAh.react.codeVec c p 3 0) := by
    intro z0 z1 b0 b1
    exact (light_minus (z := (legA (p 2) 0 0, legS (p 2) 0 1)) (G := fun E => uuAh.react.bare c p 1 0 2 3 z1 z0 E (uuAh.react.codeVec c p 3 0)) (uuAh.react.bare_lin₁ c p _ _ _ (by decide)) y2 (uuAh.keyM hc hb r2 r3 r6 d0 n0 d1 n1 b0 b1 l2 e20 e21 (onShell_msq (hs 0)) (onShell_msq (hs 1)) (onShell_msq (hs 3)) _ (uuAh.react.codeVec c p 3 0)))
  have amP : ∀ (s0 : Fin 2) (s1 : Fin 2), Cls.uuAh.m_amp.mean (uuAh.N c p) (callMean (uuAh.N c p) []) .c [spinOf s0, spinOf s1, 2] = 1 * uuAh.react.bare c p 1 0 2 3 (uuAh.react.codePair c p 1 s1) (uuAh.react.codePair c p 0 s0) (lightE (legA (p 2) 0 0, legS (p 2) 0 1) 1) (uuAh.react.codeVec c p 3 0) := by
    intro s0 s1
    rw [uuAh.ampP, ← stP (uuAh.react.codePair_bold hs h0 0 s0) (uuAh.react.codePair_bold hs h0 1 s1)]
    have v0z0z2 : (uuAh.N c p).v 0 [spinOf s0] = sb (uuAh.react.codePair c p 0 s0).2 (legA (p 2) 0 0, legS (p 2) 0 1).2 := bra_square (p := p) (m := uuAh.proc.massNum (uuAh.rho c)) (uuAh.mass_eq hc 0) (uuAh.mass_eq hc 2) (.inl ⟨m0, rfl⟩) (.inr ⟨m2, rfl⟩)
    have v2z1z2 : (uuAh.N c p).v 2 [spinOf s1] = sb (uuAh.react.codePair c p 1 s1).2 (legA (p 2) 0 0, legS (p 2) 0 1).2 := bra_square (p := p) (m := uuAh.proc.massNum (uuAh.rho c)) (uuAh.mass_eq hc 1) (uuAh.mass_eq hc 2) (.inl ⟨m1, rfl⟩) (.inr ⟨m2, rfl⟩)
    have v6z2z1 : (uuAh.N c p).v 6 [spinOf s1] = mb (legA (p 2) 0 0, legS (p 2) 0 1).2 (p 3) (uuAh.react.codePair c p 1 s1).1 := bra_mid_square (p := p) (m := uuAh.proc.massNum (uuAh.rho c)) (uuAh.mass_eq hc 2) (uuAh.mass_eq hc 1) (.inr ⟨m2, rfl⟩) (.inl ⟨m1, rfl⟩)
    have v8z2z0 : (uuAh.N c p).v 8 [spinOf s0] = mb (legA (p 2) 0 0, legS (p 2) 0 1).2 (p 3) (uuAh.react.codePair c p 0 s0).1 := bra_mid_square (p := p) (m := uuAh.proc.massNum (uuAh.rho c)) (uuAh.mass_eq hc 2) (uuAh.mass_eq hc 0) (.inr ⟨m2, rfl⟩) (.inl ⟨m0, rfl⟩)
    have v5z0z1 : (uuAh.N c p).v 5 [spinOf s0, spinOf s1] = ab (uuAh.react.codePair c p 0 s0).1 (uuAh.react.codePair c p 1 s1).1 := bra_angle (p := p) (m := uuAh.proc.massNum (uuAh.rho c)) (uuAh.mass_eq hc 0) (uuAh.mass_eq hc 1) (.inl ⟨m0, rfl⟩) (.inl ⟨m1, rfl⟩)
    have v10z2z2 : (uuAh.N c p).v 10 [] = mb (legA (p 2) 0 0, legS (p 2) 0 1).2 (p 1) (slashLower (p 3) *ᵥ (legA (p 2) 0 0, legS (p 2) 0 1).2) := bra_two_square (p := p) (m := uuAh.proc.massNum (uuAh.rho c)) (uuAh.mass_eq hc 2) (uuAh.mass_eq hc 2) (.inr ⟨m2, rfl⟩) (.inr ⟨m2, rfl⟩)
    simp only [uuAh.termP, uuAh.formP, v0z0z2, v2z1z2, v6z2z1, v8z2z0, v5z0z1, v10z2z2]
  have amM : ∀ (s0 : Fin 2) (s1 : Fin 2), Cls.uuAh.m_amp.mean (uuAh.N c p) (callMean (uuAh.N c p) []) .c [spinOf s0, spinOf s1, (-2)] = 1 * uuAh.react.bare c p 1 0 2 3 (uuAh.react.codePair c p 1 s1) (uuAh.react.codePair c p 0 s0) (lightE (legA (p 2) 0 0, legS (p 2) 0 1) 0) (uuAh.react.codeVec c p 3 0) := by
    intro s0 s1
    rw [uuAh.ampM, ← stM (uuAh.react.codePair_bold hs h0 0 s0) (uuAh.react.codePair_bold hs h0 1 s1)]
    have v1z0z2 : (uuAh.N c p).v 1 [spinOf s0] = ab (uuAh.react.codePair c p 0 s0).1 (legA (p 2) 0 0, legS (p 2) 0 1).1 := bra_angle (p := p) (m := uuAh.proc.massNum (uuAh.rho c)) (uuAh.mass_eq hc 0) (uuAh.mass_eq hc 2) (.inl ⟨m0, rfl⟩) (.inr ⟨m2, rfl⟩)
    have v3z1z2 : (uuAh.N c p).v 3 [spinOf s1] = ab (uuAh.react.codePair c p 1 s1).1 (legA (p 2) 0 0, legS (p 2) 0 1).1 := bra_angle (p := p) (m := uuAh.proc.massNum (uuAh.rho c)) (uuAh.mass_eq hc 1) (uuAh.mass_eq hc 2) (.inl ⟨m1, rfl⟩) (.inr ⟨m2, rfl⟩)
    have v7z2z1 : (uuAh.N c p).v 7 [spinOf s1] = mb (uuAh.react.codePair c p 1 s1).2 (p 3) (legA (p 2) 0 0, legS (p 2) 0 1).1 := bra_mid_angle (p := p) (m := uuAh.proc.massNum (uuAh.rho c)) (uuAh.mass_eq hc 2) (uuAh.mass_eq hc 1) (.inr ⟨m2, rfl⟩) (.inl ⟨m1, rfl⟩)
    have v9z2z0 : (uuAh.N c p).v 9 [spinOf s0] = mb (uuAh.react.codePair c p 0 s0).2 (p 3) (legA (p 2) 0 0, legS (p 2) 0 1).1 := bra_mid_angle (p := p) (m := uuAh.proc.massNum (uuAh.rho c)) (uuAh.mass_eq hc 2) (uuAh.mass_eq hc 0) (.inr ⟨m2, rfl⟩) (.inl ⟨m0, rfl⟩)
    have v4z0z1 : (uuAh.N c p).v 4 [spinOf s0, spinOf s1] = sb (uuAh.react.codePair c p 0 s0).2 (uuAh.react.codePair c p 1 s1).2 := bra_square (p := p) (m := uuAh.proc.massNum (uuAh.rho c)) (uuAh.mass_eq hc 0) (uuAh.mass_eq hc 1) (.inl ⟨m0, rfl⟩) (.inl ⟨m1, rfl⟩)
    have v11z2z2 : (uuAh.N c p).v 11 [] = mb (slashUpper (p 3) *ᵥ (legA (p 2) 0 0, legS (p 2) 0 1).1) (p 1) (legA (p 2) 0 0, legS (p 2) 0 1).1 := bra_two_angle (p := p) (m := uuAh.proc.massNum (uuAh.rho c)) (uuAh.mass_eq hc 2) (uuAh.mass_eq hc 2) (.inr ⟨m2, rfl⟩) (.inr ⟨m2, rfl⟩)
    simp only [uuAh.termM, uuAh.formM, v1z0z2, v3z1z2, v7z2z1, v9z2z0, v4z0z1, v11z2z2]
  have am : ∀ (s0 : Fin 2) (s1 : Fin 2) (h2 : Fin 2), ‖Cls.uuAh.m_amp.mean (uuAh.N c p) (callMean (uuAh.N c p) []) .c [spinOf s0, spinOf s1, spinW h2]‖ = ‖uuAh.react.bare c p 1 0 2 3 (uuAh.react.codePair c p 1 s1) (uuAh.react.codePair c p 0 s0) (lightE (legA (p 2) 0 0, legS (p 2) 0 1) h2.castSucc) (uuAh.react.codeVec c p 3 0)‖ := by
    intro s0 s1 h2
    match h2 with
    | 1 => exact norm_plus (amP s0 s1)
    | 0 => exact norm_plus (amM s0 s1)
  show meaning (uuAh.N c p) .r Cls.uuAh.methods Cls.uuAh.amp2 [] = _
  have s0 : uuAh.react.states 0 = 6 := by decide +kernel
  have s1 : uuAh.react.states 1 = 6 := by decide +kernel
  have sy : uuAh.react.symmetry = 1 := by decide
  have p0 : uuAh.react.spins 0 = {0, 1} := rfl
  have p1 : uuAh.react.spins 1 = {0, 1} := rfl
  have p2 : uuAh.react.spins 2 = {0, 1} := rfl
  have p3 : uuAh.react.spins 3 = {0} := rfl
  have E2 : uuAh.react.codeE c p 2 = lightE (legA (p 2) 0 0, legS (p 2) 0 1) := rfl
  have E3 : uuAh.react.codeE c p 3 = uuAh.react.codeVec c p 3 := rfl
  have hG : uuAh.react.Gauge c p := (uuAh.react.gauge_line he ht hB hh (by decide) (fun n => onShell_msq (hs n)) hb hr (fun n m h h2 => absurd (And.intro h h2) (by revert n m; decide)) (fun _ => ⟨rfl, rfl⟩) (fun h => absurd h (by decide)))
  have lc : uuAh.react.lineColours 1 0 = 3 := by decide +kernel
  rw [uuAh.value, uuAh.react.squared_line he ht hB (by decide) hs h0 (fun _ b _ hb _ => (boson_pos hc hh hb).ne') hG (E := uuAh.react.codeE c p) (fun n b hl => uuAh.react.codeE_polarised hs h0 hu (fun b hb => (boson_pos hc hh hb).ne') n b hl) hu, sum_colours, lc, s0, s1, sy]
  simp only [sumV_sum, sumJ_sum, sumW_sum, am, p0, p1, p2, p3, E2, E3, Finset.sum_singleton, sum_two, Matrix.cons_val_zero, Matrix.cons_val_one, Matrix.cons_val, two_castSucc]
  try simp only [← Finset.mul_sum]
  push_cast
  first | ring1 | ring_nf

/-! ### ddAh -/

/-- what the methods of the class see -/
noncomputable abbrev ddAh.N [FPEnv] (c : Constants) (p : Nat → V4 ℝ) : Env := ddAh.proc.env (ddAh.rho c) p
/-- `amp` for a photon of positive helicity (SM/ddAh.cpp) -/
noncomputable def ddAh.termP (N : Env) (j1 j2 : Int) : ℂ :=
  (((((N.r 6 : ℝ) : ℂ) * (((((((((-N.r 3) * N.r 3) : ℝ) : ℂ) * N.v 0 [j1]) * N.v 2 [j2]) + ((((N.r 2 : ℝ) : ℂ) * N.v 0 [j1]) * N.v 6 [j2])) + ((((N.r 2 : ℝ) : ℂ) * N.v 2 [j2]) * N.v 8 [j1])) + (N.v 5 [j1, j2] * N.v 10 []))) / N.c 0) / N.c 1)
/-- the same with spinors in place of their spins -/
noncomputable def ddAh.formP (N : Env) (p : Nat → V4 ℝ) (z0 z1 z2 : Pair) : ℂ :=
  (((((N.r 6 : ℝ) : ℂ) * (((((((((-N.r 3) * N.r 3) : ℝ) : ℂ) * (sb z0.2 z2.2)) * (sb z1.2 z2.2)) + ((((N.r 2 : ℝ) : ℂ) * (sb z0.2 z2.2)) * (mb z2.2 (p 3) z1.1))) + ((((N.r 2 : ℝ) : ℂ) * (sb z1.2 z2.2)) * (mb z2.2 (p 3) z0.1))) + ((ab z0.1 z1.1) * (mb z2.2 (p 1) (slashLower (p 3) *ᵥ z2.2))))) / N.c 0) / N.c 1)
/-- `amp` for a photon of negative helicity (SM/ddAh.cpp) -/
noncomputable def ddAh.termM (N : Env) (j1 j2 : Int) : ℂ :=
  (((((N.r 6 : ℝ) : ℂ) * (((((((((-N.r 3) * N.r 3) : ℝ) : ℂ) * N.v 1 [j1]) * N.v 3 [j2]) + ((((N.r 2 : ℝ) : ℂ) * N.v 1 [j1]) * N.v 7 [j2])) + ((((N.r 2 : ℝ) : ℂ) * N.v 3 [j2]) * N.v 9 [j1])) + (N.v 4 [j1, j2] * N.v 11 []))) / N.c 0) / N.c 1)
/-- the same with spinors in place of their spins -/
noncomputable def ddAh.formM (N : Env) (p : Nat → V4 ℝ) (z0 z1 z2 : Pair) : ℂ :=
  (((((N.r 6 : ℝ) : ℂ) * (((((((((-N.r 3) * N.r 3) : ℝ) : ℂ) * (ab z0.1 z2.1)) * (ab z1.1 z2.1)) + ((((N.r 2 : ℝ) : ℂ) * (ab z0.1 z2.1)) * (mb z1.2 (p 3) z2.1))) + ((((N.r 2 : ℝ) : ℂ) * (ab z1.1 z2.1)) * (mb z0.2 (p 3) z2.1))) + ((sb z0.2 z1.2) * (mb (slashUpper (p 3) *ᵥ z2.1) (p 1) z2.1)))) / N.c 0) / N.c 1)
theorem ddAh.keyP {c : Constants} {p : Nat → V4 ℝ} {N : Env} (hc : c.Physical) (hb : Balanced p) (r2 : N.r 2 = (c.mass .d)) (r3 : N.r 3 = c.MH) (r6 : N.r 6 = (((((√(((2 : Nat) : ℝ)) * c.e) * c.e) * ((-((1 : Nat) : ℝ)) / ((3 : Nat) : ℝ))) * (c.mass .d)) / ((((2 : Nat) : ℝ) * c.MW) * c.SW))) (d0 : ((msq (plus (p 0) (backward (p 2))) - c.mass .d ^ 2 : ℝ) : ℂ) = N.c 0) (n0 : N.c 0 ≠ 0) (d1 : ((msq (plus (p 0) (backward (p 3))) - c.mass .d ^ 2 : ℝ) : ℂ) = N.c 1) (n1 : N.c 1 ≠ 0) {z0 z1 z2 : Pair} (b0 : Bold (p 0) (c.mass .d) z0) (b1 : Bold (p 1) (c.mass .d) z1) (l2 : Light (p 2) z2) (e20 : mb z2.2 (p 0) z2.1 = -N.c 0) (e21 : mb z2.2 (p 1) z2.1 = -N.c 1) (q0 : msq (p 0) = (c.mass .d) ^ 2) (q1 : msq (p 1) = (c.mass .d) ^ 2) (q3 : msq (p 3) = c.MH ^ 2) (ρ2 : V2) (E3 : Vec) :
    ddAh.formP N p z0 z1 z2 * ab ρ2 z2.1 = ((√2 : ℝ) * (1 : ℂ)) * ddAh.react.bare c p 1 0 2 3 z1 z0 (pv ρ2 z2.2) E3 := by
  rw [ddAh.react.bare_parts c p (i := 1) (j := 0) (a := 2) (b := 3) (x := .photon) (y := .higgs) (k := (backward (p 2))) (k' := (backward (p 3))) (fun _ => rfl) (fun _ => rfl) (f := .d) (g := .d) rfl rfl (l := (p 0)) rfl (e := -1) (e' := 1) (if_pos rfl) (if_neg Bool.false_ne_true)]
  rw [compton_vh (f := .d) (x := .d) (g := .d) (h := (rfl : Spec.after .photon Flavour.d = some Flavour.d)) (h' := (rfl : Spec.after .higgs Flavour.d = some Flavour.d)) (ha := by simp)]
  rw [compton_hv (f := .d) (x := .d) (g := .d) (h := (rfl : Spec.after .higgs Flavour.d = some Flavour.d)) (h' := (rfl : Spec.after .photon Flavour.d = some Flavour.d)) (hb := by simp)]
  rw [annihilation_none c _ _ (by rfl) (by simp), star_zero, add_zero, ddAh.formP]
  simp only [d0, d1, lineV_pv, lineV_four, contract_four_pv, contract_pv, mb_plus, mb_backward]
  have i0 := chain_square z0.1 z1.1 z2.2 (p 1) (p 3) z2.2
  have i1 := mb_schouten_right z2.2 (p 1) z0.1 z1.1 z2.1
  have i2 := mb_schouten_right z2.2 (p 0) z0.1 z1.1 ρ2
  have i3 := mb_schouten_right z2.2 (p 0) z1.1 z2.1 ρ2
  have i4 := mb_schouten_right z2.2 (p 0) z0.1 z2.1 ρ2
  have i5 := mb_schouten_right z2.2 (p 1) z0.1 z2.1 ρ2
  have i6 := mb_det z0.2 z2.2 (p 3) z2.1 ρ2
  rw [q3] at i6
  have i7 := mb_schouten_left z0.2 z1.2 z2.2 (p 0) ρ2
  have i8 := mb_schouten_left z0.2 z1.2 z2.2 (p 1) z2.1
  have i9 := mb_schouten_right z2.2 (p 0) z0.1 z1.1 z2.1
  have i10 := mb_schouten_left z0.2 z1.2 z2.2 (p 1) ρ2
  have i11 := mb_schouten_right z2.2 (p 1) z0.1 z1.1 ρ2
  simp only [l2.mb_eq, b0.mb_left, b0.mb_right, b1.mb_left, b1.mb_right, e20, e21, mb_three hb z0.2 z0.1, mb_three hb z0.2 z1.1, mb_three hb z0.2 z2.1, mb_three hb z0.2 ρ2, mb_three hb z1.2 z0.1, mb_three hb z1.2 z1.1, mb_three hb z1.2 z2.1, mb_three hb z1.2 ρ2, mb_three hb z2.2 z0.1, mb_three hb z2.2 z1.1, mb_three hb z2.2 z2.1, mb_three hb z2.2 ρ2, ab_self, sb_self] at i0 i1 i2 i3 i4 i5 i6 i7 i8 i9 i10 i11 ⊢
  simp only [ab_swap z0.1 z1.1, ab_swap z0.1 z2.1, ab_swap z0.1 ρ2, ab_swap z1.1 z2.1, ab_swap z1.1 ρ2, ab_swap z2.1 ρ2, sb_swap z0.2 z1.2, sb_swap z0.2 z2.2, sb_swap z1.2 z2.2] at i0 i1 i2 i3 i4 i5 i6 i7 i8 i9 i10 i11 ⊢
  simp only [r2, r3, r6, Constants.hL, Constants.hR, Constants.gL, Constants.gR, Constants.yuk, Constants.invVev, Flavour.charge_d, Flavour.isospin_d, ← c.mz]
  have xMW : (c.MW : ℂ) ≠ 0 := by exact_mod_cast hc.MW
  have xSW : (c.SW : ℂ) ≠ 0 := by exact_mod_cast hc.SW
  have xCW : (c.CW : ℂ) ≠ 0 := by exact_mod_cast hc.CW
  have x2 : ((√2 : ℝ) : ℂ) ≠ 0 := by exact_mod_cast (Real.sqrt_pos.2 two_pos).ne'
  have x22 : ((√2 : ℝ) : ℂ) ^ 2 = 2 := by rw [← Complex.ofReal_pow, Real.sq_sqrt two_pos.le]; norm_num
  have x23 : ((√2 : ℝ) : ℂ) ^ 3 = 2 * ((√2 : ℝ) : ℂ) := by rw [← x22]; ring
  have x24 : ((√2 : ℝ) : ℂ) ^ 4 = 4 := by linear_combination (((√2 : ℝ) : ℂ) ^ 2 + 2) * x22
  push_cast at i0 i1 i2 i3 i4 i5 i6 i7 i8 i9 i10 i11 ⊢
  have y0 := mul_inv_cancel₀ n0
  have y1 := mul_inv_cancel₀ n1
  linear_combination ((((1) * (((√2 : ℝ) : ℂ)) * ((c.e : ℂ)) ^ 2 * ((c.mass .d : ℂ)) * (ab z2.1 ρ2)) * i0 + ((2) * (((√2 : ℝ) : ℂ)) * ((c.e : ℂ)) ^ 2 * ((c.mass .d : ℂ)) * (mb z2.2 (p 0) ρ2)) * i1 + ((1) * (((√2 : ℝ) : ℂ)) * ((c.e : ℂ)) ^ 2 * ((c.mass .d : ℂ)) * (N.c 0) + (2) * (((√2 : ℝ) : ℂ)) * ((c.e : ℂ)) ^ 2 * ((c.mass .d : ℂ)) * (N.c 1)) * i2 + ((-2) * (((√2 : ℝ) : ℂ)) * ((c.e : ℂ)) ^ 2 * ((c.mass .d : ℂ)) * (mb z2.2 (p 1) z0.1)) * i3 + ((1) * (((√2 : ℝ) : ℂ)) * ((c.e : ℂ)) ^ 2 * ((c.mass .d : ℂ)) * (mb z2.2 (p 0) z1.1) + (3) * (((√2 : ℝ) : ℂ)) * ((c.e : ℂ)) ^ 2 * ((c.mass .d : ℂ)) ^ 2 * (sb z1.2 z2.2)) * i4 + ((1) * (((√2 : ℝ) : ℂ)) * ((c.e : ℂ)) ^ 2 * ((c.mass .d : ℂ)) * (mb z2.2 (p 0) z1.1) + (1) * (((√2 : ℝ) : ℂ)) * ((c.e : ℂ)) ^ 2 * ((c.mass .d : ℂ)) ^ 2 * (sb z1.2 z2.2)) * i5 + ((-1) * (((√2 : ℝ) : ℂ)) * ((c.e : ℂ)) ^ 2 * ((c.mass .d : ℂ)) * (sb z1.2 z2.2)) * i6 + ((1) * (((√2 : ℝ) : ℂ)) * ((c.e : ℂ)) ^ 2 * ((c.mass .d : ℂ)) * (N.c 1)) * i7 + ((1) * (((√2 : ℝ) : ℂ)) * ((c.e : ℂ)) ^ 2 * ((c.mass .d : ℂ)) * (mb z2.2 (p 0) ρ2) + (1) * (((√2 : ℝ) : ℂ)) * ((c.e : ℂ)) ^ 2 * ((c.mass .d : ℂ)) * (mb z2.2 (p 1) ρ2)) * i8 + ((1) * (((√2 : ℝ) : ℂ)) * ((c.e : ℂ)) ^ 2 * ((c.mass .d : ℂ)) * (mb z2.2 (p 0) ρ2) + (1) * (((√2 : ℝ) : ℂ)) * ((c.e : ℂ)) ^ 2 * ((c.mass .d : ℂ)) * (mb z2.2 (p 1) ρ2)) * i9 + ((1) * (((√2 : ℝ) : ℂ)) * ((c.e : ℂ)) ^ 2 * ((c.mass .d : ℂ)) * (N.c 1)) * i10 + ((1) * (((√2 : ℝ) : ℂ)) * ((c.e : ℂ)) ^ 2 * ((c.mass .d : ℂ)) * (N.c 0)) * i11)) * ((1) * ((c.MW : ℂ)⁻¹) * ((c.SW : ℂ)⁻¹) * ((N.c 0)⁻¹) * ((N.c 1)⁻¹) / (6)) + ((1) * (((√2 : ℝ) : ℂ)) * ((c.e : ℂ)) ^ 2 * ((c.MW : ℂ)⁻¹) * ((c.SW : ℂ)⁻¹) * ((c.mass .d : ℂ)) * ((N.c 1)⁻¹) * (ab z1.1 ρ2) * (mb z2.2 (p 1) z0.1) / (6) + (-1) * (((√2 : ℝ) : ℂ)) * ((c.e : ℂ)) ^ 2 * ((c.MW : ℂ)⁻¹) * ((c.SW : ℂ)⁻¹) * ((c.mass .d : ℂ)) * ((N.c 1)⁻¹) * (ab z2.1 ρ2) * (sb z0.2 z2.2) * (sb z1.2 z2.2) / (6) + (1) * (((√2 : ℝ) : ℂ)) * ((c.e : ℂ)) ^ 2 * ((c.MW : ℂ)⁻¹) * ((c.SW : ℂ)⁻¹) * ((c.mass .d : ℂ)) * ((N.c 1)⁻¹) * (mb z0.2 (p 1) ρ2) * (sb z1.2 z2.2) / (6) + (-1) * (((√2 : ℝ) : ℂ)) * ((c.e : ℂ)) ^ 2 * ((c.MW : ℂ)⁻¹) * ((c.SW : ℂ)⁻¹) * ((c.mass .d : ℂ)) ^ 2 * ((N.c 1)⁻¹) * (ab z0.1 ρ2) * (sb z1.2 z2.2) / (6) + (-1) * (((√2 : ℝ) : ℂ)) * ((c.e : ℂ)) ^ 2 * ((c.MW : ℂ)⁻¹) * ((c.SW : ℂ)⁻¹) * ((c.mass .d : ℂ)) ^ 2 * ((N.c 1)⁻¹) * (ab z1.1 ρ2) * (sb z0.2 z2.2) / (6)) * y0 + ((1) * (((√2 : ℝ) : ℂ)) * ((c.e : ℂ)) ^ 2 * ((c.MW : ℂ)⁻¹) * ((c.SW : ℂ)⁻¹) * ((c.mass .d : ℂ)) * ((N.c 0)⁻¹) * (ab z0.1 ρ2) * (mb z2.2 (p 0) z1.1) / (6) + (-1) * (((√2 : ℝ) : ℂ)) * ((c.e : ℂ)) ^ 2 * ((c.MW : ℂ)⁻¹) * ((c.SW : ℂ)⁻¹) * ((c.mass .d : ℂ)) * ((N.c 0)⁻¹) * (ab z2.1 ρ2) * (sb z0.2 z2.2) * (sb z1.2 z2.2) / (6) + (1) * (((√2 : ℝ) : ℂ)) * ((c.e : ℂ)) ^ 2 * ((c.MW : ℂ)⁻¹) * ((c.SW : ℂ)⁻¹) * ((c.mass .d : ℂ)) * ((N.c 0)⁻¹) * (mb z1.2 (p 0) ρ2) * (sb z0.2 z2.2) / (6) + (-1) * (((√2 : ℝ) : ℂ)) * ((c.e : ℂ)) ^ 2 * ((c.MW : ℂ)⁻¹) * ((c.SW : ℂ)⁻¹) * ((c.mass .d : ℂ)) ^ 2 * ((N.c 0)⁻¹) * (ab z0.1 ρ2) * (sb z1.2 z2.2) / (6) + (-1) * (((√2 : ℝ) : ℂ)) * ((c.e : ℂ)) ^ 2 * ((c.MW : ℂ)⁻¹) * ((c.SW : ℂ)⁻¹) * ((c.mass .d : ℂ)) ^ 2 * ((N.c 0)⁻¹) * (ab z1.1 ρ2) * (sb z0.2 z2.2) / (6)) * y1
theorem ddAh.keyM {c : Constants} {p : Nat → V4 ℝ} {N : Env} (hc : c.Physical) (hb : Balanced p) (r2 : N.r 2 = (c.mass .d)) (r3 : N.r 3 = c.MH) (r6 : N.r 6 = (((((√(((2 : Nat) : ℝ)) * c.e) * c.e) * ((-((1 : Nat) : ℝ)) / ((3 : Nat) : ℝ))) * (c.mass .d)) / ((((2 : Nat) : ℝ) * c.MW) * c.SW))) (d0 : ((msq (plus (p 0) (backward (p 2))) - c.mass .d ^ 2 : ℝ) : ℂ) = N.c 0) (n0 : N.c 0 ≠ 0) (d1 : ((msq (plus (p 0) (backward (p 3))) - c.mass .d ^ 2 : ℝ) : ℂ) = N.c 1) (n1 : N.c 1 ≠ 0) {z0 z1 z2 : Pair} (b0 : Bold (p 0) (c.mass .d) z0) (b1 : Bold (p 1) (c.mass .d) z1) (l2 : Light (p 2) z2) (e20 : mb z2.2 (p 0) z2.1 = -N.c 0) (e21 : mb z2.2 (p 1) z2.1 = -N.c 1) (q0 : msq (p 0) = (c.mass .d) ^ 2) (q1 : msq (p 1) = (c.mass .d) ^ 2) (q3 : msq (p 3) = c.MH ^ 2) (ρ2 : V2) (E3 : Vec) :
    ddAh.formM N p z0 z1 z2 * sb ρ2 z2.2 = ((√2 : ℝ) * (1 : ℂ)) * ddAh.react.bare c p 1 0 2 3 z1 z0 (pv z2.1 ρ2) E3 := by
  rw [ddAh.react.bare_parts c p (i := 1) (j := 0) (a := 2) (b := 3) (x := .photon) (y := .higgs) (k := (backward (p 2))) (k' := (backward (p 3))) (fun _ => rfl) (fun _ => rfl) (f := .d) (g := .d) rfl rfl (l := (p 0)) rfl (e := -1) (e' := 1) (if_pos rfl) (if_neg Bool.false_ne_true)]
  rw [compton_vh (f := .d) (x := .d) (g := .d) (h := (rfl : Spec.after .photon Flavour.d = some Flavour.d)) (h' := (rfl : Spec.after .higgs Flavour.d = some Flavour.d)) (ha := by simp)]
  rw [compton_hv (f := .d) (x := .d) (g := .d) (h := (rfl : Spec.after .higgs Flavour.d = some Flavour.d)) (h' := (rfl : Spec.after .photon Flavour.d = some Flavour.d)) (hb := by simp)]
  rw [annihilation_none c _ _ (by rfl) (by simp), star_zero, add_zero, ddAh.formM]
  simp only [d0, d1, lineV_pv, lineV_four, contract_four_pv, contract_pv, mb_plus, mb_backward]
  have i0 := mb_schouten_left z0.2 z2.2 ρ2 (p 0) z2.1
  have i1 := mb_schouten_left z0.2 z2.2 ρ2 (p 1) z2.1
  have i2 := mb_det z2.2 ρ2 (p 3) z0.1 z2.1
  rw [q3] at i2
  have i3 := mb_schouten_right ρ2 (p 0) z0.1 z1.1 z2.1
  have i4 := mb_schouten_right z2.2 (p 1) z0.1 z1.1 z2.1
  have i5 := mb_schouten_right ρ2 (p 1) z0.1 z1.1 z2.1
  have i6 := mb_schouten_left z0.2 z1.2 ρ2 (p 0) z2.1
  have i7 := mb_schouten_left z0.2 z1.2 z2.2 (p 0) z2.1
  have i8 := mb_schouten_left z0.2 z1.2 ρ2 (p 1) z2.1
  have i9 := mb_schouten_left z0.2 z1.2 z2.2 (p 1) z2.1
  have i10 := mb_schouten_left z1.2 z2.2 ρ2 (p 0) z2.1
  have i11 := chain_angle z0.2 z1.2 z2.1 (p 1) (p 3) z2.1
  simp only [l2.mb_eq, b0.mb_left, b0.mb_right, b1.mb_left, b1.mb_right, e20, e21, mb_three hb z0.2 z0.1, mb_three hb z0.2 z1.1, mb_three hb z0.2 z2.1, mb_three hb z1.2 z0.1, mb_three hb z1.2 z1.1, mb_three hb z1.2 z2.1, mb_three hb z2.2 z0.1, mb_three hb z2.2 z1.1, mb_three hb z2.2 z2.1, mb_three hb ρ2 z0.1, mb_three hb ρ2 z1.1, mb_three hb ρ2 z2.1, ab_self, sb_self] at i0 i1 i2 i3 i4 i5 i6 i7 i8 i9 i10 i11 ⊢
  simp only [ab_swap z0.1 z1.1, ab_swap z0.1 z2.1, ab_swap z1.1 z2.1, sb_swap z0.2 z1.2, sb_swap z0.2 z2.2, sb_swap z0.2 ρ2, sb_swap z1.2 z2.2, sb_swap z1.2 ρ2, sb_swap z2.2 ρ2] at i0 i1 i2 i3 i4 i5 i6 i7 i8 i9 i10 i11 ⊢
  simp only [r2, r3, r6, Constants.hL, Constants.hR, Constants.gL, Constants.gR, Constants.yuk, Constants.invVev, Flavour.charge_d, Flavour.isospin_d, ← c.mz]
  have xMW : (c.MW : ℂ) ≠ 0 := by exact_mod_cast hc.MW
  have xSW : (c.SW : ℂ) ≠ 0 := by exact_mod_cast hc.SW
  have xCW : (c.CW : ℂ) ≠ 0 := by exact_mod_cast hc.CW
  have x2 : ((√2 : ℝ) : ℂ) ≠ 0 := by exact_mod_cast (Real.sqrt_pos.2 two_pos).ne'
  have x22 : ((√2 : ℝ) : ℂ) ^ 2 = 2 := by rw [← Complex.ofReal_pow, Real.sq_sqrt two_pos.le]; norm_num
  have x23 : ((√2 : ℝ) : ℂ) ^ 3 = 2 * ((√2 : ℝ) : ℂ) := by rw [← x22]; ring
  have x24 : ((√2 : ℝ) : ℂ) ^ 4 = 4 := by linear_combination (((√2 : ℝ) : ℂ) ^ 2 + 2) * x22
  push_cast at i0 i1 i2 i3 i4 i5 i6 i7 i8 i9 i10 i11 ⊢
  have y0 := mul_inv_cancel₀ n0
  have y1 := mul_inv_cancel₀ n1
  linear_combination ((((1) * (((√2 : ℝ) : ℂ)) * ((c.e : ℂ)) ^ 2 * ((c.mass .d : ℂ)) * (mb z1.2 (p 0) z2.1) + (3) * (((√2 : ℝ) : ℂ)) * ((c.e : ℂ)) ^ 2 * ((c.mass .d : ℂ)) ^ 2 * (ab z1.1 z2.1)) * i0 + ((1) * (((√2 : ℝ) : ℂ)) * ((c.e : ℂ)) ^ 2 * ((c.mass .d : ℂ)) * (mb z1.2 (p 0) z2.1) + (1) * (((√2 : ℝ) : ℂ)) * ((c.e : ℂ)) ^ 2 * ((c.mass .d : ℂ)) ^ 2 * (ab z1.1 z2.1)) * i1 + ((-1) * (((√2 : ℝ) : ℂ)) * ((c.e : ℂ)) ^ 2 * ((c.mass .d : ℂ)) * (ab z1.1 z2.1)) * i2 + ((1) * (((√2 : ℝ) : ℂ)) * ((c.e : ℂ)) ^ 2 * ((c.mass .d : ℂ)) * (N.c 1)) * i3 + ((1) * (((√2 : ℝ) : ℂ)) * ((c.e : ℂ)) ^ 2 * ((c.mass .d : ℂ)) * (mb ρ2 (p 0) z2.1) + (1) * (((√2 : ℝ) : ℂ)) * ((c.e : ℂ)) ^ 2 * ((c.mass .d : ℂ)) * (mb ρ2 (p 1) z2.1)) * i4 + ((1) * (((√2 : ℝ) : ℂ)) * ((c.e : ℂ)) ^ 2 * ((c.mass .d : ℂ)) * (N.c 1)) * i5 + ((1) * (((√2 : ℝ) : ℂ)) * ((c.e : ℂ)) ^ 2 * ((c.mass .d : ℂ)) * (N.c 0) + (2) * (((√2 : ℝ) : ℂ)) * ((c.e : ℂ)) ^ 2 * ((c.mass .d : ℂ)) * (N.c 1)) * i6 + ((1) * (((√2 : ℝ) : ℂ)) * ((c.e : ℂ)) ^ 2 * ((c.mass .d : ℂ)) * (mb ρ2 (p 0) z2.1) + (1) * (((√2 : ℝ) : ℂ)) * ((c.e : ℂ)) ^ 2 * ((c.mass .d : ℂ)) * (mb ρ2 (p 1) z2.1)) * i7 + ((1) * (((√2 : ℝ) : ℂ)) * ((c.e : ℂ)) ^ 2 * ((c.mass .d : ℂ)) * (N.c 0)) * i8 + ((2) * (((√2 : ℝ) : ℂ)) * ((c.e : ℂ)) ^ 2 * ((c.mass .d : ℂ)) * (mb ρ2 (p 0) z2.1)) * i9 + ((-2) * (((√2 : ℝ) : ℂ)) * ((c.e : ℂ)) ^ 2 * ((c.mass .d : ℂ)) * (mb z0.2 (p 1) z2.1)) * i10 + ((1) * (((√2 : ℝ) : ℂ)) * ((c.e : ℂ)) ^ 2 * ((c.mass .d : ℂ)) * (sb z2.2 ρ2)) * i11)) * ((1) * ((c.MW : ℂ)⁻¹) * ((c.SW : ℂ)⁻¹) * ((N.c 0)⁻¹) * ((N.c 1)⁻¹) / (6)) + ((-1) * (((√2 : ℝ) : ℂ)) * ((c.e : ℂ)) ^ 2 * ((c.MW : ℂ)⁻¹) * ((c.SW : ℂ)⁻¹) * ((c.mass .d : ℂ)) * ((N.c 1)⁻¹) * (ab z0.1 z2.1) * (ab z1.1 z2.1) * (sb z2.2 ρ2) / (6) + (1) * (((√2 : ℝ) : ℂ)) * ((c.e : ℂ)) ^ 2 * ((c.MW : ℂ)⁻¹) * ((c.SW : ℂ)⁻¹) * ((c.mass .d : ℂ)) * ((N.c 1)⁻¹) * (ab z1.1 z2.1) * (mb ρ2 (p 1) z0.1) / (6) + (1) * (((√2 : ℝ) : ℂ)) * ((c.e : ℂ)) ^ 2 * ((c.MW : ℂ)⁻¹) * ((c.SW : ℂ)⁻¹) * ((c.mass .d : ℂ)) * ((N.c 1)⁻¹) * (mb z0.2 (p 1) z2.1) * (sb z1.2 ρ2) / (6) + (-1) * (((√2 : ℝ) : ℂ)) * ((c.e : ℂ)) ^ 2 * ((c.MW : ℂ)⁻¹) * ((c.SW : ℂ)⁻¹) * ((c.mass .d : ℂ)) ^ 2 * ((N.c 1)⁻¹) * (ab z0.1 z2.1) * (sb z1.2 ρ2) / (6) + (-1) * (((√2 : ℝ) : ℂ)) * ((c.e : ℂ)) ^ 2 * ((c.MW : ℂ)⁻¹) * ((c.SW : ℂ)⁻¹) * ((c.mass .d : ℂ)) ^ 2 * ((N.c 1)⁻¹) * (ab z1.1 z2.1) * (sb z0.2 ρ2) / (6)) * y0 + ((-1) * (((√2 : ℝ) : ℂ)) * ((c.e : ℂ)) ^ 2 * ((c.MW : ℂ)⁻¹) * ((c.SW : ℂ)⁻¹) * ((c.mass .d : ℂ)) * ((N.c 0)⁻¹) * (ab z0.1 z2.1) * (ab z1.1 z2.1) * (sb z2.2 ρ2) / (6) + (1) * (((√2 : ℝ) : ℂ)) * ((c.e : ℂ)) ^ 2 * ((c.MW : ℂ)⁻¹) * ((c.SW : ℂ)⁻¹) * ((c.mass .d : ℂ)) * ((N.c 0)⁻¹) * (ab z0.1 z2.1) * (mb ρ2 (p 0) z1.1) / (6) + (1) * (((√2 : ℝ) : ℂ)) * ((c.e : ℂ)) ^ 2 * ((c.MW : ℂ)⁻¹) * ((c.SW : ℂ)⁻¹) * ((c.mass .d : ℂ)) * ((N.c 0)⁻¹) * (mb z1.2 (p 0) z2.1) * (sb z0.2 ρ2) / (6) + (-1) * (((√2 : ℝ) : ℂ)) * ((c.e : ℂ)) ^ 2 * ((c.MW : ℂ)⁻¹) * ((c.SW : ℂ)⁻¹) * ((c.mass .d : ℂ)) ^ 2 * ((N.c 0)⁻¹) * (ab z0.1 z2.1) * (sb z1.2 ρ2) / (6) + (-1) * (((√2 : ℝ) : ℂ)) * ((c.e : ℂ)) ^ 2 * ((c.MW : ℂ)⁻¹) * ((c.SW : ℂ)⁻¹) * ((c.mass .d : ℂ)) ^ 2 * ((N.c 0)⁻¹) * (ab z1.1 z2.1) * (sb z0.2 ρ2) / (6)) * y1
set_option maxRecDepth 8000 in
theorem ddAh.amp2_eq (N : Env) (f : Nat → List Int → ℂ) : Cls.ddAh.m_amp2.mean N f .r [] =
    ((sumJ (fun x a => (sumJ (fun x b => (sumW (fun x c => (x + (((3 : Nat) : ℝ) * (‖(f 0 [a, b, c])‖ ^ 2)))) x)) x)) ((0 : Nat) : ℝ)) / ((36 : Nat) : ℝ)) := by rfl
set_option maxRecDepth 8000 in
theorem ddAh.value (N : Env) : meaning N .r Cls.ddAh.methods Cls.ddAh.amp2 [] =
    ((sumJ (fun x a => (sumJ (fun x b => (sumW (fun x c => (x + (((3 : Nat) : ℝ) * (‖(Cls.ddAh.m_amp.mean N (callMean N []) .c [a, b, c])‖ ^ 2)))) x)) x)) ((0 : Nat) : ℝ)) / ((36 : Nat) : ℝ)) :=
  ddAh.amp2_eq N (callMean N [Cls.ddAh.m_amp])
set_option maxRecDepth 8000 in
theorem ddAh.ampP (N : Env) (f : Nat → List Int → ℂ) (j1 j2 : Int) : Cls.ddAh.m_amp.mean N f .c [j1, j2, 2] = ddAh.termP N j1 j2 := by rfl
set_option maxRecDepth 8000 in
theorem ddAh.ampM (N : Env) (f : Nat → List Int → ℂ) (j1 j2 : Int) : Cls.ddAh.m_amp.mean N f .c [j1, j2, (-2)] = ddAh.termM N j1 j2 := by rfl

theorem ddAh.mass_eq {c : Constants} (hc : c.Physical) (i : Fin 4) : ddAh.proc.massNum (ddAh.rho c) i = ddAh.react.mass c i := by
  fin_cases i <;> first | rfl | exact Nat.cast_zero | exact Nat.cast_zero.trans (hc.neutrino _).symm | (show c.MW / √(((1 : Nat) : ℝ) - c.SW * c.SW) = c.MZ; rw [c.root, c.mz])

variable [FPEnv] in
theorem ddAh.agrees : ddAh.Agrees := by
  refine agrees_of (D := [3, 4]) (E := [4]) (by simp [all, ddAh]) (by decide +kernel) (by decide) (by decide +kernel) (fun c hc hh => ⟨List.forall_mem_cons.2 ⟨hc.MW, List.forall_mem_cons.2 ⟨hc.SW, List.forall_mem_nil _⟩⟩, List.forall_mem_cons.2 ⟨hc.SW_lt, List.forall_mem_nil _⟩⟩) (fun c hc i => ddAh.mass_eq hc i) (by decide +kernel) ?_
  intro c p u ε hc hh hw h0 hs hb hr hu
  have he : ddAh.react.ends = [1] := by decide
  have ht : ddAh.react.starts = [0] := by decide
  have hB : ddAh.react.bosons = [2, 3] := by decide
  obtain ⟨f1, f2, f3⟩ := ddAh.react.regular_line he ht hB hr
  have r2 : (ddAh.N c p).r 2 = (c.mass .d) := rfl
  have r3 : (ddAh.N c p).r 3 = c.MH := rfl
  have r6 : (ddAh.N c p).r 6 = (((((√(((2 : Nat) : ℝ)) * c.e) * c.e) * ((-((1 : Nat) : ℝ)) / ((3 : Nat) : ℝ))) * (c.mass .d)) / ((((2 : Nat) : ℝ) * c.MW) * c.SW)) := rfl
  have c0 : (ddAh.N c p).c 0 = poleDist (c.mass .d) ((0 : Nat) : ℝ) ((VExp.sub 0 2).sum p) := rfl
  rw [Nat.cast_zero, pole_fermion rfl] at c0
  have d0 : ((msq (plus (p 0) (backward (p 2))) - c.mass .d ^ 2 : ℝ) : ℂ) = (ddAh.N c p).c 0 := by rw [c0, msq_t hb (plus (p 0) (backward (p 2))) (by simp)]
  have n0 : (ddAh.N c p).c 0 ≠ 0 := by rw [← d0]; exact_mod_cast f1 .d rfl rfl
  have c1 : (ddAh.N c p).c 1 = poleDist (c.mass .d) ((0 : Nat) : ℝ) ((VExp.sub 0 3).sum p) := rfl
  rw [Nat.cast_zero, pole_fermion rfl] at c1
  have d1 : ((msq (plus (p 0) (backward (p 3))) - c.mass .d ^ 2 : ℝ) : ℂ) = (ddAh.N c p).c 1 := by rw [c1, msq_u hb (plus (p 0) (backward (p 3))) (by simp)]
  have n1 : (ddAh.N c p).c 1 ≠ 0 := by rw [← d1]; exact_mod_cast f2 .d rfl rfl
  obtain ⟨l2, x2, y2⟩ := ddAh.react.code_light hs hu (n := 2) rfl rfl
  have e20 := l2.pole_sub' (m := (c.mass .d)) (onShell_msq (hs 0)) (msq_t hb (plus (p 0) (backward (p 2))) (by simp)) c0
  have e21 := l2.pole_sub' (m := (c.mass .d)) (onShell_msq (hs 1)) (msq_u hb (plus (p 1) (backward (p 2))) (by simp)) c1
  have m0 : ddAh.react.mass c 0 ≠ 0 := (leg_pos hc hh (by decide)).ne'
  have m1 : ddAh.react.mass c 1 ≠ 0 := (leg_pos hc hh (by decide)).ne'
  have m2 : ddAh.react.mass c 2 = 0 := rfl
  have hd : ddAh.proc.divides = [(Ty.c, 0), (Ty.c, 1)] := by decide +kernel
  refine ⟨fun n hn => ?_, fun n hn => ?_, ?_⟩
  · simp [hd] at hn
  · simp [hd] at hn
    rcases hn with rfl | rfl
    · exact n0
    · exact n1
  have stP : ∀ {z0 z1 : Pair} (b0 : Bold (p 0) (ddAh.react.mass c 0) z0) (b1 : Bold (p 1) (ddAh.react.mass c 1) z1), ddAh.formP (ddAh.N c p) p z0 z1 (legA (p 2) 0 0, legS (p 2) 0 1) = 1 * ddAh.react.bare c p 1 0 2 3 z1 z0 (lightE (legA (p 2) 0 0, legS (p 2) 0 1) 1) (ddAh.react.codeVec c p 3 0) := by
    intro z0 z1 b0 b1
    exact (light_plus (z := (legA (p 2) 0 0, legS (p 2) 0 1)) (G := fun E => ddAh.react.bare c p 1 0 2 3 z1 z0 E (ddAh.react.codeVec c p 3 0)) (ddAh.react.bare_lin₁ c p _ _ _ (by decide)) x2 (ddAh.keyP hc hb r2 r3 r6 d0 n0 d1 n1 b0 b1 l2 e20 e21 (onShell_msq (hs 0)) (onShell_msq (hs 1)) (onShell_msq (hs 3)) _ (ddAh.react.codeVec c p 3 0)))
  have stM : ∀ {z0 z1 : Pair} (b0 : Bold (p 0) (ddAh.react.mass c 0) z0) (b1 : Bold (p 1) (ddAh.react.mass c 1) z1), ddAh.formM (ddAh.N c p) p z0 z1 (legA (p 2) 0 0, legS (p 2) 0 1) = 1 * ddAh.react.bare c p 1 0 2 3 z1 z0 (lightE (legA (p 2) 0 0, legS (p 2) 0 1) 0) (ddAh.react.codeVec c p 3 0) := by
    intro z0 z1 b0 b1
    exact (light_minus (z := (legA (p 2) 0 0, legS (p 2) 0 1)) (G := fun E => ddAh.react.bare c p 1 0 2 3 z1 z0 E (ddAh.react.codeVec c p 3 0)) (ddAh.react.bare_lin₁ c p _ _ _ (by decide)) y2 (ddAh.keyM hc hb r2 r3 r6 d0 n0 d1 n1 b0 b1 l2 e20 e21 (onShell_msq (hs 0)) (onShell_msq (hs 1)) (onShell_msq (hs 3)) _ (ddAh.react.codeVec c p 3 0)))
  have amP : ∀ (s0 : Fin 2) (s1 : Fin 2), Cls.ddAh.m_amp.mean (ddAh.N c p) (callMean (ddAh.N c p) []) .c [spinOf s0, spinOf s1, 2] = 1 * ddAh.react.bare c p 1 0 2 3 (ddAh.react.codePair c p 1 s1) (ddAh.react.codePair c p 0 s0) (lightE (legA (p 2) 0 0, legS (p 2) 0 1) 1) (ddAh.react.codeVec c p 3 0) := by
    intro s0 s1
    rw [ddAh.ampP, ← stP (ddAh.react.codePair_bold hs h0 0 s0) (ddAh.react.codePair_bold hs h0 1 s1)]
    have v0z0z2 : (ddAh.N c p).v 0 [spinOf s0] = sb (ddAh.react.codePair c p 0 s0).2 (legA (p 2) 0 0, legS (p 2) 0 1).2 := bra_square (p := p) (m := ddAh.proc.massNum (ddAh.rho c)) (ddAh.mass_eq hc 0) (ddAh.mass_eq hc 2) (.inl ⟨m0, rfl⟩) (.inr ⟨m2, rfl⟩)
    have v2z1z2 : (ddAh.N c p).v 2 [spinOf s1] = sb (ddAh.react.codePair c p 1 s1).2 (legA (p 2) 0 0, legS (p 2) 0 1).2 := bra_square (p := p) (m := ddAh.proc.massNum (ddAh.rho c)) (ddAh.mass_eq hc 1) (ddAh.mass_eq hc 2) (.inl ⟨m1, rfl⟩) (.inr ⟨m2, rfl⟩)
    have v6z2z1 : (ddAh.N c p).v 6 [spinOf s1] = mb (legA (p 2) 0 0, legS (p 2) 0 1).2 (p 3) (ddAh.react.codePair c p 1 s1).1 := bra_mid_square (p := p) (m := ddAh.proc.massNum (ddAh.rho c)) (ddAh.mass_eq hc 2) (ddAh.mass_eq hc 1) (.inr ⟨m2, rfl⟩) (.inl ⟨m1, rfl⟩)
    have v8z2z0 : (ddAh.N c p).v 8 [spinOf s0] = mb (legA (p 2) 0 0, legS (p 2) 0 1).2 (p 3) (ddAh.react.codePair c p 0 s0).1 := bra_mid_square (p := p) (m := ddAh.proc.massNum (ddAh.rho c)) (ddAh.mass_eq hc 2) (ddAh.mass_eq hc 0) (.inr ⟨m2, rfl⟩) (.inl ⟨m0, rfl⟩)
    have v5z0z1 : (ddAh.N c p).v 5 [spinOf s0, spinOf s1] = ab (ddAh.react.codePair c p 0 s0).1 (ddAh.react.codePair c p 1 s1).1 := bra_angle (p := p) (m := ddAh.proc.massNum (ddAh.rho c)) (ddAh.mass_eq hc 0) (ddAh.mass_eq hc 1) (.inl ⟨m0, rfl⟩) (.inl ⟨m1, rfl⟩)
    have v10z2z2 : (ddAh.N c p).v 10 [] = mb (legA (p 2) 0 0, legS (p 2) 0 1).2 (p 1) (slashLower (p 3) *ᵥ (legA (p 2) 0 0, legS (p 2) 0 1).2) := bra_two_square (p := p) (m := ddAh.proc.massNum (ddAh.rho c)) (ddAh.mass_eq hc 2) (ddAh.mass_eq hc 2) (.inr ⟨m2, rfl⟩) (.inr ⟨m2, rfl⟩)
    simp only [ddAh.termP, ddAh.formP, v0z0z2, v2z1z2, v6z2z1, v8z2z0, v5z0z1, v10z2z2]
  have amM : ∀ (s0 : Fin 2) (s1 : Fin 2), Cls.ddAh.m_amp.mean (ddAh.N c p) (callMean (ddAh.N c p) []) .c [spinOf s0, spinOf s1, (-2)] = 1 * ddAh.react.bare c p 1 0 2 3 (ddAh.react.codePair c p 1 s1) (ddAh.react.codePair c p 0 s0) (lightE (legA (p 2) 0 0, legS (p 2) 0 1) 0) (ddAh.react.codeVec c p 3 0) := by
    intro s0 s1
    rw [ddAh.ampM, ← stM (ddAh.react.codePair_bold hs h0 0 s0) (ddAh.react.codePair_bold hs h0 1 s1)]
    have v1z0z2 : (ddAh.N c p).v 1 [spinOf s0] = ab (ddAh.react.codePair c p 0 s0).1 (legA (p 2) 0 0, legS (p 2) 0 1).1 := bra_angle (p := p) (m := ddAh.proc.massNum (ddAh.rho c)) (ddAh.mass_eq hc 0) (ddAh.mass_eq hc 2) (.inl ⟨m0, rfl⟩) (.inr ⟨m2, rfl⟩)
    have v3z1z2 : (ddAh.N c p).v 3 [spinOf s1] = ab (ddAh.react.codePair c p 1 s1).1 (legA (p 2) 0 0, legS (p 2) 0 1).1 := bra_angle (p := p) (m := ddAh.proc.massNum (ddAh.rho c)) (ddAh.mass_eq hc 1) (ddAh.mass_eq hc 2) (.inl ⟨m1, rfl⟩) (.inr ⟨m2, rfl⟩)
    have v7z2z1 : (ddAh.N c p).v 7 [spinOf s1] = mb (ddAh.react.codePair c p 1 s1).2 (p 3) (legA (p 2) 0 0, legS (p 2) 0 1).1 := bra_mid_angle (p := p) (m := ddAh.proc.massNum (ddAh.rho c)) (ddAh.mass_eq hc 2) (ddAh.mass_eq hc 1) (.inr ⟨m2, rfl⟩) (.inl ⟨m1, rfl⟩)
    have v9z2z0 : (ddAh.N c p).v 9 [spinOf s0] = mb (ddAh.react.codePair c p 0 s0).2 (p 3) (legA (p 2) 0 0, legS (p 2) 0 1).1 := bra_mid_angle (p := p) (m := ddAh.proc.massNum (ddAh.rho c)) (ddAh.mass_eq hc 2) (ddAh.mass_eq hc 0) (.inr ⟨m2, rfl⟩) (.inl ⟨m0, rfl⟩)
    have v4z0z1 : (ddAh.N c p).v 4 [spinOf s0, spinOf s1] = sb (ddAh.react.codePair c p 0 s0).2 (ddAh.react.codePair c p 1 s1).2 := bra_square (p := p) (m := ddAh.proc.massNum (ddAh.rho c)) (ddAh.mass_eq hc 0) (ddAh.mass_eq hc 1) (.inl ⟨m0, rfl⟩) (.inl ⟨m1, rfl⟩)
    have v11z2z2 : (ddAh.N c p).v 11 [] = mb (slashUpper (p 3) *ᵥ (legA (p 2) 0 0, legS (p 2) 0 1).1) (p 1) (legA (p 2) 0 0, legS (p 2) 0 1).1 := bra_two_angle (p := p) (m := ddAh.proc.massNum (ddAh.rho c)) (ddAh.mass_eq hc 2) (ddAh.mass_eq hc 2) (.inr ⟨m2, rfl⟩) (.inr ⟨m2, rfl⟩)
    simp only [ddAh.termM, ddAh.formM, v1z0z2, v3z1z2, v7z2z1, v9z2z0, v4z0z1, v11z2z2]
  have am : ∀ (s0 : Fin 2) (s1 : Fin 2) (h2 : Fin 2), ‖Cls.ddAh.m_amp.mean (ddAh.N c p) (callMean (ddAh.N c p) []) .c [spinOf s0, spinOf s1, spinW h2]‖ = ‖ddAh.react.bare c p 1 0 2 3 (ddAh.react.codePair c p 1 s1) (ddAh.react.codePair c p 0 s0) (lightE (legA (p 2) 0 0, legS (p 2) 0 1) h2.castSucc) (ddAh.react.codeVec c p 3 0)‖ := by
    intro s0 s1 h2
    match h2 with
    | 1 => exact norm_plus (amP s0 s1)
    | 0 => exact norm_plus (amM s0 s1)
  show meaning (ddAh.N c p) .r Cls.ddAh.methods Cls.ddAh.amp2 [] = _
  have s0 : ddAh.react.states 0 = 6 := by decide +kernel
  have s1 : ddAh.react.states 1 = 6 := by decide +kernel
  have sy : ddAh.react.symmetry = 1 := by decide
  have p0 : ddAh.react.spins 0 = {0, 1} := rfl
  have p1 : ddAh.react.spins 1 = {0, 1} := rfl
  have p2 : ddAh.react.spins 2 = {0, 1} := rfl
  have p3 : ddAh.react.spins 3 = {0} := rfl
  have E2 : ddAh.react.codeE c p 2 = lightE (legA (p 2) 0 0, legS (p 2) 0 1) := rfl
  have E3 : ddAh.react.codeE c p 3 = ddAh.react.codeVec c p 3 := rfl
  have hG : ddAh.react.Gauge c p := (ddAh.react.gauge_line he ht hB hh (by decide) (fun n => onShell_msq (hs n)) hb hr (fun n m h h2 => absurd (And.intro h h2) (by revert n m; decide)) (fun _ => ⟨rfl, rfl⟩) (fun h => absurd h (by decide)))
  have lc : ddAh.react.lineColours 1 0 = 3 := by decide +kernel
  rw [ddAh.value, ddAh.react.squared_line he ht hB (by decide) hs h0 (fun _ b _ hb _ => (boson_pos hc hh hb).ne') hG (E := ddAh.react.codeE c p) (fun n b hl => ddAh.react.codeE_polarised hs h0 hu (fun b hb => (boson_pos hc hh hb).ne') n b hl) hu, sum_colours, lc, s0, s1, sy]
  simp only [sumV_sum, sumJ_sum, sumW_sum, am, p0, p1, p2, p3, E2, E3, Finset.sum_singleton, sum_two, Matrix.cons_val_zero, Matrix.cons_val_one, Matrix.cons_val, two_castSucc]
  try simp only [← Finset.mul_sum]
  push_cast
  first | ring1 | ring_nf

/-! ### uAuh -/

/-- what the methods of the class see -/
noncomputable abbrev uAuh.N [FPEnv] (c : Constants) (p : Nat → V4 ℝ) : Env := uAuh.proc.env (uAuh.rho c) p
/-- `amp` for a photon of positive helicity (SM/uAuh.cpp) -/
noncomputable def uAuh.termP (N : Env) (j1 j3 : Int) : ℂ :=
  (((((N.r 6 : ℝ) : ℂ) * ((((((((N.r 3 * N.r 3) : ℝ) : ℂ) * N.v 0 [j1]) * N.v 2 [j3]) - ((((N.r 2 : ℝ) : ℂ) * N.v 0 [j1]) * N.v 6 [j3])) - ((((N.r 2 : ℝ) : ℂ) * N.v 2 [j3]) * N.v 8 [j1])) + (N.v 5 [j1, j3] * N.v 10 []))) / N.c 0) / N.c 1)
/-- the same with spinors in place of their spins -/
noncomputable def uAuh.formP (N : Env) (p : Nat → V4 ℝ) (z0 z1 z2 : Pair) : ℂ :=
  (((((N.r 6 : ℝ) : ℂ) * ((((((((N.r 3 * N.r 3) : ℝ) : ℂ) * (sb z0.2 z1.2)) * (sb z1.2 z2.2)) - ((((N.r 2 : ℝ) : ℂ) * (sb z0.2 z1.2)) * (mb z1.2 (p 3) z2.1))) - ((((N.r 2 : ℝ) : ℂ) * (sb z1.2 z2.2)) * (mb z1.2 (p 3) z0.1))) + ((ab z0.1 z2.1) * (mb z1.2 (p 2) (slashLower (p 3) *ᵥ z1.2))))) / N.c 0) / N.c 1)
/-- `amp` for a photon of negative helicity (SM/uAuh.cpp) -/
noncomputable def uAuh.termM (N : Env) (j1 j3 : Int) : ℂ :=
  (((((N.r 6 : ℝ) : ℂ) * (((((((((-N.r 3) * N.r 3) : ℝ) : ℂ) * N.v 1 [j1]) * N.v 3 [j3]) + ((((N.r 2 : ℝ) : ℂ) * N.v 1 [j1]) * N.v 7 [j3])) + ((((N.r 2 : ℝ) : ℂ) * N.v 3 [j3]) * N.v 9 [j1])) - (N.v 4 [j1, j3] * N.v 11 []))) / N.c 0) / N.c 1)
/-- the same with spinors in place of their spins -/
noncomputable def uAuh.formM (N : Env) (p : Nat → V4 ℝ) (z0 z1 z2 : Pair) : ℂ :=
  (((((N.r 6 : ℝ) : ℂ) * (((((((((-N.r 3) * N.r 3) : ℝ) : ℂ) * (ab z0.1 z1.1)) * (ab z1.1 z2.1)) + ((((N.r 2 : ℝ) : ℂ) * (ab z0.1 z1.1)) * (mb z2.2 (p 3) z1.1))) + ((((N.r 2 : ℝ) : ℂ) * (ab z1.1 z2.1)) * (mb z0.2 (p 3) z1.1))) - ((sb z0.2 z2.2) * (mb (slashUpper (p 3) *ᵥ z1.1) (p 2) z1.1)))) / N.c 0) / N.c 1)
theorem uAuh.keyP {c : Constants} {p : Nat → V4 ℝ} {N : Env} (hc : c.Physical) (hb : Balanced p) (r2 : N.r 2 = (c.mass .u)) (r3 : N.r 3 = c.MH) (r6 : N.r 6 = (((((√(((2 : Nat) : ℝ)) * c.e) * c.e) * (((2 : Nat) : ℝ) / ((3 : Nat) : ℝ))) * (c.mass .u)) / ((((2 : Nat) : ℝ) * c.MW) * c.SW))) (d0 : ((msq (plus (p 0) (p 1)) - c.mass .u ^ 2 : ℝ) : ℂ) = N.c 0) (n0 : N.c 0 ≠ 0) (d1 : ((msq (plus (p 0) (backward (p 3))) - c.mass .u ^ 2 : ℝ) : ℂ) = N.c 1) (n1 : N.c 1 ≠ 0) {z0 z1 z2 : Pair} (b0 : Bold (p 0) (c.mass .u) z0) (b2 : Bold (p 2) (c.mass .u) z2) (l1 : Light (p 1) z1) (e10 : mb z1.2 (p 0) z1.1 = N.c 0) (e12 : mb z1.2 (p 2) z1.1 = -N.c 1) (q0 : msq (p 0) = (c.mass .u) ^ 2) (q2 : msq (p 2) = (c.mass .u) ^ 2) (q3 : msq (p 3) = c.MH ^ 2) (ρ1 : V2) (E3 : Vec) :
    uAuh.formP N p z0 z1 z2 * ab ρ1 z1.1 = ((√2 : ℝ) * (1 : ℂ)) * uAuh.react.bare c p 2 0 1 3 z2 z0 (pv ρ1 z1.2) E3 := by
  rw [uAuh.react.bare_parts c p (i := 2) (j := 0) (a := 1) (b := 3) (x := .photon) (y := .higgs) (k := (p 1)) (k' := (backward (p 3))) (fun _ => rfl) (fun _ => rfl) (f := .u) (g := .u) rfl rfl (l := (p 0)) rfl (e := 1) (e' := 1) (if_neg Bool.false_ne_true) (if_neg Bool.false_ne_true)]
  rw [compton_vh (f := .u) (x := .u) (g := .u) (h := (rfl : Spec.after .photon Flavour.u = some Flavour.u)) (h' := (rfl : Spec.after .higgs Flavour.u = some Flavour.u)) (ha := by simp)]
  rw [compton_hv (f := .u) (x := .u) (g := .u) (h := (rfl : Spec.after .higgs Flavour.u = some Flavour.u)) (h' := (rfl : Spec.after .photon Flavour.u = some Flavour.u)) (hb := by simp)]
  rw [annihilation_none c _ _ (by rfl) (by simp), star_zero, add_zero, uAuh.formP]
  simp only [d0, d1, lineV_pv, lineV_four, contract_four_pv, contract_pv, mb_plus, mb_backward]
  have i0 := mb_schouten_right z1.2 (p 0) z0.1 z1.1 ρ1
  have i1 := mb_schouten_right z1.2 (p 0) z0.1 z1.1 z2.1
  have i2 := mb_schouten_right z1.2 (p 0) z0.1 z2.1 ρ1
  have i3 := mb_schouten_left z0.2 z1.2 z2.2 (p 2) z1.1
  have i4 := mb_det z0.2 z1.2 (p 3) z1.1 ρ1
  rw [q3] at i4
  have i5 := mb_schouten_right z1.2 (p 2) z0.1 z1.1 z2.1
  have i6 := mb_schouten_right z1.2 (p 0) z1.1 z2.1 ρ1
  have i7 := mb_schouten_right z1.2 (p 2) z0.1 z1.1 ρ1
  have i8 := mb_schouten_right z1.2 (p 2) z0.1 z2.1 ρ1
  have i9 := chain_square z0.1 z2.1 z1.2 (p 2) (p 3) z1.2
  have i10 := mb_schouten_left z0.2 z1.2 z2.2 (p 0) ρ1
  have i11 := mb_schouten_left z0.2 z1.2 z2.2 (p 2) ρ1
  simp only [l1.mb_eq, b0.mb_left, b0.mb_right, b2.mb_left, b2.mb_right, e10, e12, mb_three hb z0.2 z0.1, mb_three hb z0.2 z1.1, mb_three hb z0.2 z2.1, mb_three hb z0.2 ρ1, mb_three hb z1.2 z0.1, mb_three hb z1.2 z1.1, mb_three hb z1.2 z2.1, mb_three hb z1.2 ρ1, mb_three hb z2.2 z0.1, mb_three hb z2.2 z1.1, mb_three hb z2.2 z2.1, mb_three hb z2.2 ρ1, ab_self, sb_self] at i0 i1 i2 i3 i4 i5 i6 i7 i8 i9 i10 i11 ⊢
  simp only [ab_swap z0.1 z1.1, ab_swap z0.1 z2.1, ab_swap z0.1 ρ1, ab_swap z1.1 z2.1, ab_swap z1.1 ρ1, ab_swap z2.1 ρ1, sb_swap z0.2 z1.2, sb_swap z0.2 z2.2, sb_swap z1.2 z2.2] at i0 i1 i2 i3 i4 i5 i6 i7 i8 i9 i10 i11 ⊢
  simp only [r2, r3, r6, Constants.hL, Constants.hR, Constants.gL, Constants.gR, Constants.yuk, Constants.invVev, Flavour.charge_u, Flavour.isospin_u, ← c.mz]
  have xMW : (c.MW : ℂ) ≠ 0 := by exact_mod_cast hc.MW
  have xSW : (c.SW : ℂ) ≠ 0 := by exact_mod_cast hc.SW
  have xCW : (c.CW : ℂ) ≠ 0 := by exact_mod_cast hc.CW
  have x2 : ((√2 : ℝ) : ℂ) ≠ 0 := by exact_mod_cast (Real.sqrt_pos.2 two_pos).ne'
  have x22 : ((√2 : ℝ) : ℂ) ^ 2 = 2 := by rw [← Complex.ofReal_pow, Real.sq_sqrt two_pos.le]; norm_num
  have x23 : ((√2 : ℝ) : ℂ) ^ 3 = 2 * ((√2 : ℝ) : ℂ) := by rw [← x22]; ring
  have x24 : ((√2 : ℝ) : ℂ) ^ 4 = 4 := by linear_combination (((√2 : ℝ) : ℂ) ^ 2 + 2) * x22
  push_cast at i0 i1 i2 i3 i4 i5 i6 i7 i8 i9 i10 i11 ⊢
  have y0 := mul_inv_cancel₀ n0
  have y1 := mul_inv_cancel₀ n1
  linear_combination ((((1) * (((√2 : ℝ) : ℂ)) * ((c.e : ℂ)) ^ 2 * ((c.mass .u : ℂ)) * (mb z1.2 (p 0) z2.1) + (3) * (((√2 : ℝ) : ℂ)) * ((c.e : ℂ)) ^ 2 * ((c.mass .u : ℂ)) ^ 2 * (sb z1.2 z2.2)) * i0 + ((-1) * (((√2 : ℝ) : ℂ)) * ((c.e : ℂ)) ^ 2 * ((c.mass .u : ℂ)) * (mb z1.2 (p 0) ρ1) + (1) * (((√2 : ℝ) : ℂ)) * ((c.e : ℂ)) ^ 2 * ((c.mass .u : ℂ)) * (mb z1.2 (p 2) ρ1)) * i1 + ((-1) * (((√2 : ℝ) : ℂ)) * ((c.e : ℂ)) ^ 2 * ((c.mass .u : ℂ)) * (N.c 0) + (-2) * (((√2 : ℝ) : ℂ)) * ((c.e : ℂ)) ^ 2 * ((c.mass .u : ℂ)) * (N.c 1)) * i2 + ((-1) * (((√2 : ℝ) : ℂ)) * ((c.e : ℂ)) ^ 2 * ((c.mass .u : ℂ)) * (mb z1.2 (p 0) ρ1) + (1) * (((√2 : ℝ) : ℂ)) * ((c.e : ℂ)) ^ 2 * ((c.mass .u : ℂ)) * (mb z1.2 (p 2) ρ1)) * i3 + ((-1) * (((√2 : ℝ) : ℂ)) * ((c.e : ℂ)) ^ 2 * ((c.mass .u : ℂ)) * (sb z1.2 z2.2)) * i4 + ((2) * (((√2 : ℝ) : ℂ)) * ((c.e : ℂ)) ^ 2 * ((c.mass .u : ℂ)) * (mb z1.2 (p 0) ρ1)) * i5 + ((-2) * (((√2 : ℝ) : ℂ)) * ((c.e : ℂ)) ^ 2 * ((c.mass .u : ℂ)) * (mb z1.2 (p 2) z0.1)) * i6 + ((-1) * (((√2 : ℝ) : ℂ)) * ((c.e : ℂ)) ^ 2 * ((c.mass .u : ℂ)) * (mb z1.2 (p 0) z2.1) + (-1) * (((√2 : ℝ) : ℂ)) * ((c.e : ℂ)) ^ 2 * ((c.mass .u : ℂ)) ^ 2 * (sb z1.2 z2.2)) * i7 + ((1) * (((√2 : ℝ) : ℂ)) * ((c.e : ℂ)) ^ 2 * ((c.mass .u : ℂ)) * (N.c 0)) * i8 + ((-1) * (((√2 : ℝ) : ℂ)) * ((c.e : ℂ)) ^ 2 * ((c.mass .u : ℂ)) * (ab z1.1 ρ1)) * i9 + ((-1) * (((√2 : ℝ) : ℂ)) * ((c.e : ℂ)) ^ 2 * ((c.mass .u : ℂ)) * (N.c 1)) * i10 + ((1) * (((√2 : ℝ) : ℂ)) * ((c.e : ℂ)) ^ 2 * ((c.mass .u : ℂ)) * (N.c 1)) * i11)) * ((1) * ((c.MW : ℂ)⁻¹) * ((c.SW : ℂ)⁻¹) * ((N.c 0)⁻¹) * ((N.c 1)⁻¹) / (3)) + ((-1) * (((√2 : ℝ) : ℂ)) * ((c.e : ℂ)) ^ 2 * ((c.MW : ℂ)⁻¹) * ((c.SW : ℂ)⁻¹) * ((c.mass .u : ℂ)) * ((N.c 1)⁻¹) * (ab z1.1 ρ1) * (sb z0.2 z1.2) * (sb z1.2 z2.2) / (3) + (1) * (((√2 : ℝ) : ℂ)) * ((c.e : ℂ)) ^ 2 * ((c.MW : ℂ)⁻¹) * ((c.SW : ℂ)⁻¹) * ((c.mass .u : ℂ)) * ((N.c 1)⁻¹) * (ab z2.1 ρ1) * (mb z1.2 (p 2) z0.1) / (3) + (1) * (((√2 : ℝ) : ℂ)) * ((c.e : ℂ)) ^ 2 * ((c.MW : ℂ)⁻¹) * ((c.SW : ℂ)⁻¹) * ((c.mass .u : ℂ)) * ((N.c 1)⁻¹) * (mb z0.2 (p 2) ρ1) * (sb z1.2 z2.2) / (3) + (1) * (((√2 : ℝ) : ℂ)) * ((c.e : ℂ)) ^ 2 * ((c.MW : ℂ)⁻¹) * ((c.SW : ℂ)⁻¹) * ((c.mass .u : ℂ)) ^ 2 * ((N.c 1)⁻¹) * (ab z0.1 ρ1) * (sb z1.2 z2.2) / (3) + (1) * (((√2 : ℝ) : ℂ)) * ((c.e : ℂ)) ^ 2 * ((c.MW : ℂ)⁻¹) * ((c.SW : ℂ)⁻¹) * ((c.mass .u : ℂ)) ^ 2 * ((N.c 1)⁻¹) * (ab z2.1 ρ1) * (sb z0.2 z1.2) / (3)) * y0 + ((-1) * (((√2 : ℝ) : ℂ)) * ((c.e : ℂ)) ^ 2 * ((c.MW : ℂ)⁻¹) * ((c.SW : ℂ)⁻¹) * ((c.mass .u : ℂ)) * ((N.c 0)⁻¹) * (ab z0.1 ρ1) * (mb z1.2 (p 0) z2.1) / (3) + (-1) * (((√2 : ℝ) : ℂ)) * ((c.e : ℂ)) ^ 2 * ((c.MW : ℂ)⁻¹) * ((c.SW : ℂ)⁻¹) * ((c.mass .u : ℂ)) * ((N.c 0)⁻¹) * (ab z1.1 ρ1) * (sb z0.2 z1.2) * (sb z1.2 z2.2) / (3) + (1) * (((√2 : ℝ) : ℂ)) * ((c.e : ℂ)) ^ 2 * ((c.MW : ℂ)⁻¹) * ((c.SW : ℂ)⁻¹) * ((c.mass .u : ℂ)) * ((N.c 0)⁻¹) * (mb z2.2 (p 0) ρ1) * (sb z0.2 z1.2) / (3) + (1) * (((√2 : ℝ) : ℂ)) * ((c.e : ℂ)) ^ 2 * ((c.MW : ℂ)⁻¹) * ((c.SW : ℂ)⁻¹) * ((c.mass .u : ℂ)) ^ 2 * ((N.c 0)⁻¹) * (ab z0.1 ρ1) * (sb z1.2 z2.2) / (3) + (1) * (((√2 : ℝ) : ℂ)) * ((c.e : ℂ)) ^ 2 * ((c.MW : ℂ)⁻¹) * ((c.SW : ℂ)⁻¹) * ((c.mass .u : ℂ)) ^ 2 * ((N.c 0)⁻¹) * (ab z2.1 ρ1) * (sb z0.2 z1.2) / (3)) * y1
theorem uAuh.keyM {c : Constants} {p : Nat → V4 ℝ} {N : Env} (hc : c.Physical) (hb : Balanced p) (r2 : N.r 2 = (c.mass .u)) (r3 : N.r 3 = c.MH) (r6 : N.r 6 = (((((√(((2 : Nat) : ℝ)) * c.e) * c.e) * (((2 : Nat) : ℝ) / ((3 : Nat) : ℝ))) * (c.mass .u)) / ((((2 : Nat) : ℝ) * c.MW) * c.SW))) (d0 : ((msq (plus (p 0) (p 1)) - c.mass .u ^ 2 : ℝ) : ℂ) = N.c 0) (n0 : N.c 0 ≠ 0) (d1 : ((msq (plus (p 0) (backward (p 3))) - c.mass .u ^ 2 : ℝ) : ℂ) = N.c 1) (n1 : N.c 1 ≠ 0) {z0 z1 z2 : Pair} (b0 : Bold (p 0) (c.mass .u) z0) (b2 : Bold (p 2) (c.mass .u) z2) (l1 : Light (p 1) z1) (e10 : mb z1.2 (p 0) z1.1 = N.c 0) (e12 : mb z1.2 (p 2) z1.1 = -N.c 1) (q0 : msq (p 0) = (c.mass .u) ^ 2) (q2 : msq (p 2) = (c.mass .u) ^ 2) (q3 : msq (p 3) = c.MH ^ 2) (ρ1 : V2) (E3 : Vec) :
    uAuh.formM N p z0 z1 z2 * sb ρ1 z1.2 = ((√2 : ℝ) * (1 : ℂ)) * uAuh.react.bare c p 2 0 1 3 z2 z0 (pv z1.1 ρ1) E3 := by
  rw [uAuh.react.bare_parts c p (i := 2) (j := 0) (a := 1) (b := 3) (x := .photon) (y := .higgs) (k := (p 1)) (k' := (backward (p 3))) (fun _ => rfl) (fun _ => rfl) (f := .u) (g := .u) rfl rfl (l := (p 0)) rfl (e := 1) (e' := 1) (if_neg Bool.false_ne_true) (if_neg Bool.false_ne_true)]
  rw [compton_vh (f := .u) (x := .u) (g := .u) (h := (rfl : Spec.after .photon Flavour.u = some Flavour.u)) (h' := (rfl : Spec.after .higgs Flavour.u = some Flavour.u)) (ha := by simp)]
  rw [compton_hv (f := .u) (x := .u) (g := .u) (h := (rfl : Spec.after .higgs Flavour.u = some Flavour.u)) (h' := (rfl : Spec.after .photon Flavour.u = some Flavour.u)) (hb := by simp)]
  rw [annihilation_none c _ _ (by rfl) (by simp), star_zero, add_zero, uAuh.formM]
  simp only [d0, d1, lineV_pv, lineV_four, contract_four_pv, contract_pv, mb_plus, mb_backward]
  have i0 := mb_schouten_left z0.2 z1.2 ρ1 (p 0) z1.1
  have i1 := mb_schouten_left z0.2 z1.2 z2.2 (p 0) z1.1
  have i2 := mb_schouten_right z1.2 (p 2) z0.1 z1.1 z2.1
  have i3 := mb_schouten_left z0.2 z2.2 ρ1 (p 0) z1.1
  have i4 := mb_det z1.2 ρ1 (p 3) z0.1 z1.1
  rw [q3] at i4
  have i5 := mb_schouten_left z0.2 z1.2 z2.2 (p 2) z1.1
  have i6 := mb_schouten_left z1.2 z2.2 ρ1 (p 0) z1.1
  have i7 := mb_schouten_left z0.2 z1.2 ρ1 (p 2) z1.1
  have i8 := mb_schouten_left z0.2 z2.2 ρ1 (p 2) z1.1
  have i9 := mb_schouten_right ρ1 (p 0) z0.1 z1.1 z2.1
  have i10 := chain_angle z0.2 z2.2 z1.1 (p 2) (p 3) z1.1
  have i11 := mb_schouten_right ρ1 (p 2) z0.1 z1.1 z2.1
  simp only [l1.mb_eq, b0.mb_left, b0.mb_right, b2.mb_left, b2.mb_right, e10, e12, mb_three hb z0.2 z0.1, mb_three hb z0.2 z1.1, mb_three hb z0.2 z2.1, mb_three hb z1.2 z0.1, mb_three hb z1.2 z1.1, mb_three hb z1.2 z2.1, mb_three hb z2.2 z0.1, mb_three hb z2.2 z1.1, mb_three hb z2.2 z2.1, mb_three hb ρ1 z0.1, mb_three hb ρ1 z1.1, mb_three hb ρ1 z2.1, ab_self, sb_self] at i0 i1 i2 i3 i4 i5 i6 i7 i8 i9 i10 i11 ⊢
  simp only [ab_swap z0.1 z1.1, ab_swap z0.1 z2.1, ab_swap z1.1 z2.1, sb_swap z0.2 z1.2, sb_swap z0.2 z2.2, sb_swap z0.2 ρ1, sb_swap z1.2 z2.2, sb_swap z1.2 ρ1, sb_swap z2.2 ρ1] at i0 i1 i2 i3 i4 i5 i6 i7 i8 i9 i10 i11 ⊢
  simp only [r2, r3, r6, Constants.hL, Constants.hR, Constants.gL, Constants.gR, Constants.yuk, Constants.invVev, Flavour.charge_u, Flavour.isospin_u, ← c.mz]
  have xMW : (c.MW : ℂ) ≠ 0 := by exact_mod_cast hc.MW
  have xSW : (c.SW : ℂ) ≠ 0 := by exact_mod_cast hc.SW
  have xCW : (c.CW : ℂ) ≠ 0 := by exact_mod_cast hc.CW
  have x2 : ((√2 : ℝ) : ℂ) ≠ 0 := by exact_mod_cast (Real.sqrt_pos.2 two_pos).ne'
  have x22 : ((√2 : ℝ) : ℂ) ^ 2 = 2 := by rw [← Complex.ofReal_pow, Real.sq_sqrt two_pos.le]; norm_num
  have x23 : ((√2 : ℝ) : ℂ) ^ 3 = 2 * ((√2 : ℝ) : ℂ) := by rw [← x22]; ring
  have x24 : ((√2 : ℝ) : ℂ) ^ 4 = 4 := by linear_combination (((√2 : ℝ) : ℂ) ^ 2 + 2) * x22
  push_cast at i0 i1 i2 i3 i4 i5 i6 i7 i8 i9 i10 i11 ⊢
  have y0 := mul_inv_cancel₀ n0
  have y1 := mul_inv_cancel₀ n1
  linear_combination ((((-1) * (((√2 : ℝ) : ℂ)) * ((c.e : ℂ)) ^ 2 * ((c.mass .u : ℂ)) * (mb z2.2 (p 0) z1.1) + (-3) * (((√2 : ℝ) : ℂ)) * ((c.e : ℂ)) ^ 2 * ((c.mass .u : ℂ)) ^ 2 * (ab z1.1 z2.1)) * i0 + ((1) * (((√2 : ℝ) : ℂ)) * ((c.e : ℂ)) ^ 2 * ((c.mass .u : ℂ)) * (mb ρ1 (p 0) z1.1) + (-1) * (((√2 : ℝ) : ℂ)) * ((c.e : ℂ)) ^ 2 * ((c.mass .u : ℂ)) * (mb ρ1 (p 2) z1.1)) * i1 + ((1) * (((√2 : ℝ) : ℂ)) * ((c.e : ℂ)) ^ 2 * ((c.mass .u : ℂ)) * (mb ρ1 (p 0) z1.1) + (-1) * (((√2 : ℝ) : ℂ)) * ((c.e : ℂ)) ^ 2 * ((c.mass .u : ℂ)) * (mb ρ1 (p 2) z1.1)) * i2 + ((1) * (((√2 : ℝ) : ℂ)) * ((c.e : ℂ)) ^ 2 * ((c.mass .u : ℂ)) * (N.c 0) + (2) * (((√2 : ℝ) : ℂ)) * ((c.e : ℂ)) ^ 2 * ((c.mass .u : ℂ)) * (N.c 1)) * i3 + ((1) * (((√2 : ℝ) : ℂ)) * ((c.e : ℂ)) ^ 2 * ((c.mass .u : ℂ)) * (ab z1.1 z2.1)) * i4 + ((-2) * (((√2 : ℝ) : ℂ)) * ((c.e : ℂ)) ^ 2 * ((c.mass .u : ℂ)) * (mb ρ1 (p 0) z1.1)) * i5 + ((2) * (((√2 : ℝ) : ℂ)) * ((c.e : ℂ)) ^ 2 * ((c.mass .u : ℂ)) * (mb z0.2 (p 2) z1.1)) * i6 + ((1) * (((√2 : ℝ) : ℂ)) * ((c.e : ℂ)) ^ 2 * ((c.mass .u : ℂ)) * (mb z2.2 (p 0) z1.1) + (1) * (((√2 : ℝ) : ℂ)) * ((c.e : ℂ)) ^ 2 * ((c.mass .u : ℂ)) ^ 2 * (ab z1.1 z2.1)) * i7 + ((-1) * (((√2 : ℝ) : ℂ)) * ((c.e : ℂ)) ^ 2 * ((c.mass .u : ℂ)) * (N.c 0)) * i8 + ((1) * (((√2 : ℝ) : ℂ)) * ((c.e : ℂ)) ^ 2 * ((c.mass .u : ℂ)) * (N.c 1)) * i9 + ((1) * (((√2 : ℝ) : ℂ)) * ((c.e : ℂ)) ^ 2 * ((c.mass .u : ℂ)) * (sb z1.2 ρ1)) * i10 + ((-1) * (((√2 : ℝ) : ℂ)) * ((c.e : ℂ)) ^ 2 * ((c.mass .u : ℂ)) * (N.c 1)) * i11)) * ((1) * ((c.MW : ℂ)⁻¹) * ((c.SW : ℂ)⁻¹) * ((N.c 0)⁻¹) * ((N.c 1)⁻¹) / (3)) + ((1) * (((√2 : ℝ) : ℂ)) * ((c.e : ℂ)) ^ 2 * ((c.MW : ℂ)⁻¹) * ((c.SW : ℂ)⁻¹) * ((c.mass .u : ℂ)) * ((N.c 1)⁻¹) * (ab z0.1 z1.1) * (ab z1.1 z2.1) * (sb z1.2 ρ1) / (3) + (-1) * (((√2 : ℝ) : ℂ)) * ((c.e : ℂ)) ^ 2 * ((c.MW : ℂ)⁻¹) * ((c.SW : ℂ)⁻¹) * ((c.mass .u : ℂ)) * ((N.c 1)⁻¹) * (ab z1.1 z2.1) * (mb ρ1 (p 2) z0.1) / (3) + (-1) * (((√2 : ℝ) : ℂ)) * ((c.e : ℂ)) ^ 2 * ((c.MW : ℂ)⁻¹) * ((c.SW : ℂ)⁻¹) * ((c.mass .u : ℂ)) * ((N.c 1)⁻¹) * (mb z0.2 (p 2) z1.1) * (sb z2.2 ρ1) / (3) + (-1) * (((√2 : ℝ) : ℂ)) * ((c.e : ℂ)) ^ 2 * ((c.MW : ℂ)⁻¹) * ((c.SW : ℂ)⁻¹) * ((c.mass .u : ℂ)) ^ 2 * ((N.c 1)⁻¹) * (ab z0.1 z1.1) * (sb z2.2 ρ1) / (3) + (-1) * (((√2 : ℝ) : ℂ)) * ((c.e : ℂ)) ^ 2 * ((c.MW : ℂ)⁻¹) * ((c.SW : ℂ)⁻¹) * ((c.mass .u : ℂ)) ^ 2 * ((N.c 1)⁻¹) * (ab z1.1 z2.1) * (sb z0.2 ρ1) / (3)) * y0 + ((1) * (((√2 : ℝ) : ℂ)) * ((c.e : ℂ)) ^ 2 * ((c.MW : ℂ)⁻¹) * ((c.SW : ℂ)⁻¹) * ((c.mass .u : ℂ)) * ((N.c 0)⁻¹) * (ab z0.1 z1.1) * (ab z1.1 z2.1) * (sb z1.2 ρ1) / (3) + (-1) * (((√2 : ℝ) : ℂ)) * ((c.e : ℂ)) ^ 2 * ((c.MW : ℂ)⁻¹) * ((c.SW : ℂ)⁻¹) * ((c.mass .u : ℂ)) * ((N.c 0)⁻¹) * (ab z0.1 z1.1) * (mb ρ1 (p 0) z2.1) / (3) + (1) * (((√2 : ℝ) : ℂ)) * ((c.e : ℂ)) ^ 2 * ((c.MW : ℂ)⁻¹) * ((c.SW : ℂ)⁻¹) * ((c.mass .u : ℂ)) * ((N.c 0)⁻¹) * (mb z2.2 (p 0) z1.1) * (sb z0.2 ρ1) / (3) + (-1) * (((√2 : ℝ) : ℂ)) * ((c.e : ℂ)) ^ 2 * ((c.MW : ℂ)⁻¹) * ((c.SW : ℂ)⁻¹) * ((c.mass .u : ℂ)) ^ 2 * ((N.c 0)⁻¹) * (ab z0.1 z1.1) * (sb z2.2 ρ1) / (3) + (-1) * (((√2 : ℝ) : ℂ)) * ((c.e : ℂ)) ^ 2 * ((c.MW : ℂ)⁻¹) * ((c.SW : ℂ)⁻¹) * ((c.mass .u : ℂ)) ^ 2 * ((N.c 0)⁻¹) * (ab z1.1 z2.1) * (sb z0.2 ρ1) / (3)) * y1
set_option maxRecDepth 8000 in
theorem uAuh.amp2_eq (N : Env) (f : Nat → List Int → ℂ) : Cls.uAuh.m_amp2.mean N f .r [] =
    ((sumJ (fun x a => (sumW (fun x b => (sumJ (fun x c => (x + (((3 : Nat) : ℝ) * (‖(f 0 [a, b, c])‖ ^ 2)))) x)) x)) ((0 : Nat) : ℝ)) / ((12 : Nat) : ℝ)) := by rfl
set_option maxRecDepth 8000 in
theorem uAuh.value (N : Env) : meaning N .r Cls.uAuh.methods Cls.uAuh.amp2 [] =
    ((sumJ (fun x a => (sumW (fun x b => (sumJ (fun x c => (x + (((3 : Nat) : ℝ) * (‖(Cls.uAuh.m_amp.mean N (callMean N []) .c [a, b, c])‖ ^ 2)))) x)) x)) ((0 : Nat) : ℝ)) / ((12 : Nat) : ℝ)) :=
  uAuh.amp2_eq N (callMean N [Cls.uAuh.m_amp])
set_option maxRecDepth 8000 in
theorem uAuh.ampP (N : Env) (f : Nat → List Int → ℂ) (j1 j3 : Int) : Cls.uAuh.m_amp.mean N f .c [j1, 2, j3] = uAuh.termP N j1 j3 := by rfl
set_option maxRecDepth 8000 in
theorem uAuh.ampM (N : Env) (f : Nat → List Int → ℂ) (j1 j3 : Int) : Cls.uAuh.m_amp.mean N f .c [j1, (-2), j3] = uAuh.termM N j1 j3 := by rfl

theorem uAuh.mass_eq {c : Constants} (hc : c.Physical) (i : Fin 4) : uAuh.proc.massNum (uAuh.rho c) i = uAuh.react.mass c i := by
  fin_cases i <;> first | rfl | exact Nat.cast_zero | exact Nat.cast_zero.trans (hc.neutrino _).symm | (show c.MW / √(((1 : Nat) : ℝ) - c.SW * c.SW) = c.MZ; rw [c.root, c.mz])

variable [FPEnv] in
theorem uAuh.amps {c : Constants} {p : Nat → V4 ℝ} {u : Fin 4 → Fin 3 → Spinor} {ε : Fin 4 → Fin 3 → Vec} (hc : c.Physical) (hh : c.Heavy) (h0 : ∀ i, 0 ≤ uAuh.react.mass c i) (hs : ∀ i : Fin 4, OnShell (p i) (uAuh.react.mass c i)) (hb : Balanced p) (hr : uAuh.react.Regular c p) (hu : ∀ i, uAuh.react.Complete c p i (u i) (ε i)) :
    (uAuh.N c p).c 0 ≠ 0 ∧ (uAuh.N c p).c 1 ≠ 0 ∧ (∀ n, (Ty.r, n) ∈ uAuh.proc.divides → (uAuh.N c p).r n ≠ 0) ∧ (∀ n, (Ty.c, n) ∈ uAuh.proc.divides → (uAuh.N c p).c n ≠ 0) ∧ ∀ (s0 : Fin 2) (s2 : Fin 2) (h1 : Fin 2), ‖Cls.uAuh.m_amp.mean (uAuh.N c p) (callMean (uAuh.N c p) []) .c [spinOf s0, spinW h1, spinOf s2]‖ = ‖uAuh.react.bare c p 2 0 1 3 (uAuh.react.codePair c p 2 s2) (uAuh.react.codePair c p 0 s0) (lightE (legA (p 1) 0 0, legS (p 1) 0 1) h1.castSucc) (uAuh.react.codeVec c p 3 0)‖ := by
  have he : uAuh.react.ends = [2] := by decide
  have ht : uAuh.react.starts = [0] := by decide
  have hB : uAuh.react.bosons = [1, 3] := by decide
  obtain ⟨f1, f2, f3⟩ := uAuh.react.regular_line he ht hB hr
  have r2 : (uAuh.N c p).r 2 = (c.mass .u) := rfl
  have r3 : (uAuh.N c p).r 3 = c.MH := rfl
  have r6 : (uAuh.N c p).r 6 = (((((√(((2 : Nat) : ℝ)) * c.e) * c.e) * (((2 : Nat) : ℝ) / ((3 : Nat) : ℝ))) * (c.mass .u)) / ((((2 : Nat) : ℝ) * c.MW) * c.SW)) := rfl
  have c0 : (uAuh.N c p).c 0 = poleDist (c.mass .u) ((0 : Nat) : ℝ) ((VExp.add 0 1).sum p) := rfl
  rw [Nat.cast_zero, pole_fermion rfl] at c0
  have d0 : ((msq (plus (p 0) (p 1)) - c.mass .u ^ 2 : ℝ) : ℂ) = (uAuh.N c p).c 0 := by rw [c0, msq_s hb (plus (p 0) (p 1)) (by simp)]
  have n0 : (uAuh.N c p).c 0 ≠ 0 := by rw [← d0]; exact_mod_cast f1 .u rfl rfl
  have c1 : (uAuh.N c p).c 1 = poleDist (c.mass .u) ((0 : Nat) : ℝ) ((VExp.sub 0 3).sum p) := rfl
  rw [Nat.cast_zero, pole_fermion rfl] at c1
  have d1 : ((msq (plus (p 0) (backward (p 3))) - c.mass .u ^ 2 : ℝ) : ℂ) = (uAuh.N c p).c 1 := by rw [c1, msq_u hb (plus (p 0) (backward (p 3))) (by simp)]
  have n1 : (uAuh.N c p).c 1 ≠ 0 := by rw [← d1]; exact_mod_cast f2 .u rfl rfl
  obtain ⟨l1, x1, y1⟩ := uAuh.react.code_light hs hu (n := 1) rfl rfl
  have e10 := l1.pole_add (m := (c.mass .u)) (onShell_msq (hs 0)) (msq_s hb (plus (p 1) (p 0)) (by simp)) c0
  have e12 := l1.pole_sub (m := (c.mass .u)) (onShell_msq (hs 2)) (msq_u hb (plus (p 1) (backward (p 2))) (by simp)) c1
  have m0 : uAuh.react.mass c 0 ≠ 0 := (leg_pos hc hh (by decide)).ne'
  have m2 : uAuh.react.mass c 2 ≠ 0 := (leg_pos hc hh (by decide)).ne'
  have m1 : uAuh.react.mass c 1 = 0 := rfl
  have hd : uAuh.proc.divides = [(Ty.c, 0), (Ty.c, 1)] := by decide +kernel
  have stP : ∀ {z0 z2 : Pair} (b0 : Bold (p 0) (uAuh.react.mass c 0) z0) (b2 : Bold (p 2) (uAuh.react.mass c 2) z2), uAuh.formP (uAuh.N c p) p z0 (legA (p 1) 0 0, legS (p 1) 0 1) z2 = 1 * uAuh.react.bare c p 2 0 1 3 z2 z0 (lightE (legA (p 1) 0 0, legS (p 1) 0 1) 1) (uAuh.react.codeVec c p 3 0) := by
    intro z0 z2 b0 b2
    exact (light_plus (z := (legA (p 1) 0 0, legS (p 1) 0 1)) (G := fun E => uAuh.react.bare c p 2 0 1 3 z2 z0 E (uAuh.react.codeVec c p 3 0)) (uAuh.react.bare_lin₁ c p _ _ _ (by decide)) x1 (uAuh.keyP hc hb r2 r3 r6 d0 n0 d1 n1 b0 b2 l1 e10 e12 (onShell_msq (hs 0)) (onShell_msq (hs 2)) (onShell_msq (hs 3)) _ (uAuh.react.codeVec c p 3 0)))
  have stM : ∀ {z0 z2 : Pair} (b0 : Bold (p 0) (uAuh.react.mass c 0) z0) (b2 : Bold (p 2) (uAuh.react.mass c 2) z2), uAuh.formM (uAuh.N c p) p z0 (legA (p 1) 0 0, legS (p 1) 0 1) z2 = 1 * uAuh.react.bare c p 2 0 1 3 z2 z0 (lightE (legA (p 1) 0 0, legS (p 1) 0 1) 0) (uAuh.react.codeVec c p 3 0) := by
    intro z0 z2 b0 b2
    exact (light_minus (z := (legA (p 1) 0 0, legS (p 1) 0 1)) (G := fun E => uAuh.react.bare c p 2 0 1 3 z2 z0 E (uAuh.react.codeVec c p 3 0)) (uAuh.react.bare_lin₁ c p _ _ _ (by decide)) y1 (uAuh.keyM hc hb r2 r3 r6 d0 n0 d1 n1 b0 b2 l1 e10 e12 (onShell_msq (hs 0)) (onShell_msq (hs 2)) (onShell_msq (hs 3)) _ (uAuh.react.codeVec c p 3 0)))
  have amP : ∀ (s0 : Fin 2) (s2 : Fin 2), Cls.uAuh.m_amp.mean (uAuh.N c p) (callMean (uAuh.N c p) []) .c [spinOf s0, 2, spinOf s2] = 1 * uAuh.react.bare c p 2 0 1 3 (uAuh.react.codePair c p 2 s2) (uAuh.react.codePair c p 0 s0) (lightE (legA (p 1) 0 0, legS (p 1) 0 1) 1) (uAuh.react.codeVec c p 3 0) := by
    intro s0 s2
    rw [uAuh.ampP, ← stP (uAuh.react.codePair_bold hs h0 0 s0) (uAuh.react.codePair_bold hs h0 2 s2)]
    have v0z0z1 : (uAuh.N c p).v 0 [spinOf s0] = sb (uAuh.react.codePair c p 0 s0).2 (legA (p 1) 0 0, legS (p 1) 0 1).2 := bra_square (p := p) (m := uAuh.proc.massNum (uAuh.rho c)) (uAuh.mass_eq hc 0) (uAuh.mass_eq hc 1) (.inl ⟨m0, rfl⟩) (.inr ⟨m1, rfl⟩)
    have v2z1z2 : (uAuh.N c p).v 2 [spinOf s2] = sb (legA (p 1) 0 0, legS (p 1) 0 1).2 (uAuh.react.codePair c p 2 s2).2 := bra_square (p := p) (m := uAuh.proc.massNum (uAuh.rho c)) (uAuh.mass_eq hc 1) (uAuh.mass_eq hc 2) (.inr ⟨m1, rfl⟩) (.inl ⟨m2, rfl⟩)
    have v6z1z2 : (uAuh.N c p).v 6 [spinOf s2] = mb (legA (p 1) 0 0, legS (p 1) 0 1).2 (p 3) (uAuh.react.codePair c p 2 s2).1 := bra_mid_square (p := p) (m := uAuh.proc.massNum (uAuh.rho c)) (uAuh.mass_eq hc 1) (uAuh.mass_eq hc 2) (.inr ⟨m1, rfl⟩) (.inl ⟨m2, rfl⟩)
    have v8z1z0 : (uAuh.N c p).v 8 [spinOf s0] = mb (legA (p 1) 0 0, legS (p 1) 0 1).2 (p 3) (uAuh.react.codePair c p 0 s0).1 := bra_mid_square (p := p) (m := uAuh.proc.massNum (uAuh.rho c)) (uAuh.mass_eq hc 1) (uAuh.mass_eq hc 0) (.inr ⟨m1, rfl⟩) (.inl ⟨m0, rfl⟩)
    have v5z0z2 : (uAuh.N c p).v 5 [spinOf s0, spinOf s2] = ab (uAuh.react.codePair c p 0 s0).1 (uAuh.react.codePair c p 2 s2).1 := bra_angle (p := p) (m := uAuh.proc.massNum (uAuh.rho c)) (uAuh.mass_eq hc 0) (uAuh.mass_eq hc 2) (.inl ⟨m0, rfl⟩) (.inl ⟨m2, rfl⟩)
    have v10z1z1 : (uAuh.N c p).v 10 [] = mb (legA (p 1) 0 0, legS (p 1) 0 1).2 (p 2) (slashLower (p 3) *ᵥ (legA (p 1) 0 0, legS (p 1) 0 1).2) := bra_two_square (p := p) (m := uAuh.proc.massNum (uAuh.rho c)) (uAuh.mass_eq hc 1) (uAuh.mass_eq hc 1) (.inr ⟨m1, rfl⟩) (.inr ⟨m1, rfl⟩)
    simp only [uAuh.termP, uAuh.formP, v0z0z1, v2z1z2, v6z1z2, v8z1z0, v5z0z2, v10z1z1]
  have amM : ∀ (s0 : Fin 2) (s2 : Fin 2), Cls.uAuh.m_amp.mean (uAuh.N c p) (callMean (uAuh.N c p) []) .c [spinOf s0, (-2), spinOf s2] = 1 * uAuh.react.bare c p 2 0 1 3 (uAuh.react.codePair c p 2 s2) (uAuh.react.codePair c p 0 s0) (lightE (legA (p 1) 0 0, legS (p 1) 0 1) 0) (uAuh.react.codeVec c p 3 0) := by
    intro s0 s2
    rw [uAuh.ampM, ← stM (uAuh.react.codePair_bold hs h0 0 s0) (uAuh.react.codePair_bold hs h0 2 s2)]
    have v1z0z1 : (uAuh.N c p).v 1 [spinOf s0] = ab (uAuh.react.codePair c p 0 s0).1 (legA (p 1) 0 0, legS (p 1) 0 1).1 := bra_angle (p := p) (m := uAuh.proc.massNum (uAuh.rho c)) (uAuh.mass_eq hc 0) (uAuh.mass_eq hc 1) (.inl ⟨m0, rfl⟩) (.inr ⟨m1, rfl⟩)
    have v3z1z2 : (uAuh.N c p).v 3 [spinOf s2] = ab (legA (p 1) 0 0, legS (p 1) 0 1).1 (uAuh.react.codePair c p 2 s2).1 := bra_angle (p := p) (m := uAuh.proc.massNum (uAuh.rho c)) (uAuh.mass_eq hc 1) (uAuh.mass_eq hc 2) (.inr ⟨m1, rfl⟩) (.inl ⟨m2, rfl⟩)
    have v7z1z2 : (uAuh.N c p).v 7 [spinOf s2] = mb (uAuh.react.codePair c p 2 s2).2 (p 3) (legA (p 1) 0 0, legS (p 1) 0 1).1 := bra_mid_angle (p := p) (m := uAuh.proc.massNum (uAuh.rho c)) (uAuh.mass_eq hc 1) (uAuh.mass_eq hc 2) (.inr ⟨m1, rfl⟩) (.inl ⟨m2, rfl⟩)
    have v9z1z0 : (uAuh.N c p).v 9 [spinOf s0] = mb (uAuh.react.codePair c p 0 s0).2 (p 3) (legA (p 1) 0 0, legS (p 1) 0 1).1 := bra_mid_angle (p := p) (m := uAuh.proc.massNum (uAuh.rho c)) (uAuh.mass_eq hc 1) (uAuh.mass_eq hc 0) (.inr ⟨m1, rfl⟩) (.inl ⟨m0, rfl⟩)
    have v4z0z2 : (uAuh.N c p).v 4 [spinOf s0, spinOf s2] = sb (uAuh.react.codePair c p 0 s0).2 (uAuh.react.codePair c p 2 s2).2 := bra_square (p := p) (m := uAuh.proc.massNum (uAuh.rho c)) (uAuh.mass_eq hc 0) (uAuh.mass_eq hc 2) (.inl ⟨m0, rfl⟩) (.inl ⟨m2, rfl⟩)
    have v11z1z1 : (uAuh.N c p).v 11 [] = mb (slashUpper (p 3) *ᵥ (legA (p 1) 0 0, legS (p 1) 0 1).1) (p 2) (legA (p 1) 0 0, legS (p 1) 0 1).1 := bra_two_angle (p := p) (m := uAuh.proc.massNum (uAuh.rho c)) (uAuh.mass_eq hc 1) (uAuh.mass_eq hc 1) (.inr ⟨m1, rfl⟩) (.inr ⟨m1, rfl⟩)
    simp only [uAuh.termM, uAuh.formM, v1z0z1, v3z1z2, v7z1z2, v9z1z0, v4z0z2, v11z1z1]
  refine ⟨n0, n1, fun n hn => ?_, fun n hn => ?_, ?_⟩
  · simp [hd] at hn
  · simp [hd] at hn
    rcases hn with rfl | rfl
    · exact n0
    · exact n1
  intro s0 s2 h1
  match h1 with
  | 1 => exact norm_plus (amP s0 s2)
  | 0 => exact norm_plus (amM s0 s2)

variable [FPEnv] in
theorem uAuh.agrees : uAuh.Agrees := by
  refine agrees_of (D := [3, 4]) (E := [4]) (by simp [all, uAuh]) (by decide +kernel) (by decide) (by decide +kernel) (fun c hc hh => ⟨List.forall_mem_cons.2 ⟨hc.MW, List.forall_mem_cons.2 ⟨hc.SW, List.forall_mem_nil _⟩⟩, List.forall_mem_cons.2 ⟨hc.SW_lt, List.forall_mem_nil _⟩⟩) (fun c hc i => uAuh.mass_eq hc i) (by decide +kernel) ?_
  intro c p u ε hc hh hw h0 hs hb hr hu
  have he : uAuh.react.ends = [2] := by decide
  have ht : uAuh.react.starts = [0] := by decide
  have hB : uAuh.react.bosons = [1, 3] := by decide
  obtain ⟨n0, n1, d1, d2, am⟩ := uAuh.amps hc hh h0 hs hb hr hu
  refine ⟨d1, d2, ?_⟩
  show meaning (uAuh.N c p) .r Cls.uAuh.methods Cls.uAuh.amp2 [] = _
  have s0 : uAuh.react.states 0 = 6 := by decide +kernel
  have s1 : uAuh.react.states 1 = 2 := by decide +kernel
  have sy : uAuh.react.symmetry = 1 := by decide
  have p0 : uAuh.react.spins 0 = {0, 1} := rfl
  have p1 : uAuh.react.spins 1 = {0, 1} := rfl
  have p2 : uAuh.react.spins 2 = {0, 1} := rfl
  have p3 : uAuh.react.spins 3 = {0} := rfl
  have E1 : uAuh.react.codeE c p 1 = lightE (legA (p 1) 0 0, legS (p 1) 0 1) := rfl
  have E3 : uAuh.react.codeE c p 3 = uAuh.react.codeVec c p 3 := rfl
  have hG : uAuh.react.Gauge c p := (uAuh.react.gauge_line he ht hB hh (by decide) (fun n => onShell_msq (hs n)) hb hr (fun n m h h2 => absurd (And.intro h h2) (by revert n m; decide)) (fun _ => ⟨rfl, rfl⟩) (fun h => absurd h (by decide)))
  have lc : uAuh.react.lineColours 2 0 = 3 := by decide +kernel
  rw [uAuh.value, uAuh.react.squared_line he ht hB (by decide) hs h0 (fun _ b _ hb _ => (boson_pos hc hh hb).ne') hG (E := uAuh.react.codeE c p) (fun n b hl => uAuh.react.codeE_polarised hs h0 hu (fun b hb => (boson_pos hc hh hb).ne') n b hl) hu, sum_colours, lc, s0, s1, sy]
  simp only [sumV_sum, sumJ_sum, sumW_sum, am, p0, p1, p2, p3, E1, E3, Finset.sum_singleton, sum_two, Matrix.cons_val_zero, Matrix.cons_val_one, Matrix.cons_val, two_castSucc]
  try simp only [← Finset.mul_sum]
  push_cast
  first | ring1 | ring_nf

/-! ### dAdh -/

/-- what the methods of the class see -/
noncomputable abbrev dAdh.N [FPEnv] (c : Constants) (p : Nat → V4 ℝ) : Env := dAdh.proc.env (dAdh.rho c) p
/-- `amp` for a photon of positive helicity (SM/dAdh.cpp) -/
noncomputable def dAdh.termP (N : Env) (j1 j3 : Int) : ℂ :=
  (((((N.r 6 : ℝ) : ℂ) * ((((((((N.r 3 * N.r 3) : ℝ) : ℂ) * N.v 0 [j1]) * N.v 2 [j3]) - ((((N.r 2 : ℝ) : ℂ) * N.v 0 [j1]) * N.v 6 [j3])) - ((((N.r 2 : ℝ) : ℂ) * N.v 2 [j3]) * N.v 8 [j1])) + (N.v 5 [j1, j3] * N.v 10 []))) / N.c 0) / N.c 1)
/-- the same with spinors in place of their spins -/
noncomputable def dAdh.formP (N : Env) (p : Nat → V4 ℝ) (z0 z1 z2 : Pair) : ℂ :=
  (((((N.r 6 : ℝ) : ℂ) * ((((((((N.r 3 * N.r 3) : ℝ) : ℂ) * (sb z0.2 z1.2)) * (sb z1.2 z2.2)) - ((((N.r 2 : ℝ) : ℂ) * (sb z0.2 z1.2)) * (mb z1.2 (p 3) z2.1))) - ((((N.r 2 : ℝ) : ℂ) * (sb z1.2 z2.2)) * (mb z1.2 (p 3) z0.1))) + ((ab z0.1 z2.1) * (mb z1.2 (p 2) (slashLower (p 3) *ᵥ z1.2))))) / N.c 0) / N.c 1)
/-- `amp` for a photon of negative helicity (SM/dAdh.cpp) -/
noncomputable def dAdh.termM (N : Env) (j1 j3 : Int) : ℂ :=
  (((((N.r 6 : ℝ) : ℂ) * (((((((((-N.r 3) * N.r 3) : ℝ) : ℂ) * N.v 1 [j1]) * N.v 3 [j3]) + ((((N.r 2 : ℝ) : ℂ) * N.v 1 [j1]) * N.v 7 [j3])) + ((((N.r 2 : ℝ) : ℂ) * N.v 3 [j3]) * N.v 9 [j1])) - (N.v 4 [j1, j3] * N.v 11 []))) / N.c 0) / N.c 1)
/-- the same with spinors in place of their spins -/
noncomputable def dAdh.formM (N : Env) (p : Nat → V4 ℝ) (z0 z1 z2 : Pair) : ℂ :=
  (((((N.r 6 : ℝ) : ℂ) * (((((((((-N.r 3) * N.r 3) : ℝ) : ℂ) * (ab z0.1 z1.1)) * (ab z1.1 z2.1)) + ((((N.r 2 : ℝ) : ℂ) * (ab z0.1 z1.1)) * (mb z2.2 (p 3) z1.1))) + ((((N.r 2 : ℝ) : ℂ) * (ab z1.1 z2.1)) * (mb z0.2 (p 3) z1.1))) - ((sb z0.2 z2.2) * (mb (slashUpper (p 3) *ᵥ z1.1) (p 2) z1.1)))) / N.c 0) / N.c 1)
theorem dAdh.keyP {c : Constants} {p : Nat → V4 ℝ} {N : Env} (hc : c.Physical) (hb : Balanced p) (r2 : N.r 2 = (c.mass .d)) (r3 : N.r 3 = c.MH) (r6 : N.r 6 = (((((√(((2 : Nat) : ℝ)) * c.e) * c.e) * ((-((1 : Nat) : ℝ)) / ((3 : Nat) : ℝ))) * (c.mass .d)) / ((((2 : Nat) : ℝ) * c.MW) * c.SW))) (d0 : ((msq (plus (p 0) (p 1)) - c.mass .d ^ 2 : ℝ) : ℂ) = N.c 0) (n0 : N.c 0 ≠ 0) (d1 : ((msq (plus (p 0) (backward (p 3))) - c.mass .d ^ 2 : ℝ) : ℂ) = N.c 1) (n1 : N.c 1 ≠ 0) {z0 z1 z2 : Pair} (b0 : Bold (p 0) (c.mass .d) z0) (b2 : Bold (p 2) (c.mass .d) z2) (l1 : Light (p 1) z1) (e10 : mb z1.2 (p 0) z1.1 = N.c 0) (e12 : mb z1.2 (p 2) z1.1 = -N.c 1) (q0 : msq (p 0) = (c.mass .d) ^ 2) (q2 : msq (p 2) = (c.mass .d) ^ 2) (q3 : msq (p 3) = c.MH ^ 2) (ρ1 : V2) (E3 : Vec) :
    dAdh.formP N p z0 z1 z2 * ab ρ1 z1.1 = ((√2 : ℝ) * (1 : ℂ)) * dAdh.react.bare c p 2 0 1 3 z2 z0 (pv ρ1 z1.2) E3 := by
  rw [dAdh.react.bare_parts c p (i := 2) (j := 0) (a := 1) (b := 3) (x := .photon) (y := .higgs) (k := (p 1)) (k' := (backward (p 3))) (fun _ => rfl) (fun _ => rfl) (f := .d) (g := .d) rfl rfl (l := (p 0)) rfl (e := 1) (e' := 1) (if_neg Bool.false_ne_true) (if_neg Bool.false_ne_true)]
  rw [compton_vh (f := .d) (x := .d) (g := .d) (h := (rfl : Spec.after .photon Flavour.d = some Flavour.d)) (h' := (rfl : Spec.after .higgs Flavour.d = some Flavour.d)) (ha := by simp)]
  rw [compton_hv (f := .d) (x := .d) (g := .d) (h := (rfl : Spec.after .higgs Flavour.d = some Flavour.d)) (h' := (rfl : Spec.after .photon Flavour.d = some Flavour.d)) (hb := by simp)]
  rw [annihilation_none c _ _ (by rfl) (by simp), star_zero, add_zero, dAdh.formP]
  simp only [d0, d1, lineV_pv, lineV_four, contract_four_pv, contract_pv, mb_plus, mb_backward]
  have i0 := mb_schouten_right z1.2 (p 0) z0.1 z1.1 ρ1
  have i1 := mb_schouten_right z1.2 (p 0) z0.1 z1.1 z2.1
  have i2 := mb_schouten_right z1.2 (p 0) z0.1 z2.1 ρ1
  have i3 := mb_schouten_left z0.2 z1.2 z2.2 (p 2) z1.1
  have i4 := mb_det z0.2 z1.2 (p 3) z1.1 ρ1
  rw [q3] at i4
  have i5 := mb_schouten_right z1.2 (p 2) z0.1 z1.1 z2.1
  have i6 := mb_schouten_right z1.2 (p 0) z1.1 z2.1 ρ1
  have i7 := mb_schouten_right z1.2 (p 2) z0.1 z1.1 ρ1
  have i8 := mb_schouten_right z1.2 (p 2) z0.1 z2.1 ρ1
  have i9 := chain_square z0.1 z2.1 z1.2 (p 2) (p 3) z1.2
  have i10 := mb_schouten_left z0.2 z1.2 z2.2 (p 0) ρ1
  have i11 := mb_schouten_left z0.2 z1.2 z2.2 (p 2) ρ1
  simp only [l1.mb_eq, b0.mb_left, b0.mb_right, b2.mb_left, b2.mb_right, e10, e12, mb_three hb z0.2 z0.1, mb_three hb z0.2 z1.1, mb_three hb z0.2 z2.1, mb_three hb z0.2 ρ1, mb_three hb z1.2 z0.1, mb_three hb z1.2 z1.1, mb_three hb z1.2 z2.1, mb_three hb z1.2 ρ1, mb_three hb z2.2 z0.1, mb_three hb z2.2 z1.1, mb_three hb z2.2 z2.1, mb_three hb z2.2 ρ1, ab_self, sb_self] at i0 i1 i2 i3 i4 i5 i6 i7 i8 i9 i10 i11 ⊢
  simp only [ab_swap z0.1 z1.1, ab_swap z0.1 z2.1, ab_swap z0.1 ρ1, ab_swap z1.1 z2.1, ab_swap z1.1 ρ1, ab_swap z2.1 ρ1, sb_swap z0.2 z1.2, sb_swap z0.2 z2.2, sb_swap z1.2 z2.2] at i0 i1 i2 i3 i4 i5 i6 i7 i8 i9 i10 i11 ⊢
  simp only [r2, r3, r6, Constants.hL, Constants.hR, Constants.gL, Constants.gR, Constants.yuk, Constants.invVev, Flavour.charge_d, Flavour.isospin_d, ← c.mz]
  have xMW : (c.MW : ℂ) ≠ 0 := by exact_mod_cast hc.MW
  have xSW : (c.SW : ℂ) ≠ 0 := by exact_mod_cast hc.SW
  have xCW : (c.CW : ℂ) ≠ 0 := by exact_mod_cast hc.CW
  have x2 : ((√2 : ℝ) : ℂ) ≠ 0 := by exact_mod_cast (Real.sqrt_pos.2 two_pos).ne'
  have x22 : ((√2 : ℝ) : ℂ) ^ 2 = 2 := by rw [← Complex.ofReal_pow, Real.sq_sqrt two_pos.le]; norm_num
  have x23 : ((√2 : ℝ) : ℂ) ^ 3 = 2 * ((√2 : ℝ) : ℂ) := by rw [← x22]; ring
  have x24 : ((√2 : ℝ) : ℂ) ^ 4 = 4 := by linear_combination (((√2 : ℝ) : ℂ) ^ 2 + 2) * x22
  push_cast at i0 i1 i2 i3 i4 i5 i6 i7 i8 i9 i10 i11 ⊢
  have y0 := mul_inv_cancel₀ n0
  have y1 := mul_inv_cancel₀ n1
  linear_combination ((((-1) * (((√2 : ℝ) : ℂ)) * ((c.e : ℂ)) ^ 2 * ((c.mass .d : ℂ)) * (mb z1.2 (p 0) z2.1) + (-3) * (((√2 : ℝ) : ℂ)) * ((c.e : ℂ)) ^ 2 * ((c.mass .d : ℂ)) ^ 2 * (sb z1.2 z2.2)) * i0 + ((1) * (((√2 : ℝ) : ℂ)) * ((c.e : ℂ)) ^ 2 * ((c.mass .d : ℂ)) * (mb z1.2 (p 0) ρ1) + (-1) * (((√2 : ℝ) : ℂ)) * ((c.e : ℂ)) ^ 2 * ((c.mass .d : ℂ)) * (mb z1.2 (p 2) ρ1)) * i1 + ((1) * (((√2 : ℝ) : ℂ)) * ((c.e : ℂ)) ^ 2 * ((c.mass .d : ℂ)) * (N.c 0) + (2) * (((√2 : ℝ) : ℂ)) * ((c.e : ℂ)) ^ 2 * ((c.mass .d : ℂ)) * (N.c 1)) * i2 + ((1) * (((√2 : ℝ) : ℂ)) * ((c.e : ℂ)) ^ 2 * ((c.mass .d : ℂ)) * (mb z1.2 (p 0) ρ1) + (-1) * (((√2 : ℝ) : ℂ)) * ((c.e : ℂ)) ^ 2 * ((c.mass .d : ℂ)) * (mb z1.2 (p 2) ρ1)) * i3 + ((1) * (((√2 : ℝ) : ℂ)) * ((c.e : ℂ)) ^ 2 * ((c.mass .d : ℂ)) * (sb z1.2 z2.2)) * i4 + ((-2) * (((√2 : ℝ) : ℂ)) * ((c.e : ℂ)) ^ 2 * ((c.mass .d : ℂ)) * (mb z1.2 (p 0) ρ1)) * i5 + ((2) * (((√2 : ℝ) : ℂ)) * ((c.e : ℂ)) ^ 2 * ((c.mass .d : ℂ)) * (mb z1.2 (p 2) z0.1)) * i6 + ((1) * (((√2 : ℝ) : ℂ)) * ((c.e : ℂ)) ^ 2 * ((c.mass .d : ℂ)) * (mb z1.2 (p 0) z2.1) + (1) * (((√2 : ℝ) : ℂ)) * ((c.e : ℂ)) ^ 2 * ((c.mass .d : ℂ)) ^ 2 * (sb z1.2 z2.2)) * i7 + ((-1) * (((√2 : ℝ) : ℂ)) * ((c.e : ℂ)) ^ 2 * ((c.mass .d : ℂ)) * (N.c 0)) * i8 + ((1) * (((√2 : ℝ) : ℂ)) * ((c.e : ℂ)) ^ 2 * ((c.mass .d : ℂ)) * (ab z1.1 ρ1)) * i9 + ((1) * (((√2 : ℝ) : ℂ)) * ((c.e : ℂ)) ^ 2 * ((c.mass .d : ℂ)) * (N.c 1)) * i10 + ((-1) * (((√2 : ℝ) : ℂ)) * ((c.e : ℂ)) ^ 2 * ((c.mass .d : ℂ)) * (N.c 1)) * i11)) * ((1) * ((c.MW : ℂ)⁻¹) * ((c.SW : ℂ)⁻¹) * ((N.c 0)⁻¹) * ((N.c 1)⁻¹) / (6)) + ((1) * (((√2 : ℝ) : ℂ)) * ((c.e : ℂ)) ^ 2 * ((c.MW : ℂ)⁻¹) * ((c.SW : ℂ)⁻¹) * ((c.mass .d : ℂ)) * ((N.c 1)⁻¹) * (ab z1.1 ρ1) * (sb z0.2 z1.2) * (sb z1.2 z2.2) / (6) + (-1) * (((√2 : ℝ) : ℂ)) * ((c.e : ℂ)) ^ 2 * ((c.MW : ℂ)⁻¹) * ((c.SW : ℂ)⁻¹) * ((c.mass .d : ℂ)) * ((N.c 1)⁻¹) * (ab z2.1 ρ1) * (mb z1.2 (p 2) z0.1) / (6) + (-1) * (((√2 : ℝ) : ℂ)) * ((c.e : ℂ)) ^ 2 * ((c.MW : ℂ)⁻¹) * ((c.SW : ℂ)⁻¹) * ((c.mass .d : ℂ)) * ((N.c 1)⁻¹) * (mb z0.2 (p 2) ρ1) * (sb z1.2 z2.2) / (6) + (-1) * (((√2 : ℝ) : ℂ)) * ((c.e : ℂ)) ^ 2 * ((c.MW : ℂ)⁻¹) * ((c.SW : ℂ)⁻¹) * ((c.mass .d : ℂ)) ^ 2 * ((N.c 1)⁻¹) * (ab z0.1 ρ1) * (sb z1.2 z2.2) / (6) + (-1) * (((√2 : ℝ) : ℂ)) * ((c.e : ℂ)) ^ 2 * ((c.MW : ℂ)⁻¹) * ((c.SW : ℂ)⁻¹) * ((c.mass .d : ℂ)) ^ 2 * ((N.c 1)⁻¹) * (ab z2.1 ρ1) * (sb z0.2 z1.2) / (6)) * y0 + ((1) * (((√2 : ℝ) : ℂ)) * ((c.e : ℂ)) ^ 2 * ((c.MW : ℂ)⁻¹) * ((c.SW : ℂ)⁻¹) * ((c.mass .d : ℂ)) * ((N.c 0)⁻¹) * (ab z0.1 ρ1) * (mb z1.2 (p 0) z2.1) / (6) + (1) * (((√2 : ℝ) : ℂ)) * ((c.e : ℂ)) ^ 2 * ((c.MW : ℂ)⁻¹) * ((c.SW : ℂ)⁻¹) * ((c.mass .d : ℂ)) * ((N.c 0)⁻¹) * (ab z1.1 ρ1) * (sb z0.2 z1.2) * (sb z1.2 z2.2) / (6) + (-1) * (((√2 : ℝ) : ℂ)) * ((c.e : ℂ)) ^ 2 * ((c.MW : ℂ)⁻¹) * ((c.SW : ℂ)⁻¹) * ((c.mass .d : ℂ)) * ((N.c 0)⁻¹) * (mb z2.2 (p 0) ρ1) * (sb z0.2 z1.2) / (6) + (-1) * (((√2 : ℝ) : ℂ)) * ((c.e : ℂ)) ^ 2 * ((c.MW : ℂ)⁻¹) * ((c.SW : ℂ)⁻¹) * ((c.mass .d : ℂ)) ^ 2 * ((N.c 0)⁻¹) * (ab z0.1 ρ1) * (sb z1.2 z2.2) / (6) + (-1) * (((√2 : ℝ) : ℂ)) * ((c.e : ℂ)) ^ 2 * ((c.MW : ℂ)⁻¹) * ((c.SW : ℂ)⁻¹) * ((c.mass .d : ℂ)) ^ 2 * ((N.c 0)⁻¹) * (ab z2.1 ρ1) * (sb z0.2 z1.2) / (6)) * y1
theorem dAdh.keyM {c : Constants} {p : Nat → V4 ℝ} {N : Env} (hc : c.Physical) (hb : Balanced p) (r2 : N.r 2 = (c.mass .d)) (r3 : N.r 3 = c.MH) (r6 : N.r 6 = (((((√(((2 : Nat) : ℝ)) * c.e) * c.e) * ((-((1 : Nat) : ℝ)) / ((3 : Nat) : ℝ))) * (c.mass .d)) / ((((2 : Nat) : ℝ) * c.MW) * c.SW))) (d0 : ((msq (plus (p 0) (p 1)) - c.mass .d ^ 2 : ℝ) : ℂ) = N.c 0) (n0 : N.c 0 ≠ 0) (d1 : ((msq (plus (p 0) (backward (p 3))) - c.mass .d ^ 2 : ℝ) : ℂ) = N.c 1) (n1 : N.c 1 ≠ 0) {z0 z1 z2 : Pair} (b0 : Bold (p 0) (c.mass .d) z0) (b2 : Bold (p 2) (c.mass .d) z2) (l1 : Light (p 1) z1) (e10 : mb z1.2 (p 0) z1.1 = N.c 0) (e12 : mb z1.2 (p 2) z1.1 = -N.c 1) (q0 : msq (p 0) = (c.mass .d) ^ 2) (q2 : msq (p 2) = (c.mass .d) ^ 2) (q3 : msq (p 3) = c.MH ^ 2) (ρ1 : V2) (E3 : Vec) :
    dAdh.formM N p z0 z1 z2 * sb ρ1 z1.2 = ((√2 : ℝ) * (1 : ℂ)) * dAdh.react.bare c p 2 0 1 3 z2 z0 (pv z1.1 ρ1) E3 := by
  rw [dAdh.react.bare_parts c p (i := 2) (j := 0) (a := 1) (b := 3) (x := .photon) (y := .higgs) (k := (p 1)) (k' := (backward (p 3))) (fun _ => rfl) (fun _ => rfl) (f := .d) (g := .d) rfl rfl (l := (p 0)) rfl (e := 1) (e' := 1) (if_neg Bool.false_ne_true) (if_neg Bool.false_ne_true)]
  rw [compton_vh (f := .d) (x := .d) (g := .d) (h := (rfl : Spec.after .photon Flavour.d = some Flavour.d)) (h' := (rfl : Spec.after .higgs Flavour.d = some Flavour.d)) (ha := by simp)]
  rw [compton_hv (f := .d) (x := .d) (g := .d) (h := (rfl : Spec.after .higgs Flavour.d = some Flavour.d)) (h' := (rfl : Spec.after .photon Flavour.d = some Flavour.d)) (hb := by simp)]
  rw [annihilation_none c _ _ (by rfl) (by simp), star_zero, add_zero, dAdh.formM]
  simp only [d0, d1, lineV_pv, lineV_four, contract_four_pv, contract_pv, mb_plus, mb_backward]
  have i0 := mb_schouten_left z0.2 z1.2 ρ1 (p 0) z1.1
  have i1 := mb_schouten_left z0.2 z1.2 z2.2 (p 0) z1.1
  have i2 := mb_schouten_right z1.2 (p 2) z0.1 z1.1 z2.1
  have i3 := mb_schouten_left z0.2 z2.2 ρ1 (p 0) z1.1
  have i4 := mb_det z1.2 ρ1 (p 3) z0.1 z1.1
  rw [q3] at i4
  have i5 := mb_schouten_left z0.2 z1.2 z2.2 (p 2) z1.1
  have i6 := mb_schouten_left z1.2 z2.2 ρ1 (p 0) z1.1
  have i7 := mb_schouten_left z0.2 z1.2 ρ1 (p 2) z1.1
  have i8 := mb_schouten_left z0.2 z2.2 ρ1 (p 2) z1.1
  have i9 := mb_schouten_right ρ1 (p 0) z0.1 z1.1 z2.1
  have i10 := chain_angle z0.2 z2.2 z1.1 (p 2) (p 3) z1.1
  have i11 := mb_schouten_right ρ1 (p 2) z0.1 z1.1 z2.1
  simp only [l1.mb_eq, b0.mb_left, b0.mb_right, b2.mb_left, b2.mb_right, e10, e12, mb_three hb z0.2 z0.1, mb_three hb z0.2 z1.1, mb_three hb z0.2 z2.1, mb_three hb z1.2 z0.1, mb_three hb z1.2 z1.1, mb_three hb z1.2 z2.1, mb_three hb z2.2 z0.1, mb_three hb z2.2 z1.1, mb_three hb z2.2 z2.1, mb_three hb ρ1 z0.1, mb_three hb ρ1 z1.1, mb_three hb ρ1 z2.1, ab_self, sb_self] at i0 i1 i2 i3 i4 i5 i6 i7 i8 i9 i10 i11 ⊢
  simp only [ab_swap z0.1 z1.1, ab_swap z0.1 z2.1, ab_swap z1.1 z2.1, sb_swap z0.2 z1.2, sb_swap z0.2 z2.2, sb_swap z0.2 ρ1, sb_swap z1.2 z2.2, sb_swap z1.2 ρ1, sb_swap z2.2 ρ1] at i0 i1 i2 i3 i4 i5 i6 i7 i8 i9 i10 i11 ⊢
  simp only [r2, r3, r6, Constants.hL, Constants.hR, Constants.gL, Constants.gR, Constants.yuk, Constants.invVev, Flavour.charge_d, Flavour.isospin_d, ← c.mz]
  have xMW : (c.MW : ℂ) ≠ 0 := by exact_mod_cast hc.MW
  have xSW : (c.SW : ℂ) ≠ 0 := by exact_mod_cast hc.SW
  have xCW : (c.CW : ℂ) ≠ 0 := by exact_mod_cast hc.CW
  have x2 : ((√2 : ℝ) : ℂ) ≠ 0 := by exact_mod_cast (Real.sqrt_pos.2 two_pos).ne'
  have x22 : ((√2 : ℝ) : ℂ) ^ 2 = 2 := by rw [← Complex.ofReal_pow, Real.sq_sqrt two_pos.le]; norm_num
  have x23 : ((√2 : ℝ) : ℂ) ^ 3 = 2 * ((√2 : ℝ) : ℂ) := by rw [← x22]; ring
  have x24 : ((√2 : ℝ) : ℂ) ^ 4 = 4 := by linear_combination (((√2 : ℝ) : ℂ) ^ 2 + 2) * x22
  push_cast at i0 i1 i2 i3 i4 i5 i6 i7 i8 i9 i10 i11 ⊢
  have y0 := mul_inv_cancel₀ n0
  have y1 := mul_inv_cancel₀ n1
  linear_combination ((((1) * (((√2 : ℝ) : ℂ)) * ((c.e : ℂ)) ^ 2 * ((c.mass .d : ℂ)) * (mb z2.2 (p 0) z1.1) + (3) * (((√2 : ℝ) : ℂ)) * ((c.e : ℂ)) ^ 2 * ((c.mass .d : ℂ)) ^ 2 * (ab z1.1 z2.1)) * i0 + ((-1) * (((√2 : ℝ) : ℂ)) * ((c.e : ℂ)) ^ 2 * ((c.mass .d : ℂ)) * (mb ρ1 (p 0) z1.1) + (1) * (((√2 : ℝ) : ℂ)) * ((c.e : ℂ)) ^ 2 * ((c.mass .d : ℂ)) * (mb ρ1 (p 2) z1.1)) * i1 + ((-1) * (((√2 : ℝ) : ℂ)) * ((c.e : ℂ)) ^ 2 * ((c.mass .d : ℂ)) * (mb ρ1 (p 0) z1.1) + (1) * (((√2 : ℝ) : ℂ)) * ((c.e : ℂ)) ^ 2 * ((c.mass .d : ℂ)) * (mb ρ1 (p 2) z1.1)) * i2 + ((-1) * (((√2 : ℝ) : ℂ)) * ((c.e : ℂ)) ^ 2 * ((c.mass .d : ℂ)) * (N.c 0) + (-2) * (((√2 : ℝ) : ℂ)) * ((c.e : ℂ)) ^ 2 * ((c.mass .d : ℂ)) * (N.c 1)) * i3 + ((-1) * (((√2 : ℝ) : ℂ)) * ((c.e : ℂ)) ^ 2 * ((c.mass .d : ℂ)) * (ab z1.1 z2.1)) * i4 + ((2) * (((√2 : ℝ) : ℂ)) * ((c.e : ℂ)) ^ 2 * ((c.mass .d : ℂ)) * (mb ρ1 (p 0) z1.1)) * i5 + ((-2) * (((√2 : ℝ) : ℂ)) * ((c.e : ℂ)) ^ 2 * ((c.mass .d : ℂ)) * (mb z0.2 (p 2) z1.1)) * i6 + ((-1) * (((√2 : ℝ) : ℂ)) * ((c.e : ℂ)) ^ 2 * ((c.mass .d : ℂ)) * (mb z2.2 (p 0) z1.1) + (-1) * (((√2 : ℝ) : ℂ)) * ((c.e : ℂ)) ^ 2 * ((c.mass .d : ℂ)) ^ 2 * (ab z1.1 z2.1)) * i7 + ((1) * (((√2 : ℝ) : ℂ)) * ((c.e : ℂ)) ^ 2 * ((c.mass .d : ℂ)) * (N.c 0)) * i8 + ((-1) * (((√2 : ℝ) : ℂ)) * ((c.e : ℂ)) ^ 2 * ((c.mass .d : ℂ)) * (N.c 1)) * i9 + ((-1) * (((√2 : ℝ) : ℂ)) * ((c.e : ℂ)) ^ 2 * ((c.mass .d : ℂ)) * (sb z1.2 ρ1)) * i10 + ((1) * (((√2 : ℝ) : ℂ)) * ((c.e : ℂ)) ^ 2 * ((c.mass .d : ℂ)) * (N.c 1)) * i11)) * ((1) * ((c.MW : ℂ)⁻¹) * ((c.SW : ℂ)⁻¹) * ((N.c 0)⁻¹) * ((N.c 1)⁻¹) / (6)) + ((-1) * (((√2 : ℝ) : ℂ)) * ((c.e : ℂ)) ^ 2 * ((c.MW : ℂ)⁻¹) * ((c.SW : ℂ)⁻¹) * ((c.mass .d : ℂ)) * ((N.c 1)⁻¹) * (ab z0.1 z1.1) * (ab z1.1 z2.1) * (sb z1.2 ρ1) / (6) + (1) * (((√2 : ℝ) : ℂ)) * ((c.e : ℂ)) ^ 2 * ((c.MW : ℂ)⁻¹) * ((c.SW : ℂ)⁻¹) * ((c.mass .d : ℂ)) * ((N.c 1)⁻¹) * (ab z1.1 z2.1) * (mb ρ1 (p 2) z0.1) / (6) + (1) * (((√2 : ℝ) : ℂ)) * ((c.e : ℂ)) ^ 2 * ((c.MW : ℂ)⁻¹) * ((c.SW : ℂ)⁻¹) * ((c.mass .d : ℂ)) * ((N.c 1)⁻¹) * (mb z0.2 (p 2) z1.1) * (sb z2.2 ρ1) / (6) + (1) * (((√2 : ℝ) : ℂ)) * ((c.e : ℂ)) ^ 2 * ((c.MW : ℂ)⁻¹) * ((c.SW : ℂ)⁻¹) * ((c.mass .d : ℂ)) ^ 2 * ((N.c 1)⁻¹) * (ab z0.1 z1.1) * (sb z2.2 ρ1) / (6) + (1) * (((√2 : ℝ) : ℂ)) * ((c.e : ℂ)) ^ 2 * ((c.MW : ℂ)⁻¹) * ((c.SW : ℂ)⁻¹) * ((c.mass .d : ℂ)) ^ 2 * ((N.c 1)⁻¹) * (ab z1.1 z2.1) * (sb z0.2 ρ1) / (6)) * y0 + ((-1) * (((√2 : ℝ) : ℂ)) * ((c.e : ℂ)) ^ 2 * ((c.MW : ℂ)⁻¹) * ((c.SW : ℂ)⁻¹) * ((c.mass .d : ℂ)) * ((N.c 0)⁻¹) * (ab z0.1 z1.1) * (ab z1.1 z2.1) * (sb z1.2 ρ1) / (6) + (1) * (((√2 : ℝ) : ℂ)) * ((c.e : ℂ)) ^ 2 * ((c.MW : ℂ)⁻¹) * ((c.SW : ℂ)⁻¹) * ((c.mass .d : ℂ)) * ((N.c 0)⁻¹) * (ab z0.1 z1.1) * (mb ρ1 (p 0) z2.1) / (6) + (-1) * (((√2 : ℝ) : ℂ)) * ((c.e : ℂ)) ^ 2 * ((c.MW : ℂ)⁻¹) * ((c.SW : ℂ)⁻¹) * ((c.mass .d : ℂ)) * ((N.c 0)⁻¹) * (mb z2.2 (p 0) z1.1) * (sb z0.2 ρ1) / (6) + (1) * (((√2 : ℝ) : ℂ)) * ((c.e : ℂ)) ^ 2 * ((c.MW : ℂ)⁻¹) * ((c.SW : ℂ)⁻¹) * ((c.mass .d : ℂ)) ^ 2 * ((N.c 0)⁻¹) * (ab z0.1 z1.1) * (sb z2.2 ρ1) / (6) + (1) * (((√2 : ℝ) : ℂ)) * ((c.e : ℂ)) ^ 2 * ((c.MW : ℂ)⁻¹) * ((c.SW : ℂ)⁻¹) * ((c.mass .d : ℂ)) ^ 2 * ((N.c 0)⁻¹) * (ab z1.1 z2.1) * (sb z0.2 ρ1) / (6)) * y1
set_option maxRecDepth 8000 in
theorem dAdh.amp2_eq (N : Env) (f : Nat → List Int → ℂ) : Cls.dAdh.m_amp2.mean N f .r [] =
    ((sumJ (fun x a => (sumW (fun x b => (sumJ (fun x c => (x + (((3 : Nat) : ℝ) * (‖(f 0 [a, b, c])‖ ^ 2)))) x)) x)) ((0 : Nat) : ℝ)) / ((12 : Nat) : ℝ)) := by rfl
set_option maxRecDepth 8000 in
theorem dAdh.value (N : Env) : meaning N .r Cls.dAdh.methods Cls.dAdh.amp2 [] =
    ((sumJ (fun x a => (sumW (fun x b => (sumJ (fun x c => (x + (((3 : Nat) : ℝ) * (‖(Cls.dAdh.m_amp.mean N (callMean N []) .c [a, b, c])‖ ^ 2)))) x)) x)) ((0 : Nat) : ℝ)) / ((12 : Nat) : ℝ)) :=
  dAdh.amp2_eq N (callMean N [Cls.dAdh.m_amp])
set_option maxRecDepth 8000 in
theorem dAdh.ampP (N : Env) (f : Nat → List Int → ℂ) (j1 j3 : Int) : Cls.dAdh.m_amp.mean N f .c [j1, 2, j3] = dAdh.termP N j1 j3 := by rfl
set_option maxRecDepth 8000 in
theorem dAdh.ampM (N : Env) (f : Nat → List Int → ℂ) (j1 j3 : Int) : Cls.dAdh.m_amp.mean N f .c [j1, (-2), j3] = dAdh.termM N j1 j3 := by rfl

theorem dAdh.mass_eq {c : Constants} (hc : c.Physical) (i : Fin 4) : dAdh.proc.massNum (dAdh.rho c) i = dAdh.react.mass c i := by
  fin_cases i <;> first | rfl | exact Nat.cast_zero | exact Nat.cast_zero.trans (hc.neutrino _).symm | (show c.MW / √(((1 : Nat) : ℝ) - c.SW * c.SW) = c.MZ; rw [c.root, c.mz])

variable [FPEnv] in
theorem dAdh.amps {c : Constants} {p : Nat → V4 ℝ} {u : Fin 4 → Fin 3 → Spinor} {ε : Fin 4 → Fin 3 → Vec} (hc : c.Physical) (hh : c.Heavy) (h0 : ∀ i, 0 ≤ dAdh.react.mass c i) (hs : ∀ i : Fin 4, OnShell (p i) (dAdh.react.mass c i)) (hb : Balanced p) (hr : dAdh.react.Regular c p) (hu : ∀ i, dAdh.react.Complete c p i (u i) (ε i)) :
    (dAdh.N c p).c 0 ≠ 0 ∧ (dAdh.N c p).c 1 ≠ 0 ∧ (∀ n, (Ty.r, n) ∈ dAdh.proc.divides → (dAdh.N c p).r n ≠ 0) ∧ (∀ n, (Ty.c, n) ∈ dAdh.proc.divides → (dAdh.N c p).c n ≠ 0) ∧ ∀ (s0 : Fin 2) (s2 : Fin 2) (h1 : Fin 2), ‖Cls.dAdh.m_amp.mean (dAdh.N c p) (callMean (dAdh.N c p) []) .c [spinOf s0, spinW h1, spinOf s2]‖ = ‖dAdh.react.bare c p 2 0 1 3 (dAdh.react.codePair c p 2 s2) (dAdh.react.codePair c p 0 s0) (lightE (legA (p 1) 0 0, legS (p 1) 0 1) h1.castSucc) (dAdh.react.codeVec c p 3 0)‖ := by
  have he : dAdh.react.ends = [2] := by decide
  have ht : dAdh.react.starts = [0] := by decide
  have hB : dAdh.react.bosons = [1, 3] := by decide
  obtain ⟨f1, f2, f3⟩ := dAdh.react.regular_line he ht hB hr
  have r2 : (dAdh.N c p).r 2 = (c.mass .d) := rfl
  have r3 : (dAdh.N c p).r 3 = c.MH := rfl
  have r6 : (dAdh.N c p).r 6 = (((((√(((2 : Nat) : ℝ)) * c.e) * c.e) * ((-((1 : Nat) : ℝ)) / ((3 : Nat) : ℝ))) * (c.mass .d)) / ((((2 : Nat) : ℝ) * c.MW) * c.SW)) := rfl
  have c0 : (dAdh.N c p).c 0 = poleDist (c.mass .d) ((0 : Nat) : ℝ) ((VExp.add 0 1).sum p) := rfl
  rw [Nat.cast_zero, pole_fermion rfl] at c0
  have d0 : ((msq (plus (p 0) (p 1)) - c.mass .d ^ 2 : ℝ) : ℂ) = (dAdh.N c p).c 0 := by rw [c0, msq_s hb (plus (p 0) (p 1)) (by simp)]
  have n0 : (dAdh.N c p).c 0 ≠ 0 := by rw [← d0]; exact_mod_cast f1 .d rfl rfl
  have c1 : (dAdh.N c p).c 1 = poleDist (c.mass .d) ((0 : Nat) : ℝ) ((VExp.sub 0 3).sum p) := rfl
  rw [Nat.cast_zero, pole_fermion rfl] at c1
  have d1 : ((msq (plus (p 0) (backward (p 3))) - c.mass .d ^ 2 : ℝ) : ℂ) = (dAdh.N c p).c 1 := by rw [c1, msq_u hb (plus (p 0) (backward (p 3))) (by simp)]
  have n1 : (dAdh.N c p).c 1 ≠ 0 := by rw [← d1]; exact_mod_cast f2 .d rfl rfl
  obtain ⟨l1, x1, y1⟩ := dAdh.react.code_light hs hu (n := 1) rfl rfl
  have e10 := l1.pole_add (m := (c.mass .d)) (onShell_msq (hs 0)) (msq_s hb (plus (p 1) (p 0)) (by simp)) c0
  have e12 := l1.pole_sub (m := (c.mass .d)) (onShell_msq (hs 2)) (msq_u hb (plus (p 1) (backward (p 2))) (by simp)) c1
  have m0 : dAdh.react.mass c 0 ≠ 0 := (leg_pos hc hh (by decide)).ne'
  have m2 : dAdh.react.mass c 2 ≠ 0 := (leg_pos hc hh (by decide)).ne'
  have m1 : dAdh.react.mass c 1 = 0 := rfl
  have hd : dAdh.proc.divides = [(Ty.c, 0), (Ty.c, 1)] := by decide +kernel
  have stP : ∀ {z0 z2 : Pair} (b0 : Bold (p 0) (dAdh.react.mass c 0) z0) (b2 : Bold (p 2) (dAdh.react.mass c 2) z2), dAdh.formP (dAdh.N c p) p z0 (legA (p 1) 0 0, legS (p 1) 0 1) z2 = 1 * dAdh.react.bare c p 2 0 1 3 z2 z0 (lightE (legA (p 1) 0 0, legS (p 1) 0 1) 1) (dAdh.react.codeVec c p 3 0) := by
    intro z0 z2 b0 b2
    exact (light_plus (z := (legA (p 1) 0 0, legS (p 1) 0 1)) (G := fun E => dAdh.react.bare c p 2 0 1 3 z2 z0 E (dAdh.react.codeVec c p 3 0)) (dAdh.react.bare_lin₁ c p _ _ _ (by decide)) x1 (dAdh.keyP hc hb r2 r3 r6 d0 n0 d1 n1 b0 b2 l1 e10 e12 (onShell_msq (hs 0)) (onShell_msq (hs 2)) (onShell_msq (hs 3)) _ (dAdh.react.codeVec c p 3 0)))
  have stM : ∀ {z0 z2 : Pair} (b0 : Bold (p 0) (dAdh.react.mass c 0) z0) (b2 : Bold (p 2) (dAdh.react.mass c 2) z2), dAdh.formM (dAdh.N c p) p z0 (legA (p 1) 0 0, legS (p 1) 0 1) z2 = 1 * dAdh.react.bare c p 2 0 1 3 z2 z0 (lightE (legA (p 1) 0 0, legS (p 1) 0 1) 0) (dAdh.react.codeVec c p 3 0) := by
    intro z0 z2 b0 b2
    exact (light_minus (z := (legA (p 1) 0 0, legS (p 1) 0 1)) (G := fun E => dAdh.react.bare c p 2 0 1 3 z2 z0 E (dAdh.react.codeVec c p 3 0)) (dAdh.react.bare_lin₁ c p _ _ _ (by decide)) y1 (dAdh.keyM hc hb r2 r3 r6 d0 n0 d1 n1 b0 b2 l1 e10 e12 (onShell_msq (hs 0)) (onShell_msq (hs 2)) (onShell_msq (hs 3)) _ (dAdh.react.codeVec c p 3 0)))
  have amP : ∀ (s0 : Fin 2) (s2 : Fin 2), Cls.dAdh.m_amp.mean (dAdh.N c p) (callMean (dAdh.N c p) []) .c [spinOf s0, 2, spinOf s2] = 1 * dAdh.react.bare c p 2 0 1 3 (dAdh.react.codePair c p 2 s2) (dAdh.react.codePair c p 0 s0) (lightE (legA (p 1) 0 0, legS (p 1) 0 1) 1) (dAdh.react.codeVec c p 3 0) := by
    intro s0 s2
    rw [dAdh.ampP, ← stP (dAdh.react.codePair_bold hs h0 0 s0) (dAdh.react.codePair_bold hs h0 2 s2)]
    have v0z0z1 : (dAdh.N c p).v 0 [spinOf s0] = sb (dAdh.react.codePair c p 0 s0).2 (legA (p 1) 0 0, legS (p 1) 0 1).2 := bra_square (p := p) (m := dAdh.proc.massNum (dAdh.rho c)) (dAdh.mass_eq hc 0) (dAdh.mass_eq hc 1) (.inl ⟨m0, rfl⟩) (.inr ⟨m1, rfl⟩)
    have v2z1z2 : (dAdh.N c p).v 2 [spinOf s2] = sb (legA (p 1) 0 0, legS (p 1) 0 1).2 (dAdh.react.codePair c p 2 s2).2 := bra_square (p := p) (m := dAdh.proc.massNum (dAdh.rho c)) (dAdh.mass_eq hc 1) (dAdh.mass_eq hc 2) (.inr ⟨m1, rfl⟩) (.inl ⟨m2, rfl⟩)
    have v6z1z2 : (dAdh.N c p).v 6 [spinOf s2] = mb (legA (p 1) 0 0, legS (p 1) 0 1).2 (p 3) (dAdh.react.codePair c p 2 s2).1 := bra_mid_square (p := p) (m := dAdh.proc.massNum (dAdh.rho c)) (dAdh.mass_eq hc 1) (dAdh.mass_eq hc 2) (.inr ⟨m1, rfl⟩) (.inl ⟨m2, rfl⟩)
    have v8z1z0 : (dAdh.N c p).v 8 [spinOf s0] = mb (legA (p 1) 0 0, legS (p 1) 0 1).2 (p 3) (dAdh.react.codePair c p 0 s0).1 := bra_mid_square (p := p) (m := dAdh.proc.massNum (dAdh.rho c)) (dAdh.mass_eq hc 1) (dAdh.mass_eq hc 0) (.inr ⟨m1, rfl⟩) (.inl ⟨m0, rfl⟩)
    have v5z0z2 : (dAdh.N c p).v 5 [spinOf s0, spinOf s2] = ab (dAdh.react.codePair c p 0 s0).1 (dAdh.react.codePair c p 2 s2).1 := bra_angle (p := p) (m := dAdh.proc.massNum (dAdh.rho c)) (dAdh.mass_eq hc 0) (dAdh.mass_eq hc 2) (.inl ⟨m0, rfl⟩) (.inl ⟨m2, rfl⟩)
    have v10z1z1 : (dAdh.N c p).v 10 [] = mb (legA (p 1) 0 0, legS (p 1) 0 1).2 (p 2) (slashLower (p 3) *ᵥ (legA (p 1) 0 0, legS (p 1) 0 1).2) := bra_two_square (p := p) (m := dAdh.proc.massNum (dAdh.rho c)) (dAdh.mass_eq hc 1) (dAdh.mass_eq hc 1) (.inr ⟨m1, rfl⟩) (.inr ⟨m1, rfl⟩)
    simp only [dAdh.termP, dAdh.formP, v0z0z1, v2z1z2, v6z1z2, v8z1z0, v5z0z2, v10z1z1]
  have amM : ∀ (s0 : Fin 2) (s2 : Fin 2), Cls.dAdh.m_amp.mean (dAdh.N c p) (callMean (dAdh.N c p) []) .c [spinOf s0, (-2), spinOf s2] = 1 * dAdh.react.bare c p 2 0 1 3 (dAdh.react.codePair c p 2 s2) (dAdh.react.codePair c p 0 s0) (lightE (legA (p 1) 0 0, legS (p 1) 0 1) 0) (dAdh.react.codeVec c p 3 0) := by
    intro s0 s2
    rw [dAdh.ampM, ← stM (dAdh.react.codePair_bold hs h0 0 s0) (dAdh.react.codePair_bold hs h0 2 s2)]
    have v1z0z1 : (dAdh.N c p).v 1 [spinOf s0] = ab (dAdh.react.codePair c p 0 s0).1 (legA (p 1) 0 0, legS (p 1) 0 1).1 := bra_angle (p := p) (m := dAdh.proc.massNum (dAdh.rho c)) (dAdh.mass_eq hc 0) (dAdh.mass_eq hc 1) (.inl ⟨m0, rfl⟩) (.inr ⟨m1, rfl⟩)
    have v3z1z2 : (dAdh.N c p).v 3 [spinOf s2] = ab (legA (p 1) 0 0, legS (p 1) 0 1).1 (dAdh.react.codePair c p 2 s2).1 := bra_angle (p := p) (m := dAdh.proc.massNum (dAdh.rho c)) (dAdh.mass_eq hc 1) (dAdh.mass_eq hc 2) (.inr ⟨m1, rfl⟩) (.inl ⟨m2, rfl⟩)
    have v7z1z2 : (dAdh.N c p).v 7 [spinOf s2] = mb (dAdh.react.codePair c p 2 s2).2 (p 3) (legA (p 1) 0 0, legS (p 1) 0 1).1 := bra_mid_angle (p := p) (m := dAdh.proc.massNum (dAdh.rho c)) (dAdh.mass_eq hc 1) (dAdh.mass_eq hc 2) (.inr ⟨m1, rfl⟩) (.inl ⟨m2, rfl⟩)
    have v9z1z0 : (dAdh.N c p).v 9 [spinOf s0] = mb (dAdh.react.codePair c p 0 s0).2 (p 3) (legA (p 1) 0 0, legS (p 1) 0 1).1 := bra_mid_angle (p := p) (m := dAdh.proc.massNum (dAdh.rho c)) (dAdh.mass_eq hc 1) (dAdh.mass_eq hc 0) (.inr ⟨m1, rfl⟩) (.inl ⟨m0, rfl⟩)
    have v4z0z2 : (dAdh.N c p).v 4 [spinOf s0, spinOf s2] = sb (dAdh.react.codePair c p 0 s0).2 (dAdh.react.codePair c p 2 s2).2 := bra_square (p := p) (m := dAdh.proc.massNum (dAdh.rho c)) (dAdh.mass_eq hc 0) (dAdh.mass_eq hc 2) (.inl ⟨m0, rfl⟩) (.inl ⟨m2, rfl⟩)
    have v11z1z1 : (dAdh.N c p).v 11 [] = mb (slashUpper (p 3) *ᵥ (legA (p 1) 0 0, legS (p 1) 0 1).1) (p 2) (legA (p 1) 0 0, legS (p 1) 0 1).1 := bra_two_angle (p := p) (m := dAdh.proc.massNum (dAdh.rho c)) (dAdh.mass_eq hc 1) (dAdh.mass_eq hc 1) (.inr ⟨m1, rfl⟩) (.inr ⟨m1, rfl⟩)
    simp only [dAdh.termM, dAdh.formM, v1z0z1, v3z1z2, v7z1z2, v9z1z0, v4z0z2, v11z1z1]
  refine ⟨n0, n1, fun n hn => ?_, fun n hn => ?_, ?_⟩
  · simp [hd] at hn
  · simp [hd] at hn
    rcases hn with rfl | rfl
    · exact n0
    · exact n1
  intro s0 s2 h1
  match h1 with
  | 1 => exact norm_plus (amP s0 s2)
  | 0 => exact norm_plus (amM s0 s2)

variable [FPEnv] in
theorem dAdh.agrees : dAdh.Agrees := by
  refine agrees_of (D := [3, 4]) (E := [4]) (by simp [all, dAdh]) (by decide +kernel) (by decide) (by decide +kernel) (fun c hc hh => ⟨List.forall_mem_cons.2 ⟨hc.MW, List.forall_mem_cons.2 ⟨hc.SW, List.forall_mem_nil _⟩⟩, List.forall_mem_cons.2 ⟨hc.SW_lt, List.forall_mem_nil _⟩⟩) (fun c hc i => dAdh.mass_eq hc i) (by decide +kernel) ?_
  intro c p u ε hc hh hw h0 hs hb hr hu
  have he : dAdh.react.ends = [2] := by decide
  have ht : dAdh.react.starts = [0] := by decide
  have hB : dAdh.react.bosons = [1, 3] := by decide
  obtain ⟨n0, n1, d1, d2, am⟩ := dAdh.amps hc hh h0 hs hb hr hu
  refine ⟨d1, d2, ?_⟩
  show meaning (dAdh.N c p) .r Cls.dAdh.methods Cls.dAdh.amp2 [] = _
  have s0 : dAdh.react.states 0 = 6 := by decide +kernel
  have s1 : dAdh.react.states 1 = 2 := by decide +kernel
  have sy : dAdh.react.symmetry = 1 := by decide
  have p0 : dAdh.react.spins 0 = {0, 1} := rfl
  have p1 : dAdh.react.spins 1 = {0, 1} := rfl
  have p2 : dAdh.react.spins 2 = {0, 1} := rfl
  have p3 : dAdh.react.spins 3 = {0} := rfl
  have E1 : dAdh.react.codeE c p 1 = lightE (legA (p 1) 0 0, legS (p 1) 0 1) := rfl
  have E3 : dAdh.react.codeE c p 3 = dAdh.react.codeVec c p 3 := rfl
  have hG : dAdh.react.Gauge c p := (dAdh.react.gauge_line he ht hB hh (by decide) (fun n => onShell_msq (hs n)) hb hr (fun n m h h2 => absurd (And.intro h h2) (by revert n m; decide)) (fun _ => ⟨rfl, rfl⟩) (fun h => absurd h (by decide)))
  have lc : dAdh.react.lineColours 2 0 = 3 := by decide +kernel
  rw [dAdh.value, dAdh.react.squared_line he ht hB (by decide) hs h0 (fun _ b _ hb _ => (boson_pos hc hh hb).ne') hG (E := dAdh.react.codeE c p) (fun n b hl => dAdh.react.codeE_polarised hs h0 hu (fun b hb => (boson_pos hc hh hb).ne') n b hl) hu, sum_colours, lc, s0, s1, sy]
  simp only [sumV_sum, sumJ_sum, sumW_sum, am, p0, p1, p2, p3, E1, E3, Finset.sum_singleton, sum_two, Matrix.cons_val_zero, Matrix.cons_val_one, Matrix.cons_val, two_castSucc]
  try simp only [← Finset.mul_sum]
  push_cast
  first | ring1 | ring_nf

end Spinas.SM.Rows
