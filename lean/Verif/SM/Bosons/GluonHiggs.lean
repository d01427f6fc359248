import Verif.SM.LightRows
import Verif.SM.GluonLine

/-! Quarks, a gluon and a Higgs boson. Generated by tools/bosons/lemit.py: for each class its amplitude at given helicities as a formula in spinors, and the proof that `amp2` is the squared amplitude of the Feynman rules. -/

set_option linter.unusedSimpArgs false
set_option linter.unusedVariables false
set_option linter.unreachableTactic false
set_option linter.unusedTactic false

namespace Spinas.SM.Rows
open Spec Spec.Reaction Props XR Matrix BRow

/-! ### dgdh -/

/-- what the methods of the class see -/
noncomputable abbrev dgdh.N [FPEnv] (c : Constants) (p : Nat → V4 ℝ) : Env := dgdh.proc.env (dgdh.rho c) p
/-- `amp` for a gluon of positive helicity (SM/dgdh.cpp) -/
noncomputable def dgdh.termP (N : Env) (j1 j3 : Int) : ℂ :=
  (((((N.r 6 : ℝ) : ℂ) * ((((((((N.r 3 * N.r 3) : ℝ) : ℂ) * N.v 0 [j1]) * N.v 2 [j3]) - ((((N.r 2 : ℝ) : ℂ) * N.v 0 [j1]) * N.v 6 [j3])) - ((((N.r 2 : ℝ) : ℂ) * N.v 2 [j3]) * N.v 8 [j1])) + (N.v 5 [j1, j3] * N.v 10 []))) / N.c 0) / N.c 1)
/-- the same with spinors in place of their spins -/
noncomputable def dgdh.formP (N : Env) (p : Nat → V4 ℝ) (z0 z1 z2 : Pair) : ℂ :=
  (((((N.r 6 : ℝ) : ℂ) * ((((((((N.r 3 * N.r 3) : ℝ) : ℂ) * (sb z0.2 z1.2)) * (sb z1.2 z2.2)) - ((((N.r 2 : ℝ) : ℂ) * (sb z0.2 z1.2)) * (mb z1.2 (p 3) z2.1))) - ((((N.r 2 : ℝ) : ℂ) * (sb z1.2 z2.2)) * (mb z1.2 (p 3) z0.1))) + ((ab z0.1 z2.1) * (mb z1.2 (p 2) (slashLower (p 3) *ᵥ z1.2))))) / N.c 0) / N.c 1)
/-- `amp` for a gluon of negative helicity (SM/dgdh.cpp) -/
noncomputable def dgdh.termM (N : Env) (j1 j3 : Int) : ℂ :=
  (((((N.r 6 : ℝ) : ℂ) * (((((((((-N.r 3) * N.r 3) : ℝ) : ℂ) * N.v 1 [j1]) * N.v 3 [j3]) + ((((N.r 2 : ℝ) : ℂ) * N.v 1 [j1]) * N.v 7 [j3])) + ((((N.r 2 : ℝ) : ℂ) * N.v 3 [j3]) * N.v 9 [j1])) - (N.v 4 [j1, j3] * N.v 11 []))) / N.c 0) / N.c 1)
/-- the same with spinors in place of their spins -/
noncomputable def dgdh.formM (N : Env) (p : Nat → V4 ℝ) (z0 z1 z2 : Pair) : ℂ :=
  (((((N.r 6 : ℝ) : ℂ) * (((((((((-N.r 3) * N.r 3) : ℝ) : ℂ) * (ab z0.1 z1.1)) * (ab z1.1 z2.1)) + ((((N.r 2 : ℝ) : ℂ) * (ab z0.1 z1.1)) * (mb z2.2 (p 3) z1.1))) + ((((N.r 2 : ℝ) : ℂ) * (ab z1.1 z2.1)) * (mb z0.2 (p 3) z1.1))) - ((sb z0.2 z2.2) * (mb (slashUpper (p 3) *ᵥ z1.1) (p 2) z1.1)))) / N.c 0) / N.c 1)
theorem dgdh.keyP {c : Constants} {p : Nat → V4 ℝ} {N : Env} (hc : c.Physical) (hb : Balanced p) (r2 : N.r 2 = (c.mass .d)) (r3 : N.r 3 = c.MH) (r6 : N.r 6 = ((((√(((2 : Nat) : ℝ)) * c.e) * c.gs) * (c.mass .d)) / ((((2 : Nat) : ℝ) * c.MW) * c.SW))) (d0 : ((msq (plus (p 0) (p 1)) - c.mass .d ^ 2 : ℝ) : ℂ) = N.c 0) (n0 : N.c 0 ≠ 0) (d1 : ((msq (plus (p 0) (backward (p 3))) - c.mass .d ^ 2 : ℝ) : ℂ) = N.c 1) (n1 : N.c 1 ≠ 0) {z0 z1 z2 : Pair} (b0 : Bold (p 0) (c.mass .d) z0) (b2 : Bold (p 2) (c.mass .d) z2) (l1 : Light (p 1) z1) (e10 : mb z1.2 (p 0) z1.1 = N.c 0) (e12 : mb z1.2 (p 2) z1.1 = -N.c 1) (q0 : msq (p 0) = (c.mass .d) ^ 2) (q2 : msq (p 2) = (c.mass .d) ^ 2) (q3 : msq (p 3) = c.MH ^ 2) (ρ1 : V2) (E3 : Vec) :
    dgdh.formP N p z0 z1 z2 * ab ρ1 z1.1 = ((√2 : ℝ) * (1 : ℂ)) * dgdh.react.bare c p 2 0 1 3 z2 z0 (pv ρ1 z1.2) E3 := by
  rw [dgdh.react.bare_parts c p (i := 2) (j := 0) (a := 1) (b := 3) (x := .gluon) (y := .higgs) (k := (p 1)) (k' := (backward (p 3))) (fun _ => rfl) (fun _ => rfl) (f := .d) (g := .d) rfl rfl (l := (p 0)) rfl (e := 1) (e' := 1) (if_neg Bool.false_ne_true) (if_neg Bool.false_ne_true)]
  rw [compton_vh (f := .d) (x := .d) (g := .d) (h := (rfl : Spec.after .gluon Flavour.d = some Flavour.d)) (h' := (rfl : Spec.after .higgs Flavour.d = some Flavour.d)) (ha := by simp)]
  rw [compton_hv (f := .d) (x := .d) (g := .d) (h := (rfl : Spec.after .higgs Flavour.d = some Flavour.d)) (h' := (rfl : Spec.after .gluon Flavour.d = some Flavour.d)) (hb := by simp)]
  rw [annihilation_none c _ _ (by rfl) (by simp), star_zero, add_zero, dgdh.formP]
  simp only [d0, d1, lineV_pv, lineV_four, contract_four_pv, contract_pv, mb_plus, mb_backward]
  have i0 := mb_schouten_right z1.2 (p 0) z0.1 z1.1 ρ1
  have i1 := mb_schouten_right z1.2 (p 0) z0.1 z1.1 z2.1
  have i2 := mb_schouten_right z1.2 (p 0) z0.1 z2.1 ρ1
  have i3 := mb_schouten_left z0.2 z1.2 z2.2 (p 2) z1.1
  have i4 := mb_det z0.2 z1.2 (p 3) z1.1 ρ1
  rw [q3] at i4
  have i5 := mb_schouten_right z1.2 (p 2) z0.1 z1.1 z2.1
  have i6 := mb_schouten_right z1.2 (p 0) z1.1 z2.1 ρ1
  have i7 := mb_schouten_right z1.2 (p 2) z0.1 z1.1 ρ1
  have i8 := mb_schouten_right z1.2 (p 2) z0.1 z2.1 ρ1
  have i9 := chain_square z0.1 z2.1 z1.2 (p 2) (p 3) z1.2
  have i10 := mb_schouten_left z0.2 z1.2 z2.2 (p 0) ρ1
  have i11 := mb_schouten_left z0.2 z1.2 z2.2 (p 2) ρ1
  simp only [l1.mb_eq, b0.mb_left, b0.mb_right, b2.mb_left, b2.mb_right, e10, e12, mb_three hb z0.2 z0.1, mb_three hb z0.2 z1.1, mb_three hb z0.2 z2.1, mb_three hb z0.2 ρ1, mb_three hb z1.2 z0.1, mb_three hb z1.2 z1.1, mb_three hb z1.2 z2.1, mb_three hb z1.2 ρ1, mb_three hb z2.2 z0.1, mb_three hb z2.2 z1.1, mb_three hb z2.2 z2.1, mb_three hb z2.2 ρ1, ab_self, sb_self] at i0 i1 i2 i3 i4 i5 i6 i7 i8 i9 i10 i11 ⊢
  simp only [ab_swap z0.1 z1.1, ab_swap z0.1 z2.1, ab_swap z0.1 ρ1, ab_swap z1.1 z2.1, ab_swap z1.1 ρ1, ab_swap z2.1 ρ1, sb_swap z0.2 z1.2, sb_swap z0.2 z2.2, sb_swap z1.2 z2.2] at i0 i1 i2 i3 i4 i5 i6 i7 i8 i9 i10 i11 ⊢
  simp only [r2, r3, r6, Constants.hL, Constants.hR, Constants.gL, Constants.gR, Constants.yuk, Constants.invVev, Flavour.charge_d, Flavour.isospin_d, ← c.mz]
  have xMW : (c.MW : ℂ) ≠ 0 := by exact_mod_cast hc.MW
  have xSW : (c.SW : ℂ) ≠ 0 := by exact_mod_cast hc.SW
  have xCW : (c.CW : ℂ) ≠ 0 := by exact_mod_cast hc.CW
  have x2 : ((√2 : ℝ) : ℂ) ≠ 0 := by exact_mod_cast (Real.sqrt_pos.2 two_pos).ne'
  have x22 : ((√2 : ℝ) : ℂ) ^ 2 = 2 := by rw [← Complex.ofReal_pow, Real.sq_sqrt two_pos.le]; norm_num
  have x23 : ((√2 : ℝ) : ℂ) ^ 3 = 2 * ((√2 : ℝ) : ℂ) := by rw [← x22]; ring
  have x24 : ((√2 : ℝ) : ℂ) ^ 4 = 4 := by linear_combination (((√2 : ℝ) : ℂ) ^ 2 + 2) * x22
  push_cast at i0 i1 i2 i3 i4 i5 i6 i7 i8 i9 i10 i11 ⊢
  have y0 := mul_inv_cancel₀ n0
  have y1 := mul_inv_cancel₀ n1
  linear_combination ((((1) * (((√2 : ℝ) : ℂ)) * ((c.e : ℂ)) * ((c.gs : ℂ)) * ((c.mass .d : ℂ)) * (mb z1.2 (p 0) z2.1) + (3) * (((√2 : ℝ) : ℂ)) * ((c.e : ℂ)) * ((c.gs : ℂ)) * ((c.mass .d : ℂ)) ^ 2 * (sb z1.2 z2.2)) * i0 + ((-1) * (((√2 : ℝ) : ℂ)) * ((c.e : ℂ)) * ((c.gs : ℂ)) * ((c.mass .d : ℂ)) * (mb z1.2 (p 0) ρ1) + (1) * (((√2 : ℝ) : ℂ)) * ((c.e : ℂ)) * ((c.gs : ℂ)) * ((c.mass .d : ℂ)) * (mb z1.2 (p 2) ρ1)) * i1 + ((-1) * (((√2 : ℝ) : ℂ)) * ((c.e : ℂ)) * ((c.gs : ℂ)) * ((c.mass .d : ℂ)) * (N.c 0) + (-2) * (((√2 : ℝ) : ℂ)) * ((c.e : ℂ)) * ((c.gs : ℂ)) * ((c.mass .d : ℂ)) * (N.c 1)) * i2 + ((-1) * (((√2 : ℝ) : ℂ)) * ((c.e : ℂ)) * ((c.gs : ℂ)) * ((c.mass .d : ℂ)) * (mb z1.2 (p 0) ρ1) + (1) * (((√2 : ℝ) : ℂ)) * ((c.e : ℂ)) * ((c.gs : ℂ)) * ((c.mass .d : ℂ)) * (mb z1.2 (p 2) ρ1)) * i3 + ((-1) * (((√2 : ℝ) : ℂ)) * ((c.e : ℂ)) * ((c.gs : ℂ)) * ((c.mass .d : ℂ)) * (sb z1.2 z2.2)) * i4 + ((2) * (((√2 : ℝ) : ℂ)) * ((c.e : ℂ)) * ((c.gs : ℂ)) * ((c.mass .d : ℂ)) * (mb z1.2 (p 0) ρ1)) * i5 + ((-2) * (((√2 : ℝ) : ℂ)) * ((c.e : ℂ)) * ((c.gs : ℂ)) * ((c.mass .d : ℂ)) * (mb z1.2 (p 2) z0.1)) * i6 + ((-1) * (((√2 : ℝ) : ℂ)) * ((c.e : ℂ)) * ((c.gs : ℂ)) * ((c.mass .d : ℂ)) * (mb z1.2 (p 0) z2.1) + (-1) * (((√2 : ℝ) : ℂ)) * ((c.e : ℂ)) * ((c.gs : ℂ)) * ((c.mass .d : ℂ)) ^ 2 * (sb z1.2 z2.2)) * i7 + ((1) * (((√2 : ℝ) : ℂ)) * ((c.e : ℂ)) * ((c.gs : ℂ)) * ((c.mass .d : ℂ)) * (N.c 0)) * i8 + ((-1) * (((√2 : ℝ) : ℂ)) * ((c.e : ℂ)) * ((c.gs : ℂ)) * ((c.mass .d : ℂ)) * (ab z1.1 ρ1)) * i9 + ((-1) * (((√2 : ℝ) : ℂ)) * ((c.e : ℂ)) * ((c.gs : ℂ)) * ((c.mass .d : ℂ)) * (N.c 1)) * i10 + ((1) * (((√2 : ℝ) : ℂ)) * ((c.e : ℂ)) * ((c.gs : ℂ)) * ((c.mass .d : ℂ)) * (N.c 1)) * i11)) * ((1) * ((c.MW : ℂ)⁻¹) * ((c.SW : ℂ)⁻¹) * ((N.c 0)⁻¹) * ((N.c 1)⁻¹) / (2)) + ((-1) * (((√2 : ℝ) : ℂ)) * ((c.e : ℂ)) * ((c.gs : ℂ)) * ((c.MW : ℂ)⁻¹) * ((c.SW : ℂ)⁻¹) * ((c.mass .d : ℂ)) * ((N.c 1)⁻¹) * (ab z1.1 ρ1) * (sb z0.2 z1.2) * (sb z1.2 z2.2) / (2) + (1) * (((√2 : ℝ) : ℂ)) * ((c.e : ℂ)) * ((c.gs : ℂ)) * ((c.MW : ℂ)⁻¹) * ((c.SW : ℂ)⁻¹) * ((c.mass .d : ℂ)) * ((N.c 1)⁻¹) * (ab z2.1 ρ1) * (mb z1.2 (p 2) z0.1) / (2) + (1) * (((√2 : ℝ) : ℂ)) * ((c.e : ℂ)) * ((c.gs : ℂ)) * ((c.MW : ℂ)⁻¹) * ((c.SW : ℂ)⁻¹) * ((c.mass .d : ℂ)) * ((N.c 1)⁻¹) * (mb z0.2 (p 2) ρ1) * (sb z1.2 z2.2) / (2) + (1) * (((√2 : ℝ) : ℂ)) * ((c.e : ℂ)) * ((c.gs : ℂ)) * ((c.MW : ℂ)⁻¹) * ((c.SW : ℂ)⁻¹) * ((c.mass .d : ℂ)) ^ 2 * ((N.c 1)⁻¹) * (ab z0.1 ρ1) * (sb z1.2 z2.2) / (2) + (1) * (((√2 : ℝ) : ℂ)) * ((c.e : ℂ)) * ((c.gs : ℂ)) * ((c.MW : ℂ)⁻¹) * ((c.SW : ℂ)⁻¹) * ((c.mass .d : ℂ)) ^ 2 * ((N.c 1)⁻¹) * (ab z2.1 ρ1) * (sb z0.2 z1.2) / (2)) * y0 + ((-1) * (((√2 : ℝ) : ℂ)) * ((c.e : ℂ)) * ((c.gs : ℂ)) * ((c.MW : ℂ)⁻¹) * ((c.SW : ℂ)⁻¹) * ((c.mass .d : ℂ)) * ((N.c 0)⁻¹) * (ab z0.1 ρ1) * (mb z1.2 (p 0) z2.1) / (2) + (-1) * (((√2 : ℝ) : ℂ)) * ((c.e : ℂ)) * ((c.gs : ℂ)) * ((c.MW : ℂ)⁻¹) * ((c.SW : ℂ)⁻¹) * ((c.mass .d : ℂ)) * ((N.c 0)⁻¹) * (ab z1.1 ρ1) * (sb z0.2 z1.2) * (sb z1.2 z2.2) / (2) + (1) * (((√2 : ℝ) : ℂ)) * ((c.e : ℂ)) * ((c.gs : ℂ)) * ((c.MW : ℂ)⁻¹) * ((c.SW : ℂ)⁻¹) * ((c.mass .d : ℂ)) * ((N.c 0)⁻¹) * (mb z2.2 (p 0) ρ1) * (sb z0.2 z1.2) / (2) + (1) * (((√2 : ℝ) : ℂ)) * ((c.e : ℂ)) * ((c.gs : ℂ)) * ((c.MW : ℂ)⁻¹) * ((c.SW : ℂ)⁻¹) * ((c.mass .d : ℂ)) ^ 2 * ((N.c 0)⁻¹) * (ab z0.1 ρ1) * (sb z1.2 z2.2) / (2) + (1) * (((√2 : ℝ) : ℂ)) * ((c.e : ℂ)) * ((c.gs : ℂ)) * ((c.MW : ℂ)⁻¹) * ((c.SW : ℂ)⁻¹) * ((c.mass .d : ℂ)) ^ 2 * ((N.c 0)⁻¹) * (ab z2.1 ρ1) * (sb z0.2 z1.2) / (2)) * y1
theorem dgdh.keyM {c : Constants} {p : Nat → V4 ℝ} {N : Env} (hc : c.Physical) (hb : Balanced p) (r2 : N.r 2 = (c.mass .d)) (r3 : N.r 3 = c.MH) (r6 : N.r 6 = ((((√(((2 : Nat) : ℝ)) * c.e) * c.gs) * (c.mass .d)) / ((((2 : Nat) : ℝ) * c.MW) * c.SW))) (d0 : ((msq (plus (p 0) (p 1)) - c.mass .d ^ 2 : ℝ) : ℂ) = N.c 0) (n0 : N.c 0 ≠ 0) (d1 : ((msq (plus (p 0) (backward (p 3))) - c.mass .d ^ 2 : ℝ) : ℂ) = N.c 1) (n1 : N.c 1 ≠ 0) {z0 z1 z2 : Pair} (b0 : Bold (p 0) (c.mass .d) z0) (b2 : Bold (p 2) (c.mass .d) z2) (l1 : Light (p 1) z1) (e10 : mb z1.2 (p 0) z1.1 = N.c 0) (e12 : mb z1.2 (p 2) z1.1 = -N.c 1) (q0 : msq (p 0) = (c.mass .d) ^ 2) (q2 : msq (p 2) = (c.mass .d) ^ 2) (q3 : msq (p 3) = c.MH ^ 2) (ρ1 : V2) (E3 : Vec) :
    dgdh.formM N p z0 z1 z2 * sb ρ1 z1.2 = ((√2 : ℝ) * (1 : ℂ)) * dgdh.react.bare c p 2 0 1 3 z2 z0 (pv z1.1 ρ1) E3 := by
  rw [dgdh.react.bare_parts c p (i := 2) (j := 0) (a := 1) (b := 3) (x := .gluon) (y := .higgs) (k := (p 1)) (k' := (backward (p 3))) (fun _ => rfl) (fun _ => rfl) (f := .d) (g := .d) rfl rfl (l := (p 0)) rfl (e := 1) (e' := 1) (if_neg Bool.false_ne_true) (if_neg Bool.false_ne_true)]
  rw [compton_vh (f := .d) (x := .d) (g := .d) (h := (rfl : Spec.after .gluon Flavour.d = some Flavour.d)) (h' := (rfl : Spec.after .higgs Flavour.d = some Flavour.d)) (ha := by simp)]
  rw [compton_hv (f := .d) (x := .d) (g := .d) (h := (rfl : Spec.after .higgs Flavour.d = some Flavour.d)) (h' := (rfl : Spec.after .gluon Flavour.d = some Flavour.d)) (hb := by simp)]
  rw [annihilation_none c _ _ (by rfl) (by simp), star_zero, add_zero, dgdh.formM]
  simp only [d0, d1, lineV_pv, lineV_four, contract_four_pv, contract_pv, mb_plus, mb_backward]
  have i0 := mb_schouten_left z0.2 z1.2 ρ1 (p 0) z1.1
  have i1 := mb_schouten_left z0.2 z1.2 z2.2 (p 0) z1.1
  have i2 := mb_schouten_right z1.2 (p 2) z0.1 z1.1 z2.1
  have i3 := mb_schouten_left z0.2 z2.2 ρ1 (p 0) z1.1
  have i4 := mb_det z1.2 ρ1 (p 3) z0.1 z1.1
  rw [q3] at i4
  have i5 := mb_schouten_left z0.2 z1.2 z2.2 (p 2) z1.1
  have i6 := mb_schouten_left z1.2 z2.2 ρ1 (p 0) z1.1
  have i7 := mb_schouten_left z0.2 z1.2 ρ1 (p 2) z1.1
  have i8 := mb_schouten_left z0.2 z2.2 ρ1 (p 2) z1.1
  have i9 := mb_schouten_right ρ1 (p 0) z0.1 z1.1 z2.1
  have i10 := chain_angle z0.2 z2.2 z1.1 (p 2) (p 3) z1.1
  have i11 := mb_schouten_right ρ1 (p 2) z0.1 z1.1 z2.1
  simp only [l1.mb_eq, b0.mb_left, b0.mb_right, b2.mb_left, b2.mb_right, e10, e12, mb_three hb z0.2 z0.1, mb_three hb z0.2 z1.1, mb_three hb z0.2 z2.1, mb_three hb z1.2 z0.1, mb_three hb z1.2 z1.1, mb_three hb z1.2 z2.1, mb_three hb z2.2 z0.1, mb_three hb z2.2 z1.1, mb_three hb z2.2 z2.1, mb_three hb ρ1 z0.1, mb_three hb ρ1 z1.1, mb_three hb ρ1 z2.1, ab_self, sb_self] at i0 i1 i2 i3 i4 i5 i6 i7 i8 i9 i10 i11 ⊢
  simp only [ab_swap z0.1 z1.1, ab_swap z0.1 z2.1, ab_swap z1.1 z2.1, sb_swap z0.2 z1.2, sb_swap z0.2 z2.2, sb_swap z0.2 ρ1, sb_swap z1.2 z2.2, sb_swap z1.2 ρ1, sb_swap z2.2 ρ1] at i0 i1 i2 i3 i4 i5 i6 i7 i8 i9 i10 i11 ⊢
  simp only [r2, r3, r6, Constants.hL, Constants.hR, Constants.gL, Constants.gR, Constants.yuk, Constants.invVev, Flavour.charge_d, Flavour.isospin_d, ← c.mz]
  have xMW : (c.MW : ℂ) ≠ 0 := by exact_mod_cast hc.MW
  have xSW : (c.SW : ℂ) ≠ 0 := by exact_mod_cast hc.SW
  have xCW : (c.CW : ℂ) ≠ 0 := by exact_mod_cast hc.CW
  have x2 : ((√2 : ℝ) : ℂ) ≠ 0 := by exact_mod_cast (Real.sqrt_pos.2 two_pos).ne'
  have x22 : ((√2 : ℝ) : ℂ) ^ 2 = 2 := by rw [← Complex.ofReal_pow, Real.sq_sqrt two_pos.le]; norm_num
  have x23 : ((√2 : ℝ) : ℂ) ^ 3 = 2 * ((√2 : ℝ) : ℂ) := by rw [← x22]; ring
  have x24 : ((√2 : ℝ) : ℂ) ^ 4 = 4 := by linear_combination (((√2 : ℝ) : ℂ) ^ 2 + 2) * x22
  push_cast at i0 i1 i2 i3 i4 i5 i6 i7 i8 i9 i10 i11 ⊢
  have y0 := mul_inv_cancel₀ n0
  have y1 := mul_inv_cancel₀ n1
  linear_combination ((((-1) * (((√2 : ℝ) : ℂ)) * ((c.e : ℂ)) * ((c.gs : ℂ)) * ((c.mass .d : ℂ)) * (mb z2.2 (p 0) z1.1) + (-3) * (((√2 : ℝ) : ℂ)) * ((c.e : ℂ)) * ((c.gs : ℂ)) * ((c.mass .d : ℂ)) ^ 2 * (ab z1.1 z2.1)) * i0 + ((1) * (((√2 : ℝ) : ℂ)) * ((c.e : ℂ)) * ((c.gs : ℂ)) * ((c.mass .d : ℂ)) * (mb ρ1 (p 0) z1.1) + (-1) * (((√2 : ℝ) : ℂ)) * ((c.e : ℂ)) * ((c.gs : ℂ)) * ((c.mass .d : ℂ)) * (mb ρ1 (p 2) z1.1)) * i1 + ((1) * (((√2 : ℝ) : ℂ)) * ((c.e : ℂ)) * ((c.gs : ℂ)) * ((c.mass .d : ℂ)) * (mb ρ1 (p 0) z1.1) + (-1) * (((√2 : ℝ) : ℂ)) * ((c.e : ℂ)) * ((c.gs : ℂ)) * ((c.mass .d : ℂ)) * (mb ρ1 (p 2) z1.1)) * i2 + ((1) * (((√2 : ℝ) : ℂ)) * ((c.e : ℂ)) * ((c.gs : ℂ)) * ((c.mass .d : ℂ)) * (N.c 0) + (2) * (((√2 : ℝ) : ℂ)) * ((c.e : ℂ)) * ((c.gs : ℂ)) * ((c.mass .d : ℂ)) * (N.c 1)) * i3 + ((1) * (((√2 : ℝ) : ℂ)) * ((c.e : ℂ)) * ((c.gs : ℂ)) * ((c.mass .d : ℂ)) * (ab z1.1 z2.1)) * i4 + ((-2) * (((√2 : ℝ) : ℂ)) * ((c.e : ℂ)) * ((c.gs : ℂ)) * ((c.mass .d : ℂ)) * (mb ρ1 (p 0) z1.1)) * i5 + ((2) * (((√2 : ℝ) : ℂ)) * ((c.e : ℂ)) * ((c.gs : ℂ)) * ((c.mass .d : ℂ)) * (mb z0.2 (p 2) z1.1)) * i6 + ((1) * (((√2 : ℝ) : ℂ)) * ((c.e : ℂ)) * ((c.gs : ℂ)) * ((c.mass .d : ℂ)) * (mb z2.2 (p 0) z1.1) + (1) * (((√2 : ℝ) : ℂ)) * ((c.e : ℂ)) * ((c.gs : ℂ)) * ((c.mass .d : ℂ)) ^ 2 * (ab z1.1 z2.1)) * i7 + ((-1) * (((√2 : ℝ) : ℂ)) * ((c.e : ℂ)) * ((c.gs : ℂ)) * ((c.mass .d : ℂ)) * (N.c 0)) * i8 + ((1) * (((√2 : ℝ) : ℂ)) * ((c.e : ℂ)) * ((c.gs : ℂ)) * ((c.mass .d : ℂ)) * (N.c 1)) * i9 + ((1) * (((√2 : ℝ) : ℂ)) * ((c.e : ℂ)) * ((c.gs : ℂ)) * ((c.mass .d : ℂ)) * (sb z1.2 ρ1)) * i10 + ((-1) * (((√2 : ℝ) : ℂ)) * ((c.e : ℂ)) * ((c.gs : ℂ)) * ((c.mass .d : ℂ)) * (N.c 1)) * i11)) * ((1) * ((c.MW : ℂ)⁻¹) * ((c.SW : ℂ)⁻¹) * ((N.c 0)⁻¹) * ((N.c 1)⁻¹) / (2)) + ((1) * (((√2 : ℝ) : ℂ)) * ((c.e : ℂ)) * ((c.gs : ℂ)) * ((c.MW : ℂ)⁻¹) * ((c.SW : ℂ)⁻¹) * ((c.mass .d : ℂ)) * ((N.c 1)⁻¹) * (ab z0.1 z1.1) * (ab z1.1 z2.1) * (sb z1.2 ρ1) / (2) + (-1) * (((√2 : ℝ) : ℂ)) * ((c.e : ℂ)) * ((c.gs : ℂ)) * ((c.MW : ℂ)⁻¹) * ((c.SW : ℂ)⁻¹) * ((c.mass .d : ℂ)) * ((N.c 1)⁻¹) * (ab z1.1 z2.1) * (mb ρ1 (p 2) z0.1) / (2) + (-1) * (((√2 : ℝ) : ℂ)) * ((c.e : ℂ)) * ((c.gs : ℂ)) * ((c.MW : ℂ)⁻¹) * ((c.SW : ℂ)⁻¹) * ((c.mass .d : ℂ)) * ((N.c 1)⁻¹) * (mb z0.2 (p 2) z1.1) * (sb z2.2 ρ1) / (2) + (-1) * (((√2 : ℝ) : ℂ)) * ((c.e : ℂ)) * ((c.gs : ℂ)) * ((c.MW : ℂ)⁻¹) * ((c.SW : ℂ)⁻¹) * ((c.mass .d : ℂ)) ^ 2 * ((N.c 1)⁻¹) * (ab z0.1 z1.1) * (sb z2.2 ρ1) / (2) + (-1) * (((√2 : ℝ) : ℂ)) * ((c.e : ℂ)) * ((c.gs : ℂ)) * ((c.MW : ℂ)⁻¹) * ((c.SW : ℂ)⁻¹) * ((c.mass .d : ℂ)) ^ 2 * ((N.c 1)⁻¹) * (ab z1.1 z2.1) * (sb z0.2 ρ1) / (2)) * y0 + ((1) * (((√2 : ℝ) : ℂ)) * ((c.e : ℂ)) * ((c.gs : ℂ)) * ((c.MW : ℂ)⁻¹) * ((c.SW : ℂ)⁻¹) * ((c.mass .d : ℂ)) * ((N.c 0)⁻¹) * (ab z0.1 z1.1) * (ab z1.1 z2.1) * (sb z1.2 ρ1) / (2) + (-1) * (((√2 : ℝ) : ℂ)) * ((c.e : ℂ)) * ((c.gs : ℂ)) * ((c.MW : ℂ)⁻¹) * ((c.SW : ℂ)⁻¹) * ((c.mass .d : ℂ)) * ((N.c 0)⁻¹) * (ab z0.1 z1.1) * (mb ρ1 (p 0) z2.1) / (2) + (1) * (((√2 : ℝ) : ℂ)) * ((c.e : ℂ)) * ((c.gs : ℂ)) * ((c.MW : ℂ)⁻¹) * ((c.SW : ℂ)⁻¹) * ((c.mass .d : ℂ)) * ((N.c 0)⁻¹) * (mb z2.2 (p 0) z1.1) * (sb z0.2 ρ1) / (2) + (-1) * (((√2 : ℝ) : ℂ)) * ((c.e : ℂ)) * ((c.gs : ℂ)) * ((c.MW : ℂ)⁻¹) * ((c.SW : ℂ)⁻¹) * ((c.mass .d : ℂ)) ^ 2 * ((N.c 0)⁻¹) * (ab z0.1 z1.1) * (sb z2.2 ρ1) / (2) + (-1) * (((√2 : ℝ) : ℂ)) * ((c.e : ℂ)) * ((c.gs : ℂ)) * ((c.MW : ℂ)⁻¹) * ((c.SW : ℂ)⁻¹) * ((c.mass .d : ℂ)) ^ 2 * ((N.c 0)⁻¹) * (ab z1.1 z2.1) * (sb z0.2 ρ1) / (2)) * y1
set_option maxRecDepth 8000 in
theorem dgdh.amp2_eq (N : Env) (f : Nat → List Int → ℂ) : Cls.dgdh.m_amp2.mean N f .r [] =
    ((sumJ (fun x a => (sumW (fun x b => (sumJ (fun x c => (x + (((4 : Nat) : ℝ) * (‖(f 0 [a, b, c])‖ ^ 2)))) x)) x)) ((0 : Nat) : ℝ)) / ((96 : Nat) : ℝ)) := by rfl
set_option maxRecDepth 8000 in
theorem dgdh.value (N : Env) : meaning N .r Cls.dgdh.methods Cls.dgdh.amp2 [] =
    ((sumJ (fun x a => (sumW (fun x b => (sumJ (fun x c => (x + (((4 : Nat) : ℝ) * (‖(Cls.dgdh.m_amp.mean N (callMean N []) .c [a, b, c])‖ ^ 2)))) x)) x)) ((0 : Nat) : ℝ)) / ((96 : Nat) : ℝ)) :=
  dgdh.amp2_eq N (callMean N [Cls.dgdh.m_amp])
set_option maxRecDepth 8000 in
theorem dgdh.ampP (N : Env) (f : Nat → List Int → ℂ) (j1 j3 : Int) : Cls.dgdh.m_amp.mean N f .c [j1, 2, j3] = dgdh.termP N j1 j3 := by rfl
set_option maxRecDepth 8000 in
theorem dgdh.ampM (N : Env) (f : Nat → List Int → ℂ) (j1 j3 : Int) : Cls.dgdh.m_amp.mean N f .c [j1, (-2), j3] = dgdh.termM N j1 j3 := by rfl

theorem dgdh.mass_eq {c : Constants} (hc : c.Physical) (i : Fin 4) : dgdh.proc.massNum (dgdh.rho c) i = dgdh.react.mass c i := by
  fin_cases i <;> first | rfl | exact Nat.cast_zero | exact Nat.cast_zero.trans (hc.neutrino _).symm | (show c.MW / √(((1 : Nat) : ℝ) - c.SW * c.SW) = c.MZ; rw [c.root, c.mz])

variable [FPEnv] in
theorem dgdh.amps {c : Constants} {p : Nat → V4 ℝ} {u : Fin 4 → Fin 3 → Spinor} {ε : Fin 4 → Fin 3 → Vec} (hc : c.Physical) (hh : c.Heavy) (h0 : ∀ i, 0 ≤ dgdh.react.mass c i) (hs : ∀ i : Fin 4, OnShell (p i) (dgdh.react.mass c i)) (hb : Balanced p) (hr : dgdh.react.Regular c p) (hu : ∀ i, dgdh.react.Complete c p i (u i) (ε i)) :
    (dgdh.N c p).c 0 ≠ 0 ∧ (dgdh.N c p).c 1 ≠ 0 ∧ (∀ n, (Ty.r, n) ∈ dgdh.proc.divides → (dgdh.N c p).r n ≠ 0) ∧ (∀ n, (Ty.c, n) ∈ dgdh.proc.divides → (dgdh.N c p).c n ≠ 0) ∧ ∀ (s0 : Fin 2) (s2 : Fin 2) (h1 : Fin 2), ‖Cls.dgdh.m_amp.mean (dgdh.N c p) (callMean (dgdh.N c p) []) .c [spinOf s0, spinW h1, spinOf s2]‖ = ‖dgdh.react.bare c p 2 0 1 3 (dgdh.react.codePair c p 2 s2) (dgdh.react.codePair c p 0 s0) (lightE (legA (p 1) 0 0, legS (p 1) 0 1) h1.castSucc) (dgdh.react.codeVec c p 3 0)‖ := by
  have he : dgdh.react.ends = [2] := by decide
  have ht : dgdh.react.starts = [0] := by decide
  have hB : dgdh.react.bosons = [1, 3] := by decide
  obtain ⟨f1, f2, f3⟩ := dgdh.react.regular_line he ht hB hr
  have r2 : (dgdh.N c p).r 2 = (c.mass .d) := rfl
  have r3 : (dgdh.N c p).r 3 = c.MH := rfl
  have r6 : (dgdh.N c p).r 6 = ((((√(((2 : Nat) : ℝ)) * c.e) * c.gs) * (c.mass .d)) / ((((2 : Nat) : ℝ) * c.MW) * c.SW)) := rfl
  have c0 : (dgdh.N c p).c 0 = poleDist (c.mass .d) ((0 : Nat) : ℝ) ((VExp.add 0 1).sum p) := rfl
  rw [Nat.cast_zero, pole_fermion rfl] at c0
  have d0 : ((msq (plus (p 0) (p 1)) - c.mass .d ^ 2 : ℝ) : ℂ) = (dgdh.N c p).c 0 := by rw [c0, msq_s hb (plus (p 0) (p 1)) (by simp)]
  have n0 : (dgdh.N c p).c 0 ≠ 0 := by rw [← d0]; exact_mod_cast f1 .d rfl rfl
  have c1 : (dgdh.N c p).c 1 = poleDist (c.mass .d) ((0 : Nat) : ℝ) ((VExp.sub 0 3).sum p) := rfl
  rw [Nat.cast_zero, pole_fermion rfl] at c1
  have d1 : ((msq (plus (p 0) (backward (p 3))) - c.mass .d ^ 2 : ℝ) : ℂ) = (dgdh.N c p).c 1 := by rw [c1, msq_u hb (plus (p 0) (backward (p 3))) (by simp)]
  have n1 : (dgdh.N c p).c 1 ≠ 0 := by rw [← d1]; exact_mod_cast f2 .d rfl rfl
  obtain ⟨l1, x1, y1⟩ := dgdh.react.code_light hs hu (n := 1) rfl rfl
  have e10 := l1.pole_add (m := (c.mass .d)) (onShell_msq (hs 0)) (msq_s hb (plus (p 1) (p 0)) (by simp)) c0
  have e12 := l1.pole_sub (m := (c.mass .d)) (onShell_msq (hs 2)) (msq_u hb (plus (p 1) (backward (p 2))) (by simp)) c1
  have m0 : dgdh.react.mass c 0 ≠ 0 := (leg_pos hc hh (by decide)).ne'
  have m2 : dgdh.react.mass c 2 ≠ 0 := (leg_pos hc hh (by decide)).ne'
  have m1 : dgdh.react.mass c 1 = 0 := rfl
  have hd : dgdh.proc.divides = [(Ty.c, 0), (Ty.c, 1)] := by decide +kernel
  have stP : ∀ {z0 z2 : Pair} (b0 : Bold (p 0) (dgdh.react.mass c 0) z0) (b2 : Bold (p 2) (dgdh.react.mass c 2) z2), dgdh.formP (dgdh.N c p) p z0 (legA (p 1) 0 0, legS (p 1) 0 1) z2 = 1 * dgdh.react.bare c p 2 0 1 3 z2 z0 (lightE (legA (p 1) 0 0, legS (p 1) 0 1) 1) (dgdh.react.codeVec c p 3 0) := by
    intro z0 z2 b0 b2
    exact (light_plus (z := (legA (p 1) 0 0, legS (p 1) 0 1)) (G := fun E => dgdh.react.bare c p 2 0 1 3 z2 z0 E (dgdh.react.codeVec c p 3 0)) (dgdh.react.bare_lin₁ c p _ _ _ (by decide)) x1 (dgdh.keyP hc hb r2 r3 r6 d0 n0 d1 n1 b0 b2 l1 e10 e12 (onShell_msq (hs 0)) (onShell_msq (hs 2)) (onShell_msq (hs 3)) _ (dgdh.react.codeVec c p 3 0)))
  have stM : ∀ {z0 z2 : Pair} (b0 : Bold (p 0) (dgdh.react.mass c 0) z0) (b2 : Bold (p 2) (dgdh.react.mass c 2) z2), dgdh.formM (dgdh.N c p) p z0 (legA (p 1) 0 0, legS (p 1) 0 1) z2 = 1 * dgdh.react.bare c p 2 0 1 3 z2 z0 (lightE (legA (p 1) 0 0, legS (p 1) 0 1) 0) (dgdh.react.codeVec c p 3 0) := by
    intro z0 z2 b0 b2
    exact (light_minus (z := (legA (p 1) 0 0, legS (p 1) 0 1)) (G := fun E => dgdh.react.bare c p 2 0 1 3 z2 z0 E (dgdh.react.codeVec c p 3 0)) (dgdh.react.bare_lin₁ c p _ _ _ (by decide)) y1 (dgdh.keyM hc hb r2 r3 r6 d0 n0 d1 n1 b0 b2 l1 e10 e12 (onShell_msq (hs 0)) (onShell_msq (hs 2)) (onShell_msq (hs 3)) _ (dgdh.react.codeVec c p 3 0)))
  have amP : ∀ (s0 : Fin 2) (s2 : Fin 2), Cls.dgdh.m_amp.mean (dgdh.N c p) (callMean (dgdh.N c p) []) .c [spinOf s0, 2, spinOf s2] = 1 * dgdh.react.bare c p 2 0 1 3 (dgdh.react.codePair c p 2 s2) (dgdh.react.codePair c p 0 s0) (lightE (legA (p 1) 0 0, legS (p 1) 0 1) 1) (dgdh.react.codeVec c p 3 0) := by
    intro s0 s2
    rw [dgdh.ampP, ← stP (dgdh.react.codePair_bold hs h0 0 s0) (dgdh.react.codePair_bold hs h0 2 s2)]
    have v0z0z1 : (dgdh.N c p).v 0 [spinOf s0] = sb (dgdh.react.codePair c p 0 s0).2 (legA (p 1) 0 0, legS (p 1) 0 1).2 := bra_square (p := p) (m := dgdh.proc.massNum (dgdh.rho c)) (dgdh.mass_eq hc 0) (dgdh.mass_eq hc 1) (.inl ⟨m0, rfl⟩) (.inr ⟨m1, rfl⟩)
    have v2z1z2 : (dgdh.N c p).v 2 [spinOf s2] = sb (legA (p 1) 0 0, legS (p 1) 0 1).2 (dgdh.react.codePair c p 2 s2).2 := bra_square (p := p) (m := dgdh.proc.massNum (dgdh.rho c)) (dgdh.mass_eq hc 1) (dgdh.mass_eq hc 2) (.inr ⟨m1, rfl⟩) (.inl ⟨m2, rfl⟩)
    have v6z1z2 : (dgdh.N c p).v 6 [spinOf s2] = mb (legA (p 1) 0 0, legS (p 1) 0 1).2 (p 3) (dgdh.react.codePair c p 2 s2).1 := bra_mid_square (p := p) (m := dgdh.proc.massNum (dgdh.rho c)) (dgdh.mass_eq hc 1) (dgdh.mass_eq hc 2) (.inr ⟨m1, rfl⟩) (.inl ⟨m2, rfl⟩)
    have v8z1z0 : (dgdh.N c p).v 8 [spinOf s0] = mb (legA (p 1) 0 0, legS (p 1) 0 1).2 (p 3) (dgdh.react.codePair c p 0 s0).1 := bra_mid_square (p := p) (m := dgdh.proc.massNum (dgdh.rho c)) (dgdh.mass_eq hc 1) (dgdh.mass_eq hc 0) (.inr ⟨m1, rfl⟩) (.inl ⟨m0, rfl⟩)
    have v5z0z2 : (dgdh.N c p).v 5 [spinOf s0, spinOf s2] = ab (dgdh.react.codePair c p 0 s0).1 (dgdh.react.codePair c p 2 s2).1 := bra_angle (p := p) (m := dgdh.proc.massNum (dgdh.rho c)) (dgdh.mass_eq hc 0) (dgdh.mass_eq hc 2) (.inl ⟨m0, rfl⟩) (.inl ⟨m2, rfl⟩)
    have v10z1z1 : (dgdh.N c p).v 10 [] = mb (legA (p 1) 0 0, legS (p 1) 0 1).2 (p 2) (slashLower (p 3) *ᵥ (legA (p 1) 0 0, legS (p 1) 0 1).2) := bra_two_square (p := p) (m := dgdh.proc.massNum (dgdh.rho c)) (dgdh.mass_eq hc 1) (dgdh.mass_eq hc 1) (.inr ⟨m1, rfl⟩) (.inr ⟨m1, rfl⟩)
    simp only [dgdh.termP, dgdh.formP, v0z0z1, v2z1z2, v6z1z2, v8z1z0, v5z0z2, v10z1z1]
  have amM : ∀ (s0 : Fin 2) (s2 : Fin 2), Cls.dgdh.m_amp.mean (dgdh.N c p) (callMean (dgdh.N c p) []) .c [spinOf s0, (-2), spinOf s2] = 1 * dgdh.react.bare c p 2 0 1 3 (dgdh.react.codePair c p 2 s2) (dgdh.react.codePair c p 0 s0) (lightE (legA (p 1) 0 0, legS (p 1) 0 1) 0) (dgdh.react.codeVec c p 3 0) := by
    intro s0 s2
    rw [dgdh.ampM, ← stM (dgdh.react.codePair_bold hs h0 0 s0) (dgdh.react.codePair_bold hs h0 2 s2)]
    have v1z0z1 : (dgdh.N c p).v 1 [spinOf s0] = ab (dgdh.react.codePair c p 0 s0).1 (legA (p 1) 0 0, legS (p 1) 0 1).1 := bra_angle (p := p) (m := dgdh.proc.massNum (dgdh.rho c)) (dgdh.mass_eq hc 0) (dgdh.mass_eq hc 1) (.inl ⟨m0, rfl⟩) (.inr ⟨m1, rfl⟩)
    have v3z1z2 : (dgdh.N c p).v 3 [spinOf s2] = ab (legA (p 1) 0 0, legS (p 1) 0 1).1 (dgdh.react.codePair c p 2 s2).1 := bra_angle (p := p) (m := dgdh.proc.massNum (dgdh.rho c)) (dgdh.mass_eq hc 1) (dgdh.mass_eq hc 2) (.inr ⟨m1, rfl⟩) (.inl ⟨m2, rfl⟩)
    have v7z1z2 : (dgdh.N c p).v 7 [spinOf s2] = mb (dgdh.react.codePair c p 2 s2).2 (p 3) (legA (p 1) 0 0, legS (p 1) 0 1).1 := bra_mid_angle (p := p) (m := dgdh.proc.massNum (dgdh.rho c)) (dgdh.mass_eq hc 1) (dgdh.mass_eq hc 2) (.inr ⟨m1, rfl⟩) (.inl ⟨m2, rfl⟩)
    have v9z1z0 : (dgdh.N c p).v 9 [spinOf s0] = mb (dgdh.react.codePair c p 0 s0).2 (p 3) (legA (p 1) 0 0, legS (p 1) 0 1).1 := bra_mid_angle (p := p) (m := dgdh.proc.massNum (dgdh.rho c)) (dgdh.mass_eq hc 1) (dgdh.mass_eq hc 0) (.inr ⟨m1, rfl⟩) (.inl ⟨m0, rfl⟩)
    have v4z0z2 : (dgdh.N c p).v 4 [spinOf s0, spinOf s2] = sb (dgdh.react.codePair c p 0 s0).2 (dgdh.react.codePair c p 2 s2).2 := bra_square (p := p) (m := dgdh.proc.massNum (dgdh.rho c)) (dgdh.mass_eq hc 0) (dgdh.mass_eq hc 2) (.inl ⟨m0, rfl⟩) (.inl ⟨m2, rfl⟩)
    have v11z1z1 : (dgdh.N c p).v 11 [] = mb (slashUpper (p 3) *ᵥ (legA (p 1) 0 0, legS (p 1) 0 1).1) (p 2) (legA (p 1) 0 0, legS (p 1) 0 1).1 := bra_two_angle (p := p) (m := dgdh.proc.massNum (dgdh.rho c)) (dgdh.mass_eq hc 1) (dgdh.mass_eq hc 1) (.inr ⟨m1, rfl⟩) (.inr ⟨m1, rfl⟩)
    simp only [dgdh.termM, dgdh.formM, v1z0z1, v3z1z2, v7z1z2, v9z1z0, v4z0z2, v11z1z1]
  refine ⟨n0, n1, fun n hn => ?_, fun n hn => ?_, ?_⟩
  · simp [hd] at hn
  · simp [hd] at hn
    rcases hn with rfl | rfl
    · exact n0
    · exact n1
  intro s0 s2 h1
  match h1 with
  | 1 => exact norm_plus (amP s0 s2)
  | 0 => exact norm_plus (amM s0 s2)

variable [FPEnv] in
theorem dgdh.agrees : dgdh.Agrees := by
  refine agrees_of (D := [4, 5]) (E := [5]) (by simp [all, dgdh]) (by decide +kernel) (by decide) (by decide +kernel) (fun c hc hh => ⟨List.forall_mem_cons.2 ⟨hc.MW, List.forall_mem_cons.2 ⟨hc.SW, List.forall_mem_nil _⟩⟩, List.forall_mem_cons.2 ⟨hc.SW_lt, List.forall_mem_nil _⟩⟩) (fun c hc i => dgdh.mass_eq hc i) (by decide +kernel) ?_
  intro c p u ε hc hh hw h0 hs hb hr hu
  have he : dgdh.react.ends = [2] := by decide
  have ht : dgdh.react.starts = [0] := by decide
  have hB : dgdh.react.bosons = [1, 3] := by decide
  obtain ⟨n0, n1, d1, d2, am⟩ := dgdh.amps hc hh h0 hs hb hr hu
  refine ⟨d1, d2, ?_⟩
  show meaning (dgdh.N c p) .r Cls.dgdh.methods Cls.dgdh.amp2 [] = _
  have s0 : dgdh.react.states 0 = 6 := by decide +kernel
  have s1 : dgdh.react.states 1 = 16 := by decide +kernel
  have sy : dgdh.react.symmetry = 1 := by decide
  have p0 : dgdh.react.spins 0 = {0, 1} := rfl
  have p1 : dgdh.react.spins 1 = {0, 1} := rfl
  have p2 : dgdh.react.spins 2 = {0, 1} := rfl
  have p3 : dgdh.react.spins 3 = {0} := rfl
  have E1 : dgdh.react.codeE c p 1 = lightE (legA (p 1) 0 0, legS (p 1) 0 1) := rfl
  have E3 : dgdh.react.codeE c p 3 = dgdh.react.codeVec c p 3 := rfl
  have hG : dgdh.react.Gauge c p := (dgdh.react.gauge_line he ht hB hh (by decide) (fun n => onShell_msq (hs n)) hb hr (fun n m h h2 => absurd (And.intro h h2) (by revert n m; decide)) (fun _ => ⟨rfl, rfl⟩) (fun h => absurd h (by decide)))
  rw [dgdh.value, dgdh.react.squared_gluon 1 he ht hB (by decide) (by decide +kernel) (by decide +kernel) hs h0 (fun _ b _ hb _ => (boson_pos hc hh hb).ne') hG (E := dgdh.react.codeE c p) (fun n b hl => dgdh.react.codeE_polarised hs h0 hu (fun b hb => (boson_pos hc hh hb).ne') n b hl) hu, sum_colours, s0, s1, sy]
  simp only [sumV_sum, sumJ_sum, sumW_sum, am, p0, p1, p2, p3, E1, E3, Finset.sum_singleton, sum_two, Matrix.cons_val_zero, Matrix.cons_val_one, Matrix.cons_val, two_castSucc]
  try simp only [← Finset.mul_sum]
  push_cast
  first | ring1 | ring_nf

/-! ### uguh -/

/-- what the methods of the class see -/
noncomputable abbrev uguh.N [FPEnv] (c : Constants) (p : Nat → V4 ℝ) : Env := uguh.proc.env (uguh.rho c) p
/-- `amp` for a gluon of positive helicity (SM/uguh.cpp) -/
noncomputable def uguh.termP (N : Env) (j1 j3 : Int) : ℂ :=
  (((((N.r 6 : ℝ) : ℂ) * ((((((((N.r 3 * N.r 3) : ℝ) : ℂ) * N.v 0 [j1]) * N.v 2 [j3]) - ((((N.r 2 : ℝ) : ℂ) * N.v 0 [j1]) * N.v 6 [j3])) - ((((N.r 2 : ℝ) : ℂ) * N.v 2 [j3]) * N.v 8 [j1])) + (N.v 5 [j1, j3] * N.v 10 []))) / N.c 0) / N.c 1)
/-- the same with spinors in place of their spins -/
noncomputable def uguh.formP (N : Env) (p : Nat → V4 ℝ) (z0 z1 z2 : Pair) : ℂ :=
  (((((N.r 6 : ℝ) : ℂ) * ((((((((N.r 3 * N.r 3) : ℝ) : ℂ) * (sb z0.2 z1.2)) * (sb z1.2 z2.2)) - ((((N.r 2 : ℝ) : ℂ) * (sb z0.2 z1.2)) * (mb z1.2 (p 3) z2.1))) - ((((N.r 2 : ℝ) : ℂ) * (sb z1.2 z2.2)) * (mb z1.2 (p 3) z0.1))) + ((ab z0.1 z2.1) * (mb z1.2 (p 2) (slashLower (p 3) *ᵥ z1.2))))) / N.c 0) / N.c 1)
/-- `amp` for a gluon of negative helicity (SM/uguh.cpp) -/
noncomputable def uguh.termM (N : Env) (j1 j3 : Int) : ℂ :=
  (((((N.r 6 : ℝ) : ℂ) * (((((((((-N.r 3) * N.r 3) : ℝ) : ℂ) * N.v 1 [j1]) * N.v 3 [j3]) + ((((N.r 2 : ℝ) : ℂ) * N.v 1 [j1]) * N.v 7 [j3])) + ((((N.r 2 : ℝ) : ℂ) * N.v 3 [j3]) * N.v 9 [j1])) - (N.v 4 [j1, j3] * N.v 11 []))) / N.c 0) / N.c 1)
/-- the same with spinors in place of their spins -/
noncomputable def uguh.formM (N : Env) (p : Nat → V4 ℝ) (z0 z1 z2 : Pair) : ℂ :=
  (((((N.r 6 : ℝ) : ℂ) * (((((((((-N.r 3) * N.r 3) : ℝ) : ℂ) * (ab z0.1 z1.1)) * (ab z1.1 z2.1)) + ((((N.r 2 : ℝ) : ℂ) * (ab z0.1 z1.1)) * (mb z2.2 (p 3) z1.1))) + ((((N.r 2 : ℝ) : ℂ) * (ab z1.1 z2.1)) * (mb z0.2 (p 3) z1.1))) - ((sb z0.2 z2.2) * (mb (slashUpper (p 3) *ᵥ z1.1) (p 2) z1.1)))) / N.c 0) / N.c 1)
theorem uguh.keyP {c : Constants} {p : Nat → V4 ℝ} {N : Env} (hc : c.Physical) (hb : Balanced p) (r2 : N.r 2 = (c.mass .u)) (r3 : N.r 3 = c.MH) (r6 : N.r 6 = ((((√(((2 : Nat) : ℝ)) * c.e) * c.gs) * (c.mass .u)) / ((((2 : Nat) : ℝ) * c.MW) * c.SW))) (d0 : ((msq (plus (p 0) (p 1)) - c.mass .u ^ 2 : ℝ) : ℂ) = N.c 0) (n0 : N.c 0 ≠ 0) (d1 : ((msq (plus (p 0) (backward (p 3))) - c.mass .u ^ 2 : ℝ) : ℂ) = N.c 1) (n1 : N.c 1 ≠ 0) {z0 z1 z2 : Pair} (b0 : Bold (p 0) (c.mass .u) z0) (b2 : Bold (p 2) (c.mass .u) z2) (l1 : Light (p 1) z1) (e10 : mb z1.2 (p 0) z1.1 = N.c 0) (e12 : mb z1.2 (p 2) z1.1 = -N.c 1) (q0 : msq (p 0) = (c.mass .u) ^ 2) (q2 : msq (p 2) = (c.mass .u) ^ 2) (q3 : msq (p 3) = c.MH ^ 2) (ρ1 : V2) (E3 : Vec) :
    uguh.formP N p z0 z1 z2 * ab ρ1 z1.1 = ((√2 : ℝ) * (1 : ℂ)) * uguh.react.bare c p 2 0 1 3 z2 z0 (pv ρ1 z1.2) E3 := by
  rw [uguh.react.bare_parts c p (i := 2) (j := 0) (a := 1) (b := 3) (x := .gluon) (y := .higgs) (k := (p 1)) (k' := (backward (p 3))) (fun _ => rfl) (fun _ => rfl) (f := .u) (g := .u) rfl rfl (l := (p 0)) rfl (e := 1) (e' := 1) (if_neg Bool.false_ne_true) (if_neg Bool.false_ne_true)]
  rw [compton_vh (f := .u) (x := .u) (g := .u) (h := (rfl : Spec.after .gluon Flavour.u = some Flavour.u)) (h' := (rfl : Spec.after .higgs Flavour.u = some Flavour.u)) (ha := by simp)]
  rw [compton_hv (f := .u) (x := .u) (g := .u) (h := (rfl : Spec.after .higgs Flavour.u = some Flavour.u)) (h' := (rfl : Spec.after .gluon Flavour.u = some Flavour.u)) (hb := by simp)]
  rw [annihilation_none c _ _ (by rfl) (by simp), star_zero, add_zero, uguh.formP]
  simp only [d0, d1, lineV_pv, lineV_four, contract_four_pv, contract_pv, mb_plus, mb_backward]
  have i0 := mb_schouten_right z1.2 (p 0) z0.1 z1.1 ρ1
  have i1 := mb_schouten_right z1.2 (p 0) z0.1 z1.1 z2.1
  have i2 := mb_schouten_right z1.2 (p 0) z0.1 z2.1 ρ1
  have i3 := mb_schouten_left z0.2 z1.2 z2.2 (p 2) z1.1
  have i4 := mb_det z0.2 z1.2 (p 3) z1.1 ρ1
  rw [q3] at i4
  have i5 := mb_schouten_right z1.2 (p 2) z0.1 z1.1 z2.1
  have i6 := mb_schouten_right z1.2 (p 0) z1.1 z2.1 ρ1
  have i7 := mb_schouten_right z1.2 (p 2) z0.1 z1.1 ρ1
  have i8 := mb_schouten_right z1.2 (p 2) z0.1 z2.1 ρ1
  have i9 := chain_square z0.1 z2.1 z1.2 (p 2) (p 3) z1.2
  have i10 := mb_schouten_left z0.2 z1.2 z2.2 (p 0) ρ1
  have i11 := mb_schouten_left z0.2 z1.2 z2.2 (p 2) ρ1
  simp only [l1.mb_eq, b0.mb_left, b0.mb_right, b2.mb_left, b2.mb_right, e10, e12, mb_three hb z0.2 z0.1, mb_three hb z0.2 z1.1, mb_three hb z0.2 z2.1, mb_three hb z0.2 ρ1, mb_three hb z1.2 z0.1, mb_three hb z1.2 z1.1, mb_three hb z1.2 z2.1, mb_three hb z1.2 ρ1, mb_three hb z2.2 z0.1, mb_three hb z2.2 z1.1, mb_three hb z2.2 z2.1, mb_three hb z2.2 ρ1, ab_self, sb_self] at i0 i1 i2 i3 i4 i5 i6 i7 i8 i9 i10 i11 ⊢
  simp only [ab_swap z0.1 z1.1, ab_swap z0.1 z2.1, ab_swap z0.1 ρ1, ab_swap z1.1 z2.1, ab_swap z1.1 ρ1, ab_swap z2.1 ρ1, sb_swap z0.2 z1.2, sb_swap z0.2 z2.2, sb_swap z1.2 z2.2] at i0 i1 i2 i3 i4 i5 i6 i7 i8 i9 i10 i11 ⊢
  simp only [r2, r3, r6, Constants.hL, Constants.hR, Constants.gL, Constants.gR, Constants.yuk, Constants.invVev, Flavour.charge_u, Flavour.isospin_u, ← c.mz]
  have xMW : (c.MW : ℂ) ≠ 0 := by exact_mod_cast hc.MW
  have xSW : (c.SW : ℂ) ≠ 0 := by exact_mod_cast hc.SW
  have xCW : (c.CW : ℂ) ≠ 0 := by exact_mod_cast hc.CW
  have x2 : ((√2 : ℝ) : ℂ) ≠ 0 := by exact_mod_cast (Real.sqrt_pos.2 two_pos).ne'
  have x22 : ((√2 : ℝ) : ℂ) ^ 2 = 2 := by rw [← Complex.ofReal_pow, Real.sq_sqrt two_pos.le]; norm_num
  have x23 : ((√2 : ℝ) : ℂ) ^ 3 = 2 * ((√2 : ℝ) : ℂ) := by rw [← x22]; ring
  have x24 : ((√2 : ℝ) : ℂ) ^ 4 = 4 := by linear_combination (((√2 : ℝ) : ℂ) ^ 2 + 2) * x22
  push_cast at i0 i1 i2 i3 i4 i5 i6 i7 i8 i9 i10 i11 ⊢
  have y0 := mul_inv_cancel₀ n0
  have y1 := mul_inv_cancel₀ n1
  linear_combination ((((1) * (((√2 : ℝ) : ℂ)) * ((c.e : ℂ)) * ((c.gs : ℂ)) * ((c.mass .u : ℂ)) * (mb z1.2 (p 0) z2.1) + (3) * (((√2 : ℝ) : ℂ)) * ((c.e : ℂ)) * ((c.gs : ℂ)) * ((c.mass .u : ℂ)) ^ 2 * (sb z1.2 z2.2)) * i0 + ((-1) * (((√2 : ℝ) : ℂ)) * ((c.e : ℂ)) * ((c.gs : ℂ)) * ((c.mass .u : ℂ)) * (mb z1.2 (p 0) ρ1) + (1) * (((√2 : ℝ) : ℂ)) * ((c.e : ℂ)) * ((c.gs : ℂ)) * ((c.mass .u : ℂ)) * (mb z1.2 (p 2) ρ1)) * i1 + ((-1) * (((√2 : ℝ) : ℂ)) * ((c.e : ℂ)) * ((c.gs : ℂ)) * ((c.mass .u : ℂ)) * (N.c 0) + (-2) * (((√2 : ℝ) : ℂ)) * ((c.e : ℂ)) * ((c.gs : ℂ)) * ((c.mass .u : ℂ)) * (N.c 1)) * i2 + ((-1) * (((√2 : ℝ) : ℂ)) * ((c.e : ℂ)) * ((c.gs : ℂ)) * ((c.mass .u : ℂ)) * (mb z1.2 (p 0) ρ1) + (1) * (((√2 : ℝ) : ℂ)) * ((c.e : ℂ)) * ((c.gs : ℂ)) * ((c.mass .u : ℂ)) * (mb z1.2 (p 2) ρ1)) * i3 + ((-1) * (((√2 : ℝ) : ℂ)) * ((c.e : ℂ)) * ((c.gs : ℂ)) * ((c.mass .u : ℂ)) * (sb z1.2 z2.2)) * i4 + ((2) * (((√2 : ℝ) : ℂ)) * ((c.e : ℂ)) * ((c.gs : ℂ)) * ((c.mass .u : ℂ)) * (mb z1.2 (p 0) ρ1)) * i5 + ((-2) * (((√2 : ℝ) : ℂ)) * ((c.e : ℂ)) * ((c.gs : ℂ)) * ((c.mass .u : ℂ)) * (mb z1.2 (p 2) z0.1)) * i6 + ((-1) * (((√2 : ℝ) : ℂ)) * ((c.e : ℂ)) * ((c.gs : ℂ)) * ((c.mass .u : ℂ)) * (mb z1.2 (p 0) z2.1) + (-1) * (((√2 : ℝ) : ℂ)) * ((c.e : ℂ)) * ((c.gs : ℂ)) * ((c.mass .u : ℂ)) ^ 2 * (sb z1.2 z2.2)) * i7 + ((1) * (((√2 : ℝ) : ℂ)) * ((c.e : ℂ)) * ((c.gs : ℂ)) * ((c.mass .u : ℂ)) * (N.c 0)) * i8 + ((-1) * (((√2 : ℝ) : ℂ)) * ((c.e : ℂ)) * ((c.gs : ℂ)) * ((c.mass .u : ℂ)) * (ab z1.1 ρ1)) * i9 + ((-1) * (((√2 : ℝ) : ℂ)) * ((c.e : ℂ)) * ((c.gs : ℂ)) * ((c.mass .u : ℂ)) * (N.c 1)) * i10 + ((1) * (((√2 : ℝ) : ℂ)) * ((c.e : ℂ)) * ((c.gs : ℂ)) * ((c.mass .u : ℂ)) * (N.c 1)) * i11)) * ((1) * ((c.MW : ℂ)⁻¹) * ((c.SW : ℂ)⁻¹) * ((N.c 0)⁻¹) * ((N.c 1)⁻¹) / (2)) + ((-1) * (((√2 : ℝ) : ℂ)) * ((c.e : ℂ)) * ((c.gs : ℂ)) * ((c.MW : ℂ)⁻¹) * ((c.SW : ℂ)⁻¹) * ((c.mass .u : ℂ)) * ((N.c 1)⁻¹) * (ab z1.1 ρ1) * (sb z0.2 z1.2) * (sb z1.2 z2.2) / (2) + (1) * (((√2 : ℝ) : ℂ)) * ((c.e : ℂ)) * ((c.gs : ℂ)) * ((c.MW : ℂ)⁻¹) * ((c.SW : ℂ)⁻¹) * ((c.mass .u : ℂ)) * ((N.c 1)⁻¹) * (ab z2.1 ρ1) * (mb z1.2 (p 2) z0.1) / (2) + (1) * (((√2 : ℝ) : ℂ)) * ((c.e : ℂ)) * ((c.gs : ℂ)) * ((c.MW : ℂ)⁻¹) * ((c.SW : ℂ)⁻¹) * ((c.mass .u : ℂ)) * ((N.c 1)⁻¹) * (mb z0.2 (p 2) ρ1) * (sb z1.2 z2.2) / (2) + (1) * (((√2 : ℝ) : ℂ)) * ((c.e : ℂ)) * ((c.gs : ℂ)) * ((c.MW : ℂ)⁻¹) * ((c.SW : ℂ)⁻¹) * ((c.mass .u : ℂ)) ^ 2 * ((N.c 1)⁻¹) * (ab z0.1 ρ1) * (sb z1.2 z2.2) / (2) + (1) * (((√2 : ℝ) : ℂ)) * ((c.e : ℂ)) * ((c.gs : ℂ)) * ((c.MW : ℂ)⁻¹) * ((c.SW : ℂ)⁻¹) * ((c.mass .u : ℂ)) ^ 2 * ((N.c 1)⁻¹) * (ab z2.1 ρ1) * (sb z0.2 z1.2) / (2)) * y0 + ((-1) * (((√2 : ℝ) : ℂ)) * ((c.e : ℂ)) * ((c.gs : ℂ)) * ((c.MW : ℂ)⁻¹) * ((c.SW : ℂ)⁻¹) * ((c.mass .u : ℂ)) * ((N.c 0)⁻¹) * (ab z0.1 ρ1) * (mb z1.2 (p 0) z2.1) / (2) + (-1) * (((√2 : ℝ) : ℂ)) * ((c.e : ℂ)) * ((c.gs : ℂ)) * ((c.MW : ℂ)⁻¹) * ((c.SW : ℂ)⁻¹) * ((c.mass .u : ℂ)) * ((N.c 0)⁻¹) * (ab z1.1 ρ1) * (sb z0.2 z1.2) * (sb z1.2 z2.2) / (2) + (1) * (((√2 : ℝ) : ℂ)) * ((c.e : ℂ)) * ((c.gs : ℂ)) * ((c.MW : ℂ)⁻¹) * ((c.SW : ℂ)⁻¹) * ((c.mass .u : ℂ)) * ((N.c 0)⁻¹) * (mb z2.2 (p 0) ρ1) * (sb z0.2 z1.2) / (2) + (1) * (((√2 : ℝ) : ℂ)) * ((c.e : ℂ)) * ((c.gs : ℂ)) * ((c.MW : ℂ)⁻¹) * ((c.SW : ℂ)⁻¹) * ((c.mass .u : ℂ)) ^ 2 * ((N.c 0)⁻¹) * (ab z0.1 ρ1) * (sb z1.2 z2.2) / (2) + (1) * (((√2 : ℝ) : ℂ)) * ((c.e : ℂ)) * ((c.gs : ℂ)) * ((c.MW : ℂ)⁻¹) * ((c.SW : ℂ)⁻¹) * ((c.mass .u : ℂ)) ^ 2 * ((N.c 0)⁻¹) * (ab z2.1 ρ1) * (sb z0.2 z1.2) / (2)) * y1
theorem uguh.keyM {c : Constants} {p : Nat → V4 ℝ} {N : Env} (hc : c.Physical) (hb : Balanced p) (r2 : N.r 2 = (c.mass .u)) (r3 : N.r 3 = c.MH) (r6 : N.r 6 = ((((√(((2 : Nat) : ℝ)) * c.e) * c.gs) * (c.mass .u)) / ((((2 : Nat) : ℝ) * c.MW) * c.SW))) (d0 : ((msq (plus (p 0) (p 1)) - c.mass .u ^ 2 : ℝ) : ℂ) = N.c 0) (n0 : N.c 0 ≠ 0) (d1 : ((msq (plus (p 0) (backward (p 3))) - c.mass .u ^ 2 : ℝ) : ℂ) = N.c 1) (n1 : N.c 1 ≠ 0) {z0 z1 z2 : Pair} (b0 : Bold (p 0) (c.mass .u) z0) (b2 : Bold (p 2) (c.mass .u) z2) (l1 : Light (p 1) z1) (e10 : mb z1.2 (p 0) z1.1 = N.c 0) (e12 : mb z1.2 (p 2) z1.1 = -N.c 1) (q0 : msq (p 0) = (c.mass .u) ^ 2) (q2 : msq (p 2) = (c.mass .u) ^ 2) (q3 : msq (p 3) = c.MH ^ 2) (ρ1 : V2) (E3 : Vec) :
    uguh.formM N p z0 z1 z2 * sb ρ1 z1.2 = ((√2 : ℝ) * (1 : ℂ)) * uguh.react.bare c p 2 0 1 3 z2 z0 (pv z1.1 ρ1) E3 := by
  rw [uguh.react.bare_parts c p (i := 2) (j := 0) (a := 1) (b := 3) (x := .gluon) (y := .higgs) (k := (p 1)) (k' := (backward (p 3))) (fun _ => rfl) (fun _ => rfl) (f := .u) (g := .u) rfl rfl (l := (p 0)) rfl (e := 1) (e' := 1) (if_neg Bool.false_ne_true) (if_neg Bool.false_ne_true)]
  rw [compton_vh (f := .u) (x := .u) (g := .u) (h := (rfl : Spec.after .gluon Flavour.u = some Flavour.u)) (h' := (rfl : Spec.after .higgs Flavour.u = some Flavour.u)) (ha := by simp)]
  rw [compton_hv (f := .u) (x := .u) (g := .u) (h := (rfl : Spec.after .higgs Flavour.u = some Flavour.u)) (h' := (rfl : Spec.after .gluon Flavour.u = some Flavour.u)) (hb := by simp)]
  rw [annihilation_none c _ _ (by rfl) (by simp), star_zero, add_zero, uguh.formM]
  simp only [d0, d1, lineV_pv, lineV_four, contract_four_pv, contract_pv, mb_plus, mb_backward]
  have i0 := mb_schouten_left z0.2 z1.2 ρ1 (p 0) z1.1
  have i1 := mb_schouten_left z0.2 z1.2 z2.2 (p 0) z1.1
  have i2 := mb_schouten_right z1.2 (p 2) z0.1 z1.1 z2.1
  have i3 := mb_schouten_left z0.2 z2.2 ρ1 (p 0) z1.1
  have i4 := mb_det z1.2 ρ1 (p 3) z0.1 z1.1
  rw [q3] at i4
  have i5 := mb_schouten_left z0.2 z1.2 z2.2 (p 2) z1.1
  have i6 := mb_schouten_left z1.2 z2.2 ρ1 (p 0) z1.1
  have i7 := mb_schouten_left z0.2 z1.2 ρ1 (p 2) z1.1
  have i8 := mb_schouten_left z0.2 z2.2 ρ1 (p 2) z1.1
  have i9 := mb_schouten_right ρ1 (p 0) z0.1 z1.1 z2.1
  have i10 := chain_angle z0.2 z2.2 z1.1 (p 2) (p 3) z1.1
  have i11 := mb_schouten_right ρ1 (p 2) z0.1 z1.1 z2.1
  simp only [l1.mb_eq, b0.mb_left, b0.mb_right, b2.mb_left, b2.mb_right, e10, e12, mb_three hb z0.2 z0.1, mb_three hb z0.2 z1.1, mb_three hb z0.2 z2.1, mb_three hb z1.2 z0.1, mb_three hb z1.2 z1.1, mb_three hb z1.2 z2.1, mb_three hb z2.2 z0.1, mb_three hb z2.2 z1.1, mb_three hb z2.2 z2.1, mb_three hb ρ1 z0.1, mb_three hb ρ1 z1.1, mb_three hb ρ1 z2.1, ab_self, sb_self] at i0 i1 i2 i3 i4 i5 i6 i7 i8 i9 i10 i11 ⊢
  simp only [ab_swap z0.1 z1.1, ab_swap z0.1 z2.1, ab_swap z1.1 z2.1, sb_swap z0.2 z1.2, sb_swap z0.2 z2.2, sb_swap z0.2 ρ1, sb_swap z1.2 z2.2, sb_swap z1.2 ρ1, sb_swap z2.2 ρ1] at i0 i1 i2 i3 i4 i5 i6 i7 i8 i9 i10 i11 ⊢
  simp only [r2, r3, r6, Constants.hL, Constants.hR, Constants.gL, Constants.gR, Constants.yuk, Constants.invVev, Flavour.charge_u, Flavour.isospin_u, ← c.mz]
  have xMW : (c.MW : ℂ) ≠ 0 := by exact_mod_cast hc.MW
  have xSW : (c.SW : ℂ) ≠ 0 := by exact_mod_cast hc.SW
  have xCW : (c.CW : ℂ) ≠ 0 := by exact_mod_cast hc.CW
  have x2 : ((√2 : ℝ) : ℂ) ≠ 0 := by exact_mod_cast (Real.sqrt_pos.2 two_pos).ne'
  have x22 : ((√2 : ℝ) : ℂ) ^ 2 = 2 := by rw [← Complex.ofReal_pow, Real.sq_sqrt two_pos.le]; norm_num
  have x23 : ((√2 : ℝ) : ℂ) ^ 3 = 2 * ((√2 : ℝ) : ℂ) := by rw [← x22]; ring
  have x24 : ((√2 : ℝ) : ℂ) ^ 4 = 4 := by linear_combination (((√2 : ℝ) : ℂ) ^ 2 + 2) * x22
  push_cast at i0 i1 i2 i3 i4 i5 i6 i7 i8 i9 i10 i11 ⊢
  have y0 := mul_inv_cancel₀ n0
  have y1 := mul_inv_cancel₀ n1
  linear_combination ((((-1) * (((√2 : ℝ) : ℂ)) * ((c.e : ℂ)) * ((c.gs : ℂ)) * ((c.mass .u : ℂ)) * (mb z2.2 (p 0) z1.1) + (-3) * (((√2 : ℝ) : ℂ)) * ((c.e : ℂ)) * ((c.gs : ℂ)) * ((c.mass .u : ℂ)) ^ 2 * (ab z1.1 z2.1)) * i0 + ((1) * (((√2 : ℝ) : ℂ)) * ((c.e : ℂ)) * ((c.gs : ℂ)) * ((c.mass .u : ℂ)) * (mb ρ1 (p 0) z1.1) + (-1) * (((√2 : ℝ) : ℂ)) * ((c.e : ℂ)) * ((c.gs : ℂ)) * ((c.mass .u : ℂ)) * (mb ρ1 (p 2) z1.1)) * i1 + ((1) * (((√2 : ℝ) : ℂ)) * ((c.e : ℂ)) * ((c.gs : ℂ)) * ((c.mass .u : ℂ)) * (mb ρ1 (p 0) z1.1) + (-1) * (((√2 : ℝ) : ℂ)) * ((c.e : ℂ)) * ((c.gs : ℂ)) * ((c.mass .u : ℂ)) * (mb ρ1 (p 2) z1.1)) * i2 + ((1) * (((√2 : ℝ) : ℂ)) * ((c.e : ℂ)) * ((c.gs : ℂ)) * ((c.mass .u : ℂ)) * (N.c 0) + (2) * (((√2 : ℝ) : ℂ)) * ((c.e : ℂ)) * ((c.gs : ℂ)) * ((c.mass .u : ℂ)) * (N.c 1)) * i3 + ((1) * (((√2 : ℝ) : ℂ)) * ((c.e : ℂ)) * ((c.gs : ℂ)) * ((c.mass .u : ℂ)) * (ab z1.1 z2.1)) * i4 + ((-2) * (((√2 : ℝ) : ℂ)) * ((c.e : ℂ)) * ((c.gs : ℂ)) * ((c.mass .u : ℂ)) * (mb ρ1 (p 0) z1.1)) * i5 + ((2) * (((√2 : ℝ) : ℂ)) * ((c.e : ℂ)) * ((c.gs : ℂ)) * ((c.mass .u : ℂ)) * (mb z0.2 (p 2) z1.1)) * i6 + ((1) * (((√2 : ℝ) : ℂ)) * ((c.e : ℂ)) * ((c.gs : ℂ)) * ((c.mass .u : ℂ)) * (mb z2.2 (p 0) z1.1) + (1) * (((√2 : ℝ) : ℂ)) * ((c.e : ℂ)) * ((c.gs : ℂ)) * ((c.mass .u : ℂ)) ^ 2 * (ab z1.1 z2.1)) * i7 + ((-1) * (((√2 : ℝ) : ℂ)) * ((c.e : ℂ)) * ((c.gs : ℂ)) * ((c.mass .u : ℂ)) * (N.c 0)) * i8 + ((1) * (((√2 : ℝ) : ℂ)) * ((c.e : ℂ)) * ((c.gs : ℂ)) * ((c.mass .u : ℂ)) * (N.c 1)) * i9 + ((1) * (((√2 : ℝ) : ℂ)) * ((c.e : ℂ)) * ((c.gs : ℂ)) * ((c.mass .u : ℂ)) * (sb z1.2 ρ1)) * i10 + ((-1) * (((√2 : ℝ) : ℂ)) * ((c.e : ℂ)) * ((c.gs : ℂ)) * ((c.mass .u : ℂ)) * (N.c 1)) * i11)) * ((1) * ((c.MW : ℂ)⁻¹) * ((c.SW : ℂ)⁻¹) * ((N.c 0)⁻¹) * ((N.c 1)⁻¹) / (2)) + ((1) * (((√2 : ℝ) : ℂ)) * ((c.e : ℂ)) * ((c.gs : ℂ)) * ((c.MW : ℂ)⁻¹) * ((c.SW : ℂ)⁻¹) * ((c.mass .u : ℂ)) * ((N.c 1)⁻¹) * (ab z0.1 z1.1) * (ab z1.1 z2.1) * (sb z1.2 ρ1) / (2) + (-1) * (((√2 : ℝ) : ℂ)) * ((c.e : ℂ)) * ((c.gs : ℂ)) * ((c.MW : ℂ)⁻¹) * ((c.SW : ℂ)⁻¹) * ((c.mass .u : ℂ)) * ((N.c 1)⁻¹) * (ab z1.1 z2.1) * (mb ρ1 (p 2) z0.1) / (2) + (-1) * (((√2 : ℝ) : ℂ)) * ((c.e : ℂ)) * ((c.gs : ℂ)) * ((c.MW : ℂ)⁻¹) * ((c.SW : ℂ)⁻¹) * ((c.mass .u : ℂ)) * ((N.c 1)⁻¹) * (mb z0.2 (p 2) z1.1) * (sb z2.2 ρ1) / (2) + (-1) * (((√2 : ℝ) : ℂ)) * ((c.e : ℂ)) * ((c.gs : ℂ)) * ((c.MW : ℂ)⁻¹) * ((c.SW : ℂ)⁻¹) * ((c.mass .u : ℂ)) ^ 2 * ((N.c 1)⁻¹) * (ab z0.1 z1.1) * (sb z2.2 ρ1) / (2) + (-1) * (((√2 : ℝ) : ℂ)) * ((c.e : ℂ)) * ((c.gs : ℂ)) * ((c.MW : ℂ)⁻¹) * ((c.SW : ℂ)⁻¹) * ((c.mass .u : ℂ)) ^ 2 * ((N.c 1)⁻¹) * (ab z1.1 z2.1) * (sb z0.2 ρ1) / (2)) * y0 + ((1) * (((√2 : ℝ) : ℂ)) * ((c.e : ℂ)) * ((c.gs : ℂ)) * ((c.MW : ℂ)⁻¹) * ((c.SW : ℂ)⁻¹) * ((c.mass .u : ℂ)) * ((N.c 0)⁻¹) * (ab z0.1 z1.1) * (ab z1.1 z2.1) * (sb z1.2 ρ1) / (2) + (-1) * (((√2 : ℝ) : ℂ)) * ((c.e : ℂ)) * ((c.gs : ℂ)) * ((c.MW : ℂ)⁻¹) * ((c.SW : ℂ)⁻¹) * ((c.mass .u : ℂ)) * ((N.c 0)⁻¹) * (ab z0.1 z1.1) * (mb ρ1 (p 0) z2.1) / (2) + (1) * (((√2 : ℝ) : ℂ)) * ((c.e : ℂ)) * ((c.gs : ℂ)) * ((c.MW : ℂ)⁻¹) * ((c.SW : ℂ)⁻¹) * ((c.mass .u : ℂ)) * ((N.c 0)⁻¹) * (mb z2.2 (p 0) z1.1) * (sb z0.2 ρ1) / (2) + (-1) * (((√2 : ℝ) : ℂ)) * ((c.e : ℂ)) * ((c.gs : ℂ)) * ((c.MW : ℂ)⁻¹) * ((c.SW : ℂ)⁻¹) * ((c.mass .u : ℂ)) ^ 2 * ((N.c 0)⁻¹) * (ab z0.1 z1.1) * (sb z2.2 ρ1) / (2) + (-1) * (((√2 : ℝ) : ℂ)) * ((c.e : ℂ)) * ((c.gs : ℂ)) * ((c.MW : ℂ)⁻¹) * ((c.SW : ℂ)⁻¹) * ((c.mass .u : ℂ)) ^ 2 * ((N.c 0)⁻¹) * (ab z1.1 z2.1) * (sb z0.2 ρ1) / (2)) * y1
set_option maxRecDepth 8000 in
theorem uguh.amp2_eq (N : Env) (f : Nat → List Int → ℂ) : Cls.uguh.m_amp2.mean N f .r [] =
    ((sumJ (fun x a => (sumW (fun x b => (sumJ (fun x c => (x + (((4 : Nat) : ℝ) * (‖(f 0 [a, b, c])‖ ^ 2)))) x)) x)) ((0 : Nat) : ℝ)) / ((96 : Nat) : ℝ)) := by rfl
set_option maxRecDepth 8000 in
theorem uguh.value (N : Env) : meaning N .r Cls.uguh.methods Cls.uguh.amp2 [] =
    ((sumJ (fun x a => (sumW (fun x b => (sumJ (fun x c => (x + (((4 : Nat) : ℝ) * (‖(Cls.uguh.m_amp.mean N (callMean N []) .c [a, b, c])‖ ^ 2)))) x)) x)) ((0 : Nat) : ℝ)) / ((96 : Nat) : ℝ)) :=
  uguh.amp2_eq N (callMean N [Cls.uguh.m_amp])
set_option maxRecDepth 8000 in
theorem uguh.ampP (N : Env) (f : Nat → List Int → ℂ) (j1 j3 : Int) : Cls.uguh.m_amp.mean N f .c [j1, 2, j3] = uguh.termP N j1 j3 := by rfl
set_option maxRecDepth 8000 in
theorem uguh.ampM (N : Env) (f : Nat → List Int → ℂ) (j1 j3 : Int) : Cls.uguh.m_amp.mean N f .c [j1, (-2), j3] = uguh.termM N j1 j3 := by rfl

theorem uguh.mass_eq {c : Constants} (hc : c.Physical) (i : Fin 4) : uguh.proc.massNum (uguh.rho c) i = uguh.react.mass c i := by
  fin_cases i <;> first | rfl | exact Nat.cast_zero | exact Nat.cast_zero.trans (hc.neutrino _).symm | (show c.MW / √(((1 : Nat) : ℝ) - c.SW * c.SW) = c.MZ; rw [c.root, c.mz])

variable [FPEnv] in
theorem uguh.amps {c : Constants} {p : Nat → V4 ℝ} {u : Fin 4 → Fin 3 → Spinor} {ε : Fin 4 → Fin 3 → Vec} (hc : c.Physical) (hh : c.Heavy) (h0 : ∀ i, 0 ≤ uguh.react.mass c i) (hs : ∀ i : Fin 4, OnShell (p i) (uguh.react.mass c i)) (hb : Balanced p) (hr : uguh.react.Regular c p) (hu : ∀ i, uguh.react.Complete c p i (u i) (ε i)) :
    (uguh.N c p).c 0 ≠ 0 ∧ (uguh.N c p).c 1 ≠ 0 ∧ (∀ n, (Ty.r, n) ∈ uguh.proc.divides → (uguh.N c p).r n ≠ 0) ∧ (∀ n, (Ty.c, n) ∈ uguh.proc.divides → (uguh.N c p).c n ≠ 0) ∧ ∀ (s0 : Fin 2) (s2 : Fin 2) (h1 : Fin 2), ‖Cls.uguh.m_amp.mean (uguh.N c p) (callMean (uguh.N c p) []) .c [spinOf s0, spinW h1, spinOf s2]‖ = ‖uguh.react.bare c p 2 0 1 3 (uguh.react.codePair c p 2 s2) (uguh.react.codePair c p 0 s0) (lightE (legA (p 1) 0 0, legS (p 1) 0 1) h1.castSucc) (uguh.react.codeVec c p 3 0)‖ := by
  have he : uguh.react.ends = [2] := by decide
  have ht : uguh.react.starts = [0] := by decide
  have hB : uguh.react.bosons = [1, 3] := by decide
  obtain ⟨f1, f2, f3⟩ := uguh.react.regular_line he ht hB hr
  have r2 : (uguh.N c p).r 2 = (c.mass .u) := rfl
  have r3 : (uguh.N c p).r 3 = c.MH := rfl
  have r6 : (uguh.N c p).r 6 = ((((√(((2 : Nat) : ℝ)) * c.e) * c.gs) * (c.mass .u)) / ((((2 : Nat) : ℝ) * c.MW) * c.SW)) := rfl
  have c0 : (uguh.N c p).c 0 = poleDist (c.mass .u) ((0 : Nat) : ℝ) ((VExp.add 0 1).sum p) := rfl
  rw [Nat.cast_zero, pole_fermion rfl] at c0
  have d0 : ((msq (plus (p 0) (p 1)) - c.mass .u ^ 2 : ℝ) : ℂ) = (uguh.N c p).c 0 := by rw [c0, msq_s hb (plus (p 0) (p 1)) (by simp)]
  have n0 : (uguh.N c p).c 0 ≠ 0 := by rw [← d0]; exact_mod_cast f1 .u rfl rfl
  have c1 : (uguh.N c p).c 1 = poleDist (c.mass .u) ((0 : Nat) : ℝ) ((VExp.sub 0 3).sum p) := rfl
  rw [Nat.cast_zero, pole_fermion rfl] at c1
  have d1 : ((msq (plus (p 0) (backward (p 3))) - c.mass .u ^ 2 : ℝ) : ℂ) = (uguh.N c p).c 1 := by rw [c1, msq_u hb (plus (p 0) (backward (p 3))) (by simp)]
  have n1 : (uguh.N c p).c 1 ≠ 0 := by rw [← d1]; exact_mod_cast f2 .u rfl rfl
  obtain ⟨l1, x1, y1⟩ := uguh.react.code_light hs hu (n := 1) rfl rfl
  have e10 := l1.pole_add (m := (c.mass .u)) (onShell_msq (hs 0)) (msq_s hb (plus (p 1) (p 0)) (by simp)) c0
  have e12 := l1.pole_sub (m := (c.mass .u)) (onShell_msq (hs 2)) (msq_u hb (plus (p 1) (backward (p 2))) (by simp)) c1
  have m0 : uguh.react.mass c 0 ≠ 0 := (leg_pos hc hh (by decide)).ne'
  have m2 : uguh.react.mass c 2 ≠ 0 := (leg_pos hc hh (by decide)).ne'
  have m1 : uguh.react.mass c 1 = 0 := rfl
  have hd : uguh.proc.divides = [(Ty.c, 0), (Ty.c, 1)] := by decide +kernel
  have stP : ∀ {z0 z2 : Pair} (b0 : Bold (p 0) (uguh.react.mass c 0) z0) (b2 : Bold (p 2) (uguh.react.mass c 2) z2), uguh.formP (uguh.N c p) p z0 (legA (p 1) 0 0, legS (p 1) 0 1) z2 = 1 * uguh.react.bare c p 2 0 1 3 z2 z0 (lightE (legA (p 1) 0 0, legS (p 1) 0 1) 1) (uguh.react.codeVec c p 3 0) := by
    intro z0 z2 b0 b2
    exact (light_plus (z := (legA (p 1) 0 0, legS (p 1) 0 1)) (G := fun E => uguh.react.bare c p 2 0 1 3 z2 z0 E (uguh.react.codeVec c p 3 0)) (uguh.react.bare_lin₁ c p _ _ _ (by decide)) x1 (uguh.keyP hc hb r2 r3 r6 d0 n0 d1 n1 b0 b2 l1 e10 e12 (onShell_msq (hs 0)) (onShell_msq (hs 2)) (onShell_msq (hs 3)) _ (uguh.react.codeVec c p 3 0)))
  have stM : ∀ {z0 z2 : Pair} (b0 : Bold (p 0) (uguh.react.mass c 0) z0) (b2 : Bold (p 2) (uguh.react.mass c 2) z2), uguh.formM (uguh.N c p) p z0 (legA (p 1) 0 0, legS (p 1) 0 1) z2 = 1 * uguh.react.bare c p 2 0 1 3 z2 z0 (lightE (legA (p 1) 0 0, legS (p 1) 0 1) 0) (uguh.react.codeVec c p 3 0) := by
    intro z0 z2 b0 b2
    exact (light_minus (z := (legA (p 1) 0 0, legS (p 1) 0 1)) (G := fun E => uguh.react.bare c p 2 0 1 3 z2 z0 E (uguh.react.codeVec c p 3 0)) (uguh.react.bare_lin₁ c p _ _ _ (by decide)) y1 (uguh.keyM hc hb r2 r3 r6 d0 n0 d1 n1 b0 b2 l1 e10 e12 (onShell_msq (hs 0)) (onShell_msq (hs 2)) (onShell_msq (hs 3)) _ (uguh.react.codeVec c p 3 0)))
  have amP : ∀ (s0 : Fin 2) (s2 : Fin 2), Cls.uguh.m_amp.mean (uguh.N c p) (callMean (uguh.N c p) []) .c [spinOf s0, 2, spinOf s2] = 1 * uguh.react.bare c p 2 0 1 3 (uguh.react.codePair c p 2 s2) (uguh.react.codePair c p 0 s0) (lightE (legA (p 1) 0 0, legS (p 1) 0 1) 1) (uguh.react.codeVec c p 3 0) := by
    intro s0 s2
    rw [uguh.ampP, ← stP (uguh.react.codePair_bold hs h0 0 s0) (uguh.react.codePair_bold hs h0 2 s2)]
    have v0z0z1 : (uguh.N c p).v 0 [spinOf s0] = sb (uguh.react.codePair c p 0 s0).2 (legA (p 1) 0 0, legS (p 1) 0 1).2 := bra_square (p := p) (m := uguh.proc.massNum (uguh.rho c)) (uguh.mass_eq hc 0) (uguh.mass_eq hc 1) (.inl ⟨m0, rfl⟩) (.inr ⟨m1, rfl⟩)
    have v2z1z2 : (uguh.N c p).v 2 [spinOf s2] = sb (legA (p 1) 0 0, legS (p 1) 0 1).2 (uguh.react.codePair c p 2 s2).2 := bra_square (p := p) (m := uguh.proc.massNum (uguh.rho c)) (uguh.mass_eq hc 1) (uguh.mass_eq hc 2) (.inr ⟨m1, rfl⟩) (.inl ⟨m2, rfl⟩)
    have v6z1z2 : (uguh.N c p).v 6 [spinOf s2] = mb (legA (p 1) 0 0, legS (p 1) 0 1).2 (p 3) (uguh.react.codePair c p 2 s2).1 := bra_mid_square (p := p) (m := uguh.proc.massNum (uguh.rho c)) (uguh.mass_eq hc 1) (uguh.mass_eq hc 2) (.inr ⟨m1, rfl⟩) (.inl ⟨m2, rfl⟩)
    have v8z1z0 : (uguh.N c p).v 8 [spinOf s0] = mb (legA (p 1) 0 0, legS (p 1) 0 1).2 (p 3) (uguh.react.codePair c p 0 s0).1 := bra_mid_square (p := p) (m := uguh.proc.massNum (uguh.rho c)) (uguh.mass_eq hc 1) (uguh.mass_eq hc 0) (.inr ⟨m1, rfl⟩) (.inl ⟨m0, rfl⟩)
    have v5z0z2 : (uguh.N c p).v 5 [spinOf s0, spinOf s2] = ab (uguh.react.codePair c p 0 s0).1 (uguh.react.codePair c p 2 s2).1 := bra_angle (p := p) (m := uguh.proc.massNum (uguh.rho c)) (uguh.mass_eq hc 0) (uguh.mass_eq hc 2) (.inl ⟨m0, rfl⟩) (.inl ⟨m2, rfl⟩)
    have v10z1z1 : (uguh.N c p).v 10 [] = mb (legA (p 1) 0 0, legS (p 1) 0 1).2 (p 2) (slashLower (p 3) *ᵥ (legA (p 1) 0 0, legS (p 1) 0 1).2) := bra_two_square (p := p) (m := uguh.proc.massNum (uguh.rho c)) (uguh.mass_eq hc 1) (uguh.mass_eq hc 1) (.inr ⟨m1, rfl⟩) (.inr ⟨m1, rfl⟩)
    simp only [uguh.termP, uguh.formP, v0z0z1, v2z1z2, v6z1z2, v8z1z0, v5z0z2, v10z1z1]
  have amM : ∀ (s0 : Fin 2) (s2 : Fin 2), Cls.uguh.m_amp.mean (uguh.N c p) (callMean (uguh.N c p) []) .c [spinOf s0, (-2), spinOf s2] = 1 * uguh.react.bare c p 2 0 1 3 (uguh.react.codePair c p 2 s2) (uguh.react.codePair c p 0 s0) (lightE (legA (p 1) 0 0, legS (p 1) 0 1) 0) (uguh.react.codeVec c p 3 0) := by
    intro s0 s2
    rw [uguh.ampM, ← stM (uguh.react.codePair_bold hs h0 0 s0) (uguh.react.codePair_bold hs h0 2 s2)]
    have v1z0z1 : (uguh.N c p).v 1 [spinOf s0] = ab (uguh.react.codePair c p 0 s0).1 (legA (p 1) 0 0, legS (p 1) 0 1).1 := bra_angle (p := p) (m := uguh.proc.massNum (uguh.rho c)) (uguh.mass_eq hc 0) (uguh.mass_eq hc 1) (.inl ⟨m0, rfl⟩) (.inr ⟨m1, rfl⟩)
    have v3z1z2 : (uguh.N c p).v 3 [spinOf s2] = ab (legA (p 1) 0 0, legS (p 1) 0 1).1 (uguh.react.codePair c p 2 s2).1 := bra_angle (p := p) (m := uguh.proc.massNum (uguh.rho c)) (uguh.mass_eq hc 1) (uguh.mass_eq hc 2) (.inr ⟨m1, rfl⟩) (.inl ⟨m2, rfl⟩)
    have v7z1z2 : (uguh.N c p).v 7 [spinOf s2] = mb (uguh.react.codePair c p 2 s2).2 (p 3) (legA (p 1) 0 0, legS (p 1) 0 1).1 := bra_mid_angle (p := p) (m := uguh.proc.massNum (uguh.rho c)) (uguh.mass_eq hc 1) (uguh.mass_eq hc 2) (.inr ⟨m1, rfl⟩) (.inl ⟨m2, rfl⟩)
    have v9z1z0 : (uguh.N c p).v 9 [spinOf s0] = mb (uguh.react.codePair c p 0 s0).2 (p 3) (legA (p 1) 0 0, legS (p 1) 0 1).1 := bra_mid_angle (p := p) (m := uguh.proc.massNum (uguh.rho c)) (uguh.mass_eq hc 1) (uguh.mass_eq hc 0) (.inr ⟨m1, rfl⟩) (.inl ⟨m0, rfl⟩)
    have v4z0z2 : (uguh.N c p).v 4 [spinOf s0, spinOf s2] = sb (uguh.react.codePair c p 0 s0).2 (uguh.react.codePair c p 2 s2).2 := bra_square (p := p) (m := uguh.proc.massNum (uguh.rho c)) (uguh.mass_eq hc 0) (uguh.mass_eq hc 2) (.inl ⟨m0, rfl⟩) (.inl ⟨m2, rfl⟩)
    have v11z1z1 : (uguh.N c p).v 11 [] = mb (slashUpper (p 3) *ᵥ (legA (p 1) 0 0, legS (p 1) 0 1).1) (p 2) (legA (p 1) 0 0, legS (p 1) 0 1).1 := bra_two_angle (p := p) (m := uguh.proc.massNum (uguh.rho c)) (uguh.mass_eq hc 1) (uguh.mass_eq hc 1) (.inr ⟨m1, rfl⟩) (.inr ⟨m1, rfl⟩)
    simp only [uguh.termM, uguh.formM, v1z0z1, v3z1z2, v7z1z2, v9z1z0, v4z0z2, v11z1z1]
  refine ⟨n0, n1, fun n hn => ?_, fun n hn => ?_, ?_⟩
  · simp [hd] at hn
  · simp [hd] at hn
    rcases hn with rfl | rfl
    · exact n0
    · exact n1
  intro s0 s2 h1
  match h1 with
  | 1 => exact norm_plus (amP s0 s2)
  | 0 => exact norm_plus (amM s0 s2)

variable [FPEnv] in
theorem uguh.agrees : uguh.Agrees := by
  refine agrees_of (D := [4, 5]) (E := [5]) (by simp [all, uguh]) (by decide +kernel) (by decide) (by decide +kernel) (fun c hc hh => ⟨List.forall_mem_cons.2 ⟨hc.MW, List.forall_mem_cons.2 ⟨hc.SW, List.forall_mem_nil _⟩⟩, List.forall_mem_cons.2 ⟨hc.SW_lt, List.forall_mem_nil _⟩⟩) (fun c hc i => uguh.mass_eq hc i) (by decide +kernel) ?_
  intro c p u ε hc hh hw h0 hs hb hr hu
  have he : uguh.react.ends = [2] := by decide
  have ht : uguh.react.starts = [0] := by decide
  have hB : uguh.react.bosons = [1, 3] := by decide
  obtain ⟨n0, n1, d1, d2, am⟩ := uguh.amps hc hh h0 hs hb hr hu
  refine ⟨d1, d2, ?_⟩
  show meaning (uguh.N c p) .r Cls.uguh.methods Cls.uguh.amp2 [] = _
  have s0 : uguh.react.states 0 = 6 := by decide +kernel
  have s1 : uguh.react.states 1 = 16 := by decide +kernel
  have sy : uguh.react.symmetry = 1 := by decide
  have p0 : uguh.react.spins 0 = {0, 1} := rfl
  have p1 : uguh.react.spins 1 = {0, 1} := rfl
  have p2 : uguh.react.spins 2 = {0, 1} := rfl
  have p3 : uguh.react.spins 3 = {0} := rfl
  have E1 : uguh.react.codeE c p 1 = lightE (legA (p 1) 0 0, legS (p 1) 0 1) := rfl
  have E3 : uguh.react.codeE c p 3 = uguh.react.codeVec c p 3 := rfl
  have hG : uguh.react.Gauge c p := (uguh.react.gauge_line he ht hB hh (by decide) (fun n => onShell_msq (hs n)) hb hr (fun n m h h2 => absurd (And.intro h h2) (by revert n m; decide)) (fun _ => ⟨rfl, rfl⟩) (fun h => absurd h (by decide)))
  rw [uguh.value, uguh.react.squared_gluon 1 he ht hB (by decide) (by decide +kernel) (by decide +kernel) hs h0 (fun _ b _ hb _ => (boson_pos hc hh hb).ne') hG (E := uguh.react.codeE c p) (fun n b hl => uguh.react.codeE_polarised hs h0 hu (fun b hb => (boson_pos hc hh hb).ne') n b hl) hu, sum_colours, s0, s1, sy]
  simp only [sumV_sum, sumJ_sum, sumW_sum, am, p0, p1, p2, p3, E1, E3, Finset.sum_singleton, sum_two, Matrix.cons_val_zero, Matrix.cons_val_one, Matrix.cons_val, two_castSucc]
  try simp only [← Finset.mul_sum]
  push_cast
  first | ring1 | ring_nf

/-! ### hgdd -/

/-- what the methods of the class see -/
noncomputable abbrev hgdd.N [FPEnv] (c : Constants) (p : Nat → V4 ℝ) : Env := hgdd.proc.env (hgdd.rho c) p
/-- `amp` for a gluon of positive helicity (SM/hgdd.cpp) -/
noncomputable def hgdd.termP (N : Env) (j3 j4 : Int) : ℂ :=
  ((((((-N.r 6) : ℝ) : ℂ) * ((((((((N.r 3 * N.r 3) : ℝ) : ℂ) * N.v 0 [j4]) * N.v 2 [j3]) + ((((N.r 2 : ℝ) : ℂ) * N.v 0 [j4]) * N.v 6 [j3])) + ((((N.r 2 : ℝ) : ℂ) * N.v 2 [j3]) * N.v 8 [j4])) + (N.v 5 [j3, j4] * N.v 10 []))) / N.c 0) / N.c 1)
/-- the same with spinors in place of their spins -/
noncomputable def hgdd.formP (N : Env) (p : Nat → V4 ℝ) (z1 z2 z3 : Pair) : ℂ :=
  ((((((-N.r 6) : ℝ) : ℂ) * ((((((((N.r 3 * N.r 3) : ℝ) : ℂ) * (sb z1.2 z3.2)) * (sb z1.2 z2.2)) + ((((N.r 2 : ℝ) : ℂ) * (sb z1.2 z3.2)) * (mb z1.2 (p 0) z2.1))) + ((((N.r 2 : ℝ) : ℂ) * (sb z1.2 z2.2)) * (mb z1.2 (p 0) z3.1))) + ((ab z2.1 z3.1) * (mb z1.2 (p 2) (slashLower (p 0) *ᵥ z1.2))))) / N.c 0) / N.c 1)
/-- `amp` for a gluon of negative helicity (SM/hgdd.cpp) -/
noncomputable def hgdd.termM (N : Env) (j3 j4 : Int) : ℂ :=
  ((((((-N.r 6) : ℝ) : ℂ) * ((((((((N.r 3 * N.r 3) : ℝ) : ℂ) * N.v 1 [j4]) * N.v 3 [j3]) + ((((N.r 2 : ℝ) : ℂ) * N.v 1 [j4]) * N.v 7 [j3])) + ((((N.r 2 : ℝ) : ℂ) * N.v 3 [j3]) * N.v 9 [j4])) + (N.v 4 [j3, j4] * N.v 11 []))) / N.c 0) / N.c 1)
/-- the same with spinors in place of their spins -/
noncomputable def hgdd.formM (N : Env) (p : Nat → V4 ℝ) (z1 z2 z3 : Pair) : ℂ :=
  ((((((-N.r 6) : ℝ) : ℂ) * ((((((((N.r 3 * N.r 3) : ℝ) : ℂ) * (ab z1.1 z3.1)) * (ab z1.1 z2.1)) + ((((N.r 2 : ℝ) : ℂ) * (ab z1.1 z3.1)) * (mb z2.2 (p 0) z1.1))) + ((((N.r 2 : ℝ) : ℂ) * (ab z1.1 z2.1)) * (mb z3.2 (p 0) z1.1))) + ((sb z2.2 z3.2) * (mb (slashUpper (p 0) *ᵥ z1.1) (p 2) z1.1)))) / N.c 0) / N.c 1)
theorem hgdd.keyP {c : Constants} {p : Nat → V4 ℝ} {N : Env} (hc : c.Physical) (hb : Balanced p) (r2 : N.r 2 = (c.mass .d)) (r3 : N.r 3 = c.MH) (r6 : N.r 6 = (((c.e * c.gs) * (c.mass .d)) / ((√(((2 : Nat) : ℝ)) * c.MW) * c.SW))) (d0 : ((msq (plus (backward (p 3)) (p 1)) - c.mass .d ^ 2 : ℝ) : ℂ) = N.c 0) (n0 : N.c 0 ≠ 0) (d1 : ((msq (plus (backward (p 3)) (p 0)) - c.mass .d ^ 2 : ℝ) : ℂ) = N.c 1) (n1 : N.c 1 ≠ 0) {z1 z2 z3 : Pair} (b2 : Bold (p 2) (c.mass .d) z2) (b3 : Bold (p 3) (c.mass .d) z3) (l1 : Light (p 1) z1) (e12 : mb z1.2 (p 2) z1.1 = -N.c 1) (e13 : mb z1.2 (p 3) z1.1 = -N.c 0) (q0 : msq (p 0) = c.MH ^ 2) (q2 : msq (p 2) = (c.mass .d) ^ 2) (q3 : msq (p 3) = (c.mass .d) ^ 2) (ρ1 : V2) (E0 : Vec) :
    hgdd.formP N p z1 z2 z3 * ab ρ1 z1.1 = ((√2 : ℝ) * (-1 : ℂ)) * hgdd.react.bare c p 2 3 0 1 z2 z3 E0 (pv ρ1 z1.2) := by
  rw [hgdd.react.bare_parts c p (i := 2) (j := 3) (a := 0) (b := 1) (x := .higgs) (y := .gluon) (k := (p 0)) (k' := (p 1)) (fun _ => rfl) (fun _ => rfl) (f := .d) (g := .d) rfl rfl (l := (backward (p 3))) rfl (e := 1) (e' := -1) (if_neg Bool.false_ne_true) (if_pos rfl)]
  rw [compton_hv (f := .d) (x := .d) (g := .d) (h := (rfl : Spec.after .higgs Flavour.d = some Flavour.d)) (h' := (rfl : Spec.after .gluon Flavour.d = some Flavour.d)) (hb := by simp)]
  rw [compton_vh (f := .d) (x := .d) (g := .d) (h := (rfl : Spec.after .gluon Flavour.d = some Flavour.d)) (h' := (rfl : Spec.after .higgs Flavour.d = some Flavour.d)) (ha := by simp)]
  rw [annihilation_none' c _ _ (by rfl) (by simp), star_zero, add_zero, hgdd.formP]
  simp only [d0, d1, lineV_pv, lineV_four, contract_four_pv, contract_pv, mb_plus, mb_backward]
  have i0 := chain_square z1.1 z2.1 z1.2 (p 2) (p 0) z1.2
  have i1 := ab_schouten z2.1 z3.1 ρ1 z1.1
  have i2 := mb_schouten_left z1.2 z2.2 z3.2 (p 0) ρ1
  have i3 := mb_schouten_left z1.2 z2.2 z3.2 (p 2) z1.1
  have i4 := mb_schouten_left z1.2 z2.2 z3.2 (p 0) z1.1
  have i5 := chain_square z1.1 z3.1 z1.2 (p 2) (p 0) z1.2
  have i6 := mb_schouten_right z1.2 (p 0) z1.1 z2.1 ρ1
  have i7 := mb_schouten_right z1.2 (p 0) z1.1 z3.1 ρ1
  have i8 := mb_det z1.2 z2.2 (p 0) z1.1 ρ1
  rw [q0] at i8
  simp only [l1.mb_eq, b2.mb_left, b2.mb_right, b3.mb_left, b3.mb_right, e12, e13, mb_nought hb z1.2 z1.1, mb_three hb z1.2 z2.1, mb_two hb z1.2 z3.1, mb_three hb z1.2 ρ1, mb_three hb z2.2 z1.1, mb_three hb z2.2 z2.1, mb_nought hb z2.2 z3.1, mb_three hb z2.2 ρ1, mb_two hb z3.2 z1.1, mb_nought hb z3.2 z2.1, mb_two hb z3.2 z3.1, mb_two hb z3.2 ρ1, ab_self, sb_self] at i0 i1 i2 i3 i4 i5 i6 i7 i8 ⊢
  simp only [ab_swap z1.1 z2.1, ab_swap z1.1 z3.1, ab_swap z1.1 ρ1, ab_swap z2.1 z3.1, ab_swap z2.1 ρ1, ab_swap z3.1 ρ1, sb_swap z1.2 z2.2, sb_swap z1.2 z3.2, sb_swap z2.2 z3.2] at i0 i1 i2 i3 i4 i5 i6 i7 i8 ⊢
  simp only [r2, r3, r6, Constants.hL, Constants.hR, Constants.gL, Constants.gR, Constants.yuk, Constants.invVev, Flavour.charge_d, Flavour.isospin_d, ← c.mz]
  have xMW : (c.MW : ℂ) ≠ 0 := by exact_mod_cast hc.MW
  have xSW : (c.SW : ℂ) ≠ 0 := by exact_mod_cast hc.SW
  have xCW : (c.CW : ℂ) ≠ 0 := by exact_mod_cast hc.CW
  have x2 : ((√2 : ℝ) : ℂ) ≠ 0 := by exact_mod_cast (Real.sqrt_pos.2 two_pos).ne'
  have x22 : ((√2 : ℝ) : ℂ) ^ 2 = 2 := by rw [← Complex.ofReal_pow, Real.sq_sqrt two_pos.le]; norm_num
  have x23 : ((√2 : ℝ) : ℂ) ^ 3 = 2 * ((√2 : ℝ) : ℂ) := by rw [← x22]; ring
  have x24 : ((√2 : ℝ) : ℂ) ^ 4 = 4 := by linear_combination (((√2 : ℝ) : ℂ) ^ 2 + 2) * x22
  push_cast at i0 i1 i2 i3 i4 i5 i6 i7 i8 ⊢
  have y0 := mul_inv_cancel₀ n0
  have y1 := mul_inv_cancel₀ n1
  have yR2 : ((√2 : ℝ) : ℂ)⁻¹ = ((√2 : ℝ) : ℂ) / 2 := by rw [inv_eq_iff_eq_inv, inv_div, eq_div_iff x2, ← x22]; ring
  linear_combination ((((-1) * (((√2 : ℝ) : ℂ)) * ((c.e : ℂ)) * ((c.gs : ℂ)) * ((c.mass .d : ℂ)) * (ab z3.1 ρ1)) * i0 + ((1) * (((√2 : ℝ) : ℂ)) * ((c.e : ℂ)) * ((c.gs : ℂ)) * ((c.mass .d : ℂ)) * ((mb z1.2 (p 2) (slashLower (p 0) *ᵥ z1.2)))) * i1 + ((-1) * (((√2 : ℝ) : ℂ)) * ((c.e : ℂ)) * ((c.gs : ℂ)) * ((c.mass .d : ℂ)) * (N.c 0)) * i2 + ((1) * (((√2 : ℝ) : ℂ)) * ((c.e : ℂ)) * ((c.gs : ℂ)) * ((c.mass .d : ℂ)) * (mb z1.2 (p 0) ρ1)) * i3 + ((-1) * (((√2 : ℝ) : ℂ)) * ((c.e : ℂ)) * ((c.gs : ℂ)) * ((c.mass .d : ℂ)) * (mb z1.2 (p 0) ρ1)) * i4 + ((1) * (((√2 : ℝ) : ℂ)) * ((c.e : ℂ)) * ((c.gs : ℂ)) * ((c.mass .d : ℂ)) * (ab z2.1 ρ1)) * i5 + ((-1) * (((√2 : ℝ) : ℂ)) * ((c.e : ℂ)) * ((c.gs : ℂ)) * ((c.mass .d : ℂ)) ^ 2 * (sb z1.2 z3.2)) * i6 + ((-1) * (((√2 : ℝ) : ℂ)) * ((c.e : ℂ)) * ((c.gs : ℂ)) * ((c.mass .d : ℂ)) ^ 2 * (sb z1.2 z2.2)) * i7 + ((1) * (((√2 : ℝ) : ℂ)) * ((c.e : ℂ)) * ((c.gs : ℂ)) * ((c.mass .d : ℂ)) * (sb z1.2 z3.2)) * i8)) * ((1) * ((c.MW : ℂ)⁻¹) * ((c.SW : ℂ)⁻¹) * ((N.c 0)⁻¹) * ((N.c 1)⁻¹) / (2)) + ((-1) * (((√2 : ℝ) : ℂ)) * ((c.e : ℂ)) * ((c.gs : ℂ)) * ((c.MW : ℂ)⁻¹) * ((c.SW : ℂ)⁻¹) * ((c.mass .d : ℂ)) * ((N.c 1)⁻¹) * (ab z2.1 ρ1) * (mb z1.2 (p 0) z3.1) / (2) + (1) * (((√2 : ℝ) : ℂ)) * ((c.e : ℂ)) * ((c.gs : ℂ)) * ((c.MW : ℂ)⁻¹) * ((c.SW : ℂ)⁻¹) * ((c.mass .d : ℂ)) * ((N.c 1)⁻¹) * (mb z3.2 (p 0) ρ1) * (sb z1.2 z2.2) / (2) + (-1) * (((√2 : ℝ) : ℂ)) * ((c.e : ℂ)) * ((c.gs : ℂ)) * ((c.MW : ℂ)⁻¹) * ((c.SW : ℂ)⁻¹) * ((c.mass .d : ℂ)) ^ 2 * ((N.c 1)⁻¹) * (ab z2.1 ρ1) * (sb z1.2 z3.2) + (-1) * (((√2 : ℝ) : ℂ)) * ((c.e : ℂ)) * ((c.gs : ℂ)) * ((c.MW : ℂ)⁻¹) * ((c.SW : ℂ)⁻¹) * ((c.mass .d : ℂ)) ^ 2 * ((N.c 1)⁻¹) * (ab z3.1 ρ1) * (sb z1.2 z2.2)) * y0 + ((-1) * (((√2 : ℝ) : ℂ)) * ((c.e : ℂ)) * ((c.gs : ℂ)) * ((c.MW : ℂ)⁻¹) * ((c.SW : ℂ)⁻¹) * ((c.mass .d : ℂ)) * ((N.c 0)⁻¹) * (ab z3.1 ρ1) * (mb z1.2 (p 0) z2.1) / (2) + (1) * (((√2 : ℝ) : ℂ)) * ((c.e : ℂ)) * ((c.gs : ℂ)) * ((c.MW : ℂ)⁻¹) * ((c.SW : ℂ)⁻¹) * ((c.mass .d : ℂ)) * ((N.c 0)⁻¹) * (mb z2.2 (p 0) ρ1) * (sb z1.2 z3.2) / (2) + (-1) * (((√2 : ℝ) : ℂ)) * ((c.e : ℂ)) * ((c.gs : ℂ)) * ((c.MW : ℂ)⁻¹) * ((c.SW : ℂ)⁻¹) * ((c.mass .d : ℂ)) ^ 2 * ((N.c 0)⁻¹) * (ab z2.1 ρ1) * (sb z1.2 z3.2) + (-1) * (((√2 : ℝ) : ℂ)) * ((c.e : ℂ)) * ((c.gs : ℂ)) * ((c.MW : ℂ)⁻¹) * ((c.SW : ℂ)⁻¹) * ((c.mass .d : ℂ)) ^ 2 * ((N.c 0)⁻¹) * (ab z3.1 ρ1) * (sb z1.2 z2.2)) * y1 + ((1) * ((c.MH : ℂ)) ^ 2 * ((c.e : ℂ)) * ((c.gs : ℂ)) * ((c.MW : ℂ)⁻¹) * ((c.SW : ℂ)⁻¹) * ((c.mass .d : ℂ)) * ((N.c 0)⁻¹) * ((N.c 1)⁻¹) * (ab z1.1 ρ1) * (sb z1.2 z2.2) * (sb z1.2 z3.2) + (1) * ((c.e : ℂ)) * ((c.gs : ℂ)) * ((c.MW : ℂ)⁻¹) * ((c.SW : ℂ)⁻¹) * ((c.mass .d : ℂ)) * ((N.c 0)⁻¹) * ((N.c 1)⁻¹) * (ab z1.1 ρ1) * (ab z2.1 z3.1) * ((mb z1.2 (p 2) (slashLower (p 0) *ᵥ z1.2))) + (1) * ((c.e : ℂ)) * ((c.gs : ℂ)) * ((c.MW : ℂ)⁻¹) * ((c.SW : ℂ)⁻¹) * ((c.mass .d : ℂ)) ^ 2 * ((N.c 0)⁻¹) * ((N.c 1)⁻¹) * (ab z1.1 ρ1) * (mb z1.2 (p 0) z2.1) * (sb z1.2 z3.2) + (1) * ((c.e : ℂ)) * ((c.gs : ℂ)) * ((c.MW : ℂ)⁻¹) * ((c.SW : ℂ)⁻¹) * ((c.mass .d : ℂ)) ^ 2 * ((N.c 0)⁻¹) * ((N.c 1)⁻¹) * (ab z1.1 ρ1) * (mb z1.2 (p 0) z3.1) * (sb z1.2 z2.2)) * yR2
theorem hgdd.keyM {c : Constants} {p : Nat → V4 ℝ} {N : Env} (hc : c.Physical) (hb : Balanced p) (r2 : N.r 2 = (c.mass .d)) (r3 : N.r 3 = c.MH) (r6 : N.r 6 = (((c.e * c.gs) * (c.mass .d)) / ((√(((2 : Nat) : ℝ)) * c.MW) * c.SW))) (d0 : ((msq (plus (backward (p 3)) (p 1)) - c.mass .d ^ 2 : ℝ) : ℂ) = N.c 0) (n0 : N.c 0 ≠ 0) (d1 : ((msq (plus (backward (p 3)) (p 0)) - c.mass .d ^ 2 : ℝ) : ℂ) = N.c 1) (n1 : N.c 1 ≠ 0) {z1 z2 z3 : Pair} (b2 : Bold (p 2) (c.mass .d) z2) (b3 : Bold (p 3) (c.mass .d) z3) (l1 : Light (p 1) z1) (e12 : mb z1.2 (p 2) z1.1 = -N.c 1) (e13 : mb z1.2 (p 3) z1.1 = -N.c 0) (q0 : msq (p 0) = c.MH ^ 2) (q2 : msq (p 2) = (c.mass .d) ^ 2) (q3 : msq (p 3) = (c.mass .d) ^ 2) (ρ1 : V2) (E0 : Vec) :
    hgdd.formM N p z1 z2 z3 * sb ρ1 z1.2 = ((√2 : ℝ) * (-1 : ℂ)) * hgdd.react.bare c p 2 3 0 1 z2 z3 E0 (pv z1.1 ρ1) := by
  rw [hgdd.react.bare_parts c p (i := 2) (j := 3) (a := 0) (b := 1) (x := .higgs) (y := .gluon) (k := (p 0)) (k' := (p 1)) (fun _ => rfl) (fun _ => rfl) (f := .d) (g := .d) rfl rfl (l := (backward (p 3))) rfl (e := 1) (e' := -1) (if_neg Bool.false_ne_true) (if_pos rfl)]
  rw [compton_hv (f := .d) (x := .d) (g := .d) (h := (rfl : Spec.after .higgs Flavour.d = some Flavour.d)) (h' := (rfl : Spec.after .gluon Flavour.d = some Flavour.d)) (hb := by simp)]
  rw [compton_vh (f := .d) (x := .d) (g := .d) (h := (rfl : Spec.after .gluon Flavour.d = some Flavour.d)) (h' := (rfl : Spec.after .higgs Flavour.d = some Flavour.d)) (ha := by simp)]
  rw [annihilation_none' c _ _ (by rfl) (by simp), star_zero, add_zero, hgdd.formM]
  simp only [d0, d1, lineV_pv, lineV_four, contract_four_pv, contract_pv, mb_plus, mb_backward]
  have i0 := mb_schouten_left z1.2 z3.2 ρ1 (p 0) z1.1
  have i1 := mb_schouten_left z1.2 z2.2 ρ1 (p 0) z1.1
  have i2 := chain_angle z1.2 z2.2 z1.1 (p 2) (p 0) z1.1
  have i3 := sb_schouten z2.2 z3.2 ρ1 z1.2
  have i4 := chain_angle z1.2 z3.2 z1.1 (p 2) (p 0) z1.1
  have i5 := mb_schouten_right ρ1 (p 0) z1.1 z2.1 z3.1
  have i6 := mb_det z1.2 ρ1 (p 0) z1.1 z2.1
  rw [q0] at i6
  have i7 := mb_schouten_right z1.2 (p 2) z1.1 z2.1 z3.1
  have i8 := mb_schouten_right z1.2 (p 0) z1.1 z2.1 z3.1
  simp only [l1.mb_eq, b2.mb_left, b2.mb_right, b3.mb_left, b3.mb_right, e12, e13, mb_nought hb z1.2 z1.1, mb_three hb z1.2 z2.1, mb_two hb z1.2 z3.1, mb_three hb z2.2 z1.1, mb_three hb z2.2 z2.1, mb_nought hb z2.2 z3.1, mb_two hb z3.2 z1.1, mb_nought hb z3.2 z2.1, mb_two hb z3.2 z3.1, mb_three hb ρ1 z1.1, mb_three hb ρ1 z2.1, mb_two hb ρ1 z3.1, ab_self, sb_self] at i0 i1 i2 i3 i4 i5 i6 i7 i8 ⊢
  simp only [ab_swap z1.1 z2.1, ab_swap z1.1 z3.1, ab_swap z2.1 z3.1, sb_swap z1.2 z2.2, sb_swap z1.2 z3.2, sb_swap z1.2 ρ1, sb_swap z2.2 z3.2, sb_swap z2.2 ρ1, sb_swap z3.2 ρ1] at i0 i1 i2 i3 i4 i5 i6 i7 i8 ⊢
  simp only [r2, r3, r6, Constants.hL, Constants.hR, Constants.gL, Constants.gR, Constants.yuk, Constants.invVev, Flavour.charge_d, Flavour.isospin_d, ← c.mz]
  have xMW : (c.MW : ℂ) ≠ 0 := by exact_mod_cast hc.MW
  have xSW : (c.SW : ℂ) ≠ 0 := by exact_mod_cast hc.SW
  have xCW : (c.CW : ℂ) ≠ 0 := by exact_mod_cast hc.CW
  have x2 : ((√2 : ℝ) : ℂ) ≠ 0 := by exact_mod_cast (Real.sqrt_pos.2 two_pos).ne'
  have x22 : ((√2 : ℝ) : ℂ) ^ 2 = 2 := by rw [← Complex.ofReal_pow, Real.sq_sqrt two_pos.le]; norm_num
  have x23 : ((√2 : ℝ) : ℂ) ^ 3 = 2 * ((√2 : ℝ) : ℂ) := by rw [← x22]; ring
  have x24 : ((√2 : ℝ) : ℂ) ^ 4 = 4 := by linear_combination (((√2 : ℝ) : ℂ) ^ 2 + 2) * x22
  push_cast at i0 i1 i2 i3 i4 i5 i6 i7 i8 ⊢
  have y0 := mul_inv_cancel₀ n0
  have y1 := mul_inv_cancel₀ n1
  have yR2 : ((√2 : ℝ) : ℂ)⁻¹ = ((√2 : ℝ) : ℂ) / 2 := by rw [inv_eq_iff_eq_inv, inv_div, eq_div_iff x2, ← x22]; ring
  linear_combination ((((-1) * (((√2 : ℝ) : ℂ)) * ((c.e : ℂ)) * ((c.gs : ℂ)) * ((c.mass .d : ℂ)) ^ 2 * (ab z1.1 z2.1)) * i0 + ((-1) * (((√2 : ℝ) : ℂ)) * ((c.e : ℂ)) * ((c.gs : ℂ)) * ((c.mass .d : ℂ)) ^ 2 * (ab z1.1 z3.1)) * i1 + ((-1) * (((√2 : ℝ) : ℂ)) * ((c.e : ℂ)) * ((c.gs : ℂ)) * ((c.mass .d : ℂ)) * (sb z3.2 ρ1)) * i2 + ((1) * (((√2 : ℝ) : ℂ)) * ((c.e : ℂ)) * ((c.gs : ℂ)) * ((c.mass .d : ℂ)) * ((mb (slashUpper (p 0) *ᵥ z1.1) (p 2) z1.1))) * i3 + ((1) * (((√2 : ℝ) : ℂ)) * ((c.e : ℂ)) * ((c.gs : ℂ)) * ((c.mass .d : ℂ)) * (sb z2.2 ρ1)) * i4 + ((-1) * (((√2 : ℝ) : ℂ)) * ((c.e : ℂ)) * ((c.gs : ℂ)) * ((c.mass .d : ℂ)) * (N.c 0)) * i5 + ((1) * (((√2 : ℝ) : ℂ)) * ((c.e : ℂ)) * ((c.gs : ℂ)) * ((c.mass .d : ℂ)) * (ab z1.1 z3.1)) * i6 + ((1) * (((√2 : ℝ) : ℂ)) * ((c.e : ℂ)) * ((c.gs : ℂ)) * ((c.mass .d : ℂ)) * (mb ρ1 (p 0) z1.1)) * i7 + ((-1) * (((√2 : ℝ) : ℂ)) * ((c.e : ℂ)) * ((c.gs : ℂ)) * ((c.mass .d : ℂ)) * (mb ρ1 (p 0) z1.1)) * i8)) * ((1) * ((c.MW : ℂ)⁻¹) * ((c.SW : ℂ)⁻¹) * ((N.c 0)⁻¹) * ((N.c 1)⁻¹) / (2)) + ((1) * (((√2 : ℝ) : ℂ)) * ((c.e : ℂ)) * ((c.gs : ℂ)) * ((c.MW : ℂ)⁻¹) * ((c.SW : ℂ)⁻¹) * ((c.mass .d : ℂ)) * ((N.c 1)⁻¹) * (ab z1.1 z2.1) * (mb ρ1 (p 0) z3.1) / (2) + (-1) * (((√2 : ℝ) : ℂ)) * ((c.e : ℂ)) * ((c.gs : ℂ)) * ((c.MW : ℂ)⁻¹) * ((c.SW : ℂ)⁻¹) * ((c.mass .d : ℂ)) * ((N.c 1)⁻¹) * (mb z3.2 (p 0) z1.1) * (sb z2.2 ρ1) / (2) + (-1) * (((√2 : ℝ) : ℂ)) * ((c.e : ℂ)) * ((c.gs : ℂ)) * ((c.MW : ℂ)⁻¹) * ((c.SW : ℂ)⁻¹) * ((c.mass .d : ℂ)) ^ 2 * ((N.c 1)⁻¹) * (ab z1.1 z2.1) * (sb z3.2 ρ1) + (-1) * (((√2 : ℝ) : ℂ)) * ((c.e : ℂ)) * ((c.gs : ℂ)) * ((c.MW : ℂ)⁻¹) * ((c.SW : ℂ)⁻¹) * ((c.mass .d : ℂ)) ^ 2 * ((N.c 1)⁻¹) * (ab z1.1 z3.1) * (sb z2.2 ρ1)) * y0 + ((1) * (((√2 : ℝ) : ℂ)) * ((c.e : ℂ)) * ((c.gs : ℂ)) * ((c.MW : ℂ)⁻¹) * ((c.SW : ℂ)⁻¹) * ((c.mass .d : ℂ)) * ((N.c 0)⁻¹) * (ab z1.1 z3.1) * (mb ρ1 (p 0) z2.1) / (2) + (-1) * (((√2 : ℝ) : ℂ)) * ((c.e : ℂ)) * ((c.gs : ℂ)) * ((c.MW : ℂ)⁻¹) * ((c.SW : ℂ)⁻¹) * ((c.mass .d : ℂ)) * ((N.c 0)⁻¹) * (mb z2.2 (p 0) z1.1) * (sb z3.2 ρ1) / (2) + (-1) * (((√2 : ℝ) : ℂ)) * ((c.e : ℂ)) * ((c.gs : ℂ)) * ((c.MW : ℂ)⁻¹) * ((c.SW : ℂ)⁻¹) * ((c.mass .d : ℂ)) ^ 2 * ((N.c 0)⁻¹) * (ab z1.1 z2.1) * (sb z3.2 ρ1) + (-1) * (((√2 : ℝ) : ℂ)) * ((c.e : ℂ)) * ((c.gs : ℂ)) * ((c.MW : ℂ)⁻¹) * ((c.SW : ℂ)⁻¹) * ((c.mass .d : ℂ)) ^ 2 * ((N.c 0)⁻¹) * (ab z1.1 z3.1) * (sb z2.2 ρ1)) * y1 + ((1) * ((c.MH : ℂ)) ^ 2 * ((c.e : ℂ)) * ((c.gs : ℂ)) * ((c.MW : ℂ)⁻¹) * ((c.SW : ℂ)⁻¹) * ((c.mass .d : ℂ)) * ((N.c 0)⁻¹) * ((N.c 1)⁻¹) * (ab z1.1 z2.1) * (ab z1.1 z3.1) * (sb z1.2 ρ1) + (1) * ((c.e : ℂ)) * ((c.gs : ℂ)) * ((c.MW : ℂ)⁻¹) * ((c.SW : ℂ)⁻¹) * ((c.mass .d : ℂ)) * ((N.c 0)⁻¹) * ((N.c 1)⁻¹) * ((mb (slashUpper (p 0) *ᵥ z1.1) (p 2) z1.1)) * (sb z1.2 ρ1) * (sb z2.2 z3.2) + (1) * ((c.e : ℂ)) * ((c.gs : ℂ)) * ((c.MW : ℂ)⁻¹) * ((c.SW : ℂ)⁻¹) * ((c.mass .d : ℂ)) ^ 2 * ((N.c 0)⁻¹) * ((N.c 1)⁻¹) * (ab z1.1 z2.1) * (mb z3.2 (p 0) z1.1) * (sb z1.2 ρ1) + (1) * ((c.e : ℂ)) * ((c.gs : ℂ)) * ((c.MW : ℂ)⁻¹) * ((c.SW : ℂ)⁻¹) * ((c.mass .d : ℂ)) ^ 2 * ((N.c 0)⁻¹) * ((N.c 1)⁻¹) * (ab z1.1 z3.1) * (mb z2.2 (p 0) z1.1) * (sb z1.2 ρ1)) * yR2
set_option maxRecDepth 8000 in
theorem hgdd.amp2_eq (N : Env) (f : Nat → List Int → ℂ) : Cls.hgdd.m_amp2.mean N f .r [] =
    ((sumW (fun x a => (sumJ (fun x b => (sumJ (fun x c => (x + (((4 : Nat) : ℝ) * (‖(f 0 [a, b, c])‖ ^ 2)))) x)) x)) ((0 : Nat) : ℝ)) / ((16 : Nat) : ℝ)) := by rfl
set_option maxRecDepth 8000 in
theorem hgdd.value (N : Env) : meaning N .r Cls.hgdd.methods Cls.hgdd.amp2 [] =
    ((sumW (fun x a => (sumJ (fun x b => (sumJ (fun x c => (x + (((4 : Nat) : ℝ) * (‖(Cls.hgdd.m_amp.mean N (callMean N []) .c [a, b, c])‖ ^ 2)))) x)) x)) ((0 : Nat) : ℝ)) / ((16 : Nat) : ℝ)) :=
  hgdd.amp2_eq N (callMean N [Cls.hgdd.m_amp])
set_option maxRecDepth 8000 in
theorem hgdd.ampP (N : Env) (f : Nat → List Int → ℂ) (j3 j4 : Int) : Cls.hgdd.m_amp.mean N f .c [2, j3, j4] = hgdd.termP N j3 j4 := by rfl
set_option maxRecDepth 8000 in
theorem hgdd.ampM (N : Env) (f : Nat → List Int → ℂ) (j3 j4 : Int) : Cls.hgdd.m_amp.mean N f .c [(-2), j3, j4] = hgdd.termM N j3 j4 := by rfl

theorem hgdd.mass_eq {c : Constants} (hc : c.Physical) (i : Fin 4) : hgdd.proc.massNum (hgdd.rho c) i = hgdd.react.mass c i := by
  fin_cases i <;> first | rfl | exact Nat.cast_zero | exact Nat.cast_zero.trans (hc.neutrino _).symm | (show c.MW / √(((1 : Nat) : ℝ) - c.SW * c.SW) = c.MZ; rw [c.root, c.mz])

variable [FPEnv] in
theorem hgdd.amps {c : Constants} {p : Nat → V4 ℝ} {u : Fin 4 → Fin 3 → Spinor} {ε : Fin 4 → Fin 3 → Vec} (hc : c.Physical) (hh : c.Heavy) (h0 : ∀ i, 0 ≤ hgdd.react.mass c i) (hs : ∀ i : Fin 4, OnShell (p i) (hgdd.react.mass c i)) (hb : Balanced p) (hr : hgdd.react.Regular c p) (hu : ∀ i, hgdd.react.Complete c p i (u i) (ε i)) :
    (hgdd.N c p).c 0 ≠ 0 ∧ (hgdd.N c p).c 1 ≠ 0 ∧ (∀ n, (Ty.r, n) ∈ hgdd.proc.divides → (hgdd.N c p).r n ≠ 0) ∧ (∀ n, (Ty.c, n) ∈ hgdd.proc.divides → (hgdd.N c p).c n ≠ 0) ∧ ∀ (s2 : Fin 2) (s3 : Fin 2) (h1 : Fin 2), ‖Cls.hgdd.m_amp.mean (hgdd.N c p) (callMean (hgdd.N c p) []) .c [spinW h1, spinOf s2, spinOf s3]‖ = ‖hgdd.react.bare c p 2 3 0 1 (hgdd.react.codePair c p 2 s2) (hgdd.react.codePair c p 3 s3) (hgdd.react.codeVec c p 0 0) (lightE (legA (p 1) 0 0, legS (p 1) 0 1) h1.castSucc)‖ := by
  have he : hgdd.react.ends = [2] := by decide
  have ht : hgdd.react.starts = [3] := by decide
  have hB : hgdd.react.bosons = [0, 1] := by decide
  obtain ⟨f1, f2, f3⟩ := hgdd.react.regular_line he ht hB hr
  have r2 : (hgdd.N c p).r 2 = (c.mass .d) := rfl
  have r3 : (hgdd.N c p).r 3 = c.MH := rfl
  have r6 : (hgdd.N c p).r 6 = (((c.e * c.gs) * (c.mass .d)) / ((√(((2 : Nat) : ℝ)) * c.MW) * c.SW)) := rfl
  have c0 : (hgdd.N c p).c 0 = poleDist (c.mass .d) ((0 : Nat) : ℝ) ((VExp.sub 0 2).sum p) := rfl
  rw [Nat.cast_zero, pole_fermion rfl] at c0
  have d0 : ((msq (plus (backward (p 3)) (p 1)) - c.mass .d ^ 2 : ℝ) : ℂ) = (hgdd.N c p).c 0 := by rw [c0, msq_t hb (plus (backward (p 3)) (p 1)) (by simp)]
  have n0 : (hgdd.N c p).c 0 ≠ 0 := by rw [← d0]; exact_mod_cast f2 .d rfl rfl
  have c1 : (hgdd.N c p).c 1 = poleDist (c.mass .d) ((0 : Nat) : ℝ) ((VExp.sub 0 3).sum p) := rfl
  rw [Nat.cast_zero, pole_fermion rfl] at c1
  have d1 : ((msq (plus (backward (p 3)) (p 0)) - c.mass .d ^ 2 : ℝ) : ℂ) = (hgdd.N c p).c 1 := by rw [c1, msq_u hb (plus (backward (p 3)) (p 0)) (by simp)]
  have n1 : (hgdd.N c p).c 1 ≠ 0 := by rw [← d1]; exact_mod_cast f1 .d rfl rfl
  obtain ⟨l1, x1, y1⟩ := hgdd.react.code_light hs hu (n := 1) rfl rfl
  have e12 := l1.pole_sub (m := (c.mass .d)) (onShell_msq (hs 2)) (msq_u hb (plus (p 1) (backward (p 2))) (by simp)) c1
  have e13 := l1.pole_sub (m := (c.mass .d)) (onShell_msq (hs 3)) (msq_t hb (plus (p 1) (backward (p 3))) (by simp)) c0
  have m2 : hgdd.react.mass c 2 ≠ 0 := (leg_pos hc hh (by decide)).ne'
  have m3 : hgdd.react.mass c 3 ≠ 0 := (leg_pos hc hh (by decide)).ne'
  have m1 : hgdd.react.mass c 1 = 0 := rfl
  have hd : hgdd.proc.divides = [(Ty.c, 0), (Ty.c, 1)] := by decide +kernel
  have stP : ∀ {z2 z3 : Pair} (b2 : Bold (p 2) (hgdd.react.mass c 2) z2) (b3 : Bold (p 3) (hgdd.react.mass c 3) z3), hgdd.formP (hgdd.N c p) p (legA (p 1) 0 0, legS (p 1) 0 1) z2 z3 = (-1) * hgdd.react.bare c p 2 3 0 1 z2 z3 (hgdd.react.codeVec c p 0 0) (lightE (legA (p 1) 0 0, legS (p 1) 0 1) 1) := by
    intro z2 z3 b2 b3
    exact (light_plus (z := (legA (p 1) 0 0, legS (p 1) 0 1)) (G := fun E => hgdd.react.bare c p 2 3 0 1 z2 z3 (hgdd.react.codeVec c p 0 0) E) (hgdd.react.bare_lin₂ c p _ _ _ (by decide)) x1 (hgdd.keyP hc hb r2 r3 r6 d0 n0 d1 n1 b2 b3 l1 e12 e13 (onShell_msq (hs 0)) (onShell_msq (hs 2)) (onShell_msq (hs 3)) _ (hgdd.react.codeVec c p 0 0)))
  have stM : ∀ {z2 z3 : Pair} (b2 : Bold (p 2) (hgdd.react.mass c 2) z2) (b3 : Bold (p 3) (hgdd.react.mass c 3) z3), hgdd.formM (hgdd.N c p) p (legA (p 1) 0 0, legS (p 1) 0 1) z2 z3 = (-1) * hgdd.react.bare c p 2 3 0 1 z2 z3 (hgdd.react.codeVec c p 0 0) (lightE (legA (p 1) 0 0, legS (p 1) 0 1) 0) := by
    intro z2 z3 b2 b3
    exact (light_minus (z := (legA (p 1) 0 0, legS (p 1) 0 1)) (G := fun E => hgdd.react.bare c p 2 3 0 1 z2 z3 (hgdd.react.codeVec c p 0 0) E) (hgdd.react.bare_lin₂ c p _ _ _ (by decide)) y1 (hgdd.keyM hc hb r2 r3 r6 d0 n0 d1 n1 b2 b3 l1 e12 e13 (onShell_msq (hs 0)) (onShell_msq (hs 2)) (onShell_msq (hs 3)) _ (hgdd.react.codeVec c p 0 0)))
  have amP : ∀ (s2 : Fin 2) (s3 : Fin 2), Cls.hgdd.m_amp.mean (hgdd.N c p) (callMean (hgdd.N c p) []) .c [2, spinOf s2, spinOf s3] = (-1) * hgdd.react.bare c p 2 3 0 1 (hgdd.react.codePair c p 2 s2) (hgdd.react.codePair c p 3 s3) (hgdd.react.codeVec c p 0 0) (lightE (legA (p 1) 0 0, legS (p 1) 0 1) 1) := by
    intro s2 s3
    rw [hgdd.ampP, ← stP (hgdd.react.codePair_bold hs h0 2 s2) (hgdd.react.codePair_bold hs h0 3 s3)]
    have v0z1z3 : (hgdd.N c p).v 0 [spinOf s3] = sb (legA (p 1) 0 0, legS (p 1) 0 1).2 (hgdd.react.codePair c p 3 s3).2 := bra_square (p := p) (m := hgdd.proc.massNum (hgdd.rho c)) (hgdd.mass_eq hc 1) (hgdd.mass_eq hc 3) (.inr ⟨m1, rfl⟩) (.inl ⟨m3, rfl⟩)
    have v2z1z2 : (hgdd.N c p).v 2 [spinOf s2] = sb (legA (p 1) 0 0, legS (p 1) 0 1).2 (hgdd.react.codePair c p 2 s2).2 := bra_square (p := p) (m := hgdd.proc.massNum (hgdd.rho c)) (hgdd.mass_eq hc 1) (hgdd.mass_eq hc 2) (.inr ⟨m1, rfl⟩) (.inl ⟨m2, rfl⟩)
    have v6z1z2 : (hgdd.N c p).v 6 [spinOf s2] = mb (legA (p 1) 0 0, legS (p 1) 0 1).2 (p 0) (hgdd.react.codePair c p 2 s2).1 := bra_mid_square (p := p) (m := hgdd.proc.massNum (hgdd.rho c)) (hgdd.mass_eq hc 1) (hgdd.mass_eq hc 2) (.inr ⟨m1, rfl⟩) (.inl ⟨m2, rfl⟩)
    have v8z1z3 : (hgdd.N c p).v 8 [spinOf s3] = mb (legA (p 1) 0 0, legS (p 1) 0 1).2 (p 0) (hgdd.react.codePair c p 3 s3).1 := bra_mid_square (p := p) (m := hgdd.proc.massNum (hgdd.rho c)) (hgdd.mass_eq hc 1) (hgdd.mass_eq hc 3) (.inr ⟨m1, rfl⟩) (.inl ⟨m3, rfl⟩)
    have v5z2z3 : (hgdd.N c p).v 5 [spinOf s2, spinOf s3] = ab (hgdd.react.codePair c p 2 s2).1 (hgdd.react.codePair c p 3 s3).1 := bra_angle (p := p) (m := hgdd.proc.massNum (hgdd.rho c)) (hgdd.mass_eq hc 2) (hgdd.mass_eq hc 3) (.inl ⟨m2, rfl⟩) (.inl ⟨m3, rfl⟩)
    have v10z1z1 : (hgdd.N c p).v 10 [] = mb (legA (p 1) 0 0, legS (p 1) 0 1).2 (p 2) (slashLower (p 0) *ᵥ (legA (p 1) 0 0, legS (p 1) 0 1).2) := bra_two_square (p := p) (m := hgdd.proc.massNum (hgdd.rho c)) (hgdd.mass_eq hc 1) (hgdd.mass_eq hc 1) (.inr ⟨m1, rfl⟩) (.inr ⟨m1, rfl⟩)
    simp only [hgdd.termP, hgdd.formP, v0z1z3, v2z1z2, v6z1z2, v8z1z3, v5z2z3, v10z1z1]
  have amM : ∀ (s2 : Fin 2) (s3 : Fin 2), Cls.hgdd.m_amp.mean (hgdd.N c p) (callMean (hgdd.N c p) []) .c [(-2), spinOf s2, spinOf s3] = (-1) * hgdd.react.bare c p 2 3 0 1 (hgdd.react.codePair c p 2 s2) (hgdd.react.codePair c p 3 s3) (hgdd.react.codeVec c p 0 0) (lightE (legA (p 1) 0 0, legS (p 1) 0 1) 0) := by
    intro s2 s3
    rw [hgdd.ampM, ← stM (hgdd.react.codePair_bold hs h0 2 s2) (hgdd.react.codePair_bold hs h0 3 s3)]
    have v1z1z3 : (hgdd.N c p).v 1 [spinOf s3] = ab (legA (p 1) 0 0, legS (p 1) 0 1).1 (hgdd.react.codePair c p 3 s3).1 := bra_angle (p := p) (m := hgdd.proc.massNum (hgdd.rho c)) (hgdd.mass_eq hc 1) (hgdd.mass_eq hc 3) (.inr ⟨m1, rfl⟩) (.inl ⟨m3, rfl⟩)
    have v3z1z2 : (hgdd.N c p).v 3 [spinOf s2] = ab (legA (p 1) 0 0, legS (p 1) 0 1).1 (hgdd.react.codePair c p 2 s2).1 := bra_angle (p := p) (m := hgdd.proc.massNum (hgdd.rho c)) (hgdd.mass_eq hc 1) (hgdd.mass_eq hc 2) (.inr ⟨m1, rfl⟩) (.inl ⟨m2, rfl⟩)
    have v7z1z2 : (hgdd.N c p).v 7 [spinOf s2] = mb (hgdd.react.codePair c p 2 s2).2 (p 0) (legA (p 1) 0 0, legS (p 1) 0 1).1 := bra_mid_angle (p := p) (m := hgdd.proc.massNum (hgdd.rho c)) (hgdd.mass_eq hc 1) (hgdd.mass_eq hc 2) (.inr ⟨m1, rfl⟩) (.inl ⟨m2, rfl⟩)
    have v9z1z3 : (hgdd.N c p).v 9 [spinOf s3] = mb (hgdd.react.codePair c p 3 s3).2 (p 0) (legA (p 1) 0 0, legS (p 1) 0 1).1 := bra_mid_angle (p := p) (m := hgdd.proc.massNum (hgdd.rho c)) (hgdd.mass_eq hc 1) (hgdd.mass_eq hc 3) (.inr ⟨m1, rfl⟩) (.inl ⟨m3, rfl⟩)
    have v4z2z3 : (hgdd.N c p).v 4 [spinOf s2, spinOf s3] = sb (hgdd.react.codePair c p 2 s2).2 (hgdd.react.codePair c p 3 s3).2 := bra_square (p := p) (m := hgdd.proc.massNum (hgdd.rho c)) (hgdd.mass_eq hc 2) (hgdd.mass_eq hc 3) (.inl ⟨m2, rfl⟩) (.inl ⟨m3, rfl⟩)
    have v11z1z1 : (hgdd.N c p).v 11 [] = mb (slashUpper (p 0) *ᵥ (legA (p 1) 0 0, legS (p 1) 0 1).1) (p 2) (legA (p 1) 0 0, legS (p 1) 0 1).1 := bra_two_angle (p := p) (m := hgdd.proc.massNum (hgdd.rho c)) (hgdd.mass_eq hc 1) (hgdd.mass_eq hc 1) (.inr ⟨m1, rfl⟩) (.inr ⟨m1, rfl⟩)
    simp only [hgdd.termM, hgdd.formM, v1z1z3, v3z1z2, v7z1z2, v9z1z3, v4z2z3, v11z1z1]
  refine ⟨n0, n1, fun n hn => ?_, fun n hn => ?_, ?_⟩
  · simp [hd] at hn
  · simp [hd] at hn
    rcases hn with rfl | rfl
    · exact n0
    · exact n1
  intro s2 s3 h1
  match h1 with
  | 1 => exact norm_minus (amP s2 s3)
  | 0 => exact norm_minus (amM s2 s3)

variable [FPEnv] in
theorem hgdd.agrees : hgdd.Agrees := by
  refine agrees_of (D := [4, 5]) (E := [5]) (by simp [all, hgdd]) (by decide +kernel) (by decide) (by decide +kernel) (fun c hc hh => ⟨List.forall_mem_cons.2 ⟨hc.MW, List.forall_mem_cons.2 ⟨hc.SW, List.forall_mem_nil _⟩⟩, List.forall_mem_cons.2 ⟨hc.SW_lt, List.forall_mem_nil _⟩⟩) (fun c hc i => hgdd.mass_eq hc i) (by decide +kernel) ?_
  intro c p u ε hc hh hw h0 hs hb hr hu
  have he : hgdd.react.ends = [2] := by decide
  have ht : hgdd.react.starts = [3] := by decide
  have hB : hgdd.react.bosons = [0, 1] := by decide
  obtain ⟨n0, n1, d1, d2, am⟩ := hgdd.amps hc hh h0 hs hb hr hu
  refine ⟨d1, d2, ?_⟩
  show meaning (hgdd.N c p) .r Cls.hgdd.methods Cls.hgdd.amp2 [] = _
  have s0 : hgdd.react.states 0 = 1 := by decide +kernel
  have s1 : hgdd.react.states 1 = 16 := by decide +kernel
  have sy : hgdd.react.symmetry = 1 := by decide
  have p0 : hgdd.react.spins 0 = {0} := rfl
  have p1 : hgdd.react.spins 1 = {0, 1} := rfl
  have p2 : hgdd.react.spins 2 = {0, 1} := rfl
  have p3 : hgdd.react.spins 3 = {0, 1} := rfl
  have E0 : hgdd.react.codeE c p 0 = hgdd.react.codeVec c p 0 := rfl
  have E1 : hgdd.react.codeE c p 1 = lightE (legA (p 1) 0 0, legS (p 1) 0 1) := rfl
  have hG : hgdd.react.Gauge c p := (hgdd.react.gauge_line he ht hB hh (by decide) (fun n => onShell_msq (hs n)) hb hr (fun n m h h2 => absurd (And.intro h h2) (by revert n m; decide)) (fun h => absurd h (by decide)) (fun _ => ⟨rfl, rfl⟩))
  rw [hgdd.value, hgdd.react.squared_gluon 1 he ht hB (by decide) (by decide +kernel) (by decide +kernel) hs h0 (fun _ b _ hb _ => (boson_pos hc hh hb).ne') hG (E := hgdd.react.codeE c p) (fun n b hl => hgdd.react.codeE_polarised hs h0 hu (fun b hb => (boson_pos hc hh hb).ne') n b hl) hu, sum_colours, s0, s1, sy]
  simp only [sumV_sum, sumJ_sum, sumW_sum, am, p0, p1, p2, p3, E0, E1, Finset.sum_singleton, sum_two, Matrix.cons_val_zero, Matrix.cons_val_one, Matrix.cons_val, two_castSucc]
  try simp only [← Finset.mul_sum]
  push_cast
  first | ring1 | ring_nf

/-! ### hguu -/

/-- what the methods of the class see -/
noncomputable abbrev hguu.N [FPEnv] (c : Constants) (p : Nat → V4 ℝ) : Env := hguu.proc.env (hguu.rho c) p
/-- `amp` for a gluon of positive helicity (SM/hguu.cpp) -/
noncomputable def hguu.termP (N : Env) (j3 j4 : Int) : ℂ :=
  (((((N.r 6 : ℝ) : ℂ) * (((((((N.r 3 * N.r 3) : ℝ) : ℂ) * N.v 2 [j3]) * N.v 0 [j4]) - (N.v 6 [j3] * N.v 8 [j4])) + ((((((2 : Nat) : ℝ) : ℝ) : ℂ) * N.v 5 [j3, j4]) * N.v 10 []))) / N.c 0) / N.c 1)
/-- the same with spinors in place of their spins -/
noncomputable def hguu.formP (N : Env) (p : Nat → V4 ℝ) (z1 z2 z3 : Pair) : ℂ :=
  (((((N.r 6 : ℝ) : ℂ) * (((((((N.r 3 * N.r 3) : ℝ) : ℂ) * (sb z1.2 z2.2)) * (sb z1.2 z3.2)) - ((mb z1.2 (p 0) z2.1) * (mb z1.2 (p 0) z3.1))) + ((((((2 : Nat) : ℝ) : ℝ) : ℂ) * (ab z2.1 z3.1)) * (mb z1.2 (p 2) (slashLower (p 0) *ᵥ z1.2))))) / N.c 0) / N.c 1)
/-- `amp` for a gluon of negative helicity (SM/hguu.cpp) -/
noncomputable def hguu.termM (N : Env) (j3 j4 : Int) : ℂ :=
  (((((N.r 6 : ℝ) : ℂ) * (((((((N.r 3 * N.r 3) : ℝ) : ℂ) * N.v 3 [j3]) * N.v 1 [j4]) - (N.v 7 [j3] * N.v 9 [j4])) + ((((((2 : Nat) : ℝ) : ℝ) : ℂ) * N.v 4 [j3, j4]) * N.v 11 []))) / N.c 0) / N.c 1)
/-- the same with spinors in place of their spins -/
noncomputable def hguu.formM (N : Env) (p : Nat → V4 ℝ) (z1 z2 z3 : Pair) : ℂ :=
  (((((N.r 6 : ℝ) : ℂ) * (((((((N.r 3 * N.r 3) : ℝ) : ℂ) * (ab z1.1 z2.1)) * (ab z1.1 z3.1)) - ((mb z2.2 (p 0) z1.1) * (mb z3.2 (p 0) z1.1))) + ((((((2 : Nat) : ℝ) : ℝ) : ℂ) * (sb z2.2 z3.2)) * (mb (slashUpper (p 0) *ᵥ z1.1) (p 2) z1.1)))) / N.c 0) / N.c 1)
theorem hguu.keyP {c : Constants} {p : Nat → V4 ℝ} {N : Env} (hc : c.Physical) (hb : Balanced p) (r3 : N.r 3 = c.MH) (r6 : N.r 6 = (((c.e * c.gs) * (c.mass .u)) / ((√(((2 : Nat) : ℝ)) * c.MW) * c.SW))) (d0 : ((msq (plus (backward (p 3)) (p 1)) - c.mass .u ^ 2 : ℝ) : ℂ) = N.c 0) (n0 : N.c 0 ≠ 0) (d1 : ((msq (plus (backward (p 3)) (p 0)) - c.mass .u ^ 2 : ℝ) : ℂ) = N.c 1) (n1 : N.c 1 ≠ 0) {z1 z2 z3 : Pair} (b2 : Bold (p 2) (c.mass .u) z2) (b3 : Bold (p 3) (c.mass .u) z3) (l1 : Light (p 1) z1) (e12 : mb z1.2 (p 2) z1.1 = -N.c 1) (e13 : mb z1.2 (p 3) z1.1 = -N.c 0) (q0 : msq (p 0) = c.MH ^ 2) (q2 : msq (p 2) = (c.mass .u) ^ 2) (q3 : msq (p 3) = (c.mass .u) ^ 2) (ρ1 : V2) (E0 : Vec) :
    hguu.formP N p z1 z2 z3 * ab ρ1 z1.1 = ((√2 : ℝ) * (1 : ℂ)) * hguu.react.bare c p 2 3 0 1 z2 z3 E0 (pv ρ1 z1.2) := by
  rw [hguu.react.bare_parts c p (i := 2) (j := 3) (a := 0) (b := 1) (x := .higgs) (y := .gluon) (k := (p 0)) (k' := (p 1)) (fun _ => rfl) (fun _ => rfl) (f := .u) (g := .u) rfl rfl (l := (backward (p 3))) rfl (e := 1) (e' := -1) (if_neg Bool.false_ne_true) (if_pos rfl)]
  rw [compton_hv (f := .u) (x := .u) (g := .u) (h := (rfl : Spec.after .higgs Flavour.u = some Flavour.u)) (h' := (rfl : Spec.after .gluon Flavour.u = some Flavour.u)) (hb := by simp)]
  rw [compton_vh (f := .u) (x := .u) (g := .u) (h := (rfl : Spec.after .gluon Flavour.u = some Flavour.u)) (h' := (rfl : Spec.after .higgs Flavour.u = some Flavour.u)) (ha := by simp)]
  rw [annihilation_none' c _ _ (by rfl) (by simp), star_zero, add_zero, hguu.formP]
  simp only [d0, d1, lineV_pv, lineV_four, contract_four_pv, contract_pv, mb_plus, mb_backward]
  have i0 := mb_schouten_right z1.2 (p 0) z1.1 z2.1 z3.1
  have i1 := mb_schouten_right z1.2 (p 0) z1.1 z3.1 ρ1
  have i2 := mb_schouten_right z1.2 (p 0) z2.1 z3.1 ρ1
  have i3 := chain_square z1.1 z3.1 z1.2 (p 2) (p 0) z1.2
  have i4 := chain_square z1.1 z2.1 z1.2 (p 2) (p 0) z1.2
  have i5 := ab_schouten z2.1 z3.1 ρ1 z1.1
  have i6 := mb_schouten_left z1.2 z2.2 z3.2 (p 0) ρ1
  have i7 := mb_schouten_left z1.2 z2.2 z3.2 (p 2) z1.1
  have i8 := mb_schouten_left z1.2 z2.2 z3.2 (p 0) z1.1
  have i9 := mb_schouten_right z1.2 (p 2) z1.1 z2.1 z3.1
  have i10 := mb_det z1.2 z2.2 (p 0) z1.1 ρ1
  rw [q0] at i10
  simp only [l1.mb_eq, b2.mb_left, b2.mb_right, b3.mb_left, b3.mb_right, e12, e13, mb_nought hb z1.2 z1.1, mb_three hb z1.2 z2.1, mb_two hb z1.2 z3.1, mb_three hb z1.2 ρ1, mb_three hb z2.2 z1.1, mb_three hb z2.2 z2.1, mb_nought hb z2.2 z3.1, mb_three hb z2.2 ρ1, mb_two hb z3.2 z1.1, mb_nought hb z3.2 z2.1, mb_two hb z3.2 z3.1, mb_two hb z3.2 ρ1, ab_self, sb_self] at i0 i1 i2 i3 i4 i5 i6 i7 i8 i9 i10 ⊢
  simp only [ab_swap z1.1 z2.1, ab_swap z1.1 z3.1, ab_swap z1.1 ρ1, ab_swap z2.1 z3.1, ab_swap z2.1 ρ1, ab_swap z3.1 ρ1, sb_swap z1.2 z2.2, sb_swap z1.2 z3.2, sb_swap z2.2 z3.2] at i0 i1 i2 i3 i4 i5 i6 i7 i8 i9 i10 ⊢
  simp only [r3, r6, Constants.hL, Constants.hR, Constants.gL, Constants.gR, Constants.yuk, Constants.invVev, Flavour.charge_u, Flavour.isospin_u, ← c.mz]
  have xMW : (c.MW : ℂ) ≠ 0 := by exact_mod_cast hc.MW
  have xSW : (c.SW : ℂ) ≠ 0 := by exact_mod_cast hc.SW
  have xCW : (c.CW : ℂ) ≠ 0 := by exact_mod_cast hc.CW
  have x2 : ((√2 : ℝ) : ℂ) ≠ 0 := by exact_mod_cast (Real.sqrt_pos.2 two_pos).ne'
  have x22 : ((√2 : ℝ) : ℂ) ^ 2 = 2 := by rw [← Complex.ofReal_pow, Real.sq_sqrt two_pos.le]; norm_num
  have x23 : ((√2 : ℝ) : ℂ) ^ 3 = 2 * ((√2 : ℝ) : ℂ) := by rw [← x22]; ring
  have x24 : ((√2 : ℝ) : ℂ) ^ 4 = 4 := by linear_combination (((√2 : ℝ) : ℂ) ^ 2 + 2) * x22
  push_cast at i0 i1 i2 i3 i4 i5 i6 i7 i8 i9 i10 ⊢
  have y0 := mul_inv_cancel₀ n0
  have y1 := mul_inv_cancel₀ n1
  have yR2 : ((√2 : ℝ) : ℂ)⁻¹ = ((√2 : ℝ) : ℂ) / 2 := by rw [inv_eq_iff_eq_inv, inv_div, eq_div_iff x2, ← x22]; ring
  linear_combination ((((-1) * (((√2 : ℝ) : ℂ)) * ((c.e : ℂ)) * ((c.gs : ℂ)) * ((c.mass .u : ℂ)) * (mb z1.2 (p 0) ρ1)) * i0 + ((-1) * (((√2 : ℝ) : ℂ)) * ((c.e : ℂ)) * ((c.gs : ℂ)) * ((c.mass .u : ℂ)) * (mb z1.2 (p 0) z2.1)) * i1 + ((-1) * (((√2 : ℝ) : ℂ)) * ((c.e : ℂ)) * ((c.gs : ℂ)) * ((c.mass .u : ℂ)) * (N.c 0)) * i2 + ((-2) * (((√2 : ℝ) : ℂ)) * ((c.e : ℂ)) * ((c.gs : ℂ)) * ((c.mass .u : ℂ)) * (ab z2.1 ρ1)) * i3 + ((2) * (((√2 : ℝ) : ℂ)) * ((c.e : ℂ)) * ((c.gs : ℂ)) * ((c.mass .u : ℂ)) * (ab z3.1 ρ1)) * i4 + ((-2) * (((√2 : ℝ) : ℂ)) * ((c.e : ℂ)) * ((c.gs : ℂ)) * ((c.mass .u : ℂ)) * ((mb z1.2 (p 2) (slashLower (p 0) *ᵥ z1.2)))) * i5 + ((1) * (((√2 : ℝ) : ℂ)) * ((c.e : ℂ)) * ((c.gs : ℂ)) * ((c.mass .u : ℂ)) * (N.c 0)) * i6 + ((-1) * (((√2 : ℝ) : ℂ)) * ((c.e : ℂ)) * ((c.gs : ℂ)) * ((c.mass .u : ℂ)) * (mb z1.2 (p 0) ρ1)) * i7 + ((1) * (((√2 : ℝ) : ℂ)) * ((c.e : ℂ)) * ((c.gs : ℂ)) * ((c.mass .u : ℂ)) * (mb z1.2 (p 0) ρ1)) * i8 + ((1) * (((√2 : ℝ) : ℂ)) * ((c.e : ℂ)) * ((c.gs : ℂ)) * ((c.mass .u : ℂ)) * (mb z1.2 (p 0) ρ1)) * i9 + ((-1) * (((√2 : ℝ) : ℂ)) * ((c.e : ℂ)) * ((c.gs : ℂ)) * ((c.mass .u : ℂ)) * (sb z1.2 z3.2)) * i10)) * ((1) * ((c.MW : ℂ)⁻¹) * ((c.SW : ℂ)⁻¹) * ((N.c 0)⁻¹) * ((N.c 1)⁻¹) / (2)) + ((1) * (((√2 : ℝ) : ℂ)) * ((c.e : ℂ)) * ((c.gs : ℂ)) * ((c.MW : ℂ)⁻¹) * ((c.SW : ℂ)⁻¹) * ((c.mass .u : ℂ)) * ((N.c 1)⁻¹) * (ab z2.1 ρ1) * (mb z1.2 (p 0) z3.1) / (2) + (-1) * (((√2 : ℝ) : ℂ)) * ((c.e : ℂ)) * ((c.gs : ℂ)) * ((c.MW : ℂ)⁻¹) * ((c.SW : ℂ)⁻¹) * ((c.mass .u : ℂ)) * ((N.c 1)⁻¹) * (mb z3.2 (p 0) ρ1) * (sb z1.2 z2.2) / (2) + (1) * (((√2 : ℝ) : ℂ)) * ((c.e : ℂ)) * ((c.gs : ℂ)) * ((c.MW : ℂ)⁻¹) * ((c.SW : ℂ)⁻¹) * ((c.mass .u : ℂ)) ^ 2 * ((N.c 1)⁻¹) * (ab z2.1 ρ1) * (sb z1.2 z3.2) + (1) * (((√2 : ℝ) : ℂ)) * ((c.e : ℂ)) * ((c.gs : ℂ)) * ((c.MW : ℂ)⁻¹) * ((c.SW : ℂ)⁻¹) * ((c.mass .u : ℂ)) ^ 2 * ((N.c 1)⁻¹) * (ab z3.1 ρ1) * (sb z1.2 z2.2)) * y0 + ((1) * (((√2 : ℝ) : ℂ)) * ((c.e : ℂ)) * ((c.gs : ℂ)) * ((c.MW : ℂ)⁻¹) * ((c.SW : ℂ)⁻¹) * ((c.mass .u : ℂ)) * ((N.c 0)⁻¹) * (ab z3.1 ρ1) * (mb z1.2 (p 0) z2.1) / (2) + (-1) * (((√2 : ℝ) : ℂ)) * ((c.e : ℂ)) * ((c.gs : ℂ)) * ((c.MW : ℂ)⁻¹) * ((c.SW : ℂ)⁻¹) * ((c.mass .u : ℂ)) * ((N.c 0)⁻¹) * (mb z2.2 (p 0) ρ1) * (sb z1.2 z3.2) / (2) + (1) * (((√2 : ℝ) : ℂ)) * ((c.e : ℂ)) * ((c.gs : ℂ)) * ((c.MW : ℂ)⁻¹) * ((c.SW : ℂ)⁻¹) * ((c.mass .u : ℂ)) ^ 2 * ((N.c 0)⁻¹) * (ab z2.1 ρ1) * (sb z1.2 z3.2) + (1) * (((√2 : ℝ) : ℂ)) * ((c.e : ℂ)) * ((c.gs : ℂ)) * ((c.MW : ℂ)⁻¹) * ((c.SW : ℂ)⁻¹) * ((c.mass .u : ℂ)) ^ 2 * ((N.c 0)⁻¹) * (ab z3.1 ρ1) * (sb z1.2 z2.2)) * y1 + ((-1) * ((c.MH : ℂ)) ^ 2 * ((c.e : ℂ)) * ((c.gs : ℂ)) * ((c.MW : ℂ)⁻¹) * ((c.SW : ℂ)⁻¹) * ((c.mass .u : ℂ)) * ((N.c 0)⁻¹) * ((N.c 1)⁻¹) * (ab z1.1 ρ1) * (sb z1.2 z2.2) * (sb z1.2 z3.2) + (-2) * ((c.e : ℂ)) * ((c.gs : ℂ)) * ((c.MW : ℂ)⁻¹) * ((c.SW : ℂ)⁻¹) * ((c.mass .u : ℂ)) * ((N.c 0)⁻¹) * ((N.c 1)⁻¹) * (ab z1.1 ρ1) * (ab z2.1 z3.1) * ((mb z1.2 (p 2) (slashLower (p 0) *ᵥ z1.2))) + (1) * ((c.e : ℂ)) * ((c.gs : ℂ)) * ((c.MW : ℂ)⁻¹) * ((c.SW : ℂ)⁻¹) * ((c.mass .u : ℂ)) * ((N.c 0)⁻¹) * ((N.c 1)⁻¹) * (ab z1.1 ρ1) * (mb z1.2 (p 0) z2.1) * (mb z1.2 (p 0) z3.1)) * yR2
theorem hguu.keyM {c : Constants} {p : Nat → V4 ℝ} {N : Env} (hc : c.Physical) (hb : Balanced p) (r3 : N.r 3 = c.MH) (r6 : N.r 6 = (((c.e * c.gs) * (c.mass .u)) / ((√(((2 : Nat) : ℝ)) * c.MW) * c.SW))) (d0 : ((msq (plus (backward (p 3)) (p 1)) - c.mass .u ^ 2 : ℝ) : ℂ) = N.c 0) (n0 : N.c 0 ≠ 0) (d1 : ((msq (plus (backward (p 3)) (p 0)) - c.mass .u ^ 2 : ℝ) : ℂ) = N.c 1) (n1 : N.c 1 ≠ 0) {z1 z2 z3 : Pair} (b2 : Bold (p 2) (c.mass .u) z2) (b3 : Bold (p 3) (c.mass .u) z3) (l1 : Light (p 1) z1) (e12 : mb z1.2 (p 2) z1.1 = -N.c 1) (e13 : mb z1.2 (p 3) z1.1 = -N.c 0) (q0 : msq (p 0) = c.MH ^ 2) (q2 : msq (p 2) = (c.mass .u) ^ 2) (q3 : msq (p 3) = (c.mass .u) ^ 2) (ρ1 : V2) (E0 : Vec) :
    hguu.formM N p z1 z2 z3 * sb ρ1 z1.2 = ((√2 : ℝ) * (1 : ℂ)) * hguu.react.bare c p 2 3 0 1 z2 z3 E0 (pv z1.1 ρ1) := by
  rw [hguu.react.bare_parts c p (i := 2) (j := 3) (a := 0) (b := 1) (x := .higgs) (y := .gluon) (k := (p 0)) (k' := (p 1)) (fun _ => rfl) (fun _ => rfl) (f := .u) (g := .u) rfl rfl (l := (backward (p 3))) rfl (e := 1) (e' := -1) (if_neg Bool.false_ne_true) (if_pos rfl)]
  rw [compton_hv (f := .u) (x := .u) (g := .u) (h := (rfl : Spec.after .higgs Flavour.u = some Flavour.u)) (h' := (rfl : Spec.after .gluon Flavour.u = some Flavour.u)) (hb := by simp)]
  rw [compton_vh (f := .u) (x := .u) (g := .u) (h := (rfl : Spec.after .gluon Flavour.u = some Flavour.u)) (h' := (rfl : Spec.after .higgs Flavour.u = some Flavour.u)) (ha := by simp)]
  rw [annihilation_none' c _ _ (by rfl) (by simp), star_zero, add_zero, hguu.formM]
  simp only [d0, d1, lineV_pv, lineV_four, contract_four_pv, contract_pv, mb_plus, mb_backward]
  have i0 := chain_angle z1.2 z2.2 z1.1 (p 2) (p 0) z1.1
  have i1 := sb_schouten z2.2 z3.2 ρ1 z1.2
  have i2 := mb_schouten_left z1.2 z2.2 z3.2 (p 0) z1.1
  have i3 := mb_schouten_left z1.2 z3.2 ρ1 (p 0) z1.1
  have i4 := mb_schouten_left z2.2 z3.2 ρ1 (p 0) z1.1
  have i5 := chain_angle z1.2 z3.2 z1.1 (p 2) (p 0) z1.1
  have i6 := mb_schouten_right ρ1 (p 0) z1.1 z2.1 z3.1
  have i7 := mb_det z1.2 ρ1 (p 0) z1.1 z2.1
  rw [q0] at i7
  have i8 := mb_schouten_right z1.2 (p 2) z1.1 z2.1 z3.1
  have i9 := mb_schouten_right z1.2 (p 0) z1.1 z2.1 z3.1
  have i10 := mb_schouten_left z1.2 z2.2 z3.2 (p 2) z1.1
  simp only [l1.mb_eq, b2.mb_left, b2.mb_right, b3.mb_left, b3.mb_right, e12, e13, mb_nought hb z1.2 z1.1, mb_three hb z1.2 z2.1, mb_two hb z1.2 z3.1, mb_three hb z2.2 z1.1, mb_three hb z2.2 z2.1, mb_nought hb z2.2 z3.1, mb_two hb z3.2 z1.1, mb_nought hb z3.2 z2.1, mb_two hb z3.2 z3.1, mb_three hb ρ1 z1.1, mb_three hb ρ1 z2.1, mb_two hb ρ1 z3.1, ab_self, sb_self] at i0 i1 i2 i3 i4 i5 i6 i7 i8 i9 i10 ⊢
  simp only [ab_swap z1.1 z2.1, ab_swap z1.1 z3.1, ab_swap z2.1 z3.1, sb_swap z1.2 z2.2, sb_swap z1.2 z3.2, sb_swap z1.2 ρ1, sb_swap z2.2 z3.2, sb_swap z2.2 ρ1, sb_swap z3.2 ρ1] at i0 i1 i2 i3 i4 i5 i6 i7 i8 i9 i10 ⊢
  simp only [r3, r6, Constants.hL, Constants.hR, Constants.gL, Constants.gR, Constants.yuk, Constants.invVev, Flavour.charge_u, Flavour.isospin_u, ← c.mz]
  have xMW : (c.MW : ℂ) ≠ 0 := by exact_mod_cast hc.MW
  have xSW : (c.SW : ℂ) ≠ 0 := by exact_mod_cast hc.SW
  have xCW : (c.CW : ℂ) ≠ 0 := by exact_mod_cast hc.CW
  have x2 : ((√2 : ℝ) : ℂ) ≠ 0 := by exact_mod_cast (Real.sqrt_pos.2 two_pos).ne'
  have x22 : ((√2 : ℝ) : ℂ) ^ 2 = 2 := by rw [← Complex.ofReal_pow, Real.sq_sqrt two_pos.le]; norm_num
  have x23 : ((√2 : ℝ) : ℂ) ^ 3 = 2 * ((√2 : ℝ) : ℂ) := by rw [← x22]; ring
  have x24 : ((√2 : ℝ) : ℂ) ^ 4 = 4 := by linear_combination (((√2 : ℝ) : ℂ) ^ 2 + 2) * x22
  push_cast at i0 i1 i2 i3 i4 i5 i6 i7 i8 i9 i10 ⊢
  have y0 := mul_inv_cancel₀ n0
  have y1 := mul_inv_cancel₀ n1
  have yR2 : ((√2 : ℝ) : ℂ)⁻¹ = ((√2 : ℝ) : ℂ) / 2 := by rw [inv_eq_iff_eq_inv, inv_div, eq_div_iff x2, ← x22]; ring
  linear_combination ((((2) * (((√2 : ℝ) : ℂ)) * ((c.e : ℂ)) * ((c.gs : ℂ)) * ((c.mass .u : ℂ)) * (sb z3.2 ρ1)) * i0 + ((-2) * (((√2 : ℝ) : ℂ)) * ((c.e : ℂ)) * ((c.gs : ℂ)) * ((c.mass .u : ℂ)) * ((mb (slashUpper (p 0) *ᵥ z1.1) (p 2) z1.1))) * i1 + ((-1) * (((√2 : ℝ) : ℂ)) * ((c.e : ℂ)) * ((c.gs : ℂ)) * ((c.mass .u : ℂ)) * (mb ρ1 (p 0) z1.1)) * i2 + ((-1) * (((√2 : ℝ) : ℂ)) * ((c.e : ℂ)) * ((c.gs : ℂ)) * ((c.mass .u : ℂ)) * (mb z2.2 (p 0) z1.1)) * i3 + ((-1) * (((√2 : ℝ) : ℂ)) * ((c.e : ℂ)) * ((c.gs : ℂ)) * ((c.mass .u : ℂ)) * (N.c 0)) * i4 + ((-2) * (((√2 : ℝ) : ℂ)) * ((c.e : ℂ)) * ((c.gs : ℂ)) * ((c.mass .u : ℂ)) * (sb z2.2 ρ1)) * i5 + ((1) * (((√2 : ℝ) : ℂ)) * ((c.e : ℂ)) * ((c.gs : ℂ)) * ((c.mass .u : ℂ)) * (N.c 0)) * i6 + ((-1) * (((√2 : ℝ) : ℂ)) * ((c.e : ℂ)) * ((c.gs : ℂ)) * ((c.mass .u : ℂ)) * (ab z1.1 z3.1)) * i7 + ((-1) * (((√2 : ℝ) : ℂ)) * ((c.e : ℂ)) * ((c.gs : ℂ)) * ((c.mass .u : ℂ)) * (mb ρ1 (p 0) z1.1)) * i8 + ((1) * (((√2 : ℝ) : ℂ)) * ((c.e : ℂ)) * ((c.gs : ℂ)) * ((c.mass .u : ℂ)) * (mb ρ1 (p 0) z1.1)) * i9 + ((1) * (((√2 : ℝ) : ℂ)) * ((c.e : ℂ)) * ((c.gs : ℂ)) * ((c.mass .u : ℂ)) * (mb ρ1 (p 0) z1.1)) * i10)) * ((1) * ((c.MW : ℂ)⁻¹) * ((c.SW : ℂ)⁻¹) * ((N.c 0)⁻¹) * ((N.c 1)⁻¹) / (2)) + ((-1) * (((√2 : ℝ) : ℂ)) * ((c.e : ℂ)) * ((c.gs : ℂ)) * ((c.MW : ℂ)⁻¹) * ((c.SW : ℂ)⁻¹) * ((c.mass .u : ℂ)) * ((N.c 1)⁻¹) * (ab z1.1 z2.1) * (mb ρ1 (p 0) z3.1) / (2) + (1) * (((√2 : ℝ) : ℂ)) * ((c.e : ℂ)) * ((c.gs : ℂ)) * ((c.MW : ℂ)⁻¹) * ((c.SW : ℂ)⁻¹) * ((c.mass .u : ℂ)) * ((N.c 1)⁻¹) * (mb z3.2 (p 0) z1.1) * (sb z2.2 ρ1) / (2) + (1) * (((√2 : ℝ) : ℂ)) * ((c.e : ℂ)) * ((c.gs : ℂ)) * ((c.MW : ℂ)⁻¹) * ((c.SW : ℂ)⁻¹) * ((c.mass .u : ℂ)) ^ 2 * ((N.c 1)⁻¹) * (ab z1.1 z2.1) * (sb z3.2 ρ1) + (1) * (((√2 : ℝ) : ℂ)) * ((c.e : ℂ)) * ((c.gs : ℂ)) * ((c.MW : ℂ)⁻¹) * ((c.SW : ℂ)⁻¹) * ((c.mass .u : ℂ)) ^ 2 * ((N.c 1)⁻¹) * (ab z1.1 z3.1) * (sb z2.2 ρ1)) * y0 + ((-1) * (((√2 : ℝ) : ℂ)) * ((c.e : ℂ)) * ((c.gs : ℂ)) * ((c.MW : ℂ)⁻¹) * ((c.SW : ℂ)⁻¹) * ((c.mass .u : ℂ)) * ((N.c 0)⁻¹) * (ab z1.1 z3.1) * (mb ρ1 (p 0) z2.1) / (2) + (1) * (((√2 : ℝ) : ℂ)) * ((c.e : ℂ)) * ((c.gs : ℂ)) * ((c.MW : ℂ)⁻¹) * ((c.SW : ℂ)⁻¹) * ((c.mass .u : ℂ)) * ((N.c 0)⁻¹) * (mb z2.2 (p 0) z1.1) * (sb z3.2 ρ1) / (2) + (1) * (((√2 : ℝ) : ℂ)) * ((c.e : ℂ)) * ((c.gs : ℂ)) * ((c.MW : ℂ)⁻¹) * ((c.SW : ℂ)⁻¹) * ((c.mass .u : ℂ)) ^ 2 * ((N.c 0)⁻¹) * (ab z1.1 z2.1) * (sb z3.2 ρ1) + (1) * (((√2 : ℝ) : ℂ)) * ((c.e : ℂ)) * ((c.gs : ℂ)) * ((c.MW : ℂ)⁻¹) * ((c.SW : ℂ)⁻¹) * ((c.mass .u : ℂ)) ^ 2 * ((N.c 0)⁻¹) * (ab z1.1 z3.1) * (sb z2.2 ρ1)) * y1 + ((-1) * ((c.MH : ℂ)) ^ 2 * ((c.e : ℂ)) * ((c.gs : ℂ)) * ((c.MW : ℂ)⁻¹) * ((c.SW : ℂ)⁻¹) * ((c.mass .u : ℂ)) * ((N.c 0)⁻¹) * ((N.c 1)⁻¹) * (ab z1.1 z2.1) * (ab z1.1 z3.1) * (sb z1.2 ρ1) + (-2) * ((c.e : ℂ)) * ((c.gs : ℂ)) * ((c.MW : ℂ)⁻¹) * ((c.SW : ℂ)⁻¹) * ((c.mass .u : ℂ)) * ((N.c 0)⁻¹) * ((N.c 1)⁻¹) * ((mb (slashUpper (p 0) *ᵥ z1.1) (p 2) z1.1)) * (sb z1.2 ρ1) * (sb z2.2 z3.2) + (1) * ((c.e : ℂ)) * ((c.gs : ℂ)) * ((c.MW : ℂ)⁻¹) * ((c.SW : ℂ)⁻¹) * ((c.mass .u : ℂ)) * ((N.c 0)⁻¹) * ((N.c 1)⁻¹) * (mb z2.2 (p 0) z1.1) * (mb z3.2 (p 0) z1.1) * (sb z1.2 ρ1)) * yR2
set_option maxRecDepth 8000 in
theorem hguu.amp2_eq (N : Env) (f : Nat → List Int → ℂ) : Cls.hguu.m_amp2.mean N f .r [] =
    ((sumW (fun x a => (sumJ (fun x b => (sumJ (fun x c => (x + (((4 : Nat) : ℝ) * (‖(f 0 [a, b, c])‖ ^ 2)))) x)) x)) ((0 : Nat) : ℝ)) / ((16 : Nat) : ℝ)) := by rfl
set_option maxRecDepth 8000 in
theorem hguu.value (N : Env) : meaning N .r Cls.hguu.methods Cls.hguu.amp2 [] =
    ((sumW (fun x a => (sumJ (fun x b => (sumJ (fun x c => (x + (((4 : Nat) : ℝ) * (‖(Cls.hguu.m_amp.mean N (callMean N []) .c [a, b, c])‖ ^ 2)))) x)) x)) ((0 : Nat) : ℝ)) / ((16 : Nat) : ℝ)) :=
  hguu.amp2_eq N (callMean N [Cls.hguu.m_amp])
set_option maxRecDepth 8000 in
theorem hguu.ampP (N : Env) (f : Nat → List Int → ℂ) (j3 j4 : Int) : Cls.hguu.m_amp.mean N f .c [2, j3, j4] = hguu.termP N j3 j4 := by rfl
set_option maxRecDepth 8000 in
theorem hguu.ampM (N : Env) (f : Nat → List Int → ℂ) (j3 j4 : Int) : Cls.hguu.m_amp.mean N f .c [(-2), j3, j4] = hguu.termM N j3 j4 := by rfl

theorem hguu.mass_eq {c : Constants} (hc : c.Physical) (i : Fin 4) : hguu.proc.massNum (hguu.rho c) i = hguu.react.mass c i := by
  fin_cases i <;> first | rfl | exact Nat.cast_zero | exact Nat.cast_zero.trans (hc.neutrino _).symm | (show c.MW / √(((1 : Nat) : ℝ) - c.SW * c.SW) = c.MZ; rw [c.root, c.mz])

variable [FPEnv] in
theorem hguu.amps {c : Constants} {p : Nat → V4 ℝ} {u : Fin 4 → Fin 3 → Spinor} {ε : Fin 4 → Fin 3 → Vec} (hc : c.Physical) (hh : c.Heavy) (h0 : ∀ i, 0 ≤ hguu.react.mass c i) (hs : ∀ i : Fin 4, OnShell (p i) (hguu.react.mass c i)) (hb : Balanced p) (hr : hguu.react.Regular c p) (hu : ∀ i, hguu.react.Complete c p i (u i) (ε i)) :
    (hguu.N c p).c 0 ≠ 0 ∧ (hguu.N c p).c 1 ≠ 0 ∧ (∀ n, (Ty.r, n) ∈ hguu.proc.divides → (hguu.N c p).r n ≠ 0) ∧ (∀ n, (Ty.c, n) ∈ hguu.proc.divides → (hguu.N c p).c n ≠ 0) ∧ ∀ (s2 : Fin 2) (s3 : Fin 2) (h1 : Fin 2), ‖Cls.hguu.m_amp.mean (hguu.N c p) (callMean (hguu.N c p) []) .c [spinW h1, spinOf s2, spinOf s3]‖ = ‖hguu.react.bare c p 2 3 0 1 (hguu.react.codePair c p 2 s2) (hguu.react.codePair c p 3 s3) (hguu.react.codeVec c p 0 0) (lightE (legA (p 1) 0 0, legS (p 1) 0 1) h1.castSucc)‖ := by
  have he : hguu.react.ends = [2] := by decide
  have ht : hguu.react.starts = [3] := by decide
  have hB : hguu.react.bosons = [0, 1] := by decide
  obtain ⟨f1, f2, f3⟩ := hguu.react.regular_line he ht hB hr
  have r3 : (hguu.N c p).r 3 = c.MH := rfl
  have r6 : (hguu.N c p).r 6 = (((c.e * c.gs) * (c.mass .u)) / ((√(((2 : Nat) : ℝ)) * c.MW) * c.SW)) := rfl
  have c0 : (hguu.N c p).c 0 = poleDist (c.mass .u) ((0 : Nat) : ℝ) ((VExp.sub 0 2).sum p) := rfl
  rw [Nat.cast_zero, pole_fermion rfl] at c0
  have d0 : ((msq (plus (backward (p 3)) (p 1)) - c.mass .u ^ 2 : ℝ) : ℂ) = (hguu.N c p).c 0 := by rw [c0, msq_t hb (plus (backward (p 3)) (p 1)) (by simp)]
  have n0 : (hguu.N c p).c 0 ≠ 0 := by rw [← d0]; exact_mod_cast f2 .u rfl rfl
  have c1 : (hguu.N c p).c 1 = poleDist (c.mass .u) ((0 : Nat) : ℝ) ((VExp.sub 0 3).sum p) := rfl
  rw [Nat.cast_zero, pole_fermion rfl] at c1
  have d1 : ((msq (plus (backward (p 3)) (p 0)) - c.mass .u ^ 2 : ℝ) : ℂ) = (hguu.N c p).c 1 := by rw [c1, msq_u hb (plus (backward (p 3)) (p 0)) (by simp)]
  have n1 : (hguu.N c p).c 1 ≠ 0 := by rw [← d1]; exact_mod_cast f1 .u rfl rfl
  obtain ⟨l1, x1, y1⟩ := hguu.react.code_light hs hu (n := 1) rfl rfl
  have e12 := l1.pole_sub (m := (c.mass .u)) (onShell_msq (hs 2)) (msq_u hb (plus (p 1) (backward (p 2))) (by simp)) c1
  have e13 := l1.pole_sub (m := (c.mass .u)) (onShell_msq (hs 3)) (msq_t hb (plus (p 1) (backward (p 3))) (by simp)) c0
  have m2 : hguu.react.mass c 2 ≠ 0 := (leg_pos hc hh (by decide)).ne'
  have m3 : hguu.react.mass c 3 ≠ 0 := (leg_pos hc hh (by decide)).ne'
  have m1 : hguu.react.mass c 1 = 0 := rfl
  have hd : hguu.proc.divides = [(Ty.c, 0), (Ty.c, 1)] := by decide +kernel
  have stP : ∀ {z2 z3 : Pair} (b2 : Bold (p 2) (hguu.react.mass c 2) z2) (b3 : Bold (p 3) (hguu.react.mass c 3) z3), hguu.formP (hguu.N c p) p (legA (p 1) 0 0, legS (p 1) 0 1) z2 z3 = 1 * hguu.react.bare c p 2 3 0 1 z2 z3 (hguu.react.codeVec c p 0 0) (lightE (legA (p 1) 0 0, legS (p 1) 0 1) 1) := by
    intro z2 z3 b2 b3
    exact (light_plus (z := (legA (p 1) 0 0, legS (p 1) 0 1)) (G := fun E => hguu.react.bare c p 2 3 0 1 z2 z3 (hguu.react.codeVec c p 0 0) E) (hguu.react.bare_lin₂ c p _ _ _ (by decide)) x1 (hguu.keyP hc hb r3 r6 d0 n0 d1 n1 b2 b3 l1 e12 e13 (onShell_msq (hs 0)) (onShell_msq (hs 2)) (onShell_msq (hs 3)) _ (hguu.react.codeVec c p 0 0)))
  have stM : ∀ {z2 z3 : Pair} (b2 : Bold (p 2) (hguu.react.mass c 2) z2) (b3 : Bold (p 3) (hguu.react.mass c 3) z3), hguu.formM (hguu.N c p) p (legA (p 1) 0 0, legS (p 1) 0 1) z2 z3 = 1 * hguu.react.bare c p 2 3 0 1 z2 z3 (hguu.react.codeVec c p 0 0) (lightE (legA (p 1) 0 0, legS (p 1) 0 1) 0) := by
    intro z2 z3 b2 b3
    exact (light_minus (z := (legA (p 1) 0 0, legS (p 1) 0 1)) (G := fun E => hguu.react.bare c p 2 3 0 1 z2 z3 (hguu.react.codeVec c p 0 0) E) (hguu.react.bare_lin₂ c p _ _ _ (by decide)) y1 (hguu.keyM hc hb r3 r6 d0 n0 d1 n1 b2 b3 l1 e12 e13 (onShell_msq (hs 0)) (onShell_msq (hs 2)) (onShell_msq (hs 3)) _ (hguu.react.codeVec c p 0 0)))
  have amP : ∀ (s2 : Fin 2) (s3 : Fin 2), Cls.hguu.m_amp.mean (hguu.N c p) (callMean (hguu.N c p) []) .c [2, spinOf s2, spinOf s3] = 1 * hguu.react.bare c p 2 3 0 1 (hguu.react.codePair c p 2 s2) (hguu.react.codePair c p 3 s3) (hguu.react.codeVec c p 0 0) (lightE (legA (p 1) 0 0, legS (p 1) 0 1) 1) := by
    intro s2 s3
    rw [hguu.ampP, ← stP (hguu.react.codePair_bold hs h0 2 s2) (hguu.react.codePair_bold hs h0 3 s3)]
    have v2z1z2 : (hguu.N c p).v 2 [spinOf s2] = sb (legA (p 1) 0 0, legS (p 1) 0 1).2 (hguu.react.codePair c p 2 s2).2 := bra_square (p := p) (m := hguu.proc.massNum (hguu.rho c)) (hguu.mass_eq hc 1) (hguu.mass_eq hc 2) (.inr ⟨m1, rfl⟩) (.inl ⟨m2, rfl⟩)
    have v0z1z3 : (hguu.N c p).v 0 [spinOf s3] = sb (legA (p 1) 0 0, legS (p 1) 0 1).2 (hguu.react.codePair c p 3 s3).2 := bra_square (p := p) (m := hguu.proc.massNum (hguu.rho c)) (hguu.mass_eq hc 1) (hguu.mass_eq hc 3) (.inr ⟨m1, rfl⟩) (.inl ⟨m3, rfl⟩)
    have v6z1z2 : (hguu.N c p).v 6 [spinOf s2] = mb (legA (p 1) 0 0, legS (p 1) 0 1).2 (p 0) (hguu.react.codePair c p 2 s2).1 := bra_mid_square (p := p) (m := hguu.proc.massNum (hguu.rho c)) (hguu.mass_eq hc 1) (hguu.mass_eq hc 2) (.inr ⟨m1, rfl⟩) (.inl ⟨m2, rfl⟩)
    have v8z1z3 : (hguu.N c p).v 8 [spinOf s3] = mb (legA (p 1) 0 0, legS (p 1) 0 1).2 (p 0) (hguu.react.codePair c p 3 s3).1 := bra_mid_square (p := p) (m := hguu.proc.massNum (hguu.rho c)) (hguu.mass_eq hc 1) (hguu.mass_eq hc 3) (.inr ⟨m1, rfl⟩) (.inl ⟨m3, rfl⟩)
    have v5z2z3 : (hguu.N c p).v 5 [spinOf s2, spinOf s3] = ab (hguu.react.codePair c p 2 s2).1 (hguu.react.codePair c p 3 s3).1 := bra_angle (p := p) (m := hguu.proc.massNum (hguu.rho c)) (hguu.mass_eq hc 2) (hguu.mass_eq hc 3) (.inl ⟨m2, rfl⟩) (.inl ⟨m3, rfl⟩)
    have v10z1z1 : (hguu.N c p).v 10 [] = mb (legA (p 1) 0 0, legS (p 1) 0 1).2 (p 2) (slashLower (p 0) *ᵥ (legA (p 1) 0 0, legS (p 1) 0 1).2) := bra_two_square (p := p) (m := hguu.proc.massNum (hguu.rho c)) (hguu.mass_eq hc 1) (hguu.mass_eq hc 1) (.inr ⟨m1, rfl⟩) (.inr ⟨m1, rfl⟩)
    simp only [hguu.termP, hguu.formP, v2z1z2, v0z1z3, v6z1z2, v8z1z3, v5z2z3, v10z1z1]
  have amM : ∀ (s2 : Fin 2) (s3 : Fin 2), Cls.hguu.m_amp.mean (hguu.N c p) (callMean (hguu.N c p) []) .c [(-2), spinOf s2, spinOf s3] = 1 * hguu.react.bare c p 2 3 0 1 (hguu.react.codePair c p 2 s2) (hguu.react.codePair c p 3 s3) (hguu.react.codeVec c p 0 0) (lightE (legA (p 1) 0 0, legS (p 1) 0 1) 0) := by
    intro s2 s3
    rw [hguu.ampM, ← stM (hguu.react.codePair_bold hs h0 2 s2) (hguu.react.codePair_bold hs h0 3 s3)]
    have v3z1z2 : (hguu.N c p).v 3 [spinOf s2] = ab (legA (p 1) 0 0, legS (p 1) 0 1).1 (hguu.react.codePair c p 2 s2).1 := bra_angle (p := p) (m := hguu.proc.massNum (hguu.rho c)) (hguu.mass_eq hc 1) (hguu.mass_eq hc 2) (.inr ⟨m1, rfl⟩) (.inl ⟨m2, rfl⟩)
    have v1z1z3 : (hguu.N c p).v 1 [spinOf s3] = ab (legA (p 1) 0 0, legS (p 1) 0 1).1 (hguu.react.codePair c p 3 s3).1 := bra_angle (p := p) (m := hguu.proc.massNum (hguu.rho c)) (hguu.mass_eq hc 1) (hguu.mass_eq hc 3) (.inr ⟨m1, rfl⟩) (.inl ⟨m3, rfl⟩)
    have v7z1z2 : (hguu.N c p).v 7 [spinOf s2] = mb (hguu.react.codePair c p 2 s2).2 (p 0) (legA (p 1) 0 0, legS (p 1) 0 1).1 := bra_mid_angle (p := p) (m := hguu.proc.massNum (hguu.rho c)) (hguu.mass_eq hc 1) (hguu.mass_eq hc 2) (.inr ⟨m1, rfl⟩) (.inl ⟨m2, rfl⟩)
    have v9z1z3 : (hguu.N c p).v 9 [spinOf s3] = mb (hguu.react.codePair c p 3 s3).2 (p 0) (legA (p 1) 0 0, legS (p 1) 0 1).1 := bra_mid_angle (p := p) (m := hguu.proc.massNum (hguu.rho c)) (hguu.mass_eq hc 1) (hguu.mass_eq hc 3) (.inr ⟨m1, rfl⟩) (.inl ⟨m3, rfl⟩)
    have v4z2z3 : (hguu.N c p).v 4 [spinOf s2, spinOf s3] = sb (hguu.react.codePair c p 2 s2).2 (hguu.react.codePair c p 3 s3).2 := bra_square (p := p) (m := hguu.proc.massNum (hguu.rho c)) (hguu.mass_eq hc 2) (hguu.mass_eq hc 3) (.inl ⟨m2, rfl⟩) (.inl ⟨m3, rfl⟩)
    have v11z1z1 : (hguu.N c p).v 11 [] = mb (slashUpper (p 0) *ᵥ (legA (p 1) 0 0, legS (p 1) 0 1).1) (p 2) (legA (p 1) 0 0, legS (p 1) 0 1).1 := bra_two_angle (p := p) (m := hguu.proc.massNum (hguu.rho c)) (hguu.mass_eq hc 1) (hguu.mass_eq hc 1) (.inr ⟨m1, rfl⟩) (.inr ⟨m1, rfl⟩)
    simp only [hguu.termM, hguu.formM, v3z1z2, v1z1z3, v7z1z2, v9z1z3, v4z2z3, v11z1z1]
  refine ⟨n0, n1, fun n hn => ?_, fun n hn => ?_, ?_⟩
  · simp [hd] at hn
  · simp [hd] at hn
    rcases hn with rfl | rfl
    · exact n0
    · exact n1
  intro s2 s3 h1
  match h1 with
  | 1 => exact norm_plus (amP s2 s3)
  | 0 => exact norm_plus (amM s2 s3)

variable [FPEnv] in
theorem hguu.agrees : hguu.Agrees := by
  refine agrees_of (D := [4, 5]) (E := [5]) (by simp [all, hguu]) (by decide +kernel) (by decide) (by decide +kernel) (fun c hc hh => ⟨List.forall_mem_cons.2 ⟨hc.MW, List.forall_mem_cons.2 ⟨hc.SW, List.forall_mem_nil _⟩⟩, List.forall_mem_cons.2 ⟨hc.SW_lt, List.forall_mem_nil _⟩⟩) (fun c hc i => hguu.mass_eq hc i) (by decide +kernel) ?_
  intro c p u ε hc hh hw h0 hs hb hr hu
  have he : hguu.react.ends = [2] := by decide
  have ht : hguu.react.starts = [3] := by decide
  have hB : hguu.react.bosons = [0, 1] := by decide
  obtain ⟨n0, n1, d1, d2, am⟩ := hguu.amps hc hh h0 hs hb hr hu
  refine ⟨d1, d2, ?_⟩
  show meaning (hguu.N c p) .r Cls.hguu.methods Cls.hguu.amp2 [] = _
  have s0 : hguu.react.states 0 = 1 := by decide +kernel
  have s1 : hguu.react.states 1 = 16 := by decide +kernel
  have sy : hguu.react.symmetry = 1 := by decide
  have p0 : hguu.react.spins 0 = {0} := rfl
  have p1 : hguu.react.spins 1 = {0, 1} := rfl
  have p2 : hguu.react.spins 2 = {0, 1} := rfl
  have p3 : hguu.react.spins 3 = {0, 1} := rfl
  have E0 : hguu.react.codeE c p 0 = hguu.react.codeVec c p 0 := rfl
  have E1 : hguu.react.codeE c p 1 = lightE (legA (p 1) 0 0, legS (p 1) 0 1) := rfl
  have hG : hguu.react.Gauge c p := (hguu.react.gauge_line he ht hB hh (by decide) (fun n => onShell_msq (hs n)) hb hr (fun n m h h2 => absurd (And.intro h h2) (by revert n m; decide)) (fun h => absurd h (by decide)) (fun _ => ⟨rfl, rfl⟩))
  rw [hguu.value, hguu.react.squared_gluon 1 he ht hB (by decide) (by decide +kernel) (by decide +kernel) hs h0 (fun _ b _ hb _ => (boson_pos hc hh hb).ne') hG (E := hguu.react.codeE c p) (fun n b hl => hguu.react.codeE_polarised hs h0 hu (fun b hb => (boson_pos hc hh hb).ne') n b hl) hu, sum_colours, s0, s1, sy]
  simp only [sumV_sum, sumJ_sum, sumW_sum, am, p0, p1, p2, p3, E0, E1, Finset.sum_singleton, sum_two, Matrix.cons_val_zero, Matrix.cons_val_one, Matrix.cons_val, two_castSucc]
  try simp only [← Finset.mul_sum]
  push_cast
  first | ring1 | ring_nf

end Spinas.SM.Rows
