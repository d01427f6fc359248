import Verif.SM.LightRows
import Verif.SM.GluonLine

/-! Leptons, a photon and a W boson. Generated by tools/bosons/lemit.py: for each class its amplitude at given helicities as a formula in spinors, and the proof that `amp2` is the squared amplitude of the Feynman rules. -/

set_option linter.unusedSimpArgs false
set_option linter.unusedVariables false
set_option linter.unreachableTactic false
set_option linter.unusedTactic false

namespace Spinas.SM.Rows
open Spec Spec.Reaction Props XR Matrix BRow

/-! ### AnWe -/

/-- what the methods of the class see -/
noncomputable abbrev AnWe.N [FPEnv] (c : Constants) (p : Nat → V4 ℝ) : Env := AnWe.proc.env (AnWe.rho c) p
/-- the term that `amp` adds for a choice of spinors, for a photon of positive helicity (SM/AnWe.cpp) -/
noncomputable def AnWe.termP (N : Env) (w : ℝ) (x : ℂ) (a2 b2 j4 : Int) : ℂ :=
  (x + (((((((w * N.r 5) : ℝ) : ℂ) * (((((N.r 1 : ℝ) : ℂ) * N.v 0 [a2]) * N.v 1 [j4]) + ((((N.r 2 : ℝ) : ℂ) * N.v 2 [a2]) * N.v 3 [j4]))) * ((((N.r 2 : ℝ) : ℂ) * N.v 0 [b2]) - N.v 4 [b2])) / N.c 0) / N.c 1))
/-- the same with spinors in place of their spins -/
noncomputable def AnWe.formP (N : Env) (p : Nat → V4 ℝ) (z0 z1 x2 y2 z3 : Pair) : ℂ :=
  (0 + (((((((((1 : Nat) : ℝ) * N.r 5) : ℝ) : ℂ) * (((((N.r 1 : ℝ) : ℂ) * (sb z0.2 x2.2)) * (ab z3.1 z1.1)) + ((((N.r 2 : ℝ) : ℂ) * (ab z1.1 x2.1)) * (sb z3.2 z0.2)))) * ((((N.r 2 : ℝ) : ℂ) * (sb z0.2 y2.2)) - (mb z0.2 (p 3) y2.1))) / N.c 0) / N.c 1))
/-- the term that `amp` adds for a choice of spinors, for a photon of negative helicity (SM/AnWe.cpp) -/
noncomputable def AnWe.termM (N : Env) (w : ℝ) (x : ℂ) (a2 b2 j4 : Int) : ℂ :=
  (x + ((((((((w * N.r 5) : ℝ) : ℂ) * N.v 5 []) * N.v 6 [j4, a2]) * (((((N.r 1 * N.r 1) : ℝ) : ℂ) * N.v 7 [b2]) - (((N.r 2 : ℝ) : ℂ) * N.v 8 [b2]))) / N.c 0) / N.c 1))
/-- the same with spinors in place of their spins -/
noncomputable def AnWe.formM (N : Env) (p : Nat → V4 ℝ) (z0 z1 x2 y2 z3 : Pair) : ℂ :=
  (0 + ((((((((((1 : Nat) : ℝ) * N.r 5) : ℝ) : ℂ) * (ab z1.1 z0.1)) * (sb z3.2 x2.2)) * (((((N.r 1 * N.r 1) : ℝ) : ℂ) * (ab z0.1 y2.1)) - (((N.r 2 : ℝ) : ℂ) * (mb y2.2 (p 3) z0.1)))) / N.c 0) / N.c 1))
theorem AnWe.keyP {c : Constants} {p : Nat → V4 ℝ} {N : Env} (hc : c.Physical) (hb : Balanced p) (r1 : N.r 1 = (c.mass .e)) (r2 : N.r 2 = c.MW) (r5 : N.r 5 = (((√(((2 : Nat) : ℝ)) * c.e) * c.e) / (c.MW * c.SW))) (d0 : pole c.MW c.WW (plus (p 0) (backward (p 2))) = N.c 0) (n0 : N.c 0 ≠ 0) (d1 : ((msq (plus (p 1) (backward (p 2))) - c.mass .e ^ 2 : ℝ) : ℂ) = N.c 1) (n1 : N.c 1 ≠ 0) {z0 z1 z2 z3 : Pair} (b1 : Bold (p 1) (c.mass .ne) z1) (b2 : Bold (p 2) c.MW z2) (b3 : Bold (p 3) (c.mass .e) z3) (l0 : Light (p 0) z0) (e02 : mb z0.2 (p 2) z0.1 = -N.c 0) (e03 : mb z0.2 (p 3) z0.1 = -N.c 1) (q1 : msq (p 1) = (c.mass .ne) ^ 2) (q2 : msq (p 2) = c.MW ^ 2) (q3 : msq (p 3) = (c.mass .e) ^ 2) (ρ0 : V2) :
    AnWe.formP N p z0 z1 z2 z2 z3 * ab ρ0 z0.1 = ((√2 : ℝ) * ((-1 : ℂ) * ((√2 / c.MW : ℝ) : ℂ))) * AnWe.react.bare c p 3 1 0 2 z3 z1 (pv ρ0 z0.2) (pv z2.1 z2.2) := by
  rw [AnWe.react.bare_parts c p (i := 3) (j := 1) (a := 0) (b := 2) (x := .photon) (y := .wMinus) (k := (p 0)) (k' := (backward (p 2))) (fun _ => rfl) (fun _ => rfl) (f := .ne) (g := .e) rfl rfl (l := (p 1)) rfl (e := 1) (e' := 1) (if_neg Bool.false_ne_true) (if_neg Bool.false_ne_true)]
  rw [compton_vv (f := .ne) (x := .ne) (g := .e) (h := (rfl : Spec.after .photon Flavour.ne = some Flavour.ne)) (h' := (rfl : Spec.after .wMinus Flavour.ne = some Flavour.e)) (ha := by simp) (hb := by simp)]
  rw [compton_vv (f := .ne) (x := .e) (g := .e) (h := (rfl : Spec.after .wMinus Flavour.ne = some Flavour.e)) (h' := (rfl : Spec.after .photon Flavour.e = some Flavour.e)) (ha := by simp) (hb := by simp)]
  have an := annihilation_charged c (1) (1) z3.1 z3.2 z1.1 z1.2 ⟨.photon, (p 0), pv ρ0 z0.2⟩ ⟨.wMinus, (backward (p 2)), pv z2.1 z2.2⟩ (f := .ne) (g := .e) (x := .wMinus) (by simp) rfl
  dsimp only at an
  rw [an, AnWe.formP]
  clear an
  rw [lineV_massive (hx := (rfl : Boson.massive .wMinus = true))]
  have T0 := l0.mb_plus ρ0
  have T2 := mb_back_zero (b2.mb_zero')
  have Q0 := l0.msq_zero
  have kL : c.hL .ne .photon = 0 := by simp [Constants.hL, Flavour.charge_ne]
  have kR : c.hR .ne .photon = 0 := by simp [Constants.hR, Flavour.charge_ne]
  have hne : c.mass .ne = 0 := hc.neutrino _
  simp only [kL, kR, Complex.ofReal_zero, zero_mul, mul_zero, zero_div, sub_zero, add_zero, zero_add, sub_self]
  simp only [toVector, gauge3, Boson.anti, Constants.bosonMass, Constants.bosonWidth, reduceCtorEq, and_self, and_true, and_false, if_true, if_false, lineV_smul, contract_smul, lineV_transverse T0 T2, four_transverse T0 T2, msq_backward, q2, Q0]
  simp only [d0, d1, lineV_pv, lineV_four, contract_four_pv, contract_pv, mb_plus, mb_backward]
  have i0 := mb_schouten_right z0.2 (p 2) z0.1 z1.1 ρ0
  have i1 := mb_schouten_right z0.2 (p 1) z0.1 z1.1 z2.1
  have i2 := mb_schouten_right z0.2 (p 2) z0.1 z2.1 ρ0
  have i3 := mb_schouten_right z0.2 (p 2) z0.1 z1.1 z2.1
  have i4 := mb_schouten_left z0.2 z2.2 z3.2 (p 2) z1.1
  have i5 := mb_schouten_right z0.2 (p 1) z0.1 z2.1 ρ0
  have i6 := mb_schouten_right z3.2 (p 1) z0.1 z1.1 z2.1
  have i7 := mb_schouten_right z0.2 (p 1) z0.1 z1.1 ρ0
  have i8 := ab_schouten z1.1 z2.1 z3.1 z0.1
  have i9 := mb_schouten_left z0.2 z2.2 z3.2 (p 2) z0.1
  have i10 := mb_schouten_right z2.2 (p 1) z0.1 z1.1 ρ0
  have i11 := mb_schouten_right z0.2 (p 2) z1.1 z2.1 ρ0
  have i12 := mb_schouten_left z0.2 z2.2 z3.2 (p 1) z2.1
  have i13 := mb_schouten_right z2.2 (p 1) z0.1 z2.1 ρ0
  have i14 := mb_schouten_right z2.2 (p 1) z0.1 z1.1 z2.1
  have i15 := ab_schouten z2.1 z3.1 ρ0 z1.1
  simp only [l0.mb_eq, b1.mb_left, b1.mb_right, b2.mb_left, b2.mb_right, b3.mb_left, b3.mb_right, e02, e03, mb_one hb z0.2 z0.1, mb_three hb z0.2 z1.1, mb_three hb z0.2 z2.1, mb_two hb z0.2 z3.1, mb_three hb z0.2 ρ0, mb_three hb z1.2 z0.1, mb_three hb z1.2 z1.1, mb_three hb z1.2 z2.1, mb_two hb z1.2 z3.1, mb_three hb z1.2 ρ0, mb_three hb z2.2 z0.1, mb_three hb z2.2 z1.1, mb_three hb z2.2 z2.1, mb_one hb z2.2 z3.1, mb_three hb z2.2 ρ0, mb_two hb z3.2 z0.1, mb_two hb z3.2 z1.1, mb_one hb z3.2 z2.1, mb_two hb z3.2 z3.1, mb_two hb z3.2 ρ0, ab_self, sb_self] at i0 i1 i2 i3 i4 i5 i6 i7 i8 i9 i10 i11 i12 i13 i14 i15 ⊢
  simp only [ab_swap z0.1 z1.1, ab_swap z0.1 z2.1, ab_swap z0.1 z3.1, ab_swap z0.1 ρ0, ab_swap z1.1 z2.1, ab_swap z1.1 z3.1, ab_swap z1.1 ρ0, ab_swap z2.1 z3.1, ab_swap z2.1 ρ0, ab_swap z3.1 ρ0, sb_swap z0.2 z1.2, sb_swap z0.2 z2.2, sb_swap z0.2 z3.2, sb_swap z1.2 z2.2, sb_swap z1.2 z3.2, sb_swap z2.2 z3.2] at i0 i1 i2 i3 i4 i5 i6 i7 i8 i9 i10 i11 i12 i13 i14 i15 ⊢
  simp only [r1, r2, r5, Constants.hL, Constants.hR, Constants.gL, Constants.gR, Constants.yuk, Constants.invVev, Flavour.charge_e, Flavour.isospin_e, Flavour.charge_ne, Flavour.isospin_ne, hne, ← c.mz]
  have xMW : (c.MW : ℂ) ≠ 0 := by exact_mod_cast hc.MW
  have xSW : (c.SW : ℂ) ≠ 0 := by exact_mod_cast hc.SW
  have xCW : (c.CW : ℂ) ≠ 0 := by exact_mod_cast hc.CW
  have x2 : ((√2 : ℝ) : ℂ) ≠ 0 := by exact_mod_cast (Real.sqrt_pos.2 two_pos).ne'
  have x22 : ((√2 : ℝ) : ℂ) ^ 2 = 2 := by rw [← Complex.ofReal_pow, Real.sq_sqrt two_pos.le]; norm_num
  have x23 : ((√2 : ℝ) : ℂ) ^ 3 = 2 * ((√2 : ℝ) : ℂ) := by rw [← x22]; ring
  have x24 : ((√2 : ℝ) : ℂ) ^ 4 = 4 := by linear_combination (((√2 : ℝ) : ℂ) ^ 2 + 2) * x22
  try simp only [hne] at i0 i1 i2 i3 i4 i5 i6 i7 i8 i9 i10 i11 i12 i13 i14 i15
  push_cast at i0 i1 i2 i3 i4 i5 i6 i7 i8 i9 i10 i11 i12 i13 i14 i15 ⊢
  have y0 := mul_inv_cancel₀ n0
  have y1 := mul_inv_cancel₀ n1
  have yMW := mul_inv_cancel₀ xMW
  have yR2 : ((√2 : ℝ) : ℂ)⁻¹ = ((√2 : ℝ) : ℂ) / 2 := by rw [inv_eq_iff_eq_inv, inv_div, eq_div_iff x2, ← x22]; ring
  linear_combination ((((-1) * ((c.MW : ℂ)) * (((√2 : ℝ) : ℂ)) * ((c.e : ℂ)) ^ 2 * (sb z0.2 z2.2) * (sb z2.2 z3.2) + (-1) * (((√2 : ℝ) : ℂ)) * ((c.e : ℂ)) ^ 2 * (mb z0.2 (p 1) z2.1) * (sb z2.2 z3.2) + (1) * (((√2 : ℝ) : ℂ)) * ((c.e : ℂ)) ^ 2 * (mb z2.2 (p 1) z2.1) * (sb z0.2 z3.2)) * i0 + ((1) * (((√2 : ℝ) : ℂ)) * ((c.e : ℂ)) ^ 2 * (mb z0.2 (p 2) ρ0) * (sb z2.2 z3.2)) * i1 + ((-1) * (((√2 : ℝ) : ℂ)) * ((c.e : ℂ)) ^ 2 * (mb z0.2 (p 2) z1.1) * (sb z2.2 z3.2)) * i2 + ((1) * (((√2 : ℝ) : ℂ)) * ((c.e : ℂ)) ^ 2 * (mb z0.2 (p 1) ρ0) * (sb z2.2 z3.2) + (-1) * (((√2 : ℝ) : ℂ)) * ((c.e : ℂ)) ^ 2 * (mb z0.2 (p 2) ρ0) * (sb z2.2 z3.2) + (-1) * (((√2 : ℝ) : ℂ)) * ((c.e : ℂ)) ^ 2 * (mb z2.2 (p 1) ρ0) * (sb z0.2 z3.2)) * i3 + ((1) * (((√2 : ℝ) : ℂ)) * ((c.e : ℂ)) ^ 2 * (N.c 1) * (ab z2.1 ρ0)) * i4 + ((1) * ((c.MW : ℂ)) * (((√2 : ℝ) : ℂ)) * ((c.e : ℂ)) ^ 2 * (ab z1.1 z2.1) * (sb z0.2 z3.2) + (1) * (((√2 : ℝ) : ℂ)) * ((c.e : ℂ)) ^ 2 * ((c.mass .e : ℂ)) * (ab z1.1 z3.1) * (sb z0.2 z2.2) + (1) * (((√2 : ℝ) : ℂ)) * ((c.e : ℂ)) ^ 2 * (mb z0.2 (p 2) z1.1) * (sb z2.2 z3.2)) * i5 + ((1) * (((√2 : ℝ) : ℂ)) * ((c.e : ℂ)) ^ 2 * (mb z0.2 (p 1) ρ0) * (sb z0.2 z2.2)) * i6 + ((-1) * (((√2 : ℝ) : ℂ)) * ((c.e : ℂ)) ^ 2 * (ab z0.1 z2.1) * (sb z0.2 z2.2) * (sb z0.2 z3.2)) * i7 + ((1) * (((√2 : ℝ) : ℂ)) * ((c.e : ℂ)) ^ 2 * ((c.mass .e : ℂ)) * (mb z0.2 (p 1) ρ0) * (sb z0.2 z2.2)) * i8 + ((-1) * (((√2 : ℝ) : ℂ)) * ((c.e : ℂ)) ^ 2 * (ab z1.1 z2.1) * (mb z0.2 (p 1) ρ0)) * i9 + ((-1) * ((c.MW : ℂ)) * (((√2 : ℝ) : ℂ)) * ((c.e : ℂ)) ^ 2 * (sb z0.2 z2.2) * (sb z0.2 z3.2)) * i10 + ((1) * (((√2 : ℝ) : ℂ)) * ((c.e : ℂ)) ^ 2 * (mb z2.2 (p 1) z0.1) * (sb z0.2 z3.2)) * i11 + ((-1) * (((√2 : ℝ) : ℂ)) * ((c.e : ℂ)) ^ 2 * (N.c 0) * (ab z1.1 ρ0)) * i12 + ((-1) * (((√2 : ℝ) : ℂ)) * ((c.e : ℂ)) ^ 2 * (mb z0.2 (p 2) z1.1) * (sb z0.2 z3.2)) * i13 + ((-1) * (((√2 : ℝ) : ℂ)) * ((c.e : ℂ)) ^ 2 * (mb z0.2 (p 2) ρ0) * (sb z0.2 z3.2)) * i14 + ((-1) * (((√2 : ℝ) : ℂ)) * ((c.e : ℂ)) ^ 2 * ((c.mass .e : ℂ)) * (N.c 0) * (sb z0.2 z2.2)) * i15)) * ((1) * ((c.MW : ℂ)⁻¹) * ((c.SW : ℂ)⁻¹) * ((N.c 0)⁻¹) * ((N.c 1)⁻¹)) + ((1) * ((c.MW : ℂ)) * (((√2 : ℝ) : ℂ)) * ((c.e : ℂ)) ^ 2 * ((c.MW : ℂ)⁻¹) * ((c.SW : ℂ)⁻¹) * ((N.c 1)⁻¹) * (ab z1.1 z2.1) * (ab z2.1 ρ0) * (sb z0.2 z3.2) + (1) * (((√2 : ℝ) : ℂ)) * ((c.e : ℂ)) ^ 2 * ((c.MW : ℂ)⁻¹) * ((c.SW : ℂ)⁻¹) * ((c.mass .e : ℂ)) * ((N.c 1)⁻¹) * (ab z1.1 z2.1) * (ab z3.1 ρ0) * (sb z0.2 z2.2) + (-1) * (((√2 : ℝ) : ℂ)) * ((c.e : ℂ)) ^ 2 * ((c.MW : ℂ)⁻¹) * ((c.SW : ℂ)⁻¹) * ((N.c 1)⁻¹) * (ab z1.1 z2.1) * (mb z2.2 (p 1) ρ0) * (sb z0.2 z3.2)) * y0 + ((1) * (((√2 : ℝ) : ℂ)) * ((c.e : ℂ)) ^ 2 * ((c.MW : ℂ)⁻¹) * ((c.SW : ℂ)⁻¹) * ((N.c 0)⁻¹) * (ab z0.1 z1.1) * (ab z2.1 ρ0) * (sb z0.2 z2.2) * (sb z0.2 z3.2) + (-1) * (((√2 : ℝ) : ℂ)) * ((c.e : ℂ)) ^ 2 * ((c.MW : ℂ)⁻¹) * ((c.SW : ℂ)⁻¹) * ((N.c 0)⁻¹) * (ab z0.1 z2.1) * (ab z1.1 ρ0) * (sb z0.2 z2.2) * (sb z0.2 z3.2) + (1) * (((√2 : ℝ) : ℂ)) * ((c.e : ℂ)) ^ 2 * ((c.MW : ℂ)⁻¹) * ((c.SW : ℂ)⁻¹) * ((N.c 0)⁻¹) * (ab z1.1 z2.1) * (mb z0.2 (p 2) ρ0) * (sb z2.2 z3.2)) * y1 + ((-1) * ((c.MW : ℂ)) * (((√2 : ℝ) : ℂ)) ^ 2 * ((c.e : ℂ)) ^ 2 * ((c.MW : ℂ)⁻¹) ^ 2 * (((√2 : ℝ) : ℂ)⁻¹) * ((c.SW : ℂ)⁻¹) * ((c.mass .e : ℂ)) * ((N.c 0)⁻¹) * (ab z1.1 z3.1) * (ab z2.1 ρ0) * (sb z0.2 z2.2) / (2) + (1) * (((√2 : ℝ) : ℂ)) * ((c.e : ℂ)) ^ 2 * ((c.SW : ℂ)⁻¹) * ((N.c 1)⁻¹) * (ab z1.1 z2.1) * (ab z2.1 ρ0) * (sb z0.2 z3.2) + (-1) * (((√2 : ℝ) : ℂ)) ^ 2 * ((c.e : ℂ)) ^ 2 * ((c.MW : ℂ)⁻¹) * (((√2 : ℝ) : ℂ)⁻¹) * ((c.SW : ℂ)⁻¹) * ((c.mass .e : ℂ)) * ((N.c 0)⁻¹) * (ab z1.1 z3.1) * (ab z2.1 ρ0) * (sb z0.2 z2.2) / (2) + (-1) * (((√2 : ℝ) : ℂ)) ^ 2 * ((c.e : ℂ)) ^ 2 * (((√2 : ℝ) : ℂ)⁻¹) * ((c.SW : ℂ)⁻¹) * ((N.c 1)⁻¹) * (ab z1.1 z2.1) * (ab z2.1 ρ0) * (sb z0.2 z3.2)) * yMW + ((-1) * (((√2 : ℝ) : ℂ)) ^ 2 * ((c.e : ℂ)) ^ 2 * ((c.MW : ℂ)⁻¹) * ((c.SW : ℂ)⁻¹) * ((c.mass .e : ℂ)) * ((N.c 1)⁻¹) * (ab z1.1 z2.1) * (ab z3.1 ρ0) * (sb z0.2 z2.2) + (-1) * (((√2 : ℝ) : ℂ)) ^ 2 * ((c.e : ℂ)) ^ 2 * ((c.MW : ℂ)⁻¹) * ((c.SW : ℂ)⁻¹) * ((N.c 0)⁻¹) * (ab z0.1 z1.1) * (ab z2.1 ρ0) * (sb z0.2 z2.2) * (sb z0.2 z3.2) + (1) * (((√2 : ℝ) : ℂ)) ^ 2 * ((c.e : ℂ)) ^ 2 * ((c.MW : ℂ)⁻¹) * ((c.SW : ℂ)⁻¹) * ((N.c 0)⁻¹) * (ab z0.1 z2.1) * (ab z1.1 ρ0) * (sb z0.2 z2.2) * (sb z0.2 z3.2) + (-1) * (((√2 : ℝ) : ℂ)) ^ 2 * ((c.e : ℂ)) ^ 2 * ((c.MW : ℂ)⁻¹) * ((c.SW : ℂ)⁻¹) * ((N.c 0)⁻¹) * (ab z1.1 z2.1) * (mb z0.2 (p 2) ρ0) * (sb z2.2 z3.2) + (1) * (((√2 : ℝ) : ℂ)) ^ 2 * ((c.e : ℂ)) ^ 2 * ((c.MW : ℂ)⁻¹) * ((c.SW : ℂ)⁻¹) * ((N.c 1)⁻¹) * (ab z1.1 z2.1) * (mb z2.2 (p 1) ρ0) * (sb z0.2 z3.2) + (-1) * (((√2 : ℝ) : ℂ)) ^ 2 * ((c.e : ℂ)) ^ 2 * ((c.SW : ℂ)⁻¹) * ((N.c 1)⁻¹) * (ab z1.1 z2.1) * (ab z2.1 ρ0) * (sb z0.2 z3.2)) * yR2 + ((-1) * (((√2 : ℝ) : ℂ)) * ((c.e : ℂ)) ^ 2 * ((c.MW : ℂ)⁻¹) * ((c.SW : ℂ)⁻¹) * ((c.mass .e : ℂ)) * ((N.c 1)⁻¹) * (ab z1.1 z2.1) * (ab z3.1 ρ0) * (sb z0.2 z2.2) / (2) + (-1) * (((√2 : ℝ) : ℂ)) * ((c.e : ℂ)) ^ 2 * ((c.MW : ℂ)⁻¹) * ((c.SW : ℂ)⁻¹) * ((N.c 0)⁻¹) * (ab z0.1 z1.1) * (ab z2.1 ρ0) * (sb z0.2 z2.2) * (sb z0.2 z3.2) / (2) + (1) * (((√2 : ℝ) : ℂ)) * ((c.e : ℂ)) ^ 2 * ((c.MW : ℂ)⁻¹) * ((c.SW : ℂ)⁻¹) * ((N.c 0)⁻¹) * (ab z0.1 z2.1) * (ab z1.1 ρ0) * (sb z0.2 z2.2) * (sb z0.2 z3.2) / (2) + (-1) * (((√2 : ℝ) : ℂ)) * ((c.e : ℂ)) ^ 2 * ((c.MW : ℂ)⁻¹) * ((c.SW : ℂ)⁻¹) * ((N.c 0)⁻¹) * (ab z1.1 z2.1) * (mb z0.2 (p 2) ρ0) * (sb z2.2 z3.2) / (2) + (1) * (((√2 : ℝ) : ℂ)) * ((c.e : ℂ)) ^ 2 * ((c.MW : ℂ)⁻¹) * ((c.SW : ℂ)⁻¹) * ((N.c 1)⁻¹) * (ab z1.1 z2.1) * (mb z2.2 (p 1) ρ0) * (sb z0.2 z3.2) / (2) + (-1) * (((√2 : ℝ) : ℂ)) * ((c.e : ℂ)) ^ 2 * ((c.SW : ℂ)⁻¹) * ((N.c 1)⁻¹) * (ab z1.1 z2.1) * (ab z2.1 ρ0) * (sb z0.2 z3.2) / (2)) * x22
theorem AnWe.keyM {c : Constants} {p : Nat → V4 ℝ} {N : Env} (hc : c.Physical) (hb : Balanced p) (r1 : N.r 1 = (c.mass .e)) (r2 : N.r 2 = c.MW) (r5 : N.r 5 = (((√(((2 : Nat) : ℝ)) * c.e) * c.e) / (c.MW * c.SW))) (d0 : pole c.MW c.WW (plus (p 0) (backward (p 2))) = N.c 0) (n0 : N.c 0 ≠ 0) (d1 : ((msq (plus (p 1) (backward (p 2))) - c.mass .e ^ 2 : ℝ) : ℂ) = N.c 1) (n1 : N.c 1 ≠ 0) {z0 z1 z2 z3 : Pair} (b1 : Bold (p 1) (c.mass .ne) z1) (b2 : Bold (p 2) c.MW z2) (b3 : Bold (p 3) (c.mass .e) z3) (l0 : Light (p 0) z0) (e02 : mb z0.2 (p 2) z0.1 = -N.c 0) (e03 : mb z0.2 (p 3) z0.1 = -N.c 1) (q1 : msq (p 1) = (c.mass .ne) ^ 2) (q2 : msq (p 2) = c.MW ^ 2) (q3 : msq (p 3) = (c.mass .e) ^ 2) (ρ0 : V2) :
    AnWe.formM N p z0 z1 z2 z2 z3 * sb ρ0 z0.2 = ((√2 : ℝ) * ((-1 : ℂ) * ((√2 / c.MW : ℝ) : ℂ))) * AnWe.react.bare c p 3 1 0 2 z3 z1 (pv z0.1 ρ0) (pv z2.1 z2.2) := by
  rw [AnWe.react.bare_parts c p (i := 3) (j := 1) (a := 0) (b := 2) (x := .photon) (y := .wMinus) (k := (p 0)) (k' := (backward (p 2))) (fun _ => rfl) (fun _ => rfl) (f := .ne) (g := .e) rfl rfl (l := (p 1)) rfl (e := 1) (e' := 1) (if_neg Bool.false_ne_true) (if_neg Bool.false_ne_true)]
  rw [compton_vv (f := .ne) (x := .ne) (g := .e) (h := (rfl : Spec.after .photon Flavour.ne = some Flavour.ne)) (h' := (rfl : Spec.after .wMinus Flavour.ne = some Flavour.e)) (ha := by simp) (hb := by simp)]
  rw [compton_vv (f := .ne) (x := .e) (g := .e) (h := (rfl : Spec.after .wMinus Flavour.ne = some Flavour.e)) (h' := (rfl : Spec.after .photon Flavour.e = some Flavour.e)) (ha := by simp) (hb := by simp)]
  have an := annihilation_charged c (1) (1) z3.1 z3.2 z1.1 z1.2 ⟨.photon, (p 0), pv z0.1 ρ0⟩ ⟨.wMinus, (backward (p 2)), pv z2.1 z2.2⟩ (f := .ne) (g := .e) (x := .wMinus) (by simp) rfl
  dsimp only at an
  rw [an, AnWe.formM]
  clear an
  rw [lineV_massive (hx := (rfl : Boson.massive .wMinus = true))]
  have T0 := l0.mb_minus ρ0
  have T2 := mb_back_zero (b2.mb_zero')
  have Q0 := l0.msq_zero
  have kL : c.hL .ne .photon = 0 := by simp [Constants.hL, Flavour.charge_ne]
  have kR : c.hR .ne .photon = 0 := by simp [Constants.hR, Flavour.charge_ne]
  have hne : c.mass .ne = 0 := hc.neutrino _
  simp only [kL, kR, Complex.ofReal_zero, zero_mul, mul_zero, zero_div, sub_zero, add_zero, zero_add, sub_self]
  simp only [toVector, gauge3, Boson.anti, Constants.bosonMass, Constants.bosonWidth, reduceCtorEq, and_self, and_true, and_false, if_true, if_false, lineV_smul, contract_smul, lineV_transverse T0 T2, four_transverse T0 T2, msq_backward, q2, Q0]
  simp only [d0, d1, lineV_pv, lineV_four, contract_four_pv, contract_pv, mb_plus, mb_backward]
  have i0 := mb_schouten_left z0.2 z2.2 ρ0 (p 2) z0.1
  have i1 := mb_schouten_right ρ0 (p 2) z0.1 z1.1 z3.1
  have i2 := ab_schouten z1.1 z2.1 z3.1 z0.1
  have i3 := mb_schouten_right ρ0 (p 1) z0.1 z1.1 z3.1
  have i4 := sb_schouten z2.2 z3.2 ρ0 z0.2
  have i5 := mb_schouten_left z0.2 z2.2 ρ0 (p 1) z0.1
  have i6 := mb_schouten_left z0.2 z2.2 z3.2 (p 2) z0.1
  have i7 := mb_schouten_left z0.2 z2.2 z3.2 (p 1) z0.1
  have i8 := mb_schouten_left z0.2 z3.2 ρ0 (p 2) z0.1
  have i9 := mb_schouten_right z2.2 (p 1) z0.1 z1.1 z2.1
  have i10 := mb_schouten_right ρ0 (p 2) z0.1 z1.1 z2.1
  have i11 := mb_schouten_right z0.2 (p 2) z0.1 z1.1 z3.1
  have i12 := mb_schouten_right z0.2 (p 1) z0.1 z1.1 z3.1
  have i13 := mb_schouten_right z0.2 (p 2) z0.1 z1.1 z2.1
  have i14 := mb_schouten_right z3.2 (p 1) z0.1 z1.1 z2.1
  simp only [l0.mb_eq, b1.mb_left, b1.mb_right, b2.mb_left, b2.mb_right, b3.mb_left, b3.mb_right, e02, e03, mb_one hb z0.2 z0.1, mb_three hb z0.2 z1.1, mb_three hb z0.2 z2.1, mb_two hb z0.2 z3.1, mb_three hb z1.2 z0.1, mb_three hb z1.2 z1.1, mb_three hb z1.2 z2.1, mb_two hb z1.2 z3.1, mb_three hb z2.2 z0.1, mb_three hb z2.2 z1.1, mb_three hb z2.2 z2.1, mb_one hb z2.2 z3.1, mb_two hb z3.2 z0.1, mb_two hb z3.2 z1.1, mb_one hb z3.2 z2.1, mb_two hb z3.2 z3.1, mb_three hb ρ0 z0.1, mb_three hb ρ0 z1.1, mb_three hb ρ0 z2.1, mb_two hb ρ0 z3.1, ab_self, sb_self] at i0 i1 i2 i3 i4 i5 i6 i7 i8 i9 i10 i11 i12 i13 i14 ⊢
  simp only [ab_swap z0.1 z1.1, ab_swap z0.1 z2.1, ab_swap z0.1 z3.1, ab_swap z1.1 z2.1, ab_swap z1.1 z3.1, ab_swap z2.1 z3.1, sb_swap z0.2 z1.2, sb_swap z0.2 z2.2, sb_swap z0.2 z3.2, sb_swap z0.2 ρ0, sb_swap z1.2 z2.2, sb_swap z1.2 z3.2, sb_swap z1.2 ρ0, sb_swap z2.2 z3.2, sb_swap z2.2 ρ0, sb_swap z3.2 ρ0] at i0 i1 i2 i3 i4 i5 i6 i7 i8 i9 i10 i11 i12 i13 i14 ⊢
  simp only [r1, r2, r5, Constants.hL, Constants.hR, Constants.gL, Constants.gR, Constants.yuk, Constants.invVev, Flavour.charge_e, Flavour.isospin_e, Flavour.charge_ne, Flavour.isospin_ne, hne, ← c.mz]
  have xMW : (c.MW : ℂ) ≠ 0 := by exact_mod_cast hc.MW
  have xSW : (c.SW : ℂ) ≠ 0 := by exact_mod_cast hc.SW
  have xCW : (c.CW : ℂ) ≠ 0 := by exact_mod_cast hc.CW
  have x2 : ((√2 : ℝ) : ℂ) ≠ 0 := by exact_mod_cast (Real.sqrt_pos.2 two_pos).ne'
  have x22 : ((√2 : ℝ) : ℂ) ^ 2 = 2 := by rw [← Complex.ofReal_pow, Real.sq_sqrt two_pos.le]; norm_num
  have x23 : ((√2 : ℝ) : ℂ) ^ 3 = 2 * ((√2 : ℝ) : ℂ) := by rw [← x22]; ring
  have x24 : ((√2 : ℝ) : ℂ) ^ 4 = 4 := by linear_combination (((√2 : ℝ) : ℂ) ^ 2 + 2) * x22
  try simp only [hne] at i0 i1 i2 i3 i4 i5 i6 i7 i8 i9 i10 i11 i12 i13 i14
  push_cast at i0 i1 i2 i3 i4 i5 i6 i7 i8 i9 i10 i11 i12 i13 i14 ⊢
  have y0 := mul_inv_cancel₀ n0
  have y1 := mul_inv_cancel₀ n1
  have yMW := mul_inv_cancel₀ xMW
  have yR2 : ((√2 : ℝ) : ℂ)⁻¹ = ((√2 : ℝ) : ℂ) / 2 := by rw [inv_eq_iff_eq_inv, inv_div, eq_div_iff x2, ← x22]; ring
  linear_combination ((((1) * (((√2 : ℝ) : ℂ)) * ((c.e : ℂ)) ^ 2 * ((c.mass .e : ℂ)) * (ab z0.1 z2.1) * (ab z1.1 z3.1)) * i0 + ((-1) * (((√2 : ℝ) : ℂ)) * ((c.e : ℂ)) ^ 2 * ((c.mass .e : ℂ)) * (ab z0.1 z2.1) * (sb z0.2 z2.2)) * i1 + ((1) * ((c.MW : ℂ)) * (((√2 : ℝ) : ℂ)) * ((c.e : ℂ)) ^ 2 * ((c.mass .e : ℂ)) * (ab z0.1 z2.1) * (sb z0.2 ρ0) + (1) * (((√2 : ℝ) : ℂ)) * ((c.e : ℂ)) ^ 2 * ((c.mass .e : ℂ)) * (mb z2.2 (p 1) z0.1) * (sb z0.2 ρ0)) * i2 + ((1) * (((√2 : ℝ) : ℂ)) * ((c.e : ℂ)) ^ 2 * ((c.mass .e : ℂ)) * (ab z0.1 z2.1) * (sb z0.2 z2.2)) * i3 + ((-1) * (((√2 : ℝ) : ℂ)) * ((c.e : ℂ)) ^ 2 * ((c.mass .e : ℂ)) ^ 2 * (ab z0.1 z1.1) * (ab z0.1 z2.1) + (1) * (((√2 : ℝ) : ℂ)) * ((c.e : ℂ)) ^ 2 * (N.c 1) * (ab z0.1 z1.1) * (ab z0.1 z2.1)) * i4 + ((-1) * (((√2 : ℝ) : ℂ)) * ((c.e : ℂ)) ^ 2 * ((c.mass .e : ℂ)) * (ab z0.1 z2.1) * (ab z1.1 z3.1)) * i5 + ((1) * ((c.MW : ℂ)) * (((√2 : ℝ) : ℂ)) * ((c.e : ℂ)) ^ 2 * (ab z0.1 z1.1) * (sb z2.2 ρ0) + (-1) * (((√2 : ℝ) : ℂ)) * ((c.e : ℂ)) ^ 2 * (ab z0.1 z1.1) * (ab z0.1 z2.1) * (sb z0.2 ρ0) + (-1) * (((√2 : ℝ) : ℂ)) * ((c.e : ℂ)) ^ 2 * (ab z0.1 z2.1) * (mb ρ0 (p 2) z1.1)) * i6 + ((-1) * ((c.MW : ℂ)) * (((√2 : ℝ) : ℂ)) * ((c.e : ℂ)) ^ 2 * (ab z0.1 z1.1) * (sb z2.2 ρ0) + (1) * (((√2 : ℝ) : ℂ)) * ((c.e : ℂ)) ^ 2 * (ab z0.1 z1.1) * (ab z0.1 z2.1) * (sb z0.2 ρ0) + (1) * (((√2 : ℝ) : ℂ)) * ((c.e : ℂ)) ^ 2 * (ab z0.1 z2.1) * (mb ρ0 (p 2) z1.1)) * i7 + ((1) * ((c.MW : ℂ)) * (((√2 : ℝ) : ℂ)) * ((c.e : ℂ)) ^ 2 * (ab z0.1 z2.1) * (ab z1.1 z2.1) + (-1) * (((√2 : ℝ) : ℂ)) * ((c.e : ℂ)) ^ 2 * (ab z0.1 z1.1) * (mb z2.2 (p 1) z2.1)) * i8 + ((-1) * (((√2 : ℝ) : ℂ)) * ((c.e : ℂ)) ^ 2 * ((c.mass .e : ℂ)) * (ab z0.1 z3.1) * (sb z0.2 ρ0) + (-1) * (((√2 : ℝ) : ℂ)) * ((c.e : ℂ)) ^ 2 * (N.c 0) * (sb z3.2 ρ0) + (-1) * (((√2 : ℝ) : ℂ)) * ((c.e : ℂ)) ^ 2 * (mb z3.2 (p 1) z0.1) * (sb z0.2 ρ0) + (1) * (((√2 : ℝ) : ℂ)) * ((c.e : ℂ)) ^ 2 * (mb ρ0 (p 2) z0.1) * (sb z0.2 z3.2)) * i9 + ((-1) * ((c.MW : ℂ)) * (((√2 : ℝ) : ℂ)) * ((c.e : ℂ)) ^ 2 * (ab z0.1 z2.1) * (sb z0.2 z3.2) + (-1) * (((√2 : ℝ) : ℂ)) * ((c.e : ℂ)) ^ 2 * (N.c 1) * (sb z2.2 z3.2) + (-1) * (((√2 : ℝ) : ℂ)) * ((c.e : ℂ)) ^ 2 * (mb z2.2 (p 1) z0.1) * (sb z0.2 z3.2)) * i10 + ((-1) * (((√2 : ℝ) : ℂ)) * ((c.e : ℂ)) ^ 2 * ((c.mass .e : ℂ)) * (ab z0.1 z2.1) * (sb z2.2 ρ0)) * i11 + ((1) * (((√2 : ℝ) : ℂ)) * ((c.e : ℂ)) ^ 2 * ((c.mass .e : ℂ)) * (ab z0.1 z2.1) * (sb z2.2 ρ0)) * i12 + ((1) * (((√2 : ℝ) : ℂ)) * ((c.e : ℂ)) ^ 2 * ((c.mass .e : ℂ)) * (ab z0.1 z3.1) * (sb z2.2 ρ0)) * i13 + ((1) * ((c.MW : ℂ)) * (((√2 : ℝ) : ℂ)) * ((c.e : ℂ)) ^ 2 * (ab z0.1 z2.1) * (sb z0.2 ρ0) + (1) * (((√2 : ℝ) : ℂ)) * ((c.e : ℂ)) ^ 2 * (mb z2.2 (p 1) z0.1) * (sb z0.2 ρ0)) * i14)) * ((1) * ((c.MW : ℂ)⁻¹) * ((c.SW : ℂ)⁻¹) * ((N.c 0)⁻¹) * ((N.c 1)⁻¹)) + ((1) * ((c.MW : ℂ)) * (((√2 : ℝ) : ℂ)) * ((c.e : ℂ)) ^ 2 * ((c.MW : ℂ)⁻¹) * ((c.SW : ℂ)⁻¹) * ((N.c 1)⁻¹) * (ab z0.1 z2.1) * (ab z1.1 z2.1) * (sb z3.2 ρ0) + (1) * (((√2 : ℝ) : ℂ)) * ((c.e : ℂ)) ^ 2 * ((c.MW : ℂ)⁻¹) * ((c.SW : ℂ)⁻¹) * ((c.mass .e : ℂ)) * ((N.c 1)⁻¹) * (ab z0.1 z3.1) * (ab z1.1 z2.1) * (sb z2.2 ρ0) + (1) * (((√2 : ℝ) : ℂ)) * ((c.e : ℂ)) ^ 2 * ((c.MW : ℂ)⁻¹) * ((c.SW : ℂ)⁻¹) * ((N.c 1)⁻¹) * (ab z1.1 z2.1) * (mb z2.2 (p 1) z0.1) * (sb z3.2 ρ0)) * y0 + ((-1) * (((√2 : ℝ) : ℂ)) * ((c.e : ℂ)) ^ 2 * ((c.MW : ℂ)⁻¹) * ((c.SW : ℂ)⁻¹) * ((N.c 0)⁻¹) * (ab z0.1 z1.1) * (ab z0.1 z2.1) * (sb z0.2 z2.2) * (sb z3.2 ρ0) + (1) * (((√2 : ℝ) : ℂ)) * ((c.e : ℂ)) ^ 2 * ((c.MW : ℂ)⁻¹) * ((c.SW : ℂ)⁻¹) * ((N.c 0)⁻¹) * (ab z0.1 z1.1) * (ab z0.1 z2.1) * (sb z0.2 z3.2) * (sb z2.2 ρ0) + (1) * (((√2 : ℝ) : ℂ)) * ((c.e : ℂ)) ^ 2 * ((c.MW : ℂ)⁻¹) * ((c.SW : ℂ)⁻¹) * ((N.c 0)⁻¹) * (ab z1.1 z2.1) * (mb ρ0 (p 2) z0.1) * (sb z2.2 z3.2)) * y1 + ((-1) * ((c.MW : ℂ)) * (((√2 : ℝ) : ℂ)) ^ 2 * ((c.e : ℂ)) ^ 2 * ((c.MW : ℂ)⁻¹) ^ 2 * (((√2 : ℝ) : ℂ)⁻¹) * ((c.SW : ℂ)⁻¹) * ((c.mass .e : ℂ)) * ((N.c 0)⁻¹) * (ab z0.1 z2.1) * (ab z1.1 z3.1) * (sb z2.2 ρ0) / (2) + (1) * (((√2 : ℝ) : ℂ)) * ((c.e : ℂ)) ^ 2 * ((c.SW : ℂ)⁻¹) * ((N.c 1)⁻¹) * (ab z0.1 z2.1) * (ab z1.1 z2.1) * (sb z3.2 ρ0) + (-1) * (((√2 : ℝ) : ℂ)) ^ 2 * ((c.e : ℂ)) ^ 2 * ((c.MW : ℂ)⁻¹) * (((√2 : ℝ) : ℂ)⁻¹) * ((c.SW : ℂ)⁻¹) * ((c.mass .e : ℂ)) * ((N.c 0)⁻¹) * (ab z0.1 z2.1) * (ab z1.1 z3.1) * (sb z2.2 ρ0) / (2) + (-1) * (((√2 : ℝ) : ℂ)) ^ 2 * ((c.e : ℂ)) ^ 2 * (((√2 : ℝ) : ℂ)⁻¹) * ((c.SW : ℂ)⁻¹) * ((N.c 1)⁻¹) * (ab z0.1 z2.1) * (ab z1.1 z2.1) * (sb z3.2 ρ0)) * yMW + ((-1) * (((√2 : ℝ) : ℂ)) ^ 2 * ((c.e : ℂ)) ^ 2 * ((c.MW : ℂ)⁻¹) * ((c.SW : ℂ)⁻¹) * ((c.mass .e : ℂ)) * ((N.c 1)⁻¹) * (ab z0.1 z3.1) * (ab z1.1 z2.1) * (sb z2.2 ρ0) + (1) * (((√2 : ℝ) : ℂ)) ^ 2 * ((c.e : ℂ)) ^ 2 * ((c.MW : ℂ)⁻¹) * ((c.SW : ℂ)⁻¹) * ((N.c 0)⁻¹) * (ab z0.1 z1.1) * (ab z0.1 z2.1) * (sb z0.2 z2.2) * (sb z3.2 ρ0) + (-1) * (((√2 : ℝ) : ℂ)) ^ 2 * ((c.e : ℂ)) ^ 2 * ((c.MW : ℂ)⁻¹) * ((c.SW : ℂ)⁻¹) * ((N.c 0)⁻¹) * (ab z0.1 z1.1) * (ab z0.1 z2.1) * (sb z0.2 z3.2) * (sb z2.2 ρ0) + (-1) * (((√2 : ℝ) : ℂ)) ^ 2 * ((c.e : ℂ)) ^ 2 * ((c.MW : ℂ)⁻¹) * ((c.SW : ℂ)⁻¹) * ((N.c 0)⁻¹) * (ab z1.1 z2.1) * (mb ρ0 (p 2) z0.1) * (sb z2.2 z3.2) + (-1) * (((√2 : ℝ) : ℂ)) ^ 2 * ((c.e : ℂ)) ^ 2 * ((c.MW : ℂ)⁻¹) * ((c.SW : ℂ)⁻¹) * ((N.c 1)⁻¹) * (ab z1.1 z2.1) * (mb z2.2 (p 1) z0.1) * (sb z3.2 ρ0) + (-1) * (((√2 : ℝ) : ℂ)) ^ 2 * ((c.e : ℂ)) ^ 2 * ((c.SW : ℂ)⁻¹) * ((N.c 1)⁻¹) * (ab z0.1 z2.1) * (ab z1.1 z2.1) * (sb z3.2 ρ0)) * yR2 + ((-1) * (((√2 : ℝ) : ℂ)) * ((c.e : ℂ)) ^ 2 * ((c.MW : ℂ)⁻¹) * ((c.SW : ℂ)⁻¹) * ((c.mass .e : ℂ)) * ((N.c 1)⁻¹) * (ab z0.1 z3.1) * (ab z1.1 z2.1) * (sb z2.2 ρ0) / (2) + (1) * (((√2 : ℝ) : ℂ)) * ((c.e : ℂ)) ^ 2 * ((c.MW : ℂ)⁻¹) * ((c.SW : ℂ)⁻¹) * ((N.c 0)⁻¹) * (ab z0.1 z1.1) * (ab z0.1 z2.1) * (sb z0.2 z2.2) * (sb z3.2 ρ0) / (2) + (-1) * (((√2 : ℝ) : ℂ)) * ((c.e : ℂ)) ^ 2 * ((c.MW : ℂ)⁻¹) * ((c.SW : ℂ)⁻¹) * ((N.c 0)⁻¹) * (ab z0.1 z1.1) * (ab z0.1 z2.1) * (sb z0.2 z3.2) * (sb z2.2 ρ0) / (2) + (-1) * (((√2 : ℝ) : ℂ)) * ((c.e : ℂ)) ^ 2 * ((c.MW : ℂ)⁻¹) * ((c.SW : ℂ)⁻¹) * ((N.c 0)⁻¹) * (ab z1.1 z2.1) * (mb ρ0 (p 2) z0.1) * (sb z2.2 z3.2) / (2) + (-1) * (((√2 : ℝ) : ℂ)) * ((c.e : ℂ)) ^ 2 * ((c.MW : ℂ)⁻¹) * ((c.SW : ℂ)⁻¹) * ((N.c 1)⁻¹) * (ab z1.1 z2.1) * (mb z2.2 (p 1) z0.1) * (sb z3.2 ρ0) / (2) + (-1) * (((√2 : ℝ) : ℂ)) * ((c.e : ℂ)) ^ 2 * ((c.SW : ℂ)⁻¹) * ((N.c 1)⁻¹) * (ab z0.1 z2.1) * (ab z1.1 z2.1) * (sb z3.2 ρ0) / (2)) * x22
set_option maxRecDepth 8000 in
theorem AnWe.amp2_eq (N : Env) (f : Nat → List Int → ℂ) : Cls.AnWe.m_amp2.mean N f .r [] =
    ((sumW (fun x a => (sumV (fun x b => (sumJ (fun x c => (x + (‖(f 0 [a, b, c])‖ ^ 2))) x)) x)) ((0 : Nat) : ℝ)) / ((2 : Nat) : ℝ)) := by rfl
set_option maxRecDepth 8000 in
theorem AnWe.value (N : Env) : meaning N .r Cls.AnWe.methods Cls.AnWe.amp2 [] =
    ((sumW (fun x a => (sumV (fun x b => (sumJ (fun x c => (x + (‖(Cls.AnWe.m_amp.mean N (callMean N []) .c [a, b, c])‖ ^ 2))) x)) x)) ((0 : Nat) : ℝ)) / ((2 : Nat) : ℝ)) :=
  AnWe.amp2_eq N (callMean N [Cls.AnWe.m_amp])
theorem AnWe.termP_lin (N : Env) (w : ℝ) (x : ℂ) (a2 b2 j4 : Int) : AnWe.termP N w x a2 b2 j4 = x + (w : ℂ) * AnWe.termP N 1 0 a2 b2 j4 := by
  simp only [AnWe.termP]; push_cast; ring
theorem AnWe.termM_lin (N : Env) (w : ℝ) (x : ℂ) (a2 b2 j4 : Int) : AnWe.termM N w x a2 b2 j4 = x + (w : ℂ) * AnWe.termM N 1 0 a2 b2 j4 := by
  simp only [AnWe.termM]; push_cast; ring
set_option maxRecDepth 8000 in
theorem AnWe.ampP (N : Env) (f : Nat → List Int → ℂ) (j4 : Int) (t2 : Fin 3) : Cls.AnWe.m_amp.mean N f .c [2, spinV t2, j4] = comb t2 (fun a2 b2 => AnWe.termP N 1 0 (spinOf a2) (spinOf b2) j4) := by
  refine (amp_mean N f (m := 3) (K := 5) (G := fun i => if 0 < i 0 then AnWe.termP N 1 0 (i 3) (i 4) (i 2) else if i 0 < 0 then AnWe.termM N 1 0 (i 3) (i 4) (i 2) else 0) (fun l => ?_) (fun i i' h => ?_) rfl (by decide) (by decide) (by decide) (by decide) (by decide)).trans ?_
  · by_cases h : 0 < l.i 0
    · refine ⟨_, (if_pos (decide_eq_true h)).trans rfl, rfl, rfl, ?_⟩; rw [if_pos h]; exact AnWe.termP_lin ..
    · by_cases h' : l.i 0 < 0
      · refine ⟨_, (if_neg (fun e => h (of_decide_eq_true e))).trans ((if_pos (decide_eq_true h')).trans rfl), rfl, rfl, ?_⟩; rw [if_neg h, if_pos h']; exact AnWe.termM_lin ..
      · refine ⟨_, (if_neg (fun e => h (of_decide_eq_true e))).trans ((if_neg (fun e => h' (of_decide_eq_true e))).trans rfl), rfl, rfl, ?_⟩; rw [if_neg h, if_neg h', mul_zero, add_zero]
  · simp only [h 0 (by decide), h 2 (by decide), h 3 (by decide), h 4 (by decide)]
  · show amp' _ [spinV t2] = _
    simp only [amp'_comb, amp'_nil]
    rfl
theorem AnWe.formP_x2 (N : Env) (p : Nat → V4 ℝ) (z0 z1 y2 z3 x y : Pair) : AnWe.formP N p z0 z1 (x + y) y2 z3 = AnWe.formP N p z0 z1 x y2 z3 + AnWe.formP N p z0 z1 y y2 z3 := by
  simp only [AnWe.formP, Prod.fst_add, Prod.snd_add, ab_add_left, ab_add_right, sb_add_left, sb_add_right, mb_add_left, mb_add_right]
  ring
theorem AnWe.formP_y2 (N : Env) (p : Nat → V4 ℝ) (z0 z1 x2 z3 x y : Pair) : AnWe.formP N p z0 z1 x2 (x + y) z3 = AnWe.formP N p z0 z1 x2 x z3 + AnWe.formP N p z0 z1 x2 y z3 := by
  simp only [AnWe.formP, Prod.fst_add, Prod.snd_add, ab_add_left, ab_add_right, sb_add_left, sb_add_right, mb_add_left, mb_add_right]
  ring
theorem AnWe.formP_zero1 (N : Env) (p : Nat → V4 ℝ) {z1 : Pair} (z0 x2 y2 z3 : Pair) (h : z1.1 = 0) : AnWe.formP N p z0 z1 x2 y2 z3 = 0 := by
  simp [AnWe.formP, h, ab_zero, sb_zero, mb_zero]
set_option maxRecDepth 8000 in
theorem AnWe.ampM (N : Env) (f : Nat → List Int → ℂ) (j4 : Int) (t2 : Fin 3) : Cls.AnWe.m_amp.mean N f .c [(-2), spinV t2, j4] = comb t2 (fun a2 b2 => AnWe.termM N 1 0 (spinOf a2) (spinOf b2) j4) := by
  refine (amp_mean N f (m := 3) (K := 5) (G := fun i => if 0 < i 0 then AnWe.termP N 1 0 (i 3) (i 4) (i 2) else if i 0 < 0 then AnWe.termM N 1 0 (i 3) (i 4) (i 2) else 0) (fun l => ?_) (fun i i' h => ?_) rfl (by decide) (by decide) (by decide) (by decide) (by decide)).trans ?_
  · by_cases h : 0 < l.i 0
    · refine ⟨_, (if_pos (decide_eq_true h)).trans rfl, rfl, rfl, ?_⟩; rw [if_pos h]; exact AnWe.termP_lin ..
    · by_cases h' : l.i 0 < 0
      · refine ⟨_, (if_neg (fun e => h (of_decide_eq_true e))).trans ((if_pos (decide_eq_true h')).trans rfl), rfl, rfl, ?_⟩; rw [if_neg h, if_pos h']; exact AnWe.termM_lin ..
      · refine ⟨_, (if_neg (fun e => h (of_decide_eq_true e))).trans ((if_neg (fun e => h' (of_decide_eq_true e))).trans rfl), rfl, rfl, ?_⟩; rw [if_neg h, if_neg h', mul_zero, add_zero]
  · simp only [h 0 (by decide), h 2 (by decide), h 3 (by decide), h 4 (by decide)]
  · show amp' _ [spinV t2] = _
    simp only [amp'_comb, amp'_nil]
    rfl
theorem AnWe.formM_x2 (N : Env) (p : Nat → V4 ℝ) (z0 z1 y2 z3 x y : Pair) : AnWe.formM N p z0 z1 (x + y) y2 z3 = AnWe.formM N p z0 z1 x y2 z3 + AnWe.formM N p z0 z1 y y2 z3 := by
  simp only [AnWe.formM, Prod.fst_add, Prod.snd_add, ab_add_left, ab_add_right, sb_add_left, sb_add_right, mb_add_left, mb_add_right]
  ring
theorem AnWe.formM_y2 (N : Env) (p : Nat → V4 ℝ) (z0 z1 x2 z3 x y : Pair) : AnWe.formM N p z0 z1 x2 (x + y) z3 = AnWe.formM N p z0 z1 x2 x z3 + AnWe.formM N p z0 z1 x2 y z3 := by
  simp only [AnWe.formM, Prod.fst_add, Prod.snd_add, ab_add_left, ab_add_right, sb_add_left, sb_add_right, mb_add_left, mb_add_right]
  ring
theorem AnWe.formM_zero1 (N : Env) (p : Nat → V4 ℝ) {z1 : Pair} (z0 x2 y2 z3 : Pair) (h : z1.1 = 0) : AnWe.formM N p z0 z1 x2 y2 z3 = 0 := by
  simp [AnWe.formM, h, ab_zero, sb_zero, mb_zero]
set_option maxRecDepth 8000 in
theorem AnWe.ampP_one (N : Env) (f : Nat → List Int → ℂ) (j4 : Int) (t2 : Fin 3) : Cls.AnWe.m_amp.mean N f .c [1, spinV t2, j4] = comb t2 (fun a2 b2 => AnWe.termP N 1 0 (spinOf a2) (spinOf b2) j4) := by
  refine (amp_mean N f (m := 3) (K := 5) (G := fun i => if 0 < i 0 then AnWe.termP N 1 0 (i 3) (i 4) (i 2) else if i 0 < 0 then AnWe.termM N 1 0 (i 3) (i 4) (i 2) else 0) (fun l => ?_) (fun i i' h => ?_) rfl (by decide) (by decide) (by decide) (by decide) (by decide)).trans ?_
  · by_cases h : 0 < l.i 0
    · refine ⟨_, (if_pos (decide_eq_true h)).trans rfl, rfl, rfl, ?_⟩; rw [if_pos h]; exact AnWe.termP_lin ..
    · by_cases h' : l.i 0 < 0
      · refine ⟨_, (if_neg (fun e => h (of_decide_eq_true e))).trans ((if_pos (decide_eq_true h')).trans rfl), rfl, rfl, ?_⟩; rw [if_neg h, if_pos h']; exact AnWe.termM_lin ..
      · refine ⟨_, (if_neg (fun e => h (of_decide_eq_true e))).trans ((if_neg (fun e => h' (of_decide_eq_true e))).trans rfl), rfl, rfl, ?_⟩; rw [if_neg h, if_neg h', mul_zero, add_zero]
  · simp only [h 0 (by decide), h 2 (by decide), h 3 (by decide), h 4 (by decide)]
  · show amp' _ [spinV t2] = _
    simp only [amp'_comb, amp'_nil]
    rfl

theorem AnWe.mass_eq {c : Constants} (hc : c.Physical) (i : Fin 4) : AnWe.proc.massNum (AnWe.rho c) i = AnWe.react.mass c i := by
  fin_cases i <;> first | rfl | exact Nat.cast_zero | exact Nat.cast_zero.trans (hc.neutrino _).symm | (show c.MW / √(((1 : Nat) : ℝ) - c.SW * c.SW) = c.MZ; rw [c.root, c.mz])

variable [FPEnv] in
theorem AnWe.amps {c : Constants} {p : Nat → V4 ℝ} {u : Fin 4 → Fin 3 → Spinor} {ε : Fin 4 → Fin 3 → Vec} (hc : c.Physical) (hh : c.Heavy) (hw : ∀ q ∈ AnWe.absent, c.get q = 0) (h0 : ∀ i, 0 ≤ AnWe.react.mass c i) (hs : ∀ i : Fin 4, OnShell (p i) (AnWe.react.mass c i)) (hb : Balanced p) (hr : AnWe.react.Regular c p) (hu : ∀ i, AnWe.react.Complete c p i (u i) (ε i)) :
    (AnWe.N c p).c 0 ≠ 0 ∧ (AnWe.N c p).c 1 ≠ 0 ∧ (∀ n, (Ty.r, n) ∈ AnWe.proc.divides → (AnWe.N c p).r n ≠ 0) ∧ (∀ n, (Ty.c, n) ∈ AnWe.proc.divides → (AnWe.N c p).c n ≠ 0) ∧ (∀ (s : Fin 2) (t2 : Fin 3), AnWe.react.bare c p 3 1 0 2 (AnWe.react.codePair c p 3 s) (AnWe.react.codePair c p 1 1) (lightE (legA (p 0) 0 0, legS (p 0) 0 1) 1) (AnWe.react.codeVec c p 2 t2) = 0) ∧ (∀ (s : Fin 2) (t2 : Fin 3), AnWe.react.bare c p 3 1 0 2 (AnWe.react.codePair c p 3 s) (AnWe.react.codePair c p 1 1) (lightE (legA (p 0) 0 0, legS (p 0) 0 1) 0) (AnWe.react.codeVec c p 2 t2) = 0) ∧ ∀ (s3 : Fin 2) (h0 : Fin 2) (t2 : Fin 3), ‖Cls.AnWe.m_amp.mean (AnWe.N c p) (callMean (AnWe.N c p) []) .c [spinW h0, spinV t2, spinOf s3]‖ = ‖AnWe.react.bare c p 3 1 0 2 (AnWe.react.codePair c p 3 s3) (AnWe.react.codePair c p 1 0) (lightE (legA (p 0) 0 0, legS (p 0) 0 1) h0.castSucc) (AnWe.react.codeVec c p 2 t2)‖ := by
  have he : AnWe.react.ends = [3] := by decide
  have ht : AnWe.react.starts = [1] := by decide
  have hB : AnWe.react.bosons = [0, 2] := by decide
  obtain ⟨f1, f2, f3⟩ := AnWe.react.regular_line he ht hB hr
  have r1 : (AnWe.N c p).r 1 = (c.mass .e) := rfl
  have r2 : (AnWe.N c p).r 2 = c.MW := rfl
  have r5 : (AnWe.N c p).r 5 = (((√(((2 : Nat) : ℝ)) * c.e) * c.e) / (c.MW * c.SW)) := rfl
  have hWW : c.WW = 0 := hw .WW (by simp [AnWe])
  have c0 : (AnWe.N c p).c 0 = poleDist c.MW c.WW ((VExp.sub 0 2).sum p) := rfl
  have d0 : pole c.MW c.WW (plus (p 0) (backward (p 2))) = (AnWe.N c p).c 0 := by rw [c0, pole_congr (msq_t hb (plus (p 0) (backward (p 2))) (by simp)).symm]
  have n0 : (AnWe.N c p).c 0 ≠ 0 := by rw [← d0]; exact star_ne_zero.2 (f3 .wMinus rfl rfl)
  rw [hWW, pole_fermion rfl] at c0
  have c1 : (AnWe.N c p).c 1 = poleDist (c.mass .e) ((0 : Nat) : ℝ) ((VExp.sub 0 3).sum p) := rfl
  rw [Nat.cast_zero, pole_fermion rfl] at c1
  have d1 : ((msq (plus (p 1) (backward (p 2))) - c.mass .e ^ 2 : ℝ) : ℂ) = (AnWe.N c p).c 1 := by rw [c1, msq_u hb (plus (p 1) (backward (p 2))) (by simp)]
  have n1 : (AnWe.N c p).c 1 ≠ 0 := by rw [← d1]; exact_mod_cast f2 .e rfl rfl
  obtain ⟨l0, x0, y0⟩ := AnWe.react.code_light hs hu (n := 0) rfl rfl
  have e02 := l0.pole_sub (m := c.MW) (onShell_msq (hs 2)) (msq_t hb (plus (p 0) (backward (p 2))) (by simp)) c0
  have e03 := l0.pole_sub (m := (c.mass .e)) (onShell_msq (hs 3)) (msq_u hb (plus (p 0) (backward (p 3))) (by simp)) c1
  have m1 : AnWe.react.mass c 1 = 0 := hc.neutrino _
  have m2 : AnWe.react.mass c 2 ≠ 0 := (leg_pos hc hh (by decide)).ne'
  have m3 : AnWe.react.mass c 3 ≠ 0 := (leg_pos hc hh (by decide)).ne'
  have m0 : AnWe.react.mass c 0 = 0 := rfl
  have hd : AnWe.proc.divides = [(Ty.c, 0), (Ty.c, 1)] := by decide +kernel
  have stP : ∀ {z1 z3 : Pair} (b1 : Bold (p 1) (AnWe.react.mass c 1) z1) (b3 : Bold (p 3) (AnWe.react.mass c 3) z3) (t2 : Fin 3), comb t2 (fun a2 b2 => AnWe.formP (AnWe.N c p) p (legA (p 0) 0 0, legS (p 0) 0 1) z1 (AnWe.react.codePair c p 2 a2) (AnWe.react.codePair c p 2 b2) z3) = (-1) * AnWe.react.bare c p 3 1 0 2 z3 z1 (lightE (legA (p 0) 0 0, legS (p 0) 0 1) 1) (AnWe.react.codeVec c p 2 t2) := by
    intro z1 z3 b1 b3 t2
    refine one_vector (p := p 2) (m := AnWe.react.mass c 2) (fun s => AnWe.react.codePair_bold hs h0 2 s) (B := fun x y => AnWe.formP (AnWe.N c p) p (legA (p 0) 0 0, legS (p 0) 0 1) z1 x y z3) (G := fun E => AnWe.react.bare c p 3 1 0 2 z3 z1 (lightE (legA (p 0) 0 0, legS (p 0) 0 1) 1) E) (fun x y z => ?_) (fun x y z => ?_) (AnWe.react.bare_lin₂ c p _ _ _ (by decide)) (-1) (fun z2 b2 => ?_) t2
    · exact AnWe.formP_x2 ..
    · exact AnWe.formP_y2 ..
    · exact (light_plus (z := (legA (p 0) 0 0, legS (p 0) 0 1)) (G := fun E => AnWe.react.bare c p 3 1 0 2 z3 z1 E (pv z2.1 z2.2)) (AnWe.react.bare_lin₁ c p _ _ _ (by decide)) x0 (AnWe.keyP hc hb r1 r2 r5 d0 n0 d1 n1 b1 b2 b3 l0 e02 e03 (onShell_msq (hs 1)) (onShell_msq (hs 2)) (onShell_msq (hs 3)) _)).trans (mul_assoc _ _ _)
  have stM : ∀ {z1 z3 : Pair} (b1 : Bold (p 1) (AnWe.react.mass c 1) z1) (b3 : Bold (p 3) (AnWe.react.mass c 3) z3) (t2 : Fin 3), comb t2 (fun a2 b2 => AnWe.formM (AnWe.N c p) p (legA (p 0) 0 0, legS (p 0) 0 1) z1 (AnWe.react.codePair c p 2 a2) (AnWe.react.codePair c p 2 b2) z3) = (-1) * AnWe.react.bare c p 3 1 0 2 z3 z1 (lightE (legA (p 0) 0 0, legS (p 0) 0 1) 0) (AnWe.react.codeVec c p 2 t2) := by
    intro z1 z3 b1 b3 t2
    refine one_vector (p := p 2) (m := AnWe.react.mass c 2) (fun s => AnWe.react.codePair_bold hs h0 2 s) (B := fun x y => AnWe.formM (AnWe.N c p) p (legA (p 0) 0 0, legS (p 0) 0 1) z1 x y z3) (G := fun E => AnWe.react.bare c p 3 1 0 2 z3 z1 (lightE (legA (p 0) 0 0, legS (p 0) 0 1) 0) E) (fun x y z => ?_) (fun x y z => ?_) (AnWe.react.bare_lin₂ c p _ _ _ (by decide)) (-1) (fun z2 b2 => ?_) t2
    · exact AnWe.formM_x2 ..
    · exact AnWe.formM_y2 ..
    · exact (light_minus (z := (legA (p 0) 0 0, legS (p 0) 0 1)) (G := fun E => AnWe.react.bare c p 3 1 0 2 z3 z1 E (pv z2.1 z2.2)) (AnWe.react.bare_lin₁ c p _ _ _ (by decide)) y0 (AnWe.keyM hc hb r1 r2 r5 d0 n0 d1 n1 b1 b2 b3 l0 e02 e03 (onShell_msq (hs 1)) (onShell_msq (hs 2)) (onShell_msq (hs 3)) _)).trans (mul_assoc _ _ _)
  have amP : ∀ (s3 : Fin 2) (t2 : Fin 3), Cls.AnWe.m_amp.mean (AnWe.N c p) (callMean (AnWe.N c p) []) .c [2, spinV t2, spinOf s3] = (-1) * AnWe.react.bare c p 3 1 0 2 (AnWe.react.codePair c p 3 s3) (AnWe.react.codePair c p 1 0) (lightE (legA (p 0) 0 0, legS (p 0) 0 1) 1) (AnWe.react.codeVec c p 2 t2) := by
    intro s3 t2
    rw [AnWe.ampP, ← stP (AnWe.react.codePair_bold hs h0 1 0) (AnWe.react.codePair_bold hs h0 3 s3) t2]
    refine congrArg (comb t2) (funext fun a2 => funext fun b2 => ?_)
    have v0z0x2 : (AnWe.N c p).v 0 [spinOf a2] = sb (legA (p 0) 0 0, legS (p 0) 0 1).2 (AnWe.react.codePair c p 2 a2).2 := bra_square (p := p) (m := AnWe.proc.massNum (AnWe.rho c)) (AnWe.mass_eq hc 0) (AnWe.mass_eq hc 2) (.inr ⟨m0, rfl⟩) (.inl ⟨m2, rfl⟩)
    have v1z3z1 : (AnWe.N c p).v 1 [spinOf s3] = ab (AnWe.react.codePair c p 3 s3).1 (AnWe.react.codePair c p 1 0).1 := bra_angle (p := p) (m := AnWe.proc.massNum (AnWe.rho c)) (AnWe.mass_eq hc 3) (AnWe.mass_eq hc 1) (.inl ⟨m3, rfl⟩) (.inr ⟨m1, rfl⟩)
    have v2z1x2 : (AnWe.N c p).v 2 [spinOf a2] = ab (AnWe.react.codePair c p 1 0).1 (AnWe.react.codePair c p 2 a2).1 := bra_angle (p := p) (m := AnWe.proc.massNum (AnWe.rho c)) (AnWe.mass_eq hc 1) (AnWe.mass_eq hc 2) (.inr ⟨m1, rfl⟩) (.inl ⟨m2, rfl⟩)
    have v3z3z0 : (AnWe.N c p).v 3 [spinOf s3] = sb (AnWe.react.codePair c p 3 s3).2 (legA (p 0) 0 0, legS (p 0) 0 1).2 := bra_square (p := p) (m := AnWe.proc.massNum (AnWe.rho c)) (AnWe.mass_eq hc 3) (AnWe.mass_eq hc 0) (.inl ⟨m3, rfl⟩) (.inr ⟨m0, rfl⟩)
    have v0z0y2 : (AnWe.N c p).v 0 [spinOf b2] = sb (legA (p 0) 0 0, legS (p 0) 0 1).2 (AnWe.react.codePair c p 2 b2).2 := bra_square (p := p) (m := AnWe.proc.massNum (AnWe.rho c)) (AnWe.mass_eq hc 0) (AnWe.mass_eq hc 2) (.inr ⟨m0, rfl⟩) (.inl ⟨m2, rfl⟩)
    have v4z0y2 : (AnWe.N c p).v 4 [spinOf b2] = mb (legA (p 0) 0 0, legS (p 0) 0 1).2 (p 3) (AnWe.react.codePair c p 2 b2).1 := bra_mid_square (p := p) (m := AnWe.proc.massNum (AnWe.rho c)) (AnWe.mass_eq hc 0) (AnWe.mass_eq hc 2) (.inr ⟨m0, rfl⟩) (.inl ⟨m2, rfl⟩)
    simp only [AnWe.termP, AnWe.formP, v0z0x2, v1z3z1, v2z1x2, v3z3z0, v0z0y2, v4z0y2]
    push_cast
    ring
  have amM : ∀ (s3 : Fin 2) (t2 : Fin 3), Cls.AnWe.m_amp.mean (AnWe.N c p) (callMean (AnWe.N c p) []) .c [(-2), spinV t2, spinOf s3] = (-1) * AnWe.react.bare c p 3 1 0 2 (AnWe.react.codePair c p 3 s3) (AnWe.react.codePair c p 1 0) (lightE (legA (p 0) 0 0, legS (p 0) 0 1) 0) (AnWe.react.codeVec c p 2 t2) := by
    intro s3 t2
    rw [AnWe.ampM, ← stM (AnWe.react.codePair_bold hs h0 1 0) (AnWe.react.codePair_bold hs h0 3 s3) t2]
    refine congrArg (comb t2) (funext fun a2 => funext fun b2 => ?_)
    have v5z1z0 : (AnWe.N c p).v 5 [] = ab (AnWe.react.codePair c p 1 0).1 (legA (p 0) 0 0, legS (p 0) 0 1).1 := bra_angle (p := p) (m := AnWe.proc.massNum (AnWe.rho c)) (AnWe.mass_eq hc 1) (AnWe.mass_eq hc 0) (.inr ⟨m1, rfl⟩) (.inr ⟨m0, rfl⟩)
    have v6z3x2 : (AnWe.N c p).v 6 [spinOf s3, spinOf a2] = sb (AnWe.react.codePair c p 3 s3).2 (AnWe.react.codePair c p 2 a2).2 := bra_square (p := p) (m := AnWe.proc.massNum (AnWe.rho c)) (AnWe.mass_eq hc 3) (AnWe.mass_eq hc 2) (.inl ⟨m3, rfl⟩) (.inl ⟨m2, rfl⟩)
    have v7z0y2 : (AnWe.N c p).v 7 [spinOf b2] = ab (legA (p 0) 0 0, legS (p 0) 0 1).1 (AnWe.react.codePair c p 2 b2).1 := bra_angle (p := p) (m := AnWe.proc.massNum (AnWe.rho c)) (AnWe.mass_eq hc 0) (AnWe.mass_eq hc 2) (.inr ⟨m0, rfl⟩) (.inl ⟨m2, rfl⟩)
    have v8y2z0 : (AnWe.N c p).v 8 [spinOf b2] = mb (AnWe.react.codePair c p 2 b2).2 (p 3) (legA (p 0) 0 0, legS (p 0) 0 1).1 := bra_mid_square (p := p) (m := AnWe.proc.massNum (AnWe.rho c)) (AnWe.mass_eq hc 2) (AnWe.mass_eq hc 0) (.inl ⟨m2, rfl⟩) (.inr ⟨m0, rfl⟩)
    simp only [AnWe.termM, AnWe.formM, v5z1z0, v6z3x2, v7z0y2, v8y2z0]
    push_cast
    ring
  have wP1 : ∀ (s : Fin 2) (t2 : Fin 3), AnWe.react.bare c p 3 1 0 2 (AnWe.react.codePair c p 3 s) (AnWe.react.codePair c p 1 1) (lightE (legA (p 0) 0 0, legS (p 0) 0 1) 1) (AnWe.react.codeVec c p 2 t2) = 0 := by
    intro s t2
    have e := stP (AnWe.react.codePair_bold hs h0 1 1) (AnWe.react.codePair_bold hs h0 3 s) t2
    rw [show comb t2 (fun a2 b2 => AnWe.formP (AnWe.N c p) p (legA (p 0) 0 0, legS (p 0) 0 1) (AnWe.react.codePair c p 1 1) (AnWe.react.codePair c p 2 a2) (AnWe.react.codePair c p 2 b2) (AnWe.react.codePair c p 3 s)) = 0 by
      simp only [AnWe.formP_zero1 _ _ _ _ _ _ (show ((AnWe.react.codePair c p 1 1)).1 = 0 from legA_zero m1 rfl)]; exact comb_zero ..] at e
    exact neg_eq_zero.1 ((neg_one_mul _).symm.trans e.symm)
  have wM1 : ∀ (s : Fin 2) (t2 : Fin 3), AnWe.react.bare c p 3 1 0 2 (AnWe.react.codePair c p 3 s) (AnWe.react.codePair c p 1 1) (lightE (legA (p 0) 0 0, legS (p 0) 0 1) 0) (AnWe.react.codeVec c p 2 t2) = 0 := by
    intro s t2
    have e := stM (AnWe.react.codePair_bold hs h0 1 1) (AnWe.react.codePair_bold hs h0 3 s) t2
    rw [show comb t2 (fun a2 b2 => AnWe.formM (AnWe.N c p) p (legA (p 0) 0 0, legS (p 0) 0 1) (AnWe.react.codePair c p 1 1) (AnWe.react.codePair c p 2 a2) (AnWe.react.codePair c p 2 b2) (AnWe.react.codePair c p 3 s)) = 0 by
      simp only [AnWe.formM_zero1 _ _ _ _ _ _ (show ((AnWe.react.codePair c p 1 1)).1 = 0 from legA_zero m1 rfl)]; exact comb_zero ..] at e
    exact neg_eq_zero.1 ((neg_one_mul _).symm.trans e.symm)
  refine ⟨n0, n1, fun n hn => ?_, fun n hn => ?_, wP1, wM1, ?_⟩
  · simp [hd] at hn
  · simp [hd] at hn
    rcases hn with rfl | rfl
    · exact n0
    · exact n1
  intro s3 h0 t2
  match h0 with
  | 1 => exact norm_minus (amP s3 t2)
  | 0 => exact norm_minus (amM s3 t2)

variable [FPEnv] in
theorem AnWe.agrees : AnWe.Agrees := by
  refine agrees_of (D := [2, 3]) (E := [3]) (by simp [all, AnWe]) (by decide +kernel) (by decide) (by decide +kernel) (fun c hc hh => ⟨List.forall_mem_cons.2 ⟨hc.MW, List.forall_mem_cons.2 ⟨hc.SW, List.forall_mem_nil _⟩⟩, List.forall_mem_cons.2 ⟨hc.SW_lt, List.forall_mem_nil _⟩⟩) (fun c hc i => AnWe.mass_eq hc i) (by decide +kernel) ?_
  intro c p u ε hc hh hw h0 hs hb hr hu
  have he : AnWe.react.ends = [3] := by decide
  have ht : AnWe.react.starts = [1] := by decide
  have hB : AnWe.react.bosons = [0, 2] := by decide
  have hWW : c.WW = 0 := hw .WW (by simp [AnWe])
  obtain ⟨n0, n1, d1, d2, wP1, wM1, am⟩ := AnWe.amps hc hh hw h0 hs hb hr hu
  refine ⟨d1, d2, ?_⟩
  show meaning (AnWe.N c p) .r Cls.AnWe.methods Cls.AnWe.amp2 [] = _
  have s0 : AnWe.react.states 0 = 2 := by decide +kernel
  have s1 : AnWe.react.states 1 = 1 := by decide +kernel
  have sy : AnWe.react.symmetry = 1 := by decide
  have p0 : AnWe.react.spins 0 = {0, 1} := rfl
  have p1 : AnWe.react.spins 1 = {0, 1} := rfl
  have p2 : AnWe.react.spins 2 = Finset.univ := rfl
  have p3 : AnWe.react.spins 3 = {0, 1} := rfl
  have E0 : AnWe.react.codeE c p 0 = lightE (legA (p 0) 0 0, legS (p 0) 0 1) := rfl
  have E2 : AnWe.react.codeE c p 2 = AnWe.react.codeVec c p 2 := rfl
  have hG : AnWe.react.Gauge c p := (AnWe.react.gauge_line he ht hB hh (by decide) (fun n => onShell_msq (hs n)) hb hr (fun _ _ _ _ => hWW) (fun _ => ⟨rfl, rfl⟩) (fun h => absurd h (by decide)))
  have lc : AnWe.react.lineColours 3 1 = 1 := by decide +kernel
  rw [AnWe.value, AnWe.react.squared_line he ht hB (by decide) hs h0 (fun _ b _ hb _ => (boson_pos hc hh hb).ne') hG (E := AnWe.react.codeE c p) (fun n b hl => AnWe.react.codeE_polarised hs h0 hu (fun b hb => (boson_pos hc hh hb).ne') n b hl) hu, sum_colours, lc, s0, s1, sy]
  simp only [sumV_sum, sumJ_sum, sumW_sum, am, p0, p1, p2, p3, E0, E2, Finset.sum_singleton, sum_two, Matrix.cons_val_zero, Matrix.cons_val_one, Matrix.cons_val, two_castSucc]
  simp only [Fin.sum_univ_two, Fin.castSucc_zero, Fin.castSucc_one, wP1, wM1, norm_zero]
  try simp only [← Finset.mul_sum]
  push_cast
  first | ring1 | ring_nf

/-! ### enAW -/

/-- what the methods of the class see -/
noncomputable abbrev enAW.N [FPEnv] (c : Constants) (p : Nat → V4 ℝ) : Env := enAW.proc.env (enAW.rho c) p
/-- the term that `amp` adds for a choice of spinors, for a photon of positive helicity (SM/enAW.cpp) -/
noncomputable def enAW.termP (N : Env) (w : ℝ) (x : ℂ) (j1 a3 b3 : Int) : ℂ :=
  (x + ((((((((-w) * N.r 5) : ℝ) : ℂ) * (((((N.r 1 : ℝ) : ℂ) * N.v 0 [a3]) * N.v 1 [j1]) - ((((N.r 2 : ℝ) : ℂ) * N.v 2 [a3]) * N.v 3 [j1]))) * ((((N.r 2 : ℝ) : ℂ) * N.v 0 [b3]) + N.v 4 [b3])) / N.c 0) / N.c 1))
/-- the same with spinors in place of their spins -/
noncomputable def enAW.formP (N : Env) (p : Nat → V4 ℝ) (z0 z1 z2 x3 y3 : Pair) : ℂ :=
  (0 + ((((((((-((1 : Nat) : ℝ)) * N.r 5) : ℝ) : ℂ) * (((((N.r 1 : ℝ) : ℂ) * (sb z2.2 x3.2)) * (ab z0.1 z1.1)) - ((((N.r 2 : ℝ) : ℂ) * (ab z1.1 x3.1)) * (sb z0.2 z2.2)))) * ((((N.r 2 : ℝ) : ℂ) * (sb z2.2 y3.2)) + (mb z2.2 (p 0) y3.1))) / N.c 0) / N.c 1))
/-- the term that `amp` adds for a choice of spinors, for a photon of negative helicity (SM/enAW.cpp) -/
noncomputable def enAW.termM (N : Env) (w : ℝ) (x : ℂ) (j1 a3 b3 : Int) : ℂ :=
  (x + ((((((((w * N.r 5) : ℝ) : ℂ) * N.v 5 []) * N.v 6 [j1, a3]) * (((((N.r 1 * N.r 1) : ℝ) : ℂ) * N.v 7 [b3]) + (((N.r 2 : ℝ) : ℂ) * N.v 8 [b3]))) / N.c 0) / N.c 1))
/-- the same with spinors in place of their spins -/
noncomputable def enAW.formM (N : Env) (p : Nat → V4 ℝ) (z0 z1 z2 x3 y3 : Pair) : ℂ :=
  (0 + ((((((((((1 : Nat) : ℝ) * N.r 5) : ℝ) : ℂ) * (ab z1.1 z2.1)) * (sb z0.2 x3.2)) * (((((N.r 1 * N.r 1) : ℝ) : ℂ) * (ab z2.1 y3.1)) + (((N.r 2 : ℝ) : ℂ) * (mb y3.2 (p 0) z2.1)))) / N.c 0) / N.c 1))
theorem enAW.keyP {c : Constants} {p : Nat → V4 ℝ} {N : Env} (hc : c.Physical) (hb : Balanced p) (r1 : N.r 1 = (c.mass .e)) (r2 : N.r 2 = c.MW) (r5 : N.r 5 = (((√(((2 : Nat) : ℝ)) * c.e) * c.e) / (c.MW * c.SW))) (d0 : pole c.MW c.WW (plus (backward (p 2)) (backward (p 3))) = N.c 0) (n0 : N.c 0 ≠ 0) (d1 : ((msq (plus (p 1) (backward (p 3))) - c.mass .e ^ 2 : ℝ) : ℂ) = N.c 1) (n1 : N.c 1 ≠ 0) {z0 z1 z2 z3 : Pair} (b0 : Bold (p 0) (c.mass .e) z0) (b1 : Bold (p 1) (c.mass .ne) z1) (b3 : Bold (p 3) c.MW z3) (l2 : Light (p 2) z2) (e20 : mb z2.2 (p 0) z2.1 = -N.c 1) (e23 : mb z2.2 (p 3) z2.1 = N.c 0) (q0 : msq (p 0) = (c.mass .e) ^ 2) (q1 : msq (p 1) = (c.mass .ne) ^ 2) (q3 : msq (p 3) = c.MW ^ 2) (ρ2 : V2) :
    enAW.formP N p z0 z1 z2 z3 z3 * ab ρ2 z2.1 = ((√2 : ℝ) * ((-1 : ℂ) * ((√2 / c.MW : ℝ) : ℂ))) * enAW.react.bare c p 0 1 2 3 z0 z1 (pv ρ2 z2.2) (pv z3.1 z3.2) := by
  rw [enAW.react.bare_parts c p (i := 0) (j := 1) (a := 2) (b := 3) (x := .photon) (y := .wMinus) (k := (backward (p 2))) (k' := (backward (p 3))) (fun _ => rfl) (fun _ => rfl) (f := .ne) (g := .e) rfl rfl (l := (p 1)) rfl (e := -1) (e' := 1) (if_pos rfl) (if_neg Bool.false_ne_true)]
  rw [compton_vv (f := .ne) (x := .ne) (g := .e) (h := (rfl : Spec.after .photon Flavour.ne = some Flavour.ne)) (h' := (rfl : Spec.after .wMinus Flavour.ne = some Flavour.e)) (ha := by simp) (hb := by simp)]
  rw [compton_vv (f := .ne) (x := .e) (g := .e) (h := (rfl : Spec.after .wMinus Flavour.ne = some Flavour.e)) (h' := (rfl : Spec.after .photon Flavour.e = some Flavour.e)) (ha := by simp) (hb := by simp)]
  have an := annihilation_charged c (-1) (1) z0.1 z0.2 z1.1 z1.2 ⟨.photon, (backward (p 2)), pv ρ2 z2.2⟩ ⟨.wMinus, (backward (p 3)), pv z3.1 z3.2⟩ (f := .ne) (g := .e) (x := .wMinus) (by simp) rfl
  dsimp only at an
  rw [an, enAW.formP]
  clear an
  rw [lineV_massive (hx := (rfl : Boson.massive .wMinus = true))]
  have T2 := mb_back_zero (l2.mb_plus ρ2)
  have T3 := mb_back_zero (b3.mb_zero')
  have Q2 := l2.msq_zero
  have kL : c.hL .ne .photon = 0 := by simp [Constants.hL, Flavour.charge_ne]
  have kR : c.hR .ne .photon = 0 := by simp [Constants.hR, Flavour.charge_ne]
  have hne : c.mass .ne = 0 := hc.neutrino _
  simp only [kL, kR, Complex.ofReal_zero, zero_mul, mul_zero, zero_div, sub_zero, add_zero, zero_add, sub_self]
  simp only [toVector, gauge3, Boson.anti, Constants.bosonMass, Constants.bosonWidth, reduceCtorEq, and_self, and_true, and_false, if_true, if_false, lineV_smul, contract_smul, lineV_transverse T2 T3, four_transverse T2 T3, msq_backward, q3, Q2]
  simp only [d0, d1, lineV_pv, lineV_four, contract_four_pv, contract_pv, mb_plus, mb_backward]
  have i0 := mb_schouten_left z0.2 z2.2 z3.2 (p 0) z1.1
  have i1 := mb_schouten_right z2.2 (p 1) z1.1 z2.1 ρ2
  have i2 := mb_schouten_right z2.2 (p 1) z1.1 z3.1 ρ2
  have i3 := mb_schouten_right z2.2 (p 1) z1.1 z2.1 z3.1
  have i4 := ab_schouten z2.1 z3.1 ρ2 z1.1
  have i5 := mb_schouten_right z2.2 (p 1) z0.1 z1.1 z2.1
  have i6 := mb_schouten_right z2.2 (p 1) z0.1 z1.1 z3.1
  have i7 := mb_schouten_right z2.2 (p 1) z0.1 z1.1 ρ2
  have i8 := mb_schouten_right z2.2 (p 0) z1.1 z2.1 z3.1
  have i9 := mb_schouten_right z3.2 (p 0) z1.1 z3.1 ρ2
  have i10 := ab_schouten z1.1 z3.1 ρ2 z0.1
  have i11 := mb_schouten_right z2.2 (p 0) z1.1 z3.1 ρ2
  have i12 := mb_schouten_left z0.2 z2.2 z3.2 (p 0) z3.1
  simp only [l2.mb_eq, b0.mb_left, b0.mb_right, b1.mb_left, b1.mb_right, b3.mb_left, b3.mb_right, e20, e23, mb_three hb z0.2 z0.1, mb_three hb z0.2 z1.1, mb_three hb z0.2 z2.1, mb_one hb z0.2 z3.1, mb_three hb z0.2 ρ2, mb_three hb z1.2 z0.1, mb_three hb z1.2 z1.1, mb_three hb z1.2 z2.1, mb_nought hb z1.2 z3.1, mb_three hb z1.2 ρ2, mb_three hb z2.2 z0.1, mb_three hb z2.2 z1.1, mb_one hb z2.2 z2.1, mb_one hb z2.2 z3.1, mb_three hb z2.2 ρ2, mb_one hb z3.2 z0.1, mb_nought hb z3.2 z1.1, mb_one hb z3.2 z2.1, mb_one hb z3.2 z3.1, mb_one hb z3.2 ρ2, ab_self, sb_self] at i0 i1 i2 i3 i4 i5 i6 i7 i8 i9 i10 i11 i12 ⊢
  simp only [ab_swap z0.1 z1.1, ab_swap z0.1 z2.1, ab_swap z0.1 z3.1, ab_swap z0.1 ρ2, ab_swap z1.1 z2.1, ab_swap z1.1 z3.1, ab_swap z1.1 ρ2, ab_swap z2.1 z3.1, ab_swap z2.1 ρ2, ab_swap z3.1 ρ2, sb_swap z0.2 z1.2, sb_swap z0.2 z2.2, sb_swap z0.2 z3.2, sb_swap z1.2 z2.2, sb_swap z1.2 z3.2, sb_swap z2.2 z3.2] at i0 i1 i2 i3 i4 i5 i6 i7 i8 i9 i10 i11 i12 ⊢
  simp only [r1, r2, r5, Constants.hL, Constants.hR, Constants.gL, Constants.gR, Constants.yuk, Constants.invVev, Flavour.charge_e, Flavour.isospin_e, Flavour.charge_ne, Flavour.isospin_ne, hne, ← c.mz]
  have xMW : (c.MW : ℂ) ≠ 0 := by exact_mod_cast hc.MW
  have xSW : (c.SW : ℂ) ≠ 0 := by exact_mod_cast hc.SW
  have xCW : (c.CW : ℂ) ≠ 0 := by exact_mod_cast hc.CW
  have x2 : ((√2 : ℝ) : ℂ) ≠ 0 := by exact_mod_cast (Real.sqrt_pos.2 two_pos).ne'
  have x22 : ((√2 : ℝ) : ℂ) ^ 2 = 2 := by rw [← Complex.ofReal_pow, Real.sq_sqrt two_pos.le]; norm_num
  have x23 : ((√2 : ℝ) : ℂ) ^ 3 = 2 * ((√2 : ℝ) : ℂ) := by rw [← x22]; ring
  have x24 : ((√2 : ℝ) : ℂ) ^ 4 = 4 := by linear_combination (((√2 : ℝ) : ℂ) ^ 2 + 2) * x22
  try simp only [hne] at i0 i1 i2 i3 i4 i5 i6 i7 i8 i9 i10 i11 i12
  push_cast at i0 i1 i2 i3 i4 i5 i6 i7 i8 i9 i10 i11 i12 ⊢
  have y0 := mul_inv_cancel₀ n0
  have y1 := mul_inv_cancel₀ n1
  have yMW := mul_inv_cancel₀ xMW
  have yR2 : ((√2 : ℝ) : ℂ)⁻¹ = ((√2 : ℝ) : ℂ) / 2 := by rw [inv_eq_iff_eq_inv, inv_div, eq_div_iff x2, ← x22]; ring
  linear_combination ((((-1) * (((√2 : ℝ) : ℂ)) * ((c.e : ℂ)) ^ 2 * (N.c 1) * (ab z3.1 ρ2) + (-1) * (((√2 : ℝ) : ℂ)) * ((c.e : ℂ)) ^ 2 * (ab z2.1 z3.1) * (mb z2.2 (p 1) ρ2)) * i0 + ((1) * (((√2 : ℝ) : ℂ)) * ((c.e : ℂ)) ^ 2 * (ab z2.1 z3.1) * (sb z0.2 z2.2) * (sb z2.2 z3.2) + (1) * (((√2 : ℝ) : ℂ)) * ((c.e : ℂ)) ^ 2 * (mb z2.2 (p 0) z3.1) * (sb z0.2 z3.2)) * i1 + ((-1) * ((c.MW : ℂ)) * (((√2 : ℝ) : ℂ)) * ((c.e : ℂ)) ^ 2 * (ab z2.1 z3.1) * (sb z0.2 z2.2)) * i2 + ((1) * ((c.MW : ℂ)) * (((√2 : ℝ) : ℂ)) * ((c.e : ℂ)) ^ 2 * (ab z3.1 ρ2) * (sb z0.2 z2.2)) * i3 + ((1) * ((c.MW : ℂ)) * (((√2 : ℝ) : ℂ)) * ((c.e : ℂ)) ^ 2 * (mb z2.2 (p 0) z3.1) * (sb z0.2 z2.2) + (1) * ((c.MW : ℂ)) ^ 2 * (((√2 : ℝ) : ℂ)) * ((c.e : ℂ)) ^ 2 * (sb z0.2 z2.2) * (sb z2.2 z3.2) + (-1) * (((√2 : ℝ) : ℂ)) * ((c.e : ℂ)) ^ 2 * ((c.mass .e : ℂ)) * (mb z2.2 (p 1) z0.1) * (sb z2.2 z3.2) + (1) * (((√2 : ℝ) : ℂ)) * ((c.e : ℂ)) ^ 2 * (N.c 0) * (sb z0.2 z2.2) * (sb z2.2 z3.2)) * i4 + ((1) * (((√2 : ℝ) : ℂ)) * ((c.e : ℂ)) ^ 2 * ((c.mass .e : ℂ)) * (ab z3.1 ρ2) * (sb z2.2 z3.2)) * i5 + ((-1) * (((√2 : ℝ) : ℂ)) * ((c.e : ℂ)) ^ 2 * ((c.mass .e : ℂ)) * (ab z2.1 ρ2) * (sb z2.2 z3.2)) * i6 + ((1) * (((√2 : ℝ) : ℂ)) * ((c.e : ℂ)) ^ 2 * ((c.mass .e : ℂ)) * (ab z2.1 z3.1) * (sb z2.2 z3.2)) * i7 + ((-1) * (((√2 : ℝ) : ℂ)) * ((c.e : ℂ)) ^ 2 * (mb z2.2 (p 1) ρ2) * (sb z0.2 z3.2)) * i8 + ((-1) * (((√2 : ℝ) : ℂ)) * ((c.e : ℂ)) ^ 2 * (N.c 0) * (sb z0.2 z2.2)) * i9 + ((-1) * (((√2 : ℝ) : ℂ)) * ((c.e : ℂ)) ^ 2 * ((c.mass .e : ℂ)) * (N.c 0) * (sb z2.2 z3.2)) * i10 + ((-1) * (((√2 : ℝ) : ℂ)) * ((c.e : ℂ)) ^ 2 * (N.c 1) * (sb z0.2 z3.2)) * i11 + ((-1) * (((√2 : ℝ) : ℂ)) * ((c.e : ℂ)) ^ 2 * (N.c 0) * (ab z1.1 ρ2)) * i12)) * ((1) * ((c.MW : ℂ)⁻¹) * ((c.SW : ℂ)⁻¹) * ((N.c 0)⁻¹) * ((N.c 1)⁻¹)) + ((1) * (((√2 : ℝ) : ℂ)) * ((c.e : ℂ)) ^ 2 * ((c.MW : ℂ)⁻¹) * ((c.SW : ℂ)⁻¹) * ((c.mass .e : ℂ)) * ((N.c 1)⁻¹) * (ab z0.1 ρ2) * (ab z1.1 z3.1) * (sb z2.2 z3.2) + (1) * (((√2 : ℝ) : ℂ)) * ((c.e : ℂ)) ^ 2 * ((c.MW : ℂ)⁻¹) * ((c.SW : ℂ)⁻¹) * ((N.c 1)⁻¹) * (ab z1.1 z3.1) * (ab z2.1 ρ2) * (sb z0.2 z2.2) * (sb z2.2 z3.2) + (1) * (((√2 : ℝ) : ℂ)) * ((c.e : ℂ)) ^ 2 * ((c.MW : ℂ)⁻¹) * ((c.SW : ℂ)⁻¹) * ((N.c 1)⁻¹) * (ab z1.1 z3.1) * (mb z3.2 (p 0) ρ2) * (sb z0.2 z2.2)) * y0 + ((1) * (((√2 : ℝ) : ℂ)) * ((c.e : ℂ)) ^ 2 * ((c.MW : ℂ)⁻¹) * ((c.SW : ℂ)⁻¹) * ((N.c 0)⁻¹) * (ab z1.1 z2.1) * (ab z3.1 ρ2) * (sb z0.2 z2.2) * (sb z2.2 z3.2) + (1) * (((√2 : ℝ) : ℂ)) * ((c.e : ℂ)) ^ 2 * ((c.MW : ℂ)⁻¹) * ((c.SW : ℂ)⁻¹) * ((N.c 0)⁻¹) * (ab z1.1 z3.1) * (mb z2.2 (p 0) ρ2) * (sb z0.2 z3.2) + (1) * (((√2 : ℝ) : ℂ)) * ((c.e : ℂ)) ^ 2 * ((c.MW : ℂ)⁻¹) * ((c.SW : ℂ)⁻¹) * ((N.c 0)⁻¹) * (ab z1.1 z3.1) * (mb z2.2 (p 1) ρ2) * (sb z0.2 z3.2) + (1) * (((√2 : ℝ) : ℂ)) * ((c.e : ℂ)) ^ 2 * ((c.MW : ℂ)⁻¹) * ((c.SW : ℂ)⁻¹) * ((N.c 0)⁻¹) * (ab z1.1 ρ2) * (ab z2.1 z3.1) * (sb z0.2 z2.2) * (sb z2.2 z3.2)) * y1 + ((1) * ((c.MW : ℂ)) * (((√2 : ℝ) : ℂ)) ^ 2 * ((c.e : ℂ)) ^ 2 * ((c.MW : ℂ)⁻¹) ^ 2 * (((√2 : ℝ) : ℂ)⁻¹) * ((c.SW : ℂ)⁻¹) * ((c.mass .e : ℂ)) * ((N.c 0)⁻¹) * (ab z0.1 z1.1) * (ab z3.1 ρ2) * (sb z2.2 z3.2) / (2) + (1) * (((√2 : ℝ) : ℂ)) ^ 2 * ((c.e : ℂ)) ^ 2 * ((c.MW : ℂ)⁻¹) * (((√2 : ℝ) : ℂ)⁻¹) * ((c.SW : ℂ)⁻¹) * ((c.mass .e : ℂ)) * ((N.c 0)⁻¹) * (ab z0.1 z1.1) * (ab z3.1 ρ2) * (sb z2.2 z3.2) / (2)) * yMW + ((-1) * (((√2 : ℝ) : ℂ)) ^ 2 * ((c.e : ℂ)) ^ 2 * ((c.MW : ℂ)⁻¹) * ((c.SW : ℂ)⁻¹) * ((c.mass .e : ℂ)) * ((N.c 1)⁻¹) * (ab z0.1 ρ2) * (ab z1.1 z3.1) * (sb z2.2 z3.2) + (-1) * (((√2 : ℝ) : ℂ)) ^ 2 * ((c.e : ℂ)) ^ 2 * ((c.MW : ℂ)⁻¹) * ((c.SW : ℂ)⁻¹) * ((N.c 0)⁻¹) * (ab z1.1 z2.1) * (ab z3.1 ρ2) * (sb z0.2 z2.2) * (sb z2.2 z3.2) + (-1) * (((√2 : ℝ) : ℂ)) ^ 2 * ((c.e : ℂ)) ^ 2 * ((c.MW : ℂ)⁻¹) * ((c.SW : ℂ)⁻¹) * ((N.c 0)⁻¹) * (ab z1.1 z3.1) * (mb z2.2 (p 0) ρ2) * (sb z0.2 z3.2) + (-1) * (((√2 : ℝ) : ℂ)) ^ 2 * ((c.e : ℂ)) ^ 2 * ((c.MW : ℂ)⁻¹) * ((c.SW : ℂ)⁻¹) * ((N.c 0)⁻¹) * (ab z1.1 z3.1) * (mb z2.2 (p 1) ρ2) * (sb z0.2 z3.2) + (-1) * (((√2 : ℝ) : ℂ)) ^ 2 * ((c.e : ℂ)) ^ 2 * ((c.MW : ℂ)⁻¹) * ((c.SW : ℂ)⁻¹) * ((N.c 0)⁻¹) * (ab z1.1 ρ2) * (ab z2.1 z3.1) * (sb z0.2 z2.2) * (sb z2.2 z3.2) + (-1) * (((√2 : ℝ) : ℂ)) ^ 2 * ((c.e : ℂ)) ^ 2 * ((c.MW : ℂ)⁻¹) * ((c.SW : ℂ)⁻¹) * ((N.c 1)⁻¹) * (ab z1.1 z3.1) * (ab z2.1 ρ2) * (sb z0.2 z2.2) * (sb z2.2 z3.2) + (-1) * (((√2 : ℝ) : ℂ)) ^ 2 * ((c.e : ℂ)) ^ 2 * ((c.MW : ℂ)⁻¹) * ((c.SW : ℂ)⁻¹) * ((N.c 1)⁻¹) * (ab z1.1 z3.1) * (mb z3.2 (p 0) ρ2) * (sb z0.2 z2.2)) * yR2 + ((-1) * (((√2 : ℝ) : ℂ)) * ((c.e : ℂ)) ^ 2 * ((c.MW : ℂ)⁻¹) * ((c.SW : ℂ)⁻¹) * ((c.mass .e : ℂ)) * ((N.c 1)⁻¹) * (ab z0.1 ρ2) * (ab z1.1 z3.1) * (sb z2.2 z3.2) / (2) + (-1) * (((√2 : ℝ) : ℂ)) * ((c.e : ℂ)) ^ 2 * ((c.MW : ℂ)⁻¹) * ((c.SW : ℂ)⁻¹) * ((N.c 0)⁻¹) * (ab z1.1 z2.1) * (ab z3.1 ρ2) * (sb z0.2 z2.2) * (sb z2.2 z3.2) / (2) + (-1) * (((√2 : ℝ) : ℂ)) * ((c.e : ℂ)) ^ 2 * ((c.MW : ℂ)⁻¹) * ((c.SW : ℂ)⁻¹) * ((N.c 0)⁻¹) * (ab z1.1 z3.1) * (mb z2.2 (p 0) ρ2) * (sb z0.2 z3.2) / (2) + (-1) * (((√2 : ℝ) : ℂ)) * ((c.e : ℂ)) ^ 2 * ((c.MW : ℂ)⁻¹) * ((c.SW : ℂ)⁻¹) * ((N.c 0)⁻¹) * (ab z1.1 z3.1) * (mb z2.2 (p 1) ρ2) * (sb z0.2 z3.2) / (2) + (-1) * (((√2 : ℝ) : ℂ)) * ((c.e : ℂ)) ^ 2 * ((c.MW : ℂ)⁻¹) * ((c.SW : ℂ)⁻¹) * ((N.c 0)⁻¹) * (ab z1.1 ρ2) * (ab z2.1 z3.1) * (sb z0.2 z2.2) * (sb z2.2 z3.2) / (2) + (-1) * (((√2 : ℝ) : ℂ)) * ((c.e : ℂ)) ^ 2 * ((c.MW : ℂ)⁻¹) * ((c.SW : ℂ)⁻¹) * ((N.c 1)⁻¹) * (ab z1.1 z3.1) * (ab z2.1 ρ2) * (sb z0.2 z2.2) * (sb z2.2 z3.2) / (2) + (-1) * (((√2 : ℝ) : ℂ)) * ((c.e : ℂ)) ^ 2 * ((c.MW : ℂ)⁻¹) * ((c.SW : ℂ)⁻¹) * ((N.c 1)⁻¹) * (ab z1.1 z3.1) * (mb z3.2 (p 0) ρ2) * (sb z0.2 z2.2) / (2)) * x22
theorem enAW.keyM {c : Constants} {p : Nat → V4 ℝ} {N : Env} (hc : c.Physical) (hb : Balanced p) (r1 : N.r 1 = (c.mass .e)) (r2 : N.r 2 = c.MW) (r5 : N.r 5 = (((√(((2 : Nat) : ℝ)) * c.e) * c.e) / (c.MW * c.SW))) (d0 : pole c.MW c.WW (plus (backward (p 2)) (backward (p 3))) = N.c 0) (n0 : N.c 0 ≠ 0) (d1 : ((msq (plus (p 1) (backward (p 3))) - c.mass .e ^ 2 : ℝ) : ℂ) = N.c 1) (n1 : N.c 1 ≠ 0) {z0 z1 z2 z3 : Pair} (b0 : Bold (p 0) (c.mass .e) z0) (b1 : Bold (p 1) (c.mass .ne) z1) (b3 : Bold (p 3) c.MW z3) (l2 : Light (p 2) z2) (e20 : mb z2.2 (p 0) z2.1 = -N.c 1) (e23 : mb z2.2 (p 3) z2.1 = N.c 0) (q0 : msq (p 0) = (c.mass .e) ^ 2) (q1 : msq (p 1) = (c.mass .ne) ^ 2) (q3 : msq (p 3) = c.MW ^ 2) (ρ2 : V2) :
    enAW.formM N p z0 z1 z2 z3 z3 * sb ρ2 z2.2 = ((√2 : ℝ) * ((-1 : ℂ) * ((√2 / c.MW : ℝ) : ℂ))) * enAW.react.bare c p 0 1 2 3 z0 z1 (pv z2.1 ρ2) (pv z3.1 z3.2) := by
  rw [enAW.react.bare_parts c p (i := 0) (j := 1) (a := 2) (b := 3) (x := .photon) (y := .wMinus) (k := (backward (p 2))) (k' := (backward (p 3))) (fun _ => rfl) (fun _ => rfl) (f := .ne) (g := .e) rfl rfl (l := (p 1)) rfl (e := -1) (e' := 1) (if_pos rfl) (if_neg Bool.false_ne_true)]
  rw [compton_vv (f := .ne) (x := .ne) (g := .e) (h := (rfl : Spec.after .photon Flavour.ne = some Flavour.ne)) (h' := (rfl : Spec.after .wMinus Flavour.ne = some Flavour.e)) (ha := by simp) (hb := by simp)]
  rw [compton_vv (f := .ne) (x := .e) (g := .e) (h := (rfl : Spec.after .wMinus Flavour.ne = some Flavour.e)) (h' := (rfl : Spec.after .photon Flavour.e = some Flavour.e)) (ha := by simp) (hb := by simp)]
  have an := annihilation_charged c (-1) (1) z0.1 z0.2 z1.1 z1.2 ⟨.photon, (backward (p 2)), pv z2.1 ρ2⟩ ⟨.wMinus, (backward (p 3)), pv z3.1 z3.2⟩ (f := .ne) (g := .e) (x := .wMinus) (by simp) rfl
  dsimp only at an
  rw [an, enAW.formM]
  clear an
  rw [lineV_massive (hx := (rfl : Boson.massive .wMinus = true))]
  have T2 := mb_back_zero (l2.mb_minus ρ2)
  have T3 := mb_back_zero (b3.mb_zero')
  have Q2 := l2.msq_zero
  have kL : c.hL .ne .photon = 0 := by simp [Constants.hL, Flavour.charge_ne]
  have kR : c.hR .ne .photon = 0 := by simp [Constants.hR, Flavour.charge_ne]
  have hne : c.mass .ne = 0 := hc.neutrino _
  simp only [kL, kR, Complex.ofReal_zero, zero_mul, mul_zero, zero_div, sub_zero, add_zero, zero_add, sub_self]
  simp only [toVector, gauge3, Boson.anti, Constants.bosonMass, Constants.bosonWidth, reduceCtorEq, and_self, and_true, and_false, if_true, if_false, lineV_smul, contract_smul, lineV_transverse T2 T3, four_transverse T2 T3, msq_backward, q3, Q2]
  simp only [d0, d1, lineV_pv, lineV_four, contract_four_pv, contract_pv, mb_plus, mb_backward]
  have i0 := mb_schouten_left z0.2 z2.2 z3.2 (p 0) z2.1
  have i1 := mb_schouten_left z2.2 z3.2 ρ2 (p 0) z1.1
  have i2 := mb_schouten_right z2.2 (p 0) z0.1 z1.1 z2.1
  have i3 := mb_schouten_right z3.2 (p 0) z0.1 z1.1 z2.1
  have i4 := mb_schouten_left z0.2 z2.2 ρ2 (p 0) z1.1
  have i5 := mb_schouten_right z2.2 (p 1) z0.1 z2.1 z3.1
  have i6 := mb_schouten_right z2.2 (p 0) z0.1 z2.1 z3.1
  have i7 := mb_schouten_right z2.2 (p 1) z0.1 z1.1 z2.1
  have i8 := sb_schouten z2.2 z3.2 ρ2 z0.2
  have i9 := mb_schouten_right z2.2 (p 1) z1.1 z2.1 z3.1
  have i10 := mb_schouten_right z2.2 (p 0) z1.1 z2.1 z3.1
  have i11 := mb_schouten_right ρ2 (p 0) z0.1 z2.1 z3.1
  have i12 := mb_schouten_right ρ2 (p 0) z0.1 z1.1 z2.1
  have i13 := ab_schouten z1.1 z2.1 z3.1 z0.1
  have i14 := mb_schouten_right ρ2 (p 0) z1.1 z2.1 z3.1
  have i15 := mb_schouten_right ρ2 (p 1) z1.1 z2.1 z3.1
  simp only [l2.mb_eq, b0.mb_left, b0.mb_right, b1.mb_left, b1.mb_right, b3.mb_left, b3.mb_right, e20, e23, mb_three hb z0.2 z0.1, mb_three hb z0.2 z1.1, mb_three hb z0.2 z2.1, mb_one hb z0.2 z3.1, mb_three hb z1.2 z0.1, mb_three hb z1.2 z1.1, mb_three hb z1.2 z2.1, mb_nought hb z1.2 z3.1, mb_three hb z2.2 z0.1, mb_three hb z2.2 z1.1, mb_one hb z2.2 z2.1, mb_one hb z2.2 z3.1, mb_one hb z3.2 z0.1, mb_nought hb z3.2 z1.1, mb_one hb z3.2 z2.1, mb_one hb z3.2 z3.1, mb_three hb ρ2 z0.1, mb_three hb ρ2 z1.1, mb_three hb ρ2 z2.1, mb_one hb ρ2 z3.1, ab_self, sb_self] at i0 i1 i2 i3 i4 i5 i6 i7 i8 i9 i10 i11 i12 i13 i14 i15 ⊢
  simp only [ab_swap z0.1 z1.1, ab_swap z0.1 z2.1, ab_swap z0.1 z3.1, ab_swap z1.1 z2.1, ab_swap z1.1 z3.1, ab_swap z2.1 z3.1, sb_swap z0.2 z1.2, sb_swap z0.2 z2.2, sb_swap z0.2 z3.2, sb_swap z0.2 ρ2, sb_swap z1.2 z2.2, sb_swap z1.2 z3.2, sb_swap z1.2 ρ2, sb_swap z2.2 z3.2, sb_swap z2.2 ρ2, sb_swap z3.2 ρ2] at i0 i1 i2 i3 i4 i5 i6 i7 i8 i9 i10 i11 i12 i13 i14 i15 ⊢
  simp only [r1, r2, r5, Constants.hL, Constants.hR, Constants.gL, Constants.gR, Constants.yuk, Constants.invVev, Flavour.charge_e, Flavour.isospin_e, Flavour.charge_ne, Flavour.isospin_ne, hne, ← c.mz]
  have xMW : (c.MW : ℂ) ≠ 0 := by exact_mod_cast hc.MW
  have xSW : (c.SW : ℂ) ≠ 0 := by exact_mod_cast hc.SW
  have xCW : (c.CW : ℂ) ≠ 0 := by exact_mod_cast hc.CW
  have x2 : ((√2 : ℝ) : ℂ) ≠ 0 := by exact_mod_cast (Real.sqrt_pos.2 two_pos).ne'
  have x22 : ((√2 : ℝ) : ℂ) ^ 2 = 2 := by rw [← Complex.ofReal_pow, Real.sq_sqrt two_pos.le]; norm_num
  have x23 : ((√2 : ℝ) : ℂ) ^ 3 = 2 * ((√2 : ℝ) : ℂ) := by rw [← x22]; ring
  have x24 : ((√2 : ℝ) : ℂ) ^ 4 = 4 := by linear_combination (((√2 : ℝ) : ℂ) ^ 2 + 2) * x22
  try simp only [hne] at i0 i1 i2 i3 i4 i5 i6 i7 i8 i9 i10 i11 i12 i13 i14 i15
  push_cast at i0 i1 i2 i3 i4 i5 i6 i7 i8 i9 i10 i11 i12 i13 i14 i15 ⊢
  have y0 := mul_inv_cancel₀ n0
  have y1 := mul_inv_cancel₀ n1
  have yMW := mul_inv_cancel₀ xMW
  have yR2 : ((√2 : ℝ) : ℂ)⁻¹ = ((√2 : ℝ) : ℂ) / 2 := by rw [inv_eq_iff_eq_inv, inv_div, eq_div_iff x2, ← x22]; ring
  linear_combination ((((-1) * ((c.MW : ℂ)) * (((√2 : ℝ) : ℂ)) * ((c.e : ℂ)) ^ 2 * (ab z1.1 z2.1) * (sb z3.2 ρ2) + (1) * (((√2 : ℝ) : ℂ)) * ((c.e : ℂ)) ^ 2 * (ab z1.1 z2.1) * (mb ρ2 (p 0) z3.1) + (-1) * (((√2 : ℝ) : ℂ)) * ((c.e : ℂ)) ^ 2 * (ab z1.1 z3.1) * (mb ρ2 (p 0) z2.1)) * i0 + ((1) * (((√2 : ℝ) : ℂ)) * ((c.e : ℂ)) ^ 2 * ((c.mass .e : ℂ)) * (ab z0.1 z2.1) * (ab z2.1 z3.1)) * i1 + ((1) * (((√2 : ℝ) : ℂ)) * ((c.e : ℂ)) ^ 2 * ((c.mass .e : ℂ)) * (ab z2.1 z3.1) * (sb z3.2 ρ2)) * i2 + ((-1) * (((√2 : ℝ) : ℂ)) * ((c.e : ℂ)) ^ 2 * ((c.mass .e : ℂ)) * (ab z2.1 z3.1) * (sb z2.2 ρ2)) * i3 + ((1) * (((√2 : ℝ) : ℂ)) * ((c.e : ℂ)) ^ 2 * (ab z2.1 z3.1) * (mb z3.2 (p 0) z2.1)) * i4 + ((-1) * (((√2 : ℝ) : ℂ)) * ((c.e : ℂ)) ^ 2 * ((c.mass .e : ℂ)) * (ab z1.1 z2.1) * (sb z3.2 ρ2)) * i5 + ((-1) * (((√2 : ℝ) : ℂ)) * ((c.e : ℂ)) ^ 2 * ((c.mass .e : ℂ)) * (ab z1.1 z2.1) * (sb z3.2 ρ2)) * i6 + ((1) * (((√2 : ℝ) : ℂ)) * ((c.e : ℂ)) ^ 2 * ((c.mass .e : ℂ)) * (ab z2.1 z3.1) * (sb z3.2 ρ2)) * i7 + ((1) * ((c.MW : ℂ)) * (((√2 : ℝ) : ℂ)) * ((c.e : ℂ)) ^ 2 * (ab z1.1 z2.1) * (mb z3.2 (p 0) z2.1) + (-1) * (((√2 : ℝ) : ℂ)) * ((c.e : ℂ)) ^ 2 * (N.c 1) * (ab z1.1 z2.1) * (ab z2.1 z3.1)) * i8 + ((1) * (((√2 : ℝ) : ℂ)) * ((c.e : ℂ)) ^ 2 * (mb z3.2 (p 0) z2.1) * (sb z0.2 ρ2)) * i9 + ((1) * (((√2 : ℝ) : ℂ)) * ((c.e : ℂ)) ^ 2 * (mb z3.2 (p 0) z2.1) * (sb z0.2 ρ2)) * i10 + ((-1) * (((√2 : ℝ) : ℂ)) * ((c.e : ℂ)) ^ 2 * ((c.mass .e : ℂ)) * (ab z1.1 z2.1) * (sb z2.2 z3.2)) * i11 + ((1) * (((√2 : ℝ) : ℂ)) * ((c.e : ℂ)) ^ 2 * ((c.mass .e : ℂ)) * (ab z2.1 z3.1) * (sb z2.2 z3.2)) * i12 + ((-1) * (((√2 : ℝ) : ℂ)) * ((c.e : ℂ)) ^ 2 * ((c.mass .e : ℂ)) * (N.c 0) * (sb z3.2 ρ2) + (-1) * (((√2 : ℝ) : ℂ)) * ((c.e : ℂ)) ^ 2 * ((c.mass .e : ℂ)) * (mb ρ2 (p 0) z2.1) * (sb z2.2 z3.2)) * i13 + ((-1) * (((√2 : ℝ) : ℂ)) * ((c.e : ℂ)) ^ 2 * (mb z3.2 (p 0) z2.1) * (sb z0.2 z2.2)) * i14 + ((1) * (((√2 : ℝ) : ℂ)) * ((c.e : ℂ)) ^ 2 * (N.c 1) * (sb z0.2 z3.2)) * i15)) * ((1) * ((c.MW : ℂ)⁻¹) * ((c.SW : ℂ)⁻¹) * ((N.c 0)⁻¹) * ((N.c 1)⁻¹)) + ((-1) * (((√2 : ℝ) : ℂ)) * ((c.e : ℂ)) ^ 2 * ((c.MW : ℂ)⁻¹) * ((c.SW : ℂ)⁻¹) * ((c.mass .e : ℂ)) * ((N.c 1)⁻¹) * (ab z0.1 z2.1) * (ab z1.1 z3.1) * (sb z3.2 ρ2) + (1) * (((√2 : ℝ) : ℂ)) * ((c.e : ℂ)) ^ 2 * ((c.MW : ℂ)⁻¹) * ((c.SW : ℂ)⁻¹) * ((N.c 1)⁻¹) * (ab z1.1 z3.1) * (mb z3.2 (p 0) z2.1) * (sb z0.2 ρ2)) * y0 + ((1) * (((√2 : ℝ) : ℂ)) * ((c.e : ℂ)) ^ 2 * ((c.MW : ℂ)⁻¹) * ((c.SW : ℂ)⁻¹) * ((N.c 0)⁻¹) * (ab z1.1 z2.1) * (ab z2.1 z3.1) * (sb z0.2 z2.2) * (sb z3.2 ρ2) + (1) * (((√2 : ℝ) : ℂ)) * ((c.e : ℂ)) ^ 2 * ((c.MW : ℂ)⁻¹) * ((c.SW : ℂ)⁻¹) * ((N.c 0)⁻¹) * (ab z1.1 z2.1) * (ab z2.1 z3.1) * (sb z0.2 ρ2) * (sb z2.2 z3.2) + (1) * (((√2 : ℝ) : ℂ)) * ((c.e : ℂ)) ^ 2 * ((c.MW : ℂ)⁻¹) * ((c.SW : ℂ)⁻¹) * ((N.c 0)⁻¹) * (ab z1.1 z3.1) * (mb ρ2 (p 0) z2.1) * (sb z0.2 z3.2) + (1) * (((√2 : ℝ) : ℂ)) * ((c.e : ℂ)) ^ 2 * ((c.MW : ℂ)⁻¹) * ((c.SW : ℂ)⁻¹) * ((N.c 0)⁻¹) * (ab z1.1 z3.1) * (mb ρ2 (p 1) z2.1) * (sb z0.2 z3.2)) * y1 + ((1) * ((c.MW : ℂ)) * (((√2 : ℝ) : ℂ)) ^ 2 * ((c.e : ℂ)) ^ 2 * ((c.MW : ℂ)⁻¹) ^ 2 * (((√2 : ℝ) : ℂ)⁻¹) * ((c.SW : ℂ)⁻¹) * ((c.mass .e : ℂ)) * ((N.c 0)⁻¹) * (ab z0.1 z1.1) * (ab z2.1 z3.1) * (sb z3.2 ρ2) / (2) + (1) * (((√2 : ℝ) : ℂ)) ^ 2 * ((c.e : ℂ)) ^ 2 * ((c.MW : ℂ)⁻¹) * (((√2 : ℝ) : ℂ)⁻¹) * ((c.SW : ℂ)⁻¹) * ((c.mass .e : ℂ)) * ((N.c 0)⁻¹) * (ab z0.1 z1.1) * (ab z2.1 z3.1) * (sb z3.2 ρ2) / (2)) * yMW + ((1) * (((√2 : ℝ) : ℂ)) ^ 2 * ((c.e : ℂ)) ^ 2 * ((c.MW : ℂ)⁻¹) * ((c.SW : ℂ)⁻¹) * ((c.mass .e : ℂ)) * ((N.c 1)⁻¹) * (ab z0.1 z2.1) * (ab z1.1 z3.1) * (sb z3.2 ρ2) + (-1) * (((√2 : ℝ) : ℂ)) ^ 2 * ((c.e : ℂ)) ^ 2 * ((c.MW : ℂ)⁻¹) * ((c.SW : ℂ)⁻¹) * ((N.c 0)⁻¹) * (ab z1.1 z2.1) * (ab z2.1 z3.1) * (sb z0.2 z2.2) * (sb z3.2 ρ2) + (-1) * (((√2 : ℝ) : ℂ)) ^ 2 * ((c.e : ℂ)) ^ 2 * ((c.MW : ℂ)⁻¹) * ((c.SW : ℂ)⁻¹) * ((N.c 0)⁻¹) * (ab z1.1 z2.1) * (ab z2.1 z3.1) * (sb z0.2 ρ2) * (sb z2.2 z3.2) + (-1) * (((√2 : ℝ) : ℂ)) ^ 2 * ((c.e : ℂ)) ^ 2 * ((c.MW : ℂ)⁻¹) * ((c.SW : ℂ)⁻¹) * ((N.c 0)⁻¹) * (ab z1.1 z3.1) * (mb ρ2 (p 0) z2.1) * (sb z0.2 z3.2) + (-1) * (((√2 : ℝ) : ℂ)) ^ 2 * ((c.e : ℂ)) ^ 2 * ((c.MW : ℂ)⁻¹) * ((c.SW : ℂ)⁻¹) * ((N.c 0)⁻¹) * (ab z1.1 z3.1) * (mb ρ2 (p 1) z2.1) * (sb z0.2 z3.2) + (-1) * (((√2 : ℝ) : ℂ)) ^ 2 * ((c.e : ℂ)) ^ 2 * ((c.MW : ℂ)⁻¹) * ((c.SW : ℂ)⁻¹) * ((N.c 1)⁻¹) * (ab z1.1 z3.1) * (mb z3.2 (p 0) z2.1) * (sb z0.2 ρ2)) * yR2 + ((1) * (((√2 : ℝ) : ℂ)) * ((c.e : ℂ)) ^ 2 * ((c.MW : ℂ)⁻¹) * ((c.SW : ℂ)⁻¹) * ((c.mass .e : ℂ)) * ((N.c 1)⁻¹) * (ab z0.1 z2.1) * (ab z1.1 z3.1) * (sb z3.2 ρ2) / (2) + (-1) * (((√2 : ℝ) : ℂ)) * ((c.e : ℂ)) ^ 2 * ((c.MW : ℂ)⁻¹) * ((c.SW : ℂ)⁻¹) * ((N.c 0)⁻¹) * (ab z1.1 z2.1) * (ab z2.1 z3.1) * (sb z0.2 z2.2) * (sb z3.2 ρ2) / (2) + (-1) * (((√2 : ℝ) : ℂ)) * ((c.e : ℂ)) ^ 2 * ((c.MW : ℂ)⁻¹) * ((c.SW : ℂ)⁻¹) * ((N.c 0)⁻¹) * (ab z1.1 z2.1) * (ab z2.1 z3.1) * (sb z0.2 ρ2) * (sb z2.2 z3.2) / (2) + (-1) * (((√2 : ℝ) : ℂ)) * ((c.e : ℂ)) ^ 2 * ((c.MW : ℂ)⁻¹) * ((c.SW : ℂ)⁻¹) * ((N.c 0)⁻¹) * (ab z1.1 z3.1) * (mb ρ2 (p 0) z2.1) * (sb z0.2 z3.2) / (2) + (-1) * (((√2 : ℝ) : ℂ)) * ((c.e : ℂ)) ^ 2 * ((c.MW : ℂ)⁻¹) * ((c.SW : ℂ)⁻¹) * ((N.c 0)⁻¹) * (ab z1.1 z3.1) * (mb ρ2 (p 1) z2.1) * (sb z0.2 z3.2) / (2) + (-1) * (((√2 : ℝ) : ℂ)) * ((c.e : ℂ)) ^ 2 * ((c.MW : ℂ)⁻¹) * ((c.SW : ℂ)⁻¹) * ((N.c 1)⁻¹) * (ab z1.1 z3.1) * (mb z3.2 (p 0) z2.1) * (sb z0.2 ρ2) / (2)) * x22
set_option maxRecDepth 8000 in
theorem enAW.amp2_eq (N : Env) (f : Nat → List Int → ℂ) : Cls.enAW.m_amp2.mean N f .r [] =
    ((sumJ (fun x a => (sumW (fun x b => (sumV (fun x c => (x + (‖(f 0 [a, b, c])‖ ^ 2))) x)) x)) ((0 : Nat) : ℝ)) / ((2 : Nat) : ℝ)) := by rfl
set_option maxRecDepth 8000 in
theorem enAW.value (N : Env) : meaning N .r Cls.enAW.methods Cls.enAW.amp2 [] =
    ((sumJ (fun x a => (sumW (fun x b => (sumV (fun x c => (x + (‖(Cls.enAW.m_amp.mean N (callMean N []) .c [a, b, c])‖ ^ 2))) x)) x)) ((0 : Nat) : ℝ)) / ((2 : Nat) : ℝ)) :=
  enAW.amp2_eq N (callMean N [Cls.enAW.m_amp])
theorem enAW.termP_lin (N : Env) (w : ℝ) (x : ℂ) (j1 a3 b3 : Int) : enAW.termP N w x j1 a3 b3 = x + (w : ℂ) * enAW.termP N 1 0 j1 a3 b3 := by
  simp only [enAW.termP]; push_cast; ring
theorem enAW.termM_lin (N : Env) (w : ℝ) (x : ℂ) (j1 a3 b3 : Int) : enAW.termM N w x j1 a3 b3 = x + (w : ℂ) * enAW.termM N 1 0 j1 a3 b3 := by
  simp only [enAW.termM]; push_cast; ring
set_option maxRecDepth 8000 in
theorem enAW.ampP (N : Env) (f : Nat → List Int → ℂ) (j1 : Int) (t3 : Fin 3) : Cls.enAW.m_amp.mean N f .c [j1, 2, spinV t3] = comb t3 (fun a3 b3 => enAW.termP N 1 0 j1 (spinOf a3) (spinOf b3)) := by
  refine (amp_mean N f (m := 3) (K := 5) (G := fun i => if 0 < i 1 then enAW.termP N 1 0 (i 0) (i 3) (i 4) else if i 1 < 0 then enAW.termM N 1 0 (i 0) (i 3) (i 4) else 0) (fun l => ?_) (fun i i' h => ?_) rfl (by decide) (by decide) (by decide) (by decide) (by decide)).trans ?_
  · by_cases h : 0 < l.i 1
    · refine ⟨_, (if_pos (decide_eq_true h)).trans rfl, rfl, rfl, ?_⟩; rw [if_pos h]; exact enAW.termP_lin ..
    · by_cases h' : l.i 1 < 0
      · refine ⟨_, (if_neg (fun e => h (of_decide_eq_true e))).trans ((if_pos (decide_eq_true h')).trans rfl), rfl, rfl, ?_⟩; rw [if_neg h, if_pos h']; exact enAW.termM_lin ..
      · refine ⟨_, (if_neg (fun e => h (of_decide_eq_true e))).trans ((if_neg (fun e => h' (of_decide_eq_true e))).trans rfl), rfl, rfl, ?_⟩; rw [if_neg h, if_neg h', mul_zero, add_zero]
  · simp only [h 0 (by decide), h 1 (by decide), h 3 (by decide), h 4 (by decide)]
  · show amp' _ [spinV t3] = _
    simp only [amp'_comb, amp'_nil]
    rfl
theorem enAW.formP_x3 (N : Env) (p : Nat → V4 ℝ) (z0 z1 z2 y3 x y : Pair) : enAW.formP N p z0 z1 z2 (x + y) y3 = enAW.formP N p z0 z1 z2 x y3 + enAW.formP N p z0 z1 z2 y y3 := by
  simp only [enAW.formP, Prod.fst_add, Prod.snd_add, ab_add_left, ab_add_right, sb_add_left, sb_add_right, mb_add_left, mb_add_right]
  ring
theorem enAW.formP_y3 (N : Env) (p : Nat → V4 ℝ) (z0 z1 z2 x3 x y : Pair) : enAW.formP N p z0 z1 z2 x3 (x + y) = enAW.formP N p z0 z1 z2 x3 x + enAW.formP N p z0 z1 z2 x3 y := by
  simp only [enAW.formP, Prod.fst_add, Prod.snd_add, ab_add_left, ab_add_right, sb_add_left, sb_add_right, mb_add_left, mb_add_right]
  ring
theorem enAW.formP_zero1 (N : Env) (p : Nat → V4 ℝ) {z1 : Pair} (z0 z2 x3 y3 : Pair) (h : z1.1 = 0) : enAW.formP N p z0 z1 z2 x3 y3 = 0 := by
  simp [enAW.formP, h, ab_zero, sb_zero, mb_zero]
set_option maxRecDepth 8000 in
theorem enAW.ampM (N : Env) (f : Nat → List Int → ℂ) (j1 : Int) (t3 : Fin 3) : Cls.enAW.m_amp.mean N f .c [j1, (-2), spinV t3] = comb t3 (fun a3 b3 => enAW.termM N 1 0 j1 (spinOf a3) (spinOf b3)) := by
  refine (amp_mean N f (m := 3) (K := 5) (G := fun i => if 0 < i 1 then enAW.termP N 1 0 (i 0) (i 3) (i 4) else if i 1 < 0 then enAW.termM N 1 0 (i 0) (i 3) (i 4) else 0) (fun l => ?_) (fun i i' h => ?_) rfl (by decide) (by decide) (by decide) (by decide) (by decide)).trans ?_
  · by_cases h : 0 < l.i 1
    · refine ⟨_, (if_pos (decide_eq_true h)).trans rfl, rfl, rfl, ?_⟩; rw [if_pos h]; exact enAW.termP_lin ..
    · by_cases h' : l.i 1 < 0
      · refine ⟨_, (if_neg (fun e => h (of_decide_eq_true e))).trans ((if_pos (decide_eq_true h')).trans rfl), rfl, rfl, ?_⟩; rw [if_neg h, if_pos h']; exact enAW.termM_lin ..
      · refine ⟨_, (if_neg (fun e => h (of_decide_eq_true e))).trans ((if_neg (fun e => h' (of_decide_eq_true e))).trans rfl), rfl, rfl, ?_⟩; rw [if_neg h, if_neg h', mul_zero, add_zero]
  · simp only [h 0 (by decide), h 1 (by decide), h 3 (by decide), h 4 (by decide)]
  · show amp' _ [spinV t3] = _
    simp only [amp'_comb, amp'_nil]
    rfl
theorem enAW.formM_x3 (N : Env) (p : Nat → V4 ℝ) (z0 z1 z2 y3 x y : Pair) : enAW.formM N p z0 z1 z2 (x + y) y3 = enAW.formM N p z0 z1 z2 x y3 + enAW.formM N p z0 z1 z2 y y3 := by
  simp only [enAW.formM, Prod.fst_add, Prod.snd_add, ab_add_left, ab_add_right, sb_add_left, sb_add_right, mb_add_left, mb_add_right]
  ring
theorem enAW.formM_y3 (N : Env) (p : Nat → V4 ℝ) (z0 z1 z2 x3 x y : Pair) : enAW.formM N p z0 z1 z2 x3 (x + y) = enAW.formM N p z0 z1 z2 x3 x + enAW.formM N p z0 z1 z2 x3 y := by
  simp only [enAW.formM, Prod.fst_add, Prod.snd_add, ab_add_left, ab_add_right, sb_add_left, sb_add_right, mb_add_left, mb_add_right]
  ring
theorem enAW.formM_zero1 (N : Env) (p : Nat → V4 ℝ) {z1 : Pair} (z0 z2 x3 y3 : Pair) (h : z1.1 = 0) : enAW.formM N p z0 z1 z2 x3 y3 = 0 := by
  simp [enAW.formM, h, ab_zero, sb_zero, mb_zero]

theorem enAW.mass_eq {c : Constants} (hc : c.Physical) (i : Fin 4) : enAW.proc.massNum (enAW.rho c) i = enAW.react.mass c i := by
  fin_cases i <;> first | rfl | exact Nat.cast_zero | exact Nat.cast_zero.trans (hc.neutrino _).symm | (show c.MW / √(((1 : Nat) : ℝ) - c.SW * c.SW) = c.MZ; rw [c.root, c.mz])

variable [FPEnv] in
theorem enAW.agrees : enAW.Agrees := by
  refine agrees_of (D := [2, 3]) (E := [3]) (by simp [all, enAW]) (by decide +kernel) (by decide) (by decide +kernel) (fun c hc hh => ⟨List.forall_mem_cons.2 ⟨hc.MW, List.forall_mem_cons.2 ⟨hc.SW, List.forall_mem_nil _⟩⟩, List.forall_mem_cons.2 ⟨hc.SW_lt, List.forall_mem_nil _⟩⟩) (fun c hc i => enAW.mass_eq hc i) (by decide +kernel) ?_
  intro c p u ε hc hh hw h0 hs hb hr hu
  have he : enAW.react.ends = [0] := by decide
  have ht : enAW.react.starts = [1] := by decide
  have hB : enAW.react.bosons = [2, 3] := by decide
  obtain ⟨f1, f2, f3⟩ := enAW.react.regular_line he ht hB hr
  have r1 : (enAW.N c p).r 1 = (c.mass .e) := rfl
  have r2 : (enAW.N c p).r 2 = c.MW := rfl
  have r5 : (enAW.N c p).r 5 = (((√(((2 : Nat) : ℝ)) * c.e) * c.e) / (c.MW * c.SW)) := rfl
  have hWW : c.WW = 0 := hw .WW (by simp [enAW])
  have c0 : (enAW.N c p).c 0 = poleDist c.MW c.WW ((VExp.add 0 1).sum p) := rfl
  have d0 : pole c.MW c.WW (plus (backward (p 2)) (backward (p 3))) = (enAW.N c p).c 0 := by rw [c0, pole_congr (msq_s hb (plus (backward (p 2)) (backward (p 3))) (by simp)).symm]
  have n0 : (enAW.N c p).c 0 ≠ 0 := by rw [← d0]; exact star_ne_zero.2 (f3 .wMinus rfl rfl)
  rw [hWW, pole_fermion rfl] at c0
  have c1 : (enAW.N c p).c 1 = poleDist (c.mass .e) ((0 : Nat) : ℝ) ((VExp.sub 0 2).sum p) := rfl
  rw [Nat.cast_zero, pole_fermion rfl] at c1
  have d1 : ((msq (plus (p 1) (backward (p 3))) - c.mass .e ^ 2 : ℝ) : ℂ) = (enAW.N c p).c 1 := by rw [c1, msq_t hb (plus (p 1) (backward (p 3))) (by simp)]
  have n1 : (enAW.N c p).c 1 ≠ 0 := by rw [← d1]; exact_mod_cast f2 .e rfl rfl
  obtain ⟨l2, x2, y2⟩ := enAW.react.code_light hs hu (n := 2) rfl rfl
  have e20 := l2.pole_sub' (m := (c.mass .e)) (onShell_msq (hs 0)) (msq_t hb (plus (p 0) (backward (p 2))) (by simp)) c1
  have e23 := l2.pole_add (m := c.MW) (onShell_msq (hs 3)) (msq_s hb (plus (p 2) (p 3)) (by simp)) c0
  have m0 : enAW.react.mass c 0 ≠ 0 := (leg_pos hc hh (by decide)).ne'
  have m1 : enAW.react.mass c 1 = 0 := hc.neutrino _
  have m3 : enAW.react.mass c 3 ≠ 0 := (leg_pos hc hh (by decide)).ne'
  have m2 : enAW.react.mass c 2 = 0 := rfl
  have hd : enAW.proc.divides = [(Ty.c, 0), (Ty.c, 1)] := by decide +kernel
  refine ⟨fun n hn => ?_, fun n hn => ?_, ?_⟩
  · simp [hd] at hn
  · simp [hd] at hn
    rcases hn with rfl | rfl
    · exact n0
    · exact n1
  have stP : ∀ {z0 z1 : Pair} (b0 : Bold (p 0) (enAW.react.mass c 0) z0) (b1 : Bold (p 1) (enAW.react.mass c 1) z1) (t3 : Fin 3), comb t3 (fun a3 b3 => enAW.formP (enAW.N c p) p z0 z1 (legA (p 2) 0 0, legS (p 2) 0 1) (enAW.react.codePair c p 3 a3) (enAW.react.codePair c p 3 b3)) = (-1) * enAW.react.bare c p 0 1 2 3 z0 z1 (lightE (legA (p 2) 0 0, legS (p 2) 0 1) 1) (enAW.react.codeVec c p 3 t3) := by
    intro z0 z1 b0 b1 t3
    refine one_vector (p := p 3) (m := enAW.react.mass c 3) (fun s => enAW.react.codePair_bold hs h0 3 s) (B := fun x y => enAW.formP (enAW.N c p) p z0 z1 (legA (p 2) 0 0, legS (p 2) 0 1) x y) (G := fun E => enAW.react.bare c p 0 1 2 3 z0 z1 (lightE (legA (p 2) 0 0, legS (p 2) 0 1) 1) E) (fun x y z => ?_) (fun x y z => ?_) (enAW.react.bare_lin₂ c p _ _ _ (by decide)) (-1) (fun z3 b3 => ?_) t3
    · exact enAW.formP_x3 ..
    · exact enAW.formP_y3 ..
    · exact (light_plus (z := (legA (p 2) 0 0, legS (p 2) 0 1)) (G := fun E => enAW.react.bare c p 0 1 2 3 z0 z1 E (pv z3.1 z3.2)) (enAW.react.bare_lin₁ c p _ _ _ (by decide)) x2 (enAW.keyP hc hb r1 r2 r5 d0 n0 d1 n1 b0 b1 b3 l2 e20 e23 (onShell_msq (hs 0)) (onShell_msq (hs 1)) (onShell_msq (hs 3)) _)).trans (mul_assoc _ _ _)
  have stM : ∀ {z0 z1 : Pair} (b0 : Bold (p 0) (enAW.react.mass c 0) z0) (b1 : Bold (p 1) (enAW.react.mass c 1) z1) (t3 : Fin 3), comb t3 (fun a3 b3 => enAW.formM (enAW.N c p) p z0 z1 (legA (p 2) 0 0, legS (p 2) 0 1) (enAW.react.codePair c p 3 a3) (enAW.react.codePair c p 3 b3)) = (-1) * enAW.react.bare c p 0 1 2 3 z0 z1 (lightE (legA (p 2) 0 0, legS (p 2) 0 1) 0) (enAW.react.codeVec c p 3 t3) := by
    intro z0 z1 b0 b1 t3
    refine one_vector (p := p 3) (m := enAW.react.mass c 3) (fun s => enAW.react.codePair_bold hs h0 3 s) (B := fun x y => enAW.formM (enAW.N c p) p z0 z1 (legA (p 2) 0 0, legS (p 2) 0 1) x y) (G := fun E => enAW.react.bare c p 0 1 2 3 z0 z1 (lightE (legA (p 2) 0 0, legS (p 2) 0 1) 0) E) (fun x y z => ?_) (fun x y z => ?_) (enAW.react.bare_lin₂ c p _ _ _ (by decide)) (-1) (fun z3 b3 => ?_) t3
    · exact enAW.formM_x3 ..
    · exact enAW.formM_y3 ..
    · exact (light_minus (z := (legA (p 2) 0 0, legS (p 2) 0 1)) (G := fun E => enAW.react.bare c p 0 1 2 3 z0 z1 E (pv z3.1 z3.2)) (enAW.react.bare_lin₁ c p _ _ _ (by decide)) y2 (enAW.keyM hc hb r1 r2 r5 d0 n0 d1 n1 b0 b1 b3 l2 e20 e23 (onShell_msq (hs 0)) (onShell_msq (hs 1)) (onShell_msq (hs 3)) _)).trans (mul_assoc _ _ _)
  have amP : ∀ (s0 : Fin 2) (t3 : Fin 3), Cls.enAW.m_amp.mean (enAW.N c p) (callMean (enAW.N c p) []) .c [spinOf s0, 2, spinV t3] = (-1) * enAW.react.bare c p 0 1 2 3 (enAW.react.codePair c p 0 s0) (enAW.react.codePair c p 1 0) (lightE (legA (p 2) 0 0, legS (p 2) 0 1) 1) (enAW.react.codeVec c p 3 t3) := by
    intro s0 t3
    rw [enAW.ampP, ← stP (enAW.react.codePair_bold hs h0 0 s0) (enAW.react.codePair_bold hs h0 1 0) t3]
    refine congrArg (comb t3) (funext fun a3 => funext fun b3 => ?_)
    have v0z2x3 : (enAW.N c p).v 0 [spinOf a3] = sb (legA (p 2) 0 0, legS (p 2) 0 1).2 (enAW.react.codePair c p 3 a3).2 := bra_square (p := p) (m := enAW.proc.massNum (enAW.rho c)) (enAW.mass_eq hc 2) (enAW.mass_eq hc 3) (.inr ⟨m2, rfl⟩) (.inl ⟨m3, rfl⟩)
    have v1z0z1 : (enAW.N c p).v 1 [spinOf s0] = ab (enAW.react.codePair c p 0 s0).1 (enAW.react.codePair c p 1 0).1 := bra_angle (p := p) (m := enAW.proc.massNum (enAW.rho c)) (enAW.mass_eq hc 0) (enAW.mass_eq hc 1) (.inl ⟨m0, rfl⟩) (.inr ⟨m1, rfl⟩)
    have v2z1x3 : (enAW.N c p).v 2 [spinOf a3] = ab (enAW.react.codePair c p 1 0).1 (enAW.react.codePair c p 3 a3).1 := bra_angle (p := p) (m := enAW.proc.massNum (enAW.rho c)) (enAW.mass_eq hc 1) (enAW.mass_eq hc 3) (.inr ⟨m1, rfl⟩) (.inl ⟨m3, rfl⟩)
    have v3z0z2 : (enAW.N c p).v 3 [spinOf s0] = sb (enAW.react.codePair c p 0 s0).2 (legA (p 2) 0 0, legS (p 2) 0 1).2 := bra_square (p := p) (m := enAW.proc.massNum (enAW.rho c)) (enAW.mass_eq hc 0) (enAW.mass_eq hc 2) (.inl ⟨m0, rfl⟩) (.inr ⟨m2, rfl⟩)
    have v0z2y3 : (enAW.N c p).v 0 [spinOf b3] = sb (legA (p 2) 0 0, legS (p 2) 0 1).2 (enAW.react.codePair c p 3 b3).2 := bra_square (p := p) (m := enAW.proc.massNum (enAW.rho c)) (enAW.mass_eq hc 2) (enAW.mass_eq hc 3) (.inr ⟨m2, rfl⟩) (.inl ⟨m3, rfl⟩)
    have v4z2y3 : (enAW.N c p).v 4 [spinOf b3] = mb (legA (p 2) 0 0, legS (p 2) 0 1).2 (p 0) (enAW.react.codePair c p 3 b3).1 := bra_mid_square (p := p) (m := enAW.proc.massNum (enAW.rho c)) (enAW.mass_eq hc 2) (enAW.mass_eq hc 3) (.inr ⟨m2, rfl⟩) (.inl ⟨m3, rfl⟩)
    simp only [enAW.termP, enAW.formP, v0z2x3, v1z0z1, v2z1x3, v3z0z2, v0z2y3, v4z2y3]
    push_cast
    ring
  have amM : ∀ (s0 : Fin 2) (t3 : Fin 3), Cls.enAW.m_amp.mean (enAW.N c p) (callMean (enAW.N c p) []) .c [spinOf s0, (-2), spinV t3] = (-1) * enAW.react.bare c p 0 1 2 3 (enAW.react.codePair c p 0 s0) (enAW.react.codePair c p 1 0) (lightE (legA (p 2) 0 0, legS (p 2) 0 1) 0) (enAW.react.codeVec c p 3 t3) := by
    intro s0 t3
    rw [enAW.ampM, ← stM (enAW.react.codePair_bold hs h0 0 s0) (enAW.react.codePair_bold hs h0 1 0) t3]
    refine congrArg (comb t3) (funext fun a3 => funext fun b3 => ?_)
    have v5z1z2 : (enAW.N c p).v 5 [] = ab (enAW.react.codePair c p 1 0).1 (legA (p 2) 0 0, legS (p 2) 0 1).1 := bra_angle (p := p) (m := enAW.proc.massNum (enAW.rho c)) (enAW.mass_eq hc 1) (enAW.mass_eq hc 2) (.inr ⟨m1, rfl⟩) (.inr ⟨m2, rfl⟩)
    have v6z0x3 : (enAW.N c p).v 6 [spinOf s0, spinOf a3] = sb (enAW.react.codePair c p 0 s0).2 (enAW.react.codePair c p 3 a3).2 := bra_square (p := p) (m := enAW.proc.massNum (enAW.rho c)) (enAW.mass_eq hc 0) (enAW.mass_eq hc 3) (.inl ⟨m0, rfl⟩) (.inl ⟨m3, rfl⟩)
    have v7z2y3 : (enAW.N c p).v 7 [spinOf b3] = ab (legA (p 2) 0 0, legS (p 2) 0 1).1 (enAW.react.codePair c p 3 b3).1 := bra_angle (p := p) (m := enAW.proc.massNum (enAW.rho c)) (enAW.mass_eq hc 2) (enAW.mass_eq hc 3) (.inr ⟨m2, rfl⟩) (.inl ⟨m3, rfl⟩)
    have v8y3z2 : (enAW.N c p).v 8 [spinOf b3] = mb (enAW.react.codePair c p 3 b3).2 (p 0) (legA (p 2) 0 0, legS (p 2) 0 1).1 := bra_mid_square (p := p) (m := enAW.proc.massNum (enAW.rho c)) (enAW.mass_eq hc 3) (enAW.mass_eq hc 2) (.inl ⟨m3, rfl⟩) (.inr ⟨m2, rfl⟩)
    simp only [enAW.termM, enAW.formM, v5z1z2, v6z0x3, v7z2y3, v8y3z2]
    push_cast
    ring
  have wP1 : ∀ (s : Fin 2) (t3 : Fin 3), enAW.react.bare c p 0 1 2 3 (enAW.react.codePair c p 0 s) (enAW.react.codePair c p 1 1) (lightE (legA (p 2) 0 0, legS (p 2) 0 1) 1) (enAW.react.codeVec c p 3 t3) = 0 := by
    intro s t3
    have e := stP (enAW.react.codePair_bold hs h0 0 s) (enAW.react.codePair_bold hs h0 1 1) t3
    rw [show comb t3 (fun a3 b3 => enAW.formP (enAW.N c p) p (enAW.react.codePair c p 0 s) (enAW.react.codePair c p 1 1) (legA (p 2) 0 0, legS (p 2) 0 1) (enAW.react.codePair c p 3 a3) (enAW.react.codePair c p 3 b3)) = 0 by
      simp only [enAW.formP_zero1 _ _ _ _ _ _ (show ((enAW.react.codePair c p 1 1)).1 = 0 from legA_zero m1 rfl)]; exact comb_zero ..] at e
    exact neg_eq_zero.1 ((neg_one_mul _).symm.trans e.symm)
  have wM1 : ∀ (s : Fin 2) (t3 : Fin 3), enAW.react.bare c p 0 1 2 3 (enAW.react.codePair c p 0 s) (enAW.react.codePair c p 1 1) (lightE (legA (p 2) 0 0, legS (p 2) 0 1) 0) (enAW.react.codeVec c p 3 t3) = 0 := by
    intro s t3
    have e := stM (enAW.react.codePair_bold hs h0 0 s) (enAW.react.codePair_bold hs h0 1 1) t3
    rw [show comb t3 (fun a3 b3 => enAW.formM (enAW.N c p) p (enAW.react.codePair c p 0 s) (enAW.react.codePair c p 1 1) (legA (p 2) 0 0, legS (p 2) 0 1) (enAW.react.codePair c p 3 a3) (enAW.react.codePair c p 3 b3)) = 0 by
      simp only [enAW.formM_zero1 _ _ _ _ _ _ (show ((enAW.react.codePair c p 1 1)).1 = 0 from legA_zero m1 rfl)]; exact comb_zero ..] at e
    exact neg_eq_zero.1 ((neg_one_mul _).symm.trans e.symm)
  have am : ∀ (s0 : Fin 2) (h2 : Fin 2) (t3 : Fin 3), ‖Cls.enAW.m_amp.mean (enAW.N c p) (callMean (enAW.N c p) []) .c [spinOf s0, spinW h2, spinV t3]‖ = ‖enAW.react.bare c p 0 1 2 3 (enAW.react.codePair c p 0 s0) (enAW.react.codePair c p 1 0) (lightE (legA (p 2) 0 0, legS (p 2) 0 1) h2.castSucc) (enAW.react.codeVec c p 3 t3)‖ := by
    intro s0 h2 t3
    match h2 with
    | 1 => exact norm_minus (amP s0 t3)
    | 0 => exact norm_minus (amM s0 t3)
  show meaning (enAW.N c p) .r Cls.enAW.methods Cls.enAW.amp2 [] = _
  have s0 : enAW.react.states 0 = 2 := by decide +kernel
  have s1 : enAW.react.states 1 = 1 := by decide +kernel
  have sy : enAW.react.symmetry = 1 := by decide
  have p0 : enAW.react.spins 0 = {0, 1} := rfl
  have p1 : enAW.react.spins 1 = {0, 1} := rfl
  have p2 : enAW.react.spins 2 = {0, 1} := rfl
  have p3 : enAW.react.spins 3 = Finset.univ := rfl
  have E2 : enAW.react.codeE c p 2 = lightE (legA (p 2) 0 0, legS (p 2) 0 1) := rfl
  have E3 : enAW.react.codeE c p 3 = enAW.react.codeVec c p 3 := rfl
  have hG : enAW.react.Gauge c p := (enAW.react.gauge_line he ht hB hh (by decide) (fun n => onShell_msq (hs n)) hb hr (fun _ _ _ _ => hWW) (fun _ => ⟨rfl, rfl⟩) (fun h => absurd h (by decide)))
  have lc : enAW.react.lineColours 0 1 = 1 := by decide +kernel
  rw [enAW.value, enAW.react.squared_line he ht hB (by decide) hs h0 (fun _ b _ hb _ => (boson_pos hc hh hb).ne') hG (E := enAW.react.codeE c p) (fun n b hl => enAW.react.codeE_polarised hs h0 hu (fun b hb => (boson_pos hc hh hb).ne') n b hl) hu, sum_colours, lc, s0, s1, sy]
  simp only [sumV_sum, sumJ_sum, sumW_sum, am, p0, p1, p2, p3, E2, E3, Finset.sum_singleton, sum_two, Matrix.cons_val_zero, Matrix.cons_val_one, Matrix.cons_val, two_castSucc]
  simp only [Fin.sum_univ_two, Fin.castSucc_zero, Fin.castSucc_one, wP1, wM1, norm_zero]
  try simp only [← Finset.mul_sum]
  push_cast
  first | ring1 | ring_nf

end Spinas.SM.Rows
