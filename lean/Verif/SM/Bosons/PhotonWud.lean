import Verif.SM.LightRows
import Verif.SM.GluonLine
import Verif.SM.SetMembers

/-! Quarks, a photon and a W boson. Generated by tools/bosons/lemit.py: for each class its amplitude at given helicities as a formula in spinors, and the proof that `amp2` is the squared amplitude of the Feynman rules. -/

set_option linter.unusedSimpArgs false
set_option linter.unusedVariables false
set_option linter.unreachableTactic false
set_option linter.unusedTactic false

namespace Spinas.SM.Rows
open Spec Spec.Reaction Props XR Matrix BRow

/-! ### AWud -/

/-- what the methods of the class see -/
noncomputable abbrev AWud.N [FPEnv] (c : Constants) (p : Nat → V4 ℝ) : Env := AWud.proc.envSet [0, 1, 2] (AWud.rho c) p
/-- the term that `amp` adds for a choice of spinors, for a photon of positive helicity (SM/AWud.cpp) -/
noncomputable def AWud.termP (N : Env) (w : ℝ) (x : ℂ) (a1 b1 j3 j4 : Int) : ℂ :=
  (x + ((((((w * N.r 6) : ℝ) : ℂ) * N.v 2 [a1, j4]) * ((((((-N.r 3) : ℝ) : ℂ) * N.v 1 [j3]) * N.v 3 [b1]) + (N.v 0 [b1] * ((((((-N.r 2) * N.r 2) : ℝ) : ℂ) * N.v 1 [j3]) + (((N.r 1 : ℝ) : ℂ) * N.v 4 [j3]))))) * N.c 3))
/-- the same with spinors in place of their spins -/
noncomputable def AWud.formP (N : Env) (p : Nat → V4 ℝ) (z0 x1 y1 z2 z3 : Pair) : ℂ :=
  (0 + ((((((((1 : Nat) : ℝ) * N.r 6) : ℝ) : ℂ) * (ab x1.1 z3.1)) * ((((((-N.r 3) : ℝ) : ℂ) * (sb z0.2 z2.2)) * (mb z0.2 (p 3) y1.1)) + ((sb z0.2 y1.2) * ((((((-N.r 2) * N.r 2) : ℝ) : ℂ) * (sb z0.2 z2.2)) + (((N.r 1 : ℝ) : ℂ) * (mb z0.2 (p 3) z2.1)))))) * N.c 3))
/-- the term that `amp` adds for a choice of spinors, for a photon of negative helicity (SM/AWud.cpp) -/
noncomputable def AWud.termM (N : Env) (w : ℝ) (x : ℂ) (a1 b1 j3 j4 : Int) : ℂ :=
  (x + ((((((w * N.r 6) : ℝ) : ℂ) * N.v 7 [a1, j3]) * (((((N.r 3 : ℝ) : ℂ) * N.v 6 [j4]) * N.v 8 [b1]) + (N.v 5 [b1] * (((((N.r 1 * N.r 1) : ℝ) : ℂ) * N.v 6 [j4]) - (((N.r 2 : ℝ) : ℂ) * N.v 9 [j4]))))) * N.c 3))
/-- the same with spinors in place of their spins -/
noncomputable def AWud.formM (N : Env) (p : Nat → V4 ℝ) (z0 x1 y1 z2 z3 : Pair) : ℂ :=
  (0 + ((((((((1 : Nat) : ℝ) * N.r 6) : ℝ) : ℂ) * (sb x1.2 z2.2)) * (((((N.r 3 : ℝ) : ℂ) * (ab z0.1 z3.1)) * (mb y1.2 (p 2) z0.1)) + ((ab z0.1 y1.1) * (((((N.r 1 * N.r 1) : ℝ) : ℂ) * (ab z0.1 z3.1)) - (((N.r 2 : ℝ) : ℂ) * (mb z3.2 (p 2) z0.1)))))) * N.c 3))
theorem AWud.keyP {c : Constants} {p : Nat → V4 ℝ} {N : Env} (hc : c.Physical) (hb : Balanced p) (r1 : N.r 1 = (c.mass .u)) (r2 : N.r 2 = (c.mass .d)) (r3 : N.r 3 = c.MW) (r6 : N.r 6 = (((√(((2 : Nat) : ℝ)) * c.e) * c.e) / (c.MW * c.SW))) (c3 : N.c 3 = (((((-((1 : Nat) : ℝ)) : ℝ) : ℂ) / N.c 0) * (((((((2 : Nat) : ℝ) / ((3 : Nat) : ℝ)) : ℝ) : ℂ) / N.c 1) - ((((((1 : Nat) : ℝ) / ((3 : Nat) : ℝ)) : ℝ) : ℂ) / N.c 2)))) (d0 : pole c.MW c.WW (plus (p 0) (p 1)) = N.c 0) (n0 : N.c 0 ≠ 0) (d1 : ((msq (plus (backward (p 3)) (p 1)) - c.mass .u ^ 2 : ℝ) : ℂ) = N.c 1) (n1 : N.c 1 ≠ 0) (d2 : ((msq (plus (backward (p 3)) (p 0)) - c.mass .d ^ 2 : ℝ) : ℂ) = N.c 2) (n2 : N.c 2 ≠ 0) {z0 z1 z2 z3 : Pair} (b1 : Bold (p 1) c.MW z1) (b2 : Bold (p 2) (c.mass .u) z2) (b3 : Bold (p 3) (c.mass .d) z3) (l0 : Light (p 0) z0) (e01 : mb z0.2 (p 1) z0.1 = N.c 0) (e02 : mb z0.2 (p 2) z0.1 = -N.c 1) (e03 : mb z0.2 (p 3) z0.1 = -N.c 2) (q1 : msq (p 1) = c.MW ^ 2) (q2 : msq (p 2) = (c.mass .u) ^ 2) (q3 : msq (p 3) = (c.mass .d) ^ 2) (ρ0 : V2) :
    AWud.formP N p z0 z1 z1 z2 z3 * ab ρ0 z0.1 = ((√2 : ℝ) * ((-1 : ℂ) * ((√2 / c.MW : ℝ) : ℂ))) * AWud.react.bare c p 2 3 0 1 z2 z3 (pv ρ0 z0.2) (pv z1.1 z1.2) := by
  rw [AWud.react.bare_parts c p (i := 2) (j := 3) (a := 0) (b := 1) (x := .photon) (y := .wPlus) (k := (p 0)) (k' := (p 1)) (fun _ => rfl) (fun _ => rfl) (f := .d) (g := .u) rfl rfl (l := (backward (p 3))) rfl (e := 1) (e' := -1) (if_neg Bool.false_ne_true) (if_pos rfl)]
  rw [compton_vv (f := .d) (x := .d) (g := .u) (h := (rfl : Spec.after .photon Flavour.d = some Flavour.d)) (h' := (rfl : Spec.after .wPlus Flavour.d = some Flavour.u)) (ha := by simp) (hb := by simp)]
  rw [compton_vv (f := .d) (x := .u) (g := .u) (h := (rfl : Spec.after .wPlus Flavour.d = some Flavour.u)) (h' := (rfl : Spec.after .photon Flavour.u = some Flavour.u)) (ha := by simp) (hb := by simp)]
  have an := annihilation_charged c (1) (-1) z2.1 z2.2 z3.1 z3.2 ⟨.photon, (p 0), pv ρ0 z0.2⟩ ⟨.wPlus, (p 1), pv z1.1 z1.2⟩ (f := .d) (g := .u) (x := .wPlus) (by simp) rfl
  dsimp only at an
  rw [an, AWud.formP]
  clear an
  rw [lineV_massive (hx := (rfl : Boson.massive .wPlus = true))]
  have T0 := l0.mb_plus ρ0
  have T1 := b1.mb_zero'
  have Q0 := l0.msq_zero
  simp only [toVector, gauge3, Boson.anti, Constants.bosonMass, Constants.bosonWidth, reduceCtorEq, and_self, and_true, and_false, if_true, if_false, lineV_smul, contract_smul, lineV_transverse T0 T1, four_transverse T0 T1, msq_backward, q1, Q0]
  simp only [d0, d1, d2, lineV_pv, lineV_four, contract_four_pv, contract_pv, mb_plus, mb_backward]
  have i0 := mb_schouten_right z0.2 (p 1) z0.1 z1.1 ρ0
  have i1 := mb_schouten_right z0.2 (p 3) z0.1 z1.1 z3.1
  have i2 := mb_schouten_right z0.2 (p 1) z0.1 z1.1 z3.1
  have i3 := mb_schouten_right z0.2 (p 2) z0.1 z1.1 ρ0
  have i4 := mb_schouten_right z0.2 (p 2) z0.1 z3.1 ρ0
  have i5 := sb_schouten z1.2 z2.2 z3.2 z0.2
  have i6 := mb_schouten_right z0.2 (p 1) z1.1 z3.1 ρ0
  have i7 := mb_schouten_right z0.2 (p 2) z0.1 z1.1 z3.1
  have i8 := ab_schouten z2.1 z3.1 ρ0 z1.1
  have i9 := mb_schouten_left z0.2 z1.2 z2.2 (p 2) z0.1
  have i10 := mb_schouten_left z0.2 z1.2 z3.2 (p 2) z1.1
  have i11 := mb_schouten_right z0.2 (p 2) z0.1 z2.1 ρ0
  have i12 := mb_schouten_right z0.2 (p 1) z0.1 z2.1 ρ0
  have i13 := mb_schouten_right z1.2 (p 2) z0.1 z1.1 ρ0
  have i14 := mb_schouten_right z1.2 (p 2) z0.1 z1.1 z3.1
  have i15 := mb_schouten_right z0.2 (p 1) z0.1 z3.1 ρ0
  have i16 := mb_schouten_right z1.2 (p 2) z0.1 z3.1 ρ0
  have i17 := mb_schouten_left z0.2 z1.2 z2.2 (p 2) z1.1
  have i18 := mb_schouten_left z0.2 z1.2 z2.2 (p 1) z3.1
  have i19 := ab_schouten z1.1 z3.1 ρ0 z0.1
  simp only [l0.mb_eq, b1.mb_left, b1.mb_right, b2.mb_left, b2.mb_right, b3.mb_left, b3.mb_right, e01, e02, e03, mb_three hb z0.2 z1.1, mb_three hb z0.2 z2.1, mb_two hb z0.2 z3.1, mb_three hb z0.2 ρ0, mb_three hb z1.2 z0.1, mb_three hb z1.2 z1.1, mb_three hb z1.2 z2.1, mb_two hb z1.2 z3.1, mb_three hb z1.2 ρ0, mb_three hb z2.2 z0.1, mb_three hb z2.2 z1.1, mb_three hb z2.2 z2.1, mb_one hb z2.2 z3.1, mb_three hb z2.2 ρ0, mb_two hb z3.2 z0.1, mb_two hb z3.2 z1.1, mb_one hb z3.2 z2.1, mb_two hb z3.2 z3.1, mb_two hb z3.2 ρ0, ab_self, sb_self] at i0 i1 i2 i3 i4 i5 i6 i7 i8 i9 i10 i11 i12 i13 i14 i15 i16 i17 i18 i19 ⊢
  simp only [ab_swap z0.1 z1.1, ab_swap z0.1 z2.1, ab_swap z0.1 z3.1, ab_swap z0.1 ρ0, ab_swap z1.1 z2.1, ab_swap z1.1 z3.1, ab_swap z1.1 ρ0, ab_swap z2.1 z3.1, ab_swap z2.1 ρ0, ab_swap z3.1 ρ0, sb_swap z0.2 z1.2, sb_swap z0.2 z2.2, sb_swap z0.2 z3.2, sb_swap z1.2 z2.2, sb_swap z1.2 z3.2, sb_swap z2.2 z3.2] at i0 i1 i2 i3 i4 i5 i6 i7 i8 i9 i10 i11 i12 i13 i14 i15 i16 i17 i18 i19 ⊢
  simp only [r1, r2, r3, r6, c3, Constants.hL, Constants.hR, Constants.gL, Constants.gR, Constants.yuk, Constants.invVev, Flavour.charge_d, Flavour.isospin_d, Flavour.charge_u, Flavour.isospin_u, ← c.mz]
  have xMW : (c.MW : ℂ) ≠ 0 := by exact_mod_cast hc.MW
  have xSW : (c.SW : ℂ) ≠ 0 := by exact_mod_cast hc.SW
  have xCW : (c.CW : ℂ) ≠ 0 := by exact_mod_cast hc.CW
  have x2 : ((√2 : ℝ) : ℂ) ≠ 0 := by exact_mod_cast (Real.sqrt_pos.2 two_pos).ne'
  have x22 : ((√2 : ℝ) : ℂ) ^ 2 = 2 := by rw [← Complex.ofReal_pow, Real.sq_sqrt two_pos.le]; norm_num
  have x23 : ((√2 : ℝ) : ℂ) ^ 3 = 2 * ((√2 : ℝ) : ℂ) := by rw [← x22]; ring
  have x24 : ((√2 : ℝ) : ℂ) ^ 4 = 4 := by linear_combination (((√2 : ℝ) : ℂ) ^ 2 + 2) * x22
  push_cast at i0 i1 i2 i3 i4 i5 i6 i7 i8 i9 i10 i11 i12 i13 i14 i15 i16 i17 i18 i19 ⊢
  have y0 := mul_inv_cancel₀ n0
  have y1 := mul_inv_cancel₀ n1
  have y2 := mul_inv_cancel₀ n2
  have yMW := mul_inv_cancel₀ xMW
  have yR2 : ((√2 : ℝ) : ℂ)⁻¹ = ((√2 : ℝ) : ℂ) / 2 := by rw [inv_eq_iff_eq_inv, inv_div, eq_div_iff x2, ← x22]; ring
  linear_combination ((((2) * ((c.MW : ℂ)) * (((√2 : ℝ) : ℂ)) * ((c.e : ℂ)) ^ 2 * (N.c 0) * (ab z1.1 z3.1) * (sb z0.2 z2.2) + (-1) * ((c.MW : ℂ)) * (((√2 : ℝ) : ℂ)) * ((c.e : ℂ)) ^ 2 * (N.c 1) * (ab z1.1 z3.1) * (sb z0.2 z2.2) + (2) * ((c.MW : ℂ)) * (((√2 : ℝ) : ℂ)) * ((c.e : ℂ)) ^ 2 * (N.c 2) * (ab z1.1 z3.1) * (sb z0.2 z2.2) + (-3) * (((√2 : ℝ) : ℂ)) * ((c.e : ℂ)) ^ 2 * ((c.mass .d : ℂ)) * (N.c 1) * (sb z0.2 z2.2) * (sb z1.2 z3.2) + (2) * (((√2 : ℝ) : ℂ)) * ((c.e : ℂ)) ^ 2 * ((c.mass .d : ℂ)) * (mb z1.2 (p 2) z0.1) * (sb z0.2 z2.2) * (sb z0.2 z3.2) + (3) * (((√2 : ℝ) : ℂ)) * ((c.e : ℂ)) ^ 2 * (N.c 1) * (ab z0.1 z3.1) * (sb z0.2 z1.2) * (sb z0.2 z2.2) + (1) * (((√2 : ℝ) : ℂ)) * ((c.e : ℂ)) ^ 2 * (N.c 1) * (mb z0.2 (p 1) z3.1) * (sb z1.2 z2.2)) * i0 + ((2) * ((c.MW : ℂ)) * (((√2 : ℝ) : ℂ)) * ((c.e : ℂ)) ^ 2 * (N.c 0) * (ab z1.1 ρ0) * (sb z0.2 z2.2) + (2) * ((c.MW : ℂ)) * (((√2 : ℝ) : ℂ)) * ((c.e : ℂ)) ^ 2 * (N.c 1) * (ab z1.1 ρ0) * (sb z0.2 z2.2) + (2) * ((c.MW : ℂ)) * (((√2 : ℝ) : ℂ)) * ((c.e : ℂ)) ^ 2 * (ab z0.1 z1.1) * (mb z0.2 (p 1) ρ0) * (sb z0.2 z2.2) + (-2) * ((c.MW : ℂ)) * (((√2 : ℝ) : ℂ)) * ((c.e : ℂ)) ^ 2 * (ab z0.1 z1.1) * (mb z0.2 (p 2) ρ0) * (sb z0.2 z2.2) + (2) * (((√2 : ℝ) : ℂ)) * ((c.e : ℂ)) ^ 2 * ((c.mass .d : ℂ)) ^ 2 * (ab z0.1 ρ0) * (sb z0.2 z1.2) * (sb z0.2 z2.2) + (-2) * (((√2 : ℝ) : ℂ)) * ((c.e : ℂ)) ^ 2 * ((c.mass .u : ℂ)) * (N.c 1) * (ab z2.1 ρ0) * (sb z0.2 z1.2) + (-2) * (((√2 : ℝ) : ℂ)) * ((c.e : ℂ)) ^ 2 * ((c.mass .u : ℂ)) * (ab z0.1 z2.1) * (mb z0.2 (p 1) ρ0) * (sb z0.2 z1.2) + (2) * (((√2 : ℝ) : ℂ)) * ((c.e : ℂ)) ^ 2 * ((c.mass .u : ℂ)) * (ab z0.1 z2.1) * (mb z0.2 (p 2) ρ0) * (sb z0.2 z1.2) + (-2) * (((√2 : ℝ) : ℂ)) * ((c.e : ℂ)) ^ 2 * (N.c 0) * (ab z0.1 ρ0) * (sb z0.2 z1.2) * (sb z0.2 z2.2) + (-2) * (((√2 : ℝ) : ℂ)) * ((c.e : ℂ)) ^ 2 * (N.c 0) * (mb z1.2 (p 2) ρ0) * (sb z0.2 z2.2) + (-3) * (((√2 : ℝ) : ℂ)) * ((c.e : ℂ)) ^ 2 * (N.c 1) * (ab z0.1 ρ0) * (sb z0.2 z1.2) * (sb z0.2 z2.2) + (-3) * (((√2 : ℝ) : ℂ)) * ((c.e : ℂ)) ^ 2 * (N.c 1) * (mb z0.2 (p 1) ρ0) * (sb z1.2 z2.2)) * i1 + ((-2) * ((c.MW : ℂ)) * (((√2 : ℝ) : ℂ)) * ((c.e : ℂ)) ^ 2 * (N.c 0) * (ab z1.1 ρ0) * (sb z0.2 z2.2) + (-2) * ((c.MW : ℂ)) * (((√2 : ℝ) : ℂ)) * ((c.e : ℂ)) ^ 2 * (N.c 1) * (ab z1.1 ρ0) * (sb z0.2 z2.2) + (-2) * ((c.MW : ℂ)) * (((√2 : ℝ) : ℂ)) * ((c.e : ℂ)) ^ 2 * (ab z0.1 z1.1) * (mb z0.2 (p 1) ρ0) * (sb z0.2 z2.2) + (2) * ((c.MW : ℂ)) * (((√2 : ℝ) : ℂ)) * ((c.e : ℂ)) ^ 2 * (ab z0.1 z1.1) * (mb z0.2 (p 2) ρ0) * (sb z0.2 z2.2) + (-2) * (((√2 : ℝ) : ℂ)) * ((c.e : ℂ)) ^ 2 * ((c.mass .d : ℂ)) ^ 2 * (ab z0.1 ρ0) * (sb z0.2 z1.2) * (sb z0.2 z2.2) + (2) * (((√2 : ℝ) : ℂ)) * ((c.e : ℂ)) ^ 2 * ((c.mass .u : ℂ)) * (N.c 1) * (ab z2.1 ρ0) * (sb z0.2 z1.2) + (2) * (((√2 : ℝ) : ℂ)) * ((c.e : ℂ)) ^ 2 * ((c.mass .u : ℂ)) * (ab z0.1 z2.1) * (mb z0.2 (p 1) ρ0) * (sb z0.2 z1.2) + (-2) * (((√2 : ℝ) : ℂ)) * ((c.e : ℂ)) ^ 2 * ((c.mass .u : ℂ)) * (ab z0.1 z2.1) * (mb z0.2 (p 2) ρ0) * (sb z0.2 z1.2) + (2) * (((√2 : ℝ) : ℂ)) * ((c.e : ℂ)) ^ 2 * (N.c 1) * (mb z0.2 (p 1) ρ0) * (sb z1.2 z2.2) + (2) * (((√2 : ℝ) : ℂ)) * ((c.e : ℂ)) ^ 2 * (mb z0.2 (p 1) ρ0) * (mb z1.2 (p 2) z0.1) * (sb z0.2 z2.2) + (-2) * (((√2 : ℝ) : ℂ)) * ((c.e : ℂ)) ^ 2 * (mb z0.2 (p 2) ρ0) * (mb z1.2 (p 2) z0.1) * (sb z0.2 z2.2)) * i2 + ((-2) * ((c.MW : ℂ)) * (((√2 : ℝ) : ℂ)) * ((c.e : ℂ)) ^ 2 * (N.c 0) * (ab z1.1 z3.1) * (sb z0.2 z2.2) + (1) * ((c.MW : ℂ)) * (((√2 : ℝ) : ℂ)) * ((c.e : ℂ)) ^ 2 * (N.c 1) * (ab z1.1 z3.1) * (sb z0.2 z2.2) + (-2) * ((c.MW : ℂ)) * (((√2 : ℝ) : ℂ)) * ((c.e : ℂ)) ^ 2 * (N.c 2) * (ab z1.1 z3.1) * (sb z0.2 z2.2) + (2) * (((√2 : ℝ) : ℂ)) * ((c.e : ℂ)) ^ 2 * ((c.mass .d : ℂ)) * (N.c 0) * (sb z0.2 z1.2) * (sb z2.2 z3.2) + (-2) * (((√2 : ℝ) : ℂ)) * ((c.e : ℂ)) ^ 2 * ((c.mass .d : ℂ)) * (N.c 0) * (sb z0.2 z2.2) * (sb z1.2 z3.2) + (3) * (((√2 : ℝ) : ℂ)) * ((c.e : ℂ)) ^ 2 * ((c.mass .d : ℂ)) * (N.c 1) * (sb z0.2 z1.2) * (sb z2.2 z3.2) + (-2) * (((√2 : ℝ) : ℂ)) * ((c.e : ℂ)) ^ 2 * (N.c 0) * (mb z0.2 (p 1) z3.1) * (sb z1.2 z2.2) + (-3) * (((√2 : ℝ) : ℂ)) * ((c.e : ℂ)) ^ 2 * (N.c 1) * (ab z0.1 z3.1) * (sb z0.2 z1.2) * (sb z0.2 z2.2) + (-3) * (((√2 : ℝ) : ℂ)) * ((c.e : ℂ)) ^ 2 * (N.c 1) * (mb z0.2 (p 1) z3.1) * (sb z1.2 z2.2) + (2) * (((√2 : ℝ) : ℂ)) * ((c.e : ℂ)) ^ 2 * (mb z0.2 (p 1) z3.1) * (mb z1.2 (p 2) z0.1) * (sb z0.2 z2.2)) * i3 + ((2) * ((c.MW : ℂ)) * (((√2 : ℝ) : ℂ)) * ((c.e : ℂ)) ^ 2 * (mb z1.2 (p 2) z0.1) * (sb z0.2 z1.2) * (sb z0.2 z2.2) + (2) * (((√2 : ℝ) : ℂ)) * ((c.e : ℂ)) ^ 2 * (N.c 0) * (mb z0.2 (p 2) z1.1) * (sb z1.2 z2.2) + (3) * (((√2 : ℝ) : ℂ)) * ((c.e : ℂ)) ^ 2 * (N.c 1) * (mb z0.2 (p 2) z1.1) * (sb z1.2 z2.2) + (-3) * (((√2 : ℝ) : ℂ)) * ((c.e : ℂ)) ^ 2 * (N.c 1) * (mb z1.2 (p 2) z1.1) * (sb z0.2 z2.2)) * i4 + ((-1) * (((√2 : ℝ) : ℂ)) * ((c.e : ℂ)) ^ 2 * ((c.mass .d : ℂ)) * (N.c 0) * (N.c 1) * (ab z1.1 ρ0) + (-2) * (((√2 : ℝ) : ℂ)) * ((c.e : ℂ)) ^ 2 * ((c.mass .d : ℂ)) * (N.c 0) * (ab z0.1 z1.1) * (mb z0.2 (p 2) ρ0) + (2) * (((√2 : ℝ) : ℂ)) * ((c.e : ℂ)) ^ 2 * ((c.mass .d : ℂ)) * (N.c 0) * (ab z0.1 ρ0) * (mb z0.2 (p 2) z1.1) + (-3) * (((√2 : ℝ) : ℂ)) * ((c.e : ℂ)) ^ 2 * ((c.mass .d : ℂ)) * (N.c 1) * (ab z0.1 z1.1) * (mb z0.2 (p 2) ρ0) + (3) * (((√2 : ℝ) : ℂ)) * ((c.e : ℂ)) ^ 2 * ((c.mass .d : ℂ)) * (N.c 1) * (ab z0.1 ρ0) * (mb z0.2 (p 2) z1.1)) * i5 + ((-2) * (((√2 : ℝ) : ℂ)) * ((c.e : ℂ)) ^ 2 * (N.c 1) * (mb z1.2 (p 2) z0.1) * (sb z0.2 z2.2)) * i6 + ((2) * ((c.MW : ℂ)) * (((√2 : ℝ) : ℂ)) * ((c.e : ℂ)) ^ 2 * (N.c 0) * (ab z1.1 ρ0) * (sb z0.2 z2.2) + (2) * ((c.MW : ℂ)) * (((√2 : ℝ) : ℂ)) * ((c.e : ℂ)) ^ 2 * (N.c 1) * (ab z1.1 ρ0) * (sb z0.2 z2.2) + (2) * ((c.MW : ℂ)) * (((√2 : ℝ) : ℂ)) * ((c.e : ℂ)) ^ 2 * (ab z0.1 z1.1) * (mb z0.2 (p 1) ρ0) * (sb z0.2 z2.2) + (-2) * ((c.MW : ℂ)) * (((√2 : ℝ) : ℂ)) * ((c.e : ℂ)) ^ 2 * (ab z0.1 z1.1) * (mb z0.2 (p 2) ρ0) * (sb z0.2 z2.2) + (2) * (((√2 : ℝ) : ℂ)) * ((c.e : ℂ)) ^ 2 * ((c.mass .d : ℂ)) ^ 2 * (ab z0.1 ρ0) * (sb z0.2 z1.2) * (sb z0.2 z2.2) + (-2) * (((√2 : ℝ) : ℂ)) * ((c.e : ℂ)) ^ 2 * ((c.mass .u : ℂ)) * (N.c 1) * (ab z2.1 ρ0) * (sb z0.2 z1.2) + (-2) * (((√2 : ℝ) : ℂ)) * ((c.e : ℂ)) ^ 2 * ((c.mass .u : ℂ)) * (ab z0.1 z2.1) * (mb z0.2 (p 1) ρ0) * (sb z0.2 z1.2) + (2) * (((√2 : ℝ) : ℂ)) * ((c.e : ℂ)) ^ 2 * ((c.mass .u : ℂ)) * (ab z0.1 z2.1) * (mb z0.2 (p 2) ρ0) * (sb z0.2 z1.2) + (2) * (((√2 : ℝ) : ℂ)) * ((c.e : ℂ)) ^ 2 * (N.c 0) * (mb z0.2 (p 2) ρ0) * (sb z1.2 z2.2) + (-3) * (((√2 : ℝ) : ℂ)) * ((c.e : ℂ)) ^ 2 * (N.c 1) * (mb z0.2 (p 1) ρ0) * (sb z1.2 z2.2) + (3) * (((√2 : ℝ) : ℂ)) * ((c.e : ℂ)) ^ 2 * (N.c 1) * (mb z0.2 (p 2) ρ0) * (sb z1.2 z2.2) + (-2) * (((√2 : ℝ) : ℂ)) * ((c.e : ℂ)) ^ 2 * (mb z0.2 (p 1) ρ0) * (mb z1.2 (p 2) z0.1) * (sb z0.2 z2.2)) * i7 + ((3) * (((√2 : ℝ) : ℂ)) * ((c.e : ℂ)) ^ 2 * ((c.mass .u : ℂ)) * (N.c 0) * (N.c 1) * (sb z0.2 z1.2) + (3) * (((√2 : ℝ) : ℂ)) * ((c.e : ℂ)) ^ 2 * ((c.mass .u : ℂ)) * (N.c 1) ^ 2 * (sb z0.2 z1.2)) * i8 + ((2) * (((√2 : ℝ) : ℂ)) * ((c.e : ℂ)) ^ 2 * (N.c 0) * (ab z1.1 z3.1) * (mb z0.2 (p 1) ρ0) + (-2) * (((√2 : ℝ) : ℂ)) * ((c.e : ℂ)) ^ 2 * (N.c 0) * (ab z1.1 z3.1) * (mb z0.2 (p 2) ρ0) + (3) * (((√2 : ℝ) : ℂ)) * ((c.e : ℂ)) ^ 2 * (N.c 1) * (ab z1.1 z3.1) * (mb z0.2 (p 1) ρ0) + (-3) * (((√2 : ℝ) : ℂ)) * ((c.e : ℂ)) ^ 2 * (N.c 1) * (ab z1.1 z3.1) * (mb z0.2 (p 2) ρ0)) * i9 + ((2) * (((√2 : ℝ) : ℂ)) * ((c.e : ℂ)) ^ 2 * ((c.mass .d : ℂ)) * (N.c 0) * (ab z0.1 ρ0) * (sb z0.2 z2.2) + (3) * (((√2 : ℝ) : ℂ)) * ((c.e : ℂ)) ^ 2 * ((c.mass .d : ℂ)) * (N.c 1) * (ab z0.1 ρ0) * (sb z0.2 z2.2)) * i10 + ((-1) * (((√2 : ℝ) : ℂ)) * ((c.e : ℂ)) ^ 2 * ((c.mass .u : ℂ)) * (N.c 1) * (ab z1.1 z3.1) * (sb z0.2 z1.2) + (2) * (((√2 : ℝ) : ℂ)) * ((c.e : ℂ)) ^ 2 * ((c.mass .u : ℂ)) * (N.c 2) * (ab z1.1 z3.1) * (sb z0.2 z1.2)) * i11 + ((1) * (((√2 : ℝ) : ℂ)) * ((c.e : ℂ)) ^ 2 * ((c.mass .u : ℂ)) * (N.c 1) * (ab z1.1 z3.1) * (sb z0.2 z1.2) + (-2) * (((√2 : ℝ) : ℂ)) * ((c.e : ℂ)) ^ 2 * ((c.mass .u : ℂ)) * (N.c 2) * (ab z1.1 z3.1) * (sb z0.2 z1.2)) * i12 + ((-2) * (((√2 : ℝ) : ℂ)) * ((c.e : ℂ)) ^ 2 * ((c.mass .d : ℂ)) * (N.c 0) * (sb z0.2 z2.2) * (sb z0.2 z3.2)) * i13 + ((3) * (((√2 : ℝ) : ℂ)) * ((c.e : ℂ)) ^ 2 * (N.c 1) * (mb z0.2 (p 1) ρ0) * (sb z0.2 z2.2) + (-3) * (((√2 : ℝ) : ℂ)) * ((c.e : ℂ)) ^ 2 * (N.c 1) * (mb z0.2 (p 2) ρ0) * (sb z0.2 z2.2)) * i14 + ((1) * ((c.MW : ℂ)) * (((√2 : ℝ) : ℂ)) * ((c.e : ℂ)) ^ 2 * (N.c 1) * (sb z0.2 z1.2) * (sb z1.2 z2.2) + (-2) * ((c.MW : ℂ)) * (((√2 : ℝ) : ℂ)) * ((c.e : ℂ)) ^ 2 * (mb z1.2 (p 2) z0.1) * (sb z0.2 z1.2) * (sb z0.2 z2.2) + (3) * (((√2 : ℝ) : ℂ)) * ((c.e : ℂ)) ^ 2 * (N.c 1) * (mb z1.2 (p 2) z1.1) * (sb z0.2 z2.2) + (-2) * (((√2 : ℝ) : ℂ)) * ((c.e : ℂ)) ^ 2 * (mb z0.2 (p 2) z1.1) * (mb z1.2 (p 2) z0.1) * (sb z0.2 z2.2)) * i15 + ((2) * ((c.MW : ℂ)) * (((√2 : ℝ) : ℂ)) * ((c.e : ℂ)) ^ 2 * (N.c 0) * (sb z0.2 z1.2) * (sb z0.2 z2.2) + (2) * (((√2 : ℝ) : ℂ)) * ((c.e : ℂ)) ^ 2 * (N.c 0) * (mb z0.2 (p 2) z1.1) * (sb z0.2 z2.2)) * i16 + ((3) * (((√2 : ℝ) : ℂ)) * ((c.e : ℂ)) ^ 2 * (N.c 0) * (N.c 1) * (ab z3.1 ρ0) + (3) * (((√2 : ℝ) : ℂ)) * ((c.e : ℂ)) ^ 2 * (N.c 1) ^ 2 * (ab z3.1 ρ0)) * i17 + ((-3) * (((√2 : ℝ) : ℂ)) * ((c.e : ℂ)) ^ 2 * (N.c 0) * (N.c 1) * (ab z1.1 ρ0) + (-3) * (((√2 : ℝ) : ℂ)) * ((c.e : ℂ)) ^ 2 * (N.c 1) ^ 2 * (ab z1.1 ρ0)) * i18 + ((-3) * (((√2 : ℝ) : ℂ)) * ((c.e : ℂ)) ^ 2 * (N.c 1) * (N.c 2) * (sb z0.2 z1.2) * (sb z0.2 z2.2)) * i19)) * ((1) * ((c.MW : ℂ)⁻¹) * ((c.SW : ℂ)⁻¹) * ((N.c 0)⁻¹) * ((N.c 1)⁻¹) * ((N.c 2)⁻¹) / (3)) + ((-1) * ((c.MW : ℂ)) * (((√2 : ℝ) : ℂ)) * ((c.e : ℂ)) ^ 2 * ((c.MW : ℂ)⁻¹) * ((c.SW : ℂ)⁻¹) * (N.c 1) * ((N.c 1)⁻¹) * ((N.c 2)⁻¹) * (ab z3.1 ρ0) * (sb z0.2 z1.2) * (sb z1.2 z2.2) / (3) + (1) * (((√2 : ℝ) : ℂ)) * ((c.e : ℂ)) ^ 2 * ((c.MW : ℂ)⁻¹) * ((c.SW : ℂ)⁻¹) * ((c.mass .d : ℂ)) * (N.c 1) * ((N.c 1)⁻¹) * ((N.c 2)⁻¹) * (ab z1.1 ρ0) * (sb z0.2 z3.2) * (sb z1.2 z2.2) / (3) + (2) * (((√2 : ℝ) : ℂ)) * ((c.e : ℂ)) ^ 2 * ((c.MW : ℂ)⁻¹) * ((c.SW : ℂ)⁻¹) * ((c.mass .u : ℂ)) * (N.c 2) * ((N.c 1)⁻¹) * ((N.c 2)⁻¹) * (ab z1.1 z3.1) * (ab z2.1 ρ0) * (sb z0.2 z1.2) / (3) + (-1) * (((√2 : ℝ) : ℂ)) * ((c.e : ℂ)) ^ 2 * ((c.MW : ℂ)⁻¹) * ((c.SW : ℂ)⁻¹) * (N.c 1) * ((N.c 1)⁻¹) * ((N.c 2)⁻¹) * (ab z3.1 ρ0) * (mb z0.2 (p 2) z1.1) * (sb z1.2 z2.2) / (3) + (-2) * (((√2 : ℝ) : ℂ)) * ((c.e : ℂ)) ^ 2 * ((c.MW : ℂ)⁻¹) * ((c.SW : ℂ)⁻¹) * (N.c 2) * ((N.c 1)⁻¹) * ((N.c 2)⁻¹) * (ab z0.1 ρ0) * (ab z1.1 z3.1) * (sb z0.2 z1.2) * (sb z0.2 z2.2) / (3) + (-2) * (((√2 : ℝ) : ℂ)) * ((c.e : ℂ)) ^ 2 * ((c.MW : ℂ)⁻¹) * ((c.SW : ℂ)⁻¹) * (N.c 2) * ((N.c 1)⁻¹) * ((N.c 2)⁻¹) * (ab z1.1 z3.1) * (mb z1.2 (p 2) ρ0) * (sb z0.2 z2.2) / (3)) * y0 + ((1) * ((c.MW : ℂ)) * (((√2 : ℝ) : ℂ)) * ((c.e : ℂ)) ^ 2 * ((c.MW : ℂ)⁻¹) * ((c.SW : ℂ)⁻¹) * ((N.c 0)⁻¹) * ((N.c 2)⁻¹) * (ab z0.1 ρ0) * (ab z1.1 z3.1) * (mb z0.2 (p 2) z1.1) * (sb z0.2 z2.2) / (3) + (-1) * ((c.MW : ℂ)) * (((√2 : ℝ) : ℂ)) * ((c.e : ℂ)) ^ 2 * ((c.MW : ℂ)⁻¹) * ((c.SW : ℂ)⁻¹) * ((N.c 2)⁻¹) * (ab z3.1 ρ0) * (sb z0.2 z1.2) * (sb z1.2 z2.2) / (3) + (1) * ((c.MW : ℂ)) ^ 2 * (((√2 : ℝ) : ℂ)) * ((c.e : ℂ)) ^ 2 * ((c.MW : ℂ)⁻¹) * ((c.SW : ℂ)⁻¹) * ((N.c 0)⁻¹) * ((N.c 2)⁻¹) * (ab z0.1 ρ0) * (ab z1.1 z3.1) * (sb z0.2 z1.2) * (sb z0.2 z2.2) / (3) + (1) * (((√2 : ℝ) : ℂ)) * ((c.e : ℂ)) ^ 2 * ((c.MW : ℂ)⁻¹) * ((c.SW : ℂ)⁻¹) * ((c.mass .d : ℂ)) * ((N.c 2)⁻¹) * (ab z1.1 ρ0) * (sb z0.2 z3.2) * (sb z1.2 z2.2) / (3) + (-1) * (((√2 : ℝ) : ℂ)) * ((c.e : ℂ)) ^ 2 * ((c.MW : ℂ)⁻¹) * ((c.SW : ℂ)⁻¹) * ((c.mass .d : ℂ)) ^ 2 * ((N.c 0)⁻¹) * ((N.c 2)⁻¹) * (ab z0.1 ρ0) * (ab z1.1 z3.1) * (sb z0.2 z1.2) * (sb z0.2 z2.2) / (3) + (1) * (((√2 : ℝ) : ℂ)) * ((c.e : ℂ)) ^ 2 * ((c.MW : ℂ)⁻¹) * ((c.SW : ℂ)⁻¹) * ((c.mass .u : ℂ)) * ((N.c 0)⁻¹) * ((N.c 2)⁻¹) * (ab z0.1 ρ0) * (ab z1.1 z3.1) * (mb z0.2 (p 1) z2.1) * (sb z0.2 z1.2) / (3) + (1) * (((√2 : ℝ) : ℂ)) * ((c.e : ℂ)) ^ 2 * ((c.MW : ℂ)⁻¹) * ((c.SW : ℂ)⁻¹) * ((c.mass .u : ℂ)) ^ 2 * ((N.c 0)⁻¹) * ((N.c 2)⁻¹) * (ab z0.1 ρ0) * (ab z1.1 z3.1) * (sb z0.2 z1.2) * (sb z0.2 z2.2) / (3) + (1) * (((√2 : ℝ) : ℂ)) * ((c.e : ℂ)) ^ 2 * ((c.MW : ℂ)⁻¹) * ((c.SW : ℂ)⁻¹) * (N.c 2) * ((N.c 0)⁻¹) * ((N.c 2)⁻¹) * (ab z0.1 z1.1) * (ab z3.1 ρ0) * (sb z0.2 z1.2) * (sb z0.2 z2.2) + (-1) * (((√2 : ℝ) : ℂ)) * ((c.e : ℂ)) ^ 2 * ((c.MW : ℂ)⁻¹) * ((c.SW : ℂ)⁻¹) * (N.c 2) * ((N.c 0)⁻¹) * ((N.c 2)⁻¹) * (ab z0.1 z3.1) * (ab z1.1 ρ0) * (sb z0.2 z1.2) * (sb z0.2 z2.2) + (-1) * (((√2 : ℝ) : ℂ)) * ((c.e : ℂ)) ^ 2 * ((c.MW : ℂ)⁻¹) * ((c.SW : ℂ)⁻¹) * (N.c 2) * ((N.c 0)⁻¹) * ((N.c 2)⁻¹) * (ab z1.1 z3.1) * (mb z0.2 (p 1) ρ0) * (sb z1.2 z2.2) + (-1) * (((√2 : ℝ) : ℂ)) * ((c.e : ℂ)) ^ 2 * ((c.MW : ℂ)⁻¹) * ((c.SW : ℂ)⁻¹) * ((N.c 2)⁻¹) * (ab z3.1 ρ0) * (mb z0.2 (p 2) z1.1) * (sb z1.2 z2.2) / (3)) * y1 + ((-2) * ((c.MW : ℂ)) * (((√2 : ℝ) : ℂ)) * ((c.e : ℂ)) ^ 2 * ((c.MW : ℂ)⁻¹) * ((c.SW : ℂ)⁻¹) * ((N.c 0)⁻¹) * ((N.c 1)⁻¹) * (ab z0.1 ρ0) * (ab z1.1 z3.1) * (mb z0.2 (p 2) z1.1) * (sb z0.2 z2.2) / (3) + (-2) * ((c.MW : ℂ)) ^ 2 * (((√2 : ℝ) : ℂ)) * ((c.e : ℂ)) ^ 2 * ((c.MW : ℂ)⁻¹) * ((c.SW : ℂ)⁻¹) * ((N.c 0)⁻¹) * ((N.c 1)⁻¹) * (ab z0.1 ρ0) * (ab z1.1 z3.1) * (sb z0.2 z1.2) * (sb z0.2 z2.2) / (3) + (2) * (((√2 : ℝ) : ℂ)) * ((c.e : ℂ)) ^ 2 * ((c.MW : ℂ)⁻¹) * ((c.SW : ℂ)⁻¹) * ((c.mass .d : ℂ)) ^ 2 * ((N.c 0)⁻¹) * ((N.c 1)⁻¹) * (ab z0.1 ρ0) * (ab z1.1 z3.1) * (sb z0.2 z1.2) * (sb z0.2 z2.2) / (3) + (-2) * (((√2 : ℝ) : ℂ)) * ((c.e : ℂ)) ^ 2 * ((c.MW : ℂ)⁻¹) * ((c.SW : ℂ)⁻¹) * ((c.mass .u : ℂ)) * ((N.c 0)⁻¹) * ((N.c 1)⁻¹) * (ab z0.1 ρ0) * (ab z1.1 z3.1) * (mb z0.2 (p 1) z2.1) * (sb z0.2 z1.2) / (3) + (2) * (((√2 : ℝ) : ℂ)) * ((c.e : ℂ)) ^ 2 * ((c.MW : ℂ)⁻¹) * ((c.SW : ℂ)⁻¹) * ((c.mass .u : ℂ)) * ((N.c 1)⁻¹) * (ab z1.1 z3.1) * (ab z2.1 ρ0) * (sb z0.2 z1.2) / (3) + (-2) * (((√2 : ℝ) : ℂ)) * ((c.e : ℂ)) ^ 2 * ((c.MW : ℂ)⁻¹) * ((c.SW : ℂ)⁻¹) * ((c.mass .u : ℂ)) ^ 2 * ((N.c 0)⁻¹) * ((N.c 1)⁻¹) * (ab z0.1 ρ0) * (ab z1.1 z3.1) * (sb z0.2 z1.2) * (sb z0.2 z2.2) / (3) + (1) * (((√2 : ℝ) : ℂ)) * ((c.e : ℂ)) ^ 2 * ((c.MW : ℂ)⁻¹) * ((c.SW : ℂ)⁻¹) * ((N.c 0)⁻¹) * (ab z0.1 z1.1) * (ab z3.1 ρ0) * (sb z0.2 z1.2) * (sb z0.2 z2.2) + (-1) * (((√2 : ℝ) : ℂ)) * ((c.e : ℂ)) ^ 2 * ((c.MW : ℂ)⁻¹) * ((c.SW : ℂ)⁻¹) * ((N.c 0)⁻¹) * (ab z0.1 z3.1) * (ab z1.1 ρ0) * (sb z0.2 z1.2) * (sb z0.2 z2.2) + (-1) * (((√2 : ℝ) : ℂ)) * ((c.e : ℂ)) ^ 2 * ((c.MW : ℂ)⁻¹) * ((c.SW : ℂ)⁻¹) * ((N.c 0)⁻¹) * (ab z1.1 z3.1) * (mb z0.2 (p 1) ρ0) * (sb z1.2 z2.2) + (-2) * (((√2 : ℝ) : ℂ)) * ((c.e : ℂ)) ^ 2 * ((c.MW : ℂ)⁻¹) * ((c.SW : ℂ)⁻¹) * ((N.c 1)⁻¹) * (ab z0.1 ρ0) * (ab z1.1 z3.1) * (sb z0.2 z1.2) * (sb z0.2 z2.2) / (3) + (-2) * (((√2 : ℝ) : ℂ)) * ((c.e : ℂ)) ^ 2 * ((c.MW : ℂ)⁻¹) * ((c.SW : ℂ)⁻¹) * ((N.c 1)⁻¹) * (ab z1.1 z3.1) * (mb z1.2 (p 2) ρ0) * (sb z0.2 z2.2) / (3)) * y2 + ((1) * ((c.MW : ℂ)) * (((√2 : ℝ) : ℂ)) ^ 2 * ((c.e : ℂ)) ^ 2 * ((c.MW : ℂ)⁻¹) ^ 2 * (((√2 : ℝ) : ℂ)⁻¹) * ((c.SW : ℂ)⁻¹) * ((c.mass .d : ℂ)) * ((N.c 0)⁻¹) * (ab z1.1 ρ0) * (sb z0.2 z1.2) * (sb z2.2 z3.2) / (2) + (-1) * ((c.MW : ℂ)) * (((√2 : ℝ) : ℂ)) ^ 2 * ((c.e : ℂ)) ^ 2 * ((c.MW : ℂ)⁻¹) ^ 2 * (((√2 : ℝ) : ℂ)⁻¹) * ((c.SW : ℂ)⁻¹) * ((c.mass .u : ℂ)) * ((N.c 0)⁻¹) * (ab z1.1 ρ0) * (ab z2.1 z3.1) * (sb z0.2 z1.2) / (2) + (-1) * (((√2 : ℝ) : ℂ)) * ((c.e : ℂ)) ^ 2 * ((c.SW : ℂ)⁻¹) * ((N.c 2)⁻¹) * (ab z3.1 ρ0) * (sb z0.2 z1.2) * (sb z1.2 z2.2) / (3) + (1) * (((√2 : ℝ) : ℂ)) ^ 2 * ((c.e : ℂ)) ^ 2 * ((c.MW : ℂ)⁻¹) * (((√2 : ℝ) : ℂ)⁻¹) * ((c.SW : ℂ)⁻¹) * ((c.mass .d : ℂ)) * ((N.c 0)⁻¹) * (ab z1.1 ρ0) * (sb z0.2 z1.2) * (sb z2.2 z3.2) / (2) + (-1) * (((√2 : ℝ) : ℂ)) ^ 2 * ((c.e : ℂ)) ^ 2 * ((c.MW : ℂ)⁻¹) * (((√2 : ℝ) : ℂ)⁻¹) * ((c.SW : ℂ)⁻¹) * ((c.mass .u : ℂ)) * ((N.c 0)⁻¹) * (ab z1.1 ρ0) * (ab z2.1 z3.1) * (sb z0.2 z1.2) / (2) + (1) * (((√2 : ℝ) : ℂ)) ^ 2 * ((c.e : ℂ)) ^ 2 * (((√2 : ℝ) : ℂ)⁻¹) * ((c.SW : ℂ)⁻¹) * ((N.c 2)⁻¹) * (ab z3.1 ρ0) * (sb z0.2 z1.2) * (sb z1.2 z2.2) / (3)) * yMW + ((-1) * (((√2 : ℝ) : ℂ)) ^ 2 * ((c.e : ℂ)) ^ 2 * ((c.MW : ℂ)⁻¹) * ((c.SW : ℂ)⁻¹) * ((c.mass .d : ℂ)) * ((N.c 2)⁻¹) * (ab z1.1 ρ0) * (sb z0.2 z3.2) * (sb z1.2 z2.2) / (3) + (-2) * (((√2 : ℝ) : ℂ)) ^ 2 * ((c.e : ℂ)) ^ 2 * ((c.MW : ℂ)⁻¹) * ((c.SW : ℂ)⁻¹) * ((c.mass .u : ℂ)) * ((N.c 1)⁻¹) * (ab z1.1 z3.1) * (ab z2.1 ρ0) * (sb z0.2 z1.2) / (3) + (-1) * (((√2 : ℝ) : ℂ)) ^ 2 * ((c.e : ℂ)) ^ 2 * ((c.MW : ℂ)⁻¹) * ((c.SW : ℂ)⁻¹) * ((N.c 0)⁻¹) * (ab z0.1 z1.1) * (ab z3.1 ρ0) * (sb z0.2 z1.2) * (sb z0.2 z2.2) + (1) * (((√2 : ℝ) : ℂ)) ^ 2 * ((c.e : ℂ)) ^ 2 * ((c.MW : ℂ)⁻¹) * ((c.SW : ℂ)⁻¹) * ((N.c 0)⁻¹) * (ab z0.1 z3.1) * (ab z1.1 ρ0) * (sb z0.2 z1.2) * (sb z0.2 z2.2) + (1) * (((√2 : ℝ) : ℂ)) ^ 2 * ((c.e : ℂ)) ^ 2 * ((c.MW : ℂ)⁻¹) * ((c.SW : ℂ)⁻¹) * ((N.c 0)⁻¹) * (ab z1.1 z3.1) * (mb z0.2 (p 1) ρ0) * (sb z1.2 z2.2) + (2) * (((√2 : ℝ) : ℂ)) ^ 2 * ((c.e : ℂ)) ^ 2 * ((c.MW : ℂ)⁻¹) * ((c.SW : ℂ)⁻¹) * ((N.c 1)⁻¹) * (ab z0.1 ρ0) * (ab z1.1 z3.1) * (sb z0.2 z1.2) * (sb z0.2 z2.2) / (3) + (2) * (((√2 : ℝ) : ℂ)) ^ 2 * ((c.e : ℂ)) ^ 2 * ((c.MW : ℂ)⁻¹) * ((c.SW : ℂ)⁻¹) * ((N.c 1)⁻¹) * (ab z1.1 z3.1) * (mb z1.2 (p 2) ρ0) * (sb z0.2 z2.2) / (3) + (1) * (((√2 : ℝ) : ℂ)) ^ 2 * ((c.e : ℂ)) ^ 2 * ((c.MW : ℂ)⁻¹) * ((c.SW : ℂ)⁻¹) * ((N.c 2)⁻¹) * (ab z3.1 ρ0) * (mb z0.2 (p 2) z1.1) * (sb z1.2 z2.2) / (3) + (1) * (((√2 : ℝ) : ℂ)) ^ 2 * ((c.e : ℂ)) ^ 2 * ((c.SW : ℂ)⁻¹) * ((N.c 2)⁻¹) * (ab z3.1 ρ0) * (sb z0.2 z1.2) * (sb z1.2 z2.2) / (3)) * yR2 + ((-1) * (((√2 : ℝ) : ℂ)) * ((c.e : ℂ)) ^ 2 * ((c.MW : ℂ)⁻¹) * ((c.SW : ℂ)⁻¹) * ((c.mass .d : ℂ)) * ((N.c 2)⁻¹) * (ab z1.1 ρ0) * (sb z0.2 z3.2) * (sb z1.2 z2.2) / (6) + (-1) * (((√2 : ℝ) : ℂ)) * ((c.e : ℂ)) ^ 2 * ((c.MW : ℂ)⁻¹) * ((c.SW : ℂ)⁻¹) * ((c.mass .u : ℂ)) * ((N.c 1)⁻¹) * (ab z1.1 z3.1) * (ab z2.1 ρ0) * (sb z0.2 z1.2) / (3) + (-1) * (((√2 : ℝ) : ℂ)) * ((c.e : ℂ)) ^ 2 * ((c.MW : ℂ)⁻¹) * ((c.SW : ℂ)⁻¹) * ((N.c 0)⁻¹) * (ab z0.1 z1.1) * (ab z3.1 ρ0) * (sb z0.2 z1.2) * (sb z0.2 z2.2) / (2) + (1) * (((√2 : ℝ) : ℂ)) * ((c.e : ℂ)) ^ 2 * ((c.MW : ℂ)⁻¹) * ((c.SW : ℂ)⁻¹) * ((N.c 0)⁻¹) * (ab z0.1 z3.1) * (ab z1.1 ρ0) * (sb z0.2 z1.2) * (sb z0.2 z2.2) / (2) + (1) * (((√2 : ℝ) : ℂ)) * ((c.e : ℂ)) ^ 2 * ((c.MW : ℂ)⁻¹) * ((c.SW : ℂ)⁻¹) * ((N.c 0)⁻¹) * (ab z1.1 z3.1) * (mb z0.2 (p 1) ρ0) * (sb z1.2 z2.2) / (2) + (1) * (((√2 : ℝ) : ℂ)) * ((c.e : ℂ)) ^ 2 * ((c.MW : ℂ)⁻¹) * ((c.SW : ℂ)⁻¹) * ((N.c 1)⁻¹) * (ab z0.1 ρ0) * (ab z1.1 z3.1) * (sb z0.2 z1.2) * (sb z0.2 z2.2) / (3) + (1) * (((√2 : ℝ) : ℂ)) * ((c.e : ℂ)) ^ 2 * ((c.MW : ℂ)⁻¹) * ((c.SW : ℂ)⁻¹) * ((N.c 1)⁻¹) * (ab z1.1 z3.1) * (mb z1.2 (p 2) ρ0) * (sb z0.2 z2.2) / (3) + (1) * (((√2 : ℝ) : ℂ)) * ((c.e : ℂ)) ^ 2 * ((c.MW : ℂ)⁻¹) * ((c.SW : ℂ)⁻¹) * ((N.c 2)⁻¹) * (ab z3.1 ρ0) * (mb z0.2 (p 2) z1.1) * (sb z1.2 z2.2) / (6) + (1) * (((√2 : ℝ) : ℂ)) * ((c.e : ℂ)) ^ 2 * ((c.SW : ℂ)⁻¹) * ((N.c 2)⁻¹) * (ab z3.1 ρ0) * (sb z0.2 z1.2) * (sb z1.2 z2.2) / (6)) * x22
theorem AWud.keyM {c : Constants} {p : Nat → V4 ℝ} {N : Env} (hc : c.Physical) (hb : Balanced p) (r1 : N.r 1 = (c.mass .u)) (r2 : N.r 2 = (c.mass .d)) (r3 : N.r 3 = c.MW) (r6 : N.r 6 = (((√(((2 : Nat) : ℝ)) * c.e) * c.e) / (c.MW * c.SW))) (c3 : N.c 3 = (((((-((1 : Nat) : ℝ)) : ℝ) : ℂ) / N.c 0) * (((((((2 : Nat) : ℝ) / ((3 : Nat) : ℝ)) : ℝ) : ℂ) / N.c 1) - ((((((1 : Nat) : ℝ) / ((3 : Nat) : ℝ)) : ℝ) : ℂ) / N.c 2)))) (d0 : pole c.MW c.WW (plus (p 0) (p 1)) = N.c 0) (n0 : N.c 0 ≠ 0) (d1 : ((msq (plus (backward (p 3)) (p 1)) - c.mass .u ^ 2 : ℝ) : ℂ) = N.c 1) (n1 : N.c 1 ≠ 0) (d2 : ((msq (plus (backward (p 3)) (p 0)) - c.mass .d ^ 2 : ℝ) : ℂ) = N.c 2) (n2 : N.c 2 ≠ 0) {z0 z1 z2 z3 : Pair} (b1 : Bold (p 1) c.MW z1) (b2 : Bold (p 2) (c.mass .u) z2) (b3 : Bold (p 3) (c.mass .d) z3) (l0 : Light (p 0) z0) (e01 : mb z0.2 (p 1) z0.1 = N.c 0) (e02 : mb z0.2 (p 2) z0.1 = -N.c 1) (e03 : mb z0.2 (p 3) z0.1 = -N.c 2) (q1 : msq (p 1) = c.MW ^ 2) (q2 : msq (p 2) = (c.mass .u) ^ 2) (q3 : msq (p 3) = (c.mass .d) ^ 2) (ρ0 : V2) :
    AWud.formM N p z0 z1 z1 z2 z3 * sb ρ0 z0.2 = ((√2 : ℝ) * ((-1 : ℂ) * ((√2 / c.MW : ℝ) : ℂ))) * AWud.react.bare c p 2 3 0 1 z2 z3 (pv z0.1 ρ0) (pv z1.1 z1.2) := by
  rw [AWud.react.bare_parts c p (i := 2) (j := 3) (a := 0) (b := 1) (x := .photon) (y := .wPlus) (k := (p 0)) (k' := (p 1)) (fun _ => rfl) (fun _ => rfl) (f := .d) (g := .u) rfl rfl (l := (backward (p 3))) rfl (e := 1) (e' := -1) (if_neg Bool.false_ne_true) (if_pos rfl)]
  rw [compton_vv (f := .d) (x := .d) (g := .u) (h := (rfl : Spec.after .photon Flavour.d = some Flavour.d)) (h' := (rfl : Spec.after .wPlus Flavour.d = some Flavour.u)) (ha := by simp) (hb := by simp)]
  rw [compton_vv (f := .d) (x := .u) (g := .u) (h := (rfl : Spec.after .wPlus Flavour.d = some Flavour.u)) (h' := (rfl : Spec.after .photon Flavour.u = some Flavour.u)) (ha := by simp) (hb := by simp)]
  have an := annihilation_charged c (1) (-1) z2.1 z2.2 z3.1 z3.2 ⟨.photon, (p 0), pv z0.1 ρ0⟩ ⟨.wPlus, (p 1), pv z1.1 z1.2⟩ (f := .d) (g := .u) (x := .wPlus) (by simp) rfl
  dsimp only at an
  rw [an, AWud.formM]
  clear an
  rw [lineV_massive (hx := (rfl : Boson.massive .wPlus = true))]
  have T0 := l0.mb_minus ρ0
  have T1 := b1.mb_zero'
  have Q0 := l0.msq_zero
  simp only [toVector, gauge3, Boson.anti, Constants.bosonMass, Constants.bosonWidth, reduceCtorEq, and_self, and_true, and_false, if_true, if_false, lineV_smul, contract_smul, lineV_transverse T0 T1, four_transverse T0 T1, msq_backward, q1, Q0]
  simp only [d0, d1, d2, lineV_pv, lineV_four, contract_four_pv, contract_pv, mb_plus, mb_backward]
  have i0 := mb_schouten_right ρ0 (p 2) z0.1 z1.1 z3.1
  have i1 := mb_schouten_left z0.2 z1.2 z2.2 (p 2) z0.1
  have i2 := mb_schouten_right z1.2 (p 2) z0.1 z1.1 z2.1
  have i3 := mb_schouten_right z0.2 (p 2) z0.1 z1.1 z3.1
  have i4 := mb_schouten_left z0.2 z1.2 ρ0 (p 1) z0.1
  have i5 := mb_schouten_right z0.2 (p 1) z0.1 z1.1 z3.1
  have i6 := mb_schouten_left z0.2 z1.2 z3.2 (p 2) z0.1
  have i7 := sb_schouten z2.2 z3.2 ρ0 z0.2
  have i8 := mb_schouten_right z1.2 (p 2) z0.1 z1.1 z3.1
  have i9 := sb_schouten z1.2 z2.2 ρ0 z0.2
  have i10 := mb_schouten_left z0.2 z2.2 ρ0 (p 1) z0.1
  have i11 := mb_schouten_left z0.2 z1.2 z2.2 (p 3) z0.1
  have i12 := mb_schouten_left z0.2 z1.2 z2.2 (p 1) z0.1
  have i13 := mb_schouten_left z0.2 z2.2 z3.2 (p 2) z0.1
  have i14 := sb_schouten z1.2 z3.2 ρ0 z0.2
  have i15 := mb_schouten_left z0.2 z2.2 ρ0 (p 2) z0.1
  have i16 := mb_schouten_right z0.2 (p 3) z0.1 z1.1 z3.1
  have i17 := mb_schouten_left z0.2 z1.2 ρ0 (p 2) z0.1
  have i18 := mb_schouten_right z2.2 (p 1) z0.1 z1.1 z3.1
  have i19 := ab_schouten z1.1 z2.1 z3.1 z0.1
  have i20 := mb_schouten_right ρ0 (p 1) z0.1 z1.1 z3.1
  have i21 := sb_schouten z2.2 z3.2 ρ0 z1.2
  simp only [l0.mb_eq, b1.mb_left, b1.mb_right, b2.mb_left, b2.mb_right, b3.mb_left, b3.mb_right, e01, e02, e03, mb_three hb z0.2 z1.1, mb_three hb z0.2 z2.1, mb_two hb z0.2 z3.1, mb_three hb z1.2 z0.1, mb_three hb z1.2 z1.1, mb_three hb z1.2 z2.1, mb_two hb z1.2 z3.1, mb_three hb z2.2 z0.1, mb_three hb z2.2 z1.1, mb_three hb z2.2 z2.1, mb_one hb z2.2 z3.1, mb_two hb z3.2 z0.1, mb_two hb z3.2 z1.1, mb_one hb z3.2 z2.1, mb_two hb z3.2 z3.1, mb_three hb ρ0 z0.1, mb_three hb ρ0 z1.1, mb_three hb ρ0 z2.1, mb_two hb ρ0 z3.1, ab_self, sb_self] at i0 i1 i2 i3 i4 i5 i6 i7 i8 i9 i10 i11 i12 i13 i14 i15 i16 i17 i18 i19 i20 i21 ⊢
  simp only [ab_swap z0.1 z1.1, ab_swap z0.1 z2.1, ab_swap z0.1 z3.1, ab_swap z1.1 z2.1, ab_swap z1.1 z3.1, ab_swap z2.1 z3.1, sb_swap z0.2 z1.2, sb_swap z0.2 z2.2, sb_swap z0.2 z3.2, sb_swap z0.2 ρ0, sb_swap z1.2 z2.2, sb_swap z1.2 z3.2, sb_swap z1.2 ρ0, sb_swap z2.2 z3.2, sb_swap z2.2 ρ0, sb_swap z3.2 ρ0] at i0 i1 i2 i3 i4 i5 i6 i7 i8 i9 i10 i11 i12 i13 i14 i15 i16 i17 i18 i19 i20 i21 ⊢
  simp only [r1, r2, r3, r6, c3, Constants.hL, Constants.hR, Constants.gL, Constants.gR, Constants.yuk, Constants.invVev, Flavour.charge_d, Flavour.isospin_d, Flavour.charge_u, Flavour.isospin_u, ← c.mz]
  have xMW : (c.MW : ℂ) ≠ 0 := by exact_mod_cast hc.MW
  have xSW : (c.SW : ℂ) ≠ 0 := by exact_mod_cast hc.SW
  have xCW : (c.CW : ℂ) ≠ 0 := by exact_mod_cast hc.CW
  have x2 : ((√2 : ℝ) : ℂ) ≠ 0 := by exact_mod_cast (Real.sqrt_pos.2 two_pos).ne'
  have x22 : ((√2 : ℝ) : ℂ) ^ 2 = 2 := by rw [← Complex.ofReal_pow, Real.sq_sqrt two_pos.le]; norm_num
  have x23 : ((√2 : ℝ) : ℂ) ^ 3 = 2 * ((√2 : ℝ) : ℂ) := by rw [← x22]; ring
  have x24 : ((√2 : ℝ) : ℂ) ^ 4 = 4 := by linear_combination (((√2 : ℝ) : ℂ) ^ 2 + 2) * x22
  push_cast at i0 i1 i2 i3 i4 i5 i6 i7 i8 i9 i10 i11 i12 i13 i14 i15 i16 i17 i18 i19 i20 i21 ⊢
  have y0 := mul_inv_cancel₀ n0
  have y1 := mul_inv_cancel₀ n1
  have y2 := mul_inv_cancel₀ n2
  have yMW := mul_inv_cancel₀ xMW
  have yR2 : ((√2 : ℝ) : ℂ)⁻¹ = ((√2 : ℝ) : ℂ) / 2 := by rw [inv_eq_iff_eq_inv, inv_div, eq_div_iff x2, ← x22]; ring
  linear_combination ((((-1) * (((√2 : ℝ) : ℂ)) * ((c.e : ℂ)) ^ 2 * ((c.mass .u : ℂ)) * (N.c 0) * (ab z0.1 z2.1) * (sb z0.2 z1.2) + (-1) * (((√2 : ℝ) : ℂ)) * ((c.e : ℂ)) ^ 2 * (N.c 0) * (mb z1.2 (p 2) z0.1) * (sb z0.2 z2.2)) * i0 + ((2) * ((c.MW : ℂ)) * (((√2 : ℝ) : ℂ)) * ((c.e : ℂ)) ^ 2 * (N.c 0) * (ab z0.1 z3.1) * (sb z1.2 ρ0) + (3) * ((c.MW : ℂ)) * (((√2 : ℝ) : ℂ)) * ((c.e : ℂ)) ^ 2 * (N.c 1) * (ab z0.1 z3.1) * (sb z1.2 ρ0) + (1) * (((√2 : ℝ) : ℂ)) * ((c.e : ℂ)) ^ 2 * ((c.mass .d : ℂ)) * (N.c 0) * (ab z0.1 z1.1) * (sb z3.2 ρ0) + (1) * (((√2 : ℝ) : ℂ)) * ((c.e : ℂ)) ^ 2 * ((c.mass .d : ℂ)) * (N.c 1) * (ab z0.1 z1.1) * (sb z3.2 ρ0) + (-2) * (((√2 : ℝ) : ℂ)) * ((c.e : ℂ)) ^ 2 * ((c.mass .d : ℂ)) * (N.c 2) * (ab z0.1 z1.1) * (sb z3.2 ρ0) + (-3) * (((√2 : ℝ) : ℂ)) * ((c.e : ℂ)) ^ 2 * (N.c 0) * (ab z0.1 z1.1) * (mb ρ0 (p 1) z3.1) + (1) * (((√2 : ℝ) : ℂ)) * ((c.e : ℂ)) ^ 2 * (N.c 0) * (ab z0.1 z3.1) * (mb ρ0 (p 2) z1.1) + (-3) * (((√2 : ℝ) : ℂ)) * ((c.e : ℂ)) ^ 2 * (N.c 1) * (ab z0.1 z1.1) * (mb ρ0 (p 1) z3.1) + (-2) * (((√2 : ℝ) : ℂ)) * ((c.e : ℂ)) ^ 2 * (N.c 2) * (ab z0.1 z1.1) * (ab z0.1 z3.1) * (sb z0.2 ρ0)) * i1 + ((1) * (((√2 : ℝ) : ℂ)) * ((c.e : ℂ)) ^ 2 * ((c.mass .u : ℂ)) * (N.c 1) * (ab z0.1 z3.1) * (sb z0.2 ρ0) + (-2) * (((√2 : ℝ) : ℂ)) * ((c.e : ℂ)) ^ 2 * ((c.mass .u : ℂ)) * (N.c 2) * (ab z0.1 z3.1) * (sb z0.2 ρ0)) * i2 + ((2) * ((c.MW : ℂ)) * (((√2 : ℝ) : ℂ)) * ((c.e : ℂ)) ^ 2 * ((c.mass .u : ℂ)) * (ab z0.1 z1.1) * (ab z0.1 z2.1) * (sb z0.2 ρ0) + (2) * (((√2 : ℝ) : ℂ)) * ((c.e : ℂ)) ^ 2 * ((c.mass .u : ℂ)) * (N.c 0) * (ab z0.1 z2.1) * (sb z1.2 ρ0) + (2) * (((√2 : ℝ) : ℂ)) * ((c.e : ℂ)) ^ 2 * (N.c 0) * (mb z1.2 (p 2) z0.1) * (sb z2.2 ρ0) + (-3) * (((√2 : ℝ) : ℂ)) * ((c.e : ℂ)) ^ 2 * (N.c 1) * (mb ρ0 (p 1) z0.1) * (sb z1.2 z2.2) + (-2) * (((√2 : ℝ) : ℂ)) * ((c.e : ℂ)) ^ 2 * (mb z1.2 (p 2) z0.1) * (mb z2.2 (p 1) z0.1) * (sb z0.2 ρ0)) * i3 + ((2) * (((√2 : ℝ) : ℂ)) * ((c.e : ℂ)) ^ 2 * ((c.mass .u : ℂ)) * (N.c 0) * (ab z0.1 z2.1) * (ab z1.1 z3.1) + (3) * (((√2 : ℝ) : ℂ)) * ((c.e : ℂ)) ^ 2 * ((c.mass .u : ℂ)) * (N.c 1) * (ab z0.1 z2.1) * (ab z1.1 z3.1) + (2) * (((√2 : ℝ) : ℂ)) * ((c.e : ℂ)) ^ 2 * (N.c 0) * (ab z0.1 z1.1) * (ab z0.1 z3.1) * (sb z0.2 z2.2) + (3) * (((√2 : ℝ) : ℂ)) * ((c.e : ℂ)) ^ 2 * (N.c 1) * (ab z0.1 z1.1) * (ab z0.1 z3.1) * (sb z0.2 z2.2)) * i4 + ((-2) * ((c.MW : ℂ)) * (((√2 : ℝ) : ℂ)) * ((c.e : ℂ)) ^ 2 * ((c.mass .u : ℂ)) * (ab z0.1 z1.1) * (ab z0.1 z2.1) * (sb z0.2 ρ0) + (-2) * (((√2 : ℝ) : ℂ)) * ((c.e : ℂ)) ^ 2 * ((c.mass .u : ℂ)) * (N.c 0) * (ab z0.1 z2.1) * (sb z1.2 ρ0) + (-2) * (((√2 : ℝ) : ℂ)) * ((c.e : ℂ)) ^ 2 * (N.c 0) * (mb z1.2 (p 2) z0.1) * (sb z2.2 ρ0) + (3) * (((√2 : ℝ) : ℂ)) * ((c.e : ℂ)) ^ 2 * (N.c 1) * (mb ρ0 (p 1) z0.1) * (sb z1.2 z2.2) + (2) * (((√2 : ℝ) : ℂ)) * ((c.e : ℂ)) ^ 2 * (mb z1.2 (p 2) z0.1) * (mb z2.2 (p 1) z0.1) * (sb z0.2 ρ0)) * i5 + ((-1) * (((√2 : ℝ) : ℂ)) * ((c.e : ℂ)) ^ 2 * ((c.mass .d : ℂ)) * (N.c 1) * (ab z0.1 z1.1) * (sb z2.2 ρ0) + (2) * (((√2 : ℝ) : ℂ)) * ((c.e : ℂ)) ^ 2 * ((c.mass .d : ℂ)) * (N.c 2) * (ab z0.1 z1.1) * (sb z2.2 ρ0)) * i6 + ((1) * (((√2 : ℝ) : ℂ)) * ((c.e : ℂ)) ^ 2 * ((c.mass .d : ℂ)) * (N.c 1) * (ab z0.1 z1.1) * (mb z1.2 (p 2) z0.1) + (-2) * (((√2 : ℝ) : ℂ)) * ((c.e : ℂ)) ^ 2 * ((c.mass .d : ℂ)) * (N.c 2) * (ab z0.1 z1.1) * (mb z1.2 (p 2) z0.1)) * i7 + ((1) * (((√2 : ℝ) : ℂ)) * ((c.e : ℂ)) ^ 2 * ((c.mass .u : ℂ)) * (N.c 0) * (ab z0.1 z2.1) * (sb z0.2 ρ0) + (-1) * (((√2 : ℝ) : ℂ)) * ((c.e : ℂ)) ^ 2 * ((c.mass .u : ℂ)) * (N.c 1) * (ab z0.1 z2.1) * (sb z0.2 ρ0) + (2) * (((√2 : ℝ) : ℂ)) * ((c.e : ℂ)) ^ 2 * ((c.mass .u : ℂ)) * (N.c 2) * (ab z0.1 z2.1) * (sb z0.2 ρ0) + (2) * (((√2 : ℝ) : ℂ)) * ((c.e : ℂ)) ^ 2 * (N.c 0) * (N.c 1) * (sb z2.2 ρ0) + (-2) * (((√2 : ℝ) : ℂ)) * ((c.e : ℂ)) ^ 2 * (N.c 0) * (mb z2.2 (p 1) z0.1) * (sb z0.2 ρ0) + (2) * (((√2 : ℝ) : ℂ)) * ((c.e : ℂ)) ^ 2 * (N.c 0) * (mb ρ0 (p 1) z0.1) * (sb z0.2 z2.2) + (1) * (((√2 : ℝ) : ℂ)) * ((c.e : ℂ)) ^ 2 * (N.c 0) * (mb ρ0 (p 2) z0.1) * (sb z0.2 z2.2) + (2) * (((√2 : ℝ) : ℂ)) * ((c.e : ℂ)) ^ 2 * (N.c 0) ^ 2 * (sb z2.2 ρ0) + (-3) * (((√2 : ℝ) : ℂ)) * ((c.e : ℂ)) ^ 2 * (N.c 1) * (mb z2.2 (p 1) z0.1) * (sb z0.2 ρ0) + (3) * (((√2 : ℝ) : ℂ)) * ((c.e : ℂ)) ^ 2 * (N.c 1) * (mb ρ0 (p 1) z0.1) * (sb z0.2 z2.2)) * i8 + ((1) * (((√2 : ℝ) : ℂ)) * ((c.e : ℂ)) ^ 2 * ((c.mass .d : ℂ)) * (N.c 1) * (ab z0.1 z1.1) * (mb z3.2 (p 1) z0.1) + (-2) * (((√2 : ℝ) : ℂ)) * ((c.e : ℂ)) ^ 2 * ((c.mass .d : ℂ)) * (N.c 2) * (ab z0.1 z1.1) * (mb z3.2 (p 1) z0.1) + (1) * (((√2 : ℝ) : ℂ)) * ((c.e : ℂ)) ^ 2 * ((c.mass .d : ℂ)) ^ 2 * (N.c 1) * (ab z0.1 z1.1) * (ab z0.1 z3.1) + (-2) * (((√2 : ℝ) : ℂ)) * ((c.e : ℂ)) ^ 2 * ((c.mass .d : ℂ)) ^ 2 * (N.c 2) * (ab z0.1 z1.1) * (ab z0.1 z3.1) + (2) * (((√2 : ℝ) : ℂ)) * ((c.e : ℂ)) ^ 2 * (N.c 0) * (N.c 1) * (ab z0.1 z1.1) * (ab z0.1 z3.1) + (2) * (((√2 : ℝ) : ℂ)) * ((c.e : ℂ)) ^ 2 * (N.c 0) ^ 2 * (ab z0.1 z1.1) * (ab z0.1 z3.1) + (-3) * (((√2 : ℝ) : ℂ)) * ((c.e : ℂ)) ^ 2 * (N.c 1) * (N.c 2) * (ab z0.1 z1.1) * (ab z0.1 z3.1)) * i9 + ((-2) * ((c.MW : ℂ)) * (((√2 : ℝ) : ℂ)) * ((c.e : ℂ)) ^ 2 * (N.c 0) * (ab z0.1 z1.1) * (ab z1.1 z3.1) + (-3) * ((c.MW : ℂ)) * (((√2 : ℝ) : ℂ)) * ((c.e : ℂ)) ^ 2 * (N.c 1) * (ab z0.1 z1.1) * (ab z1.1 z3.1) + (-2) * (((√2 : ℝ) : ℂ)) * ((c.e : ℂ)) ^ 2 * ((c.mass .d : ℂ)) * (N.c 0) * (ab z0.1 z1.1) * (sb z1.2 z3.2) + (-3) * (((√2 : ℝ) : ℂ)) * ((c.e : ℂ)) ^ 2 * ((c.mass .d : ℂ)) * (N.c 1) * (ab z0.1 z1.1) * (sb z1.2 z3.2) + (2) * (((√2 : ℝ) : ℂ)) * ((c.e : ℂ)) ^ 2 * (N.c 0) * (ab z0.1 z3.1) * (mb z1.2 (p 2) z1.1) + (3) * (((√2 : ℝ) : ℂ)) * ((c.e : ℂ)) ^ 2 * (N.c 1) * (ab z0.1 z3.1) * (mb z1.2 (p 2) z1.1)) * i10 + ((-1) * (((√2 : ℝ) : ℂ)) * ((c.e : ℂ)) ^ 2 * (N.c 1) * (ab z0.1 z1.1) * (ab z0.1 z3.1) * (sb z0.2 ρ0)) * i11 + ((-2) * (((√2 : ℝ) : ℂ)) * ((c.e : ℂ)) ^ 2 * (N.c 0) * (ab z0.1 z1.1) * (ab z0.1 z3.1) * (sb z0.2 ρ0) + (-2) * (((√2 : ℝ) : ℂ)) * ((c.e : ℂ)) ^ 2 * (N.c 1) * (ab z0.1 z1.1) * (ab z0.1 z3.1) * (sb z0.2 ρ0)) * i12 + ((1) * (((√2 : ℝ) : ℂ)) * ((c.e : ℂ)) ^ 2 * ((c.mass .d : ℂ)) * (N.c 1) * (ab z0.1 z1.1) * (sb z1.2 ρ0) + (-2) * (((√2 : ℝ) : ℂ)) * ((c.e : ℂ)) ^ 2 * ((c.mass .d : ℂ)) * (N.c 2) * (ab z0.1 z1.1) * (sb z1.2 ρ0)) * i13 + ((1) * (((√2 : ℝ) : ℂ)) * ((c.e : ℂ)) ^ 2 * ((c.mass .d : ℂ)) * ((c.mass .u : ℂ)) * (N.c 1) * (ab z0.1 z1.1) * (ab z0.1 z2.1) + (-2) * (((√2 : ℝ) : ℂ)) * ((c.e : ℂ)) ^ 2 * ((c.mass .d : ℂ)) * ((c.mass .u : ℂ)) * (N.c 2) * (ab z0.1 z1.1) * (ab z0.1 z2.1)) * i14 + ((-1) * ((c.MW : ℂ)) * (((√2 : ℝ) : ℂ)) * ((c.e : ℂ)) ^ 2 * (N.c 0) * (ab z0.1 z1.1) * (ab z1.1 z3.1) + (-1) * (((√2 : ℝ) : ℂ)) * ((c.e : ℂ)) ^ 2 * ((c.mass .d : ℂ)) * (N.c 0) * (ab z0.1 z1.1) * (sb z1.2 z3.2) + (1) * (((√2 : ℝ) : ℂ)) * ((c.e : ℂ)) ^ 2 * (N.c 0) * (ab z0.1 z3.1) * (mb z1.2 (p 2) z1.1)) * i15 + ((2) * ((c.MW : ℂ)) * (((√2 : ℝ) : ℂ)) * ((c.e : ℂ)) ^ 2 * ((c.mass .u : ℂ)) * (ab z0.1 z1.1) * (ab z0.1 z2.1) * (sb z0.2 ρ0) + (2) * (((√2 : ℝ) : ℂ)) * ((c.e : ℂ)) ^ 2 * ((c.mass .u : ℂ)) * (N.c 0) * (ab z0.1 z2.1) * (sb z1.2 ρ0) + (2) * (((√2 : ℝ) : ℂ)) * ((c.e : ℂ)) ^ 2 * (N.c 0) * (mb z1.2 (p 2) z0.1) * (sb z2.2 ρ0) + (-3) * (((√2 : ℝ) : ℂ)) * ((c.e : ℂ)) ^ 2 * (N.c 1) * (mb ρ0 (p 1) z0.1) * (sb z1.2 z2.2) + (-2) * (((√2 : ℝ) : ℂ)) * ((c.e : ℂ)) ^ 2 * (mb z1.2 (p 2) z0.1) * (mb z2.2 (p 1) z0.1) * (sb z0.2 ρ0)) * i16 + ((1) * (((√2 : ℝ) : ℂ)) * ((c.e : ℂ)) ^ 2 * ((c.mass .u : ℂ)) * (N.c 0) * (ab z0.1 z2.1) * (ab z1.1 z3.1) + (1) * (((√2 : ℝ) : ℂ)) * ((c.e : ℂ)) ^ 2 * (N.c 0) * (ab z0.1 z1.1) * (ab z0.1 z3.1) * (sb z0.2 z2.2)) * i17 + ((1) * (((√2 : ℝ) : ℂ)) * ((c.e : ℂ)) ^ 2 * (N.c 1) * (mb z1.2 (p 2) z0.1) * (sb z0.2 ρ0) + (-2) * (((√2 : ℝ) : ℂ)) * ((c.e : ℂ)) ^ 2 * (N.c 2) * (mb z1.2 (p 2) z0.1) * (sb z0.2 ρ0)) * i18 + ((-1) * (((√2 : ℝ) : ℂ)) * ((c.e : ℂ)) ^ 2 * ((c.mass .u : ℂ)) * (N.c 1) * (mb z1.2 (p 2) z0.1) * (sb z0.2 ρ0) + (2) * (((√2 : ℝ) : ℂ)) * ((c.e : ℂ)) ^ 2 * ((c.mass .u : ℂ)) * (N.c 2) * (mb z1.2 (p 2) z0.1) * (sb z0.2 ρ0)) * i19 + ((-2) * (((√2 : ℝ) : ℂ)) * ((c.e : ℂ)) ^ 2 * ((c.mass .u : ℂ)) * (N.c 0) * (ab z0.1 z2.1) * (sb z0.2 z1.2) + (-3) * (((√2 : ℝ) : ℂ)) * ((c.e : ℂ)) ^ 2 * ((c.mass .u : ℂ)) * (N.c 1) * (ab z0.1 z2.1) * (sb z0.2 z1.2) + (-3) * (((√2 : ℝ) : ℂ)) * ((c.e : ℂ)) ^ 2 * (N.c 0) * (N.c 1) * (sb z1.2 z2.2) + (-2) * (((√2 : ℝ) : ℂ)) * ((c.e : ℂ)) ^ 2 * (N.c 0) * (mb z1.2 (p 2) z0.1) * (sb z0.2 z2.2) + (-3) * (((√2 : ℝ) : ℂ)) * ((c.e : ℂ)) ^ 2 * (N.c 1) * (mb z1.2 (p 2) z0.1) * (sb z0.2 z2.2) + (-3) * (((√2 : ℝ) : ℂ)) * ((c.e : ℂ)) ^ 2 * (N.c 1) ^ 2 * (sb z1.2 z2.2)) * i20 + ((-2) * (((√2 : ℝ) : ℂ)) * ((c.e : ℂ)) ^ 2 * ((c.mass .d : ℂ)) * (N.c 1) * (N.c 2) * (ab z0.1 z1.1) + (1) * (((√2 : ℝ) : ℂ)) * ((c.e : ℂ)) ^ 2 * ((c.mass .d : ℂ)) * (N.c 1) ^ 2 * (ab z0.1 z1.1)) * i21)) * ((1) * ((c.MW : ℂ)⁻¹) * ((c.SW : ℂ)⁻¹) * ((N.c 0)⁻¹) * ((N.c 1)⁻¹) * ((N.c 2)⁻¹) / (3)) + ((-1) * ((c.MW : ℂ)) * (((√2 : ℝ) : ℂ)) * ((c.e : ℂ)) ^ 2 * ((c.MW : ℂ)⁻¹) * ((c.SW : ℂ)⁻¹) * (N.c 1) * ((N.c 1)⁻¹) * ((N.c 2)⁻¹) * (ab z0.1 z3.1) * (sb z1.2 z2.2) * (sb z1.2 ρ0) / (3) + (1) * (((√2 : ℝ) : ℂ)) * ((c.e : ℂ)) ^ 2 * ((c.MW : ℂ)⁻¹) * ((c.SW : ℂ)⁻¹) * ((c.mass .d : ℂ)) * (N.c 1) * ((N.c 1)⁻¹) * ((N.c 2)⁻¹) * (ab z0.1 z1.1) * (sb z1.2 z2.2) * (sb z3.2 ρ0) / (3) + (2) * (((√2 : ℝ) : ℂ)) * ((c.e : ℂ)) ^ 2 * ((c.MW : ℂ)⁻¹) * ((c.SW : ℂ)⁻¹) * ((c.mass .u : ℂ)) * (N.c 2) * ((N.c 1)⁻¹) * ((N.c 2)⁻¹) * (ab z0.1 z2.1) * (ab z1.1 z3.1) * (sb z1.2 ρ0) / (3) + (1) * (((√2 : ℝ) : ℂ)) * ((c.e : ℂ)) ^ 2 * ((c.MW : ℂ)⁻¹) * ((c.SW : ℂ)⁻¹) * (N.c 1) * ((N.c 1)⁻¹) * ((N.c 2)⁻¹) * (ab z0.1 z3.1) * (mb ρ0 (p 2) z1.1) * (sb z1.2 z2.2) / (3) + (2) * (((√2 : ℝ) : ℂ)) * ((c.e : ℂ)) ^ 2 * ((c.MW : ℂ)⁻¹) * ((c.SW : ℂ)⁻¹) * (N.c 2) * ((N.c 1)⁻¹) * ((N.c 2)⁻¹) * (ab z1.1 z3.1) * (mb z1.2 (p 2) z0.1) * (sb z2.2 ρ0) / (3)) * y0 + ((1) * ((c.MW : ℂ)) * (((√2 : ℝ) : ℂ)) * ((c.e : ℂ)) ^ 2 * ((c.MW : ℂ)⁻¹) * ((c.SW : ℂ)⁻¹) * ((N.c 0)⁻¹) * ((N.c 2)⁻¹) * (ab z0.1 z3.1) * (mb z1.2 (p 2) z0.1) * (sb z0.2 ρ0) * (sb z1.2 z2.2) / (3) + (-1) * ((c.MW : ℂ)) * (((√2 : ℝ) : ℂ)) * ((c.e : ℂ)) ^ 2 * ((c.MW : ℂ)⁻¹) * ((c.SW : ℂ)⁻¹) * ((N.c 2)⁻¹) * (ab z0.1 z3.1) * (sb z1.2 z2.2) * (sb z1.2 ρ0) / (3) + (-1) * (((√2 : ℝ) : ℂ)) * ((c.e : ℂ)) ^ 2 * ((c.MW : ℂ)⁻¹) * ((c.SW : ℂ)⁻¹) * ((c.mass .d : ℂ)) * ((N.c 0)⁻¹) * ((N.c 2)⁻¹) * (ab z0.1 z1.1) * (mb z3.2 (p 1) z0.1) * (sb z0.2 ρ0) * (sb z1.2 z2.2) / (3) + (1) * (((√2 : ℝ) : ℂ)) * ((c.e : ℂ)) ^ 2 * ((c.MW : ℂ)⁻¹) * ((c.SW : ℂ)⁻¹) * ((c.mass .d : ℂ)) * ((N.c 2)⁻¹) * (ab z0.1 z1.1) * (sb z1.2 z2.2) * (sb z3.2 ρ0) / (3) + (-1) * (((√2 : ℝ) : ℂ)) * ((c.e : ℂ)) ^ 2 * ((c.MW : ℂ)⁻¹) * ((c.SW : ℂ)⁻¹) * ((c.mass .d : ℂ)) ^ 2 * ((N.c 0)⁻¹) * ((N.c 2)⁻¹) * (ab z0.1 z1.1) * (ab z0.1 z3.1) * (sb z0.2 ρ0) * (sb z1.2 z2.2) / (3) + (1) * (((√2 : ℝ) : ℂ)) * ((c.e : ℂ)) ^ 2 * ((c.MW : ℂ)⁻¹) * ((c.SW : ℂ)⁻¹) * ((c.mass .u : ℂ)) ^ 2 * ((N.c 0)⁻¹) * ((N.c 2)⁻¹) * (ab z0.1 z1.1) * (ab z0.1 z3.1) * (sb z0.2 ρ0) * (sb z1.2 z2.2) / (3) + (1) * (((√2 : ℝ) : ℂ)) * ((c.e : ℂ)) ^ 2 * ((c.MW : ℂ)⁻¹) * ((c.SW : ℂ)⁻¹) * (N.c 2) * ((N.c 0)⁻¹) * ((N.c 2)⁻¹) * (ab z0.1 z1.1) * (ab z0.1 z3.1) * (sb z0.2 z1.2) * (sb z2.2 ρ0) + (-1) * (((√2 : ℝ) : ℂ)) * ((c.e : ℂ)) ^ 2 * ((c.MW : ℂ)⁻¹) * ((c.SW : ℂ)⁻¹) * (N.c 2) * ((N.c 0)⁻¹) * ((N.c 2)⁻¹) * (ab z0.1 z1.1) * (ab z0.1 z3.1) * (sb z0.2 z2.2) * (sb z1.2 ρ0) + (-1) * (((√2 : ℝ) : ℂ)) * ((c.e : ℂ)) ^ 2 * ((c.MW : ℂ)⁻¹) * ((c.SW : ℂ)⁻¹) * (N.c 2) * ((N.c 0)⁻¹) * ((N.c 2)⁻¹) * (ab z1.1 z3.1) * (mb ρ0 (p 1) z0.1) * (sb z1.2 z2.2) + (1) * (((√2 : ℝ) : ℂ)) * ((c.e : ℂ)) ^ 2 * ((c.MW : ℂ)⁻¹) * ((c.SW : ℂ)⁻¹) * ((N.c 2)⁻¹) * (ab z0.1 z3.1) * (mb ρ0 (p 2) z1.1) * (sb z1.2 z2.2) / (3)) * y1 + ((-2) * ((c.MW : ℂ)) * (((√2 : ℝ) : ℂ)) * ((c.e : ℂ)) ^ 2 * ((c.MW : ℂ)⁻¹) * ((c.SW : ℂ)⁻¹) * ((N.c 0)⁻¹) * ((N.c 1)⁻¹) * (ab z0.1 z3.1) * (mb z1.2 (p 2) z0.1) * (sb z0.2 ρ0) * (sb z1.2 z2.2) / (3) + (2) * (((√2 : ℝ) : ℂ)) * ((c.e : ℂ)) ^ 2 * ((c.MW : ℂ)⁻¹) * ((c.SW : ℂ)⁻¹) * ((c.mass .d : ℂ)) * ((N.c 0)⁻¹) * ((N.c 1)⁻¹) * (ab z0.1 z1.1) * (mb z3.2 (p 1) z0.1) * (sb z0.2 ρ0) * (sb z1.2 z2.2) / (3) + (2) * (((√2 : ℝ) : ℂ)) * ((c.e : ℂ)) ^ 2 * ((c.MW : ℂ)⁻¹) * ((c.SW : ℂ)⁻¹) * ((c.mass .d : ℂ)) ^ 2 * ((N.c 0)⁻¹) * ((N.c 1)⁻¹) * (ab z0.1 z1.1) * (ab z0.1 z3.1) * (sb z0.2 ρ0) * (sb z1.2 z2.2) / (3) + (2) * (((√2 : ℝ) : ℂ)) * ((c.e : ℂ)) ^ 2 * ((c.MW : ℂ)⁻¹) * ((c.SW : ℂ)⁻¹) * ((c.mass .u : ℂ)) * ((N.c 1)⁻¹) * (ab z0.1 z2.1) * (ab z1.1 z3.1) * (sb z1.2 ρ0) / (3) + (-2) * (((√2 : ℝ) : ℂ)) * ((c.e : ℂ)) ^ 2 * ((c.MW : ℂ)⁻¹) * ((c.SW : ℂ)⁻¹) * ((c.mass .u : ℂ)) ^ 2 * ((N.c 0)⁻¹) * ((N.c 1)⁻¹) * (ab z0.1 z1.1) * (ab z0.1 z3.1) * (sb z0.2 ρ0) * (sb z1.2 z2.2) / (3) + (1) * (((√2 : ℝ) : ℂ)) * ((c.e : ℂ)) ^ 2 * ((c.MW : ℂ)⁻¹) * ((c.SW : ℂ)⁻¹) * ((N.c 0)⁻¹) * (ab z0.1 z1.1) * (ab z0.1 z3.1) * (sb z0.2 z1.2) * (sb z2.2 ρ0) + (-1) * (((√2 : ℝ) : ℂ)) * ((c.e : ℂ)) ^ 2 * ((c.MW : ℂ)⁻¹) * ((c.SW : ℂ)⁻¹) * ((N.c 0)⁻¹) * (ab z0.1 z1.1) * (ab z0.1 z3.1) * (sb z0.2 z2.2) * (sb z1.2 ρ0) + (-1) * (((√2 : ℝ) : ℂ)) * ((c.e : ℂ)) ^ 2 * ((c.MW : ℂ)⁻¹) * ((c.SW : ℂ)⁻¹) * ((N.c 0)⁻¹) * (ab z1.1 z3.1) * (mb ρ0 (p 1) z0.1) * (sb z1.2 z2.2) + (2) * (((√2 : ℝ) : ℂ)) * ((c.e : ℂ)) ^ 2 * ((c.MW : ℂ)⁻¹) * ((c.SW : ℂ)⁻¹) * ((N.c 1)⁻¹) * (ab z1.1 z3.1) * (mb z1.2 (p 2) z0.1) * (sb z2.2 ρ0) / (3)) * y2 + ((1) * ((c.MW : ℂ)) * (((√2 : ℝ) : ℂ)) ^ 2 * ((c.e : ℂ)) ^ 2 * ((c.MW : ℂ)⁻¹) ^ 2 * (((√2 : ℝ) : ℂ)⁻¹) * ((c.SW : ℂ)⁻¹) * ((c.mass .d : ℂ)) * ((N.c 0)⁻¹) * (ab z0.1 z1.1) * (sb z1.2 ρ0) * (sb z2.2 z3.2) / (2) + (-1) * ((c.MW : ℂ)) * (((√2 : ℝ) : ℂ)) ^ 2 * ((c.e : ℂ)) ^ 2 * ((c.MW : ℂ)⁻¹) ^ 2 * (((√2 : ℝ) : ℂ)⁻¹) * ((c.SW : ℂ)⁻¹) * ((c.mass .u : ℂ)) * ((N.c 0)⁻¹) * (ab z0.1 z1.1) * (ab z2.1 z3.1) * (sb z1.2 ρ0) / (2) + (-1) * (((√2 : ℝ) : ℂ)) * ((c.e : ℂ)) ^ 2 * ((c.SW : ℂ)⁻¹) * ((N.c 2)⁻¹) * (ab z0.1 z3.1) * (sb z1.2 z2.2) * (sb z1.2 ρ0) / (3) + (1) * (((√2 : ℝ) : ℂ)) ^ 2 * ((c.e : ℂ)) ^ 2 * ((c.MW : ℂ)⁻¹) * (((√2 : ℝ) : ℂ)⁻¹) * ((c.SW : ℂ)⁻¹) * ((c.mass .d : ℂ)) * ((N.c 0)⁻¹) * (ab z0.1 z1.1) * (sb z1.2 ρ0) * (sb z2.2 z3.2) / (2) + (-1) * (((√2 : ℝ) : ℂ)) ^ 2 * ((c.e : ℂ)) ^ 2 * ((c.MW : ℂ)⁻¹) * (((√2 : ℝ) : ℂ)⁻¹) * ((c.SW : ℂ)⁻¹) * ((c.mass .u : ℂ)) * ((N.c 0)⁻¹) * (ab z0.1 z1.1) * (ab z2.1 z3.1) * (sb z1.2 ρ0) / (2) + (1) * (((√2 : ℝ) : ℂ)) ^ 2 * ((c.e : ℂ)) ^ 2 * (((√2 : ℝ) : ℂ)⁻¹) * ((c.SW : ℂ)⁻¹) * ((N.c 2)⁻¹) * (ab z0.1 z3.1) * (sb z1.2 z2.2) * (sb z1.2 ρ0) / (3)) * yMW + ((-1) * (((√2 : ℝ) : ℂ)) ^ 2 * ((c.e : ℂ)) ^ 2 * ((c.MW : ℂ)⁻¹) * ((c.SW : ℂ)⁻¹) * ((c.mass .d : ℂ)) * ((N.c 2)⁻¹) * (ab z0.1 z1.1) * (sb z1.2 z2.2) * (sb z3.2 ρ0) / (3) + (-2) * (((√2 : ℝ) : ℂ)) ^ 2 * ((c.e : ℂ)) ^ 2 * ((c.MW : ℂ)⁻¹) * ((c.SW : ℂ)⁻¹) * ((c.mass .u : ℂ)) * ((N.c 1)⁻¹) * (ab z0.1 z2.1) * (ab z1.1 z3.1) * (sb z1.2 ρ0) / (3) + (-1) * (((√2 : ℝ) : ℂ)) ^ 2 * ((c.e : ℂ)) ^ 2 * ((c.MW : ℂ)⁻¹) * ((c.SW : ℂ)⁻¹) * ((N.c 0)⁻¹) * (ab z0.1 z1.1) * (ab z0.1 z3.1) * (sb z0.2 z1.2) * (sb z2.2 ρ0) + (1) * (((√2 : ℝ) : ℂ)) ^ 2 * ((c.e : ℂ)) ^ 2 * ((c.MW : ℂ)⁻¹) * ((c.SW : ℂ)⁻¹) * ((N.c 0)⁻¹) * (ab z0.1 z1.1) * (ab z0.1 z3.1) * (sb z0.2 z2.2) * (sb z1.2 ρ0) + (1) * (((√2 : ℝ) : ℂ)) ^ 2 * ((c.e : ℂ)) ^ 2 * ((c.MW : ℂ)⁻¹) * ((c.SW : ℂ)⁻¹) * ((N.c 0)⁻¹) * (ab z1.1 z3.1) * (mb ρ0 (p 1) z0.1) * (sb z1.2 z2.2) + (-2) * (((√2 : ℝ) : ℂ)) ^ 2 * ((c.e : ℂ)) ^ 2 * ((c.MW : ℂ)⁻¹) * ((c.SW : ℂ)⁻¹) * ((N.c 1)⁻¹) * (ab z1.1 z3.1) * (mb z1.2 (p 2) z0.1) * (sb z2.2 ρ0) / (3) + (-1) * (((√2 : ℝ) : ℂ)) ^ 2 * ((c.e : ℂ)) ^ 2 * ((c.MW : ℂ)⁻¹) * ((c.SW : ℂ)⁻¹) * ((N.c 2)⁻¹) * (ab z0.1 z3.1) * (mb ρ0 (p 2) z1.1) * (sb z1.2 z2.2) / (3) + (1) * (((√2 : ℝ) : ℂ)) ^ 2 * ((c.e : ℂ)) ^ 2 * ((c.SW : ℂ)⁻¹) * ((N.c 2)⁻¹) * (ab z0.1 z3.1) * (sb z1.2 z2.2) * (sb z1.2 ρ0) / (3)) * yR2 + ((-1) * (((√2 : ℝ) : ℂ)) * ((c.e : ℂ)) ^ 2 * ((c.MW : ℂ)⁻¹) * ((c.SW : ℂ)⁻¹) * ((c.mass .d : ℂ)) * ((N.c 2)⁻¹) * (ab z0.1 z1.1) * (sb z1.2 z2.2) * (sb z3.2 ρ0) / (6) + (-1) * (((√2 : ℝ) : ℂ)) * ((c.e : ℂ)) ^ 2 * ((c.MW : ℂ)⁻¹) * ((c.SW : ℂ)⁻¹) * ((c.mass .u : ℂ)) * ((N.c 1)⁻¹) * (ab z0.1 z2.1) * (ab z1.1 z3.1) * (sb z1.2 ρ0) / (3) + (-1) * (((√2 : ℝ) : ℂ)) * ((c.e : ℂ)) ^ 2 * ((c.MW : ℂ)⁻¹) * ((c.SW : ℂ)⁻¹) * ((N.c 0)⁻¹) * (ab z0.1 z1.1) * (ab z0.1 z3.1) * (sb z0.2 z1.2) * (sb z2.2 ρ0) / (2) + (1) * (((√2 : ℝ) : ℂ)) * ((c.e : ℂ)) ^ 2 * ((c.MW : ℂ)⁻¹) * ((c.SW : ℂ)⁻¹) * ((N.c 0)⁻¹) * (ab z0.1 z1.1) * (ab z0.1 z3.1) * (sb z0.2 z2.2) * (sb z1.2 ρ0) / (2) + (1) * (((√2 : ℝ) : ℂ)) * ((c.e : ℂ)) ^ 2 * ((c.MW : ℂ)⁻¹) * ((c.SW : ℂ)⁻¹) * ((N.c 0)⁻¹) * (ab z1.1 z3.1) * (mb ρ0 (p 1) z0.1) * (sb z1.2 z2.2) / (2) + (-1) * (((√2 : ℝ) : ℂ)) * ((c.e : ℂ)) ^ 2 * ((c.MW : ℂ)⁻¹) * ((c.SW : ℂ)⁻¹) * ((N.c 1)⁻¹) * (ab z1.1 z3.1) * (mb z1.2 (p 2) z0.1) * (sb z2.2 ρ0) / (3) + (-1) * (((√2 : ℝ) : ℂ)) * ((c.e : ℂ)) ^ 2 * ((c.MW : ℂ)⁻¹) * ((c.SW : ℂ)⁻¹) * ((N.c 2)⁻¹) * (ab z0.1 z3.1) * (mb ρ0 (p 2) z1.1) * (sb z1.2 z2.2) / (6) + (1) * (((√2 : ℝ) : ℂ)) * ((c.e : ℂ)) ^ 2 * ((c.SW : ℂ)⁻¹) * ((N.c 2)⁻¹) * (ab z0.1 z3.1) * (sb z1.2 z2.2) * (sb z1.2 ρ0) / (6)) * x22
set_option maxRecDepth 8000 in
theorem AWud.amp2_eq (N : Env) (f : Nat → List Int → ℂ) : Cls.AWud.m_amp2.mean N f .r [] =
    ((sumW (fun x a => (sumV (fun x b => (sumJ (fun x c => (sumJ (fun x d => (x + (((3 : Nat) : ℝ) * (‖(f 0 [a, b, c, d])‖ ^ 2)))) x)) x)) x)) ((0 : Nat) : ℝ)) / ((6 : Nat) : ℝ)) := by rfl
set_option maxRecDepth 8000 in
theorem AWud.value (N : Env) : meaning N .r Cls.AWud.methods Cls.AWud.amp2 [] =
    ((sumW (fun x a => (sumV (fun x b => (sumJ (fun x c => (sumJ (fun x d => (x + (((3 : Nat) : ℝ) * (‖(Cls.AWud.m_amp.mean N (callMean N []) .c [a, b, c, d])‖ ^ 2)))) x)) x)) x)) ((0 : Nat) : ℝ)) / ((6 : Nat) : ℝ)) :=
  AWud.amp2_eq N (callMean N [Cls.AWud.m_amp])
theorem AWud.termP_lin (N : Env) (w : ℝ) (x : ℂ) (a1 b1 j3 j4 : Int) : AWud.termP N w x a1 b1 j3 j4 = x + (w : ℂ) * AWud.termP N 1 0 a1 b1 j3 j4 := by
  simp only [AWud.termP]; push_cast; ring
theorem AWud.termM_lin (N : Env) (w : ℝ) (x : ℂ) (a1 b1 j3 j4 : Int) : AWud.termM N w x a1 b1 j3 j4 = x + (w : ℂ) * AWud.termM N 1 0 a1 b1 j3 j4 := by
  simp only [AWud.termM]; push_cast; ring
set_option maxRecDepth 8000 in
theorem AWud.ampP (N : Env) (f : Nat → List Int → ℂ) (j3 j4 : Int) (t1 : Fin 3) : Cls.AWud.m_amp.mean N f .c [2, spinV t1, j3, j4] = comb t1 (fun a1 b1 => AWud.termP N 1 0 (spinOf a1) (spinOf b1) j3 j4) := by
  refine (amp_mean N f (m := 4) (K := 6) (G := fun i => if 0 < i 0 then AWud.termP N 1 0 (i 4) (i 5) (i 2) (i 3) else if i 0 < 0 then AWud.termM N 1 0 (i 4) (i 5) (i 2) (i 3) else 0) (fun l => ?_) (fun i i' h => ?_) rfl (by decide) (by decide) (by decide) (by decide) (by decide)).trans ?_
  · by_cases h : 0 < l.i 0
    · refine ⟨_, (if_pos (decide_eq_true h)).trans rfl, rfl, rfl, ?_⟩; rw [if_pos h]; exact AWud.termP_lin ..
    · by_cases h' : l.i 0 < 0
      · refine ⟨_, (if_neg (fun e => h (of_decide_eq_true e))).trans ((if_pos (decide_eq_true h')).trans rfl), rfl, rfl, ?_⟩; rw [if_neg h, if_pos h']; exact AWud.termM_lin ..
      · refine ⟨_, (if_neg (fun e => h (of_decide_eq_true e))).trans ((if_neg (fun e => h' (of_decide_eq_true e))).trans rfl), rfl, rfl, ?_⟩; rw [if_neg h, if_neg h', mul_zero, add_zero]
  · simp only [h 0 (by decide), h 2 (by decide), h 3 (by decide), h 4 (by decide), h 5 (by decide)]
  · show amp' _ [spinV t1] = _
    simp only [amp'_comb, amp'_nil]
    rfl
theorem AWud.formP_x1 (N : Env) (p : Nat → V4 ℝ) (z0 y1 z2 z3 x y : Pair) : AWud.formP N p z0 (x + y) y1 z2 z3 = AWud.formP N p z0 x y1 z2 z3 + AWud.formP N p z0 y y1 z2 z3 := by
  simp only [AWud.formP, Prod.fst_add, Prod.snd_add, ab_add_left, ab_add_right, sb_add_left, sb_add_right, mb_add_left, mb_add_right]
  ring
theorem AWud.formP_y1 (N : Env) (p : Nat → V4 ℝ) (z0 x1 z2 z3 x y : Pair) : AWud.formP N p z0 x1 (x + y) z2 z3 = AWud.formP N p z0 x1 x z2 z3 + AWud.formP N p z0 x1 y z2 z3 := by
  simp only [AWud.formP, Prod.fst_add, Prod.snd_add, ab_add_left, ab_add_right, sb_add_left, sb_add_right, mb_add_left, mb_add_right]
  ring
set_option maxRecDepth 8000 in
theorem AWud.ampM (N : Env) (f : Nat → List Int → ℂ) (j3 j4 : Int) (t1 : Fin 3) : Cls.AWud.m_amp.mean N f .c [(-2), spinV t1, j3, j4] = comb t1 (fun a1 b1 => AWud.termM N 1 0 (spinOf a1) (spinOf b1) j3 j4) := by
  refine (amp_mean N f (m := 4) (K := 6) (G := fun i => if 0 < i 0 then AWud.termP N 1 0 (i 4) (i 5) (i 2) (i 3) else if i 0 < 0 then AWud.termM N 1 0 (i 4) (i 5) (i 2) (i 3) else 0) (fun l => ?_) (fun i i' h => ?_) rfl (by decide) (by decide) (by decide) (by decide) (by decide)).trans ?_
  · by_cases h : 0 < l.i 0
    · refine ⟨_, (if_pos (decide_eq_true h)).trans rfl, rfl, rfl, ?_⟩; rw [if_pos h]; exact AWud.termP_lin ..
    · by_cases h' : l.i 0 < 0
      · refine ⟨_, (if_neg (fun e => h (of_decide_eq_true e))).trans ((if_pos (decide_eq_true h')).trans rfl), rfl, rfl, ?_⟩; rw [if_neg h, if_pos h']; exact AWud.termM_lin ..
      · refine ⟨_, (if_neg (fun e => h (of_decide_eq_true e))).trans ((if_neg (fun e => h' (of_decide_eq_true e))).trans rfl), rfl, rfl, ?_⟩; rw [if_neg h, if_neg h', mul_zero, add_zero]
  · simp only [h 0 (by decide), h 2 (by decide), h 3 (by decide), h 4 (by decide), h 5 (by decide)]
  · show amp' _ [spinV t1] = _
    simp only [amp'_comb, amp'_nil]
    rfl
theorem AWud.formM_x1 (N : Env) (p : Nat → V4 ℝ) (z0 y1 z2 z3 x y : Pair) : AWud.formM N p z0 (x + y) y1 z2 z3 = AWud.formM N p z0 x y1 z2 z3 + AWud.formM N p z0 y y1 z2 z3 := by
  simp only [AWud.formM, Prod.fst_add, Prod.snd_add, ab_add_left, ab_add_right, sb_add_left, sb_add_right, mb_add_left, mb_add_right]
  ring
theorem AWud.formM_y1 (N : Env) (p : Nat → V4 ℝ) (z0 x1 z2 z3 x y : Pair) : AWud.formM N p z0 x1 (x + y) z2 z3 = AWud.formM N p z0 x1 x z2 z3 + AWud.formM N p z0 x1 y z2 z3 := by
  simp only [AWud.formM, Prod.fst_add, Prod.snd_add, ab_add_left, ab_add_right, sb_add_left, sb_add_right, mb_add_left, mb_add_right]
  ring
set_option maxRecDepth 8000 in
theorem AWud.ampP_one (N : Env) (f : Nat → List Int → ℂ) (j3 j4 : Int) (t1 : Fin 3) : Cls.AWud.m_amp.mean N f .c [1, spinV t1, j3, j4] = comb t1 (fun a1 b1 => AWud.termP N 1 0 (spinOf a1) (spinOf b1) j3 j4) := by
  refine (amp_mean N f (m := 4) (K := 6) (G := fun i => if 0 < i 0 then AWud.termP N 1 0 (i 4) (i 5) (i 2) (i 3) else if i 0 < 0 then AWud.termM N 1 0 (i 4) (i 5) (i 2) (i 3) else 0) (fun l => ?_) (fun i i' h => ?_) rfl (by decide) (by decide) (by decide) (by decide) (by decide)).trans ?_
  · by_cases h : 0 < l.i 0
    · refine ⟨_, (if_pos (decide_eq_true h)).trans rfl, rfl, rfl, ?_⟩; rw [if_pos h]; exact AWud.termP_lin ..
    · by_cases h' : l.i 0 < 0
      · refine ⟨_, (if_neg (fun e => h (of_decide_eq_true e))).trans ((if_pos (decide_eq_true h')).trans rfl), rfl, rfl, ?_⟩; rw [if_neg h, if_pos h']; exact AWud.termM_lin ..
      · refine ⟨_, (if_neg (fun e => h (of_decide_eq_true e))).trans ((if_neg (fun e => h' (of_decide_eq_true e))).trans rfl), rfl, rfl, ?_⟩; rw [if_neg h, if_neg h', mul_zero, add_zero]
  · simp only [h 0 (by decide), h 2 (by decide), h 3 (by decide), h 4 (by decide), h 5 (by decide)]
  · show amp' _ [spinV t1] = _
    simp only [amp'_comb, amp'_nil]
    rfl

theorem AWud.mass_eq {c : Constants} (hc : c.Physical) (i : Fin 4) : AWud.proc.massNum (AWud.rho c) i = AWud.react.mass c i := by
  fin_cases i <;> first | rfl | exact Nat.cast_zero | exact Nat.cast_zero.trans (hc.neutrino _).symm | (show c.MW / √(((1 : Nat) : ℝ) - c.SW * c.SW) = c.MZ; rw [c.root, c.mz])

variable [FPEnv] in
theorem AWud.amps {c : Constants} {p : Nat → V4 ℝ} {u : Fin 4 → Fin 3 → Spinor} {ε : Fin 4 → Fin 3 → Vec} (hc : c.Physical) (hh : c.Heavy) (hw : ∀ q ∈ AWud.absent, c.get q = 0) (h0 : ∀ i, 0 ≤ AWud.react.mass c i) (hs : ∀ i : Fin 4, OnShell (p i) (AWud.react.mass c i)) (hb : Balanced p) (hr : AWud.react.Regular c p) (hu : ∀ i, AWud.react.Complete c p i (u i) (ε i)) :
    (AWud.N c p).c 0 ≠ 0 ∧ (AWud.N c p).c 1 ≠ 0 ∧ (AWud.N c p).c 2 ≠ 0 ∧ (∀ n, (Ty.r, n) ∈ AWud.proc.divides → (AWud.N c p).r n ≠ 0) ∧ (∀ n, (Ty.c, n) ∈ AWud.proc.divides → (AWud.N c p).c n ≠ 0) ∧ ∀ (s2 : Fin 2) (s3 : Fin 2) (h0 : Fin 2) (t1 : Fin 3), ‖Cls.AWud.m_amp.mean (AWud.N c p) (callMean (AWud.N c p) []) .c [spinW h0, spinV t1, spinOf s2, spinOf s3]‖ = ‖AWud.react.bare c p 2 3 0 1 (AWud.react.codePair c p 2 s2) (AWud.react.codePair c p 3 s3) (lightE (legA (p 0) 0 0, legS (p 0) 0 1) h0.castSucc) (AWud.react.codeVec c p 1 t1)‖ := by
  have he : AWud.react.ends = [2] := by decide
  have ht : AWud.react.starts = [3] := by decide
  have hB : AWud.react.bosons = [0, 1] := by decide
  obtain ⟨f1, f2, f3⟩ := AWud.react.regular_line he ht hB hr
  have r1 : (AWud.N c p).r 1 = (c.mass .u) := rfl
  have r2 : (AWud.N c p).r 2 = (c.mass .d) := rfl
  have r3 : (AWud.N c p).r 3 = c.MW := rfl
  have r6 : (AWud.N c p).r 6 = (((√(((2 : Nat) : ℝ)) * c.e) * c.e) / (c.MW * c.SW)) := rfl
  have hWW : c.WW = 0 := hw .WW (by simp [AWud])
  have c0 : (AWud.N c p).c 0 = poleDist c.MW c.WW ((VExp.add 0 1).sum p) := rfl
  have d0 : pole c.MW c.WW (plus (p 0) (p 1)) = (AWud.N c p).c 0 := by rw [c0, pole_congr (msq_s hb (plus (p 0) (p 1)) (by simp)).symm]
  have n0 : (AWud.N c p).c 0 ≠ 0 := by rw [← d0]; exact star_ne_zero.2 (f3 .wPlus rfl rfl)
  rw [hWW, pole_fermion rfl] at c0
  have c1 : (AWud.N c p).c 1 = poleDist (c.mass .u) ((0 : Nat) : ℝ) ((VExp.sub 0 2).sum p) := rfl
  rw [Nat.cast_zero, pole_fermion rfl] at c1
  have d1 : ((msq (plus (backward (p 3)) (p 1)) - c.mass .u ^ 2 : ℝ) : ℂ) = (AWud.N c p).c 1 := by rw [c1, msq_t hb (plus (backward (p 3)) (p 1)) (by simp)]
  have n1 : (AWud.N c p).c 1 ≠ 0 := by rw [← d1]; exact_mod_cast f2 .u rfl rfl
  have c2 : (AWud.N c p).c 2 = poleDist (c.mass .d) ((0 : Nat) : ℝ) ((VExp.sub 0 3).sum p) := rfl
  rw [Nat.cast_zero, pole_fermion rfl] at c2
  have d2 : ((msq (plus (backward (p 3)) (p 0)) - c.mass .d ^ 2 : ℝ) : ℂ) = (AWud.N c p).c 2 := by rw [c2, msq_u hb (plus (backward (p 3)) (p 0)) (by simp)]
  have n2 : (AWud.N c p).c 2 ≠ 0 := by rw [← d2]; exact_mod_cast f1 .d rfl rfl
  have c3 : (AWud.N c p).c 3 = (((((-((1 : Nat) : ℝ)) : ℝ) : ℂ) / (AWud.N c p).c 0) * (((((((2 : Nat) : ℝ) / ((3 : Nat) : ℝ)) : ℝ) : ℂ) / (AWud.N c p).c 1) - ((((((1 : Nat) : ℝ) / ((3 : Nat) : ℝ)) : ℝ) : ℂ) / (AWud.N c p).c 2))) := rfl
  obtain ⟨l0, x0, y0⟩ := AWud.react.code_light hs hu (n := 0) rfl rfl
  have e01 := l0.pole_add (m := c.MW) (onShell_msq (hs 1)) (msq_s hb (plus (p 0) (p 1)) (by simp)) c0
  have e02 := l0.pole_sub (m := (c.mass .u)) (onShell_msq (hs 2)) (msq_t hb (plus (p 0) (backward (p 2))) (by simp)) c1
  have e03 := l0.pole_sub (m := (c.mass .d)) (onShell_msq (hs 3)) (msq_u hb (plus (p 0) (backward (p 3))) (by simp)) c2
  have m1 : AWud.react.mass c 1 ≠ 0 := (leg_pos hc hh (by decide)).ne'
  have m2 : AWud.react.mass c 2 ≠ 0 := (leg_pos hc hh (by decide)).ne'
  have m3 : AWud.react.mass c 3 ≠ 0 := (leg_pos hc hh (by decide)).ne'
  have m0 : AWud.react.mass c 0 = 0 := rfl
  have hd : AWud.proc.divides = [] := by decide +kernel
  have stP : ∀ {z2 z3 : Pair} (b2 : Bold (p 2) (AWud.react.mass c 2) z2) (b3 : Bold (p 3) (AWud.react.mass c 3) z3) (t1 : Fin 3), comb t1 (fun a1 b1 => AWud.formP (AWud.N c p) p (legA (p 0) 0 0, legS (p 0) 0 1) (AWud.react.codePair c p 1 a1) (AWud.react.codePair c p 1 b1) z2 z3) = (-1) * AWud.react.bare c p 2 3 0 1 z2 z3 (lightE (legA (p 0) 0 0, legS (p 0) 0 1) 1) (AWud.react.codeVec c p 1 t1) := by
    intro z2 z3 b2 b3 t1
    refine one_vector (p := p 1) (m := AWud.react.mass c 1) (fun s => AWud.react.codePair_bold hs h0 1 s) (B := fun x y => AWud.formP (AWud.N c p) p (legA (p 0) 0 0, legS (p 0) 0 1) x y z2 z3) (G := fun E => AWud.react.bare c p 2 3 0 1 z2 z3 (lightE (legA (p 0) 0 0, legS (p 0) 0 1) 1) E) (fun x y z => ?_) (fun x y z => ?_) (AWud.react.bare_lin₂ c p _ _ _ (by decide)) (-1) (fun z1 b1 => ?_) t1
    · exact AWud.formP_x1 ..
    · exact AWud.formP_y1 ..
    · exact (light_plus (z := (legA (p 0) 0 0, legS (p 0) 0 1)) (G := fun E => AWud.react.bare c p 2 3 0 1 z2 z3 E (pv z1.1 z1.2)) (AWud.react.bare_lin₁ c p _ _ _ (by decide)) x0 (AWud.keyP hc hb r1 r2 r3 r6 c3 d0 n0 d1 n1 d2 n2 b1 b2 b3 l0 e01 e02 e03 (onShell_msq (hs 1)) (onShell_msq (hs 2)) (onShell_msq (hs 3)) _)).trans (mul_assoc _ _ _)
  have stM : ∀ {z2 z3 : Pair} (b2 : Bold (p 2) (AWud.react.mass c 2) z2) (b3 : Bold (p 3) (AWud.react.mass c 3) z3) (t1 : Fin 3), comb t1 (fun a1 b1 => AWud.formM (AWud.N c p) p (legA (p 0) 0 0, legS (p 0) 0 1) (AWud.react.codePair c p 1 a1) (AWud.react.codePair c p 1 b1) z2 z3) = (-1) * AWud.react.bare c p 2 3 0 1 z2 z3 (lightE (legA (p 0) 0 0, legS (p 0) 0 1) 0) (AWud.react.codeVec c p 1 t1) := by
    intro z2 z3 b2 b3 t1
    refine one_vector (p := p 1) (m := AWud.react.mass c 1) (fun s => AWud.react.codePair_bold hs h0 1 s) (B := fun x y => AWud.formM (AWud.N c p) p (legA (p 0) 0 0, legS (p 0) 0 1) x y z2 z3) (G := fun E => AWud.react.bare c p 2 3 0 1 z2 z3 (lightE (legA (p 0) 0 0, legS (p 0) 0 1) 0) E) (fun x y z => ?_) (fun x y z => ?_) (AWud.react.bare_lin₂ c p _ _ _ (by decide)) (-1) (fun z1 b1 => ?_) t1
    · exact AWud.formM_x1 ..
    · exact AWud.formM_y1 ..
    · exact (light_minus (z := (legA (p 0) 0 0, legS (p 0) 0 1)) (G := fun E => AWud.react.bare c p 2 3 0 1 z2 z3 E (pv z1.1 z1.2)) (AWud.react.bare_lin₁ c p _ _ _ (by decide)) y0 (AWud.keyM hc hb r1 r2 r3 r6 c3 d0 n0 d1 n1 d2 n2 b1 b2 b3 l0 e01 e02 e03 (onShell_msq (hs 1)) (onShell_msq (hs 2)) (onShell_msq (hs 3)) _)).trans (mul_assoc _ _ _)
  have amP : ∀ (s2 : Fin 2) (s3 : Fin 2) (t1 : Fin 3), Cls.AWud.m_amp.mean (AWud.N c p) (callMean (AWud.N c p) []) .c [2, spinV t1, spinOf s2, spinOf s3] = (-1) * AWud.react.bare c p 2 3 0 1 (AWud.react.codePair c p 2 s2) (AWud.react.codePair c p 3 s3) (lightE (legA (p 0) 0 0, legS (p 0) 0 1) 1) (AWud.react.codeVec c p 1 t1) := by
    intro s2 s3 t1
    rw [AWud.ampP, ← stP (AWud.react.codePair_bold hs h0 2 s2) (AWud.react.codePair_bold hs h0 3 s3) t1]
    refine congrArg (comb t1) (funext fun a1 => funext fun b1 => ?_)
    have v2x1z3 : (AWud.N c p).v 2 [spinOf a1, spinOf s3] = ab (AWud.react.codePair c p 1 a1).1 (AWud.react.codePair c p 3 s3).1 := bra_angle (p := p) (m := AWud.proc.massNum (AWud.rho c)) (AWud.mass_eq hc 1) (AWud.mass_eq hc 3) (.inl ⟨m1, rfl⟩) (.inl ⟨m3, rfl⟩)
    have v1z0z2 : (AWud.N c p).v 1 [spinOf s2] = sb (legA (p 0) 0 0, legS (p 0) 0 1).2 (AWud.react.codePair c p 2 s2).2 := bra_square (p := p) (m := AWud.proc.massNum (AWud.rho c)) (AWud.mass_eq hc 0) (AWud.mass_eq hc 2) (.inr ⟨m0, rfl⟩) (.inl ⟨m2, rfl⟩)
    have v3z0y1 : (AWud.N c p).v 3 [spinOf b1] = mb (legA (p 0) 0 0, legS (p 0) 0 1).2 (p 3) (AWud.react.codePair c p 1 b1).1 := bra_mid_square (p := p) (m := AWud.proc.massNum (AWud.rho c)) (AWud.mass_eq hc 0) (AWud.mass_eq hc 1) (.inr ⟨m0, rfl⟩) (.inl ⟨m1, rfl⟩)
    have v0z0y1 : (AWud.N c p).v 0 [spinOf b1] = sb (legA (p 0) 0 0, legS (p 0) 0 1).2 (AWud.react.codePair c p 1 b1).2 := bra_square (p := p) (m := AWud.proc.massNum (AWud.rho c)) (AWud.mass_eq hc 0) (AWud.mass_eq hc 1) (.inr ⟨m0, rfl⟩) (.inl ⟨m1, rfl⟩)
    have v4z0z2 : (AWud.N c p).v 4 [spinOf s2] = mb (legA (p 0) 0 0, legS (p 0) 0 1).2 (p 3) (AWud.react.codePair c p 2 s2).1 := bra_mid_square (p := p) (m := AWud.proc.massNum (AWud.rho c)) (AWud.mass_eq hc 0) (AWud.mass_eq hc 2) (.inr ⟨m0, rfl⟩) (.inl ⟨m2, rfl⟩)
    simp only [AWud.termP, AWud.formP, v2x1z3, v1z0z2, v3z0y1, v0z0y1, v4z0z2]
    push_cast
    ring
  have amM : ∀ (s2 : Fin 2) (s3 : Fin 2) (t1 : Fin 3), Cls.AWud.m_amp.mean (AWud.N c p) (callMean (AWud.N c p) []) .c [(-2), spinV t1, spinOf s2, spinOf s3] = (-1) * AWud.react.bare c p 2 3 0 1 (AWud.react.codePair c p 2 s2) (AWud.react.codePair c p 3 s3) (lightE (legA (p 0) 0 0, legS (p 0) 0 1) 0) (AWud.react.codeVec c p 1 t1) := by
    intro s2 s3 t1
    rw [AWud.ampM, ← stM (AWud.react.codePair_bold hs h0 2 s2) (AWud.react.codePair_bold hs h0 3 s3) t1]
    refine congrArg (comb t1) (funext fun a1 => funext fun b1 => ?_)
    have v7x1z2 : (AWud.N c p).v 7 [spinOf a1, spinOf s2] = sb (AWud.react.codePair c p 1 a1).2 (AWud.react.codePair c p 2 s2).2 := bra_square (p := p) (m := AWud.proc.massNum (AWud.rho c)) (AWud.mass_eq hc 1) (AWud.mass_eq hc 2) (.inl ⟨m1, rfl⟩) (.inl ⟨m2, rfl⟩)
    have v6z0z3 : (AWud.N c p).v 6 [spinOf s3] = ab (legA (p 0) 0 0, legS (p 0) 0 1).1 (AWud.react.codePair c p 3 s3).1 := bra_angle (p := p) (m := AWud.proc.massNum (AWud.rho c)) (AWud.mass_eq hc 0) (AWud.mass_eq hc 3) (.inr ⟨m0, rfl⟩) (.inl ⟨m3, rfl⟩)
    have v8y1z0 : (AWud.N c p).v 8 [spinOf b1] = mb (AWud.react.codePair c p 1 b1).2 (p 2) (legA (p 0) 0 0, legS (p 0) 0 1).1 := bra_mid_square (p := p) (m := AWud.proc.massNum (AWud.rho c)) (AWud.mass_eq hc 1) (AWud.mass_eq hc 0) (.inl ⟨m1, rfl⟩) (.inr ⟨m0, rfl⟩)
    have v5z0y1 : (AWud.N c p).v 5 [spinOf b1] = ab (legA (p 0) 0 0, legS (p 0) 0 1).1 (AWud.react.codePair c p 1 b1).1 := bra_angle (p := p) (m := AWud.proc.massNum (AWud.rho c)) (AWud.mass_eq hc 0) (AWud.mass_eq hc 1) (.inr ⟨m0, rfl⟩) (.inl ⟨m1, rfl⟩)
    have v9z3z0 : (AWud.N c p).v 9 [spinOf s3] = mb (AWud.react.codePair c p 3 s3).2 (p 2) (legA (p 0) 0 0, legS (p 0) 0 1).1 := bra_mid_square (p := p) (m := AWud.proc.massNum (AWud.rho c)) (AWud.mass_eq hc 3) (AWud.mass_eq hc 0) (.inl ⟨m3, rfl⟩) (.inr ⟨m0, rfl⟩)
    simp only [AWud.termM, AWud.formM, v7x1z2, v6z0z3, v8y1z0, v5z0y1, v9z3z0]
    push_cast
    ring
  refine ⟨n0, n1, n2, fun n hn => ?_, fun n hn => ?_, ?_⟩
  · simp [hd] at hn
  · simp [hd] at hn
  intro s2 s3 h0 t1
  match h0 with
  | 1 => exact norm_minus (amP s2 s3 t1)
  | 0 => exact norm_minus (amM s2 s3 t1)

variable [FPEnv] in
theorem AWud.agrees : AWud.Agrees := by
  refine agreesSet_of [0, 1, 2] (D := [3, 4]) (E := [4]) (by simp [all, AWud]) (by decide +kernel) (by decide) (by decide +kernel) (fun c hc hh => ⟨List.forall_mem_cons.2 ⟨hc.MW, List.forall_mem_cons.2 ⟨hc.SW, List.forall_mem_nil _⟩⟩, List.forall_mem_cons.2 ⟨hc.SW_lt, List.forall_mem_nil _⟩⟩) (fun c hc i => AWud.mass_eq hc i) (by decide +kernel) ?_
  intro c p u ε hc hh hw h0 hs hb hr hu
  have he : AWud.react.ends = [2] := by decide
  have ht : AWud.react.starts = [3] := by decide
  have hB : AWud.react.bosons = [0, 1] := by decide
  have hWW : c.WW = 0 := hw .WW (by simp [AWud])
  obtain ⟨n0, n1, n2, d1, d2, am⟩ := AWud.amps hc hh hw h0 hs hb hr hu
  refine ⟨List.forall_mem_cons.2 ⟨n0, List.forall_mem_cons.2 ⟨n1, List.forall_mem_cons.2 ⟨n2, List.forall_mem_nil _⟩⟩⟩, d1, d2, ?_⟩
  show meaning (AWud.N c p) .r Cls.AWud.methods Cls.AWud.amp2 [] = _
  have s0 : AWud.react.states 0 = 2 := by decide +kernel
  have s1 : AWud.react.states 1 = 3 := by decide +kernel
  have sy : AWud.react.symmetry = 1 := by decide
  have p0 : AWud.react.spins 0 = {0, 1} := rfl
  have p1 : AWud.react.spins 1 = Finset.univ := rfl
  have p2 : AWud.react.spins 2 = {0, 1} := rfl
  have p3 : AWud.react.spins 3 = {0, 1} := rfl
  have E0 : AWud.react.codeE c p 0 = lightE (legA (p 0) 0 0, legS (p 0) 0 1) := rfl
  have E1 : AWud.react.codeE c p 1 = AWud.react.codeVec c p 1 := rfl
  have hG : AWud.react.Gauge c p := (AWud.react.gauge_line he ht hB hh (by decide) (fun n => onShell_msq (hs n)) hb hr (fun _ _ _ _ => hWW) (fun _ => ⟨rfl, rfl⟩) (fun h => absurd h (by decide)))
  have lc : AWud.react.lineColours 2 3 = 3 := by decide +kernel
  rw [AWud.value, AWud.react.squared_line he ht hB (by decide) hs h0 (fun _ b _ hb _ => (boson_pos hc hh hb).ne') hG (E := AWud.react.codeE c p) (fun n b hl => AWud.react.codeE_polarised hs h0 hu (fun b hb => (boson_pos hc hh hb).ne') n b hl) hu, sum_colours, lc, s0, s1, sy]
  simp only [sumV_sum, sumJ_sum, sumW_sum, am, p0, p1, p2, p3, E0, E1, Finset.sum_singleton, sum_two, Matrix.cons_val_zero, Matrix.cons_val_one, Matrix.cons_val, two_castSucc]
  try simp only [← Finset.mul_sum]
  push_cast
  first | ring1 | ring_nf

/-! ### udAW -/

/-- what the methods of the class see -/
noncomputable abbrev udAW.N [FPEnv] (c : Constants) (p : Nat → V4 ℝ) : Env := udAW.proc.envSet [0, 1, 2] (udAW.rho c) p
/-- the term that `amp` adds for a choice of spinors, for a photon of positive helicity (SM/udAW.cpp) -/
noncomputable def udAW.termP (N : Env) (w : ℝ) (x : ℂ) (j1 j2 a3 b3 : Int) : ℂ :=
  (x + ((((((((w * N.r 6) : ℝ) : ℂ) * N.v 0 [a3, j2]) * N.v 1 [b3, j1]) * N.v 4 []) * N.c 3) - (((((((w * N.r 6) : ℝ) : ℂ) * N.v 2 [a3]) * N.v 3 [j1]) * N.v 0 [b3, j2]) * N.c 4)))
/-- the same with spinors in place of their spins -/
noncomputable def udAW.formP (N : Env) (p : Nat → V4 ℝ) (z0 z1 z2 x3 y3 : Pair) : ℂ :=
  (0 + ((((((((((1 : Nat) : ℝ) * N.r 6) : ℝ) : ℂ) * (ab x3.1 z1.1)) * (sb y3.2 z0.2)) * (mb z2.2 (p 0) (slashLower (p 1) *ᵥ z2.2))) * N.c 3) - (((((((((1 : Nat) : ℝ) * N.r 6) : ℝ) : ℂ) * (sb z2.2 x3.2)) * (sb z2.2 z0.2)) * (ab y3.1 z1.1)) * N.c 4)))
/-- the term that `amp` adds for a choice of spinors, for a photon of negative helicity (SM/udAW.cpp) -/
noncomputable def udAW.termM (N : Env) (w : ℝ) (x : ℂ) (j1 j2 a3 b3 : Int) : ℂ :=
  (x + ((((((((w * N.r 6) : ℝ) : ℂ) * N.v 0 [a3, j2]) * N.v 1 [b3, j1]) * N.v 5 []) * N.c 3) - (((((((w * N.r 6) : ℝ) : ℂ) * N.v 6 [a3]) * N.v 7 [j2]) * N.v 1 [b3, j1]) * N.c 5)))
/-- the same with spinors in place of their spins -/
noncomputable def udAW.formM (N : Env) (p : Nat → V4 ℝ) (z0 z1 z2 x3 y3 : Pair) : ℂ :=
  (0 + ((((((((((1 : Nat) : ℝ) * N.r 6) : ℝ) : ℂ) * (ab x3.1 z1.1)) * (sb y3.2 z0.2)) * (mb (slashUpper (p 1) *ᵥ z2.1) (p 0) z2.1)) * N.c 3) - (((((((((1 : Nat) : ℝ) * N.r 6) : ℝ) : ℂ) * (ab z2.1 x3.1)) * (ab z2.1 z1.1)) * (sb y3.2 z0.2)) * N.c 5)))
theorem udAW.keyP {c : Constants} {p : Nat → V4 ℝ} {N : Env} (hc : c.Physical) (hb : Balanced p) (r6 : N.r 6 = (((√(((2 : Nat) : ℝ)) * c.e) * c.e) / (c.MW * c.SW))) (c3 : N.c 3 = ((((((((1 : Nat) : ℝ) / ((3 : Nat) : ℝ)) : ℝ) : ℂ) / N.c 0) / N.c 2) - (((((((2 : Nat) : ℝ) / ((3 : Nat) : ℝ)) : ℝ) : ℂ) / N.c 0) / N.c 1))) (c4 : N.c 4 = ((((((1 : Nat) : ℝ) : ℝ) : ℂ) / N.c 0) + ((((((2 : Nat) : ℝ) / ((3 : Nat) : ℝ)) : ℝ) : ℂ) / N.c 1))) (d0 : pole c.MW c.WW (plus (backward (p 2)) (backward (p 3))) = N.c 0) (n0 : N.c 0 ≠ 0) (d1 : ((msq (plus (p 1) (backward (p 3))) - c.mass .u ^ 2 : ℝ) : ℂ) = N.c 1) (n1 : N.c 1 ≠ 0) (d2 : ((msq (plus (p 1) (backward (p 2))) - c.mass .d ^ 2 : ℝ) : ℂ) = N.c 2) (n2 : N.c 2 ≠ 0) {z0 z1 z2 z3 : Pair} (b0 : Bold (p 0) (c.mass .u) z0) (b1 : Bold (p 1) (c.mass .d) z1) (b3 : Bold (p 3) c.MW z3) (l2 : Light (p 2) z2) (e20 : mb z2.2 (p 0) z2.1 = -N.c 1) (e21 : mb z2.2 (p 1) z2.1 = -N.c 2) (e23 : mb z2.2 (p 3) z2.1 = N.c 0) (q0 : msq (p 0) = (c.mass .u) ^ 2) (q1 : msq (p 1) = (c.mass .d) ^ 2) (q3 : msq (p 3) = c.MW ^ 2) (ρ2 : V2) :
    udAW.formP N p z0 z1 z2 z3 z3 * ab ρ2 z2.1 = ((√2 : ℝ) * ((1 : ℂ) * ((√2 / c.MW : ℝ) : ℂ))) * udAW.react.bare c p 0 1 2 3 z0 z1 (pv ρ2 z2.2) (pv z3.1 z3.2) := by
  rw [udAW.react.bare_parts c p (i := 0) (j := 1) (a := 2) (b := 3) (x := .photon) (y := .wPlus) (k := (backward (p 2))) (k' := (backward (p 3))) (fun _ => rfl) (fun _ => rfl) (f := .d) (g := .u) rfl rfl (l := (p 1)) rfl (e := -1) (e' := 1) (if_pos rfl) (if_neg Bool.false_ne_true)]
  rw [compton_vv (f := .d) (x := .d) (g := .u) (h := (rfl : Spec.after .photon Flavour.d = some Flavour.d)) (h' := (rfl : Spec.after .wPlus Flavour.d = some Flavour.u)) (ha := by simp) (hb := by simp)]
  rw [compton_vv (f := .d) (x := .u) (g := .u) (h := (rfl : Spec.after .wPlus Flavour.d = some Flavour.u)) (h' := (rfl : Spec.after .photon Flavour.u = some Flavour.u)) (ha := by simp) (hb := by simp)]
  have an := annihilation_charged c (-1) (1) z0.1 z0.2 z1.1 z1.2 ⟨.photon, (backward (p 2)), pv ρ2 z2.2⟩ ⟨.wPlus, (backward (p 3)), pv z3.1 z3.2⟩ (f := .d) (g := .u) (x := .wPlus) (by simp) rfl
  dsimp only at an
  rw [an, udAW.formP]
  clear an
  rw [lineV_massive (hx := (rfl : Boson.massive .wPlus = true))]
  have T2 := mb_back_zero (l2.mb_plus ρ2)
  have T3 := mb_back_zero (b3.mb_zero')
  have Q2 := l2.msq_zero
  simp only [toVector, gauge3, Boson.anti, Constants.bosonMass, Constants.bosonWidth, reduceCtorEq, and_self, and_true, and_false, if_true, if_false, lineV_smul, contract_smul, lineV_transverse T2 T3, four_transverse T2 T3, msq_backward, q3, Q2]
  simp only [d0, d1, d2, lineV_pv, lineV_four, contract_four_pv, contract_pv, mb_plus, mb_backward]
  have i0 := mb_schouten_right z2.2 (p 0) z0.1 z1.1 z2.1
  have i1 := ab_schouten z2.1 z3.1 ρ2 z1.1
  have i2 := ab_schouten z2.1 z3.1 ρ2 z0.1
  have i3 := mb_schouten_right z2.2 (p 0) z0.1 z1.1 ρ2
  have i4 := ab_schouten z1.1 z3.1 ρ2 z0.1
  have i5 := mb_schouten_right z2.2 (p 1) z0.1 z2.1 z3.1
  have i6 := mb_schouten_right z2.2 (p 1) z0.1 z1.1 z2.1
  have i7 := mb_schouten_right z2.2 (p 0) z1.1 z2.1 z3.1
  have i8 := mb_schouten_right z0.2 (p 1) z1.1 z3.1 ρ2
  have i9 := mb_schouten_right z0.2 (p 1) z1.1 z2.1 ρ2
  have i10 := mb_schouten_right z2.2 (p 1) z1.1 z2.1 z3.1
  have i11 := mb_schouten_left z0.2 z2.2 z3.2 (p 0) z3.1
  have i12 := sb_schouten z1.2 z2.2 z3.2 z0.2
  have i13 := mb_schouten_right z2.2 (p 1) z1.1 z3.1 ρ2
  have i14 := mb_schouten_right z2.2 (p 0) z2.1 z3.1 ρ2
  have i15 := mb_schouten_right z2.2 (p 0) z0.1 z2.1 ρ2
  have i16 := mb_schouten_right z2.2 (p 0) z1.1 z2.1 ρ2
  have i17 := mb_schouten_right z2.2 (p 3) z0.1 z2.1 z3.1
  have i18 := ab_schouten z1.1 z2.1 z3.1 z0.1
  have i19 := mb_schouten_right z0.2 (p 1) z1.1 z2.1 z3.1
  have i20 := mb_schouten_right z3.2 (p 0) z1.1 z3.1 ρ2
  have i21 := mb_schouten_left z0.2 z2.2 z3.2 (p 0) z1.1
  have i22 := mb_schouten_right z2.2 (p 3) z1.1 z2.1 z3.1
  have i23 := mb_schouten_right z2.2 (p 0) z1.1 z3.1 ρ2
  have i24 := mb_schouten_right z2.2 (p 0) z0.1 z2.1 z3.1
  have i25 := mb_schouten_right z2.2 (p 3) z0.1 z1.1 z2.1
  have i26 := mb_schouten_right z0.2 (p 1) z2.1 z3.1 ρ2
  have i27 := chain_square z1.1 z3.1 z2.2 (p 0) (p 1) z2.2
  simp only [l2.mb_eq, b0.mb_left, b0.mb_right, b1.mb_left, b1.mb_right, b3.mb_left, b3.mb_right, e20, e21, e23, mb_three hb z0.2 z0.1, mb_three hb z0.2 z1.1, mb_three hb z0.2 z2.1, mb_one hb z0.2 z3.1, mb_three hb z0.2 ρ2, mb_three hb z1.2 z0.1, mb_three hb z1.2 z1.1, mb_three hb z1.2 z2.1, mb_nought hb z1.2 z3.1, mb_three hb z1.2 ρ2, mb_three hb z2.2 z0.1, mb_three hb z2.2 z1.1, mb_one hb z2.2 z3.1, mb_three hb z2.2 ρ2, mb_one hb z3.2 z0.1, mb_nought hb z3.2 z1.1, mb_one hb z3.2 z2.1, mb_one hb z3.2 z3.1, mb_one hb z3.2 ρ2, ab_self, sb_self] at i0 i1 i2 i3 i4 i5 i6 i7 i8 i9 i10 i11 i12 i13 i14 i15 i16 i17 i18 i19 i20 i21 i22 i23 i24 i25 i26 i27 ⊢
  simp only [ab_swap z0.1 z1.1, ab_swap z0.1 z2.1, ab_swap z0.1 z3.1, ab_swap z0.1 ρ2, ab_swap z1.1 z2.1, ab_swap z1.1 z3.1, ab_swap z1.1 ρ2, ab_swap z2.1 z3.1, ab_swap z2.1 ρ2, ab_swap z3.1 ρ2, sb_swap z0.2 z1.2, sb_swap z0.2 z2.2, sb_swap z0.2 z3.2, sb_swap z1.2 z2.2, sb_swap z1.2 z3.2, sb_swap z2.2 z3.2] at i0 i1 i2 i3 i4 i5 i6 i7 i8 i9 i10 i11 i12 i13 i14 i15 i16 i17 i18 i19 i20 i21 i22 i23 i24 i25 i26 i27 ⊢
  simp only [r6, c3, c4, Constants.hL, Constants.hR, Constants.gL, Constants.gR, Constants.yuk, Constants.invVev, Flavour.charge_d, Flavour.isospin_d, Flavour.charge_u, Flavour.isospin_u, ← c.mz]
  have xMW : (c.MW : ℂ) ≠ 0 := by exact_mod_cast hc.MW
  have xSW : (c.SW : ℂ) ≠ 0 := by exact_mod_cast hc.SW
  have xCW : (c.CW : ℂ) ≠ 0 := by exact_mod_cast hc.CW
  have x2 : ((√2 : ℝ) : ℂ) ≠ 0 := by exact_mod_cast (Real.sqrt_pos.2 two_pos).ne'
  have x22 : ((√2 : ℝ) : ℂ) ^ 2 = 2 := by rw [← Complex.ofReal_pow, Real.sq_sqrt two_pos.le]; norm_num
  have x23 : ((√2 : ℝ) : ℂ) ^ 3 = 2 * ((√2 : ℝ) : ℂ) := by rw [← x22]; ring
  have x24 : ((√2 : ℝ) : ℂ) ^ 4 = 4 := by linear_combination (((√2 : ℝ) : ℂ) ^ 2 + 2) * x22
  push_cast at i0 i1 i2 i3 i4 i5 i6 i7 i8 i9 i10 i11 i12 i13 i14 i15 i16 i17 i18 i19 i20 i21 i22 i23 i24 i25 i26 i27 ⊢
  have y0 := mul_inv_cancel₀ n0
  have y1 := mul_inv_cancel₀ n1
  have y2 := mul_inv_cancel₀ n2
  have yMW := mul_inv_cancel₀ xMW
  have yR2 : ((√2 : ℝ) : ℂ)⁻¹ = ((√2 : ℝ) : ℂ) / 2 := by rw [inv_eq_iff_eq_inv, inv_div, eq_div_iff x2, ← x22]; ring
  linear_combination ((((-4) * (((√2 : ℝ) : ℂ)) * ((c.e : ℂ)) ^ 2 * ((c.mass .u : ℂ)) * (N.c 0) * (ab z3.1 ρ2) * (sb z2.2 z3.2) + (-3) * (((√2 : ℝ) : ℂ)) * ((c.e : ℂ)) ^ 2 * ((c.mass .u : ℂ)) * (N.c 1) * (ab z3.1 ρ2) * (sb z2.2 z3.2)) * i0 + ((2) * (((√2 : ℝ) : ℂ)) * ((c.e : ℂ)) ^ 2 * ((c.mass .u : ℂ)) ^ 2 * (N.c 0) * (sb z0.2 z2.2) * (sb z2.2 z3.2) + (3) * (((√2 : ℝ) : ℂ)) * ((c.e : ℂ)) ^ 2 * ((c.mass .u : ℂ)) ^ 2 * (N.c 1) * (sb z0.2 z2.2) * (sb z2.2 z3.2) + (-3) * (((√2 : ℝ) : ℂ)) * ((c.e : ℂ)) ^ 2 * (N.c 1) * (N.c 2) * (sb z0.2 z2.2) * (sb z2.2 z3.2)) * i1 + ((-2) * (((√2 : ℝ) : ℂ)) * ((c.e : ℂ)) ^ 2 * ((c.mass .u : ℂ)) * (N.c 0) * (mb z2.2 (p 0) z1.1) * (sb z2.2 z3.2) + (-3) * (((√2 : ℝ) : ℂ)) * ((c.e : ℂ)) ^ 2 * ((c.mass .u : ℂ)) * (N.c 1) * (mb z2.2 (p 0) z1.1) * (sb z2.2 z3.2)) * i2 + ((-2) * (((√2 : ℝ) : ℂ)) * ((c.e : ℂ)) ^ 2 * ((c.mass .u : ℂ)) * (N.c 0) * (ab z2.1 z3.1) * (sb z2.2 z3.2) + (-3) * (((√2 : ℝ) : ℂ)) * ((c.e : ℂ)) ^ 2 * ((c.mass .u : ℂ)) * (N.c 1) * (ab z2.1 z3.1) * (sb z2.2 z3.2)) * i3 + ((-2) * (((√2 : ℝ) : ℂ)) * ((c.e : ℂ)) ^ 2 * ((c.mass .u : ℂ)) * (N.c 0) * (N.c 1) * (sb z2.2 z3.2) + (-2) * (((√2 : ℝ) : ℂ)) * ((c.e : ℂ)) ^ 2 * ((c.mass .u : ℂ)) * (N.c 0) * (N.c 2) * (sb z2.2 z3.2) + (-3) * (((√2 : ℝ) : ℂ)) * ((c.e : ℂ)) ^ 2 * ((c.mass .u : ℂ)) * (N.c 1) ^ 2 * (sb z2.2 z3.2)) * i4 + ((-2) * (((√2 : ℝ) : ℂ)) * ((c.e : ℂ)) ^ 2 * ((c.mass .u : ℂ)) * (N.c 0) * (ab z1.1 ρ2) * (sb z2.2 z3.2)) * i5 + ((-2) * (((√2 : ℝ) : ℂ)) * ((c.e : ℂ)) ^ 2 * ((c.mass .u : ℂ)) * (N.c 0) * (ab z3.1 ρ2) * (sb z2.2 z3.2)) * i6 + ((2) * (((√2 : ℝ) : ℂ)) * ((c.e : ℂ)) ^ 2 * (N.c 0) * (mb z0.2 (p 1) ρ2) * (sb z2.2 z3.2) + (2) * (((√2 : ℝ) : ℂ)) * ((c.e : ℂ)) ^ 2 * (N.c 0) * (mb z2.2 (p 0) ρ2) * (sb z0.2 z3.2) + (-2) * (((√2 : ℝ) : ℂ)) * ((c.e : ℂ)) ^ 2 * (N.c 0) * (mb z3.2 (p 0) ρ2) * (sb z0.2 z2.2) + (3) * (((√2 : ℝ) : ℂ)) * ((c.e : ℂ)) ^ 2 * (N.c 1) * (mb z0.2 (p 1) ρ2) * (sb z2.2 z3.2) + (-3) * (((√2 : ℝ) : ℂ)) * ((c.e : ℂ)) ^ 2 * (N.c 1) * (mb z2.2 (p 1) ρ2) * (sb z0.2 z3.2) + (2) * (((√2 : ℝ) : ℂ)) * ((c.e : ℂ)) ^ 2 * (ab z2.1 ρ2) * ((mb z2.2 (p 0) (slashLower (p 1) *ᵥ z2.2))) * (sb z0.2 z3.2)) * i7 + ((-2) * (((√2 : ℝ) : ℂ)) * ((c.e : ℂ)) ^ 2 * (N.c 0) * (N.c 1) * (sb z2.2 z3.2) + (-3) * (((√2 : ℝ) : ℂ)) * ((c.e : ℂ)) ^ 2 * (N.c 1) ^ 2 * (sb z2.2 z3.2)) * i8 + ((-2) * (((√2 : ℝ) : ℂ)) * ((c.e : ℂ)) ^ 2 * (N.c 0) * (mb z2.2 (p 0) z3.1) * (sb z2.2 z3.2) + (-3) * (((√2 : ℝ) : ℂ)) * ((c.e : ℂ)) ^ 2 * (N.c 1) * (mb z2.2 (p 0) z3.1) * (sb z2.2 z3.2)) * i9 + ((-2) * (((√2 : ℝ) : ℂ)) * ((c.e : ℂ)) ^ 2 * (N.c 0) * (mb z3.2 (p 0) ρ2) * (sb z0.2 z2.2) + (-3) * (((√2 : ℝ) : ℂ)) * ((c.e : ℂ)) ^ 2 * (N.c 1) * (mb z2.2 (p 0) ρ2) * (sb z0.2 z3.2) + (-3) * (((√2 : ℝ) : ℂ)) * ((c.e : ℂ)) ^ 2 * (N.c 1) * (mb z2.2 (p 1) ρ2) * (sb z0.2 z3.2) + (2) * (((√2 : ℝ) : ℂ)) * ((c.e : ℂ)) ^ 2 * (ab z2.1 ρ2) * ((mb z2.2 (p 0) (slashLower (p 1) *ᵥ z2.2))) * (sb z0.2 z3.2)) * i10 + ((2) * (((√2 : ℝ) : ℂ)) * ((c.e : ℂ)) ^ 2 * (N.c 0) * (N.c 1) * (ab z1.1 ρ2) + (2) * (((√2 : ℝ) : ℂ)) * ((c.e : ℂ)) ^ 2 * (N.c 0) ^ 2 * (ab z1.1 ρ2)) * i11 + ((-2) * (((√2 : ℝ) : ℂ)) * ((c.e : ℂ)) ^ 2 * ((c.mass .d : ℂ)) * (N.c 0) * (N.c 1) * (ab z3.1 ρ2) + (2) * (((√2 : ℝ) : ℂ)) * ((c.e : ℂ)) ^ 2 * ((c.mass .d : ℂ)) * (N.c 0) * (ab z2.1 z3.1) * (mb z2.2 (p 0) ρ2) + (-2) * (((√2 : ℝ) : ℂ)) * ((c.e : ℂ)) ^ 2 * ((c.mass .d : ℂ)) * (N.c 0) * (ab z2.1 ρ2) * (mb z2.2 (p 0) z3.1) + (3) * (((√2 : ℝ) : ℂ)) * ((c.e : ℂ)) ^ 2 * ((c.mass .d : ℂ)) * (N.c 1) * (ab z2.1 z3.1) * (mb z2.2 (p 0) ρ2) + (-3) * (((√2 : ℝ) : ℂ)) * ((c.e : ℂ)) ^ 2 * ((c.mass .d : ℂ)) * (N.c 1) * (ab z2.1 ρ2) * (mb z2.2 (p 0) z3.1) + (-3) * (((√2 : ℝ) : ℂ)) * ((c.e : ℂ)) ^ 2 * ((c.mass .d : ℂ)) * (N.c 1) ^ 2 * (ab z3.1 ρ2)) * i12 + ((3) * (((√2 : ℝ) : ℂ)) * ((c.e : ℂ)) ^ 2 * (N.c 0) * (N.c 1) * (sb z0.2 z3.2) + (3) * (((√2 : ℝ) : ℂ)) * ((c.e : ℂ)) ^ 2 * (N.c 1) ^ 2 * (sb z0.2 z3.2)) * i13 + ((2) * (((√2 : ℝ) : ℂ)) * ((c.e : ℂ)) ^ 2 * ((c.mass .d : ℂ)) * (N.c 0) * (sb z0.2 z2.2) * (sb z1.2 z3.2) + (3) * (((√2 : ℝ) : ℂ)) * ((c.e : ℂ)) ^ 2 * ((c.mass .d : ℂ)) * (N.c 1) * (sb z0.2 z2.2) * (sb z1.2 z3.2)) * i14 + ((2) * (((√2 : ℝ) : ℂ)) * ((c.e : ℂ)) ^ 2 * ((c.mass .u : ℂ)) * (N.c 0) * (ab z1.1 z3.1) * (sb z2.2 z3.2) + (3) * (((√2 : ℝ) : ℂ)) * ((c.e : ℂ)) ^ 2 * ((c.mass .u : ℂ)) * (N.c 1) * (ab z1.1 z3.1) * (sb z2.2 z3.2)) * i15 + ((-2) * (((√2 : ℝ) : ℂ)) * ((c.e : ℂ)) ^ 2 * (N.c 0) * (ab z2.1 z3.1) * (sb z0.2 z2.2) * (sb z2.2 z3.2) + (-2) * (((√2 : ℝ) : ℂ)) * ((c.e : ℂ)) ^ 2 * (N.c 0) * (mb z2.2 (p 0) z3.1) * (sb z0.2 z3.2) + (-3) * (((√2 : ℝ) : ℂ)) * ((c.e : ℂ)) ^ 2 * (N.c 1) * (ab z2.1 z3.1) * (sb z0.2 z2.2) * (sb z2.2 z3.2) + (-3) * (((√2 : ℝ) : ℂ)) * ((c.e : ℂ)) ^ 2 * (N.c 1) * (mb z2.2 (p 0) z3.1) * (sb z0.2 z3.2)) * i16 + ((2) * (((√2 : ℝ) : ℂ)) * ((c.e : ℂ)) ^ 2 * ((c.mass .u : ℂ)) * (N.c 0) * (ab z1.1 ρ2) * (sb z2.2 z3.2)) * i17 + ((2) * (((√2 : ℝ) : ℂ)) * ((c.e : ℂ)) ^ 2 * ((c.mass .u : ℂ)) * (N.c 0) * (mb z2.2 (p 0) ρ2) * (sb z2.2 z3.2) + (3) * (((√2 : ℝ) : ℂ)) * ((c.e : ℂ)) ^ 2 * ((c.mass .u : ℂ)) * (N.c 1) * (mb z2.2 (p 0) ρ2) * (sb z2.2 z3.2)) * i18 + ((2) * (((√2 : ℝ) : ℂ)) * ((c.e : ℂ)) ^ 2 * (N.c 0) * (mb z2.2 (p 0) ρ2) * (sb z2.2 z3.2) + (3) * (((√2 : ℝ) : ℂ)) * ((c.e : ℂ)) ^ 2 * (N.c 1) * (mb z2.2 (p 0) ρ2) * (sb z2.2 z3.2)) * i19 + ((2) * (((√2 : ℝ) : ℂ)) * ((c.e : ℂ)) ^ 2 * (N.c 0) * (N.c 1) * (sb z0.2 z2.2) + (2) * (((√2 : ℝ) : ℂ)) * ((c.e : ℂ)) ^ 2 * (N.c 0) ^ 2 * (sb z0.2 z2.2)) * i20 + ((-2) * (((√2 : ℝ) : ℂ)) * ((c.e : ℂ)) ^ 2 * (N.c 0) * (N.c 1) * (ab z3.1 ρ2) + (-2) * (((√2 : ℝ) : ℂ)) * ((c.e : ℂ)) ^ 2 * (N.c 0) ^ 2 * (ab z3.1 ρ2)) * i21 + ((-2) * (((√2 : ℝ) : ℂ)) * ((c.e : ℂ)) ^ 2 * (N.c 0) * (mb z2.2 (p 0) ρ2) * (sb z0.2 z3.2) + (2) * (((√2 : ℝ) : ℂ)) * ((c.e : ℂ)) ^ 2 * (N.c 0) * (mb z3.2 (p 0) ρ2) * (sb z0.2 z2.2) + (3) * (((√2 : ℝ) : ℂ)) * ((c.e : ℂ)) ^ 2 * (N.c 1) * (mb z2.2 (p 1) ρ2) * (sb z0.2 z3.2) + (-2) * (((√2 : ℝ) : ℂ)) * ((c.e : ℂ)) ^ 2 * (ab z2.1 ρ2) * ((mb z2.2 (p 0) (slashLower (p 1) *ᵥ z2.2))) * (sb z0.2 z3.2)) * i22 + ((-2) * (((√2 : ℝ) : ℂ)) * ((c.e : ℂ)) ^ 2 * (N.c 0) * (N.c 1) * (sb z0.2 z3.2) + (2) * (((√2 : ℝ) : ℂ)) * ((c.e : ℂ)) ^ 2 * (N.c 0) * (mb z0.2 (p 1) z2.1) * (sb z2.2 z3.2) + (-2) * (((√2 : ℝ) : ℂ)) * ((c.e : ℂ)) ^ 2 * (N.c 0) ^ 2 * (sb z0.2 z3.2) + (3) * (((√2 : ℝ) : ℂ)) * ((c.e : ℂ)) ^ 2 * (N.c 1) * (mb z0.2 (p 1) z2.1) * (sb z2.2 z3.2)) * i23 + ((-2) * (((√2 : ℝ) : ℂ)) * ((c.e : ℂ)) ^ 2 * ((c.mass .u : ℂ)) * (N.c 0) * (ab z1.1 ρ2) * (sb z2.2 z3.2)) * i24 + ((2) * (((√2 : ℝ) : ℂ)) * ((c.e : ℂ)) ^ 2 * ((c.mass .u : ℂ)) * (N.c 0) * (ab z3.1 ρ2) * (sb z2.2 z3.2)) * i25 + ((-2) * (((√2 : ℝ) : ℂ)) * ((c.e : ℂ)) ^ 2 * (N.c 0) * (mb z2.2 (p 0) z1.1) * (sb z2.2 z3.2) + (-3) * (((√2 : ℝ) : ℂ)) * ((c.e : ℂ)) ^ 2 * (N.c 1) * (mb z2.2 (p 0) z1.1) * (sb z2.2 z3.2)) * i26 + ((-2) * (((√2 : ℝ) : ℂ)) * ((c.e : ℂ)) ^ 2 * (N.c 0) * (ab z2.1 ρ2) * (sb z0.2 z3.2) + (-3) * (((√2 : ℝ) : ℂ)) * ((c.e : ℂ)) ^ 2 * (N.c 1) * (ab z2.1 ρ2) * (sb z0.2 z3.2)) * i27)) * ((1) * ((c.MW : ℂ)⁻¹) * ((c.SW : ℂ)⁻¹) * ((N.c 0)⁻¹) * ((N.c 1)⁻¹) * ((N.c 2)⁻¹) / (3)) + ((-1) * ((c.MW : ℂ)) * (((√2 : ℝ) : ℂ)) * ((c.e : ℂ)) ^ 2 * ((c.MW : ℂ)⁻¹) * ((c.SW : ℂ)⁻¹) * (N.c 1) * ((N.c 1)⁻¹) * ((N.c 2)⁻¹) * (ab z1.1 ρ2) * (sb z0.2 z3.2) * (sb z2.2 z3.2) / (3) + (-1) * (((√2 : ℝ) : ℂ)) * ((c.e : ℂ)) ^ 2 * ((c.MW : ℂ)⁻¹) * ((c.SW : ℂ)⁻¹) * ((c.mass .d : ℂ)) * (N.c 1) * ((N.c 1)⁻¹) * ((N.c 2)⁻¹) * (ab z3.1 ρ2) * (sb z0.2 z3.2) * (sb z1.2 z2.2) / (3) + (2) * (((√2 : ℝ) : ℂ)) * ((c.e : ℂ)) ^ 2 * ((c.MW : ℂ)⁻¹) * ((c.SW : ℂ)⁻¹) * ((c.mass .u : ℂ)) * (N.c 2) * ((N.c 1)⁻¹) * ((N.c 2)⁻¹) * (ab z0.1 ρ2) * (ab z1.1 z3.1) * (sb z2.2 z3.2) / (3) + (-1) * (((√2 : ℝ) : ℂ)) * ((c.e : ℂ)) ^ 2 * ((c.MW : ℂ)⁻¹) * ((c.SW : ℂ)⁻¹) * (N.c 1) * ((N.c 1)⁻¹) * ((N.c 2)⁻¹) * (ab z1.1 ρ2) * (mb z2.2 (p 0) z3.1) * (sb z0.2 z3.2) / (3) + (2) * (((√2 : ℝ) : ℂ)) * ((c.e : ℂ)) ^ 2 * ((c.MW : ℂ)⁻¹) * ((c.SW : ℂ)⁻¹) * (N.c 2) * ((N.c 1)⁻¹) * ((N.c 2)⁻¹) * (ab z1.1 z3.1) * (mb z3.2 (p 0) ρ2) * (sb z0.2 z2.2) / (3)) * y0 + ((-1) * ((c.MW : ℂ)) * (((√2 : ℝ) : ℂ)) * ((c.e : ℂ)) ^ 2 * ((c.MW : ℂ)⁻¹) * ((c.SW : ℂ)⁻¹) * ((N.c 2)⁻¹) * (ab z1.1 ρ2) * (sb z0.2 z3.2) * (sb z2.2 z3.2) / (3) + (-1) * (((√2 : ℝ) : ℂ)) * ((c.e : ℂ)) ^ 2 * ((c.MW : ℂ)⁻¹) * ((c.SW : ℂ)⁻¹) * ((c.mass .d : ℂ)) * ((N.c 2)⁻¹) * (ab z3.1 ρ2) * (sb z0.2 z3.2) * (sb z1.2 z2.2) / (3) + (1) * (((√2 : ℝ) : ℂ)) * ((c.e : ℂ)) ^ 2 * ((c.MW : ℂ)⁻¹) * ((c.SW : ℂ)⁻¹) * (N.c 2) * ((N.c 0)⁻¹) * ((N.c 2)⁻¹) * (ab z1.1 z2.1) * (ab z3.1 ρ2) * (sb z0.2 z2.2) * (sb z2.2 z3.2) + (-1) * (((√2 : ℝ) : ℂ)) * ((c.e : ℂ)) ^ 2 * ((c.MW : ℂ)⁻¹) * ((c.SW : ℂ)⁻¹) * (N.c 2) * ((N.c 0)⁻¹) * ((N.c 2)⁻¹) * (ab z1.1 z3.1) * (ab z2.1 ρ2) * (sb z0.2 z2.2) * (sb z2.2 z3.2) + (1) * (((√2 : ℝ) : ℂ)) * ((c.e : ℂ)) ^ 2 * ((c.MW : ℂ)⁻¹) * ((c.SW : ℂ)⁻¹) * (N.c 2) * ((N.c 0)⁻¹) * ((N.c 2)⁻¹) * (ab z1.1 z3.1) * (mb z2.2 (p 0) ρ2) * (sb z0.2 z3.2) + (1) * (((√2 : ℝ) : ℂ)) * ((c.e : ℂ)) ^ 2 * ((c.MW : ℂ)⁻¹) * ((c.SW : ℂ)⁻¹) * (N.c 2) * ((N.c 0)⁻¹) * ((N.c 2)⁻¹) * (ab z1.1 z3.1) * (mb z2.2 (p 1) ρ2) * (sb z0.2 z3.2) + (1) * (((√2 : ℝ) : ℂ)) * ((c.e : ℂ)) ^ 2 * ((c.MW : ℂ)⁻¹) * ((c.SW : ℂ)⁻¹) * (N.c 2) * ((N.c 0)⁻¹) * ((N.c 2)⁻¹) * (ab z1.1 ρ2) * (ab z2.1 z3.1) * (sb z0.2 z2.2) * (sb z2.2 z3.2) + (1) * (((√2 : ℝ) : ℂ)) * ((c.e : ℂ)) ^ 2 * ((c.MW : ℂ)⁻¹) * ((c.SW : ℂ)⁻¹) * ((N.c 0)⁻¹) * ((N.c 2)⁻¹) * (ab z1.1 z3.1) * (ab z2.1 ρ2) * ((mb z2.2 (p 0) (slashLower (p 1) *ᵥ z2.2))) * (sb z0.2 z3.2) / (3) + (-1) * (((√2 : ℝ) : ℂ)) * ((c.e : ℂ)) ^ 2 * ((c.MW : ℂ)⁻¹) * ((c.SW : ℂ)⁻¹) * ((N.c 2)⁻¹) * (ab z1.1 ρ2) * (mb z2.2 (p 0) z3.1) * (sb z0.2 z3.2) / (3)) * y1 + ((2) * (((√2 : ℝ) : ℂ)) * ((c.e : ℂ)) ^ 2 * ((c.MW : ℂ)⁻¹) * ((c.SW : ℂ)⁻¹) * ((c.mass .u : ℂ)) * ((N.c 1)⁻¹) * (ab z0.1 ρ2) * (ab z1.1 z3.1) * (sb z2.2 z3.2) / (3) + (-2) * (((√2 : ℝ) : ℂ)) * ((c.e : ℂ)) ^ 2 * ((c.MW : ℂ)⁻¹) * ((c.SW : ℂ)⁻¹) * ((N.c 0)⁻¹) * ((N.c 1)⁻¹) * (ab z1.1 z3.1) * (ab z2.1 ρ2) * ((mb z2.2 (p 0) (slashLower (p 1) *ᵥ z2.2))) * (sb z0.2 z3.2) / (3) + (1) * (((√2 : ℝ) : ℂ)) * ((c.e : ℂ)) ^ 2 * ((c.MW : ℂ)⁻¹) * ((c.SW : ℂ)⁻¹) * ((N.c 0)⁻¹) * (ab z1.1 z2.1) * (ab z3.1 ρ2) * (sb z0.2 z2.2) * (sb z2.2 z3.2) + (-1) * (((√2 : ℝ) : ℂ)) * ((c.e : ℂ)) ^ 2 * ((c.MW : ℂ)⁻¹) * ((c.SW : ℂ)⁻¹) * ((N.c 0)⁻¹) * (ab z1.1 z3.1) * (ab z2.1 ρ2) * (sb z0.2 z2.2) * (sb z2.2 z3.2) + (1) * (((√2 : ℝ) : ℂ)) * ((c.e : ℂ)) ^ 2 * ((c.MW : ℂ)⁻¹) * ((c.SW : ℂ)⁻¹) * ((N.c 0)⁻¹) * (ab z1.1 z3.1) * (mb z2.2 (p 0) ρ2) * (sb z0.2 z3.2) + (1) * (((√2 : ℝ) : ℂ)) * ((c.e : ℂ)) ^ 2 * ((c.MW : ℂ)⁻¹) * ((c.SW : ℂ)⁻¹) * ((N.c 0)⁻¹) * (ab z1.1 z3.1) * (mb z2.2 (p 1) ρ2) * (sb z0.2 z3.2) + (1) * (((√2 : ℝ) : ℂ)) * ((c.e : ℂ)) ^ 2 * ((c.MW : ℂ)⁻¹) * ((c.SW : ℂ)⁻¹) * ((N.c 0)⁻¹) * (ab z1.1 ρ2) * (ab z2.1 z3.1) * (sb z0.2 z2.2) * (sb z2.2 z3.2) + (2) * (((√2 : ℝ) : ℂ)) * ((c.e : ℂ)) ^ 2 * ((c.MW : ℂ)⁻¹) * ((c.SW : ℂ)⁻¹) * ((N.c 1)⁻¹) * (ab z1.1 z3.1) * (mb z3.2 (p 0) ρ2) * (sb z0.2 z2.2) / (3)) * y2 + ((-1) * ((c.MW : ℂ)) * (((√2 : ℝ) : ℂ)) ^ 2 * ((c.e : ℂ)) ^ 2 * ((c.MW : ℂ)⁻¹) ^ 2 * (((√2 : ℝ) : ℂ)⁻¹) * ((c.SW : ℂ)⁻¹) * ((c.mass .d : ℂ)) * ((N.c 0)⁻¹) * (ab z3.1 ρ2) * (sb z0.2 z1.2) * (sb z2.2 z3.2) / (2) + (1) * ((c.MW : ℂ)) * (((√2 : ℝ) : ℂ)) ^ 2 * ((c.e : ℂ)) ^ 2 * ((c.MW : ℂ)⁻¹) ^ 2 * (((√2 : ℝ) : ℂ)⁻¹) * ((c.SW : ℂ)⁻¹) * ((c.mass .u : ℂ)) * ((N.c 0)⁻¹) * (ab z0.1 z1.1) * (ab z3.1 ρ2) * (sb z2.2 z3.2) / (2) + (-1) * (((√2 : ℝ) : ℂ)) * ((c.e : ℂ)) ^ 2 * ((c.SW : ℂ)⁻¹) * ((N.c 2)⁻¹) * (ab z1.1 ρ2) * (sb z0.2 z3.2) * (sb z2.2 z3.2) / (3) + (-1) * (((√2 : ℝ) : ℂ)) ^ 2 * ((c.e : ℂ)) ^ 2 * ((c.MW : ℂ)⁻¹) * (((√2 : ℝ) : ℂ)⁻¹) * ((c.SW : ℂ)⁻¹) * ((c.mass .d : ℂ)) * ((N.c 0)⁻¹) * (ab z3.1 ρ2) * (sb z0.2 z1.2) * (sb z2.2 z3.2) / (2) + (1) * (((√2 : ℝ) : ℂ)) ^ 2 * ((c.e : ℂ)) ^ 2 * ((c.MW : ℂ)⁻¹) * (((√2 : ℝ) : ℂ)⁻¹) * ((c.SW : ℂ)⁻¹) * ((c.mass .u : ℂ)) * ((N.c 0)⁻¹) * (ab z0.1 z1.1) * (ab z3.1 ρ2) * (sb z2.2 z3.2) / (2) + (1) * (((√2 : ℝ) : ℂ)) ^ 2 * ((c.e : ℂ)) ^ 2 * (((√2 : ℝ) : ℂ)⁻¹) * ((c.SW : ℂ)⁻¹) * ((N.c 2)⁻¹) * (ab z1.1 ρ2) * (sb z0.2 z3.2) * (sb z2.2 z3.2) / (3)) * yMW + ((1) * (((√2 : ℝ) : ℂ)) ^ 2 * ((c.e : ℂ)) ^ 2 * ((c.MW : ℂ)⁻¹) * ((c.SW : ℂ)⁻¹) * ((c.mass .d : ℂ)) * ((N.c 2)⁻¹) * (ab z3.1 ρ2) * (sb z0.2 z3.2) * (sb z1.2 z2.2) / (3) + (-2) * (((√2 : ℝ) : ℂ)) ^ 2 * ((c.e : ℂ)) ^ 2 * ((c.MW : ℂ)⁻¹) * ((c.SW : ℂ)⁻¹) * ((c.mass .u : ℂ)) * ((N.c 1)⁻¹) * (ab z0.1 ρ2) * (ab z1.1 z3.1) * (sb z2.2 z3.2) / (3) + (-1) * (((√2 : ℝ) : ℂ)) ^ 2 * ((c.e : ℂ)) ^ 2 * ((c.MW : ℂ)⁻¹) * ((c.SW : ℂ)⁻¹) * ((N.c 0)⁻¹) * (ab z1.1 z2.1) * (ab z3.1 ρ2) * (sb z0.2 z2.2) * (sb z2.2 z3.2) + (-1) * (((√2 : ℝ) : ℂ)) ^ 2 * ((c.e : ℂ)) ^ 2 * ((c.MW : ℂ)⁻¹) * ((c.SW : ℂ)⁻¹) * ((N.c 0)⁻¹) * (ab z1.1 z3.1) * (mb z2.2 (p 0) ρ2) * (sb z0.2 z3.2) + (-1) * (((√2 : ℝ) : ℂ)) ^ 2 * ((c.e : ℂ)) ^ 2 * ((c.MW : ℂ)⁻¹) * ((c.SW : ℂ)⁻¹) * ((N.c 0)⁻¹) * (ab z1.1 z3.1) * (mb z2.2 (p 1) ρ2) * (sb z0.2 z3.2) + (-1) * (((√2 : ℝ) : ℂ)) ^ 2 * ((c.e : ℂ)) ^ 2 * ((c.MW : ℂ)⁻¹) * ((c.SW : ℂ)⁻¹) * ((N.c 0)⁻¹) * (ab z1.1 ρ2) * (ab z2.1 z3.1) * (sb z0.2 z2.2) * (sb z2.2 z3.2) + (-2) * (((√2 : ℝ) : ℂ)) ^ 2 * ((c.e : ℂ)) ^ 2 * ((c.MW : ℂ)⁻¹) * ((c.SW : ℂ)⁻¹) * ((N.c 1)⁻¹) * (ab z1.1 z3.1) * (ab z2.1 ρ2) * (sb z0.2 z2.2) * (sb z2.2 z3.2) / (3) + (-2) * (((√2 : ℝ) : ℂ)) ^ 2 * ((c.e : ℂ)) ^ 2 * ((c.MW : ℂ)⁻¹) * ((c.SW : ℂ)⁻¹) * ((N.c 1)⁻¹) * (ab z1.1 z3.1) * (mb z3.2 (p 0) ρ2) * (sb z0.2 z2.2) / (3) + (1) * (((√2 : ℝ) : ℂ)) ^ 2 * ((c.e : ℂ)) ^ 2 * ((c.MW : ℂ)⁻¹) * ((c.SW : ℂ)⁻¹) * ((N.c 2)⁻¹) * (ab z1.1 ρ2) * (mb z2.2 (p 0) z3.1) * (sb z0.2 z3.2) / (3) + (1) * (((√2 : ℝ) : ℂ)) ^ 2 * ((c.e : ℂ)) ^ 2 * ((c.SW : ℂ)⁻¹) * ((N.c 2)⁻¹) * (ab z1.1 ρ2) * (sb z0.2 z3.2) * (sb z2.2 z3.2) / (3)) * yR2 + ((1) * (((√2 : ℝ) : ℂ)) * ((c.e : ℂ)) ^ 2 * ((c.MW : ℂ)⁻¹) * ((c.SW : ℂ)⁻¹) * ((c.mass .d : ℂ)) * ((N.c 2)⁻¹) * (ab z3.1 ρ2) * (sb z0.2 z3.2) * (sb z1.2 z2.2) / (6) + (-1) * (((√2 : ℝ) : ℂ)) * ((c.e : ℂ)) ^ 2 * ((c.MW : ℂ)⁻¹) * ((c.SW : ℂ)⁻¹) * ((c.mass .u : ℂ)) * ((N.c 1)⁻¹) * (ab z0.1 ρ2) * (ab z1.1 z3.1) * (sb z2.2 z3.2) / (3) + (-1) * (((√2 : ℝ) : ℂ)) * ((c.e : ℂ)) ^ 2 * ((c.MW : ℂ)⁻¹) * ((c.SW : ℂ)⁻¹) * ((N.c 0)⁻¹) * (ab z1.1 z2.1) * (ab z3.1 ρ2) * (sb z0.2 z2.2) * (sb z2.2 z3.2) / (2) + (-1) * (((√2 : ℝ) : ℂ)) * ((c.e : ℂ)) ^ 2 * ((c.MW : ℂ)⁻¹) * ((c.SW : ℂ)⁻¹) * ((N.c 0)⁻¹) * (ab z1.1 z3.1) * (mb z2.2 (p 0) ρ2) * (sb z0.2 z3.2) / (2) + (-1) * (((√2 : ℝ) : ℂ)) * ((c.e : ℂ)) ^ 2 * ((c.MW : ℂ)⁻¹) * ((c.SW : ℂ)⁻¹) * ((N.c 0)⁻¹) * (ab z1.1 z3.1) * (mb z2.2 (p 1) ρ2) * (sb z0.2 z3.2) / (2) + (-1) * (((√2 : ℝ) : ℂ)) * ((c.e : ℂ)) ^ 2 * ((c.MW : ℂ)⁻¹) * ((c.SW : ℂ)⁻¹) * ((N.c 0)⁻¹) * (ab z1.1 ρ2) * (ab z2.1 z3.1) * (sb z0.2 z2.2) * (sb z2.2 z3.2) / (2) + (-1) * (((√2 : ℝ) : ℂ)) * ((c.e : ℂ)) ^ 2 * ((c.MW : ℂ)⁻¹) * ((c.SW : ℂ)⁻¹) * ((N.c 1)⁻¹) * (ab z1.1 z3.1) * (ab z2.1 ρ2) * (sb z0.2 z2.2) * (sb z2.2 z3.2) / (3) + (-1) * (((√2 : ℝ) : ℂ)) * ((c.e : ℂ)) ^ 2 * ((c.MW : ℂ)⁻¹) * ((c.SW : ℂ)⁻¹) * ((N.c 1)⁻¹) * (ab z1.1 z3.1) * (mb z3.2 (p 0) ρ2) * (sb z0.2 z2.2) / (3) + (1) * (((√2 : ℝ) : ℂ)) * ((c.e : ℂ)) ^ 2 * ((c.MW : ℂ)⁻¹) * ((c.SW : ℂ)⁻¹) * ((N.c 2)⁻¹) * (ab z1.1 ρ2) * (mb z2.2 (p 0) z3.1) * (sb z0.2 z3.2) / (6) + (1) * (((√2 : ℝ) : ℂ)) * ((c.e : ℂ)) ^ 2 * ((c.SW : ℂ)⁻¹) * ((N.c 2)⁻¹) * (ab z1.1 ρ2) * (sb z0.2 z3.2) * (sb z2.2 z3.2) / (6)) * x22
theorem udAW.keyM {c : Constants} {p : Nat → V4 ℝ} {N : Env} (hc : c.Physical) (hb : Balanced p) (r6 : N.r 6 = (((√(((2 : Nat) : ℝ)) * c.e) * c.e) / (c.MW * c.SW))) (c3 : N.c 3 = ((((((((1 : Nat) : ℝ) / ((3 : Nat) : ℝ)) : ℝ) : ℂ) / N.c 0) / N.c 2) - (((((((2 : Nat) : ℝ) / ((3 : Nat) : ℝ)) : ℝ) : ℂ) / N.c 0) / N.c 1))) (c5 : N.c 5 = ((((((1 : Nat) : ℝ) : ℝ) : ℂ) / N.c 0) + ((((((1 : Nat) : ℝ) / ((3 : Nat) : ℝ)) : ℝ) : ℂ) / N.c 2))) (d0 : pole c.MW c.WW (plus (backward (p 2)) (backward (p 3))) = N.c 0) (n0 : N.c 0 ≠ 0) (d1 : ((msq (plus (p 1) (backward (p 3))) - c.mass .u ^ 2 : ℝ) : ℂ) = N.c 1) (n1 : N.c 1 ≠ 0) (d2 : ((msq (plus (p 1) (backward (p 2))) - c.mass .d ^ 2 : ℝ) : ℂ) = N.c 2) (n2 : N.c 2 ≠ 0) {z0 z1 z2 z3 : Pair} (b0 : Bold (p 0) (c.mass .u) z0) (b1 : Bold (p 1) (c.mass .d) z1) (b3 : Bold (p 3) c.MW z3) (l2 : Light (p 2) z2) (e20 : mb z2.2 (p 0) z2.1 = -N.c 1) (e21 : mb z2.2 (p 1) z2.1 = -N.c 2) (e23 : mb z2.2 (p 3) z2.1 = N.c 0) (q0 : msq (p 0) = (c.mass .u) ^ 2) (q1 : msq (p 1) = (c.mass .d) ^ 2) (q3 : msq (p 3) = c.MW ^ 2) (ρ2 : V2) :
    udAW.formM N p z0 z1 z2 z3 z3 * sb ρ2 z2.2 = ((√2 : ℝ) * ((1 : ℂ) * ((√2 / c.MW : ℝ) : ℂ))) * udAW.react.bare c p 0 1 2 3 z0 z1 (pv z2.1 ρ2) (pv z3.1 z3.2) := by
  rw [udAW.react.bare_parts c p (i := 0) (j := 1) (a := 2) (b := 3) (x := .photon) (y := .wPlus) (k := (backward (p 2))) (k' := (backward (p 3))) (fun _ => rfl) (fun _ => rfl) (f := .d) (g := .u) rfl rfl (l := (p 1)) rfl (e := -1) (e' := 1) (if_pos rfl) (if_neg Bool.false_ne_true)]
  rw [compton_vv (f := .d) (x := .d) (g := .u) (h := (rfl : Spec.after .photon Flavour.d = some Flavour.d)) (h' := (rfl : Spec.after .wPlus Flavour.d = some Flavour.u)) (ha := by simp) (hb := by simp)]
  rw [compton_vv (f := .d) (x := .u) (g := .u) (h := (rfl : Spec.after .wPlus Flavour.d = some Flavour.u)) (h' := (rfl : Spec.after .photon Flavour.u = some Flavour.u)) (ha := by simp) (hb := by simp)]
  have an := annihilation_charged c (-1) (1) z0.1 z0.2 z1.1 z1.2 ⟨.photon, (backward (p 2)), pv z2.1 ρ2⟩ ⟨.wPlus, (backward (p 3)), pv z3.1 z3.2⟩ (f := .d) (g := .u) (x := .wPlus) (by simp) rfl
  dsimp only at an
  rw [an, udAW.formM]
  clear an
  rw [lineV_massive (hx := (rfl : Boson.massive .wPlus = true))]
  have T2 := mb_back_zero (l2.mb_minus ρ2)
  have T3 := mb_back_zero (b3.mb_zero')
  have Q2 := l2.msq_zero
  simp only [toVector, gauge3, Boson.anti, Constants.bosonMass, Constants.bosonWidth, reduceCtorEq, and_self, and_true, and_false, if_true, if_false, lineV_smul, contract_smul, lineV_transverse T2 T3, four_transverse T2 T3, msq_backward, q3, Q2]
  simp only [d0, d1, d2, lineV_pv, lineV_four, contract_four_pv, contract_pv, mb_plus, mb_backward]
  have i0 := mb_schouten_right z2.2 (p 0) z1.1 z2.1 z3.1
  have i1 := mb_schouten_right ρ2 (p 1) z1.1 z2.1 z3.1
  have i2 := mb_schouten_left z0.2 z2.2 z3.2 (p 0) z2.1
  have i3 := ab_schouten z1.1 z2.1 z3.1 z0.1
  have i4 := sb_schouten z2.2 z3.2 ρ2 z1.2
  have i5 := mb_schouten_right z2.2 (p 3) z0.1 z2.1 z3.1
  have i6 := mb_schouten_right ρ2 (p 1) z0.1 z2.1 z3.1
  have i7 := mb_schouten_right z2.2 (p 3) z1.1 z2.1 z3.1
  have i8 := mb_schouten_right ρ2 (p 1) z0.1 z1.1 z2.1
  have i9 := mb_schouten_right z2.2 (p 0) z0.1 z1.1 z2.1
  have i10 := mb_schouten_right ρ2 (p 0) z0.1 z2.1 z3.1
  have i11 := mb_schouten_right z2.2 (p 1) z1.1 z2.1 z3.1
  have i12 := mb_schouten_right z2.2 (p 3) z0.1 z1.1 z2.1
  have i13 := chain_angle z0.2 z3.2 z2.1 (p 0) (p 1) z2.1
  have i14 := sb_schouten z2.2 z3.2 ρ2 z0.2
  have i15 := mb_schouten_left z0.2 z3.2 ρ2 (p 0) z2.1
  have i16 := mb_schouten_right z0.2 (p 1) z1.1 z2.1 z3.1
  have i17 := mb_schouten_right ρ2 (p 0) z1.1 z2.1 z3.1
  have i18 := mb_schouten_left z0.2 z2.2 ρ2 (p 0) z1.1
  have i19 := sb_schouten z1.2 z2.2 ρ2 z0.2
  have i20 := mb_schouten_right ρ2 (p 0) z0.1 z1.1 z2.1
  have i21 := mb_schouten_left z2.2 z3.2 ρ2 (p 0) z1.1
  have i22 := mb_schouten_right z2.2 (p 1) z0.1 z1.1 z2.1
  have i23 := mb_schouten_right z2.2 (p 1) z0.1 z2.1 z3.1
  have i24 := mb_schouten_right z2.2 (p 0) z0.1 z2.1 z3.1
  simp only [l2.mb_eq, b0.mb_left, b0.mb_right, b1.mb_left, b1.mb_right, b3.mb_left, b3.mb_right, e20, e21, e23, mb_three hb z0.2 z0.1, mb_three hb z0.2 z1.1, mb_three hb z0.2 z2.1, mb_one hb z0.2 z3.1, mb_three hb z1.2 z0.1, mb_three hb z1.2 z1.1, mb_three hb z1.2 z2.1, mb_nought hb z1.2 z3.1, mb_three hb z2.2 z0.1, mb_three hb z2.2 z1.1, mb_one hb z2.2 z3.1, mb_one hb z3.2 z0.1, mb_nought hb z3.2 z1.1, mb_one hb z3.2 z2.1, mb_one hb z3.2 z3.1, mb_three hb ρ2 z0.1, mb_three hb ρ2 z1.1, mb_three hb ρ2 z2.1, mb_one hb ρ2 z3.1, ab_self, sb_self] at i0 i1 i2 i3 i4 i5 i6 i7 i8 i9 i10 i11 i12 i13 i14 i15 i16 i17 i18 i19 i20 i21 i22 i23 i24 ⊢
  simp only [ab_swap z0.1 z1.1, ab_swap z0.1 z2.1, ab_swap z0.1 z3.1, ab_swap z1.1 z2.1, ab_swap z1.1 z3.1, ab_swap z2.1 z3.1, sb_swap z0.2 z1.2, sb_swap z0.2 z2.2, sb_swap z0.2 z3.2, sb_swap z0.2 ρ2, sb_swap z1.2 z2.2, sb_swap z1.2 z3.2, sb_swap z1.2 ρ2, sb_swap z2.2 z3.2, sb_swap z2.2 ρ2, sb_swap z3.2 ρ2] at i0 i1 i2 i3 i4 i5 i6 i7 i8 i9 i10 i11 i12 i13 i14 i15 i16 i17 i18 i19 i20 i21 i22 i23 i24 ⊢
  simp only [r6, c3, c5, Constants.hL, Constants.hR, Constants.gL, Constants.gR, Constants.yuk, Constants.invVev, Flavour.charge_d, Flavour.isospin_d, Flavour.charge_u, Flavour.isospin_u, ← c.mz]
  have xMW : (c.MW : ℂ) ≠ 0 := by exact_mod_cast hc.MW
  have xSW : (c.SW : ℂ) ≠ 0 := by exact_mod_cast hc.SW
  have xCW : (c.CW : ℂ) ≠ 0 := by exact_mod_cast hc.CW
  have x2 : ((√2 : ℝ) : ℂ) ≠ 0 := by exact_mod_cast (Real.sqrt_pos.2 two_pos).ne'
  have x22 : ((√2 : ℝ) : ℂ) ^ 2 = 2 := by rw [← Complex.ofReal_pow, Real.sq_sqrt two_pos.le]; norm_num
  have x23 : ((√2 : ℝ) : ℂ) ^ 3 = 2 * ((√2 : ℝ) : ℂ) := by rw [← x22]; ring
  have x24 : ((√2 : ℝ) : ℂ) ^ 4 = 4 := by linear_combination (((√2 : ℝ) : ℂ) ^ 2 + 2) * x22
  push_cast at i0 i1 i2 i3 i4 i5 i6 i7 i8 i9 i10 i11 i12 i13 i14 i15 i16 i17 i18 i19 i20 i21 i22 i23 i24 ⊢
  have y0 := mul_inv_cancel₀ n0
  have y1 := mul_inv_cancel₀ n1
  have y2 := mul_inv_cancel₀ n2
  have yMW := mul_inv_cancel₀ xMW
  have yR2 : ((√2 : ℝ) : ℂ)⁻¹ = ((√2 : ℝ) : ℂ) / 2 := by rw [inv_eq_iff_eq_inv, inv_div, eq_div_iff x2, ← x22]; ring
  linear_combination ((((-2) * (((√2 : ℝ) : ℂ)) * ((c.e : ℂ)) ^ 2 * (N.c 0) * (mb z3.2 (p 0) z2.1) * (sb z0.2 ρ2) + (-3) * (((√2 : ℝ) : ℂ)) * ((c.e : ℂ)) ^ 2 * (N.c 1) * (mb ρ2 (p 0) z2.1) * (sb z0.2 z3.2) + (-3) * (((√2 : ℝ) : ℂ)) * ((c.e : ℂ)) ^ 2 * (N.c 1) * (mb ρ2 (p 1) z2.1) * (sb z0.2 z3.2) + (2) * (((√2 : ℝ) : ℂ)) * ((c.e : ℂ)) ^ 2 * ((mb (slashUpper (p 1) *ᵥ z2.1) (p 0) z2.1)) * (sb z0.2 z3.2) * (sb z2.2 ρ2)) * i0 + ((-1) * (((√2 : ℝ) : ℂ)) * ((c.e : ℂ)) ^ 2 * (N.c 0) * (N.c 1) * (sb z0.2 z3.2) + (2) * (((√2 : ℝ) : ℂ)) * ((c.e : ℂ)) ^ 2 * (N.c 0) * (mb z3.2 (p 0) z2.1) * (sb z0.2 z2.2) + (3) * (((√2 : ℝ) : ℂ)) * ((c.e : ℂ)) ^ 2 * (N.c 1) * (mb z3.2 (p 0) z2.1) * (sb z0.2 z2.2)) * i1 + ((2) * (((√2 : ℝ) : ℂ)) * ((c.e : ℂ)) ^ 2 * (N.c 0) * (ab z1.1 z3.1) * (mb ρ2 (p 0) z2.1) + (2) * (((√2 : ℝ) : ℂ)) * ((c.e : ℂ)) ^ 2 * (N.c 0) * (ab z1.1 z3.1) * (mb ρ2 (p 1) z2.1) + (3) * (((√2 : ℝ) : ℂ)) * ((c.e : ℂ)) ^ 2 * (N.c 1) * (ab z1.1 z3.1) * (mb ρ2 (p 0) z2.1) + (3) * (((√2 : ℝ) : ℂ)) * ((c.e : ℂ)) ^ 2 * (N.c 1) * (ab z1.1 z3.1) * (mb ρ2 (p 1) z2.1)) * i2 + ((1) * (((√2 : ℝ) : ℂ)) * ((c.e : ℂ)) ^ 2 * ((c.mass .u : ℂ)) * (N.c 0) * (N.c 1) * (sb z3.2 ρ2) + (-2) * (((√2 : ℝ) : ℂ)) * ((c.e : ℂ)) ^ 2 * ((c.mass .u : ℂ)) * (N.c 0) * (N.c 2) * (sb z3.2 ρ2) + (2) * (((√2 : ℝ) : ℂ)) * ((c.e : ℂ)) ^ 2 * ((c.mass .u : ℂ)) * (N.c 0) * (mb z3.2 (p 0) z2.1) * (sb z2.2 ρ2) + (2) * (((√2 : ℝ) : ℂ)) * ((c.e : ℂ)) ^ 2 * ((c.mass .u : ℂ)) * (N.c 0) * (mb ρ2 (p 0) z2.1) * (sb z2.2 z3.2) + (2) * (((√2 : ℝ) : ℂ)) * ((c.e : ℂ)) ^ 2 * ((c.mass .u : ℂ)) * (N.c 0) * (mb ρ2 (p 1) z2.1) * (sb z2.2 z3.2) + (3) * (((√2 : ℝ) : ℂ)) * ((c.e : ℂ)) ^ 2 * ((c.mass .u : ℂ)) * (N.c 1) * (mb z3.2 (p 0) z2.1) * (sb z2.2 ρ2) + (3) * (((√2 : ℝ) : ℂ)) * ((c.e : ℂ)) ^ 2 * ((c.mass .u : ℂ)) * (N.c 1) * (mb ρ2 (p 0) z2.1) * (sb z2.2 z3.2) + (3) * (((√2 : ℝ) : ℂ)) * ((c.e : ℂ)) ^ 2 * ((c.mass .u : ℂ)) * (N.c 1) * (mb ρ2 (p 1) z2.1) * (sb z2.2 z3.2)) * i3 + ((-2) * (((√2 : ℝ) : ℂ)) * ((c.e : ℂ)) ^ 2 * ((c.mass .d : ℂ)) * ((c.mass .u : ℂ)) * (N.c 0) * (ab z0.1 z2.1) * (ab z2.1 z3.1) + (-3) * (((√2 : ℝ) : ℂ)) * ((c.e : ℂ)) ^ 2 * ((c.mass .d : ℂ)) * ((c.mass .u : ℂ)) * (N.c 1) * (ab z0.1 z2.1) * (ab z2.1 z3.1)) * i4 + ((3) * (((√2 : ℝ) : ℂ)) * ((c.e : ℂ)) ^ 2 * ((c.mass .u : ℂ)) * (N.c 1) * (ab z1.1 z2.1) * (sb z3.2 ρ2)) * i5 + ((2) * (((√2 : ℝ) : ℂ)) * ((c.e : ℂ)) ^ 2 * ((c.mass .u : ℂ)) * (N.c 0) * (ab z1.1 z2.1) * (sb z2.2 z3.2) + (3) * (((√2 : ℝ) : ℂ)) * ((c.e : ℂ)) ^ 2 * ((c.mass .u : ℂ)) * (N.c 1) * (ab z1.1 z2.1) * (sb z2.2 z3.2)) * i6 + ((-3) * (((√2 : ℝ) : ℂ)) * ((c.e : ℂ)) ^ 2 * (N.c 1) * (mb z3.2 (p 0) z2.1) * (sb z0.2 ρ2) + (3) * (((√2 : ℝ) : ℂ)) * ((c.e : ℂ)) ^ 2 * (N.c 1) * (mb ρ2 (p 0) z2.1) * (sb z0.2 z3.2) + (3) * (((√2 : ℝ) : ℂ)) * ((c.e : ℂ)) ^ 2 * (N.c 1) * (mb ρ2 (p 1) z2.1) * (sb z0.2 z3.2) + (-2) * (((√2 : ℝ) : ℂ)) * ((c.e : ℂ)) ^ 2 * ((mb (slashUpper (p 1) *ᵥ z2.1) (p 0) z2.1)) * (sb z0.2 z3.2) * (sb z2.2 ρ2)) * i7 + ((-2) * (((√2 : ℝ) : ℂ)) * ((c.e : ℂ)) ^ 2 * ((c.mass .u : ℂ)) * (N.c 0) * (ab z2.1 z3.1) * (sb z2.2 z3.2) + (-3) * (((√2 : ℝ) : ℂ)) * ((c.e : ℂ)) ^ 2 * ((c.mass .u : ℂ)) * (N.c 1) * (ab z2.1 z3.1) * (sb z2.2 z3.2)) * i8 + ((-2) * (((√2 : ℝ) : ℂ)) * ((c.e : ℂ)) ^ 2 * ((c.mass .u : ℂ)) * (N.c 0) * (ab z2.1 z3.1) * (sb z3.2 ρ2)) * i9 + ((2) * (((√2 : ℝ) : ℂ)) * ((c.e : ℂ)) ^ 2 * ((c.mass .u : ℂ)) * (N.c 0) * (ab z1.1 z2.1) * (sb z2.2 z3.2) + (3) * (((√2 : ℝ) : ℂ)) * ((c.e : ℂ)) ^ 2 * ((c.mass .u : ℂ)) * (N.c 1) * (ab z1.1 z2.1) * (sb z2.2 z3.2)) * i10 + ((-2) * (((√2 : ℝ) : ℂ)) * ((c.e : ℂ)) ^ 2 * (N.c 0) * (mb z3.2 (p 0) z2.1) * (sb z0.2 ρ2) + (-3) * (((√2 : ℝ) : ℂ)) * ((c.e : ℂ)) ^ 2 * (N.c 1) * (mb ρ2 (p 0) z2.1) * (sb z0.2 z3.2) + (-3) * (((√2 : ℝ) : ℂ)) * ((c.e : ℂ)) ^ 2 * (N.c 1) * (mb ρ2 (p 1) z2.1) * (sb z0.2 z3.2) + (2) * (((√2 : ℝ) : ℂ)) * ((c.e : ℂ)) ^ 2 * ((mb (slashUpper (p 1) *ᵥ z2.1) (p 0) z2.1)) * (sb z0.2 z3.2) * (sb z2.2 ρ2)) * i11 + ((-3) * (((√2 : ℝ) : ℂ)) * ((c.e : ℂ)) ^ 2 * ((c.mass .u : ℂ)) * (N.c 1) * (ab z2.1 z3.1) * (sb z3.2 ρ2)) * i12 + ((-2) * (((√2 : ℝ) : ℂ)) * ((c.e : ℂ)) ^ 2 * (N.c 0) * (ab z1.1 z3.1) * (sb z2.2 ρ2) + (-3) * (((√2 : ℝ) : ℂ)) * ((c.e : ℂ)) ^ 2 * (N.c 1) * (ab z1.1 z3.1) * (sb z2.2 ρ2)) * i13 + ((-2) * ((c.MW : ℂ)) * (((√2 : ℝ) : ℂ)) * ((c.e : ℂ)) ^ 2 * (N.c 0) * (ab z1.1 z2.1) * (mb z3.2 (p 0) z2.1) + (-3) * ((c.MW : ℂ)) * (((√2 : ℝ) : ℂ)) * ((c.e : ℂ)) ^ 2 * (N.c 1) * (ab z1.1 z2.1) * (mb z3.2 (p 0) z2.1) + (-3) * (((√2 : ℝ) : ℂ)) * ((c.e : ℂ)) ^ 2 * (N.c 1) * (N.c 2) * (ab z1.1 z2.1) * (ab z2.1 z3.1)) * i14 + ((1) * (((√2 : ℝ) : ℂ)) * ((c.e : ℂ)) ^ 2 * (N.c 0) * (N.c 1) * (ab z1.1 z3.1)) * i15 + ((2) * (((√2 : ℝ) : ℂ)) * ((c.e : ℂ)) ^ 2 * (N.c 0) * (mb z3.2 (p 0) z2.1) * (sb z2.2 ρ2) + (3) * (((√2 : ℝ) : ℂ)) * ((c.e : ℂ)) ^ 2 * (N.c 1) * (mb z3.2 (p 0) z2.1) * (sb z2.2 ρ2)) * i16 + ((2) * (((√2 : ℝ) : ℂ)) * ((c.e : ℂ)) ^ 2 * (N.c 0) * (mb z3.2 (p 0) z2.1) * (sb z0.2 z2.2) + (3) * (((√2 : ℝ) : ℂ)) * ((c.e : ℂ)) ^ 2 * (N.c 1) * (mb z3.2 (p 0) z2.1) * (sb z0.2 z2.2)) * i17 + ((-2) * (((√2 : ℝ) : ℂ)) * ((c.e : ℂ)) ^ 2 * (N.c 0) * (ab z2.1 z3.1) * (mb z3.2 (p 0) z2.1) + (-3) * (((√2 : ℝ) : ℂ)) * ((c.e : ℂ)) ^ 2 * (N.c 1) * (ab z2.1 z3.1) * (mb z3.2 (p 0) z2.1)) * i18 + ((2) * (((√2 : ℝ) : ℂ)) * ((c.e : ℂ)) ^ 2 * ((c.mass .d : ℂ)) * (N.c 0) * (ab z2.1 z3.1) * (mb z3.2 (p 0) z2.1) + (3) * (((√2 : ℝ) : ℂ)) * ((c.e : ℂ)) ^ 2 * ((c.mass .d : ℂ)) * (N.c 1) * (ab z2.1 z3.1) * (mb z3.2 (p 0) z2.1)) * i19 + ((-2) * (((√2 : ℝ) : ℂ)) * ((c.e : ℂ)) ^ 2 * ((c.mass .u : ℂ)) * (N.c 0) * (ab z2.1 z3.1) * (sb z2.2 z3.2) + (-3) * (((√2 : ℝ) : ℂ)) * ((c.e : ℂ)) ^ 2 * ((c.mass .u : ℂ)) * (N.c 1) * (ab z2.1 z3.1) * (sb z2.2 z3.2)) * i20 + ((-2) * (((√2 : ℝ) : ℂ)) * ((c.e : ℂ)) ^ 2 * ((c.mass .u : ℂ)) * (N.c 0) * (ab z0.1 z2.1) * (ab z2.1 z3.1) + (-3) * (((√2 : ℝ) : ℂ)) * ((c.e : ℂ)) ^ 2 * ((c.mass .u : ℂ)) * (N.c 1) * (ab z0.1 z2.1) * (ab z2.1 z3.1)) * i21 + ((-2) * (((√2 : ℝ) : ℂ)) * ((c.e : ℂ)) ^ 2 * ((c.mass .u : ℂ)) * (N.c 0) * (ab z2.1 z3.1) * (sb z3.2 ρ2)) * i22 + ((2) * (((√2 : ℝ) : ℂ)) * ((c.e : ℂ)) ^ 2 * ((c.mass .u : ℂ)) * (N.c 0) * (ab z1.1 z2.1) * (sb z3.2 ρ2)) * i23 + ((2) * (((√2 : ℝ) : ℂ)) * ((c.e : ℂ)) ^ 2 * ((c.mass .u : ℂ)) * (N.c 0) * (ab z1.1 z2.1) * (sb z3.2 ρ2)) * i24)) * ((1) * ((c.MW : ℂ)⁻¹) * ((c.SW : ℂ)⁻¹) * ((N.c 0)⁻¹) * ((N.c 1)⁻¹) * ((N.c 2)⁻¹) / (3)) + ((1) * ((c.MW : ℂ)) * (((√2 : ℝ) : ℂ)) * ((c.e : ℂ)) ^ 2 * ((c.MW : ℂ)⁻¹) * ((c.SW : ℂ)⁻¹) * (N.c 1) * ((N.c 1)⁻¹) * ((N.c 2)⁻¹) * (ab z1.1 z2.1) * (sb z0.2 z3.2) * (sb z3.2 ρ2) / (3) + (1) * (((√2 : ℝ) : ℂ)) * ((c.e : ℂ)) ^ 2 * ((c.MW : ℂ)⁻¹) * ((c.SW : ℂ)⁻¹) * ((c.mass .d : ℂ)) * (N.c 1) * ((N.c 1)⁻¹) * ((N.c 2)⁻¹) * (ab z2.1 z3.1) * (sb z0.2 z3.2) * (sb z1.2 ρ2) / (3) + (-2) * (((√2 : ℝ) : ℂ)) * ((c.e : ℂ)) ^ 2 * ((c.MW : ℂ)⁻¹) * ((c.SW : ℂ)⁻¹) * ((c.mass .u : ℂ)) * (N.c 2) * ((N.c 1)⁻¹) * ((N.c 2)⁻¹) * (ab z0.1 z2.1) * (ab z1.1 z3.1) * (sb z3.2 ρ2) / (3) + (-1) * (((√2 : ℝ) : ℂ)) * ((c.e : ℂ)) ^ 2 * ((c.MW : ℂ)⁻¹) * ((c.SW : ℂ)⁻¹) * (N.c 1) * ((N.c 1)⁻¹) * ((N.c 2)⁻¹) * (ab z1.1 z2.1) * (ab z2.1 z3.1) * (sb z0.2 z3.2) * (sb z2.2 ρ2) / (3) + (-1) * (((√2 : ℝ) : ℂ)) * ((c.e : ℂ)) ^ 2 * ((c.MW : ℂ)⁻¹) * ((c.SW : ℂ)⁻¹) * (N.c 1) * ((N.c 1)⁻¹) * ((N.c 2)⁻¹) * (ab z1.1 z2.1) * (mb ρ2 (p 0) z3.1) * (sb z0.2 z3.2) / (3) + (2) * (((√2 : ℝ) : ℂ)) * ((c.e : ℂ)) ^ 2 * ((c.MW : ℂ)⁻¹) * ((c.SW : ℂ)⁻¹) * (N.c 2) * ((N.c 1)⁻¹) * ((N.c 2)⁻¹) * (ab z1.1 z3.1) * (mb z3.2 (p 0) z2.1) * (sb z0.2 ρ2) / (3)) * y0 + ((1) * ((c.MW : ℂ)) * (((√2 : ℝ) : ℂ)) * ((c.e : ℂ)) ^ 2 * ((c.MW : ℂ)⁻¹) * ((c.SW : ℂ)⁻¹) * ((N.c 2)⁻¹) * (ab z1.1 z2.1) * (sb z0.2 z3.2) * (sb z3.2 ρ2) / (3) + (1) * (((√2 : ℝ) : ℂ)) * ((c.e : ℂ)) ^ 2 * ((c.MW : ℂ)⁻¹) * ((c.SW : ℂ)⁻¹) * ((c.mass .d : ℂ)) * ((N.c 2)⁻¹) * (ab z2.1 z3.1) * (sb z0.2 z3.2) * (sb z1.2 ρ2) / (3) + (1) * (((√2 : ℝ) : ℂ)) * ((c.e : ℂ)) ^ 2 * ((c.MW : ℂ)⁻¹) * ((c.SW : ℂ)⁻¹) * (N.c 2) * ((N.c 0)⁻¹) * ((N.c 2)⁻¹) * (ab z1.1 z2.1) * (ab z2.1 z3.1) * (sb z0.2 z2.2) * (sb z3.2 ρ2) + (-1) * (((√2 : ℝ) : ℂ)) * ((c.e : ℂ)) ^ 2 * ((c.MW : ℂ)⁻¹) * ((c.SW : ℂ)⁻¹) * (N.c 2) * ((N.c 0)⁻¹) * ((N.c 2)⁻¹) * (ab z1.1 z2.1) * (ab z2.1 z3.1) * (sb z0.2 z3.2) * (sb z2.2 ρ2) + (1) * (((√2 : ℝ) : ℂ)) * ((c.e : ℂ)) ^ 2 * ((c.MW : ℂ)⁻¹) * ((c.SW : ℂ)⁻¹) * (N.c 2) * ((N.c 0)⁻¹) * ((N.c 2)⁻¹) * (ab z1.1 z2.1) * (ab z2.1 z3.1) * (sb z0.2 ρ2) * (sb z2.2 z3.2) + (1) * (((√2 : ℝ) : ℂ)) * ((c.e : ℂ)) ^ 2 * ((c.MW : ℂ)⁻¹) * ((c.SW : ℂ)⁻¹) * (N.c 2) * ((N.c 0)⁻¹) * ((N.c 2)⁻¹) * (ab z1.1 z3.1) * (mb ρ2 (p 0) z2.1) * (sb z0.2 z3.2) + (1) * (((√2 : ℝ) : ℂ)) * ((c.e : ℂ)) ^ 2 * ((c.MW : ℂ)⁻¹) * ((c.SW : ℂ)⁻¹) * (N.c 2) * ((N.c 0)⁻¹) * ((N.c 2)⁻¹) * (ab z1.1 z3.1) * (mb ρ2 (p 1) z2.1) * (sb z0.2 z3.2) + (1) * (((√2 : ℝ) : ℂ)) * ((c.e : ℂ)) ^ 2 * ((c.MW : ℂ)⁻¹) * ((c.SW : ℂ)⁻¹) * ((N.c 0)⁻¹) * ((N.c 2)⁻¹) * (ab z1.1 z3.1) * ((mb (slashUpper (p 1) *ᵥ z2.1) (p 0) z2.1)) * (sb z0.2 z3.2) * (sb z2.2 ρ2) / (3) + (-1) * (((√2 : ℝ) : ℂ)) * ((c.e : ℂ)) ^ 2 * ((c.MW : ℂ)⁻¹) * ((c.SW : ℂ)⁻¹) * ((N.c 2)⁻¹) * (ab z1.1 z2.1) * (ab z2.1 z3.1) * (sb z0.2 z3.2) * (sb z2.2 ρ2) / (3) + (-1) * (((√2 : ℝ) : ℂ)) * ((c.e : ℂ)) ^ 2 * ((c.MW : ℂ)⁻¹) * ((c.SW : ℂ)⁻¹) * ((N.c 2)⁻¹) * (ab z1.1 z2.1) * (mb ρ2 (p 0) z3.1) * (sb z0.2 z3.2) / (3)) * y1 + ((-2) * (((√2 : ℝ) : ℂ)) * ((c.e : ℂ)) ^ 2 * ((c.MW : ℂ)⁻¹) * ((c.SW : ℂ)⁻¹) * ((c.mass .u : ℂ)) * ((N.c 1)⁻¹) * (ab z0.1 z2.1) * (ab z1.1 z3.1) * (sb z3.2 ρ2) / (3) + (-2) * (((√2 : ℝ) : ℂ)) * ((c.e : ℂ)) ^ 2 * ((c.MW : ℂ)⁻¹) * ((c.SW : ℂ)⁻¹) * ((N.c 0)⁻¹) * ((N.c 1)⁻¹) * (ab z1.1 z3.1) * ((mb (slashUpper (p 1) *ᵥ z2.1) (p 0) z2.1)) * (sb z0.2 z3.2) * (sb z2.2 ρ2) / (3) + (1) * (((√2 : ℝ) : ℂ)) * ((c.e : ℂ)) ^ 2 * ((c.MW : ℂ)⁻¹) * ((c.SW : ℂ)⁻¹) * ((N.c 0)⁻¹) * (ab z1.1 z2.1) * (ab z2.1 z3.1) * (sb z0.2 z2.2) * (sb z3.2 ρ2) + (-1) * (((√2 : ℝ) : ℂ)) * ((c.e : ℂ)) ^ 2 * ((c.MW : ℂ)⁻¹) * ((c.SW : ℂ)⁻¹) * ((N.c 0)⁻¹) * (ab z1.1 z2.1) * (ab z2.1 z3.1) * (sb z0.2 z3.2) * (sb z2.2 ρ2) + (1) * (((√2 : ℝ) : ℂ)) * ((c.e : ℂ)) ^ 2 * ((c.MW : ℂ)⁻¹) * ((c.SW : ℂ)⁻¹) * ((N.c 0)⁻¹) * (ab z1.1 z2.1) * (ab z2.1 z3.1) * (sb z0.2 ρ2) * (sb z2.2 z3.2) + (1) * (((√2 : ℝ) : ℂ)) * ((c.e : ℂ)) ^ 2 * ((c.MW : ℂ)⁻¹) * ((c.SW : ℂ)⁻¹) * ((N.c 0)⁻¹) * (ab z1.1 z3.1) * (mb ρ2 (p 0) z2.1) * (sb z0.2 z3.2) + (1) * (((√2 : ℝ) : ℂ)) * ((c.e : ℂ)) ^ 2 * ((c.MW : ℂ)⁻¹) * ((c.SW : ℂ)⁻¹) * ((N.c 0)⁻¹) * (ab z1.1 z3.1) * (mb ρ2 (p 1) z2.1) * (sb z0.2 z3.2) + (2) * (((√2 : ℝ) : ℂ)) * ((c.e : ℂ)) ^ 2 * ((c.MW : ℂ)⁻¹) * ((c.SW : ℂ)⁻¹) * ((N.c 1)⁻¹) * (ab z1.1 z3.1) * (mb z3.2 (p 0) z2.1) * (sb z0.2 ρ2) / (3)) * y2 + ((-1) * ((c.MW : ℂ)) * (((√2 : ℝ) : ℂ)) ^ 2 * ((c.e : ℂ)) ^ 2 * ((c.MW : ℂ)⁻¹) ^ 2 * (((√2 : ℝ) : ℂ)⁻¹) * ((c.SW : ℂ)⁻¹) * ((c.mass .d : ℂ)) * ((N.c 0)⁻¹) * (ab z2.1 z3.1) * (sb z0.2 z1.2) * (sb z3.2 ρ2) / (2) + (1) * ((c.MW : ℂ)) * (((√2 : ℝ) : ℂ)) ^ 2 * ((c.e : ℂ)) ^ 2 * ((c.MW : ℂ)⁻¹) ^ 2 * (((√2 : ℝ) : ℂ)⁻¹) * ((c.SW : ℂ)⁻¹) * ((c.mass .u : ℂ)) * ((N.c 0)⁻¹) * (ab z0.1 z1.1) * (ab z2.1 z3.1) * (sb z3.2 ρ2) / (2) + (1) * (((√2 : ℝ) : ℂ)) * ((c.e : ℂ)) ^ 2 * ((c.SW : ℂ)⁻¹) * ((N.c 2)⁻¹) * (ab z1.1 z2.1) * (sb z0.2 z3.2) * (sb z3.2 ρ2) / (3) + (-1) * (((√2 : ℝ) : ℂ)) ^ 2 * ((c.e : ℂ)) ^ 2 * ((c.MW : ℂ)⁻¹) * (((√2 : ℝ) : ℂ)⁻¹) * ((c.SW : ℂ)⁻¹) * ((c.mass .d : ℂ)) * ((N.c 0)⁻¹) * (ab z2.1 z3.1) * (sb z0.2 z1.2) * (sb z3.2 ρ2) / (2) + (1) * (((√2 : ℝ) : ℂ)) ^ 2 * ((c.e : ℂ)) ^ 2 * ((c.MW : ℂ)⁻¹) * (((√2 : ℝ) : ℂ)⁻¹) * ((c.SW : ℂ)⁻¹) * ((c.mass .u : ℂ)) * ((N.c 0)⁻¹) * (ab z0.1 z1.1) * (ab z2.1 z3.1) * (sb z3.2 ρ2) / (2) + (-1) * (((√2 : ℝ) : ℂ)) ^ 2 * ((c.e : ℂ)) ^ 2 * (((√2 : ℝ) : ℂ)⁻¹) * ((c.SW : ℂ)⁻¹) * ((N.c 2)⁻¹) * (ab z1.1 z2.1) * (sb z0.2 z3.2) * (sb z3.2 ρ2) / (3)) * yMW + ((-1) * (((√2 : ℝ) : ℂ)) ^ 2 * ((c.e : ℂ)) ^ 2 * ((c.MW : ℂ)⁻¹) * ((c.SW : ℂ)⁻¹) * ((c.mass .d : ℂ)) * ((N.c 2)⁻¹) * (ab z2.1 z3.1) * (sb z0.2 z3.2) * (sb z1.2 ρ2) / (3) + (2) * (((√2 : ℝ) : ℂ)) ^ 2 * ((c.e : ℂ)) ^ 2 * ((c.MW : ℂ)⁻¹) * ((c.SW : ℂ)⁻¹) * ((c.mass .u : ℂ)) * ((N.c 1)⁻¹) * (ab z0.1 z2.1) * (ab z1.1 z3.1) * (sb z3.2 ρ2) / (3) + (-1) * (((√2 : ℝ) : ℂ)) ^ 2 * ((c.e : ℂ)) ^ 2 * ((c.MW : ℂ)⁻¹) * ((c.SW : ℂ)⁻¹) * ((N.c 0)⁻¹) * (ab z1.1 z2.1) * (ab z2.1 z3.1) * (sb z0.2 z2.2) * (sb z3.2 ρ2) + (-1) * (((√2 : ℝ) : ℂ)) ^ 2 * ((c.e : ℂ)) ^ 2 * ((c.MW : ℂ)⁻¹) * ((c.SW : ℂ)⁻¹) * ((N.c 0)⁻¹) * (ab z1.1 z2.1) * (ab z2.1 z3.1) * (sb z0.2 ρ2) * (sb z2.2 z3.2) + (-1) * (((√2 : ℝ) : ℂ)) ^ 2 * ((c.e : ℂ)) ^ 2 * ((c.MW : ℂ)⁻¹) * ((c.SW : ℂ)⁻¹) * ((N.c 0)⁻¹) * (ab z1.1 z3.1) * (mb ρ2 (p 0) z2.1) * (sb z0.2 z3.2) + (-1) * (((√2 : ℝ) : ℂ)) ^ 2 * ((c.e : ℂ)) ^ 2 * ((c.MW : ℂ)⁻¹) * ((c.SW : ℂ)⁻¹) * ((N.c 0)⁻¹) * (ab z1.1 z3.1) * (mb ρ2 (p 1) z2.1) * (sb z0.2 z3.2) + (-2) * (((√2 : ℝ) : ℂ)) ^ 2 * ((c.e : ℂ)) ^ 2 * ((c.MW : ℂ)⁻¹) * ((c.SW : ℂ)⁻¹) * ((N.c 1)⁻¹) * (ab z1.1 z3.1) * (mb z3.2 (p 0) z2.1) * (sb z0.2 ρ2) / (3) + (1) * (((√2 : ℝ) : ℂ)) ^ 2 * ((c.e : ℂ)) ^ 2 * ((c.MW : ℂ)⁻¹) * ((c.SW : ℂ)⁻¹) * ((N.c 2)⁻¹) * (ab z1.1 z2.1) * (mb ρ2 (p 0) z3.1) * (sb z0.2 z3.2) / (3) + (-1) * (((√2 : ℝ) : ℂ)) ^ 2 * ((c.e : ℂ)) ^ 2 * ((c.SW : ℂ)⁻¹) * ((N.c 2)⁻¹) * (ab z1.1 z2.1) * (sb z0.2 z3.2) * (sb z3.2 ρ2) / (3)) * yR2 + ((-1) * (((√2 : ℝ) : ℂ)) * ((c.e : ℂ)) ^ 2 * ((c.MW : ℂ)⁻¹) * ((c.SW : ℂ)⁻¹) * ((c.mass .d : ℂ)) * ((N.c 2)⁻¹) * (ab z2.1 z3.1) * (sb z0.2 z3.2) * (sb z1.2 ρ2) / (6) + (1) * (((√2 : ℝ) : ℂ)) * ((c.e : ℂ)) ^ 2 * ((c.MW : ℂ)⁻¹) * ((c.SW : ℂ)⁻¹) * ((c.mass .u : ℂ)) * ((N.c 1)⁻¹) * (ab z0.1 z2.1) * (ab z1.1 z3.1) * (sb z3.2 ρ2) / (3) + (-1) * (((√2 : ℝ) : ℂ)) * ((c.e : ℂ)) ^ 2 * ((c.MW : ℂ)⁻¹) * ((c.SW : ℂ)⁻¹) * ((N.c 0)⁻¹) * (ab z1.1 z2.1) * (ab z2.1 z3.1) * (sb z0.2 z2.2) * (sb z3.2 ρ2) / (2) + (-1) * (((√2 : ℝ) : ℂ)) * ((c.e : ℂ)) ^ 2 * ((c.MW : ℂ)⁻¹) * ((c.SW : ℂ)⁻¹) * ((N.c 0)⁻¹) * (ab z1.1 z2.1) * (ab z2.1 z3.1) * (sb z0.2 ρ2) * (sb z2.2 z3.2) / (2) + (-1) * (((√2 : ℝ) : ℂ)) * ((c.e : ℂ)) ^ 2 * ((c.MW : ℂ)⁻¹) * ((c.SW : ℂ)⁻¹) * ((N.c 0)⁻¹) * (ab z1.1 z3.1) * (mb ρ2 (p 0) z2.1) * (sb z0.2 z3.2) / (2) + (-1) * (((√2 : ℝ) : ℂ)) * ((c.e : ℂ)) ^ 2 * ((c.MW : ℂ)⁻¹) * ((c.SW : ℂ)⁻¹) * ((N.c 0)⁻¹) * (ab z1.1 z3.1) * (mb ρ2 (p 1) z2.1) * (sb z0.2 z3.2) / (2) + (-1) * (((√2 : ℝ) : ℂ)) * ((c.e : ℂ)) ^ 2 * ((c.MW : ℂ)⁻¹) * ((c.SW : ℂ)⁻¹) * ((N.c 1)⁻¹) * (ab z1.1 z3.1) * (mb z3.2 (p 0) z2.1) * (sb z0.2 ρ2) / (3) + (1) * (((√2 : ℝ) : ℂ)) * ((c.e : ℂ)) ^ 2 * ((c.MW : ℂ)⁻¹) * ((c.SW : ℂ)⁻¹) * ((N.c 2)⁻¹) * (ab z1.1 z2.1) * (mb ρ2 (p 0) z3.1) * (sb z0.2 z3.2) / (6) + (-1) * (((√2 : ℝ) : ℂ)) * ((c.e : ℂ)) ^ 2 * ((c.SW : ℂ)⁻¹) * ((N.c 2)⁻¹) * (ab z1.1 z2.1) * (sb z0.2 z3.2) * (sb z3.2 ρ2) / (6)) * x22
set_option maxRecDepth 8000 in
theorem udAW.amp2_eq (N : Env) (f : Nat → List Int → ℂ) : Cls.udAW.m_amp2.mean N f .r [] =
    ((sumJ (fun x a => (sumJ (fun x b => (sumW (fun x c => (sumV (fun x d => (x + (((3 : Nat) : ℝ) * (‖(f 0 [a, b, c, d])‖ ^ 2)))) x)) x)) x)) ((0 : Nat) : ℝ)) / ((36 : Nat) : ℝ)) := by rfl
set_option maxRecDepth 8000 in
theorem udAW.value (N : Env) : meaning N .r Cls.udAW.methods Cls.udAW.amp2 [] =
    ((sumJ (fun x a => (sumJ (fun x b => (sumW (fun x c => (sumV (fun x d => (x + (((3 : Nat) : ℝ) * (‖(Cls.udAW.m_amp.mean N (callMean N []) .c [a, b, c, d])‖ ^ 2)))) x)) x)) x)) ((0 : Nat) : ℝ)) / ((36 : Nat) : ℝ)) :=
  udAW.amp2_eq N (callMean N [Cls.udAW.m_amp])
theorem udAW.termP_lin (N : Env) (w : ℝ) (x : ℂ) (j1 j2 a3 b3 : Int) : udAW.termP N w x j1 j2 a3 b3 = x + (w : ℂ) * udAW.termP N 1 0 j1 j2 a3 b3 := by
  simp only [udAW.termP]; push_cast; ring
theorem udAW.termM_lin (N : Env) (w : ℝ) (x : ℂ) (j1 j2 a3 b3 : Int) : udAW.termM N w x j1 j2 a3 b3 = x + (w : ℂ) * udAW.termM N 1 0 j1 j2 a3 b3 := by
  simp only [udAW.termM]; push_cast; ring
set_option maxRecDepth 8000 in
theorem udAW.ampP (N : Env) (f : Nat → List Int → ℂ) (j1 j2 : Int) (t3 : Fin 3) : Cls.udAW.m_amp.mean N f .c [j1, j2, 2, spinV t3] = comb t3 (fun a3 b3 => udAW.termP N 1 0 j1 j2 (spinOf a3) (spinOf b3)) := by
  refine (amp_mean N f (m := 4) (K := 6) (G := fun i => if 0 < i 2 then udAW.termP N 1 0 (i 0) (i 1) (i 4) (i 5) else if i 2 < 0 then udAW.termM N 1 0 (i 0) (i 1) (i 4) (i 5) else 0) (fun l => ?_) (fun i i' h => ?_) rfl (by decide) (by decide) (by decide) (by decide) (by decide)).trans ?_
  · by_cases h : 0 < l.i 2
    · refine ⟨_, (if_pos (decide_eq_true h)).trans rfl, rfl, rfl, ?_⟩; rw [if_pos h]; exact udAW.termP_lin ..
    · by_cases h' : l.i 2 < 0
      · refine ⟨_, (if_neg (fun e => h (of_decide_eq_true e))).trans ((if_pos (decide_eq_true h')).trans rfl), rfl, rfl, ?_⟩; rw [if_neg h, if_pos h']; exact udAW.termM_lin ..
      · refine ⟨_, (if_neg (fun e => h (of_decide_eq_true e))).trans ((if_neg (fun e => h' (of_decide_eq_true e))).trans rfl), rfl, rfl, ?_⟩; rw [if_neg h, if_neg h', mul_zero, add_zero]
  · simp only [h 0 (by decide), h 1 (by decide), h 2 (by decide), h 4 (by decide), h 5 (by decide)]
  · show amp' _ [spinV t3] = _
    simp only [amp'_comb, amp'_nil]
    rfl
theorem udAW.formP_x3 (N : Env) (p : Nat → V4 ℝ) (z0 z1 z2 y3 x y : Pair) : udAW.formP N p z0 z1 z2 (x + y) y3 = udAW.formP N p z0 z1 z2 x y3 + udAW.formP N p z0 z1 z2 y y3 := by
  simp only [udAW.formP, Prod.fst_add, Prod.snd_add, ab_add_left, ab_add_right, sb_add_left, sb_add_right, mb_add_left, mb_add_right]
  ring
theorem udAW.formP_y3 (N : Env) (p : Nat → V4 ℝ) (z0 z1 z2 x3 x y : Pair) : udAW.formP N p z0 z1 z2 x3 (x + y) = udAW.formP N p z0 z1 z2 x3 x + udAW.formP N p z0 z1 z2 x3 y := by
  simp only [udAW.formP, Prod.fst_add, Prod.snd_add, ab_add_left, ab_add_right, sb_add_left, sb_add_right, mb_add_left, mb_add_right]
  ring
set_option maxRecDepth 8000 in
theorem udAW.ampM (N : Env) (f : Nat → List Int → ℂ) (j1 j2 : Int) (t3 : Fin 3) : Cls.udAW.m_amp.mean N f .c [j1, j2, (-2), spinV t3] = comb t3 (fun a3 b3 => udAW.termM N 1 0 j1 j2 (spinOf a3) (spinOf b3)) := by
  refine (amp_mean N f (m := 4) (K := 6) (G := fun i => if 0 < i 2 then udAW.termP N 1 0 (i 0) (i 1) (i 4) (i 5) else if i 2 < 0 then udAW.termM N 1 0 (i 0) (i 1) (i 4) (i 5) else 0) (fun l => ?_) (fun i i' h => ?_) rfl (by decide) (by decide) (by decide) (by decide) (by decide)).trans ?_
  · by_cases h : 0 < l.i 2
    · refine ⟨_, (if_pos (decide_eq_true h)).trans rfl, rfl, rfl, ?_⟩; rw [if_pos h]; exact udAW.termP_lin ..
    · by_cases h' : l.i 2 < 0
      · refine ⟨_, (if_neg (fun e => h (of_decide_eq_true e))).trans ((if_pos (decide_eq_true h')).trans rfl), rfl, rfl, ?_⟩; rw [if_neg h, if_pos h']; exact udAW.termM_lin ..
      · refine ⟨_, (if_neg (fun e => h (of_decide_eq_true e))).trans ((if_neg (fun e => h' (of_decide_eq_true e))).trans rfl), rfl, rfl, ?_⟩; rw [if_neg h, if_neg h', mul_zero, add_zero]
  · simp only [h 0 (by decide), h 1 (by decide), h 2 (by decide), h 4 (by decide), h 5 (by decide)]
  · show amp' _ [spinV t3] = _
    simp only [amp'_comb, amp'_nil]
    rfl
theorem udAW.formM_x3 (N : Env) (p : Nat → V4 ℝ) (z0 z1 z2 y3 x y : Pair) : udAW.formM N p z0 z1 z2 (x + y) y3 = udAW.formM N p z0 z1 z2 x y3 + udAW.formM N p z0 z1 z2 y y3 := by
  simp only [udAW.formM, Prod.fst_add, Prod.snd_add, ab_add_left, ab_add_right, sb_add_left, sb_add_right, mb_add_left, mb_add_right]
  ring
theorem udAW.formM_y3 (N : Env) (p : Nat → V4 ℝ) (z0 z1 z2 x3 x y : Pair) : udAW.formM N p z0 z1 z2 x3 (x + y) = udAW.formM N p z0 z1 z2 x3 x + udAW.formM N p z0 z1 z2 x3 y := by
  simp only [udAW.formM, Prod.fst_add, Prod.snd_add, ab_add_left, ab_add_right, sb_add_left, sb_add_right, mb_add_left, mb_add_right]
  ring

theorem udAW.mass_eq {c : Constants} (hc : c.Physical) (i : Fin 4) : udAW.proc.massNum (udAW.rho c) i = udAW.react.mass c i := by
  fin_cases i <;> first | rfl | exact Nat.cast_zero | exact Nat.cast_zero.trans (hc.neutrino _).symm | (show c.MW / √(((1 : Nat) : ℝ) - c.SW * c.SW) = c.MZ; rw [c.root, c.mz])

variable [FPEnv] in
theorem udAW.agrees : udAW.Agrees := by
  refine agreesSet_of [0, 1, 2] (D := [3, 4]) (E := [4]) (by simp [all, udAW]) (by decide +kernel) (by decide) (by decide +kernel) (fun c hc hh => ⟨List.forall_mem_cons.2 ⟨hc.MW, List.forall_mem_cons.2 ⟨hc.SW, List.forall_mem_nil _⟩⟩, List.forall_mem_cons.2 ⟨hc.SW_lt, List.forall_mem_nil _⟩⟩) (fun c hc i => udAW.mass_eq hc i) (by decide +kernel) ?_
  intro c p u ε hc hh hw h0 hs hb hr hu
  have he : udAW.react.ends = [0] := by decide
  have ht : udAW.react.starts = [1] := by decide
  have hB : udAW.react.bosons = [2, 3] := by decide
  obtain ⟨f1, f2, f3⟩ := udAW.react.regular_line he ht hB hr
  have r6 : (udAW.N c p).r 6 = (((√(((2 : Nat) : ℝ)) * c.e) * c.e) / (c.MW * c.SW)) := rfl
  have hWW : c.WW = 0 := hw .WW (by simp [udAW])
  have c0 : (udAW.N c p).c 0 = poleDist c.MW c.WW ((VExp.add 0 1).sum p) := rfl
  have d0 : pole c.MW c.WW (plus (backward (p 2)) (backward (p 3))) = (udAW.N c p).c 0 := by rw [c0, pole_congr (msq_s hb (plus (backward (p 2)) (backward (p 3))) (by simp)).symm]
  have n0 : (udAW.N c p).c 0 ≠ 0 := by rw [← d0]; exact star_ne_zero.2 (f3 .wPlus rfl rfl)
  rw [hWW, pole_fermion rfl] at c0
  have c1 : (udAW.N c p).c 1 = poleDist (c.mass .u) ((0 : Nat) : ℝ) ((VExp.sub 0 2).sum p) := rfl
  rw [Nat.cast_zero, pole_fermion rfl] at c1
  have d1 : ((msq (plus (p 1) (backward (p 3))) - c.mass .u ^ 2 : ℝ) : ℂ) = (udAW.N c p).c 1 := by rw [c1, msq_t hb (plus (p 1) (backward (p 3))) (by simp)]
  have n1 : (udAW.N c p).c 1 ≠ 0 := by rw [← d1]; exact_mod_cast f2 .u rfl rfl
  have c2 : (udAW.N c p).c 2 = poleDist (c.mass .d) ((0 : Nat) : ℝ) ((VExp.sub 0 3).sum p) := rfl
  rw [Nat.cast_zero, pole_fermion rfl] at c2
  have d2 : ((msq (plus (p 1) (backward (p 2))) - c.mass .d ^ 2 : ℝ) : ℂ) = (udAW.N c p).c 2 := by rw [c2, msq_u hb (plus (p 1) (backward (p 2))) (by simp)]
  have n2 : (udAW.N c p).c 2 ≠ 0 := by rw [← d2]; exact_mod_cast f1 .d rfl rfl
  have c3 : (udAW.N c p).c 3 = ((((((((1 : Nat) : ℝ) / ((3 : Nat) : ℝ)) : ℝ) : ℂ) / (udAW.N c p).c 0) / (udAW.N c p).c 2) - (((((((2 : Nat) : ℝ) / ((3 : Nat) : ℝ)) : ℝ) : ℂ) / (udAW.N c p).c 0) / (udAW.N c p).c 1)) := rfl
  have c4 : (udAW.N c p).c 4 = ((((((1 : Nat) : ℝ) : ℝ) : ℂ) / (udAW.N c p).c 0) + ((((((2 : Nat) : ℝ) / ((3 : Nat) : ℝ)) : ℝ) : ℂ) / (udAW.N c p).c 1)) := rfl
  have c5 : (udAW.N c p).c 5 = ((((((1 : Nat) : ℝ) : ℝ) : ℂ) / (udAW.N c p).c 0) + ((((((1 : Nat) : ℝ) / ((3 : Nat) : ℝ)) : ℝ) : ℂ) / (udAW.N c p).c 2)) := rfl
  obtain ⟨l2, x2, y2⟩ := udAW.react.code_light hs hu (n := 2) rfl rfl
  have e20 := l2.pole_sub' (m := (c.mass .u)) (onShell_msq (hs 0)) (msq_t hb (plus (p 0) (backward (p 2))) (by simp)) c1
  have e21 := l2.pole_sub' (m := (c.mass .d)) (onShell_msq (hs 1)) (msq_u hb (plus (p 1) (backward (p 2))) (by simp)) c2
  have e23 := l2.pole_add (m := c.MW) (onShell_msq (hs 3)) (msq_s hb (plus (p 2) (p 3)) (by simp)) c0
  have m0 : udAW.react.mass c 0 ≠ 0 := (leg_pos hc hh (by decide)).ne'
  have m1 : udAW.react.mass c 1 ≠ 0 := (leg_pos hc hh (by decide)).ne'
  have m3 : udAW.react.mass c 3 ≠ 0 := (leg_pos hc hh (by decide)).ne'
  have m2 : udAW.react.mass c 2 = 0 := rfl
  have hd : udAW.proc.divides = [] := by decide +kernel
  refine ⟨List.forall_mem_cons.2 ⟨n0, List.forall_mem_cons.2 ⟨n1, List.forall_mem_cons.2 ⟨n2, List.forall_mem_nil _⟩⟩⟩, fun n hn => ?_, fun n hn => ?_, ?_⟩
  · simp [hd] at hn
  · simp [hd] at hn
  have stP : ∀ {z0 z1 : Pair} (b0 : Bold (p 0) (udAW.react.mass c 0) z0) (b1 : Bold (p 1) (udAW.react.mass c 1) z1) (t3 : Fin 3), comb t3 (fun a3 b3 => udAW.formP (udAW.N c p) p z0 z1 (legA (p 2) 0 0, legS (p 2) 0 1) (udAW.react.codePair c p 3 a3) (udAW.react.codePair c p 3 b3)) = 1 * udAW.react.bare c p 0 1 2 3 z0 z1 (lightE (legA (p 2) 0 0, legS (p 2) 0 1) 1) (udAW.react.codeVec c p 3 t3) := by
    intro z0 z1 b0 b1 t3
    refine one_vector (p := p 3) (m := udAW.react.mass c 3) (fun s => udAW.react.codePair_bold hs h0 3 s) (B := fun x y => udAW.formP (udAW.N c p) p z0 z1 (legA (p 2) 0 0, legS (p 2) 0 1) x y) (G := fun E => udAW.react.bare c p 0 1 2 3 z0 z1 (lightE (legA (p 2) 0 0, legS (p 2) 0 1) 1) E) (fun x y z => ?_) (fun x y z => ?_) (udAW.react.bare_lin₂ c p _ _ _ (by decide)) 1 (fun z3 b3 => ?_) t3
    · exact udAW.formP_x3 ..
    · exact udAW.formP_y3 ..
    · exact (light_plus (z := (legA (p 2) 0 0, legS (p 2) 0 1)) (G := fun E => udAW.react.bare c p 0 1 2 3 z0 z1 E (pv z3.1 z3.2)) (udAW.react.bare_lin₁ c p _ _ _ (by decide)) x2 (udAW.keyP hc hb r6 c3 c4 d0 n0 d1 n1 d2 n2 b0 b1 b3 l2 e20 e21 e23 (onShell_msq (hs 0)) (onShell_msq (hs 1)) (onShell_msq (hs 3)) _)).trans (mul_assoc _ _ _)
  have stM : ∀ {z0 z1 : Pair} (b0 : Bold (p 0) (udAW.react.mass c 0) z0) (b1 : Bold (p 1) (udAW.react.mass c 1) z1) (t3 : Fin 3), comb t3 (fun a3 b3 => udAW.formM (udAW.N c p) p z0 z1 (legA (p 2) 0 0, legS (p 2) 0 1) (udAW.react.codePair c p 3 a3) (udAW.react.codePair c p 3 b3)) = 1 * udAW.react.bare c p 0 1 2 3 z0 z1 (lightE (legA (p 2) 0 0, legS (p 2) 0 1) 0) (udAW.react.codeVec c p 3 t3) := by
    intro z0 z1 b0 b1 t3
    refine one_vector (p := p 3) (m := udAW.react.mass c 3) (fun s => udAW.react.codePair_bold hs h0 3 s) (B := fun x y => udAW.formM (udAW.N c p) p z0 z1 (legA (p 2) 0 0, legS (p 2) 0 1) x y) (G := fun E => udAW.react.bare c p 0 1 2 3 z0 z1 (lightE (legA (p 2) 0 0, legS (p 2) 0 1) 0) E) (fun x y z => ?_) (fun x y z => ?_) (udAW.react.bare_lin₂ c p _ _ _ (by decide)) 1 (fun z3 b3 => ?_) t3
    · exact udAW.formM_x3 ..
    · exact udAW.formM_y3 ..
    · exact (light_minus (z := (legA (p 2) 0 0, legS (p 2) 0 1)) (G := fun E => udAW.react.bare c p 0 1 2 3 z0 z1 E (pv z3.1 z3.2)) (udAW.react.bare_lin₁ c p _ _ _ (by decide)) y2 (udAW.keyM hc hb r6 c3 c5 d0 n0 d1 n1 d2 n2 b0 b1 b3 l2 e20 e21 e23 (onShell_msq (hs 0)) (onShell_msq (hs 1)) (onShell_msq (hs 3)) _)).trans (mul_assoc _ _ _)
  have amP : ∀ (s0 : Fin 2) (s1 : Fin 2) (t3 : Fin 3), Cls.udAW.m_amp.mean (udAW.N c p) (callMean (udAW.N c p) []) .c [spinOf s0, spinOf s1, 2, spinV t3] = 1 * udAW.react.bare c p 0 1 2 3 (udAW.react.codePair c p 0 s0) (udAW.react.codePair c p 1 s1) (lightE (legA (p 2) 0 0, legS (p 2) 0 1) 1) (udAW.react.codeVec c p 3 t3) := by
    intro s0 s1 t3
    rw [udAW.ampP, ← stP (udAW.react.codePair_bold hs h0 0 s0) (udAW.react.codePair_bold hs h0 1 s1) t3]
    refine congrArg (comb t3) (funext fun a3 => funext fun b3 => ?_)
    have v0x3z1 : (udAW.N c p).v 0 [spinOf a3, spinOf s1] = ab (udAW.react.codePair c p 3 a3).1 (udAW.react.codePair c p 1 s1).1 := bra_angle (p := p) (m := udAW.proc.massNum (udAW.rho c)) (udAW.mass_eq hc 3) (udAW.mass_eq hc 1) (.inl ⟨m3, rfl⟩) (.inl ⟨m1, rfl⟩)
    have v1y3z0 : (udAW.N c p).v 1 [spinOf b3, spinOf s0] = sb (udAW.react.codePair c p 3 b3).2 (udAW.react.codePair c p 0 s0).2 := bra_square (p := p) (m := udAW.proc.massNum (udAW.rho c)) (udAW.mass_eq hc 3) (udAW.mass_eq hc 0) (.inl ⟨m3, rfl⟩) (.inl ⟨m0, rfl⟩)
    have v4z2z2 : (udAW.N c p).v 4 [] = mb (legA (p 2) 0 0, legS (p 2) 0 1).2 (p 0) (slashLower (p 1) *ᵥ (legA (p 2) 0 0, legS (p 2) 0 1).2) := bra_two_square (p := p) (m := udAW.proc.massNum (udAW.rho c)) (udAW.mass_eq hc 2) (udAW.mass_eq hc 2) (.inr ⟨m2, rfl⟩) (.inr ⟨m2, rfl⟩)
    have v2z2x3 : (udAW.N c p).v 2 [spinOf a3] = sb (legA (p 2) 0 0, legS (p 2) 0 1).2 (udAW.react.codePair c p 3 a3).2 := bra_square (p := p) (m := udAW.proc.massNum (udAW.rho c)) (udAW.mass_eq hc 2) (udAW.mass_eq hc 3) (.inr ⟨m2, rfl⟩) (.inl ⟨m3, rfl⟩)
    have v3z2z0 : (udAW.N c p).v 3 [spinOf s0] = sb (legA (p 2) 0 0, legS (p 2) 0 1).2 (udAW.react.codePair c p 0 s0).2 := bra_square (p := p) (m := udAW.proc.massNum (udAW.rho c)) (udAW.mass_eq hc 2) (udAW.mass_eq hc 0) (.inr ⟨m2, rfl⟩) (.inl ⟨m0, rfl⟩)
    have v0y3z1 : (udAW.N c p).v 0 [spinOf b3, spinOf s1] = ab (udAW.react.codePair c p 3 b3).1 (udAW.react.codePair c p 1 s1).1 := bra_angle (p := p) (m := udAW.proc.massNum (udAW.rho c)) (udAW.mass_eq hc 3) (udAW.mass_eq hc 1) (.inl ⟨m3, rfl⟩) (.inl ⟨m1, rfl⟩)
    simp only [udAW.termP, udAW.formP, v0x3z1, v1y3z0, v4z2z2, v2z2x3, v3z2z0, v0y3z1]
    push_cast
    ring
  have amM : ∀ (s0 : Fin 2) (s1 : Fin 2) (t3 : Fin 3), Cls.udAW.m_amp.mean (udAW.N c p) (callMean (udAW.N c p) []) .c [spinOf s0, spinOf s1, (-2), spinV t3] = 1 * udAW.react.bare c p 0 1 2 3 (udAW.react.codePair c p 0 s0) (udAW.react.codePair c p 1 s1) (lightE (legA (p 2) 0 0, legS (p 2) 0 1) 0) (udAW.react.codeVec c p 3 t3) := by
    intro s0 s1 t3
    rw [udAW.ampM, ← stM (udAW.react.codePair_bold hs h0 0 s0) (udAW.react.codePair_bold hs h0 1 s1) t3]
    refine congrArg (comb t3) (funext fun a3 => funext fun b3 => ?_)
    have v0x3z1 : (udAW.N c p).v 0 [spinOf a3, spinOf s1] = ab (udAW.react.codePair c p 3 a3).1 (udAW.react.codePair c p 1 s1).1 := bra_angle (p := p) (m := udAW.proc.massNum (udAW.rho c)) (udAW.mass_eq hc 3) (udAW.mass_eq hc 1) (.inl ⟨m3, rfl⟩) (.inl ⟨m1, rfl⟩)
    have v1y3z0 : (udAW.N c p).v 1 [spinOf b3, spinOf s0] = sb (udAW.react.codePair c p 3 b3).2 (udAW.react.codePair c p 0 s0).2 := bra_square (p := p) (m := udAW.proc.massNum (udAW.rho c)) (udAW.mass_eq hc 3) (udAW.mass_eq hc 0) (.inl ⟨m3, rfl⟩) (.inl ⟨m0, rfl⟩)
    have v5z2z2 : (udAW.N c p).v 5 [] = mb (slashUpper (p 1) *ᵥ (legA (p 2) 0 0, legS (p 2) 0 1).1) (p 0) (legA (p 2) 0 0, legS (p 2) 0 1).1 := bra_two_angle (p := p) (m := udAW.proc.massNum (udAW.rho c)) (udAW.mass_eq hc 2) (udAW.mass_eq hc 2) (.inr ⟨m2, rfl⟩) (.inr ⟨m2, rfl⟩)
    have v6z2x3 : (udAW.N c p).v 6 [spinOf a3] = ab (legA (p 2) 0 0, legS (p 2) 0 1).1 (udAW.react.codePair c p 3 a3).1 := bra_angle (p := p) (m := udAW.proc.massNum (udAW.rho c)) (udAW.mass_eq hc 2) (udAW.mass_eq hc 3) (.inr ⟨m2, rfl⟩) (.inl ⟨m3, rfl⟩)
    have v7z2z1 : (udAW.N c p).v 7 [spinOf s1] = ab (legA (p 2) 0 0, legS (p 2) 0 1).1 (udAW.react.codePair c p 1 s1).1 := bra_angle (p := p) (m := udAW.proc.massNum (udAW.rho c)) (udAW.mass_eq hc 2) (udAW.mass_eq hc 1) (.inr ⟨m2, rfl⟩) (.inl ⟨m1, rfl⟩)
    simp only [udAW.termM, udAW.formM, v0x3z1, v1y3z0, v5z2z2, v6z2x3, v7z2z1]
    push_cast
    ring
  have am : ∀ (s0 : Fin 2) (s1 : Fin 2) (h2 : Fin 2) (t3 : Fin 3), ‖Cls.udAW.m_amp.mean (udAW.N c p) (callMean (udAW.N c p) []) .c [spinOf s0, spinOf s1, spinW h2, spinV t3]‖ = ‖udAW.react.bare c p 0 1 2 3 (udAW.react.codePair c p 0 s0) (udAW.react.codePair c p 1 s1) (lightE (legA (p 2) 0 0, legS (p 2) 0 1) h2.castSucc) (udAW.react.codeVec c p 3 t3)‖ := by
    intro s0 s1 h2 t3
    match h2 with
    | 1 => exact norm_plus (amP s0 s1 t3)
    | 0 => exact norm_plus (amM s0 s1 t3)
  show meaning (udAW.N c p) .r Cls.udAW.methods Cls.udAW.amp2 [] = _
  have s0 : udAW.react.states 0 = 6 := by decide +kernel
  have s1 : udAW.react.states 1 = 6 := by decide +kernel
  have sy : udAW.react.symmetry = 1 := by decide
  have p0 : udAW.react.spins 0 = {0, 1} := rfl
  have p1 : udAW.react.spins 1 = {0, 1} := rfl
  have p2 : udAW.react.spins 2 = {0, 1} := rfl
  have p3 : udAW.react.spins 3 = Finset.univ := rfl
  have E2 : udAW.react.codeE c p 2 = lightE (legA (p 2) 0 0, legS (p 2) 0 1) := rfl
  have E3 : udAW.react.codeE c p 3 = udAW.react.codeVec c p 3 := rfl
  have hG : udAW.react.Gauge c p := (udAW.react.gauge_line he ht hB hh (by decide) (fun n => onShell_msq (hs n)) hb hr (fun _ _ _ _ => hWW) (fun _ => ⟨rfl, rfl⟩) (fun h => absurd h (by decide)))
  have lc : udAW.react.lineColours 0 1 = 3 := by decide +kernel
  rw [udAW.value, udAW.react.squared_line he ht hB (by decide) hs h0 (fun _ b _ hb _ => (boson_pos hc hh hb).ne') hG (E := udAW.react.codeE c p) (fun n b hl => udAW.react.codeE_polarised hs h0 hu (fun b hb => (boson_pos hc hh hb).ne') n b hl) hu, sum_colours, lc, s0, s1, sy]
  simp only [sumV_sum, sumJ_sum, sumW_sum, am, p0, p1, p2, p3, E2, E3, Finset.sum_singleton, sum_two, Matrix.cons_val_zero, Matrix.cons_val_one, Matrix.cons_val, two_castSucc]
  try simp only [← Finset.mul_sum]
  push_cast
  first | ring1 | ring_nf

end Spinas.SM.Rows
