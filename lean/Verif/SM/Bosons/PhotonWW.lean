import Verif.SM.PhotonRows

/-! Two photons and two W bosons. Generated by tools/bosons/photons.py: for each class its amplitude at given helicities as a formula in spinors, and the proof that `amp2` is the squared amplitude of the Feynman rules. -/

set_option linter.unusedSimpArgs false
set_option linter.unusedVariables false
set_option linter.unreachableTactic false
set_option linter.unusedTactic false

namespace Spinas.SM.Rows
open Spec Spec.Reaction Props XR Matrix BRow

/-! ### AAWW -/

/-- what the methods of the class see -/
noncomputable abbrev AAWW.N [FPEnv] (c : Constants) (p : Nat → V4 ℝ) : Env := AAWW.proc.env (AAWW.rho c) p
/-- the term that `amp` adds for a choice of spinors, for a photon of positive helicity and a photon of positive helicity (SM/AAWW.cpp) -/
noncomputable def AAWW.termPP (N : Env) (w : ℝ) (x : ℂ) (a2 b2 a3 b3 : Int) : ℂ :=
  (x + ((((((((((((-w) * ((2 : Nat) : ℝ)) * N.r 0) * N.r 0) : ℝ) : ℂ) * N.v 0 []) * N.v 0 []) * N.v 2 [a2, a3]) * N.v 2 [b2, b3]) / N.c 0) / N.c 1))
/-- the same with spinors in place of their spins -/
noncomputable def AAWW.formPP (N : Env) (p : Nat → V4 ℝ) (z0 z1 x2 y2 x3 y3 : Pair) : ℂ :=
  (0 + ((((((((((((-((1 : Nat) : ℝ)) * ((2 : Nat) : ℝ)) * N.r 0) * N.r 0) : ℝ) : ℂ) * (sb z0.2 z1.2)) * (sb z0.2 z1.2)) * (ab x2.1 x3.1)) * (ab y2.1 y3.1)) / N.c 0) / N.c 1))
/-- the term that `amp` adds for a choice of spinors, for a photon of positive helicity and a photon of negative helicity (SM/AAWW.cpp) -/
noncomputable def AAWW.termPM (N : Env) (w : ℝ) (x : ℂ) (a2 b2 a3 b3 : Int) : ℂ :=
  (x + ((((((((((-w) * ((2 : Nat) : ℝ)) * N.r 0) * N.r 0) : ℝ) : ℂ) * ((N.v 9 [a3] * N.v 7 [a2]) + (N.v 11 [a2] * N.v 5 [a3]))) * ((N.v 9 [b3] * N.v 7 [b2]) + (N.v 11 [b2] * N.v 5 [b3]))) / N.c 0) / N.c 1))
/-- the same with spinors in place of their spins -/
noncomputable def AAWW.formPM (N : Env) (p : Nat → V4 ℝ) (z0 z1 x2 y2 x3 y3 : Pair) : ℂ :=
  (0 + ((((((((((-((1 : Nat) : ℝ)) * ((2 : Nat) : ℝ)) * N.r 0) * N.r 0) : ℝ) : ℂ) * (((ab z1.1 x3.1) * (sb z0.2 x2.2)) + ((ab z1.1 x2.1) * (sb z0.2 x3.2)))) * (((ab z1.1 y3.1) * (sb z0.2 y2.2)) + ((ab z1.1 y2.1) * (sb z0.2 y3.2)))) / N.c 0) / N.c 1))
/-- the term that `amp` adds for a choice of spinors, for a photon of negative helicity and a photon of positive helicity (SM/AAWW.cpp) -/
noncomputable def AAWW.termMP (N : Env) (w : ℝ) (x : ℂ) (a2 b2 a3 b3 : Int) : ℂ :=
  (x + ((((((((((-w) * ((2 : Nat) : ℝ)) * N.r 0) * N.r 0) : ℝ) : ℂ) * ((N.v 8 [a3] * N.v 6 [a2]) + (N.v 10 [a2] * N.v 4 [a3]))) * ((N.v 8 [b3] * N.v 6 [b2]) + (N.v 10 [b2] * N.v 4 [b3]))) / N.c 0) / N.c 1))
/-- the same with spinors in place of their spins -/
noncomputable def AAWW.formMP (N : Env) (p : Nat → V4 ℝ) (z0 z1 x2 y2 x3 y3 : Pair) : ℂ :=
  (0 + ((((((((((-((1 : Nat) : ℝ)) * ((2 : Nat) : ℝ)) * N.r 0) * N.r 0) : ℝ) : ℂ) * (((sb z1.2 x3.2) * (ab z0.1 x2.1)) + ((sb z1.2 x2.2) * (ab z0.1 x3.1)))) * (((sb z1.2 y3.2) * (ab z0.1 y2.1)) + ((sb z1.2 y2.2) * (ab z0.1 y3.1)))) / N.c 0) / N.c 1))
/-- the term that `amp` adds for a choice of spinors, for a photon of negative helicity and a photon of negative helicity (SM/AAWW.cpp) -/
noncomputable def AAWW.termMM (N : Env) (w : ℝ) (x : ℂ) (a2 b2 a3 b3 : Int) : ℂ :=
  (x + ((((((((((((-w) * ((2 : Nat) : ℝ)) * N.r 0) * N.r 0) : ℝ) : ℂ) * N.v 1 []) * N.v 1 []) * N.v 3 [a2, a3]) * N.v 3 [b2, b3]) / N.c 0) / N.c 1))
/-- the same with spinors in place of their spins -/
noncomputable def AAWW.formMM (N : Env) (p : Nat → V4 ℝ) (z0 z1 x2 y2 x3 y3 : Pair) : ℂ :=
  (0 + ((((((((((((-((1 : Nat) : ℝ)) * ((2 : Nat) : ℝ)) * N.r 0) * N.r 0) : ℝ) : ℂ) * (ab z0.1 z1.1)) * (ab z0.1 z1.1)) * (sb x2.2 x3.2)) * (sb y2.2 y3.2)) / N.c 0) / N.c 1))
theorem AAWW.keyPP {c : Constants} {p : Nat → V4 ℝ} {N : Env} (hc : c.Physical) (hb : Balanced p) (r0 : N.r 0 = c.e) (d0 : pole c.MW c.WW (plus (p 0) (backward (p 2))) = N.c 0) (n0 : N.c 0 ≠ 0) (d1 : pole c.MW c.WW (plus (p 0) (backward (p 3))) = N.c 1) (n1 : N.c 1 ≠ 0) {z0 z1 z2 z3 : Pair} (b2 : Bold (p 2) c.MW z2) (b3 : Bold (p 3) c.MW z3) (l0 : Light (p 0) z0) (l1 : Light (p 1) z1) (e02 : mb z0.2 (p 2) z0.1 = -N.c 0) (e03 : mb z0.2 (p 3) z0.1 = -N.c 1) (e12 : mb z1.2 (p 2) z1.1 = -N.c 1) (e13 : mb z1.2 (p 3) z1.1 = -N.c 0) (q2 : msq (p 2) = c.MW ^ 2) (q3 : msq (p 3) = c.MW ^ 2) {ρ0 : V2} (R0 : ∀ Y, ab ρ0 Y = mb z0.2 (p 2) Y) {ρ1 : V2} (R1 : ∀ Y, ab ρ1 Y = mb z1.2 (p 2) Y) :
    AAWW.formPP N p z0 z1 z2 z2 z3 z3 * ab ρ0 z0.1 * ab ρ1 z1.1 = ((√2 : ℝ) * ((√2 : ℝ) * ((-1 : ℂ) * ((2 / (c.MW * c.MW) : ℝ) : ℂ)))) * AAWW.react.bare4 c p (pv ρ0 z0.2) (pv ρ1 z1.2) (pv z2.1 z2.2) (pv z3.1 z3.2) := by
  rw [AAWW.react.bare4_parts c p (b₀ := .photon) (b₁ := .photon) (b₂ := .wMinus) (b₃ := .wPlus) rfl rfl rfl rfl, AAWW.formPP]
  have T0 := l0.mb_plus ρ0
  have T1 := l1.mb_plus ρ1
  have T2 := mb_back_zero (b2.mb_zero')
  have T3 := mb_back_zero (b3.mb_zero')
  have Q2 : msq (backward (p 2)) = c.MW ^ 2 := (msq_backward _).trans q2
  have Q3 : msq (backward (p 3)) = c.MW ^ 2 := (msq_backward _).trans q3
  simp only [contact, seagull, gauge4, between, carriers, List.map_cons, List.map_nil, List.sum_cons, List.sum_nil]
  simp only [toHiggs, toVector, higgs2, gauge3, Boson.anti, reduceCtorEq, and_self, and_true, and_false, true_and, false_and, if_true, if_false, Complex.ofReal_zero, zero_smul, carry_none, zero_mul, mul_zero, zero_div, neg_zero, add_zero, zero_add, sub_zero, sub_self, contract_zero, contract_zero_left]
  first | rw [dress_plus c (x := .wPlus) (.inl rfl) hc.MW l0 Q2 T2] | rw [dress_plus c (x := .wMinus) (.inr rfl) hc.MW l0 Q2 T2]
  first | rw [dress_plus c (x := .wPlus) (.inl rfl) hc.MW l0 Q3 T3] | rw [dress_plus c (x := .wMinus) (.inr rfl) hc.MW l0 Q3 T3]
  simp only [d0, d1, yangMills_transverse T1 T2, yangMills_transverse T1 T3, yangMills_transverse T2 T3, contract_add, contract_smul, contract_smul_left, contract_four_pv, contract_pv_four, contract_pv, mb_backward]
  have R00 := (ref_plus_plus R0 R0).2
  have R01 := (ref_plus_plus R0 R1).1
  rw [q2] at R01
  have R10 := (ref_plus_plus R1 R0).1
  rw [q2] at R10
  have R11 := (ref_plus_plus R1 R1).2
  have i0 := mb_schouten_right z0.2 (p 2) z0.1 z1.1 z2.1
  have i1 := mb_schouten_right z0.2 (p 2) z0.1 z2.1 z3.1
  have i2 := mb_schouten_right z0.2 (p 2) z0.1 z1.1 z3.1
  have i3 := ab_schouten z1.1 z2.1 z3.1 z0.1
  have i4 := sb_schouten z1.2 z2.2 z3.2 z0.2
  have i5 := mb_schouten_right z3.2 (p 2) z0.1 z1.1 z2.1
  have i6 := mb_schouten_right z0.2 (p 3) z0.1 z1.1 z3.1
  have i7 := mb_schouten_right z1.2 (p 3) z0.1 z1.1 z2.1
  have i8 := mb_schouten_right z0.2 (p 3) z1.1 z2.1 z3.1
  have i9 := mb_schouten_right z0.2 (p 2) z1.1 z2.1 z3.1
  have i10 := mb_schouten_right z1.2 (p 3) z0.1 z2.1 z3.1
  have i11 := mb_schouten_right z0.2 (p 3) z0.1 z2.1 z3.1
  have i12 := mb_schouten_right z0.2 (p 3) z0.1 z1.1 z2.1
  have i13 := mb_schouten_left z0.2 z1.2 z3.2 (p 3) z0.1
  have i14 := mb_schouten_right z1.2 (p 2) z0.1 z1.1 z3.1
  have i15 := mb_schouten_left z0.2 z1.2 z2.2 (p 2) z3.1
  have i16 := mb_schouten_right z1.2 (p 3) z1.1 z2.1 z3.1
  have i17 := mb_schouten_right z1.2 (p 2) z1.1 z2.1 z3.1
  have i18 := mb_schouten_right z1.2 (p 2) z0.1 z2.1 z3.1
  have i19 := mb_schouten_left z0.2 z1.2 z2.2 (p 3) z0.1
  have i20 := mb_schouten_right z1.2 (p 3) z0.1 z1.1 z3.1
  have i21 := mb_schouten_right z2.2 (p 3) z0.1 z2.1 z3.1
  have i22 := mb_schouten_right z0.2 (p 3) z0.1 z3.1 ρ0
  have i23 := mb_schouten_right z2.2 (p 3) z1.1 z2.1 z3.1
  have i24 := mb_schouten_right z1.2 (p 2) z0.1 z1.1 z2.1
  have i25 := mb_schouten_left z0.2 z1.2 z2.2 (p 2) z0.1
  have i26 := mb_schouten_right z2.2 (p 3) z0.1 z1.1 z3.1
  have i27 := mb_schouten_right z3.2 (p 2) z0.1 z1.1 z3.1
  have i28 := mb_schouten_left z0.2 z1.2 z2.2 (p 2) z1.1
  have i29 := mb_schouten_right z3.2 (p 2) z1.1 z2.1 z3.1
  have i30 := mb_schouten_left z0.2 z1.2 z3.2 (p 2) z0.1
  have i31 := mb_schouten_left z0.2 z1.2 z3.2 (p 2) z1.1
  have i32 := mb_schouten_left z0.2 z1.2 z2.2 (p 3) z1.1
  have i33 := mb_schouten_left z0.2 z1.2 z3.2 (p 2) z3.1
  simp only [ab_swap ρ0 z0.1, ab_swap ρ0 z1.1, ab_swap ρ0 z2.1, ab_swap ρ0 z3.1, ab_swap ρ1 z0.1, ab_swap ρ1 z1.1, ab_swap ρ1 z2.1, ab_swap ρ1 z3.1, R00, R01, R0, R10, R11, R1, l0.mb_eq, l1.mb_eq, b2.mb_left, b2.mb_right, b3.mb_left, b3.mb_right, e02, e03, e12, e13, mb_three hb z0.2 z1.1, mb_three hb z0.2 z2.1, mb_three hb z1.2 z0.1, mb_three hb z1.2 z2.1, mb_three hb z2.2 z0.1, mb_three hb z2.2 z1.1, mb_three hb z2.2 z2.1, mb_three hb z0.2 ρ0, mb_three hb z1.2 ρ1, ab_self, sb_self] at i0 i1 i2 i3 i4 i5 i6 i7 i8 i9 i10 i11 i12 i13 i14 i15 i16 i17 i18 i19 i20 i21 i22 i23 i24 i25 i26 i27 i28 i29 i30 i31 i32 i33 ⊢
  simp only [ab_swap z0.1 z1.1, sb_swap z0.2 z1.2, ab_swap z0.1 z2.1, sb_swap z0.2 z2.2, ab_swap z0.1 z3.1, sb_swap z0.2 z3.2, ab_swap z1.1 z2.1, sb_swap z1.2 z2.2, ab_swap z1.1 z3.1, sb_swap z1.2 z3.2, ab_swap z2.1 z3.1, sb_swap z2.2 z3.2] at i0 i1 i2 i3 i4 i5 i6 i7 i8 i9 i10 i11 i12 i13 i14 i15 i16 i17 i18 i19 i20 i21 i22 i23 i24 i25 i26 i27 i28 i29 i30 i31 i32 i33 ⊢
  simp only [r0, Constants.invVev, ← c.mz]
  have xMW : (c.MW : ℂ) ≠ 0 := by exact_mod_cast hc.MW
  have xSW : (c.SW : ℂ) ≠ 0 := by exact_mod_cast hc.SW
  have xCW : (c.CW : ℂ) ≠ 0 := by exact_mod_cast hc.CW
  have x2 : ((√2 : ℝ) : ℂ) ≠ 0 := by exact_mod_cast (Real.sqrt_pos.2 two_pos).ne'
  have x22 : ((√2 : ℝ) : ℂ) ^ 2 = 2 := by rw [← Complex.ofReal_pow, Real.sq_sqrt two_pos.le]; norm_num
  push_cast at i0 i1 i2 i3 i4 i5 i6 i7 i8 i9 i10 i11 i12 i13 i14 i15 i16 i17 i18 i19 i20 i21 i22 i23 i24 i25 i26 i27 i28 i29 i30 i31 i32 i33 ⊢
  simp only [div_eq_mul_inv, mul_inv, inv_inv] at i0 i1 i2 i3 i4 i5 i6 i7 i8 i9 i10 i11 i12 i13 i14 i15 i16 i17 i18 i19 i20 i21 i22 i23 i24 i25 i26 i27 i28 i29 i30 i31 i32 i33 ⊢
  have y0 := mul_inv_cancel₀ n0
  have y1 := mul_inv_cancel₀ n1
  have yMW := mul_inv_cancel₀ xMW
  linear_combination ((((-2) * ((c.e : ℂ)) ^ 2 * (ab z0.1 z3.1) * (ab z2.1 z3.1) * (sb z0.2 z1.2) ^ 3 + (-1) * ((c.e : ℂ)) ^ 2 * (ab z0.1 z3.1) * (sb z0.2 z1.2) ^ 2 * (sb z0.2 z2.2) * (sb z1.2 z3.2) + (1) * ((c.e : ℂ)) ^ 2 * (ab z0.1 z3.1) * (sb z0.2 z1.2) ^ 3 * (sb z2.2 z3.2) + (1) * ((c.e : ℂ)) ^ 2 * (ab z1.1 z3.1) * (sb z0.2 z1.2) ^ 2 * (sb z1.2 z2.2) * (sb z1.2 z3.2) + (2) * ((c.e : ℂ)) ^ 2 * (mb z1.2 (p 2) z3.1) * (sb z0.2 z1.2) * (sb z0.2 z2.2) * (sb z1.2 z3.2) + (-2) * ((c.e : ℂ)) ^ 2 * (mb z1.2 (p 2) z3.1) * (sb z0.2 z1.2) ^ 2 * (sb z2.2 z3.2)) * i0 + ((1) * ((c.MW : ℂ)) * ((c.e : ℂ)) ^ 2 * (ab z0.1 z2.1) * (sb z0.2 z1.2) ^ 2 * (sb z0.2 z3.2) + (-1) * ((c.MW : ℂ)) * ((c.e : ℂ)) ^ 2 * (ab z1.1 z2.1) * (sb z0.2 z1.2) ^ 2 * (sb z1.2 z3.2) + (-1) * ((c.MW : ℂ)) ^ 2 * ((c.e : ℂ)) ^ 2 * (ab z2.1 z3.1) * (sb z0.2 z1.2) ^ 2 + (1) * ((c.MW : ℂ)) ^ 2 * ((c.e : ℂ)) ^ 2 * (sb z0.2 z1.2) ^ 2 * (sb z2.2 z3.2) + (-1) * ((c.e : ℂ)) ^ 2 * (N.c 1) * (ab z2.1 z3.1) * (sb z0.2 z1.2) ^ 2 + (-1) * ((c.e : ℂ)) ^ 2 * (N.c 1) * (sb z0.2 z1.2) * (sb z0.2 z2.2) * (sb z1.2 z3.2) + (2) * ((c.e : ℂ)) ^ 2 * (ab z0.1 z2.1) * (ab z1.1 z3.1) * (sb z0.2 z1.2) ^ 3 + (1) * ((c.e : ℂ)) ^ 2 * (ab z1.1 z2.1) * (mb z1.2 (p 2) z3.1) * (sb z0.2 z1.2) ^ 2 + (1) * ((c.e : ℂ)) ^ 2 * (mb z0.2 (p 2) z1.1) * (sb z0.2 z1.2) * (sb z1.2 z2.2) * (sb z1.2 z3.2) + (1) * ((c.e : ℂ)) ^ 2 * (mb z3.2 (p 2) z1.1) * (sb z0.2 z1.2) ^ 2 * (sb z1.2 z2.2)) * i1 + ((2) * ((c.MW : ℂ)) * ((c.e : ℂ)) ^ 2 * (ab z2.1 z3.1) * (sb z0.2 z1.2) ^ 2 * (sb z1.2 z2.2) + (1) * ((c.MW : ℂ)) * ((c.e : ℂ)) ^ 2 * (sb z0.2 z1.2) * (sb z0.2 z2.2) * (sb z1.2 z2.2) * (sb z1.2 z3.2) + (-2) * ((c.e : ℂ)) ^ 2 * (ab z0.1 z2.1) * (ab z2.1 z3.1) * (sb z0.2 z1.2) ^ 3 + (1) * ((c.e : ℂ)) ^ 2 * (ab z1.1 z2.1) * (sb z0.2 z1.2) ^ 2 * (sb z1.2 z2.2) * (sb z1.2 z3.2)) * i2 + ((-3) * ((c.MW : ℂ)) * ((c.e : ℂ)) ^ 2 * (ab z0.1 z2.1) * (sb z0.2 z1.2) ^ 3 * (sb z0.2 z3.2) + (-1) * ((c.MW : ℂ)) * ((c.e : ℂ)) ^ 2 * (ab z1.1 z2.1) * (sb z0.2 z1.2) ^ 3 * (sb z1.2 z3.2) + (-1) * ((c.MW : ℂ)) * ((c.e : ℂ)) ^ 2 * (mb z0.2 (p 2) z3.1) * (sb z0.2 z1.2) ^ 2 * (sb z1.2 z2.2) + (-2) * ((c.MW : ℂ)) * ((c.e : ℂ)) ^ 2 * (mb z1.2 (p 2) z3.1) * (sb z0.2 z1.2) ^ 2 * (sb z0.2 z2.2) + (2) * ((c.MW : ℂ)) ^ 2 * ((c.e : ℂ)) ^ 2 * (sb z0.2 z1.2) ^ 2 * (sb z0.2 z2.2) * (sb z1.2 z3.2) + (-2) * ((c.MW : ℂ)) ^ 2 * ((c.e : ℂ)) ^ 2 * (sb z0.2 z1.2) ^ 2 * (sb z0.2 z3.2) * (sb z1.2 z2.2) + (-2) * ((c.MW : ℂ)) ^ 2 * ((c.e : ℂ)) ^ 2 * (sb z0.2 z1.2) ^ 3 * (sb z2.2 z3.2) + (-1) * ((c.e : ℂ)) ^ 2 * (N.c 0) * (sb z0.2 z1.2) ^ 2 * (sb z0.2 z3.2) * (sb z1.2 z2.2) + (2) * ((c.e : ℂ)) ^ 2 * (ab z0.1 z2.1) * (mb z0.2 (p 2) z3.1) * (sb z0.2 z1.2) ^ 3 + (-1) * ((c.e : ℂ)) ^ 2 * (mb z3.2 (p 2) z0.1) * (sb z0.2 z1.2) ^ 3 * (sb z0.2 z2.2)) * i3 + ((1) * ((c.MW : ℂ)) * ((c.e : ℂ)) ^ 2 * (N.c 0) * (ab z0.1 z3.1) * (sb z0.2 z1.2) * (sb z0.2 z2.2) + (-1) * ((c.MW : ℂ)) * ((c.e : ℂ)) ^ 2 * (N.c 0) * (ab z1.1 z3.1) * (sb z0.2 z1.2) * (sb z1.2 z2.2) + (-1) * ((c.MW : ℂ)) * ((c.e : ℂ)) ^ 2 * (N.c 0) * (mb z0.2 (p 2) z3.1) * (sb z1.2 z2.2) + (-1) * ((c.MW : ℂ)) * ((c.e : ℂ)) ^ 2 * (N.c 0) * (mb z1.2 (p 2) z3.1) * (sb z0.2 z2.2) + (3) * ((c.MW : ℂ)) * ((c.e : ℂ)) ^ 2 * (N.c 1) * (ab z0.1 z3.1) * (sb z0.2 z1.2) * (sb z0.2 z2.2) + (-1) * ((c.MW : ℂ)) * ((c.e : ℂ)) ^ 2 * (N.c 1) * (mb z0.2 (p 2) z3.1) * (sb z1.2 z2.2) + (-1) * ((c.MW : ℂ)) * ((c.e : ℂ)) ^ 2 * (N.c 1) * (mb z1.2 (p 2) z3.1) * (sb z0.2 z2.2) + (-1) * ((c.MW : ℂ)) * ((c.e : ℂ)) ^ 2 * (ab z0.1 z1.1) * (ab z1.1 z2.1) * (sb z0.2 z1.2) ^ 2 * (sb z1.2 z3.2) + (1) * ((c.MW : ℂ)) * ((c.e : ℂ)) ^ 2 * (ab z0.1 z1.1) * (mb z1.2 (p 2) z3.1) * (sb z0.2 z1.2) * (sb z0.2 z2.2) + (-2) * ((c.MW : ℂ)) * ((c.e : ℂ)) ^ 2 * (ab z0.1 z2.1) * (mb z0.2 (p 2) z1.1) * (sb z0.2 z1.2) * (sb z1.2 z3.2) + (-1) * ((c.MW : ℂ)) * ((c.e : ℂ)) ^ 2 * (ab z1.1 z2.1) * (mb z3.2 (p 2) z0.1) * (sb z0.2 z1.2) ^ 2 + (1) * ((c.MW : ℂ)) ^ 2 * ((c.e : ℂ)) ^ 2 * (N.c 0) * (ab z2.1 z3.1) * (sb z0.2 z1.2) + (-1) * ((c.MW : ℂ)) ^ 2 * ((c.e : ℂ)) ^ 2 * (N.c 1) * (ab z2.1 z3.1) * (sb z0.2 z1.2) + (-3) * ((c.MW : ℂ)) ^ 2 * ((c.e : ℂ)) ^ 2 * (ab z0.1 z1.1) * (sb z0.2 z1.2) * (sb z0.2 z2.2) * (sb z1.2 z3.2) + (-3) * ((c.MW : ℂ)) ^ 2 * ((c.e : ℂ)) ^ 2 * (ab z0.1 z2.1) * (ab z1.1 z3.1) * (sb z0.2 z1.2) ^ 2 + (-3) * ((c.MW : ℂ)) ^ 3 * ((c.e : ℂ)) ^ 2 * (ab z0.1 z3.1) * (sb z0.2 z1.2) * (sb z0.2 z2.2) + (-1) * ((c.e : ℂ)) ^ 2 * (N.c 0) * (N.c 1) * (ab z2.1 z3.1) * (sb z0.2 z1.2) + (-3) * ((c.e : ℂ)) ^ 2 * (N.c 0) * (ab z0.1 z2.1) * (ab z1.1 z3.1) * (sb z0.2 z1.2) ^ 2 + (-2) * ((c.e : ℂ)) ^ 2 * (N.c 0) * (ab z1.1 z2.1) * (mb z1.2 (p 2) z3.1) * (sb z0.2 z1.2) + (3) * ((c.e : ℂ)) ^ 2 * (ab z0.1 z1.1) * (ab z0.1 z2.1) * (ab z1.1 z3.1) * (sb z0.2 z1.2) ^ 3) * i4 + ((-1) * ((c.MW : ℂ)) * ((c.e : ℂ)) ^ 2 * (sb z0.2 z1.2) ^ 2 * (sb z0.2 z2.2) * (sb z1.2 z3.2) + (1) * ((c.e : ℂ)) ^ 2 * (ab z0.1 z3.1) * (sb z0.2 z1.2) ^ 3 * (sb z0.2 z2.2) + (1) * ((c.e : ℂ)) ^ 2 * (mb z0.2 (p 2) z3.1) * (sb z0.2 z1.2) ^ 2 * (sb z1.2 z2.2) + (1) * ((c.e : ℂ)) ^ 2 * (mb z1.2 (p 2) z3.1) * (sb z0.2 z1.2) ^ 2 * (sb z0.2 z2.2)) * i5 + ((1) * ((c.MW : ℂ)) * ((c.e : ℂ)) ^ 2 * (ab z2.1 z3.1) * (sb z0.2 z1.2) ^ 2 * (sb z1.2 z2.2) + (-3) * ((c.MW : ℂ)) * ((c.e : ℂ)) ^ 2 * (sb z0.2 z1.2) * (sb z0.2 z2.2) * (sb z1.2 z2.2) * (sb z1.2 z3.2) + (-4) * ((c.e : ℂ)) ^ 2 * (ab z0.1 z2.1) * (ab z2.1 z3.1) * (sb z0.2 z1.2) ^ 3 + (-4) * ((c.e : ℂ)) ^ 2 * (ab z0.1 z2.1) * (sb z0.2 z1.2) ^ 2 * (sb z0.2 z2.2) * (sb z1.2 z3.2) + (3) * ((c.e : ℂ)) ^ 2 * (ab z0.1 z2.1) * (sb z0.2 z1.2) ^ 3 * (sb z2.2 z3.2) + (-1) * ((c.e : ℂ)) ^ 2 * (ab z1.1 z2.1) * (sb z0.2 z1.2) ^ 2 * (sb z1.2 z2.2) * (sb z1.2 z3.2)) * i6 + ((1) * ((c.MW : ℂ)) * ((c.e : ℂ)) ^ 2 * (ab z2.1 z3.1) * (sb z0.2 z1.2) ^ 2 * (sb z0.2 z3.2) + (-3) * ((c.e : ℂ)) ^ 2 * (ab z0.1 z3.1) * (sb z0.2 z1.2) ^ 2 * (sb z0.2 z2.2) * (sb z0.2 z3.2) + (-3) * ((c.e : ℂ)) ^ 2 * (ab z1.1 z3.1) * (sb z0.2 z1.2) ^ 2 * (sb z0.2 z2.2) * (sb z1.2 z3.2) + (3) * ((c.e : ℂ)) ^ 2 * (ab z1.1 z3.1) * (sb z0.2 z1.2) ^ 3 * (sb z2.2 z3.2) + (3) * ((c.e : ℂ)) ^ 2 * (mb z1.2 (p 2) z3.1) * (sb z0.2 z1.2) * (sb z0.2 z2.2) * (sb z0.2 z3.2)) * i7 + ((-2) * ((c.e : ℂ)) ^ 2 * (ab z2.1 z3.1) * (mb z1.2 (p 2) z0.1) * (sb z0.2 z1.2) ^ 2 + (-1) * ((c.e : ℂ)) ^ 2 * (mb z3.2 (p 2) z0.1) * (sb z0.2 z1.2) ^ 2 * (sb z1.2 z2.2)) * i8 + ((1) * ((c.MW : ℂ)) * ((c.e : ℂ)) ^ 2 * (mb z1.2 (p 2) z3.1) * (sb z0.2 z1.2) * (sb z1.2 z2.2) + (-1) * ((c.MW : ℂ)) ^ 2 * ((c.e : ℂ)) ^ 2 * (sb z0.2 z1.2) * (sb z1.2 z2.2) * (sb z1.2 z3.2) + (-1) * ((c.e : ℂ)) ^ 2 * (N.c 1) * (sb z0.2 z1.2) * (sb z1.2 z2.2) * (sb z1.2 z3.2) + (-2) * ((c.e : ℂ)) ^ 2 * (ab z2.1 z3.1) * (mb z1.2 (p 2) z0.1) * (sb z0.2 z1.2) ^ 2 + (-1) * ((c.e : ℂ)) ^ 2 * (mb z1.2 (p 2) z0.1) * (sb z0.2 z1.2) * (sb z0.2 z2.2) * (sb z1.2 z3.2) + (-1) * ((c.e : ℂ)) ^ 2 * (mb z3.2 (p 2) z0.1) * (sb z0.2 z1.2) ^ 2 * (sb z1.2 z2.2)) * i9 + ((-1) * ((c.MW : ℂ)) * ((c.e : ℂ)) ^ 2 * (ab z1.1 z3.1) * (sb z0.2 z1.2) ^ 2 * (sb z0.2 z2.2) + (-3) * ((c.MW : ℂ)) ^ 2 * ((c.e : ℂ)) ^ 2 * (sb z0.2 z1.2) * (sb z0.2 z2.2) * (sb z0.2 z3.2) + (-2) * ((c.e : ℂ)) ^ 2 * (N.c 0) * (sb z0.2 z1.2) * (sb z0.2 z2.2) * (sb z0.2 z3.2) + (2) * ((c.e : ℂ)) ^ 2 * (ab z1.1 z2.1) * (ab z1.1 z3.1) * (sb z0.2 z1.2) ^ 3 + (-1) * ((c.e : ℂ)) ^ 2 * (ab z1.1 z2.1) * (mb z0.2 (p 2) z3.1) * (sb z0.2 z1.2) ^ 2 + (2) * ((c.e : ℂ)) ^ 2 * (mb z0.2 (p 2) z1.1) * (sb z0.2 z1.2) * (sb z0.2 z2.2) * (sb z1.2 z3.2) + (-2) * ((c.e : ℂ)) ^ 2 * (mb z0.2 (p 2) z1.1) * (sb z0.2 z1.2) ^ 2 * (sb z2.2 z3.2) + (1) * ((c.e : ℂ)) ^ 2 * (mb z3.2 (p 2) z1.1) * (sb z0.2 z1.2) ^ 2 * (sb z0.2 z2.2)) * i10 + ((-1) * ((c.MW : ℂ)) * ((c.e : ℂ)) ^ 2 * (ab z1.1 z3.1) * (sb z0.2 z1.2) ^ 2 * (sb z1.2 z2.2) + (-1) * ((c.MW : ℂ)) * ((c.e : ℂ)) ^ 2 * (mb z1.2 (p 2) z3.1) * (sb z0.2 z1.2) * (sb z0.2 z2.2) + (2) * ((c.MW : ℂ)) ^ 2 * ((c.e : ℂ)) ^ 2 * (ab z2.1 z3.1) * (sb z0.2 z1.2) ^ 2 + (3) * ((c.MW : ℂ)) ^ 2 * ((c.e : ℂ)) ^ 2 * (sb z0.2 z1.2) * (sb z0.2 z2.2) * (sb z1.2 z3.2) + (-2) * ((c.MW : ℂ)) ^ 2 * ((c.e : ℂ)) ^ 2 * (sb z0.2 z1.2) ^ 2 * (sb z2.2 z3.2) + (1) * ((c.e : ℂ)) ^ 2 * (N.c 0) * (ab z2.1 z3.1) * (sb z0.2 z1.2) ^ 2 + (2) * ((c.e : ℂ)) ^ 2 * (N.c 0) * (sb z0.2 z1.2) * (sb z0.2 z2.2) * (sb z1.2 z3.2) + (-1) * ((c.e : ℂ)) ^ 2 * (N.c 0) * (sb z0.2 z1.2) ^ 2 * (sb z2.2 z3.2) + (2) * ((c.e : ℂ)) ^ 2 * (ab z0.1 z2.1) * (ab z1.1 z3.1) * (sb z0.2 z1.2) ^ 3 + (1) * ((c.e : ℂ)) ^ 2 * (ab z0.1 z2.1) * (mb z0.2 (p 2) z3.1) * (sb z0.2 z1.2) ^ 2 + (-2) * ((c.e : ℂ)) ^ 2 * (mb z0.2 (p 2) z1.1) * (sb z0.2 z1.2) * (sb z1.2 z2.2) * (sb z1.2 z3.2)) * i11 + ((1) * ((c.e : ℂ)) ^ 2 * (ab z0.1 z3.1) * (sb z0.2 z1.2) ^ 2 * (sb z0.2 z2.2) * (sb z1.2 z3.2) + (1) * ((c.e : ℂ)) ^ 2 * (ab z1.1 z3.1) * (sb z0.2 z1.2) ^ 2 * (sb z1.2 z2.2) * (sb z1.2 z3.2) + (-1) * ((c.e : ℂ)) ^ 2 * (mb z0.2 (p 2) z3.1) * (sb z0.2 z1.2) * (sb z1.2 z2.2) * (sb z1.2 z3.2) + (-1) * ((c.e : ℂ)) ^ 2 * (mb z1.2 (p 2) z3.1) * (sb z0.2 z1.2) * (sb z0.2 z2.2) * (sb z1.2 z3.2)) * i12 + ((1) * ((c.MW : ℂ)) * ((c.e : ℂ)) ^ 2 * (mb z1.2 (p 2) z3.1) * (sb z0.2 z2.2) ^ 2 + (-3) * ((c.MW : ℂ)) ^ 2 * ((c.e : ℂ)) ^ 2 * (ab z2.1 z3.1) * (sb z0.2 z1.2) * (sb z0.2 z2.2) + (1) * ((c.e : ℂ)) ^ 2 * (N.c 0) * (ab z2.1 z3.1) * (sb z0.2 z1.2) * (sb z0.2 z2.2) + (-1) * ((c.e : ℂ)) ^ 2 * (ab z0.1 z2.1) * (ab z1.1 z3.1) * (sb z0.2 z1.2) ^ 2 * (sb z0.2 z2.2)) * i13 + ((1) * ((c.MW : ℂ)) * ((c.e : ℂ)) ^ 2 * (ab z2.1 z3.1) * (sb z0.2 z1.2) ^ 2 * (sb z0.2 z2.2) + (4) * ((c.MW : ℂ)) * ((c.e : ℂ)) ^ 2 * (sb z0.2 z1.2) * (sb z0.2 z2.2) ^ 2 * (sb z1.2 z3.2) + (-3) * ((c.MW : ℂ)) * ((c.e : ℂ)) ^ 2 * (sb z0.2 z1.2) ^ 2 * (sb z0.2 z2.2) * (sb z2.2 z3.2) + (3) * ((c.e : ℂ)) ^ 2 * (ab z0.1 z2.1) * (sb z0.2 z1.2) ^ 2 * (sb z0.2 z2.2) * (sb z0.2 z3.2) + (1) * ((c.e : ℂ)) ^ 2 * (ab z1.1 z2.1) * (sb z0.2 z1.2) ^ 2 * (sb z0.2 z2.2) * (sb z1.2 z3.2)) * i14 + ((-1) * ((c.MW : ℂ)) * ((c.e : ℂ)) ^ 2 * (N.c 0) * (ab z2.1 z3.1) * (sb z0.2 z1.2) + (1) * ((c.MW : ℂ)) * ((c.e : ℂ)) ^ 2 * (N.c 0) * (sb z0.2 z2.2) * (sb z1.2 z3.2)) * i15 + ((-1) * ((c.MW : ℂ)) * ((c.e : ℂ)) ^ 2 * (mb z0.2 (p 2) z3.1) * (sb z0.2 z1.2) * (sb z1.2 z2.2) + (1) * ((c.MW : ℂ)) * ((c.e : ℂ)) ^ 2 * (mb z1.2 (p 2) z3.1) * (sb z0.2 z1.2) * (sb z0.2 z2.2) + (-1) * ((c.e : ℂ)) ^ 2 * (ab z1.1 z2.1) * (mb z1.2 (p 2) z3.1) * (sb z0.2 z1.2) ^ 2) * i16 + ((-1) * ((c.MW : ℂ)) * ((c.e : ℂ)) ^ 2 * (mb z0.2 (p 2) z3.1) * (sb z0.2 z1.2) * (sb z1.2 z2.2) + (1) * ((c.MW : ℂ)) ^ 2 * ((c.e : ℂ)) ^ 2 * (sb z0.2 z1.2) * (sb z0.2 z2.2) * (sb z1.2 z3.2) + (-1) * ((c.MW : ℂ)) ^ 2 * ((c.e : ℂ)) ^ 2 * (sb z0.2 z1.2) ^ 2 * (sb z2.2 z3.2) + (1) * ((c.e : ℂ)) ^ 2 * (mb z0.2 (p 2) z1.1) * (sb z0.2 z1.2) * (sb z1.2 z2.2) * (sb z1.2 z3.2) + (-1) * ((c.e : ℂ)) ^ 2 * (mb z3.2 (p 2) z0.1) * (sb z0.2 z1.2) ^ 2 * (sb z0.2 z2.2)) * i17 + ((-2) * ((c.MW : ℂ)) * ((c.e : ℂ)) ^ 2 * (ab z1.1 z3.1) * (sb z0.2 z1.2) ^ 2 * (sb z0.2 z2.2) + (-3) * ((c.e : ℂ)) ^ 2 * (N.c 0) * (sb z0.2 z1.2) * (sb z0.2 z2.2) * (sb z0.2 z3.2) + (-3) * ((c.e : ℂ)) ^ 2 * (N.c 1) * (sb z0.2 z1.2) * (sb z0.2 z2.2) * (sb z0.2 z3.2) + (1) * ((c.e : ℂ)) ^ 2 * (ab z1.1 z2.1) * (ab z1.1 z3.1) * (sb z0.2 z1.2) ^ 3 + (-1) * ((c.e : ℂ)) ^ 2 * (ab z1.1 z2.1) * (mb z0.2 (p 2) z3.1) * (sb z0.2 z1.2) ^ 2 + (3) * ((c.e : ℂ)) ^ 2 * (mb z0.2 (p 2) z1.1) * (sb z0.2 z1.2) * (sb z0.2 z2.2) * (sb z1.2 z3.2) + (-2) * ((c.e : ℂ)) ^ 2 * (mb z0.2 (p 2) z1.1) * (sb z0.2 z1.2) ^ 2 * (sb z2.2 z3.2) + (1) * ((c.e : ℂ)) ^ 2 * (mb z3.2 (p 2) z1.1) * (sb z0.2 z1.2) ^ 2 * (sb z0.2 z2.2)) * i18 + ((-1) * ((c.MW : ℂ)) * ((c.e : ℂ)) ^ 2 * (mb z0.2 (p 2) z3.1) * (sb z0.2 z1.2) * (sb z2.2 z3.2) + (1) * ((c.MW : ℂ)) * ((c.e : ℂ)) ^ 2 * (mb z0.2 (p 2) z3.1) * (sb z0.2 z2.2) * (sb z1.2 z3.2) + (-1) * ((c.MW : ℂ)) * ((c.e : ℂ)) ^ 2 * (mb z1.2 (p 2) z3.1) * (sb z0.2 z2.2) * (sb z0.2 z3.2) + (-1) * ((c.MW : ℂ)) * ((c.e : ℂ)) ^ 2 * (mb z3.2 (p 2) z3.1) * (sb z0.2 z1.2) * (sb z0.2 z2.2)) * i19 + ((2) * ((c.MW : ℂ)) * ((c.e : ℂ)) ^ 2 * (ab z2.1 z3.1) * (sb z0.2 z1.2) ^ 2 * (sb z0.2 z2.2) + (3) * ((c.MW : ℂ)) * ((c.e : ℂ)) ^ 2 * (sb z0.2 z1.2) * (sb z0.2 z2.2) ^ 2 * (sb z1.2 z3.2) + (-2) * ((c.MW : ℂ)) * ((c.e : ℂ)) ^ 2 * (sb z0.2 z1.2) ^ 2 * (sb z0.2 z2.2) * (sb z2.2 z3.2) + (4) * ((c.e : ℂ)) ^ 2 * (ab z0.1 z2.1) * (sb z0.2 z1.2) ^ 2 * (sb z0.2 z2.2) * (sb z0.2 z3.2) + (-1) * ((c.e : ℂ)) ^ 2 * (ab z1.1 z2.1) * (ab z2.1 z3.1) * (sb z0.2 z1.2) ^ 3 + (1) * ((c.e : ℂ)) ^ 2 * (ab z1.1 z2.1) * (sb z0.2 z1.2) ^ 2 * (sb z0.2 z2.2) * (sb z1.2 z3.2)) * i20 + ((1) * ((c.MW : ℂ)) * ((c.e : ℂ)) ^ 2 * (mb z0.2 (p 2) z3.1) * (sb z0.2 z1.2) ^ 2 + (2) * ((c.MW : ℂ)) ^ 2 * ((c.e : ℂ)) ^ 2 * (sb z0.2 z1.2) ^ 2 * (sb z0.2 z3.2) + (1) * ((c.e : ℂ)) ^ 2 * (N.c 0) * (sb z0.2 z1.2) ^ 2 * (sb z0.2 z3.2)) * i21 + ((-1) * ((c.MW : ℂ)) * ((c.e : ℂ)) ^ 2 * (ab z2.1 z3.1) * (sb z0.2 z1.2) * (sb z1.2 z2.2)) * i22 + ((-1) * ((c.MW : ℂ)) * ((c.e : ℂ)) ^ 2 * (mb z1.2 (p 2) z3.1) * (sb z0.2 z1.2) ^ 2 + (-1) * ((c.e : ℂ)) ^ 2 * (mb z3.2 (p 2) z0.1) * (sb z0.2 z1.2) ^ 3) * i23 + ((-3) * ((c.e : ℂ)) ^ 2 * (ab z0.1 z3.1) * (sb z0.2 z1.2) ^ 2 * (sb z0.2 z2.2) * (sb z0.2 z3.2) + (-2) * ((c.e : ℂ)) ^ 2 * (ab z1.1 z3.1) * (ab z2.1 z3.1) * (sb z0.2 z1.2) ^ 3 + (-5) * ((c.e : ℂ)) ^ 2 * (ab z1.1 z3.1) * (sb z0.2 z1.2) ^ 2 * (sb z0.2 z2.2) * (sb z1.2 z3.2) + (3) * ((c.e : ℂ)) ^ 2 * (ab z1.1 z3.1) * (sb z0.2 z1.2) ^ 3 * (sb z2.2 z3.2) + (2) * ((c.e : ℂ)) ^ 2 * (ab z2.1 z3.1) * (mb z0.2 (p 2) z3.1) * (sb z0.2 z1.2) ^ 2 + (1) * ((c.e : ℂ)) ^ 2 * (mb z0.2 (p 2) z3.1) * (sb z0.2 z1.2) * (sb z0.2 z2.2) * (sb z1.2 z3.2) + (3) * ((c.e : ℂ)) ^ 2 * (mb z1.2 (p 2) z3.1) * (sb z0.2 z1.2) * (sb z0.2 z2.2) * (sb z0.2 z3.2)) * i24 + ((-2) * ((c.MW : ℂ)) * ((c.e : ℂ)) ^ 2 * (ab z1.1 z3.1) * (ab z2.1 z3.1) * (sb z0.2 z1.2) ^ 2 + (-1) * ((c.MW : ℂ)) * ((c.e : ℂ)) ^ 2 * (ab z1.1 z3.1) * (sb z0.2 z1.2) ^ 2 * (sb z2.2 z3.2) + (-1) * ((c.MW : ℂ)) * ((c.e : ℂ)) ^ 2 * (mb z0.2 (p 2) z3.1) * (sb z0.2 z1.2) * (sb z2.2 z3.2) + (1) * ((c.MW : ℂ)) * ((c.e : ℂ)) ^ 2 * (mb z0.2 (p 2) z3.1) * (sb z0.2 z2.2) * (sb z1.2 z3.2) + (-1) * ((c.MW : ℂ)) * ((c.e : ℂ)) ^ 2 * (mb z3.2 (p 2) z3.1) * (sb z0.2 z1.2) * (sb z0.2 z2.2) + (-2) * ((c.e : ℂ)) ^ 2 * (ab z0.1 z2.1) * (ab z1.1 z3.1) * (sb z0.2 z1.2) ^ 2 * (sb z0.2 z3.2) + (-2) * ((c.e : ℂ)) ^ 2 * (ab z1.1 z2.1) * (ab z1.1 z3.1) * (sb z0.2 z1.2) ^ 2 * (sb z1.2 z3.2)) * i25 + ((-2) * ((c.MW : ℂ)) * ((c.e : ℂ)) ^ 2 * (ab z2.1 z3.1) * (sb z0.2 z1.2) ^ 3 + (-2) * ((c.MW : ℂ)) * ((c.e : ℂ)) ^ 2 * (sb z0.2 z1.2) ^ 2 * (sb z0.2 z2.2) * (sb z1.2 z3.2) + (-3) * ((c.e : ℂ)) ^ 2 * (ab z0.1 z2.1) * (sb z0.2 z1.2) ^ 3 * (sb z0.2 z3.2) + (-1) * ((c.e : ℂ)) ^ 2 * (ab z1.1 z2.1) * (sb z0.2 z1.2) ^ 3 * (sb z1.2 z3.2)) * i26 + ((1) * ((c.MW : ℂ)) * ((c.e : ℂ)) ^ 2 * (sb z0.2 z1.2) ^ 2 * (sb z0.2 z2.2) * (sb z1.2 z2.2)) * i27 + ((-1) * ((c.MW : ℂ)) * ((c.e : ℂ)) ^ 2 * (ab z2.1 z3.1) * (mb z1.2 (p 2) z3.1) * (sb z0.2 z1.2) + (1) * ((c.MW : ℂ)) * ((c.e : ℂ)) ^ 2 * (mb z1.2 (p 2) z3.1) * (sb z0.2 z1.2) * (sb z2.2 z3.2) + (-1) * ((c.MW : ℂ)) * ((c.e : ℂ)) ^ 2 * (mb z3.2 (p 2) z3.1) * (sb z0.2 z1.2) * (sb z1.2 z2.2) + (1) * ((c.e : ℂ)) ^ 2 * (ab z1.1 z2.1) * (mb z1.2 (p 2) z3.1) * (sb z0.2 z1.2) * (sb z1.2 z3.2)) * i28 + ((-1) * ((c.MW : ℂ)) ^ 2 * ((c.e : ℂ)) ^ 2 * (sb z0.2 z1.2) ^ 2 * (sb z1.2 z2.2)) * i29 + ((1) * ((c.MW : ℂ)) * ((c.e : ℂ)) ^ 2 * (ab z1.1 z2.1) * (ab z2.1 z3.1) * (sb z0.2 z1.2) ^ 2 + (-1) * ((c.e : ℂ)) ^ 2 * (N.c 1) * (ab z2.1 z3.1) * (sb z0.2 z1.2) * (sb z0.2 z2.2)) * i30 + ((1) * ((c.MW : ℂ)) ^ 2 * ((c.e : ℂ)) ^ 2 * (ab z2.1 z3.1) * (sb z0.2 z1.2) * (sb z1.2 z2.2) + (1) * ((c.e : ℂ)) ^ 2 * (N.c 0) * (ab z2.1 z3.1) * (sb z0.2 z1.2) * (sb z1.2 z2.2)) * i31 + ((1) * ((c.MW : ℂ)) * ((c.e : ℂ)) ^ 2 * (mb z1.2 (p 2) z3.1) * (sb z0.2 z1.2) * (sb z2.2 z3.2)) * i32 + ((-1) * ((c.MW : ℂ)) * ((c.e : ℂ)) ^ 2 * (N.c 0) * (sb z0.2 z2.2) * (sb z1.2 z2.2)) * i33)) * ((1) * ((c.MW : ℂ)⁻¹) ^ 2 * ((N.c 1)⁻¹)) + ((1) * ((c.MW : ℂ)) * (((√2 : ℝ) : ℂ)) ^ 2 * ((c.e : ℂ)) ^ 2 * ((c.MW : ℂ)⁻¹) ^ 2 * (ab z1.1 z3.1) * (sb z0.2 z1.2) * (sb z0.2 z2.2) * (sb z1.2 z2.2) * (sb z1.2 z3.2) + (1) * ((c.MW : ℂ)) * (((√2 : ℝ) : ℂ)) ^ 2 * ((c.e : ℂ)) ^ 2 * ((c.MW : ℂ)⁻¹) ^ 2 * (mb z1.2 (p 2) z3.1) * (sb z0.2 z2.2) ^ 2 * (sb z1.2 z3.2) / (2) + (1) * (((√2 : ℝ) : ℂ)) ^ 2 * ((c.e : ℂ)) ^ 2 * ((c.MW : ℂ)⁻¹) ^ 2 * (ab z1.1 z2.1) * (mb z1.2 (p 2) z3.1) * (sb z0.2 z1.2) * (sb z0.2 z2.2) * (sb z1.2 z3.2) + (-1) * (((√2 : ℝ) : ℂ)) ^ 2 * ((c.e : ℂ)) ^ 2 * ((c.MW : ℂ)⁻¹) ^ 2 * (ab z2.1 z3.1) * (mb z1.2 (p 2) z0.1) * (sb z0.2 z1.2) * (sb z0.2 z2.2) * (sb z0.2 z3.2) + (-2) * ((c.e : ℂ)) ^ 2 * (N.c 1) * ((N.c 1)⁻¹) * (ab z2.1 z3.1) ^ 2 * (sb z0.2 z1.2) ^ 2) * y0 + ((-2) * ((c.MW : ℂ)) * ((c.e : ℂ)) ^ 2 * ((c.MW : ℂ)⁻¹) ^ 2 * (ab z1.1 z3.1) * (sb z0.2 z1.2) * (sb z0.2 z2.2) * (sb z1.2 z2.2) * (sb z1.2 z3.2) + (1) * ((c.MW : ℂ)) * ((c.e : ℂ)) ^ 2 * ((c.MW : ℂ)⁻¹) ^ 2 * (mb z0.2 (p 2) z3.1) * (sb z0.2 z3.2) * (sb z1.2 z2.2) ^ 2 + (-2) * ((c.MW : ℂ)) ^ 2 * ((c.e : ℂ)) ^ 2 * ((c.MW : ℂ)⁻¹) ^ 2 * (ab z2.1 z3.1) * (sb z0.2 z1.2) ^ 2 * (sb z2.2 z3.2) + (2) * ((c.MW : ℂ)) ^ 2 * ((c.e : ℂ)) ^ 2 * ((c.MW : ℂ)⁻¹) ^ 2 * (ab z2.1 z3.1) ^ 2 * (sb z0.2 z1.2) ^ 2 + (-2) * ((c.e : ℂ)) ^ 2 * ((c.MW : ℂ)⁻¹) ^ 2 * (ab z1.1 z2.1) * (mb z1.2 (p 2) z3.1) * (sb z0.2 z1.2) * (sb z0.2 z2.2) * (sb z1.2 z3.2) + (2) * ((c.e : ℂ)) ^ 2 * ((c.MW : ℂ)⁻¹) ^ 2 * (ab z2.1 z3.1) * (mb z1.2 (p 2) z0.1) * (sb z0.2 z1.2) * (sb z0.2 z2.2) * (sb z0.2 z3.2) + (-2) * ((c.e : ℂ)) ^ 2 * (ab z2.1 z3.1) ^ 2 * (sb z0.2 z1.2) ^ 2) * y1 + ((1) * ((c.MW : ℂ)) * (((√2 : ℝ) : ℂ)) ^ 2 * ((c.e : ℂ)) ^ 2 * ((c.MW : ℂ)⁻¹) * (ab z2.1 z3.1) * (sb z0.2 z1.2) ^ 2 * (sb z2.2 z3.2) + (-2) * ((c.MW : ℂ)) * ((c.e : ℂ)) ^ 2 * ((c.MW : ℂ)⁻¹) * (ab z2.1 z3.1) * (sb z0.2 z1.2) ^ 2 * (sb z2.2 z3.2) + (2) * ((c.MW : ℂ)) * ((c.e : ℂ)) ^ 2 * ((c.MW : ℂ)⁻¹) * (ab z2.1 z3.1) ^ 2 * (sb z0.2 z1.2) ^ 2 + (-1) * (((√2 : ℝ) : ℂ)) ^ 2 * ((c.e : ℂ)) ^ 2 * ((c.MW : ℂ)⁻¹) * (N.c 0) * ((N.c 1)⁻¹) * (ab z1.1 z3.1) * (sb z0.2 z1.2) * (sb z0.2 z3.2) * (sb z1.2 z2.2) ^ 2 / (2) + (-1) * (((√2 : ℝ) : ℂ)) ^ 2 * ((c.e : ℂ)) ^ 2 * ((c.MW : ℂ)⁻¹) * (N.c 0) * ((N.c 1)⁻¹) * (mb z0.2 (p 2) z3.1) * (sb z0.2 z3.2) * (sb z1.2 z2.2) ^ 2 / (2) + (1) * (((√2 : ℝ) : ℂ)) ^ 2 * ((c.e : ℂ)) ^ 2 * ((c.MW : ℂ)⁻¹) * ((N.c 1)⁻¹) * (ab z1.1 z3.1) * (mb z0.2 (p 2) z1.1) * (sb z0.2 z1.2) * (sb z1.2 z2.2) ^ 2 * (sb z1.2 z3.2) / (2) + (-1) * (((√2 : ℝ) : ℂ)) ^ 2 * ((c.e : ℂ)) ^ 2 * ((c.MW : ℂ)⁻¹) * ((N.c 1)⁻¹) * (mb z0.2 (p 2) z1.1) * (mb z3.2 (p 2) z3.1) * (sb z0.2 z1.2) * (sb z1.2 z2.2) ^ 2 / (2) + (1) * (((√2 : ℝ) : ℂ)) ^ 2 * ((c.e : ℂ)) ^ 2 * ((c.MW : ℂ)⁻¹) * (ab z1.1 z3.1) * (sb z0.2 z1.2) * (sb z0.2 z2.2) * (sb z1.2 z2.2) * (sb z1.2 z3.2) + (-1) * (((√2 : ℝ) : ℂ)) ^ 2 * ((c.e : ℂ)) ^ 2 * ((c.MW : ℂ)⁻¹) * (mb z0.2 (p 2) z3.1) * (sb z0.2 z3.2) * (sb z1.2 z2.2) ^ 2 / (2) + (1) * (((√2 : ℝ) : ℂ)) ^ 2 * ((c.e : ℂ)) ^ 2 * (ab z2.1 z3.1) * (sb z0.2 z1.2) ^ 2 * (sb z2.2 z3.2) + (1) * ((c.e : ℂ)) ^ 2 * ((c.MW : ℂ)⁻¹) * (N.c 0) * ((N.c 1)⁻¹) * (ab z1.1 z3.1) * (sb z0.2 z1.2) * (sb z0.2 z3.2) * (sb z1.2 z2.2) ^ 2 + (1) * ((c.e : ℂ)) ^ 2 * ((c.MW : ℂ)⁻¹) * (N.c 0) * ((N.c 1)⁻¹) * (mb z0.2 (p 2) z3.1) * (sb z0.2 z3.2) * (sb z1.2 z2.2) ^ 2 + (-1) * ((c.e : ℂ)) ^ 2 * ((c.MW : ℂ)⁻¹) * ((N.c 1)⁻¹) * (ab z1.1 z3.1) * (mb z0.2 (p 2) z1.1) * (sb z0.2 z1.2) * (sb z1.2 z2.2) ^ 2 * (sb z1.2 z3.2) + (1) * ((c.e : ℂ)) ^ 2 * ((c.MW : ℂ)⁻¹) * ((N.c 1)⁻¹) * (mb z0.2 (p 2) z1.1) * (mb z3.2 (p 2) z3.1) * (sb z0.2 z1.2) * (sb z1.2 z2.2) ^ 2 + (-2) * ((c.e : ℂ)) ^ 2 * ((c.MW : ℂ)⁻¹) * (ab z1.1 z3.1) * (sb z0.2 z1.2) * (sb z0.2 z2.2) * (sb z1.2 z2.2) * (sb z1.2 z3.2) + (1) * ((c.e : ℂ)) ^ 2 * ((c.MW : ℂ)⁻¹) * (mb z0.2 (p 2) z3.1) * (sb z0.2 z3.2) * (sb z1.2 z2.2) ^ 2 + (-2) * ((c.e : ℂ)) ^ 2 * (ab z2.1 z3.1) * (sb z0.2 z1.2) ^ 2 * (sb z2.2 z3.2) + (2) * ((c.e : ℂ)) ^ 2 * (ab z2.1 z3.1) ^ 2 * (sb z0.2 z1.2) ^ 2) * yMW + ((-1) * ((c.e : ℂ)) ^ 2 * ((c.MW : ℂ)⁻¹) * (N.c 0) * ((N.c 1)⁻¹) * (ab z1.1 z3.1) * (sb z0.2 z1.2) * (sb z0.2 z3.2) * (sb z1.2 z2.2) ^ 2 / (2) + (-1) * ((c.e : ℂ)) ^ 2 * ((c.MW : ℂ)⁻¹) * (N.c 0) * ((N.c 1)⁻¹) * (mb z0.2 (p 2) z3.1) * (sb z0.2 z3.2) * (sb z1.2 z2.2) ^ 2 / (2) + (1) * ((c.e : ℂ)) ^ 2 * ((c.MW : ℂ)⁻¹) * ((N.c 1)⁻¹) * (ab z1.1 z3.1) * (mb z0.2 (p 2) z1.1) * (sb z0.2 z1.2) * (sb z1.2 z2.2) ^ 2 * (sb z1.2 z3.2) / (2) + (-1) * ((c.e : ℂ)) ^ 2 * ((c.MW : ℂ)⁻¹) * ((N.c 1)⁻¹) * (mb z0.2 (p 2) z1.1) * (mb z3.2 (p 2) z3.1) * (sb z0.2 z1.2) * (sb z1.2 z2.2) ^ 2 / (2) + (1) * ((c.e : ℂ)) ^ 2 * ((c.MW : ℂ)⁻¹) * (ab z1.1 z3.1) * (sb z0.2 z1.2) * (sb z0.2 z2.2) * (sb z1.2 z2.2) * (sb z1.2 z3.2) + (-1) * ((c.e : ℂ)) ^ 2 * ((c.MW : ℂ)⁻¹) * (mb z0.2 (p 2) z3.1) * (sb z0.2 z3.2) * (sb z1.2 z2.2) ^ 2 / (2) + (-1) * ((c.e : ℂ)) ^ 2 * ((c.MW : ℂ)⁻¹) ^ 2 * (N.c 0) * ((N.c 1)⁻¹) * (ab z1.1 z2.1) * (mb z1.2 (p 2) z3.1) * (sb z0.2 z1.2) * (sb z0.2 z3.2) * (sb z1.2 z2.2) + (1) * ((c.e : ℂ)) ^ 2 * ((c.MW : ℂ)⁻¹) ^ 2 * ((N.c 1)⁻¹) * (ab z1.1 z2.1) * (mb z0.2 (p 2) z1.1) * (mb z1.2 (p 2) z3.1) * (sb z0.2 z1.2) * (sb z1.2 z2.2) * (sb z1.2 z3.2) + (1) * ((c.e : ℂ)) ^ 2 * ((c.MW : ℂ)⁻¹) ^ 2 * (ab z1.1 z2.1) * (mb z1.2 (p 2) z3.1) * (sb z0.2 z1.2) * (sb z0.2 z2.2) * (sb z1.2 z3.2) + (-1) * ((c.e : ℂ)) ^ 2 * ((c.MW : ℂ)⁻¹) ^ 2 * (ab z2.1 z3.1) * (mb z1.2 (p 2) z0.1) * (sb z0.2 z1.2) * (sb z0.2 z2.2) * (sb z0.2 z3.2) + (1) * ((c.e : ℂ)) ^ 2 * (ab z2.1 z3.1) * (sb z0.2 z1.2) ^ 2 * (sb z2.2 z3.2)) * x22
theorem AAWW.keyPM {c : Constants} {p : Nat → V4 ℝ} {N : Env} (hc : c.Physical) (hb : Balanced p) (r0 : N.r 0 = c.e) (d0 : pole c.MW c.WW (plus (p 0) (backward (p 2))) = N.c 0) (n0 : N.c 0 ≠ 0) (d1 : pole c.MW c.WW (plus (p 0) (backward (p 3))) = N.c 1) (n1 : N.c 1 ≠ 0) {z0 z1 z2 z3 : Pair} (b2 : Bold (p 2) c.MW z2) (b3 : Bold (p 3) c.MW z3) (l0 : Light (p 0) z0) (l1 : Light (p 1) z1) (e02 : mb z0.2 (p 2) z0.1 = -N.c 0) (e03 : mb z0.2 (p 3) z0.1 = -N.c 1) (e12 : mb z1.2 (p 2) z1.1 = -N.c 1) (e13 : mb z1.2 (p 3) z1.1 = -N.c 0) (q2 : msq (p 2) = c.MW ^ 2) (q3 : msq (p 3) = c.MW ^ 2) {ρ0 : V2} (R0 : ∀ Y, ab ρ0 Y = mb z0.2 (p 2) Y) {ρ1 : V2} (R1 : ∀ Y, sb ρ1 Y = mb Y (p 2) z1.1) :
    AAWW.formPM N p z0 z1 z2 z2 z3 z3 * ab ρ0 z0.1 * sb ρ1 z1.2 = ((√2 : ℝ) * ((√2 : ℝ) * ((-1 : ℂ) * ((2 / (c.MW * c.MW) : ℝ) : ℂ)))) * AAWW.react.bare4 c p (pv ρ0 z0.2) (pv z1.1 ρ1) (pv z2.1 z2.2) (pv z3.1 z3.2) := by
  rw [AAWW.react.bare4_parts c p (b₀ := .photon) (b₁ := .photon) (b₂ := .wMinus) (b₃ := .wPlus) rfl rfl rfl rfl, AAWW.formPM]
  have T0 := l0.mb_plus ρ0
  have T1 := l1.mb_minus ρ1
  have T2 := mb_back_zero (b2.mb_zero')
  have T3 := mb_back_zero (b3.mb_zero')
  have Q2 : msq (backward (p 2)) = c.MW ^ 2 := (msq_backward _).trans q2
  have Q3 : msq (backward (p 3)) = c.MW ^ 2 := (msq_backward _).trans q3
  simp only [contact, seagull, gauge4, between, carriers, List.map_cons, List.map_nil, List.sum_cons, List.sum_nil]
  simp only [toHiggs, toVector, higgs2, gauge3, Boson.anti, reduceCtorEq, and_self, and_true, and_false, true_and, false_and, if_true, if_false, Complex.ofReal_zero, zero_smul, carry_none, zero_mul, mul_zero, zero_div, neg_zero, add_zero, zero_add, sub_zero, sub_self, contract_zero, contract_zero_left]
  first | rw [dress_plus c (x := .wPlus) (.inl rfl) hc.MW l0 Q2 T2] | rw [dress_plus c (x := .wMinus) (.inr rfl) hc.MW l0 Q2 T2]
  first | rw [dress_plus c (x := .wPlus) (.inl rfl) hc.MW l0 Q3 T3] | rw [dress_plus c (x := .wMinus) (.inr rfl) hc.MW l0 Q3 T3]
  simp only [d0, d1, yangMills_transverse T1 T2, yangMills_transverse T1 T3, yangMills_transverse T2 T3, contract_add, contract_smul, contract_smul_left, contract_four_pv, contract_pv_four, contract_pv, mb_backward]
  have R00 := (ref_plus_plus R0 R0).2
  have R11 := (ref_minus_minus R1 R1).2
  have i0 := mb_schouten_right z0.2 (p 2) z0.1 z1.1 z3.1
  have i1 := mb_schouten_right z0.2 (p 3) z0.1 z2.1 z3.1
  have i2 := mb_schouten_right z0.2 (p 3) z0.1 z1.1 z2.1
  have i3 := mb_schouten_right z2.2 (p 3) z0.1 z1.1 z3.1
  have i4 := mb_schouten_right z0.2 (p 3) z0.1 z1.1 z3.1
  have i5 := mb_schouten_right z0.2 (p 2) z1.1 z2.1 z3.1
  have i6 := mb_schouten_right z1.2 (p 2) z0.1 z1.1 z2.1
  have i7 := sb_schouten z1.2 z2.2 z3.2 z0.2
  have i8 := mb_schouten_right z0.2 (p 3) z1.1 z2.1 z3.1
  have i9 := mb_schouten_right z0.2 (p 2) z0.1 z1.1 z2.1
  have i10 := ab_schouten z1.1 z2.1 z3.1 z0.1
  have i11 := mb_schouten_right z1.2 (p 3) z1.1 z2.1 z3.1
  have i12 := mb_schouten_right z0.2 (p 2) z0.1 z2.1 z3.1
  have i13 := mb_schouten_right z3.2 (p 2) z1.1 z2.1 z3.1
  have i14 := mb_schouten_right z2.2 (p 3) z0.1 z2.1 z3.1
  have i15 := mb_schouten_left z0.2 z1.2 z3.2 (p 2) z1.1
  have i16 := mb_schouten_left z0.2 z1.2 z2.2 (p 2) z1.1
  have i17 := mb_schouten_left z0.2 z1.2 z2.2 (p 2) z0.1
  have i18 := mb_schouten_left z0.2 z2.2 z3.2 (p 3) z0.1
  simp only [ab_swap ρ0 z0.1, ab_swap ρ0 z1.1, ab_swap ρ0 z2.1, ab_swap ρ0 z3.1, sb_swap ρ1 z0.2, sb_swap ρ1 z1.2, sb_swap ρ1 z2.2, sb_swap ρ1 z3.2, R00, R0, R11, R1, l0.mb_eq, l1.mb_eq, b2.mb_left, b2.mb_right, b3.mb_left, b3.mb_right, e02, e03, e12, e13, mb_three hb z0.2 z1.1, mb_three hb z0.2 z2.1, mb_three hb z1.2 z0.1, mb_three hb z1.2 z2.1, mb_three hb z2.2 z0.1, mb_three hb z2.2 z1.1, mb_three hb z2.2 z2.1, mb_three hb z0.2 ρ0, mb_three hb ρ1 z1.1, ab_self, sb_self] at i0 i1 i2 i3 i4 i5 i6 i7 i8 i9 i10 i11 i12 i13 i14 i15 i16 i17 i18 ⊢
  simp only [ab_swap z0.1 z1.1, sb_swap z0.2 z1.2, ab_swap z0.1 z2.1, sb_swap z0.2 z2.2, ab_swap z0.1 z3.1, sb_swap z0.2 z3.2, ab_swap z1.1 z2.1, sb_swap z1.2 z2.2, ab_swap z1.1 z3.1, sb_swap z1.2 z3.2, ab_swap z2.1 z3.1, sb_swap z2.2 z3.2] at i0 i1 i2 i3 i4 i5 i6 i7 i8 i9 i10 i11 i12 i13 i14 i15 i16 i17 i18 ⊢
  simp only [r0, Constants.invVev, ← c.mz]
  have xMW : (c.MW : ℂ) ≠ 0 := by exact_mod_cast hc.MW
  have xSW : (c.SW : ℂ) ≠ 0 := by exact_mod_cast hc.SW
  have xCW : (c.CW : ℂ) ≠ 0 := by exact_mod_cast hc.CW
  have x2 : ((√2 : ℝ) : ℂ) ≠ 0 := by exact_mod_cast (Real.sqrt_pos.2 two_pos).ne'
  have x22 : ((√2 : ℝ) : ℂ) ^ 2 = 2 := by rw [← Complex.ofReal_pow, Real.sq_sqrt two_pos.le]; norm_num
  push_cast at i0 i1 i2 i3 i4 i5 i6 i7 i8 i9 i10 i11 i12 i13 i14 i15 i16 i17 i18 ⊢
  simp only [div_eq_mul_inv, mul_inv, inv_inv] at i0 i1 i2 i3 i4 i5 i6 i7 i8 i9 i10 i11 i12 i13 i14 i15 i16 i17 i18 ⊢
  have y0 := mul_inv_cancel₀ n0
  have y1 := mul_inv_cancel₀ n1
  have yMW := mul_inv_cancel₀ xMW
  linear_combination ((((-1) * ((c.MW : ℂ)) * ((c.e : ℂ)) ^ 2 * (ab z1.1 z2.1) * (ab z1.1 z3.1) * (sb z0.2 z1.2) * (sb z0.2 z2.2) + (1) * ((c.MW : ℂ)) * ((c.e : ℂ)) ^ 2 * (ab z1.1 z2.1) * (mb z0.2 (p 2) z3.1) * (sb z0.2 z2.2) + (-2) * ((c.MW : ℂ)) * ((c.e : ℂ)) ^ 2 * (ab z1.1 z2.1) ^ 2 * (sb z0.2 z1.2) * (sb z0.2 z3.2) + (-2) * ((c.MW : ℂ)) ^ 2 * ((c.e : ℂ)) ^ 2 * (ab z1.1 z2.1) * (sb z0.2 z2.2) * (sb z0.2 z3.2) + (-2) * ((c.e : ℂ)) ^ 2 * (N.c 0) * (ab z1.1 z2.1) * (sb z0.2 z2.2) * (sb z0.2 z3.2) + (-2) * ((c.e : ℂ)) ^ 2 * (N.c 1) * (ab z1.1 z2.1) * (sb z0.2 z2.2) * (sb z0.2 z3.2) + (2) * ((c.e : ℂ)) ^ 2 * (ab z0.1 z1.1) * (ab z1.1 z2.1) * (sb z0.2 z1.2) * (sb z0.2 z2.2) * (sb z0.2 z3.2) + (-1) * ((c.e : ℂ)) ^ 2 * (ab z1.1 z2.1) ^ 2 * (ab z1.1 z3.1) * (sb z0.2 z1.2) ^ 2 + (1) * ((c.e : ℂ)) ^ 2 * (ab z1.1 z2.1) ^ 2 * (mb z0.2 (p 2) z3.1) * (sb z0.2 z1.2)) * i0 + ((2) * ((c.MW : ℂ)) * ((c.e : ℂ)) ^ 2 * (ab z1.1 z2.1) * (mb z0.2 (p 2) z1.1) * (sb z0.2 z3.2) + (-1) * ((c.MW : ℂ)) * ((c.e : ℂ)) ^ 2 * (ab z1.1 z3.1) * (mb z0.2 (p 2) z1.1) * (sb z0.2 z2.2) + (1) * ((c.e : ℂ)) ^ 2 * (ab z1.1 z2.1) * (ab z1.1 z3.1) * (mb z0.2 (p 2) z1.1) * (sb z0.2 z1.2) + (-1) * ((c.e : ℂ)) ^ 2 * (ab z1.1 z2.1) * (mb z0.2 (p 2) z1.1) * (mb z0.2 (p 2) z3.1) + (-2) * ((c.e : ℂ)) ^ 2 * (mb z0.2 (p 2) z1.1) ^ 2 * (sb z2.2 z3.2)) * i1 + ((2) * ((c.MW : ℂ)) * ((c.e : ℂ)) ^ 2 * (ab z1.1 z2.1) * (mb z0.2 (p 2) z3.1) * (sb z0.2 z3.2) + (-1) * ((c.MW : ℂ)) * ((c.e : ℂ)) ^ 2 * (ab z1.1 z3.1) * (mb z0.2 (p 2) z3.1) * (sb z0.2 z2.2) + (1) * ((c.MW : ℂ)) * ((c.e : ℂ)) ^ 2 * (ab z1.1 z3.1) ^ 2 * (sb z0.2 z1.2) * (sb z0.2 z2.2) + (2) * ((c.MW : ℂ)) ^ 2 * ((c.e : ℂ)) ^ 2 * (ab z1.1 z2.1) * (sb z0.2 z3.2) ^ 2 + (3) * ((c.MW : ℂ)) ^ 2 * ((c.e : ℂ)) ^ 2 * (ab z1.1 z3.1) * (sb z0.2 z2.2) * (sb z0.2 z3.2) + (2) * ((c.e : ℂ)) ^ 2 * (N.c 0) * (ab z1.1 z3.1) * (sb z0.2 z2.2) * (sb z0.2 z3.2) + (-2) * ((c.e : ℂ)) ^ 2 * (ab z0.1 z1.1) * (mb z0.2 (p 2) z3.1) * (sb z0.2 z2.2) * (sb z0.2 z3.2) + (1) * ((c.e : ℂ)) ^ 2 * (ab z1.1 z2.1) * (ab z1.1 z3.1) * (mb z0.2 (p 2) z3.1) * (sb z0.2 z1.2) + (-1) * ((c.e : ℂ)) ^ 2 * (ab z1.1 z2.1) * (mb z0.2 (p 2) z3.1) ^ 2 + (2) * ((c.e : ℂ)) ^ 2 * (ab z1.1 z3.1) * (mb z0.2 (p 2) z1.1) * (sb z0.2 z1.2) * (sb z2.2 z3.2) + (-2) * ((c.e : ℂ)) ^ 2 * (ab z1.1 z3.1) * (mb z0.2 (p 2) z1.1) * (sb z0.2 z2.2) * (sb z1.2 z3.2)) * i2 + ((2) * ((c.MW : ℂ)) * ((c.e : ℂ)) ^ 2 * (mb z0.2 (p 2) z1.1) * (sb z0.2 z2.2) * (sb z0.2 z3.2) + (2) * ((c.e : ℂ)) ^ 2 * (ab z1.1 z2.1) * (mb z0.2 (p 2) z1.1) * (sb z0.2 z1.2) * (sb z0.2 z3.2)) * i3 + ((-1) * ((c.MW : ℂ)) * ((c.e : ℂ)) ^ 2 * (ab z1.1 z2.1) * (mb z0.2 (p 2) z3.1) * (sb z0.2 z2.2) + (2) * ((c.MW : ℂ)) * ((c.e : ℂ)) ^ 2 * (ab z1.1 z2.1) ^ 2 * (sb z0.2 z1.2) * (sb z0.2 z3.2) + (-2) * ((c.MW : ℂ)) * ((c.e : ℂ)) ^ 2 * (mb z0.2 (p 2) z1.1) * (sb z0.2 z2.2) * (sb z2.2 z3.2) + (2) * ((c.MW : ℂ)) ^ 2 * ((c.e : ℂ)) ^ 2 * (ab z1.1 z2.1) * (sb z0.2 z2.2) * (sb z0.2 z3.2) + (1) * ((c.MW : ℂ)) ^ 2 * ((c.e : ℂ)) ^ 2 * (ab z1.1 z3.1) * (sb z0.2 z2.2) ^ 2 + (-2) * ((c.e : ℂ)) ^ 2 * (ab z1.1 z2.1) * (mb z0.2 (p 2) z1.1) * (sb z0.2 z1.2) * (sb z2.2 z3.2)) * i4 + ((2) * ((c.MW : ℂ)) * ((c.e : ℂ)) ^ 2 * (N.c 1) * (ab z1.1 z2.1) * (sb z0.2 z3.2) + (-1) * ((c.MW : ℂ)) * ((c.e : ℂ)) ^ 2 * (N.c 1) * (ab z1.1 z3.1) * (sb z0.2 z2.2) + (1) * ((c.MW : ℂ)) * ((c.e : ℂ)) ^ 2 * (ab z1.1 z2.1) * (mb z3.2 (p 2) z1.1) * (sb z0.2 z1.2) + (-1) * ((c.MW : ℂ)) * ((c.e : ℂ)) ^ 2 * (ab z1.1 z3.1) * (mb z0.2 (p 2) z1.1) * (sb z1.2 z2.2) + (1) * ((c.e : ℂ)) ^ 2 * (N.c 1) * (ab z1.1 z2.1) * (ab z1.1 z3.1) * (sb z0.2 z1.2) + (-1) * ((c.e : ℂ)) ^ 2 * (N.c 1) * (ab z1.1 z2.1) * (mb z0.2 (p 2) z3.1)) * i5 + ((-2) * ((c.e : ℂ)) ^ 2 * (ab z1.1 z3.1) * (mb z0.2 (p 2) z1.1) * (sb z0.2 z2.2) * (sb z0.2 z3.2)) * i6 + ((-2) * ((c.MW : ℂ)) * ((c.e : ℂ)) ^ 2 * (ab z0.1 z1.1) * (ab z1.1 z3.1) * (mb z0.2 (p 2) z1.1) * (sb z0.2 z2.2) + (-1) * ((c.MW : ℂ)) ^ 2 * ((c.e : ℂ)) ^ 2 * (ab z1.1 z2.1) * (ab z1.1 z3.1) * (mb z0.2 (p 2) z1.1) + (-2) * ((c.e : ℂ)) ^ 2 * (ab z0.1 z1.1) * (ab z1.1 z2.1) * (ab z1.1 z3.1) * (mb z0.2 (p 2) z1.1) * (sb z0.2 z1.2) + (-2) * ((c.e : ℂ)) ^ 2 * (ab z0.1 z2.1) * (ab z1.1 z3.1) * (mb z0.2 (p 2) z1.1) ^ 2) * i7 + ((-1) * ((c.MW : ℂ)) * ((c.e : ℂ)) ^ 2 * (ab z1.1 z3.1) * (mb z0.2 (p 2) z1.1) * (sb z1.2 z2.2)) * i8 + ((3) * ((c.MW : ℂ)) * ((c.e : ℂ)) ^ 2 * (ab z1.1 z2.1) * (ab z1.1 z3.1) * (sb z0.2 z1.2) * (sb z0.2 z3.2) + (1) * ((c.MW : ℂ)) * ((c.e : ℂ)) ^ 2 * (ab z1.1 z2.1) * (mb z0.2 (p 2) z3.1) * (sb z0.2 z3.2) + (-1) * ((c.MW : ℂ)) * ((c.e : ℂ)) ^ 2 * (ab z1.1 z3.1) * (mb z0.2 (p 2) z3.1) * (sb z0.2 z2.2) + (1) * ((c.MW : ℂ)) * ((c.e : ℂ)) ^ 2 * (ab z1.1 z3.1) ^ 2 * (sb z0.2 z1.2) * (sb z0.2 z2.2) + (2) * ((c.MW : ℂ)) * ((c.e : ℂ)) ^ 2 * (ab z2.1 z3.1) * (mb z0.2 (p 2) z1.1) * (sb z0.2 z3.2) + (2) * ((c.MW : ℂ)) ^ 2 * ((c.e : ℂ)) ^ 2 * (ab z1.1 z3.1) * (sb z0.2 z2.2) * (sb z0.2 z3.2) + (2) * ((c.e : ℂ)) ^ 2 * (N.c 0) * (ab z1.1 z3.1) * (sb z0.2 z2.2) * (sb z0.2 z3.2) + (-2) * ((c.e : ℂ)) ^ 2 * (ab z0.1 z1.1) * (mb z0.2 (p 2) z3.1) * (sb z0.2 z2.2) * (sb z0.2 z3.2) + (2) * ((c.e : ℂ)) ^ 2 * (ab z0.1 z3.1) * (mb z0.2 (p 2) z1.1) * (sb z0.2 z2.2) * (sb z0.2 z3.2) + (-1) * ((c.e : ℂ)) ^ 2 * (ab z1.1 z2.1) * (ab z1.1 z3.1) * (mb z0.2 (p 2) z3.1) * (sb z0.2 z1.2) + (1) * ((c.e : ℂ)) ^ 2 * (ab z1.1 z2.1) * (ab z1.1 z3.1) ^ 2 * (sb z0.2 z1.2) ^ 2) * i9 + ((2) * ((c.MW : ℂ)) ^ 2 * ((c.e : ℂ)) ^ 2 * (mb z0.2 (p 2) z1.1) * (sb z0.2 z2.2) * (sb z0.2 z3.2) + (-2) * ((c.e : ℂ)) ^ 2 * (N.c 1) * (mb z0.2 (p 2) z1.1) * (sb z0.2 z2.2) * (sb z0.2 z3.2) + (-2) * ((c.e : ℂ)) ^ 2 * (mb z0.2 (p 2) z1.1) ^ 2 * (sb z0.2 z3.2) * (sb z1.2 z2.2)) * i10 + ((1) * ((c.e : ℂ)) ^ 2 * (ab z1.1 z2.1) * (ab z1.1 z3.1) * (mb z0.2 (p 2) z1.1) * (sb z0.2 z1.2) + (-1) * ((c.e : ℂ)) ^ 2 * (ab z1.1 z2.1) * (mb z0.2 (p 2) z1.1) * (mb z0.2 (p 2) z3.1)) * i11 + ((-2) * ((c.MW : ℂ)) * ((c.e : ℂ)) ^ 2 * (ab z1.1 z2.1) * (mb z0.2 (p 2) z1.1) * (sb z0.2 z3.2) + (-1) * ((c.e : ℂ)) ^ 2 * (ab z1.1 z2.1) * (ab z1.1 z3.1) * (mb z0.2 (p 2) z1.1) * (sb z0.2 z1.2) + (1) * ((c.e : ℂ)) ^ 2 * (ab z1.1 z2.1) * (mb z0.2 (p 2) z1.1) * (mb z0.2 (p 2) z3.1)) * i12 + ((-1) * ((c.MW : ℂ)) * ((c.e : ℂ)) ^ 2 * (ab z1.1 z2.1) * (mb z0.2 (p 2) z1.1) * (sb z0.2 z1.2)) * i13 + ((2) * ((c.e : ℂ)) ^ 2 * (mb z0.2 (p 2) z1.1) ^ 2 * (sb z0.2 z3.2)) * i14 + ((2) * ((c.MW : ℂ)) * ((c.e : ℂ)) ^ 2 * (ab z1.1 z2.1) ^ 2 * (ab z1.1 z3.1) * (sb z0.2 z1.2) + (-1) * ((c.MW : ℂ)) * ((c.e : ℂ)) ^ 2 * (ab z1.1 z2.1) ^ 2 * (mb z0.2 (p 2) z3.1) + (-1) * ((c.MW : ℂ)) ^ 2 * ((c.e : ℂ)) ^ 2 * (ab z1.1 z2.1) * (ab z1.1 z3.1) * (sb z0.2 z2.2)) * i15 + ((2) * ((c.e : ℂ)) ^ 2 * (ab z1.1 z2.1) * (ab z1.1 z3.1) * (mb z3.2 (p 2) z1.1) * (sb z0.2 z1.2)) * i16 + ((-2) * ((c.e : ℂ)) ^ 2 * (ab z1.1 z2.1) * (ab z1.1 z3.1) * (mb z0.2 (p 2) z1.1) * (sb z0.2 z3.2)) * i17 + ((2) * ((c.MW : ℂ)) * ((c.e : ℂ)) ^ 2 * (ab z1.1 z3.1) * (mb z0.2 (p 2) z1.1) * (sb z0.2 z2.2)) * i18)) * ((1) * ((c.MW : ℂ)⁻¹) ^ 2 * ((N.c 1)⁻¹)) + ((1) * ((c.MW : ℂ)) * (((√2 : ℝ) : ℂ)) ^ 2 * ((c.e : ℂ)) ^ 2 * ((c.MW : ℂ)⁻¹) ^ 2 * (ab z1.1 z3.1) * (mb z3.2 (p 2) z1.1) * (sb z0.2 z2.2) ^ 2 / (2) + (-1) * (((√2 : ℝ) : ℂ)) ^ 2 * ((c.e : ℂ)) ^ 2 * ((c.MW : ℂ)⁻¹) ^ 2 * (ab z0.1 z1.1) * (ab z2.1 z3.1) * (mb z0.2 (p 2) z1.1) * (sb z0.2 z2.2) * (sb z0.2 z3.2) + (1) * (((√2 : ℝ) : ℂ)) ^ 2 * ((c.e : ℂ)) ^ 2 * ((c.MW : ℂ)⁻¹) ^ 2 * (ab z1.1 z2.1) * (ab z1.1 z3.1) * (mb z0.2 (p 2) z1.1) * (sb z0.2 z2.2) * (sb z1.2 z3.2) + (1) * (((√2 : ℝ) : ℂ)) ^ 2 * ((c.e : ℂ)) ^ 2 * ((c.MW : ℂ)⁻¹) ^ 2 * (ab z1.1 z2.1) * (ab z1.1 z3.1) * (mb z3.2 (p 2) z1.1) * (sb z0.2 z1.2) * (sb z0.2 z2.2) + (-4) * ((c.e : ℂ)) ^ 2 * (N.c 1) * ((N.c 1)⁻¹) * (ab z1.1 z2.1) * (ab z1.1 z3.1) * (sb z0.2 z2.2) * (sb z0.2 z3.2) + (-2) * ((c.e : ℂ)) ^ 2 * (N.c 1) * ((N.c 1)⁻¹) * (ab z1.1 z2.1) ^ 2 * (sb z0.2 z3.2) ^ 2 + (-2) * ((c.e : ℂ)) ^ 2 * (N.c 1) * ((N.c 1)⁻¹) * (ab z1.1 z3.1) ^ 2 * (sb z0.2 z2.2) ^ 2) * y0 + ((1) * ((c.MW : ℂ)) * ((c.e : ℂ)) ^ 2 * ((c.MW : ℂ)⁻¹) ^ 2 * (ab z1.1 z2.1) ^ 2 * (mb z0.2 (p 2) z3.1) * (sb z0.2 z3.2) + (4) * ((c.MW : ℂ)) ^ 2 * ((c.e : ℂ)) ^ 2 * ((c.MW : ℂ)⁻¹) ^ 2 * (ab z1.1 z2.1) * (ab z1.1 z3.1) * (sb z0.2 z2.2) * (sb z0.2 z3.2) + (2) * ((c.MW : ℂ)) ^ 2 * ((c.e : ℂ)) ^ 2 * ((c.MW : ℂ)⁻¹) ^ 2 * (ab z1.1 z2.1) ^ 2 * (sb z0.2 z3.2) ^ 2 + (2) * ((c.MW : ℂ)) ^ 2 * ((c.e : ℂ)) ^ 2 * ((c.MW : ℂ)⁻¹) ^ 2 * (ab z1.1 z3.1) ^ 2 * (sb z0.2 z2.2) ^ 2 + (2) * ((c.e : ℂ)) ^ 2 * ((c.MW : ℂ)⁻¹) ^ 2 * (ab z0.1 z1.1) * (ab z2.1 z3.1) * (mb z0.2 (p 2) z1.1) * (sb z0.2 z2.2) * (sb z0.2 z3.2) + (-2) * ((c.e : ℂ)) ^ 2 * ((c.MW : ℂ)⁻¹) ^ 2 * (ab z1.1 z2.1) * (ab z1.1 z3.1) * (mb z0.2 (p 2) z1.1) * (sb z0.2 z2.2) * (sb z1.2 z3.2) + (-2) * ((c.e : ℂ)) ^ 2 * ((c.MW : ℂ)⁻¹) ^ 2 * (ab z1.1 z2.1) * (ab z1.1 z3.1) * (mb z3.2 (p 2) z1.1) * (sb z0.2 z1.2) * (sb z0.2 z2.2) + (-2) * ((c.e : ℂ)) ^ 2 * ((c.MW : ℂ)⁻¹) ^ 2 * (ab z2.1 z3.1) * (mb z0.2 (p 2) z1.1) ^ 2 * (sb z2.2 z3.2) + (-4) * ((c.e : ℂ)) ^ 2 * (ab z1.1 z2.1) * (ab z1.1 z3.1) * (sb z0.2 z2.2) * (sb z0.2 z3.2) + (-2) * ((c.e : ℂ)) ^ 2 * (ab z1.1 z2.1) ^ 2 * (sb z0.2 z3.2) ^ 2 + (-2) * ((c.e : ℂ)) ^ 2 * (ab z1.1 z3.1) ^ 2 * (sb z0.2 z2.2) ^ 2) * y1 + ((4) * ((c.MW : ℂ)) * ((c.e : ℂ)) ^ 2 * ((c.MW : ℂ)⁻¹) * (ab z1.1 z2.1) * (ab z1.1 z3.1) * (sb z0.2 z2.2) * (sb z0.2 z3.2) + (2) * ((c.MW : ℂ)) * ((c.e : ℂ)) ^ 2 * ((c.MW : ℂ)⁻¹) * (ab z1.1 z2.1) ^ 2 * (sb z0.2 z3.2) ^ 2 + (2) * ((c.MW : ℂ)) * ((c.e : ℂ)) ^ 2 * ((c.MW : ℂ)⁻¹) * (ab z1.1 z3.1) ^ 2 * (sb z0.2 z2.2) ^ 2 + (-1) * (((√2 : ℝ) : ℂ)) ^ 2 * ((c.e : ℂ)) ^ 2 * ((c.MW : ℂ)⁻¹) * (N.c 0) * ((N.c 1)⁻¹) * (ab z1.1 z2.1) ^ 2 * (ab z1.1 z3.1) * (sb z0.2 z1.2) * (sb z0.2 z3.2) / (2) + (-1) * (((√2 : ℝ) : ℂ)) ^ 2 * ((c.e : ℂ)) ^ 2 * ((c.MW : ℂ)⁻¹) * (N.c 0) * ((N.c 1)⁻¹) * (ab z1.1 z2.1) ^ 2 * (mb z0.2 (p 2) z3.1) * (sb z0.2 z3.2) / (2) + (1) * (((√2 : ℝ) : ℂ)) ^ 2 * ((c.e : ℂ)) ^ 2 * ((c.MW : ℂ)⁻¹) * ((N.c 1)⁻¹) * (ab z1.1 z2.1) ^ 2 * (ab z1.1 z3.1) * (mb z0.2 (p 2) z1.1) * (sb z0.2 z1.2) * (sb z1.2 z3.2) / (2) + (-1) * (((√2 : ℝ) : ℂ)) ^ 2 * ((c.e : ℂ)) ^ 2 * ((c.MW : ℂ)⁻¹) * ((N.c 1)⁻¹) * (ab z1.1 z2.1) ^ 2 * (mb z0.2 (p 2) z1.1) * (mb z3.2 (p 2) z3.1) * (sb z0.2 z1.2) / (2) + (-1) * (((√2 : ℝ) : ℂ)) ^ 2 * ((c.e : ℂ)) ^ 2 * ((c.MW : ℂ)⁻¹) * (ab z1.1 z2.1) ^ 2 * (mb z0.2 (p 2) z3.1) * (sb z0.2 z3.2) / (2) + (1) * ((c.e : ℂ)) ^ 2 * ((c.MW : ℂ)⁻¹) * (N.c 0) * ((N.c 1)⁻¹) * (ab z1.1 z2.1) ^ 2 * (ab z1.1 z3.1) * (sb z0.2 z1.2) * (sb z0.2 z3.2) + (1) * ((c.e : ℂ)) ^ 2 * ((c.MW : ℂ)⁻¹) * (N.c 0) * ((N.c 1)⁻¹) * (ab z1.1 z2.1) ^ 2 * (mb z0.2 (p 2) z3.1) * (sb z0.2 z3.2) + (-1) * ((c.e : ℂ)) ^ 2 * ((c.MW : ℂ)⁻¹) * ((N.c 1)⁻¹) * (ab z1.1 z2.1) ^ 2 * (ab z1.1 z3.1) * (mb z0.2 (p 2) z1.1) * (sb z0.2 z1.2) * (sb z1.2 z3.2) + (1) * ((c.e : ℂ)) ^ 2 * ((c.MW : ℂ)⁻¹) * ((N.c 1)⁻¹) * (ab z1.1 z2.1) ^ 2 * (mb z0.2 (p 2) z1.1) * (mb z3.2 (p 2) z3.1) * (sb z0.2 z1.2) + (1) * ((c.e : ℂ)) ^ 2 * ((c.MW : ℂ)⁻¹) * (ab z1.1 z2.1) ^ 2 * (mb z0.2 (p 2) z3.1) * (sb z0.2 z3.2) + (4) * ((c.e : ℂ)) ^ 2 * (ab z1.1 z2.1) * (ab z1.1 z3.1) * (sb z0.2 z2.2) * (sb z0.2 z3.2) + (2) * ((c.e : ℂ)) ^ 2 * (ab z1.1 z2.1) ^ 2 * (sb z0.2 z3.2) ^ 2 + (2) * ((c.e : ℂ)) ^ 2 * (ab z1.1 z3.1) ^ 2 * (sb z0.2 z2.2) ^ 2) * yMW + ((-1) * ((c.e : ℂ)) ^ 2 * ((c.MW : ℂ)⁻¹) * (N.c 0) * ((N.c 1)⁻¹) * (ab z1.1 z2.1) ^ 2 * (ab z1.1 z3.1) * (sb z0.2 z1.2) * (sb z0.2 z3.2) / (2) + (-1) * ((c.e : ℂ)) ^ 2 * ((c.MW : ℂ)⁻¹) * (N.c 0) * ((N.c 1)⁻¹) * (ab z1.1 z2.1) ^ 2 * (mb z0.2 (p 2) z3.1) * (sb z0.2 z3.2) / (2) + (1) * ((c.e : ℂ)) ^ 2 * ((c.MW : ℂ)⁻¹) * ((N.c 1)⁻¹) * (ab z1.1 z2.1) ^ 2 * (ab z1.1 z3.1) * (mb z0.2 (p 2) z1.1) * (sb z0.2 z1.2) * (sb z1.2 z3.2) / (2) + (-1) * ((c.e : ℂ)) ^ 2 * ((c.MW : ℂ)⁻¹) * ((N.c 1)⁻¹) * (ab z1.1 z2.1) ^ 2 * (mb z0.2 (p 2) z1.1) * (mb z3.2 (p 2) z3.1) * (sb z0.2 z1.2) / (2) + (-1) * ((c.e : ℂ)) ^ 2 * ((c.MW : ℂ)⁻¹) * (ab z1.1 z2.1) ^ 2 * (mb z0.2 (p 2) z3.1) * (sb z0.2 z3.2) / (2) + (1) * ((c.e : ℂ)) ^ 2 * ((c.MW : ℂ)⁻¹) ^ 2 * (N.c 0) * ((N.c 1)⁻¹) * (ab z1.1 z2.1) * (ab z1.1 z3.1) * (mb z0.2 (p 2) z1.1) * (sb z0.2 z3.2) * (sb z1.2 z2.2) + (1) * ((c.e : ℂ)) ^ 2 * ((c.MW : ℂ)⁻¹) ^ 2 * ((N.c 1)⁻¹) * (ab z1.1 z2.1) * (ab z1.1 z3.1) * (mb z0.2 (p 2) z1.1) * (mb z3.2 (p 2) z1.1) * (sb z0.2 z1.2) * (sb z1.2 z2.2) + (-1) * ((c.e : ℂ)) ^ 2 * ((c.MW : ℂ)⁻¹) ^ 2 * (ab z0.1 z1.1) * (ab z2.1 z3.1) * (mb z0.2 (p 2) z1.1) * (sb z0.2 z2.2) * (sb z0.2 z3.2) + (1) * ((c.e : ℂ)) ^ 2 * ((c.MW : ℂ)⁻¹) ^ 2 * (ab z1.1 z2.1) * (ab z1.1 z3.1) * (mb z0.2 (p 2) z1.1) * (sb z0.2 z2.2) * (sb z1.2 z3.2) + (1) * ((c.e : ℂ)) ^ 2 * ((c.MW : ℂ)⁻¹) ^ 2 * (ab z1.1 z2.1) * (ab z1.1 z3.1) * (mb z3.2 (p 2) z1.1) * (sb z0.2 z1.2) * (sb z0.2 z2.2) + (1) * ((c.e : ℂ)) ^ 2 * ((c.MW : ℂ)⁻¹) ^ 2 * (ab z2.1 z3.1) * (mb z0.2 (p 2) z1.1) ^ 2 * (sb z2.2 z3.2)) * x22
theorem AAWW.keyMP {c : Constants} {p : Nat → V4 ℝ} {N : Env} (hc : c.Physical) (hb : Balanced p) (r0 : N.r 0 = c.e) (d0 : pole c.MW c.WW (plus (p 0) (backward (p 2))) = N.c 0) (n0 : N.c 0 ≠ 0) (d1 : pole c.MW c.WW (plus (p 0) (backward (p 3))) = N.c 1) (n1 : N.c 1 ≠ 0) {z0 z1 z2 z3 : Pair} (b2 : Bold (p 2) c.MW z2) (b3 : Bold (p 3) c.MW z3) (l0 : Light (p 0) z0) (l1 : Light (p 1) z1) (e02 : mb z0.2 (p 2) z0.1 = -N.c 0) (e03 : mb z0.2 (p 3) z0.1 = -N.c 1) (e12 : mb z1.2 (p 2) z1.1 = -N.c 1) (e13 : mb z1.2 (p 3) z1.1 = -N.c 0) (q2 : msq (p 2) = c.MW ^ 2) (q3 : msq (p 3) = c.MW ^ 2) {ρ0 : V2} (R0 : ∀ Y, sb ρ0 Y = mb Y (p 2) z0.1) {ρ1 : V2} (R1 : ∀ Y, ab ρ1 Y = mb z1.2 (p 2) Y) :
    AAWW.formMP N p z0 z1 z2 z2 z3 z3 * sb ρ0 z0.2 * ab ρ1 z1.1 = ((√2 : ℝ) * ((√2 : ℝ) * ((-1 : ℂ) * ((2 / (c.MW * c.MW) : ℝ) : ℂ)))) * AAWW.react.bare4 c p (pv z0.1 ρ0) (pv ρ1 z1.2) (pv z2.1 z2.2) (pv z3.1 z3.2) := by
  rw [AAWW.react.bare4_parts c p (b₀ := .photon) (b₁ := .photon) (b₂ := .wMinus) (b₃ := .wPlus) rfl rfl rfl rfl, AAWW.formMP]
  have T0 := l0.mb_minus ρ0
  have T1 := l1.mb_plus ρ1
  have T2 := mb_back_zero (b2.mb_zero')
  have T3 := mb_back_zero (b3.mb_zero')
  have Q2 : msq (backward (p 2)) = c.MW ^ 2 := (msq_backward _).trans q2
  have Q3 : msq (backward (p 3)) = c.MW ^ 2 := (msq_backward _).trans q3
  simp only [contact, seagull, gauge4, between, carriers, List.map_cons, List.map_nil, List.sum_cons, List.sum_nil]
  simp only [toHiggs, toVector, higgs2, gauge3, Boson.anti, reduceCtorEq, and_self, and_true, and_false, true_and, false_and, if_true, if_false, Complex.ofReal_zero, zero_smul, carry_none, zero_mul, mul_zero, zero_div, neg_zero, add_zero, zero_add, sub_zero, sub_self, contract_zero, contract_zero_left]
  first | rw [dress_minus c (x := .wPlus) (.inl rfl) hc.MW l0 Q2 T2] | rw [dress_minus c (x := .wMinus) (.inr rfl) hc.MW l0 Q2 T2]
  first | rw [dress_minus c (x := .wPlus) (.inl rfl) hc.MW l0 Q3 T3] | rw [dress_minus c (x := .wMinus) (.inr rfl) hc.MW l0 Q3 T3]
  simp only [d0, d1, yangMills_transverse T1 T2, yangMills_transverse T1 T3, yangMills_transverse T2 T3, contract_add, contract_smul, contract_smul_left, contract_four_pv, contract_pv_four, contract_pv, mb_backward]
  have R00 := (ref_minus_minus R0 R0).2
  have R11 := (ref_plus_plus R1 R1).2
  have i0 := mb_schouten_right z1.2 (p 3) z0.1 z1.1 z2.1
  have i1 := mb_schouten_right z0.2 (p 3) z0.1 z1.1 z3.1
  have i2 := ab_schouten z1.1 z2.1 z3.1 z0.1
  have i3 := mb_schouten_left z0.2 z1.2 z3.2 (p 2) z0.1
  have i4 := mb_schouten_left z0.2 z1.2 z2.2 (p 2) z0.1
  have i5 := mb_schouten_right z1.2 (p 2) z0.1 z2.1 z3.1
  have i6 := mb_schouten_right z2.2 (p 3) z0.1 z2.1 z3.1
  have i7 := sb_schouten z1.2 z2.2 z3.2 z0.2
  have i8 := mb_schouten_right z0.2 (p 3) z0.1 z2.1 z3.1
  have i9 := mb_schouten_right z1.2 (p 3) z0.1 z2.1 z3.1
  have i10 := mb_schouten_right z1.2 (p 2) z0.1 z1.1 z2.1
  have i11 := mb_schouten_left z0.2 z2.2 z3.2 (p 2) z0.1
  have i12 := mb_schouten_right z2.2 (p 3) z0.1 z1.1 z3.1
  have i13 := mb_schouten_right z1.2 (p 3) z0.1 z1.1 z3.1
  have i14 := mb_schouten_right z0.2 (p 3) z0.1 z1.1 z2.1
  have i15 := mb_schouten_right z0.2 (p 2) z0.1 z2.1 z3.1
  have i16 := mb_schouten_right z1.2 (p 2) z0.1 z1.1 z3.1
  have i17 := mb_schouten_right z3.2 (p 2) z0.1 z1.1 z3.1
  have i18 := mb_schouten_left z1.2 z2.2 z3.2 (p 2) z1.1
  have i19 := mb_schouten_left z1.2 z2.2 z3.2 (p 2) z0.1
  have i20 := mb_schouten_right z3.2 (p 2) z0.1 z1.1 z2.1
  have i21 := mb_schouten_left z0.2 z2.2 z3.2 (p 3) z0.1
  simp only [sb_swap ρ0 z0.2, sb_swap ρ0 z1.2, sb_swap ρ0 z2.2, sb_swap ρ0 z3.2, ab_swap ρ1 z0.1, ab_swap ρ1 z1.1, ab_swap ρ1 z2.1, ab_swap ρ1 z3.1, R00, R0, R11, R1, l0.mb_eq, l1.mb_eq, b2.mb_left, b2.mb_right, b3.mb_left, b3.mb_right, e02, e03, e12, e13, mb_three hb z0.2 z1.1, mb_three hb z0.2 z2.1, mb_three hb z1.2 z0.1, mb_three hb z1.2 z2.1, mb_three hb z2.2 z0.1, mb_three hb z2.2 z1.1, mb_three hb z2.2 z2.1, mb_three hb ρ0 z0.1, mb_three hb z1.2 ρ1, ab_self, sb_self] at i0 i1 i2 i3 i4 i5 i6 i7 i8 i9 i10 i11 i12 i13 i14 i15 i16 i17 i18 i19 i20 i21 ⊢
  simp only [ab_swap z0.1 z1.1, sb_swap z0.2 z1.2, ab_swap z0.1 z2.1, sb_swap z0.2 z2.2, ab_swap z0.1 z3.1, sb_swap z0.2 z3.2, ab_swap z1.1 z2.1, sb_swap z1.2 z2.2, ab_swap z1.1 z3.1, sb_swap z1.2 z3.2, ab_swap z2.1 z3.1, sb_swap z2.2 z3.2] at i0 i1 i2 i3 i4 i5 i6 i7 i8 i9 i10 i11 i12 i13 i14 i15 i16 i17 i18 i19 i20 i21 ⊢
  simp only [r0, Constants.invVev, ← c.mz]
  have xMW : (c.MW : ℂ) ≠ 0 := by exact_mod_cast hc.MW
  have xSW : (c.SW : ℂ) ≠ 0 := by exact_mod_cast hc.SW
  have xCW : (c.CW : ℂ) ≠ 0 := by exact_mod_cast hc.CW
  have x2 : ((√2 : ℝ) : ℂ) ≠ 0 := by exact_mod_cast (Real.sqrt_pos.2 two_pos).ne'
  have x22 : ((√2 : ℝ) : ℂ) ^ 2 = 2 := by rw [← Complex.ofReal_pow, Real.sq_sqrt two_pos.le]; norm_num
  push_cast at i0 i1 i2 i3 i4 i5 i6 i7 i8 i9 i10 i11 i12 i13 i14 i15 i16 i17 i18 i19 i20 i21 ⊢
  simp only [div_eq_mul_inv, mul_inv, inv_inv] at i0 i1 i2 i3 i4 i5 i6 i7 i8 i9 i10 i11 i12 i13 i14 i15 i16 i17 i18 i19 i20 i21 ⊢
  have y0 := mul_inv_cancel₀ n0
  have y1 := mul_inv_cancel₀ n1
  have yMW := mul_inv_cancel₀ xMW
  linear_combination ((((2) * ((c.MW : ℂ)) * ((c.e : ℂ)) ^ 2 * (ab z0.1 z3.1) * (mb z1.2 (p 2) z3.1) * (sb z1.2 z2.2) + (-1) * ((c.MW : ℂ)) * ((c.e : ℂ)) ^ 2 * (ab z0.1 z3.1) ^ 2 * (sb z0.2 z1.2) * (sb z1.2 z2.2) + (-1) * ((c.MW : ℂ)) * ((c.e : ℂ)) ^ 2 * (mb z3.2 (p 2) z0.1) * (sb z1.2 z2.2) * (sb z1.2 z3.2) + (-2) * ((c.MW : ℂ)) ^ 2 * ((c.e : ℂ)) ^ 2 * (ab z0.1 z2.1) * (sb z1.2 z3.2) ^ 2 + (-5) * ((c.MW : ℂ)) ^ 2 * ((c.e : ℂ)) ^ 2 * (ab z0.1 z3.1) * (sb z1.2 z2.2) * (sb z1.2 z3.2) + (-2) * ((c.e : ℂ)) ^ 2 * (N.c 1) * (ab z0.1 z3.1) * (sb z1.2 z2.2) * (sb z1.2 z3.2) + (-1) * ((c.e : ℂ)) ^ 2 * (ab z0.1 z1.1) * (mb z1.2 (p 2) z3.1) * (sb z1.2 z2.2) * (sb z1.2 z3.2) + (1) * ((c.e : ℂ)) ^ 2 * (ab z0.1 z3.1) * (mb z1.2 (p 2) z0.1) * (sb z0.2 z2.2) * (sb z1.2 z3.2) + (-2) * ((c.e : ℂ)) ^ 2 * (mb z1.2 (p 2) z0.1) * (mb z1.2 (p 2) z3.1) * (sb z2.2 z3.2) + (2) * ((c.e : ℂ)) ^ 2 * (mb z1.2 (p 2) z3.1) * (mb z3.2 (p 2) z0.1) * (sb z1.2 z2.2)) * i0 + ((-1) * ((c.e : ℂ)) ^ 2 * (ab z0.1 z2.1) * (mb z1.2 (p 2) z0.1) * (sb z1.2 z2.2) * (sb z1.2 z3.2)) * i1 + ((-1) * ((c.MW : ℂ)) * ((c.e : ℂ)) ^ 2 * (ab z0.1 z3.1) * (mb z1.2 (p 2) z0.1) * (sb z0.2 z1.2) * (sb z1.2 z2.2) + (2) * ((c.e : ℂ)) ^ 2 * (N.c 0) * (mb z1.2 (p 2) z0.1) * (sb z1.2 z2.2) * (sb z1.2 z3.2) + (1) * ((c.e : ℂ)) ^ 2 * (mb z1.2 (p 2) z0.1) * (mb z3.2 (p 2) z0.1) * (sb z0.2 z1.2) * (sb z1.2 z2.2)) * i2 + ((-2) * ((c.MW : ℂ)) * ((c.e : ℂ)) ^ 2 * (ab z0.1 z1.1) * (ab z0.1 z3.1) * (sb z1.2 z2.2) ^ 2 + (-1) * ((c.MW : ℂ)) ^ 2 * ((c.e : ℂ)) ^ 2 * (ab z0.1 z2.1) * (ab z0.1 z3.1) * (sb z1.2 z2.2)) * i3 + ((-1) * ((c.MW : ℂ)) * ((c.e : ℂ)) ^ 2 * (ab z0.1 z2.1) * (ab z0.1 z3.1) * (mb z1.2 (p 2) z3.1) + (-1) * ((c.MW : ℂ)) ^ 2 * ((c.e : ℂ)) ^ 2 * (ab z0.1 z3.1) ^ 2 * (sb z1.2 z2.2) + (1) * ((c.e : ℂ)) ^ 2 * (N.c 0) * (ab z0.1 z3.1) ^ 2 * (sb z1.2 z2.2) + (2) * ((c.e : ℂ)) ^ 2 * (N.c 1) * (ab z0.1 z2.1) * (ab z0.1 z3.1) * (sb z1.2 z3.2) + (1) * ((c.e : ℂ)) ^ 2 * (N.c 1) * (ab z0.1 z3.1) ^ 2 * (sb z1.2 z2.2) + (1) * ((c.e : ℂ)) ^ 2 * (ab z0.1 z1.1) * (ab z0.1 z2.1) * (mb z1.2 (p 2) z3.1) * (sb z1.2 z3.2) + (1) * ((c.e : ℂ)) ^ 2 * (ab z0.1 z1.1) * (ab z0.1 z3.1) ^ 2 * (sb z0.2 z1.2) * (sb z1.2 z2.2) + (1) * ((c.e : ℂ)) ^ 2 * (ab z0.1 z2.1) * (mb z1.2 (p 2) z3.1) * (mb z3.2 (p 2) z0.1)) * i4 + ((1) * ((c.MW : ℂ)) * ((c.e : ℂ)) ^ 2 * (N.c 0) * (ab z0.1 z2.1) * (sb z1.2 z3.2) + (-1) * ((c.MW : ℂ)) * ((c.e : ℂ)) ^ 2 * (N.c 0) * (ab z0.1 z3.1) * (sb z1.2 z2.2) + (-1) * ((c.MW : ℂ)) * ((c.e : ℂ)) ^ 2 * (N.c 1) * (ab z0.1 z3.1) * (sb z1.2 z2.2) + (1) * ((c.MW : ℂ)) * ((c.e : ℂ)) ^ 2 * (ab z0.1 z2.1) * (mb z3.2 (p 2) z0.1) * (sb z0.2 z1.2) + (-1) * ((c.MW : ℂ)) ^ 2 * ((c.e : ℂ)) ^ 2 * (ab z0.1 z2.1) * (ab z0.1 z3.1) * (sb z0.2 z1.2) + (-1) * ((c.e : ℂ)) ^ 2 * (N.c 0) * (ab z0.1 z2.1) * (ab z0.1 z3.1) * (sb z0.2 z1.2) + (2) * ((c.e : ℂ)) ^ 2 * (N.c 0) * (mb z1.2 (p 2) z0.1) * (sb z2.2 z3.2) + (-1) * ((c.e : ℂ)) ^ 2 * (N.c 0) * (mb z3.2 (p 2) z0.1) * (sb z1.2 z2.2) + (2) * ((c.e : ℂ)) ^ 2 * (N.c 1) * (mb z1.2 (p 2) z0.1) * (sb z2.2 z3.2) + (-1) * ((c.e : ℂ)) ^ 2 * (N.c 1) * (mb z3.2 (p 2) z0.1) * (sb z1.2 z2.2) + (1) * ((c.e : ℂ)) ^ 2 * (ab z0.1 z2.1) * (mb z0.2 (p 2) z3.1) * (mb z1.2 (p 2) z0.1) + (1) * ((c.e : ℂ)) ^ 2 * (mb z1.2 (p 2) z0.1) * (mb z3.2 (p 2) z0.1) * (sb z0.2 z2.2) + (1) * ((c.e : ℂ)) ^ 2 * (mb z1.2 (p 2) z0.1) * (mb z3.2 (p 2) z1.1) * (sb z1.2 z2.2)) * i5 + ((1) * ((c.MW : ℂ)) * ((c.e : ℂ)) ^ 2 * (ab z0.1 z3.1) * (mb z1.2 (p 2) z0.1) * (sb z0.2 z1.2) + (-2) * ((c.e : ℂ)) ^ 2 * (N.c 0) * (mb z1.2 (p 2) z0.1) * (sb z1.2 z3.2) + (-1) * ((c.e : ℂ)) ^ 2 * (mb z1.2 (p 2) z0.1) * (mb z3.2 (p 2) z0.1) * (sb z0.2 z1.2)) * i6 + ((-1) * ((c.MW : ℂ)) * ((c.e : ℂ)) ^ 2 * (ab z0.1 z1.1) * (ab z0.1 z2.1) * (mb z1.2 (p 2) z0.1) * (sb z1.2 z3.2) + (-1) * ((c.MW : ℂ)) * ((c.e : ℂ)) ^ 2 * (ab z0.1 z2.1) * (mb z1.2 (p 2) z0.1) * (mb z3.2 (p 2) z0.1) + (1) * ((c.MW : ℂ)) ^ 2 * ((c.e : ℂ)) ^ 2 * (ab z0.1 z2.1) * (ab z0.1 z3.1) * (mb z1.2 (p 2) z0.1)) * i7 + ((-1) * ((c.MW : ℂ)) * ((c.e : ℂ)) ^ 2 * (ab z0.1 z3.1) * (mb z1.2 (p 2) z0.1) * (sb z1.2 z2.2) + (-1) * ((c.e : ℂ)) ^ 2 * (mb z1.2 (p 2) z0.1) * (mb z3.2 (p 2) z0.1) * (sb z1.2 z2.2)) * i8 + ((-2) * ((c.MW : ℂ)) * ((c.e : ℂ)) ^ 2 * (N.c 0) * (ab z0.1 z2.1) * (sb z1.2 z3.2) + (-1) * ((c.MW : ℂ)) * ((c.e : ℂ)) ^ 2 * (N.c 0) * (ab z0.1 z3.1) * (sb z1.2 z2.2) + (1) * ((c.e : ℂ)) ^ 2 * (N.c 0) * (ab z0.1 z2.1) * (mb z1.2 (p 2) z3.1) + (2) * ((c.e : ℂ)) ^ 2 * (N.c 0) * (mb z1.2 (p 2) z0.1) * (sb z2.2 z3.2) + (-1) * ((c.e : ℂ)) ^ 2 * (N.c 0) * (mb z3.2 (p 2) z0.1) * (sb z1.2 z2.2) + (1) * ((c.e : ℂ)) ^ 2 * (ab z0.1 z2.1) * (mb z0.2 (p 2) z3.1) * (mb z1.2 (p 2) z0.1) + (1) * ((c.e : ℂ)) ^ 2 * (mb z1.2 (p 2) z0.1) * (mb z3.2 (p 2) z0.1) * (sb z0.2 z2.2) + (1) * ((c.e : ℂ)) ^ 2 * (mb z1.2 (p 2) z0.1) * (mb z3.2 (p 2) z1.1) * (sb z1.2 z2.2)) * i9 + ((1) * ((c.MW : ℂ)) * ((c.e : ℂ)) ^ 2 * (ab z0.1 z2.1) * (ab z0.1 z3.1) * (sb z0.2 z1.2) * (sb z1.2 z3.2) + (1) * ((c.MW : ℂ)) * ((c.e : ℂ)) ^ 2 * (ab z0.1 z3.1) * (mb z1.2 (p 2) z3.1) * (sb z1.2 z2.2) + (-1) * ((c.MW : ℂ)) * ((c.e : ℂ)) ^ 2 * (ab z0.1 z3.1) ^ 2 * (sb z0.2 z1.2) * (sb z1.2 z2.2) + (-2) * ((c.MW : ℂ)) ^ 2 * ((c.e : ℂ)) ^ 2 * (ab z0.1 z2.1) * (sb z1.2 z3.2) ^ 2 + (-4) * ((c.MW : ℂ)) ^ 2 * ((c.e : ℂ)) ^ 2 * (ab z0.1 z3.1) * (sb z1.2 z2.2) * (sb z1.2 z3.2) + (2) * ((c.e : ℂ)) ^ 2 * (N.c 0) * (ab z0.1 z3.1) * (sb z1.2 z2.2) * (sb z1.2 z3.2) + (-1) * ((c.e : ℂ)) ^ 2 * (N.c 1) * (ab z0.1 z3.1) * (sb z1.2 z2.2) * (sb z1.2 z3.2) + (-1) * ((c.e : ℂ)) ^ 2 * (ab z0.1 z1.1) * (ab z0.1 z3.1) * (sb z0.2 z1.2) * (sb z1.2 z2.2) * (sb z1.2 z3.2) + (1) * ((c.e : ℂ)) ^ 2 * (ab z0.1 z1.1) * (mb z1.2 (p 2) z3.1) * (sb z1.2 z2.2) * (sb z1.2 z3.2) + (1) * ((c.e : ℂ)) ^ 2 * (ab z0.1 z3.1) * (mb z1.2 (p 2) z0.1) * (sb z0.2 z2.2) * (sb z1.2 z3.2) + (-2) * ((c.e : ℂ)) ^ 2 * (ab z0.1 z3.1) * (mb z3.2 (p 2) z0.1) * (sb z0.2 z1.2) * (sb z1.2 z2.2) + (-2) * ((c.e : ℂ)) ^ 2 * (mb z1.2 (p 2) z0.1) * (mb z1.2 (p 2) z3.1) * (sb z2.2 z3.2) + (1) * ((c.e : ℂ)) ^ 2 * (mb z1.2 (p 2) z3.1) * (mb z3.2 (p 2) z0.1) * (sb z1.2 z2.2)) * i10 + ((-1) * ((c.MW : ℂ)) * ((c.e : ℂ)) ^ 2 * (ab z0.1 z3.1) * (mb z1.2 (p 2) z0.1) * (sb z1.2 z2.2)) * i11 + ((1) * ((c.e : ℂ)) ^ 2 * (ab z0.1 z2.1) * (mb z1.2 (p 2) z0.1) * (sb z0.2 z1.2) * (sb z1.2 z3.2) + (1) * ((c.e : ℂ)) ^ 2 * (ab z0.1 z3.1) * (mb z1.2 (p 2) z0.1) * (sb z0.2 z1.2) * (sb z1.2 z2.2) + (-1) * ((c.e : ℂ)) ^ 2 * (mb z1.2 (p 2) z0.1) * (mb z1.2 (p 2) z3.1) * (sb z1.2 z2.2)) * i12 + ((4) * ((c.MW : ℂ)) * ((c.e : ℂ)) ^ 2 * (ab z0.1 z2.1) * (ab z0.1 z3.1) * (sb z0.2 z1.2) * (sb z1.2 z2.2) + (-1) * ((c.MW : ℂ)) * ((c.e : ℂ)) ^ 2 * (ab z0.1 z2.1) * (mb z1.2 (p 2) z3.1) * (sb z1.2 z2.2) + (2) * ((c.MW : ℂ)) * ((c.e : ℂ)) ^ 2 * (ab z0.1 z2.1) ^ 2 * (sb z0.2 z1.2) * (sb z1.2 z3.2) + (-1) * ((c.MW : ℂ)) * ((c.e : ℂ)) ^ 2 * (mb z1.2 (p 2) z0.1) * (sb z1.2 z2.2) * (sb z2.2 z3.2) + (-1) * ((c.MW : ℂ)) * ((c.e : ℂ)) ^ 2 * (mb z3.2 (p 2) z0.1) * (sb z1.2 z2.2) ^ 2 + (-1) * ((c.MW : ℂ)) ^ 2 * ((c.e : ℂ)) ^ 2 * (ab z0.1 z3.1) * (sb z1.2 z2.2) ^ 2 + (1) * ((c.e : ℂ)) ^ 2 * (N.c 0) * (ab z0.1 z3.1) * (sb z1.2 z2.2) ^ 2 + (1) * ((c.e : ℂ)) ^ 2 * (ab z0.1 z1.1) * (ab z0.1 z3.1) * (sb z0.2 z1.2) * (sb z1.2 z2.2) ^ 2 + (-1) * ((c.e : ℂ)) ^ 2 * (ab z0.1 z1.1) * (mb z1.2 (p 2) z3.1) * (sb z1.2 z2.2) ^ 2 + (-2) * ((c.e : ℂ)) ^ 2 * (ab z0.1 z2.1) * (mb z1.2 (p 2) z0.1) * (sb z0.2 z1.2) * (sb z2.2 z3.2) + (1) * ((c.e : ℂ)) ^ 2 * (ab z0.1 z2.1) * (mb z1.2 (p 2) z0.1) * (sb z0.2 z2.2) * (sb z1.2 z3.2) + (1) * ((c.e : ℂ)) ^ 2 * (ab z0.1 z2.1) * (mb z3.2 (p 2) z0.1) * (sb z0.2 z1.2) * (sb z1.2 z2.2) + (1) * ((c.e : ℂ)) ^ 2 * (ab z0.1 z3.1) * (mb z1.2 (p 2) z0.1) * (sb z0.2 z2.2) * (sb z1.2 z2.2)) * i13 + ((1) * ((c.e : ℂ)) ^ 2 * (ab z0.1 z3.1) * (mb z1.2 (p 2) z0.1) * (sb z1.2 z2.2) * (sb z1.2 z3.2)) * i14 + ((1) * ((c.MW : ℂ)) * ((c.e : ℂ)) ^ 2 * (ab z0.1 z2.1) * (mb z1.2 (p 2) z0.1) * (sb z1.2 z3.2) + (-1) * ((c.e : ℂ)) ^ 2 * (ab z0.1 z2.1) * (ab z0.1 z3.1) * (mb z1.2 (p 2) z0.1) * (sb z0.2 z1.2) + (-1) * ((c.e : ℂ)) ^ 2 * (ab z0.1 z2.1) * (mb z1.2 (p 2) z0.1) * (mb z1.2 (p 2) z3.1)) * i15 + ((1) * ((c.MW : ℂ)) * ((c.e : ℂ)) ^ 2 * (ab z0.1 z1.1) * (sb z1.2 z2.2) ^ 2 * (sb z1.2 z3.2) + (2) * ((c.MW : ℂ)) * ((c.e : ℂ)) ^ 2 * (ab z0.1 z2.1) * (ab z0.1 z3.1) * (sb z0.2 z1.2) * (sb z1.2 z2.2) + (1) * ((c.MW : ℂ)) * ((c.e : ℂ)) ^ 2 * (ab z0.1 z2.1) ^ 2 * (sb z0.2 z1.2) * (sb z1.2 z3.2) + (-1) * ((c.MW : ℂ)) * ((c.e : ℂ)) ^ 2 * (mb z1.2 (p 2) z0.1) * (sb z1.2 z2.2) * (sb z2.2 z3.2) + (-1) * ((c.MW : ℂ)) ^ 2 * ((c.e : ℂ)) ^ 2 * (ab z0.1 z3.1) * (sb z1.2 z2.2) ^ 2 + (2) * ((c.e : ℂ)) ^ 2 * (N.c 0) * (ab z0.1 z2.1) * (sb z1.2 z2.2) * (sb z1.2 z3.2) + (1) * ((c.e : ℂ)) ^ 2 * (N.c 0) * (ab z0.1 z3.1) * (sb z1.2 z2.2) ^ 2 + (1) * ((c.e : ℂ)) ^ 2 * (N.c 1) * (ab z0.1 z2.1) * (sb z1.2 z2.2) * (sb z1.2 z3.2) + (-1) * ((c.e : ℂ)) ^ 2 * (ab z0.1 z1.1) * (ab z0.1 z2.1) * (sb z0.2 z1.2) * (sb z1.2 z2.2) * (sb z1.2 z3.2) + (-2) * ((c.e : ℂ)) ^ 2 * (ab z0.1 z2.1) * (mb z1.2 (p 2) z0.1) * (sb z0.2 z1.2) * (sb z2.2 z3.2) + (1) * ((c.e : ℂ)) ^ 2 * (ab z0.1 z2.1) * (mb z1.2 (p 2) z0.1) * (sb z0.2 z2.2) * (sb z1.2 z3.2) + (2) * ((c.e : ℂ)) ^ 2 * (ab z0.1 z2.1) * (mb z3.2 (p 2) z0.1) * (sb z0.2 z1.2) * (sb z1.2 z2.2) + (1) * ((c.e : ℂ)) ^ 2 * (ab z0.1 z3.1) * (mb z1.2 (p 2) z0.1) * (sb z0.2 z2.2) * (sb z1.2 z2.2)) * i16 + ((-1) * ((c.MW : ℂ)) * ((c.e : ℂ)) ^ 2 * (mb z1.2 (p 2) z0.1) * (sb z1.2 z2.2) ^ 2) * i17 + ((-1) * ((c.MW : ℂ)) * ((c.e : ℂ)) ^ 2 * (ab z0.1 z3.1) * (mb z1.2 (p 2) z0.1) * (sb z1.2 z2.2)) * i18 + ((-1) * ((c.MW : ℂ)) * ((c.e : ℂ)) ^ 2 * (ab z0.1 z1.1) * (mb z1.2 (p 2) z3.1) * (sb z1.2 z2.2)) * i19 + ((-1) * ((c.MW : ℂ)) * ((c.e : ℂ)) ^ 2 * (mb z1.2 (p 2) z0.1) * (sb z1.2 z2.2) * (sb z1.2 z3.2) + (1) * ((c.e : ℂ)) ^ 2 * (ab z0.1 z3.1) * (mb z1.2 (p 2) z0.1) * (sb z0.2 z1.2) * (sb z1.2 z2.2) + (1) * ((c.e : ℂ)) ^ 2 * (mb z1.2 (p 2) z0.1) * (mb z1.2 (p 2) z3.1) * (sb z1.2 z2.2)) * i20 + ((2) * ((c.MW : ℂ)) * ((c.e : ℂ)) ^ 2 * (ab z0.1 z3.1) * (mb z1.2 (p 2) z0.1) * (sb z1.2 z2.2)) * i21)) * ((1) * ((c.MW : ℂ)⁻¹) ^ 2 * ((N.c 1)⁻¹)) + ((1) * ((c.MW : ℂ)) * (((√2 : ℝ) : ℂ)) ^ 2 * ((c.e : ℂ)) ^ 2 * ((c.MW : ℂ)⁻¹) ^ 2 * (ab z0.1 z2.1) ^ 2 * (mb z1.2 (p 2) z3.1) * (sb z1.2 z3.2) / (2) + (1) * (((√2 : ℝ) : ℂ)) ^ 2 * ((c.e : ℂ)) ^ 2 * ((c.MW : ℂ)⁻¹) ^ 2 * (ab z0.1 z1.1) * (ab z0.1 z2.1) * (mb z1.2 (p 2) z3.1) * (sb z1.2 z2.2) * (sb z1.2 z3.2) + (-1) * (((√2 : ℝ) : ℂ)) ^ 2 * ((c.e : ℂ)) ^ 2 * ((c.MW : ℂ)⁻¹) ^ 2 * (ab z0.1 z2.1) * (ab z0.1 z3.1) * (mb z1.2 (p 2) z0.1) * (sb z0.2 z1.2) * (sb z2.2 z3.2) + (1) * (((√2 : ℝ) : ℂ)) ^ 2 * ((c.e : ℂ)) ^ 2 * ((c.MW : ℂ)⁻¹) ^ 2 * (ab z0.1 z2.1) * (ab z1.1 z3.1) * (mb z1.2 (p 2) z0.1) * (sb z1.2 z2.2) * (sb z1.2 z3.2) + (-4) * ((c.e : ℂ)) ^ 2 * (N.c 1) * ((N.c 1)⁻¹) * (ab z0.1 z2.1) * (ab z0.1 z3.1) * (sb z1.2 z2.2) * (sb z1.2 z3.2) + (-2) * ((c.e : ℂ)) ^ 2 * (N.c 1) * ((N.c 1)⁻¹) * (ab z0.1 z2.1) ^ 2 * (sb z1.2 z3.2) ^ 2 + (-2) * ((c.e : ℂ)) ^ 2 * (N.c 1) * ((N.c 1)⁻¹) * (ab z0.1 z3.1) ^ 2 * (sb z1.2 z2.2) ^ 2) * y0 + ((1) * ((c.MW : ℂ)) * ((c.e : ℂ)) ^ 2 * ((c.MW : ℂ)⁻¹) ^ 2 * (ab z0.1 z3.1) * (mb z3.2 (p 2) z0.1) * (sb z1.2 z2.2) ^ 2 + (4) * ((c.MW : ℂ)) ^ 2 * ((c.e : ℂ)) ^ 2 * ((c.MW : ℂ)⁻¹) ^ 2 * (ab z0.1 z2.1) * (ab z0.1 z3.1) * (sb z1.2 z2.2) * (sb z1.2 z3.2) + (2) * ((c.MW : ℂ)) ^ 2 * ((c.e : ℂ)) ^ 2 * ((c.MW : ℂ)⁻¹) ^ 2 * (ab z0.1 z2.1) ^ 2 * (sb z1.2 z3.2) ^ 2 + (2) * ((c.MW : ℂ)) ^ 2 * ((c.e : ℂ)) ^ 2 * ((c.MW : ℂ)⁻¹) ^ 2 * (ab z0.1 z3.1) ^ 2 * (sb z1.2 z2.2) ^ 2 + (-2) * ((c.e : ℂ)) ^ 2 * ((c.MW : ℂ)⁻¹) ^ 2 * (ab z0.1 z1.1) * (ab z0.1 z2.1) * (mb z1.2 (p 2) z3.1) * (sb z1.2 z2.2) * (sb z1.2 z3.2) + (2) * ((c.e : ℂ)) ^ 2 * ((c.MW : ℂ)⁻¹) ^ 2 * (ab z0.1 z2.1) * (ab z0.1 z3.1) * (mb z1.2 (p 2) z0.1) * (sb z0.2 z1.2) * (sb z2.2 z3.2) + (-2) * ((c.e : ℂ)) ^ 2 * ((c.MW : ℂ)⁻¹) ^ 2 * (ab z0.1 z2.1) * (ab z1.1 z3.1) * (mb z1.2 (p 2) z0.1) * (sb z1.2 z2.2) * (sb z1.2 z3.2) + (-2) * ((c.e : ℂ)) ^ 2 * ((c.MW : ℂ)⁻¹) ^ 2 * (ab z2.1 z3.1) * (mb z1.2 (p 2) z0.1) ^ 2 * (sb z2.2 z3.2) + (-4) * ((c.e : ℂ)) ^ 2 * (ab z0.1 z2.1) * (ab z0.1 z3.1) * (sb z1.2 z2.2) * (sb z1.2 z3.2) + (-2) * ((c.e : ℂ)) ^ 2 * (ab z0.1 z2.1) ^ 2 * (sb z1.2 z3.2) ^ 2 + (-2) * ((c.e : ℂ)) ^ 2 * (ab z0.1 z3.1) ^ 2 * (sb z1.2 z2.2) ^ 2) * y1 + ((4) * ((c.MW : ℂ)) * ((c.e : ℂ)) ^ 2 * ((c.MW : ℂ)⁻¹) * (ab z0.1 z2.1) * (ab z0.1 z3.1) * (sb z1.2 z2.2) * (sb z1.2 z3.2) + (2) * ((c.MW : ℂ)) * ((c.e : ℂ)) ^ 2 * ((c.MW : ℂ)⁻¹) * (ab z0.1 z2.1) ^ 2 * (sb z1.2 z3.2) ^ 2 + (2) * ((c.MW : ℂ)) * ((c.e : ℂ)) ^ 2 * ((c.MW : ℂ)⁻¹) * (ab z0.1 z3.1) ^ 2 * (sb z1.2 z2.2) ^ 2 + (-1) * (((√2 : ℝ) : ℂ)) ^ 2 * ((c.e : ℂ)) ^ 2 * ((c.MW : ℂ)⁻¹) * (N.c 0) * ((N.c 1)⁻¹) * (ab z0.1 z1.1) * (ab z0.1 z3.1) * (sb z1.2 z2.2) ^ 2 * (sb z1.2 z3.2) / (2) + (-1) * (((√2 : ℝ) : ℂ)) ^ 2 * ((c.e : ℂ)) ^ 2 * ((c.MW : ℂ)⁻¹) * (N.c 0) * ((N.c 1)⁻¹) * (ab z0.1 z3.1) * (mb z3.2 (p 2) z0.1) * (sb z1.2 z2.2) ^ 2 / (2) + (1) * (((√2 : ℝ) : ℂ)) ^ 2 * ((c.e : ℂ)) ^ 2 * ((c.MW : ℂ)⁻¹) * ((N.c 1)⁻¹) * (ab z0.1 z1.1) * (ab z1.1 z3.1) * (mb z1.2 (p 2) z0.1) * (sb z1.2 z2.2) ^ 2 * (sb z1.2 z3.2) / (2) + (-1) * (((√2 : ℝ) : ℂ)) ^ 2 * ((c.e : ℂ)) ^ 2 * ((c.MW : ℂ)⁻¹) * ((N.c 1)⁻¹) * (ab z0.1 z1.1) * (mb z1.2 (p 2) z0.1) * (mb z3.2 (p 2) z3.1) * (sb z1.2 z2.2) ^ 2 / (2) + (-1) * (((√2 : ℝ) : ℂ)) ^ 2 * ((c.e : ℂ)) ^ 2 * ((c.MW : ℂ)⁻¹) * (ab z0.1 z3.1) * (mb z3.2 (p 2) z0.1) * (sb z1.2 z2.2) ^ 2 / (2) + (1) * ((c.e : ℂ)) ^ 2 * ((c.MW : ℂ)⁻¹) * (N.c 0) * ((N.c 1)⁻¹) * (ab z0.1 z1.1) * (ab z0.1 z3.1) * (sb z1.2 z2.2) ^ 2 * (sb z1.2 z3.2) + (1) * ((c.e : ℂ)) ^ 2 * ((c.MW : ℂ)⁻¹) * (N.c 0) * ((N.c 1)⁻¹) * (ab z0.1 z3.1) * (mb z3.2 (p 2) z0.1) * (sb z1.2 z2.2) ^ 2 + (-1) * ((c.e : ℂ)) ^ 2 * ((c.MW : ℂ)⁻¹) * ((N.c 1)⁻¹) * (ab z0.1 z1.1) * (ab z1.1 z3.1) * (mb z1.2 (p 2) z0.1) * (sb z1.2 z2.2) ^ 2 * (sb z1.2 z3.2) + (1) * ((c.e : ℂ)) ^ 2 * ((c.MW : ℂ)⁻¹) * ((N.c 1)⁻¹) * (ab z0.1 z1.1) * (mb z1.2 (p 2) z0.1) * (mb z3.2 (p 2) z3.1) * (sb z1.2 z2.2) ^ 2 + (1) * ((c.e : ℂ)) ^ 2 * ((c.MW : ℂ)⁻¹) * (ab z0.1 z3.1) * (mb z3.2 (p 2) z0.1) * (sb z1.2 z2.2) ^ 2 + (4) * ((c.e : ℂ)) ^ 2 * (ab z0.1 z2.1) * (ab z0.1 z3.1) * (sb z1.2 z2.2) * (sb z1.2 z3.2) + (2) * ((c.e : ℂ)) ^ 2 * (ab z0.1 z2.1) ^ 2 * (sb z1.2 z3.2) ^ 2 + (2) * ((c.e : ℂ)) ^ 2 * (ab z0.1 z3.1) ^ 2 * (sb z1.2 z2.2) ^ 2) * yMW + ((-1) * ((c.e : ℂ)) ^ 2 * ((c.MW : ℂ)⁻¹) * (N.c 0) * ((N.c 1)⁻¹) * (ab z0.1 z1.1) * (ab z0.1 z3.1) * (sb z1.2 z2.2) ^ 2 * (sb z1.2 z3.2) / (2) + (-1) * ((c.e : ℂ)) ^ 2 * ((c.MW : ℂ)⁻¹) * (N.c 0) * ((N.c 1)⁻¹) * (ab z0.1 z3.1) * (mb z3.2 (p 2) z0.1) * (sb z1.2 z2.2) ^ 2 / (2) + (1) * ((c.e : ℂ)) ^ 2 * ((c.MW : ℂ)⁻¹) * ((N.c 1)⁻¹) * (ab z0.1 z1.1) * (ab z1.1 z3.1) * (mb z1.2 (p 2) z0.1) * (sb z1.2 z2.2) ^ 2 * (sb z1.2 z3.2) / (2) + (-1) * ((c.e : ℂ)) ^ 2 * ((c.MW : ℂ)⁻¹) * ((N.c 1)⁻¹) * (ab z0.1 z1.1) * (mb z1.2 (p 2) z0.1) * (mb z3.2 (p 2) z3.1) * (sb z1.2 z2.2) ^ 2 / (2) + (-1) * ((c.e : ℂ)) ^ 2 * ((c.MW : ℂ)⁻¹) * (ab z0.1 z3.1) * (mb z3.2 (p 2) z0.1) * (sb z1.2 z2.2) ^ 2 / (2) + (1) * ((c.e : ℂ)) ^ 2 * ((c.MW : ℂ)⁻¹) ^ 2 * (N.c 0) * ((N.c 1)⁻¹) * (ab z0.1 z3.1) * (ab z1.1 z2.1) * (mb z1.2 (p 2) z0.1) * (sb z1.2 z2.2) * (sb z1.2 z3.2) + (1) * ((c.e : ℂ)) ^ 2 * ((c.MW : ℂ)⁻¹) ^ 2 * ((N.c 1)⁻¹) * (ab z0.1 z1.1) * (ab z1.1 z2.1) * (mb z1.2 (p 2) z0.1) * (mb z1.2 (p 2) z3.1) * (sb z1.2 z2.2) * (sb z1.2 z3.2) + (1) * ((c.e : ℂ)) ^ 2 * ((c.MW : ℂ)⁻¹) ^ 2 * (ab z0.1 z1.1) * (ab z0.1 z2.1) * (mb z1.2 (p 2) z3.1) * (sb z1.2 z2.2) * (sb z1.2 z3.2) + (-1) * ((c.e : ℂ)) ^ 2 * ((c.MW : ℂ)⁻¹) ^ 2 * (ab z0.1 z2.1) * (ab z0.1 z3.1) * (mb z1.2 (p 2) z0.1) * (sb z0.2 z1.2) * (sb z2.2 z3.2) + (1) * ((c.e : ℂ)) ^ 2 * ((c.MW : ℂ)⁻¹) ^ 2 * (ab z0.1 z2.1) * (ab z1.1 z3.1) * (mb z1.2 (p 2) z0.1) * (sb z1.2 z2.2) * (sb z1.2 z3.2) + (1) * ((c.e : ℂ)) ^ 2 * ((c.MW : ℂ)⁻¹) ^ 2 * (ab z2.1 z3.1) * (mb z1.2 (p 2) z0.1) ^ 2 * (sb z2.2 z3.2)) * x22
theorem AAWW.keyMM {c : Constants} {p : Nat → V4 ℝ} {N : Env} (hc : c.Physical) (hb : Balanced p) (r0 : N.r 0 = c.e) (d0 : pole c.MW c.WW (plus (p 0) (backward (p 2))) = N.c 0) (n0 : N.c 0 ≠ 0) (d1 : pole c.MW c.WW (plus (p 0) (backward (p 3))) = N.c 1) (n1 : N.c 1 ≠ 0) {z0 z1 z2 z3 : Pair} (b2 : Bold (p 2) c.MW z2) (b3 : Bold (p 3) c.MW z3) (l0 : Light (p 0) z0) (l1 : Light (p 1) z1) (e02 : mb z0.2 (p 2) z0.1 = -N.c 0) (e03 : mb z0.2 (p 3) z0.1 = -N.c 1) (e12 : mb z1.2 (p 2) z1.1 = -N.c 1) (e13 : mb z1.2 (p 3) z1.1 = -N.c 0) (q2 : msq (p 2) = c.MW ^ 2) (q3 : msq (p 3) = c.MW ^ 2) {ρ0 : V2} (R0 : ∀ Y, sb ρ0 Y = mb Y (p 2) z0.1) {ρ1 : V2} (R1 : ∀ Y, sb ρ1 Y = mb Y (p 2) z1.1) :
    AAWW.formMM N p z0 z1 z2 z2 z3 z3 * sb ρ0 z0.2 * sb ρ1 z1.2 = ((√2 : ℝ) * ((√2 : ℝ) * ((-1 : ℂ) * ((2 / (c.MW * c.MW) : ℝ) : ℂ)))) * AAWW.react.bare4 c p (pv z0.1 ρ0) (pv z1.1 ρ1) (pv z2.1 z2.2) (pv z3.1 z3.2) := by
  rw [AAWW.react.bare4_parts c p (b₀ := .photon) (b₁ := .photon) (b₂ := .wMinus) (b₃ := .wPlus) rfl rfl rfl rfl, AAWW.formMM]
  have T0 := l0.mb_minus ρ0
  have T1 := l1.mb_minus ρ1
  have T2 := mb_back_zero (b2.mb_zero')
  have T3 := mb_back_zero (b3.mb_zero')
  have Q2 : msq (backward (p 2)) = c.MW ^ 2 := (msq_backward _).trans q2
  have Q3 : msq (backward (p 3)) = c.MW ^ 2 := (msq_backward _).trans q3
  simp only [contact, seagull, gauge4, between, carriers, List.map_cons, List.map_nil, List.sum_cons, List.sum_nil]
  simp only [toHiggs, toVector, higgs2, gauge3, Boson.anti, reduceCtorEq, and_self, and_true, and_false, true_and, false_and, if_true, if_false, Complex.ofReal_zero, zero_smul, carry_none, zero_mul, mul_zero, zero_div, neg_zero, add_zero, zero_add, sub_zero, sub_self, contract_zero, contract_zero_left]
  first | rw [dress_minus c (x := .wPlus) (.inl rfl) hc.MW l0 Q2 T2] | rw [dress_minus c (x := .wMinus) (.inr rfl) hc.MW l0 Q2 T2]
  first | rw [dress_minus c (x := .wPlus) (.inl rfl) hc.MW l0 Q3 T3] | rw [dress_minus c (x := .wMinus) (.inr rfl) hc.MW l0 Q3 T3]
  simp only [d0, d1, yangMills_transverse T1 T2, yangMills_transverse T1 T3, yangMills_transverse T2 T3, contract_add, contract_smul, contract_smul_left, contract_four_pv, contract_pv_four, contract_pv, mb_backward]
  have R00 := (ref_minus_minus R0 R0).2
  have R01 := (ref_minus_minus R0 R1).1
  rw [q2] at R01
  have R10 := (ref_minus_minus R1 R0).1
  rw [q2] at R10
  have R11 := (ref_minus_minus R1 R1).2
  have i0 := mb_schouten_right z2.2 (p 3) z0.1 z1.1 z3.1
  have i1 := mb_schouten_right z1.2 (p 2) z0.1 z1.1 z2.1
  have i2 := mb_schouten_right z0.2 (p 3) z0.1 z1.1 z3.1
  have i3 := ab_schouten z1.1 z2.1 z3.1 z0.1
  have i4 := mb_schouten_right z1.2 (p 3) z0.1 z1.1 z2.1
  have i5 := mb_schouten_right z0.2 (p 2) z0.1 z1.1 z3.1
  have i6 := mb_schouten_right z0.2 (p 2) z0.1 z1.1 z2.1
  have i7 := mb_schouten_right z1.2 (p 3) z0.1 z1.1 z3.1
  have i8 := mb_schouten_left z0.2 z1.2 z3.2 (p 2) z0.1
  have i9 := mb_schouten_right z0.2 (p 3) z0.1 z1.1 z2.1
  have i10 := mb_schouten_right z3.2 (p 2) z0.1 z1.1 z2.1
  have i11 := mb_schouten_left z0.2 z1.2 z2.2 (p 2) z0.1
  have i12 := sb_schouten z1.2 z2.2 z3.2 z0.2
  have i13 := mb_schouten_left z0.2 z2.2 z3.2 (p 2) z0.1
  have i14 := mb_schouten_left z0.2 z3.2 ρ0 (p 3) z0.1
  have i15 := mb_schouten_right z1.2 (p 2) z0.1 z1.1 z3.1
  have i16 := mb_schouten_left z1.2 z2.2 z3.2 (p 2) z1.1
  have i17 := mb_schouten_left z0.2 z1.2 z3.2 (p 2) z1.1
  have i18 := mb_schouten_right z3.2 (p 2) z0.1 z1.1 z3.1
  simp only [sb_swap ρ0 z0.2, sb_swap ρ0 z1.2, sb_swap ρ0 z2.2, sb_swap ρ0 z3.2, sb_swap ρ1 z0.2, sb_swap ρ1 z1.2, sb_swap ρ1 z2.2, sb_swap ρ1 z3.2, R00, R01, R0, R10, R11, R1, l0.mb_eq, l1.mb_eq, b2.mb_left, b2.mb_right, b3.mb_left, b3.mb_right, e02, e03, e12, e13, mb_three hb z0.2 z1.1, mb_three hb z0.2 z2.1, mb_three hb z1.2 z0.1, mb_three hb z1.2 z2.1, mb_three hb z2.2 z0.1, mb_three hb z2.2 z1.1, mb_three hb z2.2 z2.1, mb_three hb ρ0 z0.1, mb_three hb ρ1 z1.1, ab_self, sb_self] at i0 i1 i2 i3 i4 i5 i6 i7 i8 i9 i10 i11 i12 i13 i14 i15 i16 i17 i18 ⊢
  simp only [ab_swap z0.1 z1.1, sb_swap z0.2 z1.2, ab_swap z0.1 z2.1, sb_swap z0.2 z2.2, ab_swap z0.1 z3.1, sb_swap z0.2 z3.2, ab_swap z1.1 z2.1, sb_swap z1.2 z2.2, ab_swap z1.1 z3.1, sb_swap z1.2 z3.2, ab_swap z2.1 z3.1, sb_swap z2.2 z3.2] at i0 i1 i2 i3 i4 i5 i6 i7 i8 i9 i10 i11 i12 i13 i14 i15 i16 i17 i18 ⊢
  simp only [r0, Constants.invVev, ← c.mz]
  have xMW : (c.MW : ℂ) ≠ 0 := by exact_mod_cast hc.MW
  have xSW : (c.SW : ℂ) ≠ 0 := by exact_mod_cast hc.SW
  have xCW : (c.CW : ℂ) ≠ 0 := by exact_mod_cast hc.CW
  have x2 : ((√2 : ℝ) : ℂ) ≠ 0 := by exact_mod_cast (Real.sqrt_pos.2 two_pos).ne'
  have x22 : ((√2 : ℝ) : ℂ) ^ 2 = 2 := by rw [← Complex.ofReal_pow, Real.sq_sqrt two_pos.le]; norm_num
  push_cast at i0 i1 i2 i3 i4 i5 i6 i7 i8 i9 i10 i11 i12 i13 i14 i15 i16 i17 i18 ⊢
  simp only [div_eq_mul_inv, mul_inv, inv_inv] at i0 i1 i2 i3 i4 i5 i6 i7 i8 i9 i10 i11 i12 i13 i14 i15 i16 i17 i18 ⊢
  have y0 := mul_inv_cancel₀ n0
  have y1 := mul_inv_cancel₀ n1
  have yMW := mul_inv_cancel₀ xMW
  linear_combination ((((1) * ((c.MW : ℂ)) * ((c.e : ℂ)) ^ 2 * (N.c 1) * (ab z0.1 z1.1) * (ab z2.1 z3.1) + (2) * ((c.MW : ℂ)) * ((c.e : ℂ)) ^ 2 * (N.c 1) * (ab z0.1 z1.1) * (sb z2.2 z3.2) + (-1) * ((c.MW : ℂ)) * ((c.e : ℂ)) ^ 2 * (N.c 1) * (ab z0.1 z2.1) * (ab z1.1 z3.1) + (-1) * ((c.MW : ℂ)) * ((c.e : ℂ)) ^ 2 * (ab z0.1 z1.1) * (ab z1.1 z2.1) * (mb z1.2 (p 2) z3.1) + (4) * ((c.e : ℂ)) ^ 2 * (N.c 0) * (ab z0.1 z1.1) * (ab z0.1 z2.1) * (sb z0.2 z3.2) + (4) * ((c.e : ℂ)) ^ 2 * (N.c 0) * (ab z0.1 z1.1) * (ab z1.1 z2.1) * (sb z1.2 z3.2) + (-2) * ((c.e : ℂ)) ^ 2 * (N.c 0) * (ab z0.1 z1.1) * (ab z1.1 z3.1) * (sb z1.2 z2.2) + (2) * ((c.e : ℂ)) ^ 2 * (N.c 0) * (ab z0.1 z2.1) * (mb z3.2 (p 2) z1.1) + (-2) * ((c.e : ℂ)) ^ 2 * (N.c 0) * (ab z1.1 z2.1) * (mb z3.2 (p 2) z0.1) + (2) * ((c.e : ℂ)) ^ 2 * (N.c 1) * (ab z0.1 z1.1) * (ab z0.1 z2.1) * (sb z0.2 z3.2) + (2) * ((c.e : ℂ)) ^ 2 * (N.c 1) * (ab z0.1 z1.1) * (ab z1.1 z2.1) * (sb z1.2 z3.2) + (-2) * ((c.e : ℂ)) ^ 2 * (N.c 1) * (ab z0.1 z1.1) * (ab z1.1 z3.1) * (sb z1.2 z2.2) + (2) * ((c.e : ℂ)) ^ 2 * (N.c 1) * (ab z0.1 z2.1) * (mb z3.2 (p 2) z1.1) + (-2) * ((c.e : ℂ)) ^ 2 * (N.c 1) * (ab z1.1 z2.1) * (mb z3.2 (p 2) z0.1) + (2) * ((c.e : ℂ)) ^ 2 * (ab z0.1 z1.1) ^ 2 * (mb z0.2 (p 2) z3.1) * (sb z1.2 z2.2)) * i0 + ((-1) * ((c.MW : ℂ)) * ((c.e : ℂ)) ^ 2 * (ab z0.1 z1.1) * (ab z1.1 z2.1) * (mb z3.2 (p 2) z3.1) + (-2) * ((c.MW : ℂ)) * ((c.e : ℂ)) ^ 2 * (ab z0.1 z1.1) * (ab z2.1 z3.1) * (mb z3.2 (p 2) z1.1) + (2) * ((c.MW : ℂ)) * ((c.e : ℂ)) ^ 2 * (ab z0.1 z1.1) * (mb z3.2 (p 2) z1.1) * (sb z2.2 z3.2) + (1) * ((c.MW : ℂ)) * ((c.e : ℂ)) ^ 2 * (ab z0.1 z2.1) * (ab z1.1 z3.1) * (mb z3.2 (p 2) z1.1) + (-1) * ((c.MW : ℂ)) * ((c.e : ℂ)) ^ 2 * (ab z1.1 z2.1) * (ab z1.1 z3.1) * (mb z3.2 (p 2) z0.1) + (4) * ((c.e : ℂ)) ^ 2 * (N.c 0) * (ab z0.1 z1.1) * (ab z1.1 z3.1) * (ab z2.1 z3.1) + (-2) * ((c.e : ℂ)) ^ 2 * (N.c 0) * (ab z0.1 z1.1) * (ab z1.1 z3.1) * (sb z2.2 z3.2) + (-2) * ((c.e : ℂ)) ^ 2 * (N.c 0) * (ab z0.1 z2.1) * (ab z1.1 z3.1) ^ 2 + (5) * ((c.e : ℂ)) ^ 2 * (N.c 1) * (ab z0.1 z1.1) * (ab z1.1 z3.1) * (ab z2.1 z3.1) + (-2) * ((c.e : ℂ)) ^ 2 * (N.c 1) * (ab z0.1 z1.1) * (ab z1.1 z3.1) * (sb z2.2 z3.2) + (-3) * ((c.e : ℂ)) ^ 2 * (N.c 1) * (ab z0.1 z2.1) * (ab z1.1 z3.1) ^ 2 + (2) * ((c.e : ℂ)) ^ 2 * (ab z0.1 z1.1) * (ab z0.1 z2.1) * (ab z1.1 z3.1) * (mb z0.2 (p 2) z3.1) + (-1) * ((c.e : ℂ)) ^ 2 * (ab z0.1 z1.1) * (ab z1.1 z2.1) * (ab z1.1 z3.1) * (mb z1.2 (p 2) z3.1) + (2) * ((c.e : ℂ)) ^ 2 * (ab z0.1 z1.1) * (ab z1.1 z3.1) * (mb z3.2 (p 2) z1.1) * (sb z1.2 z2.2) + (-2) * ((c.e : ℂ)) ^ 2 * (ab z0.1 z1.1) ^ 2 * (ab z0.1 z3.1) * (sb z0.2 z2.2) * (sb z0.2 z3.2) + (-2) * ((c.e : ℂ)) ^ 2 * (ab z0.1 z1.1) ^ 2 * (ab z1.1 z3.1) * (sb z0.2 z1.2) * (sb z2.2 z3.2) + (-4) * ((c.e : ℂ)) ^ 2 * (ab z0.1 z1.1) ^ 2 * (ab z2.1 z3.1) * (mb z0.2 (p 2) z3.1) + (4) * ((c.e : ℂ)) ^ 2 * (ab z0.1 z1.1) ^ 2 * (mb z0.2 (p 2) z3.1) * (sb z2.2 z3.2)) * i1 + ((2) * ((c.MW : ℂ)) * ((c.e : ℂ)) ^ 2 * (ab z0.1 z1.1) * (ab z0.1 z2.1) * (ab z1.1 z3.1) * (sb z1.2 z2.2) + (-2) * ((c.MW : ℂ)) * ((c.e : ℂ)) ^ 2 * (ab z0.1 z1.1) ^ 2 * (ab z2.1 z3.1) * (sb z1.2 z2.2) + (6) * ((c.e : ℂ)) ^ 2 * (N.c 0) * (ab z0.1 z1.1) * (ab z0.1 z2.1) * (ab z2.1 z3.1) + (-4) * ((c.e : ℂ)) ^ 2 * (N.c 0) * (ab z0.1 z1.1) * (ab z0.1 z2.1) * (sb z2.2 z3.2) + (-2) * ((c.e : ℂ)) ^ 2 * (N.c 0) * (ab z0.1 z2.1) ^ 2 * (ab z1.1 z3.1) + (6) * ((c.e : ℂ)) ^ 2 * (N.c 1) * (ab z0.1 z1.1) * (ab z0.1 z2.1) * (ab z2.1 z3.1) + (-2) * ((c.e : ℂ)) ^ 2 * (N.c 1) * (ab z0.1 z1.1) * (ab z0.1 z2.1) * (sb z2.2 z3.2) + (-4) * ((c.e : ℂ)) ^ 2 * (N.c 1) * (ab z0.1 z2.1) ^ 2 * (ab z1.1 z3.1) + (-2) * ((c.e : ℂ)) ^ 2 * (ab z0.1 z1.1) * (ab z0.1 z2.1) * (ab z1.1 z2.1) * (mb z1.2 (p 2) z3.1) + (2) * ((c.e : ℂ)) ^ 2 * (ab z0.1 z1.1) * (ab z0.1 z2.1) * (mb z3.2 (p 2) z1.1) * (sb z1.2 z2.2) + (-2) * ((c.e : ℂ)) ^ 2 * (ab z0.1 z1.1) * (ab z1.1 z2.1) * (mb z3.2 (p 2) z0.1) * (sb z1.2 z2.2) + (-4) * ((c.e : ℂ)) ^ 2 * (ab z0.1 z1.1) ^ 2 * (ab z0.1 z2.1) * (ab z2.1 z3.1) * (sb z0.2 z1.2) + (4) * ((c.e : ℂ)) ^ 2 * (ab z0.1 z1.1) ^ 2 * (ab z0.1 z2.1) * (sb z0.2 z2.2) * (sb z1.2 z3.2) + (-2) * ((c.e : ℂ)) ^ 2 * (ab z0.1 z1.1) ^ 2 * (ab z0.1 z3.1) * (sb z0.2 z2.2) * (sb z1.2 z2.2) + (2) * ((c.e : ℂ)) ^ 2 * (ab z0.1 z1.1) ^ 2 * (ab z1.1 z2.1) * (sb z1.2 z2.2) * (sb z1.2 z3.2) + (-2) * ((c.e : ℂ)) ^ 2 * (ab z0.1 z1.1) ^ 2 * (ab z1.1 z3.1) * (sb z1.2 z2.2) ^ 2 + (-1) * ((c.e : ℂ)) ^ 2 * (ab z0.1 z2.1) * (ab z1.1 z2.1) * (ab z1.1 z3.1) * (mb z1.2 (p 2) z0.1)) * i2 + ((8) * ((c.MW : ℂ)) * ((c.e : ℂ)) ^ 2 * (N.c 0) * (ab z0.1 z1.1) * (ab z0.1 z2.1) * (sb z0.2 z3.2) + (3) * ((c.MW : ℂ)) * ((c.e : ℂ)) ^ 2 * (N.c 0) * (ab z0.1 z1.1) * (ab z1.1 z2.1) * (sb z1.2 z3.2) + (-2) * ((c.MW : ℂ)) * ((c.e : ℂ)) ^ 2 * (N.c 0) * (ab z0.1 z1.1) * (ab z1.1 z3.1) * (sb z1.2 z2.2) + (4) * ((c.MW : ℂ)) * ((c.e : ℂ)) ^ 2 * (N.c 0) * (ab z0.1 z2.1) * (mb z3.2 (p 2) z1.1) + (-3) * ((c.MW : ℂ)) * ((c.e : ℂ)) ^ 2 * (N.c 0) * (ab z1.1 z2.1) * (mb z3.2 (p 2) z0.1) + (6) * ((c.MW : ℂ)) * ((c.e : ℂ)) ^ 2 * (N.c 1) * (ab z0.1 z1.1) * (ab z0.1 z2.1) * (sb z0.2 z3.2) + (1) * ((c.MW : ℂ)) * ((c.e : ℂ)) ^ 2 * (N.c 1) * (ab z0.1 z1.1) * (ab z1.1 z2.1) * (sb z1.2 z3.2) + (-2) * ((c.MW : ℂ)) * ((c.e : ℂ)) ^ 2 * (N.c 1) * (ab z0.1 z1.1) * (ab z1.1 z3.1) * (sb z1.2 z2.2) + (6) * ((c.MW : ℂ)) * ((c.e : ℂ)) ^ 2 * (N.c 1) * (ab z0.1 z2.1) * (mb z3.2 (p 2) z1.1) + (-4) * ((c.MW : ℂ)) * ((c.e : ℂ)) ^ 2 * (N.c 1) * (ab z1.1 z2.1) * (mb z3.2 (p 2) z0.1) + (2) * ((c.MW : ℂ)) * ((c.e : ℂ)) ^ 2 * (ab z0.1 z1.1) * (ab z0.1 z2.1) * (mb z0.2 (p 2) z1.1) * (sb z1.2 z3.2) + (-2) * ((c.MW : ℂ)) * ((c.e : ℂ)) ^ 2 * (ab z0.1 z1.1) * (ab z0.1 z2.1) * (mb z3.2 (p 2) z1.1) * (sb z0.2 z1.2) + (-4) * ((c.MW : ℂ)) * ((c.e : ℂ)) ^ 2 * (ab z0.1 z1.1) ^ 2 * (ab z0.1 z2.1) * (sb z0.2 z1.2) * (sb z0.2 z3.2) + (2) * ((c.MW : ℂ)) * ((c.e : ℂ)) ^ 2 * (ab z0.1 z1.1) ^ 2 * (mb z0.2 (p 2) z3.1) * (sb z1.2 z2.2) + (1) * ((c.MW : ℂ)) * ((c.e : ℂ)) ^ 2 * (ab z0.1 z1.1) ^ 2 * (mb z1.2 (p 2) z3.1) * (sb z0.2 z2.2) + (-2) * ((c.MW : ℂ)) ^ 2 * ((c.e : ℂ)) ^ 2 * (N.c 0) * (ab z0.1 z1.1) * (sb z2.2 z3.2) + (-1) * ((c.MW : ℂ)) ^ 2 * ((c.e : ℂ)) ^ 2 * (N.c 1) * (ab z0.1 z2.1) * (ab z1.1 z3.1) + (-1) * ((c.MW : ℂ)) ^ 2 * ((c.e : ℂ)) ^ 2 * (ab z0.1 z1.1) * (ab z1.1 z2.1) * (mb z1.2 (p 2) z3.1) + (-1) * ((c.MW : ℂ)) ^ 2 * ((c.e : ℂ)) ^ 2 * (ab z0.1 z1.1) * (mb z3.2 (p 2) z1.1) * (sb z1.2 z2.2) + (2) * ((c.MW : ℂ)) ^ 2 * ((c.e : ℂ)) ^ 2 * (ab z0.1 z1.1) ^ 2 * (sb z0.2 z1.2) * (sb z2.2 z3.2) + (3) * ((c.e : ℂ)) ^ 2 * (N.c 0) * (N.c 1) * (ab z0.1 z2.1) * (ab z1.1 z3.1) + (-2) * ((c.e : ℂ)) ^ 2 * (N.c 0) * (ab z0.1 z1.1) * (ab z0.1 z2.1) * (mb z0.2 (p 2) z3.1) + (1) * ((c.e : ℂ)) ^ 2 * (N.c 0) * (ab z0.1 z1.1) * (ab z1.1 z2.1) * (mb z1.2 (p 2) z3.1) + (2) * ((c.e : ℂ)) ^ 2 * (N.c 0) * (ab z0.1 z1.1) * (mb z3.2 (p 2) z0.1) * (sb z0.2 z2.2) + (2) * ((c.e : ℂ)) ^ 2 * (N.c 0) * (ab z0.1 z1.1) ^ 2 * (sb z0.2 z2.2) * (sb z1.2 z3.2) + (-2) * ((c.e : ℂ)) ^ 2 * (N.c 0) ^ 2 * (ab z0.1 z1.1) * (sb z2.2 z3.2) + (2) * ((c.e : ℂ)) ^ 2 * (N.c 0) ^ 2 * (ab z0.1 z2.1) * (ab z1.1 z3.1) + (-1) * ((c.e : ℂ)) ^ 2 * (N.c 1) * (ab z0.1 z1.1) * (ab z0.1 z2.1) * (mb z0.2 (p 2) z3.1) + (2) * ((c.e : ℂ)) ^ 2 * (N.c 1) * (ab z0.1 z1.1) ^ 2 * (sb z0.2 z1.2) * (sb z2.2 z3.2) + (-2) * ((c.e : ℂ)) ^ 2 * (N.c 1) * (ab z0.1 z1.1) ^ 2 * (sb z0.2 z2.2) * (sb z1.2 z3.2) + (1) * ((c.e : ℂ)) ^ 2 * (N.c 1) ^ 2 * (ab z0.1 z2.1) * (ab z1.1 z3.1) + (1) * ((c.e : ℂ)) ^ 2 * (ab z0.1 z1.1) * (ab z0.1 z2.1) * (mb z0.2 (p 2) z1.1) * (mb z1.2 (p 2) z3.1) + (-2) * ((c.e : ℂ)) ^ 2 * (ab z0.1 z1.1) ^ 2 * (mb z0.2 (p 2) z1.1) * (sb z1.2 z2.2) * (sb z1.2 z3.2) + (2) * ((c.e : ℂ)) ^ 2 * (ab z0.1 z1.1) ^ 2 * (mb z1.2 (p 2) z0.1) * (sb z0.2 z2.2) * (sb z0.2 z3.2) + (-2) * ((c.e : ℂ)) ^ 2 * (ab z0.1 z1.1) ^ 2 * (mb z3.2 (p 2) z0.1) * (sb z0.2 z1.2) * (sb z0.2 z2.2) + (-2) * ((c.e : ℂ)) ^ 2 * (ab z0.1 z1.1) ^ 2 * (mb z3.2 (p 2) z1.1) * (sb z0.2 z1.2) * (sb z1.2 z2.2)) * i3 + ((-2) * ((c.MW : ℂ)) * ((c.e : ℂ)) ^ 2 * (ab z0.1 z1.1) * (ab z2.1 z3.1) * (mb z3.2 (p 2) z1.1) + (2) * ((c.MW : ℂ)) * ((c.e : ℂ)) ^ 2 * (ab z0.1 z1.1) * (mb z3.2 (p 2) z1.1) * (sb z2.2 z3.2) + (4) * ((c.e : ℂ)) ^ 2 * (N.c 0) * (ab z0.1 z1.1) * (ab z1.1 z3.1) * (ab z2.1 z3.1) + (-4) * ((c.e : ℂ)) ^ 2 * (N.c 0) * (ab z0.1 z1.1) * (ab z1.1 z3.1) * (sb z2.2 z3.2) + (4) * ((c.e : ℂ)) ^ 2 * (N.c 1) * (ab z0.1 z1.1) * (ab z1.1 z3.1) * (ab z2.1 z3.1) + (-6) * ((c.e : ℂ)) ^ 2 * (N.c 1) * (ab z0.1 z1.1) * (ab z1.1 z3.1) * (sb z2.2 z3.2) + (2) * ((c.e : ℂ)) ^ 2 * (ab z0.1 z1.1) * (ab z1.1 z3.1) * (mb z3.2 (p 2) z1.1) * (sb z1.2 z2.2) + (-4) * ((c.e : ℂ)) ^ 2 * (ab z0.1 z1.1) ^ 2 * (ab z2.1 z3.1) * (mb z0.2 (p 2) z3.1) + (4) * ((c.e : ℂ)) ^ 2 * (ab z0.1 z1.1) ^ 2 * (mb z0.2 (p 2) z3.1) * (sb z2.2 z3.2)) * i4 + ((2) * ((c.MW : ℂ)) * ((c.e : ℂ)) ^ 2 * (ab z0.1 z1.1) * (ab z0.1 z2.1) * (ab z1.1 z2.1) * (sb z1.2 z3.2) + (2) * ((c.MW : ℂ)) * ((c.e : ℂ)) ^ 2 * (ab z0.1 z1.1) * (ab z0.1 z2.1) * (ab z1.1 z3.1) * (sb z1.2 z2.2) + (-2) * ((c.MW : ℂ)) * ((c.e : ℂ)) ^ 2 * (ab z0.1 z1.1) ^ 2 * (ab z2.1 z3.1) * (sb z1.2 z2.2) + (6) * ((c.e : ℂ)) ^ 2 * (N.c 0) * (ab z0.1 z1.1) * (ab z0.1 z2.1) * (ab z2.1 z3.1) + (-4) * ((c.e : ℂ)) ^ 2 * (N.c 0) * (ab z0.1 z1.1) * (ab z0.1 z2.1) * (sb z2.2 z3.2) + (-2) * ((c.e : ℂ)) ^ 2 * (N.c 0) * (ab z0.1 z2.1) ^ 2 * (ab z1.1 z3.1) + (5) * ((c.e : ℂ)) ^ 2 * (N.c 1) * (ab z0.1 z1.1) * (ab z0.1 z2.1) * (ab z2.1 z3.1) + (-4) * ((c.e : ℂ)) ^ 2 * (N.c 1) * (ab z0.1 z1.1) * (ab z0.1 z2.1) * (sb z2.2 z3.2) + (-3) * ((c.e : ℂ)) ^ 2 * (N.c 1) * (ab z0.1 z2.1) ^ 2 * (ab z1.1 z3.1) + (-1) * ((c.e : ℂ)) ^ 2 * (ab z0.1 z1.1) * (ab z0.1 z2.1) * (ab z1.1 z2.1) * (mb z1.2 (p 2) z3.1) + (2) * ((c.e : ℂ)) ^ 2 * (ab z0.1 z1.1) * (ab z0.1 z2.1) * (mb z3.2 (p 2) z1.1) * (sb z1.2 z2.2) + (-2) * ((c.e : ℂ)) ^ 2 * (ab z0.1 z1.1) * (ab z1.1 z2.1) * (mb z3.2 (p 2) z0.1) * (sb z1.2 z2.2) + (-4) * ((c.e : ℂ)) ^ 2 * (ab z0.1 z1.1) ^ 2 * (ab z0.1 z2.1) * (ab z2.1 z3.1) * (sb z0.2 z1.2) + (4) * ((c.e : ℂ)) ^ 2 * (ab z0.1 z1.1) ^ 2 * (ab z0.1 z2.1) * (sb z0.2 z1.2) * (sb z2.2 z3.2) + (-2) * ((c.e : ℂ)) ^ 2 * (ab z0.1 z1.1) ^ 2 * (ab z0.1 z3.1) * (sb z0.2 z2.2) * (sb z1.2 z2.2) + (-2) * ((c.e : ℂ)) ^ 2 * (ab z0.1 z1.1) ^ 2 * (ab z1.1 z3.1) * (sb z1.2 z2.2) ^ 2 + (-1) * ((c.e : ℂ)) ^ 2 * (ab z0.1 z2.1) * (ab z1.1 z2.1) * (ab z1.1 z3.1) * (mb z1.2 (p 2) z0.1)) * i5 + ((4) * ((c.MW : ℂ)) * ((c.e : ℂ)) ^ 2 * (ab z0.1 z1.1) * (ab z0.1 z2.1) * (ab z0.1 z3.1) * (sb z0.2 z3.2) + (-1) * ((c.MW : ℂ)) * ((c.e : ℂ)) ^ 2 * (ab z0.1 z1.1) * (ab z2.1 z3.1) * (mb z3.2 (p 2) z0.1) + (2) * ((c.MW : ℂ)) * ((c.e : ℂ)) ^ 2 * (ab z0.1 z1.1) * (mb z3.2 (p 2) z0.1) * (sb z2.2 z3.2) + (2) * ((c.MW : ℂ)) * ((c.e : ℂ)) ^ 2 * (ab z0.1 z1.1) ^ 2 * (ab z2.1 z3.1) * (sb z1.2 z3.2) + (-2) * ((c.MW : ℂ)) * ((c.e : ℂ)) ^ 2 * (ab z0.1 z1.1) ^ 2 * (sb z1.2 z3.2) * (sb z2.2 z3.2) + (2) * ((c.MW : ℂ)) * ((c.e : ℂ)) ^ 2 * (ab z0.1 z2.1) * (ab z0.1 z3.1) * (mb z3.2 (p 2) z1.1) + (-1) * ((c.MW : ℂ)) * ((c.e : ℂ)) ^ 2 * (ab z0.1 z2.1) * (ab z1.1 z3.1) * (mb z3.2 (p 2) z0.1) + (-2) * ((c.MW : ℂ)) ^ 2 * ((c.e : ℂ)) ^ 2 * (ab z0.1 z1.1) * (ab z0.1 z3.1) * (sb z2.2 z3.2) + (-4) * ((c.e : ℂ)) ^ 2 * (N.c 0) * (ab z0.1 z1.1) * (ab z0.1 z3.1) * (sb z2.2 z3.2) + (1) * ((c.e : ℂ)) ^ 2 * (N.c 1) * (ab z0.1 z1.1) * (ab z0.1 z3.1) * (ab z2.1 z3.1) + (2) * ((c.e : ℂ)) ^ 2 * (N.c 1) * (ab z0.1 z1.1) * (ab z0.1 z3.1) * (sb z2.2 z3.2) + (-1) * ((c.e : ℂ)) ^ 2 * (N.c 1) * (ab z0.1 z2.1) * (ab z0.1 z3.1) * (ab z1.1 z3.1) + (-1) * ((c.e : ℂ)) ^ 2 * (ab z0.1 z1.1) * (ab z0.1 z2.1) * (ab z1.1 z3.1) * (mb z1.2 (p 2) z3.1) + (2) * ((c.e : ℂ)) ^ 2 * (ab z0.1 z1.1) * (ab z0.1 z3.1) * (mb z3.2 (p 2) z0.1) * (sb z0.2 z2.2) + (2) * ((c.e : ℂ)) ^ 2 * (ab z0.1 z1.1) * (ab z0.1 z3.1) * (mb z3.2 (p 2) z1.1) * (sb z1.2 z2.2) + (2) * ((c.e : ℂ)) ^ 2 * (ab z0.1 z1.1) * (ab z1.1 z3.1) * (mb z1.2 (p 2) z0.1) * (sb z2.2 z3.2) + (-4) * ((c.e : ℂ)) ^ 2 * (ab z0.1 z1.1) ^ 2 * (ab z0.1 z3.1) * (sb z0.2 z1.2) * (sb z2.2 z3.2) + (4) * ((c.e : ℂ)) ^ 2 * (ab z0.1 z1.1) ^ 2 * (ab z0.1 z3.1) * (sb z0.2 z2.2) * (sb z1.2 z3.2) + (2) * ((c.e : ℂ)) ^ 2 * (ab z0.1 z1.1) ^ 2 * (ab z1.1 z3.1) * (sb z1.2 z2.2) * (sb z1.2 z3.2) + (1) * ((c.e : ℂ)) ^ 2 * (ab z0.1 z1.1) ^ 2 * (ab z2.1 z3.1) * (mb z1.2 (p 2) z3.1)) * i6 + ((1) * ((c.MW : ℂ)) ^ 2 * ((c.e : ℂ)) ^ 2 * (ab z0.1 z1.1) * (ab z1.1 z2.1) * (ab z2.1 z3.1) + (-2) * ((c.e : ℂ)) ^ 2 * (N.c 0) * (ab z0.1 z1.1) * (ab z1.1 z2.1) * (sb z2.2 z3.2) + (-2) * ((c.e : ℂ)) ^ 2 * (N.c 0) * (ab z0.1 z2.1) * (ab z1.1 z2.1) * (ab z1.1 z3.1) + (1) * ((c.e : ℂ)) ^ 2 * (N.c 1) * (ab z0.1 z1.1) * (ab z1.1 z2.1) * (ab z2.1 z3.1) + (-3) * ((c.e : ℂ)) ^ 2 * (N.c 1) * (ab z0.1 z2.1) * (ab z1.1 z2.1) * (ab z1.1 z3.1) + (2) * ((c.e : ℂ)) ^ 2 * (ab z0.1 z1.1) * (ab z0.1 z2.1) * (ab z1.1 z2.1) * (mb z0.2 (p 2) z3.1) + (-2) * ((c.e : ℂ)) ^ 2 * (ab z0.1 z1.1) * (ab z0.1 z2.1) * (mb z3.2 (p 2) z1.1) * (sb z0.2 z2.2) + (2) * ((c.e : ℂ)) ^ 2 * (ab z0.1 z1.1) * (ab z1.1 z2.1) * (mb z3.2 (p 2) z0.1) * (sb z0.2 z2.2) + (-1) * ((c.e : ℂ)) ^ 2 * (ab z0.1 z1.1) * (ab z1.1 z2.1) ^ 2 * (mb z1.2 (p 2) z3.1) + (-4) * ((c.e : ℂ)) ^ 2 * (ab z0.1 z1.1) ^ 2 * (ab z0.1 z2.1) * (sb z0.2 z2.2) * (sb z0.2 z3.2) + (-2) * ((c.e : ℂ)) ^ 2 * (ab z0.1 z1.1) ^ 2 * (ab z1.1 z2.1) * (sb z0.2 z2.2) * (sb z1.2 z3.2)) * i7 + ((1) * ((c.MW : ℂ)) * ((c.e : ℂ)) ^ 2 * (ab z0.1 z1.1) * (ab z0.1 z2.1) * (ab z1.1 z2.1) * (ab z1.1 z3.1) + (1) * ((c.MW : ℂ)) * ((c.e : ℂ)) ^ 2 * (ab z0.1 z1.1) ^ 2 * (ab z1.1 z2.1) * (ab z2.1 z3.1) + (-2) * ((c.e : ℂ)) ^ 2 * (ab z0.1 z1.1) ^ 2 * (ab z0.1 z2.1) * (ab z1.1 z3.1) * (sb z0.2 z2.2) + (2) * ((c.e : ℂ)) ^ 2 * (ab z0.1 z1.1) ^ 3 * (ab z2.1 z3.1) * (sb z0.2 z2.2)) * i8 + ((4) * ((c.MW : ℂ)) * ((c.e : ℂ)) ^ 2 * (ab z0.1 z1.1) * (ab z0.1 z2.1) * (ab z0.1 z3.1) * (sb z0.2 z3.2) + (2) * ((c.MW : ℂ)) * ((c.e : ℂ)) ^ 2 * (ab z0.1 z1.1) * (ab z0.1 z2.1) * (ab z1.1 z3.1) * (sb z1.2 z3.2) + (-1) * ((c.MW : ℂ)) * ((c.e : ℂ)) ^ 2 * (ab z0.1 z1.1) * (ab z2.1 z3.1) * (mb z3.2 (p 2) z0.1) + (2) * ((c.MW : ℂ)) * ((c.e : ℂ)) ^ 2 * (ab z0.1 z1.1) * (mb z3.2 (p 2) z0.1) * (sb z2.2 z3.2) + (-2) * ((c.MW : ℂ)) * ((c.e : ℂ)) ^ 2 * (ab z0.1 z1.1) ^ 2 * (sb z1.2 z3.2) * (sb z2.2 z3.2) + (2) * ((c.MW : ℂ)) * ((c.e : ℂ)) ^ 2 * (ab z0.1 z2.1) * (ab z0.1 z3.1) * (mb z3.2 (p 2) z1.1) + (-1) * ((c.MW : ℂ)) * ((c.e : ℂ)) ^ 2 * (ab z0.1 z2.1) * (ab z1.1 z3.1) * (mb z3.2 (p 2) z0.1) + (-2) * ((c.MW : ℂ)) ^ 2 * ((c.e : ℂ)) ^ 2 * (ab z0.1 z1.1) * (ab z0.1 z3.1) * (sb z2.2 z3.2) + (-4) * ((c.e : ℂ)) ^ 2 * (N.c 0) * (ab z0.1 z1.1) * (ab z0.1 z3.1) * (sb z2.2 z3.2) + (-2) * ((c.e : ℂ)) ^ 2 * (N.c 1) * (ab z0.1 z1.1) * (ab z0.1 z3.1) * (sb z2.2 z3.2) + (2) * ((c.e : ℂ)) ^ 2 * (ab z0.1 z1.1) * (ab z0.1 z3.1) * (mb z3.2 (p 2) z0.1) * (sb z0.2 z2.2) + (2) * ((c.e : ℂ)) ^ 2 * (ab z0.1 z1.1) * (ab z0.1 z3.1) * (mb z3.2 (p 2) z1.1) * (sb z1.2 z2.2) + (2) * ((c.e : ℂ)) ^ 2 * (ab z0.1 z1.1) * (ab z1.1 z3.1) * (mb z1.2 (p 2) z0.1) * (sb z2.2 z3.2)) * i9 + ((2) * ((c.MW : ℂ)) * ((c.e : ℂ)) ^ 2 * (N.c 0) * (ab z0.1 z1.1) * (ab z2.1 z3.1) + (-2) * ((c.MW : ℂ)) * ((c.e : ℂ)) ^ 2 * (N.c 0) * (ab z0.1 z2.1) * (ab z1.1 z3.1) + (4) * ((c.MW : ℂ)) * ((c.e : ℂ)) ^ 2 * (N.c 1) * (ab z0.1 z1.1) * (ab z2.1 z3.1) + (-3) * ((c.MW : ℂ)) * ((c.e : ℂ)) ^ 2 * (N.c 1) * (ab z0.1 z2.1) * (ab z1.1 z3.1) + (-1) * ((c.MW : ℂ)) * ((c.e : ℂ)) ^ 2 * (ab z0.1 z1.1) * (ab z1.1 z2.1) * (mb z1.2 (p 2) z3.1) + (2) * ((c.e : ℂ)) ^ 2 * (N.c 1) * (ab z0.1 z1.1) * (ab z0.1 z3.1) * (sb z0.2 z2.2) + (2) * ((c.e : ℂ)) ^ 2 * (ab z0.1 z1.1) ^ 2 * (mb z0.2 (p 2) z3.1) * (sb z1.2 z2.2)) * i10 + ((2) * ((c.e : ℂ)) ^ 2 * (ab z0.1 z1.1) * (ab z0.1 z2.1) * (ab z1.1 z3.1) * (mb z3.2 (p 2) z1.1) + (4) * ((c.e : ℂ)) ^ 2 * (ab z0.1 z1.1) ^ 2 * (ab z0.1 z2.1) * (ab z1.1 z3.1) * (sb z0.2 z3.2) + (2) * ((c.e : ℂ)) ^ 2 * (ab z0.1 z1.1) ^ 2 * (ab z1.1 z2.1) * (ab z1.1 z3.1) * (sb z1.2 z3.2)) * i11 + ((2) * ((c.MW : ℂ)) * ((c.e : ℂ)) ^ 2 * (ab z0.1 z1.1) ^ 2 * (ab z0.1 z2.1) * (mb z3.2 (p 2) z1.1) + (-2) * ((c.MW : ℂ)) * ((c.e : ℂ)) ^ 2 * (ab z0.1 z1.1) ^ 2 * (ab z1.1 z2.1) * (mb z3.2 (p 2) z0.1) + (-4) * ((c.MW : ℂ)) * ((c.e : ℂ)) ^ 2 * (ab z0.1 z1.1) ^ 3 * (ab z0.1 z3.1) * (sb z0.2 z2.2) + (2) * ((c.MW : ℂ)) * ((c.e : ℂ)) ^ 2 * (ab z0.1 z1.1) ^ 3 * (ab z1.1 z2.1) * (sb z1.2 z3.2) + (-2) * ((c.MW : ℂ)) * ((c.e : ℂ)) ^ 2 * (ab z0.1 z1.1) ^ 3 * (ab z1.1 z3.1) * (sb z1.2 z2.2) + (2) * ((c.MW : ℂ)) ^ 2 * ((c.e : ℂ)) ^ 2 * (ab z0.1 z1.1) ^ 2 * (ab z0.1 z2.1) * (ab z1.1 z3.1) + (-2) * ((c.MW : ℂ)) ^ 2 * ((c.e : ℂ)) ^ 2 * (ab z0.1 z1.1) ^ 3 * (ab z2.1 z3.1) + (-2) * ((c.e : ℂ)) ^ 2 * (N.c 1) * (ab z0.1 z1.1) ^ 2 * (ab z0.1 z2.1) * (ab z1.1 z3.1) + (-2) * ((c.e : ℂ)) ^ 2 * (N.c 1) * (ab z0.1 z1.1) ^ 3 * (ab z2.1 z3.1)) * i12 + ((2) * ((c.e : ℂ)) ^ 2 * (N.c 0) * (ab z0.1 z1.1) * (ab z0.1 z2.1) * (ab z1.1 z3.1) + (-2) * ((c.e : ℂ)) ^ 2 * (N.c 0) * (ab z0.1 z1.1) ^ 2 * (ab z2.1 z3.1) + (-2) * ((c.e : ℂ)) ^ 2 * (ab z0.1 z1.1) ^ 2 * (ab z1.1 z2.1) * (mb z1.2 (p 2) z3.1)) * i13 + ((-1) * ((c.MW : ℂ)) * ((c.e : ℂ)) ^ 2 * (ab z0.1 z1.1) * (ab z1.1 z2.1) * (ab z2.1 z3.1)) * i14 + ((1) * ((c.MW : ℂ)) * ((c.e : ℂ)) ^ 2 * (ab z0.1 z1.1) * (ab z1.1 z2.1) ^ 2 * (sb z1.2 z3.2) + (-1) * ((c.MW : ℂ)) * ((c.e : ℂ)) ^ 2 * (ab z0.1 z2.1) * (ab z1.1 z2.1) * (mb z3.2 (p 2) z1.1) + (1) * ((c.MW : ℂ)) * ((c.e : ℂ)) ^ 2 * (ab z1.1 z2.1) ^ 2 * (mb z3.2 (p 2) z0.1) + (1) * ((c.MW : ℂ)) ^ 2 * ((c.e : ℂ)) ^ 2 * (ab z0.1 z1.1) * (ab z1.1 z2.1) * (ab z2.1 z3.1) + (-2) * ((c.e : ℂ)) ^ 2 * (N.c 0) * (ab z0.1 z1.1) * (ab z1.1 z2.1) * (sb z2.2 z3.2) + (-1) * ((c.e : ℂ)) ^ 2 * (N.c 0) * (ab z0.1 z2.1) * (ab z1.1 z2.1) * (ab z1.1 z3.1) + (-2) * ((c.e : ℂ)) ^ 2 * (N.c 1) * (ab z0.1 z1.1) * (ab z1.1 z2.1) * (sb z2.2 z3.2) + (-1) * ((c.e : ℂ)) ^ 2 * (N.c 1) * (ab z0.1 z2.1) * (ab z1.1 z2.1) * (ab z1.1 z3.1) + (1) * ((c.e : ℂ)) ^ 2 * (ab z0.1 z1.1) * (ab z0.1 z2.1) * (ab z1.1 z2.1) * (mb z0.2 (p 2) z3.1) + (2) * ((c.e : ℂ)) ^ 2 * (ab z0.1 z1.1) * (ab z1.1 z2.1) * (mb z3.2 (p 2) z0.1) * (sb z0.2 z2.2) + (2) * ((c.e : ℂ)) ^ 2 * (ab z0.1 z1.1) * (ab z1.1 z2.1) * (mb z3.2 (p 2) z1.1) * (sb z1.2 z2.2)) * i15 + ((1) * ((c.MW : ℂ)) ^ 2 * ((c.e : ℂ)) ^ 2 * (ab z0.1 z1.1) ^ 2 * (ab z2.1 z3.1) + (-2) * ((c.e : ℂ)) ^ 2 * (ab z0.1 z1.1) ^ 2 * (ab z1.1 z2.1) * (mb z1.2 (p 2) z3.1)) * i16 + ((2) * ((c.e : ℂ)) ^ 2 * (ab z0.1 z1.1) ^ 3 * (ab z2.1 z3.1) * (sb z1.2 z2.2)) * i17 + ((1) * ((c.MW : ℂ)) * ((c.e : ℂ)) ^ 2 * (N.c 1) * (ab z0.1 z2.1) * (ab z1.1 z2.1) + (-1) * ((c.MW : ℂ)) ^ 2 * ((c.e : ℂ)) ^ 2 * (ab z0.1 z1.1) * (ab z1.1 z2.1) * (sb z1.2 z2.2)) * i18)) * ((1) * ((c.MW : ℂ)⁻¹) ^ 2 * ((N.c 1)⁻¹)) + ((1) * ((c.MW : ℂ)) * (((√2 : ℝ) : ℂ)) ^ 2 * ((c.e : ℂ)) ^ 2 * ((c.MW : ℂ)⁻¹) ^ 2 * (ab z0.1 z1.1) * (ab z0.1 z2.1) * (ab z1.1 z2.1) * (ab z1.1 z3.1) * (sb z1.2 z3.2) + (1) * ((c.MW : ℂ)) * (((√2 : ℝ) : ℂ)) ^ 2 * ((c.e : ℂ)) ^ 2 * ((c.MW : ℂ)⁻¹) ^ 2 * (ab z0.1 z2.1) ^ 2 * (ab z1.1 z3.1) * (mb z3.2 (p 2) z1.1) / (2) + (-1) * (((√2 : ℝ) : ℂ)) ^ 2 * ((c.e : ℂ)) ^ 2 * ((c.MW : ℂ)⁻¹) ^ 2 * (ab z0.1 z1.1) * (ab z0.1 z2.1) * (ab z0.1 z3.1) * (mb z0.2 (p 2) z1.1) * (sb z2.2 z3.2) + (1) * (((√2 : ℝ) : ℂ)) ^ 2 * ((c.e : ℂ)) ^ 2 * ((c.MW : ℂ)⁻¹) ^ 2 * (ab z0.1 z1.1) * (ab z0.1 z2.1) * (ab z1.1 z3.1) * (mb z3.2 (p 2) z1.1) * (sb z1.2 z2.2) + (-2) * ((c.e : ℂ)) ^ 2 * (N.c 1) * ((N.c 1)⁻¹) * (ab z0.1 z1.1) ^ 2 * (sb z2.2 z3.2) ^ 2) * y0 + ((-2) * ((c.MW : ℂ)) * ((c.e : ℂ)) ^ 2 * ((c.MW : ℂ)⁻¹) ^ 2 * (ab z0.1 z1.1) * (ab z0.1 z2.1) * (ab z1.1 z2.1) * (ab z1.1 z3.1) * (sb z1.2 z3.2) + (1) * ((c.MW : ℂ)) * ((c.e : ℂ)) ^ 2 * ((c.MW : ℂ)⁻¹) ^ 2 * (ab z0.1 z3.1) * (ab z1.1 z2.1) ^ 2 * (mb z3.2 (p 2) z0.1) + (-2) * ((c.MW : ℂ)) ^ 2 * ((c.e : ℂ)) ^ 2 * ((c.MW : ℂ)⁻¹) ^ 2 * (ab z0.1 z1.1) ^ 2 * (ab z2.1 z3.1) * (sb z2.2 z3.2) + (2) * ((c.MW : ℂ)) ^ 2 * ((c.e : ℂ)) ^ 2 * ((c.MW : ℂ)⁻¹) ^ 2 * (ab z0.1 z1.1) ^ 2 * (sb z2.2 z3.2) ^ 2 + (2) * ((c.e : ℂ)) ^ 2 * ((c.MW : ℂ)⁻¹) ^ 2 * (ab z0.1 z1.1) * (ab z0.1 z2.1) * (ab z0.1 z3.1) * (mb z0.2 (p 2) z1.1) * (sb z2.2 z3.2) + (-2) * ((c.e : ℂ)) ^ 2 * ((c.MW : ℂ)⁻¹) ^ 2 * (ab z0.1 z1.1) * (ab z0.1 z2.1) * (ab z1.1 z3.1) * (mb z3.2 (p 2) z1.1) * (sb z1.2 z2.2) + (-2) * ((c.e : ℂ)) ^ 2 * (ab z0.1 z1.1) ^ 2 * (sb z2.2 z3.2) ^ 2) * y1 + ((1) * ((c.MW : ℂ)) * (((√2 : ℝ) : ℂ)) ^ 2 * ((c.e : ℂ)) ^ 2 * ((c.MW : ℂ)⁻¹) * (ab z0.1 z1.1) ^ 2 * (ab z2.1 z3.1) * (sb z2.2 z3.2) + (-2) * ((c.MW : ℂ)) * ((c.e : ℂ)) ^ 2 * ((c.MW : ℂ)⁻¹) * (ab z0.1 z1.1) ^ 2 * (ab z2.1 z3.1) * (sb z2.2 z3.2) + (2) * ((c.MW : ℂ)) * ((c.e : ℂ)) ^ 2 * ((c.MW : ℂ)⁻¹) * (ab z0.1 z1.1) ^ 2 * (sb z2.2 z3.2) ^ 2 + (-1) * (((√2 : ℝ) : ℂ)) ^ 2 * ((c.e : ℂ)) ^ 2 * ((c.MW : ℂ)⁻¹) * (N.c 0) * ((N.c 1)⁻¹) * (ab z0.1 z1.1) * (ab z0.1 z3.1) * (ab z1.1 z2.1) ^ 2 * (sb z1.2 z3.2) / (2) + (-1) * (((√2 : ℝ) : ℂ)) ^ 2 * ((c.e : ℂ)) ^ 2 * ((c.MW : ℂ)⁻¹) * (N.c 0) * ((N.c 1)⁻¹) * (ab z0.1 z3.1) * (ab z1.1 z2.1) ^ 2 * (mb z3.2 (p 2) z0.1) / (2) + (1) * (((√2 : ℝ) : ℂ)) ^ 2 * ((c.e : ℂ)) ^ 2 * ((c.MW : ℂ)⁻¹) * ((N.c 1)⁻¹) * (ab z0.1 z1.1) * (ab z1.1 z2.1) ^ 2 * (ab z1.1 z3.1) * (mb z1.2 (p 2) z0.1) * (sb z1.2 z3.2) / (2) + (-1) * (((√2 : ℝ) : ℂ)) ^ 2 * ((c.e : ℂ)) ^ 2 * ((c.MW : ℂ)⁻¹) * ((N.c 1)⁻¹) * (ab z0.1 z1.1) * (ab z1.1 z2.1) ^ 2 * (mb z1.2 (p 2) z0.1) * (mb z3.2 (p 2) z3.1) / (2) + (1) * (((√2 : ℝ) : ℂ)) ^ 2 * ((c.e : ℂ)) ^ 2 * ((c.MW : ℂ)⁻¹) * (ab z0.1 z1.1) * (ab z0.1 z2.1) * (ab z1.1 z2.1) * (ab z1.1 z3.1) * (sb z1.2 z3.2) + (-1) * (((√2 : ℝ) : ℂ)) ^ 2 * ((c.e : ℂ)) ^ 2 * ((c.MW : ℂ)⁻¹) * (ab z0.1 z3.1) * (ab z1.1 z2.1) ^ 2 * (mb z3.2 (p 2) z0.1) / (2) + (1) * (((√2 : ℝ) : ℂ)) ^ 2 * ((c.e : ℂ)) ^ 2 * (ab z0.1 z1.1) ^ 2 * (ab z2.1 z3.1) * (sb z2.2 z3.2) + (1) * ((c.e : ℂ)) ^ 2 * ((c.MW : ℂ)⁻¹) * (N.c 0) * ((N.c 1)⁻¹) * (ab z0.1 z1.1) * (ab z0.1 z3.1) * (ab z1.1 z2.1) ^ 2 * (sb z1.2 z3.2) + (1) * ((c.e : ℂ)) ^ 2 * ((c.MW : ℂ)⁻¹) * (N.c 0) * ((N.c 1)⁻¹) * (ab z0.1 z3.1) * (ab z1.1 z2.1) ^ 2 * (mb z3.2 (p 2) z0.1) + (-1) * ((c.e : ℂ)) ^ 2 * ((c.MW : ℂ)⁻¹) * ((N.c 1)⁻¹) * (ab z0.1 z1.1) * (ab z1.1 z2.1) ^ 2 * (ab z1.1 z3.1) * (mb z1.2 (p 2) z0.1) * (sb z1.2 z3.2) + (1) * ((c.e : ℂ)) ^ 2 * ((c.MW : ℂ)⁻¹) * ((N.c 1)⁻¹) * (ab z0.1 z1.1) * (ab z1.1 z2.1) ^ 2 * (mb z1.2 (p 2) z0.1) * (mb z3.2 (p 2) z3.1) + (-2) * ((c.e : ℂ)) ^ 2 * ((c.MW : ℂ)⁻¹) * (ab z0.1 z1.1) * (ab z0.1 z2.1) * (ab z1.1 z2.1) * (ab z1.1 z3.1) * (sb z1.2 z3.2) + (1) * ((c.e : ℂ)) ^ 2 * ((c.MW : ℂ)⁻¹) * (ab z0.1 z3.1) * (ab z1.1 z2.1) ^ 2 * (mb z3.2 (p 2) z0.1) + (-2) * ((c.e : ℂ)) ^ 2 * (ab z0.1 z1.1) ^ 2 * (ab z2.1 z3.1) * (sb z2.2 z3.2) + (2) * ((c.e : ℂ)) ^ 2 * (ab z0.1 z1.1) ^ 2 * (sb z2.2 z3.2) ^ 2) * yMW + ((-1) * ((c.e : ℂ)) ^ 2 * ((c.MW : ℂ)⁻¹) * (N.c 0) * ((N.c 1)⁻¹) * (ab z0.1 z1.1) * (ab z0.1 z3.1) * (ab z1.1 z2.1) ^ 2 * (sb z1.2 z3.2) / (2) + (-1) * ((c.e : ℂ)) ^ 2 * ((c.MW : ℂ)⁻¹) * (N.c 0) * ((N.c 1)⁻¹) * (ab z0.1 z3.1) * (ab z1.1 z2.1) ^ 2 * (mb z3.2 (p 2) z0.1) / (2) + (1) * ((c.e : ℂ)) ^ 2 * ((c.MW : ℂ)⁻¹) * ((N.c 1)⁻¹) * (ab z0.1 z1.1) * (ab z1.1 z2.1) ^ 2 * (ab z1.1 z3.1) * (mb z1.2 (p 2) z0.1) * (sb z1.2 z3.2) / (2) + (-1) * ((c.e : ℂ)) ^ 2 * ((c.MW : ℂ)⁻¹) * ((N.c 1)⁻¹) * (ab z0.1 z1.1) * (ab z1.1 z2.1) ^ 2 * (mb z1.2 (p 2) z0.1) * (mb z3.2 (p 2) z3.1) / (2) + (1) * ((c.e : ℂ)) ^ 2 * ((c.MW : ℂ)⁻¹) * (ab z0.1 z1.1) * (ab z0.1 z2.1) * (ab z1.1 z2.1) * (ab z1.1 z3.1) * (sb z1.2 z3.2) + (-1) * ((c.e : ℂ)) ^ 2 * ((c.MW : ℂ)⁻¹) * (ab z0.1 z3.1) * (ab z1.1 z2.1) ^ 2 * (mb z3.2 (p 2) z0.1) / (2) + (-1) * ((c.e : ℂ)) ^ 2 * ((c.MW : ℂ)⁻¹) ^ 2 * (N.c 0) * ((N.c 1)⁻¹) * (ab z0.1 z1.1) * (ab z0.1 z3.1) * (ab z1.1 z2.1) * (mb z3.2 (p 2) z1.1) * (sb z1.2 z2.2) + (1) * ((c.e : ℂ)) ^ 2 * ((c.MW : ℂ)⁻¹) ^ 2 * ((N.c 1)⁻¹) * (ab z0.1 z1.1) * (ab z1.1 z2.1) * (ab z1.1 z3.1) * (mb z1.2 (p 2) z0.1) * (mb z3.2 (p 2) z1.1) * (sb z1.2 z2.2) + (-1) * ((c.e : ℂ)) ^ 2 * ((c.MW : ℂ)⁻¹) ^ 2 * (ab z0.1 z1.1) * (ab z0.1 z2.1) * (ab z0.1 z3.1) * (mb z0.2 (p 2) z1.1) * (sb z2.2 z3.2) + (1) * ((c.e : ℂ)) ^ 2 * ((c.MW : ℂ)⁻¹) ^ 2 * (ab z0.1 z1.1) * (ab z0.1 z2.1) * (ab z1.1 z3.1) * (mb z3.2 (p 2) z1.1) * (sb z1.2 z2.2) + (1) * ((c.e : ℂ)) ^ 2 * (ab z0.1 z1.1) ^ 2 * (ab z2.1 z3.1) * (sb z2.2 z3.2)) * x22
set_option maxRecDepth 8000 in
theorem AAWW.amp2_eq (N : Env) (f : Nat → List Int → ℂ) : Cls.AAWW.m_amp2.mean N f .r [] =
    ((sumW (fun x a => (sumW (fun x b => (sumV (fun x c => (sumV (fun x d => (x + (‖(f 0 [a, b, c, d])‖ ^ 2))) x)) x)) x)) ((0 : Nat) : ℝ)) / ((4 : Nat) : ℝ)) := by rfl
set_option maxRecDepth 8000 in
theorem AAWW.value (N : Env) : meaning N .r Cls.AAWW.methods Cls.AAWW.amp2 [] =
    ((sumW (fun x a => (sumW (fun x b => (sumV (fun x c => (sumV (fun x d => (x + (‖(Cls.AAWW.m_amp.mean N (callMean N []) .c [a, b, c, d])‖ ^ 2))) x)) x)) x)) ((0 : Nat) : ℝ)) / ((4 : Nat) : ℝ)) :=
  AAWW.amp2_eq N (callMean N [Cls.AAWW.m_amp])
theorem AAWW.termPP_lin (N : Env) (w : ℝ) (x : ℂ) (a2 b2 a3 b3 : Int) : AAWW.termPP N w x a2 b2 a3 b3 = x + (w : ℂ) * AAWW.termPP N 1 0 a2 b2 a3 b3 := by
  simp only [AAWW.termPP]; push_cast; ring
theorem AAWW.termPM_lin (N : Env) (w : ℝ) (x : ℂ) (a2 b2 a3 b3 : Int) : AAWW.termPM N w x a2 b2 a3 b3 = x + (w : ℂ) * AAWW.termPM N 1 0 a2 b2 a3 b3 := by
  simp only [AAWW.termPM]; push_cast; ring
theorem AAWW.termMP_lin (N : Env) (w : ℝ) (x : ℂ) (a2 b2 a3 b3 : Int) : AAWW.termMP N w x a2 b2 a3 b3 = x + (w : ℂ) * AAWW.termMP N 1 0 a2 b2 a3 b3 := by
  simp only [AAWW.termMP]; push_cast; ring
theorem AAWW.termMM_lin (N : Env) (w : ℝ) (x : ℂ) (a2 b2 a3 b3 : Int) : AAWW.termMM N w x a2 b2 a3 b3 = x + (w : ℂ) * AAWW.termMM N 1 0 a2 b2 a3 b3 := by
  simp only [AAWW.termMM]; push_cast; ring
set_option maxRecDepth 8000 in
theorem AAWW.ampPP (N : Env) (f : Nat → List Int → ℂ) (t2 t3 : Fin 3) : Cls.AAWW.m_amp.mean N f .c [2, 2, spinV t2, spinV t3] = comb t2 (fun a2 b2 => comb t3 (fun a3 b3 => AAWW.termPP N 1 0 (spinOf a2) (spinOf b2) (spinOf a3) (spinOf b3))) := by
  refine (amp_mean N f (m := 4) (K := 8) (G := fun i => if (decide (0 < i 0) && decide (0 < i 1)) = true then AAWW.termPP N 1 0 (i 4) (i 5) (i 6) (i 7) else if (decide (0 < i 0) && decide (i 1 < 0)) = true then AAWW.termPM N 1 0 (i 4) (i 5) (i 6) (i 7) else if (decide (i 0 < 0) && decide (0 < i 1)) = true then AAWW.termMP N 1 0 (i 4) (i 5) (i 6) (i 7) else if (decide (i 0 < 0) && decide (i 1 < 0)) = true then AAWW.termMM N 1 0 (i 4) (i 5) (i 6) (i 7) else 0) (fun l => ?_) (fun i i' h => ?_) rfl (by decide) (by decide) (by decide) (by decide) (by decide)).trans ?_
  · by_cases g0 : (decide (0 < l.i 0) && decide (0 < l.i 1)) = true
    · refine ⟨_, (if_pos g0).trans rfl, rfl, rfl, ?_⟩; rw [if_pos g0]; exact AAWW.termPP_lin ..
    · by_cases g1 : (decide (0 < l.i 0) && decide (l.i 1 < 0)) = true
      · refine ⟨_, (if_neg g0).trans ((if_pos g1).trans rfl), rfl, rfl, ?_⟩; rw [if_neg g0, if_pos g1]; exact AAWW.termPM_lin ..
      · by_cases g2 : (decide (l.i 0 < 0) && decide (0 < l.i 1)) = true
        · refine ⟨_, (if_neg g0).trans ((if_neg g1).trans ((if_pos g2).trans rfl)), rfl, rfl, ?_⟩; rw [if_neg g0, if_neg g1, if_pos g2]; exact AAWW.termMP_lin ..
        · by_cases g3 : (decide (l.i 0 < 0) && decide (l.i 1 < 0)) = true
          · refine ⟨_, (if_neg g0).trans ((if_neg g1).trans ((if_neg g2).trans ((if_pos g3).trans rfl))), rfl, rfl, ?_⟩; rw [if_neg g0, if_neg g1, if_neg g2, if_pos g3]; exact AAWW.termMM_lin ..
          · refine ⟨_, (if_neg g0).trans ((if_neg g1).trans ((if_neg g2).trans ((if_neg g3).trans (rfl)))), rfl, rfl, ?_⟩; rw [if_neg g0, if_neg g1, if_neg g2, if_neg g3, mul_zero, add_zero]
  · simp only [h 0 (by decide), h 1 (by decide), h 4 (by decide), h 5 (by decide), h 6 (by decide), h 7 (by decide)]
  · show amp' _ [spinV t2, spinV t3] = _
    simp only [amp'_comb, amp'_nil]
    rfl
theorem AAWW.formPP_x2 (N : Env) (p : Nat → V4 ℝ) (z0 z1 y2 x3 y3 x y : Pair) : AAWW.formPP N p z0 z1 (x + y) y2 x3 y3 = AAWW.formPP N p z0 z1 x y2 x3 y3 + AAWW.formPP N p z0 z1 y y2 x3 y3 := by
  simp only [AAWW.formPP, Prod.fst_add, Prod.snd_add, ab_add_left, ab_add_right, sb_add_left, sb_add_right, mb_add_left, mb_add_right]
  ring
theorem AAWW.formPP_y2 (N : Env) (p : Nat → V4 ℝ) (z0 z1 x2 x3 y3 x y : Pair) : AAWW.formPP N p z0 z1 x2 (x + y) x3 y3 = AAWW.formPP N p z0 z1 x2 x x3 y3 + AAWW.formPP N p z0 z1 x2 y x3 y3 := by
  simp only [AAWW.formPP, Prod.fst_add, Prod.snd_add, ab_add_left, ab_add_right, sb_add_left, sb_add_right, mb_add_left, mb_add_right]
  ring
theorem AAWW.formPP_x3 (N : Env) (p : Nat → V4 ℝ) (z0 z1 x2 y2 y3 x y : Pair) : AAWW.formPP N p z0 z1 x2 y2 (x + y) y3 = AAWW.formPP N p z0 z1 x2 y2 x y3 + AAWW.formPP N p z0 z1 x2 y2 y y3 := by
  simp only [AAWW.formPP, Prod.fst_add, Prod.snd_add, ab_add_left, ab_add_right, sb_add_left, sb_add_right, mb_add_left, mb_add_right]
  ring
theorem AAWW.formPP_y3 (N : Env) (p : Nat → V4 ℝ) (z0 z1 x2 y2 x3 x y : Pair) : AAWW.formPP N p z0 z1 x2 y2 x3 (x + y) = AAWW.formPP N p z0 z1 x2 y2 x3 x + AAWW.formPP N p z0 z1 x2 y2 x3 y := by
  simp only [AAWW.formPP, Prod.fst_add, Prod.snd_add, ab_add_left, ab_add_right, sb_add_left, sb_add_right, mb_add_left, mb_add_right]
  ring
set_option maxRecDepth 8000 in
theorem AAWW.ampPM (N : Env) (f : Nat → List Int → ℂ) (t2 t3 : Fin 3) : Cls.AAWW.m_amp.mean N f .c [2, (-2), spinV t2, spinV t3] = comb t2 (fun a2 b2 => comb t3 (fun a3 b3 => AAWW.termPM N 1 0 (spinOf a2) (spinOf b2) (spinOf a3) (spinOf b3))) := by
  refine (amp_mean N f (m := 4) (K := 8) (G := fun i => if (decide (0 < i 0) && decide (0 < i 1)) = true then AAWW.termPP N 1 0 (i 4) (i 5) (i 6) (i 7) else if (decide (0 < i 0) && decide (i 1 < 0)) = true then AAWW.termPM N 1 0 (i 4) (i 5) (i 6) (i 7) else if (decide (i 0 < 0) && decide (0 < i 1)) = true then AAWW.termMP N 1 0 (i 4) (i 5) (i 6) (i 7) else if (decide (i 0 < 0) && decide (i 1 < 0)) = true then AAWW.termMM N 1 0 (i 4) (i 5) (i 6) (i 7) else 0) (fun l => ?_) (fun i i' h => ?_) rfl (by decide) (by decide) (by decide) (by decide) (by decide)).trans ?_
  · by_cases g0 : (decide (0 < l.i 0) && decide (0 < l.i 1)) = true
    · refine ⟨_, (if_pos g0).trans rfl, rfl, rfl, ?_⟩; rw [if_pos g0]; exact AAWW.termPP_lin ..
    · by_cases g1 : (decide (0 < l.i 0) && decide (l.i 1 < 0)) = true
      · refine ⟨_, (if_neg g0).trans ((if_pos g1).trans rfl), rfl, rfl, ?_⟩; rw [if_neg g0, if_pos g1]; exact AAWW.termPM_lin ..
      · by_cases g2 : (decide (l.i 0 < 0) && decide (0 < l.i 1)) = true
        · refine ⟨_, (if_neg g0).trans ((if_neg g1).trans ((if_pos g2).trans rfl)), rfl, rfl, ?_⟩; rw [if_neg g0, if_neg g1, if_pos g2]; exact AAWW.termMP_lin ..
        · by_cases g3 : (decide (l.i 0 < 0) && decide (l.i 1 < 0)) = true
          · refine ⟨_, (if_neg g0).trans ((if_neg g1).trans ((if_neg g2).trans ((if_pos g3).trans rfl))), rfl, rfl, ?_⟩; rw [if_neg g0, if_neg g1, if_neg g2, if_pos g3]; exact AAWW.termMM_lin ..
          · refine ⟨_, (if_neg g0).trans ((if_neg g1).trans ((if_neg g2).trans ((if_neg g3).trans (rfl)))), rfl, rfl, ?_⟩; rw [if_neg g0, if_neg g1, if_neg g2, if_neg g3, mul_zero, add_zero]
  · simp only [h 0 (by decide), h 1 (by decide), h 4 (by decide), h 5 (by decide), h 6 (by decide), h 7 (by decide)]
  · show amp' _ [spinV t2, spinV t3] = _
    simp only [amp'_comb, amp'_nil]
    rfl
theorem AAWW.formPM_x2 (N : Env) (p : Nat → V4 ℝ) (z0 z1 y2 x3 y3 x y : Pair) : AAWW.formPM N p z0 z1 (x + y) y2 x3 y3 = AAWW.formPM N p z0 z1 x y2 x3 y3 + AAWW.formPM N p z0 z1 y y2 x3 y3 := by
  simp only [AAWW.formPM, Prod.fst_add, Prod.snd_add, ab_add_left, ab_add_right, sb_add_left, sb_add_right, mb_add_left, mb_add_right]
  ring
theorem AAWW.formPM_y2 (N : Env) (p : Nat → V4 ℝ) (z0 z1 x2 x3 y3 x y : Pair) : AAWW.formPM N p z0 z1 x2 (x + y) x3 y3 = AAWW.formPM N p z0 z1 x2 x x3 y3 + AAWW.formPM N p z0 z1 x2 y x3 y3 := by
  simp only [AAWW.formPM, Prod.fst_add, Prod.snd_add, ab_add_left, ab_add_right, sb_add_left, sb_add_right, mb_add_left, mb_add_right]
  ring
theorem AAWW.formPM_x3 (N : Env) (p : Nat → V4 ℝ) (z0 z1 x2 y2 y3 x y : Pair) : AAWW.formPM N p z0 z1 x2 y2 (x + y) y3 = AAWW.formPM N p z0 z1 x2 y2 x y3 + AAWW.formPM N p z0 z1 x2 y2 y y3 := by
  simp only [AAWW.formPM, Prod.fst_add, Prod.snd_add, ab_add_left, ab_add_right, sb_add_left, sb_add_right, mb_add_left, mb_add_right]
  ring
theorem AAWW.formPM_y3 (N : Env) (p : Nat → V4 ℝ) (z0 z1 x2 y2 x3 x y : Pair) : AAWW.formPM N p z0 z1 x2 y2 x3 (x + y) = AAWW.formPM N p z0 z1 x2 y2 x3 x + AAWW.formPM N p z0 z1 x2 y2 x3 y := by
  simp only [AAWW.formPM, Prod.fst_add, Prod.snd_add, ab_add_left, ab_add_right, sb_add_left, sb_add_right, mb_add_left, mb_add_right]
  ring
set_option maxRecDepth 8000 in
theorem AAWW.ampMP (N : Env) (f : Nat → List Int → ℂ) (t2 t3 : Fin 3) : Cls.AAWW.m_amp.mean N f .c [(-2), 2, spinV t2, spinV t3] = comb t2 (fun a2 b2 => comb t3 (fun a3 b3 => AAWW.termMP N 1 0 (spinOf a2) (spinOf b2) (spinOf a3) (spinOf b3))) := by
  refine (amp_mean N f (m := 4) (K := 8) (G := fun i => if (decide (0 < i 0) && decide (0 < i 1)) = true then AAWW.termPP N 1 0 (i 4) (i 5) (i 6) (i 7) else if (decide (0 < i 0) && decide (i 1 < 0)) = true then AAWW.termPM N 1 0 (i 4) (i 5) (i 6) (i 7) else if (decide (i 0 < 0) && decide (0 < i 1)) = true then AAWW.termMP N 1 0 (i 4) (i 5) (i 6) (i 7) else if (decide (i 0 < 0) && decide (i 1 < 0)) = true then AAWW.termMM N 1 0 (i 4) (i 5) (i 6) (i 7) else 0) (fun l => ?_) (fun i i' h => ?_) rfl (by decide) (by decide) (by decide) (by decide) (by decide)).trans ?_
  · by_cases g0 : (decide (0 < l.i 0) && decide (0 < l.i 1)) = true
    · refine ⟨_, (if_pos g0).trans rfl, rfl, rfl, ?_⟩; rw [if_pos g0]; exact AAWW.termPP_lin ..
    · by_cases g1 : (decide (0 < l.i 0) && decide (l.i 1 < 0)) = true
      · refine ⟨_, (if_neg g0).trans ((if_pos g1).trans rfl), rfl, rfl, ?_⟩; rw [if_neg g0, if_pos g1]; exact AAWW.termPM_lin ..
      · by_cases g2 : (decide (l.i 0 < 0) && decide (0 < l.i 1)) = true
        · refine ⟨_, (if_neg g0).trans ((if_neg g1).trans ((if_pos g2).trans rfl)), rfl, rfl, ?_⟩; rw [if_neg g0, if_neg g1, if_pos g2]; exact AAWW.termMP_lin ..
        · by_cases g3 : (decide (l.i 0 < 0) && decide (l.i 1 < 0)) = true
          · refine ⟨_, (if_neg g0).trans ((if_neg g1).trans ((if_neg g2).trans ((if_pos g3).trans rfl))), rfl, rfl, ?_⟩; rw [if_neg g0, if_neg g1, if_neg g2, if_pos g3]; exact AAWW.termMM_lin ..
          · refine ⟨_, (if_neg g0).trans ((if_neg g1).trans ((if_neg g2).trans ((if_neg g3).trans (rfl)))), rfl, rfl, ?_⟩; rw [if_neg g0, if_neg g1, if_neg g2, if_neg g3, mul_zero, add_zero]
  · simp only [h 0 (by decide), h 1 (by decide), h 4 (by decide), h 5 (by decide), h 6 (by decide), h 7 (by decide)]
  · show amp' _ [spinV t2, spinV t3] = _
    simp only [amp'_comb, amp'_nil]
    rfl
theorem AAWW.formMP_x2 (N : Env) (p : Nat → V4 ℝ) (z0 z1 y2 x3 y3 x y : Pair) : AAWW.formMP N p z0 z1 (x + y) y2 x3 y3 = AAWW.formMP N p z0 z1 x y2 x3 y3 + AAWW.formMP N p z0 z1 y y2 x3 y3 := by
  simp only [AAWW.formMP, Prod.fst_add, Prod.snd_add, ab_add_left, ab_add_right, sb_add_left, sb_add_right, mb_add_left, mb_add_right]
  ring
theorem AAWW.formMP_y2 (N : Env) (p : Nat → V4 ℝ) (z0 z1 x2 x3 y3 x y : Pair) : AAWW.formMP N p z0 z1 x2 (x + y) x3 y3 = AAWW.formMP N p z0 z1 x2 x x3 y3 + AAWW.formMP N p z0 z1 x2 y x3 y3 := by
  simp only [AAWW.formMP, Prod.fst_add, Prod.snd_add, ab_add_left, ab_add_right, sb_add_left, sb_add_right, mb_add_left, mb_add_right]
  ring
theorem AAWW.formMP_x3 (N : Env) (p : Nat → V4 ℝ) (z0 z1 x2 y2 y3 x y : Pair) : AAWW.formMP N p z0 z1 x2 y2 (x + y) y3 = AAWW.formMP N p z0 z1 x2 y2 x y3 + AAWW.formMP N p z0 z1 x2 y2 y y3 := by
  simp only [AAWW.formMP, Prod.fst_add, Prod.snd_add, ab_add_left, ab_add_right, sb_add_left, sb_add_right, mb_add_left, mb_add_right]
  ring
theorem AAWW.formMP_y3 (N : Env) (p : Nat → V4 ℝ) (z0 z1 x2 y2 x3 x y : Pair) : AAWW.formMP N p z0 z1 x2 y2 x3 (x + y) = AAWW.formMP N p z0 z1 x2 y2 x3 x + AAWW.formMP N p z0 z1 x2 y2 x3 y := by
  simp only [AAWW.formMP, Prod.fst_add, Prod.snd_add, ab_add_left, ab_add_right, sb_add_left, sb_add_right, mb_add_left, mb_add_right]
  ring
set_option maxRecDepth 8000 in
theorem AAWW.ampMM (N : Env) (f : Nat → List Int → ℂ) (t2 t3 : Fin 3) : Cls.AAWW.m_amp.mean N f .c [(-2), (-2), spinV t2, spinV t3] = comb t2 (fun a2 b2 => comb t3 (fun a3 b3 => AAWW.termMM N 1 0 (spinOf a2) (spinOf b2) (spinOf a3) (spinOf b3))) := by
  refine (amp_mean N f (m := 4) (K := 8) (G := fun i => if (decide (0 < i 0) && decide (0 < i 1)) = true then AAWW.termPP N 1 0 (i 4) (i 5) (i 6) (i 7) else if (decide (0 < i 0) && decide (i 1 < 0)) = true then AAWW.termPM N 1 0 (i 4) (i 5) (i 6) (i 7) else if (decide (i 0 < 0) && decide (0 < i 1)) = true then AAWW.termMP N 1 0 (i 4) (i 5) (i 6) (i 7) else if (decide (i 0 < 0) && decide (i 1 < 0)) = true then AAWW.termMM N 1 0 (i 4) (i 5) (i 6) (i 7) else 0) (fun l => ?_) (fun i i' h => ?_) rfl (by decide) (by decide) (by decide) (by decide) (by decide)).trans ?_
  · by_cases g0 : (decide (0 < l.i 0) && decide (0 < l.i 1)) = true
    · refine ⟨_, (if_pos g0).trans rfl, rfl, rfl, ?_⟩; rw [if_pos g0]; exact AAWW.termPP_lin ..
    · by_cases g1 : (decide (0 < l.i 0) && decide (l.i 1 < 0)) = true
      · refine ⟨_, (if_neg g0).trans ((if_pos g1).trans rfl), rfl, rfl, ?_⟩; rw [if_neg g0, if_pos g1]; exact AAWW.termPM_lin ..
      · by_cases g2 : (decide (l.i 0 < 0) && decide (0 < l.i 1)) = true
        · refine ⟨_, (if_neg g0).trans ((if_neg g1).trans ((if_pos g2).trans rfl)), rfl, rfl, ?_⟩; rw [if_neg g0, if_neg g1, if_pos g2]; exact AAWW.termMP_lin ..
        · by_cases g3 : (decide (l.i 0 < 0) && decide (l.i 1 < 0)) = true
          · refine ⟨_, (if_neg g0).trans ((if_neg g1).trans ((if_neg g2).trans ((if_pos g3).trans rfl))), rfl, rfl, ?_⟩; rw [if_neg g0, if_neg g1, if_neg g2, if_pos g3]; exact AAWW.termMM_lin ..
          · refine ⟨_, (if_neg g0).trans ((if_neg g1).trans ((if_neg g2).trans ((if_neg g3).trans (rfl)))), rfl, rfl, ?_⟩; rw [if_neg g0, if_neg g1, if_neg g2, if_neg g3, mul_zero, add_zero]
  · simp only [h 0 (by decide), h 1 (by decide), h 4 (by decide), h 5 (by decide), h 6 (by decide), h 7 (by decide)]
  · show amp' _ [spinV t2, spinV t3] = _
    simp only [amp'_comb, amp'_nil]
    rfl
theorem AAWW.formMM_x2 (N : Env) (p : Nat → V4 ℝ) (z0 z1 y2 x3 y3 x y : Pair) : AAWW.formMM N p z0 z1 (x + y) y2 x3 y3 = AAWW.formMM N p z0 z1 x y2 x3 y3 + AAWW.formMM N p z0 z1 y y2 x3 y3 := by
  simp only [AAWW.formMM, Prod.fst_add, Prod.snd_add, ab_add_left, ab_add_right, sb_add_left, sb_add_right, mb_add_left, mb_add_right]
  ring
theorem AAWW.formMM_y2 (N : Env) (p : Nat → V4 ℝ) (z0 z1 x2 x3 y3 x y : Pair) : AAWW.formMM N p z0 z1 x2 (x + y) x3 y3 = AAWW.formMM N p z0 z1 x2 x x3 y3 + AAWW.formMM N p z0 z1 x2 y x3 y3 := by
  simp only [AAWW.formMM, Prod.fst_add, Prod.snd_add, ab_add_left, ab_add_right, sb_add_left, sb_add_right, mb_add_left, mb_add_right]
  ring
theorem AAWW.formMM_x3 (N : Env) (p : Nat → V4 ℝ) (z0 z1 x2 y2 y3 x y : Pair) : AAWW.formMM N p z0 z1 x2 y2 (x + y) y3 = AAWW.formMM N p z0 z1 x2 y2 x y3 + AAWW.formMM N p z0 z1 x2 y2 y y3 := by
  simp only [AAWW.formMM, Prod.fst_add, Prod.snd_add, ab_add_left, ab_add_right, sb_add_left, sb_add_right, mb_add_left, mb_add_right]
  ring
theorem AAWW.formMM_y3 (N : Env) (p : Nat → V4 ℝ) (z0 z1 x2 y2 x3 x y : Pair) : AAWW.formMM N p z0 z1 x2 y2 x3 (x + y) = AAWW.formMM N p z0 z1 x2 y2 x3 x + AAWW.formMM N p z0 z1 x2 y2 x3 y := by
  simp only [AAWW.formMM, Prod.fst_add, Prod.snd_add, ab_add_left, ab_add_right, sb_add_left, sb_add_right, mb_add_left, mb_add_right]
  ring

theorem AAWW.mass_eq {c : Constants} (hc : c.Physical) (i : Fin 4) : AAWW.proc.massNum (AAWW.rho c) i = AAWW.react.mass c i := by
  fin_cases i <;> first | rfl | exact Nat.cast_zero | (show c.MW / √(((1 : Nat) : ℝ) - c.SW * c.SW) = c.MZ; rw [c.root, c.mz])

variable [FPEnv] in
theorem AAWW.amps {c : Constants} {p : Nat → V4 ℝ} {u : Fin 4 → Fin 3 → Spinor} {ε : Fin 4 → Fin 3 → Vec} (hc : c.Physical) (hh : c.Heavy) (hw : ∀ q ∈ AAWW.absent, c.get q = 0) (h0 : ∀ i, 0 ≤ AAWW.react.mass c i) (hs : ∀ i : Fin 4, OnShell (p i) (AAWW.react.mass c i)) (hb : Balanced p) (hr : AAWW.react.Regular c p) (hu : ∀ i, AAWW.react.Complete c p i (u i) (ε i)) :
    (AAWW.N c p).c 0 ≠ 0 ∧ (AAWW.N c p).c 1 ≠ 0 ∧ (∀ n, (Ty.r, n) ∈ AAWW.proc.divides → (AAWW.N c p).r n ≠ 0) ∧ (∀ n, (Ty.c, n) ∈ AAWW.proc.divides → (AAWW.N c p).c n ≠ 0) ∧ ∀ (h0 : Fin 2) (h1 : Fin 2) (t2 t3 : Fin 3), ‖Cls.AAWW.m_amp.mean (AAWW.N c p) (callMean (AAWW.N c p) []) .c [spinW h0, spinW h1, spinV t2, spinV t3]‖ = ‖AAWW.react.bare4 c p (lightE (legA (p 0) 0 0, legS (p 0) 0 1) h0.castSucc) (lightE (legA (p 1) 0 0, legS (p 1) 0 1) h1.castSucc) (AAWW.react.codeVec c p 2 t2) (AAWW.react.codeVec c p 3 t3)‖ := by
  have he : AAWW.react.ends = [] := by decide
  have ht : AAWW.react.starts = [] := by decide
  have hB : AAWW.react.bosons = [0, 1, 2, 3] := by decide
  obtain ⟨f1, f2, f3⟩ := AAWW.react.regular_four he ht hB hr
  have hWW : c.WW = 0 := hw .WW (by simp [AAWW])
  have hG : AAWW.react.Gauge c p := AAWW.gauge hc.MW hWW hb (fun n => onShell_msq (hs n)) hr
  have r0 : (AAWW.N c p).r 0 = c.e := rfl
  have c0 : (AAWW.N c p).c 0 = poleDist c.MW c.WW ((VExp.sub 0 2).sum p) := rfl
  have d0 : pole c.MW c.WW (plus (p 0) (backward (p 2))) = (AAWW.N c p).c 0 := by rw [c0, pole_congr (msq_t hb (plus (p 0) (backward (p 2))) (by simp)).symm]
  have n0 : (AAWW.N c p).c 0 ≠ 0 := by rw [← d0]; exact star_ne_zero.2 (f2 .wMinus rfl rfl)
  rw [hWW, pole_fermion rfl] at c0
  have c1 : (AAWW.N c p).c 1 = poleDist c.MW c.WW ((VExp.sub 0 3).sum p) := rfl
  have d1 : pole c.MW c.WW (plus (p 0) (backward (p 3))) = (AAWW.N c p).c 1 := by rw [c1, pole_congr (msq_u hb (plus (p 0) (backward (p 3))) (by simp)).symm]
  have n1 : (AAWW.N c p).c 1 ≠ 0 := by rw [← d1]; exact star_ne_zero.2 (f3 .wPlus rfl rfl)
  rw [hWW, pole_fermion rfl] at c1
  obtain ⟨l0, x0, y0⟩ := AAWW.react.code_light hs hu (n := 0) rfl rfl
  obtain ⟨l1, x1, y1⟩ := AAWW.react.code_light hs hu (n := 1) rfl rfl
  have e02 := l0.pole_sub (m := c.MW) (onShell_msq (hs 2)) (msq_t hb (plus (p 0) (backward (p 2))) (by simp)) c0
  have e03 := l0.pole_sub (m := c.MW) (onShell_msq (hs 3)) (msq_u hb (plus (p 0) (backward (p 3))) (by simp)) c1
  have e12 := l1.pole_sub (m := c.MW) (onShell_msq (hs 2)) (msq_u hb (plus (p 1) (backward (p 2))) (by simp)) c1
  have e13 := l1.pole_sub (m := c.MW) (onShell_msq (hs 3)) (msq_t hb (plus (p 1) (backward (p 3))) (by simp)) c0
  have m2 : AAWW.react.mass c 2 ≠ 0 := (leg_pos hc hh (by decide)).ne'
  have m3 : AAWW.react.mass c 3 ≠ 0 := (leg_pos hc hh (by decide)).ne'
  have m0 : AAWW.react.mass c 0 = 0 := rfl
  have m1 : AAWW.react.mass c 1 = 0 := rfl
  have g0 : ab (refPlus (p 2) (legA (p 0) 0 0, legS (p 0) 0 1)) (legA (p 0) 0 0) ≠ 0 := fun h => (neg_ne_zero.2 n0) (e02.symm.trans ((ab_ref ..).symm.trans h))
  have j0 : sb (refMinus (p 2) (legA (p 0) 0 0, legS (p 0) 0 1)) (legS (p 0) 0 1) ≠ 0 := fun h => (neg_ne_zero.2 n0) (e02.symm.trans ((sb_ref ..).symm.trans h))
  have g1 : ab (refPlus (p 2) (legA (p 1) 0 0, legS (p 1) 0 1)) (legA (p 1) 0 0) ≠ 0 := fun h => (neg_ne_zero.2 n1) (e12.symm.trans ((ab_ref ..).symm.trans h))
  have j1 : sb (refMinus (p 2) (legA (p 1) 0 0, legS (p 1) 0 1)) (legS (p 1) 0 1) ≠ 0 := fun h => (neg_ne_zero.2 n1) (e12.symm.trans ((sb_ref ..).symm.trans h))
  have hd : AAWW.proc.divides = [(Ty.c, 0), (Ty.c, 1)] := by decide +kernel
  have stPP : ∀ (t2 t3 : Fin 3), comb t2 (fun a2 b2 => comb t3 (fun a3 b3 => AAWW.formPP (AAWW.N c p) p (legA (p 0) 0 0, legS (p 0) 0 1) (legA (p 1) 0 0, legS (p 1) 0 1) (AAWW.react.codePair c p 2 a2) (AAWW.react.codePair c p 2 b2) (AAWW.react.codePair c p 3 a3) (AAWW.react.codePair c p 3 b3))) = (-1) * AAWW.react.bare4 c p (lightE (legA (p 0) 0 0, legS (p 0) 0 1) 1) (lightE (legA (p 1) 0 0, legS (p 1) 0 1) 1) (AAWW.react.codeVec c p 2 t2) (AAWW.react.codeVec c p 3 t3) := by
    intro t2 t3
    refine two_vectors (p := p 2) (m := AAWW.react.mass c 2) (p' := p 3) (m' := AAWW.react.mass c 3) (fun s => AAWW.react.codePair_bold hs h0 2 s) (fun s => AAWW.react.codePair_bold hs h0 3 s) (B := fun w0 w0b w1 w1b => AAWW.formPP (AAWW.N c p) p (legA (p 0) 0 0, legS (p 0) 0 1) (legA (p 1) 0 0, legS (p 1) 0 1) w0 w0b w1 w1b) (fun _ _ _ _ _ => ?_) (fun _ _ _ _ _ => ?_) (fun _ _ _ _ _ => ?_) (fun _ _ _ _ _ => ?_) (G := fun E F => AAWW.react.bare4 c p (lightE (legA (p 0) 0 0, legS (p 0) 0 1) 1) (lightE (legA (p 1) 0 0, legS (p 1) 0 1) 1) E F) (fun _ => AAWW.react.bare4_lin₂ c p (by decide) _ _ _) (fun _ => AAWW.react.bare4_lin₃ c p (by decide) _ _ _) (-1) (fun z2 z3 b2 b3 => ?_) t2 t3
    · exact AAWW.formPP_x2 ..
    · exact AAWW.formPP_y2 ..
    · exact AAWW.formPP_x3 ..
    · exact AAWW.formPP_y3 ..
    · have k0 := AAWW.keyPP hc hb r0 d0 n0 d1 n1 b2 b3 l0 l1 e02 e03 e12 e13 (onShell_msq (hs 2)) (onShell_msq (hs 3)) (ab_ref (p 2) (legA (p 0) 0 0, legS (p 0) 0 1)) (ab_ref (p 2) (legA (p 1) 0 0, legS (p 1) 0 1))
      have w1 : AAWW.react.bare4 c p (pv (refPlus (p 2) (legA (p 0) 0 0, legS (p 0) 0 1)) (legA (p 0) 0 0, legS (p 0) 0 1).2) (four (p 1)) (pv z2.1 z2.2) (pv z3.1 z3.2) = 0 := by
        refine AAWW.react.bare4_gauge he ht hB hG (n := 1) rfl rfl ![(pv (refPlus (p 2) (legA (p 0) 0 0, legS (p 0) 0 1)) (legA (p 0) 0 0, legS (p 0) 0 1).2), four (p 1), (pv z2.1 z2.2), (pv z3.1 z3.2)] (fun m hm x hl hx => ?_) rfl
        fin_cases m
        · exact pv_transverse (l0.mb_plus _)
        · exact absurd rfl hm
        · exact pv_transverse b2.mb_zero'
        · exact pv_transverse b3.mb_zero'
      have k1 := light_plus_ref (z := (legA (p 1) 0 0, legS (p 1) 0 1)) (G := fun E => AAWW.react.bare4 c p (pv (refPlus (p 2) (legA (p 0) 0 0, legS (p 0) 0 1)) (legA (p 0) 0 0, legS (p 0) 0 1).2) E (pv z2.1 z2.2) (pv z3.1 z3.2)) l1 (AAWW.react.bare4_lin₁ c p (by decide) _ _ _) w1 x1 g1 k0
      have w0 : AAWW.react.bare4 c p (four (p 0)) (lightE (legA (p 1) 0 0, legS (p 1) 0 1) 1) (pv z2.1 z2.2) (pv z3.1 z3.2) = 0 := by
        refine AAWW.react.bare4_gauge he ht hB hG (n := 0) rfl rfl ![four (p 0), (lightE (legA (p 1) 0 0, legS (p 1) 0 1) 1), (pv z2.1 z2.2), (pv z3.1 z3.2)] (fun m hm x hl hx => ?_) rfl
        fin_cases m
        · exact absurd rfl hm
        · exact (show contract (four (p 1)) (lightE (legA (p 1) 0 0, legS (p 1) 0 1) 1) = 0 from l1.transverse 1)
        · exact pv_transverse b2.mb_zero'
        · exact pv_transverse b3.mb_zero'
      have k2 := light_plus_ref (z := (legA (p 0) 0 0, legS (p 0) 0 1)) (G := fun E => AAWW.react.bare4 c p E (lightE (legA (p 1) 0 0, legS (p 1) 0 1) 1) (pv z2.1 z2.2) (pv z3.1 z3.2)) l0 (AAWW.react.bare4_lin₀ c p (by decide) _ _ _) w0 x0 g0 k1
      exact k2.trans (mul_assoc _ _ _)
  have stPM : ∀ (t2 t3 : Fin 3), comb t2 (fun a2 b2 => comb t3 (fun a3 b3 => AAWW.formPM (AAWW.N c p) p (legA (p 0) 0 0, legS (p 0) 0 1) (legA (p 1) 0 0, legS (p 1) 0 1) (AAWW.react.codePair c p 2 a2) (AAWW.react.codePair c p 2 b2) (AAWW.react.codePair c p 3 a3) (AAWW.react.codePair c p 3 b3))) = (-1) * AAWW.react.bare4 c p (lightE (legA (p 0) 0 0, legS (p 0) 0 1) 1) (lightE (legA (p 1) 0 0, legS (p 1) 0 1) 0) (AAWW.react.codeVec c p 2 t2) (AAWW.react.codeVec c p 3 t3) := by
    intro t2 t3
    refine two_vectors (p := p 2) (m := AAWW.react.mass c 2) (p' := p 3) (m' := AAWW.react.mass c 3) (fun s => AAWW.react.codePair_bold hs h0 2 s) (fun s => AAWW.react.codePair_bold hs h0 3 s) (B := fun w0 w0b w1 w1b => AAWW.formPM (AAWW.N c p) p (legA (p 0) 0 0, legS (p 0) 0 1) (legA (p 1) 0 0, legS (p 1) 0 1) w0 w0b w1 w1b) (fun _ _ _ _ _ => ?_) (fun _ _ _ _ _ => ?_) (fun _ _ _ _ _ => ?_) (fun _ _ _ _ _ => ?_) (G := fun E F => AAWW.react.bare4 c p (lightE (legA (p 0) 0 0, legS (p 0) 0 1) 1) (lightE (legA (p 1) 0 0, legS (p 1) 0 1) 0) E F) (fun _ => AAWW.react.bare4_lin₂ c p (by decide) _ _ _) (fun _ => AAWW.react.bare4_lin₃ c p (by decide) _ _ _) (-1) (fun z2 z3 b2 b3 => ?_) t2 t3
    · exact AAWW.formPM_x2 ..
    · exact AAWW.formPM_y2 ..
    · exact AAWW.formPM_x3 ..
    · exact AAWW.formPM_y3 ..
    · have k0 := AAWW.keyPM hc hb r0 d0 n0 d1 n1 b2 b3 l0 l1 e02 e03 e12 e13 (onShell_msq (hs 2)) (onShell_msq (hs 3)) (ab_ref (p 2) (legA (p 0) 0 0, legS (p 0) 0 1)) (sb_ref (p 2) (legA (p 1) 0 0, legS (p 1) 0 1))
      have w1 : AAWW.react.bare4 c p (pv (refPlus (p 2) (legA (p 0) 0 0, legS (p 0) 0 1)) (legA (p 0) 0 0, legS (p 0) 0 1).2) (four (p 1)) (pv z2.1 z2.2) (pv z3.1 z3.2) = 0 := by
        refine AAWW.react.bare4_gauge he ht hB hG (n := 1) rfl rfl ![(pv (refPlus (p 2) (legA (p 0) 0 0, legS (p 0) 0 1)) (legA (p 0) 0 0, legS (p 0) 0 1).2), four (p 1), (pv z2.1 z2.2), (pv z3.1 z3.2)] (fun m hm x hl hx => ?_) rfl
        fin_cases m
        · exact pv_transverse (l0.mb_plus _)
        · exact absurd rfl hm
        · exact pv_transverse b2.mb_zero'
        · exact pv_transverse b3.mb_zero'
      have k1 := light_minus_ref (z := (legA (p 1) 0 0, legS (p 1) 0 1)) (G := fun E => AAWW.react.bare4 c p (pv (refPlus (p 2) (legA (p 0) 0 0, legS (p 0) 0 1)) (legA (p 0) 0 0, legS (p 0) 0 1).2) E (pv z2.1 z2.2) (pv z3.1 z3.2)) l1 (AAWW.react.bare4_lin₁ c p (by decide) _ _ _) w1 y1 j1 k0
      have w0 : AAWW.react.bare4 c p (four (p 0)) (lightE (legA (p 1) 0 0, legS (p 1) 0 1) 0) (pv z2.1 z2.2) (pv z3.1 z3.2) = 0 := by
        refine AAWW.react.bare4_gauge he ht hB hG (n := 0) rfl rfl ![four (p 0), (lightE (legA (p 1) 0 0, legS (p 1) 0 1) 0), (pv z2.1 z2.2), (pv z3.1 z3.2)] (fun m hm x hl hx => ?_) rfl
        fin_cases m
        · exact absurd rfl hm
        · exact (show contract (four (p 1)) (lightE (legA (p 1) 0 0, legS (p 1) 0 1) 0) = 0 from l1.transverse 0)
        · exact pv_transverse b2.mb_zero'
        · exact pv_transverse b3.mb_zero'
      have k2 := light_plus_ref (z := (legA (p 0) 0 0, legS (p 0) 0 1)) (G := fun E => AAWW.react.bare4 c p E (lightE (legA (p 1) 0 0, legS (p 1) 0 1) 0) (pv z2.1 z2.2) (pv z3.1 z3.2)) l0 (AAWW.react.bare4_lin₀ c p (by decide) _ _ _) w0 x0 g0 k1
      exact k2.trans (mul_assoc _ _ _)
  have stMP : ∀ (t2 t3 : Fin 3), comb t2 (fun a2 b2 => comb t3 (fun a3 b3 => AAWW.formMP (AAWW.N c p) p (legA (p 0) 0 0, legS (p 0) 0 1) (legA (p 1) 0 0, legS (p 1) 0 1) (AAWW.react.codePair c p 2 a2) (AAWW.react.codePair c p 2 b2) (AAWW.react.codePair c p 3 a3) (AAWW.react.codePair c p 3 b3))) = (-1) * AAWW.react.bare4 c p (lightE (legA (p 0) 0 0, legS (p 0) 0 1) 0) (lightE (legA (p 1) 0 0, legS (p 1) 0 1) 1) (AAWW.react.codeVec c p 2 t2) (AAWW.react.codeVec c p 3 t3) := by
    intro t2 t3
    refine two_vectors (p := p 2) (m := AAWW.react.mass c 2) (p' := p 3) (m' := AAWW.react.mass c 3) (fun s => AAWW.react.codePair_bold hs h0 2 s) (fun s => AAWW.react.codePair_bold hs h0 3 s) (B := fun w0 w0b w1 w1b => AAWW.formMP (AAWW.N c p) p (legA (p 0) 0 0, legS (p 0) 0 1) (legA (p 1) 0 0, legS (p 1) 0 1) w0 w0b w1 w1b) (fun _ _ _ _ _ => ?_) (fun _ _ _ _ _ => ?_) (fun _ _ _ _ _ => ?_) (fun _ _ _ _ _ => ?_) (G := fun E F => AAWW.react.bare4 c p (lightE (legA (p 0) 0 0, legS (p 0) 0 1) 0) (lightE (legA (p 1) 0 0, legS (p 1) 0 1) 1) E F) (fun _ => AAWW.react.bare4_lin₂ c p (by decide) _ _ _) (fun _ => AAWW.react.bare4_lin₃ c p (by decide) _ _ _) (-1) (fun z2 z3 b2 b3 => ?_) t2 t3
    · exact AAWW.formMP_x2 ..
    · exact AAWW.formMP_y2 ..
    · exact AAWW.formMP_x3 ..
    · exact AAWW.formMP_y3 ..
    · have k0 := AAWW.keyMP hc hb r0 d0 n0 d1 n1 b2 b3 l0 l1 e02 e03 e12 e13 (onShell_msq (hs 2)) (onShell_msq (hs 3)) (sb_ref (p 2) (legA (p 0) 0 0, legS (p 0) 0 1)) (ab_ref (p 2) (legA (p 1) 0 0, legS (p 1) 0 1))
      have w1 : AAWW.react.bare4 c p (pv (legA (p 0) 0 0, legS (p 0) 0 1).1 (refMinus (p 2) (legA (p 0) 0 0, legS (p 0) 0 1))) (four (p 1)) (pv z2.1 z2.2) (pv z3.1 z3.2) = 0 := by
        refine AAWW.react.bare4_gauge he ht hB hG (n := 1) rfl rfl ![(pv (legA (p 0) 0 0, legS (p 0) 0 1).1 (refMinus (p 2) (legA (p 0) 0 0, legS (p 0) 0 1))), four (p 1), (pv z2.1 z2.2), (pv z3.1 z3.2)] (fun m hm x hl hx => ?_) rfl
        fin_cases m
        · exact pv_transverse (l0.mb_minus _)
        · exact absurd rfl hm
        · exact pv_transverse b2.mb_zero'
        · exact pv_transverse b3.mb_zero'
      have k1 := light_plus_ref (z := (legA (p 1) 0 0, legS (p 1) 0 1)) (G := fun E => AAWW.react.bare4 c p (pv (legA (p 0) 0 0, legS (p 0) 0 1).1 (refMinus (p 2) (legA (p 0) 0 0, legS (p 0) 0 1))) E (pv z2.1 z2.2) (pv z3.1 z3.2)) l1 (AAWW.react.bare4_lin₁ c p (by decide) _ _ _) w1 x1 g1 k0
      have w0 : AAWW.react.bare4 c p (four (p 0)) (lightE (legA (p 1) 0 0, legS (p 1) 0 1) 1) (pv z2.1 z2.2) (pv z3.1 z3.2) = 0 := by
        refine AAWW.react.bare4_gauge he ht hB hG (n := 0) rfl rfl ![four (p 0), (lightE (legA (p 1) 0 0, legS (p 1) 0 1) 1), (pv z2.1 z2.2), (pv z3.1 z3.2)] (fun m hm x hl hx => ?_) rfl
        fin_cases m
        · exact absurd rfl hm
        · exact (show contract (four (p 1)) (lightE (legA (p 1) 0 0, legS (p 1) 0 1) 1) = 0 from l1.transverse 1)
        · exact pv_transverse b2.mb_zero'
        · exact pv_transverse b3.mb_zero'
      have k2 := light_minus_ref (z := (legA (p 0) 0 0, legS (p 0) 0 1)) (G := fun E => AAWW.react.bare4 c p E (lightE (legA (p 1) 0 0, legS (p 1) 0 1) 1) (pv z2.1 z2.2) (pv z3.1 z3.2)) l0 (AAWW.react.bare4_lin₀ c p (by decide) _ _ _) w0 y0 j0 k1
      exact k2.trans (mul_assoc _ _ _)
  have stMM : ∀ (t2 t3 : Fin 3), comb t2 (fun a2 b2 => comb t3 (fun a3 b3 => AAWW.formMM (AAWW.N c p) p (legA (p 0) 0 0, legS (p 0) 0 1) (legA (p 1) 0 0, legS (p 1) 0 1) (AAWW.react.codePair c p 2 a2) (AAWW.react.codePair c p 2 b2) (AAWW.react.codePair c p 3 a3) (AAWW.react.codePair c p 3 b3))) = (-1) * AAWW.react.bare4 c p (lightE (legA (p 0) 0 0, legS (p 0) 0 1) 0) (lightE (legA (p 1) 0 0, legS (p 1) 0 1) 0) (AAWW.react.codeVec c p 2 t2) (AAWW.react.codeVec c p 3 t3) := by
    intro t2 t3
    refine two_vectors (p := p 2) (m := AAWW.react.mass c 2) (p' := p 3) (m' := AAWW.react.mass c 3) (fun s => AAWW.react.codePair_bold hs h0 2 s) (fun s => AAWW.react.codePair_bold hs h0 3 s) (B := fun w0 w0b w1 w1b => AAWW.formMM (AAWW.N c p) p (legA (p 0) 0 0, legS (p 0) 0 1) (legA (p 1) 0 0, legS (p 1) 0 1) w0 w0b w1 w1b) (fun _ _ _ _ _ => ?_) (fun _ _ _ _ _ => ?_) (fun _ _ _ _ _ => ?_) (fun _ _ _ _ _ => ?_) (G := fun E F => AAWW.react.bare4 c p (lightE (legA (p 0) 0 0, legS (p 0) 0 1) 0) (lightE (legA (p 1) 0 0, legS (p 1) 0 1) 0) E F) (fun _ => AAWW.react.bare4_lin₂ c p (by decide) _ _ _) (fun _ => AAWW.react.bare4_lin₃ c p (by decide) _ _ _) (-1) (fun z2 z3 b2 b3 => ?_) t2 t3
    · exact AAWW.formMM_x2 ..
    · exact AAWW.formMM_y2 ..
    · exact AAWW.formMM_x3 ..
    · exact AAWW.formMM_y3 ..
    · have k0 := AAWW.keyMM hc hb r0 d0 n0 d1 n1 b2 b3 l0 l1 e02 e03 e12 e13 (onShell_msq (hs 2)) (onShell_msq (hs 3)) (sb_ref (p 2) (legA (p 0) 0 0, legS (p 0) 0 1)) (sb_ref (p 2) (legA (p 1) 0 0, legS (p 1) 0 1))
      have w1 : AAWW.react.bare4 c p (pv (legA (p 0) 0 0, legS (p 0) 0 1).1 (refMinus (p 2) (legA (p 0) 0 0, legS (p 0) 0 1))) (four (p 1)) (pv z2.1 z2.2) (pv z3.1 z3.2) = 0 := by
        refine AAWW.react.bare4_gauge he ht hB hG (n := 1) rfl rfl ![(pv (legA (p 0) 0 0, legS (p 0) 0 1).1 (refMinus (p 2) (legA (p 0) 0 0, legS (p 0) 0 1))), four (p 1), (pv z2.1 z2.2), (pv z3.1 z3.2)] (fun m hm x hl hx => ?_) rfl
        fin_cases m
        · exact pv_transverse (l0.mb_minus _)
        · exact absurd rfl hm
        · exact pv_transverse b2.mb_zero'
        · exact pv_transverse b3.mb_zero'
      have k1 := light_minus_ref (z := (legA (p 1) 0 0, legS (p 1) 0 1)) (G := fun E => AAWW.react.bare4 c p (pv (legA (p 0) 0 0, legS (p 0) 0 1).1 (refMinus (p 2) (legA (p 0) 0 0, legS (p 0) 0 1))) E (pv z2.1 z2.2) (pv z3.1 z3.2)) l1 (AAWW.react.bare4_lin₁ c p (by decide) _ _ _) w1 y1 j1 k0
      have w0 : AAWW.react.bare4 c p (four (p 0)) (lightE (legA (p 1) 0 0, legS (p 1) 0 1) 0) (pv z2.1 z2.2) (pv z3.1 z3.2) = 0 := by
        refine AAWW.react.bare4_gauge he ht hB hG (n := 0) rfl rfl ![four (p 0), (lightE (legA (p 1) 0 0, legS (p 1) 0 1) 0), (pv z2.1 z2.2), (pv z3.1 z3.2)] (fun m hm x hl hx => ?_) rfl
        fin_cases m
        · exact absurd rfl hm
        · exact (show contract (four (p 1)) (lightE (legA (p 1) 0 0, legS (p 1) 0 1) 0) = 0 from l1.transverse 0)
        · exact pv_transverse b2.mb_zero'
        · exact pv_transverse b3.mb_zero'
      have k2 := light_minus_ref (z := (legA (p 0) 0 0, legS (p 0) 0 1)) (G := fun E => AAWW.react.bare4 c p E (lightE (legA (p 1) 0 0, legS (p 1) 0 1) 0) (pv z2.1 z2.2) (pv z3.1 z3.2)) l0 (AAWW.react.bare4_lin₀ c p (by decide) _ _ _) w0 y0 j0 k1
      exact k2.trans (mul_assoc _ _ _)
  have amPP : ∀ (t2 t3 : Fin 3), Cls.AAWW.m_amp.mean (AAWW.N c p) (callMean (AAWW.N c p) []) .c [2, 2, spinV t2, spinV t3] = (-1) * AAWW.react.bare4 c p (lightE (legA (p 0) 0 0, legS (p 0) 0 1) 1) (lightE (legA (p 1) 0 0, legS (p 1) 0 1) 1) (AAWW.react.codeVec c p 2 t2) (AAWW.react.codeVec c p 3 t3) := by
    intro t2 t3
    rw [AAWW.ampPP, ← stPP t2 t3]
    refine congrArg (comb t2) (funext fun a2 => funext fun b2 => ?_)
    refine congrArg (comb t3) (funext fun a3 => funext fun b3 => ?_)
    have v0z0z1 : (AAWW.N c p).v 0 [] = sb (legA (p 0) 0 0, legS (p 0) 0 1).2 (legA (p 1) 0 0, legS (p 1) 0 1).2 := bra_square (p := p) (m := AAWW.proc.massNum (AAWW.rho c)) (AAWW.mass_eq hc 0) (AAWW.mass_eq hc 1) (.inr ⟨m0, rfl⟩) (.inr ⟨m1, rfl⟩)
    have v2x2x3 : (AAWW.N c p).v 2 [spinOf a2, spinOf a3] = ab (AAWW.react.codePair c p 2 a2).1 (AAWW.react.codePair c p 3 a3).1 := bra_angle (p := p) (m := AAWW.proc.massNum (AAWW.rho c)) (AAWW.mass_eq hc 2) (AAWW.mass_eq hc 3) (.inl ⟨m2, rfl⟩) (.inl ⟨m3, rfl⟩)
    have v2y2y3 : (AAWW.N c p).v 2 [spinOf b2, spinOf b3] = ab (AAWW.react.codePair c p 2 b2).1 (AAWW.react.codePair c p 3 b3).1 := bra_angle (p := p) (m := AAWW.proc.massNum (AAWW.rho c)) (AAWW.mass_eq hc 2) (AAWW.mass_eq hc 3) (.inl ⟨m2, rfl⟩) (.inl ⟨m3, rfl⟩)
    simp only [AAWW.termPP, AAWW.formPP, v0z0z1, v2x2x3, v2y2y3]
    push_cast
    ring
  have amPM : ∀ (t2 t3 : Fin 3), Cls.AAWW.m_amp.mean (AAWW.N c p) (callMean (AAWW.N c p) []) .c [2, (-2), spinV t2, spinV t3] = (-1) * AAWW.react.bare4 c p (lightE (legA (p 0) 0 0, legS (p 0) 0 1) 1) (lightE (legA (p 1) 0 0, legS (p 1) 0 1) 0) (AAWW.react.codeVec c p 2 t2) (AAWW.react.codeVec c p 3 t3) := by
    intro t2 t3
    rw [AAWW.ampPM, ← stPM t2 t3]
    refine congrArg (comb t2) (funext fun a2 => funext fun b2 => ?_)
    refine congrArg (comb t3) (funext fun a3 => funext fun b3 => ?_)
    have v9z1x3 : (AAWW.N c p).v 9 [spinOf a3] = ab (legA (p 1) 0 0, legS (p 1) 0 1).1 (AAWW.react.codePair c p 3 a3).1 := bra_angle (p := p) (m := AAWW.proc.massNum (AAWW.rho c)) (AAWW.mass_eq hc 1) (AAWW.mass_eq hc 3) (.inr ⟨m1, rfl⟩) (.inl ⟨m3, rfl⟩)
    have v7z0x2 : (AAWW.N c p).v 7 [spinOf a2] = sb (legA (p 0) 0 0, legS (p 0) 0 1).2 (AAWW.react.codePair c p 2 a2).2 := bra_square (p := p) (m := AAWW.proc.massNum (AAWW.rho c)) (AAWW.mass_eq hc 0) (AAWW.mass_eq hc 2) (.inr ⟨m0, rfl⟩) (.inl ⟨m2, rfl⟩)
    have v11z1x2 : (AAWW.N c p).v 11 [spinOf a2] = ab (legA (p 1) 0 0, legS (p 1) 0 1).1 (AAWW.react.codePair c p 2 a2).1 := bra_angle (p := p) (m := AAWW.proc.massNum (AAWW.rho c)) (AAWW.mass_eq hc 1) (AAWW.mass_eq hc 2) (.inr ⟨m1, rfl⟩) (.inl ⟨m2, rfl⟩)
    have v5z0x3 : (AAWW.N c p).v 5 [spinOf a3] = sb (legA (p 0) 0 0, legS (p 0) 0 1).2 (AAWW.react.codePair c p 3 a3).2 := bra_square (p := p) (m := AAWW.proc.massNum (AAWW.rho c)) (AAWW.mass_eq hc 0) (AAWW.mass_eq hc 3) (.inr ⟨m0, rfl⟩) (.inl ⟨m3, rfl⟩)
    have v9z1y3 : (AAWW.N c p).v 9 [spinOf b3] = ab (legA (p 1) 0 0, legS (p 1) 0 1).1 (AAWW.react.codePair c p 3 b3).1 := bra_angle (p := p) (m := AAWW.proc.massNum (AAWW.rho c)) (AAWW.mass_eq hc 1) (AAWW.mass_eq hc 3) (.inr ⟨m1, rfl⟩) (.inl ⟨m3, rfl⟩)
    have v7z0y2 : (AAWW.N c p).v 7 [spinOf b2] = sb (legA (p 0) 0 0, legS (p 0) 0 1).2 (AAWW.react.codePair c p 2 b2).2 := bra_square (p := p) (m := AAWW.proc.massNum (AAWW.rho c)) (AAWW.mass_eq hc 0) (AAWW.mass_eq hc 2) (.inr ⟨m0, rfl⟩) (.inl ⟨m2, rfl⟩)
    have v11z1y2 : (AAWW.N c p).v 11 [spinOf b2] = ab (legA (p 1) 0 0, legS (p 1) 0 1).1 (AAWW.react.codePair c p 2 b2).1 := bra_angle (p := p) (m := AAWW.proc.massNum (AAWW.rho c)) (AAWW.mass_eq hc 1) (AAWW.mass_eq hc 2) (.inr ⟨m1, rfl⟩) (.inl ⟨m2, rfl⟩)
    have v5z0y3 : (AAWW.N c p).v 5 [spinOf b3] = sb (legA (p 0) 0 0, legS (p 0) 0 1).2 (AAWW.react.codePair c p 3 b3).2 := bra_square (p := p) (m := AAWW.proc.massNum (AAWW.rho c)) (AAWW.mass_eq hc 0) (AAWW.mass_eq hc 3) (.inr ⟨m0, rfl⟩) (.inl ⟨m3, rfl⟩)
    simp only [AAWW.termPM, AAWW.formPM, v9z1x3, v7z0x2, v11z1x2, v5z0x3, v9z1y3, v7z0y2, v11z1y2, v5z0y3]
    push_cast
    ring
  have amMP : ∀ (t2 t3 : Fin 3), Cls.AAWW.m_amp.mean (AAWW.N c p) (callMean (AAWW.N c p) []) .c [(-2), 2, spinV t2, spinV t3] = (-1) * AAWW.react.bare4 c p (lightE (legA (p 0) 0 0, legS (p 0) 0 1) 0) (lightE (legA (p 1) 0 0, legS (p 1) 0 1) 1) (AAWW.react.codeVec c p 2 t2) (AAWW.react.codeVec c p 3 t3) := by
    intro t2 t3
    rw [AAWW.ampMP, ← stMP t2 t3]
    refine congrArg (comb t2) (funext fun a2 => funext fun b2 => ?_)
    refine congrArg (comb t3) (funext fun a3 => funext fun b3 => ?_)
    have v8z1x3 : (AAWW.N c p).v 8 [spinOf a3] = sb (legA (p 1) 0 0, legS (p 1) 0 1).2 (AAWW.react.codePair c p 3 a3).2 := bra_square (p := p) (m := AAWW.proc.massNum (AAWW.rho c)) (AAWW.mass_eq hc 1) (AAWW.mass_eq hc 3) (.inr ⟨m1, rfl⟩) (.inl ⟨m3, rfl⟩)
    have v6z0x2 : (AAWW.N c p).v 6 [spinOf a2] = ab (legA (p 0) 0 0, legS (p 0) 0 1).1 (AAWW.react.codePair c p 2 a2).1 := bra_angle (p := p) (m := AAWW.proc.massNum (AAWW.rho c)) (AAWW.mass_eq hc 0) (AAWW.mass_eq hc 2) (.inr ⟨m0, rfl⟩) (.inl ⟨m2, rfl⟩)
    have v10z1x2 : (AAWW.N c p).v 10 [spinOf a2] = sb (legA (p 1) 0 0, legS (p 1) 0 1).2 (AAWW.react.codePair c p 2 a2).2 := bra_square (p := p) (m := AAWW.proc.massNum (AAWW.rho c)) (AAWW.mass_eq hc 1) (AAWW.mass_eq hc 2) (.inr ⟨m1, rfl⟩) (.inl ⟨m2, rfl⟩)
    have v4z0x3 : (AAWW.N c p).v 4 [spinOf a3] = ab (legA (p 0) 0 0, legS (p 0) 0 1).1 (AAWW.react.codePair c p 3 a3).1 := bra_angle (p := p) (m := AAWW.proc.massNum (AAWW.rho c)) (AAWW.mass_eq hc 0) (AAWW.mass_eq hc 3) (.inr ⟨m0, rfl⟩) (.inl ⟨m3, rfl⟩)
    have v8z1y3 : (AAWW.N c p).v 8 [spinOf b3] = sb (legA (p 1) 0 0, legS (p 1) 0 1).2 (AAWW.react.codePair c p 3 b3).2 := bra_square (p := p) (m := AAWW.proc.massNum (AAWW.rho c)) (AAWW.mass_eq hc 1) (AAWW.mass_eq hc 3) (.inr ⟨m1, rfl⟩) (.inl ⟨m3, rfl⟩)
    have v6z0y2 : (AAWW.N c p).v 6 [spinOf b2] = ab (legA (p 0) 0 0, legS (p 0) 0 1).1 (AAWW.react.codePair c p 2 b2).1 := bra_angle (p := p) (m := AAWW.proc.massNum (AAWW.rho c)) (AAWW.mass_eq hc 0) (AAWW.mass_eq hc 2) (.inr ⟨m0, rfl⟩) (.inl ⟨m2, rfl⟩)
    have v10z1y2 : (AAWW.N c p).v 10 [spinOf b2] = sb (legA (p 1) 0 0, legS (p 1) 0 1).2 (AAWW.react.codePair c p 2 b2).2 := bra_square (p := p) (m := AAWW.proc.massNum (AAWW.rho c)) (AAWW.mass_eq hc 1) (AAWW.mass_eq hc 2) (.inr ⟨m1, rfl⟩) (.inl ⟨m2, rfl⟩)
    have v4z0y3 : (AAWW.N c p).v 4 [spinOf b3] = ab (legA (p 0) 0 0, legS (p 0) 0 1).1 (AAWW.react.codePair c p 3 b3).1 := bra_angle (p := p) (m := AAWW.proc.massNum (AAWW.rho c)) (AAWW.mass_eq hc 0) (AAWW.mass_eq hc 3) (.inr ⟨m0, rfl⟩) (.inl ⟨m3, rfl⟩)
    simp only [AAWW.termMP, AAWW.formMP, v8z1x3, v6z0x2, v10z1x2, v4z0x3, v8z1y3, v6z0y2, v10z1y2, v4z0y3]
    push_cast
    ring
  have amMM : ∀ (t2 t3 : Fin 3), Cls.AAWW.m_amp.mean (AAWW.N c p) (callMean (AAWW.N c p) []) .c [(-2), (-2), spinV t2, spinV t3] = (-1) * AAWW.react.bare4 c p (lightE (legA (p 0) 0 0, legS (p 0) 0 1) 0) (lightE (legA (p 1) 0 0, legS (p 1) 0 1) 0) (AAWW.react.codeVec c p 2 t2) (AAWW.react.codeVec c p 3 t3) := by
    intro t2 t3
    rw [AAWW.ampMM, ← stMM t2 t3]
    refine congrArg (comb t2) (funext fun a2 => funext fun b2 => ?_)
    refine congrArg (comb t3) (funext fun a3 => funext fun b3 => ?_)
    have v1z0z1 : (AAWW.N c p).v 1 [] = ab (legA (p 0) 0 0, legS (p 0) 0 1).1 (legA (p 1) 0 0, legS (p 1) 0 1).1 := bra_angle (p := p) (m := AAWW.proc.massNum (AAWW.rho c)) (AAWW.mass_eq hc 0) (AAWW.mass_eq hc 1) (.inr ⟨m0, rfl⟩) (.inr ⟨m1, rfl⟩)
    have v3x2x3 : (AAWW.N c p).v 3 [spinOf a2, spinOf a3] = sb (AAWW.react.codePair c p 2 a2).2 (AAWW.react.codePair c p 3 a3).2 := bra_square (p := p) (m := AAWW.proc.massNum (AAWW.rho c)) (AAWW.mass_eq hc 2) (AAWW.mass_eq hc 3) (.inl ⟨m2, rfl⟩) (.inl ⟨m3, rfl⟩)
    have v3y2y3 : (AAWW.N c p).v 3 [spinOf b2, spinOf b3] = sb (AAWW.react.codePair c p 2 b2).2 (AAWW.react.codePair c p 3 b3).2 := bra_square (p := p) (m := AAWW.proc.massNum (AAWW.rho c)) (AAWW.mass_eq hc 2) (AAWW.mass_eq hc 3) (.inl ⟨m2, rfl⟩) (.inl ⟨m3, rfl⟩)
    simp only [AAWW.termMM, AAWW.formMM, v1z0z1, v3x2x3, v3y2y3]
    push_cast
    ring
  refine ⟨n0, n1, fun n hn => ?_, fun n hn => ?_, ?_⟩
  · simp [hd] at hn
  · simp [hd] at hn
    rcases hn with rfl | rfl
    · exact n0
    · exact n1
  intro h0 h1 t2 t3
  match h0, h1 with
  | 1, 1 => exact norm_minus (amPP t2 t3)
  | 1, 0 => exact norm_minus (amPM t2 t3)
  | 0, 1 => exact norm_minus (amMP t2 t3)
  | 0, 0 => exact norm_minus (amMM t2 t3)

variable [FPEnv] in
theorem AAWW.agrees : AAWW.Agrees := by
  refine agrees_of (D := [1, 2]) (E := [2]) (by simp [all, AAWW]) (by decide +kernel) (by decide) (by decide +kernel) (fun c hc hh => ⟨List.forall_mem_cons.2 ⟨hc.MW, List.forall_mem_cons.2 ⟨hc.SW, List.forall_mem_nil _⟩⟩, List.forall_mem_cons.2 ⟨hc.SW_lt, List.forall_mem_nil _⟩⟩) (fun c hc i => AAWW.mass_eq hc i) (by decide +kernel) ?_
  intro c p u ε hc hh hw h0 hs hb hr hu
  have he : AAWW.react.ends = [] := by decide
  have ht : AAWW.react.starts = [] := by decide
  have hB : AAWW.react.bosons = [0, 1, 2, 3] := by decide
  have hWW : c.WW = 0 := hw .WW (by simp [AAWW])
  have hG : AAWW.react.Gauge c p := AAWW.gauge hc.MW hWW hb (fun n => onShell_msq (hs n)) hr
  obtain ⟨n0, n1, d1, d2, am⟩ := AAWW.amps hc hh hw h0 hs hb hr hu
  refine ⟨d1, d2, ?_⟩
  show meaning (AAWW.N c p) .r Cls.AAWW.methods Cls.AAWW.amp2 [] = _
  have s0 : AAWW.react.states 0 = 2 := by decide
  have s1 : AAWW.react.states 1 = 2 := by decide
  have sy : AAWW.react.symmetry = 1 := by decide
  have p0 : AAWW.react.spins 0 = {0, 1} := rfl
  have p1 : AAWW.react.spins 1 = {0, 1} := rfl
  have p2 : AAWW.react.spins 2 = Finset.univ := rfl
  have p3 : AAWW.react.spins 3 = Finset.univ := rfl
  have E0 : AAWW.react.codeE c p 0 = lightE (legA (p 0) 0 0, legS (p 0) 0 1) := rfl
  have E1 : AAWW.react.codeE c p 1 = lightE (legA (p 1) 0 0, legS (p 1) 0 1) := rfl
  have E2 : AAWW.react.codeE c p 2 = AAWW.react.codeVec c p 2 := rfl
  have E3 : AAWW.react.codeE c p 3 = AAWW.react.codeVec c p 3 := rfl
  rw [AAWW.value, AAWW.react.squared_four he ht hB (by decide) hs h0 (fun _ b _ hb _ => (boson_pos hc hh hb).ne') hG (E := AAWW.react.codeE c p) (fun n b hl => AAWW.react.codeE_polarised hs h0 hu (fun b hb => (boson_pos hc hh hb).ne') n b hl) hu, sum_colours, s0, s1, sy]
  simp only [bareFour_eq, sumV_sum, sumW_sum, am, p0, p1, p2, p3, E0, E1, E2, E3, Finset.sum_singleton, sum_two, Matrix.cons_val_zero, Matrix.cons_val_one, Matrix.cons_val]
  push_cast
  first | ring1 | ring_nf

/-! ### AWAW -/

/-- what the methods of the class see -/
noncomputable abbrev AWAW.N [FPEnv] (c : Constants) (p : Nat → V4 ℝ) : Env := AWAW.proc.env (AWAW.rho c) p
/-- the term that `amp` adds for a choice of spinors, for a photon of positive helicity and a photon of positive helicity (SM/AWAW.cpp) -/
noncomputable def AWAW.termPP (N : Env) (w : ℝ) (x : ℂ) (a1 b1 a3 b3 : Int) : ℂ :=
  (x + ((((((((((((-w) * ((2 : Nat) : ℝ)) * N.r 0) * N.r 0) : ℝ) : ℂ) * N.v 7 []) * N.v 7 []) * N.v 9 [a1, a3]) * N.v 9 [b1, b3]) / N.c 1) / N.c 0))
/-- the same with spinors in place of their spins -/
noncomputable def AWAW.formPP (N : Env) (p : Nat → V4 ℝ) (z0 x1 y1 z2 x3 y3 : Pair) : ℂ :=
  (0 + ((((((((((((-((1 : Nat) : ℝ)) * ((2 : Nat) : ℝ)) * N.r 0) * N.r 0) : ℝ) : ℂ) * (sb z0.2 z2.2)) * (sb z0.2 z2.2)) * (ab x1.1 x3.1)) * (ab y1.1 y3.1)) / N.c 1) / N.c 0))
/-- the term that `amp` adds for a choice of spinors, for a photon of positive helicity and a photon of negative helicity (SM/AWAW.cpp) -/
noncomputable def AWAW.termPM (N : Env) (w : ℝ) (x : ℂ) (a1 b1 a3 b3 : Int) : ℂ :=
  (x + ((((((((w * ((2 : Nat) : ℝ)) * N.r 0) * N.r 0) : ℝ) : ℂ) * (((((N.v 5 [a3] * N.v 5 [b3]) * N.v 11 [a1]) * N.v 11 [b1]) + (((N.v 0 [a1] * N.v 0 [b1]) * N.v 2 [a3]) * N.v 2 [b3])) + ((((((((2 : Nat) : ℝ) : ℝ) : ℂ) * N.v 5 [a3]) * N.v 0 [a1]) * N.v 2 [b3]) * N.v 11 [b1]))) / N.c 1) / N.c 0))
/-- the same with spinors in place of their spins -/
noncomputable def AWAW.formPM (N : Env) (p : Nat → V4 ℝ) (z0 x1 y1 z2 x3 y3 : Pair) : ℂ :=
  (0 + ((((((((((1 : Nat) : ℝ) * ((2 : Nat) : ℝ)) * N.r 0) * N.r 0) : ℝ) : ℂ) * ((((((sb z0.2 x3.2) * (sb z0.2 y3.2)) * (ab x1.1 z2.1)) * (ab y1.1 z2.1)) + ((((sb z0.2 x1.2) * (sb z0.2 y1.2)) * (ab z2.1 x3.1)) * (ab z2.1 y3.1))) + ((((((((2 : Nat) : ℝ) : ℝ) : ℂ) * (sb z0.2 x3.2)) * (sb z0.2 x1.2)) * (ab z2.1 y3.1)) * (ab y1.1 z2.1)))) / N.c 1) / N.c 0))
/-- the term that `amp` adds for a choice of spinors, for a photon of negative helicity and a photon of positive helicity (SM/AWAW.cpp) -/
noncomputable def AWAW.termMP (N : Env) (w : ℝ) (x : ℂ) (a1 b1 a3 b3 : Int) : ℂ :=
  (x + ((((((((w * ((2 : Nat) : ℝ)) * N.r 0) * N.r 0) : ℝ) : ℂ) * (((((N.v 4 [a3] * N.v 4 [b3]) * N.v 10 [a1]) * N.v 10 [b1]) + (((N.v 1 [a1] * N.v 1 [b1]) * N.v 3 [a3]) * N.v 3 [b3])) + ((((((((2 : Nat) : ℝ) : ℝ) : ℂ) * N.v 4 [a3]) * N.v 1 [a1]) * N.v 3 [b3]) * N.v 10 [b1]))) / N.c 1) / N.c 0))
/-- the same with spinors in place of their spins -/
noncomputable def AWAW.formMP (N : Env) (p : Nat → V4 ℝ) (z0 x1 y1 z2 x3 y3 : Pair) : ℂ :=
  (0 + ((((((((((1 : Nat) : ℝ) * ((2 : Nat) : ℝ)) * N.r 0) * N.r 0) : ℝ) : ℂ) * ((((((ab z0.1 x3.1) * (ab z0.1 y3.1)) * (sb x1.2 z2.2)) * (sb y1.2 z2.2)) + ((((ab z0.1 x1.1) * (ab z0.1 y1.1)) * (sb z2.2 x3.2)) * (sb z2.2 y3.2))) + ((((((((2 : Nat) : ℝ) : ℝ) : ℂ) * (ab z0.1 x3.1)) * (ab z0.1 x1.1)) * (sb z2.2 y3.2)) * (sb y1.2 z2.2)))) / N.c 1) / N.c 0))
/-- the term that `amp` adds for a choice of spinors, for a photon of negative helicity and a photon of negative helicity (SM/AWAW.cpp) -/
noncomputable def AWAW.termMM (N : Env) (w : ℝ) (x : ℂ) (a1 b1 a3 b3 : Int) : ℂ :=
  (x + ((((((((((((-w) * ((2 : Nat) : ℝ)) * N.r 0) * N.r 0) : ℝ) : ℂ) * N.v 6 []) * N.v 6 []) * N.v 8 [a1, a3]) * N.v 8 [b1, b3]) / N.c 1) / N.c 0))
/-- the same with spinors in place of their spins -/
noncomputable def AWAW.formMM (N : Env) (p : Nat → V4 ℝ) (z0 x1 y1 z2 x3 y3 : Pair) : ℂ :=
  (0 + ((((((((((((-((1 : Nat) : ℝ)) * ((2 : Nat) : ℝ)) * N.r 0) * N.r 0) : ℝ) : ℂ) * (ab z0.1 z2.1)) * (ab z0.1 z2.1)) * (sb x1.2 x3.2)) * (sb y1.2 y3.2)) / N.c 1) / N.c 0))
theorem AWAW.keyPP {c : Constants} {p : Nat → V4 ℝ} {N : Env} (hc : c.Physical) (hb : Balanced p) (r0 : N.r 0 = c.e) (d0 : pole c.MW c.WW (plus (p 0) (p 1)) = N.c 0) (n0 : N.c 0 ≠ 0) (d1 : pole c.MW c.WW (plus (p 0) (backward (p 3))) = N.c 1) (n1 : N.c 1 ≠ 0) {z0 z1 z2 z3 : Pair} (b1 : Bold (p 1) c.MW z1) (b3 : Bold (p 3) c.MW z3) (l0 : Light (p 0) z0) (l2 : Light (p 2) z2) (e01 : mb z0.2 (p 1) z0.1 = N.c 0) (e03 : mb z0.2 (p 3) z0.1 = -N.c 1) (e21 : mb z2.2 (p 1) z2.1 = -N.c 1) (e23 : mb z2.2 (p 3) z2.1 = N.c 0) (q1 : msq (p 1) = c.MW ^ 2) (q3 : msq (p 3) = c.MW ^ 2) {ρ0 : V2} (R0 : ∀ Y, ab ρ0 Y = mb z0.2 (p 1) Y) {ρ2 : V2} (R2 : ∀ Y, ab ρ2 Y = mb z2.2 (p 1) Y) :
    AWAW.formPP N p z0 z1 z1 z2 z3 z3 * ab ρ0 z0.1 * ab ρ2 z2.1 = ((√2 : ℝ) * ((√2 : ℝ) * ((-1 : ℂ) * ((2 / (c.MW * c.MW) : ℝ) : ℂ)))) * AWAW.react.bare4 c p (pv ρ0 z0.2) (pv z1.1 z1.2) (pv ρ2 z2.2) (pv z3.1 z3.2) := by
  rw [AWAW.react.bare4_parts c p (b₀ := .photon) (b₁ := .wPlus) (b₂ := .photon) (b₃ := .wMinus) rfl rfl rfl rfl, AWAW.formPP]
  have T0 := l0.mb_plus ρ0
  have T1 := b1.mb_zero'
  have T2 := mb_back_zero (l2.mb_plus ρ2)
  have T3 := mb_back_zero (b3.mb_zero')
  have Q1 : msq (p 1) = c.MW ^ 2 := q1
  have Q3 : msq (backward (p 3)) = c.MW ^ 2 := (msq_backward _).trans q3
  simp only [contact, seagull, gauge4, between, carriers, List.map_cons, List.map_nil, List.sum_cons, List.sum_nil]
  simp only [toHiggs, toVector, higgs2, gauge3, Boson.anti, reduceCtorEq, and_self, and_true, and_false, true_and, false_and, if_true, if_false, Complex.ofReal_zero, zero_smul, carry_none, zero_mul, mul_zero, zero_div, neg_zero, add_zero, zero_add, sub_zero, sub_self, contract_zero, contract_zero_left]
  first | rw [dress_plus c (x := .wPlus) (.inl rfl) hc.MW l0 Q1 T1] | rw [dress_plus c (x := .wMinus) (.inr rfl) hc.MW l0 Q1 T1]
  first | rw [dress_plus c (x := .wPlus) (.inl rfl) hc.MW l0 Q3 T3] | rw [dress_plus c (x := .wMinus) (.inr rfl) hc.MW l0 Q3 T3]
  simp only [d0, d1, yangMills_transverse T1 T2, yangMills_transverse T1 T3, yangMills_transverse T2 T3, contract_add, contract_smul, contract_smul_left, contract_four_pv, contract_pv_four, contract_pv, mb_backward]
  have R00 := (ref_plus_plus R0 R0).2
  have R02 := (ref_plus_plus R0 R2).1
  rw [q1] at R02
  have R20 := (ref_plus_plus R2 R0).1
  rw [q1] at R20
  have R22 := (ref_plus_plus R2 R2).2
  have i0 := mb_schouten_right z0.2 (p 3) z0.1 z1.1 z3.1
  have i1 := mb_schouten_right z2.2 (p 1) z0.1 z1.1 z2.1
  have i2 := sb_schouten z1.2 z2.2 z3.2 z0.2
  have i3 := mb_schouten_right z0.2 (p 3) z1.1 z2.1 z3.1
  have i4 := mb_schouten_right z0.2 (p 1) z0.1 z2.1 z3.1
  have i5 := ab_schouten z1.1 z2.1 z3.1 z0.1
  have i6 := mb_schouten_right z1.2 (p 3) z0.1 z2.1 z3.1
  have i7 := mb_schouten_right z0.2 (p 1) z0.1 z1.1 z2.1
  have i8 := mb_schouten_right z0.2 (p 3) z0.1 z1.1 z2.1
  have i9 := mb_schouten_right z0.2 (p 1) z1.1 z2.1 z3.1
  have i10 := mb_schouten_right z2.2 (p 3) z0.1 z1.1 z3.1
  have i11 := mb_schouten_left z0.2 z1.2 z2.2 (p 1) z0.1
  have i12 := mb_schouten_right z2.2 (p 3) z0.1 z1.1 z2.1
  have i13 := mb_schouten_right z0.2 (p 1) z0.1 z1.1 z3.1
  have i14 := mb_schouten_right z1.2 (p 3) z0.1 z1.1 z3.1
  have i15 := mb_schouten_right z2.2 (p 1) z0.1 z1.1 z3.1
  have i16 := mb_schouten_right z3.2 (p 1) z0.1 z2.1 z3.1
  have i17 := mb_schouten_left z0.2 z1.2 z3.2 (p 1) z0.1
  have i18 := mb_schouten_right z2.2 (p 1) z1.1 z2.1 z3.1
  have i19 := mb_schouten_left z0.2 z1.2 z3.2 (p 1) z2.1
  have i20 := mb_schouten_right z0.2 (p 3) z0.1 z2.1 z3.1
  have i21 := mb_schouten_right z2.2 (p 3) z1.1 z2.1 z3.1
  have i22 := mb_schouten_right z2.2 (p 3) z0.1 z2.1 z3.1
  have i23 := mb_schouten_right z2.2 (p 1) z0.1 z2.1 z3.1
  have i24 := mb_schouten_left z0.2 z1.2 z2.2 (p 1) z2.1
  have i25 := mb_schouten_left z0.2 z1.2 z2.2 (p 3) z0.1
  have i26 := mb_schouten_right z3.2 (p 1) z1.1 z2.1 z3.1
  have i27 := mb_schouten_left z0.2 z1.2 z3.2 (p 1) z3.1
  have i28 := mb_schouten_left z0.2 z1.2 z3.2 (p 3) z0.1
  have i29 := mb_schouten_left z0.2 z2.2 z3.2 (p 1) z2.1
  have i30 := mb_schouten_right z0.2 (p 3) z0.1 z3.1 ρ0
  simp only [ab_swap ρ0 z0.1, ab_swap ρ0 z1.1, ab_swap ρ0 z2.1, ab_swap ρ0 z3.1, ab_swap ρ2 z0.1, ab_swap ρ2 z1.1, ab_swap ρ2 z2.1, ab_swap ρ2 z3.1, R00, R02, R0, R20, R22, R2, l0.mb_eq, l2.mb_eq, b1.mb_left, b1.mb_right, b3.mb_left, b3.mb_right, e01, e03, e21, e23, mb_three hb z0.2 z1.1, mb_three hb z0.2 z2.1, mb_three hb z1.2 z0.1, mb_three hb z1.2 z1.1, mb_three hb z1.2 z2.1, mb_three hb z2.2 z0.1, mb_three hb z2.2 z1.1, mb_three hb z0.2 ρ0, mb_three hb z2.2 ρ2, ab_self, sb_self] at i0 i1 i2 i3 i4 i5 i6 i7 i8 i9 i10 i11 i12 i13 i14 i15 i16 i17 i18 i19 i20 i21 i22 i23 i24 i25 i26 i27 i28 i29 i30 ⊢
  simp only [ab_swap z0.1 z1.1, sb_swap z0.2 z1.2, ab_swap z0.1 z2.1, sb_swap z0.2 z2.2, ab_swap z0.1 z3.1, sb_swap z0.2 z3.2, ab_swap z1.1 z2.1, sb_swap z1.2 z2.2, ab_swap z1.1 z3.1, sb_swap z1.2 z3.2, ab_swap z2.1 z3.1, sb_swap z2.2 z3.2] at i0 i1 i2 i3 i4 i5 i6 i7 i8 i9 i10 i11 i12 i13 i14 i15 i16 i17 i18 i19 i20 i21 i22 i23 i24 i25 i26 i27 i28 i29 i30 ⊢
  simp only [r0, Constants.invVev, ← c.mz]
  have xMW : (c.MW : ℂ) ≠ 0 := by exact_mod_cast hc.MW
  have xSW : (c.SW : ℂ) ≠ 0 := by exact_mod_cast hc.SW
  have xCW : (c.CW : ℂ) ≠ 0 := by exact_mod_cast hc.CW
  have x2 : ((√2 : ℝ) : ℂ) ≠ 0 := by exact_mod_cast (Real.sqrt_pos.2 two_pos).ne'
  have x22 : ((√2 : ℝ) : ℂ) ^ 2 = 2 := by rw [← Complex.ofReal_pow, Real.sq_sqrt two_pos.le]; norm_num
  push_cast at i0 i1 i2 i3 i4 i5 i6 i7 i8 i9 i10 i11 i12 i13 i14 i15 i16 i17 i18 i19 i20 i21 i22 i23 i24 i25 i26 i27 i28 i29 i30 ⊢
  simp only [div_eq_mul_inv, mul_inv, inv_inv] at i0 i1 i2 i3 i4 i5 i6 i7 i8 i9 i10 i11 i12 i13 i14 i15 i16 i17 i18 i19 i20 i21 i22 i23 i24 i25 i26 i27 i28 i29 i30 ⊢
  have y0 := mul_inv_cancel₀ n0
  have y1 := mul_inv_cancel₀ n1
  have yMW := mul_inv_cancel₀ xMW
  linear_combination ((((2) * ((c.MW : ℂ)) * ((c.e : ℂ)) ^ 2 * (ab z2.1 z3.1) * (sb z0.2 z2.2) ^ 2 * (sb z1.2 z2.2) + (-2) * ((c.MW : ℂ)) ^ 2 * ((c.e : ℂ)) ^ 2 * (ab z1.1 z3.1) * (sb z0.2 z2.2) ^ 2 + (-1) * ((c.e : ℂ)) ^ 2 * (N.c 0) * (ab z1.1 z3.1) * (sb z0.2 z2.2) ^ 2 + (1) * ((c.e : ℂ)) ^ 2 * (N.c 0) * (sb z0.2 z1.2) * (sb z0.2 z2.2) * (sb z2.2 z3.2) + (-1) * ((c.e : ℂ)) ^ 2 * (N.c 0) * (sb z0.2 z2.2) ^ 2 * (sb z1.2 z3.2) + (1) * ((c.e : ℂ)) ^ 2 * (ab z0.1 z1.1) * (ab z2.1 z3.1) * (sb z0.2 z2.2) ^ 3 + (-2) * ((c.e : ℂ)) ^ 2 * (ab z0.1 z2.1) * (ab z1.1 z3.1) * (sb z0.2 z2.2) ^ 3 + (2) * ((c.e : ℂ)) ^ 2 * (ab z0.1 z2.1) * (sb z0.2 z1.2) * (sb z0.2 z2.2) ^ 2 * (sb z2.2 z3.2) + (-2) * ((c.e : ℂ)) ^ 2 * (ab z0.1 z2.1) * (sb z0.2 z2.2) ^ 3 * (sb z1.2 z3.2) + (1) * ((c.e : ℂ)) ^ 2 * (ab z1.1 z2.1) * (mb z2.2 (p 1) z3.1) * (sb z0.2 z2.2) ^ 2) * i0 + ((1) * ((c.MW : ℂ)) * ((c.e : ℂ)) ^ 2 * (ab z1.1 z3.1) * (sb z0.2 z2.2) ^ 2 * (sb z0.2 z3.2) + (-2) * ((c.MW : ℂ)) * ((c.e : ℂ)) ^ 2 * (sb z0.2 z1.2) * (sb z0.2 z2.2) * (sb z0.2 z3.2) * (sb z2.2 z3.2) + (2) * ((c.e : ℂ)) ^ 2 * (ab z0.1 z3.1) * (sb z0.2 z1.2) * (sb z0.2 z2.2) ^ 2 * (sb z0.2 z3.2) + (1) * ((c.e : ℂ)) ^ 2 * (ab z1.1 z3.1) * (ab z2.1 z3.1) * (sb z0.2 z2.2) ^ 3 + (-1) * ((c.e : ℂ)) ^ 2 * (ab z1.1 z3.1) * (mb z0.2 (p 1) z3.1) * (sb z0.2 z2.2) ^ 2 + (-2) * ((c.e : ℂ)) ^ 2 * (ab z2.1 z3.1) * (sb z0.2 z1.2) * (sb z0.2 z2.2) ^ 2 * (sb z2.2 z3.2) + (1) * ((c.e : ℂ)) ^ 2 * (ab z2.1 z3.1) * (sb z0.2 z2.2) ^ 3 * (sb z1.2 z3.2) + (1) * ((c.e : ℂ)) ^ 2 * (mb z0.2 (p 1) z3.1) * (sb z0.2 z1.2) * (sb z0.2 z2.2) * (sb z2.2 z3.2) + (-1) * ((c.e : ℂ)) ^ 2 * (mb z0.2 (p 1) z3.1) * (sb z0.2 z2.2) ^ 2 * (sb z1.2 z3.2)) * i1 + ((1) * ((c.MW : ℂ)) * ((c.e : ℂ)) ^ 2 * (N.c 0) * (ab z0.1 z3.1) * (sb z0.2 z1.2) * (sb z0.2 z2.2) + (-1) * ((c.MW : ℂ)) * ((c.e : ℂ)) ^ 2 * (N.c 0) * (ab z2.1 z3.1) * (sb z0.2 z2.2) * (sb z1.2 z2.2) + (-1) * ((c.MW : ℂ)) * ((c.e : ℂ)) ^ 2 * (N.c 0) * (mb z0.2 (p 1) z3.1) * (sb z1.2 z2.2) + (2) * ((c.MW : ℂ)) * ((c.e : ℂ)) ^ 2 * (N.c 1) * (ab z0.1 z3.1) * (sb z0.2 z1.2) * (sb z0.2 z2.2) + (-1) * ((c.MW : ℂ)) * ((c.e : ℂ)) ^ 2 * (N.c 1) * (mb z0.2 (p 1) z3.1) * (sb z1.2 z2.2) + (-1) * ((c.MW : ℂ)) * ((c.e : ℂ)) ^ 2 * (ab z0.1 z2.1) * (ab z1.1 z2.1) * (sb z0.2 z2.2) ^ 2 * (sb z2.2 z3.2) + (-1) * ((c.MW : ℂ)) * ((c.e : ℂ)) ^ 2 * (ab z0.1 z2.1) * (mb z0.2 (p 1) z3.1) * (sb z0.2 z2.2) * (sb z1.2 z2.2) + (1) * ((c.MW : ℂ)) ^ 2 * ((c.e : ℂ)) ^ 2 * (N.c 1) * (ab z1.1 z3.1) * (sb z0.2 z2.2) + (1) * ((c.MW : ℂ)) ^ 2 * ((c.e : ℂ)) ^ 2 * (ab z0.1 z1.1) * (ab z2.1 z3.1) * (sb z0.2 z2.2) ^ 2 + (1) * ((c.MW : ℂ)) ^ 2 * ((c.e : ℂ)) ^ 2 * (ab z0.1 z1.1) * (mb z0.2 (p 1) z3.1) * (sb z0.2 z2.2) + (-2) * ((c.MW : ℂ)) ^ 2 * ((c.e : ℂ)) ^ 2 * (ab z0.1 z2.1) * (ab z1.1 z3.1) * (sb z0.2 z2.2) ^ 2 + (1) * ((c.MW : ℂ)) ^ 2 * ((c.e : ℂ)) ^ 2 * (ab z0.1 z2.1) * (sb z0.2 z1.2) * (sb z0.2 z2.2) * (sb z2.2 z3.2) + (1) * ((c.MW : ℂ)) ^ 2 * ((c.e : ℂ)) ^ 2 * (ab z1.1 z2.1) * (mb z2.2 (p 1) z3.1) * (sb z0.2 z2.2) + (-1) * ((c.e : ℂ)) ^ 2 * (N.c 0) * (ab z0.1 z1.1) * (ab z2.1 z3.1) * (sb z0.2 z2.2) ^ 2 + (1) * ((c.e : ℂ)) ^ 2 * (N.c 0) * (ab z0.1 z2.1) * (ab z1.1 z3.1) * (sb z0.2 z2.2) ^ 2 + (-2) * ((c.e : ℂ)) ^ 2 * (N.c 0) * (ab z1.1 z2.1) * (mb z2.2 (p 1) z3.1) * (sb z0.2 z2.2) + (1) * ((c.e : ℂ)) ^ 2 * (N.c 0) ^ 2 * (ab z1.1 z3.1) * (sb z0.2 z2.2) + (-1) * ((c.e : ℂ)) ^ 2 * (ab z0.1 z1.1) * (ab z0.1 z2.1) * (ab z2.1 z3.1) * (sb z0.2 z2.2) ^ 3) * i2 + ((1) * ((c.MW : ℂ)) * ((c.e : ℂ)) ^ 2 * (mb z2.2 (p 1) z3.1) * (sb z0.2 z2.2) * (sb z1.2 z2.2) + (1) * ((c.e : ℂ)) ^ 2 * (ab z1.1 z3.1) * (mb z2.2 (p 1) z0.1) * (sb z0.2 z2.2) ^ 2) * i3 + ((1) * ((c.MW : ℂ)) * ((c.e : ℂ)) ^ 2 * (ab z1.1 z3.1) * (sb z0.2 z2.2) ^ 2 * (sb z1.2 z2.2) + (1) * ((c.MW : ℂ)) * ((c.e : ℂ)) ^ 2 * (sb z0.2 z1.2) * (sb z0.2 z2.2) * (sb z1.2 z2.2) * (sb z2.2 z3.2) + (-1) * ((c.MW : ℂ)) * ((c.e : ℂ)) ^ 2 * (sb z0.2 z2.2) ^ 2 * (sb z1.2 z2.2) * (sb z1.2 z3.2) + (1) * ((c.e : ℂ)) ^ 2 * (ab z1.1 z2.1) * (sb z0.2 z2.2) ^ 2 * (sb z1.2 z2.2) * (sb z2.2 z3.2)) * i4 + ((1) * ((c.MW : ℂ)) * ((c.e : ℂ)) ^ 2 * (ab z1.1 z2.1) * (sb z0.2 z2.2) ^ 3 * (sb z2.2 z3.2) + (1) * ((c.MW : ℂ)) * ((c.e : ℂ)) ^ 2 * (mb z0.2 (p 1) z3.1) * (sb z0.2 z2.2) ^ 2 * (sb z1.2 z2.2) + (-1) * ((c.MW : ℂ)) ^ 2 * ((c.e : ℂ)) ^ 2 * (sb z0.2 z1.2) * (sb z0.2 z2.2) ^ 2 * (sb z2.2 z3.2) + (1) * ((c.MW : ℂ)) ^ 2 * ((c.e : ℂ)) ^ 2 * (sb z0.2 z2.2) ^ 2 * (sb z0.2 z3.2) * (sb z1.2 z2.2) + (-1) * ((c.e : ℂ)) ^ 2 * (N.c 0) * (ab z1.1 z3.1) * (sb z0.2 z2.2) ^ 3 + (1) * ((c.e : ℂ)) ^ 2 * (N.c 0) * (sb z0.2 z2.2) ^ 2 * (sb z0.2 z3.2) * (sb z1.2 z2.2) + (2) * ((c.e : ℂ)) ^ 2 * (N.c 1) * (ab z1.1 z3.1) * (sb z0.2 z2.2) ^ 3 + (-2) * ((c.e : ℂ)) ^ 2 * (N.c 1) * (sb z0.2 z1.2) * (sb z0.2 z2.2) ^ 2 * (sb z2.2 z3.2) + (2) * ((c.e : ℂ)) ^ 2 * (N.c 1) * (sb z0.2 z2.2) ^ 3 * (sb z1.2 z3.2) + (-1) * ((c.e : ℂ)) ^ 2 * (ab z0.1 z1.1) * (mb z0.2 (p 1) z3.1) * (sb z0.2 z2.2) ^ 3 + (2) * ((c.e : ℂ)) ^ 2 * (ab z0.1 z2.1) * (sb z0.2 z2.2) ^ 3 * (sb z0.2 z3.2) * (sb z1.2 z2.2) + (1) * ((c.e : ℂ)) ^ 2 * (ab z1.1 z2.1) * (mb z2.2 (p 1) z3.1) * (sb z0.2 z2.2) ^ 3 + (1) * ((c.e : ℂ)) ^ 2 * (mb z0.2 (p 1) z2.1) * (sb z0.2 z2.2) ^ 2 * (sb z1.2 z2.2) * (sb z2.2 z3.2)) * i5 + ((2) * ((c.MW : ℂ)) * ((c.e : ℂ)) ^ 2 * (ab z1.1 z3.1) * (sb z0.2 z2.2) ^ 3 + (1) * ((c.e : ℂ)) ^ 2 * (ab z1.1 z2.1) * (sb z0.2 z2.2) ^ 3 * (sb z2.2 z3.2)) * i6 + ((-1) * ((c.MW : ℂ)) * ((c.e : ℂ)) ^ 2 * (ab z1.1 z3.1) * (sb z0.2 z2.2) ^ 2 * (sb z2.2 z3.2) + (-1) * ((c.e : ℂ)) ^ 2 * (ab z0.1 z3.1) * (ab z1.1 z3.1) * (sb z0.2 z2.2) ^ 3 + (-1) * ((c.e : ℂ)) ^ 2 * (ab z0.1 z3.1) * (sb z0.2 z2.2) ^ 3 * (sb z1.2 z3.2) + (-2) * ((c.e : ℂ)) ^ 2 * (ab z2.1 z3.1) * (sb z0.2 z2.2) ^ 2 * (sb z1.2 z2.2) * (sb z2.2 z3.2) + (2) * ((c.e : ℂ)) ^ 2 * (mb z2.2 (p 1) z3.1) * (sb z0.2 z1.2) * (sb z0.2 z2.2) * (sb z2.2 z3.2) + (-3) * ((c.e : ℂ)) ^ 2 * (mb z2.2 (p 1) z3.1) * (sb z0.2 z2.2) ^ 2 * (sb z1.2 z3.2)) * i7 + ((2) * ((c.e : ℂ)) ^ 2 * (ab z0.1 z3.1) * (ab z1.1 z3.1) * (sb z0.2 z2.2) ^ 3 + (-1) * ((c.e : ℂ)) ^ 2 * (ab z0.1 z3.1) * (sb z0.2 z1.2) * (sb z0.2 z2.2) ^ 2 * (sb z2.2 z3.2) + (2) * ((c.e : ℂ)) ^ 2 * (ab z0.1 z3.1) * (sb z0.2 z2.2) ^ 3 * (sb z1.2 z3.2) + (-1) * ((c.e : ℂ)) ^ 2 * (ab z1.1 z3.1) * (mb z2.2 (p 1) z3.1) * (sb z0.2 z2.2) ^ 2 + (1) * ((c.e : ℂ)) ^ 2 * (ab z2.1 z3.1) * (sb z0.2 z2.2) ^ 2 * (sb z1.2 z2.2) * (sb z2.2 z3.2) + (1) * ((c.e : ℂ)) ^ 2 * (mb z0.2 (p 1) z3.1) * (sb z0.2 z2.2) * (sb z1.2 z2.2) * (sb z2.2 z3.2) + (1) * ((c.e : ℂ)) ^ 2 * (mb z2.2 (p 1) z3.1) * (sb z0.2 z1.2) * (sb z0.2 z2.2) * (sb z2.2 z3.2)) * i8 + ((-1) * ((c.MW : ℂ)) * ((c.e : ℂ)) ^ 2 * (mb z2.2 (p 1) z3.1) * (sb z0.2 z2.2) * (sb z1.2 z2.2) + (-1) * ((c.MW : ℂ)) ^ 2 * ((c.e : ℂ)) ^ 2 * (sb z0.2 z2.2) * (sb z1.2 z2.2) * (sb z2.2 z3.2) + (1) * ((c.e : ℂ)) ^ 2 * (N.c 1) * (sb z0.2 z2.2) * (sb z1.2 z2.2) * (sb z2.2 z3.2) + (-1) * ((c.e : ℂ)) ^ 2 * (ab z1.1 z3.1) * (mb z2.2 (p 1) z0.1) * (sb z0.2 z2.2) ^ 2 + (-2) * ((c.e : ℂ)) ^ 2 * (mb z2.2 (p 1) z0.1) * (sb z0.2 z1.2) * (sb z0.2 z2.2) * (sb z2.2 z3.2) + (2) * ((c.e : ℂ)) ^ 2 * (mb z2.2 (p 1) z0.1) * (sb z0.2 z2.2) ^ 2 * (sb z1.2 z3.2)) * i9 + ((1) * ((c.MW : ℂ)) * ((c.e : ℂ)) ^ 2 * (mb z0.2 (p 1) z3.1) * (sb z0.2 z1.2) * (sb z0.2 z2.2) + (1) * ((c.e : ℂ)) ^ 2 * (N.c 0) * (sb z0.2 z1.2) * (sb z0.2 z2.2) * (sb z0.2 z3.2) + (2) * ((c.e : ℂ)) ^ 2 * (N.c 1) * (sb z0.2 z1.2) * (sb z0.2 z2.2) * (sb z0.2 z3.2) + (1) * ((c.e : ℂ)) ^ 2 * (ab z1.1 z2.1) * (ab z2.1 z3.1) * (sb z0.2 z2.2) ^ 3 + (1) * ((c.e : ℂ)) ^ 2 * (ab z1.1 z2.1) * (mb z0.2 (p 1) z3.1) * (sb z0.2 z2.2) ^ 2 + (-1) * ((c.e : ℂ)) ^ 2 * (ab z1.1 z3.1) * (mb z0.2 (p 1) z2.1) * (sb z0.2 z2.2) ^ 2 + (-1) * ((c.e : ℂ)) ^ 2 * (mb z0.2 (p 1) z2.1) * (sb z0.2 z2.2) ^ 2 * (sb z1.2 z3.2)) * i10 + ((1) * ((c.MW : ℂ)) * ((c.e : ℂ)) ^ 2 * (ab z1.1 z3.1) * (ab z2.1 z3.1) * (sb z0.2 z2.2) ^ 2 + (-1) * ((c.MW : ℂ)) * ((c.e : ℂ)) ^ 2 * (ab z1.1 z3.1) * (mb z0.2 (p 1) z3.1) * (sb z0.2 z2.2) + (1) * ((c.MW : ℂ)) * ((c.e : ℂ)) ^ 2 * (mb z0.2 (p 1) z3.1) * (sb z0.2 z1.2) * (sb z2.2 z3.2) + (-2) * ((c.MW : ℂ)) * ((c.e : ℂ)) ^ 2 * (mb z0.2 (p 1) z3.1) * (sb z0.2 z2.2) * (sb z1.2 z3.2) + (-1) * ((c.MW : ℂ)) * ((c.e : ℂ)) ^ 2 * (mb z3.2 (p 1) z3.1) * (sb z0.2 z1.2) * (sb z0.2 z2.2) + (-1) * ((c.e : ℂ)) ^ 2 * (N.c 0) * (ab z1.1 z3.1) * (sb z0.2 z2.2) * (sb z0.2 z3.2) + (1) * ((c.e : ℂ)) ^ 2 * (ab z1.1 z2.1) * (ab z2.1 z3.1) * (sb z0.2 z2.2) ^ 2 * (sb z2.2 z3.2) + (1) * ((c.e : ℂ)) ^ 2 * (ab z1.1 z3.1) * (mb z0.2 (p 1) z2.1) * (sb z0.2 z2.2) * (sb z2.2 z3.2)) * i11 + ((2) * ((c.MW : ℂ)) * ((c.e : ℂ)) ^ 2 * (sb z0.2 z1.2) * (sb z0.2 z2.2) * (sb z0.2 z3.2) * (sb z2.2 z3.2) + (-2) * ((c.e : ℂ)) ^ 2 * (ab z0.1 z3.1) * (sb z0.2 z1.2) * (sb z0.2 z2.2) ^ 2 * (sb z0.2 z3.2) + (1) * ((c.e : ℂ)) ^ 2 * (ab z2.1 z3.1) * (sb z0.2 z1.2) * (sb z0.2 z2.2) ^ 2 * (sb z2.2 z3.2) + (-1) * ((c.e : ℂ)) ^ 2 * (ab z2.1 z3.1) * (sb z0.2 z2.2) ^ 3 * (sb z1.2 z3.2) + (1) * ((c.e : ℂ)) ^ 2 * (mb z0.2 (p 1) z3.1) * (sb z0.2 z1.2) * (sb z0.2 z2.2) * (sb z2.2 z3.2) + (-1) * ((c.e : ℂ)) ^ 2 * (mb z0.2 (p 1) z3.1) * (sb z0.2 z2.2) ^ 2 * (sb z1.2 z3.2)) * i12 + ((1) * ((c.MW : ℂ)) * ((c.e : ℂ)) ^ 2 * (ab z1.1 z2.1) * (sb z0.2 z2.2) ^ 2 * (sb z2.2 z3.2) + (-2) * ((c.MW : ℂ)) * ((c.e : ℂ)) ^ 2 * (ab z2.1 z3.1) * (sb z0.2 z2.2) ^ 2 * (sb z1.2 z2.2) + (-1) * ((c.e : ℂ)) ^ 2 * (N.c 0) * (sb z0.2 z1.2) * (sb z0.2 z2.2) * (sb z2.2 z3.2) + (1) * ((c.e : ℂ)) ^ 2 * (N.c 0) * (sb z0.2 z2.2) ^ 2 * (sb z1.2 z3.2) + (-1) * ((c.e : ℂ)) ^ 2 * (N.c 1) * (ab z1.1 z3.1) * (sb z0.2 z2.2) ^ 2 + (1) * ((c.e : ℂ)) ^ 2 * (N.c 1) * (sb z0.2 z1.2) * (sb z0.2 z2.2) * (sb z2.2 z3.2) + (-1) * ((c.e : ℂ)) ^ 2 * (N.c 1) * (sb z0.2 z2.2) ^ 2 * (sb z1.2 z3.2) + (1) * ((c.e : ℂ)) ^ 2 * (ab z0.1 z1.1) * (ab z2.1 z3.1) * (sb z0.2 z2.2) ^ 3 + (-1) * ((c.e : ℂ)) ^ 2 * (ab z0.1 z2.1) * (ab z1.1 z3.1) * (sb z0.2 z2.2) ^ 3 + (-1) * ((c.e : ℂ)) ^ 2 * (ab z0.1 z2.1) * (sb z0.2 z1.2) * (sb z0.2 z2.2) ^ 2 * (sb z2.2 z3.2) + (1) * ((c.e : ℂ)) ^ 2 * (ab z0.1 z2.1) * (sb z0.2 z2.2) ^ 3 * (sb z1.2 z3.2) + (-1) * ((c.e : ℂ)) ^ 2 * (ab z1.1 z2.1) * (mb z2.2 (p 1) z3.1) * (sb z0.2 z2.2) ^ 2 + (-1) * ((c.e : ℂ)) ^ 2 * (mb z0.2 (p 1) z2.1) * (sb z0.2 z2.2) * (sb z1.2 z2.2) * (sb z2.2 z3.2)) * i13 + ((-1) * ((c.MW : ℂ)) * ((c.e : ℂ)) ^ 2 * (ab z2.1 z3.1) * (sb z0.2 z2.2) ^ 3 + (-1) * ((c.MW : ℂ)) * ((c.e : ℂ)) ^ 2 * (mb z0.2 (p 1) z3.1) * (sb z0.2 z2.2) ^ 2 + (1) * ((c.e : ℂ)) ^ 2 * (N.c 0) * (sb z0.2 z2.2) ^ 2 * (sb z0.2 z3.2) + (2) * ((c.e : ℂ)) ^ 2 * (ab z0.1 z2.1) * (sb z0.2 z2.2) ^ 3 * (sb z0.2 z3.2) + (1) * ((c.e : ℂ)) ^ 2 * (mb z0.2 (p 1) z2.1) * (sb z0.2 z2.2) ^ 2 * (sb z2.2 z3.2)) * i14 + ((-2) * ((c.e : ℂ)) ^ 2 * (ab z1.1 z2.1) * (ab z2.1 z3.1) * (sb z0.2 z2.2) ^ 3 + (1) * ((c.e : ℂ)) ^ 2 * (ab z1.1 z2.1) * (mb z0.2 (p 1) z3.1) * (sb z0.2 z2.2) ^ 2 + (1) * ((c.e : ℂ)) ^ 2 * (ab z1.1 z3.1) * (mb z0.2 (p 1) z2.1) * (sb z0.2 z2.2) ^ 2 + (-3) * ((c.e : ℂ)) ^ 2 * (mb z0.2 (p 1) z2.1) * (sb z0.2 z1.2) * (sb z0.2 z2.2) * (sb z2.2 z3.2) + (3) * ((c.e : ℂ)) ^ 2 * (mb z0.2 (p 1) z2.1) * (sb z0.2 z2.2) ^ 2 * (sb z1.2 z3.2)) * i15 + ((1) * ((c.MW : ℂ)) * ((c.e : ℂ)) ^ 2 * (sb z0.2 z1.2) * (sb z0.2 z2.2) ^ 2 * (sb z1.2 z2.2)) * i16 + ((1) * ((c.e : ℂ)) ^ 2 * (N.c 1) * (ab z1.1 z3.1) * (sb z0.2 z2.2) ^ 2 + (1) * ((c.e : ℂ)) ^ 2 * (ab z1.1 z2.1) * (mb z2.2 (p 1) z3.1) * (sb z0.2 z2.2) ^ 2) * i17 + ((1) * ((c.MW : ℂ)) * ((c.e : ℂ)) ^ 2 * (mb z0.2 (p 1) z3.1) * (sb z0.2 z2.2) * (sb z1.2 z2.2) + (-1) * ((c.MW : ℂ)) ^ 2 * ((c.e : ℂ)) ^ 2 * (sb z0.2 z1.2) * (sb z0.2 z2.2) * (sb z2.2 z3.2) + (1) * ((c.MW : ℂ)) ^ 2 * ((c.e : ℂ)) ^ 2 * (sb z0.2 z2.2) ^ 2 * (sb z1.2 z3.2) + (1) * ((c.e : ℂ)) ^ 2 * (mb z0.2 (p 1) z2.1) * (sb z0.2 z2.2) * (sb z1.2 z2.2) * (sb z2.2 z3.2) + (-1) * ((c.e : ℂ)) ^ 2 * (mb z3.2 (p 1) z0.1) * (sb z0.2 z1.2) * (sb z0.2 z2.2) ^ 2) * i18 + ((1) * ((c.MW : ℂ)) * ((c.e : ℂ)) ^ 2 * (ab z0.1 z3.1) * (sb z0.2 z2.2) ^ 2 * (sb z1.2 z2.2)) * i19 + ((-2) * ((c.MW : ℂ)) * ((c.e : ℂ)) ^ 2 * (ab z1.1 z3.1) * (sb z0.2 z2.2) ^ 2 * (sb z1.2 z2.2) + (1) * ((c.MW : ℂ)) * ((c.e : ℂ)) ^ 2 * (sb z0.2 z1.2) * (sb z0.2 z2.2) * (sb z1.2 z2.2) * (sb z2.2 z3.2) + (-1) * ((c.e : ℂ)) ^ 2 * (ab z1.1 z2.1) * (sb z0.2 z2.2) ^ 2 * (sb z1.2 z2.2) * (sb z2.2 z3.2)) * i20 + ((-1) * ((c.MW : ℂ)) * ((c.e : ℂ)) ^ 2 * (mb z0.2 (p 1) z3.1) * (sb z0.2 z2.2) * (sb z1.2 z2.2) + (-1) * ((c.e : ℂ)) ^ 2 * (ab z1.1 z2.1) * (mb z2.2 (p 1) z3.1) * (sb z0.2 z2.2) ^ 2) * i21 + ((-2) * ((c.MW : ℂ)) * ((c.e : ℂ)) ^ 2 * (ab z1.1 z3.1) * (sb z0.2 z1.2) * (sb z0.2 z2.2) ^ 2 + (-1) * ((c.MW : ℂ)) * ((c.e : ℂ)) ^ 2 * (sb z0.2 z1.2) * (sb z0.2 z2.2) ^ 2 * (sb z1.2 z3.2) + (1) * ((c.MW : ℂ)) * ((c.e : ℂ)) ^ 2 * (sb z0.2 z1.2) ^ 2 * (sb z0.2 z2.2) * (sb z2.2 z3.2) + (-1) * ((c.e : ℂ)) ^ 2 * (ab z1.1 z2.1) * (ab z1.1 z3.1) * (sb z0.2 z2.2) ^ 3 + (-1) * ((c.e : ℂ)) ^ 2 * (ab z1.1 z2.1) * (sb z0.2 z1.2) * (sb z0.2 z2.2) ^ 2 * (sb z2.2 z3.2)) * i22 + ((1) * ((c.MW : ℂ)) * ((c.e : ℂ)) ^ 2 * (ab z1.1 z3.1) * (sb z0.2 z1.2) * (sb z0.2 z2.2) ^ 2 + (3) * ((c.MW : ℂ)) * ((c.e : ℂ)) ^ 2 * (sb z0.2 z1.2) * (sb z0.2 z2.2) ^ 2 * (sb z1.2 z3.2) + (-3) * ((c.MW : ℂ)) * ((c.e : ℂ)) ^ 2 * (sb z0.2 z1.2) ^ 2 * (sb z0.2 z2.2) * (sb z2.2 z3.2) + (1) * ((c.e : ℂ)) ^ 2 * (ab z1.1 z2.1) * (sb z0.2 z1.2) * (sb z0.2 z2.2) ^ 2 * (sb z2.2 z3.2)) * i23 + ((-1) * ((c.MW : ℂ)) * ((c.e : ℂ)) ^ 2 * (mb z3.2 (p 1) z3.1) * (sb z0.2 z2.2) * (sb z1.2 z2.2) + (1) * ((c.e : ℂ)) ^ 2 * (ab z1.1 z2.1) * (mb z2.2 (p 1) z3.1) * (sb z0.2 z2.2) * (sb z2.2 z3.2)) * i24 + ((-1) * ((c.MW : ℂ)) * ((c.e : ℂ)) ^ 2 * (mb z0.2 (p 1) z3.1) * (sb z0.2 z1.2) * (sb z2.2 z3.2) + (2) * ((c.MW : ℂ)) * ((c.e : ℂ)) ^ 2 * (mb z0.2 (p 1) z3.1) * (sb z0.2 z2.2) * (sb z1.2 z3.2) + (1) * ((c.MW : ℂ)) * ((c.e : ℂ)) ^ 2 * (mb z3.2 (p 1) z3.1) * (sb z0.2 z1.2) * (sb z0.2 z2.2)) * i25 + ((-1) * ((c.MW : ℂ)) ^ 2 * ((c.e : ℂ)) ^ 2 * (sb z0.2 z2.2) ^ 2 * (sb z1.2 z2.2)) * i26 + ((1) * ((c.MW : ℂ)) * ((c.e : ℂ)) ^ 2 * (N.c 0) * (sb z0.2 z2.2) * (sb z1.2 z2.2)) * i27 + ((-1) * ((c.MW : ℂ)) * ((c.e : ℂ)) ^ 2 * (mb z0.2 (p 1) z3.1) * (sb z0.2 z2.2) * (sb z1.2 z2.2) + (-2) * ((c.MW : ℂ)) ^ 2 * ((c.e : ℂ)) ^ 2 * (ab z1.1 z3.1) * (sb z0.2 z2.2) ^ 2 + (1) * ((c.e : ℂ)) ^ 2 * (N.c 0) * (ab z1.1 z3.1) * (sb z0.2 z2.2) ^ 2 + (1) * ((c.e : ℂ)) ^ 2 * (ab z0.1 z1.1) * (ab z2.1 z3.1) * (sb z0.2 z2.2) ^ 3) * i28 + ((-1) * ((c.MW : ℂ)) ^ 2 * ((c.e : ℂ)) ^ 2 * (ab z1.1 z3.1) * (sb z0.2 z2.2) * (sb z1.2 z2.2)) * i29 + ((-1) * ((c.MW : ℂ)) * ((c.e : ℂ)) ^ 2 * (ab z1.1 z3.1) * (sb z0.2 z2.2) * (sb z1.2 z2.2)) * i30)) * ((1) * ((c.MW : ℂ)⁻¹) ^ 2 * ((N.c 1)⁻¹)) + ((-1) * ((c.MW : ℂ)) * (((√2 : ℝ) : ℂ)) ^ 2 * ((c.e : ℂ)) ^ 2 * ((c.MW : ℂ)⁻¹) ^ 2 * (ab z2.1 z3.1) * (sb z0.2 z1.2) * (sb z0.2 z2.2) * (sb z1.2 z2.2) * (sb z2.2 z3.2) + (1) * ((c.MW : ℂ)) * (((√2 : ℝ) : ℂ)) ^ 2 * ((c.e : ℂ)) ^ 2 * ((c.MW : ℂ)⁻¹) ^ 2 * (mb z2.2 (p 1) z3.1) * (sb z0.2 z1.2) ^ 2 * (sb z2.2 z3.2) / (2) + (-1) * (((√2 : ℝ) : ℂ)) ^ 2 * ((c.e : ℂ)) ^ 2 * ((c.MW : ℂ)⁻¹) ^ 2 * (ab z1.1 z2.1) * (mb z2.2 (p 1) z3.1) * (sb z0.2 z1.2) * (sb z0.2 z2.2) * (sb z2.2 z3.2) + (1) * (((√2 : ℝ) : ℂ)) ^ 2 * ((c.e : ℂ)) ^ 2 * ((c.MW : ℂ)⁻¹) ^ 2 * (ab z1.1 z3.1) * (mb z2.2 (p 1) z0.1) * (sb z0.2 z1.2) * (sb z0.2 z2.2) * (sb z0.2 z3.2) + (2) * ((c.e : ℂ)) ^ 2 * (N.c 1) * ((N.c 1)⁻¹) * (ab z1.1 z3.1) ^ 2 * (sb z0.2 z2.2) ^ 2) * y0 + ((2) * ((c.MW : ℂ)) * ((c.e : ℂ)) ^ 2 * ((c.MW : ℂ)⁻¹) ^ 2 * (ab z2.1 z3.1) * (sb z0.2 z1.2) * (sb z0.2 z2.2) * (sb z1.2 z2.2) * (sb z2.2 z3.2) + (1) * ((c.MW : ℂ)) * ((c.e : ℂ)) ^ 2 * ((c.MW : ℂ)⁻¹) ^ 2 * (mb z0.2 (p 1) z3.1) * (sb z0.2 z3.2) * (sb z1.2 z2.2) ^ 2 + (-2) * ((c.MW : ℂ)) ^ 2 * ((c.e : ℂ)) ^ 2 * ((c.MW : ℂ)⁻¹) ^ 2 * (ab z1.1 z3.1) * (sb z0.2 z2.2) ^ 2 * (sb z1.2 z3.2) + (-2) * ((c.MW : ℂ)) ^ 2 * ((c.e : ℂ)) ^ 2 * ((c.MW : ℂ)⁻¹) ^ 2 * (ab z1.1 z3.1) ^ 2 * (sb z0.2 z2.2) ^ 2 + (2) * ((c.e : ℂ)) ^ 2 * ((c.MW : ℂ)⁻¹) ^ 2 * (ab z1.1 z2.1) * (mb z2.2 (p 1) z3.1) * (sb z0.2 z1.2) * (sb z0.2 z2.2) * (sb z2.2 z3.2) + (-2) * ((c.e : ℂ)) ^ 2 * ((c.MW : ℂ)⁻¹) ^ 2 * (ab z1.1 z3.1) * (mb z2.2 (p 1) z0.1) * (sb z0.2 z1.2) * (sb z0.2 z2.2) * (sb z0.2 z3.2) + (2) * ((c.e : ℂ)) ^ 2 * (ab z1.1 z3.1) ^ 2 * (sb z0.2 z2.2) ^ 2) * y1 + ((1) * ((c.MW : ℂ)) * (((√2 : ℝ) : ℂ)) ^ 2 * ((c.e : ℂ)) ^ 2 * ((c.MW : ℂ)⁻¹) * (ab z1.1 z3.1) * (sb z0.2 z2.2) ^ 2 * (sb z1.2 z3.2) + (-2) * ((c.MW : ℂ)) * ((c.e : ℂ)) ^ 2 * ((c.MW : ℂ)⁻¹) * (ab z1.1 z3.1) * (sb z0.2 z2.2) ^ 2 * (sb z1.2 z3.2) + (-2) * ((c.MW : ℂ)) * ((c.e : ℂ)) ^ 2 * ((c.MW : ℂ)⁻¹) * (ab z1.1 z3.1) ^ 2 * (sb z0.2 z2.2) ^ 2 + (-1) * (((√2 : ℝ) : ℂ)) ^ 2 * ((c.e : ℂ)) ^ 2 * ((c.MW : ℂ)⁻¹) * (N.c 0) * ((N.c 1)⁻¹) * (ab z2.1 z3.1) * (sb z0.2 z2.2) * (sb z0.2 z3.2) * (sb z1.2 z2.2) ^ 2 / (2) + (-1) * (((√2 : ℝ) : ℂ)) ^ 2 * ((c.e : ℂ)) ^ 2 * ((c.MW : ℂ)⁻¹) * (N.c 0) * ((N.c 1)⁻¹) * (mb z0.2 (p 1) z3.1) * (sb z0.2 z3.2) * (sb z1.2 z2.2) ^ 2 / (2) + (1) * (((√2 : ℝ) : ℂ)) ^ 2 * ((c.e : ℂ)) ^ 2 * ((c.MW : ℂ)⁻¹) * ((N.c 1)⁻¹) * (ab z2.1 z3.1) * (mb z0.2 (p 1) z2.1) * (sb z0.2 z2.2) * (sb z1.2 z2.2) ^ 2 * (sb z2.2 z3.2) / (2) + (-1) * (((√2 : ℝ) : ℂ)) ^ 2 * ((c.e : ℂ)) ^ 2 * ((c.MW : ℂ)⁻¹) * ((N.c 1)⁻¹) * (mb z0.2 (p 1) z2.1) * (mb z3.2 (p 1) z3.1) * (sb z0.2 z2.2) * (sb z1.2 z2.2) ^ 2 / (2) + (-1) * (((√2 : ℝ) : ℂ)) ^ 2 * ((c.e : ℂ)) ^ 2 * ((c.MW : ℂ)⁻¹) * (ab z2.1 z3.1) * (sb z0.2 z1.2) * (sb z0.2 z2.2) * (sb z1.2 z2.2) * (sb z2.2 z3.2) + (-1) * (((√2 : ℝ) : ℂ)) ^ 2 * ((c.e : ℂ)) ^ 2 * ((c.MW : ℂ)⁻¹) * (mb z0.2 (p 1) z3.1) * (sb z0.2 z3.2) * (sb z1.2 z2.2) ^ 2 / (2) + (1) * (((√2 : ℝ) : ℂ)) ^ 2 * ((c.e : ℂ)) ^ 2 * (ab z1.1 z3.1) * (sb z0.2 z2.2) ^ 2 * (sb z1.2 z3.2) + (1) * ((c.e : ℂ)) ^ 2 * ((c.MW : ℂ)⁻¹) * (N.c 0) * ((N.c 1)⁻¹) * (ab z2.1 z3.1) * (sb z0.2 z2.2) * (sb z0.2 z3.2) * (sb z1.2 z2.2) ^ 2 + (1) * ((c.e : ℂ)) ^ 2 * ((c.MW : ℂ)⁻¹) * (N.c 0) * ((N.c 1)⁻¹) * (mb z0.2 (p 1) z3.1) * (sb z0.2 z3.2) * (sb z1.2 z2.2) ^ 2 + (-1) * ((c.e : ℂ)) ^ 2 * ((c.MW : ℂ)⁻¹) * ((N.c 1)⁻¹) * (ab z2.1 z3.1) * (mb z0.2 (p 1) z2.1) * (sb z0.2 z2.2) * (sb z1.2 z2.2) ^ 2 * (sb z2.2 z3.2) + (1) * ((c.e : ℂ)) ^ 2 * ((c.MW : ℂ)⁻¹) * ((N.c 1)⁻¹) * (mb z0.2 (p 1) z2.1) * (mb z3.2 (p 1) z3.1) * (sb z0.2 z2.2) * (sb z1.2 z2.2) ^ 2 + (2) * ((c.e : ℂ)) ^ 2 * ((c.MW : ℂ)⁻¹) * (ab z2.1 z3.1) * (sb z0.2 z1.2) * (sb z0.2 z2.2) * (sb z1.2 z2.2) * (sb z2.2 z3.2) + (1) * ((c.e : ℂ)) ^ 2 * ((c.MW : ℂ)⁻¹) * (mb z0.2 (p 1) z3.1) * (sb z0.2 z3.2) * (sb z1.2 z2.2) ^ 2 + (-2) * ((c.e : ℂ)) ^ 2 * (ab z1.1 z3.1) * (sb z0.2 z2.2) ^ 2 * (sb z1.2 z3.2) + (-2) * ((c.e : ℂ)) ^ 2 * (ab z1.1 z3.1) ^ 2 * (sb z0.2 z2.2) ^ 2) * yMW + ((-1) * ((c.e : ℂ)) ^ 2 * ((c.MW : ℂ)⁻¹) * (N.c 0) * ((N.c 1)⁻¹) * (ab z2.1 z3.1) * (sb z0.2 z2.2) * (sb z0.2 z3.2) * (sb z1.2 z2.2) ^ 2 / (2) + (-1) * ((c.e : ℂ)) ^ 2 * ((c.MW : ℂ)⁻¹) * (N.c 0) * ((N.c 1)⁻¹) * (mb z0.2 (p 1) z3.1) * (sb z0.2 z3.2) * (sb z1.2 z2.2) ^ 2 / (2) + (1) * ((c.e : ℂ)) ^ 2 * ((c.MW : ℂ)⁻¹) * ((N.c 1)⁻¹) * (ab z2.1 z3.1) * (mb z0.2 (p 1) z2.1) * (sb z0.2 z2.2) * (sb z1.2 z2.2) ^ 2 * (sb z2.2 z3.2) / (2) + (-1) * ((c.e : ℂ)) ^ 2 * ((c.MW : ℂ)⁻¹) * ((N.c 1)⁻¹) * (mb z0.2 (p 1) z2.1) * (mb z3.2 (p 1) z3.1) * (sb z0.2 z2.2) * (sb z1.2 z2.2) ^ 2 / (2) + (-1) * ((c.e : ℂ)) ^ 2 * ((c.MW : ℂ)⁻¹) * (ab z2.1 z3.1) * (sb z0.2 z1.2) * (sb z0.2 z2.2) * (sb z1.2 z2.2) * (sb z2.2 z3.2) + (-1) * ((c.e : ℂ)) ^ 2 * ((c.MW : ℂ)⁻¹) * (mb z0.2 (p 1) z3.1) * (sb z0.2 z3.2) * (sb z1.2 z2.2) ^ 2 / (2) + (-1) * ((c.e : ℂ)) ^ 2 * ((c.MW : ℂ)⁻¹) ^ 2 * (N.c 0) * ((N.c 1)⁻¹) * (ab z1.1 z2.1) * (mb z2.2 (p 1) z3.1) * (sb z0.2 z2.2) * (sb z0.2 z3.2) * (sb z1.2 z2.2) + (1) * ((c.e : ℂ)) ^ 2 * ((c.MW : ℂ)⁻¹) ^ 2 * ((N.c 1)⁻¹) * (ab z1.1 z2.1) * (mb z0.2 (p 1) z2.1) * (mb z2.2 (p 1) z3.1) * (sb z0.2 z2.2) * (sb z1.2 z2.2) * (sb z2.2 z3.2) + (-1) * ((c.e : ℂ)) ^ 2 * ((c.MW : ℂ)⁻¹) ^ 2 * (ab z1.1 z2.1) * (mb z2.2 (p 1) z3.1) * (sb z0.2 z1.2) * (sb z0.2 z2.2) * (sb z2.2 z3.2) + (1) * ((c.e : ℂ)) ^ 2 * ((c.MW : ℂ)⁻¹) ^ 2 * (ab z1.1 z3.1) * (mb z2.2 (p 1) z0.1) * (sb z0.2 z1.2) * (sb z0.2 z2.2) * (sb z0.2 z3.2) + (1) * ((c.e : ℂ)) ^ 2 * (ab z1.1 z3.1) * (sb z0.2 z2.2) ^ 2 * (sb z1.2 z3.2)) * x22
theorem AWAW.keyPM {c : Constants} {p : Nat → V4 ℝ} {N : Env} (hc : c.Physical) (hb : Balanced p) (r0 : N.r 0 = c.e) (d0 : pole c.MW c.WW (plus (p 0) (p 1)) = N.c 0) (n0 : N.c 0 ≠ 0) (d1 : pole c.MW c.WW (plus (p 0) (backward (p 3))) = N.c 1) (n1 : N.c 1 ≠ 0) {z0 z1 z2 z3 : Pair} (b1 : Bold (p 1) c.MW z1) (b3 : Bold (p 3) c.MW z3) (l0 : Light (p 0) z0) (l2 : Light (p 2) z2) (e01 : mb z0.2 (p 1) z0.1 = N.c 0) (e03 : mb z0.2 (p 3) z0.1 = -N.c 1) (e21 : mb z2.2 (p 1) z2.1 = -N.c 1) (e23 : mb z2.2 (p 3) z2.1 = N.c 0) (q1 : msq (p 1) = c.MW ^ 2) (q3 : msq (p 3) = c.MW ^ 2) {ρ0 : V2} (R0 : ∀ Y, ab ρ0 Y = mb z0.2 (p 1) Y) {ρ2 : V2} (R2 : ∀ Y, sb ρ2 Y = mb Y (p 1) z2.1) :
    AWAW.formPM N p z0 z1 z1 z2 z3 z3 * ab ρ0 z0.1 * sb ρ2 z2.2 = ((√2 : ℝ) * ((√2 : ℝ) * ((1 : ℂ) * ((2 / (c.MW * c.MW) : ℝ) : ℂ)))) * AWAW.react.bare4 c p (pv ρ0 z0.2) (pv z1.1 z1.2) (pv z2.1 ρ2) (pv z3.1 z3.2) := by
  rw [AWAW.react.bare4_parts c p (b₀ := .photon) (b₁ := .wPlus) (b₂ := .photon) (b₃ := .wMinus) rfl rfl rfl rfl, AWAW.formPM]
  have T0 := l0.mb_plus ρ0
  have T1 := b1.mb_zero'
  have T2 := mb_back_zero (l2.mb_minus ρ2)
  have T3 := mb_back_zero (b3.mb_zero')
  have Q1 : msq (p 1) = c.MW ^ 2 := q1
  have Q3 : msq (backward (p 3)) = c.MW ^ 2 := (msq_backward _).trans q3
  simp only [contact, seagull, gauge4, between, carriers, List.map_cons, List.map_nil, List.sum_cons, List.sum_nil]
  simp only [toHiggs, toVector, higgs2, gauge3, Boson.anti, reduceCtorEq, and_self, and_true, and_false, true_and, false_and, if_true, if_false, Complex.ofReal_zero, zero_smul, carry_none, zero_mul, mul_zero, zero_div, neg_zero, add_zero, zero_add, sub_zero, sub_self, contract_zero, contract_zero_left]
  first | rw [dress_plus c (x := .wPlus) (.inl rfl) hc.MW l0 Q1 T1] | rw [dress_plus c (x := .wMinus) (.inr rfl) hc.MW l0 Q1 T1]
  first | rw [dress_plus c (x := .wPlus) (.inl rfl) hc.MW l0 Q3 T3] | rw [dress_plus c (x := .wMinus) (.inr rfl) hc.MW l0 Q3 T3]
  simp only [d0, d1, yangMills_transverse T1 T2, yangMills_transverse T1 T3, yangMills_transverse T2 T3, contract_add, contract_smul, contract_smul_left, contract_four_pv, contract_pv_four, contract_pv, mb_backward]
  have R00 := (ref_plus_plus R0 R0).2
  have R22 := (ref_minus_minus R2 R2).2
  have i0 := mb_schouten_right z0.2 (p 3) z0.1 z1.1 z2.1
  have i1 := mb_schouten_right z0.2 (p 3) z0.1 z2.1 z3.1
  have i2 := mb_schouten_right z0.2 (p 1) z0.1 z1.1 z2.1
  have i3 := mb_schouten_right z0.2 (p 1) z0.1 z2.1 z3.1
  have i4 := mb_schouten_right z0.2 (p 3) z0.1 z1.1 z3.1
  have i5 := ab_schouten z1.1 z2.1 z3.1 z0.1
  have i6 := mb_schouten_left z0.2 z1.2 z3.2 (p 3) z0.1
  have i7 := sb_schouten z1.2 z2.2 z3.2 z0.2
  have i8 := mb_schouten_right z2.2 (p 3) z1.1 z2.1 z3.1
  have i9 := mb_schouten_right z0.2 (p 1) z1.1 z2.1 z3.1
  have i10 := mb_schouten_right z1.2 (p 3) z0.1 z2.1 z3.1
  have i11 := mb_schouten_right z2.2 (p 1) z0.1 z1.1 z2.1
  have i12 := mb_schouten_left z0.2 z1.2 z2.2 (p 1) z2.1
  have i13 := mb_schouten_right z3.2 (p 1) z1.1 z2.1 z3.1
  have i14 := mb_schouten_right z0.2 (p 1) z0.1 z1.1 z3.1
  have i15 := mb_schouten_left z0.2 z2.2 z3.2 (p 1) z2.1
  have i16 := mb_schouten_left z0.2 z1.2 z3.2 (p 1) z2.1
  have i17 := mb_schouten_right z0.2 (p 3) z1.1 z2.1 z3.1
  have i18 := mb_schouten_right z2.2 (p 3) z0.1 z2.1 z3.1
  simp only [ab_swap ρ0 z0.1, ab_swap ρ0 z1.1, ab_swap ρ0 z2.1, ab_swap ρ0 z3.1, sb_swap ρ2 z0.2, sb_swap ρ2 z1.2, sb_swap ρ2 z2.2, sb_swap ρ2 z3.2, R00, R0, R22, R2, l0.mb_eq, l2.mb_eq, b1.mb_left, b1.mb_right, b3.mb_left, b3.mb_right, e01, e03, e21, e23, mb_three hb z0.2 z1.1, mb_three hb z0.2 z2.1, mb_three hb z1.2 z0.1, mb_three hb z1.2 z1.1, mb_three hb z1.2 z2.1, mb_three hb z2.2 z0.1, mb_three hb z2.2 z1.1, mb_three hb z0.2 ρ0, mb_three hb ρ2 z2.1, ab_self, sb_self] at i0 i1 i2 i3 i4 i5 i6 i7 i8 i9 i10 i11 i12 i13 i14 i15 i16 i17 i18 ⊢
  simp only [ab_swap z0.1 z1.1, sb_swap z0.2 z1.2, ab_swap z0.1 z2.1, sb_swap z0.2 z2.2, ab_swap z0.1 z3.1, sb_swap z0.2 z3.2, ab_swap z1.1 z2.1, sb_swap z1.2 z2.2, ab_swap z1.1 z3.1, sb_swap z1.2 z3.2, ab_swap z2.1 z3.1, sb_swap z2.2 z3.2] at i0 i1 i2 i3 i4 i5 i6 i7 i8 i9 i10 i11 i12 i13 i14 i15 i16 i17 i18 ⊢
  simp only [r0, Constants.invVev, ← c.mz]
  have xMW : (c.MW : ℂ) ≠ 0 := by exact_mod_cast hc.MW
  have xSW : (c.SW : ℂ) ≠ 0 := by exact_mod_cast hc.SW
  have xCW : (c.CW : ℂ) ≠ 0 := by exact_mod_cast hc.CW
  have x2 : ((√2 : ℝ) : ℂ) ≠ 0 := by exact_mod_cast (Real.sqrt_pos.2 two_pos).ne'
  have x22 : ((√2 : ℝ) : ℂ) ^ 2 = 2 := by rw [← Complex.ofReal_pow, Real.sq_sqrt two_pos.le]; norm_num
  push_cast at i0 i1 i2 i3 i4 i5 i6 i7 i8 i9 i10 i11 i12 i13 i14 i15 i16 i17 i18 ⊢
  simp only [div_eq_mul_inv, mul_inv, inv_inv] at i0 i1 i2 i3 i4 i5 i6 i7 i8 i9 i10 i11 i12 i13 i14 i15 i16 i17 i18 ⊢
  have y0 := mul_inv_cancel₀ n0
  have y1 := mul_inv_cancel₀ n1
  have yMW := mul_inv_cancel₀ xMW
  linear_combination ((((2) * ((c.MW : ℂ)) * ((c.e : ℂ)) ^ 2 * (ab z1.1 z2.1) * (mb z0.2 (p 1) z3.1) * (sb z0.2 z3.2) + (-4) * ((c.MW : ℂ)) * ((c.e : ℂ)) ^ 2 * (ab z1.1 z3.1) * (mb z0.2 (p 1) z2.1) * (sb z0.2 z3.2) + (2) * ((c.MW : ℂ)) ^ 2 * ((c.e : ℂ)) ^ 2 * (ab z1.1 z2.1) * (sb z0.2 z3.2) ^ 2 + (2) * ((c.e : ℂ)) ^ 2 * (N.c 0) * (ab z2.1 z3.1) * (sb z0.2 z1.2) * (sb z0.2 z3.2) + (2) * ((c.e : ℂ)) ^ 2 * (ab z0.1 z2.1) * (mb z0.2 (p 1) z3.1) * (sb z0.2 z1.2) * (sb z0.2 z3.2) + (1) * ((c.e : ℂ)) ^ 2 * (ab z1.1 z3.1) * (ab z2.1 z3.1) * (mb z0.2 (p 1) z2.1) * (sb z0.2 z2.2) + (-1) * ((c.e : ℂ)) ^ 2 * (ab z1.1 z3.1) * (mb z0.2 (p 1) z2.1) * (mb z0.2 (p 1) z3.1) + (-4) * ((c.e : ℂ)) ^ 2 * (ab z2.1 z3.1) * (mb z0.2 (p 1) z2.1) * (sb z0.2 z1.2) * (sb z2.2 z3.2) + (4) * ((c.e : ℂ)) ^ 2 * (ab z2.1 z3.1) * (mb z0.2 (p 1) z2.1) * (sb z0.2 z2.2) * (sb z1.2 z3.2)) * i0 + ((3) * ((c.MW : ℂ)) * ((c.e : ℂ)) ^ 2 * (ab z1.1 z2.1) * (mb z0.2 (p 1) z3.1) * (sb z0.2 z1.2) + (-2) * ((c.MW : ℂ)) * ((c.e : ℂ)) ^ 2 * (ab z1.1 z2.1) ^ 2 * (sb z0.2 z2.2) * (sb z0.2 z3.2) + (-4) * ((c.MW : ℂ)) * ((c.e : ℂ)) ^ 2 * (ab z1.1 z3.1) * (mb z0.2 (p 1) z2.1) * (sb z0.2 z1.2) + (2) * ((c.MW : ℂ)) ^ 2 * ((c.e : ℂ)) ^ 2 * (ab z1.1 z2.1) * (sb z0.2 z1.2) * (sb z0.2 z3.2) + (1) * ((c.e : ℂ)) ^ 2 * (ab z1.1 z2.1) * (ab z1.1 z3.1) * (mb z0.2 (p 1) z2.1) * (sb z0.2 z2.2) + (2) * ((c.e : ℂ)) ^ 2 * (ab z1.1 z2.1) * (mb z0.2 (p 1) z2.1) * (sb z0.2 z1.2) * (sb z2.2 z3.2) + (-2) * ((c.e : ℂ)) ^ 2 * (ab z1.1 z2.1) * (mb z0.2 (p 1) z2.1) * (sb z0.2 z2.2) * (sb z1.2 z3.2) + (-1) * ((c.e : ℂ)) ^ 2 * (ab z1.1 z2.1) ^ 2 * (mb z0.2 (p 1) z3.1) * (sb z0.2 z2.2)) * i1 + ((1) * ((c.MW : ℂ)) * ((c.e : ℂ)) ^ 2 * (ab z1.1 z2.1) * (mb z0.2 (p 1) z3.1) * (sb z0.2 z3.2) + (-2) * ((c.e : ℂ)) ^ 2 * (N.c 0) * (ab z2.1 z3.1) * (sb z0.2 z1.2) * (sb z0.2 z3.2) + (-2) * ((c.e : ℂ)) ^ 2 * (ab z0.1 z2.1) * (mb z0.2 (p 1) z3.1) * (sb z0.2 z1.2) * (sb z0.2 z3.2) + (-1) * ((c.e : ℂ)) ^ 2 * (ab z1.1 z3.1) * (ab z2.1 z3.1) * (mb z0.2 (p 1) z2.1) * (sb z0.2 z2.2) + (1) * ((c.e : ℂ)) ^ 2 * (ab z1.1 z3.1) * (mb z0.2 (p 1) z2.1) * (mb z0.2 (p 1) z3.1) + (2) * ((c.e : ℂ)) ^ 2 * (ab z2.1 z3.1) * (mb z0.2 (p 1) z2.1) * (sb z0.2 z1.2) * (sb z2.2 z3.2) + (-2) * ((c.e : ℂ)) ^ 2 * (ab z2.1 z3.1) * (mb z0.2 (p 1) z2.1) * (sb z0.2 z2.2) * (sb z1.2 z3.2)) * i2 + ((1) * ((c.MW : ℂ)) * ((c.e : ℂ)) ^ 2 * (ab z1.1 z2.1) ^ 2 * (sb z0.2 z2.2) * (sb z0.2 z3.2) + (2) * ((c.e : ℂ)) ^ 2 * (N.c 0) * (ab z1.1 z2.1) * (sb z0.2 z1.2) * (sb z0.2 z3.2) + (2) * ((c.e : ℂ)) ^ 2 * (N.c 1) * (ab z1.1 z2.1) * (sb z0.2 z1.2) * (sb z0.2 z3.2) + (2) * ((c.e : ℂ)) ^ 2 * (ab z0.1 z2.1) * (ab z1.1 z2.1) * (sb z0.2 z1.2) * (sb z0.2 z2.2) * (sb z0.2 z3.2) + (1) * ((c.e : ℂ)) ^ 2 * (ab z1.1 z2.1) * (ab z1.1 z3.1) * (mb z0.2 (p 1) z2.1) * (sb z0.2 z2.2)) * i3 + ((2) * ((c.MW : ℂ)) * ((c.e : ℂ)) ^ 2 * (ab z1.1 z2.1) * (mb z0.2 (p 1) z2.1) * (sb z0.2 z3.2) + (-1) * ((c.e : ℂ)) ^ 2 * (ab z1.1 z2.1) * (ab z2.1 z3.1) * (mb z0.2 (p 1) z2.1) * (sb z0.2 z2.2) + (3) * ((c.e : ℂ)) ^ 2 * (ab z1.1 z2.1) * (mb z0.2 (p 1) z2.1) * (mb z0.2 (p 1) z3.1) + (-2) * ((c.e : ℂ)) ^ 2 * (ab z1.1 z3.1) * (mb z0.2 (p 1) z2.1) ^ 2) * i4 + ((3) * ((c.MW : ℂ)) * ((c.e : ℂ)) ^ 2 * (ab z1.1 z2.1) * (mb z0.2 (p 1) z2.1) * (sb z0.2 z2.2) * (sb z0.2 z3.2) + (2) * ((c.e : ℂ)) ^ 2 * (N.c 1) * (mb z0.2 (p 1) z2.1) * (sb z0.2 z1.2) * (sb z0.2 z3.2) + (-1) * ((c.e : ℂ)) ^ 2 * (ab z1.1 z2.1) * (ab z2.1 z3.1) * (mb z0.2 (p 1) z2.1) * (sb z0.2 z2.2) ^ 2 + (2) * ((c.e : ℂ)) ^ 2 * (ab z1.1 z2.1) * (mb z0.2 (p 1) z2.1) * (mb z0.2 (p 1) z3.1) * (sb z0.2 z2.2) + (2) * ((c.e : ℂ)) ^ 2 * (mb z0.2 (p 1) z2.1) ^ 2 * (sb z0.2 z1.2) * (sb z2.2 z3.2) + (-2) * ((c.e : ℂ)) ^ 2 * (mb z0.2 (p 1) z2.1) ^ 2 * (sb z0.2 z2.2) * (sb z1.2 z3.2)) * i5 + ((-2) * ((c.e : ℂ)) ^ 2 * (ab z1.1 z2.1) * (ab z2.1 z3.1) * (mb z0.2 (p 1) z2.1) * (sb z0.2 z2.2) + (2) * ((c.e : ℂ)) ^ 2 * (ab z1.1 z3.1) * (mb z0.2 (p 1) z2.1) ^ 2) * i6 + ((2) * ((c.MW : ℂ)) * ((c.e : ℂ)) ^ 2 * (ab z0.1 z2.1) * (ab z2.1 z3.1) * (mb z0.2 (p 1) z2.1) * (sb z0.2 z1.2) + (-2) * ((c.e : ℂ)) ^ 2 * (N.c 0) * (ab z1.1 z2.1) * (ab z2.1 z3.1) * (mb z0.2 (p 1) z2.1) + (-4) * ((c.e : ℂ)) ^ 2 * (ab z0.1 z2.1) * (ab z1.1 z2.1) * (ab z2.1 z3.1) * (mb z0.2 (p 1) z2.1) * (sb z0.2 z2.2) + (2) * ((c.e : ℂ)) ^ 2 * (ab z0.1 z2.1) * (ab z1.1 z3.1) * (mb z0.2 (p 1) z2.1) ^ 2) * i7 + ((-1) * ((c.e : ℂ)) ^ 2 * (ab z1.1 z2.1) * (ab z2.1 z3.1) * (mb z0.2 (p 1) z2.1) * (sb z0.2 z2.2) + (1) * ((c.e : ℂ)) ^ 2 * (ab z1.1 z2.1) * (mb z0.2 (p 1) z2.1) * (mb z0.2 (p 1) z3.1)) * i8 + ((2) * ((c.MW : ℂ)) * ((c.e : ℂ)) ^ 2 * (N.c 1) * (ab z1.1 z2.1) * (sb z0.2 z3.2) + (2) * ((c.MW : ℂ)) * ((c.e : ℂ)) ^ 2 * (N.c 1) * (ab z2.1 z3.1) * (sb z0.2 z1.2) + (-1) * ((c.MW : ℂ)) * ((c.e : ℂ)) ^ 2 * (ab z1.1 z2.1) * (mb z3.2 (p 1) z2.1) * (sb z0.2 z2.2) + (-1) * ((c.MW : ℂ)) ^ 2 * ((c.e : ℂ)) ^ 2 * (ab z1.1 z2.1) * (ab z2.1 z3.1) * (sb z0.2 z2.2) + (-1) * ((c.e : ℂ)) ^ 2 * (N.c 1) * (ab z1.1 z2.1) * (ab z2.1 z3.1) * (sb z0.2 z2.2) + (2) * ((c.e : ℂ)) ^ 2 * (N.c 1) * (ab z1.1 z3.1) * (mb z0.2 (p 1) z2.1)) * i9 + ((2) * ((c.e : ℂ)) ^ 2 * (ab z1.1 z2.1) * (mb z0.2 (p 1) z2.1) * (sb z0.2 z2.2) * (sb z0.2 z3.2)) * i10 + ((2) * ((c.e : ℂ)) ^ 2 * (ab z2.1 z3.1) * (mb z0.2 (p 1) z2.1) * (sb z0.2 z1.2) * (sb z0.2 z3.2)) * i11 + ((-1) * ((c.MW : ℂ)) * ((c.e : ℂ)) ^ 2 * (ab z1.1 z2.1) * (ab z2.1 z3.1) * (mb z0.2 (p 1) z3.1) + (1) * ((c.MW : ℂ)) * ((c.e : ℂ)) ^ 2 * (ab z1.1 z2.1) * (ab z2.1 z3.1) ^ 2 * (sb z0.2 z2.2) + (-2) * ((c.e : ℂ)) ^ 2 * (ab z1.1 z2.1) * (ab z2.1 z3.1) * (mb z3.2 (p 1) z2.1) * (sb z0.2 z2.2)) * i12 + ((1) * ((c.MW : ℂ)) * ((c.e : ℂ)) ^ 2 * (ab z1.1 z2.1) * (mb z0.2 (p 1) z2.1) * (sb z0.2 z2.2)) * i13 + ((-1) * ((c.e : ℂ)) ^ 2 * (ab z1.1 z2.1) * (ab z2.1 z3.1) * (mb z0.2 (p 1) z2.1) * (sb z0.2 z2.2)) * i14 + ((-2) * ((c.MW : ℂ)) * ((c.e : ℂ)) ^ 2 * (ab z1.1 z2.1) ^ 2 * (ab z2.1 z3.1) * (sb z0.2 z2.2) + (1) * ((c.MW : ℂ)) * ((c.e : ℂ)) ^ 2 * (ab z1.1 z2.1) ^ 2 * (mb z0.2 (p 1) z3.1)) * i15 + ((-1) * ((c.MW : ℂ)) ^ 2 * ((c.e : ℂ)) ^ 2 * (ab z1.1 z2.1) * (ab z2.1 z3.1) * (sb z0.2 z2.2)) * i16 + ((1) * ((c.MW : ℂ)) ^ 2 * ((c.e : ℂ)) ^ 2 * (ab z1.1 z2.1) * (ab z2.1 z3.1) * (sb z0.2 z2.2)) * i17 + ((-2) * ((c.e : ℂ)) ^ 2 * (ab z1.1 z2.1) * (mb z0.2 (p 1) z2.1) * (sb z0.2 z1.2) * (sb z0.2 z3.2)) * i18)) * ((1) * ((c.MW : ℂ)⁻¹) ^ 2 * ((N.c 1)⁻¹)) + ((-1) * ((c.MW : ℂ)) * (((√2 : ℝ) : ℂ)) ^ 2 * ((c.e : ℂ)) ^ 2 * ((c.MW : ℂ)⁻¹) ^ 2 * (ab z2.1 z3.1) * (mb z3.2 (p 1) z2.1) * (sb z0.2 z1.2) ^ 2 / (2) + (-1) * (((√2 : ℝ) : ℂ)) ^ 2 * ((c.e : ℂ)) ^ 2 * ((c.MW : ℂ)⁻¹) ^ 2 * (ab z0.1 z2.1) * (ab z1.1 z3.1) * (mb z0.2 (p 1) z2.1) * (sb z0.2 z1.2) * (sb z0.2 z3.2) + (1) * (((√2 : ℝ) : ℂ)) ^ 2 * ((c.e : ℂ)) ^ 2 * ((c.MW : ℂ)⁻¹) ^ 2 * (ab z1.1 z2.1) * (ab z2.1 z3.1) * (mb z0.2 (p 1) z2.1) * (sb z0.2 z1.2) * (sb z2.2 z3.2) + (1) * (((√2 : ℝ) : ℂ)) ^ 2 * ((c.e : ℂ)) ^ 2 * ((c.MW : ℂ)⁻¹) ^ 2 * (ab z1.1 z2.1) * (ab z2.1 z3.1) * (mb z3.2 (p 1) z2.1) * (sb z0.2 z1.2) * (sb z0.2 z2.2) + (-4) * ((c.e : ℂ)) ^ 2 * (N.c 1) * ((N.c 1)⁻¹) * (ab z1.1 z2.1) * (ab z2.1 z3.1) * (sb z0.2 z1.2) * (sb z0.2 z3.2) + (-2) * ((c.e : ℂ)) ^ 2 * (N.c 1) * ((N.c 1)⁻¹) * (ab z1.1 z2.1) ^ 2 * (sb z0.2 z3.2) ^ 2 + (-2) * ((c.e : ℂ)) ^ 2 * (N.c 1) * ((N.c 1)⁻¹) * (ab z2.1 z3.1) ^ 2 * (sb z0.2 z1.2) ^ 2) * y0 + ((-1) * ((c.MW : ℂ)) * ((c.e : ℂ)) ^ 2 * ((c.MW : ℂ)⁻¹) ^ 2 * (ab z1.1 z2.1) ^ 2 * (mb z0.2 (p 1) z3.1) * (sb z0.2 z3.2) + (4) * ((c.MW : ℂ)) ^ 2 * ((c.e : ℂ)) ^ 2 * ((c.MW : ℂ)⁻¹) ^ 2 * (ab z1.1 z2.1) * (ab z2.1 z3.1) * (sb z0.2 z1.2) * (sb z0.2 z3.2) + (2) * ((c.MW : ℂ)) ^ 2 * ((c.e : ℂ)) ^ 2 * ((c.MW : ℂ)⁻¹) ^ 2 * (ab z1.1 z2.1) ^ 2 * (sb z0.2 z3.2) ^ 2 + (2) * ((c.MW : ℂ)) ^ 2 * ((c.e : ℂ)) ^ 2 * ((c.MW : ℂ)⁻¹) ^ 2 * (ab z2.1 z3.1) ^ 2 * (sb z0.2 z1.2) ^ 2 + (2) * ((c.e : ℂ)) ^ 2 * ((c.MW : ℂ)⁻¹) ^ 2 * (ab z0.1 z2.1) * (ab z1.1 z3.1) * (mb z0.2 (p 1) z2.1) * (sb z0.2 z1.2) * (sb z0.2 z3.2) + (-2) * ((c.e : ℂ)) ^ 2 * ((c.MW : ℂ)⁻¹) ^ 2 * (ab z1.1 z2.1) * (ab z2.1 z3.1) * (mb z0.2 (p 1) z2.1) * (sb z0.2 z1.2) * (sb z2.2 z3.2) + (-2) * ((c.e : ℂ)) ^ 2 * ((c.MW : ℂ)⁻¹) ^ 2 * (ab z1.1 z2.1) * (ab z2.1 z3.1) * (mb z3.2 (p 1) z2.1) * (sb z0.2 z1.2) * (sb z0.2 z2.2) + (2) * ((c.e : ℂ)) ^ 2 * ((c.MW : ℂ)⁻¹) ^ 2 * (ab z1.1 z3.1) * (mb z0.2 (p 1) z2.1) ^ 2 * (sb z1.2 z3.2) + (-4) * ((c.e : ℂ)) ^ 2 * (ab z1.1 z2.1) * (ab z2.1 z3.1) * (sb z0.2 z1.2) * (sb z0.2 z3.2) + (-2) * ((c.e : ℂ)) ^ 2 * (ab z1.1 z2.1) ^ 2 * (sb z0.2 z3.2) ^ 2 + (-2) * ((c.e : ℂ)) ^ 2 * (ab z2.1 z3.1) ^ 2 * (sb z0.2 z1.2) ^ 2) * y1 + ((4) * ((c.MW : ℂ)) * ((c.e : ℂ)) ^ 2 * ((c.MW : ℂ)⁻¹) * (ab z1.1 z2.1) * (ab z2.1 z3.1) * (sb z0.2 z1.2) * (sb z0.2 z3.2) + (2) * ((c.MW : ℂ)) * ((c.e : ℂ)) ^ 2 * ((c.MW : ℂ)⁻¹) * (ab z1.1 z2.1) ^ 2 * (sb z0.2 z3.2) ^ 2 + (2) * ((c.MW : ℂ)) * ((c.e : ℂ)) ^ 2 * ((c.MW : ℂ)⁻¹) * (ab z2.1 z3.1) ^ 2 * (sb z0.2 z1.2) ^ 2 + (1) * (((√2 : ℝ) : ℂ)) ^ 2 * ((c.e : ℂ)) ^ 2 * ((c.MW : ℂ)⁻¹) * (N.c 0) * ((N.c 1)⁻¹) * (ab z1.1 z2.1) ^ 2 * (ab z2.1 z3.1) * (sb z0.2 z2.2) * (sb z0.2 z3.2) / (2) + (1) * (((√2 : ℝ) : ℂ)) ^ 2 * ((c.e : ℂ)) ^ 2 * ((c.MW : ℂ)⁻¹) * (N.c 0) * ((N.c 1)⁻¹) * (ab z1.1 z2.1) ^ 2 * (mb z0.2 (p 1) z3.1) * (sb z0.2 z3.2) / (2) + (-1) * (((√2 : ℝ) : ℂ)) ^ 2 * ((c.e : ℂ)) ^ 2 * ((c.MW : ℂ)⁻¹) * ((N.c 1)⁻¹) * (ab z1.1 z2.1) ^ 2 * (ab z2.1 z3.1) * (mb z0.2 (p 1) z2.1) * (sb z0.2 z2.2) * (sb z2.2 z3.2) / (2) + (1) * (((√2 : ℝ) : ℂ)) ^ 2 * ((c.e : ℂ)) ^ 2 * ((c.MW : ℂ)⁻¹) * ((N.c 1)⁻¹) * (ab z1.1 z2.1) ^ 2 * (mb z0.2 (p 1) z2.1) * (mb z3.2 (p 1) z3.1) * (sb z0.2 z2.2) / (2) + (1) * (((√2 : ℝ) : ℂ)) ^ 2 * ((c.e : ℂ)) ^ 2 * ((c.MW : ℂ)⁻¹) * (ab z1.1 z2.1) ^ 2 * (mb z0.2 (p 1) z3.1) * (sb z0.2 z3.2) / (2) + (-1) * ((c.e : ℂ)) ^ 2 * ((c.MW : ℂ)⁻¹) * (N.c 0) * ((N.c 1)⁻¹) * (ab z1.1 z2.1) ^ 2 * (ab z2.1 z3.1) * (sb z0.2 z2.2) * (sb z0.2 z3.2) + (-1) * ((c.e : ℂ)) ^ 2 * ((c.MW : ℂ)⁻¹) * (N.c 0) * ((N.c 1)⁻¹) * (ab z1.1 z2.1) ^ 2 * (mb z0.2 (p 1) z3.1) * (sb z0.2 z3.2) + (1) * ((c.e : ℂ)) ^ 2 * ((c.MW : ℂ)⁻¹) * ((N.c 1)⁻¹) * (ab z1.1 z2.1) ^ 2 * (ab z2.1 z3.1) * (mb z0.2 (p 1) z2.1) * (sb z0.2 z2.2) * (sb z2.2 z3.2) + (-1) * ((c.e : ℂ)) ^ 2 * ((c.MW : ℂ)⁻¹) * ((N.c 1)⁻¹) * (ab z1.1 z2.1) ^ 2 * (mb z0.2 (p 1) z2.1) * (mb z3.2 (p 1) z3.1) * (sb z0.2 z2.2) + (-1) * ((c.e : ℂ)) ^ 2 * ((c.MW : ℂ)⁻¹) * (ab z1.1 z2.1) ^ 2 * (mb z0.2 (p 1) z3.1) * (sb z0.2 z3.2) + (4) * ((c.e : ℂ)) ^ 2 * (ab z1.1 z2.1) * (ab z2.1 z3.1) * (sb z0.2 z1.2) * (sb z0.2 z3.2) + (2) * ((c.e : ℂ)) ^ 2 * (ab z1.1 z2.1) ^ 2 * (sb z0.2 z3.2) ^ 2 + (2) * ((c.e : ℂ)) ^ 2 * (ab z2.1 z3.1) ^ 2 * (sb z0.2 z1.2) ^ 2) * yMW + ((1) * ((c.e : ℂ)) ^ 2 * ((c.MW : ℂ)⁻¹) * (N.c 0) * ((N.c 1)⁻¹) * (ab z1.1 z2.1) ^ 2 * (ab z2.1 z3.1) * (sb z0.2 z2.2) * (sb z0.2 z3.2) / (2) + (1) * ((c.e : ℂ)) ^ 2 * ((c.MW : ℂ)⁻¹) * (N.c 0) * ((N.c 1)⁻¹) * (ab z1.1 z2.1) ^ 2 * (mb z0.2 (p 1) z3.1) * (sb z0.2 z3.2) / (2) + (-1) * ((c.e : ℂ)) ^ 2 * ((c.MW : ℂ)⁻¹) * ((N.c 1)⁻¹) * (ab z1.1 z2.1) ^ 2 * (ab z2.1 z3.1) * (mb z0.2 (p 1) z2.1) * (sb z0.2 z2.2) * (sb z2.2 z3.2) / (2) + (1) * ((c.e : ℂ)) ^ 2 * ((c.MW : ℂ)⁻¹) * ((N.c 1)⁻¹) * (ab z1.1 z2.1) ^ 2 * (mb z0.2 (p 1) z2.1) * (mb z3.2 (p 1) z3.1) * (sb z0.2 z2.2) / (2) + (1) * ((c.e : ℂ)) ^ 2 * ((c.MW : ℂ)⁻¹) * (ab z1.1 z2.1) ^ 2 * (mb z0.2 (p 1) z3.1) * (sb z0.2 z3.2) / (2) + (-1) * ((c.e : ℂ)) ^ 2 * ((c.MW : ℂ)⁻¹) ^ 2 * (N.c 0) * ((N.c 1)⁻¹) * (ab z1.1 z2.1) * (ab z2.1 z3.1) * (mb z0.2 (p 1) z2.1) * (sb z0.2 z3.2) * (sb z1.2 z2.2) + (-1) * ((c.e : ℂ)) ^ 2 * ((c.MW : ℂ)⁻¹) ^ 2 * ((N.c 1)⁻¹) * (ab z1.1 z2.1) * (ab z2.1 z3.1) * (mb z0.2 (p 1) z2.1) * (mb z3.2 (p 1) z2.1) * (sb z0.2 z2.2) * (sb z1.2 z2.2) + (-1) * ((c.e : ℂ)) ^ 2 * ((c.MW : ℂ)⁻¹) ^ 2 * (ab z0.1 z2.1) * (ab z1.1 z3.1) * (mb z0.2 (p 1) z2.1) * (sb z0.2 z1.2) * (sb z0.2 z3.2) + (1) * ((c.e : ℂ)) ^ 2 * ((c.MW : ℂ)⁻¹) ^ 2 * (ab z1.1 z2.1) * (ab z2.1 z3.1) * (mb z0.2 (p 1) z2.1) * (sb z0.2 z1.2) * (sb z2.2 z3.2) + (1) * ((c.e : ℂ)) ^ 2 * ((c.MW : ℂ)⁻¹) ^ 2 * (ab z1.1 z2.1) * (ab z2.1 z3.1) * (mb z3.2 (p 1) z2.1) * (sb z0.2 z1.2) * (sb z0.2 z2.2) + (-1) * ((c.e : ℂ)) ^ 2 * ((c.MW : ℂ)⁻¹) ^ 2 * (ab z1.1 z3.1) * (mb z0.2 (p 1) z2.1) ^ 2 * (sb z1.2 z3.2)) * x22
theorem AWAW.keyMP {c : Constants} {p : Nat → V4 ℝ} {N : Env} (hc : c.Physical) (hb : Balanced p) (r0 : N.r 0 = c.e) (d0 : pole c.MW c.WW (plus (p 0) (p 1)) = N.c 0) (n0 : N.c 0 ≠ 0) (d1 : pole c.MW c.WW (plus (p 0) (backward (p 3))) = N.c 1) (n1 : N.c 1 ≠ 0) {z0 z1 z2 z3 : Pair} (b1 : Bold (p 1) c.MW z1) (b3 : Bold (p 3) c.MW z3) (l0 : Light (p 0) z0) (l2 : Light (p 2) z2) (e01 : mb z0.2 (p 1) z0.1 = N.c 0) (e03 : mb z0.2 (p 3) z0.1 = -N.c 1) (e21 : mb z2.2 (p 1) z2.1 = -N.c 1) (e23 : mb z2.2 (p 3) z2.1 = N.c 0) (q1 : msq (p 1) = c.MW ^ 2) (q3 : msq (p 3) = c.MW ^ 2) {ρ0 : V2} (R0 : ∀ Y, sb ρ0 Y = mb Y (p 1) z0.1) {ρ2 : V2} (R2 : ∀ Y, ab ρ2 Y = mb z2.2 (p 1) Y) :
    AWAW.formMP N p z0 z1 z1 z2 z3 z3 * sb ρ0 z0.2 * ab ρ2 z2.1 = ((√2 : ℝ) * ((√2 : ℝ) * ((1 : ℂ) * ((2 / (c.MW * c.MW) : ℝ) : ℂ)))) * AWAW.react.bare4 c p (pv z0.1 ρ0) (pv z1.1 z1.2) (pv ρ2 z2.2) (pv z3.1 z3.2) := by
  rw [AWAW.react.bare4_parts c p (b₀ := .photon) (b₁ := .wPlus) (b₂ := .photon) (b₃ := .wMinus) rfl rfl rfl rfl, AWAW.formMP]
  have T0 := l0.mb_minus ρ0
  have T1 := b1.mb_zero'
  have T2 := mb_back_zero (l2.mb_plus ρ2)
  have T3 := mb_back_zero (b3.mb_zero')
  have Q1 : msq (p 1) = c.MW ^ 2 := q1
  have Q3 : msq (backward (p 3)) = c.MW ^ 2 := (msq_backward _).trans q3
  simp only [contact, seagull, gauge4, between, carriers, List.map_cons, List.map_nil, List.sum_cons, List.sum_nil]
  simp only [toHiggs, toVector, higgs2, gauge3, Boson.anti, reduceCtorEq, and_self, and_true, and_false, true_and, false_and, if_true, if_false, Complex.ofReal_zero, zero_smul, carry_none, zero_mul, mul_zero, zero_div, neg_zero, add_zero, zero_add, sub_zero, sub_self, contract_zero, contract_zero_left]
  first | rw [dress_minus c (x := .wPlus) (.inl rfl) hc.MW l0 Q1 T1] | rw [dress_minus c (x := .wMinus) (.inr rfl) hc.MW l0 Q1 T1]
  first | rw [dress_minus c (x := .wPlus) (.inl rfl) hc.MW l0 Q3 T3] | rw [dress_minus c (x := .wMinus) (.inr rfl) hc.MW l0 Q3 T3]
  simp only [d0, d1, yangMills_transverse T1 T2, yangMills_transverse T1 T3, yangMills_transverse T2 T3, contract_add, contract_smul, contract_smul_left, contract_four_pv, contract_pv_four, contract_pv, mb_backward]
  have R00 := (ref_minus_minus R0 R0).2
  have R22 := (ref_plus_plus R2 R2).2
  have i0 := mb_schouten_right z2.2 (p 1) z0.1 z1.1 z3.1
  have i1 := mb_schouten_right z0.2 (p 3) z0.1 z1.1 z3.1
  have i2 := mb_schouten_right z0.2 (p 1) z0.1 z1.1 z3.1
  have i3 := mb_schouten_right z2.2 (p 3) z0.1 z1.1 z3.1
  have i4 := mb_schouten_right z2.2 (p 1) z0.1 z1.1 z2.1
  have i5 := mb_schouten_left z0.2 z1.2 z2.2 (p 1) z0.1
  have i6 := mb_schouten_right z2.2 (p 3) z0.1 z1.1 z2.1
  have i7 := mb_schouten_right z1.2 (p 3) z0.1 z1.1 z3.1
  have i8 := mb_schouten_right z2.2 (p 3) z0.1 z2.1 z3.1
  have i9 := mb_schouten_right z2.2 (p 1) z0.1 z2.1 z3.1
  have i10 := mb_schouten_right z1.2 (p 3) z0.1 z2.1 z3.1
  have i11 := ab_schouten z1.1 z2.1 z3.1 z0.1
  have i12 := mb_schouten_left z0.2 z2.2 z3.2 (p 1) z0.1
  have i13 := mb_schouten_left z0.2 z1.2 z3.2 (p 1) z0.1
  have i14 := sb_schouten z1.2 z2.2 z3.2 z0.2
  have i15 := mb_schouten_left z0.2 z1.2 z3.2 (p 3) z0.1
  have i16 := mb_schouten_right z3.2 (p 1) z0.1 z2.1 z3.1
  have i17 := mb_schouten_left z1.2 z2.2 z3.2 (p 1) z2.1
  have i18 := mb_schouten_left z1.2 z2.2 z3.2 (p 1) z0.1
  have i19 := mb_schouten_right z3.2 (p 1) z0.1 z1.1 z2.1
  simp only [sb_swap ρ0 z0.2, sb_swap ρ0 z1.2, sb_swap ρ0 z2.2, sb_swap ρ0 z3.2, ab_swap ρ2 z0.1, ab_swap ρ2 z1.1, ab_swap ρ2 z2.1, ab_swap ρ2 z3.1, R00, R0, R22, R2, l0.mb_eq, l2.mb_eq, b1.mb_left, b1.mb_right, b3.mb_left, b3.mb_right, e01, e03, e21, e23, mb_three hb z0.2 z1.1, mb_three hb z0.2 z2.1, mb_three hb z1.2 z0.1, mb_three hb z1.2 z1.1, mb_three hb z1.2 z2.1, mb_three hb z2.2 z0.1, mb_three hb z2.2 z1.1, mb_three hb ρ0 z0.1, mb_three hb z2.2 ρ2, ab_self, sb_self] at i0 i1 i2 i3 i4 i5 i6 i7 i8 i9 i10 i11 i12 i13 i14 i15 i16 i17 i18 i19 ⊢
  simp only [ab_swap z0.1 z1.1, sb_swap z0.2 z1.2, ab_swap z0.1 z2.1, sb_swap z0.2 z2.2, ab_swap z0.1 z3.1, sb_swap z0.2 z3.2, ab_swap z1.1 z2.1, sb_swap z1.2 z2.2, ab_swap z1.1 z3.1, sb_swap z1.2 z3.2, ab_swap z2.1 z3.1, sb_swap z2.2 z3.2] at i0 i1 i2 i3 i4 i5 i6 i7 i8 i9 i10 i11 i12 i13 i14 i15 i16 i17 i18 i19 ⊢
  simp only [r0, Constants.invVev, ← c.mz]
  have xMW : (c.MW : ℂ) ≠ 0 := by exact_mod_cast hc.MW
  have xSW : (c.SW : ℂ) ≠ 0 := by exact_mod_cast hc.SW
  have xCW : (c.CW : ℂ) ≠ 0 := by exact_mod_cast hc.CW
  have x2 : ((√2 : ℝ) : ℂ) ≠ 0 := by exact_mod_cast (Real.sqrt_pos.2 two_pos).ne'
  have x22 : ((√2 : ℝ) : ℂ) ^ 2 = 2 := by rw [← Complex.ofReal_pow, Real.sq_sqrt two_pos.le]; norm_num
  push_cast at i0 i1 i2 i3 i4 i5 i6 i7 i8 i9 i10 i11 i12 i13 i14 i15 i16 i17 i18 i19 ⊢
  simp only [div_eq_mul_inv, mul_inv, inv_inv] at i0 i1 i2 i3 i4 i5 i6 i7 i8 i9 i10 i11 i12 i13 i14 i15 i16 i17 i18 i19 ⊢
  have y0 := mul_inv_cancel₀ n0
  have y1 := mul_inv_cancel₀ n1
  have yMW := mul_inv_cancel₀ xMW
  linear_combination ((((-1) * ((c.MW : ℂ)) * ((c.e : ℂ)) ^ 2 * (N.c 0) * (ab z0.1 z1.1) * (sb z2.2 z3.2) + (-3) * ((c.MW : ℂ)) * ((c.e : ℂ)) ^ 2 * (N.c 0) * (ab z0.1 z3.1) * (sb z1.2 z2.2) + (-3) * ((c.MW : ℂ)) * ((c.e : ℂ)) ^ 2 * (N.c 1) * (ab z0.1 z3.1) * (sb z1.2 z2.2) + (1) * ((c.MW : ℂ)) * ((c.e : ℂ)) ^ 2 * (ab z0.1 z1.1) * (ab z0.1 z2.1) * (sb z0.2 z2.2) * (sb z2.2 z3.2) + (2) * ((c.MW : ℂ)) * ((c.e : ℂ)) ^ 2 * (ab z0.1 z1.1) * (mb z2.2 (p 1) z0.1) * (sb z0.2 z3.2) + (1) * ((c.MW : ℂ)) * ((c.e : ℂ)) ^ 2 * (ab z0.1 z1.1) * (mb z3.2 (p 1) z0.1) * (sb z0.2 z2.2) + (1) * ((c.MW : ℂ)) ^ 2 * ((c.e : ℂ)) ^ 2 * (ab z0.1 z1.1) * (ab z0.1 z3.1) * (sb z0.2 z2.2) + (1) * ((c.e : ℂ)) ^ 2 * (N.c 0) * (ab z0.1 z1.1) * (ab z0.1 z3.1) * (sb z0.2 z2.2) + (2) * ((c.e : ℂ)) ^ 2 * (N.c 0) * (ab z1.1 z3.1) * (mb z2.2 (p 1) z0.1) + (2) * ((c.e : ℂ)) ^ 2 * (N.c 1) * (ab z0.1 z1.1) * (ab z0.1 z3.1) * (sb z0.2 z2.2) + (-1) * ((c.e : ℂ)) ^ 2 * (N.c 1) * (ab z0.1 z2.1) * (sb z1.2 z2.2) * (sb z2.2 z3.2) + (2) * ((c.e : ℂ)) ^ 2 * (N.c 1) * (ab z1.1 z3.1) * (mb z2.2 (p 1) z0.1) + (1) * ((c.e : ℂ)) ^ 2 * (ab z0.1 z1.1) * (mb z0.2 (p 1) z3.1) * (mb z2.2 (p 1) z0.1) + (1) * ((c.e : ℂ)) ^ 2 * (ab z0.1 z2.1) * (mb z2.2 (p 1) z0.1) * (sb z0.2 z1.2) * (sb z2.2 z3.2) + (-1) * ((c.e : ℂ)) ^ 2 * (ab z0.1 z2.1) * (mb z3.2 (p 1) z0.1) * (sb z0.2 z2.2) * (sb z1.2 z2.2) + (-1) * ((c.e : ℂ)) ^ 2 * (ab z0.1 z2.1) ^ 2 * (sb z0.2 z2.2) * (sb z1.2 z2.2) * (sb z2.2 z3.2) + (1) * ((c.e : ℂ)) ^ 2 * (mb z2.2 (p 1) z0.1) * (mb z3.2 (p 1) z0.1) * (sb z0.2 z1.2) + (1) * ((c.e : ℂ)) ^ 2 * (mb z2.2 (p 1) z0.1) * (mb z3.2 (p 1) z2.1) * (sb z1.2 z2.2)) * i0 + ((-1) * ((c.MW : ℂ)) * ((c.e : ℂ)) ^ 2 * (ab z0.1 z3.1) * (mb z2.2 (p 1) z0.1) * (sb z1.2 z2.2) + (2) * ((c.e : ℂ)) ^ 2 * (ab z0.1 z1.1) * (mb z2.2 (p 1) z0.1) * (mb z2.2 (p 1) z3.1) + (-1) * ((c.e : ℂ)) ^ 2 * (ab z0.1 z2.1) * (mb z2.2 (p 1) z0.1) * (sb z1.2 z2.2) * (sb z2.2 z3.2) + (2) * ((c.e : ℂ)) ^ 2 * (ab z1.1 z3.1) * (mb z2.2 (p 1) z0.1) ^ 2 + (-1) * ((c.e : ℂ)) ^ 2 * (mb z2.2 (p 1) z0.1) * (mb z3.2 (p 1) z0.1) * (sb z1.2 z2.2)) * i1 + ((1) * ((c.MW : ℂ)) * ((c.e : ℂ)) ^ 2 * (ab z0.1 z1.1) * (mb z2.2 (p 1) z0.1) * (sb z2.2 z3.2) + (2) * ((c.MW : ℂ)) * ((c.e : ℂ)) ^ 2 * (ab z0.1 z3.1) * (mb z2.2 (p 1) z0.1) * (sb z1.2 z2.2) + (-1) * ((c.e : ℂ)) ^ 2 * (ab z0.1 z1.1) * (ab z0.1 z3.1) * (mb z2.2 (p 1) z0.1) * (sb z0.2 z2.2) + (-1) * ((c.e : ℂ)) ^ 2 * (ab z0.1 z1.1) * (mb z2.2 (p 1) z0.1) * (mb z2.2 (p 1) z3.1) + (-2) * ((c.e : ℂ)) ^ 2 * (ab z1.1 z3.1) * (mb z2.2 (p 1) z0.1) ^ 2) * i2 + ((3) * ((c.MW : ℂ)) * ((c.e : ℂ)) ^ 2 * (N.c 0) * (ab z0.1 z3.1) * (sb z1.2 z2.2) + (2) * ((c.MW : ℂ)) * ((c.e : ℂ)) ^ 2 * (N.c 1) * (ab z0.1 z1.1) * (sb z2.2 z3.2) + (4) * ((c.MW : ℂ)) * ((c.e : ℂ)) ^ 2 * (N.c 1) * (ab z0.1 z3.1) * (sb z1.2 z2.2) + (-1) * ((c.MW : ℂ)) * ((c.e : ℂ)) ^ 2 * (ab z0.1 z2.1) * (mb z2.2 (p 1) z3.1) * (sb z1.2 z2.2) + (-1) * ((c.e : ℂ)) ^ 2 * (N.c 0) * (ab z0.1 z1.1) * (mb z2.2 (p 1) z3.1) + (-2) * ((c.e : ℂ)) ^ 2 * (N.c 1) * (mb z2.2 (p 1) z0.1) * (sb z1.2 z3.2) + (-1) * ((c.e : ℂ)) ^ 2 * (N.c 1) * (mb z3.2 (p 1) z0.1) * (sb z1.2 z2.2) + (1) * ((c.e : ℂ)) ^ 2 * (ab z0.1 z1.1) * (mb z0.2 (p 1) z3.1) * (mb z2.2 (p 1) z0.1) + (-1) * ((c.e : ℂ)) ^ 2 * (ab z0.1 z2.1) * (mb z2.2 (p 1) z0.1) * (sb z0.2 z1.2) * (sb z2.2 z3.2) + (-1) * ((c.e : ℂ)) ^ 2 * (mb z2.2 (p 1) z0.1) * (mb z3.2 (p 1) z0.1) * (sb z0.2 z1.2) + (-1) * ((c.e : ℂ)) ^ 2 * (mb z2.2 (p 1) z0.1) * (mb z3.2 (p 1) z2.1) * (sb z1.2 z2.2)) * i3 + ((-3) * ((c.MW : ℂ)) * ((c.e : ℂ)) ^ 2 * (ab z0.1 z3.1) * (mb z2.2 (p 1) z3.1) * (sb z1.2 z2.2) + (1) * ((c.MW : ℂ)) * ((c.e : ℂ)) ^ 2 * (ab z0.1 z3.1) ^ 2 * (sb z0.2 z2.2) * (sb z1.2 z2.2) + (1) * ((c.MW : ℂ)) * ((c.e : ℂ)) ^ 2 * (mb z3.2 (p 1) z0.1) * (sb z1.2 z2.2) * (sb z2.2 z3.2) + (-2) * ((c.MW : ℂ)) ^ 2 * ((c.e : ℂ)) ^ 2 * (ab z0.1 z3.1) * (sb z1.2 z2.2) * (sb z2.2 z3.2) + (-2) * ((c.e : ℂ)) ^ 2 * (N.c 0) * (ab z0.1 z3.1) * (sb z1.2 z2.2) * (sb z2.2 z3.2) + (2) * ((c.e : ℂ)) ^ 2 * (ab z0.1 z1.1) * (ab z0.1 z3.1) * (mb z2.2 (p 1) z3.1) * (sb z0.2 z2.2) + (-3) * ((c.e : ℂ)) ^ 2 * (ab z0.1 z2.1) * (mb z2.2 (p 1) z3.1) * (sb z1.2 z2.2) * (sb z2.2 z3.2) + (2) * ((c.e : ℂ)) ^ 2 * (ab z0.1 z3.1) * (ab z1.1 z3.1) * (mb z2.2 (p 1) z0.1) * (sb z0.2 z2.2) + (-1) * ((c.e : ℂ)) ^ 2 * (ab z0.1 z3.1) * (mb z3.2 (p 1) z0.1) * (sb z0.2 z2.2) * (sb z1.2 z2.2)) * i4 + ((-1) * ((c.MW : ℂ)) * ((c.e : ℂ)) ^ 2 * (ab z0.1 z1.1) * (ab z0.1 z3.1) * (mb z2.2 (p 1) z3.1) + (1) * ((c.MW : ℂ)) ^ 2 * ((c.e : ℂ)) ^ 2 * (ab z0.1 z3.1) ^ 2 * (sb z1.2 z2.2) + (-1) * ((c.e : ℂ)) ^ 2 * (N.c 0) * (ab z0.1 z3.1) ^ 2 * (sb z1.2 z2.2) + (-2) * ((c.e : ℂ)) ^ 2 * (N.c 1) * (ab z0.1 z1.1) * (ab z0.1 z3.1) * (sb z2.2 z3.2) + (-1) * ((c.e : ℂ)) ^ 2 * (N.c 1) * (ab z0.1 z3.1) ^ 2 * (sb z1.2 z2.2) + (-1) * ((c.e : ℂ)) ^ 2 * (ab z0.1 z1.1) * (ab z0.1 z2.1) * (mb z2.2 (p 1) z3.1) * (sb z2.2 z3.2) + (-1) * ((c.e : ℂ)) ^ 2 * (ab z0.1 z1.1) * (mb z2.2 (p 1) z3.1) * (mb z3.2 (p 1) z0.1) + (1) * ((c.e : ℂ)) ^ 2 * (ab z0.1 z2.1) * (ab z0.1 z3.1) ^ 2 * (sb z0.2 z2.2) * (sb z1.2 z2.2)) * i5 + ((3) * ((c.MW : ℂ)) * ((c.e : ℂ)) ^ 2 * (ab z0.1 z3.1) * (mb z2.2 (p 1) z3.1) * (sb z1.2 z2.2) + (-1) * ((c.MW : ℂ)) * ((c.e : ℂ)) ^ 2 * (ab z0.1 z3.1) ^ 2 * (sb z0.2 z2.2) * (sb z1.2 z2.2) + (1) * ((c.MW : ℂ)) ^ 2 * ((c.e : ℂ)) ^ 2 * (ab z0.1 z3.1) * (sb z1.2 z2.2) * (sb z2.2 z3.2) + (1) * ((c.e : ℂ)) ^ 2 * (ab z0.1 z2.1) * (mb z2.2 (p 1) z3.1) * (sb z1.2 z2.2) * (sb z2.2 z3.2) + (1) * ((c.e : ℂ)) ^ 2 * (mb z2.2 (p 1) z3.1) * (mb z3.2 (p 1) z0.1) * (sb z1.2 z2.2)) * i6 + ((1) * ((c.MW : ℂ)) * ((c.e : ℂ)) ^ 2 * (ab z0.1 z3.1) * (mb z2.2 (p 1) z0.1) * (sb z0.2 z2.2) + (2) * ((c.e : ℂ)) ^ 2 * (N.c 1) * (mb z2.2 (p 1) z0.1) * (sb z2.2 z3.2) + (1) * ((c.e : ℂ)) ^ 2 * (ab z0.1 z2.1) * (mb z2.2 (p 1) z0.1) * (sb z0.2 z2.2) * (sb z2.2 z3.2) + (1) * ((c.e : ℂ)) ^ 2 * (mb z2.2 (p 1) z0.1) * (mb z3.2 (p 1) z0.1) * (sb z0.2 z2.2)) * i7 + ((1) * ((c.MW : ℂ)) * ((c.e : ℂ)) ^ 2 * (mb z2.2 (p 1) z0.1) * (sb z1.2 z2.2) * (sb z1.2 z3.2) + (-1) * ((c.MW : ℂ)) * ((c.e : ℂ)) ^ 2 * (mb z3.2 (p 1) z0.1) * (sb z1.2 z2.2) ^ 2 + (1) * ((c.MW : ℂ)) ^ 2 * ((c.e : ℂ)) ^ 2 * (ab z0.1 z3.1) * (sb z1.2 z2.2) ^ 2 + (-1) * ((c.e : ℂ)) ^ 2 * (N.c 0) * (ab z0.1 z3.1) * (sb z1.2 z2.2) ^ 2 + (1) * ((c.e : ℂ)) ^ 2 * (ab z0.1 z2.1) * (ab z0.1 z3.1) * (sb z0.2 z2.2) * (sb z1.2 z2.2) ^ 2 + (1) * ((c.e : ℂ)) ^ 2 * (ab z0.1 z2.1) * (mb z2.2 (p 1) z3.1) * (sb z1.2 z2.2) ^ 2 + (-1) * ((c.e : ℂ)) ^ 2 * (ab z0.1 z3.1) * (mb z2.2 (p 1) z0.1) * (sb z0.2 z1.2) * (sb z1.2 z2.2)) * i8 + ((-1) * ((c.MW : ℂ)) * ((c.e : ℂ)) ^ 2 * (ab z0.1 z2.1) * (sb z1.2 z2.2) ^ 2 * (sb z2.2 z3.2) + (-1) * ((c.MW : ℂ)) * ((c.e : ℂ)) ^ 2 * (mb z2.2 (p 1) z0.1) * (sb z1.2 z2.2) * (sb z1.2 z3.2) + (-1) * ((c.MW : ℂ)) ^ 2 * ((c.e : ℂ)) ^ 2 * (ab z0.1 z3.1) * (sb z1.2 z2.2) ^ 2 + (1) * ((c.e : ℂ)) ^ 2 * (N.c 0) * (ab z0.1 z3.1) * (sb z1.2 z2.2) ^ 2 + (1) * ((c.e : ℂ)) ^ 2 * (ab z0.1 z3.1) * (mb z2.2 (p 1) z0.1) * (sb z0.2 z1.2) * (sb z1.2 z2.2)) * i9 + ((-1) * ((c.e : ℂ)) ^ 2 * (ab z0.1 z3.1) * (mb z2.2 (p 1) z0.1) * (sb z0.2 z2.2) * (sb z1.2 z2.2) + (-1) * ((c.e : ℂ)) ^ 2 * (mb z2.2 (p 1) z0.1) * (mb z2.2 (p 1) z3.1) * (sb z1.2 z2.2)) * i10 + ((-1) * ((c.MW : ℂ)) * ((c.e : ℂ)) ^ 2 * (ab z0.1 z3.1) * (mb z2.2 (p 1) z0.1) * (sb z0.2 z2.2) * (sb z1.2 z2.2) + (-1) * ((c.MW : ℂ)) * ((c.e : ℂ)) ^ 2 * (mb z2.2 (p 1) z0.1) * (mb z2.2 (p 1) z3.1) * (sb z1.2 z2.2) + (2) * ((c.e : ℂ)) ^ 2 * (N.c 1) * (mb z2.2 (p 1) z0.1) * (sb z1.2 z2.2) * (sb z2.2 z3.2)) * i11 + ((-2) * ((c.MW : ℂ)) * ((c.e : ℂ)) ^ 2 * (ab z0.1 z2.1) * (ab z0.1 z3.1) * (sb z1.2 z2.2) ^ 2 + (1) * ((c.MW : ℂ)) ^ 2 * ((c.e : ℂ)) ^ 2 * (ab z0.1 z1.1) * (ab z0.1 z3.1) * (sb z1.2 z2.2)) * i12 + ((1) * ((c.MW : ℂ)) * ((c.e : ℂ)) ^ 2 * (ab z0.1 z3.1) * (mb z2.2 (p 1) z0.1) * (sb z1.2 z2.2)) * i13 + ((-1) * ((c.MW : ℂ)) * ((c.e : ℂ)) ^ 2 * (ab z0.1 z1.1) * (ab z0.1 z2.1) * (mb z2.2 (p 1) z0.1) * (sb z2.2 z3.2) + (-1) * ((c.MW : ℂ)) * ((c.e : ℂ)) ^ 2 * (ab z0.1 z1.1) * (mb z2.2 (p 1) z0.1) * (mb z3.2 (p 1) z0.1) + (-1) * ((c.MW : ℂ)) ^ 2 * ((c.e : ℂ)) ^ 2 * (ab z0.1 z1.1) * (ab z0.1 z3.1) * (mb z2.2 (p 1) z0.1)) * i14 + ((2) * ((c.MW : ℂ)) * ((c.e : ℂ)) ^ 2 * (ab z0.1 z3.1) * (mb z2.2 (p 1) z0.1) * (sb z1.2 z2.2)) * i15 + ((1) * ((c.MW : ℂ)) * ((c.e : ℂ)) ^ 2 * (mb z2.2 (p 1) z0.1) * (sb z1.2 z2.2) ^ 2) * i16 + ((1) * ((c.MW : ℂ)) * ((c.e : ℂ)) ^ 2 * (ab z0.1 z3.1) * (mb z2.2 (p 1) z0.1) * (sb z1.2 z2.2)) * i17 + ((1) * ((c.MW : ℂ)) * ((c.e : ℂ)) ^ 2 * (ab z0.1 z2.1) * (mb z2.2 (p 1) z3.1) * (sb z1.2 z2.2)) * i18 + ((-1) * ((c.MW : ℂ)) * ((c.e : ℂ)) ^ 2 * (mb z2.2 (p 1) z0.1) * (sb z1.2 z2.2) * (sb z2.2 z3.2) + (1) * ((c.e : ℂ)) ^ 2 * (ab z0.1 z3.1) * (mb z2.2 (p 1) z0.1) * (sb z0.2 z2.2) * (sb z1.2 z2.2) + (-1) * ((c.e : ℂ)) ^ 2 * (mb z2.2 (p 1) z0.1) * (mb z2.2 (p 1) z3.1) * (sb z1.2 z2.2)) * i19)) * ((1) * ((c.MW : ℂ)⁻¹) ^ 2 * ((N.c 1)⁻¹)) + ((-1) * ((c.MW : ℂ)) * (((√2 : ℝ) : ℂ)) ^ 2 * ((c.e : ℂ)) ^ 2 * ((c.MW : ℂ)⁻¹) ^ 2 * (ab z0.1 z1.1) ^ 2 * (mb z2.2 (p 1) z3.1) * (sb z2.2 z3.2) / (2) + (1) * (((√2 : ℝ) : ℂ)) ^ 2 * ((c.e : ℂ)) ^ 2 * ((c.MW : ℂ)⁻¹) ^ 2 * (ab z0.1 z1.1) * (ab z0.1 z2.1) * (mb z2.2 (p 1) z3.1) * (sb z1.2 z2.2) * (sb z2.2 z3.2) + (-1) * (((√2 : ℝ) : ℂ)) ^ 2 * ((c.e : ℂ)) ^ 2 * ((c.MW : ℂ)⁻¹) ^ 2 * (ab z0.1 z1.1) * (ab z0.1 z3.1) * (mb z2.2 (p 1) z0.1) * (sb z0.2 z2.2) * (sb z1.2 z3.2) + (1) * (((√2 : ℝ) : ℂ)) ^ 2 * ((c.e : ℂ)) ^ 2 * ((c.MW : ℂ)⁻¹) ^ 2 * (ab z0.1 z1.1) * (ab z2.1 z3.1) * (mb z2.2 (p 1) z0.1) * (sb z1.2 z2.2) * (sb z2.2 z3.2) + (-4) * ((c.e : ℂ)) ^ 2 * (N.c 1) * ((N.c 1)⁻¹) * (ab z0.1 z1.1) * (ab z0.1 z3.1) * (sb z1.2 z2.2) * (sb z2.2 z3.2) + (-2) * ((c.e : ℂ)) ^ 2 * (N.c 1) * ((N.c 1)⁻¹) * (ab z0.1 z1.1) ^ 2 * (sb z2.2 z3.2) ^ 2 + (-2) * ((c.e : ℂ)) ^ 2 * (N.c 1) * ((N.c 1)⁻¹) * (ab z0.1 z3.1) ^ 2 * (sb z1.2 z2.2) ^ 2) * y0 + ((-1) * ((c.MW : ℂ)) * ((c.e : ℂ)) ^ 2 * ((c.MW : ℂ)⁻¹) ^ 2 * (ab z0.1 z3.1) * (mb z3.2 (p 1) z0.1) * (sb z1.2 z2.2) ^ 2 + (4) * ((c.MW : ℂ)) ^ 2 * ((c.e : ℂ)) ^ 2 * ((c.MW : ℂ)⁻¹) ^ 2 * (ab z0.1 z1.1) * (ab z0.1 z3.1) * (sb z1.2 z2.2) * (sb z2.2 z3.2) + (2) * ((c.MW : ℂ)) ^ 2 * ((c.e : ℂ)) ^ 2 * ((c.MW : ℂ)⁻¹) ^ 2 * (ab z0.1 z1.1) ^ 2 * (sb z2.2 z3.2) ^ 2 + (2) * ((c.MW : ℂ)) ^ 2 * ((c.e : ℂ)) ^ 2 * ((c.MW : ℂ)⁻¹) ^ 2 * (ab z0.1 z3.1) ^ 2 * (sb z1.2 z2.2) ^ 2 + (-2) * ((c.e : ℂ)) ^ 2 * ((c.MW : ℂ)⁻¹) ^ 2 * (ab z0.1 z1.1) * (ab z0.1 z2.1) * (mb z2.2 (p 1) z3.1) * (sb z1.2 z2.2) * (sb z2.2 z3.2) + (2) * ((c.e : ℂ)) ^ 2 * ((c.MW : ℂ)⁻¹) ^ 2 * (ab z0.1 z1.1) * (ab z0.1 z3.1) * (mb z2.2 (p 1) z0.1) * (sb z0.2 z2.2) * (sb z1.2 z3.2) + (-2) * ((c.e : ℂ)) ^ 2 * ((c.MW : ℂ)⁻¹) ^ 2 * (ab z0.1 z1.1) * (ab z2.1 z3.1) * (mb z2.2 (p 1) z0.1) * (sb z1.2 z2.2) * (sb z2.2 z3.2) + (2) * ((c.e : ℂ)) ^ 2 * ((c.MW : ℂ)⁻¹) ^ 2 * (ab z1.1 z3.1) * (mb z2.2 (p 1) z0.1) ^ 2 * (sb z1.2 z3.2) + (-4) * ((c.e : ℂ)) ^ 2 * (ab z0.1 z1.1) * (ab z0.1 z3.1) * (sb z1.2 z2.2) * (sb z2.2 z3.2) + (-2) * ((c.e : ℂ)) ^ 2 * (ab z0.1 z1.1) ^ 2 * (sb z2.2 z3.2) ^ 2 + (-2) * ((c.e : ℂ)) ^ 2 * (ab z0.1 z3.1) ^ 2 * (sb z1.2 z2.2) ^ 2) * y1 + ((4) * ((c.MW : ℂ)) * ((c.e : ℂ)) ^ 2 * ((c.MW : ℂ)⁻¹) * (ab z0.1 z1.1) * (ab z0.1 z3.1) * (sb z1.2 z2.2) * (sb z2.2 z3.2) + (2) * ((c.MW : ℂ)) * ((c.e : ℂ)) ^ 2 * ((c.MW : ℂ)⁻¹) * (ab z0.1 z1.1) ^ 2 * (sb z2.2 z3.2) ^ 2 + (2) * ((c.MW : ℂ)) * ((c.e : ℂ)) ^ 2 * ((c.MW : ℂ)⁻¹) * (ab z0.1 z3.1) ^ 2 * (sb z1.2 z2.2) ^ 2 + (1) * (((√2 : ℝ) : ℂ)) ^ 2 * ((c.e : ℂ)) ^ 2 * ((c.MW : ℂ)⁻¹) * (N.c 0) * ((N.c 1)⁻¹) * (ab z0.1 z2.1) * (ab z0.1 z3.1) * (sb z1.2 z2.2) ^ 2 * (sb z2.2 z3.2) / (2) + (1) * (((√2 : ℝ) : ℂ)) ^ 2 * ((c.e : ℂ)) ^ 2 * ((c.MW : ℂ)⁻¹) * (N.c 0) * ((N.c 1)⁻¹) * (ab z0.1 z3.1) * (mb z3.2 (p 1) z0.1) * (sb z1.2 z2.2) ^ 2 / (2) + (-1) * (((√2 : ℝ) : ℂ)) ^ 2 * ((c.e : ℂ)) ^ 2 * ((c.MW : ℂ)⁻¹) * ((N.c 1)⁻¹) * (ab z0.1 z2.1) * (ab z2.1 z3.1) * (mb z2.2 (p 1) z0.1) * (sb z1.2 z2.2) ^ 2 * (sb z2.2 z3.2) / (2) + (1) * (((√2 : ℝ) : ℂ)) ^ 2 * ((c.e : ℂ)) ^ 2 * ((c.MW : ℂ)⁻¹) * ((N.c 1)⁻¹) * (ab z0.1 z2.1) * (mb z2.2 (p 1) z0.1) * (mb z3.2 (p 1) z3.1) * (sb z1.2 z2.2) ^ 2 / (2) + (1) * (((√2 : ℝ) : ℂ)) ^ 2 * ((c.e : ℂ)) ^ 2 * ((c.MW : ℂ)⁻¹) * (ab z0.1 z3.1) * (mb z3.2 (p 1) z0.1) * (sb z1.2 z2.2) ^ 2 / (2) + (-1) * ((c.e : ℂ)) ^ 2 * ((c.MW : ℂ)⁻¹) * (N.c 0) * ((N.c 1)⁻¹) * (ab z0.1 z2.1) * (ab z0.1 z3.1) * (sb z1.2 z2.2) ^ 2 * (sb z2.2 z3.2) + (-1) * ((c.e : ℂ)) ^ 2 * ((c.MW : ℂ)⁻¹) * (N.c 0) * ((N.c 1)⁻¹) * (ab z0.1 z3.1) * (mb z3.2 (p 1) z0.1) * (sb z1.2 z2.2) ^ 2 + (1) * ((c.e : ℂ)) ^ 2 * ((c.MW : ℂ)⁻¹) * ((N.c 1)⁻¹) * (ab z0.1 z2.1) * (ab z2.1 z3.1) * (mb z2.2 (p 1) z0.1) * (sb z1.2 z2.2) ^ 2 * (sb z2.2 z3.2) + (-1) * ((c.e : ℂ)) ^ 2 * ((c.MW : ℂ)⁻¹) * ((N.c 1)⁻¹) * (ab z0.1 z2.1) * (mb z2.2 (p 1) z0.1) * (mb z3.2 (p 1) z3.1) * (sb z1.2 z2.2) ^ 2 + (-1) * ((c.e : ℂ)) ^ 2 * ((c.MW : ℂ)⁻¹) * (ab z0.1 z3.1) * (mb z3.2 (p 1) z0.1) * (sb z1.2 z2.2) ^ 2 + (4) * ((c.e : ℂ)) ^ 2 * (ab z0.1 z1.1) * (ab z0.1 z3.1) * (sb z1.2 z2.2) * (sb z2.2 z3.2) + (2) * ((c.e : ℂ)) ^ 2 * (ab z0.1 z1.1) ^ 2 * (sb z2.2 z3.2) ^ 2 + (2) * ((c.e : ℂ)) ^ 2 * (ab z0.1 z3.1) ^ 2 * (sb z1.2 z2.2) ^ 2) * yMW + ((1) * ((c.e : ℂ)) ^ 2 * ((c.MW : ℂ)⁻¹) * (N.c 0) * ((N.c 1)⁻¹) * (ab z0.1 z2.1) * (ab z0.1 z3.1) * (sb z1.2 z2.2) ^ 2 * (sb z2.2 z3.2) / (2) + (1) * ((c.e : ℂ)) ^ 2 * ((c.MW : ℂ)⁻¹) * (N.c 0) * ((N.c 1)⁻¹) * (ab z0.1 z3.1) * (mb z3.2 (p 1) z0.1) * (sb z1.2 z2.2) ^ 2 / (2) + (-1) * ((c.e : ℂ)) ^ 2 * ((c.MW : ℂ)⁻¹) * ((N.c 1)⁻¹) * (ab z0.1 z2.1) * (ab z2.1 z3.1) * (mb z2.2 (p 1) z0.1) * (sb z1.2 z2.2) ^ 2 * (sb z2.2 z3.2) / (2) + (1) * ((c.e : ℂ)) ^ 2 * ((c.MW : ℂ)⁻¹) * ((N.c 1)⁻¹) * (ab z0.1 z2.1) * (mb z2.2 (p 1) z0.1) * (mb z3.2 (p 1) z3.1) * (sb z1.2 z2.2) ^ 2 / (2) + (1) * ((c.e : ℂ)) ^ 2 * ((c.MW : ℂ)⁻¹) * (ab z0.1 z3.1) * (mb z3.2 (p 1) z0.1) * (sb z1.2 z2.2) ^ 2 / (2) + (-1) * ((c.e : ℂ)) ^ 2 * ((c.MW : ℂ)⁻¹) ^ 2 * (N.c 0) * ((N.c 1)⁻¹) * (ab z0.1 z3.1) * (ab z1.1 z2.1) * (mb z2.2 (p 1) z0.1) * (sb z1.2 z2.2) * (sb z2.2 z3.2) + (-1) * ((c.e : ℂ)) ^ 2 * ((c.MW : ℂ)⁻¹) ^ 2 * ((N.c 1)⁻¹) * (ab z0.1 z2.1) * (ab z1.1 z2.1) * (mb z2.2 (p 1) z0.1) * (mb z2.2 (p 1) z3.1) * (sb z1.2 z2.2) * (sb z2.2 z3.2) + (1) * ((c.e : ℂ)) ^ 2 * ((c.MW : ℂ)⁻¹) ^ 2 * (ab z0.1 z1.1) * (ab z0.1 z2.1) * (mb z2.2 (p 1) z3.1) * (sb z1.2 z2.2) * (sb z2.2 z3.2) + (-1) * ((c.e : ℂ)) ^ 2 * ((c.MW : ℂ)⁻¹) ^ 2 * (ab z0.1 z1.1) * (ab z0.1 z3.1) * (mb z2.2 (p 1) z0.1) * (sb z0.2 z2.2) * (sb z1.2 z3.2) + (1) * ((c.e : ℂ)) ^ 2 * ((c.MW : ℂ)⁻¹) ^ 2 * (ab z0.1 z1.1) * (ab z2.1 z3.1) * (mb z2.2 (p 1) z0.1) * (sb z1.2 z2.2) * (sb z2.2 z3.2) + (-1) * ((c.e : ℂ)) ^ 2 * ((c.MW : ℂ)⁻¹) ^ 2 * (ab z1.1 z3.1) * (mb z2.2 (p 1) z0.1) ^ 2 * (sb z1.2 z3.2)) * x22
theorem AWAW.keyMM {c : Constants} {p : Nat → V4 ℝ} {N : Env} (hc : c.Physical) (hb : Balanced p) (r0 : N.r 0 = c.e) (d0 : pole c.MW c.WW (plus (p 0) (p 1)) = N.c 0) (n0 : N.c 0 ≠ 0) (d1 : pole c.MW c.WW (plus (p 0) (backward (p 3))) = N.c 1) (n1 : N.c 1 ≠ 0) {z0 z1 z2 z3 : Pair} (b1 : Bold (p 1) c.MW z1) (b3 : Bold (p 3) c.MW z3) (l0 : Light (p 0) z0) (l2 : Light (p 2) z2) (e01 : mb z0.2 (p 1) z0.1 = N.c 0) (e03 : mb z0.2 (p 3) z0.1 = -N.c 1) (e21 : mb z2.2 (p 1) z2.1 = -N.c 1) (e23 : mb z2.2 (p 3) z2.1 = N.c 0) (q1 : msq (p 1) = c.MW ^ 2) (q3 : msq (p 3) = c.MW ^ 2) {ρ0 : V2} (R0 : ∀ Y, sb ρ0 Y = mb Y (p 1) z0.1) {ρ2 : V2} (R2 : ∀ Y, sb ρ2 Y = mb Y (p 1) z2.1) :
    AWAW.formMM N p z0 z1 z1 z2 z3 z3 * sb ρ0 z0.2 * sb ρ2 z2.2 = ((√2 : ℝ) * ((√2 : ℝ) * ((-1 : ℂ) * ((2 / (c.MW * c.MW) : ℝ) : ℂ)))) * AWAW.react.bare4 c p (pv z0.1 ρ0) (pv z1.1 z1.2) (pv z2.1 ρ2) (pv z3.1 z3.2) := by
  rw [AWAW.react.bare4_parts c p (b₀ := .photon) (b₁ := .wPlus) (b₂ := .photon) (b₃ := .wMinus) rfl rfl rfl rfl, AWAW.formMM]
  have T0 := l0.mb_minus ρ0
  have T1 := b1.mb_zero'
  have T2 := mb_back_zero (l2.mb_minus ρ2)
  have T3 := mb_back_zero (b3.mb_zero')
  have Q1 : msq (p 1) = c.MW ^ 2 := q1
  have Q3 : msq (backward (p 3)) = c.MW ^ 2 := (msq_backward _).trans q3
  simp only [contact, seagull, gauge4, between, carriers, List.map_cons, List.map_nil, List.sum_cons, List.sum_nil]
  simp only [toHiggs, toVector, higgs2, gauge3, Boson.anti, reduceCtorEq, and_self, and_true, and_false, true_and, false_and, if_true, if_false, Complex.ofReal_zero, zero_smul, carry_none, zero_mul, mul_zero, zero_div, neg_zero, add_zero, zero_add, sub_zero, sub_self, contract_zero, contract_zero_left]
  first | rw [dress_minus c (x := .wPlus) (.inl rfl) hc.MW l0 Q1 T1] | rw [dress_minus c (x := .wMinus) (.inr rfl) hc.MW l0 Q1 T1]
  first | rw [dress_minus c (x := .wPlus) (.inl rfl) hc.MW l0 Q3 T3] | rw [dress_minus c (x := .wMinus) (.inr rfl) hc.MW l0 Q3 T3]
  simp only [d0, d1, yangMills_transverse T1 T2, yangMills_transverse T1 T3, yangMills_transverse T2 T3, contract_add, contract_smul, contract_smul_left, contract_four_pv, contract_pv_four, contract_pv, mb_backward]
  have R00 := (ref_minus_minus R0 R0).2
  have R02 := (ref_minus_minus R0 R2).1
  rw [q1] at R02
  have R20 := (ref_minus_minus R2 R0).1
  rw [q1] at R20
  have R22 := (ref_minus_minus R2 R2).2
  have i0 := mb_schouten_right z1.2 (p 3) z0.1 z2.1 z3.1
  have i1 := mb_schouten_right z0.2 (p 3) z0.1 z1.1 z2.1
  have i2 := ab_schouten z1.1 z2.1 z3.1 z0.1
  have i3 := mb_schouten_right z0.2 (p 1) z0.1 z1.1 z2.1
  have i4 := mb_schouten_right z1.2 (p 3) z0.1 z1.1 z3.1
  have i5 := mb_schouten_right z2.2 (p 1) z0.1 z1.1 z3.1
  have i6 := mb_schouten_right z0.2 (p 3) z0.1 z1.1 z3.1
  have i7 := mb_schouten_right z3.2 (p 1) z0.1 z1.1 z2.1
  have i8 := mb_schouten_right z0.2 (p 1) z0.1 z1.1 z3.1
  have i9 := mb_schouten_left z0.2 z3.2 ρ0 (p 3) z0.1
  have i10 := mb_schouten_left z0.2 z2.2 z3.2 (p 1) z0.1
  have i11 := mb_schouten_left z0.2 z1.2 z3.2 (p 1) z0.1
  have i12 := mb_schouten_right z2.2 (p 1) z0.1 z1.1 z2.1
  have i13 := mb_schouten_right z2.2 (p 3) z0.1 z1.1 z3.1
  have i14 := mb_schouten_right z3.2 (p 1) z0.1 z1.1 z3.1
  have i15 := mb_schouten_right z3.2 (p 1) z0.1 z2.1 z3.1
  have i16 := mb_schouten_right z2.2 (p 1) z0.1 z2.1 z3.1
  have i17 := mb_schouten_right z2.2 (p 3) z0.1 z2.1 z3.1
  have i18 := sb_schouten z1.2 z2.2 z3.2 z0.2
  have i19 := mb_schouten_left z1.2 z2.2 z3.2 (p 1) z2.1
  have i20 := mb_schouten_left z0.2 z1.2 z2.2 (p 1) z0.1
  have i21 := mb_schouten_right z2.2 (p 3) z0.1 z1.1 z2.1
  have i22 := mb_schouten_left z0.2 z2.2 z3.2 (p 1) z2.1
  have i23 := mb_schouten_right z0.2 (p 3) z0.1 z2.1 z3.1
  simp only [sb_swap ρ0 z0.2, sb_swap ρ0 z1.2, sb_swap ρ0 z2.2, sb_swap ρ0 z3.2, sb_swap ρ2 z0.2, sb_swap ρ2 z1.2, sb_swap ρ2 z2.2, sb_swap ρ2 z3.2, R00, R02, R0, R20, R22, R2, l0.mb_eq, l2.mb_eq, b1.mb_left, b1.mb_right, b3.mb_left, b3.mb_right, e01, e03, e21, e23, mb_three hb z0.2 z1.1, mb_three hb z0.2 z2.1, mb_three hb z1.2 z0.1, mb_three hb z1.2 z1.1, mb_three hb z1.2 z2.1, mb_three hb z2.2 z0.1, mb_three hb z2.2 z1.1, mb_three hb ρ0 z0.1, mb_three hb ρ2 z2.1, ab_self, sb_self] at i0 i1 i2 i3 i4 i5 i6 i7 i8 i9 i10 i11 i12 i13 i14 i15 i16 i17 i18 i19 i20 i21 i22 i23 ⊢
  simp only [ab_swap z0.1 z1.1, sb_swap z0.2 z1.2, ab_swap z0.1 z2.1, sb_swap z0.2 z2.2, ab_swap z0.1 z3.1, sb_swap z0.2 z3.2, ab_swap z1.1 z2.1, sb_swap z1.2 z2.2, ab_swap z1.1 z3.1, sb_swap z1.2 z3.2, ab_swap z2.1 z3.1, sb_swap z2.2 z3.2] at i0 i1 i2 i3 i4 i5 i6 i7 i8 i9 i10 i11 i12 i13 i14 i15 i16 i17 i18 i19 i20 i21 i22 i23 ⊢
  simp only [r0, Constants.invVev, ← c.mz]
  have xMW : (c.MW : ℂ) ≠ 0 := by exact_mod_cast hc.MW
  have xSW : (c.SW : ℂ) ≠ 0 := by exact_mod_cast hc.SW
  have xCW : (c.CW : ℂ) ≠ 0 := by exact_mod_cast hc.CW
  have x2 : ((√2 : ℝ) : ℂ) ≠ 0 := by exact_mod_cast (Real.sqrt_pos.2 two_pos).ne'
  have x22 : ((√2 : ℝ) : ℂ) ^ 2 = 2 := by rw [← Complex.ofReal_pow, Real.sq_sqrt two_pos.le]; norm_num
  push_cast at i0 i1 i2 i3 i4 i5 i6 i7 i8 i9 i10 i11 i12 i13 i14 i15 i16 i17 i18 i19 i20 i21 i22 i23 ⊢
  simp only [div_eq_mul_inv, mul_inv, inv_inv] at i0 i1 i2 i3 i4 i5 i6 i7 i8 i9 i10 i11 i12 i13 i14 i15 i16 i17 i18 i19 i20 i21 i22 i23 ⊢
  have y0 := mul_inv_cancel₀ n0
  have y1 := mul_inv_cancel₀ n1
  have yMW := mul_inv_cancel₀ xMW
  linear_combination ((((1) * ((c.MW : ℂ)) * ((c.e : ℂ)) ^ 2 * (N.c 1) * (ab z0.1 z2.1) * (ab z1.1 z3.1) + (-2) * ((c.MW : ℂ)) * ((c.e : ℂ)) ^ 2 * (N.c 1) * (ab z0.1 z2.1) * (sb z1.2 z3.2) + (1) * ((c.MW : ℂ)) * ((c.e : ℂ)) ^ 2 * (ab z0.1 z2.1) * (ab z1.1 z2.1) * (mb z2.2 (p 1) z3.1) + (2) * ((c.e : ℂ)) ^ 2 * (N.c 0) * (ab z0.1 z2.1) * (ab z1.1 z2.1) * (sb z2.2 z3.2) + (2) * ((c.e : ℂ)) ^ 2 * (N.c 1) * (ab z0.1 z2.1) * (ab z1.1 z2.1) * (sb z2.2 z3.2)) * i0 + ((-2) * ((c.MW : ℂ)) * ((c.e : ℂ)) ^ 2 * (ab z0.1 z1.1) * (ab z0.1 z2.1) * (ab z2.1 z3.1) * (sb z2.2 z3.2) + (1) * ((c.MW : ℂ)) * ((c.e : ℂ)) ^ 2 * (ab z0.1 z1.1) * (ab z2.1 z3.1) * (mb z3.2 (p 1) z0.1) + (-2) * ((c.MW : ℂ)) * ((c.e : ℂ)) ^ 2 * (ab z0.1 z2.1) * (ab z0.1 z3.1) * (ab z2.1 z3.1) * (sb z1.2 z2.2) + (1) * ((c.MW : ℂ)) * ((c.e : ℂ)) ^ 2 * (ab z0.1 z2.1) * (ab z1.1 z3.1) * (mb z3.2 (p 1) z0.1) + (-2) * ((c.MW : ℂ)) * ((c.e : ℂ)) ^ 2 * (ab z0.1 z2.1) ^ 2 * (sb z1.2 z3.2) * (sb z2.2 z3.2) + (2) * ((c.MW : ℂ)) ^ 2 * ((c.e : ℂ)) ^ 2 * (ab z0.1 z1.1) * (ab z0.1 z3.1) * (ab z2.1 z3.1) + (4) * ((c.e : ℂ)) ^ 2 * (N.c 0) * (ab z0.1 z1.1) * (ab z0.1 z3.1) * (ab z2.1 z3.1) + (2) * ((c.e : ℂ)) ^ 2 * (N.c 0) * (ab z0.1 z2.1) * (ab z0.1 z3.1) * (ab z1.1 z3.1) + (2) * ((c.e : ℂ)) ^ 2 * (N.c 0) * (ab z0.1 z2.1) * (ab z0.1 z3.1) * (sb z1.2 z3.2) + (1) * ((c.e : ℂ)) ^ 2 * (N.c 1) * (ab z0.1 z1.1) * (ab z0.1 z3.1) * (ab z2.1 z3.1) + (2) * ((c.e : ℂ)) ^ 2 * (N.c 1) * (ab z0.1 z2.1) * (ab z0.1 z3.1) * (ab z1.1 z3.1) + (2) * ((c.e : ℂ)) ^ 2 * (N.c 1) * (ab z0.1 z2.1) * (ab z0.1 z3.1) * (sb z1.2 z3.2) + (2) * ((c.e : ℂ)) ^ 2 * (ab z0.1 z1.1) * (ab z0.1 z2.1) * (ab z0.1 z3.1) * (ab z2.1 z3.1) * (sb z0.2 z2.2) + (2) * ((c.e : ℂ)) ^ 2 * (ab z0.1 z1.1) * (ab z0.1 z2.1) * (ab z0.1 z3.1) * (mb z0.2 (p 1) z3.1) + (-2) * ((c.e : ℂ)) ^ 2 * (ab z0.1 z1.1) * (ab z0.1 z2.1) * (ab z2.1 z3.1) * (mb z2.2 (p 1) z3.1) + (-3) * ((c.e : ℂ)) ^ 2 * (ab z0.1 z1.1) * (ab z2.1 z3.1) ^ 2 * (mb z2.2 (p 1) z0.1) + (2) * ((c.e : ℂ)) ^ 2 * (ab z0.1 z2.1) * (ab z0.1 z3.1) * (mb z3.2 (p 1) z2.1) * (sb z1.2 z2.2) + (1) * ((c.e : ℂ)) ^ 2 * (ab z0.1 z2.1) * (ab z1.1 z3.1) * (ab z2.1 z3.1) * (mb z2.2 (p 1) z0.1) + (2) * ((c.e : ℂ)) ^ 2 * (ab z0.1 z2.1) ^ 2 * (ab z0.1 z3.1) * (sb z0.2 z1.2) * (sb z2.2 z3.2) + (2) * ((c.e : ℂ)) ^ 2 * (ab z0.1 z2.1) ^ 2 * (ab z1.1 z3.1) * (mb z2.2 (p 1) z3.1)) * i1 + ((1) * ((c.MW : ℂ)) * ((c.e : ℂ)) ^ 2 * (N.c 0) * (ab z0.1 z2.1) * (ab z1.1 z2.1) * (sb z2.2 z3.2) + (-3) * ((c.MW : ℂ)) * ((c.e : ℂ)) ^ 2 * (N.c 0) * (ab z0.1 z2.1) * (ab z2.1 z3.1) * (sb z1.2 z2.2) + (-1) * ((c.MW : ℂ)) * ((c.e : ℂ)) ^ 2 * (N.c 0) * (ab z1.1 z2.1) * (mb z3.2 (p 1) z0.1) + (1) * ((c.MW : ℂ)) * ((c.e : ℂ)) ^ 2 * (N.c 1) * (ab z0.1 z2.1) * (ab z1.1 z2.1) * (sb z2.2 z3.2) + (-3) * ((c.MW : ℂ)) * ((c.e : ℂ)) ^ 2 * (N.c 1) * (ab z0.1 z2.1) * (ab z2.1 z3.1) * (sb z1.2 z2.2) + (-2) * ((c.MW : ℂ)) * ((c.e : ℂ)) ^ 2 * (N.c 1) * (ab z1.1 z2.1) * (mb z3.2 (p 1) z0.1) + (-2) * ((c.MW : ℂ)) * ((c.e : ℂ)) ^ 2 * (ab z0.1 z2.1) ^ 2 * (ab z2.1 z3.1) * (sb z0.2 z2.2) * (sb z1.2 z2.2) + (1) * ((c.MW : ℂ)) * ((c.e : ℂ)) ^ 2 * (ab z0.1 z2.1) ^ 2 * (mb z0.2 (p 1) z3.1) * (sb z1.2 z2.2) + (2) * ((c.MW : ℂ)) ^ 2 * ((c.e : ℂ)) ^ 2 * (N.c 0) * (ab z0.1 z1.1) * (ab z2.1 z3.1) + (2) * ((c.MW : ℂ)) ^ 2 * ((c.e : ℂ)) ^ 2 * (N.c 1) * (ab z0.1 z1.1) * (ab z2.1 z3.1) + (-3) * ((c.MW : ℂ)) ^ 2 * ((c.e : ℂ)) ^ 2 * (N.c 1) * (ab z0.1 z2.1) * (sb z1.2 z3.2) + (2) * ((c.MW : ℂ)) ^ 2 * ((c.e : ℂ)) ^ 2 * (ab z0.1 z1.1) * (ab z0.1 z2.1) * (ab z2.1 z3.1) * (sb z0.2 z2.2) + (1) * ((c.MW : ℂ)) ^ 2 * ((c.e : ℂ)) ^ 2 * (ab z0.1 z2.1) * (ab z1.1 z2.1) * (mb z2.2 (p 1) z3.1) + (-2) * ((c.MW : ℂ)) ^ 2 * ((c.e : ℂ)) ^ 2 * (ab z0.1 z2.1) ^ 2 * (sb z0.2 z1.2) * (sb z2.2 z3.2) + (5) * ((c.e : ℂ)) ^ 2 * (N.c 0) * (N.c 1) * (ab z0.1 z1.1) * (ab z2.1 z3.1) + (3) * ((c.e : ℂ)) ^ 2 * (N.c 0) * (N.c 1) * (ab z0.1 z2.1) * (ab z1.1 z3.1) + (4) * ((c.e : ℂ)) ^ 2 * (N.c 0) * (ab z0.1 z1.1) * (ab z0.1 z2.1) * (ab z2.1 z3.1) * (sb z0.2 z2.2) + (2) * ((c.e : ℂ)) ^ 2 * (N.c 0) * (ab z0.1 z1.1) * (ab z0.1 z2.1) * (mb z0.2 (p 1) z3.1) + (-1) * ((c.e : ℂ)) ^ 2 * (N.c 0) * (ab z0.1 z2.1) * (ab z1.1 z2.1) * (mb z2.2 (p 1) z3.1) + (2) * ((c.e : ℂ)) ^ 2 * (N.c 0) * (ab z0.1 z2.1) ^ 2 * (sb z0.2 z3.2) * (sb z1.2 z2.2) + (4) * ((c.e : ℂ)) ^ 2 * (N.c 0) ^ 2 * (ab z0.1 z1.1) * (ab z2.1 z3.1) + (2) * ((c.e : ℂ)) ^ 2 * (N.c 0) ^ 2 * (ab z0.1 z2.1) * (ab z1.1 z3.1) + (2) * ((c.e : ℂ)) ^ 2 * (N.c 1) * (ab z0.1 z1.1) * (ab z0.1 z2.1) * (ab z2.1 z3.1) * (sb z0.2 z2.2) + (2) * ((c.e : ℂ)) ^ 2 * (N.c 1) * (ab z0.1 z1.1) * (ab z0.1 z2.1) * (mb z0.2 (p 1) z3.1) + (-2) * ((c.e : ℂ)) ^ 2 * (N.c 1) * (ab z0.1 z2.1) * (mb z3.2 (p 1) z0.1) * (sb z0.2 z1.2) + (2) * ((c.e : ℂ)) ^ 2 * (N.c 1) * (ab z0.1 z2.1) ^ 2 * (sb z0.2 z2.2) * (sb z1.2 z3.2) + (1) * ((c.e : ℂ)) ^ 2 * (N.c 1) ^ 2 * (ab z0.1 z1.1) * (ab z2.1 z3.1) + (2) * ((c.e : ℂ)) ^ 2 * (N.c 1) ^ 2 * (ab z0.1 z2.1) * (ab z1.1 z3.1) + (-1) * ((c.e : ℂ)) ^ 2 * (ab z0.1 z2.1) * (ab z1.1 z2.1) * (ab z2.1 z3.1) * (mb z2.2 (p 1) z0.1) * (sb z0.2 z2.2) + (-2) * ((c.e : ℂ)) ^ 2 * (ab z0.1 z2.1) * (mb z2.2 (p 1) z0.1) * (mb z3.2 (p 1) z2.1) * (sb z0.2 z1.2) + (-2) * ((c.e : ℂ)) ^ 2 * (ab z0.1 z2.1) ^ 2 * (ab z1.1 z2.1) * (mb z2.2 (p 1) z3.1) * (sb z0.2 z2.2) + (2) * ((c.e : ℂ)) ^ 2 * (ab z0.1 z2.1) ^ 2 * (mb z2.2 (p 1) z0.1) * (sb z0.2 z1.2) * (sb z0.2 z3.2) + (2) * ((c.e : ℂ)) ^ 2 * (ab z0.1 z2.1) ^ 2 * (mb z3.2 (p 1) z2.1) * (sb z0.2 z2.2) * (sb z1.2 z2.2)) * i2 + ((2) * ((c.MW : ℂ)) * ((c.e : ℂ)) ^ 2 * (ab z0.1 z1.1) * (ab z0.1 z2.1) * (ab z2.1 z3.1) * (sb z2.2 z3.2) + (-1) * ((c.MW : ℂ)) * ((c.e : ℂ)) ^ 2 * (ab z0.1 z1.1) * (ab z2.1 z3.1) * (mb z3.2 (p 1) z0.1) + (2) * ((c.MW : ℂ)) * ((c.e : ℂ)) ^ 2 * (ab z0.1 z2.1) * (ab z0.1 z3.1) * (ab z2.1 z3.1) * (sb z1.2 z2.2) + (-1) * ((c.MW : ℂ)) * ((c.e : ℂ)) ^ 2 * (ab z0.1 z2.1) * (ab z1.1 z3.1) * (mb z3.2 (p 1) z0.1) + (-2) * ((c.MW : ℂ)) * ((c.e : ℂ)) ^ 2 * (ab z0.1 z2.1) ^ 2 * (ab z1.1 z3.1) * (sb z2.2 z3.2) + (2) * ((c.MW : ℂ)) * ((c.e : ℂ)) ^ 2 * (ab z0.1 z2.1) ^ 2 * (sb z1.2 z3.2) * (sb z2.2 z3.2) + (-2) * ((c.MW : ℂ)) ^ 2 * ((c.e : ℂ)) ^ 2 * (ab z0.1 z1.1) * (ab z0.1 z3.1) * (ab z2.1 z3.1) + (-4) * ((c.e : ℂ)) ^ 2 * (N.c 0) * (ab z0.1 z1.1) * (ab z0.1 z3.1) * (ab z2.1 z3.1) + (-2) * ((c.e : ℂ)) ^ 2 * (N.c 0) * (ab z0.1 z2.1) * (ab z0.1 z3.1) * (ab z1.1 z3.1) + (-2) * ((c.e : ℂ)) ^ 2 * (N.c 0) * (ab z0.1 z2.1) * (ab z0.1 z3.1) * (sb z1.2 z3.2) + (-1) * ((c.e : ℂ)) ^ 2 * (N.c 1) * (ab z0.1 z1.1) * (ab z0.1 z3.1) * (ab z2.1 z3.1) + (-2) * ((c.e : ℂ)) ^ 2 * (N.c 1) * (ab z0.1 z2.1) * (ab z0.1 z3.1) * (ab z1.1 z3.1) + (-2) * ((c.e : ℂ)) ^ 2 * (ab z0.1 z1.1) * (ab z0.1 z2.1) * (ab z0.1 z3.1) * (ab z2.1 z3.1) * (sb z0.2 z2.2) + (-2) * ((c.e : ℂ)) ^ 2 * (ab z0.1 z1.1) * (ab z0.1 z2.1) * (ab z0.1 z3.1) * (mb z0.2 (p 1) z3.1) + (2) * ((c.e : ℂ)) ^ 2 * (ab z0.1 z1.1) * (ab z0.1 z2.1) * (ab z2.1 z3.1) * (mb z2.2 (p 1) z3.1) + (-2) * ((c.e : ℂ)) ^ 2 * (ab z0.1 z1.1) * (ab z0.1 z2.1) * (mb z3.2 (p 1) z2.1) * (sb z2.2 z3.2) + (3) * ((c.e : ℂ)) ^ 2 * (ab z0.1 z1.1) * (ab z2.1 z3.1) ^ 2 * (mb z2.2 (p 1) z0.1) + (-2) * ((c.e : ℂ)) ^ 2 * (ab z0.1 z2.1) * (ab z0.1 z3.1) * (mb z3.2 (p 1) z2.1) * (sb z1.2 z2.2) + (-2) * ((c.e : ℂ)) ^ 2 * (ab z0.1 z2.1) * (ab z1.1 z2.1) * (mb z3.2 (p 1) z0.1) * (sb z2.2 z3.2) + (-1) * ((c.e : ℂ)) ^ 2 * (ab z0.1 z2.1) * (ab z1.1 z3.1) * (ab z2.1 z3.1) * (mb z2.2 (p 1) z0.1) + (-2) * ((c.e : ℂ)) ^ 2 * (ab z0.1 z2.1) ^ 2 * (ab z1.1 z3.1) * (mb z2.2 (p 1) z3.1)) * i3 + ((-2) * ((c.MW : ℂ)) * ((c.e : ℂ)) ^ 2 * (N.c 0) * (ab z0.1 z2.1) * (ab z2.1 z3.1) + (-3) * ((c.MW : ℂ)) * ((c.e : ℂ)) ^ 2 * (N.c 1) * (ab z0.1 z2.1) * (ab z2.1 z3.1) + (-2) * ((c.MW : ℂ)) * ((c.e : ℂ)) ^ 2 * (ab z0.1 z2.1) ^ 2 * (ab z2.1 z3.1) * (sb z0.2 z2.2) + (2) * ((c.e : ℂ)) ^ 2 * (N.c 0) * (ab z0.1 z2.1) ^ 2 * (sb z0.2 z3.2) + (-2) * ((c.e : ℂ)) ^ 2 * (ab z0.1 z2.1) ^ 2 * (mb z0.2 (p 1) z2.1) * (sb z2.2 z3.2)) * i4 + ((1) * ((c.MW : ℂ)) * ((c.e : ℂ)) ^ 2 * (ab z0.1 z2.1) * (ab z1.1 z2.1) * (mb z3.2 (p 1) z2.1) + (-1) * ((c.e : ℂ)) ^ 2 * (N.c 0) * (ab z0.1 z2.1) * (ab z1.1 z2.1) * (ab z2.1 z3.1) + (-1) * ((c.e : ℂ)) ^ 2 * (N.c 1) * (ab z0.1 z2.1) * (ab z1.1 z2.1) * (ab z2.1 z3.1) + (-1) * ((c.e : ℂ)) ^ 2 * (ab z0.1 z2.1) ^ 2 * (ab z1.1 z2.1) * (mb z0.2 (p 1) z3.1)) * i5 + ((2) * ((c.MW : ℂ)) * ((c.e : ℂ)) ^ 2 * (ab z0.1 z2.1) ^ 2 * (ab z2.1 z3.1) * (sb z1.2 z2.2) + (-2) * ((c.e : ℂ)) ^ 2 * (N.c 0) * (ab z0.1 z2.1) ^ 2 * (ab z1.1 z3.1) + (-2) * ((c.e : ℂ)) ^ 2 * (N.c 0) * (ab z0.1 z2.1) ^ 2 * (sb z1.2 z3.2) + (2) * ((c.e : ℂ)) ^ 2 * (N.c 1) * (ab z0.1 z1.1) * (ab z0.1 z2.1) * (ab z2.1 z3.1) + (-2) * ((c.e : ℂ)) ^ 2 * (N.c 1) * (ab z0.1 z2.1) ^ 2 * (ab z1.1 z3.1) + (-2) * ((c.e : ℂ)) ^ 2 * (ab z0.1 z1.1) * (ab z0.1 z2.1) ^ 2 * (ab z2.1 z3.1) * (sb z0.2 z2.2) + (-1) * ((c.e : ℂ)) ^ 2 * (ab z0.1 z2.1) * (ab z1.1 z2.1) * (ab z2.1 z3.1) * (mb z2.2 (p 1) z0.1) + (-2) * ((c.e : ℂ)) ^ 2 * (ab z0.1 z2.1) ^ 2 * (ab z1.1 z2.1) * (mb z2.2 (p 1) z3.1) + (-2) * ((c.e : ℂ)) ^ 2 * (ab z0.1 z2.1) ^ 3 * (sb z0.2 z1.2) * (sb z2.2 z3.2)) * i6 + ((2) * ((c.MW : ℂ)) * ((c.e : ℂ)) ^ 2 * (N.c 0) * (ab z0.1 z1.1) * (ab z2.1 z3.1) + (2) * ((c.MW : ℂ)) * ((c.e : ℂ)) ^ 2 * (N.c 1) * (ab z0.1 z1.1) * (ab z2.1 z3.1) + (-1) * ((c.MW : ℂ)) * ((c.e : ℂ)) ^ 2 * (N.c 1) * (ab z0.1 z2.1) * (ab z1.1 z3.1) + (-1) * ((c.MW : ℂ)) * ((c.e : ℂ)) ^ 2 * (ab z0.1 z2.1) * (ab z1.1 z2.1) * (mb z2.2 (p 1) z3.1) + (-2) * ((c.e : ℂ)) ^ 2 * (N.c 0) * (ab z0.1 z2.1) * (ab z0.1 z3.1) * (sb z0.2 z1.2) + (2) * ((c.e : ℂ)) ^ 2 * (N.c 0) * (ab z0.1 z2.1) * (ab z1.1 z2.1) * (sb z2.2 z3.2) + (2) * ((c.e : ℂ)) ^ 2 * (ab z0.1 z1.1) * (ab z0.1 z2.1) * (mb z0.2 (p 1) z2.1) * (sb z2.2 z3.2)) * i7 + ((2) * ((c.MW : ℂ)) * ((c.e : ℂ)) ^ 2 * (ab z0.1 z2.1) ^ 2 * (ab z1.1 z2.1) * (sb z2.2 z3.2) + (-2) * ((c.MW : ℂ)) * ((c.e : ℂ)) ^ 2 * (ab z0.1 z2.1) ^ 2 * (ab z2.1 z3.1) * (sb z1.2 z2.2) + (2) * ((c.e : ℂ)) ^ 2 * (N.c 0) * (ab z0.1 z1.1) * (ab z0.1 z2.1) * (ab z2.1 z3.1) + (2) * ((c.e : ℂ)) ^ 2 * (N.c 0) * (ab z0.1 z2.1) ^ 2 * (ab z1.1 z3.1) + (1) * ((c.e : ℂ)) ^ 2 * (N.c 1) * (ab z0.1 z1.1) * (ab z0.1 z2.1) * (ab z2.1 z3.1) + (1) * ((c.e : ℂ)) ^ 2 * (N.c 1) * (ab z0.1 z2.1) ^ 2 * (ab z1.1 z3.1) + (4) * ((c.e : ℂ)) ^ 2 * (ab z0.1 z1.1) * (ab z0.1 z2.1) ^ 2 * (ab z2.1 z3.1) * (sb z0.2 z2.2) + (1) * ((c.e : ℂ)) ^ 2 * (ab z0.1 z2.1) * (ab z1.1 z2.1) * (ab z2.1 z3.1) * (mb z2.2 (p 1) z0.1) + (1) * ((c.e : ℂ)) ^ 2 * (ab z0.1 z2.1) ^ 2 * (ab z1.1 z2.1) * (mb z2.2 (p 1) z3.1)) * i8 + ((1) * ((c.MW : ℂ)) * ((c.e : ℂ)) ^ 2 * (ab z0.1 z2.1) * (ab z1.1 z2.1) * (ab z1.1 z3.1)) * i9 + ((1) * ((c.MW : ℂ)) * ((c.e : ℂ)) ^ 2 * (ab z0.1 z1.1) * (ab z0.1 z2.1) * (ab z1.1 z2.1) * (ab z2.1 z3.1) + (1) * ((c.MW : ℂ)) * ((c.e : ℂ)) ^ 2 * (ab z0.1 z2.1) ^ 2 * (ab z1.1 z2.1) * (ab z1.1 z3.1)) * i10 + ((2) * ((c.e : ℂ)) ^ 2 * (N.c 1) * (ab z0.1 z1.1) * (ab z0.1 z2.1) * (ab z2.1 z3.1) + (-2) * ((c.e : ℂ)) ^ 2 * (N.c 1) * (ab z0.1 z2.1) ^ 2 * (ab z1.1 z3.1) + (-2) * ((c.e : ℂ)) ^ 2 * (ab z0.1 z2.1) ^ 2 * (ab z1.1 z2.1) * (mb z2.2 (p 1) z3.1)) * i11 + ((2) * ((c.MW : ℂ)) * ((c.e : ℂ)) ^ 2 * (ab z0.1 z1.1) * (ab z2.1 z3.1) * (mb z3.2 (p 1) z2.1) + (-1) * ((c.MW : ℂ)) * ((c.e : ℂ)) ^ 2 * (ab z0.1 z2.1) * (ab z1.1 z2.1) * (mb z3.2 (p 1) z3.1) + (-1) * ((c.MW : ℂ)) * ((c.e : ℂ)) ^ 2 * (ab z0.1 z2.1) * (ab z1.1 z3.1) * (mb z3.2 (p 1) z2.1) + (-1) * ((c.MW : ℂ)) * ((c.e : ℂ)) ^ 2 * (ab z1.1 z2.1) * (ab z2.1 z3.1) * (mb z3.2 (p 1) z0.1) + (2) * ((c.MW : ℂ)) ^ 2 * ((c.e : ℂ)) ^ 2 * (ab z0.1 z1.1) * (ab z2.1 z3.1) ^ 2 + (1) * ((c.e : ℂ)) ^ 2 * (N.c 0) * (ab z0.1 z1.1) * (ab z2.1 z3.1) ^ 2 + (-1) * ((c.e : ℂ)) ^ 2 * (N.c 0) * (ab z0.1 z2.1) * (ab z1.1 z3.1) * (ab z2.1 z3.1) + (1) * ((c.e : ℂ)) ^ 2 * (N.c 1) * (ab z0.1 z1.1) * (ab z2.1 z3.1) ^ 2 + (-1) * ((c.e : ℂ)) ^ 2 * (N.c 1) * (ab z0.1 z2.1) * (ab z1.1 z3.1) * (ab z2.1 z3.1) + (3) * ((c.e : ℂ)) ^ 2 * (ab z0.1 z1.1) * (ab z0.1 z2.1) * (ab z2.1 z3.1) * (mb z0.2 (p 1) z3.1) + (-2) * ((c.e : ℂ)) ^ 2 * (ab z0.1 z1.1) * (ab z0.1 z2.1) * (ab z2.1 z3.1) ^ 2 * (sb z0.2 z2.2) + (1) * ((c.e : ℂ)) ^ 2 * (ab z0.1 z2.1) * (ab z1.1 z2.1) * (ab z2.1 z3.1) * (mb z2.2 (p 1) z3.1) + (2) * ((c.e : ℂ)) ^ 2 * (ab z0.1 z2.1) * (ab z2.1 z3.1) * (mb z3.2 (p 1) z2.1) * (sb z1.2 z2.2) + (-1) * ((c.e : ℂ)) ^ 2 * (ab z0.1 z2.1) ^ 2 * (ab z1.1 z3.1) * (mb z0.2 (p 1) z3.1)) * i12 + ((2) * ((c.e : ℂ)) ^ 2 * (N.c 0) * (ab z0.1 z2.1) * (ab z1.1 z2.1) * (ab z2.1 z3.1) + (3) * ((c.e : ℂ)) ^ 2 * (N.c 1) * (ab z0.1 z2.1) * (ab z1.1 z2.1) * (ab z2.1 z3.1) + (2) * ((c.e : ℂ)) ^ 2 * (ab z0.1 z2.1) ^ 2 * (ab z1.1 z2.1) * (mb z0.2 (p 1) z3.1) + (-2) * ((c.e : ℂ)) ^ 2 * (ab z0.1 z2.1) ^ 2 * (mb z3.2 (p 1) z2.1) * (sb z0.2 z1.2) + (2) * ((c.e : ℂ)) ^ 2 * (ab z0.1 z2.1) ^ 3 * (sb z0.2 z1.2) * (sb z0.2 z3.2)) * i13 + ((-1) * ((c.MW : ℂ)) * ((c.e : ℂ)) ^ 2 * (N.c 1) * (ab z0.1 z2.1) * (ab z1.1 z2.1)) * i14 + ((-1) * ((c.MW : ℂ)) ^ 2 * ((c.e : ℂ)) ^ 2 * (ab z0.1 z2.1) * (ab z1.1 z2.1) * (sb z1.2 z2.2)) * i15 + ((1) * ((c.MW : ℂ)) * ((c.e : ℂ)) ^ 2 * (ab z0.1 z2.1) * (ab z1.1 z2.1) ^ 2 * (sb z2.2 z3.2) + (1) * ((c.MW : ℂ)) * ((c.e : ℂ)) ^ 2 * (ab z1.1 z2.1) ^ 2 * (mb z3.2 (p 1) z0.1) + (1) * ((c.MW : ℂ)) ^ 2 * ((c.e : ℂ)) ^ 2 * (ab z0.1 z2.1) * (ab z1.1 z2.1) * (ab z1.1 z3.1) + (2) * ((c.e : ℂ)) ^ 2 * (N.c 0) * (ab z0.1 z2.1) * (ab z1.1 z2.1) * (sb z1.2 z3.2) + (2) * ((c.e : ℂ)) ^ 2 * (N.c 1) * (ab z0.1 z2.1) * (ab z1.1 z2.1) * (sb z1.2 z3.2) + (2) * ((c.e : ℂ)) ^ 2 * (ab z0.1 z2.1) * (ab z1.1 z2.1) * (mb z3.2 (p 1) z0.1) * (sb z0.2 z1.2) + (2) * ((c.e : ℂ)) ^ 2 * (ab z0.1 z2.1) * (ab z1.1 z2.1) * (mb z3.2 (p 1) z2.1) * (sb z1.2 z2.2)) * i16 + ((-1) * ((c.MW : ℂ)) ^ 2 * ((c.e : ℂ)) ^ 2 * (ab z0.1 z2.1) * (ab z1.1 z2.1) * (ab z1.1 z3.1) + (-2) * ((c.e : ℂ)) ^ 2 * (N.c 0) * (ab z0.1 z2.1) * (ab z1.1 z2.1) * (sb z1.2 z3.2) + (-1) * ((c.e : ℂ)) ^ 2 * (N.c 1) * (ab z0.1 z2.1) * (ab z1.1 z2.1) * (ab z1.1 z3.1) + (-2) * ((c.e : ℂ)) ^ 2 * (ab z0.1 z2.1) * (ab z1.1 z2.1) * (mb z3.2 (p 1) z0.1) * (sb z0.2 z1.2) + (-1) * ((c.e : ℂ)) ^ 2 * (ab z0.1 z2.1) * (ab z1.1 z2.1) ^ 2 * (mb z2.2 (p 1) z3.1) + (2) * ((c.e : ℂ)) ^ 2 * (ab z0.1 z2.1) ^ 2 * (ab z1.1 z2.1) * (sb z0.2 z1.2) * (sb z2.2 z3.2)) * i17 + ((2) * ((c.MW : ℂ)) * ((c.e : ℂ)) ^ 2 * (ab z0.1 z2.1) ^ 3 * (ab z1.1 z2.1) * (sb z2.2 z3.2) + (2) * ((c.MW : ℂ)) ^ 2 * ((c.e : ℂ)) ^ 2 * (ab z0.1 z1.1) * (ab z0.1 z2.1) ^ 2 * (ab z2.1 z3.1) + (-2) * ((c.e : ℂ)) ^ 2 * (N.c 1) * (ab z0.1 z2.1) ^ 3 * (ab z1.1 z3.1)) * i18 + ((-1) * ((c.MW : ℂ)) ^ 2 * ((c.e : ℂ)) ^ 2 * (ab z0.1 z2.1) ^ 2 * (ab z1.1 z3.1) + (-2) * ((c.e : ℂ)) ^ 2 * (ab z0.1 z2.1) ^ 2 * (ab z1.1 z2.1) * (mb z2.2 (p 1) z3.1)) * i19 + ((2) * ((c.e : ℂ)) ^ 2 * (ab z0.1 z1.1) * (ab z0.1 z2.1) * (ab z2.1 z3.1) * (mb z3.2 (p 1) z2.1) + (-2) * ((c.e : ℂ)) ^ 2 * (ab z0.1 z1.1) * (ab z0.1 z2.1) ^ 2 * (ab z2.1 z3.1) * (sb z0.2 z3.2) + (-2) * ((c.e : ℂ)) ^ 2 * (ab z0.1 z2.1) ^ 2 * (ab z1.1 z2.1) * (ab z2.1 z3.1) * (sb z2.2 z3.2)) * i20 + ((-2) * ((c.MW : ℂ)) * ((c.e : ℂ)) ^ 2 * (ab z0.1 z1.1) * (ab z2.1 z3.1) * (mb z3.2 (p 1) z2.1) + (-2) * ((c.MW : ℂ)) ^ 2 * ((c.e : ℂ)) ^ 2 * (ab z0.1 z1.1) * (ab z2.1 z3.1) ^ 2 + (-4) * ((c.e : ℂ)) ^ 2 * (N.c 0) * (ab z0.1 z1.1) * (ab z2.1 z3.1) ^ 2 + (-4) * ((c.e : ℂ)) ^ 2 * (N.c 1) * (ab z0.1 z1.1) * (ab z2.1 z3.1) ^ 2 + (-2) * ((c.e : ℂ)) ^ 2 * (N.c 1) * (ab z0.1 z2.1) * (ab z2.1 z3.1) * (sb z1.2 z3.2) + (-4) * ((c.e : ℂ)) ^ 2 * (ab z0.1 z1.1) * (ab z0.1 z2.1) * (ab z2.1 z3.1) * (mb z0.2 (p 1) z3.1) + (2) * ((c.e : ℂ)) ^ 2 * (ab z0.1 z2.1) * (ab z0.1 z3.1) * (mb z3.2 (p 1) z2.1) * (sb z0.2 z1.2) + (-2) * ((c.e : ℂ)) ^ 2 * (ab z0.1 z2.1) * (ab z2.1 z3.1) * (mb z3.2 (p 1) z2.1) * (sb z1.2 z2.2) + (-2) * ((c.e : ℂ)) ^ 2 * (ab z0.1 z2.1) ^ 2 * (ab z0.1 z3.1) * (sb z0.2 z1.2) * (sb z0.2 z3.2)) * i21 + ((2) * ((c.e : ℂ)) ^ 2 * (ab z0.1 z2.1) ^ 3 * (ab z1.1 z3.1) * (sb z1.2 z2.2)) * i22 + ((2) * ((c.e : ℂ)) ^ 2 * (ab z0.1 z2.1) ^ 2 * (ab z1.1 z2.1) * (sb z1.2 z2.2) * (sb z2.2 z3.2)) * i23)) * ((1) * ((c.MW : ℂ)⁻¹) ^ 2 * ((N.c 1)⁻¹)) + ((-1) * ((c.MW : ℂ)) * (((√2 : ℝ) : ℂ)) ^ 2 * ((c.e : ℂ)) ^ 2 * ((c.MW : ℂ)⁻¹) ^ 2 * (ab z0.1 z1.1) * (ab z0.1 z2.1) * (ab z1.1 z2.1) * (ab z2.1 z3.1) * (sb z2.2 z3.2) + (1) * ((c.MW : ℂ)) * (((√2 : ℝ) : ℂ)) ^ 2 * ((c.e : ℂ)) ^ 2 * ((c.MW : ℂ)⁻¹) ^ 2 * (ab z0.1 z1.1) ^ 2 * (ab z2.1 z3.1) * (mb z3.2 (p 1) z2.1) / (2) + (1) * (((√2 : ℝ) : ℂ)) ^ 2 * ((c.e : ℂ)) ^ 2 * ((c.MW : ℂ)⁻¹) ^ 2 * (ab z0.1 z1.1) * (ab z0.1 z2.1) * (ab z0.1 z3.1) * (mb z0.2 (p 1) z2.1) * (sb z1.2 z3.2) + (-1) * (((√2 : ℝ) : ℂ)) ^ 2 * ((c.e : ℂ)) ^ 2 * ((c.MW : ℂ)⁻¹) ^ 2 * (ab z0.1 z1.1) * (ab z0.1 z2.1) * (ab z2.1 z3.1) * (mb z3.2 (p 1) z2.1) * (sb z1.2 z2.2) + (2) * ((c.e : ℂ)) ^ 2 * (N.c 1) * ((N.c 1)⁻¹) * (ab z0.1 z2.1) ^ 2 * (sb z1.2 z3.2) ^ 2) * y0 + ((2) * ((c.MW : ℂ)) * ((c.e : ℂ)) ^ 2 * ((c.MW : ℂ)⁻¹) ^ 2 * (ab z0.1 z1.1) * (ab z0.1 z2.1) * (ab z1.1 z2.1) * (ab z2.1 z3.1) * (sb z2.2 z3.2) + (1) * ((c.MW : ℂ)) * ((c.e : ℂ)) ^ 2 * ((c.MW : ℂ)⁻¹) ^ 2 * (ab z0.1 z3.1) * (ab z1.1 z2.1) ^ 2 * (mb z3.2 (p 1) z0.1) + (-2) * ((c.MW : ℂ)) ^ 2 * ((c.e : ℂ)) ^ 2 * ((c.MW : ℂ)⁻¹) ^ 2 * (ab z0.1 z2.1) ^ 2 * (ab z1.1 z3.1) * (sb z1.2 z3.2) + (-2) * ((c.MW : ℂ)) ^ 2 * ((c.e : ℂ)) ^ 2 * ((c.MW : ℂ)⁻¹) ^ 2 * (ab z0.1 z2.1) ^ 2 * (sb z1.2 z3.2) ^ 2 + (-2) * ((c.e : ℂ)) ^ 2 * ((c.MW : ℂ)⁻¹) ^ 2 * (ab z0.1 z1.1) * (ab z0.1 z2.1) * (ab z0.1 z3.1) * (mb z0.2 (p 1) z2.1) * (sb z1.2 z3.2) + (2) * ((c.e : ℂ)) ^ 2 * ((c.MW : ℂ)⁻¹) ^ 2 * (ab z0.1 z1.1) * (ab z0.1 z2.1) * (ab z2.1 z3.1) * (mb z3.2 (p 1) z2.1) * (sb z1.2 z2.2) + (2) * ((c.e : ℂ)) ^ 2 * (ab z0.1 z2.1) ^ 2 * (sb z1.2 z3.2) ^ 2) * y1 + ((1) * ((c.MW : ℂ)) * (((√2 : ℝ) : ℂ)) ^ 2 * ((c.e : ℂ)) ^ 2 * ((c.MW : ℂ)⁻¹) * (ab z0.1 z2.1) ^ 2 * (ab z1.1 z3.1) * (sb z1.2 z3.2) + (-2) * ((c.MW : ℂ)) * ((c.e : ℂ)) ^ 2 * ((c.MW : ℂ)⁻¹) * (ab z0.1 z2.1) ^ 2 * (ab z1.1 z3.1) * (sb z1.2 z3.2) + (-2) * ((c.MW : ℂ)) * ((c.e : ℂ)) ^ 2 * ((c.MW : ℂ)⁻¹) * (ab z0.1 z2.1) ^ 2 * (sb z1.2 z3.2) ^ 2 + (-1) * (((√2 : ℝ) : ℂ)) ^ 2 * ((c.e : ℂ)) ^ 2 * ((c.MW : ℂ)⁻¹) * (N.c 0) * ((N.c 1)⁻¹) * (ab z0.1 z2.1) * (ab z0.1 z3.1) * (ab z1.1 z2.1) ^ 2 * (sb z2.2 z3.2) / (2) + (-1) * (((√2 : ℝ) : ℂ)) ^ 2 * ((c.e : ℂ)) ^ 2 * ((c.MW : ℂ)⁻¹) * (N.c 0) * ((N.c 1)⁻¹) * (ab z0.1 z3.1) * (ab z1.1 z2.1) ^ 2 * (mb z3.2 (p 1) z0.1) / (2) + (1) * (((√2 : ℝ) : ℂ)) ^ 2 * ((c.e : ℂ)) ^ 2 * ((c.MW : ℂ)⁻¹) * ((N.c 1)⁻¹) * (ab z0.1 z2.1) * (ab z1.1 z2.1) ^ 2 * (ab z2.1 z3.1) * (mb z2.2 (p 1) z0.1) * (sb z2.2 z3.2) / (2) + (-1) * (((√2 : ℝ) : ℂ)) ^ 2 * ((c.e : ℂ)) ^ 2 * ((c.MW : ℂ)⁻¹) * ((N.c 1)⁻¹) * (ab z0.1 z2.1) * (ab z1.1 z2.1) ^ 2 * (mb z2.2 (p 1) z0.1) * (mb z3.2 (p 1) z3.1) / (2) + (-1) * (((√2 : ℝ) : ℂ)) ^ 2 * ((c.e : ℂ)) ^ 2 * ((c.MW : ℂ)⁻¹) * (ab z0.1 z1.1) * (ab z0.1 z2.1) * (ab z1.1 z2.1) * (ab z2.1 z3.1) * (sb z2.2 z3.2) + (-1) * (((√2 : ℝ) : ℂ)) ^ 2 * ((c.e : ℂ)) ^ 2 * ((c.MW : ℂ)⁻¹) * (ab z0.1 z3.1) * (ab z1.1 z2.1) ^ 2 * (mb z3.2 (p 1) z0.1) / (2) + (1) * (((√2 : ℝ) : ℂ)) ^ 2 * ((c.e : ℂ)) ^ 2 * (ab z0.1 z2.1) ^ 2 * (ab z1.1 z3.1) * (sb z1.2 z3.2) + (1) * ((c.e : ℂ)) ^ 2 * ((c.MW : ℂ)⁻¹) * (N.c 0) * ((N.c 1)⁻¹) * (ab z0.1 z2.1) * (ab z0.1 z3.1) * (ab z1.1 z2.1) ^ 2 * (sb z2.2 z3.2) + (1) * ((c.e : ℂ)) ^ 2 * ((c.MW : ℂ)⁻¹) * (N.c 0) * ((N.c 1)⁻¹) * (ab z0.1 z3.1) * (ab z1.1 z2.1) ^ 2 * (mb z3.2 (p 1) z0.1) + (-1) * ((c.e : ℂ)) ^ 2 * ((c.MW : ℂ)⁻¹) * ((N.c 1)⁻¹) * (ab z0.1 z2.1) * (ab z1.1 z2.1) ^ 2 * (ab z2.1 z3.1) * (mb z2.2 (p 1) z0.1) * (sb z2.2 z3.2) + (1) * ((c.e : ℂ)) ^ 2 * ((c.MW : ℂ)⁻¹) * ((N.c 1)⁻¹) * (ab z0.1 z2.1) * (ab z1.1 z2.1) ^ 2 * (mb z2.2 (p 1) z0.1) * (mb z3.2 (p 1) z3.1) + (2) * ((c.e : ℂ)) ^ 2 * ((c.MW : ℂ)⁻¹) * (ab z0.1 z1.1) * (ab z0.1 z2.1) * (ab z1.1 z2.1) * (ab z2.1 z3.1) * (sb z2.2 z3.2) + (1) * ((c.e : ℂ)) ^ 2 * ((c.MW : ℂ)⁻¹) * (ab z0.1 z3.1) * (ab z1.1 z2.1) ^ 2 * (mb z3.2 (p 1) z0.1) + (-2) * ((c.e : ℂ)) ^ 2 * (ab z0.1 z2.1) ^ 2 * (ab z1.1 z3.1) * (sb z1.2 z3.2) + (-2) * ((c.e : ℂ)) ^ 2 * (ab z0.1 z2.1) ^ 2 * (sb z1.2 z3.2) ^ 2) * yMW + ((-1) * ((c.e : ℂ)) ^ 2 * ((c.MW : ℂ)⁻¹) * (N.c 0) * ((N.c 1)⁻¹) * (ab z0.1 z2.1) * (ab z0.1 z3.1) * (ab z1.1 z2.1) ^ 2 * (sb z2.2 z3.2) / (2) + (-1) * ((c.e : ℂ)) ^ 2 * ((c.MW : ℂ)⁻¹) * (N.c 0) * ((N.c 1)⁻¹) * (ab z0.1 z3.1) * (ab z1.1 z2.1) ^ 2 * (mb z3.2 (p 1) z0.1) / (2) + (1) * ((c.e : ℂ)) ^ 2 * ((c.MW : ℂ)⁻¹) * ((N.c 1)⁻¹) * (ab z0.1 z2.1) * (ab z1.1 z2.1) ^ 2 * (ab z2.1 z3.1) * (mb z2.2 (p 1) z0.1) * (sb z2.2 z3.2) / (2) + (-1) * ((c.e : ℂ)) ^ 2 * ((c.MW : ℂ)⁻¹) * ((N.c 1)⁻¹) * (ab z0.1 z2.1) * (ab z1.1 z2.1) ^ 2 * (mb z2.2 (p 1) z0.1) * (mb z3.2 (p 1) z3.1) / (2) + (-1) * ((c.e : ℂ)) ^ 2 * ((c.MW : ℂ)⁻¹) * (ab z0.1 z1.1) * (ab z0.1 z2.1) * (ab z1.1 z2.1) * (ab z2.1 z3.1) * (sb z2.2 z3.2) + (-1) * ((c.e : ℂ)) ^ 2 * ((c.MW : ℂ)⁻¹) * (ab z0.1 z3.1) * (ab z1.1 z2.1) ^ 2 * (mb z3.2 (p 1) z0.1) / (2) + (-1) * ((c.e : ℂ)) ^ 2 * ((c.MW : ℂ)⁻¹) ^ 2 * (N.c 0) * ((N.c 1)⁻¹) * (ab z0.1 z2.1) * (ab z0.1 z3.1) * (ab z1.1 z2.1) * (mb z3.2 (p 1) z2.1) * (sb z1.2 z2.2) + (1) * ((c.e : ℂ)) ^ 2 * ((c.MW : ℂ)⁻¹) ^ 2 * ((N.c 1)⁻¹) * (ab z0.1 z2.1) * (ab z1.1 z2.1) * (ab z2.1 z3.1) * (mb z2.2 (p 1) z0.1) * (mb z3.2 (p 1) z2.1) * (sb z1.2 z2.2) + (1) * ((c.e : ℂ)) ^ 2 * ((c.MW : ℂ)⁻¹) ^ 2 * (ab z0.1 z1.1) * (ab z0.1 z2.1) * (ab z0.1 z3.1) * (mb z0.2 (p 1) z2.1) * (sb z1.2 z3.2) + (-1) * ((c.e : ℂ)) ^ 2 * ((c.MW : ℂ)⁻¹) ^ 2 * (ab z0.1 z1.1) * (ab z0.1 z2.1) * (ab z2.1 z3.1) * (mb z3.2 (p 1) z2.1) * (sb z1.2 z2.2) + (1) * ((c.e : ℂ)) ^ 2 * (ab z0.1 z2.1) ^ 2 * (ab z1.1 z3.1) * (sb z1.2 z3.2)) * x22
set_option maxRecDepth 8000 in
theorem AWAW.amp2_eq (N : Env) (f : Nat → List Int → ℂ) : Cls.AWAW.m_amp2.mean N f .r [] =
    ((sumW (fun x a => (sumV (fun x b => (sumW (fun x c => (sumV (fun x d => (x + (‖(f 0 [a, b, c, d])‖ ^ 2))) x)) x)) x)) ((0 : Nat) : ℝ)) / ((6 : Nat) : ℝ)) := by rfl
set_option maxRecDepth 8000 in
theorem AWAW.value (N : Env) : meaning N .r Cls.AWAW.methods Cls.AWAW.amp2 [] =
    ((sumW (fun x a => (sumV (fun x b => (sumW (fun x c => (sumV (fun x d => (x + (‖(Cls.AWAW.m_amp.mean N (callMean N []) .c [a, b, c, d])‖ ^ 2))) x)) x)) x)) ((0 : Nat) : ℝ)) / ((6 : Nat) : ℝ)) :=
  AWAW.amp2_eq N (callMean N [Cls.AWAW.m_amp])
theorem AWAW.termPP_lin (N : Env) (w : ℝ) (x : ℂ) (a1 b1 a3 b3 : Int) : AWAW.termPP N w x a1 b1 a3 b3 = x + (w : ℂ) * AWAW.termPP N 1 0 a1 b1 a3 b3 := by
  simp only [AWAW.termPP]; push_cast; ring
theorem AWAW.termPM_lin (N : Env) (w : ℝ) (x : ℂ) (a1 b1 a3 b3 : Int) : AWAW.termPM N w x a1 b1 a3 b3 = x + (w : ℂ) * AWAW.termPM N 1 0 a1 b1 a3 b3 := by
  simp only [AWAW.termPM]; push_cast; ring
theorem AWAW.termMP_lin (N : Env) (w : ℝ) (x : ℂ) (a1 b1 a3 b3 : Int) : AWAW.termMP N w x a1 b1 a3 b3 = x + (w : ℂ) * AWAW.termMP N 1 0 a1 b1 a3 b3 := by
  simp only [AWAW.termMP]; push_cast; ring
theorem AWAW.termMM_lin (N : Env) (w : ℝ) (x : ℂ) (a1 b1 a3 b3 : Int) : AWAW.termMM N w x a1 b1 a3 b3 = x + (w : ℂ) * AWAW.termMM N 1 0 a1 b1 a3 b3 := by
  simp only [AWAW.termMM]; push_cast; ring
set_option maxRecDepth 8000 in
theorem AWAW.ampPP (N : Env) (f : Nat → List Int → ℂ) (t1 t3 : Fin 3) : Cls.AWAW.m_amp.mean N f .c [2, spinV t1, 2, spinV t3] = comb t3 (fun a3 b3 => comb t1 (fun a1 b1 => AWAW.termPP N 1 0 (spinOf a1) (spinOf b1) (spinOf a3) (spinOf b3))) := by
  refine (amp_mean N f (m := 4) (K := 8) (G := fun i => if (decide (0 < i 0) && decide (0 < i 2)) = true then AWAW.termPP N 1 0 (i 6) (i 7) (i 4) (i 5) else if (decide (0 < i 0) && decide (i 2 < 0)) = true then AWAW.termPM N 1 0 (i 6) (i 7) (i 4) (i 5) else if (decide (i 0 < 0) && decide (0 < i 2)) = true then AWAW.termMP N 1 0 (i 6) (i 7) (i 4) (i 5) else if (decide (i 0 < 0) && decide (i 2 < 0)) = true then AWAW.termMM N 1 0 (i 6) (i 7) (i 4) (i 5) else 0) (fun l => ?_) (fun i i' h => ?_) rfl (by decide) (by decide) (by decide) (by decide) (by decide)).trans ?_
  · by_cases g0 : (decide (0 < l.i 0) && decide (0 < l.i 2)) = true
    · refine ⟨_, (if_pos g0).trans rfl, rfl, rfl, ?_⟩; rw [if_pos g0]; exact AWAW.termPP_lin ..
    · by_cases g1 : (decide (0 < l.i 0) && decide (l.i 2 < 0)) = true
      · refine ⟨_, (if_neg g0).trans ((if_pos g1).trans rfl), rfl, rfl, ?_⟩; rw [if_neg g0, if_pos g1]; exact AWAW.termPM_lin ..
      · by_cases g2 : (decide (l.i 0 < 0) && decide (0 < l.i 2)) = true
        · refine ⟨_, (if_neg g0).trans ((if_neg g1).trans ((if_pos g2).trans rfl)), rfl, rfl, ?_⟩; rw [if_neg g0, if_neg g1, if_pos g2]; exact AWAW.termMP_lin ..
        · by_cases g3 : (decide (l.i 0 < 0) && decide (l.i 2 < 0)) = true
          · refine ⟨_, (if_neg g0).trans ((if_neg g1).trans ((if_neg g2).trans ((if_pos g3).trans rfl))), rfl, rfl, ?_⟩; rw [if_neg g0, if_neg g1, if_neg g2, if_pos g3]; exact AWAW.termMM_lin ..
          · refine ⟨_, (if_neg g0).trans ((if_neg g1).trans ((if_neg g2).trans ((if_neg g3).trans (rfl)))), rfl, rfl, ?_⟩; rw [if_neg g0, if_neg g1, if_neg g2, if_neg g3, mul_zero, add_zero]
  · simp only [h 0 (by decide), h 2 (by decide), h 4 (by decide), h 5 (by decide), h 6 (by decide), h 7 (by decide)]
  · show amp' _ [spinV t3, spinV t1] = _
    simp only [amp'_comb, amp'_nil]
    rfl
theorem AWAW.formPP_x1 (N : Env) (p : Nat → V4 ℝ) (z0 y1 z2 x3 y3 x y : Pair) : AWAW.formPP N p z0 (x + y) y1 z2 x3 y3 = AWAW.formPP N p z0 x y1 z2 x3 y3 + AWAW.formPP N p z0 y y1 z2 x3 y3 := by
  simp only [AWAW.formPP, Prod.fst_add, Prod.snd_add, ab_add_left, ab_add_right, sb_add_left, sb_add_right, mb_add_left, mb_add_right]
  ring
theorem AWAW.formPP_y1 (N : Env) (p : Nat → V4 ℝ) (z0 x1 z2 x3 y3 x y : Pair) : AWAW.formPP N p z0 x1 (x + y) z2 x3 y3 = AWAW.formPP N p z0 x1 x z2 x3 y3 + AWAW.formPP N p z0 x1 y z2 x3 y3 := by
  simp only [AWAW.formPP, Prod.fst_add, Prod.snd_add, ab_add_left, ab_add_right, sb_add_left, sb_add_right, mb_add_left, mb_add_right]
  ring
theorem AWAW.formPP_x3 (N : Env) (p : Nat → V4 ℝ) (z0 x1 y1 z2 y3 x y : Pair) : AWAW.formPP N p z0 x1 y1 z2 (x + y) y3 = AWAW.formPP N p z0 x1 y1 z2 x y3 + AWAW.formPP N p z0 x1 y1 z2 y y3 := by
  simp only [AWAW.formPP, Prod.fst_add, Prod.snd_add, ab_add_left, ab_add_right, sb_add_left, sb_add_right, mb_add_left, mb_add_right]
  ring
theorem AWAW.formPP_y3 (N : Env) (p : Nat → V4 ℝ) (z0 x1 y1 z2 x3 x y : Pair) : AWAW.formPP N p z0 x1 y1 z2 x3 (x + y) = AWAW.formPP N p z0 x1 y1 z2 x3 x + AWAW.formPP N p z0 x1 y1 z2 x3 y := by
  simp only [AWAW.formPP, Prod.fst_add, Prod.snd_add, ab_add_left, ab_add_right, sb_add_left, sb_add_right, mb_add_left, mb_add_right]
  ring
set_option maxRecDepth 8000 in
theorem AWAW.ampPM (N : Env) (f : Nat → List Int → ℂ) (t1 t3 : Fin 3) : Cls.AWAW.m_amp.mean N f .c [2, spinV t1, (-2), spinV t3] = comb t3 (fun a3 b3 => comb t1 (fun a1 b1 => AWAW.termPM N 1 0 (spinOf a1) (spinOf b1) (spinOf a3) (spinOf b3))) := by
  refine (amp_mean N f (m := 4) (K := 8) (G := fun i => if (decide (0 < i 0) && decide (0 < i 2)) = true then AWAW.termPP N 1 0 (i 6) (i 7) (i 4) (i 5) else if (decide (0 < i 0) && decide (i 2 < 0)) = true then AWAW.termPM N 1 0 (i 6) (i 7) (i 4) (i 5) else if (decide (i 0 < 0) && decide (0 < i 2)) = true then AWAW.termMP N 1 0 (i 6) (i 7) (i 4) (i 5) else if (decide (i 0 < 0) && decide (i 2 < 0)) = true then AWAW.termMM N 1 0 (i 6) (i 7) (i 4) (i 5) else 0) (fun l => ?_) (fun i i' h => ?_) rfl (by decide) (by decide) (by decide) (by decide) (by decide)).trans ?_
  · by_cases g0 : (decide (0 < l.i 0) && decide (0 < l.i 2)) = true
    · refine ⟨_, (if_pos g0).trans rfl, rfl, rfl, ?_⟩; rw [if_pos g0]; exact AWAW.termPP_lin ..
    · by_cases g1 : (decide (0 < l.i 0) && decide (l.i 2 < 0)) = true
      · refine ⟨_, (if_neg g0).trans ((if_pos g1).trans rfl), rfl, rfl, ?_⟩; rw [if_neg g0, if_pos g1]; exact AWAW.termPM_lin ..
      · by_cases g2 : (decide (l.i 0 < 0) && decide (0 < l.i 2)) = true
        · refine ⟨_, (if_neg g0).trans ((if_neg g1).trans ((if_pos g2).trans rfl)), rfl, rfl, ?_⟩; rw [if_neg g0, if_neg g1, if_pos g2]; exact AWAW.termMP_lin ..
        · by_cases g3 : (decide (l.i 0 < 0) && decide (l.i 2 < 0)) = true
          · refine ⟨_, (if_neg g0).trans ((if_neg g1).trans ((if_neg g2).trans ((if_pos g3).trans rfl))), rfl, rfl, ?_⟩; rw [if_neg g0, if_neg g1, if_neg g2, if_pos g3]; exact AWAW.termMM_lin ..
          · refine ⟨_, (if_neg g0).trans ((if_neg g1).trans ((if_neg g2).trans ((if_neg g3).trans (rfl)))), rfl, rfl, ?_⟩; rw [if_neg g0, if_neg g1, if_neg g2, if_neg g3, mul_zero, add_zero]
  · simp only [h 0 (by decide), h 2 (by decide), h 4 (by decide), h 5 (by decide), h 6 (by decide), h 7 (by decide)]
  · show amp' _ [spinV t3, spinV t1] = _
    simp only [amp'_comb, amp'_nil]
    rfl
theorem AWAW.formPM_x1 (N : Env) (p : Nat → V4 ℝ) (z0 y1 z2 x3 y3 x y : Pair) : AWAW.formPM N p z0 (x + y) y1 z2 x3 y3 = AWAW.formPM N p z0 x y1 z2 x3 y3 + AWAW.formPM N p z0 y y1 z2 x3 y3 := by
  simp only [AWAW.formPM, Prod.fst_add, Prod.snd_add, ab_add_left, ab_add_right, sb_add_left, sb_add_right, mb_add_left, mb_add_right]
  ring
theorem AWAW.formPM_y1 (N : Env) (p : Nat → V4 ℝ) (z0 x1 z2 x3 y3 x y : Pair) : AWAW.formPM N p z0 x1 (x + y) z2 x3 y3 = AWAW.formPM N p z0 x1 x z2 x3 y3 + AWAW.formPM N p z0 x1 y z2 x3 y3 := by
  simp only [AWAW.formPM, Prod.fst_add, Prod.snd_add, ab_add_left, ab_add_right, sb_add_left, sb_add_right, mb_add_left, mb_add_right]
  ring
theorem AWAW.formPM_x3 (N : Env) (p : Nat → V4 ℝ) (z0 x1 y1 z2 y3 x y : Pair) : AWAW.formPM N p z0 x1 y1 z2 (x + y) y3 = AWAW.formPM N p z0 x1 y1 z2 x y3 + AWAW.formPM N p z0 x1 y1 z2 y y3 := by
  simp only [AWAW.formPM, Prod.fst_add, Prod.snd_add, ab_add_left, ab_add_right, sb_add_left, sb_add_right, mb_add_left, mb_add_right]
  ring
theorem AWAW.formPM_y3 (N : Env) (p : Nat → V4 ℝ) (z0 x1 y1 z2 x3 x y : Pair) : AWAW.formPM N p z0 x1 y1 z2 x3 (x + y) = AWAW.formPM N p z0 x1 y1 z2 x3 x + AWAW.formPM N p z0 x1 y1 z2 x3 y := by
  simp only [AWAW.formPM, Prod.fst_add, Prod.snd_add, ab_add_left, ab_add_right, sb_add_left, sb_add_right, mb_add_left, mb_add_right]
  ring
set_option maxRecDepth 8000 in
theorem AWAW.ampMP (N : Env) (f : Nat → List Int → ℂ) (t1 t3 : Fin 3) : Cls.AWAW.m_amp.mean N f .c [(-2), spinV t1, 2, spinV t3] = comb t3 (fun a3 b3 => comb t1 (fun a1 b1 => AWAW.termMP N 1 0 (spinOf a1) (spinOf b1) (spinOf a3) (spinOf b3))) := by
  refine (amp_mean N f (m := 4) (K := 8) (G := fun i => if (decide (0 < i 0) && decide (0 < i 2)) = true then AWAW.termPP N 1 0 (i 6) (i 7) (i 4) (i 5) else if (decide (0 < i 0) && decide (i 2 < 0)) = true then AWAW.termPM N 1 0 (i 6) (i 7) (i 4) (i 5) else if (decide (i 0 < 0) && decide (0 < i 2)) = true then AWAW.termMP N 1 0 (i 6) (i 7) (i 4) (i 5) else if (decide (i 0 < 0) && decide (i 2 < 0)) = true then AWAW.termMM N 1 0 (i 6) (i 7) (i 4) (i 5) else 0) (fun l => ?_) (fun i i' h => ?_) rfl (by decide) (by decide) (by decide) (by decide) (by decide)).trans ?_
  · by_cases g0 : (decide (0 < l.i 0) && decide (0 < l.i 2)) = true
    · refine ⟨_, (if_pos g0).trans rfl, rfl, rfl, ?_⟩; rw [if_pos g0]; exact AWAW.termPP_lin ..
    · by_cases g1 : (decide (0 < l.i 0) && decide (l.i 2 < 0)) = true
      · refine ⟨_, (if_neg g0).trans ((if_pos g1).trans rfl), rfl, rfl, ?_⟩; rw [if_neg g0, if_pos g1]; exact AWAW.termPM_lin ..
      · by_cases g2 : (decide (l.i 0 < 0) && decide (0 < l.i 2)) = true
        · refine ⟨_, (if_neg g0).trans ((if_neg g1).trans ((if_pos g2).trans rfl)), rfl, rfl, ?_⟩; rw [if_neg g0, if_neg g1, if_pos g2]; exact AWAW.termMP_lin ..
        · by_cases g3 : (decide (l.i 0 < 0) && decide (l.i 2 < 0)) = true
          · refine ⟨_, (if_neg g0).trans ((if_neg g1).trans ((if_neg g2).trans ((if_pos g3).trans rfl))), rfl, rfl, ?_⟩; rw [if_neg g0, if_neg g1, if_neg g2, if_pos g3]; exact AWAW.termMM_lin ..
          · refine ⟨_, (if_neg g0).trans ((if_neg g1).trans ((if_neg g2).trans ((if_neg g3).trans (rfl)))), rfl, rfl, ?_⟩; rw [if_neg g0, if_neg g1, if_neg g2, if_neg g3, mul_zero, add_zero]
  · simp only [h 0 (by decide), h 2 (by decide), h 4 (by decide), h 5 (by decide), h 6 (by decide), h 7 (by decide)]
  · show amp' _ [spinV t3, spinV t1] = _
    simp only [amp'_comb, amp'_nil]
    rfl
theorem AWAW.formMP_x1 (N : Env) (p : Nat → V4 ℝ) (z0 y1 z2 x3 y3 x y : Pair) : AWAW.formMP N p z0 (x + y) y1 z2 x3 y3 = AWAW.formMP N p z0 x y1 z2 x3 y3 + AWAW.formMP N p z0 y y1 z2 x3 y3 := by
  simp only [AWAW.formMP, Prod.fst_add, Prod.snd_add, ab_add_left, ab_add_right, sb_add_left, sb_add_right, mb_add_left, mb_add_right]
  ring
theorem AWAW.formMP_y1 (N : Env) (p : Nat → V4 ℝ) (z0 x1 z2 x3 y3 x y : Pair) : AWAW.formMP N p z0 x1 (x + y) z2 x3 y3 = AWAW.formMP N p z0 x1 x z2 x3 y3 + AWAW.formMP N p z0 x1 y z2 x3 y3 := by
  simp only [AWAW.formMP, Prod.fst_add, Prod.snd_add, ab_add_left, ab_add_right, sb_add_left, sb_add_right, mb_add_left, mb_add_right]
  ring
theorem AWAW.formMP_x3 (N : Env) (p : Nat → V4 ℝ) (z0 x1 y1 z2 y3 x y : Pair) : AWAW.formMP N p z0 x1 y1 z2 (x + y) y3 = AWAW.formMP N p z0 x1 y1 z2 x y3 + AWAW.formMP N p z0 x1 y1 z2 y y3 := by
  simp only [AWAW.formMP, Prod.fst_add, Prod.snd_add, ab_add_left, ab_add_right, sb_add_left, sb_add_right, mb_add_left, mb_add_right]
  ring
theorem AWAW.formMP_y3 (N : Env) (p : Nat → V4 ℝ) (z0 x1 y1 z2 x3 x y : Pair) : AWAW.formMP N p z0 x1 y1 z2 x3 (x + y) = AWAW.formMP N p z0 x1 y1 z2 x3 x + AWAW.formMP N p z0 x1 y1 z2 x3 y := by
  simp only [AWAW.formMP, Prod.fst_add, Prod.snd_add, ab_add_left, ab_add_right, sb_add_left, sb_add_right, mb_add_left, mb_add_right]
  ring
set_option maxRecDepth 8000 in
theorem AWAW.ampMM (N : Env) (f : Nat → List Int → ℂ) (t1 t3 : Fin 3) : Cls.AWAW.m_amp.mean N f .c [(-2), spinV t1, (-2), spinV t3] = comb t3 (fun a3 b3 => comb t1 (fun a1 b1 => AWAW.termMM N 1 0 (spinOf a1) (spinOf b1) (spinOf a3) (spinOf b3))) := by
  refine (amp_mean N f (m := 4) (K := 8) (G := fun i => if (decide (0 < i 0) && decide (0 < i 2)) = true then AWAW.termPP N 1 0 (i 6) (i 7) (i 4) (i 5) else if (decide (0 < i 0) && decide (i 2 < 0)) = true then AWAW.termPM N 1 0 (i 6) (i 7) (i 4) (i 5) else if (decide (i 0 < 0) && decide (0 < i 2)) = true then AWAW.termMP N 1 0 (i 6) (i 7) (i 4) (i 5) else if (decide (i 0 < 0) && decide (i 2 < 0)) = true then AWAW.termMM N 1 0 (i 6) (i 7) (i 4) (i 5) else 0) (fun l => ?_) (fun i i' h => ?_) rfl (by decide) (by decide) (by decide) (by decide) (by decide)).trans ?_
  · by_cases g0 : (decide (0 < l.i 0) && decide (0 < l.i 2)) = true
    · refine ⟨_, (if_pos g0).trans rfl, rfl, rfl, ?_⟩; rw [if_pos g0]; exact AWAW.termPP_lin ..
    · by_cases g1 : (decide (0 < l.i 0) && decide (l.i 2 < 0)) = true
      · refine ⟨_, (if_neg g0).trans ((if_pos g1).trans rfl), rfl, rfl, ?_⟩; rw [if_neg g0, if_pos g1]; exact AWAW.termPM_lin ..
      · by_cases g2 : (decide (l.i 0 < 0) && decide (0 < l.i 2)) = true
        · refine ⟨_, (if_neg g0).trans ((if_neg g1).trans ((if_pos g2).trans rfl)), rfl, rfl, ?_⟩; rw [if_neg g0, if_neg g1, if_pos g2]; exact AWAW.termMP_lin ..
        · by_cases g3 : (decide (l.i 0 < 0) && decide (l.i 2 < 0)) = true
          · refine ⟨_, (if_neg g0).trans ((if_neg g1).trans ((if_neg g2).trans ((if_pos g3).trans rfl))), rfl, rfl, ?_⟩; rw [if_neg g0, if_neg g1, if_neg g2, if_pos g3]; exact AWAW.termMM_lin ..
          · refine ⟨_, (if_neg g0).trans ((if_neg g1).trans ((if_neg g2).trans ((if_neg g3).trans (rfl)))), rfl, rfl, ?_⟩; rw [if_neg g0, if_neg g1, if_neg g2, if_neg g3, mul_zero, add_zero]
  · simp only [h 0 (by decide), h 2 (by decide), h 4 (by decide), h 5 (by decide), h 6 (by decide), h 7 (by decide)]
  · show amp' _ [spinV t3, spinV t1] = _
    simp only [amp'_comb, amp'_nil]
    rfl
theorem AWAW.formMM_x1 (N : Env) (p : Nat → V4 ℝ) (z0 y1 z2 x3 y3 x y : Pair) : AWAW.formMM N p z0 (x + y) y1 z2 x3 y3 = AWAW.formMM N p z0 x y1 z2 x3 y3 + AWAW.formMM N p z0 y y1 z2 x3 y3 := by
  simp only [AWAW.formMM, Prod.fst_add, Prod.snd_add, ab_add_left, ab_add_right, sb_add_left, sb_add_right, mb_add_left, mb_add_right]
  ring
theorem AWAW.formMM_y1 (N : Env) (p : Nat → V4 ℝ) (z0 x1 z2 x3 y3 x y : Pair) : AWAW.formMM N p z0 x1 (x + y) z2 x3 y3 = AWAW.formMM N p z0 x1 x z2 x3 y3 + AWAW.formMM N p z0 x1 y z2 x3 y3 := by
  simp only [AWAW.formMM, Prod.fst_add, Prod.snd_add, ab_add_left, ab_add_right, sb_add_left, sb_add_right, mb_add_left, mb_add_right]
  ring
theorem AWAW.formMM_x3 (N : Env) (p : Nat → V4 ℝ) (z0 x1 y1 z2 y3 x y : Pair) : AWAW.formMM N p z0 x1 y1 z2 (x + y) y3 = AWAW.formMM N p z0 x1 y1 z2 x y3 + AWAW.formMM N p z0 x1 y1 z2 y y3 := by
  simp only [AWAW.formMM, Prod.fst_add, Prod.snd_add, ab_add_left, ab_add_right, sb_add_left, sb_add_right, mb_add_left, mb_add_right]
  ring
theorem AWAW.formMM_y3 (N : Env) (p : Nat → V4 ℝ) (z0 x1 y1 z2 x3 x y : Pair) : AWAW.formMM N p z0 x1 y1 z2 x3 (x + y) = AWAW.formMM N p z0 x1 y1 z2 x3 x + AWAW.formMM N p z0 x1 y1 z2 x3 y := by
  simp only [AWAW.formMM, Prod.fst_add, Prod.snd_add, ab_add_left, ab_add_right, sb_add_left, sb_add_right, mb_add_left, mb_add_right]
  ring

theorem AWAW.mass_eq {c : Constants} (hc : c.Physical) (i : Fin 4) : AWAW.proc.massNum (AWAW.rho c) i = AWAW.react.mass c i := by
  fin_cases i <;> first | rfl | exact Nat.cast_zero | (show c.MW / √(((1 : Nat) : ℝ) - c.SW * c.SW) = c.MZ; rw [c.root, c.mz])

variable [FPEnv] in
theorem AWAW.amps {c : Constants} {p : Nat → V4 ℝ} {u : Fin 4 → Fin 3 → Spinor} {ε : Fin 4 → Fin 3 → Vec} (hc : c.Physical) (hh : c.Heavy) (hw : ∀ q ∈ AWAW.absent, c.get q = 0) (h0 : ∀ i, 0 ≤ AWAW.react.mass c i) (hs : ∀ i : Fin 4, OnShell (p i) (AWAW.react.mass c i)) (hb : Balanced p) (hr : AWAW.react.Regular c p) (hu : ∀ i, AWAW.react.Complete c p i (u i) (ε i)) :
    (AWAW.N c p).c 0 ≠ 0 ∧ (AWAW.N c p).c 1 ≠ 0 ∧ (∀ n, (Ty.r, n) ∈ AWAW.proc.divides → (AWAW.N c p).r n ≠ 0) ∧ (∀ n, (Ty.c, n) ∈ AWAW.proc.divides → (AWAW.N c p).c n ≠ 0) ∧ ∀ (h0 : Fin 2) (h2 : Fin 2) (t1 t3 : Fin 3), ‖Cls.AWAW.m_amp.mean (AWAW.N c p) (callMean (AWAW.N c p) []) .c [spinW h0, spinV t1, spinW h2, spinV t3]‖ = ‖AWAW.react.bare4 c p (lightE (legA (p 0) 0 0, legS (p 0) 0 1) h0.castSucc) (AWAW.react.codeVec c p 1 t1) (lightE (legA (p 2) 0 0, legS (p 2) 0 1) h2.castSucc) (AWAW.react.codeVec c p 3 t3)‖ := by
  have he : AWAW.react.ends = [] := by decide
  have ht : AWAW.react.starts = [] := by decide
  have hB : AWAW.react.bosons = [0, 1, 2, 3] := by decide
  obtain ⟨f1, f2, f3⟩ := AWAW.react.regular_four he ht hB hr
  have hWW : c.WW = 0 := hw .WW (by simp [AWAW])
  have hG : AWAW.react.Gauge c p := AWAW.gauge hc.MW hWW hb (fun n => onShell_msq (hs n)) hr
  have r0 : (AWAW.N c p).r 0 = c.e := rfl
  have c0 : (AWAW.N c p).c 0 = poleDist c.MW c.WW ((VExp.add 0 1).sum p) := rfl
  have d0 : pole c.MW c.WW (plus (p 0) (p 1)) = (AWAW.N c p).c 0 := by rw [c0, pole_congr (msq_s hb (plus (p 0) (p 1)) (by simp)).symm]
  have n0 : (AWAW.N c p).c 0 ≠ 0 := by rw [← d0]; exact star_ne_zero.2 (f1 .wPlus rfl rfl)
  rw [hWW, pole_fermion rfl] at c0
  have c1 : (AWAW.N c p).c 1 = poleDist c.MW c.WW ((VExp.sub 0 3).sum p) := rfl
  have d1 : pole c.MW c.WW (plus (p 0) (backward (p 3))) = (AWAW.N c p).c 1 := by rw [c1, pole_congr (msq_u hb (plus (p 0) (backward (p 3))) (by simp)).symm]
  have n1 : (AWAW.N c p).c 1 ≠ 0 := by rw [← d1]; exact star_ne_zero.2 (f3 .wMinus rfl rfl)
  rw [hWW, pole_fermion rfl] at c1
  obtain ⟨l0, x0, y0⟩ := AWAW.react.code_light hs hu (n := 0) rfl rfl
  obtain ⟨l2, x2, y2⟩ := AWAW.react.code_light hs hu (n := 2) rfl rfl
  have e01 := l0.pole_add (m := c.MW) (onShell_msq (hs 1)) (msq_s hb (plus (p 0) (p 1)) (by simp)) c0
  have e03 := l0.pole_sub (m := c.MW) (onShell_msq (hs 3)) (msq_u hb (plus (p 0) (backward (p 3))) (by simp)) c1
  have e21 := l2.pole_sub' (m := c.MW) (onShell_msq (hs 1)) (msq_u hb (plus (p 1) (backward (p 2))) (by simp)) c1
  have e23 := l2.pole_add (m := c.MW) (onShell_msq (hs 3)) (msq_s hb (plus (p 2) (p 3)) (by simp)) c0
  have m1 : AWAW.react.mass c 1 ≠ 0 := (leg_pos hc hh (by decide)).ne'
  have m3 : AWAW.react.mass c 3 ≠ 0 := (leg_pos hc hh (by decide)).ne'
  have m0 : AWAW.react.mass c 0 = 0 := rfl
  have m2 : AWAW.react.mass c 2 = 0 := rfl
  have g0 : ab (refPlus (p 1) (legA (p 0) 0 0, legS (p 0) 0 1)) (legA (p 0) 0 0) ≠ 0 := fun h => (n0) (e01.symm.trans ((ab_ref ..).symm.trans h))
  have j0 : sb (refMinus (p 1) (legA (p 0) 0 0, legS (p 0) 0 1)) (legS (p 0) 0 1) ≠ 0 := fun h => (n0) (e01.symm.trans ((sb_ref ..).symm.trans h))
  have g2 : ab (refPlus (p 1) (legA (p 2) 0 0, legS (p 2) 0 1)) (legA (p 2) 0 0) ≠ 0 := fun h => (neg_ne_zero.2 n1) (e21.symm.trans ((ab_ref ..).symm.trans h))
  have j2 : sb (refMinus (p 1) (legA (p 2) 0 0, legS (p 2) 0 1)) (legS (p 2) 0 1) ≠ 0 := fun h => (neg_ne_zero.2 n1) (e21.symm.trans ((sb_ref ..).symm.trans h))
  have hd : AWAW.proc.divides = [(Ty.c, 1), (Ty.c, 0)] := by decide +kernel
  have stPP : ∀ (t1 t3 : Fin 3), comb t3 (fun a3 b3 => comb t1 (fun a1 b1 => AWAW.formPP (AWAW.N c p) p (legA (p 0) 0 0, legS (p 0) 0 1) (AWAW.react.codePair c p 1 a1) (AWAW.react.codePair c p 1 b1) (legA (p 2) 0 0, legS (p 2) 0 1) (AWAW.react.codePair c p 3 a3) (AWAW.react.codePair c p 3 b3))) = (-1) * AWAW.react.bare4 c p (lightE (legA (p 0) 0 0, legS (p 0) 0 1) 1) (AWAW.react.codeVec c p 1 t1) (lightE (legA (p 2) 0 0, legS (p 2) 0 1) 1) (AWAW.react.codeVec c p 3 t3) := by
    intro t1 t3
    refine two_vectors (p := p 3) (m := AWAW.react.mass c 3) (p' := p 1) (m' := AWAW.react.mass c 1) (fun s => AWAW.react.codePair_bold hs h0 3 s) (fun s => AWAW.react.codePair_bold hs h0 1 s) (B := fun w0 w0b w1 w1b => AWAW.formPP (AWAW.N c p) p (legA (p 0) 0 0, legS (p 0) 0 1) w1 w1b (legA (p 2) 0 0, legS (p 2) 0 1) w0 w0b) (fun _ _ _ _ _ => ?_) (fun _ _ _ _ _ => ?_) (fun _ _ _ _ _ => ?_) (fun _ _ _ _ _ => ?_) (G := fun E F => AWAW.react.bare4 c p (lightE (legA (p 0) 0 0, legS (p 0) 0 1) 1) F (lightE (legA (p 2) 0 0, legS (p 2) 0 1) 1) E) (fun _ => AWAW.react.bare4_lin₃ c p (by decide) _ _ _) (fun _ => AWAW.react.bare4_lin₁ c p (by decide) _ _ _) (-1) (fun z3 z1 b3 b1 => ?_) t3 t1
    · exact AWAW.formPP_x3 ..
    · exact AWAW.formPP_y3 ..
    · exact AWAW.formPP_x1 ..
    · exact AWAW.formPP_y1 ..
    · have k0 := AWAW.keyPP hc hb r0 d0 n0 d1 n1 b1 b3 l0 l2 e01 e03 e21 e23 (onShell_msq (hs 1)) (onShell_msq (hs 3)) (ab_ref (p 1) (legA (p 0) 0 0, legS (p 0) 0 1)) (ab_ref (p 1) (legA (p 2) 0 0, legS (p 2) 0 1))
      have w2 : AWAW.react.bare4 c p (pv (refPlus (p 1) (legA (p 0) 0 0, legS (p 0) 0 1)) (legA (p 0) 0 0, legS (p 0) 0 1).2) (pv z1.1 z1.2) (four (p 2)) (pv z3.1 z3.2) = 0 := by
        refine AWAW.react.bare4_gauge he ht hB hG (n := 2) rfl rfl ![(pv (refPlus (p 1) (legA (p 0) 0 0, legS (p 0) 0 1)) (legA (p 0) 0 0, legS (p 0) 0 1).2), (pv z1.1 z1.2), four (p 2), (pv z3.1 z3.2)] (fun m hm x hl hx => ?_) rfl
        fin_cases m
        · exact pv_transverse (l0.mb_plus _)
        · exact pv_transverse b1.mb_zero'
        · exact absurd rfl hm
        · exact pv_transverse b3.mb_zero'
      have k1 := light_plus_ref (z := (legA (p 2) 0 0, legS (p 2) 0 1)) (G := fun E => AWAW.react.bare4 c p (pv (refPlus (p 1) (legA (p 0) 0 0, legS (p 0) 0 1)) (legA (p 0) 0 0, legS (p 0) 0 1).2) (pv z1.1 z1.2) E (pv z3.1 z3.2)) l2 (AWAW.react.bare4_lin₂ c p (by decide) _ _ _) w2 x2 g2 k0
      have w0 : AWAW.react.bare4 c p (four (p 0)) (pv z1.1 z1.2) (lightE (legA (p 2) 0 0, legS (p 2) 0 1) 1) (pv z3.1 z3.2) = 0 := by
        refine AWAW.react.bare4_gauge he ht hB hG (n := 0) rfl rfl ![four (p 0), (pv z1.1 z1.2), (lightE (legA (p 2) 0 0, legS (p 2) 0 1) 1), (pv z3.1 z3.2)] (fun m hm x hl hx => ?_) rfl
        fin_cases m
        · exact absurd rfl hm
        · exact pv_transverse b1.mb_zero'
        · exact (show contract (four (p 2)) (lightE (legA (p 2) 0 0, legS (p 2) 0 1) 1) = 0 from l2.transverse 1)
        · exact pv_transverse b3.mb_zero'
      have k2 := light_plus_ref (z := (legA (p 0) 0 0, legS (p 0) 0 1)) (G := fun E => AWAW.react.bare4 c p E (pv z1.1 z1.2) (lightE (legA (p 2) 0 0, legS (p 2) 0 1) 1) (pv z3.1 z3.2)) l0 (AWAW.react.bare4_lin₀ c p (by decide) _ _ _) w0 x0 g0 k1
      exact k2.trans (mul_assoc _ _ _)
  have stPM : ∀ (t1 t3 : Fin 3), comb t3 (fun a3 b3 => comb t1 (fun a1 b1 => AWAW.formPM (AWAW.N c p) p (legA (p 0) 0 0, legS (p 0) 0 1) (AWAW.react.codePair c p 1 a1) (AWAW.react.codePair c p 1 b1) (legA (p 2) 0 0, legS (p 2) 0 1) (AWAW.react.codePair c p 3 a3) (AWAW.react.codePair c p 3 b3))) = 1 * AWAW.react.bare4 c p (lightE (legA (p 0) 0 0, legS (p 0) 0 1) 1) (AWAW.react.codeVec c p 1 t1) (lightE (legA (p 2) 0 0, legS (p 2) 0 1) 0) (AWAW.react.codeVec c p 3 t3) := by
    intro t1 t3
    refine two_vectors (p := p 3) (m := AWAW.react.mass c 3) (p' := p 1) (m' := AWAW.react.mass c 1) (fun s => AWAW.react.codePair_bold hs h0 3 s) (fun s => AWAW.react.codePair_bold hs h0 1 s) (B := fun w0 w0b w1 w1b => AWAW.formPM (AWAW.N c p) p (legA (p 0) 0 0, legS (p 0) 0 1) w1 w1b (legA (p 2) 0 0, legS (p 2) 0 1) w0 w0b) (fun _ _ _ _ _ => ?_) (fun _ _ _ _ _ => ?_) (fun _ _ _ _ _ => ?_) (fun _ _ _ _ _ => ?_) (G := fun E F => AWAW.react.bare4 c p (lightE (legA (p 0) 0 0, legS (p 0) 0 1) 1) F (lightE (legA (p 2) 0 0, legS (p 2) 0 1) 0) E) (fun _ => AWAW.react.bare4_lin₃ c p (by decide) _ _ _) (fun _ => AWAW.react.bare4_lin₁ c p (by decide) _ _ _) 1 (fun z3 z1 b3 b1 => ?_) t3 t1
    · exact AWAW.formPM_x3 ..
    · exact AWAW.formPM_y3 ..
    · exact AWAW.formPM_x1 ..
    · exact AWAW.formPM_y1 ..
    · have k0 := AWAW.keyPM hc hb r0 d0 n0 d1 n1 b1 b3 l0 l2 e01 e03 e21 e23 (onShell_msq (hs 1)) (onShell_msq (hs 3)) (ab_ref (p 1) (legA (p 0) 0 0, legS (p 0) 0 1)) (sb_ref (p 1) (legA (p 2) 0 0, legS (p 2) 0 1))
      have w2 : AWAW.react.bare4 c p (pv (refPlus (p 1) (legA (p 0) 0 0, legS (p 0) 0 1)) (legA (p 0) 0 0, legS (p 0) 0 1).2) (pv z1.1 z1.2) (four (p 2)) (pv z3.1 z3.2) = 0 := by
        refine AWAW.react.bare4_gauge he ht hB hG (n := 2) rfl rfl ![(pv (refPlus (p 1) (legA (p 0) 0 0, legS (p 0) 0 1)) (legA (p 0) 0 0, legS (p 0) 0 1).2), (pv z1.1 z1.2), four (p 2), (pv z3.1 z3.2)] (fun m hm x hl hx => ?_) rfl
        fin_cases m
        · exact pv_transverse (l0.mb_plus _)
        · exact pv_transverse b1.mb_zero'
        · exact absurd rfl hm
        · exact pv_transverse b3.mb_zero'
      have k1 := light_minus_ref (z := (legA (p 2) 0 0, legS (p 2) 0 1)) (G := fun E => AWAW.react.bare4 c p (pv (refPlus (p 1) (legA (p 0) 0 0, legS (p 0) 0 1)) (legA (p 0) 0 0, legS (p 0) 0 1).2) (pv z1.1 z1.2) E (pv z3.1 z3.2)) l2 (AWAW.react.bare4_lin₂ c p (by decide) _ _ _) w2 y2 j2 k0
      have w0 : AWAW.react.bare4 c p (four (p 0)) (pv z1.1 z1.2) (lightE (legA (p 2) 0 0, legS (p 2) 0 1) 0) (pv z3.1 z3.2) = 0 := by
        refine AWAW.react.bare4_gauge he ht hB hG (n := 0) rfl rfl ![four (p 0), (pv z1.1 z1.2), (lightE (legA (p 2) 0 0, legS (p 2) 0 1) 0), (pv z3.1 z3.2)] (fun m hm x hl hx => ?_) rfl
        fin_cases m
        · exact absurd rfl hm
        · exact pv_transverse b1.mb_zero'
        · exact (show contract (four (p 2)) (lightE (legA (p 2) 0 0, legS (p 2) 0 1) 0) = 0 from l2.transverse 0)
        · exact pv_transverse b3.mb_zero'
      have k2 := light_plus_ref (z := (legA (p 0) 0 0, legS (p 0) 0 1)) (G := fun E => AWAW.react.bare4 c p E (pv z1.1 z1.2) (lightE (legA (p 2) 0 0, legS (p 2) 0 1) 0) (pv z3.1 z3.2)) l0 (AWAW.react.bare4_lin₀ c p (by decide) _ _ _) w0 x0 g0 k1
      exact k2.trans (mul_assoc _ _ _)
  have stMP : ∀ (t1 t3 : Fin 3), comb t3 (fun a3 b3 => comb t1 (fun a1 b1 => AWAW.formMP (AWAW.N c p) p (legA (p 0) 0 0, legS (p 0) 0 1) (AWAW.react.codePair c p 1 a1) (AWAW.react.codePair c p 1 b1) (legA (p 2) 0 0, legS (p 2) 0 1) (AWAW.react.codePair c p 3 a3) (AWAW.react.codePair c p 3 b3))) = 1 * AWAW.react.bare4 c p (lightE (legA (p 0) 0 0, legS (p 0) 0 1) 0) (AWAW.react.codeVec c p 1 t1) (lightE (legA (p 2) 0 0, legS (p 2) 0 1) 1) (AWAW.react.codeVec c p 3 t3) := by
    intro t1 t3
    refine two_vectors (p := p 3) (m := AWAW.react.mass c 3) (p' := p 1) (m' := AWAW.react.mass c 1) (fun s => AWAW.react.codePair_bold hs h0 3 s) (fun s => AWAW.react.codePair_bold hs h0 1 s) (B := fun w0 w0b w1 w1b => AWAW.formMP (AWAW.N c p) p (legA (p 0) 0 0, legS (p 0) 0 1) w1 w1b (legA (p 2) 0 0, legS (p 2) 0 1) w0 w0b) (fun _ _ _ _ _ => ?_) (fun _ _ _ _ _ => ?_) (fun _ _ _ _ _ => ?_) (fun _ _ _ _ _ => ?_) (G := fun E F => AWAW.react.bare4 c p (lightE (legA (p 0) 0 0, legS (p 0) 0 1) 0) F (lightE (legA (p 2) 0 0, legS (p 2) 0 1) 1) E) (fun _ => AWAW.react.bare4_lin₃ c p (by decide) _ _ _) (fun _ => AWAW.react.bare4_lin₁ c p (by decide) _ _ _) 1 (fun z3 z1 b3 b1 => ?_) t3 t1
    · exact AWAW.formMP_x3 ..
    · exact AWAW.formMP_y3 ..
    · exact AWAW.formMP_x1 ..
    · exact AWAW.formMP_y1 ..
    · have k0 := AWAW.keyMP hc hb r0 d0 n0 d1 n1 b1 b3 l0 l2 e01 e03 e21 e23 (onShell_msq (hs 1)) (onShell_msq (hs 3)) (sb_ref (p 1) (legA (p 0) 0 0, legS (p 0) 0 1)) (ab_ref (p 1) (legA (p 2) 0 0, legS (p 2) 0 1))
      have w2 : AWAW.react.bare4 c p (pv (legA (p 0) 0 0, legS (p 0) 0 1).1 (refMinus (p 1) (legA (p 0) 0 0, legS (p 0) 0 1))) (pv z1.1 z1.2) (four (p 2)) (pv z3.1 z3.2) = 0 := by
        refine AWAW.react.bare4_gauge he ht hB hG (n := 2) rfl rfl ![(pv (legA (p 0) 0 0, legS (p 0) 0 1).1 (refMinus (p 1) (legA (p 0) 0 0, legS (p 0) 0 1))), (pv z1.1 z1.2), four (p 2), (pv z3.1 z3.2)] (fun m hm x hl hx => ?_) rfl
        fin_cases m
        · exact pv_transverse (l0.mb_minus _)
        · exact pv_transverse b1.mb_zero'
        · exact absurd rfl hm
        · exact pv_transverse b3.mb_zero'
      have k1 := light_plus_ref (z := (legA (p 2) 0 0, legS (p 2) 0 1)) (G := fun E => AWAW.react.bare4 c p (pv (legA (p 0) 0 0, legS (p 0) 0 1).1 (refMinus (p 1) (legA (p 0) 0 0, legS (p 0) 0 1))) (pv z1.1 z1.2) E (pv z3.1 z3.2)) l2 (AWAW.react.bare4_lin₂ c p (by decide) _ _ _) w2 x2 g2 k0
      have w0 : AWAW.react.bare4 c p (four (p 0)) (pv z1.1 z1.2) (lightE (legA (p 2) 0 0, legS (p 2) 0 1) 1) (pv z3.1 z3.2) = 0 := by
        refine AWAW.react.bare4_gauge he ht hB hG (n := 0) rfl rfl ![four (p 0), (pv z1.1 z1.2), (lightE (legA (p 2) 0 0, legS (p 2) 0 1) 1), (pv z3.1 z3.2)] (fun m hm x hl hx => ?_) rfl
        fin_cases m
        · exact absurd rfl hm
        · exact pv_transverse b1.mb_zero'
        · exact (show contract (four (p 2)) (lightE (legA (p 2) 0 0, legS (p 2) 0 1) 1) = 0 from l2.transverse 1)
        · exact pv_transverse b3.mb_zero'
      have k2 := light_minus_ref (z := (legA (p 0) 0 0, legS (p 0) 0 1)) (G := fun E => AWAW.react.bare4 c p E (pv z1.1 z1.2) (lightE (legA (p 2) 0 0, legS (p 2) 0 1) 1) (pv z3.1 z3.2)) l0 (AWAW.react.bare4_lin₀ c p (by decide) _ _ _) w0 y0 j0 k1
      exact k2.trans (mul_assoc _ _ _)
  have stMM : ∀ (t1 t3 : Fin 3), comb t3 (fun a3 b3 => comb t1 (fun a1 b1 => AWAW.formMM (AWAW.N c p) p (legA (p 0) 0 0, legS (p 0) 0 1) (AWAW.react.codePair c p 1 a1) (AWAW.react.codePair c p 1 b1) (legA (p 2) 0 0, legS (p 2) 0 1) (AWAW.react.codePair c p 3 a3) (AWAW.react.codePair c p 3 b3))) = (-1) * AWAW.react.bare4 c p (lightE (legA (p 0) 0 0, legS (p 0) 0 1) 0) (AWAW.react.codeVec c p 1 t1) (lightE (legA (p 2) 0 0, legS (p 2) 0 1) 0) (AWAW.react.codeVec c p 3 t3) := by
    intro t1 t3
    refine two_vectors (p := p 3) (m := AWAW.react.mass c 3) (p' := p 1) (m' := AWAW.react.mass c 1) (fun s => AWAW.react.codePair_bold hs h0 3 s) (fun s => AWAW.react.codePair_bold hs h0 1 s) (B := fun w0 w0b w1 w1b => AWAW.formMM (AWAW.N c p) p (legA (p 0) 0 0, legS (p 0) 0 1) w1 w1b (legA (p 2) 0 0, legS (p 2) 0 1) w0 w0b) (fun _ _ _ _ _ => ?_) (fun _ _ _ _ _ => ?_) (fun _ _ _ _ _ => ?_) (fun _ _ _ _ _ => ?_) (G := fun E F => AWAW.react.bare4 c p (lightE (legA (p 0) 0 0, legS (p 0) 0 1) 0) F (lightE (legA (p 2) 0 0, legS (p 2) 0 1) 0) E) (fun _ => AWAW.react.bare4_lin₃ c p (by decide) _ _ _) (fun _ => AWAW.react.bare4_lin₁ c p (by decide) _ _ _) (-1) (fun z3 z1 b3 b1 => ?_) t3 t1
    · exact AWAW.formMM_x3 ..
    · exact AWAW.formMM_y3 ..
    · exact AWAW.formMM_x1 ..
    · exact AWAW.formMM_y1 ..
    · have k0 := AWAW.keyMM hc hb r0 d0 n0 d1 n1 b1 b3 l0 l2 e01 e03 e21 e23 (onShell_msq (hs 1)) (onShell_msq (hs 3)) (sb_ref (p 1) (legA (p 0) 0 0, legS (p 0) 0 1)) (sb_ref (p 1) (legA (p 2) 0 0, legS (p 2) 0 1))
      have w2 : AWAW.react.bare4 c p (pv (legA (p 0) 0 0, legS (p 0) 0 1).1 (refMinus (p 1) (legA (p 0) 0 0, legS (p 0) 0 1))) (pv z1.1 z1.2) (four (p 2)) (pv z3.1 z3.2) = 0 := by
        refine AWAW.react.bare4_gauge he ht hB hG (n := 2) rfl rfl ![(pv (legA (p 0) 0 0, legS (p 0) 0 1).1 (refMinus (p 1) (legA (p 0) 0 0, legS (p 0) 0 1))), (pv z1.1 z1.2), four (p 2), (pv z3.1 z3.2)] (fun m hm x hl hx => ?_) rfl
        fin_cases m
        · exact pv_transverse (l0.mb_minus _)
        · exact pv_transverse b1.mb_zero'
        · exact absurd rfl hm
        · exact pv_transverse b3.mb_zero'
      have k1 := light_minus_ref (z := (legA (p 2) 0 0, legS (p 2) 0 1)) (G := fun E => AWAW.react.bare4 c p (pv (legA (p 0) 0 0, legS (p 0) 0 1).1 (refMinus (p 1) (legA (p 0) 0 0, legS (p 0) 0 1))) (pv z1.1 z1.2) E (pv z3.1 z3.2)) l2 (AWAW.react.bare4_lin₂ c p (by decide) _ _ _) w2 y2 j2 k0
      have w0 : AWAW.react.bare4 c p (four (p 0)) (pv z1.1 z1.2) (lightE (legA (p 2) 0 0, legS (p 2) 0 1) 0) (pv z3.1 z3.2) = 0 := by
        refine AWAW.react.bare4_gauge he ht hB hG (n := 0) rfl rfl ![four (p 0), (pv z1.1 z1.2), (lightE (legA (p 2) 0 0, legS (p 2) 0 1) 0), (pv z3.1 z3.2)] (fun m hm x hl hx => ?_) rfl
        fin_cases m
        · exact absurd rfl hm
        · exact pv_transverse b1.mb_zero'
        · exact (show contract (four (p 2)) (lightE (legA (p 2) 0 0, legS (p 2) 0 1) 0) = 0 from l2.transverse 0)
        · exact pv_transverse b3.mb_zero'
      have k2 := light_minus_ref (z := (legA (p 0) 0 0, legS (p 0) 0 1)) (G := fun E => AWAW.react.bare4 c p E (pv z1.1 z1.2) (lightE (legA (p 2) 0 0, legS (p 2) 0 1) 0) (pv z3.1 z3.2)) l0 (AWAW.react.bare4_lin₀ c p (by decide) _ _ _) w0 y0 j0 k1
      exact k2.trans (mul_assoc _ _ _)
  have amPP : ∀ (t1 t3 : Fin 3), Cls.AWAW.m_amp.mean (AWAW.N c p) (callMean (AWAW.N c p) []) .c [2, spinV t1, 2, spinV t3] = (-1) * AWAW.react.bare4 c p (lightE (legA (p 0) 0 0, legS (p 0) 0 1) 1) (AWAW.react.codeVec c p 1 t1) (lightE (legA (p 2) 0 0, legS (p 2) 0 1) 1) (AWAW.react.codeVec c p 3 t3) := by
    intro t1 t3
    rw [AWAW.ampPP, ← stPP t1 t3]
    refine congrArg (comb t3) (funext fun a3 => funext fun b3 => ?_)
    refine congrArg (comb t1) (funext fun a1 => funext fun b1 => ?_)
    have v7z0z2 : (AWAW.N c p).v 7 [] = sb (legA (p 0) 0 0, legS (p 0) 0 1).2 (legA (p 2) 0 0, legS (p 2) 0 1).2 := bra_square (p := p) (m := AWAW.proc.massNum (AWAW.rho c)) (AWAW.mass_eq hc 0) (AWAW.mass_eq hc 2) (.inr ⟨m0, rfl⟩) (.inr ⟨m2, rfl⟩)
    have v9x1x3 : (AWAW.N c p).v 9 [spinOf a1, spinOf a3] = ab (AWAW.react.codePair c p 1 a1).1 (AWAW.react.codePair c p 3 a3).1 := bra_angle (p := p) (m := AWAW.proc.massNum (AWAW.rho c)) (AWAW.mass_eq hc 1) (AWAW.mass_eq hc 3) (.inl ⟨m1, rfl⟩) (.inl ⟨m3, rfl⟩)
    have v9y1y3 : (AWAW.N c p).v 9 [spinOf b1, spinOf b3] = ab (AWAW.react.codePair c p 1 b1).1 (AWAW.react.codePair c p 3 b3).1 := bra_angle (p := p) (m := AWAW.proc.massNum (AWAW.rho c)) (AWAW.mass_eq hc 1) (AWAW.mass_eq hc 3) (.inl ⟨m1, rfl⟩) (.inl ⟨m3, rfl⟩)
    simp only [AWAW.termPP, AWAW.formPP, v7z0z2, v9x1x3, v9y1y3]
    push_cast
    ring
  have amPM : ∀ (t1 t3 : Fin 3), Cls.AWAW.m_amp.mean (AWAW.N c p) (callMean (AWAW.N c p) []) .c [2, spinV t1, (-2), spinV t3] = 1 * AWAW.react.bare4 c p (lightE (legA (p 0) 0 0, legS (p 0) 0 1) 1) (AWAW.react.codeVec c p 1 t1) (lightE (legA (p 2) 0 0, legS (p 2) 0 1) 0) (AWAW.react.codeVec c p 3 t3) := by
    intro t1 t3
    rw [AWAW.ampPM, ← stPM t1 t3]
    refine congrArg (comb t3) (funext fun a3 => funext fun b3 => ?_)
    refine congrArg (comb t1) (funext fun a1 => funext fun b1 => ?_)
    have v5z0x3 : (AWAW.N c p).v 5 [spinOf a3] = sb (legA (p 0) 0 0, legS (p 0) 0 1).2 (AWAW.react.codePair c p 3 a3).2 := bra_square (p := p) (m := AWAW.proc.massNum (AWAW.rho c)) (AWAW.mass_eq hc 0) (AWAW.mass_eq hc 3) (.inr ⟨m0, rfl⟩) (.inl ⟨m3, rfl⟩)
    have v5z0y3 : (AWAW.N c p).v 5 [spinOf b3] = sb (legA (p 0) 0 0, legS (p 0) 0 1).2 (AWAW.react.codePair c p 3 b3).2 := bra_square (p := p) (m := AWAW.proc.massNum (AWAW.rho c)) (AWAW.mass_eq hc 0) (AWAW.mass_eq hc 3) (.inr ⟨m0, rfl⟩) (.inl ⟨m3, rfl⟩)
    have v11x1z2 : (AWAW.N c p).v 11 [spinOf a1] = ab (AWAW.react.codePair c p 1 a1).1 (legA (p 2) 0 0, legS (p 2) 0 1).1 := bra_angle (p := p) (m := AWAW.proc.massNum (AWAW.rho c)) (AWAW.mass_eq hc 1) (AWAW.mass_eq hc 2) (.inl ⟨m1, rfl⟩) (.inr ⟨m2, rfl⟩)
    have v11y1z2 : (AWAW.N c p).v 11 [spinOf b1] = ab (AWAW.react.codePair c p 1 b1).1 (legA (p 2) 0 0, legS (p 2) 0 1).1 := bra_angle (p := p) (m := AWAW.proc.massNum (AWAW.rho c)) (AWAW.mass_eq hc 1) (AWAW.mass_eq hc 2) (.inl ⟨m1, rfl⟩) (.inr ⟨m2, rfl⟩)
    have v0z0x1 : (AWAW.N c p).v 0 [spinOf a1] = sb (legA (p 0) 0 0, legS (p 0) 0 1).2 (AWAW.react.codePair c p 1 a1).2 := bra_square (p := p) (m := AWAW.proc.massNum (AWAW.rho c)) (AWAW.mass_eq hc 0) (AWAW.mass_eq hc 1) (.inr ⟨m0, rfl⟩) (.inl ⟨m1, rfl⟩)
    have v0z0y1 : (AWAW.N c p).v 0 [spinOf b1] = sb (legA (p 0) 0 0, legS (p 0) 0 1).2 (AWAW.react.codePair c p 1 b1).2 := bra_square (p := p) (m := AWAW.proc.massNum (AWAW.rho c)) (AWAW.mass_eq hc 0) (AWAW.mass_eq hc 1) (.inr ⟨m0, rfl⟩) (.inl ⟨m1, rfl⟩)
    have v2z2x3 : (AWAW.N c p).v 2 [spinOf a3] = ab (legA (p 2) 0 0, legS (p 2) 0 1).1 (AWAW.react.codePair c p 3 a3).1 := bra_angle (p := p) (m := AWAW.proc.massNum (AWAW.rho c)) (AWAW.mass_eq hc 2) (AWAW.mass_eq hc 3) (.inr ⟨m2, rfl⟩) (.inl ⟨m3, rfl⟩)
    have v2z2y3 : (AWAW.N c p).v 2 [spinOf b3] = ab (legA (p 2) 0 0, legS (p 2) 0 1).1 (AWAW.react.codePair c p 3 b3).1 := bra_angle (p := p) (m := AWAW.proc.massNum (AWAW.rho c)) (AWAW.mass_eq hc 2) (AWAW.mass_eq hc 3) (.inr ⟨m2, rfl⟩) (.inl ⟨m3, rfl⟩)
    simp only [AWAW.termPM, AWAW.formPM, v5z0x3, v5z0y3, v11x1z2, v11y1z2, v0z0x1, v0z0y1, v2z2x3, v2z2y3]
    push_cast
    ring
  have amMP : ∀ (t1 t3 : Fin 3), Cls.AWAW.m_amp.mean (AWAW.N c p) (callMean (AWAW.N c p) []) .c [(-2), spinV t1, 2, spinV t3] = 1 * AWAW.react.bare4 c p (lightE (legA (p 0) 0 0, legS (p 0) 0 1) 0) (AWAW.react.codeVec c p 1 t1) (lightE (legA (p 2) 0 0, legS (p 2) 0 1) 1) (AWAW.react.codeVec c p 3 t3) := by
    intro t1 t3
    rw [AWAW.ampMP, ← stMP t1 t3]
    refine congrArg (comb t3) (funext fun a3 => funext fun b3 => ?_)
    refine congrArg (comb t1) (funext fun a1 => funext fun b1 => ?_)
    have v4z0x3 : (AWAW.N c p).v 4 [spinOf a3] = ab (legA (p 0) 0 0, legS (p 0) 0 1).1 (AWAW.react.codePair c p 3 a3).1 := bra_angle (p := p) (m := AWAW.proc.massNum (AWAW.rho c)) (AWAW.mass_eq hc 0) (AWAW.mass_eq hc 3) (.inr ⟨m0, rfl⟩) (.inl ⟨m3, rfl⟩)
    have v4z0y3 : (AWAW.N c p).v 4 [spinOf b3] = ab (legA (p 0) 0 0, legS (p 0) 0 1).1 (AWAW.react.codePair c p 3 b3).1 := bra_angle (p := p) (m := AWAW.proc.massNum (AWAW.rho c)) (AWAW.mass_eq hc 0) (AWAW.mass_eq hc 3) (.inr ⟨m0, rfl⟩) (.inl ⟨m3, rfl⟩)
    have v10x1z2 : (AWAW.N c p).v 10 [spinOf a1] = sb (AWAW.react.codePair c p 1 a1).2 (legA (p 2) 0 0, legS (p 2) 0 1).2 := bra_square (p := p) (m := AWAW.proc.massNum (AWAW.rho c)) (AWAW.mass_eq hc 1) (AWAW.mass_eq hc 2) (.inl ⟨m1, rfl⟩) (.inr ⟨m2, rfl⟩)
    have v10y1z2 : (AWAW.N c p).v 10 [spinOf b1] = sb (AWAW.react.codePair c p 1 b1).2 (legA (p 2) 0 0, legS (p 2) 0 1).2 := bra_square (p := p) (m := AWAW.proc.massNum (AWAW.rho c)) (AWAW.mass_eq hc 1) (AWAW.mass_eq hc 2) (.inl ⟨m1, rfl⟩) (.inr ⟨m2, rfl⟩)
    have v1z0x1 : (AWAW.N c p).v 1 [spinOf a1] = ab (legA (p 0) 0 0, legS (p 0) 0 1).1 (AWAW.react.codePair c p 1 a1).1 := bra_angle (p := p) (m := AWAW.proc.massNum (AWAW.rho c)) (AWAW.mass_eq hc 0) (AWAW.mass_eq hc 1) (.inr ⟨m0, rfl⟩) (.inl ⟨m1, rfl⟩)
    have v1z0y1 : (AWAW.N c p).v 1 [spinOf b1] = ab (legA (p 0) 0 0, legS (p 0) 0 1).1 (AWAW.react.codePair c p 1 b1).1 := bra_angle (p := p) (m := AWAW.proc.massNum (AWAW.rho c)) (AWAW.mass_eq hc 0) (AWAW.mass_eq hc 1) (.inr ⟨m0, rfl⟩) (.inl ⟨m1, rfl⟩)
    have v3z2x3 : (AWAW.N c p).v 3 [spinOf a3] = sb (legA (p 2) 0 0, legS (p 2) 0 1).2 (AWAW.react.codePair c p 3 a3).2 := bra_square (p := p) (m := AWAW.proc.massNum (AWAW.rho c)) (AWAW.mass_eq hc 2) (AWAW.mass_eq hc 3) (.inr ⟨m2, rfl⟩) (.inl ⟨m3, rfl⟩)
    have v3z2y3 : (AWAW.N c p).v 3 [spinOf b3] = sb (legA (p 2) 0 0, legS (p 2) 0 1).2 (AWAW.react.codePair c p 3 b3).2 := bra_square (p := p) (m := AWAW.proc.massNum (AWAW.rho c)) (AWAW.mass_eq hc 2) (AWAW.mass_eq hc 3) (.inr ⟨m2, rfl⟩) (.inl ⟨m3, rfl⟩)
    simp only [AWAW.termMP, AWAW.formMP, v4z0x3, v4z0y3, v10x1z2, v10y1z2, v1z0x1, v1z0y1, v3z2x3, v3z2y3]
    push_cast
    ring
  have amMM : ∀ (t1 t3 : Fin 3), Cls.AWAW.m_amp.mean (AWAW.N c p) (callMean (AWAW.N c p) []) .c [(-2), spinV t1, (-2), spinV t3] = (-1) * AWAW.react.bare4 c p (lightE (legA (p 0) 0 0, legS (p 0) 0 1) 0) (AWAW.react.codeVec c p 1 t1) (lightE (legA (p 2) 0 0, legS (p 2) 0 1) 0) (AWAW.react.codeVec c p 3 t3) := by
    intro t1 t3
    rw [AWAW.ampMM, ← stMM t1 t3]
    refine congrArg (comb t3) (funext fun a3 => funext fun b3 => ?_)
    refine congrArg (comb t1) (funext fun a1 => funext fun b1 => ?_)
    have v6z0z2 : (AWAW.N c p).v 6 [] = ab (legA (p 0) 0 0, legS (p 0) 0 1).1 (legA (p 2) 0 0, legS (p 2) 0 1).1 := bra_angle (p := p) (m := AWAW.proc.massNum (AWAW.rho c)) (AWAW.mass_eq hc 0) (AWAW.mass_eq hc 2) (.inr ⟨m0, rfl⟩) (.inr ⟨m2, rfl⟩)
    have v8x1x3 : (AWAW.N c p).v 8 [spinOf a1, spinOf a3] = sb (AWAW.react.codePair c p 1 a1).2 (AWAW.react.codePair c p 3 a3).2 := bra_square (p := p) (m := AWAW.proc.massNum (AWAW.rho c)) (AWAW.mass_eq hc 1) (AWAW.mass_eq hc 3) (.inl ⟨m1, rfl⟩) (.inl ⟨m3, rfl⟩)
    have v8y1y3 : (AWAW.N c p).v 8 [spinOf b1, spinOf b3] = sb (AWAW.react.codePair c p 1 b1).2 (AWAW.react.codePair c p 3 b3).2 := bra_square (p := p) (m := AWAW.proc.massNum (AWAW.rho c)) (AWAW.mass_eq hc 1) (AWAW.mass_eq hc 3) (.inl ⟨m1, rfl⟩) (.inl ⟨m3, rfl⟩)
    simp only [AWAW.termMM, AWAW.formMM, v6z0z2, v8x1x3, v8y1y3]
    push_cast
    ring
  refine ⟨n0, n1, fun n hn => ?_, fun n hn => ?_, ?_⟩
  · simp [hd] at hn
  · simp [hd] at hn
    rcases hn with rfl | rfl
    · exact n1
    · exact n0
  intro h0 h2 t1 t3
  match h0, h2 with
  | 1, 1 => exact norm_minus (amPP t1 t3)
  | 1, 0 => exact norm_plus (amPM t1 t3)
  | 0, 1 => exact norm_plus (amMP t1 t3)
  | 0, 0 => exact norm_minus (amMM t1 t3)

variable [FPEnv] in
theorem AWAW.agrees : AWAW.Agrees := by
  refine agrees_of (D := [1, 2]) (E := [2]) (by simp [all, AWAW]) (by decide +kernel) (by decide) (by decide +kernel) (fun c hc hh => ⟨List.forall_mem_cons.2 ⟨hc.MW, List.forall_mem_cons.2 ⟨hc.SW, List.forall_mem_nil _⟩⟩, List.forall_mem_cons.2 ⟨hc.SW_lt, List.forall_mem_nil _⟩⟩) (fun c hc i => AWAW.mass_eq hc i) (by decide +kernel) ?_
  intro c p u ε hc hh hw h0 hs hb hr hu
  have he : AWAW.react.ends = [] := by decide
  have ht : AWAW.react.starts = [] := by decide
  have hB : AWAW.react.bosons = [0, 1, 2, 3] := by decide
  have hWW : c.WW = 0 := hw .WW (by simp [AWAW])
  have hG : AWAW.react.Gauge c p := AWAW.gauge hc.MW hWW hb (fun n => onShell_msq (hs n)) hr
  obtain ⟨n0, n1, d1, d2, am⟩ := AWAW.amps hc hh hw h0 hs hb hr hu
  refine ⟨d1, d2, ?_⟩
  show meaning (AWAW.N c p) .r Cls.AWAW.methods Cls.AWAW.amp2 [] = _
  have s0 : AWAW.react.states 0 = 2 := by decide
  have s1 : AWAW.react.states 1 = 3 := by decide
  have sy : AWAW.react.symmetry = 1 := by decide
  have p0 : AWAW.react.spins 0 = {0, 1} := rfl
  have p1 : AWAW.react.spins 1 = Finset.univ := rfl
  have p2 : AWAW.react.spins 2 = {0, 1} := rfl
  have p3 : AWAW.react.spins 3 = Finset.univ := rfl
  have E0 : AWAW.react.codeE c p 0 = lightE (legA (p 0) 0 0, legS (p 0) 0 1) := rfl
  have E1 : AWAW.react.codeE c p 1 = AWAW.react.codeVec c p 1 := rfl
  have E2 : AWAW.react.codeE c p 2 = lightE (legA (p 2) 0 0, legS (p 2) 0 1) := rfl
  have E3 : AWAW.react.codeE c p 3 = AWAW.react.codeVec c p 3 := rfl
  rw [AWAW.value, AWAW.react.squared_four he ht hB (by decide) hs h0 (fun _ b _ hb _ => (boson_pos hc hh hb).ne') hG (E := AWAW.react.codeE c p) (fun n b hl => AWAW.react.codeE_polarised hs h0 hu (fun b hb => (boson_pos hc hh hb).ne') n b hl) hu, sum_colours, s0, s1, sy]
  simp only [bareFour_eq, sumV_sum, sumW_sum, am, p0, p1, p2, p3, E0, E1, E2, E3, Finset.sum_singleton, sum_two, Matrix.cons_val_zero, Matrix.cons_val_one, Matrix.cons_val]
  push_cast
  first | ring1 | ring_nf

end Spinas.SM.Rows
