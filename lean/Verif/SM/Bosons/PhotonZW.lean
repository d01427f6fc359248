import Verif.SM.PhotonRows

/-! A photon, a Z boson and two W bosons. Generated by tools/bosons/photons.py: for each class its amplitude at given helicities as a formula in spinors, and the proof that `amp2` is the squared amplitude of the Feynman rules. -/

set_option linter.unusedSimpArgs false
set_option linter.unusedVariables false
set_option linter.unreachableTactic false
set_option linter.unusedTactic false

namespace Spinas.SM.Rows
open Spec Spec.Reaction Props XR Matrix BRow

/-! ### AZWW -/

/-- what the methods of the class see -/
noncomputable abbrev AZWW.N [FPEnv] (c : Constants) (p : Nat → V4 ℝ) : Env := AZWW.proc.env (AZWW.rho c) p
/-- the term that `amp` adds for a choice of spinors, for a photon of positive helicity (SM/AZWW.cpp) -/
noncomputable def AZWW.termP (N : Env) (w : ℝ) (x : ℂ) (a1 b1 a2 b2 a3 b3 : Int) : ℂ :=
  (x + ((((((w * N.r 7) : ℝ) : ℂ) * ((((((((((((N.r 4 * N.r 4) : ℝ) : ℂ) * N.v 0 [a1]) * N.v 0 [b1]) * N.v 6 [a2, a3]) * N.v 6 [b2, b3]) + (((((((N.r 4 * N.r 4) : ℝ) : ℂ) * N.v 11 [a2]) * N.v 11 [b2]) * N.v 3 [a1, a3]) * N.v 3 [b1, b3])) + (((((((N.r 4 * N.r 4) : ℝ) : ℂ) * N.v 9 [a3]) * N.v 9 [b3]) * N.v 5 [a1, a2]) * N.v 5 [b1, b2])) + ((((((((N.r 4 * N.r 4) - (N.r 3 * N.r 3)) : ℝ) : ℂ) * N.v 11 [a2]) * N.v 9 [a3]) * N.v 5 [a1, b2]) * N.v 3 [b1, b3])) - ((((((N.r 4 : ℝ) : ℂ) * N.v 0 [a1]) * N.v 11 [a2]) * N.v 3 [b1, a3]) * N.v 6 [b2, b3])) + ((((((N.r 4 : ℝ) : ℂ) * N.v 0 [a1]) * N.v 9 [a3]) * N.v 5 [b1, a2]) * N.v 6 [b2, b3]))) / N.c 0) / N.c 1))
/-- the same with spinors in place of their spins -/
noncomputable def AZWW.formP (N : Env) (p : Nat → V4 ℝ) (z0 x1 y1 x2 y2 x3 y3 : Pair) : ℂ :=
  (0 + ((((((((1 : Nat) : ℝ) * N.r 7) : ℝ) : ℂ) * ((((((((((((N.r 4 * N.r 4) : ℝ) : ℂ) * (sb z0.2 x1.2)) * (sb z0.2 y1.2)) * (ab x2.1 x3.1)) * (ab y2.1 y3.1)) + (((((((N.r 4 * N.r 4) : ℝ) : ℂ) * (sb z0.2 x2.2)) * (sb z0.2 y2.2)) * (ab x1.1 x3.1)) * (ab y1.1 y3.1))) + (((((((N.r 4 * N.r 4) : ℝ) : ℂ) * (sb z0.2 x3.2)) * (sb z0.2 y3.2)) * (ab x1.1 x2.1)) * (ab y1.1 y2.1))) + ((((((((N.r 4 * N.r 4) - (N.r 3 * N.r 3)) : ℝ) : ℂ) * (sb z0.2 x2.2)) * (sb z0.2 x3.2)) * (ab x1.1 y2.1)) * (ab y1.1 y3.1))) - ((((((N.r 4 : ℝ) : ℂ) * (sb z0.2 x1.2)) * (sb z0.2 x2.2)) * (ab y1.1 x3.1)) * (ab y2.1 y3.1))) + ((((((N.r 4 : ℝ) : ℂ) * (sb z0.2 x1.2)) * (sb z0.2 x3.2)) * (ab y1.1 x2.1)) * (ab y2.1 y3.1)))) / N.c 0) / N.c 1))
/-- the term that `amp` adds for a choice of spinors, for a photon of negative helicity (SM/AZWW.cpp) -/
noncomputable def AZWW.termM (N : Env) (w : ℝ) (x : ℂ) (a1 b1 a2 b2 a3 b3 : Int) : ℂ :=
  (x + ((((((w * N.r 7) : ℝ) : ℂ) * ((((((((((((N.r 4 * N.r 4) : ℝ) : ℂ) * N.v 1 [a1]) * N.v 1 [b1]) * N.v 7 [a2, a3]) * N.v 7 [b2, b3]) + (((((((N.r 4 * N.r 4) : ℝ) : ℂ) * N.v 10 [a2]) * N.v 10 [b2]) * N.v 2 [a1, a3]) * N.v 2 [b1, b3])) + (((((((N.r 4 * N.r 4) : ℝ) : ℂ) * N.v 8 [a3]) * N.v 8 [b3]) * N.v 4 [a1, a2]) * N.v 4 [b1, b2])) + ((((((((N.r 4 * N.r 4) - (N.r 3 * N.r 3)) : ℝ) : ℂ) * N.v 10 [a2]) * N.v 8 [a3]) * N.v 4 [a1, b2]) * N.v 2 [b1, b3])) - ((((((N.r 4 : ℝ) : ℂ) * N.v 1 [a1]) * N.v 10 [a2]) * N.v 2 [b1, a3]) * N.v 7 [b2, b3])) + ((((((N.r 4 : ℝ) : ℂ) * N.v 1 [a1]) * N.v 8 [a3]) * N.v 4 [b1, a2]) * N.v 7 [b2, b3]))) / N.c 0) / N.c 1))
/-- the same with spinors in place of their spins -/
noncomputable def AZWW.formM (N : Env) (p : Nat → V4 ℝ) (z0 x1 y1 x2 y2 x3 y3 : Pair) : ℂ :=
  (0 + ((((((((1 : Nat) : ℝ) * N.r 7) : ℝ) : ℂ) * ((((((((((((N.r 4 * N.r 4) : ℝ) : ℂ) * (ab z0.1 x1.1)) * (ab z0.1 y1.1)) * (sb x2.2 x3.2)) * (sb y2.2 y3.2)) + (((((((N.r 4 * N.r 4) : ℝ) : ℂ) * (ab z0.1 x2.1)) * (ab z0.1 y2.1)) * (sb x1.2 x3.2)) * (sb y1.2 y3.2))) + (((((((N.r 4 * N.r 4) : ℝ) : ℂ) * (ab z0.1 x3.1)) * (ab z0.1 y3.1)) * (sb x1.2 x2.2)) * (sb y1.2 y2.2))) + ((((((((N.r 4 * N.r 4) - (N.r 3 * N.r 3)) : ℝ) : ℂ) * (ab z0.1 x2.1)) * (ab z0.1 x3.1)) * (sb x1.2 y2.2)) * (sb y1.2 y3.2))) - ((((((N.r 4 : ℝ) : ℂ) * (ab z0.1 x1.1)) * (ab z0.1 x2.1)) * (sb y1.2 x3.2)) * (sb y2.2 y3.2))) + ((((((N.r 4 : ℝ) : ℂ) * (ab z0.1 x1.1)) * (ab z0.1 x3.1)) * (sb y1.2 x2.2)) * (sb y2.2 y3.2)))) / N.c 0) / N.c 1))
theorem AZWW.keyP {c : Constants} {p : Nat → V4 ℝ} {N : Env} (hc : c.Physical) (hb : Balanced p) (r3 : N.r 3 = c.SW) (r4 : N.r 4 = c.CW) (r7 : N.r 7 = (((((2 : Nat) : ℝ) * c.e) * c.e) / (c.CW * c.SW))) (d0 : pole c.MW c.WW (plus (p 0) (backward (p 2))) = N.c 0) (n0 : N.c 0 ≠ 0) (d1 : pole c.MW c.WW (plus (p 0) (backward (p 3))) = N.c 1) (n1 : N.c 1 ≠ 0) {z0 z1 z2 z3 : Pair} (b1 : Bold (p 1) c.MZ z1) (b2 : Bold (p 2) c.MW z2) (b3 : Bold (p 3) c.MW z3) (l0 : Light (p 0) z0) (e02 : mb z0.2 (p 2) z0.1 = -N.c 0) (e03 : mb z0.2 (p 3) z0.1 = -N.c 1) (q1 : msq (p 1) = c.MZ ^ 2) (q2 : msq (p 2) = c.MW ^ 2) (q3 : msq (p 3) = c.MW ^ 2) {ρ0 : V2} (R0 : ∀ Y, ab ρ0 Y = mb z0.2 (p 2) Y) :
    AZWW.formP N p z0 z1 z1 z2 z2 z3 z3 * ab ρ0 z0.1 = ((√2 : ℝ) * ((1 : ℂ) * ((2 * √2 / (c.MZ * c.MW * c.MW) : ℝ) : ℂ))) * AZWW.react.bare4 c p (pv ρ0 z0.2) (pv z1.1 z1.2) (pv z2.1 z2.2) (pv z3.1 z3.2) := by
  rw [AZWW.react.bare4_parts c p (b₀ := .photon) (b₁ := .z) (b₂ := .wMinus) (b₃ := .wPlus) rfl rfl rfl rfl, AZWW.formP]
  have T0 := l0.mb_plus ρ0
  have T1 := b1.mb_zero'
  have T2 := mb_back_zero (b2.mb_zero')
  have T3 := mb_back_zero (b3.mb_zero')
  have Q2 : msq (backward (p 2)) = c.MW ^ 2 := (msq_backward _).trans q2
  have Q3 : msq (backward (p 3)) = c.MW ^ 2 := (msq_backward _).trans q3
  simp only [contact, seagull, gauge4, between, carriers, List.map_cons, List.map_nil, List.sum_cons, List.sum_nil]
  simp only [toHiggs, toVector, higgs2, gauge3, Boson.anti, reduceCtorEq, and_self, and_true, and_false, true_and, false_and, if_true, if_false, Complex.ofReal_zero, zero_smul, carry_none, zero_mul, mul_zero, zero_div, neg_zero, add_zero, zero_add, sub_zero, sub_self, contract_zero, contract_zero_left]
  first | rw [dress_plus c (x := .wPlus) (.inl rfl) hc.MW l0 Q2 T2] | rw [dress_plus c (x := .wMinus) (.inr rfl) hc.MW l0 Q2 T2]
  first | rw [dress_plus c (x := .wPlus) (.inl rfl) hc.MW l0 Q3 T3] | rw [dress_plus c (x := .wMinus) (.inr rfl) hc.MW l0 Q3 T3]
  simp only [d0, d1, yangMills_transverse T1 T2, yangMills_transverse T1 T3, yangMills_transverse T2 T3, contract_add, contract_smul, contract_smul_left, contract_four_pv, contract_pv_four, contract_pv, mb_backward]
  have R00 := (ref_plus_plus R0 R0).2
  have i0 := mb_schouten_left z0.2 z1.2 z3.2 (p 2) z0.1
  have i1 := mb_schouten_right z0.2 (p 2) z0.1 z1.1 z2.1
  have i2 := sb_schouten z1.2 z2.2 z3.2 z0.2
  have i3 := mb_schouten_right z0.2 (p 1) z0.1 z1.1 z2.1
  have i4 := mb_schouten_right z2.2 (p 1) z0.1 z1.1 z2.1
  have i5 := mb_schouten_left z0.2 z1.2 z3.2 (p 1) z2.1
  have i6 := mb_schouten_right z1.2 (p 2) z1.1 z2.1 z3.1
  have i7 := mb_schouten_left z0.2 z1.2 z2.2 (p 2) z1.1
  have i8 := mb_schouten_right z0.2 (p 2) z1.1 z2.1 z3.1
  have i9 := mb_schouten_right z0.2 (p 1) z1.1 z2.1 z3.1
  have i10 := mb_schouten_right z0.2 (p 1) z0.1 z1.1 z3.1
  have i11 := ab_schouten z1.1 z2.1 z3.1 z0.1
  have i12 := mb_schouten_right z0.2 (p 2) z0.1 z2.1 z3.1
  have i13 := mb_schouten_right z1.2 (p 2) z0.1 z1.1 z3.1
  have i14 := mb_schouten_right z0.2 (p 1) z0.1 z2.1 z3.1
  have i15 := mb_schouten_right z3.2 (p 1) z0.1 z1.1 z3.1
  have i16 := mb_schouten_right z3.2 (p 1) z0.1 z2.1 z3.1
  have i17 := mb_schouten_right z1.2 (p 2) z0.1 z2.1 z3.1
  have i18 := mb_schouten_right z0.2 (p 2) z0.1 z1.1 z3.1
  have i19 := mb_schouten_left z0.2 z2.2 z3.2 (p 2) z1.1
  have i20 := mb_schouten_right z0.2 (p 1) z0.1 z2.1 ρ0
  have i21 := mb_schouten_right z0.2 (p 1) z0.1 z1.1 ρ0
  have i22 := mb_schouten_right z0.2 (p 1) z1.1 z2.1 ρ0
  have i23 := mb_schouten_right z2.2 (p 1) z1.1 z2.1 z3.1
  have i24 := mb_schouten_left z1.2 z2.2 z3.2 (p 2) z1.1
  have i25 := mb_schouten_right z2.2 (p 1) z0.1 z1.1 z3.1
  have i26 := mb_schouten_left z0.2 z1.2 z2.2 (p 1) z0.1
  have i27 := mb_schouten_right z1.2 (p 2) z0.1 z1.1 z2.1
  have i28 := mb_schouten_left z0.2 z1.2 z3.2 (p 1) z0.1
  have i29 := mb_schouten_right z3.2 (p 1) z1.1 z2.1 z3.1
  have i30 := mb_schouten_right z0.2 (p 1) z1.1 z3.1 ρ0
  have i31 := mb_schouten_left z0.2 z1.2 z2.2 (p 2) z0.1
  have i32 := mb_schouten_left z0.2 z1.2 z2.2 (p 1) z3.1
  have i33 := mb_schouten_right z2.2 (p 1) z0.1 z2.1 z3.1
  have i34 := mb_schouten_left z0.2 z1.2 z3.2 (p 2) z1.1
  have i35 := mb_schouten_right z3.2 (p 1) z0.1 z1.1 z2.1
  simp only [ab_swap ρ0 z0.1, ab_swap ρ0 z1.1, ab_swap ρ0 z2.1, ab_swap ρ0 z3.1, R00, R0, l0.mb_eq, b1.mb_left, b1.mb_right, b2.mb_left, b2.mb_right, b3.mb_left, b3.mb_right, e02, e03, mb_one hb z0.2 z0.1, mb_three hb z0.2 z1.1, mb_three hb z0.2 z2.1, mb_two hb z0.2 z3.1, mb_three hb z1.2 z0.1, mb_three hb z1.2 z1.1, mb_three hb z1.2 z2.1, mb_two hb z1.2 z3.1, mb_three hb z2.2 z0.1, mb_three hb z2.2 z1.1, mb_three hb z2.2 z2.1, mb_one hb z2.2 z3.1, mb_two hb z3.2 z0.1, mb_two hb z3.2 z1.1, mb_one hb z3.2 z2.1, mb_two hb z3.2 z3.1, mb_three hb z0.2 ρ0, ab_self, sb_self] at i0 i1 i2 i3 i4 i5 i6 i7 i8 i9 i10 i11 i12 i13 i14 i15 i16 i17 i18 i19 i20 i21 i22 i23 i24 i25 i26 i27 i28 i29 i30 i31 i32 i33 i34 i35 ⊢
  simp only [ab_swap z0.1 z1.1, sb_swap z0.2 z1.2, ab_swap z0.1 z2.1, sb_swap z0.2 z2.2, ab_swap z0.1 z3.1, sb_swap z0.2 z3.2, ab_swap z1.1 z2.1, sb_swap z1.2 z2.2, ab_swap z1.1 z3.1, sb_swap z1.2 z3.2, ab_swap z2.1 z3.1, sb_swap z2.2 z3.2] at i0 i1 i2 i3 i4 i5 i6 i7 i8 i9 i10 i11 i12 i13 i14 i15 i16 i17 i18 i19 i20 i21 i22 i23 i24 i25 i26 i27 i28 i29 i30 i31 i32 i33 i34 i35 ⊢
  simp only [r3, r4, r7, Constants.invVev, ← c.mz]
  have xMW : (c.MW : ℂ) ≠ 0 := by exact_mod_cast hc.MW
  have xSW : (c.SW : ℂ) ≠ 0 := by exact_mod_cast hc.SW
  have xCW : (c.CW : ℂ) ≠ 0 := by exact_mod_cast hc.CW
  have x2 : ((√2 : ℝ) : ℂ) ≠ 0 := by exact_mod_cast (Real.sqrt_pos.2 two_pos).ne'
  have x22 : ((√2 : ℝ) : ℂ) ^ 2 = 2 := by rw [← Complex.ofReal_pow, Real.sq_sqrt two_pos.le]; norm_num
  have hcs : (c.SW : ℂ) ^ 2 + (c.CW : ℂ) ^ 2 = 1 := by rw [← Complex.ofReal_pow, ← Complex.ofReal_pow, ← Complex.ofReal_add, hc.mix, Complex.ofReal_one]
  try simp only [← c.mz] at i0 i1 i2 i3 i4 i5 i6 i7 i8 i9 i10 i11 i12 i13 i14 i15 i16 i17 i18 i19 i20 i21 i22 i23 i24 i25 i26 i27 i28 i29 i30 i31 i32 i33 i34 i35
  push_cast at i0 i1 i2 i3 i4 i5 i6 i7 i8 i9 i10 i11 i12 i13 i14 i15 i16 i17 i18 i19 i20 i21 i22 i23 i24 i25 i26 i27 i28 i29 i30 i31 i32 i33 i34 i35 ⊢
  simp only [div_eq_mul_inv, mul_inv, inv_inv] at i0 i1 i2 i3 i4 i5 i6 i7 i8 i9 i10 i11 i12 i13 i14 i15 i16 i17 i18 i19 i20 i21 i22 i23 i24 i25 i26 i27 i28 i29 i30 i31 i32 i33 i34 i35 ⊢
  have y0 := mul_inv_cancel₀ n0
  have y1 := mul_inv_cancel₀ n1
  have yCW := mul_inv_cancel₀ xCW
  have yMW := mul_inv_cancel₀ xMW
  linear_combination ((((-4) * ((c.MW : ℂ)) * ((c.e : ℂ)) ^ 2 * (ab z1.1 z2.1) * (sb z0.2 z2.2) * (sb z0.2 z3.2) + (-4) * ((c.MW : ℂ)) * ((c.e : ℂ)) ^ 2 * (ab z1.1 z3.1) * (sb z0.2 z2.2) ^ 2 + (-4) * ((c.e : ℂ)) ^ 2 * (ab z1.1 z3.1) * (mb z0.2 (p 1) z2.1) * (sb z0.2 z2.2)) * i0 + ((-2) * ((c.MW : ℂ)) * ((c.e : ℂ)) ^ 2 * (ab z2.1 z3.1) * (sb z0.2 z1.2) * (sb z0.2 z3.2) + (4) * ((c.MW : ℂ)) * ((c.e : ℂ)) ^ 2 * (sb z0.2 z1.2) * (sb z0.2 z3.2) * (sb z2.2 z3.2) + (2) * ((c.e : ℂ)) ^ 2 * (ab z0.1 z3.1) * (sb z0.2 z1.2) * (sb z0.2 z2.2) * (sb z0.2 z3.2) + (1) * ((c.e : ℂ)) ^ 2 * (mb z0.2 (p 1) z3.1) * (sb z0.2 z1.2) * (sb z2.2 z3.2) + (-1) * ((c.e : ℂ)) ^ 2 * (mb z0.2 (p 1) z3.1) * (sb z0.2 z2.2) * (sb z1.2 z3.2) + (-2) * ((c.e : ℂ)) ^ 2 * (mb z3.2 (p 1) z3.1) * (sb z0.2 z1.2) * (sb z0.2 z2.2)) * i1 + ((-2) * ((c.MW : ℂ)) * ((c.e : ℂ)) ^ 2 * ((c.CW : ℂ)⁻¹) * (ab z0.1 z2.1) * (mb z0.2 (p 1) z3.1) * (sb z0.2 z1.2) + (3) * ((c.MW : ℂ)) * ((c.e : ℂ)) ^ 2 * (N.c 0) * (ab z1.1 z2.1) * (sb z0.2 z3.2) + (-1) * ((c.MW : ℂ)) * ((c.e : ℂ)) ^ 2 * (N.c 1) * (ab z1.1 z2.1) * (sb z0.2 z3.2) + (-4) * ((c.MW : ℂ)) * ((c.e : ℂ)) ^ 2 * (N.c 1) * (ab z1.1 z3.1) * (sb z0.2 z2.2) + (2) * ((c.MW : ℂ)) * ((c.e : ℂ)) ^ 2 * (ab z0.1 z1.1) * (mb z0.2 (p 1) z3.1) * (sb z0.2 z2.2) + (-2) * ((c.MW : ℂ)) ^ 2 * ((c.e : ℂ)) ^ 2 * ((c.CW : ℂ)⁻¹) * (ab z0.1 z2.1) * (sb z0.2 z1.2) * (sb z0.2 z3.2) + (-2) * ((c.MW : ℂ)) ^ 2 * ((c.e : ℂ)) ^ 2 * ((c.CW : ℂ)⁻¹) ^ 2 * (ab z2.1 z3.1) * (mb z0.2 (p 2) z1.1) + (2) * ((c.MW : ℂ)) ^ 2 * ((c.e : ℂ)) ^ 2 * (ab z1.1 z2.1) * (mb z0.2 (p 1) z3.1) + (2) * ((c.MW : ℂ)) ^ 2 * ((c.e : ℂ)) ^ 2 * (ab z2.1 z3.1) * (mb z0.2 (p 2) z1.1) + (-2) * ((c.MW : ℂ)) ^ 3 * ((c.e : ℂ)) ^ 2 * ((c.CW : ℂ)⁻¹) * (ab z2.1 z3.1) * (sb z0.2 z1.2) + (-2) * ((c.MW : ℂ)) ^ 3 * ((c.e : ℂ)) ^ 2 * ((c.CW : ℂ)⁻¹) ^ 2 * (ab z1.1 z3.1) * (sb z0.2 z2.2) + (4) * ((c.MW : ℂ)) ^ 3 * ((c.e : ℂ)) ^ 2 * (ab z1.1 z3.1) * (sb z0.2 z2.2) + (2) * ((c.e : ℂ)) ^ 2 * (N.c 0) * (ab z1.1 z2.1) * (mb z0.2 (p 1) z3.1) + (-1) * ((c.e : ℂ)) ^ 2 * (N.c 1) * (ab z1.1 z2.1) * (mb z0.2 (p 1) z3.1) + (-3) * ((c.e : ℂ)) ^ 2 * (ab z0.1 z1.1) * (ab z2.1 z3.1) * (mb z0.2 (p 1) ρ0) + (1) * ((c.e : ℂ)) ^ 2 * (ab z0.1 z2.1) * (ab z1.1 z3.1) * (mb z0.2 (p 1) ρ0)) * i2 + ((-2) * ((c.MW : ℂ)) * ((c.e : ℂ)) ^ 2 * ((c.CW : ℂ)⁻¹) * (ab z1.1 z3.1) * (sb z0.2 z2.2) * (sb z0.2 z3.2) + (-1) * ((c.MW : ℂ)) * ((c.e : ℂ)) ^ 2 * (sb z0.2 z1.2) * (sb z0.2 z3.2) * (sb z2.2 z3.2) + (1) * ((c.MW : ℂ)) * ((c.e : ℂ)) ^ 2 * (sb z0.2 z2.2) * (sb z0.2 z3.2) * (sb z1.2 z3.2) + (-2) * ((c.e : ℂ)) ^ 2 * (ab z0.1 z3.1) * (sb z0.2 z1.2) * (sb z0.2 z2.2) * (sb z0.2 z3.2) + (-1) * ((c.e : ℂ)) ^ 2 * (mb z0.2 (p 1) z3.1) * (sb z0.2 z1.2) * (sb z2.2 z3.2) + (1) * ((c.e : ℂ)) ^ 2 * (mb z0.2 (p 1) z3.1) * (sb z0.2 z2.2) * (sb z1.2 z3.2) + (2) * ((c.e : ℂ)) ^ 2 * (mb z3.2 (p 1) z3.1) * (sb z0.2 z1.2) * (sb z0.2 z2.2)) * i3 + ((-2) * ((c.MW : ℂ)) * ((c.e : ℂ)) ^ 2 * (sb z0.2 z1.2) * (sb z0.2 z3.2) ^ 2 + (-2) * ((c.e : ℂ)) ^ 2 * (mb z0.2 (p 1) z3.1) * (sb z0.2 z1.2) * (sb z0.2 z3.2)) * i4 + ((2) * ((c.MW : ℂ)) * ((c.e : ℂ)) ^ 2 * (ab z1.1 z2.1) * (mb z0.2 (p 1) z3.1) + (2) * ((c.MW : ℂ)) ^ 2 * ((c.e : ℂ)) ^ 2 * (ab z1.1 z2.1) * (sb z0.2 z3.2)) * i5 + ((2) * ((c.MW : ℂ)) ^ 2 * ((c.e : ℂ)) ^ 2 * ((c.CW : ℂ)⁻¹) ^ 2 * (sb z0.2 z2.2) * (sb z0.2 z3.2) + (-4) * ((c.MW : ℂ)) ^ 2 * ((c.e : ℂ)) ^ 2 * (sb z0.2 z2.2) * (sb z0.2 z3.2) + (2) * ((c.e : ℂ)) ^ 2 * (mb z0.2 (p 1) ρ0) * (sb z2.2 z3.2)) * i6 + ((2) * ((c.MW : ℂ)) ^ 2 * ((c.e : ℂ)) ^ 2 * ((c.CW : ℂ)⁻¹) ^ 2 * (ab z2.1 z3.1) * (sb z0.2 z3.2) + (-2) * ((c.MW : ℂ)) ^ 2 * ((c.e : ℂ)) ^ 2 * (ab z2.1 z3.1) * (sb z0.2 z3.2)) * i7 + ((-2) * ((c.MW : ℂ)) * ((c.e : ℂ)) ^ 2 * (mb z0.2 (p 1) z2.1) * (sb z1.2 z3.2) + (-2) * ((c.MW : ℂ)) * ((c.e : ℂ)) ^ 2 * (mb z0.2 (p 1) z3.1) * (sb z1.2 z2.2) + (-2) * ((c.MW : ℂ)) ^ 2 * ((c.e : ℂ)) ^ 2 * ((c.CW : ℂ)⁻¹) ^ 2 * (sb z0.2 z2.2) * (sb z1.2 z3.2) + (-2) * ((c.MW : ℂ)) ^ 2 * ((c.e : ℂ)) ^ 2 * (sb z0.2 z1.2) * (sb z2.2 z3.2) + (4) * ((c.MW : ℂ)) ^ 2 * ((c.e : ℂ)) ^ 2 * (sb z0.2 z2.2) * (sb z1.2 z3.2) + (2) * ((c.e : ℂ)) ^ 2 * (mb z2.2 (p 1) z0.1) * (sb z0.2 z1.2) * (sb z0.2 z3.2) + (2) * ((c.e : ℂ)) ^ 2 * (mb z3.2 (p 1) z0.1) * (sb z0.2 z1.2) * (sb z0.2 z2.2)) * i8 + ((-2) * ((c.MW : ℂ)) * ((c.e : ℂ)) ^ 2 * ((c.CW : ℂ)⁻¹) * (mb z0.2 (p 2) z1.1) * (sb z2.2 z3.2) + (2) * ((c.MW : ℂ)) * ((c.e : ℂ)) ^ 2 * (mb z0.2 (p 1) z3.1) * (sb z1.2 z2.2) + (-2) * ((c.MW : ℂ)) ^ 2 * ((c.e : ℂ)) ^ 2 * ((c.CW : ℂ)⁻¹) * (ab z1.1 z3.1) * (sb z0.2 z2.2) + (2) * ((c.MW : ℂ)) ^ 2 * ((c.e : ℂ)) ^ 2 * (ab z2.1 z3.1) * (sb z0.2 z1.2) + (-2) * ((c.MW : ℂ)) ^ 2 * ((c.e : ℂ)) ^ 2 * (sb z0.2 z1.2) * (sb z2.2 z3.2) + (-2) * ((c.MW : ℂ)) ^ 2 * ((c.e : ℂ)) ^ 2 * (sb z0.2 z2.2) * (sb z1.2 z3.2) + (-2) * ((c.e : ℂ)) ^ 2 * (N.c 0) * (sb z0.2 z1.2) * (sb z2.2 z3.2) + (2) * ((c.e : ℂ)) ^ 2 * (N.c 0) * (sb z0.2 z2.2) * (sb z1.2 z3.2) + (2) * ((c.e : ℂ)) ^ 2 * (mb z1.2 (p 2) z0.1) * (sb z0.2 z2.2) * (sb z0.2 z3.2) + (-2) * ((c.e : ℂ)) ^ 2 * (mb z3.2 (p 1) z0.1) * (sb z0.2 z1.2) * (sb z0.2 z2.2)) * i9 + ((2) * ((c.MW : ℂ)) * ((c.e : ℂ)) ^ 2 * ((c.CW : ℂ)⁻¹) * (ab z1.1 z2.1) * (sb z0.2 z2.2) * (sb z0.2 z3.2) + (2) * ((c.MW : ℂ)) * ((c.e : ℂ)) ^ 2 * (ab z2.1 z3.1) * (sb z0.2 z1.2) * (sb z0.2 z2.2) + (-5) * ((c.MW : ℂ)) * ((c.e : ℂ)) ^ 2 * (sb z0.2 z1.2) * (sb z0.2 z2.2) * (sb z2.2 z3.2) + (1) * ((c.MW : ℂ)) * ((c.e : ℂ)) ^ 2 * (sb z0.2 z2.2) ^ 2 * (sb z1.2 z3.2) + (2) * ((c.e : ℂ)) ^ 2 * (ab z0.1 z2.1) * (sb z0.2 z1.2) * (sb z0.2 z2.2) * (sb z0.2 z3.2) + (-2) * ((c.e : ℂ)) ^ 2 * (mb z0.2 (p 1) z2.1) * (sb z0.2 z2.2) * (sb z1.2 z3.2)) * i10 + ((-2) * ((c.MW : ℂ)) ^ 2 * ((c.e : ℂ)) ^ 2 * (sb z0.2 z1.2) * (sb z0.2 z2.2) * (sb z0.2 z3.2) + (-2) * ((c.e : ℂ)) ^ 2 * (N.c 1) * (sb z0.2 z1.2) * (sb z0.2 z2.2) * (sb z0.2 z3.2) + (2) * ((c.e : ℂ)) ^ 2 * (mb z0.2 (p 1) ρ0) * (sb z0.2 z1.2) * (sb z2.2 z3.2) + (-2) * ((c.e : ℂ)) ^ 2 * (mb z0.2 (p 1) ρ0) * (sb z0.2 z2.2) * (sb z1.2 z3.2) + (-1) * ((c.e : ℂ)) ^ 2 * (mb z0.2 (p 1) ρ0) * (sb z0.2 z3.2) * (sb z1.2 z2.2)) * i11 + ((-3) * ((c.MW : ℂ)) * ((c.e : ℂ)) ^ 2 * ((c.CW : ℂ)⁻¹) * (sb z0.2 z1.2) * (sb z0.2 z2.2) * (sb z1.2 z3.2) + (3) * ((c.MW : ℂ)) * ((c.e : ℂ)) ^ 2 * ((c.CW : ℂ)⁻¹) * (sb z0.2 z1.2) ^ 2 * (sb z2.2 z3.2) + (2) * ((c.MW : ℂ)) * ((c.e : ℂ)) ^ 2 * (ab z1.1 z2.1) * (sb z0.2 z1.2) * (sb z0.2 z3.2) + (2) * ((c.MW : ℂ)) * ((c.e : ℂ)) ^ 2 * (ab z1.1 z3.1) * (sb z0.2 z1.2) * (sb z0.2 z2.2) + (2) * ((c.e : ℂ)) ^ 2 * (mb z0.2 (p 2) z1.1) * (sb z0.2 z1.2) * (sb z2.2 z3.2)) * i12 + ((-2) * ((c.e : ℂ)) ^ 2 * (mb z0.2 (p 1) z2.1) * (sb z0.2 z2.2) * (sb z0.2 z3.2)) * i13 + ((-2) * ((c.MW : ℂ)) * ((c.e : ℂ)) ^ 2 * (ab z1.1 z3.1) * (sb z0.2 z1.2) * (sb z0.2 z2.2) + (-1) * ((c.e : ℂ)) ^ 2 * (mb z0.2 (p 2) z1.1) * (sb z0.2 z1.2) * (sb z2.2 z3.2) + (-1) * ((c.e : ℂ)) ^ 2 * (mb z0.2 (p 2) z1.1) * (sb z0.2 z2.2) * (sb z1.2 z3.2) + (2) * ((c.e : ℂ)) ^ 2 * (mb z1.2 (p 2) z1.1) * (sb z0.2 z2.2) * (sb z0.2 z3.2)) * i14 + ((-2) * ((c.MW : ℂ)) * ((c.e : ℂ)) ^ 2 * (sb z0.2 z1.2) * (sb z0.2 z2.2) ^ 2 + (-2) * ((c.e : ℂ)) ^ 2 * (mb z0.2 (p 1) z2.1) * (sb z0.2 z1.2) * (sb z0.2 z2.2)) * i15 + ((-2) * ((c.MW : ℂ)) * ((c.e : ℂ)) ^ 2 * ((c.CW : ℂ)⁻¹) * (sb z0.2 z1.2) ^ 2 * (sb z0.2 z2.2) + (-2) * ((c.e : ℂ)) ^ 2 * (mb z0.2 (p 2) z1.1) * (sb z0.2 z1.2) * (sb z0.2 z2.2)) * i16 + ((2) * ((c.MW : ℂ)) * ((c.e : ℂ)) ^ 2 * ((c.CW : ℂ)⁻¹) * (sb z0.2 z1.2) * (sb z0.2 z2.2) * (sb z0.2 z3.2)) * i17 + ((-2) * ((c.MW : ℂ)) * ((c.e : ℂ)) ^ 2 * (ab z2.1 z3.1) * (sb z0.2 z1.2) * (sb z0.2 z2.2) + (4) * ((c.MW : ℂ)) * ((c.e : ℂ)) ^ 2 * (sb z0.2 z1.2) * (sb z0.2 z2.2) * (sb z2.2 z3.2) + (-2) * ((c.e : ℂ)) ^ 2 * (ab z0.1 z2.1) * (sb z0.2 z1.2) * (sb z0.2 z2.2) * (sb z0.2 z3.2) + (1) * ((c.e : ℂ)) ^ 2 * (mb z0.2 (p 1) z2.1) * (sb z0.2 z1.2) * (sb z2.2 z3.2) + (1) * ((c.e : ℂ)) ^ 2 * (mb z0.2 (p 1) z2.1) * (sb z0.2 z2.2) * (sb z1.2 z3.2) + (2) * ((c.e : ℂ)) ^ 2 * (mb z2.2 (p 1) z2.1) * (sb z0.2 z1.2) * (sb z0.2 z3.2)) * i18 + ((2) * ((c.MW : ℂ)) * ((c.e : ℂ)) ^ 2 * ((c.CW : ℂ)⁻¹) * (ab z1.1 z2.1) * (mb z0.2 (p 1) z3.1)) * i19 + ((1) * ((c.e : ℂ)) ^ 2 * (ab z1.1 z3.1) * (sb z0.2 z1.2) * (sb z2.2 z3.2) + (-1) * ((c.e : ℂ)) ^ 2 * (ab z1.1 z3.1) * (sb z0.2 z2.2) * (sb z1.2 z3.2)) * i20 + ((1) * ((c.e : ℂ)) ^ 2 * (ab z2.1 z3.1) * (sb z0.2 z1.2) * (sb z2.2 z3.2) + (-1) * ((c.e : ℂ)) ^ 2 * (ab z2.1 z3.1) * (sb z0.2 z2.2) * (sb z1.2 z3.2)) * i21 + ((-2) * ((c.MW : ℂ)) * ((c.e : ℂ)) ^ 2 * ((c.CW : ℂ)⁻¹) * (ab z1.1 z3.1) * (sb z2.2 z3.2) + (2) * ((c.MW : ℂ)) * ((c.e : ℂ)) ^ 2 * (ab z2.1 z3.1) * (sb z1.2 z3.2)) * i22 + ((2) * ((c.e : ℂ)) ^ 2 * (mb z0.2 (p 1) ρ0) * (sb z1.2 z3.2)) * i23 + ((-4) * ((c.e : ℂ)) ^ 2 * (ab z2.1 z3.1) * (mb z0.2 (p 1) ρ0)) * i24 + ((2) * ((c.MW : ℂ)) * ((c.e : ℂ)) ^ 2 * (sb z0.2 z1.2) * (sb z0.2 z2.2) * (sb z0.2 z3.2)) * i25 + ((-4) * ((c.MW : ℂ)) * ((c.e : ℂ)) ^ 2 * (ab z1.1 z3.1) * (sb z0.2 z2.2) * (sb z0.2 z3.2)) * i26 + ((2) * ((c.e : ℂ)) ^ 2 * (mb z0.2 (p 1) z3.1) * (sb z0.2 z2.2) * (sb z0.2 z3.2)) * i27 + ((4) * ((c.MW : ℂ)) * ((c.e : ℂ)) ^ 2 * (ab z1.1 z3.1) * (sb z0.2 z2.2) ^ 2 + (4) * ((c.e : ℂ)) ^ 2 * (ab z1.1 z3.1) * (mb z0.2 (p 1) z2.1) * (sb z0.2 z2.2)) * i28 + ((2) * ((c.e : ℂ)) ^ 2 * (mb z0.2 (p 1) ρ0) * (sb z1.2 z2.2)) * i29 + ((2) * ((c.MW : ℂ)) * ((c.e : ℂ)) ^ 2 * (ab z2.1 z3.1) * (sb z1.2 z2.2)) * i30 + ((4) * ((c.MW : ℂ)) * ((c.e : ℂ)) ^ 2 * (ab z1.1 z2.1) * (sb z0.2 z3.2) ^ 2 + (4) * ((c.MW : ℂ)) * ((c.e : ℂ)) ^ 2 * (ab z1.1 z3.1) * (sb z0.2 z2.2) * (sb z0.2 z3.2) + (4) * ((c.e : ℂ)) ^ 2 * (ab z1.1 z2.1) * (mb z0.2 (p 1) z3.1) * (sb z0.2 z3.2)) * i31 + ((2) * ((c.MW : ℂ)) * ((c.e : ℂ)) ^ 2 * (ab z1.1 z3.1) * (mb z0.2 (p 1) z2.1) + (2) * ((c.MW : ℂ)) ^ 2 * ((c.e : ℂ)) ^ 2 * (ab z1.1 z3.1) * (sb z0.2 z2.2)) * i32 + ((-2) * ((c.e : ℂ)) ^ 2 * (mb z0.2 (p 2) z1.1) * (sb z0.2 z1.2) * (sb z0.2 z3.2)) * i33 + ((-2) * ((c.MW : ℂ)) ^ 2 * ((c.e : ℂ)) ^ 2 * (ab z2.1 z3.1) * (sb z0.2 z2.2)) * i34 + ((2) * ((c.MW : ℂ)) * ((c.e : ℂ)) ^ 2 * (sb z0.2 z1.2) * (sb z0.2 z2.2) * (sb z0.2 z3.2)) * i35)) * ((1) * ((c.CW : ℂ)) ^ 2 * ((c.MW : ℂ)⁻¹) ^ 3 * ((c.SW : ℂ)⁻¹) * ((N.c 1)⁻¹)) + ((2) * ((c.e : ℂ)) ^ 2 * ((c.CW : ℂ)⁻¹) * ((c.SW : ℂ)⁻¹) * ((N.c 1)⁻¹) * (ab z1.1 z2.1) * (ab z1.1 z3.1) * (sb z0.2 z2.2) * (sb z0.2 z3.2)) * hcs + ((-2) * ((c.CW : ℂ)) * ((c.e : ℂ)) ^ 2 * ((c.CW : ℂ)⁻¹) * ((c.SW : ℂ)⁻¹) * ((N.c 1)⁻¹) * (ab z1.1 z2.1) * (ab z2.1 z3.1) * (sb z0.2 z1.2) * (sb z0.2 z3.2) + (2) * ((c.CW : ℂ)) * ((c.e : ℂ)) ^ 2 * ((c.CW : ℂ)⁻¹) * ((c.SW : ℂ)⁻¹) * ((N.c 1)⁻¹) * (ab z1.1 z3.1) * (ab z2.1 z3.1) * (sb z0.2 z1.2) * (sb z0.2 z2.2) + (-1) * ((c.CW : ℂ)) ^ 2 * ((c.MW : ℂ)) * (((√2 : ℝ) : ℂ)) ^ 2 * ((c.e : ℂ)) ^ 2 * ((c.MW : ℂ)⁻¹) ^ 3 * ((c.SW : ℂ)⁻¹) * (ab z1.1 z3.1) * (sb z0.2 z2.2) ^ 2 * (sb z1.2 z3.2) / (2) + (-1) * ((c.CW : ℂ)) ^ 2 * (((√2 : ℝ) : ℂ)) ^ 2 * ((c.e : ℂ)) ^ 2 * ((c.MW : ℂ)⁻¹) ^ 3 * ((c.SW : ℂ)⁻¹) * (ab z0.1 z1.1) * (ab z2.1 z3.1) * (sb z0.2 z1.2) * (sb z0.2 z2.2) * (sb z0.2 z3.2) + (-1) * ((c.CW : ℂ)) ^ 2 * (((√2 : ℝ) : ℂ)) ^ 2 * ((c.e : ℂ)) ^ 2 * ((c.MW : ℂ)⁻¹) ^ 3 * ((c.SW : ℂ)⁻¹) * (ab z1.1 z2.1) * (mb z3.2 (p 1) z3.1) * (sb z0.2 z1.2) * (sb z0.2 z2.2) + (-1) * ((c.CW : ℂ)) ^ 2 * (((√2 : ℝ) : ℂ)) ^ 2 * ((c.e : ℂ)) ^ 2 * ((c.MW : ℂ)⁻¹) ^ 3 * ((c.SW : ℂ)⁻¹) * (ab z1.1 z3.1) * (mb z0.2 (p 1) z2.1) * (sb z0.2 z2.2) * (sb z1.2 z3.2) + (-1) * ((c.CW : ℂ)) ^ 2 * (((√2 : ℝ) : ℂ)) ^ 2 * ((c.e : ℂ)) ^ 2 * ((c.MW : ℂ)⁻¹) ^ 3 * ((c.SW : ℂ)⁻¹) * (ab z2.1 z3.1) * (mb z1.2 (p 2) z1.1) * (sb z0.2 z2.2) * (sb z0.2 z3.2) + (-2) * ((c.CW : ℂ)) ^ 2 * ((c.e : ℂ)) ^ 2 * ((c.CW : ℂ)⁻¹) * ((c.SW : ℂ)⁻¹) * ((N.c 1)⁻¹) * (ab z1.1 z2.1) * (ab z1.1 z3.1) * (sb z0.2 z2.2) * (sb z0.2 z3.2) + (-2) * ((c.CW : ℂ)) ^ 2 * ((c.e : ℂ)) ^ 2 * ((c.CW : ℂ)⁻¹) * ((c.SW : ℂ)⁻¹) * ((N.c 1)⁻¹) * (ab z1.1 z2.1) ^ 2 * (sb z0.2 z3.2) ^ 2 + (-2) * ((c.CW : ℂ)) ^ 2 * ((c.e : ℂ)) ^ 2 * ((c.CW : ℂ)⁻¹) * ((c.SW : ℂ)⁻¹) * ((N.c 1)⁻¹) * (ab z1.1 z3.1) ^ 2 * (sb z0.2 z2.2) ^ 2 + (-2) * ((c.CW : ℂ)) ^ 2 * ((c.e : ℂ)) ^ 2 * ((c.CW : ℂ)⁻¹) * ((c.SW : ℂ)⁻¹) * ((N.c 1)⁻¹) * (ab z2.1 z3.1) ^ 2 * (sb z0.2 z1.2) ^ 2 + (2) * ((c.SW : ℂ)) ^ 2 * ((c.e : ℂ)) ^ 2 * ((c.CW : ℂ)⁻¹) * ((c.SW : ℂ)⁻¹) * ((N.c 1)⁻¹) * (ab z1.1 z2.1) * (ab z1.1 z3.1) * (sb z0.2 z2.2) * (sb z0.2 z3.2)) * y0 + ((1) * ((c.CW : ℂ)) ^ 2 * ((c.MW : ℂ)) * ((c.e : ℂ)) ^ 2 * ((c.MW : ℂ)⁻¹) ^ 3 * ((c.SW : ℂ)⁻¹) * (ab z1.1 z2.1) * (sb z0.2 z3.2) ^ 2 * (sb z1.2 z2.2) + (2) * ((c.CW : ℂ)) ^ 2 * ((c.e : ℂ)) ^ 2 * ((c.MW : ℂ)⁻¹) ^ 3 * ((c.SW : ℂ)⁻¹) * (ab z0.1 z1.1) * (ab z2.1 z3.1) * (sb z0.2 z1.2) * (sb z0.2 z2.2) * (sb z0.2 z3.2) + (1) * ((c.CW : ℂ)) ^ 2 * ((c.e : ℂ)) ^ 2 * ((c.MW : ℂ)⁻¹) ^ 3 * ((c.SW : ℂ)⁻¹) * (ab z1.1 z2.1) * (mb z0.2 (p 1) z3.1) * (sb z0.2 z3.2) * (sb z1.2 z2.2) + (2) * ((c.CW : ℂ)) ^ 2 * ((c.e : ℂ)) ^ 2 * ((c.MW : ℂ)⁻¹) ^ 3 * ((c.SW : ℂ)⁻¹) * (ab z1.1 z2.1) * (mb z3.2 (p 1) z3.1) * (sb z0.2 z1.2) * (sb z0.2 z2.2) + (2) * ((c.CW : ℂ)) ^ 2 * ((c.e : ℂ)) ^ 2 * ((c.MW : ℂ)⁻¹) ^ 3 * ((c.SW : ℂ)⁻¹) * (ab z1.1 z3.1) * (mb z0.2 (p 1) z2.1) * (sb z0.2 z2.2) * (sb z1.2 z3.2) + (-2) * ((c.CW : ℂ)) ^ 2 * ((c.e : ℂ)) ^ 2 * ((c.MW : ℂ)⁻¹) ^ 3 * ((c.SW : ℂ)⁻¹) * (ab z2.1 z3.1) * (mb z0.2 (p 2) z1.1) * (sb z0.2 z1.2) * (sb z2.2 z3.2) + (2) * ((c.CW : ℂ)) ^ 2 * ((c.e : ℂ)) ^ 2 * ((c.MW : ℂ)⁻¹) ^ 3 * ((c.SW : ℂ)⁻¹) * (ab z2.1 z3.1) * (mb z1.2 (p 2) z1.1) * (sb z0.2 z2.2) * (sb z0.2 z3.2)) * y1 + ((2) * ((c.CW : ℂ)) * ((c.MW : ℂ)) ^ 3 * ((c.e : ℂ)) ^ 2 * ((c.CW : ℂ)⁻¹) * ((c.MW : ℂ)⁻¹) ^ 3 * ((c.SW : ℂ)⁻¹) * ((N.c 1)⁻¹) * (ab z1.1 z2.1) * (ab z2.1 z3.1) * (sb z0.2 z1.2) * (sb z0.2 z3.2) + (-2) * ((c.CW : ℂ)) * ((c.MW : ℂ)) ^ 3 * ((c.e : ℂ)) ^ 2 * ((c.CW : ℂ)⁻¹) * ((c.MW : ℂ)⁻¹) ^ 3 * ((c.SW : ℂ)⁻¹) * ((N.c 1)⁻¹) * (ab z1.1 z3.1) * (ab z2.1 z3.1) * (sb z0.2 z1.2) * (sb z0.2 z2.2) + (-2) * ((c.CW : ℂ)) * ((c.MW : ℂ)) ^ 3 * ((c.e : ℂ)) ^ 2 * ((c.CW : ℂ)⁻¹) ^ 2 * ((c.MW : ℂ)⁻¹) ^ 3 * ((c.SW : ℂ)⁻¹) * ((N.c 1)⁻¹) * (ab z1.1 z2.1) * (ab z1.1 z3.1) * (sb z0.2 z2.2) * (sb z0.2 z3.2) + (4) * ((c.CW : ℂ)) * ((c.MW : ℂ)) ^ 3 * ((c.e : ℂ)) ^ 2 * ((c.MW : ℂ)⁻¹) ^ 3 * ((c.SW : ℂ)⁻¹) * ((N.c 1)⁻¹) * (ab z1.1 z2.1) * (ab z1.1 z3.1) * (sb z0.2 z2.2) * (sb z0.2 z3.2) + (2) * ((c.CW : ℂ)) * ((c.MW : ℂ)) ^ 3 * ((c.e : ℂ)) ^ 2 * ((c.MW : ℂ)⁻¹) ^ 3 * ((c.SW : ℂ)⁻¹) * ((N.c 1)⁻¹) * (ab z1.1 z2.1) ^ 2 * (sb z0.2 z3.2) ^ 2 + (2) * ((c.CW : ℂ)) * ((c.MW : ℂ)) ^ 3 * ((c.e : ℂ)) ^ 2 * ((c.MW : ℂ)⁻¹) ^ 3 * ((c.SW : ℂ)⁻¹) * ((N.c 1)⁻¹) * (ab z1.1 z3.1) ^ 2 * (sb z0.2 z2.2) ^ 2 + (2) * ((c.CW : ℂ)) * ((c.MW : ℂ)) ^ 3 * ((c.e : ℂ)) ^ 2 * ((c.MW : ℂ)⁻¹) ^ 3 * ((c.SW : ℂ)⁻¹) * ((N.c 1)⁻¹) * (ab z2.1 z3.1) ^ 2 * (sb z0.2 z1.2) ^ 2 + (-4) * ((c.CW : ℂ)) * ((c.e : ℂ)) ^ 2 * ((c.SW : ℂ)⁻¹) * ((N.c 1)⁻¹) * (ab z1.1 z2.1) * (ab z1.1 z3.1) * (sb z0.2 z2.2) * (sb z0.2 z3.2) + (-2) * ((c.CW : ℂ)) * ((c.e : ℂ)) ^ 2 * ((c.SW : ℂ)⁻¹) * ((N.c 1)⁻¹) * (ab z1.1 z2.1) ^ 2 * (sb z0.2 z3.2) ^ 2 + (-2) * ((c.CW : ℂ)) * ((c.e : ℂ)) ^ 2 * ((c.SW : ℂ)⁻¹) * ((N.c 1)⁻¹) * (ab z1.1 z3.1) ^ 2 * (sb z0.2 z2.2) ^ 2 + (-2) * ((c.CW : ℂ)) * ((c.e : ℂ)) ^ 2 * ((c.SW : ℂ)⁻¹) * ((N.c 1)⁻¹) * (ab z2.1 z3.1) ^ 2 * (sb z0.2 z1.2) ^ 2 + (-2) * ((c.MW : ℂ)) ^ 3 * ((c.e : ℂ)) ^ 2 * ((c.CW : ℂ)⁻¹) * ((c.MW : ℂ)⁻¹) ^ 3 * ((c.SW : ℂ)⁻¹) * ((N.c 1)⁻¹) * (ab z1.1 z2.1) * (ab z1.1 z3.1) * (sb z0.2 z2.2) * (sb z0.2 z3.2) + (2) * ((c.MW : ℂ)) ^ 3 * ((c.e : ℂ)) ^ 2 * ((c.MW : ℂ)⁻¹) ^ 3 * ((c.SW : ℂ)⁻¹) * ((N.c 1)⁻¹) * (ab z1.1 z2.1) * (ab z2.1 z3.1) * (sb z0.2 z1.2) * (sb z0.2 z3.2) + (-2) * ((c.MW : ℂ)) ^ 3 * ((c.e : ℂ)) ^ 2 * ((c.MW : ℂ)⁻¹) ^ 3 * ((c.SW : ℂ)⁻¹) * ((N.c 1)⁻¹) * (ab z1.1 z3.1) * (ab z2.1 z3.1) * (sb z0.2 z1.2) * (sb z0.2 z2.2) + (-2) * ((c.e : ℂ)) ^ 2 * ((c.SW : ℂ)⁻¹) * ((N.c 1)⁻¹) * (ab z1.1 z2.1) * (ab z2.1 z3.1) * (sb z0.2 z1.2) * (sb z0.2 z3.2) + (2) * ((c.e : ℂ)) ^ 2 * ((c.SW : ℂ)⁻¹) * ((N.c 1)⁻¹) * (ab z1.1 z3.1) * (ab z2.1 z3.1) * (sb z0.2 z1.2) * (sb z0.2 z2.2)) * yCW + ((4) * ((c.CW : ℂ)) * ((c.MW : ℂ)) * ((c.e : ℂ)) ^ 2 * ((c.MW : ℂ)⁻¹) * ((c.SW : ℂ)⁻¹) * ((N.c 1)⁻¹) * (ab z1.1 z2.1) * (ab z1.1 z3.1) * (sb z0.2 z2.2) * (sb z0.2 z3.2) + (2) * ((c.CW : ℂ)) * ((c.MW : ℂ)) * ((c.e : ℂ)) ^ 2 * ((c.MW : ℂ)⁻¹) * ((c.SW : ℂ)⁻¹) * ((N.c 1)⁻¹) * (ab z1.1 z2.1) ^ 2 * (sb z0.2 z3.2) ^ 2 + (2) * ((c.CW : ℂ)) * ((c.MW : ℂ)) * ((c.e : ℂ)) ^ 2 * ((c.MW : ℂ)⁻¹) * ((c.SW : ℂ)⁻¹) * ((N.c 1)⁻¹) * (ab z1.1 z3.1) ^ 2 * (sb z0.2 z2.2) ^ 2 + (2) * ((c.CW : ℂ)) * ((c.MW : ℂ)) * ((c.e : ℂ)) ^ 2 * ((c.MW : ℂ)⁻¹) * ((c.SW : ℂ)⁻¹) * ((N.c 1)⁻¹) * (ab z2.1 z3.1) ^ 2 * (sb z0.2 z1.2) ^ 2 + (4) * ((c.CW : ℂ)) * ((c.MW : ℂ)) ^ 2 * ((c.e : ℂ)) ^ 2 * ((c.MW : ℂ)⁻¹) ^ 2 * ((c.SW : ℂ)⁻¹) * ((N.c 1)⁻¹) * (ab z1.1 z2.1) * (ab z1.1 z3.1) * (sb z0.2 z2.2) * (sb z0.2 z3.2) + (2) * ((c.CW : ℂ)) * ((c.MW : ℂ)) ^ 2 * ((c.e : ℂ)) ^ 2 * ((c.MW : ℂ)⁻¹) ^ 2 * ((c.SW : ℂ)⁻¹) * ((N.c 1)⁻¹) * (ab z1.1 z2.1) ^ 2 * (sb z0.2 z3.2) ^ 2 + (2) * ((c.CW : ℂ)) * ((c.MW : ℂ)) ^ 2 * ((c.e : ℂ)) ^ 2 * ((c.MW : ℂ)⁻¹) ^ 2 * ((c.SW : ℂ)⁻¹) * ((N.c 1)⁻¹) * (ab z1.1 z3.1) ^ 2 * (sb z0.2 z2.2) ^ 2 + (2) * ((c.CW : ℂ)) * ((c.MW : ℂ)) ^ 2 * ((c.e : ℂ)) ^ 2 * ((c.MW : ℂ)⁻¹) ^ 2 * ((c.SW : ℂ)⁻¹) * ((N.c 1)⁻¹) * (ab z2.1 z3.1) ^ 2 * (sb z0.2 z1.2) ^ 2 + (4) * ((c.CW : ℂ)) * ((c.e : ℂ)) ^ 2 * ((c.SW : ℂ)⁻¹) * ((N.c 1)⁻¹) * (ab z1.1 z2.1) * (ab z1.1 z3.1) * (sb z0.2 z2.2) * (sb z0.2 z3.2) + (2) * ((c.CW : ℂ)) * ((c.e : ℂ)) ^ 2 * ((c.SW : ℂ)⁻¹) * ((N.c 1)⁻¹) * (ab z1.1 z2.1) ^ 2 * (sb z0.2 z3.2) ^ 2 + (2) * ((c.CW : ℂ)) * ((c.e : ℂ)) ^ 2 * ((c.SW : ℂ)⁻¹) * ((N.c 1)⁻¹) * (ab z1.1 z3.1) ^ 2 * (sb z0.2 z2.2) ^ 2 + (2) * ((c.CW : ℂ)) * ((c.e : ℂ)) ^ 2 * ((c.SW : ℂ)⁻¹) * ((N.c 1)⁻¹) * (ab z2.1 z3.1) ^ 2 * (sb z0.2 z1.2) ^ 2 + (-1) * ((c.CW : ℂ)) ^ 2 * (((√2 : ℝ) : ℂ)) ^ 2 * ((c.e : ℂ)) ^ 2 * ((c.MW : ℂ)⁻¹) ^ 2 * ((c.SW : ℂ)⁻¹) * (N.c 0) * ((N.c 1)⁻¹) * (ab z1.1 z2.1) * (sb z0.2 z3.2) ^ 2 * (sb z1.2 z2.2) / (2) + (-1) * ((c.CW : ℂ)) ^ 2 * (((√2 : ℝ) : ℂ)) ^ 2 * ((c.e : ℂ)) ^ 2 * ((c.MW : ℂ)⁻¹) ^ 2 * ((c.SW : ℂ)⁻¹) * (ab z1.1 z2.1) * (sb z0.2 z3.2) ^ 2 * (sb z1.2 z2.2) / (2) + (1) * ((c.CW : ℂ)) ^ 2 * ((c.e : ℂ)) ^ 2 * ((c.MW : ℂ)⁻¹) ^ 2 * ((c.SW : ℂ)⁻¹) * (N.c 0) * ((N.c 1)⁻¹) * (ab z1.1 z2.1) * (sb z0.2 z3.2) ^ 2 * (sb z1.2 z2.2) + (1) * ((c.CW : ℂ)) ^ 2 * ((c.e : ℂ)) ^ 2 * ((c.MW : ℂ)⁻¹) ^ 2 * ((c.SW : ℂ)⁻¹) * (ab z1.1 z2.1) * (sb z0.2 z3.2) ^ 2 * (sb z1.2 z2.2) + (-2) * ((c.MW : ℂ)) * ((c.e : ℂ)) ^ 2 * ((c.CW : ℂ)⁻¹) * ((c.MW : ℂ)⁻¹) * ((c.SW : ℂ)⁻¹) * ((N.c 1)⁻¹) * (ab z1.1 z2.1) * (ab z1.1 z3.1) * (sb z0.2 z2.2) * (sb z0.2 z3.2) + (2) * ((c.MW : ℂ)) * ((c.e : ℂ)) ^ 2 * ((c.MW : ℂ)⁻¹) * ((c.SW : ℂ)⁻¹) * ((N.c 1)⁻¹) * (ab z1.1 z2.1) * (ab z2.1 z3.1) * (sb z0.2 z1.2) * (sb z0.2 z3.2) + (-2) * ((c.MW : ℂ)) * ((c.e : ℂ)) ^ 2 * ((c.MW : ℂ)⁻¹) * ((c.SW : ℂ)⁻¹) * ((N.c 1)⁻¹) * (ab z1.1 z3.1) * (ab z2.1 z3.1) * (sb z0.2 z1.2) * (sb z0.2 z2.2) + (-2) * ((c.MW : ℂ)) ^ 2 * ((c.e : ℂ)) ^ 2 * ((c.CW : ℂ)⁻¹) * ((c.MW : ℂ)⁻¹) ^ 2 * ((c.SW : ℂ)⁻¹) * ((N.c 1)⁻¹) * (ab z1.1 z2.1) * (ab z1.1 z3.1) * (sb z0.2 z2.2) * (sb z0.2 z3.2) + (2) * ((c.MW : ℂ)) ^ 2 * ((c.e : ℂ)) ^ 2 * ((c.MW : ℂ)⁻¹) ^ 2 * ((c.SW : ℂ)⁻¹) * ((N.c 1)⁻¹) * (ab z1.1 z2.1) * (ab z2.1 z3.1) * (sb z0.2 z1.2) * (sb z0.2 z3.2) + (-2) * ((c.MW : ℂ)) ^ 2 * ((c.e : ℂ)) ^ 2 * ((c.MW : ℂ)⁻¹) ^ 2 * ((c.SW : ℂ)⁻¹) * ((N.c 1)⁻¹) * (ab z1.1 z3.1) * (ab z2.1 z3.1) * (sb z0.2 z1.2) * (sb z0.2 z2.2) + (-2) * ((c.e : ℂ)) ^ 2 * ((c.CW : ℂ)⁻¹) * ((c.SW : ℂ)⁻¹) * ((N.c 1)⁻¹) * (ab z1.1 z2.1) * (ab z1.1 z3.1) * (sb z0.2 z2.2) * (sb z0.2 z3.2) + (2) * ((c.e : ℂ)) ^ 2 * ((c.SW : ℂ)⁻¹) * ((N.c 1)⁻¹) * (ab z1.1 z2.1) * (ab z2.1 z3.1) * (sb z0.2 z1.2) * (sb z0.2 z3.2) + (-2) * ((c.e : ℂ)) ^ 2 * ((c.SW : ℂ)⁻¹) * ((N.c 1)⁻¹) * (ab z1.1 z3.1) * (ab z2.1 z3.1) * (sb z0.2 z1.2) * (sb z0.2 z2.2)) * yMW + ((-1) * ((c.CW : ℂ)) ^ 2 * ((c.e : ℂ)) ^ 2 * ((c.MW : ℂ)⁻¹) ^ 2 * ((c.SW : ℂ)⁻¹) * (N.c 0) * ((N.c 1)⁻¹) * (ab z1.1 z2.1) * (sb z0.2 z3.2) ^ 2 * (sb z1.2 z2.2) / (2) + (-1) * ((c.CW : ℂ)) ^ 2 * ((c.e : ℂ)) ^ 2 * ((c.MW : ℂ)⁻¹) ^ 2 * ((c.SW : ℂ)⁻¹) * (ab z1.1 z2.1) * (sb z0.2 z3.2) ^ 2 * (sb z1.2 z2.2) / (2) + (-1) * ((c.CW : ℂ)) ^ 2 * ((c.e : ℂ)) ^ 2 * ((c.MW : ℂ)⁻¹) ^ 3 * ((c.SW : ℂ)⁻¹) * (N.c 0) * ((N.c 1)⁻¹) * (ab z1.1 z2.1) * (mb z0.2 (p 1) z3.1) * (sb z0.2 z3.2) * (sb z1.2 z2.2) + (-1) * ((c.CW : ℂ)) ^ 2 * ((c.e : ℂ)) ^ 2 * ((c.MW : ℂ)⁻¹) ^ 3 * ((c.SW : ℂ)⁻¹) * (N.c 0) * ((N.c 1)⁻¹) * (ab z1.1 z3.1) * (mb z2.2 (p 1) z2.1) * (sb z0.2 z1.2) * (sb z0.2 z3.2) + (-1) * ((c.CW : ℂ)) ^ 2 * ((c.e : ℂ)) ^ 2 * ((c.MW : ℂ)⁻¹) ^ 3 * ((c.SW : ℂ)⁻¹) * (N.c 0) * ((N.c 1)⁻¹) * (ab z2.1 z3.1) * (mb z1.2 (p 2) z1.1) * (sb z0.2 z2.2) * (sb z0.2 z3.2) + (-1) * ((c.CW : ℂ)) ^ 2 * ((c.e : ℂ)) ^ 2 * ((c.MW : ℂ)⁻¹) ^ 3 * ((c.SW : ℂ)⁻¹) * ((N.c 1)⁻¹) * (ab z0.1 z3.1) * (ab z1.1 z2.1) * (mb z0.2 (p 1) ρ0) * (sb z0.2 z3.2) * (sb z1.2 z2.2) / (2) + (1) * ((c.CW : ℂ)) ^ 2 * ((c.e : ℂ)) ^ 2 * ((c.MW : ℂ)⁻¹) ^ 3 * ((c.SW : ℂ)⁻¹) * ((N.c 1)⁻¹) * (ab z1.1 z2.1) * (mb z0.2 (p 1) ρ0) * (mb z3.2 (p 1) z3.1) * (sb z1.2 z2.2) + (-1) * ((c.CW : ℂ)) ^ 2 * ((c.e : ℂ)) ^ 2 * ((c.MW : ℂ)⁻¹) ^ 3 * ((c.SW : ℂ)⁻¹) * ((N.c 1)⁻¹) * (ab z1.1 z3.1) * (mb z0.2 (p 1) ρ0) * (mb z2.2 (p 1) z2.1) * (sb z1.2 z3.2) + (-1) * ((c.CW : ℂ)) ^ 2 * ((c.e : ℂ)) ^ 2 * ((c.MW : ℂ)⁻¹) ^ 3 * ((c.SW : ℂ)⁻¹) * ((N.c 1)⁻¹) * (ab z2.1 z3.1) * (mb z0.2 (p 1) ρ0) * (mb z1.2 (p 2) z1.1) * (sb z2.2 z3.2) + (-1) * ((c.CW : ℂ)) ^ 2 * ((c.e : ℂ)) ^ 2 * ((c.MW : ℂ)⁻¹) ^ 3 * ((c.SW : ℂ)⁻¹) * (ab z0.1 z1.1) * (ab z2.1 z3.1) * (sb z0.2 z1.2) * (sb z0.2 z2.2) * (sb z0.2 z3.2) + (-1) * ((c.CW : ℂ)) ^ 2 * ((c.e : ℂ)) ^ 2 * ((c.MW : ℂ)⁻¹) ^ 3 * ((c.SW : ℂ)⁻¹) * (ab z1.1 z2.1) * (mb z0.2 (p 1) z3.1) * (sb z0.2 z3.2) * (sb z1.2 z2.2) / (2) + (-1) * ((c.CW : ℂ)) ^ 2 * ((c.e : ℂ)) ^ 2 * ((c.MW : ℂ)⁻¹) ^ 3 * ((c.SW : ℂ)⁻¹) * (ab z1.1 z2.1) * (mb z3.2 (p 1) z3.1) * (sb z0.2 z1.2) * (sb z0.2 z2.2) + (-1) * ((c.CW : ℂ)) ^ 2 * ((c.e : ℂ)) ^ 2 * ((c.MW : ℂ)⁻¹) ^ 3 * ((c.SW : ℂ)⁻¹) * (ab z1.1 z3.1) * (mb z0.2 (p 1) z2.1) * (sb z0.2 z2.2) * (sb z1.2 z3.2) + (1) * ((c.CW : ℂ)) ^ 2 * ((c.e : ℂ)) ^ 2 * ((c.MW : ℂ)⁻¹) ^ 3 * ((c.SW : ℂ)⁻¹) * (ab z2.1 z3.1) * (mb z0.2 (p 2) z1.1) * (sb z0.2 z1.2) * (sb z2.2 z3.2) + (-1) * ((c.CW : ℂ)) ^ 2 * ((c.e : ℂ)) ^ 2 * ((c.MW : ℂ)⁻¹) ^ 3 * ((c.SW : ℂ)⁻¹) * (ab z2.1 z3.1) * (mb z1.2 (p 2) z1.1) * (sb z0.2 z2.2) * (sb z0.2 z3.2)) * x22
theorem AZWW.keyM {c : Constants} {p : Nat → V4 ℝ} {N : Env} (hc : c.Physical) (hb : Balanced p) (r3 : N.r 3 = c.SW) (r4 : N.r 4 = c.CW) (r7 : N.r 7 = (((((2 : Nat) : ℝ) * c.e) * c.e) / (c.CW * c.SW))) (d0 : pole c.MW c.WW (plus (p 0) (backward (p 2))) = N.c 0) (n0 : N.c 0 ≠ 0) (d1 : pole c.MW c.WW (plus (p 0) (backward (p 3))) = N.c 1) (n1 : N.c 1 ≠ 0) {z0 z1 z2 z3 : Pair} (b1 : Bold (p 1) c.MZ z1) (b2 : Bold (p 2) c.MW z2) (b3 : Bold (p 3) c.MW z3) (l0 : Light (p 0) z0) (e02 : mb z0.2 (p 2) z0.1 = -N.c 0) (e03 : mb z0.2 (p 3) z0.1 = -N.c 1) (q1 : msq (p 1) = c.MZ ^ 2) (q2 : msq (p 2) = c.MW ^ 2) (q3 : msq (p 3) = c.MW ^ 2) {ρ0 : V2} (R0 : ∀ Y, sb ρ0 Y = mb Y (p 2) z0.1) :
    AZWW.formM N p z0 z1 z1 z2 z2 z3 z3 * sb ρ0 z0.2 = ((√2 : ℝ) * ((1 : ℂ) * ((2 * √2 / (c.MZ * c.MW * c.MW) : ℝ) : ℂ))) * AZWW.react.bare4 c p (pv z0.1 ρ0) (pv z1.1 z1.2) (pv z2.1 z2.2) (pv z3.1 z3.2) := by
  rw [AZWW.react.bare4_parts c p (b₀ := .photon) (b₁ := .z) (b₂ := .wMinus) (b₃ := .wPlus) rfl rfl rfl rfl, AZWW.formM]
  have T0 := l0.mb_minus ρ0
  have T1 := b1.mb_zero'
  have T2 := mb_back_zero (b2.mb_zero')
  have T3 := mb_back_zero (b3.mb_zero')
  have Q2 : msq (backward (p 2)) = c.MW ^ 2 := (msq_backward _).trans q2
  have Q3 : msq (backward (p 3)) = c.MW ^ 2 := (msq_backward _).trans q3
  simp only [contact, seagull, gauge4, between, carriers, List.map_cons, List.map_nil, List.sum_cons, List.sum_nil]
  simp only [toHiggs, toVector, higgs2, gauge3, Boson.anti, reduceCtorEq, and_self, and_true, and_false, true_and, false_and, if_true, if_false, Complex.ofReal_zero, zero_smul, carry_none, zero_mul, mul_zero, zero_div, neg_zero, add_zero, zero_add, sub_zero, sub_self, contract_zero, contract_zero_left]
  first | rw [dress_minus c (x := .wPlus) (.inl rfl) hc.MW l0 Q2 T2] | rw [dress_minus c (x := .wMinus) (.inr rfl) hc.MW l0 Q2 T2]
  first | rw [dress_minus c (x := .wPlus) (.inl rfl) hc.MW l0 Q3 T3] | rw [dress_minus c (x := .wMinus) (.inr rfl) hc.MW l0 Q3 T3]
  simp only [d0, d1, yangMills_transverse T1 T2, yangMills_transverse T1 T3, yangMills_transverse T2 T3, contract_add, contract_smul, contract_smul_left, contract_four_pv, contract_pv_four, contract_pv, mb_backward]
  have R00 := (ref_minus_minus R0 R0).2
  have i0 := mb_schouten_right z1.2 (p 2) z0.1 z1.1 z2.1
  have i1 := mb_schouten_left z0.2 z1.2 z3.2 (p 1) z0.1
  have i2 := mb_schouten_right z0.2 (p 2) z0.1 z1.1 z3.1
  have i3 := mb_schouten_right z0.2 (p 2) z0.1 z1.1 z2.1
  have i4 := ab_schouten z1.1 z2.1 z3.1 z0.1
  have i5 := mb_schouten_left z1.2 z2.2 z3.2 (p 2) z0.1
  have i6 := mb_schouten_left z1.2 z2.2 z3.2 (p 1) z0.1
  have i7 := mb_schouten_right z2.2 (p 1) z0.1 z1.1 z3.1
  have i8 := mb_schouten_right z1.2 (p 2) z0.1 z2.1 z3.1
  have i9 := mb_schouten_left z1.2 z2.2 z3.2 (p 2) z1.1
  have i10 := mb_schouten_left z0.2 z1.2 ρ0 (p 1) z0.1
  have i11 := sb_schouten z1.2 z2.2 z3.2 z0.2
  have i12 := mb_schouten_right z0.2 (p 1) z0.1 z1.1 z3.1
  have i13 := mb_schouten_left z0.2 z2.2 ρ0 (p 1) z0.1
  have i14 := mb_schouten_right z3.2 (p 1) z0.1 z1.1 z2.1
  have i15 := mb_schouten_left z1.2 z2.2 ρ0 (p 1) z0.1
  have i16 := mb_schouten_right z1.2 (p 2) z0.1 z1.1 z3.1
  have i17 := mb_schouten_right z2.2 (p 1) z1.1 z2.1 z3.1
  have i18 := mb_schouten_left z0.2 z1.2 z2.2 (p 1) z0.1
  have i19 := mb_schouten_left z0.2 z2.2 z3.2 (p 1) z0.1
  have i20 := mb_schouten_left z0.2 z2.2 z3.2 (p 2) z0.1
  have i21 := mb_schouten_left z1.2 z3.2 ρ0 (p 1) z0.1
  have i22 := mb_schouten_right z3.2 (p 1) z0.1 z1.1 z3.1
  have i23 := mb_schouten_left z0.2 z1.2 z2.2 (p 2) z0.1
  have i24 := mb_schouten_left z0.2 z1.2 z3.2 (p 2) z0.1
  have i25 := mb_schouten_right z1.2 (p 2) z1.1 z2.1 z3.1
  have i26 := mb_schouten_right z2.2 (p 1) z0.1 z2.1 z3.1
  have i27 := mb_schouten_right z2.2 (p 1) z0.1 z1.1 z2.1
  have i28 := mb_schouten_right z3.2 (p 1) z0.1 z2.1 z3.1
  simp only [sb_swap ρ0 z0.2, sb_swap ρ0 z1.2, sb_swap ρ0 z2.2, sb_swap ρ0 z3.2, R00, R0, l0.mb_eq, b1.mb_left, b1.mb_right, b2.mb_left, b2.mb_right, b3.mb_left, b3.mb_right, e02, e03, mb_one hb z0.2 z0.1, mb_three hb z0.2 z1.1, mb_three hb z0.2 z2.1, mb_two hb z0.2 z3.1, mb_three hb z1.2 z0.1, mb_three hb z1.2 z1.1, mb_three hb z1.2 z2.1, mb_two hb z1.2 z3.1, mb_three hb z2.2 z0.1, mb_three hb z2.2 z1.1, mb_three hb z2.2 z2.1, mb_one hb z2.2 z3.1, mb_two hb z3.2 z0.1, mb_two hb z3.2 z1.1, mb_one hb z3.2 z2.1, mb_two hb z3.2 z3.1, mb_three hb ρ0 z0.1, ab_self, sb_self] at i0 i1 i2 i3 i4 i5 i6 i7 i8 i9 i10 i11 i12 i13 i14 i15 i16 i17 i18 i19 i20 i21 i22 i23 i24 i25 i26 i27 i28 ⊢
  simp only [ab_swap z0.1 z1.1, sb_swap z0.2 z1.2, ab_swap z0.1 z2.1, sb_swap z0.2 z2.2, ab_swap z0.1 z3.1, sb_swap z0.2 z3.2, ab_swap z1.1 z2.1, sb_swap z1.2 z2.2, ab_swap z1.1 z3.1, sb_swap z1.2 z3.2, ab_swap z2.1 z3.1, sb_swap z2.2 z3.2] at i0 i1 i2 i3 i4 i5 i6 i7 i8 i9 i10 i11 i12 i13 i14 i15 i16 i17 i18 i19 i20 i21 i22 i23 i24 i25 i26 i27 i28 ⊢
  simp only [r3, r4, r7, Constants.invVev, ← c.mz]
  have xMW : (c.MW : ℂ) ≠ 0 := by exact_mod_cast hc.MW
  have xSW : (c.SW : ℂ) ≠ 0 := by exact_mod_cast hc.SW
  have xCW : (c.CW : ℂ) ≠ 0 := by exact_mod_cast hc.CW
  have x2 : ((√2 : ℝ) : ℂ) ≠ 0 := by exact_mod_cast (Real.sqrt_pos.2 two_pos).ne'
  have x22 : ((√2 : ℝ) : ℂ) ^ 2 = 2 := by rw [← Complex.ofReal_pow, Real.sq_sqrt two_pos.le]; norm_num
  have hcs : (c.SW : ℂ) ^ 2 + (c.CW : ℂ) ^ 2 = 1 := by rw [← Complex.ofReal_pow, ← Complex.ofReal_pow, ← Complex.ofReal_add, hc.mix, Complex.ofReal_one]
  try simp only [← c.mz] at i0 i1 i2 i3 i4 i5 i6 i7 i8 i9 i10 i11 i12 i13 i14 i15 i16 i17 i18 i19 i20 i21 i22 i23 i24 i25 i26 i27 i28
  push_cast at i0 i1 i2 i3 i4 i5 i6 i7 i8 i9 i10 i11 i12 i13 i14 i15 i16 i17 i18 i19 i20 i21 i22 i23 i24 i25 i26 i27 i28 ⊢
  simp only [div_eq_mul_inv, mul_inv, inv_inv] at i0 i1 i2 i3 i4 i5 i6 i7 i8 i9 i10 i11 i12 i13 i14 i15 i16 i17 i18 i19 i20 i21 i22 i23 i24 i25 i26 i27 i28 ⊢
  have y0 := mul_inv_cancel₀ n0
  have y1 := mul_inv_cancel₀ n1
  have yCW := mul_inv_cancel₀ xCW
  have yMW := mul_inv_cancel₀ xMW
  linear_combination ((((3) * ((c.MW : ℂ)) * ((c.e : ℂ)) ^ 2 * (ab z0.1 z2.1) * (ab z0.1 z3.1) * (sb z0.2 z3.2) + (2) * ((c.MW : ℂ)) * ((c.e : ℂ)) ^ 2 * (ab z2.1 z3.1) * (mb z3.2 (p 1) z0.1) + (-2) * ((c.MW : ℂ)) * ((c.e : ℂ)) ^ 2 * (mb z3.2 (p 1) z0.1) * (sb z2.2 z3.2) + (1) * ((c.e : ℂ)) ^ 2 * (N.c 0) * (ab z0.1 z3.1) * (sb z2.2 z3.2) + (-1) * ((c.e : ℂ)) ^ 2 * (N.c 1) * (ab z0.1 z3.1) * (sb z2.2 z3.2)) * i0 + ((3) * ((c.MW : ℂ)) * ((c.e : ℂ)) ^ 2 * ((c.CW : ℂ)⁻¹) * (ab z0.1 z2.1) * (ab z0.1 z3.1) * (sb z1.2 z2.2) + (-4) * ((c.MW : ℂ)) * ((c.e : ℂ)) ^ 2 * (ab z0.1 z1.1) * (ab z0.1 z2.1) * (ab z2.1 z3.1) + (5) * ((c.MW : ℂ)) * ((c.e : ℂ)) ^ 2 * (ab z0.1 z1.1) * (ab z0.1 z2.1) * (sb z2.2 z3.2) + (4) * ((c.MW : ℂ)) * ((c.e : ℂ)) ^ 2 * (ab z0.1 z2.1) ^ 2 * (ab z1.1 z3.1) + (-1) * ((c.e : ℂ)) ^ 2 * (ab z0.1 z1.1) * (ab z0.1 z2.1) * (ab z0.1 z3.1) * (sb z0.2 z2.2)) * i1 + ((1) * ((c.MW : ℂ)) * ((c.e : ℂ)) ^ 2 * ((c.CW : ℂ)⁻¹) * (ab z0.1 z1.1) * (ab z0.1 z2.1) * (sb z2.2 z3.2) + (-2) * ((c.MW : ℂ)) * ((c.e : ℂ)) ^ 2 * (ab z0.1 z2.1) * (ab z0.1 z3.1) * (sb z1.2 z2.2) + (1) * ((c.MW : ℂ)) * ((c.e : ℂ)) ^ 2 * (ab z0.1 z2.1) ^ 2 * (sb z1.2 z3.2) + (1) * ((c.e : ℂ)) ^ 2 * (ab z0.1 z2.1) * (mb z2.2 (p 1) z0.1) * (sb z1.2 z3.2) + (-3) * ((c.e : ℂ)) ^ 2 * (ab z0.1 z2.1) * (mb z3.2 (p 1) z0.1) * (sb z1.2 z2.2)) * i2 + ((-1) * ((c.MW : ℂ)) * ((c.e : ℂ)) ^ 2 * ((c.CW : ℂ)⁻¹) * (ab z0.1 z1.1) * (ab z0.1 z3.1) * (sb z2.2 z3.2) + (-1) * ((c.MW : ℂ)) * ((c.e : ℂ)) ^ 2 * (ab z0.1 z2.1) * (ab z0.1 z3.1) * (sb z1.2 z3.2) + (2) * ((c.MW : ℂ)) * ((c.e : ℂ)) ^ 2 * (ab z0.1 z3.1) ^ 2 * (sb z1.2 z2.2) + (-1) * ((c.e : ℂ)) ^ 2 * (ab z0.1 z3.1) * (mb z2.2 (p 1) z0.1) * (sb z1.2 z3.2) + (3) * ((c.e : ℂ)) ^ 2 * (ab z0.1 z3.1) * (mb z3.2 (p 1) z0.1) * (sb z1.2 z2.2)) * i3 + ((-1) * ((c.MW : ℂ)) * ((c.e : ℂ)) ^ 2 * ((c.CW : ℂ)⁻¹) * (N.c 0) * (ab z0.1 z1.1) * (sb z2.2 z3.2) + (-1) * ((c.MW : ℂ)) * ((c.e : ℂ)) ^ 2 * (N.c 0) * (ab z0.1 z2.1) * (sb z1.2 z3.2) + (1) * ((c.MW : ℂ)) * ((c.e : ℂ)) ^ 2 * (N.c 0) * (ab z0.1 z3.1) * (sb z1.2 z2.2) + (-1) * ((c.MW : ℂ)) * ((c.e : ℂ)) ^ 2 * (N.c 1) * (ab z0.1 z3.1) * (sb z1.2 z2.2) + (-3) * ((c.MW : ℂ)) * ((c.e : ℂ)) ^ 2 * (ab z0.1 z2.1) * (mb z1.2 (p 2) z0.1) * (sb z0.2 z3.2) + (-1) * ((c.MW : ℂ)) * ((c.e : ℂ)) ^ 2 * (ab z0.1 z2.1) * (mb z3.2 (p 1) z0.1) * (sb z0.2 z1.2) + (-2) * ((c.MW : ℂ)) ^ 3 * ((c.e : ℂ)) ^ 2 * ((c.CW : ℂ)⁻¹) * (ab z0.1 z1.1) * (sb z2.2 z3.2) + (2) * ((c.MW : ℂ)) ^ 3 * ((c.e : ℂ)) ^ 2 * ((c.CW : ℂ)⁻¹) ^ 2 * (ab z0.1 z2.1) * (sb z1.2 z3.2) + (-1) * ((c.e : ℂ)) ^ 2 * (N.c 0) * (mb z1.2 (p 2) z0.1) * (sb z2.2 z3.2) + (1) * ((c.e : ℂ)) ^ 2 * (N.c 0) * (mb z2.2 (p 1) z0.1) * (sb z1.2 z3.2) + (1) * ((c.e : ℂ)) ^ 2 * (N.c 1) * (mb z1.2 (p 2) z0.1) * (sb z2.2 z3.2) + (-2) * ((c.e : ℂ)) ^ 2 * (mb ρ0 (p 1) z0.1) * (sb z0.2 z2.2) * (sb z1.2 z3.2) + (-1) * ((c.e : ℂ)) ^ 2 * (mb ρ0 (p 1) z0.1) * (sb z0.2 z3.2) * (sb z1.2 z2.2)) * i4 + ((-2) * ((c.MW : ℂ)) ^ 2 * ((c.e : ℂ)) ^ 2 * ((c.CW : ℂ)⁻¹) * (ab z0.1 z2.1) * (sb z1.2 z3.2) + (-2) * ((c.MW : ℂ)) ^ 2 * ((c.e : ℂ)) ^ 2 * ((c.CW : ℂ)⁻¹) * (ab z0.1 z3.1) * (sb z1.2 z2.2)) * i5 + ((2) * ((c.MW : ℂ)) ^ 2 * ((c.e : ℂ)) ^ 2 * ((c.CW : ℂ)⁻¹) * (ab z0.1 z2.1) * (sb z1.2 z3.2) + (2) * ((c.MW : ℂ)) ^ 2 * ((c.e : ℂ)) ^ 2 * ((c.CW : ℂ)⁻¹) * (ab z0.1 z3.1) * (sb z1.2 z2.2)) * i6 + ((4) * ((c.MW : ℂ)) * ((c.e : ℂ)) ^ 2 * ((c.CW : ℂ)⁻¹) * (ab z0.1 z1.1) * (ab z0.1 z2.1) * (sb z0.2 z3.2) + (-1) * ((c.MW : ℂ)) * ((c.e : ℂ)) ^ 2 * (ab z0.1 z2.1) * (ab z0.1 z3.1) * (sb z0.2 z1.2) + (2) * ((c.MW : ℂ)) * ((c.e : ℂ)) ^ 2 * (mb z3.2 (p 1) z0.1) * (sb z1.2 z2.2) + (2) * ((c.MW : ℂ)) ^ 2 * ((c.e : ℂ)) ^ 2 * ((c.CW : ℂ)⁻¹) * (ab z0.1 z2.1) * (ab z1.1 z3.1) + (-2) * ((c.MW : ℂ)) ^ 2 * ((c.e : ℂ)) ^ 2 * ((c.CW : ℂ)⁻¹) ^ 2 * (ab z0.1 z2.1) * (sb z1.2 z3.2) + (2) * ((c.MW : ℂ)) ^ 2 * ((c.e : ℂ)) ^ 2 * (ab z0.1 z2.1) * (sb z1.2 z3.2) + (2) * ((c.MW : ℂ)) ^ 2 * ((c.e : ℂ)) ^ 2 * (ab z0.1 z3.1) * (sb z1.2 z2.2) + (-2) * ((c.e : ℂ)) ^ 2 * (N.c 0) * (ab z0.1 z2.1) * (sb z1.2 z3.2) + (-3) * ((c.e : ℂ)) ^ 2 * (N.c 1) * (ab z0.1 z2.1) * (sb z1.2 z3.2) + (3) * ((c.e : ℂ)) ^ 2 * (ab z0.1 z2.1) * (mb z1.2 (p 2) z0.1) * (sb z0.2 z3.2) + (5) * ((c.e : ℂ)) ^ 2 * (ab z0.1 z2.1) * (mb z3.2 (p 1) z0.1) * (sb z0.2 z1.2)) * i7 + ((2) * ((c.MW : ℂ)) * ((c.e : ℂ)) ^ 2 * ((c.CW : ℂ)⁻¹) * (mb z2.2 (p 1) z0.1) * (sb z1.2 z3.2) + (2) * ((c.MW : ℂ)) * ((c.e : ℂ)) ^ 2 * ((c.CW : ℂ)⁻¹) * (mb z3.2 (p 1) z0.1) * (sb z1.2 z2.2) + (-2) * ((c.MW : ℂ)) * ((c.e : ℂ)) ^ 2 * (ab z1.1 z2.1) * (mb z3.2 (p 1) z0.1) + (-2) * ((c.MW : ℂ)) * ((c.e : ℂ)) ^ 2 * (ab z1.1 z3.1) * (mb z2.2 (p 1) z0.1) + (2) * ((c.MW : ℂ)) ^ 2 * ((c.e : ℂ)) ^ 2 * ((c.CW : ℂ)⁻¹) * (ab z0.1 z2.1) * (sb z1.2 z3.2) + (2) * ((c.MW : ℂ)) ^ 2 * ((c.e : ℂ)) ^ 2 * ((c.CW : ℂ)⁻¹) * (ab z0.1 z3.1) * (sb z1.2 z2.2)) * i8 + ((-2) * ((c.e : ℂ)) ^ 2 * (ab z2.1 z3.1) * (mb ρ0 (p 1) z0.1)) * i9 + ((1) * ((c.e : ℂ)) ^ 2 * (ab z0.1 z1.1) * (ab z2.1 z3.1) * (sb z2.2 z3.2) + (1) * ((c.e : ℂ)) ^ 2 * (ab z0.1 z2.1) * (ab z1.1 z3.1) * (sb z2.2 z3.2)) * i10 + ((3) * ((c.MW : ℂ)) * ((c.e : ℂ)) ^ 2 * (ab z0.1 z1.1) * (ab z0.1 z2.1) * (mb z3.2 (p 1) z0.1) + (1) * ((c.MW : ℂ)) * ((c.e : ℂ)) ^ 2 * (ab z0.1 z1.1) * (ab z0.1 z3.1) * (mb z2.2 (p 1) z0.1) + (1) * ((c.MW : ℂ)) ^ 2 * ((c.e : ℂ)) ^ 2 * ((c.CW : ℂ)⁻¹) ^ 2 * (ab z0.1 z1.1) * (ab z0.1 z2.1) * (ab z0.1 z3.1) + (3) * ((c.MW : ℂ)) ^ 2 * ((c.e : ℂ)) ^ 2 * (ab z0.1 z1.1) * (ab z0.1 z2.1) * (ab z0.1 z3.1) + (-2) * ((c.e : ℂ)) ^ 2 * (N.c 0) * (ab z0.1 z1.1) * (ab z0.1 z2.1) * (ab z0.1 z3.1) + (-2) * ((c.e : ℂ)) ^ 2 * (N.c 1) * (ab z0.1 z1.1) * (ab z0.1 z2.1) * (ab z0.1 z3.1) + (-1) * ((c.e : ℂ)) ^ 2 * (ab z0.1 z1.1) * (ab z2.1 z3.1) * (mb ρ0 (p 1) z0.1) + (-1) * ((c.e : ℂ)) ^ 2 * (ab z0.1 z2.1) * (ab z1.1 z3.1) * (mb ρ0 (p 1) z0.1)) * i11 + ((-1) * ((c.MW : ℂ)) * ((c.e : ℂ)) ^ 2 * ((c.CW : ℂ)⁻¹) * (ab z0.1 z1.1) * (ab z0.1 z2.1) * (sb z2.2 z3.2) + (2) * ((c.MW : ℂ)) * ((c.e : ℂ)) ^ 2 * (ab z0.1 z2.1) * (ab z0.1 z3.1) * (sb z1.2 z2.2) + (-1) * ((c.MW : ℂ)) * ((c.e : ℂ)) ^ 2 * (ab z0.1 z2.1) ^ 2 * (sb z1.2 z3.2) + (-1) * ((c.e : ℂ)) ^ 2 * (ab z0.1 z2.1) * (mb z2.2 (p 1) z0.1) * (sb z1.2 z3.2) + (3) * ((c.e : ℂ)) ^ 2 * (ab z0.1 z2.1) * (mb z3.2 (p 1) z0.1) * (sb z1.2 z2.2)) * i12 + ((1) * ((c.e : ℂ)) ^ 2 * (ab z0.1 z1.1) * (ab z2.1 z3.1) * (sb z1.2 z3.2) + (-3) * ((c.e : ℂ)) ^ 2 * (ab z0.1 z2.1) * (ab z1.1 z3.1) * (sb z1.2 z3.2)) * i13 + ((-1) * ((c.MW : ℂ)) * ((c.e : ℂ)) ^ 2 * (ab z0.1 z2.1) * (ab z0.1 z3.1) * (sb z0.2 z1.2) + (-2) * ((c.MW : ℂ)) ^ 2 * ((c.e : ℂ)) ^ 2 * ((c.CW : ℂ)⁻¹) * (ab z0.1 z1.1) * (sb z2.2 z3.2) + (2) * ((c.MW : ℂ)) ^ 2 * ((c.e : ℂ)) ^ 2 * (ab z0.1 z2.1) * (sb z1.2 z3.2) + (2) * ((c.MW : ℂ)) ^ 2 * ((c.e : ℂ)) ^ 2 * (ab z0.1 z3.1) * (sb z1.2 z2.2) + (1) * ((c.e : ℂ)) ^ 2 * (N.c 0) * (ab z0.1 z3.1) * (sb z1.2 z2.2) + (-1) * ((c.e : ℂ)) ^ 2 * (N.c 1) * (ab z0.1 z3.1) * (sb z1.2 z2.2)) * i14 + ((2) * ((c.MW : ℂ)) * ((c.e : ℂ)) ^ 2 * (ab z1.1 z3.1) * (ab z2.1 z3.1) + (2) * ((c.e : ℂ)) ^ 2 * (ab z1.1 z2.1) * (mb z3.2 (p 1) z3.1)) * i15 + ((-3) * ((c.MW : ℂ)) * ((c.e : ℂ)) ^ 2 * (ab z0.1 z2.1) ^ 2 * (sb z0.2 z3.2) + (-2) * ((c.e : ℂ)) ^ 2 * (N.c 0) * (ab z0.1 z2.1) * (sb z2.2 z3.2) + (-3) * ((c.e : ℂ)) ^ 2 * (ab z0.1 z2.1) * (mb z2.2 (p 1) z0.1) * (sb z0.2 z3.2) + (5) * ((c.e : ℂ)) ^ 2 * (ab z0.1 z2.1) * (mb z3.2 (p 1) z0.1) * (sb z0.2 z2.2) + (-2) * ((c.e : ℂ)) ^ 2 * (mb z2.2 (p 1) z2.1) * (mb z3.2 (p 1) z0.1)) * i16 + ((2) * ((c.e : ℂ)) ^ 2 * (mb ρ0 (p 1) z0.1) * (sb z1.2 z3.2)) * i17 + ((-2) * ((c.MW : ℂ)) * ((c.e : ℂ)) ^ 2 * ((c.CW : ℂ)⁻¹) * (ab z0.1 z2.1) * (ab z0.1 z3.1) * (sb z1.2 z3.2) + (-1) * ((c.MW : ℂ)) * ((c.e : ℂ)) ^ 2 * (ab z0.1 z1.1) * (ab z0.1 z3.1) * (sb z2.2 z3.2) + (-1) * ((c.MW : ℂ)) * ((c.e : ℂ)) ^ 2 * (ab z0.1 z2.1) * (ab z0.1 z3.1) * (ab z1.1 z3.1) + (-3) * ((c.e : ℂ)) ^ 2 * (ab z0.1 z1.1) * (ab z0.1 z2.1) * (ab z0.1 z3.1) * (sb z0.2 z3.2) + (5) * ((c.e : ℂ)) ^ 2 * (ab z0.1 z1.1) * (ab z0.1 z2.1) * (mb z3.2 (p 1) z3.1)) * i18 + ((1) * ((c.MW : ℂ)) * ((c.e : ℂ)) ^ 2 * ((c.CW : ℂ)⁻¹) * (ab z0.1 z1.1) * (ab z0.1 z2.1) * (ab z1.1 z3.1) + (-2) * ((c.MW : ℂ)) * ((c.e : ℂ)) ^ 2 * (ab z0.1 z1.1) * (ab z0.1 z2.1) * (sb z1.2 z3.2) + (1) * ((c.MW : ℂ)) * ((c.e : ℂ)) ^ 2 * (ab z0.1 z1.1) * (ab z0.1 z3.1) * (sb z1.2 z2.2) + (3) * ((c.e : ℂ)) ^ 2 * (ab z0.1 z2.1) * (ab z0.1 z3.1) * (mb z1.2 (p 2) z1.1)) * i19 + ((-1) * ((c.MW : ℂ)) * ((c.e : ℂ)) ^ 2 * ((c.CW : ℂ)⁻¹) * (ab z0.1 z1.1) * (ab z0.1 z2.1) * (ab z1.1 z3.1)) * i20 + ((2) * ((c.MW : ℂ)) * ((c.e : ℂ)) ^ 2 * (ab z1.1 z2.1) * (sb z2.2 z3.2)) * i21 + ((-5) * ((c.MW : ℂ)) * ((c.e : ℂ)) ^ 2 * ((c.CW : ℂ)⁻¹) * (ab z0.1 z1.1) * (ab z0.1 z2.1) * (sb z0.2 z2.2) + (-5) * ((c.MW : ℂ)) * ((c.e : ℂ)) ^ 2 * (ab z0.1 z2.1) ^ 2 * (sb z0.2 z1.2) + (2) * ((c.MW : ℂ)) ^ 2 * ((c.e : ℂ)) ^ 2 * ((c.CW : ℂ)⁻¹) * (ab z0.1 z2.1) * (ab z1.1 z2.1) + (3) * ((c.e : ℂ)) ^ 2 * (N.c 1) * (ab z0.1 z2.1) * (sb z1.2 z2.2) + (-5) * ((c.e : ℂ)) ^ 2 * (ab z0.1 z2.1) * (mb z1.2 (p 2) z0.1) * (sb z0.2 z2.2) + (-5) * ((c.e : ℂ)) ^ 2 * (ab z0.1 z2.1) * (mb z2.2 (p 1) z0.1) * (sb z0.2 z1.2) + (2) * ((c.e : ℂ)) ^ 2 * (mb z1.2 (p 2) z0.1) * (mb z2.2 (p 1) z2.1)) * i22 + ((3) * ((c.MW : ℂ)) * ((c.e : ℂ)) ^ 2 * ((c.CW : ℂ)⁻¹) * (ab z0.1 z2.1) * (ab z0.1 z3.1) * (sb z1.2 z3.2) + (2) * ((c.e : ℂ)) ^ 2 * (ab z0.1 z1.1) * (ab z0.1 z2.1) * (ab z0.1 z3.1) * (sb z0.2 z3.2) + (-5) * ((c.e : ℂ)) ^ 2 * (ab z0.1 z1.1) * (ab z0.1 z2.1) * (mb z3.2 (p 1) z3.1)) * i23 + ((-1) * ((c.MW : ℂ)) * ((c.e : ℂ)) ^ 2 * ((c.CW : ℂ)⁻¹) * (ab z0.1 z2.1) * (ab z0.1 z3.1) * (sb z1.2 z2.2) + (-3) * ((c.MW : ℂ)) * ((c.e : ℂ)) ^ 2 * (ab z0.1 z1.1) * (ab z0.1 z2.1) * (sb z2.2 z3.2) + (1) * ((c.e : ℂ)) ^ 2 * (ab z0.1 z1.1) * (ab z0.1 z2.1) * (ab z0.1 z3.1) * (sb z0.2 z2.2)) * i24 + ((-2) * ((c.e : ℂ)) ^ 2 * (mb z2.2 (p 1) z0.1) * (mb z3.2 (p 1) z0.1)) * i25 + ((-2) * ((c.MW : ℂ)) * ((c.e : ℂ)) ^ 2 * ((c.CW : ℂ)⁻¹) * (mb z1.2 (p 2) z0.1) * (sb z1.2 z3.2) + (2) * ((c.e : ℂ)) ^ 2 * (mb z1.2 (p 2) z1.1) * (mb z3.2 (p 1) z0.1)) * i26 + ((2) * ((c.MW : ℂ)) * ((c.e : ℂ)) ^ 2 * ((c.CW : ℂ)⁻¹) * (ab z1.1 z3.1) * (mb z3.2 (p 1) z0.1) + (2) * ((c.MW : ℂ)) * ((c.e : ℂ)) ^ 2 * (mb z3.2 (p 1) z0.1) * (sb z1.2 z3.2) + (-2) * ((c.e : ℂ)) ^ 2 * (N.c 0) * (ab z0.1 z3.1) * (sb z1.2 z3.2) + (-2) * ((c.e : ℂ)) ^ 2 * (ab z0.1 z3.1) * (mb z3.2 (p 1) z0.1) * (sb z0.2 z1.2) + (-2) * ((c.e : ℂ)) ^ 2 * (mb z1.2 (p 2) z0.1) * (mb z3.2 (p 1) z3.1)) * i27 + ((-2) * ((c.MW : ℂ)) * ((c.e : ℂ)) ^ 2 * ((c.CW : ℂ)⁻¹) * (mb z1.2 (p 2) z0.1) * (sb z1.2 z2.2)) * i28)) * ((1) * ((c.CW : ℂ)) ^ 2 * ((c.MW : ℂ)⁻¹) ^ 3 * ((c.SW : ℂ)⁻¹) * ((N.c 1)⁻¹)) + ((2) * ((c.e : ℂ)) ^ 2 * ((c.CW : ℂ)⁻¹) * ((c.SW : ℂ)⁻¹) * ((N.c 1)⁻¹) * (ab z0.1 z2.1) * (ab z0.1 z3.1) * (sb z1.2 z2.2) * (sb z1.2 z3.2)) * hcs + ((2) * ((c.CW : ℂ)) * ((c.e : ℂ)) ^ 2 * ((c.CW : ℂ)⁻¹) * ((c.SW : ℂ)⁻¹) * ((N.c 1)⁻¹) * (ab z0.1 z1.1) * (ab z0.1 z2.1) * (sb z1.2 z3.2) * (sb z2.2 z3.2) + (-2) * ((c.CW : ℂ)) * ((c.e : ℂ)) ^ 2 * ((c.CW : ℂ)⁻¹) * ((c.SW : ℂ)⁻¹) * ((N.c 1)⁻¹) * (ab z0.1 z1.1) * (ab z0.1 z3.1) * (sb z1.2 z2.2) * (sb z2.2 z3.2) + (-1) * ((c.CW : ℂ)) ^ 2 * ((c.MW : ℂ)) * (((√2 : ℝ) : ℂ)) ^ 2 * ((c.e : ℂ)) ^ 2 * ((c.MW : ℂ)⁻¹) ^ 3 * ((c.SW : ℂ)⁻¹) * (ab z0.1 z2.1) ^ 2 * (ab z1.1 z3.1) * (sb z1.2 z3.2) / (2) + (-1) * ((c.CW : ℂ)) ^ 2 * (((√2 : ℝ) : ℂ)) ^ 2 * ((c.e : ℂ)) ^ 2 * ((c.MW : ℂ)⁻¹) ^ 3 * ((c.SW : ℂ)⁻¹) * (ab z0.1 z1.1) * (ab z0.1 z2.1) * (ab z0.1 z3.1) * (sb z0.2 z1.2) * (sb z2.2 z3.2) + (-1) * ((c.CW : ℂ)) ^ 2 * (((√2 : ℝ) : ℂ)) ^ 2 * ((c.e : ℂ)) ^ 2 * ((c.MW : ℂ)⁻¹) ^ 3 * ((c.SW : ℂ)⁻¹) * (ab z0.1 z1.1) * (ab z0.1 z2.1) * (mb z3.2 (p 1) z3.1) * (sb z1.2 z2.2) + (-1) * ((c.CW : ℂ)) ^ 2 * (((√2 : ℝ) : ℂ)) ^ 2 * ((c.e : ℂ)) ^ 2 * ((c.MW : ℂ)⁻¹) ^ 3 * ((c.SW : ℂ)⁻¹) * (ab z0.1 z2.1) * (ab z0.1 z3.1) * (mb z1.2 (p 2) z1.1) * (sb z2.2 z3.2) + (-1) * ((c.CW : ℂ)) ^ 2 * (((√2 : ℝ) : ℂ)) ^ 2 * ((c.e : ℂ)) ^ 2 * ((c.MW : ℂ)⁻¹) ^ 3 * ((c.SW : ℂ)⁻¹) * (ab z0.1 z2.1) * (ab z1.1 z3.1) * (mb z2.2 (p 1) z0.1) * (sb z1.2 z3.2) + (-2) * ((c.CW : ℂ)) ^ 2 * ((c.e : ℂ)) ^ 2 * ((c.CW : ℂ)⁻¹) * ((c.SW : ℂ)⁻¹) * ((N.c 1)⁻¹) * (ab z0.1 z1.1) ^ 2 * (sb z2.2 z3.2) ^ 2 + (-2) * ((c.CW : ℂ)) ^ 2 * ((c.e : ℂ)) ^ 2 * ((c.CW : ℂ)⁻¹) * ((c.SW : ℂ)⁻¹) * ((N.c 1)⁻¹) * (ab z0.1 z2.1) * (ab z0.1 z3.1) * (sb z1.2 z2.2) * (sb z1.2 z3.2) + (-2) * ((c.CW : ℂ)) ^ 2 * ((c.e : ℂ)) ^ 2 * ((c.CW : ℂ)⁻¹) * ((c.SW : ℂ)⁻¹) * ((N.c 1)⁻¹) * (ab z0.1 z2.1) ^ 2 * (sb z1.2 z3.2) ^ 2 + (-2) * ((c.CW : ℂ)) ^ 2 * ((c.e : ℂ)) ^ 2 * ((c.CW : ℂ)⁻¹) * ((c.SW : ℂ)⁻¹) * ((N.c 1)⁻¹) * (ab z0.1 z3.1) ^ 2 * (sb z1.2 z2.2) ^ 2 + (2) * ((c.SW : ℂ)) ^ 2 * ((c.e : ℂ)) ^ 2 * ((c.CW : ℂ)⁻¹) * ((c.SW : ℂ)⁻¹) * ((N.c 1)⁻¹) * (ab z0.1 z2.1) * (ab z0.1 z3.1) * (sb z1.2 z2.2) * (sb z1.2 z3.2)) * y0 + ((1) * ((c.CW : ℂ)) ^ 2 * ((c.MW : ℂ)) * ((c.e : ℂ)) ^ 2 * ((c.MW : ℂ)⁻¹) ^ 3 * ((c.SW : ℂ)⁻¹) * (ab z0.1 z3.1) ^ 2 * (ab z1.1 z2.1) * (sb z1.2 z2.2) + (2) * ((c.CW : ℂ)) ^ 2 * ((c.e : ℂ)) ^ 2 * ((c.MW : ℂ)⁻¹) ^ 3 * ((c.SW : ℂ)⁻¹) * (ab z0.1 z1.1) * (ab z0.1 z2.1) * (ab z0.1 z3.1) * (sb z0.2 z1.2) * (sb z2.2 z3.2) + (2) * ((c.CW : ℂ)) ^ 2 * ((c.e : ℂ)) ^ 2 * ((c.MW : ℂ)⁻¹) ^ 3 * ((c.SW : ℂ)⁻¹) * (ab z0.1 z1.1) * (ab z0.1 z2.1) * (mb z3.2 (p 1) z3.1) * (sb z1.2 z2.2) + (-2) * ((c.CW : ℂ)) ^ 2 * ((c.e : ℂ)) ^ 2 * ((c.MW : ℂ)⁻¹) ^ 3 * ((c.SW : ℂ)⁻¹) * (ab z0.1 z1.1) * (ab z2.1 z3.1) * (mb z1.2 (p 2) z0.1) * (sb z2.2 z3.2) + (2) * ((c.CW : ℂ)) ^ 2 * ((c.e : ℂ)) ^ 2 * ((c.MW : ℂ)⁻¹) ^ 3 * ((c.SW : ℂ)⁻¹) * (ab z0.1 z2.1) * (ab z0.1 z3.1) * (mb z1.2 (p 2) z1.1) * (sb z2.2 z3.2) + (2) * ((c.CW : ℂ)) ^ 2 * ((c.e : ℂ)) ^ 2 * ((c.MW : ℂ)⁻¹) ^ 3 * ((c.SW : ℂ)⁻¹) * (ab z0.1 z2.1) * (ab z1.1 z3.1) * (mb z2.2 (p 1) z0.1) * (sb z1.2 z3.2) + (1) * ((c.CW : ℂ)) ^ 2 * ((c.e : ℂ)) ^ 2 * ((c.MW : ℂ)⁻¹) ^ 3 * ((c.SW : ℂ)⁻¹) * (ab z0.1 z3.1) * (ab z1.1 z2.1) * (mb z3.2 (p 1) z0.1) * (sb z1.2 z2.2)) * y1 + ((-2) * ((c.CW : ℂ)) * ((c.MW : ℂ)) ^ 3 * ((c.e : ℂ)) ^ 2 * ((c.CW : ℂ)⁻¹) * ((c.MW : ℂ)⁻¹) ^ 3 * ((c.SW : ℂ)⁻¹) * ((N.c 1)⁻¹) * (ab z0.1 z1.1) * (ab z0.1 z2.1) * (sb z1.2 z3.2) * (sb z2.2 z3.2) + (2) * ((c.CW : ℂ)) * ((c.MW : ℂ)) ^ 3 * ((c.e : ℂ)) ^ 2 * ((c.CW : ℂ)⁻¹) * ((c.MW : ℂ)⁻¹) ^ 3 * ((c.SW : ℂ)⁻¹) * ((N.c 1)⁻¹) * (ab z0.1 z1.1) * (ab z0.1 z3.1) * (sb z1.2 z2.2) * (sb z2.2 z3.2) + (-2) * ((c.CW : ℂ)) * ((c.MW : ℂ)) ^ 3 * ((c.e : ℂ)) ^ 2 * ((c.CW : ℂ)⁻¹) ^ 2 * ((c.MW : ℂ)⁻¹) ^ 3 * ((c.SW : ℂ)⁻¹) * ((N.c 1)⁻¹) * (ab z0.1 z2.1) * (ab z0.1 z3.1) * (sb z1.2 z2.2) * (sb z1.2 z3.2) + (2) * ((c.CW : ℂ)) * ((c.MW : ℂ)) ^ 3 * ((c.e : ℂ)) ^ 2 * ((c.MW : ℂ)⁻¹) ^ 3 * ((c.SW : ℂ)⁻¹) * ((N.c 1)⁻¹) * (ab z0.1 z1.1) ^ 2 * (sb z2.2 z3.2) ^ 2 + (4) * ((c.CW : ℂ)) * ((c.MW : ℂ)) ^ 3 * ((c.e : ℂ)) ^ 2 * ((c.MW : ℂ)⁻¹) ^ 3 * ((c.SW : ℂ)⁻¹) * ((N.c 1)⁻¹) * (ab z0.1 z2.1) * (ab z0.1 z3.1) * (sb z1.2 z2.2) * (sb z1.2 z3.2) + (2) * ((c.CW : ℂ)) * ((c.MW : ℂ)) ^ 3 * ((c.e : ℂ)) ^ 2 * ((c.MW : ℂ)⁻¹) ^ 3 * ((c.SW : ℂ)⁻¹) * ((N.c 1)⁻¹) * (ab z0.1 z2.1) ^ 2 * (sb z1.2 z3.2) ^ 2 + (2) * ((c.CW : ℂ)) * ((c.MW : ℂ)) ^ 3 * ((c.e : ℂ)) ^ 2 * ((c.MW : ℂ)⁻¹) ^ 3 * ((c.SW : ℂ)⁻¹) * ((N.c 1)⁻¹) * (ab z0.1 z3.1) ^ 2 * (sb z1.2 z2.2) ^ 2 + (-2) * ((c.CW : ℂ)) * ((c.e : ℂ)) ^ 2 * ((c.SW : ℂ)⁻¹) * ((N.c 1)⁻¹) * (ab z0.1 z1.1) ^ 2 * (sb z2.2 z3.2) ^ 2 + (-4) * ((c.CW : ℂ)) * ((c.e : ℂ)) ^ 2 * ((c.SW : ℂ)⁻¹) * ((N.c 1)⁻¹) * (ab z0.1 z2.1) * (ab z0.1 z3.1) * (sb z1.2 z2.2) * (sb z1.2 z3.2) + (-2) * ((c.CW : ℂ)) * ((c.e : ℂ)) ^ 2 * ((c.SW : ℂ)⁻¹) * ((N.c 1)⁻¹) * (ab z0.1 z2.1) ^ 2 * (sb z1.2 z3.2) ^ 2 + (-2) * ((c.CW : ℂ)) * ((c.e : ℂ)) ^ 2 * ((c.SW : ℂ)⁻¹) * ((N.c 1)⁻¹) * (ab z0.1 z3.1) ^ 2 * (sb z1.2 z2.2) ^ 2 + (-2) * ((c.MW : ℂ)) ^ 3 * ((c.e : ℂ)) ^ 2 * ((c.CW : ℂ)⁻¹) * ((c.MW : ℂ)⁻¹) ^ 3 * ((c.SW : ℂ)⁻¹) * ((N.c 1)⁻¹) * (ab z0.1 z2.1) * (ab z0.1 z3.1) * (sb z1.2 z2.2) * (sb z1.2 z3.2) + (-2) * ((c.MW : ℂ)) ^ 3 * ((c.e : ℂ)) ^ 2 * ((c.MW : ℂ)⁻¹) ^ 3 * ((c.SW : ℂ)⁻¹) * ((N.c 1)⁻¹) * (ab z0.1 z1.1) * (ab z0.1 z2.1) * (sb z1.2 z3.2) * (sb z2.2 z3.2) + (2) * ((c.MW : ℂ)) ^ 3 * ((c.e : ℂ)) ^ 2 * ((c.MW : ℂ)⁻¹) ^ 3 * ((c.SW : ℂ)⁻¹) * ((N.c 1)⁻¹) * (ab z0.1 z1.1) * (ab z0.1 z3.1) * (sb z1.2 z2.2) * (sb z2.2 z3.2) + (2) * ((c.e : ℂ)) ^ 2 * ((c.SW : ℂ)⁻¹) * ((N.c 1)⁻¹) * (ab z0.1 z1.1) * (ab z0.1 z2.1) * (sb z1.2 z3.2) * (sb z2.2 z3.2) + (-2) * ((c.e : ℂ)) ^ 2 * ((c.SW : ℂ)⁻¹) * ((N.c 1)⁻¹) * (ab z0.1 z1.1) * (ab z0.1 z3.1) * (sb z1.2 z2.2) * (sb z2.2 z3.2)) * yCW + ((2) * ((c.CW : ℂ)) * ((c.MW : ℂ)) * ((c.e : ℂ)) ^ 2 * ((c.MW : ℂ)⁻¹) * ((c.SW : ℂ)⁻¹) * ((N.c 1)⁻¹) * (ab z0.1 z1.1) ^ 2 * (sb z2.2 z3.2) ^ 2 + (4) * ((c.CW : ℂ)) * ((c.MW : ℂ)) * ((c.e : ℂ)) ^ 2 * ((c.MW : ℂ)⁻¹) * ((c.SW : ℂ)⁻¹) * ((N.c 1)⁻¹) * (ab z0.1 z2.1) * (ab z0.1 z3.1) * (sb z1.2 z2.2) * (sb z1.2 z3.2) + (2) * ((c.CW : ℂ)) * ((c.MW : ℂ)) * ((c.e : ℂ)) ^ 2 * ((c.MW : ℂ)⁻¹) * ((c.SW : ℂ)⁻¹) * ((N.c 1)⁻¹) * (ab z0.1 z2.1) ^ 2 * (sb z1.2 z3.2) ^ 2 + (2) * ((c.CW : ℂ)) * ((c.MW : ℂ)) * ((c.e : ℂ)) ^ 2 * ((c.MW : ℂ)⁻¹) * ((c.SW : ℂ)⁻¹) * ((N.c 1)⁻¹) * (ab z0.1 z3.1) ^ 2 * (sb z1.2 z2.2) ^ 2 + (2) * ((c.CW : ℂ)) * ((c.MW : ℂ)) ^ 2 * ((c.e : ℂ)) ^ 2 * ((c.MW : ℂ)⁻¹) ^ 2 * ((c.SW : ℂ)⁻¹) * ((N.c 1)⁻¹) * (ab z0.1 z1.1) ^ 2 * (sb z2.2 z3.2) ^ 2 + (4) * ((c.CW : ℂ)) * ((c.MW : ℂ)) ^ 2 * ((c.e : ℂ)) ^ 2 * ((c.MW : ℂ)⁻¹) ^ 2 * ((c.SW : ℂ)⁻¹) * ((N.c 1)⁻¹) * (ab z0.1 z2.1) * (ab z0.1 z3.1) * (sb z1.2 z2.2) * (sb z1.2 z3.2) + (2) * ((c.CW : ℂ)) * ((c.MW : ℂ)) ^ 2 * ((c.e : ℂ)) ^ 2 * ((c.MW : ℂ)⁻¹) ^ 2 * ((c.SW : ℂ)⁻¹) * ((N.c 1)⁻¹) * (ab z0.1 z2.1) ^ 2 * (sb z1.2 z3.2) ^ 2 + (2) * ((c.CW : ℂ)) * ((c.MW : ℂ)) ^ 2 * ((c.e : ℂ)) ^ 2 * ((c.MW : ℂ)⁻¹) ^ 2 * ((c.SW : ℂ)⁻¹) * ((N.c 1)⁻¹) * (ab z0.1 z3.1) ^ 2 * (sb z1.2 z2.2) ^ 2 + (2) * ((c.CW : ℂ)) * ((c.e : ℂ)) ^ 2 * ((c.SW : ℂ)⁻¹) * ((N.c 1)⁻¹) * (ab z0.1 z1.1) ^ 2 * (sb z2.2 z3.2) ^ 2 + (4) * ((c.CW : ℂ)) * ((c.e : ℂ)) ^ 2 * ((c.SW : ℂ)⁻¹) * ((N.c 1)⁻¹) * (ab z0.1 z2.1) * (ab z0.1 z3.1) * (sb z1.2 z2.2) * (sb z1.2 z3.2) + (2) * ((c.CW : ℂ)) * ((c.e : ℂ)) ^ 2 * ((c.SW : ℂ)⁻¹) * ((N.c 1)⁻¹) * (ab z0.1 z2.1) ^ 2 * (sb z1.2 z3.2) ^ 2 + (2) * ((c.CW : ℂ)) * ((c.e : ℂ)) ^ 2 * ((c.SW : ℂ)⁻¹) * ((N.c 1)⁻¹) * (ab z0.1 z3.1) ^ 2 * (sb z1.2 z2.2) ^ 2 + (-1) * ((c.CW : ℂ)) ^ 2 * (((√2 : ℝ) : ℂ)) ^ 2 * ((c.e : ℂ)) ^ 2 * ((c.MW : ℂ)⁻¹) ^ 2 * ((c.SW : ℂ)⁻¹) * (N.c 0) * ((N.c 1)⁻¹) * (ab z0.1 z3.1) ^ 2 * (ab z1.1 z2.1) * (sb z1.2 z2.2) / (2) + (-1) * ((c.CW : ℂ)) ^ 2 * (((√2 : ℝ) : ℂ)) ^ 2 * ((c.e : ℂ)) ^ 2 * ((c.MW : ℂ)⁻¹) ^ 2 * ((c.SW : ℂ)⁻¹) * (ab z0.1 z3.1) ^ 2 * (ab z1.1 z2.1) * (sb z1.2 z2.2) / (2) + (1) * ((c.CW : ℂ)) ^ 2 * ((c.e : ℂ)) ^ 2 * ((c.MW : ℂ)⁻¹) ^ 2 * ((c.SW : ℂ)⁻¹) * (N.c 0) * ((N.c 1)⁻¹) * (ab z0.1 z3.1) ^ 2 * (ab z1.1 z2.1) * (sb z1.2 z2.2) + (1) * ((c.CW : ℂ)) ^ 2 * ((c.e : ℂ)) ^ 2 * ((c.MW : ℂ)⁻¹) ^ 2 * ((c.SW : ℂ)⁻¹) * (ab z0.1 z3.1) ^ 2 * (ab z1.1 z2.1) * (sb z1.2 z2.2) + (-2) * ((c.MW : ℂ)) * ((c.e : ℂ)) ^ 2 * ((c.CW : ℂ)⁻¹) * ((c.MW : ℂ)⁻¹) * ((c.SW : ℂ)⁻¹) * ((N.c 1)⁻¹) * (ab z0.1 z2.1) * (ab z0.1 z3.1) * (sb z1.2 z2.2) * (sb z1.2 z3.2) + (-2) * ((c.MW : ℂ)) * ((c.e : ℂ)) ^ 2 * ((c.MW : ℂ)⁻¹) * ((c.SW : ℂ)⁻¹) * ((N.c 1)⁻¹) * (ab z0.1 z1.1) * (ab z0.1 z2.1) * (sb z1.2 z3.2) * (sb z2.2 z3.2) + (2) * ((c.MW : ℂ)) * ((c.e : ℂ)) ^ 2 * ((c.MW : ℂ)⁻¹) * ((c.SW : ℂ)⁻¹) * ((N.c 1)⁻¹) * (ab z0.1 z1.1) * (ab z0.1 z3.1) * (sb z1.2 z2.2) * (sb z2.2 z3.2) + (-2) * ((c.MW : ℂ)) ^ 2 * ((c.e : ℂ)) ^ 2 * ((c.CW : ℂ)⁻¹) * ((c.MW : ℂ)⁻¹) ^ 2 * ((c.SW : ℂ)⁻¹) * ((N.c 1)⁻¹) * (ab z0.1 z2.1) * (ab z0.1 z3.1) * (sb z1.2 z2.2) * (sb z1.2 z3.2) + (-2) * ((c.MW : ℂ)) ^ 2 * ((c.e : ℂ)) ^ 2 * ((c.MW : ℂ)⁻¹) ^ 2 * ((c.SW : ℂ)⁻¹) * ((N.c 1)⁻¹) * (ab z0.1 z1.1) * (ab z0.1 z2.1) * (sb z1.2 z3.2) * (sb z2.2 z3.2) + (2) * ((c.MW : ℂ)) ^ 2 * ((c.e : ℂ)) ^ 2 * ((c.MW : ℂ)⁻¹) ^ 2 * ((c.SW : ℂ)⁻¹) * ((N.c 1)⁻¹) * (ab z0.1 z1.1) * (ab z0.1 z3.1) * (sb z1.2 z2.2) * (sb z2.2 z3.2) + (-2) * ((c.e : ℂ)) ^ 2 * ((c.CW : ℂ)⁻¹) * ((c.SW : ℂ)⁻¹) * ((N.c 1)⁻¹) * (ab z0.1 z2.1) * (ab z0.1 z3.1) * (sb z1.2 z2.2) * (sb z1.2 z3.2) + (-2) * ((c.e : ℂ)) ^ 2 * ((c.SW : ℂ)⁻¹) * ((N.c 1)⁻¹) * (ab z0.1 z1.1) * (ab z0.1 z2.1) * (sb z1.2 z3.2) * (sb z2.2 z3.2) + (2) * ((c.e : ℂ)) ^ 2 * ((c.SW : ℂ)⁻¹) * ((N.c 1)⁻¹) * (ab z0.1 z1.1) * (ab z0.1 z3.1) * (sb z1.2 z2.2) * (sb z2.2 z3.2)) * yMW + ((-1) * ((c.CW : ℂ)) ^ 2 * ((c.e : ℂ)) ^ 2 * ((c.MW : ℂ)⁻¹) ^ 2 * ((c.SW : ℂ)⁻¹) * (N.c 0) * ((N.c 1)⁻¹) * (ab z0.1 z3.1) ^ 2 * (ab z1.1 z2.1) * (sb z1.2 z2.2) / (2) + (-1) * ((c.CW : ℂ)) ^ 2 * ((c.e : ℂ)) ^ 2 * ((c.MW : ℂ)⁻¹) ^ 2 * ((c.SW : ℂ)⁻¹) * (ab z0.1 z3.1) ^ 2 * (ab z1.1 z2.1) * (sb z1.2 z2.2) / (2) + (-1) * ((c.CW : ℂ)) ^ 2 * ((c.e : ℂ)) ^ 2 * ((c.MW : ℂ)⁻¹) ^ 3 * ((c.SW : ℂ)⁻¹) * (N.c 0) * ((N.c 1)⁻¹) * (ab z0.1 z1.1) * (ab z0.1 z3.1) * (mb z2.2 (p 1) z2.1) * (sb z1.2 z3.2) + (-1) * ((c.CW : ℂ)) ^ 2 * ((c.e : ℂ)) ^ 2 * ((c.MW : ℂ)⁻¹) ^ 3 * ((c.SW : ℂ)⁻¹) * (N.c 0) * ((N.c 1)⁻¹) * (ab z0.1 z2.1) * (ab z0.1 z3.1) * (mb z1.2 (p 2) z1.1) * (sb z2.2 z3.2) + (-1) * ((c.CW : ℂ)) ^ 2 * ((c.e : ℂ)) ^ 2 * ((c.MW : ℂ)⁻¹) ^ 3 * ((c.SW : ℂ)⁻¹) * (N.c 0) * ((N.c 1)⁻¹) * (ab z0.1 z3.1) * (ab z1.1 z2.1) * (mb z3.2 (p 1) z0.1) * (sb z1.2 z2.2) + (-1) * ((c.CW : ℂ)) ^ 2 * ((c.e : ℂ)) ^ 2 * ((c.MW : ℂ)⁻¹) ^ 3 * ((c.SW : ℂ)⁻¹) * ((N.c 1)⁻¹) * (ab z0.1 z3.1) * (ab z1.1 z2.1) * (mb ρ0 (p 1) z0.1) * (sb z0.2 z3.2) * (sb z1.2 z2.2) / (2) + (1) * ((c.CW : ℂ)) ^ 2 * ((c.e : ℂ)) ^ 2 * ((c.MW : ℂ)⁻¹) ^ 3 * ((c.SW : ℂ)⁻¹) * ((N.c 1)⁻¹) * (ab z1.1 z2.1) * (mb z3.2 (p 1) z3.1) * (mb ρ0 (p 1) z0.1) * (sb z1.2 z2.2) + (-1) * ((c.CW : ℂ)) ^ 2 * ((c.e : ℂ)) ^ 2 * ((c.MW : ℂ)⁻¹) ^ 3 * ((c.SW : ℂ)⁻¹) * ((N.c 1)⁻¹) * (ab z1.1 z3.1) * (mb z2.2 (p 1) z2.1) * (mb ρ0 (p 1) z0.1) * (sb z1.2 z3.2) + (-1) * ((c.CW : ℂ)) ^ 2 * ((c.e : ℂ)) ^ 2 * ((c.MW : ℂ)⁻¹) ^ 3 * ((c.SW : ℂ)⁻¹) * ((N.c 1)⁻¹) * (ab z2.1 z3.1) * (mb z1.2 (p 2) z1.1) * (mb ρ0 (p 1) z0.1) * (sb z2.2 z3.2) + (-1) * ((c.CW : ℂ)) ^ 2 * ((c.e : ℂ)) ^ 2 * ((c.MW : ℂ)⁻¹) ^ 3 * ((c.SW : ℂ)⁻¹) * (ab z0.1 z1.1) * (ab z0.1 z2.1) * (ab z0.1 z3.1) * (sb z0.2 z1.2) * (sb z2.2 z3.2) + (-1) * ((c.CW : ℂ)) ^ 2 * ((c.e : ℂ)) ^ 2 * ((c.MW : ℂ)⁻¹) ^ 3 * ((c.SW : ℂ)⁻¹) * (ab z0.1 z1.1) * (ab z0.1 z2.1) * (mb z3.2 (p 1) z3.1) * (sb z1.2 z2.2) + (1) * ((c.CW : ℂ)) ^ 2 * ((c.e : ℂ)) ^ 2 * ((c.MW : ℂ)⁻¹) ^ 3 * ((c.SW : ℂ)⁻¹) * (ab z0.1 z1.1) * (ab z2.1 z3.1) * (mb z1.2 (p 2) z0.1) * (sb z2.2 z3.2) + (-1) * ((c.CW : ℂ)) ^ 2 * ((c.e : ℂ)) ^ 2 * ((c.MW : ℂ)⁻¹) ^ 3 * ((c.SW : ℂ)⁻¹) * (ab z0.1 z2.1) * (ab z0.1 z3.1) * (mb z1.2 (p 2) z1.1) * (sb z2.2 z3.2) + (-1) * ((c.CW : ℂ)) ^ 2 * ((c.e : ℂ)) ^ 2 * ((c.MW : ℂ)⁻¹) ^ 3 * ((c.SW : ℂ)⁻¹) * (ab z0.1 z2.1) * (ab z1.1 z3.1) * (mb z2.2 (p 1) z0.1) * (sb z1.2 z3.2) + (-1) * ((c.CW : ℂ)) ^ 2 * ((c.e : ℂ)) ^ 2 * ((c.MW : ℂ)⁻¹) ^ 3 * ((c.SW : ℂ)⁻¹) * (ab z0.1 z3.1) * (ab z1.1 z2.1) * (mb z3.2 (p 1) z0.1) * (sb z1.2 z2.2) / (2)) * x22
set_option maxRecDepth 8000 in
theorem AZWW.amp2_eq (N : Env) (f : Nat → List Int → ℂ) : Cls.AZWW.m_amp2.mean N f .r [] =
    ((sumW (fun x a => (sumV (fun x b => (sumV (fun x c => (sumV (fun x d => (x + (‖(f 0 [a, b, c, d])‖ ^ 2))) x)) x)) x)) ((0 : Nat) : ℝ)) / ((6 : Nat) : ℝ)) := by rfl
set_option maxRecDepth 8000 in
theorem AZWW.value (N : Env) : meaning N .r Cls.AZWW.methods Cls.AZWW.amp2 [] =
    ((sumW (fun x a => (sumV (fun x b => (sumV (fun x c => (sumV (fun x d => (x + (‖(Cls.AZWW.m_amp.mean N (callMean N []) .c [a, b, c, d])‖ ^ 2))) x)) x)) x)) ((0 : Nat) : ℝ)) / ((6 : Nat) : ℝ)) :=
  AZWW.amp2_eq N (callMean N [Cls.AZWW.m_amp])
theorem AZWW.termP_lin (N : Env) (w : ℝ) (x : ℂ) (a1 b1 a2 b2 a3 b3 : Int) : AZWW.termP N w x a1 b1 a2 b2 a3 b3 = x + (w : ℂ) * AZWW.termP N 1 0 a1 b1 a2 b2 a3 b3 := by
  simp only [AZWW.termP]; push_cast; ring
theorem AZWW.termM_lin (N : Env) (w : ℝ) (x : ℂ) (a1 b1 a2 b2 a3 b3 : Int) : AZWW.termM N w x a1 b1 a2 b2 a3 b3 = x + (w : ℂ) * AZWW.termM N 1 0 a1 b1 a2 b2 a3 b3 := by
  simp only [AZWW.termM]; push_cast; ring
set_option maxRecDepth 8000 in
theorem AZWW.ampP (N : Env) (f : Nat → List Int → ℂ) (t1 t2 t3 : Fin 3) : Cls.AZWW.m_amp.mean N f .c [2, spinV t1, spinV t2, spinV t3] = comb t1 (fun a1 b1 => comb t2 (fun a2 b2 => comb t3 (fun a3 b3 => AZWW.termP N 1 0 (spinOf a1) (spinOf b1) (spinOf a2) (spinOf b2) (spinOf a3) (spinOf b3)))) := by
  refine (amp_mean N f (m := 4) (K := 10) (G := fun i => if 0 < i 0 then AZWW.termP N 1 0 (i 4) (i 5) (i 6) (i 7) (i 8) (i 9) else if i 0 < 0 then AZWW.termM N 1 0 (i 4) (i 5) (i 6) (i 7) (i 8) (i 9) else 0) (fun l => ?_) (fun i i' h => ?_) rfl (by decide) (by decide) (by decide) (by decide) (by decide)).trans ?_
  · by_cases h : 0 < l.i 0
    · refine ⟨_, (if_pos (decide_eq_true h)).trans rfl, rfl, rfl, ?_⟩; rw [if_pos h]; exact AZWW.termP_lin ..
    · by_cases h' : l.i 0 < 0
      · refine ⟨_, (if_neg (fun e => h (of_decide_eq_true e))).trans ((if_pos (decide_eq_true h')).trans rfl), rfl, rfl, ?_⟩; rw [if_neg h, if_pos h']; exact AZWW.termM_lin ..
      · refine ⟨_, (if_neg (fun e => h (of_decide_eq_true e))).trans ((if_neg (fun e => h' (of_decide_eq_true e))).trans rfl), rfl, rfl, ?_⟩; rw [if_neg h, if_neg h', mul_zero, add_zero]
  · simp only [h 0 (by decide), h 4 (by decide), h 5 (by decide), h 6 (by decide), h 7 (by decide), h 8 (by decide), h 9 (by decide)]
  · show amp' _ [spinV t1, spinV t2, spinV t3] = _
    simp only [amp'_comb, amp'_nil]
    rfl
theorem AZWW.formP_x1 (N : Env) (p : Nat → V4 ℝ) (z0 y1 x2 y2 x3 y3 x y : Pair) : AZWW.formP N p z0 (x + y) y1 x2 y2 x3 y3 = AZWW.formP N p z0 x y1 x2 y2 x3 y3 + AZWW.formP N p z0 y y1 x2 y2 x3 y3 := by
  simp only [AZWW.formP, Prod.fst_add, Prod.snd_add, ab_add_left, ab_add_right, sb_add_left, sb_add_right, mb_add_left, mb_add_right]
  ring
theorem AZWW.formP_y1 (N : Env) (p : Nat → V4 ℝ) (z0 x1 x2 y2 x3 y3 x y : Pair) : AZWW.formP N p z0 x1 (x + y) x2 y2 x3 y3 = AZWW.formP N p z0 x1 x x2 y2 x3 y3 + AZWW.formP N p z0 x1 y x2 y2 x3 y3 := by
  simp only [AZWW.formP, Prod.fst_add, Prod.snd_add, ab_add_left, ab_add_right, sb_add_left, sb_add_right, mb_add_left, mb_add_right]
  ring
theorem AZWW.formP_x2 (N : Env) (p : Nat → V4 ℝ) (z0 x1 y1 y2 x3 y3 x y : Pair) : AZWW.formP N p z0 x1 y1 (x + y) y2 x3 y3 = AZWW.formP N p z0 x1 y1 x y2 x3 y3 + AZWW.formP N p z0 x1 y1 y y2 x3 y3 := by
  simp only [AZWW.formP, Prod.fst_add, Prod.snd_add, ab_add_left, ab_add_right, sb_add_left, sb_add_right, mb_add_left, mb_add_right]
  ring
theorem AZWW.formP_y2 (N : Env) (p : Nat → V4 ℝ) (z0 x1 y1 x2 x3 y3 x y : Pair) : AZWW.formP N p z0 x1 y1 x2 (x + y) x3 y3 = AZWW.formP N p z0 x1 y1 x2 x x3 y3 + AZWW.formP N p z0 x1 y1 x2 y x3 y3 := by
  simp only [AZWW.formP, Prod.fst_add, Prod.snd_add, ab_add_left, ab_add_right, sb_add_left, sb_add_right, mb_add_left, mb_add_right]
  ring
theorem AZWW.formP_x3 (N : Env) (p : Nat → V4 ℝ) (z0 x1 y1 x2 y2 y3 x y : Pair) : AZWW.formP N p z0 x1 y1 x2 y2 (x + y) y3 = AZWW.formP N p z0 x1 y1 x2 y2 x y3 + AZWW.formP N p z0 x1 y1 x2 y2 y y3 := by
  simp only [AZWW.formP, Prod.fst_add, Prod.snd_add, ab_add_left, ab_add_right, sb_add_left, sb_add_right, mb_add_left, mb_add_right]
  ring
theorem AZWW.formP_y3 (N : Env) (p : Nat → V4 ℝ) (z0 x1 y1 x2 y2 x3 x y : Pair) : AZWW.formP N p z0 x1 y1 x2 y2 x3 (x + y) = AZWW.formP N p z0 x1 y1 x2 y2 x3 x + AZWW.formP N p z0 x1 y1 x2 y2 x3 y := by
  simp only [AZWW.formP, Prod.fst_add, Prod.snd_add, ab_add_left, ab_add_right, sb_add_left, sb_add_right, mb_add_left, mb_add_right]
  ring
set_option maxRecDepth 8000 in
theorem AZWW.ampM (N : Env) (f : Nat → List Int → ℂ) (t1 t2 t3 : Fin 3) : Cls.AZWW.m_amp.mean N f .c [(-2), spinV t1, spinV t2, spinV t3] = comb t1 (fun a1 b1 => comb t2 (fun a2 b2 => comb t3 (fun a3 b3 => AZWW.termM N 1 0 (spinOf a1) (spinOf b1) (spinOf a2) (spinOf b2) (spinOf a3) (spinOf b3)))) := by
  refine (amp_mean N f (m := 4) (K := 10) (G := fun i => if 0 < i 0 then AZWW.termP N 1 0 (i 4) (i 5) (i 6) (i 7) (i 8) (i 9) else if i 0 < 0 then AZWW.termM N 1 0 (i 4) (i 5) (i 6) (i 7) (i 8) (i 9) else 0) (fun l => ?_) (fun i i' h => ?_) rfl (by decide) (by decide) (by decide) (by decide) (by decide)).trans ?_
  · by_cases h : 0 < l.i 0
    · refine ⟨_, (if_pos (decide_eq_true h)).trans rfl, rfl, rfl, ?_⟩; rw [if_pos h]; exact AZWW.termP_lin ..
    · by_cases h' : l.i 0 < 0
      · refine ⟨_, (if_neg (fun e => h (of_decide_eq_true e))).trans ((if_pos (decide_eq_true h')).trans rfl), rfl, rfl, ?_⟩; rw [if_neg h, if_pos h']; exact AZWW.termM_lin ..
      · refine ⟨_, (if_neg (fun e => h (of_decide_eq_true e))).trans ((if_neg (fun e => h' (of_decide_eq_true e))).trans rfl), rfl, rfl, ?_⟩; rw [if_neg h, if_neg h', mul_zero, add_zero]
  · simp only [h 0 (by decide), h 4 (by decide), h 5 (by decide), h 6 (by decide), h 7 (by decide), h 8 (by decide), h 9 (by decide)]
  · show amp' _ [spinV t1, spinV t2, spinV t3] = _
    simp only [amp'_comb, amp'_nil]
    rfl
theorem AZWW.formM_x1 (N : Env) (p : Nat → V4 ℝ) (z0 y1 x2 y2 x3 y3 x y : Pair) : AZWW.formM N p z0 (x + y) y1 x2 y2 x3 y3 = AZWW.formM N p z0 x y1 x2 y2 x3 y3 + AZWW.formM N p z0 y y1 x2 y2 x3 y3 := by
  simp only [AZWW.formM, Prod.fst_add, Prod.snd_add, ab_add_left, ab_add_right, sb_add_left, sb_add_right, mb_add_left, mb_add_right]
  ring
theorem AZWW.formM_y1 (N : Env) (p : Nat → V4 ℝ) (z0 x1 x2 y2 x3 y3 x y : Pair) : AZWW.formM N p z0 x1 (x + y) x2 y2 x3 y3 = AZWW.formM N p z0 x1 x x2 y2 x3 y3 + AZWW.formM N p z0 x1 y x2 y2 x3 y3 := by
  simp only [AZWW.formM, Prod.fst_add, Prod.snd_add, ab_add_left, ab_add_right, sb_add_left, sb_add_right, mb_add_left, mb_add_right]
  ring
theorem AZWW.formM_x2 (N : Env) (p : Nat → V4 ℝ) (z0 x1 y1 y2 x3 y3 x y : Pair) : AZWW.formM N p z0 x1 y1 (x + y) y2 x3 y3 = AZWW.formM N p z0 x1 y1 x y2 x3 y3 + AZWW.formM N p z0 x1 y1 y y2 x3 y3 := by
  simp only [AZWW.formM, Prod.fst_add, Prod.snd_add, ab_add_left, ab_add_right, sb_add_left, sb_add_right, mb_add_left, mb_add_right]
  ring
theorem AZWW.formM_y2 (N : Env) (p : Nat → V4 ℝ) (z0 x1 y1 x2 x3 y3 x y : Pair) : AZWW.formM N p z0 x1 y1 x2 (x + y) x3 y3 = AZWW.formM N p z0 x1 y1 x2 x x3 y3 + AZWW.formM N p z0 x1 y1 x2 y x3 y3 := by
  simp only [AZWW.formM, Prod.fst_add, Prod.snd_add, ab_add_left, ab_add_right, sb_add_left, sb_add_right, mb_add_left, mb_add_right]
  ring
theorem AZWW.formM_x3 (N : Env) (p : Nat → V4 ℝ) (z0 x1 y1 x2 y2 y3 x y : Pair) : AZWW.formM N p z0 x1 y1 x2 y2 (x + y) y3 = AZWW.formM N p z0 x1 y1 x2 y2 x y3 + AZWW.formM N p z0 x1 y1 x2 y2 y y3 := by
  simp only [AZWW.formM, Prod.fst_add, Prod.snd_add, ab_add_left, ab_add_right, sb_add_left, sb_add_right, mb_add_left, mb_add_right]
  ring
theorem AZWW.formM_y3 (N : Env) (p : Nat → V4 ℝ) (z0 x1 y1 x2 y2 x3 x y : Pair) : AZWW.formM N p z0 x1 y1 x2 y2 x3 (x + y) = AZWW.formM N p z0 x1 y1 x2 y2 x3 x + AZWW.formM N p z0 x1 y1 x2 y2 x3 y := by
  simp only [AZWW.formM, Prod.fst_add, Prod.snd_add, ab_add_left, ab_add_right, sb_add_left, sb_add_right, mb_add_left, mb_add_right]
  ring

theorem AZWW.mass_eq {c : Constants} (hc : c.Physical) (i : Fin 4) : AZWW.proc.massNum (AZWW.rho c) i = AZWW.react.mass c i := by
  fin_cases i <;> first | rfl | exact Nat.cast_zero | (show c.MW / √(((1 : Nat) : ℝ) - c.SW * c.SW) = c.MZ; rw [c.root, c.mz])

variable [FPEnv] in
theorem AZWW.amps {c : Constants} {p : Nat → V4 ℝ} {u : Fin 4 → Fin 3 → Spinor} {ε : Fin 4 → Fin 3 → Vec} (hc : c.Physical) (hh : c.Heavy) (hw : ∀ q ∈ AZWW.absent, c.get q = 0) (h0 : ∀ i, 0 ≤ AZWW.react.mass c i) (hs : ∀ i : Fin 4, OnShell (p i) (AZWW.react.mass c i)) (hb : Balanced p) (hr : AZWW.react.Regular c p) (hu : ∀ i, AZWW.react.Complete c p i (u i) (ε i)) :
    (AZWW.N c p).c 0 ≠ 0 ∧ (AZWW.N c p).c 1 ≠ 0 ∧ (∀ n, (Ty.r, n) ∈ AZWW.proc.divides → (AZWW.N c p).r n ≠ 0) ∧ (∀ n, (Ty.c, n) ∈ AZWW.proc.divides → (AZWW.N c p).c n ≠ 0) ∧ ∀ (h0 : Fin 2) (t1 t2 t3 : Fin 3), ‖Cls.AZWW.m_amp.mean (AZWW.N c p) (callMean (AZWW.N c p) []) .c [spinW h0, spinV t1, spinV t2, spinV t3]‖ = ‖AZWW.react.bare4 c p (lightE (legA (p 0) 0 0, legS (p 0) 0 1) h0.castSucc) (AZWW.react.codeVec c p 1 t1) (AZWW.react.codeVec c p 2 t2) (AZWW.react.codeVec c p 3 t3)‖ := by
  have he : AZWW.react.ends = [] := by decide
  have ht : AZWW.react.starts = [] := by decide
  have hB : AZWW.react.bosons = [0, 1, 2, 3] := by decide
  obtain ⟨f1, f2, f3⟩ := AZWW.react.regular_four he ht hB hr
  have hWW : c.WW = 0 := hw .WW (by simp [AZWW])
  have hG : AZWW.react.Gauge c p := AZWW.gauge hc.MW hWW hb (fun n => onShell_msq (hs n)) hr
  have r3 : (AZWW.N c p).r 3 = c.SW := rfl
  have r4 : (AZWW.N c p).r 4 = √((((1 : Nat) : ℝ) - (c.SW * c.SW))) := rfl
  simp only [c.root] at r4
  have r7 : (AZWW.N c p).r 7 = (((((2 : Nat) : ℝ) * c.e) * c.e) / (√((((1 : Nat) : ℝ) - (c.SW * c.SW))) * c.SW)) := rfl
  simp only [c.root] at r7
  have c0 : (AZWW.N c p).c 0 = poleDist c.MW c.WW ((VExp.sub 0 2).sum p) := rfl
  have d0 : pole c.MW c.WW (plus (p 0) (backward (p 2))) = (AZWW.N c p).c 0 := by rw [c0, pole_congr (msq_t hb (plus (p 0) (backward (p 2))) (by simp)).symm]
  have n0 : (AZWW.N c p).c 0 ≠ 0 := by rw [← d0]; exact star_ne_zero.2 (f2 .wMinus rfl rfl)
  rw [hWW, pole_fermion rfl] at c0
  have c1 : (AZWW.N c p).c 1 = poleDist c.MW c.WW ((VExp.sub 0 3).sum p) := rfl
  have d1 : pole c.MW c.WW (plus (p 0) (backward (p 3))) = (AZWW.N c p).c 1 := by rw [c1, pole_congr (msq_u hb (plus (p 0) (backward (p 3))) (by simp)).symm]
  have n1 : (AZWW.N c p).c 1 ≠ 0 := by rw [← d1]; exact star_ne_zero.2 (f3 .wPlus rfl rfl)
  rw [hWW, pole_fermion rfl] at c1
  obtain ⟨l0, x0, y0⟩ := AZWW.react.code_light hs hu (n := 0) rfl rfl
  have e02 := l0.pole_sub (m := c.MW) (onShell_msq (hs 2)) (msq_t hb (plus (p 0) (backward (p 2))) (by simp)) c0
  have e03 := l0.pole_sub (m := c.MW) (onShell_msq (hs 3)) (msq_u hb (plus (p 0) (backward (p 3))) (by simp)) c1
  have m1 : AZWW.react.mass c 1 ≠ 0 := (leg_pos hc hh (by decide)).ne'
  have m2 : AZWW.react.mass c 2 ≠ 0 := (leg_pos hc hh (by decide)).ne'
  have m3 : AZWW.react.mass c 3 ≠ 0 := (leg_pos hc hh (by decide)).ne'
  have m0 : AZWW.react.mass c 0 = 0 := rfl
  have g0 : ab (refPlus (p 2) (legA (p 0) 0 0, legS (p 0) 0 1)) (legA (p 0) 0 0) ≠ 0 := fun h => (neg_ne_zero.2 n0) (e02.symm.trans ((ab_ref ..).symm.trans h))
  have j0 : sb (refMinus (p 2) (legA (p 0) 0 0, legS (p 0) 0 1)) (legS (p 0) 0 1) ≠ 0 := fun h => (neg_ne_zero.2 n0) (e02.symm.trans ((sb_ref ..).symm.trans h))
  have hd : AZWW.proc.divides = [(Ty.c, 0), (Ty.c, 1)] := by decide +kernel
  have stP : ∀ (t1 t2 t3 : Fin 3), comb t1 (fun a1 b1 => comb t2 (fun a2 b2 => comb t3 (fun a3 b3 => AZWW.formP (AZWW.N c p) p (legA (p 0) 0 0, legS (p 0) 0 1) (AZWW.react.codePair c p 1 a1) (AZWW.react.codePair c p 1 b1) (AZWW.react.codePair c p 2 a2) (AZWW.react.codePair c p 2 b2) (AZWW.react.codePair c p 3 a3) (AZWW.react.codePair c p 3 b3)))) = 1 * AZWW.react.bare4 c p (lightE (legA (p 0) 0 0, legS (p 0) 0 1) 1) (AZWW.react.codeVec c p 1 t1) (AZWW.react.codeVec c p 2 t2) (AZWW.react.codeVec c p 3 t3) := by
    intro t1 t2 t3
    refine three_vectors (p₀ := p 1) (m₀ := AZWW.react.mass c 1) (p₁ := p 2) (m₁ := AZWW.react.mass c 2) (p₂ := p 3) (m₂ := AZWW.react.mass c 3) (fun s => AZWW.react.codePair_bold hs h0 1 s) (fun s => AZWW.react.codePair_bold hs h0 2 s) (fun s => AZWW.react.codePair_bold hs h0 3 s) (B := fun w0 w0b w1 w1b w2 w2b => AZWW.formP (AZWW.N c p) p (legA (p 0) 0 0, legS (p 0) 0 1) w0 w0b w1 w1b w2 w2b) (fun _ _ _ _ _ _ _ => ?_) (fun _ _ _ _ _ _ _ => ?_) (fun _ _ _ _ _ _ _ => ?_) (fun _ _ _ _ _ _ _ => ?_) (fun _ _ _ _ _ _ _ => ?_) (fun _ _ _ _ _ _ _ => ?_) (G := fun E F G => AZWW.react.bare4 c p (lightE (legA (p 0) 0 0, legS (p 0) 0 1) 1) E F G) (fun _ _ => AZWW.react.bare4_lin₁ c p (by decide) _ _ _) (fun _ _ => AZWW.react.bare4_lin₂ c p (by decide) _ _ _) (fun _ _ => AZWW.react.bare4_lin₃ c p (by decide) _ _ _) 1 (fun z1 z2 z3 b1 b2 b3 => ?_) t1 t2 t3
    · exact AZWW.formP_x1 ..
    · exact AZWW.formP_y1 ..
    · exact AZWW.formP_x2 ..
    · exact AZWW.formP_y2 ..
    · exact AZWW.formP_x3 ..
    · exact AZWW.formP_y3 ..
    · have k0 := AZWW.keyP hc hb r3 r4 r7 d0 n0 d1 n1 b1 b2 b3 l0 e02 e03 (onShell_msq (hs 1)) (onShell_msq (hs 2)) (onShell_msq (hs 3)) (ab_ref (p 2) (legA (p 0) 0 0, legS (p 0) 0 1))
      have w0 : AZWW.react.bare4 c p (four (p 0)) (pv z1.1 z1.2) (pv z2.1 z2.2) (pv z3.1 z3.2) = 0 := by
        refine AZWW.react.bare4_gauge he ht hB hG (n := 0) rfl rfl ![four (p 0), (pv z1.1 z1.2), (pv z2.1 z2.2), (pv z3.1 z3.2)] (fun m hm x hl hx => ?_) rfl
        fin_cases m
        · exact absurd rfl hm
        · exact pv_transverse b1.mb_zero'
        · exact pv_transverse b2.mb_zero'
        · exact pv_transverse b3.mb_zero'
      have k1 := light_plus_ref (z := (legA (p 0) 0 0, legS (p 0) 0 1)) (G := fun E => AZWW.react.bare4 c p E (pv z1.1 z1.2) (pv z2.1 z2.2) (pv z3.1 z3.2)) l0 (AZWW.react.bare4_lin₀ c p (by decide) _ _ _) w0 x0 g0 k0
      exact k1.trans (mul_assoc _ _ _)
  have stM : ∀ (t1 t2 t3 : Fin 3), comb t1 (fun a1 b1 => comb t2 (fun a2 b2 => comb t3 (fun a3 b3 => AZWW.formM (AZWW.N c p) p (legA (p 0) 0 0, legS (p 0) 0 1) (AZWW.react.codePair c p 1 a1) (AZWW.react.codePair c p 1 b1) (AZWW.react.codePair c p 2 a2) (AZWW.react.codePair c p 2 b2) (AZWW.react.codePair c p 3 a3) (AZWW.react.codePair c p 3 b3)))) = 1 * AZWW.react.bare4 c p (lightE (legA (p 0) 0 0, legS (p 0) 0 1) 0) (AZWW.react.codeVec c p 1 t1) (AZWW.react.codeVec c p 2 t2) (AZWW.react.codeVec c p 3 t3) := by
    intro t1 t2 t3
    refine three_vectors (p₀ := p 1) (m₀ := AZWW.react.mass c 1) (p₁ := p 2) (m₁ := AZWW.react.mass c 2) (p₂ := p 3) (m₂ := AZWW.react.mass c 3) (fun s => AZWW.react.codePair_bold hs h0 1 s) (fun s => AZWW.react.codePair_bold hs h0 2 s) (fun s => AZWW.react.codePair_bold hs h0 3 s) (B := fun w0 w0b w1 w1b w2 w2b => AZWW.formM (AZWW.N c p) p (legA (p 0) 0 0, legS (p 0) 0 1) w0 w0b w1 w1b w2 w2b) (fun _ _ _ _ _ _ _ => ?_) (fun _ _ _ _ _ _ _ => ?_) (fun _ _ _ _ _ _ _ => ?_) (fun _ _ _ _ _ _ _ => ?_) (fun _ _ _ _ _ _ _ => ?_) (fun _ _ _ _ _ _ _ => ?_) (G := fun E F G => AZWW.react.bare4 c p (lightE (legA (p 0) 0 0, legS (p 0) 0 1) 0) E F G) (fun _ _ => AZWW.react.bare4_lin₁ c p (by decide) _ _ _) (fun _ _ => AZWW.react.bare4_lin₂ c p (by decide) _ _ _) (fun _ _ => AZWW.react.bare4_lin₃ c p (by decide) _ _ _) 1 (fun z1 z2 z3 b1 b2 b3 => ?_) t1 t2 t3
    · exact AZWW.formM_x1 ..
    · exact AZWW.formM_y1 ..
    · exact AZWW.formM_x2 ..
    · exact AZWW.formM_y2 ..
    · exact AZWW.formM_x3 ..
    · exact AZWW.formM_y3 ..
    · have k0 := AZWW.keyM hc hb r3 r4 r7 d0 n0 d1 n1 b1 b2 b3 l0 e02 e03 (onShell_msq (hs 1)) (onShell_msq (hs 2)) (onShell_msq (hs 3)) (sb_ref (p 2) (legA (p 0) 0 0, legS (p 0) 0 1))
      have w0 : AZWW.react.bare4 c p (four (p 0)) (pv z1.1 z1.2) (pv z2.1 z2.2) (pv z3.1 z3.2) = 0 := by
        refine AZWW.react.bare4_gauge he ht hB hG (n := 0) rfl rfl ![four (p 0), (pv z1.1 z1.2), (pv z2.1 z2.2), (pv z3.1 z3.2)] (fun m hm x hl hx => ?_) rfl
        fin_cases m
        · exact absurd rfl hm
        · exact pv_transverse b1.mb_zero'
        · exact pv_transverse b2.mb_zero'
        · exact pv_transverse b3.mb_zero'
      have k1 := light_minus_ref (z := (legA (p 0) 0 0, legS (p 0) 0 1)) (G := fun E => AZWW.react.bare4 c p E (pv z1.1 z1.2) (pv z2.1 z2.2) (pv z3.1 z3.2)) l0 (AZWW.react.bare4_lin₀ c p (by decide) _ _ _) w0 y0 j0 k0
      exact k1.trans (mul_assoc _ _ _)
  have amP : ∀ (t1 t2 t3 : Fin 3), Cls.AZWW.m_amp.mean (AZWW.N c p) (callMean (AZWW.N c p) []) .c [2, spinV t1, spinV t2, spinV t3] = 1 * AZWW.react.bare4 c p (lightE (legA (p 0) 0 0, legS (p 0) 0 1) 1) (AZWW.react.codeVec c p 1 t1) (AZWW.react.codeVec c p 2 t2) (AZWW.react.codeVec c p 3 t3) := by
    intro t1 t2 t3
    rw [AZWW.ampP, ← stP t1 t2 t3]
    refine congrArg (comb t1) (funext fun a1 => funext fun b1 => ?_)
    refine congrArg (comb t2) (funext fun a2 => funext fun b2 => ?_)
    refine congrArg (comb t3) (funext fun a3 => funext fun b3 => ?_)
    have v0z0x1 : (AZWW.N c p).v 0 [spinOf a1] = sb (legA (p 0) 0 0, legS (p 0) 0 1).2 (AZWW.react.codePair c p 1 a1).2 := bra_square (p := p) (m := AZWW.proc.massNum (AZWW.rho c)) (AZWW.mass_eq hc 0) (AZWW.mass_eq hc 1) (.inr ⟨m0, rfl⟩) (.inl ⟨m1, rfl⟩)
    have v0z0y1 : (AZWW.N c p).v 0 [spinOf b1] = sb (legA (p 0) 0 0, legS (p 0) 0 1).2 (AZWW.react.codePair c p 1 b1).2 := bra_square (p := p) (m := AZWW.proc.massNum (AZWW.rho c)) (AZWW.mass_eq hc 0) (AZWW.mass_eq hc 1) (.inr ⟨m0, rfl⟩) (.inl ⟨m1, rfl⟩)
    have v6x2x3 : (AZWW.N c p).v 6 [spinOf a2, spinOf a3] = ab (AZWW.react.codePair c p 2 a2).1 (AZWW.react.codePair c p 3 a3).1 := bra_angle (p := p) (m := AZWW.proc.massNum (AZWW.rho c)) (AZWW.mass_eq hc 2) (AZWW.mass_eq hc 3) (.inl ⟨m2, rfl⟩) (.inl ⟨m3, rfl⟩)
    have v6y2y3 : (AZWW.N c p).v 6 [spinOf b2, spinOf b3] = ab (AZWW.react.codePair c p 2 b2).1 (AZWW.react.codePair c p 3 b3).1 := bra_angle (p := p) (m := AZWW.proc.massNum (AZWW.rho c)) (AZWW.mass_eq hc 2) (AZWW.mass_eq hc 3) (.inl ⟨m2, rfl⟩) (.inl ⟨m3, rfl⟩)
    have v11z0x2 : (AZWW.N c p).v 11 [spinOf a2] = sb (legA (p 0) 0 0, legS (p 0) 0 1).2 (AZWW.react.codePair c p 2 a2).2 := bra_square (p := p) (m := AZWW.proc.massNum (AZWW.rho c)) (AZWW.mass_eq hc 0) (AZWW.mass_eq hc 2) (.inr ⟨m0, rfl⟩) (.inl ⟨m2, rfl⟩)
    have v11z0y2 : (AZWW.N c p).v 11 [spinOf b2] = sb (legA (p 0) 0 0, legS (p 0) 0 1).2 (AZWW.react.codePair c p 2 b2).2 := bra_square (p := p) (m := AZWW.proc.massNum (AZWW.rho c)) (AZWW.mass_eq hc 0) (AZWW.mass_eq hc 2) (.inr ⟨m0, rfl⟩) (.inl ⟨m2, rfl⟩)
    have v3x1x3 : (AZWW.N c p).v 3 [spinOf a1, spinOf a3] = ab (AZWW.react.codePair c p 1 a1).1 (AZWW.react.codePair c p 3 a3).1 := bra_angle (p := p) (m := AZWW.proc.massNum (AZWW.rho c)) (AZWW.mass_eq hc 1) (AZWW.mass_eq hc 3) (.inl ⟨m1, rfl⟩) (.inl ⟨m3, rfl⟩)
    have v3y1y3 : (AZWW.N c p).v 3 [spinOf b1, spinOf b3] = ab (AZWW.react.codePair c p 1 b1).1 (AZWW.react.codePair c p 3 b3).1 := bra_angle (p := p) (m := AZWW.proc.massNum (AZWW.rho c)) (AZWW.mass_eq hc 1) (AZWW.mass_eq hc 3) (.inl ⟨m1, rfl⟩) (.inl ⟨m3, rfl⟩)
    have v9z0x3 : (AZWW.N c p).v 9 [spinOf a3] = sb (legA (p 0) 0 0, legS (p 0) 0 1).2 (AZWW.react.codePair c p 3 a3).2 := bra_square (p := p) (m := AZWW.proc.massNum (AZWW.rho c)) (AZWW.mass_eq hc 0) (AZWW.mass_eq hc 3) (.inr ⟨m0, rfl⟩) (.inl ⟨m3, rfl⟩)
    have v9z0y3 : (AZWW.N c p).v 9 [spinOf b3] = sb (legA (p 0) 0 0, legS (p 0) 0 1).2 (AZWW.react.codePair c p 3 b3).2 := bra_square (p := p) (m := AZWW.proc.massNum (AZWW.rho c)) (AZWW.mass_eq hc 0) (AZWW.mass_eq hc 3) (.inr ⟨m0, rfl⟩) (.inl ⟨m3, rfl⟩)
    have v5x1x2 : (AZWW.N c p).v 5 [spinOf a1, spinOf a2] = ab (AZWW.react.codePair c p 1 a1).1 (AZWW.react.codePair c p 2 a2).1 := bra_angle (p := p) (m := AZWW.proc.massNum (AZWW.rho c)) (AZWW.mass_eq hc 1) (AZWW.mass_eq hc 2) (.inl ⟨m1, rfl⟩) (.inl ⟨m2, rfl⟩)
    have v5y1y2 : (AZWW.N c p).v 5 [spinOf b1, spinOf b2] = ab (AZWW.react.codePair c p 1 b1).1 (AZWW.react.codePair c p 2 b2).1 := bra_angle (p := p) (m := AZWW.proc.massNum (AZWW.rho c)) (AZWW.mass_eq hc 1) (AZWW.mass_eq hc 2) (.inl ⟨m1, rfl⟩) (.inl ⟨m2, rfl⟩)
    have v5x1y2 : (AZWW.N c p).v 5 [spinOf a1, spinOf b2] = ab (AZWW.react.codePair c p 1 a1).1 (AZWW.react.codePair c p 2 b2).1 := bra_angle (p := p) (m := AZWW.proc.massNum (AZWW.rho c)) (AZWW.mass_eq hc 1) (AZWW.mass_eq hc 2) (.inl ⟨m1, rfl⟩) (.inl ⟨m2, rfl⟩)
    have v3y1x3 : (AZWW.N c p).v 3 [spinOf b1, spinOf a3] = ab (AZWW.react.codePair c p 1 b1).1 (AZWW.react.codePair c p 3 a3).1 := bra_angle (p := p) (m := AZWW.proc.massNum (AZWW.rho c)) (AZWW.mass_eq hc 1) (AZWW.mass_eq hc 3) (.inl ⟨m1, rfl⟩) (.inl ⟨m3, rfl⟩)
    have v5y1x2 : (AZWW.N c p).v 5 [spinOf b1, spinOf a2] = ab (AZWW.react.codePair c p 1 b1).1 (AZWW.react.codePair c p 2 a2).1 := bra_angle (p := p) (m := AZWW.proc.massNum (AZWW.rho c)) (AZWW.mass_eq hc 1) (AZWW.mass_eq hc 2) (.inl ⟨m1, rfl⟩) (.inl ⟨m2, rfl⟩)
    simp only [AZWW.termP, AZWW.formP, v0z0x1, v0z0y1, v6x2x3, v6y2y3, v11z0x2, v11z0y2, v3x1x3, v3y1y3, v9z0x3, v9z0y3, v5x1x2, v5y1y2, v5x1y2, v3y1x3, v5y1x2]
    push_cast
    ring
  have amM : ∀ (t1 t2 t3 : Fin 3), Cls.AZWW.m_amp.mean (AZWW.N c p) (callMean (AZWW.N c p) []) .c [(-2), spinV t1, spinV t2, spinV t3] = 1 * AZWW.react.bare4 c p (lightE (legA (p 0) 0 0, legS (p 0) 0 1) 0) (AZWW.react.codeVec c p 1 t1) (AZWW.react.codeVec c p 2 t2) (AZWW.react.codeVec c p 3 t3) := by
    intro t1 t2 t3
    rw [AZWW.ampM, ← stM t1 t2 t3]
    refine congrArg (comb t1) (funext fun a1 => funext fun b1 => ?_)
    refine congrArg (comb t2) (funext fun a2 => funext fun b2 => ?_)
    refine congrArg (comb t3) (funext fun a3 => funext fun b3 => ?_)
    have v1z0x1 : (AZWW.N c p).v 1 [spinOf a1] = ab (legA (p 0) 0 0, legS (p 0) 0 1).1 (AZWW.react.codePair c p 1 a1).1 := bra_angle (p := p) (m := AZWW.proc.massNum (AZWW.rho c)) (AZWW.mass_eq hc 0) (AZWW.mass_eq hc 1) (.inr ⟨m0, rfl⟩) (.inl ⟨m1, rfl⟩)
    have v1z0y1 : (AZWW.N c p).v 1 [spinOf b1] = ab (legA (p 0) 0 0, legS (p 0) 0 1).1 (AZWW.react.codePair c p 1 b1).1 := bra_angle (p := p) (m := AZWW.proc.massNum (AZWW.rho c)) (AZWW.mass_eq hc 0) (AZWW.mass_eq hc 1) (.inr ⟨m0, rfl⟩) (.inl ⟨m1, rfl⟩)
    have v7x2x3 : (AZWW.N c p).v 7 [spinOf a2, spinOf a3] = sb (AZWW.react.codePair c p 2 a2).2 (AZWW.react.codePair c p 3 a3).2 := bra_square (p := p) (m := AZWW.proc.massNum (AZWW.rho c)) (AZWW.mass_eq hc 2) (AZWW.mass_eq hc 3) (.inl ⟨m2, rfl⟩) (.inl ⟨m3, rfl⟩)
    have v7y2y3 : (AZWW.N c p).v 7 [spinOf b2, spinOf b3] = sb (AZWW.react.codePair c p 2 b2).2 (AZWW.react.codePair c p 3 b3).2 := bra_square (p := p) (m := AZWW.proc.massNum (AZWW.rho c)) (AZWW.mass_eq hc 2) (AZWW.mass_eq hc 3) (.inl ⟨m2, rfl⟩) (.inl ⟨m3, rfl⟩)
    have v10z0x2 : (AZWW.N c p).v 10 [spinOf a2] = ab (legA (p 0) 0 0, legS (p 0) 0 1).1 (AZWW.react.codePair c p 2 a2).1 := bra_angle (p := p) (m := AZWW.proc.massNum (AZWW.rho c)) (AZWW.mass_eq hc 0) (AZWW.mass_eq hc 2) (.inr ⟨m0, rfl⟩) (.inl ⟨m2, rfl⟩)
    have v10z0y2 : (AZWW.N c p).v 10 [spinOf b2] = ab (legA (p 0) 0 0, legS (p 0) 0 1).1 (AZWW.react.codePair c p 2 b2).1 := bra_angle (p := p) (m := AZWW.proc.massNum (AZWW.rho c)) (AZWW.mass_eq hc 0) (AZWW.mass_eq hc 2) (.inr ⟨m0, rfl⟩) (.inl ⟨m2, rfl⟩)
    have v2x1x3 : (AZWW.N c p).v 2 [spinOf a1, spinOf a3] = sb (AZWW.react.codePair c p 1 a1).2 (AZWW.react.codePair c p 3 a3).2 := bra_square (p := p) (m := AZWW.proc.massNum (AZWW.rho c)) (AZWW.mass_eq hc 1) (AZWW.mass_eq hc 3) (.inl ⟨m1, rfl⟩) (.inl ⟨m3, rfl⟩)
    have v2y1y3 : (AZWW.N c p).v 2 [spinOf b1, spinOf b3] = sb (AZWW.react.codePair c p 1 b1).2 (AZWW.react.codePair c p 3 b3).2 := bra_square (p := p) (m := AZWW.proc.massNum (AZWW.rho c)) (AZWW.mass_eq hc 1) (AZWW.mass_eq hc 3) (.inl ⟨m1, rfl⟩) (.inl ⟨m3, rfl⟩)
    have v8z0x3 : (AZWW.N c p).v 8 [spinOf a3] = ab (legA (p 0) 0 0, legS (p 0) 0 1).1 (AZWW.react.codePair c p 3 a3).1 := bra_angle (p := p) (m := AZWW.proc.massNum (AZWW.rho c)) (AZWW.mass_eq hc 0) (AZWW.mass_eq hc 3) (.inr ⟨m0, rfl⟩) (.inl ⟨m3, rfl⟩)
    have v8z0y3 : (AZWW.N c p).v 8 [spinOf b3] = ab (legA (p 0) 0 0, legS (p 0) 0 1).1 (AZWW.react.codePair c p 3 b3).1 := bra_angle (p := p) (m := AZWW.proc.massNum (AZWW.rho c)) (AZWW.mass_eq hc 0) (AZWW.mass_eq hc 3) (.inr ⟨m0, rfl⟩) (.inl ⟨m3, rfl⟩)
    have v4x1x2 : (AZWW.N c p).v 4 [spinOf a1, spinOf a2] = sb (AZWW.react.codePair c p 1 a1).2 (AZWW.react.codePair c p 2 a2).2 := bra_square (p := p) (m := AZWW.proc.massNum (AZWW.rho c)) (AZWW.mass_eq hc 1) (AZWW.mass_eq hc 2) (.inl ⟨m1, rfl⟩) (.inl ⟨m2, rfl⟩)
    have v4y1y2 : (AZWW.N c p).v 4 [spinOf b1, spinOf b2] = sb (AZWW.react.codePair c p 1 b1).2 (AZWW.react.codePair c p 2 b2).2 := bra_square (p := p) (m := AZWW.proc.massNum (AZWW.rho c)) (AZWW.mass_eq hc 1) (AZWW.mass_eq hc 2) (.inl ⟨m1, rfl⟩) (.inl ⟨m2, rfl⟩)
    have v4x1y2 : (AZWW.N c p).v 4 [spinOf a1, spinOf b2] = sb (AZWW.react.codePair c p 1 a1).2 (AZWW.react.codePair c p 2 b2).2 := bra_square (p := p) (m := AZWW.proc.massNum (AZWW.rho c)) (AZWW.mass_eq hc 1) (AZWW.mass_eq hc 2) (.inl ⟨m1, rfl⟩) (.inl ⟨m2, rfl⟩)
    have v2y1x3 : (AZWW.N c p).v 2 [spinOf b1, spinOf a3] = sb (AZWW.react.codePair c p 1 b1).2 (AZWW.react.codePair c p 3 a3).2 := bra_square (p := p) (m := AZWW.proc.massNum (AZWW.rho c)) (AZWW.mass_eq hc 1) (AZWW.mass_eq hc 3) (.inl ⟨m1, rfl⟩) (.inl ⟨m3, rfl⟩)
    have v4y1x2 : (AZWW.N c p).v 4 [spinOf b1, spinOf a2] = sb (AZWW.react.codePair c p 1 b1).2 (AZWW.react.codePair c p 2 a2).2 := bra_square (p := p) (m := AZWW.proc.massNum (AZWW.rho c)) (AZWW.mass_eq hc 1) (AZWW.mass_eq hc 2) (.inl ⟨m1, rfl⟩) (.inl ⟨m2, rfl⟩)
    simp only [AZWW.termM, AZWW.formM, v1z0x1, v1z0y1, v7x2x3, v7y2y3, v10z0x2, v10z0y2, v2x1x3, v2y1y3, v8z0x3, v8z0y3, v4x1x2, v4y1y2, v4x1y2, v2y1x3, v4y1x2]
    push_cast
    ring
  refine ⟨n0, n1, fun n hn => ?_, fun n hn => ?_, ?_⟩
  · simp [hd] at hn
  · simp [hd] at hn
    rcases hn with rfl | rfl
    · exact n0
    · exact n1
  intro h0 t1 t2 t3
  match h0 with
  | 1 => exact norm_plus (amP t1 t2 t3)
  | 0 => exact norm_plus (amM t1 t2 t3)

variable [FPEnv] in
theorem AZWW.agrees : AZWW.Agrees := by
  refine agrees_of (D := [1, 2]) (E := [2]) (by simp [all, AZWW]) (by decide +kernel) (by decide) (by decide +kernel) (fun c hc hh => ⟨List.forall_mem_cons.2 ⟨hc.MW, List.forall_mem_cons.2 ⟨hc.SW, List.forall_mem_nil _⟩⟩, List.forall_mem_cons.2 ⟨hc.SW_lt, List.forall_mem_nil _⟩⟩) (fun c hc i => AZWW.mass_eq hc i) (by decide +kernel) ?_
  intro c p u ε hc hh hw h0 hs hb hr hu
  have he : AZWW.react.ends = [] := by decide
  have ht : AZWW.react.starts = [] := by decide
  have hB : AZWW.react.bosons = [0, 1, 2, 3] := by decide
  have hWW : c.WW = 0 := hw .WW (by simp [AZWW])
  have hG : AZWW.react.Gauge c p := AZWW.gauge hc.MW hWW hb (fun n => onShell_msq (hs n)) hr
  obtain ⟨n0, n1, d1, d2, am⟩ := AZWW.amps hc hh hw h0 hs hb hr hu
  refine ⟨d1, d2, ?_⟩
  show meaning (AZWW.N c p) .r Cls.AZWW.methods Cls.AZWW.amp2 [] = _
  have s0 : AZWW.react.states 0 = 2 := by decide
  have s1 : AZWW.react.states 1 = 3 := by decide
  have sy : AZWW.react.symmetry = 1 := by decide
  have p0 : AZWW.react.spins 0 = {0, 1} := rfl
  have p1 : AZWW.react.spins 1 = Finset.univ := rfl
  have p2 : AZWW.react.spins 2 = Finset.univ := rfl
  have p3 : AZWW.react.spins 3 = Finset.univ := rfl
  have E0 : AZWW.react.codeE c p 0 = lightE (legA (p 0) 0 0, legS (p 0) 0 1) := rfl
  have E1 : AZWW.react.codeE c p 1 = AZWW.react.codeVec c p 1 := rfl
  have E2 : AZWW.react.codeE c p 2 = AZWW.react.codeVec c p 2 := rfl
  have E3 : AZWW.react.codeE c p 3 = AZWW.react.codeVec c p 3 := rfl
  rw [AZWW.value, AZWW.react.squared_four he ht hB (by decide) hs h0 (fun _ b _ hb _ => (boson_pos hc hh hb).ne') hG (E := AZWW.react.codeE c p) (fun n b hl => AZWW.react.codeE_polarised hs h0 hu (fun b hb => (boson_pos hc hh hb).ne') n b hl) hu, sum_colours, s0, s1, sy]
  simp only [bareFour_eq, sumV_sum, sumW_sum, am, p0, p1, p2, p3, E0, E1, E2, E3, Finset.sum_singleton, sum_two, Matrix.cons_val_zero, Matrix.cons_val_one, Matrix.cons_val]
  push_cast
  first | ring1 | ring_nf

/-! ### AWZW -/

/-- what the methods of the class see -/
noncomputable abbrev AWZW.N [FPEnv] (c : Constants) (p : Nat → V4 ℝ) : Env := AWZW.proc.env (AWZW.rho c) p
/-- the term that `amp` adds for a choice of spinors, for a photon of positive helicity (SM/AWZW.cpp) -/
noncomputable def AWZW.termP (N : Env) (w : ℝ) (x : ℂ) (a1 b1 a2 b2 a3 b3 : Int) : ℂ :=
  (x + ((((((w * N.r 7) : ℝ) : ℂ) * ((((((((((((N.r 4 * N.r 4) : ℝ) : ℂ) * N.v 11 [a2]) * N.v 11 [b2]) * N.v 3 [a1, a3]) * N.v 3 [b1, b3]) + (((((((N.r 4 * N.r 4) : ℝ) : ℂ) * N.v 9 [a3]) * N.v 9 [b3]) * N.v 5 [a1, a2]) * N.v 5 [b1, b2])) + (((((((N.r 4 * N.r 4) : ℝ) : ℂ) * N.v 0 [a1]) * N.v 0 [b1]) * N.v 6 [a2, a3]) * N.v 6 [b2, b3])) + ((((((((N.r 4 * N.r 4) - (N.r 3 * N.r 3)) : ℝ) : ℂ) * N.v 9 [a3]) * N.v 0 [a1]) * N.v 6 [a2, b3]) * N.v 5 [b1, b2])) + ((((((N.r 4 : ℝ) : ℂ) * N.v 11 [a2]) * N.v 9 [a3]) * N.v 5 [a1, b2]) * N.v 3 [b1, b3])) - ((((((N.r 4 : ℝ) : ℂ) * N.v 11 [a2]) * N.v 0 [a1]) * N.v 6 [b2, a3]) * N.v 3 [b1, b3]))) / N.c 1) / N.c 0))
/-- the same with spinors in place of their spins -/
noncomputable def AWZW.formP (N : Env) (p : Nat → V4 ℝ) (z0 x1 y1 x2 y2 x3 y3 : Pair) : ℂ :=
  (0 + ((((((((1 : Nat) : ℝ) * N.r 7) : ℝ) : ℂ) * ((((((((((((N.r 4 * N.r 4) : ℝ) : ℂ) * (sb z0.2 x2.2)) * (sb z0.2 y2.2)) * (ab x1.1 x3.1)) * (ab y1.1 y3.1)) + (((((((N.r 4 * N.r 4) : ℝ) : ℂ) * (sb z0.2 x3.2)) * (sb z0.2 y3.2)) * (ab x1.1 x2.1)) * (ab y1.1 y2.1))) + (((((((N.r 4 * N.r 4) : ℝ) : ℂ) * (sb z0.2 x1.2)) * (sb z0.2 y1.2)) * (ab x2.1 x3.1)) * (ab y2.1 y3.1))) + ((((((((N.r 4 * N.r 4) - (N.r 3 * N.r 3)) : ℝ) : ℂ) * (sb z0.2 x3.2)) * (sb z0.2 x1.2)) * (ab x2.1 y3.1)) * (ab y1.1 y2.1))) + ((((((N.r 4 : ℝ) : ℂ) * (sb z0.2 x2.2)) * (sb z0.2 x3.2)) * (ab x1.1 y2.1)) * (ab y1.1 y3.1))) - ((((((N.r 4 : ℝ) : ℂ) * (sb z0.2 x2.2)) * (sb z0.2 x1.2)) * (ab y2.1 x3.1)) * (ab y1.1 y3.1)))) / N.c 1) / N.c 0))
/-- the term that `amp` adds for a choice of spinors, for a photon of negative helicity (SM/AWZW.cpp) -/
noncomputable def AWZW.termM (N : Env) (w : ℝ) (x : ℂ) (a1 b1 a2 b2 a3 b3 : Int) : ℂ :=
  (x + ((((((w * N.r 7) : ℝ) : ℂ) * ((((((((((((N.r 4 * N.r 4) : ℝ) : ℂ) * N.v 10 [a2]) * N.v 10 [b2]) * N.v 2 [a1, a3]) * N.v 2 [b1, b3]) + (((((((N.r 4 * N.r 4) : ℝ) : ℂ) * N.v 8 [a3]) * N.v 8 [b3]) * N.v 4 [a1, a2]) * N.v 4 [b1, b2])) + (((((((N.r 4 * N.r 4) : ℝ) : ℂ) * N.v 1 [a1]) * N.v 1 [b1]) * N.v 7 [a2, a3]) * N.v 7 [b2, b3])) + ((((((((N.r 4 * N.r 4) - (N.r 3 * N.r 3)) : ℝ) : ℂ) * N.v 8 [a3]) * N.v 1 [a1]) * N.v 7 [a2, b3]) * N.v 4 [b1, b2])) + ((((((N.r 4 : ℝ) : ℂ) * N.v 10 [a2]) * N.v 8 [a3]) * N.v 4 [a1, b2]) * N.v 2 [b1, b3])) - ((((((N.r 4 : ℝ) : ℂ) * N.v 10 [a2]) * N.v 1 [a1]) * N.v 7 [b2, a3]) * N.v 2 [b1, b3]))) / N.c 1) / N.c 0))
/-- the same with spinors in place of their spins -/
noncomputable def AWZW.formM (N : Env) (p : Nat → V4 ℝ) (z0 x1 y1 x2 y2 x3 y3 : Pair) : ℂ :=
  (0 + ((((((((1 : Nat) : ℝ) * N.r 7) : ℝ) : ℂ) * ((((((((((((N.r 4 * N.r 4) : ℝ) : ℂ) * (ab z0.1 x2.1)) * (ab z0.1 y2.1)) * (sb x1.2 x3.2)) * (sb y1.2 y3.2)) + (((((((N.r 4 * N.r 4) : ℝ) : ℂ) * (ab z0.1 x3.1)) * (ab z0.1 y3.1)) * (sb x1.2 x2.2)) * (sb y1.2 y2.2))) + (((((((N.r 4 * N.r 4) : ℝ) : ℂ) * (ab z0.1 x1.1)) * (ab z0.1 y1.1)) * (sb x2.2 x3.2)) * (sb y2.2 y3.2))) + ((((((((N.r 4 * N.r 4) - (N.r 3 * N.r 3)) : ℝ) : ℂ) * (ab z0.1 x3.1)) * (ab z0.1 x1.1)) * (sb x2.2 y3.2)) * (sb y1.2 y2.2))) + ((((((N.r 4 : ℝ) : ℂ) * (ab z0.1 x2.1)) * (ab z0.1 x3.1)) * (sb x1.2 y2.2)) * (sb y1.2 y3.2))) - ((((((N.r 4 : ℝ) : ℂ) * (ab z0.1 x2.1)) * (ab z0.1 x1.1)) * (sb y2.2 x3.2)) * (sb y1.2 y3.2)))) / N.c 1) / N.c 0))
theorem AWZW.keyP {c : Constants} {p : Nat → V4 ℝ} {N : Env} (hc : c.Physical) (hb : Balanced p) (r3 : N.r 3 = c.SW) (r4 : N.r 4 = c.CW) (r7 : N.r 7 = (((((2 : Nat) : ℝ) * c.e) * c.e) / (c.CW * c.SW))) (d0 : pole c.MW c.WW (plus (p 0) (p 1)) = N.c 0) (n0 : N.c 0 ≠ 0) (d1 : pole c.MW c.WW (plus (p 0) (backward (p 3))) = N.c 1) (n1 : N.c 1 ≠ 0) {z0 z1 z2 z3 : Pair} (b1 : Bold (p 1) c.MW z1) (b2 : Bold (p 2) c.MZ z2) (b3 : Bold (p 3) c.MW z3) (l0 : Light (p 0) z0) (e01 : mb z0.2 (p 1) z0.1 = N.c 0) (e03 : mb z0.2 (p 3) z0.1 = -N.c 1) (q1 : msq (p 1) = c.MW ^ 2) (q2 : msq (p 2) = c.MZ ^ 2) (q3 : msq (p 3) = c.MW ^ 2) {ρ0 : V2} (R0 : ∀ Y, ab ρ0 Y = mb z0.2 (p 1) Y) :
    AWZW.formP N p z0 z1 z1 z2 z2 z3 z3 * ab ρ0 z0.1 = ((√2 : ℝ) * ((1 : ℂ) * ((2 * √2 / (c.MZ * c.MW * c.MW) : ℝ) : ℂ))) * AWZW.react.bare4 c p (pv ρ0 z0.2) (pv z1.1 z1.2) (pv z2.1 z2.2) (pv z3.1 z3.2) := by
  rw [AWZW.react.bare4_parts c p (b₀ := .photon) (b₁ := .wPlus) (b₂ := .z) (b₃ := .wMinus) rfl rfl rfl rfl, AWZW.formP]
  have T0 := l0.mb_plus ρ0
  have T1 := b1.mb_zero'
  have T2 := mb_back_zero (b2.mb_zero')
  have T3 := mb_back_zero (b3.mb_zero')
  have Q1 : msq (p 1) = c.MW ^ 2 := q1
  have Q3 : msq (backward (p 3)) = c.MW ^ 2 := (msq_backward _).trans q3
  simp only [contact, seagull, gauge4, between, carriers, List.map_cons, List.map_nil, List.sum_cons, List.sum_nil]
  simp only [toHiggs, toVector, higgs2, gauge3, Boson.anti, reduceCtorEq, and_self, and_true, and_false, true_and, false_and, if_true, if_false, Complex.ofReal_zero, zero_smul, carry_none, zero_mul, mul_zero, zero_div, neg_zero, add_zero, zero_add, sub_zero, sub_self, contract_zero, contract_zero_left]
  first | rw [dress_plus c (x := .wPlus) (.inl rfl) hc.MW l0 Q1 T1] | rw [dress_plus c (x := .wMinus) (.inr rfl) hc.MW l0 Q1 T1]
  first | rw [dress_plus c (x := .wPlus) (.inl rfl) hc.MW l0 Q3 T3] | rw [dress_plus c (x := .wMinus) (.inr rfl) hc.MW l0 Q3 T3]
  simp only [d0, d1, yangMills_transverse T1 T2, yangMills_transverse T1 T3, yangMills_transverse T2 T3, contract_add, contract_smul, contract_smul_left, contract_four_pv, contract_pv_four, contract_pv, mb_backward]
  have R00 := (ref_plus_plus R0 R0).2
  have i0 := sb_schouten z1.2 z2.2 z3.2 z0.2
  have i1 := mb_schouten_left z0.2 z1.2 z3.2 (p 1) z2.1
  have i2 := mb_schouten_left z0.2 z1.2 z2.2 (p 2) z0.1
  have i3 := mb_schouten_right z0.2 (p 2) z0.1 z1.1 z2.1
  have i4 := mb_schouten_right z0.2 (p 2) z0.1 z1.1 z3.1
  have i5 := ab_schouten z1.1 z2.1 z3.1 z0.1
  have i6 := mb_schouten_right z1.2 (p 2) z1.1 z2.1 z3.1
  have i7 := mb_schouten_left z0.2 z1.2 z3.2 (p 2) z0.1
  have i8 := mb_schouten_left z0.2 z1.2 z3.2 (p 2) z1.1
  have i9 := mb_schouten_right z0.2 (p 1) z1.1 z2.1 z3.1
  have i10 := mb_schouten_right z0.2 (p 2) z1.1 z2.1 z3.1
  have i11 := mb_schouten_left z0.2 z1.2 z3.2 (p 1) z0.1
  have i12 := mb_schouten_left z0.2 z1.2 z2.2 (p 2) z1.1
  have i13 := mb_schouten_right z0.2 (p 2) z0.1 z2.1 z3.1
  have i14 := mb_schouten_right z1.2 (p 2) z0.1 z2.1 z3.1
  have i15 := mb_schouten_left z0.2 z1.2 z2.2 (p 1) z3.1
  have i16 := mb_schouten_left z0.2 z1.2 z2.2 (p 1) z0.1
  have i17 := mb_schouten_right z2.2 (p 1) z0.1 z1.1 z3.1
  have i18 := mb_schouten_right z0.2 (p 1) z0.1 z1.1 z3.1
  have i19 := mb_schouten_right z0.2 (p 1) z0.1 z1.1 z2.1
  have i20 := mb_schouten_left z1.2 z2.2 z3.2 (p 2) z1.1
  have i21 := mb_schouten_right z0.2 (p 2) z1.1 z2.1 ρ0
  have i22 := mb_schouten_right z0.2 (p 1) z0.1 z2.1 z3.1
  have i23 := mb_schouten_right z2.2 (p 1) z1.1 z2.1 z3.1
  have i24 := mb_schouten_right z0.2 (p 2) z1.1 z3.1 ρ0
  have i25 := mb_schouten_right z0.2 (p 2) z0.1 z2.1 ρ0
  have i26 := mb_schouten_right z0.2 (p 2) z0.1 z1.1 ρ0
  have i27 := mb_schouten_left z0.2 z2.2 z3.2 (p 2) z1.1
  have i28 := mb_schouten_right z3.2 (p 1) z1.1 z2.1 z3.1
  have i29 := mb_schouten_right z3.2 (p 1) z0.1 z1.1 z2.1
  have i30 := mb_schouten_right z2.2 (p 1) z0.1 z2.1 z3.1
  have i31 := mb_schouten_right z2.2 (p 1) z0.1 z1.1 z2.1
  have i32 := mb_schouten_right z3.2 (p 1) z0.1 z1.1 z3.1
  have i33 := mb_schouten_right z3.2 (p 1) z0.1 z2.1 z3.1
  have i34 := mb_schouten_right z1.2 (p 2) z0.1 z1.1 z2.1
  have i35 := mb_schouten_right z1.2 (p 2) z0.1 z1.1 z3.1
  simp only [ab_swap ρ0 z0.1, ab_swap ρ0 z1.1, ab_swap ρ0 z2.1, ab_swap ρ0 z3.1, R00, R0, l0.mb_eq, b1.mb_left, b1.mb_right, b2.mb_left, b2.mb_right, b3.mb_left, b3.mb_right, e01, e03, mb_two hb z0.2 z0.1, mb_three hb z0.2 z1.1, mb_three hb z0.2 z2.1, mb_two hb z0.2 z3.1, mb_three hb z1.2 z0.1, mb_three hb z1.2 z1.1, mb_three hb z1.2 z2.1, mb_two hb z1.2 z3.1, mb_three hb z2.2 z0.1, mb_three hb z2.2 z1.1, mb_three hb z2.2 z2.1, mb_one hb z2.2 z3.1, mb_two hb z3.2 z0.1, mb_two hb z3.2 z1.1, mb_one hb z3.2 z2.1, mb_two hb z3.2 z3.1, mb_three hb z0.2 ρ0, ab_self, sb_self] at i0 i1 i2 i3 i4 i5 i6 i7 i8 i9 i10 i11 i12 i13 i14 i15 i16 i17 i18 i19 i20 i21 i22 i23 i24 i25 i26 i27 i28 i29 i30 i31 i32 i33 i34 i35 ⊢
  simp only [ab_swap z0.1 z1.1, sb_swap z0.2 z1.2, ab_swap z0.1 z2.1, sb_swap z0.2 z2.2, ab_swap z0.1 z3.1, sb_swap z0.2 z3.2, ab_swap z1.1 z2.1, sb_swap z1.2 z2.2, ab_swap z1.1 z3.1, sb_swap z1.2 z3.2, ab_swap z2.1 z3.1, sb_swap z2.2 z3.2] at i0 i1 i2 i3 i4 i5 i6 i7 i8 i9 i10 i11 i12 i13 i14 i15 i16 i17 i18 i19 i20 i21 i22 i23 i24 i25 i26 i27 i28 i29 i30 i31 i32 i33 i34 i35 ⊢
  simp only [r3, r4, r7, Constants.invVev, ← c.mz]
  have xMW : (c.MW : ℂ) ≠ 0 := by exact_mod_cast hc.MW
  have xSW : (c.SW : ℂ) ≠ 0 := by exact_mod_cast hc.SW
  have xCW : (c.CW : ℂ) ≠ 0 := by exact_mod_cast hc.CW
  have x2 : ((√2 : ℝ) : ℂ) ≠ 0 := by exact_mod_cast (Real.sqrt_pos.2 two_pos).ne'
  have x22 : ((√2 : ℝ) : ℂ) ^ 2 = 2 := by rw [← Complex.ofReal_pow, Real.sq_sqrt two_pos.le]; norm_num
  have hcs : (c.SW : ℂ) ^ 2 + (c.CW : ℂ) ^ 2 = 1 := by rw [← Complex.ofReal_pow, ← Complex.ofReal_pow, ← Complex.ofReal_add, hc.mix, Complex.ofReal_one]
  try simp only [← c.mz] at i0 i1 i2 i3 i4 i5 i6 i7 i8 i9 i10 i11 i12 i13 i14 i15 i16 i17 i18 i19 i20 i21 i22 i23 i24 i25 i26 i27 i28 i29 i30 i31 i32 i33 i34 i35
  push_cast at i0 i1 i2 i3 i4 i5 i6 i7 i8 i9 i10 i11 i12 i13 i14 i15 i16 i17 i18 i19 i20 i21 i22 i23 i24 i25 i26 i27 i28 i29 i30 i31 i32 i33 i34 i35 ⊢
  simp only [div_eq_mul_inv, mul_inv, inv_inv] at i0 i1 i2 i3 i4 i5 i6 i7 i8 i9 i10 i11 i12 i13 i14 i15 i16 i17 i18 i19 i20 i21 i22 i23 i24 i25 i26 i27 i28 i29 i30 i31 i32 i33 i34 i35 ⊢
  have y0 := mul_inv_cancel₀ n0
  have y1 := mul_inv_cancel₀ n1
  have yCW := mul_inv_cancel₀ xCW
  have yMW := mul_inv_cancel₀ xMW
  linear_combination ((((4) * ((c.MW : ℂ)) * ((c.e : ℂ)) ^ 2 * ((c.CW : ℂ)⁻¹) * (N.c 1) * (ab z1.1 z3.1) * (sb z0.2 z2.2) + (-2) * ((c.MW : ℂ)) * ((c.e : ℂ)) ^ 2 * ((c.CW : ℂ)⁻¹) * (ab z0.1 z1.1) * (mb z0.2 (p 1) z3.1) * (sb z0.2 z2.2) + (3) * ((c.MW : ℂ)) * ((c.e : ℂ)) ^ 2 * (N.c 0) * (ab z1.1 z2.1) * (sb z0.2 z3.2) + (4) * ((c.MW : ℂ)) * ((c.e : ℂ)) ^ 2 * (N.c 1) * (ab z1.1 z2.1) * (sb z0.2 z3.2) + (2) * ((c.MW : ℂ)) * ((c.e : ℂ)) ^ 2 * (ab z0.1 z2.1) * (mb z0.2 (p 1) z3.1) * (sb z0.2 z1.2) + (-2) * ((c.MW : ℂ)) ^ 2 * ((c.e : ℂ)) ^ 2 * ((c.CW : ℂ)⁻¹) ^ 2 * (ab z2.1 z3.1) * (mb z0.2 (p 2) z1.1) + (2) * ((c.MW : ℂ)) ^ 2 * ((c.e : ℂ)) ^ 2 * (ab z0.1 z2.1) * (sb z0.2 z1.2) * (sb z0.2 z3.2) + (-2) * ((c.MW : ℂ)) ^ 2 * ((c.e : ℂ)) ^ 2 * (ab z1.1 z2.1) * (mb z0.2 (p 1) z3.1) + (2) * ((c.MW : ℂ)) ^ 2 * ((c.e : ℂ)) ^ 2 * (ab z2.1 z3.1) * (mb z0.2 (p 2) z1.1) + (-2) * ((c.MW : ℂ)) ^ 3 * ((c.e : ℂ)) ^ 2 * ((c.CW : ℂ)⁻¹) ^ 3 * (ab z1.1 z3.1) * (sb z0.2 z2.2) + (2) * ((c.MW : ℂ)) ^ 3 * ((c.e : ℂ)) ^ 2 * (ab z2.1 z3.1) * (sb z0.2 z1.2) + (2) * ((c.e : ℂ)) ^ 2 * (N.c 0) * (ab z1.1 z2.1) * (mb z0.2 (p 1) z3.1) + (3) * ((c.e : ℂ)) ^ 2 * (N.c 1) * (ab z1.1 z2.1) * (mb z0.2 (p 1) z3.1) + (-3) * ((c.e : ℂ)) ^ 2 * (ab z0.1 z1.1) * (ab z2.1 z3.1) * (mb z0.2 (p 2) ρ0) + (1) * ((c.e : ℂ)) ^ 2 * (ab z0.1 z2.1) * (ab z1.1 z3.1) * (mb z0.2 (p 2) ρ0)) * i0 + ((-2) * ((c.MW : ℂ)) * ((c.e : ℂ)) ^ 2 * ((c.CW : ℂ)⁻¹) * (ab z1.1 z2.1) * (mb z0.2 (p 1) z3.1) + (-2) * ((c.MW : ℂ)) ^ 2 * ((c.e : ℂ)) ^ 2 * ((c.CW : ℂ)⁻¹) * (ab z1.1 z2.1) * (sb z0.2 z3.2)) * i1 + ((-4) * ((c.MW : ℂ)) * ((c.e : ℂ)) ^ 2 * ((c.CW : ℂ)⁻¹) * (ab z1.1 z3.1) * (sb z0.2 z2.2) * (sb z0.2 z3.2) + (-4) * ((c.MW : ℂ)) * ((c.e : ℂ)) ^ 2 * (ab z1.1 z2.1) * (sb z0.2 z3.2) ^ 2 + (-4) * ((c.e : ℂ)) ^ 2 * (ab z1.1 z2.1) * (mb z0.2 (p 1) z3.1) * (sb z0.2 z3.2)) * i2 + ((2) * ((c.MW : ℂ)) * ((c.e : ℂ)) ^ 2 * ((c.CW : ℂ)⁻¹) * (ab z2.1 z3.1) * (sb z0.2 z1.2) * (sb z0.2 z3.2) + (-4) * ((c.MW : ℂ)) * ((c.e : ℂ)) ^ 2 * (sb z0.2 z1.2) * (sb z0.2 z3.2) * (sb z2.2 z3.2) + (-2) * ((c.e : ℂ)) ^ 2 * (ab z0.1 z3.1) * (sb z0.2 z1.2) * (sb z0.2 z2.2) * (sb z0.2 z3.2) + (-2) * ((c.e : ℂ)) ^ 2 * (ab z1.1 z3.1) * (mb z0.2 (p 1) z3.1) * (sb z0.2 z2.2) + (-1) * ((c.e : ℂ)) ^ 2 * (mb z0.2 (p 1) z3.1) * (sb z0.2 z1.2) * (sb z2.2 z3.2) + (1) * ((c.e : ℂ)) ^ 2 * (mb z0.2 (p 1) z3.1) * (sb z0.2 z2.2) * (sb z1.2 z3.2) + (2) * ((c.e : ℂ)) ^ 2 * (mb z3.2 (p 1) z3.1) * (sb z0.2 z1.2) * (sb z0.2 z2.2)) * i3 + ((-4) * ((c.MW : ℂ)) * ((c.e : ℂ)) ^ 2 * ((c.CW : ℂ)⁻¹) * (sb z0.2 z1.2) * (sb z0.2 z2.2) * (sb z2.2 z3.2) + (2) * ((c.e : ℂ)) ^ 2 * (ab z0.1 z2.1) * (sb z0.2 z1.2) * (sb z0.2 z2.2) * (sb z0.2 z3.2) + (-1) * ((c.e : ℂ)) ^ 2 * (mb z0.2 (p 1) z2.1) * (sb z0.2 z1.2) * (sb z2.2 z3.2) + (-1) * ((c.e : ℂ)) ^ 2 * (mb z0.2 (p 1) z2.1) * (sb z0.2 z2.2) * (sb z1.2 z3.2) + (-2) * ((c.e : ℂ)) ^ 2 * (mb z2.2 (p 1) z2.1) * (sb z0.2 z1.2) * (sb z0.2 z3.2)) * i4 + ((2) * ((c.MW : ℂ)) * ((c.e : ℂ)) ^ 2 * (mb z0.2 (p 1) z3.1) * (sb z0.2 z1.2) * (sb z0.2 z2.2) + (4) * ((c.MW : ℂ)) ^ 2 * ((c.e : ℂ)) ^ 2 * ((c.CW : ℂ)⁻¹) ^ 2 * (sb z0.2 z1.2) * (sb z0.2 z2.2) * (sb z0.2 z3.2) + (-2) * ((c.e : ℂ)) ^ 2 * (ab z1.1 z3.1) * (mb z0.2 (p 2) ρ0) * (sb z0.2 z2.2) + (2) * ((c.e : ℂ)) ^ 2 * (mb z0.2 (p 1) z3.1) * (mb z0.2 (p 2) z1.1) * (sb z0.2 z2.2) + (2) * ((c.e : ℂ)) ^ 2 * (mb z0.2 (p 2) ρ0) * (sb z0.2 z1.2) * (sb z2.2 z3.2) + (-2) * ((c.e : ℂ)) ^ 2 * (mb z0.2 (p 2) ρ0) * (sb z0.2 z2.2) * (sb z1.2 z3.2) + (-1) * ((c.e : ℂ)) ^ 2 * (mb z0.2 (p 2) ρ0) * (sb z0.2 z3.2) * (sb z1.2 z2.2)) * i5 + ((2) * ((c.MW : ℂ)) ^ 2 * ((c.e : ℂ)) ^ 2 * ((c.CW : ℂ)⁻¹) ^ 2 * (sb z0.2 z2.2) * (sb z0.2 z3.2) + (2) * ((c.e : ℂ)) ^ 2 * (mb z0.2 (p 2) ρ0) * (sb z2.2 z3.2)) * i6 + ((4) * ((c.MW : ℂ)) * ((c.e : ℂ)) ^ 2 * ((c.CW : ℂ)⁻¹) * (ab z1.1 z3.1) * (sb z0.2 z2.2) ^ 2 + (4) * ((c.MW : ℂ)) * ((c.e : ℂ)) ^ 2 * (ab z1.1 z2.1) * (sb z0.2 z2.2) * (sb z0.2 z3.2) + (4) * ((c.e : ℂ)) ^ 2 * (ab z1.1 z3.1) * (mb z0.2 (p 1) z2.1) * (sb z0.2 z2.2)) * i7 + ((2) * ((c.MW : ℂ)) ^ 2 * ((c.e : ℂ)) ^ 2 * (ab z2.1 z3.1) * (sb z0.2 z2.2)) * i8 + ((-2) * ((c.MW : ℂ)) * ((c.e : ℂ)) ^ 2 * ((c.CW : ℂ)⁻¹) * (ab z1.1 z2.1) * (mb z0.2 (p 1) z3.1) + (-2) * ((c.MW : ℂ)) * ((c.e : ℂ)) ^ 2 * (mb z0.2 (p 1) z3.1) * (sb z1.2 z2.2) + (-2) * ((c.MW : ℂ)) ^ 2 * ((c.e : ℂ)) ^ 2 * ((c.CW : ℂ)⁻¹) * (ab z1.1 z2.1) * (sb z0.2 z3.2) + (-2) * ((c.MW : ℂ)) ^ 2 * ((c.e : ℂ)) ^ 2 * ((c.CW : ℂ)⁻¹) * (ab z2.1 z3.1) * (sb z0.2 z1.2) + (-2) * ((c.MW : ℂ)) ^ 2 * ((c.e : ℂ)) ^ 2 * ((c.CW : ℂ)⁻¹) ^ 2 * (ab z1.1 z3.1) * (sb z0.2 z2.2) + (2) * ((c.MW : ℂ)) ^ 2 * ((c.e : ℂ)) ^ 2 * ((c.CW : ℂ)⁻¹) ^ 2 * (sb z0.2 z2.2) * (sb z1.2 z3.2) + (2) * ((c.MW : ℂ)) ^ 2 * ((c.e : ℂ)) ^ 2 * (ab z1.1 z3.1) * (sb z0.2 z2.2) + (2) * ((c.MW : ℂ)) ^ 2 * ((c.e : ℂ)) ^ 2 * (sb z0.2 z1.2) * (sb z2.2 z3.2) + (2) * ((c.e : ℂ)) ^ 2 * (N.c 1) * (ab z1.1 z3.1) * (sb z0.2 z2.2) + (-2) * ((c.e : ℂ)) ^ 2 * (N.c 1) * (sb z0.2 z1.2) * (sb z2.2 z3.2) + (2) * ((c.e : ℂ)) ^ 2 * (N.c 1) * (sb z0.2 z2.2) * (sb z1.2 z3.2) + (-2) * ((c.e : ℂ)) ^ 2 * (mb z1.2 (p 2) z0.1) * (sb z0.2 z2.2) * (sb z0.2 z3.2) + (2) * ((c.e : ℂ)) ^ 2 * (mb z3.2 (p 1) z0.1) * (sb z0.2 z1.2) * (sb z0.2 z2.2)) * i9 + ((2) * ((c.MW : ℂ)) * ((c.e : ℂ)) ^ 2 * ((c.CW : ℂ)⁻¹) * (ab z1.1 z2.1) * (mb z0.2 (p 1) z3.1) + (-2) * ((c.MW : ℂ)) * ((c.e : ℂ)) ^ 2 * ((c.CW : ℂ)⁻¹) * (ab z1.1 z3.1) * (mb z0.2 (p 1) z2.1) + (2) * ((c.MW : ℂ)) * ((c.e : ℂ)) ^ 2 * ((c.CW : ℂ)⁻¹) * (mb z0.2 (p 1) z2.1) * (sb z1.2 z3.2) + (2) * ((c.MW : ℂ)) * ((c.e : ℂ)) ^ 2 * (mb z0.2 (p 1) z3.1) * (sb z1.2 z2.2) + (2) * ((c.MW : ℂ)) ^ 2 * ((c.e : ℂ)) ^ 2 * ((c.CW : ℂ)⁻¹) ^ 2 * (sb z0.2 z1.2) * (sb z2.2 z3.2) + (-2) * ((c.MW : ℂ)) ^ 2 * ((c.e : ℂ)) ^ 2 * ((c.CW : ℂ)⁻¹) ^ 2 * (sb z0.2 z2.2) * (sb z1.2 z3.2) + (-2) * ((c.MW : ℂ)) ^ 2 * ((c.e : ℂ)) ^ 2 * (sb z0.2 z1.2) * (sb z2.2 z3.2) + (-2) * ((c.e : ℂ)) ^ 2 * (mb z2.2 (p 1) z0.1) * (sb z0.2 z1.2) * (sb z0.2 z3.2) + (-2) * ((c.e : ℂ)) ^ 2 * (mb z3.2 (p 1) z0.1) * (sb z0.2 z1.2) * (sb z0.2 z2.2)) * i10 + ((-4) * ((c.MW : ℂ)) * ((c.e : ℂ)) ^ 2 * ((c.CW : ℂ)⁻¹) * (ab z1.1 z3.1) * (sb z0.2 z2.2) ^ 2 + (-4) * ((c.e : ℂ)) ^ 2 * (ab z1.1 z3.1) * (mb z0.2 (p 1) z2.1) * (sb z0.2 z2.2)) * i11 + ((2) * ((c.MW : ℂ)) ^ 2 * ((c.e : ℂ)) ^ 2 * ((c.CW : ℂ)⁻¹) ^ 2 * (ab z2.1 z3.1) * (sb z0.2 z3.2) + (-2) * ((c.MW : ℂ)) ^ 2 * ((c.e : ℂ)) ^ 2 * (ab z2.1 z3.1) * (sb z0.2 z3.2)) * i12 + ((-2) * ((c.MW : ℂ)) * ((c.e : ℂ)) ^ 2 * ((c.CW : ℂ)⁻¹) * (ab z1.1 z2.1) * (sb z0.2 z1.2) * (sb z0.2 z3.2) + (3) * ((c.MW : ℂ)) * ((c.e : ℂ)) ^ 2 * (sb z0.2 z1.2) * (sb z0.2 z2.2) * (sb z1.2 z3.2) + (-3) * ((c.MW : ℂ)) * ((c.e : ℂ)) ^ 2 * (sb z0.2 z1.2) ^ 2 * (sb z2.2 z3.2) + (-2) * ((c.e : ℂ)) ^ 2 * (mb z0.2 (p 2) z1.1) * (sb z0.2 z1.2) * (sb z2.2 z3.2)) * i13 + ((-2) * ((c.MW : ℂ)) * ((c.e : ℂ)) ^ 2 * (sb z0.2 z1.2) * (sb z0.2 z2.2) * (sb z0.2 z3.2)) * i14 + ((-2) * ((c.MW : ℂ)) * ((c.e : ℂ)) ^ 2 * (ab z1.1 z3.1) * (mb z0.2 (p 1) z2.1) + (-2) * ((c.MW : ℂ)) ^ 2 * ((c.e : ℂ)) ^ 2 * ((c.CW : ℂ)⁻¹) * (ab z1.1 z3.1) * (sb z0.2 z2.2)) * i15 + ((4) * ((c.MW : ℂ)) * ((c.e : ℂ)) ^ 2 * ((c.CW : ℂ)⁻¹) * (ab z1.1 z3.1) * (sb z0.2 z2.2) * (sb z0.2 z3.2)) * i16 + ((-2) * ((c.MW : ℂ)) * ((c.e : ℂ)) ^ 2 * ((c.CW : ℂ)⁻¹) * (sb z0.2 z1.2) * (sb z0.2 z2.2) * (sb z0.2 z3.2)) * i17 + ((-2) * ((c.MW : ℂ)) * ((c.e : ℂ)) ^ 2 * ((c.CW : ℂ)⁻¹) * (ab z1.1 z3.1) * (sb z0.2 z2.2) ^ 2 + (5) * ((c.MW : ℂ)) * ((c.e : ℂ)) ^ 2 * ((c.CW : ℂ)⁻¹) * (sb z0.2 z1.2) * (sb z0.2 z2.2) * (sb z2.2 z3.2) + (-1) * ((c.MW : ℂ)) * ((c.e : ℂ)) ^ 2 * ((c.CW : ℂ)⁻¹) * (sb z0.2 z2.2) ^ 2 * (sb z1.2 z3.2) + (-2) * ((c.MW : ℂ)) * ((c.e : ℂ)) ^ 2 * (ab z1.1 z2.1) * (sb z0.2 z2.2) * (sb z0.2 z3.2) + (-2) * ((c.MW : ℂ)) * ((c.e : ℂ)) ^ 2 * (ab z2.1 z3.1) * (sb z0.2 z1.2) * (sb z0.2 z2.2) + (-2) * ((c.e : ℂ)) ^ 2 * (ab z0.1 z2.1) * (sb z0.2 z1.2) * (sb z0.2 z2.2) * (sb z0.2 z3.2) + (-2) * ((c.e : ℂ)) ^ 2 * (ab z1.1 z3.1) * (mb z0.2 (p 1) z2.1) * (sb z0.2 z2.2) + (-2) * ((c.e : ℂ)) ^ 2 * (ab z2.1 z3.1) * (mb z0.2 (p 2) z1.1) * (sb z0.2 z2.2) + (2) * ((c.e : ℂ)) ^ 2 * (mb z0.2 (p 1) z2.1) * (sb z0.2 z1.2) * (sb z2.2 z3.2)) * i18 + ((2) * ((c.MW : ℂ)) * ((c.e : ℂ)) ^ 2 * (ab z1.1 z3.1) * (sb z0.2 z2.2) * (sb z0.2 z3.2) + (1) * ((c.MW : ℂ)) * ((c.e : ℂ)) ^ 2 * (sb z0.2 z1.2) * (sb z0.2 z3.2) * (sb z2.2 z3.2) + (-1) * ((c.MW : ℂ)) * ((c.e : ℂ)) ^ 2 * (sb z0.2 z2.2) * (sb z0.2 z3.2) * (sb z1.2 z3.2) + (2) * ((c.e : ℂ)) ^ 2 * (ab z0.1 z3.1) * (sb z0.2 z1.2) * (sb z0.2 z2.2) * (sb z0.2 z3.2) + (2) * ((c.e : ℂ)) ^ 2 * (ab z1.1 z3.1) * (mb z0.2 (p 1) z3.1) * (sb z0.2 z2.2) + (-1) * ((c.e : ℂ)) ^ 2 * (mb z0.2 (p 1) z3.1) * (sb z0.2 z1.2) * (sb z2.2 z3.2) + (1) * ((c.e : ℂ)) ^ 2 * (mb z0.2 (p 1) z3.1) * (sb z0.2 z2.2) * (sb z1.2 z3.2) + (-2) * ((c.e : ℂ)) ^ 2 * (mb z3.2 (p 1) z3.1) * (sb z0.2 z1.2) * (sb z0.2 z2.2)) * i19 + ((-4) * ((c.e : ℂ)) ^ 2 * (ab z2.1 z3.1) * (mb z0.2 (p 2) ρ0)) * i20 + ((-2) * ((c.MW : ℂ)) * ((c.e : ℂ)) ^ 2 * ((c.CW : ℂ)⁻¹) * (ab z1.1 z3.1) * (ab z2.1 z3.1) + (2) * ((c.MW : ℂ)) * ((c.e : ℂ)) ^ 2 * ((c.CW : ℂ)⁻¹) * (ab z2.1 z3.1) * (sb z1.2 z3.2)) * i21 + ((-2) * ((c.MW : ℂ)) * ((c.e : ℂ)) ^ 2 * (sb z0.2 z1.2) * (sb z0.2 z2.2) * (sb z1.2 z3.2) + (2) * ((c.MW : ℂ)) * ((c.e : ℂ)) ^ 2 * (sb z0.2 z1.2) ^ 2 * (sb z2.2 z3.2) + (1) * ((c.e : ℂ)) ^ 2 * (mb z0.2 (p 2) z1.1) * (sb z0.2 z1.2) * (sb z2.2 z3.2) + (1) * ((c.e : ℂ)) ^ 2 * (mb z0.2 (p 2) z1.1) * (sb z0.2 z2.2) * (sb z1.2 z3.2) + (-2) * ((c.e : ℂ)) ^ 2 * (mb z1.2 (p 2) z1.1) * (sb z0.2 z2.2) * (sb z0.2 z3.2)) * i22 + ((-2) * ((c.MW : ℂ)) * ((c.e : ℂ)) ^ 2 * (mb z0.2 (p 1) z3.1) * (sb z0.2 z1.2) + (-2) * ((c.MW : ℂ)) ^ 2 * ((c.e : ℂ)) ^ 2 * (sb z0.2 z1.2) * (sb z0.2 z3.2) + (2) * ((c.e : ℂ)) ^ 2 * (ab z1.1 z3.1) * (mb z0.2 (p 2) ρ0) + (-2) * ((c.e : ℂ)) ^ 2 * (mb z0.2 (p 1) z3.1) * (mb z0.2 (p 2) z1.1) + (2) * ((c.e : ℂ)) ^ 2 * (mb z0.2 (p 2) ρ0) * (sb z1.2 z3.2)) * i23 + ((2) * ((c.e : ℂ)) ^ 2 * (ab z1.1 z3.1) * (mb z2.2 (p 1) z2.1)) * i24 + ((1) * ((c.e : ℂ)) ^ 2 * (ab z1.1 z3.1) * (sb z0.2 z1.2) * (sb z2.2 z3.2) + (-1) * ((c.e : ℂ)) ^ 2 * (ab z1.1 z3.1) * (sb z0.2 z2.2) * (sb z1.2 z3.2) + (-2) * ((c.e : ℂ)) ^ 2 * (ab z1.1 z3.1) ^ 2 * (sb z0.2 z2.2)) * i25 + ((2) * ((c.e : ℂ)) ^ 2 * (ab z1.1 z3.1) * (ab z2.1 z3.1) * (sb z0.2 z2.2) + (1) * ((c.e : ℂ)) ^ 2 * (ab z2.1 z3.1) * (sb z0.2 z1.2) * (sb z2.2 z3.2) + (-1) * ((c.e : ℂ)) ^ 2 * (ab z2.1 z3.1) * (sb z0.2 z2.2) * (sb z1.2 z3.2)) * i26 + ((-2) * ((c.MW : ℂ)) * ((c.e : ℂ)) ^ 2 * (ab z1.1 z2.1) * (mb z0.2 (p 1) z3.1)) * i27 + ((2) * ((c.e : ℂ)) ^ 2 * (mb z0.2 (p 2) ρ0) * (sb z1.2 z2.2)) * i28 + ((-2) * ((c.MW : ℂ)) * ((c.e : ℂ)) ^ 2 * (sb z0.2 z1.2) * (sb z0.2 z2.2) * (sb z0.2 z3.2)) * i29 + ((2) * ((c.e : ℂ)) ^ 2 * (mb z0.2 (p 2) z1.1) * (sb z0.2 z1.2) * (sb z0.2 z3.2)) * i30 + ((2) * ((c.MW : ℂ)) * ((c.e : ℂ)) ^ 2 * (sb z0.2 z1.2) * (sb z0.2 z3.2) ^ 2 + (2) * ((c.e : ℂ)) ^ 2 * (mb z0.2 (p 1) z3.1) * (sb z0.2 z1.2) * (sb z0.2 z3.2)) * i31 + ((2) * ((c.MW : ℂ)) * ((c.e : ℂ)) ^ 2 * ((c.CW : ℂ)⁻¹) * (sb z0.2 z1.2) * (sb z0.2 z2.2) ^ 2 + (2) * ((c.e : ℂ)) ^ 2 * (mb z0.2 (p 1) z2.1) * (sb z0.2 z1.2) * (sb z0.2 z2.2)) * i32 + ((2) * ((c.MW : ℂ)) * ((c.e : ℂ)) ^ 2 * (sb z0.2 z1.2) ^ 2 * (sb z0.2 z2.2) + (2) * ((c.e : ℂ)) ^ 2 * (mb z0.2 (p 2) z1.1) * (sb z0.2 z1.2) * (sb z0.2 z2.2)) * i33 + ((-2) * ((c.e : ℂ)) ^ 2 * (mb z0.2 (p 1) z3.1) * (sb z0.2 z2.2) * (sb z0.2 z3.2)) * i34 + ((2) * ((c.e : ℂ)) ^ 2 * (mb z0.2 (p 1) z2.1) * (sb z0.2 z2.2) * (sb z0.2 z3.2)) * i35)) * ((1) * ((c.CW : ℂ)) ^ 2 * ((c.MW : ℂ)⁻¹) ^ 3 * ((c.SW : ℂ)⁻¹) * ((N.c 1)⁻¹)) + ((-2) * ((c.e : ℂ)) ^ 2 * ((c.CW : ℂ)⁻¹) * ((c.SW : ℂ)⁻¹) * ((N.c 1)⁻¹) * (ab z1.1 z2.1) * (ab z2.1 z3.1) * (sb z0.2 z1.2) * (sb z0.2 z3.2)) * hcs + ((2) * ((c.CW : ℂ)) * ((c.e : ℂ)) ^ 2 * ((c.CW : ℂ)⁻¹) * ((c.SW : ℂ)⁻¹) * ((N.c 1)⁻¹) * (ab z1.1 z2.1) * (ab z1.1 z3.1) * (sb z0.2 z2.2) * (sb z0.2 z3.2) + (-2) * ((c.CW : ℂ)) * ((c.e : ℂ)) ^ 2 * ((c.CW : ℂ)⁻¹) * ((c.SW : ℂ)⁻¹) * ((N.c 1)⁻¹) * (ab z1.1 z3.1) * (ab z2.1 z3.1) * (sb z0.2 z1.2) * (sb z0.2 z2.2) + (-1) * ((c.CW : ℂ)) ^ 2 * ((c.MW : ℂ)) * (((√2 : ℝ) : ℂ)) ^ 2 * ((c.e : ℂ)) ^ 2 * ((c.MW : ℂ)⁻¹) ^ 3 * ((c.SW : ℂ)⁻¹) * (ab z2.1 z3.1) * (sb z0.2 z1.2) ^ 2 * (sb z2.2 z3.2) / (2) + (1) * ((c.CW : ℂ)) ^ 2 * (((√2 : ℝ) : ℂ)) ^ 2 * ((c.e : ℂ)) ^ 2 * ((c.MW : ℂ)⁻¹) ^ 3 * ((c.SW : ℂ)⁻¹) * (ab z0.1 z2.1) * (ab z1.1 z3.1) * (sb z0.2 z1.2) * (sb z0.2 z2.2) * (sb z0.2 z3.2) + (-1) * ((c.CW : ℂ)) ^ 2 * (((√2 : ℝ) : ℂ)) ^ 2 * ((c.e : ℂ)) ^ 2 * ((c.MW : ℂ)⁻¹) ^ 3 * ((c.SW : ℂ)⁻¹) * (ab z0.1 z3.1) * (ab z1.1 z2.1) * (sb z0.2 z1.2) * (sb z0.2 z2.2) * (sb z0.2 z3.2) + (1) * ((c.CW : ℂ)) ^ 2 * (((√2 : ℝ) : ℂ)) ^ 2 * ((c.e : ℂ)) ^ 2 * ((c.MW : ℂ)⁻¹) ^ 3 * ((c.SW : ℂ)⁻¹) * (ab z1.1 z2.1) * (mb z3.2 (p 1) z3.1) * (sb z0.2 z1.2) * (sb z0.2 z2.2) + (-1) * ((c.CW : ℂ)) ^ 2 * (((√2 : ℝ) : ℂ)) ^ 2 * ((c.e : ℂ)) ^ 2 * ((c.MW : ℂ)⁻¹) ^ 3 * ((c.SW : ℂ)⁻¹) * (ab z1.1 z3.1) * (mb z2.2 (p 1) z2.1) * (sb z0.2 z1.2) * (sb z0.2 z3.2) + (-1) * ((c.CW : ℂ)) ^ 2 * (((√2 : ℝ) : ℂ)) ^ 2 * ((c.e : ℂ)) ^ 2 * ((c.MW : ℂ)⁻¹) ^ 3 * ((c.SW : ℂ)⁻¹) * (ab z2.1 z3.1) * (mb z0.2 (p 2) z1.1) * (sb z0.2 z1.2) * (sb z2.2 z3.2) + (2) * ((c.CW : ℂ)) ^ 2 * ((c.e : ℂ)) ^ 2 * ((c.CW : ℂ)⁻¹) * ((c.SW : ℂ)⁻¹) * ((N.c 1)⁻¹) * (ab z1.1 z2.1) * (ab z2.1 z3.1) * (sb z0.2 z1.2) * (sb z0.2 z3.2) + (2) * ((c.CW : ℂ)) ^ 2 * ((c.e : ℂ)) ^ 2 * ((c.CW : ℂ)⁻¹) * ((c.SW : ℂ)⁻¹) * ((N.c 1)⁻¹) * (ab z1.1 z2.1) ^ 2 * (sb z0.2 z3.2) ^ 2 + (2) * ((c.CW : ℂ)) ^ 2 * ((c.e : ℂ)) ^ 2 * ((c.CW : ℂ)⁻¹) * ((c.SW : ℂ)⁻¹) * ((N.c 1)⁻¹) * (ab z1.1 z3.1) ^ 2 * (sb z0.2 z2.2) ^ 2 + (2) * ((c.CW : ℂ)) ^ 2 * ((c.e : ℂ)) ^ 2 * ((c.CW : ℂ)⁻¹) * ((c.SW : ℂ)⁻¹) * ((N.c 1)⁻¹) * (ab z2.1 z3.1) ^ 2 * (sb z0.2 z1.2) ^ 2 + (-2) * ((c.SW : ℂ)) ^ 2 * ((c.e : ℂ)) ^ 2 * ((c.CW : ℂ)⁻¹) * ((c.SW : ℂ)⁻¹) * ((N.c 1)⁻¹) * (ab z1.1 z2.1) * (ab z2.1 z3.1) * (sb z0.2 z1.2) * (sb z0.2 z3.2)) * y0 + ((-2) * ((c.CW : ℂ)) ^ 2 * ((c.e : ℂ)) ^ 2 * ((c.MW : ℂ)⁻¹) ^ 3 * ((c.SW : ℂ)⁻¹) * (ab z0.1 z2.1) * (ab z1.1 z3.1) * (sb z0.2 z1.2) * (sb z0.2 z2.2) * (sb z0.2 z3.2) + (2) * ((c.CW : ℂ)) ^ 2 * ((c.e : ℂ)) ^ 2 * ((c.MW : ℂ)⁻¹) ^ 3 * ((c.SW : ℂ)⁻¹) * (ab z0.1 z3.1) * (ab z1.1 z2.1) * (sb z0.2 z1.2) * (sb z0.2 z2.2) * (sb z0.2 z3.2) + (1) * ((c.CW : ℂ)) ^ 2 * ((c.e : ℂ)) ^ 2 * ((c.MW : ℂ)⁻¹) ^ 3 * ((c.SW : ℂ)⁻¹) * (ab z1.1 z2.1) * (mb z0.2 (p 1) z3.1) * (sb z0.2 z3.2) * (sb z1.2 z2.2) + (-2) * ((c.CW : ℂ)) ^ 2 * ((c.e : ℂ)) ^ 2 * ((c.MW : ℂ)⁻¹) ^ 3 * ((c.SW : ℂ)⁻¹) * (ab z1.1 z2.1) * (mb z3.2 (p 1) z3.1) * (sb z0.2 z1.2) * (sb z0.2 z2.2) + (-2) * ((c.CW : ℂ)) ^ 2 * ((c.e : ℂ)) ^ 2 * ((c.MW : ℂ)⁻¹) ^ 3 * ((c.SW : ℂ)⁻¹) * (ab z1.1 z3.1) * (mb z0.2 (p 1) z2.1) * (sb z0.2 z2.2) * (sb z1.2 z3.2) + (2) * ((c.CW : ℂ)) ^ 2 * ((c.e : ℂ)) ^ 2 * ((c.MW : ℂ)⁻¹) ^ 3 * ((c.SW : ℂ)⁻¹) * (ab z1.1 z3.1) * (mb z2.2 (p 1) z2.1) * (sb z0.2 z1.2) * (sb z0.2 z3.2) + (2) * ((c.CW : ℂ)) ^ 2 * ((c.e : ℂ)) ^ 2 * ((c.MW : ℂ)⁻¹) ^ 3 * ((c.SW : ℂ)⁻¹) * (ab z2.1 z3.1) * (mb z0.2 (p 2) z1.1) * (sb z0.2 z1.2) * (sb z2.2 z3.2)) * y1 + ((-2) * ((c.CW : ℂ)) * ((c.MW : ℂ)) ^ 3 * ((c.e : ℂ)) ^ 2 * ((c.CW : ℂ)⁻¹) * ((c.MW : ℂ)⁻¹) ^ 3 * ((c.SW : ℂ)⁻¹) * ((N.c 1)⁻¹) * (ab z1.1 z2.1) * (ab z1.1 z3.1) * (sb z0.2 z2.2) * (sb z0.2 z3.2) + (2) * ((c.CW : ℂ)) * ((c.MW : ℂ)) ^ 3 * ((c.e : ℂ)) ^ 2 * ((c.CW : ℂ)⁻¹) * ((c.MW : ℂ)⁻¹) ^ 3 * ((c.SW : ℂ)⁻¹) * ((N.c 1)⁻¹) * (ab z1.1 z3.1) * (ab z2.1 z3.1) * (sb z0.2 z1.2) * (sb z0.2 z2.2) + (2) * ((c.CW : ℂ)) * ((c.MW : ℂ)) ^ 3 * ((c.e : ℂ)) ^ 2 * ((c.CW : ℂ)⁻¹) ^ 2 * ((c.MW : ℂ)⁻¹) ^ 3 * ((c.SW : ℂ)⁻¹) * ((N.c 1)⁻¹) * (ab z1.1 z2.1) * (ab z2.1 z3.1) * (sb z0.2 z1.2) * (sb z0.2 z3.2) + (-4) * ((c.CW : ℂ)) * ((c.MW : ℂ)) ^ 3 * ((c.e : ℂ)) ^ 2 * ((c.MW : ℂ)⁻¹) ^ 3 * ((c.SW : ℂ)⁻¹) * ((N.c 1)⁻¹) * (ab z1.1 z2.1) * (ab z2.1 z3.1) * (sb z0.2 z1.2) * (sb z0.2 z3.2) + (-2) * ((c.CW : ℂ)) * ((c.MW : ℂ)) ^ 3 * ((c.e : ℂ)) ^ 2 * ((c.MW : ℂ)⁻¹) ^ 3 * ((c.SW : ℂ)⁻¹) * ((N.c 1)⁻¹) * (ab z1.1 z2.1) ^ 2 * (sb z0.2 z3.2) ^ 2 + (-2) * ((c.CW : ℂ)) * ((c.MW : ℂ)) ^ 3 * ((c.e : ℂ)) ^ 2 * ((c.MW : ℂ)⁻¹) ^ 3 * ((c.SW : ℂ)⁻¹) * ((N.c 1)⁻¹) * (ab z1.1 z3.1) ^ 2 * (sb z0.2 z2.2) ^ 2 + (-2) * ((c.CW : ℂ)) * ((c.MW : ℂ)) ^ 3 * ((c.e : ℂ)) ^ 2 * ((c.MW : ℂ)⁻¹) ^ 3 * ((c.SW : ℂ)⁻¹) * ((N.c 1)⁻¹) * (ab z2.1 z3.1) ^ 2 * (sb z0.2 z1.2) ^ 2 + (4) * ((c.CW : ℂ)) * ((c.e : ℂ)) ^ 2 * ((c.SW : ℂ)⁻¹) * ((N.c 1)⁻¹) * (ab z1.1 z2.1) * (ab z2.1 z3.1) * (sb z0.2 z1.2) * (sb z0.2 z3.2) + (2) * ((c.CW : ℂ)) * ((c.e : ℂ)) ^ 2 * ((c.SW : ℂ)⁻¹) * ((N.c 1)⁻¹) * (ab z1.1 z2.1) ^ 2 * (sb z0.2 z3.2) ^ 2 + (2) * ((c.CW : ℂ)) * ((c.e : ℂ)) ^ 2 * ((c.SW : ℂ)⁻¹) * ((N.c 1)⁻¹) * (ab z1.1 z3.1) ^ 2 * (sb z0.2 z2.2) ^ 2 + (2) * ((c.CW : ℂ)) * ((c.e : ℂ)) ^ 2 * ((c.SW : ℂ)⁻¹) * ((N.c 1)⁻¹) * (ab z2.1 z3.1) ^ 2 * (sb z0.2 z1.2) ^ 2 + (2) * ((c.MW : ℂ)) ^ 3 * ((c.e : ℂ)) ^ 2 * ((c.CW : ℂ)⁻¹) * ((c.MW : ℂ)⁻¹) ^ 3 * ((c.SW : ℂ)⁻¹) * ((N.c 1)⁻¹) * (ab z1.1 z2.1) * (ab z2.1 z3.1) * (sb z0.2 z1.2) * (sb z0.2 z3.2) + (-2) * ((c.MW : ℂ)) ^ 3 * ((c.e : ℂ)) ^ 2 * ((c.MW : ℂ)⁻¹) ^ 3 * ((c.SW : ℂ)⁻¹) * ((N.c 1)⁻¹) * (ab z1.1 z2.1) * (ab z1.1 z3.1) * (sb z0.2 z2.2) * (sb z0.2 z3.2) + (2) * ((c.MW : ℂ)) ^ 3 * ((c.e : ℂ)) ^ 2 * ((c.MW : ℂ)⁻¹) ^ 3 * ((c.SW : ℂ)⁻¹) * ((N.c 1)⁻¹) * (ab z1.1 z3.1) * (ab z2.1 z3.1) * (sb z0.2 z1.2) * (sb z0.2 z2.2) + (2) * ((c.e : ℂ)) ^ 2 * ((c.SW : ℂ)⁻¹) * ((N.c 1)⁻¹) * (ab z1.1 z2.1) * (ab z1.1 z3.1) * (sb z0.2 z2.2) * (sb z0.2 z3.2) + (-2) * ((c.e : ℂ)) ^ 2 * ((c.SW : ℂ)⁻¹) * ((N.c 1)⁻¹) * (ab z1.1 z3.1) * (ab z2.1 z3.1) * (sb z0.2 z1.2) * (sb z0.2 z2.2)) * yCW + ((-4) * ((c.CW : ℂ)) * ((c.MW : ℂ)) * ((c.e : ℂ)) ^ 2 * ((c.MW : ℂ)⁻¹) * ((c.SW : ℂ)⁻¹) * ((N.c 1)⁻¹) * (ab z1.1 z2.1) * (ab z2.1 z3.1) * (sb z0.2 z1.2) * (sb z0.2 z3.2) + (-2) * ((c.CW : ℂ)) * ((c.MW : ℂ)) * ((c.e : ℂ)) ^ 2 * ((c.MW : ℂ)⁻¹) * ((c.SW : ℂ)⁻¹) * ((N.c 1)⁻¹) * (ab z1.1 z2.1) ^ 2 * (sb z0.2 z3.2) ^ 2 + (-2) * ((c.CW : ℂ)) * ((c.MW : ℂ)) * ((c.e : ℂ)) ^ 2 * ((c.MW : ℂ)⁻¹) * ((c.SW : ℂ)⁻¹) * ((N.c 1)⁻¹) * (ab z1.1 z3.1) ^ 2 * (sb z0.2 z2.2) ^ 2 + (-2) * ((c.CW : ℂ)) * ((c.MW : ℂ)) * ((c.e : ℂ)) ^ 2 * ((c.MW : ℂ)⁻¹) * ((c.SW : ℂ)⁻¹) * ((N.c 1)⁻¹) * (ab z2.1 z3.1) ^ 2 * (sb z0.2 z1.2) ^ 2 + (-4) * ((c.CW : ℂ)) * ((c.MW : ℂ)) ^ 2 * ((c.e : ℂ)) ^ 2 * ((c.MW : ℂ)⁻¹) ^ 2 * ((c.SW : ℂ)⁻¹) * ((N.c 1)⁻¹) * (ab z1.1 z2.1) * (ab z2.1 z3.1) * (sb z0.2 z1.2) * (sb z0.2 z3.2) + (-2) * ((c.CW : ℂ)) * ((c.MW : ℂ)) ^ 2 * ((c.e : ℂ)) ^ 2 * ((c.MW : ℂ)⁻¹) ^ 2 * ((c.SW : ℂ)⁻¹) * ((N.c 1)⁻¹) * (ab z1.1 z2.1) ^ 2 * (sb z0.2 z3.2) ^ 2 + (-2) * ((c.CW : ℂ)) * ((c.MW : ℂ)) ^ 2 * ((c.e : ℂ)) ^ 2 * ((c.MW : ℂ)⁻¹) ^ 2 * ((c.SW : ℂ)⁻¹) * ((N.c 1)⁻¹) * (ab z1.1 z3.1) ^ 2 * (sb z0.2 z2.2) ^ 2 + (-2) * ((c.CW : ℂ)) * ((c.MW : ℂ)) ^ 2 * ((c.e : ℂ)) ^ 2 * ((c.MW : ℂ)⁻¹) ^ 2 * ((c.SW : ℂ)⁻¹) * ((N.c 1)⁻¹) * (ab z2.1 z3.1) ^ 2 * (sb z0.2 z1.2) ^ 2 + (-4) * ((c.CW : ℂ)) * ((c.e : ℂ)) ^ 2 * ((c.SW : ℂ)⁻¹) * ((N.c 1)⁻¹) * (ab z1.1 z2.1) * (ab z2.1 z3.1) * (sb z0.2 z1.2) * (sb z0.2 z3.2) + (-2) * ((c.CW : ℂ)) * ((c.e : ℂ)) ^ 2 * ((c.SW : ℂ)⁻¹) * ((N.c 1)⁻¹) * (ab z1.1 z2.1) ^ 2 * (sb z0.2 z3.2) ^ 2 + (-2) * ((c.CW : ℂ)) * ((c.e : ℂ)) ^ 2 * ((c.SW : ℂ)⁻¹) * ((N.c 1)⁻¹) * (ab z1.1 z3.1) ^ 2 * (sb z0.2 z2.2) ^ 2 + (-2) * ((c.CW : ℂ)) * ((c.e : ℂ)) ^ 2 * ((c.SW : ℂ)⁻¹) * ((N.c 1)⁻¹) * (ab z2.1 z3.1) ^ 2 * (sb z0.2 z1.2) ^ 2 + (-1) * ((c.CW : ℂ)) ^ 2 * (((√2 : ℝ) : ℂ)) ^ 2 * ((c.e : ℂ)) ^ 2 * ((c.MW : ℂ)⁻¹) ^ 2 * ((c.SW : ℂ)⁻¹) * (N.c 0) * ((N.c 1)⁻¹) * (ab z1.1 z2.1) * (sb z0.2 z3.2) ^ 2 * (sb z1.2 z2.2) / (2) + (1) * ((c.CW : ℂ)) ^ 2 * ((c.e : ℂ)) ^ 2 * ((c.MW : ℂ)⁻¹) ^ 2 * ((c.SW : ℂ)⁻¹) * (N.c 0) * ((N.c 1)⁻¹) * (ab z1.1 z2.1) * (sb z0.2 z3.2) ^ 2 * (sb z1.2 z2.2) + (2) * ((c.MW : ℂ)) * ((c.e : ℂ)) ^ 2 * ((c.CW : ℂ)⁻¹) * ((c.MW : ℂ)⁻¹) * ((c.SW : ℂ)⁻¹) * ((N.c 1)⁻¹) * (ab z1.1 z2.1) * (ab z2.1 z3.1) * (sb z0.2 z1.2) * (sb z0.2 z3.2) + (-2) * ((c.MW : ℂ)) * ((c.e : ℂ)) ^ 2 * ((c.MW : ℂ)⁻¹) * ((c.SW : ℂ)⁻¹) * ((N.c 1)⁻¹) * (ab z1.1 z2.1) * (ab z1.1 z3.1) * (sb z0.2 z2.2) * (sb z0.2 z3.2) + (2) * ((c.MW : ℂ)) * ((c.e : ℂ)) ^ 2 * ((c.MW : ℂ)⁻¹) * ((c.SW : ℂ)⁻¹) * ((N.c 1)⁻¹) * (ab z1.1 z3.1) * (ab z2.1 z3.1) * (sb z0.2 z1.2) * (sb z0.2 z2.2) + (2) * ((c.MW : ℂ)) ^ 2 * ((c.e : ℂ)) ^ 2 * ((c.CW : ℂ)⁻¹) * ((c.MW : ℂ)⁻¹) ^ 2 * ((c.SW : ℂ)⁻¹) * ((N.c 1)⁻¹) * (ab z1.1 z2.1) * (ab z2.1 z3.1) * (sb z0.2 z1.2) * (sb z0.2 z3.2) + (-2) * ((c.MW : ℂ)) ^ 2 * ((c.e : ℂ)) ^ 2 * ((c.MW : ℂ)⁻¹) ^ 2 * ((c.SW : ℂ)⁻¹) * ((N.c 1)⁻¹) * (ab z1.1 z2.1) * (ab z1.1 z3.1) * (sb z0.2 z2.2) * (sb z0.2 z3.2) + (2) * ((c.MW : ℂ)) ^ 2 * ((c.e : ℂ)) ^ 2 * ((c.MW : ℂ)⁻¹) ^ 2 * ((c.SW : ℂ)⁻¹) * ((N.c 1)⁻¹) * (ab z1.1 z3.1) * (ab z2.1 z3.1) * (sb z0.2 z1.2) * (sb z0.2 z2.2) + (2) * ((c.e : ℂ)) ^ 2 * ((c.CW : ℂ)⁻¹) * ((c.SW : ℂ)⁻¹) * ((N.c 1)⁻¹) * (ab z1.1 z2.1) * (ab z2.1 z3.1) * (sb z0.2 z1.2) * (sb z0.2 z3.2) + (-2) * ((c.e : ℂ)) ^ 2 * ((c.SW : ℂ)⁻¹) * ((N.c 1)⁻¹) * (ab z1.1 z2.1) * (ab z1.1 z3.1) * (sb z0.2 z2.2) * (sb z0.2 z3.2) + (2) * ((c.e : ℂ)) ^ 2 * ((c.SW : ℂ)⁻¹) * ((N.c 1)⁻¹) * (ab z1.1 z3.1) * (ab z2.1 z3.1) * (sb z0.2 z1.2) * (sb z0.2 z2.2)) * yMW + ((-1) * ((c.CW : ℂ)) ^ 2 * ((c.e : ℂ)) ^ 2 * ((c.MW : ℂ)⁻¹) ^ 2 * ((c.SW : ℂ)⁻¹) * (N.c 0) * ((N.c 1)⁻¹) * (ab z1.1 z2.1) * (sb z0.2 z3.2) ^ 2 * (sb z1.2 z2.2) / (2) + (-1) * ((c.CW : ℂ)) ^ 2 * ((c.e : ℂ)) ^ 2 * ((c.MW : ℂ)⁻¹) ^ 3 * ((c.SW : ℂ)⁻¹) * (N.c 0) * ((N.c 1)⁻¹) * (ab z1.1 z2.1) * (mb z0.2 (p 1) z3.1) * (sb z0.2 z3.2) * (sb z1.2 z2.2) + (-1) * ((c.CW : ℂ)) ^ 2 * ((c.e : ℂ)) ^ 2 * ((c.MW : ℂ)⁻¹) ^ 3 * ((c.SW : ℂ)⁻¹) * (N.c 0) * ((N.c 1)⁻¹) * (ab z1.1 z3.1) * (mb z2.2 (p 1) z2.1) * (sb z0.2 z1.2) * (sb z0.2 z3.2) + (-1) * ((c.CW : ℂ)) ^ 2 * ((c.e : ℂ)) ^ 2 * ((c.MW : ℂ)⁻¹) ^ 3 * ((c.SW : ℂ)⁻¹) * (N.c 0) * ((N.c 1)⁻¹) * (ab z2.1 z3.1) * (mb z1.2 (p 2) z1.1) * (sb z0.2 z2.2) * (sb z0.2 z3.2) + (-1) * ((c.CW : ℂ)) ^ 2 * ((c.e : ℂ)) ^ 2 * ((c.MW : ℂ)⁻¹) ^ 3 * ((c.SW : ℂ)⁻¹) * ((N.c 1)⁻¹) * (ab z0.1 z3.1) * (ab z1.1 z2.1) * (mb z0.2 (p 2) ρ0) * (sb z0.2 z3.2) * (sb z1.2 z2.2) / (2) + (1) * ((c.CW : ℂ)) ^ 2 * ((c.e : ℂ)) ^ 2 * ((c.MW : ℂ)⁻¹) ^ 3 * ((c.SW : ℂ)⁻¹) * ((N.c 1)⁻¹) * (ab z1.1 z2.1) * (mb z0.2 (p 2) ρ0) * (mb z3.2 (p 1) z3.1) * (sb z1.2 z2.2) + (-1) * ((c.CW : ℂ)) ^ 2 * ((c.e : ℂ)) ^ 2 * ((c.MW : ℂ)⁻¹) ^ 3 * ((c.SW : ℂ)⁻¹) * ((N.c 1)⁻¹) * (ab z1.1 z3.1) * (mb z0.2 (p 2) ρ0) * (mb z2.2 (p 1) z2.1) * (sb z1.2 z3.2) + (-1) * ((c.CW : ℂ)) ^ 2 * ((c.e : ℂ)) ^ 2 * ((c.MW : ℂ)⁻¹) ^ 3 * ((c.SW : ℂ)⁻¹) * ((N.c 1)⁻¹) * (ab z2.1 z3.1) * (mb z0.2 (p 2) ρ0) * (mb z1.2 (p 2) z1.1) * (sb z2.2 z3.2) + (1) * ((c.CW : ℂ)) ^ 2 * ((c.e : ℂ)) ^ 2 * ((c.MW : ℂ)⁻¹) ^ 3 * ((c.SW : ℂ)⁻¹) * (ab z0.1 z2.1) * (ab z1.1 z3.1) * (sb z0.2 z1.2) * (sb z0.2 z2.2) * (sb z0.2 z3.2) + (-1) * ((c.CW : ℂ)) ^ 2 * ((c.e : ℂ)) ^ 2 * ((c.MW : ℂ)⁻¹) ^ 3 * ((c.SW : ℂ)⁻¹) * (ab z0.1 z3.1) * (ab z1.1 z2.1) * (sb z0.2 z1.2) * (sb z0.2 z2.2) * (sb z0.2 z3.2) + (-1) * ((c.CW : ℂ)) ^ 2 * ((c.e : ℂ)) ^ 2 * ((c.MW : ℂ)⁻¹) ^ 3 * ((c.SW : ℂ)⁻¹) * (ab z1.1 z2.1) * (mb z0.2 (p 1) z3.1) * (sb z0.2 z3.2) * (sb z1.2 z2.2) / (2) + (1) * ((c.CW : ℂ)) ^ 2 * ((c.e : ℂ)) ^ 2 * ((c.MW : ℂ)⁻¹) ^ 3 * ((c.SW : ℂ)⁻¹) * (ab z1.1 z2.1) * (mb z3.2 (p 1) z3.1) * (sb z0.2 z1.2) * (sb z0.2 z2.2) + (1) * ((c.CW : ℂ)) ^ 2 * ((c.e : ℂ)) ^ 2 * ((c.MW : ℂ)⁻¹) ^ 3 * ((c.SW : ℂ)⁻¹) * (ab z1.1 z3.1) * (mb z0.2 (p 1) z2.1) * (sb z0.2 z2.2) * (sb z1.2 z3.2) + (-1) * ((c.CW : ℂ)) ^ 2 * ((c.e : ℂ)) ^ 2 * ((c.MW : ℂ)⁻¹) ^ 3 * ((c.SW : ℂ)⁻¹) * (ab z1.1 z3.1) * (mb z2.2 (p 1) z2.1) * (sb z0.2 z1.2) * (sb z0.2 z3.2) + (-1) * ((c.CW : ℂ)) ^ 2 * ((c.e : ℂ)) ^ 2 * ((c.MW : ℂ)⁻¹) ^ 3 * ((c.SW : ℂ)⁻¹) * (ab z2.1 z3.1) * (mb z0.2 (p 2) z1.1) * (sb z0.2 z1.2) * (sb z2.2 z3.2)) * x22
theorem AWZW.keyM {c : Constants} {p : Nat → V4 ℝ} {N : Env} (hc : c.Physical) (hb : Balanced p) (r3 : N.r 3 = c.SW) (r4 : N.r 4 = c.CW) (r7 : N.r 7 = (((((2 : Nat) : ℝ) * c.e) * c.e) / (c.CW * c.SW))) (d0 : pole c.MW c.WW (plus (p 0) (p 1)) = N.c 0) (n0 : N.c 0 ≠ 0) (d1 : pole c.MW c.WW (plus (p 0) (backward (p 3))) = N.c 1) (n1 : N.c 1 ≠ 0) {z0 z1 z2 z3 : Pair} (b1 : Bold (p 1) c.MW z1) (b2 : Bold (p 2) c.MZ z2) (b3 : Bold (p 3) c.MW z3) (l0 : Light (p 0) z0) (e01 : mb z0.2 (p 1) z0.1 = N.c 0) (e03 : mb z0.2 (p 3) z0.1 = -N.c 1) (q1 : msq (p 1) = c.MW ^ 2) (q2 : msq (p 2) = c.MZ ^ 2) (q3 : msq (p 3) = c.MW ^ 2) {ρ0 : V2} (R0 : ∀ Y, sb ρ0 Y = mb Y (p 1) z0.1) :
    AWZW.formM N p z0 z1 z1 z2 z2 z3 z3 * sb ρ0 z0.2 = ((√2 : ℝ) * ((1 : ℂ) * ((2 * √2 / (c.MZ * c.MW * c.MW) : ℝ) : ℂ))) * AWZW.react.bare4 c p (pv z0.1 ρ0) (pv z1.1 z1.2) (pv z2.1 z2.2) (pv z3.1 z3.2) := by
  rw [AWZW.react.bare4_parts c p (b₀ := .photon) (b₁ := .wPlus) (b₂ := .z) (b₃ := .wMinus) rfl rfl rfl rfl, AWZW.formM]
  have T0 := l0.mb_minus ρ0
  have T1 := b1.mb_zero'
  have T2 := mb_back_zero (b2.mb_zero')
  have T3 := mb_back_zero (b3.mb_zero')
  have Q1 : msq (p 1) = c.MW ^ 2 := q1
  have Q3 : msq (backward (p 3)) = c.MW ^ 2 := (msq_backward _).trans q3
  simp only [contact, seagull, gauge4, between, carriers, List.map_cons, List.map_nil, List.sum_cons, List.sum_nil]
  simp only [toHiggs, toVector, higgs2, gauge3, Boson.anti, reduceCtorEq, and_self, and_true, and_false, true_and, false_and, if_true, if_false, Complex.ofReal_zero, zero_smul, carry_none, zero_mul, mul_zero, zero_div, neg_zero, add_zero, zero_add, sub_zero, sub_self, contract_zero, contract_zero_left]
  first | rw [dress_minus c (x := .wPlus) (.inl rfl) hc.MW l0 Q1 T1] | rw [dress_minus c (x := .wMinus) (.inr rfl) hc.MW l0 Q1 T1]
  first | rw [dress_minus c (x := .wPlus) (.inl rfl) hc.MW l0 Q3 T3] | rw [dress_minus c (x := .wMinus) (.inr rfl) hc.MW l0 Q3 T3]
  simp only [d0, d1, yangMills_transverse T1 T2, yangMills_transverse T1 T3, yangMills_transverse T2 T3, contract_add, contract_smul, contract_smul_left, contract_four_pv, contract_pv_four, contract_pv, mb_backward]
  have R00 := (ref_minus_minus R0 R0).2
  have i0 := mb_schouten_left z0.2 z1.2 z3.2 (p 1) z0.1
  have i1 := ab_schouten z1.1 z2.1 z3.1 z0.1
  have i2 := mb_schouten_left z0.2 z1.2 z2.2 (p 1) z0.1
  have i3 := mb_schouten_right z0.2 (p 1) z0.1 z1.1 z3.1
  have i4 := mb_schouten_right z2.2 (p 1) z0.1 z1.1 z3.1
  have i5 := mb_schouten_right z3.2 (p 1) z0.1 z1.1 z2.1
  have i6 := mb_schouten_right z1.2 (p 2) z0.1 z1.1 z2.1
  have i7 := mb_schouten_right z1.2 (p 2) z0.1 z1.1 z3.1
  have i8 := mb_schouten_left z0.2 z2.2 z3.2 (p 1) z0.1
  have i9 := mb_schouten_left z0.2 z1.2 z3.2 (p 2) z0.1
  have i10 := mb_schouten_right z2.2 (p 1) z0.1 z1.1 z2.1
  have i11 := mb_schouten_right z0.2 (p 2) z0.1 z1.1 z3.1
  have i12 := sb_schouten z1.2 z2.2 z3.2 z0.2
  have i13 := mb_schouten_left z0.2 z1.2 z2.2 (p 2) z0.1
  have i14 := mb_schouten_right z3.2 (p 1) z0.1 z1.1 z3.1
  have i15 := mb_schouten_right z1.2 (p 2) z0.1 z2.1 z3.1
  have i16 := mb_schouten_right z1.2 (p 2) z1.1 z2.1 z3.1
  have i17 := mb_schouten_right z3.2 (p 1) z0.1 z2.1 z3.1
  have i18 := mb_schouten_right z2.2 (p 1) z0.1 z2.1 z3.1
  have i19 := mb_schouten_right z0.2 (p 2) z0.1 z1.1 z2.1
  have i20 := mb_schouten_left z1.2 z2.2 z3.2 (p 1) z0.1
  have i21 := mb_schouten_left z1.2 z2.2 ρ0 (p 2) z0.1
  have i22 := mb_schouten_left z0.2 z2.2 ρ0 (p 2) z0.1
  have i23 := mb_schouten_left z0.2 z1.2 ρ0 (p 2) z0.1
  have i24 := mb_schouten_left z1.2 z2.2 z3.2 (p 2) z1.1
  have i25 := mb_schouten_left z0.2 z2.2 z3.2 (p 2) z0.1
  have i26 := mb_schouten_left z1.2 z2.2 z3.2 (p 2) z0.1
  have i27 := mb_schouten_right z2.2 (p 1) z1.1 z2.1 z3.1
  have i28 := mb_schouten_left z1.2 z3.2 ρ0 (p 2) z0.1
  simp only [sb_swap ρ0 z0.2, sb_swap ρ0 z1.2, sb_swap ρ0 z2.2, sb_swap ρ0 z3.2, R00, R0, l0.mb_eq, b1.mb_left, b1.mb_right, b2.mb_left, b2.mb_right, b3.mb_left, b3.mb_right, e01, e03, mb_two hb z0.2 z0.1, mb_three hb z0.2 z1.1, mb_three hb z0.2 z2.1, mb_two hb z0.2 z3.1, mb_three hb z1.2 z0.1, mb_three hb z1.2 z1.1, mb_three hb z1.2 z2.1, mb_two hb z1.2 z3.1, mb_three hb z2.2 z0.1, mb_three hb z2.2 z1.1, mb_three hb z2.2 z2.1, mb_one hb z2.2 z3.1, mb_two hb z3.2 z0.1, mb_two hb z3.2 z1.1, mb_one hb z3.2 z2.1, mb_two hb z3.2 z3.1, mb_three hb ρ0 z0.1, ab_self, sb_self] at i0 i1 i2 i3 i4 i5 i6 i7 i8 i9 i10 i11 i12 i13 i14 i15 i16 i17 i18 i19 i20 i21 i22 i23 i24 i25 i26 i27 i28 ⊢
  simp only [ab_swap z0.1 z1.1, sb_swap z0.2 z1.2, ab_swap z0.1 z2.1, sb_swap z0.2 z2.2, ab_swap z0.1 z3.1, sb_swap z0.2 z3.2, ab_swap z1.1 z2.1, sb_swap z1.2 z2.2, ab_swap z1.1 z3.1, sb_swap z1.2 z3.2, ab_swap z2.1 z3.1, sb_swap z2.2 z3.2] at i0 i1 i2 i3 i4 i5 i6 i7 i8 i9 i10 i11 i12 i13 i14 i15 i16 i17 i18 i19 i20 i21 i22 i23 i24 i25 i26 i27 i28 ⊢
  simp only [r3, r4, r7, Constants.invVev, ← c.mz]
  have xMW : (c.MW : ℂ) ≠ 0 := by exact_mod_cast hc.MW
  have xSW : (c.SW : ℂ) ≠ 0 := by exact_mod_cast hc.SW
  have xCW : (c.CW : ℂ) ≠ 0 := by exact_mod_cast hc.CW
  have x2 : ((√2 : ℝ) : ℂ) ≠ 0 := by exact_mod_cast (Real.sqrt_pos.2 two_pos).ne'
  have x22 : ((√2 : ℝ) : ℂ) ^ 2 = 2 := by rw [← Complex.ofReal_pow, Real.sq_sqrt two_pos.le]; norm_num
  have hcs : (c.SW : ℂ) ^ 2 + (c.CW : ℂ) ^ 2 = 1 := by rw [← Complex.ofReal_pow, ← Complex.ofReal_pow, ← Complex.ofReal_add, hc.mix, Complex.ofReal_one]
  try simp only [← c.mz] at i0 i1 i2 i3 i4 i5 i6 i7 i8 i9 i10 i11 i12 i13 i14 i15 i16 i17 i18 i19 i20 i21 i22 i23 i24 i25 i26 i27 i28
  push_cast at i0 i1 i2 i3 i4 i5 i6 i7 i8 i9 i10 i11 i12 i13 i14 i15 i16 i17 i18 i19 i20 i21 i22 i23 i24 i25 i26 i27 i28 ⊢
  simp only [div_eq_mul_inv, mul_inv, inv_inv] at i0 i1 i2 i3 i4 i5 i6 i7 i8 i9 i10 i11 i12 i13 i14 i15 i16 i17 i18 i19 i20 i21 i22 i23 i24 i25 i26 i27 i28 ⊢
  have y0 := mul_inv_cancel₀ n0
  have y1 := mul_inv_cancel₀ n1
  have yCW := mul_inv_cancel₀ xCW
  have yMW := mul_inv_cancel₀ xMW
  linear_combination ((((4) * ((c.MW : ℂ)) * ((c.e : ℂ)) ^ 2 * ((c.CW : ℂ)⁻¹) * (ab z0.1 z1.1) * (ab z0.1 z2.1) * (ab z2.1 z3.1) + (-4) * ((c.MW : ℂ)) * ((c.e : ℂ)) ^ 2 * ((c.CW : ℂ)⁻¹) * (ab z0.1 z2.1) ^ 2 * (ab z1.1 z3.1) + (-5) * ((c.MW : ℂ)) * ((c.e : ℂ)) ^ 2 * (ab z0.1 z1.1) * (ab z0.1 z2.1) * (sb z2.2 z3.2) + (-3) * ((c.MW : ℂ)) * ((c.e : ℂ)) ^ 2 * (ab z0.1 z2.1) * (ab z0.1 z3.1) * (sb z1.2 z2.2) + (1) * ((c.e : ℂ)) ^ 2 * (ab z0.1 z1.1) * (ab z0.1 z2.1) * (ab z0.1 z3.1) * (sb z0.2 z2.2)) * i0 + ((-1) * ((c.MW : ℂ)) * ((c.e : ℂ)) ^ 2 * ((c.CW : ℂ)⁻¹) * (N.c 0) * (ab z0.1 z2.1) * (sb z1.2 z3.2) + (-1) * ((c.MW : ℂ)) * ((c.e : ℂ)) ^ 2 * ((c.CW : ℂ)⁻¹) * (N.c 1) * (ab z0.1 z2.1) * (sb z1.2 z3.2) + (3) * ((c.MW : ℂ)) * ((c.e : ℂ)) ^ 2 * ((c.CW : ℂ)⁻¹) * (ab z0.1 z2.1) * (mb z1.2 (p 2) z0.1) * (sb z0.2 z3.2) + (1) * ((c.MW : ℂ)) * ((c.e : ℂ)) ^ 2 * ((c.CW : ℂ)⁻¹) * (ab z0.1 z2.1) * (mb z3.2 (p 1) z0.1) * (sb z0.2 z1.2) + (-1) * ((c.MW : ℂ)) * ((c.e : ℂ)) ^ 2 * (N.c 0) * (ab z0.1 z1.1) * (sb z2.2 z3.2) + (1) * ((c.MW : ℂ)) * ((c.e : ℂ)) ^ 2 * (N.c 0) * (ab z0.1 z3.1) * (sb z1.2 z2.2) + (-1) * ((c.MW : ℂ)) * ((c.e : ℂ)) ^ 2 * (N.c 1) * (ab z0.1 z1.1) * (sb z2.2 z3.2) + (2) * ((c.MW : ℂ)) * ((c.e : ℂ)) ^ 2 * (N.c 1) * (ab z0.1 z3.1) * (sb z1.2 z2.2) + (-2) * ((c.MW : ℂ)) ^ 3 * ((c.e : ℂ)) ^ 2 * ((c.CW : ℂ)⁻¹) * (ab z0.1 z2.1) * (sb z1.2 z3.2) + (2) * ((c.MW : ℂ)) ^ 3 * ((c.e : ℂ)) ^ 2 * (ab z0.1 z1.1) * (sb z2.2 z3.2) + (-1) * ((c.e : ℂ)) ^ 2 * (N.c 0) * (mb z1.2 (p 2) z0.1) * (sb z2.2 z3.2) + (1) * ((c.e : ℂ)) ^ 2 * (N.c 0) * (mb z2.2 (p 1) z0.1) * (sb z1.2 z3.2) + (-2) * ((c.e : ℂ)) ^ 2 * (N.c 1) * (mb z1.2 (p 2) z0.1) * (sb z2.2 z3.2) + (1) * ((c.e : ℂ)) ^ 2 * (N.c 1) * (mb z2.2 (p 1) z0.1) * (sb z1.2 z3.2) + (-2) * ((c.e : ℂ)) ^ 2 * (mb ρ0 (p 2) z0.1) * (sb z0.2 z2.2) * (sb z1.2 z3.2) + (-1) * ((c.e : ℂ)) ^ 2 * (mb ρ0 (p 2) z0.1) * (sb z0.2 z3.2) * (sb z1.2 z2.2)) * i1 + ((1) * ((c.MW : ℂ)) * ((c.e : ℂ)) ^ 2 * ((c.CW : ℂ)⁻¹) * (ab z0.1 z1.1) * (ab z0.1 z3.1) * (sb z2.2 z3.2) + (1) * ((c.MW : ℂ)) * ((c.e : ℂ)) ^ 2 * (ab z0.1 z2.1) * (ab z0.1 z3.1) * (ab z1.1 z3.1) + (2) * ((c.MW : ℂ)) * ((c.e : ℂ)) ^ 2 * (ab z0.1 z2.1) * (ab z0.1 z3.1) * (sb z1.2 z3.2) + (3) * ((c.e : ℂ)) ^ 2 * (ab z0.1 z1.1) * (ab z0.1 z2.1) * (ab z0.1 z3.1) * (sb z0.2 z3.2) + (-5) * ((c.e : ℂ)) ^ 2 * (ab z0.1 z1.1) * (ab z0.1 z2.1) * (mb z3.2 (p 1) z3.1)) * i2 + ((1) * ((c.MW : ℂ)) * ((c.e : ℂ)) ^ 2 * ((c.CW : ℂ)⁻¹) * (ab z0.1 z1.1) * (ab z0.1 z2.1) * (ab z2.1 z3.1) + (1) * ((c.MW : ℂ)) * ((c.e : ℂ)) ^ 2 * ((c.CW : ℂ)⁻¹) * (ab z0.1 z2.1) ^ 2 * (sb z1.2 z3.2) + (-3) * ((c.MW : ℂ)) * ((c.e : ℂ)) ^ 2 * (ab z0.1 z2.1) * (ab z0.1 z3.1) * (sb z1.2 z2.2) + (1) * ((c.e : ℂ)) ^ 2 * (ab z0.1 z1.1) * (ab z0.1 z2.1) * (ab z0.1 z3.1) * (sb z0.2 z2.2) + (1) * ((c.e : ℂ)) ^ 2 * (ab z0.1 z2.1) * (ab z1.1 z3.1) * (mb z2.2 (p 1) z0.1) + (1) * ((c.e : ℂ)) ^ 2 * (ab z0.1 z2.1) * (mb z2.2 (p 1) z0.1) * (sb z1.2 z3.2) + (-3) * ((c.e : ℂ)) ^ 2 * (ab z0.1 z2.1) * (mb z3.2 (p 1) z0.1) * (sb z1.2 z2.2)) * i3 + ((-2) * ((c.MW : ℂ)) * ((c.e : ℂ)) ^ 2 * ((c.CW : ℂ)⁻¹) * (mb z3.2 (p 1) z0.1) * (sb z1.2 z2.2) + (-4) * ((c.MW : ℂ)) * ((c.e : ℂ)) ^ 2 * (ab z0.1 z1.1) * (ab z0.1 z2.1) * (sb z0.2 z3.2) + (-2) * ((c.MW : ℂ)) ^ 2 * ((c.e : ℂ)) ^ 2 * ((c.CW : ℂ)⁻¹) * (ab z0.1 z3.1) * (sb z1.2 z2.2) + (-2) * ((c.MW : ℂ)) ^ 2 * ((c.e : ℂ)) ^ 2 * (ab z0.1 z2.1) * (ab z1.1 z3.1) + (-1) * ((c.e : ℂ)) ^ 2 * (N.c 0) * (ab z0.1 z2.1) * (ab z1.1 z3.1) + (-2) * ((c.e : ℂ)) ^ 2 * (N.c 0) * (ab z0.1 z2.1) * (sb z1.2 z3.2) + (1) * ((c.e : ℂ)) ^ 2 * (N.c 1) * (ab z0.1 z2.1) * (sb z1.2 z3.2) + (-1) * ((c.e : ℂ)) ^ 2 * (ab z0.1 z1.1) * (ab z0.1 z2.1) * (mb z0.2 (p 1) z3.1) + (-3) * ((c.e : ℂ)) ^ 2 * (ab z0.1 z2.1) * (mb z1.2 (p 2) z0.1) * (sb z0.2 z3.2) + (-5) * ((c.e : ℂ)) ^ 2 * (ab z0.1 z2.1) * (mb z3.2 (p 1) z0.1) * (sb z0.2 z1.2)) * i4 + ((1) * ((c.MW : ℂ)) * ((c.e : ℂ)) ^ 2 * ((c.CW : ℂ)⁻¹) * (ab z0.1 z2.1) * (ab z0.1 z3.1) * (sb z0.2 z1.2) + (-2) * ((c.MW : ℂ)) ^ 2 * ((c.e : ℂ)) ^ 2 * ((c.CW : ℂ)⁻¹) * (ab z0.1 z2.1) * (sb z1.2 z3.2) + (-2) * ((c.MW : ℂ)) ^ 2 * ((c.e : ℂ)) ^ 2 * ((c.CW : ℂ)⁻¹) ^ 2 * (ab z0.1 z3.1) * (sb z1.2 z2.2) + (2) * ((c.MW : ℂ)) ^ 2 * ((c.e : ℂ)) ^ 2 * (ab z0.1 z1.1) * (sb z2.2 z3.2) + (1) * ((c.e : ℂ)) ^ 2 * (N.c 0) * (ab z0.1 z3.1) * (sb z1.2 z2.2) + (2) * ((c.e : ℂ)) ^ 2 * (N.c 1) * (ab z0.1 z3.1) * (sb z1.2 z2.2)) * i5 + ((-3) * ((c.MW : ℂ)) * ((c.e : ℂ)) ^ 2 * ((c.CW : ℂ)⁻¹) * (ab z0.1 z2.1) * (ab z0.1 z3.1) * (sb z0.2 z3.2) + (-2) * ((c.MW : ℂ)) * ((c.e : ℂ)) ^ 2 * ((c.CW : ℂ)⁻¹) * (ab z2.1 z3.1) * (mb z3.2 (p 1) z0.1) + (2) * ((c.MW : ℂ)) * ((c.e : ℂ)) ^ 2 * (mb z3.2 (p 1) z0.1) * (sb z2.2 z3.2) + (1) * ((c.e : ℂ)) ^ 2 * (N.c 0) * (ab z0.1 z3.1) * (sb z2.2 z3.2) + (2) * ((c.e : ℂ)) ^ 2 * (N.c 1) * (ab z0.1 z3.1) * (sb z2.2 z3.2)) * i6 + ((3) * ((c.MW : ℂ)) * ((c.e : ℂ)) ^ 2 * ((c.CW : ℂ)⁻¹) * (ab z0.1 z2.1) ^ 2 * (sb z0.2 z3.2) + (-2) * ((c.e : ℂ)) ^ 2 * (N.c 0) * (ab z0.1 z2.1) * (sb z2.2 z3.2) + (-2) * ((c.e : ℂ)) ^ 2 * (N.c 1) * (ab z0.1 z2.1) * (sb z2.2 z3.2) + (3) * ((c.e : ℂ)) ^ 2 * (ab z0.1 z2.1) * (mb z2.2 (p 1) z0.1) * (sb z0.2 z3.2) + (-5) * ((c.e : ℂ)) ^ 2 * (ab z0.1 z2.1) * (mb z3.2 (p 1) z0.1) * (sb z0.2 z2.2) + (2) * ((c.e : ℂ)) ^ 2 * (mb z2.2 (p 1) z2.1) * (mb z3.2 (p 1) z0.1)) * i7 + ((-1) * ((c.MW : ℂ)) * ((c.e : ℂ)) ^ 2 * ((c.CW : ℂ)⁻¹) * (ab z0.1 z1.1) * (ab z0.1 z3.1) * (sb z1.2 z2.2) + (-1) * ((c.MW : ℂ)) * ((c.e : ℂ)) ^ 2 * (ab z0.1 z1.1) * (ab z0.1 z2.1) * (ab z1.1 z3.1) + (2) * ((c.MW : ℂ)) * ((c.e : ℂ)) ^ 2 * (ab z0.1 z1.1) * (ab z0.1 z2.1) * (sb z1.2 z3.2) + (-3) * ((c.e : ℂ)) ^ 2 * (ab z0.1 z2.1) * (ab z0.1 z3.1) * (mb z1.2 (p 2) z1.1)) * i8 + ((3) * ((c.MW : ℂ)) * ((c.e : ℂ)) ^ 2 * (ab z0.1 z1.1) * (ab z0.1 z2.1) * (sb z2.2 z3.2) + (1) * ((c.MW : ℂ)) * ((c.e : ℂ)) ^ 2 * (ab z0.1 z2.1) * (ab z0.1 z3.1) * (sb z1.2 z2.2) + (-1) * ((c.e : ℂ)) ^ 2 * (ab z0.1 z1.1) * (ab z0.1 z2.1) * (ab z0.1 z3.1) * (sb z0.2 z2.2)) * i9 + ((-2) * ((c.MW : ℂ)) * ((c.e : ℂ)) ^ 2 * (ab z1.1 z3.1) * (mb z3.2 (p 1) z0.1) + (-2) * ((c.MW : ℂ)) * ((c.e : ℂ)) ^ 2 * (mb z3.2 (p 1) z0.1) * (sb z1.2 z3.2) + (-2) * ((c.e : ℂ)) ^ 2 * (N.c 0) * (ab z0.1 z3.1) * (sb z1.2 z3.2) + (-2) * ((c.e : ℂ)) ^ 2 * (N.c 1) * (ab z0.1 z3.1) * (sb z1.2 z3.2) + (2) * ((c.e : ℂ)) ^ 2 * (ab z0.1 z3.1) * (mb z3.2 (p 1) z0.1) * (sb z0.2 z1.2) + (2) * ((c.e : ℂ)) ^ 2 * (mb z1.2 (p 2) z0.1) * (mb z3.2 (p 1) z3.1)) * i10 + ((-1) * ((c.MW : ℂ)) * ((c.e : ℂ)) ^ 2 * ((c.CW : ℂ)⁻¹) * (ab z0.1 z2.1) ^ 2 * (sb z1.2 z3.2) + (-1) * ((c.MW : ℂ)) * ((c.e : ℂ)) ^ 2 * (ab z0.1 z1.1) * (ab z0.1 z2.1) * (sb z2.2 z3.2) + (2) * ((c.MW : ℂ)) * ((c.e : ℂ)) ^ 2 * (ab z0.1 z2.1) * (ab z0.1 z3.1) * (sb z1.2 z2.2) + (-1) * ((c.e : ℂ)) ^ 2 * (ab z0.1 z2.1) * (mb z2.2 (p 1) z0.1) * (sb z1.2 z3.2) + (3) * ((c.e : ℂ)) ^ 2 * (ab z0.1 z2.1) * (mb z3.2 (p 1) z0.1) * (sb z1.2 z2.2)) * i11 + ((-1) * ((c.MW : ℂ)) * ((c.e : ℂ)) ^ 2 * ((c.CW : ℂ)⁻¹) * (ab z0.1 z1.1) * (ab z0.1 z3.1) * (mb z2.2 (p 1) z0.1) + (-3) * ((c.MW : ℂ)) * ((c.e : ℂ)) ^ 2 * (ab z0.1 z1.1) * (ab z0.1 z2.1) * (mb z3.2 (p 1) z0.1) + (-1) * ((c.MW : ℂ)) ^ 2 * ((c.e : ℂ)) ^ 2 * ((c.CW : ℂ)⁻¹) ^ 2 * (ab z0.1 z1.1) * (ab z0.1 z2.1) * (ab z0.1 z3.1) + (-3) * ((c.MW : ℂ)) ^ 2 * ((c.e : ℂ)) ^ 2 * (ab z0.1 z1.1) * (ab z0.1 z2.1) * (ab z0.1 z3.1) + (-2) * ((c.e : ℂ)) ^ 2 * (N.c 0) * (ab z0.1 z1.1) * (ab z0.1 z2.1) * (ab z0.1 z3.1) + (-2) * ((c.e : ℂ)) ^ 2 * (N.c 1) * (ab z0.1 z1.1) * (ab z0.1 z2.1) * (ab z0.1 z3.1) + (-1) * ((c.e : ℂ)) ^ 2 * (ab z0.1 z1.1) * (ab z2.1 z3.1) * (mb ρ0 (p 2) z0.1) + (-1) * ((c.e : ℂ)) ^ 2 * (ab z0.1 z2.1) * (ab z1.1 z3.1) * (mb ρ0 (p 2) z0.1)) * i12 + ((-3) * ((c.MW : ℂ)) * ((c.e : ℂ)) ^ 2 * (ab z0.1 z2.1) * (ab z0.1 z3.1) * (sb z1.2 z3.2) + (-2) * ((c.e : ℂ)) ^ 2 * (ab z0.1 z1.1) * (ab z0.1 z2.1) * (ab z0.1 z3.1) * (sb z0.2 z3.2) + (5) * ((c.e : ℂ)) ^ 2 * (ab z0.1 z1.1) * (ab z0.1 z2.1) * (mb z3.2 (p 1) z3.1)) * i13 + ((5) * ((c.MW : ℂ)) * ((c.e : ℂ)) ^ 2 * ((c.CW : ℂ)⁻¹) * (ab z0.1 z2.1) ^ 2 * (sb z0.2 z1.2) + (5) * ((c.MW : ℂ)) * ((c.e : ℂ)) ^ 2 * (ab z0.1 z1.1) * (ab z0.1 z2.1) * (sb z0.2 z2.2) + (-2) * ((c.MW : ℂ)) ^ 2 * ((c.e : ℂ)) ^ 2 * ((c.CW : ℂ)⁻¹) * (ab z0.1 z2.1) * (ab z1.1 z2.1) + (-3) * ((c.e : ℂ)) ^ 2 * (N.c 1) * (ab z0.1 z2.1) * (sb z1.2 z2.2) + (5) * ((c.e : ℂ)) ^ 2 * (ab z0.1 z2.1) * (mb z1.2 (p 2) z0.1) * (sb z0.2 z2.2) + (5) * ((c.e : ℂ)) ^ 2 * (ab z0.1 z2.1) * (mb z2.2 (p 1) z0.1) * (sb z0.2 z1.2) + (-2) * ((c.e : ℂ)) ^ 2 * (mb z1.2 (p 2) z0.1) * (mb z2.2 (p 1) z2.1)) * i14 + ((2) * ((c.MW : ℂ)) * ((c.e : ℂ)) ^ 2 * ((c.CW : ℂ)⁻¹) * (ab z1.1 z2.1) * (mb z3.2 (p 1) z0.1) + (2) * ((c.MW : ℂ)) * ((c.e : ℂ)) ^ 2 * (ab z1.1 z3.1) * (mb z2.2 (p 1) z0.1) + (-2) * ((c.MW : ℂ)) * ((c.e : ℂ)) ^ 2 * (mb z2.2 (p 1) z0.1) * (sb z1.2 z3.2) + (-2) * ((c.MW : ℂ)) * ((c.e : ℂ)) ^ 2 * (mb z3.2 (p 1) z0.1) * (sb z1.2 z2.2) + (-2) * ((c.MW : ℂ)) ^ 2 * ((c.e : ℂ)) ^ 2 * ((c.CW : ℂ)⁻¹) * (ab z0.1 z2.1) * (sb z1.2 z3.2) + (-2) * ((c.MW : ℂ)) ^ 2 * ((c.e : ℂ)) ^ 2 * (ab z0.1 z3.1) * (sb z1.2 z2.2)) * i15 + ((2) * ((c.e : ℂ)) ^ 2 * (mb z2.2 (p 1) z0.1) * (mb z3.2 (p 1) z0.1)) * i16 + ((2) * ((c.MW : ℂ)) * ((c.e : ℂ)) ^ 2 * (mb z1.2 (p 2) z0.1) * (sb z1.2 z2.2)) * i17 + ((2) * ((c.MW : ℂ)) * ((c.e : ℂ)) ^ 2 * (mb z1.2 (p 2) z0.1) * (sb z1.2 z3.2) + (-2) * ((c.e : ℂ)) ^ 2 * (mb z1.2 (p 2) z1.1) * (mb z3.2 (p 1) z0.1)) * i18 + ((1) * ((c.MW : ℂ)) * ((c.e : ℂ)) ^ 2 * ((c.CW : ℂ)⁻¹) * (ab z0.1 z2.1) * (ab z0.1 z3.1) * (sb z1.2 z3.2) + (1) * ((c.MW : ℂ)) * ((c.e : ℂ)) ^ 2 * (ab z0.1 z1.1) * (ab z0.1 z3.1) * (sb z2.2 z3.2) + (-2) * ((c.MW : ℂ)) * ((c.e : ℂ)) ^ 2 * (ab z0.1 z3.1) ^ 2 * (sb z1.2 z2.2) + (1) * ((c.e : ℂ)) ^ 2 * (ab z0.1 z3.1) * (mb z2.2 (p 1) z0.1) * (sb z1.2 z3.2) + (-3) * ((c.e : ℂ)) ^ 2 * (ab z0.1 z3.1) * (mb z3.2 (p 1) z0.1) * (sb z1.2 z2.2)) * i19 + ((-2) * ((c.MW : ℂ)) ^ 2 * ((c.e : ℂ)) ^ 2 * ((c.CW : ℂ)⁻¹) * (ab z0.1 z3.1) * (sb z1.2 z2.2) + (-2) * ((c.MW : ℂ)) ^ 2 * ((c.e : ℂ)) ^ 2 * (ab z0.1 z2.1) * (sb z1.2 z3.2)) * i20 + ((2) * ((c.MW : ℂ)) * ((c.e : ℂ)) ^ 2 * (ab z1.1 z3.1) * (ab z2.1 z3.1) + (2) * ((c.e : ℂ)) ^ 2 * (ab z1.1 z2.1) * (mb z3.2 (p 1) z3.1)) * i21 + ((1) * ((c.e : ℂ)) ^ 2 * (ab z0.1 z1.1) * (ab z2.1 z3.1) * (sb z1.2 z3.2) + (-3) * ((c.e : ℂ)) ^ 2 * (ab z0.1 z2.1) * (ab z1.1 z3.1) * (sb z1.2 z3.2)) * i22 + ((1) * ((c.e : ℂ)) ^ 2 * (ab z0.1 z1.1) * (ab z2.1 z3.1) * (sb z2.2 z3.2) + (1) * ((c.e : ℂ)) ^ 2 * (ab z0.1 z2.1) * (ab z1.1 z3.1) * (sb z2.2 z3.2)) * i23 + ((-2) * ((c.e : ℂ)) ^ 2 * (ab z2.1 z3.1) * (mb ρ0 (p 2) z0.1)) * i24 + ((1) * ((c.MW : ℂ)) * ((c.e : ℂ)) ^ 2 * (ab z0.1 z1.1) * (ab z0.1 z2.1) * (ab z1.1 z3.1)) * i25 + ((2) * ((c.MW : ℂ)) ^ 2 * ((c.e : ℂ)) ^ 2 * ((c.CW : ℂ)⁻¹) * (ab z0.1 z3.1) * (sb z1.2 z2.2) + (2) * ((c.MW : ℂ)) ^ 2 * ((c.e : ℂ)) ^ 2 * (ab z0.1 z2.1) * (sb z1.2 z3.2)) * i26 + ((2) * ((c.e : ℂ)) ^ 2 * (mb ρ0 (p 2) z0.1) * (sb z1.2 z3.2)) * i27 + ((2) * ((c.MW : ℂ)) * ((c.e : ℂ)) ^ 2 * (ab z1.1 z2.1) * (sb z2.2 z3.2)) * i28)) * ((1) * ((c.CW : ℂ)) ^ 2 * ((c.MW : ℂ)⁻¹) ^ 3 * ((c.SW : ℂ)⁻¹) * ((N.c 1)⁻¹)) + ((-2) * ((c.e : ℂ)) ^ 2 * ((c.CW : ℂ)⁻¹) * ((c.SW : ℂ)⁻¹) * ((N.c 1)⁻¹) * (ab z0.1 z1.1) * (ab z0.1 z3.1) * (sb z1.2 z2.2) * (sb z2.2 z3.2)) * hcs + ((-2) * ((c.CW : ℂ)) * ((c.e : ℂ)) ^ 2 * ((c.CW : ℂ)⁻¹) * ((c.SW : ℂ)⁻¹) * ((N.c 1)⁻¹) * (ab z0.1 z1.1) * (ab z0.1 z2.1) * (sb z1.2 z3.2) * (sb z2.2 z3.2) + (2) * ((c.CW : ℂ)) * ((c.e : ℂ)) ^ 2 * ((c.CW : ℂ)⁻¹) * ((c.SW : ℂ)⁻¹) * ((N.c 1)⁻¹) * (ab z0.1 z2.1) * (ab z0.1 z3.1) * (sb z1.2 z2.2) * (sb z1.2 z3.2) + (-1) * ((c.CW : ℂ)) ^ 2 * ((c.MW : ℂ)) * (((√2 : ℝ) : ℂ)) ^ 2 * ((c.e : ℂ)) ^ 2 * ((c.MW : ℂ)⁻¹) ^ 3 * ((c.SW : ℂ)⁻¹) * (ab z0.1 z1.1) ^ 2 * (ab z2.1 z3.1) * (sb z2.2 z3.2) / (2) + (1) * ((c.CW : ℂ)) ^ 2 * (((√2 : ℝ) : ℂ)) ^ 2 * ((c.e : ℂ)) ^ 2 * ((c.MW : ℂ)⁻¹) ^ 3 * ((c.SW : ℂ)⁻¹) * (ab z0.1 z1.1) * (ab z0.1 z2.1) * (ab z0.1 z3.1) * (sb z0.2 z2.2) * (sb z1.2 z3.2) + (-1) * ((c.CW : ℂ)) ^ 2 * (((√2 : ℝ) : ℂ)) ^ 2 * ((c.e : ℂ)) ^ 2 * ((c.MW : ℂ)⁻¹) ^ 3 * ((c.SW : ℂ)⁻¹) * (ab z0.1 z1.1) * (ab z0.1 z2.1) * (ab z0.1 z3.1) * (sb z0.2 z3.2) * (sb z1.2 z2.2) + (1) * ((c.CW : ℂ)) ^ 2 * (((√2 : ℝ) : ℂ)) ^ 2 * ((c.e : ℂ)) ^ 2 * ((c.MW : ℂ)⁻¹) ^ 3 * ((c.SW : ℂ)⁻¹) * (ab z0.1 z1.1) * (ab z0.1 z2.1) * (mb z3.2 (p 1) z3.1) * (sb z1.2 z2.2) + (-1) * ((c.CW : ℂ)) ^ 2 * (((√2 : ℝ) : ℂ)) ^ 2 * ((c.e : ℂ)) ^ 2 * ((c.MW : ℂ)⁻¹) ^ 3 * ((c.SW : ℂ)⁻¹) * (ab z0.1 z1.1) * (ab z0.1 z3.1) * (mb z2.2 (p 1) z2.1) * (sb z1.2 z3.2) + (-1) * ((c.CW : ℂ)) ^ 2 * (((√2 : ℝ) : ℂ)) ^ 2 * ((c.e : ℂ)) ^ 2 * ((c.MW : ℂ)⁻¹) ^ 3 * ((c.SW : ℂ)⁻¹) * (ab z0.1 z1.1) * (ab z2.1 z3.1) * (mb z1.2 (p 2) z0.1) * (sb z2.2 z3.2) + (2) * ((c.CW : ℂ)) ^ 2 * ((c.e : ℂ)) ^ 2 * ((c.CW : ℂ)⁻¹) * ((c.SW : ℂ)⁻¹) * ((N.c 1)⁻¹) * (ab z0.1 z1.1) * (ab z0.1 z3.1) * (sb z1.2 z2.2) * (sb z2.2 z3.2) + (2) * ((c.CW : ℂ)) ^ 2 * ((c.e : ℂ)) ^ 2 * ((c.CW : ℂ)⁻¹) * ((c.SW : ℂ)⁻¹) * ((N.c 1)⁻¹) * (ab z0.1 z1.1) ^ 2 * (sb z2.2 z3.2) ^ 2 + (2) * ((c.CW : ℂ)) ^ 2 * ((c.e : ℂ)) ^ 2 * ((c.CW : ℂ)⁻¹) * ((c.SW : ℂ)⁻¹) * ((N.c 1)⁻¹) * (ab z0.1 z2.1) ^ 2 * (sb z1.2 z3.2) ^ 2 + (2) * ((c.CW : ℂ)) ^ 2 * ((c.e : ℂ)) ^ 2 * ((c.CW : ℂ)⁻¹) * ((c.SW : ℂ)⁻¹) * ((N.c 1)⁻¹) * (ab z0.1 z3.1) ^ 2 * (sb z1.2 z2.2) ^ 2 + (-2) * ((c.SW : ℂ)) ^ 2 * ((c.e : ℂ)) ^ 2 * ((c.CW : ℂ)⁻¹) * ((c.SW : ℂ)⁻¹) * ((N.c 1)⁻¹) * (ab z0.1 z1.1) * (ab z0.1 z3.1) * (sb z1.2 z2.2) * (sb z2.2 z3.2)) * y0 + ((-2) * ((c.CW : ℂ)) ^ 2 * ((c.e : ℂ)) ^ 2 * ((c.MW : ℂ)⁻¹) ^ 3 * ((c.SW : ℂ)⁻¹) * (ab z0.1 z1.1) * (ab z0.1 z2.1) * (ab z0.1 z3.1) * (sb z0.2 z2.2) * (sb z1.2 z3.2) + (2) * ((c.CW : ℂ)) ^ 2 * ((c.e : ℂ)) ^ 2 * ((c.MW : ℂ)⁻¹) ^ 3 * ((c.SW : ℂ)⁻¹) * (ab z0.1 z1.1) * (ab z0.1 z2.1) * (ab z0.1 z3.1) * (sb z0.2 z3.2) * (sb z1.2 z2.2) + (-2) * ((c.CW : ℂ)) ^ 2 * ((c.e : ℂ)) ^ 2 * ((c.MW : ℂ)⁻¹) ^ 3 * ((c.SW : ℂ)⁻¹) * (ab z0.1 z1.1) * (ab z0.1 z2.1) * (mb z3.2 (p 1) z3.1) * (sb z1.2 z2.2) + (2) * ((c.CW : ℂ)) ^ 2 * ((c.e : ℂ)) ^ 2 * ((c.MW : ℂ)⁻¹) ^ 3 * ((c.SW : ℂ)⁻¹) * (ab z0.1 z1.1) * (ab z0.1 z3.1) * (mb z2.2 (p 1) z2.1) * (sb z1.2 z3.2) + (2) * ((c.CW : ℂ)) ^ 2 * ((c.e : ℂ)) ^ 2 * ((c.MW : ℂ)⁻¹) ^ 3 * ((c.SW : ℂ)⁻¹) * (ab z0.1 z1.1) * (ab z2.1 z3.1) * (mb z1.2 (p 2) z0.1) * (sb z2.2 z3.2) + (-2) * ((c.CW : ℂ)) ^ 2 * ((c.e : ℂ)) ^ 2 * ((c.MW : ℂ)⁻¹) ^ 3 * ((c.SW : ℂ)⁻¹) * (ab z0.1 z2.1) * (ab z1.1 z3.1) * (mb z2.2 (p 1) z0.1) * (sb z1.2 z3.2) + (1) * ((c.CW : ℂ)) ^ 2 * ((c.e : ℂ)) ^ 2 * ((c.MW : ℂ)⁻¹) ^ 3 * ((c.SW : ℂ)⁻¹) * (ab z0.1 z3.1) * (ab z1.1 z2.1) * (mb z3.2 (p 1) z0.1) * (sb z1.2 z2.2)) * y1 + ((2) * ((c.CW : ℂ)) * ((c.MW : ℂ)) ^ 3 * ((c.e : ℂ)) ^ 2 * ((c.CW : ℂ)⁻¹) * ((c.MW : ℂ)⁻¹) ^ 3 * ((c.SW : ℂ)⁻¹) * ((N.c 1)⁻¹) * (ab z0.1 z1.1) * (ab z0.1 z2.1) * (sb z1.2 z3.2) * (sb z2.2 z3.2) + (-2) * ((c.CW : ℂ)) * ((c.MW : ℂ)) ^ 3 * ((c.e : ℂ)) ^ 2 * ((c.CW : ℂ)⁻¹) * ((c.MW : ℂ)⁻¹) ^ 3 * ((c.SW : ℂ)⁻¹) * ((N.c 1)⁻¹) * (ab z0.1 z2.1) * (ab z0.1 z3.1) * (sb z1.2 z2.2) * (sb z1.2 z3.2) + (2) * ((c.CW : ℂ)) * ((c.MW : ℂ)) ^ 3 * ((c.e : ℂ)) ^ 2 * ((c.CW : ℂ)⁻¹) ^ 2 * ((c.MW : ℂ)⁻¹) ^ 3 * ((c.SW : ℂ)⁻¹) * ((N.c 1)⁻¹) * (ab z0.1 z1.1) * (ab z0.1 z3.1) * (sb z1.2 z2.2) * (sb z2.2 z3.2) + (-4) * ((c.CW : ℂ)) * ((c.MW : ℂ)) ^ 3 * ((c.e : ℂ)) ^ 2 * ((c.MW : ℂ)⁻¹) ^ 3 * ((c.SW : ℂ)⁻¹) * ((N.c 1)⁻¹) * (ab z0.1 z1.1) * (ab z0.1 z3.1) * (sb z1.2 z2.2) * (sb z2.2 z3.2) + (-2) * ((c.CW : ℂ)) * ((c.MW : ℂ)) ^ 3 * ((c.e : ℂ)) ^ 2 * ((c.MW : ℂ)⁻¹) ^ 3 * ((c.SW : ℂ)⁻¹) * ((N.c 1)⁻¹) * (ab z0.1 z1.1) ^ 2 * (sb z2.2 z3.2) ^ 2 + (-2) * ((c.CW : ℂ)) * ((c.MW : ℂ)) ^ 3 * ((c.e : ℂ)) ^ 2 * ((c.MW : ℂ)⁻¹) ^ 3 * ((c.SW : ℂ)⁻¹) * ((N.c 1)⁻¹) * (ab z0.1 z2.1) ^ 2 * (sb z1.2 z3.2) ^ 2 + (-2) * ((c.CW : ℂ)) * ((c.MW : ℂ)) ^ 3 * ((c.e : ℂ)) ^ 2 * ((c.MW : ℂ)⁻¹) ^ 3 * ((c.SW : ℂ)⁻¹) * ((N.c 1)⁻¹) * (ab z0.1 z3.1) ^ 2 * (sb z1.2 z2.2) ^ 2 + (4) * ((c.CW : ℂ)) * ((c.e : ℂ)) ^ 2 * ((c.SW : ℂ)⁻¹) * ((N.c 1)⁻¹) * (ab z0.1 z1.1) * (ab z0.1 z3.1) * (sb z1.2 z2.2) * (sb z2.2 z3.2) + (2) * ((c.CW : ℂ)) * ((c.e : ℂ)) ^ 2 * ((c.SW : ℂ)⁻¹) * ((N.c 1)⁻¹) * (ab z0.1 z1.1) ^ 2 * (sb z2.2 z3.2) ^ 2 + (2) * ((c.CW : ℂ)) * ((c.e : ℂ)) ^ 2 * ((c.SW : ℂ)⁻¹) * ((N.c 1)⁻¹) * (ab z0.1 z2.1) ^ 2 * (sb z1.2 z3.2) ^ 2 + (2) * ((c.CW : ℂ)) * ((c.e : ℂ)) ^ 2 * ((c.SW : ℂ)⁻¹) * ((N.c 1)⁻¹) * (ab z0.1 z3.1) ^ 2 * (sb z1.2 z2.2) ^ 2 + (2) * ((c.MW : ℂ)) ^ 3 * ((c.e : ℂ)) ^ 2 * ((c.CW : ℂ)⁻¹) * ((c.MW : ℂ)⁻¹) ^ 3 * ((c.SW : ℂ)⁻¹) * ((N.c 1)⁻¹) * (ab z0.1 z1.1) * (ab z0.1 z3.1) * (sb z1.2 z2.2) * (sb z2.2 z3.2) + (2) * ((c.MW : ℂ)) ^ 3 * ((c.e : ℂ)) ^ 2 * ((c.MW : ℂ)⁻¹) ^ 3 * ((c.SW : ℂ)⁻¹) * ((N.c 1)⁻¹) * (ab z0.1 z1.1) * (ab z0.1 z2.1) * (sb z1.2 z3.2) * (sb z2.2 z3.2) + (-2) * ((c.MW : ℂ)) ^ 3 * ((c.e : ℂ)) ^ 2 * ((c.MW : ℂ)⁻¹) ^ 3 * ((c.SW : ℂ)⁻¹) * ((N.c 1)⁻¹) * (ab z0.1 z2.1) * (ab z0.1 z3.1) * (sb z1.2 z2.2) * (sb z1.2 z3.2) + (-2) * ((c.e : ℂ)) ^ 2 * ((c.SW : ℂ)⁻¹) * ((N.c 1)⁻¹) * (ab z0.1 z1.1) * (ab z0.1 z2.1) * (sb z1.2 z3.2) * (sb z2.2 z3.2) + (2) * ((c.e : ℂ)) ^ 2 * ((c.SW : ℂ)⁻¹) * ((N.c 1)⁻¹) * (ab z0.1 z2.1) * (ab z0.1 z3.1) * (sb z1.2 z2.2) * (sb z1.2 z3.2)) * yCW + ((-4) * ((c.CW : ℂ)) * ((c.MW : ℂ)) * ((c.e : ℂ)) ^ 2 * ((c.MW : ℂ)⁻¹) * ((c.SW : ℂ)⁻¹) * ((N.c 1)⁻¹) * (ab z0.1 z1.1) * (ab z0.1 z3.1) * (sb z1.2 z2.2) * (sb z2.2 z3.2) + (-2) * ((c.CW : ℂ)) * ((c.MW : ℂ)) * ((c.e : ℂ)) ^ 2 * ((c.MW : ℂ)⁻¹) * ((c.SW : ℂ)⁻¹) * ((N.c 1)⁻¹) * (ab z0.1 z1.1) ^ 2 * (sb z2.2 z3.2) ^ 2 + (-2) * ((c.CW : ℂ)) * ((c.MW : ℂ)) * ((c.e : ℂ)) ^ 2 * ((c.MW : ℂ)⁻¹) * ((c.SW : ℂ)⁻¹) * ((N.c 1)⁻¹) * (ab z0.1 z2.1) ^ 2 * (sb z1.2 z3.2) ^ 2 + (-2) * ((c.CW : ℂ)) * ((c.MW : ℂ)) * ((c.e : ℂ)) ^ 2 * ((c.MW : ℂ)⁻¹) * ((c.SW : ℂ)⁻¹) * ((N.c 1)⁻¹) * (ab z0.1 z3.1) ^ 2 * (sb z1.2 z2.2) ^ 2 + (-4) * ((c.CW : ℂ)) * ((c.MW : ℂ)) ^ 2 * ((c.e : ℂ)) ^ 2 * ((c.MW : ℂ)⁻¹) ^ 2 * ((c.SW : ℂ)⁻¹) * ((N.c 1)⁻¹) * (ab z0.1 z1.1) * (ab z0.1 z3.1) * (sb z1.2 z2.2) * (sb z2.2 z3.2) + (-2) * ((c.CW : ℂ)) * ((c.MW : ℂ)) ^ 2 * ((c.e : ℂ)) ^ 2 * ((c.MW : ℂ)⁻¹) ^ 2 * ((c.SW : ℂ)⁻¹) * ((N.c 1)⁻¹) * (ab z0.1 z1.1) ^ 2 * (sb z2.2 z3.2) ^ 2 + (-2) * ((c.CW : ℂ)) * ((c.MW : ℂ)) ^ 2 * ((c.e : ℂ)) ^ 2 * ((c.MW : ℂ)⁻¹) ^ 2 * ((c.SW : ℂ)⁻¹) * ((N.c 1)⁻¹) * (ab z0.1 z2.1) ^ 2 * (sb z1.2 z3.2) ^ 2 + (-2) * ((c.CW : ℂ)) * ((c.MW : ℂ)) ^ 2 * ((c.e : ℂ)) ^ 2 * ((c.MW : ℂ)⁻¹) ^ 2 * ((c.SW : ℂ)⁻¹) * ((N.c 1)⁻¹) * (ab z0.1 z3.1) ^ 2 * (sb z1.2 z2.2) ^ 2 + (-4) * ((c.CW : ℂ)) * ((c.e : ℂ)) ^ 2 * ((c.SW : ℂ)⁻¹) * ((N.c 1)⁻¹) * (ab z0.1 z1.1) * (ab z0.1 z3.1) * (sb z1.2 z2.2) * (sb z2.2 z3.2) + (-2) * ((c.CW : ℂ)) * ((c.e : ℂ)) ^ 2 * ((c.SW : ℂ)⁻¹) * ((N.c 1)⁻¹) * (ab z0.1 z1.1) ^ 2 * (sb z2.2 z3.2) ^ 2 + (-2) * ((c.CW : ℂ)) * ((c.e : ℂ)) ^ 2 * ((c.SW : ℂ)⁻¹) * ((N.c 1)⁻¹) * (ab z0.1 z2.1) ^ 2 * (sb z1.2 z3.2) ^ 2 + (-2) * ((c.CW : ℂ)) * ((c.e : ℂ)) ^ 2 * ((c.SW : ℂ)⁻¹) * ((N.c 1)⁻¹) * (ab z0.1 z3.1) ^ 2 * (sb z1.2 z2.2) ^ 2 + (-1) * ((c.CW : ℂ)) ^ 2 * (((√2 : ℝ) : ℂ)) ^ 2 * ((c.e : ℂ)) ^ 2 * ((c.MW : ℂ)⁻¹) ^ 2 * ((c.SW : ℂ)⁻¹) * (N.c 0) * ((N.c 1)⁻¹) * (ab z0.1 z3.1) ^ 2 * (ab z1.1 z2.1) * (sb z1.2 z2.2) / (2) + (1) * ((c.CW : ℂ)) ^ 2 * ((c.e : ℂ)) ^ 2 * ((c.MW : ℂ)⁻¹) ^ 2 * ((c.SW : ℂ)⁻¹) * (N.c 0) * ((N.c 1)⁻¹) * (ab z0.1 z3.1) ^ 2 * (ab z1.1 z2.1) * (sb z1.2 z2.2) + (2) * ((c.MW : ℂ)) * ((c.e : ℂ)) ^ 2 * ((c.CW : ℂ)⁻¹) * ((c.MW : ℂ)⁻¹) * ((c.SW : ℂ)⁻¹) * ((N.c 1)⁻¹) * (ab z0.1 z1.1) * (ab z0.1 z3.1) * (sb z1.2 z2.2) * (sb z2.2 z3.2) + (2) * ((c.MW : ℂ)) * ((c.e : ℂ)) ^ 2 * ((c.MW : ℂ)⁻¹) * ((c.SW : ℂ)⁻¹) * ((N.c 1)⁻¹) * (ab z0.1 z1.1) * (ab z0.1 z2.1) * (sb z1.2 z3.2) * (sb z2.2 z3.2) + (-2) * ((c.MW : ℂ)) * ((c.e : ℂ)) ^ 2 * ((c.MW : ℂ)⁻¹) * ((c.SW : ℂ)⁻¹) * ((N.c 1)⁻¹) * (ab z0.1 z2.1) * (ab z0.1 z3.1) * (sb z1.2 z2.2) * (sb z1.2 z3.2) + (2) * ((c.MW : ℂ)) ^ 2 * ((c.e : ℂ)) ^ 2 * ((c.CW : ℂ)⁻¹) * ((c.MW : ℂ)⁻¹) ^ 2 * ((c.SW : ℂ)⁻¹) * ((N.c 1)⁻¹) * (ab z0.1 z1.1) * (ab z0.1 z3.1) * (sb z1.2 z2.2) * (sb z2.2 z3.2) + (2) * ((c.MW : ℂ)) ^ 2 * ((c.e : ℂ)) ^ 2 * ((c.MW : ℂ)⁻¹) ^ 2 * ((c.SW : ℂ)⁻¹) * ((N.c 1)⁻¹) * (ab z0.1 z1.1) * (ab z0.1 z2.1) * (sb z1.2 z3.2) * (sb z2.2 z3.2) + (-2) * ((c.MW : ℂ)) ^ 2 * ((c.e : ℂ)) ^ 2 * ((c.MW : ℂ)⁻¹) ^ 2 * ((c.SW : ℂ)⁻¹) * ((N.c 1)⁻¹) * (ab z0.1 z2.1) * (ab z0.1 z3.1) * (sb z1.2 z2.2) * (sb z1.2 z3.2) + (2) * ((c.e : ℂ)) ^ 2 * ((c.CW : ℂ)⁻¹) * ((c.SW : ℂ)⁻¹) * ((N.c 1)⁻¹) * (ab z0.1 z1.1) * (ab z0.1 z3.1) * (sb z1.2 z2.2) * (sb z2.2 z3.2) + (2) * ((c.e : ℂ)) ^ 2 * ((c.SW : ℂ)⁻¹) * ((N.c 1)⁻¹) * (ab z0.1 z1.1) * (ab z0.1 z2.1) * (sb z1.2 z3.2) * (sb z2.2 z3.2) + (-2) * ((c.e : ℂ)) ^ 2 * ((c.SW : ℂ)⁻¹) * ((N.c 1)⁻¹) * (ab z0.1 z2.1) * (ab z0.1 z3.1) * (sb z1.2 z2.2) * (sb z1.2 z3.2)) * yMW + ((-1) * ((c.CW : ℂ)) ^ 2 * ((c.e : ℂ)) ^ 2 * ((c.MW : ℂ)⁻¹) ^ 2 * ((c.SW : ℂ)⁻¹) * (N.c 0) * ((N.c 1)⁻¹) * (ab z0.1 z3.1) ^ 2 * (ab z1.1 z2.1) * (sb z1.2 z2.2) / (2) + (-1) * ((c.CW : ℂ)) ^ 2 * ((c.e : ℂ)) ^ 2 * ((c.MW : ℂ)⁻¹) ^ 3 * ((c.SW : ℂ)⁻¹) * (N.c 0) * ((N.c 1)⁻¹) * (ab z0.1 z1.1) * (ab z0.1 z3.1) * (mb z2.2 (p 1) z2.1) * (sb z1.2 z3.2) + (-1) * ((c.CW : ℂ)) ^ 2 * ((c.e : ℂ)) ^ 2 * ((c.MW : ℂ)⁻¹) ^ 3 * ((c.SW : ℂ)⁻¹) * (N.c 0) * ((N.c 1)⁻¹) * (ab z0.1 z2.1) * (ab z0.1 z3.1) * (mb z1.2 (p 2) z1.1) * (sb z2.2 z3.2) + (-1) * ((c.CW : ℂ)) ^ 2 * ((c.e : ℂ)) ^ 2 * ((c.MW : ℂ)⁻¹) ^ 3 * ((c.SW : ℂ)⁻¹) * (N.c 0) * ((N.c 1)⁻¹) * (ab z0.1 z3.1) * (ab z1.1 z2.1) * (mb z3.2 (p 1) z0.1) * (sb z1.2 z2.2) + (-1) * ((c.CW : ℂ)) ^ 2 * ((c.e : ℂ)) ^ 2 * ((c.MW : ℂ)⁻¹) ^ 3 * ((c.SW : ℂ)⁻¹) * ((N.c 1)⁻¹) * (ab z0.1 z3.1) * (ab z1.1 z2.1) * (mb ρ0 (p 2) z0.1) * (sb z0.2 z3.2) * (sb z1.2 z2.2) / (2) + (1) * ((c.CW : ℂ)) ^ 2 * ((c.e : ℂ)) ^ 2 * ((c.MW : ℂ)⁻¹) ^ 3 * ((c.SW : ℂ)⁻¹) * ((N.c 1)⁻¹) * (ab z1.1 z2.1) * (mb z3.2 (p 1) z3.1) * (mb ρ0 (p 2) z0.1) * (sb z1.2 z2.2) + (-1) * ((c.CW : ℂ)) ^ 2 * ((c.e : ℂ)) ^ 2 * ((c.MW : ℂ)⁻¹) ^ 3 * ((c.SW : ℂ)⁻¹) * ((N.c 1)⁻¹) * (ab z1.1 z3.1) * (mb z2.2 (p 1) z2.1) * (mb ρ0 (p 2) z0.1) * (sb z1.2 z3.2) + (-1) * ((c.CW : ℂ)) ^ 2 * ((c.e : ℂ)) ^ 2 * ((c.MW : ℂ)⁻¹) ^ 3 * ((c.SW : ℂ)⁻¹) * ((N.c 1)⁻¹) * (ab z2.1 z3.1) * (mb z1.2 (p 2) z1.1) * (mb ρ0 (p 2) z0.1) * (sb z2.2 z3.2) + (1) * ((c.CW : ℂ)) ^ 2 * ((c.e : ℂ)) ^ 2 * ((c.MW : ℂ)⁻¹) ^ 3 * ((c.SW : ℂ)⁻¹) * (ab z0.1 z1.1) * (ab z0.1 z2.1) * (ab z0.1 z3.1) * (sb z0.2 z2.2) * (sb z1.2 z3.2) + (-1) * ((c.CW : ℂ)) ^ 2 * ((c.e : ℂ)) ^ 2 * ((c.MW : ℂ)⁻¹) ^ 3 * ((c.SW : ℂ)⁻¹) * (ab z0.1 z1.1) * (ab z0.1 z2.1) * (ab z0.1 z3.1) * (sb z0.2 z3.2) * (sb z1.2 z2.2) + (1) * ((c.CW : ℂ)) ^ 2 * ((c.e : ℂ)) ^ 2 * ((c.MW : ℂ)⁻¹) ^ 3 * ((c.SW : ℂ)⁻¹) * (ab z0.1 z1.1) * (ab z0.1 z2.1) * (mb z3.2 (p 1) z3.1) * (sb z1.2 z2.2) + (-1) * ((c.CW : ℂ)) ^ 2 * ((c.e : ℂ)) ^ 2 * ((c.MW : ℂ)⁻¹) ^ 3 * ((c.SW : ℂ)⁻¹) * (ab z0.1 z1.1) * (ab z0.1 z3.1) * (mb z2.2 (p 1) z2.1) * (sb z1.2 z3.2) + (-1) * ((c.CW : ℂ)) ^ 2 * ((c.e : ℂ)) ^ 2 * ((c.MW : ℂ)⁻¹) ^ 3 * ((c.SW : ℂ)⁻¹) * (ab z0.1 z1.1) * (ab z2.1 z3.1) * (mb z1.2 (p 2) z0.1) * (sb z2.2 z3.2) + (1) * ((c.CW : ℂ)) ^ 2 * ((c.e : ℂ)) ^ 2 * ((c.MW : ℂ)⁻¹) ^ 3 * ((c.SW : ℂ)⁻¹) * (ab z0.1 z2.1) * (ab z1.1 z3.1) * (mb z2.2 (p 1) z0.1) * (sb z1.2 z3.2) + (-1) * ((c.CW : ℂ)) ^ 2 * ((c.e : ℂ)) ^ 2 * ((c.MW : ℂ)⁻¹) ^ 3 * ((c.SW : ℂ)⁻¹) * (ab z0.1 z3.1) * (ab z1.1 z2.1) * (mb z3.2 (p 1) z0.1) * (sb z1.2 z2.2) / (2)) * x22
set_option maxRecDepth 8000 in
theorem AWZW.amp2_eq (N : Env) (f : Nat → List Int → ℂ) : Cls.AWZW.m_amp2.mean N f .r [] =
    ((sumW (fun x a => (sumV (fun x b => (sumV (fun x c => (sumV (fun x d => (x + (‖(f 0 [a, b, c, d])‖ ^ 2))) x)) x)) x)) ((0 : Nat) : ℝ)) / ((6 : Nat) : ℝ)) := by rfl
set_option maxRecDepth 8000 in
theorem AWZW.value (N : Env) : meaning N .r Cls.AWZW.methods Cls.AWZW.amp2 [] =
    ((sumW (fun x a => (sumV (fun x b => (sumV (fun x c => (sumV (fun x d => (x + (‖(Cls.AWZW.m_amp.mean N (callMean N []) .c [a, b, c, d])‖ ^ 2))) x)) x)) x)) ((0 : Nat) : ℝ)) / ((6 : Nat) : ℝ)) :=
  AWZW.amp2_eq N (callMean N [Cls.AWZW.m_amp])
theorem AWZW.termP_lin (N : Env) (w : ℝ) (x : ℂ) (a1 b1 a2 b2 a3 b3 : Int) : AWZW.termP N w x a1 b1 a2 b2 a3 b3 = x + (w : ℂ) * AWZW.termP N 1 0 a1 b1 a2 b2 a3 b3 := by
  simp only [AWZW.termP]; push_cast; ring
theorem AWZW.termM_lin (N : Env) (w : ℝ) (x : ℂ) (a1 b1 a2 b2 a3 b3 : Int) : AWZW.termM N w x a1 b1 a2 b2 a3 b3 = x + (w : ℂ) * AWZW.termM N 1 0 a1 b1 a2 b2 a3 b3 := by
  simp only [AWZW.termM]; push_cast; ring
set_option maxRecDepth 8000 in
theorem AWZW.ampP (N : Env) (f : Nat → List Int → ℂ) (t1 t2 t3 : Fin 3) : Cls.AWZW.m_amp.mean N f .c [2, spinV t1, spinV t2, spinV t3] = comb t2 (fun a2 b2 => comb t3 (fun a3 b3 => comb t1 (fun a1 b1 => AWZW.termP N 1 0 (spinOf a1) (spinOf b1) (spinOf a2) (spinOf b2) (spinOf a3) (spinOf b3)))) := by
  refine (amp_mean N f (m := 4) (K := 10) (G := fun i => if 0 < i 0 then AWZW.termP N 1 0 (i 8) (i 9) (i 4) (i 5) (i 6) (i 7) else if i 0 < 0 then AWZW.termM N 1 0 (i 8) (i 9) (i 4) (i 5) (i 6) (i 7) else 0) (fun l => ?_) (fun i i' h => ?_) rfl (by decide) (by decide) (by decide) (by decide) (by decide)).trans ?_
  · by_cases h : 0 < l.i 0
    · refine ⟨_, (if_pos (decide_eq_true h)).trans rfl, rfl, rfl, ?_⟩; rw [if_pos h]; exact AWZW.termP_lin ..
    · by_cases h' : l.i 0 < 0
      · refine ⟨_, (if_neg (fun e => h (of_decide_eq_true e))).trans ((if_pos (decide_eq_true h')).trans rfl), rfl, rfl, ?_⟩; rw [if_neg h, if_pos h']; exact AWZW.termM_lin ..
      · refine ⟨_, (if_neg (fun e => h (of_decide_eq_true e))).trans ((if_neg (fun e => h' (of_decide_eq_true e))).trans rfl), rfl, rfl, ?_⟩; rw [if_neg h, if_neg h', mul_zero, add_zero]
  · simp only [h 0 (by decide), h 4 (by decide), h 5 (by decide), h 6 (by decide), h 7 (by decide), h 8 (by decide), h 9 (by decide)]
  · show amp' _ [spinV t2, spinV t3, spinV t1] = _
    simp only [amp'_comb, amp'_nil]
    rfl
theorem AWZW.formP_x1 (N : Env) (p : Nat → V4 ℝ) (z0 y1 x2 y2 x3 y3 x y : Pair) : AWZW.formP N p z0 (x + y) y1 x2 y2 x3 y3 = AWZW.formP N p z0 x y1 x2 y2 x3 y3 + AWZW.formP N p z0 y y1 x2 y2 x3 y3 := by
  simp only [AWZW.formP, Prod.fst_add, Prod.snd_add, ab_add_left, ab_add_right, sb_add_left, sb_add_right, mb_add_left, mb_add_right]
  ring
theorem AWZW.formP_y1 (N : Env) (p : Nat → V4 ℝ) (z0 x1 x2 y2 x3 y3 x y : Pair) : AWZW.formP N p z0 x1 (x + y) x2 y2 x3 y3 = AWZW.formP N p z0 x1 x x2 y2 x3 y3 + AWZW.formP N p z0 x1 y x2 y2 x3 y3 := by
  simp only [AWZW.formP, Prod.fst_add, Prod.snd_add, ab_add_left, ab_add_right, sb_add_left, sb_add_right, mb_add_left, mb_add_right]
  ring
theorem AWZW.formP_x2 (N : Env) (p : Nat → V4 ℝ) (z0 x1 y1 y2 x3 y3 x y : Pair) : AWZW.formP N p z0 x1 y1 (x + y) y2 x3 y3 = AWZW.formP N p z0 x1 y1 x y2 x3 y3 + AWZW.formP N p z0 x1 y1 y y2 x3 y3 := by
  simp only [AWZW.formP, Prod.fst_add, Prod.snd_add, ab_add_left, ab_add_right, sb_add_left, sb_add_right, mb_add_left, mb_add_right]
  ring
theorem AWZW.formP_y2 (N : Env) (p : Nat → V4 ℝ) (z0 x1 y1 x2 x3 y3 x y : Pair) : AWZW.formP N p z0 x1 y1 x2 (x + y) x3 y3 = AWZW.formP N p z0 x1 y1 x2 x x3 y3 + AWZW.formP N p z0 x1 y1 x2 y x3 y3 := by
  simp only [AWZW.formP, Prod.fst_add, Prod.snd_add, ab_add_left, ab_add_right, sb_add_left, sb_add_right, mb_add_left, mb_add_right]
  ring
theorem AWZW.formP_x3 (N : Env) (p : Nat → V4 ℝ) (z0 x1 y1 x2 y2 y3 x y : Pair) : AWZW.formP N p z0 x1 y1 x2 y2 (x + y) y3 = AWZW.formP N p z0 x1 y1 x2 y2 x y3 + AWZW.formP N p z0 x1 y1 x2 y2 y y3 := by
  simp only [AWZW.formP, Prod.fst_add, Prod.snd_add, ab_add_left, ab_add_right, sb_add_left, sb_add_right, mb_add_left, mb_add_right]
  ring
theorem AWZW.formP_y3 (N : Env) (p : Nat → V4 ℝ) (z0 x1 y1 x2 y2 x3 x y : Pair) : AWZW.formP N p z0 x1 y1 x2 y2 x3 (x + y) = AWZW.formP N p z0 x1 y1 x2 y2 x3 x + AWZW.formP N p z0 x1 y1 x2 y2 x3 y := by
  simp only [AWZW.formP, Prod.fst_add, Prod.snd_add, ab_add_left, ab_add_right, sb_add_left, sb_add_right, mb_add_left, mb_add_right]
  ring
set_option maxRecDepth 8000 in
theorem AWZW.ampM (N : Env) (f : Nat → List Int → ℂ) (t1 t2 t3 : Fin 3) : Cls.AWZW.m_amp.mean N f .c [(-2), spinV t1, spinV t2, spinV t3] = comb t2 (fun a2 b2 => comb t3 (fun a3 b3 => comb t1 (fun a1 b1 => AWZW.termM N 1 0 (spinOf a1) (spinOf b1) (spinOf a2) (spinOf b2) (spinOf a3) (spinOf b3)))) := by
  refine (amp_mean N f (m := 4) (K := 10) (G := fun i => if 0 < i 0 then AWZW.termP N 1 0 (i 8) (i 9) (i 4) (i 5) (i 6) (i 7) else if i 0 < 0 then AWZW.termM N 1 0 (i 8) (i 9) (i 4) (i 5) (i 6) (i 7) else 0) (fun l => ?_) (fun i i' h => ?_) rfl (by decide) (by decide) (by decide) (by decide) (by decide)).trans ?_
  · by_cases h : 0 < l.i 0
    · refine ⟨_, (if_pos (decide_eq_true h)).trans rfl, rfl, rfl, ?_⟩; rw [if_pos h]; exact AWZW.termP_lin ..
    · by_cases h' : l.i 0 < 0
      · refine ⟨_, (if_neg (fun e => h (of_decide_eq_true e))).trans ((if_pos (decide_eq_true h')).trans rfl), rfl, rfl, ?_⟩; rw [if_neg h, if_pos h']; exact AWZW.termM_lin ..
      · refine ⟨_, (if_neg (fun e => h (of_decide_eq_true e))).trans ((if_neg (fun e => h' (of_decide_eq_true e))).trans rfl), rfl, rfl, ?_⟩; rw [if_neg h, if_neg h', mul_zero, add_zero]
  · simp only [h 0 (by decide), h 4 (by decide), h 5 (by decide), h 6 (by decide), h 7 (by decide), h 8 (by decide), h 9 (by decide)]
  · show amp' _ [spinV t2, spinV t3, spinV t1] = _
    simp only [amp'_comb, amp'_nil]
    rfl
theorem AWZW.formM_x1 (N : Env) (p : Nat → V4 ℝ) (z0 y1 x2 y2 x3 y3 x y : Pair) : AWZW.formM N p z0 (x + y) y1 x2 y2 x3 y3 = AWZW.formM N p z0 x y1 x2 y2 x3 y3 + AWZW.formM N p z0 y y1 x2 y2 x3 y3 := by
  simp only [AWZW.formM, Prod.fst_add, Prod.snd_add, ab_add_left, ab_add_right, sb_add_left, sb_add_right, mb_add_left, mb_add_right]
  ring
theorem AWZW.formM_y1 (N : Env) (p : Nat → V4 ℝ) (z0 x1 x2 y2 x3 y3 x y : Pair) : AWZW.formM N p z0 x1 (x + y) x2 y2 x3 y3 = AWZW.formM N p z0 x1 x x2 y2 x3 y3 + AWZW.formM N p z0 x1 y x2 y2 x3 y3 := by
  simp only [AWZW.formM, Prod.fst_add, Prod.snd_add, ab_add_left, ab_add_right, sb_add_left, sb_add_right, mb_add_left, mb_add_right]
  ring
theorem AWZW.formM_x2 (N : Env) (p : Nat → V4 ℝ) (z0 x1 y1 y2 x3 y3 x y : Pair) : AWZW.formM N p z0 x1 y1 (x + y) y2 x3 y3 = AWZW.formM N p z0 x1 y1 x y2 x3 y3 + AWZW.formM N p z0 x1 y1 y y2 x3 y3 := by
  simp only [AWZW.formM, Prod.fst_add, Prod.snd_add, ab_add_left, ab_add_right, sb_add_left, sb_add_right, mb_add_left, mb_add_right]
  ring
theorem AWZW.formM_y2 (N : Env) (p : Nat → V4 ℝ) (z0 x1 y1 x2 x3 y3 x y : Pair) : AWZW.formM N p z0 x1 y1 x2 (x + y) x3 y3 = AWZW.formM N p z0 x1 y1 x2 x x3 y3 + AWZW.formM N p z0 x1 y1 x2 y x3 y3 := by
  simp only [AWZW.formM, Prod.fst_add, Prod.snd_add, ab_add_left, ab_add_right, sb_add_left, sb_add_right, mb_add_left, mb_add_right]
  ring
theorem AWZW.formM_x3 (N : Env) (p : Nat → V4 ℝ) (z0 x1 y1 x2 y2 y3 x y : Pair) : AWZW.formM N p z0 x1 y1 x2 y2 (x + y) y3 = AWZW.formM N p z0 x1 y1 x2 y2 x y3 + AWZW.formM N p z0 x1 y1 x2 y2 y y3 := by
  simp only [AWZW.formM, Prod.fst_add, Prod.snd_add, ab_add_left, ab_add_right, sb_add_left, sb_add_right, mb_add_left, mb_add_right]
  ring
theorem AWZW.formM_y3 (N : Env) (p : Nat → V4 ℝ) (z0 x1 y1 x2 y2 x3 x y : Pair) : AWZW.formM N p z0 x1 y1 x2 y2 x3 (x + y) = AWZW.formM N p z0 x1 y1 x2 y2 x3 x + AWZW.formM N p z0 x1 y1 x2 y2 x3 y := by
  simp only [AWZW.formM, Prod.fst_add, Prod.snd_add, ab_add_left, ab_add_right, sb_add_left, sb_add_right, mb_add_left, mb_add_right]
  ring

theorem AWZW.mass_eq {c : Constants} (hc : c.Physical) (i : Fin 4) : AWZW.proc.massNum (AWZW.rho c) i = AWZW.react.mass c i := by
  fin_cases i <;> first | rfl | exact Nat.cast_zero | (show c.MW / √(((1 : Nat) : ℝ) - c.SW * c.SW) = c.MZ; rw [c.root, c.mz])

variable [FPEnv] in
theorem AWZW.amps {c : Constants} {p : Nat → V4 ℝ} {u : Fin 4 → Fin 3 → Spinor} {ε : Fin 4 → Fin 3 → Vec} (hc : c.Physical) (hh : c.Heavy) (hw : ∀ q ∈ AWZW.absent, c.get q = 0) (h0 : ∀ i, 0 ≤ AWZW.react.mass c i) (hs : ∀ i : Fin 4, OnShell (p i) (AWZW.react.mass c i)) (hb : Balanced p) (hr : AWZW.react.Regular c p) (hu : ∀ i, AWZW.react.Complete c p i (u i) (ε i)) :
    (AWZW.N c p).c 0 ≠ 0 ∧ (AWZW.N c p).c 1 ≠ 0 ∧ (∀ n, (Ty.r, n) ∈ AWZW.proc.divides → (AWZW.N c p).r n ≠ 0) ∧ (∀ n, (Ty.c, n) ∈ AWZW.proc.divides → (AWZW.N c p).c n ≠ 0) ∧ ∀ (h0 : Fin 2) (t1 t2 t3 : Fin 3), ‖Cls.AWZW.m_amp.mean (AWZW.N c p) (callMean (AWZW.N c p) []) .c [spinW h0, spinV t1, spinV t2, spinV t3]‖ = ‖AWZW.react.bare4 c p (lightE (legA (p 0) 0 0, legS (p 0) 0 1) h0.castSucc) (AWZW.react.codeVec c p 1 t1) (AWZW.react.codeVec c p 2 t2) (AWZW.react.codeVec c p 3 t3)‖ := by
  have he : AWZW.react.ends = [] := by decide
  have ht : AWZW.react.starts = [] := by decide
  have hB : AWZW.react.bosons = [0, 1, 2, 3] := by decide
  obtain ⟨f1, f2, f3⟩ := AWZW.react.regular_four he ht hB hr
  have hWW : c.WW = 0 := hw .WW (by simp [AWZW])
  have hG : AWZW.react.Gauge c p := AWZW.gauge hc.MW hWW hb (fun n => onShell_msq (hs n)) hr
  have r3 : (AWZW.N c p).r 3 = c.SW := rfl
  have r4 : (AWZW.N c p).r 4 = √((((1 : Nat) : ℝ) - (c.SW * c.SW))) := rfl
  simp only [c.root] at r4
  have r7 : (AWZW.N c p).r 7 = (((((2 : Nat) : ℝ) * c.e) * c.e) / (√((((1 : Nat) : ℝ) - (c.SW * c.SW))) * c.SW)) := rfl
  simp only [c.root] at r7
  have c0 : (AWZW.N c p).c 0 = poleDist c.MW c.WW ((VExp.add 0 1).sum p) := rfl
  have d0 : pole c.MW c.WW (plus (p 0) (p 1)) = (AWZW.N c p).c 0 := by rw [c0, pole_congr (msq_s hb (plus (p 0) (p 1)) (by simp)).symm]
  have n0 : (AWZW.N c p).c 0 ≠ 0 := by rw [← d0]; exact star_ne_zero.2 (f1 .wPlus rfl rfl)
  rw [hWW, pole_fermion rfl] at c0
  have c1 : (AWZW.N c p).c 1 = poleDist c.MW c.WW ((VExp.sub 0 3).sum p) := rfl
  have d1 : pole c.MW c.WW (plus (p 0) (backward (p 3))) = (AWZW.N c p).c 1 := by rw [c1, pole_congr (msq_u hb (plus (p 0) (backward (p 3))) (by simp)).symm]
  have n1 : (AWZW.N c p).c 1 ≠ 0 := by rw [← d1]; exact star_ne_zero.2 (f3 .wMinus rfl rfl)
  rw [hWW, pole_fermion rfl] at c1
  obtain ⟨l0, x0, y0⟩ := AWZW.react.code_light hs hu (n := 0) rfl rfl
  have e01 := l0.pole_add (m := c.MW) (onShell_msq (hs 1)) (msq_s hb (plus (p 0) (p 1)) (by simp)) c0
  have e03 := l0.pole_sub (m := c.MW) (onShell_msq (hs 3)) (msq_u hb (plus (p 0) (backward (p 3))) (by simp)) c1
  have m1 : AWZW.react.mass c 1 ≠ 0 := (leg_pos hc hh (by decide)).ne'
  have m2 : AWZW.react.mass c 2 ≠ 0 := (leg_pos hc hh (by decide)).ne'
  have m3 : AWZW.react.mass c 3 ≠ 0 := (leg_pos hc hh (by decide)).ne'
  have m0 : AWZW.react.mass c 0 = 0 := rfl
  have g0 : ab (refPlus (p 1) (legA (p 0) 0 0, legS (p 0) 0 1)) (legA (p 0) 0 0) ≠ 0 := fun h => (n0) (e01.symm.trans ((ab_ref ..).symm.trans h))
  have j0 : sb (refMinus (p 1) (legA (p 0) 0 0, legS (p 0) 0 1)) (legS (p 0) 0 1) ≠ 0 := fun h => (n0) (e01.symm.trans ((sb_ref ..).symm.trans h))
  have hd : AWZW.proc.divides = [(Ty.c, 1), (Ty.c, 0)] := by decide +kernel
  have stP : ∀ (t1 t2 t3 : Fin 3), comb t2 (fun a2 b2 => comb t3 (fun a3 b3 => comb t1 (fun a1 b1 => AWZW.formP (AWZW.N c p) p (legA (p 0) 0 0, legS (p 0) 0 1) (AWZW.react.codePair c p 1 a1) (AWZW.react.codePair c p 1 b1) (AWZW.react.codePair c p 2 a2) (AWZW.react.codePair c p 2 b2) (AWZW.react.codePair c p 3 a3) (AWZW.react.codePair c p 3 b3)))) = 1 * AWZW.react.bare4 c p (lightE (legA (p 0) 0 0, legS (p 0) 0 1) 1) (AWZW.react.codeVec c p 1 t1) (AWZW.react.codeVec c p 2 t2) (AWZW.react.codeVec c p 3 t3) := by
    intro t1 t2 t3
    refine three_vectors (p₀ := p 2) (m₀ := AWZW.react.mass c 2) (p₁ := p 3) (m₁ := AWZW.react.mass c 3) (p₂ := p 1) (m₂ := AWZW.react.mass c 1) (fun s => AWZW.react.codePair_bold hs h0 2 s) (fun s => AWZW.react.codePair_bold hs h0 3 s) (fun s => AWZW.react.codePair_bold hs h0 1 s) (B := fun w0 w0b w1 w1b w2 w2b => AWZW.formP (AWZW.N c p) p (legA (p 0) 0 0, legS (p 0) 0 1) w2 w2b w0 w0b w1 w1b) (fun _ _ _ _ _ _ _ => ?_) (fun _ _ _ _ _ _ _ => ?_) (fun _ _ _ _ _ _ _ => ?_) (fun _ _ _ _ _ _ _ => ?_) (fun _ _ _ _ _ _ _ => ?_) (fun _ _ _ _ _ _ _ => ?_) (G := fun E F G => AWZW.react.bare4 c p (lightE (legA (p 0) 0 0, legS (p 0) 0 1) 1) G E F) (fun _ _ => AWZW.react.bare4_lin₂ c p (by decide) _ _ _) (fun _ _ => AWZW.react.bare4_lin₃ c p (by decide) _ _ _) (fun _ _ => AWZW.react.bare4_lin₁ c p (by decide) _ _ _) 1 (fun z2 z3 z1 b2 b3 b1 => ?_) t2 t3 t1
    · exact AWZW.formP_x2 ..
    · exact AWZW.formP_y2 ..
    · exact AWZW.formP_x3 ..
    · exact AWZW.formP_y3 ..
    · exact AWZW.formP_x1 ..
    · exact AWZW.formP_y1 ..
    · have k0 := AWZW.keyP hc hb r3 r4 r7 d0 n0 d1 n1 b1 b2 b3 l0 e01 e03 (onShell_msq (hs 1)) (onShell_msq (hs 2)) (onShell_msq (hs 3)) (ab_ref (p 1) (legA (p 0) 0 0, legS (p 0) 0 1))
      have w0 : AWZW.react.bare4 c p (four (p 0)) (pv z1.1 z1.2) (pv z2.1 z2.2) (pv z3.1 z3.2) = 0 := by
        refine AWZW.react.bare4_gauge he ht hB hG (n := 0) rfl rfl ![four (p 0), (pv z1.1 z1.2), (pv z2.1 z2.2), (pv z3.1 z3.2)] (fun m hm x hl hx => ?_) rfl
        fin_cases m
        · exact absurd rfl hm
        · exact pv_transverse b1.mb_zero'
        · exact pv_transverse b2.mb_zero'
        · exact pv_transverse b3.mb_zero'
      have k1 := light_plus_ref (z := (legA (p 0) 0 0, legS (p 0) 0 1)) (G := fun E => AWZW.react.bare4 c p E (pv z1.1 z1.2) (pv z2.1 z2.2) (pv z3.1 z3.2)) l0 (AWZW.react.bare4_lin₀ c p (by decide) _ _ _) w0 x0 g0 k0
      exact k1.trans (mul_assoc _ _ _)
  have stM : ∀ (t1 t2 t3 : Fin 3), comb t2 (fun a2 b2 => comb t3 (fun a3 b3 => comb t1 (fun a1 b1 => AWZW.formM (AWZW.N c p) p (legA (p 0) 0 0, legS (p 0) 0 1) (AWZW.react.codePair c p 1 a1) (AWZW.react.codePair c p 1 b1) (AWZW.react.codePair c p 2 a2) (AWZW.react.codePair c p 2 b2) (AWZW.react.codePair c p 3 a3) (AWZW.react.codePair c p 3 b3)))) = 1 * AWZW.react.bare4 c p (lightE (legA (p 0) 0 0, legS (p 0) 0 1) 0) (AWZW.react.codeVec c p 1 t1) (AWZW.react.codeVec c p 2 t2) (AWZW.react.codeVec c p 3 t3) := by
    intro t1 t2 t3
    refine three_vectors (p₀ := p 2) (m₀ := AWZW.react.mass c 2) (p₁ := p 3) (m₁ := AWZW.react.mass c 3) (p₂ := p 1) (m₂ := AWZW.react.mass c 1) (fun s => AWZW.react.codePair_bold hs h0 2 s) (fun s => AWZW.react.codePair_bold hs h0 3 s) (fun s => AWZW.react.codePair_bold hs h0 1 s) (B := fun w0 w0b w1 w1b w2 w2b => AWZW.formM (AWZW.N c p) p (legA (p 0) 0 0, legS (p 0) 0 1) w2 w2b w0 w0b w1 w1b) (fun _ _ _ _ _ _ _ => ?_) (fun _ _ _ _ _ _ _ => ?_) (fun _ _ _ _ _ _ _ => ?_) (fun _ _ _ _ _ _ _ => ?_) (fun _ _ _ _ _ _ _ => ?_) (fun _ _ _ _ _ _ _ => ?_) (G := fun E F G => AWZW.react.bare4 c p (lightE (legA (p 0) 0 0, legS (p 0) 0 1) 0) G E F) (fun _ _ => AWZW.react.bare4_lin₂ c p (by decide) _ _ _) (fun _ _ => AWZW.react.bare4_lin₃ c p (by decide) _ _ _) (fun _ _ => AWZW.react.bare4_lin₁ c p (by decide) _ _ _) 1 (fun z2 z3 z1 b2 b3 b1 => ?_) t2 t3 t1
    · exact AWZW.formM_x2 ..
    · exact AWZW.formM_y2 ..
    · exact AWZW.formM_x3 ..
    · exact AWZW.formM_y3 ..
    · exact AWZW.formM_x1 ..
    · exact AWZW.formM_y1 ..
    · have k0 := AWZW.keyM hc hb r3 r4 r7 d0 n0 d1 n1 b1 b2 b3 l0 e01 e03 (onShell_msq (hs 1)) (onShell_msq (hs 2)) (onShell_msq (hs 3)) (sb_ref (p 1) (legA (p 0) 0 0, legS (p 0) 0 1))
      have w0 : AWZW.react.bare4 c p (four (p 0)) (pv z1.1 z1.2) (pv z2.1 z2.2) (pv z3.1 z3.2) = 0 := by
        refine AWZW.react.bare4_gauge he ht hB hG (n := 0) rfl rfl ![four (p 0), (pv z1.1 z1.2), (pv z2.1 z2.2), (pv z3.1 z3.2)] (fun m hm x hl hx => ?_) rfl
        fin_cases m
        · exact absurd rfl hm
        · exact pv_transverse b1.mb_zero'
        · exact pv_transverse b2.mb_zero'
        · exact pv_transverse b3.mb_zero'
      have k1 := light_minus_ref (z := (legA (p 0) 0 0, legS (p 0) 0 1)) (G := fun E => AWZW.react.bare4 c p E (pv z1.1 z1.2) (pv z2.1 z2.2) (pv z3.1 z3.2)) l0 (AWZW.react.bare4_lin₀ c p (by decide) _ _ _) w0 y0 j0 k0
      exact k1.trans (mul_assoc _ _ _)
  have amP : ∀ (t1 t2 t3 : Fin 3), Cls.AWZW.m_amp.mean (AWZW.N c p) (callMean (AWZW.N c p) []) .c [2, spinV t1, spinV t2, spinV t3] = 1 * AWZW.react.bare4 c p (lightE (legA (p 0) 0 0, legS (p 0) 0 1) 1) (AWZW.react.codeVec c p 1 t1) (AWZW.react.codeVec c p 2 t2) (AWZW.react.codeVec c p 3 t3) := by
    intro t1 t2 t3
    rw [AWZW.ampP, ← stP t1 t2 t3]
    refine congrArg (comb t2) (funext fun a2 => funext fun b2 => ?_)
    refine congrArg (comb t3) (funext fun a3 => funext fun b3 => ?_)
    refine congrArg (comb t1) (funext fun a1 => funext fun b1 => ?_)
    have v11z0x2 : (AWZW.N c p).v 11 [spinOf a2] = sb (legA (p 0) 0 0, legS (p 0) 0 1).2 (AWZW.react.codePair c p 2 a2).2 := bra_square (p := p) (m := AWZW.proc.massNum (AWZW.rho c)) (AWZW.mass_eq hc 0) (AWZW.mass_eq hc 2) (.inr ⟨m0, rfl⟩) (.inl ⟨m2, rfl⟩)
    have v11z0y2 : (AWZW.N c p).v 11 [spinOf b2] = sb (legA (p 0) 0 0, legS (p 0) 0 1).2 (AWZW.react.codePair c p 2 b2).2 := bra_square (p := p) (m := AWZW.proc.massNum (AWZW.rho c)) (AWZW.mass_eq hc 0) (AWZW.mass_eq hc 2) (.inr ⟨m0, rfl⟩) (.inl ⟨m2, rfl⟩)
    have v3x1x3 : (AWZW.N c p).v 3 [spinOf a1, spinOf a3] = ab (AWZW.react.codePair c p 1 a1).1 (AWZW.react.codePair c p 3 a3).1 := bra_angle (p := p) (m := AWZW.proc.massNum (AWZW.rho c)) (AWZW.mass_eq hc 1) (AWZW.mass_eq hc 3) (.inl ⟨m1, rfl⟩) (.inl ⟨m3, rfl⟩)
    have v3y1y3 : (AWZW.N c p).v 3 [spinOf b1, spinOf b3] = ab (AWZW.react.codePair c p 1 b1).1 (AWZW.react.codePair c p 3 b3).1 := bra_angle (p := p) (m := AWZW.proc.massNum (AWZW.rho c)) (AWZW.mass_eq hc 1) (AWZW.mass_eq hc 3) (.inl ⟨m1, rfl⟩) (.inl ⟨m3, rfl⟩)
    have v9z0x3 : (AWZW.N c p).v 9 [spinOf a3] = sb (legA (p 0) 0 0, legS (p 0) 0 1).2 (AWZW.react.codePair c p 3 a3).2 := bra_square (p := p) (m := AWZW.proc.massNum (AWZW.rho c)) (AWZW.mass_eq hc 0) (AWZW.mass_eq hc 3) (.inr ⟨m0, rfl⟩) (.inl ⟨m3, rfl⟩)
    have v9z0y3 : (AWZW.N c p).v 9 [spinOf b3] = sb (legA (p 0) 0 0, legS (p 0) 0 1).2 (AWZW.react.codePair c p 3 b3).2 := bra_square (p := p) (m := AWZW.proc.massNum (AWZW.rho c)) (AWZW.mass_eq hc 0) (AWZW.mass_eq hc 3) (.inr ⟨m0, rfl⟩) (.inl ⟨m3, rfl⟩)
    have v5x1x2 : (AWZW.N c p).v 5 [spinOf a1, spinOf a2] = ab (AWZW.react.codePair c p 1 a1).1 (AWZW.react.codePair c p 2 a2).1 := bra_angle (p := p) (m := AWZW.proc.massNum (AWZW.rho c)) (AWZW.mass_eq hc 1) (AWZW.mass_eq hc 2) (.inl ⟨m1, rfl⟩) (.inl ⟨m2, rfl⟩)
    have v5y1y2 : (AWZW.N c p).v 5 [spinOf b1, spinOf b2] = ab (AWZW.react.codePair c p 1 b1).1 (AWZW.react.codePair c p 2 b2).1 := bra_angle (p := p) (m := AWZW.proc.massNum (AWZW.rho c)) (AWZW.mass_eq hc 1) (AWZW.mass_eq hc 2) (.inl ⟨m1, rfl⟩) (.inl ⟨m2, rfl⟩)
    have v0z0x1 : (AWZW.N c p).v 0 [spinOf a1] = sb (legA (p 0) 0 0, legS (p 0) 0 1).2 (AWZW.react.codePair c p 1 a1).2 := bra_square (p := p) (m := AWZW.proc.massNum (AWZW.rho c)) (AWZW.mass_eq hc 0) (AWZW.mass_eq hc 1) (.inr ⟨m0, rfl⟩) (.inl ⟨m1, rfl⟩)
    have v0z0y1 : (AWZW.N c p).v 0 [spinOf b1] = sb (legA (p 0) 0 0, legS (p 0) 0 1).2 (AWZW.react.codePair c p 1 b1).2 := bra_square (p := p) (m := AWZW.proc.massNum (AWZW.rho c)) (AWZW.mass_eq hc 0) (AWZW.mass_eq hc 1) (.inr ⟨m0, rfl⟩) (.inl ⟨m1, rfl⟩)
    have v6x2x3 : (AWZW.N c p).v 6 [spinOf a2, spinOf a3] = ab (AWZW.react.codePair c p 2 a2).1 (AWZW.react.codePair c p 3 a3).1 := bra_angle (p := p) (m := AWZW.proc.massNum (AWZW.rho c)) (AWZW.mass_eq hc 2) (AWZW.mass_eq hc 3) (.inl ⟨m2, rfl⟩) (.inl ⟨m3, rfl⟩)
    have v6y2y3 : (AWZW.N c p).v 6 [spinOf b2, spinOf b3] = ab (AWZW.react.codePair c p 2 b2).1 (AWZW.react.codePair c p 3 b3).1 := bra_angle (p := p) (m := AWZW.proc.massNum (AWZW.rho c)) (AWZW.mass_eq hc 2) (AWZW.mass_eq hc 3) (.inl ⟨m2, rfl⟩) (.inl ⟨m3, rfl⟩)
    have v6x2y3 : (AWZW.N c p).v 6 [spinOf a2, spinOf b3] = ab (AWZW.react.codePair c p 2 a2).1 (AWZW.react.codePair c p 3 b3).1 := bra_angle (p := p) (m := AWZW.proc.massNum (AWZW.rho c)) (AWZW.mass_eq hc 2) (AWZW.mass_eq hc 3) (.inl ⟨m2, rfl⟩) (.inl ⟨m3, rfl⟩)
    have v5x1y2 : (AWZW.N c p).v 5 [spinOf a1, spinOf b2] = ab (AWZW.react.codePair c p 1 a1).1 (AWZW.react.codePair c p 2 b2).1 := bra_angle (p := p) (m := AWZW.proc.massNum (AWZW.rho c)) (AWZW.mass_eq hc 1) (AWZW.mass_eq hc 2) (.inl ⟨m1, rfl⟩) (.inl ⟨m2, rfl⟩)
    have v6y2x3 : (AWZW.N c p).v 6 [spinOf b2, spinOf a3] = ab (AWZW.react.codePair c p 2 b2).1 (AWZW.react.codePair c p 3 a3).1 := bra_angle (p := p) (m := AWZW.proc.massNum (AWZW.rho c)) (AWZW.mass_eq hc 2) (AWZW.mass_eq hc 3) (.inl ⟨m2, rfl⟩) (.inl ⟨m3, rfl⟩)
    simp only [AWZW.termP, AWZW.formP, v11z0x2, v11z0y2, v3x1x3, v3y1y3, v9z0x3, v9z0y3, v5x1x2, v5y1y2, v0z0x1, v0z0y1, v6x2x3, v6y2y3, v6x2y3, v5x1y2, v6y2x3]
    push_cast
    ring
  have amM : ∀ (t1 t2 t3 : Fin 3), Cls.AWZW.m_amp.mean (AWZW.N c p) (callMean (AWZW.N c p) []) .c [(-2), spinV t1, spinV t2, spinV t3] = 1 * AWZW.react.bare4 c p (lightE (legA (p 0) 0 0, legS (p 0) 0 1) 0) (AWZW.react.codeVec c p 1 t1) (AWZW.react.codeVec c p 2 t2) (AWZW.react.codeVec c p 3 t3) := by
    intro t1 t2 t3
    rw [AWZW.ampM, ← stM t1 t2 t3]
    refine congrArg (comb t2) (funext fun a2 => funext fun b2 => ?_)
    refine congrArg (comb t3) (funext fun a3 => funext fun b3 => ?_)
    refine congrArg (comb t1) (funext fun a1 => funext fun b1 => ?_)
    have v10z0x2 : (AWZW.N c p).v 10 [spinOf a2] = ab (legA (p 0) 0 0, legS (p 0) 0 1).1 (AWZW.react.codePair c p 2 a2).1 := bra_angle (p := p) (m := AWZW.proc.massNum (AWZW.rho c)) (AWZW.mass_eq hc 0) (AWZW.mass_eq hc 2) (.inr ⟨m0, rfl⟩) (.inl ⟨m2, rfl⟩)
    have v10z0y2 : (AWZW.N c p).v 10 [spinOf b2] = ab (legA (p 0) 0 0, legS (p 0) 0 1).1 (AWZW.react.codePair c p 2 b2).1 := bra_angle (p := p) (m := AWZW.proc.massNum (AWZW.rho c)) (AWZW.mass_eq hc 0) (AWZW.mass_eq hc 2) (.inr ⟨m0, rfl⟩) (.inl ⟨m2, rfl⟩)
    have v2x1x3 : (AWZW.N c p).v 2 [spinOf a1, spinOf a3] = sb (AWZW.react.codePair c p 1 a1).2 (AWZW.react.codePair c p 3 a3).2 := bra_square (p := p) (m := AWZW.proc.massNum (AWZW.rho c)) (AWZW.mass_eq hc 1) (AWZW.mass_eq hc 3) (.inl ⟨m1, rfl⟩) (.inl ⟨m3, rfl⟩)
    have v2y1y3 : (AWZW.N c p).v 2 [spinOf b1, spinOf b3] = sb (AWZW.react.codePair c p 1 b1).2 (AWZW.react.codePair c p 3 b3).2 := bra_square (p := p) (m := AWZW.proc.massNum (AWZW.rho c)) (AWZW.mass_eq hc 1) (AWZW.mass_eq hc 3) (.inl ⟨m1, rfl⟩) (.inl ⟨m3, rfl⟩)
    have v8z0x3 : (AWZW.N c p).v 8 [spinOf a3] = ab (legA (p 0) 0 0, legS (p 0) 0 1).1 (AWZW.react.codePair c p 3 a3).1 := bra_angle (p := p) (m := AWZW.proc.massNum (AWZW.rho c)) (AWZW.mass_eq hc 0) (AWZW.mass_eq hc 3) (.inr ⟨m0, rfl⟩) (.inl ⟨m3, rfl⟩)
    have v8z0y3 : (AWZW.N c p).v 8 [spinOf b3] = ab (legA (p 0) 0 0, legS (p 0) 0 1).1 (AWZW.react.codePair c p 3 b3).1 := bra_angle (p := p) (m := AWZW.proc.massNum (AWZW.rho c)) (AWZW.mass_eq hc 0) (AWZW.mass_eq hc 3) (.inr ⟨m0, rfl⟩) (.inl ⟨m3, rfl⟩)
    have v4x1x2 : (AWZW.N c p).v 4 [spinOf a1, spinOf a2] = sb (AWZW.react.codePair c p 1 a1).2 (AWZW.react.codePair c p 2 a2).2 := bra_square (p := p) (m := AWZW.proc.massNum (AWZW.rho c)) (AWZW.mass_eq hc 1) (AWZW.mass_eq hc 2) (.inl ⟨m1, rfl⟩) (.inl ⟨m2, rfl⟩)
    have v4y1y2 : (AWZW.N c p).v 4 [spinOf b1, spinOf b2] = sb (AWZW.react.codePair c p 1 b1).2 (AWZW.react.codePair c p 2 b2).2 := bra_square (p := p) (m := AWZW.proc.massNum (AWZW.rho c)) (AWZW.mass_eq hc 1) (AWZW.mass_eq hc 2) (.inl ⟨m1, rfl⟩) (.inl ⟨m2, rfl⟩)
    have v1z0x1 : (AWZW.N c p).v 1 [spinOf a1] = ab (legA (p 0) 0 0, legS (p 0) 0 1).1 (AWZW.react.codePair c p 1 a1).1 := bra_angle (p := p) (m := AWZW.proc.massNum (AWZW.rho c)) (AWZW.mass_eq hc 0) (AWZW.mass_eq hc 1) (.inr ⟨m0, rfl⟩) (.inl ⟨m1, rfl⟩)
    have v1z0y1 : (AWZW.N c p).v 1 [spinOf b1] = ab (legA (p 0) 0 0, legS (p 0) 0 1).1 (AWZW.react.codePair c p 1 b1).1 := bra_angle (p := p) (m := AWZW.proc.massNum (AWZW.rho c)) (AWZW.mass_eq hc 0) (AWZW.mass_eq hc 1) (.inr ⟨m0, rfl⟩) (.inl ⟨m1, rfl⟩)
    have v7x2x3 : (AWZW.N c p).v 7 [spinOf a2, spinOf a3] = sb (AWZW.react.codePair c p 2 a2).2 (AWZW.react.codePair c p 3 a3).2 := bra_square (p := p) (m := AWZW.proc.massNum (AWZW.rho c)) (AWZW.mass_eq hc 2) (AWZW.mass_eq hc 3) (.inl ⟨m2, rfl⟩) (.inl ⟨m3, rfl⟩)
    have v7y2y3 : (AWZW.N c p).v 7 [spinOf b2, spinOf b3] = sb (AWZW.react.codePair c p 2 b2).2 (AWZW.react.codePair c p 3 b3).2 := bra_square (p := p) (m := AWZW.proc.massNum (AWZW.rho c)) (AWZW.mass_eq hc 2) (AWZW.mass_eq hc 3) (.inl ⟨m2, rfl⟩) (.inl ⟨m3, rfl⟩)
    have v7x2y3 : (AWZW.N c p).v 7 [spinOf a2, spinOf b3] = sb (AWZW.react.codePair c p 2 a2).2 (AWZW.react.codePair c p 3 b3).2 := bra_square (p := p) (m := AWZW.proc.massNum (AWZW.rho c)) (AWZW.mass_eq hc 2) (AWZW.mass_eq hc 3) (.inl ⟨m2, rfl⟩) (.inl ⟨m3, rfl⟩)
    have v4x1y2 : (AWZW.N c p).v 4 [spinOf a1, spinOf b2] = sb (AWZW.react.codePair c p 1 a1).2 (AWZW.react.codePair c p 2 b2).2 := bra_square (p := p) (m := AWZW.proc.massNum (AWZW.rho c)) (AWZW.mass_eq hc 1) (AWZW.mass_eq hc 2) (.inl ⟨m1, rfl⟩) (.inl ⟨m2, rfl⟩)
    have v7y2x3 : (AWZW.N c p).v 7 [spinOf b2, spinOf a3] = sb (AWZW.react.codePair c p 2 b2).2 (AWZW.react.codePair c p 3 a3).2 := bra_square (p := p) (m := AWZW.proc.massNum (AWZW.rho c)) (AWZW.mass_eq hc 2) (AWZW.mass_eq hc 3) (.inl ⟨m2, rfl⟩) (.inl ⟨m3, rfl⟩)
    simp only [AWZW.termM, AWZW.formM, v10z0x2, v10z0y2, v2x1x3, v2y1y3, v8z0x3, v8z0y3, v4x1x2, v4y1y2, v1z0x1, v1z0y1, v7x2x3, v7y2y3, v7x2y3, v4x1y2, v7y2x3]
    push_cast
    ring
  refine ⟨n0, n1, fun n hn => ?_, fun n hn => ?_, ?_⟩
  · simp [hd] at hn
  · simp [hd] at hn
    rcases hn with rfl | rfl
    · exact n1
    · exact n0
  intro h0 t1 t2 t3
  match h0 with
  | 1 => exact norm_plus (amP t1 t2 t3)
  | 0 => exact norm_plus (amM t1 t2 t3)

variable [FPEnv] in
theorem AWZW.agrees : AWZW.Agrees := by
  refine agrees_of (D := [1, 2]) (E := [2]) (by simp [all, AWZW]) (by decide +kernel) (by decide) (by decide +kernel) (fun c hc hh => ⟨List.forall_mem_cons.2 ⟨hc.MW, List.forall_mem_cons.2 ⟨hc.SW, List.forall_mem_nil _⟩⟩, List.forall_mem_cons.2 ⟨hc.SW_lt, List.forall_mem_nil _⟩⟩) (fun c hc i => AWZW.mass_eq hc i) (by decide +kernel) ?_
  intro c p u ε hc hh hw h0 hs hb hr hu
  have he : AWZW.react.ends = [] := by decide
  have ht : AWZW.react.starts = [] := by decide
  have hB : AWZW.react.bosons = [0, 1, 2, 3] := by decide
  have hWW : c.WW = 0 := hw .WW (by simp [AWZW])
  have hG : AWZW.react.Gauge c p := AWZW.gauge hc.MW hWW hb (fun n => onShell_msq (hs n)) hr
  obtain ⟨n0, n1, d1, d2, am⟩ := AWZW.amps hc hh hw h0 hs hb hr hu
  refine ⟨d1, d2, ?_⟩
  show meaning (AWZW.N c p) .r Cls.AWZW.methods Cls.AWZW.amp2 [] = _
  have s0 : AWZW.react.states 0 = 2 := by decide
  have s1 : AWZW.react.states 1 = 3 := by decide
  have sy : AWZW.react.symmetry = 1 := by decide
  have p0 : AWZW.react.spins 0 = {0, 1} := rfl
  have p1 : AWZW.react.spins 1 = Finset.univ := rfl
  have p2 : AWZW.react.spins 2 = Finset.univ := rfl
  have p3 : AWZW.react.spins 3 = Finset.univ := rfl
  have E0 : AWZW.react.codeE c p 0 = lightE (legA (p 0) 0 0, legS (p 0) 0 1) := rfl
  have E1 : AWZW.react.codeE c p 1 = AWZW.react.codeVec c p 1 := rfl
  have E2 : AWZW.react.codeE c p 2 = AWZW.react.codeVec c p 2 := rfl
  have E3 : AWZW.react.codeE c p 3 = AWZW.react.codeVec c p 3 := rfl
  rw [AWZW.value, AWZW.react.squared_four he ht hB (by decide) hs h0 (fun _ b _ hb _ => (boson_pos hc hh hb).ne') hG (E := AWZW.react.codeE c p) (fun n b hl => AWZW.react.codeE_polarised hs h0 hu (fun b hb => (boson_pos hc hh hb).ne') n b hl) hu, sum_colours, s0, s1, sy]
  simp only [bareFour_eq, sumV_sum, sumW_sum, am, p0, p1, p2, p3, E0, E1, E2, E3, Finset.sum_singleton, sum_two, Matrix.cons_val_zero, Matrix.cons_val_one, Matrix.cons_val]
  push_cast
  first | ring1 | ring_nf

end Spinas.SM.Rows
