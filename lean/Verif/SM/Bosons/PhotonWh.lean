import Verif.SM.PhotonRows

/-! A photon, a Higgs boson and two W bosons. Generated by tools/bosons/photons.py: for each class its amplitude at given helicities as a formula in spinors, and the proof that `amp2` is the squared amplitude of the Feynman rules. -/

set_option linter.unusedSimpArgs false
set_option linter.unusedVariables false
set_option linter.unreachableTactic false
set_option linter.unusedTactic false

namespace Spinas.SM.Rows
open Spec Spec.Reaction Props XR Matrix BRow

/-! ### AhWW -/

/-- what the methods of the class see -/
noncomputable abbrev AhWW.N [FPEnv] (c : Constants) (p : Nat → V4 ℝ) : Env := AhWW.proc.env (AhWW.rho c) p
/-- the term that `amp` adds for a choice of spinors, for a photon of positive helicity (SM/AhWW.cpp) -/
noncomputable def AhWW.termP (N : Env) (w : ℝ) (x : ℂ) (a2 b2 a3 b3 : Int) : ℂ :=
  (x + (((((((w * N.r 7) : ℝ) : ℂ) * N.v 0 [a2, a3]) * ((((((N.r 1 * N.r 1) : ℝ) : ℂ) * N.v 5 [b2]) * N.v 3 [b3]) + (((N.r 2 : ℝ) : ℂ) * ((N.v 3 [b3] * N.v 6 [b2]) + (N.v 5 [b2] * N.v 7 [b3]))))) / N.c 1) / N.c 2))
/-- the same with spinors in place of their spins -/
noncomputable def AhWW.formP (N : Env) (p : Nat → V4 ℝ) (z0 x2 y2 x3 y3 : Pair) : ℂ :=
  (0 + (((((((((1 : Nat) : ℝ) * N.r 7) : ℝ) : ℂ) * (ab x2.1 x3.1)) * ((((((N.r 1 * N.r 1) : ℝ) : ℂ) * (sb z0.2 y2.2)) * (sb z0.2 y3.2)) + (((N.r 2 : ℝ) : ℂ) * (((sb z0.2 y3.2) * (mb z0.2 (p 1) y2.1)) + ((sb z0.2 y2.2) * (mb z0.2 (p 1) y3.1)))))) / N.c 1) / N.c 2))
/-- the term that `amp` adds for a choice of spinors, for a photon of negative helicity (SM/AhWW.cpp) -/
noncomputable def AhWW.termM (N : Env) (w : ℝ) (x : ℂ) (a2 b2 a3 b3 : Int) : ℂ :=
  (x + (((((((w * N.r 7) : ℝ) : ℂ) * N.v 1 [a2, a3]) * ((((((N.r 1 * N.r 1) : ℝ) : ℂ) * N.v 4 [b2]) * N.v 2 [b3]) + (((N.r 2 : ℝ) : ℂ) * ((N.v 2 [b3] * N.v 8 [b2]) + (N.v 4 [b2] * N.v 9 [b3]))))) / N.c 1) / N.c 2))
/-- the same with spinors in place of their spins -/
noncomputable def AhWW.formM (N : Env) (p : Nat → V4 ℝ) (z0 x2 y2 x3 y3 : Pair) : ℂ :=
  (0 + (((((((((1 : Nat) : ℝ) * N.r 7) : ℝ) : ℂ) * (sb x2.2 x3.2)) * ((((((N.r 1 * N.r 1) : ℝ) : ℂ) * (ab z0.1 y2.1)) * (ab z0.1 y3.1)) + (((N.r 2 : ℝ) : ℂ) * (((ab z0.1 y3.1) * (mb y2.2 (p 1) z0.1)) + ((ab z0.1 y2.1) * (mb y3.2 (p 1) z0.1)))))) / N.c 1) / N.c 2))
theorem AhWW.keyP {c : Constants} {p : Nat → V4 ℝ} {N : Env} (hc : c.Physical) (hb : Balanced p) (r1 : N.r 1 = c.MH) (r2 : N.r 2 = c.MW) (r7 : N.r 7 = (((√(((2 : Nat) : ℝ)) * c.e) * c.e) / (c.MW * c.SW))) (d1 : pole c.MW c.WW (plus (p 0) (backward (p 2))) = N.c 1) (n1 : N.c 1 ≠ 0) (d2 : pole c.MW c.WW (plus (p 0) (backward (p 3))) = N.c 2) (n2 : N.c 2 ≠ 0) {z0 z2 z3 : Pair} (b2 : Bold (p 2) c.MW z2) (b3 : Bold (p 3) c.MW z3) (l0 : Light (p 0) z0) (e02 : mb z0.2 (p 2) z0.1 = -N.c 1) (e03 : mb z0.2 (p 3) z0.1 = -N.c 2) (q1 : msq (p 1) = c.MH ^ 2) (q2 : msq (p 2) = c.MW ^ 2) (q3 : msq (p 3) = c.MW ^ 2) {ρ0 : V2} (R0 : ∀ Y, ab ρ0 Y = mb z0.2 (p 2) Y) (E1 : Vec) :
    AhWW.formP N p z0 z2 z2 z3 z3 * ab ρ0 z0.1 = ((√2 : ℝ) * ((1 : ℂ) * ((2 / (c.MW * c.MW) : ℝ) : ℂ))) * AhWW.react.bare4 c p (pv ρ0 z0.2) E1 (pv z2.1 z2.2) (pv z3.1 z3.2) := by
  rw [AhWW.react.bare4_parts c p (b₀ := .photon) (b₁ := .higgs) (b₂ := .wMinus) (b₃ := .wPlus) rfl rfl rfl rfl, AhWW.formP]
  have T0 := l0.mb_plus ρ0
  have T2 := mb_back_zero (b2.mb_zero')
  have T3 := mb_back_zero (b3.mb_zero')
  have Q2 : msq (backward (p 2)) = c.MW ^ 2 := (msq_backward _).trans q2
  have Q3 : msq (backward (p 3)) = c.MW ^ 2 := (msq_backward _).trans q3
  simp only [contact, seagull, gauge4, between, carriers, List.map_cons, List.map_nil, List.sum_cons, List.sum_nil]
  simp only [toHiggs, toVector, higgs2, gauge3, Boson.anti, reduceCtorEq, and_self, and_true, and_false, true_and, false_and, if_true, if_false, Complex.ofReal_zero, zero_smul, carry_none, zero_mul, mul_zero, zero_div, neg_zero, add_zero, zero_add, sub_zero, sub_self, contract_zero, contract_zero_left]
  first | rw [dress_plus c (x := .wPlus) (.inl rfl) hc.MW l0 Q2 T2] | rw [dress_plus c (x := .wMinus) (.inr rfl) hc.MW l0 Q2 T2]
  first | rw [dress_plus c (x := .wPlus) (.inl rfl) hc.MW l0 Q3 T3] | rw [dress_plus c (x := .wMinus) (.inr rfl) hc.MW l0 Q3 T3]
  simp only [d1, d2, yangMills_transverse T2 T3, contract_add, contract_smul, contract_smul_left, contract_four_pv, contract_pv_four, contract_pv, mb_backward]
  have R00 := (ref_plus_plus R0 R0).2
  have i0 := mb_schouten_right z0.2 (p 1) z2.1 z3.1 ρ0
  have i1 := mb_schouten_left z0.2 z2.2 z3.2 (p 1) z2.1
  have i2 := mb_schouten_right z0.2 (p 1) z0.1 z2.1 z3.1
  have i3 := mb_det z0.2 z2.2 (p 1) z2.1 z3.1
  rw [q1] at i3
  simp only [ab_swap ρ0 z0.1, ab_swap ρ0 z2.1, ab_swap ρ0 z3.1, R00, R0, l0.mb_eq, b2.mb_left, b2.mb_right, b3.mb_left, b3.mb_right, e02, e03, mb_one hb z0.2 z0.1, mb_three hb z0.2 z2.1, mb_two hb z0.2 z3.1, mb_three hb z2.2 z0.1, mb_three hb z2.2 z2.1, mb_one hb z2.2 z3.1, mb_two hb z3.2 z0.1, mb_one hb z3.2 z2.1, mb_two hb z3.2 z3.1, mb_three hb z0.2 ρ0, ab_self, sb_self] at i0 i1 i2 i3 ⊢
  simp only [ab_swap z0.1 z2.1, sb_swap z0.2 z2.2, ab_swap z0.1 z3.1, sb_swap z0.2 z3.2, ab_swap z2.1 z3.1, sb_swap z2.2 z3.2] at i0 i1 i2 i3 ⊢
  simp only [r1, r2, r7, Constants.invVev, ← c.mz]
  have xMW : (c.MW : ℂ) ≠ 0 := by exact_mod_cast hc.MW
  have xSW : (c.SW : ℂ) ≠ 0 := by exact_mod_cast hc.SW
  have xCW : (c.CW : ℂ) ≠ 0 := by exact_mod_cast hc.CW
  have x2 : ((√2 : ℝ) : ℂ) ≠ 0 := by exact_mod_cast (Real.sqrt_pos.2 two_pos).ne'
  have x22 : ((√2 : ℝ) : ℂ) ^ 2 = 2 := by rw [← Complex.ofReal_pow, Real.sq_sqrt two_pos.le]; norm_num
  push_cast at i0 i1 i2 i3 ⊢
  simp only [div_eq_mul_inv, mul_inv, inv_inv] at i0 i1 i2 i3 ⊢
  have y1 := mul_inv_cancel₀ n1
  have y2 := mul_inv_cancel₀ n2
  have yMW := mul_inv_cancel₀ xMW
  linear_combination ((((1) * (((√2 : ℝ) : ℂ)) * ((c.e : ℂ)) ^ 2 * (sb z2.2 z3.2)) * i0 + ((1) * (((√2 : ℝ) : ℂ)) * ((c.e : ℂ)) ^ 2 * (mb z0.2 (p 1) z3.1)) * i1 + ((-1) * (((√2 : ℝ) : ℂ)) * ((c.e : ℂ)) ^ 2 * (sb z0.2 z2.2) * (sb z0.2 z3.2)) * i2 + ((-1) * (((√2 : ℝ) : ℂ)) * ((c.e : ℂ)) ^ 2 * (sb z0.2 z3.2)) * i3)) * ((1) * ((c.MW : ℂ)⁻¹) * ((c.SW : ℂ)⁻¹) * ((N.c 2)⁻¹)) + ((-1) * ((c.MH : ℂ)) ^ 2 * (((√2 : ℝ) : ℂ)) * ((c.e : ℂ)) ^ 2 * ((c.MW : ℂ)⁻¹) * ((c.SW : ℂ)⁻¹) * ((N.c 2)⁻¹) * (ab z2.1 z3.1) * (sb z0.2 z2.2) * (sb z0.2 z3.2) + (-1) * ((c.MW : ℂ)) * (((√2 : ℝ) : ℂ)) * ((c.e : ℂ)) ^ 2 * ((c.MW : ℂ)⁻¹) * ((c.SW : ℂ)⁻¹) * ((N.c 2)⁻¹) * (ab z2.1 z3.1) * (mb z0.2 (p 1) z2.1) * (sb z0.2 z3.2) + (-1) * ((c.MW : ℂ)) * (((√2 : ℝ) : ℂ)) * ((c.e : ℂ)) ^ 2 * ((c.MW : ℂ)⁻¹) * ((c.SW : ℂ)⁻¹) * ((N.c 2)⁻¹) * (ab z2.1 z3.1) * (mb z0.2 (p 1) z3.1) * (sb z0.2 z2.2) + (1) * ((c.MW : ℂ)) ^ 2 * (((√2 : ℝ) : ℂ)) * ((c.e : ℂ)) ^ 2 * ((c.MW : ℂ)⁻¹) ^ 3 * ((c.SW : ℂ)⁻¹) * (ab z2.1 z3.1) * (sb z0.2 z2.2) * (sb z0.2 z3.2)) * y1 + ((-1) * (((√2 : ℝ) : ℂ)) * ((c.e : ℂ)) ^ 2 * ((c.MW : ℂ)⁻¹) * ((c.SW : ℂ)⁻¹) * (ab z2.1 z3.1) * (sb z0.2 z2.2) * (sb z0.2 z3.2)) * y2 + ((1) * ((c.MW : ℂ)) * (((√2 : ℝ) : ℂ)) * ((c.e : ℂ)) ^ 2 * ((c.MW : ℂ)⁻¹) ^ 2 * ((c.SW : ℂ)⁻¹) * (N.c 1) * ((N.c 2)⁻¹) * (ab z2.1 z3.1) * (sb z0.2 z2.2) * (sb z0.2 z3.2) + (1) * ((c.MW : ℂ)) * (((√2 : ℝ) : ℂ)) * ((c.e : ℂ)) ^ 2 * ((c.MW : ℂ)⁻¹) ^ 2 * ((c.SW : ℂ)⁻¹) * ((N.c 2)⁻¹) * (ab z2.1 z3.1) * (mb z0.2 (p 1) ρ0) * (sb z2.2 z3.2) + (1) * ((c.MW : ℂ)) * (((√2 : ℝ) : ℂ)) * ((c.e : ℂ)) ^ 2 * ((c.MW : ℂ)⁻¹) ^ 2 * ((c.SW : ℂ)⁻¹) * (ab z2.1 z3.1) * (sb z0.2 z2.2) * (sb z0.2 z3.2) + (1) * (((√2 : ℝ) : ℂ)) * ((c.e : ℂ)) ^ 2 * ((c.MW : ℂ)⁻¹) * ((c.SW : ℂ)⁻¹) * (N.c 1) * ((N.c 2)⁻¹) * (ab z2.1 z3.1) * (sb z0.2 z2.2) * (sb z0.2 z3.2) + (1) * (((√2 : ℝ) : ℂ)) * ((c.e : ℂ)) ^ 2 * ((c.MW : ℂ)⁻¹) * ((c.SW : ℂ)⁻¹) * ((N.c 2)⁻¹) * (ab z2.1 z3.1) * (mb z0.2 (p 1) ρ0) * (sb z2.2 z3.2) + (1) * (((√2 : ℝ) : ℂ)) * ((c.e : ℂ)) ^ 2 * ((c.MW : ℂ)⁻¹) * ((c.SW : ℂ)⁻¹) * (ab z2.1 z3.1) * (sb z0.2 z2.2) * (sb z0.2 z3.2)) * yMW
theorem AhWW.keyM {c : Constants} {p : Nat → V4 ℝ} {N : Env} (hc : c.Physical) (hb : Balanced p) (r1 : N.r 1 = c.MH) (r2 : N.r 2 = c.MW) (r7 : N.r 7 = (((√(((2 : Nat) : ℝ)) * c.e) * c.e) / (c.MW * c.SW))) (d1 : pole c.MW c.WW (plus (p 0) (backward (p 2))) = N.c 1) (n1 : N.c 1 ≠ 0) (d2 : pole c.MW c.WW (plus (p 0) (backward (p 3))) = N.c 2) (n2 : N.c 2 ≠ 0) {z0 z2 z3 : Pair} (b2 : Bold (p 2) c.MW z2) (b3 : Bold (p 3) c.MW z3) (l0 : Light (p 0) z0) (e02 : mb z0.2 (p 2) z0.1 = -N.c 1) (e03 : mb z0.2 (p 3) z0.1 = -N.c 2) (q1 : msq (p 1) = c.MH ^ 2) (q2 : msq (p 2) = c.MW ^ 2) (q3 : msq (p 3) = c.MW ^ 2) {ρ0 : V2} (R0 : ∀ Y, sb ρ0 Y = mb Y (p 2) z0.1) (E1 : Vec) :
    AhWW.formM N p z0 z2 z2 z3 z3 * sb ρ0 z0.2 = ((√2 : ℝ) * ((1 : ℂ) * ((2 / (c.MW * c.MW) : ℝ) : ℂ))) * AhWW.react.bare4 c p (pv z0.1 ρ0) E1 (pv z2.1 z2.2) (pv z3.1 z3.2) := by
  rw [AhWW.react.bare4_parts c p (b₀ := .photon) (b₁ := .higgs) (b₂ := .wMinus) (b₃ := .wPlus) rfl rfl rfl rfl, AhWW.formM]
  have T0 := l0.mb_minus ρ0
  have T2 := mb_back_zero (b2.mb_zero')
  have T3 := mb_back_zero (b3.mb_zero')
  have Q2 : msq (backward (p 2)) = c.MW ^ 2 := (msq_backward _).trans q2
  have Q3 : msq (backward (p 3)) = c.MW ^ 2 := (msq_backward _).trans q3
  simp only [contact, seagull, gauge4, between, carriers, List.map_cons, List.map_nil, List.sum_cons, List.sum_nil]
  simp only [toHiggs, toVector, higgs2, gauge3, Boson.anti, reduceCtorEq, and_self, and_true, and_false, true_and, false_and, if_true, if_false, Complex.ofReal_zero, zero_smul, carry_none, zero_mul, mul_zero, zero_div, neg_zero, add_zero, zero_add, sub_zero, sub_self, contract_zero, contract_zero_left]
  first | rw [dress_minus c (x := .wPlus) (.inl rfl) hc.MW l0 Q2 T2] | rw [dress_minus c (x := .wMinus) (.inr rfl) hc.MW l0 Q2 T2]
  first | rw [dress_minus c (x := .wPlus) (.inl rfl) hc.MW l0 Q3 T3] | rw [dress_minus c (x := .wMinus) (.inr rfl) hc.MW l0 Q3 T3]
  simp only [d1, d2, yangMills_transverse T2 T3, contract_add, contract_smul, contract_smul_left, contract_four_pv, contract_pv_four, contract_pv, mb_backward]
  have R00 := (ref_minus_minus R0 R0).2
  have i0 := mb_schouten_left z0.2 z2.2 z3.2 (p 1) z0.1
  have i1 := mb_det z2.2 z3.2 (p 1) z0.1 z2.1
  rw [q1] at i1
  have i2 := mb_schouten_left z2.2 z3.2 ρ0 (p 1) z0.1
  have i3 := mb_schouten_right z2.2 (p 1) z0.1 z2.1 z3.1
  simp only [sb_swap ρ0 z0.2, sb_swap ρ0 z2.2, sb_swap ρ0 z3.2, R00, R0, l0.mb_eq, b2.mb_left, b2.mb_right, b3.mb_left, b3.mb_right, e02, e03, mb_one hb z0.2 z0.1, mb_three hb z0.2 z2.1, mb_two hb z0.2 z3.1, mb_three hb z2.2 z0.1, mb_three hb z2.2 z2.1, mb_one hb z2.2 z3.1, mb_two hb z3.2 z0.1, mb_one hb z3.2 z2.1, mb_two hb z3.2 z3.1, mb_three hb ρ0 z0.1, ab_self, sb_self] at i0 i1 i2 i3 ⊢
  simp only [ab_swap z0.1 z2.1, sb_swap z0.2 z2.2, ab_swap z0.1 z3.1, sb_swap z0.2 z3.2, ab_swap z2.1 z3.1, sb_swap z2.2 z3.2] at i0 i1 i2 i3 ⊢
  simp only [r1, r2, r7, Constants.invVev, ← c.mz]
  have xMW : (c.MW : ℂ) ≠ 0 := by exact_mod_cast hc.MW
  have xSW : (c.SW : ℂ) ≠ 0 := by exact_mod_cast hc.SW
  have xCW : (c.CW : ℂ) ≠ 0 := by exact_mod_cast hc.CW
  have x2 : ((√2 : ℝ) : ℂ) ≠ 0 := by exact_mod_cast (Real.sqrt_pos.2 two_pos).ne'
  have x22 : ((√2 : ℝ) : ℂ) ^ 2 = 2 := by rw [← Complex.ofReal_pow, Real.sq_sqrt two_pos.le]; norm_num
  push_cast at i0 i1 i2 i3 ⊢
  simp only [div_eq_mul_inv, mul_inv, inv_inv] at i0 i1 i2 i3 ⊢
  have y1 := mul_inv_cancel₀ n1
  have y2 := mul_inv_cancel₀ n2
  have yMW := mul_inv_cancel₀ xMW
  linear_combination ((((-1) * (((√2 : ℝ) : ℂ)) * ((c.e : ℂ)) ^ 2 * (ab z0.1 z2.1) * (ab z0.1 z3.1)) * i0 + ((-1) * (((√2 : ℝ) : ℂ)) * ((c.e : ℂ)) ^ 2 * (ab z0.1 z3.1)) * i1 + ((1) * (((√2 : ℝ) : ℂ)) * ((c.e : ℂ)) ^ 2 * (ab z2.1 z3.1)) * i2 + ((1) * (((√2 : ℝ) : ℂ)) * ((c.e : ℂ)) ^ 2 * (mb z3.2 (p 1) z0.1)) * i3)) * ((1) * ((c.MW : ℂ)⁻¹) * ((c.SW : ℂ)⁻¹) * ((N.c 2)⁻¹)) + ((-1) * ((c.MH : ℂ)) ^ 2 * (((√2 : ℝ) : ℂ)) * ((c.e : ℂ)) ^ 2 * ((c.MW : ℂ)⁻¹) * ((c.SW : ℂ)⁻¹) * ((N.c 2)⁻¹) * (ab z0.1 z2.1) * (ab z0.1 z3.1) * (sb z2.2 z3.2) + (-1) * ((c.MW : ℂ)) * (((√2 : ℝ) : ℂ)) * ((c.e : ℂ)) ^ 2 * ((c.MW : ℂ)⁻¹) * ((c.SW : ℂ)⁻¹) * ((N.c 2)⁻¹) * (ab z0.1 z2.1) * (mb z3.2 (p 1) z0.1) * (sb z2.2 z3.2) + (-1) * ((c.MW : ℂ)) * (((√2 : ℝ) : ℂ)) * ((c.e : ℂ)) ^ 2 * ((c.MW : ℂ)⁻¹) * ((c.SW : ℂ)⁻¹) * ((N.c 2)⁻¹) * (ab z0.1 z3.1) * (mb z2.2 (p 1) z0.1) * (sb z2.2 z3.2) + (1) * ((c.MW : ℂ)) ^ 2 * (((√2 : ℝ) : ℂ)) * ((c.e : ℂ)) ^ 2 * ((c.MW : ℂ)⁻¹) ^ 3 * ((c.SW : ℂ)⁻¹) * (ab z0.1 z2.1) * (ab z0.1 z3.1) * (sb z2.2 z3.2)) * y1 + ((-1) * (((√2 : ℝ) : ℂ)) * ((c.e : ℂ)) ^ 2 * ((c.MW : ℂ)⁻¹) * ((c.SW : ℂ)⁻¹) * (ab z0.1 z2.1) * (ab z0.1 z3.1) * (sb z2.2 z3.2)) * y2 + ((1) * ((c.MW : ℂ)) * (((√2 : ℝ) : ℂ)) * ((c.e : ℂ)) ^ 2 * ((c.MW : ℂ)⁻¹) ^ 2 * ((c.SW : ℂ)⁻¹) * (N.c 1) * ((N.c 2)⁻¹) * (ab z0.1 z2.1) * (ab z0.1 z3.1) * (sb z2.2 z3.2) + (1) * ((c.MW : ℂ)) * (((√2 : ℝ) : ℂ)) * ((c.e : ℂ)) ^ 2 * ((c.MW : ℂ)⁻¹) ^ 2 * ((c.SW : ℂ)⁻¹) * ((N.c 2)⁻¹) * (ab z2.1 z3.1) * (mb ρ0 (p 1) z0.1) * (sb z2.2 z3.2) + (1) * ((c.MW : ℂ)) * (((√2 : ℝ) : ℂ)) * ((c.e : ℂ)) ^ 2 * ((c.MW : ℂ)⁻¹) ^ 2 * ((c.SW : ℂ)⁻¹) * (ab z0.1 z2.1) * (ab z0.1 z3.1) * (sb z2.2 z3.2) + (1) * (((√2 : ℝ) : ℂ)) * ((c.e : ℂ)) ^ 2 * ((c.MW : ℂ)⁻¹) * ((c.SW : ℂ)⁻¹) * (N.c 1) * ((N.c 2)⁻¹) * (ab z0.1 z2.1) * (ab z0.1 z3.1) * (sb z2.2 z3.2) + (1) * (((√2 : ℝ) : ℂ)) * ((c.e : ℂ)) ^ 2 * ((c.MW : ℂ)⁻¹) * ((c.SW : ℂ)⁻¹) * ((N.c 2)⁻¹) * (ab z2.1 z3.1) * (mb ρ0 (p 1) z0.1) * (sb z2.2 z3.2) + (1) * (((√2 : ℝ) : ℂ)) * ((c.e : ℂ)) ^ 2 * ((c.MW : ℂ)⁻¹) * ((c.SW : ℂ)⁻¹) * (ab z0.1 z2.1) * (ab z0.1 z3.1) * (sb z2.2 z3.2)) * yMW
set_option maxRecDepth 8000 in
theorem AhWW.amp2_eq (N : Env) (f : Nat → List Int → ℂ) : Cls.AhWW.m_amp2.mean N f .r [] =
    ((sumW (fun x a => (sumV (fun x b => (sumV (fun x c => (x + (‖(f 0 [a, b, c])‖ ^ 2))) x)) x)) ((0 : Nat) : ℝ)) / ((2 : Nat) : ℝ)) := by rfl
set_option maxRecDepth 8000 in
theorem AhWW.value (N : Env) : meaning N .r Cls.AhWW.methods Cls.AhWW.amp2 [] =
    ((sumW (fun x a => (sumV (fun x b => (sumV (fun x c => (x + (‖(Cls.AhWW.m_amp.mean N (callMean N []) .c [a, b, c])‖ ^ 2))) x)) x)) ((0 : Nat) : ℝ)) / ((2 : Nat) : ℝ)) :=
  AhWW.amp2_eq N (callMean N [Cls.AhWW.m_amp])
theorem AhWW.termP_lin (N : Env) (w : ℝ) (x : ℂ) (a2 b2 a3 b3 : Int) : AhWW.termP N w x a2 b2 a3 b3 = x + (w : ℂ) * AhWW.termP N 1 0 a2 b2 a3 b3 := by
  simp only [AhWW.termP]; push_cast; ring
theorem AhWW.termM_lin (N : Env) (w : ℝ) (x : ℂ) (a2 b2 a3 b3 : Int) : AhWW.termM N w x a2 b2 a3 b3 = x + (w : ℂ) * AhWW.termM N 1 0 a2 b2 a3 b3 := by
  simp only [AhWW.termM]; push_cast; ring
set_option maxRecDepth 8000 in
theorem AhWW.ampP (N : Env) (f : Nat → List Int → ℂ) (t2 t3 : Fin 3) : Cls.AhWW.m_amp.mean N f .c [2, spinV t2, spinV t3] = comb t2 (fun a2 b2 => comb t3 (fun a3 b3 => AhWW.termP N 1 0 (spinOf a2) (spinOf b2) (spinOf a3) (spinOf b3))) := by
  refine (amp_mean N f (m := 3) (K := 7) (G := fun i => if 0 < i 0 then AhWW.termP N 1 0 (i 3) (i 4) (i 5) (i 6) else if i 0 < 0 then AhWW.termM N 1 0 (i 3) (i 4) (i 5) (i 6) else 0) (fun l => ?_) (fun i i' h => ?_) rfl (by decide) (by decide) (by decide) (by decide) (by decide)).trans ?_
  · by_cases h : 0 < l.i 0
    · refine ⟨_, (if_pos (decide_eq_true h)).trans rfl, rfl, rfl, ?_⟩; rw [if_pos h]; exact AhWW.termP_lin ..
    · by_cases h' : l.i 0 < 0
      · refine ⟨_, (if_neg (fun e => h (of_decide_eq_true e))).trans ((if_pos (decide_eq_true h')).trans rfl), rfl, rfl, ?_⟩; rw [if_neg h, if_pos h']; exact AhWW.termM_lin ..
      · refine ⟨_, (if_neg (fun e => h (of_decide_eq_true e))).trans ((if_neg (fun e => h' (of_decide_eq_true e))).trans rfl), rfl, rfl, ?_⟩; rw [if_neg h, if_neg h', mul_zero, add_zero]
  · simp only [h 0 (by decide), h 3 (by decide), h 4 (by decide), h 5 (by decide), h 6 (by decide)]
  · show amp' _ [spinV t2, spinV t3] = _
    simp only [amp'_comb, amp'_nil]
    rfl
theorem AhWW.formP_x2 (N : Env) (p : Nat → V4 ℝ) (z0 y2 x3 y3 x y : Pair) : AhWW.formP N p z0 (x + y) y2 x3 y3 = AhWW.formP N p z0 x y2 x3 y3 + AhWW.formP N p z0 y y2 x3 y3 := by
  simp only [AhWW.formP, Prod.fst_add, Prod.snd_add, ab_add_left, ab_add_right, sb_add_left, sb_add_right, mb_add_left, mb_add_right]
  ring
theorem AhWW.formP_y2 (N : Env) (p : Nat → V4 ℝ) (z0 x2 x3 y3 x y : Pair) : AhWW.formP N p z0 x2 (x + y) x3 y3 = AhWW.formP N p z0 x2 x x3 y3 + AhWW.formP N p z0 x2 y x3 y3 := by
  simp only [AhWW.formP, Prod.fst_add, Prod.snd_add, ab_add_left, ab_add_right, sb_add_left, sb_add_right, mb_add_left, mb_add_right]
  ring
theorem AhWW.formP_x3 (N : Env) (p : Nat → V4 ℝ) (z0 x2 y2 y3 x y : Pair) : AhWW.formP N p z0 x2 y2 (x + y) y3 = AhWW.formP N p z0 x2 y2 x y3 + AhWW.formP N p z0 x2 y2 y y3 := by
  simp only [AhWW.formP, Prod.fst_add, Prod.snd_add, ab_add_left, ab_add_right, sb_add_left, sb_add_right, mb_add_left, mb_add_right]
  ring
theorem AhWW.formP_y3 (N : Env) (p : Nat → V4 ℝ) (z0 x2 y2 x3 x y : Pair) : AhWW.formP N p z0 x2 y2 x3 (x + y) = AhWW.formP N p z0 x2 y2 x3 x + AhWW.formP N p z0 x2 y2 x3 y := by
  simp only [AhWW.formP, Prod.fst_add, Prod.snd_add, ab_add_left, ab_add_right, sb_add_left, sb_add_right, mb_add_left, mb_add_right]
  ring
set_option maxRecDepth 8000 in
theorem AhWW.ampM (N : Env) (f : Nat → List Int → ℂ) (t2 t3 : Fin 3) : Cls.AhWW.m_amp.mean N f .c [(-2), spinV t2, spinV t3] = comb t2 (fun a2 b2 => comb t3 (fun a3 b3 => AhWW.termM N 1 0 (spinOf a2) (spinOf b2) (spinOf a3) (spinOf b3))) := by
  refine (amp_mean N f (m := 3) (K := 7) (G := fun i => if 0 < i 0 then AhWW.termP N 1 0 (i 3) (i 4) (i 5) (i 6) else if i 0 < 0 then AhWW.termM N 1 0 (i 3) (i 4) (i 5) (i 6) else 0) (fun l => ?_) (fun i i' h => ?_) rfl (by decide) (by decide) (by decide) (by decide) (by decide)).trans ?_
  · by_cases h : 0 < l.i 0
    · refine ⟨_, (if_pos (decide_eq_true h)).trans rfl, rfl, rfl, ?_⟩; rw [if_pos h]; exact AhWW.termP_lin ..
    · by_cases h' : l.i 0 < 0
      · refine ⟨_, (if_neg (fun e => h (of_decide_eq_true e))).trans ((if_pos (decide_eq_true h')).trans rfl), rfl, rfl, ?_⟩; rw [if_neg h, if_pos h']; exact AhWW.termM_lin ..
      · refine ⟨_, (if_neg (fun e => h (of_decide_eq_true e))).trans ((if_neg (fun e => h' (of_decide_eq_true e))).trans rfl), rfl, rfl, ?_⟩; rw [if_neg h, if_neg h', mul_zero, add_zero]
  · simp only [h 0 (by decide), h 3 (by decide), h 4 (by decide), h 5 (by decide), h 6 (by decide)]
  · show amp' _ [spinV t2, spinV t3] = _
    simp only [amp'_comb, amp'_nil]
    rfl
theorem AhWW.formM_x2 (N : Env) (p : Nat → V4 ℝ) (z0 y2 x3 y3 x y : Pair) : AhWW.formM N p z0 (x + y) y2 x3 y3 = AhWW.formM N p z0 x y2 x3 y3 + AhWW.formM N p z0 y y2 x3 y3 := by
  simp only [AhWW.formM, Prod.fst_add, Prod.snd_add, ab_add_left, ab_add_right, sb_add_left, sb_add_right, mb_add_left, mb_add_right]
  ring
theorem AhWW.formM_y2 (N : Env) (p : Nat → V4 ℝ) (z0 x2 x3 y3 x y : Pair) : AhWW.formM N p z0 x2 (x + y) x3 y3 = AhWW.formM N p z0 x2 x x3 y3 + AhWW.formM N p z0 x2 y x3 y3 := by
  simp only [AhWW.formM, Prod.fst_add, Prod.snd_add, ab_add_left, ab_add_right, sb_add_left, sb_add_right, mb_add_left, mb_add_right]
  ring
theorem AhWW.formM_x3 (N : Env) (p : Nat → V4 ℝ) (z0 x2 y2 y3 x y : Pair) : AhWW.formM N p z0 x2 y2 (x + y) y3 = AhWW.formM N p z0 x2 y2 x y3 + AhWW.formM N p z0 x2 y2 y y3 := by
  simp only [AhWW.formM, Prod.fst_add, Prod.snd_add, ab_add_left, ab_add_right, sb_add_left, sb_add_right, mb_add_left, mb_add_right]
  ring
theorem AhWW.formM_y3 (N : Env) (p : Nat → V4 ℝ) (z0 x2 y2 x3 x y : Pair) : AhWW.formM N p z0 x2 y2 x3 (x + y) = AhWW.formM N p z0 x2 y2 x3 x + AhWW.formM N p z0 x2 y2 x3 y := by
  simp only [AhWW.formM, Prod.fst_add, Prod.snd_add, ab_add_left, ab_add_right, sb_add_left, sb_add_right, mb_add_left, mb_add_right]
  ring

theorem AhWW.mass_eq {c : Constants} (hc : c.Physical) (i : Fin 4) : AhWW.proc.massNum (AhWW.rho c) i = AhWW.react.mass c i := by
  fin_cases i <;> first | rfl | exact Nat.cast_zero | (show c.MW / √(((1 : Nat) : ℝ) - c.SW * c.SW) = c.MZ; rw [c.root, c.mz])

variable [FPEnv] in
theorem AhWW.amps {c : Constants} {p : Nat → V4 ℝ} {u : Fin 4 → Fin 3 → Spinor} {ε : Fin 4 → Fin 3 → Vec} (hc : c.Physical) (hh : c.Heavy) (hw : ∀ q ∈ AhWW.absent, c.get q = 0) (h0 : ∀ i, 0 ≤ AhWW.react.mass c i) (hs : ∀ i : Fin 4, OnShell (p i) (AhWW.react.mass c i)) (hb : Balanced p) (hr : AhWW.react.Regular c p) (hu : ∀ i, AhWW.react.Complete c p i (u i) (ε i)) :
    (AhWW.N c p).c 1 ≠ 0 ∧ (AhWW.N c p).c 2 ≠ 0 ∧ (∀ n, (Ty.r, n) ∈ AhWW.proc.divides → (AhWW.N c p).r n ≠ 0) ∧ (∀ n, (Ty.c, n) ∈ AhWW.proc.divides → (AhWW.N c p).c n ≠ 0) ∧ ∀ (h0 : Fin 2) (t2 t3 : Fin 3), ‖Cls.AhWW.m_amp.mean (AhWW.N c p) (callMean (AhWW.N c p) []) .c [spinW h0, spinV t2, spinV t3]‖ = ‖AhWW.react.bare4 c p (lightE (legA (p 0) 0 0, legS (p 0) 0 1) h0.castSucc) (AhWW.react.codeVec c p 1 0) (AhWW.react.codeVec c p 2 t2) (AhWW.react.codeVec c p 3 t3)‖ := by
  have he : AhWW.react.ends = [] := by decide
  have ht : AhWW.react.starts = [] := by decide
  have hB : AhWW.react.bosons = [0, 1, 2, 3] := by decide
  obtain ⟨f1, f2, f3⟩ := AhWW.react.regular_four he ht hB hr
  have hWW : c.WW = 0 := hw .WW (by simp [AhWW])
  have hG : AhWW.react.Gauge c p := AhWW.gauge hc.MW hWW (fun n => onShell_msq (hs n)) hr
  have r1 : (AhWW.N c p).r 1 = c.MH := rfl
  have r2 : (AhWW.N c p).r 2 = c.MW := rfl
  have r7 : (AhWW.N c p).r 7 = (((√(((2 : Nat) : ℝ)) * c.e) * c.e) / (c.MW * c.SW)) := rfl
  have c1 : (AhWW.N c p).c 1 = poleDist c.MW c.WW ((VExp.sub 0 2).sum p) := rfl
  have d1 : pole c.MW c.WW (plus (p 0) (backward (p 2))) = (AhWW.N c p).c 1 := by rw [c1, pole_congr (msq_t hb (plus (p 0) (backward (p 2))) (by simp)).symm]
  have n1 : (AhWW.N c p).c 1 ≠ 0 := by rw [← d1]; exact star_ne_zero.2 (f2 .wMinus rfl rfl)
  rw [hWW, pole_fermion rfl] at c1
  have c2 : (AhWW.N c p).c 2 = poleDist c.MW c.WW ((VExp.sub 0 3).sum p) := rfl
  have d2 : pole c.MW c.WW (plus (p 0) (backward (p 3))) = (AhWW.N c p).c 2 := by rw [c2, pole_congr (msq_u hb (plus (p 0) (backward (p 3))) (by simp)).symm]
  have n2 : (AhWW.N c p).c 2 ≠ 0 := by rw [← d2]; exact star_ne_zero.2 (f3 .wPlus rfl rfl)
  rw [hWW, pole_fermion rfl] at c2
  obtain ⟨l0, x0, y0⟩ := AhWW.react.code_light hs hu (n := 0) rfl rfl
  have e02 := l0.pole_sub (m := c.MW) (onShell_msq (hs 2)) (msq_t hb (plus (p 0) (backward (p 2))) (by simp)) c1
  have e03 := l0.pole_sub (m := c.MW) (onShell_msq (hs 3)) (msq_u hb (plus (p 0) (backward (p 3))) (by simp)) c2
  have m2 : AhWW.react.mass c 2 ≠ 0 := (leg_pos hc hh (by decide)).ne'
  have m3 : AhWW.react.mass c 3 ≠ 0 := (leg_pos hc hh (by decide)).ne'
  have m0 : AhWW.react.mass c 0 = 0 := rfl
  have g0 : ab (refPlus (p 2) (legA (p 0) 0 0, legS (p 0) 0 1)) (legA (p 0) 0 0) ≠ 0 := fun h => (neg_ne_zero.2 n1) (e02.symm.trans ((ab_ref ..).symm.trans h))
  have j0 : sb (refMinus (p 2) (legA (p 0) 0 0, legS (p 0) 0 1)) (legS (p 0) 0 1) ≠ 0 := fun h => (neg_ne_zero.2 n1) (e02.symm.trans ((sb_ref ..).symm.trans h))
  have hd : AhWW.proc.divides = [(Ty.c, 1), (Ty.c, 2)] := by decide +kernel
  have stP : ∀ (t2 t3 : Fin 3), comb t2 (fun a2 b2 => comb t3 (fun a3 b3 => AhWW.formP (AhWW.N c p) p (legA (p 0) 0 0, legS (p 0) 0 1) (AhWW.react.codePair c p 2 a2) (AhWW.react.codePair c p 2 b2) (AhWW.react.codePair c p 3 a3) (AhWW.react.codePair c p 3 b3))) = 1 * AhWW.react.bare4 c p (lightE (legA (p 0) 0 0, legS (p 0) 0 1) 1) (AhWW.react.codeVec c p 1 0) (AhWW.react.codeVec c p 2 t2) (AhWW.react.codeVec c p 3 t3) := by
    intro t2 t3
    refine two_vectors (p := p 2) (m := AhWW.react.mass c 2) (p' := p 3) (m' := AhWW.react.mass c 3) (fun s => AhWW.react.codePair_bold hs h0 2 s) (fun s => AhWW.react.codePair_bold hs h0 3 s) (B := fun w0 w0b w1 w1b => AhWW.formP (AhWW.N c p) p (legA (p 0) 0 0, legS (p 0) 0 1) w0 w0b w1 w1b) (fun _ _ _ _ _ => ?_) (fun _ _ _ _ _ => ?_) (fun _ _ _ _ _ => ?_) (fun _ _ _ _ _ => ?_) (G := fun E F => AhWW.react.bare4 c p (lightE (legA (p 0) 0 0, legS (p 0) 0 1) 1) (AhWW.react.codeVec c p 1 0) E F) (fun _ => AhWW.react.bare4_lin₂ c p (by decide) _ _ _) (fun _ => AhWW.react.bare4_lin₃ c p (by decide) _ _ _) 1 (fun z2 z3 b2 b3 => ?_) t2 t3
    · exact AhWW.formP_x2 ..
    · exact AhWW.formP_y2 ..
    · exact AhWW.formP_x3 ..
    · exact AhWW.formP_y3 ..
    · have k0 := AhWW.keyP hc hb r1 r2 r7 d1 n1 d2 n2 b2 b3 l0 e02 e03 (onShell_msq (hs 1)) (onShell_msq (hs 2)) (onShell_msq (hs 3)) (ab_ref (p 2) (legA (p 0) 0 0, legS (p 0) 0 1)) (AhWW.react.codeVec c p 1 0)
      have w0 : AhWW.react.bare4 c p (four (p 0)) (AhWW.react.codeVec c p 1 0) (pv z2.1 z2.2) (pv z3.1 z3.2) = 0 := by
        refine AhWW.react.bare4_gauge he ht hB hG (n := 0) rfl rfl ![four (p 0), (AhWW.react.codeVec c p 1 0), (pv z2.1 z2.2), (pv z3.1 z3.2)] (fun m hm x hl hx => ?_) rfl
        fin_cases m
        · exact absurd rfl hm
        · cases hl; exact absurd rfl hx
        · exact pv_transverse b2.mb_zero'
        · exact pv_transverse b3.mb_zero'
      have k1 := light_plus_ref (z := (legA (p 0) 0 0, legS (p 0) 0 1)) (G := fun E => AhWW.react.bare4 c p E (AhWW.react.codeVec c p 1 0) (pv z2.1 z2.2) (pv z3.1 z3.2)) l0 (AhWW.react.bare4_lin₀ c p (by decide) _ _ _) w0 x0 g0 k0
      exact k1.trans (mul_assoc _ _ _)
  have stM : ∀ (t2 t3 : Fin 3), comb t2 (fun a2 b2 => comb t3 (fun a3 b3 => AhWW.formM (AhWW.N c p) p (legA (p 0) 0 0, legS (p 0) 0 1) (AhWW.react.codePair c p 2 a2) (AhWW.react.codePair c p 2 b2) (AhWW.react.codePair c p 3 a3) (AhWW.react.codePair c p 3 b3))) = 1 * AhWW.react.bare4 c p (lightE (legA (p 0) 0 0, legS (p 0) 0 1) 0) (AhWW.react.codeVec c p 1 0) (AhWW.react.codeVec c p 2 t2) (AhWW.react.codeVec c p 3 t3) := by
    intro t2 t3
    refine two_vectors (p := p 2) (m := AhWW.react.mass c 2) (p' := p 3) (m' := AhWW.react.mass c 3) (fun s => AhWW.react.codePair_bold hs h0 2 s) (fun s => AhWW.react.codePair_bold hs h0 3 s) (B := fun w0 w0b w1 w1b => AhWW.formM (AhWW.N c p) p (legA (p 0) 0 0, legS (p 0) 0 1) w0 w0b w1 w1b) (fun _ _ _ _ _ => ?_) (fun _ _ _ _ _ => ?_) (fun _ _ _ _ _ => ?_) (fun _ _ _ _ _ => ?_) (G := fun E F => AhWW.react.bare4 c p (lightE (legA (p 0) 0 0, legS (p 0) 0 1) 0) (AhWW.react.codeVec c p 1 0) E F) (fun _ => AhWW.react.bare4_lin₂ c p (by decide) _ _ _) (fun _ => AhWW.react.bare4_lin₃ c p (by decide) _ _ _) 1 (fun z2 z3 b2 b3 => ?_) t2 t3
    · exact AhWW.formM_x2 ..
    · exact AhWW.formM_y2 ..
    · exact AhWW.formM_x3 ..
    · exact AhWW.formM_y3 ..
    · have k0 := AhWW.keyM hc hb r1 r2 r7 d1 n1 d2 n2 b2 b3 l0 e02 e03 (onShell_msq (hs 1)) (onShell_msq (hs 2)) (onShell_msq (hs 3)) (sb_ref (p 2) (legA (p 0) 0 0, legS (p 0) 0 1)) (AhWW.react.codeVec c p 1 0)
      have w0 : AhWW.react.bare4 c p (four (p 0)) (AhWW.react.codeVec c p 1 0) (pv z2.1 z2.2) (pv z3.1 z3.2) = 0 := by
        refine AhWW.react.bare4_gauge he ht hB hG (n := 0) rfl rfl ![four (p 0), (AhWW.react.codeVec c p 1 0), (pv z2.1 z2.2), (pv z3.1 z3.2)] (fun m hm x hl hx => ?_) rfl
        fin_cases m
        · exact absurd rfl hm
        · cases hl; exact absurd rfl hx
        · exact pv_transverse b2.mb_zero'
        · exact pv_transverse b3.mb_zero'
      have k1 := light_minus_ref (z := (legA (p 0) 0 0, legS (p 0) 0 1)) (G := fun E => AhWW.react.bare4 c p E (AhWW.react.codeVec c p 1 0) (pv z2.1 z2.2) (pv z3.1 z3.2)) l0 (AhWW.react.bare4_lin₀ c p (by decide) _ _ _) w0 y0 j0 k0
      exact k1.trans (mul_assoc _ _ _)
  have amP : ∀ (t2 t3 : Fin 3), Cls.AhWW.m_amp.mean (AhWW.N c p) (callMean (AhWW.N c p) []) .c [2, spinV t2, spinV t3] = 1 * AhWW.react.bare4 c p (lightE (legA (p 0) 0 0, legS (p 0) 0 1) 1) (AhWW.react.codeVec c p 1 0) (AhWW.react.codeVec c p 2 t2) (AhWW.react.codeVec c p 3 t3) := by
    intro t2 t3
    rw [AhWW.ampP, ← stP t2 t3]
    refine congrArg (comb t2) (funext fun a2 => funext fun b2 => ?_)
    refine congrArg (comb t3) (funext fun a3 => funext fun b3 => ?_)
    have v0x2x3 : (AhWW.N c p).v 0 [spinOf a2, spinOf a3] = ab (AhWW.react.codePair c p 2 a2).1 (AhWW.react.codePair c p 3 a3).1 := bra_angle (p := p) (m := AhWW.proc.massNum (AhWW.rho c)) (AhWW.mass_eq hc 2) (AhWW.mass_eq hc 3) (.inl ⟨m2, rfl⟩) (.inl ⟨m3, rfl⟩)
    have v5z0y2 : (AhWW.N c p).v 5 [spinOf b2] = sb (legA (p 0) 0 0, legS (p 0) 0 1).2 (AhWW.react.codePair c p 2 b2).2 := bra_square (p := p) (m := AhWW.proc.massNum (AhWW.rho c)) (AhWW.mass_eq hc 0) (AhWW.mass_eq hc 2) (.inr ⟨m0, rfl⟩) (.inl ⟨m2, rfl⟩)
    have v3z0y3 : (AhWW.N c p).v 3 [spinOf b3] = sb (legA (p 0) 0 0, legS (p 0) 0 1).2 (AhWW.react.codePair c p 3 b3).2 := bra_square (p := p) (m := AhWW.proc.massNum (AhWW.rho c)) (AhWW.mass_eq hc 0) (AhWW.mass_eq hc 3) (.inr ⟨m0, rfl⟩) (.inl ⟨m3, rfl⟩)
    have v6z0y2 : (AhWW.N c p).v 6 [spinOf b2] = mb (legA (p 0) 0 0, legS (p 0) 0 1).2 (p 1) (AhWW.react.codePair c p 2 b2).1 := bra_mid_square (p := p) (m := AhWW.proc.massNum (AhWW.rho c)) (AhWW.mass_eq hc 0) (AhWW.mass_eq hc 2) (.inr ⟨m0, rfl⟩) (.inl ⟨m2, rfl⟩)
    have v7z0y3 : (AhWW.N c p).v 7 [spinOf b3] = mb (legA (p 0) 0 0, legS (p 0) 0 1).2 (p 1) (AhWW.react.codePair c p 3 b3).1 := bra_mid_square (p := p) (m := AhWW.proc.massNum (AhWW.rho c)) (AhWW.mass_eq hc 0) (AhWW.mass_eq hc 3) (.inr ⟨m0, rfl⟩) (.inl ⟨m3, rfl⟩)
    simp only [AhWW.termP, AhWW.formP, v0x2x3, v5z0y2, v3z0y3, v6z0y2, v7z0y3]
    push_cast
    ring
  have amM : ∀ (t2 t3 : Fin 3), Cls.AhWW.m_amp.mean (AhWW.N c p) (callMean (AhWW.N c p) []) .c [(-2), spinV t2, spinV t3] = 1 * AhWW.react.bare4 c p (lightE (legA (p 0) 0 0, legS (p 0) 0 1) 0) (AhWW.react.codeVec c p 1 0) (AhWW.react.codeVec c p 2 t2) (AhWW.react.codeVec c p 3 t3) := by
    intro t2 t3
    rw [AhWW.ampM, ← stM t2 t3]
    refine congrArg (comb t2) (funext fun a2 => funext fun b2 => ?_)
    refine congrArg (comb t3) (funext fun a3 => funext fun b3 => ?_)
    have v1x2x3 : (AhWW.N c p).v 1 [spinOf a2, spinOf a3] = sb (AhWW.react.codePair c p 2 a2).2 (AhWW.react.codePair c p 3 a3).2 := bra_square (p := p) (m := AhWW.proc.massNum (AhWW.rho c)) (AhWW.mass_eq hc 2) (AhWW.mass_eq hc 3) (.inl ⟨m2, rfl⟩) (.inl ⟨m3, rfl⟩)
    have v4z0y2 : (AhWW.N c p).v 4 [spinOf b2] = ab (legA (p 0) 0 0, legS (p 0) 0 1).1 (AhWW.react.codePair c p 2 b2).1 := bra_angle (p := p) (m := AhWW.proc.massNum (AhWW.rho c)) (AhWW.mass_eq hc 0) (AhWW.mass_eq hc 2) (.inr ⟨m0, rfl⟩) (.inl ⟨m2, rfl⟩)
    have v2z0y3 : (AhWW.N c p).v 2 [spinOf b3] = ab (legA (p 0) 0 0, legS (p 0) 0 1).1 (AhWW.react.codePair c p 3 b3).1 := bra_angle (p := p) (m := AhWW.proc.massNum (AhWW.rho c)) (AhWW.mass_eq hc 0) (AhWW.mass_eq hc 3) (.inr ⟨m0, rfl⟩) (.inl ⟨m3, rfl⟩)
    have v8y2z0 : (AhWW.N c p).v 8 [spinOf b2] = mb (AhWW.react.codePair c p 2 b2).2 (p 1) (legA (p 0) 0 0, legS (p 0) 0 1).1 := bra_mid_square (p := p) (m := AhWW.proc.massNum (AhWW.rho c)) (AhWW.mass_eq hc 2) (AhWW.mass_eq hc 0) (.inl ⟨m2, rfl⟩) (.inr ⟨m0, rfl⟩)
    have v9y3z0 : (AhWW.N c p).v 9 [spinOf b3] = mb (AhWW.react.codePair c p 3 b3).2 (p 1) (legA (p 0) 0 0, legS (p 0) 0 1).1 := bra_mid_square (p := p) (m := AhWW.proc.massNum (AhWW.rho c)) (AhWW.mass_eq hc 3) (AhWW.mass_eq hc 0) (.inl ⟨m3, rfl⟩) (.inr ⟨m0, rfl⟩)
    simp only [AhWW.termM, AhWW.formM, v1x2x3, v4z0y2, v2z0y3, v8y2z0, v9y3z0]
    push_cast
    ring
  refine ⟨n1, n2, fun n hn => ?_, fun n hn => ?_, ?_⟩
  · simp [hd] at hn
  · simp [hd] at hn
    rcases hn with rfl | rfl
    · exact n1
    · exact n2
  intro h0 t2 t3
  match h0 with
  | 1 => exact norm_plus (amP t2 t3)
  | 0 => exact norm_plus (amM t2 t3)

variable [FPEnv] in
theorem AhWW.agrees : AhWW.Agrees := by
  refine agrees_of (D := [2, 3]) (E := [3]) (by simp [all, AhWW]) (by decide +kernel) (by decide) (by decide +kernel) (fun c hc hh => ⟨List.forall_mem_cons.2 ⟨hc.MW, List.forall_mem_cons.2 ⟨hc.SW, List.forall_mem_nil _⟩⟩, List.forall_mem_cons.2 ⟨hc.SW_lt, List.forall_mem_nil _⟩⟩) (fun c hc i => AhWW.mass_eq hc i) (by decide +kernel) ?_
  intro c p u ε hc hh hw h0 hs hb hr hu
  have he : AhWW.react.ends = [] := by decide
  have ht : AhWW.react.starts = [] := by decide
  have hB : AhWW.react.bosons = [0, 1, 2, 3] := by decide
  have hWW : c.WW = 0 := hw .WW (by simp [AhWW])
  have hG : AhWW.react.Gauge c p := AhWW.gauge hc.MW hWW (fun n => onShell_msq (hs n)) hr
  obtain ⟨n1, n2, d1, d2, am⟩ := AhWW.amps hc hh hw h0 hs hb hr hu
  refine ⟨d1, d2, ?_⟩
  show meaning (AhWW.N c p) .r Cls.AhWW.methods Cls.AhWW.amp2 [] = _
  have s0 : AhWW.react.states 0 = 2 := by decide
  have s1 : AhWW.react.states 1 = 1 := by decide
  have sy : AhWW.react.symmetry = 1 := by decide
  have p0 : AhWW.react.spins 0 = {0, 1} := rfl
  have p1 : AhWW.react.spins 1 = {0} := rfl
  have p2 : AhWW.react.spins 2 = Finset.univ := rfl
  have p3 : AhWW.react.spins 3 = Finset.univ := rfl
  have E0 : AhWW.react.codeE c p 0 = lightE (legA (p 0) 0 0, legS (p 0) 0 1) := rfl
  have E1 : AhWW.react.codeE c p 1 = AhWW.react.codeVec c p 1 := rfl
  have E2 : AhWW.react.codeE c p 2 = AhWW.react.codeVec c p 2 := rfl
  have E3 : AhWW.react.codeE c p 3 = AhWW.react.codeVec c p 3 := rfl
  rw [AhWW.value, AhWW.react.squared_four he ht hB (by decide) hs h0 (fun _ b _ hb _ => (boson_pos hc hh hb).ne') hG (E := AhWW.react.codeE c p) (fun n b hl => AhWW.react.codeE_polarised hs h0 hu (fun b hb => (boson_pos hc hh hb).ne') n b hl) hu, sum_colours, s0, s1, sy]
  simp only [bareFour_eq, sumV_sum, sumW_sum, am, p0, p1, p2, p3, E0, E1, E2, E3, Finset.sum_singleton, sum_two, Matrix.cons_val_zero, Matrix.cons_val_one, Matrix.cons_val]
  push_cast
  first | ring1 | ring_nf

/-! ### AWWh -/

/-- what the methods of the class see -/
noncomputable abbrev AWWh.N [FPEnv] (c : Constants) (p : Nat → V4 ℝ) : Env := AWWh.proc.env (AWWh.rho c) p
/-- the term that `amp` adds for a choice of spinors, for a photon of positive helicity (SM/AWWh.cpp) -/
noncomputable def AWWh.termP (N : Env) (w : ℝ) (x : ℂ) (a1 b1 a2 b2 : Int) : ℂ :=
  (x + (((((((w * N.r 7) : ℝ) : ℂ) * N.v 0 [a1, a2]) * ((((((N.r 1 * N.r 1) : ℝ) : ℂ) * N.v 5 [b2]) * N.v 3 [b1]) - (((N.r 2 : ℝ) : ℂ) * ((N.v 3 [b1] * N.v 6 [b2]) - (N.v 5 [b2] * N.v 7 [b1]))))) / N.c 1) / N.c 0))
/-- the same with spinors in place of their spins -/
noncomputable def AWWh.formP (N : Env) (p : Nat → V4 ℝ) (z0 x1 y1 x2 y2 : Pair) : ℂ :=
  (0 + (((((((((1 : Nat) : ℝ) * N.r 7) : ℝ) : ℂ) * (ab x1.1 x2.1)) * ((((((N.r 1 * N.r 1) : ℝ) : ℂ) * (sb z0.2 y2.2)) * (sb z0.2 y1.2)) - (((N.r 2 : ℝ) : ℂ) * (((sb z0.2 y1.2) * (mb z0.2 (p 3) y2.1)) - ((sb z0.2 y2.2) * (mb z0.2 (p 3) y1.1)))))) / N.c 1) / N.c 0))
/-- the term that `amp` adds for a choice of spinors, for a photon of negative helicity (SM/AWWh.cpp) -/
noncomputable def AWWh.termM (N : Env) (w : ℝ) (x : ℂ) (a1 b1 a2 b2 : Int) : ℂ :=
  (x + (((((((w * N.r 7) : ℝ) : ℂ) * N.v 1 [a1, a2]) * ((((((N.r 1 * N.r 1) : ℝ) : ℂ) * N.v 4 [b2]) * N.v 2 [b1]) - (((N.r 2 : ℝ) : ℂ) * ((N.v 2 [b1] * N.v 8 [b2]) - (N.v 4 [b2] * N.v 9 [b1]))))) / N.c 1) / N.c 0))
/-- the same with spinors in place of their spins -/
noncomputable def AWWh.formM (N : Env) (p : Nat → V4 ℝ) (z0 x1 y1 x2 y2 : Pair) : ℂ :=
  (0 + (((((((((1 : Nat) : ℝ) * N.r 7) : ℝ) : ℂ) * (sb x1.2 x2.2)) * ((((((N.r 1 * N.r 1) : ℝ) : ℂ) * (ab z0.1 y2.1)) * (ab z0.1 y1.1)) - (((N.r 2 : ℝ) : ℂ) * (((ab z0.1 y1.1) * (mb y2.2 (p 3) z0.1)) - ((ab z0.1 y2.1) * (mb y1.2 (p 3) z0.1)))))) / N.c 1) / N.c 0))
theorem AWWh.keyP {c : Constants} {p : Nat → V4 ℝ} {N : Env} (hc : c.Physical) (hb : Balanced p) (r1 : N.r 1 = c.MH) (r2 : N.r 2 = c.MW) (r7 : N.r 7 = (((√(((2 : Nat) : ℝ)) * c.e) * c.e) / (c.MW * c.SW))) (d0 : pole c.MW c.WW (plus (p 0) (p 1)) = N.c 0) (n0 : N.c 0 ≠ 0) (d1 : pole c.MW c.WW (plus (p 0) (backward (p 2))) = N.c 1) (n1 : N.c 1 ≠ 0) {z0 z1 z2 : Pair} (b1 : Bold (p 1) c.MW z1) (b2 : Bold (p 2) c.MW z2) (l0 : Light (p 0) z0) (e01 : mb z0.2 (p 1) z0.1 = N.c 0) (e02 : mb z0.2 (p 2) z0.1 = -N.c 1) (q1 : msq (p 1) = c.MW ^ 2) (q2 : msq (p 2) = c.MW ^ 2) (q3 : msq (p 3) = c.MH ^ 2) {ρ0 : V2} (R0 : ∀ Y, ab ρ0 Y = mb z0.2 (p 1) Y) (E3 : Vec) :
    AWWh.formP N p z0 z1 z1 z2 z2 * ab ρ0 z0.1 = ((√2 : ℝ) * ((-1 : ℂ) * ((2 / (c.MW * c.MW) : ℝ) : ℂ))) * AWWh.react.bare4 c p (pv ρ0 z0.2) (pv z1.1 z1.2) (pv z2.1 z2.2) E3 := by
  rw [AWWh.react.bare4_parts c p (b₀ := .photon) (b₁ := .wPlus) (b₂ := .wMinus) (b₃ := .higgs) rfl rfl rfl rfl, AWWh.formP]
  have T0 := l0.mb_plus ρ0
  have T1 := b1.mb_zero'
  have T2 := mb_back_zero (b2.mb_zero')
  have Q1 : msq (p 1) = c.MW ^ 2 := q1
  have Q2 : msq (backward (p 2)) = c.MW ^ 2 := (msq_backward _).trans q2
  simp only [contact, seagull, gauge4, between, carriers, List.map_cons, List.map_nil, List.sum_cons, List.sum_nil]
  simp only [toHiggs, toVector, higgs2, gauge3, Boson.anti, reduceCtorEq, and_self, and_true, and_false, true_and, false_and, if_true, if_false, Complex.ofReal_zero, zero_smul, carry_none, zero_mul, mul_zero, zero_div, neg_zero, add_zero, zero_add, sub_zero, sub_self, contract_zero, contract_zero_left]
  first | rw [dress_plus c (x := .wPlus) (.inl rfl) hc.MW l0 Q1 T1] | rw [dress_plus c (x := .wMinus) (.inr rfl) hc.MW l0 Q1 T1]
  first | rw [dress_plus c (x := .wPlus) (.inl rfl) hc.MW l0 Q2 T2] | rw [dress_plus c (x := .wMinus) (.inr rfl) hc.MW l0 Q2 T2]
  simp only [d0, d1, yangMills_transverse T1 T2, contract_add, contract_smul, contract_smul_left, contract_four_pv, contract_pv_four, contract_pv, mb_backward]
  have R00 := (ref_plus_plus R0 R0).2
  have i0 := mb_schouten_left z0.2 z1.2 z2.2 (p 2) z1.1
  have i1 := mb_schouten_right z0.2 (p 2) z1.1 z2.1 ρ0
  have i2 := mb_det z0.2 z1.2 (p 3) z1.1 z2.1
  rw [q3] at i2
  have i3 := mb_schouten_right z0.2 (p 1) z0.1 z1.1 z2.1
  have i4 := mb_schouten_right z0.2 (p 2) z0.1 z1.1 z2.1
  simp only [ab_swap ρ0 z0.1, ab_swap ρ0 z1.1, ab_swap ρ0 z2.1, R00, R0, l0.mb_eq, b1.mb_left, b1.mb_right, b2.mb_left, b2.mb_right, e01, e02, mb_three hb z0.2 z0.1, mb_three hb z0.2 z1.1, mb_three hb z0.2 z2.1, mb_three hb z1.2 z0.1, mb_three hb z1.2 z1.1, mb_three hb z1.2 z2.1, mb_three hb z2.2 z0.1, mb_three hb z2.2 z1.1, mb_three hb z2.2 z2.1, mb_three hb z0.2 ρ0, ab_self, sb_self] at i0 i1 i2 i3 i4 ⊢
  simp only [ab_swap z0.1 z1.1, sb_swap z0.2 z1.2, ab_swap z0.1 z2.1, sb_swap z0.2 z2.2, ab_swap z1.1 z2.1, sb_swap z1.2 z2.2] at i0 i1 i2 i3 i4 ⊢
  simp only [r1, r2, r7, Constants.invVev, ← c.mz]
  have xMW : (c.MW : ℂ) ≠ 0 := by exact_mod_cast hc.MW
  have xSW : (c.SW : ℂ) ≠ 0 := by exact_mod_cast hc.SW
  have xCW : (c.CW : ℂ) ≠ 0 := by exact_mod_cast hc.CW
  have x2 : ((√2 : ℝ) : ℂ) ≠ 0 := by exact_mod_cast (Real.sqrt_pos.2 two_pos).ne'
  have x22 : ((√2 : ℝ) : ℂ) ^ 2 = 2 := by rw [← Complex.ofReal_pow, Real.sq_sqrt two_pos.le]; norm_num
  push_cast at i0 i1 i2 i3 i4 ⊢
  simp only [div_eq_mul_inv, mul_inv, inv_inv] at i0 i1 i2 i3 i4 ⊢
  have y0 := mul_inv_cancel₀ n0
  have y1 := mul_inv_cancel₀ n1
  have yMW := mul_inv_cancel₀ xMW
  linear_combination ((((1) * ((c.MW : ℂ)) * (((√2 : ℝ) : ℂ)) * ((c.e : ℂ)) ^ 2 * (sb z0.2 z2.2) + (1) * (((√2 : ℝ) : ℂ)) * ((c.e : ℂ)) ^ 2 * (mb z0.2 (p 1) z2.1)) * i0 + ((1) * (((√2 : ℝ) : ℂ)) * ((c.e : ℂ)) ^ 2 * (sb z1.2 z2.2)) * i1 + ((1) * (((√2 : ℝ) : ℂ)) * ((c.e : ℂ)) ^ 2 * (sb z0.2 z2.2)) * i2 + ((-1) * (((√2 : ℝ) : ℂ)) * ((c.e : ℂ)) ^ 2 * (sb z0.2 z1.2) * (sb z0.2 z2.2)) * i3 + ((1) * (((√2 : ℝ) : ℂ)) * ((c.e : ℂ)) ^ 2 * (sb z0.2 z1.2) * (sb z0.2 z2.2)) * i4)) * ((1) * ((c.MW : ℂ)⁻¹) * ((c.SW : ℂ)⁻¹) * ((N.c 1)⁻¹)) + ((1) * ((c.MH : ℂ)) ^ 2 * (((√2 : ℝ) : ℂ)) * ((c.e : ℂ)) ^ 2 * ((c.MW : ℂ)⁻¹) * ((c.SW : ℂ)⁻¹) * ((N.c 1)⁻¹) * (ab z1.1 z2.1) * (sb z0.2 z1.2) * (sb z0.2 z2.2) + (-1) * ((c.MW : ℂ)) * (((√2 : ℝ) : ℂ)) * ((c.e : ℂ)) ^ 2 * ((c.MW : ℂ)⁻¹) * ((c.SW : ℂ)⁻¹) * ((N.c 1)⁻¹) * (ab z1.1 z2.1) * (mb z0.2 (p 1) z2.1) * (sb z0.2 z1.2) + (-1) * ((c.MW : ℂ)) * (((√2 : ℝ) : ℂ)) * ((c.e : ℂ)) ^ 2 * ((c.MW : ℂ)⁻¹) * ((c.SW : ℂ)⁻¹) * ((N.c 1)⁻¹) * (ab z1.1 z2.1) * (mb z0.2 (p 2) z1.1) * (sb z0.2 z2.2) + (-2) * ((c.MW : ℂ)) ^ 2 * (((√2 : ℝ) : ℂ)) * ((c.e : ℂ)) ^ 2 * ((c.MW : ℂ)⁻¹) * ((c.SW : ℂ)⁻¹) * ((N.c 1)⁻¹) * (ab z1.1 z2.1) * (sb z0.2 z1.2) * (sb z0.2 z2.2) + (-1) * ((c.MW : ℂ)) ^ 2 * (((√2 : ℝ) : ℂ)) * ((c.e : ℂ)) ^ 2 * ((c.MW : ℂ)⁻¹) ^ 3 * ((c.SW : ℂ)⁻¹) * (ab z1.1 z2.1) * (sb z0.2 z1.2) * (sb z0.2 z2.2)) * y0 + ((1) * (((√2 : ℝ) : ℂ)) * ((c.e : ℂ)) ^ 2 * ((c.MW : ℂ)⁻¹) * ((c.SW : ℂ)⁻¹) * (ab z1.1 z2.1) * (sb z0.2 z1.2) * (sb z0.2 z2.2)) * y1 + ((-1) * ((c.MW : ℂ)) * (((√2 : ℝ) : ℂ)) * ((c.e : ℂ)) ^ 2 * ((c.MW : ℂ)⁻¹) ^ 2 * ((c.SW : ℂ)⁻¹) * (N.c 0) * ((N.c 1)⁻¹) * (ab z1.1 z2.1) * (sb z0.2 z1.2) * (sb z0.2 z2.2) + (1) * ((c.MW : ℂ)) * (((√2 : ℝ) : ℂ)) * ((c.e : ℂ)) ^ 2 * ((c.MW : ℂ)⁻¹) ^ 2 * ((c.SW : ℂ)⁻¹) * ((N.c 1)⁻¹) * (ab z1.1 z2.1) * (mb z0.2 (p 2) ρ0) * (sb z1.2 z2.2) + (-1) * ((c.MW : ℂ)) * (((√2 : ℝ) : ℂ)) * ((c.e : ℂ)) ^ 2 * ((c.MW : ℂ)⁻¹) ^ 2 * ((c.SW : ℂ)⁻¹) * (ab z1.1 z2.1) * (sb z0.2 z1.2) * (sb z0.2 z2.2) + (-1) * (((√2 : ℝ) : ℂ)) * ((c.e : ℂ)) ^ 2 * ((c.MW : ℂ)⁻¹) * ((c.SW : ℂ)⁻¹) * (N.c 0) * ((N.c 1)⁻¹) * (ab z1.1 z2.1) * (sb z0.2 z1.2) * (sb z0.2 z2.2) + (1) * (((√2 : ℝ) : ℂ)) * ((c.e : ℂ)) ^ 2 * ((c.MW : ℂ)⁻¹) * ((c.SW : ℂ)⁻¹) * ((N.c 1)⁻¹) * (ab z1.1 z2.1) * (mb z0.2 (p 2) ρ0) * (sb z1.2 z2.2) + (-1) * (((√2 : ℝ) : ℂ)) * ((c.e : ℂ)) ^ 2 * ((c.MW : ℂ)⁻¹) * ((c.SW : ℂ)⁻¹) * (ab z1.1 z2.1) * (sb z0.2 z1.2) * (sb z0.2 z2.2)) * yMW
theorem AWWh.keyM {c : Constants} {p : Nat → V4 ℝ} {N : Env} (hc : c.Physical) (hb : Balanced p) (r1 : N.r 1 = c.MH) (r2 : N.r 2 = c.MW) (r7 : N.r 7 = (((√(((2 : Nat) : ℝ)) * c.e) * c.e) / (c.MW * c.SW))) (d0 : pole c.MW c.WW (plus (p 0) (p 1)) = N.c 0) (n0 : N.c 0 ≠ 0) (d1 : pole c.MW c.WW (plus (p 0) (backward (p 2))) = N.c 1) (n1 : N.c 1 ≠ 0) {z0 z1 z2 : Pair} (b1 : Bold (p 1) c.MW z1) (b2 : Bold (p 2) c.MW z2) (l0 : Light (p 0) z0) (e01 : mb z0.2 (p 1) z0.1 = N.c 0) (e02 : mb z0.2 (p 2) z0.1 = -N.c 1) (q1 : msq (p 1) = c.MW ^ 2) (q2 : msq (p 2) = c.MW ^ 2) (q3 : msq (p 3) = c.MH ^ 2) {ρ0 : V2} (R0 : ∀ Y, sb ρ0 Y = mb Y (p 1) z0.1) (E3 : Vec) :
    AWWh.formM N p z0 z1 z1 z2 z2 * sb ρ0 z0.2 = ((√2 : ℝ) * ((-1 : ℂ) * ((2 / (c.MW * c.MW) : ℝ) : ℂ))) * AWWh.react.bare4 c p (pv z0.1 ρ0) (pv z1.1 z1.2) (pv z2.1 z2.2) E3 := by
  rw [AWWh.react.bare4_parts c p (b₀ := .photon) (b₁ := .wPlus) (b₂ := .wMinus) (b₃ := .higgs) rfl rfl rfl rfl, AWWh.formM]
  have T0 := l0.mb_minus ρ0
  have T1 := b1.mb_zero'
  have T2 := mb_back_zero (b2.mb_zero')
  have Q1 : msq (p 1) = c.MW ^ 2 := q1
  have Q2 : msq (backward (p 2)) = c.MW ^ 2 := (msq_backward _).trans q2
  simp only [contact, seagull, gauge4, between, carriers, List.map_cons, List.map_nil, List.sum_cons, List.sum_nil]
  simp only [toHiggs, toVector, higgs2, gauge3, Boson.anti, reduceCtorEq, and_self, and_true, and_false, true_and, false_and, if_true, if_false, Complex.ofReal_zero, zero_smul, carry_none, zero_mul, mul_zero, zero_div, neg_zero, add_zero, zero_add, sub_zero, sub_self, contract_zero, contract_zero_left]
  first | rw [dress_minus c (x := .wPlus) (.inl rfl) hc.MW l0 Q1 T1] | rw [dress_minus c (x := .wMinus) (.inr rfl) hc.MW l0 Q1 T1]
  first | rw [dress_minus c (x := .wPlus) (.inl rfl) hc.MW l0 Q2 T2] | rw [dress_minus c (x := .wMinus) (.inr rfl) hc.MW l0 Q2 T2]
  simp only [d0, d1, yangMills_transverse T1 T2, contract_add, contract_smul, contract_smul_left, contract_four_pv, contract_pv_four, contract_pv, mb_backward]
  have R00 := (ref_minus_minus R0 R0).2
  have i0 := mb_schouten_right z1.2 (p 2) z0.1 z1.1 z2.1
  have i1 := mb_schouten_left z1.2 z2.2 ρ0 (p 2) z0.1
  have i2 := mb_det z1.2 z2.2 (p 3) z0.1 z1.1
  rw [q3] at i2
  have i3 := mb_schouten_left z0.2 z1.2 z2.2 (p 1) z0.1
  have i4 := mb_schouten_left z0.2 z1.2 z2.2 (p 2) z0.1
  simp only [sb_swap ρ0 z0.2, sb_swap ρ0 z1.2, sb_swap ρ0 z2.2, R00, R0, l0.mb_eq, b1.mb_left, b1.mb_right, b2.mb_left, b2.mb_right, e01, e02, mb_three hb z0.2 z0.1, mb_three hb z0.2 z1.1, mb_three hb z0.2 z2.1, mb_three hb z1.2 z0.1, mb_three hb z1.2 z1.1, mb_three hb z1.2 z2.1, mb_three hb z2.2 z0.1, mb_three hb z2.2 z1.1, mb_three hb z2.2 z2.1, mb_three hb ρ0 z0.1, ab_self, sb_self] at i0 i1 i2 i3 i4 ⊢
  simp only [ab_swap z0.1 z1.1, sb_swap z0.2 z1.2, ab_swap z0.1 z2.1, sb_swap z0.2 z2.2, ab_swap z1.1 z2.1, sb_swap z1.2 z2.2] at i0 i1 i2 i3 i4 ⊢
  simp only [r1, r2, r7, Constants.invVev, ← c.mz]
  have xMW : (c.MW : ℂ) ≠ 0 := by exact_mod_cast hc.MW
  have xSW : (c.SW : ℂ) ≠ 0 := by exact_mod_cast hc.SW
  have xCW : (c.CW : ℂ) ≠ 0 := by exact_mod_cast hc.CW
  have x2 : ((√2 : ℝ) : ℂ) ≠ 0 := by exact_mod_cast (Real.sqrt_pos.2 two_pos).ne'
  have x22 : ((√2 : ℝ) : ℂ) ^ 2 = 2 := by rw [← Complex.ofReal_pow, Real.sq_sqrt two_pos.le]; norm_num
  push_cast at i0 i1 i2 i3 i4 ⊢
  simp only [div_eq_mul_inv, mul_inv, inv_inv] at i0 i1 i2 i3 i4 ⊢
  have y0 := mul_inv_cancel₀ n0
  have y1 := mul_inv_cancel₀ n1
  have yMW := mul_inv_cancel₀ xMW
  linear_combination ((((1) * ((c.MW : ℂ)) * (((√2 : ℝ) : ℂ)) * ((c.e : ℂ)) ^ 2 * (ab z0.1 z2.1) + (1) * (((√2 : ℝ) : ℂ)) * ((c.e : ℂ)) ^ 2 * (mb z2.2 (p 1) z0.1)) * i0 + ((1) * (((√2 : ℝ) : ℂ)) * ((c.e : ℂ)) ^ 2 * (ab z1.1 z2.1)) * i1 + ((1) * (((√2 : ℝ) : ℂ)) * ((c.e : ℂ)) ^ 2 * (ab z0.1 z2.1)) * i2 + ((-1) * (((√2 : ℝ) : ℂ)) * ((c.e : ℂ)) ^ 2 * (ab z0.1 z1.1) * (ab z0.1 z2.1)) * i3 + ((1) * (((√2 : ℝ) : ℂ)) * ((c.e : ℂ)) ^ 2 * (ab z0.1 z1.1) * (ab z0.1 z2.1)) * i4)) * ((1) * ((c.MW : ℂ)⁻¹) * ((c.SW : ℂ)⁻¹) * ((N.c 1)⁻¹)) + ((1) * ((c.MH : ℂ)) ^ 2 * (((√2 : ℝ) : ℂ)) * ((c.e : ℂ)) ^ 2 * ((c.MW : ℂ)⁻¹) * ((c.SW : ℂ)⁻¹) * ((N.c 1)⁻¹) * (ab z0.1 z1.1) * (ab z0.1 z2.1) * (sb z1.2 z2.2) + (-1) * ((c.MW : ℂ)) * (((√2 : ℝ) : ℂ)) * ((c.e : ℂ)) ^ 2 * ((c.MW : ℂ)⁻¹) * ((c.SW : ℂ)⁻¹) * ((N.c 1)⁻¹) * (ab z0.1 z1.1) * (mb z2.2 (p 1) z0.1) * (sb z1.2 z2.2) + (-1) * ((c.MW : ℂ)) * (((√2 : ℝ) : ℂ)) * ((c.e : ℂ)) ^ 2 * ((c.MW : ℂ)⁻¹) * ((c.SW : ℂ)⁻¹) * ((N.c 1)⁻¹) * (ab z0.1 z2.1) * (mb z1.2 (p 2) z0.1) * (sb z1.2 z2.2) + (-2) * ((c.MW : ℂ)) ^ 2 * (((√2 : ℝ) : ℂ)) * ((c.e : ℂ)) ^ 2 * ((c.MW : ℂ)⁻¹) * ((c.SW : ℂ)⁻¹) * ((N.c 1)⁻¹) * (ab z0.1 z1.1) * (ab z0.1 z2.1) * (sb z1.2 z2.2) + (-1) * ((c.MW : ℂ)) ^ 2 * (((√2 : ℝ) : ℂ)) * ((c.e : ℂ)) ^ 2 * ((c.MW : ℂ)⁻¹) ^ 3 * ((c.SW : ℂ)⁻¹) * (ab z0.1 z1.1) * (ab z0.1 z2.1) * (sb z1.2 z2.2)) * y0 + ((1) * (((√2 : ℝ) : ℂ)) * ((c.e : ℂ)) ^ 2 * ((c.MW : ℂ)⁻¹) * ((c.SW : ℂ)⁻¹) * (ab z0.1 z1.1) * (ab z0.1 z2.1) * (sb z1.2 z2.2)) * y1 + ((-1) * ((c.MW : ℂ)) * (((√2 : ℝ) : ℂ)) * ((c.e : ℂ)) ^ 2 * ((c.MW : ℂ)⁻¹) ^ 2 * ((c.SW : ℂ)⁻¹) * (N.c 0) * ((N.c 1)⁻¹) * (ab z0.1 z1.1) * (ab z0.1 z2.1) * (sb z1.2 z2.2) + (1) * ((c.MW : ℂ)) * (((√2 : ℝ) : ℂ)) * ((c.e : ℂ)) ^ 2 * ((c.MW : ℂ)⁻¹) ^ 2 * ((c.SW : ℂ)⁻¹) * ((N.c 1)⁻¹) * (ab z1.1 z2.1) * (mb ρ0 (p 2) z0.1) * (sb z1.2 z2.2) + (-1) * ((c.MW : ℂ)) * (((√2 : ℝ) : ℂ)) * ((c.e : ℂ)) ^ 2 * ((c.MW : ℂ)⁻¹) ^ 2 * ((c.SW : ℂ)⁻¹) * (ab z0.1 z1.1) * (ab z0.1 z2.1) * (sb z1.2 z2.2) + (-1) * (((√2 : ℝ) : ℂ)) * ((c.e : ℂ)) ^ 2 * ((c.MW : ℂ)⁻¹) * ((c.SW : ℂ)⁻¹) * (N.c 0) * ((N.c 1)⁻¹) * (ab z0.1 z1.1) * (ab z0.1 z2.1) * (sb z1.2 z2.2) + (1) * (((√2 : ℝ) : ℂ)) * ((c.e : ℂ)) ^ 2 * ((c.MW : ℂ)⁻¹) * ((c.SW : ℂ)⁻¹) * ((N.c 1)⁻¹) * (ab z1.1 z2.1) * (mb ρ0 (p 2) z0.1) * (sb z1.2 z2.2) + (-1) * (((√2 : ℝ) : ℂ)) * ((c.e : ℂ)) ^ 2 * ((c.MW : ℂ)⁻¹) * ((c.SW : ℂ)⁻¹) * (ab z0.1 z1.1) * (ab z0.1 z2.1) * (sb z1.2 z2.2)) * yMW
set_option maxRecDepth 8000 in
theorem AWWh.amp2_eq (N : Env) (f : Nat → List Int → ℂ) : Cls.AWWh.m_amp2.mean N f .r [] =
    ((sumW (fun x a => (sumV (fun x b => (sumV (fun x c => (x + (‖(f 0 [a, b, c])‖ ^ 2))) x)) x)) ((0 : Nat) : ℝ)) / ((6 : Nat) : ℝ)) := by rfl
set_option maxRecDepth 8000 in
theorem AWWh.value (N : Env) : meaning N .r Cls.AWWh.methods Cls.AWWh.amp2 [] =
    ((sumW (fun x a => (sumV (fun x b => (sumV (fun x c => (x + (‖(Cls.AWWh.m_amp.mean N (callMean N []) .c [a, b, c])‖ ^ 2))) x)) x)) ((0 : Nat) : ℝ)) / ((6 : Nat) : ℝ)) :=
  AWWh.amp2_eq N (callMean N [Cls.AWWh.m_amp])
theorem AWWh.termP_lin (N : Env) (w : ℝ) (x : ℂ) (a1 b1 a2 b2 : Int) : AWWh.termP N w x a1 b1 a2 b2 = x + (w : ℂ) * AWWh.termP N 1 0 a1 b1 a2 b2 := by
  simp only [AWWh.termP]; push_cast; ring
theorem AWWh.termM_lin (N : Env) (w : ℝ) (x : ℂ) (a1 b1 a2 b2 : Int) : AWWh.termM N w x a1 b1 a2 b2 = x + (w : ℂ) * AWWh.termM N 1 0 a1 b1 a2 b2 := by
  simp only [AWWh.termM]; push_cast; ring
set_option maxRecDepth 8000 in
theorem AWWh.ampP (N : Env) (f : Nat → List Int → ℂ) (t1 t2 : Fin 3) : Cls.AWWh.m_amp.mean N f .c [2, spinV t1, spinV t2] = comb t2 (fun a2 b2 => comb t1 (fun a1 b1 => AWWh.termP N 1 0 (spinOf a1) (spinOf b1) (spinOf a2) (spinOf b2))) := by
  refine (amp_mean N f (m := 3) (K := 7) (G := fun i => if 0 < i 0 then AWWh.termP N 1 0 (i 5) (i 6) (i 3) (i 4) else if i 0 < 0 then AWWh.termM N 1 0 (i 5) (i 6) (i 3) (i 4) else 0) (fun l => ?_) (fun i i' h => ?_) rfl (by decide) (by decide) (by decide) (by decide) (by decide)).trans ?_
  · by_cases h : 0 < l.i 0
    · refine ⟨_, (if_pos (decide_eq_true h)).trans rfl, rfl, rfl, ?_⟩; rw [if_pos h]; exact AWWh.termP_lin ..
    · by_cases h' : l.i 0 < 0
      · refine ⟨_, (if_neg (fun e => h (of_decide_eq_true e))).trans ((if_pos (decide_eq_true h')).trans rfl), rfl, rfl, ?_⟩; rw [if_neg h, if_pos h']; exact AWWh.termM_lin ..
      · refine ⟨_, (if_neg (fun e => h (of_decide_eq_true e))).trans ((if_neg (fun e => h' (of_decide_eq_true e))).trans rfl), rfl, rfl, ?_⟩; rw [if_neg h, if_neg h', mul_zero, add_zero]
  · simp only [h 0 (by decide), h 3 (by decide), h 4 (by decide), h 5 (by decide), h 6 (by decide)]
  · show amp' _ [spinV t2, spinV t1] = _
    simp only [amp'_comb, amp'_nil]
    rfl
theorem AWWh.formP_x1 (N : Env) (p : Nat → V4 ℝ) (z0 y1 x2 y2 x y : Pair) : AWWh.formP N p z0 (x + y) y1 x2 y2 = AWWh.formP N p z0 x y1 x2 y2 + AWWh.formP N p z0 y y1 x2 y2 := by
  simp only [AWWh.formP, Prod.fst_add, Prod.snd_add, ab_add_left, ab_add_right, sb_add_left, sb_add_right, mb_add_left, mb_add_right]
  ring
theorem AWWh.formP_y1 (N : Env) (p : Nat → V4 ℝ) (z0 x1 x2 y2 x y : Pair) : AWWh.formP N p z0 x1 (x + y) x2 y2 = AWWh.formP N p z0 x1 x x2 y2 + AWWh.formP N p z0 x1 y x2 y2 := by
  simp only [AWWh.formP, Prod.fst_add, Prod.snd_add, ab_add_left, ab_add_right, sb_add_left, sb_add_right, mb_add_left, mb_add_right]
  ring
theorem AWWh.formP_x2 (N : Env) (p : Nat → V4 ℝ) (z0 x1 y1 y2 x y : Pair) : AWWh.formP N p z0 x1 y1 (x + y) y2 = AWWh.formP N p z0 x1 y1 x y2 + AWWh.formP N p z0 x1 y1 y y2 := by
  simp only [AWWh.formP, Prod.fst_add, Prod.snd_add, ab_add_left, ab_add_right, sb_add_left, sb_add_right, mb_add_left, mb_add_right]
  ring
theorem AWWh.formP_y2 (N : Env) (p : Nat → V4 ℝ) (z0 x1 y1 x2 x y : Pair) : AWWh.formP N p z0 x1 y1 x2 (x + y) = AWWh.formP N p z0 x1 y1 x2 x + AWWh.formP N p z0 x1 y1 x2 y := by
  simp only [AWWh.formP, Prod.fst_add, Prod.snd_add, ab_add_left, ab_add_right, sb_add_left, sb_add_right, mb_add_left, mb_add_right]
  ring
set_option maxRecDepth 8000 in
theorem AWWh.ampM (N : Env) (f : Nat → List Int → ℂ) (t1 t2 : Fin 3) : Cls.AWWh.m_amp.mean N f .c [(-2), spinV t1, spinV t2] = comb t2 (fun a2 b2 => comb t1 (fun a1 b1 => AWWh.termM N 1 0 (spinOf a1) (spinOf b1) (spinOf a2) (spinOf b2))) := by
  refine (amp_mean N f (m := 3) (K := 7) (G := fun i => if 0 < i 0 then AWWh.termP N 1 0 (i 5) (i 6) (i 3) (i 4) else if i 0 < 0 then AWWh.termM N 1 0 (i 5) (i 6) (i 3) (i 4) else 0) (fun l => ?_) (fun i i' h => ?_) rfl (by decide) (by decide) (by decide) (by decide) (by decide)).trans ?_
  · by_cases h : 0 < l.i 0
    · refine ⟨_, (if_pos (decide_eq_true h)).trans rfl, rfl, rfl, ?_⟩; rw [if_pos h]; exact AWWh.termP_lin ..
    · by_cases h' : l.i 0 < 0
      · refine ⟨_, (if_neg (fun e => h (of_decide_eq_true e))).trans ((if_pos (decide_eq_true h')).trans rfl), rfl, rfl, ?_⟩; rw [if_neg h, if_pos h']; exact AWWh.termM_lin ..
      · refine ⟨_, (if_neg (fun e => h (of_decide_eq_true e))).trans ((if_neg (fun e => h' (of_decide_eq_true e))).trans rfl), rfl, rfl, ?_⟩; rw [if_neg h, if_neg h', mul_zero, add_zero]
  · simp only [h 0 (by decide), h 3 (by decide), h 4 (by decide), h 5 (by decide), h 6 (by decide)]
  · show amp' _ [spinV t2, spinV t1] = _
    simp only [amp'_comb, amp'_nil]
    rfl
theorem AWWh.formM_x1 (N : Env) (p : Nat → V4 ℝ) (z0 y1 x2 y2 x y : Pair) : AWWh.formM N p z0 (x + y) y1 x2 y2 = AWWh.formM N p z0 x y1 x2 y2 + AWWh.formM N p z0 y y1 x2 y2 := by
  simp only [AWWh.formM, Prod.fst_add, Prod.snd_add, ab_add_left, ab_add_right, sb_add_left, sb_add_right, mb_add_left, mb_add_right]
  ring
theorem AWWh.formM_y1 (N : Env) (p : Nat → V4 ℝ) (z0 x1 x2 y2 x y : Pair) : AWWh.formM N p z0 x1 (x + y) x2 y2 = AWWh.formM N p z0 x1 x x2 y2 + AWWh.formM N p z0 x1 y x2 y2 := by
  simp only [AWWh.formM, Prod.fst_add, Prod.snd_add, ab_add_left, ab_add_right, sb_add_left, sb_add_right, mb_add_left, mb_add_right]
  ring
theorem AWWh.formM_x2 (N : Env) (p : Nat → V4 ℝ) (z0 x1 y1 y2 x y : Pair) : AWWh.formM N p z0 x1 y1 (x + y) y2 = AWWh.formM N p z0 x1 y1 x y2 + AWWh.formM N p z0 x1 y1 y y2 := by
  simp only [AWWh.formM, Prod.fst_add, Prod.snd_add, ab_add_left, ab_add_right, sb_add_left, sb_add_right, mb_add_left, mb_add_right]
  ring
theorem AWWh.formM_y2 (N : Env) (p : Nat → V4 ℝ) (z0 x1 y1 x2 x y : Pair) : AWWh.formM N p z0 x1 y1 x2 (x + y) = AWWh.formM N p z0 x1 y1 x2 x + AWWh.formM N p z0 x1 y1 x2 y := by
  simp only [AWWh.formM, Prod.fst_add, Prod.snd_add, ab_add_left, ab_add_right, sb_add_left, sb_add_right, mb_add_left, mb_add_right]
  ring

theorem AWWh.mass_eq {c : Constants} (hc : c.Physical) (i : Fin 4) : AWWh.proc.massNum (AWWh.rho c) i = AWWh.react.mass c i := by
  fin_cases i <;> first | rfl | exact Nat.cast_zero | (show c.MW / √(((1 : Nat) : ℝ) - c.SW * c.SW) = c.MZ; rw [c.root, c.mz])

variable [FPEnv] in
theorem AWWh.amps {c : Constants} {p : Nat → V4 ℝ} {u : Fin 4 → Fin 3 → Spinor} {ε : Fin 4 → Fin 3 → Vec} (hc : c.Physical) (hh : c.Heavy) (hw : ∀ q ∈ AWWh.absent, c.get q = 0) (h0 : ∀ i, 0 ≤ AWWh.react.mass c i) (hs : ∀ i : Fin 4, OnShell (p i) (AWWh.react.mass c i)) (hb : Balanced p) (hr : AWWh.react.Regular c p) (hu : ∀ i, AWWh.react.Complete c p i (u i) (ε i)) :
    (AWWh.N c p).c 0 ≠ 0 ∧ (AWWh.N c p).c 1 ≠ 0 ∧ (∀ n, (Ty.r, n) ∈ AWWh.proc.divides → (AWWh.N c p).r n ≠ 0) ∧ (∀ n, (Ty.c, n) ∈ AWWh.proc.divides → (AWWh.N c p).c n ≠ 0) ∧ ∀ (h0 : Fin 2) (t1 t2 : Fin 3), ‖Cls.AWWh.m_amp.mean (AWWh.N c p) (callMean (AWWh.N c p) []) .c [spinW h0, spinV t1, spinV t2]‖ = ‖AWWh.react.bare4 c p (lightE (legA (p 0) 0 0, legS (p 0) 0 1) h0.castSucc) (AWWh.react.codeVec c p 1 t1) (AWWh.react.codeVec c p 2 t2) (AWWh.react.codeVec c p 3 0)‖ := by
  have he : AWWh.react.ends = [] := by decide
  have ht : AWWh.react.starts = [] := by decide
  have hB : AWWh.react.bosons = [0, 1, 2, 3] := by decide
  obtain ⟨f1, f2, f3⟩ := AWWh.react.regular_four he ht hB hr
  have hWW : c.WW = 0 := hw .WW (by simp [AWWh])
  have hG : AWWh.react.Gauge c p := AWWh.gauge hc.MW hWW (fun n => onShell_msq (hs n)) hr
  have r1 : (AWWh.N c p).r 1 = c.MH := rfl
  have r2 : (AWWh.N c p).r 2 = c.MW := rfl
  have r7 : (AWWh.N c p).r 7 = (((√(((2 : Nat) : ℝ)) * c.e) * c.e) / (c.MW * c.SW)) := rfl
  have c0 : (AWWh.N c p).c 0 = poleDist c.MW c.WW ((VExp.add 0 1).sum p) := rfl
  have d0 : pole c.MW c.WW (plus (p 0) (p 1)) = (AWWh.N c p).c 0 := by rw [c0, pole_congr (msq_s hb (plus (p 0) (p 1)) (by simp)).symm]
  have n0 : (AWWh.N c p).c 0 ≠ 0 := by rw [← d0]; exact star_ne_zero.2 (f1 .wPlus rfl rfl)
  rw [hWW, pole_fermion rfl] at c0
  have c1 : (AWWh.N c p).c 1 = poleDist c.MW c.WW ((VExp.sub 0 2).sum p) := rfl
  have d1 : pole c.MW c.WW (plus (p 0) (backward (p 2))) = (AWWh.N c p).c 1 := by rw [c1, pole_congr (msq_t hb (plus (p 0) (backward (p 2))) (by simp)).symm]
  have n1 : (AWWh.N c p).c 1 ≠ 0 := by rw [← d1]; exact star_ne_zero.2 (f2 .wMinus rfl rfl)
  rw [hWW, pole_fermion rfl] at c1
  obtain ⟨l0, x0, y0⟩ := AWWh.react.code_light hs hu (n := 0) rfl rfl
  have e01 := l0.pole_add (m := c.MW) (onShell_msq (hs 1)) (msq_s hb (plus (p 0) (p 1)) (by simp)) c0
  have e02 := l0.pole_sub (m := c.MW) (onShell_msq (hs 2)) (msq_t hb (plus (p 0) (backward (p 2))) (by simp)) c1
  have m1 : AWWh.react.mass c 1 ≠ 0 := (leg_pos hc hh (by decide)).ne'
  have m2 : AWWh.react.mass c 2 ≠ 0 := (leg_pos hc hh (by decide)).ne'
  have m0 : AWWh.react.mass c 0 = 0 := rfl
  have g0 : ab (refPlus (p 1) (legA (p 0) 0 0, legS (p 0) 0 1)) (legA (p 0) 0 0) ≠ 0 := fun h => (n0) (e01.symm.trans ((ab_ref ..).symm.trans h))
  have j0 : sb (refMinus (p 1) (legA (p 0) 0 0, legS (p 0) 0 1)) (legS (p 0) 0 1) ≠ 0 := fun h => (n0) (e01.symm.trans ((sb_ref ..).symm.trans h))
  have hd : AWWh.proc.divides = [(Ty.c, 1), (Ty.c, 0)] := by decide +kernel
  have stP : ∀ (t1 t2 : Fin 3), comb t2 (fun a2 b2 => comb t1 (fun a1 b1 => AWWh.formP (AWWh.N c p) p (legA (p 0) 0 0, legS (p 0) 0 1) (AWWh.react.codePair c p 1 a1) (AWWh.react.codePair c p 1 b1) (AWWh.react.codePair c p 2 a2) (AWWh.react.codePair c p 2 b2))) = (-1) * AWWh.react.bare4 c p (lightE (legA (p 0) 0 0, legS (p 0) 0 1) 1) (AWWh.react.codeVec c p 1 t1) (AWWh.react.codeVec c p 2 t2) (AWWh.react.codeVec c p 3 0) := by
    intro t1 t2
    refine two_vectors (p := p 2) (m := AWWh.react.mass c 2) (p' := p 1) (m' := AWWh.react.mass c 1) (fun s => AWWh.react.codePair_bold hs h0 2 s) (fun s => AWWh.react.codePair_bold hs h0 1 s) (B := fun w0 w0b w1 w1b => AWWh.formP (AWWh.N c p) p (legA (p 0) 0 0, legS (p 0) 0 1) w1 w1b w0 w0b) (fun _ _ _ _ _ => ?_) (fun _ _ _ _ _ => ?_) (fun _ _ _ _ _ => ?_) (fun _ _ _ _ _ => ?_) (G := fun E F => AWWh.react.bare4 c p (lightE (legA (p 0) 0 0, legS (p 0) 0 1) 1) F E (AWWh.react.codeVec c p 3 0)) (fun _ => AWWh.react.bare4_lin₂ c p (by decide) _ _ _) (fun _ => AWWh.react.bare4_lin₁ c p (by decide) _ _ _) (-1) (fun z2 z1 b2 b1 => ?_) t2 t1
    · exact AWWh.formP_x2 ..
    · exact AWWh.formP_y2 ..
    · exact AWWh.formP_x1 ..
    · exact AWWh.formP_y1 ..
    · have k0 := AWWh.keyP hc hb r1 r2 r7 d0 n0 d1 n1 b1 b2 l0 e01 e02 (onShell_msq (hs 1)) (onShell_msq (hs 2)) (onShell_msq (hs 3)) (ab_ref (p 1) (legA (p 0) 0 0, legS (p 0) 0 1)) (AWWh.react.codeVec c p 3 0)
      have w0 : AWWh.react.bare4 c p (four (p 0)) (pv z1.1 z1.2) (pv z2.1 z2.2) (AWWh.react.codeVec c p 3 0) = 0 := by
        refine AWWh.react.bare4_gauge he ht hB hG (n := 0) rfl rfl ![four (p 0), (pv z1.1 z1.2), (pv z2.1 z2.2), (AWWh.react.codeVec c p 3 0)] (fun m hm x hl hx => ?_) rfl
        fin_cases m
        · exact absurd rfl hm
        · exact pv_transverse b1.mb_zero'
        · exact pv_transverse b2.mb_zero'
        · cases hl; exact absurd rfl hx
      have k1 := light_plus_ref (z := (legA (p 0) 0 0, legS (p 0) 0 1)) (G := fun E => AWWh.react.bare4 c p E (pv z1.1 z1.2) (pv z2.1 z2.2) (AWWh.react.codeVec c p 3 0)) l0 (AWWh.react.bare4_lin₀ c p (by decide) _ _ _) w0 x0 g0 k0
      exact k1.trans (mul_assoc _ _ _)
  have stM : ∀ (t1 t2 : Fin 3), comb t2 (fun a2 b2 => comb t1 (fun a1 b1 => AWWh.formM (AWWh.N c p) p (legA (p 0) 0 0, legS (p 0) 0 1) (AWWh.react.codePair c p 1 a1) (AWWh.react.codePair c p 1 b1) (AWWh.react.codePair c p 2 a2) (AWWh.react.codePair c p 2 b2))) = (-1) * AWWh.react.bare4 c p (lightE (legA (p 0) 0 0, legS (p 0) 0 1) 0) (AWWh.react.codeVec c p 1 t1) (AWWh.react.codeVec c p 2 t2) (AWWh.react.codeVec c p 3 0) := by
    intro t1 t2
    refine two_vectors (p := p 2) (m := AWWh.react.mass c 2) (p' := p 1) (m' := AWWh.react.mass c 1) (fun s => AWWh.react.codePair_bold hs h0 2 s) (fun s => AWWh.react.codePair_bold hs h0 1 s) (B := fun w0 w0b w1 w1b => AWWh.formM (AWWh.N c p) p (legA (p 0) 0 0, legS (p 0) 0 1) w1 w1b w0 w0b) (fun _ _ _ _ _ => ?_) (fun _ _ _ _ _ => ?_) (fun _ _ _ _ _ => ?_) (fun _ _ _ _ _ => ?_) (G := fun E F => AWWh.react.bare4 c p (lightE (legA (p 0) 0 0, legS (p 0) 0 1) 0) F E (AWWh.react.codeVec c p 3 0)) (fun _ => AWWh.react.bare4_lin₂ c p (by decide) _ _ _) (fun _ => AWWh.react.bare4_lin₁ c p (by decide) _ _ _) (-1) (fun z2 z1 b2 b1 => ?_) t2 t1
    · exact AWWh.formM_x2 ..
    · exact AWWh.formM_y2 ..
    · exact AWWh.formM_x1 ..
    · exact AWWh.formM_y1 ..
    · have k0 := AWWh.keyM hc hb r1 r2 r7 d0 n0 d1 n1 b1 b2 l0 e01 e02 (onShell_msq (hs 1)) (onShell_msq (hs 2)) (onShell_msq (hs 3)) (sb_ref (p 1) (legA (p 0) 0 0, legS (p 0) 0 1)) (AWWh.react.codeVec c p 3 0)
      have w0 : AWWh.react.bare4 c p (four (p 0)) (pv z1.1 z1.2) (pv z2.1 z2.2) (AWWh.react.codeVec c p 3 0) = 0 := by
        refine AWWh.react.bare4_gauge he ht hB hG (n := 0) rfl rfl ![four (p 0), (pv z1.1 z1.2), (pv z2.1 z2.2), (AWWh.react.codeVec c p 3 0)] (fun m hm x hl hx => ?_) rfl
        fin_cases m
        · exact absurd rfl hm
        · exact pv_transverse b1.mb_zero'
        · exact pv_transverse b2.mb_zero'
        · cases hl; exact absurd rfl hx
      have k1 := light_minus_ref (z := (legA (p 0) 0 0, legS (p 0) 0 1)) (G := fun E => AWWh.react.bare4 c p E (pv z1.1 z1.2) (pv z2.1 z2.2) (AWWh.react.codeVec c p 3 0)) l0 (AWWh.react.bare4_lin₀ c p (by decide) _ _ _) w0 y0 j0 k0
      exact k1.trans (mul_assoc _ _ _)
  have amP : ∀ (t1 t2 : Fin 3), Cls.AWWh.m_amp.mean (AWWh.N c p) (callMean (AWWh.N c p) []) .c [2, spinV t1, spinV t2] = (-1) * AWWh.react.bare4 c p (lightE (legA (p 0) 0 0, legS (p 0) 0 1) 1) (AWWh.react.codeVec c p 1 t1) (AWWh.react.codeVec c p 2 t2) (AWWh.react.codeVec c p 3 0) := by
    intro t1 t2
    rw [AWWh.ampP, ← stP t1 t2]
    refine congrArg (comb t2) (funext fun a2 => funext fun b2 => ?_)
    refine congrArg (comb t1) (funext fun a1 => funext fun b1 => ?_)
    have v0x1x2 : (AWWh.N c p).v 0 [spinOf a1, spinOf a2] = ab (AWWh.react.codePair c p 1 a1).1 (AWWh.react.codePair c p 2 a2).1 := bra_angle (p := p) (m := AWWh.proc.massNum (AWWh.rho c)) (AWWh.mass_eq hc 1) (AWWh.mass_eq hc 2) (.inl ⟨m1, rfl⟩) (.inl ⟨m2, rfl⟩)
    have v5z0y2 : (AWWh.N c p).v 5 [spinOf b2] = sb (legA (p 0) 0 0, legS (p 0) 0 1).2 (AWWh.react.codePair c p 2 b2).2 := bra_square (p := p) (m := AWWh.proc.massNum (AWWh.rho c)) (AWWh.mass_eq hc 0) (AWWh.mass_eq hc 2) (.inr ⟨m0, rfl⟩) (.inl ⟨m2, rfl⟩)
    have v3z0y1 : (AWWh.N c p).v 3 [spinOf b1] = sb (legA (p 0) 0 0, legS (p 0) 0 1).2 (AWWh.react.codePair c p 1 b1).2 := bra_square (p := p) (m := AWWh.proc.massNum (AWWh.rho c)) (AWWh.mass_eq hc 0) (AWWh.mass_eq hc 1) (.inr ⟨m0, rfl⟩) (.inl ⟨m1, rfl⟩)
    have v6z0y2 : (AWWh.N c p).v 6 [spinOf b2] = mb (legA (p 0) 0 0, legS (p 0) 0 1).2 (p 3) (AWWh.react.codePair c p 2 b2).1 := bra_mid_square (p := p) (m := AWWh.proc.massNum (AWWh.rho c)) (AWWh.mass_eq hc 0) (AWWh.mass_eq hc 2) (.inr ⟨m0, rfl⟩) (.inl ⟨m2, rfl⟩)
    have v7z0y1 : (AWWh.N c p).v 7 [spinOf b1] = mb (legA (p 0) 0 0, legS (p 0) 0 1).2 (p 3) (AWWh.react.codePair c p 1 b1).1 := bra_mid_square (p := p) (m := AWWh.proc.massNum (AWWh.rho c)) (AWWh.mass_eq hc 0) (AWWh.mass_eq hc 1) (.inr ⟨m0, rfl⟩) (.inl ⟨m1, rfl⟩)
    simp only [AWWh.termP, AWWh.formP, v0x1x2, v5z0y2, v3z0y1, v6z0y2, v7z0y1]
    push_cast
    ring
  have amM : ∀ (t1 t2 : Fin 3), Cls.AWWh.m_amp.mean (AWWh.N c p) (callMean (AWWh.N c p) []) .c [(-2), spinV t1, spinV t2] = (-1) * AWWh.react.bare4 c p (lightE (legA (p 0) 0 0, legS (p 0) 0 1) 0) (AWWh.react.codeVec c p 1 t1) (AWWh.react.codeVec c p 2 t2) (AWWh.react.codeVec c p 3 0) := by
    intro t1 t2
    rw [AWWh.ampM, ← stM t1 t2]
    refine congrArg (comb t2) (funext fun a2 => funext fun b2 => ?_)
    refine congrArg (comb t1) (funext fun a1 => funext fun b1 => ?_)
    have v1x1x2 : (AWWh.N c p).v 1 [spinOf a1, spinOf a2] = sb (AWWh.react.codePair c p 1 a1).2 (AWWh.react.codePair c p 2 a2).2 := bra_square (p := p) (m := AWWh.proc.massNum (AWWh.rho c)) (AWWh.mass_eq hc 1) (AWWh.mass_eq hc 2) (.inl ⟨m1, rfl⟩) (.inl ⟨m2, rfl⟩)
    have v4z0y2 : (AWWh.N c p).v 4 [spinOf b2] = ab (legA (p 0) 0 0, legS (p 0) 0 1).1 (AWWh.react.codePair c p 2 b2).1 := bra_angle (p := p) (m := AWWh.proc.massNum (AWWh.rho c)) (AWWh.mass_eq hc 0) (AWWh.mass_eq hc 2) (.inr ⟨m0, rfl⟩) (.inl ⟨m2, rfl⟩)
    have v2z0y1 : (AWWh.N c p).v 2 [spinOf b1] = ab (legA (p 0) 0 0, legS (p 0) 0 1).1 (AWWh.react.codePair c p 1 b1).1 := bra_angle (p := p) (m := AWWh.proc.massNum (AWWh.rho c)) (AWWh.mass_eq hc 0) (AWWh.mass_eq hc 1) (.inr ⟨m0, rfl⟩) (.inl ⟨m1, rfl⟩)
    have v8y2z0 : (AWWh.N c p).v 8 [spinOf b2] = mb (AWWh.react.codePair c p 2 b2).2 (p 3) (legA (p 0) 0 0, legS (p 0) 0 1).1 := bra_mid_square (p := p) (m := AWWh.proc.massNum (AWWh.rho c)) (AWWh.mass_eq hc 2) (AWWh.mass_eq hc 0) (.inl ⟨m2, rfl⟩) (.inr ⟨m0, rfl⟩)
    have v9y1z0 : (AWWh.N c p).v 9 [spinOf b1] = mb (AWWh.react.codePair c p 1 b1).2 (p 3) (legA (p 0) 0 0, legS (p 0) 0 1).1 := bra_mid_square (p := p) (m := AWWh.proc.massNum (AWWh.rho c)) (AWWh.mass_eq hc 1) (AWWh.mass_eq hc 0) (.inl ⟨m1, rfl⟩) (.inr ⟨m0, rfl⟩)
    simp only [AWWh.termM, AWWh.formM, v1x1x2, v4z0y2, v2z0y1, v8y2z0, v9y1z0]
    push_cast
    ring
  refine ⟨n0, n1, fun n hn => ?_, fun n hn => ?_, ?_⟩
  · simp [hd] at hn
  · simp [hd] at hn
    rcases hn with rfl | rfl
    · exact n1
    · exact n0
  intro h0 t1 t2
  match h0 with
  | 1 => exact norm_minus (amP t1 t2)
  | 0 => exact norm_minus (amM t1 t2)

variable [FPEnv] in
theorem AWWh.agrees : AWWh.Agrees := by
  refine agrees_of (D := [2, 3]) (E := [3]) (by simp [all, AWWh]) (by decide +kernel) (by decide) (by decide +kernel) (fun c hc hh => ⟨List.forall_mem_cons.2 ⟨hc.MW, List.forall_mem_cons.2 ⟨hc.SW, List.forall_mem_nil _⟩⟩, List.forall_mem_cons.2 ⟨hc.SW_lt, List.forall_mem_nil _⟩⟩) (fun c hc i => AWWh.mass_eq hc i) (by decide +kernel) ?_
  intro c p u ε hc hh hw h0 hs hb hr hu
  have he : AWWh.react.ends = [] := by decide
  have ht : AWWh.react.starts = [] := by decide
  have hB : AWWh.react.bosons = [0, 1, 2, 3] := by decide
  have hWW : c.WW = 0 := hw .WW (by simp [AWWh])
  have hG : AWWh.react.Gauge c p := AWWh.gauge hc.MW hWW (fun n => onShell_msq (hs n)) hr
  obtain ⟨n0, n1, d1, d2, am⟩ := AWWh.amps hc hh hw h0 hs hb hr hu
  refine ⟨d1, d2, ?_⟩
  show meaning (AWWh.N c p) .r Cls.AWWh.methods Cls.AWWh.amp2 [] = _
  have s0 : AWWh.react.states 0 = 2 := by decide
  have s1 : AWWh.react.states 1 = 3 := by decide
  have sy : AWWh.react.symmetry = 1 := by decide
  have p0 : AWWh.react.spins 0 = {0, 1} := rfl
  have p1 : AWWh.react.spins 1 = Finset.univ := rfl
  have p2 : AWWh.react.spins 2 = Finset.univ := rfl
  have p3 : AWWh.react.spins 3 = {0} := rfl
  have E0 : AWWh.react.codeE c p 0 = lightE (legA (p 0) 0 0, legS (p 0) 0 1) := rfl
  have E1 : AWWh.react.codeE c p 1 = AWWh.react.codeVec c p 1 := rfl
  have E2 : AWWh.react.codeE c p 2 = AWWh.react.codeVec c p 2 := rfl
  have E3 : AWWh.react.codeE c p 3 = AWWh.react.codeVec c p 3 := rfl
  rw [AWWh.value, AWWh.react.squared_four he ht hB (by decide) hs h0 (fun _ b _ hb _ => (boson_pos hc hh hb).ne') hG (E := AWWh.react.codeE c p) (fun n b hl => AWWh.react.codeE_polarised hs h0 hu (fun b hb => (boson_pos hc hh hb).ne') n b hl) hu, sum_colours, s0, s1, sy]
  simp only [bareFour_eq, sumV_sum, sumW_sum, am, p0, p1, p2, p3, E0, E1, E2, E3, Finset.sum_singleton, sum_two, Matrix.cons_val_zero, Matrix.cons_val_one, Matrix.cons_val]
  push_cast
  first | ring1 | ring_nf

end Spinas.SM.Rows
