import Verif.SM.BosonRows

/-! A Z, a Higgs and two W bosons. Generated by tools/bosons/emit.py: for each class its amplitude as a formula in spinors, and the proof that `amp2` is the squared amplitude of the Feynman rules. -/

set_option linter.unusedSimpArgs false
set_option linter.unusedVariables false
set_option linter.unreachableTactic false
set_option linter.unusedTactic false

namespace Spinas.SM.Rows
open Spec Spec.Reaction Props XR Matrix BRow

/-! ### ZhWW -/

/-- what the methods of the class see -/
noncomputable abbrev ZhWW.N [FPEnv] (c : Constants) (p : Nat → V4 ℝ) : Env := ZhWW.proc.env (ZhWW.rho c) p
/-- the term that `amp` adds for a choice of spinors (SM/ZhWW.cpp) -/
noncomputable def ZhWW.term (N : Env) (w : ℝ) (x : ℂ) (a0 b0 a2 b2 a3 b3 : Int) : ℂ :=
  (((x + (((((w * N.r 10) : ℝ) : ℂ) * (((N.v 1 [a2, a3] * N.v 0 [b2, b3]) * (N.v 6 [a0, b0] - N.v 7 [a0, b0])) + (((((((2 : Nat) : ℝ) * N.r 2) : ℝ) : ℂ) * ((N.v 5 [a0, a2] * N.v 2 [b0, a3]) + (N.v 3 [a0, a3] * N.v 4 [b0, a2]))) * (N.v 1 [b2, b3] + N.v 0 [b2, b3])))) / N.c 0)) + (((((w * N.r 11) : ℝ) : ℂ) * (((((((((((((2 : Nat) : ℝ) * N.r 2) * N.r 2) : ℝ) : ℂ) * N.v 5 [a0, a2]) * N.v 0 [b2, a3]) * N.v 8 [b3, b0]) + ((((((N.r 3 * N.r 3) : ℝ) : ℂ) * N.v 5 [a0, a2]) * N.v 4 [b0, b2]) * N.v 9 [a3, b3])) + ((((((((((2 : Nat) : ℝ) * N.r 2) * N.r 2) * N.r 2) : ℝ) : ℂ) * N.v 3 [a0, a3]) * N.v 4 [b0, a2]) * N.v 0 [b2, b3])) - ((((((((((2 : Nat) : ℝ) * N.r 2) * N.r 2) * N.r 3) : ℝ) : ℂ) * N.v 5 [a0, a2]) * N.v 3 [b0, a3]) * N.v 0 [b2, b3])) - ((((((((((2 : Nat) : ℝ) * N.r 2) * N.r 2) * N.r 3) : ℝ) : ℂ) * N.v 4 [a0, a2]) * N.v 2 [b0, a3]) * N.v 1 [b2, b3]))) / N.c 1)) + (((((w * N.r 11) : ℝ) : ℂ) * (((((((((((((2 : Nat) : ℝ) * N.r 2) * N.r 2) : ℝ) : ℂ) * N.v 3 [a0, a3]) * N.v 0 [a2, b3]) * N.v 10 [b2, b0]) - ((((((N.r 3 * N.r 3) : ℝ) : ℂ) * N.v 3 [a0, a3]) * N.v 2 [b0, b3]) * N.v 11 [a2, b2])) + ((((((((((2 : Nat) : ℝ) * N.r 2) * N.r 2) * N.r 2) : ℝ) : ℂ) * N.v 5 [a0, a2]) * N.v 2 [b0, a3]) * N.v 0 [b2, b3])) - ((((((((((2 : Nat) : ℝ) * N.r 2) * N.r 2) * N.r 3) : ℝ) : ℂ) * N.v 3 [a0, a3]) * N.v 5 [b0, a2]) * N.v 0 [b2, b3])) - ((((((((((2 : Nat) : ℝ) * N.r 2) * N.r 2) * N.r 3) : ℝ) : ℂ) * N.v 2 [a0, a3]) * N.v 4 [b0, a2]) * N.v 1 [b2, b3]))) / N.c 2))
/-- the same with spinors in place of their spins -/
noncomputable def ZhWW.form (N : Env) (p : Nat → V4 ℝ) (x0 y0 x2 y2 x3 y3 : Pair) : ℂ :=
  (((0 + (((((((1 : Nat) : ℝ) * N.r 10) : ℝ) : ℂ) * ((((sb x2.2 x3.2) * (ab y2.1 y3.1)) * ((mb x0.2 (p 2) y0.1) - (mb x0.2 (p 3) y0.1))) + (((((((2 : Nat) : ℝ) * N.r 2) : ℝ) : ℂ) * (((sb x0.2 x2.2) * (ab y0.1 x3.1)) + ((sb x0.2 x3.2) * (ab y0.1 x2.1)))) * ((sb y2.2 y3.2) + (ab y2.1 y3.1))))) / N.c 0)) + (((((((1 : Nat) : ℝ) * N.r 11) : ℝ) : ℂ) * (((((((((((((2 : Nat) : ℝ) * N.r 2) * N.r 2) : ℝ) : ℂ) * (sb x0.2 x2.2)) * (ab y2.1 x3.1)) * (mb y3.2 (p 2) y0.1)) + ((((((N.r 3 * N.r 3) : ℝ) : ℂ) * (sb x0.2 x2.2)) * (ab y0.1 y2.1)) * (mb x3.2 (p 1) y3.1))) + ((((((((((2 : Nat) : ℝ) * N.r 2) * N.r 2) * N.r 2) : ℝ) : ℂ) * (sb x0.2 x3.2)) * (ab y0.1 x2.1)) * (ab y2.1 y3.1))) - ((((((((((2 : Nat) : ℝ) * N.r 2) * N.r 2) * N.r 3) : ℝ) : ℂ) * (sb x0.2 x2.2)) * (sb y0.2 x3.2)) * (ab y2.1 y3.1))) - ((((((((((2 : Nat) : ℝ) * N.r 2) * N.r 2) * N.r 3) : ℝ) : ℂ) * (ab x0.1 x2.1)) * (ab y0.1 x3.1)) * (sb y2.2 y3.2)))) / N.c 1)) + (((((((1 : Nat) : ℝ) * N.r 11) : ℝ) : ℂ) * (((((((((((((2 : Nat) : ℝ) * N.r 2) * N.r 2) : ℝ) : ℂ) * (sb x0.2 x3.2)) * (ab x2.1 y3.1)) * (mb y2.2 (p 3) y0.1)) - ((((((N.r 3 * N.r 3) : ℝ) : ℂ) * (sb x0.2 x3.2)) * (ab y0.1 y3.1)) * (mb x2.2 (p 1) y2.1))) + ((((((((((2 : Nat) : ℝ) * N.r 2) * N.r 2) * N.r 2) : ℝ) : ℂ) * (sb x0.2 x2.2)) * (ab y0.1 x3.1)) * (ab y2.1 y3.1))) - ((((((((((2 : Nat) : ℝ) * N.r 2) * N.r 2) * N.r 3) : ℝ) : ℂ) * (sb x0.2 x3.2)) * (sb y0.2 x2.2)) * (ab y2.1 y3.1))) - ((((((((((2 : Nat) : ℝ) * N.r 2) * N.r 2) * N.r 3) : ℝ) : ℂ) * (ab x0.1 x3.1)) * (ab y0.1 x2.1)) * (sb y2.2 y3.2)))) / N.c 2))
theorem ZhWW.key {c : Constants} {p : Nat → V4 ℝ} {N : Env} (hc : c.Physical) (hb : Balanced p) (r2 : N.r 2 = c.MW) (r3 : N.r 3 = (c.MW / c.CW)) (r10 : N.r 10 = ((c.e * c.e) / ((((√(((2 : Nat) : ℝ)) * c.MW) * c.MW) * c.SW) * c.SW))) (r11 : N.r 11 = (((c.e * c.e) / ((((√(((2 : Nat) : ℝ)) * c.MW) * c.MW) * c.SW) * c.SW)) / ((c.MW / c.CW) * (c.MW / c.CW)))) (d0 : pole c.MZ c.WZ (plus (p 0) (p 1)) = N.c 0) (n0 : N.c 0 ≠ 0) (d1 : pole c.MW c.WW (plus (p 0) (backward (p 2))) = N.c 1) (n1 : N.c 1 ≠ 0) (d2 : pole c.MW c.WW (plus (p 0) (backward (p 3))) = N.c 2) (n2 : N.c 2 ≠ 0) {z0 z2 z3 : Pair} (b0 : Bold (p 0) c.MZ z0) (b2 : Bold (p 2) c.MW z2) (b3 : Bold (p 3) c.MW z3) (q0 : msq (p 0) = c.MZ ^ 2) (q1 : msq (p 1) = c.MH ^ 2) (q2 : msq (p 2) = c.MW ^ 2) (q3 : msq (p 3) = c.MW ^ 2) (E1 : Vec) :
    ZhWW.form N p z0 z0 z2 z2 z3 z3 = -(((2 * √2 / (c.MZ * c.MW * c.MW) : ℝ) : ℂ) * ZhWW.react.bare4 c p (pv z0.1 z0.2) E1 (pv z2.1 z2.2) (pv z3.1 z3.2)) := by
  rw [ZhWW.react.bare4_parts c p (b₀ := .z) (b₁ := .higgs) (b₂ := .wMinus) (b₃ := .wPlus) rfl rfl rfl rfl, ZhWW.form]
  have Y0 := b0; have Q0 := q0
  have Y2 := b2.back; have Q2 : msq (backward (p 2)) = (-c.MW) ^ 2 := by rw [msq_backward, q2, neg_sq]
  have Y3 := b3.back; have Q3 : msq (backward (p 3)) = (-c.MW) ^ 2 := by rw [msq_backward, q3, neg_sq]
  generalize hS : msq (plus (p 0) (p 1)) = tS
  generalize hT : msq (plus (p 0) (backward (p 2))) = tT
  obtain ⟨e01, e23, e02, e13, e03, e12, hU⟩ := dots_balanced hb q0 q1 q2 q3 hS hT
  have i0 := mb_schouten_left z0.2 z2.2 z3.2 (p 1) z0.1
  have i1 := mb_schouten_left z0.2 z2.2 z3.2 (p 2) z0.1
  have i2 := mb_schouten_right z2.2 (p 0) z0.1 z2.1 z3.1
  have i3 := mb_schouten_left z0.2 z2.2 z3.2 (p 0) z2.1
  have i4 := mb_schouten_right z2.2 (p 1) z0.1 z2.1 z3.1
  have i5 := mb_schouten_right z3.2 (p 0) z0.1 z2.1 z3.1
  have i6 := mb_schouten_right z3.2 (p 1) z0.1 z2.1 z3.1
  try simp only [mb_plus, mb_backward, hS, hT, hU, q0, q1, q2, q3] at i0 i1 i2 i3 i4 i5 i6
  simp only [b0.mb_left, b0.mb_right, b2.mb_left, b2.mb_right, b3.mb_left, b3.mb_right, mb_three hb z0.2 z0.1, mb_three hb z0.2 z2.1, mb_two hb z0.2 z3.1, mb_three hb z2.2 z0.1, mb_three hb z2.2 z2.1, mb_one hb z2.2 z3.1, mb_two hb z3.2 z0.1, mb_one hb z3.2 z2.1, mb_two hb z3.2 z3.1, ab_self, sb_self] at i0 i1 i2 i3 i4 i5 i6
  try simp only [ab_swap z0.1 z2.1, sb_swap z0.2 z2.2, ab_swap z0.1 z3.1, sb_swap z0.2 z3.2, ab_swap z2.1 z3.1, sb_swap z2.2 z3.2] at i0 i1 i2 i3 i4 i5 i6
  push_cast at i0 i1 i2 i3 i4 i5 i6
  simp only [contact, seagull, gauge4, between, carriers, List.map_cons, List.map_nil, List.sum_cons, List.sum_nil, carry_massive c .z (hx := (rfl : Boson.massive .z = true)), carry_massive c .wPlus (hx := (rfl : Boson.massive .wPlus = true)), carry_massive c .wMinus (hx := (rfl : Boson.massive .wMinus = true)), carry_massless c .photon (hx := rfl)]
  simp only [toHiggs, toVector, higgs2, gauge3, Boson.anti, Constants.bosonMass, Constants.bosonWidth, reduceCtorEq, and_self, and_true, and_false, true_and, false_and, if_true, if_false, Complex.ofReal_zero, zero_smul, zero_mul, mul_zero, zero_div, neg_zero, add_zero, zero_add, sub_zero, sub_self, contract_zero, contract_zero_left, contract_smul, contract_smul_left, d0, d1, d2, four_yangMills Y0 Y2 Q0 Q2, four_yangMills Y0 Y3 Q0 Q3, four_yangMills Y2 Y3 Q2 Q3]
  try simp only [yangMills_pv Y0 Y2, yangMills_pv Y0 Y3, yangMills_pv Y2 Y3, contract_add, contract_add_left, contract_smul, contract_smul_left, contract_four_four, dot_backward_left, dot_backward_right, dot_plus_left, dot_same, q0, q1, q2, q3, dot_comm (p 1) (p 0), dot_comm (p 2) (p 0), dot_comm (p 3) (p 0), dot_comm (p 2) (p 1), dot_comm (p 3) (p 1), dot_comm (p 3) (p 2), e01, e23, e02, e13, e03, e12]
  try simp only [contract_four_pv, contract_pv_four, contract_pv, mb_plus, mb_backward]
  try simp only [b0.mb_left, b0.mb_right, b2.mb_left, b2.mb_right, b3.mb_left, b3.mb_right, mb_three hb z0.2 z0.1, mb_three hb z0.2 z2.1, mb_two hb z0.2 z3.1, mb_three hb z2.2 z0.1, mb_three hb z2.2 z2.1, mb_one hb z2.2 z3.1, mb_two hb z3.2 z0.1, mb_one hb z3.2 z2.1, mb_two hb z3.2 z3.1, ab_self, sb_self]
  try simp only [ab_swap z0.1 z2.1, sb_swap z0.2 z2.2, ab_swap z0.1 z3.1, sb_swap z0.2 z3.2, ab_swap z2.1 z3.1, sb_swap z2.2 z3.2]
  simp only [r2, r3, r10, r11, Constants.invVev, ← c.mz]
  have xMW : (c.MW : ℂ) ≠ 0 := by exact_mod_cast hc.MW
  have xSW : (c.SW : ℂ) ≠ 0 := by exact_mod_cast hc.SW
  have xCW : (c.CW : ℂ) ≠ 0 := by exact_mod_cast hc.CW
  have y2 : ((√2 : ℝ) : ℂ) ≠ 0 := by exact_mod_cast (Real.sqrt_pos.2 two_pos).ne'
  have y22 : ((√2 : ℝ) : ℂ) ^ 2 = 2 := by rw [← Complex.ofReal_pow, Real.sq_sqrt two_pos.le]; norm_num
  push_cast
  generalize ab z0.1 z2.1 = a02 at i0 i1 i2 i3 i4 i5 i6 ⊢
  generalize ab z0.1 z3.1 = a03 at i0 i1 i2 i3 i4 i5 i6 ⊢
  generalize ab z2.1 z3.1 = a23 at i0 i1 i2 i3 i4 i5 i6 ⊢
  generalize mb z0.2 (p 1) z0.1 = m010 at i0 i1 i2 i3 i4 i5 i6 ⊢
  generalize mb z0.2 (p 1) z2.1 = m012 at i0 i1 i2 i3 i4 i5 i6 ⊢
  generalize mb z0.2 (p 1) z3.1 = m013 at i0 i1 i2 i3 i4 i5 i6 ⊢
  generalize mb z0.2 (p 2) z0.1 = m020 at i0 i1 i2 i3 i4 i5 i6 ⊢
  generalize mb z2.2 (p 0) z2.1 = m202 at i0 i1 i2 i3 i4 i5 i6 ⊢
  generalize mb z2.2 (p 0) z3.1 = m203 at i0 i1 i2 i3 i4 i5 i6 ⊢
  generalize mb z2.2 (p 1) z0.1 = m210 at i0 i1 i2 i3 i4 i5 i6 ⊢
  generalize mb z2.2 (p 1) z2.1 = m212 at i0 i1 i2 i3 i4 i5 i6 ⊢
  generalize mb z3.2 (p 0) z2.1 = m302 at i0 i1 i2 i3 i4 i5 i6 ⊢
  generalize mb z3.2 (p 0) z3.1 = m303 at i0 i1 i2 i3 i4 i5 i6 ⊢
  generalize mb z3.2 (p 1) z0.1 = m310 at i0 i1 i2 i3 i4 i5 i6 ⊢
  generalize mb z3.2 (p 1) z3.1 = m313 at i0 i1 i2 i3 i4 i5 i6 ⊢
  generalize sb z0.2 z2.2 = s02 at i0 i1 i2 i3 i4 i5 i6 ⊢
  generalize sb z0.2 z3.2 = s03 at i0 i1 i2 i3 i4 i5 i6 ⊢
  generalize sb z2.2 z3.2 = s23 at i0 i1 i2 i3 i4 i5 i6 ⊢
  generalize (tS : ℂ) = vS at i0 i1 i2 i3 i4 i5 i6 ⊢; generalize (tT : ℂ) = vT at i0 i1 i2 i3 i4 i5 i6 ⊢
  generalize N.c 0 = D0 at n0 ⊢
  generalize N.c 1 = D1 at n1 ⊢
  generalize N.c 2 = D2 at n2 ⊢
  have w0 : (2)*a23*m020*s23 + (-1)*a23*m010*s23 + (c.MW : ℂ)*a03*s02*s23 + (c.MW : ℂ)*a03*a23*s02 + (c.MW : ℂ)*a02*s03*s23 + (c.MW : ℂ)*a02*a23*s03 + a03*m202*s03 + a03*m212*s03 + (-1)*a02*m303*s02 + (-1)*a02*m313*s02 = 0 := by
    linear_combination ((2)*a23) * i1 + ((-1)*a23) * i0 + ((-1)*s02) * i5 + ((-1)*s02) * i6 + ((-1)*s03) * i4 + ((-1)*s03) * i2
  have w1 : a23*m310*s02 + (c.MW : ℂ)*a03*a23*s02 + (c.MW : ℂ)*a02*a23*s03 + (-1)*(c.MZ : ℂ)*a02*a03*s23 + (-1)*a02*m303*s02 + a23*m020*s23 + a03*m202*s03 = 0 := by
    linear_combination (a23) * i1 + ((-1)*s02) * i5 + ((-1)*a03) * i3
  have w2 : a23*m210*s03 + (c.MW : ℂ)*a02*a23*s03 + (c.MW : ℂ)*a03*a23*s02 + (-1)*(c.MZ : ℂ)*a02*a03*s23 + a03*m202*s03 + (-1)*a23*m010*s23 + a23*m020*s23 + (-1)*a02*m303*s02 = 0 := by
    linear_combination (a23) * i1 + ((-1)*a23) * i0 + ((-1)*s02) * i5 + ((-1)*a03) * i3
  have hZ : (c.MZ : ℂ) = c.MW / c.CW := by rw [← c.mz, Complex.ofReal_div]
  try simp only [hZ] at w0 w1 w2
  linear_combination (norm := (field_simp; first | ring1 | (ring_nf; simp only [y22]; ring1))) (((√2 : ℝ) : ℂ)*(c.e : ℂ)^2/((c.MW : ℂ)^2*(c.SW : ℂ)^2)) * w0 / D0 + (((√2 : ℝ) : ℂ)*(c.e : ℂ)^2/(((c.MW : ℂ) / (c.CW : ℂ))^2*(c.SW : ℂ)^2)) * w1 / D1 + (((√2 : ℝ) : ℂ)*(c.e : ℂ)^2/(((c.MW : ℂ) / (c.CW : ℂ))^2*(c.SW : ℂ)^2)) * w2 / D2
set_option maxRecDepth 8000 in
theorem ZhWW.amp2_eq (N : Env) (f : Nat → List Int → ℂ) : Cls.ZhWW.m_amp2.mean N f .r [] =
    ((sumV (fun x a => (sumV (fun x b => (sumV (fun x c => (x + (‖(f 0 [a, b, c])‖ ^ 2))) x)) x)) ((0 : Nat) : ℝ)) / ((3 : Nat) : ℝ)) := by rfl
set_option maxRecDepth 8000 in
theorem ZhWW.value (N : Env) : meaning N .r Cls.ZhWW.methods Cls.ZhWW.amp2 [] =
    ((sumV (fun x a => (sumV (fun x b => (sumV (fun x c => (x + (‖(Cls.ZhWW.m_amp.mean N (callMean N []) .c [a, b, c])‖ ^ 2))) x)) x)) ((0 : Nat) : ℝ)) / ((3 : Nat) : ℝ)) :=
  ZhWW.amp2_eq N (callMean N [Cls.ZhWW.m_amp])
set_option maxRecDepth 8000 in
theorem ZhWW.term_lin (N : Env) (w : ℝ) (x : ℂ) (a0 b0 a2 b2 a3 b3 : Int) : ZhWW.term N w x a0 b0 a2 b2 a3 b3 = x + (w : ℂ) * ZhWW.term N 1 0 a0 b0 a2 b2 a3 b3 := by
  simp only [ZhWW.term]; push_cast; ring
theorem ZhWW.amp_eq (N : Env) (f : Nat → List Int → ℂ) (t0 t2 t3 : Fin 3) : Cls.ZhWW.m_amp.mean N f .c [spinV t0, spinV t2, spinV t3] = comb t0 (fun a0 b0 => comb t2 (fun a2 b2 => comb t3 (fun a3 b3 => ZhWW.term N 1 0 (spinOf a0) (spinOf b0) (spinOf a2) (spinOf b2) (spinOf a3) (spinOf b3)))) := by
  refine (amp_mean N f (m := 3) (K := 9) (G := fun i => ZhWW.term N 1 0 (i 3) (i 4) (i 5) (i 6) (i 7) (i 8)) (fun l => ?_) (fun i i' h => ?_) rfl (by decide) (by decide) (by decide) (by decide) (by decide)).trans ?_
  · refine ⟨_, rfl, ?_⟩; exact ⟨rfl, rfl, ZhWW.term_lin ..⟩
  · simp only [h 3 (by decide), h 4 (by decide), h 5 (by decide), h 6 (by decide), h 7 (by decide), h 8 (by decide)]
  · show amp' _ [spinV t0, spinV t2, spinV t3] = _
    simp only [amp'_comb, amp'_nil]
    rfl
theorem ZhWW.form_x0 (N : Env) (p : Nat → V4 ℝ) (y0 x2 y2 x3 y3 x y : Pair) : ZhWW.form N p (x + y) y0 x2 y2 x3 y3 = ZhWW.form N p x y0 x2 y2 x3 y3 + ZhWW.form N p y y0 x2 y2 x3 y3 := by
  simp only [ZhWW.form, Prod.fst_add, Prod.snd_add, ab_add_left, ab_add_right, sb_add_left, sb_add_right, mb_add_left, mb_add_right]
  ring
theorem ZhWW.form_y0 (N : Env) (p : Nat → V4 ℝ) (x0 x2 y2 x3 y3 x y : Pair) : ZhWW.form N p x0 (x + y) x2 y2 x3 y3 = ZhWW.form N p x0 x x2 y2 x3 y3 + ZhWW.form N p x0 y x2 y2 x3 y3 := by
  simp only [ZhWW.form, Prod.fst_add, Prod.snd_add, ab_add_left, ab_add_right, sb_add_left, sb_add_right, mb_add_left, mb_add_right]
  ring
theorem ZhWW.form_x2 (N : Env) (p : Nat → V4 ℝ) (x0 y0 y2 x3 y3 x y : Pair) : ZhWW.form N p x0 y0 (x + y) y2 x3 y3 = ZhWW.form N p x0 y0 x y2 x3 y3 + ZhWW.form N p x0 y0 y y2 x3 y3 := by
  simp only [ZhWW.form, Prod.fst_add, Prod.snd_add, ab_add_left, ab_add_right, sb_add_left, sb_add_right, mb_add_left, mb_add_right]
  ring
theorem ZhWW.form_y2 (N : Env) (p : Nat → V4 ℝ) (x0 y0 x2 x3 y3 x y : Pair) : ZhWW.form N p x0 y0 x2 (x + y) x3 y3 = ZhWW.form N p x0 y0 x2 x x3 y3 + ZhWW.form N p x0 y0 x2 y x3 y3 := by
  simp only [ZhWW.form, Prod.fst_add, Prod.snd_add, ab_add_left, ab_add_right, sb_add_left, sb_add_right, mb_add_left, mb_add_right]
  ring
theorem ZhWW.form_x3 (N : Env) (p : Nat → V4 ℝ) (x0 y0 x2 y2 y3 x y : Pair) : ZhWW.form N p x0 y0 x2 y2 (x + y) y3 = ZhWW.form N p x0 y0 x2 y2 x y3 + ZhWW.form N p x0 y0 x2 y2 y y3 := by
  simp only [ZhWW.form, Prod.fst_add, Prod.snd_add, ab_add_left, ab_add_right, sb_add_left, sb_add_right, mb_add_left, mb_add_right]
  ring
theorem ZhWW.form_y3 (N : Env) (p : Nat → V4 ℝ) (x0 y0 x2 y2 x3 x y : Pair) : ZhWW.form N p x0 y0 x2 y2 x3 (x + y) = ZhWW.form N p x0 y0 x2 y2 x3 x + ZhWW.form N p x0 y0 x2 y2 x3 y := by
  simp only [ZhWW.form, Prod.fst_add, Prod.snd_add, ab_add_left, ab_add_right, sb_add_left, sb_add_right, mb_add_left, mb_add_right]
  ring

theorem ZhWW.mass_eq {c : Constants} (hc : c.Physical) (i : Fin 4) : ZhWW.proc.massNum (ZhWW.rho c) i = ZhWW.react.mass c i := by
  fin_cases i <;> first | rfl | (show c.MW / √(((1 : Nat) : ℝ) - c.SW * c.SW) = c.MZ; rw [c.root, c.mz])

variable [FPEnv] in
theorem ZhWW.agrees : ZhWW.Agrees := by
  refine agrees_of (D := [2, 3]) (E := [3]) (by simp [all, ZhWW]) (by decide +kernel) (by decide) (by decide +kernel) (fun c hc hh => ⟨List.forall_mem_cons.2 ⟨hc.MW, List.forall_mem_cons.2 ⟨hc.SW, List.forall_mem_nil _⟩⟩, List.forall_mem_cons.2 ⟨hc.SW_lt, List.forall_mem_nil _⟩⟩) (fun c hc i => ZhWW.mass_eq hc i) (by decide +kernel) ?_
  intro c p u ε hc hh hw h0 hs hb hr hu
  have he : ZhWW.react.ends = [] := by decide
  have ht : ZhWW.react.starts = [] := by decide
  have hB : ZhWW.react.bosons = [0, 1, 2, 3] := by decide
  have hM : ZhWW.react.allMassive = true := by decide
  obtain ⟨f1, f2, f3⟩ := ZhWW.react.regular_four he ht hB hr
  have r2 : (ZhWW.N c p).r 2 = c.MW := rfl
  have r3 : (ZhWW.N c p).r 3 = (c.MW / √((((1 : Nat) : ℝ) - (c.SW * c.SW)))) := rfl
  simp only [c.root] at r3
  have r10 : (ZhWW.N c p).r 10 = ((c.e * c.e) / ((((√(((2 : Nat) : ℝ)) * c.MW) * c.MW) * c.SW) * c.SW)) := rfl
  have r11 : (ZhWW.N c p).r 11 = (((c.e * c.e) / ((((√(((2 : Nat) : ℝ)) * c.MW) * c.MW) * c.SW) * c.SW)) / ((c.MW / √((((1 : Nat) : ℝ) - (c.SW * c.SW)))) * (c.MW / √((((1 : Nat) : ℝ) - (c.SW * c.SW)))))) := rfl
  simp only [c.root] at r11
  have c0 : (ZhWW.N c p).c 0 = poleDist (c.MW / √((((1 : Nat) : ℝ) - (c.SW * c.SW)))) c.WZ ((VExp.add 0 1).sum p) := rfl
  rw [c.root, c.mz, pole_congr (msq_s hb (plus (p 0) (p 1)) (by simp)).symm] at c0
  have d0 : pole c.MZ c.WZ (plus (p 0) (p 1)) = (ZhWW.N c p).c 0 := by rw [c0]
  have n0 : (ZhWW.N c p).c 0 ≠ 0 := by rw [← d0]; exact star_ne_zero.2 (f1 .z rfl rfl)
  have c1 : (ZhWW.N c p).c 1 = poleDist c.MW c.WW ((VExp.sub 0 2).sum p) := rfl
  rw [pole_congr (msq_t hb (plus (p 0) (backward (p 2))) (by simp)).symm] at c1
  have d1 : pole c.MW c.WW (plus (p 0) (backward (p 2))) = (ZhWW.N c p).c 1 := by rw [c1]
  have n1 : (ZhWW.N c p).c 1 ≠ 0 := by rw [← d1]; exact star_ne_zero.2 (f2 .wMinus rfl rfl)
  have c2 : (ZhWW.N c p).c 2 = poleDist c.MW c.WW ((VExp.sub 0 3).sum p) := rfl
  rw [pole_congr (msq_u hb (plus (p 0) (backward (p 3))) (by simp)).symm] at c2
  have d2 : pole c.MW c.WW (plus (p 0) (backward (p 3))) = (ZhWW.N c p).c 2 := by rw [c2]
  have n2 : (ZhWW.N c p).c 2 ≠ 0 := by rw [← d2]; exact star_ne_zero.2 (f3 .wPlus rfl rfl)
  have m0 : ZhWW.react.mass c 0 ≠ 0 := (leg_pos hc hh (by decide)).ne'
  have m2 : ZhWW.react.mass c 2 ≠ 0 := (leg_pos hc hh (by decide)).ne'
  have m3 : ZhWW.react.mass c 3 ≠ 0 := (leg_pos hc hh (by decide)).ne'
  have hd : ZhWW.proc.divides = [(Ty.c, 0), (Ty.c, 1), (Ty.c, 2)] := by decide +kernel
  refine ⟨fun n hn => ?_, fun n hn => ?_, ?_⟩
  · simp [hd] at hn
  · simp [hd] at hn
    rcases hn with rfl | rfl | rfl
    · exact n0
    · exact n1
    · exact n2
  have st : ∀ (t0 t2 t3 : Fin 3), comb t0 (fun a0 b0 => comb t2 (fun a2 b2 => comb t3 (fun a3 b3 => ZhWW.form (ZhWW.N c p) p (ZhWW.react.codePair c p 0 a0) (ZhWW.react.codePair c p 0 b0) (ZhWW.react.codePair c p 2 a2) (ZhWW.react.codePair c p 2 b2) (ZhWW.react.codePair c p 3 a3) (ZhWW.react.codePair c p 3 b3)))) = (-1) * ZhWW.react.bare4 c p (ZhWW.react.codeVec c p 0 t0) (ZhWW.react.codeVec c p 1 0) (ZhWW.react.codeVec c p 2 t2) (ZhWW.react.codeVec c p 3 t3) := by
    intro t0 t2 t3
    refine three_vectors (p₀ := p 0) (m₀ := ZhWW.react.mass c 0) (p₁ := p 2) (m₁ := ZhWW.react.mass c 2) (p₂ := p 3) (m₂ := ZhWW.react.mass c 3) (fun s => ZhWW.react.codePair_bold hs h0 0 s) (fun s => ZhWW.react.codePair_bold hs h0 2 s) (fun s => ZhWW.react.codePair_bold hs h0 3 s) (B := fun x0 x0b x1 x1b x2 x2b => ZhWW.form (ZhWW.N c p) p x0 x0b x1 x1b x2 x2b) (fun _ _ _ _ _ _ _ => ?_) (fun _ _ _ _ _ _ _ => ?_) (fun _ _ _ _ _ _ _ => ?_) (fun _ _ _ _ _ _ _ => ?_) (fun _ _ _ _ _ _ _ => ?_) (fun _ _ _ _ _ _ _ => ?_) (G := fun E F G => ZhWW.react.bare4 c p E (ZhWW.react.codeVec c p 1 0) F G) (fun _ _ => ZhWW.react.bare4_lin₀ c p (by decide) _ _ _) (fun _ _ => ZhWW.react.bare4_lin₂ c p (by decide) _ _ _) (fun _ _ => ZhWW.react.bare4_lin₃ c p (by decide) _ _ _) (-1) (fun z0 z2 z3 b0 b2 b3 => ?_) t0 t2 t3
    · exact ZhWW.form_x0 ..
    · exact ZhWW.form_y0 ..
    · exact ZhWW.form_x2 ..
    · exact ZhWW.form_y2 ..
    · exact ZhWW.form_x3 ..
    · exact ZhWW.form_y3 ..
    · rw [neg_one_mul]; exact ZhWW.key hc hb r2 r3 r10 r11 d0 n0 d1 n1 d2 n2 b0 b2 b3 (onShell_msq (hs 0)) (onShell_msq (hs 1)) (onShell_msq (hs 2)) (onShell_msq (hs 3))  (ZhWW.react.codeVec c p 1 0)
  have am : ∀ (t0 t2 t3 : Fin 3), Cls.ZhWW.m_amp.mean (ZhWW.N c p) (callMean (ZhWW.N c p) []) .c [spinV t0, spinV t2, spinV t3] = (-1) * ZhWW.react.bare4 c p (ZhWW.react.codeVec c p 0 t0) (ZhWW.react.codeVec c p 1 0) (ZhWW.react.codeVec c p 2 t2) (ZhWW.react.codeVec c p 3 t3) := by
    intro t0 t2 t3
    rw [ZhWW.amp_eq, ← st t0 t2 t3]
    refine congrArg (comb t0) (funext fun a0 => funext fun b0 => ?_)
    refine congrArg (comb t2) (funext fun a2 => funext fun b2 => ?_)
    refine congrArg (comb t3) (funext fun a3 => funext fun b3 => ?_)
    have v1x2x3 : (ZhWW.N c p).v 1 [spinOf a2, spinOf a3] = sb (ZhWW.react.codePair c p 2 a2).2 (ZhWW.react.codePair c p 3 a3).2 := bra_square (p := p) (m := ZhWW.proc.massNum (ZhWW.rho c)) (ZhWW.mass_eq hc 2) (ZhWW.mass_eq hc 3) (.inl ⟨m2, rfl⟩) (.inl ⟨m3, rfl⟩)
    have v0y2y3 : (ZhWW.N c p).v 0 [spinOf b2, spinOf b3] = ab (ZhWW.react.codePair c p 2 b2).1 (ZhWW.react.codePair c p 3 b3).1 := bra_angle (p := p) (m := ZhWW.proc.massNum (ZhWW.rho c)) (ZhWW.mass_eq hc 2) (ZhWW.mass_eq hc 3) (.inl ⟨m2, rfl⟩) (.inl ⟨m3, rfl⟩)
    have v6x0y0 : (ZhWW.N c p).v 6 [spinOf a0, spinOf b0] = mb (ZhWW.react.codePair c p 0 a0).2 (p 2) (ZhWW.react.codePair c p 0 b0).1 := bra_mid_square (p := p) (m := ZhWW.proc.massNum (ZhWW.rho c)) (ZhWW.mass_eq hc 0) (ZhWW.mass_eq hc 0) (.inl ⟨m0, rfl⟩) (.inl ⟨m0, rfl⟩)
    have v7x0y0 : (ZhWW.N c p).v 7 [spinOf a0, spinOf b0] = mb (ZhWW.react.codePair c p 0 a0).2 (p 3) (ZhWW.react.codePair c p 0 b0).1 := bra_mid_square (p := p) (m := ZhWW.proc.massNum (ZhWW.rho c)) (ZhWW.mass_eq hc 0) (ZhWW.mass_eq hc 0) (.inl ⟨m0, rfl⟩) (.inl ⟨m0, rfl⟩)
    have v5x0x2 : (ZhWW.N c p).v 5 [spinOf a0, spinOf a2] = sb (ZhWW.react.codePair c p 0 a0).2 (ZhWW.react.codePair c p 2 a2).2 := bra_square (p := p) (m := ZhWW.proc.massNum (ZhWW.rho c)) (ZhWW.mass_eq hc 0) (ZhWW.mass_eq hc 2) (.inl ⟨m0, rfl⟩) (.inl ⟨m2, rfl⟩)
    have v2y0x3 : (ZhWW.N c p).v 2 [spinOf b0, spinOf a3] = ab (ZhWW.react.codePair c p 0 b0).1 (ZhWW.react.codePair c p 3 a3).1 := bra_angle (p := p) (m := ZhWW.proc.massNum (ZhWW.rho c)) (ZhWW.mass_eq hc 0) (ZhWW.mass_eq hc 3) (.inl ⟨m0, rfl⟩) (.inl ⟨m3, rfl⟩)
    have v3x0x3 : (ZhWW.N c p).v 3 [spinOf a0, spinOf a3] = sb (ZhWW.react.codePair c p 0 a0).2 (ZhWW.react.codePair c p 3 a3).2 := bra_square (p := p) (m := ZhWW.proc.massNum (ZhWW.rho c)) (ZhWW.mass_eq hc 0) (ZhWW.mass_eq hc 3) (.inl ⟨m0, rfl⟩) (.inl ⟨m3, rfl⟩)
    have v4y0x2 : (ZhWW.N c p).v 4 [spinOf b0, spinOf a2] = ab (ZhWW.react.codePair c p 0 b0).1 (ZhWW.react.codePair c p 2 a2).1 := bra_angle (p := p) (m := ZhWW.proc.massNum (ZhWW.rho c)) (ZhWW.mass_eq hc 0) (ZhWW.mass_eq hc 2) (.inl ⟨m0, rfl⟩) (.inl ⟨m2, rfl⟩)
    have v1y2y3 : (ZhWW.N c p).v 1 [spinOf b2, spinOf b3] = sb (ZhWW.react.codePair c p 2 b2).2 (ZhWW.react.codePair c p 3 b3).2 := bra_square (p := p) (m := ZhWW.proc.massNum (ZhWW.rho c)) (ZhWW.mass_eq hc 2) (ZhWW.mass_eq hc 3) (.inl ⟨m2, rfl⟩) (.inl ⟨m3, rfl⟩)
    have v0y2x3 : (ZhWW.N c p).v 0 [spinOf b2, spinOf a3] = ab (ZhWW.react.codePair c p 2 b2).1 (ZhWW.react.codePair c p 3 a3).1 := bra_angle (p := p) (m := ZhWW.proc.massNum (ZhWW.rho c)) (ZhWW.mass_eq hc 2) (ZhWW.mass_eq hc 3) (.inl ⟨m2, rfl⟩) (.inl ⟨m3, rfl⟩)
    have v8y3y0 : (ZhWW.N c p).v 8 [spinOf b3, spinOf b0] = mb (ZhWW.react.codePair c p 3 b3).2 (p 2) (ZhWW.react.codePair c p 0 b0).1 := bra_mid_square (p := p) (m := ZhWW.proc.massNum (ZhWW.rho c)) (ZhWW.mass_eq hc 3) (ZhWW.mass_eq hc 0) (.inl ⟨m3, rfl⟩) (.inl ⟨m0, rfl⟩)
    have v4y0y2 : (ZhWW.N c p).v 4 [spinOf b0, spinOf b2] = ab (ZhWW.react.codePair c p 0 b0).1 (ZhWW.react.codePair c p 2 b2).1 := bra_angle (p := p) (m := ZhWW.proc.massNum (ZhWW.rho c)) (ZhWW.mass_eq hc 0) (ZhWW.mass_eq hc 2) (.inl ⟨m0, rfl⟩) (.inl ⟨m2, rfl⟩)
    have v9x3y3 : (ZhWW.N c p).v 9 [spinOf a3, spinOf b3] = mb (ZhWW.react.codePair c p 3 a3).2 (p 1) (ZhWW.react.codePair c p 3 b3).1 := bra_mid_square (p := p) (m := ZhWW.proc.massNum (ZhWW.rho c)) (ZhWW.mass_eq hc 3) (ZhWW.mass_eq hc 3) (.inl ⟨m3, rfl⟩) (.inl ⟨m3, rfl⟩)
    have v3y0x3 : (ZhWW.N c p).v 3 [spinOf b0, spinOf a3] = sb (ZhWW.react.codePair c p 0 b0).2 (ZhWW.react.codePair c p 3 a3).2 := bra_square (p := p) (m := ZhWW.proc.massNum (ZhWW.rho c)) (ZhWW.mass_eq hc 0) (ZhWW.mass_eq hc 3) (.inl ⟨m0, rfl⟩) (.inl ⟨m3, rfl⟩)
    have v4x0x2 : (ZhWW.N c p).v 4 [spinOf a0, spinOf a2] = ab (ZhWW.react.codePair c p 0 a0).1 (ZhWW.react.codePair c p 2 a2).1 := bra_angle (p := p) (m := ZhWW.proc.massNum (ZhWW.rho c)) (ZhWW.mass_eq hc 0) (ZhWW.mass_eq hc 2) (.inl ⟨m0, rfl⟩) (.inl ⟨m2, rfl⟩)
    have v0x2y3 : (ZhWW.N c p).v 0 [spinOf a2, spinOf b3] = ab (ZhWW.react.codePair c p 2 a2).1 (ZhWW.react.codePair c p 3 b3).1 := bra_angle (p := p) (m := ZhWW.proc.massNum (ZhWW.rho c)) (ZhWW.mass_eq hc 2) (ZhWW.mass_eq hc 3) (.inl ⟨m2, rfl⟩) (.inl ⟨m3, rfl⟩)
    have v10y2y0 : (ZhWW.N c p).v 10 [spinOf b2, spinOf b0] = mb (ZhWW.react.codePair c p 2 b2).2 (p 3) (ZhWW.react.codePair c p 0 b0).1 := bra_mid_square (p := p) (m := ZhWW.proc.massNum (ZhWW.rho c)) (ZhWW.mass_eq hc 2) (ZhWW.mass_eq hc 0) (.inl ⟨m2, rfl⟩) (.inl ⟨m0, rfl⟩)
    have v2y0y3 : (ZhWW.N c p).v 2 [spinOf b0, spinOf b3] = ab (ZhWW.react.codePair c p 0 b0).1 (ZhWW.react.codePair c p 3 b3).1 := bra_angle (p := p) (m := ZhWW.proc.massNum (ZhWW.rho c)) (ZhWW.mass_eq hc 0) (ZhWW.mass_eq hc 3) (.inl ⟨m0, rfl⟩) (.inl ⟨m3, rfl⟩)
    have v11x2y2 : (ZhWW.N c p).v 11 [spinOf a2, spinOf b2] = mb (ZhWW.react.codePair c p 2 a2).2 (p 1) (ZhWW.react.codePair c p 2 b2).1 := bra_mid_square (p := p) (m := ZhWW.proc.massNum (ZhWW.rho c)) (ZhWW.mass_eq hc 2) (ZhWW.mass_eq hc 2) (.inl ⟨m2, rfl⟩) (.inl ⟨m2, rfl⟩)
    have v5y0x2 : (ZhWW.N c p).v 5 [spinOf b0, spinOf a2] = sb (ZhWW.react.codePair c p 0 b0).2 (ZhWW.react.codePair c p 2 a2).2 := bra_square (p := p) (m := ZhWW.proc.massNum (ZhWW.rho c)) (ZhWW.mass_eq hc 0) (ZhWW.mass_eq hc 2) (.inl ⟨m0, rfl⟩) (.inl ⟨m2, rfl⟩)
    have v2x0x3 : (ZhWW.N c p).v 2 [spinOf a0, spinOf a3] = ab (ZhWW.react.codePair c p 0 a0).1 (ZhWW.react.codePair c p 3 a3).1 := bra_angle (p := p) (m := ZhWW.proc.massNum (ZhWW.rho c)) (ZhWW.mass_eq hc 0) (ZhWW.mass_eq hc 3) (.inl ⟨m0, rfl⟩) (.inl ⟨m3, rfl⟩)
    simp only [ZhWW.term, ZhWW.form, v1x2x3, v0y2y3, v6x0y0, v7x0y0, v5x0x2, v2y0x3, v3x0x3, v4y0x2, v1y2y3, v0y2x3, v8y3y0, v4y0y2, v9x3y3, v3y0x3, v4x0x2, v0x2y3, v10y2y0, v2y0y3, v11x2y2, v5y0x2, v2x0x3]
    push_cast
    ring
  show meaning (ZhWW.N c p) .r Cls.ZhWW.methods Cls.ZhWW.amp2 [] = _
  have s0 : ZhWW.react.states 0 = 3 := by decide
  have s1 : ZhWW.react.states 1 = 1 := by decide
  have sy : ZhWW.react.symmetry = 1 := by decide
  have p0 : ZhWW.react.spins 0 = Finset.univ := rfl
  have p1 : ZhWW.react.spins 1 = {0} := rfl
  have p2 : ZhWW.react.spins 2 = Finset.univ := rfl
  have p3 : ZhWW.react.spins 3 = Finset.univ := rfl
  rw [ZhWW.value, ZhWW.react.squared_four he ht hB (noGluon_of hM) hs h0 (fun _ b _ hb _ => (boson_pos hc hh hb).ne') (ZhWW.react.gauge_massive (massive_of hM)) (E := ZhWW.react.codeVec c p) (fun n b hl => ZhWW.react.codeVec_polarised hs h0 hl (massive_of hM n b hl) (fun _ => (boson_pos hc hh (massive_of hM n b hl)).ne')) hu, sum_colours, s0, s1, sy]
  simp only [bareFour_eq, sumV_sum, am, norm_mul, norm_neg, norm_one, one_mul, p0, p1, p2, p3, Finset.sum_singleton, Matrix.cons_val_zero, Matrix.cons_val_one, Matrix.cons_val]
  push_cast
  first | ring1 | ring_nf

/-! ### ZWWh -/

/-- what the methods of the class see -/
noncomputable abbrev ZWWh.N [FPEnv] (c : Constants) (p : Nat → V4 ℝ) : Env := ZWWh.proc.env (ZWWh.rho c) p
/-- the term that `amp` adds for a choice of spinors (SM/ZWWh.cpp) -/
noncomputable def ZWWh.term (N : Env) (w : ℝ) (x : ℂ) (a0 b0 a1 b1 a2 b2 : Int) : ℂ :=
  (((x + (((((w * N.r 10) : ℝ) : ℂ) * ((((-N.v 1 [a1, a2]) * N.v 0 [b1, b2]) * (N.v 6 [a0, b0] + N.v 7 [a0, b0])) + (((((((2 : Nat) : ℝ) * N.r 2) : ℝ) : ℂ) * ((N.v 5 [a0, a2] * N.v 2 [b0, a1]) - (N.v 3 [a0, a1] * N.v 4 [b0, a2]))) * (N.v 1 [b1, b2] - N.v 0 [b1, b2])))) / N.c 2)) + (((((w * N.r 11) : ℝ) : ℂ) * (((((((((((((2 : Nat) : ℝ) * N.r 2) * N.r 2) : ℝ) : ℂ) * N.v 5 [a0, a2]) * N.v 0 [a1, b2]) * N.v 8 [b1, b0]) + ((((((N.r 3 * N.r 3) : ℝ) : ℂ) * N.v 5 [a0, a2]) * N.v 4 [b0, b2]) * N.v 9 [a1, b1])) + ((((((((((2 : Nat) : ℝ) * N.r 2) * N.r 2) * N.r 2) : ℝ) : ℂ) * N.v 3 [a0, a1]) * N.v 4 [b0, a2]) * N.v 0 [b1, b2])) - ((((((((((2 : Nat) : ℝ) * N.r 2) * N.r 2) * N.r 3) : ℝ) : ℂ) * N.v 5 [a0, a2]) * N.v 3 [b0, a1]) * N.v 0 [b1, b2])) - ((((((((((2 : Nat) : ℝ) * N.r 2) * N.r 2) * N.r 3) : ℝ) : ℂ) * N.v 4 [a0, a2]) * N.v 2 [b0, a1]) * N.v 1 [b1, b2]))) / N.c 1)) + ((((((-w) * N.r 11) : ℝ) : ℂ) * (((((((((((((2 : Nat) : ℝ) * N.r 2) * N.r 2) : ℝ) : ℂ) * N.v 3 [a0, a1]) * N.v 0 [b1, a2]) * N.v 10 [b2, b0]) + ((((((N.r 3 * N.r 3) : ℝ) : ℂ) * N.v 3 [a0, a1]) * N.v 2 [b0, b1]) * N.v 11 [a2, b2])) + ((((((((((2 : Nat) : ℝ) * N.r 2) * N.r 2) * N.r 2) : ℝ) : ℂ) * N.v 5 [a0, a2]) * N.v 2 [b0, a1]) * N.v 0 [b1, b2])) + ((((((((((2 : Nat) : ℝ) * N.r 2) * N.r 2) * N.r 3) : ℝ) : ℂ) * N.v 3 [a0, a1]) * N.v 5 [b0, a2]) * N.v 0 [b1, b2])) + ((((((((((2 : Nat) : ℝ) * N.r 2) * N.r 2) * N.r 3) : ℝ) : ℂ) * N.v 2 [a0, a1]) * N.v 4 [b0, a2]) * N.v 1 [b1, b2]))) / N.c 0))
/-- the same with spinors in place of their spins -/
noncomputable def ZWWh.form (N : Env) (p : Nat → V4 ℝ) (x0 y0 x1 y1 x2 y2 : Pair) : ℂ :=
  (((0 + (((((((1 : Nat) : ℝ) * N.r 10) : ℝ) : ℂ) * ((((-(sb x1.2 x2.2)) * (ab y1.1 y2.1)) * ((mb x0.2 (p 2) y0.1) + (mb x0.2 (p 1) y0.1))) + (((((((2 : Nat) : ℝ) * N.r 2) : ℝ) : ℂ) * (((sb x0.2 x2.2) * (ab y0.1 x1.1)) - ((sb x0.2 x1.2) * (ab y0.1 x2.1)))) * ((sb y1.2 y2.2) - (ab y1.1 y2.1))))) / N.c 2)) + (((((((1 : Nat) : ℝ) * N.r 11) : ℝ) : ℂ) * (((((((((((((2 : Nat) : ℝ) * N.r 2) * N.r 2) : ℝ) : ℂ) * (sb x0.2 x2.2)) * (ab x1.1 y2.1)) * (mb y1.2 (p 2) y0.1)) + ((((((N.r 3 * N.r 3) : ℝ) : ℂ) * (sb x0.2 x2.2)) * (ab y0.1 y2.1)) * (mb x1.2 (p 3) y1.1))) + ((((((((((2 : Nat) : ℝ) * N.r 2) * N.r 2) * N.r 2) : ℝ) : ℂ) * (sb x0.2 x1.2)) * (ab y0.1 x2.1)) * (ab y1.1 y2.1))) - ((((((((((2 : Nat) : ℝ) * N.r 2) * N.r 2) * N.r 3) : ℝ) : ℂ) * (sb x0.2 x2.2)) * (sb y0.2 x1.2)) * (ab y1.1 y2.1))) - ((((((((((2 : Nat) : ℝ) * N.r 2) * N.r 2) * N.r 3) : ℝ) : ℂ) * (ab x0.1 x2.1)) * (ab y0.1 x1.1)) * (sb y1.2 y2.2)))) / N.c 1)) + ((((((-((1 : Nat) : ℝ)) * N.r 11) : ℝ) : ℂ) * (((((((((((((2 : Nat) : ℝ) * N.r 2) * N.r 2) : ℝ) : ℂ) * (sb x0.2 x1.2)) * (ab y1.1 x2.1)) * (mb y2.2 (p 1) y0.1)) + ((((((N.r 3 * N.r 3) : ℝ) : ℂ) * (sb x0.2 x1.2)) * (ab y0.1 y1.1)) * (mb x2.2 (p 3) y2.1))) + ((((((((((2 : Nat) : ℝ) * N.r 2) * N.r 2) * N.r 2) : ℝ) : ℂ) * (sb x0.2 x2.2)) * (ab y0.1 x1.1)) * (ab y1.1 y2.1))) + ((((((((((2 : Nat) : ℝ) * N.r 2) * N.r 2) * N.r 3) : ℝ) : ℂ) * (sb x0.2 x1.2)) * (sb y0.2 x2.2)) * (ab y1.1 y2.1))) + ((((((((((2 : Nat) : ℝ) * N.r 2) * N.r 2) * N.r 3) : ℝ) : ℂ) * (ab x0.1 x1.1)) * (ab y0.1 x2.1)) * (sb y1.2 y2.2)))) / N.c 0))
theorem ZWWh.key {c : Constants} {p : Nat → V4 ℝ} {N : Env} (hc : c.Physical) (hb : Balanced p) (r2 : N.r 2 = c.MW) (r3 : N.r 3 = (c.MW / c.CW)) (r10 : N.r 10 = (((√(((2 : Nat) : ℝ)) * c.e) * c.e) / ((((((2 : Nat) : ℝ) * c.MW) * c.MW) * c.SW) * c.SW))) (r11 : N.r 11 = ((((√(((2 : Nat) : ℝ)) * c.e) * c.e) / ((((((2 : Nat) : ℝ) * c.MW) * c.MW) * c.SW) * c.SW)) / ((c.MW / c.CW) * (c.MW / c.CW)))) (d0 : pole c.MW c.WW (plus (p 0) (p 1)) = N.c 0) (n0 : N.c 0 ≠ 0) (d1 : pole c.MW c.WW (plus (p 0) (backward (p 2))) = N.c 1) (n1 : N.c 1 ≠ 0) (d2 : pole c.MZ c.WZ (plus (p 0) (backward (p 3))) = N.c 2) (n2 : N.c 2 ≠ 0) {z0 z1 z2 : Pair} (b0 : Bold (p 0) c.MZ z0) (b1 : Bold (p 1) c.MW z1) (b2 : Bold (p 2) c.MW z2) (q0 : msq (p 0) = c.MZ ^ 2) (q1 : msq (p 1) = c.MW ^ 2) (q2 : msq (p 2) = c.MW ^ 2) (q3 : msq (p 3) = c.MH ^ 2) (E3 : Vec) :
    ZWWh.form N p z0 z0 z1 z1 z2 z2 = ((2 * √2 / (c.MZ * c.MW * c.MW) : ℝ) : ℂ) * ZWWh.react.bare4 c p (pv z0.1 z0.2) (pv z1.1 z1.2) (pv z2.1 z2.2) E3 := by
  rw [ZWWh.react.bare4_parts c p (b₀ := .z) (b₁ := .wPlus) (b₂ := .wMinus) (b₃ := .higgs) rfl rfl rfl rfl, ZWWh.form]
  have Y0 := b0; have Q0 := q0
  have Y1 := b1; have Q1 := q1
  have Y2 := b2.back; have Q2 : msq (backward (p 2)) = (-c.MW) ^ 2 := by rw [msq_backward, q2, neg_sq]
  generalize hS : msq (plus (p 0) (p 1)) = tS
  generalize hT : msq (plus (p 0) (backward (p 2))) = tT
  obtain ⟨e01, e23, e02, e13, e03, e12, hU⟩ := dots_balanced hb q0 q1 q2 q3 hS hT
  have i0 := mb_schouten_left z0.2 z1.2 z2.2 (p 1) z0.1
  have i1 := mb_schouten_left z0.2 z1.2 z2.2 (p 2) z0.1
  have i2 := mb_schouten_left z0.2 z1.2 z2.2 (p 0) z1.1
  have i3 := mb_schouten_right z1.2 (p 2) z0.1 z1.1 z2.1
  have i4 := mb_schouten_right z2.2 (p 0) z0.1 z1.1 z2.1
  have i5 := mb_schouten_right z2.2 (p 1) z0.1 z1.1 z2.1
  try simp only [mb_plus, mb_backward, hS, hT, hU, q0, q1, q2, q3] at i0 i1 i2 i3 i4 i5
  simp only [b0.mb_left, b0.mb_right, b1.mb_left, b1.mb_right, b2.mb_left, b2.mb_right, mb_three hb z0.2 z0.1, mb_three hb z0.2 z1.1, mb_three hb z0.2 z2.1, mb_three hb z1.2 z0.1, mb_three hb z1.2 z1.1, mb_three hb z1.2 z2.1, mb_three hb z2.2 z0.1, mb_three hb z2.2 z1.1, mb_three hb z2.2 z2.1, ab_self, sb_self] at i0 i1 i2 i3 i4 i5
  try simp only [ab_swap z0.1 z1.1, sb_swap z0.2 z1.2, ab_swap z0.1 z2.1, sb_swap z0.2 z2.2, ab_swap z1.1 z2.1, sb_swap z1.2 z2.2] at i0 i1 i2 i3 i4 i5
  push_cast at i0 i1 i2 i3 i4 i5
  simp only [contact, seagull, gauge4, between, carriers, List.map_cons, List.map_nil, List.sum_cons, List.sum_nil, carry_massive c .z (hx := (rfl : Boson.massive .z = true)), carry_massive c .wPlus (hx := (rfl : Boson.massive .wPlus = true)), carry_massive c .wMinus (hx := (rfl : Boson.massive .wMinus = true)), carry_massless c .photon (hx := rfl)]
  simp only [toHiggs, toVector, higgs2, gauge3, Boson.anti, Constants.bosonMass, Constants.bosonWidth, reduceCtorEq, and_self, and_true, and_false, true_and, false_and, if_true, if_false, Complex.ofReal_zero, zero_smul, zero_mul, mul_zero, zero_div, neg_zero, add_zero, zero_add, sub_zero, sub_self, contract_zero, contract_zero_left, contract_smul, contract_smul_left, d0, d1, d2, four_yangMills Y0 Y1 Q0 Q1, four_yangMills Y0 Y2 Q0 Q2, four_yangMills Y1 Y2 Q1 Q2]
  try simp only [yangMills_pv Y0 Y1, yangMills_pv Y0 Y2, yangMills_pv Y1 Y2, contract_add, contract_add_left, contract_smul, contract_smul_left, contract_four_four, dot_backward_left, dot_backward_right, dot_plus_left, dot_same, q0, q1, q2, q3, dot_comm (p 1) (p 0), dot_comm (p 2) (p 0), dot_comm (p 3) (p 0), dot_comm (p 2) (p 1), dot_comm (p 3) (p 1), dot_comm (p 3) (p 2), e01, e23, e02, e13, e03, e12]
  try simp only [contract_four_pv, contract_pv_four, contract_pv, mb_plus, mb_backward]
  try simp only [b0.mb_left, b0.mb_right, b1.mb_left, b1.mb_right, b2.mb_left, b2.mb_right, mb_three hb z0.2 z0.1, mb_three hb z0.2 z1.1, mb_three hb z0.2 z2.1, mb_three hb z1.2 z0.1, mb_three hb z1.2 z1.1, mb_three hb z1.2 z2.1, mb_three hb z2.2 z0.1, mb_three hb z2.2 z1.1, mb_three hb z2.2 z2.1, ab_self, sb_self]
  try simp only [ab_swap z0.1 z1.1, sb_swap z0.2 z1.2, ab_swap z0.1 z2.1, sb_swap z0.2 z2.2, ab_swap z1.1 z2.1, sb_swap z1.2 z2.2]
  simp only [r2, r3, r10, r11, Constants.invVev, ← c.mz]
  have xMW : (c.MW : ℂ) ≠ 0 := by exact_mod_cast hc.MW
  have xSW : (c.SW : ℂ) ≠ 0 := by exact_mod_cast hc.SW
  have xCW : (c.CW : ℂ) ≠ 0 := by exact_mod_cast hc.CW
  have y2 : ((√2 : ℝ) : ℂ) ≠ 0 := by exact_mod_cast (Real.sqrt_pos.2 two_pos).ne'
  have y22 : ((√2 : ℝ) : ℂ) ^ 2 = 2 := by rw [← Complex.ofReal_pow, Real.sq_sqrt two_pos.le]; norm_num
  push_cast
  generalize ab z0.1 z1.1 = a01 at i0 i1 i2 i3 i4 i5 ⊢
  generalize ab z0.1 z2.1 = a02 at i0 i1 i2 i3 i4 i5 ⊢
  generalize ab z1.1 z2.1 = a12 at i0 i1 i2 i3 i4 i5 ⊢
  generalize mb z0.2 (p 1) z0.1 = m010 at i0 i1 i2 i3 i4 i5 ⊢
  generalize mb z0.2 (p 1) z2.1 = m012 at i0 i1 i2 i3 i4 i5 ⊢
  generalize mb z0.2 (p 2) z0.1 = m020 at i0 i1 i2 i3 i4 i5 ⊢
  generalize mb z0.2 (p 2) z1.1 = m021 at i0 i1 i2 i3 i4 i5 ⊢
  generalize mb z1.2 (p 0) z1.1 = m101 at i0 i1 i2 i3 i4 i5 ⊢
  generalize mb z1.2 (p 0) z2.1 = m102 at i0 i1 i2 i3 i4 i5 ⊢
  generalize mb z1.2 (p 2) z0.1 = m120 at i0 i1 i2 i3 i4 i5 ⊢
  generalize mb z1.2 (p 2) z1.1 = m121 at i0 i1 i2 i3 i4 i5 ⊢
  generalize mb z2.2 (p 0) z1.1 = m201 at i0 i1 i2 i3 i4 i5 ⊢
  generalize mb z2.2 (p 0) z2.1 = m202 at i0 i1 i2 i3 i4 i5 ⊢
  generalize mb z2.2 (p 1) z0.1 = m210 at i0 i1 i2 i3 i4 i5 ⊢
  generalize mb z2.2 (p 1) z2.1 = m212 at i0 i1 i2 i3 i4 i5 ⊢
  generalize sb z0.2 z1.2 = s01 at i0 i1 i2 i3 i4 i5 ⊢
  generalize sb z0.2 z2.2 = s02 at i0 i1 i2 i3 i4 i5 ⊢
  generalize sb z1.2 z2.2 = s12 at i0 i1 i2 i3 i4 i5 ⊢
  generalize (tS : ℂ) = vS at i0 i1 i2 i3 i4 i5 ⊢; generalize (tT : ℂ) = vT at i0 i1 i2 i3 i4 i5 ⊢
  generalize N.c 0 = D0 at n0 ⊢
  generalize N.c 1 = D1 at n1 ⊢
  generalize N.c 2 = D2 at n2 ⊢
  have w2 : (-1)*a12*m020*s12 + (-1)*a12*m010*s12 + (c.MW : ℂ)*a01*s02*s12 + (-1)*(c.MW : ℂ)*a01*a12*s02 + (-1)*(c.MW : ℂ)*a02*s01*s12 + (c.MW : ℂ)*a02*a12*s01 + a02*m121*s02 + a01*m212*s01 = 0 := by
    linear_combination ((-1)*a12) * i1 + ((-1)*s02) * i3 + (s01) * i5 + ((-1)*a12) * i0
  have w1 : a12*m120*s02 + (c.MW : ℂ)*a02*a12*s01 + (-1)*(c.MZ : ℂ)*a12*s01*s02 + (-1)*(c.MZ : ℂ)*a01*a02*s12 + a02*m101*s02 + (-1)*a12*m020*s12 + (-1)*a01*m202*s01 = 0 := by
    linear_combination ((-1)*a12) * i1 + ((-1)*s01) * i4 + ((-1)*a02) * i2
  have w0 : (-1)*a12*m210*s01 + (-1)*(c.MW : ℂ)*a01*a12*s02 + (-1)*(c.MZ : ℂ)*a12*s01*s02 + (-1)*(c.MZ : ℂ)*a01*a02*s12 + (-1)*a01*m202*s01 + (-1)*a12*m010*s12 + a02*m101*s02 = 0 := by
    linear_combination ((-1)*a12) * i0 + ((-1)*s01) * i4 + ((-1)*a02) * i2
  have hZ : (c.MZ : ℂ) = c.MW / c.CW := by rw [← c.mz, Complex.ofReal_div]
  try simp only [hZ] at w2 w1 w0
  linear_combination (norm := (field_simp; first | ring1 | (ring_nf; simp only [y22]; ring1))) (((√2 : ℝ) : ℂ)*(c.e : ℂ)^2/((c.MW : ℂ)^2*(c.SW : ℂ)^2)) * w2 / D2 + (((√2 : ℝ) : ℂ)*(c.e : ℂ)^2/(((c.MW : ℂ) / (c.CW : ℂ))^2*(c.SW : ℂ)^2)) * w1 / D1 + (((√2 : ℝ) : ℂ)*(c.e : ℂ)^2/(((c.MW : ℂ) / (c.CW : ℂ))^2*(c.SW : ℂ)^2)) * w0 / D0
set_option maxRecDepth 8000 in
theorem ZWWh.amp2_eq (N : Env) (f : Nat → List Int → ℂ) : Cls.ZWWh.m_amp2.mean N f .r [] =
    ((sumV (fun x a => (sumV (fun x b => (sumV (fun x c => (x + (‖(f 0 [a, b, c])‖ ^ 2))) x)) x)) ((0 : Nat) : ℝ)) / ((9 : Nat) : ℝ)) := by rfl
set_option maxRecDepth 8000 in
theorem ZWWh.value (N : Env) : meaning N .r Cls.ZWWh.methods Cls.ZWWh.amp2 [] =
    ((sumV (fun x a => (sumV (fun x b => (sumV (fun x c => (x + (‖(Cls.ZWWh.m_amp.mean N (callMean N []) .c [a, b, c])‖ ^ 2))) x)) x)) ((0 : Nat) : ℝ)) / ((9 : Nat) : ℝ)) :=
  ZWWh.amp2_eq N (callMean N [Cls.ZWWh.m_amp])
set_option maxRecDepth 8000 in
theorem ZWWh.term_lin (N : Env) (w : ℝ) (x : ℂ) (a0 b0 a1 b1 a2 b2 : Int) : ZWWh.term N w x a0 b0 a1 b1 a2 b2 = x + (w : ℂ) * ZWWh.term N 1 0 a0 b0 a1 b1 a2 b2 := by
  simp only [ZWWh.term]; push_cast; ring
theorem ZWWh.amp_eq (N : Env) (f : Nat → List Int → ℂ) (t0 t1 t2 : Fin 3) : Cls.ZWWh.m_amp.mean N f .c [spinV t0, spinV t1, spinV t2] = comb t0 (fun a0 b0 => comb t2 (fun a2 b2 => comb t1 (fun a1 b1 => ZWWh.term N 1 0 (spinOf a0) (spinOf b0) (spinOf a1) (spinOf b1) (spinOf a2) (spinOf b2)))) := by
  refine (amp_mean N f (m := 3) (K := 9) (G := fun i => ZWWh.term N 1 0 (i 3) (i 4) (i 7) (i 8) (i 5) (i 6)) (fun l => ?_) (fun i i' h => ?_) rfl (by decide) (by decide) (by decide) (by decide) (by decide)).trans ?_
  · refine ⟨_, rfl, ?_⟩; exact ⟨rfl, rfl, ZWWh.term_lin ..⟩
  · simp only [h 3 (by decide), h 4 (by decide), h 7 (by decide), h 8 (by decide), h 5 (by decide), h 6 (by decide)]
  · show amp' _ [spinV t0, spinV t2, spinV t1] = _
    simp only [amp'_comb, amp'_nil]
    rfl
theorem ZWWh.form_x0 (N : Env) (p : Nat → V4 ℝ) (y0 x1 y1 x2 y2 x y : Pair) : ZWWh.form N p (x + y) y0 x1 y1 x2 y2 = ZWWh.form N p x y0 x1 y1 x2 y2 + ZWWh.form N p y y0 x1 y1 x2 y2 := by
  simp only [ZWWh.form, Prod.fst_add, Prod.snd_add, ab_add_left, ab_add_right, sb_add_left, sb_add_right, mb_add_left, mb_add_right]
  ring
theorem ZWWh.form_y0 (N : Env) (p : Nat → V4 ℝ) (x0 x1 y1 x2 y2 x y : Pair) : ZWWh.form N p x0 (x + y) x1 y1 x2 y2 = ZWWh.form N p x0 x x1 y1 x2 y2 + ZWWh.form N p x0 y x1 y1 x2 y2 := by
  simp only [ZWWh.form, Prod.fst_add, Prod.snd_add, ab_add_left, ab_add_right, sb_add_left, sb_add_right, mb_add_left, mb_add_right]
  ring
theorem ZWWh.form_x1 (N : Env) (p : Nat → V4 ℝ) (x0 y0 y1 x2 y2 x y : Pair) : ZWWh.form N p x0 y0 (x + y) y1 x2 y2 = ZWWh.form N p x0 y0 x y1 x2 y2 + ZWWh.form N p x0 y0 y y1 x2 y2 := by
  simp only [ZWWh.form, Prod.fst_add, Prod.snd_add, ab_add_left, ab_add_right, sb_add_left, sb_add_right, mb_add_left, mb_add_right]
  ring
theorem ZWWh.form_y1 (N : Env) (p : Nat → V4 ℝ) (x0 y0 x1 x2 y2 x y : Pair) : ZWWh.form N p x0 y0 x1 (x + y) x2 y2 = ZWWh.form N p x0 y0 x1 x x2 y2 + ZWWh.form N p x0 y0 x1 y x2 y2 := by
  simp only [ZWWh.form, Prod.fst_add, Prod.snd_add, ab_add_left, ab_add_right, sb_add_left, sb_add_right, mb_add_left, mb_add_right]
  ring
theorem ZWWh.form_x2 (N : Env) (p : Nat → V4 ℝ) (x0 y0 x1 y1 y2 x y : Pair) : ZWWh.form N p x0 y0 x1 y1 (x + y) y2 = ZWWh.form N p x0 y0 x1 y1 x y2 + ZWWh.form N p x0 y0 x1 y1 y y2 := by
  simp only [ZWWh.form, Prod.fst_add, Prod.snd_add, ab_add_left, ab_add_right, sb_add_left, sb_add_right, mb_add_left, mb_add_right]
  ring
theorem ZWWh.form_y2 (N : Env) (p : Nat → V4 ℝ) (x0 y0 x1 y1 x2 x y : Pair) : ZWWh.form N p x0 y0 x1 y1 x2 (x + y) = ZWWh.form N p x0 y0 x1 y1 x2 x + ZWWh.form N p x0 y0 x1 y1 x2 y := by
  simp only [ZWWh.form, Prod.fst_add, Prod.snd_add, ab_add_left, ab_add_right, sb_add_left, sb_add_right, mb_add_left, mb_add_right]
  ring

theorem ZWWh.mass_eq {c : Constants} (hc : c.Physical) (i : Fin 4) : ZWWh.proc.massNum (ZWWh.rho c) i = ZWWh.react.mass c i := by
  fin_cases i <;> first | rfl | (show c.MW / √(((1 : Nat) : ℝ) - c.SW * c.SW) = c.MZ; rw [c.root, c.mz])

variable [FPEnv] in
theorem ZWWh.agrees : ZWWh.Agrees := by
  refine agrees_of (D := [2, 3]) (E := [3]) (by simp [all, ZWWh]) (by decide +kernel) (by decide) (by decide +kernel) (fun c hc hh => ⟨List.forall_mem_cons.2 ⟨hc.MW, List.forall_mem_cons.2 ⟨hc.SW, List.forall_mem_nil _⟩⟩, List.forall_mem_cons.2 ⟨hc.SW_lt, List.forall_mem_nil _⟩⟩) (fun c hc i => ZWWh.mass_eq hc i) (by decide +kernel) ?_
  intro c p u ε hc hh hw h0 hs hb hr hu
  have he : ZWWh.react.ends = [] := by decide
  have ht : ZWWh.react.starts = [] := by decide
  have hB : ZWWh.react.bosons = [0, 1, 2, 3] := by decide
  have hM : ZWWh.react.allMassive = true := by decide
  obtain ⟨f1, f2, f3⟩ := ZWWh.react.regular_four he ht hB hr
  have r2 : (ZWWh.N c p).r 2 = c.MW := rfl
  have r3 : (ZWWh.N c p).r 3 = (c.MW / √((((1 : Nat) : ℝ) - (c.SW * c.SW)))) := rfl
  simp only [c.root] at r3
  have r10 : (ZWWh.N c p).r 10 = (((√(((2 : Nat) : ℝ)) * c.e) * c.e) / ((((((2 : Nat) : ℝ) * c.MW) * c.MW) * c.SW) * c.SW)) := rfl
  have r11 : (ZWWh.N c p).r 11 = ((((√(((2 : Nat) : ℝ)) * c.e) * c.e) / ((((((2 : Nat) : ℝ) * c.MW) * c.MW) * c.SW) * c.SW)) / ((c.MW / √((((1 : Nat) : ℝ) - (c.SW * c.SW)))) * (c.MW / √((((1 : Nat) : ℝ) - (c.SW * c.SW)))))) := rfl
  simp only [c.root] at r11
  have c0 : (ZWWh.N c p).c 0 = poleDist c.MW c.WW ((VExp.add 0 1).sum p) := rfl
  rw [pole_congr (msq_s hb (plus (p 0) (p 1)) (by simp)).symm] at c0
  have d0 : pole c.MW c.WW (plus (p 0) (p 1)) = (ZWWh.N c p).c 0 := by rw [c0]
  have n0 : (ZWWh.N c p).c 0 ≠ 0 := by rw [← d0]; exact star_ne_zero.2 (f1 .wPlus rfl rfl)
  have c1 : (ZWWh.N c p).c 1 = poleDist c.MW c.WW ((VExp.sub 0 2).sum p) := rfl
  rw [pole_congr (msq_t hb (plus (p 0) (backward (p 2))) (by simp)).symm] at c1
  have d1 : pole c.MW c.WW (plus (p 0) (backward (p 2))) = (ZWWh.N c p).c 1 := by rw [c1]
  have n1 : (ZWWh.N c p).c 1 ≠ 0 := by rw [← d1]; exact star_ne_zero.2 (f2 .wMinus rfl rfl)
  have c2 : (ZWWh.N c p).c 2 = poleDist (c.MW / √((((1 : Nat) : ℝ) - (c.SW * c.SW)))) c.WZ ((VExp.sub 0 3).sum p) := rfl
  rw [c.root, c.mz, pole_congr (msq_u hb (plus (p 0) (backward (p 3))) (by simp)).symm] at c2
  have d2 : pole c.MZ c.WZ (plus (p 0) (backward (p 3))) = (ZWWh.N c p).c 2 := by rw [c2]
  have n2 : (ZWWh.N c p).c 2 ≠ 0 := by rw [← d2]; exact star_ne_zero.2 (f3 .z rfl rfl)
  have m0 : ZWWh.react.mass c 0 ≠ 0 := (leg_pos hc hh (by decide)).ne'
  have m1 : ZWWh.react.mass c 1 ≠ 0 := (leg_pos hc hh (by decide)).ne'
  have m2 : ZWWh.react.mass c 2 ≠ 0 := (leg_pos hc hh (by decide)).ne'
  have hd : ZWWh.proc.divides = [(Ty.c, 2), (Ty.c, 1), (Ty.c, 0)] := by decide +kernel
  refine ⟨fun n hn => ?_, fun n hn => ?_, ?_⟩
  · simp [hd] at hn
  · simp [hd] at hn
    rcases hn with rfl | rfl | rfl
    · exact n2
    · exact n1
    · exact n0
  have st : ∀ (t0 t1 t2 : Fin 3), comb t0 (fun a0 b0 => comb t2 (fun a2 b2 => comb t1 (fun a1 b1 => ZWWh.form (ZWWh.N c p) p (ZWWh.react.codePair c p 0 a0) (ZWWh.react.codePair c p 0 b0) (ZWWh.react.codePair c p 1 a1) (ZWWh.react.codePair c p 1 b1) (ZWWh.react.codePair c p 2 a2) (ZWWh.react.codePair c p 2 b2)))) = 1 * ZWWh.react.bare4 c p (ZWWh.react.codeVec c p 0 t0) (ZWWh.react.codeVec c p 1 t1) (ZWWh.react.codeVec c p 2 t2) (ZWWh.react.codeVec c p 3 0) := by
    intro t0 t1 t2
    refine three_vectors (p₀ := p 0) (m₀ := ZWWh.react.mass c 0) (p₁ := p 2) (m₁ := ZWWh.react.mass c 2) (p₂ := p 1) (m₂ := ZWWh.react.mass c 1) (fun s => ZWWh.react.codePair_bold hs h0 0 s) (fun s => ZWWh.react.codePair_bold hs h0 2 s) (fun s => ZWWh.react.codePair_bold hs h0 1 s) (B := fun x0 x0b x1 x1b x2 x2b => ZWWh.form (ZWWh.N c p) p x0 x0b x2 x2b x1 x1b) (fun _ _ _ _ _ _ _ => ?_) (fun _ _ _ _ _ _ _ => ?_) (fun _ _ _ _ _ _ _ => ?_) (fun _ _ _ _ _ _ _ => ?_) (fun _ _ _ _ _ _ _ => ?_) (fun _ _ _ _ _ _ _ => ?_) (G := fun E F G => ZWWh.react.bare4 c p E G F (ZWWh.react.codeVec c p 3 0)) (fun _ _ => ZWWh.react.bare4_lin₀ c p (by decide) _ _ _) (fun _ _ => ZWWh.react.bare4_lin₂ c p (by decide) _ _ _) (fun _ _ => ZWWh.react.bare4_lin₁ c p (by decide) _ _ _) 1 (fun z0 z2 z1 b0 b2 b1 => ?_) t0 t2 t1
    · exact ZWWh.form_x0 ..
    · exact ZWWh.form_y0 ..
    · exact ZWWh.form_x2 ..
    · exact ZWWh.form_y2 ..
    · exact ZWWh.form_x1 ..
    · exact ZWWh.form_y1 ..
    · rw [one_mul]; exact ZWWh.key hc hb r2 r3 r10 r11 d0 n0 d1 n1 d2 n2 b0 b1 b2 (onShell_msq (hs 0)) (onShell_msq (hs 1)) (onShell_msq (hs 2)) (onShell_msq (hs 3))  (ZWWh.react.codeVec c p 3 0)
  have am : ∀ (t0 t1 t2 : Fin 3), Cls.ZWWh.m_amp.mean (ZWWh.N c p) (callMean (ZWWh.N c p) []) .c [spinV t0, spinV t1, spinV t2] = 1 * ZWWh.react.bare4 c p (ZWWh.react.codeVec c p 0 t0) (ZWWh.react.codeVec c p 1 t1) (ZWWh.react.codeVec c p 2 t2) (ZWWh.react.codeVec c p 3 0) := by
    intro t0 t1 t2
    rw [ZWWh.amp_eq, ← st t0 t1 t2]
    refine congrArg (comb t0) (funext fun a0 => funext fun b0 => ?_)
    refine congrArg (comb t2) (funext fun a2 => funext fun b2 => ?_)
    refine congrArg (comb t1) (funext fun a1 => funext fun b1 => ?_)
    have v1x1x2 : (ZWWh.N c p).v 1 [spinOf a1, spinOf a2] = sb (ZWWh.react.codePair c p 1 a1).2 (ZWWh.react.codePair c p 2 a2).2 := bra_square (p := p) (m := ZWWh.proc.massNum (ZWWh.rho c)) (ZWWh.mass_eq hc 1) (ZWWh.mass_eq hc 2) (.inl ⟨m1, rfl⟩) (.inl ⟨m2, rfl⟩)
    have v0y1y2 : (ZWWh.N c p).v 0 [spinOf b1, spinOf b2] = ab (ZWWh.react.codePair c p 1 b1).1 (ZWWh.react.codePair c p 2 b2).1 := bra_angle (p := p) (m := ZWWh.proc.massNum (ZWWh.rho c)) (ZWWh.mass_eq hc 1) (ZWWh.mass_eq hc 2) (.inl ⟨m1, rfl⟩) (.inl ⟨m2, rfl⟩)
    have v6x0y0 : (ZWWh.N c p).v 6 [spinOf a0, spinOf b0] = mb (ZWWh.react.codePair c p 0 a0).2 (p 2) (ZWWh.react.codePair c p 0 b0).1 := bra_mid_square (p := p) (m := ZWWh.proc.massNum (ZWWh.rho c)) (ZWWh.mass_eq hc 0) (ZWWh.mass_eq hc 0) (.inl ⟨m0, rfl⟩) (.inl ⟨m0, rfl⟩)
    have v7x0y0 : (ZWWh.N c p).v 7 [spinOf a0, spinOf b0] = mb (ZWWh.react.codePair c p 0 a0).2 (p 1) (ZWWh.react.codePair c p 0 b0).1 := bra_mid_square (p := p) (m := ZWWh.proc.massNum (ZWWh.rho c)) (ZWWh.mass_eq hc 0) (ZWWh.mass_eq hc 0) (.inl ⟨m0, rfl⟩) (.inl ⟨m0, rfl⟩)
    have v5x0x2 : (ZWWh.N c p).v 5 [spinOf a0, spinOf a2] = sb (ZWWh.react.codePair c p 0 a0).2 (ZWWh.react.codePair c p 2 a2).2 := bra_square (p := p) (m := ZWWh.proc.massNum (ZWWh.rho c)) (ZWWh.mass_eq hc 0) (ZWWh.mass_eq hc 2) (.inl ⟨m0, rfl⟩) (.inl ⟨m2, rfl⟩)
    have v2y0x1 : (ZWWh.N c p).v 2 [spinOf b0, spinOf a1] = ab (ZWWh.react.codePair c p 0 b0).1 (ZWWh.react.codePair c p 1 a1).1 := bra_angle (p := p) (m := ZWWh.proc.massNum (ZWWh.rho c)) (ZWWh.mass_eq hc 0) (ZWWh.mass_eq hc 1) (.inl ⟨m0, rfl⟩) (.inl ⟨m1, rfl⟩)
    have v3x0x1 : (ZWWh.N c p).v 3 [spinOf a0, spinOf a1] = sb (ZWWh.react.codePair c p 0 a0).2 (ZWWh.react.codePair c p 1 a1).2 := bra_square (p := p) (m := ZWWh.proc.massNum (ZWWh.rho c)) (ZWWh.mass_eq hc 0) (ZWWh.mass_eq hc 1) (.inl ⟨m0, rfl⟩) (.inl ⟨m1, rfl⟩)
    have v4y0x2 : (ZWWh.N c p).v 4 [spinOf b0, spinOf a2] = ab (ZWWh.react.codePair c p 0 b0).1 (ZWWh.react.codePair c p 2 a2).1 := bra_angle (p := p) (m := ZWWh.proc.massNum (ZWWh.rho c)) (ZWWh.mass_eq hc 0) (ZWWh.mass_eq hc 2) (.inl ⟨m0, rfl⟩) (.inl ⟨m2, rfl⟩)
    have v1y1y2 : (ZWWh.N c p).v 1 [spinOf b1, spinOf b2] = sb (ZWWh.react.codePair c p 1 b1).2 (ZWWh.react.codePair c p 2 b2).2 := bra_square (p := p) (m := ZWWh.proc.massNum (ZWWh.rho c)) (ZWWh.mass_eq hc 1) (ZWWh.mass_eq hc 2) (.inl ⟨m1, rfl⟩) (.inl ⟨m2, rfl⟩)
    have v0x1y2 : (ZWWh.N c p).v 0 [spinOf a1, spinOf b2] = ab (ZWWh.react.codePair c p 1 a1).1 (ZWWh.react.codePair c p 2 b2).1 := bra_angle (p := p) (m := ZWWh.proc.massNum (ZWWh.rho c)) (ZWWh.mass_eq hc 1) (ZWWh.mass_eq hc 2) (.inl ⟨m1, rfl⟩) (.inl ⟨m2, rfl⟩)
    have v8y1y0 : (ZWWh.N c p).v 8 [spinOf b1, spinOf b0] = mb (ZWWh.react.codePair c p 1 b1).2 (p 2) (ZWWh.react.codePair c p 0 b0).1 := bra_mid_square (p := p) (m := ZWWh.proc.massNum (ZWWh.rho c)) (ZWWh.mass_eq hc 1) (ZWWh.mass_eq hc 0) (.inl ⟨m1, rfl⟩) (.inl ⟨m0, rfl⟩)
    have v4y0y2 : (ZWWh.N c p).v 4 [spinOf b0, spinOf b2] = ab (ZWWh.react.codePair c p 0 b0).1 (ZWWh.react.codePair c p 2 b2).1 := bra_angle (p := p) (m := ZWWh.proc.massNum (ZWWh.rho c)) (ZWWh.mass_eq hc 0) (ZWWh.mass_eq hc 2) (.inl ⟨m0, rfl⟩) (.inl ⟨m2, rfl⟩)
    have v9x1y1 : (ZWWh.N c p).v 9 [spinOf a1, spinOf b1] = mb (ZWWh.react.codePair c p 1 a1).2 (p 3) (ZWWh.react.codePair c p 1 b1).1 := bra_mid_square (p := p) (m := ZWWh.proc.massNum (ZWWh.rho c)) (ZWWh.mass_eq hc 1) (ZWWh.mass_eq hc 1) (.inl ⟨m1, rfl⟩) (.inl ⟨m1, rfl⟩)
    have v3y0x1 : (ZWWh.N c p).v 3 [spinOf b0, spinOf a1] = sb (ZWWh.react.codePair c p 0 b0).2 (ZWWh.react.codePair c p 1 a1).2 := bra_square (p := p) (m := ZWWh.proc.massNum (ZWWh.rho c)) (ZWWh.mass_eq hc 0) (ZWWh.mass_eq hc 1) (.inl ⟨m0, rfl⟩) (.inl ⟨m1, rfl⟩)
    have v4x0x2 : (ZWWh.N c p).v 4 [spinOf a0, spinOf a2] = ab (ZWWh.react.codePair c p 0 a0).1 (ZWWh.react.codePair c p 2 a2).1 := bra_angle (p := p) (m := ZWWh.proc.massNum (ZWWh.rho c)) (ZWWh.mass_eq hc 0) (ZWWh.mass_eq hc 2) (.inl ⟨m0, rfl⟩) (.inl ⟨m2, rfl⟩)
    have v0y1x2 : (ZWWh.N c p).v 0 [spinOf b1, spinOf a2] = ab (ZWWh.react.codePair c p 1 b1).1 (ZWWh.react.codePair c p 2 a2).1 := bra_angle (p := p) (m := ZWWh.proc.massNum (ZWWh.rho c)) (ZWWh.mass_eq hc 1) (ZWWh.mass_eq hc 2) (.inl ⟨m1, rfl⟩) (.inl ⟨m2, rfl⟩)
    have v10y2y0 : (ZWWh.N c p).v 10 [spinOf b2, spinOf b0] = mb (ZWWh.react.codePair c p 2 b2).2 (p 1) (ZWWh.react.codePair c p 0 b0).1 := bra_mid_square (p := p) (m := ZWWh.proc.massNum (ZWWh.rho c)) (ZWWh.mass_eq hc 2) (ZWWh.mass_eq hc 0) (.inl ⟨m2, rfl⟩) (.inl ⟨m0, rfl⟩)
    have v2y0y1 : (ZWWh.N c p).v 2 [spinOf b0, spinOf b1] = ab (ZWWh.react.codePair c p 0 b0).1 (ZWWh.react.codePair c p 1 b1).1 := bra_angle (p := p) (m := ZWWh.proc.massNum (ZWWh.rho c)) (ZWWh.mass_eq hc 0) (ZWWh.mass_eq hc 1) (.inl ⟨m0, rfl⟩) (.inl ⟨m1, rfl⟩)
    have v11x2y2 : (ZWWh.N c p).v 11 [spinOf a2, spinOf b2] = mb (ZWWh.react.codePair c p 2 a2).2 (p 3) (ZWWh.react.codePair c p 2 b2).1 := bra_mid_square (p := p) (m := ZWWh.proc.massNum (ZWWh.rho c)) (ZWWh.mass_eq hc 2) (ZWWh.mass_eq hc 2) (.inl ⟨m2, rfl⟩) (.inl ⟨m2, rfl⟩)
    have v5y0x2 : (ZWWh.N c p).v 5 [spinOf b0, spinOf a2] = sb (ZWWh.react.codePair c p 0 b0).2 (ZWWh.react.codePair c p 2 a2).2 := bra_square (p := p) (m := ZWWh.proc.massNum (ZWWh.rho c)) (ZWWh.mass_eq hc 0) (ZWWh.mass_eq hc 2) (.inl ⟨m0, rfl⟩) (.inl ⟨m2, rfl⟩)
    have v2x0x1 : (ZWWh.N c p).v 2 [spinOf a0, spinOf a1] = ab (ZWWh.react.codePair c p 0 a0).1 (ZWWh.react.codePair c p 1 a1).1 := bra_angle (p := p) (m := ZWWh.proc.massNum (ZWWh.rho c)) (ZWWh.mass_eq hc 0) (ZWWh.mass_eq hc 1) (.inl ⟨m0, rfl⟩) (.inl ⟨m1, rfl⟩)
    simp only [ZWWh.term, ZWWh.form, v1x1x2, v0y1y2, v6x0y0, v7x0y0, v5x0x2, v2y0x1, v3x0x1, v4y0x2, v1y1y2, v0x1y2, v8y1y0, v4y0y2, v9x1y1, v3y0x1, v4x0x2, v0y1x2, v10y2y0, v2y0y1, v11x2y2, v5y0x2, v2x0x1]
    push_cast
    ring
  show meaning (ZWWh.N c p) .r Cls.ZWWh.methods Cls.ZWWh.amp2 [] = _
  have s0 : ZWWh.react.states 0 = 3 := by decide
  have s1 : ZWWh.react.states 1 = 3 := by decide
  have sy : ZWWh.react.symmetry = 1 := by decide
  have p0 : ZWWh.react.spins 0 = Finset.univ := rfl
  have p1 : ZWWh.react.spins 1 = Finset.univ := rfl
  have p2 : ZWWh.react.spins 2 = Finset.univ := rfl
  have p3 : ZWWh.react.spins 3 = {0} := rfl
  rw [ZWWh.value, ZWWh.react.squared_four he ht hB (noGluon_of hM) hs h0 (fun _ b _ hb _ => (boson_pos hc hh hb).ne') (ZWWh.react.gauge_massive (massive_of hM)) (E := ZWWh.react.codeVec c p) (fun n b hl => ZWWh.react.codeVec_polarised hs h0 hl (massive_of hM n b hl) (fun _ => (boson_pos hc hh (massive_of hM n b hl)).ne')) hu, sum_colours, s0, s1, sy]
  simp only [bareFour_eq, sumV_sum, am, norm_mul, norm_neg, norm_one, one_mul, p0, p1, p2, p3, Finset.sum_singleton, Matrix.cons_val_zero, Matrix.cons_val_one, Matrix.cons_val]
  push_cast
  first | ring1 | ring_nf

end Spinas.SM.Rows
