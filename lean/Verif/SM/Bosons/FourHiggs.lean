import Verif.SM.BosonRows

/-! Four bosons, two or more of them Higgs or Z bosons. Generated by tools/bosons/emit.py: for each class its amplitude as a formula in spinors, and the proof that `amp2` is the squared amplitude of the Feynman rules. -/

set_option linter.unusedSimpArgs false
set_option linter.unusedVariables false
set_option linter.unreachableTactic false
set_option linter.unusedTactic false

namespace Spinas.SM.Rows
open Spec Spec.Reaction Props XR Matrix BRow

/-! ### hhhh -/

/-- what the methods of the class see -/
noncomputable abbrev hhhh.N [FPEnv] (c : Constants) (p : Nat → V4 ℝ) : Env := hhhh.proc.env (hhhh.rho c) p
/-- `amp` (SM/hhhh.cpp) -/
noncomputable def hhhh.term (N : Env) : ℂ :=
  (((((0 : Nat) : ℝ) : ℝ) : ℂ) + ((((N.r 6 : ℝ) : ℂ) * (((((((1 : Nat) : ℝ) : ℝ) : ℂ) / N.c 0) + (((((1 : Nat) : ℝ) : ℝ) : ℂ) / N.c 1)) + (((((1 : Nat) : ℝ) : ℝ) : ℂ) / N.c 2))) + ((N.r 5 : ℝ) : ℂ)))
/-- the same with spinors in place of their spins -/
noncomputable def hhhh.form (N : Env) (p : Nat → V4 ℝ) : ℂ :=
  (0 + ((((N.r 6 : ℝ) : ℂ) * (((((((1 : Nat) : ℝ) : ℝ) : ℂ) / N.c 0) + (((((1 : Nat) : ℝ) : ℝ) : ℂ) / N.c 1)) + (((((1 : Nat) : ℝ) : ℝ) : ℂ) / N.c 2))) + ((N.r 5 : ℝ) : ℂ)))
theorem hhhh.key {c : Constants} {p : Nat → V4 ℝ} {N : Env} (hc : c.Physical) (hb : Balanced p) (r5 : N.r 5 = (((((((3 : Nat) : ℝ) * c.e) * c.e) * c.MH) * c.MH) / ((((((4 : Nat) : ℝ) * c.MW) * c.MW) * c.SW) * c.SW))) (r6 : N.r 6 = (((((3 : Nat) : ℝ) * c.MH) * c.MH) * (((((((3 : Nat) : ℝ) * c.e) * c.e) * c.MH) * c.MH) / ((((((4 : Nat) : ℝ) * c.MW) * c.MW) * c.SW) * c.SW)))) (d0 : pole c.MH c.WH (plus (p 0) (p 1)) = N.c 0) (n0 : N.c 0 ≠ 0) (d1 : pole c.MH c.WH (plus (p 0) (backward (p 2))) = N.c 1) (n1 : N.c 1 ≠ 0) (d2 : pole c.MH c.WH (plus (p 0) (backward (p 3))) = N.c 2) (n2 : N.c 2 ≠ 0) (q0 : msq (p 0) = c.MH ^ 2) (q1 : msq (p 1) = c.MH ^ 2) (q2 : msq (p 2) = c.MH ^ 2) (q3 : msq (p 3) = c.MH ^ 2) (E0 E1 E2 E3 : Vec) :
    hhhh.form N p  = -(hhhh.react.bare4 c p E0 E1 E2 E3) := by
  rw [hhhh.react.bare4_parts c p (b₀ := .higgs) (b₁ := .higgs) (b₂ := .higgs) (b₃ := .higgs) rfl rfl rfl rfl, hhhh.form]
  generalize hS : msq (plus (p 0) (p 1)) = tS
  generalize hT : msq (plus (p 0) (backward (p 2))) = tT
  obtain ⟨e01, e23, e02, e13, e03, e12, hU⟩ := dots_balanced hb q0 q1 q2 q3 hS hT
  simp only [contact, seagull, gauge4, between, carriers, List.map_cons, List.map_nil, List.sum_cons, List.sum_nil, carry_massive c .z (hx := (rfl : Boson.massive .z = true)), carry_massive c .wPlus (hx := (rfl : Boson.massive .wPlus = true)), carry_massive c .wMinus (hx := (rfl : Boson.massive .wMinus = true)), carry_massless c .photon (hx := rfl)]
  simp only [toHiggs, toVector, higgs2, gauge3, Boson.anti, Constants.bosonMass, Constants.bosonWidth, reduceCtorEq, and_self, and_true, and_false, true_and, false_and, if_true, if_false, Complex.ofReal_zero, zero_smul, zero_mul, mul_zero, zero_div, neg_zero, add_zero, zero_add, sub_zero, sub_self, contract_zero, contract_zero_left, contract_smul, contract_smul_left, d0, d1, d2]
  simp only [r5, r6, Constants.invVev, ← c.mz]
  have xMW : (c.MW : ℂ) ≠ 0 := by exact_mod_cast hc.MW
  have xSW : (c.SW : ℂ) ≠ 0 := by exact_mod_cast hc.SW
  have xCW : (c.CW : ℂ) ≠ 0 := by exact_mod_cast hc.CW
  have y2 : ((√2 : ℝ) : ℂ) ≠ 0 := by exact_mod_cast (Real.sqrt_pos.2 two_pos).ne'
  have y22 : ((√2 : ℝ) : ℂ) ^ 2 = 2 := by rw [← Complex.ofReal_pow, Real.sq_sqrt two_pos.le]; norm_num
  push_cast
  generalize (tS : ℂ) = vS; generalize (tT : ℂ) = vT
  generalize N.c 0 = D0 at n0 ⊢
  generalize N.c 1 = D1 at n1 ⊢
  generalize N.c 2 = D2 at n2 ⊢
  have hZ : (c.MZ : ℂ) = c.MW / c.CW := by rw [← c.mz, Complex.ofReal_div]
  linear_combination (norm := (field_simp; first | ring1 | (ring_nf; simp only [y22]; ring1))) 
set_option maxRecDepth 8000 in
theorem hhhh.amp2_eq (N : Env) (f : Nat → List Int → ℂ) : Cls.hhhh.m_amp2.mean N f .r [] =
    ((((0 : Nat) : ℝ) + (‖(f 0 [])‖ ^ 2)) / ((2 : Nat) : ℝ)) := by rfl
set_option maxRecDepth 8000 in
theorem hhhh.value (N : Env) : meaning N .r Cls.hhhh.methods Cls.hhhh.amp2 [] =
    ((((0 : Nat) : ℝ) + (‖(Cls.hhhh.m_amp.mean N (callMean N []) .c [])‖ ^ 2)) / ((2 : Nat) : ℝ)) :=
  hhhh.amp2_eq N (callMean N [Cls.hhhh.m_amp])
set_option maxRecDepth 8000 in
theorem hhhh.amp_eq (N : Env) (f : Nat → List Int → ℂ) : Cls.hhhh.m_amp.mean N f .c [] = hhhh.term N := by rfl

theorem hhhh.mass_eq {c : Constants} (hc : c.Physical) (i : Fin 4) : hhhh.proc.massNum (hhhh.rho c) i = hhhh.react.mass c i := by
  fin_cases i <;> first | rfl | (show c.MW / √(((1 : Nat) : ℝ) - c.SW * c.SW) = c.MZ; rw [c.root, c.mz])

variable [FPEnv] in
theorem hhhh.agrees : hhhh.Agrees := by
  refine agrees_of (D := [3, 4]) (E := [4]) (by simp [all, hhhh]) (by decide +kernel) (by decide) (by decide +kernel) (fun c hc hh => ⟨List.forall_mem_cons.2 ⟨hc.MW, List.forall_mem_cons.2 ⟨hc.SW, List.forall_mem_nil _⟩⟩, List.forall_mem_cons.2 ⟨hc.SW_lt, List.forall_mem_nil _⟩⟩) (fun c hc i => hhhh.mass_eq hc i) (by decide +kernel) ?_
  intro c p u ε hc hh hw h0 hs hb hr hu
  have he : hhhh.react.ends = [] := by decide
  have ht : hhhh.react.starts = [] := by decide
  have hB : hhhh.react.bosons = [0, 1, 2, 3] := by decide
  have hM : hhhh.react.allMassive = true := by decide
  obtain ⟨f1, f2, f3⟩ := hhhh.react.regular_four he ht hB hr
  have r5 : (hhhh.N c p).r 5 = (((((((3 : Nat) : ℝ) * c.e) * c.e) * c.MH) * c.MH) / ((((((4 : Nat) : ℝ) * c.MW) * c.MW) * c.SW) * c.SW)) := rfl
  have r6 : (hhhh.N c p).r 6 = (((((3 : Nat) : ℝ) * c.MH) * c.MH) * (((((((3 : Nat) : ℝ) * c.e) * c.e) * c.MH) * c.MH) / ((((((4 : Nat) : ℝ) * c.MW) * c.MW) * c.SW) * c.SW))) := rfl
  have c0 : (hhhh.N c p).c 0 = poleDist c.MH c.WH ((VExp.add 0 1).sum p) := rfl
  rw [pole_congr (msq_s hb (plus (p 0) (p 1)) (by simp)).symm] at c0
  have d0 : pole c.MH c.WH (plus (p 0) (p 1)) = (hhhh.N c p).c 0 := by rw [c0]
  have n0 : (hhhh.N c p).c 0 ≠ 0 := by rw [← d0]; exact star_ne_zero.2 (f1 .higgs rfl rfl)
  have c1 : (hhhh.N c p).c 1 = poleDist c.MH c.WH ((VExp.sub 0 2).sum p) := rfl
  rw [pole_congr (msq_t hb (plus (p 0) (backward (p 2))) (by simp)).symm] at c1
  have d1 : pole c.MH c.WH (plus (p 0) (backward (p 2))) = (hhhh.N c p).c 1 := by rw [c1]
  have n1 : (hhhh.N c p).c 1 ≠ 0 := by rw [← d1]; exact star_ne_zero.2 (f2 .higgs rfl rfl)
  have c2 : (hhhh.N c p).c 2 = poleDist c.MH c.WH ((VExp.sub 0 3).sum p) := rfl
  rw [pole_congr (msq_u hb (plus (p 0) (backward (p 3))) (by simp)).symm] at c2
  have d2 : pole c.MH c.WH (plus (p 0) (backward (p 3))) = (hhhh.N c p).c 2 := by rw [c2]
  have n2 : (hhhh.N c p).c 2 ≠ 0 := by rw [← d2]; exact star_ne_zero.2 (f3 .higgs rfl rfl)
  have hd : hhhh.proc.divides = [(Ty.c, 0), (Ty.c, 1), (Ty.c, 2)] := by decide +kernel
  refine ⟨fun n hn => ?_, fun n hn => ?_, ?_⟩
  · simp [hd] at hn
  · simp [hd] at hn
    rcases hn with rfl | rfl | rfl
    · exact n0
    · exact n1
    · exact n2
  have st : hhhh.form (hhhh.N c p) p  = (-1) * hhhh.react.bare4 c p (hhhh.react.codeVec c p 0 0) (hhhh.react.codeVec c p 1 0) (hhhh.react.codeVec c p 2 0) (hhhh.react.codeVec c p 3 0) := by
    rw [neg_one_mul]
    exact hhhh.key hc hb r5 r6 d0 n0 d1 n1 d2 n2  (onShell_msq (hs 0)) (onShell_msq (hs 1)) (onShell_msq (hs 2)) (onShell_msq (hs 3))  (hhhh.react.codeVec c p 0 0) (hhhh.react.codeVec c p 1 0) (hhhh.react.codeVec c p 2 0) (hhhh.react.codeVec c p 3 0)
  have am : Cls.hhhh.m_amp.mean (hhhh.N c p) (callMean (hhhh.N c p) []) .c [] = (-1) * hhhh.react.bare4 c p (hhhh.react.codeVec c p 0 0) (hhhh.react.codeVec c p 1 0) (hhhh.react.codeVec c p 2 0) (hhhh.react.codeVec c p 3 0) := by
    rw [hhhh.amp_eq, ← st]
    simp only [hhhh.term, hhhh.form]
    push_cast
    ring
  show meaning (hhhh.N c p) .r Cls.hhhh.methods Cls.hhhh.amp2 [] = _
  have s0 : hhhh.react.states 0 = 1 := by decide
  have s1 : hhhh.react.states 1 = 1 := by decide
  have sy : hhhh.react.symmetry = 2 := by decide
  have p0 : hhhh.react.spins 0 = {0} := rfl
  have p1 : hhhh.react.spins 1 = {0} := rfl
  have p2 : hhhh.react.spins 2 = {0} := rfl
  have p3 : hhhh.react.spins 3 = {0} := rfl
  rw [hhhh.value, hhhh.react.squared_four he ht hB (noGluon_of hM) hs h0 (fun _ b _ hb _ => (boson_pos hc hh hb).ne') (hhhh.react.gauge_massive (massive_of hM)) (E := hhhh.react.codeVec c p) (fun n b hl => hhhh.react.codeVec_polarised hs h0 hl (massive_of hM n b hl) (fun _ => (boson_pos hc hh (massive_of hM n b hl)).ne')) hu, sum_colours, s0, s1, sy]
  simp only [bareFour_eq, sumV_sum, am, norm_mul, norm_neg, norm_one, one_mul, p0, p1, p2, p3, Finset.sum_singleton, Matrix.cons_val_zero, Matrix.cons_val_one, Matrix.cons_val]
  push_cast
  first | ring1 | ring_nf

/-! ### ZZZZ -/

/-- what the methods of the class see -/
noncomputable abbrev ZZZZ.N [FPEnv] (c : Constants) (p : Nat → V4 ℝ) : Env := ZZZZ.proc.env (ZZZZ.rho c) p
/-- the term that `amp` adds for a choice of spinors (SM/ZZZZ.cpp) -/
noncomputable def ZZZZ.term (N : Env) (w : ℝ) (x : ℂ) (a0 b0 a1 b1 a2 b2 a3 b3 : Int) : ℂ :=
  (((x + ((((((((w * N.r 8) : ℝ) : ℂ) * N.v 0 [a0, a1]) * N.v 1 [b0, b1]) * N.v 7 [a2, a3]) * N.v 6 [b2, b3]) / N.c 0)) + ((((((((w * N.r 8) : ℝ) : ℂ) * N.v 11 [a0, a2]) * N.v 10 [b0, b2]) * N.v 2 [a1, a3]) * N.v 3 [b1, b3]) / N.c 1)) + ((((((((w * N.r 8) : ℝ) : ℂ) * N.v 9 [a0, a3]) * N.v 8 [b0, b3]) * N.v 4 [a1, a2]) * N.v 5 [b1, b2]) / N.c 2))
/-- the same with spinors in place of their spins -/
noncomputable def ZZZZ.form (N : Env) (p : Nat → V4 ℝ) (x0 y0 x1 y1 x2 y2 x3 y3 : Pair) : ℂ :=
  (((0 + ((((((((((1 : Nat) : ℝ) * N.r 8) : ℝ) : ℂ) * (sb x0.2 x1.2)) * (ab y0.1 y1.1)) * (sb x2.2 x3.2)) * (ab y2.1 y3.1)) / N.c 0)) + ((((((((((1 : Nat) : ℝ) * N.r 8) : ℝ) : ℂ) * (sb x0.2 x2.2)) * (ab y0.1 y2.1)) * (sb x1.2 x3.2)) * (ab y1.1 y3.1)) / N.c 1)) + ((((((((((1 : Nat) : ℝ) * N.r 8) : ℝ) : ℂ) * (sb x0.2 x3.2)) * (ab y0.1 y3.1)) * (sb x1.2 x2.2)) * (ab y1.1 y2.1)) / N.c 2))
theorem ZZZZ.key {c : Constants} {p : Nat → V4 ℝ} {N : Env} (hc : c.Physical) (hb : Balanced p) (r8 : N.r 8 = ((c.e * c.e) / (((c.MW * c.MW) * c.SW) * c.SW))) (d0 : pole c.MH c.WH (plus (p 0) (p 1)) = N.c 0) (n0 : N.c 0 ≠ 0) (d1 : pole c.MH c.WH (plus (p 0) (backward (p 2))) = N.c 1) (n1 : N.c 1 ≠ 0) (d2 : pole c.MH c.WH (plus (p 0) (backward (p 3))) = N.c 2) (n2 : N.c 2 ≠ 0) {z0 z1 z2 z3 : Pair} (b0 : Bold (p 0) c.MZ z0) (b1 : Bold (p 1) c.MZ z1) (b2 : Bold (p 2) c.MZ z2) (b3 : Bold (p 3) c.MZ z3) (q0 : msq (p 0) = c.MZ ^ 2) (q1 : msq (p 1) = c.MZ ^ 2) (q2 : msq (p 2) = c.MZ ^ 2) (q3 : msq (p 3) = c.MZ ^ 2) :
    ZZZZ.form N p z0 z0 z1 z1 z2 z2 z3 z3 = -(((4 / (c.MZ * c.MZ * c.MZ * c.MZ) : ℝ) : ℂ) * ZZZZ.react.bare4 c p (pv z0.1 z0.2) (pv z1.1 z1.2) (pv z2.1 z2.2) (pv z3.1 z3.2)) := by
  rw [ZZZZ.react.bare4_parts c p (b₀ := .z) (b₁ := .z) (b₂ := .z) (b₃ := .z) rfl rfl rfl rfl, ZZZZ.form]
  have Y0 := b0; have Q0 := q0
  have Y1 := b1; have Q1 := q1
  have Y2 := b2.back; have Q2 : msq (backward (p 2)) = (-c.MZ) ^ 2 := by rw [msq_backward, q2, neg_sq]
  have Y3 := b3.back; have Q3 : msq (backward (p 3)) = (-c.MZ) ^ 2 := by rw [msq_backward, q3, neg_sq]
  generalize hS : msq (plus (p 0) (p 1)) = tS
  generalize hT : msq (plus (p 0) (backward (p 2))) = tT
  obtain ⟨e01, e23, e02, e13, e03, e12, hU⟩ := dots_balanced hb q0 q1 q2 q3 hS hT
  simp only [contact, seagull, gauge4, between, carriers, List.map_cons, List.map_nil, List.sum_cons, List.sum_nil, carry_massive c .z (hx := (rfl : Boson.massive .z = true)), carry_massive c .wPlus (hx := (rfl : Boson.massive .wPlus = true)), carry_massive c .wMinus (hx := (rfl : Boson.massive .wMinus = true)), carry_massless c .photon (hx := rfl)]
  simp only [toHiggs, toVector, higgs2, gauge3, Boson.anti, Constants.bosonMass, Constants.bosonWidth, reduceCtorEq, and_self, and_true, and_false, true_and, false_and, if_true, if_false, Complex.ofReal_zero, zero_smul, zero_mul, mul_zero, zero_div, neg_zero, add_zero, zero_add, sub_zero, sub_self, contract_zero, contract_zero_left, contract_smul, contract_smul_left, d0, d1, d2, four_yangMills Y0 Y1 Q0 Q1, four_yangMills Y0 Y2 Q0 Q2, four_yangMills Y0 Y3 Q0 Q3, four_yangMills Y1 Y2 Q1 Q2, four_yangMills Y1 Y3 Q1 Q3, four_yangMills Y2 Y3 Q2 Q3]
  try simp only [yangMills_pv Y0 Y1, yangMills_pv Y0 Y2, yangMills_pv Y0 Y3, yangMills_pv Y1 Y2, yangMills_pv Y1 Y3, yangMills_pv Y2 Y3, contract_add, contract_add_left, contract_smul, contract_smul_left, contract_four_four, dot_backward_left, dot_backward_right, dot_plus_left, dot_same, q0, q1, q2, q3, dot_comm (p 1) (p 0), dot_comm (p 2) (p 0), dot_comm (p 3) (p 0), dot_comm (p 2) (p 1), dot_comm (p 3) (p 1), dot_comm (p 3) (p 2), e01, e23, e02, e13, e03, e12]
  try simp only [contract_four_pv, contract_pv_four, contract_pv, mb_plus, mb_backward]
  try simp only [b0.mb_left, b0.mb_right, b1.mb_left, b1.mb_right, b2.mb_left, b2.mb_right, b3.mb_left, b3.mb_right, mb_three hb z0.2 z0.1, mb_three hb z0.2 z1.1, mb_three hb z0.2 z2.1, mb_two hb z0.2 z3.1, mb_three hb z1.2 z0.1, mb_three hb z1.2 z1.1, mb_three hb z1.2 z2.1, mb_two hb z1.2 z3.1, mb_three hb z2.2 z0.1, mb_three hb z2.2 z1.1, mb_three hb z2.2 z2.1, mb_one hb z2.2 z3.1, mb_two hb z3.2 z0.1, mb_two hb z3.2 z1.1, mb_one hb z3.2 z2.1, mb_two hb z3.2 z3.1, ab_self, sb_self]
  try simp only [ab_swap z0.1 z1.1, sb_swap z0.2 z1.2, ab_swap z0.1 z2.1, sb_swap z0.2 z2.2, ab_swap z0.1 z3.1, sb_swap z0.2 z3.2, ab_swap z1.1 z2.1, sb_swap z1.2 z2.2, ab_swap z1.1 z3.1, sb_swap z1.2 z3.2, ab_swap z2.1 z3.1, sb_swap z2.2 z3.2]
  simp only [r8, Constants.invVev, ← c.mz]
  have xMW : (c.MW : ℂ) ≠ 0 := by exact_mod_cast hc.MW
  have xSW : (c.SW : ℂ) ≠ 0 := by exact_mod_cast hc.SW
  have xCW : (c.CW : ℂ) ≠ 0 := by exact_mod_cast hc.CW
  have y2 : ((√2 : ℝ) : ℂ) ≠ 0 := by exact_mod_cast (Real.sqrt_pos.2 two_pos).ne'
  have y22 : ((√2 : ℝ) : ℂ) ^ 2 = 2 := by rw [← Complex.ofReal_pow, Real.sq_sqrt two_pos.le]; norm_num
  push_cast
  generalize ab z0.1 z1.1 = a01
  generalize ab z0.1 z2.1 = a02
  generalize ab z0.1 z3.1 = a03
  generalize ab z1.1 z2.1 = a12
  generalize ab z1.1 z3.1 = a13
  generalize ab z2.1 z3.1 = a23
  generalize mb z0.2 (p 1) z0.1 = m010
  generalize mb z0.2 (p 1) z2.1 = m012
  generalize mb z0.2 (p 1) z3.1 = m013
  generalize mb z0.2 (p 2) z0.1 = m020
  generalize mb z0.2 (p 2) z1.1 = m021
  generalize mb z1.2 (p 0) z1.1 = m101
  generalize mb z1.2 (p 0) z2.1 = m102
  generalize mb z1.2 (p 0) z3.1 = m103
  generalize mb z1.2 (p 2) z0.1 = m120
  generalize mb z1.2 (p 2) z1.1 = m121
  generalize mb z2.2 (p 0) z1.1 = m201
  generalize mb z2.2 (p 0) z2.1 = m202
  generalize mb z2.2 (p 0) z3.1 = m203
  generalize mb z2.2 (p 1) z0.1 = m210
  generalize mb z2.2 (p 1) z2.1 = m212
  generalize mb z3.2 (p 0) z1.1 = m301
  generalize mb z3.2 (p 0) z2.1 = m302
  generalize mb z3.2 (p 0) z3.1 = m303
  generalize mb z3.2 (p 1) z0.1 = m310
  generalize mb z3.2 (p 1) z3.1 = m313
  generalize sb z0.2 z1.2 = s01
  generalize sb z0.2 z2.2 = s02
  generalize sb z0.2 z3.2 = s03
  generalize sb z1.2 z2.2 = s12
  generalize sb z1.2 z3.2 = s13
  generalize sb z2.2 z3.2 = s23
  generalize (tS : ℂ) = vS; generalize (tT : ℂ) = vT
  generalize N.c 0 = D0 at n0 ⊢
  generalize N.c 1 = D1 at n1 ⊢
  generalize N.c 2 = D2 at n2 ⊢
  have hZ : (c.MZ : ℂ) = c.MW / c.CW := by rw [← c.mz, Complex.ofReal_div]
  linear_combination (norm := (field_simp; first | ring1 | (ring_nf; simp only [y22]; ring1))) 
set_option maxRecDepth 8000 in
theorem ZZZZ.amp2_eq (N : Env) (f : Nat → List Int → ℂ) : Cls.ZZZZ.m_amp2.mean N f .r [] =
    ((sumV (fun x a => (sumV (fun x b => (sumV (fun x c => (sumV (fun x d => (x + (‖(f 0 [a, b, c, d])‖ ^ 2))) x)) x)) x)) ((0 : Nat) : ℝ)) / ((18 : Nat) : ℝ)) := by rfl
set_option maxRecDepth 8000 in
theorem ZZZZ.value (N : Env) : meaning N .r Cls.ZZZZ.methods Cls.ZZZZ.amp2 [] =
    ((sumV (fun x a => (sumV (fun x b => (sumV (fun x c => (sumV (fun x d => (x + (‖(Cls.ZZZZ.m_amp.mean N (callMean N []) .c [a, b, c, d])‖ ^ 2))) x)) x)) x)) ((0 : Nat) : ℝ)) / ((18 : Nat) : ℝ)) :=
  ZZZZ.amp2_eq N (callMean N [Cls.ZZZZ.m_amp])
set_option maxRecDepth 8000 in
theorem ZZZZ.term_lin (N : Env) (w : ℝ) (x : ℂ) (a0 b0 a1 b1 a2 b2 a3 b3 : Int) : ZZZZ.term N w x a0 b0 a1 b1 a2 b2 a3 b3 = x + (w : ℂ) * ZZZZ.term N 1 0 a0 b0 a1 b1 a2 b2 a3 b3 := by
  simp only [ZZZZ.term]; push_cast; ring
theorem ZZZZ.amp_eq (N : Env) (f : Nat → List Int → ℂ) (t0 t1 t2 t3 : Fin 3) : Cls.ZZZZ.m_amp.mean N f .c [spinV t0, spinV t1, spinV t2, spinV t3] = comb t0 (fun a0 b0 => comb t1 (fun a1 b1 => comb t2 (fun a2 b2 => comb t3 (fun a3 b3 => ZZZZ.term N 1 0 (spinOf a0) (spinOf b0) (spinOf a1) (spinOf b1) (spinOf a2) (spinOf b2) (spinOf a3) (spinOf b3))))) := by
  refine (amp_mean N f (m := 4) (K := 12) (G := fun i => ZZZZ.term N 1 0 (i 4) (i 5) (i 6) (i 7) (i 8) (i 9) (i 10) (i 11)) (fun l => ?_) (fun i i' h => ?_) rfl (by decide) (by decide) (by decide) (by decide) (by decide)).trans ?_
  · refine ⟨_, rfl, rfl, rfl, Eq.trans ?_ (ZZZZ.term_lin N (l.r 0) (l.c 0) (l.i 4) (l.i 5) (l.i 6) (l.i 7) (l.i 8) (l.i 9) (l.i 10) (l.i 11))⟩
    rw [ZZZZ.term]
    with_reducible simp only [Exp.mean, madd, msub, mmul, mdiv, mneg, Env.mem]
    rfl
  · simp only [h 4 (by decide), h 5 (by decide), h 6 (by decide), h 7 (by decide), h 8 (by decide), h 9 (by decide), h 10 (by decide), h 11 (by decide)]
  · show amp' _ [spinV t0, spinV t1, spinV t2, spinV t3] = _
    simp only [amp'_comb, amp'_nil]
    rfl
theorem ZZZZ.form_x0 (N : Env) (p : Nat → V4 ℝ) (y0 x1 y1 x2 y2 x3 y3 x y : Pair) : ZZZZ.form N p (x + y) y0 x1 y1 x2 y2 x3 y3 = ZZZZ.form N p x y0 x1 y1 x2 y2 x3 y3 + ZZZZ.form N p y y0 x1 y1 x2 y2 x3 y3 := by
  simp only [ZZZZ.form, Prod.fst_add, Prod.snd_add, ab_add_left, ab_add_right, sb_add_left, sb_add_right, mb_add_left, mb_add_right]
  ring
theorem ZZZZ.form_y0 (N : Env) (p : Nat → V4 ℝ) (x0 x1 y1 x2 y2 x3 y3 x y : Pair) : ZZZZ.form N p x0 (x + y) x1 y1 x2 y2 x3 y3 = ZZZZ.form N p x0 x x1 y1 x2 y2 x3 y3 + ZZZZ.form N p x0 y x1 y1 x2 y2 x3 y3 := by
  simp only [ZZZZ.form, Prod.fst_add, Prod.snd_add, ab_add_left, ab_add_right, sb_add_left, sb_add_right, mb_add_left, mb_add_right]
  ring
theorem ZZZZ.form_x1 (N : Env) (p : Nat → V4 ℝ) (x0 y0 y1 x2 y2 x3 y3 x y : Pair) : ZZZZ.form N p x0 y0 (x + y) y1 x2 y2 x3 y3 = ZZZZ.form N p x0 y0 x y1 x2 y2 x3 y3 + ZZZZ.form N p x0 y0 y y1 x2 y2 x3 y3 := by
  simp only [ZZZZ.form, Prod.fst_add, Prod.snd_add, ab_add_left, ab_add_right, sb_add_left, sb_add_right, mb_add_left, mb_add_right]
  ring
theorem ZZZZ.form_y1 (N : Env) (p : Nat → V4 ℝ) (x0 y0 x1 x2 y2 x3 y3 x y : Pair) : ZZZZ.form N p x0 y0 x1 (x + y) x2 y2 x3 y3 = ZZZZ.form N p x0 y0 x1 x x2 y2 x3 y3 + ZZZZ.form N p x0 y0 x1 y x2 y2 x3 y3 := by
  simp only [ZZZZ.form, Prod.fst_add, Prod.snd_add, ab_add_left, ab_add_right, sb_add_left, sb_add_right, mb_add_left, mb_add_right]
  ring
theorem ZZZZ.form_x2 (N : Env) (p : Nat → V4 ℝ) (x0 y0 x1 y1 y2 x3 y3 x y : Pair) : ZZZZ.form N p x0 y0 x1 y1 (x + y) y2 x3 y3 = ZZZZ.form N p x0 y0 x1 y1 x y2 x3 y3 + ZZZZ.form N p x0 y0 x1 y1 y y2 x3 y3 := by
  simp only [ZZZZ.form, Prod.fst_add, Prod.snd_add, ab_add_left, ab_add_right, sb_add_left, sb_add_right, mb_add_left, mb_add_right]
  ring
theorem ZZZZ.form_y2 (N : Env) (p : Nat → V4 ℝ) (x0 y0 x1 y1 x2 x3 y3 x y : Pair) : ZZZZ.form N p x0 y0 x1 y1 x2 (x + y) x3 y3 = ZZZZ.form N p x0 y0 x1 y1 x2 x x3 y3 + ZZZZ.form N p x0 y0 x1 y1 x2 y x3 y3 := by
  simp only [ZZZZ.form, Prod.fst_add, Prod.snd_add, ab_add_left, ab_add_right, sb_add_left, sb_add_right, mb_add_left, mb_add_right]
  ring
theorem ZZZZ.form_x3 (N : Env) (p : Nat → V4 ℝ) (x0 y0 x1 y1 x2 y2 y3 x y : Pair) : ZZZZ.form N p x0 y0 x1 y1 x2 y2 (x + y) y3 = ZZZZ.form N p x0 y0 x1 y1 x2 y2 x y3 + ZZZZ.form N p x0 y0 x1 y1 x2 y2 y y3 := by
  simp only [ZZZZ.form, Prod.fst_add, Prod.snd_add, ab_add_left, ab_add_right, sb_add_left, sb_add_right, mb_add_left, mb_add_right]
  ring
theorem ZZZZ.form_y3 (N : Env) (p : Nat → V4 ℝ) (x0 y0 x1 y1 x2 y2 x3 x y : Pair) : ZZZZ.form N p x0 y0 x1 y1 x2 y2 x3 (x + y) = ZZZZ.form N p x0 y0 x1 y1 x2 y2 x3 x + ZZZZ.form N p x0 y0 x1 y1 x2 y2 x3 y := by
  simp only [ZZZZ.form, Prod.fst_add, Prod.snd_add, ab_add_left, ab_add_right, sb_add_left, sb_add_right, mb_add_left, mb_add_right]
  ring

theorem ZZZZ.mass_eq {c : Constants} (hc : c.Physical) (i : Fin 4) : ZZZZ.proc.massNum (ZZZZ.rho c) i = ZZZZ.react.mass c i := by
  fin_cases i <;> first | rfl | (show c.MW / √(((1 : Nat) : ℝ) - c.SW * c.SW) = c.MZ; rw [c.root, c.mz])

variable [FPEnv] in
theorem ZZZZ.agrees : ZZZZ.Agrees := by
  refine agrees_of (D := [3, 4]) (E := [4]) (by simp [all, ZZZZ]) (by decide +kernel) (by decide) (by decide +kernel) (fun c hc hh => ⟨List.forall_mem_cons.2 ⟨hc.MW, List.forall_mem_cons.2 ⟨hc.SW, List.forall_mem_nil _⟩⟩, List.forall_mem_cons.2 ⟨hc.SW_lt, List.forall_mem_nil _⟩⟩) (fun c hc i => ZZZZ.mass_eq hc i) (by decide +kernel) ?_
  intro c p u ε hc hh hw h0 hs hb hr hu
  have he : ZZZZ.react.ends = [] := by decide
  have ht : ZZZZ.react.starts = [] := by decide
  have hB : ZZZZ.react.bosons = [0, 1, 2, 3] := by decide
  have hM : ZZZZ.react.allMassive = true := by decide
  obtain ⟨f1, f2, f3⟩ := ZZZZ.react.regular_four he ht hB hr
  have r8 : (ZZZZ.N c p).r 8 = ((c.e * c.e) / (((c.MW * c.MW) * c.SW) * c.SW)) := rfl
  have c0 : (ZZZZ.N c p).c 0 = poleDist c.MH c.WH ((VExp.add 0 1).sum p) := rfl
  rw [pole_congr (msq_s hb (plus (p 0) (p 1)) (by simp)).symm] at c0
  have d0 : pole c.MH c.WH (plus (p 0) (p 1)) = (ZZZZ.N c p).c 0 := by rw [c0]
  have n0 : (ZZZZ.N c p).c 0 ≠ 0 := by rw [← d0]; exact star_ne_zero.2 (f1 .higgs rfl rfl)
  have c1 : (ZZZZ.N c p).c 1 = poleDist c.MH c.WH ((VExp.sub 0 2).sum p) := rfl
  rw [pole_congr (msq_t hb (plus (p 0) (backward (p 2))) (by simp)).symm] at c1
  have d1 : pole c.MH c.WH (plus (p 0) (backward (p 2))) = (ZZZZ.N c p).c 1 := by rw [c1]
  have n1 : (ZZZZ.N c p).c 1 ≠ 0 := by rw [← d1]; exact star_ne_zero.2 (f2 .higgs rfl rfl)
  have c2 : (ZZZZ.N c p).c 2 = poleDist c.MH c.WH ((VExp.sub 0 3).sum p) := rfl
  rw [pole_congr (msq_u hb (plus (p 0) (backward (p 3))) (by simp)).symm] at c2
  have d2 : pole c.MH c.WH (plus (p 0) (backward (p 3))) = (ZZZZ.N c p).c 2 := by rw [c2]
  have n2 : (ZZZZ.N c p).c 2 ≠ 0 := by rw [← d2]; exact star_ne_zero.2 (f3 .higgs rfl rfl)
  have m0 : ZZZZ.react.mass c 0 ≠ 0 := (leg_pos hc hh (by decide)).ne'
  have m1 : ZZZZ.react.mass c 1 ≠ 0 := (leg_pos hc hh (by decide)).ne'
  have m2 : ZZZZ.react.mass c 2 ≠ 0 := (leg_pos hc hh (by decide)).ne'
  have m3 : ZZZZ.react.mass c 3 ≠ 0 := (leg_pos hc hh (by decide)).ne'
  have hd : ZZZZ.proc.divides = [(Ty.c, 0), (Ty.c, 1), (Ty.c, 2)] := by decide +kernel
  refine ⟨fun n hn => ?_, fun n hn => ?_, ?_⟩
  · simp [hd] at hn
  · simp [hd] at hn
    rcases hn with rfl | rfl | rfl
    · exact n0
    · exact n1
    · exact n2
  have st : ∀ (t0 t1 t2 t3 : Fin 3), comb t0 (fun a0 b0 => comb t1 (fun a1 b1 => comb t2 (fun a2 b2 => comb t3 (fun a3 b3 => ZZZZ.form (ZZZZ.N c p) p (ZZZZ.react.codePair c p 0 a0) (ZZZZ.react.codePair c p 0 b0) (ZZZZ.react.codePair c p 1 a1) (ZZZZ.react.codePair c p 1 b1) (ZZZZ.react.codePair c p 2 a2) (ZZZZ.react.codePair c p 2 b2) (ZZZZ.react.codePair c p 3 a3) (ZZZZ.react.codePair c p 3 b3))))) = (-1) * ZZZZ.react.bare4 c p (ZZZZ.react.codeVec c p 0 t0) (ZZZZ.react.codeVec c p 1 t1) (ZZZZ.react.codeVec c p 2 t2) (ZZZZ.react.codeVec c p 3 t3) := by
    intro t0 t1 t2 t3
    refine four_vectors (p₀ := p 0) (m₀ := ZZZZ.react.mass c 0) (p₁ := p 1) (m₁ := ZZZZ.react.mass c 1) (p₂ := p 2) (m₂ := ZZZZ.react.mass c 2) (p₃ := p 3) (m₃ := ZZZZ.react.mass c 3) (fun s => ZZZZ.react.codePair_bold hs h0 0 s) (fun s => ZZZZ.react.codePair_bold hs h0 1 s) (fun s => ZZZZ.react.codePair_bold hs h0 2 s) (fun s => ZZZZ.react.codePair_bold hs h0 3 s) (B := fun x0 x0b x1 x1b x2 x2b x3 x3b => ZZZZ.form (ZZZZ.N c p) p x0 x0b x1 x1b x2 x2b x3 x3b) (fun _ _ _ _ _ _ _ _ _ => ?_) (fun _ _ _ _ _ _ _ _ _ => ?_) (fun _ _ _ _ _ _ _ _ _ => ?_) (fun _ _ _ _ _ _ _ _ _ => ?_) (fun _ _ _ _ _ _ _ _ _ => ?_) (fun _ _ _ _ _ _ _ _ _ => ?_) (fun _ _ _ _ _ _ _ _ _ => ?_) (fun _ _ _ _ _ _ _ _ _ => ?_) (G := fun E F G H => ZZZZ.react.bare4 c p E F G H) (fun _ _ _ => ZZZZ.react.bare4_lin₀ c p (by decide) _ _ _) (fun _ _ _ => ZZZZ.react.bare4_lin₁ c p (by decide) _ _ _) (fun _ _ _ => ZZZZ.react.bare4_lin₂ c p (by decide) _ _ _) (fun _ _ _ => ZZZZ.react.bare4_lin₃ c p (by decide) _ _ _) (-1) (fun z0 z1 z2 z3 b0 b1 b2 b3 => ?_) t0 t1 t2 t3
    · exact ZZZZ.form_x0 ..
    · exact ZZZZ.form_y0 ..
    · exact ZZZZ.form_x1 ..
    · exact ZZZZ.form_y1 ..
    · exact ZZZZ.form_x2 ..
    · exact ZZZZ.form_y2 ..
    · exact ZZZZ.form_x3 ..
    · exact ZZZZ.form_y3 ..
    · rw [neg_one_mul]; exact ZZZZ.key hc hb r8 d0 n0 d1 n1 d2 n2 b0 b1 b2 b3 (onShell_msq (hs 0)) (onShell_msq (hs 1)) (onShell_msq (hs 2)) (onShell_msq (hs 3))  
  have am : ∀ (t0 t1 t2 t3 : Fin 3), Cls.ZZZZ.m_amp.mean (ZZZZ.N c p) (callMean (ZZZZ.N c p) []) .c [spinV t0, spinV t1, spinV t2, spinV t3] = (-1) * ZZZZ.react.bare4 c p (ZZZZ.react.codeVec c p 0 t0) (ZZZZ.react.codeVec c p 1 t1) (ZZZZ.react.codeVec c p 2 t2) (ZZZZ.react.codeVec c p 3 t3) := by
    intro t0 t1 t2 t3
    rw [ZZZZ.amp_eq, ← st t0 t1 t2 t3]
    refine congrArg (comb t0) (funext fun a0 => funext fun b0 => ?_)
    refine congrArg (comb t1) (funext fun a1 => funext fun b1 => ?_)
    refine congrArg (comb t2) (funext fun a2 => funext fun b2 => ?_)
    refine congrArg (comb t3) (funext fun a3 => funext fun b3 => ?_)
    have v0x0x1 : (ZZZZ.N c p).v 0 [spinOf a0, spinOf a1] = sb (ZZZZ.react.codePair c p 0 a0).2 (ZZZZ.react.codePair c p 1 a1).2 := bra_square (p := p) (m := ZZZZ.proc.massNum (ZZZZ.rho c)) (ZZZZ.mass_eq hc 0) (ZZZZ.mass_eq hc 1) (.inl ⟨m0, rfl⟩) (.inl ⟨m1, rfl⟩)
    have v1y0y1 : (ZZZZ.N c p).v 1 [spinOf b0, spinOf b1] = ab (ZZZZ.react.codePair c p 0 b0).1 (ZZZZ.react.codePair c p 1 b1).1 := bra_angle (p := p) (m := ZZZZ.proc.massNum (ZZZZ.rho c)) (ZZZZ.mass_eq hc 0) (ZZZZ.mass_eq hc 1) (.inl ⟨m0, rfl⟩) (.inl ⟨m1, rfl⟩)
    have v7x2x3 : (ZZZZ.N c p).v 7 [spinOf a2, spinOf a3] = sb (ZZZZ.react.codePair c p 2 a2).2 (ZZZZ.react.codePair c p 3 a3).2 := bra_square (p := p) (m := ZZZZ.proc.massNum (ZZZZ.rho c)) (ZZZZ.mass_eq hc 2) (ZZZZ.mass_eq hc 3) (.inl ⟨m2, rfl⟩) (.inl ⟨m3, rfl⟩)
    have v6y2y3 : (ZZZZ.N c p).v 6 [spinOf b2, spinOf b3] = ab (ZZZZ.react.codePair c p 2 b2).1 (ZZZZ.react.codePair c p 3 b3).1 := bra_angle (p := p) (m := ZZZZ.proc.massNum (ZZZZ.rho c)) (ZZZZ.mass_eq hc 2) (ZZZZ.mass_eq hc 3) (.inl ⟨m2, rfl⟩) (.inl ⟨m3, rfl⟩)
    have v11x0x2 : (ZZZZ.N c p).v 11 [spinOf a0, spinOf a2] = sb (ZZZZ.react.codePair c p 0 a0).2 (ZZZZ.react.codePair c p 2 a2).2 := bra_square (p := p) (m := ZZZZ.proc.massNum (ZZZZ.rho c)) (ZZZZ.mass_eq hc 0) (ZZZZ.mass_eq hc 2) (.inl ⟨m0, rfl⟩) (.inl ⟨m2, rfl⟩)
    have v10y0y2 : (ZZZZ.N c p).v 10 [spinOf b0, spinOf b2] = ab (ZZZZ.react.codePair c p 0 b0).1 (ZZZZ.react.codePair c p 2 b2).1 := bra_angle (p := p) (m := ZZZZ.proc.massNum (ZZZZ.rho c)) (ZZZZ.mass_eq hc 0) (ZZZZ.mass_eq hc 2) (.inl ⟨m0, rfl⟩) (.inl ⟨m2, rfl⟩)
    have v2x1x3 : (ZZZZ.N c p).v 2 [spinOf a1, spinOf a3] = sb (ZZZZ.react.codePair c p 1 a1).2 (ZZZZ.react.codePair c p 3 a3).2 := bra_square (p := p) (m := ZZZZ.proc.massNum (ZZZZ.rho c)) (ZZZZ.mass_eq hc 1) (ZZZZ.mass_eq hc 3) (.inl ⟨m1, rfl⟩) (.inl ⟨m3, rfl⟩)
    have v3y1y3 : (ZZZZ.N c p).v 3 [spinOf b1, spinOf b3] = ab (ZZZZ.react.codePair c p 1 b1).1 (ZZZZ.react.codePair c p 3 b3).1 := bra_angle (p := p) (m := ZZZZ.proc.massNum (ZZZZ.rho c)) (ZZZZ.mass_eq hc 1) (ZZZZ.mass_eq hc 3) (.inl ⟨m1, rfl⟩) (.inl ⟨m3, rfl⟩)
    have v9x0x3 : (ZZZZ.N c p).v 9 [spinOf a0, spinOf a3] = sb (ZZZZ.react.codePair c p 0 a0).2 (ZZZZ.react.codePair c p 3 a3).2 := bra_square (p := p) (m := ZZZZ.proc.massNum (ZZZZ.rho c)) (ZZZZ.mass_eq hc 0) (ZZZZ.mass_eq hc 3) (.inl ⟨m0, rfl⟩) (.inl ⟨m3, rfl⟩)
    have v8y0y3 : (ZZZZ.N c p).v 8 [spinOf b0, spinOf b3] = ab (ZZZZ.react.codePair c p 0 b0).1 (ZZZZ.react.codePair c p 3 b3).1 := bra_angle (p := p) (m := ZZZZ.proc.massNum (ZZZZ.rho c)) (ZZZZ.mass_eq hc 0) (ZZZZ.mass_eq hc 3) (.inl ⟨m0, rfl⟩) (.inl ⟨m3, rfl⟩)
    have v4x1x2 : (ZZZZ.N c p).v 4 [spinOf a1, spinOf a2] = sb (ZZZZ.react.codePair c p 1 a1).2 (ZZZZ.react.codePair c p 2 a2).2 := bra_square (p := p) (m := ZZZZ.proc.massNum (ZZZZ.rho c)) (ZZZZ.mass_eq hc 1) (ZZZZ.mass_eq hc 2) (.inl ⟨m1, rfl⟩) (.inl ⟨m2, rfl⟩)
    have v5y1y2 : (ZZZZ.N c p).v 5 [spinOf b1, spinOf b2] = ab (ZZZZ.react.codePair c p 1 b1).1 (ZZZZ.react.codePair c p 2 b2).1 := bra_angle (p := p) (m := ZZZZ.proc.massNum (ZZZZ.rho c)) (ZZZZ.mass_eq hc 1) (ZZZZ.mass_eq hc 2) (.inl ⟨m1, rfl⟩) (.inl ⟨m2, rfl⟩)
    simp only [ZZZZ.term, ZZZZ.form, v0x0x1, v1y0y1, v7x2x3, v6y2y3, v11x0x2, v10y0y2, v2x1x3, v3y1y3, v9x0x3, v8y0y3, v4x1x2, v5y1y2]
    push_cast
    ring
  show meaning (ZZZZ.N c p) .r Cls.ZZZZ.methods Cls.ZZZZ.amp2 [] = _
  have s0 : ZZZZ.react.states 0 = 3 := by decide
  have s1 : ZZZZ.react.states 1 = 3 := by decide
  have sy : ZZZZ.react.symmetry = 2 := by decide
  have p0 : ZZZZ.react.spins 0 = Finset.univ := rfl
  have p1 : ZZZZ.react.spins 1 = Finset.univ := rfl
  have p2 : ZZZZ.react.spins 2 = Finset.univ := rfl
  have p3 : ZZZZ.react.spins 3 = Finset.univ := rfl
  rw [ZZZZ.value, ZZZZ.react.squared_four he ht hB (noGluon_of hM) hs h0 (fun _ b _ hb _ => (boson_pos hc hh hb).ne') (ZZZZ.react.gauge_massive (massive_of hM)) (E := ZZZZ.react.codeVec c p) (fun n b hl => ZZZZ.react.codeVec_polarised hs h0 hl (massive_of hM n b hl) (fun _ => (boson_pos hc hh (massive_of hM n b hl)).ne')) hu, sum_colours, s0, s1, sy]
  simp only [bareFour_eq, sumV_sum, am, norm_mul, norm_neg, norm_one, one_mul, p0, p1, p2, p3, Finset.sum_singleton, Matrix.cons_val_zero, Matrix.cons_val_one, Matrix.cons_val]
  push_cast
  first | ring1 | ring_nf

/-! ### hhZZ -/

/-- what the methods of the class see -/
noncomputable abbrev hhZZ.N [FPEnv] (c : Constants) (p : Nat → V4 ℝ) : Env := hhZZ.proc.env (hhZZ.rho c) p
/-- the term that `amp` adds for a choice of spinors (SM/hhZZ.cpp) -/
noncomputable def hhZZ.term (N : Env) (w : ℝ) (x : ℂ) (a2 b2 a3 b3 : Int) : ℂ :=
  ((((x + ((((((-w) * N.r 9) : ℝ) : ℂ) * N.v 0 [a2, a3]) * N.v 1 [b2, b3])) + ((((((w * N.r 10) : ℝ) : ℂ) * N.v 0 [a2, a3]) * N.v 1 [b2, b3]) / N.c 0)) + (((((((((((w * N.r 9) * ((2 : Nat) : ℝ)) * N.r 6) * N.r 6) : ℝ) : ℂ) * N.v 0 [a2, a3]) * N.v 1 [b2, b3]) / N.c 1) - ((((((w * N.r 9) * N.r 6) : ℝ) : ℂ) * ((N.v 0 [a2, a3] * N.v 2 [b2, b3]) + (N.v 1 [a2, a3] * N.v 3 [b3, b2]))) / N.c 1)) + ((((((w * N.r 9) : ℝ) : ℂ) * N.v 2 [a2, a3]) * N.v 3 [b3, b2]) / N.c 1))) + (((((((((((w * N.r 9) * ((2 : Nat) : ℝ)) * N.r 6) * N.r 6) : ℝ) : ℂ) * N.v 0 [a2, a3]) * N.v 1 [b2, b3]) / N.c 2) + ((((((w * N.r 9) * N.r 6) : ℝ) : ℂ) * ((N.v 0 [a2, a3] * N.v 3 [b3, b2]) + (N.v 1 [a2, a3] * N.v 2 [b2, b3]))) / N.c 2)) + ((((((w * N.r 9) : ℝ) : ℂ) * N.v 2 [a2, a3]) * N.v 3 [b3, b2]) / N.c 2)))
/-- the same with spinors in place of their spins -/
noncomputable def hhZZ.form (N : Env) (p : Nat → V4 ℝ) (x2 y2 x3 y3 : Pair) : ℂ :=
  ((((0 + ((((((-((1 : Nat) : ℝ)) * N.r 9) : ℝ) : ℂ) * (sb x2.2 x3.2)) * (ab y2.1 y3.1))) + ((((((((1 : Nat) : ℝ) * N.r 10) : ℝ) : ℂ) * (sb x2.2 x3.2)) * (ab y2.1 y3.1)) / N.c 0)) + (((((((((((((1 : Nat) : ℝ) * N.r 9) * ((2 : Nat) : ℝ)) * N.r 6) * N.r 6) : ℝ) : ℂ) * (sb x2.2 x3.2)) * (ab y2.1 y3.1)) / N.c 1) - ((((((((1 : Nat) : ℝ) * N.r 9) * N.r 6) : ℝ) : ℂ) * (((sb x2.2 x3.2) * (mb y2.2 (p 0) y3.1)) + ((ab x2.1 x3.1) * (mb y3.2 (p 0) y2.1)))) / N.c 1)) + ((((((((1 : Nat) : ℝ) * N.r 9) : ℝ) : ℂ) * (mb x2.2 (p 0) x3.1)) * (mb y3.2 (p 0) y2.1)) / N.c 1))) + (((((((((((((1 : Nat) : ℝ) * N.r 9) * ((2 : Nat) : ℝ)) * N.r 6) * N.r 6) : ℝ) : ℂ) * (sb x2.2 x3.2)) * (ab y2.1 y3.1)) / N.c 2) + ((((((((1 : Nat) : ℝ) * N.r 9) * N.r 6) : ℝ) : ℂ) * (((sb x2.2 x3.2) * (mb y3.2 (p 0) y2.1)) + ((ab x2.1 x3.1) * (mb y2.2 (p 0) y3.1)))) / N.c 2)) + ((((((((1 : Nat) : ℝ) * N.r 9) : ℝ) : ℂ) * (mb x2.2 (p 0) x3.1)) * (mb y3.2 (p 0) y2.1)) / N.c 2)))
theorem hhZZ.key {c : Constants} {p : Nat → V4 ℝ} {N : Env} (hc : c.Physical) (hb : Balanced p) (r6 : N.r 6 = (c.MW / c.CW)) (r9 : N.r 9 = ((c.e * c.e) / ((((((2 : Nat) : ℝ) * c.MW) * c.MW) * c.SW) * c.SW))) (r10 : N.r 10 = (((((3 : Nat) : ℝ) * ((c.e * c.e) / ((((((2 : Nat) : ℝ) * c.MW) * c.MW) * c.SW) * c.SW))) * c.MH) * c.MH)) (d0 : pole c.MH c.WH (plus (p 0) (p 1)) = N.c 0) (n0 : N.c 0 ≠ 0) (d1 : pole c.MZ c.WZ (plus (p 0) (backward (p 2))) = N.c 1) (n1 : N.c 1 ≠ 0) (d2 : pole c.MZ c.WZ (plus (p 0) (backward (p 3))) = N.c 2) (n2 : N.c 2 ≠ 0) {z2 z3 : Pair} (b2 : Bold (p 2) c.MZ z2) (b3 : Bold (p 3) c.MZ z3) (q0 : msq (p 0) = c.MH ^ 2) (q1 : msq (p 1) = c.MH ^ 2) (q2 : msq (p 2) = c.MZ ^ 2) (q3 : msq (p 3) = c.MZ ^ 2) (hWZ : c.WZ = 0) (E0 E1 : Vec) :
    hhZZ.form N p z2 z2 z3 z3 = -(((2 / (c.MZ * c.MZ) : ℝ) : ℂ) * hhZZ.react.bare4 c p E0 E1 (pv z2.1 z2.2) (pv z3.1 z3.2)) := by
  rw [hhZZ.react.bare4_parts c p (b₀ := .higgs) (b₁ := .higgs) (b₂ := .z) (b₃ := .z) rfl rfl rfl rfl, hhZZ.form]
  have Y2 := b2.back; have Q2 : msq (backward (p 2)) = (-c.MZ) ^ 2 := by rw [msq_backward, q2, neg_sq]
  have Y3 := b3.back; have Q3 : msq (backward (p 3)) = (-c.MZ) ^ 2 := by rw [msq_backward, q3, neg_sq]
  generalize hS : msq (plus (p 0) (p 1)) = tS
  generalize hT : msq (plus (p 0) (backward (p 2))) = tT
  obtain ⟨e01, e23, e02, e13, e03, e12, hU⟩ := dots_balanced hb q0 q1 q2 q3 hS hT
  have x1 : N.c 1 = ((tT - c.MZ ^ 2 : ℝ) : ℂ) := by rw [← d1, pole_narrow hWZ hT]
  have x2 : N.c 2 = (((c.MH ^ 2 + c.MH ^ 2 + c.MZ ^ 2 + c.MZ ^ 2 - tS - tT) - c.MZ ^ 2 : ℝ) : ℂ) := by rw [← d2, pole_narrow hWZ hU]
  have i0 := mb_det z2.2 z3.2 (p 0) z2.1 z3.1
  have i1 := mb_det z2.2 z3.2 (p 1) z2.1 z3.1
  have i2 := mb_det z2.2 z3.2 (plus (p 0) (p 1)) z2.1 z3.1
  have i3 := mb_det z2.2 z3.2 (plus (p 0) (backward (p 2))) z2.1 z3.1
  try simp only [mb_plus, mb_backward, hS, hT, hU, q0, q1, q2, q3] at i0 i1 i2 i3
  simp only [b2.mb_left, b2.mb_right, b3.mb_left, b3.mb_right, mb_three hb z2.2 z2.1, mb_one hb z2.2 z3.1, mb_one hb z3.2 z2.1, mb_two hb z3.2 z3.1, ab_self, sb_self] at i0 i1 i2 i3
  try simp only [ab_swap z2.1 z3.1, sb_swap z2.2 z3.2] at i0 i1 i2 i3
  push_cast at i0 i1 i2 i3
  simp only [contact, seagull, gauge4, between, carriers, List.map_cons, List.map_nil, List.sum_cons, List.sum_nil, carry_massive c .z (hx := (rfl : Boson.massive .z = true)), carry_massive c .wPlus (hx := (rfl : Boson.massive .wPlus = true)), carry_massive c .wMinus (hx := (rfl : Boson.massive .wMinus = true)), carry_massless c .photon (hx := rfl)]
  simp only [toHiggs, toVector, higgs2, gauge3, Boson.anti, Constants.bosonMass, Constants.bosonWidth, reduceCtorEq, and_self, and_true, and_false, true_and, false_and, if_true, if_false, Complex.ofReal_zero, zero_smul, zero_mul, mul_zero, zero_div, neg_zero, add_zero, zero_add, sub_zero, sub_self, contract_zero, contract_zero_left, contract_smul, contract_smul_left, d0, d1, d2, four_yangMills Y2 Y3 Q2 Q3]
  try simp only [contract_four_pv, contract_pv_four, contract_pv, mb_plus, mb_backward]
  try simp only [b2.mb_left, b2.mb_right, b3.mb_left, b3.mb_right, mb_three hb z2.2 z2.1, mb_one hb z2.2 z3.1, mb_one hb z3.2 z2.1, mb_two hb z3.2 z3.1, ab_self, sb_self]
  try simp only [ab_swap z2.1 z3.1, sb_swap z2.2 z3.2]
  simp only [r6, r9, r10, Constants.invVev, ← c.mz]
  have xMW : (c.MW : ℂ) ≠ 0 := by exact_mod_cast hc.MW
  have xSW : (c.SW : ℂ) ≠ 0 := by exact_mod_cast hc.SW
  have xCW : (c.CW : ℂ) ≠ 0 := by exact_mod_cast hc.CW
  have y2 : ((√2 : ℝ) : ℂ) ≠ 0 := by exact_mod_cast (Real.sqrt_pos.2 two_pos).ne'
  have y22 : ((√2 : ℝ) : ℂ) ^ 2 = 2 := by rw [← Complex.ofReal_pow, Real.sq_sqrt two_pos.le]; norm_num
  push_cast
  push_cast at x1
  push_cast at x2
  generalize ab z2.1 z3.1 = a23 at i0 i1 i2 i3 ⊢
  generalize mb z2.2 (p 0) z2.1 = m202 at i0 i1 i2 i3 ⊢
  generalize mb z2.2 (p 0) z3.1 = m203 at i0 i1 i2 i3 ⊢
  generalize mb z2.2 (p 1) z2.1 = m212 at i0 i1 i2 i3 ⊢
  generalize mb z3.2 (p 0) z2.1 = m302 at i0 i1 i2 i3 ⊢
  generalize mb z3.2 (p 0) z3.1 = m303 at i0 i1 i2 i3 ⊢
  generalize mb z3.2 (p 1) z3.1 = m313 at i0 i1 i2 i3 ⊢
  generalize sb z2.2 z3.2 = s23 at i0 i1 i2 i3 ⊢
  generalize (tS : ℂ) = vS at i0 i1 i2 i3 x1 x2 ⊢; generalize (tT : ℂ) = vT at i0 i1 i2 i3 x1 x2 ⊢
  generalize N.c 0 = D0 at n0 ⊢
  generalize N.c 1 = D1 at n1 x1 ⊢
  generalize N.c 2 = D2 at n2 x2 ⊢
  have w1 : (-1)*(c.MZ : ℂ)*m203*s23 + (-1)*(c.MZ : ℂ)*a23*m302 + m203*m302 + m202*m313 = D1 * (a23*s23) := by
    rw [x1]
    linear_combination ((-1)) * i3
  have w2 : (c.MZ : ℂ)*m302*s23 + (c.MZ : ℂ)*a23*m203 + m203*m302 + m212*m303 = D2 * (a23*s23) := by
    rw [x2]
    linear_combination ((1)) * i3 + ((1)) * i2 + ((-1)) * i0 + ((-1)) * i1
  have hZ : (c.MZ : ℂ) = c.MW / c.CW := by rw [← c.mz, Complex.ofReal_div]
  try simp only [hZ] at w1 w2
  linear_combination (norm := (field_simp; first | ring1 | (ring_nf; simp only [y22]; ring1))) ((c.e : ℂ)^2/(2*(c.MW : ℂ)^2*(c.SW : ℂ)^2)) * w1 / D1 + ((c.e : ℂ)^2/(2*(c.MW : ℂ)^2*(c.SW : ℂ)^2)) * w2 / D2
set_option maxRecDepth 8000 in
theorem hhZZ.amp2_eq (N : Env) (f : Nat → List Int → ℂ) : Cls.hhZZ.m_amp2.mean N f .r [] =
    ((sumV (fun x a => (sumV (fun x b => (x + (‖(f 0 [a, b])‖ ^ 2))) x)) ((0 : Nat) : ℝ)) / ((2 : Nat) : ℝ)) := by rfl
set_option maxRecDepth 8000 in
theorem hhZZ.value (N : Env) : meaning N .r Cls.hhZZ.methods Cls.hhZZ.amp2 [] =
    ((sumV (fun x a => (sumV (fun x b => (x + (‖(Cls.hhZZ.m_amp.mean N (callMean N []) .c [a, b])‖ ^ 2))) x)) ((0 : Nat) : ℝ)) / ((2 : Nat) : ℝ)) :=
  hhZZ.amp2_eq N (callMean N [Cls.hhZZ.m_amp])
set_option maxRecDepth 8000 in
theorem hhZZ.term_lin (N : Env) (w : ℝ) (x : ℂ) (a2 b2 a3 b3 : Int) : hhZZ.term N w x a2 b2 a3 b3 = x + (w : ℂ) * hhZZ.term N 1 0 a2 b2 a3 b3 := by
  simp only [hhZZ.term]; push_cast; ring
theorem hhZZ.amp_eq (N : Env) (f : Nat → List Int → ℂ) (t2 t3 : Fin 3) : Cls.hhZZ.m_amp.mean N f .c [spinV t2, spinV t3] = comb t2 (fun a2 b2 => comb t3 (fun a3 b3 => hhZZ.term N 1 0 (spinOf a2) (spinOf b2) (spinOf a3) (spinOf b3))) := by
  refine (amp_mean N f (m := 2) (K := 6) (G := fun i => hhZZ.term N 1 0 (i 2) (i 3) (i 4) (i 5)) (fun l => ?_) (fun i i' h => ?_) rfl (by decide) (by decide) (by decide) (by decide) (by decide)).trans ?_
  · refine ⟨_, rfl, ?_⟩; exact ⟨rfl, rfl, hhZZ.term_lin ..⟩
  · simp only [h 2 (by decide), h 3 (by decide), h 4 (by decide), h 5 (by decide)]
  · show amp' _ [spinV t2, spinV t3] = _
    simp only [amp'_comb, amp'_nil]
    rfl
theorem hhZZ.form_x2 (N : Env) (p : Nat → V4 ℝ) (y2 x3 y3 x y : Pair) : hhZZ.form N p (x + y) y2 x3 y3 = hhZZ.form N p x y2 x3 y3 + hhZZ.form N p y y2 x3 y3 := by
  simp only [hhZZ.form, Prod.fst_add, Prod.snd_add, ab_add_left, ab_add_right, sb_add_left, sb_add_right, mb_add_left, mb_add_right]
  ring
theorem hhZZ.form_y2 (N : Env) (p : Nat → V4 ℝ) (x2 x3 y3 x y : Pair) : hhZZ.form N p x2 (x + y) x3 y3 = hhZZ.form N p x2 x x3 y3 + hhZZ.form N p x2 y x3 y3 := by
  simp only [hhZZ.form, Prod.fst_add, Prod.snd_add, ab_add_left, ab_add_right, sb_add_left, sb_add_right, mb_add_left, mb_add_right]
  ring
theorem hhZZ.form_x3 (N : Env) (p : Nat → V4 ℝ) (x2 y2 y3 x y : Pair) : hhZZ.form N p x2 y2 (x + y) y3 = hhZZ.form N p x2 y2 x y3 + hhZZ.form N p x2 y2 y y3 := by
  simp only [hhZZ.form, Prod.fst_add, Prod.snd_add, ab_add_left, ab_add_right, sb_add_left, sb_add_right, mb_add_left, mb_add_right]
  ring
theorem hhZZ.form_y3 (N : Env) (p : Nat → V4 ℝ) (x2 y2 x3 x y : Pair) : hhZZ.form N p x2 y2 x3 (x + y) = hhZZ.form N p x2 y2 x3 x + hhZZ.form N p x2 y2 x3 y := by
  simp only [hhZZ.form, Prod.fst_add, Prod.snd_add, ab_add_left, ab_add_right, sb_add_left, sb_add_right, mb_add_left, mb_add_right]
  ring

theorem hhZZ.mass_eq {c : Constants} (hc : c.Physical) (i : Fin 4) : hhZZ.proc.massNum (hhZZ.rho c) i = hhZZ.react.mass c i := by
  fin_cases i <;> first | rfl | (show c.MW / √(((1 : Nat) : ℝ) - c.SW * c.SW) = c.MZ; rw [c.root, c.mz])

variable [FPEnv] in
theorem hhZZ.agrees : hhZZ.Agrees := by
  refine agrees_of (D := [3, 4]) (E := [4]) (by simp [all, hhZZ]) (by decide +kernel) (by decide) (by decide +kernel) (fun c hc hh => ⟨List.forall_mem_cons.2 ⟨hc.MW, List.forall_mem_cons.2 ⟨hc.SW, List.forall_mem_nil _⟩⟩, List.forall_mem_cons.2 ⟨hc.SW_lt, List.forall_mem_nil _⟩⟩) (fun c hc i => hhZZ.mass_eq hc i) (by decide +kernel) ?_
  intro c p u ε hc hh hw h0 hs hb hr hu
  have he : hhZZ.react.ends = [] := by decide
  have ht : hhZZ.react.starts = [] := by decide
  have hB : hhZZ.react.bosons = [0, 1, 2, 3] := by decide
  have hM : hhZZ.react.allMassive = true := by decide
  obtain ⟨f1, f2, f3⟩ := hhZZ.react.regular_four he ht hB hr
  have hWZ : c.WZ = 0 := hw .WZ (by simp [hhZZ])
  have r6 : (hhZZ.N c p).r 6 = (c.MW / √((((1 : Nat) : ℝ) - (c.SW * c.SW)))) := rfl
  simp only [c.root] at r6
  have r9 : (hhZZ.N c p).r 9 = ((c.e * c.e) / ((((((2 : Nat) : ℝ) * c.MW) * c.MW) * c.SW) * c.SW)) := rfl
  have r10 : (hhZZ.N c p).r 10 = (((((3 : Nat) : ℝ) * ((c.e * c.e) / ((((((2 : Nat) : ℝ) * c.MW) * c.MW) * c.SW) * c.SW))) * c.MH) * c.MH) := rfl
  have c0 : (hhZZ.N c p).c 0 = poleDist c.MH c.WH ((VExp.add 0 1).sum p) := rfl
  rw [pole_congr (msq_s hb (plus (p 0) (p 1)) (by simp)).symm] at c0
  have d0 : pole c.MH c.WH (plus (p 0) (p 1)) = (hhZZ.N c p).c 0 := by rw [c0]
  have n0 : (hhZZ.N c p).c 0 ≠ 0 := by rw [← d0]; exact star_ne_zero.2 (f1 .higgs rfl rfl)
  have c1 : (hhZZ.N c p).c 1 = poleDist (c.MW / √((((1 : Nat) : ℝ) - (c.SW * c.SW)))) c.WZ ((VExp.sub 0 2).sum p) := rfl
  rw [c.root, c.mz, pole_congr (msq_t hb (plus (p 0) (backward (p 2))) (by simp)).symm] at c1
  have d1 : pole c.MZ c.WZ (plus (p 0) (backward (p 2))) = (hhZZ.N c p).c 1 := by rw [c1]
  have n1 : (hhZZ.N c p).c 1 ≠ 0 := by rw [← d1]; exact star_ne_zero.2 (f2 .z rfl rfl)
  have c2 : (hhZZ.N c p).c 2 = poleDist (c.MW / √((((1 : Nat) : ℝ) - (c.SW * c.SW)))) c.WZ ((VExp.sub 0 3).sum p) := rfl
  rw [c.root, c.mz, pole_congr (msq_u hb (plus (p 0) (backward (p 3))) (by simp)).symm] at c2
  have d2 : pole c.MZ c.WZ (plus (p 0) (backward (p 3))) = (hhZZ.N c p).c 2 := by rw [c2]
  have n2 : (hhZZ.N c p).c 2 ≠ 0 := by rw [← d2]; exact star_ne_zero.2 (f3 .z rfl rfl)
  have m2 : hhZZ.react.mass c 2 ≠ 0 := (leg_pos hc hh (by decide)).ne'
  have m3 : hhZZ.react.mass c 3 ≠ 0 := (leg_pos hc hh (by decide)).ne'
  have hd : hhZZ.proc.divides = [(Ty.c, 0), (Ty.c, 1), (Ty.c, 2)] := by decide +kernel
  refine ⟨fun n hn => ?_, fun n hn => ?_, ?_⟩
  · simp [hd] at hn
  · simp [hd] at hn
    rcases hn with rfl | rfl | rfl
    · exact n0
    · exact n1
    · exact n2
  have st : ∀ (t2 t3 : Fin 3), comb t2 (fun a2 b2 => comb t3 (fun a3 b3 => hhZZ.form (hhZZ.N c p) p (hhZZ.react.codePair c p 2 a2) (hhZZ.react.codePair c p 2 b2) (hhZZ.react.codePair c p 3 a3) (hhZZ.react.codePair c p 3 b3))) = (-1) * hhZZ.react.bare4 c p (hhZZ.react.codeVec c p 0 0) (hhZZ.react.codeVec c p 1 0) (hhZZ.react.codeVec c p 2 t2) (hhZZ.react.codeVec c p 3 t3) := by
    intro t2 t3
    refine two_vectors (p := p 2) (m := hhZZ.react.mass c 2) (p' := p 3) (m' := hhZZ.react.mass c 3) (fun s => hhZZ.react.codePair_bold hs h0 2 s) (fun s => hhZZ.react.codePair_bold hs h0 3 s) (B := fun x0 x0b x1 x1b => hhZZ.form (hhZZ.N c p) p x0 x0b x1 x1b) (fun _ _ _ _ _ => ?_) (fun _ _ _ _ _ => ?_) (fun _ _ _ _ _ => ?_) (fun _ _ _ _ _ => ?_) (G := fun E F => hhZZ.react.bare4 c p (hhZZ.react.codeVec c p 0 0) (hhZZ.react.codeVec c p 1 0) E F) (fun _ => hhZZ.react.bare4_lin₂ c p (by decide) _ _ _) (fun _ => hhZZ.react.bare4_lin₃ c p (by decide) _ _ _) (-1) (fun z2 z3 b2 b3 => ?_) t2 t3
    · exact hhZZ.form_x2 ..
    · exact hhZZ.form_y2 ..
    · exact hhZZ.form_x3 ..
    · exact hhZZ.form_y3 ..
    · rw [neg_one_mul]; exact hhZZ.key hc hb r6 r9 r10 d0 n0 d1 n1 d2 n2 b2 b3 (onShell_msq (hs 0)) (onShell_msq (hs 1)) (onShell_msq (hs 2)) (onShell_msq (hs 3)) hWZ (hhZZ.react.codeVec c p 0 0) (hhZZ.react.codeVec c p 1 0)
  have am : ∀ (t2 t3 : Fin 3), Cls.hhZZ.m_amp.mean (hhZZ.N c p) (callMean (hhZZ.N c p) []) .c [spinV t2, spinV t3] = (-1) * hhZZ.react.bare4 c p (hhZZ.react.codeVec c p 0 0) (hhZZ.react.codeVec c p 1 0) (hhZZ.react.codeVec c p 2 t2) (hhZZ.react.codeVec c p 3 t3) := by
    intro t2 t3
    rw [hhZZ.amp_eq, ← st t2 t3]
    refine congrArg (comb t2) (funext fun a2 => funext fun b2 => ?_)
    refine congrArg (comb t3) (funext fun a3 => funext fun b3 => ?_)
    have v0x2x3 : (hhZZ.N c p).v 0 [spinOf a2, spinOf a3] = sb (hhZZ.react.codePair c p 2 a2).2 (hhZZ.react.codePair c p 3 a3).2 := bra_square (p := p) (m := hhZZ.proc.massNum (hhZZ.rho c)) (hhZZ.mass_eq hc 2) (hhZZ.mass_eq hc 3) (.inl ⟨m2, rfl⟩) (.inl ⟨m3, rfl⟩)
    have v1y2y3 : (hhZZ.N c p).v 1 [spinOf b2, spinOf b3] = ab (hhZZ.react.codePair c p 2 b2).1 (hhZZ.react.codePair c p 3 b3).1 := bra_angle (p := p) (m := hhZZ.proc.massNum (hhZZ.rho c)) (hhZZ.mass_eq hc 2) (hhZZ.mass_eq hc 3) (.inl ⟨m2, rfl⟩) (.inl ⟨m3, rfl⟩)
    have v2y2y3 : (hhZZ.N c p).v 2 [spinOf b2, spinOf b3] = mb (hhZZ.react.codePair c p 2 b2).2 (p 0) (hhZZ.react.codePair c p 3 b3).1 := bra_mid_square (p := p) (m := hhZZ.proc.massNum (hhZZ.rho c)) (hhZZ.mass_eq hc 2) (hhZZ.mass_eq hc 3) (.inl ⟨m2, rfl⟩) (.inl ⟨m3, rfl⟩)
    have v1x2x3 : (hhZZ.N c p).v 1 [spinOf a2, spinOf a3] = ab (hhZZ.react.codePair c p 2 a2).1 (hhZZ.react.codePair c p 3 a3).1 := bra_angle (p := p) (m := hhZZ.proc.massNum (hhZZ.rho c)) (hhZZ.mass_eq hc 2) (hhZZ.mass_eq hc 3) (.inl ⟨m2, rfl⟩) (.inl ⟨m3, rfl⟩)
    have v3y3y2 : (hhZZ.N c p).v 3 [spinOf b3, spinOf b2] = mb (hhZZ.react.codePair c p 3 b3).2 (p 0) (hhZZ.react.codePair c p 2 b2).1 := bra_mid_square (p := p) (m := hhZZ.proc.massNum (hhZZ.rho c)) (hhZZ.mass_eq hc 3) (hhZZ.mass_eq hc 2) (.inl ⟨m3, rfl⟩) (.inl ⟨m2, rfl⟩)
    have v2x2x3 : (hhZZ.N c p).v 2 [spinOf a2, spinOf a3] = mb (hhZZ.react.codePair c p 2 a2).2 (p 0) (hhZZ.react.codePair c p 3 a3).1 := bra_mid_square (p := p) (m := hhZZ.proc.massNum (hhZZ.rho c)) (hhZZ.mass_eq hc 2) (hhZZ.mass_eq hc 3) (.inl ⟨m2, rfl⟩) (.inl ⟨m3, rfl⟩)
    simp only [hhZZ.term, hhZZ.form, v0x2x3, v1y2y3, v2y2y3, v1x2x3, v3y3y2, v2x2x3]
    push_cast
    ring
  show meaning (hhZZ.N c p) .r Cls.hhZZ.methods Cls.hhZZ.amp2 [] = _
  have s0 : hhZZ.react.states 0 = 1 := by decide
  have s1 : hhZZ.react.states 1 = 1 := by decide
  have sy : hhZZ.react.symmetry = 2 := by decide
  have p0 : hhZZ.react.spins 0 = {0} := rfl
  have p1 : hhZZ.react.spins 1 = {0} := rfl
  have p2 : hhZZ.react.spins 2 = Finset.univ := rfl
  have p3 : hhZZ.react.spins 3 = Finset.univ := rfl
  rw [hhZZ.value, hhZZ.react.squared_four he ht hB (noGluon_of hM) hs h0 (fun _ b _ hb _ => (boson_pos hc hh hb).ne') (hhZZ.react.gauge_massive (massive_of hM)) (E := hhZZ.react.codeVec c p) (fun n b hl => hhZZ.react.codeVec_polarised hs h0 hl (massive_of hM n b hl) (fun _ => (boson_pos hc hh (massive_of hM n b hl)).ne')) hu, sum_colours, s0, s1, sy]
  simp only [bareFour_eq, sumV_sum, am, norm_mul, norm_neg, norm_one, one_mul, p0, p1, p2, p3, Finset.sum_singleton, Matrix.cons_val_zero, Matrix.cons_val_one, Matrix.cons_val]
  push_cast
  first | ring1 | ring_nf

/-! ### hZZh -/

/-- what the methods of the class see -/
noncomputable abbrev hZZh.N [FPEnv] (c : Constants) (p : Nat → V4 ℝ) : Env := hZZh.proc.env (hZZh.rho c) p
/-- the term that `amp` adds for a choice of spinors (SM/hZZh.cpp) -/
noncomputable def hZZh.term (N : Env) (w : ℝ) (x : ℂ) (a1 b1 a2 b2 : Int) : ℂ :=
  ((((x + (((((w * N.r 9) : ℝ) : ℂ) * N.v 0 [a1, a2]) * N.v 1 [b1, b2])) + (((((((-w) * N.r 10) : ℝ) : ℂ) * N.v 0 [a1, a2]) * N.v 1 [b1, b2]) / N.c 2)) + ((((((((((((-w) * N.r 9) * ((2 : Nat) : ℝ)) * N.r 6) * N.r 6) : ℝ) : ℂ) * N.v 0 [a1, a2]) * N.v 1 [b1, b2]) / N.c 1) - ((((((w * N.r 9) * N.r 6) : ℝ) : ℂ) * ((N.v 0 [a1, a2] * N.v 2 [b2, b1]) + (N.v 1 [a1, a2] * N.v 3 [b1, b2]))) / N.c 1)) - ((((((w * N.r 9) : ℝ) : ℂ) * N.v 2 [a2, a1]) * N.v 3 [b1, b2]) / N.c 1))) + ((((((((((((-w) * N.r 9) * ((2 : Nat) : ℝ)) * N.r 6) * N.r 6) : ℝ) : ℂ) * N.v 0 [a1, a2]) * N.v 1 [b1, b2]) / N.c 0) - ((((((w * N.r 9) * N.r 6) : ℝ) : ℂ) * ((N.v 0 [a1, a2] * N.v 3 [b1, b2]) + (N.v 1 [a1, a2] * N.v 2 [b2, b1]))) / N.c 0)) - ((((((w * N.r 9) : ℝ) : ℂ) * N.v 2 [a2, a1]) * N.v 3 [b1, b2]) / N.c 0)))
/-- the same with spinors in place of their spins -/
noncomputable def hZZh.form (N : Env) (p : Nat → V4 ℝ) (x1 y1 x2 y2 : Pair) : ℂ :=
  ((((0 + (((((((1 : Nat) : ℝ) * N.r 9) : ℝ) : ℂ) * (sb x1.2 x2.2)) * (ab y1.1 y2.1))) + (((((((-((1 : Nat) : ℝ)) * N.r 10) : ℝ) : ℂ) * (sb x1.2 x2.2)) * (ab y1.1 y2.1)) / N.c 2)) + ((((((((((((-((1 : Nat) : ℝ)) * N.r 9) * ((2 : Nat) : ℝ)) * N.r 6) * N.r 6) : ℝ) : ℂ) * (sb x1.2 x2.2)) * (ab y1.1 y2.1)) / N.c 1) - ((((((((1 : Nat) : ℝ) * N.r 9) * N.r 6) : ℝ) : ℂ) * (((sb x1.2 x2.2) * (mb y2.2 (p 0) y1.1)) + ((ab x1.1 x2.1) * (mb y1.2 (p 0) y2.1)))) / N.c 1)) - ((((((((1 : Nat) : ℝ) * N.r 9) : ℝ) : ℂ) * (mb x2.2 (p 0) x1.1)) * (mb y1.2 (p 0) y2.1)) / N.c 1))) + ((((((((((((-((1 : Nat) : ℝ)) * N.r 9) * ((2 : Nat) : ℝ)) * N.r 6) * N.r 6) : ℝ) : ℂ) * (sb x1.2 x2.2)) * (ab y1.1 y2.1)) / N.c 0) - ((((((((1 : Nat) : ℝ) * N.r 9) * N.r 6) : ℝ) : ℂ) * (((sb x1.2 x2.2) * (mb y1.2 (p 0) y2.1)) + ((ab x1.1 x2.1) * (mb y2.2 (p 0) y1.1)))) / N.c 0)) - ((((((((1 : Nat) : ℝ) * N.r 9) : ℝ) : ℂ) * (mb x2.2 (p 0) x1.1)) * (mb y1.2 (p 0) y2.1)) / N.c 0)))
theorem hZZh.key {c : Constants} {p : Nat → V4 ℝ} {N : Env} (hc : c.Physical) (hb : Balanced p) (r6 : N.r 6 = (c.MW / c.CW)) (r9 : N.r 9 = (((((2 : Nat) : ℝ) * c.e) * c.e) / ((((((4 : Nat) : ℝ) * c.MW) * c.MW) * c.SW) * c.SW))) (r10 : N.r 10 = (((((3 : Nat) : ℝ) * (((((2 : Nat) : ℝ) * c.e) * c.e) / ((((((4 : Nat) : ℝ) * c.MW) * c.MW) * c.SW) * c.SW))) * c.MH) * c.MH)) (d0 : pole c.MZ c.WZ (plus (p 0) (p 1)) = N.c 0) (n0 : N.c 0 ≠ 0) (d1 : pole c.MZ c.WZ (plus (p 0) (backward (p 2))) = N.c 1) (n1 : N.c 1 ≠ 0) (d2 : pole c.MH c.WH (plus (p 0) (backward (p 3))) = N.c 2) (n2 : N.c 2 ≠ 0) {z1 z2 : Pair} (b1 : Bold (p 1) c.MZ z1) (b2 : Bold (p 2) c.MZ z2) (q0 : msq (p 0) = c.MH ^ 2) (q1 : msq (p 1) = c.MZ ^ 2) (q2 : msq (p 2) = c.MZ ^ 2) (q3 : msq (p 3) = c.MH ^ 2) (hWZ : c.WZ = 0) (E0 E3 : Vec) :
    hZZh.form N p z1 z1 z2 z2 = ((2 / (c.MZ * c.MZ) : ℝ) : ℂ) * hZZh.react.bare4 c p E0 (pv z1.1 z1.2) (pv z2.1 z2.2) E3 := by
  rw [hZZh.react.bare4_parts c p (b₀ := .higgs) (b₁ := .z) (b₂ := .z) (b₃ := .higgs) rfl rfl rfl rfl, hZZh.form]
  have Y1 := b1; have Q1 := q1
  have Y2 := b2.back; have Q2 : msq (backward (p 2)) = (-c.MZ) ^ 2 := by rw [msq_backward, q2, neg_sq]
  generalize hS : msq (plus (p 0) (p 1)) = tS
  generalize hT : msq (plus (p 0) (backward (p 2))) = tT
  obtain ⟨e01, e23, e02, e13, e03, e12, hU⟩ := dots_balanced hb q0 q1 q2 q3 hS hT
  have x0 : N.c 0 = ((tS - c.MZ ^ 2 : ℝ) : ℂ) := by rw [← d0, pole_narrow hWZ hS]
  have x1 : N.c 1 = ((tT - c.MZ ^ 2 : ℝ) : ℂ) := by rw [← d1, pole_narrow hWZ hT]
  have i0 := mb_det z1.2 z2.2 (plus (p 0) (p 1)) z1.1 z2.1
  have i1 := mb_det z1.2 z2.2 (plus (p 0) (backward (p 2))) z1.1 z2.1
  try simp only [mb_plus, mb_backward, hS, hT, hU, q0, q1, q2, q3] at i0 i1
  simp only [b1.mb_left, b1.mb_right, b2.mb_left, b2.mb_right, mb_three hb z1.2 z1.1, mb_three hb z1.2 z2.1, mb_three hb z2.2 z1.1, mb_three hb z2.2 z2.1, ab_self, sb_self] at i0 i1
  try simp only [ab_swap z1.1 z2.1, sb_swap z1.2 z2.2] at i0 i1
  push_cast at i0 i1
  simp only [contact, seagull, gauge4, between, carriers, List.map_cons, List.map_nil, List.sum_cons, List.sum_nil, carry_massive c .z (hx := (rfl : Boson.massive .z = true)), carry_massive c .wPlus (hx := (rfl : Boson.massive .wPlus = true)), carry_massive c .wMinus (hx := (rfl : Boson.massive .wMinus = true)), carry_massless c .photon (hx := rfl)]
  simp only [toHiggs, toVector, higgs2, gauge3, Boson.anti, Constants.bosonMass, Constants.bosonWidth, reduceCtorEq, and_self, and_true, and_false, true_and, false_and, if_true, if_false, Complex.ofReal_zero, zero_smul, zero_mul, mul_zero, zero_div, neg_zero, add_zero, zero_add, sub_zero, sub_self, contract_zero, contract_zero_left, contract_smul, contract_smul_left, d0, d1, d2, four_yangMills Y1 Y2 Q1 Q2]
  try simp only [contract_four_pv, contract_pv_four, contract_pv, mb_plus, mb_backward]
  try simp only [b1.mb_left, b1.mb_right, b2.mb_left, b2.mb_right, mb_three hb z1.2 z1.1, mb_three hb z1.2 z2.1, mb_three hb z2.2 z1.1, mb_three hb z2.2 z2.1, ab_self, sb_self]
  try simp only [ab_swap z1.1 z2.1, sb_swap z1.2 z2.2]
  simp only [r6, r9, r10, Constants.invVev, ← c.mz]
  have xMW : (c.MW : ℂ) ≠ 0 := by exact_mod_cast hc.MW
  have xSW : (c.SW : ℂ) ≠ 0 := by exact_mod_cast hc.SW
  have xCW : (c.CW : ℂ) ≠ 0 := by exact_mod_cast hc.CW
  have y2 : ((√2 : ℝ) : ℂ) ≠ 0 := by exact_mod_cast (Real.sqrt_pos.2 two_pos).ne'
  have y22 : ((√2 : ℝ) : ℂ) ^ 2 = 2 := by rw [← Complex.ofReal_pow, Real.sq_sqrt two_pos.le]; norm_num
  push_cast
  push_cast at x0
  push_cast at x1
  generalize ab z1.1 z2.1 = a12 at i0 i1 ⊢
  generalize mb z1.2 (p 0) z1.1 = m101 at i0 i1 ⊢
  generalize mb z1.2 (p 0) z2.1 = m102 at i0 i1 ⊢
  generalize mb z1.2 (p 2) z1.1 = m121 at i0 i1 ⊢
  generalize mb z2.2 (p 0) z1.1 = m201 at i0 i1 ⊢
  generalize mb z2.2 (p 0) z2.1 = m202 at i0 i1 ⊢
  generalize mb z2.2 (p 1) z2.1 = m212 at i0 i1 ⊢
  generalize sb z1.2 z2.2 = s12 at i0 i1 ⊢
  generalize (tS : ℂ) = vS at i0 i1 x0 x1 ⊢; generalize (tT : ℂ) = vT at i0 i1 x0 x1 ⊢
  generalize N.c 0 = D0 at n0 x0 ⊢
  generalize N.c 1 = D1 at n1 x1 ⊢
  generalize N.c 2 = D2 at n2 ⊢
  have w1 : (-1)*(c.MZ : ℂ)*m201*s12 + (-1)*(c.MZ : ℂ)*a12*m102 + (-1)*m102*m201 + m101*m202 + (-1)*m121*m202 = D1 * ((-1)*a12*s12) := by
    rw [x1]
    linear_combination ((1)) * i1
  have w0 : (-1)*(c.MZ : ℂ)*m102*s12 + (-1)*(c.MZ : ℂ)*a12*m201 + (-1)*m102*m201 + m101*m202 + m101*m212 = D0 * ((-1)*a12*s12) := by
    rw [x0]
    linear_combination ((1)) * i0
  have hZ : (c.MZ : ℂ) = c.MW / c.CW := by rw [← c.mz, Complex.ofReal_div]
  try simp only [hZ] at w1 w0
  linear_combination (norm := (field_simp; first | ring1 | (ring_nf; simp only [y22]; ring1))) ((c.e : ℂ)^2/(2*(c.MW : ℂ)^2*(c.SW : ℂ)^2)) * w1 / D1 + ((c.e : ℂ)^2/(2*(c.MW : ℂ)^2*(c.SW : ℂ)^2)) * w0 / D0
set_option maxRecDepth 8000 in
theorem hZZh.amp2_eq (N : Env) (f : Nat → List Int → ℂ) : Cls.hZZh.m_amp2.mean N f .r [] =
    ((sumV (fun x a => (sumV (fun x b => (x + (‖(f 0 [a, b])‖ ^ 2))) x)) ((0 : Nat) : ℝ)) / ((3 : Nat) : ℝ)) := by rfl
set_option maxRecDepth 8000 in
theorem hZZh.value (N : Env) : meaning N .r Cls.hZZh.methods Cls.hZZh.amp2 [] =
    ((sumV (fun x a => (sumV (fun x b => (x + (‖(Cls.hZZh.m_amp.mean N (callMean N []) .c [a, b])‖ ^ 2))) x)) ((0 : Nat) : ℝ)) / ((3 : Nat) : ℝ)) :=
  hZZh.amp2_eq N (callMean N [Cls.hZZh.m_amp])
set_option maxRecDepth 8000 in
theorem hZZh.term_lin (N : Env) (w : ℝ) (x : ℂ) (a1 b1 a2 b2 : Int) : hZZh.term N w x a1 b1 a2 b2 = x + (w : ℂ) * hZZh.term N 1 0 a1 b1 a2 b2 := by
  simp only [hZZh.term]; push_cast; ring
theorem hZZh.amp_eq (N : Env) (f : Nat → List Int → ℂ) (t1 t2 : Fin 3) : Cls.hZZh.m_amp.mean N f .c [spinV t1, spinV t2] = comb t2 (fun a2 b2 => comb t1 (fun a1 b1 => hZZh.term N 1 0 (spinOf a1) (spinOf b1) (spinOf a2) (spinOf b2))) := by
  refine (amp_mean N f (m := 2) (K := 6) (G := fun i => hZZh.term N 1 0 (i 4) (i 5) (i 2) (i 3)) (fun l => ?_) (fun i i' h => ?_) rfl (by decide) (by decide) (by decide) (by decide) (by decide)).trans ?_
  · refine ⟨_, rfl, ?_⟩; exact ⟨rfl, rfl, hZZh.term_lin ..⟩
  · simp only [h 4 (by decide), h 5 (by decide), h 2 (by decide), h 3 (by decide)]
  · show amp' _ [spinV t2, spinV t1] = _
    simp only [amp'_comb, amp'_nil]
    rfl
theorem hZZh.form_x1 (N : Env) (p : Nat → V4 ℝ) (y1 x2 y2 x y : Pair) : hZZh.form N p (x + y) y1 x2 y2 = hZZh.form N p x y1 x2 y2 + hZZh.form N p y y1 x2 y2 := by
  simp only [hZZh.form, Prod.fst_add, Prod.snd_add, ab_add_left, ab_add_right, sb_add_left, sb_add_right, mb_add_left, mb_add_right]
  ring
theorem hZZh.form_y1 (N : Env) (p : Nat → V4 ℝ) (x1 x2 y2 x y : Pair) : hZZh.form N p x1 (x + y) x2 y2 = hZZh.form N p x1 x x2 y2 + hZZh.form N p x1 y x2 y2 := by
  simp only [hZZh.form, Prod.fst_add, Prod.snd_add, ab_add_left, ab_add_right, sb_add_left, sb_add_right, mb_add_left, mb_add_right]
  ring
theorem hZZh.form_x2 (N : Env) (p : Nat → V4 ℝ) (x1 y1 y2 x y : Pair) : hZZh.form N p x1 y1 (x + y) y2 = hZZh.form N p x1 y1 x y2 + hZZh.form N p x1 y1 y y2 := by
  simp only [hZZh.form, Prod.fst_add, Prod.snd_add, ab_add_left, ab_add_right, sb_add_left, sb_add_right, mb_add_left, mb_add_right]
  ring
theorem hZZh.form_y2 (N : Env) (p : Nat → V4 ℝ) (x1 y1 x2 x y : Pair) : hZZh.form N p x1 y1 x2 (x + y) = hZZh.form N p x1 y1 x2 x + hZZh.form N p x1 y1 x2 y := by
  simp only [hZZh.form, Prod.fst_add, Prod.snd_add, ab_add_left, ab_add_right, sb_add_left, sb_add_right, mb_add_left, mb_add_right]
  ring

theorem hZZh.mass_eq {c : Constants} (hc : c.Physical) (i : Fin 4) : hZZh.proc.massNum (hZZh.rho c) i = hZZh.react.mass c i := by
  fin_cases i <;> first | rfl | (show c.MW / √(((1 : Nat) : ℝ) - c.SW * c.SW) = c.MZ; rw [c.root, c.mz])

variable [FPEnv] in
theorem hZZh.agrees : hZZh.Agrees := by
  refine agrees_of (D := [3, 4]) (E := [4]) (by simp [all, hZZh]) (by decide +kernel) (by decide) (by decide +kernel) (fun c hc hh => ⟨List.forall_mem_cons.2 ⟨hc.MW, List.forall_mem_cons.2 ⟨hc.SW, List.forall_mem_nil _⟩⟩, List.forall_mem_cons.2 ⟨hc.SW_lt, List.forall_mem_nil _⟩⟩) (fun c hc i => hZZh.mass_eq hc i) (by decide +kernel) ?_
  intro c p u ε hc hh hw h0 hs hb hr hu
  have he : hZZh.react.ends = [] := by decide
  have ht : hZZh.react.starts = [] := by decide
  have hB : hZZh.react.bosons = [0, 1, 2, 3] := by decide
  have hM : hZZh.react.allMassive = true := by decide
  obtain ⟨f1, f2, f3⟩ := hZZh.react.regular_four he ht hB hr
  have hWZ : c.WZ = 0 := hw .WZ (by simp [hZZh])
  have r6 : (hZZh.N c p).r 6 = (c.MW / √((((1 : Nat) : ℝ) - (c.SW * c.SW)))) := rfl
  simp only [c.root] at r6
  have r9 : (hZZh.N c p).r 9 = (((((2 : Nat) : ℝ) * c.e) * c.e) / ((((((4 : Nat) : ℝ) * c.MW) * c.MW) * c.SW) * c.SW)) := rfl
  have r10 : (hZZh.N c p).r 10 = (((((3 : Nat) : ℝ) * (((((2 : Nat) : ℝ) * c.e) * c.e) / ((((((4 : Nat) : ℝ) * c.MW) * c.MW) * c.SW) * c.SW))) * c.MH) * c.MH) := rfl
  have c0 : (hZZh.N c p).c 0 = poleDist (c.MW / √((((1 : Nat) : ℝ) - (c.SW * c.SW)))) c.WZ ((VExp.add 0 1).sum p) := rfl
  rw [c.root, c.mz, pole_congr (msq_s hb (plus (p 0) (p 1)) (by simp)).symm] at c0
  have d0 : pole c.MZ c.WZ (plus (p 0) (p 1)) = (hZZh.N c p).c 0 := by rw [c0]
  have n0 : (hZZh.N c p).c 0 ≠ 0 := by rw [← d0]; exact star_ne_zero.2 (f1 .z rfl rfl)
  have c1 : (hZZh.N c p).c 1 = poleDist (c.MW / √((((1 : Nat) : ℝ) - (c.SW * c.SW)))) c.WZ ((VExp.sub 0 2).sum p) := rfl
  rw [c.root, c.mz, pole_congr (msq_t hb (plus (p 0) (backward (p 2))) (by simp)).symm] at c1
  have d1 : pole c.MZ c.WZ (plus (p 0) (backward (p 2))) = (hZZh.N c p).c 1 := by rw [c1]
  have n1 : (hZZh.N c p).c 1 ≠ 0 := by rw [← d1]; exact star_ne_zero.2 (f2 .z rfl rfl)
  have c2 : (hZZh.N c p).c 2 = poleDist c.MH c.WH ((VExp.sub 0 3).sum p) := rfl
  rw [pole_congr (msq_u hb (plus (p 0) (backward (p 3))) (by simp)).symm] at c2
  have d2 : pole c.MH c.WH (plus (p 0) (backward (p 3))) = (hZZh.N c p).c 2 := by rw [c2]
  have n2 : (hZZh.N c p).c 2 ≠ 0 := by rw [← d2]; exact star_ne_zero.2 (f3 .higgs rfl rfl)
  have m1 : hZZh.react.mass c 1 ≠ 0 := (leg_pos hc hh (by decide)).ne'
  have m2 : hZZh.react.mass c 2 ≠ 0 := (leg_pos hc hh (by decide)).ne'
  have hd : hZZh.proc.divides = [(Ty.c, 2), (Ty.c, 1), (Ty.c, 0)] := by decide +kernel
  refine ⟨fun n hn => ?_, fun n hn => ?_, ?_⟩
  · simp [hd] at hn
  · simp [hd] at hn
    rcases hn with rfl | rfl | rfl
    · exact n2
    · exact n1
    · exact n0
  have st : ∀ (t1 t2 : Fin 3), comb t2 (fun a2 b2 => comb t1 (fun a1 b1 => hZZh.form (hZZh.N c p) p (hZZh.react.codePair c p 1 a1) (hZZh.react.codePair c p 1 b1) (hZZh.react.codePair c p 2 a2) (hZZh.react.codePair c p 2 b2))) = 1 * hZZh.react.bare4 c p (hZZh.react.codeVec c p 0 0) (hZZh.react.codeVec c p 1 t1) (hZZh.react.codeVec c p 2 t2) (hZZh.react.codeVec c p 3 0) := by
    intro t1 t2
    refine two_vectors (p := p 2) (m := hZZh.react.mass c 2) (p' := p 1) (m' := hZZh.react.mass c 1) (fun s => hZZh.react.codePair_bold hs h0 2 s) (fun s => hZZh.react.codePair_bold hs h0 1 s) (B := fun x0 x0b x1 x1b => hZZh.form (hZZh.N c p) p x1 x1b x0 x0b) (fun _ _ _ _ _ => ?_) (fun _ _ _ _ _ => ?_) (fun _ _ _ _ _ => ?_) (fun _ _ _ _ _ => ?_) (G := fun E F => hZZh.react.bare4 c p (hZZh.react.codeVec c p 0 0) F E (hZZh.react.codeVec c p 3 0)) (fun _ => hZZh.react.bare4_lin₂ c p (by decide) _ _ _) (fun _ => hZZh.react.bare4_lin₁ c p (by decide) _ _ _) 1 (fun z2 z1 b2 b1 => ?_) t2 t1
    · exact hZZh.form_x2 ..
    · exact hZZh.form_y2 ..
    · exact hZZh.form_x1 ..
    · exact hZZh.form_y1 ..
    · rw [one_mul]; exact hZZh.key hc hb r6 r9 r10 d0 n0 d1 n1 d2 n2 b1 b2 (onShell_msq (hs 0)) (onShell_msq (hs 1)) (onShell_msq (hs 2)) (onShell_msq (hs 3)) hWZ (hZZh.react.codeVec c p 0 0) (hZZh.react.codeVec c p 3 0)
  have am : ∀ (t1 t2 : Fin 3), Cls.hZZh.m_amp.mean (hZZh.N c p) (callMean (hZZh.N c p) []) .c [spinV t1, spinV t2] = 1 * hZZh.react.bare4 c p (hZZh.react.codeVec c p 0 0) (hZZh.react.codeVec c p 1 t1) (hZZh.react.codeVec c p 2 t2) (hZZh.react.codeVec c p 3 0) := by
    intro t1 t2
    rw [hZZh.amp_eq, ← st t1 t2]
    refine congrArg (comb t2) (funext fun a2 => funext fun b2 => ?_)
    refine congrArg (comb t1) (funext fun a1 => funext fun b1 => ?_)
    have v0x1x2 : (hZZh.N c p).v 0 [spinOf a1, spinOf a2] = sb (hZZh.react.codePair c p 1 a1).2 (hZZh.react.codePair c p 2 a2).2 := bra_square (p := p) (m := hZZh.proc.massNum (hZZh.rho c)) (hZZh.mass_eq hc 1) (hZZh.mass_eq hc 2) (.inl ⟨m1, rfl⟩) (.inl ⟨m2, rfl⟩)
    have v1y1y2 : (hZZh.N c p).v 1 [spinOf b1, spinOf b2] = ab (hZZh.react.codePair c p 1 b1).1 (hZZh.react.codePair c p 2 b2).1 := bra_angle (p := p) (m := hZZh.proc.massNum (hZZh.rho c)) (hZZh.mass_eq hc 1) (hZZh.mass_eq hc 2) (.inl ⟨m1, rfl⟩) (.inl ⟨m2, rfl⟩)
    have v2y2y1 : (hZZh.N c p).v 2 [spinOf b2, spinOf b1] = mb (hZZh.react.codePair c p 2 b2).2 (p 0) (hZZh.react.codePair c p 1 b1).1 := bra_mid_square (p := p) (m := hZZh.proc.massNum (hZZh.rho c)) (hZZh.mass_eq hc 2) (hZZh.mass_eq hc 1) (.inl ⟨m2, rfl⟩) (.inl ⟨m1, rfl⟩)
    have v1x1x2 : (hZZh.N c p).v 1 [spinOf a1, spinOf a2] = ab (hZZh.react.codePair c p 1 a1).1 (hZZh.react.codePair c p 2 a2).1 := bra_angle (p := p) (m := hZZh.proc.massNum (hZZh.rho c)) (hZZh.mass_eq hc 1) (hZZh.mass_eq hc 2) (.inl ⟨m1, rfl⟩) (.inl ⟨m2, rfl⟩)
    have v3y1y2 : (hZZh.N c p).v 3 [spinOf b1, spinOf b2] = mb (hZZh.react.codePair c p 1 b1).2 (p 0) (hZZh.react.codePair c p 2 b2).1 := bra_mid_square (p := p) (m := hZZh.proc.massNum (hZZh.rho c)) (hZZh.mass_eq hc 1) (hZZh.mass_eq hc 2) (.inl ⟨m1, rfl⟩) (.inl ⟨m2, rfl⟩)
    have v2x2x1 : (hZZh.N c p).v 2 [spinOf a2, spinOf a1] = mb (hZZh.react.codePair c p 2 a2).2 (p 0) (hZZh.react.codePair c p 1 a1).1 := bra_mid_square (p := p) (m := hZZh.proc.massNum (hZZh.rho c)) (hZZh.mass_eq hc 2) (hZZh.mass_eq hc 1) (.inl ⟨m2, rfl⟩) (.inl ⟨m1, rfl⟩)
    simp only [hZZh.term, hZZh.form, v0x1x2, v1y1y2, v2y2y1, v1x1x2, v3y1y2, v2x2x1]
    push_cast
    ring
  show meaning (hZZh.N c p) .r Cls.hZZh.methods Cls.hZZh.amp2 [] = _
  have s0 : hZZh.react.states 0 = 1 := by decide
  have s1 : hZZh.react.states 1 = 3 := by decide
  have sy : hZZh.react.symmetry = 1 := by decide
  have p0 : hZZh.react.spins 0 = {0} := rfl
  have p1 : hZZh.react.spins 1 = Finset.univ := rfl
  have p2 : hZZh.react.spins 2 = Finset.univ := rfl
  have p3 : hZZh.react.spins 3 = {0} := rfl
  rw [hZZh.value, hZZh.react.squared_four he ht hB (noGluon_of hM) hs h0 (fun _ b _ hb _ => (boson_pos hc hh hb).ne') (hZZh.react.gauge_massive (massive_of hM)) (E := hZZh.react.codeVec c p) (fun n b hl => hZZh.react.codeVec_polarised hs h0 hl (massive_of hM n b hl) (fun _ => (boson_pos hc hh (massive_of hM n b hl)).ne')) hu, sum_colours, s0, s1, sy]
  simp only [bareFour_eq, sumV_sum, am, norm_mul, norm_neg, norm_one, one_mul, p0, p1, p2, p3, Finset.sum_singleton, Matrix.cons_val_zero, Matrix.cons_val_one, Matrix.cons_val]
  push_cast
  first | ring1 | ring_nf

/-! ### hhWW -/

/-- what the methods of the class see -/
noncomputable abbrev hhWW.N [FPEnv] (c : Constants) (p : Nat → V4 ℝ) : Env := hhWW.proc.env (hhWW.rho c) p
/-- the term that `amp` adds for a choice of spinors (SM/hhWW.cpp) -/
noncomputable def hhWW.term (N : Env) (w : ℝ) (x : ℂ) (a2 b2 a3 b3 : Int) : ℂ :=
  ((((x + ((((((-w) * N.r 8) : ℝ) : ℂ) * N.v 0 [a2, a3]) * N.v 1 [b2, b3])) + ((((((w * N.r 9) : ℝ) : ℂ) * N.v 0 [a2, a3]) * N.v 1 [b2, b3]) / N.c 0)) + (((((((((((w * N.r 8) * ((2 : Nat) : ℝ)) * N.r 3) * N.r 3) : ℝ) : ℂ) * N.v 0 [a2, a3]) * N.v 1 [b2, b3]) / N.c 1) - ((((((w * N.r 8) * N.r 3) : ℝ) : ℂ) * ((N.v 0 [a2, a3] * N.v 2 [b2, b3]) + (N.v 1 [a2, a3] * N.v 3 [b3, b2]))) / N.c 1)) + ((((((w * N.r 8) : ℝ) : ℂ) * N.v 2 [a2, a3]) * N.v 3 [b3, b2]) / N.c 1))) + (((((((((((w * N.r 8) * ((2 : Nat) : ℝ)) * N.r 3) * N.r 3) : ℝ) : ℂ) * N.v 0 [a2, a3]) * N.v 1 [b2, b3]) / N.c 2) + ((((((w * N.r 8) * N.r 3) : ℝ) : ℂ) * ((N.v 0 [a2, a3] * N.v 3 [b3, b2]) + (N.v 1 [a2, a3] * N.v 2 [b2, b3]))) / N.c 2)) + ((((((w * N.r 8) : ℝ) : ℂ) * N.v 2 [a2, a3]) * N.v 3 [b3, b2]) / N.c 2)))
/-- the same with spinors in place of their spins -/
noncomputable def hhWW.form (N : Env) (p : Nat → V4 ℝ) (x2 y2 x3 y3 : Pair) : ℂ :=
  ((((0 + ((((((-((1 : Nat) : ℝ)) * N.r 8) : ℝ) : ℂ) * (sb x2.2 x3.2)) * (ab y2.1 y3.1))) + ((((((((1 : Nat) : ℝ) * N.r 9) : ℝ) : ℂ) * (sb x2.2 x3.2)) * (ab y2.1 y3.1)) / N.c 0)) + (((((((((((((1 : Nat) : ℝ) * N.r 8) * ((2 : Nat) : ℝ)) * N.r 3) * N.r 3) : ℝ) : ℂ) * (sb x2.2 x3.2)) * (ab y2.1 y3.1)) / N.c 1) - ((((((((1 : Nat) : ℝ) * N.r 8) * N.r 3) : ℝ) : ℂ) * (((sb x2.2 x3.2) * (mb y2.2 (p 0) y3.1)) + ((ab x2.1 x3.1) * (mb y3.2 (p 0) y2.1)))) / N.c 1)) + ((((((((1 : Nat) : ℝ) * N.r 8) : ℝ) : ℂ) * (mb x2.2 (p 0) x3.1)) * (mb y3.2 (p 0) y2.1)) / N.c 1))) + (((((((((((((1 : Nat) : ℝ) * N.r 8) * ((2 : Nat) : ℝ)) * N.r 3) * N.r 3) : ℝ) : ℂ) * (sb x2.2 x3.2)) * (ab y2.1 y3.1)) / N.c 2) + ((((((((1 : Nat) : ℝ) * N.r 8) * N.r 3) : ℝ) : ℂ) * (((sb x2.2 x3.2) * (mb y3.2 (p 0) y2.1)) + ((ab x2.1 x3.1) * (mb y2.2 (p 0) y3.1)))) / N.c 2)) + ((((((((1 : Nat) : ℝ) * N.r 8) : ℝ) : ℂ) * (mb x2.2 (p 0) x3.1)) * (mb y3.2 (p 0) y2.1)) / N.c 2)))
theorem hhWW.key {c : Constants} {p : Nat → V4 ℝ} {N : Env} (hc : c.Physical) (hb : Balanced p) (r3 : N.r 3 = c.MW) (r8 : N.r 8 = ((c.e * c.e) / ((((((2 : Nat) : ℝ) * c.MW) * c.MW) * c.SW) * c.SW))) (r9 : N.r 9 = (((((3 : Nat) : ℝ) * ((c.e * c.e) / ((((((2 : Nat) : ℝ) * c.MW) * c.MW) * c.SW) * c.SW))) * c.MH) * c.MH)) (d0 : pole c.MH c.WH (plus (p 0) (p 1)) = N.c 0) (n0 : N.c 0 ≠ 0) (d1 : pole c.MW c.WW (plus (p 0) (backward (p 2))) = N.c 1) (n1 : N.c 1 ≠ 0) (d2 : pole c.MW c.WW (plus (p 0) (backward (p 3))) = N.c 2) (n2 : N.c 2 ≠ 0) {z2 z3 : Pair} (b2 : Bold (p 2) c.MW z2) (b3 : Bold (p 3) c.MW z3) (q0 : msq (p 0) = c.MH ^ 2) (q1 : msq (p 1) = c.MH ^ 2) (q2 : msq (p 2) = c.MW ^ 2) (q3 : msq (p 3) = c.MW ^ 2) (hWW : c.WW = 0) (E0 E1 : Vec) :
    hhWW.form N p z2 z2 z3 z3 = -(((2 / (c.MW * c.MW) : ℝ) : ℂ) * hhWW.react.bare4 c p E0 E1 (pv z2.1 z2.2) (pv z3.1 z3.2)) := by
  rw [hhWW.react.bare4_parts c p (b₀ := .higgs) (b₁ := .higgs) (b₂ := .wMinus) (b₃ := .wPlus) rfl rfl rfl rfl, hhWW.form]
  have Y2 := b2.back; have Q2 : msq (backward (p 2)) = (-c.MW) ^ 2 := by rw [msq_backward, q2, neg_sq]
  have Y3 := b3.back; have Q3 : msq (backward (p 3)) = (-c.MW) ^ 2 := by rw [msq_backward, q3, neg_sq]
  generalize hS : msq (plus (p 0) (p 1)) = tS
  generalize hT : msq (plus (p 0) (backward (p 2))) = tT
  obtain ⟨e01, e23, e02, e13, e03, e12, hU⟩ := dots_balanced hb q0 q1 q2 q3 hS hT
  have x1 : N.c 1 = ((tT - c.MW ^ 2 : ℝ) : ℂ) := by rw [← d1, pole_narrow hWW hT]
  have x2 : N.c 2 = (((c.MH ^ 2 + c.MH ^ 2 + c.MW ^ 2 + c.MW ^ 2 - tS - tT) - c.MW ^ 2 : ℝ) : ℂ) := by rw [← d2, pole_narrow hWW hU]
  have i0 := mb_det z2.2 z3.2 (p 0) z2.1 z3.1
  have i1 := mb_det z2.2 z3.2 (p 1) z2.1 z3.1
  have i2 := mb_det z2.2 z3.2 (plus (p 0) (p 1)) z2.1 z3.1
  have i3 := mb_det z2.2 z3.2 (plus (p 0) (backward (p 2))) z2.1 z3.1
  try simp only [mb_plus, mb_backward, hS, hT, hU, q0, q1, q2, q3] at i0 i1 i2 i3
  simp only [b2.mb_left, b2.mb_right, b3.mb_left, b3.mb_right, mb_three hb z2.2 z2.1, mb_one hb z2.2 z3.1, mb_one hb z3.2 z2.1, mb_two hb z3.2 z3.1, ab_self, sb_self] at i0 i1 i2 i3
  try simp only [ab_swap z2.1 z3.1, sb_swap z2.2 z3.2] at i0 i1 i2 i3
  push_cast at i0 i1 i2 i3
  simp only [contact, seagull, gauge4, between, carriers, List.map_cons, List.map_nil, List.sum_cons, List.sum_nil, carry_massive c .z (hx := (rfl : Boson.massive .z = true)), carry_massive c .wPlus (hx := (rfl : Boson.massive .wPlus = true)), carry_massive c .wMinus (hx := (rfl : Boson.massive .wMinus = true)), carry_massless c .photon (hx := rfl)]
  simp only [toHiggs, toVector, higgs2, gauge3, Boson.anti, Constants.bosonMass, Constants.bosonWidth, reduceCtorEq, and_self, and_true, and_false, true_and, false_and, if_true, if_false, Complex.ofReal_zero, zero_smul, zero_mul, mul_zero, zero_div, neg_zero, add_zero, zero_add, sub_zero, sub_self, contract_zero, contract_zero_left, contract_smul, contract_smul_left, d0, d1, d2, four_yangMills Y2 Y3 Q2 Q3]
  try simp only [contract_four_pv, contract_pv_four, contract_pv, mb_plus, mb_backward]
  try simp only [b2.mb_left, b2.mb_right, b3.mb_left, b3.mb_right, mb_three hb z2.2 z2.1, mb_one hb z2.2 z3.1, mb_one hb z3.2 z2.1, mb_two hb z3.2 z3.1, ab_self, sb_self]
  try simp only [ab_swap z2.1 z3.1, sb_swap z2.2 z3.2]
  simp only [r3, r8, r9, Constants.invVev, ← c.mz]
  have xMW : (c.MW : ℂ) ≠ 0 := by exact_mod_cast hc.MW
  have xSW : (c.SW : ℂ) ≠ 0 := by exact_mod_cast hc.SW
  have xCW : (c.CW : ℂ) ≠ 0 := by exact_mod_cast hc.CW
  have y2 : ((√2 : ℝ) : ℂ) ≠ 0 := by exact_mod_cast (Real.sqrt_pos.2 two_pos).ne'
  have y22 : ((√2 : ℝ) : ℂ) ^ 2 = 2 := by rw [← Complex.ofReal_pow, Real.sq_sqrt two_pos.le]; norm_num
  push_cast
  push_cast at x1
  push_cast at x2
  generalize ab z2.1 z3.1 = a23 at i0 i1 i2 i3 ⊢
  generalize mb z2.2 (p 0) z2.1 = m202 at i0 i1 i2 i3 ⊢
  generalize mb z2.2 (p 0) z3.1 = m203 at i0 i1 i2 i3 ⊢
  generalize mb z2.2 (p 1) z2.1 = m212 at i0 i1 i2 i3 ⊢
  generalize mb z3.2 (p 0) z2.1 = m302 at i0 i1 i2 i3 ⊢
  generalize mb z3.2 (p 0) z3.1 = m303 at i0 i1 i2 i3 ⊢
  generalize mb z3.2 (p 1) z3.1 = m313 at i0 i1 i2 i3 ⊢
  generalize sb z2.2 z3.2 = s23 at i0 i1 i2 i3 ⊢
  generalize (tS : ℂ) = vS at i0 i1 i2 i3 x1 x2 ⊢; generalize (tT : ℂ) = vT at i0 i1 i2 i3 x1 x2 ⊢
  generalize N.c 0 = D0 at n0 ⊢
  generalize N.c 1 = D1 at n1 x1 ⊢
  generalize N.c 2 = D2 at n2 x2 ⊢
  have w1 : (-1)*(c.MW : ℂ)*m203*s23 + (-1)*(c.MW : ℂ)*a23*m302 + m203*m302 + m202*m313 = D1 * (a23*s23) := by
    rw [x1]
    linear_combination ((-1)) * i3
  have w2 : (c.MW : ℂ)*m302*s23 + (c.MW : ℂ)*a23*m203 + m203*m302 + m212*m303 = D2 * (a23*s23) := by
    rw [x2]
    linear_combination ((1)) * i3 + ((1)) * i2 + ((-1)) * i0 + ((-1)) * i1
  have hZ : (c.MZ : ℂ) = c.MW / c.CW := by rw [← c.mz, Complex.ofReal_div]
  try simp only [hZ] at w1 w2
  linear_combination (norm := (field_simp; first | ring1 | (ring_nf; simp only [y22]; ring1))) ((c.e : ℂ)^2/(2*(c.MW : ℂ)^2*(c.SW : ℂ)^2)) * w1 / D1 + ((c.e : ℂ)^2/(2*(c.MW : ℂ)^2*(c.SW : ℂ)^2)) * w2 / D2
set_option maxRecDepth 8000 in
theorem hhWW.amp2_eq (N : Env) (f : Nat → List Int → ℂ) : Cls.hhWW.m_amp2.mean N f .r [] =
    (sumV (fun x a => (sumV (fun x b => (x + (‖(f 0 [a, b])‖ ^ 2))) x)) ((0 : Nat) : ℝ)) := by rfl
set_option maxRecDepth 8000 in
theorem hhWW.value (N : Env) : meaning N .r Cls.hhWW.methods Cls.hhWW.amp2 [] =
    (sumV (fun x a => (sumV (fun x b => (x + (‖(Cls.hhWW.m_amp.mean N (callMean N []) .c [a, b])‖ ^ 2))) x)) ((0 : Nat) : ℝ)) :=
  hhWW.amp2_eq N (callMean N [Cls.hhWW.m_amp])
set_option maxRecDepth 8000 in
theorem hhWW.term_lin (N : Env) (w : ℝ) (x : ℂ) (a2 b2 a3 b3 : Int) : hhWW.term N w x a2 b2 a3 b3 = x + (w : ℂ) * hhWW.term N 1 0 a2 b2 a3 b3 := by
  simp only [hhWW.term]; push_cast; ring
theorem hhWW.amp_eq (N : Env) (f : Nat → List Int → ℂ) (t2 t3 : Fin 3) : Cls.hhWW.m_amp.mean N f .c [spinV t2, spinV t3] = comb t2 (fun a2 b2 => comb t3 (fun a3 b3 => hhWW.term N 1 0 (spinOf a2) (spinOf b2) (spinOf a3) (spinOf b3))) := by
  refine (amp_mean N f (m := 2) (K := 6) (G := fun i => hhWW.term N 1 0 (i 2) (i 3) (i 4) (i 5)) (fun l => ?_) (fun i i' h => ?_) rfl (by decide) (by decide) (by decide) (by decide) (by decide)).trans ?_
  · refine ⟨_, rfl, ?_⟩; exact ⟨rfl, rfl, hhWW.term_lin ..⟩
  · simp only [h 2 (by decide), h 3 (by decide), h 4 (by decide), h 5 (by decide)]
  · show amp' _ [spinV t2, spinV t3] = _
    simp only [amp'_comb, amp'_nil]
    rfl
theorem hhWW.form_x2 (N : Env) (p : Nat → V4 ℝ) (y2 x3 y3 x y : Pair) : hhWW.form N p (x + y) y2 x3 y3 = hhWW.form N p x y2 x3 y3 + hhWW.form N p y y2 x3 y3 := by
  simp only [hhWW.form, Prod.fst_add, Prod.snd_add, ab_add_left, ab_add_right, sb_add_left, sb_add_right, mb_add_left, mb_add_right]
  ring
theorem hhWW.form_y2 (N : Env) (p : Nat → V4 ℝ) (x2 x3 y3 x y : Pair) : hhWW.form N p x2 (x + y) x3 y3 = hhWW.form N p x2 x x3 y3 + hhWW.form N p x2 y x3 y3 := by
  simp only [hhWW.form, Prod.fst_add, Prod.snd_add, ab_add_left, ab_add_right, sb_add_left, sb_add_right, mb_add_left, mb_add_right]
  ring
theorem hhWW.form_x3 (N : Env) (p : Nat → V4 ℝ) (x2 y2 y3 x y : Pair) : hhWW.form N p x2 y2 (x + y) y3 = hhWW.form N p x2 y2 x y3 + hhWW.form N p x2 y2 y y3 := by
  simp only [hhWW.form, Prod.fst_add, Prod.snd_add, ab_add_left, ab_add_right, sb_add_left, sb_add_right, mb_add_left, mb_add_right]
  ring
theorem hhWW.form_y3 (N : Env) (p : Nat → V4 ℝ) (x2 y2 x3 x y : Pair) : hhWW.form N p x2 y2 x3 (x + y) = hhWW.form N p x2 y2 x3 x + hhWW.form N p x2 y2 x3 y := by
  simp only [hhWW.form, Prod.fst_add, Prod.snd_add, ab_add_left, ab_add_right, sb_add_left, sb_add_right, mb_add_left, mb_add_right]
  ring

theorem hhWW.mass_eq {c : Constants} (hc : c.Physical) (i : Fin 4) : hhWW.proc.massNum (hhWW.rho c) i = hhWW.react.mass c i := by
  fin_cases i <;> first | rfl | (show c.MW / √(((1 : Nat) : ℝ) - c.SW * c.SW) = c.MZ; rw [c.root, c.mz])

variable [FPEnv] in
theorem hhWW.agrees : hhWW.Agrees := by
  refine agrees_of (D := [3, 4]) (E := [4]) (by simp [all, hhWW]) (by decide +kernel) (by decide) (by decide +kernel) (fun c hc hh => ⟨List.forall_mem_cons.2 ⟨hc.MW, List.forall_mem_cons.2 ⟨hc.SW, List.forall_mem_nil _⟩⟩, List.forall_mem_cons.2 ⟨hc.SW_lt, List.forall_mem_nil _⟩⟩) (fun c hc i => hhWW.mass_eq hc i) (by decide +kernel) ?_
  intro c p u ε hc hh hw h0 hs hb hr hu
  have he : hhWW.react.ends = [] := by decide
  have ht : hhWW.react.starts = [] := by decide
  have hB : hhWW.react.bosons = [0, 1, 2, 3] := by decide
  have hM : hhWW.react.allMassive = true := by decide
  obtain ⟨f1, f2, f3⟩ := hhWW.react.regular_four he ht hB hr
  have hWW : c.WW = 0 := hw .WW (by simp [hhWW])
  have r3 : (hhWW.N c p).r 3 = c.MW := rfl
  have r8 : (hhWW.N c p).r 8 = ((c.e * c.e) / ((((((2 : Nat) : ℝ) * c.MW) * c.MW) * c.SW) * c.SW)) := rfl
  have r9 : (hhWW.N c p).r 9 = (((((3 : Nat) : ℝ) * ((c.e * c.e) / ((((((2 : Nat) : ℝ) * c.MW) * c.MW) * c.SW) * c.SW))) * c.MH) * c.MH) := rfl
  have c0 : (hhWW.N c p).c 0 = poleDist c.MH c.WH ((VExp.add 0 1).sum p) := rfl
  rw [pole_congr (msq_s hb (plus (p 0) (p 1)) (by simp)).symm] at c0
  have d0 : pole c.MH c.WH (plus (p 0) (p 1)) = (hhWW.N c p).c 0 := by rw [c0]
  have n0 : (hhWW.N c p).c 0 ≠ 0 := by rw [← d0]; exact star_ne_zero.2 (f1 .higgs rfl rfl)
  have c1 : (hhWW.N c p).c 1 = poleDist c.MW c.WW ((VExp.sub 0 2).sum p) := rfl
  rw [pole_congr (msq_t hb (plus (p 0) (backward (p 2))) (by simp)).symm] at c1
  have d1 : pole c.MW c.WW (plus (p 0) (backward (p 2))) = (hhWW.N c p).c 1 := by rw [c1]
  have n1 : (hhWW.N c p).c 1 ≠ 0 := by rw [← d1]; exact star_ne_zero.2 (f2 .wMinus rfl rfl)
  have c2 : (hhWW.N c p).c 2 = poleDist c.MW c.WW ((VExp.sub 0 3).sum p) := rfl
  rw [pole_congr (msq_u hb (plus (p 0) (backward (p 3))) (by simp)).symm] at c2
  have d2 : pole c.MW c.WW (plus (p 0) (backward (p 3))) = (hhWW.N c p).c 2 := by rw [c2]
  have n2 : (hhWW.N c p).c 2 ≠ 0 := by rw [← d2]; exact star_ne_zero.2 (f3 .wPlus rfl rfl)
  have m2 : hhWW.react.mass c 2 ≠ 0 := (leg_pos hc hh (by decide)).ne'
  have m3 : hhWW.react.mass c 3 ≠ 0 := (leg_pos hc hh (by decide)).ne'
  have hd : hhWW.proc.divides = [(Ty.c, 0), (Ty.c, 1), (Ty.c, 2)] := by decide +kernel
  refine ⟨fun n hn => ?_, fun n hn => ?_, ?_⟩
  · simp [hd] at hn
  · simp [hd] at hn
    rcases hn with rfl | rfl | rfl
    · exact n0
    · exact n1
    · exact n2
  have st : ∀ (t2 t3 : Fin 3), comb t2 (fun a2 b2 => comb t3 (fun a3 b3 => hhWW.form (hhWW.N c p) p (hhWW.react.codePair c p 2 a2) (hhWW.react.codePair c p 2 b2) (hhWW.react.codePair c p 3 a3) (hhWW.react.codePair c p 3 b3))) = (-1) * hhWW.react.bare4 c p (hhWW.react.codeVec c p 0 0) (hhWW.react.codeVec c p 1 0) (hhWW.react.codeVec c p 2 t2) (hhWW.react.codeVec c p 3 t3) := by
    intro t2 t3
    refine two_vectors (p := p 2) (m := hhWW.react.mass c 2) (p' := p 3) (m' := hhWW.react.mass c 3) (fun s => hhWW.react.codePair_bold hs h0 2 s) (fun s => hhWW.react.codePair_bold hs h0 3 s) (B := fun x0 x0b x1 x1b => hhWW.form (hhWW.N c p) p x0 x0b x1 x1b) (fun _ _ _ _ _ => ?_) (fun _ _ _ _ _ => ?_) (fun _ _ _ _ _ => ?_) (fun _ _ _ _ _ => ?_) (G := fun E F => hhWW.react.bare4 c p (hhWW.react.codeVec c p 0 0) (hhWW.react.codeVec c p 1 0) E F) (fun _ => hhWW.react.bare4_lin₂ c p (by decide) _ _ _) (fun _ => hhWW.react.bare4_lin₃ c p (by decide) _ _ _) (-1) (fun z2 z3 b2 b3 => ?_) t2 t3
    · exact hhWW.form_x2 ..
    · exact hhWW.form_y2 ..
    · exact hhWW.form_x3 ..
    · exact hhWW.form_y3 ..
    · rw [neg_one_mul]; exact hhWW.key hc hb r3 r8 r9 d0 n0 d1 n1 d2 n2 b2 b3 (onShell_msq (hs 0)) (onShell_msq (hs 1)) (onShell_msq (hs 2)) (onShell_msq (hs 3)) hWW (hhWW.react.codeVec c p 0 0) (hhWW.react.codeVec c p 1 0)
  have am : ∀ (t2 t3 : Fin 3), Cls.hhWW.m_amp.mean (hhWW.N c p) (callMean (hhWW.N c p) []) .c [spinV t2, spinV t3] = (-1) * hhWW.react.bare4 c p (hhWW.react.codeVec c p 0 0) (hhWW.react.codeVec c p 1 0) (hhWW.react.codeVec c p 2 t2) (hhWW.react.codeVec c p 3 t3) := by
    intro t2 t3
    rw [hhWW.amp_eq, ← st t2 t3]
    refine congrArg (comb t2) (funext fun a2 => funext fun b2 => ?_)
    refine congrArg (comb t3) (funext fun a3 => funext fun b3 => ?_)
    have v0x2x3 : (hhWW.N c p).v 0 [spinOf a2, spinOf a3] = sb (hhWW.react.codePair c p 2 a2).2 (hhWW.react.codePair c p 3 a3).2 := bra_square (p := p) (m := hhWW.proc.massNum (hhWW.rho c)) (hhWW.mass_eq hc 2) (hhWW.mass_eq hc 3) (.inl ⟨m2, rfl⟩) (.inl ⟨m3, rfl⟩)
    have v1y2y3 : (hhWW.N c p).v 1 [spinOf b2, spinOf b3] = ab (hhWW.react.codePair c p 2 b2).1 (hhWW.react.codePair c p 3 b3).1 := bra_angle (p := p) (m := hhWW.proc.massNum (hhWW.rho c)) (hhWW.mass_eq hc 2) (hhWW.mass_eq hc 3) (.inl ⟨m2, rfl⟩) (.inl ⟨m3, rfl⟩)
    have v2y2y3 : (hhWW.N c p).v 2 [spinOf b2, spinOf b3] = mb (hhWW.react.codePair c p 2 b2).2 (p 0) (hhWW.react.codePair c p 3 b3).1 := bra_mid_square (p := p) (m := hhWW.proc.massNum (hhWW.rho c)) (hhWW.mass_eq hc 2) (hhWW.mass_eq hc 3) (.inl ⟨m2, rfl⟩) (.inl ⟨m3, rfl⟩)
    have v1x2x3 : (hhWW.N c p).v 1 [spinOf a2, spinOf a3] = ab (hhWW.react.codePair c p 2 a2).1 (hhWW.react.codePair c p 3 a3).1 := bra_angle (p := p) (m := hhWW.proc.massNum (hhWW.rho c)) (hhWW.mass_eq hc 2) (hhWW.mass_eq hc 3) (.inl ⟨m2, rfl⟩) (.inl ⟨m3, rfl⟩)
    have v3y3y2 : (hhWW.N c p).v 3 [spinOf b3, spinOf b2] = mb (hhWW.react.codePair c p 3 b3).2 (p 0) (hhWW.react.codePair c p 2 b2).1 := bra_mid_square (p := p) (m := hhWW.proc.massNum (hhWW.rho c)) (hhWW.mass_eq hc 3) (hhWW.mass_eq hc 2) (.inl ⟨m3, rfl⟩) (.inl ⟨m2, rfl⟩)
    have v2x2x3 : (hhWW.N c p).v 2 [spinOf a2, spinOf a3] = mb (hhWW.react.codePair c p 2 a2).2 (p 0) (hhWW.react.codePair c p 3 a3).1 := bra_mid_square (p := p) (m := hhWW.proc.massNum (hhWW.rho c)) (hhWW.mass_eq hc 2) (hhWW.mass_eq hc 3) (.inl ⟨m2, rfl⟩) (.inl ⟨m3, rfl⟩)
    simp only [hhWW.term, hhWW.form, v0x2x3, v1y2y3, v2y2y3, v1x2x3, v3y3y2, v2x2x3]
    push_cast
    ring
  show meaning (hhWW.N c p) .r Cls.hhWW.methods Cls.hhWW.amp2 [] = _
  have s0 : hhWW.react.states 0 = 1 := by decide
  have s1 : hhWW.react.states 1 = 1 := by decide
  have sy : hhWW.react.symmetry = 1 := by decide
  have p0 : hhWW.react.spins 0 = {0} := rfl
  have p1 : hhWW.react.spins 1 = {0} := rfl
  have p2 : hhWW.react.spins 2 = Finset.univ := rfl
  have p3 : hhWW.react.spins 3 = Finset.univ := rfl
  rw [hhWW.value, hhWW.react.squared_four he ht hB (noGluon_of hM) hs h0 (fun _ b _ hb _ => (boson_pos hc hh hb).ne') (hhWW.react.gauge_massive (massive_of hM)) (E := hhWW.react.codeVec c p) (fun n b hl => hhWW.react.codeVec_polarised hs h0 hl (massive_of hM n b hl) (fun _ => (boson_pos hc hh (massive_of hM n b hl)).ne')) hu, sum_colours, s0, s1, sy]
  simp only [bareFour_eq, sumV_sum, am, norm_mul, norm_neg, norm_one, one_mul, p0, p1, p2, p3, Finset.sum_singleton, Matrix.cons_val_zero, Matrix.cons_val_one, Matrix.cons_val]
  push_cast
  first | ring1 | ring_nf

/-! ### hWWh -/

/-- what the methods of the class see -/
noncomputable abbrev hWWh.N [FPEnv] (c : Constants) (p : Nat → V4 ℝ) : Env := hWWh.proc.env (hWWh.rho c) p
/-- the term that `amp` adds for a choice of spinors (SM/hWWh.cpp) -/
noncomputable def hWWh.term (N : Env) (w : ℝ) (x : ℂ) (a1 b1 a2 b2 : Int) : ℂ :=
  ((((x + (((((w * N.r 8) : ℝ) : ℂ) * N.v 0 [a1, a2]) * N.v 1 [b1, b2])) + (((((((-w) * N.r 9) : ℝ) : ℂ) * N.v 0 [a1, a2]) * N.v 1 [b1, b2]) / N.c 2)) + ((((((((((((-w) * N.r 8) * ((2 : Nat) : ℝ)) * N.r 3) * N.r 3) : ℝ) : ℂ) * N.v 0 [a1, a2]) * N.v 1 [b1, b2]) / N.c 1) - ((((((w * N.r 8) * N.r 3) : ℝ) : ℂ) * ((N.v 0 [a1, a2] * N.v 2 [b2, b1]) + (N.v 1 [a1, a2] * N.v 3 [b1, b2]))) / N.c 1)) - ((((((w * N.r 8) : ℝ) : ℂ) * N.v 2 [a2, a1]) * N.v 3 [b1, b2]) / N.c 1))) + ((((((((((((-w) * N.r 8) * ((2 : Nat) : ℝ)) * N.r 3) * N.r 3) : ℝ) : ℂ) * N.v 0 [a1, a2]) * N.v 1 [b1, b2]) / N.c 0) - ((((((w * N.r 8) * N.r 3) : ℝ) : ℂ) * ((N.v 0 [a1, a2] * N.v 3 [b1, b2]) + (N.v 1 [a1, a2] * N.v 2 [b2, b1]))) / N.c 0)) - ((((((w * N.r 8) : ℝ) : ℂ) * N.v 2 [a2, a1]) * N.v 3 [b1, b2]) / N.c 0)))
/-- the same with spinors in place of their spins -/
noncomputable def hWWh.form (N : Env) (p : Nat → V4 ℝ) (x1 y1 x2 y2 : Pair) : ℂ :=
  ((((0 + (((((((1 : Nat) : ℝ) * N.r 8) : ℝ) : ℂ) * (sb x1.2 x2.2)) * (ab y1.1 y2.1))) + (((((((-((1 : Nat) : ℝ)) * N.r 9) : ℝ) : ℂ) * (sb x1.2 x2.2)) * (ab y1.1 y2.1)) / N.c 2)) + ((((((((((((-((1 : Nat) : ℝ)) * N.r 8) * ((2 : Nat) : ℝ)) * N.r 3) * N.r 3) : ℝ) : ℂ) * (sb x1.2 x2.2)) * (ab y1.1 y2.1)) / N.c 1) - ((((((((1 : Nat) : ℝ) * N.r 8) * N.r 3) : ℝ) : ℂ) * (((sb x1.2 x2.2) * (mb y2.2 (p 0) y1.1)) + ((ab x1.1 x2.1) * (mb y1.2 (p 0) y2.1)))) / N.c 1)) - ((((((((1 : Nat) : ℝ) * N.r 8) : ℝ) : ℂ) * (mb x2.2 (p 0) x1.1)) * (mb y1.2 (p 0) y2.1)) / N.c 1))) + ((((((((((((-((1 : Nat) : ℝ)) * N.r 8) * ((2 : Nat) : ℝ)) * N.r 3) * N.r 3) : ℝ) : ℂ) * (sb x1.2 x2.2)) * (ab y1.1 y2.1)) / N.c 0) - ((((((((1 : Nat) : ℝ) * N.r 8) * N.r 3) : ℝ) : ℂ) * (((sb x1.2 x2.2) * (mb y1.2 (p 0) y2.1)) + ((ab x1.1 x2.1) * (mb y2.2 (p 0) y1.1)))) / N.c 0)) - ((((((((1 : Nat) : ℝ) * N.r 8) : ℝ) : ℂ) * (mb x2.2 (p 0) x1.1)) * (mb y1.2 (p 0) y2.1)) / N.c 0)))
theorem hWWh.key {c : Constants} {p : Nat → V4 ℝ} {N : Env} (hc : c.Physical) (hb : Balanced p) (r3 : N.r 3 = c.MW) (r8 : N.r 8 = (((((2 : Nat) : ℝ) * c.e) * c.e) / ((((((4 : Nat) : ℝ) * c.MW) * c.MW) * c.SW) * c.SW))) (r9 : N.r 9 = (((((3 : Nat) : ℝ) * (((((2 : Nat) : ℝ) * c.e) * c.e) / ((((((4 : Nat) : ℝ) * c.MW) * c.MW) * c.SW) * c.SW))) * c.MH) * c.MH)) (d0 : pole c.MW c.WW (plus (p 0) (p 1)) = N.c 0) (n0 : N.c 0 ≠ 0) (d1 : pole c.MW c.WW (plus (p 0) (backward (p 2))) = N.c 1) (n1 : N.c 1 ≠ 0) (d2 : pole c.MH c.WH (plus (p 0) (backward (p 3))) = N.c 2) (n2 : N.c 2 ≠ 0) {z1 z2 : Pair} (b1 : Bold (p 1) c.MW z1) (b2 : Bold (p 2) c.MW z2) (q0 : msq (p 0) = c.MH ^ 2) (q1 : msq (p 1) = c.MW ^ 2) (q2 : msq (p 2) = c.MW ^ 2) (q3 : msq (p 3) = c.MH ^ 2) (hWW : c.WW = 0) (E0 E3 : Vec) :
    hWWh.form N p z1 z1 z2 z2 = ((2 / (c.MW * c.MW) : ℝ) : ℂ) * hWWh.react.bare4 c p E0 (pv z1.1 z1.2) (pv z2.1 z2.2) E3 := by
  rw [hWWh.react.bare4_parts c p (b₀ := .higgs) (b₁ := .wPlus) (b₂ := .wMinus) (b₃ := .higgs) rfl rfl rfl rfl, hWWh.form]
  have Y1 := b1; have Q1 := q1
  have Y2 := b2.back; have Q2 : msq (backward (p 2)) = (-c.MW) ^ 2 := by rw [msq_backward, q2, neg_sq]
  generalize hS : msq (plus (p 0) (p 1)) = tS
  generalize hT : msq (plus (p 0) (backward (p 2))) = tT
  obtain ⟨e01, e23, e02, e13, e03, e12, hU⟩ := dots_balanced hb q0 q1 q2 q3 hS hT
  have x0 : N.c 0 = ((tS - c.MW ^ 2 : ℝ) : ℂ) := by rw [← d0, pole_narrow hWW hS]
  have x1 : N.c 1 = ((tT - c.MW ^ 2 : ℝ) : ℂ) := by rw [← d1, pole_narrow hWW hT]
  have i0 := mb_det z1.2 z2.2 (plus (p 0) (p 1)) z1.1 z2.1
  have i1 := mb_det z1.2 z2.2 (plus (p 0) (backward (p 2))) z1.1 z2.1
  try simp only [mb_plus, mb_backward, hS, hT, hU, q0, q1, q2, q3] at i0 i1
  simp only [b1.mb_left, b1.mb_right, b2.mb_left, b2.mb_right, mb_three hb z1.2 z1.1, mb_three hb z1.2 z2.1, mb_three hb z2.2 z1.1, mb_three hb z2.2 z2.1, ab_self, sb_self] at i0 i1
  try simp only [ab_swap z1.1 z2.1, sb_swap z1.2 z2.2] at i0 i1
  push_cast at i0 i1
  simp only [contact, seagull, gauge4, between, carriers, List.map_cons, List.map_nil, List.sum_cons, List.sum_nil, carry_massive c .z (hx := (rfl : Boson.massive .z = true)), carry_massive c .wPlus (hx := (rfl : Boson.massive .wPlus = true)), carry_massive c .wMinus (hx := (rfl : Boson.massive .wMinus = true)), carry_massless c .photon (hx := rfl)]
  simp only [toHiggs, toVector, higgs2, gauge3, Boson.anti, Constants.bosonMass, Constants.bosonWidth, reduceCtorEq, and_self, and_true, and_false, true_and, false_and, if_true, if_false, Complex.ofReal_zero, zero_smul, zero_mul, mul_zero, zero_div, neg_zero, add_zero, zero_add, sub_zero, sub_self, contract_zero, contract_zero_left, contract_smul, contract_smul_left, d0, d1, d2, four_yangMills Y1 Y2 Q1 Q2]
  try simp only [contract_four_pv, contract_pv_four, contract_pv, mb_plus, mb_backward]
  try simp only [b1.mb_left, b1.mb_right, b2.mb_left, b2.mb_right, mb_three hb z1.2 z1.1, mb_three hb z1.2 z2.1, mb_three hb z2.2 z1.1, mb_three hb z2.2 z2.1, ab_self, sb_self]
  try simp only [ab_swap z1.1 z2.1, sb_swap z1.2 z2.2]
  simp only [r3, r8, r9, Constants.invVev, ← c.mz]
  have xMW : (c.MW : ℂ) ≠ 0 := by exact_mod_cast hc.MW
  have xSW : (c.SW : ℂ) ≠ 0 := by exact_mod_cast hc.SW
  have xCW : (c.CW : ℂ) ≠ 0 := by exact_mod_cast hc.CW
  have y2 : ((√2 : ℝ) : ℂ) ≠ 0 := by exact_mod_cast (Real.sqrt_pos.2 two_pos).ne'
  have y22 : ((√2 : ℝ) : ℂ) ^ 2 = 2 := by rw [← Complex.ofReal_pow, Real.sq_sqrt two_pos.le]; norm_num
  push_cast
  push_cast at x0
  push_cast at x1
  generalize ab z1.1 z2.1 = a12 at i0 i1 ⊢
  generalize mb z1.2 (p 0) z1.1 = m101 at i0 i1 ⊢
  generalize mb z1.2 (p 0) z2.1 = m102 at i0 i1 ⊢
  generalize mb z1.2 (p 2) z1.1 = m121 at i0 i1 ⊢
  generalize mb z2.2 (p 0) z1.1 = m201 at i0 i1 ⊢
  generalize mb z2.2 (p 0) z2.1 = m202 at i0 i1 ⊢
  generalize mb z2.2 (p 1) z2.1 = m212 at i0 i1 ⊢
  generalize sb z1.2 z2.2 = s12 at i0 i1 ⊢
  generalize (tS : ℂ) = vS at i0 i1 x0 x1 ⊢; generalize (tT : ℂ) = vT at i0 i1 x0 x1 ⊢
  generalize N.c 0 = D0 at n0 x0 ⊢
  generalize N.c 1 = D1 at n1 x1 ⊢
  generalize N.c 2 = D2 at n2 ⊢
  have w1 : (-1)*(c.MW : ℂ)*m201*s12 + (-1)*(c.MW : ℂ)*a12*m102 + (-1)*m102*m201 + m101*m202 + (-1)*m121*m202 = D1 * ((-1)*a12*s12) := by
    rw [x1]
    linear_combination ((1)) * i1
  have w0 : (-1)*(c.MW : ℂ)*m102*s12 + (-1)*(c.MW : ℂ)*a12*m201 + (-1)*m102*m201 + m101*m202 + m101*m212 = D0 * ((-1)*a12*s12) := by
    rw [x0]
    linear_combination ((1)) * i0
  have hZ : (c.MZ : ℂ) = c.MW / c.CW := by rw [← c.mz, Complex.ofReal_div]
  try simp only [hZ] at w1 w0
  linear_combination (norm := (field_simp; first | ring1 | (ring_nf; simp only [y22]; ring1))) ((c.e : ℂ)^2/(2*(c.MW : ℂ)^2*(c.SW : ℂ)^2)) * w1 / D1 + ((c.e : ℂ)^2/(2*(c.MW : ℂ)^2*(c.SW : ℂ)^2)) * w0 / D0
set_option maxRecDepth 8000 in
theorem hWWh.amp2_eq (N : Env) (f : Nat → List Int → ℂ) : Cls.hWWh.m_amp2.mean N f .r [] =
    ((sumV (fun x a => (sumV (fun x b => (x + (‖(f 0 [a, b])‖ ^ 2))) x)) ((0 : Nat) : ℝ)) / ((3 : Nat) : ℝ)) := by rfl
set_option maxRecDepth 8000 in
theorem hWWh.value (N : Env) : meaning N .r Cls.hWWh.methods Cls.hWWh.amp2 [] =
    ((sumV (fun x a => (sumV (fun x b => (x + (‖(Cls.hWWh.m_amp.mean N (callMean N []) .c [a, b])‖ ^ 2))) x)) ((0 : Nat) : ℝ)) / ((3 : Nat) : ℝ)) :=
  hWWh.amp2_eq N (callMean N [Cls.hWWh.m_amp])
set_option maxRecDepth 8000 in
theorem hWWh.term_lin (N : Env) (w : ℝ) (x : ℂ) (a1 b1 a2 b2 : Int) : hWWh.term N w x a1 b1 a2 b2 = x + (w : ℂ) * hWWh.term N 1 0 a1 b1 a2 b2 := by
  simp only [hWWh.term]; push_cast; ring
theorem hWWh.amp_eq (N : Env) (f : Nat → List Int → ℂ) (t1 t2 : Fin 3) : Cls.hWWh.m_amp.mean N f .c [spinV t1, spinV t2] = comb t2 (fun a2 b2 => comb t1 (fun a1 b1 => hWWh.term N 1 0 (spinOf a1) (spinOf b1) (spinOf a2) (spinOf b2))) := by
  refine (amp_mean N f (m := 2) (K := 6) (G := fun i => hWWh.term N 1 0 (i 4) (i 5) (i 2) (i 3)) (fun l => ?_) (fun i i' h => ?_) rfl (by decide) (by decide) (by decide) (by decide) (by decide)).trans ?_
  · refine ⟨_, rfl, ?_⟩; exact ⟨rfl, rfl, hWWh.term_lin ..⟩
  · simp only [h 4 (by decide), h 5 (by decide), h 2 (by decide), h 3 (by decide)]
  · show amp' _ [spinV t2, spinV t1] = _
    simp only [amp'_comb, amp'_nil]
    rfl
theorem hWWh.form_x1 (N : Env) (p : Nat → V4 ℝ) (y1 x2 y2 x y : Pair) : hWWh.form N p (x + y) y1 x2 y2 = hWWh.form N p x y1 x2 y2 + hWWh.form N p y y1 x2 y2 := by
  simp only [hWWh.form, Prod.fst_add, Prod.snd_add, ab_add_left, ab_add_right, sb_add_left, sb_add_right, mb_add_left, mb_add_right]
  ring
theorem hWWh.form_y1 (N : Env) (p : Nat → V4 ℝ) (x1 x2 y2 x y : Pair) : hWWh.form N p x1 (x + y) x2 y2 = hWWh.form N p x1 x x2 y2 + hWWh.form N p x1 y x2 y2 := by
  simp only [hWWh.form, Prod.fst_add, Prod.snd_add, ab_add_left, ab_add_right, sb_add_left, sb_add_right, mb_add_left, mb_add_right]
  ring
theorem hWWh.form_x2 (N : Env) (p : Nat → V4 ℝ) (x1 y1 y2 x y : Pair) : hWWh.form N p x1 y1 (x + y) y2 = hWWh.form N p x1 y1 x y2 + hWWh.form N p x1 y1 y y2 := by
  simp only [hWWh.form, Prod.fst_add, Prod.snd_add, ab_add_left, ab_add_right, sb_add_left, sb_add_right, mb_add_left, mb_add_right]
  ring
theorem hWWh.form_y2 (N : Env) (p : Nat → V4 ℝ) (x1 y1 x2 x y : Pair) : hWWh.form N p x1 y1 x2 (x + y) = hWWh.form N p x1 y1 x2 x + hWWh.form N p x1 y1 x2 y := by
  simp only [hWWh.form, Prod.fst_add, Prod.snd_add, ab_add_left, ab_add_right, sb_add_left, sb_add_right, mb_add_left, mb_add_right]
  ring

theorem hWWh.mass_eq {c : Constants} (hc : c.Physical) (i : Fin 4) : hWWh.proc.massNum (hWWh.rho c) i = hWWh.react.mass c i := by
  fin_cases i <;> first | rfl | (show c.MW / √(((1 : Nat) : ℝ) - c.SW * c.SW) = c.MZ; rw [c.root, c.mz])

variable [FPEnv] in
theorem hWWh.agrees : hWWh.Agrees := by
  refine agrees_of (D := [3, 4]) (E := [4]) (by simp [all, hWWh]) (by decide +kernel) (by decide) (by decide +kernel) (fun c hc hh => ⟨List.forall_mem_cons.2 ⟨hc.MW, List.forall_mem_cons.2 ⟨hc.SW, List.forall_mem_nil _⟩⟩, List.forall_mem_cons.2 ⟨hc.SW_lt, List.forall_mem_nil _⟩⟩) (fun c hc i => hWWh.mass_eq hc i) (by decide +kernel) ?_
  intro c p u ε hc hh hw h0 hs hb hr hu
  have he : hWWh.react.ends = [] := by decide
  have ht : hWWh.react.starts = [] := by decide
  have hB : hWWh.react.bosons = [0, 1, 2, 3] := by decide
  have hM : hWWh.react.allMassive = true := by decide
  obtain ⟨f1, f2, f3⟩ := hWWh.react.regular_four he ht hB hr
  have hWW : c.WW = 0 := hw .WW (by simp [hWWh])
  have r3 : (hWWh.N c p).r 3 = c.MW := rfl
  have r8 : (hWWh.N c p).r 8 = (((((2 : Nat) : ℝ) * c.e) * c.e) / ((((((4 : Nat) : ℝ) * c.MW) * c.MW) * c.SW) * c.SW)) := rfl
  have r9 : (hWWh.N c p).r 9 = (((((3 : Nat) : ℝ) * (((((2 : Nat) : ℝ) * c.e) * c.e) / ((((((4 : Nat) : ℝ) * c.MW) * c.MW) * c.SW) * c.SW))) * c.MH) * c.MH) := rfl
  have c0 : (hWWh.N c p).c 0 = poleDist c.MW c.WW ((VExp.add 0 1).sum p) := rfl
  rw [pole_congr (msq_s hb (plus (p 0) (p 1)) (by simp)).symm] at c0
  have d0 : pole c.MW c.WW (plus (p 0) (p 1)) = (hWWh.N c p).c 0 := by rw [c0]
  have n0 : (hWWh.N c p).c 0 ≠ 0 := by rw [← d0]; exact star_ne_zero.2 (f1 .wPlus rfl rfl)
  have c1 : (hWWh.N c p).c 1 = poleDist c.MW c.WW ((VExp.sub 0 2).sum p) := rfl
  rw [pole_congr (msq_t hb (plus (p 0) (backward (p 2))) (by simp)).symm] at c1
  have d1 : pole c.MW c.WW (plus (p 0) (backward (p 2))) = (hWWh.N c p).c 1 := by rw [c1]
  have n1 : (hWWh.N c p).c 1 ≠ 0 := by rw [← d1]; exact star_ne_zero.2 (f2 .wMinus rfl rfl)
  have c2 : (hWWh.N c p).c 2 = poleDist c.MH c.WH ((VExp.sub 0 3).sum p) := rfl
  rw [pole_congr (msq_u hb (plus (p 0) (backward (p 3))) (by simp)).symm] at c2
  have d2 : pole c.MH c.WH (plus (p 0) (backward (p 3))) = (hWWh.N c p).c 2 := by rw [c2]
  have n2 : (hWWh.N c p).c 2 ≠ 0 := by rw [← d2]; exact star_ne_zero.2 (f3 .higgs rfl rfl)
  have m1 : hWWh.react.mass c 1 ≠ 0 := (leg_pos hc hh (by decide)).ne'
  have m2 : hWWh.react.mass c 2 ≠ 0 := (leg_pos hc hh (by decide)).ne'
  have hd : hWWh.proc.divides = [(Ty.c, 2), (Ty.c, 1), (Ty.c, 0)] := by decide +kernel
  refine ⟨fun n hn => ?_, fun n hn => ?_, ?_⟩
  · simp [hd] at hn
  · simp [hd] at hn
    rcases hn with rfl | rfl | rfl
    · exact n2
    · exact n1
    · exact n0
  have st : ∀ (t1 t2 : Fin 3), comb t2 (fun a2 b2 => comb t1 (fun a1 b1 => hWWh.form (hWWh.N c p) p (hWWh.react.codePair c p 1 a1) (hWWh.react.codePair c p 1 b1) (hWWh.react.codePair c p 2 a2) (hWWh.react.codePair c p 2 b2))) = 1 * hWWh.react.bare4 c p (hWWh.react.codeVec c p 0 0) (hWWh.react.codeVec c p 1 t1) (hWWh.react.codeVec c p 2 t2) (hWWh.react.codeVec c p 3 0) := by
    intro t1 t2
    refine two_vectors (p := p 2) (m := hWWh.react.mass c 2) (p' := p 1) (m' := hWWh.react.mass c 1) (fun s => hWWh.react.codePair_bold hs h0 2 s) (fun s => hWWh.react.codePair_bold hs h0 1 s) (B := fun x0 x0b x1 x1b => hWWh.form (hWWh.N c p) p x1 x1b x0 x0b) (fun _ _ _ _ _ => ?_) (fun _ _ _ _ _ => ?_) (fun _ _ _ _ _ => ?_) (fun _ _ _ _ _ => ?_) (G := fun E F => hWWh.react.bare4 c p (hWWh.react.codeVec c p 0 0) F E (hWWh.react.codeVec c p 3 0)) (fun _ => hWWh.react.bare4_lin₂ c p (by decide) _ _ _) (fun _ => hWWh.react.bare4_lin₁ c p (by decide) _ _ _) 1 (fun z2 z1 b2 b1 => ?_) t2 t1
    · exact hWWh.form_x2 ..
    · exact hWWh.form_y2 ..
    · exact hWWh.form_x1 ..
    · exact hWWh.form_y1 ..
    · rw [one_mul]; exact hWWh.key hc hb r3 r8 r9 d0 n0 d1 n1 d2 n2 b1 b2 (onShell_msq (hs 0)) (onShell_msq (hs 1)) (onShell_msq (hs 2)) (onShell_msq (hs 3)) hWW (hWWh.react.codeVec c p 0 0) (hWWh.react.codeVec c p 3 0)
  have am : ∀ (t1 t2 : Fin 3), Cls.hWWh.m_amp.mean (hWWh.N c p) (callMean (hWWh.N c p) []) .c [spinV t1, spinV t2] = 1 * hWWh.react.bare4 c p (hWWh.react.codeVec c p 0 0) (hWWh.react.codeVec c p 1 t1) (hWWh.react.codeVec c p 2 t2) (hWWh.react.codeVec c p 3 0) := by
    intro t1 t2
    rw [hWWh.amp_eq, ← st t1 t2]
    refine congrArg (comb t2) (funext fun a2 => funext fun b2 => ?_)
    refine congrArg (comb t1) (funext fun a1 => funext fun b1 => ?_)
    have v0x1x2 : (hWWh.N c p).v 0 [spinOf a1, spinOf a2] = sb (hWWh.react.codePair c p 1 a1).2 (hWWh.react.codePair c p 2 a2).2 := bra_square (p := p) (m := hWWh.proc.massNum (hWWh.rho c)) (hWWh.mass_eq hc 1) (hWWh.mass_eq hc 2) (.inl ⟨m1, rfl⟩) (.inl ⟨m2, rfl⟩)
    have v1y1y2 : (hWWh.N c p).v 1 [spinOf b1, spinOf b2] = ab (hWWh.react.codePair c p 1 b1).1 (hWWh.react.codePair c p 2 b2).1 := bra_angle (p := p) (m := hWWh.proc.massNum (hWWh.rho c)) (hWWh.mass_eq hc 1) (hWWh.mass_eq hc 2) (.inl ⟨m1, rfl⟩) (.inl ⟨m2, rfl⟩)
    have v2y2y1 : (hWWh.N c p).v 2 [spinOf b2, spinOf b1] = mb (hWWh.react.codePair c p 2 b2).2 (p 0) (hWWh.react.codePair c p 1 b1).1 := bra_mid_square (p := p) (m := hWWh.proc.massNum (hWWh.rho c)) (hWWh.mass_eq hc 2) (hWWh.mass_eq hc 1) (.inl ⟨m2, rfl⟩) (.inl ⟨m1, rfl⟩)
    have v1x1x2 : (hWWh.N c p).v 1 [spinOf a1, spinOf a2] = ab (hWWh.react.codePair c p 1 a1).1 (hWWh.react.codePair c p 2 a2).1 := bra_angle (p := p) (m := hWWh.proc.massNum (hWWh.rho c)) (hWWh.mass_eq hc 1) (hWWh.mass_eq hc 2) (.inl ⟨m1, rfl⟩) (.inl ⟨m2, rfl⟩)
    have v3y1y2 : (hWWh.N c p).v 3 [spinOf b1, spinOf b2] = mb (hWWh.react.codePair c p 1 b1).2 (p 0) (hWWh.react.codePair c p 2 b2).1 := bra_mid_square (p := p) (m := hWWh.proc.massNum (hWWh.rho c)) (hWWh.mass_eq hc 1) (hWWh.mass_eq hc 2) (.inl ⟨m1, rfl⟩) (.inl ⟨m2, rfl⟩)
    have v2x2x1 : (hWWh.N c p).v 2 [spinOf a2, spinOf a1] = mb (hWWh.react.codePair c p 2 a2).2 (p 0) (hWWh.react.codePair c p 1 a1).1 := bra_mid_square (p := p) (m := hWWh.proc.massNum (hWWh.rho c)) (hWWh.mass_eq hc 2) (hWWh.mass_eq hc 1) (.inl ⟨m2, rfl⟩) (.inl ⟨m1, rfl⟩)
    simp only [hWWh.term, hWWh.form, v0x1x2, v1y1y2, v2y2y1, v1x1x2, v3y1y2, v2x2x1]
    push_cast
    ring
  show meaning (hWWh.N c p) .r Cls.hWWh.methods Cls.hWWh.amp2 [] = _
  have s0 : hWWh.react.states 0 = 1 := by decide
  have s1 : hWWh.react.states 1 = 3 := by decide
  have sy : hWWh.react.symmetry = 1 := by decide
  have p0 : hWWh.react.spins 0 = {0} := rfl
  have p1 : hWWh.react.spins 1 = Finset.univ := rfl
  have p2 : hWWh.react.spins 2 = Finset.univ := rfl
  have p3 : hWWh.react.spins 3 = {0} := rfl
  rw [hWWh.value, hWWh.react.squared_four he ht hB (noGluon_of hM) hs h0 (fun _ b _ hb _ => (boson_pos hc hh hb).ne') (hWWh.react.gauge_massive (massive_of hM)) (E := hWWh.react.codeVec c p) (fun n b hl => hWWh.react.codeVec_polarised hs h0 hl (massive_of hM n b hl) (fun _ => (boson_pos hc hh (massive_of hM n b hl)).ne')) hu, sum_colours, s0, s1, sy]
  simp only [bareFour_eq, sumV_sum, am, norm_mul, norm_neg, norm_one, one_mul, p0, p1, p2, p3, Finset.sum_singleton, Matrix.cons_val_zero, Matrix.cons_val_one, Matrix.cons_val]
  push_cast
  first | ring1 | ring_nf

end Spinas.SM.Rows
