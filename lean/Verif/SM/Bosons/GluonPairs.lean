import Verif.SM.TwoGluons
import Verif.SM.GluonRows
import Verif.SM.Bosons.GluonPhoton
import Verif.SM.Bosons.GluonPhotonIn

/-! Two quarks and two gluons. Generated by tools/bosons/gluons.py: for each class its amplitude is compared with the one of the class with a photon in place of a gluon, and `amp2` is the squared amplitude of the Feynman rules. -/

set_option linter.unusedSimpArgs false
set_option linter.unusedVariables false
set_option linter.unreachableTactic false
set_option linter.unusedTactic false

namespace Spinas.SM.Rows
open Spec Spec.Reaction Props XR Matrix BRow

/-- the same constants with another charge -/
noncomputable abbrev unit (c : Constants) : Constants := { c with e := 1 }
theorem unit_physical {c : Constants} (h : c.Physical) : (unit c).Physical := ⟨h.MW, h.SW, h.SW_lt, h.neutrino, h.massive⟩
theorem unit_heavy {c : Constants} (h : c.Heavy) : (unit c).Heavy := ⟨h.MW, h.MH⟩

/-! ### ggdd -/

/-- what the methods of the class see -/
noncomputable abbrev ggdd.N [FPEnv] (c : Constants) (p : Nat → V4 ℝ) : Env := ggdd.proc.env (ggdd.rho c) p
/-- `amp_Num` for a gluon of positive helicity and one of positive helicity (SM/ggdd.cpp) -/
noncomputable def ggdd.termPP (N : Env) (j3 j4 : Int) : ℂ := (((((((((2 : Nat) : ℝ) * N.r 0) * N.r 0) * N.r 1) : ℝ) : ℂ) * N.v 2 []) * N.v 2 []) * N.v 1 [j3, j4]
/-- `amp_Num` for a gluon of positive helicity and one of negative helicity (SM/ggdd.cpp) -/
noncomputable def ggdd.termPM (N : Env) (j3 j4 : Int) : ℂ := ((((((-((2 : Nat) : ℝ)) * N.r 0) * N.r 0) : ℝ) : ℂ) * (N.v 4 [j3] * N.v 7 [j4] + N.v 10 [j4] * N.v 9 [j3])) * N.v 12 []
/-- `amp_Num` for a gluon of negative helicity and one of positive helicity (SM/ggdd.cpp) -/
noncomputable def ggdd.termMP (N : Env) (j3 j4 : Int) : ℂ := ((((((-((2 : Nat) : ℝ)) * N.r 0) * N.r 0) : ℝ) : ℂ) * (N.v 5 [j3] * N.v 6 [j4] + N.v 11 [j4] * N.v 8 [j3])) * N.v 13 []
/-- `amp_Num` for a gluon of negative helicity and one of negative helicity (SM/ggdd.cpp) -/
noncomputable def ggdd.termMM (N : Env) (j3 j4 : Int) : ℂ := (((((((((2 : Nat) : ℝ) * N.r 0) * N.r 0) * N.r 1) : ℝ) : ℂ) * N.v 3 []) * N.v 3 []) * N.v 0 [j3, j4]
set_option maxRecDepth 8000 in
theorem ggdd.ampPP (N : Env) (f : Nat → List Int → ℂ) (j3 j4 : Int) : Cls.ggdd.m_amp_Num.mean N f .c [2, 2, j3, j4] = ggdd.termPP N j3 j4 := by rfl
set_option maxRecDepth 8000 in
theorem ggdd.ampPM (N : Env) (f : Nat → List Int → ℂ) (j3 j4 : Int) : Cls.ggdd.m_amp_Num.mean N f .c [2, (-2), j3, j4] = ggdd.termPM N j3 j4 := by rfl
set_option maxRecDepth 8000 in
theorem ggdd.ampMP (N : Env) (f : Nat → List Int → ℂ) (j3 j4 : Int) : Cls.ggdd.m_amp_Num.mean N f .c [(-2), 2, j3, j4] = ggdd.termMP N j3 j4 := by rfl
set_option maxRecDepth 8000 in
theorem ggdd.ampMM (N : Env) (f : Nat → List Int → ℂ) (j3 j4 : Int) : Cls.ggdd.m_amp_Num.mean N f .c [(-2), (-2), j3, j4] = ggdd.termMM N j3 j4 := by rfl
set_option maxRecDepth 8000 in
theorem ggdd.amp2_eq (N : Env) (f : Nat → List Int → ℂ) : Cls.ggdd.m_amp2.mean N f .r [] =
    ((sumW (fun x a => (sumW (fun x b => (sumJ (fun x c => (sumJ (fun x d => (x + (‖(f 0 [a, b, c, d])‖ ^ 2 * ((((6 : Nat) : ℝ) / (N.r 2 * N.r 3) ^ 2 + ((6 : Nat) : ℝ) / (N.r 2 * N.r 4) ^ 2) - ((2 : Nat) : ℝ) / ((3 : Nat) : ℝ) / (N.r 3 * N.r 4) ^ 2)))) x)) x)) x)) ((0 : Nat) : ℝ)) / ((256 : Nat) : ℝ)) := by rfl
set_option maxRecDepth 8000 in
theorem ggdd.value (N : Env) : meaning N .r Cls.ggdd.methods Cls.ggdd.amp2 [] =
    ((sumW (fun x a => (sumW (fun x b => (sumJ (fun x c => (sumJ (fun x d => (x + (‖(Cls.ggdd.m_amp_Num.mean N (callMean N []) .c [a, b, c, d])‖ ^ 2 * ((((6 : Nat) : ℝ) / (N.r 2 * N.r 3) ^ 2 + ((6 : Nat) : ℝ) / (N.r 2 * N.r 4) ^ 2) - ((2 : Nat) : ℝ) / ((3 : Nat) : ℝ) / (N.r 3 * N.r 4) ^ 2)))) x)) x)) x)) ((0 : Nat) : ℝ)) / ((256 : Nat) : ℝ)) :=
  ggdd.amp2_eq N (callMean N [Cls.ggdd.m_amp2_Feynman, Cls.ggdd.m_amp_Num])

theorem ggdd.mass_eq {c : Constants} (hc : c.Physical) (i : Fin 4) : ggdd.proc.massNum (ggdd.rho c) i = ggdd.react.mass c i := by
  fin_cases i <;> first | rfl | exact Nat.cast_zero

variable [FPEnv] in
theorem ggdd.amps {c : Constants} {p : Nat → V4 ℝ} {u : Fin 4 → Fin 3 → Spinor} {ε : Fin 4 → Fin 3 → Vec} (hc : c.Physical) (hh : c.Heavy) (h0 : ∀ i, 0 ≤ ggdd.react.mass c i) (hs : ∀ i : Fin 4, OnShell (p i) (ggdd.react.mass c i)) (hb : Balanced p) (hr : ggdd.react.Regular c p) (hu : ∀ i, ggdd.react.Complete c p i (u i) (ε i)) :
    (ggdd.N c p).r 2 ≠ 0 ∧ (ggdd.N c p).r 3 ≠ 0 ∧ (ggdd.N c p).r 4 ≠ 0 ∧ (ggdd.N c p).r 2 + (ggdd.N c p).r 3 + (ggdd.N c p).r 4 = 0 ∧
    ggdd.react.order c p 3 0 1 = (ggdd.N c p).r 3 / (ggdd.N c p).r 2 ∧ ggdd.react.order c p 3 1 0 = (ggdd.N c p).r 4 / (ggdd.N c p).r 2 ∧
    ∀ (s2 : Fin 2) (s3 : Fin 2) (h0 : Fin 2) (h1 : Fin 2), ‖Cls.ggdd.m_amp_Num.mean (ggdd.N c p) (callMean (ggdd.N c p) []) .c [spinW h0, spinW h1, spinOf s2, spinOf s3]‖ ^ 2 = ((ggdd.N c p).r 3 * (ggdd.N c p).r 4) ^ 2 * ‖ggdd.react.bare c p 2 3 0 1 (ggdd.react.codePair c p 2 s2) (ggdd.react.codePair c p 3 s3) (lightE (legA (p 0) 0 0, legS (p 0) 0 1) h0.castSucc) (lightE (legA (p 1) 0 0, legS (p 1) 0 1) h1.castSucc)‖ ^ 2 := by
  have he : ggdd.react.ends = [2] := by decide
  have ht : ggdd.react.starts = [3] := by decide
  have hB : ggdd.react.bosons = [0, 1] := by decide
  obtain ⟨f1, f2, f3⟩ := ggdd.react.regular_line he ht hB hr
  have hr' : gAdd.react.Regular (unit c) p := by
    have hA : gAdd.react.Regular (unit c) p ↔ gAdd.react.Fermionic (unit c) p 2 3 0 1 ∧ gAdd.react.Fermionic (unit c) p 2 3 1 0 ∧ gAdd.react.Bosonic (unit c) p 2 3 0 1 := Iff.rfl
    refine hA.2 ⟨?_, ?_, ?_⟩
    · intro x hx _; cases hx; exact f1 .d rfl rfl
    · intro x hx _; cases hx; exact f2 .d rfl rfl
    · intro x hx _; cases x <;> cases hx
  have hu' : ∀ i, gAdd.react.Complete (unit c) p i (u i) (ε i) := by intro i; have := hu i; fin_cases i <;> exact this
  have hs' : ∀ i : Fin 4, OnShell (p i) (gAdd.react.mass (unit c) i) := by intro i; have := hs i; fin_cases i <;> exact this
  have h0' : ∀ i : Fin 4, 0 ≤ gAdd.react.mass (unit c) i := by intro i; have := h0 i; fin_cases i <;> exact this
  obtain ⟨n0, n1, -, -, am⟩ := gAdd.amps (unit_physical hc) (unit_heavy hh) h0' hs' hb hr' hu'
  have e2 : (ggdd.N c p).r 2 = (poleDist ((0 : Nat) : ℝ) ((0 : Nat) : ℝ) ((VExp.add 0 1).sum p)).re := rfl
  rw [Nat.cast_zero, pole_fermion rfl, Complex.ofReal_re, show msq ((VExp.add 0 1).sum p) - (0 : ℝ) ^ 2 = msq ((VExp.add 0 1).sum p) by ring] at e2
  have e3 : (ggdd.N c p).r 3 = (poleDist (c.mass .d) ((0 : Nat) : ℝ) ((VExp.sub 0 2).sum p)).re := rfl
  rw [Nat.cast_zero, pole_fermion rfl, Complex.ofReal_re] at e3
  have e4 : (ggdd.N c p).r 4 = (poleDist (c.mass .d) ((0 : Nat) : ℝ) ((VExp.sub 0 3).sum p)).re := rfl
  rw [Nat.cast_zero, pole_fermion rfl, Complex.ofReal_re] at e4
  have c0 : (gAdd.N (unit c) p).c 0 = ((ggdd.N c p).r 3 : ℂ) := by
    have : (gAdd.N (unit c) p).c 0 = poleDist (c.mass .d) ((0 : Nat) : ℝ) ((VExp.sub 0 2).sum p) := rfl
    rw [this, Nat.cast_zero, pole_fermion rfl, e3]
  have n3' : (ggdd.N c p).r 3 ≠ 0 := by have := n0; rw [c0] at this; exact_mod_cast this
  have c1 : (gAdd.N (unit c) p).c 1 = ((ggdd.N c p).r 4 : ℂ) := by
    have : (gAdd.N (unit c) p).c 1 = poleDist (c.mass .d) ((0 : Nat) : ℝ) ((VExp.sub 0 3).sum p) := rfl
    rw [this, Nat.cast_zero, pole_fermion rfl, e4]
  have n4' : (ggdd.N c p).r 4 ≠ 0 := by have := n1; rw [c1] at this; exact_mod_cast this
  have n2' : (ggdd.N c p).r 2 ≠ 0 := by
    rw [e2, ← msq_s hb (plus (p 0) (p 1)) (by simp)]
    intro h
    refine f3 .gluon rfl rfl ?_
    show denominator c .gluon (plus (p 0) (p 1)) = 0
    rw [denominator, breitWigner, h]
    apply Complex.ext <;> simp [Constants.bosonMass]
  have q0 : msq (p 0) = 0 := (onShell_msq (hs 0)).trans (by show (0 : ℝ) ^ 2 = 0; norm_num)
  have q1 : msq (p 1) = 0 := (onShell_msq (hs 1)).trans (by show (0 : ℝ) ^ 2 = 0; norm_num)
  have q2 : msq (p 2) = c.mass .d ^ 2 := onShell_msq (hs 2)
  have q3 : msq (p 3) = c.mass .d ^ 2 := onShell_msq (hs 3)
  have d0 : (ggdd.N c p).r 2 + (ggdd.N c p).r 3 + (ggdd.N c p).r 4 = 0 := by
    have := balanced_three hb
    rw [e2, e3, e4]
    simp only [msq, VExp.sum, this, plus, backward] at q0 q1 q2 q3 ⊢
    linarith
  refine ⟨n2', n3', n4', d0, ?_, ?_, ?_⟩
  · show (msq (plus (backward (p 3)) (p 1)) - c.mass .d ^ 2) / msq (plus (p 0) (p 1)) = _
    rw [e3, e2, msq_t hb (plus (backward (p 3)) (p 1)) (by simp), msq_s hb (plus (p 0) (p 1)) (by simp)]
  · show (msq (plus (backward (p 3)) (p 0)) - c.mass .d ^ 2) / msq (plus (p 1) (p 0)) = _
    rw [e4, e2, msq_u hb (plus (backward (p 3)) (p 0)) (by simp), msq_s hb (plus (p 1) (p 0)) (by simp)]
  have Q : ((-((1 : Nat) : ℝ)) / ((3 : Nat) : ℝ)) ≠ 0 := by norm_num
  have qf : (Flavour.d).charge = ((-((1 : Nat) : ℝ)) / ((3 : Nat) : ℝ)) := by norm_num [Flavour.charge, Flavour.d]
  have r0 : (gAdd.N (unit c) p).r 0 = 1 := rfl
  have r1 : (gAdd.N (unit c) p).r 1 = ((-((1 : Nat) : ℝ)) / ((3 : Nat) : ℝ)) := rfl
  have r2 : (gAdd.N (unit c) p).r 2 = c.gs := rfl
  have r3 : (gAdd.N (unit c) p).r 3 = c.mass .d := rfl
  have g0 : (ggdd.N c p).r 0 = c.gs := rfl
  have g1 : (ggdd.N c p).r 1 = c.mass .d := rfl
  have sc : ∀ {x y : ℂ}, x * (((-((1 : Nat) : ℝ)) / ((3 : Nat) : ℝ)) : ℝ) = (c.gs * ((gAdd.N (unit c) p).c 0 * (gAdd.N (unit c) p).c 1) * y) → ‖x‖ * ‖(((-((1 : Nat) : ℝ)) / ((3 : Nat) : ℝ)) : ℝ)‖ = ‖c.gs‖ * (‖(gAdd.N (unit c) p).c 0‖ * ‖(gAdd.N (unit c) p).c 1‖) * ‖y‖ := by
    intro x y h
    have := congrArg norm h
    simpa only [norm_mul, norm_neg, Complex.norm_real] using this
  have sPP : ∀ (s2 s3 : Fin 2), Cls.ggdd.m_amp_Num.mean (ggdd.N c p) (callMean (ggdd.N c p) []) .c [2, 2, spinOf s2, spinOf s3] * (((-((1 : Nat) : ℝ)) / ((3 : Nat) : ℝ)) : ℝ) = (c.gs * ((gAdd.N (unit c) p).c 0 * (gAdd.N (unit c) p).c 1) * Cls.gAdd.m_amp.mean (gAdd.N (unit c) p) (callMean (gAdd.N (unit c) p) []) .c [2, 2, spinOf s2, spinOf s3]) := by
    intro s2 s3
    rw [ggdd.ampPP, gAdd.ampPP]
    have w2 : (ggdd.N c p).v 2 [] = (gAdd.N (unit c) p).v 2 [] := rfl
    have w1 : (ggdd.N c p).v 1 [spinOf s2, spinOf s3] = (gAdd.N (unit c) p).v 1 [spinOf s2, spinOf s3] := rfl
    simp only [ggdd.termPP, gAdd.termPP, w2, w1, r0, r1, r2, r3, g0, g1]
    field_simp
    try push_cast
    try ring1
  have sPM : ∀ (s2 s3 : Fin 2), Cls.ggdd.m_amp_Num.mean (ggdd.N c p) (callMean (ggdd.N c p) []) .c [2, (-2), spinOf s2, spinOf s3] * (((-((1 : Nat) : ℝ)) / ((3 : Nat) : ℝ)) : ℝ) = (c.gs * ((gAdd.N (unit c) p).c 0 * (gAdd.N (unit c) p).c 1) * Cls.gAdd.m_amp.mean (gAdd.N (unit c) p) (callMean (gAdd.N (unit c) p) []) .c [2, (-2), spinOf s2, spinOf s3]) := by
    intro s2 s3
    rw [ggdd.ampPM, gAdd.ampPM]
    have w4 : (ggdd.N c p).v 4 [spinOf s2] = (gAdd.N (unit c) p).v 4 [spinOf s2] := rfl
    have w7 : (ggdd.N c p).v 7 [spinOf s3] = (gAdd.N (unit c) p).v 7 [spinOf s3] := rfl
    have w10 : (ggdd.N c p).v 10 [spinOf s3] = (gAdd.N (unit c) p).v 10 [spinOf s3] := rfl
    have w9 : (ggdd.N c p).v 9 [spinOf s2] = (gAdd.N (unit c) p).v 9 [spinOf s2] := rfl
    have w12 : (ggdd.N c p).v 12 [] = (gAdd.N (unit c) p).v 12 [] := rfl
    simp only [ggdd.termPM, gAdd.termPM, w4, w7, w10, w9, w12, r0, r1, r2, r3, g0, g1]
    field_simp
    try push_cast
    try ring1
  have sMP : ∀ (s2 s3 : Fin 2), Cls.ggdd.m_amp_Num.mean (ggdd.N c p) (callMean (ggdd.N c p) []) .c [(-2), 2, spinOf s2, spinOf s3] * (((-((1 : Nat) : ℝ)) / ((3 : Nat) : ℝ)) : ℝ) = (c.gs * ((gAdd.N (unit c) p).c 0 * (gAdd.N (unit c) p).c 1) * Cls.gAdd.m_amp.mean (gAdd.N (unit c) p) (callMean (gAdd.N (unit c) p) []) .c [(-2), 2, spinOf s2, spinOf s3]) := by
    intro s2 s3
    rw [ggdd.ampMP, gAdd.ampMP]
    have w5 : (ggdd.N c p).v 5 [spinOf s2] = (gAdd.N (unit c) p).v 5 [spinOf s2] := rfl
    have w6 : (ggdd.N c p).v 6 [spinOf s3] = (gAdd.N (unit c) p).v 6 [spinOf s3] := rfl
    have w11 : (ggdd.N c p).v 11 [spinOf s3] = (gAdd.N (unit c) p).v 11 [spinOf s3] := rfl
    have w8 : (ggdd.N c p).v 8 [spinOf s2] = (gAdd.N (unit c) p).v 8 [spinOf s2] := rfl
    have w13 : (ggdd.N c p).v 13 [] = (gAdd.N (unit c) p).v 13 [] := rfl
    simp only [ggdd.termMP, gAdd.termMP, w5, w6, w11, w8, w13, r0, r1, r2, r3, g0, g1]
    field_simp
    try push_cast
    try ring1
  have sMM : ∀ (s2 s3 : Fin 2), Cls.ggdd.m_amp_Num.mean (ggdd.N c p) (callMean (ggdd.N c p) []) .c [(-2), (-2), spinOf s2, spinOf s3] * (((-((1 : Nat) : ℝ)) / ((3 : Nat) : ℝ)) : ℝ) = (c.gs * ((gAdd.N (unit c) p).c 0 * (gAdd.N (unit c) p).c 1) * Cls.gAdd.m_amp.mean (gAdd.N (unit c) p) (callMean (gAdd.N (unit c) p) []) .c [(-2), (-2), spinOf s2, spinOf s3]) := by
    intro s2 s3
    rw [ggdd.ampMM, gAdd.ampMM]
    have w3 : (ggdd.N c p).v 3 [] = (gAdd.N (unit c) p).v 3 [] := rfl
    have w0 : (ggdd.N c p).v 0 [spinOf s2, spinOf s3] = (gAdd.N (unit c) p).v 0 [spinOf s2, spinOf s3] := rfl
    simp only [ggdd.termMM, gAdd.termMM, w3, w0, r0, r1, r2, r3, g0, g1]
    field_simp
    try push_cast
    try ring1
  have bo : ∀ (z w : Pair) (E F : Vec), ‖ggdd.react.bare c p 2 3 0 1 z w E F‖ * ‖(((-((1 : Nat) : ℝ)) / ((3 : Nat) : ℝ)) : ℝ)‖ = ‖c.gs‖ * ‖gAdd.react.bare (unit c) p 2 3 0 1 z w E F‖ := by
    intro z w E F
    rw [ggdd.react.bare_light (i := 2) (j := 3) (a := 0) (b := 1) rfl rfl rfl rfl rfl, gAdd.react.bare_light (i := 2) (j := 3) (a := 0) (b := 1) rfl rfl rfl rfl rfl]
    have x : ggdd.react.shape c p 2 3 0 1 z w E F = gAdd.react.shape (unit c) p 2 3 0 1 z w E F := rfl
    have k1 : ‖c.kappa (ggdd.react.flavour 3) (ggdd.react.boson 0)‖ = ‖c.gs‖ := rfl
    have k2 : ‖c.kappa (ggdd.react.flavour 3) (ggdd.react.boson 1)‖ = ‖c.gs‖ := rfl
    have k3 : ‖(unit c).kappa (gAdd.react.flavour 3) (gAdd.react.boson 0)‖ = ‖c.gs‖ := rfl
    have k4 : ‖(unit c).kappa (gAdd.react.flavour 3) (gAdd.react.boson 1)‖ = ‖(((-((1 : Nat) : ℝ)) / ((3 : Nat) : ℝ)) : ℝ)‖ := by rw [← qf]; exact congrArg norm (one_mul _)
    rw [x, k1, k2, k3, k4]
    ring
  have fin : ∀ {x : ℂ} {b b' : ℝ}, ‖x‖ * ‖(((-((1 : Nat) : ℝ)) / ((3 : Nat) : ℝ)) : ℝ)‖ = ‖c.gs‖ * (‖(gAdd.N (unit c) p).c 0‖ * ‖(gAdd.N (unit c) p).c 1‖) * b' → b * ‖(((-((1 : Nat) : ℝ)) / ((3 : Nat) : ℝ)) : ℝ)‖ = ‖c.gs‖ * b' → ‖x‖ ^ 2 = ((ggdd.N c p).r 3 * (ggdd.N c p).r 4) ^ 2 * b ^ 2 := by
    intro x b b' h h'
    have y : ‖x‖ = ‖(gAdd.N (unit c) p).c 0‖ * ‖(gAdd.N (unit c) p).c 1‖ * b := by
      have k : ‖(((-((1 : Nat) : ℝ)) / ((3 : Nat) : ℝ)) : ℝ)‖ ≠ 0 := norm_ne_zero_iff.2 Q
      apply mul_right_cancel₀ k
      rw [h, mul_assoc _ b, h']; ring
    rw [y, c0, c1, Complex.norm_real, Complex.norm_real, Real.norm_eq_abs, Real.norm_eq_abs, mul_pow, mul_pow, sq_abs, sq_abs]; ring
  have all : ∀ (s2 : Fin 2) (s3 : Fin 2) (h0 : Fin 2) (h1 : Fin 2), ‖Cls.ggdd.m_amp_Num.mean (ggdd.N c p) (callMean (ggdd.N c p) []) .c [spinW h0, spinW h1, spinOf s2, spinOf s3]‖ * ‖(((-((1 : Nat) : ℝ)) / ((3 : Nat) : ℝ)) : ℝ)‖ = ‖c.gs‖ * (‖(gAdd.N (unit c) p).c 0‖ * ‖(gAdd.N (unit c) p).c 1‖) * ‖Cls.gAdd.m_amp.mean (gAdd.N (unit c) p) (callMean (gAdd.N (unit c) p) []) .c [spinW h0, spinW h1, spinOf s2, spinOf s3]‖ := by
    intro s2 s3 h0 h1
    match h0, h1 with
    | 1, 1 => exact sc (sPP s2 s3)
    | 1, 0 => exact sc (sPM s2 s3)
    | 0, 1 => exact sc (sMP s2 s3)
    | 0, 0 => exact sc (sMM s2 s3)
  intro s2 s3 h0 h1
  have x := all s2 s3 h0 h1
  rw [am] at x
  exact fin x (bo ..)

variable [FPEnv] in
theorem ggdd.agrees : ggdd.Agrees := by
  refine agrees_of (D := []) (E := []) (by simp [all, ggdd]) (by decide +kernel) (by decide) (by decide +kernel) (fun c hc hh => ⟨List.forall_mem_nil _, List.forall_mem_nil _⟩) (fun c hc i => ggdd.mass_eq hc i) (by decide +kernel) ?_
  intro c p u ε hc hh hw h0 hs hb hr hu
  have he : ggdd.react.ends = [2] := by decide
  have ht : ggdd.react.starts = [3] := by decide
  have hB : ggdd.react.bosons = [0, 1] := by decide
  obtain ⟨n2, n3, n4, d0, o1, o2, am⟩ := ggdd.amps hc hh h0 hs hb hr hu
  have hd : ∀ x ∈ ggdd.proc.divides, x = (Ty.r, 2) ∨ x = (Ty.r, 3) ∨ x = (Ty.r, 4) := by decide +kernel
  refine ⟨fun n hn => ?_, fun n hn => ?_, ?_⟩
  · rcases hd _ hn with h | h | h <;> cases h
    · exact n2
    · exact n3
    · exact n4
  · rcases hd _ hn with h | h | h <;> cases h
  show meaning (ggdd.N c p) .r Cls.ggdd.methods Cls.ggdd.amp2 [] = _
  have s0 : ggdd.react.states 0 = 16 := by decide +kernel
  have s1 : ggdd.react.states 1 = 16 := by decide +kernel
  have sy : ggdd.react.symmetry = 1 := by decide
  have p0 : ggdd.react.spins 0 = {0, 1} := rfl
  have p1 : ggdd.react.spins 1 = {0, 1} := rfl
  have p2 : ggdd.react.spins 2 = {0, 1} := rfl
  have p3 : ggdd.react.spins 3 = {0, 1} := rfl
  have E0 : ggdd.react.codeE c p 0 = lightE (legA (p 0) 0 0, legS (p 0) 0 1) := rfl
  have E1 : ggdd.react.codeE c p 1 = lightE (legA (p 1) 0 0, legS (p 1) 0 1) := rfl
  have hG : ggdd.react.Gauge c p := (ggdd.react.gauge_line he ht hB hh (by decide) (fun n => onShell_msq (hs n)) hb hr (fun n m h h2 => absurd (And.intro h h2) (by revert n m; decide)) (fun _ => ⟨rfl, rfl⟩) (fun _ => ⟨rfl, rfl⟩))
  rw [ggdd.value, ggdd.react.squared_gluons he ht hB (by decide) rfl rfl rfl rfl hb hr (by decide +kernel) (by decide +kernel) hs h0 (fun _ b _ hb _ => (boson_pos hc hh hb).ne') hG (E := ggdd.react.codeE c p) (fun n b hl => ggdd.react.codeE_polarised hs h0 hu (fun b hb => (boson_pos hc hh hb).ne') n b hl) hu, o1, o2, colour_weights n2 n3 n4 d0, sum_colours, s0, s1, sy]
  simp only [sumJ_sum, sumW_sum, am, p0, p1, p2, p3, E0, E1, Finset.sum_singleton, sum_two, Matrix.cons_val_zero, Matrix.cons_val_one, Matrix.cons_val, two_castSucc]
  simp only [← Finset.sum_mul, ← Finset.mul_sum]
  push_cast
  ring

/-! ### gguu -/

/-- what the methods of the class see -/
noncomputable abbrev gguu.N [FPEnv] (c : Constants) (p : Nat → V4 ℝ) : Env := gguu.proc.env (gguu.rho c) p
/-- `amp_Num` for a gluon of positive helicity and one of positive helicity (SM/gguu.cpp) -/
noncomputable def gguu.termPP (N : Env) (j3 j4 : Int) : ℂ := (((((((((2 : Nat) : ℝ) * N.r 0) * N.r 0) * N.r 1) : ℝ) : ℂ) * N.v 2 []) * N.v 2 []) * N.v 1 [j3, j4]
/-- `amp_Num` for a gluon of positive helicity and one of negative helicity (SM/gguu.cpp) -/
noncomputable def gguu.termPM (N : Env) (j3 j4 : Int) : ℂ := ((((((-((2 : Nat) : ℝ)) * N.r 0) * N.r 0) : ℝ) : ℂ) * (N.v 4 [j3] * N.v 7 [j4] + N.v 10 [j4] * N.v 9 [j3])) * N.v 12 []
/-- `amp_Num` for a gluon of negative helicity and one of positive helicity (SM/gguu.cpp) -/
noncomputable def gguu.termMP (N : Env) (j3 j4 : Int) : ℂ := ((((((-((2 : Nat) : ℝ)) * N.r 0) * N.r 0) : ℝ) : ℂ) * (N.v 5 [j3] * N.v 6 [j4] + N.v 11 [j4] * N.v 8 [j3])) * N.v 13 []
/-- `amp_Num` for a gluon of negative helicity and one of negative helicity (SM/gguu.cpp) -/
noncomputable def gguu.termMM (N : Env) (j3 j4 : Int) : ℂ := (((((((((2 : Nat) : ℝ) * N.r 0) * N.r 0) * N.r 1) : ℝ) : ℂ) * N.v 3 []) * N.v 3 []) * N.v 0 [j3, j4]
set_option maxRecDepth 8000 in
theorem gguu.ampPP (N : Env) (f : Nat → List Int → ℂ) (j3 j4 : Int) : Cls.gguu.m_amp_Num.mean N f .c [2, 2, j3, j4] = gguu.termPP N j3 j4 := by rfl
set_option maxRecDepth 8000 in
theorem gguu.ampPM (N : Env) (f : Nat → List Int → ℂ) (j3 j4 : Int) : Cls.gguu.m_amp_Num.mean N f .c [2, (-2), j3, j4] = gguu.termPM N j3 j4 := by rfl
set_option maxRecDepth 8000 in
theorem gguu.ampMP (N : Env) (f : Nat → List Int → ℂ) (j3 j4 : Int) : Cls.gguu.m_amp_Num.mean N f .c [(-2), 2, j3, j4] = gguu.termMP N j3 j4 := by rfl
set_option maxRecDepth 8000 in
theorem gguu.ampMM (N : Env) (f : Nat → List Int → ℂ) (j3 j4 : Int) : Cls.gguu.m_amp_Num.mean N f .c [(-2), (-2), j3, j4] = gguu.termMM N j3 j4 := by rfl
set_option maxRecDepth 8000 in
theorem gguu.amp2_eq (N : Env) (f : Nat → List Int → ℂ) : Cls.gguu.m_amp2.mean N f .r [] =
    ((sumW (fun x a => (sumW (fun x b => (sumJ (fun x c => (sumJ (fun x d => (x + (‖(f 0 [a, b, c, d])‖ ^ 2 * ((((6 : Nat) : ℝ) / (N.r 2 * N.r 3) ^ 2 + ((6 : Nat) : ℝ) / (N.r 2 * N.r 4) ^ 2) - ((2 : Nat) : ℝ) / ((3 : Nat) : ℝ) / (N.r 3 * N.r 4) ^ 2)))) x)) x)) x)) ((0 : Nat) : ℝ)) / ((256 : Nat) : ℝ)) := by rfl
set_option maxRecDepth 8000 in
theorem gguu.value (N : Env) : meaning N .r Cls.gguu.methods Cls.gguu.amp2 [] =
    ((sumW (fun x a => (sumW (fun x b => (sumJ (fun x c => (sumJ (fun x d => (x + (‖(Cls.gguu.m_amp_Num.mean N (callMean N []) .c [a, b, c, d])‖ ^ 2 * ((((6 : Nat) : ℝ) / (N.r 2 * N.r 3) ^ 2 + ((6 : Nat) : ℝ) / (N.r 2 * N.r 4) ^ 2) - ((2 : Nat) : ℝ) / ((3 : Nat) : ℝ) / (N.r 3 * N.r 4) ^ 2)))) x)) x)) x)) ((0 : Nat) : ℝ)) / ((256 : Nat) : ℝ)) :=
  gguu.amp2_eq N (callMean N [Cls.gguu.m_amp2_Feynman, Cls.gguu.m_amp_Num])

theorem gguu.mass_eq {c : Constants} (hc : c.Physical) (i : Fin 4) : gguu.proc.massNum (gguu.rho c) i = gguu.react.mass c i := by
  fin_cases i <;> first | rfl | exact Nat.cast_zero

variable [FPEnv] in
theorem gguu.amps {c : Constants} {p : Nat → V4 ℝ} {u : Fin 4 → Fin 3 → Spinor} {ε : Fin 4 → Fin 3 → Vec} (hc : c.Physical) (hh : c.Heavy) (h0 : ∀ i, 0 ≤ gguu.react.mass c i) (hs : ∀ i : Fin 4, OnShell (p i) (gguu.react.mass c i)) (hb : Balanced p) (hr : gguu.react.Regular c p) (hu : ∀ i, gguu.react.Complete c p i (u i) (ε i)) :
    (gguu.N c p).r 2 ≠ 0 ∧ (gguu.N c p).r 3 ≠ 0 ∧ (gguu.N c p).r 4 ≠ 0 ∧ (gguu.N c p).r 2 + (gguu.N c p).r 3 + (gguu.N c p).r 4 = 0 ∧
    gguu.react.order c p 3 0 1 = (gguu.N c p).r 3 / (gguu.N c p).r 2 ∧ gguu.react.order c p 3 1 0 = (gguu.N c p).r 4 / (gguu.N c p).r 2 ∧
    ∀ (s2 : Fin 2) (s3 : Fin 2) (h0 : Fin 2) (h1 : Fin 2), ‖Cls.gguu.m_amp_Num.mean (gguu.N c p) (callMean (gguu.N c p) []) .c [spinW h0, spinW h1, spinOf s2, spinOf s3]‖ ^ 2 = ((gguu.N c p).r 3 * (gguu.N c p).r 4) ^ 2 * ‖gguu.react.bare c p 2 3 0 1 (gguu.react.codePair c p 2 s2) (gguu.react.codePair c p 3 s3) (lightE (legA (p 0) 0 0, legS (p 0) 0 1) h0.castSucc) (lightE (legA (p 1) 0 0, legS (p 1) 0 1) h1.castSucc)‖ ^ 2 := by
  have he : gguu.react.ends = [2] := by decide
  have ht : gguu.react.starts = [3] := by decide
  have hB : gguu.react.bosons = [0, 1] := by decide
  obtain ⟨f1, f2, f3⟩ := gguu.react.regular_line he ht hB hr
  have hr' : gAuu.react.Regular (unit c) p := by
    have hA : gAuu.react.Regular (unit c) p ↔ gAuu.react.Fermionic (unit c) p 2 3 0 1 ∧ gAuu.react.Fermionic (unit c) p 2 3 1 0 ∧ gAuu.react.Bosonic (unit c) p 2 3 0 1 := Iff.rfl
    refine hA.2 ⟨?_, ?_, ?_⟩
    · intro x hx _; cases hx; exact f1 .u rfl rfl
    · intro x hx _; cases hx; exact f2 .u rfl rfl
    · intro x hx _; cases x <;> cases hx
  have hu' : ∀ i, gAuu.react.Complete (unit c) p i (u i) (ε i) := by intro i; have := hu i; fin_cases i <;> exact this
  have hs' : ∀ i : Fin 4, OnShell (p i) (gAuu.react.mass (unit c) i) := by intro i; have := hs i; fin_cases i <;> exact this
  have h0' : ∀ i : Fin 4, 0 ≤ gAuu.react.mass (unit c) i := by intro i; have := h0 i; fin_cases i <;> exact this
  obtain ⟨n0, n1, -, -, am⟩ := gAuu.amps (unit_physical hc) (unit_heavy hh) h0' hs' hb hr' hu'
  have e2 : (gguu.N c p).r 2 = (poleDist ((0 : Nat) : ℝ) ((0 : Nat) : ℝ) ((VExp.add 0 1).sum p)).re := rfl
  rw [Nat.cast_zero, pole_fermion rfl, Complex.ofReal_re, show msq ((VExp.add 0 1).sum p) - (0 : ℝ) ^ 2 = msq ((VExp.add 0 1).sum p) by ring] at e2
  have e3 : (gguu.N c p).r 3 = (poleDist (c.mass .u) ((0 : Nat) : ℝ) ((VExp.sub 0 2).sum p)).re := rfl
  rw [Nat.cast_zero, pole_fermion rfl, Complex.ofReal_re] at e3
  have e4 : (gguu.N c p).r 4 = (poleDist (c.mass .u) ((0 : Nat) : ℝ) ((VExp.sub 0 3).sum p)).re := rfl
  rw [Nat.cast_zero, pole_fermion rfl, Complex.ofReal_re] at e4
  have c0 : (gAuu.N (unit c) p).c 0 = ((gguu.N c p).r 3 : ℂ) := by
    have : (gAuu.N (unit c) p).c 0 = poleDist (c.mass .u) ((0 : Nat) : ℝ) ((VExp.sub 0 2).sum p) := rfl
    rw [this, Nat.cast_zero, pole_fermion rfl, e3]
  have n3' : (gguu.N c p).r 3 ≠ 0 := by have := n0; rw [c0] at this; exact_mod_cast this
  have c1 : (gAuu.N (unit c) p).c 1 = ((gguu.N c p).r 4 : ℂ) := by
    have : (gAuu.N (unit c) p).c 1 = poleDist (c.mass .u) ((0 : Nat) : ℝ) ((VExp.sub 0 3).sum p) := rfl
    rw [this, Nat.cast_zero, pole_fermion rfl, e4]
  have n4' : (gguu.N c p).r 4 ≠ 0 := by have := n1; rw [c1] at this; exact_mod_cast this
  have n2' : (gguu.N c p).r 2 ≠ 0 := by
    rw [e2, ← msq_s hb (plus (p 0) (p 1)) (by simp)]
    intro h
    refine f3 .gluon rfl rfl ?_
    show denominator c .gluon (plus (p 0) (p 1)) = 0
    rw [denominator, breitWigner, h]
    apply Complex.ext <;> simp [Constants.bosonMass]
  have q0 : msq (p 0) = 0 := (onShell_msq (hs 0)).trans (by show (0 : ℝ) ^ 2 = 0; norm_num)
  have q1 : msq (p 1) = 0 := (onShell_msq (hs 1)).trans (by show (0 : ℝ) ^ 2 = 0; norm_num)
  have q2 : msq (p 2) = c.mass .u ^ 2 := onShell_msq (hs 2)
  have q3 : msq (p 3) = c.mass .u ^ 2 := onShell_msq (hs 3)
  have d0 : (gguu.N c p).r 2 + (gguu.N c p).r 3 + (gguu.N c p).r 4 = 0 := by
    have := balanced_three hb
    rw [e2, e3, e4]
    simp only [msq, VExp.sum, this, plus, backward] at q0 q1 q2 q3 ⊢
    linarith
  refine ⟨n2', n3', n4', d0, ?_, ?_, ?_⟩
  · show (msq (plus (backward (p 3)) (p 1)) - c.mass .u ^ 2) / msq (plus (p 0) (p 1)) = _
    rw [e3, e2, msq_t hb (plus (backward (p 3)) (p 1)) (by simp), msq_s hb (plus (p 0) (p 1)) (by simp)]
  · show (msq (plus (backward (p 3)) (p 0)) - c.mass .u ^ 2) / msq (plus (p 1) (p 0)) = _
    rw [e4, e2, msq_u hb (plus (backward (p 3)) (p 0)) (by simp), msq_s hb (plus (p 1) (p 0)) (by simp)]
  have Q : (((2 : Nat) : ℝ) / ((3 : Nat) : ℝ)) ≠ 0 := by norm_num
  have qf : (Flavour.u).charge = (((2 : Nat) : ℝ) / ((3 : Nat) : ℝ)) := by norm_num [Flavour.charge, Flavour.u]
  have r0 : (gAuu.N (unit c) p).r 0 = 1 := rfl
  have r1 : (gAuu.N (unit c) p).r 1 = (((2 : Nat) : ℝ) / ((3 : Nat) : ℝ)) := rfl
  have r2 : (gAuu.N (unit c) p).r 2 = c.gs := rfl
  have r3 : (gAuu.N (unit c) p).r 3 = c.mass .u := rfl
  have g0 : (gguu.N c p).r 0 = c.gs := rfl
  have g1 : (gguu.N c p).r 1 = c.mass .u := rfl
  have sc : ∀ {x y : ℂ}, x * ((((2 : Nat) : ℝ) / ((3 : Nat) : ℝ)) : ℝ) = (c.gs * ((gAuu.N (unit c) p).c 0 * (gAuu.N (unit c) p).c 1) * y) → ‖x‖ * ‖((((2 : Nat) : ℝ) / ((3 : Nat) : ℝ)) : ℝ)‖ = ‖c.gs‖ * (‖(gAuu.N (unit c) p).c 0‖ * ‖(gAuu.N (unit c) p).c 1‖) * ‖y‖ := by
    intro x y h
    have := congrArg norm h
    simpa only [norm_mul, norm_neg, Complex.norm_real] using this
  have sPP : ∀ (s2 s3 : Fin 2), Cls.gguu.m_amp_Num.mean (gguu.N c p) (callMean (gguu.N c p) []) .c [2, 2, spinOf s2, spinOf s3] * ((((2 : Nat) : ℝ) / ((3 : Nat) : ℝ)) : ℝ) = (c.gs * ((gAuu.N (unit c) p).c 0 * (gAuu.N (unit c) p).c 1) * Cls.gAuu.m_amp.mean (gAuu.N (unit c) p) (callMean (gAuu.N (unit c) p) []) .c [2, 2, spinOf s2, spinOf s3]) := by
    intro s2 s3
    rw [gguu.ampPP, gAuu.ampPP]
    have w2 : (gguu.N c p).v 2 [] = (gAuu.N (unit c) p).v 2 [] := rfl
    have w1 : (gguu.N c p).v 1 [spinOf s2, spinOf s3] = (gAuu.N (unit c) p).v 1 [spinOf s2, spinOf s3] := rfl
    simp only [gguu.termPP, gAuu.termPP, w2, w1, r0, r1, r2, r3, g0, g1]
    field_simp
    try push_cast
    try ring1
  have sPM : ∀ (s2 s3 : Fin 2), Cls.gguu.m_amp_Num.mean (gguu.N c p) (callMean (gguu.N c p) []) .c [2, (-2), spinOf s2, spinOf s3] * ((((2 : Nat) : ℝ) / ((3 : Nat) : ℝ)) : ℝ) = (c.gs * ((gAuu.N (unit c) p).c 0 * (gAuu.N (unit c) p).c 1) * Cls.gAuu.m_amp.mean (gAuu.N (unit c) p) (callMean (gAuu.N (unit c) p) []) .c [2, (-2), spinOf s2, spinOf s3]) := by
    intro s2 s3
    rw [gguu.ampPM, gAuu.ampPM]
    have w4 : (gguu.N c p).v 4 [spinOf s2] = (gAuu.N (unit c) p).v 4 [spinOf s2] := rfl
    have w7 : (gguu.N c p).v 7 [spinOf s3] = (gAuu.N (unit c) p).v 7 [spinOf s3] := rfl
    have w10 : (gguu.N c p).v 10 [spinOf s3] = (gAuu.N (unit c) p).v 10 [spinOf s3] := rfl
    have w9 : (gguu.N c p).v 9 [spinOf s2] = (gAuu.N (unit c) p).v 9 [spinOf s2] := rfl
    have w12 : (gguu.N c p).v 12 [] = (gAuu.N (unit c) p).v 12 [] := rfl
    simp only [gguu.termPM, gAuu.termPM, w4, w7, w10, w9, w12, r0, r1, r2, r3, g0, g1]
    field_simp
    try push_cast
    try ring1
  have sMP : ∀ (s2 s3 : Fin 2), Cls.gguu.m_amp_Num.mean (gguu.N c p) (callMean (gguu.N c p) []) .c [(-2), 2, spinOf s2, spinOf s3] * ((((2 : Nat) : ℝ) / ((3 : Nat) : ℝ)) : ℝ) = (c.gs * ((gAuu.N (unit c) p).c 0 * (gAuu.N (unit c) p).c 1) * Cls.gAuu.m_amp.mean (gAuu.N (unit c) p) (callMean (gAuu.N (unit c) p) []) .c [(-2), 2, spinOf s2, spinOf s3]) := by
    intro s2 s3
    rw [gguu.ampMP, gAuu.ampMP]
    have w5 : (gguu.N c p).v 5 [spinOf s2] = (gAuu.N (unit c) p).v 5 [spinOf s2] := rfl
    have w6 : (gguu.N c p).v 6 [spinOf s3] = (gAuu.N (unit c) p).v 6 [spinOf s3] := rfl
    have w11 : (gguu.N c p).v 11 [spinOf s3] = (gAuu.N (unit c) p).v 11 [spinOf s3] := rfl
    have w8 : (gguu.N c p).v 8 [spinOf s2] = (gAuu.N (unit c) p).v 8 [spinOf s2] := rfl
    have w13 : (gguu.N c p).v 13 [] = (gAuu.N (unit c) p).v 13 [] := rfl
    simp only [gguu.termMP, gAuu.termMP, w5, w6, w11, w8, w13, r0, r1, r2, r3, g0, g1]
    field_simp
    try push_cast
    try ring1
  have sMM : ∀ (s2 s3 : Fin 2), Cls.gguu.m_amp_Num.mean (gguu.N c p) (callMean (gguu.N c p) []) .c [(-2), (-2), spinOf s2, spinOf s3] * ((((2 : Nat) : ℝ) / ((3 : Nat) : ℝ)) : ℝ) = (c.gs * ((gAuu.N (unit c) p).c 0 * (gAuu.N (unit c) p).c 1) * Cls.gAuu.m_amp.mean (gAuu.N (unit c) p) (callMean (gAuu.N (unit c) p) []) .c [(-2), (-2), spinOf s2, spinOf s3]) := by
    intro s2 s3
    rw [gguu.ampMM, gAuu.ampMM]
    have w3 : (gguu.N c p).v 3 [] = (gAuu.N (unit c) p).v 3 [] := rfl
    have w0 : (gguu.N c p).v 0 [spinOf s2, spinOf s3] = (gAuu.N (unit c) p).v 0 [spinOf s2, spinOf s3] := rfl
    simp only [gguu.termMM, gAuu.termMM, w3, w0, r0, r1, r2, r3, g0, g1]
    field_simp
    try push_cast
    try ring1
  have bo : ∀ (z w : Pair) (E F : Vec), ‖gguu.react.bare c p 2 3 0 1 z w E F‖ * ‖((((2 : Nat) : ℝ) / ((3 : Nat) : ℝ)) : ℝ)‖ = ‖c.gs‖ * ‖gAuu.react.bare (unit c) p 2 3 0 1 z w E F‖ := by
    intro z w E F
    rw [gguu.react.bare_light (i := 2) (j := 3) (a := 0) (b := 1) rfl rfl rfl rfl rfl, gAuu.react.bare_light (i := 2) (j := 3) (a := 0) (b := 1) rfl rfl rfl rfl rfl]
    have x : gguu.react.shape c p 2 3 0 1 z w E F = gAuu.react.shape (unit c) p 2 3 0 1 z w E F := rfl
    have k1 : ‖c.kappa (gguu.react.flavour 3) (gguu.react.boson 0)‖ = ‖c.gs‖ := rfl
    have k2 : ‖c.kappa (gguu.react.flavour 3) (gguu.react.boson 1)‖ = ‖c.gs‖ := rfl
    have k3 : ‖(unit c).kappa (gAuu.react.flavour 3) (gAuu.react.boson 0)‖ = ‖c.gs‖ := rfl
    have k4 : ‖(unit c).kappa (gAuu.react.flavour 3) (gAuu.react.boson 1)‖ = ‖((((2 : Nat) : ℝ) / ((3 : Nat) : ℝ)) : ℝ)‖ := by rw [← qf]; exact congrArg norm (one_mul _)
    rw [x, k1, k2, k3, k4]
    ring
  have fin : ∀ {x : ℂ} {b b' : ℝ}, ‖x‖ * ‖((((2 : Nat) : ℝ) / ((3 : Nat) : ℝ)) : ℝ)‖ = ‖c.gs‖ * (‖(gAuu.N (unit c) p).c 0‖ * ‖(gAuu.N (unit c) p).c 1‖) * b' → b * ‖((((2 : Nat) : ℝ) / ((3 : Nat) : ℝ)) : ℝ)‖ = ‖c.gs‖ * b' → ‖x‖ ^ 2 = ((gguu.N c p).r 3 * (gguu.N c p).r 4) ^ 2 * b ^ 2 := by
    intro x b b' h h'
    have y : ‖x‖ = ‖(gAuu.N (unit c) p).c 0‖ * ‖(gAuu.N (unit c) p).c 1‖ * b := by
      have k : ‖((((2 : Nat) : ℝ) / ((3 : Nat) : ℝ)) : ℝ)‖ ≠ 0 := norm_ne_zero_iff.2 Q
      apply mul_right_cancel₀ k
      rw [h, mul_assoc _ b, h']; ring
    rw [y, c0, c1, Complex.norm_real, Complex.norm_real, Real.norm_eq_abs, Real.norm_eq_abs, mul_pow, mul_pow, sq_abs, sq_abs]; ring
  have all : ∀ (s2 : Fin 2) (s3 : Fin 2) (h0 : Fin 2) (h1 : Fin 2), ‖Cls.gguu.m_amp_Num.mean (gguu.N c p) (callMean (gguu.N c p) []) .c [spinW h0, spinW h1, spinOf s2, spinOf s3]‖ * ‖((((2 : Nat) : ℝ) / ((3 : Nat) : ℝ)) : ℝ)‖ = ‖c.gs‖ * (‖(gAuu.N (unit c) p).c 0‖ * ‖(gAuu.N (unit c) p).c 1‖) * ‖Cls.gAuu.m_amp.mean (gAuu.N (unit c) p) (callMean (gAuu.N (unit c) p) []) .c [spinW h0, spinW h1, spinOf s2, spinOf s3]‖ := by
    intro s2 s3 h0 h1
    match h0, h1 with
    | 1, 1 => exact sc (sPP s2 s3)
    | 1, 0 => exact sc (sPM s2 s3)
    | 0, 1 => exact sc (sMP s2 s3)
    | 0, 0 => exact sc (sMM s2 s3)
  intro s2 s3 h0 h1
  have x := all s2 s3 h0 h1
  rw [am] at x
  exact fin x (bo ..)

variable [FPEnv] in
theorem gguu.agrees : gguu.Agrees := by
  refine agrees_of (D := []) (E := []) (by simp [all, gguu]) (by decide +kernel) (by decide) (by decide +kernel) (fun c hc hh => ⟨List.forall_mem_nil _, List.forall_mem_nil _⟩) (fun c hc i => gguu.mass_eq hc i) (by decide +kernel) ?_
  intro c p u ε hc hh hw h0 hs hb hr hu
  have he : gguu.react.ends = [2] := by decide
  have ht : gguu.react.starts = [3] := by decide
  have hB : gguu.react.bosons = [0, 1] := by decide
  obtain ⟨n2, n3, n4, d0, o1, o2, am⟩ := gguu.amps hc hh h0 hs hb hr hu
  have hd : ∀ x ∈ gguu.proc.divides, x = (Ty.r, 2) ∨ x = (Ty.r, 3) ∨ x = (Ty.r, 4) := by decide +kernel
  refine ⟨fun n hn => ?_, fun n hn => ?_, ?_⟩
  · rcases hd _ hn with h | h | h <;> cases h
    · exact n2
    · exact n3
    · exact n4
  · rcases hd _ hn with h | h | h <;> cases h
  show meaning (gguu.N c p) .r Cls.gguu.methods Cls.gguu.amp2 [] = _
  have s0 : gguu.react.states 0 = 16 := by decide +kernel
  have s1 : gguu.react.states 1 = 16 := by decide +kernel
  have sy : gguu.react.symmetry = 1 := by decide
  have p0 : gguu.react.spins 0 = {0, 1} := rfl
  have p1 : gguu.react.spins 1 = {0, 1} := rfl
  have p2 : gguu.react.spins 2 = {0, 1} := rfl
  have p3 : gguu.react.spins 3 = {0, 1} := rfl
  have E0 : gguu.react.codeE c p 0 = lightE (legA (p 0) 0 0, legS (p 0) 0 1) := rfl
  have E1 : gguu.react.codeE c p 1 = lightE (legA (p 1) 0 0, legS (p 1) 0 1) := rfl
  have hG : gguu.react.Gauge c p := (gguu.react.gauge_line he ht hB hh (by decide) (fun n => onShell_msq (hs n)) hb hr (fun n m h h2 => absurd (And.intro h h2) (by revert n m; decide)) (fun _ => ⟨rfl, rfl⟩) (fun _ => ⟨rfl, rfl⟩))
  rw [gguu.value, gguu.react.squared_gluons he ht hB (by decide) rfl rfl rfl rfl hb hr (by decide +kernel) (by decide +kernel) hs h0 (fun _ b _ hb _ => (boson_pos hc hh hb).ne') hG (E := gguu.react.codeE c p) (fun n b hl => gguu.react.codeE_polarised hs h0 hu (fun b hb => (boson_pos hc hh hb).ne') n b hl) hu, o1, o2, colour_weights n2 n3 n4 d0, sum_colours, s0, s1, sy]
  simp only [sumJ_sum, sumW_sum, am, p0, p1, p2, p3, E0, E1, Finset.sum_singleton, sum_two, Matrix.cons_val_zero, Matrix.cons_val_one, Matrix.cons_val, two_castSucc]
  simp only [← Finset.sum_mul, ← Finset.mul_sum]
  push_cast
  ring

/-! ### dggd -/

/-- what the methods of the class see -/
noncomputable abbrev dggd.N [FPEnv] (c : Constants) (p : Nat → V4 ℝ) : Env := dggd.proc.env (dggd.rho c) p
/-- `amp_Num` for a gluon of positive helicity and one of positive helicity (SM/dggd.cpp) -/
noncomputable def dggd.termPP (N : Env) (j1 j4 : Int) : ℂ := ((((((((-((2 : Nat) : ℝ)) * N.r 0) * N.r 0) * N.r 1) : ℝ) : ℂ) * N.v 8 []) * N.v 8 []) * N.v 11 [j1, j4]
/-- `amp_Num` for a gluon of positive helicity and one of negative helicity (SM/dggd.cpp) -/
noncomputable def dggd.termPM (N : Env) (j1 j4 : Int) : ℂ := ((((((-((2 : Nat) : ℝ)) * N.r 0) * N.r 0) : ℝ) : ℂ) * (N.v 5 [j1] * N.v 6 [j4] - N.v 1 [j4] * N.v 2 [j1])) * N.v 13 []
/-- `amp_Num` for a gluon of negative helicity and one of positive helicity (SM/dggd.cpp) -/
noncomputable def dggd.termMP (N : Env) (j1 j4 : Int) : ℂ := (((((((2 : Nat) : ℝ) * N.r 0) * N.r 0) : ℝ) : ℂ) * (N.v 4 [j1] * N.v 7 [j4] - N.v 0 [j4] * N.v 3 [j1])) * N.v 12 []
/-- `amp_Num` for a gluon of negative helicity and one of negative helicity (SM/dggd.cpp) -/
noncomputable def dggd.termMM (N : Env) (j1 j4 : Int) : ℂ := (((((((((2 : Nat) : ℝ) * N.r 0) * N.r 0) * N.r 1) : ℝ) : ℂ) * N.v 9 []) * N.v 9 []) * N.v 10 [j1, j4]
set_option maxRecDepth 8000 in
theorem dggd.ampPP (N : Env) (f : Nat → List Int → ℂ) (j1 j4 : Int) : Cls.dggd.m_amp_Num.mean N f .c [j1, 2, 2, j4] = dggd.termPP N j1 j4 := by rfl
set_option maxRecDepth 8000 in
theorem dggd.ampPM (N : Env) (f : Nat → List Int → ℂ) (j1 j4 : Int) : Cls.dggd.m_amp_Num.mean N f .c [j1, 2, (-2), j4] = dggd.termPM N j1 j4 := by rfl
set_option maxRecDepth 8000 in
theorem dggd.ampMP (N : Env) (f : Nat → List Int → ℂ) (j1 j4 : Int) : Cls.dggd.m_amp_Num.mean N f .c [j1, (-2), 2, j4] = dggd.termMP N j1 j4 := by rfl
set_option maxRecDepth 8000 in
theorem dggd.ampMM (N : Env) (f : Nat → List Int → ℂ) (j1 j4 : Int) : Cls.dggd.m_amp_Num.mean N f .c [j1, (-2), (-2), j4] = dggd.termMM N j1 j4 := by rfl
set_option maxRecDepth 8000 in
theorem dggd.amp2_eq (N : Env) (f : Nat → List Int → ℂ) : Cls.dggd.m_amp2.mean N f .r [] =
    ((sumJ (fun x a => (sumW (fun x b => (sumW (fun x c => (sumJ (fun x d => (x + (‖(f 0 [a, b, c, d])‖ ^ 2 * ((((6 : Nat) : ℝ) / (N.r 4 * N.r 3) ^ 2 + ((6 : Nat) : ℝ) / (N.r 4 * N.r 2) ^ 2) - ((2 : Nat) : ℝ) / ((3 : Nat) : ℝ) / (N.r 3 * N.r 2) ^ 2)))) x)) x)) x)) ((0 : Nat) : ℝ)) / ((96 : Nat) : ℝ)) := by rfl
set_option maxRecDepth 8000 in
theorem dggd.value (N : Env) : meaning N .r Cls.dggd.methods Cls.dggd.amp2 [] =
    ((sumJ (fun x a => (sumW (fun x b => (sumW (fun x c => (sumJ (fun x d => (x + (‖(Cls.dggd.m_amp_Num.mean N (callMean N []) .c [a, b, c, d])‖ ^ 2 * ((((6 : Nat) : ℝ) / (N.r 4 * N.r 3) ^ 2 + ((6 : Nat) : ℝ) / (N.r 4 * N.r 2) ^ 2) - ((2 : Nat) : ℝ) / ((3 : Nat) : ℝ) / (N.r 3 * N.r 2) ^ 2)))) x)) x)) x)) ((0 : Nat) : ℝ)) / ((96 : Nat) : ℝ)) :=
  dggd.amp2_eq N (callMean N [Cls.dggd.m_amp_Num])

theorem dggd.mass_eq {c : Constants} (hc : c.Physical) (i : Fin 4) : dggd.proc.massNum (dggd.rho c) i = dggd.react.mass c i := by
  fin_cases i <;> first | rfl | exact Nat.cast_zero

variable [FPEnv] in
theorem dggd.amps {c : Constants} {p : Nat → V4 ℝ} {u : Fin 4 → Fin 3 → Spinor} {ε : Fin 4 → Fin 3 → Vec} (hc : c.Physical) (hh : c.Heavy) (h0 : ∀ i, 0 ≤ dggd.react.mass c i) (hs : ∀ i : Fin 4, OnShell (p i) (dggd.react.mass c i)) (hb : Balanced p) (hr : dggd.react.Regular c p) (hu : ∀ i, dggd.react.Complete c p i (u i) (ε i)) :
    (dggd.N c p).r 2 ≠ 0 ∧ (dggd.N c p).r 3 ≠ 0 ∧ (dggd.N c p).r 4 ≠ 0 ∧ (dggd.N c p).r 4 + (dggd.N c p).r 3 + (dggd.N c p).r 2 = 0 ∧
    dggd.react.order c p 0 1 2 = (dggd.N c p).r 3 / (dggd.N c p).r 4 ∧ dggd.react.order c p 0 2 1 = (dggd.N c p).r 2 / (dggd.N c p).r 4 ∧
    ∀ (s0 : Fin 2) (s3 : Fin 2) (h1 : Fin 2) (h2 : Fin 2), ‖Cls.dggd.m_amp_Num.mean (dggd.N c p) (callMean (dggd.N c p) []) .c [spinOf s0, spinW h1, spinW h2, spinOf s3]‖ ^ 2 = ((dggd.N c p).r 3 * (dggd.N c p).r 2) ^ 2 * ‖dggd.react.bare c p 3 0 1 2 (dggd.react.codePair c p 3 s3) (dggd.react.codePair c p 0 s0) (lightE (legA (p 1) 0 0, legS (p 1) 0 1) h1.castSucc) (lightE (legA (p 2) 0 0, legS (p 2) 0 1) h2.castSucc)‖ ^ 2 := by
  have he : dggd.react.ends = [3] := by decide
  have ht : dggd.react.starts = [0] := by decide
  have hB : dggd.react.bosons = [1, 2] := by decide
  obtain ⟨f1, f2, f3⟩ := dggd.react.regular_line he ht hB hr
  have hr' : dAgd.react.Regular (unit c) p := by
    have hA : dAgd.react.Regular (unit c) p ↔ dAgd.react.Fermionic (unit c) p 3 0 1 2 ∧ dAgd.react.Fermionic (unit c) p 3 0 2 1 ∧ dAgd.react.Bosonic (unit c) p 3 0 1 2 := Iff.rfl
    refine hA.2 ⟨?_, ?_, ?_⟩
    · intro x hx _; cases hx; exact f1 .d rfl rfl
    · intro x hx _; cases hx; exact f2 .d rfl rfl
    · intro x hx _; cases x <;> cases hx
  have hu' : ∀ i, dAgd.react.Complete (unit c) p i (u i) (ε i) := by intro i; have := hu i; fin_cases i <;> exact this
  have hs' : ∀ i : Fin 4, OnShell (p i) (dAgd.react.mass (unit c) i) := by intro i; have := hs i; fin_cases i <;> exact this
  have h0' : ∀ i : Fin 4, 0 ≤ dAgd.react.mass (unit c) i := by intro i; have := h0 i; fin_cases i <;> exact this
  obtain ⟨n0, n1, -, -, am⟩ := dAgd.amps (unit_physical hc) (unit_heavy hh) h0' hs' hb hr' hu'
  have e2 : (dggd.N c p).r 2 = (poleDist (c.mass .d) ((0 : Nat) : ℝ) ((VExp.add 0 1).sum p)).re := rfl
  rw [Nat.cast_zero, pole_fermion rfl, Complex.ofReal_re] at e2
  have e3 : (dggd.N c p).r 3 = (poleDist (c.mass .d) ((0 : Nat) : ℝ) ((VExp.sub 0 2).sum p)).re := rfl
  rw [Nat.cast_zero, pole_fermion rfl, Complex.ofReal_re] at e3
  have e4 : (dggd.N c p).r 4 = (poleDist ((0 : Nat) : ℝ) ((0 : Nat) : ℝ) ((VExp.sub 0 3).sum p)).re := rfl
  rw [Nat.cast_zero, pole_fermion rfl, Complex.ofReal_re, show msq ((VExp.sub 0 3).sum p) - (0 : ℝ) ^ 2 = msq ((VExp.sub 0 3).sum p) by ring] at e4
  have c0 : (dAgd.N (unit c) p).c 0 = ((dggd.N c p).r 3 : ℂ) := by
    have : (dAgd.N (unit c) p).c 0 = poleDist (c.mass .d) ((0 : Nat) : ℝ) ((VExp.sub 0 2).sum p) := rfl
    rw [this, Nat.cast_zero, pole_fermion rfl, e3]
  have n3' : (dggd.N c p).r 3 ≠ 0 := by have := n0; rw [c0] at this; exact_mod_cast this
  have c1 : (dAgd.N (unit c) p).c 1 = ((dggd.N c p).r 2 : ℂ) := by
    have : (dAgd.N (unit c) p).c 1 = poleDist (c.mass .d) ((0 : Nat) : ℝ) ((VExp.add 0 1).sum p) := rfl
    rw [this, Nat.cast_zero, pole_fermion rfl, e2]
  have n2' : (dggd.N c p).r 2 ≠ 0 := by have := n1; rw [c1] at this; exact_mod_cast this
  have n4' : (dggd.N c p).r 4 ≠ 0 := by
    rw [e4, ← msq_u hb (plus (p 1) (backward (p 2))) (by simp)]
    intro h
    refine f3 .gluon rfl rfl ?_
    show denominator c .gluon (plus (p 1) (backward (p 2))) = 0
    rw [denominator, breitWigner, h]
    apply Complex.ext <;> simp [Constants.bosonMass]
  have q1 : msq (p 1) = 0 := (onShell_msq (hs 1)).trans (by show (0 : ℝ) ^ 2 = 0; norm_num)
  have q2 : msq (p 2) = 0 := (onShell_msq (hs 2)).trans (by show (0 : ℝ) ^ 2 = 0; norm_num)
  have q3 : msq (p 3) = c.mass .d ^ 2 := onShell_msq (hs 3)
  have q0 : msq (p 0) = c.mass .d ^ 2 := onShell_msq (hs 0)
  have d0 : (dggd.N c p).r 4 + (dggd.N c p).r 3 + (dggd.N c p).r 2 = 0 := by
    have := balanced_three hb
    rw [e2, e3, e4]
    simp only [msq, VExp.sum, this, plus, backward] at q0 q1 q2 q3 ⊢
    linarith
  refine ⟨n2', n3', n4', d0, ?_, ?_, ?_⟩
  · show (msq (plus (p 0) (backward (p 2))) - c.mass .d ^ 2) / msq (plus (p 1) (backward (p 2))) = _
    rw [e3, e4, msq_t hb (plus (p 0) (backward (p 2))) (by simp), msq_u hb (plus (p 1) (backward (p 2))) (by simp)]
  · show (msq (plus (p 0) (p 1)) - c.mass .d ^ 2) / msq (plus (backward (p 2)) (p 1)) = _
    rw [e2, e4, msq_s hb (plus (p 0) (p 1)) (by simp), msq_u hb (plus (backward (p 2)) (p 1)) (by simp)]
  have Q : ((-((1 : Nat) : ℝ)) / ((3 : Nat) : ℝ)) ≠ 0 := by norm_num
  have qf : (Flavour.d).charge = ((-((1 : Nat) : ℝ)) / ((3 : Nat) : ℝ)) := by norm_num [Flavour.charge, Flavour.d]
  have r0 : (dAgd.N (unit c) p).r 0 = 1 := rfl
  have r1 : (dAgd.N (unit c) p).r 1 = ((-((1 : Nat) : ℝ)) / ((3 : Nat) : ℝ)) := rfl
  have r2 : (dAgd.N (unit c) p).r 2 = c.gs := rfl
  have r3 : (dAgd.N (unit c) p).r 3 = c.mass .d := rfl
  have g0 : (dggd.N c p).r 0 = c.gs := rfl
  have g1 : (dggd.N c p).r 1 = c.mass .d := rfl
  have sc : ∀ {x y : ℂ}, x * (((-((1 : Nat) : ℝ)) / ((3 : Nat) : ℝ)) : ℝ) = -(c.gs * ((dAgd.N (unit c) p).c 0 * (dAgd.N (unit c) p).c 1) * y) → ‖x‖ * ‖(((-((1 : Nat) : ℝ)) / ((3 : Nat) : ℝ)) : ℝ)‖ = ‖c.gs‖ * (‖(dAgd.N (unit c) p).c 0‖ * ‖(dAgd.N (unit c) p).c 1‖) * ‖y‖ := by
    intro x y h
    have := congrArg norm h
    simpa only [norm_mul, norm_neg, Complex.norm_real] using this
  have m1 : dggd.react.mass c 1 = 0 := rfl
  have m2 : dggd.react.mass c 2 = 0 := rfl
  have m1' : dAgd.react.mass (unit c) 1 = 0 := rfl
  have m2' : dAgd.react.mass (unit c) 2 = 0 := rfl
  obtain ⟨l1, _, _⟩ := dggd.react.code_light hs hu (n := 1) rfl rfl
  obtain ⟨l2, _, _⟩ := dggd.react.code_light hs hu (n := 2) rfl rfl
  have w12 : (dggd.N c p).v 12 [] = (dAgd.N (unit c) p).v 12 [] := by
    have x : (dggd.N c p).v 12 [] = mb (legA (p 2) 0 0, legS (p 2) 0 1).2 (p 0) (legA (p 1) 0 0, legS (p 1) 0 1).1 := bra_mid_square (p := p) (m := dggd.proc.massNum (dggd.rho c)) (dggd.mass_eq hc 2) (dggd.mass_eq hc 1) (.inr ⟨m2, rfl⟩) (.inr ⟨m1, rfl⟩)
    have y : (dAgd.N (unit c) p).v 12 [] = mb (legA (p 2) 0 0, legS (p 2) 0 1).2 (p 3) (legA (p 1) 0 0, legS (p 1) 0 1).1 := bra_mid_square (p := p) (m := dAgd.proc.massNum (dAgd.rho (unit c))) (dAgd.mass_eq (unit_physical hc) 2) (dAgd.mass_eq (unit_physical hc) 1) (.inr ⟨m2', rfl⟩) (.inr ⟨m1', rfl⟩)
    have z := l2.mb_plus (legA (p 1) 0 0)
    have z' := l1.mb_minus (legS (p 2) 0 1)
    change mb (legS (p 2) 0 1) (p 2) (legA (p 1) 0 0) = 0 at z
    change mb (legS (p 2) 0 1) (p 1) (legA (p 1) 0 0) = 0 at z'
    rw [x, y, mb_three hb, z, z']
    ring
  have w13 : (dggd.N c p).v 13 [] = (dAgd.N (unit c) p).v 13 [] := by
    have x : (dggd.N c p).v 13 [] = mb (legA (p 1) 0 0, legS (p 1) 0 1).2 (p 0) (legA (p 2) 0 0, legS (p 2) 0 1).1 := bra_mid_square (p := p) (m := dggd.proc.massNum (dggd.rho c)) (dggd.mass_eq hc 1) (dggd.mass_eq hc 2) (.inr ⟨m1, rfl⟩) (.inr ⟨m2, rfl⟩)
    have y : (dAgd.N (unit c) p).v 13 [] = mb (legA (p 1) 0 0, legS (p 1) 0 1).2 (p 3) (legA (p 2) 0 0, legS (p 2) 0 1).1 := bra_mid_square (p := p) (m := dAgd.proc.massNum (dAgd.rho (unit c))) (dAgd.mass_eq (unit_physical hc) 1) (dAgd.mass_eq (unit_physical hc) 2) (.inr ⟨m1', rfl⟩) (.inr ⟨m2', rfl⟩)
    have z := l1.mb_plus (legA (p 2) 0 0)
    have z' := l2.mb_minus (legS (p 1) 0 1)
    change mb (legS (p 1) 0 1) (p 1) (legA (p 2) 0 0) = 0 at z
    change mb (legS (p 1) 0 1) (p 2) (legA (p 2) 0 0) = 0 at z'
    rw [x, y, mb_three hb, z, z']
    ring
  have sPP : ∀ (s0 s3 : Fin 2), Cls.dggd.m_amp_Num.mean (dggd.N c p) (callMean (dggd.N c p) []) .c [spinOf s0, 2, 2, spinOf s3] * (((-((1 : Nat) : ℝ)) / ((3 : Nat) : ℝ)) : ℝ) = -(c.gs * ((dAgd.N (unit c) p).c 0 * (dAgd.N (unit c) p).c 1) * Cls.dAgd.m_amp.mean (dAgd.N (unit c) p) (callMean (dAgd.N (unit c) p) []) .c [spinOf s0, 2, 2, spinOf s3]) := by
    intro s0 s3
    rw [dggd.ampPP, dAgd.ampPP]
    have w8 : (dggd.N c p).v 8 [] = (dAgd.N (unit c) p).v 8 [] := rfl
    have w11 : (dggd.N c p).v 11 [spinOf s0, spinOf s3] = (dAgd.N (unit c) p).v 11 [spinOf s0, spinOf s3] := rfl
    simp only [dggd.termPP, dAgd.termPP, w8, w11, r0, r1, r2, r3, g0, g1]
    field_simp
    try push_cast
    try ring1
  have sPM : ∀ (s0 s3 : Fin 2), Cls.dggd.m_amp_Num.mean (dggd.N c p) (callMean (dggd.N c p) []) .c [spinOf s0, 2, (-2), spinOf s3] * (((-((1 : Nat) : ℝ)) / ((3 : Nat) : ℝ)) : ℝ) = -(c.gs * ((dAgd.N (unit c) p).c 0 * (dAgd.N (unit c) p).c 1) * Cls.dAgd.m_amp.mean (dAgd.N (unit c) p) (callMean (dAgd.N (unit c) p) []) .c [spinOf s0, 2, (-2), spinOf s3]) := by
    intro s0 s3
    rw [dggd.ampPM, dAgd.ampPM]
    have w5 : (dggd.N c p).v 5 [spinOf s0] = (dAgd.N (unit c) p).v 5 [spinOf s0] := rfl
    have w6 : (dggd.N c p).v 6 [spinOf s3] = (dAgd.N (unit c) p).v 6 [spinOf s3] := rfl
    have w1 : (dggd.N c p).v 1 [spinOf s3] = (dAgd.N (unit c) p).v 1 [spinOf s3] := rfl
    have w2 : (dggd.N c p).v 2 [spinOf s0] = (dAgd.N (unit c) p).v 2 [spinOf s0] := rfl
    simp only [dggd.termPM, dAgd.termPM, w5, w6, w1, w2, w13, r0, r1, r2, r3, g0, g1]
    field_simp
    try push_cast
    try ring1
  have sMP : ∀ (s0 s3 : Fin 2), Cls.dggd.m_amp_Num.mean (dggd.N c p) (callMean (dggd.N c p) []) .c [spinOf s0, (-2), 2, spinOf s3] * (((-((1 : Nat) : ℝ)) / ((3 : Nat) : ℝ)) : ℝ) = -(c.gs * ((dAgd.N (unit c) p).c 0 * (dAgd.N (unit c) p).c 1) * Cls.dAgd.m_amp.mean (dAgd.N (unit c) p) (callMean (dAgd.N (unit c) p) []) .c [spinOf s0, (-2), 2, spinOf s3]) := by
    intro s0 s3
    rw [dggd.ampMP, dAgd.ampMP]
    have w4 : (dggd.N c p).v 4 [spinOf s0] = (dAgd.N (unit c) p).v 4 [spinOf s0] := rfl
    have w7 : (dggd.N c p).v 7 [spinOf s3] = (dAgd.N (unit c) p).v 7 [spinOf s3] := rfl
    have w0 : (dggd.N c p).v 0 [spinOf s3] = (dAgd.N (unit c) p).v 0 [spinOf s3] := rfl
    have w3 : (dggd.N c p).v 3 [spinOf s0] = (dAgd.N (unit c) p).v 3 [spinOf s0] := rfl
    simp only [dggd.termMP, dAgd.termMP, w4, w7, w0, w3, w12, r0, r1, r2, r3, g0, g1]
    field_simp
    try push_cast
    try ring1
  have sMM : ∀ (s0 s3 : Fin 2), Cls.dggd.m_amp_Num.mean (dggd.N c p) (callMean (dggd.N c p) []) .c [spinOf s0, (-2), (-2), spinOf s3] * (((-((1 : Nat) : ℝ)) / ((3 : Nat) : ℝ)) : ℝ) = -(c.gs * ((dAgd.N (unit c) p).c 0 * (dAgd.N (unit c) p).c 1) * Cls.dAgd.m_amp.mean (dAgd.N (unit c) p) (callMean (dAgd.N (unit c) p) []) .c [spinOf s0, (-2), (-2), spinOf s3]) := by
    intro s0 s3
    rw [dggd.ampMM, dAgd.ampMM]
    have w9 : (dggd.N c p).v 9 [] = (dAgd.N (unit c) p).v 9 [] := rfl
    have w10 : (dggd.N c p).v 10 [spinOf s0, spinOf s3] = (dAgd.N (unit c) p).v 10 [spinOf s0, spinOf s3] := rfl
    simp only [dggd.termMM, dAgd.termMM, w9, w10, r0, r1, r2, r3, g0, g1]
    field_simp
    try push_cast
    try ring1
  have bo : ∀ (z w : Pair) (E F : Vec), ‖dggd.react.bare c p 3 0 1 2 z w E F‖ * ‖(((-((1 : Nat) : ℝ)) / ((3 : Nat) : ℝ)) : ℝ)‖ = ‖c.gs‖ * ‖dAgd.react.bare (unit c) p 3 0 1 2 z w E F‖ := by
    intro z w E F
    rw [dggd.react.bare_light (i := 3) (j := 0) (a := 1) (b := 2) rfl rfl rfl rfl rfl, dAgd.react.bare_light (i := 3) (j := 0) (a := 1) (b := 2) rfl rfl rfl rfl rfl]
    have x : dggd.react.shape c p 3 0 1 2 z w E F = dAgd.react.shape (unit c) p 3 0 1 2 z w E F := rfl
    have k1 : ‖c.kappa (dggd.react.flavour 0) (dggd.react.boson 1)‖ = ‖c.gs‖ := rfl
    have k2 : ‖c.kappa (dggd.react.flavour 0) (dggd.react.boson 2)‖ = ‖c.gs‖ := rfl
    have k3 : ‖(unit c).kappa (dAgd.react.flavour 0) (dAgd.react.boson 2)‖ = ‖c.gs‖ := rfl
    have k4 : ‖(unit c).kappa (dAgd.react.flavour 0) (dAgd.react.boson 1)‖ = ‖(((-((1 : Nat) : ℝ)) / ((3 : Nat) : ℝ)) : ℝ)‖ := by rw [← qf]; exact congrArg norm (one_mul _)
    rw [x, k1, k2, k3, k4]
    ring
  have fin : ∀ {x : ℂ} {b b' : ℝ}, ‖x‖ * ‖(((-((1 : Nat) : ℝ)) / ((3 : Nat) : ℝ)) : ℝ)‖ = ‖c.gs‖ * (‖(dAgd.N (unit c) p).c 0‖ * ‖(dAgd.N (unit c) p).c 1‖) * b' → b * ‖(((-((1 : Nat) : ℝ)) / ((3 : Nat) : ℝ)) : ℝ)‖ = ‖c.gs‖ * b' → ‖x‖ ^ 2 = ((dggd.N c p).r 3 * (dggd.N c p).r 2) ^ 2 * b ^ 2 := by
    intro x b b' h h'
    have y : ‖x‖ = ‖(dAgd.N (unit c) p).c 0‖ * ‖(dAgd.N (unit c) p).c 1‖ * b := by
      have k : ‖(((-((1 : Nat) : ℝ)) / ((3 : Nat) : ℝ)) : ℝ)‖ ≠ 0 := norm_ne_zero_iff.2 Q
      apply mul_right_cancel₀ k
      rw [h, mul_assoc _ b, h']; ring
    rw [y, c0, c1, Complex.norm_real, Complex.norm_real, Real.norm_eq_abs, Real.norm_eq_abs, mul_pow, mul_pow, sq_abs, sq_abs]; ring
  have all : ∀ (s0 : Fin 2) (s3 : Fin 2) (h1 : Fin 2) (h2 : Fin 2), ‖Cls.dggd.m_amp_Num.mean (dggd.N c p) (callMean (dggd.N c p) []) .c [spinOf s0, spinW h1, spinW h2, spinOf s3]‖ * ‖(((-((1 : Nat) : ℝ)) / ((3 : Nat) : ℝ)) : ℝ)‖ = ‖c.gs‖ * (‖(dAgd.N (unit c) p).c 0‖ * ‖(dAgd.N (unit c) p).c 1‖) * ‖Cls.dAgd.m_amp.mean (dAgd.N (unit c) p) (callMean (dAgd.N (unit c) p) []) .c [spinOf s0, spinW h1, spinW h2, spinOf s3]‖ := by
    intro s0 s3 h1 h2
    match h1, h2 with
    | 1, 1 => exact sc (sPP s0 s3)
    | 1, 0 => exact sc (sPM s0 s3)
    | 0, 1 => exact sc (sMP s0 s3)
    | 0, 0 => exact sc (sMM s0 s3)
  intro s0 s3 h1 h2
  have x := all s0 s3 h1 h2
  rw [am] at x
  exact fin x (bo ..)

variable [FPEnv] in
theorem dggd.agrees : dggd.Agrees := by
  refine agrees_of (D := []) (E := []) (by simp [all, dggd]) (by decide +kernel) (by decide) (by decide +kernel) (fun c hc hh => ⟨List.forall_mem_nil _, List.forall_mem_nil _⟩) (fun c hc i => dggd.mass_eq hc i) (by decide +kernel) ?_
  intro c p u ε hc hh hw h0 hs hb hr hu
  have he : dggd.react.ends = [3] := by decide
  have ht : dggd.react.starts = [0] := by decide
  have hB : dggd.react.bosons = [1, 2] := by decide
  obtain ⟨n2, n3, n4, d0, o1, o2, am⟩ := dggd.amps hc hh h0 hs hb hr hu
  have hd : ∀ x ∈ dggd.proc.divides, x = (Ty.r, 2) ∨ x = (Ty.r, 3) ∨ x = (Ty.r, 4) := by decide +kernel
  refine ⟨fun n hn => ?_, fun n hn => ?_, ?_⟩
  · rcases hd _ hn with h | h | h <;> cases h
    · exact n2
    · exact n3
    · exact n4
  · rcases hd _ hn with h | h | h <;> cases h
  show meaning (dggd.N c p) .r Cls.dggd.methods Cls.dggd.amp2 [] = _
  have s0 : dggd.react.states 0 = 6 := by decide +kernel
  have s1 : dggd.react.states 1 = 16 := by decide +kernel
  have sy : dggd.react.symmetry = 1 := by decide
  have p0 : dggd.react.spins 0 = {0, 1} := rfl
  have p1 : dggd.react.spins 1 = {0, 1} := rfl
  have p2 : dggd.react.spins 2 = {0, 1} := rfl
  have p3 : dggd.react.spins 3 = {0, 1} := rfl
  have E1 : dggd.react.codeE c p 1 = lightE (legA (p 1) 0 0, legS (p 1) 0 1) := rfl
  have E2 : dggd.react.codeE c p 2 = lightE (legA (p 2) 0 0, legS (p 2) 0 1) := rfl
  have hG : dggd.react.Gauge c p := (dggd.react.gauge_line he ht hB hh (by decide) (fun n => onShell_msq (hs n)) hb hr (fun n m h h2 => absurd (And.intro h h2) (by revert n m; decide)) (fun _ => ⟨rfl, rfl⟩) (fun _ => ⟨rfl, rfl⟩))
  rw [dggd.value, dggd.react.squared_gluons he ht hB (by decide) rfl rfl rfl rfl hb hr (by decide +kernel) (by decide +kernel) hs h0 (fun _ b _ hb _ => (boson_pos hc hh hb).ne') hG (E := dggd.react.codeE c p) (fun n b hl => dggd.react.codeE_polarised hs h0 hu (fun b hb => (boson_pos hc hh hb).ne') n b hl) hu, o1, o2, colour_weights n4 n3 n2 d0, sum_colours, s0, s1, sy]
  simp only [sumJ_sum, sumW_sum, am, p0, p1, p2, p3, E1, E2, Finset.sum_singleton, sum_two, Matrix.cons_val_zero, Matrix.cons_val_one, Matrix.cons_val, two_castSucc]
  simp only [← Finset.sum_mul, ← Finset.mul_sum]
  push_cast
  ring

/-! ### gugu -/

/-- what the methods of the class see -/
noncomputable abbrev gugu.N [FPEnv] (c : Constants) (p : Nat → V4 ℝ) : Env := gugu.proc.env (gugu.rho c) p
/-- `amp_Num` for a gluon of positive helicity and one of positive helicity (SM/gugu.cpp) -/
noncomputable def gugu.termPP (N : Env) (j2 j4 : Int) : ℂ := (((((((((2 : Nat) : ℝ) * N.r 0) * N.r 0) * N.r 1) : ℝ) : ℂ) * N.v 4 []) * N.v 4 []) * N.v 7 [j2, j4]
/-- `amp_Num` for a gluon of positive helicity and one of negative helicity (SM/gugu.cpp) -/
noncomputable def gugu.termPM (N : Env) (j2 j4 : Int) : ℂ := (((((((2 : Nat) : ℝ) * N.r 0) * N.r 0) : ℝ) : ℂ) * (N.v 10 [j4] * N.v 9 [j2] + N.v 2 [j2] * N.v 1 [j4])) * N.v 12 []
/-- `amp_Num` for a gluon of negative helicity and one of positive helicity (SM/gugu.cpp) -/
noncomputable def gugu.termMP (N : Env) (j2 j4 : Int) : ℂ := ((((((-((2 : Nat) : ℝ)) * N.r 0) * N.r 0) : ℝ) : ℂ) * (N.v 11 [j4] * N.v 8 [j2] + N.v 3 [j2] * N.v 0 [j4])) * N.v 13 []
/-- `amp_Num` for a gluon of negative helicity and one of negative helicity (SM/gugu.cpp) -/
noncomputable def gugu.termMM (N : Env) (j2 j4 : Int) : ℂ := ((((((((-((2 : Nat) : ℝ)) * N.r 0) * N.r 0) * N.r 1) : ℝ) : ℂ) * N.v 5 []) * N.v 5 []) * N.v 6 [j2, j4]
set_option maxRecDepth 8000 in
theorem gugu.ampPP (N : Env) (f : Nat → List Int → ℂ) (j2 j4 : Int) : Cls.gugu.m_amp_Num.mean N f .c [2, j2, 2, j4] = gugu.termPP N j2 j4 := by rfl
set_option maxRecDepth 8000 in
theorem gugu.ampPM (N : Env) (f : Nat → List Int → ℂ) (j2 j4 : Int) : Cls.gugu.m_amp_Num.mean N f .c [2, j2, (-2), j4] = gugu.termPM N j2 j4 := by rfl
set_option maxRecDepth 8000 in
theorem gugu.ampMP (N : Env) (f : Nat → List Int → ℂ) (j2 j4 : Int) : Cls.gugu.m_amp_Num.mean N f .c [(-2), j2, 2, j4] = gugu.termMP N j2 j4 := by rfl
set_option maxRecDepth 8000 in
theorem gugu.ampMM (N : Env) (f : Nat → List Int → ℂ) (j2 j4 : Int) : Cls.gugu.m_amp_Num.mean N f .c [(-2), j2, (-2), j4] = gugu.termMM N j2 j4 := by rfl
set_option maxRecDepth 8000 in
theorem gugu.amp2_eq (N : Env) (f : Nat → List Int → ℂ) : Cls.gugu.m_amp2.mean N f .r [] =
    ((sumW (fun x a => (sumJ (fun x b => (sumW (fun x c => (sumJ (fun x d => (x + (‖(f 0 [a, b, c, d])‖ ^ 2 * ((((6 : Nat) : ℝ) / (N.r 3 * N.r 4) ^ 2 + ((6 : Nat) : ℝ) / (N.r 3 * N.r 2) ^ 2) - ((2 : Nat) : ℝ) / ((3 : Nat) : ℝ) / (N.r 4 * N.r 2) ^ 2)))) x)) x)) x)) ((0 : Nat) : ℝ)) / ((96 : Nat) : ℝ)) := by rfl
set_option maxRecDepth 8000 in
theorem gugu.value (N : Env) : meaning N .r Cls.gugu.methods Cls.gugu.amp2 [] =
    ((sumW (fun x a => (sumJ (fun x b => (sumW (fun x c => (sumJ (fun x d => (x + (‖(Cls.gugu.m_amp_Num.mean N (callMean N []) .c [a, b, c, d])‖ ^ 2 * ((((6 : Nat) : ℝ) / (N.r 3 * N.r 4) ^ 2 + ((6 : Nat) : ℝ) / (N.r 3 * N.r 2) ^ 2) - ((2 : Nat) : ℝ) / ((3 : Nat) : ℝ) / (N.r 4 * N.r 2) ^ 2)))) x)) x)) x)) ((0 : Nat) : ℝ)) / ((96 : Nat) : ℝ)) :=
  gugu.amp2_eq N (callMean N [Cls.gugu.m_amp_Num])

theorem gugu.mass_eq {c : Constants} (hc : c.Physical) (i : Fin 4) : gugu.proc.massNum (gugu.rho c) i = gugu.react.mass c i := by
  fin_cases i <;> first | rfl | exact Nat.cast_zero

variable [FPEnv] in
theorem gugu.amps {c : Constants} {p : Nat → V4 ℝ} {u : Fin 4 → Fin 3 → Spinor} {ε : Fin 4 → Fin 3 → Vec} (hc : c.Physical) (hh : c.Heavy) (h0 : ∀ i, 0 ≤ gugu.react.mass c i) (hs : ∀ i : Fin 4, OnShell (p i) (gugu.react.mass c i)) (hb : Balanced p) (hr : gugu.react.Regular c p) (hu : ∀ i, gugu.react.Complete c p i (u i) (ε i)) :
    (gugu.N c p).r 2 ≠ 0 ∧ (gugu.N c p).r 3 ≠ 0 ∧ (gugu.N c p).r 4 ≠ 0 ∧ (gugu.N c p).r 3 + (gugu.N c p).r 4 + (gugu.N c p).r 2 = 0 ∧
    gugu.react.order c p 1 0 2 = (gugu.N c p).r 4 / (gugu.N c p).r 3 ∧ gugu.react.order c p 1 2 0 = (gugu.N c p).r 2 / (gugu.N c p).r 3 ∧
    ∀ (s1 : Fin 2) (s3 : Fin 2) (h0 : Fin 2) (h2 : Fin 2), ‖Cls.gugu.m_amp_Num.mean (gugu.N c p) (callMean (gugu.N c p) []) .c [spinW h0, spinOf s1, spinW h2, spinOf s3]‖ ^ 2 = ((gugu.N c p).r 4 * (gugu.N c p).r 2) ^ 2 * ‖gugu.react.bare c p 3 1 0 2 (gugu.react.codePair c p 3 s3) (gugu.react.codePair c p 1 s1) (lightE (legA (p 0) 0 0, legS (p 0) 0 1) h0.castSucc) (lightE (legA (p 2) 0 0, legS (p 2) 0 1) h2.castSucc)‖ ^ 2 := by
  have he : gugu.react.ends = [3] := by decide
  have ht : gugu.react.starts = [1] := by decide
  have hB : gugu.react.bosons = [0, 2] := by decide
  obtain ⟨f1, f2, f3⟩ := gugu.react.regular_line he ht hB hr
  have hr' : guAu.react.Regular (unit c) p := by
    have hA : guAu.react.Regular (unit c) p ↔ guAu.react.Fermionic (unit c) p 3 1 0 2 ∧ guAu.react.Fermionic (unit c) p 3 1 2 0 ∧ guAu.react.Bosonic (unit c) p 3 1 0 2 := Iff.rfl
    refine hA.2 ⟨?_, ?_, ?_⟩
    · intro x hx _; cases hx; exact f1 .u rfl rfl
    · intro x hx _; cases hx; exact f2 .u rfl rfl
    · intro x hx _; cases x <;> cases hx
  have hu' : ∀ i, guAu.react.Complete (unit c) p i (u i) (ε i) := by intro i; have := hu i; fin_cases i <;> exact this
  have hs' : ∀ i : Fin 4, OnShell (p i) (guAu.react.mass (unit c) i) := by intro i; have := hs i; fin_cases i <;> exact this
  have h0' : ∀ i : Fin 4, 0 ≤ guAu.react.mass (unit c) i := by intro i; have := h0 i; fin_cases i <;> exact this
  obtain ⟨n0, n1, -, -, am⟩ := guAu.amps (unit_physical hc) (unit_heavy hh) h0' hs' hb hr' hu'
  have e2 : (gugu.N c p).r 2 = (poleDist (c.mass .u) ((0 : Nat) : ℝ) ((VExp.add 0 1).sum p)).re := rfl
  rw [Nat.cast_zero, pole_fermion rfl, Complex.ofReal_re] at e2
  have e3 : (gugu.N c p).r 3 = (poleDist ((0 : Nat) : ℝ) ((0 : Nat) : ℝ) ((VExp.sub 0 2).sum p)).re := rfl
  rw [Nat.cast_zero, pole_fermion rfl, Complex.ofReal_re, show msq ((VExp.sub 0 2).sum p) - (0 : ℝ) ^ 2 = msq ((VExp.sub 0 2).sum p) by ring] at e3
  have e4 : (gugu.N c p).r 4 = (poleDist (c.mass .u) ((0 : Nat) : ℝ) ((VExp.sub 0 3).sum p)).re := rfl
  rw [Nat.cast_zero, pole_fermion rfl, Complex.ofReal_re] at e4
  have c0 : (guAu.N (unit c) p).c 0 = ((gugu.N c p).r 2 : ℂ) := by
    have : (guAu.N (unit c) p).c 0 = poleDist (c.mass .u) ((0 : Nat) : ℝ) ((VExp.add 0 1).sum p) := rfl
    rw [this, Nat.cast_zero, pole_fermion rfl, e2]
  have n2' : (gugu.N c p).r 2 ≠ 0 := by have := n0; rw [c0] at this; exact_mod_cast this
  have c1 : (guAu.N (unit c) p).c 1 = ((gugu.N c p).r 4 : ℂ) := by
    have : (guAu.N (unit c) p).c 1 = poleDist (c.mass .u) ((0 : Nat) : ℝ) ((VExp.sub 0 3).sum p) := rfl
    rw [this, Nat.cast_zero, pole_fermion rfl, e4]
  have n4' : (gugu.N c p).r 4 ≠ 0 := by have := n1; rw [c1] at this; exact_mod_cast this
  have n3' : (gugu.N c p).r 3 ≠ 0 := by
    rw [e3, ← msq_t hb (plus (p 0) (backward (p 2))) (by simp)]
    intro h
    refine f3 .gluon rfl rfl ?_
    show denominator c .gluon (plus (p 0) (backward (p 2))) = 0
    rw [denominator, breitWigner, h]
    apply Complex.ext <;> simp [Constants.bosonMass]
  have q0 : msq (p 0) = 0 := (onShell_msq (hs 0)).trans (by show (0 : ℝ) ^ 2 = 0; norm_num)
  have q2 : msq (p 2) = 0 := (onShell_msq (hs 2)).trans (by show (0 : ℝ) ^ 2 = 0; norm_num)
  have q3 : msq (p 3) = c.mass .u ^ 2 := onShell_msq (hs 3)
  have q1 : msq (p 1) = c.mass .u ^ 2 := onShell_msq (hs 1)
  have d0 : (gugu.N c p).r 3 + (gugu.N c p).r 4 + (gugu.N c p).r 2 = 0 := by
    have := balanced_three hb
    rw [e2, e3, e4]
    simp only [msq, VExp.sum, this, plus, backward] at q0 q1 q2 q3 ⊢
    linarith
  refine ⟨n2', n3', n4', d0, ?_, ?_, ?_⟩
  · show (msq (plus (p 1) (backward (p 2))) - c.mass .u ^ 2) / msq (plus (p 0) (backward (p 2))) = _
    rw [e4, e3, msq_u hb (plus (p 1) (backward (p 2))) (by simp), msq_t hb (plus (p 0) (backward (p 2))) (by simp)]
  · show (msq (plus (p 1) (p 0)) - c.mass .u ^ 2) / msq (plus (backward (p 2)) (p 0)) = _
    rw [e2, e3, msq_s hb (plus (p 1) (p 0)) (by simp), msq_t hb (plus (backward (p 2)) (p 0)) (by simp)]
  have Q : (((2 : Nat) : ℝ) / ((3 : Nat) : ℝ)) ≠ 0 := by norm_num
  have qf : (Flavour.u).charge = (((2 : Nat) : ℝ) / ((3 : Nat) : ℝ)) := by norm_num [Flavour.charge, Flavour.u]
  have r0 : (guAu.N (unit c) p).r 0 = 1 := rfl
  have r1 : (guAu.N (unit c) p).r 1 = (((2 : Nat) : ℝ) / ((3 : Nat) : ℝ)) := rfl
  have r2 : (guAu.N (unit c) p).r 2 = c.gs := rfl
  have r3 : (guAu.N (unit c) p).r 3 = c.mass .u := rfl
  have g0 : (gugu.N c p).r 0 = c.gs := rfl
  have g1 : (gugu.N c p).r 1 = c.mass .u := rfl
  have sc : ∀ {x y : ℂ}, x * ((((2 : Nat) : ℝ) / ((3 : Nat) : ℝ)) : ℝ) = (c.gs * ((guAu.N (unit c) p).c 0 * (guAu.N (unit c) p).c 1) * y) → ‖x‖ * ‖((((2 : Nat) : ℝ) / ((3 : Nat) : ℝ)) : ℝ)‖ = ‖c.gs‖ * (‖(guAu.N (unit c) p).c 0‖ * ‖(guAu.N (unit c) p).c 1‖) * ‖y‖ := by
    intro x y h
    have := congrArg norm h
    simpa only [norm_mul, norm_neg, Complex.norm_real] using this
  have sPP : ∀ (s1 s3 : Fin 2), Cls.gugu.m_amp_Num.mean (gugu.N c p) (callMean (gugu.N c p) []) .c [2, spinOf s1, 2, spinOf s3] * ((((2 : Nat) : ℝ) / ((3 : Nat) : ℝ)) : ℝ) = (c.gs * ((guAu.N (unit c) p).c 0 * (guAu.N (unit c) p).c 1) * Cls.guAu.m_amp.mean (guAu.N (unit c) p) (callMean (guAu.N (unit c) p) []) .c [2, spinOf s1, 2, spinOf s3]) := by
    intro s1 s3
    rw [gugu.ampPP, guAu.ampPP]
    have w4 : (gugu.N c p).v 4 [] = (guAu.N (unit c) p).v 4 [] := rfl
    have w7 : (gugu.N c p).v 7 [spinOf s1, spinOf s3] = (guAu.N (unit c) p).v 7 [spinOf s1, spinOf s3] := rfl
    simp only [gugu.termPP, guAu.termPP, w4, w7, r0, r1, r2, r3, g0, g1]
    field_simp
    try push_cast
    try ring1
  have sPM : ∀ (s1 s3 : Fin 2), Cls.gugu.m_amp_Num.mean (gugu.N c p) (callMean (gugu.N c p) []) .c [2, spinOf s1, (-2), spinOf s3] * ((((2 : Nat) : ℝ) / ((3 : Nat) : ℝ)) : ℝ) = (c.gs * ((guAu.N (unit c) p).c 0 * (guAu.N (unit c) p).c 1) * Cls.guAu.m_amp.mean (guAu.N (unit c) p) (callMean (guAu.N (unit c) p) []) .c [2, spinOf s1, (-2), spinOf s3]) := by
    intro s1 s3
    rw [gugu.ampPM, guAu.ampPM]
    have w10 : (gugu.N c p).v 10 [spinOf s3] = (guAu.N (unit c) p).v 10 [spinOf s3] := rfl
    have w9 : (gugu.N c p).v 9 [spinOf s1] = (guAu.N (unit c) p).v 9 [spinOf s1] := rfl
    have w2 : (gugu.N c p).v 2 [spinOf s1] = (guAu.N (unit c) p).v 2 [spinOf s1] := rfl
    have w1 : (gugu.N c p).v 1 [spinOf s3] = (guAu.N (unit c) p).v 1 [spinOf s3] := rfl
    have w12 : (gugu.N c p).v 12 [] = (guAu.N (unit c) p).v 12 [] := rfl
    simp only [gugu.termPM, guAu.termPM, w10, w9, w2, w1, w12, r0, r1, r2, r3, g0, g1]
    field_simp
    try push_cast
    try ring1
  have sMP : ∀ (s1 s3 : Fin 2), Cls.gugu.m_amp_Num.mean (gugu.N c p) (callMean (gugu.N c p) []) .c [(-2), spinOf s1, 2, spinOf s3] * ((((2 : Nat) : ℝ) / ((3 : Nat) : ℝ)) : ℝ) = (c.gs * ((guAu.N (unit c) p).c 0 * (guAu.N (unit c) p).c 1) * Cls.guAu.m_amp.mean (guAu.N (unit c) p) (callMean (guAu.N (unit c) p) []) .c [(-2), spinOf s1, 2, spinOf s3]) := by
    intro s1 s3
    rw [gugu.ampMP, guAu.ampMP]
    have w11 : (gugu.N c p).v 11 [spinOf s3] = (guAu.N (unit c) p).v 11 [spinOf s3] := rfl
    have w8 : (gugu.N c p).v 8 [spinOf s1] = (guAu.N (unit c) p).v 8 [spinOf s1] := rfl
    have w3 : (gugu.N c p).v 3 [spinOf s1] = (guAu.N (unit c) p).v 3 [spinOf s1] := rfl
    have w0 : (gugu.N c p).v 0 [spinOf s3] = (guAu.N (unit c) p).v 0 [spinOf s3] := rfl
    have w13 : (gugu.N c p).v 13 [] = (guAu.N (unit c) p).v 13 [] := rfl
    simp only [gugu.termMP, guAu.termMP, w11, w8, w3, w0, w13, r0, r1, r2, r3, g0, g1]
    field_simp
    try push_cast
    try ring1
  have sMM : ∀ (s1 s3 : Fin 2), Cls.gugu.m_amp_Num.mean (gugu.N c p) (callMean (gugu.N c p) []) .c [(-2), spinOf s1, (-2), spinOf s3] * ((((2 : Nat) : ℝ) / ((3 : Nat) : ℝ)) : ℝ) = (c.gs * ((guAu.N (unit c) p).c 0 * (guAu.N (unit c) p).c 1) * Cls.guAu.m_amp.mean (guAu.N (unit c) p) (callMean (guAu.N (unit c) p) []) .c [(-2), spinOf s1, (-2), spinOf s3]) := by
    intro s1 s3
    rw [gugu.ampMM, guAu.ampMM]
    have w5 : (gugu.N c p).v 5 [] = (guAu.N (unit c) p).v 5 [] := rfl
    have w6 : (gugu.N c p).v 6 [spinOf s1, spinOf s3] = (guAu.N (unit c) p).v 6 [spinOf s1, spinOf s3] := rfl
    simp only [gugu.termMM, guAu.termMM, w5, w6, r0, r1, r2, r3, g0, g1]
    field_simp
    try push_cast
    try ring1
  have bo : ∀ (z w : Pair) (E F : Vec), ‖gugu.react.bare c p 3 1 0 2 z w E F‖ * ‖((((2 : Nat) : ℝ) / ((3 : Nat) : ℝ)) : ℝ)‖ = ‖c.gs‖ * ‖guAu.react.bare (unit c) p 3 1 0 2 z w E F‖ := by
    intro z w E F
    rw [gugu.react.bare_light (i := 3) (j := 1) (a := 0) (b := 2) rfl rfl rfl rfl rfl, guAu.react.bare_light (i := 3) (j := 1) (a := 0) (b := 2) rfl rfl rfl rfl rfl]
    have x : gugu.react.shape c p 3 1 0 2 z w E F = guAu.react.shape (unit c) p 3 1 0 2 z w E F := rfl
    have k1 : ‖c.kappa (gugu.react.flavour 1) (gugu.react.boson 0)‖ = ‖c.gs‖ := rfl
    have k2 : ‖c.kappa (gugu.react.flavour 1) (gugu.react.boson 2)‖ = ‖c.gs‖ := rfl
    have k3 : ‖(unit c).kappa (guAu.react.flavour 1) (guAu.react.boson 0)‖ = ‖c.gs‖ := rfl
    have k4 : ‖(unit c).kappa (guAu.react.flavour 1) (guAu.react.boson 2)‖ = ‖((((2 : Nat) : ℝ) / ((3 : Nat) : ℝ)) : ℝ)‖ := by rw [← qf]; exact congrArg norm (one_mul _)
    rw [x, k1, k2, k3, k4]
    ring
  have fin : ∀ {x : ℂ} {b b' : ℝ}, ‖x‖ * ‖((((2 : Nat) : ℝ) / ((3 : Nat) : ℝ)) : ℝ)‖ = ‖c.gs‖ * (‖(guAu.N (unit c) p).c 0‖ * ‖(guAu.N (unit c) p).c 1‖) * b' → b * ‖((((2 : Nat) : ℝ) / ((3 : Nat) : ℝ)) : ℝ)‖ = ‖c.gs‖ * b' → ‖x‖ ^ 2 = ((gugu.N c p).r 4 * (gugu.N c p).r 2) ^ 2 * b ^ 2 := by
    intro x b b' h h'
    have y : ‖x‖ = ‖(guAu.N (unit c) p).c 0‖ * ‖(guAu.N (unit c) p).c 1‖ * b := by
      have k : ‖((((2 : Nat) : ℝ) / ((3 : Nat) : ℝ)) : ℝ)‖ ≠ 0 := norm_ne_zero_iff.2 Q
      apply mul_right_cancel₀ k
      rw [h, mul_assoc _ b, h']; ring
    rw [y, c0, c1, Complex.norm_real, Complex.norm_real, Real.norm_eq_abs, Real.norm_eq_abs, mul_pow, mul_pow, sq_abs, sq_abs]; ring
  have all : ∀ (s1 : Fin 2) (s3 : Fin 2) (h0 : Fin 2) (h2 : Fin 2), ‖Cls.gugu.m_amp_Num.mean (gugu.N c p) (callMean (gugu.N c p) []) .c [spinW h0, spinOf s1, spinW h2, spinOf s3]‖ * ‖((((2 : Nat) : ℝ) / ((3 : Nat) : ℝ)) : ℝ)‖ = ‖c.gs‖ * (‖(guAu.N (unit c) p).c 0‖ * ‖(guAu.N (unit c) p).c 1‖) * ‖Cls.guAu.m_amp.mean (guAu.N (unit c) p) (callMean (guAu.N (unit c) p) []) .c [spinW h0, spinOf s1, spinW h2, spinOf s3]‖ := by
    intro s1 s3 h0 h2
    match h0, h2 with
    | 1, 1 => exact sc (sPP s1 s3)
    | 1, 0 => exact sc (sPM s1 s3)
    | 0, 1 => exact sc (sMP s1 s3)
    | 0, 0 => exact sc (sMM s1 s3)
  intro s1 s3 h0 h2
  have x := all s1 s3 h0 h2
  rw [am] at x
  exact fin x (bo ..)

variable [FPEnv] in
theorem gugu.agrees : gugu.Agrees := by
  refine agrees_of (D := []) (E := []) (by simp [all, gugu]) (by decide +kernel) (by decide) (by decide +kernel) (fun c hc hh => ⟨List.forall_mem_nil _, List.forall_mem_nil _⟩) (fun c hc i => gugu.mass_eq hc i) (by decide +kernel) ?_
  intro c p u ε hc hh hw h0 hs hb hr hu
  have he : gugu.react.ends = [3] := by decide
  have ht : gugu.react.starts = [1] := by decide
  have hB : gugu.react.bosons = [0, 2] := by decide
  obtain ⟨n2, n3, n4, d0, o1, o2, am⟩ := gugu.amps hc hh h0 hs hb hr hu
  have hd : ∀ x ∈ gugu.proc.divides, x = (Ty.r, 2) ∨ x = (Ty.r, 3) ∨ x = (Ty.r, 4) := by decide +kernel
  refine ⟨fun n hn => ?_, fun n hn => ?_, ?_⟩
  · rcases hd _ hn with h | h | h <;> cases h
    · exact n2
    · exact n3
    · exact n4
  · rcases hd _ hn with h | h | h <;> cases h
  show meaning (gugu.N c p) .r Cls.gugu.methods Cls.gugu.amp2 [] = _
  have s0 : gugu.react.states 0 = 16 := by decide +kernel
  have s1 : gugu.react.states 1 = 6 := by decide +kernel
  have sy : gugu.react.symmetry = 1 := by decide
  have p0 : gugu.react.spins 0 = {0, 1} := rfl
  have p1 : gugu.react.spins 1 = {0, 1} := rfl
  have p2 : gugu.react.spins 2 = {0, 1} := rfl
  have p3 : gugu.react.spins 3 = {0, 1} := rfl
  have E0 : gugu.react.codeE c p 0 = lightE (legA (p 0) 0 0, legS (p 0) 0 1) := rfl
  have E2 : gugu.react.codeE c p 2 = lightE (legA (p 2) 0 0, legS (p 2) 0 1) := rfl
  have hG : gugu.react.Gauge c p := (gugu.react.gauge_line he ht hB hh (by decide) (fun n => onShell_msq (hs n)) hb hr (fun n m h h2 => absurd (And.intro h h2) (by revert n m; decide)) (fun _ => ⟨rfl, rfl⟩) (fun _ => ⟨rfl, rfl⟩))
  rw [gugu.value, gugu.react.squared_gluons he ht hB (by decide) rfl rfl rfl rfl hb hr (by decide +kernel) (by decide +kernel) hs h0 (fun _ b _ hb _ => (boson_pos hc hh hb).ne') hG (E := gugu.react.codeE c p) (fun n b hl => gugu.react.codeE_polarised hs h0 hu (fun b hb => (boson_pos hc hh hb).ne') n b hl) hu, o1, o2, colour_weights n3 n4 n2 d0, sum_colours, s0, s1, sy]
  simp only [sumJ_sum, sumW_sum, am, p0, p1, p2, p3, E0, E2, Finset.sum_singleton, sum_two, Matrix.cons_val_zero, Matrix.cons_val_one, Matrix.cons_val, two_castSucc]
  simp only [← Finset.sum_mul, ← Finset.mul_sum]
  push_cast
  ring

end Spinas.SM.Rows
