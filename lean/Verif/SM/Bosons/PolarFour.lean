import Verif.SM.Bosons.PhotonWW
import Verif.SM.Bosons.PhotonWh
import Verif.SM.Bosons.PhotonZW
import Verif.SM.Polar

/-! Four bosons. Generated by tools/bosons/polar.py: the methods for given helicities return the squared amplitudes of the Feynman rules. -/

set_option maxHeartbeats 1000000

namespace Spinas.SM.Rows
open Spec Spec.Reaction Props XR Matrix BRow

/-! ### AhWW -/

set_option maxRecDepth 8000 in
theorem AhWW.amp2_Aplus_eq (N : Env) (f : Nat → List Int → ℂ) : Cls.AhWW.m_amp2_Aplus.mean N f .r [] =
    (sumV (fun x a => (sumV (fun x b => (x + (‖(f 0 [2, a, b])‖ ^ 2))) x)) ((0 : Nat) : ℝ)) := by rfl
set_option maxRecDepth 8000 in
theorem AhWW.amp2_Aplus_value (N : Env) : meaning N .r Cls.AhWW.methods 2 [] =
    (sumV (fun x a => (sumV (fun x b => (x + (‖(Cls.AhWW.m_amp.mean N (callMean N []) .c [2, a, b])‖ ^ 2))) x)) ((0 : Nat) : ℝ)) :=
  AhWW.amp2_Aplus_eq N (callMean N [Cls.AhWW.m_amp2, Cls.AhWW.m_amp])

variable [FPEnv] in
/-- `amp2_Aplus` -/
theorem AhWW.amp2_Aplus_polarises : AhWW.Polarises 2 ![some true, none, none, none] := by
  refine polarises_of (D := [2, 3]) (E := [3]) (by unfold Reaction.Lights; decide) (by decide) (by simp [all, AhWW]) (by decide +kernel) (by decide) (by decide +kernel) (fun c hc hh => ⟨List.forall_mem_cons.2 ⟨hc.MW, List.forall_mem_cons.2 ⟨hc.SW, List.forall_mem_nil _⟩⟩, List.forall_mem_cons.2 ⟨hc.SW_lt, List.forall_mem_nil _⟩⟩) (fun c hc i => AhWW.mass_eq hc i) (by decide +kernel) ?_
  intro c p hc hh hw h0 hs hb hr hu
  have he : AhWW.react.ends = [] := by decide
  have ht : AhWW.react.starts = [] := by decide
  have hB : AhWW.react.bosons = [0, 1, 2, 3] := by decide
  have hWW : c.WW = 0 := hw .WW (by simp [AhWW])
  obtain ⟨n1, n2, d1, d2, am⟩ := AhWW.amps hc hh hw h0 hs hb hr hu
  have hG : AhWW.react.Gauge c p := AhWW.gauge hc.MW hWW (fun n => onShell_msq (hs n)) hr
  refine ⟨d1, d2, hG, _, _, fun s _ => (AhWW.react.state_four he ht hB (by decide) _ s).trans (one_mul _).symm, ?_⟩
  have aP : ∀ (t2 : Fin 3) (t3 : Fin 3), ‖Cls.AhWW.m_amp.mean (AhWW.N c p) (callMean (AhWW.N c p) []) .c [2, spinV t2, spinV t3]‖ = ‖AhWW.react.bare4 c p (lightE (legA (p 0) 0 0, legS (p 0) 0 1) 1) (AhWW.react.codeVec c p 1 0) (AhWW.react.codeVec c p 2 t2) (AhWW.react.codeVec c p 3 t3)‖ := by
    intro t2 t3
    exact am 1 t2 t3
  show meaning (AhWW.N c p) .r Cls.AhWW.methods 2 [] = _
  have s0 : AhWW.react.someStates ![some true, none, none, none] 0 = 1 := by decide +kernel
  have s1 : AhWW.react.someStates ![some true, none, none, none] 1 = 1 := by decide +kernel
  have sy : AhWW.react.symmetry = 1 := by decide
  have p0 : AhWW.react.pick ![some true, none, none, none] 0 = {1} := rfl
  have p1 : AhWW.react.pick ![some true, none, none, none] 1 = {0} := rfl
  have p2 : AhWW.react.pick ![some true, none, none, none] 2 = Finset.univ := rfl
  have p3 : AhWW.react.pick ![some true, none, none, none] 3 = Finset.univ := rfl
  have E0 : AhWW.react.codeE c p 0 = lightE (legA (p 0) 0 0, legS (p 0) 0 1) := rfl
  have E1 : AhWW.react.codeE c p 1 = AhWW.react.codeVec c p 1 := rfl
  have E2 : AhWW.react.codeE c p 2 = AhWW.react.codeVec c p 2 := rfl
  have E3 : AhWW.react.codeE c p 3 = AhWW.react.codeVec c p 3 := rfl
  rw [AhWW.amp2_Aplus_value, s0, s1, sy]
  simp only [bareFour_eq, sumV_sum, sumJ_sum, sumW_sum, aP, p0, p1, p2, p3, E0, E1, E2, E3, Finset.sum_singleton, sum_two, Matrix.cons_val_zero, Matrix.cons_val_one, Matrix.cons_val, two_castSucc]
  try simp only [← Finset.mul_sum]
  push_cast
  ring

/-! ### AWWh -/

set_option maxRecDepth 8000 in
theorem AWWh.amp2_Aplus_eq (N : Env) (f : Nat → List Int → ℂ) : Cls.AWWh.m_amp2_Aplus.mean N f .r [] =
    ((sumV (fun x a => (sumV (fun x b => (x + (‖(f 0 [2, a, b])‖ ^ 2))) x)) ((0 : Nat) : ℝ)) / ((3 : Nat) : ℝ)) := by rfl
set_option maxRecDepth 8000 in
theorem AWWh.amp2_Aplus_value (N : Env) : meaning N .r Cls.AWWh.methods 2 [] =
    ((sumV (fun x a => (sumV (fun x b => (x + (‖(Cls.AWWh.m_amp.mean N (callMean N []) .c [2, a, b])‖ ^ 2))) x)) ((0 : Nat) : ℝ)) / ((3 : Nat) : ℝ)) :=
  AWWh.amp2_Aplus_eq N (callMean N [Cls.AWWh.m_amp2, Cls.AWWh.m_amp])

variable [FPEnv] in
/-- `amp2_Aplus` -/
theorem AWWh.amp2_Aplus_polarises : AWWh.Polarises 2 ![some true, none, none, none] := by
  refine polarises_of (D := [2, 3]) (E := [3]) (by unfold Reaction.Lights; decide) (by decide) (by simp [all, AWWh]) (by decide +kernel) (by decide) (by decide +kernel) (fun c hc hh => ⟨List.forall_mem_cons.2 ⟨hc.MW, List.forall_mem_cons.2 ⟨hc.SW, List.forall_mem_nil _⟩⟩, List.forall_mem_cons.2 ⟨hc.SW_lt, List.forall_mem_nil _⟩⟩) (fun c hc i => AWWh.mass_eq hc i) (by decide +kernel) ?_
  intro c p hc hh hw h0 hs hb hr hu
  have he : AWWh.react.ends = [] := by decide
  have ht : AWWh.react.starts = [] := by decide
  have hB : AWWh.react.bosons = [0, 1, 2, 3] := by decide
  have hWW : c.WW = 0 := hw .WW (by simp [AWWh])
  obtain ⟨n0, n1, d1, d2, am⟩ := AWWh.amps hc hh hw h0 hs hb hr hu
  have hG : AWWh.react.Gauge c p := AWWh.gauge hc.MW hWW (fun n => onShell_msq (hs n)) hr
  refine ⟨d1, d2, hG, _, _, fun s _ => (AWWh.react.state_four he ht hB (by decide) _ s).trans (one_mul _).symm, ?_⟩
  have aP : ∀ (t1 : Fin 3) (t2 : Fin 3), ‖Cls.AWWh.m_amp.mean (AWWh.N c p) (callMean (AWWh.N c p) []) .c [2, spinV t1, spinV t2]‖ = ‖AWWh.react.bare4 c p (lightE (legA (p 0) 0 0, legS (p 0) 0 1) 1) (AWWh.react.codeVec c p 1 t1) (AWWh.react.codeVec c p 2 t2) (AWWh.react.codeVec c p 3 0)‖ := by
    intro t1 t2
    exact am 1 t1 t2
  show meaning (AWWh.N c p) .r Cls.AWWh.methods 2 [] = _
  have s0 : AWWh.react.someStates ![some true, none, none, none] 0 = 1 := by decide +kernel
  have s1 : AWWh.react.someStates ![some true, none, none, none] 1 = 3 := by decide +kernel
  have sy : AWWh.react.symmetry = 1 := by decide
  have p0 : AWWh.react.pick ![some true, none, none, none] 0 = {1} := rfl
  have p1 : AWWh.react.pick ![some true, none, none, none] 1 = Finset.univ := rfl
  have p2 : AWWh.react.pick ![some true, none, none, none] 2 = Finset.univ := rfl
  have p3 : AWWh.react.pick ![some true, none, none, none] 3 = {0} := rfl
  have E0 : AWWh.react.codeE c p 0 = lightE (legA (p 0) 0 0, legS (p 0) 0 1) := rfl
  have E1 : AWWh.react.codeE c p 1 = AWWh.react.codeVec c p 1 := rfl
  have E2 : AWWh.react.codeE c p 2 = AWWh.react.codeVec c p 2 := rfl
  have E3 : AWWh.react.codeE c p 3 = AWWh.react.codeVec c p 3 := rfl
  rw [AWWh.amp2_Aplus_value, s0, s1, sy]
  simp only [bareFour_eq, sumV_sum, sumJ_sum, sumW_sum, aP, p0, p1, p2, p3, E0, E1, E2, E3, Finset.sum_singleton, sum_two, Matrix.cons_val_zero, Matrix.cons_val_one, Matrix.cons_val, two_castSucc]
  try simp only [← Finset.mul_sum]
  push_cast
  ring

/-! ### AAWW -/

set_option maxRecDepth 8000 in
theorem AAWW.amp2_Aplus_Aplus_eq (N : Env) (f : Nat → List Int → ℂ) : Cls.AAWW.m_amp2_Aplus_Aplus.mean N f .r [] =
    (sumV (fun x a => (sumV (fun x b => (x + (‖(f 0 [2, 2, a, b])‖ ^ 2))) x)) ((0 : Nat) : ℝ)) := by rfl
set_option maxRecDepth 8000 in
theorem AAWW.amp2_Aplus_Aplus_value (N : Env) : meaning N .r Cls.AAWW.methods 2 [] =
    (sumV (fun x a => (sumV (fun x b => (x + (‖(Cls.AAWW.m_amp.mean N (callMean N []) .c [2, 2, a, b])‖ ^ 2))) x)) ((0 : Nat) : ℝ)) :=
  AAWW.amp2_Aplus_Aplus_eq N (callMean N [Cls.AAWW.m_amp2, Cls.AAWW.m_amp])

variable [FPEnv] in
/-- `amp2_Aplus_Aplus` -/
theorem AAWW.amp2_Aplus_Aplus_polarises : AAWW.Polarises 2 ![some true, some true, none, none] := by
  refine polarises_of (D := [1, 2]) (E := [2]) (by unfold Reaction.Lights; decide) (by decide) (by simp [all, AAWW]) (by decide +kernel) (by decide) (by decide +kernel) (fun c hc hh => ⟨List.forall_mem_cons.2 ⟨hc.MW, List.forall_mem_cons.2 ⟨hc.SW, List.forall_mem_nil _⟩⟩, List.forall_mem_cons.2 ⟨hc.SW_lt, List.forall_mem_nil _⟩⟩) (fun c hc i => AAWW.mass_eq hc i) (by decide +kernel) ?_
  intro c p hc hh hw h0 hs hb hr hu
  have he : AAWW.react.ends = [] := by decide
  have ht : AAWW.react.starts = [] := by decide
  have hB : AAWW.react.bosons = [0, 1, 2, 3] := by decide
  have hWW : c.WW = 0 := hw .WW (by simp [AAWW])
  obtain ⟨n0, n1, d1, d2, am⟩ := AAWW.amps hc hh hw h0 hs hb hr hu
  have hG : AAWW.react.Gauge c p := AAWW.gauge hc.MW hWW hb (fun n => onShell_msq (hs n)) hr
  refine ⟨d1, d2, hG, _, _, fun s _ => (AAWW.react.state_four he ht hB (by decide) _ s).trans (one_mul _).symm, ?_⟩
  have aP : ∀ (t2 : Fin 3) (t3 : Fin 3), ‖Cls.AAWW.m_amp.mean (AAWW.N c p) (callMean (AAWW.N c p) []) .c [2, 2, spinV t2, spinV t3]‖ = ‖AAWW.react.bare4 c p (lightE (legA (p 0) 0 0, legS (p 0) 0 1) 1) (lightE (legA (p 1) 0 0, legS (p 1) 0 1) 1) (AAWW.react.codeVec c p 2 t2) (AAWW.react.codeVec c p 3 t3)‖ := by
    intro t2 t3
    exact am 1 1 t2 t3
  show meaning (AAWW.N c p) .r Cls.AAWW.methods 2 [] = _
  have s0 : AAWW.react.someStates ![some true, some true, none, none] 0 = 1 := by decide +kernel
  have s1 : AAWW.react.someStates ![some true, some true, none, none] 1 = 1 := by decide +kernel
  have sy : AAWW.react.symmetry = 1 := by decide
  have p0 : AAWW.react.pick ![some true, some true, none, none] 0 = {1} := rfl
  have p1 : AAWW.react.pick ![some true, some true, none, none] 1 = {1} := rfl
  have p2 : AAWW.react.pick ![some true, some true, none, none] 2 = Finset.univ := rfl
  have p3 : AAWW.react.pick ![some true, some true, none, none] 3 = Finset.univ := rfl
  have E0 : AAWW.react.codeE c p 0 = lightE (legA (p 0) 0 0, legS (p 0) 0 1) := rfl
  have E1 : AAWW.react.codeE c p 1 = lightE (legA (p 1) 0 0, legS (p 1) 0 1) := rfl
  have E2 : AAWW.react.codeE c p 2 = AAWW.react.codeVec c p 2 := rfl
  have E3 : AAWW.react.codeE c p 3 = AAWW.react.codeVec c p 3 := rfl
  rw [AAWW.amp2_Aplus_Aplus_value, s0, s1, sy]
  simp only [bareFour_eq, sumV_sum, sumJ_sum, sumW_sum, aP, p0, p1, p2, p3, E0, E1, E2, E3, Finset.sum_singleton, sum_two, Matrix.cons_val_zero, Matrix.cons_val_one, Matrix.cons_val, two_castSucc]
  try simp only [← Finset.mul_sum]
  push_cast
  ring

set_option maxRecDepth 8000 in
theorem AAWW.amp2_Aplus_Aminus_eq (N : Env) (f : Nat → List Int → ℂ) : Cls.AAWW.m_amp2_Aplus_Aminus.mean N f .r [] =
    (sumV (fun x a => (sumV (fun x b => (x + (‖(f 0 [2, (-2), a, b])‖ ^ 2))) x)) ((0 : Nat) : ℝ)) := by rfl
set_option maxRecDepth 8000 in
theorem AAWW.amp2_Aplus_Aminus_value (N : Env) : meaning N .r Cls.AAWW.methods 3 [] =
    (sumV (fun x a => (sumV (fun x b => (x + (‖(Cls.AAWW.m_amp.mean N (callMean N []) .c [2, (-2), a, b])‖ ^ 2))) x)) ((0 : Nat) : ℝ)) :=
  AAWW.amp2_Aplus_Aminus_eq N (callMean N [Cls.AAWW.m_amp2_Aplus_Aplus, Cls.AAWW.m_amp2, Cls.AAWW.m_amp])

variable [FPEnv] in
/-- `amp2_Aplus_Aminus` -/
theorem AAWW.amp2_Aplus_Aminus_polarises : AAWW.Polarises 3 ![some true, some false, none, none] := by
  refine polarises_of (D := [1, 2]) (E := [2]) (by unfold Reaction.Lights; decide) (by decide) (by simp [all, AAWW]) (by decide +kernel) (by decide) (by decide +kernel) (fun c hc hh => ⟨List.forall_mem_cons.2 ⟨hc.MW, List.forall_mem_cons.2 ⟨hc.SW, List.forall_mem_nil _⟩⟩, List.forall_mem_cons.2 ⟨hc.SW_lt, List.forall_mem_nil _⟩⟩) (fun c hc i => AAWW.mass_eq hc i) (by decide +kernel) ?_
  intro c p hc hh hw h0 hs hb hr hu
  have he : AAWW.react.ends = [] := by decide
  have ht : AAWW.react.starts = [] := by decide
  have hB : AAWW.react.bosons = [0, 1, 2, 3] := by decide
  have hWW : c.WW = 0 := hw .WW (by simp [AAWW])
  obtain ⟨n0, n1, d1, d2, am⟩ := AAWW.amps hc hh hw h0 hs hb hr hu
  have hG : AAWW.react.Gauge c p := AAWW.gauge hc.MW hWW hb (fun n => onShell_msq (hs n)) hr
  refine ⟨d1, d2, hG, _, _, fun s _ => (AAWW.react.state_four he ht hB (by decide) _ s).trans (one_mul _).symm, ?_⟩
  have aP : ∀ (t2 : Fin 3) (t3 : Fin 3), ‖Cls.AAWW.m_amp.mean (AAWW.N c p) (callMean (AAWW.N c p) []) .c [2, (-2), spinV t2, spinV t3]‖ = ‖AAWW.react.bare4 c p (lightE (legA (p 0) 0 0, legS (p 0) 0 1) 1) (lightE (legA (p 1) 0 0, legS (p 1) 0 1) 0) (AAWW.react.codeVec c p 2 t2) (AAWW.react.codeVec c p 3 t3)‖ := by
    intro t2 t3
    exact am 1 0 t2 t3
  show meaning (AAWW.N c p) .r Cls.AAWW.methods 3 [] = _
  have s0 : AAWW.react.someStates ![some true, some false, none, none] 0 = 1 := by decide +kernel
  have s1 : AAWW.react.someStates ![some true, some false, none, none] 1 = 1 := by decide +kernel
  have sy : AAWW.react.symmetry = 1 := by decide
  have p0 : AAWW.react.pick ![some true, some false, none, none] 0 = {1} := rfl
  have p1 : AAWW.react.pick ![some true, some false, none, none] 1 = {0} := rfl
  have p2 : AAWW.react.pick ![some true, some false, none, none] 2 = Finset.univ := rfl
  have p3 : AAWW.react.pick ![some true, some false, none, none] 3 = Finset.univ := rfl
  have E0 : AAWW.react.codeE c p 0 = lightE (legA (p 0) 0 0, legS (p 0) 0 1) := rfl
  have E1 : AAWW.react.codeE c p 1 = lightE (legA (p 1) 0 0, legS (p 1) 0 1) := rfl
  have E2 : AAWW.react.codeE c p 2 = AAWW.react.codeVec c p 2 := rfl
  have E3 : AAWW.react.codeE c p 3 = AAWW.react.codeVec c p 3 := rfl
  rw [AAWW.amp2_Aplus_Aminus_value, s0, s1, sy]
  simp only [bareFour_eq, sumV_sum, sumJ_sum, sumW_sum, aP, p0, p1, p2, p3, E0, E1, E2, E3, Finset.sum_singleton, sum_two, Matrix.cons_val_zero, Matrix.cons_val_one, Matrix.cons_val, two_castSucc]
  try simp only [← Finset.mul_sum]
  push_cast
  ring

/-! ### AWAW -/

set_option maxRecDepth 8000 in
theorem AWAW.amp2_Aplus_eq (N : Env) (f : Nat → List Int → ℂ) : Cls.AWAW.m_amp2_Aplus.mean N f .r [] =
    ((sumV (fun x a => (sumW (fun x b => (sumV (fun x c => (x + (‖(f 0 [2, a, b, c])‖ ^ 2))) x)) x)) ((0 : Nat) : ℝ)) / ((3 : Nat) : ℝ)) := by rfl
set_option maxRecDepth 8000 in
theorem AWAW.amp2_Aplus_value (N : Env) : meaning N .r Cls.AWAW.methods 2 [] =
    ((sumV (fun x a => (sumW (fun x b => (sumV (fun x c => (x + (‖(Cls.AWAW.m_amp.mean N (callMean N []) .c [2, a, b, c])‖ ^ 2))) x)) x)) ((0 : Nat) : ℝ)) / ((3 : Nat) : ℝ)) :=
  AWAW.amp2_Aplus_eq N (callMean N [Cls.AWAW.m_amp2, Cls.AWAW.m_amp])

variable [FPEnv] in
/-- `amp2_Aplus` -/
theorem AWAW.amp2_Aplus_polarises : AWAW.Polarises 2 ![some true, none, none, none] := by
  refine polarises_of (D := [1, 2]) (E := [2]) (by unfold Reaction.Lights; decide) (by decide) (by simp [all, AWAW]) (by decide +kernel) (by decide) (by decide +kernel) (fun c hc hh => ⟨List.forall_mem_cons.2 ⟨hc.MW, List.forall_mem_cons.2 ⟨hc.SW, List.forall_mem_nil _⟩⟩, List.forall_mem_cons.2 ⟨hc.SW_lt, List.forall_mem_nil _⟩⟩) (fun c hc i => AWAW.mass_eq hc i) (by decide +kernel) ?_
  intro c p hc hh hw h0 hs hb hr hu
  have he : AWAW.react.ends = [] := by decide
  have ht : AWAW.react.starts = [] := by decide
  have hB : AWAW.react.bosons = [0, 1, 2, 3] := by decide
  have hWW : c.WW = 0 := hw .WW (by simp [AWAW])
  obtain ⟨n0, n1, d1, d2, am⟩ := AWAW.amps hc hh hw h0 hs hb hr hu
  have hG : AWAW.react.Gauge c p := AWAW.gauge hc.MW hWW hb (fun n => onShell_msq (hs n)) hr
  refine ⟨d1, d2, hG, _, _, fun s _ => (AWAW.react.state_four he ht hB (by decide) _ s).trans (one_mul _).symm, ?_⟩
  have aP : ∀ (h2 : Fin 2) (t1 : Fin 3) (t3 : Fin 3), ‖Cls.AWAW.m_amp.mean (AWAW.N c p) (callMean (AWAW.N c p) []) .c [2, spinV t1, spinW h2, spinV t3]‖ = ‖AWAW.react.bare4 c p (lightE (legA (p 0) 0 0, legS (p 0) 0 1) 1) (AWAW.react.codeVec c p 1 t1) (lightE (legA (p 2) 0 0, legS (p 2) 0 1) h2.castSucc) (AWAW.react.codeVec c p 3 t3)‖ := by
    intro h2 t1 t3
    exact am 1 h2 t1 t3
  show meaning (AWAW.N c p) .r Cls.AWAW.methods 2 [] = _
  have s0 : AWAW.react.someStates ![some true, none, none, none] 0 = 1 := by decide +kernel
  have s1 : AWAW.react.someStates ![some true, none, none, none] 1 = 3 := by decide +kernel
  have sy : AWAW.react.symmetry = 1 := by decide
  have p0 : AWAW.react.pick ![some true, none, none, none] 0 = {1} := rfl
  have p1 : AWAW.react.pick ![some true, none, none, none] 1 = Finset.univ := rfl
  have p2 : AWAW.react.pick ![some true, none, none, none] 2 = {0, 1} := rfl
  have p3 : AWAW.react.pick ![some true, none, none, none] 3 = Finset.univ := rfl
  have E0 : AWAW.react.codeE c p 0 = lightE (legA (p 0) 0 0, legS (p 0) 0 1) := rfl
  have E1 : AWAW.react.codeE c p 1 = AWAW.react.codeVec c p 1 := rfl
  have E2 : AWAW.react.codeE c p 2 = lightE (legA (p 2) 0 0, legS (p 2) 0 1) := rfl
  have E3 : AWAW.react.codeE c p 3 = AWAW.react.codeVec c p 3 := rfl
  rw [AWAW.amp2_Aplus_value, s0, s1, sy]
  simp only [bareFour_eq, sumV_sum, sumJ_sum, sumW_sum, aP, p0, p1, p2, p3, E0, E1, E2, E3, Finset.sum_singleton, sum_two, Matrix.cons_val_zero, Matrix.cons_val_one, Matrix.cons_val, two_castSucc]
  try simp only [← Finset.mul_sum]
  push_cast
  ring

set_option maxRecDepth 8000 in
theorem AWAW.amp2_Aminus_eq (N : Env) (f : Nat → List Int → ℂ) : Cls.AWAW.m_amp2_Aminus.mean N f .r [] =
    ((sumV (fun x a => (sumW (fun x b => (sumV (fun x c => (x + (‖(f 0 [(-2), a, b, c])‖ ^ 2))) x)) x)) ((0 : Nat) : ℝ)) / ((3 : Nat) : ℝ)) := by rfl
set_option maxRecDepth 8000 in
theorem AWAW.amp2_Aminus_value (N : Env) : meaning N .r Cls.AWAW.methods 3 [] =
    ((sumV (fun x a => (sumW (fun x b => (sumV (fun x c => (x + (‖(Cls.AWAW.m_amp.mean N (callMean N []) .c [(-2), a, b, c])‖ ^ 2))) x)) x)) ((0 : Nat) : ℝ)) / ((3 : Nat) : ℝ)) :=
  AWAW.amp2_Aminus_eq N (callMean N [Cls.AWAW.m_amp2_Aplus, Cls.AWAW.m_amp2, Cls.AWAW.m_amp])

variable [FPEnv] in
/-- `amp2_Aminus` -/
theorem AWAW.amp2_Aminus_polarises : AWAW.Polarises 3 ![some false, none, none, none] := by
  refine polarises_of (D := [1, 2]) (E := [2]) (by unfold Reaction.Lights; decide) (by decide) (by simp [all, AWAW]) (by decide +kernel) (by decide) (by decide +kernel) (fun c hc hh => ⟨List.forall_mem_cons.2 ⟨hc.MW, List.forall_mem_cons.2 ⟨hc.SW, List.forall_mem_nil _⟩⟩, List.forall_mem_cons.2 ⟨hc.SW_lt, List.forall_mem_nil _⟩⟩) (fun c hc i => AWAW.mass_eq hc i) (by decide +kernel) ?_
  intro c p hc hh hw h0 hs hb hr hu
  have he : AWAW.react.ends = [] := by decide
  have ht : AWAW.react.starts = [] := by decide
  have hB : AWAW.react.bosons = [0, 1, 2, 3] := by decide
  have hWW : c.WW = 0 := hw .WW (by simp [AWAW])
  obtain ⟨n0, n1, d1, d2, am⟩ := AWAW.amps hc hh hw h0 hs hb hr hu
  have hG : AWAW.react.Gauge c p := AWAW.gauge hc.MW hWW hb (fun n => onShell_msq (hs n)) hr
  refine ⟨d1, d2, hG, _, _, fun s _ => (AWAW.react.state_four he ht hB (by decide) _ s).trans (one_mul _).symm, ?_⟩
  have aP : ∀ (h2 : Fin 2) (t1 : Fin 3) (t3 : Fin 3), ‖Cls.AWAW.m_amp.mean (AWAW.N c p) (callMean (AWAW.N c p) []) .c [(-2), spinV t1, spinW h2, spinV t3]‖ = ‖AWAW.react.bare4 c p (lightE (legA (p 0) 0 0, legS (p 0) 0 1) 0) (AWAW.react.codeVec c p 1 t1) (lightE (legA (p 2) 0 0, legS (p 2) 0 1) h2.castSucc) (AWAW.react.codeVec c p 3 t3)‖ := by
    intro h2 t1 t3
    exact am 0 h2 t1 t3
  show meaning (AWAW.N c p) .r Cls.AWAW.methods 3 [] = _
  have s0 : AWAW.react.someStates ![some false, none, none, none] 0 = 1 := by decide +kernel
  have s1 : AWAW.react.someStates ![some false, none, none, none] 1 = 3 := by decide +kernel
  have sy : AWAW.react.symmetry = 1 := by decide
  have p0 : AWAW.react.pick ![some false, none, none, none] 0 = {0} := rfl
  have p1 : AWAW.react.pick ![some false, none, none, none] 1 = Finset.univ := rfl
  have p2 : AWAW.react.pick ![some false, none, none, none] 2 = {0, 1} := rfl
  have p3 : AWAW.react.pick ![some false, none, none, none] 3 = Finset.univ := rfl
  have E0 : AWAW.react.codeE c p 0 = lightE (legA (p 0) 0 0, legS (p 0) 0 1) := rfl
  have E1 : AWAW.react.codeE c p 1 = AWAW.react.codeVec c p 1 := rfl
  have E2 : AWAW.react.codeE c p 2 = lightE (legA (p 2) 0 0, legS (p 2) 0 1) := rfl
  have E3 : AWAW.react.codeE c p 3 = AWAW.react.codeVec c p 3 := rfl
  rw [AWAW.amp2_Aminus_value, s0, s1, sy]
  simp only [bareFour_eq, sumV_sum, sumJ_sum, sumW_sum, aP, p0, p1, p2, p3, E0, E1, E2, E3, Finset.sum_singleton, sum_two, Matrix.cons_val_zero, Matrix.cons_val_one, Matrix.cons_val, two_castSucc]
  try simp only [← Finset.mul_sum]
  push_cast
  ring

/-! ### AZWW -/

set_option maxRecDepth 8000 in
theorem AZWW.amp2_Aplus_eq (N : Env) (f : Nat → List Int → ℂ) : Cls.AZWW.m_amp2_Aplus.mean N f .r [] =
    ((sumV (fun x a => (sumV (fun x b => (sumV (fun x c => (x + (‖(f 0 [2, a, b, c])‖ ^ 2))) x)) x)) ((0 : Nat) : ℝ)) / ((3 : Nat) : ℝ)) := by rfl
set_option maxRecDepth 8000 in
theorem AZWW.amp2_Aplus_value (N : Env) : meaning N .r Cls.AZWW.methods 2 [] =
    ((sumV (fun x a => (sumV (fun x b => (sumV (fun x c => (x + (‖(Cls.AZWW.m_amp.mean N (callMean N []) .c [2, a, b, c])‖ ^ 2))) x)) x)) ((0 : Nat) : ℝ)) / ((3 : Nat) : ℝ)) :=
  AZWW.amp2_Aplus_eq N (callMean N [Cls.AZWW.m_amp2, Cls.AZWW.m_amp])

variable [FPEnv] in
/-- `amp2_Aplus` -/
theorem AZWW.amp2_Aplus_polarises : AZWW.Polarises 2 ![some true, none, none, none] := by
  refine polarises_of (D := [1, 2]) (E := [2]) (by unfold Reaction.Lights; decide) (by decide) (by simp [all, AZWW]) (by decide +kernel) (by decide) (by decide +kernel) (fun c hc hh => ⟨List.forall_mem_cons.2 ⟨hc.MW, List.forall_mem_cons.2 ⟨hc.SW, List.forall_mem_nil _⟩⟩, List.forall_mem_cons.2 ⟨hc.SW_lt, List.forall_mem_nil _⟩⟩) (fun c hc i => AZWW.mass_eq hc i) (by decide +kernel) ?_
  intro c p hc hh hw h0 hs hb hr hu
  have he : AZWW.react.ends = [] := by decide
  have ht : AZWW.react.starts = [] := by decide
  have hB : AZWW.react.bosons = [0, 1, 2, 3] := by decide
  have hWW : c.WW = 0 := hw .WW (by simp [AZWW])
  obtain ⟨n0, n1, d1, d2, am⟩ := AZWW.amps hc hh hw h0 hs hb hr hu
  have hG : AZWW.react.Gauge c p := AZWW.gauge hc.MW hWW hb (fun n => onShell_msq (hs n)) hr
  refine ⟨d1, d2, hG, _, _, fun s _ => (AZWW.react.state_four he ht hB (by decide) _ s).trans (one_mul _).symm, ?_⟩
  have aP : ∀ (t1 : Fin 3) (t2 : Fin 3) (t3 : Fin 3), ‖Cls.AZWW.m_amp.mean (AZWW.N c p) (callMean (AZWW.N c p) []) .c [2, spinV t1, spinV t2, spinV t3]‖ = ‖AZWW.react.bare4 c p (lightE (legA (p 0) 0 0, legS (p 0) 0 1) 1) (AZWW.react.codeVec c p 1 t1) (AZWW.react.codeVec c p 2 t2) (AZWW.react.codeVec c p 3 t3)‖ := by
    intro t1 t2 t3
    exact am 1 t1 t2 t3
  show meaning (AZWW.N c p) .r Cls.AZWW.methods 2 [] = _
  have s0 : AZWW.react.someStates ![some true, none, none, none] 0 = 1 := by decide +kernel
  have s1 : AZWW.react.someStates ![some true, none, none, none] 1 = 3 := by decide +kernel
  have sy : AZWW.react.symmetry = 1 := by decide
  have p0 : AZWW.react.pick ![some true, none, none, none] 0 = {1} := rfl
  have p1 : AZWW.react.pick ![some true, none, none, none] 1 = Finset.univ := rfl
  have p2 : AZWW.react.pick ![some true, none, none, none] 2 = Finset.univ := rfl
  have p3 : AZWW.react.pick ![some true, none, none, none] 3 = Finset.univ := rfl
  have E0 : AZWW.react.codeE c p 0 = lightE (legA (p 0) 0 0, legS (p 0) 0 1) := rfl
  have E1 : AZWW.react.codeE c p 1 = AZWW.react.codeVec c p 1 := rfl
  have E2 : AZWW.react.codeE c p 2 = AZWW.react.codeVec c p 2 := rfl
  have E3 : AZWW.react.codeE c p 3 = AZWW.react.codeVec c p 3 := rfl
  rw [AZWW.amp2_Aplus_value, s0, s1, sy]
  simp only [bareFour_eq, sumV_sum, sumJ_sum, sumW_sum, aP, p0, p1, p2, p3, E0, E1, E2, E3, Finset.sum_singleton, sum_two, Matrix.cons_val_zero, Matrix.cons_val_one, Matrix.cons_val, two_castSucc]
  try simp only [← Finset.mul_sum]
  push_cast
  ring

/-! ### AWZW -/

set_option maxRecDepth 8000 in
theorem AWZW.amp2_Aplus_eq (N : Env) (f : Nat → List Int → ℂ) : Cls.AWZW.m_amp2_Aplus.mean N f .r [] =
    ((sumV (fun x a => (sumV (fun x b => (sumV (fun x c => (x + (‖(f 0 [2, a, b, c])‖ ^ 2))) x)) x)) ((0 : Nat) : ℝ)) / ((3 : Nat) : ℝ)) := by rfl
set_option maxRecDepth 8000 in
theorem AWZW.amp2_Aplus_value (N : Env) : meaning N .r Cls.AWZW.methods 2 [] =
    ((sumV (fun x a => (sumV (fun x b => (sumV (fun x c => (x + (‖(Cls.AWZW.m_amp.mean N (callMean N []) .c [2, a, b, c])‖ ^ 2))) x)) x)) ((0 : Nat) : ℝ)) / ((3 : Nat) : ℝ)) :=
  AWZW.amp2_Aplus_eq N (callMean N [Cls.AWZW.m_amp2, Cls.AWZW.m_amp])

variable [FPEnv] in
/-- `amp2_Aplus` -/
theorem AWZW.amp2_Aplus_polarises : AWZW.Polarises 2 ![some true, none, none, none] := by
  refine polarises_of (D := [1, 2]) (E := [2]) (by unfold Reaction.Lights; decide) (by decide) (by simp [all, AWZW]) (by decide +kernel) (by decide) (by decide +kernel) (fun c hc hh => ⟨List.forall_mem_cons.2 ⟨hc.MW, List.forall_mem_cons.2 ⟨hc.SW, List.forall_mem_nil _⟩⟩, List.forall_mem_cons.2 ⟨hc.SW_lt, List.forall_mem_nil _⟩⟩) (fun c hc i => AWZW.mass_eq hc i) (by decide +kernel) ?_
  intro c p hc hh hw h0 hs hb hr hu
  have he : AWZW.react.ends = [] := by decide
  have ht : AWZW.react.starts = [] := by decide
  have hB : AWZW.react.bosons = [0, 1, 2, 3] := by decide
  have hWW : c.WW = 0 := hw .WW (by simp [AWZW])
  obtain ⟨n0, n1, d1, d2, am⟩ := AWZW.amps hc hh hw h0 hs hb hr hu
  have hG : AWZW.react.Gauge c p := AWZW.gauge hc.MW hWW hb (fun n => onShell_msq (hs n)) hr
  refine ⟨d1, d2, hG, _, _, fun s _ => (AWZW.react.state_four he ht hB (by decide) _ s).trans (one_mul _).symm, ?_⟩
  have aP : ∀ (t1 : Fin 3) (t2 : Fin 3) (t3 : Fin 3), ‖Cls.AWZW.m_amp.mean (AWZW.N c p) (callMean (AWZW.N c p) []) .c [2, spinV t1, spinV t2, spinV t3]‖ = ‖AWZW.react.bare4 c p (lightE (legA (p 0) 0 0, legS (p 0) 0 1) 1) (AWZW.react.codeVec c p 1 t1) (AWZW.react.codeVec c p 2 t2) (AWZW.react.codeVec c p 3 t3)‖ := by
    intro t1 t2 t3
    exact am 1 t1 t2 t3
  show meaning (AWZW.N c p) .r Cls.AWZW.methods 2 [] = _
  have s0 : AWZW.react.someStates ![some true, none, none, none] 0 = 1 := by decide +kernel
  have s1 : AWZW.react.someStates ![some true, none, none, none] 1 = 3 := by decide +kernel
  have sy : AWZW.react.symmetry = 1 := by decide
  have p0 : AWZW.react.pick ![some true, none, none, none] 0 = {1} := rfl
  have p1 : AWZW.react.pick ![some true, none, none, none] 1 = Finset.univ := rfl
  have p2 : AWZW.react.pick ![some true, none, none, none] 2 = Finset.univ := rfl
  have p3 : AWZW.react.pick ![some true, none, none, none] 3 = Finset.univ := rfl
  have E0 : AWZW.react.codeE c p 0 = lightE (legA (p 0) 0 0, legS (p 0) 0 1) := rfl
  have E1 : AWZW.react.codeE c p 1 = AWZW.react.codeVec c p 1 := rfl
  have E2 : AWZW.react.codeE c p 2 = AWZW.react.codeVec c p 2 := rfl
  have E3 : AWZW.react.codeE c p 3 = AWZW.react.codeVec c p 3 := rfl
  rw [AWZW.amp2_Aplus_value, s0, s1, sy]
  simp only [bareFour_eq, sumV_sum, sumJ_sum, sumW_sum, aP, p0, p1, p2, p3, E0, E1, E2, E3, Finset.sum_singleton, sum_two, Matrix.cons_val_zero, Matrix.cons_val_one, Matrix.cons_val, two_castSucc]
  try simp only [← Finset.mul_sum]
  push_cast
  ring

end Spinas.SM.Rows
