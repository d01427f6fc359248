import Verif.SM.Bosons.GluonHiggs
import Verif.SM.Bosons.PhotonHiggs
import Verif.SM.Bosons.PhotonHiggsE
import Verif.SM.Polar

/-! A photon or a gluon, and a Higgs boson. Generated by tools/bosons/polar.py: the methods for given helicities return the squared amplitudes of the Feynman rules. -/

set_option maxHeartbeats 1000000

namespace Spinas.SM.Rows
open Spec Spec.Reaction Props XR Matrix BRow

/-! ### uAuh -/

set_option maxRecDepth 8000 in
theorem uAuh.amp2_Aplus_eq (N : Env) (f : Nat → List Int → ℂ) : Cls.uAuh.m_amp2_Aplus.mean N f .r [] =
    ((sumJ (fun x a => (sumJ (fun x b => (x + (((3 : Nat) : ℝ) * (‖(f 0 [a, 2, b])‖ ^ 2)))) x)) ((0 : Nat) : ℝ)) / ((6 : Nat) : ℝ)) := by rfl
set_option maxRecDepth 8000 in
theorem uAuh.amp2_Aplus_value (N : Env) : meaning N .r Cls.uAuh.methods 2 [] =
    ((sumJ (fun x a => (sumJ (fun x b => (x + (((3 : Nat) : ℝ) * (‖(Cls.uAuh.m_amp.mean N (callMean N []) .c [a, 2, b])‖ ^ 2)))) x)) ((0 : Nat) : ℝ)) / ((6 : Nat) : ℝ)) :=
  uAuh.amp2_Aplus_eq N (callMean N [Cls.uAuh.m_amp2, Cls.uAuh.m_amp])

variable [FPEnv] in
/-- `amp2_Aplus` -/
theorem uAuh.amp2_Aplus_polarises : uAuh.Polarises 2 ![none, some true, none, none] := by
  refine polarises_of (D := [3, 4]) (E := [4]) (by unfold Reaction.Lights; decide) (by decide) (by simp [all, uAuh]) (by decide +kernel) (by decide) (by decide +kernel) (fun c hc hh => ⟨List.forall_mem_cons.2 ⟨hc.MW, List.forall_mem_cons.2 ⟨hc.SW, List.forall_mem_nil _⟩⟩, List.forall_mem_cons.2 ⟨hc.SW_lt, List.forall_mem_nil _⟩⟩) (fun c hc i => uAuh.mass_eq hc i) (by decide +kernel) ?_
  intro c p hc hh hw h0 hs hb hr hu
  have he : uAuh.react.ends = [2] := by decide
  have ht : uAuh.react.starts = [0] := by decide
  have hB : uAuh.react.bosons = [1, 3] := by decide
  obtain ⟨n0, n1, d1, d2, am⟩ := uAuh.amps hc hh h0 hs hb hr hu
  have hG : uAuh.react.Gauge c p := uAuh.react.gauge_line he ht hB hh (by decide) (fun n => onShell_msq (hs n)) hb hr (fun n m h h2 => absurd (And.intro h h2) (by revert n m; decide)) (fun _ => ⟨rfl, rfl⟩) (fun h => absurd h (by decide))
  refine ⟨d1, d2, hG, _, _, fun s _ => uAuh.react.state_line he ht hB (by decide) _ s, ?_⟩
  have aP : ∀ (s0 : Fin 2) (s2 : Fin 2), ‖Cls.uAuh.m_amp.mean (uAuh.N c p) (callMean (uAuh.N c p) []) .c [spinOf s0, 2, spinOf s2]‖ = ‖uAuh.react.bare c p 2 0 1 3 (uAuh.react.codePair c p 2 s2) (uAuh.react.codePair c p 0 s0) (lightE (legA (p 1) 0 0, legS (p 1) 0 1) 1) (uAuh.react.codeVec c p 3 0)‖ := by
    intro s0 s2
    exact am s0 s2 1
  show meaning (uAuh.N c p) .r Cls.uAuh.methods 2 [] = _
  have s0 : uAuh.react.someStates ![none, some true, none, none] 0 = 6 := by decide +kernel
  have s1 : uAuh.react.someStates ![none, some true, none, none] 1 = 1 := by decide +kernel
  have sy : uAuh.react.symmetry = 1 := by decide
  have p0 : uAuh.react.pick ![none, some true, none, none] 0 = {0, 1} := rfl
  have p1 : uAuh.react.pick ![none, some true, none, none] 1 = {1} := rfl
  have p2 : uAuh.react.pick ![none, some true, none, none] 2 = {0, 1} := rfl
  have p3 : uAuh.react.pick ![none, some true, none, none] 3 = {0} := rfl
  have E1 : uAuh.react.codeE c p 1 = lightE (legA (p 1) 0 0, legS (p 1) 0 1) := rfl
  have E3 : uAuh.react.codeE c p 3 = uAuh.react.codeVec c p 3 := rfl
  have lc : uAuh.react.lineColours 2 0 = 3 := by decide +kernel
  rw [uAuh.amp2_Aplus_value, lc, s0, s1, sy]
  simp only [sumV_sum, sumJ_sum, sumW_sum, aP, p0, p1, p2, p3, E1, E3, Finset.sum_singleton, sum_two, Matrix.cons_val_zero, Matrix.cons_val_one, Matrix.cons_val, two_castSucc]
  try simp only [← Finset.mul_sum]
  push_cast
  ring

/-! ### dAdh -/

set_option maxRecDepth 8000 in
theorem dAdh.amp2_Aplus_eq (N : Env) (f : Nat → List Int → ℂ) : Cls.dAdh.m_amp2_Aplus.mean N f .r [] =
    ((sumJ (fun x a => (sumJ (fun x b => (x + (((3 : Nat) : ℝ) * (‖(f 0 [a, 2, b])‖ ^ 2)))) x)) ((0 : Nat) : ℝ)) / ((6 : Nat) : ℝ)) := by rfl
set_option maxRecDepth 8000 in
theorem dAdh.amp2_Aplus_value (N : Env) : meaning N .r Cls.dAdh.methods 2 [] =
    ((sumJ (fun x a => (sumJ (fun x b => (x + (((3 : Nat) : ℝ) * (‖(Cls.dAdh.m_amp.mean N (callMean N []) .c [a, 2, b])‖ ^ 2)))) x)) ((0 : Nat) : ℝ)) / ((6 : Nat) : ℝ)) :=
  dAdh.amp2_Aplus_eq N (callMean N [Cls.dAdh.m_amp2, Cls.dAdh.m_amp])

variable [FPEnv] in
/-- `amp2_Aplus` -/
theorem dAdh.amp2_Aplus_polarises : dAdh.Polarises 2 ![none, some true, none, none] := by
  refine polarises_of (D := [3, 4]) (E := [4]) (by unfold Reaction.Lights; decide) (by decide) (by simp [all, dAdh]) (by decide +kernel) (by decide) (by decide +kernel) (fun c hc hh => ⟨List.forall_mem_cons.2 ⟨hc.MW, List.forall_mem_cons.2 ⟨hc.SW, List.forall_mem_nil _⟩⟩, List.forall_mem_cons.2 ⟨hc.SW_lt, List.forall_mem_nil _⟩⟩) (fun c hc i => dAdh.mass_eq hc i) (by decide +kernel) ?_
  intro c p hc hh hw h0 hs hb hr hu
  have he : dAdh.react.ends = [2] := by decide
  have ht : dAdh.react.starts = [0] := by decide
  have hB : dAdh.react.bosons = [1, 3] := by decide
  obtain ⟨n0, n1, d1, d2, am⟩ := dAdh.amps hc hh h0 hs hb hr hu
  have hG : dAdh.react.Gauge c p := dAdh.react.gauge_line he ht hB hh (by decide) (fun n => onShell_msq (hs n)) hb hr (fun n m h h2 => absurd (And.intro h h2) (by revert n m; decide)) (fun _ => ⟨rfl, rfl⟩) (fun h => absurd h (by decide))
  refine ⟨d1, d2, hG, _, _, fun s _ => dAdh.react.state_line he ht hB (by decide) _ s, ?_⟩
  have aP : ∀ (s0 : Fin 2) (s2 : Fin 2), ‖Cls.dAdh.m_amp.mean (dAdh.N c p) (callMean (dAdh.N c p) []) .c [spinOf s0, 2, spinOf s2]‖ = ‖dAdh.react.bare c p 2 0 1 3 (dAdh.react.codePair c p 2 s2) (dAdh.react.codePair c p 0 s0) (lightE (legA (p 1) 0 0, legS (p 1) 0 1) 1) (dAdh.react.codeVec c p 3 0)‖ := by
    intro s0 s2
    exact am s0 s2 1
  show meaning (dAdh.N c p) .r Cls.dAdh.methods 2 [] = _
  have s0 : dAdh.react.someStates ![none, some true, none, none] 0 = 6 := by decide +kernel
  have s1 : dAdh.react.someStates ![none, some true, none, none] 1 = 1 := by decide +kernel
  have sy : dAdh.react.symmetry = 1 := by decide
  have p0 : dAdh.react.pick ![none, some true, none, none] 0 = {0, 1} := rfl
  have p1 : dAdh.react.pick ![none, some true, none, none] 1 = {1} := rfl
  have p2 : dAdh.react.pick ![none, some true, none, none] 2 = {0, 1} := rfl
  have p3 : dAdh.react.pick ![none, some true, none, none] 3 = {0} := rfl
  have E1 : dAdh.react.codeE c p 1 = lightE (legA (p 1) 0 0, legS (p 1) 0 1) := rfl
  have E3 : dAdh.react.codeE c p 3 = dAdh.react.codeVec c p 3 := rfl
  have lc : dAdh.react.lineColours 2 0 = 3 := by decide +kernel
  rw [dAdh.amp2_Aplus_value, lc, s0, s1, sy]
  simp only [sumV_sum, sumJ_sum, sumW_sum, aP, p0, p1, p2, p3, E1, E3, Finset.sum_singleton, sum_two, Matrix.cons_val_zero, Matrix.cons_val_one, Matrix.cons_val, two_castSucc]
  try simp only [← Finset.mul_sum]
  push_cast
  ring

/-! ### eAeh -/

set_option maxRecDepth 8000 in
theorem eAeh.amp2_Aplus_eq (N : Env) (f : Nat → List Int → ℂ) : Cls.eAeh.m_amp2_Aplus.mean N f .r [] =
    ((sumJ (fun x a => (sumJ (fun x b => (x + (‖(f 0 [a, 2, b])‖ ^ 2))) x)) ((0 : Nat) : ℝ)) / ((2 : Nat) : ℝ)) := by rfl
set_option maxRecDepth 8000 in
theorem eAeh.amp2_Aplus_value (N : Env) : meaning N .r Cls.eAeh.methods 2 [] =
    ((sumJ (fun x a => (sumJ (fun x b => (x + (‖(Cls.eAeh.m_amp.mean N (callMean N []) .c [a, 2, b])‖ ^ 2))) x)) ((0 : Nat) : ℝ)) / ((2 : Nat) : ℝ)) :=
  eAeh.amp2_Aplus_eq N (callMean N [Cls.eAeh.m_amp2, Cls.eAeh.m_amp])

variable [FPEnv] in
/-- `amp2_Aplus` -/
theorem eAeh.amp2_Aplus_polarises : eAeh.PolarisesVev 2 ![none, some true, none, none] := by
  refine polarisesVev_of (D := []) (E := []) (by unfold Reaction.Lights; decide) (by decide) (by simp [all, eAeh]) (by decide +kernel) (by decide) (by decide +kernel) (fun c v hc hh _ => ⟨List.forall_mem_nil _, List.forall_mem_nil _⟩) (fun c v hc i => eAeh.mass_eq hc i) (by decide +kernel) ?_
  intro c v p hc hh hve h0 hs hb hr hu
  have he : eAeh.react.ends = [2] := by decide
  have ht : eAeh.react.starts = [0] := by decide
  have hB : eAeh.react.bosons = [1, 3] := by decide
  obtain ⟨n0, n1, d1, d2, am⟩ := eAeh.amps hc hh hve h0 hs hb hr hu
  have hG : eAeh.react.Gauge c p := eAeh.react.gauge_line he ht hB hh (by decide) (fun n => onShell_msq (hs n)) hb hr (fun n m h h2 => absurd (And.intro h h2) (by revert n m; decide)) (fun _ => ⟨rfl, rfl⟩) (fun h => absurd h (by decide))
  refine ⟨d1, d2, hG, _, _, fun s _ => eAeh.react.state_line he ht hB (by decide) _ s, ?_⟩
  have aP : ∀ (s0 : Fin 2) (s2 : Fin 2), ‖Cls.eAeh.m_amp.mean (eAeh.N c v p) (callMean (eAeh.N c v p) []) .c [spinOf s0, 2, spinOf s2]‖ = ‖eAeh.react.bare c p 2 0 1 3 (eAeh.react.codePair c p 2 s2) (eAeh.react.codePair c p 0 s0) (lightE (legA (p 1) 0 0, legS (p 1) 0 1) 1) (eAeh.react.codeVec c p 3 0)‖ := by
    intro s0 s2
    exact am s0 s2 1
  show meaning (eAeh.N c v p) .r Cls.eAeh.methods 2 [] = _
  have s0 : eAeh.react.someStates ![none, some true, none, none] 0 = 2 := by decide +kernel
  have s1 : eAeh.react.someStates ![none, some true, none, none] 1 = 1 := by decide +kernel
  have sy : eAeh.react.symmetry = 1 := by decide
  have p0 : eAeh.react.pick ![none, some true, none, none] 0 = {0, 1} := rfl
  have p1 : eAeh.react.pick ![none, some true, none, none] 1 = {1} := rfl
  have p2 : eAeh.react.pick ![none, some true, none, none] 2 = {0, 1} := rfl
  have p3 : eAeh.react.pick ![none, some true, none, none] 3 = {0} := rfl
  have E1 : eAeh.react.codeE c p 1 = lightE (legA (p 1) 0 0, legS (p 1) 0 1) := rfl
  have E3 : eAeh.react.codeE c p 3 = eAeh.react.codeVec c p 3 := rfl
  have lc : eAeh.react.lineColours 2 0 = 1 := by decide +kernel
  rw [eAeh.amp2_Aplus_value, lc, s0, s1, sy]
  simp only [sumV_sum, sumJ_sum, sumW_sum, aP, p0, p1, p2, p3, E1, E3, Finset.sum_singleton, sum_two, Matrix.cons_val_zero, Matrix.cons_val_one, Matrix.cons_val, two_castSucc]
  try simp only [← Finset.mul_sum]
  push_cast
  ring

/-! ### dgdh -/

set_option maxRecDepth 8000 in
theorem dgdh.amp2_gplus_eq (N : Env) (f : Nat → List Int → ℂ) : Cls.dgdh.m_amp2_gplus.mean N f .r [] =
    ((sumJ (fun x a => (sumJ (fun x b => (x + (((4 : Nat) : ℝ) * (‖(f 0 [a, 2, b])‖ ^ 2)))) x)) ((0 : Nat) : ℝ)) / ((48 : Nat) : ℝ)) := by rfl
set_option maxRecDepth 8000 in
theorem dgdh.amp2_gplus_value (N : Env) : meaning N .r Cls.dgdh.methods 2 [] =
    ((sumJ (fun x a => (sumJ (fun x b => (x + (((4 : Nat) : ℝ) * (‖(Cls.dgdh.m_amp.mean N (callMean N []) .c [a, 2, b])‖ ^ 2)))) x)) ((0 : Nat) : ℝ)) / ((48 : Nat) : ℝ)) :=
  dgdh.amp2_gplus_eq N (callMean N [Cls.dgdh.m_amp2, Cls.dgdh.m_amp])

variable [FPEnv] in
/-- `amp2_gplus` -/
theorem dgdh.amp2_gplus_polarises : dgdh.Polarises 2 ![none, some true, none, none] := by
  refine polarises_of (D := [4, 5]) (E := [5]) (by unfold Reaction.Lights; decide) (by decide) (by simp [all, dgdh]) (by decide +kernel) (by decide) (by decide +kernel) (fun c hc hh => ⟨List.forall_mem_cons.2 ⟨hc.MW, List.forall_mem_cons.2 ⟨hc.SW, List.forall_mem_nil _⟩⟩, List.forall_mem_cons.2 ⟨hc.SW_lt, List.forall_mem_nil _⟩⟩) (fun c hc i => dgdh.mass_eq hc i) (by decide +kernel) ?_
  intro c p hc hh hw h0 hs hb hr hu
  have he : dgdh.react.ends = [2] := by decide
  have ht : dgdh.react.starts = [0] := by decide
  have hB : dgdh.react.bosons = [1, 3] := by decide
  obtain ⟨n0, n1, d1, d2, am⟩ := dgdh.amps hc hh h0 hs hb hr hu
  have hG : dgdh.react.Gauge c p := dgdh.react.gauge_line he ht hB hh (by decide) (fun n => onShell_msq (hs n)) hb hr (fun n m h h2 => absurd (And.intro h h2) (by revert n m; decide)) (fun _ => ⟨rfl, rfl⟩) (fun h => absurd h (by decide))
  refine ⟨d1, d2, hG, _, _, fun s _ => dgdh.react.state_gluon 1 he ht hB (by decide) (by decide +kernel) (by decide +kernel) _ s, ?_⟩
  have aP : ∀ (s0 : Fin 2) (s2 : Fin 2), ‖Cls.dgdh.m_amp.mean (dgdh.N c p) (callMean (dgdh.N c p) []) .c [spinOf s0, 2, spinOf s2]‖ = ‖dgdh.react.bare c p 2 0 1 3 (dgdh.react.codePair c p 2 s2) (dgdh.react.codePair c p 0 s0) (lightE (legA (p 1) 0 0, legS (p 1) 0 1) 1) (dgdh.react.codeVec c p 3 0)‖ := by
    intro s0 s2
    exact am s0 s2 1
  show meaning (dgdh.N c p) .r Cls.dgdh.methods 2 [] = _
  have s0 : dgdh.react.someStates ![none, some true, none, none] 0 = 6 := by decide +kernel
  have s1 : dgdh.react.someStates ![none, some true, none, none] 1 = 8 := by decide +kernel
  have sy : dgdh.react.symmetry = 1 := by decide
  have p0 : dgdh.react.pick ![none, some true, none, none] 0 = {0, 1} := rfl
  have p1 : dgdh.react.pick ![none, some true, none, none] 1 = {1} := rfl
  have p2 : dgdh.react.pick ![none, some true, none, none] 2 = {0, 1} := rfl
  have p3 : dgdh.react.pick ![none, some true, none, none] 3 = {0} := rfl
  have E1 : dgdh.react.codeE c p 1 = lightE (legA (p 1) 0 0, legS (p 1) 0 1) := rfl
  have E3 : dgdh.react.codeE c p 3 = dgdh.react.codeVec c p 3 := rfl
  rw [dgdh.amp2_gplus_value, s0, s1, sy]
  simp only [sumV_sum, sumJ_sum, sumW_sum, aP, p0, p1, p2, p3, E1, E3, Finset.sum_singleton, sum_two, Matrix.cons_val_zero, Matrix.cons_val_one, Matrix.cons_val, two_castSucc]
  try simp only [← Finset.mul_sum]
  push_cast
  ring

/-! ### uguh -/

set_option maxRecDepth 8000 in
theorem uguh.amp2_gplus_eq (N : Env) (f : Nat → List Int → ℂ) : Cls.uguh.m_amp2_gplus.mean N f .r [] =
    ((sumJ (fun x a => (sumJ (fun x b => (x + (((4 : Nat) : ℝ) * (‖(f 0 [a, 2, b])‖ ^ 2)))) x)) ((0 : Nat) : ℝ)) / ((48 : Nat) : ℝ)) := by rfl
set_option maxRecDepth 8000 in
theorem uguh.amp2_gplus_value (N : Env) : meaning N .r Cls.uguh.methods 2 [] =
    ((sumJ (fun x a => (sumJ (fun x b => (x + (((4 : Nat) : ℝ) * (‖(Cls.uguh.m_amp.mean N (callMean N []) .c [a, 2, b])‖ ^ 2)))) x)) ((0 : Nat) : ℝ)) / ((48 : Nat) : ℝ)) :=
  uguh.amp2_gplus_eq N (callMean N [Cls.uguh.m_amp2, Cls.uguh.m_amp])

variable [FPEnv] in
/-- `amp2_gplus` -/
theorem uguh.amp2_gplus_polarises : uguh.Polarises 2 ![none, some true, none, none] := by
  refine polarises_of (D := [4, 5]) (E := [5]) (by unfold Reaction.Lights; decide) (by decide) (by simp [all, uguh]) (by decide +kernel) (by decide) (by decide +kernel) (fun c hc hh => ⟨List.forall_mem_cons.2 ⟨hc.MW, List.forall_mem_cons.2 ⟨hc.SW, List.forall_mem_nil _⟩⟩, List.forall_mem_cons.2 ⟨hc.SW_lt, List.forall_mem_nil _⟩⟩) (fun c hc i => uguh.mass_eq hc i) (by decide +kernel) ?_
  intro c p hc hh hw h0 hs hb hr hu
  have he : uguh.react.ends = [2] := by decide
  have ht : uguh.react.starts = [0] := by decide
  have hB : uguh.react.bosons = [1, 3] := by decide
  obtain ⟨n0, n1, d1, d2, am⟩ := uguh.amps hc hh h0 hs hb hr hu
  have hG : uguh.react.Gauge c p := uguh.react.gauge_line he ht hB hh (by decide) (fun n => onShell_msq (hs n)) hb hr (fun n m h h2 => absurd (And.intro h h2) (by revert n m; decide)) (fun _ => ⟨rfl, rfl⟩) (fun h => absurd h (by decide))
  refine ⟨d1, d2, hG, _, _, fun s _ => uguh.react.state_gluon 1 he ht hB (by decide) (by decide +kernel) (by decide +kernel) _ s, ?_⟩
  have aP : ∀ (s0 : Fin 2) (s2 : Fin 2), ‖Cls.uguh.m_amp.mean (uguh.N c p) (callMean (uguh.N c p) []) .c [spinOf s0, 2, spinOf s2]‖ = ‖uguh.react.bare c p 2 0 1 3 (uguh.react.codePair c p 2 s2) (uguh.react.codePair c p 0 s0) (lightE (legA (p 1) 0 0, legS (p 1) 0 1) 1) (uguh.react.codeVec c p 3 0)‖ := by
    intro s0 s2
    exact am s0 s2 1
  show meaning (uguh.N c p) .r Cls.uguh.methods 2 [] = _
  have s0 : uguh.react.someStates ![none, some true, none, none] 0 = 6 := by decide +kernel
  have s1 : uguh.react.someStates ![none, some true, none, none] 1 = 8 := by decide +kernel
  have sy : uguh.react.symmetry = 1 := by decide
  have p0 : uguh.react.pick ![none, some true, none, none] 0 = {0, 1} := rfl
  have p1 : uguh.react.pick ![none, some true, none, none] 1 = {1} := rfl
  have p2 : uguh.react.pick ![none, some true, none, none] 2 = {0, 1} := rfl
  have p3 : uguh.react.pick ![none, some true, none, none] 3 = {0} := rfl
  have E1 : uguh.react.codeE c p 1 = lightE (legA (p 1) 0 0, legS (p 1) 0 1) := rfl
  have E3 : uguh.react.codeE c p 3 = uguh.react.codeVec c p 3 := rfl
  rw [uguh.amp2_gplus_value, s0, s1, sy]
  simp only [sumV_sum, sumJ_sum, sumW_sum, aP, p0, p1, p2, p3, E1, E3, Finset.sum_singleton, sum_two, Matrix.cons_val_zero, Matrix.cons_val_one, Matrix.cons_val, two_castSucc]
  try simp only [← Finset.mul_sum]
  push_cast
  ring

/-! ### hgdd -/

set_option maxRecDepth 8000 in
theorem hgdd.amp2_gplus_eq (N : Env) (f : Nat → List Int → ℂ) : Cls.hgdd.m_amp2_gplus.mean N f .r [] =
    ((sumJ (fun x a => (sumJ (fun x b => (x + (((4 : Nat) : ℝ) * (‖(f 0 [2, a, b])‖ ^ 2)))) x)) ((0 : Nat) : ℝ)) / ((8 : Nat) : ℝ)) := by rfl
set_option maxRecDepth 8000 in
theorem hgdd.amp2_gplus_value (N : Env) : meaning N .r Cls.hgdd.methods 2 [] =
    ((sumJ (fun x a => (sumJ (fun x b => (x + (((4 : Nat) : ℝ) * (‖(Cls.hgdd.m_amp.mean N (callMean N []) .c [2, a, b])‖ ^ 2)))) x)) ((0 : Nat) : ℝ)) / ((8 : Nat) : ℝ)) :=
  hgdd.amp2_gplus_eq N (callMean N [Cls.hgdd.m_amp2, Cls.hgdd.m_amp])

variable [FPEnv] in
/-- `amp2_gplus` -/
theorem hgdd.amp2_gplus_polarises : hgdd.Polarises 2 ![none, some true, none, none] := by
  refine polarises_of (D := [4, 5]) (E := [5]) (by unfold Reaction.Lights; decide) (by decide) (by simp [all, hgdd]) (by decide +kernel) (by decide) (by decide +kernel) (fun c hc hh => ⟨List.forall_mem_cons.2 ⟨hc.MW, List.forall_mem_cons.2 ⟨hc.SW, List.forall_mem_nil _⟩⟩, List.forall_mem_cons.2 ⟨hc.SW_lt, List.forall_mem_nil _⟩⟩) (fun c hc i => hgdd.mass_eq hc i) (by decide +kernel) ?_
  intro c p hc hh hw h0 hs hb hr hu
  have he : hgdd.react.ends = [2] := by decide
  have ht : hgdd.react.starts = [3] := by decide
  have hB : hgdd.react.bosons = [0, 1] := by decide
  obtain ⟨n0, n1, d1, d2, am⟩ := hgdd.amps hc hh h0 hs hb hr hu
  have hG : hgdd.react.Gauge c p := hgdd.react.gauge_line he ht hB hh (by decide) (fun n => onShell_msq (hs n)) hb hr (fun n m h h2 => absurd (And.intro h h2) (by revert n m; decide)) (fun h => absurd h (by decide)) (fun _ => ⟨rfl, rfl⟩)
  refine ⟨d1, d2, hG, _, _, fun s _ => hgdd.react.state_gluon 1 he ht hB (by decide) (by decide +kernel) (by decide +kernel) _ s, ?_⟩
  have aP : ∀ (s2 : Fin 2) (s3 : Fin 2), ‖Cls.hgdd.m_amp.mean (hgdd.N c p) (callMean (hgdd.N c p) []) .c [2, spinOf s2, spinOf s3]‖ = ‖hgdd.react.bare c p 2 3 0 1 (hgdd.react.codePair c p 2 s2) (hgdd.react.codePair c p 3 s3) (hgdd.react.codeVec c p 0 0) (lightE (legA (p 1) 0 0, legS (p 1) 0 1) 1)‖ := by
    intro s2 s3
    exact am s2 s3 1
  show meaning (hgdd.N c p) .r Cls.hgdd.methods 2 [] = _
  have s0 : hgdd.react.someStates ![none, some true, none, none] 0 = 1 := by decide +kernel
  have s1 : hgdd.react.someStates ![none, some true, none, none] 1 = 8 := by decide +kernel
  have sy : hgdd.react.symmetry = 1 := by decide
  have p0 : hgdd.react.pick ![none, some true, none, none] 0 = {0} := rfl
  have p1 : hgdd.react.pick ![none, some true, none, none] 1 = {1} := rfl
  have p2 : hgdd.react.pick ![none, some true, none, none] 2 = {0, 1} := rfl
  have p3 : hgdd.react.pick ![none, some true, none, none] 3 = {0, 1} := rfl
  have E0 : hgdd.react.codeE c p 0 = hgdd.react.codeVec c p 0 := rfl
  have E1 : hgdd.react.codeE c p 1 = lightE (legA (p 1) 0 0, legS (p 1) 0 1) := rfl
  rw [hgdd.amp2_gplus_value, s0, s1, sy]
  simp only [sumV_sum, sumJ_sum, sumW_sum, aP, p0, p1, p2, p3, E0, E1, Finset.sum_singleton, sum_two, Matrix.cons_val_zero, Matrix.cons_val_one, Matrix.cons_val, two_castSucc]
  try simp only [← Finset.mul_sum]
  push_cast
  ring

/-! ### hguu -/

set_option maxRecDepth 8000 in
theorem hguu.amp2_gplus_eq (N : Env) (f : Nat → List Int → ℂ) : Cls.hguu.m_amp2_gplus.mean N f .r [] =
    ((sumJ (fun x a => (sumJ (fun x b => (x + (((4 : Nat) : ℝ) * (‖(f 0 [2, a, b])‖ ^ 2)))) x)) ((0 : Nat) : ℝ)) / ((8 : Nat) : ℝ)) := by rfl
set_option maxRecDepth 8000 in
theorem hguu.amp2_gplus_value (N : Env) : meaning N .r Cls.hguu.methods 2 [] =
    ((sumJ (fun x a => (sumJ (fun x b => (x + (((4 : Nat) : ℝ) * (‖(Cls.hguu.m_amp.mean N (callMean N []) .c [2, a, b])‖ ^ 2)))) x)) ((0 : Nat) : ℝ)) / ((8 : Nat) : ℝ)) :=
  hguu.amp2_gplus_eq N (callMean N [Cls.hguu.m_amp2, Cls.hguu.m_amp])

variable [FPEnv] in
/-- `amp2_gplus` -/
theorem hguu.amp2_gplus_polarises : hguu.Polarises 2 ![none, some true, none, none] := by
  refine polarises_of (D := [4, 5]) (E := [5]) (by unfold Reaction.Lights; decide) (by decide) (by simp [all, hguu]) (by decide +kernel) (by decide) (by decide +kernel) (fun c hc hh => ⟨List.forall_mem_cons.2 ⟨hc.MW, List.forall_mem_cons.2 ⟨hc.SW, List.forall_mem_nil _⟩⟩, List.forall_mem_cons.2 ⟨hc.SW_lt, List.forall_mem_nil _⟩⟩) (fun c hc i => hguu.mass_eq hc i) (by decide +kernel) ?_
  intro c p hc hh hw h0 hs hb hr hu
  have he : hguu.react.ends = [2] := by decide
  have ht : hguu.react.starts = [3] := by decide
  have hB : hguu.react.bosons = [0, 1] := by decide
  obtain ⟨n0, n1, d1, d2, am⟩ := hguu.amps hc hh h0 hs hb hr hu
  have hG : hguu.react.Gauge c p := hguu.react.gauge_line he ht hB hh (by decide) (fun n => onShell_msq (hs n)) hb hr (fun n m h h2 => absurd (And.intro h h2) (by revert n m; decide)) (fun h => absurd h (by decide)) (fun _ => ⟨rfl, rfl⟩)
  refine ⟨d1, d2, hG, _, _, fun s _ => hguu.react.state_gluon 1 he ht hB (by decide) (by decide +kernel) (by decide +kernel) _ s, ?_⟩
  have aP : ∀ (s2 : Fin 2) (s3 : Fin 2), ‖Cls.hguu.m_amp.mean (hguu.N c p) (callMean (hguu.N c p) []) .c [2, spinOf s2, spinOf s3]‖ = ‖hguu.react.bare c p 2 3 0 1 (hguu.react.codePair c p 2 s2) (hguu.react.codePair c p 3 s3) (hguu.react.codeVec c p 0 0) (lightE (legA (p 1) 0 0, legS (p 1) 0 1) 1)‖ := by
    intro s2 s3
    exact am s2 s3 1
  show meaning (hguu.N c p) .r Cls.hguu.methods 2 [] = _
  have s0 : hguu.react.someStates ![none, some true, none, none] 0 = 1 := by decide +kernel
  have s1 : hguu.react.someStates ![none, some true, none, none] 1 = 8 := by decide +kernel
  have sy : hguu.react.symmetry = 1 := by decide
  have p0 : hguu.react.pick ![none, some true, none, none] 0 = {0} := rfl
  have p1 : hguu.react.pick ![none, some true, none, none] 1 = {1} := rfl
  have p2 : hguu.react.pick ![none, some true, none, none] 2 = {0, 1} := rfl
  have p3 : hguu.react.pick ![none, some true, none, none] 3 = {0, 1} := rfl
  have E0 : hguu.react.codeE c p 0 = hguu.react.codeVec c p 0 := rfl
  have E1 : hguu.react.codeE c p 1 = lightE (legA (p 1) 0 0, legS (p 1) 0 1) := rfl
  rw [hguu.amp2_gplus_value, s0, s1, sy]
  simp only [sumV_sum, sumJ_sum, sumW_sum, aP, p0, p1, p2, p3, E0, E1, Finset.sum_singleton, sum_two, Matrix.cons_val_zero, Matrix.cons_val_one, Matrix.cons_val, two_castSucc]
  try simp only [← Finset.mul_sum]
  push_cast
  ring

end Spinas.SM.Rows
