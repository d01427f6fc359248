import Verif.SM.Bosons.Compton
import Verif.SM.Bosons.GluonPhoton
import Verif.SM.Bosons.GluonPhotonIn
import Verif.SM.Bosons.Photons
import Verif.SM.Polar

/-! Two photons, or a photon and a gluon. Generated by tools/bosons/polar.py: the methods for given helicities return the squared amplitudes of the Feynman rules. -/

set_option maxHeartbeats 1000000

namespace Spinas.SM.Rows
open Spec Spec.Reaction Props XR Matrix BRow

/-! ### AAuu -/

set_option maxRecDepth 8000 in
theorem AAuu.amp2_Aplus_Aplus_eq (N : Env) (f : Nat → List Int → ℂ) : Cls.AAuu.m_amp2_Aplus_Aplus.mean N f .r [] =
    (sumJ (fun x a => (sumJ (fun x b => (x + (((3 : Nat) : ℝ) * (‖(f 0 [2, 2, a, b])‖ ^ 2)))) x)) ((0 : Nat) : ℝ)) := by rfl
set_option maxRecDepth 8000 in
theorem AAuu.amp2_Aplus_Aplus_value (N : Env) : meaning N .r Cls.AAuu.methods 2 [] =
    (sumJ (fun x a => (sumJ (fun x b => (x + (((3 : Nat) : ℝ) * (‖(Cls.AAuu.m_amp.mean N (callMean N []) .c [2, 2, a, b])‖ ^ 2)))) x)) ((0 : Nat) : ℝ)) :=
  AAuu.amp2_Aplus_Aplus_eq N (callMean N [Cls.AAuu.m_amp2, Cls.AAuu.m_amp])

variable [FPEnv] in
/-- `amp2_Aplus_Aplus` -/
theorem AAuu.amp2_Aplus_Aplus_polarises : AAuu.Polarises 2 ![some true, some true, none, none] := by
  refine polarises_of (D := []) (E := []) (by unfold Reaction.Lights; decide) (by decide) (by simp [all, AAuu]) (by decide +kernel) (by decide) (by decide +kernel) (fun c hc hh => ⟨List.forall_mem_nil _, List.forall_mem_nil _⟩) (fun c hc i => AAuu.mass_eq hc i) (by decide +kernel) ?_
  intro c p hc hh hw h0 hs hb hr hu
  have he : AAuu.react.ends = [2] := by decide
  have ht : AAuu.react.starts = [3] := by decide
  have hB : AAuu.react.bosons = [0, 1] := by decide
  obtain ⟨n0, n1, d1, d2, am⟩ := AAuu.amps hc hh h0 hs hb hr hu
  have hG : AAuu.react.Gauge c p := AAuu.react.gauge_line he ht hB hh (by decide) (fun n => onShell_msq (hs n)) hb hr (fun n m h h2 => absurd (And.intro h h2) (by revert n m; decide)) (fun _ => ⟨rfl, rfl⟩) (fun _ => ⟨rfl, rfl⟩)
  refine ⟨d1, d2, hG, _, _, fun s _ => AAuu.react.state_line he ht hB (by decide) _ s, ?_⟩
  have aP : ∀ (s2 : Fin 2) (s3 : Fin 2), ‖Cls.AAuu.m_amp.mean (AAuu.N c p) (callMean (AAuu.N c p) []) .c [2, 2, spinOf s2, spinOf s3]‖ = ‖AAuu.react.bare c p 2 3 0 1 (AAuu.react.codePair c p 2 s2) (AAuu.react.codePair c p 3 s3) (lightE (legA (p 0) 0 0, legS (p 0) 0 1) 1) (lightE (legA (p 1) 0 0, legS (p 1) 0 1) 1)‖ := by
    intro s2 s3
    exact am s2 s3 1 1
  show meaning (AAuu.N c p) .r Cls.AAuu.methods 2 [] = _
  have s0 : AAuu.react.someStates ![some true, some true, none, none] 0 = 1 := by decide +kernel
  have s1 : AAuu.react.someStates ![some true, some true, none, none] 1 = 1 := by decide +kernel
  have sy : AAuu.react.symmetry = 1 := by decide
  have p0 : AAuu.react.pick ![some true, some true, none, none] 0 = {1} := rfl
  have p1 : AAuu.react.pick ![some true, some true, none, none] 1 = {1} := rfl
  have p2 : AAuu.react.pick ![some true, some true, none, none] 2 = {0, 1} := rfl
  have p3 : AAuu.react.pick ![some true, some true, none, none] 3 = {0, 1} := rfl
  have E0 : AAuu.react.codeE c p 0 = lightE (legA (p 0) 0 0, legS (p 0) 0 1) := rfl
  have E1 : AAuu.react.codeE c p 1 = lightE (legA (p 1) 0 0, legS (p 1) 0 1) := rfl
  have lc : AAuu.react.lineColours 2 3 = 3 := by decide +kernel
  rw [AAuu.amp2_Aplus_Aplus_value, lc, s0, s1, sy]
  simp only [sumV_sum, sumJ_sum, sumW_sum, aP, p0, p1, p2, p3, E0, E1, Finset.sum_singleton, sum_two, Matrix.cons_val_zero, Matrix.cons_val_one, Matrix.cons_val, two_castSucc]
  try simp only [← Finset.mul_sum]
  push_cast
  ring

set_option maxRecDepth 8000 in
theorem AAuu.amp2_Aplus_Aminus_eq (N : Env) (f : Nat → List Int → ℂ) : Cls.AAuu.m_amp2_Aplus_Aminus.mean N f .r [] =
    (sumJ (fun x a => (sumJ (fun x b => (x + (((3 : Nat) : ℝ) * (‖(f 0 [2, (-2), a, b])‖ ^ 2)))) x)) ((0 : Nat) : ℝ)) := by rfl
set_option maxRecDepth 8000 in
theorem AAuu.amp2_Aplus_Aminus_value (N : Env) : meaning N .r Cls.AAuu.methods 3 [] =
    (sumJ (fun x a => (sumJ (fun x b => (x + (((3 : Nat) : ℝ) * (‖(Cls.AAuu.m_amp.mean N (callMean N []) .c [2, (-2), a, b])‖ ^ 2)))) x)) ((0 : Nat) : ℝ)) :=
  AAuu.amp2_Aplus_Aminus_eq N (callMean N [Cls.AAuu.m_amp2_Aplus_Aplus, Cls.AAuu.m_amp2, Cls.AAuu.m_amp])

variable [FPEnv] in
/-- `amp2_Aplus_Aminus` -/
theorem AAuu.amp2_Aplus_Aminus_polarises : AAuu.Polarises 3 ![some true, some false, none, none] := by
  refine polarises_of (D := []) (E := []) (by unfold Reaction.Lights; decide) (by decide) (by simp [all, AAuu]) (by decide +kernel) (by decide) (by decide +kernel) (fun c hc hh => ⟨List.forall_mem_nil _, List.forall_mem_nil _⟩) (fun c hc i => AAuu.mass_eq hc i) (by decide +kernel) ?_
  intro c p hc hh hw h0 hs hb hr hu
  have he : AAuu.react.ends = [2] := by decide
  have ht : AAuu.react.starts = [3] := by decide
  have hB : AAuu.react.bosons = [0, 1] := by decide
  obtain ⟨n0, n1, d1, d2, am⟩ := AAuu.amps hc hh h0 hs hb hr hu
  have hG : AAuu.react.Gauge c p := AAuu.react.gauge_line he ht hB hh (by decide) (fun n => onShell_msq (hs n)) hb hr (fun n m h h2 => absurd (And.intro h h2) (by revert n m; decide)) (fun _ => ⟨rfl, rfl⟩) (fun _ => ⟨rfl, rfl⟩)
  refine ⟨d1, d2, hG, _, _, fun s _ => AAuu.react.state_line he ht hB (by decide) _ s, ?_⟩
  have aP : ∀ (s2 : Fin 2) (s3 : Fin 2), ‖Cls.AAuu.m_amp.mean (AAuu.N c p) (callMean (AAuu.N c p) []) .c [2, (-2), spinOf s2, spinOf s3]‖ = ‖AAuu.react.bare c p 2 3 0 1 (AAuu.react.codePair c p 2 s2) (AAuu.react.codePair c p 3 s3) (lightE (legA (p 0) 0 0, legS (p 0) 0 1) 1) (lightE (legA (p 1) 0 0, legS (p 1) 0 1) 0)‖ := by
    intro s2 s3
    exact am s2 s3 1 0
  show meaning (AAuu.N c p) .r Cls.AAuu.methods 3 [] = _
  have s0 : AAuu.react.someStates ![some true, some false, none, none] 0 = 1 := by decide +kernel
  have s1 : AAuu.react.someStates ![some true, some false, none, none] 1 = 1 := by decide +kernel
  have sy : AAuu.react.symmetry = 1 := by decide
  have p0 : AAuu.react.pick ![some true, some false, none, none] 0 = {1} := rfl
  have p1 : AAuu.react.pick ![some true, some false, none, none] 1 = {0} := rfl
  have p2 : AAuu.react.pick ![some true, some false, none, none] 2 = {0, 1} := rfl
  have p3 : AAuu.react.pick ![some true, some false, none, none] 3 = {0, 1} := rfl
  have E0 : AAuu.react.codeE c p 0 = lightE (legA (p 0) 0 0, legS (p 0) 0 1) := rfl
  have E1 : AAuu.react.codeE c p 1 = lightE (legA (p 1) 0 0, legS (p 1) 0 1) := rfl
  have lc : AAuu.react.lineColours 2 3 = 3 := by decide +kernel
  rw [AAuu.amp2_Aplus_Aminus_value, lc, s0, s1, sy]
  simp only [sumV_sum, sumJ_sum, sumW_sum, aP, p0, p1, p2, p3, E0, E1, Finset.sum_singleton, sum_two, Matrix.cons_val_zero, Matrix.cons_val_one, Matrix.cons_val, two_castSucc]
  try simp only [← Finset.mul_sum]
  push_cast
  ring

/-! ### AAdd -/

set_option maxRecDepth 8000 in
theorem AAdd.amp2_Aplus_Aplus_eq (N : Env) (f : Nat → List Int → ℂ) : Cls.AAdd.m_amp2_Aplus_Aplus.mean N f .r [] =
    (sumJ (fun x a => (sumJ (fun x b => (x + (((3 : Nat) : ℝ) * (‖(f 0 [2, 2, a, b])‖ ^ 2)))) x)) ((0 : Nat) : ℝ)) := by rfl
set_option maxRecDepth 8000 in
theorem AAdd.amp2_Aplus_Aplus_value (N : Env) : meaning N .r Cls.AAdd.methods 2 [] =
    (sumJ (fun x a => (sumJ (fun x b => (x + (((3 : Nat) : ℝ) * (‖(Cls.AAdd.m_amp.mean N (callMean N []) .c [2, 2, a, b])‖ ^ 2)))) x)) ((0 : Nat) : ℝ)) :=
  AAdd.amp2_Aplus_Aplus_eq N (callMean N [Cls.AAdd.m_amp2, Cls.AAdd.m_amp])

variable [FPEnv] in
/-- `amp2_Aplus_Aplus` -/
theorem AAdd.amp2_Aplus_Aplus_polarises : AAdd.Polarises 2 ![some true, some true, none, none] := by
  refine polarises_of (D := []) (E := []) (by unfold Reaction.Lights; decide) (by decide) (by simp [all, AAdd]) (by decide +kernel) (by decide) (by decide +kernel) (fun c hc hh => ⟨List.forall_mem_nil _, List.forall_mem_nil _⟩) (fun c hc i => AAdd.mass_eq hc i) (by decide +kernel) ?_
  intro c p hc hh hw h0 hs hb hr hu
  have he : AAdd.react.ends = [2] := by decide
  have ht : AAdd.react.starts = [3] := by decide
  have hB : AAdd.react.bosons = [0, 1] := by decide
  obtain ⟨n0, n1, d1, d2, am⟩ := AAdd.amps hc hh h0 hs hb hr hu
  have hG : AAdd.react.Gauge c p := AAdd.react.gauge_line he ht hB hh (by decide) (fun n => onShell_msq (hs n)) hb hr (fun n m h h2 => absurd (And.intro h h2) (by revert n m; decide)) (fun _ => ⟨rfl, rfl⟩) (fun _ => ⟨rfl, rfl⟩)
  refine ⟨d1, d2, hG, _, _, fun s _ => AAdd.react.state_line he ht hB (by decide) _ s, ?_⟩
  have aP : ∀ (s2 : Fin 2) (s3 : Fin 2), ‖Cls.AAdd.m_amp.mean (AAdd.N c p) (callMean (AAdd.N c p) []) .c [2, 2, spinOf s2, spinOf s3]‖ = ‖AAdd.react.bare c p 2 3 0 1 (AAdd.react.codePair c p 2 s2) (AAdd.react.codePair c p 3 s3) (lightE (legA (p 0) 0 0, legS (p 0) 0 1) 1) (lightE (legA (p 1) 0 0, legS (p 1) 0 1) 1)‖ := by
    intro s2 s3
    exact am s2 s3 1 1
  show meaning (AAdd.N c p) .r Cls.AAdd.methods 2 [] = _
  have s0 : AAdd.react.someStates ![some true, some true, none, none] 0 = 1 := by decide +kernel
  have s1 : AAdd.react.someStates ![some true, some true, none, none] 1 = 1 := by decide +kernel
  have sy : AAdd.react.symmetry = 1 := by decide
  have p0 : AAdd.react.pick ![some true, some true, none, none] 0 = {1} := rfl
  have p1 : AAdd.react.pick ![some true, some true, none, none] 1 = {1} := rfl
  have p2 : AAdd.react.pick ![some true, some true, none, none] 2 = {0, 1} := rfl
  have p3 : AAdd.react.pick ![some true, some true, none, none] 3 = {0, 1} := rfl
  have E0 : AAdd.react.codeE c p 0 = lightE (legA (p 0) 0 0, legS (p 0) 0 1) := rfl
  have E1 : AAdd.react.codeE c p 1 = lightE (legA (p 1) 0 0, legS (p 1) 0 1) := rfl
  have lc : AAdd.react.lineColours 2 3 = 3 := by decide +kernel
  rw [AAdd.amp2_Aplus_Aplus_value, lc, s0, s1, sy]
  simp only [sumV_sum, sumJ_sum, sumW_sum, aP, p0, p1, p2, p3, E0, E1, Finset.sum_singleton, sum_two, Matrix.cons_val_zero, Matrix.cons_val_one, Matrix.cons_val, two_castSucc]
  try simp only [← Finset.mul_sum]
  push_cast
  ring

set_option maxRecDepth 8000 in
theorem AAdd.amp2_Aplus_Aminus_eq (N : Env) (f : Nat → List Int → ℂ) : Cls.AAdd.m_amp2_Aplus_Aminus.mean N f .r [] =
    (sumJ (fun x a => (sumJ (fun x b => (x + (((3 : Nat) : ℝ) * (‖(f 0 [2, (-2), a, b])‖ ^ 2)))) x)) ((0 : Nat) : ℝ)) := by rfl
set_option maxRecDepth 8000 in
theorem AAdd.amp2_Aplus_Aminus_value (N : Env) : meaning N .r Cls.AAdd.methods 3 [] =
    (sumJ (fun x a => (sumJ (fun x b => (x + (((3 : Nat) : ℝ) * (‖(Cls.AAdd.m_amp.mean N (callMean N []) .c [2, (-2), a, b])‖ ^ 2)))) x)) ((0 : Nat) : ℝ)) :=
  AAdd.amp2_Aplus_Aminus_eq N (callMean N [Cls.AAdd.m_amp2_Aplus_Aplus, Cls.AAdd.m_amp2, Cls.AAdd.m_amp])

variable [FPEnv] in
/-- `amp2_Aplus_Aminus` -/
theorem AAdd.amp2_Aplus_Aminus_polarises : AAdd.Polarises 3 ![some true, some false, none, none] := by
  refine polarises_of (D := []) (E := []) (by unfold Reaction.Lights; decide) (by decide) (by simp [all, AAdd]) (by decide +kernel) (by decide) (by decide +kernel) (fun c hc hh => ⟨List.forall_mem_nil _, List.forall_mem_nil _⟩) (fun c hc i => AAdd.mass_eq hc i) (by decide +kernel) ?_
  intro c p hc hh hw h0 hs hb hr hu
  have he : AAdd.react.ends = [2] := by decide
  have ht : AAdd.react.starts = [3] := by decide
  have hB : AAdd.react.bosons = [0, 1] := by decide
  obtain ⟨n0, n1, d1, d2, am⟩ := AAdd.amps hc hh h0 hs hb hr hu
  have hG : AAdd.react.Gauge c p := AAdd.react.gauge_line he ht hB hh (by decide) (fun n => onShell_msq (hs n)) hb hr (fun n m h h2 => absurd (And.intro h h2) (by revert n m; decide)) (fun _ => ⟨rfl, rfl⟩) (fun _ => ⟨rfl, rfl⟩)
  refine ⟨d1, d2, hG, _, _, fun s _ => AAdd.react.state_line he ht hB (by decide) _ s, ?_⟩
  have aP : ∀ (s2 : Fin 2) (s3 : Fin 2), ‖Cls.AAdd.m_amp.mean (AAdd.N c p) (callMean (AAdd.N c p) []) .c [2, (-2), spinOf s2, spinOf s3]‖ = ‖AAdd.react.bare c p 2 3 0 1 (AAdd.react.codePair c p 2 s2) (AAdd.react.codePair c p 3 s3) (lightE (legA (p 0) 0 0, legS (p 0) 0 1) 1) (lightE (legA (p 1) 0 0, legS (p 1) 0 1) 0)‖ := by
    intro s2 s3
    exact am s2 s3 1 0
  show meaning (AAdd.N c p) .r Cls.AAdd.methods 3 [] = _
  have s0 : AAdd.react.someStates ![some true, some false, none, none] 0 = 1 := by decide +kernel
  have s1 : AAdd.react.someStates ![some true, some false, none, none] 1 = 1 := by decide +kernel
  have sy : AAdd.react.symmetry = 1 := by decide
  have p0 : AAdd.react.pick ![some true, some false, none, none] 0 = {1} := rfl
  have p1 : AAdd.react.pick ![some true, some false, none, none] 1 = {0} := rfl
  have p2 : AAdd.react.pick ![some true, some false, none, none] 2 = {0, 1} := rfl
  have p3 : AAdd.react.pick ![some true, some false, none, none] 3 = {0, 1} := rfl
  have E0 : AAdd.react.codeE c p 0 = lightE (legA (p 0) 0 0, legS (p 0) 0 1) := rfl
  have E1 : AAdd.react.codeE c p 1 = lightE (legA (p 1) 0 0, legS (p 1) 0 1) := rfl
  have lc : AAdd.react.lineColours 2 3 = 3 := by decide +kernel
  rw [AAdd.amp2_Aplus_Aminus_value, lc, s0, s1, sy]
  simp only [sumV_sum, sumJ_sum, sumW_sum, aP, p0, p1, p2, p3, E0, E1, Finset.sum_singleton, sum_two, Matrix.cons_val_zero, Matrix.cons_val_one, Matrix.cons_val, two_castSucc]
  try simp only [← Finset.mul_sum]
  push_cast
  ring

/-! ### AAee -/

set_option maxRecDepth 8000 in
theorem AAee.amp2_Aplus_Aplus_eq (N : Env) (f : Nat → List Int → ℂ) : Cls.AAee.m_amp2_Aplus_Aplus.mean N f .r [] =
    (sumJ (fun x a => (sumJ (fun x b => (x + (‖(f 0 [2, 2, a, b])‖ ^ 2))) x)) ((0 : Nat) : ℝ)) := by rfl
set_option maxRecDepth 8000 in
theorem AAee.amp2_Aplus_Aplus_value (N : Env) : meaning N .r Cls.AAee.methods 2 [] =
    (sumJ (fun x a => (sumJ (fun x b => (x + (‖(Cls.AAee.m_amp.mean N (callMean N []) .c [2, 2, a, b])‖ ^ 2))) x)) ((0 : Nat) : ℝ)) :=
  AAee.amp2_Aplus_Aplus_eq N (callMean N [Cls.AAee.m_amp2, Cls.AAee.m_amp])

variable [FPEnv] in
/-- `amp2_Aplus_Aplus` -/
theorem AAee.amp2_Aplus_Aplus_polarises : AAee.Polarises 2 ![some true, some true, none, none] := by
  refine polarises_of (D := []) (E := []) (by unfold Reaction.Lights; decide) (by decide) (by simp [all, AAee]) (by decide +kernel) (by decide) (by decide +kernel) (fun c hc hh => ⟨List.forall_mem_nil _, List.forall_mem_nil _⟩) (fun c hc i => AAee.mass_eq hc i) (by decide +kernel) ?_
  intro c p hc hh hw h0 hs hb hr hu
  have he : AAee.react.ends = [2] := by decide
  have ht : AAee.react.starts = [3] := by decide
  have hB : AAee.react.bosons = [0, 1] := by decide
  obtain ⟨n0, n1, d1, d2, am⟩ := AAee.amps hc hh h0 hs hb hr hu
  have hG : AAee.react.Gauge c p := AAee.react.gauge_line he ht hB hh (by decide) (fun n => onShell_msq (hs n)) hb hr (fun n m h h2 => absurd (And.intro h h2) (by revert n m; decide)) (fun _ => ⟨rfl, rfl⟩) (fun _ => ⟨rfl, rfl⟩)
  refine ⟨d1, d2, hG, _, _, fun s _ => AAee.react.state_line he ht hB (by decide) _ s, ?_⟩
  have aP : ∀ (s2 : Fin 2) (s3 : Fin 2), ‖Cls.AAee.m_amp.mean (AAee.N c p) (callMean (AAee.N c p) []) .c [2, 2, spinOf s2, spinOf s3]‖ = ‖AAee.react.bare c p 2 3 0 1 (AAee.react.codePair c p 2 s2) (AAee.react.codePair c p 3 s3) (lightE (legA (p 0) 0 0, legS (p 0) 0 1) 1) (lightE (legA (p 1) 0 0, legS (p 1) 0 1) 1)‖ := by
    intro s2 s3
    exact am s2 s3 1 1
  show meaning (AAee.N c p) .r Cls.AAee.methods 2 [] = _
  have s0 : AAee.react.someStates ![some true, some true, none, none] 0 = 1 := by decide +kernel
  have s1 : AAee.react.someStates ![some true, some true, none, none] 1 = 1 := by decide +kernel
  have sy : AAee.react.symmetry = 1 := by decide
  have p0 : AAee.react.pick ![some true, some true, none, none] 0 = {1} := rfl
  have p1 : AAee.react.pick ![some true, some true, none, none] 1 = {1} := rfl
  have p2 : AAee.react.pick ![some true, some true, none, none] 2 = {0, 1} := rfl
  have p3 : AAee.react.pick ![some true, some true, none, none] 3 = {0, 1} := rfl
  have E0 : AAee.react.codeE c p 0 = lightE (legA (p 0) 0 0, legS (p 0) 0 1) := rfl
  have E1 : AAee.react.codeE c p 1 = lightE (legA (p 1) 0 0, legS (p 1) 0 1) := rfl
  have lc : AAee.react.lineColours 2 3 = 1 := by decide +kernel
  rw [AAee.amp2_Aplus_Aplus_value, lc, s0, s1, sy]
  simp only [sumV_sum, sumJ_sum, sumW_sum, aP, p0, p1, p2, p3, E0, E1, Finset.sum_singleton, sum_two, Matrix.cons_val_zero, Matrix.cons_val_one, Matrix.cons_val, two_castSucc]
  try simp only [← Finset.mul_sum]
  push_cast
  ring

set_option maxRecDepth 8000 in
theorem AAee.amp2_Aplus_Aminus_eq (N : Env) (f : Nat → List Int → ℂ) : Cls.AAee.m_amp2_Aplus_Aminus.mean N f .r [] =
    (sumJ (fun x a => (sumJ (fun x b => (x + (‖(f 0 [2, (-2), a, b])‖ ^ 2))) x)) ((0 : Nat) : ℝ)) := by rfl
set_option maxRecDepth 8000 in
theorem AAee.amp2_Aplus_Aminus_value (N : Env) : meaning N .r Cls.AAee.methods 3 [] =
    (sumJ (fun x a => (sumJ (fun x b => (x + (‖(Cls.AAee.m_amp.mean N (callMean N []) .c [2, (-2), a, b])‖ ^ 2))) x)) ((0 : Nat) : ℝ)) :=
  AAee.amp2_Aplus_Aminus_eq N (callMean N [Cls.AAee.m_amp2_Aplus_Aplus, Cls.AAee.m_amp2, Cls.AAee.m_amp])

variable [FPEnv] in
/-- `amp2_Aplus_Aminus` -/
theorem AAee.amp2_Aplus_Aminus_polarises : AAee.Polarises 3 ![some true, some false, none, none] := by
  refine polarises_of (D := []) (E := []) (by unfold Reaction.Lights; decide) (by decide) (by simp [all, AAee]) (by decide +kernel) (by decide) (by decide +kernel) (fun c hc hh => ⟨List.forall_mem_nil _, List.forall_mem_nil _⟩) (fun c hc i => AAee.mass_eq hc i) (by decide +kernel) ?_
  intro c p hc hh hw h0 hs hb hr hu
  have he : AAee.react.ends = [2] := by decide
  have ht : AAee.react.starts = [3] := by decide
  have hB : AAee.react.bosons = [0, 1] := by decide
  obtain ⟨n0, n1, d1, d2, am⟩ := AAee.amps hc hh h0 hs hb hr hu
  have hG : AAee.react.Gauge c p := AAee.react.gauge_line he ht hB hh (by decide) (fun n => onShell_msq (hs n)) hb hr (fun n m h h2 => absurd (And.intro h h2) (by revert n m; decide)) (fun _ => ⟨rfl, rfl⟩) (fun _ => ⟨rfl, rfl⟩)
  refine ⟨d1, d2, hG, _, _, fun s _ => AAee.react.state_line he ht hB (by decide) _ s, ?_⟩
  have aP : ∀ (s2 : Fin 2) (s3 : Fin 2), ‖Cls.AAee.m_amp.mean (AAee.N c p) (callMean (AAee.N c p) []) .c [2, (-2), spinOf s2, spinOf s3]‖ = ‖AAee.react.bare c p 2 3 0 1 (AAee.react.codePair c p 2 s2) (AAee.react.codePair c p 3 s3) (lightE (legA (p 0) 0 0, legS (p 0) 0 1) 1) (lightE (legA (p 1) 0 0, legS (p 1) 0 1) 0)‖ := by
    intro s2 s3
    exact am s2 s3 1 0
  show meaning (AAee.N c p) .r Cls.AAee.methods 3 [] = _
  have s0 : AAee.react.someStates ![some true, some false, none, none] 0 = 1 := by decide +kernel
  have s1 : AAee.react.someStates ![some true, some false, none, none] 1 = 1 := by decide +kernel
  have sy : AAee.react.symmetry = 1 := by decide
  have p0 : AAee.react.pick ![some true, some false, none, none] 0 = {1} := rfl
  have p1 : AAee.react.pick ![some true, some false, none, none] 1 = {0} := rfl
  have p2 : AAee.react.pick ![some true, some false, none, none] 2 = {0, 1} := rfl
  have p3 : AAee.react.pick ![some true, some false, none, none] 3 = {0, 1} := rfl
  have E0 : AAee.react.codeE c p 0 = lightE (legA (p 0) 0 0, legS (p 0) 0 1) := rfl
  have E1 : AAee.react.codeE c p 1 = lightE (legA (p 1) 0 0, legS (p 1) 0 1) := rfl
  have lc : AAee.react.lineColours 2 3 = 1 := by decide +kernel
  rw [AAee.amp2_Aplus_Aminus_value, lc, s0, s1, sy]
  simp only [sumV_sum, sumJ_sum, sumW_sum, aP, p0, p1, p2, p3, E0, E1, Finset.sum_singleton, sum_two, Matrix.cons_val_zero, Matrix.cons_val_one, Matrix.cons_val, two_castSucc]
  try simp only [← Finset.mul_sum]
  push_cast
  ring

/-! ### uAAu -/

set_option maxRecDepth 8000 in
theorem uAAu.amp2_Aplus_eq (N : Env) (f : Nat → List Int → ℂ) : Cls.uAAu.m_amp2_Aplus.mean N f .r [] =
    ((sumJ (fun x a => (sumW (fun x b => (sumJ (fun x c => (x + (((3 : Nat) : ℝ) * (‖(f 0 [a, 2, b, c])‖ ^ 2)))) x)) x)) ((0 : Nat) : ℝ)) / ((6 : Nat) : ℝ)) := by rfl
set_option maxRecDepth 8000 in
theorem uAAu.amp2_Aplus_value (N : Env) : meaning N .r Cls.uAAu.methods 2 [] =
    ((sumJ (fun x a => (sumW (fun x b => (sumJ (fun x c => (x + (((3 : Nat) : ℝ) * (‖(Cls.uAAu.m_amp.mean N (callMean N []) .c [a, 2, b, c])‖ ^ 2)))) x)) x)) ((0 : Nat) : ℝ)) / ((6 : Nat) : ℝ)) :=
  uAAu.amp2_Aplus_eq N (callMean N [Cls.uAAu.m_amp2, Cls.uAAu.m_amp])

variable [FPEnv] in
/-- `amp2_Aplus` -/
theorem uAAu.amp2_Aplus_polarises : uAAu.Polarises 2 ![none, some true, none, none] := by
  refine polarises_of (D := []) (E := []) (by unfold Reaction.Lights; decide) (by decide) (by simp [all, uAAu]) (by decide +kernel) (by decide) (by decide +kernel) (fun c hc hh => ⟨List.forall_mem_nil _, List.forall_mem_nil _⟩) (fun c hc i => uAAu.mass_eq hc i) (by decide +kernel) ?_
  intro c p hc hh hw h0 hs hb hr hu
  have he : uAAu.react.ends = [3] := by decide
  have ht : uAAu.react.starts = [0] := by decide
  have hB : uAAu.react.bosons = [1, 2] := by decide
  obtain ⟨n0, n1, d1, d2, am⟩ := uAAu.amps hc hh h0 hs hb hr hu
  have hG : uAAu.react.Gauge c p := uAAu.react.gauge_line he ht hB hh (by decide) (fun n => onShell_msq (hs n)) hb hr (fun n m h h2 => absurd (And.intro h h2) (by revert n m; decide)) (fun _ => ⟨rfl, rfl⟩) (fun _ => ⟨rfl, rfl⟩)
  refine ⟨d1, d2, hG, _, _, fun s _ => uAAu.react.state_line he ht hB (by decide) _ s, ?_⟩
  have aP : ∀ (s0 : Fin 2) (s3 : Fin 2) (h2 : Fin 2), ‖Cls.uAAu.m_amp.mean (uAAu.N c p) (callMean (uAAu.N c p) []) .c [spinOf s0, 2, spinW h2, spinOf s3]‖ = ‖uAAu.react.bare c p 3 0 1 2 (uAAu.react.codePair c p 3 s3) (uAAu.react.codePair c p 0 s0) (lightE (legA (p 1) 0 0, legS (p 1) 0 1) 1) (lightE (legA (p 2) 0 0, legS (p 2) 0 1) h2.castSucc)‖ := by
    intro s0 s3 h2
    exact am s0 s3 1 h2
  show meaning (uAAu.N c p) .r Cls.uAAu.methods 2 [] = _
  have s0 : uAAu.react.someStates ![none, some true, none, none] 0 = 6 := by decide +kernel
  have s1 : uAAu.react.someStates ![none, some true, none, none] 1 = 1 := by decide +kernel
  have sy : uAAu.react.symmetry = 1 := by decide
  have p0 : uAAu.react.pick ![none, some true, none, none] 0 = {0, 1} := rfl
  have p1 : uAAu.react.pick ![none, some true, none, none] 1 = {1} := rfl
  have p2 : uAAu.react.pick ![none, some true, none, none] 2 = {0, 1} := rfl
  have p3 : uAAu.react.pick ![none, some true, none, none] 3 = {0, 1} := rfl
  have E1 : uAAu.react.codeE c p 1 = lightE (legA (p 1) 0 0, legS (p 1) 0 1) := rfl
  have E2 : uAAu.react.codeE c p 2 = lightE (legA (p 2) 0 0, legS (p 2) 0 1) := rfl
  have lc : uAAu.react.lineColours 3 0 = 3 := by decide +kernel
  rw [uAAu.amp2_Aplus_value, lc, s0, s1, sy]
  simp only [sumV_sum, sumJ_sum, sumW_sum, aP, p0, p1, p2, p3, E1, E2, Finset.sum_singleton, sum_two, Matrix.cons_val_zero, Matrix.cons_val_one, Matrix.cons_val, two_castSucc]
  try simp only [← Finset.mul_sum]
  push_cast
  ring

set_option maxRecDepth 8000 in
theorem uAAu.amp2_Aminus_eq (N : Env) (f : Nat → List Int → ℂ) : Cls.uAAu.m_amp2_Aminus.mean N f .r [] =
    ((sumJ (fun x a => (sumW (fun x b => (sumJ (fun x c => (x + (((3 : Nat) : ℝ) * (‖(f 0 [a, (-2), b, c])‖ ^ 2)))) x)) x)) ((0 : Nat) : ℝ)) / ((6 : Nat) : ℝ)) := by rfl
set_option maxRecDepth 8000 in
theorem uAAu.amp2_Aminus_value (N : Env) : meaning N .r Cls.uAAu.methods 3 [] =
    ((sumJ (fun x a => (sumW (fun x b => (sumJ (fun x c => (x + (((3 : Nat) : ℝ) * (‖(Cls.uAAu.m_amp.mean N (callMean N []) .c [a, (-2), b, c])‖ ^ 2)))) x)) x)) ((0 : Nat) : ℝ)) / ((6 : Nat) : ℝ)) :=
  uAAu.amp2_Aminus_eq N (callMean N [Cls.uAAu.m_amp2_Aplus, Cls.uAAu.m_amp2, Cls.uAAu.m_amp])

variable [FPEnv] in
/-- `amp2_Aminus` -/
theorem uAAu.amp2_Aminus_polarises : uAAu.Polarises 3 ![none, some false, none, none] := by
  refine polarises_of (D := []) (E := []) (by unfold Reaction.Lights; decide) (by decide) (by simp [all, uAAu]) (by decide +kernel) (by decide) (by decide +kernel) (fun c hc hh => ⟨List.forall_mem_nil _, List.forall_mem_nil _⟩) (fun c hc i => uAAu.mass_eq hc i) (by decide +kernel) ?_
  intro c p hc hh hw h0 hs hb hr hu
  have he : uAAu.react.ends = [3] := by decide
  have ht : uAAu.react.starts = [0] := by decide
  have hB : uAAu.react.bosons = [1, 2] := by decide
  obtain ⟨n0, n1, d1, d2, am⟩ := uAAu.amps hc hh h0 hs hb hr hu
  have hG : uAAu.react.Gauge c p := uAAu.react.gauge_line he ht hB hh (by decide) (fun n => onShell_msq (hs n)) hb hr (fun n m h h2 => absurd (And.intro h h2) (by revert n m; decide)) (fun _ => ⟨rfl, rfl⟩) (fun _ => ⟨rfl, rfl⟩)
  refine ⟨d1, d2, hG, _, _, fun s _ => uAAu.react.state_line he ht hB (by decide) _ s, ?_⟩
  have aP : ∀ (s0 : Fin 2) (s3 : Fin 2) (h2 : Fin 2), ‖Cls.uAAu.m_amp.mean (uAAu.N c p) (callMean (uAAu.N c p) []) .c [spinOf s0, (-2), spinW h2, spinOf s3]‖ = ‖uAAu.react.bare c p 3 0 1 2 (uAAu.react.codePair c p 3 s3) (uAAu.react.codePair c p 0 s0) (lightE (legA (p 1) 0 0, legS (p 1) 0 1) 0) (lightE (legA (p 2) 0 0, legS (p 2) 0 1) h2.castSucc)‖ := by
    intro s0 s3 h2
    exact am s0 s3 0 h2
  show meaning (uAAu.N c p) .r Cls.uAAu.methods 3 [] = _
  have s0 : uAAu.react.someStates ![none, some false, none, none] 0 = 6 := by decide +kernel
  have s1 : uAAu.react.someStates ![none, some false, none, none] 1 = 1 := by decide +kernel
  have sy : uAAu.react.symmetry = 1 := by decide
  have p0 : uAAu.react.pick ![none, some false, none, none] 0 = {0, 1} := rfl
  have p1 : uAAu.react.pick ![none, some false, none, none] 1 = {0} := rfl
  have p2 : uAAu.react.pick ![none, some false, none, none] 2 = {0, 1} := rfl
  have p3 : uAAu.react.pick ![none, some false, none, none] 3 = {0, 1} := rfl
  have E1 : uAAu.react.codeE c p 1 = lightE (legA (p 1) 0 0, legS (p 1) 0 1) := rfl
  have E2 : uAAu.react.codeE c p 2 = lightE (legA (p 2) 0 0, legS (p 2) 0 1) := rfl
  have lc : uAAu.react.lineColours 3 0 = 3 := by decide +kernel
  rw [uAAu.amp2_Aminus_value, lc, s0, s1, sy]
  simp only [sumV_sum, sumJ_sum, sumW_sum, aP, p0, p1, p2, p3, E1, E2, Finset.sum_singleton, sum_two, Matrix.cons_val_zero, Matrix.cons_val_one, Matrix.cons_val, two_castSucc]
  try simp only [← Finset.mul_sum]
  push_cast
  ring

/-! ### dAAd -/

set_option maxRecDepth 8000 in
theorem dAAd.amp2_Aplus_eq (N : Env) (f : Nat → List Int → ℂ) : Cls.dAAd.m_amp2_Aplus.mean N f .r [] =
    ((sumJ (fun x a => (sumW (fun x b => (sumJ (fun x c => (x + (((3 : Nat) : ℝ) * (‖(f 0 [a, 2, b, c])‖ ^ 2)))) x)) x)) ((0 : Nat) : ℝ)) / ((6 : Nat) : ℝ)) := by rfl
set_option maxRecDepth 8000 in
theorem dAAd.amp2_Aplus_value (N : Env) : meaning N .r Cls.dAAd.methods 2 [] =
    ((sumJ (fun x a => (sumW (fun x b => (sumJ (fun x c => (x + (((3 : Nat) : ℝ) * (‖(Cls.dAAd.m_amp.mean N (callMean N []) .c [a, 2, b, c])‖ ^ 2)))) x)) x)) ((0 : Nat) : ℝ)) / ((6 : Nat) : ℝ)) :=
  dAAd.amp2_Aplus_eq N (callMean N [Cls.dAAd.m_amp2, Cls.dAAd.m_amp])

variable [FPEnv] in
/-- `amp2_Aplus` -/
theorem dAAd.amp2_Aplus_polarises : dAAd.Polarises 2 ![none, some true, none, none] := by
  refine polarises_of (D := []) (E := []) (by unfold Reaction.Lights; decide) (by decide) (by simp [all, dAAd]) (by decide +kernel) (by decide) (by decide +kernel) (fun c hc hh => ⟨List.forall_mem_nil _, List.forall_mem_nil _⟩) (fun c hc i => dAAd.mass_eq hc i) (by decide +kernel) ?_
  intro c p hc hh hw h0 hs hb hr hu
  have he : dAAd.react.ends = [3] := by decide
  have ht : dAAd.react.starts = [0] := by decide
  have hB : dAAd.react.bosons = [1, 2] := by decide
  obtain ⟨n0, n1, d1, d2, am⟩ := dAAd.amps hc hh h0 hs hb hr hu
  have hG : dAAd.react.Gauge c p := dAAd.react.gauge_line he ht hB hh (by decide) (fun n => onShell_msq (hs n)) hb hr (fun n m h h2 => absurd (And.intro h h2) (by revert n m; decide)) (fun _ => ⟨rfl, rfl⟩) (fun _ => ⟨rfl, rfl⟩)
  refine ⟨d1, d2, hG, _, _, fun s _ => dAAd.react.state_line he ht hB (by decide) _ s, ?_⟩
  have aP : ∀ (s0 : Fin 2) (s3 : Fin 2) (h2 : Fin 2), ‖Cls.dAAd.m_amp.mean (dAAd.N c p) (callMean (dAAd.N c p) []) .c [spinOf s0, 2, spinW h2, spinOf s3]‖ = ‖dAAd.react.bare c p 3 0 1 2 (dAAd.react.codePair c p 3 s3) (dAAd.react.codePair c p 0 s0) (lightE (legA (p 1) 0 0, legS (p 1) 0 1) 1) (lightE (legA (p 2) 0 0, legS (p 2) 0 1) h2.castSucc)‖ := by
    intro s0 s3 h2
    exact am s0 s3 1 h2
  show meaning (dAAd.N c p) .r Cls.dAAd.methods 2 [] = _
  have s0 : dAAd.react.someStates ![none, some true, none, none] 0 = 6 := by decide +kernel
  have s1 : dAAd.react.someStates ![none, some true, none, none] 1 = 1 := by decide +kernel
  have sy : dAAd.react.symmetry = 1 := by decide
  have p0 : dAAd.react.pick ![none, some true, none, none] 0 = {0, 1} := rfl
  have p1 : dAAd.react.pick ![none, some true, none, none] 1 = {1} := rfl
  have p2 : dAAd.react.pick ![none, some true, none, none] 2 = {0, 1} := rfl
  have p3 : dAAd.react.pick ![none, some true, none, none] 3 = {0, 1} := rfl
  have E1 : dAAd.react.codeE c p 1 = lightE (legA (p 1) 0 0, legS (p 1) 0 1) := rfl
  have E2 : dAAd.react.codeE c p 2 = lightE (legA (p 2) 0 0, legS (p 2) 0 1) := rfl
  have lc : dAAd.react.lineColours 3 0 = 3 := by decide +kernel
  rw [dAAd.amp2_Aplus_value, lc, s0, s1, sy]
  simp only [sumV_sum, sumJ_sum, sumW_sum, aP, p0, p1, p2, p3, E1, E2, Finset.sum_singleton, sum_two, Matrix.cons_val_zero, Matrix.cons_val_one, Matrix.cons_val, two_castSucc]
  try simp only [← Finset.mul_sum]
  push_cast
  ring

set_option maxRecDepth 8000 in
theorem dAAd.amp2_Aminus_eq (N : Env) (f : Nat → List Int → ℂ) : Cls.dAAd.m_amp2_Aminus.mean N f .r [] =
    ((sumJ (fun x a => (sumW (fun x b => (sumJ (fun x c => (x + (((3 : Nat) : ℝ) * (‖(f 0 [a, (-2), b, c])‖ ^ 2)))) x)) x)) ((0 : Nat) : ℝ)) / ((6 : Nat) : ℝ)) := by rfl
set_option maxRecDepth 8000 in
theorem dAAd.amp2_Aminus_value (N : Env) : meaning N .r Cls.dAAd.methods 3 [] =
    ((sumJ (fun x a => (sumW (fun x b => (sumJ (fun x c => (x + (((3 : Nat) : ℝ) * (‖(Cls.dAAd.m_amp.mean N (callMean N []) .c [a, (-2), b, c])‖ ^ 2)))) x)) x)) ((0 : Nat) : ℝ)) / ((6 : Nat) : ℝ)) :=
  dAAd.amp2_Aminus_eq N (callMean N [Cls.dAAd.m_amp2_Aplus, Cls.dAAd.m_amp2, Cls.dAAd.m_amp])

variable [FPEnv] in
/-- `amp2_Aminus` -/
theorem dAAd.amp2_Aminus_polarises : dAAd.Polarises 3 ![none, some false, none, none] := by
  refine polarises_of (D := []) (E := []) (by unfold Reaction.Lights; decide) (by decide) (by simp [all, dAAd]) (by decide +kernel) (by decide) (by decide +kernel) (fun c hc hh => ⟨List.forall_mem_nil _, List.forall_mem_nil _⟩) (fun c hc i => dAAd.mass_eq hc i) (by decide +kernel) ?_
  intro c p hc hh hw h0 hs hb hr hu
  have he : dAAd.react.ends = [3] := by decide
  have ht : dAAd.react.starts = [0] := by decide
  have hB : dAAd.react.bosons = [1, 2] := by decide
  obtain ⟨n0, n1, d1, d2, am⟩ := dAAd.amps hc hh h0 hs hb hr hu
  have hG : dAAd.react.Gauge c p := dAAd.react.gauge_line he ht hB hh (by decide) (fun n => onShell_msq (hs n)) hb hr (fun n m h h2 => absurd (And.intro h h2) (by revert n m; decide)) (fun _ => ⟨rfl, rfl⟩) (fun _ => ⟨rfl, rfl⟩)
  refine ⟨d1, d2, hG, _, _, fun s _ => dAAd.react.state_line he ht hB (by decide) _ s, ?_⟩
  have aP : ∀ (s0 : Fin 2) (s3 : Fin 2) (h2 : Fin 2), ‖Cls.dAAd.m_amp.mean (dAAd.N c p) (callMean (dAAd.N c p) []) .c [spinOf s0, (-2), spinW h2, spinOf s3]‖ = ‖dAAd.react.bare c p 3 0 1 2 (dAAd.react.codePair c p 3 s3) (dAAd.react.codePair c p 0 s0) (lightE (legA (p 1) 0 0, legS (p 1) 0 1) 0) (lightE (legA (p 2) 0 0, legS (p 2) 0 1) h2.castSucc)‖ := by
    intro s0 s3 h2
    exact am s0 s3 0 h2
  show meaning (dAAd.N c p) .r Cls.dAAd.methods 3 [] = _
  have s0 : dAAd.react.someStates ![none, some false, none, none] 0 = 6 := by decide +kernel
  have s1 : dAAd.react.someStates ![none, some false, none, none] 1 = 1 := by decide +kernel
  have sy : dAAd.react.symmetry = 1 := by decide
  have p0 : dAAd.react.pick ![none, some false, none, none] 0 = {0, 1} := rfl
  have p1 : dAAd.react.pick ![none, some false, none, none] 1 = {0} := rfl
  have p2 : dAAd.react.pick ![none, some false, none, none] 2 = {0, 1} := rfl
  have p3 : dAAd.react.pick ![none, some false, none, none] 3 = {0, 1} := rfl
  have E1 : dAAd.react.codeE c p 1 = lightE (legA (p 1) 0 0, legS (p 1) 0 1) := rfl
  have E2 : dAAd.react.codeE c p 2 = lightE (legA (p 2) 0 0, legS (p 2) 0 1) := rfl
  have lc : dAAd.react.lineColours 3 0 = 3 := by decide +kernel
  rw [dAAd.amp2_Aminus_value, lc, s0, s1, sy]
  simp only [sumV_sum, sumJ_sum, sumW_sum, aP, p0, p1, p2, p3, E1, E2, Finset.sum_singleton, sum_two, Matrix.cons_val_zero, Matrix.cons_val_one, Matrix.cons_val, two_castSucc]
  try simp only [← Finset.mul_sum]
  push_cast
  ring

/-! ### eAAe -/

set_option maxRecDepth 8000 in
theorem eAAe.amp2_Aplus_eq (N : Env) (f : Nat → List Int → ℂ) : Cls.eAAe.m_amp2_Aplus.mean N f .r [] =
    ((sumJ (fun x a => (sumW (fun x b => (sumJ (fun x c => (x + (‖(f 0 [a, 2, b, c])‖ ^ 2))) x)) x)) ((0 : Nat) : ℝ)) / ((2 : Nat) : ℝ)) := by rfl
set_option maxRecDepth 8000 in
theorem eAAe.amp2_Aplus_value (N : Env) : meaning N .r Cls.eAAe.methods 2 [] =
    ((sumJ (fun x a => (sumW (fun x b => (sumJ (fun x c => (x + (‖(Cls.eAAe.m_amp.mean N (callMean N []) .c [a, 2, b, c])‖ ^ 2))) x)) x)) ((0 : Nat) : ℝ)) / ((2 : Nat) : ℝ)) :=
  eAAe.amp2_Aplus_eq N (callMean N [Cls.eAAe.m_amp2, Cls.eAAe.m_amp])

variable [FPEnv] in
/-- `amp2_Aplus` -/
theorem eAAe.amp2_Aplus_polarises : eAAe.Polarises 2 ![none, some true, none, none] := by
  refine polarises_of (D := []) (E := []) (by unfold Reaction.Lights; decide) (by decide) (by simp [all, eAAe]) (by decide +kernel) (by decide) (by decide +kernel) (fun c hc hh => ⟨List.forall_mem_nil _, List.forall_mem_nil _⟩) (fun c hc i => eAAe.mass_eq hc i) (by decide +kernel) ?_
  intro c p hc hh hw h0 hs hb hr hu
  have he : eAAe.react.ends = [3] := by decide
  have ht : eAAe.react.starts = [0] := by decide
  have hB : eAAe.react.bosons = [1, 2] := by decide
  obtain ⟨n0, n1, d1, d2, am⟩ := eAAe.amps hc hh h0 hs hb hr hu
  have hG : eAAe.react.Gauge c p := eAAe.react.gauge_line he ht hB hh (by decide) (fun n => onShell_msq (hs n)) hb hr (fun n m h h2 => absurd (And.intro h h2) (by revert n m; decide)) (fun _ => ⟨rfl, rfl⟩) (fun _ => ⟨rfl, rfl⟩)
  refine ⟨d1, d2, hG, _, _, fun s _ => eAAe.react.state_line he ht hB (by decide) _ s, ?_⟩
  have aP : ∀ (s0 : Fin 2) (s3 : Fin 2) (h2 : Fin 2), ‖Cls.eAAe.m_amp.mean (eAAe.N c p) (callMean (eAAe.N c p) []) .c [spinOf s0, 2, spinW h2, spinOf s3]‖ = ‖eAAe.react.bare c p 3 0 1 2 (eAAe.react.codePair c p 3 s3) (eAAe.react.codePair c p 0 s0) (lightE (legA (p 1) 0 0, legS (p 1) 0 1) 1) (lightE (legA (p 2) 0 0, legS (p 2) 0 1) h2.castSucc)‖ := by
    intro s0 s3 h2
    exact am s0 s3 1 h2
  show meaning (eAAe.N c p) .r Cls.eAAe.methods 2 [] = _
  have s0 : eAAe.react.someStates ![none, some true, none, none] 0 = 2 := by decide +kernel
  have s1 : eAAe.react.someStates ![none, some true, none, none] 1 = 1 := by decide +kernel
  have sy : eAAe.react.symmetry = 1 := by decide
  have p0 : eAAe.react.pick ![none, some true, none, none] 0 = {0, 1} := rfl
  have p1 : eAAe.react.pick ![none, some true, none, none] 1 = {1} := rfl
  have p2 : eAAe.react.pick ![none, some true, none, none] 2 = {0, 1} := rfl
  have p3 : eAAe.react.pick ![none, some true, none, none] 3 = {0, 1} := rfl
  have E1 : eAAe.react.codeE c p 1 = lightE (legA (p 1) 0 0, legS (p 1) 0 1) := rfl
  have E2 : eAAe.react.codeE c p 2 = lightE (legA (p 2) 0 0, legS (p 2) 0 1) := rfl
  have lc : eAAe.react.lineColours 3 0 = 1 := by decide +kernel
  rw [eAAe.amp2_Aplus_value, lc, s0, s1, sy]
  simp only [sumV_sum, sumJ_sum, sumW_sum, aP, p0, p1, p2, p3, E1, E2, Finset.sum_singleton, sum_two, Matrix.cons_val_zero, Matrix.cons_val_one, Matrix.cons_val, two_castSucc]
  try simp only [← Finset.mul_sum]
  push_cast
  ring

/-! ### gAdd -/

set_option maxRecDepth 8000 in
theorem gAdd.amp2_gplus_Aplus_eq (N : Env) (f : Nat → List Int → ℂ) : Cls.gAdd.m_amp2_gplus_Aplus.mean N f .r [] =
    ((sumJ (fun x a => (sumJ (fun x b => (x + (((4 : Nat) : ℝ) * (‖(f 0 [2, 2, a, b])‖ ^ 2)))) x)) ((0 : Nat) : ℝ)) / ((8 : Nat) : ℝ)) := by rfl
set_option maxRecDepth 8000 in
theorem gAdd.amp2_gplus_Aplus_value (N : Env) : meaning N .r Cls.gAdd.methods 2 [] =
    ((sumJ (fun x a => (sumJ (fun x b => (x + (((4 : Nat) : ℝ) * (‖(Cls.gAdd.m_amp.mean N (callMean N []) .c [2, 2, a, b])‖ ^ 2)))) x)) ((0 : Nat) : ℝ)) / ((8 : Nat) : ℝ)) :=
  gAdd.amp2_gplus_Aplus_eq N (callMean N [Cls.gAdd.m_amp2, Cls.gAdd.m_amp])

variable [FPEnv] in
/-- `amp2_gplus_Aplus` -/
theorem gAdd.amp2_gplus_Aplus_polarises : gAdd.Polarises 2 ![some true, some true, none, none] := by
  refine polarises_of (D := []) (E := []) (by unfold Reaction.Lights; decide) (by decide) (by simp [all, gAdd]) (by decide +kernel) (by decide) (by decide +kernel) (fun c hc hh => ⟨List.forall_mem_nil _, List.forall_mem_nil _⟩) (fun c hc i => gAdd.mass_eq hc i) (by decide +kernel) ?_
  intro c p hc hh hw h0 hs hb hr hu
  have he : gAdd.react.ends = [2] := by decide
  have ht : gAdd.react.starts = [3] := by decide
  have hB : gAdd.react.bosons = [0, 1] := by decide
  obtain ⟨n0, n1, d1, d2, am⟩ := gAdd.amps hc hh h0 hs hb hr hu
  have hG : gAdd.react.Gauge c p := gAdd.react.gauge_line he ht hB hh (by decide) (fun n => onShell_msq (hs n)) hb hr (fun n m h h2 => absurd (And.intro h h2) (by revert n m; decide)) (fun _ => ⟨rfl, rfl⟩) (fun _ => ⟨rfl, rfl⟩)
  refine ⟨d1, d2, hG, _, _, fun s _ => gAdd.react.state_gluon 0 he ht hB (by decide) (by decide +kernel) (by decide +kernel) _ s, ?_⟩
  have aP : ∀ (s2 : Fin 2) (s3 : Fin 2), ‖Cls.gAdd.m_amp.mean (gAdd.N c p) (callMean (gAdd.N c p) []) .c [2, 2, spinOf s2, spinOf s3]‖ = ‖gAdd.react.bare c p 2 3 0 1 (gAdd.react.codePair c p 2 s2) (gAdd.react.codePair c p 3 s3) (lightE (legA (p 0) 0 0, legS (p 0) 0 1) 1) (lightE (legA (p 1) 0 0, legS (p 1) 0 1) 1)‖ := by
    intro s2 s3
    exact am s2 s3 1 1
  show meaning (gAdd.N c p) .r Cls.gAdd.methods 2 [] = _
  have s0 : gAdd.react.someStates ![some true, some true, none, none] 0 = 8 := by decide +kernel
  have s1 : gAdd.react.someStates ![some true, some true, none, none] 1 = 1 := by decide +kernel
  have sy : gAdd.react.symmetry = 1 := by decide
  have p0 : gAdd.react.pick ![some true, some true, none, none] 0 = {1} := rfl
  have p1 : gAdd.react.pick ![some true, some true, none, none] 1 = {1} := rfl
  have p2 : gAdd.react.pick ![some true, some true, none, none] 2 = {0, 1} := rfl
  have p3 : gAdd.react.pick ![some true, some true, none, none] 3 = {0, 1} := rfl
  have E0 : gAdd.react.codeE c p 0 = lightE (legA (p 0) 0 0, legS (p 0) 0 1) := rfl
  have E1 : gAdd.react.codeE c p 1 = lightE (legA (p 1) 0 0, legS (p 1) 0 1) := rfl
  rw [gAdd.amp2_gplus_Aplus_value, s0, s1, sy]
  simp only [sumV_sum, sumJ_sum, sumW_sum, aP, p0, p1, p2, p3, E0, E1, Finset.sum_singleton, sum_two, Matrix.cons_val_zero, Matrix.cons_val_one, Matrix.cons_val, two_castSucc]
  try simp only [← Finset.mul_sum]
  push_cast
  ring

set_option maxRecDepth 8000 in
theorem gAdd.amp2_gplus_Aminus_eq (N : Env) (f : Nat → List Int → ℂ) : Cls.gAdd.m_amp2_gplus_Aminus.mean N f .r [] =
    ((sumJ (fun x a => (sumJ (fun x b => (x + (((4 : Nat) : ℝ) * (‖(f 0 [2, (-2), a, b])‖ ^ 2)))) x)) ((0 : Nat) : ℝ)) / ((8 : Nat) : ℝ)) := by rfl
set_option maxRecDepth 8000 in
theorem gAdd.amp2_gplus_Aminus_value (N : Env) : meaning N .r Cls.gAdd.methods 3 [] =
    ((sumJ (fun x a => (sumJ (fun x b => (x + (((4 : Nat) : ℝ) * (‖(Cls.gAdd.m_amp.mean N (callMean N []) .c [2, (-2), a, b])‖ ^ 2)))) x)) ((0 : Nat) : ℝ)) / ((8 : Nat) : ℝ)) :=
  gAdd.amp2_gplus_Aminus_eq N (callMean N [Cls.gAdd.m_amp2_gplus_Aplus, Cls.gAdd.m_amp2, Cls.gAdd.m_amp])

variable [FPEnv] in
/-- `amp2_gplus_Aminus` -/
theorem gAdd.amp2_gplus_Aminus_polarises : gAdd.Polarises 3 ![some true, some false, none, none] := by
  refine polarises_of (D := []) (E := []) (by unfold Reaction.Lights; decide) (by decide) (by simp [all, gAdd]) (by decide +kernel) (by decide) (by decide +kernel) (fun c hc hh => ⟨List.forall_mem_nil _, List.forall_mem_nil _⟩) (fun c hc i => gAdd.mass_eq hc i) (by decide +kernel) ?_
  intro c p hc hh hw h0 hs hb hr hu
  have he : gAdd.react.ends = [2] := by decide
  have ht : gAdd.react.starts = [3] := by decide
  have hB : gAdd.react.bosons = [0, 1] := by decide
  obtain ⟨n0, n1, d1, d2, am⟩ := gAdd.amps hc hh h0 hs hb hr hu
  have hG : gAdd.react.Gauge c p := gAdd.react.gauge_line he ht hB hh (by decide) (fun n => onShell_msq (hs n)) hb hr (fun n m h h2 => absurd (And.intro h h2) (by revert n m; decide)) (fun _ => ⟨rfl, rfl⟩) (fun _ => ⟨rfl, rfl⟩)
  refine ⟨d1, d2, hG, _, _, fun s _ => gAdd.react.state_gluon 0 he ht hB (by decide) (by decide +kernel) (by decide +kernel) _ s, ?_⟩
  have aP : ∀ (s2 : Fin 2) (s3 : Fin 2), ‖Cls.gAdd.m_amp.mean (gAdd.N c p) (callMean (gAdd.N c p) []) .c [2, (-2), spinOf s2, spinOf s3]‖ = ‖gAdd.react.bare c p 2 3 0 1 (gAdd.react.codePair c p 2 s2) (gAdd.react.codePair c p 3 s3) (lightE (legA (p 0) 0 0, legS (p 0) 0 1) 1) (lightE (legA (p 1) 0 0, legS (p 1) 0 1) 0)‖ := by
    intro s2 s3
    exact am s2 s3 1 0
  show meaning (gAdd.N c p) .r Cls.gAdd.methods 3 [] = _
  have s0 : gAdd.react.someStates ![some true, some false, none, none] 0 = 8 := by decide +kernel
  have s1 : gAdd.react.someStates ![some true, some false, none, none] 1 = 1 := by decide +kernel
  have sy : gAdd.react.symmetry = 1 := by decide
  have p0 : gAdd.react.pick ![some true, some false, none, none] 0 = {1} := rfl
  have p1 : gAdd.react.pick ![some true, some false, none, none] 1 = {0} := rfl
  have p2 : gAdd.react.pick ![some true, some false, none, none] 2 = {0, 1} := rfl
  have p3 : gAdd.react.pick ![some true, some false, none, none] 3 = {0, 1} := rfl
  have E0 : gAdd.react.codeE c p 0 = lightE (legA (p 0) 0 0, legS (p 0) 0 1) := rfl
  have E1 : gAdd.react.codeE c p 1 = lightE (legA (p 1) 0 0, legS (p 1) 0 1) := rfl
  rw [gAdd.amp2_gplus_Aminus_value, s0, s1, sy]
  simp only [sumV_sum, sumJ_sum, sumW_sum, aP, p0, p1, p2, p3, E0, E1, Finset.sum_singleton, sum_two, Matrix.cons_val_zero, Matrix.cons_val_one, Matrix.cons_val, two_castSucc]
  try simp only [← Finset.mul_sum]
  push_cast
  ring

/-! ### gAuu -/

set_option maxRecDepth 8000 in
theorem gAuu.amp2_gplus_Aplus_eq (N : Env) (f : Nat → List Int → ℂ) : Cls.gAuu.m_amp2_gplus_Aplus.mean N f .r [] =
    ((sumJ (fun x a => (sumJ (fun x b => (x + (((4 : Nat) : ℝ) * (‖(f 0 [2, 2, a, b])‖ ^ 2)))) x)) ((0 : Nat) : ℝ)) / ((8 : Nat) : ℝ)) := by rfl
set_option maxRecDepth 8000 in
theorem gAuu.amp2_gplus_Aplus_value (N : Env) : meaning N .r Cls.gAuu.methods 2 [] =
    ((sumJ (fun x a => (sumJ (fun x b => (x + (((4 : Nat) : ℝ) * (‖(Cls.gAuu.m_amp.mean N (callMean N []) .c [2, 2, a, b])‖ ^ 2)))) x)) ((0 : Nat) : ℝ)) / ((8 : Nat) : ℝ)) :=
  gAuu.amp2_gplus_Aplus_eq N (callMean N [Cls.gAuu.m_amp2, Cls.gAuu.m_amp])

variable [FPEnv] in
/-- `amp2_gplus_Aplus` -/
theorem gAuu.amp2_gplus_Aplus_polarises : gAuu.Polarises 2 ![some true, some true, none, none] := by
  refine polarises_of (D := []) (E := []) (by unfold Reaction.Lights; decide) (by decide) (by simp [all, gAuu]) (by decide +kernel) (by decide) (by decide +kernel) (fun c hc hh => ⟨List.forall_mem_nil _, List.forall_mem_nil _⟩) (fun c hc i => gAuu.mass_eq hc i) (by decide +kernel) ?_
  intro c p hc hh hw h0 hs hb hr hu
  have he : gAuu.react.ends = [2] := by decide
  have ht : gAuu.react.starts = [3] := by decide
  have hB : gAuu.react.bosons = [0, 1] := by decide
  obtain ⟨n0, n1, d1, d2, am⟩ := gAuu.amps hc hh h0 hs hb hr hu
  have hG : gAuu.react.Gauge c p := gAuu.react.gauge_line he ht hB hh (by decide) (fun n => onShell_msq (hs n)) hb hr (fun n m h h2 => absurd (And.intro h h2) (by revert n m; decide)) (fun _ => ⟨rfl, rfl⟩) (fun _ => ⟨rfl, rfl⟩)
  refine ⟨d1, d2, hG, _, _, fun s _ => gAuu.react.state_gluon 0 he ht hB (by decide) (by decide +kernel) (by decide +kernel) _ s, ?_⟩
  have aP : ∀ (s2 : Fin 2) (s3 : Fin 2), ‖Cls.gAuu.m_amp.mean (gAuu.N c p) (callMean (gAuu.N c p) []) .c [2, 2, spinOf s2, spinOf s3]‖ = ‖gAuu.react.bare c p 2 3 0 1 (gAuu.react.codePair c p 2 s2) (gAuu.react.codePair c p 3 s3) (lightE (legA (p 0) 0 0, legS (p 0) 0 1) 1) (lightE (legA (p 1) 0 0, legS (p 1) 0 1) 1)‖ := by
    intro s2 s3
    exact am s2 s3 1 1
  show meaning (gAuu.N c p) .r Cls.gAuu.methods 2 [] = _
  have s0 : gAuu.react.someStates ![some true, some true, none, none] 0 = 8 := by decide +kernel
  have s1 : gAuu.react.someStates ![some true, some true, none, none] 1 = 1 := by decide +kernel
  have sy : gAuu.react.symmetry = 1 := by decide
  have p0 : gAuu.react.pick ![some true, some true, none, none] 0 = {1} := rfl
  have p1 : gAuu.react.pick ![some true, some true, none, none] 1 = {1} := rfl
  have p2 : gAuu.react.pick ![some true, some true, none, none] 2 = {0, 1} := rfl
  have p3 : gAuu.react.pick ![some true, some true, none, none] 3 = {0, 1} := rfl
  have E0 : gAuu.react.codeE c p 0 = lightE (legA (p 0) 0 0, legS (p 0) 0 1) := rfl
  have E1 : gAuu.react.codeE c p 1 = lightE (legA (p 1) 0 0, legS (p 1) 0 1) := rfl
  rw [gAuu.amp2_gplus_Aplus_value, s0, s1, sy]
  simp only [sumV_sum, sumJ_sum, sumW_sum, aP, p0, p1, p2, p3, E0, E1, Finset.sum_singleton, sum_two, Matrix.cons_val_zero, Matrix.cons_val_one, Matrix.cons_val, two_castSucc]
  try simp only [← Finset.mul_sum]
  push_cast
  ring

set_option maxRecDepth 8000 in
theorem gAuu.amp2_gplus_Aminus_eq (N : Env) (f : Nat → List Int → ℂ) : Cls.gAuu.m_amp2_gplus_Aminus.mean N f .r [] =
    ((sumJ (fun x a => (sumJ (fun x b => (x + (((4 : Nat) : ℝ) * (‖(f 0 [2, (-2), a, b])‖ ^ 2)))) x)) ((0 : Nat) : ℝ)) / ((8 : Nat) : ℝ)) := by rfl
set_option maxRecDepth 8000 in
theorem gAuu.amp2_gplus_Aminus_value (N : Env) : meaning N .r Cls.gAuu.methods 3 [] =
    ((sumJ (fun x a => (sumJ (fun x b => (x + (((4 : Nat) : ℝ) * (‖(Cls.gAuu.m_amp.mean N (callMean N []) .c [2, (-2), a, b])‖ ^ 2)))) x)) ((0 : Nat) : ℝ)) / ((8 : Nat) : ℝ)) :=
  gAuu.amp2_gplus_Aminus_eq N (callMean N [Cls.gAuu.m_amp2_gplus_Aplus, Cls.gAuu.m_amp2, Cls.gAuu.m_amp])

variable [FPEnv] in
/-- `amp2_gplus_Aminus` -/
theorem gAuu.amp2_gplus_Aminus_polarises : gAuu.Polarises 3 ![some true, some false, none, none] := by
  refine polarises_of (D := []) (E := []) (by unfold Reaction.Lights; decide) (by decide) (by simp [all, gAuu]) (by decide +kernel) (by decide) (by decide +kernel) (fun c hc hh => ⟨List.forall_mem_nil _, List.forall_mem_nil _⟩) (fun c hc i => gAuu.mass_eq hc i) (by decide +kernel) ?_
  intro c p hc hh hw h0 hs hb hr hu
  have he : gAuu.react.ends = [2] := by decide
  have ht : gAuu.react.starts = [3] := by decide
  have hB : gAuu.react.bosons = [0, 1] := by decide
  obtain ⟨n0, n1, d1, d2, am⟩ := gAuu.amps hc hh h0 hs hb hr hu
  have hG : gAuu.react.Gauge c p := gAuu.react.gauge_line he ht hB hh (by decide) (fun n => onShell_msq (hs n)) hb hr (fun n m h h2 => absurd (And.intro h h2) (by revert n m; decide)) (fun _ => ⟨rfl, rfl⟩) (fun _ => ⟨rfl, rfl⟩)
  refine ⟨d1, d2, hG, _, _, fun s _ => gAuu.react.state_gluon 0 he ht hB (by decide) (by decide +kernel) (by decide +kernel) _ s, ?_⟩
  have aP : ∀ (s2 : Fin 2) (s3 : Fin 2), ‖Cls.gAuu.m_amp.mean (gAuu.N c p) (callMean (gAuu.N c p) []) .c [2, (-2), spinOf s2, spinOf s3]‖ = ‖gAuu.react.bare c p 2 3 0 1 (gAuu.react.codePair c p 2 s2) (gAuu.react.codePair c p 3 s3) (lightE (legA (p 0) 0 0, legS (p 0) 0 1) 1) (lightE (legA (p 1) 0 0, legS (p 1) 0 1) 0)‖ := by
    intro s2 s3
    exact am s2 s3 1 0
  show meaning (gAuu.N c p) .r Cls.gAuu.methods 3 [] = _
  have s0 : gAuu.react.someStates ![some true, some false, none, none] 0 = 8 := by decide +kernel
  have s1 : gAuu.react.someStates ![some true, some false, none, none] 1 = 1 := by decide +kernel
  have sy : gAuu.react.symmetry = 1 := by decide
  have p0 : gAuu.react.pick ![some true, some false, none, none] 0 = {1} := rfl
  have p1 : gAuu.react.pick ![some true, some false, none, none] 1 = {0} := rfl
  have p2 : gAuu.react.pick ![some true, some false, none, none] 2 = {0, 1} := rfl
  have p3 : gAuu.react.pick ![some true, some false, none, none] 3 = {0, 1} := rfl
  have E0 : gAuu.react.codeE c p 0 = lightE (legA (p 0) 0 0, legS (p 0) 0 1) := rfl
  have E1 : gAuu.react.codeE c p 1 = lightE (legA (p 1) 0 0, legS (p 1) 0 1) := rfl
  rw [gAuu.amp2_gplus_Aminus_value, s0, s1, sy]
  simp only [sumV_sum, sumJ_sum, sumW_sum, aP, p0, p1, p2, p3, E0, E1, Finset.sum_singleton, sum_two, Matrix.cons_val_zero, Matrix.cons_val_one, Matrix.cons_val, two_castSucc]
  try simp only [← Finset.mul_sum]
  push_cast
  ring

/-! ### dAgd -/

set_option maxRecDepth 8000 in
theorem dAgd.amp2_Aplus_eq (N : Env) (f : Nat → List Int → ℂ) : Cls.dAgd.m_amp2_Aplus.mean N f .r [] =
    ((sumJ (fun x a => (sumJ (fun x b => (sumJ (fun x c => (x + (((4 : Nat) : ℝ) * (‖(f 0 [a, 2, b, c])‖ ^ 2)))) x)) x)) ((0 : Nat) : ℝ)) / ((6 : Nat) : ℝ)) := by rfl
set_option maxRecDepth 8000 in
theorem dAgd.amp2_Aplus_value (N : Env) : meaning N .r Cls.dAgd.methods 2 [] =
    ((sumJ (fun x a => (sumJ (fun x b => (sumJ (fun x c => (x + (((4 : Nat) : ℝ) * (‖(Cls.dAgd.m_amp.mean N (callMean N []) .c [a, 2, b, c])‖ ^ 2)))) x)) x)) ((0 : Nat) : ℝ)) / ((6 : Nat) : ℝ)) :=
  dAgd.amp2_Aplus_eq N (callMean N [Cls.dAgd.m_amp2, Cls.dAgd.m_amp])

set_option maxRecDepth 8000 in
/-- the loop gives the outgoing gluon the spins 1 and -1 in place of 2 and -2: the amplitude looks only at their signs -/
theorem dAgd.ampPM_odd (N : Env) (f : Nat → List Int → ℂ) (j1 j4 : Int) : Cls.dAgd.m_amp.mean N f .c [j1, 2, spinOf 0, j4] = dAgd.termPM N j1 j4 := by rfl
set_option maxRecDepth 8000 in
/-- the loop gives the outgoing gluon the spins 1 and -1 in place of 2 and -2: the amplitude looks only at their signs -/
theorem dAgd.ampPP_odd (N : Env) (f : Nat → List Int → ℂ) (j1 j4 : Int) : Cls.dAgd.m_amp.mean N f .c [j1, 2, spinOf 1, j4] = dAgd.termPP N j1 j4 := by rfl
variable [FPEnv] in
/-- `amp2_Aplus` -/
theorem dAgd.amp2_Aplus_polarises : dAgd.Polarises 2 ![none, some true, none, none] := by
  refine polarises_of (D := []) (E := []) (by unfold Reaction.Lights; decide) (by decide) (by simp [all, dAgd]) (by decide +kernel) (by decide) (by decide +kernel) (fun c hc hh => ⟨List.forall_mem_nil _, List.forall_mem_nil _⟩) (fun c hc i => dAgd.mass_eq hc i) (by decide +kernel) ?_
  intro c p hc hh hw h0 hs hb hr hu
  have he : dAgd.react.ends = [3] := by decide
  have ht : dAgd.react.starts = [0] := by decide
  have hB : dAgd.react.bosons = [1, 2] := by decide
  obtain ⟨n0, n1, d1, d2, am⟩ := dAgd.amps hc hh h0 hs hb hr hu
  have hG : dAgd.react.Gauge c p := dAgd.react.gauge_line he ht hB hh (by decide) (fun n => onShell_msq (hs n)) hb hr (fun n m h h2 => absurd (And.intro h h2) (by revert n m; decide)) (fun _ => ⟨rfl, rfl⟩) (fun _ => ⟨rfl, rfl⟩)
  refine ⟨d1, d2, hG, _, _, fun s _ => dAgd.react.state_gluon 2 he ht hB (by decide) (by decide +kernel) (by decide +kernel) _ s, ?_⟩
  have aP : ∀ (s0 : Fin 2) (s3 : Fin 2) (h2 : Fin 2), ‖Cls.dAgd.m_amp.mean (dAgd.N c p) (callMean (dAgd.N c p) []) .c [spinOf s0, 2, spinOf h2, spinOf s3]‖ = ‖dAgd.react.bare c p 3 0 1 2 (dAgd.react.codePair c p 3 s3) (dAgd.react.codePair c p 0 s0) (lightE (legA (p 1) 0 0, legS (p 1) 0 1) 1) (lightE (legA (p 2) 0 0, legS (p 2) 0 1) h2.castSucc)‖ := by
    intro s0 s3 h2
    match h2 with
    | 0 => exact (congrArg norm ((dAgd.ampPM_odd ..).trans (dAgd.ampPM ..).symm)).trans (am s0 s3 1 0)
    | 1 => exact (congrArg norm ((dAgd.ampPP_odd ..).trans (dAgd.ampPP ..).symm)).trans (am s0 s3 1 1)
  show meaning (dAgd.N c p) .r Cls.dAgd.methods 2 [] = _
  have s0 : dAgd.react.someStates ![none, some true, none, none] 0 = 6 := by decide +kernel
  have s1 : dAgd.react.someStates ![none, some true, none, none] 1 = 1 := by decide +kernel
  have sy : dAgd.react.symmetry = 1 := by decide
  have p0 : dAgd.react.pick ![none, some true, none, none] 0 = {0, 1} := rfl
  have p1 : dAgd.react.pick ![none, some true, none, none] 1 = {1} := rfl
  have p2 : dAgd.react.pick ![none, some true, none, none] 2 = {0, 1} := rfl
  have p3 : dAgd.react.pick ![none, some true, none, none] 3 = {0, 1} := rfl
  have E1 : dAgd.react.codeE c p 1 = lightE (legA (p 1) 0 0, legS (p 1) 0 1) := rfl
  have E2 : dAgd.react.codeE c p 2 = lightE (legA (p 2) 0 0, legS (p 2) 0 1) := rfl
  rw [dAgd.amp2_Aplus_value, s0, s1, sy]
  simp only [sumV_sum, sumJ_sum, sumW_sum, aP, p0, p1, p2, p3, E1, E2, Finset.sum_singleton, sum_two, Matrix.cons_val_zero, Matrix.cons_val_one, Matrix.cons_val, two_castSucc]
  try simp only [← Finset.mul_sum]
  push_cast
  ring

set_option maxRecDepth 8000 in
theorem dAgd.amp2_Aminus_eq (N : Env) (f : Nat → List Int → ℂ) : Cls.dAgd.m_amp2_Aminus.mean N f .r [] =
    ((sumJ (fun x a => (sumJ (fun x b => (sumJ (fun x c => (x + (((4 : Nat) : ℝ) * (‖(f 0 [a, (-2), b, c])‖ ^ 2)))) x)) x)) ((0 : Nat) : ℝ)) / ((6 : Nat) : ℝ)) := by rfl
set_option maxRecDepth 8000 in
theorem dAgd.amp2_Aminus_value (N : Env) : meaning N .r Cls.dAgd.methods 3 [] =
    ((sumJ (fun x a => (sumJ (fun x b => (sumJ (fun x c => (x + (((4 : Nat) : ℝ) * (‖(Cls.dAgd.m_amp.mean N (callMean N []) .c [a, (-2), b, c])‖ ^ 2)))) x)) x)) ((0 : Nat) : ℝ)) / ((6 : Nat) : ℝ)) :=
  dAgd.amp2_Aminus_eq N (callMean N [Cls.dAgd.m_amp2_Aplus, Cls.dAgd.m_amp2, Cls.dAgd.m_amp])

set_option maxRecDepth 8000 in
/-- the loop gives the outgoing gluon the spins 1 and -1 in place of 2 and -2: the amplitude looks only at their signs -/
theorem dAgd.ampMM_odd (N : Env) (f : Nat → List Int → ℂ) (j1 j4 : Int) : Cls.dAgd.m_amp.mean N f .c [j1, (-2), spinOf 0, j4] = dAgd.termMM N j1 j4 := by rfl
set_option maxRecDepth 8000 in
/-- the loop gives the outgoing gluon the spins 1 and -1 in place of 2 and -2: the amplitude looks only at their signs -/
theorem dAgd.ampMP_odd (N : Env) (f : Nat → List Int → ℂ) (j1 j4 : Int) : Cls.dAgd.m_amp.mean N f .c [j1, (-2), spinOf 1, j4] = dAgd.termMP N j1 j4 := by rfl
variable [FPEnv] in
/-- `amp2_Aminus` -/
theorem dAgd.amp2_Aminus_polarises : dAgd.Polarises 3 ![none, some false, none, none] := by
  refine polarises_of (D := []) (E := []) (by unfold Reaction.Lights; decide) (by decide) (by simp [all, dAgd]) (by decide +kernel) (by decide) (by decide +kernel) (fun c hc hh => ⟨List.forall_mem_nil _, List.forall_mem_nil _⟩) (fun c hc i => dAgd.mass_eq hc i) (by decide +kernel) ?_
  intro c p hc hh hw h0 hs hb hr hu
  have he : dAgd.react.ends = [3] := by decide
  have ht : dAgd.react.starts = [0] := by decide
  have hB : dAgd.react.bosons = [1, 2] := by decide
  obtain ⟨n0, n1, d1, d2, am⟩ := dAgd.amps hc hh h0 hs hb hr hu
  have hG : dAgd.react.Gauge c p := dAgd.react.gauge_line he ht hB hh (by decide) (fun n => onShell_msq (hs n)) hb hr (fun n m h h2 => absurd (And.intro h h2) (by revert n m; decide)) (fun _ => ⟨rfl, rfl⟩) (fun _ => ⟨rfl, rfl⟩)
  refine ⟨d1, d2, hG, _, _, fun s _ => dAgd.react.state_gluon 2 he ht hB (by decide) (by decide +kernel) (by decide +kernel) _ s, ?_⟩
  have aP : ∀ (s0 : Fin 2) (s3 : Fin 2) (h2 : Fin 2), ‖Cls.dAgd.m_amp.mean (dAgd.N c p) (callMean (dAgd.N c p) []) .c [spinOf s0, (-2), spinOf h2, spinOf s3]‖ = ‖dAgd.react.bare c p 3 0 1 2 (dAgd.react.codePair c p 3 s3) (dAgd.react.codePair c p 0 s0) (lightE (legA (p 1) 0 0, legS (p 1) 0 1) 0) (lightE (legA (p 2) 0 0, legS (p 2) 0 1) h2.castSucc)‖ := by
    intro s0 s3 h2
    match h2 with
    | 0 => exact (congrArg norm ((dAgd.ampMM_odd ..).trans (dAgd.ampMM ..).symm)).trans (am s0 s3 0 0)
    | 1 => exact (congrArg norm ((dAgd.ampMP_odd ..).trans (dAgd.ampMP ..).symm)).trans (am s0 s3 0 1)
  show meaning (dAgd.N c p) .r Cls.dAgd.methods 3 [] = _
  have s0 : dAgd.react.someStates ![none, some false, none, none] 0 = 6 := by decide +kernel
  have s1 : dAgd.react.someStates ![none, some false, none, none] 1 = 1 := by decide +kernel
  have sy : dAgd.react.symmetry = 1 := by decide
  have p0 : dAgd.react.pick ![none, some false, none, none] 0 = {0, 1} := rfl
  have p1 : dAgd.react.pick ![none, some false, none, none] 1 = {0} := rfl
  have p2 : dAgd.react.pick ![none, some false, none, none] 2 = {0, 1} := rfl
  have p3 : dAgd.react.pick ![none, some false, none, none] 3 = {0, 1} := rfl
  have E1 : dAgd.react.codeE c p 1 = lightE (legA (p 1) 0 0, legS (p 1) 0 1) := rfl
  have E2 : dAgd.react.codeE c p 2 = lightE (legA (p 2) 0 0, legS (p 2) 0 1) := rfl
  rw [dAgd.amp2_Aminus_value, s0, s1, sy]
  simp only [sumV_sum, sumJ_sum, sumW_sum, aP, p0, p1, p2, p3, E1, E2, Finset.sum_singleton, sum_two, Matrix.cons_val_zero, Matrix.cons_val_one, Matrix.cons_val, two_castSucc]
  try simp only [← Finset.mul_sum]
  push_cast
  ring

/-! ### guAu -/

set_option maxRecDepth 8000 in
theorem guAu.amp2_gplus_eq (N : Env) (f : Nat → List Int → ℂ) : Cls.guAu.m_amp2_gplus.mean N f .r [] =
    ((sumJ (fun x a => (sumW (fun x b => (sumJ (fun x c => (x + (((4 : Nat) : ℝ) * (‖(f 0 [2, a, b, c])‖ ^ 2)))) x)) x)) ((0 : Nat) : ℝ)) / ((48 : Nat) : ℝ)) := by rfl
set_option maxRecDepth 8000 in
theorem guAu.amp2_gplus_value (N : Env) : meaning N .r Cls.guAu.methods 2 [] =
    ((sumJ (fun x a => (sumW (fun x b => (sumJ (fun x c => (x + (((4 : Nat) : ℝ) * (‖(Cls.guAu.m_amp.mean N (callMean N []) .c [2, a, b, c])‖ ^ 2)))) x)) x)) ((0 : Nat) : ℝ)) / ((48 : Nat) : ℝ)) :=
  guAu.amp2_gplus_eq N (callMean N [Cls.guAu.m_amp2, Cls.guAu.m_amp])

variable [FPEnv] in
/-- `amp2_gplus` -/
theorem guAu.amp2_gplus_polarises : guAu.Polarises 2 ![some true, none, none, none] := by
  refine polarises_of (D := []) (E := []) (by unfold Reaction.Lights; decide) (by decide) (by simp [all, guAu]) (by decide +kernel) (by decide) (by decide +kernel) (fun c hc hh => ⟨List.forall_mem_nil _, List.forall_mem_nil _⟩) (fun c hc i => guAu.mass_eq hc i) (by decide +kernel) ?_
  intro c p hc hh hw h0 hs hb hr hu
  have he : guAu.react.ends = [3] := by decide
  have ht : guAu.react.starts = [1] := by decide
  have hB : guAu.react.bosons = [0, 2] := by decide
  obtain ⟨n0, n1, d1, d2, am⟩ := guAu.amps hc hh h0 hs hb hr hu
  have hG : guAu.react.Gauge c p := guAu.react.gauge_line he ht hB hh (by decide) (fun n => onShell_msq (hs n)) hb hr (fun n m h h2 => absurd (And.intro h h2) (by revert n m; decide)) (fun _ => ⟨rfl, rfl⟩) (fun _ => ⟨rfl, rfl⟩)
  refine ⟨d1, d2, hG, _, _, fun s _ => guAu.react.state_gluon 0 he ht hB (by decide) (by decide +kernel) (by decide +kernel) _ s, ?_⟩
  have aP : ∀ (s1 : Fin 2) (s3 : Fin 2) (h2 : Fin 2), ‖Cls.guAu.m_amp.mean (guAu.N c p) (callMean (guAu.N c p) []) .c [2, spinOf s1, spinW h2, spinOf s3]‖ = ‖guAu.react.bare c p 3 1 0 2 (guAu.react.codePair c p 3 s3) (guAu.react.codePair c p 1 s1) (lightE (legA (p 0) 0 0, legS (p 0) 0 1) 1) (lightE (legA (p 2) 0 0, legS (p 2) 0 1) h2.castSucc)‖ := by
    intro s1 s3 h2
    exact am s1 s3 1 h2
  show meaning (guAu.N c p) .r Cls.guAu.methods 2 [] = _
  have s0 : guAu.react.someStates ![some true, none, none, none] 0 = 8 := by decide +kernel
  have s1 : guAu.react.someStates ![some true, none, none, none] 1 = 6 := by decide +kernel
  have sy : guAu.react.symmetry = 1 := by decide
  have p0 : guAu.react.pick ![some true, none, none, none] 0 = {1} := rfl
  have p1 : guAu.react.pick ![some true, none, none, none] 1 = {0, 1} := rfl
  have p2 : guAu.react.pick ![some true, none, none, none] 2 = {0, 1} := rfl
  have p3 : guAu.react.pick ![some true, none, none, none] 3 = {0, 1} := rfl
  have E0 : guAu.react.codeE c p 0 = lightE (legA (p 0) 0 0, legS (p 0) 0 1) := rfl
  have E2 : guAu.react.codeE c p 2 = lightE (legA (p 2) 0 0, legS (p 2) 0 1) := rfl
  rw [guAu.amp2_gplus_value, s0, s1, sy]
  simp only [sumV_sum, sumJ_sum, sumW_sum, aP, p0, p1, p2, p3, E0, E2, Finset.sum_singleton, sum_two, Matrix.cons_val_zero, Matrix.cons_val_one, Matrix.cons_val, two_castSucc]
  try simp only [← Finset.mul_sum]
  push_cast
  ring

set_option maxRecDepth 8000 in
theorem guAu.amp2_gminus_eq (N : Env) (f : Nat → List Int → ℂ) : Cls.guAu.m_amp2_gminus.mean N f .r [] =
    ((sumJ (fun x a => (sumW (fun x b => (sumJ (fun x c => (x + (((4 : Nat) : ℝ) * (‖(f 0 [(-2), a, b, c])‖ ^ 2)))) x)) x)) ((0 : Nat) : ℝ)) / ((48 : Nat) : ℝ)) := by rfl
set_option maxRecDepth 8000 in
theorem guAu.amp2_gminus_value (N : Env) : meaning N .r Cls.guAu.methods 3 [] =
    ((sumJ (fun x a => (sumW (fun x b => (sumJ (fun x c => (x + (((4 : Nat) : ℝ) * (‖(Cls.guAu.m_amp.mean N (callMean N []) .c [(-2), a, b, c])‖ ^ 2)))) x)) x)) ((0 : Nat) : ℝ)) / ((48 : Nat) : ℝ)) :=
  guAu.amp2_gminus_eq N (callMean N [Cls.guAu.m_amp2_gplus, Cls.guAu.m_amp2, Cls.guAu.m_amp])

variable [FPEnv] in
/-- `amp2_gminus` -/
theorem guAu.amp2_gminus_polarises : guAu.Polarises 3 ![some false, none, none, none] := by
  refine polarises_of (D := []) (E := []) (by unfold Reaction.Lights; decide) (by decide) (by simp [all, guAu]) (by decide +kernel) (by decide) (by decide +kernel) (fun c hc hh => ⟨List.forall_mem_nil _, List.forall_mem_nil _⟩) (fun c hc i => guAu.mass_eq hc i) (by decide +kernel) ?_
  intro c p hc hh hw h0 hs hb hr hu
  have he : guAu.react.ends = [3] := by decide
  have ht : guAu.react.starts = [1] := by decide
  have hB : guAu.react.bosons = [0, 2] := by decide
  obtain ⟨n0, n1, d1, d2, am⟩ := guAu.amps hc hh h0 hs hb hr hu
  have hG : guAu.react.Gauge c p := guAu.react.gauge_line he ht hB hh (by decide) (fun n => onShell_msq (hs n)) hb hr (fun n m h h2 => absurd (And.intro h h2) (by revert n m; decide)) (fun _ => ⟨rfl, rfl⟩) (fun _ => ⟨rfl, rfl⟩)
  refine ⟨d1, d2, hG, _, _, fun s _ => guAu.react.state_gluon 0 he ht hB (by decide) (by decide +kernel) (by decide +kernel) _ s, ?_⟩
  have aP : ∀ (s1 : Fin 2) (s3 : Fin 2) (h2 : Fin 2), ‖Cls.guAu.m_amp.mean (guAu.N c p) (callMean (guAu.N c p) []) .c [(-2), spinOf s1, spinW h2, spinOf s3]‖ = ‖guAu.react.bare c p 3 1 0 2 (guAu.react.codePair c p 3 s3) (guAu.react.codePair c p 1 s1) (lightE (legA (p 0) 0 0, legS (p 0) 0 1) 0) (lightE (legA (p 2) 0 0, legS (p 2) 0 1) h2.castSucc)‖ := by
    intro s1 s3 h2
    exact am s1 s3 0 h2
  show meaning (guAu.N c p) .r Cls.guAu.methods 3 [] = _
  have s0 : guAu.react.someStates ![some false, none, none, none] 0 = 8 := by decide +kernel
  have s1 : guAu.react.someStates ![some false, none, none, none] 1 = 6 := by decide +kernel
  have sy : guAu.react.symmetry = 1 := by decide
  have p0 : guAu.react.pick ![some false, none, none, none] 0 = {0} := rfl
  have p1 : guAu.react.pick ![some false, none, none, none] 1 = {0, 1} := rfl
  have p2 : guAu.react.pick ![some false, none, none, none] 2 = {0, 1} := rfl
  have p3 : guAu.react.pick ![some false, none, none, none] 3 = {0, 1} := rfl
  have E0 : guAu.react.codeE c p 0 = lightE (legA (p 0) 0 0, legS (p 0) 0 1) := rfl
  have E2 : guAu.react.codeE c p 2 = lightE (legA (p 2) 0 0, legS (p 2) 0 1) := rfl
  rw [guAu.amp2_gminus_value, s0, s1, sy]
  simp only [sumV_sum, sumJ_sum, sumW_sum, aP, p0, p1, p2, p3, E0, E2, Finset.sum_singleton, sum_two, Matrix.cons_val_zero, Matrix.cons_val_one, Matrix.cons_val, two_castSucc]
  try simp only [← Finset.mul_sum]
  push_cast
  ring

end Spinas.SM.Rows
