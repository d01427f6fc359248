import Verif.SM.Bosons.GluonZ
import Verif.SM.Bosons.GluonZt
import Verif.SM.Bosons.PhotonZ
import Verif.SM.Bosons.PhotonZt
import Verif.SM.Polar

/-! A photon or a gluon, and a Z boson. Generated by tools/bosons/polar.py: the methods for given helicities return the squared amplitudes of the Feynman rules. -/

set_option maxHeartbeats 1000000

namespace Spinas.SM.Rows
open Spec Spec.Reaction Props XR Matrix BRow

/-! ### AZuu -/

set_option maxRecDepth 8000 in
theorem AZuu.amp2_Aplus_eq (N : Env) (f : Nat → List Int → ℂ) : Cls.AZuu.m_amp2_Aplus.mean N f .r [] =
    ((sumV (fun x a => (sumJ (fun x b => (sumJ (fun x c => (x + (((3 : Nat) : ℝ) * (‖(f 0 [2, a, b, c])‖ ^ 2)))) x)) x)) ((0 : Nat) : ℝ)) / ((3 : Nat) : ℝ)) := by rfl
set_option maxRecDepth 8000 in
theorem AZuu.amp2_Aplus_value (N : Env) : meaning N .r Cls.AZuu.methods 2 [] =
    ((sumV (fun x a => (sumJ (fun x b => (sumJ (fun x c => (x + (((3 : Nat) : ℝ) * (‖(Cls.AZuu.m_amp.mean N (callMean N []) .c [2, a, b, c])‖ ^ 2)))) x)) x)) ((0 : Nat) : ℝ)) / ((3 : Nat) : ℝ)) :=
  AZuu.amp2_Aplus_eq N (callMean N [Cls.AZuu.m_amp2, Cls.AZuu.m_amp])

variable [FPEnv] in
/-- `amp2_Aplus` -/
theorem AZuu.amp2_Aplus_polarises : AZuu.Polarises 2 ![some true, none, none, none] := by
  refine polarises_of (D := [2, 3]) (E := [3]) (by unfold Reaction.Lights; decide) (by decide) (by simp [all, AZuu]) (by decide +kernel) (by decide) (by decide +kernel) (fun c hc hh => ⟨List.forall_mem_cons.2 ⟨hc.MW, List.forall_mem_cons.2 ⟨hc.SW, List.forall_mem_nil _⟩⟩, List.forall_mem_cons.2 ⟨hc.SW_lt, List.forall_mem_nil _⟩⟩) (fun c hc i => AZuu.mass_eq hc i) (by decide +kernel) ?_
  intro c p hc hh hw h0 hs hb hr hu
  have he : AZuu.react.ends = [2] := by decide
  have ht : AZuu.react.starts = [3] := by decide
  have hB : AZuu.react.bosons = [0, 1] := by decide
  obtain ⟨n0, n1, d1, d2, am⟩ := AZuu.amps hc hh h0 hs hb hr hu
  have hG : AZuu.react.Gauge c p := AZuu.react.gauge_line he ht hB hh (by decide) (fun n => onShell_msq (hs n)) hb hr (fun n m h h2 => absurd (And.intro h h2) (by revert n m; decide)) (fun _ => ⟨rfl, rfl⟩) (fun h => absurd h (by decide))
  refine ⟨d1, d2, hG, _, _, fun s _ => AZuu.react.state_line he ht hB (by decide) _ s, ?_⟩
  have aP : ∀ (s2 : Fin 2) (s3 : Fin 2) (t1 : Fin 3), ‖Cls.AZuu.m_amp.mean (AZuu.N c p) (callMean (AZuu.N c p) []) .c [2, spinV t1, spinOf s2, spinOf s3]‖ = ‖AZuu.react.bare c p 2 3 0 1 (AZuu.react.codePair c p 2 s2) (AZuu.react.codePair c p 3 s3) (lightE (legA (p 0) 0 0, legS (p 0) 0 1) 1) (AZuu.react.codeVec c p 1 t1)‖ := by
    intro s2 s3 t1
    exact am s2 s3 1 t1
  show meaning (AZuu.N c p) .r Cls.AZuu.methods 2 [] = _
  have s0 : AZuu.react.someStates ![some true, none, none, none] 0 = 1 := by decide +kernel
  have s1 : AZuu.react.someStates ![some true, none, none, none] 1 = 3 := by decide +kernel
  have sy : AZuu.react.symmetry = 1 := by decide
  have p0 : AZuu.react.pick ![some true, none, none, none] 0 = {1} := rfl
  have p1 : AZuu.react.pick ![some true, none, none, none] 1 = Finset.univ := rfl
  have p2 : AZuu.react.pick ![some true, none, none, none] 2 = {0, 1} := rfl
  have p3 : AZuu.react.pick ![some true, none, none, none] 3 = {0, 1} := rfl
  have E0 : AZuu.react.codeE c p 0 = lightE (legA (p 0) 0 0, legS (p 0) 0 1) := rfl
  have E1 : AZuu.react.codeE c p 1 = AZuu.react.codeVec c p 1 := rfl
  have lc : AZuu.react.lineColours 2 3 = 3 := by decide +kernel
  rw [AZuu.amp2_Aplus_value, lc, s0, s1, sy]
  simp only [sumV_sum, sumJ_sum, sumW_sum, aP, p0, p1, p2, p3, E0, E1, Finset.sum_singleton, sum_two, Matrix.cons_val_zero, Matrix.cons_val_one, Matrix.cons_val, two_castSucc]
  try simp only [← Finset.mul_sum]
  push_cast
  ring

set_option maxRecDepth 8000 in
theorem AZuu.amp2_Aminus_eq (N : Env) (f : Nat → List Int → ℂ) : Cls.AZuu.m_amp2_Aminus.mean N f .r [] =
    ((sumV (fun x a => (sumJ (fun x b => (sumJ (fun x c => (x + (((3 : Nat) : ℝ) * (‖(f 0 [(-2), a, b, c])‖ ^ 2)))) x)) x)) ((0 : Nat) : ℝ)) / ((3 : Nat) : ℝ)) := by rfl
set_option maxRecDepth 8000 in
theorem AZuu.amp2_Aminus_value (N : Env) : meaning N .r Cls.AZuu.methods 3 [] =
    ((sumV (fun x a => (sumJ (fun x b => (sumJ (fun x c => (x + (((3 : Nat) : ℝ) * (‖(Cls.AZuu.m_amp.mean N (callMean N []) .c [(-2), a, b, c])‖ ^ 2)))) x)) x)) ((0 : Nat) : ℝ)) / ((3 : Nat) : ℝ)) :=
  AZuu.amp2_Aminus_eq N (callMean N [Cls.AZuu.m_amp2_Aplus, Cls.AZuu.m_amp2, Cls.AZuu.m_amp])

variable [FPEnv] in
/-- `amp2_Aminus` -/
theorem AZuu.amp2_Aminus_polarises : AZuu.Polarises 3 ![some false, none, none, none] := by
  refine polarises_of (D := [2, 3]) (E := [3]) (by unfold Reaction.Lights; decide) (by decide) (by simp [all, AZuu]) (by decide +kernel) (by decide) (by decide +kernel) (fun c hc hh => ⟨List.forall_mem_cons.2 ⟨hc.MW, List.forall_mem_cons.2 ⟨hc.SW, List.forall_mem_nil _⟩⟩, List.forall_mem_cons.2 ⟨hc.SW_lt, List.forall_mem_nil _⟩⟩) (fun c hc i => AZuu.mass_eq hc i) (by decide +kernel) ?_
  intro c p hc hh hw h0 hs hb hr hu
  have he : AZuu.react.ends = [2] := by decide
  have ht : AZuu.react.starts = [3] := by decide
  have hB : AZuu.react.bosons = [0, 1] := by decide
  obtain ⟨n0, n1, d1, d2, am⟩ := AZuu.amps hc hh h0 hs hb hr hu
  have hG : AZuu.react.Gauge c p := AZuu.react.gauge_line he ht hB hh (by decide) (fun n => onShell_msq (hs n)) hb hr (fun n m h h2 => absurd (And.intro h h2) (by revert n m; decide)) (fun _ => ⟨rfl, rfl⟩) (fun h => absurd h (by decide))
  refine ⟨d1, d2, hG, _, _, fun s _ => AZuu.react.state_line he ht hB (by decide) _ s, ?_⟩
  have aP : ∀ (s2 : Fin 2) (s3 : Fin 2) (t1 : Fin 3), ‖Cls.AZuu.m_amp.mean (AZuu.N c p) (callMean (AZuu.N c p) []) .c [(-2), spinV t1, spinOf s2, spinOf s3]‖ = ‖AZuu.react.bare c p 2 3 0 1 (AZuu.react.codePair c p 2 s2) (AZuu.react.codePair c p 3 s3) (lightE (legA (p 0) 0 0, legS (p 0) 0 1) 0) (AZuu.react.codeVec c p 1 t1)‖ := by
    intro s2 s3 t1
    exact am s2 s3 0 t1
  show meaning (AZuu.N c p) .r Cls.AZuu.methods 3 [] = _
  have s0 : AZuu.react.someStates ![some false, none, none, none] 0 = 1 := by decide +kernel
  have s1 : AZuu.react.someStates ![some false, none, none, none] 1 = 3 := by decide +kernel
  have sy : AZuu.react.symmetry = 1 := by decide
  have p0 : AZuu.react.pick ![some false, none, none, none] 0 = {0} := rfl
  have p1 : AZuu.react.pick ![some false, none, none, none] 1 = Finset.univ := rfl
  have p2 : AZuu.react.pick ![some false, none, none, none] 2 = {0, 1} := rfl
  have p3 : AZuu.react.pick ![some false, none, none, none] 3 = {0, 1} := rfl
  have E0 : AZuu.react.codeE c p 0 = lightE (legA (p 0) 0 0, legS (p 0) 0 1) := rfl
  have E1 : AZuu.react.codeE c p 1 = AZuu.react.codeVec c p 1 := rfl
  have lc : AZuu.react.lineColours 2 3 = 3 := by decide +kernel
  rw [AZuu.amp2_Aminus_value, lc, s0, s1, sy]
  simp only [sumV_sum, sumJ_sum, sumW_sum, aP, p0, p1, p2, p3, E0, E1, Finset.sum_singleton, sum_two, Matrix.cons_val_zero, Matrix.cons_val_one, Matrix.cons_val, two_castSucc]
  try simp only [← Finset.mul_sum]
  push_cast
  ring

/-! ### AZdd -/

set_option maxRecDepth 8000 in
theorem AZdd.amp2_Aplus_eq (N : Env) (f : Nat → List Int → ℂ) : Cls.AZdd.m_amp2_Aplus.mean N f .r [] =
    ((sumV (fun x a => (sumJ (fun x b => (sumJ (fun x c => (x + (((3 : Nat) : ℝ) * (‖(f 0 [2, a, b, c])‖ ^ 2)))) x)) x)) ((0 : Nat) : ℝ)) / ((3 : Nat) : ℝ)) := by rfl
set_option maxRecDepth 8000 in
theorem AZdd.amp2_Aplus_value (N : Env) : meaning N .r Cls.AZdd.methods 2 [] =
    ((sumV (fun x a => (sumJ (fun x b => (sumJ (fun x c => (x + (((3 : Nat) : ℝ) * (‖(Cls.AZdd.m_amp.mean N (callMean N []) .c [2, a, b, c])‖ ^ 2)))) x)) x)) ((0 : Nat) : ℝ)) / ((3 : Nat) : ℝ)) :=
  AZdd.amp2_Aplus_eq N (callMean N [Cls.AZdd.m_amp2, Cls.AZdd.m_amp])

variable [FPEnv] in
/-- `amp2_Aplus` -/
theorem AZdd.amp2_Aplus_polarises : AZdd.Polarises 2 ![some true, none, none, none] := by
  refine polarises_of (D := [2, 3]) (E := [3]) (by unfold Reaction.Lights; decide) (by decide) (by simp [all, AZdd]) (by decide +kernel) (by decide) (by decide +kernel) (fun c hc hh => ⟨List.forall_mem_cons.2 ⟨hc.MW, List.forall_mem_cons.2 ⟨hc.SW, List.forall_mem_nil _⟩⟩, List.forall_mem_cons.2 ⟨hc.SW_lt, List.forall_mem_nil _⟩⟩) (fun c hc i => AZdd.mass_eq hc i) (by decide +kernel) ?_
  intro c p hc hh hw h0 hs hb hr hu
  have he : AZdd.react.ends = [2] := by decide
  have ht : AZdd.react.starts = [3] := by decide
  have hB : AZdd.react.bosons = [0, 1] := by decide
  obtain ⟨n0, n1, d1, d2, am⟩ := AZdd.amps hc hh h0 hs hb hr hu
  have hG : AZdd.react.Gauge c p := AZdd.react.gauge_line he ht hB hh (by decide) (fun n => onShell_msq (hs n)) hb hr (fun n m h h2 => absurd (And.intro h h2) (by revert n m; decide)) (fun _ => ⟨rfl, rfl⟩) (fun h => absurd h (by decide))
  refine ⟨d1, d2, hG, _, _, fun s _ => AZdd.react.state_line he ht hB (by decide) _ s, ?_⟩
  have aP : ∀ (s2 : Fin 2) (s3 : Fin 2) (t1 : Fin 3), ‖Cls.AZdd.m_amp.mean (AZdd.N c p) (callMean (AZdd.N c p) []) .c [2, spinV t1, spinOf s2, spinOf s3]‖ = ‖AZdd.react.bare c p 2 3 0 1 (AZdd.react.codePair c p 2 s2) (AZdd.react.codePair c p 3 s3) (lightE (legA (p 0) 0 0, legS (p 0) 0 1) 1) (AZdd.react.codeVec c p 1 t1)‖ := by
    intro s2 s3 t1
    exact am s2 s3 1 t1
  show meaning (AZdd.N c p) .r Cls.AZdd.methods 2 [] = _
  have s0 : AZdd.react.someStates ![some true, none, none, none] 0 = 1 := by decide +kernel
  have s1 : AZdd.react.someStates ![some true, none, none, none] 1 = 3 := by decide +kernel
  have sy : AZdd.react.symmetry = 1 := by decide
  have p0 : AZdd.react.pick ![some true, none, none, none] 0 = {1} := rfl
  have p1 : AZdd.react.pick ![some true, none, none, none] 1 = Finset.univ := rfl
  have p2 : AZdd.react.pick ![some true, none, none, none] 2 = {0, 1} := rfl
  have p3 : AZdd.react.pick ![some true, none, none, none] 3 = {0, 1} := rfl
  have E0 : AZdd.react.codeE c p 0 = lightE (legA (p 0) 0 0, legS (p 0) 0 1) := rfl
  have E1 : AZdd.react.codeE c p 1 = AZdd.react.codeVec c p 1 := rfl
  have lc : AZdd.react.lineColours 2 3 = 3 := by decide +kernel
  rw [AZdd.amp2_Aplus_value, lc, s0, s1, sy]
  simp only [sumV_sum, sumJ_sum, sumW_sum, aP, p0, p1, p2, p3, E0, E1, Finset.sum_singleton, sum_two, Matrix.cons_val_zero, Matrix.cons_val_one, Matrix.cons_val, two_castSucc]
  try simp only [← Finset.mul_sum]
  push_cast
  ring

set_option maxRecDepth 8000 in
theorem AZdd.amp2_Aminus_eq (N : Env) (f : Nat → List Int → ℂ) : Cls.AZdd.m_amp2_Aminus.mean N f .r [] =
    ((sumV (fun x a => (sumJ (fun x b => (sumJ (fun x c => (x + (((3 : Nat) : ℝ) * (‖(f 0 [(-2), a, b, c])‖ ^ 2)))) x)) x)) ((0 : Nat) : ℝ)) / ((3 : Nat) : ℝ)) := by rfl
set_option maxRecDepth 8000 in
theorem AZdd.amp2_Aminus_value (N : Env) : meaning N .r Cls.AZdd.methods 3 [] =
    ((sumV (fun x a => (sumJ (fun x b => (sumJ (fun x c => (x + (((3 : Nat) : ℝ) * (‖(Cls.AZdd.m_amp.mean N (callMean N []) .c [(-2), a, b, c])‖ ^ 2)))) x)) x)) ((0 : Nat) : ℝ)) / ((3 : Nat) : ℝ)) :=
  AZdd.amp2_Aminus_eq N (callMean N [Cls.AZdd.m_amp2_Aplus, Cls.AZdd.m_amp2, Cls.AZdd.m_amp])

variable [FPEnv] in
/-- `amp2_Aminus` -/
theorem AZdd.amp2_Aminus_polarises : AZdd.Polarises 3 ![some false, none, none, none] := by
  refine polarises_of (D := [2, 3]) (E := [3]) (by unfold Reaction.Lights; decide) (by decide) (by simp [all, AZdd]) (by decide +kernel) (by decide) (by decide +kernel) (fun c hc hh => ⟨List.forall_mem_cons.2 ⟨hc.MW, List.forall_mem_cons.2 ⟨hc.SW, List.forall_mem_nil _⟩⟩, List.forall_mem_cons.2 ⟨hc.SW_lt, List.forall_mem_nil _⟩⟩) (fun c hc i => AZdd.mass_eq hc i) (by decide +kernel) ?_
  intro c p hc hh hw h0 hs hb hr hu
  have he : AZdd.react.ends = [2] := by decide
  have ht : AZdd.react.starts = [3] := by decide
  have hB : AZdd.react.bosons = [0, 1] := by decide
  obtain ⟨n0, n1, d1, d2, am⟩ := AZdd.amps hc hh h0 hs hb hr hu
  have hG : AZdd.react.Gauge c p := AZdd.react.gauge_line he ht hB hh (by decide) (fun n => onShell_msq (hs n)) hb hr (fun n m h h2 => absurd (And.intro h h2) (by revert n m; decide)) (fun _ => ⟨rfl, rfl⟩) (fun h => absurd h (by decide))
  refine ⟨d1, d2, hG, _, _, fun s _ => AZdd.react.state_line he ht hB (by decide) _ s, ?_⟩
  have aP : ∀ (s2 : Fin 2) (s3 : Fin 2) (t1 : Fin 3), ‖Cls.AZdd.m_amp.mean (AZdd.N c p) (callMean (AZdd.N c p) []) .c [(-2), spinV t1, spinOf s2, spinOf s3]‖ = ‖AZdd.react.bare c p 2 3 0 1 (AZdd.react.codePair c p 2 s2) (AZdd.react.codePair c p 3 s3) (lightE (legA (p 0) 0 0, legS (p 0) 0 1) 0) (AZdd.react.codeVec c p 1 t1)‖ := by
    intro s2 s3 t1
    exact am s2 s3 0 t1
  show meaning (AZdd.N c p) .r Cls.AZdd.methods 3 [] = _
  have s0 : AZdd.react.someStates ![some false, none, none, none] 0 = 1 := by decide +kernel
  have s1 : AZdd.react.someStates ![some false, none, none, none] 1 = 3 := by decide +kernel
  have sy : AZdd.react.symmetry = 1 := by decide
  have p0 : AZdd.react.pick ![some false, none, none, none] 0 = {0} := rfl
  have p1 : AZdd.react.pick ![some false, none, none, none] 1 = Finset.univ := rfl
  have p2 : AZdd.react.pick ![some false, none, none, none] 2 = {0, 1} := rfl
  have p3 : AZdd.react.pick ![some false, none, none, none] 3 = {0, 1} := rfl
  have E0 : AZdd.react.codeE c p 0 = lightE (legA (p 0) 0 0, legS (p 0) 0 1) := rfl
  have E1 : AZdd.react.codeE c p 1 = AZdd.react.codeVec c p 1 := rfl
  have lc : AZdd.react.lineColours 2 3 = 3 := by decide +kernel
  rw [AZdd.amp2_Aminus_value, lc, s0, s1, sy]
  simp only [sumV_sum, sumJ_sum, sumW_sum, aP, p0, p1, p2, p3, E0, E1, Finset.sum_singleton, sum_two, Matrix.cons_val_zero, Matrix.cons_val_one, Matrix.cons_val, two_castSucc]
  try simp only [← Finset.mul_sum]
  push_cast
  ring

/-! ### AZee -/

set_option maxRecDepth 8000 in
theorem AZee.amp2_Aplus_eq (N : Env) (f : Nat → List Int → ℂ) : Cls.AZee.m_amp2_Aplus.mean N f .r [] =
    ((sumV (fun x a => (sumJ (fun x b => (sumJ (fun x c => (x + (‖(f 0 [2, a, b, c])‖ ^ 2))) x)) x)) ((0 : Nat) : ℝ)) / ((3 : Nat) : ℝ)) := by rfl
set_option maxRecDepth 8000 in
theorem AZee.amp2_Aplus_value (N : Env) : meaning N .r Cls.AZee.methods 2 [] =
    ((sumV (fun x a => (sumJ (fun x b => (sumJ (fun x c => (x + (‖(Cls.AZee.m_amp.mean N (callMean N []) .c [2, a, b, c])‖ ^ 2))) x)) x)) ((0 : Nat) : ℝ)) / ((3 : Nat) : ℝ)) :=
  AZee.amp2_Aplus_eq N (callMean N [Cls.AZee.m_amp2, Cls.AZee.m_amp])

variable [FPEnv] in
/-- `amp2_Aplus` -/
theorem AZee.amp2_Aplus_polarises : AZee.Polarises 2 ![some true, none, none, none] := by
  refine polarises_of (D := [2, 3]) (E := [3]) (by unfold Reaction.Lights; decide) (by decide) (by simp [all, AZee]) (by decide +kernel) (by decide) (by decide +kernel) (fun c hc hh => ⟨List.forall_mem_cons.2 ⟨hc.MW, List.forall_mem_cons.2 ⟨hc.SW, List.forall_mem_nil _⟩⟩, List.forall_mem_cons.2 ⟨hc.SW_lt, List.forall_mem_nil _⟩⟩) (fun c hc i => AZee.mass_eq hc i) (by decide +kernel) ?_
  intro c p hc hh hw h0 hs hb hr hu
  have he : AZee.react.ends = [2] := by decide
  have ht : AZee.react.starts = [3] := by decide
  have hB : AZee.react.bosons = [0, 1] := by decide
  obtain ⟨n0, n1, d1, d2, am⟩ := AZee.amps hc hh h0 hs hb hr hu
  have hG : AZee.react.Gauge c p := AZee.react.gauge_line he ht hB hh (by decide) (fun n => onShell_msq (hs n)) hb hr (fun n m h h2 => absurd (And.intro h h2) (by revert n m; decide)) (fun _ => ⟨rfl, rfl⟩) (fun h => absurd h (by decide))
  refine ⟨d1, d2, hG, _, _, fun s _ => AZee.react.state_line he ht hB (by decide) _ s, ?_⟩
  have aP : ∀ (s2 : Fin 2) (s3 : Fin 2) (t1 : Fin 3), ‖Cls.AZee.m_amp.mean (AZee.N c p) (callMean (AZee.N c p) []) .c [2, spinV t1, spinOf s2, spinOf s3]‖ = ‖AZee.react.bare c p 2 3 0 1 (AZee.react.codePair c p 2 s2) (AZee.react.codePair c p 3 s3) (lightE (legA (p 0) 0 0, legS (p 0) 0 1) 1) (AZee.react.codeVec c p 1 t1)‖ := by
    intro s2 s3 t1
    exact am s2 s3 1 t1
  show meaning (AZee.N c p) .r Cls.AZee.methods 2 [] = _
  have s0 : AZee.react.someStates ![some true, none, none, none] 0 = 1 := by decide +kernel
  have s1 : AZee.react.someStates ![some true, none, none, none] 1 = 3 := by decide +kernel
  have sy : AZee.react.symmetry = 1 := by decide
  have p0 : AZee.react.pick ![some true, none, none, none] 0 = {1} := rfl
  have p1 : AZee.react.pick ![some true, none, none, none] 1 = Finset.univ := rfl
  have p2 : AZee.react.pick ![some true, none, none, none] 2 = {0, 1} := rfl
  have p3 : AZee.react.pick ![some true, none, none, none] 3 = {0, 1} := rfl
  have E0 : AZee.react.codeE c p 0 = lightE (legA (p 0) 0 0, legS (p 0) 0 1) := rfl
  have E1 : AZee.react.codeE c p 1 = AZee.react.codeVec c p 1 := rfl
  have lc : AZee.react.lineColours 2 3 = 1 := by decide +kernel
  rw [AZee.amp2_Aplus_value, lc, s0, s1, sy]
  simp only [sumV_sum, sumJ_sum, sumW_sum, aP, p0, p1, p2, p3, E0, E1, Finset.sum_singleton, sum_two, Matrix.cons_val_zero, Matrix.cons_val_one, Matrix.cons_val, two_castSucc]
  try simp only [← Finset.mul_sum]
  push_cast
  ring

set_option maxRecDepth 8000 in
theorem AZee.amp2_Aminus_eq (N : Env) (f : Nat → List Int → ℂ) : Cls.AZee.m_amp2_Aminus.mean N f .r [] =
    ((sumV (fun x a => (sumJ (fun x b => (sumJ (fun x c => (x + (‖(f 0 [(-2), a, b, c])‖ ^ 2))) x)) x)) ((0 : Nat) : ℝ)) / ((3 : Nat) : ℝ)) := by rfl
set_option maxRecDepth 8000 in
theorem AZee.amp2_Aminus_value (N : Env) : meaning N .r Cls.AZee.methods 3 [] =
    ((sumV (fun x a => (sumJ (fun x b => (sumJ (fun x c => (x + (‖(Cls.AZee.m_amp.mean N (callMean N []) .c [(-2), a, b, c])‖ ^ 2))) x)) x)) ((0 : Nat) : ℝ)) / ((3 : Nat) : ℝ)) :=
  AZee.amp2_Aminus_eq N (callMean N [Cls.AZee.m_amp2_Aplus, Cls.AZee.m_amp2, Cls.AZee.m_amp])

variable [FPEnv] in
/-- `amp2_Aminus` -/
theorem AZee.amp2_Aminus_polarises : AZee.Polarises 3 ![some false, none, none, none] := by
  refine polarises_of (D := [2, 3]) (E := [3]) (by unfold Reaction.Lights; decide) (by decide) (by simp [all, AZee]) (by decide +kernel) (by decide) (by decide +kernel) (fun c hc hh => ⟨List.forall_mem_cons.2 ⟨hc.MW, List.forall_mem_cons.2 ⟨hc.SW, List.forall_mem_nil _⟩⟩, List.forall_mem_cons.2 ⟨hc.SW_lt, List.forall_mem_nil _⟩⟩) (fun c hc i => AZee.mass_eq hc i) (by decide +kernel) ?_
  intro c p hc hh hw h0 hs hb hr hu
  have he : AZee.react.ends = [2] := by decide
  have ht : AZee.react.starts = [3] := by decide
  have hB : AZee.react.bosons = [0, 1] := by decide
  obtain ⟨n0, n1, d1, d2, am⟩ := AZee.amps hc hh h0 hs hb hr hu
  have hG : AZee.react.Gauge c p := AZee.react.gauge_line he ht hB hh (by decide) (fun n => onShell_msq (hs n)) hb hr (fun n m h h2 => absurd (And.intro h h2) (by revert n m; decide)) (fun _ => ⟨rfl, rfl⟩) (fun h => absurd h (by decide))
  refine ⟨d1, d2, hG, _, _, fun s _ => AZee.react.state_line he ht hB (by decide) _ s, ?_⟩
  have aP : ∀ (s2 : Fin 2) (s3 : Fin 2) (t1 : Fin 3), ‖Cls.AZee.m_amp.mean (AZee.N c p) (callMean (AZee.N c p) []) .c [(-2), spinV t1, spinOf s2, spinOf s3]‖ = ‖AZee.react.bare c p 2 3 0 1 (AZee.react.codePair c p 2 s2) (AZee.react.codePair c p 3 s3) (lightE (legA (p 0) 0 0, legS (p 0) 0 1) 0) (AZee.react.codeVec c p 1 t1)‖ := by
    intro s2 s3 t1
    exact am s2 s3 0 t1
  show meaning (AZee.N c p) .r Cls.AZee.methods 3 [] = _
  have s0 : AZee.react.someStates ![some false, none, none, none] 0 = 1 := by decide +kernel
  have s1 : AZee.react.someStates ![some false, none, none, none] 1 = 3 := by decide +kernel
  have sy : AZee.react.symmetry = 1 := by decide
  have p0 : AZee.react.pick ![some false, none, none, none] 0 = {0} := rfl
  have p1 : AZee.react.pick ![some false, none, none, none] 1 = Finset.univ := rfl
  have p2 : AZee.react.pick ![some false, none, none, none] 2 = {0, 1} := rfl
  have p3 : AZee.react.pick ![some false, none, none, none] 3 = {0, 1} := rfl
  have E0 : AZee.react.codeE c p 0 = lightE (legA (p 0) 0 0, legS (p 0) 0 1) := rfl
  have E1 : AZee.react.codeE c p 1 = AZee.react.codeVec c p 1 := rfl
  have lc : AZee.react.lineColours 2 3 = 1 := by decide +kernel
  rw [AZee.amp2_Aminus_value, lc, s0, s1, sy]
  simp only [sumV_sum, sumJ_sum, sumW_sum, aP, p0, p1, p2, p3, E0, E1, Finset.sum_singleton, sum_two, Matrix.cons_val_zero, Matrix.cons_val_one, Matrix.cons_val, two_castSucc]
  try simp only [← Finset.mul_sum]
  push_cast
  ring

/-! ### AuZu -/

set_option maxRecDepth 8000 in
theorem AuZu.amp2_Aplus_eq (N : Env) (f : Nat → List Int → ℂ) : Cls.AuZu.m_amp2_Aplus.mean N f .r [] =
    ((sumJ (fun x a => (sumV (fun x b => (sumJ (fun x c => (x + (((3 : Nat) : ℝ) * (‖(f 0 [2, a, b, c])‖ ^ 2)))) x)) x)) ((0 : Nat) : ℝ)) / ((6 : Nat) : ℝ)) := by rfl
set_option maxRecDepth 8000 in
theorem AuZu.amp2_Aplus_value (N : Env) : meaning N .r Cls.AuZu.methods 2 [] =
    ((sumJ (fun x a => (sumV (fun x b => (sumJ (fun x c => (x + (((3 : Nat) : ℝ) * (‖(Cls.AuZu.m_amp.mean N (callMean N []) .c [2, a, b, c])‖ ^ 2)))) x)) x)) ((0 : Nat) : ℝ)) / ((6 : Nat) : ℝ)) :=
  AuZu.amp2_Aplus_eq N (callMean N [Cls.AuZu.m_amp2, Cls.AuZu.m_amp])

variable [FPEnv] in
/-- `amp2_Aplus` -/
theorem AuZu.amp2_Aplus_polarises : AuZu.Polarises 2 ![some true, none, none, none] := by
  refine polarises_of (D := [2, 3]) (E := [3]) (by unfold Reaction.Lights; decide) (by decide) (by simp [all, AuZu]) (by decide +kernel) (by decide) (by decide +kernel) (fun c hc hh => ⟨List.forall_mem_cons.2 ⟨hc.MW, List.forall_mem_cons.2 ⟨hc.SW, List.forall_mem_nil _⟩⟩, List.forall_mem_cons.2 ⟨hc.SW_lt, List.forall_mem_nil _⟩⟩) (fun c hc i => AuZu.mass_eq hc i) (by decide +kernel) ?_
  intro c p hc hh hw h0 hs hb hr hu
  have he : AuZu.react.ends = [3] := by decide
  have ht : AuZu.react.starts = [1] := by decide
  have hB : AuZu.react.bosons = [0, 2] := by decide
  obtain ⟨n0, n1, d1, d2, am⟩ := AuZu.amps hc hh h0 hs hb hr hu
  have hG : AuZu.react.Gauge c p := AuZu.react.gauge_line he ht hB hh (by decide) (fun n => onShell_msq (hs n)) hb hr (fun n m h h2 => absurd (And.intro h h2) (by revert n m; decide)) (fun _ => ⟨rfl, rfl⟩) (fun h => absurd h (by decide))
  refine ⟨d1, d2, hG, _, _, fun s _ => AuZu.react.state_line he ht hB (by decide) _ s, ?_⟩
  have aP : ∀ (s1 : Fin 2) (s3 : Fin 2) (t2 : Fin 3), ‖Cls.AuZu.m_amp.mean (AuZu.N c p) (callMean (AuZu.N c p) []) .c [2, spinOf s1, spinV t2, spinOf s3]‖ = ‖AuZu.react.bare c p 3 1 0 2 (AuZu.react.codePair c p 3 s3) (AuZu.react.codePair c p 1 s1) (lightE (legA (p 0) 0 0, legS (p 0) 0 1) 1) (AuZu.react.codeVec c p 2 t2)‖ := by
    intro s1 s3 t2
    exact am s1 s3 1 t2
  show meaning (AuZu.N c p) .r Cls.AuZu.methods 2 [] = _
  have s0 : AuZu.react.someStates ![some true, none, none, none] 0 = 1 := by decide +kernel
  have s1 : AuZu.react.someStates ![some true, none, none, none] 1 = 6 := by decide +kernel
  have sy : AuZu.react.symmetry = 1 := by decide
  have p0 : AuZu.react.pick ![some true, none, none, none] 0 = {1} := rfl
  have p1 : AuZu.react.pick ![some true, none, none, none] 1 = {0, 1} := rfl
  have p2 : AuZu.react.pick ![some true, none, none, none] 2 = Finset.univ := rfl
  have p3 : AuZu.react.pick ![some true, none, none, none] 3 = {0, 1} := rfl
  have E0 : AuZu.react.codeE c p 0 = lightE (legA (p 0) 0 0, legS (p 0) 0 1) := rfl
  have E2 : AuZu.react.codeE c p 2 = AuZu.react.codeVec c p 2 := rfl
  have lc : AuZu.react.lineColours 3 1 = 3 := by decide +kernel
  rw [AuZu.amp2_Aplus_value, lc, s0, s1, sy]
  simp only [sumV_sum, sumJ_sum, sumW_sum, aP, p0, p1, p2, p3, E0, E2, Finset.sum_singleton, sum_two, Matrix.cons_val_zero, Matrix.cons_val_one, Matrix.cons_val, two_castSucc]
  try simp only [← Finset.mul_sum]
  push_cast
  ring

set_option maxRecDepth 8000 in
theorem AuZu.amp2_Aminus_eq (N : Env) (f : Nat → List Int → ℂ) : Cls.AuZu.m_amp2_Aminus.mean N f .r [] =
    ((sumJ (fun x a => (sumV (fun x b => (sumJ (fun x c => (x + (((3 : Nat) : ℝ) * (‖(f 0 [(-2), a, b, c])‖ ^ 2)))) x)) x)) ((0 : Nat) : ℝ)) / ((6 : Nat) : ℝ)) := by rfl
set_option maxRecDepth 8000 in
theorem AuZu.amp2_Aminus_value (N : Env) : meaning N .r Cls.AuZu.methods 3 [] =
    ((sumJ (fun x a => (sumV (fun x b => (sumJ (fun x c => (x + (((3 : Nat) : ℝ) * (‖(Cls.AuZu.m_amp.mean N (callMean N []) .c [(-2), a, b, c])‖ ^ 2)))) x)) x)) ((0 : Nat) : ℝ)) / ((6 : Nat) : ℝ)) :=
  AuZu.amp2_Aminus_eq N (callMean N [Cls.AuZu.m_amp2_Aplus, Cls.AuZu.m_amp2, Cls.AuZu.m_amp])

variable [FPEnv] in
/-- `amp2_Aminus` -/
theorem AuZu.amp2_Aminus_polarises : AuZu.Polarises 3 ![some false, none, none, none] := by
  refine polarises_of (D := [2, 3]) (E := [3]) (by unfold Reaction.Lights; decide) (by decide) (by simp [all, AuZu]) (by decide +kernel) (by decide) (by decide +kernel) (fun c hc hh => ⟨List.forall_mem_cons.2 ⟨hc.MW, List.forall_mem_cons.2 ⟨hc.SW, List.forall_mem_nil _⟩⟩, List.forall_mem_cons.2 ⟨hc.SW_lt, List.forall_mem_nil _⟩⟩) (fun c hc i => AuZu.mass_eq hc i) (by decide +kernel) ?_
  intro c p hc hh hw h0 hs hb hr hu
  have he : AuZu.react.ends = [3] := by decide
  have ht : AuZu.react.starts = [1] := by decide
  have hB : AuZu.react.bosons = [0, 2] := by decide
  obtain ⟨n0, n1, d1, d2, am⟩ := AuZu.amps hc hh h0 hs hb hr hu
  have hG : AuZu.react.Gauge c p := AuZu.react.gauge_line he ht hB hh (by decide) (fun n => onShell_msq (hs n)) hb hr (fun n m h h2 => absurd (And.intro h h2) (by revert n m; decide)) (fun _ => ⟨rfl, rfl⟩) (fun h => absurd h (by decide))
  refine ⟨d1, d2, hG, _, _, fun s _ => AuZu.react.state_line he ht hB (by decide) _ s, ?_⟩
  have aP : ∀ (s1 : Fin 2) (s3 : Fin 2) (t2 : Fin 3), ‖Cls.AuZu.m_amp.mean (AuZu.N c p) (callMean (AuZu.N c p) []) .c [(-2), spinOf s1, spinV t2, spinOf s3]‖ = ‖AuZu.react.bare c p 3 1 0 2 (AuZu.react.codePair c p 3 s3) (AuZu.react.codePair c p 1 s1) (lightE (legA (p 0) 0 0, legS (p 0) 0 1) 0) (AuZu.react.codeVec c p 2 t2)‖ := by
    intro s1 s3 t2
    exact am s1 s3 0 t2
  show meaning (AuZu.N c p) .r Cls.AuZu.methods 3 [] = _
  have s0 : AuZu.react.someStates ![some false, none, none, none] 0 = 1 := by decide +kernel
  have s1 : AuZu.react.someStates ![some false, none, none, none] 1 = 6 := by decide +kernel
  have sy : AuZu.react.symmetry = 1 := by decide
  have p0 : AuZu.react.pick ![some false, none, none, none] 0 = {0} := rfl
  have p1 : AuZu.react.pick ![some false, none, none, none] 1 = {0, 1} := rfl
  have p2 : AuZu.react.pick ![some false, none, none, none] 2 = Finset.univ := rfl
  have p3 : AuZu.react.pick ![some false, none, none, none] 3 = {0, 1} := rfl
  have E0 : AuZu.react.codeE c p 0 = lightE (legA (p 0) 0 0, legS (p 0) 0 1) := rfl
  have E2 : AuZu.react.codeE c p 2 = AuZu.react.codeVec c p 2 := rfl
  have lc : AuZu.react.lineColours 3 1 = 3 := by decide +kernel
  rw [AuZu.amp2_Aminus_value, lc, s0, s1, sy]
  simp only [sumV_sum, sumJ_sum, sumW_sum, aP, p0, p1, p2, p3, E0, E2, Finset.sum_singleton, sum_two, Matrix.cons_val_zero, Matrix.cons_val_one, Matrix.cons_val, two_castSucc]
  try simp only [← Finset.mul_sum]
  push_cast
  ring

/-! ### AdZd -/

set_option maxRecDepth 8000 in
theorem AdZd.amp2_Aplus_eq (N : Env) (f : Nat → List Int → ℂ) : Cls.AdZd.m_amp2_Aplus.mean N f .r [] =
    ((sumJ (fun x a => (sumV (fun x b => (sumJ (fun x c => (x + (((3 : Nat) : ℝ) * (‖(f 0 [2, a, b, c])‖ ^ 2)))) x)) x)) ((0 : Nat) : ℝ)) / ((6 : Nat) : ℝ)) := by rfl
set_option maxRecDepth 8000 in
theorem AdZd.amp2_Aplus_value (N : Env) : meaning N .r Cls.AdZd.methods 2 [] =
    ((sumJ (fun x a => (sumV (fun x b => (sumJ (fun x c => (x + (((3 : Nat) : ℝ) * (‖(Cls.AdZd.m_amp.mean N (callMean N []) .c [2, a, b, c])‖ ^ 2)))) x)) x)) ((0 : Nat) : ℝ)) / ((6 : Nat) : ℝ)) :=
  AdZd.amp2_Aplus_eq N (callMean N [Cls.AdZd.m_amp2, Cls.AdZd.m_amp])

variable [FPEnv] in
/-- `amp2_Aplus` -/
theorem AdZd.amp2_Aplus_polarises : AdZd.Polarises 2 ![some true, none, none, none] := by
  refine polarises_of (D := [2, 3]) (E := [3]) (by unfold Reaction.Lights; decide) (by decide) (by simp [all, AdZd]) (by decide +kernel) (by decide) (by decide +kernel) (fun c hc hh => ⟨List.forall_mem_cons.2 ⟨hc.MW, List.forall_mem_cons.2 ⟨hc.SW, List.forall_mem_nil _⟩⟩, List.forall_mem_cons.2 ⟨hc.SW_lt, List.forall_mem_nil _⟩⟩) (fun c hc i => AdZd.mass_eq hc i) (by decide +kernel) ?_
  intro c p hc hh hw h0 hs hb hr hu
  have he : AdZd.react.ends = [3] := by decide
  have ht : AdZd.react.starts = [1] := by decide
  have hB : AdZd.react.bosons = [0, 2] := by decide
  obtain ⟨n0, n1, d1, d2, am⟩ := AdZd.amps hc hh h0 hs hb hr hu
  have hG : AdZd.react.Gauge c p := AdZd.react.gauge_line he ht hB hh (by decide) (fun n => onShell_msq (hs n)) hb hr (fun n m h h2 => absurd (And.intro h h2) (by revert n m; decide)) (fun _ => ⟨rfl, rfl⟩) (fun h => absurd h (by decide))
  refine ⟨d1, d2, hG, _, _, fun s _ => AdZd.react.state_line he ht hB (by decide) _ s, ?_⟩
  have aP : ∀ (s1 : Fin 2) (s3 : Fin 2) (t2 : Fin 3), ‖Cls.AdZd.m_amp.mean (AdZd.N c p) (callMean (AdZd.N c p) []) .c [2, spinOf s1, spinV t2, spinOf s3]‖ = ‖AdZd.react.bare c p 3 1 0 2 (AdZd.react.codePair c p 3 s3) (AdZd.react.codePair c p 1 s1) (lightE (legA (p 0) 0 0, legS (p 0) 0 1) 1) (AdZd.react.codeVec c p 2 t2)‖ := by
    intro s1 s3 t2
    exact am s1 s3 1 t2
  show meaning (AdZd.N c p) .r Cls.AdZd.methods 2 [] = _
  have s0 : AdZd.react.someStates ![some true, none, none, none] 0 = 1 := by decide +kernel
  have s1 : AdZd.react.someStates ![some true, none, none, none] 1 = 6 := by decide +kernel
  have sy : AdZd.react.symmetry = 1 := by decide
  have p0 : AdZd.react.pick ![some true, none, none, none] 0 = {1} := rfl
  have p1 : AdZd.react.pick ![some true, none, none, none] 1 = {0, 1} := rfl
  have p2 : AdZd.react.pick ![some true, none, none, none] 2 = Finset.univ := rfl
  have p3 : AdZd.react.pick ![some true, none, none, none] 3 = {0, 1} := rfl
  have E0 : AdZd.react.codeE c p 0 = lightE (legA (p 0) 0 0, legS (p 0) 0 1) := rfl
  have E2 : AdZd.react.codeE c p 2 = AdZd.react.codeVec c p 2 := rfl
  have lc : AdZd.react.lineColours 3 1 = 3 := by decide +kernel
  rw [AdZd.amp2_Aplus_value, lc, s0, s1, sy]
  simp only [sumV_sum, sumJ_sum, sumW_sum, aP, p0, p1, p2, p3, E0, E2, Finset.sum_singleton, sum_two, Matrix.cons_val_zero, Matrix.cons_val_one, Matrix.cons_val, two_castSucc]
  try simp only [← Finset.mul_sum]
  push_cast
  ring

set_option maxRecDepth 8000 in
theorem AdZd.amp2_Aminus_eq (N : Env) (f : Nat → List Int → ℂ) : Cls.AdZd.m_amp2_Aminus.mean N f .r [] =
    ((sumJ (fun x a => (sumV (fun x b => (sumJ (fun x c => (x + (((3 : Nat) : ℝ) * (‖(f 0 [(-2), a, b, c])‖ ^ 2)))) x)) x)) ((0 : Nat) : ℝ)) / ((6 : Nat) : ℝ)) := by rfl
set_option maxRecDepth 8000 in
theorem AdZd.amp2_Aminus_value (N : Env) : meaning N .r Cls.AdZd.methods 3 [] =
    ((sumJ (fun x a => (sumV (fun x b => (sumJ (fun x c => (x + (((3 : Nat) : ℝ) * (‖(Cls.AdZd.m_amp.mean N (callMean N []) .c [(-2), a, b, c])‖ ^ 2)))) x)) x)) ((0 : Nat) : ℝ)) / ((6 : Nat) : ℝ)) :=
  AdZd.amp2_Aminus_eq N (callMean N [Cls.AdZd.m_amp2_Aplus, Cls.AdZd.m_amp2, Cls.AdZd.m_amp])

variable [FPEnv] in
/-- `amp2_Aminus` -/
theorem AdZd.amp2_Aminus_polarises : AdZd.Polarises 3 ![some false, none, none, none] := by
  refine polarises_of (D := [2, 3]) (E := [3]) (by unfold Reaction.Lights; decide) (by decide) (by simp [all, AdZd]) (by decide +kernel) (by decide) (by decide +kernel) (fun c hc hh => ⟨List.forall_mem_cons.2 ⟨hc.MW, List.forall_mem_cons.2 ⟨hc.SW, List.forall_mem_nil _⟩⟩, List.forall_mem_cons.2 ⟨hc.SW_lt, List.forall_mem_nil _⟩⟩) (fun c hc i => AdZd.mass_eq hc i) (by decide +kernel) ?_
  intro c p hc hh hw h0 hs hb hr hu
  have he : AdZd.react.ends = [3] := by decide
  have ht : AdZd.react.starts = [1] := by decide
  have hB : AdZd.react.bosons = [0, 2] := by decide
  obtain ⟨n0, n1, d1, d2, am⟩ := AdZd.amps hc hh h0 hs hb hr hu
  have hG : AdZd.react.Gauge c p := AdZd.react.gauge_line he ht hB hh (by decide) (fun n => onShell_msq (hs n)) hb hr (fun n m h h2 => absurd (And.intro h h2) (by revert n m; decide)) (fun _ => ⟨rfl, rfl⟩) (fun h => absurd h (by decide))
  refine ⟨d1, d2, hG, _, _, fun s _ => AdZd.react.state_line he ht hB (by decide) _ s, ?_⟩
  have aP : ∀ (s1 : Fin 2) (s3 : Fin 2) (t2 : Fin 3), ‖Cls.AdZd.m_amp.mean (AdZd.N c p) (callMean (AdZd.N c p) []) .c [(-2), spinOf s1, spinV t2, spinOf s3]‖ = ‖AdZd.react.bare c p 3 1 0 2 (AdZd.react.codePair c p 3 s3) (AdZd.react.codePair c p 1 s1) (lightE (legA (p 0) 0 0, legS (p 0) 0 1) 0) (AdZd.react.codeVec c p 2 t2)‖ := by
    intro s1 s3 t2
    exact am s1 s3 0 t2
  show meaning (AdZd.N c p) .r Cls.AdZd.methods 3 [] = _
  have s0 : AdZd.react.someStates ![some false, none, none, none] 0 = 1 := by decide +kernel
  have s1 : AdZd.react.someStates ![some false, none, none, none] 1 = 6 := by decide +kernel
  have sy : AdZd.react.symmetry = 1 := by decide
  have p0 : AdZd.react.pick ![some false, none, none, none] 0 = {0} := rfl
  have p1 : AdZd.react.pick ![some false, none, none, none] 1 = {0, 1} := rfl
  have p2 : AdZd.react.pick ![some false, none, none, none] 2 = Finset.univ := rfl
  have p3 : AdZd.react.pick ![some false, none, none, none] 3 = {0, 1} := rfl
  have E0 : AdZd.react.codeE c p 0 = lightE (legA (p 0) 0 0, legS (p 0) 0 1) := rfl
  have E2 : AdZd.react.codeE c p 2 = AdZd.react.codeVec c p 2 := rfl
  have lc : AdZd.react.lineColours 3 1 = 3 := by decide +kernel
  rw [AdZd.amp2_Aminus_value, lc, s0, s1, sy]
  simp only [sumV_sum, sumJ_sum, sumW_sum, aP, p0, p1, p2, p3, E0, E2, Finset.sum_singleton, sum_two, Matrix.cons_val_zero, Matrix.cons_val_one, Matrix.cons_val, two_castSucc]
  try simp only [← Finset.mul_sum]
  push_cast
  ring

/-! ### AeZe -/

set_option maxRecDepth 8000 in
theorem AeZe.amp2_Aplus_eq (N : Env) (f : Nat → List Int → ℂ) : Cls.AeZe.m_amp2_Aplus.mean N f .r [] =
    ((sumJ (fun x a => (sumV (fun x b => (sumJ (fun x c => (x + (‖(f 0 [2, a, b, c])‖ ^ 2))) x)) x)) ((0 : Nat) : ℝ)) / ((2 : Nat) : ℝ)) := by rfl
set_option maxRecDepth 8000 in
theorem AeZe.amp2_Aplus_value (N : Env) : meaning N .r Cls.AeZe.methods 2 [] =
    ((sumJ (fun x a => (sumV (fun x b => (sumJ (fun x c => (x + (‖(Cls.AeZe.m_amp.mean N (callMean N []) .c [2, a, b, c])‖ ^ 2))) x)) x)) ((0 : Nat) : ℝ)) / ((2 : Nat) : ℝ)) :=
  AeZe.amp2_Aplus_eq N (callMean N [Cls.AeZe.m_amp2, Cls.AeZe.m_amp])

variable [FPEnv] in
/-- `amp2_Aplus` -/
theorem AeZe.amp2_Aplus_polarises : AeZe.Polarises 2 ![some true, none, none, none] := by
  refine polarises_of (D := [2, 3]) (E := [3]) (by unfold Reaction.Lights; decide) (by decide) (by simp [all, AeZe]) (by decide +kernel) (by decide) (by decide +kernel) (fun c hc hh => ⟨List.forall_mem_cons.2 ⟨hc.MW, List.forall_mem_cons.2 ⟨hc.SW, List.forall_mem_nil _⟩⟩, List.forall_mem_cons.2 ⟨hc.SW_lt, List.forall_mem_nil _⟩⟩) (fun c hc i => AeZe.mass_eq hc i) (by decide +kernel) ?_
  intro c p hc hh hw h0 hs hb hr hu
  have he : AeZe.react.ends = [3] := by decide
  have ht : AeZe.react.starts = [1] := by decide
  have hB : AeZe.react.bosons = [0, 2] := by decide
  obtain ⟨n0, n1, d1, d2, am⟩ := AeZe.amps hc hh h0 hs hb hr hu
  have hG : AeZe.react.Gauge c p := AeZe.react.gauge_line he ht hB hh (by decide) (fun n => onShell_msq (hs n)) hb hr (fun n m h h2 => absurd (And.intro h h2) (by revert n m; decide)) (fun _ => ⟨rfl, rfl⟩) (fun h => absurd h (by decide))
  refine ⟨d1, d2, hG, _, _, fun s _ => AeZe.react.state_line he ht hB (by decide) _ s, ?_⟩
  have aP : ∀ (s1 : Fin 2) (s3 : Fin 2) (t2 : Fin 3), ‖Cls.AeZe.m_amp.mean (AeZe.N c p) (callMean (AeZe.N c p) []) .c [2, spinOf s1, spinV t2, spinOf s3]‖ = ‖AeZe.react.bare c p 3 1 0 2 (AeZe.react.codePair c p 3 s3) (AeZe.react.codePair c p 1 s1) (lightE (legA (p 0) 0 0, legS (p 0) 0 1) 1) (AeZe.react.codeVec c p 2 t2)‖ := by
    intro s1 s3 t2
    exact am s1 s3 1 t2
  show meaning (AeZe.N c p) .r Cls.AeZe.methods 2 [] = _
  have s0 : AeZe.react.someStates ![some true, none, none, none] 0 = 1 := by decide +kernel
  have s1 : AeZe.react.someStates ![some true, none, none, none] 1 = 2 := by decide +kernel
  have sy : AeZe.react.symmetry = 1 := by decide
  have p0 : AeZe.react.pick ![some true, none, none, none] 0 = {1} := rfl
  have p1 : AeZe.react.pick ![some true, none, none, none] 1 = {0, 1} := rfl
  have p2 : AeZe.react.pick ![some true, none, none, none] 2 = Finset.univ := rfl
  have p3 : AeZe.react.pick ![some true, none, none, none] 3 = {0, 1} := rfl
  have E0 : AeZe.react.codeE c p 0 = lightE (legA (p 0) 0 0, legS (p 0) 0 1) := rfl
  have E2 : AeZe.react.codeE c p 2 = AeZe.react.codeVec c p 2 := rfl
  have lc : AeZe.react.lineColours 3 1 = 1 := by decide +kernel
  rw [AeZe.amp2_Aplus_value, lc, s0, s1, sy]
  simp only [sumV_sum, sumJ_sum, sumW_sum, aP, p0, p1, p2, p3, E0, E2, Finset.sum_singleton, sum_two, Matrix.cons_val_zero, Matrix.cons_val_one, Matrix.cons_val, two_castSucc]
  try simp only [← Finset.mul_sum]
  push_cast
  ring

set_option maxRecDepth 8000 in
theorem AeZe.amp2_Aminus_eq (N : Env) (f : Nat → List Int → ℂ) : Cls.AeZe.m_amp2_Aminus.mean N f .r [] =
    ((sumJ (fun x a => (sumV (fun x b => (sumJ (fun x c => (x + (‖(f 0 [(-2), a, b, c])‖ ^ 2))) x)) x)) ((0 : Nat) : ℝ)) / ((2 : Nat) : ℝ)) := by rfl
set_option maxRecDepth 8000 in
theorem AeZe.amp2_Aminus_value (N : Env) : meaning N .r Cls.AeZe.methods 3 [] =
    ((sumJ (fun x a => (sumV (fun x b => (sumJ (fun x c => (x + (‖(Cls.AeZe.m_amp.mean N (callMean N []) .c [(-2), a, b, c])‖ ^ 2))) x)) x)) ((0 : Nat) : ℝ)) / ((2 : Nat) : ℝ)) :=
  AeZe.amp2_Aminus_eq N (callMean N [Cls.AeZe.m_amp2_Aplus, Cls.AeZe.m_amp2, Cls.AeZe.m_amp])

variable [FPEnv] in
/-- `amp2_Aminus` -/
theorem AeZe.amp2_Aminus_polarises : AeZe.Polarises 3 ![some false, none, none, none] := by
  refine polarises_of (D := [2, 3]) (E := [3]) (by unfold Reaction.Lights; decide) (by decide) (by simp [all, AeZe]) (by decide +kernel) (by decide) (by decide +kernel) (fun c hc hh => ⟨List.forall_mem_cons.2 ⟨hc.MW, List.forall_mem_cons.2 ⟨hc.SW, List.forall_mem_nil _⟩⟩, List.forall_mem_cons.2 ⟨hc.SW_lt, List.forall_mem_nil _⟩⟩) (fun c hc i => AeZe.mass_eq hc i) (by decide +kernel) ?_
  intro c p hc hh hw h0 hs hb hr hu
  have he : AeZe.react.ends = [3] := by decide
  have ht : AeZe.react.starts = [1] := by decide
  have hB : AeZe.react.bosons = [0, 2] := by decide
  obtain ⟨n0, n1, d1, d2, am⟩ := AeZe.amps hc hh h0 hs hb hr hu
  have hG : AeZe.react.Gauge c p := AeZe.react.gauge_line he ht hB hh (by decide) (fun n => onShell_msq (hs n)) hb hr (fun n m h h2 => absurd (And.intro h h2) (by revert n m; decide)) (fun _ => ⟨rfl, rfl⟩) (fun h => absurd h (by decide))
  refine ⟨d1, d2, hG, _, _, fun s _ => AeZe.react.state_line he ht hB (by decide) _ s, ?_⟩
  have aP : ∀ (s1 : Fin 2) (s3 : Fin 2) (t2 : Fin 3), ‖Cls.AeZe.m_amp.mean (AeZe.N c p) (callMean (AeZe.N c p) []) .c [(-2), spinOf s1, spinV t2, spinOf s3]‖ = ‖AeZe.react.bare c p 3 1 0 2 (AeZe.react.codePair c p 3 s3) (AeZe.react.codePair c p 1 s1) (lightE (legA (p 0) 0 0, legS (p 0) 0 1) 0) (AeZe.react.codeVec c p 2 t2)‖ := by
    intro s1 s3 t2
    exact am s1 s3 0 t2
  show meaning (AeZe.N c p) .r Cls.AeZe.methods 3 [] = _
  have s0 : AeZe.react.someStates ![some false, none, none, none] 0 = 1 := by decide +kernel
  have s1 : AeZe.react.someStates ![some false, none, none, none] 1 = 2 := by decide +kernel
  have sy : AeZe.react.symmetry = 1 := by decide
  have p0 : AeZe.react.pick ![some false, none, none, none] 0 = {0} := rfl
  have p1 : AeZe.react.pick ![some false, none, none, none] 1 = {0, 1} := rfl
  have p2 : AeZe.react.pick ![some false, none, none, none] 2 = Finset.univ := rfl
  have p3 : AeZe.react.pick ![some false, none, none, none] 3 = {0, 1} := rfl
  have E0 : AeZe.react.codeE c p 0 = lightE (legA (p 0) 0 0, legS (p 0) 0 1) := rfl
  have E2 : AeZe.react.codeE c p 2 = AeZe.react.codeVec c p 2 := rfl
  have lc : AeZe.react.lineColours 3 1 = 1 := by decide +kernel
  rw [AeZe.amp2_Aminus_value, lc, s0, s1, sy]
  simp only [sumV_sum, sumJ_sum, sumW_sum, aP, p0, p1, p2, p3, E0, E2, Finset.sum_singleton, sum_two, Matrix.cons_val_zero, Matrix.cons_val_one, Matrix.cons_val, two_castSucc]
  try simp only [← Finset.mul_sum]
  push_cast
  ring

/-! ### gZdd -/

set_option maxRecDepth 8000 in
theorem gZdd.amp2_gplus_eq (N : Env) (f : Nat → List Int → ℂ) : Cls.gZdd.m_amp2_gplus.mean N f .r [] =
    ((sumV (fun x a => (sumJ (fun x b => (sumJ (fun x c => (x + (((4 : Nat) : ℝ) * (‖(f 0 [2, a, b, c])‖ ^ 2)))) x)) x)) ((0 : Nat) : ℝ)) / ((24 : Nat) : ℝ)) := by rfl
set_option maxRecDepth 8000 in
theorem gZdd.amp2_gplus_value (N : Env) : meaning N .r Cls.gZdd.methods 2 [] =
    ((sumV (fun x a => (sumJ (fun x b => (sumJ (fun x c => (x + (((4 : Nat) : ℝ) * (‖(Cls.gZdd.m_amp.mean N (callMean N []) .c [2, a, b, c])‖ ^ 2)))) x)) x)) ((0 : Nat) : ℝ)) / ((24 : Nat) : ℝ)) :=
  gZdd.amp2_gplus_eq N (callMean N [Cls.gZdd.m_amp2, Cls.gZdd.m_amp])

variable [FPEnv] in
/-- `amp2_gplus` -/
theorem gZdd.amp2_gplus_polarises : gZdd.Polarises 2 ![some true, none, none, none] := by
  refine polarises_of (D := [3, 4]) (E := [4]) (by unfold Reaction.Lights; decide) (by decide) (by simp [all, gZdd]) (by decide +kernel) (by decide) (by decide +kernel) (fun c hc hh => ⟨List.forall_mem_cons.2 ⟨hc.MW, List.forall_mem_cons.2 ⟨hc.SW, List.forall_mem_nil _⟩⟩, List.forall_mem_cons.2 ⟨hc.SW_lt, List.forall_mem_nil _⟩⟩) (fun c hc i => gZdd.mass_eq hc i) (by decide +kernel) ?_
  intro c p hc hh hw h0 hs hb hr hu
  have he : gZdd.react.ends = [2] := by decide
  have ht : gZdd.react.starts = [3] := by decide
  have hB : gZdd.react.bosons = [0, 1] := by decide
  obtain ⟨n0, n1, d1, d2, am⟩ := gZdd.amps hc hh h0 hs hb hr hu
  have hG : gZdd.react.Gauge c p := gZdd.react.gauge_line he ht hB hh (by decide) (fun n => onShell_msq (hs n)) hb hr (fun n m h h2 => absurd (And.intro h h2) (by revert n m; decide)) (fun _ => ⟨rfl, rfl⟩) (fun h => absurd h (by decide))
  refine ⟨d1, d2, hG, _, _, fun s _ => gZdd.react.state_gluon 0 he ht hB (by decide) (by decide +kernel) (by decide +kernel) _ s, ?_⟩
  have aP : ∀ (s2 : Fin 2) (s3 : Fin 2) (t1 : Fin 3), ‖Cls.gZdd.m_amp.mean (gZdd.N c p) (callMean (gZdd.N c p) []) .c [2, spinV t1, spinOf s2, spinOf s3]‖ = ‖gZdd.react.bare c p 2 3 0 1 (gZdd.react.codePair c p 2 s2) (gZdd.react.codePair c p 3 s3) (lightE (legA (p 0) 0 0, legS (p 0) 0 1) 1) (gZdd.react.codeVec c p 1 t1)‖ := by
    intro s2 s3 t1
    exact am s2 s3 1 t1
  show meaning (gZdd.N c p) .r Cls.gZdd.methods 2 [] = _
  have s0 : gZdd.react.someStates ![some true, none, none, none] 0 = 8 := by decide +kernel
  have s1 : gZdd.react.someStates ![some true, none, none, none] 1 = 3 := by decide +kernel
  have sy : gZdd.react.symmetry = 1 := by decide
  have p0 : gZdd.react.pick ![some true, none, none, none] 0 = {1} := rfl
  have p1 : gZdd.react.pick ![some true, none, none, none] 1 = Finset.univ := rfl
  have p2 : gZdd.react.pick ![some true, none, none, none] 2 = {0, 1} := rfl
  have p3 : gZdd.react.pick ![some true, none, none, none] 3 = {0, 1} := rfl
  have E0 : gZdd.react.codeE c p 0 = lightE (legA (p 0) 0 0, legS (p 0) 0 1) := rfl
  have E1 : gZdd.react.codeE c p 1 = gZdd.react.codeVec c p 1 := rfl
  rw [gZdd.amp2_gplus_value, s0, s1, sy]
  simp only [sumV_sum, sumJ_sum, sumW_sum, aP, p0, p1, p2, p3, E0, E1, Finset.sum_singleton, sum_two, Matrix.cons_val_zero, Matrix.cons_val_one, Matrix.cons_val, two_castSucc]
  try simp only [← Finset.mul_sum]
  push_cast
  ring

set_option maxRecDepth 8000 in
theorem gZdd.amp2_gminus_eq (N : Env) (f : Nat → List Int → ℂ) : Cls.gZdd.m_amp2_gminus.mean N f .r [] =
    ((sumV (fun x a => (sumJ (fun x b => (sumJ (fun x c => (x + (((4 : Nat) : ℝ) * (‖(f 0 [(-2), a, b, c])‖ ^ 2)))) x)) x)) ((0 : Nat) : ℝ)) / ((24 : Nat) : ℝ)) := by rfl
set_option maxRecDepth 8000 in
theorem gZdd.amp2_gminus_value (N : Env) : meaning N .r Cls.gZdd.methods 3 [] =
    ((sumV (fun x a => (sumJ (fun x b => (sumJ (fun x c => (x + (((4 : Nat) : ℝ) * (‖(Cls.gZdd.m_amp.mean N (callMean N []) .c [(-2), a, b, c])‖ ^ 2)))) x)) x)) ((0 : Nat) : ℝ)) / ((24 : Nat) : ℝ)) :=
  gZdd.amp2_gminus_eq N (callMean N [Cls.gZdd.m_amp2_gplus, Cls.gZdd.m_amp2, Cls.gZdd.m_amp])

variable [FPEnv] in
/-- `amp2_gminus` -/
theorem gZdd.amp2_gminus_polarises : gZdd.Polarises 3 ![some false, none, none, none] := by
  refine polarises_of (D := [3, 4]) (E := [4]) (by unfold Reaction.Lights; decide) (by decide) (by simp [all, gZdd]) (by decide +kernel) (by decide) (by decide +kernel) (fun c hc hh => ⟨List.forall_mem_cons.2 ⟨hc.MW, List.forall_mem_cons.2 ⟨hc.SW, List.forall_mem_nil _⟩⟩, List.forall_mem_cons.2 ⟨hc.SW_lt, List.forall_mem_nil _⟩⟩) (fun c hc i => gZdd.mass_eq hc i) (by decide +kernel) ?_
  intro c p hc hh hw h0 hs hb hr hu
  have he : gZdd.react.ends = [2] := by decide
  have ht : gZdd.react.starts = [3] := by decide
  have hB : gZdd.react.bosons = [0, 1] := by decide
  obtain ⟨n0, n1, d1, d2, am⟩ := gZdd.amps hc hh h0 hs hb hr hu
  have hG : gZdd.react.Gauge c p := gZdd.react.gauge_line he ht hB hh (by decide) (fun n => onShell_msq (hs n)) hb hr (fun n m h h2 => absurd (And.intro h h2) (by revert n m; decide)) (fun _ => ⟨rfl, rfl⟩) (fun h => absurd h (by decide))
  refine ⟨d1, d2, hG, _, _, fun s _ => gZdd.react.state_gluon 0 he ht hB (by decide) (by decide +kernel) (by decide +kernel) _ s, ?_⟩
  have aP : ∀ (s2 : Fin 2) (s3 : Fin 2) (t1 : Fin 3), ‖Cls.gZdd.m_amp.mean (gZdd.N c p) (callMean (gZdd.N c p) []) .c [(-2), spinV t1, spinOf s2, spinOf s3]‖ = ‖gZdd.react.bare c p 2 3 0 1 (gZdd.react.codePair c p 2 s2) (gZdd.react.codePair c p 3 s3) (lightE (legA (p 0) 0 0, legS (p 0) 0 1) 0) (gZdd.react.codeVec c p 1 t1)‖ := by
    intro s2 s3 t1
    exact am s2 s3 0 t1
  show meaning (gZdd.N c p) .r Cls.gZdd.methods 3 [] = _
  have s0 : gZdd.react.someStates ![some false, none, none, none] 0 = 8 := by decide +kernel
  have s1 : gZdd.react.someStates ![some false, none, none, none] 1 = 3 := by decide +kernel
  have sy : gZdd.react.symmetry = 1 := by decide
  have p0 : gZdd.react.pick ![some false, none, none, none] 0 = {0} := rfl
  have p1 : gZdd.react.pick ![some false, none, none, none] 1 = Finset.univ := rfl
  have p2 : gZdd.react.pick ![some false, none, none, none] 2 = {0, 1} := rfl
  have p3 : gZdd.react.pick ![some false, none, none, none] 3 = {0, 1} := rfl
  have E0 : gZdd.react.codeE c p 0 = lightE (legA (p 0) 0 0, legS (p 0) 0 1) := rfl
  have E1 : gZdd.react.codeE c p 1 = gZdd.react.codeVec c p 1 := rfl
  rw [gZdd.amp2_gminus_value, s0, s1, sy]
  simp only [sumV_sum, sumJ_sum, sumW_sum, aP, p0, p1, p2, p3, E0, E1, Finset.sum_singleton, sum_two, Matrix.cons_val_zero, Matrix.cons_val_one, Matrix.cons_val, two_castSucc]
  try simp only [← Finset.mul_sum]
  push_cast
  ring

/-! ### gZuu -/

set_option maxRecDepth 8000 in
theorem gZuu.amp2_gplus_eq (N : Env) (f : Nat → List Int → ℂ) : Cls.gZuu.m_amp2_gplus.mean N f .r [] =
    ((sumV (fun x a => (sumJ (fun x b => (sumJ (fun x c => (x + (((4 : Nat) : ℝ) * (‖(f 0 [2, a, b, c])‖ ^ 2)))) x)) x)) ((0 : Nat) : ℝ)) / ((24 : Nat) : ℝ)) := by rfl
set_option maxRecDepth 8000 in
theorem gZuu.amp2_gplus_value (N : Env) : meaning N .r Cls.gZuu.methods 2 [] =
    ((sumV (fun x a => (sumJ (fun x b => (sumJ (fun x c => (x + (((4 : Nat) : ℝ) * (‖(Cls.gZuu.m_amp.mean N (callMean N []) .c [2, a, b, c])‖ ^ 2)))) x)) x)) ((0 : Nat) : ℝ)) / ((24 : Nat) : ℝ)) :=
  gZuu.amp2_gplus_eq N (callMean N [Cls.gZuu.m_amp2, Cls.gZuu.m_amp])

variable [FPEnv] in
/-- `amp2_gplus` -/
theorem gZuu.amp2_gplus_polarises : gZuu.Polarises 2 ![some true, none, none, none] := by
  refine polarises_of (D := [3, 4]) (E := [4]) (by unfold Reaction.Lights; decide) (by decide) (by simp [all, gZuu]) (by decide +kernel) (by decide) (by decide +kernel) (fun c hc hh => ⟨List.forall_mem_cons.2 ⟨hc.MW, List.forall_mem_cons.2 ⟨hc.SW, List.forall_mem_nil _⟩⟩, List.forall_mem_cons.2 ⟨hc.SW_lt, List.forall_mem_nil _⟩⟩) (fun c hc i => gZuu.mass_eq hc i) (by decide +kernel) ?_
  intro c p hc hh hw h0 hs hb hr hu
  have he : gZuu.react.ends = [2] := by decide
  have ht : gZuu.react.starts = [3] := by decide
  have hB : gZuu.react.bosons = [0, 1] := by decide
  obtain ⟨n0, n1, d1, d2, am⟩ := gZuu.amps hc hh h0 hs hb hr hu
  have hG : gZuu.react.Gauge c p := gZuu.react.gauge_line he ht hB hh (by decide) (fun n => onShell_msq (hs n)) hb hr (fun n m h h2 => absurd (And.intro h h2) (by revert n m; decide)) (fun _ => ⟨rfl, rfl⟩) (fun h => absurd h (by decide))
  refine ⟨d1, d2, hG, _, _, fun s _ => gZuu.react.state_gluon 0 he ht hB (by decide) (by decide +kernel) (by decide +kernel) _ s, ?_⟩
  have aP : ∀ (s2 : Fin 2) (s3 : Fin 2) (t1 : Fin 3), ‖Cls.gZuu.m_amp.mean (gZuu.N c p) (callMean (gZuu.N c p) []) .c [2, spinV t1, spinOf s2, spinOf s3]‖ = ‖gZuu.react.bare c p 2 3 0 1 (gZuu.react.codePair c p 2 s2) (gZuu.react.codePair c p 3 s3) (lightE (legA (p 0) 0 0, legS (p 0) 0 1) 1) (gZuu.react.codeVec c p 1 t1)‖ := by
    intro s2 s3 t1
    exact am s2 s3 1 t1
  show meaning (gZuu.N c p) .r Cls.gZuu.methods 2 [] = _
  have s0 : gZuu.react.someStates ![some true, none, none, none] 0 = 8 := by decide +kernel
  have s1 : gZuu.react.someStates ![some true, none, none, none] 1 = 3 := by decide +kernel
  have sy : gZuu.react.symmetry = 1 := by decide
  have p0 : gZuu.react.pick ![some true, none, none, none] 0 = {1} := rfl
  have p1 : gZuu.react.pick ![some true, none, none, none] 1 = Finset.univ := rfl
  have p2 : gZuu.react.pick ![some true, none, none, none] 2 = {0, 1} := rfl
  have p3 : gZuu.react.pick ![some true, none, none, none] 3 = {0, 1} := rfl
  have E0 : gZuu.react.codeE c p 0 = lightE (legA (p 0) 0 0, legS (p 0) 0 1) := rfl
  have E1 : gZuu.react.codeE c p 1 = gZuu.react.codeVec c p 1 := rfl
  rw [gZuu.amp2_gplus_value, s0, s1, sy]
  simp only [sumV_sum, sumJ_sum, sumW_sum, aP, p0, p1, p2, p3, E0, E1, Finset.sum_singleton, sum_two, Matrix.cons_val_zero, Matrix.cons_val_one, Matrix.cons_val, two_castSucc]
  try simp only [← Finset.mul_sum]
  push_cast
  ring

set_option maxRecDepth 8000 in
theorem gZuu.amp2_gminus_eq (N : Env) (f : Nat → List Int → ℂ) : Cls.gZuu.m_amp2_gminus.mean N f .r [] =
    ((sumV (fun x a => (sumJ (fun x b => (sumJ (fun x c => (x + (((4 : Nat) : ℝ) * (‖(f 0 [(-2), a, b, c])‖ ^ 2)))) x)) x)) ((0 : Nat) : ℝ)) / ((24 : Nat) : ℝ)) := by rfl
set_option maxRecDepth 8000 in
theorem gZuu.amp2_gminus_value (N : Env) : meaning N .r Cls.gZuu.methods 3 [] =
    ((sumV (fun x a => (sumJ (fun x b => (sumJ (fun x c => (x + (((4 : Nat) : ℝ) * (‖(Cls.gZuu.m_amp.mean N (callMean N []) .c [(-2), a, b, c])‖ ^ 2)))) x)) x)) ((0 : Nat) : ℝ)) / ((24 : Nat) : ℝ)) :=
  gZuu.amp2_gminus_eq N (callMean N [Cls.gZuu.m_amp2_gplus, Cls.gZuu.m_amp2, Cls.gZuu.m_amp])

variable [FPEnv] in
/-- `amp2_gminus` -/
theorem gZuu.amp2_gminus_polarises : gZuu.Polarises 3 ![some false, none, none, none] := by
  refine polarises_of (D := [3, 4]) (E := [4]) (by unfold Reaction.Lights; decide) (by decide) (by simp [all, gZuu]) (by decide +kernel) (by decide) (by decide +kernel) (fun c hc hh => ⟨List.forall_mem_cons.2 ⟨hc.MW, List.forall_mem_cons.2 ⟨hc.SW, List.forall_mem_nil _⟩⟩, List.forall_mem_cons.2 ⟨hc.SW_lt, List.forall_mem_nil _⟩⟩) (fun c hc i => gZuu.mass_eq hc i) (by decide +kernel) ?_
  intro c p hc hh hw h0 hs hb hr hu
  have he : gZuu.react.ends = [2] := by decide
  have ht : gZuu.react.starts = [3] := by decide
  have hB : gZuu.react.bosons = [0, 1] := by decide
  obtain ⟨n0, n1, d1, d2, am⟩ := gZuu.amps hc hh h0 hs hb hr hu
  have hG : gZuu.react.Gauge c p := gZuu.react.gauge_line he ht hB hh (by decide) (fun n => onShell_msq (hs n)) hb hr (fun n m h h2 => absurd (And.intro h h2) (by revert n m; decide)) (fun _ => ⟨rfl, rfl⟩) (fun h => absurd h (by decide))
  refine ⟨d1, d2, hG, _, _, fun s _ => gZuu.react.state_gluon 0 he ht hB (by decide) (by decide +kernel) (by decide +kernel) _ s, ?_⟩
  have aP : ∀ (s2 : Fin 2) (s3 : Fin 2) (t1 : Fin 3), ‖Cls.gZuu.m_amp.mean (gZuu.N c p) (callMean (gZuu.N c p) []) .c [(-2), spinV t1, spinOf s2, spinOf s3]‖ = ‖gZuu.react.bare c p 2 3 0 1 (gZuu.react.codePair c p 2 s2) (gZuu.react.codePair c p 3 s3) (lightE (legA (p 0) 0 0, legS (p 0) 0 1) 0) (gZuu.react.codeVec c p 1 t1)‖ := by
    intro s2 s3 t1
    exact am s2 s3 0 t1
  show meaning (gZuu.N c p) .r Cls.gZuu.methods 3 [] = _
  have s0 : gZuu.react.someStates ![some false, none, none, none] 0 = 8 := by decide +kernel
  have s1 : gZuu.react.someStates ![some false, none, none, none] 1 = 3 := by decide +kernel
  have sy : gZuu.react.symmetry = 1 := by decide
  have p0 : gZuu.react.pick ![some false, none, none, none] 0 = {0} := rfl
  have p1 : gZuu.react.pick ![some false, none, none, none] 1 = Finset.univ := rfl
  have p2 : gZuu.react.pick ![some false, none, none, none] 2 = {0, 1} := rfl
  have p3 : gZuu.react.pick ![some false, none, none, none] 3 = {0, 1} := rfl
  have E0 : gZuu.react.codeE c p 0 = lightE (legA (p 0) 0 0, legS (p 0) 0 1) := rfl
  have E1 : gZuu.react.codeE c p 1 = gZuu.react.codeVec c p 1 := rfl
  rw [gZuu.amp2_gminus_value, s0, s1, sy]
  simp only [sumV_sum, sumJ_sum, sumW_sum, aP, p0, p1, p2, p3, E0, E1, Finset.sum_singleton, sum_two, Matrix.cons_val_zero, Matrix.cons_val_one, Matrix.cons_val, two_castSucc]
  try simp only [← Finset.mul_sum]
  push_cast
  ring

/-! ### gdZd -/

set_option maxRecDepth 8000 in
theorem gdZd.amp2_gplus_eq (N : Env) (f : Nat → List Int → ℂ) : Cls.gdZd.m_amp2_gplus.mean N f .r [] =
    ((sumJ (fun x a => (sumV (fun x b => (sumJ (fun x c => (x + (((4 : Nat) : ℝ) * (‖(f 0 [2, a, b, c])‖ ^ 2)))) x)) x)) ((0 : Nat) : ℝ)) / ((48 : Nat) : ℝ)) := by rfl
set_option maxRecDepth 8000 in
theorem gdZd.amp2_gplus_value (N : Env) : meaning N .r Cls.gdZd.methods 2 [] =
    ((sumJ (fun x a => (sumV (fun x b => (sumJ (fun x c => (x + (((4 : Nat) : ℝ) * (‖(Cls.gdZd.m_amp.mean N (callMean N []) .c [2, a, b, c])‖ ^ 2)))) x)) x)) ((0 : Nat) : ℝ)) / ((48 : Nat) : ℝ)) :=
  gdZd.amp2_gplus_eq N (callMean N [Cls.gdZd.m_amp2, Cls.gdZd.m_amp])

variable [FPEnv] in
/-- `amp2_gplus` -/
theorem gdZd.amp2_gplus_polarises : gdZd.Polarises 2 ![some true, none, none, none] := by
  refine polarises_of (D := [3, 4]) (E := [4]) (by unfold Reaction.Lights; decide) (by decide) (by simp [all, gdZd]) (by decide +kernel) (by decide) (by decide +kernel) (fun c hc hh => ⟨List.forall_mem_cons.2 ⟨hc.MW, List.forall_mem_cons.2 ⟨hc.SW, List.forall_mem_nil _⟩⟩, List.forall_mem_cons.2 ⟨hc.SW_lt, List.forall_mem_nil _⟩⟩) (fun c hc i => gdZd.mass_eq hc i) (by decide +kernel) ?_
  intro c p hc hh hw h0 hs hb hr hu
  have he : gdZd.react.ends = [3] := by decide
  have ht : gdZd.react.starts = [1] := by decide
  have hB : gdZd.react.bosons = [0, 2] := by decide
  obtain ⟨n0, n1, d1, d2, am⟩ := gdZd.amps hc hh h0 hs hb hr hu
  have hG : gdZd.react.Gauge c p := gdZd.react.gauge_line he ht hB hh (by decide) (fun n => onShell_msq (hs n)) hb hr (fun n m h h2 => absurd (And.intro h h2) (by revert n m; decide)) (fun _ => ⟨rfl, rfl⟩) (fun h => absurd h (by decide))
  refine ⟨d1, d2, hG, _, _, fun s _ => gdZd.react.state_gluon 0 he ht hB (by decide) (by decide +kernel) (by decide +kernel) _ s, ?_⟩
  have aP : ∀ (s1 : Fin 2) (s3 : Fin 2) (t2 : Fin 3), ‖Cls.gdZd.m_amp.mean (gdZd.N c p) (callMean (gdZd.N c p) []) .c [2, spinOf s1, spinV t2, spinOf s3]‖ = ‖gdZd.react.bare c p 3 1 0 2 (gdZd.react.codePair c p 3 s3) (gdZd.react.codePair c p 1 s1) (lightE (legA (p 0) 0 0, legS (p 0) 0 1) 1) (gdZd.react.codeVec c p 2 t2)‖ := by
    intro s1 s3 t2
    exact am s1 s3 1 t2
  show meaning (gdZd.N c p) .r Cls.gdZd.methods 2 [] = _
  have s0 : gdZd.react.someStates ![some true, none, none, none] 0 = 8 := by decide +kernel
  have s1 : gdZd.react.someStates ![some true, none, none, none] 1 = 6 := by decide +kernel
  have sy : gdZd.react.symmetry = 1 := by decide
  have p0 : gdZd.react.pick ![some true, none, none, none] 0 = {1} := rfl
  have p1 : gdZd.react.pick ![some true, none, none, none] 1 = {0, 1} := rfl
  have p2 : gdZd.react.pick ![some true, none, none, none] 2 = Finset.univ := rfl
  have p3 : gdZd.react.pick ![some true, none, none, none] 3 = {0, 1} := rfl
  have E0 : gdZd.react.codeE c p 0 = lightE (legA (p 0) 0 0, legS (p 0) 0 1) := rfl
  have E2 : gdZd.react.codeE c p 2 = gdZd.react.codeVec c p 2 := rfl
  rw [gdZd.amp2_gplus_value, s0, s1, sy]
  simp only [sumV_sum, sumJ_sum, sumW_sum, aP, p0, p1, p2, p3, E0, E2, Finset.sum_singleton, sum_two, Matrix.cons_val_zero, Matrix.cons_val_one, Matrix.cons_val, two_castSucc]
  try simp only [← Finset.mul_sum]
  push_cast
  ring

set_option maxRecDepth 8000 in
theorem gdZd.amp2_gminus_eq (N : Env) (f : Nat → List Int → ℂ) : Cls.gdZd.m_amp2_gminus.mean N f .r [] =
    ((sumJ (fun x a => (sumV (fun x b => (sumJ (fun x c => (x + (((4 : Nat) : ℝ) * (‖(f 0 [(-2), a, b, c])‖ ^ 2)))) x)) x)) ((0 : Nat) : ℝ)) / ((48 : Nat) : ℝ)) := by rfl
set_option maxRecDepth 8000 in
theorem gdZd.amp2_gminus_value (N : Env) : meaning N .r Cls.gdZd.methods 3 [] =
    ((sumJ (fun x a => (sumV (fun x b => (sumJ (fun x c => (x + (((4 : Nat) : ℝ) * (‖(Cls.gdZd.m_amp.mean N (callMean N []) .c [(-2), a, b, c])‖ ^ 2)))) x)) x)) ((0 : Nat) : ℝ)) / ((48 : Nat) : ℝ)) :=
  gdZd.amp2_gminus_eq N (callMean N [Cls.gdZd.m_amp2_gplus, Cls.gdZd.m_amp2, Cls.gdZd.m_amp])

variable [FPEnv] in
/-- `amp2_gminus` -/
theorem gdZd.amp2_gminus_polarises : gdZd.Polarises 3 ![some false, none, none, none] := by
  refine polarises_of (D := [3, 4]) (E := [4]) (by unfold Reaction.Lights; decide) (by decide) (by simp [all, gdZd]) (by decide +kernel) (by decide) (by decide +kernel) (fun c hc hh => ⟨List.forall_mem_cons.2 ⟨hc.MW, List.forall_mem_cons.2 ⟨hc.SW, List.forall_mem_nil _⟩⟩, List.forall_mem_cons.2 ⟨hc.SW_lt, List.forall_mem_nil _⟩⟩) (fun c hc i => gdZd.mass_eq hc i) (by decide +kernel) ?_
  intro c p hc hh hw h0 hs hb hr hu
  have he : gdZd.react.ends = [3] := by decide
  have ht : gdZd.react.starts = [1] := by decide
  have hB : gdZd.react.bosons = [0, 2] := by decide
  obtain ⟨n0, n1, d1, d2, am⟩ := gdZd.amps hc hh h0 hs hb hr hu
  have hG : gdZd.react.Gauge c p := gdZd.react.gauge_line he ht hB hh (by decide) (fun n => onShell_msq (hs n)) hb hr (fun n m h h2 => absurd (And.intro h h2) (by revert n m; decide)) (fun _ => ⟨rfl, rfl⟩) (fun h => absurd h (by decide))
  refine ⟨d1, d2, hG, _, _, fun s _ => gdZd.react.state_gluon 0 he ht hB (by decide) (by decide +kernel) (by decide +kernel) _ s, ?_⟩
  have aP : ∀ (s1 : Fin 2) (s3 : Fin 2) (t2 : Fin 3), ‖Cls.gdZd.m_amp.mean (gdZd.N c p) (callMean (gdZd.N c p) []) .c [(-2), spinOf s1, spinV t2, spinOf s3]‖ = ‖gdZd.react.bare c p 3 1 0 2 (gdZd.react.codePair c p 3 s3) (gdZd.react.codePair c p 1 s1) (lightE (legA (p 0) 0 0, legS (p 0) 0 1) 0) (gdZd.react.codeVec c p 2 t2)‖ := by
    intro s1 s3 t2
    exact am s1 s3 0 t2
  show meaning (gdZd.N c p) .r Cls.gdZd.methods 3 [] = _
  have s0 : gdZd.react.someStates ![some false, none, none, none] 0 = 8 := by decide +kernel
  have s1 : gdZd.react.someStates ![some false, none, none, none] 1 = 6 := by decide +kernel
  have sy : gdZd.react.symmetry = 1 := by decide
  have p0 : gdZd.react.pick ![some false, none, none, none] 0 = {0} := rfl
  have p1 : gdZd.react.pick ![some false, none, none, none] 1 = {0, 1} := rfl
  have p2 : gdZd.react.pick ![some false, none, none, none] 2 = Finset.univ := rfl
  have p3 : gdZd.react.pick ![some false, none, none, none] 3 = {0, 1} := rfl
  have E0 : gdZd.react.codeE c p 0 = lightE (legA (p 0) 0 0, legS (p 0) 0 1) := rfl
  have E2 : gdZd.react.codeE c p 2 = gdZd.react.codeVec c p 2 := rfl
  rw [gdZd.amp2_gminus_value, s0, s1, sy]
  simp only [sumV_sum, sumJ_sum, sumW_sum, aP, p0, p1, p2, p3, E0, E2, Finset.sum_singleton, sum_two, Matrix.cons_val_zero, Matrix.cons_val_one, Matrix.cons_val, two_castSucc]
  try simp only [← Finset.mul_sum]
  push_cast
  ring

/-! ### guZu -/

set_option maxRecDepth 8000 in
theorem guZu.amp2_gplus_eq (N : Env) (f : Nat → List Int → ℂ) : Cls.guZu.m_amp2_gplus.mean N f .r [] =
    ((sumJ (fun x a => (sumV (fun x b => (sumJ (fun x c => (x + (((4 : Nat) : ℝ) * (‖(f 0 [2, a, b, c])‖ ^ 2)))) x)) x)) ((0 : Nat) : ℝ)) / ((48 : Nat) : ℝ)) := by rfl
set_option maxRecDepth 8000 in
theorem guZu.amp2_gplus_value (N : Env) : meaning N .r Cls.guZu.methods 2 [] =
    ((sumJ (fun x a => (sumV (fun x b => (sumJ (fun x c => (x + (((4 : Nat) : ℝ) * (‖(Cls.guZu.m_amp.mean N (callMean N []) .c [2, a, b, c])‖ ^ 2)))) x)) x)) ((0 : Nat) : ℝ)) / ((48 : Nat) : ℝ)) :=
  guZu.amp2_gplus_eq N (callMean N [Cls.guZu.m_amp2, Cls.guZu.m_amp])

variable [FPEnv] in
/-- `amp2_gplus` -/
theorem guZu.amp2_gplus_polarises : guZu.Polarises 2 ![some true, none, none, none] := by
  refine polarises_of (D := [3, 4]) (E := [4]) (by unfold Reaction.Lights; decide) (by decide) (by simp [all, guZu]) (by decide +kernel) (by decide) (by decide +kernel) (fun c hc hh => ⟨List.forall_mem_cons.2 ⟨hc.MW, List.forall_mem_cons.2 ⟨hc.SW, List.forall_mem_nil _⟩⟩, List.forall_mem_cons.2 ⟨hc.SW_lt, List.forall_mem_nil _⟩⟩) (fun c hc i => guZu.mass_eq hc i) (by decide +kernel) ?_
  intro c p hc hh hw h0 hs hb hr hu
  have he : guZu.react.ends = [3] := by decide
  have ht : guZu.react.starts = [1] := by decide
  have hB : guZu.react.bosons = [0, 2] := by decide
  obtain ⟨n0, n1, d1, d2, am⟩ := guZu.amps hc hh h0 hs hb hr hu
  have hG : guZu.react.Gauge c p := guZu.react.gauge_line he ht hB hh (by decide) (fun n => onShell_msq (hs n)) hb hr (fun n m h h2 => absurd (And.intro h h2) (by revert n m; decide)) (fun _ => ⟨rfl, rfl⟩) (fun h => absurd h (by decide))
  refine ⟨d1, d2, hG, _, _, fun s _ => guZu.react.state_gluon 0 he ht hB (by decide) (by decide +kernel) (by decide +kernel) _ s, ?_⟩
  have aP : ∀ (s1 : Fin 2) (s3 : Fin 2) (t2 : Fin 3), ‖Cls.guZu.m_amp.mean (guZu.N c p) (callMean (guZu.N c p) []) .c [2, spinOf s1, spinV t2, spinOf s3]‖ = ‖guZu.react.bare c p 3 1 0 2 (guZu.react.codePair c p 3 s3) (guZu.react.codePair c p 1 s1) (lightE (legA (p 0) 0 0, legS (p 0) 0 1) 1) (guZu.react.codeVec c p 2 t2)‖ := by
    intro s1 s3 t2
    exact am s1 s3 1 t2
  show meaning (guZu.N c p) .r Cls.guZu.methods 2 [] = _
  have s0 : guZu.react.someStates ![some true, none, none, none] 0 = 8 := by decide +kernel
  have s1 : guZu.react.someStates ![some true, none, none, none] 1 = 6 := by decide +kernel
  have sy : guZu.react.symmetry = 1 := by decide
  have p0 : guZu.react.pick ![some true, none, none, none] 0 = {1} := rfl
  have p1 : guZu.react.pick ![some true, none, none, none] 1 = {0, 1} := rfl
  have p2 : guZu.react.pick ![some true, none, none, none] 2 = Finset.univ := rfl
  have p3 : guZu.react.pick ![some true, none, none, none] 3 = {0, 1} := rfl
  have E0 : guZu.react.codeE c p 0 = lightE (legA (p 0) 0 0, legS (p 0) 0 1) := rfl
  have E2 : guZu.react.codeE c p 2 = guZu.react.codeVec c p 2 := rfl
  rw [guZu.amp2_gplus_value, s0, s1, sy]
  simp only [sumV_sum, sumJ_sum, sumW_sum, aP, p0, p1, p2, p3, E0, E2, Finset.sum_singleton, sum_two, Matrix.cons_val_zero, Matrix.cons_val_one, Matrix.cons_val, two_castSucc]
  try simp only [← Finset.mul_sum]
  push_cast
  ring

set_option maxRecDepth 8000 in
theorem guZu.amp2_gminus_eq (N : Env) (f : Nat → List Int → ℂ) : Cls.guZu.m_amp2_gminus.mean N f .r [] =
    ((sumJ (fun x a => (sumV (fun x b => (sumJ (fun x c => (x + (((4 : Nat) : ℝ) * (‖(f 0 [(-2), a, b, c])‖ ^ 2)))) x)) x)) ((0 : Nat) : ℝ)) / ((48 : Nat) : ℝ)) := by rfl
set_option maxRecDepth 8000 in
theorem guZu.amp2_gminus_value (N : Env) : meaning N .r Cls.guZu.methods 3 [] =
    ((sumJ (fun x a => (sumV (fun x b => (sumJ (fun x c => (x + (((4 : Nat) : ℝ) * (‖(Cls.guZu.m_amp.mean N (callMean N []) .c [(-2), a, b, c])‖ ^ 2)))) x)) x)) ((0 : Nat) : ℝ)) / ((48 : Nat) : ℝ)) :=
  guZu.amp2_gminus_eq N (callMean N [Cls.guZu.m_amp2_gplus, Cls.guZu.m_amp2, Cls.guZu.m_amp])

variable [FPEnv] in
/-- `amp2_gminus` -/
theorem guZu.amp2_gminus_polarises : guZu.Polarises 3 ![some false, none, none, none] := by
  refine polarises_of (D := [3, 4]) (E := [4]) (by unfold Reaction.Lights; decide) (by decide) (by simp [all, guZu]) (by decide +kernel) (by decide) (by decide +kernel) (fun c hc hh => ⟨List.forall_mem_cons.2 ⟨hc.MW, List.forall_mem_cons.2 ⟨hc.SW, List.forall_mem_nil _⟩⟩, List.forall_mem_cons.2 ⟨hc.SW_lt, List.forall_mem_nil _⟩⟩) (fun c hc i => guZu.mass_eq hc i) (by decide +kernel) ?_
  intro c p hc hh hw h0 hs hb hr hu
  have he : guZu.react.ends = [3] := by decide
  have ht : guZu.react.starts = [1] := by decide
  have hB : guZu.react.bosons = [0, 2] := by decide
  obtain ⟨n0, n1, d1, d2, am⟩ := guZu.amps hc hh h0 hs hb hr hu
  have hG : guZu.react.Gauge c p := guZu.react.gauge_line he ht hB hh (by decide) (fun n => onShell_msq (hs n)) hb hr (fun n m h h2 => absurd (And.intro h h2) (by revert n m; decide)) (fun _ => ⟨rfl, rfl⟩) (fun h => absurd h (by decide))
  refine ⟨d1, d2, hG, _, _, fun s _ => guZu.react.state_gluon 0 he ht hB (by decide) (by decide +kernel) (by decide +kernel) _ s, ?_⟩
  have aP : ∀ (s1 : Fin 2) (s3 : Fin 2) (t2 : Fin 3), ‖Cls.guZu.m_amp.mean (guZu.N c p) (callMean (guZu.N c p) []) .c [(-2), spinOf s1, spinV t2, spinOf s3]‖ = ‖guZu.react.bare c p 3 1 0 2 (guZu.react.codePair c p 3 s3) (guZu.react.codePair c p 1 s1) (lightE (legA (p 0) 0 0, legS (p 0) 0 1) 0) (guZu.react.codeVec c p 2 t2)‖ := by
    intro s1 s3 t2
    exact am s1 s3 0 t2
  show meaning (guZu.N c p) .r Cls.guZu.methods 3 [] = _
  have s0 : guZu.react.someStates ![some false, none, none, none] 0 = 8 := by decide +kernel
  have s1 : guZu.react.someStates ![some false, none, none, none] 1 = 6 := by decide +kernel
  have sy : guZu.react.symmetry = 1 := by decide
  have p0 : guZu.react.pick ![some false, none, none, none] 0 = {0} := rfl
  have p1 : guZu.react.pick ![some false, none, none, none] 1 = {0, 1} := rfl
  have p2 : guZu.react.pick ![some false, none, none, none] 2 = Finset.univ := rfl
  have p3 : guZu.react.pick ![some false, none, none, none] 3 = {0, 1} := rfl
  have E0 : guZu.react.codeE c p 0 = lightE (legA (p 0) 0 0, legS (p 0) 0 1) := rfl
  have E2 : guZu.react.codeE c p 2 = guZu.react.codeVec c p 2 := rfl
  rw [guZu.amp2_gminus_value, s0, s1, sy]
  simp only [sumV_sum, sumJ_sum, sumW_sum, aP, p0, p1, p2, p3, E0, E2, Finset.sum_singleton, sum_two, Matrix.cons_val_zero, Matrix.cons_val_one, Matrix.cons_val, two_castSucc]
  try simp only [← Finset.mul_sum]
  push_cast
  ring

end Spinas.SM.Rows
