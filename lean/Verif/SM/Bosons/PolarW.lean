import Verif.SM.Bosons.GluonW
import Verif.SM.Bosons.PhotonW
import Verif.SM.Bosons.PhotonWud
import Verif.SM.Polar

/-! A photon or a gluon, and a W boson. Generated by tools/bosons/polar.py: the methods for given helicities return the squared amplitudes of the Feynman rules. -/

set_option maxHeartbeats 1000000

namespace Spinas.SM.Rows
open Spec Spec.Reaction Props XR Matrix BRow

/-! ### AWud -/

set_option maxRecDepth 8000 in
theorem AWud.amp2_Aplus_eq (N : Env) (f : Nat → List Int → ℂ) : Cls.AWud.m_amp2_Aplus.mean N f .r [] =
    ((sumV (fun x a => (sumJ (fun x b => (sumJ (fun x c => (x + (((3 : Nat) : ℝ) * (‖(f 0 [1, a, b, c])‖ ^ 2)))) x)) x)) ((0 : Nat) : ℝ)) / ((3 : Nat) : ℝ)) := by rfl
set_option maxRecDepth 8000 in
theorem AWud.amp2_Aplus_value (N : Env) : meaning N .r Cls.AWud.methods 2 [] =
    ((sumV (fun x a => (sumJ (fun x b => (sumJ (fun x c => (x + (((3 : Nat) : ℝ) * (‖(Cls.AWud.m_amp.mean N (callMean N []) .c [1, a, b, c])‖ ^ 2)))) x)) x)) ((0 : Nat) : ℝ)) / ((3 : Nat) : ℝ)) :=
  AWud.amp2_Aplus_eq N (callMean N [Cls.AWud.m_amp2, Cls.AWud.m_amp])

variable [FPEnv] in
/-- `amp2_Aplus` -/
theorem AWud.amp2_Aplus_polarises : AWud.Polarises 2 ![some true, none, none, none] := by
  refine polarisesSet_of [0, 1, 2] (D := [3, 4]) (E := [4]) (by unfold Reaction.Lights; decide) (by decide) (by simp [all, AWud]) (by decide +kernel) (by decide) (by decide +kernel) (fun c hc hh => ⟨List.forall_mem_cons.2 ⟨hc.MW, List.forall_mem_cons.2 ⟨hc.SW, List.forall_mem_nil _⟩⟩, List.forall_mem_cons.2 ⟨hc.SW_lt, List.forall_mem_nil _⟩⟩) (fun c hc i => AWud.mass_eq hc i) (by decide +kernel) ?_
  intro c p hc hh hw h0 hs hb hr hu
  have he : AWud.react.ends = [2] := by decide
  have ht : AWud.react.starts = [3] := by decide
  have hB : AWud.react.bosons = [0, 1] := by decide
  have hWW : c.WW = 0 := hw .WW (by simp [AWud])
  obtain ⟨n0, n1, n2, d1, d2, am⟩ := AWud.amps hc hh hw h0 hs hb hr hu
  have hG : AWud.react.Gauge c p := AWud.react.gauge_line he ht hB hh (by decide) (fun n => onShell_msq (hs n)) hb hr (fun _ _ _ _ => hWW) (fun _ => ⟨rfl, rfl⟩) (fun h => absurd h (by decide))
  refine ⟨List.forall_mem_cons.2 ⟨n0, List.forall_mem_cons.2 ⟨n1, List.forall_mem_cons.2 ⟨n2, List.forall_mem_nil _⟩⟩⟩, d1, d2, hG, _, _, fun s _ => AWud.react.state_line he ht hB (by decide) _ s, ?_⟩
  have aP : ∀ (s2 : Fin 2) (s3 : Fin 2) (t1 : Fin 3), ‖Cls.AWud.m_amp.mean (AWud.N c p) (callMean (AWud.N c p) []) .c [1, spinV t1, spinOf s2, spinOf s3]‖ = ‖AWud.react.bare c p 2 3 0 1 (AWud.react.codePair c p 2 s2) (AWud.react.codePair c p 3 s3) (lightE (legA (p 0) 0 0, legS (p 0) 0 1) 1) (AWud.react.codeVec c p 1 t1)‖ := by
    intro s2 s3 t1
    exact (congrArg norm ((AWud.ampP_one ..).trans (AWud.ampP ..).symm)).trans (am s2 s3 1 t1)
  show meaning (AWud.N c p) .r Cls.AWud.methods 2 [] = _
  have s0 : AWud.react.someStates ![some true, none, none, none] 0 = 1 := by decide +kernel
  have s1 : AWud.react.someStates ![some true, none, none, none] 1 = 3 := by decide +kernel
  have sy : AWud.react.symmetry = 1 := by decide
  have p0 : AWud.react.pick ![some true, none, none, none] 0 = {1} := rfl
  have p1 : AWud.react.pick ![some true, none, none, none] 1 = Finset.univ := rfl
  have p2 : AWud.react.pick ![some true, none, none, none] 2 = {0, 1} := rfl
  have p3 : AWud.react.pick ![some true, none, none, none] 3 = {0, 1} := rfl
  have E0 : AWud.react.codeE c p 0 = lightE (legA (p 0) 0 0, legS (p 0) 0 1) := rfl
  have E1 : AWud.react.codeE c p 1 = AWud.react.codeVec c p 1 := rfl
  have lc : AWud.react.lineColours 2 3 = 3 := by decide +kernel
  rw [AWud.amp2_Aplus_value, lc, s0, s1, sy]
  simp only [sumV_sum, sumJ_sum, sumW_sum, aP, p0, p1, p2, p3, E0, E1, Finset.sum_singleton, sum_two, Matrix.cons_val_zero, Matrix.cons_val_one, Matrix.cons_val, two_castSucc]
  try simp only [← Finset.mul_sum]
  push_cast
  ring

/-! ### AnWe -/

set_option maxRecDepth 8000 in
theorem AnWe.amp2_Aplus_eq (N : Env) (f : Nat → List Int → ℂ) : Cls.AnWe.m_amp2_Aplus.mean N f .r [] =
    (sumV (fun x a => (sumJ (fun x b => (x + (‖(f 0 [1, a, b])‖ ^ 2))) x)) ((0 : Nat) : ℝ)) := by rfl
set_option maxRecDepth 8000 in
theorem AnWe.amp2_Aplus_value (N : Env) : meaning N .r Cls.AnWe.methods 2 [] =
    (sumV (fun x a => (sumJ (fun x b => (x + (‖(Cls.AnWe.m_amp.mean N (callMean N []) .c [1, a, b])‖ ^ 2))) x)) ((0 : Nat) : ℝ)) :=
  AnWe.amp2_Aplus_eq N (callMean N [Cls.AnWe.m_amp2, Cls.AnWe.m_amp])

variable [FPEnv] in
/-- `amp2_Aplus` -/
theorem AnWe.amp2_Aplus_polarises : AnWe.Polarises 2 ![some true, none, none, none] := by
  refine polarises_of (D := [2, 3]) (E := [3]) (by unfold Reaction.Lights; decide) (by decide) (by simp [all, AnWe]) (by decide +kernel) (by decide) (by decide +kernel) (fun c hc hh => ⟨List.forall_mem_cons.2 ⟨hc.MW, List.forall_mem_cons.2 ⟨hc.SW, List.forall_mem_nil _⟩⟩, List.forall_mem_cons.2 ⟨hc.SW_lt, List.forall_mem_nil _⟩⟩) (fun c hc i => AnWe.mass_eq hc i) (by decide +kernel) ?_
  intro c p hc hh hw h0 hs hb hr hu
  have he : AnWe.react.ends = [3] := by decide
  have ht : AnWe.react.starts = [1] := by decide
  have hB : AnWe.react.bosons = [0, 2] := by decide
  have hWW : c.WW = 0 := hw .WW (by simp [AnWe])
  obtain ⟨n0, n1, d1, d2, wP1, wM1, am⟩ := AnWe.amps hc hh hw h0 hs hb hr hu
  have hG : AnWe.react.Gauge c p := AnWe.react.gauge_line he ht hB hh (by decide) (fun n => onShell_msq (hs n)) hb hr (fun _ _ _ _ => hWW) (fun _ => ⟨rfl, rfl⟩) (fun h => absurd h (by decide))
  refine ⟨d1, d2, hG, _, _, fun s _ => AnWe.react.state_line he ht hB (by decide) _ s, ?_⟩
  have aP : ∀ (s3 : Fin 2) (t2 : Fin 3), ‖Cls.AnWe.m_amp.mean (AnWe.N c p) (callMean (AnWe.N c p) []) .c [1, spinV t2, spinOf s3]‖ = ‖AnWe.react.bare c p 3 1 0 2 (AnWe.react.codePair c p 3 s3) (AnWe.react.codePair c p 1 0) (lightE (legA (p 0) 0 0, legS (p 0) 0 1) 1) (AnWe.react.codeVec c p 2 t2)‖ := by
    intro s3 t2
    exact (congrArg norm ((AnWe.ampP_one ..).trans (AnWe.ampP ..).symm)).trans (am s3 1 t2)
  show meaning (AnWe.N c p) .r Cls.AnWe.methods 2 [] = _
  have s0 : AnWe.react.someStates ![some true, none, none, none] 0 = 1 := by decide +kernel
  have s1 : AnWe.react.someStates ![some true, none, none, none] 1 = 1 := by decide +kernel
  have sy : AnWe.react.symmetry = 1 := by decide
  have p0 : AnWe.react.pick ![some true, none, none, none] 0 = {1} := rfl
  have p1 : AnWe.react.pick ![some true, none, none, none] 1 = {0, 1} := rfl
  have p2 : AnWe.react.pick ![some true, none, none, none] 2 = Finset.univ := rfl
  have p3 : AnWe.react.pick ![some true, none, none, none] 3 = {0, 1} := rfl
  have E0 : AnWe.react.codeE c p 0 = lightE (legA (p 0) 0 0, legS (p 0) 0 1) := rfl
  have E2 : AnWe.react.codeE c p 2 = AnWe.react.codeVec c p 2 := rfl
  have lc : AnWe.react.lineColours 3 1 = 1 := by decide +kernel
  rw [AnWe.amp2_Aplus_value, lc, s0, s1, sy]
  simp only [sumV_sum, sumJ_sum, sumW_sum, aP, p0, p1, p2, p3, E0, E2, Finset.sum_singleton, sum_two, Matrix.cons_val_zero, Matrix.cons_val_one, Matrix.cons_val, two_castSucc]
  simp only [Fin.sum_univ_two, Fin.castSucc_zero, Fin.castSucc_one, wP1, wM1, norm_zero]
  try simp only [← Finset.mul_sum]
  push_cast
  ring

/-! ### gWud -/

set_option maxRecDepth 8000 in
theorem gWud.amp2_gplus_eq (N : Env) (f : Nat → List Int → ℂ) : Cls.gWud.m_amp2_gplus.mean N f .r [] =
    ((sumV (fun x a => (sumJ (fun x b => (sumJ (fun x c => (x + (((4 : Nat) : ℝ) * (‖(f 0 [1, a, b, c])‖ ^ 2)))) x)) x)) ((0 : Nat) : ℝ)) / ((24 : Nat) : ℝ)) := by rfl
set_option maxRecDepth 8000 in
theorem gWud.amp2_gplus_value (N : Env) : meaning N .r Cls.gWud.methods 2 [] =
    ((sumV (fun x a => (sumJ (fun x b => (sumJ (fun x c => (x + (((4 : Nat) : ℝ) * (‖(Cls.gWud.m_amp.mean N (callMean N []) .c [1, a, b, c])‖ ^ 2)))) x)) x)) ((0 : Nat) : ℝ)) / ((24 : Nat) : ℝ)) :=
  gWud.amp2_gplus_eq N (callMean N [Cls.gWud.m_amp2, Cls.gWud.m_amp])

variable [FPEnv] in
/-- `amp2_gplus` -/
theorem gWud.amp2_gplus_polarises : gWud.Polarises 2 ![some true, none, none, none] := by
  refine polarises_of (D := [4, 5]) (E := [5]) (by unfold Reaction.Lights; decide) (by decide) (by simp [all, gWud]) (by decide +kernel) (by decide) (by decide +kernel) (fun c hc hh => ⟨List.forall_mem_cons.2 ⟨hc.MW, List.forall_mem_cons.2 ⟨hc.SW, List.forall_mem_nil _⟩⟩, List.forall_mem_cons.2 ⟨hc.SW_lt, List.forall_mem_nil _⟩⟩) (fun c hc i => gWud.mass_eq hc i) (by decide +kernel) ?_
  intro c p hc hh hw h0 hs hb hr hu
  have he : gWud.react.ends = [2] := by decide
  have ht : gWud.react.starts = [3] := by decide
  have hB : gWud.react.bosons = [0, 1] := by decide
  obtain ⟨n1, n2, d1, d2, am⟩ := gWud.amps hc hh h0 hs hb hr hu
  have hG : gWud.react.Gauge c p := gWud.react.gauge_line he ht hB hh (by decide) (fun n => onShell_msq (hs n)) hb hr (fun n m h h2 => absurd (And.intro h h2) (by revert n m; decide)) (fun _ => ⟨rfl, rfl⟩) (fun h => absurd h (by decide))
  refine ⟨d1, d2, hG, _, _, fun s _ => gWud.react.state_gluon 0 he ht hB (by decide) (by decide +kernel) (by decide +kernel) _ s, ?_⟩
  have aP : ∀ (s2 : Fin 2) (s3 : Fin 2) (t1 : Fin 3), ‖Cls.gWud.m_amp.mean (gWud.N c p) (callMean (gWud.N c p) []) .c [1, spinV t1, spinOf s2, spinOf s3]‖ = ‖gWud.react.bare c p 2 3 0 1 (gWud.react.codePair c p 2 s2) (gWud.react.codePair c p 3 s3) (lightE (legA (p 0) 0 0, legS (p 0) 0 1) 1) (gWud.react.codeVec c p 1 t1)‖ := by
    intro s2 s3 t1
    exact (congrArg norm ((gWud.ampP_one ..).trans (gWud.ampP ..).symm)).trans (am s2 s3 1 t1)
  show meaning (gWud.N c p) .r Cls.gWud.methods 2 [] = _
  have s0 : gWud.react.someStates ![some true, none, none, none] 0 = 8 := by decide +kernel
  have s1 : gWud.react.someStates ![some true, none, none, none] 1 = 3 := by decide +kernel
  have sy : gWud.react.symmetry = 1 := by decide
  have p0 : gWud.react.pick ![some true, none, none, none] 0 = {1} := rfl
  have p1 : gWud.react.pick ![some true, none, none, none] 1 = Finset.univ := rfl
  have p2 : gWud.react.pick ![some true, none, none, none] 2 = {0, 1} := rfl
  have p3 : gWud.react.pick ![some true, none, none, none] 3 = {0, 1} := rfl
  have E0 : gWud.react.codeE c p 0 = lightE (legA (p 0) 0 0, legS (p 0) 0 1) := rfl
  have E1 : gWud.react.codeE c p 1 = gWud.react.codeVec c p 1 := rfl
  rw [gWud.amp2_gplus_value, s0, s1, sy]
  simp only [sumV_sum, sumJ_sum, sumW_sum, aP, p0, p1, p2, p3, E0, E1, Finset.sum_singleton, sum_two, Matrix.cons_val_zero, Matrix.cons_val_one, Matrix.cons_val, two_castSucc]
  try simp only [← Finset.mul_sum]
  push_cast
  ring

end Spinas.SM.Rows
