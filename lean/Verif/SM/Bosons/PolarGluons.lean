import Verif.SM.Bosons.GluonPairs
import Verif.SM.Polar

/-! Two gluons. Generated by tools/bosons/polar.py: the methods for given helicities return the squared amplitudes of the Feynman rules. -/

set_option maxHeartbeats 1000000

namespace Spinas.SM.Rows
open Spec Spec.Reaction Props XR Matrix BRow

/-! ### ggdd -/

set_option maxRecDepth 8000 in
theorem ggdd.amp2_gplus_gplus_eq (N : Env) (f : Nat → List Int → ℂ) : Cls.ggdd.m_amp2_gplus_gplus.mean N f .r [] =
    ((sumJ (fun x a => (sumJ (fun x b => (x + (‖(f 0 [2, 2, a, b])‖ ^ 2 * ((((6 : Nat) : ℝ) / (N.r 2 * N.r 3) ^ 2 + ((6 : Nat) : ℝ) / (N.r 2 * N.r 4) ^ 2) - ((2 : Nat) : ℝ) / ((3 : Nat) : ℝ) / (N.r 3 * N.r 4) ^ 2)))) x))  ((0 : Nat) : ℝ)) / ((64 : Nat) : ℝ)) := by rfl
set_option maxRecDepth 8000 in
theorem ggdd.amp2_gplus_gplus_value (N : Env) : meaning N .r Cls.ggdd.methods 3 [] =
    ((sumJ (fun x a => (sumJ (fun x b => (x + (‖(Cls.ggdd.m_amp_Num.mean N (callMean N []) .c [2, 2, a, b])‖ ^ 2 * ((((6 : Nat) : ℝ) / (N.r 2 * N.r 3) ^ 2 + ((6 : Nat) : ℝ) / (N.r 2 * N.r 4) ^ 2) - ((2 : Nat) : ℝ) / ((3 : Nat) : ℝ) / (N.r 3 * N.r 4) ^ 2)))) x))  ((0 : Nat) : ℝ)) / ((64 : Nat) : ℝ)) :=
  ggdd.amp2_gplus_gplus_eq N (callMean N [Cls.ggdd.m_amp2, Cls.ggdd.m_amp2_Feynman, Cls.ggdd.m_amp_Num])

variable [FPEnv] in
/-- `amp2_gplus_gplus` -/
theorem ggdd.amp2_gplus_gplus_polarises : ggdd.Polarises 3 ![some true, some true, none, none] := by
  refine polarises_of (D := []) (E := []) (by unfold Reaction.Lights; decide) (by decide) (by simp [all, ggdd]) (by decide +kernel) (by decide) (by decide +kernel) (fun c hc hh => ⟨List.forall_mem_nil _, List.forall_mem_nil _⟩) (fun c hc i => ggdd.mass_eq hc i) (by decide +kernel) ?_
  intro c p hc hh hw h0 hs hb hr hu
  have he : ggdd.react.ends = [2] := by decide
  have ht : ggdd.react.starts = [3] := by decide
  have hB : ggdd.react.bosons = [0, 1] := by decide
  obtain ⟨n2, n3, n4, d0, o1, o2, am⟩ := ggdd.amps hc hh h0 hs hb hr hu
  have hd : ∀ x ∈ ggdd.proc.divides, x = (Ty.r, 2) ∨ x = (Ty.r, 3) ∨ x = (Ty.r, 4) := by decide +kernel
  have hG : ggdd.react.Gauge c p := ggdd.react.gauge_line he ht hB hh (by decide) (fun n => onShell_msq (hs n)) hb hr (fun n m h h2 => absurd (And.intro h h2) (by revert n m; decide)) (fun _ => ⟨rfl, rfl⟩) (fun _ => ⟨rfl, rfl⟩)
  refine ⟨fun n hn => ?_, fun n hn => ?_, hG, _, _, fun s hsp => ggdd.react.state_gluons he ht hB (by decide) rfl rfl rfl rfl hb hr (by decide +kernel) (by decide +kernel) hs h0 (fun _ b _ hb _ => (boson_pos hc hh hb).ne') (E := ggdd.react.codeE c p) (fun n b hl => ggdd.react.codeE_polarised hs h0 hu (fun b hb => (boson_pos hc hh hb).ne') n b hl) hsp, ?_⟩
  · rcases hd _ hn with h | h | h <;> cases h
    · exact n2
    · exact n3
    · exact n4
  · rcases hd _ hn with h | h | h <;> cases h
  have aP : ∀ (s2 s3 : Fin 2), ‖Cls.ggdd.m_amp_Num.mean (ggdd.N c p) (callMean (ggdd.N c p) []) .c [2, 2, spinOf s2, spinOf s3]‖ ^ 2 = ((ggdd.N c p).r 3 * (ggdd.N c p).r 4) ^ 2 * ‖ggdd.react.bare c p 2 3 0 1 (ggdd.react.codePair c p 2 s2) (ggdd.react.codePair c p 3 s3) (lightE (legA (p 0) 0 0, legS (p 0) 0 1) 1) (lightE (legA (p 1) 0 0, legS (p 1) 0 1) 1)‖ ^ 2 := by
    intro s2 s3
    exact am s2 s3 1 1
  show meaning (ggdd.N c p) .r Cls.ggdd.methods 3 [] = _
  have s0 : ggdd.react.someStates ![some true, some true, none, none] 0 = 8 := by decide +kernel
  have s1 : ggdd.react.someStates ![some true, some true, none, none] 1 = 8 := by decide +kernel
  have sy : ggdd.react.symmetry = 1 := by decide
  have p0 : ggdd.react.pick ![some true, some true, none, none] 0 = {1} := rfl
  have p1 : ggdd.react.pick ![some true, some true, none, none] 1 = {1} := rfl
  have p2 : ggdd.react.pick ![some true, some true, none, none] 2 = {0, 1} := rfl
  have p3 : ggdd.react.pick ![some true, some true, none, none] 3 = {0, 1} := rfl
  have E0 : ggdd.react.codeE c p 0 = lightE (legA (p 0) 0 0, legS (p 0) 0 1) := rfl
  have E1 : ggdd.react.codeE c p 1 = lightE (legA (p 1) 0 0, legS (p 1) 0 1) := rfl
  rw [ggdd.amp2_gplus_gplus_value, o1, o2, colour_weights n2 n3 n4 d0, s0, s1, sy]
  simp only [sumJ_sum, sumW_sum, aP, p0, p1, p2, p3, E0, E1, Finset.sum_singleton, sum_two, Matrix.cons_val_zero, Matrix.cons_val_one, Matrix.cons_val, two_castSucc]
  simp only [← Finset.sum_mul, ← Finset.mul_sum]
  push_cast
  ring

set_option maxRecDepth 8000 in
theorem ggdd.amp2_gplus_gminus_eq (N : Env) (f : Nat → List Int → ℂ) : Cls.ggdd.m_amp2_gplus_gminus.mean N f .r [] =
    ((sumJ (fun x a => (sumJ (fun x b => (x + (‖(f 0 [2, (-2), a, b])‖ ^ 2 * ((((6 : Nat) : ℝ) / (N.r 2 * N.r 3) ^ 2 + ((6 : Nat) : ℝ) / (N.r 2 * N.r 4) ^ 2) - ((2 : Nat) : ℝ) / ((3 : Nat) : ℝ) / (N.r 3 * N.r 4) ^ 2)))) x))  ((0 : Nat) : ℝ)) / ((64 : Nat) : ℝ)) := by rfl
set_option maxRecDepth 8000 in
theorem ggdd.amp2_gplus_gminus_value (N : Env) : meaning N .r Cls.ggdd.methods 4 [] =
    ((sumJ (fun x a => (sumJ (fun x b => (x + (‖(Cls.ggdd.m_amp_Num.mean N (callMean N []) .c [2, (-2), a, b])‖ ^ 2 * ((((6 : Nat) : ℝ) / (N.r 2 * N.r 3) ^ 2 + ((6 : Nat) : ℝ) / (N.r 2 * N.r 4) ^ 2) - ((2 : Nat) : ℝ) / ((3 : Nat) : ℝ) / (N.r 3 * N.r 4) ^ 2)))) x))  ((0 : Nat) : ℝ)) / ((64 : Nat) : ℝ)) :=
  ggdd.amp2_gplus_gminus_eq N (callMean N [Cls.ggdd.m_amp2_gplus_gplus, Cls.ggdd.m_amp2, Cls.ggdd.m_amp2_Feynman, Cls.ggdd.m_amp_Num])

variable [FPEnv] in
/-- `amp2_gplus_gminus` -/
theorem ggdd.amp2_gplus_gminus_polarises : ggdd.Polarises 4 ![some true, some false, none, none] := by
  refine polarises_of (D := []) (E := []) (by unfold Reaction.Lights; decide) (by decide) (by simp [all, ggdd]) (by decide +kernel) (by decide) (by decide +kernel) (fun c hc hh => ⟨List.forall_mem_nil _, List.forall_mem_nil _⟩) (fun c hc i => ggdd.mass_eq hc i) (by decide +kernel) ?_
  intro c p hc hh hw h0 hs hb hr hu
  have he : ggdd.react.ends = [2] := by decide
  have ht : ggdd.react.starts = [3] := by decide
  have hB : ggdd.react.bosons = [0, 1] := by decide
  obtain ⟨n2, n3, n4, d0, o1, o2, am⟩ := ggdd.amps hc hh h0 hs hb hr hu
  have hd : ∀ x ∈ ggdd.proc.divides, x = (Ty.r, 2) ∨ x = (Ty.r, 3) ∨ x = (Ty.r, 4) := by decide +kernel
  have hG : ggdd.react.Gauge c p := ggdd.react.gauge_line he ht hB hh (by decide) (fun n => onShell_msq (hs n)) hb hr (fun n m h h2 => absurd (And.intro h h2) (by revert n m; decide)) (fun _ => ⟨rfl, rfl⟩) (fun _ => ⟨rfl, rfl⟩)
  refine ⟨fun n hn => ?_, fun n hn => ?_, hG, _, _, fun s hsp => ggdd.react.state_gluons he ht hB (by decide) rfl rfl rfl rfl hb hr (by decide +kernel) (by decide +kernel) hs h0 (fun _ b _ hb _ => (boson_pos hc hh hb).ne') (E := ggdd.react.codeE c p) (fun n b hl => ggdd.react.codeE_polarised hs h0 hu (fun b hb => (boson_pos hc hh hb).ne') n b hl) hsp, ?_⟩
  · rcases hd _ hn with h | h | h <;> cases h
    · exact n2
    · exact n3
    · exact n4
  · rcases hd _ hn with h | h | h <;> cases h
  have aP : ∀ (s2 s3 : Fin 2), ‖Cls.ggdd.m_amp_Num.mean (ggdd.N c p) (callMean (ggdd.N c p) []) .c [2, (-2), spinOf s2, spinOf s3]‖ ^ 2 = ((ggdd.N c p).r 3 * (ggdd.N c p).r 4) ^ 2 * ‖ggdd.react.bare c p 2 3 0 1 (ggdd.react.codePair c p 2 s2) (ggdd.react.codePair c p 3 s3) (lightE (legA (p 0) 0 0, legS (p 0) 0 1) 1) (lightE (legA (p 1) 0 0, legS (p 1) 0 1) 0)‖ ^ 2 := by
    intro s2 s3
    exact am s2 s3 1 0
  show meaning (ggdd.N c p) .r Cls.ggdd.methods 4 [] = _
  have s0 : ggdd.react.someStates ![some true, some false, none, none] 0 = 8 := by decide +kernel
  have s1 : ggdd.react.someStates ![some true, some false, none, none] 1 = 8 := by decide +kernel
  have sy : ggdd.react.symmetry = 1 := by decide
  have p0 : ggdd.react.pick ![some true, some false, none, none] 0 = {1} := rfl
  have p1 : ggdd.react.pick ![some true, some false, none, none] 1 = {0} := rfl
  have p2 : ggdd.react.pick ![some true, some false, none, none] 2 = {0, 1} := rfl
  have p3 : ggdd.react.pick ![some true, some false, none, none] 3 = {0, 1} := rfl
  have E0 : ggdd.react.codeE c p 0 = lightE (legA (p 0) 0 0, legS (p 0) 0 1) := rfl
  have E1 : ggdd.react.codeE c p 1 = lightE (legA (p 1) 0 0, legS (p 1) 0 1) := rfl
  rw [ggdd.amp2_gplus_gminus_value, o1, o2, colour_weights n2 n3 n4 d0, s0, s1, sy]
  simp only [sumJ_sum, sumW_sum, aP, p0, p1, p2, p3, E0, E1, Finset.sum_singleton, sum_two, Matrix.cons_val_zero, Matrix.cons_val_one, Matrix.cons_val, two_castSucc]
  simp only [← Finset.sum_mul, ← Finset.mul_sum]
  push_cast
  ring

/-! ### gguu -/

set_option maxRecDepth 8000 in
theorem gguu.amp2_gplus_gplus_eq (N : Env) (f : Nat → List Int → ℂ) : Cls.gguu.m_amp2_gplus_gplus.mean N f .r [] =
    ((sumJ (fun x a => (sumJ (fun x b => (x + (‖(f 0 [2, 2, a, b])‖ ^ 2 * ((((6 : Nat) : ℝ) / (N.r 2 * N.r 3) ^ 2 + ((6 : Nat) : ℝ) / (N.r 2 * N.r 4) ^ 2) - ((2 : Nat) : ℝ) / ((3 : Nat) : ℝ) / (N.r 3 * N.r 4) ^ 2)))) x))  ((0 : Nat) : ℝ)) / ((64 : Nat) : ℝ)) := by rfl
set_option maxRecDepth 8000 in
theorem gguu.amp2_gplus_gplus_value (N : Env) : meaning N .r Cls.gguu.methods 3 [] =
    ((sumJ (fun x a => (sumJ (fun x b => (x + (‖(Cls.gguu.m_amp_Num.mean N (callMean N []) .c [2, 2, a, b])‖ ^ 2 * ((((6 : Nat) : ℝ) / (N.r 2 * N.r 3) ^ 2 + ((6 : Nat) : ℝ) / (N.r 2 * N.r 4) ^ 2) - ((2 : Nat) : ℝ) / ((3 : Nat) : ℝ) / (N.r 3 * N.r 4) ^ 2)))) x))  ((0 : Nat) : ℝ)) / ((64 : Nat) : ℝ)) :=
  gguu.amp2_gplus_gplus_eq N (callMean N [Cls.gguu.m_amp2, Cls.gguu.m_amp2_Feynman, Cls.gguu.m_amp_Num])

variable [FPEnv] in
/-- `amp2_gplus_gplus` -/
theorem gguu.amp2_gplus_gplus_polarises : gguu.Polarises 3 ![some true, some true, none, none] := by
  refine polarises_of (D := []) (E := []) (by unfold Reaction.Lights; decide) (by decide) (by simp [all, gguu]) (by decide +kernel) (by decide) (by decide +kernel) (fun c hc hh => ⟨List.forall_mem_nil _, List.forall_mem_nil _⟩) (fun c hc i => gguu.mass_eq hc i) (by decide +kernel) ?_
  intro c p hc hh hw h0 hs hb hr hu
  have he : gguu.react.ends = [2] := by decide
  have ht : gguu.react.starts = [3] := by decide
  have hB : gguu.react.bosons = [0, 1] := by decide
  obtain ⟨n2, n3, n4, d0, o1, o2, am⟩ := gguu.amps hc hh h0 hs hb hr hu
  have hd : ∀ x ∈ gguu.proc.divides, x = (Ty.r, 2) ∨ x = (Ty.r, 3) ∨ x = (Ty.r, 4) := by decide +kernel
  have hG : gguu.react.Gauge c p := gguu.react.gauge_line he ht hB hh (by decide) (fun n => onShell_msq (hs n)) hb hr (fun n m h h2 => absurd (And.intro h h2) (by revert n m; decide)) (fun _ => ⟨rfl, rfl⟩) (fun _ => ⟨rfl, rfl⟩)
  refine ⟨fun n hn => ?_, fun n hn => ?_, hG, _, _, fun s hsp => gguu.react.state_gluons he ht hB (by decide) rfl rfl rfl rfl hb hr (by decide +kernel) (by decide +kernel) hs h0 (fun _ b _ hb _ => (boson_pos hc hh hb).ne') (E := gguu.react.codeE c p) (fun n b hl => gguu.react.codeE_polarised hs h0 hu (fun b hb => (boson_pos hc hh hb).ne') n b hl) hsp, ?_⟩
  · rcases hd _ hn with h | h | h <;> cases h
    · exact n2
    · exact n3
    · exact n4
  · rcases hd _ hn with h | h | h <;> cases h
  have aP : ∀ (s2 s3 : Fin 2), ‖Cls.gguu.m_amp_Num.mean (gguu.N c p) (callMean (gguu.N c p) []) .c [2, 2, spinOf s2, spinOf s3]‖ ^ 2 = ((gguu.N c p).r 3 * (gguu.N c p).r 4) ^ 2 * ‖gguu.react.bare c p 2 3 0 1 (gguu.react.codePair c p 2 s2) (gguu.react.codePair c p 3 s3) (lightE (legA (p 0) 0 0, legS (p 0) 0 1) 1) (lightE (legA (p 1) 0 0, legS (p 1) 0 1) 1)‖ ^ 2 := by
    intro s2 s3
    exact am s2 s3 1 1
  show meaning (gguu.N c p) .r Cls.gguu.methods 3 [] = _
  have s0 : gguu.react.someStates ![some true, some true, none, none] 0 = 8 := by decide +kernel
  have s1 : gguu.react.someStates ![some true, some true, none, none] 1 = 8 := by decide +kernel
  have sy : gguu.react.symmetry = 1 := by decide
  have p0 : gguu.react.pick ![some true, some true, none, none] 0 = {1} := rfl
  have p1 : gguu.react.pick ![some true, some true, none, none] 1 = {1} := rfl
  have p2 : gguu.react.pick ![some true, some true, none, none] 2 = {0, 1} := rfl
  have p3 : gguu.react.pick ![some true, some true, none, none] 3 = {0, 1} := rfl
  have E0 : gguu.react.codeE c p 0 = lightE (legA (p 0) 0 0, legS (p 0) 0 1) := rfl
  have E1 : gguu.react.codeE c p 1 = lightE (legA (p 1) 0 0, legS (p 1) 0 1) := rfl
  rw [gguu.amp2_gplus_gplus_value, o1, o2, colour_weights n2 n3 n4 d0, s0, s1, sy]
  simp only [sumJ_sum, sumW_sum, aP, p0, p1, p2, p3, E0, E1, Finset.sum_singleton, sum_two, Matrix.cons_val_zero, Matrix.cons_val_one, Matrix.cons_val, two_castSucc]
  simp only [← Finset.sum_mul, ← Finset.mul_sum]
  push_cast
  ring

set_option maxRecDepth 8000 in
theorem gguu.amp2_gplus_gminus_eq (N : Env) (f : Nat → List Int → ℂ) : Cls.gguu.m_amp2_gplus_gminus.mean N f .r [] =
    ((sumJ (fun x a => (sumJ (fun x b => (x + (‖(f 0 [2, (-2), a, b])‖ ^ 2 * ((((6 : Nat) : ℝ) / (N.r 2 * N.r 3) ^ 2 + ((6 : Nat) : ℝ) / (N.r 2 * N.r 4) ^ 2) - ((2 : Nat) : ℝ) / ((3 : Nat) : ℝ) / (N.r 3 * N.r 4) ^ 2)))) x))  ((0 : Nat) : ℝ)) / ((64 : Nat) : ℝ)) := by rfl
set_option maxRecDepth 8000 in
theorem gguu.amp2_gplus_gminus_value (N : Env) : meaning N .r Cls.gguu.methods 4 [] =
    ((sumJ (fun x a => (sumJ (fun x b => (x + (‖(Cls.gguu.m_amp_Num.mean N (callMean N []) .c [2, (-2), a, b])‖ ^ 2 * ((((6 : Nat) : ℝ) / (N.r 2 * N.r 3) ^ 2 + ((6 : Nat) : ℝ) / (N.r 2 * N.r 4) ^ 2) - ((2 : Nat) : ℝ) / ((3 : Nat) : ℝ) / (N.r 3 * N.r 4) ^ 2)))) x))  ((0 : Nat) : ℝ)) / ((64 : Nat) : ℝ)) :=
  gguu.amp2_gplus_gminus_eq N (callMean N [Cls.gguu.m_amp2_gplus_gplus, Cls.gguu.m_amp2, Cls.gguu.m_amp2_Feynman, Cls.gguu.m_amp_Num])

variable [FPEnv] in
/-- `amp2_gplus_gminus` -/
theorem gguu.amp2_gplus_gminus_polarises : gguu.Polarises 4 ![some true, some false, none, none] := by
  refine polarises_of (D := []) (E := []) (by unfold Reaction.Lights; decide) (by decide) (by simp [all, gguu]) (by decide +kernel) (by decide) (by decide +kernel) (fun c hc hh => ⟨List.forall_mem_nil _, List.forall_mem_nil _⟩) (fun c hc i => gguu.mass_eq hc i) (by decide +kernel) ?_
  intro c p hc hh hw h0 hs hb hr hu
  have he : gguu.react.ends = [2] := by decide
  have ht : gguu.react.starts = [3] := by decide
  have hB : gguu.react.bosons = [0, 1] := by decide
  obtain ⟨n2, n3, n4, d0, o1, o2, am⟩ := gguu.amps hc hh h0 hs hb hr hu
  have hd : ∀ x ∈ gguu.proc.divides, x = (Ty.r, 2) ∨ x = (Ty.r, 3) ∨ x = (Ty.r, 4) := by decide +kernel
  have hG : gguu.react.Gauge c p := gguu.react.gauge_line he ht hB hh (by decide) (fun n => onShell_msq (hs n)) hb hr (fun n m h h2 => absurd (And.intro h h2) (by revert n m; decide)) (fun _ => ⟨rfl, rfl⟩) (fun _ => ⟨rfl, rfl⟩)
  refine ⟨fun n hn => ?_, fun n hn => ?_, hG, _, _, fun s hsp => gguu.react.state_gluons he ht hB (by decide) rfl rfl rfl rfl hb hr (by decide +kernel) (by decide +kernel) hs h0 (fun _ b _ hb _ => (boson_pos hc hh hb).ne') (E := gguu.react.codeE c p) (fun n b hl => gguu.react.codeE_polarised hs h0 hu (fun b hb => (boson_pos hc hh hb).ne') n b hl) hsp, ?_⟩
  · rcases hd _ hn with h | h | h <;> cases h
    · exact n2
    · exact n3
    · exact n4
  · rcases hd _ hn with h | h | h <;> cases h
  have aP : ∀ (s2 s3 : Fin 2), ‖Cls.gguu.m_amp_Num.mean (gguu.N c p) (callMean (gguu.N c p) []) .c [2, (-2), spinOf s2, spinOf s3]‖ ^ 2 = ((gguu.N c p).r 3 * (gguu.N c p).r 4) ^ 2 * ‖gguu.react.bare c p 2 3 0 1 (gguu.react.codePair c p 2 s2) (gguu.react.codePair c p 3 s3) (lightE (legA (p 0) 0 0, legS (p 0) 0 1) 1) (lightE (legA (p 1) 0 0, legS (p 1) 0 1) 0)‖ ^ 2 := by
    intro s2 s3
    exact am s2 s3 1 0
  show meaning (gguu.N c p) .r Cls.gguu.methods 4 [] = _
  have s0 : gguu.react.someStates ![some true, some false, none, none] 0 = 8 := by decide +kernel
  have s1 : gguu.react.someStates ![some true, some false, none, none] 1 = 8 := by decide +kernel
  have sy : gguu.react.symmetry = 1 := by decide
  have p0 : gguu.react.pick ![some true, some false, none, none] 0 = {1} := rfl
  have p1 : gguu.react.pick ![some true, some false, none, none] 1 = {0} := rfl
  have p2 : gguu.react.pick ![some true, some false, none, none] 2 = {0, 1} := rfl
  have p3 : gguu.react.pick ![some true, some false, none, none] 3 = {0, 1} := rfl
  have E0 : gguu.react.codeE c p 0 = lightE (legA (p 0) 0 0, legS (p 0) 0 1) := rfl
  have E1 : gguu.react.codeE c p 1 = lightE (legA (p 1) 0 0, legS (p 1) 0 1) := rfl
  rw [gguu.amp2_gplus_gminus_value, o1, o2, colour_weights n2 n3 n4 d0, s0, s1, sy]
  simp only [sumJ_sum, sumW_sum, aP, p0, p1, p2, p3, E0, E1, Finset.sum_singleton, sum_two, Matrix.cons_val_zero, Matrix.cons_val_one, Matrix.cons_val, two_castSucc]
  simp only [← Finset.sum_mul, ← Finset.mul_sum]
  push_cast
  ring

/-! ### dggd -/

set_option maxRecDepth 8000 in
theorem dggd.amp2_gplus_eq (N : Env) (f : Nat → List Int → ℂ) : Cls.dggd.m_amp2_gplus.mean N f .r [] =
    ((sumJ (fun x a => (sumJ (fun x b => (sumJ (fun x c => (x + (‖(f 0 [a, 2, b, c])‖ ^ 2 * ((((6 : Nat) : ℝ) / (N.r 4 * N.r 3) ^ 2 + ((6 : Nat) : ℝ) / (N.r 4 * N.r 2) ^ 2) - ((2 : Nat) : ℝ) / ((3 : Nat) : ℝ) / (N.r 3 * N.r 2) ^ 2)))) x)) x))  ((0 : Nat) : ℝ)) / ((48 : Nat) : ℝ)) := by rfl
set_option maxRecDepth 8000 in
theorem dggd.amp2_gplus_value (N : Env) : meaning N .r Cls.dggd.methods 2 [] =
    ((sumJ (fun x a => (sumJ (fun x b => (sumJ (fun x c => (x + (‖(Cls.dggd.m_amp_Num.mean N (callMean N []) .c [a, 2, b, c])‖ ^ 2 * ((((6 : Nat) : ℝ) / (N.r 4 * N.r 3) ^ 2 + ((6 : Nat) : ℝ) / (N.r 4 * N.r 2) ^ 2) - ((2 : Nat) : ℝ) / ((3 : Nat) : ℝ) / (N.r 3 * N.r 2) ^ 2)))) x)) x))  ((0 : Nat) : ℝ)) / ((48 : Nat) : ℝ)) :=
  dggd.amp2_gplus_eq N (callMean N [Cls.dggd.m_amp2, Cls.dggd.m_amp_Num])

set_option maxRecDepth 8000 in
/-- the loop gives the outgoing gluon the spins 1 and -1 in place of 2 and -2: the amplitude looks only at their signs -/
theorem dggd.ampPM_odd (N : Env) (f : Nat → List Int → ℂ) (j1 j4 : Int) : Cls.dggd.m_amp_Num.mean N f .c [j1, 2, spinOf 0, j4] = dggd.termPM N j1 j4 := by rfl
set_option maxRecDepth 8000 in
/-- the loop gives the outgoing gluon the spins 1 and -1 in place of 2 and -2: the amplitude looks only at their signs -/
theorem dggd.ampPP_odd (N : Env) (f : Nat → List Int → ℂ) (j1 j4 : Int) : Cls.dggd.m_amp_Num.mean N f .c [j1, 2, spinOf 1, j4] = dggd.termPP N j1 j4 := by rfl
variable [FPEnv] in
/-- `amp2_gplus` -/
theorem dggd.amp2_gplus_polarises : dggd.Polarises 2 ![none, some true, none, none] := by
  refine polarises_of (D := []) (E := []) (by unfold Reaction.Lights; decide) (by decide) (by simp [all, dggd]) (by decide +kernel) (by decide) (by decide +kernel) (fun c hc hh => ⟨List.forall_mem_nil _, List.forall_mem_nil _⟩) (fun c hc i => dggd.mass_eq hc i) (by decide +kernel) ?_
  intro c p hc hh hw h0 hs hb hr hu
  have he : dggd.react.ends = [3] := by decide
  have ht : dggd.react.starts = [0] := by decide
  have hB : dggd.react.bosons = [1, 2] := by decide
  obtain ⟨n2, n3, n4, d0, o1, o2, am⟩ := dggd.amps hc hh h0 hs hb hr hu
  have hd : ∀ x ∈ dggd.proc.divides, x = (Ty.r, 2) ∨ x = (Ty.r, 3) ∨ x = (Ty.r, 4) := by decide +kernel
  have hG : dggd.react.Gauge c p := dggd.react.gauge_line he ht hB hh (by decide) (fun n => onShell_msq (hs n)) hb hr (fun n m h h2 => absurd (And.intro h h2) (by revert n m; decide)) (fun _ => ⟨rfl, rfl⟩) (fun _ => ⟨rfl, rfl⟩)
  refine ⟨fun n hn => ?_, fun n hn => ?_, hG, _, _, fun s hsp => dggd.react.state_gluons he ht hB (by decide) rfl rfl rfl rfl hb hr (by decide +kernel) (by decide +kernel) hs h0 (fun _ b _ hb _ => (boson_pos hc hh hb).ne') (E := dggd.react.codeE c p) (fun n b hl => dggd.react.codeE_polarised hs h0 hu (fun b hb => (boson_pos hc hh hb).ne') n b hl) hsp, ?_⟩
  · rcases hd _ hn with h | h | h <;> cases h
    · exact n2
    · exact n3
    · exact n4
  · rcases hd _ hn with h | h | h <;> cases h
  have aP : ∀ (s0 s3 h2 : Fin 2), ‖Cls.dggd.m_amp_Num.mean (dggd.N c p) (callMean (dggd.N c p) []) .c [spinOf s0, 2, spinOf h2, spinOf s3]‖ ^ 2 = ((dggd.N c p).r 3 * (dggd.N c p).r 2) ^ 2 * ‖dggd.react.bare c p 3 0 1 2 (dggd.react.codePair c p 3 s3) (dggd.react.codePair c p 0 s0) (lightE (legA (p 1) 0 0, legS (p 1) 0 1) 1) (lightE (legA (p 2) 0 0, legS (p 2) 0 1) h2.castSucc)‖ ^ 2 := by
    intro s0 s3 h2
    match h2 with
    | 0 => exact (congrArg (‖·‖ ^ 2) ((dggd.ampPM_odd ..).trans (dggd.ampPM ..).symm)).trans (am s0 s3 1 0)
    | 1 => exact (congrArg (‖·‖ ^ 2) ((dggd.ampPP_odd ..).trans (dggd.ampPP ..).symm)).trans (am s0 s3 1 1)
  show meaning (dggd.N c p) .r Cls.dggd.methods 2 [] = _
  have s0 : dggd.react.someStates ![none, some true, none, none] 0 = 6 := by decide +kernel
  have s1 : dggd.react.someStates ![none, some true, none, none] 1 = 8 := by decide +kernel
  have sy : dggd.react.symmetry = 1 := by decide
  have p0 : dggd.react.pick ![none, some true, none, none] 0 = {0, 1} := rfl
  have p1 : dggd.react.pick ![none, some true, none, none] 1 = {1} := rfl
  have p2 : dggd.react.pick ![none, some true, none, none] 2 = {0, 1} := rfl
  have p3 : dggd.react.pick ![none, some true, none, none] 3 = {0, 1} := rfl
  have E1 : dggd.react.codeE c p 1 = lightE (legA (p 1) 0 0, legS (p 1) 0 1) := rfl
  have E2 : dggd.react.codeE c p 2 = lightE (legA (p 2) 0 0, legS (p 2) 0 1) := rfl
  rw [dggd.amp2_gplus_value, o1, o2, colour_weights n4 n3 n2 d0, s0, s1, sy]
  simp only [sumJ_sum, sumW_sum, aP, p0, p1, p2, p3, E1, E2, Finset.sum_singleton, sum_two, Matrix.cons_val_zero, Matrix.cons_val_one, Matrix.cons_val, two_castSucc]
  simp only [← Finset.sum_mul, ← Finset.mul_sum]
  push_cast
  ring

set_option maxRecDepth 8000 in
theorem dggd.amp2_gminus_eq (N : Env) (f : Nat → List Int → ℂ) : Cls.dggd.m_amp2_gminus.mean N f .r [] =
    ((sumJ (fun x a => (sumJ (fun x b => (sumJ (fun x c => (x + (‖(f 0 [a, (-2), b, c])‖ ^ 2 * ((((6 : Nat) : ℝ) / (N.r 4 * N.r 3) ^ 2 + ((6 : Nat) : ℝ) / (N.r 4 * N.r 2) ^ 2) - ((2 : Nat) : ℝ) / ((3 : Nat) : ℝ) / (N.r 3 * N.r 2) ^ 2)))) x)) x))  ((0 : Nat) : ℝ)) / ((48 : Nat) : ℝ)) := by rfl
set_option maxRecDepth 8000 in
theorem dggd.amp2_gminus_value (N : Env) : meaning N .r Cls.dggd.methods 3 [] =
    ((sumJ (fun x a => (sumJ (fun x b => (sumJ (fun x c => (x + (‖(Cls.dggd.m_amp_Num.mean N (callMean N []) .c [a, (-2), b, c])‖ ^ 2 * ((((6 : Nat) : ℝ) / (N.r 4 * N.r 3) ^ 2 + ((6 : Nat) : ℝ) / (N.r 4 * N.r 2) ^ 2) - ((2 : Nat) : ℝ) / ((3 : Nat) : ℝ) / (N.r 3 * N.r 2) ^ 2)))) x)) x))  ((0 : Nat) : ℝ)) / ((48 : Nat) : ℝ)) :=
  dggd.amp2_gminus_eq N (callMean N [Cls.dggd.m_amp2_gplus, Cls.dggd.m_amp2, Cls.dggd.m_amp_Num])

set_option maxRecDepth 8000 in
/-- the loop gives the outgoing gluon the spins 1 and -1 in place of 2 and -2: the amplitude looks only at their signs -/
theorem dggd.ampMM_odd (N : Env) (f : Nat → List Int → ℂ) (j1 j4 : Int) : Cls.dggd.m_amp_Num.mean N f .c [j1, (-2), spinOf 0, j4] = dggd.termMM N j1 j4 := by rfl
set_option maxRecDepth 8000 in
/-- the loop gives the outgoing gluon the spins 1 and -1 in place of 2 and -2: the amplitude looks only at their signs -/
theorem dggd.ampMP_odd (N : Env) (f : Nat → List Int → ℂ) (j1 j4 : Int) : Cls.dggd.m_amp_Num.mean N f .c [j1, (-2), spinOf 1, j4] = dggd.termMP N j1 j4 := by rfl
variable [FPEnv] in
/-- `amp2_gminus` -/
theorem dggd.amp2_gminus_polarises : dggd.Polarises 3 ![none, some false, none, none] := by
  refine polarises_of (D := []) (E := []) (by unfold Reaction.Lights; decide) (by decide) (by simp [all, dggd]) (by decide +kernel) (by decide) (by decide +kernel) (fun c hc hh => ⟨List.forall_mem_nil _, List.forall_mem_nil _⟩) (fun c hc i => dggd.mass_eq hc i) (by decide +kernel) ?_
  intro c p hc hh hw h0 hs hb hr hu
  have he : dggd.react.ends = [3] := by decide
  have ht : dggd.react.starts = [0] := by decide
  have hB : dggd.react.bosons = [1, 2] := by decide
  obtain ⟨n2, n3, n4, d0, o1, o2, am⟩ := dggd.amps hc hh h0 hs hb hr hu
  have hd : ∀ x ∈ dggd.proc.divides, x = (Ty.r, 2) ∨ x = (Ty.r, 3) ∨ x = (Ty.r, 4) := by decide +kernel
  have hG : dggd.react.Gauge c p := dggd.react.gauge_line he ht hB hh (by decide) (fun n => onShell_msq (hs n)) hb hr (fun n m h h2 => absurd (And.intro h h2) (by revert n m; decide)) (fun _ => ⟨rfl, rfl⟩) (fun _ => ⟨rfl, rfl⟩)
  refine ⟨fun n hn => ?_, fun n hn => ?_, hG, _, _, fun s hsp => dggd.react.state_gluons he ht hB (by decide) rfl rfl rfl rfl hb hr (by decide +kernel) (by decide +kernel) hs h0 (fun _ b _ hb _ => (boson_pos hc hh hb).ne') (E := dggd.react.codeE c p) (fun n b hl => dggd.react.codeE_polarised hs h0 hu (fun b hb => (boson_pos hc hh hb).ne') n b hl) hsp, ?_⟩
  · rcases hd _ hn with h | h | h <;> cases h
    · exact n2
    · exact n3
    · exact n4
  · rcases hd _ hn with h | h | h <;> cases h
  have aP : ∀ (s0 s3 h2 : Fin 2), ‖Cls.dggd.m_amp_Num.mean (dggd.N c p) (callMean (dggd.N c p) []) .c [spinOf s0, (-2), spinOf h2, spinOf s3]‖ ^ 2 = ((dggd.N c p).r 3 * (dggd.N c p).r 2) ^ 2 * ‖dggd.react.bare c p 3 0 1 2 (dggd.react.codePair c p 3 s3) (dggd.react.codePair c p 0 s0) (lightE (legA (p 1) 0 0, legS (p 1) 0 1) 0) (lightE (legA (p 2) 0 0, legS (p 2) 0 1) h2.castSucc)‖ ^ 2 := by
    intro s0 s3 h2
    match h2 with
    | 0 => exact (congrArg (‖·‖ ^ 2) ((dggd.ampMM_odd ..).trans (dggd.ampMM ..).symm)).trans (am s0 s3 0 0)
    | 1 => exact (congrArg (‖·‖ ^ 2) ((dggd.ampMP_odd ..).trans (dggd.ampMP ..).symm)).trans (am s0 s3 0 1)
  show meaning (dggd.N c p) .r Cls.dggd.methods 3 [] = _
  have s0 : dggd.react.someStates ![none, some false, none, none] 0 = 6 := by decide +kernel
  have s1 : dggd.react.someStates ![none, some false, none, none] 1 = 8 := by decide +kernel
  have sy : dggd.react.symmetry = 1 := by decide
  have p0 : dggd.react.pick ![none, some false, none, none] 0 = {0, 1} := rfl
  have p1 : dggd.react.pick ![none, some false, none, none] 1 = {0} := rfl
  have p2 : dggd.react.pick ![none, some false, none, none] 2 = {0, 1} := rfl
  have p3 : dggd.react.pick ![none, some false, none, none] 3 = {0, 1} := rfl
  have E1 : dggd.react.codeE c p 1 = lightE (legA (p 1) 0 0, legS (p 1) 0 1) := rfl
  have E2 : dggd.react.codeE c p 2 = lightE (legA (p 2) 0 0, legS (p 2) 0 1) := rfl
  rw [dggd.amp2_gminus_value, o1, o2, colour_weights n4 n3 n2 d0, s0, s1, sy]
  simp only [sumJ_sum, sumW_sum, aP, p0, p1, p2, p3, E1, E2, Finset.sum_singleton, sum_two, Matrix.cons_val_zero, Matrix.cons_val_one, Matrix.cons_val, two_castSucc]
  simp only [← Finset.sum_mul, ← Finset.mul_sum]
  push_cast
  ring

/-! ### gugu -/

set_option maxRecDepth 8000 in
theorem gugu.amp2_gplus_eq (N : Env) (f : Nat → List Int → ℂ) : Cls.gugu.m_amp2_gplus.mean N f .r [] =
    ((sumJ (fun x a => (sumW (fun x b => (sumJ (fun x c => (x + (‖(f 0 [2, a, b, c])‖ ^ 2 * ((((6 : Nat) : ℝ) / (N.r 3 * N.r 4) ^ 2 + ((6 : Nat) : ℝ) / (N.r 3 * N.r 2) ^ 2) - ((2 : Nat) : ℝ) / ((3 : Nat) : ℝ) / (N.r 4 * N.r 2) ^ 2)))) x)) x))  ((0 : Nat) : ℝ)) / ((48 : Nat) : ℝ)) := by rfl
set_option maxRecDepth 8000 in
theorem gugu.amp2_gplus_value (N : Env) : meaning N .r Cls.gugu.methods 2 [] =
    ((sumJ (fun x a => (sumW (fun x b => (sumJ (fun x c => (x + (‖(Cls.gugu.m_amp_Num.mean N (callMean N []) .c [2, a, b, c])‖ ^ 2 * ((((6 : Nat) : ℝ) / (N.r 3 * N.r 4) ^ 2 + ((6 : Nat) : ℝ) / (N.r 3 * N.r 2) ^ 2) - ((2 : Nat) : ℝ) / ((3 : Nat) : ℝ) / (N.r 4 * N.r 2) ^ 2)))) x)) x))  ((0 : Nat) : ℝ)) / ((48 : Nat) : ℝ)) :=
  gugu.amp2_gplus_eq N (callMean N [Cls.gugu.m_amp2, Cls.gugu.m_amp_Num])

variable [FPEnv] in
/-- `amp2_gplus` -/
theorem gugu.amp2_gplus_polarises : gugu.Polarises 2 ![some true, none, none, none] := by
  refine polarises_of (D := []) (E := []) (by unfold Reaction.Lights; decide) (by decide) (by simp [all, gugu]) (by decide +kernel) (by decide) (by decide +kernel) (fun c hc hh => ⟨List.forall_mem_nil _, List.forall_mem_nil _⟩) (fun c hc i => gugu.mass_eq hc i) (by decide +kernel) ?_
  intro c p hc hh hw h0 hs hb hr hu
  have he : gugu.react.ends = [3] := by decide
  have ht : gugu.react.starts = [1] := by decide
  have hB : gugu.react.bosons = [0, 2] := by decide
  obtain ⟨n2, n3, n4, d0, o1, o2, am⟩ := gugu.amps hc hh h0 hs hb hr hu
  have hd : ∀ x ∈ gugu.proc.divides, x = (Ty.r, 2) ∨ x = (Ty.r, 3) ∨ x = (Ty.r, 4) := by decide +kernel
  have hG : gugu.react.Gauge c p := gugu.react.gauge_line he ht hB hh (by decide) (fun n => onShell_msq (hs n)) hb hr (fun n m h h2 => absurd (And.intro h h2) (by revert n m; decide)) (fun _ => ⟨rfl, rfl⟩) (fun _ => ⟨rfl, rfl⟩)
  refine ⟨fun n hn => ?_, fun n hn => ?_, hG, _, _, fun s hsp => gugu.react.state_gluons he ht hB (by decide) rfl rfl rfl rfl hb hr (by decide +kernel) (by decide +kernel) hs h0 (fun _ b _ hb _ => (boson_pos hc hh hb).ne') (E := gugu.react.codeE c p) (fun n b hl => gugu.react.codeE_polarised hs h0 hu (fun b hb => (boson_pos hc hh hb).ne') n b hl) hsp, ?_⟩
  · rcases hd _ hn with h | h | h <;> cases h
    · exact n2
    · exact n3
    · exact n4
  · rcases hd _ hn with h | h | h <;> cases h
  have aP : ∀ (s1 s3 h2 : Fin 2), ‖Cls.gugu.m_amp_Num.mean (gugu.N c p) (callMean (gugu.N c p) []) .c [2, spinOf s1, spinW h2, spinOf s3]‖ ^ 2 = ((gugu.N c p).r 4 * (gugu.N c p).r 2) ^ 2 * ‖gugu.react.bare c p 3 1 0 2 (gugu.react.codePair c p 3 s3) (gugu.react.codePair c p 1 s1) (lightE (legA (p 0) 0 0, legS (p 0) 0 1) 1) (lightE (legA (p 2) 0 0, legS (p 2) 0 1) h2.castSucc)‖ ^ 2 := by
    intro s1 s3 h2
    exact am s1 s3 1 h2
  show meaning (gugu.N c p) .r Cls.gugu.methods 2 [] = _
  have s0 : gugu.react.someStates ![some true, none, none, none] 0 = 8 := by decide +kernel
  have s1 : gugu.react.someStates ![some true, none, none, none] 1 = 6 := by decide +kernel
  have sy : gugu.react.symmetry = 1 := by decide
  have p0 : gugu.react.pick ![some true, none, none, none] 0 = {1} := rfl
  have p1 : gugu.react.pick ![some true, none, none, none] 1 = {0, 1} := rfl
  have p2 : gugu.react.pick ![some true, none, none, none] 2 = {0, 1} := rfl
  have p3 : gugu.react.pick ![some true, none, none, none] 3 = {0, 1} := rfl
  have E0 : gugu.react.codeE c p 0 = lightE (legA (p 0) 0 0, legS (p 0) 0 1) := rfl
  have E2 : gugu.react.codeE c p 2 = lightE (legA (p 2) 0 0, legS (p 2) 0 1) := rfl
  rw [gugu.amp2_gplus_value, o1, o2, colour_weights n3 n4 n2 d0, s0, s1, sy]
  simp only [sumJ_sum, sumW_sum, aP, p0, p1, p2, p3, E0, E2, Finset.sum_singleton, sum_two, Matrix.cons_val_zero, Matrix.cons_val_one, Matrix.cons_val, two_castSucc]
  simp only [← Finset.sum_mul, ← Finset.mul_sum]
  push_cast
  ring

set_option maxRecDepth 8000 in
theorem gugu.amp2_gminus_eq (N : Env) (f : Nat → List Int → ℂ) : Cls.gugu.m_amp2_gminus.mean N f .r [] =
    ((sumJ (fun x a => (sumW (fun x b => (sumJ (fun x c => (x + (‖(f 0 [(-2), a, b, c])‖ ^ 2 * ((((6 : Nat) : ℝ) / (N.r 3 * N.r 4) ^ 2 + ((6 : Nat) : ℝ) / (N.r 3 * N.r 2) ^ 2) - ((2 : Nat) : ℝ) / ((3 : Nat) : ℝ) / (N.r 4 * N.r 2) ^ 2)))) x)) x))  ((0 : Nat) : ℝ)) / ((48 : Nat) : ℝ)) := by rfl
set_option maxRecDepth 8000 in
theorem gugu.amp2_gminus_value (N : Env) : meaning N .r Cls.gugu.methods 3 [] =
    ((sumJ (fun x a => (sumW (fun x b => (sumJ (fun x c => (x + (‖(Cls.gugu.m_amp_Num.mean N (callMean N []) .c [(-2), a, b, c])‖ ^ 2 * ((((6 : Nat) : ℝ) / (N.r 3 * N.r 4) ^ 2 + ((6 : Nat) : ℝ) / (N.r 3 * N.r 2) ^ 2) - ((2 : Nat) : ℝ) / ((3 : Nat) : ℝ) / (N.r 4 * N.r 2) ^ 2)))) x)) x))  ((0 : Nat) : ℝ)) / ((48 : Nat) : ℝ)) :=
  gugu.amp2_gminus_eq N (callMean N [Cls.gugu.m_amp2_gplus, Cls.gugu.m_amp2, Cls.gugu.m_amp_Num])

variable [FPEnv] in
/-- `amp2_gminus` -/
theorem gugu.amp2_gminus_polarises : gugu.Polarises 3 ![some false, none, none, none] := by
  refine polarises_of (D := []) (E := []) (by unfold Reaction.Lights; decide) (by decide) (by simp [all, gugu]) (by decide +kernel) (by decide) (by decide +kernel) (fun c hc hh => ⟨List.forall_mem_nil _, List.forall_mem_nil _⟩) (fun c hc i => gugu.mass_eq hc i) (by decide +kernel) ?_
  intro c p hc hh hw h0 hs hb hr hu
  have he : gugu.react.ends = [3] := by decide
  have ht : gugu.react.starts = [1] := by decide
  have hB : gugu.react.bosons = [0, 2] := by decide
  obtain ⟨n2, n3, n4, d0, o1, o2, am⟩ := gugu.amps hc hh h0 hs hb hr hu
  have hd : ∀ x ∈ gugu.proc.divides, x = (Ty.r, 2) ∨ x = (Ty.r, 3) ∨ x = (Ty.r, 4) := by decide +kernel
  have hG : gugu.react.Gauge c p := gugu.react.gauge_line he ht hB hh (by decide) (fun n => onShell_msq (hs n)) hb hr (fun n m h h2 => absurd (And.intro h h2) (by revert n m; decide)) (fun _ => ⟨rfl, rfl⟩) (fun _ => ⟨rfl, rfl⟩)
  refine ⟨fun n hn => ?_, fun n hn => ?_, hG, _, _, fun s hsp => gugu.react.state_gluons he ht hB (by decide) rfl rfl rfl rfl hb hr (by decide +kernel) (by decide +kernel) hs h0 (fun _ b _ hb _ => (boson_pos hc hh hb).ne') (E := gugu.react.codeE c p) (fun n b hl => gugu.react.codeE_polarised hs h0 hu (fun b hb => (boson_pos hc hh hb).ne') n b hl) hsp, ?_⟩
  · rcases hd _ hn with h | h | h <;> cases h
    · exact n2
    · exact n3
    · exact n4
  · rcases hd _ hn with h | h | h <;> cases h
  have aP : ∀ (s1 s3 h2 : Fin 2), ‖Cls.gugu.m_amp_Num.mean (gugu.N c p) (callMean (gugu.N c p) []) .c [(-2), spinOf s1, spinW h2, spinOf s3]‖ ^ 2 = ((gugu.N c p).r 4 * (gugu.N c p).r 2) ^ 2 * ‖gugu.react.bare c p 3 1 0 2 (gugu.react.codePair c p 3 s3) (gugu.react.codePair c p 1 s1) (lightE (legA (p 0) 0 0, legS (p 0) 0 1) 0) (lightE (legA (p 2) 0 0, legS (p 2) 0 1) h2.castSucc)‖ ^ 2 := by
    intro s1 s3 h2
    exact am s1 s3 0 h2
  show meaning (gugu.N c p) .r Cls.gugu.methods 3 [] = _
  have s0 : gugu.react.someStates ![some false, none, none, none] 0 = 8 := by decide +kernel
  have s1 : gugu.react.someStates ![some false, none, none, none] 1 = 6 := by decide +kernel
  have sy : gugu.react.symmetry = 1 := by decide
  have p0 : gugu.react.pick ![some false, none, none, none] 0 = {0} := rfl
  have p1 : gugu.react.pick ![some false, none, none, none] 1 = {0, 1} := rfl
  have p2 : gugu.react.pick ![some false, none, none, none] 2 = {0, 1} := rfl
  have p3 : gugu.react.pick ![some false, none, none, none] 3 = {0, 1} := rfl
  have E0 : gugu.react.codeE c p 0 = lightE (legA (p 0) 0 0, legS (p 0) 0 1) := rfl
  have E2 : gugu.react.codeE c p 2 = lightE (legA (p 2) 0 0, legS (p 2) 0 1) := rfl
  rw [gugu.amp2_gminus_value, o1, o2, colour_weights n3 n4 n2 d0, s0, s1, sy]
  simp only [sumJ_sum, sumW_sum, aP, p0, p1, p2, p3, E0, E2, Finset.sum_singleton, sum_two, Matrix.cons_val_zero, Matrix.cons_val_one, Matrix.cons_val, two_castSucc]
  simp only [← Finset.sum_mul, ← Finset.mul_sum]
  push_cast
  ring

end Spinas.SM.Rows
