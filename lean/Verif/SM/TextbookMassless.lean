import Verif.SM.Bosons.TextbookIn

/-! The methods `amp2_Feynman` of `ggdd` and `gguu`: the formula for quarks without mass. -/

namespace Spinas
open Spec Spec.Reaction Props Matrix
namespace SM
open XR

namespace Rows
open BRow

theorem ggdd.mean_massless (N : Env) (f : Nat → List Int → ℂ) : Method.mean N f Cls.ggdd.m_amp2_Feynman .r [] =
    ‖((N.r 0 * N.r 0 * N.r 0 * N.r 0 * (N.r 3 * N.r 3 + N.r 4 * N.r 4) * (((1 : Nat) : ℝ) / ((6 : Nat) : ℝ) / N.r 3 / N.r 4 - ((3 : Nat) : ℝ) / ((8 : Nat) : ℝ) / N.r 2 / N.r 2) : ℝ) : ℂ)‖ := rfl

variable [FPEnv] in
theorem ggdd.massless_returns : ggdd.Returns 1 ggdd.Apart fun c p => |quarkPair c.gs 0 (dot (p 0) (p 2)) (dot (p 0) (p 3))| := by
  refine returns_of (by simp [all, ggdd]) (by decide +kernel) (by decide +kernel) (fun _ hc i => ggdd.mass_eq hc i) (by decide +kernel) fun c p hc hh h0 hs hb ha => ?_
  obtain ⟨h1, h2, -⟩ := ggdd.closed hc hh h0 hs hb ha
  refine ⟨h1, h2, ?_⟩
  have q0 : msq (p 0) = (0 : ℝ) ^ 2 := onShell_msq (hs 0)
  have q1 : msq (p 1) = (0 : ℝ) ^ 2 := onShell_msq (hs 1)
  have q2 : msq (p 2) = (c.mass .d) ^ 2 := onShell_msq (hs 2)
  have q3 : msq (p 3) = (c.mass .d) ^ 2 := onShell_msq (hs 3)
  obtain ⟨k1, k2, k3, k4⟩ := dots_in hb q0 q1 q2 q3
  obtain ⟨z1, z2, z3⟩ := ha
  have KM' : (0 : ℝ) ^ 2 + (c.mass .d) ^ 2 = (c.mass .d) ^ 2 := by ring
  have KM0 : (0 : ℝ) ^ 2 + (0 : ℝ) ^ 2 = ((0 : Nat) : ℝ) ^ 2 := by norm_num
  have e2 : (ggdd.N c p).r 2 = (2 * dot (p 0) (p 1)) := by
    have : (ggdd.N c p).r 2 = (poleDist ((0 : Nat) : ℝ) ((0 : Nat) : ℝ) ((VExp.add 0 1).sum p)).re := rfl
    rw [this, pole_add q0 q1 KM0, Complex.ofReal_re]
  have e3 : (ggdd.N c p).r 3 = -(2 * dot (p 0) (p 2)) := by
    have : (ggdd.N c p).r 3 = (poleDist (c.mass .d) ((0 : Nat) : ℝ) ((VExp.sub 0 2).sum p)).re := rfl
    rw [this, pole_sub q0 q2 KM', Complex.ofReal_re]
  have e4 : (ggdd.N c p).r 4 = -(2 * dot (p 0) (p 3)) := by
    have : (ggdd.N c p).r 4 = (poleDist (c.mass .d) ((0 : Nat) : ℝ) ((VExp.sub 0 3).sum p)).re := rfl
    rw [this, pole_sub q0 q3 KM', Complex.ofReal_re]
  have r0 : (ggdd.N c p).r 0 = c.gs := rfl
  show Method.mean (ggdd.N c p) (callMean (ggdd.N c p) [Cls.ggdd.m_amp_Num]) Cls.ggdd.m_amp2_Feynman .r [] = _
  rw [ggdd.mean_massless, Complex.norm_real, Real.norm_eq_abs, e2, e3, e4, r0]
  congr 1
  rw [k3] at z3 ⊢
  simp only [quarkPair]
  generalize dot (p 0) (p 2) = a at *
  generalize dot (p 0) (p 3) = b at *
  push_cast
  field_simp
  ring

theorem gguu.mean_massless (N : Env) (f : Nat → List Int → ℂ) : Method.mean N f Cls.gguu.m_amp2_Feynman .r [] =
    ‖((N.r 0 * N.r 0 * N.r 0 * N.r 0 * (N.r 3 * N.r 3 + N.r 4 * N.r 4) * (((1 : Nat) : ℝ) / ((6 : Nat) : ℝ) / N.r 3 / N.r 4 - ((3 : Nat) : ℝ) / ((8 : Nat) : ℝ) / N.r 2 / N.r 2) : ℝ) : ℂ)‖ := rfl

variable [FPEnv] in
theorem gguu.massless_returns : gguu.Returns 1 gguu.Apart fun c p => |quarkPair c.gs 0 (dot (p 0) (p 2)) (dot (p 0) (p 3))| := by
  refine returns_of (by simp [all, gguu]) (by decide +kernel) (by decide +kernel) (fun _ hc i => gguu.mass_eq hc i) (by decide +kernel) fun c p hc hh h0 hs hb ha => ?_
  obtain ⟨h1, h2, -⟩ := gguu.closed hc hh h0 hs hb ha
  refine ⟨h1, h2, ?_⟩
  have q0 : msq (p 0) = (0 : ℝ) ^ 2 := onShell_msq (hs 0)
  have q1 : msq (p 1) = (0 : ℝ) ^ 2 := onShell_msq (hs 1)
  have q2 : msq (p 2) = (c.mass .u) ^ 2 := onShell_msq (hs 2)
  have q3 : msq (p 3) = (c.mass .u) ^ 2 := onShell_msq (hs 3)
  obtain ⟨k1, k2, k3, k4⟩ := dots_in hb q0 q1 q2 q3
  obtain ⟨z1, z2, z3⟩ := ha
  have KM' : (0 : ℝ) ^ 2 + (c.mass .u) ^ 2 = (c.mass .u) ^ 2 := by ring
  have KM0 : (0 : ℝ) ^ 2 + (0 : ℝ) ^ 2 = ((0 : Nat) : ℝ) ^ 2 := by norm_num
  have e2 : (gguu.N c p).r 2 = (2 * dot (p 0) (p 1)) := by
    have : (gguu.N c p).r 2 = (poleDist ((0 : Nat) : ℝ) ((0 : Nat) : ℝ) ((VExp.add 0 1).sum p)).re := rfl
    rw [this, pole_add q0 q1 KM0, Complex.ofReal_re]
  have e3 : (gguu.N c p).r 3 = -(2 * dot (p 0) (p 2)) := by
    have : (gguu.N c p).r 3 = (poleDist (c.mass .u) ((0 : Nat) : ℝ) ((VExp.sub 0 2).sum p)).re := rfl
    rw [this, pole_sub q0 q2 KM', Complex.ofReal_re]
  have e4 : (gguu.N c p).r 4 = -(2 * dot (p 0) (p 3)) := by
    have : (gguu.N c p).r 4 = (poleDist (c.mass .u) ((0 : Nat) : ℝ) ((VExp.sub 0 3).sum p)).re := rfl
    rw [this, pole_sub q0 q3 KM', Complex.ofReal_re]
  have r0 : (gguu.N c p).r 0 = c.gs := rfl
  show Method.mean (gguu.N c p) (callMean (gguu.N c p) [Cls.gguu.m_amp_Num]) Cls.gguu.m_amp2_Feynman .r [] = _
  rw [gguu.mean_massless, Complex.norm_real, Real.norm_eq_abs, e2, e3, e4, r0]
  congr 1
  rw [k3] at z3 ⊢
  simp only [quarkPair]
  generalize dot (p 0) (p 2) = a at *
  generalize dot (p 0) (p 3) = b at *
  push_cast
  field_simp
  ring

end Rows
end SM
end Spinas
