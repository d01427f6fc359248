import Verif.SM.Textbook
import Verif.SM.Bosons.PhotonsOut

/-! Written by tools/bosons/textbook.py: two photons from a pair in closed form. -/

namespace Spinas
open Spec Spec.Reaction Props Matrix
namespace SM
open XR
variable [FPEnv]
namespace Rows
open BRow
set_option linter.unusedSimpArgs false
set_option linter.unusedVariables false
set_option linter.unreachableTactic false
set_option linter.unusedTactic false
set_option maxHeartbeats 1000000

/-- `eeAA`: the momenta are off the poles -/
def eeAA.Apart (p : Nat → V4 ℝ) : Prop := dot (p 0) (p 2) ≠ 0 ∧ dot (p 0) (p 3) ≠ 0
/-- `eeAA`: the formula of textbooks -/
noncomputable def eeAA.textbook (c : Constants) (p : Nat → V4 ℝ) : ℝ := c.e ^ 4 / 2 * breitWheeler (c.mass .e) (dot (p 0) (p 2)) (dot (p 0) (p 3))

theorem eeAA.closed {c : Constants} {p : Nat → V4 ℝ} (hc : c.Physical) (hh : c.Heavy) (h0 : ∀ i, 0 ≤ eeAA.react.mass c i) (hs : ∀ i : Fin 4, OnShell (p i) (eeAA.react.mass c i)) (hb : Balanced p) (ha : eeAA.Apart p) :
    (∀ n, (Ty.r, n) ∈ eeAA.proc.divides → (eeAA.N c p).r n ≠ 0) ∧ (∀ n, (Ty.c, n) ∈ eeAA.proc.divides → (eeAA.N c p).c n ≠ 0) ∧ meaning (eeAA.N c p) .r Cls.eeAA.methods Cls.eeAA.amp2 [] = eeAA.textbook c p := by
  have q0 : msq (p 0) = (c.mass .e) ^ 2 := onShell_msq (hs 0)
  have q1 : msq (p 1) = (c.mass .e) ^ 2 := onShell_msq (hs 1)
  have q2 : msq (p 2) = (0 : ℝ) ^ 2 := onShell_msq (hs 2)
  have q3 : msq (p 3) = (0 : ℝ) ^ 2 := onShell_msq (hs 3)
  have g0 : Grams (p 0) (c.mass .e) (legA (p 0) (c.mass .e)) (legS (p 0) (c.mass .e)) := legs_grams (hs 0) (h0 0)
  have m0 : eeAA.react.mass c 0 ≠ 0 := (leg_pos hc hh (by decide)).ne'
  have g1 : Grams (p 1) (c.mass .e) (legA (p 1) (c.mass .e)) (legS (p 1) (c.mass .e)) := legs_grams (hs 1) (h0 1)
  have m1 : eeAA.react.mass c 1 ≠ 0 := (leg_pos hc hh (by decide)).ne'
  have y2 : Ray (p 2) (legA (p 2) 0 0, legS (p 2) 0 1) := ray_code (hs 2)
  have m2 : eeAA.react.mass c 2 = 0 := rfl
  have y3 : Ray (p 3) (legA (p 3) 0 0, legS (p 3) 0 1) := ray_code (hs 3)
  have m3 : eeAA.react.mass c 3 = 0 := rfl
  obtain ⟨k1, k2, k3, k4⟩ := dots_out hb q0 q1 q2 q3
  obtain ⟨z1, z2⟩ := ha
  have KM : (c.mass .e) ^ 2 + (0 : ℝ) ^ 2 = (c.mass .e) ^ 2 := by ring
  have KM' : (0 : ℝ) ^ 2 + (c.mass .e) ^ 2 = (c.mass .e) ^ 2 := by ring
  have KM0 : (0 : ℝ) ^ 2 + (0 : ℝ) ^ 2 = ((0 : Nat) : ℝ) ^ 2 := by norm_num
  have c0 : (eeAA.N c p).c 0 = ((-(2 * dot (p 0) (p 2)) : ℝ) : ℂ) := pole_sub q0 q2 KM
  have n0 : (-(2 * dot (p 0) (p 2)) : ℝ) ≠ 0 := by
    try simp only [dot_comm (p 1) (p 0), dot_comm (p 2) (p 0), dot_comm (p 2) (p 1), dot_comm (p 3) (p 0), dot_comm (p 3) (p 1), dot_comm (p 3) (p 2), k1, k2, k3, k4]
    first | exact mul_ne_zero two_ne_zero z1 | exact mul_ne_zero two_ne_zero z2 | exact neg_ne_zero.2 (mul_ne_zero two_ne_zero z1) | exact neg_ne_zero.2 (mul_ne_zero two_ne_zero z2)
  have c1 : (eeAA.N c p).c 1 = ((-(2 * dot (p 0) (p 3)) : ℝ) : ℂ) := pole_sub q0 q3 KM
  have n1 : (-(2 * dot (p 0) (p 3)) : ℝ) ≠ 0 := by
    try simp only [dot_comm (p 1) (p 0), dot_comm (p 2) (p 0), dot_comm (p 2) (p 1), dot_comm (p 3) (p 0), dot_comm (p 3) (p 1), dot_comm (p 3) (p 2), k1, k2, k3, k4]
    first | exact mul_ne_zero two_ne_zero z1 | exact mul_ne_zero two_ne_zero z2 | exact neg_ne_zero.2 (mul_ne_zero two_ne_zero z1) | exact neg_ne_zero.2 (mul_ne_zero two_ne_zero z2)
  have r0 : (eeAA.N c p).r 0 = c.e := rfl
  have r1 : (eeAA.N c p).r 1 = (c.mass .e) := rfl
  have hd : ∀ v ∈ eeAA.proc.divides, v = (Ty.c, 0) ∨ v = (Ty.c, 1) := by decide +kernel
  have SPP : ∑ s, ∑ s', ‖eeAA.termPP (eeAA.N c p) (spinOf s) (spinOf s')‖ ^ 2 = 
      (((((2 : Nat) : ℝ) * (eeAA.N c p).r 0) * (eeAA.N c p).r 0) * (eeAA.N c p).r 1) ^ 2 * (2 * dot (p 2) (p 3)) ^ 2 / ((-(2 * dot (p 0) (p 3))) ^ 2 * (-(2 * dot (p 0) (p 2))) ^ 2) * (2 * dot (p 0) (p 1)) := by
    have a1 := y2.sb_norm y3
    have a3 := g0.ab_norm g1
    rw [← a3, Finset.mul_sum]
    refine Finset.sum_congr rfl fun s _ => ?_
    rw [Finset.mul_sum]
    refine Finset.sum_congr rfl fun s' _ => ?_
    have v0 : (eeAA.N c p).v 0 [] = sb (legA (p 2) 0 0, legS (p 2) 0 1).2 (legA (p 3) 0 0, legS (p 3) 0 1).2 := bra_square (p := p) (m := eeAA.proc.massNum (eeAA.rho c)) (eeAA.mass_eq hc 2) (eeAA.mass_eq hc 3) (.inr ⟨m2, rfl⟩) (.inr ⟨m3, rfl⟩)
    have v3 : (eeAA.N c p).v 3 [spinOf s, spinOf s'] = ab (legA (p 0) (c.mass .e) s) (legA (p 1) (c.mass .e) s') := bra_angle (p := p) (m := eeAA.proc.massNum (eeAA.rho c)) (eeAA.mass_eq hc 0) (eeAA.mass_eq hc 1) (.inl ⟨m0, rfl⟩) (.inl ⟨m1, rfl⟩)
    simp only [eeAA.termPP, v0, v3]
    simp only [c0, c1]
    simp only [norm_mul, norm_div, Complex.norm_real, Real.norm_eq_abs, mul_pow, div_pow, sq_abs] at a1 ⊢
    rw [a1]
    ring
  have SPM : ∑ s, ∑ s', ‖eeAA.termPM (eeAA.N c p) (spinOf s) (spinOf s')‖ ^ 2 = 
      ((((2 : Nat) : ℝ) * (eeAA.N c p).r 0) * (eeAA.N c p).r 0) ^ 2 * (2 * dot (p 2) (p 0) * (2 * dot (p 3) (p 0)) - msq (p 0) * (2 * dot (p 2) (p 3))) / ((-(2 * dot (p 0) (p 3))) ^ 2 * (-(2 * dot (p 0) (p 2))) ^ 2) * (2 * dot (p 2) (p 0) * (2 * dot (p 3) (p 1)) + (1 : ℝ) ^ 2 * (2 * dot (p 2) (p 1) * (2 * dot (p 3) (p 0))) + 2 * (1 : ℝ) * ((c.mass .e) * (c.mass .e)) * (2 * dot (p 2) (p 3))) := by
    have a1 := y2.mb_norm y3 (p 0)
    have a3 := y2.unlike y3 g0 g1 (1)
    have a2 : ∀ s s', ‖((sb (legS (p 0) (c.mass .e) s) (legA (p 2) 0 0, legS (p 2) 0 1).2) * (ab (legA (p 1) (c.mass .e) s') (legA (p 3) 0 0, legS (p 3) 0 1).1)) + ((sb (legS (p 1) (c.mass .e) s') (legA (p 2) 0 0, legS (p 2) 0 1).2) * (ab (legA (p 0) (c.mass .e) s) (legA (p 3) 0 0, legS (p 3) 0 1).1))‖ = ‖sb (legA (p 2) 0 0, legS (p 2) 0 1).2 (legS (p 0) (c.mass .e) s) * ab (legA (p 3) 0 0, legS (p 3) 0 1).1 (legA (p 1) (c.mass .e) s') + ((1 : ℝ) : ℂ) * (sb (legA (p 2) 0 0, legS (p 2) 0 1).2 (legS (p 1) (c.mass .e) s') * ab (legA (p 3) 0 0, legS (p 3) 0 1).1 (legA (p 0) (c.mass .e) s))‖ := by
      intro s s'
      first
        | (congr 1; simp only [sb, ab]; push_cast; ring1)
        | (rw [← norm_neg]; congr 1; simp only [sb, ab]; push_cast; ring1)
    rw [← a3, Finset.mul_sum]
    refine Finset.sum_congr rfl fun s _ => ?_
    rw [Finset.mul_sum]
    refine Finset.sum_congr rfl fun s' _ => ?_
    have v4 : (eeAA.N c p).v 4 [spinOf s] = sb (legS (p 0) (c.mass .e) s) (legA (p 2) 0 0, legS (p 2) 0 1).2 := bra_square (p := p) (m := eeAA.proc.massNum (eeAA.rho c)) (eeAA.mass_eq hc 0) (eeAA.mass_eq hc 2) (.inl ⟨m0, rfl⟩) (.inr ⟨m2, rfl⟩)
    have v7 : (eeAA.N c p).v 7 [spinOf s'] = ab (legA (p 1) (c.mass .e) s') (legA (p 3) 0 0, legS (p 3) 0 1).1 := bra_angle (p := p) (m := eeAA.proc.massNum (eeAA.rho c)) (eeAA.mass_eq hc 1) (eeAA.mass_eq hc 3) (.inl ⟨m1, rfl⟩) (.inr ⟨m3, rfl⟩)
    have v8 : (eeAA.N c p).v 8 [spinOf s'] = sb (legS (p 1) (c.mass .e) s') (legA (p 2) 0 0, legS (p 2) 0 1).2 := bra_square (p := p) (m := eeAA.proc.massNum (eeAA.rho c)) (eeAA.mass_eq hc 1) (eeAA.mass_eq hc 2) (.inl ⟨m1, rfl⟩) (.inr ⟨m2, rfl⟩)
    have v11 : (eeAA.N c p).v 11 [spinOf s] = ab (legA (p 0) (c.mass .e) s) (legA (p 3) 0 0, legS (p 3) 0 1).1 := bra_angle (p := p) (m := eeAA.proc.massNum (eeAA.rho c)) (eeAA.mass_eq hc 0) (eeAA.mass_eq hc 3) (.inl ⟨m0, rfl⟩) (.inr ⟨m3, rfl⟩)
    have v12 : (eeAA.N c p).v 12 [] = mb (legA (p 2) 0 0, legS (p 2) 0 1).2 (p 0) (legA (p 3) 0 0, legS (p 3) 0 1).1 := bra_mid_square (p := p) (m := eeAA.proc.massNum (eeAA.rho c)) (eeAA.mass_eq hc 2) (eeAA.mass_eq hc 3) (.inr ⟨m2, rfl⟩) (.inr ⟨m3, rfl⟩)
    simp only [eeAA.termPM, v4, v7, v8, v11, v12]
    simp only [c0, c1]
    simp only [norm_mul, norm_div, Complex.norm_real, Real.norm_eq_abs, mul_pow, div_pow, sq_abs, a2]
    rw [a1]
    ring
  have SMP : ∑ s, ∑ s', ‖eeAA.termMP (eeAA.N c p) (spinOf s) (spinOf s')‖ ^ 2 = 
      ((((2 : Nat) : ℝ) * (eeAA.N c p).r 0) * (eeAA.N c p).r 0) ^ 2 * (2 * dot (p 3) (p 0) * (2 * dot (p 2) (p 0)) - msq (p 0) * (2 * dot (p 3) (p 2))) / ((-(2 * dot (p 0) (p 3))) ^ 2 * (-(2 * dot (p 0) (p 2))) ^ 2) * (2 * dot (p 3) (p 0) * (2 * dot (p 2) (p 1)) + (1 : ℝ) ^ 2 * (2 * dot (p 3) (p 1) * (2 * dot (p 2) (p 0))) + 2 * (1 : ℝ) * ((c.mass .e) * (c.mass .e)) * (2 * dot (p 3) (p 2))) := by
    have a1 := y3.mb_norm y2 (p 0)
    have a3 := y3.unlike y2 g0 g1 (1)
    have a2 : ∀ s s', ‖((ab (legA (p 0) (c.mass .e) s) (legA (p 2) 0 0, legS (p 2) 0 1).1) * (sb (legS (p 1) (c.mass .e) s') (legA (p 3) 0 0, legS (p 3) 0 1).2)) + ((ab (legA (p 1) (c.mass .e) s') (legA (p 2) 0 0, legS (p 2) 0 1).1) * (sb (legS (p 0) (c.mass .e) s) (legA (p 3) 0 0, legS (p 3) 0 1).2))‖ = ‖sb (legA (p 3) 0 0, legS (p 3) 0 1).2 (legS (p 0) (c.mass .e) s) * ab (legA (p 2) 0 0, legS (p 2) 0 1).1 (legA (p 1) (c.mass .e) s') + ((1 : ℝ) : ℂ) * (sb (legA (p 3) 0 0, legS (p 3) 0 1).2 (legS (p 1) (c.mass .e) s') * ab (legA (p 2) 0 0, legS (p 2) 0 1).1 (legA (p 0) (c.mass .e) s))‖ := by
      intro s s'
      first
        | (congr 1; simp only [sb, ab]; push_cast; ring1)
        | (rw [← norm_neg]; congr 1; simp only [sb, ab]; push_cast; ring1)
    rw [← a3, Finset.mul_sum]
    refine Finset.sum_congr rfl fun s _ => ?_
    rw [Finset.mul_sum]
    refine Finset.sum_congr rfl fun s' _ => ?_
    have v5 : (eeAA.N c p).v 5 [spinOf s] = ab (legA (p 0) (c.mass .e) s) (legA (p 2) 0 0, legS (p 2) 0 1).1 := bra_angle (p := p) (m := eeAA.proc.massNum (eeAA.rho c)) (eeAA.mass_eq hc 0) (eeAA.mass_eq hc 2) (.inl ⟨m0, rfl⟩) (.inr ⟨m2, rfl⟩)
    have v6 : (eeAA.N c p).v 6 [spinOf s'] = sb (legS (p 1) (c.mass .e) s') (legA (p 3) 0 0, legS (p 3) 0 1).2 := bra_square (p := p) (m := eeAA.proc.massNum (eeAA.rho c)) (eeAA.mass_eq hc 1) (eeAA.mass_eq hc 3) (.inl ⟨m1, rfl⟩) (.inr ⟨m3, rfl⟩)
    have v9 : (eeAA.N c p).v 9 [spinOf s'] = ab (legA (p 1) (c.mass .e) s') (legA (p 2) 0 0, legS (p 2) 0 1).1 := bra_angle (p := p) (m := eeAA.proc.massNum (eeAA.rho c)) (eeAA.mass_eq hc 1) (eeAA.mass_eq hc 2) (.inl ⟨m1, rfl⟩) (.inr ⟨m2, rfl⟩)
    have v10 : (eeAA.N c p).v 10 [spinOf s] = sb (legS (p 0) (c.mass .e) s) (legA (p 3) 0 0, legS (p 3) 0 1).2 := bra_square (p := p) (m := eeAA.proc.massNum (eeAA.rho c)) (eeAA.mass_eq hc 0) (eeAA.mass_eq hc 3) (.inl ⟨m0, rfl⟩) (.inr ⟨m3, rfl⟩)
    have v13 : (eeAA.N c p).v 13 [] = mb (legA (p 3) 0 0, legS (p 3) 0 1).2 (p 0) (legA (p 2) 0 0, legS (p 2) 0 1).1 := bra_mid_square (p := p) (m := eeAA.proc.massNum (eeAA.rho c)) (eeAA.mass_eq hc 3) (eeAA.mass_eq hc 2) (.inr ⟨m3, rfl⟩) (.inr ⟨m2, rfl⟩)
    simp only [eeAA.termMP, v5, v6, v9, v10, v13]
    simp only [c0, c1]
    simp only [norm_mul, norm_div, Complex.norm_real, Real.norm_eq_abs, mul_pow, div_pow, sq_abs, a2]
    rw [a1]
    ring
  have SMM : ∑ s, ∑ s', ‖eeAA.termMM (eeAA.N c p) (spinOf s) (spinOf s')‖ ^ 2 = 
      (((((2 : Nat) : ℝ) * (eeAA.N c p).r 0) * (eeAA.N c p).r 0) * (eeAA.N c p).r 1) ^ 2 * (2 * dot (p 2) (p 3)) ^ 2 / ((-(2 * dot (p 0) (p 3))) ^ 2 * (-(2 * dot (p 0) (p 2))) ^ 2) * (2 * dot (p 0) (p 1)) := by
    have a1 := y2.ab_norm y3
    have a3 := g0.sb_norm g1
    rw [← a3, Finset.mul_sum]
    refine Finset.sum_congr rfl fun s _ => ?_
    rw [Finset.mul_sum]
    refine Finset.sum_congr rfl fun s' _ => ?_
    have v1 : (eeAA.N c p).v 1 [] = ab (legA (p 2) 0 0, legS (p 2) 0 1).1 (legA (p 3) 0 0, legS (p 3) 0 1).1 := bra_angle (p := p) (m := eeAA.proc.massNum (eeAA.rho c)) (eeAA.mass_eq hc 2) (eeAA.mass_eq hc 3) (.inr ⟨m2, rfl⟩) (.inr ⟨m3, rfl⟩)
    have v2 : (eeAA.N c p).v 2 [spinOf s, spinOf s'] = sb (legS (p 0) (c.mass .e) s) (legS (p 1) (c.mass .e) s') := bra_square (p := p) (m := eeAA.proc.massNum (eeAA.rho c)) (eeAA.mass_eq hc 0) (eeAA.mass_eq hc 1) (.inl ⟨m0, rfl⟩) (.inl ⟨m1, rfl⟩)
    simp only [eeAA.termMM, v1, v2]
    simp only [c0, c1]
    simp only [norm_mul, norm_div, Complex.norm_real, Real.norm_eq_abs, mul_pow, div_pow, sq_abs] at a1 ⊢
    rw [a1]
    ring
  refine ⟨fun n hn => ?_, fun n hn => ?_, ?_⟩
  · rcases hd _ hn with h | h <;> cases h
  · rcases hd _ hn with h | h <;> cases h
    · rw [c0]; exact Complex.ofReal_ne_zero.2 n0
    · rw [c1]; exact Complex.ofReal_ne_zero.2 n1
  rw [eeAA.value]
  simp only [sumW, sumJ]
  have u0 : spinOf 0 = -1 := rfl
  have u1 : spinOf 1 = 1 := rfl
  rw [Fin.sum_univ_two, Fin.sum_univ_two, Fin.sum_univ_two, u0, u1] at SPP SPM SMP SMM
  simp only [eeAA.ampPP, eeAA.ampPM, eeAA.ampMP, eeAA.ampMM]
  have T : ∀ {s0 s1 s2 s3 a0 a1 a2 a3 b0 b1 b2 b3 d0 d1 d2 d3 x y z v W : ℝ}, s0 + s1 + (s2 + s3) = x → a0 + a1 + (a2 + a3) = y → b0 + b1 + (b2 + b3) = z → d0 + d1 + (d2 + d3) = v →
      s0 * W + s1 * W + s2 * W + s3 * W + a0 * W + a1 * W + a2 * W + a3 * W + b0 * W + b1 * W + b2 * W + b3 * W + d0 * W + d1 * W + d2 * W + d3 * W = (x + y + z + v) * W := by
    intros; subst_vars; ring
  have T' := T SPP SPM SMP SMM (W := (1 : ℝ))
  refine (congrArg (· / ((8 : Nat) : ℝ)) (Eq.trans ?_ T')).trans ?_
  · push_cast; ring
  clear T' SPP SPM SMP SMM
  simp only [eeAA.textbook, r0, r1, q0, q1]
  simp only [kleinNishina, breitWheeler, dot_comm (p 1) (p 0), dot_comm (p 2) (p 0), dot_comm (p 2) (p 1), dot_comm (p 3) (p 0), dot_comm (p 3) (p 1), dot_comm (p 3) (p 2), k1, k2, k3, k4]
  generalize dot (p 0) (p 2) = a at *
  generalize dot (p 0) (p 3) = b at *
  generalize c.mass .e = m at *
  push_cast
  field_simp
  ring

theorem eeAA.returns : eeAA.Returns eeAA.proc.amp2 eeAA.Apart eeAA.textbook :=
  returns_of (by simp [all, eeAA]) (by decide +kernel) (by decide +kernel) (fun _ hc i => eeAA.mass_eq hc i) (by decide +kernel) fun _ _ hc hh h0 hs hb ha => eeAA.closed hc hh h0 hs hb ha

/-- `uuAA`: the momenta are off the poles -/
def uuAA.Apart (p : Nat → V4 ℝ) : Prop := dot (p 0) (p 2) ≠ 0 ∧ dot (p 0) (p 3) ≠ 0
/-- `uuAA`: the formula of textbooks -/
noncomputable def uuAA.textbook (c : Constants) (p : Nat → V4 ℝ) : ℝ := (2 / 3 * c.e) ^ 4 / 6 * breitWheeler (c.mass .u) (dot (p 0) (p 2)) (dot (p 0) (p 3))

theorem uuAA.closed {c : Constants} {p : Nat → V4 ℝ} (hc : c.Physical) (hh : c.Heavy) (h0 : ∀ i, 0 ≤ uuAA.react.mass c i) (hs : ∀ i : Fin 4, OnShell (p i) (uuAA.react.mass c i)) (hb : Balanced p) (ha : uuAA.Apart p) :
    (∀ n, (Ty.r, n) ∈ uuAA.proc.divides → (uuAA.N c p).r n ≠ 0) ∧ (∀ n, (Ty.c, n) ∈ uuAA.proc.divides → (uuAA.N c p).c n ≠ 0) ∧ meaning (uuAA.N c p) .r Cls.uuAA.methods Cls.uuAA.amp2 [] = uuAA.textbook c p := by
  have q0 : msq (p 0) = (c.mass .u) ^ 2 := onShell_msq (hs 0)
  have q1 : msq (p 1) = (c.mass .u) ^ 2 := onShell_msq (hs 1)
  have q2 : msq (p 2) = (0 : ℝ) ^ 2 := onShell_msq (hs 2)
  have q3 : msq (p 3) = (0 : ℝ) ^ 2 := onShell_msq (hs 3)
  have g0 : Grams (p 0) (c.mass .u) (legA (p 0) (c.mass .u)) (legS (p 0) (c.mass .u)) := legs_grams (hs 0) (h0 0)
  have m0 : uuAA.react.mass c 0 ≠ 0 := (leg_pos hc hh (by decide)).ne'
  have g1 : Grams (p 1) (c.mass .u) (legA (p 1) (c.mass .u)) (legS (p 1) (c.mass .u)) := legs_grams (hs 1) (h0 1)
  have m1 : uuAA.react.mass c 1 ≠ 0 := (leg_pos hc hh (by decide)).ne'
  have y2 : Ray (p 2) (legA (p 2) 0 0, legS (p 2) 0 1) := ray_code (hs 2)
  have m2 : uuAA.react.mass c 2 = 0 := rfl
  have y3 : Ray (p 3) (legA (p 3) 0 0, legS (p 3) 0 1) := ray_code (hs 3)
  have m3 : uuAA.react.mass c 3 = 0 := rfl
  obtain ⟨k1, k2, k3, k4⟩ := dots_out hb q0 q1 q2 q3
  obtain ⟨z1, z2⟩ := ha
  have KM : (c.mass .u) ^ 2 + (0 : ℝ) ^ 2 = (c.mass .u) ^ 2 := by ring
  have KM' : (0 : ℝ) ^ 2 + (c.mass .u) ^ 2 = (c.mass .u) ^ 2 := by ring
  have KM0 : (0 : ℝ) ^ 2 + (0 : ℝ) ^ 2 = ((0 : Nat) : ℝ) ^ 2 := by norm_num
  have c0 : (uuAA.N c p).c 0 = ((-(2 * dot (p 0) (p 2)) : ℝ) : ℂ) := pole_sub q0 q2 KM
  have n0 : (-(2 * dot (p 0) (p 2)) : ℝ) ≠ 0 := by
    try simp only [dot_comm (p 1) (p 0), dot_comm (p 2) (p 0), dot_comm (p 2) (p 1), dot_comm (p 3) (p 0), dot_comm (p 3) (p 1), dot_comm (p 3) (p 2), k1, k2, k3, k4]
    first | exact mul_ne_zero two_ne_zero z1 | exact mul_ne_zero two_ne_zero z2 | exact neg_ne_zero.2 (mul_ne_zero two_ne_zero z1) | exact neg_ne_zero.2 (mul_ne_zero two_ne_zero z2)
  have c1 : (uuAA.N c p).c 1 = ((-(2 * dot (p 0) (p 3)) : ℝ) : ℂ) := pole_sub q0 q3 KM
  have n1 : (-(2 * dot (p 0) (p 3)) : ℝ) ≠ 0 := by
    try simp only [dot_comm (p 1) (p 0), dot_comm (p 2) (p 0), dot_comm (p 2) (p 1), dot_comm (p 3) (p 0), dot_comm (p 3) (p 1), dot_comm (p 3) (p 2), k1, k2, k3, k4]
    first | exact mul_ne_zero two_ne_zero z1 | exact mul_ne_zero two_ne_zero z2 | exact neg_ne_zero.2 (mul_ne_zero two_ne_zero z1) | exact neg_ne_zero.2 (mul_ne_zero two_ne_zero z2)
  have r0 : (uuAA.N c p).r 0 = c.e := rfl
  have r1 : (uuAA.N c p).r 1 = (((2 : Nat) : ℝ) / ((3 : Nat) : ℝ)) := rfl
  have r2 : (uuAA.N c p).r 2 = (c.mass .u) := rfl
  have hd : ∀ v ∈ uuAA.proc.divides, v = (Ty.c, 0) ∨ v = (Ty.c, 1) := by decide +kernel
  have SPP : ∑ s, ∑ s', ‖uuAA.termPP (uuAA.N c p) (spinOf s) (spinOf s')‖ ^ 2 = 
      (((((((2 : Nat) : ℝ) * (uuAA.N c p).r 0) * (uuAA.N c p).r 0) * (uuAA.N c p).r 1) * (uuAA.N c p).r 1) * (uuAA.N c p).r 2) ^ 2 * (2 * dot (p 2) (p 3)) ^ 2 / ((-(2 * dot (p 0) (p 3))) ^ 2 * (-(2 * dot (p 0) (p 2))) ^ 2) * (2 * dot (p 0) (p 1)) := by
    have a1 := y2.sb_norm y3
    have a3 := g0.ab_norm g1
    rw [← a3, Finset.mul_sum]
    refine Finset.sum_congr rfl fun s _ => ?_
    rw [Finset.mul_sum]
    refine Finset.sum_congr rfl fun s' _ => ?_
    have v0 : (uuAA.N c p).v 0 [] = sb (legA (p 2) 0 0, legS (p 2) 0 1).2 (legA (p 3) 0 0, legS (p 3) 0 1).2 := bra_square (p := p) (m := uuAA.proc.massNum (uuAA.rho c)) (uuAA.mass_eq hc 2) (uuAA.mass_eq hc 3) (.inr ⟨m2, rfl⟩) (.inr ⟨m3, rfl⟩)
    have v3 : (uuAA.N c p).v 3 [spinOf s, spinOf s'] = ab (legA (p 0) (c.mass .u) s) (legA (p 1) (c.mass .u) s') := bra_angle (p := p) (m := uuAA.proc.massNum (uuAA.rho c)) (uuAA.mass_eq hc 0) (uuAA.mass_eq hc 1) (.inl ⟨m0, rfl⟩) (.inl ⟨m1, rfl⟩)
    simp only [uuAA.termPP, v0, v3]
    simp only [c0, c1]
    simp only [norm_mul, norm_div, Complex.norm_real, Real.norm_eq_abs, mul_pow, div_pow, sq_abs] at a1 ⊢
    rw [a1]
    ring
  have SPM : ∑ s, ∑ s', ‖uuAA.termPM (uuAA.N c p) (spinOf s) (spinOf s')‖ ^ 2 = 
      ((((((2 : Nat) : ℝ) * (uuAA.N c p).r 0) * (uuAA.N c p).r 0) * (uuAA.N c p).r 1) * (uuAA.N c p).r 1) ^ 2 * (2 * dot (p 2) (p 0) * (2 * dot (p 3) (p 0)) - msq (p 0) * (2 * dot (p 2) (p 3))) / ((-(2 * dot (p 0) (p 3))) ^ 2 * (-(2 * dot (p 0) (p 2))) ^ 2) * (2 * dot (p 2) (p 0) * (2 * dot (p 3) (p 1)) + (1 : ℝ) ^ 2 * (2 * dot (p 2) (p 1) * (2 * dot (p 3) (p 0))) + 2 * (1 : ℝ) * ((c.mass .u) * (c.mass .u)) * (2 * dot (p 2) (p 3))) := by
    have a1 := y2.mb_norm y3 (p 0)
    have a3 := y2.unlike y3 g0 g1 (1)
    have a2 : ∀ s s', ‖((sb (legS (p 0) (c.mass .u) s) (legA (p 2) 0 0, legS (p 2) 0 1).2) * (ab (legA (p 1) (c.mass .u) s') (legA (p 3) 0 0, legS (p 3) 0 1).1)) + ((sb (legS (p 1) (c.mass .u) s') (legA (p 2) 0 0, legS (p 2) 0 1).2) * (ab (legA (p 0) (c.mass .u) s) (legA (p 3) 0 0, legS (p 3) 0 1).1))‖ = ‖sb (legA (p 2) 0 0, legS (p 2) 0 1).2 (legS (p 0) (c.mass .u) s) * ab (legA (p 3) 0 0, legS (p 3) 0 1).1 (legA (p 1) (c.mass .u) s') + ((1 : ℝ) : ℂ) * (sb (legA (p 2) 0 0, legS (p 2) 0 1).2 (legS (p 1) (c.mass .u) s') * ab (legA (p 3) 0 0, legS (p 3) 0 1).1 (legA (p 0) (c.mass .u) s))‖ := by
      intro s s'
      first
        | (congr 1; simp only [sb, ab]; push_cast; ring1)
        | (rw [← norm_neg]; congr 1; simp only [sb, ab]; push_cast; ring1)
    rw [← a3, Finset.mul_sum]
    refine Finset.sum_congr rfl fun s _ => ?_
    rw [Finset.mul_sum]
    refine Finset.sum_congr rfl fun s' _ => ?_
    have v4 : (uuAA.N c p).v 4 [spinOf s] = sb (legS (p 0) (c.mass .u) s) (legA (p 2) 0 0, legS (p 2) 0 1).2 := bra_square (p := p) (m := uuAA.proc.massNum (uuAA.rho c)) (uuAA.mass_eq hc 0) (uuAA.mass_eq hc 2) (.inl ⟨m0, rfl⟩) (.inr ⟨m2, rfl⟩)
    have v7 : (uuAA.N c p).v 7 [spinOf s'] = ab (legA (p 1) (c.mass .u) s') (legA (p 3) 0 0, legS (p 3) 0 1).1 := bra_angle (p := p) (m := uuAA.proc.massNum (uuAA.rho c)) (uuAA.mass_eq hc 1) (uuAA.mass_eq hc 3) (.inl ⟨m1, rfl⟩) (.inr ⟨m3, rfl⟩)
    have v8 : (uuAA.N c p).v 8 [spinOf s'] = sb (legS (p 1) (c.mass .u) s') (legA (p 2) 0 0, legS (p 2) 0 1).2 := bra_square (p := p) (m := uuAA.proc.massNum (uuAA.rho c)) (uuAA.mass_eq hc 1) (uuAA.mass_eq hc 2) (.inl ⟨m1, rfl⟩) (.inr ⟨m2, rfl⟩)
    have v11 : (uuAA.N c p).v 11 [spinOf s] = ab (legA (p 0) (c.mass .u) s) (legA (p 3) 0 0, legS (p 3) 0 1).1 := bra_angle (p := p) (m := uuAA.proc.massNum (uuAA.rho c)) (uuAA.mass_eq hc 0) (uuAA.mass_eq hc 3) (.inl ⟨m0, rfl⟩) (.inr ⟨m3, rfl⟩)
    have v12 : (uuAA.N c p).v 12 [] = mb (legA (p 2) 0 0, legS (p 2) 0 1).2 (p 0) (legA (p 3) 0 0, legS (p 3) 0 1).1 := bra_mid_square (p := p) (m := uuAA.proc.massNum (uuAA.rho c)) (uuAA.mass_eq hc 2) (uuAA.mass_eq hc 3) (.inr ⟨m2, rfl⟩) (.inr ⟨m3, rfl⟩)
    simp only [uuAA.termPM, v4, v7, v8, v11, v12]
    simp only [c0, c1]
    simp only [norm_mul, norm_div, Complex.norm_real, Real.norm_eq_abs, mul_pow, div_pow, sq_abs, a2]
    rw [a1]
    ring
  have SMP : ∑ s, ∑ s', ‖uuAA.termMP (uuAA.N c p) (spinOf s) (spinOf s')‖ ^ 2 = 
      ((((((2 : Nat) : ℝ) * (uuAA.N c p).r 0) * (uuAA.N c p).r 0) * (uuAA.N c p).r 1) * (uuAA.N c p).r 1) ^ 2 * (2 * dot (p 3) (p 0) * (2 * dot (p 2) (p 0)) - msq (p 0) * (2 * dot (p 3) (p 2))) / ((-(2 * dot (p 0) (p 3))) ^ 2 * (-(2 * dot (p 0) (p 2))) ^ 2) * (2 * dot (p 3) (p 0) * (2 * dot (p 2) (p 1)) + (1 : ℝ) ^ 2 * (2 * dot (p 3) (p 1) * (2 * dot (p 2) (p 0))) + 2 * (1 : ℝ) * ((c.mass .u) * (c.mass .u)) * (2 * dot (p 3) (p 2))) := by
    have a1 := y3.mb_norm y2 (p 0)
    have a3 := y3.unlike y2 g0 g1 (1)
    have a2 : ∀ s s', ‖((ab (legA (p 0) (c.mass .u) s) (legA (p 2) 0 0, legS (p 2) 0 1).1) * (sb (legS (p 1) (c.mass .u) s') (legA (p 3) 0 0, legS (p 3) 0 1).2)) + ((ab (legA (p 1) (c.mass .u) s') (legA (p 2) 0 0, legS (p 2) 0 1).1) * (sb (legS (p 0) (c.mass .u) s) (legA (p 3) 0 0, legS (p 3) 0 1).2))‖ = ‖sb (legA (p 3) 0 0, legS (p 3) 0 1).2 (legS (p 0) (c.mass .u) s) * ab (legA (p 2) 0 0, legS (p 2) 0 1).1 (legA (p 1) (c.mass .u) s') + ((1 : ℝ) : ℂ) * (sb (legA (p 3) 0 0, legS (p 3) 0 1).2 (legS (p 1) (c.mass .u) s') * ab (legA (p 2) 0 0, legS (p 2) 0 1).1 (legA (p 0) (c.mass .u) s))‖ := by
      intro s s'
      first
        | (congr 1; simp only [sb, ab]; push_cast; ring1)
        | (rw [← norm_neg]; congr 1; simp only [sb, ab]; push_cast; ring1)
    rw [← a3, Finset.mul_sum]
    refine Finset.sum_congr rfl fun s _ => ?_
    rw [Finset.mul_sum]
    refine Finset.sum_congr rfl fun s' _ => ?_
    have v5 : (uuAA.N c p).v 5 [spinOf s] = ab (legA (p 0) (c.mass .u) s) (legA (p 2) 0 0, legS (p 2) 0 1).1 := bra_angle (p := p) (m := uuAA.proc.massNum (uuAA.rho c)) (uuAA.mass_eq hc 0) (uuAA.mass_eq hc 2) (.inl ⟨m0, rfl⟩) (.inr ⟨m2, rfl⟩)
    have v6 : (uuAA.N c p).v 6 [spinOf s'] = sb (legS (p 1) (c.mass .u) s') (legA (p 3) 0 0, legS (p 3) 0 1).2 := bra_square (p := p) (m := uuAA.proc.massNum (uuAA.rho c)) (uuAA.mass_eq hc 1) (uuAA.mass_eq hc 3) (.inl ⟨m1, rfl⟩) (.inr ⟨m3, rfl⟩)
    have v9 : (uuAA.N c p).v 9 [spinOf s'] = ab (legA (p 1) (c.mass .u) s') (legA (p 2) 0 0, legS (p 2) 0 1).1 := bra_angle (p := p) (m := uuAA.proc.massNum (uuAA.rho c)) (uuAA.mass_eq hc 1) (uuAA.mass_eq hc 2) (.inl ⟨m1, rfl⟩) (.inr ⟨m2, rfl⟩)
    have v10 : (uuAA.N c p).v 10 [spinOf s] = sb (legS (p 0) (c.mass .u) s) (legA (p 3) 0 0, legS (p 3) 0 1).2 := bra_square (p := p) (m := uuAA.proc.massNum (uuAA.rho c)) (uuAA.mass_eq hc 0) (uuAA.mass_eq hc 3) (.inl ⟨m0, rfl⟩) (.inr ⟨m3, rfl⟩)
    have v13 : (uuAA.N c p).v 13 [] = mb (legA (p 3) 0 0, legS (p 3) 0 1).2 (p 0) (legA (p 2) 0 0, legS (p 2) 0 1).1 := bra_mid_square (p := p) (m := uuAA.proc.massNum (uuAA.rho c)) (uuAA.mass_eq hc 3) (uuAA.mass_eq hc 2) (.inr ⟨m3, rfl⟩) (.inr ⟨m2, rfl⟩)
    simp only [uuAA.termMP, v5, v6, v9, v10, v13]
    simp only [c0, c1]
    simp only [norm_mul, norm_div, Complex.norm_real, Real.norm_eq_abs, mul_pow, div_pow, sq_abs, a2]
    rw [a1]
    ring
  have SMM : ∑ s, ∑ s', ‖uuAA.termMM (uuAA.N c p) (spinOf s) (spinOf s')‖ ^ 2 = 
      (((((((2 : Nat) : ℝ) * (uuAA.N c p).r 0) * (uuAA.N c p).r 0) * (uuAA.N c p).r 1) * (uuAA.N c p).r 1) * (uuAA.N c p).r 2) ^ 2 * (2 * dot (p 2) (p 3)) ^ 2 / ((-(2 * dot (p 0) (p 3))) ^ 2 * (-(2 * dot (p 0) (p 2))) ^ 2) * (2 * dot (p 0) (p 1)) := by
    have a1 := y2.ab_norm y3
    have a3 := g0.sb_norm g1
    rw [← a3, Finset.mul_sum]
    refine Finset.sum_congr rfl fun s _ => ?_
    rw [Finset.mul_sum]
    refine Finset.sum_congr rfl fun s' _ => ?_
    have v1 : (uuAA.N c p).v 1 [] = ab (legA (p 2) 0 0, legS (p 2) 0 1).1 (legA (p 3) 0 0, legS (p 3) 0 1).1 := bra_angle (p := p) (m := uuAA.proc.massNum (uuAA.rho c)) (uuAA.mass_eq hc 2) (uuAA.mass_eq hc 3) (.inr ⟨m2, rfl⟩) (.inr ⟨m3, rfl⟩)
    have v2 : (uuAA.N c p).v 2 [spinOf s, spinOf s'] = sb (legS (p 0) (c.mass .u) s) (legS (p 1) (c.mass .u) s') := bra_square (p := p) (m := uuAA.proc.massNum (uuAA.rho c)) (uuAA.mass_eq hc 0) (uuAA.mass_eq hc 1) (.inl ⟨m0, rfl⟩) (.inl ⟨m1, rfl⟩)
    simp only [uuAA.termMM, v1, v2]
    simp only [c0, c1]
    simp only [norm_mul, norm_div, Complex.norm_real, Real.norm_eq_abs, mul_pow, div_pow, sq_abs] at a1 ⊢
    rw [a1]
    ring
  refine ⟨fun n hn => ?_, fun n hn => ?_, ?_⟩
  · rcases hd _ hn with h | h <;> cases h
  · rcases hd _ hn with h | h <;> cases h
    · rw [c0]; exact Complex.ofReal_ne_zero.2 n0
    · rw [c1]; exact Complex.ofReal_ne_zero.2 n1
  rw [uuAA.value]
  simp only [sumW, sumJ]
  have u0 : spinOf 0 = -1 := rfl
  have u1 : spinOf 1 = 1 := rfl
  rw [Fin.sum_univ_two, Fin.sum_univ_two, Fin.sum_univ_two, u0, u1] at SPP SPM SMP SMM
  simp only [uuAA.ampPP, uuAA.ampPM, uuAA.ampMP, uuAA.ampMM]
  have T : ∀ {s0 s1 s2 s3 a0 a1 a2 a3 b0 b1 b2 b3 d0 d1 d2 d3 x y z v W : ℝ}, s0 + s1 + (s2 + s3) = x → a0 + a1 + (a2 + a3) = y → b0 + b1 + (b2 + b3) = z → d0 + d1 + (d2 + d3) = v →
      s0 * W + s1 * W + s2 * W + s3 * W + a0 * W + a1 * W + a2 * W + a3 * W + b0 * W + b1 * W + b2 * W + b3 * W + d0 * W + d1 * W + d2 * W + d3 * W = (x + y + z + v) * W := by
    intros; subst_vars; ring
  have T' := T SPP SPM SMP SMM (W := ((3 : Nat) : ℝ))
  refine (congrArg (· / ((72 : Nat) : ℝ)) (Eq.trans ?_ T')).trans ?_
  · push_cast; ring
  clear T' SPP SPM SMP SMM
  simp only [uuAA.textbook, r0, r1, r2, q0, q1]
  simp only [kleinNishina, breitWheeler, dot_comm (p 1) (p 0), dot_comm (p 2) (p 0), dot_comm (p 2) (p 1), dot_comm (p 3) (p 0), dot_comm (p 3) (p 1), dot_comm (p 3) (p 2), k1, k2, k3, k4]
  generalize dot (p 0) (p 2) = a at *
  generalize dot (p 0) (p 3) = b at *
  generalize c.mass .u = m at *
  push_cast
  field_simp
  ring

theorem uuAA.returns : uuAA.Returns uuAA.proc.amp2 uuAA.Apart uuAA.textbook :=
  returns_of (by simp [all, uuAA]) (by decide +kernel) (by decide +kernel) (fun _ hc i => uuAA.mass_eq hc i) (by decide +kernel) fun _ _ hc hh h0 hs hb ha => uuAA.closed hc hh h0 hs hb ha

/-- `ddAA`: the momenta are off the poles -/
def ddAA.Apart (p : Nat → V4 ℝ) : Prop := dot (p 0) (p 2) ≠ 0 ∧ dot (p 0) (p 3) ≠ 0
/-- `ddAA`: the formula of textbooks -/
noncomputable def ddAA.textbook (c : Constants) (p : Nat → V4 ℝ) : ℝ := (1 / 3 * c.e) ^ 4 / 6 * breitWheeler (c.mass .d) (dot (p 0) (p 2)) (dot (p 0) (p 3))

theorem ddAA.closed {c : Constants} {p : Nat → V4 ℝ} (hc : c.Physical) (hh : c.Heavy) (h0 : ∀ i, 0 ≤ ddAA.react.mass c i) (hs : ∀ i : Fin 4, OnShell (p i) (ddAA.react.mass c i)) (hb : Balanced p) (ha : ddAA.Apart p) :
    (∀ n, (Ty.r, n) ∈ ddAA.proc.divides → (ddAA.N c p).r n ≠ 0) ∧ (∀ n, (Ty.c, n) ∈ ddAA.proc.divides → (ddAA.N c p).c n ≠ 0) ∧ meaning (ddAA.N c p) .r Cls.ddAA.methods Cls.ddAA.amp2 [] = ddAA.textbook c p := by
  have q0 : msq (p 0) = (c.mass .d) ^ 2 := onShell_msq (hs 0)
  have q1 : msq (p 1) = (c.mass .d) ^ 2 := onShell_msq (hs 1)
  have q2 : msq (p 2) = (0 : ℝ) ^ 2 := onShell_msq (hs 2)
  have q3 : msq (p 3) = (0 : ℝ) ^ 2 := onShell_msq (hs 3)
  have g0 : Grams (p 0) (c.mass .d) (legA (p 0) (c.mass .d)) (legS (p 0) (c.mass .d)) := legs_grams (hs 0) (h0 0)
  have m0 : ddAA.react.mass c 0 ≠ 0 := (leg_pos hc hh (by decide)).ne'
  have g1 : Grams (p 1) (c.mass .d) (legA (p 1) (c.mass .d)) (legS (p 1) (c.mass .d)) := legs_grams (hs 1) (h0 1)
  have m1 : ddAA.react.mass c 1 ≠ 0 := (leg_pos hc hh (by decide)).ne'
  have y2 : Ray (p 2) (legA (p 2) 0 0, legS (p 2) 0 1) := ray_code (hs 2)
  have m2 : ddAA.react.mass c 2 = 0 := rfl
  have y3 : Ray (p 3) (legA (p 3) 0 0, legS (p 3) 0 1) := ray_code (hs 3)
  have m3 : ddAA.react.mass c 3 = 0 := rfl
  obtain ⟨k1, k2, k3, k4⟩ := dots_out hb q0 q1 q2 q3
  obtain ⟨z1, z2⟩ := ha
  have KM : (c.mass .d) ^ 2 + (0 : ℝ) ^ 2 = (c.mass .d) ^ 2 := by ring
  have KM' : (0 : ℝ) ^ 2 + (c.mass .d) ^ 2 = (c.mass .d) ^ 2 := by ring
  have KM0 : (0 : ℝ) ^ 2 + (0 : ℝ) ^ 2 = ((0 : Nat) : ℝ) ^ 2 := by norm_num
  have c0 : (ddAA.N c p).c 0 = ((-(2 * dot (p 0) (p 2)) : ℝ) : ℂ) := pole_sub q0 q2 KM
  have n0 : (-(2 * dot (p 0) (p 2)) : ℝ) ≠ 0 := by
    try simp only [dot_comm (p 1) (p 0), dot_comm (p 2) (p 0), dot_comm (p 2) (p 1), dot_comm (p 3) (p 0), dot_comm (p 3) (p 1), dot_comm (p 3) (p 2), k1, k2, k3, k4]
    first | exact mul_ne_zero two_ne_zero z1 | exact mul_ne_zero two_ne_zero z2 | exact neg_ne_zero.2 (mul_ne_zero two_ne_zero z1) | exact neg_ne_zero.2 (mul_ne_zero two_ne_zero z2)
  have c1 : (ddAA.N c p).c 1 = ((-(2 * dot (p 0) (p 3)) : ℝ) : ℂ) := pole_sub q0 q3 KM
  have n1 : (-(2 * dot (p 0) (p 3)) : ℝ) ≠ 0 := by
    try simp only [dot_comm (p 1) (p 0), dot_comm (p 2) (p 0), dot_comm (p 2) (p 1), dot_comm (p 3) (p 0), dot_comm (p 3) (p 1), dot_comm (p 3) (p 2), k1, k2, k3, k4]
    first | exact mul_ne_zero two_ne_zero z1 | exact mul_ne_zero two_ne_zero z2 | exact neg_ne_zero.2 (mul_ne_zero two_ne_zero z1) | exact neg_ne_zero.2 (mul_ne_zero two_ne_zero z2)
  have r0 : (ddAA.N c p).r 0 = c.e := rfl
  have r1 : (ddAA.N c p).r 1 = ((-((1 : Nat) : ℝ)) / ((3 : Nat) : ℝ)) := rfl
  have r2 : (ddAA.N c p).r 2 = (c.mass .d) := rfl
  have hd : ∀ v ∈ ddAA.proc.divides, v = (Ty.c, 0) ∨ v = (Ty.c, 1) := by decide +kernel
  have SPP : ∑ s, ∑ s', ‖ddAA.termPP (ddAA.N c p) (spinOf s) (spinOf s')‖ ^ 2 = 
      (((((((2 : Nat) : ℝ) * (ddAA.N c p).r 0) * (ddAA.N c p).r 0) * (ddAA.N c p).r 1) * (ddAA.N c p).r 1) * (ddAA.N c p).r 2) ^ 2 * (2 * dot (p 2) (p 3)) ^ 2 / ((-(2 * dot (p 0) (p 3))) ^ 2 * (-(2 * dot (p 0) (p 2))) ^ 2) * (2 * dot (p 0) (p 1)) := by
    have a1 := y2.sb_norm y3
    have a3 := g0.ab_norm g1
    rw [← a3, Finset.mul_sum]
    refine Finset.sum_congr rfl fun s _ => ?_
    rw [Finset.mul_sum]
    refine Finset.sum_congr rfl fun s' _ => ?_
    have v0 : (ddAA.N c p).v 0 [] = sb (legA (p 2) 0 0, legS (p 2) 0 1).2 (legA (p 3) 0 0, legS (p 3) 0 1).2 := bra_square (p := p) (m := ddAA.proc.massNum (ddAA.rho c)) (ddAA.mass_eq hc 2) (ddAA.mass_eq hc 3) (.inr ⟨m2, rfl⟩) (.inr ⟨m3, rfl⟩)
    have v3 : (ddAA.N c p).v 3 [spinOf s, spinOf s'] = ab (legA (p 0) (c.mass .d) s) (legA (p 1) (c.mass .d) s') := bra_angle (p := p) (m := ddAA.proc.massNum (ddAA.rho c)) (ddAA.mass_eq hc 0) (ddAA.mass_eq hc 1) (.inl ⟨m0, rfl⟩) (.inl ⟨m1, rfl⟩)
    simp only [ddAA.termPP, v0, v3]
    simp only [c0, c1]
    simp only [norm_mul, norm_div, Complex.norm_real, Real.norm_eq_abs, mul_pow, div_pow, sq_abs] at a1 ⊢
    rw [a1]
    ring
  have SPM : ∑ s, ∑ s', ‖ddAA.termPM (ddAA.N c p) (spinOf s) (spinOf s')‖ ^ 2 = 
      ((((((2 : Nat) : ℝ) * (ddAA.N c p).r 0) * (ddAA.N c p).r 0) * (ddAA.N c p).r 1) * (ddAA.N c p).r 1) ^ 2 * (2 * dot (p 2) (p 0) * (2 * dot (p 3) (p 0)) - msq (p 0) * (2 * dot (p 2) (p 3))) / ((-(2 * dot (p 0) (p 3))) ^ 2 * (-(2 * dot (p 0) (p 2))) ^ 2) * (2 * dot (p 2) (p 0) * (2 * dot (p 3) (p 1)) + (1 : ℝ) ^ 2 * (2 * dot (p 2) (p 1) * (2 * dot (p 3) (p 0))) + 2 * (1 : ℝ) * ((c.mass .d) * (c.mass .d)) * (2 * dot (p 2) (p 3))) := by
    have a1 := y2.mb_norm y3 (p 0)
    have a3 := y2.unlike y3 g0 g1 (1)
    have a2 : ∀ s s', ‖((sb (legS (p 0) (c.mass .d) s) (legA (p 2) 0 0, legS (p 2) 0 1).2) * (ab (legA (p 1) (c.mass .d) s') (legA (p 3) 0 0, legS (p 3) 0 1).1)) + ((sb (legS (p 1) (c.mass .d) s') (legA (p 2) 0 0, legS (p 2) 0 1).2) * (ab (legA (p 0) (c.mass .d) s) (legA (p 3) 0 0, legS (p 3) 0 1).1))‖ = ‖sb (legA (p 2) 0 0, legS (p 2) 0 1).2 (legS (p 0) (c.mass .d) s) * ab (legA (p 3) 0 0, legS (p 3) 0 1).1 (legA (p 1) (c.mass .d) s') + ((1 : ℝ) : ℂ) * (sb (legA (p 2) 0 0, legS (p 2) 0 1).2 (legS (p 1) (c.mass .d) s') * ab (legA (p 3) 0 0, legS (p 3) 0 1).1 (legA (p 0) (c.mass .d) s))‖ := by
      intro s s'
      first
        | (congr 1; simp only [sb, ab]; push_cast; ring1)
        | (rw [← norm_neg]; congr 1; simp only [sb, ab]; push_cast; ring1)
    rw [← a3, Finset.mul_sum]
    refine Finset.sum_congr rfl fun s _ => ?_
    rw [Finset.mul_sum]
    refine Finset.sum_congr rfl fun s' _ => ?_
    have v4 : (ddAA.N c p).v 4 [spinOf s] = sb (legS (p 0) (c.mass .d) s) (legA (p 2) 0 0, legS (p 2) 0 1).2 := bra_square (p := p) (m := ddAA.proc.massNum (ddAA.rho c)) (ddAA.mass_eq hc 0) (ddAA.mass_eq hc 2) (.inl ⟨m0, rfl⟩) (.inr ⟨m2, rfl⟩)
    have v7 : (ddAA.N c p).v 7 [spinOf s'] = ab (legA (p 1) (c.mass .d) s') (legA (p 3) 0 0, legS (p 3) 0 1).1 := bra_angle (p := p) (m := ddAA.proc.massNum (ddAA.rho c)) (ddAA.mass_eq hc 1) (ddAA.mass_eq hc 3) (.inl ⟨m1, rfl⟩) (.inr ⟨m3, rfl⟩)
    have v8 : (ddAA.N c p).v 8 [spinOf s'] = sb (legS (p 1) (c.mass .d) s') (legA (p 2) 0 0, legS (p 2) 0 1).2 := bra_square (p := p) (m := ddAA.proc.massNum (ddAA.rho c)) (ddAA.mass_eq hc 1) (ddAA.mass_eq hc 2) (.inl ⟨m1, rfl⟩) (.inr ⟨m2, rfl⟩)
    have v11 : (ddAA.N c p).v 11 [spinOf s] = ab (legA (p 0) (c.mass .d) s) (legA (p 3) 0 0, legS (p 3) 0 1).1 := bra_angle (p := p) (m := ddAA.proc.massNum (ddAA.rho c)) (ddAA.mass_eq hc 0) (ddAA.mass_eq hc 3) (.inl ⟨m0, rfl⟩) (.inr ⟨m3, rfl⟩)
    have v12 : (ddAA.N c p).v 12 [] = mb (legA (p 2) 0 0, legS (p 2) 0 1).2 (p 0) (legA (p 3) 0 0, legS (p 3) 0 1).1 := bra_mid_square (p := p) (m := ddAA.proc.massNum (ddAA.rho c)) (ddAA.mass_eq hc 2) (ddAA.mass_eq hc 3) (.inr ⟨m2, rfl⟩) (.inr ⟨m3, rfl⟩)
    simp only [ddAA.termPM, v4, v7, v8, v11, v12]
    simp only [c0, c1]
    simp only [norm_mul, norm_div, Complex.norm_real, Real.norm_eq_abs, mul_pow, div_pow, sq_abs, a2]
    rw [a1]
    ring
  have SMP : ∑ s, ∑ s', ‖ddAA.termMP (ddAA.N c p) (spinOf s) (spinOf s')‖ ^ 2 = 
      ((((((2 : Nat) : ℝ) * (ddAA.N c p).r 0) * (ddAA.N c p).r 0) * (ddAA.N c p).r 1) * (ddAA.N c p).r 1) ^ 2 * (2 * dot (p 3) (p 0) * (2 * dot (p 2) (p 0)) - msq (p 0) * (2 * dot (p 3) (p 2))) / ((-(2 * dot (p 0) (p 3))) ^ 2 * (-(2 * dot (p 0) (p 2))) ^ 2) * (2 * dot (p 3) (p 0) * (2 * dot (p 2) (p 1)) + (1 : ℝ) ^ 2 * (2 * dot (p 3) (p 1) * (2 * dot (p 2) (p 0))) + 2 * (1 : ℝ) * ((c.mass .d) * (c.mass .d)) * (2 * dot (p 3) (p 2))) := by
    have a1 := y3.mb_norm y2 (p 0)
    have a3 := y3.unlike y2 g0 g1 (1)
    have a2 : ∀ s s', ‖((ab (legA (p 0) (c.mass .d) s) (legA (p 2) 0 0, legS (p 2) 0 1).1) * (sb (legS (p 1) (c.mass .d) s') (legA (p 3) 0 0, legS (p 3) 0 1).2)) + ((ab (legA (p 1) (c.mass .d) s') (legA (p 2) 0 0, legS (p 2) 0 1).1) * (sb (legS (p 0) (c.mass .d) s) (legA (p 3) 0 0, legS (p 3) 0 1).2))‖ = ‖sb (legA (p 3) 0 0, legS (p 3) 0 1).2 (legS (p 0) (c.mass .d) s) * ab (legA (p 2) 0 0, legS (p 2) 0 1).1 (legA (p 1) (c.mass .d) s') + ((1 : ℝ) : ℂ) * (sb (legA (p 3) 0 0, legS (p 3) 0 1).2 (legS (p 1) (c.mass .d) s') * ab (legA (p 2) 0 0, legS (p 2) 0 1).1 (legA (p 0) (c.mass .d) s))‖ := by
      intro s s'
      first
        | (congr 1; simp only [sb, ab]; push_cast; ring1)
        | (rw [← norm_neg]; congr 1; simp only [sb, ab]; push_cast; ring1)
    rw [← a3, Finset.mul_sum]
    refine Finset.sum_congr rfl fun s _ => ?_
    rw [Finset.mul_sum]
    refine Finset.sum_congr rfl fun s' _ => ?_
    have v5 : (ddAA.N c p).v 5 [spinOf s] = ab (legA (p 0) (c.mass .d) s) (legA (p 2) 0 0, legS (p 2) 0 1).1 := bra_angle (p := p) (m := ddAA.proc.massNum (ddAA.rho c)) (ddAA.mass_eq hc 0) (ddAA.mass_eq hc 2) (.inl ⟨m0, rfl⟩) (.inr ⟨m2, rfl⟩)
    have v6 : (ddAA.N c p).v 6 [spinOf s'] = sb (legS (p 1) (c.mass .d) s') (legA (p 3) 0 0, legS (p 3) 0 1).2 := bra_square (p := p) (m := ddAA.proc.massNum (ddAA.rho c)) (ddAA.mass_eq hc 1) (ddAA.mass_eq hc 3) (.inl ⟨m1, rfl⟩) (.inr ⟨m3, rfl⟩)
    have v9 : (ddAA.N c p).v 9 [spinOf s'] = ab (legA (p 1) (c.mass .d) s') (legA (p 2) 0 0, legS (p 2) 0 1).1 := bra_angle (p := p) (m := ddAA.proc.massNum (ddAA.rho c)) (ddAA.mass_eq hc 1) (ddAA.mass_eq hc 2) (.inl ⟨m1, rfl⟩) (.inr ⟨m2, rfl⟩)
    have v10 : (ddAA.N c p).v 10 [spinOf s] = sb (legS (p 0) (c.mass .d) s) (legA (p 3) 0 0, legS (p 3) 0 1).2 := bra_square (p := p) (m := ddAA.proc.massNum (ddAA.rho c)) (ddAA.mass_eq hc 0) (ddAA.mass_eq hc 3) (.inl ⟨m0, rfl⟩) (.inr ⟨m3, rfl⟩)
    have v13 : (ddAA.N c p).v 13 [] = mb (legA (p 3) 0 0, legS (p 3) 0 1).2 (p 0) (legA (p 2) 0 0, legS (p 2) 0 1).1 := bra_mid_square (p := p) (m := ddAA.proc.massNum (ddAA.rho c)) (ddAA.mass_eq hc 3) (ddAA.mass_eq hc 2) (.inr ⟨m3, rfl⟩) (.inr ⟨m2, rfl⟩)
    simp only [ddAA.termMP, v5, v6, v9, v10, v13]
    simp only [c0, c1]
    simp only [norm_mul, norm_div, Complex.norm_real, Real.norm_eq_abs, mul_pow, div_pow, sq_abs, a2]
    rw [a1]
    ring
  have SMM : ∑ s, ∑ s', ‖ddAA.termMM (ddAA.N c p) (spinOf s) (spinOf s')‖ ^ 2 = 
      (((((((2 : Nat) : ℝ) * (ddAA.N c p).r 0) * (ddAA.N c p).r 0) * (ddAA.N c p).r 1) * (ddAA.N c p).r 1) * (ddAA.N c p).r 2) ^ 2 * (2 * dot (p 2) (p 3)) ^ 2 / ((-(2 * dot (p 0) (p 3))) ^ 2 * (-(2 * dot (p 0) (p 2))) ^ 2) * (2 * dot (p 0) (p 1)) := by
    have a1 := y2.ab_norm y3
    have a3 := g0.sb_norm g1
    rw [← a3, Finset.mul_sum]
    refine Finset.sum_congr rfl fun s _ => ?_
    rw [Finset.mul_sum]
    refine Finset.sum_congr rfl fun s' _ => ?_
    have v1 : (ddAA.N c p).v 1 [] = ab (legA (p 2) 0 0, legS (p 2) 0 1).1 (legA (p 3) 0 0, legS (p 3) 0 1).1 := bra_angle (p := p) (m := ddAA.proc.massNum (ddAA.rho c)) (ddAA.mass_eq hc 2) (ddAA.mass_eq hc 3) (.inr ⟨m2, rfl⟩) (.inr ⟨m3, rfl⟩)
    have v2 : (ddAA.N c p).v 2 [spinOf s, spinOf s'] = sb (legS (p 0) (c.mass .d) s) (legS (p 1) (c.mass .d) s') := bra_square (p := p) (m := ddAA.proc.massNum (ddAA.rho c)) (ddAA.mass_eq hc 0) (ddAA.mass_eq hc 1) (.inl ⟨m0, rfl⟩) (.inl ⟨m1, rfl⟩)
    simp only [ddAA.termMM, v1, v2]
    simp only [c0, c1]
    simp only [norm_mul, norm_div, Complex.norm_real, Real.norm_eq_abs, mul_pow, div_pow, sq_abs] at a1 ⊢
    rw [a1]
    ring
  refine ⟨fun n hn => ?_, fun n hn => ?_, ?_⟩
  · rcases hd _ hn with h | h <;> cases h
  · rcases hd _ hn with h | h <;> cases h
    · rw [c0]; exact Complex.ofReal_ne_zero.2 n0
    · rw [c1]; exact Complex.ofReal_ne_zero.2 n1
  rw [ddAA.value]
  simp only [sumW, sumJ]
  have u0 : spinOf 0 = -1 := rfl
  have u1 : spinOf 1 = 1 := rfl
  rw [Fin.sum_univ_two, Fin.sum_univ_two, Fin.sum_univ_two, u0, u1] at SPP SPM SMP SMM
  simp only [ddAA.ampPP, ddAA.ampPM, ddAA.ampMP, ddAA.ampMM]
  have T : ∀ {s0 s1 s2 s3 a0 a1 a2 a3 b0 b1 b2 b3 d0 d1 d2 d3 x y z v W : ℝ}, s0 + s1 + (s2 + s3) = x → a0 + a1 + (a2 + a3) = y → b0 + b1 + (b2 + b3) = z → d0 + d1 + (d2 + d3) = v →
      s0 * W + s1 * W + s2 * W + s3 * W + a0 * W + a1 * W + a2 * W + a3 * W + b0 * W + b1 * W + b2 * W + b3 * W + d0 * W + d1 * W + d2 * W + d3 * W = (x + y + z + v) * W := by
    intros; subst_vars; ring
  have T' := T SPP SPM SMP SMM (W := ((3 : Nat) : ℝ))
  refine (congrArg (· / ((72 : Nat) : ℝ)) (Eq.trans ?_ T')).trans ?_
  · push_cast; ring
  clear T' SPP SPM SMP SMM
  simp only [ddAA.textbook, r0, r1, r2, q0, q1]
  simp only [kleinNishina, breitWheeler, dot_comm (p 1) (p 0), dot_comm (p 2) (p 0), dot_comm (p 2) (p 1), dot_comm (p 3) (p 0), dot_comm (p 3) (p 1), dot_comm (p 3) (p 2), k1, k2, k3, k4]
  generalize dot (p 0) (p 2) = a at *
  generalize dot (p 0) (p 3) = b at *
  generalize c.mass .d = m at *
  push_cast
  field_simp
  ring

theorem ddAA.returns : ddAA.Returns ddAA.proc.amp2 ddAA.Apart ddAA.textbook :=
  returns_of (by simp [all, ddAA]) (by decide +kernel) (by decide +kernel) (fun _ hc i => ddAA.mass_eq hc i) (by decide +kernel) fun _ _ hc hh h0 hs hb ha => ddAA.closed hc hh h0 hs hb ha

end Rows
end SM
end Spinas
