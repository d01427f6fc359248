import Verif.SM.Textbook
import Verif.SM.Bosons.Compton
import Verif.SM.Bosons.GluonPairs
import Verif.SM.Bosons.GluonPhoton

/-! Written by tools/bosons/textbook.py: Compton scattering in closed form. -/

namespace Spinas
open Spec Spec.Reaction Props Matrix
namespace SM
open XR
variable [FPEnv]
namespace Rows
open BRow
set_option linter.unusedSimpArgs false
set_option linter.unusedVariables false
set_option linter.unreachableTactic false
set_option linter.unusedTactic false
set_option maxHeartbeats 1000000

/-- `eAAe`: the momenta are off the poles -/
def eAAe.Apart (p : Nat → V4 ℝ) : Prop := dot (p 0) (p 1) ≠ 0 ∧ dot (p 0) (p 2) ≠ 0
/-- `eAAe`: the formula of textbooks -/
noncomputable def eAAe.textbook (c : Constants) (p : Nat → V4 ℝ) : ℝ := c.e ^ 4 * kleinNishina (c.mass .e) (dot (p 0) (p 1)) (dot (p 0) (p 2))

theorem eAAe.closed {c : Constants} {p : Nat → V4 ℝ} (hc : c.Physical) (hh : c.Heavy) (h0 : ∀ i, 0 ≤ eAAe.react.mass c i) (hs : ∀ i : Fin 4, OnShell (p i) (eAAe.react.mass c i)) (hb : Balanced p) (ha : eAAe.Apart p) :
    (∀ n, (Ty.r, n) ∈ eAAe.proc.divides → (eAAe.N c p).r n ≠ 0) ∧ (∀ n, (Ty.c, n) ∈ eAAe.proc.divides → (eAAe.N c p).c n ≠ 0) ∧ meaning (eAAe.N c p) .r Cls.eAAe.methods Cls.eAAe.amp2 [] = eAAe.textbook c p := by
  have q0 : msq (p 0) = (c.mass .e) ^ 2 := onShell_msq (hs 0)
  have q1 : msq (p 1) = (0 : ℝ) ^ 2 := onShell_msq (hs 1)
  have q2 : msq (p 2) = (0 : ℝ) ^ 2 := onShell_msq (hs 2)
  have q3 : msq (p 3) = (c.mass .e) ^ 2 := onShell_msq (hs 3)
  have g0 : Grams (p 0) (c.mass .e) (legA (p 0) (c.mass .e)) (legS (p 0) (c.mass .e)) := legs_grams (hs 0) (h0 0)
  have m0 : eAAe.react.mass c 0 ≠ 0 := (leg_pos hc hh (by decide)).ne'
  have g3 : Grams (p 3) (c.mass .e) (legA (p 3) (c.mass .e)) (legS (p 3) (c.mass .e)) := legs_grams (hs 3) (h0 3)
  have m3 : eAAe.react.mass c 3 ≠ 0 := (leg_pos hc hh (by decide)).ne'
  have y1 : Ray (p 1) (legA (p 1) 0 0, legS (p 1) 0 1) := ray_code (hs 1)
  have m1 : eAAe.react.mass c 1 = 0 := rfl
  have y2 : Ray (p 2) (legA (p 2) 0 0, legS (p 2) 0 1) := ray_code (hs 2)
  have m2 : eAAe.react.mass c 2 = 0 := rfl
  obtain ⟨k1, k2, k3, k4⟩ := dots_ends hb q0 q1 q2 q3
  obtain ⟨z1, z2⟩ := ha
  have KM : (c.mass .e) ^ 2 + (0 : ℝ) ^ 2 = (c.mass .e) ^ 2 := by ring
  have KM' : (0 : ℝ) ^ 2 + (c.mass .e) ^ 2 = (c.mass .e) ^ 2 := by ring
  have KM0 : (0 : ℝ) ^ 2 + (0 : ℝ) ^ 2 = ((0 : Nat) : ℝ) ^ 2 := by norm_num
  have c0 : (eAAe.N c p).c 0 = (((2 * dot (p 0) (p 1)) : ℝ) : ℂ) := pole_add q0 q1 KM
  have n0 : ((2 * dot (p 0) (p 1)) : ℝ) ≠ 0 := by
    try simp only [dot_comm (p 1) (p 0), dot_comm (p 2) (p 0), dot_comm (p 2) (p 1), dot_comm (p 3) (p 0), dot_comm (p 3) (p 1), dot_comm (p 3) (p 2), k1, k2, k3, k4]
    first | exact mul_ne_zero two_ne_zero z1 | exact mul_ne_zero two_ne_zero z2 | exact neg_ne_zero.2 (mul_ne_zero two_ne_zero z1) | exact neg_ne_zero.2 (mul_ne_zero two_ne_zero z2)
  have c1 : (eAAe.N c p).c 1 = ((-(2 * dot (p 0) (p 2)) : ℝ) : ℂ) := pole_sub q0 q2 KM
  have n1 : (-(2 * dot (p 0) (p 2)) : ℝ) ≠ 0 := by
    try simp only [dot_comm (p 1) (p 0), dot_comm (p 2) (p 0), dot_comm (p 2) (p 1), dot_comm (p 3) (p 0), dot_comm (p 3) (p 1), dot_comm (p 3) (p 2), k1, k2, k3, k4]
    first | exact mul_ne_zero two_ne_zero z1 | exact mul_ne_zero two_ne_zero z2 | exact neg_ne_zero.2 (mul_ne_zero two_ne_zero z1) | exact neg_ne_zero.2 (mul_ne_zero two_ne_zero z2)
  have r0 : (eAAe.N c p).r 0 = c.e := rfl
  have r1 : (eAAe.N c p).r 1 = (c.mass .e) := rfl
  have hd : ∀ v ∈ eAAe.proc.divides, v = (Ty.c, 0) ∨ v = (Ty.c, 1) := by decide +kernel
  have SPP : ∑ s, ∑ s', ‖eAAe.termPP (eAAe.N c p) (spinOf s) (spinOf s')‖ ^ 2 = 
      (((((2 : Nat) : ℝ) * (eAAe.N c p).r 0) * (eAAe.N c p).r 0) * (eAAe.N c p).r 1) ^ 2 * (2 * dot (p 1) (p 2)) ^ 2 / ((-(2 * dot (p 0) (p 2))) ^ 2 * ((2 * dot (p 0) (p 1))) ^ 2) * (2 * dot (p 0) (p 3)) := by
    have a1 := y1.sb_norm y2
    have a3 := g0.ab_norm g3
    rw [← a3, Finset.mul_sum]
    refine Finset.sum_congr rfl fun s _ => ?_
    rw [Finset.mul_sum]
    refine Finset.sum_congr rfl fun s' _ => ?_
    have v8 : (eAAe.N c p).v 8 [] = sb (legA (p 1) 0 0, legS (p 1) 0 1).2 (legA (p 2) 0 0, legS (p 2) 0 1).2 := bra_square (p := p) (m := eAAe.proc.massNum (eAAe.rho c)) (eAAe.mass_eq hc 1) (eAAe.mass_eq hc 2) (.inr ⟨m1, rfl⟩) (.inr ⟨m2, rfl⟩)
    have v11 : (eAAe.N c p).v 11 [spinOf s, spinOf s'] = ab (legA (p 0) (c.mass .e) s) (legA (p 3) (c.mass .e) s') := bra_angle (p := p) (m := eAAe.proc.massNum (eAAe.rho c)) (eAAe.mass_eq hc 0) (eAAe.mass_eq hc 3) (.inl ⟨m0, rfl⟩) (.inl ⟨m3, rfl⟩)
    simp only [eAAe.termPP, v8, v11]
    simp only [c0, c1]
    simp only [norm_mul, norm_div, Complex.norm_real, Real.norm_eq_abs, mul_pow, div_pow, sq_abs] at a1 ⊢
    rw [a1]
    ring
  have SPM : ∑ s, ∑ s', ‖eAAe.termPM (eAAe.N c p) (spinOf s) (spinOf s')‖ ^ 2 = 
      (((-((2 : Nat) : ℝ)) * (eAAe.N c p).r 0) * (eAAe.N c p).r 0) ^ 2 * (2 * dot (p 1) (p 3) * (2 * dot (p 2) (p 3)) - msq (p 3) * (2 * dot (p 1) (p 2))) / ((-(2 * dot (p 0) (p 2))) ^ 2 * ((2 * dot (p 0) (p 1))) ^ 2) * (2 * dot (p 1) (p 0) * (2 * dot (p 2) (p 3)) + (-1 : ℝ) ^ 2 * (2 * dot (p 1) (p 3) * (2 * dot (p 2) (p 0))) + 2 * (-1 : ℝ) * ((c.mass .e) * (c.mass .e)) * (2 * dot (p 1) (p 2))) := by
    have a1 := y1.mb_norm y2 (p 3)
    have a3 := y1.unlike y2 g0 g3 (-1)
    have a2 : ∀ s s', ‖((ab (legA (p 2) 0 0, legS (p 2) 0 1).1 (legA (p 3) (c.mass .e) s')) * (sb (legS (p 0) (c.mass .e) s) (legA (p 1) 0 0, legS (p 1) 0 1).2)) - ((ab (legA (p 0) (c.mass .e) s) (legA (p 2) 0 0, legS (p 2) 0 1).1) * (sb (legA (p 1) 0 0, legS (p 1) 0 1).2 (legS (p 3) (c.mass .e) s')))‖ = ‖sb (legA (p 1) 0 0, legS (p 1) 0 1).2 (legS (p 0) (c.mass .e) s) * ab (legA (p 2) 0 0, legS (p 2) 0 1).1 (legA (p 3) (c.mass .e) s') + ((-1 : ℝ) : ℂ) * (sb (legA (p 1) 0 0, legS (p 1) 0 1).2 (legS (p 3) (c.mass .e) s') * ab (legA (p 2) 0 0, legS (p 2) 0 1).1 (legA (p 0) (c.mass .e) s))‖ := by
      intro s s'
      first
        | (congr 1; simp only [sb, ab]; push_cast; ring1)
        | (rw [← norm_neg]; congr 1; simp only [sb, ab]; push_cast; ring1)
    rw [← a3, Finset.mul_sum]
    refine Finset.sum_congr rfl fun s _ => ?_
    rw [Finset.mul_sum]
    refine Finset.sum_congr rfl fun s' _ => ?_
    have v1 : (eAAe.N c p).v 1 [spinOf s'] = ab (legA (p 2) 0 0, legS (p 2) 0 1).1 (legA (p 3) (c.mass .e) s') := bra_angle (p := p) (m := eAAe.proc.massNum (eAAe.rho c)) (eAAe.mass_eq hc 2) (eAAe.mass_eq hc 3) (.inr ⟨m2, rfl⟩) (.inl ⟨m3, rfl⟩)
    have v2 : (eAAe.N c p).v 2 [spinOf s] = sb (legS (p 0) (c.mass .e) s) (legA (p 1) 0 0, legS (p 1) 0 1).2 := bra_square (p := p) (m := eAAe.proc.massNum (eAAe.rho c)) (eAAe.mass_eq hc 0) (eAAe.mass_eq hc 1) (.inl ⟨m0, rfl⟩) (.inr ⟨m1, rfl⟩)
    have v5 : (eAAe.N c p).v 5 [spinOf s] = ab (legA (p 0) (c.mass .e) s) (legA (p 2) 0 0, legS (p 2) 0 1).1 := bra_angle (p := p) (m := eAAe.proc.massNum (eAAe.rho c)) (eAAe.mass_eq hc 0) (eAAe.mass_eq hc 2) (.inl ⟨m0, rfl⟩) (.inr ⟨m2, rfl⟩)
    have v6 : (eAAe.N c p).v 6 [spinOf s'] = sb (legA (p 1) 0 0, legS (p 1) 0 1).2 (legS (p 3) (c.mass .e) s') := bra_square (p := p) (m := eAAe.proc.massNum (eAAe.rho c)) (eAAe.mass_eq hc 1) (eAAe.mass_eq hc 3) (.inr ⟨m1, rfl⟩) (.inl ⟨m3, rfl⟩)
    have v13 : (eAAe.N c p).v 13 [] = mb (legA (p 1) 0 0, legS (p 1) 0 1).2 (p 3) (legA (p 2) 0 0, legS (p 2) 0 1).1 := bra_mid_square (p := p) (m := eAAe.proc.massNum (eAAe.rho c)) (eAAe.mass_eq hc 1) (eAAe.mass_eq hc 2) (.inr ⟨m1, rfl⟩) (.inr ⟨m2, rfl⟩)
    simp only [eAAe.termPM, v1, v2, v5, v6, v13]
    simp only [c0, c1]
    simp only [norm_mul, norm_div, Complex.norm_real, Real.norm_eq_abs, mul_pow, div_pow, sq_abs, a2]
    rw [a1]
    ring
  have SMP : ∑ s, ∑ s', ‖eAAe.termMP (eAAe.N c p) (spinOf s) (spinOf s')‖ ^ 2 = 
      ((((2 : Nat) : ℝ) * (eAAe.N c p).r 0) * (eAAe.N c p).r 0) ^ 2 * (2 * dot (p 2) (p 3) * (2 * dot (p 1) (p 3)) - msq (p 3) * (2 * dot (p 2) (p 1))) / ((-(2 * dot (p 0) (p 2))) ^ 2 * ((2 * dot (p 0) (p 1))) ^ 2) * (2 * dot (p 2) (p 0) * (2 * dot (p 1) (p 3)) + (-1 : ℝ) ^ 2 * (2 * dot (p 2) (p 3) * (2 * dot (p 1) (p 0))) + 2 * (-1 : ℝ) * ((c.mass .e) * (c.mass .e)) * (2 * dot (p 2) (p 1))) := by
    have a1 := y2.mb_norm y1 (p 3)
    have a3 := y2.unlike y1 g0 g3 (-1)
    have a2 : ∀ s s', ‖((sb (legA (p 2) 0 0, legS (p 2) 0 1).2 (legS (p 3) (c.mass .e) s')) * (ab (legA (p 0) (c.mass .e) s) (legA (p 1) 0 0, legS (p 1) 0 1).1)) - ((sb (legS (p 0) (c.mass .e) s) (legA (p 2) 0 0, legS (p 2) 0 1).2) * (ab (legA (p 1) 0 0, legS (p 1) 0 1).1 (legA (p 3) (c.mass .e) s')))‖ = ‖sb (legA (p 2) 0 0, legS (p 2) 0 1).2 (legS (p 0) (c.mass .e) s) * ab (legA (p 1) 0 0, legS (p 1) 0 1).1 (legA (p 3) (c.mass .e) s') + ((-1 : ℝ) : ℂ) * (sb (legA (p 2) 0 0, legS (p 2) 0 1).2 (legS (p 3) (c.mass .e) s') * ab (legA (p 1) 0 0, legS (p 1) 0 1).1 (legA (p 0) (c.mass .e) s))‖ := by
      intro s s'
      first
        | (congr 1; simp only [sb, ab]; push_cast; ring1)
        | (rw [← norm_neg]; congr 1; simp only [sb, ab]; push_cast; ring1)
    rw [← a3, Finset.mul_sum]
    refine Finset.sum_congr rfl fun s _ => ?_
    rw [Finset.mul_sum]
    refine Finset.sum_congr rfl fun s' _ => ?_
    have v0 : (eAAe.N c p).v 0 [spinOf s'] = sb (legA (p 2) 0 0, legS (p 2) 0 1).2 (legS (p 3) (c.mass .e) s') := bra_square (p := p) (m := eAAe.proc.massNum (eAAe.rho c)) (eAAe.mass_eq hc 2) (eAAe.mass_eq hc 3) (.inr ⟨m2, rfl⟩) (.inl ⟨m3, rfl⟩)
    have v3 : (eAAe.N c p).v 3 [spinOf s] = ab (legA (p 0) (c.mass .e) s) (legA (p 1) 0 0, legS (p 1) 0 1).1 := bra_angle (p := p) (m := eAAe.proc.massNum (eAAe.rho c)) (eAAe.mass_eq hc 0) (eAAe.mass_eq hc 1) (.inl ⟨m0, rfl⟩) (.inr ⟨m1, rfl⟩)
    have v4 : (eAAe.N c p).v 4 [spinOf s] = sb (legS (p 0) (c.mass .e) s) (legA (p 2) 0 0, legS (p 2) 0 1).2 := bra_square (p := p) (m := eAAe.proc.massNum (eAAe.rho c)) (eAAe.mass_eq hc 0) (eAAe.mass_eq hc 2) (.inl ⟨m0, rfl⟩) (.inr ⟨m2, rfl⟩)
    have v7 : (eAAe.N c p).v 7 [spinOf s'] = ab (legA (p 1) 0 0, legS (p 1) 0 1).1 (legA (p 3) (c.mass .e) s') := bra_angle (p := p) (m := eAAe.proc.massNum (eAAe.rho c)) (eAAe.mass_eq hc 1) (eAAe.mass_eq hc 3) (.inr ⟨m1, rfl⟩) (.inl ⟨m3, rfl⟩)
    have v12 : (eAAe.N c p).v 12 [] = mb (legA (p 2) 0 0, legS (p 2) 0 1).2 (p 3) (legA (p 1) 0 0, legS (p 1) 0 1).1 := bra_mid_square (p := p) (m := eAAe.proc.massNum (eAAe.rho c)) (eAAe.mass_eq hc 2) (eAAe.mass_eq hc 1) (.inr ⟨m2, rfl⟩) (.inr ⟨m1, rfl⟩)
    simp only [eAAe.termMP, v0, v3, v4, v7, v12]
    simp only [c0, c1]
    simp only [norm_mul, norm_div, Complex.norm_real, Real.norm_eq_abs, mul_pow, div_pow, sq_abs, a2]
    rw [a1]
    ring
  have SMM : ∑ s, ∑ s', ‖eAAe.termMM (eAAe.N c p) (spinOf s) (spinOf s')‖ ^ 2 = 
      ((((-((2 : Nat) : ℝ)) * (eAAe.N c p).r 0) * (eAAe.N c p).r 0) * (eAAe.N c p).r 1) ^ 2 * (2 * dot (p 1) (p 2)) ^ 2 / ((-(2 * dot (p 0) (p 2))) ^ 2 * ((2 * dot (p 0) (p 1))) ^ 2) * (2 * dot (p 0) (p 3)) := by
    have a1 := y1.ab_norm y2
    have a3 := g0.sb_norm g3
    rw [← a3, Finset.mul_sum]
    refine Finset.sum_congr rfl fun s _ => ?_
    rw [Finset.mul_sum]
    refine Finset.sum_congr rfl fun s' _ => ?_
    have v9 : (eAAe.N c p).v 9 [] = ab (legA (p 1) 0 0, legS (p 1) 0 1).1 (legA (p 2) 0 0, legS (p 2) 0 1).1 := bra_angle (p := p) (m := eAAe.proc.massNum (eAAe.rho c)) (eAAe.mass_eq hc 1) (eAAe.mass_eq hc 2) (.inr ⟨m1, rfl⟩) (.inr ⟨m2, rfl⟩)
    have v10 : (eAAe.N c p).v 10 [spinOf s, spinOf s'] = sb (legS (p 0) (c.mass .e) s) (legS (p 3) (c.mass .e) s') := bra_square (p := p) (m := eAAe.proc.massNum (eAAe.rho c)) (eAAe.mass_eq hc 0) (eAAe.mass_eq hc 3) (.inl ⟨m0, rfl⟩) (.inl ⟨m3, rfl⟩)
    simp only [eAAe.termMM, v9, v10]
    simp only [c0, c1]
    simp only [norm_mul, norm_div, Complex.norm_real, Real.norm_eq_abs, mul_pow, div_pow, sq_abs] at a1 ⊢
    rw [a1]
    ring
  refine ⟨fun n hn => ?_, fun n hn => ?_, ?_⟩
  · rcases hd _ hn with h | h <;> cases h
  · rcases hd _ hn with h | h <;> cases h
    · rw [c0]; exact Complex.ofReal_ne_zero.2 n0
    · rw [c1]; exact Complex.ofReal_ne_zero.2 n1
  rw [eAAe.value]
  simp only [sumW, sumJ]
  have u0 : spinOf 0 = -1 := rfl
  have u1 : spinOf 1 = 1 := rfl
  rw [Fin.sum_univ_two, Fin.sum_univ_two, Fin.sum_univ_two, u0, u1] at SPP SPM SMP SMM
  simp only [eAAe.ampPP, eAAe.ampPM, eAAe.ampMP, eAAe.ampMM]
  have T : ∀ {s0 s1 s2 s3 a0 a1 a2 a3 b0 b1 b2 b3 d0 d1 d2 d3 x y z v W : ℝ}, s0 + s1 + (s2 + s3) = x → a0 + a1 + (a2 + a3) = y → b0 + b1 + (b2 + b3) = z → d0 + d1 + (d2 + d3) = v →
      s0 * W + s1 * W + s2 * W + s3 * W + a0 * W + a1 * W + a2 * W + a3 * W + b0 * W + b1 * W + b2 * W + b3 * W + d0 * W + d1 * W + d2 * W + d3 * W = (x + y + z + v) * W := by
    intros; subst_vars; ring
  have T' := T SPP SPM SMP SMM (W := (1 : ℝ))
  refine (congrArg (· / ((4 : Nat) : ℝ)) (Eq.trans ?_ T')).trans ?_
  · push_cast; ring
  clear T' SPP SPM SMP SMM
  simp only [eAAe.textbook, r0, r1, q0, q3]
  simp only [kleinNishina, breitWheeler, dot_comm (p 1) (p 0), dot_comm (p 2) (p 0), dot_comm (p 2) (p 1), dot_comm (p 3) (p 0), dot_comm (p 3) (p 1), dot_comm (p 3) (p 2), k1, k2, k3, k4]
  generalize dot (p 0) (p 1) = a at *
  generalize dot (p 0) (p 2) = b at *
  generalize c.mass .e = m at *
  push_cast
  field_simp
  ring

theorem eAAe.returns : eAAe.Returns eAAe.proc.amp2 eAAe.Apart eAAe.textbook :=
  returns_of (by simp [all, eAAe]) (by decide +kernel) (by decide +kernel) (fun _ hc i => eAAe.mass_eq hc i) (by decide +kernel) fun _ _ hc hh h0 hs hb ha => eAAe.closed hc hh h0 hs hb ha

/-- `uAAu`: the momenta are off the poles -/
def uAAu.Apart (p : Nat → V4 ℝ) : Prop := dot (p 0) (p 1) ≠ 0 ∧ dot (p 0) (p 2) ≠ 0
/-- `uAAu`: the formula of textbooks -/
noncomputable def uAAu.textbook (c : Constants) (p : Nat → V4 ℝ) : ℝ := (2 / 3 * c.e) ^ 4 * kleinNishina (c.mass .u) (dot (p 0) (p 1)) (dot (p 0) (p 2))

theorem uAAu.closed {c : Constants} {p : Nat → V4 ℝ} (hc : c.Physical) (hh : c.Heavy) (h0 : ∀ i, 0 ≤ uAAu.react.mass c i) (hs : ∀ i : Fin 4, OnShell (p i) (uAAu.react.mass c i)) (hb : Balanced p) (ha : uAAu.Apart p) :
    (∀ n, (Ty.r, n) ∈ uAAu.proc.divides → (uAAu.N c p).r n ≠ 0) ∧ (∀ n, (Ty.c, n) ∈ uAAu.proc.divides → (uAAu.N c p).c n ≠ 0) ∧ meaning (uAAu.N c p) .r Cls.uAAu.methods Cls.uAAu.amp2 [] = uAAu.textbook c p := by
  have q0 : msq (p 0) = (c.mass .u) ^ 2 := onShell_msq (hs 0)
  have q1 : msq (p 1) = (0 : ℝ) ^ 2 := onShell_msq (hs 1)
  have q2 : msq (p 2) = (0 : ℝ) ^ 2 := onShell_msq (hs 2)
  have q3 : msq (p 3) = (c.mass .u) ^ 2 := onShell_msq (hs 3)
  have g0 : Grams (p 0) (c.mass .u) (legA (p 0) (c.mass .u)) (legS (p 0) (c.mass .u)) := legs_grams (hs 0) (h0 0)
  have m0 : uAAu.react.mass c 0 ≠ 0 := (leg_pos hc hh (by decide)).ne'
  have g3 : Grams (p 3) (c.mass .u) (legA (p 3) (c.mass .u)) (legS (p 3) (c.mass .u)) := legs_grams (hs 3) (h0 3)
  have m3 : uAAu.react.mass c 3 ≠ 0 := (leg_pos hc hh (by decide)).ne'
  have y1 : Ray (p 1) (legA (p 1) 0 0, legS (p 1) 0 1) := ray_code (hs 1)
  have m1 : uAAu.react.mass c 1 = 0 := rfl
  have y2 : Ray (p 2) (legA (p 2) 0 0, legS (p 2) 0 1) := ray_code (hs 2)
  have m2 : uAAu.react.mass c 2 = 0 := rfl
  obtain ⟨k1, k2, k3, k4⟩ := dots_ends hb q0 q1 q2 q3
  obtain ⟨z1, z2⟩ := ha
  have KM : (c.mass .u) ^ 2 + (0 : ℝ) ^ 2 = (c.mass .u) ^ 2 := by ring
  have KM' : (0 : ℝ) ^ 2 + (c.mass .u) ^ 2 = (c.mass .u) ^ 2 := by ring
  have KM0 : (0 : ℝ) ^ 2 + (0 : ℝ) ^ 2 = ((0 : Nat) : ℝ) ^ 2 := by norm_num
  have c0 : (uAAu.N c p).c 0 = ((-(2 * dot (p 0) (p 2)) : ℝ) : ℂ) := pole_sub q0 q2 KM
  have n0 : (-(2 * dot (p 0) (p 2)) : ℝ) ≠ 0 := by
    try simp only [dot_comm (p 1) (p 0), dot_comm (p 2) (p 0), dot_comm (p 2) (p 1), dot_comm (p 3) (p 0), dot_comm (p 3) (p 1), dot_comm (p 3) (p 2), k1, k2, k3, k4]
    first | exact mul_ne_zero two_ne_zero z1 | exact mul_ne_zero two_ne_zero z2 | exact neg_ne_zero.2 (mul_ne_zero two_ne_zero z1) | exact neg_ne_zero.2 (mul_ne_zero two_ne_zero z2)
  have c1 : (uAAu.N c p).c 1 = (((2 * dot (p 0) (p 1)) : ℝ) : ℂ) := pole_add q0 q1 KM
  have n1 : ((2 * dot (p 0) (p 1)) : ℝ) ≠ 0 := by
    try simp only [dot_comm (p 1) (p 0), dot_comm (p 2) (p 0), dot_comm (p 2) (p 1), dot_comm (p 3) (p 0), dot_comm (p 3) (p 1), dot_comm (p 3) (p 2), k1, k2, k3, k4]
    first | exact mul_ne_zero two_ne_zero z1 | exact mul_ne_zero two_ne_zero z2 | exact neg_ne_zero.2 (mul_ne_zero two_ne_zero z1) | exact neg_ne_zero.2 (mul_ne_zero two_ne_zero z2)
  have r0 : (uAAu.N c p).r 0 = c.e := rfl
  have r1 : (uAAu.N c p).r 1 = (((2 : Nat) : ℝ) / ((3 : Nat) : ℝ)) := rfl
  have r2 : (uAAu.N c p).r 2 = (c.mass .u) := rfl
  have hd : ∀ v ∈ uAAu.proc.divides, v = (Ty.c, 0) ∨ v = (Ty.c, 1) := by decide +kernel
  have SPP : ∑ s, ∑ s', ‖uAAu.termPP (uAAu.N c p) (spinOf s) (spinOf s')‖ ^ 2 = 
      (((((((2 : Nat) : ℝ) * (uAAu.N c p).r 0) * (uAAu.N c p).r 0) * (uAAu.N c p).r 1) * (uAAu.N c p).r 1) * (uAAu.N c p).r 2) ^ 2 * (2 * dot (p 1) (p 2)) ^ 2 / (((2 * dot (p 0) (p 1))) ^ 2 * (-(2 * dot (p 0) (p 2))) ^ 2) * (2 * dot (p 0) (p 3)) := by
    have a1 := y1.sb_norm y2
    have a3 := g0.ab_norm g3
    rw [← a3, Finset.mul_sum]
    refine Finset.sum_congr rfl fun s _ => ?_
    rw [Finset.mul_sum]
    refine Finset.sum_congr rfl fun s' _ => ?_
    have v8 : (uAAu.N c p).v 8 [] = sb (legA (p 1) 0 0, legS (p 1) 0 1).2 (legA (p 2) 0 0, legS (p 2) 0 1).2 := bra_square (p := p) (m := uAAu.proc.massNum (uAAu.rho c)) (uAAu.mass_eq hc 1) (uAAu.mass_eq hc 2) (.inr ⟨m1, rfl⟩) (.inr ⟨m2, rfl⟩)
    have v11 : (uAAu.N c p).v 11 [spinOf s, spinOf s'] = ab (legA (p 0) (c.mass .u) s) (legA (p 3) (c.mass .u) s') := bra_angle (p := p) (m := uAAu.proc.massNum (uAAu.rho c)) (uAAu.mass_eq hc 0) (uAAu.mass_eq hc 3) (.inl ⟨m0, rfl⟩) (.inl ⟨m3, rfl⟩)
    simp only [uAAu.termPP, v8, v11]
    simp only [c0, c1]
    simp only [norm_mul, norm_div, Complex.norm_real, Real.norm_eq_abs, mul_pow, div_pow, sq_abs] at a1 ⊢
    rw [a1]
    ring
  have SPM : ∑ s, ∑ s', ‖uAAu.termPM (uAAu.N c p) (spinOf s) (spinOf s')‖ ^ 2 = 
      (((((-((2 : Nat) : ℝ)) * (uAAu.N c p).r 0) * (uAAu.N c p).r 0) * (uAAu.N c p).r 1) * (uAAu.N c p).r 1) ^ 2 * (2 * dot (p 1) (p 3) * (2 * dot (p 2) (p 3)) - msq (p 3) * (2 * dot (p 1) (p 2))) / (((2 * dot (p 0) (p 1))) ^ 2 * (-(2 * dot (p 0) (p 2))) ^ 2) * (2 * dot (p 1) (p 0) * (2 * dot (p 2) (p 3)) + (-1 : ℝ) ^ 2 * (2 * dot (p 1) (p 3) * (2 * dot (p 2) (p 0))) + 2 * (-1 : ℝ) * ((c.mass .u) * (c.mass .u)) * (2 * dot (p 1) (p 2))) := by
    have a1 := y1.mb_norm y2 (p 3)
    have a3 := y1.unlike y2 g0 g3 (-1)
    have a2 : ∀ s s', ‖((ab (legA (p 2) 0 0, legS (p 2) 0 1).1 (legA (p 3) (c.mass .u) s')) * (sb (legS (p 0) (c.mass .u) s) (legA (p 1) 0 0, legS (p 1) 0 1).2)) - ((ab (legA (p 0) (c.mass .u) s) (legA (p 2) 0 0, legS (p 2) 0 1).1) * (sb (legA (p 1) 0 0, legS (p 1) 0 1).2 (legS (p 3) (c.mass .u) s')))‖ = ‖sb (legA (p 1) 0 0, legS (p 1) 0 1).2 (legS (p 0) (c.mass .u) s) * ab (legA (p 2) 0 0, legS (p 2) 0 1).1 (legA (p 3) (c.mass .u) s') + ((-1 : ℝ) : ℂ) * (sb (legA (p 1) 0 0, legS (p 1) 0 1).2 (legS (p 3) (c.mass .u) s') * ab (legA (p 2) 0 0, legS (p 2) 0 1).1 (legA (p 0) (c.mass .u) s))‖ := by
      intro s s'
      first
        | (congr 1; simp only [sb, ab]; push_cast; ring1)
        | (rw [← norm_neg]; congr 1; simp only [sb, ab]; push_cast; ring1)
    rw [← a3, Finset.mul_sum]
    refine Finset.sum_congr rfl fun s _ => ?_
    rw [Finset.mul_sum]
    refine Finset.sum_congr rfl fun s' _ => ?_
    have v1 : (uAAu.N c p).v 1 [spinOf s'] = ab (legA (p 2) 0 0, legS (p 2) 0 1).1 (legA (p 3) (c.mass .u) s') := bra_angle (p := p) (m := uAAu.proc.massNum (uAAu.rho c)) (uAAu.mass_eq hc 2) (uAAu.mass_eq hc 3) (.inr ⟨m2, rfl⟩) (.inl ⟨m3, rfl⟩)
    have v2 : (uAAu.N c p).v 2 [spinOf s] = sb (legS (p 0) (c.mass .u) s) (legA (p 1) 0 0, legS (p 1) 0 1).2 := bra_square (p := p) (m := uAAu.proc.massNum (uAAu.rho c)) (uAAu.mass_eq hc 0) (uAAu.mass_eq hc 1) (.inl ⟨m0, rfl⟩) (.inr ⟨m1, rfl⟩)
    have v5 : (uAAu.N c p).v 5 [spinOf s] = ab (legA (p 0) (c.mass .u) s) (legA (p 2) 0 0, legS (p 2) 0 1).1 := bra_angle (p := p) (m := uAAu.proc.massNum (uAAu.rho c)) (uAAu.mass_eq hc 0) (uAAu.mass_eq hc 2) (.inl ⟨m0, rfl⟩) (.inr ⟨m2, rfl⟩)
    have v6 : (uAAu.N c p).v 6 [spinOf s'] = sb (legA (p 1) 0 0, legS (p 1) 0 1).2 (legS (p 3) (c.mass .u) s') := bra_square (p := p) (m := uAAu.proc.massNum (uAAu.rho c)) (uAAu.mass_eq hc 1) (uAAu.mass_eq hc 3) (.inr ⟨m1, rfl⟩) (.inl ⟨m3, rfl⟩)
    have v13 : (uAAu.N c p).v 13 [] = mb (legA (p 1) 0 0, legS (p 1) 0 1).2 (p 3) (legA (p 2) 0 0, legS (p 2) 0 1).1 := bra_mid_square (p := p) (m := uAAu.proc.massNum (uAAu.rho c)) (uAAu.mass_eq hc 1) (uAAu.mass_eq hc 2) (.inr ⟨m1, rfl⟩) (.inr ⟨m2, rfl⟩)
    simp only [uAAu.termPM, v1, v2, v5, v6, v13]
    simp only [c0, c1]
    simp only [norm_mul, norm_div, Complex.norm_real, Real.norm_eq_abs, mul_pow, div_pow, sq_abs, a2]
    rw [a1]
    ring
  have SMP : ∑ s, ∑ s', ‖uAAu.termMP (uAAu.N c p) (spinOf s) (spinOf s')‖ ^ 2 = 
      ((((((2 : Nat) : ℝ) * (uAAu.N c p).r 0) * (uAAu.N c p).r 0) * (uAAu.N c p).r 1) * (uAAu.N c p).r 1) ^ 2 * (2 * dot (p 2) (p 3) * (2 * dot (p 1) (p 3)) - msq (p 3) * (2 * dot (p 2) (p 1))) / (((2 * dot (p 0) (p 1))) ^ 2 * (-(2 * dot (p 0) (p 2))) ^ 2) * (2 * dot (p 2) (p 0) * (2 * dot (p 1) (p 3)) + (-1 : ℝ) ^ 2 * (2 * dot (p 2) (p 3) * (2 * dot (p 1) (p 0))) + 2 * (-1 : ℝ) * ((c.mass .u) * (c.mass .u)) * (2 * dot (p 2) (p 1))) := by
    have a1 := y2.mb_norm y1 (p 3)
    have a3 := y2.unlike y1 g0 g3 (-1)
    have a2 : ∀ s s', ‖((sb (legA (p 2) 0 0, legS (p 2) 0 1).2 (legS (p 3) (c.mass .u) s')) * (ab (legA (p 0) (c.mass .u) s) (legA (p 1) 0 0, legS (p 1) 0 1).1)) - ((sb (legS (p 0) (c.mass .u) s) (legA (p 2) 0 0, legS (p 2) 0 1).2) * (ab (legA (p 1) 0 0, legS (p 1) 0 1).1 (legA (p 3) (c.mass .u) s')))‖ = ‖sb (legA (p 2) 0 0, legS (p 2) 0 1).2 (legS (p 0) (c.mass .u) s) * ab (legA (p 1) 0 0, legS (p 1) 0 1).1 (legA (p 3) (c.mass .u) s') + ((-1 : ℝ) : ℂ) * (sb (legA (p 2) 0 0, legS (p 2) 0 1).2 (legS (p 3) (c.mass .u) s') * ab (legA (p 1) 0 0, legS (p 1) 0 1).1 (legA (p 0) (c.mass .u) s))‖ := by
      intro s s'
      first
        | (congr 1; simp only [sb, ab]; push_cast; ring1)
        | (rw [← norm_neg]; congr 1; simp only [sb, ab]; push_cast; ring1)
    rw [← a3, Finset.mul_sum]
    refine Finset.sum_congr rfl fun s _ => ?_
    rw [Finset.mul_sum]
    refine Finset.sum_congr rfl fun s' _ => ?_
    have v0 : (uAAu.N c p).v 0 [spinOf s'] = sb (legA (p 2) 0 0, legS (p 2) 0 1).2 (legS (p 3) (c.mass .u) s') := bra_square (p := p) (m := uAAu.proc.massNum (uAAu.rho c)) (uAAu.mass_eq hc 2) (uAAu.mass_eq hc 3) (.inr ⟨m2, rfl⟩) (.inl ⟨m3, rfl⟩)
    have v3 : (uAAu.N c p).v 3 [spinOf s] = ab (legA (p 0) (c.mass .u) s) (legA (p 1) 0 0, legS (p 1) 0 1).1 := bra_angle (p := p) (m := uAAu.proc.massNum (uAAu.rho c)) (uAAu.mass_eq hc 0) (uAAu.mass_eq hc 1) (.inl ⟨m0, rfl⟩) (.inr ⟨m1, rfl⟩)
    have v4 : (uAAu.N c p).v 4 [spinOf s] = sb (legS (p 0) (c.mass .u) s) (legA (p 2) 0 0, legS (p 2) 0 1).2 := bra_square (p := p) (m := uAAu.proc.massNum (uAAu.rho c)) (uAAu.mass_eq hc 0) (uAAu.mass_eq hc 2) (.inl ⟨m0, rfl⟩) (.inr ⟨m2, rfl⟩)
    have v7 : (uAAu.N c p).v 7 [spinOf s'] = ab (legA (p 1) 0 0, legS (p 1) 0 1).1 (legA (p 3) (c.mass .u) s') := bra_angle (p := p) (m := uAAu.proc.massNum (uAAu.rho c)) (uAAu.mass_eq hc 1) (uAAu.mass_eq hc 3) (.inr ⟨m1, rfl⟩) (.inl ⟨m3, rfl⟩)
    have v12 : (uAAu.N c p).v 12 [] = mb (legA (p 2) 0 0, legS (p 2) 0 1).2 (p 3) (legA (p 1) 0 0, legS (p 1) 0 1).1 := bra_mid_square (p := p) (m := uAAu.proc.massNum (uAAu.rho c)) (uAAu.mass_eq hc 2) (uAAu.mass_eq hc 1) (.inr ⟨m2, rfl⟩) (.inr ⟨m1, rfl⟩)
    simp only [uAAu.termMP, v0, v3, v4, v7, v12]
    simp only [c0, c1]
    simp only [norm_mul, norm_div, Complex.norm_real, Real.norm_eq_abs, mul_pow, div_pow, sq_abs, a2]
    rw [a1]
    ring
  have SMM : ∑ s, ∑ s', ‖uAAu.termMM (uAAu.N c p) (spinOf s) (spinOf s')‖ ^ 2 = 
      ((((((-((2 : Nat) : ℝ)) * (uAAu.N c p).r 0) * (uAAu.N c p).r 0) * (uAAu.N c p).r 1) * (uAAu.N c p).r 1) * (uAAu.N c p).r 2) ^ 2 * (2 * dot (p 1) (p 2)) ^ 2 / (((2 * dot (p 0) (p 1))) ^ 2 * (-(2 * dot (p 0) (p 2))) ^ 2) * (2 * dot (p 0) (p 3)) := by
    have a1 := y1.ab_norm y2
    have a3 := g0.sb_norm g3
    rw [← a3, Finset.mul_sum]
    refine Finset.sum_congr rfl fun s _ => ?_
    rw [Finset.mul_sum]
    refine Finset.sum_congr rfl fun s' _ => ?_
    have v9 : (uAAu.N c p).v 9 [] = ab (legA (p 1) 0 0, legS (p 1) 0 1).1 (legA (p 2) 0 0, legS (p 2) 0 1).1 := bra_angle (p := p) (m := uAAu.proc.massNum (uAAu.rho c)) (uAAu.mass_eq hc 1) (uAAu.mass_eq hc 2) (.inr ⟨m1, rfl⟩) (.inr ⟨m2, rfl⟩)
    have v10 : (uAAu.N c p).v 10 [spinOf s, spinOf s'] = sb (legS (p 0) (c.mass .u) s) (legS (p 3) (c.mass .u) s') := bra_square (p := p) (m := uAAu.proc.massNum (uAAu.rho c)) (uAAu.mass_eq hc 0) (uAAu.mass_eq hc 3) (.inl ⟨m0, rfl⟩) (.inl ⟨m3, rfl⟩)
    simp only [uAAu.termMM, v9, v10]
    simp only [c0, c1]
    simp only [norm_mul, norm_div, Complex.norm_real, Real.norm_eq_abs, mul_pow, div_pow, sq_abs] at a1 ⊢
    rw [a1]
    ring
  refine ⟨fun n hn => ?_, fun n hn => ?_, ?_⟩
  · rcases hd _ hn with h | h <;> cases h
  · rcases hd _ hn with h | h <;> cases h
    · rw [c0]; exact Complex.ofReal_ne_zero.2 n0
    · rw [c1]; exact Complex.ofReal_ne_zero.2 n1
  rw [uAAu.value]
  simp only [sumW, sumJ]
  have u0 : spinOf 0 = -1 := rfl
  have u1 : spinOf 1 = 1 := rfl
  rw [Fin.sum_univ_two, Fin.sum_univ_two, Fin.sum_univ_two, u0, u1] at SPP SPM SMP SMM
  simp only [uAAu.ampPP, uAAu.ampPM, uAAu.ampMP, uAAu.ampMM]
  have T : ∀ {s0 s1 s2 s3 a0 a1 a2 a3 b0 b1 b2 b3 d0 d1 d2 d3 x y z v W : ℝ}, s0 + s1 + (s2 + s3) = x → a0 + a1 + (a2 + a3) = y → b0 + b1 + (b2 + b3) = z → d0 + d1 + (d2 + d3) = v →
      s0 * W + s1 * W + s2 * W + s3 * W + a0 * W + a1 * W + a2 * W + a3 * W + b0 * W + b1 * W + b2 * W + b3 * W + d0 * W + d1 * W + d2 * W + d3 * W = (x + y + z + v) * W := by
    intros; subst_vars; ring
  have T' := T SPP SPM SMP SMM (W := ((3 : Nat) : ℝ))
  refine (congrArg (· / ((12 : Nat) : ℝ)) (Eq.trans ?_ T')).trans ?_
  · push_cast; ring
  clear T' SPP SPM SMP SMM
  simp only [uAAu.textbook, r0, r1, r2, q0, q3]
  simp only [kleinNishina, breitWheeler, dot_comm (p 1) (p 0), dot_comm (p 2) (p 0), dot_comm (p 2) (p 1), dot_comm (p 3) (p 0), dot_comm (p 3) (p 1), dot_comm (p 3) (p 2), k1, k2, k3, k4]
  generalize dot (p 0) (p 1) = a at *
  generalize dot (p 0) (p 2) = b at *
  generalize c.mass .u = m at *
  push_cast
  field_simp
  ring

theorem uAAu.returns : uAAu.Returns uAAu.proc.amp2 uAAu.Apart uAAu.textbook :=
  returns_of (by simp [all, uAAu]) (by decide +kernel) (by decide +kernel) (fun _ hc i => uAAu.mass_eq hc i) (by decide +kernel) fun _ _ hc hh h0 hs hb ha => uAAu.closed hc hh h0 hs hb ha

/-- `dAAd`: the momenta are off the poles -/
def dAAd.Apart (p : Nat → V4 ℝ) : Prop := dot (p 0) (p 1) ≠ 0 ∧ dot (p 0) (p 2) ≠ 0
/-- `dAAd`: the formula of textbooks -/
noncomputable def dAAd.textbook (c : Constants) (p : Nat → V4 ℝ) : ℝ := (1 / 3 * c.e) ^ 4 * kleinNishina (c.mass .d) (dot (p 0) (p 1)) (dot (p 0) (p 2))

theorem dAAd.closed {c : Constants} {p : Nat → V4 ℝ} (hc : c.Physical) (hh : c.Heavy) (h0 : ∀ i, 0 ≤ dAAd.react.mass c i) (hs : ∀ i : Fin 4, OnShell (p i) (dAAd.react.mass c i)) (hb : Balanced p) (ha : dAAd.Apart p) :
    (∀ n, (Ty.r, n) ∈ dAAd.proc.divides → (dAAd.N c p).r n ≠ 0) ∧ (∀ n, (Ty.c, n) ∈ dAAd.proc.divides → (dAAd.N c p).c n ≠ 0) ∧ meaning (dAAd.N c p) .r Cls.dAAd.methods Cls.dAAd.amp2 [] = dAAd.textbook c p := by
  have q0 : msq (p 0) = (c.mass .d) ^ 2 := onShell_msq (hs 0)
  have q1 : msq (p 1) = (0 : ℝ) ^ 2 := onShell_msq (hs 1)
  have q2 : msq (p 2) = (0 : ℝ) ^ 2 := onShell_msq (hs 2)
  have q3 : msq (p 3) = (c.mass .d) ^ 2 := onShell_msq (hs 3)
  have g0 : Grams (p 0) (c.mass .d) (legA (p 0) (c.mass .d)) (legS (p 0) (c.mass .d)) := legs_grams (hs 0) (h0 0)
  have m0 : dAAd.react.mass c 0 ≠ 0 := (leg_pos hc hh (by decide)).ne'
  have g3 : Grams (p 3) (c.mass .d) (legA (p 3) (c.mass .d)) (legS (p 3) (c.mass .d)) := legs_grams (hs 3) (h0 3)
  have m3 : dAAd.react.mass c 3 ≠ 0 := (leg_pos hc hh (by decide)).ne'
  have y1 : Ray (p 1) (legA (p 1) 0 0, legS (p 1) 0 1) := ray_code (hs 1)
  have m1 : dAAd.react.mass c 1 = 0 := rfl
  have y2 : Ray (p 2) (legA (p 2) 0 0, legS (p 2) 0 1) := ray_code (hs 2)
  have m2 : dAAd.react.mass c 2 = 0 := rfl
  obtain ⟨k1, k2, k3, k4⟩ := dots_ends hb q0 q1 q2 q3
  obtain ⟨z1, z2⟩ := ha
  have KM : (c.mass .d) ^ 2 + (0 : ℝ) ^ 2 = (c.mass .d) ^ 2 := by ring
  have KM' : (0 : ℝ) ^ 2 + (c.mass .d) ^ 2 = (c.mass .d) ^ 2 := by ring
  have KM0 : (0 : ℝ) ^ 2 + (0 : ℝ) ^ 2 = ((0 : Nat) : ℝ) ^ 2 := by norm_num
  have c0 : (dAAd.N c p).c 0 = ((-(2 * dot (p 0) (p 2)) : ℝ) : ℂ) := pole_sub q0 q2 KM
  have n0 : (-(2 * dot (p 0) (p 2)) : ℝ) ≠ 0 := by
    try simp only [dot_comm (p 1) (p 0), dot_comm (p 2) (p 0), dot_comm (p 2) (p 1), dot_comm (p 3) (p 0), dot_comm (p 3) (p 1), dot_comm (p 3) (p 2), k1, k2, k3, k4]
    first | exact mul_ne_zero two_ne_zero z1 | exact mul_ne_zero two_ne_zero z2 | exact neg_ne_zero.2 (mul_ne_zero two_ne_zero z1) | exact neg_ne_zero.2 (mul_ne_zero two_ne_zero z2)
  have c1 : (dAAd.N c p).c 1 = (((2 * dot (p 0) (p 1)) : ℝ) : ℂ) := pole_add q0 q1 KM
  have n1 : ((2 * dot (p 0) (p 1)) : ℝ) ≠ 0 := by
    try simp only [dot_comm (p 1) (p 0), dot_comm (p 2) (p 0), dot_comm (p 2) (p 1), dot_comm (p 3) (p 0), dot_comm (p 3) (p 1), dot_comm (p 3) (p 2), k1, k2, k3, k4]
    first | exact mul_ne_zero two_ne_zero z1 | exact mul_ne_zero two_ne_zero z2 | exact neg_ne_zero.2 (mul_ne_zero two_ne_zero z1) | exact neg_ne_zero.2 (mul_ne_zero two_ne_zero z2)
  have r0 : (dAAd.N c p).r 0 = c.e := rfl
  have r1 : (dAAd.N c p).r 1 = ((-((1 : Nat) : ℝ)) / ((3 : Nat) : ℝ)) := rfl
  have r2 : (dAAd.N c p).r 2 = (c.mass .d) := rfl
  have hd : ∀ v ∈ dAAd.proc.divides, v = (Ty.c, 0) ∨ v = (Ty.c, 1) := by decide +kernel
  have SPP : ∑ s, ∑ s', ‖dAAd.termPP (dAAd.N c p) (spinOf s) (spinOf s')‖ ^ 2 = 
      (((((((2 : Nat) : ℝ) * (dAAd.N c p).r 0) * (dAAd.N c p).r 0) * (dAAd.N c p).r 1) * (dAAd.N c p).r 1) * (dAAd.N c p).r 2) ^ 2 * (2 * dot (p 1) (p 2)) ^ 2 / ((-(2 * dot (p 0) (p 2))) ^ 2 * ((2 * dot (p 0) (p 1))) ^ 2) * (2 * dot (p 0) (p 3)) := by
    have a1 := y1.sb_norm y2
    have a3 := g0.ab_norm g3
    rw [← a3, Finset.mul_sum]
    refine Finset.sum_congr rfl fun s _ => ?_
    rw [Finset.mul_sum]
    refine Finset.sum_congr rfl fun s' _ => ?_
    have v8 : (dAAd.N c p).v 8 [] = sb (legA (p 1) 0 0, legS (p 1) 0 1).2 (legA (p 2) 0 0, legS (p 2) 0 1).2 := bra_square (p := p) (m := dAAd.proc.massNum (dAAd.rho c)) (dAAd.mass_eq hc 1) (dAAd.mass_eq hc 2) (.inr ⟨m1, rfl⟩) (.inr ⟨m2, rfl⟩)
    have v11 : (dAAd.N c p).v 11 [spinOf s, spinOf s'] = ab (legA (p 0) (c.mass .d) s) (legA (p 3) (c.mass .d) s') := bra_angle (p := p) (m := dAAd.proc.massNum (dAAd.rho c)) (dAAd.mass_eq hc 0) (dAAd.mass_eq hc 3) (.inl ⟨m0, rfl⟩) (.inl ⟨m3, rfl⟩)
    simp only [dAAd.termPP, v8, v11]
    simp only [c0, c1]
    simp only [norm_mul, norm_div, Complex.norm_real, Real.norm_eq_abs, mul_pow, div_pow, sq_abs] at a1 ⊢
    rw [a1]
    ring
  have SPM : ∑ s, ∑ s', ‖dAAd.termPM (dAAd.N c p) (spinOf s) (spinOf s')‖ ^ 2 = 
      (((((-((2 : Nat) : ℝ)) * (dAAd.N c p).r 0) * (dAAd.N c p).r 0) * (dAAd.N c p).r 1) * (dAAd.N c p).r 1) ^ 2 * (2 * dot (p 1) (p 3) * (2 * dot (p 2) (p 3)) - msq (p 3) * (2 * dot (p 1) (p 2))) / ((-(2 * dot (p 0) (p 2))) ^ 2 * ((2 * dot (p 0) (p 1))) ^ 2) * (2 * dot (p 1) (p 0) * (2 * dot (p 2) (p 3)) + (-1 : ℝ) ^ 2 * (2 * dot (p 1) (p 3) * (2 * dot (p 2) (p 0))) + 2 * (-1 : ℝ) * ((c.mass .d) * (c.mass .d)) * (2 * dot (p 1) (p 2))) := by
    have a1 := y1.mb_norm y2 (p 3)
    have a3 := y1.unlike y2 g0 g3 (-1)
    have a2 : ∀ s s', ‖((ab (legA (p 2) 0 0, legS (p 2) 0 1).1 (legA (p 3) (c.mass .d) s')) * (sb (legS (p 0) (c.mass .d) s) (legA (p 1) 0 0, legS (p 1) 0 1).2)) - ((ab (legA (p 0) (c.mass .d) s) (legA (p 2) 0 0, legS (p 2) 0 1).1) * (sb (legA (p 1) 0 0, legS (p 1) 0 1).2 (legS (p 3) (c.mass .d) s')))‖ = ‖sb (legA (p 1) 0 0, legS (p 1) 0 1).2 (legS (p 0) (c.mass .d) s) * ab (legA (p 2) 0 0, legS (p 2) 0 1).1 (legA (p 3) (c.mass .d) s') + ((-1 : ℝ) : ℂ) * (sb (legA (p 1) 0 0, legS (p 1) 0 1).2 (legS (p 3) (c.mass .d) s') * ab (legA (p 2) 0 0, legS (p 2) 0 1).1 (legA (p 0) (c.mass .d) s))‖ := by
      intro s s'
      first
        | (congr 1; simp only [sb, ab]; push_cast; ring1)
        | (rw [← norm_neg]; congr 1; simp only [sb, ab]; push_cast; ring1)
    rw [← a3, Finset.mul_sum]
    refine Finset.sum_congr rfl fun s _ => ?_
    rw [Finset.mul_sum]
    refine Finset.sum_congr rfl fun s' _ => ?_
    have v1 : (dAAd.N c p).v 1 [spinOf s'] = ab (legA (p 2) 0 0, legS (p 2) 0 1).1 (legA (p 3) (c.mass .d) s') := bra_angle (p := p) (m := dAAd.proc.massNum (dAAd.rho c)) (dAAd.mass_eq hc 2) (dAAd.mass_eq hc 3) (.inr ⟨m2, rfl⟩) (.inl ⟨m3, rfl⟩)
    have v2 : (dAAd.N c p).v 2 [spinOf s] = sb (legS (p 0) (c.mass .d) s) (legA (p 1) 0 0, legS (p 1) 0 1).2 := bra_square (p := p) (m := dAAd.proc.massNum (dAAd.rho c)) (dAAd.mass_eq hc 0) (dAAd.mass_eq hc 1) (.inl ⟨m0, rfl⟩) (.inr ⟨m1, rfl⟩)
    have v5 : (dAAd.N c p).v 5 [spinOf s] = ab (legA (p 0) (c.mass .d) s) (legA (p 2) 0 0, legS (p 2) 0 1).1 := bra_angle (p := p) (m := dAAd.proc.massNum (dAAd.rho c)) (dAAd.mass_eq hc 0) (dAAd.mass_eq hc 2) (.inl ⟨m0, rfl⟩) (.inr ⟨m2, rfl⟩)
    have v6 : (dAAd.N c p).v 6 [spinOf s'] = sb (legA (p 1) 0 0, legS (p 1) 0 1).2 (legS (p 3) (c.mass .d) s') := bra_square (p := p) (m := dAAd.proc.massNum (dAAd.rho c)) (dAAd.mass_eq hc 1) (dAAd.mass_eq hc 3) (.inr ⟨m1, rfl⟩) (.inl ⟨m3, rfl⟩)
    have v13 : (dAAd.N c p).v 13 [] = mb (legA (p 1) 0 0, legS (p 1) 0 1).2 (p 3) (legA (p 2) 0 0, legS (p 2) 0 1).1 := bra_mid_square (p := p) (m := dAAd.proc.massNum (dAAd.rho c)) (dAAd.mass_eq hc 1) (dAAd.mass_eq hc 2) (.inr ⟨m1, rfl⟩) (.inr ⟨m2, rfl⟩)
    simp only [dAAd.termPM, v1, v2, v5, v6, v13]
    simp only [c0, c1]
    simp only [norm_mul, norm_div, Complex.norm_real, Real.norm_eq_abs, mul_pow, div_pow, sq_abs, a2]
    rw [a1]
    ring
  have SMP : ∑ s, ∑ s', ‖dAAd.termMP (dAAd.N c p) (spinOf s) (spinOf s')‖ ^ 2 = 
      (((((-((2 : Nat) : ℝ)) * (dAAd.N c p).r 0) * (dAAd.N c p).r 0) * (dAAd.N c p).r 1) * (dAAd.N c p).r 1) ^ 2 * (2 * dot (p 2) (p 3) * (2 * dot (p 1) (p 3)) - msq (p 3) * (2 * dot (p 2) (p 1))) / ((-(2 * dot (p 0) (p 2))) ^ 2 * ((2 * dot (p 0) (p 1))) ^ 2) * (2 * dot (p 2) (p 0) * (2 * dot (p 1) (p 3)) + (-1 : ℝ) ^ 2 * (2 * dot (p 2) (p 3) * (2 * dot (p 1) (p 0))) + 2 * (-1 : ℝ) * ((c.mass .d) * (c.mass .d)) * (2 * dot (p 2) (p 1))) := by
    have a1 := y2.mb_norm y1 (p 3)
    have a3 := y2.unlike y1 g0 g3 (-1)
    have a2 : ∀ s s', ‖((sb (legA (p 2) 0 0, legS (p 2) 0 1).2 (legS (p 3) (c.mass .d) s')) * (ab (legA (p 0) (c.mass .d) s) (legA (p 1) 0 0, legS (p 1) 0 1).1)) - ((sb (legS (p 0) (c.mass .d) s) (legA (p 2) 0 0, legS (p 2) 0 1).2) * (ab (legA (p 1) 0 0, legS (p 1) 0 1).1 (legA (p 3) (c.mass .d) s')))‖ = ‖sb (legA (p 2) 0 0, legS (p 2) 0 1).2 (legS (p 0) (c.mass .d) s) * ab (legA (p 1) 0 0, legS (p 1) 0 1).1 (legA (p 3) (c.mass .d) s') + ((-1 : ℝ) : ℂ) * (sb (legA (p 2) 0 0, legS (p 2) 0 1).2 (legS (p 3) (c.mass .d) s') * ab (legA (p 1) 0 0, legS (p 1) 0 1).1 (legA (p 0) (c.mass .d) s))‖ := by
      intro s s'
      first
        | (congr 1; simp only [sb, ab]; push_cast; ring1)
        | (rw [← norm_neg]; congr 1; simp only [sb, ab]; push_cast; ring1)
    rw [← a3, Finset.mul_sum]
    refine Finset.sum_congr rfl fun s _ => ?_
    rw [Finset.mul_sum]
    refine Finset.sum_congr rfl fun s' _ => ?_
    have v0 : (dAAd.N c p).v 0 [spinOf s'] = sb (legA (p 2) 0 0, legS (p 2) 0 1).2 (legS (p 3) (c.mass .d) s') := bra_square (p := p) (m := dAAd.proc.massNum (dAAd.rho c)) (dAAd.mass_eq hc 2) (dAAd.mass_eq hc 3) (.inr ⟨m2, rfl⟩) (.inl ⟨m3, rfl⟩)
    have v3 : (dAAd.N c p).v 3 [spinOf s] = ab (legA (p 0) (c.mass .d) s) (legA (p 1) 0 0, legS (p 1) 0 1).1 := bra_angle (p := p) (m := dAAd.proc.massNum (dAAd.rho c)) (dAAd.mass_eq hc 0) (dAAd.mass_eq hc 1) (.inl ⟨m0, rfl⟩) (.inr ⟨m1, rfl⟩)
    have v4 : (dAAd.N c p).v 4 [spinOf s] = sb (legS (p 0) (c.mass .d) s) (legA (p 2) 0 0, legS (p 2) 0 1).2 := bra_square (p := p) (m := dAAd.proc.massNum (dAAd.rho c)) (dAAd.mass_eq hc 0) (dAAd.mass_eq hc 2) (.inl ⟨m0, rfl⟩) (.inr ⟨m2, rfl⟩)
    have v7 : (dAAd.N c p).v 7 [spinOf s'] = ab (legA (p 1) 0 0, legS (p 1) 0 1).1 (legA (p 3) (c.mass .d) s') := bra_angle (p := p) (m := dAAd.proc.massNum (dAAd.rho c)) (dAAd.mass_eq hc 1) (dAAd.mass_eq hc 3) (.inr ⟨m1, rfl⟩) (.inl ⟨m3, rfl⟩)
    have v12 : (dAAd.N c p).v 12 [] = mb (legA (p 2) 0 0, legS (p 2) 0 1).2 (p 3) (legA (p 1) 0 0, legS (p 1) 0 1).1 := bra_mid_square (p := p) (m := dAAd.proc.massNum (dAAd.rho c)) (dAAd.mass_eq hc 2) (dAAd.mass_eq hc 1) (.inr ⟨m2, rfl⟩) (.inr ⟨m1, rfl⟩)
    simp only [dAAd.termMP, v0, v3, v4, v7, v12]
    simp only [c0, c1]
    simp only [norm_mul, norm_div, Complex.norm_real, Real.norm_eq_abs, mul_pow, div_pow, sq_abs, a2]
    rw [a1]
    ring
  have SMM : ∑ s, ∑ s', ‖dAAd.termMM (dAAd.N c p) (spinOf s) (spinOf s')‖ ^ 2 = 
      ((((((-((2 : Nat) : ℝ)) * (dAAd.N c p).r 0) * (dAAd.N c p).r 0) * (dAAd.N c p).r 1) * (dAAd.N c p).r 1) * (dAAd.N c p).r 2) ^ 2 * (2 * dot (p 1) (p 2)) ^ 2 / ((-(2 * dot (p 0) (p 2))) ^ 2 * ((2 * dot (p 0) (p 1))) ^ 2) * (2 * dot (p 0) (p 3)) := by
    have a1 := y1.ab_norm y2
    have a3 := g0.sb_norm g3
    rw [← a3, Finset.mul_sum]
    refine Finset.sum_congr rfl fun s _ => ?_
    rw [Finset.mul_sum]
    refine Finset.sum_congr rfl fun s' _ => ?_
    have v9 : (dAAd.N c p).v 9 [] = ab (legA (p 1) 0 0, legS (p 1) 0 1).1 (legA (p 2) 0 0, legS (p 2) 0 1).1 := bra_angle (p := p) (m := dAAd.proc.massNum (dAAd.rho c)) (dAAd.mass_eq hc 1) (dAAd.mass_eq hc 2) (.inr ⟨m1, rfl⟩) (.inr ⟨m2, rfl⟩)
    have v10 : (dAAd.N c p).v 10 [spinOf s, spinOf s'] = sb (legS (p 0) (c.mass .d) s) (legS (p 3) (c.mass .d) s') := bra_square (p := p) (m := dAAd.proc.massNum (dAAd.rho c)) (dAAd.mass_eq hc 0) (dAAd.mass_eq hc 3) (.inl ⟨m0, rfl⟩) (.inl ⟨m3, rfl⟩)
    simp only [dAAd.termMM, v9, v10]
    simp only [c0, c1]
    simp only [norm_mul, norm_div, Complex.norm_real, Real.norm_eq_abs, mul_pow, div_pow, sq_abs] at a1 ⊢
    rw [a1]
    ring
  refine ⟨fun n hn => ?_, fun n hn => ?_, ?_⟩
  · rcases hd _ hn with h | h <;> cases h
  · rcases hd _ hn with h | h <;> cases h
    · rw [c0]; exact Complex.ofReal_ne_zero.2 n0
    · rw [c1]; exact Complex.ofReal_ne_zero.2 n1
  rw [dAAd.value]
  simp only [sumW, sumJ]
  have u0 : spinOf 0 = -1 := rfl
  have u1 : spinOf 1 = 1 := rfl
  rw [Fin.sum_univ_two, Fin.sum_univ_two, Fin.sum_univ_two, u0, u1] at SPP SPM SMP SMM
  simp only [dAAd.ampPP, dAAd.ampPM, dAAd.ampMP, dAAd.ampMM]
  have T : ∀ {s0 s1 s2 s3 a0 a1 a2 a3 b0 b1 b2 b3 d0 d1 d2 d3 x y z v W : ℝ}, s0 + s1 + (s2 + s3) = x → a0 + a1 + (a2 + a3) = y → b0 + b1 + (b2 + b3) = z → d0 + d1 + (d2 + d3) = v →
      s0 * W + s1 * W + s2 * W + s3 * W + a0 * W + a1 * W + a2 * W + a3 * W + b0 * W + b1 * W + b2 * W + b3 * W + d0 * W + d1 * W + d2 * W + d3 * W = (x + y + z + v) * W := by
    intros; subst_vars; ring
  have T' := T SPP SPM SMP SMM (W := ((3 : Nat) : ℝ))
  refine (congrArg (· / ((12 : Nat) : ℝ)) (Eq.trans ?_ T')).trans ?_
  · push_cast; ring
  clear T' SPP SPM SMP SMM
  simp only [dAAd.textbook, r0, r1, r2, q0, q3]
  simp only [kleinNishina, breitWheeler, dot_comm (p 1) (p 0), dot_comm (p 2) (p 0), dot_comm (p 2) (p 1), dot_comm (p 3) (p 0), dot_comm (p 3) (p 1), dot_comm (p 3) (p 2), k1, k2, k3, k4]
  generalize dot (p 0) (p 1) = a at *
  generalize dot (p 0) (p 2) = b at *
  generalize c.mass .d = m at *
  push_cast
  field_simp
  ring

theorem dAAd.returns : dAAd.Returns dAAd.proc.amp2 dAAd.Apart dAAd.textbook :=
  returns_of (by simp [all, dAAd]) (by decide +kernel) (by decide +kernel) (fun _ hc i => dAAd.mass_eq hc i) (by decide +kernel) fun _ _ hc hh h0 hs hb ha => dAAd.closed hc hh h0 hs hb ha

/-- `dAgd`: the momenta are off the poles -/
def dAgd.Apart (p : Nat → V4 ℝ) : Prop := dot (p 0) (p 1) ≠ 0 ∧ dot (p 0) (p 2) ≠ 0
/-- `dAgd`: the formula of textbooks -/
noncomputable def dAgd.textbook (c : Constants) (p : Nat → V4 ℝ) : ℝ := 4 / 3 * (1 / 3 * c.e) ^ 2 * c.gs ^ 2 * kleinNishina (c.mass .d) (dot (p 0) (p 1)) (dot (p 0) (p 2))

theorem dAgd.closed {c : Constants} {p : Nat → V4 ℝ} (hc : c.Physical) (hh : c.Heavy) (h0 : ∀ i, 0 ≤ dAgd.react.mass c i) (hs : ∀ i : Fin 4, OnShell (p i) (dAgd.react.mass c i)) (hb : Balanced p) (ha : dAgd.Apart p) :
    (∀ n, (Ty.r, n) ∈ dAgd.proc.divides → (dAgd.N c p).r n ≠ 0) ∧ (∀ n, (Ty.c, n) ∈ dAgd.proc.divides → (dAgd.N c p).c n ≠ 0) ∧ meaning (dAgd.N c p) .r Cls.dAgd.methods Cls.dAgd.amp2 [] = dAgd.textbook c p := by
  have q0 : msq (p 0) = (c.mass .d) ^ 2 := onShell_msq (hs 0)
  have q1 : msq (p 1) = (0 : ℝ) ^ 2 := onShell_msq (hs 1)
  have q2 : msq (p 2) = (0 : ℝ) ^ 2 := onShell_msq (hs 2)
  have q3 : msq (p 3) = (c.mass .d) ^ 2 := onShell_msq (hs 3)
  have g0 : Grams (p 0) (c.mass .d) (legA (p 0) (c.mass .d)) (legS (p 0) (c.mass .d)) := legs_grams (hs 0) (h0 0)
  have m0 : dAgd.react.mass c 0 ≠ 0 := (leg_pos hc hh (by decide)).ne'
  have g3 : Grams (p 3) (c.mass .d) (legA (p 3) (c.mass .d)) (legS (p 3) (c.mass .d)) := legs_grams (hs 3) (h0 3)
  have m3 : dAgd.react.mass c 3 ≠ 0 := (leg_pos hc hh (by decide)).ne'
  have y1 : Ray (p 1) (legA (p 1) 0 0, legS (p 1) 0 1) := ray_code (hs 1)
  have m1 : dAgd.react.mass c 1 = 0 := rfl
  have y2 : Ray (p 2) (legA (p 2) 0 0, legS (p 2) 0 1) := ray_code (hs 2)
  have m2 : dAgd.react.mass c 2 = 0 := rfl
  obtain ⟨k1, k2, k3, k4⟩ := dots_ends hb q0 q1 q2 q3
  obtain ⟨z1, z2⟩ := ha
  have KM : (c.mass .d) ^ 2 + (0 : ℝ) ^ 2 = (c.mass .d) ^ 2 := by ring
  have KM' : (0 : ℝ) ^ 2 + (c.mass .d) ^ 2 = (c.mass .d) ^ 2 := by ring
  have KM0 : (0 : ℝ) ^ 2 + (0 : ℝ) ^ 2 = ((0 : Nat) : ℝ) ^ 2 := by norm_num
  have c0 : (dAgd.N c p).c 0 = ((-(2 * dot (p 0) (p 2)) : ℝ) : ℂ) := pole_sub q0 q2 KM
  have n0 : (-(2 * dot (p 0) (p 2)) : ℝ) ≠ 0 := by
    try simp only [dot_comm (p 1) (p 0), dot_comm (p 2) (p 0), dot_comm (p 2) (p 1), dot_comm (p 3) (p 0), dot_comm (p 3) (p 1), dot_comm (p 3) (p 2), k1, k2, k3, k4]
    first | exact mul_ne_zero two_ne_zero z1 | exact mul_ne_zero two_ne_zero z2 | exact neg_ne_zero.2 (mul_ne_zero two_ne_zero z1) | exact neg_ne_zero.2 (mul_ne_zero two_ne_zero z2)
  have c1 : (dAgd.N c p).c 1 = (((2 * dot (p 0) (p 1)) : ℝ) : ℂ) := pole_add q0 q1 KM
  have n1 : ((2 * dot (p 0) (p 1)) : ℝ) ≠ 0 := by
    try simp only [dot_comm (p 1) (p 0), dot_comm (p 2) (p 0), dot_comm (p 2) (p 1), dot_comm (p 3) (p 0), dot_comm (p 3) (p 1), dot_comm (p 3) (p 2), k1, k2, k3, k4]
    first | exact mul_ne_zero two_ne_zero z1 | exact mul_ne_zero two_ne_zero z2 | exact neg_ne_zero.2 (mul_ne_zero two_ne_zero z1) | exact neg_ne_zero.2 (mul_ne_zero two_ne_zero z2)
  have r0 : (dAgd.N c p).r 0 = c.e := rfl
  have r1 : (dAgd.N c p).r 1 = ((-((1 : Nat) : ℝ)) / ((3 : Nat) : ℝ)) := rfl
  have r2 : (dAgd.N c p).r 2 = c.gs := rfl
  have r3 : (dAgd.N c p).r 3 = (c.mass .d) := rfl
  have hd : ∀ v ∈ dAgd.proc.divides, v = (Ty.c, 0) ∨ v = (Ty.c, 1) := by decide +kernel
  have SPP : ∑ s, ∑ s', ‖dAgd.termPP (dAgd.N c p) (spinOf s) (spinOf s')‖ ^ 2 = 
      ((((((2 : Nat) : ℝ) * (dAgd.N c p).r 0) * (dAgd.N c p).r 1) * (dAgd.N c p).r 2) * (dAgd.N c p).r 3) ^ 2 * (2 * dot (p 1) (p 2)) ^ 2 / ((-(2 * dot (p 0) (p 2))) ^ 2 * ((2 * dot (p 0) (p 1))) ^ 2) * (2 * dot (p 0) (p 3)) := by
    have a1 := y1.sb_norm y2
    have a3 := g0.ab_norm g3
    rw [← a3, Finset.mul_sum]
    refine Finset.sum_congr rfl fun s _ => ?_
    rw [Finset.mul_sum]
    refine Finset.sum_congr rfl fun s' _ => ?_
    have v8 : (dAgd.N c p).v 8 [] = sb (legA (p 1) 0 0, legS (p 1) 0 1).2 (legA (p 2) 0 0, legS (p 2) 0 1).2 := bra_square (p := p) (m := dAgd.proc.massNum (dAgd.rho c)) (dAgd.mass_eq hc 1) (dAgd.mass_eq hc 2) (.inr ⟨m1, rfl⟩) (.inr ⟨m2, rfl⟩)
    have v11 : (dAgd.N c p).v 11 [spinOf s, spinOf s'] = ab (legA (p 0) (c.mass .d) s) (legA (p 3) (c.mass .d) s') := bra_angle (p := p) (m := dAgd.proc.massNum (dAgd.rho c)) (dAgd.mass_eq hc 0) (dAgd.mass_eq hc 3) (.inl ⟨m0, rfl⟩) (.inl ⟨m3, rfl⟩)
    simp only [dAgd.termPP, v8, v11]
    simp only [c0, c1]
    simp only [norm_mul, norm_div, Complex.norm_real, Real.norm_eq_abs, mul_pow, div_pow, sq_abs] at a1 ⊢
    rw [a1]
    ring
  have SPM : ∑ s, ∑ s', ‖dAgd.termPM (dAgd.N c p) (spinOf s) (spinOf s')‖ ^ 2 = 
      ((((-((2 : Nat) : ℝ)) * (dAgd.N c p).r 0) * (dAgd.N c p).r 1) * (dAgd.N c p).r 2) ^ 2 * (2 * dot (p 1) (p 3) * (2 * dot (p 2) (p 3)) - msq (p 3) * (2 * dot (p 1) (p 2))) / ((-(2 * dot (p 0) (p 2))) ^ 2 * ((2 * dot (p 0) (p 1))) ^ 2) * (2 * dot (p 1) (p 0) * (2 * dot (p 2) (p 3)) + (-1 : ℝ) ^ 2 * (2 * dot (p 1) (p 3) * (2 * dot (p 2) (p 0))) + 2 * (-1 : ℝ) * ((c.mass .d) * (c.mass .d)) * (2 * dot (p 1) (p 2))) := by
    have a1 := y1.mb_norm y2 (p 3)
    have a3 := y1.unlike y2 g0 g3 (-1)
    have a2 : ∀ s s', ‖((ab (legA (p 2) 0 0, legS (p 2) 0 1).1 (legA (p 3) (c.mass .d) s')) * (sb (legS (p 0) (c.mass .d) s) (legA (p 1) 0 0, legS (p 1) 0 1).2)) - ((ab (legA (p 0) (c.mass .d) s) (legA (p 2) 0 0, legS (p 2) 0 1).1) * (sb (legA (p 1) 0 0, legS (p 1) 0 1).2 (legS (p 3) (c.mass .d) s')))‖ = ‖sb (legA (p 1) 0 0, legS (p 1) 0 1).2 (legS (p 0) (c.mass .d) s) * ab (legA (p 2) 0 0, legS (p 2) 0 1).1 (legA (p 3) (c.mass .d) s') + ((-1 : ℝ) : ℂ) * (sb (legA (p 1) 0 0, legS (p 1) 0 1).2 (legS (p 3) (c.mass .d) s') * ab (legA (p 2) 0 0, legS (p 2) 0 1).1 (legA (p 0) (c.mass .d) s))‖ := by
      intro s s'
      first
        | (congr 1; simp only [sb, ab]; push_cast; ring1)
        | (rw [← norm_neg]; congr 1; simp only [sb, ab]; push_cast; ring1)
    rw [← a3, Finset.mul_sum]
    refine Finset.sum_congr rfl fun s _ => ?_
    rw [Finset.mul_sum]
    refine Finset.sum_congr rfl fun s' _ => ?_
    have v1 : (dAgd.N c p).v 1 [spinOf s'] = ab (legA (p 2) 0 0, legS (p 2) 0 1).1 (legA (p 3) (c.mass .d) s') := bra_angle (p := p) (m := dAgd.proc.massNum (dAgd.rho c)) (dAgd.mass_eq hc 2) (dAgd.mass_eq hc 3) (.inr ⟨m2, rfl⟩) (.inl ⟨m3, rfl⟩)
    have v2 : (dAgd.N c p).v 2 [spinOf s] = sb (legS (p 0) (c.mass .d) s) (legA (p 1) 0 0, legS (p 1) 0 1).2 := bra_square (p := p) (m := dAgd.proc.massNum (dAgd.rho c)) (dAgd.mass_eq hc 0) (dAgd.mass_eq hc 1) (.inl ⟨m0, rfl⟩) (.inr ⟨m1, rfl⟩)
    have v5 : (dAgd.N c p).v 5 [spinOf s] = ab (legA (p 0) (c.mass .d) s) (legA (p 2) 0 0, legS (p 2) 0 1).1 := bra_angle (p := p) (m := dAgd.proc.massNum (dAgd.rho c)) (dAgd.mass_eq hc 0) (dAgd.mass_eq hc 2) (.inl ⟨m0, rfl⟩) (.inr ⟨m2, rfl⟩)
    have v6 : (dAgd.N c p).v 6 [spinOf s'] = sb (legA (p 1) 0 0, legS (p 1) 0 1).2 (legS (p 3) (c.mass .d) s') := bra_square (p := p) (m := dAgd.proc.massNum (dAgd.rho c)) (dAgd.mass_eq hc 1) (dAgd.mass_eq hc 3) (.inr ⟨m1, rfl⟩) (.inl ⟨m3, rfl⟩)
    have v13 : (dAgd.N c p).v 13 [] = mb (legA (p 1) 0 0, legS (p 1) 0 1).2 (p 3) (legA (p 2) 0 0, legS (p 2) 0 1).1 := bra_mid_square (p := p) (m := dAgd.proc.massNum (dAgd.rho c)) (dAgd.mass_eq hc 1) (dAgd.mass_eq hc 2) (.inr ⟨m1, rfl⟩) (.inr ⟨m2, rfl⟩)
    simp only [dAgd.termPM, v1, v2, v5, v6, v13]
    simp only [c0, c1]
    simp only [norm_mul, norm_div, Complex.norm_real, Real.norm_eq_abs, mul_pow, div_pow, sq_abs, a2]
    rw [a1]
    ring
  have SMP : ∑ s, ∑ s', ‖dAgd.termMP (dAgd.N c p) (spinOf s) (spinOf s')‖ ^ 2 = 
      (((((2 : Nat) : ℝ) * (dAgd.N c p).r 0) * (dAgd.N c p).r 1) * (dAgd.N c p).r 2) ^ 2 * (2 * dot (p 2) (p 3) * (2 * dot (p 1) (p 3)) - msq (p 3) * (2 * dot (p 2) (p 1))) / ((-(2 * dot (p 0) (p 2))) ^ 2 * ((2 * dot (p 0) (p 1))) ^ 2) * (2 * dot (p 2) (p 0) * (2 * dot (p 1) (p 3)) + (-1 : ℝ) ^ 2 * (2 * dot (p 2) (p 3) * (2 * dot (p 1) (p 0))) + 2 * (-1 : ℝ) * ((c.mass .d) * (c.mass .d)) * (2 * dot (p 2) (p 1))) := by
    have a1 := y2.mb_norm y1 (p 3)
    have a3 := y2.unlike y1 g0 g3 (-1)
    have a2 : ∀ s s', ‖((sb (legA (p 2) 0 0, legS (p 2) 0 1).2 (legS (p 3) (c.mass .d) s')) * (ab (legA (p 0) (c.mass .d) s) (legA (p 1) 0 0, legS (p 1) 0 1).1)) - ((sb (legS (p 0) (c.mass .d) s) (legA (p 2) 0 0, legS (p 2) 0 1).2) * (ab (legA (p 1) 0 0, legS (p 1) 0 1).1 (legA (p 3) (c.mass .d) s')))‖ = ‖sb (legA (p 2) 0 0, legS (p 2) 0 1).2 (legS (p 0) (c.mass .d) s) * ab (legA (p 1) 0 0, legS (p 1) 0 1).1 (legA (p 3) (c.mass .d) s') + ((-1 : ℝ) : ℂ) * (sb (legA (p 2) 0 0, legS (p 2) 0 1).2 (legS (p 3) (c.mass .d) s') * ab (legA (p 1) 0 0, legS (p 1) 0 1).1 (legA (p 0) (c.mass .d) s))‖ := by
      intro s s'
      first
        | (congr 1; simp only [sb, ab]; push_cast; ring1)
        | (rw [← norm_neg]; congr 1; simp only [sb, ab]; push_cast; ring1)
    rw [← a3, Finset.mul_sum]
    refine Finset.sum_congr rfl fun s _ => ?_
    rw [Finset.mul_sum]
    refine Finset.sum_congr rfl fun s' _ => ?_
    have v0 : (dAgd.N c p).v 0 [spinOf s'] = sb (legA (p 2) 0 0, legS (p 2) 0 1).2 (legS (p 3) (c.mass .d) s') := bra_square (p := p) (m := dAgd.proc.massNum (dAgd.rho c)) (dAgd.mass_eq hc 2) (dAgd.mass_eq hc 3) (.inr ⟨m2, rfl⟩) (.inl ⟨m3, rfl⟩)
    have v3 : (dAgd.N c p).v 3 [spinOf s] = ab (legA (p 0) (c.mass .d) s) (legA (p 1) 0 0, legS (p 1) 0 1).1 := bra_angle (p := p) (m := dAgd.proc.massNum (dAgd.rho c)) (dAgd.mass_eq hc 0) (dAgd.mass_eq hc 1) (.inl ⟨m0, rfl⟩) (.inr ⟨m1, rfl⟩)
    have v4 : (dAgd.N c p).v 4 [spinOf s] = sb (legS (p 0) (c.mass .d) s) (legA (p 2) 0 0, legS (p 2) 0 1).2 := bra_square (p := p) (m := dAgd.proc.massNum (dAgd.rho c)) (dAgd.mass_eq hc 0) (dAgd.mass_eq hc 2) (.inl ⟨m0, rfl⟩) (.inr ⟨m2, rfl⟩)
    have v7 : (dAgd.N c p).v 7 [spinOf s'] = ab (legA (p 1) 0 0, legS (p 1) 0 1).1 (legA (p 3) (c.mass .d) s') := bra_angle (p := p) (m := dAgd.proc.massNum (dAgd.rho c)) (dAgd.mass_eq hc 1) (dAgd.mass_eq hc 3) (.inr ⟨m1, rfl⟩) (.inl ⟨m3, rfl⟩)
    have v12 : (dAgd.N c p).v 12 [] = mb (legA (p 2) 0 0, legS (p 2) 0 1).2 (p 3) (legA (p 1) 0 0, legS (p 1) 0 1).1 := bra_mid_square (p := p) (m := dAgd.proc.massNum (dAgd.rho c)) (dAgd.mass_eq hc 2) (dAgd.mass_eq hc 1) (.inr ⟨m2, rfl⟩) (.inr ⟨m1, rfl⟩)
    simp only [dAgd.termMP, v0, v3, v4, v7, v12]
    simp only [c0, c1]
    simp only [norm_mul, norm_div, Complex.norm_real, Real.norm_eq_abs, mul_pow, div_pow, sq_abs, a2]
    rw [a1]
    ring
  have SMM : ∑ s, ∑ s', ‖dAgd.termMM (dAgd.N c p) (spinOf s) (spinOf s')‖ ^ 2 = 
      (((((-((2 : Nat) : ℝ)) * (dAgd.N c p).r 0) * (dAgd.N c p).r 1) * (dAgd.N c p).r 2) * (dAgd.N c p).r 3) ^ 2 * (2 * dot (p 1) (p 2)) ^ 2 / ((-(2 * dot (p 0) (p 2))) ^ 2 * ((2 * dot (p 0) (p 1))) ^ 2) * (2 * dot (p 0) (p 3)) := by
    have a1 := y1.ab_norm y2
    have a3 := g0.sb_norm g3
    rw [← a3, Finset.mul_sum]
    refine Finset.sum_congr rfl fun s _ => ?_
    rw [Finset.mul_sum]
    refine Finset.sum_congr rfl fun s' _ => ?_
    have v9 : (dAgd.N c p).v 9 [] = ab (legA (p 1) 0 0, legS (p 1) 0 1).1 (legA (p 2) 0 0, legS (p 2) 0 1).1 := bra_angle (p := p) (m := dAgd.proc.massNum (dAgd.rho c)) (dAgd.mass_eq hc 1) (dAgd.mass_eq hc 2) (.inr ⟨m1, rfl⟩) (.inr ⟨m2, rfl⟩)
    have v10 : (dAgd.N c p).v 10 [spinOf s, spinOf s'] = sb (legS (p 0) (c.mass .d) s) (legS (p 3) (c.mass .d) s') := bra_square (p := p) (m := dAgd.proc.massNum (dAgd.rho c)) (dAgd.mass_eq hc 0) (dAgd.mass_eq hc 3) (.inl ⟨m0, rfl⟩) (.inl ⟨m3, rfl⟩)
    simp only [dAgd.termMM, v9, v10]
    simp only [c0, c1]
    simp only [norm_mul, norm_div, Complex.norm_real, Real.norm_eq_abs, mul_pow, div_pow, sq_abs] at a1 ⊢
    rw [a1]
    ring
  refine ⟨fun n hn => ?_, fun n hn => ?_, ?_⟩
  · rcases hd _ hn with h | h <;> cases h
  · rcases hd _ hn with h | h <;> cases h
    · rw [c0]; exact Complex.ofReal_ne_zero.2 n0
    · rw [c1]; exact Complex.ofReal_ne_zero.2 n1
  rw [dAgd.value]
  simp only [sumW, sumJ]
  have u0 : spinOf 0 = -1 := rfl
  have u1 : spinOf 1 = 1 := rfl
  rw [Fin.sum_univ_two, Fin.sum_univ_two, Fin.sum_univ_two, u0, u1] at SPP SPM SMP SMM
  simp only [dAgd.ampPP, dAgd.ampPM, dAgd.ampMP, dAgd.ampMM]
  have T : ∀ {s0 s1 s2 s3 a0 a1 a2 a3 b0 b1 b2 b3 d0 d1 d2 d3 x y z v W : ℝ}, s0 + s1 + (s2 + s3) = x → a0 + a1 + (a2 + a3) = y → b0 + b1 + (b2 + b3) = z → d0 + d1 + (d2 + d3) = v →
      s0 * W + s1 * W + s2 * W + s3 * W + a0 * W + a1 * W + a2 * W + a3 * W + b0 * W + b1 * W + b2 * W + b3 * W + d0 * W + d1 * W + d2 * W + d3 * W = (x + y + z + v) * W := by
    intros; subst_vars; ring
  have T' := T SPP SPM SMP SMM (W := ((4 : Nat) : ℝ))
  refine (congrArg (· / ((12 : Nat) : ℝ)) (Eq.trans ?_ T')).trans ?_
  · push_cast; ring
  clear T' SPP SPM SMP SMM
  simp only [dAgd.textbook, r0, r1, r2, r3, q0, q3]
  simp only [kleinNishina, breitWheeler, dot_comm (p 1) (p 0), dot_comm (p 2) (p 0), dot_comm (p 2) (p 1), dot_comm (p 3) (p 0), dot_comm (p 3) (p 1), dot_comm (p 3) (p 2), k1, k2, k3, k4]
  generalize dot (p 0) (p 1) = a at *
  generalize dot (p 0) (p 2) = b at *
  generalize c.mass .d = m at *
  push_cast
  field_simp
  ring

theorem dAgd.returns : dAgd.Returns dAgd.proc.amp2 dAgd.Apart dAgd.textbook :=
  returns_of (by simp [all, dAgd]) (by decide +kernel) (by decide +kernel) (fun _ hc i => dAgd.mass_eq hc i) (by decide +kernel) fun _ _ hc hh h0 hs hb ha => dAgd.closed hc hh h0 hs hb ha

/-- `guAu`: the momenta are off the poles -/
def guAu.Apart (p : Nat → V4 ℝ) : Prop := dot (p 0) (p 1) ≠ 0 ∧ dot (p 1) (p 2) ≠ 0
/-- `guAu`: the formula of textbooks -/
noncomputable def guAu.textbook (c : Constants) (p : Nat → V4 ℝ) : ℝ := (2 / 3 * c.e) ^ 2 * c.gs ^ 2 / 6 * kleinNishina (c.mass .u) (dot (p 0) (p 1)) (dot (p 1) (p 2))

theorem guAu.closed {c : Constants} {p : Nat → V4 ℝ} (hc : c.Physical) (hh : c.Heavy) (h0 : ∀ i, 0 ≤ guAu.react.mass c i) (hs : ∀ i : Fin 4, OnShell (p i) (guAu.react.mass c i)) (hb : Balanced p) (ha : guAu.Apart p) :
    (∀ n, (Ty.r, n) ∈ guAu.proc.divides → (guAu.N c p).r n ≠ 0) ∧ (∀ n, (Ty.c, n) ∈ guAu.proc.divides → (guAu.N c p).c n ≠ 0) ∧ meaning (guAu.N c p) .r Cls.guAu.methods Cls.guAu.amp2 [] = guAu.textbook c p := by
  have q0 : msq (p 0) = (0 : ℝ) ^ 2 := onShell_msq (hs 0)
  have q1 : msq (p 1) = (c.mass .u) ^ 2 := onShell_msq (hs 1)
  have q2 : msq (p 2) = (0 : ℝ) ^ 2 := onShell_msq (hs 2)
  have q3 : msq (p 3) = (c.mass .u) ^ 2 := onShell_msq (hs 3)
  have g1 : Grams (p 1) (c.mass .u) (legA (p 1) (c.mass .u)) (legS (p 1) (c.mass .u)) := legs_grams (hs 1) (h0 1)
  have m1 : guAu.react.mass c 1 ≠ 0 := (leg_pos hc hh (by decide)).ne'
  have g3 : Grams (p 3) (c.mass .u) (legA (p 3) (c.mass .u)) (legS (p 3) (c.mass .u)) := legs_grams (hs 3) (h0 3)
  have m3 : guAu.react.mass c 3 ≠ 0 := (leg_pos hc hh (by decide)).ne'
  have y0 : Ray (p 0) (legA (p 0) 0 0, legS (p 0) 0 1) := ray_code (hs 0)
  have m0 : guAu.react.mass c 0 = 0 := rfl
  have y2 : Ray (p 2) (legA (p 2) 0 0, legS (p 2) 0 1) := ray_code (hs 2)
  have m2 : guAu.react.mass c 2 = 0 := rfl
  obtain ⟨k1, k2, k3, k4⟩ := dots_second hb q0 q1 q2 q3
  obtain ⟨z1, z2⟩ := ha
  have KM : (c.mass .u) ^ 2 + (0 : ℝ) ^ 2 = (c.mass .u) ^ 2 := by ring
  have KM' : (0 : ℝ) ^ 2 + (c.mass .u) ^ 2 = (c.mass .u) ^ 2 := by ring
  have KM0 : (0 : ℝ) ^ 2 + (0 : ℝ) ^ 2 = ((0 : Nat) : ℝ) ^ 2 := by norm_num
  have c0 : (guAu.N c p).c 0 = (((2 * dot (p 0) (p 1)) : ℝ) : ℂ) := pole_add q0 q1 KM'
  have n0 : ((2 * dot (p 0) (p 1)) : ℝ) ≠ 0 := by
    try simp only [dot_comm (p 1) (p 0), dot_comm (p 2) (p 0), dot_comm (p 2) (p 1), dot_comm (p 3) (p 0), dot_comm (p 3) (p 1), dot_comm (p 3) (p 2), k1, k2, k3, k4]
    first | exact mul_ne_zero two_ne_zero z1 | exact mul_ne_zero two_ne_zero z2 | exact neg_ne_zero.2 (mul_ne_zero two_ne_zero z1) | exact neg_ne_zero.2 (mul_ne_zero two_ne_zero z2)
  have c1 : (guAu.N c p).c 1 = ((-(2 * dot (p 0) (p 3)) : ℝ) : ℂ) := pole_sub q0 q3 KM'
  have n1 : (-(2 * dot (p 0) (p 3)) : ℝ) ≠ 0 := by
    try simp only [dot_comm (p 1) (p 0), dot_comm (p 2) (p 0), dot_comm (p 2) (p 1), dot_comm (p 3) (p 0), dot_comm (p 3) (p 1), dot_comm (p 3) (p 2), k1, k2, k3, k4]
    first | exact mul_ne_zero two_ne_zero z1 | exact mul_ne_zero two_ne_zero z2 | exact neg_ne_zero.2 (mul_ne_zero two_ne_zero z1) | exact neg_ne_zero.2 (mul_ne_zero two_ne_zero z2)
  have r0 : (guAu.N c p).r 0 = c.e := rfl
  have r1 : (guAu.N c p).r 1 = (((2 : Nat) : ℝ) / ((3 : Nat) : ℝ)) := rfl
  have r2 : (guAu.N c p).r 2 = c.gs := rfl
  have r3 : (guAu.N c p).r 3 = (c.mass .u) := rfl
  have hd : ∀ v ∈ guAu.proc.divides, v = (Ty.c, 0) ∨ v = (Ty.c, 1) := by decide +kernel
  have SPP : ∑ s, ∑ s', ‖guAu.termPP (guAu.N c p) (spinOf s) (spinOf s')‖ ^ 2 = 
      ((((((2 : Nat) : ℝ) * (guAu.N c p).r 0) * (guAu.N c p).r 1) * (guAu.N c p).r 2) * (guAu.N c p).r 3) ^ 2 * (2 * dot (p 0) (p 2)) ^ 2 / (((2 * dot (p 0) (p 1))) ^ 2 * (-(2 * dot (p 0) (p 3))) ^ 2) * (2 * dot (p 1) (p 3)) := by
    have a1 := y0.sb_norm y2
    have a3 := g1.ab_norm g3
    rw [← a3, Finset.mul_sum]
    refine Finset.sum_congr rfl fun s _ => ?_
    rw [Finset.mul_sum]
    refine Finset.sum_congr rfl fun s' _ => ?_
    have v4 : (guAu.N c p).v 4 [] = sb (legA (p 0) 0 0, legS (p 0) 0 1).2 (legA (p 2) 0 0, legS (p 2) 0 1).2 := bra_square (p := p) (m := guAu.proc.massNum (guAu.rho c)) (guAu.mass_eq hc 0) (guAu.mass_eq hc 2) (.inr ⟨m0, rfl⟩) (.inr ⟨m2, rfl⟩)
    have v7 : (guAu.N c p).v 7 [spinOf s, spinOf s'] = ab (legA (p 1) (c.mass .u) s) (legA (p 3) (c.mass .u) s') := bra_angle (p := p) (m := guAu.proc.massNum (guAu.rho c)) (guAu.mass_eq hc 1) (guAu.mass_eq hc 3) (.inl ⟨m1, rfl⟩) (.inl ⟨m3, rfl⟩)
    simp only [guAu.termPP, v4, v7]
    simp only [c0, c1]
    simp only [norm_mul, norm_div, Complex.norm_real, Real.norm_eq_abs, mul_pow, div_pow, sq_abs] at a1 ⊢
    rw [a1]
    ring
  have SPM : ∑ s, ∑ s', ‖guAu.termPM (guAu.N c p) (spinOf s) (spinOf s')‖ ^ 2 = 
      (((((2 : Nat) : ℝ) * (guAu.N c p).r 0) * (guAu.N c p).r 1) * (guAu.N c p).r 2) ^ 2 * (2 * dot (p 0) (p 3) * (2 * dot (p 2) (p 3)) - msq (p 3) * (2 * dot (p 0) (p 2))) / (((2 * dot (p 0) (p 1))) ^ 2 * (-(2 * dot (p 0) (p 3))) ^ 2) * (2 * dot (p 0) (p 1) * (2 * dot (p 2) (p 3)) + (-1 : ℝ) ^ 2 * (2 * dot (p 0) (p 3) * (2 * dot (p 2) (p 1))) + 2 * (-1 : ℝ) * ((c.mass .u) * (c.mass .u)) * (2 * dot (p 0) (p 2))) := by
    have a1 := y0.mb_norm y2 (p 3)
    have a3 := y0.unlike y2 g1 g3 (-1)
    have a2 : ∀ s s', ‖((sb (legA (p 0) 0 0, legS (p 0) 0 1).2 (legS (p 3) (c.mass .u) s')) * (ab (legA (p 1) (c.mass .u) s) (legA (p 2) 0 0, legS (p 2) 0 1).1)) + ((sb (legA (p 0) 0 0, legS (p 0) 0 1).2 (legS (p 1) (c.mass .u) s)) * (ab (legA (p 2) 0 0, legS (p 2) 0 1).1 (legA (p 3) (c.mass .u) s')))‖ = ‖sb (legA (p 0) 0 0, legS (p 0) 0 1).2 (legS (p 1) (c.mass .u) s) * ab (legA (p 2) 0 0, legS (p 2) 0 1).1 (legA (p 3) (c.mass .u) s') + ((-1 : ℝ) : ℂ) * (sb (legA (p 0) 0 0, legS (p 0) 0 1).2 (legS (p 3) (c.mass .u) s') * ab (legA (p 2) 0 0, legS (p 2) 0 1).1 (legA (p 1) (c.mass .u) s))‖ := by
      intro s s'
      first
        | (congr 1; simp only [sb, ab]; push_cast; ring1)
        | (rw [← norm_neg]; congr 1; simp only [sb, ab]; push_cast; ring1)
    rw [← a3, Finset.mul_sum]
    refine Finset.sum_congr rfl fun s _ => ?_
    rw [Finset.mul_sum]
    refine Finset.sum_congr rfl fun s' _ => ?_
    have v1 : (guAu.N c p).v 1 [spinOf s'] = ab (legA (p 2) 0 0, legS (p 2) 0 1).1 (legA (p 3) (c.mass .u) s') := bra_angle (p := p) (m := guAu.proc.massNum (guAu.rho c)) (guAu.mass_eq hc 2) (guAu.mass_eq hc 3) (.inr ⟨m2, rfl⟩) (.inl ⟨m3, rfl⟩)
    have v2 : (guAu.N c p).v 2 [spinOf s] = sb (legA (p 0) 0 0, legS (p 0) 0 1).2 (legS (p 1) (c.mass .u) s) := bra_square (p := p) (m := guAu.proc.massNum (guAu.rho c)) (guAu.mass_eq hc 0) (guAu.mass_eq hc 1) (.inr ⟨m0, rfl⟩) (.inl ⟨m1, rfl⟩)
    have v9 : (guAu.N c p).v 9 [spinOf s] = ab (legA (p 1) (c.mass .u) s) (legA (p 2) 0 0, legS (p 2) 0 1).1 := bra_angle (p := p) (m := guAu.proc.massNum (guAu.rho c)) (guAu.mass_eq hc 1) (guAu.mass_eq hc 2) (.inl ⟨m1, rfl⟩) (.inr ⟨m2, rfl⟩)
    have v10 : (guAu.N c p).v 10 [spinOf s'] = sb (legA (p 0) 0 0, legS (p 0) 0 1).2 (legS (p 3) (c.mass .u) s') := bra_square (p := p) (m := guAu.proc.massNum (guAu.rho c)) (guAu.mass_eq hc 0) (guAu.mass_eq hc 3) (.inr ⟨m0, rfl⟩) (.inl ⟨m3, rfl⟩)
    have v12 : (guAu.N c p).v 12 [] = mb (legA (p 0) 0 0, legS (p 0) 0 1).2 (p 3) (legA (p 2) 0 0, legS (p 2) 0 1).1 := bra_mid_square (p := p) (m := guAu.proc.massNum (guAu.rho c)) (guAu.mass_eq hc 0) (guAu.mass_eq hc 2) (.inr ⟨m0, rfl⟩) (.inr ⟨m2, rfl⟩)
    simp only [guAu.termPM, v1, v2, v9, v10, v12]
    simp only [c0, c1]
    simp only [norm_mul, norm_div, Complex.norm_real, Real.norm_eq_abs, mul_pow, div_pow, sq_abs, a2]
    rw [a1]
    ring
  have SMP : ∑ s, ∑ s', ‖guAu.termMP (guAu.N c p) (spinOf s) (spinOf s')‖ ^ 2 = 
      ((((-((2 : Nat) : ℝ)) * (guAu.N c p).r 0) * (guAu.N c p).r 1) * (guAu.N c p).r 2) ^ 2 * (2 * dot (p 2) (p 3) * (2 * dot (p 0) (p 3)) - msq (p 3) * (2 * dot (p 2) (p 0))) / (((2 * dot (p 0) (p 1))) ^ 2 * (-(2 * dot (p 0) (p 3))) ^ 2) * (2 * dot (p 2) (p 1) * (2 * dot (p 0) (p 3)) + (-1 : ℝ) ^ 2 * (2 * dot (p 2) (p 3) * (2 * dot (p 0) (p 1))) + 2 * (-1 : ℝ) * ((c.mass .u) * (c.mass .u)) * (2 * dot (p 2) (p 0))) := by
    have a1 := y2.mb_norm y0 (p 3)
    have a3 := y2.unlike y0 g1 g3 (-1)
    have a2 : ∀ s s', ‖((ab (legA (p 0) 0 0, legS (p 0) 0 1).1 (legA (p 3) (c.mass .u) s')) * (sb (legS (p 1) (c.mass .u) s) (legA (p 2) 0 0, legS (p 2) 0 1).2)) + ((ab (legA (p 0) 0 0, legS (p 0) 0 1).1 (legA (p 1) (c.mass .u) s)) * (sb (legA (p 2) 0 0, legS (p 2) 0 1).2 (legS (p 3) (c.mass .u) s')))‖ = ‖sb (legA (p 2) 0 0, legS (p 2) 0 1).2 (legS (p 1) (c.mass .u) s) * ab (legA (p 0) 0 0, legS (p 0) 0 1).1 (legA (p 3) (c.mass .u) s') + ((-1 : ℝ) : ℂ) * (sb (legA (p 2) 0 0, legS (p 2) 0 1).2 (legS (p 3) (c.mass .u) s') * ab (legA (p 0) 0 0, legS (p 0) 0 1).1 (legA (p 1) (c.mass .u) s))‖ := by
      intro s s'
      first
        | (congr 1; simp only [sb, ab]; push_cast; ring1)
        | (rw [← norm_neg]; congr 1; simp only [sb, ab]; push_cast; ring1)
    rw [← a3, Finset.mul_sum]
    refine Finset.sum_congr rfl fun s _ => ?_
    rw [Finset.mul_sum]
    refine Finset.sum_congr rfl fun s' _ => ?_
    have v0 : (guAu.N c p).v 0 [spinOf s'] = sb (legA (p 2) 0 0, legS (p 2) 0 1).2 (legS (p 3) (c.mass .u) s') := bra_square (p := p) (m := guAu.proc.massNum (guAu.rho c)) (guAu.mass_eq hc 2) (guAu.mass_eq hc 3) (.inr ⟨m2, rfl⟩) (.inl ⟨m3, rfl⟩)
    have v3 : (guAu.N c p).v 3 [spinOf s] = ab (legA (p 0) 0 0, legS (p 0) 0 1).1 (legA (p 1) (c.mass .u) s) := bra_angle (p := p) (m := guAu.proc.massNum (guAu.rho c)) (guAu.mass_eq hc 0) (guAu.mass_eq hc 1) (.inr ⟨m0, rfl⟩) (.inl ⟨m1, rfl⟩)
    have v8 : (guAu.N c p).v 8 [spinOf s] = sb (legS (p 1) (c.mass .u) s) (legA (p 2) 0 0, legS (p 2) 0 1).2 := bra_square (p := p) (m := guAu.proc.massNum (guAu.rho c)) (guAu.mass_eq hc 1) (guAu.mass_eq hc 2) (.inl ⟨m1, rfl⟩) (.inr ⟨m2, rfl⟩)
    have v11 : (guAu.N c p).v 11 [spinOf s'] = ab (legA (p 0) 0 0, legS (p 0) 0 1).1 (legA (p 3) (c.mass .u) s') := bra_angle (p := p) (m := guAu.proc.massNum (guAu.rho c)) (guAu.mass_eq hc 0) (guAu.mass_eq hc 3) (.inr ⟨m0, rfl⟩) (.inl ⟨m3, rfl⟩)
    have v13 : (guAu.N c p).v 13 [] = mb (legA (p 2) 0 0, legS (p 2) 0 1).2 (p 3) (legA (p 0) 0 0, legS (p 0) 0 1).1 := bra_mid_square (p := p) (m := guAu.proc.massNum (guAu.rho c)) (guAu.mass_eq hc 2) (guAu.mass_eq hc 0) (.inr ⟨m2, rfl⟩) (.inr ⟨m0, rfl⟩)
    simp only [guAu.termMP, v0, v3, v8, v11, v13]
    simp only [c0, c1]
    simp only [norm_mul, norm_div, Complex.norm_real, Real.norm_eq_abs, mul_pow, div_pow, sq_abs, a2]
    rw [a1]
    ring
  have SMM : ∑ s, ∑ s', ‖guAu.termMM (guAu.N c p) (spinOf s) (spinOf s')‖ ^ 2 = 
      (((((-((2 : Nat) : ℝ)) * (guAu.N c p).r 0) * (guAu.N c p).r 1) * (guAu.N c p).r 2) * (guAu.N c p).r 3) ^ 2 * (2 * dot (p 0) (p 2)) ^ 2 / (((2 * dot (p 0) (p 1))) ^ 2 * (-(2 * dot (p 0) (p 3))) ^ 2) * (2 * dot (p 1) (p 3)) := by
    have a1 := y0.ab_norm y2
    have a3 := g1.sb_norm g3
    rw [← a3, Finset.mul_sum]
    refine Finset.sum_congr rfl fun s _ => ?_
    rw [Finset.mul_sum]
    refine Finset.sum_congr rfl fun s' _ => ?_
    have v5 : (guAu.N c p).v 5 [] = ab (legA (p 0) 0 0, legS (p 0) 0 1).1 (legA (p 2) 0 0, legS (p 2) 0 1).1 := bra_angle (p := p) (m := guAu.proc.massNum (guAu.rho c)) (guAu.mass_eq hc 0) (guAu.mass_eq hc 2) (.inr ⟨m0, rfl⟩) (.inr ⟨m2, rfl⟩)
    have v6 : (guAu.N c p).v 6 [spinOf s, spinOf s'] = sb (legS (p 1) (c.mass .u) s) (legS (p 3) (c.mass .u) s') := bra_square (p := p) (m := guAu.proc.massNum (guAu.rho c)) (guAu.mass_eq hc 1) (guAu.mass_eq hc 3) (.inl ⟨m1, rfl⟩) (.inl ⟨m3, rfl⟩)
    simp only [guAu.termMM, v5, v6]
    simp only [c0, c1]
    simp only [norm_mul, norm_div, Complex.norm_real, Real.norm_eq_abs, mul_pow, div_pow, sq_abs] at a1 ⊢
    rw [a1]
    ring
  refine ⟨fun n hn => ?_, fun n hn => ?_, ?_⟩
  · rcases hd _ hn with h | h <;> cases h
  · rcases hd _ hn with h | h <;> cases h
    · rw [c0]; exact Complex.ofReal_ne_zero.2 n0
    · rw [c1]; exact Complex.ofReal_ne_zero.2 n1
  rw [guAu.value]
  simp only [sumW, sumJ]
  have u0 : spinOf 0 = -1 := rfl
  have u1 : spinOf 1 = 1 := rfl
  rw [Fin.sum_univ_two, Fin.sum_univ_two, Fin.sum_univ_two, u0, u1] at SPP SPM SMP SMM
  simp only [guAu.ampPP, guAu.ampPM, guAu.ampMP, guAu.ampMM]
  have T : ∀ {s0 s1 s2 s3 a0 a1 a2 a3 b0 b1 b2 b3 d0 d1 d2 d3 x y z v W : ℝ}, s0 + s1 + (s2 + s3) = x → a0 + a1 + (a2 + a3) = y → b0 + b1 + (b2 + b3) = z → d0 + d1 + (d2 + d3) = v →
      s0 * W + s1 * W + s2 * W + s3 * W + a0 * W + a1 * W + a2 * W + a3 * W + b0 * W + b1 * W + b2 * W + b3 * W + d0 * W + d1 * W + d2 * W + d3 * W = (x + y + z + v) * W := by
    intros; subst_vars; ring
  have T' := T SPP SPM SMP SMM (W := ((4 : Nat) : ℝ))
  refine (congrArg (· / ((96 : Nat) : ℝ)) (Eq.trans ?_ T')).trans ?_
  · push_cast; ring
  clear T' SPP SPM SMP SMM
  simp only [guAu.textbook, r0, r1, r2, r3, q1, q3]
  simp only [kleinNishina, breitWheeler, dot_comm (p 1) (p 0), dot_comm (p 2) (p 0), dot_comm (p 2) (p 1), dot_comm (p 3) (p 0), dot_comm (p 3) (p 1), dot_comm (p 3) (p 2), k1, k2, k3, k4]
  generalize dot (p 0) (p 1) = a at *
  generalize dot (p 1) (p 2) = b at *
  generalize c.mass .u = m at *
  push_cast
  field_simp
  ring

theorem guAu.returns : guAu.Returns guAu.proc.amp2 guAu.Apart guAu.textbook :=
  returns_of (by simp [all, guAu]) (by decide +kernel) (by decide +kernel) (fun _ hc i => guAu.mass_eq hc i) (by decide +kernel) fun _ _ hc hh h0 hs hb ha => guAu.closed hc hh h0 hs hb ha

/-- `dggd`: the momenta are off the poles -/
def dggd.Apart (p : Nat → V4 ℝ) : Prop := dot (p 0) (p 1) ≠ 0 ∧ dot (p 0) (p 2) ≠ 0 ∧ dot (p 1) (p 2) ≠ 0
/-- `dggd`: the formula of textbooks -/
noncomputable def dggd.textbook (c : Constants) (p : Nat → V4 ℝ) : ℝ := quarkCompton c.gs (c.mass .d) (dot (p 0) (p 1)) (dot (p 0) (p 2))

theorem dggd.closed {c : Constants} {p : Nat → V4 ℝ} (hc : c.Physical) (hh : c.Heavy) (h0 : ∀ i, 0 ≤ dggd.react.mass c i) (hs : ∀ i : Fin 4, OnShell (p i) (dggd.react.mass c i)) (hb : Balanced p) (ha : dggd.Apart p) :
    (∀ n, (Ty.r, n) ∈ dggd.proc.divides → (dggd.N c p).r n ≠ 0) ∧ (∀ n, (Ty.c, n) ∈ dggd.proc.divides → (dggd.N c p).c n ≠ 0) ∧ meaning (dggd.N c p) .r Cls.dggd.methods Cls.dggd.amp2 [] = dggd.textbook c p := by
  have q0 : msq (p 0) = (c.mass .d) ^ 2 := onShell_msq (hs 0)
  have q1 : msq (p 1) = (0 : ℝ) ^ 2 := onShell_msq (hs 1)
  have q2 : msq (p 2) = (0 : ℝ) ^ 2 := onShell_msq (hs 2)
  have q3 : msq (p 3) = (c.mass .d) ^ 2 := onShell_msq (hs 3)
  have g0 : Grams (p 0) (c.mass .d) (legA (p 0) (c.mass .d)) (legS (p 0) (c.mass .d)) := legs_grams (hs 0) (h0 0)
  have m0 : dggd.react.mass c 0 ≠ 0 := (leg_pos hc hh (by decide)).ne'
  have g3 : Grams (p 3) (c.mass .d) (legA (p 3) (c.mass .d)) (legS (p 3) (c.mass .d)) := legs_grams (hs 3) (h0 3)
  have m3 : dggd.react.mass c 3 ≠ 0 := (leg_pos hc hh (by decide)).ne'
  have y1 : Ray (p 1) (legA (p 1) 0 0, legS (p 1) 0 1) := ray_code (hs 1)
  have m1 : dggd.react.mass c 1 = 0 := rfl
  have y2 : Ray (p 2) (legA (p 2) 0 0, legS (p 2) 0 1) := ray_code (hs 2)
  have m2 : dggd.react.mass c 2 = 0 := rfl
  obtain ⟨k1, k2, k3, k4⟩ := dots_ends hb q0 q1 q2 q3
  obtain ⟨z1, z2, z3⟩ := ha
  have KM : (c.mass .d) ^ 2 + (0 : ℝ) ^ 2 = (c.mass .d) ^ 2 := by ring
  have KM' : (0 : ℝ) ^ 2 + (c.mass .d) ^ 2 = (c.mass .d) ^ 2 := by ring
  have KM0 : (0 : ℝ) ^ 2 + (0 : ℝ) ^ 2 = ((0 : Nat) : ℝ) ^ 2 := by norm_num
  have e2 : (dggd.N c p).r 2 = (2 * dot (p 0) (p 1)) := by
    have : (dggd.N c p).r 2 = (poleDist (c.mass .d) ((0 : Nat) : ℝ) ((VExp.add 0 1).sum p)).re := rfl
    rw [this, pole_add q0 q1 KM, Complex.ofReal_re]
  have n2 : ((2 * dot (p 0) (p 1)) : ℝ) ≠ 0 := by
    try simp only [dot_comm (p 1) (p 0), dot_comm (p 2) (p 0), dot_comm (p 2) (p 1), dot_comm (p 3) (p 0), dot_comm (p 3) (p 1), dot_comm (p 3) (p 2), k1, k2, k3, k4] at z3 ⊢
    first | exact mul_ne_zero two_ne_zero z1 | exact mul_ne_zero two_ne_zero z2 | exact mul_ne_zero two_ne_zero z3 | exact neg_ne_zero.2 (mul_ne_zero two_ne_zero z1) | exact neg_ne_zero.2 (mul_ne_zero two_ne_zero z2) | exact neg_ne_zero.2 (mul_ne_zero two_ne_zero z3)
  have e3 : (dggd.N c p).r 3 = -(2 * dot (p 0) (p 2)) := by
    have : (dggd.N c p).r 3 = (poleDist (c.mass .d) ((0 : Nat) : ℝ) ((VExp.sub 0 2).sum p)).re := rfl
    rw [this, pole_sub q0 q2 KM, Complex.ofReal_re]
  have n3 : (-(2 * dot (p 0) (p 2)) : ℝ) ≠ 0 := by
    try simp only [dot_comm (p 1) (p 0), dot_comm (p 2) (p 0), dot_comm (p 2) (p 1), dot_comm (p 3) (p 0), dot_comm (p 3) (p 1), dot_comm (p 3) (p 2), k1, k2, k3, k4] at z3 ⊢
    first | exact mul_ne_zero two_ne_zero z1 | exact mul_ne_zero two_ne_zero z2 | exact mul_ne_zero two_ne_zero z3 | exact neg_ne_zero.2 (mul_ne_zero two_ne_zero z1) | exact neg_ne_zero.2 (mul_ne_zero two_ne_zero z2) | exact neg_ne_zero.2 (mul_ne_zero two_ne_zero z3)
  have e4 : (dggd.N c p).r 4 = -(2 * dot (p 1) (p 2)) := by
    have : (dggd.N c p).r 4 = (poleDist ((0 : Nat) : ℝ) ((0 : Nat) : ℝ) ((VExp.sub 0 3).sum p)).re := rfl
    rw [this, pole_ends hb q1 q2, Complex.ofReal_re]
  have n4 : (-(2 * dot (p 1) (p 2)) : ℝ) ≠ 0 := by
    try simp only [dot_comm (p 1) (p 0), dot_comm (p 2) (p 0), dot_comm (p 2) (p 1), dot_comm (p 3) (p 0), dot_comm (p 3) (p 1), dot_comm (p 3) (p 2), k1, k2, k3, k4] at z3 ⊢
    first | exact mul_ne_zero two_ne_zero z1 | exact mul_ne_zero two_ne_zero z2 | exact mul_ne_zero two_ne_zero z3 | exact neg_ne_zero.2 (mul_ne_zero two_ne_zero z1) | exact neg_ne_zero.2 (mul_ne_zero two_ne_zero z2) | exact neg_ne_zero.2 (mul_ne_zero two_ne_zero z3)
  have r0 : (dggd.N c p).r 0 = c.gs := rfl
  have r1 : (dggd.N c p).r 1 = c.mass .d := rfl
  have hd : ∀ v ∈ dggd.proc.divides, v = (Ty.r, 2) ∨ v = (Ty.r, 3) ∨ v = (Ty.r, 4) := by decide +kernel
  have SPP : ∑ s, ∑ s', ‖dggd.termPP (dggd.N c p) (spinOf s) (spinOf s')‖ ^ 2 = 
      ((((-((2 : Nat) : ℝ)) * (dggd.N c p).r 0) * (dggd.N c p).r 0) * (dggd.N c p).r 1) ^ 2 * (2 * dot (p 1) (p 2)) ^ 2 / (1) * (2 * dot (p 0) (p 3)) := by
    have a1 := y1.sb_norm y2
    have a3 := g0.ab_norm g3
    rw [← a3, Finset.mul_sum]
    refine Finset.sum_congr rfl fun s _ => ?_
    rw [Finset.mul_sum]
    refine Finset.sum_congr rfl fun s' _ => ?_
    have v8 : (dggd.N c p).v 8 [] = sb (legA (p 1) 0 0, legS (p 1) 0 1).2 (legA (p 2) 0 0, legS (p 2) 0 1).2 := bra_square (p := p) (m := dggd.proc.massNum (dggd.rho c)) (dggd.mass_eq hc 1) (dggd.mass_eq hc 2) (.inr ⟨m1, rfl⟩) (.inr ⟨m2, rfl⟩)
    have v11 : (dggd.N c p).v 11 [spinOf s, spinOf s'] = ab (legA (p 0) (c.mass .d) s) (legA (p 3) (c.mass .d) s') := bra_angle (p := p) (m := dggd.proc.massNum (dggd.rho c)) (dggd.mass_eq hc 0) (dggd.mass_eq hc 3) (.inl ⟨m0, rfl⟩) (.inl ⟨m3, rfl⟩)
    simp only [dggd.termPP, v8, v11]
    simp only [norm_mul, norm_div, Complex.norm_real, Real.norm_eq_abs, mul_pow, div_pow, sq_abs] at a1 ⊢
    rw [a1]
    ring
  have SPM : ∑ s, ∑ s', ‖dggd.termPM (dggd.N c p) (spinOf s) (spinOf s')‖ ^ 2 = 
      (((-((2 : Nat) : ℝ)) * (dggd.N c p).r 0) * (dggd.N c p).r 0) ^ 2 * (2 * dot (p 1) (p 0) * (2 * dot (p 2) (p 0)) - msq (p 0) * (2 * dot (p 1) (p 2))) / (1) * (2 * dot (p 1) (p 0) * (2 * dot (p 2) (p 3)) + (-1 : ℝ) ^ 2 * (2 * dot (p 1) (p 3) * (2 * dot (p 2) (p 0))) + 2 * (-1 : ℝ) * ((c.mass .d) * (c.mass .d)) * (2 * dot (p 1) (p 2))) := by
    have a1 := y1.mb_norm y2 (p 0)
    have a3 := y1.unlike y2 g0 g3 (-1)
    have a2 : ∀ s s', ‖(ab (legA (p 0) (c.mass .d) s) (legA (p 2) 0 0, legS (p 2) 0 1).1) * (sb (legA (p 1) 0 0, legS (p 1) 0 1).2 (legS (p 3) (c.mass .d) s')) - (ab (legA (p 2) 0 0, legS (p 2) 0 1).1 (legA (p 3) (c.mass .d) s')) * (sb (legS (p 0) (c.mass .d) s) (legA (p 1) 0 0, legS (p 1) 0 1).2)‖ = ‖sb (legA (p 1) 0 0, legS (p 1) 0 1).2 (legS (p 0) (c.mass .d) s) * ab (legA (p 2) 0 0, legS (p 2) 0 1).1 (legA (p 3) (c.mass .d) s') + ((-1 : ℝ) : ℂ) * (sb (legA (p 1) 0 0, legS (p 1) 0 1).2 (legS (p 3) (c.mass .d) s') * ab (legA (p 2) 0 0, legS (p 2) 0 1).1 (legA (p 0) (c.mass .d) s))‖ := by
      intro s s'
      first
        | (congr 1; simp only [sb, ab]; push_cast; ring1)
        | (rw [← norm_neg]; congr 1; simp only [sb, ab]; push_cast; ring1)
    rw [← a3, Finset.mul_sum]
    refine Finset.sum_congr rfl fun s _ => ?_
    rw [Finset.mul_sum]
    refine Finset.sum_congr rfl fun s' _ => ?_
    have v1 : (dggd.N c p).v 1 [spinOf s'] = ab (legA (p 2) 0 0, legS (p 2) 0 1).1 (legA (p 3) (c.mass .d) s') := bra_angle (p := p) (m := dggd.proc.massNum (dggd.rho c)) (dggd.mass_eq hc 2) (dggd.mass_eq hc 3) (.inr ⟨m2, rfl⟩) (.inl ⟨m3, rfl⟩)
    have v2 : (dggd.N c p).v 2 [spinOf s] = sb (legS (p 0) (c.mass .d) s) (legA (p 1) 0 0, legS (p 1) 0 1).2 := bra_square (p := p) (m := dggd.proc.massNum (dggd.rho c)) (dggd.mass_eq hc 0) (dggd.mass_eq hc 1) (.inl ⟨m0, rfl⟩) (.inr ⟨m1, rfl⟩)
    have v5 : (dggd.N c p).v 5 [spinOf s] = ab (legA (p 0) (c.mass .d) s) (legA (p 2) 0 0, legS (p 2) 0 1).1 := bra_angle (p := p) (m := dggd.proc.massNum (dggd.rho c)) (dggd.mass_eq hc 0) (dggd.mass_eq hc 2) (.inl ⟨m0, rfl⟩) (.inr ⟨m2, rfl⟩)
    have v6 : (dggd.N c p).v 6 [spinOf s'] = sb (legA (p 1) 0 0, legS (p 1) 0 1).2 (legS (p 3) (c.mass .d) s') := bra_square (p := p) (m := dggd.proc.massNum (dggd.rho c)) (dggd.mass_eq hc 1) (dggd.mass_eq hc 3) (.inr ⟨m1, rfl⟩) (.inl ⟨m3, rfl⟩)
    have v13 : (dggd.N c p).v 13 [] = mb (legA (p 1) 0 0, legS (p 1) 0 1).2 (p 0) (legA (p 2) 0 0, legS (p 2) 0 1).1 := bra_mid_square (p := p) (m := dggd.proc.massNum (dggd.rho c)) (dggd.mass_eq hc 1) (dggd.mass_eq hc 2) (.inr ⟨m1, rfl⟩) (.inr ⟨m2, rfl⟩)
    simp only [dggd.termPM, v1, v2, v5, v6, v13]
    simp only [norm_mul, norm_div, Complex.norm_real, Real.norm_eq_abs, mul_pow, div_pow, sq_abs, a2]
    rw [a1]
    ring
  have SMP : ∑ s, ∑ s', ‖dggd.termMP (dggd.N c p) (spinOf s) (spinOf s')‖ ^ 2 = 
      ((((2 : Nat) : ℝ) * (dggd.N c p).r 0) * (dggd.N c p).r 0) ^ 2 * (2 * dot (p 2) (p 0) * (2 * dot (p 1) (p 0)) - msq (p 0) * (2 * dot (p 2) (p 1))) / (1) * (2 * dot (p 2) (p 0) * (2 * dot (p 1) (p 3)) + (-1 : ℝ) ^ 2 * (2 * dot (p 2) (p 3) * (2 * dot (p 1) (p 0))) + 2 * (-1 : ℝ) * ((c.mass .d) * (c.mass .d)) * (2 * dot (p 2) (p 1))) := by
    have a1 := y2.mb_norm y1 (p 0)
    have a3 := y2.unlike y1 g0 g3 (-1)
    have a2 : ∀ s s', ‖(sb (legS (p 0) (c.mass .d) s) (legA (p 2) 0 0, legS (p 2) 0 1).2) * (ab (legA (p 1) 0 0, legS (p 1) 0 1).1 (legA (p 3) (c.mass .d) s')) - (sb (legA (p 2) 0 0, legS (p 2) 0 1).2 (legS (p 3) (c.mass .d) s')) * (ab (legA (p 0) (c.mass .d) s) (legA (p 1) 0 0, legS (p 1) 0 1).1)‖ = ‖sb (legA (p 2) 0 0, legS (p 2) 0 1).2 (legS (p 0) (c.mass .d) s) * ab (legA (p 1) 0 0, legS (p 1) 0 1).1 (legA (p 3) (c.mass .d) s') + ((-1 : ℝ) : ℂ) * (sb (legA (p 2) 0 0, legS (p 2) 0 1).2 (legS (p 3) (c.mass .d) s') * ab (legA (p 1) 0 0, legS (p 1) 0 1).1 (legA (p 0) (c.mass .d) s))‖ := by
      intro s s'
      first
        | (congr 1; simp only [sb, ab]; push_cast; ring1)
        | (rw [← norm_neg]; congr 1; simp only [sb, ab]; push_cast; ring1)
    rw [← a3, Finset.mul_sum]
    refine Finset.sum_congr rfl fun s _ => ?_
    rw [Finset.mul_sum]
    refine Finset.sum_congr rfl fun s' _ => ?_
    have v0 : (dggd.N c p).v 0 [spinOf s'] = sb (legA (p 2) 0 0, legS (p 2) 0 1).2 (legS (p 3) (c.mass .d) s') := bra_square (p := p) (m := dggd.proc.massNum (dggd.rho c)) (dggd.mass_eq hc 2) (dggd.mass_eq hc 3) (.inr ⟨m2, rfl⟩) (.inl ⟨m3, rfl⟩)
    have v3 : (dggd.N c p).v 3 [spinOf s] = ab (legA (p 0) (c.mass .d) s) (legA (p 1) 0 0, legS (p 1) 0 1).1 := bra_angle (p := p) (m := dggd.proc.massNum (dggd.rho c)) (dggd.mass_eq hc 0) (dggd.mass_eq hc 1) (.inl ⟨m0, rfl⟩) (.inr ⟨m1, rfl⟩)
    have v4 : (dggd.N c p).v 4 [spinOf s] = sb (legS (p 0) (c.mass .d) s) (legA (p 2) 0 0, legS (p 2) 0 1).2 := bra_square (p := p) (m := dggd.proc.massNum (dggd.rho c)) (dggd.mass_eq hc 0) (dggd.mass_eq hc 2) (.inl ⟨m0, rfl⟩) (.inr ⟨m2, rfl⟩)
    have v7 : (dggd.N c p).v 7 [spinOf s'] = ab (legA (p 1) 0 0, legS (p 1) 0 1).1 (legA (p 3) (c.mass .d) s') := bra_angle (p := p) (m := dggd.proc.massNum (dggd.rho c)) (dggd.mass_eq hc 1) (dggd.mass_eq hc 3) (.inr ⟨m1, rfl⟩) (.inl ⟨m3, rfl⟩)
    have v12 : (dggd.N c p).v 12 [] = mb (legA (p 2) 0 0, legS (p 2) 0 1).2 (p 0) (legA (p 1) 0 0, legS (p 1) 0 1).1 := bra_mid_square (p := p) (m := dggd.proc.massNum (dggd.rho c)) (dggd.mass_eq hc 2) (dggd.mass_eq hc 1) (.inr ⟨m2, rfl⟩) (.inr ⟨m1, rfl⟩)
    simp only [dggd.termMP, v0, v3, v4, v7, v12]
    simp only [norm_mul, norm_div, Complex.norm_real, Real.norm_eq_abs, mul_pow, div_pow, sq_abs, a2]
    rw [a1]
    ring
  have SMM : ∑ s, ∑ s', ‖dggd.termMM (dggd.N c p) (spinOf s) (spinOf s')‖ ^ 2 = 
      (((((2 : Nat) : ℝ) * (dggd.N c p).r 0) * (dggd.N c p).r 0) * (dggd.N c p).r 1) ^ 2 * (2 * dot (p 1) (p 2)) ^ 2 / (1) * (2 * dot (p 0) (p 3)) := by
    have a1 := y1.ab_norm y2
    have a3 := g0.sb_norm g3
    rw [← a3, Finset.mul_sum]
    refine Finset.sum_congr rfl fun s _ => ?_
    rw [Finset.mul_sum]
    refine Finset.sum_congr rfl fun s' _ => ?_
    have v9 : (dggd.N c p).v 9 [] = ab (legA (p 1) 0 0, legS (p 1) 0 1).1 (legA (p 2) 0 0, legS (p 2) 0 1).1 := bra_angle (p := p) (m := dggd.proc.massNum (dggd.rho c)) (dggd.mass_eq hc 1) (dggd.mass_eq hc 2) (.inr ⟨m1, rfl⟩) (.inr ⟨m2, rfl⟩)
    have v10 : (dggd.N c p).v 10 [spinOf s, spinOf s'] = sb (legS (p 0) (c.mass .d) s) (legS (p 3) (c.mass .d) s') := bra_square (p := p) (m := dggd.proc.massNum (dggd.rho c)) (dggd.mass_eq hc 0) (dggd.mass_eq hc 3) (.inl ⟨m0, rfl⟩) (.inl ⟨m3, rfl⟩)
    simp only [dggd.termMM, v9, v10]
    simp only [norm_mul, norm_div, Complex.norm_real, Real.norm_eq_abs, mul_pow, div_pow, sq_abs] at a1 ⊢
    rw [a1]
    ring
  refine ⟨fun n hn => ?_, fun n hn => ?_, ?_⟩
  · rcases hd _ hn with h | h | h <;> cases h
    · rw [e2]; exact n2
    · rw [e3]; exact n3
    · rw [e4]; exact n4
  · rcases hd _ hn with h | h | h <;> cases h
  rw [dggd.value]
  simp only [sumW, sumJ]
  have u0 : spinOf 0 = -1 := rfl
  have u1 : spinOf 1 = 1 := rfl
  rw [Fin.sum_univ_two, Fin.sum_univ_two, Fin.sum_univ_two, u0, u1] at SPP SPM SMP SMM
  simp only [dggd.ampPP, dggd.ampPM, dggd.ampMP, dggd.ampMM]
  have T : ∀ {s0 s1 s2 s3 a0 a1 a2 a3 b0 b1 b2 b3 d0 d1 d2 d3 x y z v W : ℝ}, s0 + s1 + (s2 + s3) = x → a0 + a1 + (a2 + a3) = y → b0 + b1 + (b2 + b3) = z → d0 + d1 + (d2 + d3) = v →
      s0 * W + s1 * W + s2 * W + s3 * W + a0 * W + a1 * W + a2 * W + a3 * W + b0 * W + b1 * W + b2 * W + b3 * W + d0 * W + d1 * W + d2 * W + d3 * W = (x + y + z + v) * W := by
    intros; subst_vars; ring
  have T' := T SPP SPM SMP SMM (W := (((6 : Nat) : ℝ) / ((dggd.N c p).r 4 * (dggd.N c p).r 3) ^ 2 + ((6 : Nat) : ℝ) / ((dggd.N c p).r 4 * (dggd.N c p).r 2) ^ 2) - ((2 : Nat) : ℝ) / ((3 : Nat) : ℝ) / ((dggd.N c p).r 3 * (dggd.N c p).r 2) ^ 2)
  refine (congrArg (· / ((96 : Nat) : ℝ)) (Eq.trans ?_ T')).trans ?_
  · push_cast; ring
  clear T' SPP SPM SMP SMM
  simp only [dggd.textbook, r0, r1, e2, e3, e4, q0, q3]
  rw [compton_kernel c.gs z1 z2 k3.symm z3]
  simp only [kleinNishina, breitWheeler, dot_comm (p 1) (p 0), dot_comm (p 2) (p 0), dot_comm (p 2) (p 1), dot_comm (p 3) (p 0), dot_comm (p 3) (p 1), dot_comm (p 3) (p 2), k1, k2, k3, k4] at z3 ⊢
  generalize dot (p 0) (p 1) = a at *
  generalize dot (p 0) (p 2) = b at *
  generalize c.mass .d = m at *
  push_cast
  field_simp
  ring

theorem dggd.returns : dggd.Returns dggd.proc.amp2 dggd.Apart dggd.textbook :=
  returns_of (by simp [all, dggd]) (by decide +kernel) (by decide +kernel) (fun _ hc i => dggd.mass_eq hc i) (by decide +kernel) fun _ _ hc hh h0 hs hb ha => dggd.closed hc hh h0 hs hb ha

/-- `gugu`: the momenta are off the poles -/
def gugu.Apart (p : Nat → V4 ℝ) : Prop := dot (p 0) (p 1) ≠ 0 ∧ dot (p 1) (p 2) ≠ 0 ∧ dot (p 0) (p 2) ≠ 0
/-- `gugu`: the formula of textbooks -/
noncomputable def gugu.textbook (c : Constants) (p : Nat → V4 ℝ) : ℝ := quarkCompton c.gs (c.mass .u) (dot (p 0) (p 1)) (dot (p 1) (p 2))

theorem gugu.closed {c : Constants} {p : Nat → V4 ℝ} (hc : c.Physical) (hh : c.Heavy) (h0 : ∀ i, 0 ≤ gugu.react.mass c i) (hs : ∀ i : Fin 4, OnShell (p i) (gugu.react.mass c i)) (hb : Balanced p) (ha : gugu.Apart p) :
    (∀ n, (Ty.r, n) ∈ gugu.proc.divides → (gugu.N c p).r n ≠ 0) ∧ (∀ n, (Ty.c, n) ∈ gugu.proc.divides → (gugu.N c p).c n ≠ 0) ∧ meaning (gugu.N c p) .r Cls.gugu.methods Cls.gugu.amp2 [] = gugu.textbook c p := by
  have q0 : msq (p 0) = (0 : ℝ) ^ 2 := onShell_msq (hs 0)
  have q1 : msq (p 1) = (c.mass .u) ^ 2 := onShell_msq (hs 1)
  have q2 : msq (p 2) = (0 : ℝ) ^ 2 := onShell_msq (hs 2)
  have q3 : msq (p 3) = (c.mass .u) ^ 2 := onShell_msq (hs 3)
  have g1 : Grams (p 1) (c.mass .u) (legA (p 1) (c.mass .u)) (legS (p 1) (c.mass .u)) := legs_grams (hs 1) (h0 1)
  have m1 : gugu.react.mass c 1 ≠ 0 := (leg_pos hc hh (by decide)).ne'
  have g3 : Grams (p 3) (c.mass .u) (legA (p 3) (c.mass .u)) (legS (p 3) (c.mass .u)) := legs_grams (hs 3) (h0 3)
  have m3 : gugu.react.mass c 3 ≠ 0 := (leg_pos hc hh (by decide)).ne'
  have y0 : Ray (p 0) (legA (p 0) 0 0, legS (p 0) 0 1) := ray_code (hs 0)
  have m0 : gugu.react.mass c 0 = 0 := rfl
  have y2 : Ray (p 2) (legA (p 2) 0 0, legS (p 2) 0 1) := ray_code (hs 2)
  have m2 : gugu.react.mass c 2 = 0 := rfl
  obtain ⟨k1, k2, k3, k4⟩ := dots_second hb q0 q1 q2 q3
  obtain ⟨z1, z2, z3⟩ := ha
  have KM : (c.mass .u) ^ 2 + (0 : ℝ) ^ 2 = (c.mass .u) ^ 2 := by ring
  have KM' : (0 : ℝ) ^ 2 + (c.mass .u) ^ 2 = (c.mass .u) ^ 2 := by ring
  have KM0 : (0 : ℝ) ^ 2 + (0 : ℝ) ^ 2 = ((0 : Nat) : ℝ) ^ 2 := by norm_num
  have e2 : (gugu.N c p).r 2 = (2 * dot (p 0) (p 1)) := by
    have : (gugu.N c p).r 2 = (poleDist (c.mass .u) ((0 : Nat) : ℝ) ((VExp.add 0 1).sum p)).re := rfl
    rw [this, pole_add q0 q1 KM', Complex.ofReal_re]
  have n2 : ((2 * dot (p 0) (p 1)) : ℝ) ≠ 0 := by
    try simp only [dot_comm (p 1) (p 0), dot_comm (p 2) (p 0), dot_comm (p 2) (p 1), dot_comm (p 3) (p 0), dot_comm (p 3) (p 1), dot_comm (p 3) (p 2), k1, k2, k3, k4] at z3 ⊢
    first | exact mul_ne_zero two_ne_zero z1 | exact mul_ne_zero two_ne_zero z2 | exact mul_ne_zero two_ne_zero z3 | exact neg_ne_zero.2 (mul_ne_zero two_ne_zero z1) | exact neg_ne_zero.2 (mul_ne_zero two_ne_zero z2) | exact neg_ne_zero.2 (mul_ne_zero two_ne_zero z3)
  have e3 : (gugu.N c p).r 3 = -(2 * dot (p 0) (p 2)) := by
    have : (gugu.N c p).r 3 = (poleDist ((0 : Nat) : ℝ) ((0 : Nat) : ℝ) ((VExp.sub 0 2).sum p)).re := rfl
    rw [this, pole_sub q0 q2 KM0, Complex.ofReal_re]
  have n3 : (-(2 * dot (p 0) (p 2)) : ℝ) ≠ 0 := by
    try simp only [dot_comm (p 1) (p 0), dot_comm (p 2) (p 0), dot_comm (p 2) (p 1), dot_comm (p 3) (p 0), dot_comm (p 3) (p 1), dot_comm (p 3) (p 2), k1, k2, k3, k4] at z3 ⊢
    first | exact mul_ne_zero two_ne_zero z1 | exact mul_ne_zero two_ne_zero z2 | exact mul_ne_zero two_ne_zero z3 | exact neg_ne_zero.2 (mul_ne_zero two_ne_zero z1) | exact neg_ne_zero.2 (mul_ne_zero two_ne_zero z2) | exact neg_ne_zero.2 (mul_ne_zero two_ne_zero z3)
  have e4 : (gugu.N c p).r 4 = -(2 * dot (p 0) (p 3)) := by
    have : (gugu.N c p).r 4 = (poleDist (c.mass .u) ((0 : Nat) : ℝ) ((VExp.sub 0 3).sum p)).re := rfl
    rw [this, pole_sub q0 q3 KM', Complex.ofReal_re]
  have n4 : (-(2 * dot (p 0) (p 3)) : ℝ) ≠ 0 := by
    try simp only [dot_comm (p 1) (p 0), dot_comm (p 2) (p 0), dot_comm (p 2) (p 1), dot_comm (p 3) (p 0), dot_comm (p 3) (p 1), dot_comm (p 3) (p 2), k1, k2, k3, k4] at z3 ⊢
    first | exact mul_ne_zero two_ne_zero z1 | exact mul_ne_zero two_ne_zero z2 | exact mul_ne_zero two_ne_zero z3 | exact neg_ne_zero.2 (mul_ne_zero two_ne_zero z1) | exact neg_ne_zero.2 (mul_ne_zero two_ne_zero z2) | exact neg_ne_zero.2 (mul_ne_zero two_ne_zero z3)
  have r0 : (gugu.N c p).r 0 = c.gs := rfl
  have r1 : (gugu.N c p).r 1 = c.mass .u := rfl
  have hd : ∀ v ∈ gugu.proc.divides, v = (Ty.r, 2) ∨ v = (Ty.r, 3) ∨ v = (Ty.r, 4) := by decide +kernel
  have SPP : ∑ s, ∑ s', ‖gugu.termPP (gugu.N c p) (spinOf s) (spinOf s')‖ ^ 2 = 
      (((((2 : Nat) : ℝ) * (gugu.N c p).r 0) * (gugu.N c p).r 0) * (gugu.N c p).r 1) ^ 2 * (2 * dot (p 0) (p 2)) ^ 2 / (1) * (2 * dot (p 1) (p 3)) := by
    have a1 := y0.sb_norm y2
    have a3 := g1.ab_norm g3
    rw [← a3, Finset.mul_sum]
    refine Finset.sum_congr rfl fun s _ => ?_
    rw [Finset.mul_sum]
    refine Finset.sum_congr rfl fun s' _ => ?_
    have v4 : (gugu.N c p).v 4 [] = sb (legA (p 0) 0 0, legS (p 0) 0 1).2 (legA (p 2) 0 0, legS (p 2) 0 1).2 := bra_square (p := p) (m := gugu.proc.massNum (gugu.rho c)) (gugu.mass_eq hc 0) (gugu.mass_eq hc 2) (.inr ⟨m0, rfl⟩) (.inr ⟨m2, rfl⟩)
    have v7 : (gugu.N c p).v 7 [spinOf s, spinOf s'] = ab (legA (p 1) (c.mass .u) s) (legA (p 3) (c.mass .u) s') := bra_angle (p := p) (m := gugu.proc.massNum (gugu.rho c)) (gugu.mass_eq hc 1) (gugu.mass_eq hc 3) (.inl ⟨m1, rfl⟩) (.inl ⟨m3, rfl⟩)
    simp only [gugu.termPP, v4, v7]
    simp only [norm_mul, norm_div, Complex.norm_real, Real.norm_eq_abs, mul_pow, div_pow, sq_abs] at a1 ⊢
    rw [a1]
    ring
  have SPM : ∑ s, ∑ s', ‖gugu.termPM (gugu.N c p) (spinOf s) (spinOf s')‖ ^ 2 = 
      ((((2 : Nat) : ℝ) * (gugu.N c p).r 0) * (gugu.N c p).r 0) ^ 2 * (2 * dot (p 0) (p 3) * (2 * dot (p 2) (p 3)) - msq (p 3) * (2 * dot (p 0) (p 2))) / (1) * (2 * dot (p 0) (p 1) * (2 * dot (p 2) (p 3)) + (-1 : ℝ) ^ 2 * (2 * dot (p 0) (p 3) * (2 * dot (p 2) (p 1))) + 2 * (-1 : ℝ) * ((c.mass .u) * (c.mass .u)) * (2 * dot (p 0) (p 2))) := by
    have a1 := y0.mb_norm y2 (p 3)
    have a3 := y0.unlike y2 g1 g3 (-1)
    have a2 : ∀ s s', ‖(sb (legA (p 0) 0 0, legS (p 0) 0 1).2 (legS (p 3) (c.mass .u) s')) * (ab (legA (p 1) (c.mass .u) s) (legA (p 2) 0 0, legS (p 2) 0 1).1) + (sb (legA (p 0) 0 0, legS (p 0) 0 1).2 (legS (p 1) (c.mass .u) s)) * (ab (legA (p 2) 0 0, legS (p 2) 0 1).1 (legA (p 3) (c.mass .u) s'))‖ = ‖sb (legA (p 0) 0 0, legS (p 0) 0 1).2 (legS (p 1) (c.mass .u) s) * ab (legA (p 2) 0 0, legS (p 2) 0 1).1 (legA (p 3) (c.mass .u) s') + ((-1 : ℝ) : ℂ) * (sb (legA (p 0) 0 0, legS (p 0) 0 1).2 (legS (p 3) (c.mass .u) s') * ab (legA (p 2) 0 0, legS (p 2) 0 1).1 (legA (p 1) (c.mass .u) s))‖ := by
      intro s s'
      first
        | (congr 1; simp only [sb, ab]; push_cast; ring1)
        | (rw [← norm_neg]; congr 1; simp only [sb, ab]; push_cast; ring1)
    rw [← a3, Finset.mul_sum]
    refine Finset.sum_congr rfl fun s _ => ?_
    rw [Finset.mul_sum]
    refine Finset.sum_congr rfl fun s' _ => ?_
    have v1 : (gugu.N c p).v 1 [spinOf s'] = ab (legA (p 2) 0 0, legS (p 2) 0 1).1 (legA (p 3) (c.mass .u) s') := bra_angle (p := p) (m := gugu.proc.massNum (gugu.rho c)) (gugu.mass_eq hc 2) (gugu.mass_eq hc 3) (.inr ⟨m2, rfl⟩) (.inl ⟨m3, rfl⟩)
    have v2 : (gugu.N c p).v 2 [spinOf s] = sb (legA (p 0) 0 0, legS (p 0) 0 1).2 (legS (p 1) (c.mass .u) s) := bra_square (p := p) (m := gugu.proc.massNum (gugu.rho c)) (gugu.mass_eq hc 0) (gugu.mass_eq hc 1) (.inr ⟨m0, rfl⟩) (.inl ⟨m1, rfl⟩)
    have v9 : (gugu.N c p).v 9 [spinOf s] = ab (legA (p 1) (c.mass .u) s) (legA (p 2) 0 0, legS (p 2) 0 1).1 := bra_angle (p := p) (m := gugu.proc.massNum (gugu.rho c)) (gugu.mass_eq hc 1) (gugu.mass_eq hc 2) (.inl ⟨m1, rfl⟩) (.inr ⟨m2, rfl⟩)
    have v10 : (gugu.N c p).v 10 [spinOf s'] = sb (legA (p 0) 0 0, legS (p 0) 0 1).2 (legS (p 3) (c.mass .u) s') := bra_square (p := p) (m := gugu.proc.massNum (gugu.rho c)) (gugu.mass_eq hc 0) (gugu.mass_eq hc 3) (.inr ⟨m0, rfl⟩) (.inl ⟨m3, rfl⟩)
    have v12 : (gugu.N c p).v 12 [] = mb (legA (p 0) 0 0, legS (p 0) 0 1).2 (p 3) (legA (p 2) 0 0, legS (p 2) 0 1).1 := bra_mid_square (p := p) (m := gugu.proc.massNum (gugu.rho c)) (gugu.mass_eq hc 0) (gugu.mass_eq hc 2) (.inr ⟨m0, rfl⟩) (.inr ⟨m2, rfl⟩)
    simp only [gugu.termPM, v1, v2, v9, v10, v12]
    simp only [norm_mul, norm_div, Complex.norm_real, Real.norm_eq_abs, mul_pow, div_pow, sq_abs, a2]
    rw [a1]
    ring
  have SMP : ∑ s, ∑ s', ‖gugu.termMP (gugu.N c p) (spinOf s) (spinOf s')‖ ^ 2 = 
      (((-((2 : Nat) : ℝ)) * (gugu.N c p).r 0) * (gugu.N c p).r 0) ^ 2 * (2 * dot (p 2) (p 3) * (2 * dot (p 0) (p 3)) - msq (p 3) * (2 * dot (p 2) (p 0))) / (1) * (2 * dot (p 2) (p 1) * (2 * dot (p 0) (p 3)) + (-1 : ℝ) ^ 2 * (2 * dot (p 2) (p 3) * (2 * dot (p 0) (p 1))) + 2 * (-1 : ℝ) * ((c.mass .u) * (c.mass .u)) * (2 * dot (p 2) (p 0))) := by
    have a1 := y2.mb_norm y0 (p 3)
    have a3 := y2.unlike y0 g1 g3 (-1)
    have a2 : ∀ s s', ‖(ab (legA (p 0) 0 0, legS (p 0) 0 1).1 (legA (p 3) (c.mass .u) s')) * (sb (legS (p 1) (c.mass .u) s) (legA (p 2) 0 0, legS (p 2) 0 1).2) + (ab (legA (p 0) 0 0, legS (p 0) 0 1).1 (legA (p 1) (c.mass .u) s)) * (sb (legA (p 2) 0 0, legS (p 2) 0 1).2 (legS (p 3) (c.mass .u) s'))‖ = ‖sb (legA (p 2) 0 0, legS (p 2) 0 1).2 (legS (p 1) (c.mass .u) s) * ab (legA (p 0) 0 0, legS (p 0) 0 1).1 (legA (p 3) (c.mass .u) s') + ((-1 : ℝ) : ℂ) * (sb (legA (p 2) 0 0, legS (p 2) 0 1).2 (legS (p 3) (c.mass .u) s') * ab (legA (p 0) 0 0, legS (p 0) 0 1).1 (legA (p 1) (c.mass .u) s))‖ := by
      intro s s'
      first
        | (congr 1; simp only [sb, ab]; push_cast; ring1)
        | (rw [← norm_neg]; congr 1; simp only [sb, ab]; push_cast; ring1)
    rw [← a3, Finset.mul_sum]
    refine Finset.sum_congr rfl fun s _ => ?_
    rw [Finset.mul_sum]
    refine Finset.sum_congr rfl fun s' _ => ?_
    have v0 : (gugu.N c p).v 0 [spinOf s'] = sb (legA (p 2) 0 0, legS (p 2) 0 1).2 (legS (p 3) (c.mass .u) s') := bra_square (p := p) (m := gugu.proc.massNum (gugu.rho c)) (gugu.mass_eq hc 2) (gugu.mass_eq hc 3) (.inr ⟨m2, rfl⟩) (.inl ⟨m3, rfl⟩)
    have v3 : (gugu.N c p).v 3 [spinOf s] = ab (legA (p 0) 0 0, legS (p 0) 0 1).1 (legA (p 1) (c.mass .u) s) := bra_angle (p := p) (m := gugu.proc.massNum (gugu.rho c)) (gugu.mass_eq hc 0) (gugu.mass_eq hc 1) (.inr ⟨m0, rfl⟩) (.inl ⟨m1, rfl⟩)
    have v8 : (gugu.N c p).v 8 [spinOf s] = sb (legS (p 1) (c.mass .u) s) (legA (p 2) 0 0, legS (p 2) 0 1).2 := bra_square (p := p) (m := gugu.proc.massNum (gugu.rho c)) (gugu.mass_eq hc 1) (gugu.mass_eq hc 2) (.inl ⟨m1, rfl⟩) (.inr ⟨m2, rfl⟩)
    have v11 : (gugu.N c p).v 11 [spinOf s'] = ab (legA (p 0) 0 0, legS (p 0) 0 1).1 (legA (p 3) (c.mass .u) s') := bra_angle (p := p) (m := gugu.proc.massNum (gugu.rho c)) (gugu.mass_eq hc 0) (gugu.mass_eq hc 3) (.inr ⟨m0, rfl⟩) (.inl ⟨m3, rfl⟩)
    have v13 : (gugu.N c p).v 13 [] = mb (legA (p 2) 0 0, legS (p 2) 0 1).2 (p 3) (legA (p 0) 0 0, legS (p 0) 0 1).1 := bra_mid_square (p := p) (m := gugu.proc.massNum (gugu.rho c)) (gugu.mass_eq hc 2) (gugu.mass_eq hc 0) (.inr ⟨m2, rfl⟩) (.inr ⟨m0, rfl⟩)
    simp only [gugu.termMP, v0, v3, v8, v11, v13]
    simp only [norm_mul, norm_div, Complex.norm_real, Real.norm_eq_abs, mul_pow, div_pow, sq_abs, a2]
    rw [a1]
    ring
  have SMM : ∑ s, ∑ s', ‖gugu.termMM (gugu.N c p) (spinOf s) (spinOf s')‖ ^ 2 = 
      ((((-((2 : Nat) : ℝ)) * (gugu.N c p).r 0) * (gugu.N c p).r 0) * (gugu.N c p).r 1) ^ 2 * (2 * dot (p 0) (p 2)) ^ 2 / (1) * (2 * dot (p 1) (p 3)) := by
    have a1 := y0.ab_norm y2
    have a3 := g1.sb_norm g3
    rw [← a3, Finset.mul_sum]
    refine Finset.sum_congr rfl fun s _ => ?_
    rw [Finset.mul_sum]
    refine Finset.sum_congr rfl fun s' _ => ?_
    have v5 : (gugu.N c p).v 5 [] = ab (legA (p 0) 0 0, legS (p 0) 0 1).1 (legA (p 2) 0 0, legS (p 2) 0 1).1 := bra_angle (p := p) (m := gugu.proc.massNum (gugu.rho c)) (gugu.mass_eq hc 0) (gugu.mass_eq hc 2) (.inr ⟨m0, rfl⟩) (.inr ⟨m2, rfl⟩)
    have v6 : (gugu.N c p).v 6 [spinOf s, spinOf s'] = sb (legS (p 1) (c.mass .u) s) (legS (p 3) (c.mass .u) s') := bra_square (p := p) (m := gugu.proc.massNum (gugu.rho c)) (gugu.mass_eq hc 1) (gugu.mass_eq hc 3) (.inl ⟨m1, rfl⟩) (.inl ⟨m3, rfl⟩)
    simp only [gugu.termMM, v5, v6]
    simp only [norm_mul, norm_div, Complex.norm_real, Real.norm_eq_abs, mul_pow, div_pow, sq_abs] at a1 ⊢
    rw [a1]
    ring
  refine ⟨fun n hn => ?_, fun n hn => ?_, ?_⟩
  · rcases hd _ hn with h | h | h <;> cases h
    · rw [e2]; exact n2
    · rw [e3]; exact n3
    · rw [e4]; exact n4
  · rcases hd _ hn with h | h | h <;> cases h
  rw [gugu.value]
  simp only [sumW, sumJ]
  have u0 : spinOf 0 = -1 := rfl
  have u1 : spinOf 1 = 1 := rfl
  rw [Fin.sum_univ_two, Fin.sum_univ_two, Fin.sum_univ_two, u0, u1] at SPP SPM SMP SMM
  simp only [gugu.ampPP, gugu.ampPM, gugu.ampMP, gugu.ampMM]
  have T : ∀ {s0 s1 s2 s3 a0 a1 a2 a3 b0 b1 b2 b3 d0 d1 d2 d3 x y z v W : ℝ}, s0 + s1 + (s2 + s3) = x → a0 + a1 + (a2 + a3) = y → b0 + b1 + (b2 + b3) = z → d0 + d1 + (d2 + d3) = v →
      s0 * W + s1 * W + s2 * W + s3 * W + a0 * W + a1 * W + a2 * W + a3 * W + b0 * W + b1 * W + b2 * W + b3 * W + d0 * W + d1 * W + d2 * W + d3 * W = (x + y + z + v) * W := by
    intros; subst_vars; ring
  have T' := T SPP SPM SMP SMM (W := (((6 : Nat) : ℝ) / ((gugu.N c p).r 3 * (gugu.N c p).r 4) ^ 2 + ((6 : Nat) : ℝ) / ((gugu.N c p).r 3 * (gugu.N c p).r 2) ^ 2) - ((2 : Nat) : ℝ) / ((3 : Nat) : ℝ) / ((gugu.N c p).r 4 * (gugu.N c p).r 2) ^ 2)
  refine (congrArg (· / ((96 : Nat) : ℝ)) (Eq.trans ?_ T')).trans ?_
  · push_cast; ring
  clear T' SPP SPM SMP SMM
  simp only [gugu.textbook, r0, r1, e2, e3, e4, q1, q3]
  rw [compton_kernel c.gs z1 z2 k3.symm z3]
  simp only [kleinNishina, breitWheeler, dot_comm (p 1) (p 0), dot_comm (p 2) (p 0), dot_comm (p 2) (p 1), dot_comm (p 3) (p 0), dot_comm (p 3) (p 1), dot_comm (p 3) (p 2), k1, k2, k3, k4] at z3 ⊢
  generalize dot (p 0) (p 1) = a at *
  generalize dot (p 1) (p 2) = b at *
  generalize c.mass .u = m at *
  push_cast
  field_simp
  ring

theorem gugu.returns : gugu.Returns gugu.proc.amp2 gugu.Apart gugu.textbook :=
  returns_of (by simp [all, gugu]) (by decide +kernel) (by decide +kernel) (fun _ hc i => gugu.mass_eq hc i) (by decide +kernel) fun _ _ hc hh h0 hs hb ha => gugu.closed hc hh h0 hs hb ha

end Rows
end SM
end Spinas
