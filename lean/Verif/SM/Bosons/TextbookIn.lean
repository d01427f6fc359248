import Verif.SM.Textbook
import Verif.SM.Bosons.GluonPairs
import Verif.SM.Bosons.GluonPhotonIn
import Verif.SM.Bosons.Photons

/-! Written by tools/bosons/textbook.py: a pair from two massless bosons in closed form. -/

namespace Spinas
open Spec Spec.Reaction Props Matrix
namespace SM
open XR
variable [FPEnv]
namespace Rows
open BRow
set_option linter.unusedSimpArgs false
set_option linter.unusedVariables false
set_option linter.unreachableTactic false
set_option linter.unusedTactic false
set_option maxHeartbeats 1000000

/-- `AAee`: the momenta are off the poles -/
def AAee.Apart (p : Nat → V4 ℝ) : Prop := dot (p 0) (p 2) ≠ 0 ∧ dot (p 0) (p 3) ≠ 0
/-- `AAee`: the formula of textbooks -/
noncomputable def AAee.textbook (c : Constants) (p : Nat → V4 ℝ) : ℝ := c.e ^ 4 * breitWheeler (c.mass .e) (dot (p 0) (p 2)) (dot (p 0) (p 3))

theorem AAee.closed {c : Constants} {p : Nat → V4 ℝ} (hc : c.Physical) (hh : c.Heavy) (h0 : ∀ i, 0 ≤ AAee.react.mass c i) (hs : ∀ i : Fin 4, OnShell (p i) (AAee.react.mass c i)) (hb : Balanced p) (ha : AAee.Apart p) :
    (∀ n, (Ty.r, n) ∈ AAee.proc.divides → (AAee.N c p).r n ≠ 0) ∧ (∀ n, (Ty.c, n) ∈ AAee.proc.divides → (AAee.N c p).c n ≠ 0) ∧ meaning (AAee.N c p) .r Cls.AAee.methods Cls.AAee.amp2 [] = AAee.textbook c p := by
  have q0 : msq (p 0) = (0 : ℝ) ^ 2 := onShell_msq (hs 0)
  have q1 : msq (p 1) = (0 : ℝ) ^ 2 := onShell_msq (hs 1)
  have q2 : msq (p 2) = (c.mass .e) ^ 2 := onShell_msq (hs 2)
  have q3 : msq (p 3) = (c.mass .e) ^ 2 := onShell_msq (hs 3)
  have g2 : Grams (p 2) (c.mass .e) (legA (p 2) (c.mass .e)) (legS (p 2) (c.mass .e)) := legs_grams (hs 2) (h0 2)
  have m2 : AAee.react.mass c 2 ≠ 0 := (leg_pos hc hh (by decide)).ne'
  have g3 : Grams (p 3) (c.mass .e) (legA (p 3) (c.mass .e)) (legS (p 3) (c.mass .e)) := legs_grams (hs 3) (h0 3)
  have m3 : AAee.react.mass c 3 ≠ 0 := (leg_pos hc hh (by decide)).ne'
  have y0 : Ray (p 0) (legA (p 0) 0 0, legS (p 0) 0 1) := ray_code (hs 0)
  have m0 : AAee.react.mass c 0 = 0 := rfl
  have y1 : Ray (p 1) (legA (p 1) 0 0, legS (p 1) 0 1) := ray_code (hs 1)
  have m1 : AAee.react.mass c 1 = 0 := rfl
  obtain ⟨k1, k2, k3, k4⟩ := dots_in hb q0 q1 q2 q3
  obtain ⟨z1, z2⟩ := ha
  have KM : (c.mass .e) ^ 2 + (0 : ℝ) ^ 2 = (c.mass .e) ^ 2 := by ring
  have KM' : (0 : ℝ) ^ 2 + (c.mass .e) ^ 2 = (c.mass .e) ^ 2 := by ring
  have KM0 : (0 : ℝ) ^ 2 + (0 : ℝ) ^ 2 = ((0 : Nat) : ℝ) ^ 2 := by norm_num
  have c0 : (AAee.N c p).c 0 = ((-(2 * dot (p 0) (p 2)) : ℝ) : ℂ) := pole_sub q0 q2 KM'
  have n0 : (-(2 * dot (p 0) (p 2)) : ℝ) ≠ 0 := by
    try simp only [dot_comm (p 1) (p 0), dot_comm (p 2) (p 0), dot_comm (p 2) (p 1), dot_comm (p 3) (p 0), dot_comm (p 3) (p 1), dot_comm (p 3) (p 2), k1, k2, k3, k4]
    first | exact mul_ne_zero two_ne_zero z1 | exact mul_ne_zero two_ne_zero z2 | exact neg_ne_zero.2 (mul_ne_zero two_ne_zero z1) | exact neg_ne_zero.2 (mul_ne_zero two_ne_zero z2)
  have c1 : (AAee.N c p).c 1 = ((-(2 * dot (p 0) (p 3)) : ℝ) : ℂ) := pole_sub q0 q3 KM'
  have n1 : (-(2 * dot (p 0) (p 3)) : ℝ) ≠ 0 := by
    try simp only [dot_comm (p 1) (p 0), dot_comm (p 2) (p 0), dot_comm (p 2) (p 1), dot_comm (p 3) (p 0), dot_comm (p 3) (p 1), dot_comm (p 3) (p 2), k1, k2, k3, k4]
    first | exact mul_ne_zero two_ne_zero z1 | exact mul_ne_zero two_ne_zero z2 | exact neg_ne_zero.2 (mul_ne_zero two_ne_zero z1) | exact neg_ne_zero.2 (mul_ne_zero two_ne_zero z2)
  have r0 : (AAee.N c p).r 0 = c.e := rfl
  have r1 : (AAee.N c p).r 1 = (c.mass .e) := rfl
  have hd : ∀ v ∈ AAee.proc.divides, v = (Ty.c, 0) ∨ v = (Ty.c, 1) := by decide +kernel
  have SPP : ∑ s, ∑ s', ‖AAee.termPP (AAee.N c p) (spinOf s) (spinOf s')‖ ^ 2 = 
      (((((2 : Nat) : ℝ) * (AAee.N c p).r 0) * (AAee.N c p).r 0) * (AAee.N c p).r 1) ^ 2 * (2 * dot (p 0) (p 1)) ^ 2 / ((-(2 * dot (p 0) (p 3))) ^ 2 * (-(2 * dot (p 0) (p 2))) ^ 2) * (2 * dot (p 2) (p 3)) := by
    have a1 := y0.sb_norm y1
    have a3 := g2.ab_norm g3
    rw [← a3, Finset.mul_sum]
    refine Finset.sum_congr rfl fun s _ => ?_
    rw [Finset.mul_sum]
    refine Finset.sum_congr rfl fun s' _ => ?_
    have v1 : (AAee.N c p).v 1 [spinOf s, spinOf s'] = ab (legA (p 2) (c.mass .e) s) (legA (p 3) (c.mass .e) s') := bra_angle (p := p) (m := AAee.proc.massNum (AAee.rho c)) (AAee.mass_eq hc 2) (AAee.mass_eq hc 3) (.inl ⟨m2, rfl⟩) (.inl ⟨m3, rfl⟩)
    have v2 : (AAee.N c p).v 2 [] = sb (legA (p 0) 0 0, legS (p 0) 0 1).2 (legA (p 1) 0 0, legS (p 1) 0 1).2 := bra_square (p := p) (m := AAee.proc.massNum (AAee.rho c)) (AAee.mass_eq hc 0) (AAee.mass_eq hc 1) (.inr ⟨m0, rfl⟩) (.inr ⟨m1, rfl⟩)
    simp only [AAee.termPP, v1, v2]
    simp only [c0, c1]
    simp only [norm_mul, norm_div, Complex.norm_real, Real.norm_eq_abs, mul_pow, div_pow, sq_abs] at a1 ⊢
    rw [a1]
    ring
  have SPM : ∑ s, ∑ s', ‖AAee.termPM (AAee.N c p) (spinOf s) (spinOf s')‖ ^ 2 = 
      (((-((2 : Nat) : ℝ)) * (AAee.N c p).r 0) * (AAee.N c p).r 0) ^ 2 * (2 * dot (p 0) (p 2) * (2 * dot (p 1) (p 2)) - msq (p 2) * (2 * dot (p 0) (p 1))) / ((-(2 * dot (p 0) (p 3))) ^ 2 * (-(2 * dot (p 0) (p 2))) ^ 2) * (2 * dot (p 0) (p 2) * (2 * dot (p 1) (p 3)) + (1 : ℝ) ^ 2 * (2 * dot (p 0) (p 3) * (2 * dot (p 1) (p 2))) + 2 * (1 : ℝ) * ((c.mass .e) * (c.mass .e)) * (2 * dot (p 0) (p 1))) := by
    have a1 := y0.mb_norm y1 (p 2)
    have a3 := y0.unlike y1 g2 g3 (1)
    have a2 : ∀ s s', ‖((sb (legA (p 0) 0 0, legS (p 0) 0 1).2 (legS (p 2) (c.mass .e) s)) * (ab (legA (p 1) 0 0, legS (p 1) 0 1).1 (legA (p 3) (c.mass .e) s'))) + ((sb (legA (p 0) 0 0, legS (p 0) 0 1).2 (legS (p 3) (c.mass .e) s')) * (ab (legA (p 1) 0 0, legS (p 1) 0 1).1 (legA (p 2) (c.mass .e) s)))‖ = ‖sb (legA (p 0) 0 0, legS (p 0) 0 1).2 (legS (p 2) (c.mass .e) s) * ab (legA (p 1) 0 0, legS (p 1) 0 1).1 (legA (p 3) (c.mass .e) s') + ((1 : ℝ) : ℂ) * (sb (legA (p 0) 0 0, legS (p 0) 0 1).2 (legS (p 3) (c.mass .e) s') * ab (legA (p 1) 0 0, legS (p 1) 0 1).1 (legA (p 2) (c.mass .e) s))‖ := by
      intro s s'
      first
        | (congr 1; simp only [sb, ab]; push_cast; ring1)
        | (rw [← norm_neg]; congr 1; simp only [sb, ab]; push_cast; ring1)
    rw [← a3, Finset.mul_sum]
    refine Finset.sum_congr rfl fun s _ => ?_
    rw [Finset.mul_sum]
    refine Finset.sum_congr rfl fun s' _ => ?_
    have v4 : (AAee.N c p).v 4 [spinOf s] = sb (legA (p 0) 0 0, legS (p 0) 0 1).2 (legS (p 2) (c.mass .e) s) := bra_square (p := p) (m := AAee.proc.massNum (AAee.rho c)) (AAee.mass_eq hc 0) (AAee.mass_eq hc 2) (.inr ⟨m0, rfl⟩) (.inl ⟨m2, rfl⟩)
    have v7 : (AAee.N c p).v 7 [spinOf s'] = ab (legA (p 1) 0 0, legS (p 1) 0 1).1 (legA (p 3) (c.mass .e) s') := bra_angle (p := p) (m := AAee.proc.massNum (AAee.rho c)) (AAee.mass_eq hc 1) (AAee.mass_eq hc 3) (.inr ⟨m1, rfl⟩) (.inl ⟨m3, rfl⟩)
    have v9 : (AAee.N c p).v 9 [spinOf s] = ab (legA (p 1) 0 0, legS (p 1) 0 1).1 (legA (p 2) (c.mass .e) s) := bra_angle (p := p) (m := AAee.proc.massNum (AAee.rho c)) (AAee.mass_eq hc 1) (AAee.mass_eq hc 2) (.inr ⟨m1, rfl⟩) (.inl ⟨m2, rfl⟩)
    have v10 : (AAee.N c p).v 10 [spinOf s'] = sb (legA (p 0) 0 0, legS (p 0) 0 1).2 (legS (p 3) (c.mass .e) s') := bra_square (p := p) (m := AAee.proc.massNum (AAee.rho c)) (AAee.mass_eq hc 0) (AAee.mass_eq hc 3) (.inr ⟨m0, rfl⟩) (.inl ⟨m3, rfl⟩)
    have v12 : (AAee.N c p).v 12 [] = mb (legA (p 0) 0 0, legS (p 0) 0 1).2 (p 2) (legA (p 1) 0 0, legS (p 1) 0 1).1 := bra_mid_square (p := p) (m := AAee.proc.massNum (AAee.rho c)) (AAee.mass_eq hc 0) (AAee.mass_eq hc 1) (.inr ⟨m0, rfl⟩) (.inr ⟨m1, rfl⟩)
    simp only [AAee.termPM, v4, v7, v9, v10, v12]
    simp only [c0, c1]
    simp only [norm_mul, norm_div, Complex.norm_real, Real.norm_eq_abs, mul_pow, div_pow, sq_abs, a2]
    rw [a1]
    ring
  have SMP : ∑ s, ∑ s', ‖AAee.termMP (AAee.N c p) (spinOf s) (spinOf s')‖ ^ 2 = 
      (((-((2 : Nat) : ℝ)) * (AAee.N c p).r 0) * (AAee.N c p).r 0) ^ 2 * (2 * dot (p 1) (p 2) * (2 * dot (p 0) (p 2)) - msq (p 2) * (2 * dot (p 1) (p 0))) / ((-(2 * dot (p 0) (p 3))) ^ 2 * (-(2 * dot (p 0) (p 2))) ^ 2) * (2 * dot (p 1) (p 2) * (2 * dot (p 0) (p 3)) + (1 : ℝ) ^ 2 * (2 * dot (p 1) (p 3) * (2 * dot (p 0) (p 2))) + 2 * (1 : ℝ) * ((c.mass .e) * (c.mass .e)) * (2 * dot (p 1) (p 0))) := by
    have a1 := y1.mb_norm y0 (p 2)
    have a3 := y1.unlike y0 g2 g3 (1)
    have a2 : ∀ s s', ‖((ab (legA (p 0) 0 0, legS (p 0) 0 1).1 (legA (p 2) (c.mass .e) s)) * (sb (legA (p 1) 0 0, legS (p 1) 0 1).2 (legS (p 3) (c.mass .e) s'))) + ((ab (legA (p 0) 0 0, legS (p 0) 0 1).1 (legA (p 3) (c.mass .e) s')) * (sb (legA (p 1) 0 0, legS (p 1) 0 1).2 (legS (p 2) (c.mass .e) s)))‖ = ‖sb (legA (p 1) 0 0, legS (p 1) 0 1).2 (legS (p 2) (c.mass .e) s) * ab (legA (p 0) 0 0, legS (p 0) 0 1).1 (legA (p 3) (c.mass .e) s') + ((1 : ℝ) : ℂ) * (sb (legA (p 1) 0 0, legS (p 1) 0 1).2 (legS (p 3) (c.mass .e) s') * ab (legA (p 0) 0 0, legS (p 0) 0 1).1 (legA (p 2) (c.mass .e) s))‖ := by
      intro s s'
      first
        | (congr 1; simp only [sb, ab]; push_cast; ring1)
        | (rw [← norm_neg]; congr 1; simp only [sb, ab]; push_cast; ring1)
    rw [← a3, Finset.mul_sum]
    refine Finset.sum_congr rfl fun s _ => ?_
    rw [Finset.mul_sum]
    refine Finset.sum_congr rfl fun s' _ => ?_
    have v5 : (AAee.N c p).v 5 [spinOf s] = ab (legA (p 0) 0 0, legS (p 0) 0 1).1 (legA (p 2) (c.mass .e) s) := bra_angle (p := p) (m := AAee.proc.massNum (AAee.rho c)) (AAee.mass_eq hc 0) (AAee.mass_eq hc 2) (.inr ⟨m0, rfl⟩) (.inl ⟨m2, rfl⟩)
    have v6 : (AAee.N c p).v 6 [spinOf s'] = sb (legA (p 1) 0 0, legS (p 1) 0 1).2 (legS (p 3) (c.mass .e) s') := bra_square (p := p) (m := AAee.proc.massNum (AAee.rho c)) (AAee.mass_eq hc 1) (AAee.mass_eq hc 3) (.inr ⟨m1, rfl⟩) (.inl ⟨m3, rfl⟩)
    have v8 : (AAee.N c p).v 8 [spinOf s] = sb (legA (p 1) 0 0, legS (p 1) 0 1).2 (legS (p 2) (c.mass .e) s) := bra_square (p := p) (m := AAee.proc.massNum (AAee.rho c)) (AAee.mass_eq hc 1) (AAee.mass_eq hc 2) (.inr ⟨m1, rfl⟩) (.inl ⟨m2, rfl⟩)
    have v11 : (AAee.N c p).v 11 [spinOf s'] = ab (legA (p 0) 0 0, legS (p 0) 0 1).1 (legA (p 3) (c.mass .e) s') := bra_angle (p := p) (m := AAee.proc.massNum (AAee.rho c)) (AAee.mass_eq hc 0) (AAee.mass_eq hc 3) (.inr ⟨m0, rfl⟩) (.inl ⟨m3, rfl⟩)
    have v13 : (AAee.N c p).v 13 [] = mb (legA (p 1) 0 0, legS (p 1) 0 1).2 (p 2) (legA (p 0) 0 0, legS (p 0) 0 1).1 := bra_mid_square (p := p) (m := AAee.proc.massNum (AAee.rho c)) (AAee.mass_eq hc 1) (AAee.mass_eq hc 0) (.inr ⟨m1, rfl⟩) (.inr ⟨m0, rfl⟩)
    simp only [AAee.termMP, v5, v6, v8, v11, v13]
    simp only [c0, c1]
    simp only [norm_mul, norm_div, Complex.norm_real, Real.norm_eq_abs, mul_pow, div_pow, sq_abs, a2]
    rw [a1]
    ring
  have SMM : ∑ s, ∑ s', ‖AAee.termMM (AAee.N c p) (spinOf s) (spinOf s')‖ ^ 2 = 
      (((((2 : Nat) : ℝ) * (AAee.N c p).r 0) * (AAee.N c p).r 0) * (AAee.N c p).r 1) ^ 2 * (2 * dot (p 0) (p 1)) ^ 2 / ((-(2 * dot (p 0) (p 3))) ^ 2 * (-(2 * dot (p 0) (p 2))) ^ 2) * (2 * dot (p 2) (p 3)) := by
    have a1 := y0.ab_norm y1
    have a3 := g2.sb_norm g3
    rw [← a3, Finset.mul_sum]
    refine Finset.sum_congr rfl fun s _ => ?_
    rw [Finset.mul_sum]
    refine Finset.sum_congr rfl fun s' _ => ?_
    have v0 : (AAee.N c p).v 0 [spinOf s, spinOf s'] = sb (legS (p 2) (c.mass .e) s) (legS (p 3) (c.mass .e) s') := bra_square (p := p) (m := AAee.proc.massNum (AAee.rho c)) (AAee.mass_eq hc 2) (AAee.mass_eq hc 3) (.inl ⟨m2, rfl⟩) (.inl ⟨m3, rfl⟩)
    have v3 : (AAee.N c p).v 3 [] = ab (legA (p 0) 0 0, legS (p 0) 0 1).1 (legA (p 1) 0 0, legS (p 1) 0 1).1 := bra_angle (p := p) (m := AAee.proc.massNum (AAee.rho c)) (AAee.mass_eq hc 0) (AAee.mass_eq hc 1) (.inr ⟨m0, rfl⟩) (.inr ⟨m1, rfl⟩)
    simp only [AAee.termMM, v0, v3]
    simp only [c0, c1]
    simp only [norm_mul, norm_div, Complex.norm_real, Real.norm_eq_abs, mul_pow, div_pow, sq_abs] at a1 ⊢
    rw [a1]
    ring
  refine ⟨fun n hn => ?_, fun n hn => ?_, ?_⟩
  · rcases hd _ hn with h | h <;> cases h
  · rcases hd _ hn with h | h <;> cases h
    · rw [c0]; exact Complex.ofReal_ne_zero.2 n0
    · rw [c1]; exact Complex.ofReal_ne_zero.2 n1
  rw [AAee.value]
  simp only [sumW, sumJ]
  have u0 : spinOf 0 = -1 := rfl
  have u1 : spinOf 1 = 1 := rfl
  rw [Fin.sum_univ_two, Fin.sum_univ_two, Fin.sum_univ_two, u0, u1] at SPP SPM SMP SMM
  simp only [AAee.ampPP, AAee.ampPM, AAee.ampMP, AAee.ampMM]
  have T : ∀ {s0 s1 s2 s3 a0 a1 a2 a3 b0 b1 b2 b3 d0 d1 d2 d3 x y z v W : ℝ}, s0 + s1 + (s2 + s3) = x → a0 + a1 + (a2 + a3) = y → b0 + b1 + (b2 + b3) = z → d0 + d1 + (d2 + d3) = v →
      s0 * W + s1 * W + s2 * W + s3 * W + a0 * W + a1 * W + a2 * W + a3 * W + b0 * W + b1 * W + b2 * W + b3 * W + d0 * W + d1 * W + d2 * W + d3 * W = (x + y + z + v) * W := by
    intros; subst_vars; ring
  have T' := T SPP SPM SMP SMM (W := (1 : ℝ))
  refine (congrArg (· / ((4 : Nat) : ℝ)) (Eq.trans ?_ T')).trans ?_
  · push_cast; ring
  clear T' SPP SPM SMP SMM
  simp only [AAee.textbook, r0, r1, q2, q3]
  simp only [kleinNishina, breitWheeler, dot_comm (p 1) (p 0), dot_comm (p 2) (p 0), dot_comm (p 2) (p 1), dot_comm (p 3) (p 0), dot_comm (p 3) (p 1), dot_comm (p 3) (p 2), k1, k2, k3, k4]
  generalize dot (p 0) (p 2) = a at *
  generalize dot (p 0) (p 3) = b at *
  generalize c.mass .e = m at *
  push_cast
  field_simp
  ring

theorem AAee.returns : AAee.Returns AAee.proc.amp2 AAee.Apart AAee.textbook :=
  returns_of (by simp [all, AAee]) (by decide +kernel) (by decide +kernel) (fun _ hc i => AAee.mass_eq hc i) (by decide +kernel) fun _ _ hc hh h0 hs hb ha => AAee.closed hc hh h0 hs hb ha

/-- `AAuu`: the momenta are off the poles -/
def AAuu.Apart (p : Nat → V4 ℝ) : Prop := dot (p 0) (p 2) ≠ 0 ∧ dot (p 0) (p 3) ≠ 0
/-- `AAuu`: the formula of textbooks -/
noncomputable def AAuu.textbook (c : Constants) (p : Nat → V4 ℝ) : ℝ := 3 * (2 / 3 * c.e) ^ 4 * breitWheeler (c.mass .u) (dot (p 0) (p 2)) (dot (p 0) (p 3))

theorem AAuu.closed {c : Constants} {p : Nat → V4 ℝ} (hc : c.Physical) (hh : c.Heavy) (h0 : ∀ i, 0 ≤ AAuu.react.mass c i) (hs : ∀ i : Fin 4, OnShell (p i) (AAuu.react.mass c i)) (hb : Balanced p) (ha : AAuu.Apart p) :
    (∀ n, (Ty.r, n) ∈ AAuu.proc.divides → (AAuu.N c p).r n ≠ 0) ∧ (∀ n, (Ty.c, n) ∈ AAuu.proc.divides → (AAuu.N c p).c n ≠ 0) ∧ meaning (AAuu.N c p) .r Cls.AAuu.methods Cls.AAuu.amp2 [] = AAuu.textbook c p := by
  have q0 : msq (p 0) = (0 : ℝ) ^ 2 := onShell_msq (hs 0)
  have q1 : msq (p 1) = (0 : ℝ) ^ 2 := onShell_msq (hs 1)
  have q2 : msq (p 2) = (c.mass .u) ^ 2 := onShell_msq (hs 2)
  have q3 : msq (p 3) = (c.mass .u) ^ 2 := onShell_msq (hs 3)
  have g2 : Grams (p 2) (c.mass .u) (legA (p 2) (c.mass .u)) (legS (p 2) (c.mass .u)) := legs_grams (hs 2) (h0 2)
  have m2 : AAuu.react.mass c 2 ≠ 0 := (leg_pos hc hh (by decide)).ne'
  have g3 : Grams (p 3) (c.mass .u) (legA (p 3) (c.mass .u)) (legS (p 3) (c.mass .u)) := legs_grams (hs 3) (h0 3)
  have m3 : AAuu.react.mass c 3 ≠ 0 := (leg_pos hc hh (by decide)).ne'
  have y0 : Ray (p 0) (legA (p 0) 0 0, legS (p 0) 0 1) := ray_code (hs 0)
  have m0 : AAuu.react.mass c 0 = 0 := rfl
  have y1 : Ray (p 1) (legA (p 1) 0 0, legS (p 1) 0 1) := ray_code (hs 1)
  have m1 : AAuu.react.mass c 1 = 0 := rfl
  obtain ⟨k1, k2, k3, k4⟩ := dots_in hb q0 q1 q2 q3
  obtain ⟨z1, z2⟩ := ha
  have KM : (c.mass .u) ^ 2 + (0 : ℝ) ^ 2 = (c.mass .u) ^ 2 := by ring
  have KM' : (0 : ℝ) ^ 2 + (c.mass .u) ^ 2 = (c.mass .u) ^ 2 := by ring
  have KM0 : (0 : ℝ) ^ 2 + (0 : ℝ) ^ 2 = ((0 : Nat) : ℝ) ^ 2 := by norm_num
  have c0 : (AAuu.N c p).c 0 = ((-(2 * dot (p 0) (p 2)) : ℝ) : ℂ) := pole_sub q0 q2 KM'
  have n0 : (-(2 * dot (p 0) (p 2)) : ℝ) ≠ 0 := by
    try simp only [dot_comm (p 1) (p 0), dot_comm (p 2) (p 0), dot_comm (p 2) (p 1), dot_comm (p 3) (p 0), dot_comm (p 3) (p 1), dot_comm (p 3) (p 2), k1, k2, k3, k4]
    first | exact mul_ne_zero two_ne_zero z1 | exact mul_ne_zero two_ne_zero z2 | exact neg_ne_zero.2 (mul_ne_zero two_ne_zero z1) | exact neg_ne_zero.2 (mul_ne_zero two_ne_zero z2)
  have c1 : (AAuu.N c p).c 1 = ((-(2 * dot (p 0) (p 3)) : ℝ) : ℂ) := pole_sub q0 q3 KM'
  have n1 : (-(2 * dot (p 0) (p 3)) : ℝ) ≠ 0 := by
    try simp only [dot_comm (p 1) (p 0), dot_comm (p 2) (p 0), dot_comm (p 2) (p 1), dot_comm (p 3) (p 0), dot_comm (p 3) (p 1), dot_comm (p 3) (p 2), k1, k2, k3, k4]
    first | exact mul_ne_zero two_ne_zero z1 | exact mul_ne_zero two_ne_zero z2 | exact neg_ne_zero.2 (mul_ne_zero two_ne_zero z1) | exact neg_ne_zero.2 (mul_ne_zero two_ne_zero z2)
  have r0 : (AAuu.N c p).r 0 = c.e := rfl
  have r1 : (AAuu.N c p).r 1 = (((2 : Nat) : ℝ) / ((3 : Nat) : ℝ)) := rfl
  have r2 : (AAuu.N c p).r 2 = (c.mass .u) := rfl
  have hd : ∀ v ∈ AAuu.proc.divides, v = (Ty.c, 0) ∨ v = (Ty.c, 1) := by decide +kernel
  have SPP : ∑ s, ∑ s', ‖AAuu.termPP (AAuu.N c p) (spinOf s) (spinOf s')‖ ^ 2 = 
      (((((((2 : Nat) : ℝ) * (AAuu.N c p).r 0) * (AAuu.N c p).r 0) * (AAuu.N c p).r 1) * (AAuu.N c p).r 1) * (AAuu.N c p).r 2) ^ 2 * (2 * dot (p 0) (p 1)) ^ 2 / ((-(2 * dot (p 0) (p 3))) ^ 2 * (-(2 * dot (p 0) (p 2))) ^ 2) * (2 * dot (p 2) (p 3)) := by
    have a1 := y0.sb_norm y1
    have a3 := g2.ab_norm g3
    rw [← a3, Finset.mul_sum]
    refine Finset.sum_congr rfl fun s _ => ?_
    rw [Finset.mul_sum]
    refine Finset.sum_congr rfl fun s' _ => ?_
    have v1 : (AAuu.N c p).v 1 [spinOf s, spinOf s'] = ab (legA (p 2) (c.mass .u) s) (legA (p 3) (c.mass .u) s') := bra_angle (p := p) (m := AAuu.proc.massNum (AAuu.rho c)) (AAuu.mass_eq hc 2) (AAuu.mass_eq hc 3) (.inl ⟨m2, rfl⟩) (.inl ⟨m3, rfl⟩)
    have v2 : (AAuu.N c p).v 2 [] = sb (legA (p 0) 0 0, legS (p 0) 0 1).2 (legA (p 1) 0 0, legS (p 1) 0 1).2 := bra_square (p := p) (m := AAuu.proc.massNum (AAuu.rho c)) (AAuu.mass_eq hc 0) (AAuu.mass_eq hc 1) (.inr ⟨m0, rfl⟩) (.inr ⟨m1, rfl⟩)
    simp only [AAuu.termPP, v1, v2]
    simp only [c0, c1]
    simp only [norm_mul, norm_div, Complex.norm_real, Real.norm_eq_abs, mul_pow, div_pow, sq_abs] at a1 ⊢
    rw [a1]
    ring
  have SPM : ∑ s, ∑ s', ‖AAuu.termPM (AAuu.N c p) (spinOf s) (spinOf s')‖ ^ 2 = 
      (((((-((2 : Nat) : ℝ)) * (AAuu.N c p).r 0) * (AAuu.N c p).r 0) * (AAuu.N c p).r 1) * (AAuu.N c p).r 1) ^ 2 * (2 * dot (p 0) (p 2) * (2 * dot (p 1) (p 2)) - msq (p 2) * (2 * dot (p 0) (p 1))) / ((-(2 * dot (p 0) (p 3))) ^ 2 * (-(2 * dot (p 0) (p 2))) ^ 2) * (2 * dot (p 0) (p 2) * (2 * dot (p 1) (p 3)) + (1 : ℝ) ^ 2 * (2 * dot (p 0) (p 3) * (2 * dot (p 1) (p 2))) + 2 * (1 : ℝ) * ((c.mass .u) * (c.mass .u)) * (2 * dot (p 0) (p 1))) := by
    have a1 := y0.mb_norm y1 (p 2)
    have a3 := y0.unlike y1 g2 g3 (1)
    have a2 : ∀ s s', ‖((sb (legA (p 0) 0 0, legS (p 0) 0 1).2 (legS (p 2) (c.mass .u) s)) * (ab (legA (p 1) 0 0, legS (p 1) 0 1).1 (legA (p 3) (c.mass .u) s'))) + ((sb (legA (p 0) 0 0, legS (p 0) 0 1).2 (legS (p 3) (c.mass .u) s')) * (ab (legA (p 1) 0 0, legS (p 1) 0 1).1 (legA (p 2) (c.mass .u) s)))‖ = ‖sb (legA (p 0) 0 0, legS (p 0) 0 1).2 (legS (p 2) (c.mass .u) s) * ab (legA (p 1) 0 0, legS (p 1) 0 1).1 (legA (p 3) (c.mass .u) s') + ((1 : ℝ) : ℂ) * (sb (legA (p 0) 0 0, legS (p 0) 0 1).2 (legS (p 3) (c.mass .u) s') * ab (legA (p 1) 0 0, legS (p 1) 0 1).1 (legA (p 2) (c.mass .u) s))‖ := by
      intro s s'
      first
        | (congr 1; simp only [sb, ab]; push_cast; ring1)
        | (rw [← norm_neg]; congr 1; simp only [sb, ab]; push_cast; ring1)
    rw [← a3, Finset.mul_sum]
    refine Finset.sum_congr rfl fun s _ => ?_
    rw [Finset.mul_sum]
    refine Finset.sum_congr rfl fun s' _ => ?_
    have v4 : (AAuu.N c p).v 4 [spinOf s] = sb (legA (p 0) 0 0, legS (p 0) 0 1).2 (legS (p 2) (c.mass .u) s) := bra_square (p := p) (m := AAuu.proc.massNum (AAuu.rho c)) (AAuu.mass_eq hc 0) (AAuu.mass_eq hc 2) (.inr ⟨m0, rfl⟩) (.inl ⟨m2, rfl⟩)
    have v7 : (AAuu.N c p).v 7 [spinOf s'] = ab (legA (p 1) 0 0, legS (p 1) 0 1).1 (legA (p 3) (c.mass .u) s') := bra_angle (p := p) (m := AAuu.proc.massNum (AAuu.rho c)) (AAuu.mass_eq hc 1) (AAuu.mass_eq hc 3) (.inr ⟨m1, rfl⟩) (.inl ⟨m3, rfl⟩)
    have v9 : (AAuu.N c p).v 9 [spinOf s] = ab (legA (p 1) 0 0, legS (p 1) 0 1).1 (legA (p 2) (c.mass .u) s) := bra_angle (p := p) (m := AAuu.proc.massNum (AAuu.rho c)) (AAuu.mass_eq hc 1) (AAuu.mass_eq hc 2) (.inr ⟨m1, rfl⟩) (.inl ⟨m2, rfl⟩)
    have v10 : (AAuu.N c p).v 10 [spinOf s'] = sb (legA (p 0) 0 0, legS (p 0) 0 1).2 (legS (p 3) (c.mass .u) s') := bra_square (p := p) (m := AAuu.proc.massNum (AAuu.rho c)) (AAuu.mass_eq hc 0) (AAuu.mass_eq hc 3) (.inr ⟨m0, rfl⟩) (.inl ⟨m3, rfl⟩)
    have v12 : (AAuu.N c p).v 12 [] = mb (legA (p 0) 0 0, legS (p 0) 0 1).2 (p 2) (legA (p 1) 0 0, legS (p 1) 0 1).1 := bra_mid_square (p := p) (m := AAuu.proc.massNum (AAuu.rho c)) (AAuu.mass_eq hc 0) (AAuu.mass_eq hc 1) (.inr ⟨m0, rfl⟩) (.inr ⟨m1, rfl⟩)
    simp only [AAuu.termPM, v4, v7, v9, v10, v12]
    simp only [c0, c1]
    simp only [norm_mul, norm_div, Complex.norm_real, Real.norm_eq_abs, mul_pow, div_pow, sq_abs, a2]
    rw [a1]
    ring
  have SMP : ∑ s, ∑ s', ‖AAuu.termMP (AAuu.N c p) (spinOf s) (spinOf s')‖ ^ 2 = 
      (((((-((2 : Nat) : ℝ)) * (AAuu.N c p).r 0) * (AAuu.N c p).r 0) * (AAuu.N c p).r 1) * (AAuu.N c p).r 1) ^ 2 * (2 * dot (p 1) (p 2) * (2 * dot (p 0) (p 2)) - msq (p 2) * (2 * dot (p 1) (p 0))) / ((-(2 * dot (p 0) (p 3))) ^ 2 * (-(2 * dot (p 0) (p 2))) ^ 2) * (2 * dot (p 1) (p 2) * (2 * dot (p 0) (p 3)) + (1 : ℝ) ^ 2 * (2 * dot (p 1) (p 3) * (2 * dot (p 0) (p 2))) + 2 * (1 : ℝ) * ((c.mass .u) * (c.mass .u)) * (2 * dot (p 1) (p 0))) := by
    have a1 := y1.mb_norm y0 (p 2)
    have a3 := y1.unlike y0 g2 g3 (1)
    have a2 : ∀ s s', ‖((ab (legA (p 0) 0 0, legS (p 0) 0 1).1 (legA (p 2) (c.mass .u) s)) * (sb (legA (p 1) 0 0, legS (p 1) 0 1).2 (legS (p 3) (c.mass .u) s'))) + ((ab (legA (p 0) 0 0, legS (p 0) 0 1).1 (legA (p 3) (c.mass .u) s')) * (sb (legA (p 1) 0 0, legS (p 1) 0 1).2 (legS (p 2) (c.mass .u) s)))‖ = ‖sb (legA (p 1) 0 0, legS (p 1) 0 1).2 (legS (p 2) (c.mass .u) s) * ab (legA (p 0) 0 0, legS (p 0) 0 1).1 (legA (p 3) (c.mass .u) s') + ((1 : ℝ) : ℂ) * (sb (legA (p 1) 0 0, legS (p 1) 0 1).2 (legS (p 3) (c.mass .u) s') * ab (legA (p 0) 0 0, legS (p 0) 0 1).1 (legA (p 2) (c.mass .u) s))‖ := by
      intro s s'
      first
        | (congr 1; simp only [sb, ab]; push_cast; ring1)
        | (rw [← norm_neg]; congr 1; simp only [sb, ab]; push_cast; ring1)
    rw [← a3, Finset.mul_sum]
    refine Finset.sum_congr rfl fun s _ => ?_
    rw [Finset.mul_sum]
    refine Finset.sum_congr rfl fun s' _ => ?_
    have v5 : (AAuu.N c p).v 5 [spinOf s] = ab (legA (p 0) 0 0, legS (p 0) 0 1).1 (legA (p 2) (c.mass .u) s) := bra_angle (p := p) (m := AAuu.proc.massNum (AAuu.rho c)) (AAuu.mass_eq hc 0) (AAuu.mass_eq hc 2) (.inr ⟨m0, rfl⟩) (.inl ⟨m2, rfl⟩)
    have v6 : (AAuu.N c p).v 6 [spinOf s'] = sb (legA (p 1) 0 0, legS (p 1) 0 1).2 (legS (p 3) (c.mass .u) s') := bra_square (p := p) (m := AAuu.proc.massNum (AAuu.rho c)) (AAuu.mass_eq hc 1) (AAuu.mass_eq hc 3) (.inr ⟨m1, rfl⟩) (.inl ⟨m3, rfl⟩)
    have v8 : (AAuu.N c p).v 8 [spinOf s] = sb (legA (p 1) 0 0, legS (p 1) 0 1).2 (legS (p 2) (c.mass .u) s) := bra_square (p := p) (m := AAuu.proc.massNum (AAuu.rho c)) (AAuu.mass_eq hc 1) (AAuu.mass_eq hc 2) (.inr ⟨m1, rfl⟩) (.inl ⟨m2, rfl⟩)
    have v11 : (AAuu.N c p).v 11 [spinOf s'] = ab (legA (p 0) 0 0, legS (p 0) 0 1).1 (legA (p 3) (c.mass .u) s') := bra_angle (p := p) (m := AAuu.proc.massNum (AAuu.rho c)) (AAuu.mass_eq hc 0) (AAuu.mass_eq hc 3) (.inr ⟨m0, rfl⟩) (.inl ⟨m3, rfl⟩)
    have v13 : (AAuu.N c p).v 13 [] = mb (legA (p 1) 0 0, legS (p 1) 0 1).2 (p 2) (legA (p 0) 0 0, legS (p 0) 0 1).1 := bra_mid_square (p := p) (m := AAuu.proc.massNum (AAuu.rho c)) (AAuu.mass_eq hc 1) (AAuu.mass_eq hc 0) (.inr ⟨m1, rfl⟩) (.inr ⟨m0, rfl⟩)
    simp only [AAuu.termMP, v5, v6, v8, v11, v13]
    simp only [c0, c1]
    simp only [norm_mul, norm_div, Complex.norm_real, Real.norm_eq_abs, mul_pow, div_pow, sq_abs, a2]
    rw [a1]
    ring
  have SMM : ∑ s, ∑ s', ‖AAuu.termMM (AAuu.N c p) (spinOf s) (spinOf s')‖ ^ 2 = 
      (((((((2 : Nat) : ℝ) * (AAuu.N c p).r 0) * (AAuu.N c p).r 0) * (AAuu.N c p).r 1) * (AAuu.N c p).r 1) * (AAuu.N c p).r 2) ^ 2 * (2 * dot (p 0) (p 1)) ^ 2 / ((-(2 * dot (p 0) (p 3))) ^ 2 * (-(2 * dot (p 0) (p 2))) ^ 2) * (2 * dot (p 2) (p 3)) := by
    have a1 := y0.ab_norm y1
    have a3 := g2.sb_norm g3
    rw [← a3, Finset.mul_sum]
    refine Finset.sum_congr rfl fun s _ => ?_
    rw [Finset.mul_sum]
    refine Finset.sum_congr rfl fun s' _ => ?_
    have v0 : (AAuu.N c p).v 0 [spinOf s, spinOf s'] = sb (legS (p 2) (c.mass .u) s) (legS (p 3) (c.mass .u) s') := bra_square (p := p) (m := AAuu.proc.massNum (AAuu.rho c)) (AAuu.mass_eq hc 2) (AAuu.mass_eq hc 3) (.inl ⟨m2, rfl⟩) (.inl ⟨m3, rfl⟩)
    have v3 : (AAuu.N c p).v 3 [] = ab (legA (p 0) 0 0, legS (p 0) 0 1).1 (legA (p 1) 0 0, legS (p 1) 0 1).1 := bra_angle (p := p) (m := AAuu.proc.massNum (AAuu.rho c)) (AAuu.mass_eq hc 0) (AAuu.mass_eq hc 1) (.inr ⟨m0, rfl⟩) (.inr ⟨m1, rfl⟩)
    simp only [AAuu.termMM, v0, v3]
    simp only [c0, c1]
    simp only [norm_mul, norm_div, Complex.norm_real, Real.norm_eq_abs, mul_pow, div_pow, sq_abs] at a1 ⊢
    rw [a1]
    ring
  refine ⟨fun n hn => ?_, fun n hn => ?_, ?_⟩
  · rcases hd _ hn with h | h <;> cases h
  · rcases hd _ hn with h | h <;> cases h
    · rw [c0]; exact Complex.ofReal_ne_zero.2 n0
    · rw [c1]; exact Complex.ofReal_ne_zero.2 n1
  rw [AAuu.value]
  simp only [sumW, sumJ]
  have u0 : spinOf 0 = -1 := rfl
  have u1 : spinOf 1 = 1 := rfl
  rw [Fin.sum_univ_two, Fin.sum_univ_two, Fin.sum_univ_two, u0, u1] at SPP SPM SMP SMM
  simp only [AAuu.ampPP, AAuu.ampPM, AAuu.ampMP, AAuu.ampMM]
  have T : ∀ {s0 s1 s2 s3 a0 a1 a2 a3 b0 b1 b2 b3 d0 d1 d2 d3 x y z v W : ℝ}, s0 + s1 + (s2 + s3) = x → a0 + a1 + (a2 + a3) = y → b0 + b1 + (b2 + b3) = z → d0 + d1 + (d2 + d3) = v →
      s0 * W + s1 * W + s2 * W + s3 * W + a0 * W + a1 * W + a2 * W + a3 * W + b0 * W + b1 * W + b2 * W + b3 * W + d0 * W + d1 * W + d2 * W + d3 * W = (x + y + z + v) * W := by
    intros; subst_vars; ring
  have T' := T SPP SPM SMP SMM (W := ((3 : Nat) : ℝ))
  refine (congrArg (· / ((4 : Nat) : ℝ)) (Eq.trans ?_ T')).trans ?_
  · push_cast; ring
  clear T' SPP SPM SMP SMM
  simp only [AAuu.textbook, r0, r1, r2, q2, q3]
  simp only [kleinNishina, breitWheeler, dot_comm (p 1) (p 0), dot_comm (p 2) (p 0), dot_comm (p 2) (p 1), dot_comm (p 3) (p 0), dot_comm (p 3) (p 1), dot_comm (p 3) (p 2), k1, k2, k3, k4]
  generalize dot (p 0) (p 2) = a at *
  generalize dot (p 0) (p 3) = b at *
  generalize c.mass .u = m at *
  push_cast
  field_simp
  ring

theorem AAuu.returns : AAuu.Returns AAuu.proc.amp2 AAuu.Apart AAuu.textbook :=
  returns_of (by simp [all, AAuu]) (by decide +kernel) (by decide +kernel) (fun _ hc i => AAuu.mass_eq hc i) (by decide +kernel) fun _ _ hc hh h0 hs hb ha => AAuu.closed hc hh h0 hs hb ha

/-- `AAdd`: the momenta are off the poles -/
def AAdd.Apart (p : Nat → V4 ℝ) : Prop := dot (p 0) (p 2) ≠ 0 ∧ dot (p 0) (p 3) ≠ 0
/-- `AAdd`: the formula of textbooks -/
noncomputable def AAdd.textbook (c : Constants) (p : Nat → V4 ℝ) : ℝ := 3 * (1 / 3 * c.e) ^ 4 * breitWheeler (c.mass .d) (dot (p 0) (p 2)) (dot (p 0) (p 3))

theorem AAdd.closed {c : Constants} {p : Nat → V4 ℝ} (hc : c.Physical) (hh : c.Heavy) (h0 : ∀ i, 0 ≤ AAdd.react.mass c i) (hs : ∀ i : Fin 4, OnShell (p i) (AAdd.react.mass c i)) (hb : Balanced p) (ha : AAdd.Apart p) :
    (∀ n, (Ty.r, n) ∈ AAdd.proc.divides → (AAdd.N c p).r n ≠ 0) ∧ (∀ n, (Ty.c, n) ∈ AAdd.proc.divides → (AAdd.N c p).c n ≠ 0) ∧ meaning (AAdd.N c p) .r Cls.AAdd.methods Cls.AAdd.amp2 [] = AAdd.textbook c p := by
  have q0 : msq (p 0) = (0 : ℝ) ^ 2 := onShell_msq (hs 0)
  have q1 : msq (p 1) = (0 : ℝ) ^ 2 := onShell_msq (hs 1)
  have q2 : msq (p 2) = (c.mass .d) ^ 2 := onShell_msq (hs 2)
  have q3 : msq (p 3) = (c.mass .d) ^ 2 := onShell_msq (hs 3)
  have g2 : Grams (p 2) (c.mass .d) (legA (p 2) (c.mass .d)) (legS (p 2) (c.mass .d)) := legs_grams (hs 2) (h0 2)
  have m2 : AAdd.react.mass c 2 ≠ 0 := (leg_pos hc hh (by decide)).ne'
  have g3 : Grams (p 3) (c.mass .d) (legA (p 3) (c.mass .d)) (legS (p 3) (c.mass .d)) := legs_grams (hs 3) (h0 3)
  have m3 : AAdd.react.mass c 3 ≠ 0 := (leg_pos hc hh (by decide)).ne'
  have y0 : Ray (p 0) (legA (p 0) 0 0, legS (p 0) 0 1) := ray_code (hs 0)
  have m0 : AAdd.react.mass c 0 = 0 := rfl
  have y1 : Ray (p 1) (legA (p 1) 0 0, legS (p 1) 0 1) := ray_code (hs 1)
  have m1 : AAdd.react.mass c 1 = 0 := rfl
  obtain ⟨k1, k2, k3, k4⟩ := dots_in hb q0 q1 q2 q3
  obtain ⟨z1, z2⟩ := ha
  have KM : (c.mass .d) ^ 2 + (0 : ℝ) ^ 2 = (c.mass .d) ^ 2 := by ring
  have KM' : (0 : ℝ) ^ 2 + (c.mass .d) ^ 2 = (c.mass .d) ^ 2 := by ring
  have KM0 : (0 : ℝ) ^ 2 + (0 : ℝ) ^ 2 = ((0 : Nat) : ℝ) ^ 2 := by norm_num
  have c0 : (AAdd.N c p).c 0 = ((-(2 * dot (p 0) (p 2)) : ℝ) : ℂ) := pole_sub q0 q2 KM'
  have n0 : (-(2 * dot (p 0) (p 2)) : ℝ) ≠ 0 := by
    try simp only [dot_comm (p 1) (p 0), dot_comm (p 2) (p 0), dot_comm (p 2) (p 1), dot_comm (p 3) (p 0), dot_comm (p 3) (p 1), dot_comm (p 3) (p 2), k1, k2, k3, k4]
    first | exact mul_ne_zero two_ne_zero z1 | exact mul_ne_zero two_ne_zero z2 | exact neg_ne_zero.2 (mul_ne_zero two_ne_zero z1) | exact neg_ne_zero.2 (mul_ne_zero two_ne_zero z2)
  have c1 : (AAdd.N c p).c 1 = ((-(2 * dot (p 0) (p 3)) : ℝ) : ℂ) := pole_sub q0 q3 KM'
  have n1 : (-(2 * dot (p 0) (p 3)) : ℝ) ≠ 0 := by
    try simp only [dot_comm (p 1) (p 0), dot_comm (p 2) (p 0), dot_comm (p 2) (p 1), dot_comm (p 3) (p 0), dot_comm (p 3) (p 1), dot_comm (p 3) (p 2), k1, k2, k3, k4]
    first | exact mul_ne_zero two_ne_zero z1 | exact mul_ne_zero two_ne_zero z2 | exact neg_ne_zero.2 (mul_ne_zero two_ne_zero z1) | exact neg_ne_zero.2 (mul_ne_zero two_ne_zero z2)
  have r0 : (AAdd.N c p).r 0 = c.e := rfl
  have r1 : (AAdd.N c p).r 1 = ((-((1 : Nat) : ℝ)) / ((3 : Nat) : ℝ)) := rfl
  have r2 : (AAdd.N c p).r 2 = (c.mass .d) := rfl
  have hd : ∀ v ∈ AAdd.proc.divides, v = (Ty.c, 0) ∨ v = (Ty.c, 1) := by decide +kernel
  have SPP : ∑ s, ∑ s', ‖AAdd.termPP (AAdd.N c p) (spinOf s) (spinOf s')‖ ^ 2 = 
      (((((((2 : Nat) : ℝ) * (AAdd.N c p).r 0) * (AAdd.N c p).r 0) * (AAdd.N c p).r 1) * (AAdd.N c p).r 1) * (AAdd.N c p).r 2) ^ 2 * (2 * dot (p 0) (p 1)) ^ 2 / ((-(2 * dot (p 0) (p 3))) ^ 2 * (-(2 * dot (p 0) (p 2))) ^ 2) * (2 * dot (p 2) (p 3)) := by
    have a1 := y0.sb_norm y1
    have a3 := g2.ab_norm g3
    rw [← a3, Finset.mul_sum]
    refine Finset.sum_congr rfl fun s _ => ?_
    rw [Finset.mul_sum]
    refine Finset.sum_congr rfl fun s' _ => ?_
    have v1 : (AAdd.N c p).v 1 [spinOf s, spinOf s'] = ab (legA (p 2) (c.mass .d) s) (legA (p 3) (c.mass .d) s') := bra_angle (p := p) (m := AAdd.proc.massNum (AAdd.rho c)) (AAdd.mass_eq hc 2) (AAdd.mass_eq hc 3) (.inl ⟨m2, rfl⟩) (.inl ⟨m3, rfl⟩)
    have v2 : (AAdd.N c p).v 2 [] = sb (legA (p 0) 0 0, legS (p 0) 0 1).2 (legA (p 1) 0 0, legS (p 1) 0 1).2 := bra_square (p := p) (m := AAdd.proc.massNum (AAdd.rho c)) (AAdd.mass_eq hc 0) (AAdd.mass_eq hc 1) (.inr ⟨m0, rfl⟩) (.inr ⟨m1, rfl⟩)
    simp only [AAdd.termPP, v1, v2]
    simp only [c0, c1]
    simp only [norm_mul, norm_div, Complex.norm_real, Real.norm_eq_abs, mul_pow, div_pow, sq_abs] at a1 ⊢
    rw [a1]
    ring
  have SPM : ∑ s, ∑ s', ‖AAdd.termPM (AAdd.N c p) (spinOf s) (spinOf s')‖ ^ 2 = 
      (((((-((2 : Nat) : ℝ)) * (AAdd.N c p).r 0) * (AAdd.N c p).r 0) * (AAdd.N c p).r 1) * (AAdd.N c p).r 1) ^ 2 * (2 * dot (p 0) (p 2) * (2 * dot (p 1) (p 2)) - msq (p 2) * (2 * dot (p 0) (p 1))) / ((-(2 * dot (p 0) (p 3))) ^ 2 * (-(2 * dot (p 0) (p 2))) ^ 2) * (2 * dot (p 0) (p 2) * (2 * dot (p 1) (p 3)) + (1 : ℝ) ^ 2 * (2 * dot (p 0) (p 3) * (2 * dot (p 1) (p 2))) + 2 * (1 : ℝ) * ((c.mass .d) * (c.mass .d)) * (2 * dot (p 0) (p 1))) := by
    have a1 := y0.mb_norm y1 (p 2)
    have a3 := y0.unlike y1 g2 g3 (1)
    have a2 : ∀ s s', ‖((sb (legA (p 0) 0 0, legS (p 0) 0 1).2 (legS (p 2) (c.mass .d) s)) * (ab (legA (p 1) 0 0, legS (p 1) 0 1).1 (legA (p 3) (c.mass .d) s'))) + ((sb (legA (p 0) 0 0, legS (p 0) 0 1).2 (legS (p 3) (c.mass .d) s')) * (ab (legA (p 1) 0 0, legS (p 1) 0 1).1 (legA (p 2) (c.mass .d) s)))‖ = ‖sb (legA (p 0) 0 0, legS (p 0) 0 1).2 (legS (p 2) (c.mass .d) s) * ab (legA (p 1) 0 0, legS (p 1) 0 1).1 (legA (p 3) (c.mass .d) s') + ((1 : ℝ) : ℂ) * (sb (legA (p 0) 0 0, legS (p 0) 0 1).2 (legS (p 3) (c.mass .d) s') * ab (legA (p 1) 0 0, legS (p 1) 0 1).1 (legA (p 2) (c.mass .d) s))‖ := by
      intro s s'
      first
        | (congr 1; simp only [sb, ab]; push_cast; ring1)
        | (rw [← norm_neg]; congr 1; simp only [sb, ab]; push_cast; ring1)
    rw [← a3, Finset.mul_sum]
    refine Finset.sum_congr rfl fun s _ => ?_
    rw [Finset.mul_sum]
    refine Finset.sum_congr rfl fun s' _ => ?_
    have v4 : (AAdd.N c p).v 4 [spinOf s] = sb (legA (p 0) 0 0, legS (p 0) 0 1).2 (legS (p 2) (c.mass .d) s) := bra_square (p := p) (m := AAdd.proc.massNum (AAdd.rho c)) (AAdd.mass_eq hc 0) (AAdd.mass_eq hc 2) (.inr ⟨m0, rfl⟩) (.inl ⟨m2, rfl⟩)
    have v7 : (AAdd.N c p).v 7 [spinOf s'] = ab (legA (p 1) 0 0, legS (p 1) 0 1).1 (legA (p 3) (c.mass .d) s') := bra_angle (p := p) (m := AAdd.proc.massNum (AAdd.rho c)) (AAdd.mass_eq hc 1) (AAdd.mass_eq hc 3) (.inr ⟨m1, rfl⟩) (.inl ⟨m3, rfl⟩)
    have v9 : (AAdd.N c p).v 9 [spinOf s] = ab (legA (p 1) 0 0, legS (p 1) 0 1).1 (legA (p 2) (c.mass .d) s) := bra_angle (p := p) (m := AAdd.proc.massNum (AAdd.rho c)) (AAdd.mass_eq hc 1) (AAdd.mass_eq hc 2) (.inr ⟨m1, rfl⟩) (.inl ⟨m2, rfl⟩)
    have v10 : (AAdd.N c p).v 10 [spinOf s'] = sb (legA (p 0) 0 0, legS (p 0) 0 1).2 (legS (p 3) (c.mass .d) s') := bra_square (p := p) (m := AAdd.proc.massNum (AAdd.rho c)) (AAdd.mass_eq hc 0) (AAdd.mass_eq hc 3) (.inr ⟨m0, rfl⟩) (.inl ⟨m3, rfl⟩)
    have v12 : (AAdd.N c p).v 12 [] = mb (legA (p 0) 0 0, legS (p 0) 0 1).2 (p 2) (legA (p 1) 0 0, legS (p 1) 0 1).1 := bra_mid_square (p := p) (m := AAdd.proc.massNum (AAdd.rho c)) (AAdd.mass_eq hc 0) (AAdd.mass_eq hc 1) (.inr ⟨m0, rfl⟩) (.inr ⟨m1, rfl⟩)
    simp only [AAdd.termPM, v4, v7, v9, v10, v12]
    simp only [c0, c1]
    simp only [norm_mul, norm_div, Complex.norm_real, Real.norm_eq_abs, mul_pow, div_pow, sq_abs, a2]
    rw [a1]
    ring
  have SMP : ∑ s, ∑ s', ‖AAdd.termMP (AAdd.N c p) (spinOf s) (spinOf s')‖ ^ 2 = 
      (((((-((2 : Nat) : ℝ)) * (AAdd.N c p).r 0) * (AAdd.N c p).r 0) * (AAdd.N c p).r 1) * (AAdd.N c p).r 1) ^ 2 * (2 * dot (p 1) (p 2) * (2 * dot (p 0) (p 2)) - msq (p 2) * (2 * dot (p 1) (p 0))) / ((-(2 * dot (p 0) (p 3))) ^ 2 * (-(2 * dot (p 0) (p 2))) ^ 2) * (2 * dot (p 1) (p 2) * (2 * dot (p 0) (p 3)) + (1 : ℝ) ^ 2 * (2 * dot (p 1) (p 3) * (2 * dot (p 0) (p 2))) + 2 * (1 : ℝ) * ((c.mass .d) * (c.mass .d)) * (2 * dot (p 1) (p 0))) := by
    have a1 := y1.mb_norm y0 (p 2)
    have a3 := y1.unlike y0 g2 g3 (1)
    have a2 : ∀ s s', ‖((ab (legA (p 0) 0 0, legS (p 0) 0 1).1 (legA (p 2) (c.mass .d) s)) * (sb (legA (p 1) 0 0, legS (p 1) 0 1).2 (legS (p 3) (c.mass .d) s'))) + ((ab (legA (p 0) 0 0, legS (p 0) 0 1).1 (legA (p 3) (c.mass .d) s')) * (sb (legA (p 1) 0 0, legS (p 1) 0 1).2 (legS (p 2) (c.mass .d) s)))‖ = ‖sb (legA (p 1) 0 0, legS (p 1) 0 1).2 (legS (p 2) (c.mass .d) s) * ab (legA (p 0) 0 0, legS (p 0) 0 1).1 (legA (p 3) (c.mass .d) s') + ((1 : ℝ) : ℂ) * (sb (legA (p 1) 0 0, legS (p 1) 0 1).2 (legS (p 3) (c.mass .d) s') * ab (legA (p 0) 0 0, legS (p 0) 0 1).1 (legA (p 2) (c.mass .d) s))‖ := by
      intro s s'
      first
        | (congr 1; simp only [sb, ab]; push_cast; ring1)
        | (rw [← norm_neg]; congr 1; simp only [sb, ab]; push_cast; ring1)
    rw [← a3, Finset.mul_sum]
    refine Finset.sum_congr rfl fun s _ => ?_
    rw [Finset.mul_sum]
    refine Finset.sum_congr rfl fun s' _ => ?_
    have v5 : (AAdd.N c p).v 5 [spinOf s] = ab (legA (p 0) 0 0, legS (p 0) 0 1).1 (legA (p 2) (c.mass .d) s) := bra_angle (p := p) (m := AAdd.proc.massNum (AAdd.rho c)) (AAdd.mass_eq hc 0) (AAdd.mass_eq hc 2) (.inr ⟨m0, rfl⟩) (.inl ⟨m2, rfl⟩)
    have v6 : (AAdd.N c p).v 6 [spinOf s'] = sb (legA (p 1) 0 0, legS (p 1) 0 1).2 (legS (p 3) (c.mass .d) s') := bra_square (p := p) (m := AAdd.proc.massNum (AAdd.rho c)) (AAdd.mass_eq hc 1) (AAdd.mass_eq hc 3) (.inr ⟨m1, rfl⟩) (.inl ⟨m3, rfl⟩)
    have v8 : (AAdd.N c p).v 8 [spinOf s] = sb (legA (p 1) 0 0, legS (p 1) 0 1).2 (legS (p 2) (c.mass .d) s) := bra_square (p := p) (m := AAdd.proc.massNum (AAdd.rho c)) (AAdd.mass_eq hc 1) (AAdd.mass_eq hc 2) (.inr ⟨m1, rfl⟩) (.inl ⟨m2, rfl⟩)
    have v11 : (AAdd.N c p).v 11 [spinOf s'] = ab (legA (p 0) 0 0, legS (p 0) 0 1).1 (legA (p 3) (c.mass .d) s') := bra_angle (p := p) (m := AAdd.proc.massNum (AAdd.rho c)) (AAdd.mass_eq hc 0) (AAdd.mass_eq hc 3) (.inr ⟨m0, rfl⟩) (.inl ⟨m3, rfl⟩)
    have v13 : (AAdd.N c p).v 13 [] = mb (legA (p 1) 0 0, legS (p 1) 0 1).2 (p 2) (legA (p 0) 0 0, legS (p 0) 0 1).1 := bra_mid_square (p := p) (m := AAdd.proc.massNum (AAdd.rho c)) (AAdd.mass_eq hc 1) (AAdd.mass_eq hc 0) (.inr ⟨m1, rfl⟩) (.inr ⟨m0, rfl⟩)
    simp only [AAdd.termMP, v5, v6, v8, v11, v13]
    simp only [c0, c1]
    simp only [norm_mul, norm_div, Complex.norm_real, Real.norm_eq_abs, mul_pow, div_pow, sq_abs, a2]
    rw [a1]
    ring
  have SMM : ∑ s, ∑ s', ‖AAdd.termMM (AAdd.N c p) (spinOf s) (spinOf s')‖ ^ 2 = 
      (((((((2 : Nat) : ℝ) * (AAdd.N c p).r 0) * (AAdd.N c p).r 0) * (AAdd.N c p).r 1) * (AAdd.N c p).r 1) * (AAdd.N c p).r 2) ^ 2 * (2 * dot (p 0) (p 1)) ^ 2 / ((-(2 * dot (p 0) (p 3))) ^ 2 * (-(2 * dot (p 0) (p 2))) ^ 2) * (2 * dot (p 2) (p 3)) := by
    have a1 := y0.ab_norm y1
    have a3 := g2.sb_norm g3
    rw [← a3, Finset.mul_sum]
    refine Finset.sum_congr rfl fun s _ => ?_
    rw [Finset.mul_sum]
    refine Finset.sum_congr rfl fun s' _ => ?_
    have v0 : (AAdd.N c p).v 0 [spinOf s, spinOf s'] = sb (legS (p 2) (c.mass .d) s) (legS (p 3) (c.mass .d) s') := bra_square (p := p) (m := AAdd.proc.massNum (AAdd.rho c)) (AAdd.mass_eq hc 2) (AAdd.mass_eq hc 3) (.inl ⟨m2, rfl⟩) (.inl ⟨m3, rfl⟩)
    have v3 : (AAdd.N c p).v 3 [] = ab (legA (p 0) 0 0, legS (p 0) 0 1).1 (legA (p 1) 0 0, legS (p 1) 0 1).1 := bra_angle (p := p) (m := AAdd.proc.massNum (AAdd.rho c)) (AAdd.mass_eq hc 0) (AAdd.mass_eq hc 1) (.inr ⟨m0, rfl⟩) (.inr ⟨m1, rfl⟩)
    simp only [AAdd.termMM, v0, v3]
    simp only [c0, c1]
    simp only [norm_mul, norm_div, Complex.norm_real, Real.norm_eq_abs, mul_pow, div_pow, sq_abs] at a1 ⊢
    rw [a1]
    ring
  refine ⟨fun n hn => ?_, fun n hn => ?_, ?_⟩
  · rcases hd _ hn with h | h <;> cases h
  · rcases hd _ hn with h | h <;> cases h
    · rw [c0]; exact Complex.ofReal_ne_zero.2 n0
    · rw [c1]; exact Complex.ofReal_ne_zero.2 n1
  rw [AAdd.value]
  simp only [sumW, sumJ]
  have u0 : spinOf 0 = -1 := rfl
  have u1 : spinOf 1 = 1 := rfl
  rw [Fin.sum_univ_two, Fin.sum_univ_two, Fin.sum_univ_two, u0, u1] at SPP SPM SMP SMM
  simp only [AAdd.ampPP, AAdd.ampPM, AAdd.ampMP, AAdd.ampMM]
  have T : ∀ {s0 s1 s2 s3 a0 a1 a2 a3 b0 b1 b2 b3 d0 d1 d2 d3 x y z v W : ℝ}, s0 + s1 + (s2 + s3) = x → a0 + a1 + (a2 + a3) = y → b0 + b1 + (b2 + b3) = z → d0 + d1 + (d2 + d3) = v →
      s0 * W + s1 * W + s2 * W + s3 * W + a0 * W + a1 * W + a2 * W + a3 * W + b0 * W + b1 * W + b2 * W + b3 * W + d0 * W + d1 * W + d2 * W + d3 * W = (x + y + z + v) * W := by
    intros; subst_vars; ring
  have T' := T SPP SPM SMP SMM (W := ((3 : Nat) : ℝ))
  refine (congrArg (· / ((4 : Nat) : ℝ)) (Eq.trans ?_ T')).trans ?_
  · push_cast; ring
  clear T' SPP SPM SMP SMM
  simp only [AAdd.textbook, r0, r1, r2, q2, q3]
  simp only [kleinNishina, breitWheeler, dot_comm (p 1) (p 0), dot_comm (p 2) (p 0), dot_comm (p 2) (p 1), dot_comm (p 3) (p 0), dot_comm (p 3) (p 1), dot_comm (p 3) (p 2), k1, k2, k3, k4]
  generalize dot (p 0) (p 2) = a at *
  generalize dot (p 0) (p 3) = b at *
  generalize c.mass .d = m at *
  push_cast
  field_simp
  ring

theorem AAdd.returns : AAdd.Returns AAdd.proc.amp2 AAdd.Apart AAdd.textbook :=
  returns_of (by simp [all, AAdd]) (by decide +kernel) (by decide +kernel) (fun _ hc i => AAdd.mass_eq hc i) (by decide +kernel) fun _ _ hc hh h0 hs hb ha => AAdd.closed hc hh h0 hs hb ha

/-- `gAuu`: the momenta are off the poles -/
def gAuu.Apart (p : Nat → V4 ℝ) : Prop := dot (p 0) (p 2) ≠ 0 ∧ dot (p 0) (p 3) ≠ 0
/-- `gAuu`: the formula of textbooks -/
noncomputable def gAuu.textbook (c : Constants) (p : Nat → V4 ℝ) : ℝ := (2 / 3 * c.e) ^ 2 * c.gs ^ 2 / 2 * breitWheeler (c.mass .u) (dot (p 0) (p 2)) (dot (p 0) (p 3))

theorem gAuu.closed {c : Constants} {p : Nat → V4 ℝ} (hc : c.Physical) (hh : c.Heavy) (h0 : ∀ i, 0 ≤ gAuu.react.mass c i) (hs : ∀ i : Fin 4, OnShell (p i) (gAuu.react.mass c i)) (hb : Balanced p) (ha : gAuu.Apart p) :
    (∀ n, (Ty.r, n) ∈ gAuu.proc.divides → (gAuu.N c p).r n ≠ 0) ∧ (∀ n, (Ty.c, n) ∈ gAuu.proc.divides → (gAuu.N c p).c n ≠ 0) ∧ meaning (gAuu.N c p) .r Cls.gAuu.methods Cls.gAuu.amp2 [] = gAuu.textbook c p := by
  have q0 : msq (p 0) = (0 : ℝ) ^ 2 := onShell_msq (hs 0)
  have q1 : msq (p 1) = (0 : ℝ) ^ 2 := onShell_msq (hs 1)
  have q2 : msq (p 2) = (c.mass .u) ^ 2 := onShell_msq (hs 2)
  have q3 : msq (p 3) = (c.mass .u) ^ 2 := onShell_msq (hs 3)
  have g2 : Grams (p 2) (c.mass .u) (legA (p 2) (c.mass .u)) (legS (p 2) (c.mass .u)) := legs_grams (hs 2) (h0 2)
  have m2 : gAuu.react.mass c 2 ≠ 0 := (leg_pos hc hh (by decide)).ne'
  have g3 : Grams (p 3) (c.mass .u) (legA (p 3) (c.mass .u)) (legS (p 3) (c.mass .u)) := legs_grams (hs 3) (h0 3)
  have m3 : gAuu.react.mass c 3 ≠ 0 := (leg_pos hc hh (by decide)).ne'
  have y0 : Ray (p 0) (legA (p 0) 0 0, legS (p 0) 0 1) := ray_code (hs 0)
  have m0 : gAuu.react.mass c 0 = 0 := rfl
  have y1 : Ray (p 1) (legA (p 1) 0 0, legS (p 1) 0 1) := ray_code (hs 1)
  have m1 : gAuu.react.mass c 1 = 0 := rfl
  obtain ⟨k1, k2, k3, k4⟩ := dots_in hb q0 q1 q2 q3
  obtain ⟨z1, z2⟩ := ha
  have KM : (c.mass .u) ^ 2 + (0 : ℝ) ^ 2 = (c.mass .u) ^ 2 := by ring
  have KM' : (0 : ℝ) ^ 2 + (c.mass .u) ^ 2 = (c.mass .u) ^ 2 := by ring
  have KM0 : (0 : ℝ) ^ 2 + (0 : ℝ) ^ 2 = ((0 : Nat) : ℝ) ^ 2 := by norm_num
  have c0 : (gAuu.N c p).c 0 = ((-(2 * dot (p 0) (p 2)) : ℝ) : ℂ) := pole_sub q0 q2 KM'
  have n0 : (-(2 * dot (p 0) (p 2)) : ℝ) ≠ 0 := by
    try simp only [dot_comm (p 1) (p 0), dot_comm (p 2) (p 0), dot_comm (p 2) (p 1), dot_comm (p 3) (p 0), dot_comm (p 3) (p 1), dot_comm (p 3) (p 2), k1, k2, k3, k4]
    first | exact mul_ne_zero two_ne_zero z1 | exact mul_ne_zero two_ne_zero z2 | exact neg_ne_zero.2 (mul_ne_zero two_ne_zero z1) | exact neg_ne_zero.2 (mul_ne_zero two_ne_zero z2)
  have c1 : (gAuu.N c p).c 1 = ((-(2 * dot (p 0) (p 3)) : ℝ) : ℂ) := pole_sub q0 q3 KM'
  have n1 : (-(2 * dot (p 0) (p 3)) : ℝ) ≠ 0 := by
    try simp only [dot_comm (p 1) (p 0), dot_comm (p 2) (p 0), dot_comm (p 2) (p 1), dot_comm (p 3) (p 0), dot_comm (p 3) (p 1), dot_comm (p 3) (p 2), k1, k2, k3, k4]
    first | exact mul_ne_zero two_ne_zero z1 | exact mul_ne_zero two_ne_zero z2 | exact neg_ne_zero.2 (mul_ne_zero two_ne_zero z1) | exact neg_ne_zero.2 (mul_ne_zero two_ne_zero z2)
  have r0 : (gAuu.N c p).r 0 = c.e := rfl
  have r1 : (gAuu.N c p).r 1 = (((2 : Nat) : ℝ) / ((3 : Nat) : ℝ)) := rfl
  have r2 : (gAuu.N c p).r 2 = c.gs := rfl
  have r3 : (gAuu.N c p).r 3 = (c.mass .u) := rfl
  have hd : ∀ v ∈ gAuu.proc.divides, v = (Ty.c, 0) ∨ v = (Ty.c, 1) := by decide +kernel
  have SPP : ∑ s, ∑ s', ‖gAuu.termPP (gAuu.N c p) (spinOf s) (spinOf s')‖ ^ 2 = 
      ((((((2 : Nat) : ℝ) * (gAuu.N c p).r 0) * (gAuu.N c p).r 1) * (gAuu.N c p).r 2) * (gAuu.N c p).r 3) ^ 2 * (2 * dot (p 0) (p 1)) ^ 2 / ((-(2 * dot (p 0) (p 3))) ^ 2 * (-(2 * dot (p 0) (p 2))) ^ 2) * (2 * dot (p 2) (p 3)) := by
    have a1 := y0.sb_norm y1
    have a3 := g2.ab_norm g3
    rw [← a3, Finset.mul_sum]
    refine Finset.sum_congr rfl fun s _ => ?_
    rw [Finset.mul_sum]
    refine Finset.sum_congr rfl fun s' _ => ?_
    have v1 : (gAuu.N c p).v 1 [spinOf s, spinOf s'] = ab (legA (p 2) (c.mass .u) s) (legA (p 3) (c.mass .u) s') := bra_angle (p := p) (m := gAuu.proc.massNum (gAuu.rho c)) (gAuu.mass_eq hc 2) (gAuu.mass_eq hc 3) (.inl ⟨m2, rfl⟩) (.inl ⟨m3, rfl⟩)
    have v2 : (gAuu.N c p).v 2 [] = sb (legA (p 0) 0 0, legS (p 0) 0 1).2 (legA (p 1) 0 0, legS (p 1) 0 1).2 := bra_square (p := p) (m := gAuu.proc.massNum (gAuu.rho c)) (gAuu.mass_eq hc 0) (gAuu.mass_eq hc 1) (.inr ⟨m0, rfl⟩) (.inr ⟨m1, rfl⟩)
    simp only [gAuu.termPP, v1, v2]
    simp only [c0, c1]
    simp only [norm_mul, norm_div, Complex.norm_real, Real.norm_eq_abs, mul_pow, div_pow, sq_abs] at a1 ⊢
    rw [a1]
    ring
  have SPM : ∑ s, ∑ s', ‖gAuu.termPM (gAuu.N c p) (spinOf s) (spinOf s')‖ ^ 2 = 
      ((((-((2 : Nat) : ℝ)) * (gAuu.N c p).r 0) * (gAuu.N c p).r 1) * (gAuu.N c p).r 2) ^ 2 * (2 * dot (p 0) (p 2) * (2 * dot (p 1) (p 2)) - msq (p 2) * (2 * dot (p 0) (p 1))) / ((-(2 * dot (p 0) (p 3))) ^ 2 * (-(2 * dot (p 0) (p 2))) ^ 2) * (2 * dot (p 0) (p 2) * (2 * dot (p 1) (p 3)) + (1 : ℝ) ^ 2 * (2 * dot (p 0) (p 3) * (2 * dot (p 1) (p 2))) + 2 * (1 : ℝ) * ((c.mass .u) * (c.mass .u)) * (2 * dot (p 0) (p 1))) := by
    have a1 := y0.mb_norm y1 (p 2)
    have a3 := y0.unlike y1 g2 g3 (1)
    have a2 : ∀ s s', ‖((sb (legA (p 0) 0 0, legS (p 0) 0 1).2 (legS (p 2) (c.mass .u) s)) * (ab (legA (p 1) 0 0, legS (p 1) 0 1).1 (legA (p 3) (c.mass .u) s'))) + ((sb (legA (p 0) 0 0, legS (p 0) 0 1).2 (legS (p 3) (c.mass .u) s')) * (ab (legA (p 1) 0 0, legS (p 1) 0 1).1 (legA (p 2) (c.mass .u) s)))‖ = ‖sb (legA (p 0) 0 0, legS (p 0) 0 1).2 (legS (p 2) (c.mass .u) s) * ab (legA (p 1) 0 0, legS (p 1) 0 1).1 (legA (p 3) (c.mass .u) s') + ((1 : ℝ) : ℂ) * (sb (legA (p 0) 0 0, legS (p 0) 0 1).2 (legS (p 3) (c.mass .u) s') * ab (legA (p 1) 0 0, legS (p 1) 0 1).1 (legA (p 2) (c.mass .u) s))‖ := by
      intro s s'
      first
        | (congr 1; simp only [sb, ab]; push_cast; ring1)
        | (rw [← norm_neg]; congr 1; simp only [sb, ab]; push_cast; ring1)
    rw [← a3, Finset.mul_sum]
    refine Finset.sum_congr rfl fun s _ => ?_
    rw [Finset.mul_sum]
    refine Finset.sum_congr rfl fun s' _ => ?_
    have v4 : (gAuu.N c p).v 4 [spinOf s] = sb (legA (p 0) 0 0, legS (p 0) 0 1).2 (legS (p 2) (c.mass .u) s) := bra_square (p := p) (m := gAuu.proc.massNum (gAuu.rho c)) (gAuu.mass_eq hc 0) (gAuu.mass_eq hc 2) (.inr ⟨m0, rfl⟩) (.inl ⟨m2, rfl⟩)
    have v7 : (gAuu.N c p).v 7 [spinOf s'] = ab (legA (p 1) 0 0, legS (p 1) 0 1).1 (legA (p 3) (c.mass .u) s') := bra_angle (p := p) (m := gAuu.proc.massNum (gAuu.rho c)) (gAuu.mass_eq hc 1) (gAuu.mass_eq hc 3) (.inr ⟨m1, rfl⟩) (.inl ⟨m3, rfl⟩)
    have v9 : (gAuu.N c p).v 9 [spinOf s] = ab (legA (p 1) 0 0, legS (p 1) 0 1).1 (legA (p 2) (c.mass .u) s) := bra_angle (p := p) (m := gAuu.proc.massNum (gAuu.rho c)) (gAuu.mass_eq hc 1) (gAuu.mass_eq hc 2) (.inr ⟨m1, rfl⟩) (.inl ⟨m2, rfl⟩)
    have v10 : (gAuu.N c p).v 10 [spinOf s'] = sb (legA (p 0) 0 0, legS (p 0) 0 1).2 (legS (p 3) (c.mass .u) s') := bra_square (p := p) (m := gAuu.proc.massNum (gAuu.rho c)) (gAuu.mass_eq hc 0) (gAuu.mass_eq hc 3) (.inr ⟨m0, rfl⟩) (.inl ⟨m3, rfl⟩)
    have v12 : (gAuu.N c p).v 12 [] = mb (legA (p 0) 0 0, legS (p 0) 0 1).2 (p 2) (legA (p 1) 0 0, legS (p 1) 0 1).1 := bra_mid_square (p := p) (m := gAuu.proc.massNum (gAuu.rho c)) (gAuu.mass_eq hc 0) (gAuu.mass_eq hc 1) (.inr ⟨m0, rfl⟩) (.inr ⟨m1, rfl⟩)
    simp only [gAuu.termPM, v4, v7, v9, v10, v12]
    simp only [c0, c1]
    simp only [norm_mul, norm_div, Complex.norm_real, Real.norm_eq_abs, mul_pow, div_pow, sq_abs, a2]
    rw [a1]
    ring
  have SMP : ∑ s, ∑ s', ‖gAuu.termMP (gAuu.N c p) (spinOf s) (spinOf s')‖ ^ 2 = 
      ((((-((2 : Nat) : ℝ)) * (gAuu.N c p).r 0) * (gAuu.N c p).r 1) * (gAuu.N c p).r 2) ^ 2 * (2 * dot (p 1) (p 2) * (2 * dot (p 0) (p 2)) - msq (p 2) * (2 * dot (p 1) (p 0))) / ((-(2 * dot (p 0) (p 3))) ^ 2 * (-(2 * dot (p 0) (p 2))) ^ 2) * (2 * dot (p 1) (p 2) * (2 * dot (p 0) (p 3)) + (1 : ℝ) ^ 2 * (2 * dot (p 1) (p 3) * (2 * dot (p 0) (p 2))) + 2 * (1 : ℝ) * ((c.mass .u) * (c.mass .u)) * (2 * dot (p 1) (p 0))) := by
    have a1 := y1.mb_norm y0 (p 2)
    have a3 := y1.unlike y0 g2 g3 (1)
    have a2 : ∀ s s', ‖((ab (legA (p 0) 0 0, legS (p 0) 0 1).1 (legA (p 2) (c.mass .u) s)) * (sb (legA (p 1) 0 0, legS (p 1) 0 1).2 (legS (p 3) (c.mass .u) s'))) + ((ab (legA (p 0) 0 0, legS (p 0) 0 1).1 (legA (p 3) (c.mass .u) s')) * (sb (legA (p 1) 0 0, legS (p 1) 0 1).2 (legS (p 2) (c.mass .u) s)))‖ = ‖sb (legA (p 1) 0 0, legS (p 1) 0 1).2 (legS (p 2) (c.mass .u) s) * ab (legA (p 0) 0 0, legS (p 0) 0 1).1 (legA (p 3) (c.mass .u) s') + ((1 : ℝ) : ℂ) * (sb (legA (p 1) 0 0, legS (p 1) 0 1).2 (legS (p 3) (c.mass .u) s') * ab (legA (p 0) 0 0, legS (p 0) 0 1).1 (legA (p 2) (c.mass .u) s))‖ := by
      intro s s'
      first
        | (congr 1; simp only [sb, ab]; push_cast; ring1)
        | (rw [← norm_neg]; congr 1; simp only [sb, ab]; push_cast; ring1)
    rw [← a3, Finset.mul_sum]
    refine Finset.sum_congr rfl fun s _ => ?_
    rw [Finset.mul_sum]
    refine Finset.sum_congr rfl fun s' _ => ?_
    have v5 : (gAuu.N c p).v 5 [spinOf s] = ab (legA (p 0) 0 0, legS (p 0) 0 1).1 (legA (p 2) (c.mass .u) s) := bra_angle (p := p) (m := gAuu.proc.massNum (gAuu.rho c)) (gAuu.mass_eq hc 0) (gAuu.mass_eq hc 2) (.inr ⟨m0, rfl⟩) (.inl ⟨m2, rfl⟩)
    have v6 : (gAuu.N c p).v 6 [spinOf s'] = sb (legA (p 1) 0 0, legS (p 1) 0 1).2 (legS (p 3) (c.mass .u) s') := bra_square (p := p) (m := gAuu.proc.massNum (gAuu.rho c)) (gAuu.mass_eq hc 1) (gAuu.mass_eq hc 3) (.inr ⟨m1, rfl⟩) (.inl ⟨m3, rfl⟩)
    have v8 : (gAuu.N c p).v 8 [spinOf s] = sb (legA (p 1) 0 0, legS (p 1) 0 1).2 (legS (p 2) (c.mass .u) s) := bra_square (p := p) (m := gAuu.proc.massNum (gAuu.rho c)) (gAuu.mass_eq hc 1) (gAuu.mass_eq hc 2) (.inr ⟨m1, rfl⟩) (.inl ⟨m2, rfl⟩)
    have v11 : (gAuu.N c p).v 11 [spinOf s'] = ab (legA (p 0) 0 0, legS (p 0) 0 1).1 (legA (p 3) (c.mass .u) s') := bra_angle (p := p) (m := gAuu.proc.massNum (gAuu.rho c)) (gAuu.mass_eq hc 0) (gAuu.mass_eq hc 3) (.inr ⟨m0, rfl⟩) (.inl ⟨m3, rfl⟩)
    have v13 : (gAuu.N c p).v 13 [] = mb (legA (p 1) 0 0, legS (p 1) 0 1).2 (p 2) (legA (p 0) 0 0, legS (p 0) 0 1).1 := bra_mid_square (p := p) (m := gAuu.proc.massNum (gAuu.rho c)) (gAuu.mass_eq hc 1) (gAuu.mass_eq hc 0) (.inr ⟨m1, rfl⟩) (.inr ⟨m0, rfl⟩)
    simp only [gAuu.termMP, v5, v6, v8, v11, v13]
    simp only [c0, c1]
    simp only [norm_mul, norm_div, Complex.norm_real, Real.norm_eq_abs, mul_pow, div_pow, sq_abs, a2]
    rw [a1]
    ring
  have SMM : ∑ s, ∑ s', ‖gAuu.termMM (gAuu.N c p) (spinOf s) (spinOf s')‖ ^ 2 = 
      ((((((2 : Nat) : ℝ) * (gAuu.N c p).r 0) * (gAuu.N c p).r 1) * (gAuu.N c p).r 2) * (gAuu.N c p).r 3) ^ 2 * (2 * dot (p 0) (p 1)) ^ 2 / ((-(2 * dot (p 0) (p 3))) ^ 2 * (-(2 * dot (p 0) (p 2))) ^ 2) * (2 * dot (p 2) (p 3)) := by
    have a1 := y0.ab_norm y1
    have a3 := g2.sb_norm g3
    rw [← a3, Finset.mul_sum]
    refine Finset.sum_congr rfl fun s _ => ?_
    rw [Finset.mul_sum]
    refine Finset.sum_congr rfl fun s' _ => ?_
    have v0 : (gAuu.N c p).v 0 [spinOf s, spinOf s'] = sb (legS (p 2) (c.mass .u) s) (legS (p 3) (c.mass .u) s') := bra_square (p := p) (m := gAuu.proc.massNum (gAuu.rho c)) (gAuu.mass_eq hc 2) (gAuu.mass_eq hc 3) (.inl ⟨m2, rfl⟩) (.inl ⟨m3, rfl⟩)
    have v3 : (gAuu.N c p).v 3 [] = ab (legA (p 0) 0 0, legS (p 0) 0 1).1 (legA (p 1) 0 0, legS (p 1) 0 1).1 := bra_angle (p := p) (m := gAuu.proc.massNum (gAuu.rho c)) (gAuu.mass_eq hc 0) (gAuu.mass_eq hc 1) (.inr ⟨m0, rfl⟩) (.inr ⟨m1, rfl⟩)
    simp only [gAuu.termMM, v0, v3]
    simp only [c0, c1]
    simp only [norm_mul, norm_div, Complex.norm_real, Real.norm_eq_abs, mul_pow, div_pow, sq_abs] at a1 ⊢
    rw [a1]
    ring
  refine ⟨fun n hn => ?_, fun n hn => ?_, ?_⟩
  · rcases hd _ hn with h | h <;> cases h
  · rcases hd _ hn with h | h <;> cases h
    · rw [c0]; exact Complex.ofReal_ne_zero.2 n0
    · rw [c1]; exact Complex.ofReal_ne_zero.2 n1
  rw [gAuu.value]
  simp only [sumW, sumJ]
  have u0 : spinOf 0 = -1 := rfl
  have u1 : spinOf 1 = 1 := rfl
  rw [Fin.sum_univ_two, Fin.sum_univ_two, Fin.sum_univ_two, u0, u1] at SPP SPM SMP SMM
  simp only [gAuu.ampPP, gAuu.ampPM, gAuu.ampMP, gAuu.ampMM]
  have T : ∀ {s0 s1 s2 s3 a0 a1 a2 a3 b0 b1 b2 b3 d0 d1 d2 d3 x y z v W : ℝ}, s0 + s1 + (s2 + s3) = x → a0 + a1 + (a2 + a3) = y → b0 + b1 + (b2 + b3) = z → d0 + d1 + (d2 + d3) = v →
      s0 * W + s1 * W + s2 * W + s3 * W + a0 * W + a1 * W + a2 * W + a3 * W + b0 * W + b1 * W + b2 * W + b3 * W + d0 * W + d1 * W + d2 * W + d3 * W = (x + y + z + v) * W := by
    intros; subst_vars; ring
  have T' := T SPP SPM SMP SMM (W := ((4 : Nat) : ℝ))
  refine (congrArg (· / ((32 : Nat) : ℝ)) (Eq.trans ?_ T')).trans ?_
  · push_cast; ring
  clear T' SPP SPM SMP SMM
  simp only [gAuu.textbook, r0, r1, r2, r3, q2, q3]
  simp only [kleinNishina, breitWheeler, dot_comm (p 1) (p 0), dot_comm (p 2) (p 0), dot_comm (p 2) (p 1), dot_comm (p 3) (p 0), dot_comm (p 3) (p 1), dot_comm (p 3) (p 2), k1, k2, k3, k4]
  generalize dot (p 0) (p 2) = a at *
  generalize dot (p 0) (p 3) = b at *
  generalize c.mass .u = m at *
  push_cast
  field_simp
  ring

theorem gAuu.returns : gAuu.Returns gAuu.proc.amp2 gAuu.Apart gAuu.textbook :=
  returns_of (by simp [all, gAuu]) (by decide +kernel) (by decide +kernel) (fun _ hc i => gAuu.mass_eq hc i) (by decide +kernel) fun _ _ hc hh h0 hs hb ha => gAuu.closed hc hh h0 hs hb ha

/-- `gAdd`: the momenta are off the poles -/
def gAdd.Apart (p : Nat → V4 ℝ) : Prop := dot (p 0) (p 2) ≠ 0 ∧ dot (p 0) (p 3) ≠ 0
/-- `gAdd`: the formula of textbooks -/
noncomputable def gAdd.textbook (c : Constants) (p : Nat → V4 ℝ) : ℝ := (1 / 3 * c.e) ^ 2 * c.gs ^ 2 / 2 * breitWheeler (c.mass .d) (dot (p 0) (p 2)) (dot (p 0) (p 3))

theorem gAdd.closed {c : Constants} {p : Nat → V4 ℝ} (hc : c.Physical) (hh : c.Heavy) (h0 : ∀ i, 0 ≤ gAdd.react.mass c i) (hs : ∀ i : Fin 4, OnShell (p i) (gAdd.react.mass c i)) (hb : Balanced p) (ha : gAdd.Apart p) :
    (∀ n, (Ty.r, n) ∈ gAdd.proc.divides → (gAdd.N c p).r n ≠ 0) ∧ (∀ n, (Ty.c, n) ∈ gAdd.proc.divides → (gAdd.N c p).c n ≠ 0) ∧ meaning (gAdd.N c p) .r Cls.gAdd.methods Cls.gAdd.amp2 [] = gAdd.textbook c p := by
  have q0 : msq (p 0) = (0 : ℝ) ^ 2 := onShell_msq (hs 0)
  have q1 : msq (p 1) = (0 : ℝ) ^ 2 := onShell_msq (hs 1)
  have q2 : msq (p 2) = (c.mass .d) ^ 2 := onShell_msq (hs 2)
  have q3 : msq (p 3) = (c.mass .d) ^ 2 := onShell_msq (hs 3)
  have g2 : Grams (p 2) (c.mass .d) (legA (p 2) (c.mass .d)) (legS (p 2) (c.mass .d)) := legs_grams (hs 2) (h0 2)
  have m2 : gAdd.react.mass c 2 ≠ 0 := (leg_pos hc hh (by decide)).ne'
  have g3 : Grams (p 3) (c.mass .d) (legA (p 3) (c.mass .d)) (legS (p 3) (c.mass .d)) := legs_grams (hs 3) (h0 3)
  have m3 : gAdd.react.mass c 3 ≠ 0 := (leg_pos hc hh (by decide)).ne'
  have y0 : Ray (p 0) (legA (p 0) 0 0, legS (p 0) 0 1) := ray_code (hs 0)
  have m0 : gAdd.react.mass c 0 = 0 := rfl
  have y1 : Ray (p 1) (legA (p 1) 0 0, legS (p 1) 0 1) := ray_code (hs 1)
  have m1 : gAdd.react.mass c 1 = 0 := rfl
  obtain ⟨k1, k2, k3, k4⟩ := dots_in hb q0 q1 q2 q3
  obtain ⟨z1, z2⟩ := ha
  have KM : (c.mass .d) ^ 2 + (0 : ℝ) ^ 2 = (c.mass .d) ^ 2 := by ring
  have KM' : (0 : ℝ) ^ 2 + (c.mass .d) ^ 2 = (c.mass .d) ^ 2 := by ring
  have KM0 : (0 : ℝ) ^ 2 + (0 : ℝ) ^ 2 = ((0 : Nat) : ℝ) ^ 2 := by norm_num
  have c0 : (gAdd.N c p).c 0 = ((-(2 * dot (p 0) (p 2)) : ℝ) : ℂ) := pole_sub q0 q2 KM'
  have n0 : (-(2 * dot (p 0) (p 2)) : ℝ) ≠ 0 := by
    try simp only [dot_comm (p 1) (p 0), dot_comm (p 2) (p 0), dot_comm (p 2) (p 1), dot_comm (p 3) (p 0), dot_comm (p 3) (p 1), dot_comm (p 3) (p 2), k1, k2, k3, k4]
    first | exact mul_ne_zero two_ne_zero z1 | exact mul_ne_zero two_ne_zero z2 | exact neg_ne_zero.2 (mul_ne_zero two_ne_zero z1) | exact neg_ne_zero.2 (mul_ne_zero two_ne_zero z2)
  have c1 : (gAdd.N c p).c 1 = ((-(2 * dot (p 0) (p 3)) : ℝ) : ℂ) := pole_sub q0 q3 KM'
  have n1 : (-(2 * dot (p 0) (p 3)) : ℝ) ≠ 0 := by
    try simp only [dot_comm (p 1) (p 0), dot_comm (p 2) (p 0), dot_comm (p 2) (p 1), dot_comm (p 3) (p 0), dot_comm (p 3) (p 1), dot_comm (p 3) (p 2), k1, k2, k3, k4]
    first | exact mul_ne_zero two_ne_zero z1 | exact mul_ne_zero two_ne_zero z2 | exact neg_ne_zero.2 (mul_ne_zero two_ne_zero z1) | exact neg_ne_zero.2 (mul_ne_zero two_ne_zero z2)
  have r0 : (gAdd.N c p).r 0 = c.e := rfl
  have r1 : (gAdd.N c p).r 1 = ((-((1 : Nat) : ℝ)) / ((3 : Nat) : ℝ)) := rfl
  have r2 : (gAdd.N c p).r 2 = c.gs := rfl
  have r3 : (gAdd.N c p).r 3 = (c.mass .d) := rfl
  have hd : ∀ v ∈ gAdd.proc.divides, v = (Ty.c, 0) ∨ v = (Ty.c, 1) := by decide +kernel
  have SPP : ∑ s, ∑ s', ‖gAdd.termPP (gAdd.N c p) (spinOf s) (spinOf s')‖ ^ 2 = 
      ((((((2 : Nat) : ℝ) * (gAdd.N c p).r 0) * (gAdd.N c p).r 1) * (gAdd.N c p).r 2) * (gAdd.N c p).r 3) ^ 2 * (2 * dot (p 0) (p 1)) ^ 2 / ((-(2 * dot (p 0) (p 3))) ^ 2 * (-(2 * dot (p 0) (p 2))) ^ 2) * (2 * dot (p 2) (p 3)) := by
    have a1 := y0.sb_norm y1
    have a3 := g2.ab_norm g3
    rw [← a3, Finset.mul_sum]
    refine Finset.sum_congr rfl fun s _ => ?_
    rw [Finset.mul_sum]
    refine Finset.sum_congr rfl fun s' _ => ?_
    have v1 : (gAdd.N c p).v 1 [spinOf s, spinOf s'] = ab (legA (p 2) (c.mass .d) s) (legA (p 3) (c.mass .d) s') := bra_angle (p := p) (m := gAdd.proc.massNum (gAdd.rho c)) (gAdd.mass_eq hc 2) (gAdd.mass_eq hc 3) (.inl ⟨m2, rfl⟩) (.inl ⟨m3, rfl⟩)
    have v2 : (gAdd.N c p).v 2 [] = sb (legA (p 0) 0 0, legS (p 0) 0 1).2 (legA (p 1) 0 0, legS (p 1) 0 1).2 := bra_square (p := p) (m := gAdd.proc.massNum (gAdd.rho c)) (gAdd.mass_eq hc 0) (gAdd.mass_eq hc 1) (.inr ⟨m0, rfl⟩) (.inr ⟨m1, rfl⟩)
    simp only [gAdd.termPP, v1, v2]
    simp only [c0, c1]
    simp only [norm_mul, norm_div, Complex.norm_real, Real.norm_eq_abs, mul_pow, div_pow, sq_abs] at a1 ⊢
    rw [a1]
    ring
  have SPM : ∑ s, ∑ s', ‖gAdd.termPM (gAdd.N c p) (spinOf s) (spinOf s')‖ ^ 2 = 
      ((((-((2 : Nat) : ℝ)) * (gAdd.N c p).r 0) * (gAdd.N c p).r 1) * (gAdd.N c p).r 2) ^ 2 * (2 * dot (p 0) (p 2) * (2 * dot (p 1) (p 2)) - msq (p 2) * (2 * dot (p 0) (p 1))) / ((-(2 * dot (p 0) (p 3))) ^ 2 * (-(2 * dot (p 0) (p 2))) ^ 2) * (2 * dot (p 0) (p 2) * (2 * dot (p 1) (p 3)) + (1 : ℝ) ^ 2 * (2 * dot (p 0) (p 3) * (2 * dot (p 1) (p 2))) + 2 * (1 : ℝ) * ((c.mass .d) * (c.mass .d)) * (2 * dot (p 0) (p 1))) := by
    have a1 := y0.mb_norm y1 (p 2)
    have a3 := y0.unlike y1 g2 g3 (1)
    have a2 : ∀ s s', ‖((sb (legA (p 0) 0 0, legS (p 0) 0 1).2 (legS (p 2) (c.mass .d) s)) * (ab (legA (p 1) 0 0, legS (p 1) 0 1).1 (legA (p 3) (c.mass .d) s'))) + ((sb (legA (p 0) 0 0, legS (p 0) 0 1).2 (legS (p 3) (c.mass .d) s')) * (ab (legA (p 1) 0 0, legS (p 1) 0 1).1 (legA (p 2) (c.mass .d) s)))‖ = ‖sb (legA (p 0) 0 0, legS (p 0) 0 1).2 (legS (p 2) (c.mass .d) s) * ab (legA (p 1) 0 0, legS (p 1) 0 1).1 (legA (p 3) (c.mass .d) s') + ((1 : ℝ) : ℂ) * (sb (legA (p 0) 0 0, legS (p 0) 0 1).2 (legS (p 3) (c.mass .d) s') * ab (legA (p 1) 0 0, legS (p 1) 0 1).1 (legA (p 2) (c.mass .d) s))‖ := by
      intro s s'
      first
        | (congr 1; simp only [sb, ab]; push_cast; ring1)
        | (rw [← norm_neg]; congr 1; simp only [sb, ab]; push_cast; ring1)
    rw [← a3, Finset.mul_sum]
    refine Finset.sum_congr rfl fun s _ => ?_
    rw [Finset.mul_sum]
    refine Finset.sum_congr rfl fun s' _ => ?_
    have v4 : (gAdd.N c p).v 4 [spinOf s] = sb (legA (p 0) 0 0, legS (p 0) 0 1).2 (legS (p 2) (c.mass .d) s) := bra_square (p := p) (m := gAdd.proc.massNum (gAdd.rho c)) (gAdd.mass_eq hc 0) (gAdd.mass_eq hc 2) (.inr ⟨m0, rfl⟩) (.inl ⟨m2, rfl⟩)
    have v7 : (gAdd.N c p).v 7 [spinOf s'] = ab (legA (p 1) 0 0, legS (p 1) 0 1).1 (legA (p 3) (c.mass .d) s') := bra_angle (p := p) (m := gAdd.proc.massNum (gAdd.rho c)) (gAdd.mass_eq hc 1) (gAdd.mass_eq hc 3) (.inr ⟨m1, rfl⟩) (.inl ⟨m3, rfl⟩)
    have v9 : (gAdd.N c p).v 9 [spinOf s] = ab (legA (p 1) 0 0, legS (p 1) 0 1).1 (legA (p 2) (c.mass .d) s) := bra_angle (p := p) (m := gAdd.proc.massNum (gAdd.rho c)) (gAdd.mass_eq hc 1) (gAdd.mass_eq hc 2) (.inr ⟨m1, rfl⟩) (.inl ⟨m2, rfl⟩)
    have v10 : (gAdd.N c p).v 10 [spinOf s'] = sb (legA (p 0) 0 0, legS (p 0) 0 1).2 (legS (p 3) (c.mass .d) s') := bra_square (p := p) (m := gAdd.proc.massNum (gAdd.rho c)) (gAdd.mass_eq hc 0) (gAdd.mass_eq hc 3) (.inr ⟨m0, rfl⟩) (.inl ⟨m3, rfl⟩)
    have v12 : (gAdd.N c p).v 12 [] = mb (legA (p 0) 0 0, legS (p 0) 0 1).2 (p 2) (legA (p 1) 0 0, legS (p 1) 0 1).1 := bra_mid_square (p := p) (m := gAdd.proc.massNum (gAdd.rho c)) (gAdd.mass_eq hc 0) (gAdd.mass_eq hc 1) (.inr ⟨m0, rfl⟩) (.inr ⟨m1, rfl⟩)
    simp only [gAdd.termPM, v4, v7, v9, v10, v12]
    simp only [c0, c1]
    simp only [norm_mul, norm_div, Complex.norm_real, Real.norm_eq_abs, mul_pow, div_pow, sq_abs, a2]
    rw [a1]
    ring
  have SMP : ∑ s, ∑ s', ‖gAdd.termMP (gAdd.N c p) (spinOf s) (spinOf s')‖ ^ 2 = 
      ((((-((2 : Nat) : ℝ)) * (gAdd.N c p).r 0) * (gAdd.N c p).r 1) * (gAdd.N c p).r 2) ^ 2 * (2 * dot (p 1) (p 2) * (2 * dot (p 0) (p 2)) - msq (p 2) * (2 * dot (p 1) (p 0))) / ((-(2 * dot (p 0) (p 3))) ^ 2 * (-(2 * dot (p 0) (p 2))) ^ 2) * (2 * dot (p 1) (p 2) * (2 * dot (p 0) (p 3)) + (1 : ℝ) ^ 2 * (2 * dot (p 1) (p 3) * (2 * dot (p 0) (p 2))) + 2 * (1 : ℝ) * ((c.mass .d) * (c.mass .d)) * (2 * dot (p 1) (p 0))) := by
    have a1 := y1.mb_norm y0 (p 2)
    have a3 := y1.unlike y0 g2 g3 (1)
    have a2 : ∀ s s', ‖((ab (legA (p 0) 0 0, legS (p 0) 0 1).1 (legA (p 2) (c.mass .d) s)) * (sb (legA (p 1) 0 0, legS (p 1) 0 1).2 (legS (p 3) (c.mass .d) s'))) + ((ab (legA (p 0) 0 0, legS (p 0) 0 1).1 (legA (p 3) (c.mass .d) s')) * (sb (legA (p 1) 0 0, legS (p 1) 0 1).2 (legS (p 2) (c.mass .d) s)))‖ = ‖sb (legA (p 1) 0 0, legS (p 1) 0 1).2 (legS (p 2) (c.mass .d) s) * ab (legA (p 0) 0 0, legS (p 0) 0 1).1 (legA (p 3) (c.mass .d) s') + ((1 : ℝ) : ℂ) * (sb (legA (p 1) 0 0, legS (p 1) 0 1).2 (legS (p 3) (c.mass .d) s') * ab (legA (p 0) 0 0, legS (p 0) 0 1).1 (legA (p 2) (c.mass .d) s))‖ := by
      intro s s'
      first
        | (congr 1; simp only [sb, ab]; push_cast; ring1)
        | (rw [← norm_neg]; congr 1; simp only [sb, ab]; push_cast; ring1)
    rw [← a3, Finset.mul_sum]
    refine Finset.sum_congr rfl fun s _ => ?_
    rw [Finset.mul_sum]
    refine Finset.sum_congr rfl fun s' _ => ?_
    have v5 : (gAdd.N c p).v 5 [spinOf s] = ab (legA (p 0) 0 0, legS (p 0) 0 1).1 (legA (p 2) (c.mass .d) s) := bra_angle (p := p) (m := gAdd.proc.massNum (gAdd.rho c)) (gAdd.mass_eq hc 0) (gAdd.mass_eq hc 2) (.inr ⟨m0, rfl⟩) (.inl ⟨m2, rfl⟩)
    have v6 : (gAdd.N c p).v 6 [spinOf s'] = sb (legA (p 1) 0 0, legS (p 1) 0 1).2 (legS (p 3) (c.mass .d) s') := bra_square (p := p) (m := gAdd.proc.massNum (gAdd.rho c)) (gAdd.mass_eq hc 1) (gAdd.mass_eq hc 3) (.inr ⟨m1, rfl⟩) (.inl ⟨m3, rfl⟩)
    have v8 : (gAdd.N c p).v 8 [spinOf s] = sb (legA (p 1) 0 0, legS (p 1) 0 1).2 (legS (p 2) (c.mass .d) s) := bra_square (p := p) (m := gAdd.proc.massNum (gAdd.rho c)) (gAdd.mass_eq hc 1) (gAdd.mass_eq hc 2) (.inr ⟨m1, rfl⟩) (.inl ⟨m2, rfl⟩)
    have v11 : (gAdd.N c p).v 11 [spinOf s'] = ab (legA (p 0) 0 0, legS (p 0) 0 1).1 (legA (p 3) (c.mass .d) s') := bra_angle (p := p) (m := gAdd.proc.massNum (gAdd.rho c)) (gAdd.mass_eq hc 0) (gAdd.mass_eq hc 3) (.inr ⟨m0, rfl⟩) (.inl ⟨m3, rfl⟩)
    have v13 : (gAdd.N c p).v 13 [] = mb (legA (p 1) 0 0, legS (p 1) 0 1).2 (p 2) (legA (p 0) 0 0, legS (p 0) 0 1).1 := bra_mid_square (p := p) (m := gAdd.proc.massNum (gAdd.rho c)) (gAdd.mass_eq hc 1) (gAdd.mass_eq hc 0) (.inr ⟨m1, rfl⟩) (.inr ⟨m0, rfl⟩)
    simp only [gAdd.termMP, v5, v6, v8, v11, v13]
    simp only [c0, c1]
    simp only [norm_mul, norm_div, Complex.norm_real, Real.norm_eq_abs, mul_pow, div_pow, sq_abs, a2]
    rw [a1]
    ring
  have SMM : ∑ s, ∑ s', ‖gAdd.termMM (gAdd.N c p) (spinOf s) (spinOf s')‖ ^ 2 = 
      ((((((2 : Nat) : ℝ) * (gAdd.N c p).r 0) * (gAdd.N c p).r 1) * (gAdd.N c p).r 2) * (gAdd.N c p).r 3) ^ 2 * (2 * dot (p 0) (p 1)) ^ 2 / ((-(2 * dot (p 0) (p 3))) ^ 2 * (-(2 * dot (p 0) (p 2))) ^ 2) * (2 * dot (p 2) (p 3)) := by
    have a1 := y0.ab_norm y1
    have a3 := g2.sb_norm g3
    rw [← a3, Finset.mul_sum]
    refine Finset.sum_congr rfl fun s _ => ?_
    rw [Finset.mul_sum]
    refine Finset.sum_congr rfl fun s' _ => ?_
    have v0 : (gAdd.N c p).v 0 [spinOf s, spinOf s'] = sb (legS (p 2) (c.mass .d) s) (legS (p 3) (c.mass .d) s') := bra_square (p := p) (m := gAdd.proc.massNum (gAdd.rho c)) (gAdd.mass_eq hc 2) (gAdd.mass_eq hc 3) (.inl ⟨m2, rfl⟩) (.inl ⟨m3, rfl⟩)
    have v3 : (gAdd.N c p).v 3 [] = ab (legA (p 0) 0 0, legS (p 0) 0 1).1 (legA (p 1) 0 0, legS (p 1) 0 1).1 := bra_angle (p := p) (m := gAdd.proc.massNum (gAdd.rho c)) (gAdd.mass_eq hc 0) (gAdd.mass_eq hc 1) (.inr ⟨m0, rfl⟩) (.inr ⟨m1, rfl⟩)
    simp only [gAdd.termMM, v0, v3]
    simp only [c0, c1]
    simp only [norm_mul, norm_div, Complex.norm_real, Real.norm_eq_abs, mul_pow, div_pow, sq_abs] at a1 ⊢
    rw [a1]
    ring
  refine ⟨fun n hn => ?_, fun n hn => ?_, ?_⟩
  · rcases hd _ hn with h | h <;> cases h
  · rcases hd _ hn with h | h <;> cases h
    · rw [c0]; exact Complex.ofReal_ne_zero.2 n0
    · rw [c1]; exact Complex.ofReal_ne_zero.2 n1
  rw [gAdd.value]
  simp only [sumW, sumJ]
  have u0 : spinOf 0 = -1 := rfl
  have u1 : spinOf 1 = 1 := rfl
  rw [Fin.sum_univ_two, Fin.sum_univ_two, Fin.sum_univ_two, u0, u1] at SPP SPM SMP SMM
  simp only [gAdd.ampPP, gAdd.ampPM, gAdd.ampMP, gAdd.ampMM]
  have T : ∀ {s0 s1 s2 s3 a0 a1 a2 a3 b0 b1 b2 b3 d0 d1 d2 d3 x y z v W : ℝ}, s0 + s1 + (s2 + s3) = x → a0 + a1 + (a2 + a3) = y → b0 + b1 + (b2 + b3) = z → d0 + d1 + (d2 + d3) = v →
      s0 * W + s1 * W + s2 * W + s3 * W + a0 * W + a1 * W + a2 * W + a3 * W + b0 * W + b1 * W + b2 * W + b3 * W + d0 * W + d1 * W + d2 * W + d3 * W = (x + y + z + v) * W := by
    intros; subst_vars; ring
  have T' := T SPP SPM SMP SMM (W := ((4 : Nat) : ℝ))
  refine (congrArg (· / ((32 : Nat) : ℝ)) (Eq.trans ?_ T')).trans ?_
  · push_cast; ring
  clear T' SPP SPM SMP SMM
  simp only [gAdd.textbook, r0, r1, r2, r3, q2, q3]
  simp only [kleinNishina, breitWheeler, dot_comm (p 1) (p 0), dot_comm (p 2) (p 0), dot_comm (p 2) (p 1), dot_comm (p 3) (p 0), dot_comm (p 3) (p 1), dot_comm (p 3) (p 2), k1, k2, k3, k4]
  generalize dot (p 0) (p 2) = a at *
  generalize dot (p 0) (p 3) = b at *
  generalize c.mass .d = m at *
  push_cast
  field_simp
  ring

theorem gAdd.returns : gAdd.Returns gAdd.proc.amp2 gAdd.Apart gAdd.textbook :=
  returns_of (by simp [all, gAdd]) (by decide +kernel) (by decide +kernel) (fun _ hc i => gAdd.mass_eq hc i) (by decide +kernel) fun _ _ hc hh h0 hs hb ha => gAdd.closed hc hh h0 hs hb ha

/-- `gguu`: the momenta are off the poles -/
def gguu.Apart (p : Nat → V4 ℝ) : Prop := dot (p 0) (p 2) ≠ 0 ∧ dot (p 0) (p 3) ≠ 0 ∧ dot (p 0) (p 1) ≠ 0
/-- `gguu`: the formula of textbooks -/
noncomputable def gguu.textbook (c : Constants) (p : Nat → V4 ℝ) : ℝ := quarkPair c.gs (c.mass .u) (dot (p 0) (p 2)) (dot (p 0) (p 3))

theorem gguu.closed {c : Constants} {p : Nat → V4 ℝ} (hc : c.Physical) (hh : c.Heavy) (h0 : ∀ i, 0 ≤ gguu.react.mass c i) (hs : ∀ i : Fin 4, OnShell (p i) (gguu.react.mass c i)) (hb : Balanced p) (ha : gguu.Apart p) :
    (∀ n, (Ty.r, n) ∈ gguu.proc.divides → (gguu.N c p).r n ≠ 0) ∧ (∀ n, (Ty.c, n) ∈ gguu.proc.divides → (gguu.N c p).c n ≠ 0) ∧ meaning (gguu.N c p) .r Cls.gguu.methods Cls.gguu.amp2 [] = gguu.textbook c p := by
  have q0 : msq (p 0) = (0 : ℝ) ^ 2 := onShell_msq (hs 0)
  have q1 : msq (p 1) = (0 : ℝ) ^ 2 := onShell_msq (hs 1)
  have q2 : msq (p 2) = (c.mass .u) ^ 2 := onShell_msq (hs 2)
  have q3 : msq (p 3) = (c.mass .u) ^ 2 := onShell_msq (hs 3)
  have g2 : Grams (p 2) (c.mass .u) (legA (p 2) (c.mass .u)) (legS (p 2) (c.mass .u)) := legs_grams (hs 2) (h0 2)
  have m2 : gguu.react.mass c 2 ≠ 0 := (leg_pos hc hh (by decide)).ne'
  have g3 : Grams (p 3) (c.mass .u) (legA (p 3) (c.mass .u)) (legS (p 3) (c.mass .u)) := legs_grams (hs 3) (h0 3)
  have m3 : gguu.react.mass c 3 ≠ 0 := (leg_pos hc hh (by decide)).ne'
  have y0 : Ray (p 0) (legA (p 0) 0 0, legS (p 0) 0 1) := ray_code (hs 0)
  have m0 : gguu.react.mass c 0 = 0 := rfl
  have y1 : Ray (p 1) (legA (p 1) 0 0, legS (p 1) 0 1) := ray_code (hs 1)
  have m1 : gguu.react.mass c 1 = 0 := rfl
  obtain ⟨k1, k2, k3, k4⟩ := dots_in hb q0 q1 q2 q3
  obtain ⟨z1, z2, z3⟩ := ha
  have KM : (c.mass .u) ^ 2 + (0 : ℝ) ^ 2 = (c.mass .u) ^ 2 := by ring
  have KM' : (0 : ℝ) ^ 2 + (c.mass .u) ^ 2 = (c.mass .u) ^ 2 := by ring
  have KM0 : (0 : ℝ) ^ 2 + (0 : ℝ) ^ 2 = ((0 : Nat) : ℝ) ^ 2 := by norm_num
  have e2 : (gguu.N c p).r 2 = (2 * dot (p 0) (p 1)) := by
    have : (gguu.N c p).r 2 = (poleDist ((0 : Nat) : ℝ) ((0 : Nat) : ℝ) ((VExp.add 0 1).sum p)).re := rfl
    rw [this, pole_add q0 q1 KM0, Complex.ofReal_re]
  have n2 : ((2 * dot (p 0) (p 1)) : ℝ) ≠ 0 := by
    try simp only [dot_comm (p 1) (p 0), dot_comm (p 2) (p 0), dot_comm (p 2) (p 1), dot_comm (p 3) (p 0), dot_comm (p 3) (p 1), dot_comm (p 3) (p 2), k1, k2, k3, k4] at z3 ⊢
    first | exact mul_ne_zero two_ne_zero z1 | exact mul_ne_zero two_ne_zero z2 | exact mul_ne_zero two_ne_zero z3 | exact neg_ne_zero.2 (mul_ne_zero two_ne_zero z1) | exact neg_ne_zero.2 (mul_ne_zero two_ne_zero z2) | exact neg_ne_zero.2 (mul_ne_zero two_ne_zero z3)
  have e3 : (gguu.N c p).r 3 = -(2 * dot (p 0) (p 2)) := by
    have : (gguu.N c p).r 3 = (poleDist (c.mass .u) ((0 : Nat) : ℝ) ((VExp.sub 0 2).sum p)).re := rfl
    rw [this, pole_sub q0 q2 KM', Complex.ofReal_re]
  have n3 : (-(2 * dot (p 0) (p 2)) : ℝ) ≠ 0 := by
    try simp only [dot_comm (p 1) (p 0), dot_comm (p 2) (p 0), dot_comm (p 2) (p 1), dot_comm (p 3) (p 0), dot_comm (p 3) (p 1), dot_comm (p 3) (p 2), k1, k2, k3, k4] at z3 ⊢
    first | exact mul_ne_zero two_ne_zero z1 | exact mul_ne_zero two_ne_zero z2 | exact mul_ne_zero two_ne_zero z3 | exact neg_ne_zero.2 (mul_ne_zero two_ne_zero z1) | exact neg_ne_zero.2 (mul_ne_zero two_ne_zero z2) | exact neg_ne_zero.2 (mul_ne_zero two_ne_zero z3)
  have e4 : (gguu.N c p).r 4 = -(2 * dot (p 0) (p 3)) := by
    have : (gguu.N c p).r 4 = (poleDist (c.mass .u) ((0 : Nat) : ℝ) ((VExp.sub 0 3).sum p)).re := rfl
    rw [this, pole_sub q0 q3 KM', Complex.ofReal_re]
  have n4 : (-(2 * dot (p 0) (p 3)) : ℝ) ≠ 0 := by
    try simp only [dot_comm (p 1) (p 0), dot_comm (p 2) (p 0), dot_comm (p 2) (p 1), dot_comm (p 3) (p 0), dot_comm (p 3) (p 1), dot_comm (p 3) (p 2), k1, k2, k3, k4] at z3 ⊢
    first | exact mul_ne_zero two_ne_zero z1 | exact mul_ne_zero two_ne_zero z2 | exact mul_ne_zero two_ne_zero z3 | exact neg_ne_zero.2 (mul_ne_zero two_ne_zero z1) | exact neg_ne_zero.2 (mul_ne_zero two_ne_zero z2) | exact neg_ne_zero.2 (mul_ne_zero two_ne_zero z3)
  have r0 : (gguu.N c p).r 0 = c.gs := rfl
  have r1 : (gguu.N c p).r 1 = c.mass .u := rfl
  have hd : ∀ v ∈ gguu.proc.divides, v = (Ty.r, 2) ∨ v = (Ty.r, 3) ∨ v = (Ty.r, 4) := by decide +kernel
  have SPP : ∑ s, ∑ s', ‖gguu.termPP (gguu.N c p) (spinOf s) (spinOf s')‖ ^ 2 = 
      (((((2 : Nat) : ℝ) * (gguu.N c p).r 0) * (gguu.N c p).r 0) * (gguu.N c p).r 1) ^ 2 * (2 * dot (p 0) (p 1)) ^ 2 / (1) * (2 * dot (p 2) (p 3)) := by
    have a1 := y0.sb_norm y1
    have a3 := g2.ab_norm g3
    rw [← a3, Finset.mul_sum]
    refine Finset.sum_congr rfl fun s _ => ?_
    rw [Finset.mul_sum]
    refine Finset.sum_congr rfl fun s' _ => ?_
    have v1 : (gguu.N c p).v 1 [spinOf s, spinOf s'] = ab (legA (p 2) (c.mass .u) s) (legA (p 3) (c.mass .u) s') := bra_angle (p := p) (m := gguu.proc.massNum (gguu.rho c)) (gguu.mass_eq hc 2) (gguu.mass_eq hc 3) (.inl ⟨m2, rfl⟩) (.inl ⟨m3, rfl⟩)
    have v2 : (gguu.N c p).v 2 [] = sb (legA (p 0) 0 0, legS (p 0) 0 1).2 (legA (p 1) 0 0, legS (p 1) 0 1).2 := bra_square (p := p) (m := gguu.proc.massNum (gguu.rho c)) (gguu.mass_eq hc 0) (gguu.mass_eq hc 1) (.inr ⟨m0, rfl⟩) (.inr ⟨m1, rfl⟩)
    simp only [gguu.termPP, v1, v2]
    simp only [norm_mul, norm_div, Complex.norm_real, Real.norm_eq_abs, mul_pow, div_pow, sq_abs] at a1 ⊢
    rw [a1]
    ring
  have SPM : ∑ s, ∑ s', ‖gguu.termPM (gguu.N c p) (spinOf s) (spinOf s')‖ ^ 2 = 
      (((-((2 : Nat) : ℝ)) * (gguu.N c p).r 0) * (gguu.N c p).r 0) ^ 2 * (2 * dot (p 0) (p 2) * (2 * dot (p 1) (p 2)) - msq (p 2) * (2 * dot (p 0) (p 1))) / (1) * (2 * dot (p 0) (p 2) * (2 * dot (p 1) (p 3)) + (1 : ℝ) ^ 2 * (2 * dot (p 0) (p 3) * (2 * dot (p 1) (p 2))) + 2 * (1 : ℝ) * ((c.mass .u) * (c.mass .u)) * (2 * dot (p 0) (p 1))) := by
    have a1 := y0.mb_norm y1 (p 2)
    have a3 := y0.unlike y1 g2 g3 (1)
    have a2 : ∀ s s', ‖(sb (legA (p 0) 0 0, legS (p 0) 0 1).2 (legS (p 2) (c.mass .u) s)) * (ab (legA (p 1) 0 0, legS (p 1) 0 1).1 (legA (p 3) (c.mass .u) s')) + (sb (legA (p 0) 0 0, legS (p 0) 0 1).2 (legS (p 3) (c.mass .u) s')) * (ab (legA (p 1) 0 0, legS (p 1) 0 1).1 (legA (p 2) (c.mass .u) s))‖ = ‖sb (legA (p 0) 0 0, legS (p 0) 0 1).2 (legS (p 2) (c.mass .u) s) * ab (legA (p 1) 0 0, legS (p 1) 0 1).1 (legA (p 3) (c.mass .u) s') + ((1 : ℝ) : ℂ) * (sb (legA (p 0) 0 0, legS (p 0) 0 1).2 (legS (p 3) (c.mass .u) s') * ab (legA (p 1) 0 0, legS (p 1) 0 1).1 (legA (p 2) (c.mass .u) s))‖ := by
      intro s s'
      first
        | (congr 1; simp only [sb, ab]; push_cast; ring1)
        | (rw [← norm_neg]; congr 1; simp only [sb, ab]; push_cast; ring1)
    rw [← a3, Finset.mul_sum]
    refine Finset.sum_congr rfl fun s _ => ?_
    rw [Finset.mul_sum]
    refine Finset.sum_congr rfl fun s' _ => ?_
    have v4 : (gguu.N c p).v 4 [spinOf s] = sb (legA (p 0) 0 0, legS (p 0) 0 1).2 (legS (p 2) (c.mass .u) s) := bra_square (p := p) (m := gguu.proc.massNum (gguu.rho c)) (gguu.mass_eq hc 0) (gguu.mass_eq hc 2) (.inr ⟨m0, rfl⟩) (.inl ⟨m2, rfl⟩)
    have v7 : (gguu.N c p).v 7 [spinOf s'] = ab (legA (p 1) 0 0, legS (p 1) 0 1).1 (legA (p 3) (c.mass .u) s') := bra_angle (p := p) (m := gguu.proc.massNum (gguu.rho c)) (gguu.mass_eq hc 1) (gguu.mass_eq hc 3) (.inr ⟨m1, rfl⟩) (.inl ⟨m3, rfl⟩)
    have v9 : (gguu.N c p).v 9 [spinOf s] = ab (legA (p 1) 0 0, legS (p 1) 0 1).1 (legA (p 2) (c.mass .u) s) := bra_angle (p := p) (m := gguu.proc.massNum (gguu.rho c)) (gguu.mass_eq hc 1) (gguu.mass_eq hc 2) (.inr ⟨m1, rfl⟩) (.inl ⟨m2, rfl⟩)
    have v10 : (gguu.N c p).v 10 [spinOf s'] = sb (legA (p 0) 0 0, legS (p 0) 0 1).2 (legS (p 3) (c.mass .u) s') := bra_square (p := p) (m := gguu.proc.massNum (gguu.rho c)) (gguu.mass_eq hc 0) (gguu.mass_eq hc 3) (.inr ⟨m0, rfl⟩) (.inl ⟨m3, rfl⟩)
    have v12 : (gguu.N c p).v 12 [] = mb (legA (p 0) 0 0, legS (p 0) 0 1).2 (p 2) (legA (p 1) 0 0, legS (p 1) 0 1).1 := bra_mid_square (p := p) (m := gguu.proc.massNum (gguu.rho c)) (gguu.mass_eq hc 0) (gguu.mass_eq hc 1) (.inr ⟨m0, rfl⟩) (.inr ⟨m1, rfl⟩)
    simp only [gguu.termPM, v4, v7, v9, v10, v12]
    simp only [norm_mul, norm_div, Complex.norm_real, Real.norm_eq_abs, mul_pow, div_pow, sq_abs, a2]
    rw [a1]
    ring
  have SMP : ∑ s, ∑ s', ‖gguu.termMP (gguu.N c p) (spinOf s) (spinOf s')‖ ^ 2 = 
      (((-((2 : Nat) : ℝ)) * (gguu.N c p).r 0) * (gguu.N c p).r 0) ^ 2 * (2 * dot (p 1) (p 2) * (2 * dot (p 0) (p 2)) - msq (p 2) * (2 * dot (p 1) (p 0))) / (1) * (2 * dot (p 1) (p 2) * (2 * dot (p 0) (p 3)) + (1 : ℝ) ^ 2 * (2 * dot (p 1) (p 3) * (2 * dot (p 0) (p 2))) + 2 * (1 : ℝ) * ((c.mass .u) * (c.mass .u)) * (2 * dot (p 1) (p 0))) := by
    have a1 := y1.mb_norm y0 (p 2)
    have a3 := y1.unlike y0 g2 g3 (1)
    have a2 : ∀ s s', ‖(ab (legA (p 0) 0 0, legS (p 0) 0 1).1 (legA (p 2) (c.mass .u) s)) * (sb (legA (p 1) 0 0, legS (p 1) 0 1).2 (legS (p 3) (c.mass .u) s')) + (ab (legA (p 0) 0 0, legS (p 0) 0 1).1 (legA (p 3) (c.mass .u) s')) * (sb (legA (p 1) 0 0, legS (p 1) 0 1).2 (legS (p 2) (c.mass .u) s))‖ = ‖sb (legA (p 1) 0 0, legS (p 1) 0 1).2 (legS (p 2) (c.mass .u) s) * ab (legA (p 0) 0 0, legS (p 0) 0 1).1 (legA (p 3) (c.mass .u) s') + ((1 : ℝ) : ℂ) * (sb (legA (p 1) 0 0, legS (p 1) 0 1).2 (legS (p 3) (c.mass .u) s') * ab (legA (p 0) 0 0, legS (p 0) 0 1).1 (legA (p 2) (c.mass .u) s))‖ := by
      intro s s'
      first
        | (congr 1; simp only [sb, ab]; push_cast; ring1)
        | (rw [← norm_neg]; congr 1; simp only [sb, ab]; push_cast; ring1)
    rw [← a3, Finset.mul_sum]
    refine Finset.sum_congr rfl fun s _ => ?_
    rw [Finset.mul_sum]
    refine Finset.sum_congr rfl fun s' _ => ?_
    have v5 : (gguu.N c p).v 5 [spinOf s] = ab (legA (p 0) 0 0, legS (p 0) 0 1).1 (legA (p 2) (c.mass .u) s) := bra_angle (p := p) (m := gguu.proc.massNum (gguu.rho c)) (gguu.mass_eq hc 0) (gguu.mass_eq hc 2) (.inr ⟨m0, rfl⟩) (.inl ⟨m2, rfl⟩)
    have v6 : (gguu.N c p).v 6 [spinOf s'] = sb (legA (p 1) 0 0, legS (p 1) 0 1).2 (legS (p 3) (c.mass .u) s') := bra_square (p := p) (m := gguu.proc.massNum (gguu.rho c)) (gguu.mass_eq hc 1) (gguu.mass_eq hc 3) (.inr ⟨m1, rfl⟩) (.inl ⟨m3, rfl⟩)
    have v8 : (gguu.N c p).v 8 [spinOf s] = sb (legA (p 1) 0 0, legS (p 1) 0 1).2 (legS (p 2) (c.mass .u) s) := bra_square (p := p) (m := gguu.proc.massNum (gguu.rho c)) (gguu.mass_eq hc 1) (gguu.mass_eq hc 2) (.inr ⟨m1, rfl⟩) (.inl ⟨m2, rfl⟩)
    have v11 : (gguu.N c p).v 11 [spinOf s'] = ab (legA (p 0) 0 0, legS (p 0) 0 1).1 (legA (p 3) (c.mass .u) s') := bra_angle (p := p) (m := gguu.proc.massNum (gguu.rho c)) (gguu.mass_eq hc 0) (gguu.mass_eq hc 3) (.inr ⟨m0, rfl⟩) (.inl ⟨m3, rfl⟩)
    have v13 : (gguu.N c p).v 13 [] = mb (legA (p 1) 0 0, legS (p 1) 0 1).2 (p 2) (legA (p 0) 0 0, legS (p 0) 0 1).1 := bra_mid_square (p := p) (m := gguu.proc.massNum (gguu.rho c)) (gguu.mass_eq hc 1) (gguu.mass_eq hc 0) (.inr ⟨m1, rfl⟩) (.inr ⟨m0, rfl⟩)
    simp only [gguu.termMP, v5, v6, v8, v11, v13]
    simp only [norm_mul, norm_div, Complex.norm_real, Real.norm_eq_abs, mul_pow, div_pow, sq_abs, a2]
    rw [a1]
    ring
  have SMM : ∑ s, ∑ s', ‖gguu.termMM (gguu.N c p) (spinOf s) (spinOf s')‖ ^ 2 = 
      (((((2 : Nat) : ℝ) * (gguu.N c p).r 0) * (gguu.N c p).r 0) * (gguu.N c p).r 1) ^ 2 * (2 * dot (p 0) (p 1)) ^ 2 / (1) * (2 * dot (p 2) (p 3)) := by
    have a1 := y0.ab_norm y1
    have a3 := g2.sb_norm g3
    rw [← a3, Finset.mul_sum]
    refine Finset.sum_congr rfl fun s _ => ?_
    rw [Finset.mul_sum]
    refine Finset.sum_congr rfl fun s' _ => ?_
    have v0 : (gguu.N c p).v 0 [spinOf s, spinOf s'] = sb (legS (p 2) (c.mass .u) s) (legS (p 3) (c.mass .u) s') := bra_square (p := p) (m := gguu.proc.massNum (gguu.rho c)) (gguu.mass_eq hc 2) (gguu.mass_eq hc 3) (.inl ⟨m2, rfl⟩) (.inl ⟨m3, rfl⟩)
    have v3 : (gguu.N c p).v 3 [] = ab (legA (p 0) 0 0, legS (p 0) 0 1).1 (legA (p 1) 0 0, legS (p 1) 0 1).1 := bra_angle (p := p) (m := gguu.proc.massNum (gguu.rho c)) (gguu.mass_eq hc 0) (gguu.mass_eq hc 1) (.inr ⟨m0, rfl⟩) (.inr ⟨m1, rfl⟩)
    simp only [gguu.termMM, v0, v3]
    simp only [norm_mul, norm_div, Complex.norm_real, Real.norm_eq_abs, mul_pow, div_pow, sq_abs] at a1 ⊢
    rw [a1]
    ring
  refine ⟨fun n hn => ?_, fun n hn => ?_, ?_⟩
  · rcases hd _ hn with h | h | h <;> cases h
    · rw [e2]; exact n2
    · rw [e3]; exact n3
    · rw [e4]; exact n4
  · rcases hd _ hn with h | h | h <;> cases h
  rw [gguu.value]
  simp only [sumW, sumJ]
  have u0 : spinOf 0 = -1 := rfl
  have u1 : spinOf 1 = 1 := rfl
  rw [Fin.sum_univ_two, Fin.sum_univ_two, Fin.sum_univ_two, u0, u1] at SPP SPM SMP SMM
  simp only [gguu.ampPP, gguu.ampPM, gguu.ampMP, gguu.ampMM]
  have T : ∀ {s0 s1 s2 s3 a0 a1 a2 a3 b0 b1 b2 b3 d0 d1 d2 d3 x y z v W : ℝ}, s0 + s1 + (s2 + s3) = x → a0 + a1 + (a2 + a3) = y → b0 + b1 + (b2 + b3) = z → d0 + d1 + (d2 + d3) = v →
      s0 * W + s1 * W + s2 * W + s3 * W + a0 * W + a1 * W + a2 * W + a3 * W + b0 * W + b1 * W + b2 * W + b3 * W + d0 * W + d1 * W + d2 * W + d3 * W = (x + y + z + v) * W := by
    intros; subst_vars; ring
  have T' := T SPP SPM SMP SMM (W := (((6 : Nat) : ℝ) / ((gguu.N c p).r 2 * (gguu.N c p).r 3) ^ 2 + ((6 : Nat) : ℝ) / ((gguu.N c p).r 2 * (gguu.N c p).r 4) ^ 2) - ((2 : Nat) : ℝ) / ((3 : Nat) : ℝ) / ((gguu.N c p).r 3 * (gguu.N c p).r 4) ^ 2)
  refine (congrArg (· / ((256 : Nat) : ℝ)) (Eq.trans ?_ T')).trans ?_
  · push_cast; ring
  clear T' SPP SPM SMP SMM
  simp only [gguu.textbook, r0, r1, e2, e3, e4, q2, q3]
  rw [fusion_kernel c.gs z1 z2 k3.symm z3]
  simp only [kleinNishina, breitWheeler, dot_comm (p 1) (p 0), dot_comm (p 2) (p 0), dot_comm (p 2) (p 1), dot_comm (p 3) (p 0), dot_comm (p 3) (p 1), dot_comm (p 3) (p 2), k1, k2, k3, k4] at z3 ⊢
  generalize dot (p 0) (p 2) = a at *
  generalize dot (p 0) (p 3) = b at *
  generalize c.mass .u = m at *
  push_cast
  field_simp
  ring

theorem gguu.returns : gguu.Returns gguu.proc.amp2 gguu.Apart gguu.textbook :=
  returns_of (by simp [all, gguu]) (by decide +kernel) (by decide +kernel) (fun _ hc i => gguu.mass_eq hc i) (by decide +kernel) fun _ _ hc hh h0 hs hb ha => gguu.closed hc hh h0 hs hb ha

/-- `ggdd`: the momenta are off the poles -/
def ggdd.Apart (p : Nat → V4 ℝ) : Prop := dot (p 0) (p 2) ≠ 0 ∧ dot (p 0) (p 3) ≠ 0 ∧ dot (p 0) (p 1) ≠ 0
/-- `ggdd`: the formula of textbooks -/
noncomputable def ggdd.textbook (c : Constants) (p : Nat → V4 ℝ) : ℝ := quarkPair c.gs (c.mass .d) (dot (p 0) (p 2)) (dot (p 0) (p 3))

theorem ggdd.closed {c : Constants} {p : Nat → V4 ℝ} (hc : c.Physical) (hh : c.Heavy) (h0 : ∀ i, 0 ≤ ggdd.react.mass c i) (hs : ∀ i : Fin 4, OnShell (p i) (ggdd.react.mass c i)) (hb : Balanced p) (ha : ggdd.Apart p) :
    (∀ n, (Ty.r, n) ∈ ggdd.proc.divides → (ggdd.N c p).r n ≠ 0) ∧ (∀ n, (Ty.c, n) ∈ ggdd.proc.divides → (ggdd.N c p).c n ≠ 0) ∧ meaning (ggdd.N c p) .r Cls.ggdd.methods Cls.ggdd.amp2 [] = ggdd.textbook c p := by
  have q0 : msq (p 0) = (0 : ℝ) ^ 2 := onShell_msq (hs 0)
  have q1 : msq (p 1) = (0 : ℝ) ^ 2 := onShell_msq (hs 1)
  have q2 : msq (p 2) = (c.mass .d) ^ 2 := onShell_msq (hs 2)
  have q3 : msq (p 3) = (c.mass .d) ^ 2 := onShell_msq (hs 3)
  have g2 : Grams (p 2) (c.mass .d) (legA (p 2) (c.mass .d)) (legS (p 2) (c.mass .d)) := legs_grams (hs 2) (h0 2)
  have m2 : ggdd.react.mass c 2 ≠ 0 := (leg_pos hc hh (by decide)).ne'
  have g3 : Grams (p 3) (c.mass .d) (legA (p 3) (c.mass .d)) (legS (p 3) (c.mass .d)) := legs_grams (hs 3) (h0 3)
  have m3 : ggdd.react.mass c 3 ≠ 0 := (leg_pos hc hh (by decide)).ne'
  have y0 : Ray (p 0) (legA (p 0) 0 0, legS (p 0) 0 1) := ray_code (hs 0)
  have m0 : ggdd.react.mass c 0 = 0 := rfl
  have y1 : Ray (p 1) (legA (p 1) 0 0, legS (p 1) 0 1) := ray_code (hs 1)
  have m1 : ggdd.react.mass c 1 = 0 := rfl
  obtain ⟨k1, k2, k3, k4⟩ := dots_in hb q0 q1 q2 q3
  obtain ⟨z1, z2, z3⟩ := ha
  have KM : (c.mass .d) ^ 2 + (0 : ℝ) ^ 2 = (c.mass .d) ^ 2 := by ring
  have KM' : (0 : ℝ) ^ 2 + (c.mass .d) ^ 2 = (c.mass .d) ^ 2 := by ring
  have KM0 : (0 : ℝ) ^ 2 + (0 : ℝ) ^ 2 = ((0 : Nat) : ℝ) ^ 2 := by norm_num
  have e2 : (ggdd.N c p).r 2 = (2 * dot (p 0) (p 1)) := by
    have : (ggdd.N c p).r 2 = (poleDist ((0 : Nat) : ℝ) ((0 : Nat) : ℝ) ((VExp.add 0 1).sum p)).re := rfl
    rw [this, pole_add q0 q1 KM0, Complex.ofReal_re]
  have n2 : ((2 * dot (p 0) (p 1)) : ℝ) ≠ 0 := by
    try simp only [dot_comm (p 1) (p 0), dot_comm (p 2) (p 0), dot_comm (p 2) (p 1), dot_comm (p 3) (p 0), dot_comm (p 3) (p 1), dot_comm (p 3) (p 2), k1, k2, k3, k4] at z3 ⊢
    first | exact mul_ne_zero two_ne_zero z1 | exact mul_ne_zero two_ne_zero z2 | exact mul_ne_zero two_ne_zero z3 | exact neg_ne_zero.2 (mul_ne_zero two_ne_zero z1) | exact neg_ne_zero.2 (mul_ne_zero two_ne_zero z2) | exact neg_ne_zero.2 (mul_ne_zero two_ne_zero z3)
  have e3 : (ggdd.N c p).r 3 = -(2 * dot (p 0) (p 2)) := by
    have : (ggdd.N c p).r 3 = (poleDist (c.mass .d) ((0 : Nat) : ℝ) ((VExp.sub 0 2).sum p)).re := rfl
    rw [this, pole_sub q0 q2 KM', Complex.ofReal_re]
  have n3 : (-(2 * dot (p 0) (p 2)) : ℝ) ≠ 0 := by
    try simp only [dot_comm (p 1) (p 0), dot_comm (p 2) (p 0), dot_comm (p 2) (p 1), dot_comm (p 3) (p 0), dot_comm (p 3) (p 1), dot_comm (p 3) (p 2), k1, k2, k3, k4] at z3 ⊢
    first | exact mul_ne_zero two_ne_zero z1 | exact mul_ne_zero two_ne_zero z2 | exact mul_ne_zero two_ne_zero z3 | exact neg_ne_zero.2 (mul_ne_zero two_ne_zero z1) | exact neg_ne_zero.2 (mul_ne_zero two_ne_zero z2) | exact neg_ne_zero.2 (mul_ne_zero two_ne_zero z3)
  have e4 : (ggdd.N c p).r 4 = -(2 * dot (p 0) (p 3)) := by
    have : (ggdd.N c p).r 4 = (poleDist (c.mass .d) ((0 : Nat) : ℝ) ((VExp.sub 0 3).sum p)).re := rfl
    rw [this, pole_sub q0 q3 KM', Complex.ofReal_re]
  have n4 : (-(2 * dot (p 0) (p 3)) : ℝ) ≠ 0 := by
    try simp only [dot_comm (p 1) (p 0), dot_comm (p 2) (p 0), dot_comm (p 2) (p 1), dot_comm (p 3) (p 0), dot_comm (p 3) (p 1), dot_comm (p 3) (p 2), k1, k2, k3, k4] at z3 ⊢
    first | exact mul_ne_zero two_ne_zero z1 | exact mul_ne_zero two_ne_zero z2 | exact mul_ne_zero two_ne_zero z3 | exact neg_ne_zero.2 (mul_ne_zero two_ne_zero z1) | exact neg_ne_zero.2 (mul_ne_zero two_ne_zero z2) | exact neg_ne_zero.2 (mul_ne_zero two_ne_zero z3)
  have r0 : (ggdd.N c p).r 0 = c.gs := rfl
  have r1 : (ggdd.N c p).r 1 = c.mass .d := rfl
  have hd : ∀ v ∈ ggdd.proc.divides, v = (Ty.r, 2) ∨ v = (Ty.r, 3) ∨ v = (Ty.r, 4) := by decide +kernel
  have SPP : ∑ s, ∑ s', ‖ggdd.termPP (ggdd.N c p) (spinOf s) (spinOf s')‖ ^ 2 = 
      (((((2 : Nat) : ℝ) * (ggdd.N c p).r 0) * (ggdd.N c p).r 0) * (ggdd.N c p).r 1) ^ 2 * (2 * dot (p 0) (p 1)) ^ 2 / (1) * (2 * dot (p 2) (p 3)) := by
    have a1 := y0.sb_norm y1
    have a3 := g2.ab_norm g3
    rw [← a3, Finset.mul_sum]
    refine Finset.sum_congr rfl fun s _ => ?_
    rw [Finset.mul_sum]
    refine Finset.sum_congr rfl fun s' _ => ?_
    have v1 : (ggdd.N c p).v 1 [spinOf s, spinOf s'] = ab (legA (p 2) (c.mass .d) s) (legA (p 3) (c.mass .d) s') := bra_angle (p := p) (m := ggdd.proc.massNum (ggdd.rho c)) (ggdd.mass_eq hc 2) (ggdd.mass_eq hc 3) (.inl ⟨m2, rfl⟩) (.inl ⟨m3, rfl⟩)
    have v2 : (ggdd.N c p).v 2 [] = sb (legA (p 0) 0 0, legS (p 0) 0 1).2 (legA (p 1) 0 0, legS (p 1) 0 1).2 := bra_square (p := p) (m := ggdd.proc.massNum (ggdd.rho c)) (ggdd.mass_eq hc 0) (ggdd.mass_eq hc 1) (.inr ⟨m0, rfl⟩) (.inr ⟨m1, rfl⟩)
    simp only [ggdd.termPP, v1, v2]
    simp only [norm_mul, norm_div, Complex.norm_real, Real.norm_eq_abs, mul_pow, div_pow, sq_abs] at a1 ⊢
    rw [a1]
    ring
  have SPM : ∑ s, ∑ s', ‖ggdd.termPM (ggdd.N c p) (spinOf s) (spinOf s')‖ ^ 2 = 
      (((-((2 : Nat) : ℝ)) * (ggdd.N c p).r 0) * (ggdd.N c p).r 0) ^ 2 * (2 * dot (p 0) (p 2) * (2 * dot (p 1) (p 2)) - msq (p 2) * (2 * dot (p 0) (p 1))) / (1) * (2 * dot (p 0) (p 2) * (2 * dot (p 1) (p 3)) + (1 : ℝ) ^ 2 * (2 * dot (p 0) (p 3) * (2 * dot (p 1) (p 2))) + 2 * (1 : ℝ) * ((c.mass .d) * (c.mass .d)) * (2 * dot (p 0) (p 1))) := by
    have a1 := y0.mb_norm y1 (p 2)
    have a3 := y0.unlike y1 g2 g3 (1)
    have a2 : ∀ s s', ‖(sb (legA (p 0) 0 0, legS (p 0) 0 1).2 (legS (p 2) (c.mass .d) s)) * (ab (legA (p 1) 0 0, legS (p 1) 0 1).1 (legA (p 3) (c.mass .d) s')) + (sb (legA (p 0) 0 0, legS (p 0) 0 1).2 (legS (p 3) (c.mass .d) s')) * (ab (legA (p 1) 0 0, legS (p 1) 0 1).1 (legA (p 2) (c.mass .d) s))‖ = ‖sb (legA (p 0) 0 0, legS (p 0) 0 1).2 (legS (p 2) (c.mass .d) s) * ab (legA (p 1) 0 0, legS (p 1) 0 1).1 (legA (p 3) (c.mass .d) s') + ((1 : ℝ) : ℂ) * (sb (legA (p 0) 0 0, legS (p 0) 0 1).2 (legS (p 3) (c.mass .d) s') * ab (legA (p 1) 0 0, legS (p 1) 0 1).1 (legA (p 2) (c.mass .d) s))‖ := by
      intro s s'
      first
        | (congr 1; simp only [sb, ab]; push_cast; ring1)
        | (rw [← norm_neg]; congr 1; simp only [sb, ab]; push_cast; ring1)
    rw [← a3, Finset.mul_sum]
    refine Finset.sum_congr rfl fun s _ => ?_
    rw [Finset.mul_sum]
    refine Finset.sum_congr rfl fun s' _ => ?_
    have v4 : (ggdd.N c p).v 4 [spinOf s] = sb (legA (p 0) 0 0, legS (p 0) 0 1).2 (legS (p 2) (c.mass .d) s) := bra_square (p := p) (m := ggdd.proc.massNum (ggdd.rho c)) (ggdd.mass_eq hc 0) (ggdd.mass_eq hc 2) (.inr ⟨m0, rfl⟩) (.inl ⟨m2, rfl⟩)
    have v7 : (ggdd.N c p).v 7 [spinOf s'] = ab (legA (p 1) 0 0, legS (p 1) 0 1).1 (legA (p 3) (c.mass .d) s') := bra_angle (p := p) (m := ggdd.proc.massNum (ggdd.rho c)) (ggdd.mass_eq hc 1) (ggdd.mass_eq hc 3) (.inr ⟨m1, rfl⟩) (.inl ⟨m3, rfl⟩)
    have v9 : (ggdd.N c p).v 9 [spinOf s] = ab (legA (p 1) 0 0, legS (p 1) 0 1).1 (legA (p 2) (c.mass .d) s) := bra_angle (p := p) (m := ggdd.proc.massNum (ggdd.rho c)) (ggdd.mass_eq hc 1) (ggdd.mass_eq hc 2) (.inr ⟨m1, rfl⟩) (.inl ⟨m2, rfl⟩)
    have v10 : (ggdd.N c p).v 10 [spinOf s'] = sb (legA (p 0) 0 0, legS (p 0) 0 1).2 (legS (p 3) (c.mass .d) s') := bra_square (p := p) (m := ggdd.proc.massNum (ggdd.rho c)) (ggdd.mass_eq hc 0) (ggdd.mass_eq hc 3) (.inr ⟨m0, rfl⟩) (.inl ⟨m3, rfl⟩)
    have v12 : (ggdd.N c p).v 12 [] = mb (legA (p 0) 0 0, legS (p 0) 0 1).2 (p 2) (legA (p 1) 0 0, legS (p 1) 0 1).1 := bra_mid_square (p := p) (m := ggdd.proc.massNum (ggdd.rho c)) (ggdd.mass_eq hc 0) (ggdd.mass_eq hc 1) (.inr ⟨m0, rfl⟩) (.inr ⟨m1, rfl⟩)
    simp only [ggdd.termPM, v4, v7, v9, v10, v12]
    simp only [norm_mul, norm_div, Complex.norm_real, Real.norm_eq_abs, mul_pow, div_pow, sq_abs, a2]
    rw [a1]
    ring
  have SMP : ∑ s, ∑ s', ‖ggdd.termMP (ggdd.N c p) (spinOf s) (spinOf s')‖ ^ 2 = 
      (((-((2 : Nat) : ℝ)) * (ggdd.N c p).r 0) * (ggdd.N c p).r 0) ^ 2 * (2 * dot (p 1) (p 2) * (2 * dot (p 0) (p 2)) - msq (p 2) * (2 * dot (p 1) (p 0))) / (1) * (2 * dot (p 1) (p 2) * (2 * dot (p 0) (p 3)) + (1 : ℝ) ^ 2 * (2 * dot (p 1) (p 3) * (2 * dot (p 0) (p 2))) + 2 * (1 : ℝ) * ((c.mass .d) * (c.mass .d)) * (2 * dot (p 1) (p 0))) := by
    have a1 := y1.mb_norm y0 (p 2)
    have a3 := y1.unlike y0 g2 g3 (1)
    have a2 : ∀ s s', ‖(ab (legA (p 0) 0 0, legS (p 0) 0 1).1 (legA (p 2) (c.mass .d) s)) * (sb (legA (p 1) 0 0, legS (p 1) 0 1).2 (legS (p 3) (c.mass .d) s')) + (ab (legA (p 0) 0 0, legS (p 0) 0 1).1 (legA (p 3) (c.mass .d) s')) * (sb (legA (p 1) 0 0, legS (p 1) 0 1).2 (legS (p 2) (c.mass .d) s))‖ = ‖sb (legA (p 1) 0 0, legS (p 1) 0 1).2 (legS (p 2) (c.mass .d) s) * ab (legA (p 0) 0 0, legS (p 0) 0 1).1 (legA (p 3) (c.mass .d) s') + ((1 : ℝ) : ℂ) * (sb (legA (p 1) 0 0, legS (p 1) 0 1).2 (legS (p 3) (c.mass .d) s') * ab (legA (p 0) 0 0, legS (p 0) 0 1).1 (legA (p 2) (c.mass .d) s))‖ := by
      intro s s'
      first
        | (congr 1; simp only [sb, ab]; push_cast; ring1)
        | (rw [← norm_neg]; congr 1; simp only [sb, ab]; push_cast; ring1)
    rw [← a3, Finset.mul_sum]
    refine Finset.sum_congr rfl fun s _ => ?_
    rw [Finset.mul_sum]
    refine Finset.sum_congr rfl fun s' _ => ?_
    have v5 : (ggdd.N c p).v 5 [spinOf s] = ab (legA (p 0) 0 0, legS (p 0) 0 1).1 (legA (p 2) (c.mass .d) s) := bra_angle (p := p) (m := ggdd.proc.massNum (ggdd.rho c)) (ggdd.mass_eq hc 0) (ggdd.mass_eq hc 2) (.inr ⟨m0, rfl⟩) (.inl ⟨m2, rfl⟩)
    have v6 : (ggdd.N c p).v 6 [spinOf s'] = sb (legA (p 1) 0 0, legS (p 1) 0 1).2 (legS (p 3) (c.mass .d) s') := bra_square (p := p) (m := ggdd.proc.massNum (ggdd.rho c)) (ggdd.mass_eq hc 1) (ggdd.mass_eq hc 3) (.inr ⟨m1, rfl⟩) (.inl ⟨m3, rfl⟩)
    have v8 : (ggdd.N c p).v 8 [spinOf s] = sb (legA (p 1) 0 0, legS (p 1) 0 1).2 (legS (p 2) (c.mass .d) s) := bra_square (p := p) (m := ggdd.proc.massNum (ggdd.rho c)) (ggdd.mass_eq hc 1) (ggdd.mass_eq hc 2) (.inr ⟨m1, rfl⟩) (.inl ⟨m2, rfl⟩)
    have v11 : (ggdd.N c p).v 11 [spinOf s'] = ab (legA (p 0) 0 0, legS (p 0) 0 1).1 (legA (p 3) (c.mass .d) s') := bra_angle (p := p) (m := ggdd.proc.massNum (ggdd.rho c)) (ggdd.mass_eq hc 0) (ggdd.mass_eq hc 3) (.inr ⟨m0, rfl⟩) (.inl ⟨m3, rfl⟩)
    have v13 : (ggdd.N c p).v 13 [] = mb (legA (p 1) 0 0, legS (p 1) 0 1).2 (p 2) (legA (p 0) 0 0, legS (p 0) 0 1).1 := bra_mid_square (p := p) (m := ggdd.proc.massNum (ggdd.rho c)) (ggdd.mass_eq hc 1) (ggdd.mass_eq hc 0) (.inr ⟨m1, rfl⟩) (.inr ⟨m0, rfl⟩)
    simp only [ggdd.termMP, v5, v6, v8, v11, v13]
    simp only [norm_mul, norm_div, Complex.norm_real, Real.norm_eq_abs, mul_pow, div_pow, sq_abs, a2]
    rw [a1]
    ring
  have SMM : ∑ s, ∑ s', ‖ggdd.termMM (ggdd.N c p) (spinOf s) (spinOf s')‖ ^ 2 = 
      (((((2 : Nat) : ℝ) * (ggdd.N c p).r 0) * (ggdd.N c p).r 0) * (ggdd.N c p).r 1) ^ 2 * (2 * dot (p 0) (p 1)) ^ 2 / (1) * (2 * dot (p 2) (p 3)) := by
    have a1 := y0.ab_norm y1
    have a3 := g2.sb_norm g3
    rw [← a3, Finset.mul_sum]
    refine Finset.sum_congr rfl fun s _ => ?_
    rw [Finset.mul_sum]
    refine Finset.sum_congr rfl fun s' _ => ?_
    have v0 : (ggdd.N c p).v 0 [spinOf s, spinOf s'] = sb (legS (p 2) (c.mass .d) s) (legS (p 3) (c.mass .d) s') := bra_square (p := p) (m := ggdd.proc.massNum (ggdd.rho c)) (ggdd.mass_eq hc 2) (ggdd.mass_eq hc 3) (.inl ⟨m2, rfl⟩) (.inl ⟨m3, rfl⟩)
    have v3 : (ggdd.N c p).v 3 [] = ab (legA (p 0) 0 0, legS (p 0) 0 1).1 (legA (p 1) 0 0, legS (p 1) 0 1).1 := bra_angle (p := p) (m := ggdd.proc.massNum (ggdd.rho c)) (ggdd.mass_eq hc 0) (ggdd.mass_eq hc 1) (.inr ⟨m0, rfl⟩) (.inr ⟨m1, rfl⟩)
    simp only [ggdd.termMM, v0, v3]
    simp only [norm_mul, norm_div, Complex.norm_real, Real.norm_eq_abs, mul_pow, div_pow, sq_abs] at a1 ⊢
    rw [a1]
    ring
  refine ⟨fun n hn => ?_, fun n hn => ?_, ?_⟩
  · rcases hd _ hn with h | h | h <;> cases h
    · rw [e2]; exact n2
    · rw [e3]; exact n3
    · rw [e4]; exact n4
  · rcases hd _ hn with h | h | h <;> cases h
  rw [ggdd.value]
  simp only [sumW, sumJ]
  have u0 : spinOf 0 = -1 := rfl
  have u1 : spinOf 1 = 1 := rfl
  rw [Fin.sum_univ_two, Fin.sum_univ_two, Fin.sum_univ_two, u0, u1] at SPP SPM SMP SMM
  simp only [ggdd.ampPP, ggdd.ampPM, ggdd.ampMP, ggdd.ampMM]
  have T : ∀ {s0 s1 s2 s3 a0 a1 a2 a3 b0 b1 b2 b3 d0 d1 d2 d3 x y z v W : ℝ}, s0 + s1 + (s2 + s3) = x → a0 + a1 + (a2 + a3) = y → b0 + b1 + (b2 + b3) = z → d0 + d1 + (d2 + d3) = v →
      s0 * W + s1 * W + s2 * W + s3 * W + a0 * W + a1 * W + a2 * W + a3 * W + b0 * W + b1 * W + b2 * W + b3 * W + d0 * W + d1 * W + d2 * W + d3 * W = (x + y + z + v) * W := by
    intros; subst_vars; ring
  have T' := T SPP SPM SMP SMM (W := (((6 : Nat) : ℝ) / ((ggdd.N c p).r 2 * (ggdd.N c p).r 3) ^ 2 + ((6 : Nat) : ℝ) / ((ggdd.N c p).r 2 * (ggdd.N c p).r 4) ^ 2) - ((2 : Nat) : ℝ) / ((3 : Nat) : ℝ) / ((ggdd.N c p).r 3 * (ggdd.N c p).r 4) ^ 2)
  refine (congrArg (· / ((256 : Nat) : ℝ)) (Eq.trans ?_ T')).trans ?_
  · push_cast; ring
  clear T' SPP SPM SMP SMM
  simp only [ggdd.textbook, r0, r1, e2, e3, e4, q2, q3]
  rw [fusion_kernel c.gs z1 z2 k3.symm z3]
  simp only [kleinNishina, breitWheeler, dot_comm (p 1) (p 0), dot_comm (p 2) (p 0), dot_comm (p 2) (p 1), dot_comm (p 3) (p 0), dot_comm (p 3) (p 1), dot_comm (p 3) (p 2), k1, k2, k3, k4] at z3 ⊢
  generalize dot (p 0) (p 2) = a at *
  generalize dot (p 0) (p 3) = b at *
  generalize c.mass .d = m at *
  push_cast
  field_simp
  ring

theorem ggdd.returns : ggdd.Returns ggdd.proc.amp2 ggdd.Apart ggdd.textbook :=
  returns_of (by simp [all, ggdd]) (by decide +kernel) (by decide +kernel) (fun _ hc i => ggdd.mass_eq hc i) (by decide +kernel) fun _ _ hc hh h0 hs hb ha => ggdd.closed hc hh h0 hs hb ha

end Rows
end SM
end Spinas
