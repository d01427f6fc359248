import Verif.Props.Kinematics
import Verif.Exact.Chains

/-! Rotations and boosts as complex 2x2 matrices of determinant one. -/

namespace Spinas
open Spec Props Matrix

/-- `cos(alpha/2) - i sin(alpha/2) u.sigma` -/
theorem rodrigues_act (u : V3 ℝ) (hu : dot3 u u = 1) {c s : ℝ} (h : c ^ 2 + s ^ 2 = 1) :
    ∃ A : M2, A.det = 1 ∧ ∀ p, slashLower (rodrigues u c s p) = A * slashLower p * Aᴴ := by
  obtain ⟨α, β, h1, hc, hs⟩ : ∃ α β : ℝ, α ^ 2 + β ^ 2 = 1 ∧ c = α ^ 2 - β ^ 2 ∧ s = 2 * α * β := by
    obtain ⟨θ, hc, hs⟩ : ∃ θ, c = Real.cos θ ∧ s = Real.sin θ := by
      have hn : ‖(⟨c, s⟩ : ℂ)‖ = 1 := by
        rw [Complex.norm_def, Complex.normSq_mk]
        rw [show c * c + s * s = 1 by linarith, Real.sqrt_one]
      refine ⟨Complex.arg ⟨c, s⟩, ?_, ?_⟩
      · rw [Complex.cos_arg (by intro h0; rw [h0] at hn; simp at hn), hn]; simp
      · rw [Complex.sin_arg, hn]; simp
    refine ⟨Real.cos (θ / 2), Real.sin (θ / 2), by rw [add_comm]; exact Real.sin_sq_add_cos_sq _, ?_, ?_⟩
    · rw [hc, show θ = 2 * (θ / 2) by ring, Real.cos_two_mul', ← show θ = 2 * (θ / 2) by ring]
    · rw [hs, show θ = 2 * (θ / 2) by ring, Real.sin_two_mul, ← show θ = 2 * (θ / 2) by ring]; ring
  let A : M2 := !![α - β * u.z * Complex.I, -(β * (u.x - u.y * Complex.I) * Complex.I); -(β * (u.x + u.y * Complex.I) * Complex.I), α + β * u.z * Complex.I]
  have i2 := Complex.I_sq
  have i3 : Complex.I ^ 3 = -Complex.I := by rw [pow_succ, i2]; ring
  have i4 : Complex.I ^ 4 = 1 := by rw [show (4 : ℕ) = 2 * 2 from rfl, pow_mul, i2]; ring
  have i5 : Complex.I ^ 5 = Complex.I := by rw [pow_succ, i4]; ring
  have hu' : (u.x : ℂ) * u.x + u.y * u.y + u.z * u.z = 1 := by unfold dot3 at hu; exact_mod_cast congrArg Complex.ofReal hu
  have h1' : (α : ℂ) ^ 2 + β ^ 2 = 1 := by exact_mod_cast congrArg Complex.ofReal h1
  refine ⟨A, ?_, fun p => ?_⟩
  · rw [det_fin_two_of]
    linear_combination (-(β : ℂ) ^ 2 * (u.x * u.x + u.z * u.z - u.y * u.y * Complex.I ^ 2 + u.y * u.y)) * i2 + h1' + (β : ℂ) ^ 2 * hu'
  · have e : rodrigues u c s p = ⟨(α ^ 2 + β ^ 2 * dot3 u u) * p.t,
        (α ^ 2 - β ^ 2 * dot3 u u) * p.x + 2 * α * β * (cross u (space p)).x + 2 * β ^ 2 * dot3 u (space p) * u.x,
        (α ^ 2 - β ^ 2 * dot3 u u) * p.y + 2 * α * β * (cross u (space p)).y + 2 * β ^ 2 * dot3 u (space p) * u.y,
        (α ^ 2 - β ^ 2 * dot3 u u) * p.z + 2 * α * β * (cross u (space p)).z + 2 * β ^ 2 * dot3 u (space p) * u.z⟩ := by
      have e1 : 1 - c = 2 * β ^ 2 := by rw [hc]; linarith
      unfold rodrigues
      rw [e1, hs, hc, hu]
      simp only [mul_one, V4.mk.injEq, and_self, and_true]
      rw [h1, one_mul]
    rw [e]
    ext i j
    fin_cases i <;> fin_cases j <;>
      simp [A, slashLower, dot3, cross, space, Matrix.mul_apply, Fin.sum_univ_two, vecMul, dotProduct] <;> ring_nf <;> simp only [i2, i3, i4, i5] <;> ring

theorem rboost_act {v : V3 ℝ} {g k : ℝ} (h : BoostRel v g k) (hg : 0 < g) :
    ∃ A : M2, A.det = 1 ∧ ∀ p, slashLower (rboost v g k p) = A * slashLower p * Aᴴ := by
  obtain ⟨e1, e2, e3⟩ := h
  obtain ⟨α, hα, hα2⟩ : ∃ α : ℝ, α ≠ 0 ∧ α ^ 2 = (g + 1) / 2 :=
    ⟨Real.sqrt ((g + 1) / 2), (Real.sqrt_pos.mpr (by linarith)).ne', Real.sq_sqrt (by linarith)⟩
  obtain ⟨β, hβ⟩ : ∃ β : ℝ, 2 * α * β = -g := ⟨-g / (2 * α), by field_simp⟩
  have hβ2 : 2 * β ^ 2 = k := by
    have : (g + 1) * (2 * β ^ 2 - k) = 0 := by
      have : (2 * α * β) ^ 2 = g ^ 2 := by rw [hβ]; ring
      linear_combination this + e3 - 4 * β ^ 2 * hα2
    have := (mul_eq_zero.mp this).resolve_left (by linarith)
    linarith
  have hd : α ^ 2 - β ^ 2 * dot3 v v = 1 := by linear_combination hα2 - (1 / 2) * e2 - (dot3 v v / 2) * hβ2
  have hs : α ^ 2 + β ^ 2 * dot3 v v = g := by linear_combination hα2 + (1 / 2) * e2 + (dot3 v v / 2) * hβ2
  let A : M2 := !![α + β * v.z, β * (v.x - v.y * Complex.I); β * (v.x + v.y * Complex.I), α - β * v.z]
  have i2 := Complex.I_sq
  have i3 : Complex.I ^ 3 = -Complex.I := by rw [pow_succ, i2]; ring
  refine ⟨A, ?_, fun p => ?_⟩
  · have hd' : (α : ℂ) ^ 2 - β ^ 2 * (v.x * v.x + v.y * v.y + v.z * v.z) = 1 := by
      unfold dot3 at hd; exact_mod_cast congrArg Complex.ofReal hd
    rw [det_fin_two_of]
    linear_combination hd' + ((β : ℂ) ^ 2 * v.y * v.y) * i2
  · have e : rboost v g k p = ⟨(α ^ 2 + β ^ 2 * dot3 v v) * p.t + 2 * α * β * dot3 v (space p),
        (α ^ 2 - β ^ 2 * dot3 v v) * p.x + v.x * (2 * β ^ 2 * dot3 v (space p) + 2 * α * β * p.t),
        (α ^ 2 - β ^ 2 * dot3 v v) * p.y + v.y * (2 * β ^ 2 * dot3 v (space p) + 2 * α * β * p.t),
        (α ^ 2 - β ^ 2 * dot3 v v) * p.z + v.z * (2 * β ^ 2 * dot3 v (space p) + 2 * α * β * p.t)⟩ := by
      unfold rboost
      rw [hs, hd, hβ, hβ2]
      simp only [V4.mk.injEq]
      refine ⟨?_, ?_, ?_, ?_⟩ <;> ring
    rw [e]
    ext i j
    fin_cases i <;> fin_cases j <;>
      simp [A, slashLower, dot3, space, Matrix.mul_apply, Fin.sum_univ_two, vecMul, dotProduct] <;> ring_nf <;> simp only [i2, i3] <;> ring

end Spinas
