import Verif.SM.Reactions

/-! Massless vector bosons: their spinors in the code and the polarisation vectors made of them. -/

namespace Spinas
open Spec Props Matrix

/-- angle and square spinor of a massless particle with momentum `p` -/
structure Light (p : V4 ℝ) (z : Pair) : Prop where
  conj : z.2 = ![star (z.1 1), -star (z.1 0)]
  split : four p = pv z.1 z.2

/-- Polarisation vectors made of the spinors: of negative helicity (the spin -2 of the code, which counts in halves) and of positive helicity (2). -/
noncomputable def lightE (z : Pair) : Fin 3 → Vec := ![((√2 : ℝ) / sb z.1 z.2 : ℂ) • pv z.1 z.1, ((√2 : ℝ) / ab z.2 z.1 : ℂ) • pv z.2 z.2, 0]

namespace Light
variable {p : V4 ℝ} {z : Pair} (h : Light p z)
include h

theorem mb_eq (X Y : V2) : mb X p Y = ab z.1 Y * sb X z.2 := by
  have := contract_four_pv p Y X
  rw [h.split, contract_pv, sb_swap X z.2] at this
  linear_combination -2 * this

theorem bold : Bold p 0 (z.1, 0) ∧ Bold p 0 (0, z.2) := by
  have e : slashUpper p *ᵥ z.1 = 0 := by rw [← upV_four, h.split, upV_pv, ab_self, zero_smul]
  have e' : slashLower p *ᵥ z.2 = 0 := by rw [← lowV_four, h.split, lowV_pv, sb_self, zero_smul]
  exact ⟨⟨by simp [e], by simp⟩, ⟨by simp, by simp [e']⟩⟩

theorem components : (p.t : ℂ) = (z.1 0 * star (z.1 0) + z.1 1 * star (z.1 1)) / 2 ∧ (p.x : ℂ) = (z.1 0 * star (z.1 1) + z.1 1 * star (z.1 0)) / 2 ∧
    (p.y : ℂ) = Complex.I * (z.1 0 * star (z.1 1) - z.1 1 * star (z.1 0)) / 2 ∧ (p.z : ℂ) = (z.1 0 * star (z.1 0) - z.1 1 * star (z.1 1)) / 2 := by
  have e := fun μ => congrFun h.split μ
  simp only [h.conj, four, pv] at e
  have e0 := e 0
  have e1 := e 1
  have e2 := e 2
  have e3 := e 3
  simp at e0 e1 e2 e3
  refine ⟨?_, ?_, ?_, ?_⟩ <;> simp only [Complex.star_def]
  · rw [e0]; ring
  · rw [e1]
  · rw [e2]; ring
  · rw [e3]

theorem polarised (c : Constants) (hp : msq p = 0) {n : V4 ℝ} (hn : dot n p ≠ 0) {b : Boson} (hb : b.massive = false) : Reaction.Polarised c p b (lightE z) := by
  obtain ⟨ht, hx, hy, hz⟩ := h.components
  have h0 : p.t ≠ 0 := by
    intro h0
    have : p.x ^ 2 + p.y ^ 2 + p.z ^ 2 = 0 := by unfold msq at hp; rw [h0] at hp; linarith
    have x0 : p.x = 0 := by nlinarith [sq_nonneg p.x, sq_nonneg p.y, sq_nonneg p.z]
    have y0 : p.y = 0 := by nlinarith [sq_nonneg p.x, sq_nonneg p.y, sq_nonneg p.z]
    have z0 : p.z = 0 := by nlinarith [sq_nonneg p.x, sq_nonneg p.y, sq_nonneg p.z]
    exact hn (by simp [dot, h0, x0, y0, z0])
  have hd : dot ⟨p.t, -p.x, -p.y, -p.z⟩ p = 2 * p.t ^ 2 := by unfold msq at hp; simp only [dot]; linarith
  have key : ∀ μ ν, ∑ t ∈ ({0, 1} : Finset (Fin 3)), lightE z t μ * star (lightE z t ν) =
      -(if μ = ν then metric μ else 0) + (four p μ * four ⟨p.t, -p.x, -p.y, -p.z⟩ ν + four ⟨p.t, -p.x, -p.y, -p.z⟩ μ * four p ν) / (dot ⟨p.t, -p.x, -p.y, -p.z⟩ p : ℂ) := by
    have d1 : sb z.1 z.2 = -(2 * p.t) := by rw [ht, h.conj]; simp [sb]; ring
    have d2 : ab z.2 z.1 = -(2 * p.t) := by rw [ht, h.conj]; simp [ab]; ring
    have ht0 : (p.t : ℂ) ≠ 0 := by exact_mod_cast h0
    have s2 : ((√2 : ℝ) : ℂ) * (√2 : ℝ) = 2 := by rw [← Complex.ofReal_mul, Real.mul_self_sqrt (by norm_num)]; norm_num
    intro μ ν
    have e : ∀ t ∈ ({0, 1} : Finset (Fin 3)), lightE z t μ * star (lightE z t ν) = (2 * (p.t : ℂ) ^ 2)⁻¹ * ((![pv z.1 z.1, pv z.2 z.2, 0] : Fin 3 → Vec) t μ * star ((![pv z.1 z.1, pv z.2 z.2, 0] : Fin 3 → Vec) t ν)) := by
      have k : ((√2 : ℝ) / (-(2 * p.t)) : ℂ) * star ((√2 : ℝ) / (-(2 * p.t)) : ℂ) = (2 * (p.t : ℂ) ^ 2)⁻¹ := by
        simp only [Complex.star_def, map_div₀, map_neg, map_mul, Complex.conj_ofReal, map_ofNat]
        field_simp
        linear_combination s2
      intro t ht
      rw [← k]
      rcases Finset.mem_insert.1 ht with rfl | ht
      · simp only [lightE, d1, Matrix.cons_val_zero, Pi.smul_apply, smul_eq_mul, star_mul']; ring
      · rw [Finset.mem_singleton] at ht
        subst ht
        simp only [lightE, d2, Matrix.cons_val_one, Pi.smul_apply, smul_eq_mul, star_mul', Matrix.cons_val_zero]; ring
    rw [Finset.sum_congr rfl e, ← Finset.mul_sum, Finset.sum_pair (by decide), hd]
    have i2 := Complex.I_sq
    have hq : (p.t : ℂ) ^ 2 = ((z.1 0 * star (z.1 0) + z.1 1 * star (z.1 1)) / 2) ^ 2 := by rw [ht]
    push_cast
    rw [inv_mul_eq_div, div_eq_iff (by simpa using h0), add_mul, div_mul_cancel₀ _ (by simpa using h0)]
    rw [hq]
    rw [h.conj]
    fin_cases μ <;> fin_cases ν <;> simp [pv, four, metric, ht, hx, hy, hz] <;> ring_nf <;> simp only [Complex.I_sq] <;> ring
  cases b
  · cases hb
  · exact ⟨_, by simpa [msq] using hp, by rw [hd]; simpa using h0, key⟩
  · cases hb
  · cases hb
  · cases hb
  · exact ⟨_, by simpa [msq] using hp, by rw [hd]; simpa using h0, key⟩

theorem angle_ne (h0 : p.t ≠ 0) : ab z.2 z.1 ≠ 0 ∧ sb z.1 z.2 ≠ 0 := by
  obtain ⟨ht, -, -, -⟩ := h.components
  have d1 : sb z.1 z.2 = -(2 * p.t) := by rw [ht, h.conj]; simp [sb]; ring
  have d2 : ab z.2 z.1 = -(2 * p.t) := by rw [ht, h.conj]; simp [ab]; ring
  rw [d1, d2]
  simp [h0]

end Light

theorem light_energy {p n : V4 ℝ} (hp : msq p = 0) (hn : dot n p ≠ 0) : p.t ≠ 0 := by
  intro h0
  have : p.x ^ 2 + p.y ^ 2 + p.z ^ 2 = 0 := by unfold msq at hp; rw [h0] at hp; linarith
  have x0 : p.x = 0 := by nlinarith [sq_nonneg p.x, sq_nonneg p.y, sq_nonneg p.z]
  have y0 : p.y = 0 := by nlinarith [sq_nonneg p.x, sq_nonneg p.y, sq_nonneg p.z]
  have z0 : p.z = 0 := by nlinarith [sq_nonneg p.x, sq_nonneg p.y, sq_nonneg p.z]
  exact hn (by simp [dot, h0, x0, y0, z0])

/-- the spinors of the code -/
theorem light_code [FPEnv] {p : V4 ℝ} (hp : OnShell p 0) : Light p (legA p 0 0, legS p 0 1) := by
  have g := (legs_grams hp le_rfl).aa
  have e1 : legA p 0 1 = 0 := legA_zero rfl rfl
  rw [Fin.sum_univ_two, e1] at g
  have g' := fun i j => congrFun (congrFun g i) j
  simp only [Fin.forall_fin_two, Matrix.add_apply, vecMulVec_apply, Pi.star_apply, slashLower, Matrix.of_apply, Matrix.cons_val', Matrix.cons_val_zero, Matrix.cons_val_one, Matrix.cons_val_fin_one, Pi.zero_apply, zero_mul, add_zero] at g'
  obtain ⟨⟨g1, g2⟩, g3, g4⟩ := g'
  have hc : legS p 0 1 = ![star (legA p 0 0 1), -star (legA p 0 0 0)] := by
    simp [legA, legS, zend, hv, V4.sb]
  refine ⟨hc, ?_⟩
  simp only [hc]
  simp only [Complex.star_def] at g1 g2 g3 g4
  ext μ
  have i2 := Complex.I_sq
  fin_cases μ <;> simp [four, pv]
  · linear_combination -(g1 + g4) / 2
  · linear_combination -(g2 + g3) / 2
  · linear_combination -Complex.I * (g2 - g3) / 2 + p.y * i2
  · linear_combination -(g1 - g4) / 2
end Spinas
