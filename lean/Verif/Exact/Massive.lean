import Verif.Exact.Polar

/-! Massive vector bosons: polarisation vectors made of two spinors of the boson. -/

namespace Spinas
open Spec Props Matrix

/-- an angle and a square spinor of one particle -/
abbrev Pair := V2 × V2

/-- Dirac equation -/
structure Bold (p : V4 ℝ) (m : ℝ) (z : Pair) : Prop where
  up : slashUpper p *ᵥ z.1 = (-m : ℂ) • z.2
  low : slashLower p *ᵥ z.2 = (-m : ℂ) • z.1

theorem Bold.add {p : V4 ℝ} {m : ℝ} {x y : Pair} (h : Bold p m x) (h' : Bold p m y) : Bold p m (x + y) :=
  ⟨by rw [Prod.fst_add, Prod.snd_add, Matrix.mulVec_add, h.up, h'.up, smul_add], by rw [Prod.fst_add, Prod.snd_add, Matrix.mulVec_add, h.low, h'.low, smul_add]⟩

theorem Grams.bold {p : V4 ℝ} {m : ℝ} {A S : Fin 2 → V2} (hp : msq p = m ^ 2) (h : Grams p m A S) (s : Fin 2) : Bold p m (A s, S s) := by
  have d := dirac_of_complete hp (u := fun s => spX 1 (A s) (S s)) (by simpa using (h.complete (.inl rfl)).1) s
  unfold Dirac at d
  rw [slash_apply] at d
  have e := fun i => congrFun d i
  have e0 := e 0; have e1 := e 1; have e2 := e 2; have e3 := e 3
  simp [spX, mulVec, dotProduct, Fin.sum_univ_four] at e0 e1 e2 e3
  constructor
  · ext i
    fin_cases i <;> simp [slashUpper, mulVec, dotProduct, Fin.sum_univ_two]
    · linear_combination e0
    · linear_combination e1
  · ext i
    fin_cases i <;> simp [slashLower, mulVec, dotProduct, Fin.sum_univ_two]
    · linear_combination -e2
    · linear_combination -e3

section
variable {p : V4 ℝ} {m : ℝ} {z : Pair} (h : Bold p m z)
include h
theorem Bold.mb_right (X : V2) : mb X p z.1 = -(m * sb X z.2) := by rw [mb, h.up, sb_smul_right]; ring
theorem Bold.mb_left (X : V2) : mb z.2 p X = -(m * ab X z.1) := by rw [← mb_lower, h.low, ab_smul_right]; ring
theorem Bold.transverse : contract (four p) (pv z.1 z.2) = 0 := by rw [contract_four_pv, h.mb_right, sb_self]; simp
end

/-! ### three states from two spinors -/

section
variable {M : Type} [AddCommGroup M] [Module ℂ M]
/-- the states with spin -1, 0, 1 -/
noncomputable def comb (t : Fin 3) (F : Fin 2 → Fin 2 → M) : M := ![F 0 0, ((√2)⁻¹ : ℂ) • (F 0 1 + F 1 0), F 1 1] t

theorem comb_map {N : Type} [AddCommGroup N] [Module ℂ N] {G : M → N} (hG : IsLinearMap ℂ G) (t : Fin 3) (F : Fin 2 → Fin 2 → M) : G (comb t F) = comb t (fun a b => G (F a b)) := by
  fin_cases t
  · rfl
  · show G (_ • (_ + _)) = _ • (_ + _)
    rw [hG.map_smul, hG.map_add]
  · rfl
theorem comb_add (t : Fin 3) (F F' : Fin 2 → Fin 2 → M) : comb t (fun a b => F a b + F' a b) = comb t F + comb t F' := by
  fin_cases t
  · rfl
  · show _ • (_ + _) = _ • (_ + _) + _ • (_ + _)
    rw [← smul_add]
    exact congrArg _ (add_add_add_comm ..)
  · rfl
end

/-- polarisation vectors -/
noncomputable def polE (A S : Fin 2 → V2) (m : ℝ) (t : Fin 3) : Vec := ((√2 / m : ℝ) : ℂ) • comb t (fun a b => pv (A a) (S b))

/-- What holds for two equal spinors of a particle holds for all its states. -/
theorem comb_polar {p : V4 ℝ} {m : ℝ} {A S : Fin 2 → V2} (hz : ∀ s, Bold p m (A s, S s)) {B : Pair → Pair → ℂ} (hl : ∀ x y z, B (x + y) z = B x z + B y z) (hr : ∀ x y z, B z (x + y) = B z x + B z y)
    {G : Vec → ℂ} (hG : IsLinearMap ℂ G) (h : ∀ z, Bold p m z → B z z = G (((√2 / m : ℝ) : ℂ) • pv z.1 z.2)) (t : Fin 3) :
    comb t (fun a b => B (A a, S a) (A b, S b)) = G (polE A S m t) := by
  have d := fun s => h _ (hz s)
  rw [polE, hG.map_smul, comb_map hG]
  simp only [hG.map_smul] at d h
  fin_cases t
  · exact d 0
  · have e := h _ ((hz 0).add (hz 1))
    rw [hl, hr, hr, d 0, d 1, Prod.fst_add, Prod.snd_add, pv_add_left, pv_add_right, pv_add_right, hG.map_add, hG.map_add, hG.map_add] at e
    show ((√2)⁻¹ : ℂ) * (B (A 0, S 0) (A 1, S 1) + B (A 1, S 1) (A 0, S 0)) = ((√2 / m : ℝ) : ℂ) * (((√2)⁻¹ : ℂ) * (G (pv (A 0) (S 1)) + G (pv (A 1) (S 0))))
    simp only [smul_eq_mul] at e
    linear_combination ((√2)⁻¹ : ℂ) * e
  · exact d 1

/-- completeness -/
theorem polE_complete {p : V4 ℝ} {m : ℝ} (hp : msq p = m ^ 2) (hm : m ≠ 0) {A S : Fin 2 → V2} (h : Grams p m A S) (μ ν : Fin 4) :
    ∑ t, polE A S m t μ * star (polE A S m t ν) = -(if μ = ν then metric μ else 0) + four p μ * four p ν / (m ^ 2 : ℝ) := by
  have e := fun i j => congrFun (congrFun h.aa i) j
  have f := fun i j => congrFun (congrFun h.ss i) j
  have g := fun i j => congrFun (congrFun h.as i) j
  have k := fun i j => congrFun (congrFun h.sa i) j
  simp only [Fin.sum_univ_two, Matrix.add_apply, vecMulVec_apply, Pi.star_apply, Complex.star_def, Matrix.smul_apply, smul_eq_mul] at e f g k
  have hm' : (m : ℂ) ≠ 0 := by exact_mod_cast hm
  have h2 : ((√2 : ℝ) : ℂ) * (√2 : ℝ) = 2 := by rw [← Complex.ofReal_mul, Real.mul_self_sqrt (by norm_num)]; simp
  have h3 : (((√2 : ℝ) : ℂ)⁻¹) * (((√2 : ℝ) : ℂ)⁻¹) = 1 / 2 := by rw [← mul_inv, h2]; norm_num
  -- the vectors as sums over spinor indices
  have X : ∃ σ : Fin 4 → Fin 2 → Fin 2 → ℂ, (∀ (x y : V2) (μ : Fin 4), pv x y μ = ∑ α, ∑ β, σ μ α β * (x α * y β)) ∧ σ =
      ![![![0, -1 / 2], ![1 / 2, 0]], ![![1 / 2, 0], ![0, -1 / 2]], ![![Complex.I / 2, 0], ![0, Complex.I / 2]], ![![0, -1 / 2], ![-1 / 2, 0]]] := by
    refine ⟨_, fun x y μ => ?_, rfl⟩
    fin_cases μ <;> simp [pv, Fin.sum_univ_two] <;> ring
  obtain ⟨σ, X, hσ⟩ := X
  have s1 : ∑ t, polE A S m t μ * star (polE A S m t ν) = (1 / m ^ 2 : ℂ) * ∑ a, ∑ b, (pv (A a) (S b) μ * star (pv (A a) (S b) ν) + pv (A a) (S b) μ * star (pv (A b) (S a) ν)) := by
    simp only [Fin.sum_univ_three, Fin.sum_univ_two, polE, comb, Pi.smul_apply, Pi.add_apply, smul_eq_mul, Matrix.cons_val_zero, Matrix.cons_val_one, Matrix.cons_val, Complex.star_def, map_mul, map_add, map_div₀, Complex.ofReal_div,
      Complex.conj_ofReal, map_inv₀]
    generalize pv (A 0) (S 0) μ = x1
    generalize pv (A 0) (S 1) μ = x2
    generalize pv (A 1) (S 0) μ = x3
    generalize pv (A 1) (S 1) μ = x4
    generalize (starRingEnd ℂ) (pv (A 0) (S 0) ν) = y1
    generalize (starRingEnd ℂ) (pv (A 0) (S 1) ν) = y2
    generalize (starRingEnd ℂ) (pv (A 1) (S 0) ν) = y3
    generalize (starRingEnd ℂ) (pv (A 1) (S 1) ν) = y4
    have h4 : ((√2 : ℝ) : ℂ) / m * (((√2 : ℝ) : ℂ) / m) = 2 / m ^ 2 := by rw [div_mul_div_comm, h2]; ring
    linear_combination (x1 * y1 + x4 * y4 + (x2 + x3) * (y2 + y3) * (((√2 : ℝ) : ℂ)⁻¹ * ((√2 : ℝ) : ℂ)⁻¹)) * h4 + 2 / m ^ 2 * (x2 + x3) * (y2 + y3) * h3
  have s2 : ∑ a, ∑ b, (pv (A a) (S b) μ * star (pv (A a) (S b) ν) + pv (A a) (S b) μ * star (pv (A b) (S a) ν)) =
      ∑ α, ∑ β, ∑ γ, ∑ δ, σ μ α β * star (σ ν γ δ) * (slashLower p α γ * slashUpper p β δ + ((-m : ℂ) • (1 : M2)) α δ * ((-m : ℂ) • (1 : M2)) β γ) := by
    have : ∀ α β γ δ, slashLower p α γ * slashUpper p β δ + ((-m : ℂ) • (1 : M2)) α δ * ((-m : ℂ) • (1 : M2)) β γ =
        (A 0 α * (starRingEnd ℂ) (A 0 γ) + A 1 α * (starRingEnd ℂ) (A 1 γ)) * (S 0 β * (starRingEnd ℂ) (S 0 δ) + S 1 β * (starRingEnd ℂ) (S 1 δ)) +
        (A 0 α * (starRingEnd ℂ) (S 0 δ) + A 1 α * (starRingEnd ℂ) (S 1 δ)) * (S 0 β * (starRingEnd ℂ) (A 0 γ) + S 1 β * (starRingEnd ℂ) (A 1 γ)) := by
      intro α β γ δ
      rw [e, f, g, k]
      rfl
    simp only [this, X, Fin.sum_univ_two, Complex.star_def, map_mul, map_add]
    ring
  rw [s1, s2]
  have hq : (p.t : ℂ) ^ 2 - p.x ^ 2 - p.y ^ 2 - p.z ^ 2 = m ^ 2 := by
    have : p.t ^ 2 - p.x ^ 2 - p.y ^ 2 - p.z ^ 2 = m ^ 2 := by rw [← hp, msq]; try ring
    exact_mod_cast this
  have c2 : (starRingEnd ℂ) 2 = 2 := Complex.conj_ofNat 2
  subst hσ
  fin_cases μ <;> fin_cases ν <;> simp [Fin.sum_univ_two, slashLower, slashUpper, metric, four, c2] <;> field_simp <;> ring_nf <;> (try simp only [Complex.I_sq, show Complex.I ^ 3 = -Complex.I by rw [pow_succ, Complex.I_sq]; ring, show Complex.I ^ 4 = 1 by rw [show 4 = 2 * 2 from rfl, pow_mul, Complex.I_sq]; norm_num]) <;> (try ring_nf) <;> first | done | linear_combination hq | linear_combination -hq | linear_combination 2 * hq | linear_combination (-2) * hq

end Spinas
