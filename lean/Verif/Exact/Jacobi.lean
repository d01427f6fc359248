import Verif.Exact.Ward

/-! Two gluons on a fermion line: relation between the amplitudes of the two orders of colour. -/

namespace Spinas
open Spec Matrix

theorem slashV_apply (v : Vec) : slashV v = (!![0, 0, v 0 - v 3, -v 1 + v 2 * Complex.I; 0, 0, -v 1 - v 2 * Complex.I, v 0 + v 3;
    v 0 + v 3, v 1 - v 2 * Complex.I, 0, 0; v 1 + v 2 * Complex.I, v 0 - v 3, 0, 0] : M4) := by
  ext i j
  simp only [slashV, Fin.sum_univ_four, Matrix.add_apply, Matrix.smul_apply]
  fin_cases i <;> fin_cases j <;> simp [gamma, metric] <;> ring

theorem slashV_mul (u v : Vec) : slashV u * slashV v = (2 * contract u v) • 1 - slashV v * slashV u := by
  rw [slashV_apply, slashV_apply]
  ext i j
  fin_cases i <;> fin_cases j <;> simp [Matrix.mul_apply, Fin.sum_univ_four, contract, metric] <;> ring_nf <;> (try rw [Complex.I_sq]) <;> (try ring)

/-- the numerators of the diagrams as matrices; the brackets vanish between Dirac spinors -/
theorem numerators {A : Type*} [Ring A] [Algebra ℂ A] {L Ka Kb Ea Eb : A} {la lb ab ba ee : ℂ} (μ : ℂ) (h1 : L * Ea = (2 * la) • 1 - Ea * L) (h2 : L * Eb = (2 * lb) • 1 - Eb * L)
    (h3 : Ka * Ea = (2 * 0 : ℂ) • 1 - Ea * Ka) (h4 : Kb * Eb = (2 * 0 : ℂ) • 1 - Eb * Kb) (h5 : Ka * Eb = (2 * ab) • 1 - Eb * Ka) (h6 : Kb * Ea = (2 * ba) • 1 - Ea * Kb) (h7 : Eb * Ea = (2 * ee) • 1 - Ea * Eb) :
    Eb * (L + Ka + μ • 1) * Ea - Ea * (L + Kb + μ • 1) * Eb + (ee • (Ka - Kb) + (2 * ba) • Eb - (2 * ab) • Ea) =
      (L + Ka + Kb - μ • 1) * (Ea * Eb) - Eb * Ea * (L - μ • 1) + ee • (L - μ • 1) - ee • (L + Ka + Kb - μ • 1) := by
  have a1 : ∀ X, L * (Ea * X) = (2 * la) • X - Ea * (L * X) := fun X => by rw [← mul_assoc, h1, sub_mul, smul_mul_assoc, one_mul, mul_assoc]
  have a3 : ∀ X, Ka * (Ea * X) = (2 * 0 : ℂ) • X - Ea * (Ka * X) := fun X => by rw [← mul_assoc, h3, sub_mul, smul_mul_assoc, one_mul, mul_assoc]
  have a6 : ∀ X, Kb * (Ea * X) = (2 * ba) • X - Ea * (Kb * X) := fun X => by rw [← mul_assoc, h6, sub_mul, smul_mul_assoc, one_mul, mul_assoc]
  have a7 : ∀ X, Eb * (Ea * X) = (2 * ee) • X - Ea * (Eb * X) := fun X => by rw [← mul_assoc, h7, sub_mul, smul_mul_assoc, one_mul, mul_assoc]
  simp only [mul_add, add_mul, mul_sub, sub_mul, mul_assoc, smul_mul_assoc, mul_smul_comm, one_mul, mul_one, a1, a3, a6, a7, h1, h2, h3, h4, h5, h6, h7, smul_sub, smul_add]
  module

variable (c : Constants) {f : Flavour} {l k k' : V4 ℝ} {w w' : Spinor} {ε ε' : Vec}

/-- a line absorbs two massless bosons, without the couplings and the propagator -/
noncomputable def numer (m : ℝ) (l : V4 ℝ) (w w' : Spinor) (k : V4 ℝ) (ε ε' : Vec) : ℂ := bar w' ⬝ᵥ ((slashV ε' * (slash (plus l k) + (m : ℂ) • 1) * slashV ε) *ᵥ w)

theorem compton_light {a b : Boson} (ha : a.massive = false) (hb : b.massive = false) (hf : Spec.after a f = some f) (hf' : Spec.after b f = some f) :
    compton c f f l w w' ⟨a, k, ε⟩ ⟨b, k', ε'⟩ = c.kappa f a * c.kappa f b * (numer (c.mass f) l w w' k ε ε' / ((msq (plus l k) - c.mass f ^ 2 : ℝ) : ℂ)) := by
  rw [compton_some c l k k' _ _ _ _ hf hf', absorb_light c f _ ha, absorb_light c f _ hb, numer]
  simp only [Matrix.smul_mul, Matrix.mul_smul, Matrix.smul_mulVec, dotProduct_smul, smul_eq_mul]
  ring

theorem fusion_eq (hf : Spec.after .gluon f = some f) : gluonFusion c f f w w' ⟨.gluon, k, ε⟩ ⟨.gluon, k', ε'⟩ = -(c.gs * c.gs * (bar w' ⬝ᵥ (slashV (yangMills k ε k' ε') *ᵥ w) / (msq (plus k k') : ℝ))) := by
  have L := vertex_lin c f f w w' (x := .gluon) (by simp)
  have e : denominator c .gluon (plus k k') = (msq (plus k k') : ℝ) := by
    rw [denominator, breitWigner]
    apply Complex.ext <;> simp [Constants.bosonMass]
  unfold gluonFusion
  rw [if_pos ⟨rfl, rfl⟩, propagate, e]
  simp only [Boson.massive, Bool.false_eq_true, if_false, add_zero]
  rw [L.map_smul, L.map_neg, L.map_smul, vertex, if_pos hf, absorb_light c f _ rfl, Matrix.smul_mulVec, dotProduct_smul]
  simp only [smul_eq_mul, Constants.kappa]
  ring

/-- kinematic Jacobi identity -/
theorem numer_jacobi {m : ℝ} (hw : Dirac l m w) (hw' : Dirac (plus l (plus k k')) m w') (hε : contract (four k) ε = 0) (hε' : contract (four k') ε' = 0) :
    numer m l w w' k ε ε' - numer m l w w' k' ε' ε = -(bar w' ⬝ᵥ (slashV (yangMills k ε k' ε') *ᵥ w)) := by
  have y : slashV (yangMills k ε k' ε') = contract ε ε' • (slash k - slash k') + (2 * contract (four k') ε) • slashV ε' - (2 * contract (four k) ε') • slashV ε := by
    have e1 : contract (four k + 2 * four k') ε = 2 * contract (four k') ε := by
      have : contract (four k + 2 * four k') ε = contract (four k) ε + 2 * contract (four k') ε := by
        simp only [contract, Fin.sum_univ_four, Pi.add_apply, Pi.mul_apply, Pi.ofNat_apply]; ring
      rw [this, hε, zero_add]
    have e2 : contract (2 * four k + four k') ε' = 2 * contract (four k) ε' := by
      have : contract (2 * four k + four k') ε' = 2 * contract (four k) ε' + contract (four k') ε' := by
        simp only [contract, Fin.sum_univ_four, Pi.add_apply, Pi.mul_apply, Pi.ofNat_apply]; ring
      rw [this, hε', add_zero]
    have v : yangMills k ε k' ε' = contract ε ε' • (four k - four k') + (2 * contract (four k') ε) • ε' - (2 * contract (four k) ε') • ε := by
      ext μ
      simp only [yangMills, e1, e2, Pi.add_apply, Pi.sub_apply, Pi.smul_apply, smul_eq_mul]
    have L := Lin.slashV
    rw [v, L.map_sub, L.map_add, L.map_smul, L.map_smul, L.map_smul, L.map_sub, slashV_four, slashV_four]
  have n := numerators (L := slash l) (Ka := slash k) (Kb := slash k') (Ea := slashV ε) (Eb := slashV ε') (ee := contract ε ε') (m : ℂ) (slashV_mul (four l) ε) (slashV_mul (four l) ε')
    (by rw [← hε]; exact slashV_mul (four k) ε) (by rw [← hε']; exact slashV_mul (four k') ε') (slashV_mul (four k) ε') (slashV_mul (four k') ε) (by rw [contract_swap ε]; exact slashV_mul ε' ε)
  rw [← y] at n
  have z : (slash l - (m : ℂ) • 1) *ᵥ w = 0 := by rw [Matrix.sub_mulVec, Matrix.smul_mulVec, Matrix.one_mulVec, show slash l *ᵥ w = (m : ℂ) • w from hw, sub_self]
  have z' : bar w' ᵥ* (slash l + slash k + slash k' - (m : ℂ) • 1) = 0 := by
    rw [add_assoc, ← slash_plus, ← slash_plus, Matrix.vecMul_sub, bar_slash, show slash (plus l (plus k k')) *ᵥ w' = (m : ℂ) • w' from hw', bar_smul, Matrix.vecMul_smul, Matrix.vecMul_one, sub_self]
  have t := congrArg (fun M => bar w' ⬝ᵥ (M *ᵥ w)) n
  have q1 : ∀ M : M4, bar w' ⬝ᵥ (((slash l + slash k + slash k' - (m : ℂ) • 1) * M) *ᵥ w) = 0 := fun M => by rw [← Matrix.mulVec_mulVec, Matrix.dotProduct_mulVec, z', zero_dotProduct]
  have q2 : ∀ M : M4, bar w' ⬝ᵥ ((M * (slash l - (m : ℂ) • 1)) *ᵥ w) = 0 := fun M => by rw [← Matrix.mulVec_mulVec, z, Matrix.mulVec_zero, dotProduct_zero]
  have q3 : bar w' ⬝ᵥ ((contract ε ε' • (slash l - (m : ℂ) • 1)) *ᵥ w) = 0 := by rw [Matrix.smul_mulVec, z, smul_zero, dotProduct_zero]
  have q4 : bar w' ⬝ᵥ ((contract ε ε' • (slash l + slash k + slash k' - (m : ℂ) • 1)) *ᵥ w) = 0 := by rw [Matrix.smul_mulVec, dotProduct_smul, Matrix.dotProduct_mulVec, z', zero_dotProduct, smul_zero]
  generalize slashV (yangMills k ε k' ε') = Y at t ⊢
  rw [numer, numer, slash_plus, slash_plus]
  rw [Matrix.sub_mulVec _ (contract ε ε' • _), Matrix.add_mulVec _ (contract ε ε' • _), Matrix.sub_mulVec (_ * _) (_ * _), Matrix.add_mulVec _ Y, Matrix.sub_mulVec (_ * _) (_ * _), dotProduct_sub, dotProduct_add, dotProduct_sub, dotProduct_add, dotProduct_sub, q1, q2, q3, q4] at t
  linear_combination t

/-- The two orders of colour. -/
theorem colour_orders (hf : Spec.after .gluon f = some f) (hw : Dirac l (c.mass f) w) (hw' : Dirac (plus l (plus k k')) (c.mass f) w') (hl : msq l = c.mass f ^ 2) (hl' : msq (plus l (plus k k')) = c.mass f ^ 2) (hk : msq k = 0) (hk' : msq k' = 0)
    (hε : contract (four k) ε = 0) (hε' : contract (four k') ε' = 0)
    (hD : msq (plus l k) - c.mass f ^ 2 ≠ 0) (hD' : msq (plus l k') - c.mass f ^ 2 ≠ 0) (hs : msq (plus k k') ≠ 0) :
    let A : Line := ⟨.gluon, k, ε⟩
    let B : Line := ⟨.gluon, k', ε'⟩
    let M := compton c f f l w w' A B + compton c f f l w w' B A
    compton c f f l w w' A B + gluonFusion c f f w w' A B = -(((msq (plus l k') - c.mass f ^ 2) / msq (plus k k') : ℝ) * M) ∧
    compton c f f l w w' B A - gluonFusion c f f w w' A B = -(((msq (plus l k) - c.mass f ^ 2) / msq (plus k k') : ℝ) * M) := by
  intro A B M
  have j := numer_jacobi hw hw' hε hε'
  have e1 : compton c f f l w w' A B = _ := compton_light c rfl rfl hf hf
  have e2 : compton c f f l w w' B A = _ := compton_light c rfl rfl hf hf
  have e3 : gluonFusion c f f w w' A B = _ := fusion_eq c hf
  have d : (msq (plus l k) - c.mass f ^ 2) + (msq (plus l k') - c.mass f ^ 2) + msq (plus k k') = 0 := by
    have : msq (plus l (plus k k')) = msq (plus l k) + msq (plus l k') + msq (plus k k') - msq l - msq k - msq k' := by simp only [msq, plus]; ring
    rw [hl', hl, hk, hk'] at this
    linarith
  simp only [M]
  rw [e1, e2, e3]
  generalize numer (c.mass f) l w w' k ε ε' = n₁ at j ⊢
  generalize numer (c.mass f) l w w' k' ε' ε = n₂ at j ⊢
  generalize bar w' ⬝ᵥ (slashV (yangMills k ε k' ε') *ᵥ w) = y at j ⊢
  generalize msq (plus l k) - c.mass f ^ 2 = t at *
  generalize msq (plus l k') - c.mass f ^ 2 = u at *
  generalize msq (plus k k') = s at *
  have t0 : (t : ℂ) ≠ 0 := by exact_mod_cast hD
  have u0 : (u : ℂ) ≠ 0 := by exact_mod_cast hD'
  have s0 : (s : ℂ) ≠ 0 := by exact_mod_cast hs
  have d' : (t : ℂ) + u + s = 0 := by exact_mod_cast d
  have hy : y = n₂ - n₁ := by linear_combination j
  subst hy
  simp only [Constants.kappa]
  push_cast
  constructor
  · field_simp
    linear_combination (c.gs : ℂ) ^ 2 * n₁ * d'
  · field_simp
    linear_combination (c.gs : ℂ) ^ 2 * n₂ * d'

end Spinas
