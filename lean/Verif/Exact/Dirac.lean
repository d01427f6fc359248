import Verif.Spec.Feynman
import Verif.Props.Brackets

/-! Dirac spinors made of the angle and square spinors of the code, and the values of the exchanges between them. -/

namespace Spinas
open Spec Props Matrix

/-! ### components -/

theorem bar_apply (u : Spinor) : bar u = ![star (u 2), star (u 3), star (u 0), star (u 1)] := by
  ext i; fin_cases i <;> simp [bar, gamma, vecMul, dotProduct, Fin.sum_univ_four]

/-- `r (gL PL + gR PR) b` -/
def scal (gL gR : ℂ) (r b : Spinor) : ℂ := gL * (r 0 * b 0 + r 1 * b 1) + gR * (r 2 * b 2 + r 3 * b 3)

theorem dot_scal (gL gR : ℂ) (r b : Spinor) : r ⬝ᵥ (chiral gL gR *ᵥ b) = scal gL gR r b := by
  simp [chiral, mulVec_diagonal, dotProduct, Fin.sum_univ_four, scal]; ring

theorem bar_dot (a b : Spinor) : bar a ⬝ᵥ b = scal 1 1 (bar a) b := by
  simp [dotProduct, Fin.sum_univ_four, scal]; ring

/-- the four components of a current -/
theorem current_apply (gL gR : ℂ) (a b : Spinor) : current gL gR a b = ![
    gR * (bar a 0 * b 2 + bar a 1 * b 3) + gL * (bar a 2 * b 0 + bar a 3 * b 1),
    gR * (bar a 0 * b 3 + bar a 1 * b 2) - gL * (bar a 2 * b 1 + bar a 3 * b 0),
    Complex.I * (gR * (-(bar a 0 * b 3) + bar a 1 * b 2) - gL * (-(bar a 2 * b 1) + bar a 3 * b 0)),
    gR * (bar a 0 * b 2 - bar a 1 * b 3) - gL * (bar a 2 * b 0 - bar a 3 * b 1)] := by
  ext i
  unfold current
  generalize bar a = r
  rw [← Matrix.mulVec_mulVec]
  fin_cases i <;> simp [gamma, chiral, mulVec_diagonal, mulVec, dotProduct, Fin.sum_univ_four] <;> ring

/-- product of two currents -/
theorem contract_current (gL gR hL hR : ℂ) (a b c d : Spinor) : contract (current gL gR a b) (current hL hR c d) =
    2 * (gL * hL * (bar a 2 * bar c 3 - bar a 3 * bar c 2) * (b 0 * d 1 - b 1 * d 0) + gR * hR * (bar a 0 * bar c 1 - bar a 1 * bar c 0) * (b 2 * d 3 - b 3 * d 2) +
      gL * hR * (bar a 2 * d 2 + bar a 3 * d 3) * (bar c 0 * b 0 + bar c 1 * b 1) + gR * hL * (bar a 0 * d 0 + bar a 1 * d 1) * (bar c 2 * b 2 + bar c 3 * b 3)) := by
  rw [current_apply, current_apply]
  generalize bar a = r
  generalize bar c = s
  simp [contract, metric, Fin.sum_univ_four]
  ring_nf
  rw [Complex.I_sq]
  ring

theorem slash_apply (p : V4 ℝ) : slash p = (!![0, 0, (p.t : ℂ) - p.z, -p.x + p.y * Complex.I; 0, 0, -p.x - p.y * Complex.I, p.t + p.z;
    p.t + p.z, p.x - p.y * Complex.I, 0, 0; p.x + p.y * Complex.I, p.t - p.z, 0, 0] : M4) := by
  ext i j
  simp only [slash, Fin.sum_univ_four, Matrix.add_apply, Matrix.smul_apply]
  fin_cases i <;> fin_cases j <;> simp [gamma, metric, four] <;> ring

/-- momentum times current -/
theorem contract_comp (q : V4 ℝ) (gL gR : ℂ) (a b : Spinor) : contract (four q) (current gL gR a b) = bar a ⬝ᵥ (slash q *ᵥ (chiral gL gR *ᵥ b)) := by
  rw [current_apply, slash_apply]
  generalize bar a = r
  simp [contract, metric, four, chiral, mulVec_diagonal, mulVec, dotProduct, Fin.sum_univ_four]
  ring

theorem slash_chiral (q : V4 ℝ) (gL gR : ℂ) : slash q * chiral gL gR = chiral gR gL * slash q := by
  rw [slash_apply]
  ext i j
  fin_cases i <;> fin_cases j <;> simp [chiral, Matrix.mul_apply, Fin.sum_univ_four] <;> ring

theorem slash_sub (p q r : V4 ℝ) (h : r = ⟨p.t - q.t, p.x - q.x, p.y - q.y, p.z - q.z⟩) : slash r = slash p - slash q := by
  subst h
  rw [slash_apply, slash_apply, slash_apply]
  ext i j
  fin_cases i <;> fin_cases j <;> simp <;> ring

theorem gamma0_sq : gamma 0 * gamma 0 = 1 := by
  ext i j
  fin_cases i <;> fin_cases j <;> simp [gamma, Matrix.mul_apply, Fin.sum_univ_four]

/-- adjoint of the Dirac equation -/
theorem bar_slash (k : V4 ℝ) (u : Spinor) : bar u ᵥ* slash k = bar (slash k *ᵥ u) := by
  rw [slash_apply]
  ext i
  fin_cases i <;> simp [bar_apply, vecMul, mulVec, dotProduct, Fin.sum_univ_four] <;> ring

theorem bar_smul (m : ℝ) (u : Spinor) : bar ((m : ℂ) • u) = (m : ℂ) • bar u := by
  rw [bar_apply, bar_apply]
  ext i
  fin_cases i <;> simp

/-- Dirac equation: `k` is the momentum in the direction of the line. -/
def Dirac (k : V4 ℝ) (m : ℝ) (u : Spinor) : Prop := slash k *ᵥ u = (m : ℂ) • u

/-- The divergence of a current is made of masses. -/
theorem divergence {k l q : V4 ℝ} {m n : ℝ} {a b : Spinor} (ha : Dirac k m a) (hb : Dirac l n b) (hq : q = ⟨l.t - k.t, l.x - k.x, l.y - k.y, l.z - k.z⟩) (gL gR : ℂ) :
    contract (four q) (current gL gR a b) = scal (n * gR - m * gL) (n * gL - m * gR) (bar a) b := by
  rw [contract_comp, slash_sub l k q hq, Matrix.sub_mulVec, dotProduct_sub, Matrix.mulVec_mulVec, slash_chiral, ← Matrix.mulVec_mulVec, hb,
    Matrix.dotProduct_mulVec _ (slash k), bar_slash, ha, bar_smul, Matrix.mulVec_smul, dotProduct_smul, smul_dotProduct, dot_scal, dot_scal]
  simp only [scal, smul_eq_mul]
  ring

/-! ### completeness implies the Dirac equation -/

theorem slash_sq (p : V4 ℝ) : slash p * slash p = (msq p : ℂ) • 1 := by
  rw [slash_apply]
  ext i j
  fin_cases i <;> fin_cases j <;> simp [Matrix.mul_apply, Fin.sum_univ_four, msq] <;> ring_nf <;> (try rw [Complex.I_sq]) <;> (try ring)

theorem bar_gamma (u : Spinor) : bar u ᵥ* gamma 0 = star u := by
  rw [bar, Matrix.vecMul_vecMul, gamma0_sq, Matrix.vecMul_one]

/-- products of components, summed over spins -/
theorem gram_of_complete {u v : Fin 2 → Spinor} (h : ∑ s, vecMulVec (u s) (bar (u s)) = ∑ s, vecMulVec (v s) (bar (v s))) :
    ∑ s, vecMulVec (u s) (star (u s)) = ∑ s, vecMulVec (v s) (star (v s)) := by
  have key : ∀ w : Fin 2 → Spinor, (∑ s, vecMulVec (w s) (bar (w s))) * gamma 0 = ∑ s, vecMulVec (w s) (star (w s)) := by
    intro w
    rw [Finset.sum_mul]
    refine Finset.sum_congr rfl fun s _ => ?_
    rw [← bar_gamma, vecMulVec_mul]
  rw [← key, h, key]

theorem dirac_of_complete {p : V4 ℝ} {m : ℝ} (hp : msq p = m ^ 2) {u : Fin 2 → Spinor} (h : ∑ s, vecMulVec (u s) (bar (u s)) = slash p + (m : ℂ) • 1) (s : Fin 2) :
    Dirac p m (u s) := by
  set D : M4 := slash p - (m : ℂ) • 1 with hD
  have h0 : D * (slash p + (m : ℂ) • 1) = 0 := by
    rw [hD, Matrix.sub_mul, Matrix.mul_add, Matrix.mul_add, slash_sq, hp]
    simp only [Matrix.smul_mul, Matrix.mul_smul, Matrix.one_mul, Matrix.mul_one, smul_smul]
    push_cast
    rw [pow_two]
    abel
  have h1 : ∑ s, vecMulVec (D *ᵥ u s) (bar (u s)) = 0 := by
    rw [← h0, ← h, Finset.mul_sum]
    exact Finset.sum_congr rfl fun s _ => (mul_vecMulVec _ _ _).symm
  have h2 : ∑ s, vecMulVec (D *ᵥ u s) (star (D *ᵥ u s)) = 0 := by
    have : (∑ s, vecMulVec (D *ᵥ u s) (bar (u s))) * (gamma 0 * Dᴴ) = ∑ s, vecMulVec (D *ᵥ u s) (star (D *ᵥ u s)) := by
      rw [Finset.sum_mul]
      refine Finset.sum_congr rfl fun s _ => ?_
      rw [vecMulVec_mul, ← Matrix.vecMul_vecMul, bar_gamma, Matrix.star_mulVec]
    rw [← this, h1, Matrix.zero_mul]
  have h3 : ∑ s, ∑ i, Complex.normSq ((D *ᵥ u s) i) = 0 := by
    have := congrArg Matrix.trace h2
    rw [Matrix.trace_sum, Matrix.trace_zero] at this
    have e : ∀ s, (vecMulVec (D *ᵥ u s) (star (D *ᵥ u s))).trace = ((∑ i, Complex.normSq ((D *ᵥ u s) i) : ℝ) : ℂ) := by
      intro s
      simp only [Matrix.trace, Matrix.diag, vecMulVec_apply, Pi.star_apply, Complex.star_def, Complex.mul_conj]
      push_cast
      rfl
    simp only [e, ← Complex.ofReal_sum] at this
    exact_mod_cast this
  have h4 : ∀ i, (D *ᵥ u s) i = 0 := by
    intro i
    have hs := (Finset.sum_eq_zero_iff_of_nonneg (fun s _ => Finset.sum_nonneg fun i _ => Complex.normSq_nonneg _)).1 h3 s (Finset.mem_univ _)
    have hi := (Finset.sum_eq_zero_iff_of_nonneg (fun i _ => Complex.normSq_nonneg _)).1 hs i (Finset.mem_univ _)
    exact Complex.normSq_eq_zero.1 hi
  have h5 : D *ᵥ u s = 0 := funext h4
  rw [hD, Matrix.sub_mulVec, Matrix.smul_mulVec, Matrix.one_mulVec, sub_eq_zero] at h5
  exact h5

/-! ### the spinors of the code -/

/-- products of two-component spinors: `<xy>` and `[xy]` -/
def ab (x y : V2) : ℂ := x 1 * y 0 - x 0 * y 1
def sb (x y : V2) : ℂ := x 0 * y 1 - x 1 * y 0

/-- A Dirac spinor from an angle and a square spinor; `ε` is 1 for particles, -1 for antiparticles. -/
noncomputable def spX (ε : ℝ) (A S : V2) : Spinor := ![-ε * S 0, -ε * S 1, A 0, A 1]
/-- and from their conjugates -/
noncomputable def spY (ε : ℝ) (A S : V2) : Spinor := ![star (A 1), -star (A 0), -ε * star (S 1), ε * star (S 0)]

/-- sums over spins of products of the two-component spinors -/
structure Grams (p : V4 ℝ) (m : ℝ) (A S : Fin 2 → V2) : Prop where
  aa : ∑ s, vecMulVec (A s) (star (A s)) = slashLower p
  ss : ∑ s, vecMulVec (S s) (star (S s)) = slashUpper p
  as : ∑ s, vecMulVec (A s) (star (S s)) = (-m : ℂ) • 1
  sa : ∑ s, vecMulVec (S s) (star (A s)) = (-m : ℂ) • 1

theorem Grams.complete {p : V4 ℝ} {m : ℝ} {A S : Fin 2 → V2} (h : Grams p m A S) {ε : ℝ} (hε : ε = 1 ∨ ε = -1) :
    ∑ s, vecMulVec (spX ε (A s) (S s)) (bar (spX ε (A s) (S s))) = slash p + (ε * m : ℂ) • 1 ∧
    ∑ s, vecMulVec (spY ε (A s) (S s)) (bar (spY ε (A s) (S s))) = slash p + (ε * m : ℂ) • 1 := by
  have e := fun i j => congrFun (congrFun h.aa i) j
  have f := fun i j => congrFun (congrFun h.ss i) j
  have g := fun i j => congrFun (congrFun h.as i) j
  have k := fun i j => congrFun (congrFun h.sa i) j
  simp only [Fin.forall_fin_two, Fin.sum_univ_two, Matrix.add_apply, vecMulVec_apply, Pi.star_apply, slashLower, slashUpper, Matrix.smul_apply, Matrix.one_apply, Matrix.of_apply,
    Matrix.cons_val', Matrix.cons_val_zero, Matrix.cons_val_one, Matrix.cons_val_fin_one, Complex.star_def, Fin.isValue, if_true, zero_ne_one, one_ne_zero, if_false, smul_eq_mul, mul_one, mul_zero] at e f g k
  obtain ⟨⟨e1, e2⟩, e3, e4⟩ := e
  obtain ⟨⟨f1, f2⟩, f3, f4⟩ := f
  obtain ⟨⟨g1, g2⟩, g3, g4⟩ := g
  obtain ⟨⟨k1, k2⟩, k3, k4⟩ := k
  rw [slash_apply]
  have hs : (ε : ℂ) * ε = 1 := by rcases hε with rfl | rfl <;> simp
  constructor
  · ext i j
    fin_cases i <;> fin_cases j <;> simp [bar_apply, spX, Fin.sum_univ_two, vecMulVec_apply]
    · linear_combination (-(ε : ℂ)) * k1
    · linear_combination (-(ε : ℂ)) * k2
    · linear_combination f1 + ((S 0 0) * (starRingEnd ℂ) (S 0 0) + (S 1 0) * (starRingEnd ℂ) (S 1 0)) * hs
    · linear_combination f2 + ((S 0 0) * (starRingEnd ℂ) (S 0 1) + (S 1 0) * (starRingEnd ℂ) (S 1 1)) * hs
    · linear_combination (-(ε : ℂ)) * k3
    · linear_combination (-(ε : ℂ)) * k4
    · linear_combination f3 + ((S 0 1) * (starRingEnd ℂ) (S 0 0) + (S 1 1) * (starRingEnd ℂ) (S 1 0)) * hs
    · linear_combination f4 + ((S 0 1) * (starRingEnd ℂ) (S 0 1) + (S 1 1) * (starRingEnd ℂ) (S 1 1)) * hs
    · linear_combination e1
    · linear_combination e2
    · linear_combination (-(ε : ℂ)) * g1
    · linear_combination (-(ε : ℂ)) * g2
    · linear_combination e3
    · linear_combination e4
    · linear_combination (-(ε : ℂ)) * g3
    · linear_combination (-(ε : ℂ)) * g4
  · ext i j
    fin_cases i <;> fin_cases j <;> simp [bar_apply, spY, Fin.sum_univ_two, vecMulVec_apply]
    · linear_combination (-(ε : ℂ)) * k4
    · linear_combination (ε : ℂ) * k2
    · linear_combination e4
    · linear_combination -e2
    · linear_combination (ε : ℂ) * k3
    · linear_combination (-(ε : ℂ)) * k1
    · linear_combination -e3
    · linear_combination e1
    · linear_combination f4 + ((S 0 1) * (starRingEnd ℂ) (S 0 1) + (S 1 1) * (starRingEnd ℂ) (S 1 1)) * hs
    · linear_combination -f2 - ((S 0 0) * (starRingEnd ℂ) (S 0 1) + (S 1 0) * (starRingEnd ℂ) (S 1 1)) * hs
    · linear_combination (-(ε : ℂ)) * g4
    · linear_combination (ε : ℂ) * g2
    · linear_combination -f3 - ((S 0 1) * (starRingEnd ℂ) (S 0 0) + (S 1 1) * (starRingEnd ℂ) (S 1 0)) * hs
    · linear_combination f1 + ((S 0 0) * (starRingEnd ℂ) (S 0 0) + (S 1 0) * (starRingEnd ℂ) (S 1 0)) * hs
    · linear_combination (ε : ℂ) * g3
    · linear_combination (-(ε : ℂ)) * g1

/-! ### exchanges between spinors of the code -/

/-- denominators of the code -/
noncomputable def pole (m w : ℝ) (q : V4 ℝ) : ℂ := star (breitWigner m w q)

section
variable (ε₁ ε₂ ε₃ ε₄ : ℝ) (A₁ S₁ A₂ S₂ A₃ S₃ A₄ S₄ : V2)

/-- product of two currents, without conjugation -/
noncomputable def jj (gL gR hL hR : ℝ) : ℂ := -2 * (gL * hL * (ε₁ * ε₃ * (sb S₁ S₃ * ab A₂ A₄)) + gR * hR * (ε₂ * ε₄ * (ab A₁ A₃ * sb S₂ S₄)) +
  gL * hR * (ε₁ * ε₄ * (sb S₁ S₄ * ab A₃ A₂)) + gR * hL * (ε₃ * ε₂ * (ab A₁ A₄ * sb S₃ S₂)))

/-- a line with scalar vertex -/
noncomputable def ln (gL gR : ℝ) : ℂ := gR * (ε₁ * ε₂ * sb S₁ S₂) - gL * ab A₁ A₂

theorem contract_conj (gL gR hL hR : ℝ) : contract (current gL gR (spX ε₁ A₁ S₁) (spY ε₂ A₂ S₂)) (current hL hR (spX ε₃ A₃ S₃) (spY ε₄ A₄ S₄)) =
    star (jj ε₁ ε₂ ε₃ ε₄ A₁ S₁ A₂ S₂ A₃ S₃ A₄ S₄ gL gR hL hR) := by
  rw [contract_current]
  simp [bar_apply, spX, spY, jj, ab, sb]
  ring

theorem scal_conj (gL gR : ℝ) : scal gL gR (bar (spX ε₁ A₁ S₁)) (spY ε₂ A₂ S₂) = star (ln ε₁ ε₂ A₁ S₁ A₂ S₂ gL gR) := by
  simp [bar_apply, spX, spY, scal, ln, ab, sb]
  ring

theorem massless_conj (q : V4 ℝ) : exchangeMassless (spX ε₁ A₁ S₁) (spY ε₂ A₂ S₂) (spX ε₃ A₃ S₃) (spY ε₄ A₄ S₄) q =
    star (jj ε₁ ε₂ ε₃ ε₄ A₁ S₁ A₂ S₂ A₃ S₃ A₄ S₄ 1 1 1 1 / (msq q : ℂ)) := by
  have := contract_conj ε₁ ε₂ ε₃ ε₄ A₁ S₁ A₂ S₂ A₃ S₃ A₄ S₄ 1 1 1 1
  simp only [Complex.ofReal_one] at this
  rw [exchangeMassless, this]
  simp

theorem scalar_conj (m w : ℝ) (q : V4 ℝ) : exchangeScalar m w (spX ε₁ A₁ S₁) (spY ε₂ A₂ S₂) (spX ε₃ A₃ S₃) (spY ε₄ A₄ S₄) q =
    star (ln ε₁ ε₂ A₁ S₁ A₂ S₂ 1 1 * ln ε₃ ε₄ A₃ S₃ A₄ S₄ 1 1 / pole m w q) := by
  have h := scal_conj ε₁ ε₂ A₁ S₁ A₂ S₂ 1 1
  have h' := scal_conj ε₃ ε₄ A₃ S₃ A₄ S₄ 1 1
  simp only [Complex.ofReal_one] at h h'
  rw [exchangeScalar, bar_dot, bar_dot, h, h']
  simp [pole]

theorem massive_conj {k l k' l' q : V4 ℝ} {m₁ m₂ m₃ m₄ : ℝ} (h1 : Dirac k m₁ (spX ε₁ A₁ S₁)) (h2 : Dirac l m₂ (spY ε₂ A₂ S₂)) (h3 : Dirac k' m₃ (spX ε₃ A₃ S₃)) (h4 : Dirac l' m₄ (spY ε₄ A₄ S₄))
    (hq : q = ⟨l.t - k.t, l.x - k.x, l.y - k.y, l.z - k.z⟩) (hq' : q = ⟨k'.t - l'.t, k'.x - l'.x, k'.y - l'.y, k'.z - l'.z⟩) (m w gL gR hL hR : ℝ) :
    exchangeMassive m w gL gR hL hR (spX ε₁ A₁ S₁) (spY ε₂ A₂ S₂) (spX ε₃ A₃ S₃) (spY ε₄ A₄ S₄) q =
      star ((jj ε₁ ε₂ ε₃ ε₄ A₁ S₁ A₂ S₂ A₃ S₃ A₄ S₄ gL gR hL hR +
        ln ε₁ ε₂ A₁ S₁ A₂ S₂ (m₂ * gR - m₁ * gL) (m₂ * gL - m₁ * gR) * ln ε₃ ε₄ A₃ S₃ A₄ S₄ (m₄ * hR - m₃ * hL) (m₄ * hL - m₃ * hR) / (m ^ 2 : ℝ)) / pole m w q) := by
  have d1 := divergence h1 h2 hq gL gR
  have d2 : contract (four q) (current hL hR (spX ε₃ A₃ S₃) (spY ε₄ A₄ S₄)) = -star (ln ε₃ ε₄ A₃ S₃ A₄ S₄ (m₄ * hR - m₃ * hL) (m₄ * hL - m₃ * hR)) := by
    have := divergence h3 h4 rfl hL hR
    rw [← scal_conj]
    push_cast
    rw [← this, hq']
    simp only [contract, Fin.sum_univ_four, four, metric]
    simp
    ring
  have d3 := scal_conj ε₁ ε₂ A₁ S₁ A₂ S₂ (m₂ * gR - m₁ * gL) (m₂ * gL - m₁ * gR)
  push_cast at d3
  rw [exchangeMassive, contract_conj, d1, d2, d3]
  simp only [pole, star_div₀, star_star, star_add, star_mul']
  simp
  ring

/-! the same for spinors the other way round -/

theorem contract_direct : contract (current 1 0 (spY ε₁ A₁ S₁) (spX ε₂ A₂ S₂)) (current 1 0 (spY ε₃ A₃ S₃) (spX ε₄ A₄ S₄)) = -2 * (ε₂ * ε₄ * (ab A₁ A₃ * sb S₂ S₄)) := by
  rw [contract_current]
  simp [bar_apply, spX, spY, ab, sb]
  ring

theorem scal_direct (gL gR : ℝ) : scal gL gR (bar (spY ε₁ A₁ S₁)) (spX ε₂ A₂ S₂) = ε₁ * ε₂ * gL * -sb S₁ S₂ + gR * ab A₁ A₂ := by
  simp [bar_apply, spX, spY, scal, ab, sb]
  ring

/-- a line of the W, without conjugation -/
noncomputable def lw (m₁ m₂ : ℝ) : ℂ := m₁ * (ε₁ * ε₂ * sb S₁ S₂) + m₂ * ab A₁ A₂

theorem massive_direct {k l k' l' q : V4 ℝ} {m₁ m₂ m₃ m₄ : ℝ} (h1 : Dirac k m₁ (spY ε₁ A₁ S₁)) (h2 : Dirac l m₂ (spX ε₂ A₂ S₂)) (h3 : Dirac k' m₃ (spY ε₃ A₃ S₃)) (h4 : Dirac l' m₄ (spX ε₄ A₄ S₄))
    (hq : q = ⟨l.t - k.t, l.x - k.x, l.y - k.y, l.z - k.z⟩) (hq' : q = ⟨k'.t - l'.t, k'.x - l'.x, k'.y - l'.y, k'.z - l'.z⟩) (m w : ℝ) :
    exchangeMassive m w 1 0 1 0 (spY ε₁ A₁ S₁) (spX ε₂ A₂ S₂) (spY ε₃ A₃ S₃) (spX ε₄ A₄ S₄) q =
      (-2 * (ε₂ * ε₄ * (ab A₁ A₃ * sb S₂ S₄)) + lw ε₁ ε₂ A₁ S₁ A₂ S₂ m₁ m₂ * lw ε₃ ε₄ A₃ S₃ A₄ S₄ m₃ m₄ / (m ^ 2 : ℝ)) / breitWigner m w q := by
  have d1 := divergence h1 h2 hq 1 0
  have d2 : contract (four q) (current 1 0 (spY ε₃ A₃ S₃) (spX ε₄ A₄ S₄)) = lw ε₃ ε₄ A₃ S₃ A₄ S₄ m₃ m₄ * -1 := by
    have := divergence h3 h4 rfl 1 0
    rw [hq']
    have e : contract (four ⟨k'.t - l'.t, k'.x - l'.x, k'.y - l'.y, k'.z - l'.z⟩) (current 1 0 (spY ε₃ A₃ S₃) (spX ε₄ A₄ S₄)) =
        -contract (four ⟨l'.t - k'.t, l'.x - k'.x, l'.y - k'.y, l'.z - k'.z⟩) (current 1 0 (spY ε₃ A₃ S₃) (spX ε₄ A₄ S₄)) := by
      simp only [contract, Fin.sum_univ_four, four, metric]
      simp
      ring
    rw [e, this]
    have := scal_direct ε₃ ε₄ A₃ S₃ A₄ S₄ (-m₃) m₄
    push_cast at this
    simp only [mul_zero, mul_one, zero_sub, sub_zero, this, lw]
    ring
  have d3 := scal_direct ε₁ ε₂ A₁ S₁ A₂ S₂ (-m₁) m₂
  push_cast at d3
  simp only [mul_zero, mul_one, zero_sub, sub_zero, d3] at d1
  rw [exchangeMassive]
  simp only [Complex.ofReal_one, Complex.ofReal_zero]
  rw [contract_direct, d1, d2]
  simp only [lw]
  ring

end
end Spinas
