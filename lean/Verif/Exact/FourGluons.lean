import Verif.Exact.Adjoint
import Verif.Exact.Helicity
import Mathlib.LinearAlgebra.Matrix.Determinant.Basic

/-! Amplitudes of four gluons depend on the fields only, and only two of each helicity can meet. -/

namespace Spinas
open Spec Matrix

/-! ### fields -/

/-- a 4 x 4 determinant -/
def det4 (a b d e : Fin 4 → ℂ) : ℂ :=
  (a 0 * b 1 - a 1 * b 0) * (d 2 * e 3 - d 3 * e 2) - (a 0 * b 2 - a 2 * b 0) * (d 1 * e 3 - d 3 * e 1) + (a 0 * b 3 - a 3 * b 0) * (d 1 * e 2 - d 2 * e 1) +
  (a 1 * b 2 - a 2 * b 1) * (d 0 * e 3 - d 3 * e 0) - (a 1 * b 3 - a 3 * b 1) * (d 0 * e 2 - d 2 * e 0) + (a 2 * b 3 - a 3 * b 2) * (d 0 * e 1 - d 1 * e 0)

theorem det4_eq (A : Matrix (Fin 4) (Fin 4) ℂ) : A.det = det4 (A 0) (A 1) (A 2) (A 3) := by
  rw [Matrix.det_succ_row_zero]
  simp [Fin.sum_univ_succ, Matrix.det_fin_three, Fin.succAbove, det4]
  ring

/-- determinants of products of vectors -/
def gram4 (a b d e a' b' d' e' : Vec) : ℂ :=
  det4 ![contract a a', contract a b', contract a d', contract a e'] ![contract b a', contract b b', contract b d', contract b e']
    ![contract d a', contract d b', contract d d', contract d e'] ![contract e a', contract e b', contract e d', contract e e']

theorem det4_gram (a b d e a' b' d' e' : Vec) : det4 a b d e * det4 a' b' d' e' = -gram4 a b d e a' b' d' e' := by
  have h1 := det4_eq (Matrix.of ![a, b, d, e])
  have h2 := det4_eq (Matrix.of ![a', b', d', e'])
  have h3 := det4_eq (Matrix.of ![a, b, d, e] * Matrix.diagonal metric * (Matrix.of ![a', b', d', e'])ᵀ)
  rw [Matrix.det_mul, Matrix.det_mul, Matrix.det_transpose, Matrix.det_diagonal, h1, h2] at h3
  have m : ∏ i, metric i = -1 := by simp [Fin.prod_univ_four, metric]
  have k : ∀ i j, (Matrix.of ![a, b, d, e] * Matrix.diagonal metric * (Matrix.of ![a', b', d', e'])ᵀ) i j = contract (![a, b, d, e] i) (![a', b', d', e'] j) := fun i j => by
    rw [Matrix.mul_apply]
    simp only [Matrix.mul_diagonal, Matrix.transpose_apply, Matrix.of_apply, contract]
    exact Finset.sum_congr rfl fun _ _ => by ring
  rw [m] at h3
  have e : det4 a b d e * -1 * det4 a' b' d' e' = gram4 a b d e a' b' d' e' := by
    refine h3.trans ?_
    simp only [gram4, det4, k]
    simp
  linear_combination -e

/-- `E·E' - B·B'` of two fields -/
noncomputable def fieldD (k : V4 ℝ) (ε : Vec) (k' : V4 ℝ) (ε' : Vec) : ℂ := contract (four k) ε' * contract (four k') ε - contract (four k) (four k') * contract ε ε'
/-- `E·B' + B·E'` of two fields -/
noncomputable def fieldP (k : V4 ℝ) (ε : Vec) (k' : V4 ℝ) (ε' : Vec) : ℂ := det4 (four k) ε (four k') ε'

/-- circularly polarised -/
structure Turns (k : V4 ℝ) (r : Bool) (ε : Vec) : Prop where
  x : k.y * ε 3 - k.z * ε 2 = (if r then -Complex.I else Complex.I) * (k.t * ε 1 - ε 0 * k.x)
  y : k.z * ε 1 - k.x * ε 3 = (if r then -Complex.I else Complex.I) * (k.t * ε 2 - ε 0 * k.y)
  z : k.x * ε 2 - k.y * ε 1 = (if r then -Complex.I else Complex.I) * (k.t * ε 3 - ε 0 * k.z)

theorem Turns.of {k : V4 ℝ} {r : Bool} {ε : Vec} (h : Circular k r ε) : Turns k r ε := ⟨h.x, h.y, h.z⟩
theorem Turns.back {k : V4 ℝ} {r : Bool} {ε : Vec} (h : Turns k r ε) : Turns (backward k) r ε := by
  constructor <;> simp only [backward] <;> push_cast
  · linear_combination -h.x
  · linear_combination -h.y
  · linear_combination -h.z

section
variable {k k' : V4 ℝ} {ε ε' : Vec}

theorem fieldD_eq : fieldD k ε k' ε' = (k.t * ε 1 - ε 0 * k.x) * (k'.t * ε' 1 - ε' 0 * k'.x) + (k.t * ε 2 - ε 0 * k.y) * (k'.t * ε' 2 - ε' 0 * k'.y) + (k.t * ε 3 - ε 0 * k.z) * (k'.t * ε' 3 - ε' 0 * k'.z) -
    ((k.y * ε 3 - k.z * ε 2) * (k'.y * ε' 3 - k'.z * ε' 2) + (k.z * ε 1 - k.x * ε 3) * (k'.z * ε' 1 - k'.x * ε' 3) + (k.x * ε 2 - k.y * ε 1) * (k'.x * ε' 2 - k'.y * ε' 1)) := by
  simp only [fieldD, Circular.contract_sum, four]
  simp
  ring
theorem fieldP_eq : fieldP k ε k' ε' = (k.t * ε 1 - ε 0 * k.x) * (k'.y * ε' 3 - k'.z * ε' 2) + (k.t * ε 2 - ε 0 * k.y) * (k'.z * ε' 1 - k'.x * ε' 3) + (k.t * ε 3 - ε 0 * k.z) * (k'.x * ε' 2 - k'.y * ε' 1) +
    ((k.y * ε 3 - k.z * ε 2) * (k'.t * ε' 1 - ε' 0 * k'.x) + (k.z * ε 1 - k.x * ε 3) * (k'.t * ε' 2 - ε' 0 * k'.y) + (k.x * ε 2 - k.y * ε 1) * (k'.t * ε' 3 - ε' 0 * k'.z)) := by
  simp only [fieldP, det4, four]
  simp
  ring

theorem Turns.same {r : Bool} (h : Turns k r ε) (h' : Turns k' r ε') : fieldP k ε k' ε' = (if r then -Complex.I else Complex.I) * fieldD k ε k' ε' := by
  rw [fieldP_eq, fieldD_eq, h.x, h.y, h.z, h'.x, h'.y, h'.z]
  have := Circular.i_sq r
  generalize (if r then -Complex.I else Complex.I) = j at *
  generalize (k.t : ℂ) * ε 1 - ε 0 * k.x = a1
  generalize (k.t : ℂ) * ε 2 - ε 0 * k.y = a2
  generalize (k.t : ℂ) * ε 3 - ε 0 * k.z = a3
  generalize (k'.t : ℂ) * ε' 1 - ε' 0 * k'.x = b1
  generalize (k'.t : ℂ) * ε' 2 - ε' 0 * k'.y = b2
  generalize (k'.t : ℂ) * ε' 3 - ε' 0 * k'.z = b3
  linear_combination (a1 * b1 + a2 * b2 + a3 * b3) * j * this
theorem Turns.differ {r : Bool} (h : Turns k r ε) (h' : Turns k' (!r) ε') : fieldP k ε k' ε' = 0 ∧ fieldD k ε k' ε' = 0 := by
  rw [fieldP_eq, fieldD_eq, h.x, h.y, h.z, h'.x, h'.y, h'.z]
  have i2 := Complex.I_sq
  constructor <;> cases r <;> simp <;> ring_nf <;> simp only [i2] <;> ring
end

/-! ### exchanged gluons -/

theorem contract_yangMills (k₁ k₂ k₃ k₄ : V4 ℝ) (x y z w : Vec) : contract (yangMills k₁ x k₂ y) (yangMills k₃ z k₄ w) =
    contract x y * contract z w * (contract (four k₁) (four k₃) - contract (four k₁) (four k₄) - contract (four k₂) (four k₃) + contract (four k₂) (four k₄)) +
    contract x y * (contract (four k₃) z + 2 * contract (four k₄) z) * (contract (four k₁) w - contract (four k₂) w) -
    contract x y * (2 * contract (four k₃) w + contract (four k₄) w) * (contract (four k₁) z - contract (four k₂) z) +
    (contract (four k₁) x + 2 * contract (four k₂) x) * contract z w * (contract (four k₃) y - contract (four k₄) y) +
    (contract (four k₁) x + 2 * contract (four k₂) x) * (contract (four k₃) z + 2 * contract (four k₄) z) * contract y w -
    (contract (four k₁) x + 2 * contract (four k₂) x) * (2 * contract (four k₃) w + contract (four k₄) w) * contract y z -
    (2 * contract (four k₁) y + contract (four k₂) y) * contract z w * (contract (four k₃) x - contract (four k₄) x) -
    (2 * contract (four k₁) y + contract (four k₂) y) * (contract (four k₃) z + 2 * contract (four k₄) z) * contract x w +
    (2 * contract (four k₁) y + contract (four k₂) y) * (2 * contract (four k₃) w + contract (four k₄) w) * contract x z := by
  have l : ∀ (k l : V4 ℝ) (x y v : Vec), contract (yangMills k x l y) v = contract x y * (contract (four k) v - contract (four l) v) + (contract (four k) x + 2 * contract (four l) x) * contract y v - (2 * contract (four k) y + contract (four l) y) * contract x v := fun k l x y v => by
    simp only [Circular.contract_sum, yangMills, Pi.add_apply, Pi.mul_apply, Pi.ofNat_apply]
    ring
  have sw : ∀ u v : Vec, contract u v = contract v u := fun u v => by simp only [Circular.contract_sum]; ring
  have r : ∀ v : Vec, contract v (yangMills k₃ z k₄ w) = contract z w * (contract v (four k₃) - contract v (four k₄)) + (contract (four k₃) z + 2 * contract (four k₄) z) * contract v w - (2 * contract (four k₃) w + contract (four k₄) w) * contract v z := fun v => by
    rw [sw v, l, sw (four k₃) v, sw (four k₄) v, sw z v, sw w v]
  rw [l, r, r, r, r, sw y (four k₃), sw y (four k₄), sw x (four k₃), sw x (four k₄)]
  ring

/-- four lines on shell -/
structure Four (k : Fin 4 → V4 ℝ) (ε : Fin 4 → Vec) : Prop where
  sum : plus (plus (k 0) (k 1)) (plus (k 2) (k 3)) = ⟨0, 0, 0, 0⟩
  light : ∀ n, msq (k n) = 0
  across : ∀ n, contract (four (k n)) (ε n) = 0

/-- the amplitude apart from colours and poles -/
noncomputable def fields (k : Fin 4 → V4 ℝ) (ε : Fin 4 → Vec) : ℂ :=
  let D := fun i j => fieldD (k i) (ε i) (k j) (ε j)
  let P := fun i j => fieldP (k i) (ε i) (k j) (ε j)
  4 * (D 0 1 * D 2 3 + P 0 1 * P 2 3 + (D 0 2 * D 1 3 + P 0 2 * P 1 3) + (D 0 3 * D 1 2 + P 0 3 * P 1 2))

theorem denominator_gluon (c : Constants) (q : V4 ℝ) : denominator c .gluon q = (msq q : ℝ) := by
  simp [denominator, breitWigner, Constants.bosonMass, Constants.bosonWidth]
  rfl

theorem gluonExchange_eq (c : Constants) (a b d e : Line) : gluonExchange c a b d e =
    contract a.ε d.ε * contract b.ε e.ε - contract a.ε e.ε * contract b.ε d.ε + contract (yangMills a.k a.ε b.k b.ε) (yangMills d.k d.ε e.k e.ε) / (msq (plus a.k b.k) : ℝ) := by
  have h : propagate c .gluon (plus a.k b.k) (yangMills a.k a.ε b.k b.ε) = (-(((msq (plus a.k b.k) : ℝ) : ℂ))⁻¹) • yangMills a.k a.ε b.k b.ε := by
    unfold propagate
    rw [denominator_gluon]
    simp [Boson.massive]
  rw [gluonExchange, h, (Lin.contract_left _).map_smul, smul_eq_mul]
  ring

theorem contract_four_four' (k l : V4 ℝ) : contract (four k) (four l) = (dot k l : ℂ) := by
  simp [Circular.contract_sum, four, dot]

namespace Four
variable {k : Fin 4 → V4 ℝ} {ε : Fin 4 → Vec} (h : Four k ε)
include h

theorem last : four (k 3) = -(four (k 0) + four (k 1) + four (k 2)) := by
  have := h.sum
  simp only [plus, V4.mk.injEq] at this
  obtain ⟨h0, h1, h2, h3⟩ := this
  have e : ∀ x y z t : ℝ, x + y + (z + t) = 0 → (t : ℂ) = -(x + y + z) := fun x y z t hh => by
    have : t = -(x + y + z) := by linarith
    rw [this]; push_cast; ring
  ext μ
  fin_cases μ
  · exact e _ _ _ _ h0
  · exact e _ _ _ _ h1
  · exact e _ _ _ _ h2
  · exact e _ _ _ _ h3

theorem contract_last (v : Vec) : contract (four (k 3)) v = -(contract (four (k 0)) v + contract (four (k 1)) v + contract (four (k 2)) v) := by
  rw [h.last]; simp only [Circular.contract_sum, Pi.neg_apply, Pi.add_apply]; ring

theorem lights (n : Fin 4) : contract (four (k n)) (four (k n)) = 0 := by
  have := h.light n
  rw [contract_four_four']
  rw [show dot (k n) (k n) = msq (k n) by simp only [dot, msq]; ring, this, Complex.ofReal_zero]

theorem pole (i j : Fin 4) : ((msq (plus (k i) (k j)) : ℝ) : ℂ) = 2 * contract (four (k i)) (four (k j)) := by
  rw [contract_four_four']
  have hi := h.light i
  have hj := h.light j
  have : msq (plus (k i) (k j)) = 2 * dot (k i) (k j) := by
    simp only [msq, plus, dot] at *
    linear_combination hi + hj
  rw [this]; push_cast; ring

/-- products of momenta and vectors in terms of 16 of them -/
theorem products :
    (contract (four (k 0)) (four (k 3)) = -(contract (four (k 0)) (four (k 1)) + contract (four (k 0)) (four (k 2))) ∧ contract (four (k 1)) (four (k 0)) = contract (four (k 0)) (four (k 1)) ∧
      contract (four (k 2)) (four (k 0)) = contract (four (k 0)) (four (k 2)) ∧ contract (four (k 1)) (four (k 2)) = -(contract (four (k 0)) (four (k 1)) + contract (four (k 0)) (four (k 2))) ∧
      contract (four (k 2)) (four (k 1)) = -(contract (four (k 0)) (four (k 1)) + contract (four (k 0)) (four (k 2))) ∧ contract (four (k 1)) (four (k 3)) = contract (four (k 0)) (four (k 2)) ∧
      contract (four (k 2)) (four (k 3)) = contract (four (k 0)) (four (k 1)) ∧ contract (four (k 3)) (four (k 0)) = -(contract (four (k 0)) (four (k 1)) + contract (four (k 0)) (four (k 2))) ∧
      contract (four (k 3)) (four (k 1)) = contract (four (k 0)) (four (k 2)) ∧ contract (four (k 3)) (four (k 2)) = contract (four (k 0)) (four (k 1))) ∧
    (contract (four (k 3)) (ε 0) = -(contract (four (k 1)) (ε 0) + contract (four (k 2)) (ε 0)) ∧ contract (four (k 3)) (ε 1) = -(contract (four (k 0)) (ε 1) + contract (four (k 2)) (ε 1)) ∧
      contract (four (k 3)) (ε 2) = -(contract (four (k 0)) (ε 2) + contract (four (k 1)) (ε 2)) ∧ contract (four (k 2)) (ε 3) = -(contract (four (k 0)) (ε 3) + contract (four (k 1)) (ε 3))) ∧
    ((∀ i n, contract (ε i) (four (k n)) = contract (four (k n)) (ε i)) ∧ contract (ε 1) (ε 0) = contract (ε 0) (ε 1) ∧ contract (ε 2) (ε 0) = contract (ε 0) (ε 2) ∧ contract (ε 3) (ε 0) = contract (ε 0) (ε 3) ∧
      contract (ε 2) (ε 1) = contract (ε 1) (ε 2) ∧ contract (ε 3) (ε 1) = contract (ε 1) (ε 3) ∧ contract (ε 3) (ε 2) = contract (ε 2) (ε 3)) := by
  have sw : ∀ u v : Vec, contract u v = contract v u := fun u v => by simp only [Circular.contract_sum]; ring
  have l0 := h.contract_last (four (k 0))
  have l1 := h.contract_last (four (k 1))
  have l2 := h.contract_last (four (k 2))
  have l3 := h.contract_last (four (k 3))
  rw [h.lights, sw (four (k 1)), sw (four (k 2))] at l0
  rw [h.lights, sw (four (k 2))] at l1
  rw [h.lights] at l2
  rw [h.lights, sw (four (k 0)), sw (four (k 1)), sw (four (k 2))] at l3
  have e12 : contract (four (k 1)) (four (k 2)) = -(contract (four (k 0)) (four (k 1)) + contract (four (k 0)) (four (k 2))) := by
    linear_combination (1 / 2) * (l0 + l1 + l2) - (1 / 2) * l3
  have e0 := h.contract_last (ε 0)
  have e1 := h.contract_last (ε 1)
  have e2 := h.contract_last (ε 2)
  have e3 := h.contract_last (ε 3)
  rw [h.across] at e0 e1 e2 e3
  refine ⟨⟨?_, sw _ _, sw _ _, e12, (sw _ _).trans e12, ?_, ?_, ?_, ?_, ?_⟩, ⟨?_, ?_, ?_, ?_⟩, ⟨fun _ _ => sw _ _, sw _ _, sw _ _, sw _ _, sw _ _, sw _ _, sw _ _⟩⟩
  · rw [sw]; linear_combination l0
  · rw [sw]; linear_combination l1 - e12
  · rw [sw]; linear_combination l2 - e12
  · linear_combination l0
  · linear_combination l1 - e12
  · linear_combination l2 - e12
  · linear_combination e0
  · linear_combination e1
  · linear_combination e2
  · linear_combination e3

/-- the fields in terms of products -/
theorem fields_gram : fields k ε = 4 * (fieldD (k 0) (ε 0) (k 1) (ε 1) * fieldD (k 2) (ε 2) (k 3) (ε 3) - gram4 (four (k 0)) (ε 0) (four (k 1)) (ε 1) (four (k 2)) (ε 2) (four (k 3)) (ε 3) +
    (fieldD (k 0) (ε 0) (k 2) (ε 2) * fieldD (k 1) (ε 1) (k 3) (ε 3) - gram4 (four (k 0)) (ε 0) (four (k 2)) (ε 2) (four (k 1)) (ε 1) (four (k 3)) (ε 3)) +
    (fieldD (k 0) (ε 0) (k 3) (ε 3) * fieldD (k 1) (ε 1) (k 2) (ε 2) - gram4 (four (k 0)) (ε 0) (four (k 3)) (ε 3) (four (k 1)) (ε 1) (four (k 2)) (ε 2))) := by
  have g : ∀ a b d e a' b' d' e' : Vec, gram4 a b d e a' b' d' e' = -(det4 a b d e * det4 a' b' d' e') := fun a b d e a' b' d' e' => by rw [det4_gram, neg_neg]
  simp only [g, fields, fieldP]
  ring

variable (c : Constants) (hS : msq (plus (k 0) (k 1)) ≠ 0) (hT : msq (plus (k 0) (k 2)) ≠ 0) (hU : msq (plus (k 0) (k 3)) ≠ 0)

include hS hT in
theorem st : ((msq (plus (k 0) (k 1)) : ℝ) : ℂ) * (msq (plus (k 0) (k 2)) : ℝ) *
    (gluonExchange c ⟨.gluon, k 0, ε 0⟩ ⟨.gluon, k 1, ε 1⟩ ⟨.gluon, k 2, ε 2⟩ ⟨.gluon, k 3, ε 3⟩ + gluonExchange c ⟨.gluon, k 0, ε 0⟩ ⟨.gluon, k 2, ε 2⟩ ⟨.gluon, k 1, ε 1⟩ ⟨.gluon, k 3, ε 3⟩) = fields k ε := by
  have hS' : ((msq (plus (k 0) (k 1)) : ℝ) : ℂ) ≠ 0 := by exact_mod_cast hS
  have hT' : ((msq (plus (k 0) (k 2)) : ℝ) : ℂ) ≠ 0 := by exact_mod_cast hT
  have p1 := h.pole 0 1
  have p2 := h.pole 0 2
  obtain ⟨⟨a1, a2, a3, a4, a5, a6, a7, a8, a9, a10⟩, ⟨b1, b2, b3, b4⟩, ⟨d0, d1, d2, d3, d4, d5, d6⟩⟩ := h.products
  rw [gluonExchange_eq, gluonExchange_eq]
  simp only []
  generalize ((msq (plus (k 0) (k 1)) : ℝ) : ℂ) = S at *
  generalize ((msq (plus (k 0) (k 2)) : ℝ) : ℂ) = T at *
  have e : ∀ x y X Y : ℂ, S * T * (x + X / S + (y + Y / T)) = S * T * (x + y) + T * X + S * Y := fun x y X Y => by field_simp; ring
  rw [e, h.fields_gram, p1, p2]
  simp only [contract_yangMills, fieldD, gram4, det4, Matrix.cons_val, h.lights, h.across, d0, a1, a2, a3, a4, a5, a6, a7, a8, a9, a10, b1, b2, b3, b4, d1, d2, d3, d4, d5, d6]
  ring

include hT hU in
theorem tu : ((msq (plus (k 0) (k 2)) : ℝ) : ℂ) * (msq (plus (k 0) (k 3)) : ℝ) *
    (gluonExchange c ⟨.gluon, k 0, ε 0⟩ ⟨.gluon, k 2, ε 2⟩ ⟨.gluon, k 1, ε 1⟩ ⟨.gluon, k 3, ε 3⟩ + gluonExchange c ⟨.gluon, k 0, ε 0⟩ ⟨.gluon, k 3, ε 3⟩ ⟨.gluon, k 1, ε 1⟩ ⟨.gluon, k 2, ε 2⟩) = -fields k ε := by
  have hS' : ((msq (plus (k 0) (k 2)) : ℝ) : ℂ) ≠ 0 := by exact_mod_cast hT
  have hT' : ((msq (plus (k 0) (k 3)) : ℝ) : ℂ) ≠ 0 := by exact_mod_cast hU
  have p1 := h.pole 0 2
  have p2 := h.pole 0 3
  obtain ⟨⟨a1, a2, a3, a4, a5, a6, a7, a8, a9, a10⟩, ⟨b1, b2, b3, b4⟩, ⟨d0, d1, d2, d3, d4, d5, d6⟩⟩ := h.products
  rw [gluonExchange_eq, gluonExchange_eq]
  simp only []
  generalize ((msq (plus (k 0) (k 2)) : ℝ) : ℂ) = S at *
  generalize ((msq (plus (k 0) (k 3)) : ℝ) : ℂ) = T at *
  have e : ∀ x y X Y : ℂ, S * T * (x + X / S + (y + Y / T)) = S * T * (x + y) + T * X + S * Y := fun x y X Y => by field_simp; ring
  rw [e, h.fields_gram, p1, p2]
  simp only [contract_yangMills, fieldD, gram4, det4, Matrix.cons_val, h.lights, h.across, d0, a1, a2, a3, a4, a5, a6, a7, a8, a9, a10, b1, b2, b3, b4, d1, d2, d3, d4, d5, d6]
  ring

include hU hS in
theorem us : ((msq (plus (k 0) (k 3)) : ℝ) : ℂ) * (msq (plus (k 0) (k 1)) : ℝ) *
    (gluonExchange c ⟨.gluon, k 0, ε 0⟩ ⟨.gluon, k 3, ε 3⟩ ⟨.gluon, k 1, ε 1⟩ ⟨.gluon, k 2, ε 2⟩ - gluonExchange c ⟨.gluon, k 0, ε 0⟩ ⟨.gluon, k 1, ε 1⟩ ⟨.gluon, k 2, ε 2⟩ ⟨.gluon, k 3, ε 3⟩) = fields k ε := by
  have hS' : ((msq (plus (k 0) (k 3)) : ℝ) : ℂ) ≠ 0 := by exact_mod_cast hU
  have hT' : ((msq (plus (k 0) (k 1)) : ℝ) : ℂ) ≠ 0 := by exact_mod_cast hS
  have p1 := h.pole 0 3
  have p2 := h.pole 0 1
  obtain ⟨⟨a1, a2, a3, a4, a5, a6, a7, a8, a9, a10⟩, ⟨b1, b2, b3, b4⟩, ⟨d0, d1, d2, d3, d4, d5, d6⟩⟩ := h.products
  rw [gluonExchange_eq, gluonExchange_eq]
  simp only []
  generalize ((msq (plus (k 0) (k 3)) : ℝ) : ℂ) = S at *
  generalize ((msq (plus (k 0) (k 1)) : ℝ) : ℂ) = T at *
  have e : ∀ x y X Y : ℂ, S * T * (x + X / S - (y + Y / T)) = S * T * (x - y) + T * X - S * Y := fun x y X Y => by field_simp; ring
  rw [e, h.fields_gram, p1, p2]
  simp only [contract_yangMills, fieldD, gram4, det4, Matrix.cons_val, h.lights, h.across, d0, a1, a2, a3, a4, a5, a6, a7, a8, a9, a10, b1, b2, b3, b4, d1, d2, d3, d4, d5, d6]
  ring


/-- No dependence on the gauge: with the colours, too, only the fields matter. -/
theorem vanishes (g₀ g₁ g₂ g₃ : Fin 8) (h0 : fields k ε = 0) (hS : msq (plus (k 0) (k 1)) ≠ 0) (hT : msq (plus (k 0) (k 2)) ≠ 0) (hU : msq (plus (k 0) (k 3)) ≠ 0) :
    fourGluons c g₀ g₁ g₂ g₃ ⟨.gluon, k 0, ε 0⟩ ⟨.gluon, k 1, ε 1⟩ ⟨.gluon, k 2, ε 2⟩ ⟨.gluon, k 3, ε 3⟩ = 0 := by
  have hS' : ((msq (plus (k 0) (k 1)) : ℝ) : ℂ) ≠ 0 := by exact_mod_cast hS
  have hT' : ((msq (plus (k 0) (k 2)) : ℝ) : ℂ) ≠ 0 := by exact_mod_cast hT
  have hU' : ((msq (plus (k 0) (k 3)) : ℝ) : ℂ) ≠ 0 := by exact_mod_cast hU
  have e1 := h.st c hS hT
  have e2 := h.us c hS hU
  rw [h0, mul_eq_zero, or_iff_right (mul_ne_zero hS' hT')] at e1
  rw [h0, mul_eq_zero, or_iff_right (mul_ne_zero hU' hS')] at e2
  have j := adjoint_jacobi g₀ g₁ g₂ g₃
  unfold fourGluons
  rw [if_pos ⟨rfl, rfl, rfl, rfl⟩]
  generalize gluonExchange c ⟨.gluon, k 0, ε 0⟩ ⟨.gluon, k 1, ε 1⟩ ⟨.gluon, k 2, ε 2⟩ ⟨.gluon, k 3, ε 3⟩ = x at *
  linear_combination (c.gs : ℂ) ^ 2 * (adjoint g₀ g₂ g₁ g₃ * e1 + adjoint g₀ g₃ g₁ g₂ * e2 + x * j)

/-- the sum over colours -/
theorem colours (hS : msq (plus (k 0) (k 1)) ≠ 0) (hT : msq (plus (k 0) (k 2)) ≠ 0) (hU : msq (plus (k 0) (k 3)) ≠ 0) :
    ∑ g₀, ∑ g₁, ∑ g₂, ∑ g₃, ‖fourGluons c g₀ g₁ g₂ g₃ ⟨.gluon, k 0, ε 0⟩ ⟨.gluon, k 1, ε 1⟩ ⟨.gluon, k 2, ε 2⟩ ⟨.gluon, k 3, ε 3⟩‖ ^ 2 =
      36 * c.gs ^ 4 * ‖fields k ε‖ ^ 2 * (1 / (msq (plus (k 0) (k 1)) * msq (plus (k 0) (k 2))) ^ 2 + 1 / (msq (plus (k 0) (k 2)) * msq (plus (k 0) (k 3))) ^ 2 + 1 / (msq (plus (k 0) (k 3)) * msq (plus (k 0) (k 1))) ^ 2) := by
  have q : ∀ (x y : ℝ) (a F : ℂ), x ≠ 0 → y ≠ 0 → (x : ℂ) * y * a = F → ‖a‖ ^ 2 = ‖F‖ ^ 2 * (1 / (x * y) ^ 2) := fun x y a F hx hy e => by
    rw [← e, norm_mul, norm_mul, Complex.norm_real, Complex.norm_real, mul_pow, mul_pow, Real.norm_eq_abs, Real.norm_eq_abs, sq_abs, sq_abs]
    field_simp
  have e1 := q _ _ _ _ hS hT (h.st c hS hT)
  have e2 := q _ _ _ _ hT hU (h.tu c hT hU)
  have e3 := q _ _ _ _ hU hS (h.us c hS hU)
  rw [norm_neg] at e2
  have n := adjoint_norm (gluonExchange c ⟨.gluon, k 0, ε 0⟩ ⟨.gluon, k 1, ε 1⟩ ⟨.gluon, k 2, ε 2⟩ ⟨.gluon, k 3, ε 3⟩) (gluonExchange c ⟨.gluon, k 0, ε 0⟩ ⟨.gluon, k 2, ε 2⟩ ⟨.gluon, k 1, ε 1⟩ ⟨.gluon, k 3, ε 3⟩)
    (gluonExchange c ⟨.gluon, k 0, ε 0⟩ ⟨.gluon, k 3, ε 3⟩ ⟨.gluon, k 1, ε 1⟩ ⟨.gluon, k 2, ε 2⟩)
  have f : ∀ g₀ g₁ g₂ g₃ : Fin 8, ‖fourGluons c g₀ g₁ g₂ g₃ ⟨.gluon, k 0, ε 0⟩ ⟨.gluon, k 1, ε 1⟩ ⟨.gluon, k 2, ε 2⟩ ⟨.gluon, k 3, ε 3⟩‖ ^ 2 = c.gs ^ 4 * ‖adjoint g₀ g₁ g₂ g₃ * gluonExchange c ⟨.gluon, k 0, ε 0⟩ ⟨.gluon, k 1, ε 1⟩ ⟨.gluon, k 2, ε 2⟩ ⟨.gluon, k 3, ε 3⟩ +
      adjoint g₀ g₂ g₁ g₃ * gluonExchange c ⟨.gluon, k 0, ε 0⟩ ⟨.gluon, k 2, ε 2⟩ ⟨.gluon, k 1, ε 1⟩ ⟨.gluon, k 3, ε 3⟩ + adjoint g₀ g₃ g₁ g₂ * gluonExchange c ⟨.gluon, k 0, ε 0⟩ ⟨.gluon, k 3, ε 3⟩ ⟨.gluon, k 1, ε 1⟩ ⟨.gluon, k 2, ε 2⟩‖ ^ 2 := fun g₀ g₁ g₂ g₃ => by
    unfold fourGluons
    rw [if_pos ⟨rfl, rfl, rfl, rfl⟩, norm_mul, mul_pow, norm_pow, Complex.norm_real, Real.norm_eq_abs, sq_abs]
    ring
  simp only [f, ← Finset.mul_sum]
  rw [n, e1, e2, e3]
  ring

omit h in
/-- Two of each helicity are needed (all coming in). -/
theorem helicities {r : Fin 4 → Bool} (hr : ∀ n, Turns (k n) (r n) (ε n)) : fields k ε =
    if r 0 = r 1 ∧ r 2 = !r 0 ∧ r 3 = !r 0 then 8 * (fieldD (k 0) (ε 0) (k 1) (ε 1) * fieldD (k 2) (ε 2) (k 3) (ε 3))
    else if r 0 = r 2 ∧ r 1 = !r 0 ∧ r 3 = !r 0 then 8 * (fieldD (k 0) (ε 0) (k 2) (ε 2) * fieldD (k 1) (ε 1) (k 3) (ε 3))
    else if r 0 = r 3 ∧ r 1 = !r 0 ∧ r 2 = !r 0 then 8 * (fieldD (k 0) (ε 0) (k 3) (ε 3) * fieldD (k 1) (ε 1) (k 2) (ε 2)) else 0 := by
  have two : ∀ i j i' j', fieldD (k i) (ε i) (k j) (ε j) * fieldD (k i') (ε i') (k j') (ε j') + fieldP (k i) (ε i) (k j) (ε j) * fieldP (k i') (ε i') (k j') (ε j') =
      if r i = r j ∧ r i' = r j' ∧ r i' = !r i then 2 * (fieldD (k i) (ε i) (k j) (ε j) * fieldD (k i') (ε i') (k j') (ε j')) else 0 := by
    intro i j i' j'
    have hi := hr i
    have hj := hr j
    have hi' := hr i'
    have hj' := hr j'
    have i2 := Complex.I_sq
    cases e1 : r i <;> cases e2 : r j <;> cases e3 : r i' <;> cases e4 : r j' <;> rw [e1] at hi <;> rw [e2] at hj <;> rw [e3] at hi' <;> rw [e4] at hj' <;>
    first
    | rw [(hi.differ hj).1, (hi.differ hj).2]; simp
    | rw [(hi'.differ hj').1, (hi'.differ hj').2]; simp
    | rw [hi.same hj, hi'.same hj']
      simp
      generalize fieldD (k i) (ε i) (k j) (ε j) = X
      generalize fieldD (k i') (ε i') (k j') (ε j') = Y
      ring_nf
      simp only [i2]
      ring
  have e : fields k ε = 4 * ((fieldD (k 0) (ε 0) (k 1) (ε 1) * fieldD (k 2) (ε 2) (k 3) (ε 3) + fieldP (k 0) (ε 0) (k 1) (ε 1) * fieldP (k 2) (ε 2) (k 3) (ε 3)) +
      (fieldD (k 0) (ε 0) (k 2) (ε 2) * fieldD (k 1) (ε 1) (k 3) (ε 3) + fieldP (k 0) (ε 0) (k 2) (ε 2) * fieldP (k 1) (ε 1) (k 3) (ε 3)) +
      (fieldD (k 0) (ε 0) (k 3) (ε 3) * fieldD (k 1) (ε 1) (k 2) (ε 2) + fieldP (k 0) (ε 0) (k 3) (ε 3) * fieldP (k 1) (ε 1) (k 2) (ε 2))) := rfl
  rw [e, two, two, two]
  generalize fieldD (k 0) (ε 0) (k 1) (ε 1) * fieldD (k 2) (ε 2) (k 3) (ε 3) = X
  generalize fieldD (k 0) (ε 0) (k 2) (ε 2) * fieldD (k 1) (ε 1) (k 3) (ε 3) = Y
  generalize fieldD (k 0) (ε 0) (k 3) (ε 3) * fieldD (k 1) (ε 1) (k 2) (ε 2) = Z
  cases r 0 <;> cases r 1 <;> cases r 2 <;> cases r 3 <;> simp <;> ring
end Four

end Spinas
