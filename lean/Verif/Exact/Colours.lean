import Verif.Exact.Fermions
import Verif.Spec.Bosons

/-! Sums over the colours of two gluons on a fermion line. -/

namespace Spinas
open Spec Matrix

/-- half the Gell-Mann matrices -/
noncomputable def gen (γ : Fin 8) : Matrix (Fin 3) (Fin 3) ℂ := (1 / 2 : ℂ) • gellMann γ

theorem gen_star (γ : Fin 8) (i j : Fin 3) : star (gen γ i j) = gen γ j i := by
  fin_cases γ <;> fin_cases i <;> fin_cases j <;> simp [gen, gellMann]

theorem gen_fierz (i j k l : Fin 3) : ∑ γ, gen γ i j * gen γ k l = 1 / 2 * (delta i l * delta k j) - 1 / 6 * (delta i j * delta k l) := by
  rw [← gluonColour_eq, gluonColour]
  exact Finset.sum_congr rfl fun γ _ => by simp only [gen, Matrix.smul_apply, smul_eq_mul]; ring

theorem sum_pairs (a b a' b' : Fin 3 → Fin 8 → ℂ) : ∑ γ, ∑ γ', (∑ k, a k γ * b k γ') * (∑ m, a' m γ * b' m γ') = ∑ k, ∑ m, (∑ γ, a k γ * a' m γ) * (∑ γ, b k γ * b' m γ) := by
  simp only [Fin.sum_univ_three, add_mul, mul_add, Finset.sum_add_distrib, Finset.sum_mul_sum, mul_mul_mul_comm]

theorem gen_same : ∑ i, ∑ j, ∑ γ, ∑ γ', (gen γ * gen γ') i j * star ((gen γ * gen γ') i j) = 16 / 3 := by
  have e : ∀ i j, ∑ γ, ∑ γ', (gen γ * gen γ') i j * star ((gen γ * gen γ') i j) = ∑ k, ∑ m, (∑ γ, gen γ i k * gen γ m i) * (∑ γ, gen γ k j * gen γ j m) := by
    intro i j
    simp only [Matrix.mul_apply, star_sum, star_mul', gen_star]
    exact sum_pairs (fun k γ => gen γ i k) (fun k γ => gen γ k j) (fun m γ => gen γ m i) (fun m γ => gen γ j m)
  simp only [e, gen_fierz]
  simp [Fin.sum_univ_three, delta]
  norm_num

theorem gen_cross : ∑ i, ∑ j, ∑ γ, ∑ γ', (gen γ * gen γ') i j * star ((gen γ' * gen γ) i j) = -(2 / 3) := by
  have e : ∀ i j, ∑ γ, ∑ γ', (gen γ * gen γ') i j * star ((gen γ' * gen γ) i j) = ∑ k, ∑ m, (∑ γ, gen γ i k * gen γ j m) * (∑ γ, gen γ k j * gen γ m i) := by
    intro i j
    simp only [Matrix.mul_apply, star_sum, star_mul', gen_star]
    simp only [mul_comm (gen _ _ i)]
    exact sum_pairs (fun k γ => gen γ i k) (fun k γ => gen γ k j) (fun m γ => gen γ j m) (fun m γ => gen γ m i)
  simp only [e, gen_fierz]
  simp [Fin.sum_univ_three, delta]
  norm_num

/-- amplitudes of the two orders of colour that are real multiples of each other -/
theorem gen_norm (x y : ℝ) (M : ℂ) : ∑ i, ∑ j, ∑ γ, ∑ γ', ‖(gen γ' * gen γ) i j * (x * M) + (gen γ * gen γ') i j * (y * M)‖ ^ 2 = (16 / 3 * (x ^ 2 + y ^ 2) - 4 / 3 * (x * y)) * ‖M‖ ^ 2 := by
  have n : ∀ z : ℂ, ((‖z‖ ^ 2 : ℝ) : ℂ) = z * star z := fun z => by rw [Complex.star_def, Complex.mul_conj, Complex.normSq_eq_norm_sq]
  have s2 : ∑ i, ∑ j, ∑ γ, ∑ γ', (gen γ' * gen γ) i j * star ((gen γ' * gen γ) i j) = 16 / 3 := by
    rw [← gen_same]; exact Finset.sum_congr rfl fun i _ => Finset.sum_congr rfl fun j _ => Finset.sum_comm
  have c2 : ∑ i, ∑ j, ∑ γ, ∑ γ', (gen γ' * gen γ) i j * star ((gen γ * gen γ') i j) = -(2 / 3) := by
    rw [← gen_cross]; exact Finset.sum_congr rfl fun i _ => Finset.sum_congr rfl fun j _ => Finset.sum_comm
  have e : ∀ i j γ γ', ((‖(gen γ' * gen γ) i j * (x * M) + (gen γ * gen γ') i j * (y * M)‖ ^ 2 : ℝ) : ℂ) =
      (x ^ 2 * (M * star M)) * ((gen γ' * gen γ) i j * star ((gen γ' * gen γ) i j)) + (y ^ 2 * (M * star M)) * ((gen γ * gen γ') i j * star ((gen γ * gen γ') i j)) +
      (x * y * (M * star M)) * ((gen γ' * gen γ) i j * star ((gen γ * gen γ') i j)) + (x * y * (M * star M)) * ((gen γ * gen γ') i j * star ((gen γ' * gen γ) i j)) := by
    intro i j γ γ'
    rw [n]
    simp only [star_add, star_mul', Complex.star_def, Complex.conj_ofReal]
    ring
  have : ((∑ i, ∑ j, ∑ γ, ∑ γ', ‖(gen γ' * gen γ) i j * (x * M) + (gen γ * gen γ') i j * (y * M)‖ ^ 2 : ℝ) : ℂ) = (((16 / 3 * (x ^ 2 + y ^ 2) - 4 / 3 * (x * y)) * ‖M‖ ^ 2 : ℝ) : ℂ) := by
    rw [Complex.ofReal_sum]
    simp only [Complex.ofReal_sum, e, Finset.sum_add_distrib, ← Finset.mul_sum]
    rw [s2, gen_same, c2, gen_cross, Complex.ofReal_mul, n]
    push_cast
    ring
  exact_mod_cast this

end Spinas
