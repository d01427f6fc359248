import Verif.SM.Compton
import Verif.SM.FourFermion

/-! Sums over the spins of four fermions: squares of combinations of the six products of an angle and a square bracket. -/

namespace Spinas
open Spec Props Matrix

/-! ### products of brackets times conjugated products -/

theorem adj2_add_left (X X' Y : M2) : adj2 (X + X') Y = adj2 X Y + adj2 X' Y := by simp only [adj2, Matrix.add_apply]; ring
theorem adj2_add_right (X Y Y' : M2) : adj2 X (Y + Y') = adj2 X Y + adj2 X Y' := by simp only [adj2, Matrix.add_apply]; ring

/-- `tr (G₁ᵀ ε G₃ ε G₂ᵀ ε G₄ ε)` up to sign: four brackets that form a cycle -/
def cyc (G₁ G₃ G₂ G₄ : M2) : ℂ :=
  (G₁ 1 1 * G₃ 0 0 - G₁ 0 1 * G₃ 1 0) * (G₂ 1 1 * G₄ 0 0 - G₂ 0 1 * G₄ 1 0) - (G₁ 1 0 * G₃ 0 0 - G₁ 0 0 * G₃ 1 0) * (G₂ 1 1 * G₄ 0 1 - G₂ 0 1 * G₄ 1 1) -
  (G₁ 1 1 * G₃ 0 1 - G₁ 0 1 * G₃ 1 1) * (G₂ 1 0 * G₄ 0 0 - G₂ 0 0 * G₄ 1 0) + (G₁ 1 0 * G₃ 0 1 - G₁ 0 0 * G₃ 1 1) * (G₂ 1 0 * G₄ 0 1 - G₂ 0 0 * G₄ 1 1)

theorem cyc_add_1 (X X' Y Z W : M2) : cyc (X + X') Y Z W = cyc X Y Z W + cyc X' Y Z W := by simp only [cyc, Matrix.add_apply]; ring
theorem cyc_add_2 (X Y Y' Z W : M2) : cyc X (Y + Y') Z W = cyc X Y Z W + cyc X Y' Z W := by simp only [cyc, Matrix.add_apply]; ring
theorem cyc_add_3 (X Y Z Z' W : M2) : cyc X Y (Z + Z') W = cyc X Y Z W + cyc X Y Z' W := by simp only [cyc, Matrix.add_apply]; ring
theorem cyc_add_4 (X Y Z W W' : M2) : cyc X Y Z (W + W') = cyc X Y Z W + cyc X Y Z W' := by simp only [cyc, Matrix.add_apply]; ring

theorem ab_cycle (x₁ x₂ x₃ x₄ y₁ y₂ y₃ y₄ : V2) : (ab x₁ x₃ * ab x₂ x₄) * star (ab y₁ y₄ * ab y₂ y₃) =
    cyc (vecMulVec x₁ (star y₁)) (vecMulVec x₃ (star y₃)) (vecMulVec x₂ (star y₂)) (vecMulVec x₄ (star y₄)) := by
  simp only [ab, cyc, vecMulVec_apply, Pi.star_apply, star_sub, star_mul']; ring

/-- the three ways to pair four spinors -/
def pairing (n : Fin 3) (X : Fin 4 → V2) : ℂ := match n with
  | 0 => ab (X 0) (X 1) * ab (X 2) (X 3)
  | 1 => ab (X 0) (X 2) * ab (X 1) (X 3)
  | 2 => ab (X 0) (X 3) * ab (X 1) (X 2)

section
variable (X Y : Fin 4 → Fin 2 → V2)

/-- `∑ x x'†` -/
def gram (i : Fin 4) : M2 := ∑ s, vecMulVec (X i s) (star (Y i s))

theorem pairing_00 : ∑ s : Fin 4 → Fin 2, pairing 0 (fun i => X i (s i)) * star (pairing 0 fun i => Y i (s i)) = adj2 (gram X Y 0) (gram X Y 1) * adj2 (gram X Y 2) (gram X Y 3) := by
  have e : ∀ s : Fin 4 → Fin 2, pairing 0 (fun i => X i (s i)) * star (pairing 0 fun i => Y i (s i)) =
      (ab (X 0 (s 0)) (X 1 (s 1)) * star (ab (Y 0 (s 0)) (Y 1 (s 1)))) * (ab (X 2 (s 2)) (X 3 (s 3)) * star (ab (Y 2 (s 2)) (Y 3 (s 3)))) := fun s => by simp only [pairing, star_mul']; ring
  simp only [e, ab_conj]
  rw [sum_quad]
  simp only [gram, Fin.sum_univ_two, Matrix.cons_val, adj2_add_left, adj2_add_right]
  ring
theorem pairing_11 : ∑ s : Fin 4 → Fin 2, pairing 1 (fun i => X i (s i)) * star (pairing 1 fun i => Y i (s i)) = adj2 (gram X Y 0) (gram X Y 2) * adj2 (gram X Y 1) (gram X Y 3) := by
  have e : ∀ s : Fin 4 → Fin 2, pairing 1 (fun i => X i (s i)) * star (pairing 1 fun i => Y i (s i)) =
      (ab (X 0 (s 0)) (X 2 (s 2)) * star (ab (Y 0 (s 0)) (Y 2 (s 2)))) * (ab (X 1 (s 1)) (X 3 (s 3)) * star (ab (Y 1 (s 1)) (Y 3 (s 3)))) := fun s => by simp only [pairing, star_mul']; ring
  simp only [e, ab_conj]
  rw [sum_quad]
  simp only [gram, Fin.sum_univ_two, Matrix.cons_val, adj2_add_left, adj2_add_right]
  ring
theorem pairing_22 : ∑ s : Fin 4 → Fin 2, pairing 2 (fun i => X i (s i)) * star (pairing 2 fun i => Y i (s i)) = adj2 (gram X Y 0) (gram X Y 3) * adj2 (gram X Y 1) (gram X Y 2) := by
  have e : ∀ s : Fin 4 → Fin 2, pairing 2 (fun i => X i (s i)) * star (pairing 2 fun i => Y i (s i)) =
      (ab (X 0 (s 0)) (X 3 (s 3)) * star (ab (Y 0 (s 0)) (Y 3 (s 3)))) * (ab (X 1 (s 1)) (X 2 (s 2)) * star (ab (Y 1 (s 1)) (Y 2 (s 2)))) := fun s => by simp only [pairing, star_mul']; ring
  simp only [e, ab_conj]
  rw [sum_quad]
  simp only [gram, Fin.sum_univ_two, Matrix.cons_val, adj2_add_left, adj2_add_right]
  ring
theorem pairing_12 : ∑ s : Fin 4 → Fin 2, pairing 1 (fun i => X i (s i)) * star (pairing 2 fun i => Y i (s i)) = cyc (gram X Y 0) (gram X Y 2) (gram X Y 1) (gram X Y 3) := by
  simp only [pairing, ab_cycle]
  rw [sum_quad]
  simp only [gram, Fin.sum_univ_two, Matrix.cons_val, cyc_add_1, cyc_add_2, cyc_add_3, cyc_add_4]
  ring
theorem pairing_10 : ∑ s : Fin 4 → Fin 2, pairing 1 (fun i => X i (s i)) * star (pairing 0 fun i => Y i (s i)) = cyc (gram X Y 0) (gram X Y 2) (gram X Y 3) (gram X Y 1) := by
  have e : ∀ s : Fin 4 → Fin 2, pairing 1 (fun i => X i (s i)) * star (pairing 0 fun i => Y i (s i)) =
      (ab (X 0 (s 0)) (X 2 (s 2)) * ab (X 3 (s 3)) (X 1 (s 1))) * star (ab (Y 0 (s 0)) (Y 1 (s 1)) * ab (Y 3 (s 3)) (Y 2 (s 2))) := fun s => by
    simp only [pairing, ab, star_mul', star_sub]; ring
  simp only [e, ab_cycle]
  rw [sum_quad]
  simp only [gram, Fin.sum_univ_two, Matrix.cons_val, cyc_add_1, cyc_add_2, cyc_add_3, cyc_add_4]
  ring
theorem pairing_20 : ∑ s : Fin 4 → Fin 2, pairing 2 (fun i => X i (s i)) * star (pairing 0 fun i => Y i (s i)) = -cyc (gram X Y 0) (gram X Y 3) (gram X Y 2) (gram X Y 1) := by
  have e : ∀ s : Fin 4 → Fin 2, pairing 2 (fun i => X i (s i)) * star (pairing 0 fun i => Y i (s i)) =
      -((ab (X 0 (s 0)) (X 3 (s 3)) * ab (X 2 (s 2)) (X 1 (s 1))) * star (ab (Y 0 (s 0)) (Y 1 (s 1)) * ab (Y 2 (s 2)) (Y 3 (s 3)))) := fun s => by
    simp only [pairing, ab, star_mul', star_sub]; ring
  simp only [e, ab_cycle, Finset.sum_neg_distrib]
  rw [sum_quad]
  simp only [gram, Fin.sum_univ_two, Matrix.cons_val, cyc_add_1, cyc_add_2, cyc_add_3, cyc_add_4]
  ring
end

/-! ### an angle and a square bracket -/

theorem adj2_mass (m m' : ℝ) : adj2 ((-m : ℂ) • 1) ((-m' : ℂ) • 1) = ((2 * (m * m') : ℝ) : ℂ) := by simp [adj2]; ring
section
variable (p q : V4 ℝ) (m m' : ℝ)
theorem cyc_um : cyc (slashUpper p) ((-m : ℂ) • 1) (slashLower q) ((-m' : ℂ) • 1) = ((2 * (m * m') * dot p q : ℝ) : ℂ) := by
  apply Complex.ext <;> simp [cyc, slashLower, slashUpper, dot] <;> ring
theorem cyc_lm : cyc (slashLower p) ((-m : ℂ) • 1) (slashUpper q) ((-m' : ℂ) • 1) = ((2 * (m * m') * dot p q : ℝ) : ℂ) := by
  apply Complex.ext <;> simp [cyc, slashLower, slashUpper, dot] <;> ring
theorem cyc_mu : cyc ((-m : ℂ) • 1) (slashUpper p) ((-m' : ℂ) • 1) (slashLower q) = ((2 * (m * m') * dot p q : ℝ) : ℂ) := by
  apply Complex.ext <;> simp [cyc, slashLower, slashUpper, dot] <;> ring
theorem cyc_ml : cyc ((-m : ℂ) • 1) (slashLower p) ((-m' : ℂ) • 1) (slashUpper q) = ((2 * (m * m') * dot p q : ℝ) : ℂ) := by
  apply Complex.ext <;> simp [cyc, slashLower, slashUpper, dot] <;> ring
end

/-- angle (`false`) or square (`true`) spinors -/
def mix (A S : Fin 4 → Fin 2 → V2) (k : Fin 4 → Bool) (i : Fin 4) (s : Fin 2) : V2 := if k i then S i s else A i s

section
variable {A S : Fin 4 → Fin 2 → V2} {p : Fin 4 → V4 ℝ} {m : Fin 4 → ℝ}

theorem gram_mix (h : ∀ i, Grams (p i) (m i) (A i) (S i)) (k k' : Fin 4 → Bool) (i : Fin 4) :
    gram (mix A S k) (mix A S k') i = if k i then (if k' i then slashUpper (p i) else (-m i : ℂ) • 1) else (if k' i then (-m i : ℂ) • 1 else slashLower (p i)) := by
  unfold gram mix
  have := h i
  cases k i <;> cases k' i
  · exact this.aa
  · exact this.as
  · exact this.sa
  · exact this.ss

/-- the products of an angle and a square bracket, and their signs -/
def sixPairing : Fin 6 → Fin 3 := ![1, 1, 2, 2, 0, 0]
def sixKinds : Fin 6 → Fin 4 → Bool := ![![true, false, true, false], ![false, true, false, true], ![true, false, false, true], ![false, true, true, false], ![true, true, false, false], ![false, false, true, true]]

def six (A S : Fin 4 → Fin 2 → V2) (s : Fin 4 → Fin 2) (n : Fin 6) : ℂ := pairing (sixPairing n) fun i => mix A S (sixKinds n) i (s i)

/-- their products, summed over spins -/
def sixGram (p : Fin 4 → V4 ℝ) (m : Fin 4 → ℝ) : Matrix (Fin 6) (Fin 6) ℝ := !![
  (2 * dot (p 0) (p 2)) * (2 * dot (p 1) (p 3)), (2 * (m 0 * m 2)) * (2 * (m 1 * m 3)), (2 * (m 2 * m 3) * dot (p 0) (p 1)), (2 * (m 0 * m 1) * dot (p 2) (p 3)), (2 * (m 2 * m 1) * dot (p 0) (p 3)), (2 * (m 0 * m 3) * dot (p 2) (p 1));
  (2 * (m 0 * m 2)) * (2 * (m 1 * m 3)), (2 * dot (p 0) (p 2)) * (2 * dot (p 1) (p 3)), (2 * (m 0 * m 1) * dot (p 2) (p 3)), (2 * (m 2 * m 3) * dot (p 0) (p 1)), (2 * (m 0 * m 3) * dot (p 2) (p 1)), (2 * (m 2 * m 1) * dot (p 0) (p 3));
  (2 * (m 2 * m 3) * dot (p 0) (p 1)), (2 * (m 0 * m 1) * dot (p 2) (p 3)), (2 * dot (p 0) (p 3)) * (2 * dot (p 1) (p 2)), (2 * (m 0 * m 3)) * (2 * (m 1 * m 2)), -(2 * (m 3 * m 1) * dot (p 0) (p 2)), -(2 * (m 0 * m 2) * dot (p 3) (p 1));
  (2 * (m 0 * m 1) * dot (p 2) (p 3)), (2 * (m 2 * m 3) * dot (p 0) (p 1)), (2 * (m 0 * m 3)) * (2 * (m 1 * m 2)), (2 * dot (p 0) (p 3)) * (2 * dot (p 1) (p 2)), -(2 * (m 0 * m 2) * dot (p 3) (p 1)), -(2 * (m 3 * m 1) * dot (p 0) (p 2));
  (2 * (m 2 * m 1) * dot (p 0) (p 3)), (2 * (m 0 * m 3) * dot (p 2) (p 1)), -(2 * (m 3 * m 1) * dot (p 0) (p 2)), -(2 * (m 0 * m 2) * dot (p 3) (p 1)), (2 * dot (p 0) (p 1)) * (2 * dot (p 2) (p 3)), (2 * (m 0 * m 1)) * (2 * (m 2 * m 3));
  (2 * (m 0 * m 3) * dot (p 2) (p 1)), (2 * (m 2 * m 1) * dot (p 0) (p 3)), -(2 * (m 0 * m 2) * dot (p 3) (p 1)), -(2 * (m 3 * m 1) * dot (p 0) (p 2)), (2 * (m 0 * m 1)) * (2 * (m 2 * m 3)), (2 * dot (p 0) (p 1)) * (2 * dot (p 2) (p 3))]

variable (h : ∀ i, Grams (p i) (m i) (A i) (S i))
include h

theorem six_00 : ∑ s, six A S s 0 * star (six A S s 0) = ((((2 * dot (p 0) (p 2)) * (2 * dot (p 1) (p 3))) : ℝ) : ℂ) := by
  have e := pairing_11 (mix A S (sixKinds 0)) (mix A S (sixKinds 0))
  simp only [gram_mix h, sixKinds, Matrix.cons_val, if_true, if_false, Bool.false_eq_true, adj2_lower, adj2_upper] at e
  rw [Complex.ofReal_mul]
  exact e
theorem six_01 : ∑ s, six A S s 0 * star (six A S s 1) = ((((2 * (m 0 * m 2)) * (2 * (m 1 * m 3))) : ℝ) : ℂ) := by
  have e := pairing_11 (mix A S (sixKinds 0)) (mix A S (sixKinds 1))
  simp only [gram_mix h, sixKinds, Matrix.cons_val, if_true, if_false, Bool.false_eq_true, adj2_mass] at e
  rw [Complex.ofReal_mul]
  exact e
theorem six_02 : ∑ s, six A S s 0 * star (six A S s 2) = ((((2 * (m 2 * m 3) * dot (p 0) (p 1))) : ℝ) : ℂ) := by
  have e := pairing_12 (mix A S (sixKinds 0)) (mix A S (sixKinds 2))
  simp only [gram_mix h, sixKinds, Matrix.cons_val, if_true, if_false, Bool.false_eq_true, cyc_um] at e
  refine e.trans ?_
  push_cast
  ring
theorem six_20 : ∑ s, six A S s 2 * star (six A S s 0) = ((((2 * (m 2 * m 3) * dot (p 0) (p 1))) : ℝ) : ℂ) := by
  have e := congrArg star (six_02 h)
  rw [star_sum, Complex.star_def, Complex.conj_ofReal] at e
  rw [← e]
  exact Finset.sum_congr rfl fun s _ => by simp only [Complex.star_def, map_mul, Complex.conj_conj]; ring
theorem six_03 : ∑ s, six A S s 0 * star (six A S s 3) = ((((2 * (m 0 * m 1) * dot (p 2) (p 3))) : ℝ) : ℂ) := by
  have e := pairing_12 (mix A S (sixKinds 0)) (mix A S (sixKinds 3))
  simp only [gram_mix h, sixKinds, Matrix.cons_val, if_true, if_false, Bool.false_eq_true, cyc_mu] at e
  refine e.trans ?_
  push_cast
  ring
theorem six_30 : ∑ s, six A S s 3 * star (six A S s 0) = ((((2 * (m 0 * m 1) * dot (p 2) (p 3))) : ℝ) : ℂ) := by
  have e := congrArg star (six_03 h)
  rw [star_sum, Complex.star_def, Complex.conj_ofReal] at e
  rw [← e]
  exact Finset.sum_congr rfl fun s _ => by simp only [Complex.star_def, map_mul, Complex.conj_conj]; ring
theorem six_04 : ∑ s, six A S s 0 * star (six A S s 4) = ((((2 * (m 2 * m 1) * dot (p 0) (p 3))) : ℝ) : ℂ) := by
  have e := pairing_10 (mix A S (sixKinds 0)) (mix A S (sixKinds 4))
  simp only [gram_mix h, sixKinds, Matrix.cons_val, if_true, if_false, Bool.false_eq_true, cyc_um] at e
  refine e.trans ?_
  push_cast
  ring
theorem six_40 : ∑ s, six A S s 4 * star (six A S s 0) = ((((2 * (m 2 * m 1) * dot (p 0) (p 3))) : ℝ) : ℂ) := by
  have e := congrArg star (six_04 h)
  rw [star_sum, Complex.star_def, Complex.conj_ofReal] at e
  rw [← e]
  exact Finset.sum_congr rfl fun s _ => by simp only [Complex.star_def, map_mul, Complex.conj_conj]; ring
theorem six_05 : ∑ s, six A S s 0 * star (six A S s 5) = ((((2 * (m 0 * m 3) * dot (p 2) (p 1))) : ℝ) : ℂ) := by
  have e := pairing_10 (mix A S (sixKinds 0)) (mix A S (sixKinds 5))
  simp only [gram_mix h, sixKinds, Matrix.cons_val, if_true, if_false, Bool.false_eq_true, cyc_mu] at e
  refine e.trans ?_
  push_cast
  ring
theorem six_50 : ∑ s, six A S s 5 * star (six A S s 0) = ((((2 * (m 0 * m 3) * dot (p 2) (p 1))) : ℝ) : ℂ) := by
  have e := congrArg star (six_05 h)
  rw [star_sum, Complex.star_def, Complex.conj_ofReal] at e
  rw [← e]
  exact Finset.sum_congr rfl fun s _ => by simp only [Complex.star_def, map_mul, Complex.conj_conj]; ring
theorem six_10 : ∑ s, six A S s 1 * star (six A S s 0) = ((((2 * (m 0 * m 2)) * (2 * (m 1 * m 3))) : ℝ) : ℂ) := by
  have e := pairing_11 (mix A S (sixKinds 1)) (mix A S (sixKinds 0))
  simp only [gram_mix h, sixKinds, Matrix.cons_val, if_true, if_false, Bool.false_eq_true, adj2_mass] at e
  rw [Complex.ofReal_mul]
  exact e
theorem six_11 : ∑ s, six A S s 1 * star (six A S s 1) = ((((2 * dot (p 0) (p 2)) * (2 * dot (p 1) (p 3))) : ℝ) : ℂ) := by
  have e := pairing_11 (mix A S (sixKinds 1)) (mix A S (sixKinds 1))
  simp only [gram_mix h, sixKinds, Matrix.cons_val, if_true, if_false, Bool.false_eq_true, adj2_lower, adj2_upper] at e
  rw [Complex.ofReal_mul]
  exact e
theorem six_12 : ∑ s, six A S s 1 * star (six A S s 2) = ((((2 * (m 0 * m 1) * dot (p 2) (p 3))) : ℝ) : ℂ) := by
  have e := pairing_12 (mix A S (sixKinds 1)) (mix A S (sixKinds 2))
  simp only [gram_mix h, sixKinds, Matrix.cons_val, if_true, if_false, Bool.false_eq_true, cyc_ml] at e
  refine e.trans ?_
  push_cast
  ring
theorem six_21 : ∑ s, six A S s 2 * star (six A S s 1) = ((((2 * (m 0 * m 1) * dot (p 2) (p 3))) : ℝ) : ℂ) := by
  have e := congrArg star (six_12 h)
  rw [star_sum, Complex.star_def, Complex.conj_ofReal] at e
  rw [← e]
  exact Finset.sum_congr rfl fun s _ => by simp only [Complex.star_def, map_mul, Complex.conj_conj]; ring
theorem six_13 : ∑ s, six A S s 1 * star (six A S s 3) = ((((2 * (m 2 * m 3) * dot (p 0) (p 1))) : ℝ) : ℂ) := by
  have e := pairing_12 (mix A S (sixKinds 1)) (mix A S (sixKinds 3))
  simp only [gram_mix h, sixKinds, Matrix.cons_val, if_true, if_false, Bool.false_eq_true, cyc_lm] at e
  refine e.trans ?_
  push_cast
  ring
theorem six_31 : ∑ s, six A S s 3 * star (six A S s 1) = ((((2 * (m 2 * m 3) * dot (p 0) (p 1))) : ℝ) : ℂ) := by
  have e := congrArg star (six_13 h)
  rw [star_sum, Complex.star_def, Complex.conj_ofReal] at e
  rw [← e]
  exact Finset.sum_congr rfl fun s _ => by simp only [Complex.star_def, map_mul, Complex.conj_conj]; ring
theorem six_14 : ∑ s, six A S s 1 * star (six A S s 4) = ((((2 * (m 0 * m 3) * dot (p 2) (p 1))) : ℝ) : ℂ) := by
  have e := pairing_10 (mix A S (sixKinds 1)) (mix A S (sixKinds 4))
  simp only [gram_mix h, sixKinds, Matrix.cons_val, if_true, if_false, Bool.false_eq_true, cyc_ml] at e
  refine e.trans ?_
  push_cast
  ring
theorem six_41 : ∑ s, six A S s 4 * star (six A S s 1) = ((((2 * (m 0 * m 3) * dot (p 2) (p 1))) : ℝ) : ℂ) := by
  have e := congrArg star (six_14 h)
  rw [star_sum, Complex.star_def, Complex.conj_ofReal] at e
  rw [← e]
  exact Finset.sum_congr rfl fun s _ => by simp only [Complex.star_def, map_mul, Complex.conj_conj]; ring
theorem six_15 : ∑ s, six A S s 1 * star (six A S s 5) = ((((2 * (m 2 * m 1) * dot (p 0) (p 3))) : ℝ) : ℂ) := by
  have e := pairing_10 (mix A S (sixKinds 1)) (mix A S (sixKinds 5))
  simp only [gram_mix h, sixKinds, Matrix.cons_val, if_true, if_false, Bool.false_eq_true, cyc_lm] at e
  refine e.trans ?_
  push_cast
  ring
theorem six_51 : ∑ s, six A S s 5 * star (six A S s 1) = ((((2 * (m 2 * m 1) * dot (p 0) (p 3))) : ℝ) : ℂ) := by
  have e := congrArg star (six_15 h)
  rw [star_sum, Complex.star_def, Complex.conj_ofReal] at e
  rw [← e]
  exact Finset.sum_congr rfl fun s _ => by simp only [Complex.star_def, map_mul, Complex.conj_conj]; ring
theorem six_22 : ∑ s, six A S s 2 * star (six A S s 2) = ((((2 * dot (p 0) (p 3)) * (2 * dot (p 1) (p 2))) : ℝ) : ℂ) := by
  have e := pairing_22 (mix A S (sixKinds 2)) (mix A S (sixKinds 2))
  simp only [gram_mix h, sixKinds, Matrix.cons_val, if_true, if_false, Bool.false_eq_true, adj2_lower, adj2_upper] at e
  rw [Complex.ofReal_mul]
  exact e
theorem six_23 : ∑ s, six A S s 2 * star (six A S s 3) = ((((2 * (m 0 * m 3)) * (2 * (m 1 * m 2))) : ℝ) : ℂ) := by
  have e := pairing_22 (mix A S (sixKinds 2)) (mix A S (sixKinds 3))
  simp only [gram_mix h, sixKinds, Matrix.cons_val, if_true, if_false, Bool.false_eq_true, adj2_mass] at e
  rw [Complex.ofReal_mul]
  exact e
theorem six_24 : ∑ s, six A S s 2 * star (six A S s 4) = (((-(2 * (m 3 * m 1) * dot (p 0) (p 2))) : ℝ) : ℂ) := by
  have e := pairing_20 (mix A S (sixKinds 2)) (mix A S (sixKinds 4))
  simp only [gram_mix h, sixKinds, Matrix.cons_val, if_true, if_false, Bool.false_eq_true, cyc_um] at e
  refine e.trans ?_
  push_cast
  ring
theorem six_42 : ∑ s, six A S s 4 * star (six A S s 2) = (((-(2 * (m 3 * m 1) * dot (p 0) (p 2))) : ℝ) : ℂ) := by
  have e := congrArg star (six_24 h)
  rw [star_sum, Complex.star_def, Complex.conj_ofReal] at e
  rw [← e]
  exact Finset.sum_congr rfl fun s _ => by simp only [Complex.star_def, map_mul, Complex.conj_conj]; ring
theorem six_25 : ∑ s, six A S s 2 * star (six A S s 5) = (((-(2 * (m 0 * m 2) * dot (p 3) (p 1))) : ℝ) : ℂ) := by
  have e := pairing_20 (mix A S (sixKinds 2)) (mix A S (sixKinds 5))
  simp only [gram_mix h, sixKinds, Matrix.cons_val, if_true, if_false, Bool.false_eq_true, cyc_mu] at e
  refine e.trans ?_
  push_cast
  ring
theorem six_52 : ∑ s, six A S s 5 * star (six A S s 2) = (((-(2 * (m 0 * m 2) * dot (p 3) (p 1))) : ℝ) : ℂ) := by
  have e := congrArg star (six_25 h)
  rw [star_sum, Complex.star_def, Complex.conj_ofReal] at e
  rw [← e]
  exact Finset.sum_congr rfl fun s _ => by simp only [Complex.star_def, map_mul, Complex.conj_conj]; ring
theorem six_32 : ∑ s, six A S s 3 * star (six A S s 2) = ((((2 * (m 0 * m 3)) * (2 * (m 1 * m 2))) : ℝ) : ℂ) := by
  have e := pairing_22 (mix A S (sixKinds 3)) (mix A S (sixKinds 2))
  simp only [gram_mix h, sixKinds, Matrix.cons_val, if_true, if_false, Bool.false_eq_true, adj2_mass] at e
  rw [Complex.ofReal_mul]
  exact e
theorem six_33 : ∑ s, six A S s 3 * star (six A S s 3) = ((((2 * dot (p 0) (p 3)) * (2 * dot (p 1) (p 2))) : ℝ) : ℂ) := by
  have e := pairing_22 (mix A S (sixKinds 3)) (mix A S (sixKinds 3))
  simp only [gram_mix h, sixKinds, Matrix.cons_val, if_true, if_false, Bool.false_eq_true, adj2_lower, adj2_upper] at e
  rw [Complex.ofReal_mul]
  exact e
theorem six_34 : ∑ s, six A S s 3 * star (six A S s 4) = (((-(2 * (m 0 * m 2) * dot (p 3) (p 1))) : ℝ) : ℂ) := by
  have e := pairing_20 (mix A S (sixKinds 3)) (mix A S (sixKinds 4))
  simp only [gram_mix h, sixKinds, Matrix.cons_val, if_true, if_false, Bool.false_eq_true, cyc_ml] at e
  refine e.trans ?_
  push_cast
  ring
theorem six_43 : ∑ s, six A S s 4 * star (six A S s 3) = (((-(2 * (m 0 * m 2) * dot (p 3) (p 1))) : ℝ) : ℂ) := by
  have e := congrArg star (six_34 h)
  rw [star_sum, Complex.star_def, Complex.conj_ofReal] at e
  rw [← e]
  exact Finset.sum_congr rfl fun s _ => by simp only [Complex.star_def, map_mul, Complex.conj_conj]; ring
theorem six_35 : ∑ s, six A S s 3 * star (six A S s 5) = (((-(2 * (m 3 * m 1) * dot (p 0) (p 2))) : ℝ) : ℂ) := by
  have e := pairing_20 (mix A S (sixKinds 3)) (mix A S (sixKinds 5))
  simp only [gram_mix h, sixKinds, Matrix.cons_val, if_true, if_false, Bool.false_eq_true, cyc_lm] at e
  refine e.trans ?_
  push_cast
  ring
theorem six_53 : ∑ s, six A S s 5 * star (six A S s 3) = (((-(2 * (m 3 * m 1) * dot (p 0) (p 2))) : ℝ) : ℂ) := by
  have e := congrArg star (six_35 h)
  rw [star_sum, Complex.star_def, Complex.conj_ofReal] at e
  rw [← e]
  exact Finset.sum_congr rfl fun s _ => by simp only [Complex.star_def, map_mul, Complex.conj_conj]; ring
theorem six_44 : ∑ s, six A S s 4 * star (six A S s 4) = ((((2 * dot (p 0) (p 1)) * (2 * dot (p 2) (p 3))) : ℝ) : ℂ) := by
  have e := pairing_00 (mix A S (sixKinds 4)) (mix A S (sixKinds 4))
  simp only [gram_mix h, sixKinds, Matrix.cons_val, if_true, if_false, Bool.false_eq_true, adj2_lower, adj2_upper] at e
  rw [Complex.ofReal_mul]
  exact e
theorem six_45 : ∑ s, six A S s 4 * star (six A S s 5) = ((((2 * (m 0 * m 1)) * (2 * (m 2 * m 3))) : ℝ) : ℂ) := by
  have e := pairing_00 (mix A S (sixKinds 4)) (mix A S (sixKinds 5))
  simp only [gram_mix h, sixKinds, Matrix.cons_val, if_true, if_false, Bool.false_eq_true, adj2_mass] at e
  rw [Complex.ofReal_mul]
  exact e
theorem six_54 : ∑ s, six A S s 5 * star (six A S s 4) = ((((2 * (m 0 * m 1)) * (2 * (m 2 * m 3))) : ℝ) : ℂ) := by
  have e := pairing_00 (mix A S (sixKinds 5)) (mix A S (sixKinds 4))
  simp only [gram_mix h, sixKinds, Matrix.cons_val, if_true, if_false, Bool.false_eq_true, adj2_mass] at e
  rw [Complex.ofReal_mul]
  exact e
theorem six_55 : ∑ s, six A S s 5 * star (six A S s 5) = ((((2 * dot (p 0) (p 1)) * (2 * dot (p 2) (p 3))) : ℝ) : ℂ) := by
  have e := pairing_00 (mix A S (sixKinds 5)) (mix A S (sixKinds 5))
  simp only [gram_mix h, sixKinds, Matrix.cons_val, if_true, if_false, Bool.false_eq_true, adj2_lower, adj2_upper] at e
  rw [Complex.ofReal_mul]
  exact e
theorem six_gram (n n' : Fin 6) : ∑ s, six A S s n * star (six A S s n') = (sixGram p m n n' : ℂ) := by
  fin_cases n <;> fin_cases n'
  · exact six_00 h
  · exact six_01 h
  · exact six_02 h
  · exact six_03 h
  · exact six_04 h
  · exact six_05 h
  · exact six_10 h
  · exact six_11 h
  · exact six_12 h
  · exact six_13 h
  · exact six_14 h
  · exact six_15 h
  · exact six_20 h
  · exact six_21 h
  · exact six_22 h
  · exact six_23 h
  · exact six_24 h
  · exact six_25 h
  · exact six_30 h
  · exact six_31 h
  · exact six_32 h
  · exact six_33 h
  · exact six_34 h
  · exact six_35 h
  · exact six_40 h
  · exact six_41 h
  · exact six_42 h
  · exact six_43 h
  · exact six_44 h
  · exact six_45 h
  · exact six_50 h
  · exact six_51 h
  · exact six_52 h
  · exact six_53 h
  · exact six_54 h
  · exact six_55 h

/-- squares of combinations -/
theorem six_norm (c : Fin 6 → ℝ) : ∑ s : Fin 4 → Fin 2, ‖∑ n, (c n : ℂ) * six A S s n‖ ^ 2 = ∑ n, ∑ n', c n * c n' * sixGram p m n n' := by
  have e : ((∑ s : Fin 4 → Fin 2, ‖∑ n, (c n : ℂ) * six A S s n‖ ^ 2 : ℝ) : ℂ) = ((∑ n, ∑ n', c n * c n' * sixGram p m n n' : ℝ) : ℂ) := by
    simp only [Complex.ofReal_sum, normSq_star, star_sum, Finset.sum_mul, Finset.mul_sum]
    rw [Finset.sum_comm]
    conv_rhs => rw [Finset.sum_comm]
    refine Finset.sum_congr rfl fun n' _ => ?_
    rw [Finset.sum_comm]
    refine Finset.sum_congr rfl fun n _ => ?_
    rw [Complex.ofReal_mul, ← six_gram h, Finset.mul_sum]
    refine Finset.sum_congr rfl fun s _ => ?_
    simp only [star_mul', Complex.star_def, Complex.conj_ofReal]
    push_cast
    ring
  exact_mod_cast e
end
end Spinas
