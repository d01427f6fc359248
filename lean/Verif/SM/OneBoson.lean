import Verif.SM.SpinSums
import Verif.SM.Exchanges
import Verif.SM.FermionRows
import Verif.Spec.Exchange

/-! Closed formulas for four fermions and the exchange of one boson. -/

namespace Spinas
open Spec Props Matrix

/-! ### two lines -/

section
variable {A S : Fin 4 → Fin 2 → V2} {p : Fin 4 → V4 ℝ} {m : Fin 4 → ℝ} {ε : Fin 4 → ℝ}

theorem jj_six (s : Fin 4 → Fin 2) (a b gL gR hL hR : ℝ) :
    a * jj (ε 0) (ε 1) (ε 2) (ε 3) (A 0 (s 0)) (S 0 (s 0)) (A 1 (s 1)) (S 1 (s 1)) (A 2 (s 2)) (S 2 (s 2)) (A 3 (s 3)) (S 3 (s 3)) gL gR hL hR +
    b * jj (ε 0) (ε 3) (ε 2) (ε 1) (A 0 (s 0)) (S 0 (s 0)) (A 3 (s 3)) (S 3 (s 3)) (A 2 (s 2)) (S 2 (s 2)) (A 1 (s 1)) (S 1 (s 1)) gL gR hL hR =
    ∑ n, ((![2 * (a - b) * gL * hL * ε 0 * ε 2, 2 * (a - b) * gR * hR * ε 1 * ε 3, -2 * a * gL * hR * ε 0 * ε 3, -2 * a * gR * hL * ε 1 * ε 2,
      2 * b * gL * hR * ε 0 * ε 1, 2 * b * gR * hL * ε 2 * ε 3] n : ℝ) : ℂ) * six A S s n := by
  simp [Fin.sum_univ_six, six, sixPairing, sixKinds, pairing, mix, jj, sb_neg]
  simp only [ab]
  ring

variable (h : ∀ i, Grams (p i) (m i) (A i) (S i)) (hε : ∀ i, ε i = 1 ∨ ε i = -1)
include h hε

/-- one exchange -/
theorem jj_norm (gL gR hL hR : ℝ) :
    ∑ s : Fin 4 → Fin 2, ‖jj (ε 0) (ε 1) (ε 2) (ε 3) (A 0 (s 0)) (S 0 (s 0)) (A 1 (s 1)) (S 1 (s 1)) (A 2 (s 2)) (S 2 (s 2)) (A 3 (s 3)) (S 3 (s 3)) gL gR hL hR‖ ^ 2 =
    16 * ((gL ^ 2 * hL ^ 2 + gR ^ 2 * hR ^ 2) * (dot (p 0) (p 2) * dot (p 1) (p 3)) + (gL ^ 2 * hR ^ 2 + gR ^ 2 * hL ^ 2) * (dot (p 0) (p 3) * dot (p 1) (p 2)) +
      4 * gL * gR * hL * hR * (ε 0 * ε 1 * ε 2 * ε 3) * (m 0 * m 1 * m 2 * m 3) - (gL ^ 2 + gR ^ 2) * hL * hR * (ε 2 * ε 3) * (m 2 * m 3) * dot (p 0) (p 1) -
      gL * gR * (hL ^ 2 + hR ^ 2) * (ε 0 * ε 1) * (m 0 * m 1) * dot (p 2) (p 3)) := by
  have e := six_norm h ![2 * gL * hL * ε 0 * ε 2, 2 * gR * hR * ε 1 * ε 3, -2 * gL * hR * ε 0 * ε 3, -2 * gR * hL * ε 1 * ε 2, 0, 0]
  have k := fun s => jj_six (A := A) (S := S) (ε := ε) s 1 0 gL gR hL hR
  simp only [sub_zero, mul_one, Complex.ofReal_one, one_mul, Complex.ofReal_zero, zero_mul, add_zero, mul_zero] at k
  simp only [k, e]
  rcases hε 0 with h0 | h0 <;> rcases hε 1 with h1 | h1 <;> rcases hε 2 with h2 | h2 <;> rcases hε 3 with h3 | h3 <;>
    simp [Fin.sum_univ_six, sixGram, h0, h1, h2, h3] <;> ring

/-- two exchanges of a vector boson -/
theorem jj_norm_two (a b : ℝ) :
    ∑ s : Fin 4 → Fin 2, ‖a * jj (ε 0) (ε 1) (ε 2) (ε 3) (A 0 (s 0)) (S 0 (s 0)) (A 1 (s 1)) (S 1 (s 1)) (A 2 (s 2)) (S 2 (s 2)) (A 3 (s 3)) (S 3 (s 3)) 1 1 1 1 +
      b * jj (ε 0) (ε 3) (ε 2) (ε 1) (A 0 (s 0)) (S 0 (s 0)) (A 3 (s 3)) (S 3 (s 3)) (A 2 (s 2)) (S 2 (s 2)) (A 1 (s 1)) (S 1 (s 1)) 1 1 1 1‖ ^ 2 =
    32 * ((a - b) ^ 2 * (dot (p 0) (p 2) * dot (p 1) (p 3)) + a ^ 2 * (dot (p 0) (p 3) * dot (p 1) (p 2)) + b ^ 2 * (dot (p 0) (p 1) * dot (p 2) (p 3)) +
      ((a - b) ^ 2 + a ^ 2 + b ^ 2) * (ε 0 * ε 1 * ε 2 * ε 3) * (m 0 * m 1 * m 2 * m 3) -
      a * (a - b) * (ε 2 * ε 3 * (m 2 * m 3) * dot (p 0) (p 1) + ε 0 * ε 1 * (m 0 * m 1) * dot (p 2) (p 3)) +
      b * (a - b) * (ε 1 * ε 2 * (m 1 * m 2) * dot (p 0) (p 3) + ε 0 * ε 3 * (m 0 * m 3) * dot (p 1) (p 2)) +
      a * b * (ε 1 * ε 3 * (m 1 * m 3) * dot (p 0) (p 2) + ε 0 * ε 2 * (m 0 * m 2) * dot (p 1) (p 3))) := by
  simp only [jj_six (A := A) (S := S) (ε := ε) _ a b 1 1 1 1, six_norm h]
  rcases hε 0 with h0 | h0 <;> rcases hε 1 with h1 | h1 <;> rcases hε 2 with h2 | h2 <;> rcases hε 3 with h3 | h3 <;>
    simp [Fin.sum_univ_six, sixGram, h0, h1, h2, h3] <;> rw [dot_comm (p 2) (p 1), dot_comm (p 3) (p 1)] <;> ring
end

/-! ### legs in the order of the lines -/

theorem spins_order (F : Fin 2 → Fin 2 → Fin 2 → Fin 2 → ℝ) : (∑ s : Fin 4 → Fin 2, F (s 1) (s 0) (s 2) (s 3) = ∑ s : Fin 4 → Fin 2, F (s 0) (s 1) (s 2) (s 3)) ∧
    (∑ s : Fin 4 → Fin 2, F (s 2) (s 0) (s 3) (s 1) = ∑ s : Fin 4 → Fin 2, F (s 0) (s 1) (s 2) (s 3)) ∧
    (∑ s : Fin 4 → Fin 2, F (s 2) (s 1) (s 3) (s 0) = ∑ s : Fin 4 → Fin 2, F (s 0) (s 1) (s 2) (s 3)) := by
  refine ⟨?_, ?_, ?_⟩ <;> rw [sum_quad, sum_quad] <;> simp only [Fin.sum_univ_two, Matrix.cons_val] <;> ring

namespace Spec.Scattering
variable [FPEnv] {S : Scattering}

/-- an order of the legs: the lines go from the second to the first and from the fourth to the third -/
def Order (i j k l : Fin 4) : Prop := ∀ F : Fin 2 → Fin 2 → Fin 2 → Fin 2 → ℝ, ∑ s : Fin 4 → Fin 2, F (s i) (s j) (s k) (s l) = ∑ s : Fin 4 → Fin 2, F (s 0) (s 1) (s 2) (s 3)

section
variable (S) (c : Constants) (p : Nat → V4 ℝ)
/-- two vertices with given couplings -/
noncomputable def exch (s : Fin 4 → Fin 2) (i j k l : Fin 4) (gL gR hL hR : ℝ) : ℂ :=
  jj (S.sgn i) (S.sgn j) (S.sgn k) (S.sgn l) (S.angs c p s i) (S.sqrs c p s i) (S.angs c p s j) (S.sqrs c p s j) (S.angs c p s k) (S.sqrs c p s k) (S.angs c p s l) (S.sqrs c p s l) gL gR hL hR
end

variable {c : Constants} {p : Nat → V4 ℝ} (hp : ∀ i : Fin 4, OnShell (p i) (S.legMass c i)) (hm : ∀ f, 0 ≤ c.mass f) {i j k l : Fin 4} (ho : Order i j k l)
include hp hm ho

theorem exch_norm (gL gR hL hR : ℝ) : ∑ s, ‖S.exch c p s i j k l gL gR hL hR‖ ^ 2 =
    16 * ((gL ^ 2 * hL ^ 2 + gR ^ 2 * hR ^ 2) * (dot (p i) (p k) * dot (p j) (p l)) + (gL ^ 2 * hR ^ 2 + gR ^ 2 * hL ^ 2) * (dot (p i) (p l) * dot (p j) (p k)) +
      4 * gL * gR * hL * hR * (S.sgn i * S.sgn j * S.sgn k * S.sgn l) * (S.legMass c i * S.legMass c j * S.legMass c k * S.legMass c l) -
      (gL ^ 2 + gR ^ 2) * hL * hR * (S.sgn k * S.sgn l) * (S.legMass c k * S.legMass c l) * dot (p i) (p j) -
      gL * gR * (hL ^ 2 + hR ^ 2) * (S.sgn i * S.sgn j) * (S.legMass c i * S.legMass c j) * dot (p k) (p l)) := by
  have e := jj_norm (A := fun n => legA (p ((![i, j, k, l] : Fin 4 → Fin 4) n)) (S.legMass c (![i, j, k, l] n))) (S := fun n => legS (p ((![i, j, k, l] : Fin 4 → Fin 4) n)) (S.legMass c (![i, j, k, l] n)))
    (fun n => legs_grams (hp (![i, j, k, l] n)) (hm _)) (ε := fun n => S.sgn (![i, j, k, l] n)) (fun n => S.sgn_cases _) gL gR hL hR
  simp only [Matrix.cons_val] at e
  exact (ho fun a b d e => ‖jj (S.sgn i) (S.sgn j) (S.sgn k) (S.sgn l) (legA (p i) (S.legMass c i) a) (legS (p i) (S.legMass c i) a) (legA (p j) (S.legMass c j) b) (legS (p j) (S.legMass c j) b)
    (legA (p k) (S.legMass c k) d) (legS (p k) (S.legMass c k) d) (legA (p l) (S.legMass c l) e) (legS (p l) (S.legMass c l) e) gL gR hL hR‖ ^ 2).trans e

theorem exch_norm_two (a b : ℝ) : ∑ s, ‖a * S.exch c p s i j k l 1 1 1 1 + b * S.exch c p s i l k j 1 1 1 1‖ ^ 2 =
    32 * ((a - b) ^ 2 * (dot (p i) (p k) * dot (p j) (p l)) + a ^ 2 * (dot (p i) (p l) * dot (p j) (p k)) + b ^ 2 * (dot (p i) (p j) * dot (p k) (p l)) +
      ((a - b) ^ 2 + a ^ 2 + b ^ 2) * (S.sgn i * S.sgn j * S.sgn k * S.sgn l) * (S.legMass c i * S.legMass c j * S.legMass c k * S.legMass c l) -
      a * (a - b) * (S.sgn k * S.sgn l * (S.legMass c k * S.legMass c l) * dot (p i) (p j) + S.sgn i * S.sgn j * (S.legMass c i * S.legMass c j) * dot (p k) (p l)) +
      b * (a - b) * (S.sgn j * S.sgn k * (S.legMass c j * S.legMass c k) * dot (p i) (p l) + S.sgn i * S.sgn l * (S.legMass c i * S.legMass c l) * dot (p j) (p k)) +
      a * b * (S.sgn j * S.sgn l * (S.legMass c j * S.legMass c l) * dot (p i) (p k) + S.sgn i * S.sgn k * (S.legMass c i * S.legMass c k) * dot (p j) (p l))) := by
  have e := jj_norm_two (A := fun n => legA (p ((![i, j, k, l] : Fin 4 → Fin 4) n)) (S.legMass c (![i, j, k, l] n))) (S := fun n => legS (p ((![i, j, k, l] : Fin 4 → Fin 4) n)) (S.legMass c (![i, j, k, l] n)))
    (fun n => legs_grams (hp (![i, j, k, l] n)) (hm _)) (ε := fun n => S.sgn (![i, j, k, l] n)) (fun n => S.sgn_cases _) a b
  simp only [Matrix.cons_val] at e
  exact (ho fun a' b' d e => ‖a * jj (S.sgn i) (S.sgn j) (S.sgn k) (S.sgn l) (legA (p i) (S.legMass c i) a') (legS (p i) (S.legMass c i) a') (legA (p j) (S.legMass c j) b') (legS (p j) (S.legMass c j) b')
    (legA (p k) (S.legMass c k) d) (legS (p k) (S.legMass c k) d) (legA (p l) (S.legMass c l) e) (legS (p l) (S.legMass c l) e) 1 1 1 1 +
    b * jj (S.sgn i) (S.sgn l) (S.sgn k) (S.sgn j) (legA (p i) (S.legMass c i) a') (legS (p i) (S.legMass c i) a') (legA (p l) (S.legMass c l) e) (legS (p l) (S.legMass c l) e)
    (legA (p k) (S.legMass c k) d) (legS (p k) (S.legMass c k) d) (legA (p j) (S.legMass c j) b') (legS (p j) (S.legMass c j) b') 1 1 1 1‖ ^ 2).trans e
end Spec.Scattering

/-! ### products of momenta -/

section
variable {p : Nat → V4 ℝ} {m : Fin 4 → ℝ} (hp : ∀ i : Fin 4, OnShell (p i) (m i)) (hb : Balanced p)
include hp

theorem mandel_s : dot (p 0) (p 1) = (mandelstamS p - m 0 ^ 2 - m 1 ^ 2) / 2 := by
  have h0 := (hp 0).shell; have h1 := (hp 1).shell
  simp only [mandelstamS, msq, dot] at h0 h1 ⊢
  simp at h0 h1
  linear_combination -h0 / 2 - h1 / 2
theorem mandel_t : dot (p 0) (p 2) = (m 0 ^ 2 + m 2 ^ 2 - mandelstamT p) / 2 := by
  have h0 := (hp 0).shell; have h1 := (hp 2).shell
  simp only [mandelstamT, msq, dot] at h0 h1 ⊢
  simp at h0 h1
  linear_combination h0 / 2 + h1 / 2
theorem mandel_u : dot (p 0) (p 3) = (m 0 ^ 2 + m 3 ^ 2 - mandelstamU p) / 2 := by
  have h0 := (hp 0).shell; have h1 := (hp 3).shell
  simp only [mandelstamU, msq, dot] at h0 h1 ⊢
  simp at h0 h1
  linear_combination h0 / 2 + h1 / 2
include hb
theorem mandel_s' : dot (p 2) (p 3) = (mandelstamS p - m 2 ^ 2 - m 3 ^ 2) / 2 := by
  have h0 := (hp 2).shell; have h1 := (hp 3).shell
  obtain ⟨bt, bx, bz, by'⟩ := hb
  simp only [mandelstamS, msq, dot, bt, bx, bz, by'] at h0 h1 ⊢
  simp at h0 h1
  linear_combination -h0 / 2 - h1 / 2
theorem mandel_t' : dot (p 1) (p 3) = (m 1 ^ 2 + m 3 ^ 2 - mandelstamT p) / 2 := by
  have h0 := (hp 1).shell; have h1 := (hp 3).shell
  obtain ⟨bt, bx, bz, by'⟩ := hb
  have e : mandelstamT p = msq ⟨(p 1).t - (p 3).t, (p 1).x - (p 3).x, (p 1).y - (p 3).y, (p 1).z - (p 3).z⟩ := by
    rw [mandelstamT, msq, msq, show (p 0).t - (p 2).t = -((p 1).t - (p 3).t) by linarith, show (p 0).x - (p 2).x = -((p 1).x - (p 3).x) by linarith,
      show (p 0).y - (p 2).y = -((p 1).y - (p 3).y) by linarith, show (p 0).z - (p 2).z = -((p 1).z - (p 3).z) by linarith]
    ring
  rw [e]
  simp only [msq, dot] at h0 h1 ⊢
  simp at h0 h1
  linear_combination h0 / 2 + h1 / 2
theorem mandel_u' : dot (p 1) (p 2) = (m 1 ^ 2 + m 2 ^ 2 - mandelstamU p) / 2 := by
  have h0 := (hp 1).shell; have h1 := (hp 2).shell
  obtain ⟨bt, bx, bz, by'⟩ := hb
  have e : mandelstamU p = msq ⟨(p 1).t - (p 2).t, (p 1).x - (p 2).x, (p 1).y - (p 2).y, (p 1).z - (p 2).z⟩ := by
    rw [mandelstamU, msq, msq, show (p 0).t - (p 3).t = -((p 1).t - (p 2).t) by linarith, show (p 0).x - (p 3).x = -((p 1).x - (p 2).x) by linarith,
      show (p 0).y - (p 3).y = -((p 1).y - (p 2).y) by linarith, show (p 0).z - (p 3).z = -((p 1).z - (p 2).z) by linarith]
    ring
  rw [e]
  simp only [msq, dot] at h0 h1 ⊢
  simp at h0 h1
  linear_combination h0 / 2 + h1 / 2
theorem mandel_sum : mandelstamU p = m 0 ^ 2 + m 1 ^ 2 + m 2 ^ 2 + m 3 ^ 2 - mandelstamS p - mandelstamT p := by
  have h0 := mandel_s hp; have h1 := mandel_t hp; have h2 := mandel_u hp
  have h3 : dot (p 0) (p 0) = m 0 ^ 2 := by have := (hp 0).shell; simp only [dot]; simp at this; linarith
  obtain ⟨bt, bx, bz, by'⟩ := hb
  have e : dot (p 0) (p 0) + dot (p 0) (p 1) = dot (p 0) (p 2) + dot (p 0) (p 3) := by
    simp only [dot]
    linear_combination (p 0).t * bt - (p 0).x * bx - (p 0).y * bz - (p 0).z * by'
  linarith
end
end Spinas
