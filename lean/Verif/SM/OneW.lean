import Verif.SM.OneBosonClasses
import Verif.Spec.ChargedCurrent

/-! Closed formulas for four fermions and the exchange of one W. -/

namespace Spinas
open Spec Props Matrix

/-- squares of combinations of numbers with known products -/
theorem norm_combination {ι : Type} [Fintype ι] {F : (Fin 4 → Fin 2) → ι → ℂ} {G : ι → ι → ℝ} (h : ∀ n n', ∑ s, F s n * star (F s n') = (G n n' : ℂ)) (c : ι → ℝ) :
    ∑ s, ‖∑ n, (c n : ℂ) * F s n‖ ^ 2 = ∑ n, ∑ n', c n * c n' * G n n' := by
  have e : ((∑ s, ‖∑ n, (c n : ℂ) * F s n‖ ^ 2 : ℝ) : ℂ) = ((∑ n, ∑ n', c n * c n' * G n n' : ℝ) : ℂ) := by
    simp only [Complex.ofReal_sum, normSq_star, star_sum, Finset.sum_mul, Finset.mul_sum]
    rw [Finset.sum_comm]
    conv_rhs => rw [Finset.sum_comm]
    refine Finset.sum_congr rfl fun n' _ => ?_
    rw [Finset.sum_comm]
    refine Finset.sum_congr rfl fun n _ => ?_
    rw [Complex.ofReal_mul, ← h, Finset.mul_sum]
    refine Finset.sum_congr rfl fun s _ => ?_
    simp only [star_mul', Complex.star_def, Complex.conj_ofReal]
    push_cast
    ring
  exact_mod_cast e

section
variable (p q : V4 ℝ) (m m' : ℝ)
theorem cyc_mmll : cyc ((-m : ℂ) • 1) ((-m' : ℂ) • 1) (slashLower p) (slashLower q) = ((2 * (m * m') * dot p q : ℝ) : ℂ) := by
  apply Complex.ext <;> simp [cyc, slashLower, dot] <;> ring
theorem cyc_uumm : cyc (slashUpper p) (slashUpper q) ((-m : ℂ) • 1) ((-m' : ℂ) • 1) = ((2 * (m * m') * dot p q : ℝ) : ℂ) := by
  apply Complex.ext <;> simp [cyc, slashUpper, dot] <;> ring
end

/-- the product of the currents, and the products of the currents with the momentum transferred -/
def fivePairing : Fin 5 → Fin 3 := ![1, 0, 0, 0, 0]
def fiveKinds : Fin 5 → Fin 4 → Bool :=
  ![![true, false, true, false], ![false, false, false, false], ![false, false, true, true], ![true, true, false, false], ![true, true, true, true]]

def five (A S : Fin 4 → Fin 2 → V2) (s : Fin 4 → Fin 2) (n : Fin 5) : ℂ := pairing (fivePairing n) fun i => mix A S (fiveKinds n) i (s i)

def fiveGram (p : Fin 4 → V4 ℝ) (m : Fin 4 → ℝ) : Fin 5 → Fin 5 → ℝ :=
  ![![(2 * dot (p 0) (p 2)) * (2 * dot (p 1) (p 3)), 2 * (m 0 * m 2) * dot (p 3) (p 1), 2 * (m 0 * m 3) * dot (p 2) (p 1), 2 * (m 2 * m 1) * dot (p 0) (p 3), 2 * (m 3 * m 1) * dot (p 0) (p 2)],
    ![2 * (m 0 * m 2) * dot (p 3) (p 1), (2 * dot (p 0) (p 1)) * (2 * dot (p 2) (p 3)), (2 * dot (p 0) (p 1)) * (2 * (m 2 * m 3)), (2 * (m 0 * m 1)) * (2 * dot (p 2) (p 3)), (2 * (m 0 * m 1)) * (2 * (m 2 * m 3))],
    ![2 * (m 0 * m 3) * dot (p 2) (p 1), (2 * dot (p 0) (p 1)) * (2 * (m 2 * m 3)), (2 * dot (p 0) (p 1)) * (2 * dot (p 2) (p 3)), (2 * (m 0 * m 1)) * (2 * (m 2 * m 3)), (2 * (m 0 * m 1)) * (2 * dot (p 2) (p 3))],
    ![2 * (m 2 * m 1) * dot (p 0) (p 3), (2 * (m 0 * m 1)) * (2 * dot (p 2) (p 3)), (2 * (m 0 * m 1)) * (2 * (m 2 * m 3)), (2 * dot (p 0) (p 1)) * (2 * dot (p 2) (p 3)), (2 * dot (p 0) (p 1)) * (2 * (m 2 * m 3))],
    ![2 * (m 3 * m 1) * dot (p 0) (p 2), (2 * (m 0 * m 1)) * (2 * (m 2 * m 3)), (2 * (m 0 * m 1)) * (2 * dot (p 2) (p 3)), (2 * dot (p 0) (p 1)) * (2 * (m 2 * m 3)), (2 * dot (p 0) (p 1)) * (2 * dot (p 2) (p 3))]]

section
variable {A S : Fin 4 → Fin 2 → V2} {p : Fin 4 → V4 ℝ} {m : Fin 4 → ℝ} {ε : Fin 4 → ℝ} (h : ∀ i, Grams (p i) (m i) (A i) (S i))
include h

theorem five_first (n : Fin 5) : ∑ s, five A S s 0 * star (five A S s n) = (fiveGram p m 0 n : ℂ) := by
  fin_cases n
  · have e := pairing_11 (mix A S (fiveKinds 0)) (mix A S (fiveKinds 0))
    simp only [gram_mix h, fiveKinds, Matrix.cons_val, if_true, if_false, Bool.false_eq_true, adj2_lower, adj2_upper] at e
    refine e.trans ?_
    simp [fiveGram]
  · have e := pairing_10 (mix A S (fiveKinds 0)) (mix A S (fiveKinds 1))
    simp only [gram_mix h, fiveKinds, Matrix.cons_val, if_true, if_false, Bool.false_eq_true, cyc_mmll] at e
    exact e
  · have e := pairing_10 (mix A S (fiveKinds 0)) (mix A S (fiveKinds 2))
    simp only [gram_mix h, fiveKinds, Matrix.cons_val, if_true, if_false, Bool.false_eq_true, cyc_mu] at e
    exact e
  · have e := pairing_10 (mix A S (fiveKinds 0)) (mix A S (fiveKinds 3))
    simp only [gram_mix h, fiveKinds, Matrix.cons_val, if_true, if_false, Bool.false_eq_true, cyc_um] at e
    exact e
  · have e := pairing_10 (mix A S (fiveKinds 0)) (mix A S (fiveKinds 4))
    simp only [gram_mix h, fiveKinds, Matrix.cons_val, if_true, if_false, Bool.false_eq_true, cyc_uumm] at e
    exact e

theorem lines_gram (a b a' b' : Bool) :
    ∑ s : Fin 4 → Fin 2, pairing 0 (fun i => mix A S ![a, a, b, b] i (s i)) * star (pairing 0 fun i => mix A S ![a', a', b', b'] i (s i)) =
    (((if a = a' then 2 * dot (p 0) (p 1) else 2 * (m 0 * m 1)) * (if b = b' then 2 * dot (p 2) (p 3) else 2 * (m 2 * m 3)) : ℝ) : ℂ) := by
  have e := pairing_00 (mix A S ![a, a, b, b]) (mix A S ![a', a', b', b'])
  rw [e, Complex.ofReal_mul]
  simp only [gram_mix h, Matrix.cons_val]
  cases a <;> cases a' <;> cases b <;> cases b' <;> simp only [if_true, if_false, Bool.false_eq_true, reduceCtorEq, adj2_lower, adj2_upper, adj2_mass]

theorem five_rest (n n' : Fin 4) : ∑ s, five A S s n.succ * star (five A S s n'.succ) = (fiveGram p m n.succ n'.succ : ℂ) := by
  have e := fun a b a' b' => lines_gram h a b a' b'
  fin_cases n <;> fin_cases n'
  · exact e false false false false
  · exact e false false false true
  · exact e false false true false
  · exact e false false true true
  · exact e false true false false
  · exact e false true false true
  · exact e false true true false
  · exact e false true true true
  · exact e true false false false
  · exact e true false false true
  · exact e true false true false
  · exact e true false true true
  · exact e true true false false
  · exact e true true false true
  · exact e true true true false
  · exact e true true true true

theorem five_gram (n n' : Fin 5) : ∑ s, five A S s n * star (five A S s n') = (fiveGram p m n n' : ℂ) := by
  induction n using Fin.cases with
  | zero => exact five_first h n'
  | succ n =>
    induction n' using Fin.cases with
    | zero =>
      have e := congrArg star (five_first h n.succ)
      rw [star_sum, Complex.star_def, Complex.conj_ofReal] at e
      have g : fiveGram p m n.succ 0 = fiveGram p m 0 n.succ := by fin_cases n <;> rfl
      rw [g, ← e]
      exact Finset.sum_congr rfl fun s _ => by simp only [Complex.star_def, map_mul, Complex.conj_conj]; ring
    | succ n' => exact five_rest h n n'

/-- the exchange of a W -/
theorem w_norm (hε : ∀ i, ε i = 1 ∨ ε i = -1) (M : ℝ) :
    ∑ s : Fin 4 → Fin 2, ‖jj (ε 0) (ε 1) (ε 2) (ε 3) (A 0 (s 0)) (S 0 (s 0)) (A 1 (s 1)) (S 1 (s 1)) (A 2 (s 2)) (S 2 (s 2)) (A 3 (s 3)) (S 3 (s 3)) 1 0 1 0 +
      ln (ε 0) (ε 1) (A 0 (s 0)) (S 0 (s 0)) (A 1 (s 1)) (S 1 (s 1)) (-m 0) (m 1) * ln (ε 2) (ε 3) (A 2 (s 2)) (S 2 (s 2)) (A 3 (s 3)) (S 3 (s 3)) (-m 2) (m 3) / (M ^ 2 : ℝ)‖ ^ 2 =
    16 * (dot (p 0) (p 2) * dot (p 1) (p 3)) +
    8 / M ^ 2 * (ε 0 * ε 2 * (m 0 ^ 2 * m 2 ^ 2 * dot (p 1) (p 3)) - ε 0 * ε 3 * (m 0 ^ 2 * m 3 ^ 2 * dot (p 1) (p 2)) - ε 1 * ε 2 * (m 1 ^ 2 * m 2 ^ 2 * dot (p 0) (p 3)) +
      ε 1 * ε 3 * (m 1 ^ 2 * m 3 ^ 2 * dot (p 0) (p 2))) +
    (2 * (m 0 ^ 2 + m 1 ^ 2) * dot (p 0) (p 1) - 4 * (ε 0 * ε 1) * (m 0 ^ 2 * m 1 ^ 2)) * (2 * (m 2 ^ 2 + m 3 ^ 2) * dot (p 2) (p 3) - 4 * (ε 2 * ε 3) * (m 2 ^ 2 * m 3 ^ 2)) / M ^ 4 := by
  have k : ∀ s : Fin 4 → Fin 2, jj (ε 0) (ε 1) (ε 2) (ε 3) (A 0 (s 0)) (S 0 (s 0)) (A 1 (s 1)) (S 1 (s 1)) (A 2 (s 2)) (S 2 (s 2)) (A 3 (s 3)) (S 3 (s 3)) 1 0 1 0 +
      ln (ε 0) (ε 1) (A 0 (s 0)) (S 0 (s 0)) (A 1 (s 1)) (S 1 (s 1)) (-m 0) (m 1) * ln (ε 2) (ε 3) (A 2 (s 2)) (S 2 (s 2)) (A 3 (s 3)) (S 3 (s 3)) (-m 2) (m 3) / (M ^ 2 : ℝ) =
      ∑ n, ((![2 * ε 0 * ε 2, m 0 * m 2 / M ^ 2, -(m 0 * m 3 * (ε 2 * ε 3)) / M ^ 2, -(m 1 * m 2 * (ε 0 * ε 1)) / M ^ 2, m 1 * m 3 * (ε 0 * ε 1 * ε 2 * ε 3) / M ^ 2] n : ℝ) : ℂ) * five A S s n := by
    intro s
    simp [Fin.sum_univ_five, five, fivePairing, fiveKinds, pairing, mix, jj, ln, sb_neg]
    ring
  simp only [k, norm_combination (five_gram h)]
  rcases hε 0 with h0 | h0 <;> rcases hε 1 with h1 | h1 <;> rcases hε 2 with h2 | h2 <;> rcases hε 3 with h3 | h3 <;>
    simp [Fin.sum_univ_five, fiveGram, h0, h1, h2, h3] <;> rw [dot_comm (p 2) (p 1), dot_comm (p 3) (p 1)] <;> ring
end

namespace Spec.Scattering
variable [FPEnv] {S : Scattering} {c : Constants} {p : Nat → V4 ℝ}

theorem order_exchange : Order 0 3 2 1 := fun F => by
  rw [sum_quad, sum_quad]; simp only [Fin.sum_univ_two, Matrix.cons_val]; ring

omit [FPEnv] in
theorem pole_norm (m w : ℝ) (q : V4 ℝ) : ‖pole m w q‖ ^ 2 = (msq q - m ^ 2) ^ 2 + (m * w) ^ 2 := by
  rw [pole, norm_star, ← Complex.normSq_eq_norm_sq, Complex.normSq_apply, breitWigner]
  ring

section
variable (hp : ∀ i : Fin 4, OnShell (p i) (S.legMass c i)) (hm : ∀ f, 0 ≤ c.mass f)
include hp hm

/-- the exchange of a W between lines that start at `j` and `l` and end at `i` and `k` -/
theorem w_sum {i j k l : Fin 4} (ho : Order i j k l) (hn : ¬ S.neutral i j k l) (hc : S.charged i j k l) (ht : S.theory = .standard) {q : ℝ} (hq : msq (S.transfer p i j) = q) :
    ∑ s, ‖S.ewC c p (S.angs c p s) (S.sqrs c p s) i j k l‖ ^ 2 = wSquared c q * (16 * (dot (p i) (p k) * dot (p j) (p l)) +
      8 / c.MW ^ 2 * (S.sgn i * S.sgn k * (S.legMass c i ^ 2 * S.legMass c k ^ 2 * dot (p j) (p l)) - S.sgn i * S.sgn l * (S.legMass c i ^ 2 * S.legMass c l ^ 2 * dot (p j) (p k)) -
        S.sgn j * S.sgn k * (S.legMass c j ^ 2 * S.legMass c k ^ 2 * dot (p i) (p l)) + S.sgn j * S.sgn l * (S.legMass c j ^ 2 * S.legMass c l ^ 2 * dot (p i) (p k))) +
      (2 * (S.legMass c i ^ 2 + S.legMass c j ^ 2) * dot (p i) (p j) - 4 * (S.sgn i * S.sgn j) * (S.legMass c i ^ 2 * S.legMass c j ^ 2)) *
      (2 * (S.legMass c k ^ 2 + S.legMass c l ^ 2) * dot (p k) (p l) - 4 * (S.sgn k * S.sgn l) * (S.legMass c k ^ 2 * S.legMass c l ^ 2)) / c.MW ^ 4) := by
  have e := w_norm (A := fun n => legA (p ((![i, j, k, l] : Fin 4 → Fin 4) n)) (S.legMass c (![i, j, k, l] n))) (S := fun n => legS (p ((![i, j, k, l] : Fin 4 → Fin 4) n)) (S.legMass c (![i, j, k, l] n)))
    (fun n => legs_grams (hp (![i, j, k, l] n)) (hm _)) (ε := fun n => S.sgn (![i, j, k, l] n)) (fun n => S.sgn_cases _) c.MW
  simp only [Matrix.cons_val] at e
  rw [← (ho fun a b d e => ‖jj (S.sgn i) (S.sgn j) (S.sgn k) (S.sgn l) (legA (p i) (S.legMass c i) a) (legS (p i) (S.legMass c i) a) (legA (p j) (S.legMass c j) b) (legS (p j) (S.legMass c j) b)
    (legA (p k) (S.legMass c k) d) (legS (p k) (S.legMass c k) d) (legA (p l) (S.legMass c l) e) (legS (p l) (S.legMass c l) e) 1 0 1 0 +
    ln (S.sgn i) (S.sgn j) (legA (p i) (S.legMass c i) a) (legS (p i) (S.legMass c i) a) (legA (p j) (S.legMass c j) b) (legS (p j) (S.legMass c j) b) (-S.legMass c i) (S.legMass c j) *
    ln (S.sgn k) (S.sgn l) (legA (p k) (S.legMass c k) d) (legS (p k) (S.legMass c k) d) (legA (p l) (S.legMass c l) e) (legS (p l) (S.legMass c l) e) (-S.legMass c k) (S.legMass c l) / (c.MW ^ 2 : ℝ)‖ ^ 2)] at e
  rw [← e, Finset.mul_sum]
  refine Finset.sum_congr rfl fun s _ => ?_
  rw [ewC_charged hn hc ht rfl rfl rfl rfl rfl rfl rfl rfl rfl, norm_mul, norm_div, mul_pow, div_pow, pole_norm, hq, wSquared, Complex.norm_real, Real.norm_eq_abs, sq_abs]
  push_cast
  ring

variable (hb : Balanced p) (ht : S.theory = .standard) {m₀ m₁ m₂ m₃ : ℝ} (hl : ∀ i, S.legMass c i = ![m₀, m₁, m₂, m₃] i)
include hb ht hl

/-- a pair becomes another one -/
theorem w_pair (ha : ∀ i, (S.leg i).anti = ![false, true, false, true] i) (hn : ¬ S.neutral 1 0 2 3) (hc : S.charged 1 0 2 3) :
    ∑ s, ‖S.ewC c p (S.angs c p s) (S.sqrs c p s) 1 0 2 3‖ ^ 2 = wSquared c (mandelstamS p) * chargedCurrents m₀ m₁ m₃ m₂ c.MW (mandelstamU p) (mandelstamS p) (mandelstamT p) := by
  have a0 := ha 0; have a1 := ha 1; have a2 := ha 2; have a3 := ha 3
  have l0 := hl 0; have l1 := hl 1; have l2 := hl 2; have l3 := hl 3
  simp only [Matrix.cons_val] at a0 a1 a2 a3 l0 l1 l2 l3
  have d1 := mandel_s hp; have d2 := mandel_s' hp hb; have d3 := mandel_t hp; have d4 := mandel_t' hp hb; have d5 := mandel_u hp; have d6 := mandel_u' hp hb
  rw [w_sum hp hm order_pair hn hc ht (transfer_pair ha hb).1]
  simp only [Fin.val_zero, Fin.val_one, Fin.val_two, show ((3 : Fin 4) : Nat) = 3 from rfl]
  simp only [dot_comm (p 1) (p 0), dot_comm (p 2) (p 0), dot_comm (p 3) (p 0), dot_comm (p 3) (p 1), dot_comm (p 2) (p 1), dot_comm (p 3) (p 2), d1, d2, d3, d4, d5, d6, l0, l1, l2, l3]
  simp only [sgn, a0, a1, a2, a3, if_true, if_false, Bool.false_eq_true]
  unfold chargedCurrents alongTransfer
  ring

/-- particles scatter: the first becomes the third -/
theorem w_scatter (ha : ∀ i, (S.leg i).anti = false) (hn : ¬ S.neutral 2 0 3 1) (hc : S.charged 2 0 3 1) :
    ∑ s, ‖S.ewC c p (S.angs c p s) (S.sqrs c p s) 2 0 3 1‖ ^ 2 = wSquared c (mandelstamT p) * chargedCurrents m₀ m₂ m₁ m₃ c.MW (mandelstamS p) (mandelstamT p) (mandelstamU p) := by
  have a0 := ha 0; have a1 := ha 1; have a2 := ha 2; have a3 := ha 3
  have l0 := hl 0; have l1 := hl 1; have l2 := hl 2; have l3 := hl 3
  simp only [Matrix.cons_val] at a0 a1 a2 a3 l0 l1 l2 l3
  have d1 := mandel_s hp; have d2 := mandel_s' hp hb; have d3 := mandel_t hp; have d4 := mandel_t' hp hb; have d5 := mandel_u hp; have d6 := mandel_u' hp hb
  rw [w_sum hp hm order_scatter hn hc ht (transfer_scatter ha hb).1]
  simp only [Fin.val_zero, Fin.val_one, Fin.val_two, show ((3 : Fin 4) : Nat) = 3 from rfl]
  simp only [dot_comm (p 1) (p 0), dot_comm (p 2) (p 0), dot_comm (p 3) (p 0), dot_comm (p 3) (p 1), dot_comm (p 2) (p 1), dot_comm (p 3) (p 2), d1, d2, d3, d4, d5, d6, l0, l1, l2, l3]
  simp only [sgn, a0, a1, a2, a3, if_true, if_false, Bool.false_eq_true]
  unfold chargedCurrents alongTransfer
  ring

/-- particles scatter: the first becomes the fourth -/
theorem w_cross (ha : ∀ i, (S.leg i).anti = false) (hn : ¬ S.neutral 2 1 3 0) (hc : S.charged 2 1 3 0) :
    ∑ s, ‖S.ewC c p (S.angs c p s) (S.sqrs c p s) 2 1 3 0‖ ^ 2 = wSquared c (mandelstamU p) * chargedCurrents m₀ m₃ m₁ m₂ c.MW (mandelstamS p) (mandelstamU p) (mandelstamT p) := by
  have a0 := ha 0; have a1 := ha 1; have a2 := ha 2; have a3 := ha 3
  have l0 := hl 0; have l1 := hl 1; have l2 := hl 2; have l3 := hl 3
  simp only [Matrix.cons_val] at a0 a1 a2 a3 l0 l1 l2 l3
  have d1 := mandel_s hp; have d2 := mandel_s' hp hb; have d3 := mandel_t hp; have d4 := mandel_t' hp hb; have d5 := mandel_u hp; have d6 := mandel_u' hp hb
  rw [w_sum hp hm order_cross hn hc ht (transfer_scatter ha hb).2]
  simp only [Fin.val_zero, Fin.val_one, Fin.val_two, show ((3 : Fin 4) : Nat) = 3 from rfl]
  simp only [dot_comm (p 1) (p 0), dot_comm (p 2) (p 0), dot_comm (p 3) (p 0), dot_comm (p 3) (p 1), dot_comm (p 2) (p 1), dot_comm (p 3) (p 2), d1, d2, d3, d4, d5, d6, l0, l1, l2, l3]
  simp only [sgn, a0, a1, a2, a3, if_true, if_false, Bool.false_eq_true]
  unfold chargedCurrents alongTransfer
  ring

/-- an antiparticle scatters a particle: the second becomes the third -/
theorem w_exchange (ha : ∀ i, (S.leg i).anti = ![true, false, false, true] i) (hn : ¬ S.neutral 0 3 2 1) (hc : S.charged 0 3 2 1) :
    ∑ s, ‖S.ewC c p (S.angs c p s) (S.sqrs c p s) 0 3 2 1‖ ^ 2 = wSquared c (mandelstamU p) * chargedCurrents m₁ m₂ m₃ m₀ c.MW (mandelstamT p) (mandelstamU p) (mandelstamS p) := by
  have a0 := ha 0; have a1 := ha 1; have a2 := ha 2; have a3 := ha 3
  have l0 := hl 0; have l1 := hl 1; have l2 := hl 2; have l3 := hl 3
  simp only [Matrix.cons_val] at a0 a1 a2 a3 l0 l1 l2 l3
  have d1 := mandel_s hp; have d2 := mandel_s' hp hb; have d3 := mandel_t hp; have d4 := mandel_t' hp hb; have d5 := mandel_u hp; have d6 := mandel_u' hp hb
  rw [w_sum hp hm order_exchange hn hc ht (S.msq_exchange ha)]
  simp only [Fin.val_zero, Fin.val_one, Fin.val_two, show ((3 : Fin 4) : Nat) = 3 from rfl]
  simp only [dot_comm (p 1) (p 0), dot_comm (p 2) (p 0), dot_comm (p 3) (p 0), dot_comm (p 3) (p 1), dot_comm (p 2) (p 1), dot_comm (p 3) (p 2), d1, d2, d3, d4, d5, d6, l0, l1, l2, l3]
  simp only [sgn, a0, a1, a2, a3, if_true, if_false, Bool.false_eq_true]
  have : msq ((SM.VExp.sub 0 3).sum p) = mandelstamU p := rfl
  rw [this]
  unfold chargedCurrents alongTransfer
  ring
end
end Spec.Scattering
end Spinas
