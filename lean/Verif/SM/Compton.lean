import Verif.SM.LightLine
import Verif.Props.Gluons

/-! Sums over spins of the brackets that occur in the amplitudes of a fermion line with two massless vector bosons. -/

namespace Spinas
open Spec Props Matrix

/-! ### brackets times conjugated brackets -/

/-- `tr (X adj(Y))` -/
def adj2 (X Y : M2) : ℂ := X 1 1 * Y 0 0 - X 1 0 * Y 0 1 - X 0 1 * Y 1 0 + X 0 0 * Y 1 1

theorem adj2_sum_left {ι : Type*} (s : Finset ι) (X : ι → M2) (Y : M2) : adj2 (∑ i ∈ s, X i) Y = ∑ i ∈ s, adj2 (X i) Y := by
  simp only [adj2, Matrix.sum_apply, Finset.sum_mul, ← Finset.sum_sub_distrib, ← Finset.sum_add_distrib]
theorem adj2_sum_right {ι : Type*} (s : Finset ι) (X : M2) (Y : ι → M2) : adj2 X (∑ i ∈ s, Y i) = ∑ i ∈ s, adj2 X (Y i) := by
  simp only [adj2, Matrix.sum_apply, Finset.mul_sum, ← Finset.sum_sub_distrib, ← Finset.sum_add_distrib]

theorem ab_conj (x y x' y' : V2) : ab x y * star (ab x' y') = adj2 (vecMulVec x (star x')) (vecMulVec y (star y')) := by
  simp only [ab, adj2, vecMulVec_apply, Pi.star_apply, star_sub, star_mul']; ring
theorem sb_neg (x y : V2) : sb x y = -ab x y := by simp only [sb, ab]; ring
theorem normSq_star (z : ℂ) : ((‖z‖ ^ 2 : ℝ) : ℂ) = z * star z := by
  rw [Complex.star_def, Complex.mul_conj, Complex.normSq_eq_norm_sq]

theorem adj2_lower (p q : V4 ℝ) : adj2 (slashLower p) (slashLower q) = ((2 * dot p q : ℝ) : ℂ) := by
  apply Complex.ext <;> simp [adj2, slashLower, dot] <;> ring
theorem adj2_upper (p q : V4 ℝ) : adj2 (slashUpper p) (slashUpper q) = ((2 * dot p q : ℝ) : ℂ) := by
  apply Complex.ext <;> simp [adj2, slashUpper, dot] <;> ring
theorem adj2_mid (p k k' : V4 ℝ) : adj2 (slashUpper k) (slashUpper p * slashLower k' * (slashUpper p)ᴴ) = ((2 * dot k p * (2 * dot k' p) - msq p * (2 * dot k k') : ℝ) : ℂ) := by
  apply Complex.ext <;> simp [adj2, slashUpper, slashLower, dot, msq, Matrix.mul_apply, Fin.sum_univ_two, Matrix.conjTranspose_apply, pow_two] <;> ring

/-! ### spinors of the particles -/

/-- the spinors of a massless particle -/
structure Ray (k : V4 ℝ) (z : Pair) : Prop where
  aa : vecMulVec z.1 (star z.1) = slashLower k
  ss : vecMulVec z.2 (star z.2) = slashUpper k
  conj : z.2 = ![star (z.1 1), -star (z.1 0)]

theorem ray_code [FPEnv] {k : V4 ℝ} (hk : OnShell k 0) : Ray k (legA k 0 0, legS k 0 1) := by
  have g := legs_grams hk le_rfl
  have a : legA k 0 1 = 0 := legA_zero rfl rfl
  have s : legS k 0 0 = 0 := legS_zero rfl rfl
  refine ⟨?_, ?_, (light_code hk).conj⟩
  · have := g.aa; simpa [Fin.sum_univ_two, a] using this
  · have := g.ss; simpa [Fin.sum_univ_two, s] using this

section
variable {k k' p p' : V4 ℝ} {m m' : ℝ} {z z' : Pair} {A S A' S' : Fin 2 → V2}

theorem Ray.ab_norm (h : Ray k z) (h' : Ray k' z') : ‖ab z.1 z'.1‖ ^ 2 = 2 * dot k k' := by
  have : ((‖ab z.1 z'.1‖ ^ 2 : ℝ) : ℂ) = ((2 * dot k k' : ℝ) : ℂ) := by rw [normSq_star, ab_conj, h.aa, h'.aa, adj2_lower]
  exact_mod_cast this
theorem Ray.sb_norm (h : Ray k z) (h' : Ray k' z') : ‖sb z.2 z'.2‖ ^ 2 = 2 * dot k k' := by
  have : ((‖sb z.2 z'.2‖ ^ 2 : ℝ) : ℂ) = ((2 * dot k k' : ℝ) : ℂ) := by rw [sb_neg, norm_neg, normSq_star, ab_conj, h.ss, h'.ss, adj2_upper]
  exact_mod_cast this
theorem Ray.mb_norm (h : Ray k z) (h' : Ray k' z') (p : V4 ℝ) : ‖mb z.2 p z'.1‖ ^ 2 = 2 * dot k p * (2 * dot k' p) - msq p * (2 * dot k k') := by
  have : ((‖mb z.2 p z'.1‖ ^ 2 : ℝ) : ℂ) = ((2 * dot k p * (2 * dot k' p) - msq p * (2 * dot k k') : ℝ) : ℂ) := by
    rw [mb, sb_neg, norm_neg, normSq_star, ab_conj, h.ss, ← adj2_mid, ← h'.aa, Matrix.star_mulVec, Matrix.mul_vecMulVec, Matrix.vecMulVec_mul]
  exact_mod_cast this

/-- the brackets of two massive particles -/
theorem Grams.ab_norm (h : Grams p m A S) (h' : Grams p' m' A' S') : ∑ s, ∑ s', ‖ab (A s) (A' s')‖ ^ 2 = 2 * dot p p' := by
  have : ((∑ s, ∑ s', ‖ab (A s) (A' s')‖ ^ 2 : ℝ) : ℂ) = ((2 * dot p p' : ℝ) : ℂ) := by
    rw [← adj2_lower, ← h.aa, ← h'.aa, adj2_sum_left, Complex.ofReal_sum]
    refine Finset.sum_congr rfl fun s _ => ?_
    rw [adj2_sum_right, Complex.ofReal_sum]
    exact Finset.sum_congr rfl fun s' _ => by rw [normSq_star, ab_conj]
  exact_mod_cast this
theorem Grams.sb_norm (h : Grams p m A S) (h' : Grams p' m' A' S') : ∑ s, ∑ s', ‖sb (S s) (S' s')‖ ^ 2 = 2 * dot p p' := by
  have : ((∑ s, ∑ s', ‖sb (S s) (S' s')‖ ^ 2 : ℝ) : ℂ) = ((2 * dot p p' : ℝ) : ℂ) := by
    rw [← adj2_upper, ← h.ss, ← h'.ss, adj2_sum_left, Complex.ofReal_sum]
    refine Finset.sum_congr rfl fun s _ => ?_
    rw [adj2_sum_right, Complex.ofReal_sum]
    exact Finset.sum_congr rfl fun s' _ => by rw [sb_neg, norm_neg, normSq_star, ab_conj]
  exact_mod_cast this

/-- sums over the spins of one massive particle -/
theorem Ray.sum_sb (h : Ray k z) (g : Grams p m A S) : ∑ s, sb z.2 (S s) * star (sb z.2 (S s)) = ((2 * dot k p : ℝ) : ℂ) := by
  rw [← adj2_upper, ← h.ss, ← g.ss, adj2_sum_right]
  exact Finset.sum_congr rfl fun s _ => by rw [sb_neg, star_neg, neg_mul_neg, ab_conj]
theorem Ray.sum_ab (h : Ray k z) (g : Grams p m A S) : ∑ s, ab z.1 (A s) * star (ab z.1 (A s)) = ((2 * dot k p : ℝ) : ℂ) := by
  rw [← adj2_lower, ← h.aa, ← g.aa, adj2_sum_right]
  exact Finset.sum_congr rfl fun s _ => by rw [ab_conj]
theorem Ray.sum_mixed (h' : Ray k' z') (g : Grams p m A S) : ∑ s, sb z.2 (S s) * star (ab z'.1 (A s)) = -(m * sb z.2 z'.2) := by
  have e : ∑ s, sb z.2 (S s) * star (ab z'.1 (A s)) = -adj2 (vecMulVec z.2 (star z'.1)) ((-m : ℂ) • 1) := by
    rw [← g.sa, adj2_sum_right, ← Finset.sum_neg_distrib]
    exact Finset.sum_congr rfl fun s _ => by rw [sb_neg, neg_mul, ab_conj]
  rw [e, h'.conj]
  simp [adj2, vecMulVec_apply, sb]
  ring

/-- the interference of two diagrams with opposite helicities of the massless particles -/
theorem Ray.unlike (h : Ray k z) (h' : Ray k' z') (g : Grams p m A S) (g' : Grams p' m' A' S') (η : ℝ) :
    ∑ s, ∑ s', ‖sb z.2 (S s) * ab z'.1 (A' s') + η * (sb z.2 (S' s') * ab z'.1 (A s))‖ ^ 2 =
      2 * dot k p * (2 * dot k' p') + η ^ 2 * (2 * dot k p' * (2 * dot k' p)) + 2 * η * (m * m') * (2 * dot k k') := by
  have e : ∀ s s', ((‖sb z.2 (S s) * ab z'.1 (A' s') + η * (sb z.2 (S' s') * ab z'.1 (A s))‖ ^ 2 : ℝ) : ℂ) =
      (sb z.2 (S s) * star (sb z.2 (S s))) * (ab z'.1 (A' s') * star (ab z'.1 (A' s'))) + η ^ 2 * ((ab z'.1 (A s) * star (ab z'.1 (A s))) * (sb z.2 (S' s') * star (sb z.2 (S' s')))) +
      η * ((sb z.2 (S s) * star (ab z'.1 (A s))) * star (sb z.2 (S' s') * star (ab z'.1 (A' s')))) + η * (star (sb z.2 (S s) * star (ab z'.1 (A s))) * (sb z.2 (S' s') * star (ab z'.1 (A' s')))) := by
    intro s s'
    rw [normSq_star]
    simp only [star_add, star_mul', star_star, Complex.star_def, Complex.conj_ofReal, Complex.conj_conj]
    ring
  have c : ((∑ s, ∑ s', ‖sb z.2 (S s) * ab z'.1 (A' s') + η * (sb z.2 (S' s') * ab z'.1 (A s))‖ ^ 2 : ℝ) : ℂ) =
      ((2 * dot k p * (2 * dot k' p') + η ^ 2 * (2 * dot k p' * (2 * dot k' p)) + 2 * η * (m * m') * (2 * dot k k') : ℝ) : ℂ) := by
    simp only [Complex.ofReal_sum, e, Finset.sum_add_distrib, ← Finset.mul_sum, ← Finset.sum_mul, ← star_sum]
    have n : sb z.2 z'.2 * star (sb z.2 z'.2) = ((2 * dot k k' : ℝ) : ℂ) := by rw [← normSq_star, h.sb_norm h']
    rw [h.sum_sb g, h'.sum_ab g', h.sum_sb g', h'.sum_ab g, h'.sum_mixed g, h'.sum_mixed g']
    simp only [star_neg, star_mul', Complex.star_def, Complex.conj_ofReal] at n ⊢
    push_cast at n ⊢
    linear_combination (2 * η * (m * m') : ℂ) * n
  exact_mod_cast c
theorem Ray.unlike' (h : Ray k z) (h' : Ray k' z') (g : Grams p m A S) (g' : Grams p' m' A' S') (η : ℝ) :
    ∑ s, ∑ s', ‖ab z.1 (A s) * sb z'.2 (S' s') + η * (ab z.1 (A' s') * sb z'.2 (S s))‖ ^ 2 =
      2 * dot k p * (2 * dot k' p') + η ^ 2 * (2 * dot k p' * (2 * dot k' p)) + 2 * η * (m * m') * (2 * dot k k') := by
  have := h'.unlike h g' g η
  rw [Finset.sum_comm] at this
  rw [show dot k k' = dot k' k by simp only [dot]; ring]
  convert this using 1
  · exact Finset.sum_congr rfl fun s _ => Finset.sum_congr rfl fun s' _ => by rw [mul_comm (ab z.1 (A s)), mul_comm (ab z.1 (A' s'))]
  · ring
end

end Spinas
