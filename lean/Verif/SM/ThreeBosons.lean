import Verif.SM.SpinLoops

/-! The vertex of three vector bosons in spinors. -/

namespace Spinas
open Spec Matrix Props

noncomputable section

/-! ### two-component spinors -/

theorem ab_schouten (x y z w : V2) : ab w x * ab y z + ab w y * ab z x + ab w z * ab x y = 0 := by simp only [ab]; ring
theorem mb_schouten_right (S : V2) (q : V4 ℝ) (x y z : V2) : mb S q x * ab y z + mb S q y * ab z x + mb S q z * ab x y = 0 := by simp only [ab, mb_eq]; ring
theorem mb_schouten_left (x y z : V2) (q : V4 ℝ) (A : V2) : mb x q A * sb y z + mb y q A * sb z x + mb z q A * sb x y = 0 := by simp only [sb, mb_eq]; ring

theorem msq_backward (p : V4 ℝ) : msq (backward p) = msq p := by simp only [msq, backward]; ring
theorem Bold.back {p : V4 ℝ} {m : ℝ} {z : Pair} (h : Bold p m z) : Bold (backward p) (-m) z := by
  have u : slashUpper (backward p) = -slashUpper p := by ext i j; fin_cases i <;> fin_cases j <;> simp [slashUpper, backward] <;> ring
  have l : slashLower (backward p) = -slashLower p := by ext i j; fin_cases i <;> fin_cases j <;> simp [slashLower, backward] <;> ring
  constructor
  · rw [u, Matrix.neg_mulVec, h.up]; simp
  · rw [l, Matrix.neg_mulVec, h.low]; simp

section
variable {k k' : V4 ℝ} {m m' : ℝ} {z z' : Pair} (h : Bold k m z) (h' : Bold k' m' z')

include h in
/-- scalar products of momenta and polarisation vectors go -/
theorem mb_between (w : Pair) (x y : V2) : mb w.2 k w.1 * (ab z.1 x * sb y z.2) =
    m * sb w.2 z.2 * ab x w.1 * sb y z.2 + mb y k x * sb z.2 w.2 * ab w.1 z.1 - m * ab x z.1 * sb w.2 y * ab w.1 z.1 := by
  have e1 := mb_schouten_right w.2 k w.1 z.1 x
  have e2 := mb_schouten_left w.2 y z.2 k x
  rw [h.mb_right] at e1
  rw [h.mb_left] at e2
  linear_combination sb y z.2 * e1 - ab w.1 z.1 * e2

/-- the vertex between two spinors -/
def ym (k k' : V4 ℝ) (m m' : ℝ) (z z' : Pair) (x y : V2) : ℂ :=
  (ab z.1 z'.1 * sb z.2 z'.2) * (mb y k x - mb y k' x) / 2 +
    m' * (sb z.2 z'.2 * ab x z.1 * sb y z'.2 - ab z.1 z'.1 * ab x z'.1 * sb z.2 y) + m * (sb z.2 z'.2 * ab x z'.1 * sb y z.2 - ab z.1 z'.1 * ab x z.1 * sb z'.2 y)

include h h' in
theorem yangMills_pv : yangMills k (pv z.1 z.2) k' (pv z'.1 z'.2) = (-(ab z.1 z'.1 * sb z.2 z'.2) / 2) • (four k + (-1 : ℂ) • four k') + (mb z.2 k' z.1) • pv z'.1 z'.2 + (-mb z'.2 k z'.1) • pv z.1 z.2 := by
  have c1 : contract (four k + 2 * four k') (pv z.1 z.2) = mb z.2 k' z.1 := by
    have : four k + 2 * four k' = four k + (2 : ℂ) • four k' := by ext i; simp
    rw [this, (Lin.contract_left _).map_add, (Lin.contract_left _).map_smul, h.transverse, contract_four_pv, smul_eq_mul]; ring
  have c2 : contract (2 * four k + four k') (pv z'.1 z'.2) = mb z'.2 k z'.1 := by
    have : 2 * four k + four k' = (2 : ℂ) • four k + four k' := by ext i; simp
    rw [this, (Lin.contract_left _).map_add, (Lin.contract_left _).map_smul, h'.transverse, contract_four_pv, smul_eq_mul]; ring
  ext μ
  rw [yangMills, c1, c2, contract_pv]
  simp only [Pi.add_apply, Pi.smul_apply, smul_eq_mul]
  ring

include h h' in
theorem sandwich_yangMills (x y : V2) : sb y (upV (yangMills k (pv z.1 z.2) k' (pv z'.1 z'.2)) x) = ym k k' m m' z z' x y := by
  rw [yangMills_pv h h']
  simp only [upV_add, upV_smul, upV_pv, upV_four, sb_add_right, sb_smul_right, mb_upper]
  have e1 := mb_between h z' x y
  have e2 := mb_between h' z x y
  have s1 : ab z'.1 z.1 = -ab z.1 z'.1 := by simp only [ab]; ring
  have s2 : sb z'.2 z.2 = -sb z.2 z'.2 := by simp only [sb]; ring
  rw [s1, s2] at e1
  rw [s2] at e2
  unfold ym
  linear_combination e2 - e1

include h h' in
theorem lineV_yangMills (e e' : ℝ) (Ai Si Aj Sj : V2) (gL gR : ℝ) : lineV e e' Ai Si Aj Sj gL gR (yangMills k (pv z.1 z.2) k' (pv z'.1 z'.2)) =
    e' * gR * ym k k' m m' z z' Ai Sj - e * gL * ym k k' m m' z z' Aj Si := by
  have f : ab Aj (lowV (yangMills k (pv z.1 z.2) k' (pv z'.1 z'.2)) Si) = sb Si (upV (yangMills k (pv z.1 z.2) k' (pv z'.1 z'.2)) Aj) := by
    generalize yangMills k (pv z.1 z.2) k' (pv z'.1 z'.2) = V
    simp [ab, sb, lowV, upV, Matrix.mulVec, dotProduct, Fin.sum_univ_two]
    ring
  rw [lineV, f, sandwich_yangMills h h', sandwich_yangMills h h']

include h h' in
/-- the current is conserved but for a difference of masses -/
theorem four_yangMills (hm : msq k = m ^ 2) (hm' : msq k' = m' ^ 2) : contract (four (plus k k')) (yangMills k (pv z.1 z.2) k' (pv z'.1 z'.2)) = -(ab z.1 z'.1 * sb z.2 z'.2) / 2 * (m ^ 2 - m' ^ 2) := by
  have f : four (plus k k') = four k + four k' := by ext i; fin_cases i <;> simp [four, plus]
  rw [yangMills_pv h h', f]
  simp only [contract_add, contract_smul, (Lin.contract_left _).map_add, h.transverse, h'.transverse, contract_four_pv, contract_four_four]
  have d : ∀ q : V4 ℝ, ((dot q q : ℝ) : ℂ) = ((msq q : ℝ) : ℂ) := fun q => by simp only [dot, msq]; push_cast; ring
  have d' : dot k' k = dot k k' := by simp only [dot]; ring
  rw [d, d, hm, hm', d']
  push_cast
  ring

end
end
end Spinas
