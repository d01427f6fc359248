import Verif.Exact.Colours
import Mathlib.LinearAlgebra.Matrix.Trace
import Mathlib.Tactic.NoncommRing

/-! Sums over the colours of four gluons. -/

namespace Spinas
open Spec Matrix

abbrev M3 := Matrix (Fin 3) (Fin 3) ℂ

theorem gen_trace (γ : Fin 8) : (gen γ).trace = 0 := by
  fin_cases γ <;> simp [gen, gellMann, Matrix.trace, Fin.sum_univ_three]
  ring

theorem sum_gen_trace (M N : M3) : ∑ γ, (gen γ * M).trace * (gen γ * N).trace = 1 / 2 * (M * N).trace - 1 / 6 * (M.trace * N.trace) := by
  have e : ∑ γ, (gen γ * M).trace * (gen γ * N).trace = ∑ i, ∑ j, ∑ k, ∑ l, (∑ γ, gen γ i j * gen γ k l) * (M j i * N l k) := by
    simp only [Matrix.trace, Matrix.diag_apply, Matrix.mul_apply, Finset.sum_mul_sum]
    simp only [Finset.sum_mul]
    rw [Finset.sum_comm]
    refine Finset.sum_congr rfl fun i _ => ?_
    conv_rhs => rw [Finset.sum_comm]
    rw [Finset.sum_comm]
    refine Finset.sum_congr rfl fun k _ => ?_
    rw [Finset.sum_comm]
    refine Finset.sum_congr rfl fun j _ => ?_
    rw [Finset.sum_comm]
    exact Finset.sum_congr rfl fun l _ => Finset.sum_congr rfl fun γ _ => by ring
  rw [e]
  simp only [gen_fierz, Matrix.trace, Matrix.diag_apply, Matrix.mul_apply, Fin.sum_univ_three, delta]
  simp
  ring

theorem sum_gen_mid (M : M3) : ∑ γ, gen γ * M * gen γ = (1 / 2 * M.trace) • (1 : M3) - (1 / 6 : ℂ) • M := by
  ext i l
  have e : (∑ γ, gen γ * M * gen γ) i l = ∑ j, ∑ k, (∑ γ, gen γ i j * gen γ k l) * M j k := by
    simp only [Matrix.sum_apply, Matrix.mul_apply, Finset.sum_mul]
    rw [Finset.sum_comm]
    conv_rhs => rw [Finset.sum_comm]
    refine Finset.sum_congr rfl fun k _ => ?_
    rw [Finset.sum_comm]
    exact Finset.sum_congr rfl fun j _ => Finset.sum_congr rfl fun γ _ => by ring
  rw [e]
  simp only [gen_fierz, Matrix.trace, Matrix.diag_apply, Fin.sum_univ_three, Matrix.sub_apply, Matrix.smul_apply, Matrix.one_apply, smul_eq_mul, delta]
  fin_cases i <;> fin_cases l <;> simp <;> ring

/-- commutators of the generators -/
noncomputable def com (A B : M3) : M3 := A * B - B * A

theorem com_trace (A B : M3) : (com A B).trace = 0 := by rw [com, Matrix.trace_sub, Matrix.trace_mul_comm, sub_self]
theorem com_move (A B X : M3) : (com A B * X).trace = (A * com B X).trace := by
  rw [com, com, Matrix.sub_mul, Matrix.mul_sub, Matrix.trace_sub, Matrix.trace_sub, Matrix.mul_assoc, Matrix.mul_assoc, Matrix.trace_mul_comm B, Matrix.mul_assoc]

theorem structureConstant_eq (a b d : Fin 8) : structureConstant a b d = -2 * Complex.I * (com (gen a) (gen b) * gen d).trace := by
  simp only [structureConstant, com, gen, Matrix.trace, Matrix.diag_apply, Matrix.smul_mul, Matrix.mul_smul, ← smul_sub, smul_smul, Matrix.smul_apply, smul_eq_mul, ← Finset.mul_sum]
  ring

theorem gen_conjTranspose (γ : Fin 8) : (gen γ)ᴴ = gen γ := by
  ext i j; rw [Matrix.conjTranspose_apply, gen_star]

/-- The structure constants are real. -/
theorem structureConstant_star (a b d : Fin 8) : star (structureConstant a b d) = structureConstant a b d := by
  rw [structureConstant_eq, star_mul', ← Matrix.trace_conjTranspose, Matrix.conjTranspose_mul, com, Matrix.conjTranspose_sub, Matrix.conjTranspose_mul, Matrix.conjTranspose_mul, gen_conjTranspose, gen_conjTranspose, gen_conjTranspose,
    Matrix.trace_mul_comm, ← neg_sub, Matrix.neg_mul, Matrix.trace_neg]
  simp
theorem adjoint_star (a b d e : Fin 8) : star (adjoint a b d e) = adjoint a b d e := by
  simp only [adjoint, star_sum, star_mul', structureConstant_star]

theorem adjoint_eq (a b d e : Fin 8) : adjoint a b d e = -2 * (com (gen a) (gen b) * com (gen d) (gen e)).trace := by
  have k : ∀ x, structureConstant a b x * structureConstant d e x = -4 * ((gen x * com (gen a) (gen b)).trace * (gen x * com (gen d) (gen e)).trace) := fun x => by
    rw [structureConstant_eq, structureConstant_eq, Matrix.trace_mul_comm, Matrix.trace_mul_comm (com (gen d) (gen e))]
    linear_combination 4 * ((gen x * com (gen a) (gen b)).trace * (gen x * com (gen d) (gen e)).trace) * Complex.I_sq
  simp only [adjoint, k, ← Finset.mul_sum, sum_gen_trace, com_trace]
  ring

/-- Jacobi -/
theorem adjoint_jacobi (a b d e : Fin 8) : adjoint a b d e - adjoint a d b e + adjoint a e b d = 0 := by
  have k : com (gen b) (com (gen d) (gen e)) - com (gen d) (com (gen b) (gen e)) + com (gen e) (com (gen b) (gen d)) = 0 := by
    unfold com; noncomm_ring
  have := congrArg (fun X => (gen a * X).trace) k
  simp only [Matrix.mul_add, Matrix.mul_sub, Matrix.trace_add, Matrix.trace_sub, Matrix.mul_zero, Matrix.trace_zero] at this
  rw [adjoint_eq, adjoint_eq, adjoint_eq, com_move, com_move, com_move]
  linear_combination -2 * this

theorem sum_structure (x y : Fin 8) : ∑ a, ∑ b, structureConstant a b x * structureConstant a b y = 6 * (gen x * gen y).trace := by
  have k : ∀ b, ∑ a, structureConstant a b x * structureConstant a b y = -2 * (com (gen b) (gen x) * com (gen b) (gen y)).trace := fun b => by
    have : ∀ a, structureConstant a b x * structureConstant a b y = -4 * ((gen a * com (gen b) (gen x)).trace * (gen a * com (gen b) (gen y)).trace) := fun a => by
      rw [structureConstant_eq, structureConstant_eq, com_move, com_move]
      linear_combination 4 * ((gen a * com (gen b) (gen x)).trace * (gen a * com (gen b) (gen y)).trace) * Complex.I_sq
    simp only [this, ← Finset.mul_sum, sum_gen_trace, com_trace]
    ring
  have e : ∀ b, (com (gen b) (gen x) * com (gen b) (gen y)).trace = (gen b * gen x * gen b * gen y).trace + (gen x * (gen b * gen y * gen b)).trace - (gen b * (gen x * gen y) * gen b).trace - (gen x * (gen b * 1 * gen b) * gen y).trace := fun b => by
    simp only [com, Matrix.mul_sub, Matrix.sub_mul, Matrix.trace_sub, Matrix.mul_one, Matrix.mul_assoc]
    ring
  rw [Finset.sum_comm]
  simp only [k, ← Finset.mul_sum, e, Finset.sum_add_distrib, Finset.sum_sub_distrib]
  simp only [← Matrix.trace_sum, ← Finset.sum_mul, ← Finset.mul_sum, sum_gen_mid]
  simp only [gen_trace, mul_zero, zero_smul, zero_sub, Matrix.neg_mul, Matrix.mul_neg, Matrix.smul_mul, Matrix.mul_smul, Matrix.trace_neg, Matrix.trace_smul, Matrix.trace_sub, Matrix.trace_one, Matrix.mul_sub, Matrix.sub_mul, Matrix.mul_one, smul_eq_mul, Fintype.card_fin, smul_sub, smul_smul]
  push_cast
  ring

theorem sum_trace_sq : ∑ x, ∑ y, (gen x * gen y).trace * (gen x * gen y).trace = 2 := by
  have k : ∀ y, ∑ x, (gen x * gen y).trace * (gen x * gen y).trace = 1 / 2 * (gen y * 1 * gen y).trace := fun y => by
    rw [sum_gen_trace, gen_trace]; simp
  rw [Finset.sum_comm]
  simp only [k, ← Finset.mul_sum, ← Matrix.trace_sum, sum_gen_mid]
  simp only [Matrix.trace_sub, Matrix.trace_smul, Matrix.trace_one, Fintype.card_fin, smul_eq_mul]
  norm_num

theorem adjoint_sq : ∑ a, ∑ b, ∑ d, ∑ e, adjoint a b d e * adjoint a b d e = 72 := by
  have k : ∀ a b, ∑ d, ∑ e, adjoint a b d e * adjoint a b d e = ∑ x, ∑ y, structureConstant a b x * structureConstant a b y * (6 * (gen x * gen y).trace) := fun a b => by
    have sq : ∀ d e, adjoint a b d e * adjoint a b d e = ∑ x, ∑ y, structureConstant a b x * structureConstant d e x * (structureConstant a b y * structureConstant d e y) := fun d e => Finset.sum_mul_sum ..
    simp only [← sum_structure, sq]
    simp only [Finset.mul_sum]
    conv_lhs => enter [2, d]; rw [Finset.sum_comm]
    rw [Finset.sum_comm]
    refine Finset.sum_congr rfl fun x _ => ?_
    conv_lhs => enter [2, d]; rw [Finset.sum_comm]
    rw [Finset.sum_comm]
    refine Finset.sum_congr rfl fun y _ => Finset.sum_congr rfl fun d _ => Finset.sum_congr rfl fun e _ => by ring
  simp only [k]
  have h : ∀ F : Fin 8 → Fin 8 → Fin 8 → Fin 8 → ℂ, ∑ a, ∑ b, ∑ x, ∑ y, F a b x y = ∑ x, ∑ y, ∑ a, ∑ b, F a b x y := fun F => by
    conv_lhs => enter [2, a]; rw [Finset.sum_comm]
    rw [Finset.sum_comm]
    refine Finset.sum_congr rfl fun x _ => ?_
    conv_lhs => enter [2, a]; rw [Finset.sum_comm]
    rw [Finset.sum_comm]
  rw [h]
  simp only [← Finset.sum_mul, sum_structure]
  have : ∀ x y, 6 * (gen x * gen y).trace * (6 * (gen x * gen y).trace) = 36 * ((gen x * gen y).trace * (gen x * gen y).trace) := fun x y => by ring
  simp only [this, ← Finset.mul_sum, sum_trace_sq]
  norm_num

/-- the sum over all colours -/
noncomputable def sum4 (F : Fin 8 → Fin 8 → Fin 8 → Fin 8 → ℂ) : ℂ := ∑ a, ∑ b, ∑ d, ∑ e, F a b d e
theorem sum4_swap (F : Fin 8 → Fin 8 → Fin 8 → Fin 8 → ℂ) : sum4 (fun a b d e => F a d b e) = sum4 F := by
  unfold sum4
  exact Finset.sum_congr rfl fun a _ => Finset.sum_comm
theorem sum4_turn (F : Fin 8 → Fin 8 → Fin 8 → Fin 8 → ℂ) : sum4 (fun a b d e => F a e b d) = sum4 F := by
  unfold sum4
  refine Finset.sum_congr rfl fun a _ => ?_
  conv_lhs => enter [2, b]; rw [Finset.sum_comm]
  exact Finset.sum_comm
theorem sum4_add (F G : Fin 8 → Fin 8 → Fin 8 → Fin 8 → ℂ) : sum4 (fun a b d e => F a b d e + G a b d e) = sum4 F + sum4 G := by
  simp only [sum4, Finset.sum_add_distrib]
theorem sum4_mul (r : ℂ) (F : Fin 8 → Fin 8 → Fin 8 → Fin 8 → ℂ) : sum4 (fun a b d e => r * F a b d e) = r * sum4 F := by
  simp only [sum4, Finset.mul_sum]

theorem sum4_ss : sum4 (fun a b d e => adjoint a b d e * adjoint a b d e) = 72 := adjoint_sq
theorem sum4_tt : sum4 (fun a b d e => adjoint a d b e * adjoint a d b e) = 72 := (sum4_swap fun a b d e => adjoint a b d e * adjoint a b d e).trans sum4_ss
theorem sum4_uu : sum4 (fun a b d e => adjoint a e b d * adjoint a e b d) = 72 := (sum4_turn fun a b d e => adjoint a b d e * adjoint a b d e).trans sum4_ss
theorem sum4_st : sum4 (fun a b d e => adjoint a b d e * adjoint a d b e) = 36 := by
  have k : sum4 (fun a b d e => adjoint a e b d * adjoint a e b d) = sum4 (fun a b d e => adjoint a b d e * adjoint a b d e) + sum4 (fun a b d e => adjoint a d b e * adjoint a d b e) + -2 * sum4 (fun a b d e => adjoint a b d e * adjoint a d b e) := by
    rw [← sum4_mul, ← sum4_add, ← sum4_add]
    congr 1
    funext a b d e
    linear_combination (adjoint a e b d - adjoint a b d e + adjoint a d b e) * adjoint_jacobi a b d e
  rw [sum4_ss, sum4_tt, sum4_uu] at k
  linear_combination (1 / 2) * k
theorem sum4_su : sum4 (fun a b d e => adjoint a b d e * adjoint a e b d) = -36 := by
  have k : sum4 (fun a b d e => adjoint a d b e * adjoint a d b e) = sum4 (fun a b d e => adjoint a b d e * adjoint a b d e) + sum4 (fun a b d e => adjoint a e b d * adjoint a e b d) + 2 * sum4 (fun a b d e => adjoint a b d e * adjoint a e b d) := by
    rw [← sum4_mul, ← sum4_add, ← sum4_add]
    congr 1
    funext a b d e
    linear_combination -(adjoint a d b e + adjoint a b d e + adjoint a e b d) * adjoint_jacobi a b d e
  rw [sum4_ss, sum4_tt, sum4_uu] at k
  linear_combination -(1 / 2) * k
theorem sum4_tu : sum4 (fun a b d e => adjoint a d b e * adjoint a e b d) = 36 := by
  have k : sum4 (fun a b d e => adjoint a b d e * adjoint a b d e) = sum4 (fun a b d e => adjoint a d b e * adjoint a d b e) + sum4 (fun a b d e => adjoint a e b d * adjoint a e b d) + -2 * sum4 (fun a b d e => adjoint a d b e * adjoint a e b d) := by
    rw [← sum4_mul, ← sum4_add, ← sum4_add]
    congr 1
    funext a b d e
    linear_combination (adjoint a b d e + adjoint a d b e - adjoint a e b d) * adjoint_jacobi a b d e
  rw [sum4_ss, sum4_tt, sum4_uu] at k
  linear_combination (1 / 2) * k

/-- The colours of four gluons: only differences of the three exchanges matter. -/
theorem adjoint_norm (x y z : ℂ) : ∑ a, ∑ b, ∑ d, ∑ e, ‖adjoint a b d e * x + adjoint a d b e * y + adjoint a e b d * z‖ ^ 2 = 36 * (‖x + y‖ ^ 2 + ‖y + z‖ ^ 2 + ‖z - x‖ ^ 2) := by
  have n : ∀ z : ℂ, ((‖z‖ ^ 2 : ℝ) : ℂ) = z * star z := fun z => by rw [Complex.star_def, Complex.mul_conj, Complex.normSq_eq_norm_sq]
  have k : sum4 (fun a b d e => ((‖adjoint a b d e * x + adjoint a d b e * y + adjoint a e b d * z‖ ^ 2 : ℝ) : ℂ)) =
      x * star x * 72 + y * star y * 72 + z * star z * 72 + (x * star y + y * star x) * 36 + (x * star z + z * star x) * -36 + (y * star z + z * star y) * 36 := by
    have e : ∀ a b d e : Fin 8, ((‖adjoint a b d e * x + adjoint a d b e * y + adjoint a e b d * z‖ ^ 2 : ℝ) : ℂ) =
        x * star x * (adjoint a b d e * adjoint a b d e) + y * star y * (adjoint a d b e * adjoint a d b e) + z * star z * (adjoint a e b d * adjoint a e b d) +
        (x * star y + y * star x) * (adjoint a b d e * adjoint a d b e) + (x * star z + z * star x) * (adjoint a b d e * adjoint a e b d) + (y * star z + z * star y) * (adjoint a d b e * adjoint a e b d) := by
      intro a b d e
      rw [n]
      simp only [star_add, star_mul', adjoint_star]
      ring
    simp only [e, sum4_add, sum4_mul, sum4_ss, sum4_tt, sum4_uu, sum4_st, sum4_su, sum4_tu]
  have : ((∑ a, ∑ b, ∑ d, ∑ e, ‖adjoint a b d e * x + adjoint a d b e * y + adjoint a e b d * z‖ ^ 2 : ℝ) : ℂ) = ((36 * (‖x + y‖ ^ 2 + ‖y + z‖ ^ 2 + ‖z - x‖ ^ 2) : ℝ) : ℂ) := by
    simp only [Complex.ofReal_sum]
    refine k.trans ?_
    push_cast [Complex.ofReal_mul, Complex.ofReal_add, n]
    simp only [star_add, star_sub]
    ring
  exact_mod_cast this

end Spinas
