import Verif.Exact.Algebra
import Verif.Props.ParticleHistory

/-! Properties C47 - C49: matrices and vectors. -/

namespace Spinas.Props
open Spinas Matrix XR

section generic
variable {R C : Type} [Scalar R] [Cplx R C]

/-- **C47 (aliasing).** The compound assignments store the sum, difference or product of the values the operands had before, also
when both operands are the same object, and change no other object (any arithmetic). -/
theorem C47_aliasing (h : CMat.Store C) (dst src : Nat) :
    CMat.addAssign dst src h = h.put dst (h dst + h src) ∧ CMat.subAssign dst src h = h.put dst (h dst - h src) ∧
    CMat.mulAssign dst src h = h.put dst (h dst * h src) := by
  refine ⟨?_, ?_, ?_⟩
  all_goals
    funext a
    simp only [CMat.addAssign, CMat.subAssign, CMat.mulAssign, CMat.loopOrder, List.foldl_cons, List.foldl_nil, CMat.assignStep,
      CMat.Store.put, CMat.setEntry, CMat.entry]
    by_cases e : src = dst
    · subst e; by_cases ha : a = src <;> simp [ha] <;> rfl
    · by_cases ha : a = dst <;> simp [ha, e] <;> rfl

/-- **C49.** `get` returns the entry for indices in {0,1} and throws `out_of_range` for all others. -/
theorem C49_index_guards (m : CMat C) (v : CVec C) (i j : Int) :
    (m.get i j = if (i = 0 ∨ i = 1) ∧ (j = 0 ∨ j = 1) then
        .ok (if i = 0 then (if j = 0 then m.m00 else m.m01) else (if j = 0 then m.m10 else m.m11))
      else .throw .outOfRange) ∧
    (v.get i = if i = 0 then .ok v.v0 else if i = 1 then .ok v.v1 else .throw .outOfRange) := by
  have key : ∀ i : Int, (i = 0 ∨ i = 1) ↔ ¬ (i < 0 ∨ i ≥ 2) := by intro i; omega
  constructor
  · unfold CMat.get
    by_cases hi : i = 0 ∨ i = 1
    · by_cases hj : j = 0 ∨ j = 1
      · have hc : ¬ (i < 0 ∨ i ≥ 2 ∨ j < 0 ∨ j ≥ 2) := by omega
        rw [if_neg hc, if_pos ⟨hi, hj⟩]
        rcases hi with rfl | rfl <;> rcases hj with rfl | rfl <;> simp [CMat.entry]
      · have hc : i < 0 ∨ i ≥ 2 ∨ j < 0 ∨ j ≥ 2 := by omega
        rw [if_pos hc, if_neg (fun h => hj h.2)]
    · have hc : i < 0 ∨ i ≥ 2 ∨ j < 0 ∨ j ≥ 2 := by omega
      rw [if_pos hc, if_neg (fun h => hi h.1)]
  · unfold CVec.get
    by_cases h0 : i = 0
    · subst h0; simp
    · by_cases h1 : i = 1
      · subst h1; simp
      · have hc : i < 0 ∨ i ≥ 2 := by omega
        rw [if_pos hc, if_neg h0, if_neg h1]

/-- **C48 (any arithmetic).** `!=` is the negation of `==`, and an entry whose distance compares false against the tolerance
(in IEEE arithmetic: in particular if the distance is NaN) never makes matrices or vectors unequal. -/
theorem C48_negation (a b : CMat C) (v w : CVec C) :
    CMat.bne a b = !CMat.beq a b ∧ CVec.bne v w = !CVec.beq v w ∧
    ((∀ x : R, Scalar.lt (Scalar.eps * int 1000000 : R) x = true → Scalar.isNaN x = false) →
      (∀ i j, Scalar.isNaN (Cplx.abs (a.entry i j - b.entry i j) : R) = true) → CMat.beq a b = true) := by
  refine ⟨rfl, rfl, fun hl h => ?_⟩
  have key : ∀ i j, CMat.entryDiffers (a.entry i j) (b.entry i j) = false := by
    intro i j
    unfold CMat.entryDiffers
    by_contra hc
    rw [Bool.not_eq_false] at hc
    have := hl _ hc
    rw [h i j] at this
    cases this
  have h1 := key false false
  have h2 := key false true
  have h3 := key true false
  have h4 := key true true
  simp only [CMat.entry] at h1 h2 h3 h4
  simp [CMat.beq, h1, h2, h3, h4]

end generic

section exact
variable [FPEnv]

/-- **C47, the determinant.** `get_det` returns the real part of the determinant if its imaginary part is at most `10^6` machine
epsilons in size, of either sign, and throws otherwise. -/
theorem C47_det_guard (A : M2) :
    (|A.det.im| ≤ FPEnv.eps * 1000000 → (XM A).getDet = .ok (fin A.det.re)) ∧
    (FPEnv.eps * 1000000 < |A.det.im| → (XM A).getDet = .throw .complexDet) := by
  have e : ofC (A 0 0) * ofC (A 1 1) - ofC (A 0 1) * ofC (A 1 0) = ofC A.det := by simp [Matrix.det_fin_two]
  have g : Scalar.lt (Scalar.eps * int 1000000) (Scalar.abs (Cplx.im (ofC A.det)) : XR) = decide (FPEnv.eps * 1000000 < |A.det.im|) := by
    simp
  unfold CMat.getDet
  simp only [XM, e, g, c_re]
  exact ⟨fun h => by rw [if_neg (by simpa using h)], fun h => by rw [if_pos (by simpa using h)]⟩

/-- **C47.** On finite values the operators of cmatrix and cvector are the operations of linear algebra. -/
theorem C47_operators (A B : M2) (v w : V2) (z : ℂ) (r : ℝ) (n : ℤ) :
    XM A + XM B = XM (A + B) ∧ XM A - XM B = XM (A - B) ∧ -XM A = XM (-A) ∧ XM A * XM B = XM (A * B) ∧
    (XM A).mulC (ofC z) = XM (z • A) ∧ (XM A).mulR (fin r) = XM ((r : ℂ) • A) ∧ (XM A).mulI n = XM ((n : ℂ) • A) ∧
    (z ≠ 0 → (XM A).divC (ofC z) = XM (z⁻¹ • A)) ∧ (r ≠ 0 → (XM A).divR (fin r) = XM ((r : ℂ)⁻¹ • A)) ∧
    (n ≠ 0 → (XM A).divI n = XM ((n : ℂ)⁻¹ • A)) ∧
    (A.det.im = 0 → (XM A).getDet = .ok (fin A.det.re)) ∧
    CVec.dot (XV v) (XV w) = ofC (v ⬝ᵥ w) ∧ CVec.mulM (XV v) (XM A) = XV (v ᵥ* A) ∧ CVec.mMul (XM A) (XV v) = XV (A *ᵥ v) ∧
    CVec.mulC (ofC z) (XV v) = XV (z • v) ∧ CVec.mulR (fin r) (XV v) = XV ((r : ℂ) • v) ∧ CVec.mulI n (XV v) = XV ((n : ℂ) • v) ∧
    -XV v = XV (-v) ∧ (XV v).conj = XV (star v) ∧ CVec.outer (XV v) (XV w) = XM (vecMulVec v w) := by
  refine ⟨XM_add _ _, XM_sub _ _, XM_neg _, XM_mul _ _, XM_mulC _ _, XM_mulR _ _, XM_mulI _ _, XM_divC _ _, XM_divR _ _, ?_,
    XM_getDet _, XV_dot _ _, XV_mulM _ _, XV_mMul _ _, XV_mulC _ _, XV_mulR _ _, XV_mulI _ _, XV_neg _, XV_conj _, XV_outer _ _⟩
  intro hn
  have : ((n : ℤ) : ℝ) ≠ 0 := by exact_mod_cast hn
  simpa [CMat.divI] using XM_divR A (n : ℝ) this

/-- **C47 (laws).** Associativity, distributivity, compatibility of matrices with vectors, outer products. -/
theorem C47_laws (A B D : M2) (u v w : V2) :
    (XM A * XM B) * XM D = XM A * (XM B * XM D) ∧ XM A * (XM B + XM D) = XM A * XM B + XM A * XM D ∧
    (XM A + XM B) * XM D = XM A * XM D + XM B * XM D ∧
    CVec.mMul (XM A * XM B) (XV v) = CVec.mMul (XM A) (CVec.mMul (XM B) (XV v)) ∧
    CVec.mulM (XV v) (XM A * XM B) = CVec.mulM (CVec.mulM (XV v) (XM A)) (XM B) ∧
    CVec.dot (CVec.mulM (XV v) (XM A)) (XV w) = CVec.dot (XV v) (CVec.mMul (XM A) (XV w)) ∧
    CVec.mMul (CVec.outer (XV u) (XV v)) (XV w) = CVec.mulC (CVec.dot (XV v) (XV w)) (XV u) ∧
    (A.det.im = 0 → B.det.im = 0 → ∃ a b ab, (XM A).getDet = .ok (fin a) ∧ (XM B).getDet = .ok (fin b) ∧
      (XM A * XM B).getDet = .ok (fin ab) ∧ ab = a * b) := by
  refine ⟨by simp [Matrix.mul_assoc], by simp [Matrix.mul_add], by simp [Matrix.add_mul], by simp [Matrix.mulVec_mulVec],
    by simp [Matrix.vecMul_vecMul], by simp [Matrix.dotProduct_mulVec], ?_, ?_⟩
  · simp only [XV_outer, XV_mMul, XV_dot, XV_mulC, XV_inj]
    ext i
    simp [mulVec, vecMulVec_apply, dotProduct, Fin.sum_univ_two]; ring
  · intro hA hB
    refine ⟨_, _, (A * B).det.re, XM_getDet A hA, XM_getDet B hB, ?_, ?_⟩
    · rw [XM_mul, XM_getDet]
      rw [Matrix.det_mul, Complex.mul_im, hA, hB]; ring
    · rw [Matrix.det_mul, Complex.mul_re, hA, hB]; ring

theorem entryDiffers_fin (z w : ℂ) : CMat.entryDiffers (ofC z) (ofC w) = decide (FPEnv.eps * 1000000 < ‖z - w‖) := by
  simp [CMat.entryDiffers]
theorem ventryDiffers_fin (z w : ℂ) : CVec.entryDiffers (ofC z) (ofC w) = decide (FPEnv.eps * 10000000 < ‖z - w‖) := by
  simp [CVec.entryDiffers]

theorem fin_abs_sub_comm (a b : XC) : (Cplx.abs (a - b) : XR) = Cplx.abs (b - a) := by
  obtain ⟨ar, ai⟩ := a
  obtain ⟨br, bi⟩ := b
  show XR.sqrt ((ar - br) * (ar - br) + (ai - bi) * (ai - bi)) = XR.sqrt ((br - ar) * (br - ar) + (bi - ai) * (bi - ai))
  congr 1
  cases ar <;> cases br <;> cases ai <;> cases bi <;> simp
  ring

/-- **C48.** On finite matrices and vectors `==` holds exactly when every pair of entries is closer than the tolerance; so it is
reflexive and symmetric (symmetric also with non-finite entries). -/
theorem C48_equality (A B : M2) (v w : V2) (a b : CMat XC) :
    (CMat.beq (XM A) (XM B) = true ↔ ∀ i j, ‖A i j - B i j‖ ≤ 1000000 * FPEnv.eps) ∧
    (CVec.beq (XV v) (XV w) = true ↔ ∀ i, ‖v i - w i‖ ≤ 10000000 * FPEnv.eps) ∧
    CMat.beq (XM A) (XM A) = true ∧ CVec.beq (XV v) (XV v) = true ∧ CMat.beq a b = CMat.beq b a := by
  have h1 : ∀ A B : M2, (CMat.beq (XM A) (XM B) = true ↔ ∀ i j, ‖A i j - B i j‖ ≤ 1000000 * FPEnv.eps) := by
    intro A B
    simp only [CMat.beq, XM, entryDiffers_fin, Fin.forall_fin_two, mul_comm (FPEnv.eps : ℝ)]
    simp [not_lt, and_assoc]
  have h2 : ∀ v w : V2, (CVec.beq (XV v) (XV w) = true ↔ ∀ i, ‖v i - w i‖ ≤ 10000000 * FPEnv.eps) := by
    intro A B
    simp only [CVec.beq, XV, ventryDiffers_fin, Fin.forall_fin_two, mul_comm (FPEnv.eps : ℝ)]
    simp [not_lt]
  have he := FPEnv.eps_pos.le
  refine ⟨h1 A B, h2 v w, (h1 A A).2 ?_, (h2 v v).2 ?_, ?_⟩
  · intro i j; simp [he]
  · intro i; simp [he]
  · have : ∀ x y : XC, CMat.entryDiffers x y = CMat.entryDiffers y x := fun x y => by
      unfold CMat.entryDiffers; rw [fin_abs_sub_comm]
    unfold CMat.beq
    rw [this a.m00, this a.m01, this a.m10, this a.m11]

/-- **C48.** `==` is not transitive. -/
theorem C48_not_transitive : ∃ a b c : CMat XC, CMat.beq a b = true ∧ CMat.beq b c = true ∧ CMat.beq a c = false := by
  have he := FPEnv.eps_pos
  let A : ℝ → M2 := fun t => !![((t * (1000000 * FPEnv.eps) : ℝ) : ℂ), 0; 0, 0]
  have hn : ∀ s t : ℝ, ‖((s * (1000000 * FPEnv.eps) : ℝ) : ℂ) - ((t * (1000000 * FPEnv.eps) : ℝ) : ℂ)‖
      = |s - t| * (1000000 * FPEnv.eps) := by
    intro s t
    rw [← Complex.ofReal_sub, Complex.norm_real, Real.norm_eq_abs, ← sub_mul, abs_mul, abs_of_pos (by positivity : (0 : ℝ) < 1000000 * FPEnv.eps)]
  have hok : ∀ s t : ℝ, |s - t| ≤ 1 → CMat.beq (XM (A s)) (XM (A t)) = true := by
    intro s t hst
    rw [(C48_equality (A s) (A t) 0 0 CMat.zero CMat.zero).1]
    intro i j
    fin_cases i <;> fin_cases j
    · show ‖((s * (1000000 * FPEnv.eps) : ℝ) : ℂ) - ((t * (1000000 * FPEnv.eps) : ℝ) : ℂ)‖ ≤ _
      rw [hn]; nlinarith
    all_goals simp [A, he.le]
  refine ⟨XM (A 0), XM (A 1), XM (A 2), hok _ _ (by norm_num), hok _ _ (by norm_num), ?_⟩
  rw [← Bool.not_eq_true, (C48_equality (A 0) (A 2) 0 0 CMat.zero CMat.zero).1]
  intro h
  have := h 0 0
  have e : ‖((0 * (1000000 * FPEnv.eps) : ℝ) : ℂ) - ((2 * (1000000 * FPEnv.eps) : ℝ) : ℂ)‖ ≤ 1000000 * FPEnv.eps := this
  rw [hn] at e
  norm_num at e
  linarith

end exact

section examples
attribute [local instance] doubleEnv

/-- non-vacuity: the determinant hypotheses hold for a non-trivial matrix -/
example : ((!![2, Complex.I; -Complex.I, 3] : M2).det).im = 0 := by simp [Matrix.det_fin_two]

/-- aliasing: squaring a matrix in place -/
example (h : CMat.Store XC) : CMat.mulAssign 5 5 h = h.put 5 (h 5 * h 5) := (C47_aliasing h 5 5).2.2

/-- the NaN hypothesis of `C48_negation` holds in the exact instance -/
example : ∀ x : XR, Scalar.lt (Scalar.eps * int 1000000 : XR) x = true → Scalar.isNaN x = false := by
  intro x; cases x <;> simp

end examples

end Spinas.Props
