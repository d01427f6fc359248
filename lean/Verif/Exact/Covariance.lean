import Verif.Props.Brackets
import Mathlib.LinearAlgebra.Matrix.Adjugate
import Mathlib.LinearAlgebra.Matrix.NonsingularInverse

/-! How spinors and products of spinors change from one frame to another, in exact arithmetic. -/

namespace Spinas
open Spec Props Matrix XR

section
variable [FPEnv]

/-! ### matrices of determinant one -/

omit [FPEnv] in
theorem K_adj (A : M2) : Aᵀ * K = K * A.adjugate := by
  rw [adjugate_fin_two]
  ext i j; fin_cases i <;> fin_cases j <;> simp [K, Matrix.mul_apply, Fin.sum_univ_two]

omit [FPEnv] in
theorem adj_left {A : M2} (h : A.det = 1) : A.adjugate * A = 1 := by rw [adjugate_mul, h, one_smul]
omit [FPEnv] in
theorem adj_right {A : M2} (h : A.det = 1) : A * A.adjugate = 1 := by rw [mul_adjugate, h, one_smul]

/-- The matrix that acts on right spinors of the given kind. -/
noncomputable def actR (A : M2) (angle : Bool) : M2 := if angle then A else A.adjugateᴴ
/-- The matrix that acts on left spinors of the given kind. -/
noncomputable def actL (A : M2) (angle : Bool) : M2 := if angle then A.adjugate else Aᴴ

omit [FPEnv] in
theorem actL_R {A : M2} (h : A.det = 1) (b : Bool) : actL A b * actR A b = 1 := by
  cases b
  · simp only [actL, actR, Bool.false_eq_true, if_false]
    rw [← conjTranspose_mul, adj_left h, conjTranspose_one]
  · simpa [actL, actR] using adj_left h

omit [FPEnv] in
theorem actL_K (A : M2) (b : Bool) : (actR A b)ᵀ * K = K * actL A b := by
  cases b
  · simp only [actL, actR, Bool.false_eq_true, if_false]
    rw [K_adj, ← adjugate_conjTranspose, adjugate_adjugate', Fintype.card_fin]
    simp
  · simpa [actL, actR] using K_adj A

omit [FPEnv] in
theorem left_act (A : M2) (b : Bool) (v : V2) : (actR A b *ᵥ v) ᵥ* K = (v ᵥ* K) ᵥ* actL A b := by
  rw [← vecMul_transpose, vecMul_vecMul, actL_K, ← vecMul_vecMul]

omit [FPEnv] in
theorem slashUpper_act {A : M2} {p p' : V4 ℝ} (h : slashLower p' = A * slashLower p * Aᴴ) :
    slashUpper p' = A.adjugateᴴ * slashUpper p * A.adjugate := by
  have e : ∀ q : V4 ℝ, slashUpper q = (slashLower q).adjugate := by
    intro q
    rw [adjugate_fin_two]
    ext i j; fin_cases i <;> fin_cases j <;> simp [slashLower, slashUpper] <;> ring
  rw [e, e, h, adjugate_mul_distrib, adjugate_mul_distrib, ← adjugate_conjTranspose, Matrix.mul_assoc]

omit [FPEnv] in
theorem slashProd_act {A : M2} (hA : A.det = 1) {p p' : Nat → V4 ℝ} (h : ∀ i, slashLower (p' i) = A * slashLower (p i) * Aᴴ) (is : List Nat) :
    ∀ l, slashProd p' l is = actR A l * slashProd p l is * actL A (after l is.length) := by
  induction is with
  | nil =>
    intro l
    have : after l 0 = l := by cases l <;> rfl
    rw [List.length_nil, this]
    simp only [slashProd, Matrix.mul_one]
    exact (_root_.mul_eq_one_comm.mp (actL_R hA l)).symm
  | cons i is ih =>
    intro l
    have e : (if l then slashLower (p' i) else slashUpper (p' i)) = actR A l * (if l then slashLower (p i) else slashUpper (p i)) * actL A (!l) := by
      cases l
      · simpa [actR, actL] using slashUpper_act (h i)
      · simpa [actR, actL] using h i
    rw [slashProd, slashProd, e, ih, List.length_cons, ← after_not]
    have := actL_R hA (!l)
    calc _ = actR A l * (if l then slashLower (p i) else slashUpper (p i)) * (actL A (!l) * actR A (!l)) * slashProd p (!l) is *
          actL A (after (!l) is.length) := by simp only [Matrix.mul_assoc]
      _ = _ := by rw [this, Matrix.mul_one]; simp only [Matrix.mul_assoc]

/-! ### massive particles -/

/-- The spinors of the two spins as the columns of a matrix. -/
noncomputable def cols (p : V4 ℝ) (angle : Bool) : M2 := Matrix.of fun i k => sv p (rk angle) true (decide (k = 1)) i

theorem cols_lower {p : V4 ℝ} {M : ℝ} (B : Blocks p M) : cols p true * (cols p true)ᴴ = slashLower p := by
  rw [B.lower]
  ext i j; fin_cases i <;> fin_cases j <;> simp [cols, rk, sv, Matrix.mul_apply, Fin.sum_univ_two, V4.sb] <;> ring

theorem cols_mass {p : V4 ℝ} {M : ℝ} (B : Blocks p M) : cols p true * (cols p false)ᴴ = (-M : ℂ) • (1 : M2) := by
  have h1 := B.ab
  have h2 := B.cs
  rw [← h1]
  unfold V4.sb at h2
  ext i j; fin_cases i <;> fin_cases j <;> simp [cols, rk, sv, Matrix.mul_apply, Fin.sum_univ_two, V4.sb] <;>
    first
    | ring1
    | linear_combination ((p.a : ℂ) * p.b) * h2
    | linear_combination (-(p.a : ℂ) * p.b) * h2

/-- In another frame the spins of a massive particle are rotated. -/
theorem cols_act {A : M2} (hA : A.det = 1) {p p' : V4 ℝ} {M : ℝ} (hM : M ≠ 0) (B : Blocks p M) (B' : Blocks p' M)
    (h : slashLower p' = A * slashLower p * Aᴴ) :
    ∃ U : M2, U * Uᴴ = 1 ∧ ∀ b, cols p' b = actR A b * cols p b * U := by
  have hM' : (-M : ℂ) ≠ 0 := by simpa using hM
  have l1 := cols_lower B
  have l2 := cols_lower B'
  have m1 := cols_mass B
  have m2 := cols_mass B'
  rw [h, ← l1] at l2
  set L := cols p true
  set L' := cols p' true
  set N := cols p false
  set N' := cols p' false
  set c : ℂ := -M with hc
  have hcs : star c = c := by simp [hc]
  have a1 := adj_left hA
  have a2 := adj_right hA
  set Ai := A.adjugate
  -- the inverse of `L`
  have nl : Nᴴ * L = c • (1 : M2) := by
    have : L * (c⁻¹ • Nᴴ) = 1 := by rw [Matrix.mul_smul, m1, smul_smul, inv_mul_cancel₀ hM', one_smul]
    have := _root_.mul_eq_one_comm.mp this
    rw [Matrix.smul_mul] at this
    rw [← this, smul_smul, mul_inv_cancel₀ hM', one_smul]
  have ln : Lᴴ * N = c • (1 : M2) := by
    have := congrArg conjTranspose nl
    rw [conjTranspose_mul, conjTranspose_conjTranspose, conjTranspose_smul, conjTranspose_one, hcs] at this
    exact this
  let U : M2 := c⁻¹ • (Nᴴ * Ai * L')
  have hU : U * Uᴴ = 1 := by
    have hci : star c⁻¹ = c⁻¹ := by rw [star_inv₀, hcs]
    have : (Nᴴ * Ai * L') * (Nᴴ * Ai * L')ᴴ = (c * c) • (1 : M2) := by
      calc _ = Nᴴ * Ai * (L' * L'ᴴ) * Aiᴴ * N := by simp only [conjTranspose_mul, conjTranspose_conjTranspose, Matrix.mul_assoc]
        _ = Nᴴ * (Ai * A) * L * (Lᴴ * (Ai * A)ᴴ) * N := by rw [l2]; simp only [conjTranspose_mul, Matrix.mul_assoc]
        _ = (Nᴴ * L) * (Lᴴ * N) := by rw [a1]; simp only [Matrix.mul_one, conjTranspose_one, Matrix.mul_assoc]
        _ = _ := by rw [nl, ln]; simp [smul_smul]
    simp only [U, conjTranspose_smul, hci, Matrix.smul_mul, Matrix.mul_smul, this, smul_smul]
    rw [show c⁻¹ * (c⁻¹ * (c * c)) = 1 by field_simp, one_smul]
  have hU' : Uᴴ * U = 1 := _root_.mul_eq_one_comm.mp hU
  have e1 : A * L * U = L' := by
    calc _ = c⁻¹ • (A * (L * Nᴴ) * Ai * L') := by simp only [U, Matrix.mul_smul, Matrix.mul_assoc]
      _ = L' := by rw [m1]; simp [smul_smul, inv_mul_cancel₀ hM', a2]
  have e2 : U * N'ᴴ = Nᴴ * Ai := by
    calc _ = c⁻¹ • (Nᴴ * Ai * (L' * N'ᴴ)) := by simp only [U, Matrix.smul_mul, Matrix.mul_assoc]
      _ = _ := by rw [m2]; simp [smul_smul, inv_mul_cancel₀ hM']
  have e3 : N' = Aiᴴ * N * U := by
    have := congrArg conjTranspose e2
    rw [conjTranspose_mul, conjTranspose_mul, conjTranspose_conjTranspose, conjTranspose_conjTranspose] at this
    rw [← this, Matrix.mul_assoc, hU', Matrix.mul_one]
  refine ⟨U, hU, fun b => ?_⟩
  cases b
  · simpa [actR] using e3
  · simpa [actR] using e1.symm

/-! ### massless particles -/

omit [FPEnv] in
theorem phase_of_outer {v w : V2} (h : vecMulVec w (star w) = vecMulVec v (star v)) : ∃ z : ℂ, z * (starRingEnd ℂ) z = 1 ∧ w = z • v := by
  have e : ∀ i j, w i * (starRingEnd ℂ) (w j) = v i * (starRingEnd ℂ) (v j) := fun i j => by
    have := congrFun (congrFun h i) j
    simpa [vecMulVec_apply] using this
  by_cases hv : v = 0
  · refine ⟨1, by simp, ?_⟩
    rw [hv, smul_zero]
    ext i
    have := e i i
    rw [hv] at this
    simpa using this
  · obtain ⟨i, hi⟩ : ∃ i, v i ≠ 0 := by
      by_contra hc
      push Not at hc
      exact hv (funext hc)
    have hi' : (starRingEnd ℂ) (v i) ≠ 0 := by simpa using hi
    have hw : (starRingEnd ℂ) (w i) ≠ 0 := by
      intro h0
      have := e i i
      rw [h0, mul_zero] at this
      exact mul_ne_zero hi hi' this.symm
    refine ⟨w i / v i, ?_, ?_⟩
    · rw [map_div₀, div_mul_div_comm, e, div_self (mul_ne_zero hi hi')]
    · ext j
      have h1 := e j i
      have h2 := e i i
      show w j = w i / v i * v j
      rw [div_mul_eq_mul_div, eq_div_iff hi]
      apply mul_right_cancel₀ hw
      linear_combination v i * h1 - v j * h2

/-- In another frame the spinors of a massless particle get a phase. -/
theorem hv_act {A : M2} {p p' : V4 ℝ} (hp : OnShell p 0) (hp' : OnShell p' 0)
    (h : slashLower p' = A * slashLower p * Aᴴ) :
    ∃ z : ℂ, z * (starRingEnd ℂ) z = 1 ∧ ∀ b, hv p' (rk b) = (if b then z else (starRingEnd ℂ) z) • (actR A b *ᵥ hv p (rk b)) := by
  have hl : ∀ q : V4 ℝ, hv q .lsquare = star (hv q .rangle) := by
    intro q; ext i; fin_cases i <;> simp [hv, V4.sb]
  have hr : ∀ q : V4 ℝ, hv q .rsquare = star (hv q .rangle ᵥ* K) := by
    intro q; ext i; fin_cases i <;> simp [hv, V4.sb, vecMul_K]
  have c := (hv_complete hp).1
  have c' := (hv_complete hp').1
  rw [hl] at c c'
  obtain ⟨z, hz, e⟩ := phase_of_outer (v := A *ᵥ hv p .rangle) (w := hv p' .rangle) (by
    rw [c', h, ← c, star_mulVec, Matrix.mul_vecMulVec, Matrix.vecMulVec_mul])
  refine ⟨z, hz, fun b => ?_⟩
  cases b
  · simp only [rk, Bool.false_eq_true, if_false, hr]
    rw [e]
    have := left_act A true (hv p .rangle)
    simp only [actR, actL, if_true, Bool.false_eq_true, if_false] at this ⊢
    rw [smul_vecMul, star_smul, this, star_vecMul]
    rfl
  · simpa [rk, actR] using e

/-! ### all particles -/

/-- The other momentum is on the same mass shell. -/
theorem Spec.OnShell.act {A : M2} (hA : A.det = 1) {p p' : V4 ℝ} {M : ℝ} (hp : OnShell p M)
    (h : slashLower p' = A * slashLower p * Aᴴ) : OnShell p' M := by
  have hd : ∀ q : V4 ℝ, (slashLower q).det = ((q.t ^ 2 - (q.x ^ 2 + q.y ^ 2 + q.z ^ 2) : ℝ) : ℂ) := by
    intro q
    rw [det_fin_two]
    simp only [slashLower, of_apply, cons_val', cons_val_zero, cons_val_one, cons_val_fin_one, empty_val']
    push_cast
    linear_combination ((q.y : ℂ) ^ 2) * Complex.I_sq
  have e : (slashLower p').det = (slashLower p).det := by rw [h, det_mul, det_mul, det_conjTranspose, hA]; simp
  rw [hd, hd] at e
  have e := Complex.ofReal_injective e
  have hs := hp.shell
  refine ⟨?_, by linarith⟩
  have B : Blocks p |M| := blocks ⟨hp.energy, by rw [sq_abs]; exact hp.shell⟩ (abs_nonneg M)
  have l := cols_lower B
  rw [← l] at h
  have h2 : slashLower p' = (A * cols p true) * (A * cols p true)ᴴ := by rw [h, conjTranspose_mul]; simp only [Matrix.mul_assoc]
  generalize A * cols p true = Q at h2
  have t : ∀ z : ℂ, z * (starRingEnd ℂ) z = ((Complex.normSq z : ℝ) : ℂ) := fun z => Complex.mul_conj z
  have h0 := congrFun (congrFun h2 0) 0
  have h1 := congrFun (congrFun h2 1) 1
  simp only [slashLower, of_apply, cons_val', cons_val_zero, cons_val_one, cons_val_fin_one, empty_val', Matrix.mul_apply,
    Fin.sum_univ_two, conjTranspose_apply, ← starRingEnd_apply, t] at h0 h1
  have h0 : p'.t + p'.z = Complex.normSq (Q 0 0) + Complex.normSq (Q 0 1) := by exact_mod_cast h0
  have h1 : p'.t - p'.z = Complex.normSq (Q 1 0) + Complex.normSq (Q 1 1) := by exact_mod_cast h1
  have := Complex.normSq_nonneg (Q 0 0); have := Complex.normSq_nonneg (Q 0 1)
  have := Complex.normSq_nonneg (Q 1 0); have := Complex.normSq_nonneg (Q 1 1)
  linarith

/-- position of a spin among the columns -/
def spinIx (j : Int) : Fin 2 := if j = 1 then 1 else 0

theorem zend_cols {p : V4 ℝ} {m : ℝ} (hm : m ≠ 0) (b : Bool) (j : Int) : zend p m (rk b) true j = fun i => cols p b i (spinIx j) := by
  unfold zend
  rw [if_neg hm]
  funext i
  by_cases h : j = 1 <;> simp [cols, spinIx, h]

/-- What another frame does to the spinors of one particle: a rotation of the spins of a massive particle, a phase for a massless one. -/
structure Turn (p p' : V4 ℝ) (m : ℝ) (A : M2) (U : Int → Int → ℂ) (z : ℂ) : Prop where
  unitary : ∀ k l, (k = 1 ∨ k = -1) → (l = 1 ∨ l = -1) →
    U k 1 * (starRingEnd ℂ) (U l 1) + U k (-1) * (starRingEnd ℂ) (U l (-1)) = if k = l then 1 else 0
  phase : z * (starRingEnd ℂ) z = 1
  massive : m ≠ 0 → z = 1
  massless : m = 0 → ∀ j, U 1 j + U (-1) j = 1
  right : ∀ b j, zend p' m (rk b) true j = (if b then z else (starRingEnd ℂ) z) •
    (U 1 j • (actR A b *ᵥ zend p m (rk b) true 1) + U (-1) j • (actR A b *ᵥ zend p m (rk b) true (-1)))

theorem turn_exists {A : M2} (hA : A.det = 1) {p p' : V4 ℝ} {m M : ℝ} (hp : OnShell p M) (hM : 0 ≤ M) (hmM : m = 0 ↔ M = 0)
    (h : slashLower p' = A * slashLower p * Aᴴ) : ∃ U z, Turn p p' m A U z := by
  have hp' := hp.act hA h
  by_cases hm : m = 0
  · have hM0 := hmM.mp hm
    subst hM0
    obtain ⟨z, hz, e⟩ := hv_act hp hp' h
    refine ⟨fun k j => if spinIx k = spinIx j then 1 else 0, z, ?_, hz, fun h => absurd hm h, fun _ j => ?_, fun b j => ?_⟩
    · rintro k l (rfl | rfl) (rfl | rfl) <;> simp [spinIx]
    · by_cases hj : j = 1 <;> simp [spinIx, hj]
    · have : ∀ (q : V4 ℝ) k, zend q m (rk b) true k = hv q (rk b) := fun q k => if_pos hm
      simp only [this]
      rw [e, ← add_smul]
      congr 1
      by_cases hj : j = 1 <;> simp [spinIx, hj]
  · have hM0 : M ≠ 0 := fun h0 => hm (hmM.mpr h0)
    obtain ⟨U, hU, e⟩ := cols_act hA hM0 (blocks hp hM) (blocks hp' hM) h
    refine ⟨fun k j => U (spinIx k) (spinIx j), 1, ?_, by simp, fun _ => rfl, fun h => absurd h hm, fun b j => ?_⟩
    · have hu := fun i j => congrFun (congrFun hU i) j
      simp only [Matrix.mul_apply, Fin.sum_univ_two, conjTranspose_apply] at hu
      have h00 := hu 0 0; have h01 := hu 0 1; have h10 := hu 1 0; have h11 := hu 1 1
      rintro k l (rfl | rfl) (rfl | rfl) <;> simp [spinIx] at * <;> rw [add_comm] <;> assumption
    · simp only [zend_cols hm]
      ext i
      have : (if b then (1 : ℂ) else (starRingEnd ℂ) 1) = 1 := by cases b <;> simp
      rw [this, one_smul, e]
      simp [Matrix.mul_apply, Fin.sum_univ_two, mulVec, dotProduct, spinIx]
      ring

/-- left spinors -/
theorem Turn.left {p p' : V4 ℝ} {m : ℝ} {A : M2} {U : Int → Int → ℂ} {z : ℂ} (t : Turn p p' m A U z) (b : Bool) (j : Int) :
    zend p' m (lk b) true j = (if b then z else (starRingEnd ℂ) z) •
      (U 1 j • (zend p m (lk b) true 1 ᵥ* actL A b) + U (-1) j • (zend p m (lk b) true (-1) ᵥ* actL A b)) := by
  have r := t.right b j
  have l := left_eq_right p m true
  have l' := left_eq_right p' m true
  have k := left_act A b
  cases b
  · simp only [rk, lk, Bool.false_eq_true, if_false, (l _).2, (l' _).2] at r ⊢
    rw [r, smul_vecMul, add_vecMul, smul_vecMul, smul_vecMul, k, k]
    simp only [neg_vecMul, smul_neg, ← neg_add]
  · simp only [rk, lk, if_true, (l _).1, (l' _).1] at r ⊢
    rw [r, smul_vecMul, add_vecMul, smul_vecMul, smul_vecMul, k, k]

/-- Products of spinors in another frame. -/
theorem zchain_act {A : M2} (hA : A.det = 1) {p p' : Nat → V4 ℝ} {m : Nat → ℝ} (h : ∀ i, slashLower (p' i) = A * slashLower (p i) * Aᴴ)
    {U : Nat → Int → Int → ℂ} {z : Nat → ℂ} {d : SPDef} (hl : d.leftUpper = true) (hr : d.rightUpper = true)
    (tl : Turn (p d.left) (p' d.left) (m d.left) A (U d.left) (z d.left))
    (tr : Turn (p d.right) (p' d.right) (m d.right) A (U d.right) (z d.right)) (jL jR : Int) :
    zchain p' m d jL jR =
      (if d.leftAngle then z d.left else (starRingEnd ℂ) (z d.left)) * (if rightAngle d then z d.right else (starRingEnd ℂ) (z d.right)) *
      (U d.left 1 jL * (U d.right 1 jR * zchain p m d 1 1 + U d.right (-1) jR * zchain p m d 1 (-1)) +
       U d.left (-1) jL * (U d.right 1 jR * zchain p m d (-1) 1 + U d.right (-1) jR * zchain p m d (-1) (-1))) := by
  have ha : after d.leftAngle d.mids.length = rightAngle d := rfl
  simp only [zchain_kinds, hl, hr]
  rw [tl.left, tr.right, slashProd_act hA h, ha]
  generalize (if d.leftAngle = true then z d.left else (starRingEnd ℂ) (z d.left)) = Z
  generalize (if rightAngle d = true then z d.right else (starRingEnd ℂ) (z d.right)) = Z'
  have key : ∀ x y : V2, ((x ᵥ* actL A d.leftAngle) ᵥ* (actR A d.leftAngle * slashProd p d.leftAngle d.mids * actL A (rightAngle d))) ⬝ᵥ
      (actR A (rightAngle d) *ᵥ y) = (x ᵥ* slashProd p d.leftAngle d.mids) ⬝ᵥ y := by
    intro x y
    rw [dotProduct_mulVec, vecMul_vecMul, vecMul_vecMul]
    congr 2
    have e1 := actL_R hA d.leftAngle
    have e2 := actL_R hA (rightAngle d)
    calc _ = (actL A d.leftAngle * actR A d.leftAngle) * slashProd p d.leftAngle d.mids * (actL A (rightAngle d) * actR A (rightAngle d)) := by
          simp only [Matrix.mul_assoc]
      _ = _ := by rw [e1, e2, Matrix.one_mul, Matrix.mul_one]
  simp only [smul_vecMul, add_vecMul, smul_dotProduct, dotProduct_smul, add_dotProduct, dotProduct_add, key, smul_eq_mul]
  ring

end
end Spinas
