import Verif.Props.Products
import Verif.Props.Spinors
import Verif.Spec.Brackets

/-! The values of spinor products in the exact instance. -/

namespace Spinas
open Spec Props Matrix XR

section
variable [FPEnv]

/-- end spinor -/
noncomputable def zend (p : V4 ℝ) (m : ℝ) (b : Br) (u : Bool) (j : Int) : V2 := if m = 0 then hv p b else sv p b u (decide (j = 1))

/-- value of the chain -/
noncomputable def zchain (p : Nat → V4 ℝ) (m : Nat → ℝ) (d : SPDef) (jL jR : Int) : ℂ :=
  (zend (p d.left) (m d.left) (kindL d.leftAngle) d.leftUpper jL ᵥ* slashProd p d.leftAngle d.mids) ⬝ᵥ
    zend (p d.right) (m d.right) (kindR d.leftAngle d.mids.length) d.rightUpper jR

theorem slashes_fin {p : Nat → V4 ℝ} {κ : Nat → Kin XR XC} (is : List Nat) :
    (∀ i ∈ is, (κ i).umatVal = XM (slashUpper (p i)) ∧ (κ i).lmatVal = XM (slashLower (p i))) → ∀ (l : Bool) (A : M2),
    slashes κ l is (XM A) = XM (A * slashProd p l is) := by
  induction is with
  | nil => intro _ l A; simp [slashes, slashProd]
  | cons i is ih =>
    intro h l A
    obtain ⟨h1, h2⟩ := h i List.mem_cons_self
    have e : slashVal l (κ i) = XM (if l then slashLower (p i) else slashUpper (p i)) := by
      unfold slashVal; cases l <;> simp [h1, h2]
    rw [slashes, e, XM_mul, ih (fun j hj => h j (List.mem_cons_of_mem _ hj)), slashProd, Matrix.mul_assoc]

theorem chain_fin {p : Nat → V4 ℝ} {m : Nat → ℝ} {κ : Nat → Kin XR XC} {d : SPDef}
    (hk : κ d.left = kinOf (p d.left) (m d.left)) (hk' : κ d.right = kinOf (p d.right) (m d.right))
    (hM : ∀ i ∈ d.mids, (κ i).umatVal = XM (slashUpper (p i)) ∧ (κ i).lmatVal = XM (slashLower (p i))) (jL jR : Int) :
    chain κ d jL jR = ofC (zchain p m d jL jR) := by
  have he : ∀ (q : V4 ℝ) (M : ℝ) b u j, endVec (kinOf q M) b u j = XV (zend q M b u j) := by
    intro q M b u j
    unfold endVec zend massive
    have : (Scalar.ne (kinOf q M).m (int 0) : Bool) = !decide (M = 0) := by simp [Scalar.ne, kinOf]
    rw [this]
    by_cases hM : M = 0 <;> simp [hM, hel_fin, spn_fin]
  unfold chain zchain
  rw [hk, hk', he, he]
  cases hmid : d.mids with
  | nil => simp [through, slashProd]
  | cons i is =>
    rw [hmid] at hM
    obtain ⟨h1, h2⟩ := hM i List.mem_cons_self
    have e : slashVal d.leftAngle (κ i) = XM (if d.leftAngle then slashLower (p i) else slashUpper (p i)) := by
      unfold slashVal; cases d.leftAngle <;> simp [h1, h2]
    simp only [through]
    rw [e, slashes_fin is (fun j hj => hM j (List.mem_cons_of_mem _ hj)), XV_mulM, XV_dot]
    rfl

theorem Spec.Live.mats {p : V4 ℝ} {m : XR} {P : Particle XR XC} (h : Live p.toX m P) :
    P.kin.umatVal = XM (slashUpper p) ∧ P.kin.lmatVal = XM (slashLower p) := by
  obtain ⟨F, hF, hx, hk, _⟩ := h.fresh
  have h1 := h.umat
  have h2 := h.lmat
  rw [hx.umat_fst, hF.umat, ← hx.kin] at h1
  rw [hx.lmat_fst, hF.lmat, ← hx.kin] at h2
  exact ⟨by injection h1, by injection h2⟩

theorem callFor_valid (mL mR : ℝ) {jL jR : Int} (h : IsSpin jL) (h' : IsSpin jR) : (callFor mL mR jL jR).Valid := by
  unfold callFor; split_ifs <;> simp_all [VCall.Valid]

theorem callFor_fits (mL mR : ℝ) (jL jR : Int) :
    (callFor mL mR jL jR).Fits (Scalar.ne (.fin mL : XR) (int 0)) (Scalar.ne (.fin mR : XR) (int 0)) := by
  unfold callFor; split_ifs <;> simp_all [VCall.Fits, Scalar.ne]

theorem zend_left (p : V4 ℝ) (mL mR : ℝ) (b : Br) (u : Bool) (jL jR : Int) :
    zend p mL b u (callFor mL mR jL jR).left = zend p mL b u jL := by
  unfold callFor zend; split_ifs <;> rfl
theorem zend_right (p : V4 ℝ) (mL mR : ℝ) (b : Br) (u : Bool) (jL jR : Int) :
    zend p mR b u (callFor mL mR jL jR).right = zend p mR b u jR := by
  unfold callFor zend; split_ifs <;> rfl

/-- The value of an up-to-date product. -/
theorem val_of_ready {a : Nat} {d : SPDef} {p : Nat → V4 ℝ} {m M : Nat → ℝ} {w : World XR XC} (h : Ready a d p m w)
    (hp : ∀ i, uses d i → OnShell (p i) (M i)) {jL jR : Int} (hL : IsSpin jL) (hR : IsSpin jR) :
    Val a d m w jL jR (zchain p m d jL jR) := by
  obtain ⟨w0, w1, ops, hu, hs, ho, rfl⟩ := h
  have hpo : PartsOk (uses d) (fun i => (w0.part i).kin) w0 := by
    intro i hi
    obtain ⟨F, hF, hx, _⟩ := (hu i hi).fresh
    exact ⟨hF.ext hx, rfl⟩
  obtain ⟨hsy, _⟩ := sync_synced hs hpo
  obtain ⟨w', h1, _⟩ := v_spec (synced_run ops hsy ho) _ (callFor_valid (m d.left) (m d.right) hL hR)
  have el := (hu d.left (.inl rfl)).kin (hp d.left (.inl rfl)).mag_le
  have er := (hu d.right (.inr (.inl rfl))).kin (hp d.right (.inr (.inl rfl))).mag_le
  have hfit := callFor_fits (m d.left) (m d.right) jL jR
  unfold Val
  rw [h1, outcome_fits]
  · show Res.ok _ = _
    congr 1
    rw [chain_fin (p := p) (m := m) (κ := fun i => (w0.part i).kin) el er (fun i hi => (hu i (.inr (.inr hi))).mats)]
    unfold zchain
    rw [zend_left, zend_right]
  · rw [el, er]; exact hfit

/-! ### algebra of the chains -/

/-- the matrix that raises and lowers spinor indices -/
def K : M2 := !![0, -1; 1, 0]

omit [FPEnv] in
theorem K_sq : K * K = -1 := by ext i j; fin_cases i <;> fin_cases j <;> simp [K, Matrix.mul_apply, Fin.sum_univ_two]

omit [FPEnv] in
theorem vecMul_K (v : V2) : v ᵥ* K = ![v 1, -v 0] := by ext i; fin_cases i <;> simp [K, vecMul, dotProduct, Fin.sum_univ_two]
omit [FPEnv] in
theorem K_mulVec (v : V2) : K *ᵥ v = ![-v 1, v 0] := by ext i; fin_cases i <;> simp [K, mulVec, dotProduct, Fin.sum_univ_two]

theorem left_eq_right (p : V4 ℝ) (m : ℝ) (u : Bool) (j : Int) :
    zend p m .langle u j = zend p m .rangle u j ᵥ* K ∧ zend p m .lsquare u j = -(zend p m .rsquare u j ᵥ* K) := by
  unfold zend
  split_ifs
  · constructor <;> ext i <;> fin_cases i <;> simp [hv, K, vecMul, dotProduct, Fin.sum_univ_two]
  · constructor <;> ext i <;> cases u <;> by_cases h : j = 1 <;> fin_cases i <;> simp [h, sv, K, vecMul, dotProduct, Fin.sum_univ_two]

omit [FPEnv] in
theorem slash_transpose (p : V4 ℝ) : (slashLower p)ᵀ = -(K * slashUpper p * K) ∧ (slashUpper p)ᵀ = -(K * slashLower p * K) := by
  constructor <;> ext i j <;> fin_cases i <;> fin_cases j <;> simp [slashLower, slashUpper, K] <;> ring

omit [FPEnv] in
theorem slash_hermitian (p : V4 ℝ) : (slashLower p)ᴴ = slashLower p ∧ (slashUpper p)ᴴ = slashUpper p := by
  constructor <;> ext i j <;> fin_cases i <;> fin_cases j <;> simp [slashLower, slashUpper, Matrix.conjTranspose_apply, sub_eq_add_neg]

/-- kind of the factor after `n` more -/
def after (l : Bool) (n : Nat) : Bool := l == decide (n % 2 = 0)

omit [FPEnv] in
theorem after_not (l : Bool) (n : Nat) : after (!l) n = after l (n + 1) := by
  unfold after
  rcases Nat.mod_two_eq_zero_or_one n with h | h <;> cases l <;> simp [h, Nat.add_mod]

omit [FPEnv] in
theorem after_succ (l : Bool) (n : Nat) : after l (n + 1) = !after l n := by
  unfold after
  rcases Nat.mod_two_eq_zero_or_one n with h | h <;> cases l <;> simp [h, Nat.add_mod]

omit [FPEnv] in
theorem slashProd_append (p : Nat → V4 ℝ) (is js : List Nat) (l : Bool) :
    slashProd p l (is ++ js) = slashProd p l is * slashProd p (after l is.length) js := by
  induction is generalizing l with
  | nil => simp [slashProd, after]
  | cons i is ih => simp only [List.cons_append, slashProd, ih, Matrix.mul_assoc, List.length_cons, after_not]

omit [FPEnv] in
theorem slashProd_transpose (p : Nat → V4 ℝ) (is : List Nat) (l : Bool) :
    (slashProd p l is)ᵀ = -(K * slashProd p (after l is.length) is.reverse * K) := by
  induction is generalizing l with
  | nil => simp [slashProd, K_sq]
  | cons i is ih =>
    rw [slashProd, Matrix.transpose_mul, ih, List.reverse_cons, slashProd_append, List.length_reverse, List.length_cons, after_not]
    have e1 : after (after l (is.length + 1)) is.length = !l := by
      rw [after_succ]; unfold after
      rcases Nat.mod_two_eq_zero_or_one is.length with h | h <;> cases l <;> simp [h]
    rw [e1]
    have e2 : (if l then slashLower (p i) else slashUpper (p i))ᵀ = -(K * (if (!l) then slashLower (p i) else slashUpper (p i)) * K) := by
      cases l <;> simp [slash_transpose]
    rw [e2]
    simp only [slashProd, Matrix.mul_one]
    generalize (if (!l) then slashLower (p i) else slashUpper (p i)) = A
    generalize slashProd p _ is.reverse = T
    have : -(K * T * K) * -(K * A * K) = K * T * (K * K) * A * K := by simp [Matrix.mul_assoc]
    rw [this, K_sq]; simp [Matrix.mul_assoc]

omit [FPEnv] in
theorem slashProd_hermitian (p : Nat → V4 ℝ) (is : List Nat) (l : Bool) :
    (slashProd p l is)ᴴ = slashProd p (!(after l is.length)) is.reverse := by
  induction is generalizing l with
  | nil => simp [slashProd]
  | cons i is ih =>
    rw [slashProd, Matrix.conjTranspose_mul, ih, List.reverse_cons, slashProd_append, List.length_reverse, List.length_cons, after_not]
    have e1 : after (!(after l (is.length + 1))) is.length = l := by
      rw [after_succ]; unfold after
      rcases Nat.mod_two_eq_zero_or_one is.length with h | h <;> cases l <;> simp [h]
    rw [e1]
    congr 1
    cases l <;> simp [slash_hermitian, slashProd]

/-- end spinors under conjugation -/
theorem zend_conj (p : V4 ℝ) (m : ℝ) (u : Bool) (j : Int) :
    star (zend p m .langle u j) = conjSign m true u • zend p m .rsquare (if m = 0 then u else !u) j ∧
    star (zend p m .rangle u j) = conjSign m true u • zend p m .lsquare (if m = 0 then u else !u) j ∧
    star (zend p m .lsquare u j) = conjSign m false u • zend p m .rangle (if m = 0 then u else !u) j ∧
    star (zend p m .rsquare u j) = conjSign m false u • zend p m .langle (if m = 0 then u else !u) j := by
  unfold zend conjSign
  by_cases hm : m = 0
  · simp only [hm, if_true]
    refine ⟨?_, ?_, ?_, ?_⟩ <;> ext i <;> fin_cases i <;> simp [hv, V4.sb]
  · simp only [hm, if_false]
    refine ⟨?_, ?_, ?_, ?_⟩ <;> cases u <;> by_cases h : j = 1 <;> ext i <;> fin_cases i <;> simp [h, sv, V4.sb]

theorem zchain_reversed (p : Nat → V4 ℝ) (m : Nat → ℝ) (d : SPDef) (jL jR : Int) :
    zchain p m (reversed d) jR jL = (-1) ^ (d.mids.length + 1) * zchain p m d jL jR := by
  unfold zchain reversed
  simp only
  have hr : rightAngle d = after d.leftAngle d.mids.length := rfl
  have hT := slashProd_transpose p d.mids d.leftAngle
  rw [hr]
  have hT' : slashProd p (after d.leftAngle d.mids.length) d.mids.reverse = -(K * (slashProd p d.leftAngle d.mids)ᵀ * K) := by
    rw [hT]
    generalize slashProd p _ d.mids.reverse = X
    have : K * -(K * X * K) * K = -((K * K) * X * (K * K)) := by simp [Matrix.mul_assoc]
    rw [this, K_sq]; simp
  rw [hT']
  generalize slashProd p d.leftAngle d.mids = T
  have core : ∀ (x y x' y' : V2) (s t : ℂ), x' ᵥ* K = s • x → K *ᵥ y' = t • y →
      (x' ᵥ* -(K * Tᵀ * K)) ⬝ᵥ y' = -(s * t) * ((y ᵥ* T) ⬝ᵥ x) := by
    intro x y x' y' s t h1 h2
    rw [Matrix.vecMul_neg, neg_dotProduct, ← Matrix.dotProduct_mulVec, ← Matrix.mulVec_mulVec, ← Matrix.mulVec_mulVec, h2,
      Matrix.dotProduct_mulVec, h1, Matrix.mulVec_smul, smul_dotProduct, dotProduct_smul, Matrix.mulVec_transpose, dotProduct_comm x]
    simp only [smul_eq_mul]; ring
  have langle : ∀ (q : V4 ℝ) (M : ℝ) u j, zend q M .langle u j ᵥ* K = (-1 : ℂ) • zend q M .rangle u j := by
    intro q M u j
    rw [(left_eq_right q M u j).1, vecMul_K, vecMul_K]; ext i; fin_cases i <;> simp
  have lsquare : ∀ (q : V4 ℝ) (M : ℝ) u j, zend q M .lsquare u j ᵥ* K = (1 : ℂ) • zend q M .rsquare u j := by
    intro q M u j
    rw [(left_eq_right q M u j).2, Matrix.neg_vecMul, vecMul_K, vecMul_K]; ext i; fin_cases i <;> simp
  have KT : ∀ v : V2, K *ᵥ v = -(v ᵥ* K) := by
    intro v; rw [vecMul_K, K_mulVec]; ext i; fin_cases i <;> simp
  have rangle : ∀ (q : V4 ℝ) (M : ℝ) u j, K *ᵥ zend q M .rangle u j = (-1 : ℂ) • zend q M .langle u j := by
    intro q M u j; rw [KT, (left_eq_right q M u j).1]; simp
  have rsquare : ∀ (q : V4 ℝ) (M : ℝ) u j, K *ᵥ zend q M .rsquare u j = (1 : ℂ) • zend q M .lsquare u j := by
    intro q M u j; rw [KT, (left_eq_right q M u j).2]; simp
  have kr : kindR (after d.leftAngle d.mids.length) d.mids.reverse.length = if d.leftAngle then .rangle else .rsquare := by
    unfold kindR after
    rcases Nat.mod_two_eq_zero_or_one d.mids.length with h | h <;> cases d.leftAngle <;> simp [h]
  rw [kr]
  rcases Nat.mod_two_eq_zero_or_one d.mids.length with h | h
  · have hpow : (-1 : ℂ) ^ (d.mids.length + 1) = -1 := by
      rw [pow_succ, Even.neg_one_pow (Nat.even_iff.mpr h)]; ring
    rw [hpow]
    cases hl : d.leftAngle
    · simp only [after, h, kindL, kindR]
      exact (core _ _ _ _ _ _ (lsquare _ _ _ _) (rsquare _ _ _ _)).trans (by simp)
    · simp only [after, h, kindL, kindR]
      exact (core _ _ _ _ _ _ (langle _ _ _ _) (rangle _ _ _ _)).trans (by simp)
  · have hpow : (-1 : ℂ) ^ (d.mids.length + 1) = 1 := by
      rw [pow_succ, Odd.neg_one_pow (Nat.odd_iff.mpr h)]; ring
    rw [hpow]
    cases hl : d.leftAngle
    · simp only [after, h, kindL, kindR]
      exact (core _ _ _ _ _ _ (langle _ _ _ _) (rsquare _ _ _ _)).trans (by simp)
    · simp only [after, h, kindL, kindR]
      exact (core _ _ _ _ _ _ (lsquare _ _ _ _) (rangle _ _ _ _)).trans (by simp)

theorem zchain_conj (p : Nat → V4 ℝ) (m : Nat → ℝ) (d : SPDef) (jL jR : Int) :
    star (zchain p m d jL jR) = conjSign (m d.left) d.leftAngle d.leftUpper * conjSign (m d.right) (rightAngle d) d.rightUpper *
      zchain p m (conjugated m d) jR jL := by
  unfold zchain conjugated
  simp only
  have hr : rightAngle d = after d.leftAngle d.mids.length := rfl
  rw [hr, ← slashProd_hermitian]
  generalize slashProd p d.leftAngle d.mids = T
  have core : ∀ (x y x' y' : V2) (s t : ℂ), star x = s • x' → star y = t • y' →
      star ((x ᵥ* T) ⬝ᵥ y) = s * t * ((y' ᵥ* Tᴴ) ⬝ᵥ x') := by
    intro x y x' y' s t h1 h2
    rw [← Matrix.star_dotProduct_star, Matrix.star_vecMul, h1, h2, smul_dotProduct, Matrix.mulVec_smul, dotProduct_smul, Matrix.dotProduct_mulVec]
    simp only [smul_eq_mul]; ring
  have kr : kindR (!after d.leftAngle d.mids.length) d.mids.reverse.length = if d.leftAngle then .rsquare else .rangle := by
    unfold kindR after
    rcases Nat.mod_two_eq_zero_or_one d.mids.length with h | h <;> cases d.leftAngle <;> simp [h]
  rw [kr]
  have cl := zend_conj (p d.left) (m d.left) d.leftUpper jL
  have cr := zend_conj (p d.right) (m d.right) d.rightUpper jR
  rcases Nat.mod_two_eq_zero_or_one d.mids.length with h | h <;> cases hl : d.leftAngle <;> simp only [after, h, kindL, kindR]
  · exact core _ _ _ _ _ _ cl.2.2.1 cr.2.2.2
  · exact core _ _ _ _ _ _ cl.1 cr.2.1
  · exact core _ _ _ _ _ _ cl.2.2.1 cr.2.1
  · exact core _ _ _ _ _ _ cl.1 cr.2.2.2

end
end Spinas
