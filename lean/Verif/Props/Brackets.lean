import Verif.Exact.Chains

/-! Properties C27 - C32: identities between spinor products, exact arithmetic. -/

namespace Spinas.Props
open Spinas Spec Matrix XR

section main
variable [FPEnv]

/-! ### C27, C28 -/

/-- **C27.** Reading a chain with `N` internal momenta backwards multiplies its value by `(-1)^(N+1)`. -/
theorem C27_reversal {a a' : Nat} {d : SPDef} {p : Nat → V4 ℝ} {m M : Nat → ℝ} {w w' : World XR XC} (h : Ready a d p m w)
    (h' : Ready a' (reversed d) p m w') (hp : ∀ i, uses d i → OnShell (p i) (M i)) {jL jR : Int} (hL : IsSpin jL) (hR : IsSpin jR) :
    ∃ z, Val a d m w jL jR z ∧ Val a' (reversed d) m w' jR jL ((-1) ^ (d.mids.length + 1) * z) := by
  refine ⟨_, val_of_ready h hp hL hR, ?_⟩
  rw [← zchain_reversed]
  refine val_of_ready h' (fun i hi => hp i ?_) hR hL
  rcases hi with hi | hi | hi
  · exact .inr (.inl hi)
  · exact .inl hi
  · exact .inr (.inr (List.mem_reverse.mp hi))

/-- **C28.** The complex conjugate of a chain is the chain read backwards with the brackets exchanged and the indices of massive ends moved,
up to the given sign. -/
theorem C28_conjugation {a a' : Nat} {d : SPDef} {p : Nat → V4 ℝ} {m M : Nat → ℝ} {w w' : World XR XC} (h : Ready a d p m w)
    (h' : Ready a' (conjugated m d) p m w') (hp : ∀ i, uses d i → OnShell (p i) (M i)) {jL jR : Int} (hL : IsSpin jL) (hR : IsSpin jR) :
    ∃ z z', Val a d m w jL jR z ∧ Val a' (conjugated m d) m w' jR jL z' ∧
      (starRingEnd ℂ) z = conjSign (m d.left) d.leftAngle d.leftUpper * conjSign (m d.right) (rightAngle d) d.rightUpper * z' := by
  refine ⟨_, _, val_of_ready h hp hL hR, val_of_ready h' (fun i hi => hp i ?_) hR hL, zchain_conj p m d jL jR⟩
  rcases hi with hi | hi | hi
  · exact .inr (.inl hi)
  · exact .inl hi
  · exact .inr (.inr (List.mem_reverse.mp hi))

/-! ### spin sums -/

theorem sv_complete {p : V4 ℝ} {M : ℝ} (B : Blocks p M) (u : Bool) :
    vecMulVec (sv p .rangle u false) (sv p .lsquare (!u) false) + vecMulVec (sv p .rangle u true) (sv p .lsquare (!u) true) =
      (if u then 1 else -1 : ℂ) • slashLower p ∧
    vecMulVec (sv p .rsquare u false) (sv p .langle (!u) false) + vecMulVec (sv p .rsquare u true) (sv p .langle (!u) true) =
      (if u then -1 else 1 : ℂ) • slashUpper p ∧
    vecMulVec (sv p .rangle u false) (sv p .langle (!u) false) + vecMulVec (sv p .rangle u true) (sv p .langle (!u) true) =
      (if u then M else -M : ℂ) • (1 : M2) ∧
    vecMulVec (sv p .rsquare u false) (sv p .lsquare (!u) false) + vecMulVec (sv p .rsquare u true) (sv p .lsquare (!u) true) =
      (if u then -M else M : ℂ) • (1 : M2) := by
  have h1 := B.ab
  have h2 := B.cs
  rw [← h1, B.upper, B.lower]
  refine ⟨?_, ?_, ?_, ?_⟩ <;> ext i j <;> cases u <;> fin_cases i <;> fin_cases j <;> simp [sv, vecMulVec_apply] <;>
    first
    | ring1
    | linear_combination ((p.a : ℂ) * p.b) * h2
    | linear_combination (-(p.a : ℂ) * p.b) * h2

theorem hv_complete {p : V4 ℝ} (hp : OnShell p 0) :
    vecMulVec (hv p .rangle) (hv p .lsquare) = slashLower p ∧ vecMulVec (hv p .rsquare) (hv p .langle) = slashUpper p := by
  have B := blocks hp le_rfl
  have hb : (p.b : ℂ) = 0 := by rw [b_zero hp]; simp
  constructor
  · rw [B.lower, hb]; ext i j; fin_cases i <;> fin_cases j <;> simp [hv, vecMulVec_apply] <;> ring
  · rw [B.upper, hb]; ext i j; fin_cases i <;> fin_cases j <;> simp [hv, vecMulVec_apply] <;> ring

/-- kinds of left and right spinors -/
def lk (angle : Bool) : Br := if angle then .langle else .lsquare
def rk (angle : Bool) : Br := if angle then .rangle else .rsquare

theorem gramL_eq {p : V4 ℝ} {m M : ℝ} (hp : OnShell p M) (hM : 0 ≤ M) (hmM : m = 0 → M = 0) (b b' u : Bool) (hb : m = 0 → b = b') :
    (if m = 0 then vecMulVec (star (zend p m (lk b') u 1)) (zend p m (lk b) u 1) else
      vecMulVec (star (zend p m (lk b') u (-1))) (zend p m (lk b) u (-1)) + vecMulVec (star (zend p m (lk b') u 1)) (zend p m (lk b) u 1)) =
    gramL p M b b' := by
  by_cases hm : m = 0
  · have hM0 := hmM hm; subst hM0
    have := hb hm; subst this
    have c := hv_complete hp
    have s := zend_conj p m u 1
    simp only [hm, if_true] at s ⊢
    cases b
    · simp only [lk, Bool.false_eq_true, if_false, s.2.2.1]
      simp [zend, conjSign, gramL, c]
    · simp only [lk, if_true, s.1]
      simp [zend, conjSign, gramL, c]
  · have c := sv_complete (blocks hp hM)
    have s := fun j => zend_conj p m u j
    simp only [hm, if_false] at s ⊢
    have ct := c true
    have cf := c false
    simp only [if_true, Bool.not_true, Bool.not_false, Bool.false_eq_true, if_false] at ct cf
    cases b <;> cases b' <;> simp only [lk, if_true, Bool.false_eq_true, if_false, (s _).1, (s _).2.2.1] <;>
      simp only [smul_vecMulVec, ← smul_add] <;> cases u <;> simp [zend, hm, conjSign, gramL, -neg_add_rev, ← neg_add, ct, cf]

theorem gramR_eq {p : V4 ℝ} {m M : ℝ} (hp : OnShell p M) (hM : 0 ≤ M) (hmM : m = 0 → M = 0) (b b' u : Bool) (hb : m = 0 → b = b') :
    (if m = 0 then vecMulVec (zend p m (rk b) u 1) (star (zend p m (rk b') u 1)) else
      vecMulVec (zend p m (rk b) u (-1)) (star (zend p m (rk b') u (-1))) + vecMulVec (zend p m (rk b) u 1) (star (zend p m (rk b') u 1))) =
    gramR p M b b' := by
  by_cases hm : m = 0
  · have hM0 := hmM hm; subst hM0
    have := hb hm; subst this
    have c := hv_complete hp
    have s := zend_conj p m u 1
    simp only [hm, if_true] at s ⊢
    cases b
    · simp only [rk, Bool.false_eq_true, if_false, s.2.2.2]
      simp [zend, conjSign, gramR, c]
    · simp only [rk, if_true, s.2.1]
      simp [zend, conjSign, gramR, c]
  · have c := sv_complete (blocks hp hM)
    have s := fun j => zend_conj p m u j
    simp only [hm, if_false] at s ⊢
    have ct := c true
    have cf := c false
    simp only [if_true, Bool.not_true, Bool.not_false, Bool.false_eq_true, if_false] at ct cf
    cases b <;> cases b' <;> simp only [rk, if_true, Bool.false_eq_true, if_false, (s _).2.1, (s _).2.2.2] <;>
      simp only [vecMulVec_smul, ← smul_add] <;> cases u <;> simp [zend, hm, conjSign, gramR, -neg_add_rev, ← neg_add, ct, cf]

omit [FPEnv] in
/-- a product of two chains as a trace -/
theorem mul_star_chain (x x' y y' : V2) (T T' : M2) :
    ((x ᵥ* T) ⬝ᵥ y) * star ((x' ᵥ* T') ⬝ᵥ y') = (vecMulVec (star x') x * T * vecMulVec y (star y') * T'ᴴ).trace := by
  simp [vecMulVec, Matrix.trace, Matrix.mul_apply, Fin.sum_univ_two, vecMul, dotProduct, Matrix.conjTranspose_apply]
  ring

theorem zchain_kinds (p : Nat → V4 ℝ) (m : Nat → ℝ) (d : SPDef) (jL jR : Int) : zchain p m d jL jR =
    (zend (p d.left) (m d.left) (lk d.leftAngle) d.leftUpper jL ᵥ* slashProd p d.leftAngle d.mids) ⬝ᵥ
      zend (p d.right) (m d.right) (rk (rightAngle d)) d.rightUpper jR := by
  unfold zchain kindL kindR lk rk rightAngle
  simp

/-- Spin sums of products of two chains with the same ends are traces. -/
theorem spin_sum {d e : SPDef} {p : Nat → V4 ℝ} {m M : Nat → ℝ} (hl : e.left = d.left) (hr : e.right = d.right)
    (hlu : e.leftUpper = d.leftUpper) (hru : e.rightUpper = d.rightUpper)
    (hpl : OnShell (p d.left) (M d.left)) (hpr : OnShell (p d.right) (M d.right)) (hMl : 0 ≤ M d.left) (hMr : 0 ≤ M d.right)
    (h0l : m d.left = 0 → M d.left = 0 ∧ d.leftAngle = e.leftAngle) (h0r : m d.right = 0 → M d.right = 0 ∧ rightAngle d = rightAngle e) :
    sumEnd (m d.left) (fun jL => sumEnd (m d.right) fun jR => zchain p m d jL jR * star (zchain p m e jL jR)) =
      (gramL (p d.left) (M d.left) d.leftAngle e.leftAngle * slashProd p d.leftAngle d.mids *
        gramR (p d.right) (M d.right) (rightAngle d) (rightAngle e) * (slashProd p e.leftAngle e.mids)ᴴ).trace := by
  rw [← gramL_eq hpl hMl (fun h => (h0l h).1) d.leftAngle e.leftAngle d.leftUpper (fun h => (h0l h).2),
    ← gramR_eq hpr hMr (fun h => (h0r h).1) (rightAngle d) (rightAngle e) d.rightUpper (fun h => (h0r h).2)]
  unfold sumEnd
  simp only [zchain_kinds, hl, hr, hlu, hru, mul_star_chain]
  split_ifs <;> simp only [Matrix.add_mul, Matrix.mul_add, Matrix.trace_add] <;> ring

/-- **C30.** For two chains with the same ends and any internal momenta, the sum over spins of one times the conjugate of the other is the
trace of the momentum matrices (closed form of the end factors: `gramL`, `gramR`).  `M` are the masses of the momenta; where a particle was
declared massless its momentum must be light-like, and both chains must use the same bracket there. -/
theorem C30_trace {a b : Nat} {d e : SPDef} {p : Nat → V4 ℝ} {m M : Nat → ℝ} {w w' : World XR XC} (hd : Ready a d p m w) (he : Ready b e p m w')
    (hl : e.left = d.left) (hr : e.right = d.right) (hlu : e.leftUpper = d.leftUpper) (hru : e.rightUpper = d.rightUpper)
    (hp : ∀ i, uses d i ∨ uses e i → OnShell (p i) (M i)) (hM : ∀ i, 0 ≤ M i)
    (h0l : m d.left = 0 → M d.left = 0 ∧ d.leftAngle = e.leftAngle) (h0r : m d.right = 0 → M d.right = 0 ∧ rightAngle d = rightAngle e) :
    ∃ z z' : Int → Int → ℂ, (∀ jL jR, IsSpin jL → IsSpin jR → Val a d m w jL jR (z jL jR) ∧ Val b e m w' jL jR (z' jL jR)) ∧
      sumEnd (m d.left) (fun jL => sumEnd (m d.right) fun jR => z jL jR * (starRingEnd ℂ) (z' jL jR)) =
      (gramL (p d.left) (M d.left) d.leftAngle e.leftAngle * slashProd p d.leftAngle d.mids *
        gramR (p d.right) (M d.right) (rightAngle d) (rightAngle e) * (slashProd p e.leftAngle e.mids)ᴴ).trace :=
  ⟨zchain p m d, zchain p m e, fun _ _ h h' => ⟨val_of_ready hd (fun i hi => hp i (.inl hi)) h h', val_of_ready he (fun i hi => hp i (.inr hi)) h h'⟩,
    spin_sum hl hr hlu hru (hp _ (.inl (.inl rfl))) (hp _ (.inl (.inr (.inl rfl)))) (hM _) (hM _) h0l h0r⟩

omit [FPEnv] in
theorem trace_two (p q : V4 ℝ) : (slashLower p * slashUpper q).trace = (2 * dot p q : ℝ) ∧ (slashUpper p * slashLower q).trace = (2 * dot p q : ℝ) := by
  have hI : Complex.I ^ 2 = -1 := Complex.I_sq
  constructor <;> simp [slashUpper, slashLower, dot, Matrix.trace, Fin.sum_univ_two] <;> ring_nf <;> (try rw [hI]) <;> ring

omit [FPEnv] in
theorem trace_four (p q r s : V4 ℝ) :
    (slashLower p * slashUpper q * slashLower r * slashUpper s).trace.re = 2 * (dot p q * dot r s - dot p r * dot q s + dot p s * dot q r) ∧
    (slashUpper p * slashLower q * slashUpper r * slashLower s).trace.re = 2 * (dot p q * dot r s - dot p r * dot q s + dot p s * dot q r) := by
  constructor <;> simp [slashUpper, slashLower, dot, Matrix.trace, Fin.sum_univ_two, Matrix.mul_apply] <;> ring

/-- **C30** (table).  The spin sums of tests/sproduct.cpp, for massive particles 1 and 2 and any on-shell momenta `3`, `4`, `5`:
`s` stands for either bracket, the chains on the right are conjugated. -/
theorem C30_table {p : Nat → V4 ℝ} {m M : Nat → ℝ} (hp : ∀ i, OnShell (p i) (M i)) (hM : ∀ i, 0 ≤ M i) (i k l n o : Nat) (hi : m i ≠ 0) (hk : m k ≠ 0)
    (addr : Bool → List Nat → Nat) (w : Bool → List Nat → World XR XC)
    (hready : ∀ t is, is.length ≤ 2 → Ready (addr t is) (br t i is k) p m (w t is)) (s : Bool) :
    ∃ z : SPDef → Int → Int → ℂ, (∀ t is jL jR, is.length ≤ 2 → IsSpin jL → IsSpin jR →
        Val (addr t is) (br t i is k) m (w t is) jL jR (z (br t i is k) jL jR)) ∧
      let S := fun d e => sumSpin fun jL => sumSpin fun jR => z d jL jR * (starRingEnd ℂ) (z e jL jR)
      let D := fun a b => dot (p a) (p b)
      S (br s i [] k) (br s i [] k) = (2 * D i k : ℝ) ∧
      S (br s i [] k) (br (!s) i [] k) = (-2 * M i * M k : ℝ) ∧
      S (br s i [] k) (br (!s) i [l] k) = (2 * M i * D k l : ℝ) ∧
      S (br s i [] k) (br s i [l] k) = (-2 * M k * D i l : ℝ) ∧
      S (br s i [] k) (br (!s) i [l, n] k) = (-2 * M i * M k * D l n : ℝ) ∧
      (S (br s i [] k) (br s i [l, n] k)).re = 2 * (D i k * D l n - D i n * D k l + D i l * D k n) ∧
      S (br s i [l] k) (br (!s) i [n] k) = (-2 * M i * M k * D l n : ℝ) ∧
      (S (br s i [l] k) (br s i [n] k)).re = 2 * (D i l * D k n - D i k * D l n + D i n * D l k) ∧
      (S (br s i [l] k) (br s i [n, o] k)).re = -2 * M k * (D i l * D o n - D i o * D l n + D i n * D l o) := by
  refine ⟨fun d => zchain p m d, fun t is jL jR hn h h' => val_of_ready (hready t is hn) (fun i _ => hp i) h h', ?_⟩
  intro S D
  have key : ∀ t t' : Bool, ∀ is js, S (br t i is k) (br t' i js k) =
      (gramL (p i) (M i) t t' * slashProd p t is * gramR (p k) (M k) (rightAngle (br t i is k)) (rightAngle (br t' i js k)) * (slashProd p t' js)ᴴ).trace := by
    intro t t' is js
    have := spin_sum (d := br t i is k) (e := br t' i js k) (p := p) (m := m) (M := M) rfl rfl rfl rfl (hp i) (hp k) (hM i) (hM k)
      (fun h => absurd h hi) (fun h => absurd h hk)
    simp only [br, sumEnd, hi, hk, if_false] at this
    exact this
  simp only [key]
  have t2 := fun a b => trace_two (p a) (p b)
  have t4 := fun a b c d => trace_four (p a) (p b) (p c) (p d)
  have hd : ∀ a b, dot (p a) (p b) = dot (p b) (p a) := fun a b => by unfold dot; ring
  have sh := fun a => slash_hermitian (p a)
  refine ⟨?_, ?_, ?_, ?_, ?_, ?_, ?_, ?_, ?_⟩ <;> cases s <;>
    simp [rightAngle, br, slashProd, gramL, gramR, Matrix.conjTranspose_mul, sh, t2, D, ← Matrix.mul_assoc, t4]
  all_goals first
    | exact .inl (hd n l)
    | ring1
    | (rw [hd n l]; ring1)

/-! ### C29 -/

/-- **C29.** For massless particles `|<ij>|^2 = |[ij]|^2 = 2 pi.pj` and `<ij>[ji] = 2 pi.pj`. -/
theorem C29_modulus {p : Nat → V4 ℝ} {m : Nat → ℝ} {i j : Nat} (hi : OnShell (p i) 0) (hj : OnShell (p j) 0) (mi : m i = 0) (mj : m j = 0)
    {a b c : Nat} {w w' w'' : World XR XC} (ha : Ready a (br true i [] j) p m w) (hb : Ready b (br false i [] j) p m w')
    (hc : Ready c (br false j [] i) p m w'') :
    ∃ za zb zc : ℂ, (SProd.v0 a w).1 = .ok (ofC za) ∧ (SProd.v0 b w').1 = .ok (ofC zb) ∧ (SProd.v0 c w'').1 = .ok (ofC zc) ∧
      ‖za‖ ^ 2 = 2 * dot (p i) (p j) ∧ ‖zb‖ ^ 2 = 2 * dot (p i) (p j) ∧ za * zc = (2 * dot (p i) (p j) : ℝ) := by
  have hp : ∀ {t : Bool} {k l : Nat}, (k = i ∨ k = j) → (l = i ∨ l = j) → ∀ n, uses (br t k [] l) n → OnShell (p n) ((fun _ => 0 : Nat → ℝ) n) := by
    intro t k l hk hl n hn
    rcases hn with rfl | rfl | hn
    · rcases hk with h | h <;> simp only [br] <;> rw [h] <;> assumption
    · rcases hl with h | h <;> simp only [br] <;> rw [h] <;> assumption
    · simp [br] at hn
  have va := val_of_ready ha (hp (.inl rfl) (.inr rfl)) (.inl rfl) (.inl rfl)
  have vb := val_of_ready hb (hp (.inl rfl) (.inr rfl)) (.inl rfl) (.inl rfl)
  have vc := val_of_ready hc (hp (.inr rfl) (.inl rfl)) (.inl rfl) (.inl rfl)
  have call : ∀ t k l, (k = i ∨ k = j) → (l = i ∨ l = j) → callFor (m (br t k [] l).left) (m (br t k [] l).right) 1 1 = .v0 := by
    intro t k l hk hl
    have h1 : m k = 0 := by rcases hk with rfl | rfl <;> assumption
    have h2 : m l = 0 := by rcases hl with rfl | rfl <;> assumption
    simp [callFor, br, h1, h2]
  unfold Val at va vb vc
  rw [call _ _ _ (.inl rfl) (.inr rfl)] at va vb
  rw [call _ _ _ (.inr rfl) (.inl rfl)] at vc
  refine ⟨_, _, _, va, vb, vc, ?_, ?_, ?_⟩
  · have h := spin_sum (d := br true i [] j) (e := br true i [] j) (p := p) (m := m) (M := fun _ => 0) rfl rfl rfl rfl hi hj le_rfl le_rfl
      (fun _ => ⟨rfl, rfl⟩) (fun _ => ⟨rfl, rfl⟩)
    simp [sumEnd, br, mi, mj, gramL, gramR, rightAngle, slashProd, trace_two, Complex.mul_conj] at h
    rw [← Complex.normSq_eq_norm_sq]
    have h' := (Complex.ofReal_injective (by simpa using h) : _ = 2 * dot (p i) (p j))
    exact h'
  · have h := spin_sum (d := br false i [] j) (e := br false i [] j) (p := p) (m := m) (M := fun _ => 0) rfl rfl rfl rfl hi hj le_rfl le_rfl
      (fun _ => ⟨rfl, rfl⟩) (fun _ => ⟨rfl, rfl⟩)
    simp [sumEnd, br, mi, mj, gramL, gramR, rightAngle, slashProd, trace_two, Complex.mul_conj] at h
    rw [← Complex.normSq_eq_norm_sq]
    have h' := (Complex.ofReal_injective (by simpa using h) : _ = 2 * dot (p i) (p j))
    exact h'
  · have h := spin_sum (d := br true i [] j) (e := br true i [] j) (p := p) (m := m) (M := fun _ => 0) rfl rfl rfl rfl hi hj le_rfl le_rfl
      (fun _ => ⟨rfl, rfl⟩) (fun _ => ⟨rfl, rfl⟩)
    have hc := zchain_conj p m (br true i [] j) 1 1
    have hcc : conjugated m (br true i [] j) = br false j [] i := by simp [conjugated, br, rightAngle, mi, mj]
    rw [hcc] at hc
    have hl : (br true i [] j).left = i := rfl
    have hr : (br true i [] j).right = j := rfl
    simp only [hl, hr, sumEnd, mi, mj, if_true, hc, conjSign, one_mul] at h
    rw [h]
    simp [br, gramL, gramR, rightAngle, slashProd, trace_two]

/-! ### C31 -/

theorem zend_massive {m : ℝ} (h : m ≠ 0) (p : V4 ℝ) (b : Br) (u : Bool) :
    zend p m b u (-1) = sv p b u false ∧ zend p m b u 1 = sv p b u true := by simp [zend, h]

theorem zend_massless {m : ℝ} (h : m = 0) (p : V4 ℝ) (b : Br) (u : Bool) (j : Int) : zend p m b u j = hv p b := by simp [zend, h]

omit [FPEnv] in
theorem after_add (l : Bool) (x y : Nat) : after l (x + y) = after (after l x) y := by
  unfold after
  rcases Nat.mod_two_eq_zero_or_one x with h | h <;> rcases Nat.mod_two_eq_zero_or_one y with h' | h' <;> cases l <;> simp [Nat.add_mod, h, h']

omit [FPEnv] in
theorem dot_vecMulVec (x a b y : V2) (S T : M2) : ((x ᵥ* S) ⬝ᵥ a) * ((b ᵥ* T) ⬝ᵥ y) = (x ᵥ* (S * vecMulVec a b * T)) ⬝ᵥ y := by
  simp [vecMulVec, Matrix.mul_apply, Fin.sum_univ_two, vecMul, dotProduct]
  ring

/-- **C31.** Let one chain end with the massive particle `k` and another one start with it, the spin index being upper on one and lower on
the other.  The sum over the spin is the joined chain: with the momentum of `k` inserted if the brackets next to `k` differ, and without
it but times the mass of `k` if they are the same.  The sign is plus if the angle bracket on the first chain carries the upper index, or the
square bracket there the lower one, and minus otherwise. -/
theorem C31_insertion {a b c : Nat} {d e : SPDef} {p : Nat → V4 ℝ} {m M : Nat → ℝ} {w w' w'' : World XR XC} (hk : d.right = e.left)
    (hu : e.leftUpper = !d.rightUpper) (hmk : m e.left ≠ 0) (hd : Ready a d p m w) (he : Ready b e p m w')
    (hs : Ready c (spliced d e (if rightAngle d = e.leftAngle then [] else [e.left])) p m w'')
    (hp : ∀ i, uses d i ∨ uses e i → OnShell (p i) (M i)) (hM : 0 ≤ M e.left) {jL jR : Int} (hL : IsSpin jL) (hR : IsSpin jR) :
    ∃ (z z' : Int → ℂ) (x : ℂ), (∀ j, IsSpin j → Val a d m w jL j (z j) ∧ Val b e m w' j jR (z' j)) ∧
      Val c (spliced d e (if rightAngle d = e.leftAngle then [] else [e.left])) m w'' jL jR x ∧
      sumSpin (fun j => z j * z' j) =
        (if rightAngle d = d.rightUpper then 1 else -1) * (if rightAngle d = e.leftAngle then (M e.left : ℂ) else 1) * x := by
  have husp : ∀ i, uses (spliced d e (if rightAngle d = e.leftAngle then [] else [e.left])) i → OnShell (p i) (M i) := by
    intro i hi
    apply hp
    rcases hi with hi | hi | hi
    · exact .inl (.inl hi)
    · exact .inr (.inr (.inl hi))
    · simp only [spliced, List.append_assoc, List.mem_append] at hi
      rcases hi with hi | hi | hi
      · exact .inl (.inr (.inr hi))
      · split_ifs at hi
        · simp at hi
        · simp at hi; exact .inr (.inl hi)
      · exact .inr (.inr (.inr hi))
  refine ⟨fun j => zchain p m d jL j, fun j => zchain p m e j jR, _, fun j hj => ⟨val_of_ready hd (fun i hi => hp i (.inl hi)) hL hj,
    val_of_ready he (fun i hi => hp i (.inr hi)) hj hR⟩, val_of_ready hs husp hL hR, ?_⟩
  have B := sv_complete (blocks (hp e.left (.inr (.inl rfl))) hM) d.rightUpper
  have hra : rightAngle d = after d.leftAngle d.mids.length := rfl
  have hrs : ∀ mid : List Nat, rightAngle (spliced d e mid) = after (after (rightAngle d) mid.length) e.mids.length := by
    intro mid
    rw [hra, ← after_add, ← after_add]
    simp only [rightAngle, spliced, after, List.length_append, Nat.add_assoc]
  have hre : rightAngle e = after e.leftAngle e.mids.length := rfl
  have hsp : ∀ mid, zchain p m (spliced d e mid) jL jR = (zend (p d.left) (m d.left) (lk d.leftAngle) d.leftUpper jL ᵥ*
      (slashProd p d.leftAngle d.mids * slashProd p (rightAngle d) mid * slashProd p (after (rightAngle d) mid.length) e.mids)) ⬝ᵥ
      zend (p e.right) (m e.right) (rk (after (after (rightAngle d) mid.length) e.mids.length)) e.rightUpper jR := by
    intro mid
    rw [zchain_kinds, hrs]
    simp only [spliced, slashProd_append, hra, ← after_add, List.length_append]
  rw [hsp]
  simp only [sumSpin, zchain_kinds, hk, hu, dot_vecMulVec, ← add_dotProduct, ← Matrix.vecMul_add, ← Matrix.add_mul, ← Matrix.mul_add,
    (zend_massive hmk _ _ _).1, (zend_massive hmk _ _ _).2, hre]
  generalize zend (p d.left) (m d.left) (lk d.leftAngle) d.leftUpper jL = x
  generalize slashProd p d.leftAngle d.mids = S
  clear hsp hrs hs husp
  cases hr : rightAngle d <;> cases hl : e.leftAngle <;>
    simp only [rk, lk, if_true, if_false, Bool.false_eq_true, Bool.true_eq_false, reduceCtorEq]
  · rw [B.2.2.2]
    cases d.rightUpper <;> simp [slashProd, after, Matrix.smul_mul, Matrix.mul_smul, Matrix.vecMul_smul, Matrix.vecMul_neg] <;> ring
  · rw [B.2.1]
    have h1 : after false 1 = true := rfl
    cases d.rightUpper <;> simp [slashProd, h1, Matrix.vecMul_neg]
  · rw [B.1]
    have h1 : after true 1 = false := rfl
    cases d.rightUpper <;> simp [slashProd, h1, Matrix.vecMul_neg]
  · rw [B.2.2.1]
    cases d.rightUpper <;> simp [slashProd, after, Matrix.smul_mul, Matrix.mul_smul, Matrix.vecMul_smul, Matrix.vecMul_neg] <;> ring

/-- **C31** (massless).  Without a spin to sum over, the product of two chains joined at a massless particle with different brackets is the
chain with its momentum inserted. -/
theorem C31_massless {a b c : Nat} {d e : SPDef} {p : Nat → V4 ℝ} {m M : Nat → ℝ} {w w' w'' : World XR XC} (hk : d.right = e.left)
    (hmk : m e.left = 0) (hMk : M e.left = 0) (hb : e.leftAngle = !rightAngle d) (hd : Ready a d p m w) (he : Ready b e p m w')
    (hs : Ready c (spliced d e [e.left]) p m w'') (hp : ∀ i, uses d i ∨ uses e i → OnShell (p i) (M i))
    {jL jR : Int} (hL : IsSpin jL) (hR : IsSpin jR) :
    ∃ z z' x : ℂ, Val a d m w jL 1 z ∧ Val b e m w' 1 jR z' ∧ Val c (spliced d e [e.left]) m w'' jL jR x ∧ z * z' = x := by
  have husp : ∀ i, uses (spliced d e [e.left]) i → OnShell (p i) (M i) := by
    intro i hi
    apply hp
    rcases hi with hi | hi | hi
    · exact .inl (.inl hi)
    · exact .inr (.inr (.inl hi))
    · simp only [spliced, List.append_assoc, List.mem_append, List.mem_singleton] at hi
      rcases hi with hi | hi | hi
      · exact .inl (.inr (.inr hi))
      · exact .inr (.inl hi)
      · exact .inr (.inr (.inr hi))
  refine ⟨_, _, _, val_of_ready hd (fun i hi => hp i (.inl hi)) hL (.inl rfl), val_of_ready he (fun i hi => hp i (.inr hi)) (.inl rfl) hR,
    val_of_ready hs husp hL hR, ?_⟩
  have hon := hp e.left (.inr (.inl rfl))
  rw [hMk] at hon
  have B := hv_complete hon
  have hra : rightAngle d = after d.leftAngle d.mids.length := rfl
  have hre : rightAngle e = after e.leftAngle e.mids.length := rfl
  have hrs : rightAngle (spliced d e [e.left]) = after (after (rightAngle d) 1) e.mids.length := by
    rw [hra, ← after_add, ← after_add]
    simp only [rightAngle, spliced, after, List.length_append, List.length_singleton, Nat.add_assoc]
  have hsp : zchain p m (spliced d e [e.left]) jL jR = (zend (p d.left) (m d.left) (lk d.leftAngle) d.leftUpper jL ᵥ*
      (slashProd p d.leftAngle d.mids * slashProd p (rightAngle d) [e.left] * slashProd p (after (rightAngle d) 1) e.mids)) ⬝ᵥ
      zend (p e.right) (m e.right) (rk (after (after (rightAngle d) 1) e.mids.length)) e.rightUpper jR := by
    rw [zchain_kinds, hrs]
    simp only [spliced, slashProd_append, hra, ← after_add, List.length_append, List.length_singleton]
  rw [hsp]
  simp only [zchain_kinds, hk, dot_vecMulVec, zend_massless hmk, hre]
  generalize zend (p d.left) (m d.left) (lk d.leftAngle) d.leftUpper jL = x
  rw [hb]
  cases hr : rightAngle d
  · have h1 : after false 1 = true := rfl
    simp only [rk, lk, h1, Bool.not_false, if_true, Bool.false_eq_true, if_false, B.2, slashProd, Matrix.mul_one]
  · have h1 : after true 1 = false := rfl
    simp only [rk, lk, h1, Bool.not_true, if_true, Bool.false_eq_true, if_false, B.1, slashProd, Matrix.mul_one]

/-! ### C32 -/

/-- **C32** (Schouten).  For any four particles, massive or massless, any spins and any placement of the spin indices:
`<ij><kl> + <ik><lj> + <il><jk> = 0`, and the same for square brackets. -/
theorem C32_schouten {p : Nat → V4 ℝ} {m M : Nat → ℝ} (s : Bool) (n : Fin 4 → Nat) (up : Fin 4 → Bool) (j : Fin 4 → Int)
    (hj : ∀ i, IsSpin (j i)) (hp : ∀ i, OnShell (p (n i)) (M (n i))) (addr : Fin 4 → Fin 4 → Nat) (w : Fin 4 → Fin 4 → World XR XC)
    (hr : ∀ i k, Ready (addr i k) { leftAngle := s, left := n i, leftUpper := up i, mids := [], right := n k, rightUpper := up k } p m (w i k)) :
    ∃ z : Fin 4 → Fin 4 → ℂ, (∀ i k, Val (addr i k) { leftAngle := s, left := n i, leftUpper := up i, mids := [], right := n k, rightUpper := up k }
        m (w i k) (j i) (j k) (z i k)) ∧
      z 0 1 * z 2 3 + z 0 2 * z 3 1 + z 0 3 * z 1 2 = 0 := by
  refine ⟨_, fun i k => val_of_ready (M := M) (hr i k) ?_ (hj i) (hj k), ?_⟩
  · intro x hx
    rcases hx with rfl | rfl | hx
    · exact hp i
    · exact hp k
    · simp at hx
  · have h := fun i => left_eq_right (p (n i)) (m (n i)) (up i) (j i)
    simp only [zchain_kinds, slashProd, Matrix.vecMul_one]
    cases s
    · simp [rightAngle, lk, rk, (h _).2, vecMul_K, dotProduct, Fin.sum_univ_two]; ring
    · simp [rightAngle, lk, rk, (h _).1, vecMul_K, dotProduct, Fin.sum_univ_two]; ring

omit [FPEnv] in
theorem slash_linear (l : Bool) (c : Nat → ℝ) (p : Nat → V4 ℝ) (ks : List Nat)
    (h : (ks.map fun k => c k * (p k).t).sum = 0 ∧ (ks.map fun k => c k * (p k).x).sum = 0 ∧
      (ks.map fun k => c k * (p k).y).sum = 0 ∧ (ks.map fun k => c k * (p k).z).sum = 0) :
    (ks.map fun k => (c k : ℂ) • (if l then slashLower (p k) else slashUpper (p k))).sum = 0 := by
  have key : ∀ ks : List Nat, (ks.map fun k => (c k : ℂ) • (if l then slashLower (p k) else slashUpper (p k))).sum =
      (fun q : V4 ℝ => if l then slashLower q else slashUpper q) ⟨(ks.map fun k => c k * (p k).t).sum, (ks.map fun k => c k * (p k).x).sum,
        (ks.map fun k => c k * (p k).y).sum, (ks.map fun k => c k * (p k).z).sum⟩ := by
    intro ks
    induction ks with
    | nil => cases l <;> ext i j <;> fin_cases i <;> fin_cases j <;> simp [slashLower, slashUpper]
    | cons k ks ih =>
      rw [List.map_cons, List.sum_cons, ih]
      cases l <;> ext i j <;> fin_cases i <;> fin_cases j <;> simp [slashLower, slashUpper] <;> ring
  rw [key]
  simp only [h.1, h.2.1, h.2.2.1, h.2.2.2]
  cases l <;> ext i j <;> fin_cases i <;> fin_cases j <;> simp [slashLower, slashUpper]

/-- **C32** (momentum conservation).  If a linear combination of the momenta of the particles `ks` vanishes (say `c = 1` for incoming and
`-1` for outgoing ones), the same combination of the chains with these inserted at any one place vanishes. -/
theorem C32_momentum_conservation {p : Nat → V4 ℝ} {m M : Nat → ℝ} (d : SPDef) (pre post ks : List Nat) (c : Nat → ℝ)
    (hc : (ks.map fun k => c k * (p k).t).sum = 0 ∧ (ks.map fun k => c k * (p k).x).sum = 0 ∧
      (ks.map fun k => c k * (p k).y).sum = 0 ∧ (ks.map fun k => c k * (p k).z).sum = 0)
    (hp : ∀ i, OnShell (p i) (M i)) (addr : Nat → Nat) (w : Nat → World XR XC)
    (hr : ∀ k ∈ ks, Ready (addr k) { d with mids := pre ++ k :: post } p m (w k)) {jL jR : Int} (hL : IsSpin jL) (hR : IsSpin jR) :
    ∃ z : Nat → ℂ, (∀ k ∈ ks, Val (addr k) { d with mids := pre ++ k :: post } m (w k) jL jR (z k)) ∧ (ks.map fun k => c k * z k).sum = 0 := by
  refine ⟨_, fun k hk => val_of_ready (hr k hk) (fun i _ => hp i) hL hR, ?_⟩
  have hrk : ∀ k, rightAngle { d with mids := pre ++ k :: post } = rightAngle { d with mids := pre ++ 0 :: post } := by
    intro k; simp [rightAngle]
  simp only [zchain_kinds, slashProd_append, slashProd, hrk]
  have e : ∀ (x y : V2) (S T : M2) (A : Nat → M2) (ks : List Nat), (ks.map fun k => (c k : ℂ) * ((x ᵥ* (S * (A k * T))) ⬝ᵥ y)).sum =
      (x ᵥ* (S * ((ks.map fun k => (c k : ℂ) • A k).sum * T))) ⬝ᵥ y := by
    intro x y S T A ks
    induction ks with
    | nil => simp
    | cons k ks ih =>
      simp only [List.map_cons, List.sum_cons, Matrix.add_mul, Matrix.mul_add, Matrix.vecMul_add, add_dotProduct]
      rw [ih]
      rw [Matrix.smul_mul, Matrix.mul_smul, Matrix.vecMul_smul, smul_dotProduct, smul_eq_mul]
  rw [e, slash_linear _ c p ks hc]
  simp

end main

/-! ### the hypotheses can be met -/

section examples
attribute [local instance] doubleEnv

/-- momenta of a small event: particles 0 and 1 have mass 3, particles 2 and 3 are massless, and `p0 + p1 = p2 + p3`. All other
particles copy particle 0. -/
def exP : Nat → V4 ℝ
  | 1 => ⟨5, 0, -4, 0⟩
  | 2 => ⟨5, 3, 0, 4⟩
  | 3 => ⟨5, -3, 0, -4⟩
  | _ => ⟨5, 0, 4, 0⟩
def exM : Nat → ℝ
  | 2 => 0
  | 3 => 0
  | _ => 3
theorem ex_onShell (i : Nat) : OnShell (exP i) (exM i) := by
  by_cases h1 : i = 1
  · subst h1; constructor <;> norm_num [exP, exM]
  by_cases h2 : i = 2
  · subst h2; constructor <;> norm_num [exP, exM]
  by_cases h3 : i = 3
  · subst h3; constructor <;> norm_num [exP, exM]
  rw [exP, exM] <;> first | assumption | (constructor <;> norm_num)

/-- all particles constructed, no products yet -/
noncomputable def exW : World XR XC where
  part := fun i => (Particle.ctorPM junkK (exP i).toX (.fin (exM i))).2
  sp := fun _ => SProd.ctor0

theorem ex_inUse (d : SPDef) : InUse d (fun i => (exP i).toX) (fun i => .fin (exM i)) exW :=
  fun i _ => live_ctor _ _ _ (ctorPM_onShell _ (ex_onShell i))

/-- a lower index only on a massive particle -/
def exOk (d : SPDef) : Prop := (exM d.left = 0 → d.leftUpper = true) ∧ (exM d.right = 0 → d.rightUpper = true)

theorem ex_construct (a : Nat) {d : SPDef} (h : exOk d) : ∃ w1, SProd.construct a d exW = (.ok (), w1) := by
  refine sync_construct (partsOk_of_inUse (ex_inUse d) junkK) ?_ ?_
  · unfold badLeft massive
    rw [show (settle junkK ((exP d.left).toX) (.fin (exM d.left)) : Kin XR XC).m = .fin (exM d.left) from rfl]
    by_cases hm : exM d.left = 0
    · simp [h.1 hm]
    · simp [Scalar.ne, hm]
  · unfold badRight massive
    rw [show (settle junkK ((exP d.right).toX) (.fin (exM d.right)) : Kin XR XC).m = .fin (exM d.right) from rfl]
    by_cases hm : exM d.right = 0
    · simp [h.2 hm]
    · simp [Scalar.ne, hm]

/-- Every product over these particles can be brought up to date. -/
theorem ex_ready (a : Nat) {d : SPDef} (h : exOk d) : ∃ w, Ready a d exP exM w := by
  obtain ⟨w1, h1⟩ := ex_construct a h
  exact ⟨w1, exW, w1, [], ex_inUse d, .inl h1, by simp, rfl⟩

/-- `<0_a| p2 p3 |1^b>`: two massive ends, two internal momenta. -/
def exD : SPDef := { leftAngle := true, left := 0, leftUpper := false, mids := [2, 3], right := 1, rightUpper := true }
theorem exD_ok : exOk exD := by constructor <;> norm_num [exD, exM]

/-- C21, C22, C25, C26: a product with a massive particle at each end, then read, with the calls the theorems speak of. -/
example : ∃ w1, InUse exD (fun i => (exP i).toX) (fun i => .fin (exM i)) exW ∧ Sync 7 exD exW w1 ∧
    (∀ op ∈ [(WOp.part 0 (.acc .umat) : WOp XR), .part 9 (.setMass (.fin 1)), .v2 7 1 1, .construct 8 exD, .update 7], Harmless 7 exD op) ∧
    VCall.Valid (.v2 1 (-1)) ∧ VCall.Fits (Scalar.ne (XR.fin (exM exD.left)) (int 0)) (Scalar.ne (XR.fin (exM exD.right)) (int 0)) (.v2 1 (-1)) ∧
    ¬ VCall.Fits (Scalar.ne (XR.fin (exM exD.left)) (int 0)) (Scalar.ne (XR.fin (exM exD.right)) (int 0)) (.v1 1) ∧ ¬ VCall.Valid (.v2 1 0) := by
  obtain ⟨w1, h1⟩ := ex_construct 7 exD_ok
  refine ⟨w1, ex_inUse _, .inl h1, ?_, ⟨.inl rfl, .inr rfl⟩, ?_, ?_, ?_⟩
  · simp [Harmless, IsSpin, uses, exD]
  · simp [VCall.Fits, Scalar.ne, exM, exD]
  · simp [VCall.Fits, Scalar.ne, exM, exD]
  · simp [VCall.Valid, IsSpin]

/-- C21: the accessors of the particles of the product return spinors and matrices. -/
example : ∃ (vl vr : CVec XC) (Ms : List (CMat XC)), endAcc (exW.part exD.left) .langle exD.leftUpper 1 = .ok vl ∧ slashAcc exW exD.leftAngle exD.mids = Ms.map .ok ∧
    endAcc (exW.part exD.right) .rangle exD.rightUpper (-1) = .ok vr := by
  have hp := partsOk_of_inUse (ex_inUse exD) junkK
  have h2 := lmat_ok (exW.part 2)
  have h3 := umat_ok (exW.part 3)
  obtain ⟨M2, h2⟩ := h2
  obtain ⟨M3, h3⟩ := h3
  refine ⟨_, _, [M2, M3], endAcc_eq (hp 0 (.inl rfl)).1 (hp 0 (.inl rfl)).2 _ _ (.inl rfl), ?_,
    endAcc_eq (hp 1 (.inr (.inl rfl))).1 (hp 1 (.inr (.inl rfl))).2 _ _ (.inr rfl)⟩
  simp [slashAcc, exD, h2, h3]

/-- C23, C24 (stale values), C26: a call that returned. -/
theorem ex_called : ∃ (w w1 : World XR XC) (x : XC), (w.sp 7).desc = some exD ∧ SProd.v2 7 (-1) 1 w = (.ok x, w1) := by
  obtain ⟨w1, h1⟩ := ex_construct 7 exD_ok
  have h := (C25_arity 7 exD _ _ exW w1 (ex_inUse _) (.inl h1) [] (by simp) (.v2 (-1) 1)).2.2
    (by simp [VCall.Fits, Scalar.ne, exM, exD]) ⟨.inr rfl, .inl rfl⟩
  obtain ⟨x, hx⟩ := h
  exact ⟨w1, (SProd.v2 7 (-1) 1 w1).2, x, desc_construct h1, Prod.ext hx rfl⟩

/-- C24 (failed update): after such a call the left particle is made massless. -/
example : ∃ (w w1 : World XR XC) (x : XC), (w.sp 7).desc = some exD ∧ SProd.v2 7 (-1) 1 w = (.ok x, w1) ∧
    (∀ op ∈ [WOp.part 0 (.setMass (XR.fin 0))], Elsewhere 7 op) ∧ exD.leftUpper = false ∧
    (Particle.getMass ((runWOps [WOp.part 0 (.setMass (XR.fin 0))] w1).2.part exD.left)).1 = .ok (.fin 0) ∧
    Scalar.eq (XR.fin 0) (int 0) = true := by
  obtain ⟨w, w1, x, h1, h2⟩ := ex_called
  refine ⟨w, w1, x, h1, h2, by simp [Elsewhere], rfl, ?_, by simp⟩
  simp only [runWOps, WOp.run, map_snd, exD]
  show Res.ok _ = _
  congr 1

/-- C24: a lower index on a massless particle. -/
example : (SProd.construct 7 { exD with left := 2 } exW).1 = .throw .lowerLeft := by
  have hm : ∀ i, (Particle.getMass (exW.part i)).1 = .ok (.fin (exM i)) := fun i => by
    show Res.ok ((Particle.ctorPM junkK (exP i).toX (.fin (exM i))).2.kin.m) = _
    obtain ⟨F, _, hx, hk, _⟩ := (live_ctor (C := XC) _ _ _ (ctorPM_onShell junkK (ex_onShell i))).fresh
    rw [hx.kin, hk]; rfl
  have h := (C24_lower_index 7 { exD with left := 2 } exW _ _ (hm _) (hm _)).1
  simpa [exD, exM] using h

/-- C27, C28: the reversed and the conjugated product can be constructed too. -/
example : (∃ w, Ready 7 exD exP exM w) ∧ (∃ w, Ready 8 (reversed exD) exP exM w) ∧ (∃ w, Ready 9 (conjugated exM exD) exP exM w) :=
  ⟨ex_ready 7 exD_ok, ex_ready 8 (by constructor <;> norm_num [reversed, exD, exM]),
    ex_ready 9 (by constructor <;> norm_num [conjugated, exD, exM])⟩

/-- C29: two massless particles. -/
example : (∃ w, Ready 7 (br true 2 [] 3) exP exM w) ∧ (∃ w, Ready 8 (br false 2 [] 3) exP exM w) ∧ (∃ w, Ready 9 (br false 3 [] 2) exP exM w) ∧
    OnShell (exP 2) 0 ∧ OnShell (exP 3) 0 ∧ dot (exP 2) (exP 3) = 50 :=
  ⟨ex_ready 7 (by constructor <;> simp [br]), ex_ready 8 (by constructor <;> simp [br]), ex_ready 9 (by constructor <;> simp [br]),
    ex_onShell 2, ex_onShell 3, by norm_num [dot, exP]⟩

/-- C30: the products of the table. -/
example (s : Bool) (mids : List Nat) : ∃ w, Ready 7 (br s 0 mids 2) exP exM w := ex_ready 7 (by constructor <;> simp [br])

/-- C31: `<2| 0> [0| 1]` with the spin of particle 0 (massive) summed, and with a massless one in the middle. -/
example : let d : SPDef := { leftAngle := true, left := 2, leftUpper := true, mids := [], right := 0, rightUpper := true }
    let e : SPDef := { leftAngle := false, left := 0, leftUpper := false, mids := [], right := 1, rightUpper := true }
    d.right = e.left ∧ (e.leftUpper = !d.rightUpper) ∧ exM e.left ≠ 0 ∧ (∃ w, Ready 7 d exP exM w) ∧ (∃ w, Ready 8 e exP exM w) ∧
    (∃ w, Ready 9 (spliced d e (if rightAngle d = e.leftAngle then [] else [e.left])) exP exM w) := by
  refine ⟨rfl, rfl, by norm_num [exM], ex_ready 7 ?_, ex_ready 8 ?_, ex_ready 9 ?_⟩ <;> constructor <;> norm_num [exM, spliced]
example : let d : SPDef := { leftAngle := true, left := 0, leftUpper := true, mids := [], right := 2, rightUpper := true }
    let e : SPDef := { leftAngle := false, left := 2, leftUpper := true, mids := [3], right := 1, rightUpper := true }
    d.right = e.left ∧ exM e.left = 0 ∧ (e.leftAngle = !rightAngle d) ∧ (∃ w, Ready 7 d exP exM w) ∧ (∃ w, Ready 8 e exP exM w) ∧
    (∃ w, Ready 9 (spliced d e [e.left]) exP exM w) := by
  refine ⟨rfl, rfl, rfl, ex_ready 7 ?_, ex_ready 8 ?_, ex_ready 9 ?_⟩ <;> constructor <;> norm_num [exM, spliced]

/-- C32: momentum conservation of the event. -/
example : let c : Nat → ℝ := fun k => if k ≤ 1 then 1 else -1
    (([0, 1, 2, 3].map fun k => c k * (exP k).t).sum = 0 ∧ ([0, 1, 2, 3].map fun k => c k * (exP k).x).sum = 0 ∧
      ([0, 1, 2, 3].map fun k => c k * (exP k).y).sum = 0 ∧ ([0, 1, 2, 3].map fun k => c k * (exP k).z).sum = 0) ∧
    ∀ k, ∃ w, Ready 7 { exD with mids := [2] ++ k :: [3] } exP exM w := by
  refine ⟨by norm_num [exP], fun k => ex_ready 7 ?_⟩
  constructor <;> norm_num [exM, exD]

end examples

end Spinas.Props
