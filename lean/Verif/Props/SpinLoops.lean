import Verif.Exact.XR
import Verif.Process
import Verif.Spec.Spins
import Mathlib.Tactic.Linarith
import Mathlib.Tactic.LinearCombination
import Mathlib.Algebra.BigOperators.Group.Finset.Basic
import Mathlib.Algebra.BigOperators.Intervals

/-! Properties C39 - C42: spin loops of processes. -/

namespace Spinas.Props
open Spinas Spec XR Process

theorem numLoops_fold (ds : List Int) (k : Nat) (b : Bool) (hb : b = decide (31 ≤ k)) :
    ds.foldl (fun (acc : Int × Bool) d => if d = 0 then (acc.1 * 2, acc.2 || decide (acc.1 * 2 > intMax)) else acc) (2 ^ k, b)
      = (2 ^ (k + zeros ds), decide (31 ≤ k + zeros ds)) := by
  induction ds generalizing k b with
  | nil => simp [zeros, hb]
  | cons d ds ih =>
    rw [List.foldl_cons]
    by_cases hd : d = 0
    · subst hd
      have e : (2 : Int) ^ k * 2 = 2 ^ (k + 1) := (pow_succ 2 k).symm
      rw [if_pos rfl, e, ih (k + 1)]
      · have hz : zeros (0 :: ds) = zeros ds + 1 := by simp [zeros]
        rw [hz, show k + 1 + zeros ds = k + (zeros ds + 1) by omega]
      · have hlt : ((2 : Int) ^ (k + 1) > intMax) ↔ 31 ≤ k + 1 := by
          have h31 : intMax = 2 ^ 31 - 1 := rfl
          constructor
          · intro h
            by_contra hc
            have : (2 : Int) ^ (k + 1) ≤ 2 ^ 30 := pow_le_pow_right₀ (by norm_num) (by omega)
            rw [h31] at h; norm_num at h this; omega
          · intro h
            have : (2 : Int) ^ 31 ≤ 2 ^ (k + 1) := pow_le_pow_right₀ (by norm_num) h
            rw [h31]; omega
        rw [hb]
        rw [Bool.eq_iff_iff]
        simp only [Bool.or_eq_true, decide_eq_true_eq, hlt]
        omega
    · have hz : zeros (d :: ds) = zeros ds := by simp [zeros, hd]
      rw [if_neg hd, ih k b hb, hz]

/-- **C39.** The number of loops is 2 to the number of zero spins, and the computation in `int` overflows exactly when there are 31
or more of them. -/
theorem C39_num_loops (ds : List Int) :
    (numSpinLoops ds).1 = 2 ^ zeros ds ∧ ((numSpinLoops ds).2 = true ↔ 31 ≤ zeros ds) := by
  have := numLoops_fold ds 0 false rfl
  unfold numSpinLoops
  rw [show (1 : Int) = 2 ^ 0 from rfl, this]
  simp

section exact
variable [FPEnv]

theorem norm_fold (ds : List Int) (x : ℝ) :
    ds.foldl (fun (acc : XR) d => if d = 0 then acc / Scalar.sqrt (int 2) else acc) (.fin x) = .fin (x * (Real.sqrt 2)⁻¹ ^ zeros ds) := by
  induction ds generalizing x with
  | nil => simp [zeros]
  | cons d ds ih =>
    rw [List.foldl_cons]
    by_cases hd : d = 0
    · subst hd
      have h2 : Real.sqrt 2 ≠ 0 := by positivity
      have : (fin x / Scalar.sqrt (int 2) : XR) = fin (x * (Real.sqrt 2)⁻¹) := by
        rw [s_int, s_sqrt (by norm_num)]; norm_num; rw [fin_div h2, div_eq_mul_inv]
      rw [if_pos rfl, this, ih]
      simp only [zeros, List.count_cons_self, pow_succ, fin_inj]; ring
    · rw [if_neg hd, ih]; simp [zeros, hd]

theorem spinNorm_fin (ds : List Int) : (spinNormalization ds : XR) = .fin ((Real.sqrt 2)⁻¹ ^ zeros ds) := by
  unfold spinNormalization
  rw [show (int 1 : XR) = .fin 1 by simp, norm_fold, one_mul]

/-- **C40.** The square of the normalisation times the number of loops is 1. -/
theorem C40_normalization (ds : List Int) :
    ∃ r : ℝ, (spinNormalization ds : XR) = .fin r ∧ 0 < r ∧ r ^ 2 * (numSpinLoops ds).1 = 1 := by
  refine ⟨_, spinNorm_fin ds, by positivity, ?_⟩
  rw [(C39_num_loops ds).1]
  push_cast
  rw [← pow_mul, mul_comm _ 2, pow_mul, ← mul_pow]
  have : (Real.sqrt 2)⁻¹ ^ 2 * 2 = 1 := by
    rw [inv_pow, Real.sq_sqrt (by norm_num)]; norm_num
  rw [this, one_pow]

end exact

/-! ### the decomposition into spinor spins -/

theorem counters_fst (it : Int) (ds : List Int) (arr : Nat → Int) (k : Nat) (u : Bool) (j : Nat) :
    (counters it ds (arr, k, u)).1 j = if k ≤ j ∧ j < k + zeros ds then bit it j else arr j := by
  induction ds generalizing arr k u with
  | nil =>
    have hz : zeros [] = 0 := rfl
    rw [hz, if_neg (by omega)]
    rfl
  | cons d ds ih =>
    by_cases hd : d = 0
    · subst hd
      simp only [counters, if_true]
      rw [ih]
      have hz : zeros (0 :: ds) = zeros ds + 1 := by simp [zeros]
      rw [hz]
      by_cases h1 : j = k
      · subst h1
        rw [if_neg (by omega), if_pos (by omega)]; simp
      · by_cases h2 : k + 1 ≤ j ∧ j < k + 1 + zeros ds
        · rw [if_pos h2, if_pos (by omega)]
        · rw [if_neg h2, if_neg h1, if_neg (by omega)]
    · simp only [counters, if_neg hd]
      rw [ih]
      have hz : zeros (d :: ds) = zeros ds := by simp [zeros, hd]
      rw [hz]

theorem counters_ub (it : Int) (ds : List Int) (arr : Nat → Int) (k : Nat) (u : Bool) :
    (counters it ds (arr, k, u)).2.2 = (u || decide (32 < k + zeros ds ∧ 0 < zeros ds)) := by
  induction ds generalizing arr k u with
  | nil => simp [counters, zeros]
  | cons d ds ih =>
    by_cases hd : d = 0
    · subst hd
      simp only [counters, if_true]
      rw [ih]
      have hz : zeros (0 :: ds) = zeros ds + 1 := by simp [zeros]
      rw [hz]
      rw [Bool.eq_iff_iff]
      simp only [Bool.or_eq_true, decide_eq_true_eq]
      by_cases hu : u = true
      · simp [hu]
      · simp only [hu, false_or]; simp; omega
    · simp only [counters, if_neg hd]
      rw [ih]
      have hz : zeros (d :: ds) = zeros ds := by simp [zeros, hd]
      rw [hz]

/-- the decomposition as a function of the iterator alone -/
def spinsRec : List Int → Int → List (Int × Int)
  | [], _ => []
  | d :: ds, i =>
    if d = 0 then (if i % 2 = 0 then (1, -1) else (-1, 1)) :: spinsRec ds (i / 2)
    else if d < 0 then (-1, -1) :: spinsRec ds i
    else (1, 1) :: spinsRec ds i

theorem assign_eq (it : Int) (arr : Nat → Int) (ds : List Int) (k : Nat)
    (h : ∀ j, k ≤ j → j < k + zeros ds → arr j = bit it j) :
    assignSpins arr ds k = spinsRec ds (it / 2 ^ k) := by
  induction ds generalizing k with
  | nil => rfl
  | cons d ds ih =>
    by_cases hd : d = 0
    · subst hd
      have hz : zeros (0 :: ds) = zeros ds + 1 := by simp [zeros]
      rw [hz] at h
      simp only [assignSpins, spinsRec, if_true]
      rw [h k le_rfl (by omega), ih (k + 1) (fun j h1 h2 => h j (by omega) (by omega))]
      have : it / 2 ^ k / 2 = it / 2 ^ (k + 1) := by
        rw [pow_succ, Int.ediv_ediv_of_nonneg (by positivity)]
      rw [this]; rfl
    · have hz : zeros (d :: ds) = zeros ds := by simp [zeros, hd]
      rw [hz] at h
      simp only [assignSpins, spinsRec, if_neg hd, ih k h]

theorem spinorSpins_eq (ds : List Int) (it : Int) : spinorSpins ds it = spinsRec ds it := by
  unfold spinorSpins
  rw [assign_eq it _ ds 0]
  · simp
  · intro j h1 h2
    rw [counters_fst, if_pos ⟨h1, h2⟩]

/-- spins of a massive spin-1 particle -/
def Spin1 (ds : List Int) : Prop := ∀ d ∈ ds, d = -2 ∨ d = 0 ∨ d = 2

theorem spinsRec_decomposes (ds : List Int) (h : Spin1 ds) (i : Int) : Decomposes ds (spinsRec ds i) := by
  induction ds generalizing i with
  | nil => exact .nil
  | cons d ds ih =>
    have ih' := ih (fun d hd => h d (List.mem_cons_of_mem _ hd))
    rcases h d (List.mem_cons_self) with rfl | rfl | rfl
    · exact .cons (by decide) (ih' _)
    · by_cases hi : i % 2 = 0
      · simp only [spinsRec, if_pos rfl, if_pos hi]; exact .cons (by decide) (ih' _)
      · simp only [spinsRec, if_pos rfl, if_neg hi]; exact .cons (by decide) (ih' _)
    · exact .cons (by decide) (ih' _)

theorem spinsRec_bij (ds : List Int) (h : Spin1 ds) (l : List (Int × Int)) (hl : Decomposes ds l) :
    ∃ i, (0 ≤ i ∧ i < 2 ^ zeros ds ∧ spinsRec ds i = l) ∧ ∀ j, 0 ≤ j → j < 2 ^ zeros ds → spinsRec ds j = l → j = i := by
  induction ds generalizing l with
  | nil =>
    cases hl
    exact ⟨0, by simp [zeros, spinsRec], fun j h1 h2 _ => by simp [zeros] at h2; omega⟩
  | cons d ds ih =>
    cases hl with
    | @cons _ ab _ l hab hl =>
      obtain ⟨i, ⟨h0, h1, h2⟩, hu⟩ := ih (fun d hd => h d (List.mem_cons_of_mem _ hd)) l hl
      obtain ⟨a, b⟩ := ab
      obtain ⟨ha, hb, hs⟩ := hab
      dsimp only at ha hb hs
      by_cases hd : d = 0
      · subst hd
        have hz : (2 : Int) ^ zeros (0 :: ds) = 2 * 2 ^ zeros ds := by simp [zeros, pow_succ]; ring
        rcases ha with rfl | rfl
        · have hb : b = -1 := by omega
          subst hb
          refine ⟨2 * i, ⟨by omega, by omega, ?_⟩, ?_⟩
          · simp only [spinsRec, if_true]
            rw [if_pos (by omega), show 2 * i / 2 = i by omega, h2]
          · intro j hj0 hj1 hj
            simp only [spinsRec, if_true, List.cons.injEq] at hj
            by_cases hp : j % 2 = 0
            · have := hu (j / 2) (by omega) (by omega) hj.2; omega
            · rw [if_neg hp] at hj; simp at hj
        · have hb : b = 1 := by omega
          subst hb
          refine ⟨2 * i + 1, ⟨by omega, by omega, ?_⟩, ?_⟩
          · simp only [spinsRec, if_true]
            rw [if_neg (by omega), show (2 * i + 1) / 2 = i by omega, h2]
          · intro j hj0 hj1 hj
            simp only [spinsRec, if_true, List.cons.injEq] at hj
            by_cases hp : j % 2 = 0
            · rw [if_pos hp] at hj; simp at hj
            · have := hu (j / 2) (by omega) (by omega) hj.2; omega
      · have hz : zeros (d :: ds) = zeros ds := by simp [zeros, hd]
        have key : ∀ j, spinsRec (d :: ds) j = (a, b) :: l ↔ spinsRec ds j = l := by
          intro j
          simp only [spinsRec, if_neg hd]
          split_ifs with hneg
          · have : a = -1 ∧ b = -1 := by omega
            obtain ⟨rfl, rfl⟩ := this; simp
          · have : a = 1 ∧ b = 1 := by omega
            obtain ⟨rfl, rfl⟩ := this; simp
        rw [hz]
        exact ⟨i, ⟨h0, h1, (key i).2 h2⟩, fun j hj0 hj1 hj => hu j hj0 hj1 ((key j).1 hj)⟩

/-- **C41.** For spins -2, 0, 2 every iterator below the number of loops yields a decomposition, every decomposition is obtained for
exactly one iterator, and no shift is out of range as long as there are at most 32 zero spins. -/
theorem C41_bijection (ds : List Int) (h : Spin1 ds) :
    (∀ i, Decomposes ds (spinorSpins ds i)) ∧
    (∀ l, Decomposes ds l → ∃! i : Int, 0 ≤ i ∧ i < (numSpinLoops ds).1 ∧ spinorSpins ds i = l) ∧
    (∀ i, spinorSpinsUB ds i = true ↔ 32 < zeros ds) := by
  refine ⟨fun i => ?_, fun l hl => ?_, fun i => ?_⟩
  · rw [spinorSpins_eq]; exact spinsRec_decomposes ds h i
  · obtain ⟨i, hi, hu⟩ := spinsRec_bij ds h l hl
    rw [(C39_num_loops ds).1]
    refine ⟨i, by simpa [spinorSpins_eq] using hi, ?_⟩
    rintro j ⟨h0, h1, h2⟩
    exact hu j h0 h1 (by rwa [← spinorSpins_eq])
  · unfold spinorSpinsUB
    rw [counters_ub]
    simp; omega

/-! ### polarisation sums -/

/-- The amplitude for spins `ds`, as the SM processes compute it: normalisation times the sum over the loops (SM/*.cpp `amp`). -/
noncomputable def amplitude (f : List (Int × Int) → ℂ) (ds : List Int) (r : ℝ) : ℂ :=
  (r : ℂ) * ∑ i ∈ Finset.range (numSpinLoops ds).1.toNat, f (spinorSpins ds i)

theorem numLoops_toNat (ds : List Int) : (numSpinLoops ds).1.toNat = 2 ^ zeros ds := by
  rw [(C39_num_loops ds).1]
  have : ((2 : Int) ^ zeros ds) = ((2 ^ zeros ds : Nat) : Int) := by push_cast; rfl
  rw [this, Int.toNat_natCast]

/-- the loop sum with the normalisation inserted -/
noncomputable def amp' (f : List (Int × Int) → ℂ) (ds : List Int) : ℂ :=
  (((Real.sqrt 2)⁻¹ ^ zeros ds : ℝ) : ℂ) * ∑ i ∈ Finset.range (2 ^ zeros ds), f (spinsRec ds i)

theorem amp'_zero (f : List (Int × Int) → ℂ) (ds : List Int) :
    amp' f (0 :: ds) = amp' (fun l => (((Real.sqrt 2)⁻¹ : ℝ) : ℂ) * (f ((1, -1) :: l) + f ((-1, 1) :: l))) ds := by
  unfold amp'
  have hz : zeros (0 :: ds) = zeros ds + 1 := by simp [zeros]
  have hsum : ∀ (n : ℕ) (g : ℕ → ℂ), ∑ i ∈ Finset.range (2 * n), g i = ∑ i ∈ Finset.range n, (g (2 * i) + g (2 * i + 1)) := by
    intro n g
    induction n with
    | zero => simp
    | succ n ih => rw [show 2 * (n + 1) = 2 * n + 1 + 1 by ring, Finset.sum_range_succ, Finset.sum_range_succ, ih, Finset.sum_range_succ]; ring
  rw [hz, pow_succ 2, mul_comm _ 2, hsum, ← Finset.mul_sum, ← mul_assoc]
  congr 1
  · push_cast; ring
  · apply Finset.sum_congr rfl
    intro i _
    simp only [spinsRec, if_true]
    push_cast
    rw [if_pos (by omega), if_neg (by omega), show (2 * (i : Int)) / 2 = i by omega, show (2 * (i : Int) + 1) / 2 = i by omega]

theorem amp'_two (f : List (Int × Int) → ℂ) (ds : List Int) :
    amp' f (2 :: ds) = amp' (fun l => f ((1, 1) :: l)) ds ∧ amp' f (-2 :: ds) = amp' (fun l => f ((-1, -1) :: l)) ds := by
  have h1 : zeros (2 :: ds) = zeros ds := by simp [zeros]
  have h2 : zeros (-2 :: ds) = zeros ds := by simp [zeros]
  unfold amp'
  rw [h1, h2]
  exact ⟨rfl, rfl⟩

theorem sumPairs_add (n : Nat) (g h : List (Int × Int) → ℝ) : sumPairs n (fun l => g l + h l) = sumPairs n g + sumPairs n h := by
  induction n generalizing g h with
  | zero => rfl
  | succ n ih => simp only [sumPairs, ih]; ring

theorem symmetrise_smul (c : ℂ) (f : List (Int × Int) → ℂ) (l : List (Int × Int)) : symmetrise (fun l => c * f l) l = c * symmetrise f l := by
  induction l generalizing f with
  | nil => rfl
  | cons p l ih => obtain ⟨a, b⟩ := p; simp only [symmetrise, ih]; ring

theorem symmetrise_add (f g : List (Int × Int) → ℂ) (l : List (Int × Int)) : symmetrise (fun l => f l + g l) l = symmetrise f l + symmetrise g l := by
  induction l generalizing f g with
  | nil => rfl
  | cons p l ih => obtain ⟨a, b⟩ := p; simp only [symmetrise, ih]; ring

theorem polsum (n : Nat) (f : List (Int × Int) → ℂ) :
    sumSpins n (fun ds => Complex.normSq (amp' f ds)) = sumPairs n (fun l => Complex.normSq (symmetrise f l)) := by
  induction n generalizing f with
  | zero => simp [sumSpins, sumPairs, symmetrise, amp', zeros, spinsRec]
  | succ n ih =>
    simp only [sumSpins, sumPairs, amp'_zero, (amp'_two _ _).1, (amp'_two _ _).2]
    rw [ih, ih, ih]
    have e0 : ∀ l, Complex.normSq (symmetrise (fun l => (((Real.sqrt 2)⁻¹ : ℝ) : ℂ) * (f ((1, -1) :: l) + f ((-1, 1) :: l))) l) =
        Complex.normSq (symmetrise f ((1, -1) :: l)) + Complex.normSq (symmetrise f ((-1, 1) :: l)) := by
      intro l
      rw [symmetrise_smul, symmetrise_add]
      simp only [symmetrise]
      rw [add_comm (symmetrise (fun l => f ((-1, 1) :: l)) l), Complex.normSq_mul, Complex.normSq_div, Complex.normSq_ofReal]
      have h2 : (Real.sqrt 2)⁻¹ * (Real.sqrt 2)⁻¹ = 1 / 2 := by
        rw [← mul_inv, Real.mul_self_sqrt (by norm_num)]; norm_num
      rw [h2]
      have h4 : Complex.normSq 2 = 4 := by
        rw [show (2 : ℂ) = ((2 : ℝ) : ℂ) by norm_num, Complex.normSq_ofReal]; norm_num
      rw [h4]; ring
    simp only [e0]
    rw [sumPairs_add]
    have e1 : ∀ (a : Int) (l : List (Int × Int)), symmetrise f ((a, a) :: l) = symmetrise (fun l => f ((a, a) :: l)) l := by
      intro a l; simp only [symmetrise]; ring
    simp only [e1]
    ring

/-- **C42.** For any number of massive spin-1 particles and any function of their pairs of spinor spins: the squared amplitudes
computed with `get_num_spin_loops`, `get_spinor_spins` and `get_spin_normalization`, summed over the three spins of every particle,
give the sum of the squares of the symmetrised function over all pairs of spinor spins. -/
theorem C42_polarisation_sum [FPEnv] (n : Nat) (f : List (Int × Int) → ℂ) (norm : List Int → ℝ)
    (hnorm : ∀ ds, (spinNormalization ds : XR) = .fin (norm ds)) :
    sumSpins n (fun ds => Complex.normSq (amplitude f ds (norm ds))) = sumPairs n (fun l => Complex.normSq (symmetrise f l)) := by
  rw [← polsum]
  congr 1
  funext ds
  have h : norm ds = (Real.sqrt 2)⁻¹ ^ zeros ds := by
    have := hnorm ds; rw [spinNorm_fin] at this; exact (fin_inj.mp this).symm
  unfold amplitude amp'
  rw [h, numLoops_toNat]
  simp only [spinorSpins_eq]

/-- three spin-1 particles, two of them longitudinal -/
example : Spin1 [0, 2, 0] ∧ Decomposes [0, 2, 0] [(1, -1), (1, 1), (-1, 1)] ∧
    spinorSpins [0, 2, 0] 2 = [(1, -1), (1, 1), (-1, 1)] ∧ numSpinLoops [0, 2, 0] = (4, false) := by
  refine ⟨by simp [Spin1], ?_, by decide, by decide⟩
  exact .cons (by decide) (.cons (by decide) (.cons (by decide) .nil))

/-- C42 for a function that is not symmetric -/
example : symmetrise (fun l => match l with | [(1, -1)] => 1 | _ => 0) [(-1, 1)] = 1 / 2 := by simp [symmetrise]

end Spinas.Props
