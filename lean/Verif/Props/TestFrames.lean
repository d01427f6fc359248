import Verif.Props.TestKinematics

/-! Property C46, continued: which momenta the test drivers evaluate, in the lab frame and in random frames, and the score. -/

namespace Spinas.Spec
open Process
variable {R : Type}

/-- A record of what a driver in random frames evaluates: `pts j l` are the momenta of round `l` at angle `j`, and `ns j l` is the
number of random draws made before that round. -/
structure Rounds (R : Type) where
  pts : Nat → Nat → Mom4 R
  ns : Nat → Nat → Nat

/-- The momenta round `l` at angle `j` starts from: those of the lab frame `lab j` in the first round, and in every round if the
driver starts afresh; otherwise those of the previous round. -/
def Rounds.start (W : Rounds R) (lab : Nat → Mom4 R) (afresh : Bool) (j l : Nat) : Mom4 R :=
  if afresh = true ∨ l = 0 then lab j else W.pts j (l - 1)

/-- The rounds at the angles `a ≤ j < b` are produced by the frame changes `F`, each applied to the momenta the round starts from, and
use up the random draws one after the other. -/
structure Rounds.Follows (W : Rounds R) (F : Frame R) (lab : Nat → Mom4 R) (afresh : Bool) (a b : Nat) : Prop where
  step : ∀ j, a ≤ j → j < b → ∀ l < 10, F (W.ns j l) (W.start lab afresh j l) = some (W.pts j l, W.ns j (l + 1))
  next : ∀ j, a ≤ j → j < b → W.ns (j + 1) 0 = W.ns j 10

/-- number of rounds at the angles `a ≤ j < b` that `bad` -/
def Rounds.count (W : Rounds R) (bad : Nat → Mom4 R → Bool) (a b : Nat) : Nat :=
  ∑ j ∈ Finset.Ico a b, ((Finset.range 10).filter fun l => bad j (W.pts j l) = true).card

end Spinas.Spec

namespace Spinas.Props
open Spinas Spec XR Process

section
variable {R σ : Type} [Scalar R]

theorem frameLoop_run {T : Tested R σ} {I : σ → Prop} {V : Mom4 R → Prop} {f : Mom4 R → R} (h : Computes T I V f)
    {F : Frame R} (hF : ∀ n q q' n', V q → F n q = some (q', n') → V q') (tol datum : R) (fresh : Option (Mom4 R))
    (hfr : ∀ q, fresh = some q → V q) :
    ∀ (l n : Nat) (q : Mom4 R) (i : Nat) (s : σ), I s → V q →
      ∃ r s', frameLoop T F tol datum fresh l n q i s = (.ok r, s') ∧ I s' ∧
        (r = none → ∃ n1 q1, V q1 ∧ F n1 q1 = none) ∧
        ∀ i' n', r = some (i', n') → ∃ (P : Nat → Mom4 R) (N : Nat → Nat), N 0 = n ∧ N l = n' ∧
          (∀ k < l, F (N k) (fresh.getD (if k = 0 then q else P (k - 1))) = some (P k, N (k + 1))) ∧
          i' = i + ((Finset.range l).filter fun k => pointFails tol (f (P k)) datum = true).card := by
  intro l
  induction l with
  | zero =>
    intro n q i s hs hq
    refine ⟨some (i, n), s, rfl, hs, by simp, ?_⟩
    intro i' n' e
    injection e with e; injection e with e1 e2
    subst e1 e2
    exact ⟨fun _ => q, fun _ => n, rfl, rfl, by simp, by simp⟩
  | succ l ih =>
    intro n q i s hs hq
    have hst : V (fresh.getD q) := by
      cases fresh with
      | none => exact hq
      | some q0 => exact hfr q0 rfl
    cases hFn : F n (fresh.getD q) with
    | none =>
      refine ⟨none, s, ?_, hs, fun _ => ⟨n, _, hst, hFn⟩, by simp⟩
      unfold frameLoop; simp only [hFn]; rfl
    | some p =>
      obtain ⟨q', n1⟩ := p
      have hq' : V q' := hF _ _ _ _ hst hFn
      obtain ⟨s1, h1, hI⟩ := evalPoint_run h hs hq' tol datum i
      obtain ⟨r, s2, h2, hI2, hn, hr⟩ := ih n1 q' (if pointFails tol (f q') datum then i + 1 else i) s1 hI hq'
      refine ⟨r, s2, ?_, hI2, hn, ?_⟩
      · unfold frameLoop; simp only [hFn]; rw [Prog.bind_ok h1, h2]
      · intro i' n' e
        obtain ⟨P, N, h0, hl, hstep, hc⟩ := hr i' n' e
        refine ⟨fun k => if k = 0 then q' else P (k - 1), fun k => if k = 0 then n else N (k - 1), rfl, by simpa using hl, ?_, ?_⟩
        · intro k hk
          cases k with
          | zero => simpa [h0] using hFn
          | succ k =>
            have := hstep k (by omega)
            cases k with
            | zero => simpa using this
            | succ k => simpa using this
        · rw [hc, Finset.card_filter, Finset.card_filter, Finset.sum_range_succ']
          simp only [Nat.add_sub_cancel, Nat.add_one_ne_zero, if_false, if_true]
          split_ifs <;> omega

theorem framesLoop_run {T : Tested R σ} {I : σ → Prop} {V : Mom4 R → Prop} {f : Mom4 R → R} (h : Computes T I V f)
    {F : Frame R} (hF : ∀ n q q' n', V q → F n q = some (q', n') → V q') (tol : R) (afresh : Bool) (ini : TestInit R) (pin : R)
    (data : Nat → R) (b : Nat) (hV : ∀ j < b, V (testMomenta ini pin (testCos j))) :
    ∀ (m a n i : Nat) (s : σ), a + m = b → I s →
      ∃ r s', framesLoop T F tol afresh ini pin data (List.range' a m) n i s = (.ok r, s') ∧ I s' ∧
        (r = none → ∃ n1 q1, V q1 ∧ F n1 q1 = none) ∧
        ∀ i' n', r = some (i', n') → ∃ W : Rounds R, W.ns a 0 = n ∧ W.ns b 0 = n' ∧
          W.Follows F (fun j => testMomenta ini pin (testCos j)) afresh a b ∧
          i' = i + W.count (fun j q => pointFails tol (f q) (data j)) a b := by
  intro m
  induction m with
  | zero =>
    intro a n i s hab hs
    refine ⟨some (i, n), s, rfl, hs, by simp, ?_⟩
    intro i' n' e
    injection e with e; injection e with e1 e2
    have hab : a = b := by omega
    subst e1 e2 hab
    refine ⟨⟨fun _ _ => testMomenta ini pin pin, fun _ _ => n⟩, rfl, rfl, ⟨fun j h1 h2 => by omega, fun j h1 h2 => by omega⟩, ?_⟩
    simp [Rounds.count]
  | succ m ih =>
    intro a n i s hab hs
    have hVa := hV a (by omega)
    obtain ⟨r, s1, h1, hI, hn, hr⟩ := frameLoop_run h hF tol (data a)
      (if afresh then some (testMomenta ini pin (testCos a)) else none)
      (by intro q hq; split at hq; · injection hq with hq; rw [← hq]; exact hVa
          · cases hq) 10 n _ i s hs hVa
    cases r with
    | none =>
      refine ⟨none, s1, ?_, hI, hn, by simp⟩
      rw [List.range'_succ]
      unfold framesLoop
      dsimp only
      rw [Prog.bind_ok h1]; rfl
    | some p =>
      obtain ⟨i1, n1⟩ := p
      obtain ⟨P, N, hN0, hN10, hstep, hc⟩ := hr i1 n1 rfl
      obtain ⟨r2, s2, h2, hI2, hn2, hr2⟩ := ih (a + 1) n1 i1 s1 (by omega) hI
      refine ⟨r2, s2, ?_, hI2, hn2, ?_⟩
      · rw [List.range'_succ]
        unfold framesLoop
        dsimp only
        rw [Prog.bind_ok h1]
        exact h2
      · intro i' n' e
        obtain ⟨W, hWa, hWb, ⟨hst, hnx⟩, hcount⟩ := hr2 i' n' e
        refine ⟨⟨fun j l => if j = a then P l else W.pts j l, fun j l => if j = a then N l else W.ns j l⟩, by simpa using hN0, ?_, ⟨?_, ?_⟩, ?_⟩
        · simp only; rw [if_neg (by omega)]; exact hWb
        · intro j haj hjb l hl
          by_cases hj : j = a
          · subst hj
            have := hstep l hl
            simp only [Rounds.start, if_true]
            rw [← this]
            congr 1
            by_cases hl0 : l = 0
            · subst hl0; cases afresh <;> simp
            · cases afresh <;> simp [hl0]
          · have := hst j (by omega) hjb l hl
            simpa [Rounds.start, hj] using this
        · intro j haj hjb
          by_cases hj : j = a
          · subst hj; simp only [if_true]; rw [if_neg (by omega), hWa, hN10]
          · simp only; rw [if_neg hj, if_neg (by omega)]; exact hnx j (by omega) hjb
        · rw [hcount, hc]
          unfold Rounds.count
          rw [Finset.sum_eq_sum_Ico_succ_bot (by omega : a < b), ← Nat.add_assoc]
          congr 1
          · simp
          · apply Finset.sum_congr rfl
            intro j hj
            rw [Finset.mem_Ico] at hj
            simp only [if_neg (show j ≠ a by omega)]

/-- **C46, random frames.** For a process that computes a function `f` of the momenta, the driver with rotations returns the number of
failures among 200 evaluations: at each of the 20 angles, ten times, each after one more random rotation of the momenta used
before, starting from the lab frame.  The drivers with boosts do the same with one random boost (or rotation, boost, rotation) of the
lab frame momenta each time, and tolerance `10^-8` instead of `10^-9`; they fail to return only if a velocity draw does not end.
(Any arithmetic.  `V`: momenta the process accepts, assumed to be kept by the frame changes.) -/
theorem C46_frames {T : Tested R σ} {I : σ → Prop} {V : Mom4 R → Prop} {f : Mom4 R → R} (h : Computes T I V f)
    (ω : Util.Stream R) (fuel n : Nat) (m1 m2 m3 m4 pin : R) (data : Nat → R) (s : σ) (hs : I s)
    (hV : ∀ j < 20, V (testMomenta (testInit m1 m2 m3 m4 pin) pin (testCos j)))
    (hrot : ∀ n q, V q → V (rotateRandom ω n q).1)
    (hboost : ∀ n q q' n', V q → boostRandom ω fuel n q = some (q', n') → V q') :
    (∃ c n' s' W, testRotations T ω n m1 m2 m3 m4 pin data s = (.ok (some (c, n')), s') ∧ I s' ∧
      Rounds.Follows W (fun n q => some (rotateRandom ω n q)) (fun j => testMomenta (testInit m1 m2 m3 m4 pin) pin (testCos j)) false 0 20 ∧
      W.ns 0 0 = n ∧ W.ns 20 0 = n' ∧ n' = n + 800 ∧ c = W.count (fun j q => pointFails (Scalar.dec 1 9) (f q) (data j)) 0 20) ∧
    (∃ r s', testBoosts T ω fuel n m1 m2 m3 m4 pin data s = (.ok r, s') ∧ I s' ∧ (r = none → ∃ n1, drawVelocity ω fuel n1 = none) ∧
      ∀ c n', r = some (c, n') → ∃ W,
        Rounds.Follows W (boostRandom ω fuel) (fun j => testMomenta (testInit m1 m2 m3 m4 pin) pin (testCos j)) true 0 20 ∧
        W.ns 0 0 = n ∧ W.ns 20 0 = n' ∧ c = W.count (fun j q => pointFails (Scalar.dec 1 8) (f q) (data j)) 0 20) ∧
    (∃ r s', testBoostsRotations T ω fuel n m1 m2 m3 m4 pin data s = (.ok r, s') ∧ I s' ∧
      (r = none → ∃ n1, drawVelocity ω fuel n1 = none) ∧
      ∀ c n', r = some (c, n') → ∃ W,
        Rounds.Follows W (fun n q => (boostRandom ω fuel (n + 4) (rotateRandom ω n q).1).map fun r => rotateRandom ω r.2 r.1)
          (fun j => testMomenta (testInit m1 m2 m3 m4 pin) pin (testCos j)) true 0 20 ∧
        W.ns 0 0 = n ∧ W.ns 20 0 = n' ∧ c = W.count (fun j q => pointFails (Scalar.dec 1 8) (f q) (data j)) 0 20) := by
  have hb0 : ∀ n q, boostRandom ω fuel n q = none → drawVelocity ω fuel n = none := by
    intro n q hb; unfold boostRandom at hb; split at hb
    · assumption
    · cases hb
  refine ⟨?_, ?_, ?_⟩
  · obtain ⟨r, s', h1, hI, hn, hr⟩ := framesLoop_run h (F := fun n q => some (rotateRandom ω n q))
      (by intro n q q' n' hq e; injection e with e; rw [← show (rotateRandom ω n q).1 = q' by rw [e]]; exact hrot n q hq)
      (Scalar.dec 1 9) false (testInit m1 m2 m3 m4 pin) pin data 20 hV 20 0 n 0 s rfl hs
    cases r with
    | none => obtain ⟨_, _, _, hc⟩ := hn rfl; simp at hc
    | some p =>
      obtain ⟨c, n'⟩ := p
      obtain ⟨W, e0, e1, hW, hc⟩ := hr c n' rfl
      refine ⟨c, n', s', W, ?_, hI, hW, e0, e1, ?_, by simpa using hc⟩
      · unfold testRotations; rw [List.range_eq_range']; exact h1
      · have step : ∀ j < 20, ∀ l < 10, W.ns j (l + 1) = W.ns j l + 4 := by
          intro j hj l hl
          have := hW.step j (Nat.zero_le _) hj l hl
          injection this with this
          rw [← show (rotateRandom ω (W.ns j l) (W.start (fun j => testMomenta (testInit m1 m2 m3 m4 pin) pin (testCos j)) false j l)).2 = W.ns j (l + 1) by rw [this]]
          rfl
        have inner : ∀ j < 20, ∀ l ≤ 10, W.ns j l = W.ns j 0 + 4 * l := by
          intro j hj l
          induction l with
          | zero => intro _; simp
          | succ l ih => intro hl; rw [step j hj l (by omega), ih (by omega)]; omega
        have outer : ∀ j ≤ 20, W.ns j 0 = n + 40 * j := by
          intro j
          induction j with
          | zero => intro _; simpa using e0
          | succ j ih =>
            intro hj
            rw [hW.next j (Nat.zero_le _) (by omega), inner j (by omega) 10 le_rfl, ih (by omega)]; omega
        rw [← e1, outer 20 le_rfl]
  · obtain ⟨r, s', h1, hI, hn, hr⟩ := framesLoop_run h (F := boostRandom ω fuel) hboost
      (Scalar.dec 1 8) true (testInit m1 m2 m3 m4 pin) pin data 20 hV 20 0 n 0 s rfl hs
    refine ⟨r, s', ?_, hI, fun e => ?_, fun c n' e => ?_⟩
    · unfold testBoosts; rw [List.range_eq_range']; exact h1
    · obtain ⟨n1, q1, _, hq⟩ := hn e; exact ⟨n1, hb0 _ _ hq⟩
    · obtain ⟨W, e0, e1, hW, hc⟩ := hr c n' e
      exact ⟨W, hW, e0, e1, by simpa using hc⟩
  · have eF : rotBoostRot ω fuel = fun n q => (boostRandom ω fuel (n + 4) (rotateRandom ω n q).1).map fun r => rotateRandom ω r.2 r.1 := by
      funext n q
      unfold rotBoostRot
      have : (rotateRandom ω n q).2 = n + 4 := rfl
      simp only [this]
      cases boostRandom ω fuel (n + 4) (rotateRandom ω n q).1 <;> rfl
    obtain ⟨r, s', h1, hI, hn, hr⟩ := framesLoop_run h (F := rotBoostRot ω fuel)
      (by
        intro n q q' n' hq e
        rw [eF] at e
        simp only [Option.map_eq_some_iff] at e
        obtain ⟨⟨q2, n2⟩, hb, e⟩ := e
        have := hrot n2 q2 (hboost _ _ _ _ (hrot n q hq) hb)
        rw [← show (rotateRandom ω n2 q2).1 = q' by rw [e]]; exact this)
      (Scalar.dec 1 8) true (testInit m1 m2 m3 m4 pin) pin data 20 hV 20 0 n 0 s rfl hs
    refine ⟨r, s', ?_, hI, fun e => ?_, fun c n' e => ?_⟩
    · unfold testBoostsRotations; rw [List.range_eq_range']; exact h1
    · obtain ⟨n1, q1, _, hq⟩ := hn e
      rw [eF] at hq
      simp only [Option.map_eq_none_iff] at hq
      exact ⟨_, hb0 _ _ hq⟩
    · obtain ⟨W, e0, e1, hW, hc⟩ := hr c n' e
      exact ⟨W, by rw [← eF]; exact hW, e0, e1, by simpa using hc⟩

end

section exact
variable [FPEnv] {σ : Type}

/-- **C46, the angles.** The 20 cosines are 0.95, 0.85, ..., -0.95. -/
theorem C46_angles (j : Nat) : (testCos j : XR) = .fin (19 / 20 - j / 10) ∧
    (j < 20 → |(19 / 20 - j / 10 : ℝ)| ≤ 19 / 20 ∧ (testCos (19 - j) : XR) = .fin (-(19 / 20 - j / 10))) := by
  have key : ∀ j : Nat, (testCos j : XR) = .fin (19 / 20 - j / 10) := by
    intro j
    unfold testCos
    simp only [s_dec, s_int, fin_mul, fin_sub, fin_inj]
    push_cast; ring
  refine ⟨key j, fun hj => ?_⟩
  have h20 : (j : ℝ) ≤ 19 := by exact_mod_cast (by omega : j ≤ 19)
  have h0 : (0 : ℝ) ≤ j := Nat.cast_nonneg j
  refine ⟨abs_le.mpr ⟨by linarith, by linarith⟩, ?_⟩
  rw [key, fin_inj, Nat.cast_sub (by omega)]
  push_cast; ring

/-- **C46, the score.** For a process that computes a function with finite values `a j` at the 20 angles, `score_2to2_amp2` returns the
sum of the relative deviations `|a - d| / |a + d|` over those angles where the deviation exceeds `10^-20` and the relative deviation
exceeds `10^-9`; so it is zero exactly if no angle deviates. -/
theorem C46_score {T : Tested XR σ} {I : σ → Prop} {V : Mom4 XR → Prop} {f : Mom4 XR → XR} (h : Computes T I V f)
    (m1 m2 m3 m4 pin : XR) (a d : Nat → ℝ) (s : σ) (hs : I s)
    (hV : ∀ j < 20, V (testMomenta (testInit m1 m2 m3 m4 pin) pin (testCos j)))
    (ha : ∀ j < 20, f (testMomenta (testInit m1 m2 m3 m4 pin) pin (testCos j)) = .fin (a j))
    (hd : ∀ j < 20, a j + d j ≠ 0) :
    ∃ (x : ℝ) (s' : σ), score2to2 T m1 m2 m3 m4 pin (fun j => .fin (d j)) s = (.ok (.fin x), s') ∧ I s' ∧
      x = ∑ j ∈ (Finset.range 20).filter (fun j => 1 / 10 ^ 20 < |a j - d j| ∧ 1 / 10 ^ 9 < |a j - d j| / |a j + d j|), |a j - d j| / |a j + d j| ∧
      (x = 0 ↔ ∀ j < 20, |a j - d j| ≤ 1 / 10 ^ 20 ∨ |a j - d j| / |a j + d j| ≤ 1 / 10 ^ 9) := by
  have key : ∀ (m b : Nat) (x : ℝ) (s : σ), b + m = 20 → I s →
      ∃ s', scoreLoop T (testInit m1 m2 m3 m4 pin) pin (fun j => .fin (d j)) (List.range' b m) (.fin x) s =
        (.ok (.fin (x + ∑ j ∈ (Finset.Ico b 20).filter (fun j => 1 / 10 ^ 20 < |a j - d j| ∧ 1 / 10 ^ 9 < |a j - d j| / |a j + d j|),
          |a j - d j| / |a j + d j|)), s') ∧ I s' := by
    intro m
    induction m with
    | zero =>
      intro b x s hb hs
      refine ⟨s, ?_, hs⟩
      have : b = 20 := by omega
      subst this
      simp [scoreLoop]
    | succ m ih =>
      intro b x s hb hs
      obtain ⟨s1, s2, h1, h2, hI⟩ := h s _ hs (hV b (by omega))
      have hpos : |a b + d b| ≠ 0 := abs_ne_zero.mpr (hd b (by omega))
      set t : ℝ := if 1 / 10 ^ 20 < |a b - d b| ∧ 1 / 10 ^ 9 < |a b - d b| / |a b + d b| then |a b - d b| / |a b + d b| else 0 with ht
      have hstep : scoreStep (.fin (a b)) (.fin (d b)) (.fin x) = (.fin (x + t) : XR) := by
        unfold scoreStep
        simp only [s_isInf, s_isNaN_fin, fin_sub, fin_add, s_abs, s_dec, s_lt, fin_div hpos, Bool.false_or, Nat.cast_one,
          Bool.and_eq_true, decide_eq_true_eq, ht]
        split_ifs <;> simp
      obtain ⟨s', hr, hI'⟩ := ih (b + 1) (x + t) s2 (by omega) hI
      refine ⟨s', ?_, hI'⟩
      rw [List.range'_succ]
      unfold scoreLoop
      rw [Prog.bind_ok h1, Prog.bind_ok h2, ha b (by omega), hstep, hr]
      congr 3
      rw [Finset.sum_filter, Finset.sum_filter, Finset.sum_eq_sum_Ico_succ_bot (by omega : b < 20), ← ht]
      ring
  obtain ⟨s', h1, hI⟩ := key 20 0 0 s rfl hs
  rw [zero_add, ← Finset.range_eq_Ico] at h1
  refine ⟨_, s', ?_, hI, rfl, ?_⟩
  · unfold score2to2
    rw [List.range_eq_range', s_int, Int.cast_zero]
    exact h1
  · rw [Finset.sum_eq_zero_iff_of_nonneg (fun j _ => by positivity)]
    constructor
    · intro hz j hj
      by_contra hc
      push Not at hc
      have := hz j (by simp [hj]; simpa using hc)
      have h9 := hc.2
      rw [this] at h9
      norm_num at h9
    · intro hz j hj
      simp only [Finset.mem_filter, Finset.mem_range] at hj
      rcases hz j hj.1 with h | h
      · exact absurd hj.2.1 (not_lt.mpr h)
      · exact absurd hj.2.2 (not_lt.mpr h)

/-- **C46, the score, failures.** One point at which the amplitude is not a number makes the whole score not a number. -/
theorem C46_score_nan {T : Tested XR σ} {I : σ → Prop} {V : Mom4 XR → Prop} {f : Mom4 XR → XR} (h : Computes T I V f)
    (m1 m2 m3 m4 pin : XR) (data : Nat → XR) (s : σ) (hs : I s)
    (hV : ∀ j < 20, V (testMomenta (testInit m1 m2 m3 m4 pin) pin (testCos j)))
    (hn : ∃ j < 20, f (testMomenta (testInit m1 m2 m3 m4 pin) pin (testCos j)) = .nan) :
    ∃ s', score2to2 T m1 m2 m3 m4 pin data s = (.ok .nan, s') ∧ I s' := by
  have hnan : ∀ y d : XR, scoreStep .nan d y = (.nan : XR) := by intro y d; simp [scoreStep]
  have hnan2 : ∀ y d : XR, scoreStep y d .nan = (.nan : XR) := by intro y d; unfold scoreStep; split_ifs <;> simp
  have key : ∀ (m b : Nat) (x : XR) (s : σ), b + m = 20 → I s →
      (x = .nan ∨ ∃ j, b ≤ j ∧ j < 20 ∧ f (testMomenta (testInit m1 m2 m3 m4 pin) pin (testCos j)) = .nan) →
      ∃ s', scoreLoop T (testInit m1 m2 m3 m4 pin) pin data (List.range' b m) x s = (.ok .nan, s') ∧ I s' := by
    intro m
    induction m with
    | zero =>
      intro b x s hb hs hx
      rcases hx with rfl | ⟨j, h1, h2, _⟩
      · exact ⟨s, rfl, hs⟩
      · omega
    | succ m ih =>
      intro b x s hb hs hx
      obtain ⟨s1, s2, h1, h2, hI⟩ := h s _ hs (hV b (by omega))
      obtain ⟨s', hr, hI'⟩ := ih (b + 1) (scoreStep (f (testMomenta (testInit m1 m2 m3 m4 pin) pin (testCos b))) (data b) x) s2 (by omega) hI
        (by
          rcases hx with rfl | ⟨j, h1, h2, h3⟩
          · exact .inl (hnan2 _ _)
          · by_cases hj : j = b
            · subst hj; left; rw [h3, hnan]
            · exact .inr ⟨j, by omega, h2, h3⟩)
      refine ⟨s', ?_, hI'⟩
      rw [List.range'_succ]
      unfold scoreLoop
      rw [Prog.bind_ok h1, Prog.bind_ok h2, hr]
  obtain ⟨j, hj, hjn⟩ := hn
  obtain ⟨s', h1, h2⟩ := key 20 0 (int 0) s rfl hs (.inr ⟨j, Nat.zero_le _, hj, hjn⟩)
  exact ⟨s', by unfold score2to2; rw [List.range_eq_range']; exact h1, h2⟩

end exact

section examples
attribute [local instance] doubleEnv

/-- a process that meets the hypotheses: it stores the momenta and reports the energy of the first particle -/
def energyProcess : Tested XR (Mom4 XR) := ⟨fun q _ => (.ok (), q), fun s => (.ok s.p1.t, s)⟩

theorem energyProcess_computes : Computes energyProcess (fun _ => True) (fun _ => True) (fun q => q.p1.t) :=
  fun _ q _ _ => ⟨q, q, rfl, rfl, trivial⟩

/-- the rotations driver on it -/
example (ω : Util.Stream XR) (s : Mom4 XR) : ∃ (c n' : Nat) (s' : Mom4 XR) (W : Rounds XR), testRotations energyProcess ω 0 (int 0) (int 0) (int 0) (int 0) (int 1) (fun _ => int 1) s =
      (.ok (some (c, n')), s') ∧ n' = 800 ∧ c = Rounds.count W (fun _ q => pointFails (Scalar.dec 1 9) q.p1.t (int 1)) 0 20 := by
  obtain ⟨⟨c, n', s', W, h1, _, _, _, _, h2, h3⟩, _⟩ := C46_frames energyProcess_computes ω 1 0 (int 0) (int 0) (int 0) (int 0) (int 1) (fun _ => int 1) s
    trivial (fun _ _ => trivial) (fun _ _ _ => trivial) (fun _ _ _ _ _ _ => trivial)
  exact ⟨c, n', s', W, h1, by omega, h3⟩

/-- the score of energy 1 against the datum 3 is `20 * (2/4)` -/
example (s : Mom4 XR) : ∃ s', score2to2 energyProcess (int 0) (int 0) (int 0) (int 0) (int 1) (fun _ => int 3) s = (.ok (.fin 10), s') := by
  obtain ⟨x, s', h1, _, h2, _⟩ := C46_score energyProcess_computes (int 0) (int 0) (int 0) (int 0) (int 1) (fun _ => 1) (fun _ => 3) s
    trivial (fun _ _ => trivial) (by intro j _; simp [testMomenta, testInit, s_sqrt]) (by norm_num)
  refine ⟨s', ?_⟩
  have : x = 10 := by rw [h2]; norm_num [abs_of_neg, abs_of_pos]
  rw [this] at h1
  simpa using h1

end examples
end Spinas.Props
