import Verif.Props.Invariance
import Verif.Props.TestFrames

/-! C60: the test drivers of `class process` on the classes of `SM/`, exact arithmetic. -/

namespace Spinas.Props
open SM Spec Matrix XR Process

/-- the four momenta by particle number -/
def legs {R : Type} (q : Mom4 R) : Nat → V4 R
  | 0 => q.p1
  | 1 => q.p2
  | 2 => q.p3
  | _ => q.p4

/-- An object of class `P` under test: `set_momenta` and the squared amplitude with number `k`.  `j`, `l`: uninitialised memory. -/
def tested {R C : Type} [Scalar R] [HasPow R] [Cplx R C] (P : Proc) (j : Kin R C) (l : Loc R C) (k : Nat) : Tested R (Obj R C) where
  setMomenta q := P.runSetMomenta j (legs q)
  amp2 o := ((P.method l .r k [] o).1, (P.method l .r k [] o).2)

noncomputable section
variable [FPEnv]

/-- related by one complex matrix -/
def Related (q q' : Mom4 ℝ) : Prop := ∃ A : M2, A.det = 1 ∧ ∀ i, slashLower (legs q' i) = A * slashLower (legs q i) * Aᴴ

theorem Related.refl (q : Mom4 ℝ) : Related q q := ⟨1, det_one, fun i => by simp⟩

theorem Related.trans {q q' q'' : Mom4 ℝ} (h : Related q q') (h' : Related q' q'') : Related q q'' := by
  obtain ⟨A, hA, h⟩ := h
  obtain ⟨B, hB, h'⟩ := h'
  refine ⟨B * A, by rw [det_mul, hA, hB, one_mul], fun i => ?_⟩
  rw [h', h, conjTranspose_mul]
  simp only [Matrix.mul_assoc]

theorem related_map {f : V4 ℝ → V4 ℝ} {A : M2} (hA : A.det = 1) (h : ∀ p, slashLower (f p) = A * slashLower p * Aᴴ) (q : Mom4 ℝ) : Related q (q.map f) :=
  ⟨A, hA, fun i => by match i with
    | 0 => exact h _
    | 1 => exact h _
    | 2 => exact h _
    | _ + 3 => exact h _⟩

/-- No axis and no velocity drawn is zero. -/
structure GoodDraws (ω : Nat → ℝ → ℝ → ℝ) : Prop where
  axis : ∀ n, ω n 0 1000 ≠ 0 ∨ ω (n + 1) 0 1000 ≠ 0 ∨ ω (n + 2) 0 1000 ≠ 0
  velocity : ∀ n, ω n 0 1 ≠ 0 ∨ ω (n + 1) 0 1 ≠ 0 ∨ ω (n + 2) 0 1 ≠ 0

theorem rotate_related {Ω : Util.Stream XR} {ω : Nat → ℝ → ℝ → ℝ} (h : FiniteDraws Ω ω) (hg : GoodDraws ω) (n : Nat) (q : Mom4 ℝ) :
    ∃ q', rotateRandom Ω n q.toX = (q'.toX, n + 4) ∧ Related q q' := by
  obtain ⟨u, θ, hu, e⟩ := rotateRandom_fin h n q (hg.axis n)
  obtain ⟨A, hA, hp⟩ := rodrigues_act u hu (cos_abs_sin θ)
  exact ⟨_, e, related_map hA hp q⟩

theorem drawVelocity_ne {Ω : Util.Stream XR} {ω : Nat → ℝ → ℝ → ℝ} (h : FiniteDraws Ω ω) (hg : GoodDraws ω) (fuel : Nat) :
    ∀ n (w : V3 ℝ) n', drawVelocity Ω fuel n = some (w.toX, n') → dot3 w w ≠ 0 := by
  induction fuel with
  | zero => intro n w n' e; cases e
  | succ fuel ih =>
    intro n w n' e
    have ea : Ω n (int 0) (int 1) = .fin (ω n 0 1) := by simpa using h n 0 1
    have eb : Ω (n + 1) (int 0) (int 1) = .fin (ω (n + 1) 0 1) := by simpa using h (n + 1) 0 1
    have ec : Ω (n + 2) (int 0) (int 1) = .fin (ω (n + 2) 0 1) := by simpa using h (n + 2) 0 1
    unfold drawVelocity at e
    rw [ea, eb, ec] at e
    dsimp only at e
    split_ifs at e with hc
    · exact ih _ _ _ e
    · injection e with e
      injection e with e _
      simp only [V3.toX, V3.mk.injEq, fin_inj] at e
      obtain ⟨hx, hy, hz⟩ := e
      unfold dot3
      rw [← hx, ← hy, ← hz]
      have h1 := mul_self_nonneg (ω n 0 1)
      have h2 := mul_self_nonneg (ω (n + 1) 0 1)
      have h3 := mul_self_nonneg (ω (n + 2) 0 1)
      rcases hg.velocity n with hn | hn | hn <;> have := mul_self_pos.mpr hn <;> intro h0 <;> linarith

theorem boost_related {Ω : Util.Stream XR} {ω : Nat → ℝ → ℝ → ℝ} (h : FiniteDraws Ω ω) (hg : GoodDraws ω) (fuel n : Nat) (q : Mom4 ℝ) {r : Mom4 XR} {n' : Nat}
    (e : boostRandom Ω fuel n q.toX = some (r, n')) : ∃ q', r = q'.toX ∧ Related q q' := by
  unfold boostRandom at e
  split at e
  · cases e
  · rename_i v n1 hd
    obtain ⟨w, rfl, h1⟩ := drawVelocity_fin h fuel n hd
    have h0 := drawVelocity_ne h hg fuel n w _ hd
    obtain ⟨A, hA, hp⟩ := rboost_act (boostRel h0 h1) (gam_pos h1)
    injection e with e
    injection e with e _
    refine ⟨_, ?_, related_map hA hp q⟩
    rw [← e]
    simp only [Mom4.map, Mom4.toX, boost_fin _ h0 h1]

theorem legs_toX (q : Mom4 ℝ) : legs q.toX = fun i => (legs q i).toX := by
  funext i
  match i with
  | 0 => rfl
  | 1 => rfl
  | 2 => rfl
  | _ + 3 => rfl

/-- the twenty lab configurations of the drivers, as real momenta -/
theorem lab_fin (m : Nat → ℝ) (pin : ℝ) (h3 : 0 ≤ m 2) (h4 : 0 ≤ m 3) (hs : 0 < sqrtS (m 0) (m 1) pin) (hthr : m 2 + m 3 ≤ sqrtS (m 0) (m 1) pin)
    (junk : Kin XR XC) (j : Nat) (hj : j < 20) :
    ∃ q : Mom4 ℝ, testMomenta (testInit (fin (m 0)) (fin (m 1)) (fin (m 2)) (fin (m 3)) (fin pin)) (fin pin) (testCos j) = q.toX ∧ ∀ i, i < 4 → OnShell (legs q i) (m i) := by
  have hc : |(19 / 20 - j / 10 : ℝ)| ≤ 1 := by
    have := ((C46_angles j).2 hj).1
    linarith
  obtain ⟨q, po, e, o1, o2, o3, o4, _⟩ := C43_test_kinematics (m 0) (m 1) (m 2) (m 3) pin _ h3 h4 hs hthr hc junk
  refine ⟨q, by rw [(C46_angles j).1]; exact e, fun i hi => ?_⟩
  match i, hi with
  | 0, _ => exact o1
  | 1, _ => exact o2
  | 2, _ => exact o3
  | 3, _ => exact o4

theorem runProcOps_append {P : Proc} (xs ys : List (ProcOp XR XC)) : ∀ o, runProcOps P (xs ++ ys) o = runProcOps P ys (runProcOps P xs o) := by
  induction xs with
  | nil => intro o; rfl
  | cons x xs ih => intro o; exact ih _

theorem lastMasses_append (xs ys : List (ProcOp XR XC)) : ∀ m, lastMasses (xs ++ ys) m = lastMasses ys (lastMasses xs m) := by
  induction xs with
  | nil => intro m; rfl
  | cons x xs ih => intro m; cases x <;> exact ih _

/-- further calls other than `set_masses` -/
theorem SameSetup.more {P : Proc} {o s : Obj XR XC} (h : SameSetup P o s) (ops : List (ProcOp XR XC)) (hn : ∀ m, lastMasses ops m = m) : SameSetup P o (runProcOps P ops s) := by
  obtain ⟨mem, mem', junk, junk', par, xs, ys, rfl, rfl, e⟩ := h
  exact ⟨mem, mem', junk, junk', par, xs, ys ++ ops, rfl, by rw [runProcOps_append], by rw [lastMasses_append, hn, e]⟩

theorem SameSetup.left {P : Proc} {o s : Obj XR XC} (h : SameSetup P o s) : SameSetup P o o := by
  obtain ⟨mem, mem', junk, junk', par, xs, ys, rfl, rfl, e⟩ := h
  exact ⟨mem, mem, junk, junk, par, xs, xs, rfl, rfl, rfl⟩

/-- The value of the squared amplitude: what `set_momenta` and the method give. -/
def squareAt (P : Proc) (j : Kin XR XC) (l : Loc XR XC) (k : Nat) (o : Obj XR XC) (q : Mom4 XR) : XR :=
  match (P.method l .r k [] (P.runSetMomenta j (legs q) o).2).1 with
  | .ok x => x
  | _ => .nan

/-- real momenta with the masses `m` -/
def OnShells (m : Nat → ℝ) (q : Mom4 XR) : Prop := ∃ q' : Mom4 ℝ, q = q'.toX ∧ ∀ i, i < 4 → OnShell (legs q' i) (m i)

section
variable {P : Proc} (hP : P ∈ all) {o : Obj XR XC} {m : Nat → ℝ} (hm : ∀ i, i < 4 → (o.w.part i).kin.m = fin (m i)) (hn : MassesNonzero P o)
  {k : Nat} (hk : P.isSquare k = true) (j : Kin XR XC) (l : Loc XR XC)
include hP hm hn hk

theorem squareAt_related (h : SameSetup P o o) {q q' : Mom4 ℝ} (hq : ∀ i, i < 4 → OnShell (legs q i) (m i)) (hr : Related q q') :
    squareAt P j l k o q'.toX = squareAt P j l k o q.toX := by
  obtain ⟨A, hA, hp⟩ := hr
  have := (squares_shell hP h hm hn hq hA hp).2.2 j j [] [] l l k hk
  unfold squareAt
  rw [legs_toX, legs_toX]
  simp only [runCalls] at this
  rw [this]

theorem tested_computes (h : SameSetup P o o) : Computes (tested P j l k) (SameSetup P o) (OnShells m) (squareAt P j l k o) := by
  rintro s q hs ⟨q, rfl, hq⟩
  obtain ⟨h1, h2, h3⟩ := squares_shell (p' := legs q) hP hs hm hn hq (det_one (n := Fin 2)) (fun i => by simp)
  have e := h3 j j [] [] l l k hk
  simp only [runCalls, ← legs_toX] at e
  obtain ⟨S, par, hc, hi, _, _⟩ := h.inv hP
  obtain ⟨x, hx⟩ := no_throw hc hi (by simp) hn (fun i => (legs q i).toX) j (h1 j) [] .r k [] (.inl ⟨rfl, hk, rfl⟩) (by simp) l
  simp only [runCalls, ← legs_toX] at hx
  have h2' := h2 j
  rw [← legs_toX] at h2'
  refine ⟨_, _, Prod.ext h2' rfl, Prod.ext ?_ rfl, hs.more [.setMomenta j (legs q.toX), .call ⟨l, .r, k, []⟩] (fun _ => rfl)⟩
  show (P.method l .r k [] (P.runSetMomenta j (legs q.toX) s).2).1 = .ok (squareAt P j l k o q.toX)
  unfold squareAt
  rw [← e, hx]

end

theorem rounds_related {W : Rounds XR} {F : Process.Frame XR} {lab : Nat → Mom4 XR} {afresh : Bool} (h : W.Follows F lab afresh 0 20)
    (hF : ∀ n (q : Mom4 ℝ) r n', F n q.toX = some (r, n') → ∃ q', r = q'.toX ∧ Related q q') {j : Nat} (hj : j < 20) {q : Mom4 ℝ} (hq : lab j = q.toX) :
    ∀ l, l < 10 → ∃ q', W.pts j l = q'.toX ∧ Related q q' := by
  intro l
  induction l with
  | zero =>
    intro hl
    have := h.step j (Nat.zero_le _) hj 0 hl
    rw [show W.start lab afresh j 0 = q.toX by simp [Rounds.start, hq]] at this
    exact hF _ _ _ _ this
  | succ l ih =>
    intro hl
    have hs := h.step j (Nat.zero_le _) hj (l + 1) hl
    obtain ⟨q1, e1, r1⟩ := ih (by omega)
    cases afresh with
    | true =>
      rw [show W.start lab true j (l + 1) = q.toX by simp [Rounds.start, hq]] at hs
      exact hF _ _ _ _ hs
    | false =>
      rw [show W.start lab false j (l + 1) = q1.toX by simp [Rounds.start, e1]] at hs
      obtain ⟨q2, e2, r2⟩ := hF _ _ _ _ hs
      exact ⟨q2, e2, r1.trans r2⟩

theorem filter_sum (b : Nat → Bool) (n : Nat) : (∑ j ∈ Finset.Ico 0 n, if b j = true then 10 else 0) = 10 * ((List.range n).filter b).length := by
  induction n with
  | zero => rfl
  | succ n ih =>
    rw [Finset.sum_Ico_succ_top (Nat.zero_le n), ih, List.range_succ, List.filter_append, List.length_append, Nat.mul_add]
    congr 1
    cases h : b n <;> simp [h]

theorem count_const {W : Rounds XR} {bad : Nat → Mom4 XR → Bool} {b : Nat → Bool} (h : ∀ j, j < 20 → ∀ l, l < 10 → bad j (W.pts j l) = b j) :
    W.count bad 0 20 = 10 * ((List.range 20).filter b).length := by
  rw [← filter_sum]
  unfold Rounds.count
  refine Finset.sum_congr rfl fun j hj => ?_
  rw [Finset.mem_Ico] at hj
  rw [Finset.filter_congr (q := fun _ => b j = true) (fun l hl => by rw [h j hj.2 l (Finset.mem_range.mp hl)])]
  cases b j <;> simp

/-- The number of angles at which the squared amplitude fails the comparison with the data. -/
def failures (tol : XR) (f : Nat → XR) (data : Nat → XR) : Nat := ((List.range 20).filter fun j => pointFails tol (f j) (data j)).length

/-- `f j`: the squared amplitude at the `j`-th angle in the lab frame.  The drivers in random frames count every failing angle ten times, and no other. -/
theorem C60_drivers (P : Proc) (hP : P ∈ all) {o : Obj XR XC} (h : SameSetup P o o) {m : Nat → ℝ} (hm : ∀ i, i < 4 → (o.w.part i).kin.m = fin (m i)) (hn : MassesNonzero P o)
    (pin : ℝ) (h3 : 0 ≤ m 2) (h4 : 0 ≤ m 3) (hs : 0 < sqrtS (m 0) (m 1) pin) (hthr : m 2 + m 3 ≤ sqrtS (m 0) (m 1) pin)
    {k : Nat} (hk : P.isSquare k = true) (j0 : Kin XR XC) (l0 : Loc XR XC)
    {Ω : Util.Stream XR} {ω : Nat → ℝ → ℝ → ℝ} (hd : FiniteDraws Ω ω) (hg : GoodDraws ω) (n fuel : Nat) (data : Nat → XR) :
    ∃ f : Nat → XR,
      (∀ j, j < 20 → (P.method l0 .r k [] (P.runSetMomenta j0 (legs (testMomenta (testInit (fin (m 0)) (fin (m 1)) (fin (m 2)) (fin (m 3)) (fin pin)) (fin pin) (testCos j))) o).2).1 = .ok (f j)) ∧
      (∃ s, test2to2 (tested P j0 l0 k) (fin (m 0)) (fin (m 1)) (fin (m 2)) (fin (m 3)) (fin pin) data o = (.ok (failures (Scalar.dec 1 9) f data), s)) ∧
      (∃ s, testRotations (tested P j0 l0 k) Ω n (fin (m 0)) (fin (m 1)) (fin (m 2)) (fin (m 3)) (fin pin) data o = (.ok (some (10 * failures (Scalar.dec 1 9) f data, n + 800)), s)) ∧
      (∃ r s, testBoosts (tested P j0 l0 k) Ω fuel n (fin (m 0)) (fin (m 1)) (fin (m 2)) (fin (m 3)) (fin pin) data o = (.ok r, s) ∧
        ∀ c n', r = some (c, n') → c = 10 * failures (Scalar.dec 1 8) f data) ∧
      (∃ r s, testBoostsRotations (tested P j0 l0 k) Ω fuel n (fin (m 0)) (fin (m 1)) (fin (m 2)) (fin (m 3)) (fin pin) data o = (.ok r, s) ∧
        ∀ c n', r = some (c, n') → c = 10 * failures (Scalar.dec 1 8) f data) := by
  have hlab := lab_fin m pin h3 h4 hs hthr j0
  set lab : Nat → Mom4 XR := fun j => testMomenta (testInit (fin (m 0)) (fin (m 1)) (fin (m 2)) (fin (m 3)) (fin pin)) (fin pin) (testCos j) with hlabdef
  have hV : ∀ j < 20, OnShells m (lab j) := fun j hj => by
    obtain ⟨q, e, hq⟩ := hlab j hj
    exact ⟨q, e, hq⟩
  have hC := tested_computes hP hm hn hk j0 l0 h
  have keep : ∀ {q q' : Mom4 ℝ}, Related q q' → (∀ i, i < 4 → OnShell (legs q i) (m i)) → OnShells m q'.toX := by
    rintro q q' ⟨A, hA, hp⟩ hq
    exact ⟨q', rfl, fun i hi => (hq i hi).act hA (hp i)⟩
  have hrot : ∀ n (q : Mom4 ℝ) r n', some (rotateRandom Ω n q.toX) = some (r, n') → ∃ q', r = q'.toX ∧ Related q q' := by
    intro n q r n' e
    obtain ⟨q', e', hr⟩ := rotate_related hd hg n q
    rw [e'] at e
    injection e with e; injection e with e _
    exact ⟨q', e.symm, hr⟩
  have hboth : ∀ n (q : Mom4 ℝ) r n', ((boostRandom Ω fuel (n + 4) (rotateRandom Ω n q.toX).1).map fun r => rotateRandom Ω r.2 r.1) = some (r, n') → ∃ q', r = q'.toX ∧ Related q q' := by
    intro n q r n' e
    obtain ⟨q1, e1, r1⟩ := rotate_related hd hg n q
    rw [e1] at e
    cases hb : boostRandom Ω fuel (n + 4) q1.toX with
    | none => rw [hb] at e; cases e
    | some x =>
      obtain ⟨q2, e2, r2⟩ := boost_related hd hg fuel (n + 4) q1 (r := x.1) (n' := x.2) hb
      rw [hb] at e
      simp only [Option.map_some, e2] at e
      obtain ⟨q3, e3, r3⟩ := hrot _ _ _ _ e
      exact ⟨q3, e3, (r1.trans r2).trans r3⟩
  have hcount : ∀ {F : Process.Frame XR} {b : Bool} {W : Rounds XR} (tol : XR), W.Follows F lab b 0 20 →
      (∀ n (q : Mom4 ℝ) r n', F n q.toX = some (r, n') → ∃ q', r = q'.toX ∧ Related q q') →
      W.count (fun j q => pointFails tol (squareAt P j0 l0 k o q) (data j)) 0 20 = 10 * failures tol (fun j => squareAt P j0 l0 k o (lab j)) data := by
    intro F b W tol hW hF
    refine count_const fun j hj l hl => ?_
    obtain ⟨q, e, hq⟩ := hlab j hj
    obtain ⟨q', e', hr⟩ := rounds_related hW hF hj (q := q) e l hl
    rw [e', squareAt_related hP hm hn hk j0 l0 h hq hr]
    simp only [hlabdef, e]
  obtain ⟨⟨c1, n1, s1, W1, f1, _, w1, _, _, g1, k1⟩, ⟨r2, s2, f2, _, _, k2⟩, ⟨r3, s3, f3, _, _, k3⟩⟩ := C46_frames hC Ω fuel n _ _ _ _ _ data o h hV
    (by
      rintro n q ⟨q, rfl, hq⟩
      obtain ⟨q', e, hr⟩ := rotate_related hd hg n q
      rw [e]; exact keep hr hq)
    (by
      rintro n q r n' ⟨q, rfl, hq⟩ e
      obtain ⟨q', rfl, hr⟩ := boost_related hd hg fuel n q e
      exact keep hr hq)
  obtain ⟨c0, s0, f0, _, _, k0, _⟩ := C46_count hC h _ _ _ _ _ data hV
  refine ⟨fun j => squareAt P j0 l0 k o (lab j), fun j hj => ?_, ⟨s0, ?_⟩, ⟨s1, ?_⟩, ⟨r2, s2, f2, fun c n' e => ?_⟩, ⟨r3, s3, f3, fun c n' e => ?_⟩⟩
  · obtain ⟨x1, x2, a1, a2, _⟩ := hC o (lab j) h (hV j hj)
    have : x1 = (P.runSetMomenta j0 (legs (lab j)) o).2 := by rw [show P.runSetMomenta j0 (legs (lab j)) o = _ from a1]
    subst this
    exact congrArg Prod.fst a2
  · rw [f0, k0]; rfl
  · rw [f1, k1, g1, hcount _ w1 hrot]
  · obtain ⟨W, hW, _, _, e⟩ := k2 c n' e
    rw [e, hcount _ hW fun n q r n' e => boost_related hd hg fuel n q e]
  · obtain ⟨W, hW, _, _, e⟩ := k3 c n' e
    rw [e, hcount _ hW hboth]

end

section examples
attribute [local instance] doubleEnv

/-- all draws in the middle of the interval -/
noncomputable def midStream : Util.Stream XR := fun _ b e => match b, e with
  | .fin b, .fin e => .fin ((b + e) / 2)
  | _, _ => .nan

theorem mid_finite : FiniteDraws midStream fun _ b e => (b + e) / 2 := fun _ _ _ => rfl
theorem mid_good : GoodDraws fun _ b e => (b + e) / 2 := ⟨fun _ => by norm_num, fun _ => by norm_num⟩

/-- The electron-muon object with both masses 3 and incoming momentum 4. -/
example (mem : Nat → XR) (l0 : Loc XR XC) (data : Nat → XR) : ∃ c s s', test2to2 (tested Cls.eemmQED junkK l0 1) (fin 3) (fin 3) (fin 3) (fin 3) (fin 4) data (Cls.eemmQED.construct mem junkK exPar).2 = (.ok c, s) ∧
    testRotations (tested Cls.eemmQED junkK l0 1) midStream 0 (fin 3) (fin 3) (fin 3) (fin 3) (fin 4) data (Cls.eemmQED.construct mem junkK exPar).2 = (.ok (some (10 * c, 800)), s') := by
  have hS : sqrtS 3 3 4 = 10 := by
    unfold sqrtS
    rw [show (4 : ℝ) ^ 2 + 3 ^ 2 = 5 ^ 2 by norm_num, Real.sqrt_sq (by norm_num)]; norm_num
  obtain ⟨f, _, ⟨s, h1⟩, ⟨s', h2⟩, _⟩ := C60_drivers Cls.eemmQED exAll (ex_setup mem mem [] rfl) (m := fun _ => 3) (fun i hi => ex_mass mem i hi) (ex_nonzero mem)
    4 (by norm_num) (by norm_num) (by rw [hS]; norm_num) (by rw [hS]; norm_num) (k := 1) (by decide) junkK l0 mid_finite mid_good 0 1 data
  exact ⟨_, s, s', h1, by simpa using h2⟩

end examples
end Spinas.Props
