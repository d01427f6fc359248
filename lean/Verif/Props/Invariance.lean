import Verif.SM.Frame
import Verif.SM.Typed
import Verif.Exact.Lorentz
import Verif.Exact.Boosts

/-! C58 - C60: the squared amplitudes of every class are the same in every frame (exact arithmetic). -/

namespace Spinas.Props
open SM Spec Matrix XR

noncomputable section
variable [FPEnv]

/-- Two objects of one class, constructed with the same arguments and having the same last call of `set_masses` (or none); anything else may have been called on them.  They may also be one object at two times. -/
def SameSetup (P : Proc) (o o' : Obj XR XC) : Prop := ∃ (mem mem' : Nat → XR) (junk junk' : Kin XR XC) (par : Nat → XR) (ops ops' : List (ProcOp XR XC)),
  o = runProcOps P ops (P.construct mem junk par).2 ∧ o' = runProcOps P ops' (P.construct mem' junk' par).2 ∧ lastMasses ops none = lastMasses ops' none

/-- Momenta of masses `M`, for an object with masses `m`. The two need not be equal (`set_momenta` has a tolerance), but they vanish together. -/
structure Kinematic (P : Proc) (o : Obj XR XC) (m M : Nat → ℝ) (p : Nat → V4 ℝ) : Prop where
  masses : ∀ i, i < 4 → (o.w.part i).kin.m = fin (m i)
  nonzero : MassesNonzero P o
  shell : ∀ i, i < 4 → OnShell (p i) (M i)
  pos : ∀ i, i < 4 → 0 ≤ M i
  zero : ∀ i, i < 4 → (m i = 0 ↔ M i = 0)

/-- Every squared amplitude gives the same for `o` at the momenta `p` as for `o'` at `p'`, whatever other methods are called in between. -/
def SameSquares (P : Proc) (o o' : Obj XR XC) (p p' : Nat → V4 ℝ) : Prop := ∀ (j j' : Kin XR XC) (xs xs' : List (MCall XR XC)) (l l' : Loc XR XC) (k : Nat), P.isSquare k = true →
  (P.method l .r k [] (runCalls P xs (P.runSetMomenta j (fun i => (p i).toX) o).2)).1 =
  (P.method l' .r k [] (runCalls P xs' (P.runSetMomenta j' (fun i => (p' i).toX) o').2)).1

/-- `set_momenta` accepts the momenta. -/
def Accepted (P : Proc) (o : Obj XR XC) (p : Nat → V4 ℝ) : Prop := ∀ j : Kin XR XC, (P.runSetMomenta j (fun i => (p i).toX) o).1 = .ok ()

theorem invariant_typed {P : Proc} (hP : P ∈ all) {k : Nat} (hk : P.isSquare k = true) {S : Sym} (hS : P.sym = some S) :
    tySquare S.gsp (fun i => massiveExp (S.gm i)) P.methods k = true := by
  have h := List.all_eq_true.mp all_typed P hP
  simp only [Bool.and_eq_true, List.all_eq_true] at h
  have hi : P.invariant k = true := by
    simp only [Proc.isSquare, Bool.or_eq_true, beq_iff_eq, List.any_eq_true] at hk
    rcases hk with rfl | ⟨x, hx, rfl⟩
    · exact h.1
    · exact h.2 x hx
  simpa only [Proc.invariant, hS] using hi

theorem sameShape_typed {P : Proc} (hP : P ∈ all) {k : Nat} (hk : P.isSquare k = true) {S S1 : Sym} (hS : P.sym = some S) (hS1 : P.symM S = some S1) :
    tySquare S1.gsp (fun i => massiveExp (S1.gm i)) P.methods k = true := by
  have h := List.all_eq_true.mp all_sameShape P hP
  simp only [Proc.sameShape, hS, hS1, Bool.and_eq_true, beq_iff_eq, List.all_eq_true, List.mem_range] at h
  obtain ⟨⟨h1, h2⟩, h3⟩ := h
  have e1 : S1.gsp = S.gsp := by funext i; simp only [Sym.gsp, h1]
  have e2 : (fun i => massiveExp (S1.gm i)) = fun i => massiveExp (S.gm i) := by
    funext i
    by_cases hi : i < S.mass.length
    · exact (h3 i hi).symm
    · simp only [Sym.gm]
      rw [List.getD_eq_getElem?_getD, List.getD_eq_getElem?_getD, List.getElem?_eq_none (by omega), List.getElem?_eq_none (by omega)]
  rw [e1, e2]
  exact invariant_typed hP hk hS

/-- Objects with the same setup have a common description. -/
theorem SameSetup.inv {P : Proc} (hP : P ∈ all) {o o' : Obj XR XC} (h : SameSetup P o o') :
    ∃ S par, P.checkAll S = true ∧ Inv S par o ∧ Inv S par o' ∧ ∀ k, P.isSquare k = true → tySquare S.gsp (fun i => massiveExp (S.gm i)) P.methods k = true := by
  obtain ⟨mem, mem', junk, junk', par, ops, ops', rfl, rfl, hl⟩ := h
  obtain ⟨S0, hS0, hc0⟩ := fresh_check hP
  obtain ⟨S, S1, hS, hS1, hc1, ha⟩ := masses_check hP
  have : S0 = S := by rw [hS0] at hS; cases hS; rfl
  subst this
  have h := ops_inv_last (checkAll_parts hc0).1 (checkAll_parts hc1).1 hS1 ha par ops (m := none) (construct_inv hS mem junk par).2
  have h' := ops_inv_last (checkAll_parts hc0).1 (checkAll_parts hc1).1 hS1 ha par ops' (m := none) (construct_inv hS mem' junk' par).2
  rw [← hl] at h'
  revert h h'
  cases lastMasses ops none with
  | none => exact fun h h' => ⟨S0, par, hc0, h, h', fun k hk => invariant_typed hP hk hS⟩
  | some args => exact fun h h' => ⟨S1, mix par args args, hc1, h, h', fun k hk => sameShape_typed hP hk hS hS1⟩

/-- One complex matrix for all momenta. -/
theorem squares_act {P : Proc} (hP : P ∈ all) {o o' : Obj XR XC} (h : SameSetup P o o') {m M : Nat → ℝ} {p p' : Nat → V4 ℝ} (hK : Kinematic P o m M p)
    {A : M2} (hA : A.det = 1) (hp : ∀ i, slashLower (p' i) = A * slashLower (p i) * Aᴴ) (h1 : Accepted P o p) (h2 : Accepted P o' p') : SameSquares P o o' p p' := by
  obtain ⟨S, par, hc, hi, hi', ht⟩ := h.inv hP
  intro j j' xs xs' l l' k hk
  exact square_frames hc hk (ht k hk) hi hi' hK.masses hK.nonzero ⟨hA, hK.shell, hK.pos, hK.zero, hp⟩ j j' (h1 j) (h2 j') xs xs' l l'

theorem accepted_of {P : Proc} (hP : P ∈ all) {o o' : Obj XR XC} (h : SameSetup P o o') {m : Nat → ℝ} (hm : ∀ i, i < 4 → (o.w.part i).kin.m = fin (m i))
    {p : Nat → V4 ℝ} (hp : ∀ i, i < 4 → OnShell (p i) (m i)) : Accepted P o p ∧ Accepted P o' p := by
  obtain ⟨S, par, hc, hi, hi', _⟩ := h.inv hP
  have hk : Accepted P o p := by
    intro j
    refine (alike_of_inv hc hi hi (fun i => (p i).toX) j j).2.1 fun i hlt => ?_
    rw [hm i hlt]; exact ctorPM_onShell j (hp i hlt)
  exact ⟨hk, fun j => by rw [(alike_of_inv hc hi' hi (fun i => (p i).toX) j j).1]; exact hk j⟩

/-! ### C58: Lorentz transformations -/

/-- Whenever both sets of momenta are accepted. -/
theorem C58_lorentz (P : Proc) (hP : P ∈ all) {o o' : Obj XR XC} (h : SameSetup P o o') {m M : Nat → ℝ} {p : Nat → V4 ℝ} (hK : Kinematic P o m M p)
    {L : Matrix (Fin 4) (Fin 4) ℝ} (hL : Lorentz L) (h1 : Accepted P o p) (h2 : Accepted P o' fun i => transform L (p i)) :
    SameSquares P o o' p fun i => transform L (p i) := by
  obtain ⟨A, hA, hp⟩ := hL.cover
  exact squares_act hP h hK hA (fun i => hp (p i)) h1 h2

theorem kinematic_abs {P : Proc} {o : Obj XR XC} {m : Nat → ℝ} {p : Nat → V4 ℝ} (hm : ∀ i, i < 4 → (o.w.part i).kin.m = fin (m i)) (hn : MassesNonzero P o)
    (hp : ∀ i, i < 4 → OnShell (p i) (m i)) : Kinematic P o m (fun i => |m i|) p where
  masses := hm
  nonzero := hn
  shell i hi := ⟨(hp i hi).energy, by rw [sq_abs]; exact (hp i hi).shell⟩
  pos _ _ := abs_nonneg _
  zero _ _ := abs_eq_zero.symm

/-- As `squares_act`, for momenta with exactly the masses of the particles: all are accepted. -/
theorem squares_shell {P : Proc} (hP : P ∈ all) {o o' : Obj XR XC} (h : SameSetup P o o') {m : Nat → ℝ} (hm : ∀ i, i < 4 → (o.w.part i).kin.m = fin (m i))
    (hn : MassesNonzero P o) {p p' : Nat → V4 ℝ} (hs : ∀ i, i < 4 → OnShell (p i) (m i)) {A : M2} (hA : A.det = 1)
    (hp : ∀ i, slashLower (p' i) = A * slashLower (p i) * Aᴴ) : Accepted P o p ∧ Accepted P o' p' ∧ SameSquares P o o' p p' := by
  have h1 := (accepted_of hP h hm hs).1
  have h2 := (accepted_of hP h hm (p := p') fun i hi => (hs i hi).act hA (hp i)).2
  exact ⟨h1, h2, squares_act hP h (kinematic_abs hm hn hs) hA hp h1 h2⟩

/-- For momenta with exactly the masses of the particles. -/
theorem C58_onShell (P : Proc) (hP : P ∈ all) {o o' : Obj XR XC} (h : SameSetup P o o') {m : Nat → ℝ} (hm : ∀ i, i < 4 → (o.w.part i).kin.m = fin (m i))
    (hn : MassesNonzero P o) {p : Nat → V4 ℝ} (hs : ∀ i, i < 4 → OnShell (p i) (m i)) {L : Matrix (Fin 4) (Fin 4) ℝ} (hL : Lorentz L) :
    Accepted P o p ∧ Accepted P o' (fun i => transform L (p i)) ∧ SameSquares P o o' p fun i => transform L (p i) := by
  obtain ⟨A, hA, hp⟩ := hL.cover
  exact squares_shell hP h hm hn hs hA fun i => hp (p i)

/-! ### C59: `rotate_momentum` and `boost_momentum` -/

theorem C59_rotate (P : Proc) (hP : P ∈ all) {o o' : Obj XR XC} (h : SameSetup P o o') {m : Nat → ℝ} (hm : ∀ i, i < 4 → (o.w.part i).kin.m = fin (m i))
    (hn : MassesNonzero P o) {p : Nat → V4 ℝ} (hs : ∀ i, i < 4 → OnShell (p i) (m i)) (u : V3 ℝ) (hu : dot3 u u = 1) (θ : ℝ) :
    ∃ p' : Nat → V4 ℝ, (∀ i, Util.rotate (p i).toX u.toX (fin θ) = (p' i).toX) ∧ Accepted P o p ∧ Accepted P o' p' ∧ SameSquares P o o' p p' := by
  obtain ⟨A, hA, hp⟩ := rodrigues_act u hu (cos_abs_sin θ)
  exact ⟨_, fun i => rotate_fin (p i) u θ, squares_shell hP h hm hn hs hA fun i => hp (p i)⟩

theorem C59_boost (P : Proc) (hP : P ∈ all) {o o' : Obj XR XC} (h : SameSetup P o o') {m : Nat → ℝ} (hm : ∀ i, i < 4 → (o.w.part i).kin.m = fin (m i))
    (hn : MassesNonzero P o) {p : Nat → V4 ℝ} (hs : ∀ i, i < 4 → OnShell (p i) (m i)) (v : V3 ℝ) (h0 : dot3 v v ≠ 0) (h1 : dot3 v v < 1) :
    ∃ p' : Nat → V4 ℝ, (∀ i, Util.boost (p i).toX v.toX = (p' i).toX) ∧ Accepted P o p ∧ Accepted P o' p' ∧ SameSquares P o o' p p' := by
  obtain ⟨A, hA, hp⟩ := rboost_act (boostRel h0 h1) (gam_pos h1)
  exact ⟨_, fun i => boost_fin (p i) h0 h1, squares_shell hP h hm hn hs hA fun i => hp (p i)⟩

end

section examples
attribute [local instance] doubleEnv

/-- a boost along z with velocity 3/5, after a rotation by a quarter turn about x -/
noncomputable def exL : Matrix (Fin 4) (Fin 4) ℝ := !![5/4, 0, 0, 3/4; 0, 1, 0, 0; 0, 0, 1, 0; 3/4, 0, 0, 5/4] * !![1, 0, 0, 0; 0, 1, 0, 0; 0, 0, 0, -1; 0, 0, 1, 0]

theorem exL_eq : exL = !![5/4, 0, 3/4, 0; 0, 1, 0, 0; 0, 0, 0, -1; 3/4, 0, 5/4, 0] := by
  unfold exL
  ext i j; fin_cases i <;> fin_cases j <;> simp [Matrix.mul_apply, Fin.sum_univ_four]

theorem exL_lorentz : Lorentz exL where
  isometry := by
    rw [exL_eq]
    ext i j
    have e2 : ∀ a b c d : ℝ, (![a, b, c, d] : Fin 4 → ℝ) 2 = c := fun _ _ _ _ => rfl
    have e3 : ∀ a b c d : ℝ, (![a, b, c, d] : Fin 4 → ℝ) 3 = d := fun _ _ _ _ => rfl
    fin_cases i <;> fin_cases j <;> simp [minkowski, Matrix.mul_apply, Fin.sum_univ_four, Matrix.diagonal, Matrix.transpose_apply, e2, e3] <;> norm_num
  proper := by
    rw [exL_eq]
    simp [Matrix.det_succ_row_zero, Fin.sum_univ_succ, Fin.succAbove]
    norm_num
  forward := by rw [exL_eq]; norm_num

/-- it moves `pM = (5, 0, 4, 0)` to `(37/4, 0, 0, 35/4)` -/
example : transform exL pM = ⟨37/4, 0, 0, 35/4⟩ := by
  rw [exL_eq]
  simp [transform, ofComps, comps, pM, Matrix.mulVec, dotProduct, Fin.sum_univ_four]
  norm_num

theorem ex_setup (mem mem' : Nat → XR) (ops : List (ProcOp XR XC)) (h : lastMasses ops none = none) :
    SameSetup Cls.eemmQED (Cls.eemmQED.construct mem junkK exPar).2 (runProcOps Cls.eemmQED ops (Cls.eemmQED.construct mem' junkK exPar).2) :=
  ⟨mem, mem', junkK, junkK, exPar, [], ops, rfl, rfl, h.symm⟩

theorem ex_nonzero (mem : Nat → XR) : MassesNonzero Cls.eemmQED (Cls.eemmQED.construct mem junkK exPar).2 := by
  intro i hi _
  rw [ex_mass mem i hi]
  simp [Scalar.ne]

/-- a fresh electron-muon object, and one on which `amp2()` has been called -/
example (mem mem' : Nat → XR) (x : MCall XR XC) : SameSquares Cls.eemmQED (Cls.eemmQED.construct mem junkK exPar).2
    (runProcOps Cls.eemmQED [.setMomenta junkK fun _ => pX.toX, .call x] (Cls.eemmQED.construct mem' junkK exPar).2) (fun _ => pM) fun _ => transform exL pM :=
  (C58_onShell Cls.eemmQED exAll (ex_setup mem mem' _ rfl) (m := fun _ => 3) (fun i hi => ex_mass mem i hi) (ex_nonzero mem) (fun _ _ => pM_onShell) exL_lorentz).2.2
end examples

end Spinas.Props
