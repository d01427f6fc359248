import Verif.Props.Mandelstam
import Verif.Props.Textbook
import Verif.Props.Identical

/-! C82: reversing a reaction (exact arithmetic).  Elastic scattering gives the same squared amplitude backwards, pairs of photons and pairs of fermions turn into one another at the rates of detailed balance. -/

namespace Spinas.Props
open SM Spec Spec.Reaction XR Matrix Process

section
variable [FPEnv] {P : Proc} {o o' : Obj XR XC} {m : Nat → ℝ} {q : Mom4 ℝ}

/-- the outgoing particles come in and the incoming ones go out -/
def reversed (q : Mom4 ℝ) : Mom4 ℝ := ⟨q.p3, q.p4, q.p1, q.p2⟩
/-- the same, with the particles of both pairs exchanged -/
def reversedCross (q : Mom4 ℝ) : Mom4 ℝ := ⟨q.p4, q.p3, q.p2, q.p1⟩
/-- the particles of both pairs exchanged -/
def crossed (q : Mom4 ℝ) : Mom4 ℝ := ⟨q.p2, q.p1, q.p4, q.p3⟩

theorem legs_cases {p : Nat → Prop} (h0 : p 0) (h1 : p 1) (h2 : p 2) (h3 : p 3) : ∀ i, i < 4 → p i := by
  intro i hi
  have : i = 0 ∨ i = 1 ∨ i = 2 ∨ i = 3 := by omega
  rcases this with rfl | rfl | rfl | rfl <;> assumption

/-- C82: If the first and third particle and the second and fourth have equal masses, all squared amplitudes are the same for the reversed reaction; ... -/
theorem C82_elastic (hP : P ∈ all) (h : SameSetup P o o') (hm : ∀ i, i < 4 → (o.w.part i).kin.m = fin (m i)) (hn : MassesNonzero P o) (hs : ∀ i, i < 4 → OnShell (legs q i) (m i)) (hb : Balanced (legs q))
    (h0 : 0 < mandelstamS (legs q)) (e0 : m 0 = m 2) (e1 : m 1 = m 3) : Accepted P o (legs q) ∧ Accepted P o' (legs (reversed q)) ∧ SameSquares P o o' (legs q) (legs (reversed q)) := by
  obtain ⟨bt, bx, bY, bz⟩ := hb
  refine C62_mandelstam P hP h hm hn hs (legs_cases ?_ ?_ ?_ ?_) ⟨bt, bx, bY, bz⟩ ⟨bt.symm, bx.symm, bY.symm, bz.symm⟩ h0 ?_ ?_
  · rw [e0]; exact hs 2 (by decide)
  · rw [e1]; exact hs 3 (by decide)
  · rw [← e0]; exact hs 0 (by decide)
  · rw [← e1]; exact hs 1 (by decide)
  · simp only [legs] at bt bx bY bz
    simp only [mandelstamS, reversed, legs, bt, bx, bY, bz]
  · simp only [mandelstamT, reversed, legs, msq]; ring

/-- ... if it is the first and fourth and the second and third, they are the same for the reversed reaction with both pairs exchanged; ... -/
theorem C82_cross (hP : P ∈ all) (h : SameSetup P o o') (hm : ∀ i, i < 4 → (o.w.part i).kin.m = fin (m i)) (hn : MassesNonzero P o) (hs : ∀ i, i < 4 → OnShell (legs q i) (m i)) (hb : Balanced (legs q))
    (h0 : 0 < mandelstamS (legs q)) (e0 : m 0 = m 3) (e1 : m 1 = m 2) : Accepted P o (legs q) ∧ Accepted P o' (legs (reversedCross q)) ∧ SameSquares P o o' (legs q) (legs (reversedCross q)) := by
  obtain ⟨bt, bx, bY, bz⟩ := hb
  simp only [legs] at bt bx bY bz
  refine C62_mandelstam P hP h hm hn hs (legs_cases ?_ ?_ ?_ ?_) ⟨bt, bx, bY, bz⟩ ?_ h0 ?_ ?_
  · rw [e0]; exact hs 3 (by decide)
  · rw [e1]; exact hs 2 (by decide)
  · rw [← e1]; exact hs 1 (by decide)
  · rw [← e0]; exact hs 0 (by decide)
  · constructor <;> simp only [legs, reversedCross] <;> linarith
  · simp only [mandelstamS, reversedCross, legs, add_comm q.p4.t, add_comm q.p4.x, add_comm q.p4.y, add_comm q.p4.z, bt, bx, bY, bz]
  · simp only [mandelstamT, reversedCross, legs, msq]
    rw [show q.p4.t = q.p1.t + q.p2.t - q.p3.t by linarith, show q.p4.x = q.p1.x + q.p2.x - q.p3.x by linarith, show q.p4.y = q.p1.y + q.p2.y - q.p3.y by linarith, show q.p4.z = q.p1.z + q.p2.z - q.p3.z by linarith]
    ring

/-- ... if it is the first two and the last two, they are the same with both pairs exchanged. -/
theorem C82_pairs (hP : P ∈ all) (h : SameSetup P o o') (hm : ∀ i, i < 4 → (o.w.part i).kin.m = fin (m i)) (hn : MassesNonzero P o) (hs : ∀ i, i < 4 → OnShell (legs q i) (m i)) (hb : Balanced (legs q))
    (h0 : 0 < mandelstamS (legs q)) (e0 : m 0 = m 1) (e1 : m 2 = m 3) : Accepted P o (legs q) ∧ Accepted P o' (legs (crossed q)) ∧ SameSquares P o o' (legs q) (legs (crossed q)) := by
  obtain ⟨bt, bx, bY, bz⟩ := hb
  simp only [legs] at bt bx bY bz
  refine C62_mandelstam P hP h hm hn hs (legs_cases ?_ ?_ ?_ ?_) ⟨bt, bx, bY, bz⟩ ?_ h0 ?_ ?_
  · rw [e0]; exact hs 1 (by decide)
  · rw [← e0]; exact hs 0 (by decide)
  · rw [e1]; exact hs 3 (by decide)
  · rw [← e1]; exact hs 2 (by decide)
  · constructor <;> simp only [legs, crossed] <;> linarith
  · simp only [mandelstamS, crossed, legs, add_comm q.p2.t, add_comm q.p2.x, add_comm q.p2.y, add_comm q.p2.z]
  · simp only [mandelstamT, crossed, legs, msq]
    rw [show q.p4.t = q.p1.t + q.p2.t - q.p3.t by linarith, show q.p4.x = q.p1.x + q.p2.x - q.p3.x by linarith, show q.p4.y = q.p1.y + q.p2.y - q.p3.y by linarith, show q.p4.z = q.p1.z + q.p2.z - q.p3.z by linarith]
    ring
end

noncomputable section

/-- the legs of the reversed reaction -/
def backLeg : Fin 4 → Fin 4 := ![2, 3, 0, 1]

/-- classes for a reaction and for the reversed reaction -/
def balance : List (BRow × BRow) := [(Rows.AAuu, Rows.uuAA), (Rows.AAdd, Rows.ddAA), (Rows.AAee, Rows.eeAA)]

/-- number of states that the squared amplitude is averaged over, and of ways to count identical particles -/
def weight (S : Reaction) : Nat := S.states 0 * S.states 1 * S.symmetry

/-- These are all pairs of classes for a reaction and its reverse, up to order. -/
theorem C82_classes : (bosonRows.flatMap fun R => (bosonRows.filter fun R' => decide (R'.proc.name ≠ R.proc.name) && (List.finRange 4).all fun i => decide (R'.react.leg i = R.react.leg (backLeg i))).map fun R' => (R.proc.name, R'.proc.name)) =
    balance.map (fun x => (x.1.proc.name, x.2.proc.name)) ++ balance.map fun x => (x.2.proc.name, x.1.proc.name) := by
  decide +kernel

/-- momenta of the reversed reaction -/
def backward4 (p : Nat → V4 ℝ) (i : Nat) : V4 ℝ := if i = 0 then p 2 else if i = 1 then p 3 else if i = 2 then p 0 else p 1

theorem dot_back {p : Nat → V4 ℝ} (hb : Balanced p) {m M : ℝ} (h0 : OnShell (p 0) m) (h1 : OnShell (p 1) m) (h2 : OnShell (p 2) M) (h3 : OnShell (p 3) M) : dot (p 2) (p 1) = dot (p 0) (p 3) := by
  have s0 := h0.2; have s1 := h1.2; have s2 := h2.2; have s3 := h3.2
  obtain ⟨bt, bx, bY, bz⟩ := hb
  have t1 : (p 1).t = (p 2).t + (p 3).t - (p 0).t := by linarith
  have x1 : (p 1).x = (p 2).x + (p 3).x - (p 0).x := by linarith
  have y1 : (p 1).y = (p 2).y + (p 3).y - (p 0).y := by linarith
  have z1 : (p 1).z = (p 2).z + (p 3).z - (p 0).z := by linarith
  rw [t1, x1, y1, z1] at s1
  simp only [dot, t1, x1, y1, z1]
  linear_combination (1 / 2) * s1 + (1 / 2) * s2 - (1 / 2) * s3 - (1 / 2) * s0

theorem back_balanced {p : Nat → V4 ℝ} (hb : Balanced p) : Balanced (backward4 p) := ⟨hb.t.symm, hb.x.symm, hb.y.symm, hb.z.symm⟩

variable [FPEnv]

/-- what an object of a class returns, whatever was called before -/
def Gives (P : Proc) (o : Obj XR XC) (p : Nat → V4 ℝ) (x : ℝ) : Prop := ∀ (j : Kin XR XC) (xs : List (MCall XR XC)) (l : Loc XR XC), (P.runSetMomenta j (fun i => (p i).toX) o).1 = .ok () ∧
  (P.method l .r P.amp2 [] (runCalls P xs (P.runSetMomenta j (fun i => (p i).toX) o).2)).1 = .ok (fin x)

/-- an object whose parameters are those of `c`, whatever was called before -/
def Holds (R : BRow) (c : Constants) (o : Obj XR XC) : Prop := ∃ (mem : Nat → XR) (junk : Kin XR XC) (par : Nat → XR) (ops : List (ProcOp XR XC)),
  (∀ n q, R.pars[n]? = some (some q) → parAfter R.proc.massPar ops par n = fin (c.get q)) ∧ o = runProcOps R.proc ops (R.proc.construct mem junk par).2

theorem balance_core {x y : Closed} (hx : x ∈ closedForms) (hy : y ∈ closedForms) {c : Constants} (hc : c.Physical) (hh : c.Heavy) {o o' : Obj XR XC} (ho : Holds x.row c o) (ho' : Holds y.row c o') {p : Nat → V4 ℝ} (hb : Balanced p)
    (hs : ∀ i : Fin 4, OnShell (p i) (x.row.react.mass c i)) (hs' : ∀ i : Fin 4, OnShell (backward4 p i) (y.row.react.mass c i)) (ha : x.apart p) (ha' : y.apart (backward4 p)) :
    Gives x.row.proc o p (x.formula c p) ∧ Gives y.row.proc o' (backward4 p) (y.formula c (backward4 p)) := by
  obtain ⟨mem, junk, par, ops, hpar, ho⟩ := ho
  obtain ⟨mem', junk', par', ops', hpar', ho'⟩ := ho'
  exact ⟨C76_textbook hx mem junk par ops hpar hc hh ho hs hb ha, C76_textbook hy mem' junk' par' ops' hpar' hc hh ho' hs' (back_balanced hb) ha'⟩

omit [FPEnv] in
theorem back_shell {S S' : Reaction} (h : ∀ i, S'.leg i = S.leg (backLeg i)) {c : Constants} {p : Nat → V4 ℝ} (hs : ∀ i : Fin 4, OnShell (p i) (S.mass c i)) (i : Fin 4) : OnShell (backward4 p i) (S'.mass c i) := by
  have e : S'.mass c i = S.mass c (backLeg i) := by unfold mass; rw [h i]
  have f : backward4 p i = p (backLeg i) := by fin_cases i <;> rfl
  rw [e, f]
  exact hs _

/-- C82, detailed balance: two photons into two fermions and back. -/
theorem C82_balance {R R' : BRow} (hR : (R, R') ∈ balance) {c : Constants} (hc : c.Physical) (hh : c.Heavy) {o o' : Obj XR XC} (ho : Holds R c o) (ho' : Holds R' c o') {p : Nat → V4 ℝ} (hb : Balanced p)
    (hs : ∀ i : Fin 4, OnShell (p i) (R.react.mass c i)) (ha : dot (p 0) (p 2) ≠ 0) (hd : dot (p 0) (p 3) ≠ 0) :
    ∃ a b : ℝ, Gives R.proc o p a ∧ Gives R'.proc o' (backward4 p) b ∧ a * weight R.react = b * weight R'.react := by
  simp only [balance, List.mem_cons, List.not_mem_nil, or_false, Prod.mk.injEq] at hR
  have key : ∀ {m : ℝ}, OnShell (p 0) 0 → OnShell (p 1) 0 → OnShell (p 2) m → OnShell (p 3) m → dot (backward4 p 0) (backward4 p 2) = dot (p 0) (p 2) ∧ dot (backward4 p 0) (backward4 p 3) = dot (p 0) (p 3) := fun h0 h1 h2 h3 =>
    ⟨by show dot (p 2) (p 0) = _; simp only [dot]; ring, dot_back hb h0 h1 h2 h3⟩
  rcases hR with ⟨rfl, rfl⟩ | ⟨rfl, rfl⟩ | ⟨rfl, rfl⟩
  · obtain ⟨e1, e2⟩ := key (hs 0) (hs 1) (hs 2) (hs 3)
    have := balance_core (x := closedForms[1]) (y := closedForms[4]) (List.getElem_mem _) (List.getElem_mem _) hc hh ho ho' hb hs (back_shell (by decide) hs) ⟨ha, hd⟩ (by show dot _ _ ≠ 0 ∧ dot _ _ ≠ 0; rw [e1, e2]; exact ⟨ha, hd⟩)
    refine ⟨_, _, this.1, this.2, ?_⟩
    rw [show weight Rows.AAuu.react = 4 from by decide, show weight Rows.uuAA.react = 72 from by decide]
    show 3 * (2 / 3 * c.e) ^ 4 * breitWheeler (c.mass .u) (dot (p 0) (p 2)) (dot (p 0) (p 3)) * (4 : ℕ) = (2 / 3 * c.e) ^ 4 / 6 * breitWheeler (c.mass .u) (dot (backward4 p 0) (backward4 p 2)) (dot (backward4 p 0) (backward4 p 3)) * (72 : ℕ)
    rw [e1, e2]; push_cast; ring
  · obtain ⟨e1, e2⟩ := key (hs 0) (hs 1) (hs 2) (hs 3)
    have := balance_core (x := closedForms[2]) (y := closedForms[5]) (List.getElem_mem _) (List.getElem_mem _) hc hh ho ho' hb hs (back_shell (by decide) hs) ⟨ha, hd⟩ (by show dot _ _ ≠ 0 ∧ dot _ _ ≠ 0; rw [e1, e2]; exact ⟨ha, hd⟩)
    refine ⟨_, _, this.1, this.2, ?_⟩
    rw [show weight Rows.AAdd.react = 4 from by decide, show weight Rows.ddAA.react = 72 from by decide]
    show 3 * (1 / 3 * c.e) ^ 4 * breitWheeler (c.mass .d) (dot (p 0) (p 2)) (dot (p 0) (p 3)) * (4 : ℕ) = (1 / 3 * c.e) ^ 4 / 6 * breitWheeler (c.mass .d) (dot (backward4 p 0) (backward4 p 2)) (dot (backward4 p 0) (backward4 p 3)) * (72 : ℕ)
    rw [e1, e2]; push_cast; ring
  · obtain ⟨e1, e2⟩ := key (hs 0) (hs 1) (hs 2) (hs 3)
    have := balance_core (x := closedForms[0]) (y := closedForms[3]) (List.getElem_mem _) (List.getElem_mem _) hc hh ho ho' hb hs (back_shell (by decide) hs) ⟨ha, hd⟩ (by show dot _ _ ≠ 0 ∧ dot _ _ ≠ 0; rw [e1, e2]; exact ⟨ha, hd⟩)
    refine ⟨_, _, this.1, this.2, ?_⟩
    rw [show weight Rows.AAee.react = 4 from by decide, show weight Rows.eeAA.react = 8 from by decide]
    show c.e ^ 4 * breitWheeler (c.mass .e) (dot (p 0) (p 2)) (dot (p 0) (p 3)) * (4 : ℕ) = c.e ^ 4 / 2 * breitWheeler (c.mass .e) (dot (backward4 p 0) (backward4 p 2)) (dot (backward4 p 0) (backward4 p 3)) * (8 : ℕ)
    rw [e1, e2]; push_cast; ring

/-! ### the hypotheses can be met -/

/-- two photons into an up quark and its antiparticle and back -/
example (mem mem' : Nat → XR) (junk junk' : Kin XR XC) : ∃ a b : ℝ, Gives Cls.AAuu (Cls.AAuu.construct mem junk fun n => if n = 0 then fin 1 else fin 5).2 exFusion a ∧
    Gives Cls.uuAA (Cls.uuAA.construct mem' junk' fun n => if n = 0 then fin 1 else fin 5).2 (backward4 exFusion) b ∧ a * weight Rows.AAuu.react = b * weight Rows.uuAA.react := by
  have h := exFusion_ready mem junk
  refine C82_balance (R := Rows.AAuu) (R' := Rows.uuAA) (c := exMass) (by simp [balance]) exMass_physical exMass_heavy ⟨mem, junk, _, [], h.pars, h.obj⟩ ⟨mem', junk', _, [], fun n q h => ?_, by rw [runProcOps]; rfl⟩ h.balanced h.shell
    (by norm_num [dot, exFusion]) (by norm_num [dot, exFusion])
  match n with
  | 0 => cases h; rfl
  | 1 => cases h; rfl
  | n + 2 => cases h

end

section examples
attribute [local instance] doubleEnv

/-- a gluon scattered off a quark, backwards -/
example (mem mem' : Nat → XR) : SameSquares Cls.dggd (Cls.dggd.construct mem junkK exGlu).2 (Cls.dggd.construct mem' junkK exGlu).2 (legs exHit4) (legs (reversedCross exHit4)) :=
  (C82_cross (by simp [all]) ⟨mem, mem', junkK, junkK, exGlu, [], [], by rw [runProcOps], by rw [runProcOps], rfl⟩ (exGlu_mass mem) (exGlu_nonzero mem) (fun i hi => (exHit4_onShell i hi).1)
    (by constructor <;> norm_num [legs, exHit4]) (by norm_num [mandelstamS, msq, legs, exHit4]) (by simp) (by simp)).2.2

/-- the momenta of the reversed reaction are others -/
example : exHit4.p1 ≠ (reversedCross exHit4).p1 := by simp [exHit4, reversedCross]

def exGG : Mom4 ℝ := ⟨⟨5, 0, 0, 5⟩, ⟨5, 0, 0, -5⟩, ⟨5, 3, 0, 4⟩, ⟨5, -3, 0, -4⟩⟩

theorem exGG_mass (mem : Nat → XR) : ∀ i, i < 4 → ((Cls.gggg.construct mem junkK fun _ => fin 2).2.w.part i).kin.m = fin 0 := by
  have hP : Cls.gggg ∈ all := by simp [all]
  refine legs_cases ?_ ?_ ?_ ?_ <;> (rw [part_mass hP (e := .lit 0) rfl mem junkK]; simp [Exp.val0, Exp.val])

theorem exGG_massless (mem : Nat → XR) : MassesNonzero Cls.gggg (Cls.gggg.construct mem junkK fun _ => fin 2).2 := fun i hi hm => absurd hm (by
  revert i
  exact legs_cases (by decide +kernel) (by decide +kernel) (by decide +kernel) (by decide +kernel))

/-- gluons, backwards and with both pairs exchanged -/
example (mem mem' : Nat → XR) : SameSquares Cls.gggg (Cls.gggg.construct mem junkK fun _ => fin 2).2 (Cls.gggg.construct mem' junkK fun _ => fin 2).2 (legs exGG) (legs (reversed exGG)) ∧
    SameSquares Cls.gggg (Cls.gggg.construct mem junkK fun _ => fin 2).2 (Cls.gggg.construct mem' junkK fun _ => fin 2).2 (legs exGG) (legs (crossed exGG)) := by
  have hs : ∀ i, i < 4 → OnShell (legs exGG i) 0 := legs_cases (by constructor <;> norm_num [legs, exGG]) (by constructor <;> norm_num [legs, exGG]) (by constructor <;> norm_num [legs, exGG]) (by constructor <;> norm_num [legs, exGG])
  have hb : Balanced (legs exGG) := by constructor <;> norm_num [legs, exGG]
  have h0 : 0 < mandelstamS (legs exGG) := by norm_num [mandelstamS, msq, legs, exGG]
  have hS : SameSetup Cls.gggg (Cls.gggg.construct mem junkK fun _ => fin 2).2 (Cls.gggg.construct mem' junkK fun _ => fin 2).2 := ⟨mem, mem', junkK, junkK, _, [], [], by rw [runProcOps], by rw [runProcOps], rfl⟩
  exact ⟨(C82_elastic (m := fun _ => 0) (by simp [all]) hS (exGG_mass mem) (exGG_massless mem) hs hb h0 rfl rfl).2.2, (C82_pairs (m := fun _ => 0) (by simp [all]) hS (exGG_mass mem) (exGG_massless mem) hs hb h0 rfl rfl).2.2⟩
end examples
end Spinas.Props
