import Verif.SM.Rejected
import Verif.Props.Stored

/-! C89: what `set_momenta` leaves behind when it throws (any arithmetic). -/

namespace Spinas.Props
open SM

section
variable {R C : Type} [Scalar R] [HasPow R] [Cplx R C]

/-- `set_momenta` has stopped at the momentum of particle `n`: the particles before it have their new momenta, `set_momentum` has thrown for this one, the others are as before, and so are the members and the products. -/
structure StoppedAt (n : Nat) (q : Nat → V4 R) (o o' : Obj R C) : Prop where
  accepted : ∀ i, i < n → (Particle.setMomentum (q i) (o.w.part i)).1 = .ok ()
  rejected : (Particle.setMomentum (q n) (o.w.part n)).1 = .throw .massShell
  before : ∀ i, i < n → o'.w.part i = (Particle.setMomentum (q i) (o.w.part i)).2
  here : o'.w.part n = (Particle.setMomentum (q n) (o.w.part n)).2
  after : ∀ i, n < i → o'.w.part i = o.w.part i
  sp : o'.w.sp = o.w.sp
  r : o'.r = o.r
  c : o'.c = o.c
  pr : o'.pr = o.pr

theorem stopped_of_inv {P : Proc} {strict : Bool} {S : Sym} {ks : List (Ty × Nat × List AI)} (hc : P.check strict S ks = true) {par : Nat → R} {o : Obj R C} (h : SM.Inv S par o) (j : Kin R C) (q : Nat → V4 R)
    (hq : (P.runSetMomenta j q o).1 ≠ .ok ()) : (P.runSetMomenta j q o).1 = .throw .massShell ∧ ∃ n, n < 4 ∧ StoppedAt n q o (P.runSetMomenta j q o).2 := by
  obtain ⟨n, hn, h1, h2, h3⟩ := SM.rejected hc h j q hq
  rw [h3]
  refine ⟨rfl, n, hn, h1, h2, fun i hi => ?_, ?_, fun i hi => ?_, rfl, rfl, rfl, rfl⟩
  · exact if_pos ⟨Nat.zero_le i, by omega⟩
  · exact if_pos ⟨Nat.zero_le n, by omega⟩
  · exact if_neg (by omega)

/-- What is known about an object with a history. -/
theorem inv_of_history {P : Proc} (hP : P ∈ all) (mem : Nat → R) (junk : Kin R C) (par : Nat → R) (ops : List (ProcOp R C)) :
    ∃ S par', P.checkAll S = true ∧ SM.Inv S par' (runProcOps P ops (P.construct mem junk par).2) := by
  obtain ⟨S0, hS0, hc0⟩ := fresh_check hP
  obtain ⟨S, S1, hS, hS1, hc1, ha⟩ := masses_check hP
  have : S0 = S := by rw [hS0] at hS; cases hS; rfl
  subst this
  have hi := ops_inv_last (checkAll_parts hc0).1 (checkAll_parts hc1).1 hS1 ha par ops (m := none) (construct_inv hS mem junk par).2
  revert hi
  cases lastMasses ops none with
  | none => exact fun hi => ⟨S0, par, hc0, hi⟩
  | some m => exact fun hi => ⟨S1, _, hc1, hi⟩

/-- Every class, after any calls: `set_momenta` that does not return throws the exception of the mass shell, and stops at one of the four particles. -/
theorem C89_left_behind (P : Proc) (hP : P ∈ all) (mem : Nat → R) (junk : Kin R C) (par : Nat → R) (ops : List (ProcOp R C)) {o : Obj R C} (ho : o = runProcOps P ops (P.construct mem junk par).2)
    (j : Kin R C) (q : Nat → V4 R) (hq : (P.runSetMomenta j q o).1 ≠ .ok ()) : (P.runSetMomenta j q o).1 = .throw .massShell ∧ ∃ n, n < 4 ∧ StoppedAt n q o (P.runSetMomenta j q o).2 := by
  obtain ⟨S, par', hc, hi⟩ := inv_of_history hP mem junk par ops
  rw [← ho] at hi
  exact stopped_of_inv (checkAll_parts hc).1 hi j q hq

/-- calls of methods, and of `set_momenta` that throw -/
def Fails (P : Proc) : List (ProcOp R C) → Obj R C → Prop
  | [], _ => True
  | .setMasses _ _ :: _, _ => False
  | .setMomenta j q :: ops, o => (P.runSetMomenta j q o).1 ≠ .ok () ∧ Fails P ops (P.runSetMomenta j q o).2
  | .call x :: ops, o => Fails P ops (P.method x.junk x.t x.k x.args o).2

theorem since_fails {P : Proc} {strict : Bool} {S : Sym} {ks : List (Ty × Nat × List AI)} (hc : P.check strict S ks = true) {par : Nat → R} (o0 : Obj R C) (ops : List (ProcOp R C)) : ∀ o : Obj R C, SM.Inv S par o → Fails P ops o →
    Since o0 o → Since o0 (runProcOps P ops o) := by
  induction ops with
  | nil => exact fun o _ _ h => h
  | cons op ops ih =>
    intro o hi hf h
    cases op with
    | setMasses j a => exact hf.elim
    | setMomenta j q =>
      obtain ⟨_, n, _, hs⟩ := stopped_of_inv hc hi j q hf.1
      exact ih _ (op_inv hc hi (.setMomenta j q) (by simp)) hf.2 (h.trans ⟨hs.r, hs.c, fun a => hs.sp ▸ .refl _⟩)
    | call m =>
      exact ih _ (op_inv hc hi (.call m) (by simp)) hf (h.trans ⟨(method_later P _ _ _ _ o).1, (method_later P _ _ _ _ o).2.1, (method_later P _ _ _ _ o).2.2⟩)

/-- Every class: what a method has returned after `set_momenta`, it returns again after calls of `set_momenta` that throw, as if they had not been made. -/
theorem C89_returned (P : Proc) (hP : P ∈ all) (mem : Nat → R) (junk : Kin R C) (par : Nat → R) (ops : List (ProcOp R C)) {o : Obj R C} (ho : o = runProcOps P ops (P.construct mem junk par).2)
    {j : Kin R C} {q : Nat → V4 R} (hq : (P.runSetMomenta j q o).1 = .ok ()) (xs : List (MCall R C)) {t : Ty} {k : Nat} {args : List Int} (hr : Regular P t k args) {l : Loc R C} {y : t.den R C} {o1 : Obj R C}
    (h1 : P.method l t k args (runCalls P xs (P.runSetMomenta j q o).2) = (.ok y, o1)) (ys : List (ProcOp R C)) (hy : Fails P ys o1) (l' : Loc R C) :
    (P.method l' t k args (runProcOps P ys o1)).1 = .ok y := by
  obtain ⟨S, par', hc, hi⟩ := inv_of_history hP mem junk par ops
  rw [← ho] at hi
  have c1 := (checkAll_parts hc).1
  have h2 : SM.Inv S par' (runCalls P xs (P.runSetMomenta j q o).2) := by
    rcases (setMomenta_sound c1 hi hi j j j q (fun i => (o.w.part i).kin.m) (fun _ _ => rfl)).2 with ⟨_, e, _⟩ | ⟨_, _, _, r, c, u, _, ha⟩
    · rw [hq] at e; cases e
    · exact (ha.calls P xs).inv
  have h3 : SM.Inv S par' o1 := by
    have := op_inv c1 h2 (.call ⟨l, t, k, args⟩) (by simp)
    rwa [show (ProcOp.call ⟨l, t, k, args⟩ : ProcOp R C).run P _ = (P.method l t k args _).2 from rfl, h1] at this
  exact congrArg Prod.fst (again_of_inv hc hi hq xs hr h1 (since_fails c1 o1 ys o1 h3 hy ⟨rfl, rfl, fun _ => .refl _⟩) l')

end
end Spinas.Props
