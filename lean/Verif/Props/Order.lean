import Verif.SM.Order
import Verif.Props.Direct

/-! C87: the order in which operands are evaluated does not matter (any arithmetic). -/

namespace Spinas.Props
open SM

section
variable {R C : Type} [Scalar R] [HasPow R] [Cplx R C]

/-- `o'` is a state after the calls, whatever the order of evaluation in the methods; outcomes are ignored. -/
def Past (P : Proc) : List (ProcOp R C) → Obj R C → Obj R C → Prop
  | [], o, o' => o' = o
  | .setMasses junk args :: ops, o, o' => Past P ops (P.runSetMasses junk args o).2 o'
  | .setMomenta junk q :: ops, o, o' => Past P ops (P.runSetMomenta junk q o).2 o'
  | .call x :: ops, o, o' => ∃ z, P.methodAny x.junk x.t x.k x.args o z ∧ Past P ops z.2 o'

theorem past_inv {P : Proc} {S S1 : SM.Sym} {ks ks1 : List (Ty × Nat × List AI)} {strict : Bool} (hc : P.check strict S ks = true) (hc1 : P.check strict S1 ks1 = true) (hS : P.symM S = some S1) (ha : checkAgain P S1 = true) (par : Nat → R)
    (ops : List (ProcOp R C)) : ∀ {m : Option (Nat → R)} {o o' : Obj R C}, InvLast S S1 par m o → Past P ops o o' → InvLast S S1 par (lastMasses ops m) o' := by
  induction ops with
  | nil => intro m o o' h hp; cases hp; exact h
  | cons op ops ih =>
    intro m o o' h hp
    cases op with
    | setMasses junk args =>
      refine ih (m := some args) ?_ hp
      cases m with
      | none => exact (setMasses_inv hS h junk args args).2
      | some old => exact (setMasses_again ha h junk args).2
    | setMomenta junk q =>
      refine ih (m := m) ?_ hp
      cases m with
      | none => exact op_inv hc h (.setMomenta junk q) (by simp)
      | some args => exact op_inv hc1 h (.setMomenta junk q) (by simp)
    | call x =>
      obtain ⟨z, hz, hp⟩ := hp
      refine ih (m := m) ?_ hp
      cases m with
      | none => exact methodAny_inv h hz
      | some args => exact methodAny_inv h hz

/-- calls of methods -/
def asOps : List (MCall R C) → List (ProcOp R C) := List.map .call

theorem past_fresh {S : SM.Sym} {u : List Bool} {κ : Nat → Kin R C} {P : Proc} (xs : List (MCall R C)) : ∀ {o o' : Obj R C}, UpToDate S u κ o.w → Past P (asOps xs) o o' → o'.r = o.r ∧ o'.c = o.c ∧ UpToDate S u κ o'.w := by
  induction xs with
  | nil => intro o o' h hp; cases hp; exact ⟨rfl, rfl, h⟩
  | cons x xs ih =>
    intro o o' h hp
    obtain ⟨z, hz, hp⟩ := hp
    obtain ⟨h1, h2, h3⟩ := methodAny_fresh h hz
    obtain ⟨g1, g2, g3⟩ := ih h3 hp
    exact ⟨g1.trans h1, g2.trans h2, g3⟩

theorem order_of_inv {P : Proc} {S : SM.Sym} (hc : P.checkAll S = true) {par : Nat → R} {o o' : Obj R C} (h : SM.Inv S par o) (h' : SM.Inv S par o') {j j' : Kin R C} {q : Nat → V4 R} (hq : (P.runSetMomenta j q o).1 = .ok ()) {t : Ty} {k : Nat}
    {args : List Int} (hr : Regular P t k args) {l : Loc R C} {x : t.den R C} (hx : (P.method l t k args (P.runSetMomenta j q o).2).1 = .ok x) : (P.runSetMomenta j' q o').1 = .ok () ∧
    ∀ (xs : List (MCall R C)) (o1 : Obj R C), Past P (asOps xs) (P.runSetMomenta j' q o').2 o1 → ∀ (l' : Loc R C) (z : Res (t.den R C) × Obj R C), P.methodAny l' t k args o1 z → z.1 = .ok x := by
  obtain ⟨c1, _, _⟩ := checkAll_parts hc
  rcases (setMomenta_sound c1 h h' j j' j q (fun i => (o.w.part i).kin.m) (fun _ _ => rfl)).2 with ⟨_, e, _⟩ | ⟨_, _, e', r, c, u, hrc, ha⟩
  · rw [hq] at e; cases e
  refine ⟨e', fun xs o1 hp l' z hz => ?_⟩
  obtain ⟨ys, hk, hargs⟩ := regular_sig hr
  have hm := check_method c1 hrc (List.mem_append.mpr hk)
  have hs : Agree S par _ r c u (P.runSetMomenta j' q o').2 (P.runSetMomenta j' q o').2 := ⟨ha.inv', ha.inv', fun _ _ => rfl, fun _ _ => rfl, fun a h => let ⟨d, h1, _, h3⟩ := ha.u a h; ⟨d, h1, h3, h3⟩⟩
  have hf : UpToDate S u _ (P.runSetMomenta j' q o').2.w := fun a h => let ⟨d, h1, _, h3⟩ := ha.u a h; ⟨d, h1, h3⟩
  obtain ⟨g1, g2, g3⟩ := past_fresh xs hf hp
  rw [(agree_method ha hm (by simp) hargs l l').1] at hx
  exact (method_sure hs g3 g1 g2 hm hargs hx hz).1

/-- All 141 classes. In the history of the object, and in the calls after `set_momenta`, the calls in each expression may happen in any order: a method that
returns a number when operands are evaluated from left to right returns this number in all orders. -/
theorem C87_any_order (P : Proc) (hP : P ∈ all) (mem : Nat → R) (junk : Kin R C) (par : Nat → R) (ops : List (ProcOp R C)) {o o' : Obj R C} (ho : o = runProcOps P ops (P.construct mem junk par).2) (ho' : Past P ops (P.construct mem junk par).2 o')
    {j j' : Kin R C} {q : Nat → V4 R} (hq : (P.runSetMomenta j q o).1 = .ok ()) {t : Ty} {k : Nat} {args : List Int} (hr : Regular P t k args) {l : Loc R C} {x : t.den R C} (hx : (P.method l t k args (P.runSetMomenta j q o).2).1 = .ok x) :
    (P.runSetMomenta j' q o').1 = .ok () ∧
    ∀ (xs : List (MCall R C)) (o1 : Obj R C), Past P (asOps xs) (P.runSetMomenta j' q o').2 o1 → ∀ (l' : Loc R C) (z : Res (t.den R C) × Obj R C), P.methodAny l' t k args o1 z → z.1 = .ok x := by
  obtain ⟨S0, hS0, hc0⟩ := fresh_check hP
  obtain ⟨S, S1, hS, hS1, hc1, ha⟩ := masses_check hP
  have : S0 = S := by rw [hS0] at hS; cases hS; rfl
  subst this
  have hi := ops_inv_last (checkAll_parts hc0).1 (checkAll_parts hc1).1 hS1 ha par ops (m := none) (construct_inv hS mem junk par).2
  have hi' := past_inv (checkAll_parts hc0).1 (checkAll_parts hc1).1 hS1 ha par ops (m := none) (construct_inv hS mem junk par).2 ho'
  rw [← ho] at hi
  revert hi hi'
  cases lastMasses ops none with
  | none => exact fun hi hi' => order_of_inv hc0 hi hi' hq hr hx
  | some m => exact fun hi hi' => order_of_inv hc1 hi hi' hq hr hx

/-- Evaluation from left to right is one of the orders, so there are outcomes. -/
theorem C87_left_to_right (P : Proc) (l : Loc R C) (t : Ty) (k : Nat) (args : List Int) (o : Obj R C) (x : t.den R C) (h : (P.method l t k args o).1 = .ok x) : ∃ z, P.methodAny l t k args o z ∧ z.1 = .ok x :=
  ⟨_, method_allowed P l t k args o _ x (Prod.ext h rfl), rfl⟩

/-- The orders differ for calls that depend on one another: if a call returns `x` the first time and `y` then, the difference of two calls is `x - y` or `y - x`. -/
example (mr : Nat → R) (mc : Nat → C) (l : Loc R C) (x y : C) :
    let S : SemAny R C Nat := ⟨mr, mc, fun _ _ s z => z = (.ok (if s = 0 then x else y), s + 1), fun _ _ => ND.crash⟩
    (Exp.sub (.v 0 []) (.v 1 [])).evalAny S l 0 (.ok (x - y), 2) ∧ (Exp.sub (.v 0 []) (.v 1 [])).evalAny S l 0 (.ok (y - x), 2) := by
  intro S
  constructor
  · exact ND.bind_of (x := [x, y]) (AnyOrder.next (pre := []) (post := [S.v 1 []]) (xs := []) (ys := [y]) (s' := 1) rfl rfl (AnyOrder.next (pre := []) (post := []) (xs := []) (ys := []) rfl rfl (.nil _))) rfl
  · exact ND.bind_of (x := [y, x]) (AnyOrder.next (pre := [S.v 0 []]) (post := []) (xs := [y]) (ys := []) (s' := 1) rfl rfl (AnyOrder.next (pre := []) (post := []) (xs := []) (ys := []) rfl rfl (.nil _))) rfl

end

section
open XR Spec
variable [FPEnv]

theorem order_regular : Regular Cls.eemmQED .r Cls.eemmQED.amp2 [] := .inl ⟨rfl, by decide, rfl⟩

/-- the hypotheses are met -/
example (mem : Nat → XR) (junk : Kin XR XC) (l : Loc XR XC) : ∃ x : ℝ, ∀ z, Cls.eemmQED.methodAny l .r Cls.eemmQED.amp2 [] (Cls.eemmQED.runSetMomenta junk (fun i => (crossing 4 i).toX) (Cls.eemmQED.construct mem junk fun n => if n = 0 then fin (1 / 3) else fin 4).2).2 z → z.1 = .ok (fin x) := by
  obtain ⟨x, _, hx⟩ := C84_eemmQED mem junk (fun n => if n = 0 then fin (1 / 3) else fin 4) [] rfl rfl rfl (by norm_num) (by norm_num) (p := crossing 4) ⟨by norm_num [crossing], by norm_num [crossing]⟩ ⟨by norm_num [crossing], by norm_num [crossing]⟩
    ⟨by norm_num [crossing], by norm_num [crossing]⟩ ⟨by norm_num [crossing], by norm_num [crossing]⟩ (by norm_num [mandelstamS, crossing, msq])
  obtain ⟨h1, h2⟩ := hx junk [] l
  exact ⟨x, (C87_any_order Cls.eemmQED (by simp [all]) mem junk _ [] rfl rfl h1 order_regular h2 (j' := junk)).2 [] _ rfl l⟩

end
end Spinas.Props
