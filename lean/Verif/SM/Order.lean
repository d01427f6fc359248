import Verif.SM.Stored

/-! Operands in any order.

C++ leaves open in which order the operands of an operator are evaluated; the calls in one expression may happen in any order, those of the left and of
the right operand mixed (a called function runs to its end before the next call). `Lang.lean` evaluates from left to right. Here a second interpreter has
all outcomes that C++ allows. -/

namespace Spinas.SM

variable {R C σ α β : Type}

/-- A program with a set of possible outcomes. -/
def ND (σ α : Type) : Type := σ → Res α × σ → Prop

namespace ND

def pure (x : α) : ND σ α := fun s z => z = (.ok x, s)
def throw (e : Exc) : ND σ α := fun s z => z = (.throw e, s)
def crash : ND σ α := fun s z => z = (.crash, s)

/-- first `m`, then `f`; an exception ends it -/
def bind (m : ND σ α) (f : α → ND σ β) : ND σ β := fun s z =>
  (∃ x s', m s (.ok x, s') ∧ f x s' z) ∨ (∃ e s', m s (.throw e, s') ∧ z = (.throw e, s')) ∨ (∃ s', m s (.crash, s') ∧ z = (.crash, s'))

/-- a program with one outcome -/
def of (m : Prog σ α) : ND σ α := fun s z => z = m s

end ND

/-- Run all calls of a list, in any order; the results stand in the order of the list. -/
inductive AnyOrder : List (ND σ α) → σ → Res (List α) × σ → Prop where
  | nil (s : σ) : AnyOrder [] s (.ok [], s)
  | next {pre post : List (ND σ α)} {c : ND σ α} {x : α} {xs ys : List α} {s s' s'' : σ} : c s (.ok x, s') → xs.length = pre.length → AnyOrder (pre ++ post) s' (.ok (xs ++ ys), s'') → AnyOrder (pre ++ c :: post) s (.ok (xs ++ x :: ys), s'')
  | later {pre post : List (ND σ α)} {c : ND σ α} {x : α} {e : Exc} {s s' s'' : σ} : c s (.ok x, s') → AnyOrder (pre ++ post) s' (.throw e, s'') → AnyOrder (pre ++ c :: post) s (.throw e, s'')
  | laterCrash {pre post : List (ND σ α)} {c : ND σ α} {x : α} {s s' s'' : σ} : c s (.ok x, s') → AnyOrder (pre ++ post) s' (.crash, s'') → AnyOrder (pre ++ c :: post) s (.crash, s'')
  | throw {pre post : List (ND σ α)} {c : ND σ α} {e : Exc} {s s' : σ} : c s (.throw e, s') → AnyOrder (pre ++ c :: post) s (.throw e, s')
  | crash {pre post : List (ND σ α)} {c : ND σ α} {s s' : σ} : c s (.crash, s') → AnyOrder (pre ++ c :: post) s (.crash, s')

/-- As `Sem`, with sets of outcomes. -/
structure SemAny (R C σ : Type) where
  mr : Nat → R
  mc : Nat → C
  v : Nat → List Int → ND σ C
  f : Nat → List Int → ND σ C

def SemAny.mem (S : SemAny R C σ) : (t : Ty) → Nat → t.den R C
  | .r, n => S.mr n
  | .c, n => S.mc n

section
variable [Scalar R] [HasPow R] [Cplx R C]

/-- The calls in an expression, as they are written. -/
def Exp.called (S : SemAny R C σ) (l : Loc R C) : {t : Ty} → Exp t → List (ND σ C)
  | _, .lit _ => []
  | _, .dec _ _ => []
  | _, .mem _ _ => []
  | _, .loc _ _ => []
  | _, .add a b => a.called S l ++ b.called S l
  | _, .sub a b => a.called S l ++ b.called S l
  | _, .mul a b => a.called S l ++ b.called S l
  | _, .div a b => a.called S l ++ b.called S l
  | _, .neg a => a.called S l
  | _, .ofR a => a.called S l
  | _, .smul a b => a.called S l ++ b.called S l
  | _, .divr a b => a.called S l ++ b.called S l
  | _, .sqrt a => a.called S l
  | _, .pow a _ => a.called S l
  | _, .abs a => a.called S l
  | _, .re a => a.called S l
  | _, .conj a => a.called S l
  | _, .norm _ => []
  | _, .v a args => [S.v a (args.map (·.eval l.i))]
  | _, .call f args => [S.f f (args.map (·.eval l.i))]

/-- The value of an expression when its calls have returned the numbers in the list, and the numbers left over. -/
def Exp.fill (S : SemAny R C σ) (l : Loc R C) : {t : Ty} → Exp t → List C → t.den R C × List C
  | _, .lit n, xs => ((int n : R), xs)
  | _, .dec m e, xs => ((Scalar.dec m e : R), xs)
  | _, .mem t n, xs => (S.mem t n, xs)
  | _, .loc t n, xs => (l.get t n, xs)
  | t, .add a b, xs => (tadd t (a.fill S l xs).1 (b.fill S l (a.fill S l xs).2).1, (b.fill S l (a.fill S l xs).2).2)
  | t, .sub a b, xs => (tsub t (a.fill S l xs).1 (b.fill S l (a.fill S l xs).2).1, (b.fill S l (a.fill S l xs).2).2)
  | t, .mul a b, xs => (tmul t (a.fill S l xs).1 (b.fill S l (a.fill S l xs).2).1, (b.fill S l (a.fill S l xs).2).2)
  | t, .div a b, xs => (tdiv t (a.fill S l xs).1 (b.fill S l (a.fill S l xs).2).1, (b.fill S l (a.fill S l xs).2).2)
  | t, .neg a, xs => (tneg t (a.fill S l xs).1, (a.fill S l xs).2)
  | _, .ofR a, xs => ((ofReal ((a.fill S l xs).1 : R) : C), (a.fill S l xs).2)
  | _, .smul a b, xs => (Cplx.smul ((a.fill S l xs).1 : R) ((b.fill S l (a.fill S l xs).2).1 : C), (b.fill S l (a.fill S l xs).2).2)
  | _, .divr a b, xs => (Cplx.divr ((a.fill S l xs).1 : C) ((b.fill S l (a.fill S l xs).2).1 : R), (b.fill S l (a.fill S l xs).2).2)
  | _, .sqrt a, xs => (Scalar.sqrt ((a.fill S l xs).1 : R), (a.fill S l xs).2)
  | _, .pow a k, xs => (HasPow.pow ((a.fill S l xs).1 : R) k, (a.fill S l xs).2)
  | _, .abs a, xs => (Cplx.abs ((a.fill S l xs).1 : C), (a.fill S l xs).2)
  | _, .re a, xs => (Cplx.re ((a.fill S l xs).1 : C), (a.fill S l xs).2)
  | _, .conj a, xs => (Cplx.conj ((a.fill S l xs).1 : C), (a.fill S l xs).2)
  | _, .norm ds, xs => ((Process.spinNormalization (ds.map l.i) : R), xs)
  | _, .v _ _, x :: xs => (x, xs)
  | _, .v _ _, [] => ((czero : C), [])
  | _, .call _ _, x :: xs => (x, xs)
  | _, .call _ _, [] => ((czero : C), [])

/-- An expression: its calls in any order, then its value. -/
def Exp.evalAny (S : SemAny R C σ) (l : Loc R C) {t : Ty} (e : Exp t) : ND σ (t.den R C) :=
  ND.bind (AnyOrder (e.called S l)) fun xs => ND.pure (e.fill S l xs).1

def loopAny (n : Nat) (body : Loc R C → ND σ (Flow R C)) : List Int → Loc R C → ND σ (Flow R C)
  | [], l => ND.pure (.next l)
  | x :: xs, l => ND.bind (body (l.seti n x)) fun
    | .next l' => loopAny n body xs l'
    | .ret t y => ND.pure (.ret t y)

/-- `Stmt.exec` with calls in any order within each expression -/
def Stmt.execAny (S : SemAny R C σ) : Stmt → Loc R C → ND σ (Flow R C)
  | .skip, l => ND.pure (.next l)
  | .seq a b, l => ND.bind (a.execAny S l) fun
    | .next l' => b.execAny S l'
    | .ret t x => ND.pure (.ret t x)
  | .seti n e, l => ND.pure (.next (l.seti n (e.eval l.i)))
  | .set t n e, l => ND.bind (e.evalAny S l) fun x => ND.pure (.next (l.set t n x))
  | .ite b s t, l => if b.eval l.i then s.execAny S l else t.execAny S l
  | .loop n lo incl hi step body, l => loopAny n (body.execAny S) (loopVals lo incl (hi.eval l.i) step) l
  | .spins ds i, l => ND.pure (.next (setSpins l ds (Process.spinorSpins (ds.map fun d => l.i d.1) (i.eval l.i))))
  | .ret t e, l => ND.bind (e.evalAny S l) fun x => ND.pure (.ret t x)
  | .throw e, _ => ND.throw e

def Method.runAny (m : Method) (S : SemAny R C σ) (junk : Loc R C) (t : Ty) (args : List Int) : ND σ (t.den R C) :=
  if args.length = m.arity then
    ND.bind (m.body.execAny S (enter junk args)) fun
    | .ret t' x => if h : t' = t then ND.pure (h ▸ x) else ND.crash
    | .next _ => ND.crash
  else ND.crash

def callableAny (mr : Nat → R) (mc : Nat → C) (v : Nat → List Int → ND σ C) (junk : Loc R C) : List Method → Nat → List Int → ND σ C
  | [], _, _ => ND.crash
  | m :: ms, k, args =>
    if k = ms.length then m.runAny ⟨mr, mc, v, callableAny mr mc v junk ms⟩ junk .c args else callableAny mr mc v junk ms k args

def invokeAny (mr : Nat → R) (mc : Nat → C) (v : Nat → List Int → ND σ C) (junk : Loc R C) (t : Ty) :
    List Method → Nat → List Int → ND σ (t.den R C)
  | [], _, _ => ND.crash
  | m :: ms, k, args =>
    if k = ms.length then m.runAny ⟨mr, mc, v, callableAny mr mc v junk ms⟩ junk t args else invokeAny mr mc v junk t ms k args

/-- A call of an amplitude method, all orders of evaluation. -/
def Proc.methodAny (P : Proc) (junk : Loc R C) (t : Ty) (k : Nat) (args : List Int) : ND (Obj R C) (t.den R C) := fun o z =>
  ∃ y, invokeAny o.r o.c (fun a js => ND.of (Proc.vcall a js)) junk t P.methods k args o.w y ∧ z = (y.1, { o with w := y.2 })

end

/-! ### from left to right is one of the orders -/

/-- the calls run from left to right and return the numbers in the list -/
inductive InOrder : List (ND σ α) → σ → List α → σ → Prop where
  | nil (s : σ) : InOrder [] s [] s
  | cons {c : ND σ α} {cs : List (ND σ α)} {x : α} {xs : List α} {s s' s'' : σ} : c s (.ok x, s') → InOrder cs s' xs s'' → InOrder (c :: cs) s (x :: xs) s''

theorem InOrder.append {cs ds : List (ND σ α)} {xs ys : List α} {s s' s'' : σ} (h : InOrder cs s xs s') (h' : InOrder ds s' ys s'') : InOrder (cs ++ ds) s (xs ++ ys) s'' := by
  induction h with
  | nil => exact h'
  | cons hc _ ih => exact .cons hc (ih h')

theorem InOrder.any {cs : List (ND σ α)} {xs : List α} {s s' : σ} (h : InOrder cs s xs s') : AnyOrder cs s (.ok xs, s') := by
  induction h with
  | nil => exact .nil _
  | cons hc _ ih => exact AnyOrder.next (pre := []) (xs := []) hc rfl ih

theorem InOrder.length {cs : List (ND σ α)} {xs : List α} {s s' : σ} (h : InOrder cs s xs s') : xs.length = cs.length := by
  induction h with
  | nil => rfl
  | cons _ _ ih => simp [ih]

section
variable [Scalar R] [HasPow R] [Cplx R C]

/-- `S'` allows what `S` does -/
structure Allows (S : Sem R C σ) (S' : SemAny R C σ) : Prop where
  mr : S'.mr = S.mr
  mc : S'.mc = S.mc
  v : ∀ a args s x s', S.v a args s = (.ok x, s') → S'.v a args s (.ok x, s')
  f : ∀ a args s x s', S.f a args s = (.ok x, s') → S'.f a args s (.ok x, s')

omit [Scalar R] [HasPow R] [Cplx R C] in
theorem bind_inv {m : Prog σ α} {f : α → Prog σ β} {s s' : σ} {y : β} (h : (m >>= f) s = (.ok y, s')) : ∃ x s1, m s = (.ok x, s1) ∧ f x s1 = (.ok y, s') := by
  rw [Prog.bind_run] at h
  cases hm : m s with
  | mk r s1 =>
    rw [hm] at h
    cases r with
    | ok x => exact ⟨x, s1, rfl, h⟩
    | throw e => cases h
    | crash => cases h

theorem eval_inOrder {S : Sem R C σ} {S' : SemAny R C σ} (hS : Allows S S') (l : Loc R C) {t : Ty} (e : Exp t) : ∀ {s s' : σ} {x : t.den R C}, e.eval S l s = (.ok x, s') →
    ∃ xs, InOrder (e.called S' l) s xs s' ∧ ∀ ys, e.fill S' l (xs ++ ys) = (x, ys) := by
  have mem : S'.mem = S.mem := by
    funext t n; cases t
    · exact congrFun hS.mr n
    · exact congrFun hS.mc n
  induction e with
  | lit n => intro s s' x h; cases h; exact ⟨[], .nil _, fun _ => rfl⟩
  | dec m e => intro s s' x h; cases h; exact ⟨[], .nil _, fun _ => rfl⟩
  | mem t n => intro s s' x h; cases h; exact ⟨[], .nil _, fun _ => by simp only [Exp.fill, mem]; rfl⟩
  | loc t n => intro s s' x h; cases h; exact ⟨[], .nil _, fun _ => rfl⟩
  | norm ds => intro s s' x h; cases h; exact ⟨[], .nil _, fun _ => rfl⟩
  | v a args => intro s s' x h; exact ⟨[x], .cons (hS.v _ _ _ _ _ h) (.nil _), fun _ => rfl⟩
  | call f args => intro s s' x h; exact ⟨[x], .cons (hS.f _ _ _ _ _ h) (.nil _), fun _ => rfl⟩
  | add a b iha ihb =>
    intro s s' x h
    obtain ⟨u, s1, h1, h⟩ := bind_inv h
    obtain ⟨w, s2, h2, h⟩ := bind_inv h
    cases h
    obtain ⟨xs, i1, f1⟩ := iha h1
    obtain ⟨ys, i2, f2⟩ := ihb h2
    exact ⟨xs ++ ys, i1.append i2, fun zs => by simp only [Exp.fill, List.append_assoc, f1, f2]⟩
  | sub a b iha ihb =>
    intro s s' x h
    obtain ⟨u, s1, h1, h⟩ := bind_inv h
    obtain ⟨w, s2, h2, h⟩ := bind_inv h
    cases h
    obtain ⟨xs, i1, f1⟩ := iha h1
    obtain ⟨ys, i2, f2⟩ := ihb h2
    exact ⟨xs ++ ys, i1.append i2, fun zs => by simp only [Exp.fill, List.append_assoc, f1, f2]⟩
  | mul a b iha ihb =>
    intro s s' x h
    obtain ⟨u, s1, h1, h⟩ := bind_inv h
    obtain ⟨w, s2, h2, h⟩ := bind_inv h
    cases h
    obtain ⟨xs, i1, f1⟩ := iha h1
    obtain ⟨ys, i2, f2⟩ := ihb h2
    exact ⟨xs ++ ys, i1.append i2, fun zs => by simp only [Exp.fill, List.append_assoc, f1, f2]⟩
  | div a b iha ihb =>
    intro s s' x h
    obtain ⟨u, s1, h1, h⟩ := bind_inv h
    obtain ⟨w, s2, h2, h⟩ := bind_inv h
    cases h
    obtain ⟨xs, i1, f1⟩ := iha h1
    obtain ⟨ys, i2, f2⟩ := ihb h2
    exact ⟨xs ++ ys, i1.append i2, fun zs => by simp only [Exp.fill, List.append_assoc, f1, f2]⟩
  | smul a b iha ihb =>
    intro s s' x h
    obtain ⟨u, s1, h1, h⟩ := bind_inv h
    obtain ⟨w, s2, h2, h⟩ := bind_inv h
    cases h
    obtain ⟨xs, i1, f1⟩ := iha h1
    obtain ⟨ys, i2, f2⟩ := ihb h2
    exact ⟨xs ++ ys, i1.append i2, fun zs => by simp only [Exp.fill, List.append_assoc, f1, f2]⟩
  | divr a b iha ihb =>
    intro s s' x h
    obtain ⟨u, s1, h1, h⟩ := bind_inv h
    obtain ⟨w, s2, h2, h⟩ := bind_inv h
    cases h
    obtain ⟨xs, i1, f1⟩ := iha h1
    obtain ⟨ys, i2, f2⟩ := ihb h2
    exact ⟨xs ++ ys, i1.append i2, fun zs => by simp only [Exp.fill, List.append_assoc, f1, f2]⟩
  | neg a iha =>
    intro s s' x h
    obtain ⟨u, s1, h1, h⟩ := bind_inv h
    cases h
    obtain ⟨xs, i1, f1⟩ := iha h1
    exact ⟨xs, i1, fun zs => by simp only [Exp.fill, f1]⟩
  | ofR a iha =>
    intro s s' x h
    obtain ⟨u, s1, h1, h⟩ := bind_inv h
    cases h
    obtain ⟨xs, i1, f1⟩ := iha h1
    exact ⟨xs, i1, fun zs => by simp only [Exp.fill, f1]⟩
  | sqrt a iha =>
    intro s s' x h
    obtain ⟨u, s1, h1, h⟩ := bind_inv h
    cases h
    obtain ⟨xs, i1, f1⟩ := iha h1
    exact ⟨xs, i1, fun zs => by simp only [Exp.fill, f1]⟩
  | pow a k iha =>
    intro s s' x h
    obtain ⟨u, s1, h1, h⟩ := bind_inv h
    cases h
    obtain ⟨xs, i1, f1⟩ := iha h1
    exact ⟨xs, i1, fun zs => by simp only [Exp.fill, f1]⟩
  | abs a iha =>
    intro s s' x h
    obtain ⟨u, s1, h1, h⟩ := bind_inv h
    cases h
    obtain ⟨xs, i1, f1⟩ := iha h1
    exact ⟨xs, i1, fun zs => by simp only [Exp.fill, f1]⟩
  | re a iha =>
    intro s s' x h
    obtain ⟨u, s1, h1, h⟩ := bind_inv h
    cases h
    obtain ⟨xs, i1, f1⟩ := iha h1
    exact ⟨xs, i1, fun zs => by simp only [Exp.fill, f1]⟩
  | conj a iha =>
    intro s s' x h
    obtain ⟨u, s1, h1, h⟩ := bind_inv h
    cases h
    obtain ⟨xs, i1, f1⟩ := iha h1
    exact ⟨xs, i1, fun zs => by simp only [Exp.fill, f1]⟩

omit [Scalar R] [HasPow R] [Cplx R C] in
theorem ND.bind_of {m : ND σ α} {f : α → ND σ β} {s s' : σ} {x : α} {z : Res β × σ} (h : m s (.ok x, s')) (h' : f x s' z) : ND.bind m f s z := .inl ⟨x, s', h, h'⟩

theorem eval_allowed {S : Sem R C σ} {S' : SemAny R C σ} (hS : Allows S S') (l : Loc R C) {t : Ty} (e : Exp t) {s s' : σ} {x : t.den R C} (h : e.eval S l s = (.ok x, s')) : e.evalAny S' l s (.ok x, s') := by
  obtain ⟨xs, i, f⟩ := eval_inOrder hS l e h
  refine ND.bind_of i.any ?_
  have := f []
  rw [List.append_nil] at this
  rw [this]
  rfl

omit [Scalar R] [HasPow R] [Cplx R C] in
theorem loop_allowed {n : Nat} {body : Loc R C → Prog σ (Flow R C)} {body' : Loc R C → ND σ (Flow R C)} (hb : ∀ l s y s', body l s = (.ok y, s') → body' l s (.ok y, s')) (xs : List Int) :
    ∀ l s y s', loopRun n body xs l s = (.ok y, s') → loopAny n body' xs l s (.ok y, s') := by
  induction xs with
  | nil => intro l s y s' h; cases h; rfl
  | cons x xs ih =>
    intro l s y s' h
    obtain ⟨f, s1, h1, h⟩ := bind_inv h
    refine ND.bind_of (hb _ _ _ _ h1) ?_
    cases f with
    | next l' => exact ih _ _ _ _ h
    | ret t z => cases h; rfl

theorem exec_allowed {S : Sem R C σ} {S' : SemAny R C σ} (hS : Allows S S') (b : Stmt) : ∀ l s y s', b.exec S l s = (.ok y, s') → b.execAny S' l s (.ok y, s') := by
  induction b with
  | skip => intro l s y s' h; cases h; rfl
  | seq a b iha ihb =>
    intro l s y s' h
    obtain ⟨f, s1, h1, h⟩ := bind_inv h
    refine ND.bind_of (iha _ _ _ _ h1) ?_
    cases f with
    | next l' => exact ihb _ _ _ _ h
    | ret t z => cases h; rfl
  | seti n e => intro l s y s' h; cases h; rfl
  | set t n e =>
    intro l s y s' h
    obtain ⟨x, s1, h1, h⟩ := bind_inv h
    cases h
    exact ND.bind_of (eval_allowed hS l e h1) rfl
  | ite b a c iha ihc =>
    intro l s y s' h
    unfold Stmt.exec at h
    unfold Stmt.execAny
    split_ifs at h ⊢
    · exact iha _ _ _ _ h
    · exact ihc _ _ _ _ h
  | loop n lo incl hi step body ih => intro l s y s' h; exact loop_allowed ih _ _ _ _ _ h
  | spins ds i => intro l s y s' h; cases h; rfl
  | ret t e =>
    intro l s y s' h
    obtain ⟨x, s1, h1, h⟩ := bind_inv h
    cases h
    exact ND.bind_of (eval_allowed hS l e h1) rfl
  | throw e => intro l s y s' h; cases h

theorem run_allowed {S : Sem R C σ} {S' : SemAny R C σ} (hS : Allows S S') (m : Method) (junk : Loc R C) (t : Ty) (args : List Int) (s : σ) (y : t.den R C) (s' : σ) (h : m.run S junk t args s = (.ok y, s')) :
    m.runAny S' junk t args s (.ok y, s') := by
  unfold Method.run at h
  unfold Method.runAny
  split_ifs at h ⊢
  · obtain ⟨f, s1, h1, h⟩ := bind_inv h
    refine ND.bind_of (exec_allowed hS _ _ _ _ _ h1) ?_
    cases f with
    | next l' => cases h
    | ret t' z =>
      dsimp only at h ⊢
      split_ifs at h ⊢
      · cases h; rfl
      · cases h
  · cases h

theorem callable_allowed {mr : Nat → R} {mc : Nat → C} {v : Nat → List Int → Prog σ C} {v' : Nat → List Int → ND σ C} (hv : ∀ a args s x s', v a args s = (.ok x, s') → v' a args s (.ok x, s')) (junk : Loc R C) (ms : List Method) :
    ∀ k args s x s', callable mr mc v junk ms k args s = (.ok x, s') → callableAny mr mc v' junk ms k args s (.ok x, s') := by
  induction ms with
  | nil => intro k args s x s' h; cases h
  | cons m ms ih =>
    intro k args s x s' h
    unfold callable at h
    unfold callableAny
    split_ifs at h ⊢
    · exact run_allowed ⟨rfl, rfl, hv, ih⟩ m junk .c args s x s' h
    · exact ih _ _ _ _ _ h

theorem invoke_allowed {mr : Nat → R} {mc : Nat → C} {v : Nat → List Int → Prog σ C} {v' : Nat → List Int → ND σ C} (hv : ∀ a args s x s', v a args s = (.ok x, s') → v' a args s (.ok x, s')) (junk : Loc R C) (t : Ty) (ms : List Method) :
    ∀ k args s x s', invoke mr mc v junk t ms k args s = (.ok x, s') → invokeAny mr mc v' junk t ms k args s (.ok x, s') := by
  induction ms with
  | nil => intro k args s x s' h; cases h
  | cons m ms ih =>
    intro k args s x s' h
    unfold invoke at h
    unfold invokeAny
    split_ifs at h ⊢
    · exact run_allowed ⟨rfl, rfl, hv, callable_allowed hv junk ms⟩ m junk t args s x s' h
    · exact ih _ _ _ _ _ h

/-- evaluation from left to right is one of the orders -/
theorem method_allowed (P : Proc) (junk : Loc R C) (t : Ty) (k : Nat) (args : List Int) (o o' : Obj R C) (x : t.den R C) (h : P.method junk t k args o = (.ok x, o')) : P.methodAny junk t k args o (.ok x, o') := by
  have h1 : invoke o.r o.c Proc.vcall junk t P.methods k args o.w = (.ok x, o'.w) := by
    have a := congrArg Prod.fst h
    have b := congrArg (fun z => z.2.w) h
    exact Prod.ext a b
  refine ⟨_, invoke_allowed (fun a js s x s' h => h.symm) junk t P.methods k args _ _ _ h1, ?_⟩
  rw [← h]
  unfold Proc.method onWorld
  rw [h1]

/-! ### all orders have the same outcome -/

/-- Every outcome from a state with `I` is the result `x`, in a state with `I`. -/
def Sure (I : σ → Prop) (m : ND σ α) (x : α) : Prop := ∀ s, I s → ∀ z, m s z → z.1 = .ok x ∧ I z.2

variable {I : σ → Prop}

omit [Scalar R] [HasPow R] [Cplx R C] in
theorem sure_pure (x : α) : Sure I (ND.pure x) x := by
  intro s hs z hz
  cases hz
  exact ⟨rfl, hs⟩

omit [Scalar R] [HasPow R] [Cplx R C] in
theorem sure_bind {m : ND σ α} {f : α → ND σ β} {x : α} {y : β} (hm : Sure I m x) (hf : Sure I (f x) y) : Sure I (ND.bind m f) y := by
  intro s hs z hz
  rcases hz with ⟨x', s1, h1, h2⟩ | ⟨e, s1, h1, _⟩ | ⟨s1, h1, _⟩
  · obtain ⟨e, i⟩ := hm s hs _ h1
    cases e
    exact hf s1 i z h2
  · exact absurd (hm s hs _ h1).1 (by simp)
  · exact absurd (hm s hs _ h1).1 (by simp)

omit [Scalar R] [HasPow R] [Cplx R C] in
theorem forall₂_split {Q : α → β → Prop} {xs ys : List α} {zs : List β} (h : List.Forall₂ Q (xs ++ ys) zs) : ∃ as bs, List.Forall₂ Q xs as ∧ List.Forall₂ Q ys bs ∧ zs = as ++ bs := by
  induction xs generalizing zs with
  | nil => exact ⟨[], zs, .nil, h, rfl⟩
  | cons x xs ih =>
    cases h with
    | cons h1 h2 =>
      obtain ⟨as, bs, ha, hb, rfl⟩ := ih h2
      exact ⟨_ :: as, bs, .cons h1 ha, hb, rfl⟩

omit [Scalar R] [HasPow R] [Cplx R C] in
theorem sure_any {cs : List (ND σ α)} {xs : List α} (h : List.Forall₂ (Sure I) cs xs) : Sure I (AnyOrder cs) xs := by
  intro s hs z hz
  induction hz generalizing xs with
  | nil => cases h; exact ⟨rfl, hs⟩
  | @next pre post c x us vs s s' s'' h1 hl h2 ih =>
    obtain ⟨as, bs', ha, hb, rfl⟩ := forall₂_split h
    cases hb with
    | cons hc hb =>
      obtain ⟨e, i⟩ := hc s hs _ h1
      obtain ⟨e2, i2⟩ := ih (List.rel_append ha hb) i
      cases e
      have e3 : us ++ vs = as ++ _ := Res.ok.inj e2
      obtain ⟨rfl, rfl⟩ := List.append_inj e3 (hl.trans ha.length_eq)
      exact ⟨rfl, i2⟩
  | later h1 h2 ih =>
    obtain ⟨as, bs', ha, hb, rfl⟩ := forall₂_split h
    cases hb with
    | cons hc hb => exact absurd (ih (List.rel_append ha hb) (hc _ hs _ h1).2).1 (by simp)
  | laterCrash h1 h2 ih =>
    obtain ⟨as, bs', ha, hb, rfl⟩ := forall₂_split h
    cases hb with
    | cons hc hb => exact absurd (ih (List.rel_append ha hb) (hc _ hs _ h1).2).1 (by simp)
  | throw h1 =>
    obtain ⟨as, bs', ha, hb, rfl⟩ := forall₂_split h
    cases hb with
    | cons hc hb => exact absurd (hc _ hs _ h1).1 (by simp)
  | crash h1 =>
    obtain ⟨as, bs', ha, hb, rfl⟩ := forall₂_split h
    cases hb with
    | cons hc hb => exact absurd (hc _ hs _ h1).1 (by simp)


/-- where `S` returns a number, so does `S'`, in all states with `I` -/
structure Follows (I : σ → Prop) (S : Sem R C Unit) (S' : SemAny R C σ) : Prop where
  mr : S'.mr = S.mr
  mc : S'.mc = S.mc
  v : ∀ a args x, S.v a args () = (.ok x, ()) → Sure I (S'.v a args) x
  f : ∀ a args x, S.f a args () = (.ok x, ()) → Sure I (S'.f a args) x

theorem eval_sure_calls {S : Sem R C Unit} {S' : SemAny R C σ} (hS : Follows I S S') (l : Loc R C) {t : Ty} (e : Exp t) : ∀ {x : t.den R C}, e.eval S l () = (.ok x, ()) →
    ∃ xs, List.Forall₂ (Sure I) (e.called S' l) xs ∧ ∀ ys, e.fill S' l (xs ++ ys) = (x, ys) := by
  have mem : S'.mem = S.mem := by
    funext t n; cases t
    · exact congrFun hS.mr n
    · exact congrFun hS.mc n
  induction e with
  | lit n => intro x h; cases h; exact ⟨[], .nil, fun _ => rfl⟩
  | dec m e => intro x h; cases h; exact ⟨[], .nil, fun _ => rfl⟩
  | mem t n => intro x h; cases h; exact ⟨[], .nil, fun _ => by simp only [Exp.fill, mem]; rfl⟩
  | loc t n => intro x h; cases h; exact ⟨[], .nil, fun _ => rfl⟩
  | norm ds => intro x h; cases h; exact ⟨[], .nil, fun _ => rfl⟩
  | v a args => intro x h; exact ⟨[x], .cons (hS.v _ _ _ h) (.nil), fun _ => rfl⟩
  | call f args => intro x h; exact ⟨[x], .cons (hS.f _ _ _ h) (.nil), fun _ => rfl⟩
  | add a b iha ihb =>
    intro x h
    obtain ⟨u, ⟨⟩, h1, h⟩ := bind_inv h
    obtain ⟨w, ⟨⟩, h2, h⟩ := bind_inv h
    cases h
    obtain ⟨xs, i1, f1⟩ := iha h1
    obtain ⟨ys, i2, f2⟩ := ihb h2
    exact ⟨xs ++ ys, List.rel_append i1 i2, fun zs => by simp only [Exp.fill, List.append_assoc, f1, f2]⟩
  | sub a b iha ihb =>
    intro x h
    obtain ⟨u, ⟨⟩, h1, h⟩ := bind_inv h
    obtain ⟨w, ⟨⟩, h2, h⟩ := bind_inv h
    cases h
    obtain ⟨xs, i1, f1⟩ := iha h1
    obtain ⟨ys, i2, f2⟩ := ihb h2
    exact ⟨xs ++ ys, List.rel_append i1 i2, fun zs => by simp only [Exp.fill, List.append_assoc, f1, f2]⟩
  | mul a b iha ihb =>
    intro x h
    obtain ⟨u, ⟨⟩, h1, h⟩ := bind_inv h
    obtain ⟨w, ⟨⟩, h2, h⟩ := bind_inv h
    cases h
    obtain ⟨xs, i1, f1⟩ := iha h1
    obtain ⟨ys, i2, f2⟩ := ihb h2
    exact ⟨xs ++ ys, List.rel_append i1 i2, fun zs => by simp only [Exp.fill, List.append_assoc, f1, f2]⟩
  | div a b iha ihb =>
    intro x h
    obtain ⟨u, ⟨⟩, h1, h⟩ := bind_inv h
    obtain ⟨w, ⟨⟩, h2, h⟩ := bind_inv h
    cases h
    obtain ⟨xs, i1, f1⟩ := iha h1
    obtain ⟨ys, i2, f2⟩ := ihb h2
    exact ⟨xs ++ ys, List.rel_append i1 i2, fun zs => by simp only [Exp.fill, List.append_assoc, f1, f2]⟩
  | smul a b iha ihb =>
    intro x h
    obtain ⟨u, ⟨⟩, h1, h⟩ := bind_inv h
    obtain ⟨w, ⟨⟩, h2, h⟩ := bind_inv h
    cases h
    obtain ⟨xs, i1, f1⟩ := iha h1
    obtain ⟨ys, i2, f2⟩ := ihb h2
    exact ⟨xs ++ ys, List.rel_append i1 i2, fun zs => by simp only [Exp.fill, List.append_assoc, f1, f2]⟩
  | divr a b iha ihb =>
    intro x h
    obtain ⟨u, ⟨⟩, h1, h⟩ := bind_inv h
    obtain ⟨w, ⟨⟩, h2, h⟩ := bind_inv h
    cases h
    obtain ⟨xs, i1, f1⟩ := iha h1
    obtain ⟨ys, i2, f2⟩ := ihb h2
    exact ⟨xs ++ ys, List.rel_append i1 i2, fun zs => by simp only [Exp.fill, List.append_assoc, f1, f2]⟩
  | neg a iha =>
    intro x h
    obtain ⟨u, ⟨⟩, h1, h⟩ := bind_inv h
    cases h
    obtain ⟨xs, i1, f1⟩ := iha h1
    exact ⟨xs, i1, fun zs => by simp only [Exp.fill, f1]⟩
  | ofR a iha =>
    intro x h
    obtain ⟨u, ⟨⟩, h1, h⟩ := bind_inv h
    cases h
    obtain ⟨xs, i1, f1⟩ := iha h1
    exact ⟨xs, i1, fun zs => by simp only [Exp.fill, f1]⟩
  | sqrt a iha =>
    intro x h
    obtain ⟨u, ⟨⟩, h1, h⟩ := bind_inv h
    cases h
    obtain ⟨xs, i1, f1⟩ := iha h1
    exact ⟨xs, i1, fun zs => by simp only [Exp.fill, f1]⟩
  | pow a k iha =>
    intro x h
    obtain ⟨u, ⟨⟩, h1, h⟩ := bind_inv h
    cases h
    obtain ⟨xs, i1, f1⟩ := iha h1
    exact ⟨xs, i1, fun zs => by simp only [Exp.fill, f1]⟩
  | abs a iha =>
    intro x h
    obtain ⟨u, ⟨⟩, h1, h⟩ := bind_inv h
    cases h
    obtain ⟨xs, i1, f1⟩ := iha h1
    exact ⟨xs, i1, fun zs => by simp only [Exp.fill, f1]⟩
  | re a iha =>
    intro x h
    obtain ⟨u, ⟨⟩, h1, h⟩ := bind_inv h
    cases h
    obtain ⟨xs, i1, f1⟩ := iha h1
    exact ⟨xs, i1, fun zs => by simp only [Exp.fill, f1]⟩
  | conj a iha =>
    intro x h
    obtain ⟨u, ⟨⟩, h1, h⟩ := bind_inv h
    cases h
    obtain ⟨xs, i1, f1⟩ := iha h1
    exact ⟨xs, i1, fun zs => by simp only [Exp.fill, f1]⟩

theorem eval_sure {S : Sem R C Unit} {S' : SemAny R C σ} (hS : Follows I S S') (l : Loc R C) {t : Ty} (e : Exp t) {x : t.den R C} (h : e.eval S l () = (.ok x, ())) : Sure I (e.evalAny S' l) x := by
  obtain ⟨xs, i, f⟩ := eval_sure_calls hS l e h
  refine sure_bind (sure_any i) ?_
  have := f []
  rw [List.append_nil] at this
  rw [this]
  exact sure_pure x

omit [Scalar R] [HasPow R] [Cplx R C] in
theorem loop_sure {n : Nat} {body : Loc R C → Prog Unit (Flow R C)} {body' : Loc R C → ND σ (Flow R C)} (hb : ∀ l y, body l () = (.ok y, ()) → Sure I (body' l) y) (xs : List Int) :
    ∀ l y, loopRun n body xs l () = (.ok y, ()) → Sure I (loopAny n body' xs l) y := by
  induction xs with
  | nil => intro l y h; cases h; exact sure_pure _
  | cons x xs ih =>
    intro l y h
    obtain ⟨f, ⟨⟩, h1, h⟩ := bind_inv h
    refine sure_bind (hb _ _ h1) ?_
    cases f with
    | next l' => exact ih _ _ h
    | ret t z => cases h; exact sure_pure _

theorem exec_sure {S : Sem R C Unit} {S' : SemAny R C σ} (hS : Follows I S S') (b : Stmt) : ∀ l y, b.exec S l () = (.ok y, ()) → Sure I (b.execAny S' l) y := by
  induction b with
  | skip => intro l y h; cases h; exact sure_pure _
  | seq a b iha ihb =>
    intro l y h
    obtain ⟨f, ⟨⟩, h1, h⟩ := bind_inv h
    refine sure_bind (iha _ _ h1) ?_
    cases f with
    | next l' => exact ihb _ _ h
    | ret t z => cases h; exact sure_pure _
  | seti n e => intro l y h; cases h; exact sure_pure _
  | set t n e =>
    intro l y h
    obtain ⟨x, ⟨⟩, h1, h⟩ := bind_inv h
    cases h
    exact sure_bind (eval_sure hS l e h1) (sure_pure _)
  | ite b a c iha ihc =>
    intro l y h
    unfold Stmt.exec at h
    unfold Stmt.execAny
    split_ifs at h ⊢
    · exact iha _ _ h
    · exact ihc _ _ h
  | loop n lo incl hi step body ih => intro l y h; exact loop_sure ih _ _ _ h
  | spins ds i => intro l y h; cases h; exact sure_pure _
  | ret t e =>
    intro l y h
    obtain ⟨x, ⟨⟩, h1, h⟩ := bind_inv h
    cases h
    exact sure_bind (eval_sure hS l e h1) (sure_pure _)
  | throw e => intro l y h; cases h

theorem run_sure {S : Sem R C Unit} {S' : SemAny R C σ} (hS : Follows I S S') (m : Method) (junk : Loc R C) (t : Ty) (args : List Int) (y : t.den R C) (h : m.run S junk t args () = (.ok y, ())) :
    Sure I (m.runAny S' junk t args) y := by
  unfold Method.run at h
  unfold Method.runAny
  split_ifs at h ⊢
  · obtain ⟨f, ⟨⟩, h1, h⟩ := bind_inv h
    refine sure_bind (exec_sure hS _ _ _ h1) ?_
    cases f with
    | next l' => cases h
    | ret t' z =>
      dsimp only at h ⊢
      split_ifs at h ⊢
      · cases h; exact sure_pure _
      · cases h
  · cases h

theorem callable_sure {mr : Nat → R} {mc : Nat → C} {v : Nat → List Int → Prog Unit C} {v' : Nat → List Int → ND σ C} (hv : ∀ a args x, v a args () = (.ok x, ()) → Sure I (v' a args) x) (junk : Loc R C) (ms : List Method) :
    ∀ k args x, callable mr mc v junk ms k args () = (.ok x, ()) → Sure I (callableAny mr mc v' junk ms k args) x := by
  induction ms with
  | nil => intro k args x h; cases h
  | cons m ms ih =>
    intro k args x h
    unfold callable at h
    unfold callableAny
    split_ifs at h ⊢
    · exact run_sure ⟨rfl, rfl, hv, ih⟩ m junk .c args x h
    · exact ih _ _ _ h

theorem invoke_sure {mr : Nat → R} {mc : Nat → C} {v : Nat → List Int → Prog Unit C} {v' : Nat → List Int → ND σ C} (hv : ∀ a args x, v a args () = (.ok x, ()) → Sure I (v' a args) x) (junk : Loc R C) (t : Ty) (ms : List Method) :
    ∀ k args x, invoke mr mc v junk t ms k args () = (.ok x, ()) → Sure I (invokeAny mr mc v' junk t ms k args) x := by
  induction ms with
  | nil => intro k args x h; cases h
  | cons m ms ih =>
    intro k args x h
    unfold invoke at h
    unfold invokeAny
    split_ifs at h ⊢
    · exact run_sure ⟨rfl, rfl, hv, callable_sure hv junk ms⟩ m junk t args x h
    · exact ih _ _ _ h

/-! ### calls on objects with up-to-date products -/

open Spec Props

/-- a call of `v` as the specification knows it -/
def asVCall : List Int → Option VCall
  | [] => some .v0
  | [j] => some (.v1 j)
  | [j, k] => some (.v2 j k)
  | _ => none

/-- the outcome of `v` on the product number `a`, if it is up to date and the spins are spins -/
noncomputable def tableV (sp : Nat → Option SPDef) (u : List Bool) (κ : Nat → Kin R C) (a : Nat) (args : List Int) : Prog Unit C := fun _ =>
  open Classical in
  (if u.getD a false = true ∧ ∀ j ∈ args, IsSpin j then match sp a, asVCall args with
    | some d, some c => outcome κ d c
    | _, _ => .crash
  else .crash, ())

/-- the products listed in `u` are up to date -/
def UpToDate (S : Sym) (u : List Bool) (κ : Nat → Kin R C) (w : World R C) : Prop := ∀ a, u.getD a false = true → ∃ d, S.gsp a = some d ∧ Synced a d κ w

omit [HasPow R] in
theorem asVCall_run {args : List Int} {c : VCall} (h : asVCall args = some c) (hs : ∀ j ∈ args, IsSpin j) (a : Nat) : c.Valid ∧ Proc.vcall (R := R) (C := C) a args = c.run a := by
  rcases args with _ | ⟨j, _ | ⟨k, _ | ⟨l, ls⟩⟩⟩
  · cases h; exact ⟨trivial, rfl⟩
  · cases h; exact ⟨hs j (by simp), rfl⟩
  · cases h; exact ⟨⟨hs j (by simp), hs k (by simp)⟩, rfl⟩
  · cases h

omit [HasPow R] in
theorem vcall_sure (S : Sym) (u : List Bool) (κ : Nat → Kin R C) (a : Nat) (args : List Int) (x : C) (h : tableV S.gsp u κ a args () = (.ok x, ())) : Sure (UpToDate S u κ) (ND.of (Proc.vcall (R := R) (C := C) a args)) x := by
  intro w hw z hz
  cases hz
  have h := congrArg Prod.fst h
  simp only [tableV] at h
  split_ifs at h with hc
  obtain ⟨d, hd, hsy⟩ := hw a hc.1
  rw [hd] at h
  cases hv : asVCall args with
  | none => rw [hv] at h; cases h
  | some c =>
    rw [hv] at h
    obtain ⟨hval, hrun⟩ := asVCall_run (R := R) (C := C) hv hc.2 a
    obtain ⟨w', e, _, _, _⟩ := v_spec hsy c hval
    rw [hrun]
    refine ⟨by rw [e]; exact h, fun b hb => ?_⟩
    obtain ⟨d', hd', t⟩ := hw b hb
    exact ⟨d', hd', synced_v t a c⟩

/-- If evaluation from left to right returns `x`, so do all orders; the products stay up to date. -/
theorem method_sure {S : Sym} {par : Nat → R} {κ : Nat → Kin R C} {r c u : List Bool} {o o1 : Obj R C} (h : Agree S par κ r c u o o) (h1 : UpToDate S u κ o1.w) (hr1 : o1.r = o.r) (hc1 : o1.c = o.c) {P : Proc} {t : Ty} {k : Nat} {xs : List AI}
    (hc : absInvoke (fun n => r.getD n false) (fun n => c.getD n false) (okCalls false S u) true t P.methods k xs = true) {args : List Int} (ha : ArgsOk xs args) {junk junk' : Loc R C} {x : t.den R C}
    (hx : (P.method junk t k args o).1 = .ok x) {z : Res (t.den R C) × Obj R C} (hz : P.methodAny junk' t k args o1 z) : z.1 = .ok x ∧ z.2.r = o.r ∧ z.2.c = o.c ∧ UpToDate S u κ z.2.w := by
  let Rel : World R C → Unit → Prop := fun w _ => UpToDate S u κ w
  have hv : ∀ a args, okCalls false S u a args.length = true → (∀ j ∈ args, IsSpin j) → RelProg Rel true Eq (Proc.vcall (R := R) (C := C) a args) (tableV S.gsp u κ a args) := by
    intro a args hok hspin w w' hw
    simp only [okCalls, Bool.and_eq_true] at hok
    obtain ⟨hua, hok⟩ := hok
    obtain ⟨d, hd, s1⟩ := hw a hua
    cases hv : asVCall args with
    | none =>
      exfalso
      rcases args with _ | ⟨j, _ | ⟨k, _ | ⟨l, ls⟩⟩⟩
      · cases hv
      · cases hv
      · cases hv
      · split at hok <;> simp at hok
    | some cc =>
      obtain ⟨hval, hrun⟩ := asVCall_run (R := R) (C := C) hv hspin a
      obtain ⟨w1, e1, _, _, _⟩ := v_spec s1 cc hval
      have et : tableV S.gsp u κ a args w' = (outcome κ d cc, ()) := by
        simp only [tableV]
        rw [if_pos ⟨hua, hspin⟩, hd, hv]
      rw [hrun, et]
      constructor
      · intro b hb
        obtain ⟨d', hd', t1⟩ := hw b hb
        exact ⟨d', hd', synced_v t1 a cc⟩
      · rw [e1]
        dsimp only
        have hcr : outcome κ d cc ≠ .crash := by
          cases cc <;> simp only [outcome] <;> split <;> simp
        cases hx : outcome κ d cc with
        | ok x => rfl
        | throw e => exact ⟨rfl, rfl⟩
        | crash => exact absurd hx hcr
  have main := (invoke_sound (Rel := Rel) (mr := o.r) (mr' := o.r) (mc := o.c) (mc' := o.c) (fun _ _ => rfl) (fun _ _ => rfl) hv junk junk' t P.methods k xs args hc ha o.w ()
    (fun a ha => let ⟨d, h1, h2, _⟩ := h.u a ha; ⟨d, h1, h2⟩)).2
  have e1 : (invoke o.r o.c Proc.vcall junk t P.methods k args o.w).1 = .ok x := hx
  rw [e1] at main
  have e2 : invoke o.r o.c (tableV S.gsp u κ) junk' t P.methods k args () = (.ok x, ()) := by
    revert main
    rcases invoke o.r o.c (tableV S.gsp u κ) junk' t P.methods k args () with ⟨y | e | _, ⟨⟩⟩
    · intro hm; rw [show x = y from hm]
    · exact False.elim
    · exact False.elim
  obtain ⟨y, hy, rfl⟩ := hz
  rw [hr1, hc1] at hy
  obtain ⟨a, b⟩ := invoke_sure (vcall_sure S u κ) junk' t P.methods k args x e2 o1.w h1 y hy
  exact ⟨a, hr1, hc1, b⟩


/-! ### what all calls keep -/

/-- Every outcome keeps `I`. -/
def KeepsAny (I : σ → Prop) (m : ND σ α) : Prop := ∀ s, I s → ∀ z, m s z → I z.2

omit [Scalar R] [HasPow R] [Cplx R C] in
theorem keepsAny_pure (x : α) : KeepsAny I (ND.pure x : ND σ α) := by
  intro s hs z hz; cases hz; exact hs

omit [Scalar R] [HasPow R] [Cplx R C] in
theorem keepsAny_crash : KeepsAny I (ND.crash : ND σ α) := by
  intro s hs z hz; cases hz; exact hs

omit [Scalar R] [HasPow R] [Cplx R C] in
theorem keepsAny_bind {m : ND σ α} {f : α → ND σ β} (hm : KeepsAny I m) (hf : ∀ x, KeepsAny I (f x)) : KeepsAny I (ND.bind m f) := by
  intro s hs z hz
  rcases hz with ⟨x, s1, h1, h2⟩ | ⟨e, s1, h1, rfl⟩ | ⟨s1, h1, rfl⟩
  · exact hf x s1 (hm s hs _ h1) z h2
  · exact hm s hs _ h1
  · exact hm s hs _ h1

omit [Scalar R] [HasPow R] [Cplx R C] in
theorem keepsAny_any {cs : List (ND σ α)} (h : ∀ c ∈ cs, KeepsAny I c) : KeepsAny I (AnyOrder cs) := by
  intro s hs z hz
  induction hz with
  | nil => exact hs
  | next h1 _ _ ih => exact ih (fun c hc => h c (by simp only [List.mem_append, List.mem_cons] at hc ⊢; tauto)) (h _ (by simp) _ hs _ h1)
  | later h1 _ ih => exact ih (fun c hc => h c (by simp only [List.mem_append, List.mem_cons] at hc ⊢; tauto)) (h _ (by simp) _ hs _ h1)
  | laterCrash h1 _ ih => exact ih (fun c hc => h c (by simp only [List.mem_append, List.mem_cons] at hc ⊢; tauto)) (h _ (by simp) _ hs _ h1)
  | throw h1 => exact h _ (by simp) _ hs _ h1
  | crash h1 => exact h _ (by simp) _ hs _ h1

omit [Scalar R] [HasPow R] [Cplx R C] in
theorem keepsAny_calls {S : SemAny R C σ} (hv : ∀ a args, KeepsAny I (S.v a args)) (hf : ∀ k args, KeepsAny I (S.f k args)) [Scalar R] (l : Loc R C) {t : Ty} (e : Exp t) : ∀ c ∈ e.called S l, KeepsAny I c := by
  induction e with
  | v a args => intro c hc; simp only [Exp.called, List.mem_singleton] at hc; exact hc ▸ hv _ _
  | call f args => intro c hc; simp only [Exp.called, List.mem_singleton] at hc; exact hc ▸ hf _ _
  | lit | dec | mem | loc | norm => intro c hc; simp [Exp.called] at hc
  | add a b iha ihb | sub a b iha ihb | mul a b iha ihb | div a b iha ihb | smul a b iha ihb | divr a b iha ihb =>
    intro c hc
    rcases List.mem_append.mp hc with hc | hc
    · exact iha c hc
    · exact ihb c hc
  | neg a ih | ofR a ih | sqrt a ih | pow a k ih | abs a ih | re a ih | conj a ih => exact ih

theorem keepsAny_eval {S : SemAny R C σ} (hv : ∀ a args, KeepsAny I (S.v a args)) (hf : ∀ k args, KeepsAny I (S.f k args)) (l : Loc R C) {t : Ty} (e : Exp t) : KeepsAny I (e.evalAny S l) :=
  keepsAny_bind (keepsAny_any (keepsAny_calls hv hf l e)) fun _ => keepsAny_pure _

theorem keepsAny_exec {S : SemAny R C σ} (hv : ∀ a args, KeepsAny I (S.v a args)) (hf : ∀ k args, KeepsAny I (S.f k args)) (b : Stmt) : ∀ l, KeepsAny I (b.execAny S l) := by
  induction b with
  | skip => exact fun l => keepsAny_pure _
  | seq a b iha ihb =>
    intro l
    refine keepsAny_bind (iha l) fun f => ?_
    cases f with
    | next l' => exact ihb l'
    | ret t z => exact keepsAny_pure _
  | seti n e => exact fun l => keepsAny_pure _
  | set t n e => exact fun l => keepsAny_bind (keepsAny_eval hv hf l e) fun _ => keepsAny_pure _
  | ite b a c iha ihc =>
    intro l
    unfold Stmt.execAny
    split_ifs
    · exact iha l
    · exact ihc l
  | loop n lo incl hi step body ih =>
    intro l
    unfold Stmt.execAny
    generalize loopVals lo incl (hi.eval l.i) step = xs
    induction xs generalizing l with
    | nil => exact keepsAny_pure _
    | cons x xs ihx =>
      refine keepsAny_bind (ih _) fun f => ?_
      cases f with
      | next l' => exact ihx l'
      | ret t z => exact keepsAny_pure _
  | spins ds i => exact fun l => keepsAny_pure _
  | ret t e => exact fun l => keepsAny_bind (keepsAny_eval hv hf l e) fun _ => keepsAny_pure _
  | throw e => intro l s hs z hz; cases hz; exact hs

theorem keepsAny_run {S : SemAny R C σ} (hv : ∀ a args, KeepsAny I (S.v a args)) (hf : ∀ k args, KeepsAny I (S.f k args)) (m : Method) (junk : Loc R C) (t : Ty) (args : List Int) : KeepsAny I (m.runAny S junk t args) := by
  unfold Method.runAny
  split_ifs
  · refine keepsAny_bind (keepsAny_exec hv hf _ _) fun f => ?_
    cases f with
    | next l' => exact keepsAny_crash
    | ret t' z =>
      dsimp only
      split_ifs
      · exact keepsAny_pure _
      · exact keepsAny_crash
  · exact keepsAny_crash

theorem keepsAny_callable {mr : Nat → R} {mc : Nat → C} {v : Nat → List Int → ND σ C} (hv : ∀ a args, KeepsAny I (v a args)) (junk : Loc R C) (ms : List Method) : ∀ k args, KeepsAny I (callableAny mr mc v junk ms k args) := by
  induction ms with
  | nil => exact fun k args => keepsAny_crash
  | cons m ms ih =>
    intro k args
    unfold callableAny
    split_ifs
    · exact keepsAny_run hv ih m junk .c args
    · exact ih _ _

theorem keepsAny_invoke {mr : Nat → R} {mc : Nat → C} {v : Nat → List Int → ND σ C} (hv : ∀ a args, KeepsAny I (v a args)) (junk : Loc R C) (t : Ty) (ms : List Method) : ∀ k args, KeepsAny I (invokeAny mr mc v junk t ms k args) := by
  induction ms with
  | nil => exact fun k args => keepsAny_crash
  | cons m ms ih =>
    intro k args
    unfold invokeAny
    split_ifs
    · exact keepsAny_run hv (keepsAny_callable hv junk ms) m junk t args
    · exact ih _ _

theorem methodAny_fresh {S : Sym} {u : List Bool} {κ : Nat → Kin R C} {o : Obj R C} (h : UpToDate S u κ o.w) {P : Proc} {junk : Loc R C} {t : Ty} {k : Nat} {args : List Int} {z : Res (t.den R C) × Obj R C} (hz : P.methodAny junk t k args o z) :
    z.2.r = o.r ∧ z.2.c = o.c ∧ UpToDate S u κ z.2.w := by
  obtain ⟨y, hy, rfl⟩ := hz
  refine ⟨rfl, rfl, keepsAny_invoke (I := UpToDate S u κ) (fun b args w hw z hz => ?_) junk t P.methods k args _ h _ hy⟩
  cases hz
  rcases vcall_cases (R := R) (C := C) b args with ⟨c, hc⟩ | hc <;> rw [hc]
  · intro a ha
    obtain ⟨d, h1, h2⟩ := hw a ha
    exact ⟨d, h1, synced_v h2 b c⟩
  · exact hw

theorem methodAny_inv {S : Sym} {par : Nat → R} {o : Obj R C} (h : Inv S par o) {P : Proc} {junk : Loc R C} {t : Ty} {k : Nat} {args : List Int} {z : Res (t.den R C) × Obj R C} (hz : P.methodAny junk t k args o z) : Inv S par z.2 := by
  obtain ⟨y, hy, rfl⟩ := hz
  have hk := keepsAny_invoke (I := fun w : World R C => (∀ i, (w.part i).kin = (o.w.part i).kin) ∧ ∀ a, (w.sp a).desc = (o.w.sp a).desc) (fun a args w hw z hz => by
    cases hz
    rcases vcall_cases (R := R) (C := C) a args with ⟨c, hc⟩ | hc <;> rw [hc]
    · have hf := frame_v (R := R) (C := C) a c w
      refine ⟨fun i => ((hf.1 i).kin).trans (hw.1 i), fun b => ?_⟩
      by_cases hb : b = a
      · subst hb; exact (desc_v b c w).trans (hw.2 b)
      · rw [hf.2 b hb]; exact hw.2 b
    · exact hw) junk t P.methods k args _ ⟨fun _ => rfl, fun _ => rfl⟩ _ hy
  refine ⟨h.r, h.pm, h.pw, fun i e he => ?_, fun a d ha => ?_⟩
  · rw [← h.mass i e he]; simp only [hk.1]
  · have := h.sp a d ha
    rw [← hk.2 a] at this
    exact this


end
end Spinas.SM
