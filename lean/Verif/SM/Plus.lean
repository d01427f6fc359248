import Verif.SM.Order

/-! Signs of squared amplitudes in any arithmetic that respects signs. -/

namespace Spinas.SM

variable {R C σ : Type} [Scalar R] [HasPow R] [Cplx R C]

/-- `N x`: the number carries no minus sign. The rules hold in exact arithmetic, and in IEEE arithmetic for "not a number, or sign bit 0" under every rounding
(-0 is excluded, as a quotient by -0 is negative): moduli and even powers have no minus sign, sums, products, quotients and roots of numbers without a minus sign have none. -/
structure SignRules (C : Type) [Cplx R C] (N : R → Prop) : Prop where
  int : ∀ n : Nat, N (Spinas.int n)
  dec : ∀ m e : Nat, N (Scalar.dec m e)
  add : ∀ x y, N x → N y → N (x + y)
  mul : ∀ x y, N x → N y → N (x * y)
  div : ∀ x y, N x → N y → N (x / y)
  sqrt : ∀ x, N x → N (Scalar.sqrt x)
  pow : ∀ x k, N x → N (HasPow.pow x k)
  even : ∀ x k, N (HasPow.pow x (2 * k))
  abs : ∀ z : C, N (Cplx.abs z)

/-- Expressions without a minus sign, if the variables in `K` have none. -/
def Exp.plus (K : List Nat) : {t : Ty} → Exp t → Bool
  | _, .lit _ => true
  | _, .dec _ _ => true
  | _, .loc .r n => K.contains n
  | .r, .add a b => a.plus K && b.plus K
  | .r, .mul a b => a.plus K && b.plus K
  | .r, .div a b => a.plus K && b.plus K
  | _, .sqrt a => a.plus K
  | _, .pow a k => a.plus K || k % 2 == 0
  | _, .abs _ => true
  | _, .norm _ => true
  | _, _ => false

/-- The variables without a minus sign after a statement (`none`: a number that may have one is returned). -/
def Stmt.plus : Stmt → List Nat → Option (List Nat)
  | .seq a b, K => (a.plus K).bind b.plus
  | .set .r n e, K => some (if e.plus K then n :: K else K.filter (· != n))
  | .ite _ a b, K => (a.plus K).bind fun K1 => (b.plus K).map fun K2 => K1.filter K2.contains
  | .loop _ _ _ _ _ body, K => (body.plus K).bind fun K1 => if K.all K1.contains then some K else none
  | .ret .r e, K => if e.plus K then some K else none
  | _, K => some K

/-- Method `k` returns no number with a minus sign. -/
def plusMethod : List Method → Nat → Bool
  | [], _ => false
  | m :: ms, k => if k = ms.length then (m.body.plus []).isSome else plusMethod ms k

def PlusIn (N : R → Prop) (K : List Nat) (l : Loc R C) : Prop := ∀ n ∈ K, N (l.r n)

/-- what is known when a statement ends -/
def FlowPlus (N : R → Prop) (K : List Nat) : Flow R C → Prop
  | .next l => PlusIn N K l
  | .ret .r x => N x
  | .ret .c _ => True

variable {N : R → Prop}

theorem SignRules.norm (hN : SignRules C N) (ds : List Int) : N (Process.spinNormalization ds) := by
  have : ∀ (ds : List Int) (x : R), N x → N (ds.foldl (fun acc d => if d = 0 then acc / Scalar.sqrt (Spinas.int 2) else acc) x) := by
    intro ds
    induction ds with
    | nil => exact fun x h => h
    | cons d ds ih =>
      intro x h
      refine ih _ ?_
      dsimp only
      split_ifs
      · exact hN.div _ _ h (hN.sqrt _ (hN.int 2))
      · exact h
  exact this ds _ (hN.int 1)

theorem eval_plus (hN : SignRules C N) (S : Sem R C σ) {K : List Nat} {l : Loc R C} (hl : PlusIn N K l) {t : Ty} (e : Exp t) : ∀ (ht : t = .r) {s s' : σ} {x : t.den R C}, e.plus K = true → e.eval S l s = (.ok x, s') → N (ht ▸ x : Ty.den R C .r) := by
  induction e with
  | lit n => intro ht s s' x _ h; cases h; exact hN.int n
  | dec m e => intro ht s s' x _ h; cases h; exact hN.dec m e
  | loc t n => intro ht s s' x hp h; subst ht; cases h; exact hl n (by simpa [Exp.plus] using hp)
  | norm ds => intro ht s s' x _ h; cases h; exact hN.norm _
  | abs a ih =>
    intro ht s s' x _ h
    obtain ⟨u, s1, h1, h⟩ := bind_inv h
    cases h
    exact hN.abs _
  | add a b iha ihb =>
    intro ht s s' x hp h
    subst ht
    simp only [Exp.plus, Bool.and_eq_true] at hp
    obtain ⟨u, s1, h1, h⟩ := bind_inv h
    obtain ⟨w, s2, h2, h⟩ := bind_inv h
    cases h
    exact hN.add _ _ (iha rfl hp.1 h1) (ihb rfl hp.2 h2)
  | mul a b iha ihb =>
    intro ht s s' x hp h
    subst ht
    simp only [Exp.plus, Bool.and_eq_true] at hp
    obtain ⟨u, s1, h1, h⟩ := bind_inv h
    obtain ⟨w, s2, h2, h⟩ := bind_inv h
    cases h
    exact hN.mul _ _ (iha rfl hp.1 h1) (ihb rfl hp.2 h2)
  | div a b iha ihb =>
    intro ht s s' x hp h
    subst ht
    simp only [Exp.plus, Bool.and_eq_true] at hp
    obtain ⟨u, s1, h1, h⟩ := bind_inv h
    obtain ⟨w, s2, h2, h⟩ := bind_inv h
    cases h
    exact hN.div _ _ (iha rfl hp.1 h1) (ihb rfl hp.2 h2)
  | sqrt a ih =>
    intro ht s s' x hp h
    obtain ⟨u, s1, h1, h⟩ := bind_inv h
    cases h
    exact hN.sqrt _ (ih rfl hp h1)
  | pow a k ih =>
    intro ht s s' x hp h
    obtain ⟨u, s1, h1, h⟩ := bind_inv h
    cases h
    simp only [Exp.plus, Bool.or_eq_true, beq_iff_eq] at hp
    rcases hp with hp | hp
    · exact hN.pow _ _ (ih rfl hp h1)
    · obtain ⟨j, rfl⟩ : ∃ j, k = 2 * j := ⟨k / 2, by omega⟩
      exact hN.even _ _
  | mem t n => intro ht s s' x hp h; cases t <;> simp [Exp.plus] at hp
  | sub a b => intro ht s s' x hp h; subst ht; simp [Exp.plus] at hp
  | neg a => intro ht s s' x hp h; subst ht; simp [Exp.plus] at hp
  | re a => intro ht s s' x hp h; simp [Exp.plus] at hp
  | ofR a => intro ht; cases ht
  | smul a b => intro ht; cases ht
  | divr a b => intro ht; cases ht
  | conj a => intro ht; cases ht
  | v a args => intro ht; cases ht
  | call f args => intro ht; cases ht

omit [Scalar R] [HasPow R] [Cplx R C] in
theorem PlusIn.seti {K : List Nat} {l : Loc R C} (h : PlusIn N K l) (n : Nat) (x : Int) : PlusIn N K (l.seti n x) := h

omit [Scalar R] [HasPow R] [Cplx R C] in
theorem PlusIn.setSpins {K : List Nat} (ds : List (Nat × Nat × Nat)) : ∀ (xs : List (Int × Int)) {l : Loc R C}, PlusIn N K l → PlusIn N K (setSpins l ds xs) := by
  induction ds with
  | nil => intro xs l h; cases xs <;> exact h
  | cons d ds ih =>
    intro xs l h
    cases xs with
    | nil => exact h
    | cons x xs => exact ih xs ((h.seti _ _).seti _ _)

omit [Scalar R] [HasPow R] [Cplx R C] in
theorem loop_plus {n : Nat} {K : List Nat} {body : Loc R C → Prog σ (Flow R C)} (hb : ∀ l s y s', PlusIn N K l → body l s = (.ok y, s') → FlowPlus N K y) (xs : List Int) :
    ∀ l s y s', PlusIn N K l → loopRun n body xs l s = (.ok y, s') → FlowPlus N K y := by
  induction xs with
  | nil => intro l s y s' hl h; cases h; exact hl
  | cons x xs ih =>
    intro l s y s' hl h
    obtain ⟨f, s1, h1, h⟩ := bind_inv h
    have hf := hb _ _ _ _ (hl.seti n x) h1
    cases f with
    | next l' => exact ih _ _ _ _ hf h
    | ret t z => cases h; exact hf

omit [Scalar R] [HasPow R] [Cplx R C] in
theorem FlowPlus.mono {K K' : List Nat} (h : ∀ n ∈ K', n ∈ K) {f : Flow R C} (hf : FlowPlus N K f) : FlowPlus N K' f := by
  cases f with
  | next l => exact fun n hn => hf n (h n hn)
  | ret t x => cases t <;> exact hf

theorem exec_plus (hN : SignRules C N) (S : Sem R C σ) (b : Stmt) : ∀ {K K' : List Nat}, b.plus K = some K' → ∀ l s y s', PlusIn N K l → b.exec S l s = (.ok y, s') → FlowPlus N K' y := by
  induction b with
  | skip => intro K K' hp l s y s' hl h; cases hp; cases h; exact hl
  | seq a b iha ihb =>
    intro K K' hp l s y s' hl h
    obtain ⟨K1, h1, h2⟩ := Option.bind_eq_some_iff.mp hp
    obtain ⟨f, s1, e1, h⟩ := bind_inv h
    have hf := iha h1 _ _ _ _ hl e1
    cases f with
    | next l' => exact ihb h2 _ _ _ _ hf h
    | ret t z => cases h; cases t <;> exact hf
  | seti n e => intro K K' hp l s y s' hl h; cases hp; cases h; exact hl
  | set t n e =>
    intro K K' hp l s y s' hl h
    obtain ⟨x, s1, e1, h⟩ := bind_inv h
    cases h
    cases t with
    | c => cases hp; exact hl
    | r =>
      simp only [Stmt.plus, Option.some.injEq] at hp
      subst hp
      intro k hk
      show N (if k = n then x else l.r k)
      by_cases h2 : k = n
      · rw [if_pos h2]
        split_ifs at hk with h1
        · exact eval_plus hN S hl e rfl h1 e1
        · simp [h2] at hk
      · rw [if_neg h2]
        split_ifs at hk with h1
        · simp only [List.mem_cons, h2, false_or] at hk
          exact hl k hk
        · exact hl k (List.mem_of_mem_filter hk)
  | ite b a c iha ihc =>
    intro K K' hp l s y s' hl h
    obtain ⟨K1, h1, hp⟩ := Option.bind_eq_some_iff.mp hp
    obtain ⟨K2, h2, rfl⟩ := Option.map_eq_some_iff.mp hp
    unfold Stmt.exec at h
    split_ifs at h
    · exact (iha h1 _ _ _ _ hl h).mono fun n hn => List.mem_of_mem_filter hn
    · exact (ihc h2 _ _ _ _ hl h).mono fun n hn => by simpa using (List.mem_filter.mp hn).2
  | loop n lo incl hi step body ih =>
    intro K K' hp l s y s' hl h
    obtain ⟨K1, h1, hp⟩ := Option.bind_eq_some_iff.mp hp
    split_ifs at hp with hk
    cases hp
    refine loop_plus (fun l s y s' hl h => ?_) _ l s y s' hl h
    exact (ih h1 l s y s' hl h).mono fun n hn => by simpa using List.all_eq_true.mp hk n hn
  | spins ds i => intro K K' hp l s y s' hl h; cases hp; cases h; exact hl.setSpins _ _
  | ret t e =>
    intro K K' hp l s y s' hl h
    obtain ⟨x, s1, e1, h⟩ := bind_inv h
    cases h
    cases t with
    | c => trivial
    | r =>
      simp only [Stmt.plus] at hp
      split_ifs at hp with h1
      exact eval_plus hN S hl e rfl h1 e1
  | throw e => intro K K' hp l s y s' hl h; cases h

theorem run_plus (hN : SignRules C N) (S : Sem R C σ) (m : Method) (hm : (m.body.plus []).isSome = true) (junk : Loc R C) (args : List Int) {s s' : σ} {x : R} (h : m.run S junk .r args s = (.ok x, s')) : N x := by
  obtain ⟨K, hK⟩ := Option.isSome_iff_exists.mp hm
  unfold Method.run at h
  split_ifs at h
  · obtain ⟨f, s1, h1, h⟩ := bind_inv h
    have hf := exec_plus hN S m.body hK _ _ _ _ (fun n hn => by cases hn) h1
    cases f with
    | next l => cases h
    | ret t z =>
      cases t with
      | r => cases h; exact hf
      | c => cases h
  · cases h

theorem invoke_plus (hN : SignRules C N) {mr : Nat → R} {mc : Nat → C} {v : Nat → List Int → Prog σ C} (junk : Loc R C) (ms : List Method) : ∀ {k args} {s s' : σ} {x : R}, plusMethod ms k = true → invoke mr mc v junk .r ms k args s = (.ok x, s') → N x := by
  induction ms with
  | nil => intro k args s s' x hp; cases hp
  | cons m ms ih =>
    intro k args s s' x hp h
    unfold plusMethod at hp
    unfold invoke at h
    split_ifs at hp h
    · exact run_plus hN _ m hp junk args h
    · exact ih hp h

/-- In any state of the object. -/
theorem method_plus (hN : SignRules C N) {P : Proc} {k : Nat} (hp : plusMethod P.methods k = true) (l : Loc R C) (args : List Int) (o : Obj R C) {x : R} (h : (P.method l .r k args o).1 = .ok x) : N x :=
  invoke_plus hN (mr := o.r) (mc := o.c) (v := Proc.vcall) (args := args) (s := o.w) (s' := (P.method l .r k args o).2.w) l P.methods hp (Prod.ext h rfl)

end Spinas.SM
