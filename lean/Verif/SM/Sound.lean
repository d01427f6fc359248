import Verif.SM.Check
import Verif.SProductLemmas

/-! Soundness of the checks on methods: two runs that start from states and members related as the check assumes have the same
outcome and end in related states. -/

namespace Spinas.SM
open Spec

variable {R C σ₁ σ₂ : Type}

/-! ### related outcomes -/

/-- Same exception, or results related by `Q`; the states are related. -/
def RelRes (Rel : σ₁ → σ₂ → Prop) (exc : Bool) {α β : Type} (Q : α → β → Prop) (x : Res α × σ₁) (y : Res β × σ₂) : Prop :=
  Rel x.2 y.2 ∧ match x.1, y.1 with
    | .ok a, .ok b => Q a b
    | .throw e, .throw e' => exc = true ∧ e = e'
    | _, _ => False

/-- Programs with related outcomes from related states. -/
def RelProg (Rel : σ₁ → σ₂ → Prop) (exc : Bool) {α β : Type} (Q : α → β → Prop) (p : Prog σ₁ α) (p' : Prog σ₂ β) : Prop :=
  ∀ s s', Rel s s' → RelRes Rel exc Q (p s) (p' s')

section
variable {Rel : σ₁ → σ₂ → Prop} {exc : Bool} {α β γ δ : Type}

theorem relPure {Q : α → β → Prop} {a : α} {b : β} (h : Q a b) : RelProg Rel exc Q (pure a) (pure b) := fun _ _ hs => ⟨hs, h⟩

theorem relBind {Q : α → β → Prop} {Q' : γ → δ → Prop} {p : Prog σ₁ α} {p' : Prog σ₂ β} {f : α → Prog σ₁ γ} {f' : β → Prog σ₂ δ}
    (h : RelProg Rel exc Q p p') (hf : ∀ a b, Q a b → RelProg Rel exc Q' (f a) (f' b)) : RelProg Rel exc Q' (p >>= f) (p' >>= f') := by
  intro s s' hs
  have h1 := h s s' hs
  rw [Prog.bind_run, Prog.bind_run]
  revert h1
  rcases p s with ⟨r, t⟩
  rcases p' s' with ⟨r', t'⟩
  cases r <;> cases r' <;> intro h1 <;> first | exact (h1.2).elim | skip
  · exact hf _ _ h1.2 _ _ h1.1
  · exact h1

theorem relThrow {Q : α → β → Prop} (e : Exc) (h : exc = true) : RelProg Rel exc Q (Prog.throw e) (Prog.throw e) := fun _ _ hs => ⟨hs, h, rfl⟩
end

/-! ### integers -/

def AI.holds : AI → Int → Prop
  | .unset, _ => True
  | .any, _ => True
  | .spin, i => IsSpin i
  | .known j, i => i = j

theorem AI.le_holds {x y : AI} (h : x.le y = true) {i : Int} (hy : y.holds i) : x.holds i := by
  cases x <;> cases y <;> simp_all [AI.le, AI.holds, IsSpin]

theorem AI.le_set {x y : AI} (h : x.le y = true) (hx : x ≠ .unset) : y ≠ .unset := by
  cases x <;> cases y <;> simp_all [AI.le]

theorem AI.meet_le_left (x y : AI) : (x.meet y).le x = true := by
  unfold AI.meet
  split_ifs with h1 h2 h3
  · cases x <;> simp [AI.le]
  · exact h2
  · exact (Bool.and_eq_true _ _ ▸ h3).1
  · rfl

theorem AI.meet_le_right (x y : AI) : (x.meet y).le y = true := by
  unfold AI.meet
  split_ifs with h1 h2 h3
  · exact h1
  · cases y <;> simp [AI.le]
  · exact (Bool.and_eq_true _ _ ▸ h3).2
  · rfl

/-- The two sets of local variables agree on what is assigned, and the integers are as described. -/
structure Matches (E : AEnv) (l l' : Loc R C) : Prop where
  i : ∀ n, E.gi n ≠ .unset → l.i n = l'.i n ∧ (E.gi n).holds (l.i n)
  v : ∀ t n, E.g t n = true → l.get t n = l'.get t n

theorem gi_seti (E : AEnv) (n : Nat) (x : AI) (k : Nat) : (E.seti n x).gi k = if k = n then x else E.gi k := getD_upd _ _ _ _ _
theorem g_seti (E : AEnv) (n : Nat) (x : AI) (t : Ty) (k : Nat) : (E.seti n x).g t k = E.g t k := by cases t <;> rfl
theorem gi_set (E : AEnv) (t : Ty) (n k : Nat) : (E.set t n).gi k = E.gi k := by cases t <;> rfl
theorem g_set (E : AEnv) (t : Ty) (n : Nat) (t' : Ty) (k : Nat) : (E.set t n).g t' k = if t' = t ∧ k = n then true else E.g t' k := by
  cases t <;> cases t' <;> first | exact (getD_upd _ _ _ _ _).trans (by simp [AEnv.g]) | simp [AEnv.g, AEnv.set]

theorem get_seti (l : Loc R C) (n : Nat) (x : Int) (t : Ty) (k : Nat) : (l.seti n x).get t k = l.get t k := by cases t <;> rfl
theorem i_set (l : Loc R C) (t : Ty) (n : Nat) (x : t.den R C) : (l.set t n x).i = l.i := by cases t <;> rfl
theorem get_set_same (l : Loc R C) (t : Ty) (n : Nat) (x : t.den R C) : (l.set t n x).get t n = x := by cases t <;> simp [Loc.get, Loc.set]
theorem get_set_ne (l : Loc R C) (t : Ty) (n : Nat) (x : t.den R C) (t' : Ty) (k : Nat) (h : ¬ (t' = t ∧ k = n)) :
    (l.set t n x).get t' k = l.get t' k := by
  cases t <;> cases t' <;> simp_all [Loc.get, Loc.set]

theorem Matches.seti {E : AEnv} {l l' : Loc R C} (h : Matches E l l') (n : Nat) {x : AI} {j : Int} (hx : x.holds j) :
    Matches (E.seti n x) (l.seti n j) (l'.seti n j) where
  i k hk := by
    rw [gi_seti] at hk ⊢
    by_cases e : k = n
    · simpa [e, Loc.seti] using hx
    · simp only [e, if_false] at hk ⊢; simpa [Loc.seti, e] using h.i k hk
  v t k hk := by rw [g_seti] at hk; rw [get_seti, get_seti]; exact h.v t k hk

theorem Matches.set {E : AEnv} {l l' : Loc R C} (h : Matches E l l') (t : Ty) (n : Nat) (x : t.den R C) :
    Matches (E.set t n) (l.set t n x) (l'.set t n x) where
  i k hk := by rw [gi_set] at hk ⊢; rw [i_set, i_set]; exact h.i k hk
  v t' k hk := by
    by_cases e : t' = t ∧ k = n
    · obtain ⟨rfl, rfl⟩ := e; rw [get_set_same, get_set_same]
    · rw [g_set, if_neg e] at hk; rw [get_set_ne _ _ _ _ _ _ e, get_set_ne _ _ _ _ _ _ e]; exact h.v t' k hk

theorem Matches.mono {E F : AEnv} {l l' : Loc R C} (h : Matches F l l') (hi : ∀ n, (E.gi n).le (F.gi n) = true)
    (hg : ∀ t n, E.g t n = true → F.g t n = true) : Matches E l l' :=
  ⟨fun n hn => ⟨(h.i n (AI.le_set (hi n) hn)).1, AI.le_holds (hi n) (h.i n (AI.le_set (hi n) hn)).2⟩, fun t n hn => h.v t n (hg t n hn)⟩

theorem getD_of_le {α : Type} {l : List α} {n : Nat} {d : α} (h : l.length ≤ n) : l.getD n d = d := by simp [List.getD, h]

theorem le_spec {E F : AEnv} (h : E.le F = true) : (∀ n, (E.gi n).le (F.gi n) = true) ∧ ∀ t n, E.g t n = true → F.g t n = true := by
  simp only [AEnv.le, Bool.and_eq_true, List.all_eq_true, List.mem_range, Bool.or_eq_true, Bool.not_eq_true'] at h
  obtain ⟨⟨h1, h2⟩, h3⟩ := h
  refine ⟨fun n => ?_, fun t n hn => ?_⟩
  · by_cases hn : n < E.i.length
    · exact h1 n hn
    · rw [show E.gi n = .unset from getD_of_le (by omega)]; rfl
  · cases t with
    | r =>
      by_cases hl : n < E.r.length
      · exact (h2 n hl).resolve_left (by simp [hn])
      · rw [show E.g .r n = false from getD_of_le (by omega)] at hn; cases hn
    | c =>
      by_cases hl : n < E.c.length
      · exact (h3 n hl).resolve_left (by simp [hn])
      · rw [show E.g .c n = false from getD_of_le (by omega)] at hn; cases hn

theorem getD_range_map {α : Type} (f : Nat → α) (d : α) (m n : Nat) : ((List.range m).map f).getD n d = if n < m then f n else d := by
  by_cases h : n < m <;> simp [List.getD, h]

theorem meet_spec (E F : AEnv) : (∀ n, ((E.meet F).gi n).le (E.gi n) = true ∧ ((E.meet F).gi n).le (F.gi n) = true) ∧
    ∀ t n, (E.meet F).g t n = true → E.g t n = true ∧ F.g t n = true := by
  refine ⟨fun n => ?_, fun t n h => ?_⟩
  · have : (E.meet F).gi n = if n < E.i.length then (E.gi n).meet (F.gi n) else .unset := getD_range_map _ _ _ _
    rw [this]; split_ifs
    · exact ⟨AI.meet_le_left _ _, AI.meet_le_right _ _⟩
    · exact ⟨rfl, rfl⟩
  · cases t with
    | r =>
      have : (E.meet F).g .r n = if n < E.r.length then E.g .r n && F.g .r n else false := getD_range_map _ _ _ _
      rw [this] at h; split_ifs at h; simpa using h
    | c =>
      have : (E.meet F).g .c n = if n < E.c.length then E.g .c n && F.g .c n else false := getD_range_map _ _ _ _
      rw [this] at h; split_ifs at h; simpa using h

theorem Matches.forget {l l' : Loc R C} (ns : List Nat) : ∀ {E : AEnv}, Matches E l l' → Matches (E.forget ns) l l' := by
  induction ns with
  | nil => exact fun h => h
  | cons n ns ih =>
    intro E h
    refine ih (h.mono (fun k => ?_) fun t k hk => by rw [g_seti] at hk; exact hk)
    rw [gi_seti]; split_ifs
    · rfl
    · cases E.gi k <;> simp [AI.le]

theorem iexp_sound {E : AEnv} {l l' : Loc R C} (h : Matches E l l') (e : IExp) :
    ∀ {x : AI}, e.abs E = some x → e.eval l.i = e.eval l'.i ∧ x.holds (e.eval l.i) ∧ x ≠ .unset := by
  induction e with
  | lit i => intro x hx; cases hx; exact ⟨rfl, rfl, by simp⟩
  | var n =>
    intro x hx
    simp only [IExp.abs] at hx
    have hn : E.gi n ≠ .unset := by intro hn; rw [hn] at hx; cases hx
    have : x = E.gi n := by cases hg : E.gi n <;> rw [hg] at hx <;> simp_all
    subst this
    exact ⟨(h.i n hn).1, (h.i n hn).2, hn⟩
  | mul a b iha ihb =>
    intro x hx
    simp only [IExp.abs] at hx
    cases ha : a.abs E with
    | none => rw [ha] at hx; cases b.abs E <;> cases hx
    | some y =>
      cases hb : b.abs E with
      | none => rw [ha, hb] at hx; cases y <;> cases hx
      | some z =>
        rw [ha, hb] at hx
        have h1 := iha ha; have h2 := ihb hb
        refine ⟨by simp only [IExp.eval]; rw [h1.1, h2.1], ?_⟩
        cases y <;> cases z <;> simp only [Option.some.injEq] at hx <;> subst hx <;> simp_all [AI.holds, IExp.eval]
  | loops ds =>
    intro x hx
    simp only [IExp.abs] at hx
    split_ifs at hx with hd
    cases hx
    have : ds.map l.i = ds.map l'.i := List.map_congr_left fun n hn =>
      (h.i n (AI.le_set (List.all_eq_true.mp hd n hn) (by simp))).1
    exact ⟨by simp only [IExp.eval, this], trivial, by simp⟩

theorem bexp_sound {E : AEnv} {l l' : Loc R C} (h : Matches E l l') (b : BExp) :
    ∀ {o : Option Bool}, b.abs E = some o → b.eval l.i = b.eval l'.i ∧ ∀ v, o = some v → b.eval l.i = v := by
  have atom : ∀ (a b : IExp) (f : Int → Int → Bool) (o : Option Bool),
      (match a.abs E, b.abs E with
        | some (.known i), some (.known j) => some (some (f i j))
        | some _, some _ => some none
        | _, _ => none) = some o →
      f (a.eval l.i) (b.eval l.i) = f (a.eval l'.i) (b.eval l'.i) ∧ ∀ v, o = some v → f (a.eval l.i) (b.eval l.i) = v := by
    intro a b f o ho
    cases ha : a.abs E with
    | none => rw [ha] at ho; cases b.abs E <;> cases ho
    | some y =>
      cases hb : b.abs E with
      | none => rw [ha, hb] at ho; cases y <;> cases ho
      | some z =>
        rw [ha, hb] at ho
        have h1 := iexp_sound h a ha; have h2 := iexp_sound h b hb
        refine ⟨by rw [h1.1, h2.1], fun v hv => ?_⟩
        subst hv
        cases y <;> cases z <;> simp only [Option.some.injEq, reduceCtorEq] at ho; rw [h1.2.1, h2.2.1]; exact ho
  induction b with
  | lt a b => intro o ho; exact atom a b (fun i j => decide (i < j)) o ho
  | eq a b => intro o ho; exact atom a b (fun i j => decide (i = j)) o ho
  | and a b iha ihb =>
    intro o ho
    simp only [BExp.abs] at ho
    cases ha : a.abs E with
    | none => rw [ha] at ho; cases b.abs E <;> simp at ho
    | some y =>
      cases hb : b.abs E with
      | none => rw [ha, hb] at ho; rcases y with _ | (_ | _) <;> simp at ho
      | some z =>
        have h1 := iha ha; have h2 := ihb hb
        rw [ha, hb] at ho
        refine ⟨by simp only [BExp.eval]; rw [h1.1, h2.1], fun v hv => ?_⟩
        subst hv
        simp only [BExp.eval]
        rcases y with _ | (_ | _) <;> rcases z with _ | (_ | _) <;> simp_all
  | or a b iha ihb =>
    intro o ho
    simp only [BExp.abs] at ho
    cases ha : a.abs E with
    | none => rw [ha] at ho; cases b.abs E <;> simp at ho
    | some y =>
      cases hb : b.abs E with
      | none => rw [ha, hb] at ho; rcases y with _ | (_ | _) <;> simp at ho
      | some z =>
        have h1 := iha ha; have h2 := ihb hb
        rw [ha, hb] at ho
        refine ⟨by simp only [BExp.eval]; rw [h1.1, h2.1], fun v hv => ?_⟩
        subst hv
        simp only [BExp.eval]
        rcases y with _ | (_ | _) <;> rcases z with _ | (_ | _) <;> simp_all

/-- Arguments as described. -/
def ArgsOk (xs : List AI) (args : List Int) : Prop := List.Forall₂ (fun x j => x ≠ .unset ∧ x.holds j) xs args

theorem args_sound {E : AEnv} {l l' : Loc R C} (h : Matches E l l') (es : List IExp) :
    ∀ {xs : List AI}, absArgs E es = some xs → es.map (·.eval l.i) = es.map (·.eval l'.i) ∧ ArgsOk xs (es.map (·.eval l.i)) := by
  induction es with
  | nil => intro xs hx; cases hx; exact ⟨rfl, .nil⟩
  | cons e es ih =>
    intro xs hx
    simp only [absArgs] at hx
    cases ha : e.abs E with
    | none => rw [ha] at hx; simp at hx
    | some y =>
      cases hb : absArgs E es with
      | none => rw [ha, hb] at hx; simp at hx
      | some ys =>
        rw [ha, hb] at hx
        cases hx
        have h1 := iexp_sound h e ha; have h2 := ih hb
        exact ⟨by simp only [List.map_cons]; rw [h1.1, h2.1], .cons ⟨h1.2.2, h1.2.1⟩ h2.2⟩

theorem spinArgs_sound {E : AEnv} {l l' : Loc R C} (h : Matches E l l') (es : List IExp) (hs : es.all (spinArg E) = true) :
    es.map (·.eval l.i) = es.map (·.eval l'.i) ∧ ∀ j ∈ es.map (·.eval l.i), IsSpin j := by
  have key : ∀ e ∈ es, e.eval l.i = e.eval l'.i ∧ IsSpin (e.eval l.i) := by
    intro e he
    have := List.all_eq_true.mp hs e he
    unfold spinArg at this
    split at this
    · rename_i x hx
      have h1 := iexp_sound h e hx
      exact ⟨h1.1, AI.le_holds (x := .spin) this h1.2.1⟩
    · cases this
  refine ⟨List.map_congr_left fun e he => (key e he).1, fun j hj => ?_⟩
  obtain ⟨e, he, rfl⟩ := List.mem_map.mp hj
  exact (key e he).2

/-! ### expressions -/

variable [Scalar R] [HasPow R] [Cplx R C]

/-- The two objects agree on what the check assumes. -/
structure CtxOk (Rel : σ₁ → σ₂ → Prop) (X : Ctx) (S : Sem R C σ₁) (S' : Sem R C σ₂) : Prop where
  mem : ∀ t n, X.m t n = true → S.mem t n = S'.mem t n
  v : ∀ a args, X.ar a args.length = true → (∀ j ∈ args, IsSpin j) → RelProg Rel X.exc Eq (S.v a args) (S'.v a args)
  f : ∀ k xs args, X.f k xs = true → ArgsOk xs args → RelProg Rel X.exc Eq (S.f k args) (S'.f k args)

variable {Rel : σ₁ → σ₂ → Prop} {X : Ctx} {S : Sem R C σ₁} {S' : Sem R C σ₂}

theorem exp_sound (hX : CtxOk Rel X S S') {E : AEnv} {l l' : Loc R C} (h : Matches E l l') {t : Ty} (e : Exp t) :
    e.check X E = true → RelProg Rel X.exc Eq (e.eval S l) (e.eval S' l') := by
  have bin : ∀ {α β γ : Type} {p : Prog σ₁ α} {p' : Prog σ₂ α} {q : Prog σ₁ β} {q' : Prog σ₂ β} (f : α → β → γ),
      RelProg Rel X.exc Eq p p' → RelProg Rel X.exc Eq q q' →
      RelProg Rel X.exc Eq (do let x ← p; let y ← q; pure (f x y)) (do let x ← p'; let y ← q'; pure (f x y)) := by
    intro α β γ p p' q q' f hp hq
    refine relBind hp fun a b hab => relBind hq fun c d hcd => relPure ?_
    rw [hab, hcd]
  have un : ∀ {α γ : Type} {p : Prog σ₁ α} {p' : Prog σ₂ α} (f : α → γ),
      RelProg Rel X.exc Eq p p' → RelProg Rel X.exc Eq (do let x ← p; pure (f x)) (do let x ← p'; pure (f x)) := by
    intro α γ p p' f hp
    refine relBind hp fun a b hab => relPure ?_
    rw [hab]
  induction e with
  | lit n => intro _; exact relPure rfl
  | dec m e => intro _; exact relPure rfl
  | mem t n => intro hc; exact relPure (hX.mem t n hc)
  | loc t n => intro hc; exact relPure (h.v t n hc)
  | add a b iha ihb => intro hc; simp only [Exp.check, Bool.and_eq_true] at hc; exact bin _ (iha hc.1) (ihb hc.2)
  | sub a b iha ihb => intro hc; simp only [Exp.check, Bool.and_eq_true] at hc; exact bin _ (iha hc.1) (ihb hc.2)
  | mul a b iha ihb => intro hc; simp only [Exp.check, Bool.and_eq_true] at hc; exact bin _ (iha hc.1) (ihb hc.2)
  | div a b iha ihb => intro hc; simp only [Exp.check, Bool.and_eq_true] at hc; exact bin _ (iha hc.1) (ihb hc.2)
  | neg a iha => intro hc; exact un _ (iha hc)
  | ofR a iha => intro hc; exact un _ (iha hc)
  | smul a b iha ihb => intro hc; simp only [Exp.check, Bool.and_eq_true] at hc; exact bin _ (iha hc.1) (ihb hc.2)
  | divr a b iha ihb => intro hc; simp only [Exp.check, Bool.and_eq_true] at hc; exact bin _ (iha hc.1) (ihb hc.2)
  | sqrt a iha => intro hc; exact un _ (iha hc)
  | pow a k iha => intro hc; exact un _ (iha hc)
  | abs a iha => intro hc; exact un _ (iha hc)
  | re a iha => intro hc; exact un _ (iha hc)
  | conj a iha => intro hc; exact un _ (iha hc)
  | norm ds =>
    intro hc
    have : ds.map l.i = ds.map l'.i := List.map_congr_left fun n hn =>
      (h.i n (AI.le_set (List.all_eq_true.mp hc n hn) (by simp))).1
    simp only [Exp.eval, this]
    exact relPure rfl
  | v a args =>
    intro hc
    simp only [Exp.check, Bool.and_eq_true] at hc
    have h1 := spinArgs_sound h args hc.2
    simp only [Exp.eval]
    rw [← h1.1]
    exact hX.v a _ (by simpa using hc.1) h1.2
  | call f args =>
    intro hc
    simp only [Exp.check] at hc
    split at hc
    · rename_i xs hx
      have h1 := args_sound h args hx
      simp only [Exp.eval]
      rw [← h1.1]
      exact hX.f f xs _ hc h1.2
    · cases hc

/-! ### statements -/

omit [HasPow R] [Cplx R C] [Scalar R] in
/-- How the ends of a statement are related: `r` is the result of the check. -/
def FlowRel (t0 : Ty) (r : Option AEnv) (f f' : Flow R C) : Prop :=
  (∃ E l l', r = some E ∧ f = .next l ∧ f' = .next l' ∧ Matches E l l') ∨ ∃ x : t0.den R C, f = .ret t0 x ∧ f' = .ret t0 x

theorem assignSpins_spec (arr : Nat → Int) (ds : List Int) : ∀ k, (Process.assignSpins arr ds k).length = ds.length ∧
    ∀ p ∈ Process.assignSpins arr ds k, IsSpin p.1 ∧ IsSpin p.2 := by
  induction ds with
  | nil => intro k; exact ⟨rfl, by simp [Process.assignSpins]⟩
  | cons d ds ih =>
    intro k
    unfold Process.assignSpins
    split_ifs <;> refine ⟨by simp [ih], fun p hp => ?_⟩ <;> rcases List.mem_cons.mp hp with rfl | hp <;>
      first
      | exact (ih _).2 p hp
      | simp [IsSpin]

omit [HasPow R] [Cplx R C] [Scalar R] in
theorem setSpins_matches (ds : List (Nat × Nat × Nat)) : ∀ {E : AEnv} {l l' : Loc R C} (xs : List (Int × Int)), xs.length = ds.length →
    (∀ p ∈ xs, IsSpin p.1 ∧ IsSpin p.2) → Matches E l l' → Matches (absSpins E ds) (setSpins l ds xs) (setSpins l' ds xs) := by
  induction ds with
  | nil => intro E l l' xs hl _ h; cases xs <;> simp_all [absSpins, setSpins]
  | cons d ds ih =>
    obtain ⟨_, a, b⟩ := d
    intro E l l' xs hl hs h
    cases xs with
    | nil => simp at hl
    | cons x xs =>
      obtain ⟨y, z⟩ := x
      have hx := hs (y, z) List.mem_cons_self
      exact ih xs (by simpa using hl) (fun p hp => hs p (List.mem_cons_of_mem _ hp))
        ((h.seti a (x := .spin) hx.1).seti b (x := .spin) hx.2)

theorem stmt_sound (hX : CtxOk Rel X S S') (t0 : Ty) (s : Stmt) : ∀ {E : AEnv} {l l' : Loc R C} {r : Option AEnv},
    s.check X t0 E = some r → Matches E l l' → RelProg Rel X.exc (FlowRel t0 r) (s.exec S l) (s.exec S' l') := by
  induction s with
  | skip => intro E l l' r hc h; cases hc; exact relPure (.inl ⟨E, l, l', rfl, rfl, rfl, h⟩)
  | seq a b iha ihb =>
    intro E l l' r hc h
    simp only [Stmt.check] at hc
    cases ha : a.check X t0 E with
    | none => rw [ha] at hc; cases hc
    | some ra =>
      refine relBind (iha ha h) fun f f' hf => ?_
      rcases hf with ⟨E', m, m', rfl, rfl, rfl, hm⟩ | ⟨x, rfl, rfl⟩
      · rw [ha] at hc; exact ihb hc hm
      · exact relPure (.inr ⟨x, rfl, rfl⟩)
  | seti n e =>
    intro E l l' r hc h
    simp only [Stmt.check] at hc
    cases he : e.abs E with
    | none => rw [he] at hc; cases hc
    | some x =>
      rw [he] at hc; cases hc
      have h1 := iexp_sound h e he
      refine relPure (.inl ⟨_, _, _, rfl, rfl, rfl, ?_⟩)
      rw [← h1.1]
      exact h.seti n h1.2.1
  | set t n e =>
    intro E l l' r hc h
    simp only [Stmt.check] at hc
    split_ifs at hc with he
    cases hc
    refine relBind (exp_sound hX h e he) fun x y hxy => ?_
    subst hxy
    exact relPure (.inl ⟨_, _, _, rfl, rfl, rfl, h.set t n x⟩)
  | ite b s t ihs iht =>
    intro E l l' r hc h
    simp only [Stmt.check] at hc
    simp only [Stmt.exec]
    cases hb : b.abs E with
    | none => rw [hb] at hc; cases hc
    | some o =>
      have h1 := bexp_sound h b hb
      rw [← h1.1]
      rw [hb] at hc
      cases o with
      | some v =>
        rw [h1.2 v rfl]
        cases v with
        | true => simpa using ihs hc h
        | false => simpa using iht hc h
      | none =>
        simp only at hc
        cases hs : s.check X t0 E with
        | none => rw [hs] at hc; simp at hc
        | some rs =>
          cases ht : t.check X t0 E with
          | none => rw [hs, ht] at hc; rcases rs with _ | _ <;> simp at hc
          | some rt =>
            rw [hs, ht] at hc
            have weak : ∀ {q : Option AEnv} {p : Prog σ₁ (Flow R C)} {p' : Prog σ₂ (Flow R C)},
                (∀ f f' : Flow R C, FlowRel t0 q f f' → FlowRel t0 r f f') → RelProg Rel X.exc (FlowRel t0 q) p p' → RelProg Rel X.exc (FlowRel t0 r) p p' := by
              intro q p p' hq hp u u' hu
              have := hp u u' hu
              refine ⟨this.1, ?_⟩
              have h2 := this.2
              revert h2
              cases (p u).1 <;> cases (p' u').1 <;> intro h2 <;> first | exact hq _ _ h2 | exact h2
            have sub : ∀ (q : Option AEnv), (∀ E1, q = some E1 → ∃ E2, r = some E2 ∧ (∀ l l' : Loc R C, Matches E1 l l' → Matches E2 l l')) →
                ∀ f f' : Flow R C, FlowRel t0 q f f' → FlowRel t0 r f f' := by
              intro q hq f f' hf
              rcases hf with ⟨E1, m, m', h1, hf, hf', hm⟩ | hf
              · obtain ⟨E2, e2, h2⟩ := hq E1 h1
                exact .inl ⟨E2, m, m', e2, hf, hf', h2 _ _ hm⟩
              · exact .inr hf
            have hr : (∀ E1, rs = some E1 → ∃ E2, r = some E2 ∧ (∀ l l' : Loc R C, Matches E1 l l' → Matches E2 l l')) ∧
                (∀ E1, rt = some E1 → ∃ E2, r = some E2 ∧ (∀ l l' : Loc R C, Matches E1 l l' → Matches E2 l l')) := by
              rcases rs with _ | E1 <;> rcases rt with _ | E2 <;> simp only [Option.some.injEq] at hc <;> subst hc
              · exact ⟨by simp, by simp⟩
              · exact ⟨by simp, fun F hF => ⟨F, hF, fun _ _ h => h⟩⟩
              · exact ⟨fun F hF => ⟨F, hF, fun _ _ h => h⟩, by simp⟩
              · have hm := meet_spec E1 E2
                refine ⟨fun F hF => ⟨_, rfl, fun m m' h => ?_⟩, fun F hF => ⟨_, rfl, fun m m' h => ?_⟩⟩ <;> cases hF
                · exact h.mono (fun n => (hm.1 n).1) (fun t n h => (hm.2 t n h).1)
                · exact h.mono (fun n => (hm.1 n).2) (fun t n h => (hm.2 t n h).2)
            split
            · exact weak (sub _ hr.1) (ihs hs h)
            · exact weak (sub _ hr.2) (iht ht h)
  | loop n lo incl hi step body ih =>
    intro E l l' r hc h
    simp only [Stmt.check] at hc
    simp only [Stmt.exec]
    cases hh : hi.abs E with
    | none => rw [hh] at hc; cases hc
    | some x =>
      have h1 := iexp_sound h hi hh
      rw [← h1.1]
      rw [hh] at hc
      simp only at hc
      generalize hE0 : E.forget (n :: body.assigned) = E0 at hc
      have hM0 : Matches E0 l l' := hE0 ▸ h.forget _
      -- the invariant rule
      have weak : ∀ (y : AI) (vals : List Int), (∀ v ∈ vals, y.holds v) →
          (match body.check X t0 (E0.seti n y) with
            | some (some E') => if E0.le E' = true then some (some E0) else none
            | some none => some (some E0)
            | none => none) = some r →
          ∀ m m' : Loc R C, Matches E0 m m' → RelProg Rel X.exc (FlowRel t0 r) (loopRun n (body.exec S) vals m) (loopRun n (body.exec S') vals m') := by
        intro y vals hv hw
        cases hb : body.check X t0 (E0.seti n y) with
        | none => rw [hb] at hw; cases hw
        | some rb =>
          rw [hb] at hw
          have hr : r = some E0 := by
            rcases rb with _ | E'
            · simp at hw; exact hw.symm
            · simp only at hw; split_ifs at hw; simp at hw; exact hw.symm
          induction vals with
          | nil => intro m m' hm; exact relPure (.inl ⟨E0, m, m', hr, rfl, rfl, hm⟩)
          | cons v vals ihv =>
            intro m m' hm
            refine relBind (ih hb (hm.seti n (hv v List.mem_cons_self))) fun f f' hf => ?_
            rcases hf with ⟨E', k, k', rfl, rfl, rfl, hk⟩ | ⟨z, rfl, rfl⟩
            · simp only at hw
              split_ifs at hw with hle
              exact ihv (fun u hu => hv u (List.mem_cons_of_mem _ hu)) k k' (hk.mono (le_spec hle).1 (le_spec hle).2)
            · exact relPure (.inr ⟨z, rfl, rfl⟩)
      have unroll : ∀ (vals : List Int) (E : AEnv) (m m' : Loc R C), absUnroll n (body.check X t0) vals E = some r → Matches E m m' →
          RelProg Rel X.exc (FlowRel t0 r) (loopRun n (body.exec S) vals m) (loopRun n (body.exec S') vals m') := by
        intro vals
        induction vals with
        | nil => intro E m m' hu hm; cases hu; exact relPure (.inl ⟨E, m, m', rfl, rfl, rfl, hm⟩)
        | cons v vals ihv =>
          intro E m m' hu hm
          simp only [absUnroll] at hu
          cases hb : body.check X t0 (E.seti n (.known v)) with
          | none => rw [hb] at hu; cases hu
          | some rb =>
            rw [hb] at hu
            refine relBind (ih hb (hm.seti n (x := .known v) rfl)) fun f f' hf => ?_
            rcases hf with ⟨E', k, k', rfl, rfl, rfl, hk⟩ | ⟨z, rfl, rfl⟩
            · exact ihv E' k k' hu hk
            · exact relPure (.inr ⟨z, rfl, rfl⟩)
      cases x with
      | unset => exact (h1.2.2 rfl).elim
      | spin => exact weak .any _ (fun _ _ => trivial) hc l l' hM0
      | any => exact weak .any _ (fun _ _ => trivial) hc l l' hM0
      | known j =>
        have hj : hi.eval l.i = j := h1.2.1
        rw [hj]
        simp only at hc
        split_ifs at hc with hsp hlen
        · refine weak .spin _ (fun v hv => ?_) hc l l' hM0
          have := List.all_eq_true.mp hsp v hv
          simpa [AI.holds, IsSpin] using this
        · exact unroll _ E l l' hc h
        · exact weak .any _ (fun _ _ => trivial) hc l l' hM0
  | spins ds i =>
    intro E l l' r hc h
    simp only [Stmt.check] at hc
    split_ifs at hc with hd
    cases hc
    simp only [Bool.and_eq_true, List.all_eq_true] at hd
    have hmap : ds.map (fun d => l.i d.1) = ds.map (fun d => l'.i d.1) := List.map_congr_left fun d hd' =>
      (h.i d.1 (AI.le_set (hd.1 d hd') (by simp))).1
    obtain ⟨x, hx⟩ := Option.isSome_iff_exists.mp hd.2
    have hi := (iexp_sound h i hx).1
    simp only [Stmt.exec]
    rw [← hmap, ← hi]
    have hs := assignSpins_spec (Process.counters (i.eval l.i) (ds.map fun d => l.i d.1) (fun _ => 0, 0, false)).1 (ds.map fun d => l.i d.1) 0
    exact relPure (.inl ⟨_, _, _, rfl, rfl, rfl, setSpins_matches ds _ (by rw [show Process.spinorSpins _ _ = _ from rfl]; unfold Process.spinorSpins; rw [hs.1]; simp) hs.2 h⟩)
  | ret t e =>
    intro E l l' r hc h
    simp only [Stmt.check] at hc
    split_ifs at hc with he
    obtain ⟨rfl, he⟩ := he
    refine relBind (exp_sound hX h e he) fun x y hxy => ?_
    subst hxy
    exact relPure (.inr ⟨x, rfl, rfl⟩)
  | throw e =>
    intro E l l' r hc h
    simp only [Stmt.check] at hc
    split_ifs at hc with he
    exact relThrow e he

/-! ### methods -/

theorem method_sound (hX : CtxOk Rel X S S') {m : Method} {t : Ty} {xs : List AI} (hc : m.check X t xs = true) {args : List Int}
    (ha : ArgsOk xs args) (junk junk' : Loc R C) : RelProg Rel X.exc Eq (m.run S junk t args) (m.run S' junk' t args) := by
  simp only [Method.check, Bool.and_eq_true, beq_iff_eq] at hc
  obtain ⟨⟨h1, h2⟩, h3⟩ := hc
  have hlen : args.length = m.arity := by rw [← h1]; exact (List.Forall₂.length_eq ha).symm
  unfold Method.run
  rw [if_pos hlen, if_pos hlen]
  have hM : Matches (AEnv.start xs) (enter junk args) (enter junk' args) := by
    refine ⟨fun n hn => ?_, fun t n hn => by cases t <;> simp [AEnv.start, AEnv.g] at hn⟩
    have hn' : n < xs.length := by
      by_contra hc; exact hn (getD_of_le (l := xs) (by omega))
    have hl := List.Forall₂.length_eq ha
    have hg := (List.forall₂_iff_get.mp ha).2 n hn' (by omega)
    have e1 : (AEnv.start xs).gi n = xs[n] := by simp [AEnv.gi, AEnv.start, List.getD, hn']
    have e2 : ∀ j : Loc R C, (enter j args).i n = args[n]'(by omega) := by
      intro j; simp [enter, List.getD, show n < args.length by omega]
    rw [e2, e2, e1]
    exact ⟨rfl, hg.2⟩
  cases hb : m.body.check X t (AEnv.start xs) with
  | none => rw [hb] at h3; cases h3
  | some r =>
    rw [hb] at h3
    have hr : r = none := by cases r <;> simp_all
    subst hr
    refine relBind (stmt_sound hX t m.body hb hM) fun f f' hf => ?_
    rcases hf with ⟨_, _, _, h, _⟩ | ⟨x, rfl, rfl⟩
    · cases h
    · simp only [dite_true]; exact relPure rfl

theorem callable_sound {mr mr' : Nat → R} {mc mc' : Nat → C} {v : Nat → List Int → Prog σ₁ C} {v' : Nat → List Int → Prog σ₂ C}
    {amr amc : Nat → Bool} {ar : Nat → Nat → Bool} {exc : Bool} (hr : ∀ n, amr n = true → mr n = mr' n) (hcm : ∀ n, amc n = true → mc n = mc' n)
    (hv : ∀ a args, ar a args.length = true → (∀ j ∈ args, IsSpin j) → RelProg Rel exc Eq (v a args) (v' a args)) (junk junk' : Loc R C)
    (ms : List Method) : ∀ k xs args, absCall amr amc ar exc ms k xs = true → ArgsOk xs args →
      RelProg Rel exc Eq (callable mr mc v junk ms k args) (callable mr' mc' v' junk' ms k args) := by
  induction ms with
  | nil => intro k xs args h; cases h
  | cons m ms ih =>
    intro k xs args h ha
    simp only [absCall] at h
    simp only [callable]
    split_ifs at h ⊢ with hk
    · refine method_sound (X := ⟨amr, amc, ar, absCall amr amc ar exc ms, exc⟩) ⟨?_, hv, ih⟩ h ha junk junk'
      intro t n hn; cases t
      · exact hr n hn
      · exact hcm n hn
    · exact ih k xs args h ha

/-- Two calls of a checked method have the same outcome. -/
theorem invoke_sound {mr mr' : Nat → R} {mc mc' : Nat → C} {v : Nat → List Int → Prog σ₁ C} {v' : Nat → List Int → Prog σ₂ C}
    {amr amc : Nat → Bool} {ar : Nat → Nat → Bool} {exc : Bool} (hr : ∀ n, amr n = true → mr n = mr' n) (hcm : ∀ n, amc n = true → mc n = mc' n)
    (hv : ∀ a args, ar a args.length = true → (∀ j ∈ args, IsSpin j) → RelProg Rel exc Eq (v a args) (v' a args)) (junk junk' : Loc R C)
    (t : Ty) (ms : List Method) : ∀ k xs args, absInvoke amr amc ar exc t ms k xs = true → ArgsOk xs args →
      RelProg Rel exc Eq (invoke mr mc v junk t ms k args) (invoke mr' mc' v' junk' t ms k args) := by
  induction ms with
  | nil => intro k xs args h; cases h
  | cons m ms ih =>
    intro k xs args h ha
    simp only [absInvoke] at h
    simp only [invoke]
    split_ifs at h ⊢ with hk
    · refine method_sound (X := ⟨amr, amc, ar, absCall amr amc ar exc ms, exc⟩) ⟨?_, hv, callable_sound hr hcm hv junk junk' ms⟩ h ha junk junk'
      intro t n hn; cases t
      · exact hr n hn
      · exact hcm n hn
    · exact ih k xs args h ha

end Spinas.SM
