import Verif.SM.Calls

/-! A call of a method stores the values of the products it uses: if it returns, a second call does not look at the particles. -/

namespace Spinas.SM
open Spec Props

section
variable {R C : Type} [Scalar R] [HasPow R] [Cplx R C] {α β : Type}

/-- `s'` is the product `s` with possibly more values stored. -/
structure Later (s s' : SProd C) : Prop where
  lm : s'.leftMassive = s.leftMassive
  rm : s'.rightMassive = s.rightMassive
  prod : ∀ j k x, s.prod j k = some x → s'.prod j k = some x

theorem Later.refl (s : SProd C) : Later s s := ⟨rfl, rfl, fun _ _ _ h => h⟩
theorem Later.trans {s s' s'' : SProd C} (h : Later s s') (h' : Later s' s'') : Later s s'' :=
  ⟨h'.lm.trans h.lm, h'.rm.trans h.rm, fun j k x hx => h'.prod j k x (h.prod j k x hx)⟩

/-- If the program returns a value, it returns this value again whatever happens to the particles. -/
def Memo (f : Prog (World R C) α) : Prop := ∀ w x w1, f w = (.ok x, w1) → (∀ a, Later (w.sp a) (w1.sp a)) ∧
  ∀ w2 : World R C, (∀ a, Later (w1.sp a) (w2.sp a)) → f w2 = (.ok x, w2)

omit [Scalar R] [HasPow R] [Cplx R C] in
theorem memo_pure (x : α) : Memo (pure x : Prog (World R C) α) := by
  intro w y w1 h
  cases h
  exact ⟨fun _ => .refl _, fun _ _ => rfl⟩
omit [Scalar R] [HasPow R] [Cplx R C] in
theorem memo_throw (e : Exc) : Memo (Prog.throw e : Prog (World R C) α) := by intro w y w1 h; cases h
omit [Scalar R] [HasPow R] [Cplx R C] in
theorem memo_crash : Memo (Prog.crash : Prog (World R C) α) := by intro w y w1 h; cases h

omit [Scalar R] [HasPow R] [Cplx R C] in
theorem memo_bind {f : Prog (World R C) α} {g : α → Prog (World R C) β} (hf : Memo f) (hg : ∀ a, Memo (g a)) : Memo (f >>= g) := by
  intro w y w1 h
  rw [Prog.bind_run] at h
  rcases e : f w with ⟨r, t⟩
  rw [e] at h
  cases r with
  | ok a =>
    obtain ⟨h1, h2⟩ := hf w a t e
    obtain ⟨h3, h4⟩ := hg a t y w1 h
    refine ⟨fun b => (h1 b).trans (h3 b), fun w2 h5 => ?_⟩
    rw [Prog.bind_ok (h2 w2 fun b => (h3 b).trans (h5 b))]
    exact h4 w2 h5
  | throw e => cases h
  | crash => cases h

omit [HasPow R] in
/-- an entry that is not stored is computed and stored -/
theorem memo_entry {a : Nat} {d : SPDef} {M : CMat C} {jL jR : Bool} {lft rgt : Prog (Particle R C) (CVec C)} {w w1 : World R C} {x : C} (hn : (w.sp a).prod jL jR = none)
    (h : SProd.evalEntry a d M jL jR lft rgt w = (.ok x, w1)) : (∀ b, Later (w.sp b) (w1.sp b)) ∧ (w1.sp a).prod jL jR = some x := by
  unfold SProd.evalEntry at h
  rw [Prog.bind_run] at h
  rcases e1 : onPart d.left lft w with ⟨r1, t1⟩
  have s1 : t1.sp = w.sp := by have : t1 = (onPart d.left lft w).2 := by rw [e1]
                               rw [this]; rfl
  rw [e1] at h
  cases r1 with
  | throw e => cases h
  | crash => cases h
  | ok vl =>
    dsimp only at h
    rw [Prog.bind_run] at h
    rcases e2 : onPart d.right rgt t1 with ⟨r2, t2⟩
    have s2 : t2.sp = t1.sp := by have : t2 = (onPart d.right rgt t1).2 := by rw [e2]
                                  rw [this]; rfl
    rw [e2] at h
    cases r2 with
    | throw e => cases h
    | crash => cases h
    | ok vr =>
      cases h
      have s3 : t2.sp = w.sp := s2.trans s1
      refine ⟨fun b => ?_, ?_⟩
      · by_cases hb : b = a
        · subst hb
          simp only [World.setSp, if_true, s3]
          refine ⟨rfl, rfl, fun j k y hy => ?_⟩
          dsimp only
          split_ifs with hjk
          · obtain ⟨rfl, rfl⟩ := hjk
            rw [hn] at hy; cases hy
          · exact hy
        · simp only [World.setSp, if_neg hb, s3]
          exact .refl _
      · simp [World.setSp]

omit [HasPow R] in
theorem memo_vcall (a : Nat) (args : List Int) : Memo (Proc.vcall (R := R) (C := C) a args) := by
  have stored : ∀ {w w1 : World R C} {x y : C} {jL jR : Bool}, (w.sp a).prod jL jR = some y → ((.ok y, w) : Res C × World R C) = (.ok x, w1) →
      (∀ b, Later (w.sp b) (w1.sp b)) ∧ (w1.sp a).prod jL jR = some x := by
    intro w w1 x y jL jR hy h
    cases h
    exact ⟨fun _ => .refl _, hy⟩
  rcases args with _ | ⟨j, _ | ⟨k, _ | ⟨l, ls⟩⟩⟩
  · intro w x w1 h
    simp only [Proc.vcall, SProd.v0] at h ⊢
    split_ifs at h with hm
    · cases h
    have key : (∀ b, Later (w.sp b) (w1.sp b)) ∧ (w1.sp a).prod false false = some x := by
      revert h
      split
      · rename_i hy; exact stored hy
      · intro h; cases h
      · rename_i hn _; first | exact memo_entry hn | exact memo_entry ‹_›
    refine ⟨key.1, fun w2 h2 => ?_⟩
    rw [(h2 a).lm, (key.1 a).lm, (h2 a).rm, (key.1 a).rm, if_neg hm, (h2 a).prod _ _ _ key.2]
  · intro w x w1 h
    simp only [Proc.vcall, SProd.v1] at h ⊢
    cases hl : (w.sp a).leftMassive <;> cases hr : (w.sp a).rightMassive <;> simp only [hl, hr, if_true, if_false, Bool.false_eq_true] at h
    · cases h
    · have key : (∀ b, Later (w.sp b) (w1.sp b)) ∧ (w1.sp a).prod false (decide (j > 0)) = some x := by
        revert h
        split
        · rename_i hy; exact stored hy
        · intro h; cases h
        · rename_i hn _; first | exact memo_entry hn | exact memo_entry ‹_›
      refine ⟨key.1, fun w2 h2 => ?_⟩
      simp only [(h2 a).lm, (key.1 a).lm, (h2 a).rm, (key.1 a).rm, hl, hr, (h2 a).prod _ _ _ key.2, if_true, if_false, Bool.false_eq_true]
    · have key : (∀ b, Later (w.sp b) (w1.sp b)) ∧ (w1.sp a).prod (decide (j > 0)) false = some x := by
        revert h
        split
        · rename_i hy; exact stored hy
        · intro h; cases h
        · rename_i hn _; first | exact memo_entry hn | exact memo_entry ‹_›
      refine ⟨key.1, fun w2 h2 => ?_⟩
      simp only [(h2 a).lm, (key.1 a).lm, (h2 a).rm, (key.1 a).rm, hl, hr, (h2 a).prod _ _ _ key.2, if_true, if_false, Bool.false_eq_true]
    · cases h
  · intro w x w1 h
    simp only [Proc.vcall, SProd.v2] at h ⊢
    split_ifs at h with hm
    · cases h
    have key : (∀ b, Later (w.sp b) (w1.sp b)) ∧ (w1.sp a).prod (decide (j > 0)) (decide (k > 0)) = some x := by
      revert h
      split
      · rename_i hy; exact stored hy
      · intro h; cases h
      · rename_i hn _; first | exact memo_entry hn | exact memo_entry ‹_›
    refine ⟨key.1, fun w2 h2 => ?_⟩
    rw [(h2 a).lm, (key.1 a).lm, (h2 a).rm, (key.1 a).rm, if_neg hm, (h2 a).prod _ _ _ key.2]
  · exact memo_crash

omit [HasPow R] in
theorem entry_later {a : Nat} {d : SPDef} {M : CMat C} {jL jR : Bool} {lft rgt : Prog (Particle R C) (CVec C)} {w : World R C} (hn : (w.sp a).prod jL jR = none) (b : Nat) :
    Later (w.sp b) ((SProd.evalEntry a d M jL jR lft rgt w).2.sp b) := by
  rcases e : SProd.evalEntry a d M jL jR lft rgt w with ⟨r, w1⟩
  cases r with
  | ok x => exact (memo_entry hn e).1 b
  | _ =>
    have : w1.sp = w.sp := by
      unfold SProd.evalEntry at e
      rw [Prog.bind_run] at e
      rcases e1 : onPart d.left lft w with ⟨r1, t1⟩
      have s1 : t1.sp = w.sp := by have : t1 = (onPart d.left lft w).2 := by rw [e1]
                                   rw [this]; rfl
      rw [e1] at e
      cases r1 with
      | throw _ => cases e <;> exact s1
      | crash => cases e <;> exact s1
      | ok vl =>
        dsimp only at e
        rw [Prog.bind_run] at e
        rcases e2 : onPart d.right rgt t1 with ⟨r2, t2⟩
        have s2 : t2.sp = t1.sp := by have : t2 = (onPart d.right rgt t1).2 := by rw [e2]
                                      rw [this]; rfl
        rw [e2] at e
        cases r2 <;> cases e <;> exact s2.trans s1
    dsimp only
    rw [this]
    exact .refl _

omit [HasPow R] in
/-- stored values are kept, also if the call fails -/
theorem vcall_later (a : Nat) (args : List Int) (w : World R C) (b : Nat) : Later (w.sp b) ((Proc.vcall (R := R) (C := C) a args w).2.sp b) := by
  rcases args with _ | ⟨j, _ | ⟨k, _ | ⟨l, ls⟩⟩⟩
  · simp only [Proc.vcall, SProd.v0]
    split_ifs
    · exact .refl _
    · split
      · exact .refl _
      · exact .refl _
      · rename_i hn _; first | exact entry_later hn b | exact entry_later ‹_› b
  · simp only [Proc.vcall, SProd.v1]
    split_ifs
    · exact .refl _
    · split
      · exact .refl _
      · exact .refl _
      · rename_i hn _; first | exact entry_later hn b | exact entry_later ‹_› b
    · split
      · exact .refl _
      · exact .refl _
      · rename_i hn _; first | exact entry_later hn b | exact entry_later ‹_› b
    · exact .refl _
  · simp only [Proc.vcall, SProd.v2]
    split_ifs
    · exact .refl _
    · split
      · exact .refl _
      · exact .refl _
      · rename_i hn _; first | exact entry_later hn b | exact entry_later ‹_› b
  · exact .refl _

/-- calls of methods keep stored values and members -/
theorem method_later (P : Proc) (l : Loc R C) (t : Ty) (k : Nat) (args : List Int) (o : Obj R C) :
    (P.method l t k args o).2.r = o.r ∧ (P.method l t k args o).2.c = o.c ∧ ∀ a, Later (o.w.sp a) ((P.method l t k args o).2.w.sp a) :=
  ⟨rfl, rfl, keeps_invoke (I := fun w : World R C => ∀ a, Later (o.w.sp a) (w.sp a)) (fun b args w hw a => (hw a).trans (vcall_later b args w a)) l t P.methods k args o.w fun _ => .refl _⟩

/-! ### methods -/

theorem memo_eval {S : Sem R C (World R C)} (hv : ∀ a args, Memo (S.v a args)) (hf : ∀ k args, Memo (S.f k args)) (l : Loc R C) {t : Ty} (e : Exp t) : Memo (e.eval S l) := by
  have two : ∀ {α β γ : Type} {p : Prog (World R C) α} {q : Prog (World R C) β} {f : α → β → γ}, Memo p → Memo q → Memo (do let x ← p; let y ← q; pure (f x y)) :=
    fun hp hq => memo_bind hp fun _ => memo_bind hq fun _ => memo_pure _
  have one : ∀ {α γ : Type} {p : Prog (World R C) α} {f : α → γ}, Memo p → Memo (do let x ← p; pure (f x)) := fun hp => memo_bind hp fun _ => memo_pure _
  induction e with
  | lit n => exact memo_pure _
  | dec m k => exact memo_pure _
  | mem t n => exact memo_pure _
  | loc t n => exact memo_pure _
  | norm ds => exact memo_pure _
  | v a args => exact hv _ _
  | call f args => exact hf _ _
  | add a b iha ihb => exact two iha ihb
  | sub a b iha ihb => exact two iha ihb
  | mul a b iha ihb => exact two iha ihb
  | div a b iha ihb => exact two iha ihb
  | smul a b iha ihb => exact two iha ihb
  | divr a b iha ihb => exact two iha ihb
  | neg a iha => exact one iha
  | ofR a iha => exact one iha
  | sqrt a iha => exact one iha
  | pow a k iha => exact one iha
  | abs a iha => exact one iha
  | re a iha => exact one iha
  | conj a iha => exact one iha

theorem memo_loop (n : Nat) {body : Loc R C → Prog (World R C) (Flow R C)} (hb : ∀ l, Memo (body l)) : ∀ (xs : List Int) (l : Loc R C), Memo (loopRun n body xs l)
  | [], l => memo_pure _
  | x :: xs, l => by
    refine memo_bind (hb _) fun f => ?_
    cases f with
    | next l' => exact memo_loop n hb xs l'
    | ret t y => exact memo_pure _

theorem memo_exec {S : Sem R C (World R C)} (hv : ∀ a args, Memo (S.v a args)) (hf : ∀ k args, Memo (S.f k args)) (s : Stmt) : ∀ l : Loc R C, Memo (s.exec S l) := by
  induction s with
  | skip => exact fun l => memo_pure _
  | seq a b iha ihb =>
    intro l
    refine memo_bind (iha l) fun f => ?_
    cases f with
    | next l' => exact ihb l'
    | ret t x => exact memo_pure _
  | seti n e => exact fun l => memo_pure _
  | set t n e => exact fun l => memo_bind (memo_eval hv hf l e) fun _ => memo_pure _
  | ite b s t ihs iht =>
    intro l
    simp only [Stmt.exec]
    split_ifs
    · exact ihs l
    · exact iht l
  | loop n lo incl hi step body ih => exact fun l => memo_loop n ih _ _
  | spins ds i => exact fun l => memo_pure _
  | ret t e => exact fun l => memo_bind (memo_eval hv hf l e) fun _ => memo_pure _
  | throw e => exact fun l => memo_throw e

theorem memo_run {S : Sem R C (World R C)} (hv : ∀ a args, Memo (S.v a args)) (hf : ∀ k args, Memo (S.f k args)) (m : Method) (junk : Loc R C) (t : Ty) (args : List Int) : Memo (m.run S junk t args) := by
  unfold Method.run
  split_ifs
  · refine memo_bind (memo_exec hv hf _ _) fun f => ?_
    cases f with
    | next l => exact memo_crash
    | ret t' x =>
      dsimp only
      split_ifs
      · exact memo_pure _
      · exact memo_crash
  · exact memo_crash

theorem memo_callable (mr : Nat → R) (mc : Nat → C) (junk : Loc R C) : ∀ (ms : List Method) (k : Nat) (args : List Int), Memo (callable mr mc Proc.vcall junk ms k args)
  | [], _, _ => memo_crash
  | m :: ms, k, args => by
    unfold callable
    split_ifs
    · exact memo_run memo_vcall (memo_callable mr mc junk ms) _ _ _ _
    · exact memo_callable mr mc junk ms k args

theorem memo_invoke (mr : Nat → R) (mc : Nat → C) (junk : Loc R C) (t : Ty) : ∀ (ms : List Method) (k : Nat) (args : List Int), Memo (invoke mr mc Proc.vcall junk t ms k args)
  | [], _, _ => memo_crash
  | m :: ms, k, args => by
    unfold invoke
    split_ifs
    · exact memo_run memo_vcall (memo_callable mr mc junk ms) _ _ _ _
    · exact memo_invoke mr mc junk t ms k args

/-- A call that returned returns the same again, whatever has happened to the particles; and changes nothing. -/
theorem method_again (P : Proc) (l : Loc R C) (t : Ty) (k : Nat) (args : List Int) {o o1 o2 : Obj R C} {x : t.den R C} (h : P.method l t k args o = (.ok x, o1)) (hr : o2.r = o1.r) (hc : o2.c = o1.c)
    (hs : ∀ a, Later (o1.w.sp a) (o2.w.sp a)) : P.method l t k args o2 = (.ok x, o2) := by
  have hi := memo_invoke (R := R) (C := C) o.r o.c l t P.methods k args o.w x
  unfold Proc.method onWorld at h ⊢
  rcases e : invoke o.r o.c Proc.vcall l t P.methods k args o.w with ⟨r, w1⟩
  rw [e] at h
  dsimp only at h
  obtain ⟨rfl, rfl⟩ := Prod.mk.inj h
  have h2 := (hi w1 e).2 o2.w hs
  have hr' : o2.r = o.r := hr
  have hc' : o2.c = o.c := hc
  rw [hr', hc', h2]
  cases o2
  simp_all

/-- After `set_momenta` neither the outcome of a method nor the state it leaves depends on uninitialised locals. -/
theorem method_same {S : Sym} {par : Nat → R} {κ : Nat → Kin R C} {r c u : List Bool} {o : Obj R C} (h : Agree S par κ r c u o o) {P : Proc} {t : Ty} {k : Nat} {xs : List AI}
    (hc : absInvoke (fun n => r.getD n false) (fun n => c.getD n false) (okCalls false S u) true t P.methods k xs = true) {args : List Int} (ha : ArgsOk xs args) (junk junk' : Loc R C) :
    P.method junk t k args o = P.method junk' t k args o := by
  let Rel : World R C → World R C → Prop := fun w w' => w = w' ∧ ∀ a, u.getD a false = true → ∃ d, S.gsp a = some d ∧ Sym.okDef d = true ∧ Synced a d κ w
  have hv : ∀ a args, okCalls false S u a args.length = true → (∀ j ∈ args, IsSpin j) → RelProg Rel true Eq (Proc.vcall (R := R) (C := C) a args) (Proc.vcall a args) := by
    intro a args hok hspin
    simp only [okCalls, Bool.and_eq_true] at hok
    obtain ⟨hua, hok⟩ := hok
    have key : ∀ cc : VCall, cc.Valid → Proc.vcall (R := R) (C := C) a args = cc.run a → RelProg Rel true Eq (Proc.vcall (R := R) (C := C) a args) (Proc.vcall a args) := by
      intro cc hval hrun w w' hw
      obtain ⟨rfl, hw⟩ := hw
      obtain ⟨d, hd, hokd, s1⟩ := hw a hua
      obtain ⟨w1, e1, _, _, _⟩ := v_spec s1 cc hval
      rw [hrun]
      refine ⟨⟨rfl, fun b hb => ?_⟩, ?_⟩
      · obtain ⟨d', hd', hokd', t1⟩ := hw b hb
        exact ⟨d', hd', hokd', synced_v t1 a cc⟩
      · rw [e1]
        dsimp only
        have hcr : outcome κ d cc ≠ .crash := by
          cases cc <;> simp only [outcome] <;> split <;> simp
        cases hx : outcome κ d cc with
        | ok x => rfl
        | throw e => exact ⟨rfl, rfl⟩
        | crash => exact absurd hx hcr
    rcases args with _ | ⟨j, _ | ⟨k, _ | ⟨l, ls⟩⟩⟩
    · exact key .v0 trivial rfl
    · exact key (.v1 j) (hspin j (by simp)) rfl
    · exact key (.v2 j k) ⟨hspin j (by simp), hspin k (by simp)⟩ rfl
    · exfalso
      split at hok <;> simp at hok
  have main := invoke_sound (Rel := Rel) h.r h.c hv junk junk' t P.methods k xs args hc ha o.w o.w
    ⟨rfl, fun a ha => let ⟨d, h1, h2, _⟩ := h.u a ha; ⟨d, h1, (h.inv.sp a d h1).2, h2⟩⟩
  have hst := main.1.1
  have hm := main.2
  unfold Proc.method onWorld
  revert hm hst
  rcases invoke o.r o.c Proc.vcall junk t P.methods k args o.w with ⟨r1, w1⟩
  rcases invoke o.r o.c Proc.vcall junk' t P.methods k args o.w with ⟨r2, w2⟩
  intro hst hm
  dsimp only at hst hm ⊢
  subst hst
  cases r1 <;> cases r2 <;> simp_all

end
end Spinas.SM
