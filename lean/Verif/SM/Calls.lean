import Verif.SM.Object

/-! The effect of `set_momenta` and of calls of amplitude methods on a process object. -/

namespace Spinas.SM
open Spec Props

variable {R C : Type} [Scalar R] [HasPow R] [Cplx R C]

/-! ### what a method call keeps -/

section keeps
variable {σ : Type}

/-- The program keeps `I` whatever its outcome. -/
def Keeps {α : Type} (I : σ → Prop) (p : Prog σ α) : Prop := ∀ s, I s → I (p s).2

variable {I : σ → Prop} {α β : Type}

theorem keeps_pure (a : α) : Keeps I (pure a : Prog σ α) := fun _ h => h

theorem keeps_bind {p : Prog σ α} {f : α → Prog σ β} (hp : Keeps I p) (hf : ∀ a, Keeps I (f a)) : Keeps I (p >>= f) := by
  intro s h
  have h1 := hp s h
  rw [Prog.bind_run]
  revert h1
  rcases p s with ⟨r, t⟩
  cases r with
  | ok a => exact fun h1 => hf a t h1
  | throw e => exact fun h1 => h1
  | crash => exact fun h1 => h1

theorem keeps_eval {S : Sem R C σ} (hv : ∀ a args, Keeps I (S.v a args)) (hf : ∀ k args, Keeps I (S.f k args)) (l : Loc R C) {t : Ty} (e : Exp t) :
    Keeps I (e.eval S l) := by
  induction e with
  | lit n => exact keeps_pure _
  | dec m k => exact keeps_pure _
  | mem t n => exact keeps_pure _
  | loc t n => exact keeps_pure _
  | add a b iha ihb => exact keeps_bind iha fun _ => keeps_bind ihb fun _ => keeps_pure _
  | sub a b iha ihb => exact keeps_bind iha fun _ => keeps_bind ihb fun _ => keeps_pure _
  | mul a b iha ihb => exact keeps_bind iha fun _ => keeps_bind ihb fun _ => keeps_pure _
  | div a b iha ihb => exact keeps_bind iha fun _ => keeps_bind ihb fun _ => keeps_pure _
  | neg a iha => exact keeps_bind iha fun _ => keeps_pure _
  | ofR a iha => exact keeps_bind iha fun _ => keeps_pure _
  | smul a b iha ihb => exact keeps_bind iha fun _ => keeps_bind ihb fun _ => keeps_pure _
  | divr a b iha ihb => exact keeps_bind iha fun _ => keeps_bind ihb fun _ => keeps_pure _
  | sqrt a iha => exact keeps_bind iha fun _ => keeps_pure _
  | pow a k iha => exact keeps_bind iha fun _ => keeps_pure _
  | abs a iha => exact keeps_bind iha fun _ => keeps_pure _
  | re a iha => exact keeps_bind iha fun _ => keeps_pure _
  | conj a iha => exact keeps_bind iha fun _ => keeps_pure _
  | norm ds => exact keeps_pure _
  | v a args => exact hv _ _
  | call f args => exact hf _ _

omit [Scalar R] [HasPow R] [Cplx R C] in
theorem keeps_loop {n : Nat} {body : Loc R C → Prog σ (Flow R C)} (hb : ∀ l, Keeps I (body l)) (xs : List Int) :
    ∀ l, Keeps I (loopRun n body xs l) := by
  induction xs with
  | nil => intro l; exact keeps_pure _
  | cons x xs ih =>
    intro l
    refine keeps_bind (hb _) fun f => ?_
    cases f with
    | next l' => exact ih l'
    | ret t y => exact keeps_pure _

theorem keeps_exec {S : Sem R C σ} (hv : ∀ a args, Keeps I (S.v a args)) (hf : ∀ k args, Keeps I (S.f k args)) (s : Stmt) :
    ∀ l, Keeps I (s.exec S l) := by
  induction s with
  | skip => intro l; exact keeps_pure _
  | seq a b iha ihb =>
    intro l
    refine keeps_bind (iha l) fun f => ?_
    cases f with
    | next l' => exact ihb l'
    | ret t y => exact keeps_pure _
  | seti n e => intro l; exact keeps_pure _
  | set t n e => intro l; exact keeps_bind (keeps_eval hv hf l e) fun _ => keeps_pure _
  | ite b s t ihs iht =>
    intro l
    simp only [Stmt.exec]
    split
    · exact ihs l
    · exact iht l
  | loop n lo incl hi step body ih => intro l; exact keeps_loop ih _ l
  | spins ds i => intro l; exact keeps_pure _
  | ret t e => intro l; exact keeps_bind (keeps_eval hv hf l e) fun _ => keeps_pure _
  | throw e => intro l s h; exact h

theorem keeps_method {S : Sem R C σ} (hv : ∀ a args, Keeps I (S.v a args)) (hf : ∀ k args, Keeps I (S.f k args)) (m : Method) (junk : Loc R C)
    (t : Ty) (args : List Int) : Keeps I (m.run S junk t args) := by
  unfold Method.run
  split
  · refine keeps_bind (keeps_exec hv hf m.body _) fun f => ?_
    cases f with
    | next l => exact fun s h => h
    | ret t' x =>
      dsimp only
      split
      · exact keeps_pure _
      · exact fun s h => h
  · exact fun s h => h

theorem keeps_callable {mr : Nat → R} {mc : Nat → C} {v : Nat → List Int → Prog σ C} (hv : ∀ a args, Keeps I (v a args)) (junk : Loc R C)
    (ms : List Method) : ∀ k args, Keeps I (callable mr mc v junk ms k args) := by
  induction ms with
  | nil => intro k args s h; exact h
  | cons m ms ih =>
    intro k args
    simp only [callable]
    split
    · exact keeps_method hv ih m junk _ args
    · exact ih k args

theorem keeps_invoke {mr : Nat → R} {mc : Nat → C} {v : Nat → List Int → Prog σ C} (hv : ∀ a args, Keeps I (v a args)) (junk : Loc R C) (t : Ty)
    (ms : List Method) : ∀ k args, Keeps I (invoke mr mc v junk t ms k args) := by
  induction ms with
  | nil => intro k args s h; exact h
  | cons m ms ih =>
    intro k args
    simp only [invoke]
    split
    · exact keeps_method hv (keeps_callable hv junk ms) m junk _ args
    · exact ih k args
end keeps

omit [HasPow R] in
theorem vcall_cases (a : Nat) (args : List Int) : (∃ c : VCall, Proc.vcall (R := R) (C := C) a args = c.run a) ∨ Proc.vcall (R := R) (C := C) a args = Prog.crash := by
  rcases args with _ | ⟨j, _ | ⟨k, _ | ⟨l, ls⟩⟩⟩
  · exact .inl ⟨.v0, rfl⟩
  · exact .inl ⟨.v1 j, rfl⟩
  · exact .inl ⟨.v2 j k, rfl⟩
  · exact .inr rfl

/-- A method call changes only caches. -/
theorem method_inv {S : Sym} {par : Nat → R} {o : Obj R C} (h : Inv S par o) (P : Proc) (junk : Loc R C) (t : Ty) (k : Nat) (args : List Int) :
    Inv S par (P.method junk t k args o).2 := by
  have key : Keeps (fun w : World R C => (∀ i, (w.part i).kin = (o.w.part i).kin) ∧ ∀ a, (w.sp a).desc = (o.w.sp a).desc)
      (invoke o.r o.c Proc.vcall junk t P.methods k args) := by
    refine keeps_invoke (fun a args w hw => ?_) junk t P.methods k args
    rcases vcall_cases (R := R) (C := C) a args with ⟨c, hc⟩ | hc <;> rw [hc]
    · have hf := frame_v (R := R) (C := C) a c w
      refine ⟨fun i => ((hf.1 i).kin).trans (hw.1 i), fun b => ?_⟩
      by_cases hb : b = a
      · subst hb; exact (desc_v b c w).trans (hw.2 b)
      · rw [hf.2 b hb]; exact hw.2 b
    · exact hw
  have hk := key o.w ⟨fun _ => rfl, fun _ => rfl⟩
  refine ⟨h.r, h.pm, h.pw, fun i e he => ?_, fun a d ha => ?_⟩
  · rw [← h.mass i e he]; simp only [Proc.method, onWorld, hk.1]
  · have := h.sp a d ha
    rw [← hk.2 a] at this
    exact this

/-- ... and keeps products up to date. -/
theorem method_synced {a : Nat} {d : SPDef} {κ : Nat → Kin R C} {o : Obj R C} (h : Synced a d κ o.w) (P : Proc) (junk : Loc R C) (t : Ty) (k : Nat)
    (args : List Int) : Synced a d κ (P.method junk t k args o).2.w := by
  have key : Keeps (fun w : World R C => Synced a d κ w) (invoke o.r o.c Proc.vcall junk t P.methods k args) := by
    refine keeps_invoke (fun b args w hw => ?_) junk t P.methods k args
    rcases vcall_cases (R := R) (C := C) b args with ⟨c, hc⟩ | hc <;> rw [hc]
    · exact synced_v hw b c
    · exact hw
  exact key o.w h

/-! ### `set_momenta` -/

/-- The settled kinematics of particle `i`. -/
def kins (k0 : Kin R C) (m : Nat → R) (q : Nat → V4 R) (i : Nat) : Kin R C := settle k0 (q i) (m i)

/-- Is the momentum accepted for the mass? -/
def accepts (C : Type) [Cplx R C] (k0 : Kin R C) (m : R) (p : V4 R) : Bool := !(Kin.withMags { k0 with m := m, p := p }).offShell

omit [HasPow R] in
theorem accepts_irrel (k0 k1 : Kin R C) (m : R) (p : V4 R) : accepts C k0 m p = accepts C k1 m p := by
  unfold accepts; rw [mags_congr (k := { k0 with m := m, p := p }) (k' := { k1 with m := m, p := p }) rfl rfl]

omit [HasPow R] in
/-- Accepted means that a particle can be constructed. -/
theorem accepts_iff (k0 junk : Kin R C) (m : R) (p : V4 R) : accepts C k0 m p = true ↔ (Particle.ctorPM junk p m).1 = .ok () := by
  unfold Particle.ctorPM
  rw [update_ok_iff, accepts_irrel k0 (Particle.rawKin junk)]
  simp [accepts, Particle.noCaches]

omit [HasPow R] in
theorem setMom_ok {k0 : Kin R C} {m : R} {p : V4 R} (h : accepts C k0 m p = true) {P : Particle R C} (hm : P.kin.m = m) :
    (Particle.setMomentum p P).1 = .ok () ∧ Fresh (Particle.setMomentum p P).2 ∧ (Particle.setMomentum p P).2.kin = settle k0 p m := by
  have h1 : (Particle.setMomentum p P).1 = .ok () := by
    unfold Particle.setMomentum
    rw [update_ok_iff, mags_congr (k := { P.kin with p := p }) (k' := { k0 with m := m, p := p }) rfl hm]
    simpa [accepts] using h
  refine ⟨h1, fresh_of_update h1, ?_⟩
  have h2 : (Particle.setMomentum p P).2.kin = _ := (update_ok_kin h1).1
  rw [h2]
  exact settle_congr (k' := { k0 with m := m, p := p }) rfl hm

omit [HasPow R] in
theorem setMom_throw {k0 : Kin R C} {m : R} {p : V4 R} (h : accepts C k0 m p = false) {P : Particle R C} (hm : P.kin.m = m) :
    (Particle.setMomentum p P).1 = .throw .massShell := by
  have h1 : (Kin.withMags { P.kin with p := p }).offShell = true := by
    rw [mags_congr (k := { P.kin with p := p }) (k' := { k0 with m := m, p := p }) rfl hm]
    simpa [accepts] using h
  unfold Particle.setMomentum Particle.update
  dsimp only
  rw [if_pos h1]

omit [HasPow R] in
theorem setMom_mass (p : V4 R) (P : Particle R C) : (Particle.setMomentum p P).2.kin.m = P.kin.m := (update_mom_mass _).1

/-- The outcome of the four `set_momentum` calls, as a list. -/
theorem momenta_sound {S : Sym} {par : Nat → R} (k0 : Kin R C) (junk : Kin R C) (par' : Nat → R) (q : Nat → V4 R) (m : Nat → R) (rest : List SInstr) (n : Nat) :
    ∀ (k : Nat) (o : Obj R C), Inv S par o → (∀ i, (o.w.part i).kin.m = m i) →
    (∀ i, i < k → Fresh (o.w.part i) ∧ (o.w.part i).kin = kins k0 m q i) →
    ∃ o', Inv S par o' ∧ (∀ i, (o'.w.part i).kin.m = m i) ∧ o'.r = o.r ∧ o'.c = o.c ∧ o'.pr = o.pr ∧
      (((∃ i, k ≤ i ∧ i < k + n ∧ accepts C k0 (m i) (q i) = false) ∧
        runSetup junk par' q (((List.range' k n).map fun i => SInstr.setMom i i) ++ rest) o = (.throw .massShell, o')) ∨
       ((∀ i, k ≤ i → i < k + n → accepts C k0 (m i) (q i) = true) ∧
        (∀ i, i < k + n → Fresh (o'.w.part i) ∧ (o'.w.part i).kin = kins k0 m q i) ∧
        runSetup junk par' q (((List.range' k n).map fun i => SInstr.setMom i i) ++ rest) o = runSetup junk par' q rest o')) := by
  induction n with
  | zero =>
    intro k o h hm hf
    exact ⟨o, h, hm, rfl, rfl, rfl, .inr ⟨fun i h1 h2 => absurd h2 (by omega), fun i hi => hf i (by omega), rfl⟩⟩
  | succ n ih =>
    intro k o h hm hf
    let w1 := (onPart k (Particle.setMomentum (q k)) o.w).2
    let o1 : Obj R C := { o with w := w1 }
    have hm1 : ∀ i, (o1.w.part i).kin.m = m i := by
      intro i
      show ((onPart k (Particle.setMomentum (q k)) o.w).2.part i).kin.m = m i
      rw [onPart_part]
      split_ifs with hi
      · subst hi; rw [setMom_mass]; exact hm i
      · exact hm i
    have h1 : Inv S par o1 := by
      refine ⟨h.r, h.pm, h.pw, fun i e he => ?_, h.sp⟩
      rw [← h.mass i e he]
      exact (hm1 i).trans (hm i).symm
    have e0 : (SInstr.exec junk par' q (.setMom k k) o).2 = o1 := rfl
    have e1 : (SInstr.exec junk par' q (.setMom k k) o).1 = (Particle.setMomentum (q k) (o.w.part k)).1 := rfl
    have hcons : runSetup junk par' q (((List.range' k (n + 1)).map fun i => SInstr.setMom i i) ++ rest) o =
        (SInstr.exec junk par' q (.setMom k k) >>= fun _ => runSetup junk par' q (((List.range' (k + 1) n).map fun i => SInstr.setMom i i) ++ rest)) o := rfl
    cases ha : accepts C k0 (m k) (q k) with
    | false =>
      have ht := setMom_throw ha (hm k)
      rw [← e1] at ht
      have e : SInstr.exec junk par' q (.setMom k k) o = (.throw .massShell, o1) := Prod.ext ht e0
      exact ⟨o1, h1, hm1, rfl, rfl, rfl, .inl ⟨⟨k, le_refl k, by omega, ha⟩, by rw [hcons, Prog.bind_throw e]⟩⟩
    | true =>
      obtain ⟨ht, hfr, hk⟩ := setMom_ok ha (hm k)
      rw [← e1] at ht
      have e : SInstr.exec junk par' q (.setMom k k) o = (.ok (), o1) := Prod.ext ht e0
      have hf1 : ∀ i, i < k + 1 → Fresh (o1.w.part i) ∧ (o1.w.part i).kin = kins k0 m q i := by
        intro i hi
        have hp : o1.w.part i = if i = k then (Particle.setMomentum (q k) (o.w.part k)).2 else o.w.part i := onPart_part _ _ _ _
        rw [hp]
        split_ifs with hik
        · subst hik; exact ⟨hfr, hk⟩
        · exact hf i (by omega)
      obtain ⟨o', a1, a2, a3, a4, a5, a6⟩ := ih (k + 1) o1 h1 hm1 hf1
      refine ⟨o', a1, a2, a3, a4, a5, ?_⟩
      rw [hcons, Prog.bind_ok e]
      rcases a6 with ⟨⟨i, b1, b2, b3⟩, b4⟩ | ⟨b1, b2, b3⟩
      · exact .inl ⟨⟨i, by omega, by omega, b3⟩, b4⟩
      · refine .inr ⟨fun i hi hi' => ?_, fun i hi => b2 i (by omega), b3⟩
        by_cases hik : i = k
        · subst hik; exact ha
        · exact b1 i (by omega) (by omega)

/-- Two objects after (part of) `set_momenta`, possibly with different momenta: the members in `r`, `c` agree, the products in `u` are up to date. -/
structure Twin (S : Sym) (par : Nat → R) (κ κ' : Nat → Kin R C) (r c u : List Bool) (o o' : Obj R C) : Prop where
  inv : Inv S par o
  inv' : Inv S par o'
  parts : PartsOk (· < 4) κ o.w
  parts' : PartsOk (· < 4) κ' o'.w
  r : ∀ n, r.getD n false = true → o.r n = o'.r n
  c : ∀ n, c.getD n false = true → o.c n = o'.c n
  u : ∀ a, u.getD a false = true → ∃ d, S.gsp a = some d ∧ Synced a d κ o.w ∧ Synced a d κ' o'.w

/-- set-up expressions -/
theorem setupExp_val {r c : List Bool} {mr mr' : Nat → R} {mc mc' : Nat → C} {par : Nat → R} (hr : ∀ n, r.getD n false = true → mr n = mr' n)
    (hc : ∀ n, c.getD n false = true → mc n = mc' n) {t : Ty} (e : Exp t) : setupExp r c e = true → e.val mr mc par = e.val mr' mc' par := by
  unfold setupExp
  induction e with
  | lit n => intro _; rfl
  | dec m k => intro _; rfl
  | mem t n => intro h; cases t <;> simp only [Exp.check, Ctx.m] at h <;> first | exact hr n h | exact hc n h
  | loc t n => intro h; cases t <;> simp [Exp.check, AEnv.g] at h
  | add a b iha ihb => intro h; simp only [Exp.check, Bool.and_eq_true] at h; simp only [Exp.val, iha h.1, ihb h.2]
  | sub a b iha ihb => intro h; simp only [Exp.check, Bool.and_eq_true] at h; simp only [Exp.val, iha h.1, ihb h.2]
  | mul a b iha ihb => intro h; simp only [Exp.check, Bool.and_eq_true] at h; simp only [Exp.val, iha h.1, ihb h.2]
  | div a b iha ihb => intro h; simp only [Exp.check, Bool.and_eq_true] at h; simp only [Exp.val, iha h.1, ihb h.2]
  | neg a iha => intro h; simp only [Exp.val, iha h]
  | ofR a iha => intro h; simp only [Exp.val, iha h]
  | smul a b iha ihb => intro h; simp only [Exp.check, Bool.and_eq_true] at h; simp only [Exp.val, iha h.1, ihb h.2]
  | divr a b iha ihb => intro h; simp only [Exp.check, Bool.and_eq_true] at h; simp only [Exp.val, iha h.1, ihb h.2]
  | sqrt a iha => intro h; simp only [Exp.val, iha h]
  | pow a k iha => intro h; simp only [Exp.val, iha h]
  | abs a iha => intro h; simp only [Exp.val, iha h]
  | re a iha => intro h; simp only [Exp.val, iha h]
  | conj a iha => intro h; simp only [Exp.val, iha h]
  | norm ds => intro h; rfl
  | v a args => intro h; rfl
  | call f args => intro h; rfl

omit [HasPow R] in
theorem okDef_uses {d : SPDef} (h : Sym.okDef d = true) {i : Nat} (hi : uses d i) : i < 4 := by
  simp only [Sym.okDef, Bool.and_eq_true, decide_eq_true_eq, List.all_eq_true] at h
  rcases hi with rfl | rfl | hi
  · exact h.1.1.2
  · exact h.1.2
  · exact h.2 i hi

omit [HasPow R] in
/-- One `update()`. -/
theorem update_one {a : Nat} {d : SPDef} {κ : Nat → Kin R C} {w : World R C} (hd : (w.sp a).desc = some d) (hok : Sym.okDef d = true)
    (hp : PartsOk (· < 4) κ w) : ∃ w', SProd.update a w = (.ok (), w') ∧ (∀ i, Ext (w.part i) (w'.part i)) ∧ Synced a d κ w' ∧
      (∀ b, b ≠ a → w'.sp b = w.sp b) ∧ ∀ b, (w'.sp b).desc = (w.sp b).desc := by
  have hu : PartsOk (uses d) κ w := hp.mono fun i hi => okDef_uses hok hi
  simp only [Sym.okDef, Bool.and_eq_true] at hok
  obtain ⟨w', h1, h2, h3, _, h5⟩ := (update_spec hd hu).2.2 (by simp [badLeft, hok.1.1.1.1]) (by simp [badRight, hok.1.1.1.2])
  refine ⟨w', h1, h2, h3, h5, fun b => ?_⟩
  by_cases hb : b = a
  · subst hb; rw [h3.desc, hd]
  · rw [h5 b hb]

omit [Scalar R] [HasPow R] [Cplx R C] in
theorem setMem_r (o : Obj R C) (n : Nat) (x : R) : o.setMem .r n x = { o with r := fun k => if k = n then x else o.r k } := rfl
omit [Scalar R] [HasPow R] [Cplx R C] in
theorem setMem_c (o : Obj R C) (n : Nat) (x : C) : o.setMem .c n x = { o with c := fun k => if k = n then x else o.c k } := rfl

theorem Inv.set_r {S : Sym} {par : Nat → R} {o : Obj R C} (h : Inv S par o) {n : Nat} (hn : (S.gr n).isNone = true) (x : R) :
    Inv S par { o with r := fun k => if k = n then x else o.r k } := by
  refine ⟨fun k e he => ?_, h.pm, h.pw, h.mass, h.sp⟩
  dsimp only
  split_ifs with hk
  · subst hk
    have : S.gr k = some e := he
    rw [this] at hn; cases hn
  · exact h.r k e he

theorem rest_sound {S : Sym} {par : Nat → R} {κ κ' : Nat → Kin R C} (junk junk' : Kin R C) (par' : Nat → R) (q q' : Nat → V4 R)
    (hden : ∀ (v : VExp) (p : Propag R), (Propag.denominator p (v.eval q) : C) = Propag.denominator p (v.eval q')) (is : List SInstr) :
    ∀ {r c u r' c' u' : List Bool} {o o' : Obj R C}, restCheck S is r c u = some (r', c', u') → Twin S par κ κ' r c u o o' →
    ∃ p p', runSetup junk par' q is o = (.ok (), p) ∧ runSetup junk' par' q' is o' = (.ok (), p') ∧ Twin S par κ κ' r' c' u' p p' := by
  induction is with
  | nil => intro r c u r' c' u' o o' hc h; cases hc; exact ⟨o, o', rfl, rfl, h⟩
  | cons i is ih =>
    intro r c u r' c' u' o o' hc h
    have go : ∀ {r1 c1 u1 : List Bool} {o1 o1' : Obj R C}, i.exec junk par' q o = (.ok (), o1) → i.exec junk' par' q' o' = (.ok (), o1') →
        restCheck S is r1 c1 u1 = some (r', c', u') → Twin S par κ κ' r1 c1 u1 o1 o1' →
        ∃ p p', runSetup junk par' q (i :: is) o = (.ok (), p) ∧ runSetup junk' par' q' (i :: is) o' = (.ok (), p') ∧ Twin S par κ κ' r' c' u' p p' := by
      intro r1 c1 u1 o1 o1' e e' hc1 ht
      obtain ⟨p, p', h1, h2, h3⟩ := ih hc1 ht
      refine ⟨p, p', ?_, ?_, h3⟩
      · show (i.exec junk par' q >>= fun _ => runSetup junk par' q is) o = _
        rw [Prog.bind_ok e, h1]
      · show (i.exec junk' par' q' >>= fun _ => runSetup junk' par' q' is) o' = _
        rw [Prog.bind_ok e', h2]
    have pr_eq : ∀ k, (S.gpm k).isSome = true → (S.gpw k).isSome = true → o.pr k = o'.pr k := by
      intro k h1 h2
      obtain ⟨e1, he1⟩ := Option.isSome_iff_exists.mp h1
      obtain ⟨e2, he2⟩ := Option.isSome_iff_exists.mp h2
      have a1 := h.inv.pm k e1 he1; have a2 := h.inv'.pm k e1 he1
      have b1 := h.inv.pw k e2 he2; have b2 := h.inv'.pw k e2 he2
      dsimp only at a1 a2 b1 b2
      cases hp : o.pr k; cases hp' : o'.pr k
      rw [hp] at a1 b1; rw [hp'] at a2 b2
      simp_all
    -- writing equal values
    have setr : ∀ n (x : R), (S.gr n).isNone = true →
        Twin S par κ κ' (upd false true n r) c u { o with r := fun k => if k = n then x else o.r k } { o' with r := fun k => if k = n then x else o'.r k } := by
      intro n x hn
      refine ⟨h.inv.set_r hn x, h.inv'.set_r hn x, h.parts, h.parts', fun k hk => ?_, h.c, h.u⟩
      rw [getD_upd] at hk
      dsimp only
      split_ifs at hk ⊢
      · rfl
      · exact h.r k hk
    have setc : ∀ n (x : C),
        Twin S par κ κ' r (upd false true n c) u { o with c := fun k => if k = n then x else o.c k } { o' with c := fun k => if k = n then x else o'.c k } := by
      intro n x
      refine ⟨⟨h.inv.r, h.inv.pm, h.inv.pw, h.inv.mass, h.inv.sp⟩, ⟨h.inv'.r, h.inv'.pm, h.inv'.pw, h.inv'.mass, h.inv'.sp⟩, h.parts, h.parts', h.r, fun k hk => ?_, h.u⟩
      rw [getD_upd] at hk
      dsimp only
      split_ifs at hk ⊢
      · rfl
      · exact h.c k hk
    cases i with
    | set t n e =>
      cases t with
      | r =>
        simp only [restCheck] at hc
        split_ifs at hc with hn
        simp only [Bool.and_eq_true] at hn
        refine go rfl rfl hc ?_
        have hv : (e.val o.r o.c par' : R) = e.val o'.r o'.c par' := setupExp_val h.r h.c e hn.1
        rw [show SInstr.exec junk par' q (.set .r n e) = fun o => (.ok (), o.setMem .r n (e.val o.r o.c par')) from rfl] at *
        rw [setMem_r, setMem_r, hv]
        exact setr n _ hn.2
      | c =>
        simp only [restCheck] at hc
        split_ifs at hc with hn
        refine go rfl rfl hc ?_
        have hv : (e.val o.r o.c par' : C) = e.val o'.r o'.c par' := setupExp_val h.r h.c e hn
        rw [setMem_c, setMem_c, hv]
        exact setc n _
    | part i e => cases hc
    | setMass i e => cases hc
    | setMom i k => cases hc
    | prop k m w => cases hc
    | propMass k e => cases hc
    | sprod a d => cases hc
    | update a =>
      simp only [restCheck] at hc
      split_ifs at hc with ha
      obtain ⟨d, hd⟩ := Option.isSome_iff_exists.mp ha
      obtain ⟨hde, hok⟩ := h.inv.sp a d hd
      obtain ⟨hde', _⟩ := h.inv'.sp a d hd
      obtain ⟨w1, e1, x1, s1, f1, g1⟩ := update_one hde hok h.parts
      obtain ⟨w2, e2, x2, s2, f2, g2⟩ := update_one hde' hok h.parts'
      refine go (o1 := { o with w := w1 }) (o1' := { o' with w := w2 }) ?_ ?_ hc ?_
      · show (((SProd.update a o.w).1, { o with w := (SProd.update a o.w).2 }) : Res Unit × Obj R C) = _
        rw [e1]
      · show (((SProd.update a o'.w).1, { o' with w := (SProd.update a o'.w).2 }) : Res Unit × Obj R C) = _
        rw [e2]
      · refine ⟨⟨h.inv.r, h.inv.pm, h.inv.pw, fun i e he => ?_, fun b d' hb => ?_⟩, ⟨h.inv'.r, h.inv'.pm, h.inv'.pw, fun i e he => ?_, fun b d' hb => ?_⟩,
          h.parts.ext x1, h.parts'.ext x2, h.r, h.c, fun b hb => ?_⟩
        · rw [← h.inv.mass i e he]; exact congrArg Kin.m (x1 i).kin
        · have := h.inv.sp b d' hb; rw [← g1 b] at this; exact this
        · rw [← h.inv'.mass i e he]; exact congrArg Kin.m (x2 i).kin
        · have := h.inv'.sp b d' hb; rw [← g2 b] at this; exact this
        · rw [getD_upd] at hb
          by_cases hba : b = a
          · subst hba; exact ⟨d, hd, s1, s2⟩
          · rw [if_neg hba] at hb
            obtain ⟨d', hd', t1, t2⟩ := h.u b hb
            exact ⟨d', hd', t1.of_ext (fun i _ => x1 i) (f1 b hba), t2.of_ext (fun i _ => x2 i) (f2 b hba)⟩
    | den t n k v =>
      cases t with
      | r =>
        simp only [restCheck] at hc
        split_ifs at hc with hn
        simp only [Bool.and_eq_true] at hn
        refine go (o1 := o.setDen n k (v.eval q) .r) (o1' := o'.setDen n k (v.eval q') .r) rfl rfl hc ?_
        unfold Obj.setDen
        rw [pr_eq k hn.1.1 hn.1.2, hden]
        exact setr n _ hn.2
      | c =>
        simp only [restCheck] at hc
        split_ifs at hc with hn
        simp only [Bool.and_eq_true] at hn
        refine go (o1 := o.setDen n k (v.eval q) .c) (o1' := o'.setDen n k (v.eval q') .c) rfl rfl hc ?_
        unfold Obj.setDen
        rw [pr_eq k hn.1 hn.2, hden]
        exact setc n _

/-! ### after `set_momenta` -/

/-- `Twin` without the particles -/
structure Agree (S : Sym) (par : Nat → R) (κ : Nat → Kin R C) (r c u : List Bool) (o o' : Obj R C) : Prop where
  inv : Inv S par o
  inv' : Inv S par o'
  r : ∀ n, r.getD n false = true → o.r n = o'.r n
  c : ∀ n, c.getD n false = true → o.c n = o'.c n
  u : ∀ a, u.getD a false = true → ∃ d, S.gsp a = some d ∧ Synced a d κ o.w ∧ Synced a d κ o'.w

theorem Agree.symm {S : Sym} {par : Nat → R} {κ : Nat → Kin R C} {r c u : List Bool} {o o' : Obj R C} (h : Agree S par κ r c u o o') :
    Agree S par κ r c u o' o :=
  ⟨h.inv', h.inv, fun n hn => (h.r n hn).symm, fun n hn => (h.c n hn).symm, fun a ha => let ⟨d, h1, h2, h3⟩ := h.u a ha; ⟨d, h1, h3, h2⟩⟩

/-- A call of an amplitude method; `junk`: the uninitialised locals. -/
structure MCall (R C : Type) where
  junk : Loc R C
  t : Ty
  k : Nat
  args : List Int

/-- State after some calls; the outcomes are ignored (exceptions are caught). -/
def runCalls (P : Proc) : List (MCall R C) → Obj R C → Obj R C
  | [], o => o
  | x :: xs, o => runCalls P xs (P.method x.junk x.t x.k x.args o).2

theorem Agree.calls {S : Sym} {par : Nat → R} {κ : Nat → Kin R C} {r c u : List Bool} (P : Proc) (xs : List (MCall R C)) :
    ∀ {o o' : Obj R C}, Agree S par κ r c u o o' → Agree S par κ r c u (runCalls P xs o) o' := by
  induction xs with
  | nil => intro o o' h; exact h
  | cons x xs ih =>
    intro o o' h
    refine ih ⟨method_inv h.inv P _ _ _ _, h.inv', h.r, h.c, fun a ha => ?_⟩
    obtain ⟨d, h1, h2, h3⟩ := h.u a ha
    exact ⟨d, h1, method_synced h2 P _ _ _ _, h3⟩

/-- If `S` says which particles are massless, and only these are. -/
def MassTest (S : Sym) (κ : Nat → Kin R C) : Prop := ∀ i, i < 4 → massive (κ i) = massiveExp (S.gm i)

/-- The outcome of a method. -/
theorem agree_method {S : Sym} {par : Nat → R} {κ : Nat → Kin R C} {r c u : List Bool} {o o' : Obj R C} (h : Agree S par κ r c u o o')
    {P : Proc} {strict : Bool} {t : Ty} {k : Nat} {xs : List AI}
    (hc : absInvoke (fun n => r.getD n false) (fun n => c.getD n false) (okCalls strict S u) (!strict) t P.methods k xs = true)
    (hs : strict = true → MassTest S κ) {args : List Int} (ha : ArgsOk xs args) (junk junk' : Loc R C) :
    (P.method junk t k args o).1 = (P.method junk' t k args o').1 ∧ (strict = true → ∃ x, (P.method junk t k args o).1 = .ok x) := by
  let Rel : World R C → World R C → Prop := fun w w' => ∀ a, u.getD a false = true → ∃ d, S.gsp a = some d ∧ Sym.okDef d = true ∧ Synced a d κ w ∧ Synced a d κ w'
  have hv : ∀ a args, okCalls strict S u a args.length = true → (∀ j ∈ args, IsSpin j) →
      RelProg Rel (!strict) Eq (Proc.vcall (R := R) (C := C) a args) (Proc.vcall a args) := by
    intro a args hok hspin
    simp only [okCalls, Bool.and_eq_true] at hok
    obtain ⟨hua, hok⟩ := hok
    have key : ∀ cc : VCall, cc.Valid → Proc.vcall (R := R) (C := C) a args = cc.run a →
        (strict = true → ∀ d, S.gsp a = some d → Sym.okDef d = true → args.length = arity S d → ∃ x, outcome κ d cc = .ok x) →
        RelProg Rel (!strict) Eq (Proc.vcall (R := R) (C := C) a args) (Proc.vcall a args) := by
      intro cc hval hrun hout w w' hw
      obtain ⟨d, hd, hokd, s1, s2⟩ := hw a hua
      obtain ⟨w1, e1, _, _, _⟩ := v_spec s1 cc hval
      obtain ⟨w2, e2, _, _, _⟩ := v_spec s2 cc hval
      rw [hrun]
      constructor
      · intro b hb
        obtain ⟨d', hd', hokd', t1, t2⟩ := hw b hb
        exact ⟨d', hd', hokd', synced_v t1 a cc, synced_v t2 a cc⟩
      · rw [e1, e2]
        dsimp only
        rw [hd] at hok
        cases strict with
        | true =>
          obtain ⟨x, hx⟩ := hout rfl d hd hokd (by simpa using hok)
          rw [hx]
        | false =>
          have hcr : outcome κ d cc ≠ .crash := by
            cases cc <;> simp only [outcome] <;> split <;> simp
          cases hx : outcome κ d cc with
          | ok x => rfl
          | throw e => exact ⟨rfl, rfl⟩
          | crash => exact absurd hx hcr
    have mass : strict = true → ∀ d, Sym.okDef d = true → massive (κ d.left) = massiveExp (S.gm d.left) ∧ massive (κ d.right) = massiveExp (S.gm d.right) :=
      fun hst d hd => ⟨hs hst _ (okDef_uses hd (.inl rfl)), hs hst _ (okDef_uses hd (.inr (.inl rfl)))⟩
    rcases args with _ | ⟨j, _ | ⟨k, _ | ⟨l, ls⟩⟩⟩
    · refine key .v0 trivial rfl fun hst d _ hd hl => ?_
      obtain ⟨m1, m2⟩ := mass hst d hd
      unfold arity at hl
      rw [← m1, ← m2] at hl
      simp only [outcome]
      cases h1 : massive (κ d.left) <;> cases h2 : massive (κ d.right) <;> simp [h1, h2] at hl ⊢
    · refine key (.v1 j) (hspin j (by simp)) rfl fun hst d _ hd hl => ?_
      obtain ⟨m1, m2⟩ := mass hst d hd
      unfold arity at hl
      rw [← m1, ← m2] at hl
      simp only [outcome]
      cases h1 : massive (κ d.left) <;> cases h2 : massive (κ d.right) <;> simp [h1, h2] at hl ⊢
    · refine key (.v2 j k) ⟨hspin j (by simp), hspin k (by simp)⟩ rfl fun hst d _ hd hl => ?_
      obtain ⟨m1, m2⟩ := mass hst d hd
      unfold arity at hl
      rw [← m1, ← m2] at hl
      simp only [outcome]
      cases h1 : massive (κ d.left) <;> cases h2 : massive (κ d.right) <;> simp [h1, h2] at hl ⊢
    · exfalso
      split at hok
      · split_ifs at hok
        · simp [arity] at hok; split_ifs at hok <;> simp at hok
        · simp at hok
      · cases hok
  have main := invoke_sound (Rel := Rel) h.r h.c hv junk junk' t P.methods k xs args hc ha o.w o'.w
    (fun a ha => let ⟨d, h1, h2, h3⟩ := h.u a ha; ⟨d, h1, (h.inv.sp a d h1).2, h2, h3⟩)
  have e1 : (P.method junk t k args o).1 = (invoke o.r o.c Proc.vcall junk t P.methods k args o.w).1 := rfl
  have e2 : (P.method junk' t k args o').1 = (invoke o'.r o'.c Proc.vcall junk' t P.methods k args o'.w).1 := rfl
  rw [e1, e2]
  have hm := main.2
  revert hm
  cases (invoke o.r o.c Proc.vcall junk t P.methods k args o.w).1 <;> cases (invoke o'.r o'.c Proc.vcall junk' t P.methods k args o'.w).1 <;>
    intro hm <;> simp_all

/-- What `set_momenta` does to two objects with the same parameters. -/
theorem setMomenta_sound {P : Proc} {strict : Bool} {S : Sym} {ks : List (Ty × Nat × List AI)} (hc : P.check strict S ks = true) {par : Nat → R}
    {o o' : Obj R C} (h : Inv S par o) (h' : Inv S par o') (junk junk' k0 : Kin R C) (q : Nat → V4 R) (m : Nat → R)
    (hm : ∀ i, i < 4 → (o.w.part i).kin.m = m i) :
    (∀ i, i < 4 → (o'.w.part i).kin.m = m i) ∧
    (((∃ i, i < 4 ∧ accepts C k0 (m i) (q i) = false) ∧ (P.runSetMomenta junk q o).1 = .throw .massShell ∧
        (P.runSetMomenta junk' q o').1 = .throw .massShell ∧ Inv S par (P.runSetMomenta junk q o).2 ∧ Inv S par (P.runSetMomenta junk' q o').2) ∨
     ((∀ i, i < 4 → accepts C k0 (m i) (q i) = true) ∧ (P.runSetMomenta junk q o).1 = .ok () ∧ (P.runSetMomenta junk' q o').1 = .ok () ∧
        ∃ r c u, restCheck S P.rest S.known [] [] = some (r, c, u) ∧
          Agree S par (kins k0 m q) r c u (P.runSetMomenta junk q o).2 (P.runSetMomenta junk' q o').2)) := by
  unfold Proc.check at hc
  simp only [Bool.and_eq_true] at hc
  obtain ⟨⟨hpre, hmass⟩, hc⟩ := hc
  have hm' : ∀ i, i < 4 → (o'.w.part i).kin.m = m i := by
    intro i hi
    have := List.all_eq_true.mp hmass i (List.mem_range.mpr hi)
    obtain ⟨e, he⟩ := Option.isSome_iff_exists.mp this
    rw [← hm i hi]
    exact (h'.mass i e he).trans (h.mass i e he).symm
  refine ⟨hm', ?_⟩
  have hsm : P.setMomenta = ((List.range' 0 4).map fun i => SInstr.setMom i i) ++ P.rest := by
    unfold Proc.rest
    revert hpre
    unfold isPrefix
    split
    · rename_i l heq; intro _; rw [heq]; rfl
    · intro hpre; cases hpre
  obtain ⟨o1, i1, m1, r1, c1, p1, z1⟩ := momenta_sound k0 junk (fun _ => int 0) q (fun i => (o.w.part i).kin.m) P.rest 4 0 o h (fun _ => rfl) (fun i hi => absurd hi (by omega))
  obtain ⟨o2, i2, m2, r2, c2, p2, z2⟩ := momenta_sound k0 junk' (fun _ => int 0) q (fun i => (o'.w.part i).kin.m) P.rest 4 0 o' h' (fun _ => rfl) (fun i hi => absurd hi (by omega))
  rw [← hsm] at z1 z2
  simp only [Nat.zero_add, Nat.zero_le, true_and, forall_const] at z1 z2
  rcases z1 with ⟨⟨i, hi, hacc⟩, z1⟩ | ⟨hacc, f1, z1⟩
  · rw [hm i hi] at hacc
    rcases z2 with ⟨_, z2⟩ | ⟨hacc2, _, _⟩
    · refine .inl ⟨⟨i, hi, hacc⟩, ?_⟩
      unfold Proc.runSetMomenta
      rw [z1, z2]
      exact ⟨rfl, rfl, i1, i2⟩
    · have := hacc2 i hi
      rw [hm' i hi, hacc] at this; cases this
  · rcases z2 with ⟨⟨i, hi, hacc2⟩, _⟩ | ⟨_, f2, z2⟩
    · have := hacc i hi
      rw [hm i hi, ← hm' i hi, hacc2] at this; cases this
    · refine .inr ⟨fun i hi => by rw [← hm i hi]; exact hacc i hi, ?_⟩
      cases hrest : restCheck S P.rest S.known [] [] with
      | none => rw [hrest] at hc; cases hc
      | some x =>
        obtain ⟨r, c, u⟩ := x
        have ht : Twin S par (kins k0 m q) (kins k0 m q) S.known [] [] o1 o2 := by
          refine ⟨i1, i2, fun i hi => ?_, fun i hi => ?_, fun n hn => ?_, fun n hn => ?_, fun a ha => ?_⟩
          · have := f1 i hi
            simp only [kins] at this ⊢
            rw [← hm i hi]; exact this
          · have := f2 i hi
            simp only [kins] at this ⊢
            rw [← hm' i hi]; exact this
          · have hs : (S.gr n).isSome = true := by
              have e : (S.r.map Option.isSome).getD n false = (S.r.getD n none).isSome := by
                by_cases h : n < S.r.length
                · simp [List.getD, h]
                · simp [List.getD, show S.r.length ≤ n by omega]
              rw [Sym.gr, ← e]; exact hn
            obtain ⟨e, he⟩ := Option.isSome_iff_exists.mp hs
            exact (i1.r n e he).trans (i2.r n e he).symm
          · simp at hn
          · simp at ha
        obtain ⟨p, p', e1, e2, ht'⟩ := rest_sound junk junk' (fun _ => int 0) q q (fun _ _ => rfl) P.rest hrest ht
        unfold Proc.runSetMomenta
        rw [z1, z2, e1, e2]
        exact ⟨rfl, rfl, r, c, u, rfl, ht'.inv, ht'.inv', ht'.r, ht'.c, ht'.u⟩

end Spinas.SM
