import Verif.SM.Sound
import Verif.Props.Products

/-! Soundness of the checks on set-up code, and the effect of calls on a process object. -/

namespace Spinas.SM
open Spec Props

variable {R C : Type} [Scalar R] [HasPow R] [Cplx R C]

/-! ### symbolic values -/

/-- value of an expression in the parameters -/
def Exp.val0 (par : Nat → R) (e : Exp .r) : R := e.val (C := C) (fun _ => int 0) (fun _ => czero) par

theorem subst_val {mr : Nat → Option (Exp .r)} {ρ : Nat → Exp .r} {r : Nat → R} {c : Nat → C} {par par' : Nat → R}
    (hr : ∀ n x, mr n = some x → r n = x.val0 (C := C) par) (hρ : ∀ n, par' n = (ρ n).val0 (C := C) par) {t : Ty} (e : Exp t) :
    ∀ {e' : Exp t}, e.subst mr ρ = some e' → e.val r c par' = e'.val (C := C) (fun _ => int 0) (fun _ => czero) par := by
  induction e with
  | lit n => intro e' h; cases h; rfl
  | dec m k => intro e' h; cases h; rfl
  | mem t n =>
    intro e' h
    cases t with
    | r => exact hr n _ h
    | c => cases h
  | loc t n =>
    intro e' h
    cases t with
    | r => cases h; exact hρ n
    | c => cases h
  | add a b iha ihb =>
    intro e' h
    simp only [Exp.subst, bind, Option.bind_eq_some_iff] at h
    obtain ⟨x, hx, y, hy, h⟩ := h
    cases h
    simp only [Exp.val, iha hx, ihb hy]
  | sub a b iha ihb =>
    intro e' h
    simp only [Exp.subst, bind, Option.bind_eq_some_iff] at h
    obtain ⟨x, hx, y, hy, h⟩ := h
    cases h
    simp only [Exp.val, iha hx, ihb hy]
  | mul a b iha ihb =>
    intro e' h
    simp only [Exp.subst, bind, Option.bind_eq_some_iff] at h
    obtain ⟨x, hx, y, hy, h⟩ := h
    cases h
    simp only [Exp.val, iha hx, ihb hy]
  | div a b iha ihb =>
    intro e' h
    simp only [Exp.subst, bind, Option.bind_eq_some_iff] at h
    obtain ⟨x, hx, y, hy, h⟩ := h
    cases h
    simp only [Exp.val, iha hx, ihb hy]
  | neg a iha =>
    intro e' h
    simp only [Exp.subst, bind, Option.bind_eq_some_iff] at h
    obtain ⟨x, hx, h⟩ := h
    cases h
    simp only [Exp.val, iha hx]
  | sqrt a iha =>
    intro e' h
    simp only [Exp.subst, bind, Option.bind_eq_some_iff] at h
    obtain ⟨x, hx, h⟩ := h
    cases h
    simp only [Exp.val, iha hx]
  | pow a k iha =>
    intro e' h
    simp only [Exp.subst, bind, Option.bind_eq_some_iff] at h
    obtain ⟨x, hx, h⟩ := h
    cases h
    simp only [Exp.val, iha hx]
  | ofR a iha => intro e' h; cases h
  | smul a b iha ihb => intro e' h; cases h
  | divr a b iha ihb => intro e' h; cases h
  | abs a iha => intro e' h; cases h
  | re a iha => intro e' h; cases h
  | conj a iha => intro e' h; cases h
  | norm ds => intro e' h; cases h
  | v a args => intro e' h; cases h
  | call f args => intro e' h; cases h

theorem beq_eq {t : Ty} (e : Exp t) : ∀ {e' : Exp t}, e.beq e' = true → e = e' := by
  induction e with
  | lit n => intro e' h; cases e' <;> simp_all [Exp.beq]
  | dec m k => intro e' h; cases e' <;> simp_all [Exp.beq]
  | mem t n => intro e' h; cases e' <;> simp_all [Exp.beq]
  | loc t n => intro e' h; cases e' <;> simp_all [Exp.beq]
  | add a b iha ihb => intro e' h; cases e' <;> simp_all [Exp.beq]; exact ⟨iha h.1, ihb h.2⟩
  | sub a b iha ihb => intro e' h; cases e' <;> simp_all [Exp.beq]; exact ⟨iha h.1, ihb h.2⟩
  | mul a b iha ihb => intro e' h; cases e' <;> simp_all [Exp.beq]; exact ⟨iha h.1, ihb h.2⟩
  | div a b iha ihb => intro e' h; cases e' <;> simp_all [Exp.beq]; exact ⟨iha h.1, ihb h.2⟩
  | neg a iha => intro e' h; cases e' <;> simp_all [Exp.beq]; exact iha h
  | sqrt a iha => intro e' h; cases e' <;> simp_all [Exp.beq]; exact iha h
  | pow a k iha => intro e' h; cases e' <;> simp_all [Exp.beq]; exact iha h.1
  | ofR a iha => intro e' h; cases e' <;> simp_all [Exp.beq]
  | smul a b iha ihb => intro e' h; cases e' <;> simp_all [Exp.beq]
  | divr a b iha ihb => intro e' h; cases e' <;> simp_all [Exp.beq]
  | abs a iha => intro e' h; cases e' <;> simp_all [Exp.beq]
  | re a iha => intro e' h; cases e' <;> simp_all [Exp.beq]
  | conj a iha => intro e' h; cases e' <;> simp_all [Exp.beq]
  | norm ds => intro e' h; cases e' <;> simp_all [Exp.beq]
  | v a args => intro e' h; cases e' <;> simp_all [Exp.beq]
  | call f args => intro e' h; cases e' <;> simp_all [Exp.beq]

/-- The entries of the list that are known describe the values `x`. -/
def Describes (C : Type) [Cplx R C] (l : List (Option (Exp .r))) (par : Nat → R) (x : Nat → R) : Prop :=
  ∀ n e, l.getD n none = some e → x n = e.val0 (C := C) par

theorem Describes.upd {l : List (Option (Exp .r))} {par x : Nat → R} (h : Describes C l par x) {n : Nat} {o : Option (Exp .r)} {y : R}
    (ho : ∀ e, o = some e → y = e.val0 (C := C) par) : Describes C (SM.upd none o n l) par (fun k => if k = n then y else x k) := by
  intro k e hk
  rw [getD_upd] at hk
  dsimp only
  split_ifs at hk ⊢
  · exact ho e hk
  · exact h k e hk

theorem Describes.le {l l' : List (Option (Exp .r))} {par x : Nat → R} (h : Describes C l' par x) (hl : Sym.leExp l l' = true) :
    Describes C l par x := by
  intro n e hn
  have hlen : n < l.length := by
    by_contra hc; rw [getD_of_le (by omega)] at hn; cases hn
  have := List.all_eq_true.mp hl n (List.mem_range.mpr hlen)
  rw [hn] at this
  split at this
  · simp_all
  · rename_i e1 e2 h1 h2
    cases h1
    rw [beq_eq _ this]
    exact h n e2 h2
  · cases this

theorem getD_renExp (ρ : Nat → Exp .r) (l : List (Option (Exp .r))) (n : Nat) :
    (Sym.renExp ρ l).getD n none = (l.getD n none).bind fun e => e.subst (fun _ => none) ρ := by
  unfold Sym.renExp
  by_cases h : n < l.length
  · simp [List.getD, h]
  · simp [List.getD, show l.length ≤ n by omega]

theorem Describes.rename {l : List (Option (Exp .r))} {par par' x : Nat → R} {ρ : Nat → Exp .r} (hρ : ∀ n, par n = (ρ n).val0 (C := C) par')
    (h : Describes C l par x) : Describes C (Sym.renExp ρ l) par' x := by
  intro n e hn
  rw [getD_renExp] at hn
  obtain ⟨e0, h0, h1⟩ := Option.bind_eq_some_iff.mp hn
  rw [h n e0 h0]
  unfold Exp.val0
  exact subst_val (mr := fun _ => none) (by simp) hρ e0 h1

theorem isSome_of_total {l : List (Option (Exp .r))} {ρ : Nat → Exp .r} (ht : (Sym.renExp ρ l).map Option.isSome = l.map Option.isSome)
    {n : Nat} {e : Exp .r} (hn : l.getD n none = some e) : ∃ e', (Sym.renExp ρ l).getD n none = some e' := by
  have h1 : ((Sym.renExp ρ l).map Option.isSome).getD n false = (l.map Option.isSome).getD n false := by rw [ht]
  have conv : ∀ l : List (Option (Exp .r)), (l.map Option.isSome).getD n false = (l.getD n none).isSome := by
    intro l
    by_cases h : n < l.length
    · simp [List.getD, h]
    · simp [List.getD, show l.length ≤ n by omega]
  rw [conv, conv, hn] at h1
  exact Option.isSome_iff_exists.mp h1

theorem Describes.of_rename {l : List (Option (Exp .r))} {par par' x : Nat → R} {ρ : Nat → Exp .r} (hρ : ∀ n, par n = (ρ n).val0 (C := C) par')
    (ht : (Sym.renExp ρ l).map Option.isSome = l.map Option.isSome) (h : Describes C (Sym.renExp ρ l) par' x) : Describes C l par x := by
  intro n e hn
  obtain ⟨e', he'⟩ := isSome_of_total ht hn
  rw [h n e' he']
  rw [getD_renExp, hn] at he'
  exact (subst_val (mr := fun _ => none) (by simp) hρ e he').symm

/-- The members of the object are as described. -/
structure Inv (S : Sym) (par : Nat → R) (o : Obj R C) : Prop where
  r : Describes C S.r par o.r
  pm : Describes C S.pm par (fun k => (o.pr k).m)
  pw : Describes C S.pw par (fun k => (o.pr k).w)
  mass : Describes C S.mass par (fun i => (o.w.part i).kin.m)
  sp : ∀ a d, S.gsp a = some d → (o.w.sp a).desc = some d ∧ Sym.okDef d = true

theorem Inv.le {S T : Sym} {par : Nat → R} {o : Obj R C} (h : Inv T par o) (hl : S.le T = true) : Inv S par o := by
  simp only [Sym.le, Bool.and_eq_true] at hl
  obtain ⟨⟨⟨⟨h1, h2⟩, h3⟩, h4⟩, h5⟩ := hl
  refine ⟨h.r.le h1, h.pm.le h2, h.pw.le h3, h.mass.le h4, fun a d ha => ?_⟩
  have hlen : a < S.sp.length := by
    by_contra hc; rw [Sym.gsp, getD_of_le (by omega)] at ha; cases ha
  have := List.all_eq_true.mp h5 a (List.mem_range.mpr hlen)
  rw [ha] at this
  exact h.sp a d (by simpa using this)

theorem Inv.rename {S : Sym} {par par' : Nat → R} {o : Obj R C} {ρ : Nat → Exp .r} (hρ : ∀ n, par n = (ρ n).val0 (C := C) par') (h : Inv S par o) :
    Inv (S.rename ρ) par' o := ⟨h.r.rename hρ, h.pm.rename hρ, h.pw.rename hρ, h.mass.rename hρ, h.sp⟩

theorem Inv.of_rename {S : Sym} {par par' : Nat → R} {o : Obj R C} {ρ : Nat → Exp .r} (hρ : ∀ n, par n = (ρ n).val0 (C := C) par')
    (ht : (S.rename ρ).total S = true) (h : Inv (S.rename ρ) par' o) : Inv S par o := by
  simp only [Sym.total, Bool.and_eq_true, beq_iff_eq] at ht
  obtain ⟨⟨⟨h1, h2⟩, h3⟩, h4⟩ := ht
  exact ⟨h.r.of_rename hρ h1, h.pm.of_rename hρ h2, h.pw.of_rename hρ h3, h.mass.of_rename hρ h4, h.sp⟩

/-! ### products -/

omit [HasPow R] in
/-- A call that throws before it stores the value keeps the product. -/
theorem evalEntry_sp {a : Nat} {d : SPDef} {m : CMat C} {jL jR : Bool} {lft rgt : Prog (Particle R C) (CVec C)} (w : World R C)
    (h : (∀ P, ∃ e, (lft P).1 = .throw e) ∨ ∀ P, ∃ e, (rgt P).1 = .throw e) : (SProd.evalEntry a d m jL jR lft rgt w).2.sp = w.sp := by
  unfold SProd.evalEntry
  rcases h with h | h
  · obtain ⟨e, he⟩ := h (w.part d.left)
    have e1 : onPart d.left lft w = (.throw e, (onPart d.left lft w).2) := Prod.ext he rfl
    rw [Prog.bind_throw e1]; rfl
  · cases hl : onPart d.left lft w with
    | mk x w1 =>
      have hw1 : w1.sp = w.sp := by
        have : w1 = (onPart d.left lft w).2 := by rw [hl]
        rw [this]; rfl
      cases x with
      | throw e => rw [Prog.bind_throw hl]; exact hw1
      | crash => rw [Prog.bind_crash hl]; exact hw1
      | ok v =>
        rw [Prog.bind_ok hl]
        obtain ⟨e, he⟩ := h (w1.part d.right)
        have e1 : onPart d.right rgt w1 = (.throw e, (onPart d.right rgt w1).2) := Prod.ext he rfl
        dsimp only
        rw [Prog.bind_throw e1]; exact hw1

omit [HasPow R] in
/-- Evaluating a product, with any arguments, keeps every up-to-date product up to date. -/
theorem synced_v {a : Nat} {d : SPDef} {κ : Nat → Kin R C} {w : World R C} (h : Synced a d κ w) (b : Nat) (c : VCall) :
    Synced a d κ (c.run b w).2 := by
  by_cases hb : a = b
  · subst hb
    by_cases hc : c.Valid
    · obtain ⟨w', h1, _, h2, _⟩ := v_spec h c hc
      rw [h1]; exact h2
    · have bad : ∀ (b : Br) (u : Bool) (j : Int), ¬ IsSpin j → ∀ P : Particle R C, ∃ e, (Particle.spinor b j u P).1 = .throw e := by
        intro b u j hj P
        refine ⟨.badSpin, ?_⟩
        unfold Particle.spinor
        rw [if_pos ⟨fun h => hj (.inl h), fun h => hj (.inr h)⟩]
      suffices hs : (c.run a w).2.sp = w.sp from h.of_ext (fun i _ => (frame_v a c w).1 i) (by rw [hs])
      cases c with
      | v0 => exact absurd trivial hc
      | v1 j =>
        simp only [VCall.run, SProd.v1]
        split
        · split
          · rfl
          · split
            · rfl
            · rfl
            · exact evalEntry_sp w (.inl (bad _ _ j hc))
        · split
          · split
            · rfl
            · rfl
            · exact evalEntry_sp w (.inr (bad _ _ j hc))
          · rfl
      | v2 j k =>
        simp only [VCall.run, SProd.v2]
        split
        · rfl
        · split
          · rfl
          · rfl
          · by_cases hj : IsSpin j
            · exact evalEntry_sp w (.inr (bad _ _ k fun hk => hc ⟨hj, hk⟩))
            · exact evalEntry_sp w (.inl (bad _ _ j hj))
  · exact h.of_ext (fun i _ => (frame_v b c w).1 i) ((frame_v b c w).2 a hb)

omit [HasPow R] in
/-- A constructor call with upper indices. -/
theorem construct_upper {d : SPDef} (hd : Sym.okDef d = true) (a : Nat) (w : World R C) :
    (SProd.construct a d w).1 = .ok () ∧ (∀ i, (((SProd.construct a d w).2.part i).kin = (w.part i).kin)) ∧
    ((SProd.construct a d w).2.sp a).desc = some d ∧ ∀ b, b ≠ a → (SProd.construct a d w).2.sp b = w.sp b := by
  simp only [Sym.okDef, Bool.and_eq_true] at hd
  have h1 := (C24_lower_index a d w _ _ rfl rfl).1
  have h1 : (SProd.construct a d w).1 = .ok () := by rw [h1]; simp [hd.1.1.1.1, hd.1.1.1.2]
  have h2 := frame_construct (R := R) (C := C) a d w
  exact ⟨h1, fun i => (h2.1 i).kin, desc_construct (Prod.ext h1 rfl), h2.2⟩

/-! ### constructor and `set_masses` -/

omit [Scalar R] [HasPow R] [Cplx R C] in
theorem onPart_part {α : Type} (i : Nat) (f : Prog (Particle R C) α) (w : World R C) (j : Nat) :
    (onPart i f w).2.part j = if j = i then (f (w.part i)).2 else w.part j := rfl

theorem step_sound {ρ : Nat → Exp .r} {par par' : Nat → R} (hρ : ∀ n, par' n = (ρ n).val0 (C := C) par) (junk : Kin R C) (q : Nat → V4 R)
    (i : SInstr) {S S' : Sym} (hs : S.step ρ i = some S') {o : Obj R C} (h : Inv S par o) :
    (i.exec junk par' q o).1 = .ok () ∧ Inv S' par (i.exec junk par' q o).2 := by
  have sv : ∀ (e e' : Exp .r), e.subst S.gr ρ = some e' → (e.val o.r o.c par' : R) = e'.val0 (C := C) par := by
    intro e e' he
    exact subst_val h.r hρ e he
  cases i with
  | set t n e =>
    cases t with
    | r => cases hs; exact ⟨rfl, h.r.upd (sv e), h.pm, h.pw, h.mass, h.sp⟩
    | c => cases hs; exact ⟨rfl, h.r, h.pm, h.pw, h.mass, h.sp⟩
  | part i e =>
    cases hs
    refine ⟨rfl, h.r, h.pm, h.pw, ?_, h.sp⟩
    have := h.mass.upd (n := i) (sv e)
    intro k x hx
    rw [← this k x hx]
    simp only [SInstr.exec, World.setPart]
    split_ifs <;> rfl
  | setMass i e =>
    cases hs
    refine ⟨rfl, h.r, h.pm, h.pw, ?_, h.sp⟩
    have := h.mass.upd (n := i) (sv e)
    intro k x hx
    rw [← this k x hx]
    simp only [SInstr.exec, onWorld, onPart_part]
    split_ifs <;> rfl
  | setMom i k => cases hs
  | prop k m w =>
    cases hs
    refine ⟨rfl, h.r, ?_, ?_, h.mass, h.sp⟩
    · have := h.pm.upd (n := k) (sv m)
      intro j x hx
      rw [← this j x hx]
      simp only [SInstr.exec]
      split_ifs <;> rfl
    · have := h.pw.upd (n := k) (sv w)
      intro j x hx
      rw [← this j x hx]
      simp only [SInstr.exec]
      split_ifs <;> rfl
  | propMass k e =>
    cases hs
    refine ⟨rfl, h.r, ?_, ?_, h.mass, h.sp⟩
    · have := h.pm.upd (n := k) (sv e)
      intro j x hx
      rw [← this j x hx]
      simp only [SInstr.exec]
      split_ifs <;> rfl
    · intro j x hx
      rw [← h.pw j x hx]
      simp only [SInstr.exec]
      split_ifs <;> rfl
  | sprod a d =>
    simp only [Sym.step] at hs
    split_ifs at hs with hd
    cases hs
    obtain ⟨h1, h2, h3, h4⟩ := construct_upper hd a o.w
    refine ⟨h1, h.r, h.pm, h.pw, fun j x hx => ?_, fun b d' hb => ?_⟩
    · rw [← h.mass j x hx]
      simp only [SInstr.exec, onWorld, h2]
    · simp only [Sym.gsp, getD_upd] at hb
      simp only [SInstr.exec, onWorld]
      split_ifs at hb with hab
      · cases hb; subst hab; exact ⟨h3, hd⟩
      · rw [h4 b hab]; exact h.sp b d' hb
  | update a => cases hs
  | den t n k v => cases hs

theorem run_sound {ρ : Nat → Exp .r} {par par' : Nat → R} (hρ : ∀ n, par' n = (ρ n).val0 (C := C) par) (junk : Kin R C) (q : Nat → V4 R)
    (is : List SInstr) : ∀ {S S' : Sym}, Sym.run ρ is S = some S' → ∀ {o : Obj R C}, Inv S par o →
    (runSetup junk par' q is o).1 = .ok () ∧ Inv S' par (runSetup junk par' q is o).2 := by
  induction is with
  | nil => intro S S' hs o h; cases hs; exact ⟨rfl, h⟩
  | cons i is ih =>
    intro S S' hs o h
    simp only [Sym.run] at hs
    split at hs
    · rename_i S1 h1
      have hst := step_sound hρ junk q i h1 h
      have e : i.exec junk par' q o = (.ok (), (i.exec junk par' q o).2) := Prod.ext hst.1 rfl
      have e2 : runSetup junk par' q (i :: is) o = runSetup junk par' q is (i.exec junk par' q o).2 := by
        show (i.exec junk par' q >>= fun _ => runSetup junk par' q is) o = _
        rw [Prog.bind_ok e]
      rw [e2]
      exact ih hs hst.2
    · cases hs

/-- A new object. -/
theorem construct_inv {P : Proc} {S : Sym} (hS : P.sym = some S) (mem : Nat → R) (junk : Kin R C) (par : Nat → R) :
    (P.construct mem junk par).1 = .ok () ∧ Inv S par (P.construct mem junk par).2 := by
  refine run_sound (par := par) (fun n => rfl) junk _ P.ctor hS ?_
  have hpr : ∀ n e, (List.replicate 8 (some (Exp.lit 0))).getD n none = some e → e = Exp.lit 0 := by
    intro n e h
    by_cases hn : n < 8
    · rw [List.getD_eq_getElem?_getD, List.getElem?_replicate, if_pos hn] at h; cases h; rfl
    · rw [getD_of_le (by simp; omega)] at h; cases h
  refine ⟨fun n e h => by simp [Sym.empty] at h, fun n e h => ?_, fun n e h => ?_, fun n e h => by simp [Sym.empty] at h, fun a d h => by simp [Sym.empty, Sym.gsp] at h⟩
  · rw [hpr n e h]; rfl
  · rw [hpr n e h]; rfl

/-- parameters of the analysis of `set_masses`: those of the constructor, the arguments, the earlier arguments -/
def mix (a b c : Nat → R) (n : Nat) : R := if n % 3 = 0 then a (n / 3) else if n % 3 = 1 then b (n / 3) else c (n / 3)

theorem mix_ctor (a b c : Nat → R) (n : Nat) : a n = (ctorVar n).val0 (C := C) (mix a b c) := by
  show a n = mix a b c (3 * n)
  rw [mix, if_pos (by omega)]; congr 1; omega
theorem mix_arg (a b c : Nat → R) (n : Nat) : b n = (argVar n).val0 (C := C) (mix a b c) := by
  show b n = mix a b c (3 * n + 1)
  rw [mix, if_neg (by omega), if_pos (by omega)]; congr 1; omega

/-- the constructor parameters with the masses replaced by the arguments of `set_masses` -/
def withMasses (massPar : List Nat) (par args : Nat → R) (n : Nat) : R := match massPar.idxOf? n with
  | some j => args j
  | none => par n

theorem withMasses_val (massPar : List Nat) (par args c : Nat → R) (n : Nat) :
    withMasses massPar par args n = (newPar massPar n).val0 (C := C) (mix par args c) := by
  unfold withMasses newPar
  cases massPar.idxOf? n with
  | none => exact mix_ctor par args c n
  | some j => exact mix_arg par args c j

/-- `set_masses` after the check of `symM`. -/
theorem setMasses_inv {P : Proc} {S S1 : Sym} (hS : P.symM S = some S1) {par : Nat → R} {o : Obj R C} (h : Inv S par o) (junk : Kin R C) (args c : Nat → R) :
    (P.runSetMasses junk args o).1 = .ok () ∧ Inv S1 (mix par args c) (P.runSetMasses junk args o).2 :=
  run_sound (mix_arg par args c) junk _ P.setMasses hS (h.rename (mix_ctor par args c))

/-- `set_masses` in a class that passes `checkReset`: the object is as if constructed with the new masses. -/
theorem setMasses_reset {P : Proc} {massPar : List Nat} {S : Sym} (hc : checkReset P massPar S = true) {par : Nat → R} {o : Obj R C} (h : Inv S par o)
    (junk : Kin R C) (args : Nat → R) :
    (P.runSetMasses junk args o).1 = .ok () ∧ Inv S (withMasses massPar par args) (P.runSetMasses junk args o).2 := by
  unfold checkReset at hc
  split at hc
  · rename_i S1 hS
    simp only [Bool.and_eq_true] at hc
    have h1 := setMasses_inv hS h junk args args
    exact ⟨h1.1, (h1.2.le hc.2).of_rename (withMasses_val massPar par args args) hc.1⟩
  · cases hc

/-- `set_masses` again. -/
theorem setMasses_again {P : Proc} {S1 : Sym} (hc : checkAgain P S1 = true) {par old : Nat → R} {o : Obj R C} (h : Inv S1 (mix par old old) o)
    (junk : Kin R C) (args : Nat → R) :
    (P.runSetMasses junk args o).1 = .ok () ∧ Inv S1 (mix par args args) (P.runSetMasses junk args o).2 := by
  unfold checkAgain at hc
  split at hc
  · rename_i S2 hS
    simp only [Bool.and_eq_true] at hc
    have h0 : Inv (S1.rename oldArg) (mix par args old) o := by
      refine h.rename fun n => ?_
      unfold oldArg
      split_ifs with hn
      · show mix par old old n = mix par args old (n + 1)
        rw [mix, if_neg (by omega), if_pos hn, mix, if_neg (by omega), if_neg (by omega)]; congr 1; omega
      · show mix par old old n = mix par args old n
        unfold mix; split_ifs <;> rfl
    have h1 := run_sound (mix_arg par args old) junk (fun _ => ⟨int 0, int 0, int 0, int 0⟩) P.setMasses hS h0
    refine ⟨h1.1, (h1.2.le hc.2).of_rename (fun n => ?_) hc.1⟩
    unfold noOld
    split_ifs with hn
    · show mix par args args n = mix par args old (n - 1)
      rw [mix, if_neg (by omega), if_neg (by omega), mix, if_neg (by omega), if_pos (by omega)]; congr 1; omega
    · show mix par args args n = mix par args old n
      unfold mix; split_ifs <;> first | rfl | omega
  · cases hc

end Spinas.SM
