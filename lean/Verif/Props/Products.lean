import Verif.SProductLemmas

/-! Spinor products: values, caches, exceptions (any arithmetic). -/

namespace Spinas.Props
open Spinas Spec

variable {R C : Type} [Scalar R] [Cplx R C]

/-! ### helpers -/

/-- settled kinematics of a particle with momentum `p` and mass `m` (`k` supplies members that are overwritten) -/
def settle (k : Kin R C) (p : V4 R) (m : R) : Kin R C := Kin.withAngles (Kin.withMags { k with m := m, p := p })

theorem settle_irrel (k k' : Kin R C) (p : V4 R) (m : R) : settle k p m = settle k' p m :=
  settle_congr (k := { k with m := m, p := p }) (k' := { k' with m := m, p := p }) rfl rfl

theorem partsOk_of_inUse {d : SPDef} {p : Nat → V4 R} {m : Nat → R} {w : World R C} (h : InUse d p m w) (k : Kin R C) :
    PartsOk (uses d) (fun i => settle k (p i) (m i)) w := by
  intro i hi
  obtain ⟨F, hF, hx, hk, _⟩ := (h i hi).fresh
  refine ⟨hF.ext hx, ?_⟩
  rw [hx.kin, hk]; exact settle_irrel _ _ _ _

theorem massive_settle (k : Kin R C) (p : V4 R) (m : R) : massive (settle k p m) = Scalar.ne m (int 0) := rfl

theorem sync_synced {a : Nat} {d : SPDef} {κ : Nat → Kin R C} {w w1 : World R C} (h : Sync a d w w1) (hp : PartsOk (uses d) κ w) :
    Synced a d κ w1 ∧ (∀ i, Ext (w.part i) (w1.part i)) ∧ (∀ j k, (w1.sp a).prod j k = none) := by
  have key : ∀ w : World R C, (w.sp a).desc = some d → PartsOk (uses d) κ w → SProd.update a w = (.ok (), w1) →
      Synced a d κ w1 ∧ (∀ i, Ext (w.part i) (w1.part i)) ∧ (∀ j k, (w1.sp a).prod j k = none) := by
    intro w hd hp hu
    obtain ⟨hA, hB, hC⟩ := update_spec hd hp
    cases hl : badLeft κ d with
    | true => obtain ⟨w', h1, _⟩ := hA hl; rw [h1] at hu; cases hu
    | false =>
      cases hr : badRight κ d with
      | true => obtain ⟨w', h1, _⟩ := hB hl hr; rw [h1] at hu; cases hu
      | false =>
        obtain ⟨w', h1, h2, h3, h4, _⟩ := hC hl hr
        rw [h1] at hu; cases hu
        exact ⟨h3, h2, h4⟩
  rcases h with h | ⟨hd, hu⟩
  · refine key (w.setSp a (SProd.raw d)) (by simp [World.setSp, SProd.raw]) hp ?_
    unfold SProd.construct at h
    cases hu : SProd.update a (w.setSp a (SProd.raw d)) with
    | mk r w' => rw [hu] at h; cases r <;> simp_all
  · exact key w hd hp hu

theorem sync_construct {a : Nat} {d : SPDef} {κ : Nat → Kin R C} {w : World R C} (hp : PartsOk (uses d) κ w) (hl : badLeft κ d = false)
    (hr : badRight κ d = false) : ∃ w1, SProd.construct a d w = (.ok (), w1) := by
  obtain ⟨_, _, hC⟩ := update_spec (a := a) (w := w.setSp a (SProd.raw d)) (d := d) (κ := κ) (by simp [World.setSp, SProd.raw]) hp
  obtain ⟨w', h1, _⟩ := hC hl hr
  exact ⟨w', by unfold SProd.construct; rw [h1]⟩

theorem synced_step {a : Nat} {d : SPDef} {κ : Nat → Kin R C} {w : World R C} (h : Synced a d κ w) (op : WOp R) (ho : Harmless a d op) :
    Synced a d κ (op.run w).2 := by
  have fr : ∀ {α : Type} {b : Nat} {f : Prog (World R C) α}, Frame b f → b ≠ a → Synced a d κ (f w).2 := by
    intro α b f hf hb
    exact h.of_ext (fun i _ => (hf w).1 i) ((hf w).2 a (Ne.symm hb))
  cases op with
  | part i op =>
    simp only [WOp.run, map_snd]
    cases op with
    | acc x =>
      refine h.of_ext (fun j _ => (wext_onPart i (f := (POp.acc x).run) (ext_acc x) w).1 j) rfl
    | setMass m =>
      refine h.of_ext (fun j hj => ?_) rfl
      have : j ≠ i := fun e => ho (e ▸ hj)
      simpa [onPart, World.setPart, this] using Ext.refl _
    | setMomentum q =>
      refine h.of_ext (fun j hj => ?_) rfl
      have : j ≠ i := fun e => ho (e ▸ hj)
      simpa [onPart, World.setPart, this] using Ext.refl _
    | update =>
      refine h.of_ext (fun j hj => ?_) rfl
      have : j ≠ i := fun e => ho (e ▸ hj)
      simpa [onPart, World.setPart, this] using Ext.refl _
  | construct b d' => simp only [WOp.run, map_snd]; exact fr (frame_construct b d') ho
  | update b =>
    simp only [WOp.run, map_snd]
    by_cases hb : b = a
    · subst hb
      obtain ⟨_, _, hC⟩ := update_spec h.desc h.parts
      obtain ⟨w', h1, _, h3, _⟩ := hC h.lu h.ru
      rw [h1]; exact h3
    · exact fr (frame_update b) hb
  | v0 b =>
    simp only [WOp.run, map_snd]
    by_cases hb : b = a
    · subst hb
      obtain ⟨w', h1, _, h3, _⟩ := v_spec h .v0 trivial
      have h1 : SProd.v0 b w = _ := h1
      rw [h1]; exact h3
    · exact fr (frame_v b .v0) hb
  | v1 b j =>
    simp only [WOp.run, map_snd]
    by_cases hb : b = a
    · subst hb
      obtain ⟨w', h1, _, h3, _⟩ := v_spec h (.v1 j) (ho rfl)
      have h1 : SProd.v1 b j w = _ := h1
      rw [h1]; exact h3
    · exact fr (frame_v b (.v1 j)) hb
  | v2 b j k =>
    simp only [WOp.run, map_snd]
    by_cases hb : b = a
    · subst hb
      obtain ⟨w', h1, _, h3, _⟩ := v_spec h (.v2 j k) (ho rfl)
      have h1 : SProd.v2 b j k w = _ := h1
      rw [h1]; exact h3
    · exact fr (frame_v b (.v2 j k)) hb

theorem synced_run {a : Nat} {d : SPDef} {κ : Nat → Kin R C} (ops : List (WOp R)) :
    ∀ {w : World R C}, Synced a d κ w → (∀ op ∈ ops, Harmless a d op) → Synced a d κ (runWOps ops w).2 := by
  induction ops with
  | nil => intro w h _; exact h
  | cons op ops ih =>
    intro w h ho
    exact ih (synced_step h op (ho op List.mem_cons_self)) fun o h' => ho o (List.mem_cons_of_mem _ h')

theorem slashAcc_eq {S : Nat → Prop} {κ : Nat → Kin R C} {w : World R C} (h : PartsOk S κ w) :
    ∀ (is : List Nat) (lower : Bool) (Ms : List (CMat C)), (∀ i ∈ is, S i) → slashAcc w lower is = Ms.map .ok →
    (∀ acc, slashes κ lower is acc = Ms.foldl (· * ·) acc) ∧
      (match is with | [] => Ms = [] | i :: is => ∃ Ns, Ms = slashVal lower (κ i) :: Ns ∧ ∀ acc, slashes κ (!lower) is acc = Ns.foldl (· * ·) acc) := by
  intro is
  induction is with
  | nil => intro lower Ms _ hM; cases Ms with
    | nil => exact ⟨fun _ => rfl, rfl⟩
    | cons M Ms => simp [slashAcc] at hM
  | cons i is ih =>
    intro lower Ms hS hM
    obtain ⟨hf, hk⟩ := h i (hS i List.mem_cons_self)
    cases Ms with
    | nil => simp [slashAcc] at hM
    | cons M Ms =>
      simp only [slashAcc, List.map_cons, List.cons.injEq] at hM
      obtain ⟨h1, h2⟩ := hM
      have hv : M = slashVal lower (κ i) := by
        rw [hf.lmat, hf.umat, hk] at h1
        unfold slashVal
        cases lower <;> simp at h1 <;> simp [h1]
      obtain ⟨a1, _⟩ := ih (!lower) Ms (fun j hj => hS j (List.mem_cons_of_mem _ hj)) h2
      subst hv
      exact ⟨fun acc => by rw [slashes, a1]; rfl, Ms, rfl, a1⟩

theorem endAcc_eq {P : Particle R C} {k : Kin R C} (hf : Fresh P) (hk : P.kin = k) (b : Br) (u : Bool) {j : Int} (hj : IsSpin j) :
    endAcc P b u j = .ok (endVec k b u j) := by
  unfold endAcc
  rw [hk]
  cases hm : massive k with
  | true => rw [if_pos rfl]; exact end_massive hf hk hm b u hj
  | false => rw [if_neg (by simp)]; exact end_massless hf hk hm b u j

theorem valid_spins {c : VCall} (h : c.Valid) : IsSpin c.left ∧ IsSpin c.right := by
  cases c with
  | v0 => exact ⟨.inl rfl, .inl rfl⟩
  | v1 j => exact ⟨h, h⟩
  | v2 j k => exact h

theorem outcome_fits {κ : Nat → Kin R C} {d : SPDef} {c : VCall} (h : c.Fits (massive (κ d.left)) (massive (κ d.right))) :
    outcome κ d c = .ok (chain κ d c.left c.right) := by
  cases c <;> simp_all [outcome, VCall.Fits, VCall.left, VCall.right]

theorem outcome_not_fits {κ : Nat → Kin R C} {d : SPDef} {c : VCall} (h : ¬ c.Fits (massive (κ d.left)) (massive (κ d.right))) :
    outcome κ d c = .throw c.arityExc := by
  cases c with
  | v0 => simp only [VCall.Fits] at h; simp only [outcome, VCall.arityExc]; rw [if_pos]; cases h1 : massive (κ d.left) <;> cases h2 : massive (κ d.right) <;> simp_all
  | v1 => simp_all [outcome, VCall.Fits, VCall.arityExc]
  | v2 => simp only [VCall.Fits] at h; simp only [outcome, VCall.arityExc]; rw [if_neg]; cases h1 : massive (κ d.left) <;> cases h2 : massive (κ d.right) <;> simp_all

/-! ### C21 -/

/-- **C21.** After the constructor or `update()` of a product whose particles are in use, whatever harmless calls follow, a call with valid
spins and the right number of arguments returns the product of what the accessors of the particles return: the left spinor, then `lmat`
and `umat` in turn of the internal particles (starting with `lmat` exactly if the left bracket is an angle), then the right spinor, an
angle spinor exactly if the brackets match the parity of the number of momenta.  The index placement of massive ends is respected. -/
theorem C21_value (a : Nat) (d : SPDef) (p : Nat → V4 R) (m : Nat → R) (w w1 : World R C) (hu : InUse d p m w) (hs : Sync a d w w1)
    (ops : List (WOp R)) (ho : ∀ op ∈ ops, Harmless a d op) (c : VCall) (hc : c.Valid)
    (hfit : c.Fits (Scalar.ne (m d.left) (int 0)) (Scalar.ne (m d.right) (int 0))) (vl vr : CVec C) (Ms : List (CMat C))
    (hl : endAcc (w.part d.left) (if d.leftAngle then .langle else .lsquare) d.leftUpper c.left = .ok vl)
    (hM : slashAcc w d.leftAngle d.mids = Ms.map .ok)
    (hr : endAcc (w.part d.right) (if d.leftAngle = decide (d.mids.length % 2 = 0) then .rangle else .rsquare) d.rightUpper c.right = .ok vr) :
    (c.run a (runWOps ops w1).2).1 = .ok (chainOf vl Ms vr) := by
  have hp := partsOk_of_inUse hu (w.part 0).kin
  obtain ⟨hsy, hx, _⟩ := sync_synced hs hp
  have hsy' := synced_run ops hsy ho
  obtain ⟨w', h1, _⟩ := v_spec hsy' c hc
  obtain ⟨hL, hR⟩ := valid_spins hc
  rw [h1, outcome_fits (by simpa [massive_settle] using hfit)]
  obtain ⟨pl1, pl2⟩ := hp _ (.inl rfl)
  obtain ⟨pr1, pr2⟩ := hp _ (.inr (.inl rfl))
  rw [endAcc_eq pl1 pl2 _ _ hL] at hl
  rw [endAcc_eq pr1 pr2 _ _ hR] at hr
  injection hl with hl
  injection hr with hr
  show Res.ok _ = _
  unfold chain kindL kindR
  rw [hl, hr]
  have hsl := (slashAcc_eq hp d.mids d.leftAngle Ms (fun i hi => .inr (.inr hi)) hM).2
  cases hmid : d.mids with
  | nil => rw [hmid] at hsl; subst hsl; rfl
  | cons i is =>
    rw [hmid] at hsl
    obtain ⟨Ns, rfl, hN⟩ := hsl
    simp only [through, chainOf]
    rw [hN]

/-! ### C22 -/

/-- **C22.** Caches are unobservable: however the product at `a` was brought up to date and whatever harmless calls followed on this and
on other products sharing the particles, a call with valid spins has the same outcome as on a product newly constructed from the same
description over particles `w'` with the same momenta and masses (in any other state, at any other address). -/
theorem C22_history (a a' : Nat) (d : SPDef) (p : Nat → V4 R) (m : Nat → R) (w w1 w' : World R C) (hu : InUse d p m w) (hu' : InUse d p m w')
    (hs : Sync a d w w1) (ops : List (WOp R)) (ho : ∀ op ∈ ops, Harmless a d op) (c : VCall) (hc : c.Valid) :
    ∃ w1', SProd.construct a' d w' = (.ok (), w1') ∧ (c.run a (runWOps ops w1).2).1 = (c.run a' w1').1 := by
  have hp := partsOk_of_inUse hu (w.part 0).kin
  have hp' := partsOk_of_inUse hu' (w.part 0).kin
  obtain ⟨hsy, hx, _⟩ := sync_synced hs hp
  obtain ⟨w1', h1'⟩ := sync_construct (a := a') hp' hsy.lu hsy.ru
  obtain ⟨hsy', _⟩ := sync_synced (.inl h1') hp'
  obtain ⟨_, e1, _⟩ := v_spec (synced_run ops hsy ho) c hc
  obtain ⟨_, e2, _⟩ := v_spec hsy' c hc
  exact ⟨w1', h1', by rw [e1, e2]⟩

/-! ### C23 -/

theorem elsewhere_step {a : Nat} (op : WOp R) (h : Elsewhere a op) (w : World R C) : (op.run w).2.sp a = w.sp a := by
  cases op with
  | part i op => simp only [WOp.run, map_snd]; rfl
  | construct b d => simp only [WOp.run, map_snd]; exact (frame_construct b d w).2 a (Ne.symm h)
  | update b => simp only [WOp.run, map_snd]; exact (frame_update b w).2 a (Ne.symm h)
  | v0 b => simp only [WOp.run, map_snd]; exact (frame_v b .v0 w).2 a (Ne.symm h)
  | v1 b j => simp only [WOp.run, map_snd]; exact (frame_v b (.v1 j) w).2 a (Ne.symm h)
  | v2 b j k => simp only [WOp.run, map_snd]; exact (frame_v b (.v2 j k) w).2 a (Ne.symm h)

theorem elsewhere_run {a : Nat} (ops : List (WOp R)) : ∀ (w : World R C), (∀ op ∈ ops, Elsewhere a op) → (runWOps ops w).2.sp a = w.sp a := by
  induction ops with
  | nil => intro w _; rfl
  | cons op ops ih =>
    intro w h
    exact (ih _ fun o h' => h o (List.mem_cons_of_mem _ h')).trans (elsewhere_step op (h op List.mem_cons_self) w)

/-- the cache entry a call looks at -/
def entry (lm : Bool) : VCall → Bool × Bool
  | .v0 => (false, false)
  | .v1 j => if lm then (decide (j > 0), false) else (false, decide (j > 0))
  | .v2 j k => (decide (j > 0), decide (k > 0))

theorem run_cached {a : Nat} {c : VCall} {w : World R C} {x : C} (hf : c.Fits (w.sp a).leftMassive (w.sp a).rightMassive)
    (he : (w.sp a).prod (entry (w.sp a).leftMassive c).1 (entry (w.sp a).leftMassive c).2 = some x) : c.run a w = (.ok x, w) := by
  cases c with
  | v0 =>
    simp only [VCall.Fits] at hf
    simp only [entry] at he
    simp [VCall.run, SProd.v0, hf.1, hf.2, he]
  | v1 j =>
    simp only [VCall.Fits] at hf
    simp only [entry] at he
    cases hl : (w.sp a).leftMassive <;> cases hr : (w.sp a).rightMassive <;> simp_all [VCall.run, SProd.v1]
  | v2 j k =>
    simp only [VCall.Fits] at hf
    simp only [entry] at he
    simp [VCall.run, SProd.v2, hf.1, hf.2, he]

theorem evalEntry_sticky {a : Nat} {d : SPDef} {m : CMat C} {jL jR : Bool} {lft rgt : Prog (Particle R C) (CVec C)} {w w' : World R C} {x : C}
    (h : SProd.evalEntry a d m jL jR lft rgt w = (.ok x, w')) :
    (w'.sp a).prod jL jR = some x ∧ (w'.sp a).leftMassive = (w.sp a).leftMassive ∧ (w'.sp a).rightMassive = (w.sp a).rightMassive ∧
      ∀ j k, (j, k) ≠ (jL, jR) → (w'.sp a).prod j k = (w.sp a).prod j k := by
  unfold SProd.evalEntry at h
  rw [Prog.bind_run] at h
  cases h1 : onPart d.left lft w with
  | mk r1 w1 =>
    have hs1 : w1.sp = w.sp := by have : (onPart d.left lft w).2.sp = w.sp := rfl; rw [h1] at this; exact this
    rw [h1] at h
    cases r1 with
    | throw e => simp at h
    | crash => simp at h
    | ok v1 =>
      dsimp only at h
      rw [Prog.bind_run] at h
      cases h2 : onPart d.right rgt w1 with
      | mk r2 w2 =>
        have hs2 : w2.sp = w1.sp := by have : (onPart d.right rgt w1).2.sp = w1.sp := rfl; rw [h2] at this; exact this
        rw [h2] at h
        cases r2 with
        | throw e => simp at h
        | crash => simp at h
        | ok v2 =>
          dsimp only at h
          rw [Prog.bind_run, Prog.modify_run] at h
          dsimp only at h
          rw [Prog.pure_run] at h
          obtain ⟨hx, hw⟩ := Prod.mk.inj h
          injection hx with hx
          subst hw
          refine ⟨by simp [World.setSp, hx], by simp [World.setSp, hs2, hs1], by simp [World.setSp, hs2, hs1], ?_⟩
          intro j k hjk
          have : ¬(j = jL ∧ k = jR) := fun ⟨e1, e2⟩ => hjk (by rw [e1, e2])
          simp [World.setSp, this, hs2, hs1]

/-- After a call returned `x` the entry it used is cached. -/
theorem run_sticky {a : Nat} {c : VCall} {w w' : World R C} {x : C} (h : c.run a w = (.ok x, w')) :
    c.Fits (w'.sp a).leftMassive (w'.sp a).rightMassive ∧ (w'.sp a).leftMassive = (w.sp a).leftMassive ∧
    (w'.sp a).rightMassive = (w.sp a).rightMassive ∧
    (w'.sp a).prod (entry (w'.sp a).leftMassive c).1 (entry (w'.sp a).leftMassive c).2 = some x := by
  cases c with
  | v0 =>
    simp only [VCall.run, SProd.v0] at h
    cases hl : (w.sp a).leftMassive <;> cases hr : (w.sp a).rightMassive <;> simp only [hl, hr] at h <;> try (simp at h; done)
    simp only [Bool.or_false, Bool.false_eq_true, if_false] at h
    cases hp : (w.sp a).prod false false with
    | some y => simp only [hp] at h; cases h; simp [VCall.Fits, hl, hr, entry, hp]
    | none =>
      cases hd : (w.sp a).desc with
      | none => simp [hp, hd] at h
      | some d =>
        simp only [hp, hd] at h
        obtain ⟨h1, h2, h3, _⟩ := evalEntry_sticky h
        simp [VCall.Fits, h2, h3, hl, hr, entry, h1]
  | v1 j =>
    simp only [VCall.run, SProd.v1] at h
    cases hl : (w.sp a).leftMassive <;> cases hr : (w.sp a).rightMassive <;> simp only [hl, hr] at h <;> try (simp at h; done)
    · simp only [Bool.false_eq_true, if_false, if_true] at h
      cases hp : (w.sp a).prod false (decide (j > 0)) with
      | some y => simp only [hp] at h; cases h; simp [VCall.Fits, hl, hr, entry]; exact hp
      | none =>
        cases hd : (w.sp a).desc with
        | none => simp only [hp, hd] at h; cases h
        | some d =>
          simp only [hp, hd] at h
          obtain ⟨h1, h2, h3, _⟩ := evalEntry_sticky h
          simp [VCall.Fits, h2, h3, hl, hr, entry]; exact h1
    · simp only [Bool.false_eq_true, if_false, if_true] at h
      cases hp : (w.sp a).prod (decide (j > 0)) false with
      | some y => simp only [hp] at h; cases h; simp [VCall.Fits, hl, hr, entry]; exact hp
      | none =>
        cases hd : (w.sp a).desc with
        | none => simp only [hp, hd] at h; cases h
        | some d =>
          simp only [hp, hd] at h
          obtain ⟨h1, h2, h3, _⟩ := evalEntry_sticky h
          simp [VCall.Fits, h2, h3, hl, hr, entry]; exact h1
  | v2 j k =>
    simp only [VCall.run, SProd.v2] at h
    cases hl : (w.sp a).leftMassive <;> cases hr : (w.sp a).rightMassive <;> simp only [hl, hr] at h <;> try (simp at h; done)
    simp only [Bool.not_true, Bool.or_false, Bool.false_eq_true, if_false] at h
    cases hp : (w.sp a).prod (decide (j > 0)) (decide (k > 0)) with
    | some y => simp only [hp] at h; cases h; simp [VCall.Fits, hl, hr, entry]; exact hp
    | none =>
      cases hd : (w.sp a).desc with
      | none => simp only [hp, hd] at h; cases h
      | some d =>
        simp only [hp, hd] at h
        obtain ⟨h1, h2, h3, _⟩ := evalEntry_sticky h
        simp [VCall.Fits, h2, h3, hl, hr, entry]; exact h1

/-- **C23** (staleness).  Once a call on a product has returned `x`, the same call returns `x` and changes nothing, after any calls
whatsoever on the particles (momenta and masses set, accepted or rejected) and on other products, until the product itself is updated. -/
theorem C23_stale (a : Nat) (c : VCall) (w w1 : World R C) (x : C) (h : c.run a w = (.ok x, w1)) (ops : List (WOp R))
    (ho : ∀ op ∈ ops, Elsewhere a op) : c.run a (runWOps ops w1).2 = (.ok x, (runWOps ops w1).2) := by
  obtain ⟨h1, _, _, h4⟩ := run_sticky h
  have hs := elsewhere_run ops w1 ho
  exact run_cached (by rw [hs]; exact h1) (by rw [hs]; exact h4)

theorem desc_update (a : Nat) (w : World R C) : ((SProd.update a w).2.sp a).desc = (w.sp a).desc := by
  simp only [SProd.update]
  split
  · rfl
  · rename_i d hd
    unfold Prog.bind
    cases h1 : onPart d.left Particle.getMass w with
    | mk r1 w1 =>
      have hs1 : w1.sp = w.sp := by have : (onPart d.left Particle.getMass w).2.sp = w.sp := rfl; rw [h1] at this; exact this
      cases r1 with
      | throw e => rw [hs1]
      | crash => rw [hs1]
      | ok mL =>
        dsimp only
        cases h2 : onPart d.right Particle.getMass w1 with
        | mk r2 w2 =>
          have hs2 : w2.sp = w1.sp := by have : (onPart d.right Particle.getMass w1).2.sp = w1.sp := rfl; rw [h2] at this; exact this
          cases r2 with
          | throw e => dsimp only; rw [hs2, hs1]
          | crash => dsimp only; rw [hs2, hs1]
          | ok mR =>
            dsimp only
            split
            · simp [World.setSp]
            · split
              · simp [World.setSp]
              · have hfr : ∀ s, (SProd.midProd d.leftAngle d.mids (w2.setSp a s)).2.sp a = s := fun s => by
                  rw [(frame_midProd (a + 1) d.leftAngle d.mids _).2 a (by omega)]; simp [World.setSp]
                generalize hs : (SProd.mk _ _ _ _ (fun _ _ => none) : SProd C) = s2
                have hxs := hfr s2
                generalize SProd.midProd d.leftAngle d.mids (w2.setSp a s2) = X at hxs ⊢
                obtain ⟨r, w3⟩ := X
                cases r with
                | throw e => dsimp only at hxs ⊢; rw [hxs, ← hs]
                | crash => dsimp only at hxs ⊢; rw [hxs, ← hs]
                | ok mm =>
                  dsimp only at hxs ⊢
                  cases mm with
                  | none => dsimp only; rw [hxs, ← hs]
                  | some mm => simp [World.setSp]

theorem desc_evalEntry {a : Nat} {d : SPDef} {m : CMat C} {jL jR : Bool} {lft rgt : Prog (Particle R C) (CVec C)} (w : World R C) :
    ((SProd.evalEntry a d m jL jR lft rgt w).2.sp a).desc = (w.sp a).desc := by
  unfold SProd.evalEntry
  rw [Prog.bind_run]
  cases h1 : onPart d.left lft w with
  | mk r1 w1 =>
    have hs1 : w1.sp = w.sp := by have : (onPart d.left lft w).2.sp = w.sp := rfl; rw [h1] at this; exact this
    cases r1 with
    | throw e => dsimp only; rw [hs1]
    | crash => dsimp only; rw [hs1]
    | ok v1 =>
      dsimp only
      rw [Prog.bind_run]
      cases h2 : onPart d.right rgt w1 with
      | mk r2 w2 =>
        have hs2 : w2.sp = w1.sp := by have : (onPart d.right rgt w1).2.sp = w1.sp := rfl; rw [h2] at this; exact this
        cases r2 with
        | throw e => dsimp only; rw [hs2, hs1]
        | crash => dsimp only; rw [hs2, hs1]
        | ok v2 => dsimp only; rw [Prog.bind_run, Prog.modify_run]; simp [World.setSp, hs2, hs1]

theorem desc_v (a : Nat) (c : VCall) (w : World R C) : ((c.run a w).2.sp a).desc = (w.sp a).desc := by
  cases c with
  | v0 =>
    simp only [VCall.run, SProd.v0]
    split
    · rfl
    · split <;> first | rfl | exact desc_evalEntry w
  | v1 j =>
    simp only [VCall.run, SProd.v1]
    split
    · split
      · rfl
      · split <;> first | rfl | exact desc_evalEntry w
    · split
      · split <;> first | rfl | exact desc_evalEntry w
      · rfl
  | v2 j k =>
    simp only [VCall.run, SProd.v2]
    split
    · rfl
    · split <;> first | rfl | exact desc_evalEntry w

theorem desc_step {a : Nat} (op : WOp R) (h : NotRebuilt a op) (w : World R C) : ((op.run w).2.sp a).desc = (w.sp a).desc := by
  cases op with
  | part i op => simp only [WOp.run, map_snd]; rfl
  | construct b d => simp only [WOp.run, map_snd]; rw [(frame_construct b d w).2 a (Ne.symm h)]
  | update b =>
    simp only [WOp.run, map_snd]
    by_cases hb : b = a
    · subst hb; exact desc_update b w
    · rw [(frame_update b w).2 a (Ne.symm hb)]
  | v0 b =>
    simp only [WOp.run, map_snd]
    by_cases hb : b = a
    · subst hb; exact desc_v b .v0 w
    · exact congrArg _ ((frame_v b .v0 w).2 a (Ne.symm hb))
  | v1 b j =>
    simp only [WOp.run, map_snd]
    by_cases hb : b = a
    · subst hb; exact desc_v b (.v1 j) w
    · exact congrArg _ ((frame_v b (.v1 j) w).2 a (Ne.symm hb))
  | v2 b j k =>
    simp only [WOp.run, map_snd]
    by_cases hb : b = a
    · subst hb; exact desc_v b (.v2 j k) w
    · exact congrArg _ ((frame_v b (.v2 j k) w).2 a (Ne.symm hb))

theorem desc_run {a : Nat} (ops : List (WOp R)) : ∀ (w : World R C), (∀ op ∈ ops, NotRebuilt a op) → ((runWOps ops w).2.sp a).desc = (w.sp a).desc := by
  induction ops with
  | nil => intro w _; rfl
  | cons op ops ih =>
    intro w h
    exact (ih _ fun o h' => h o (List.mem_cons_of_mem _ h')).trans (desc_step op (h op List.mem_cons_self) w)

theorem desc_construct {a : Nat} {d : SPDef} {w w1 : World R C} (h : SProd.construct a d w = (.ok (), w1)) : (w1.sp a).desc = some d := by
  unfold SProd.construct at h
  have := desc_update a (w.setSp a (SProd.raw d))
  cases hu : SProd.update a (w.setSp a (SProd.raw d)) with
  | mk r w' =>
    rw [hu] at h this
    cases r with
    | ok u => cases h; rw [this]; simp [World.setSp, SProd.raw]
    | throw e => cases h
    | crash => cases h

/-- **C23** (resynchronisation).  Take a product constructed at any time, then any calls at all (momenta and masses set on its particles,
calls with invalid spins, failed updates, ...) except constructing another product in its place.  If its particles are now in use with
momenta `p` and masses `m` and `update()` returns normally, then every later call with valid spins, after any further harmless calls, has the
same outcome as on a newly constructed product over other particles with these momenta and masses: nothing of the past is left. -/
theorem C23_resync (a a' : Nat) (d : SPDef) (p : Nat → V4 R) (m : Nat → R) (w0 w1 : World R C) (h0 : SProd.construct a d w0 = (.ok (), w1))
    (pre : List (WOp R)) (hpre : ∀ op ∈ pre, NotRebuilt a op) (hu : InUse d p m (runWOps pre w1).2) (w2 : World R C)
    (hup : SProd.update a (runWOps pre w1).2 = (.ok (), w2)) (ops : List (WOp R)) (ho : ∀ op ∈ ops, Harmless a d op)
    (w' : World R C) (hu' : InUse d p m w') (c : VCall) (hc : c.Valid) :
    ∃ w1', SProd.construct a' d w' = (.ok (), w1') ∧ (c.run a (runWOps ops w2).2).1 = (c.run a' w1').1 :=
  C22_history a a' d p m _ w2 w' hu hu' (.inr ⟨(desc_run pre w1 hpre).trans (desc_construct h0), hup⟩) ops ho c hc

/-! ### C24 -/

theorem umat_ok (P : Particle R C) : ∃ M, (Particle.umat P).1 = .ok M := by
  unfold Particle.umat; split <;> exact ⟨_, rfl⟩
theorem lmat_ok (P : Particle R C) : ∃ M, (Particle.lmat P).1 = .ok M := by
  unfold Particle.lmat; split <;> exact ⟨_, rfl⟩

theorem slashed_isOk (l : Bool) (i : Nat) (w : World R C) : ∃ M w', SProd.slashed l i w = (.ok M, w') := by
  unfold SProd.slashed
  cases l
  · obtain ⟨M, h⟩ := umat_ok (w.part i)
    exact ⟨M, (onPart i Particle.umat w).2, Prod.ext (by simpa [onPart_fst] using h) rfl⟩
  · obtain ⟨M, h⟩ := lmat_ok (w.part i)
    exact ⟨M, (onPart i Particle.lmat w).2, Prod.ext (by simpa [onPart_fst] using h) rfl⟩

theorem midLoop_isOk (is : List Nat) : ∀ (l : Bool) (acc : CMat C) (w : World R C), ∃ M w', SProd.midLoop l is acc w = (.ok M, w') := by
  induction is with
  | nil => intro l acc w; exact ⟨acc, w, rfl⟩
  | cons i is ih =>
    intro l acc w
    obtain ⟨M, w1, h1⟩ := slashed_isOk l i w
    obtain ⟨N, w2, h2⟩ := ih (!l) (acc * M) w1
    exact ⟨N, w2, by unfold SProd.midLoop; rw [Prog.bind_ok h1, h2]⟩

theorem midProd_isOk (l : Bool) (is : List Nat) (w : World R C) : ∃ M w', SProd.midProd l is w = (.ok M, w') := by
  cases is with
  | nil => exact ⟨none, w, rfl⟩
  | cons i is =>
    obtain ⟨M, w1, h1⟩ := slashed_isOk l i w
    obtain ⟨N, w2, h2⟩ := midLoop_isOk is (!l) M w1
    refine ⟨some N, w2, ?_⟩
    show (SProd.slashed l i >>= fun m => SProd.midLoop (!l) is m >>= fun r => pure (some r)) w = _
    rw [Prog.bind_ok h1, Prog.bind_ok h2]; rfl

/-- The outcome of `update()` in any state, and what it does to the object when it throws. -/
theorem update_any {a : Nat} {d : SPDef} (w : World R C) (hd : (w.sp a).desc = some d) :
    let lm := Scalar.ne (w.part d.left).kin.m (int 0)
    let rm := Scalar.ne (w.part d.right).kin.m (int 0)
    (SProd.update a w).1 = (if !lm && !d.leftUpper then .throw .lowerLeft else if !rm && !d.rightUpper then .throw .lowerRight else .ok ()) ∧
    ((SProd.update a w).1 ≠ .ok () → (SProd.update a w).2.sp a = { w.sp a with leftMassive := lm, rightMassive := rm }) := by
  intro lm rm
  have e1 : onPart d.left Particle.getMass w = (.ok (w.part d.left).kin.m, (onPart d.left Particle.getMass w).2) := rfl
  generalize hw1 : (onPart d.left Particle.getMass w).2 = w1 at e1
  have hs1 : w1.sp = w.sp := by rw [← hw1]; rfl
  have hm : (w1.part d.right).kin.m = (w.part d.right).kin.m := by
    rw [← hw1, ((wext_onPart d.left ext_getMass w).1 d.right).kin]
  have e2 : onPart d.right Particle.getMass w1 = (.ok (w.part d.right).kin.m, (onPart d.right Particle.getMass w1).2) := by
    rw [← hm]; rfl
  generalize hw2 : (onPart d.right Particle.getMass w1).2 = w2 at e2
  simp only [SProd.update, hd]
  unfold Prog.bind
  simp only [e1, e2]
  change (Prod.fst (if (!lm && !d.leftUpper) = true then _ else if (!rm && !d.rightUpper) = true then _ else _)) = _ ∧
    ((Prod.fst (if (!lm && !d.leftUpper) = true then _ else if (!rm && !d.rightUpper) = true then _ else _)) ≠ _ →
      World.sp (Prod.snd (if (!lm && !d.leftUpper) = true then _ else if (!rm && !d.rightUpper) = true then _ else _)) a = _)
  split
  · exact ⟨rfl, fun _ => by simp [World.setSp, lm, rm]⟩
  · split
    · exact ⟨rfl, fun _ => by simp [World.setSp, lm, rm]⟩
    · generalize hX : SProd.midProd d.leftAngle d.mids (w2.setSp a _) = X
      obtain ⟨M, w3, h3⟩ := midProd_isOk d.leftAngle d.mids (w2.setSp a _)
      rw [h3] at hX
      subst hX
      cases M <;> exact ⟨rfl, fun h => absurd rfl h⟩

/-- **C24.** In any state of the objects, constructing or updating a product throws exactly if an end with a lower index is massless at that
moment (the left one is reported first); a constructor that throws leaves the old object in place. -/
theorem C24_lower_index (a : Nat) (d : SPDef) (w : World R C) (mL mR : R) (hL : (Particle.getMass (w.part d.left)).1 = .ok mL)
    (hR : (Particle.getMass (w.part d.right)).1 = .ok mR) :
    let r : Res Unit := if Scalar.eq mL (int 0) = true ∧ d.leftUpper = false then .throw .lowerLeft
      else if Scalar.eq mR (int 0) = true ∧ d.rightUpper = false then .throw .lowerRight else .ok ()
    (SProd.construct a d w).1 = r ∧ ((w.sp a).desc = some d → (SProd.update a w).1 = r) ∧
    (r ≠ .ok () → (SProd.construct a d w).2.sp a = w.sp a) := by
  intro r
  have hL : (w.part d.left).kin.m = mL := by simpa [Particle.getMass] using hL
  have hR : (w.part d.right).kin.m = mR := by simpa [Particle.getMass] using hR
  have key : ∀ w : World R C, (w.part d.left).kin.m = mL → (w.part d.right).kin.m = mR → (w.sp a).desc = some d → (SProd.update a w).1 = r := by
    intro w hL hR hd
    rw [(update_any w hd).1, hL, hR]
    show _ = ite _ _ _
    cases hel : (Scalar.eq mL (int 0) : Bool) <;> cases her : (Scalar.eq mR (int 0) : Bool) <;> simp [Scalar.ne, hel, her]
  have hc : SProd.construct a d w = match SProd.update a (w.setSp a (SProd.raw d)) with
    | (.ok u, w') => (.ok u, w')
    | (r, w') => (r, w'.setSp a (w.sp a)) := rfl
  have hk := key (w.setSp a (SProd.raw d)) hL hR (by simp [World.setSp, SProd.raw])
  refine ⟨?_, key w hL hR, ?_⟩
  · rw [hc]
    cases hu : SProd.update a (w.setSp a (SProd.raw d)) with
    | mk x w' => rw [hu] at hk; dsimp only at hk; rw [← hk]; cases x <;> rfl
  · intro hr
    rw [hc]
    cases hu : SProd.update a (w.setSp a (SProd.raw d)) with
    | mk x w' =>
      rw [hu] at hk; dsimp only at hk
      cases x with
      | ok u => exact absurd hk.symm hr
      | throw e => simp [World.setSp]
      | crash => simp [World.setSp]

/-- **C24** (no clean failure).  An `update()` that throws has already replaced the mass flags but keeps the old values.  So if the product
had both ends massive and `v(-1, k)` returned `x`, and then the left particle with its lower index became massless, `update()` throws, and
afterwards `v(k)`, which never had a meaning, returns the outdated `x`, while the calls `v(jL, jR)` that used to work throw. -/
theorem C24_failed_update (a : Nat) (d : SPDef) (w w1 : World R C) (k : Int) (x : C) (hd : (w.sp a).desc = some d)
    (h : SProd.v2 a (-1) k w = (.ok x, w1)) (ops : List (WOp R)) (ho : ∀ op ∈ ops, Elsewhere a op) (w2 : World R C) (hw2 : w2 = (runWOps ops w1).2)
    (mL mR : R) (hL : (Particle.getMass (w2.part d.left)).1 = .ok mL) (hR : (Particle.getMass (w2.part d.right)).1 = .ok mR)
    (hL0 : Scalar.eq mL (int 0) = true) (hR0 : Scalar.eq mR (int 0) = false) (hlow : d.leftUpper = false) :
    ∃ w3, SProd.update a w2 = (.throw .lowerLeft, w3) ∧ SProd.v1 a k w3 = (.ok x, w3) ∧ ∀ j l, SProd.v2 a j l w3 = (.throw .arityTwo, w3) := by
  have hc : VCall.run a (.v2 (-1) k) w = (.ok x, w1) := h
  obtain ⟨f1, f2, f3, f4⟩ := run_sticky hc
  have hs : w2.sp a = w1.sp a := by rw [hw2]; exact elsewhere_run ops w1 ho
  have hd1 : (w1.sp a).desc = some d := by
    have := desc_v a (.v2 (-1) k) w
    rw [hc] at this
    exact this.trans hd
  have hd2 : (w2.sp a).desc = some d := by rw [hs]; exact hd1
  have hL : (w2.part d.left).kin.m = mL := by simpa [Particle.getMass] using hL
  have hR : (w2.part d.right).kin.m = mR := by simpa [Particle.getMass] using hR
  obtain ⟨u1, u2⟩ := update_any w2 hd2
  have u1' : (SProd.update a w2).1 = .throw .lowerLeft := by
    rw [u1, hL]; simp [Scalar.ne, hL0, hlow]
  have u2' := u2 (by rw [u1']; simp)
  rw [hL, hR] at u2'
  refine ⟨(SProd.update a w2).2, Prod.ext u1' rfl, ?_, ?_⟩
  · refine run_cached (c := .v1 k) ?_ ?_
    · rw [u2']; simp [VCall.Fits, Scalar.ne, hL0, hR0]
    · rw [u2']
      simp only [entry, Scalar.ne, hL0, Bool.not_true, Bool.false_eq_true, if_false, hs]
      simpa [entry] using f4
  · intro j l
    simp [SProd.v2, u2', Scalar.ne, hL0]

/-! ### C25 -/

/-- **C25.** On a product that is up to date, a call throws its "wrong number of arguments" exception exactly if the number of arguments differs
from the number of massive ends; then no object changes. -/
theorem C25_arity (a : Nat) (d : SPDef) (p : Nat → V4 R) (m : Nat → R) (w w1 : World R C) (hu : InUse d p m w) (hs : Sync a d w w1)
    (ops : List (WOp R)) (ho : ∀ op ∈ ops, Harmless a d op) (c : VCall) :
    let w2 := (runWOps ops w1).2
    let fits := c.Fits (Scalar.ne (m d.left) (int 0)) (Scalar.ne (m d.right) (int 0))
    (¬ fits → c.run a w2 = (.throw c.arityExc, w2)) ∧ (fits → (c.run a w2).1 ≠ .throw c.arityExc) ∧
    (fits → c.Valid → ∃ x, (c.run a w2).1 = .ok x) := by
  intro w2 fits
  have hp := partsOk_of_inUse hu (w.part 0).kin
  obtain ⟨hsy, _, _⟩ := sync_synced hs hp
  have hsy' : Synced a d _ w2 := synced_run ops hsy ho
  have hlm := hsy'.lm
  have hrm := hsy'.rm
  rw [massive_settle] at hlm hrm
  refine ⟨?_, ?_, ?_⟩
  · intro hf
    cases c with
    | v0 =>
      simp only [fits, VCall.Fits, ← hlm, ← hrm] at hf
      simp only [VCall.run, SProd.v0, VCall.arityExc]
      cases h1 : (w2.sp a).leftMassive <;> cases h2 : (w2.sp a).rightMassive <;> simp_all
    | v1 j =>
      simp only [fits, VCall.Fits, ← hlm, ← hrm] at hf
      simp only [VCall.run, SProd.v1, VCall.arityExc]
      cases h1 : (w2.sp a).leftMassive <;> cases h2 : (w2.sp a).rightMassive <;> simp_all
    | v2 j k =>
      simp only [fits, VCall.Fits, ← hlm, ← hrm] at hf
      simp only [VCall.run, SProd.v2, VCall.arityExc]
      cases h1 : (w2.sp a).leftMassive <;> cases h2 : (w2.sp a).rightMassive <;> simp_all
  · intro hf hthrow
    have hfe : ∀ (D : SPDef) (M : CMat C) (jL jR : Bool) (lft rgt : Prog (Particle R C) (CVec C)) (e : Exc), (∀ P, (lft P).1 ≠ .throw e) →
        (∀ P, (rgt P).1 ≠ .throw e) → (SProd.evalEntry a D M jL jR lft rgt w2).1 ≠ .throw e := by
      intro D M jL jR lft rgt e he1 he2 hh
      unfold SProd.evalEntry at hh
      rw [Prog.bind_run] at hh
      have a1 := he1 (w2.part D.left)
      cases h1 : onPart D.left lft w2 with
      | mk r1 v1 =>
        have : (lft (w2.part D.left)).1 = r1 := by rw [← onPart_fst, h1]
        rw [h1] at hh; rw [this] at a1
        cases r1 with
        | throw e' => exact a1 (by simpa using hh)
        | crash => simp at hh
        | ok x1 =>
          dsimp only at hh
          rw [Prog.bind_run] at hh
          have a2 := he2 (v1.part D.right)
          cases h2 : onPart D.right rgt v1 with
          | mk r2 v2 =>
            have : (rgt (v1.part D.right)).1 = r2 := by rw [← onPart_fst, h2]
            rw [h2] at hh; rw [this] at a2
            cases r2 with
            | throw e' => exact a2 (by simpa using hh)
            | crash => simp at hh
            | ok x2 => simp [Prog.bind_run] at hh
    have hh : ∀ (b : Br) (P : Particle R C) e, e = .arityNone ∨ e = .arityOne ∨ e = .arityTwo → (Particle.helicity b P).1 ≠ .throw e := by
      intro b P e he hx
      unfold Particle.helicity at hx
      split at hx
      · simp at hx
      · split at hx <;> simp at hx; subst hx; simp at he
    have hsn : ∀ (b : Br) (j : Int) (u : Bool) (P : Particle R C) e, e = .arityNone ∨ e = .arityOne ∨ e = .arityTwo → (Particle.spinor b j u P).1 ≠ .throw e := by
      intro b j u P e he hx
      unfold Particle.spinor at hx
      split at hx
      · simp at hx; subst hx; simp at he
      · dsimp only at hx
        split at hx
        · simp at hx
        · split at hx <;> simp at hx; subst hx; simp at he
    cases c with
    | v0 =>
      simp only [fits, VCall.Fits, ← hlm, ← hrm] at hf
      simp only [VCall.run, SProd.v0, hf.1, hf.2, VCall.arityExc, hsy'.desc] at hthrow
      cases hp : (w2.sp a).prod false false with
      | some x => simp [hp] at hthrow
      | none => simp only [hp] at hthrow; exact hfe _ _ _ _ _ _ _ (fun P => hh _ P _ (.inl rfl)) (fun P => hh _ P _ (.inl rfl)) hthrow
    | v1 j =>
      simp only [fits, VCall.Fits, ← hlm, ← hrm] at hf
      simp only [VCall.run, SProd.v1, VCall.arityExc, hsy'.desc] at hthrow
      cases h1 : (w2.sp a).leftMassive <;> cases h2 : (w2.sp a).rightMassive <;> simp only [h1, h2] at hthrow hf
      · exact hf rfl
      · cases hp : (w2.sp a).prod false (decide (j > 0)) with
        | some x => simp only [hp] at hthrow; cases hthrow
        | none => simp only [hp] at hthrow; exact hfe _ _ _ _ _ _ _ (fun P => hh _ P _ (.inr (.inl rfl))) (fun P => hsn _ _ _ P _ (.inr (.inl rfl))) hthrow
      · cases hp : (w2.sp a).prod (decide (j > 0)) false with
        | some x => simp only [hp] at hthrow; cases hthrow
        | none => simp only [hp] at hthrow; exact hfe _ _ _ _ _ _ _ (fun P => hsn _ _ _ P _ (.inr (.inl rfl))) (fun P => hh _ P _ (.inr (.inl rfl))) hthrow
      · exact hf rfl
    | v2 j k =>
      simp only [fits, VCall.Fits, ← hlm, ← hrm] at hf
      simp only [VCall.run, SProd.v2, hf.1, hf.2, VCall.arityExc, hsy'.desc] at hthrow
      cases hp : (w2.sp a).prod (decide (j > 0)) (decide (k > 0)) with
      | some x => simp only [hp] at hthrow; cases hthrow
      | none => simp only [hp] at hthrow; exact hfe _ _ _ _ _ _ _ (fun P => hsn _ _ _ P _ (.inr (.inr rfl))) (fun P => hsn _ _ _ P _ (.inr (.inr rfl))) hthrow
  · intro hf hv
    obtain ⟨w', h1, _⟩ := v_spec hsy' c hv
    exact ⟨_, by rw [h1, outcome_fits (by simpa [massive_settle] using hf)]⟩

/-! ### C26 -/

/-- **C26.** Directly after a product was brought up to date, a call with the right number of arguments of which one is neither `1` nor `-1`
throws the exception of the spinor accessor. -/
theorem C26_bad_spin_fresh (a : Nat) (d : SPDef) (p : Nat → V4 R) (m : Nat → R) (w w1 : World R C) (hu : InUse d p m w) (hs : Sync a d w w1)
    (c : VCall) (hfit : c.Fits (Scalar.ne (m d.left) (int 0)) (Scalar.ne (m d.right) (int 0))) (hc : ¬ c.Valid) :
    (c.run a w1).1 = .throw .badSpin := by
  have hp := partsOk_of_inUse hu (w.part 0).kin
  obtain ⟨hsy, hx, hnone⟩ := sync_synced hs hp
  have hlm := hsy.lm
  have hrm := hsy.rm
  rw [massive_settle] at hlm hrm
  have bad : ∀ (P : Particle R C), Fresh P → ∀ b u (j : Int), ¬ IsSpin j → (Particle.spinor b j u P).1 = .throw .badSpin := by
    intro P hf b u j hj
    rw [hf.spn, if_pos ⟨fun h => hj (.inl h), fun h => hj (.inr h)⟩]
  have pl := hsy.parts d.left (.inl rfl)
  have left : ∀ (M : CMat C) (jL jR : Bool) (lft rgt : Prog (Particle R C) (CVec C)), (lft (w1.part d.left)).1 = .throw .badSpin →
      (SProd.evalEntry a d M jL jR lft rgt w1).1 = .throw .badSpin := by
    intro M jL jR lft rgt h1
    unfold SProd.evalEntry
    have e1 : onPart d.left lft w1 = (.throw .badSpin, (onPart d.left lft w1).2) := Prod.ext h1 rfl
    rw [Prog.bind_throw e1]
  have right : ∀ (M : CMat C) (jL jR : Bool) (lft rgt : Prog (Particle R C) (CVec C)) v, (∀ P, Ext P (lft P).2) → (lft (w1.part d.left)).1 = .ok v →
      (∀ P, Fresh P → (rgt P).1 = .throw .badSpin) → (SProd.evalEntry a d M jL jR lft rgt w1).1 = .throw .badSpin := by
    intro M jL jR lft rgt v hx h1 h2
    unfold SProd.evalEntry
    have e1 : onPart d.left lft w1 = (.ok v, (onPart d.left lft w1).2) := Prod.ext h1 rfl
    rw [Prog.bind_ok e1]
    have hf := ((hsy.parts.ext (wext_onPart d.left hx w1).1) d.right (.inr (.inl rfl))).1
    have e2 : onPart d.right rgt (onPart d.left lft w1).2 = (.throw .badSpin, (onPart d.right rgt (onPart d.left lft w1).2).2) :=
      Prod.ext (h2 _ hf) rfl
    dsimp only
    rw [Prog.bind_throw e2]
  cases c with
  | v0 => exact absurd trivial hc
  | v1 j =>
    have hj : ¬ IsSpin j := hc
    simp only [VCall.Fits, ← hlm, ← hrm] at hfit
    simp only [VCall.run, SProd.v1, hsy.desc, hnone]
    cases h1 : (w1.sp a).leftMassive <;> cases h2 : (w1.sp a).rightMassive <;> simp only [h1, h2] at hfit ⊢
    · exact absurd rfl hfit
    · have hm : massive ((fun i => settle (w.part 0).kin (p i) (m i)) d.left) = false := by rw [massive_settle, ← hlm, h1]
      exact right _ _ _ _ _ _ (ext_helicity _) (end_massless pl.1 pl.2 hm _ d.leftUpper j) (fun P hf => bad P hf _ _ j hj)
    · exact left _ _ _ _ _ (bad _ pl.1 _ _ j hj)
    · exact absurd rfl hfit
  | v2 j k =>
    simp only [VCall.Fits, ← hlm, ← hrm] at hfit
    simp only [VCall.run, SProd.v2, hsy.desc, hnone, hfit.1, hfit.2]
    by_cases hj : IsSpin j
    · have hk : ¬ IsSpin k := fun h => hc ⟨hj, h⟩
      have hm : massive ((fun i => settle (w.part 0).kin (p i) (m i)) d.left) = true := by rw [massive_settle, ← hlm, hfit.1]
      exact right _ _ _ _ _ _ (ext_spinor _ _ _) (end_massive pl.1 pl.2 hm _ d.leftUpper hj) (fun P hf => bad P hf _ _ k hk)
    · exact left _ _ _ _ _ (bad _ pl.1 _ _ j hj)

/-- **C26** (the check is history dependent).  In any state, once `v(1)` (or `v(-1)`) has returned `x`, the call `v(j)` returns this same `x` for
every `j > 0` (or `j <= 0`), valid or not; likewise for `v(jL, jR)`. -/
theorem C26_bad_spin_cached (a : Nat) (w w1 : World R C) (x : C) :
    (SProd.v1 a 1 w = (.ok x, w1) → ∀ j, 0 < j → SProd.v1 a j w1 = (.ok x, w1)) ∧
    (SProd.v1 a (-1) w = (.ok x, w1) → ∀ j, j ≤ 0 → SProd.v1 a j w1 = (.ok x, w1)) ∧
    (∀ j k, SProd.v2 a j k w = (.ok x, w1) → ∀ j' k', (0 < j ↔ 0 < j') → (0 < k ↔ 0 < k') → SProd.v2 a j' k' w1 = (.ok x, w1)) := by
  refine ⟨fun h j hj => ?_, fun h j hj => ?_, fun j k h j' k' hj hk => ?_⟩
  · obtain ⟨f1, _, _, f4⟩ := run_sticky (c := .v1 1) h
    refine run_cached (c := .v1 j) f1 ?_
    simpa [entry, hj] using f4
  · obtain ⟨f1, _, _, f4⟩ := run_sticky (c := .v1 (-1)) h
    refine run_cached (c := .v1 j) f1 ?_
    have : ¬ 0 < j := not_lt.mpr hj
    simpa [entry, this] using f4
  · obtain ⟨f1, _, _, f4⟩ := run_sticky (c := .v2 j k) h
    refine run_cached (c := .v2 j' k') f1 ?_
    simpa [entry, hj, hk] using f4

end Spinas.Props
