import Verif.SM.Direct
import Verif.Props.Processes

/-! Histories with calls of the overloads `amp2(mom1, mom2, mom3, mom4)`: they change the momenta and caches of the particles (in eeeeQED also two denominators), nothing else. -/

namespace Spinas.SM.Direct
open Props

variable {R C : Type} [Scalar R] [HasPow R] [Cplx R C] {α β : Type}

/-- The program keeps the masses of the particles and all products. -/
def Calm (f : Prog (World R C) α) : Prop := ∀ w, (∀ i, ((f w).2.part i).kin.m = (w.part i).kin.m) ∧ (f w).2.sp = w.sp

omit [HasPow R] in
theorem calm_pure (a : α) : Calm (pure a : Prog (World R C) α) := fun _ => ⟨fun _ => rfl, rfl⟩

omit [HasPow R] in
theorem calm_bind {f : Prog (World R C) α} {g : α → Prog (World R C) β} (hf : Calm f) (hg : ∀ a, Calm (g a)) : Calm (f >>= g) := by
  intro w
  have h1 := hf w
  rw [Prog.bind_run]
  revert h1
  rcases f w with ⟨r, t⟩
  cases r with
  | ok a => exact fun h1 => ⟨fun i => ((hg a t).1 i).trans (h1.1 i), ((hg a t).2).trans h1.2⟩
  | throw e => exact fun h1 => h1
  | crash => exact fun h1 => h1

omit [HasPow R] in
theorem calm_onPart {f : Prog (Particle R C) α} (hf : ∀ P, (f P).2.kin.m = P.kin.m) (i : Nat) : Calm (onPart i f) := by
  intro w
  refine ⟨fun j => ?_, rfl⟩
  show ((if j = i then (f (w.part i)).2 else w.part j)).kin.m = _
  split_ifs with h
  · rw [h]; exact hf _
  · rfl

theorem calm_setMomenta (q : Nat → V4 R) : Calm (setMomenta (C := C) q) :=
  calm_bind (calm_onPart (setMom_mass _) _) fun _ => calm_bind (calm_onPart (setMom_mass _) _) fun _ => calm_bind (calm_onPart (setMom_mass _) _) fun _ => calm_onPart (setMom_mass _) _

theorem calm_end (E : End) : Calm (End.run E : Prog (World R C) (CVec C)) := by
  unfold End.run
  refine calm_onPart (fun P => ?_) _
  cases E.j
  · exact congrArg Kin.m (ext_helicity _ P).kin
  · exact congrArg Kin.m (ext_spinor _ _ _ P).kin

theorem calm_mids : ∀ (ms : List (Bool × Nat)) (v : CVec C), Calm (mids ms v : Prog (World R C) (CVec C))
  | [], v => calm_pure v
  | (l, i) :: ms, v => by
    refine calm_bind ?_ fun _ => calm_mids ms _
    unfold SProd.slashed
    split
    · exact calm_onPart (fun P => congrArg Kin.m (ext_lmat P).kin) _
    · exact calm_onPart (fun P => congrArg Kin.m (ext_umat P).kin) _

theorem calm_times (a : End) (ms : List (Bool × Nat)) (b : End) : Calm (times a ms b : Prog (World R C) C) :=
  calm_bind (calm_end a) fun _ => calm_bind (calm_mids ms _) fun _ => calm_bind (calm_end b) fun _ => calm_pure _

theorem calm_puts : ∀ (ps : List (Put R C)) (t : Tab C), (∀ x ∈ ps, Calm x.e) → Calm (puts ps t)
  | [], t, _ => calm_pure t
  | p :: ps, t, h => calm_bind (h p List.mem_cons_self) fun _ => calm_puts ps _ fun x hx => h x (List.mem_cons_of_mem _ hx)

variable {S : Sym} {par : Nat → R}

theorem keeps_onWorld {f : Prog (World R C) α} (hf : Calm f) : Keeps (fun o : Obj R C => Inv S par o) (onWorld f) := by
  intro o h
  obtain ⟨h1, h2⟩ := hf o.w
  refine ⟨h.r, h.pm, h.pw, fun i e he => ?_, fun a d ha => ?_⟩
  · rw [← h.mass i e he]; exact h1 i
  · have := h.sp a d ha
    simpa only [onWorld, h2] using this

theorem keeps_get : Keeps (fun o : Obj R C => Inv S par o) Prog.get := fun _ h => h

theorem keeps_den (n k : Nat) (v : V4 R) : Keeps (fun o : Obj R C => Inv S par o) (Prog.modify fun o => o.setDen n k v .c) := fun _ h => ⟨h.r, h.pm, h.pw, h.mass, h.sp⟩

theorem eemmQED.calm : ∀ x ∈ (eemmQED.products : List (Put R C)), Calm x.e := by
  simp only [eemmQED.products, List.flatMap_cons, List.flatMap_nil, List.append_nil, List.forall_mem_append, List.forall_mem_cons, List.not_mem_nil, false_imp_iff, implies_true, and_true]
  repeat' apply And.intro
  all_goals exact calm_times _ _ _
theorem eeeeQED.calm : ∀ x ∈ (eeeeQED.products : List (Put R C)), Calm x.e := by
  simp only [eeeeQED.products, List.flatMap_cons, List.flatMap_nil, List.append_nil, List.forall_mem_append, List.forall_mem_cons, List.not_mem_nil, false_imp_iff, implies_true, and_true]
  repeat' apply And.intro
  all_goals exact calm_times _ _ _
theorem eeAA.calm_before : ∀ x ∈ (eeAA.before : List (Put R C)), Calm x.e := by
  simp only [eeAA.before, List.forall_mem_cons, List.not_mem_nil, false_imp_iff, implies_true, and_true]
  repeat' apply And.intro
  all_goals exact calm_times _ _ _
theorem eeAA.calm_inside (a b : Bool) : ∀ x ∈ (eeAA.inside a b : List (Put R C)), Calm x.e := by
  simp only [eeAA.inside, List.forall_mem_cons, List.not_mem_nil, false_imp_iff, implies_true, and_true]
  repeat' apply And.intro
  all_goals exact calm_times _ _ _
theorem eAeh.calm : ∀ x ∈ (eAeh.products : List (Put R C)), Calm x.e := by
  simp only [eAeh.products, List.flatMap_cons, List.flatMap_nil, List.append_nil, List.forall_mem_append, List.forall_mem_cons, List.not_mem_nil, false_imp_iff, implies_true, and_true]
  repeat' apply And.intro
  all_goals exact calm_times _ _ _

theorem eemmQED.keeps (q : Nat → V4 R) : Keeps (fun o : Obj R C => Inv S par o) (eemmQED.amp2 q) :=
  keeps_bind (keeps_onWorld (calm_setMomenta q)) fun _ => keeps_bind keeps_get fun _ => keeps_bind (keeps_onWorld (calm_puts _ _ eemmQED.calm)) fun _ => keeps_pure _
theorem eeeeQED.keeps (q : Nat → V4 R) : Keeps (fun o : Obj R C => Inv S par o) (eeeeQED.amp2 q) :=
  keeps_bind (keeps_onWorld (calm_setMomenta q)) fun _ => keeps_bind (keeps_den _ _ _) fun _ => keeps_bind (keeps_den _ _ _) fun _ => keeps_bind (keeps_onWorld (calm_puts _ _ eeeeQED.calm)) fun _ =>
    keeps_bind keeps_get fun _ => keeps_pure _
theorem eeAA.calm_pass (me : R) (a b : Bool) (x : R × Tab C) : Calm (eeAA.pass me a b x) := calm_bind (calm_puts _ _ (eeAA.calm_inside a b)) fun _ => calm_pure _
theorem eeAA.keeps (q : Nat → V4 R) : Keeps (fun o : Obj R C => Inv S par o) (eeAA.amp2 q) :=
  keeps_bind (keeps_onWorld (calm_setMomenta q)) fun _ => keeps_bind keeps_get fun _ => keeps_bind (keeps_onWorld (calm_puts _ _ eeAA.calm_before)) fun _ =>
    keeps_bind (keeps_onWorld (eeAA.calm_pass _ _ _ _)) fun _ => keeps_bind (keeps_onWorld (eeAA.calm_pass _ _ _ _)) fun _ => keeps_bind (keeps_onWorld (eeAA.calm_pass _ _ _ _)) fun _ =>
    keeps_bind (keeps_onWorld (eeAA.calm_pass _ _ _ _)) fun _ => keeps_pure _
theorem eAeh.keeps (q : Nat → V4 R) : Keeps (fun o : Obj R C => Inv S par o) (eAeh.amp2 q) :=
  keeps_bind (keeps_onWorld (calm_setMomenta q)) fun _ => keeps_bind keeps_get fun _ => keeps_bind (keeps_onWorld (calm_puts _ _ eAeh.calm)) fun _ => keeps_pure _

/-- The classes with the overload. -/
def overloads : List (Proc × ((Nat → V4 R) → Prog (Obj R C) R)) := [(Cls.eemmQED, eemmQED.amp2), (Cls.eeeeQED, eeeeQED.amp2), (Cls.eeAA, eeAA.amp2), (Cls.eAeh, eAeh.amp2)]

/-- A call on an object of such a class. -/
inductive Call (R C : Type) where
  | other (x : ProcOp R C)
  | amp2 (q : Nat → V4 R)

/-- State after the calls, whether they return or throw. -/
def run (P : Proc) (f : (Nat → V4 R) → Prog (Obj R C) R) : List (Call R C) → Obj R C → Obj R C
  | [], o => o
  | .other x :: ops, o => run P f ops (x.run P o)
  | .amp2 q :: ops, o => run P f ops (f q o).2

/-- the calls without the overload -/
def others : List (Call R C) → List (ProcOp R C)
  | [] => []
  | .other x :: ops => x :: others ops
  | .amp2 _ :: ops => others ops

theorem keeps_overload {x : Proc × ((Nat → V4 R) → Prog (Obj R C) R)} (hx : x ∈ overloads) (q : Nat → V4 R) : Keeps (fun o : Obj R C => Inv S par o) (x.2 q) := by
  simp only [overloads, List.mem_cons, List.not_mem_nil, or_false] at hx
  rcases hx with rfl | rfl | rfl | rfl
  · exact eemmQED.keeps q
  · exact eeeeQED.keeps q
  · exact eeAA.keeps q
  · exact eAeh.keeps q

theorem overload_all {x : Proc × ((Nat → V4 R) → Prog (Obj R C) R)} (hx : x ∈ overloads) : x.1 ∈ all ∧ x.1.name ∉ staleMasses := by
  simp only [overloads, List.mem_cons, List.not_mem_nil, or_false] at hx
  rcases hx with rfl | rfl | rfl | rfl <;> refine ⟨by simp [all], ?_⟩
  · show Cls.eemmQED.name ∉ staleMasses; decide
  · show Cls.eeeeQED.name ∉ staleMasses; decide
  · show Cls.eeAA.name ∉ staleMasses; decide
  · show Cls.eAeh.name ∉ staleMasses; decide

theorem reset_check {P : Proc} (hP : P ∈ all) (hst : P.name ∉ staleMasses) {S : Sym} (hS : P.sym = some S) : SM.checkReset P P.massPar S = true := by
  have := List.all_eq_true.mp all_reset P hP
  simp only [Bool.or_eq_true, List.contains_iff_mem] at this
  have := this.resolve_left hst
  simpa only [Proc.checkReset, hS] using this

theorem run_inv {x : Proc × ((Nat → V4 R) → Prog (Obj R C) R)} (hx : x ∈ overloads) {S : Sym} (hS : x.1.sym = some S) (ops : List (Call R C)) :
    ∀ {par : Nat → R} {o : Obj R C}, Inv S par o → Inv S (parAfter x.1.massPar (others ops) par) (run x.1 x.2 ops o) := by
  obtain ⟨S', hS', hc⟩ := fresh_check (overload_all hx).1
  obtain rfl : S' = S := by rw [hS'] at hS; cases hS; rfl
  have hr := reset_check (overload_all hx).1 (overload_all hx).2 hS
  induction ops with
  | nil => exact fun h => h
  | cons op ops ih =>
    intro par o h
    cases op with
    | other y =>
      have := ops_inv_reset (checkAll_parts hc).1 hr [y] h
      cases y <;> exact ih this
    | amp2 q => exact ih (keeps_overload hx q o h)

end Spinas.SM.Direct
