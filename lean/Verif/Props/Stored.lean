import Verif.SM.Stored
import Verif.SM.DirectKeep
import Verif.SM.Closed
import Verif.Props.Direct

/-! C86: amplitudes that have been returned are returned again, although the particles have got other momenta (any arithmetic). -/

namespace Spinas.Props
open SM

section
variable {R C : Type} [Scalar R] [HasPow R] [Cplx R C]

/-- the members are the same, and all stored values of products are still there -/
structure Since (o o' : Obj R C) : Prop where
  r : o'.r = o.r
  c : o'.c = o.c
  sp : ∀ a, Later (o.w.sp a) (o'.w.sp a)

omit [HasPow R] in
theorem Since.trans {o o' o'' : Obj R C} (h : Since o o') (h' : Since o' o'') : Since o o'' := ⟨h'.r.trans h.r, h'.c.trans h.c, fun a => (h.sp a).trans (h'.sp a)⟩

/-- calls that neither are `set_masses` nor `set_momenta` -/
def Quiet : Direct.Call R C → Prop
  | .other (.call _) => True
  | .other _ => False
  | .amp2 _ => True

omit [HasPow R] in
theorem since_onWorld {α : Type} {f : Prog (World R C) α} (hf : Direct.Calm f) (o0 : Obj R C) : Keeps (fun o : Obj R C => Since o0 o) (onWorld f) := by
  intro o h
  refine ⟨h.r, h.c, fun a => ?_⟩
  show Later _ ((f o.w).2.sp a)
  rw [(hf o.w).2]
  exact h.sp a

omit [HasPow R] in
theorem since_get (o0 : Obj R C) : Keeps (fun o : Obj R C => Since o0 o) Prog.get := fun _ h => h

/-- these overloads assign no member -/
theorem since_overload {x : Proc × ((Nat → V4 R) → Prog (Obj R C) R)} (hx : x ∈ Direct.overloads) (hn : x.1.name ≠ "eeeeQED") (q : Nat → V4 R) (o0 : Obj R C) : Keeps (fun o : Obj R C => Since o0 o) (x.2 q) := by
  simp only [Direct.overloads, List.mem_cons, List.not_mem_nil, or_false] at hx
  rcases hx with rfl | rfl | rfl | rfl
  · exact keeps_bind (since_onWorld (Direct.calm_setMomenta q) o0) fun _ => keeps_bind (since_get o0) fun _ => keeps_bind (since_onWorld (Direct.calm_puts _ _ Direct.eemmQED.calm) o0) fun _ => keeps_pure _
  · exact absurd rfl hn
  · exact keeps_bind (since_onWorld (Direct.calm_setMomenta q) o0) fun _ => keeps_bind (since_get o0) fun _ => keeps_bind (since_onWorld (Direct.calm_puts _ _ Direct.eeAA.calm_before) o0) fun _ =>
      keeps_bind (since_onWorld (Direct.eeAA.calm_pass _ _ _ _) o0) fun _ => keeps_bind (since_onWorld (Direct.eeAA.calm_pass _ _ _ _) o0) fun _ => keeps_bind (since_onWorld (Direct.eeAA.calm_pass _ _ _ _) o0) fun _ =>
      keeps_bind (since_onWorld (Direct.eeAA.calm_pass _ _ _ _) o0) fun _ => keeps_pure _
  · exact keeps_bind (since_onWorld (Direct.calm_setMomenta q) o0) fun _ => keeps_bind (since_get o0) fun _ => keeps_bind (since_onWorld (Direct.calm_puts _ _ Direct.eAeh.calm) o0) fun _ => keeps_pure _

theorem since_run {x : Proc × ((Nat → V4 R) → Prog (Obj R C) R)} (hx : x ∈ Direct.overloads) (hn : x.1.name ≠ "eeeeQED") (o0 : Obj R C) (ys : List (Direct.Call R C)) :
    ∀ o : Obj R C, (∀ y ∈ ys, Quiet y) → Since o0 o → Since o0 (Direct.run x.1 x.2 ys o) := by
  induction ys with
  | nil => exact fun o _ h => h
  | cons y ys ih =>
    intro o hq h
    have hy := hq y List.mem_cons_self
    cases y with
    | amp2 q => exact ih _ (fun z hz => hq z (List.mem_cons_of_mem _ hz)) (since_overload hx hn q o0 o h)
    | other y =>
      cases y with
      | setMasses j a => exact hy.elim
      | setMomenta j q => exact hy.elim
      | call m => exact ih _ (fun z hz => hq z (List.mem_cons_of_mem _ hz)) (h.trans ⟨(method_later x.1 _ _ _ _ o).1, (method_later x.1 _ _ _ _ o).2.1, (method_later x.1 _ _ _ _ o).2.2⟩)

/-- The core: after `set_momenta` and any calls, a call that returned `y`; later, whatever the particles are. -/
theorem again_of_inv {P : Proc} {S : Sym} (hc : P.checkAll S = true) {par : Nat → R} {o : Obj R C} (h : SM.Inv S par o) {j : Kin R C} {q : Nat → V4 R} (hq : (P.runSetMomenta j q o).1 = .ok ()) (xs : List (MCall R C))
    {t : Ty} {k : Nat} {args : List Int} (hr : Regular P t k args) {l : Loc R C} {y : t.den R C} {o1 o2 : Obj R C} (h1 : P.method l t k args (runCalls P xs (P.runSetMomenta j q o).2) = (.ok y, o1)) (h2 : Since o1 o2) (l' : Loc R C) :
    P.method l' t k args o2 = (.ok y, o2) := by
  obtain ⟨c1, _, _⟩ := checkAll_parts hc
  rcases (setMomenta_sound c1 h h j j j q (fun i => (o.w.part i).kin.m) (fun _ _ => rfl)).2 with ⟨_, e, _⟩ | ⟨_, _, _, r, c, u, hrc, ha⟩
  · rw [hq] at e; cases e
  obtain ⟨ys, hk, hargs⟩ := regular_sig hr
  rw [method_same ((ha.calls P xs).symm.calls P xs) (check_method c1 hrc (List.mem_append.mpr hk)) hargs l l'] at h1
  exact method_again P l' t k args h1 h2.r h2.c h2.sp

/-- Every class: the values of the products are found once. When a method has returned, other momenta of the particles do not change what it returns. -/
theorem C86_particles (P : Proc) (hP : P ∈ all) (mem : Nat → R) (junk : Kin R C) (par : Nat → R) (ops : List (ProcOp R C)) {o : Obj R C} (ho : o = runProcOps P ops (P.construct mem junk par).2)
    {j : Kin R C} {q : Nat → V4 R} (hq : (P.runSetMomenta j q o).1 = .ok ()) (xs : List (MCall R C)) {t : Ty} {k : Nat} {args : List Int} (hr : Regular P t k args) {l : Loc R C} {y : t.den R C} {o1 : Obj R C}
    (h1 : P.method l t k args (runCalls P xs (P.runSetMomenta j q o).2) = (.ok y, o1)) (particles : Nat → Particle R C) (l' : Loc R C) :
    (P.method l' t k args { o1 with w := { o1.w with part := particles } }).1 = .ok y := by
  obtain ⟨S0, hS0, hc0⟩ := fresh_check hP
  obtain ⟨S, S1, hS, hS1, hc1, ha⟩ := masses_check hP
  have : S0 = S := by rw [hS0] at hS; cases hS; rfl
  subst this
  have hi := ops_inv_last (checkAll_parts hc0).1 (checkAll_parts hc1).1 hS1 ha par ops (m := none) (construct_inv hS mem junk par).2
  rw [← ho] at hi
  have hs : Since o1 { o1 with w := { o1.w with part := particles } } := ⟨rfl, rfl, fun _ => .refl _⟩
  revert hi
  cases lastMasses ops none with
  | none => exact fun hi => congrArg Prod.fst (again_of_inv hc0 hi hq xs hr h1 hs l')
  | some m => exact fun hi => congrArg Prod.fst (again_of_inv hc1 hi hq xs hr h1 hs l')

/-- The classes with the overload, except eeeeQED: between two calls that follow one `set_momenta` there may be any calls of methods and of the overload, with any momenta. -/
theorem C86_overload {x : Proc × ((Nat → V4 R) → Prog (Obj R C) R)} (hx : x ∈ Direct.overloads) (hn : x.1.name ≠ "eeeeQED") (mem : Nat → R) (junk : Kin R C) (par : Nat → R) (ops : List (Direct.Call R C)) {o : Obj R C}
    (ho : o = Direct.run x.1 x.2 ops (x.1.construct mem junk par).2) {j : Kin R C} {q : Nat → V4 R} (hq : (x.1.runSetMomenta j q o).1 = .ok ()) (xs : List (MCall R C)) {t : Ty} {k : Nat} {args : List Int} (hr : Regular x.1 t k args)
    {l : Loc R C} {y : t.den R C} {o1 : Obj R C} (h1 : x.1.method l t k args (runCalls x.1 xs (x.1.runSetMomenta j q o).2) = (.ok y, o1)) (ys : List (Direct.Call R C)) (hy : ∀ z ∈ ys, Quiet z) (l' : Loc R C) :
    (x.1.method l' t k args (Direct.run x.1 x.2 ys o1)).1 = .ok y := by
  obtain ⟨S, hS, hc⟩ := fresh_check (Direct.overload_all hx).1
  have hi := Direct.run_inv hx hS ops (construct_inv hS mem junk par).2
  rw [← ho] at hi
  rw [again_of_inv hc hi hq xs hr h1 (since_run hx hn o1 ys o1 hy ⟨rfl, rfl, fun _ => .refl _⟩) l']

end

section
open XR Spec
variable [FPEnv]

theorem storing_regular : Regular Cls.eemmQED .r Cls.eemmQED.amp2 [] := .inl ⟨rfl, by decide, rfl⟩

theorem storing_name : Cls.eemmQED.name ≠ "eeeeQED" := by decide

/-- the hypotheses are met: with the charge 1/3 and masses 4 `amp2()` returns a value after `set_momenta`, and again after the overload has been called for other momenta -/
example (mem : Nat → XR) (junk : Kin XR XC) (l l' : Loc XR XC) : ∃ x : ℝ, ∃ o1, Cls.eemmQED.method l .r Cls.eemmQED.amp2 [] (Cls.eemmQED.runSetMomenta junk (fun i => (crossing 4 i).toX) (Cls.eemmQED.construct mem junk fun n => if n = 0 then fin (1 / 3) else fin 4).2).2 = (.ok (fin x), o1) ∧
    (Cls.eemmQED.method l' .r Cls.eemmQED.amp2 [] (Direct.eemmQED.amp2 (fun _ => (crossing 4 0).toX) o1).2).1 = .ok (fin x) := by
  obtain ⟨x, _, hx⟩ := C84_eemmQED mem junk (fun n => if n = 0 then fin (1 / 3) else fin 4) [] rfl rfl rfl (by norm_num) (by norm_num) (p := crossing 4) ⟨by norm_num [crossing], by norm_num [crossing]⟩ ⟨by norm_num [crossing], by norm_num [crossing]⟩
    ⟨by norm_num [crossing], by norm_num [crossing]⟩ ⟨by norm_num [crossing], by norm_num [crossing]⟩ (by norm_num [mandelstamS, crossing, msq])
  obtain ⟨h1, h2⟩ := hx junk [] l
  obtain ⟨y, o1, hy⟩ : ∃ y o1, Cls.eemmQED.method l .r Cls.eemmQED.amp2 [] (runCalls Cls.eemmQED [] (Cls.eemmQED.runSetMomenta junk (fun i => (crossing 4 i).toX) (Cls.eemmQED.construct mem junk fun n => if n = 0 then fin (1 / 3) else fin 4).2).2) = (y, o1) := ⟨_, _, rfl⟩
  have e : y = .ok (fin x) := (congrArg Prod.fst hy).symm.trans h2
  subst e
  refine ⟨x, o1, hy, ?_⟩
  exact C86_overload (x := (Cls.eemmQED, Direct.eemmQED.amp2)) (by simp [Direct.overloads]) storing_name mem junk _ [] rfl h1 [] storing_regular hy [.amp2 fun _ => (crossing 4 0).toX] (by simp [Quiet]) l'

end
end Spinas.Props
