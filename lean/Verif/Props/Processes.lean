import Verif.SM.Calls
import Verif.SM.Checked
import Verif.Exact.Pow

/-! C52 - C55: life of a process object (the classes in `SM/`). -/

namespace Spinas.Props
open SM Spec

variable {R C : Type} [Scalar R] [HasPow R] [Cplx R C]

/-! ### histories -/

/-- A call on a process object.  `junk`: uninitialised memory met by the call. -/
inductive ProcOp (R C : Type) where
  | setMasses (junk : Kin R C) (args : Nat → R)
  | setMomenta (junk : Kin R C) (q : Nat → V4 R)
  | call (x : MCall R C)

/-- State after the call, whether it returns or throws. -/
def ProcOp.run (P : Proc) : ProcOp R C → Obj R C → Obj R C
  | .setMasses junk args, o => (P.runSetMasses junk args o).2
  | .setMomenta junk q, o => (P.runSetMomenta junk q o).2
  | .call x, o => (P.method x.junk x.t x.k x.args o).2

def runProcOps (P : Proc) : List (ProcOp R C) → Obj R C → Obj R C
  | [], o => o
  | op :: ops, o => runProcOps P ops (op.run P o)

/-- The constructor parameters with which one would construct the object to have the masses set last. -/
def parAfter (massPar : List Nat) : List (ProcOp R C) → (Nat → R) → Nat → R
  | [], par => par
  | .setMasses _ args :: ops, par => parAfter massPar ops (withMasses massPar par args)
  | _ :: ops, par => parAfter massPar ops par

/-- The arguments of the last call of `set_masses`. -/
def lastMasses : List (ProcOp R C) → Option (Nat → R) → Option (Nat → R)
  | [], m => m
  | .setMasses _ args :: ops, _ => lastMasses ops (some args)
  | _ :: ops, m => lastMasses ops m

/-- Calls of the public amplitude methods: a squared amplitude, or an amplitude with spins +1 or -1 wherever they are passed on to a spinor product. -/
def Regular (P : Proc) (t : Ty) (k : Nat) (args : List Int) : Prop :=
  (t = .r ∧ P.isSquare k = true ∧ args = []) ∨
  (t = .c ∧ ∃ m : Method, (m, k) ∈ P.amps ∧ args.length = m.arity ∧ ∀ n, n ∈ m.body.spinVars → n < m.arity → IsSpin (args.getD n 0))

theorem regular_square {P : Proc} {k : Nat} (hk : P.isSquare k = true) : (Ty.r, k, []) ∈ P.squares := by
  simp only [Proc.isSquare, Bool.or_eq_true, beq_iff_eq, List.any_eq_true] at hk
  unfold Proc.squares
  rcases hk with rfl | ⟨x, hx, rfl⟩
  · simp
  · exact List.mem_cons_of_mem _ (List.mem_map.mpr ⟨x, hx, rfl⟩)

theorem sig_ok {m : Method} {args : List Int} (hl : args.length = m.arity) (hs : ∀ n, n ∈ m.body.spinVars → n < m.arity → IsSpin (args.getD n 0)) :
    ArgsOk m.sig args := by
  unfold ArgsOk
  rw [List.forall₂_iff_get]
  refine ⟨by simp [Method.sig, hl], fun n h1 h2 => ?_⟩
  have hn : n < m.arity := by omega
  simp only [Method.sig, List.get_eq_getElem, List.getElem_map, List.getElem_range]
  split_ifs with hc
  · refine ⟨by simp, ?_⟩
    have := hs n (by simpa using hc) hn
    simpa [AI.holds, List.getD, h2] using this
  · exact ⟨by simp, trivial⟩

theorem regular_sig {P : Proc} {t : Ty} {k : Nat} {args : List Int} (h : Regular P t k args) :
    ∃ xs, ((t, k, xs) ∈ P.squares ∨ (t, k, xs) ∈ P.ampSigs) ∧ ArgsOk xs args := by
  rcases h with ⟨rfl, hk, rfl⟩ | ⟨rfl, m, hm, hl, hs⟩
  · exact ⟨[], .inl (regular_square hk), List.Forall₂.nil⟩
  · exact ⟨m.sig, .inr (List.mem_map.mpr ⟨(m, k), hm, rfl⟩), sig_ok hl hs⟩

/-! ### the checks -/

theorem fresh_check {P : Proc} (hP : P ∈ all) : ∃ S, P.sym = some S ∧ P.checkAll S = true := by
  have h := List.all_eq_true.mp all_fresh P hP
  unfold Proc.checkFresh at h
  split at h
  · rename_i S hS; exact ⟨S, hS, h⟩
  · cases h

theorem masses_check {P : Proc} (hP : P ∈ all) : ∃ S S1, P.sym = some S ∧ P.symM S = some S1 ∧ P.checkAll S1 = true ∧ checkAgain P S1 = true := by
  have h := List.all_eq_true.mp all_masses P hP
  unfold Proc.checkMasses at h
  split at h
  · rename_i S hS
    split at h
    · rename_i S1 hS1
      simp only [Bool.and_eq_true] at h
      exact ⟨S, S1, hS, hS1, h.1, h.2⟩
    · cases h
  · cases h

theorem checkAll_parts {P : Proc} {S : Sym} (h : P.checkAll S = true) :
    P.check false S (P.squares ++ P.ampSigs) = true ∧ P.check true S (P.squares ++ (if P.name = "gggg" then [] else P.ampSigs)) = true ∧ P.massCheck S = true := by
  simp only [Proc.checkAll, Bool.and_eq_true] at h
  exact ⟨h.1.1, h.1.2, h.2⟩

theorem check_method {P : Proc} {strict : Bool} {S : Sym} {ks : List (Ty × Nat × List AI)} (hc : P.check strict S ks = true) {r c u : List Bool}
    (hr : restCheck S P.rest S.known [] [] = some (r, c, u)) {t : Ty} {k : Nat} {xs : List AI} (hk : (t, k, xs) ∈ ks) :
    absInvoke (fun n => r.getD n false) (fun n => c.getD n false) (okCalls strict S u) (!strict) t P.methods k xs = true := by
  unfold Proc.check at hc
  simp only [Bool.and_eq_true, hr] at hc
  exact List.all_eq_true.mp hc.2 _ hk

/-- histories without `set_masses` keep the invariant -/
theorem op_inv {P : Proc} {strict : Bool} {S : Sym} {ks : List (Ty × Nat × List AI)} (hc : P.check strict S ks = true) {par : Nat → R} {o : Obj R C}
    (h : Inv S par o) (op : ProcOp R C) (hop : ∀ junk args, op ≠ .setMasses junk args) : Inv S par (op.run P o) := by
  cases op with
  | setMasses junk args => exact absurd rfl (hop junk args)
  | setMomenta junk q =>
    rcases (setMomenta_sound hc h h junk junk (o.w.part 0).kin q (fun i => (o.w.part i).kin.m) (fun _ _ => rfl)).2 with ⟨_, _, _, h1, _⟩ | ⟨_, _, _, r, c, u, _, h1⟩
    · exact h1
    · exact h1.inv
  | call x => exact method_inv h P _ _ _ _

theorem ops_inv_reset {P : Proc} {S : Sym} {ks : List (Ty × Nat × List AI)} {strict : Bool} (hc : P.check strict S ks = true) {massPar : List Nat}
    (hr : SM.checkReset P massPar S = true) (ops : List (ProcOp R C)) :
    ∀ {par : Nat → R} {o : Obj R C}, Inv S par o → Inv S (parAfter massPar ops par) (runProcOps P ops o) := by
  induction ops with
  | nil => intro par o h; exact h
  | cons op ops ih =>
    intro par o h
    cases op with
    | setMasses junk args => exact ih (setMasses_reset hr h junk args).2
    | setMomenta junk q => exact ih (op_inv hc h (.setMomenta junk q) (by simp))
    | call x => exact ih (op_inv hc h (.call x) (by simp))

/-- The invariant after a history, in terms of the last call of `set_masses`. -/
def InvLast (S S1 : Sym) (par : Nat → R) (m : Option (Nat → R)) (o : Obj R C) : Prop := match m with
  | none => Inv S par o
  | some args => Inv S1 (mix par args args) o

theorem ops_inv_last {P : Proc} {S S1 : Sym} {ks ks1 : List (Ty × Nat × List AI)} {strict : Bool} (hc : P.check strict S ks = true)
    (hc1 : P.check strict S1 ks1 = true) (hS : P.symM S = some S1) (ha : checkAgain P S1 = true) (par : Nat → R) (ops : List (ProcOp R C)) :
    ∀ {m : Option (Nat → R)} {o : Obj R C}, InvLast S S1 par m o → InvLast S S1 par (lastMasses ops m) (runProcOps P ops o) := by
  induction ops with
  | nil => intro m o h; exact h
  | cons op ops ih =>
    intro m o h
    have other : (∀ junk args, op ≠ .setMasses junk args) → InvLast S S1 par m (op.run P o) := by
      intro hop
      cases m with
      | none => exact op_inv hc h op hop
      | some args => exact op_inv hc1 h op hop
    cases op with
    | setMasses junk args =>
      refine ih (m := some args) ?_
      cases m with
      | none => exact (setMasses_inv hS h junk args args).2
      | some old => exact (setMasses_again ha h junk args).2
    | setMomenta junk q => exact ih (other (by simp))
    | call x => exact ih (other (by simp))

/-! ### two objects with the same description -/

/-- The two objects take `set_momenta` the same way, and then give the same amplitudes, whatever else is called in between. -/
def Alike (P : Proc) (o o' : Obj R C) : Prop := ∀ (q : Nat → V4 R) (j j' : Kin R C),
  (P.runSetMomenta j q o).1 = (P.runSetMomenta j' q o').1 ∧
  ((∀ i, i < 4 → (Particle.ctorPM j (q i) (o'.w.part i).kin.m).1 = .ok ()) → (P.runSetMomenta j q o).1 = .ok ()) ∧
  (¬ (∀ i, i < 4 → (Particle.ctorPM j (q i) (o'.w.part i).kin.m).1 = .ok ()) → (P.runSetMomenta j q o).1 = .throw .massShell) ∧
  ((P.runSetMomenta j q o).1 = .ok () → ∀ (xs xs' : List (MCall R C)) (t : Ty) (k : Nat) (args : List Int), Regular P t k args →
    ∀ l l' : Loc R C, (P.method l t k args (runCalls P xs (P.runSetMomenta j q o).2)).1 = (P.method l' t k args (runCalls P xs' (P.runSetMomenta j' q o').2)).1)

theorem alike_of_inv {P : Proc} {S : Sym} (hc : P.checkAll S = true) {par : Nat → R} {o o' : Obj R C} (h : Inv S par o) (h' : Inv S par o') : Alike P o o' := by
  obtain ⟨h1, _, _⟩ := checkAll_parts hc
  intro q j j'
  obtain ⟨hm, hor⟩ := setMomenta_sound h1 h h' j j' j q (fun i => (o.w.part i).kin.m) (fun _ _ => rfl)
  rcases hor with ⟨⟨i, hi, hacc⟩, e1, e2, _, _⟩ | ⟨hacc, e1, e2, r, c, u, hr, ha⟩
  · refine ⟨by rw [e1, e2], fun hall => ?_, fun _ => e1, fun h => by rw [e1] at h; cases h⟩
    have := (accepts_iff (C := C) j j _ _).mpr (hall i hi)
    rw [hm i hi, hacc] at this; cases this
  · refine ⟨by rw [e1, e2], fun _ => e1, fun hno => absurd (fun i hi => ?_) hno, fun _ xs xs' t k args hreg l l' => ?_⟩
    · show (Particle.ctorPM j (q i) (o'.w.part i).kin.m).1 = .ok ()
      refine (accepts_iff (C := C) j j _ _).mp ?_
      rw [hm i hi]; exact hacc i hi
    · obtain ⟨ys, hk, hargs⟩ := regular_sig hreg
      exact (agree_method ((ha.calls P xs).symm.calls P xs').symm (check_method h1 hr (List.mem_append.mpr hk)) (by simp) hargs l l').1

/-! ### C52: a used object is as good as a new one -/

theorem C52_reuse (P : Proc) (hP : P ∈ all) (hn : P.name ∉ staleMasses) (mem mem' : Nat → R) (junk junk' : Kin R C) (par : Nat → R) (ops : List (ProcOp R C)) :
    (P.construct mem junk par).1 = .ok () ∧
    Alike P (runProcOps P ops (P.construct mem junk par).2) (P.construct mem' junk' (parAfter P.massPar ops par)).2 := by
  obtain ⟨S, hS, hc⟩ := fresh_check hP
  have hr : SM.checkReset P P.massPar S = true := by
    have := List.all_eq_true.mp all_reset P hP
    simp only [Bool.or_eq_true, List.contains_iff_mem] at this
    have := this.resolve_left hn
    simpa only [Proc.checkReset, hS] using this
  obtain ⟨c1, c2⟩ := construct_inv hS mem junk par
  exact ⟨c1, alike_of_inv hc (ops_inv_reset (checkAll_parts hc).1 hr ops c2) (construct_inv hS mem' junk' _).2⟩

/-! ### C53: in every class only the last call of `set_masses` counts -/

theorem C53_last_masses (P : Proc) (hP : P ∈ all) (mem mem' : Nat → R) (junk junk' junk2 : Kin R C) (par : Nat → R) (ops : List (ProcOp R C)) :
    Alike P (runProcOps P ops (P.construct mem junk par).2) (match lastMasses ops none with
      | none => (P.construct mem' junk' par).2
      | some args => (P.runSetMasses junk2 args (P.construct mem' junk' par).2).2) := by
  obtain ⟨S0, hS0, hc0⟩ := fresh_check hP
  obtain ⟨S, S1, hS, hS1, hc1, ha⟩ := masses_check hP
  have : S0 = S := by rw [hS0] at hS; cases hS; rfl
  subst this
  have h := ops_inv_last (checkAll_parts hc0).1 (checkAll_parts hc1).1 hS1 ha par ops (m := none) (construct_inv hS mem junk par).2
  have h' := (construct_inv hS mem' junk' par).2
  revert h
  cases lastMasses ops none with
  | none => exact fun h => alike_of_inv hc0 h h'
  | some args => exact fun h => alike_of_inv hc1 h (setMasses_inv hS1 h' junk2 args args).2

/-! ### C54: amplitudes do not throw -/

/-- The particles not constructed as `particle(0)` have a mass that tests different from 0. -/
def MassesNonzero (P : Proc) (o : Obj R C) : Prop := ∀ i, i < 4 → P.massless i = false → Scalar.ne (o.w.part i).kin.m (int 0) = true

theorem no_throw {P : Proc} {S : Sym} (hc : P.checkAll S = true) {par : Nat → R} {o : Obj R C} (h : Inv S par o)
    (h00 : Scalar.eq (int 0 : R) (int 0) = true) (hm : MassesNonzero P o) (q : Nat → V4 R) (j : Kin R C) (hq : (P.runSetMomenta j q o).1 = .ok ())
    (xs : List (MCall R C)) (t : Ty) (k : Nat) (args : List Int) (hreg : Regular P t k args) (hg : t = .c → P.name ≠ "gggg") (l : Loc R C) :
    ∃ x, (P.method l t k args (runCalls P xs (P.runSetMomenta j q o).2)).1 = .ok x := by
  obtain ⟨_, h2, h3⟩ := checkAll_parts hc
  rcases (setMomenta_sound h2 h h j j j q (fun i => (o.w.part i).kin.m) (fun _ _ => rfl)).2 with ⟨_, e, _⟩ | ⟨_, _, _, r, c, u, hr, ha⟩
  · rw [hq] at e; cases e
  obtain ⟨ys, hk, hargs⟩ := regular_sig hreg
  have hk' : (t, k, ys) ∈ P.squares ++ (if P.name = "gggg" then [] else P.ampSigs) := by
    rcases hk with hk | hk
    · exact List.mem_append_left _ hk
    · have ht : t = .c := by
        obtain ⟨x, _, hx⟩ := List.mem_map.mp hk
        cases hx; rfl
      rw [if_neg (hg ht)]
      exact List.mem_append_right _ hk
  refine (agree_method ((ha.calls P xs).symm.calls P xs).symm (check_method h2 hr hk') (fun _ i hi => ?_) hargs l l).2 rfl
  have hck := List.all_eq_true.mp h3 i (List.mem_range.mpr hi)
  simp only [beq_iff_eq] at hck
  show Scalar.ne (o.w.part i).kin.m (int 0) = _
  cases hml : P.massless i with
  | false => rw [hck, hml]; exact hm i hi hml
  | true =>
    rw [hck, hml]
    have hz : S.gm i = some (.lit 0) := by
      rw [hml] at hck
      revert hck
      unfold massiveExp
      split
      · rename_i heq; exact fun _ => heq
      · intro hck; cases hck
    rw [show (o.w.part i).kin.m = Exp.val0 (C := C) par (.lit 0) from h.mass i _ hz]
    simp only [Scalar.ne, Exp.val0, Exp.val]
    rw [show ((0 : Nat) : Int) = 0 from rfl, h00]

theorem C54_no_exception (P : Proc) (hP : P ∈ all) (h00 : Scalar.eq (int 0 : R) (int 0) = true) (mem : Nat → R) (junk : Kin R C) (par : Nat → R)
    (ops : List (ProcOp R C)) (hm : MassesNonzero P (runProcOps P ops (P.construct mem junk par).2)) (q : Nat → V4 R) (j : Kin R C)
    (hq : (P.runSetMomenta j q (runProcOps P ops (P.construct mem junk par).2)).1 = .ok ())
    (xs : List (MCall R C)) (t : Ty) (k : Nat) (args : List Int) (hreg : Regular P t k args) (hg : t = .c → P.name ≠ "gggg") (l : Loc R C) :
    ∃ x, (P.method l t k args (runCalls P xs (P.runSetMomenta j q (runProcOps P ops (P.construct mem junk par).2)).2)).1 = .ok x := by
  obtain ⟨S0, hS0, hc0⟩ := fresh_check hP
  obtain ⟨S, S1, hS, hS1, hc1, ha⟩ := masses_check hP
  have : S0 = S := by rw [hS0] at hS; cases hS; rfl
  subst this
  have h := ops_inv_last (checkAll_parts hc0).1 (checkAll_parts hc1).1 hS1 ha par ops (m := none) (construct_inv hS mem junk par).2
  revert h
  cases lastMasses ops none with
  | none => exact fun h => no_throw hc0 h h00 hm q j hq xs t k args hreg hg l
  | some m => exact fun h => no_throw hc1 h h00 hm q j hq xs t k args hreg hg l

/-! ### C55: classes whose `set_masses` misses something -/

/-- In six classes the argument `massW` of `set_masses` is ignored: the object behaves as one constructed with the other masses new and `massW` old. -/
theorem C55_massW_ignored (P : Proc) (hP : P ∈ all) (hn : P.name ∈ ignoreMassW) (mem mem' : Nat → R) (junk junk' : Kin R C) (par : Nat → R)
    (ops : List (ProcOp R C)) :
    Alike P (runProcOps P ops (P.construct mem junk par).2) (P.construct mem' junk' (parAfter P.massPar.dropLast ops par)).2 := by
  obtain ⟨S, hS, hc⟩ := fresh_check hP
  have hr : SM.checkReset P P.massPar.dropLast S = true := by
    have := List.all_eq_true.mp all_ignore P hP
    simp only [Bool.or_eq_true, Bool.not_eq_true', List.contains_eq_mem, decide_eq_false_iff_not] at this
    have := this.resolve_left (fun h => h hn)
    simpa only [Proc.checkReset, hS] using this
  exact alike_of_inv hc (ops_inv_reset (checkAll_parts hc).1 hr ops (construct_inv hS mem junk par).2) (construct_inv hS mem' junk' _).2

theorem sym_gpm {P : Proc} {S : Sym} {k : Nat} {e : Exp .r} (hS : P.sym = some S) (he : (P.sym.bind fun S => S.gpm k) = some e) : S.gpm k = some e := by
  rw [hS] at he; exact he

theorem symM_gpm {P : Proc} {S S1 : Sym} {k : Nat} {e : Exp .r} (hS : P.sym = some S) (hS1 : P.symM S = some S1)
    (he : (P.sym.bind fun S => (P.symM S).bind fun S1 => S1.gpm k) = some e) : S1.gpm k = some e := by
  rw [hS] at he
  simp only [Option.bind_some, hS1] at he
  exact he

/-- The mass of propagator `k` after any history. -/
theorem prop_mass {P : Proc} (hP : P ∈ all) {k : Nat} {e e1 : Exp .r} (he : (P.sym.bind fun S => S.gpm k) = some e)
    (he1 : (P.sym.bind fun S => (P.symM S).bind fun S1 => S1.gpm k) = some e1) (mem : Nat → R) (junk : Kin R C) (par : Nat → R) (ops : List (ProcOp R C)) :
    ((runProcOps P ops (P.construct mem junk par).2).pr k).m = match lastMasses ops none with
      | none => e.val0 (C := C) par
      | some args => e1.val0 (C := C) (mix par args args) := by
  obtain ⟨S0, hS0, hc0⟩ := fresh_check hP
  obtain ⟨S, S1, hS, hS1, hc1, ha⟩ := masses_check hP
  have : S0 = S := by rw [hS0] at hS; cases hS; rfl
  subst this
  have h := ops_inv_last (checkAll_parts hc0).1 (checkAll_parts hc1).1 hS1 ha par ops (m := none) (construct_inv hS mem junk par).2
  revert h
  cases lastMasses ops none with
  | none => exact fun h => h.pm k e (sym_gpm hS he)
  | some args => exact fun h => h.pm k e1 (symM_gpm hS hS1 he1)

set_option maxRecDepth 100000 in
/-- In `ZWWh` and `ZhWW` the Z propagator keeps the mass of the constructor, `massW/sqrt(1-sinW*sinW)`, whatever `set_masses` is given. -/
theorem C55_stale_Z (P : Proc) (hP : P = Cls.ZWWh ∨ P = Cls.ZhWW) (mem : Nat → R) (junk : Kin R C) (par : Nat → R) (ops : List (ProcOp R C)) :
    ((runProcOps P ops (P.construct mem junk par).2).pr 1).m = par 2 / Scalar.sqrt (int 1 - par 3 * par 3) := by
  have hall : P ∈ all := by rcases hP with rfl | rfl <;> simp [all]
  rw [prop_mass (e := .div (.loc .r 2) (.sqrt (.sub (.lit 1) (.mul (.loc .r 3) (.loc .r 3)))))
    (e1 := .div (.loc .r 6) (.sqrt (.sub (.lit 1) (.mul (.loc .r 9) (.loc .r 9))))) hall ?_ ?_ mem junk par ops]
  · cases lastMasses ops none <;> rfl
  · rcases hP with rfl | rfl <;> rfl
  · rcases hP with rfl | rfl <;> rfl

set_option maxRecDepth 100000 in
/-- In `nnWW` and `nWWn` the electron propagator is massless until `set_masses` is called, whatever `masse` the constructor is given. -/
theorem C55_electron_mass (P : Proc) (hP : P = Cls.nnWW ∨ P = Cls.nWWn) (mem : Nat → R) (junk : Kin R C) (par : Nat → R) (ops : List (ProcOp R C)) :
    ((runProcOps P ops (P.construct mem junk par).2).pr 0).m = match lastMasses ops none with
      | none => int 0
      | some args => args 0 := by
  have hall : P ∈ all := by rcases hP with rfl | rfl <;> simp [all]
  rw [prop_mass (e := .lit 0) (e1 := .loc .r 1) hall ?_ ?_ mem junk par ops]
  · cases lastMasses ops none <;> rfl
  · rcases hP with rfl | rfl <;> rfl
  · rcases hP with rfl | rfl <;> rfl

/-! ### the hypotheses can be met -/

/-- The mass of particle `i` of a new object. -/
theorem part_mass {P : Proc} (hP : P ∈ all) {i : Nat} {e : Exp .r} (he : (P.sym.bind fun S => S.gm i) = some e) (mem : Nat → R) (junk : Kin R C) (par : Nat → R) :
    ((P.construct mem junk par).2.w.part i).kin.m = e.val0 (C := C) par := by
  obtain ⟨S, hS, _⟩ := fresh_check hP
  refine (construct_inv hS mem junk par).2.mass i e ?_
  rw [hS] at he; exact he

section examples
attribute [local instance] doubleEnv

/-- `eemmQED(1, 3, 3)` -/
noncomputable def exPar (n : Nat) : XR := if n = 0 then .fin 1 else .fin 3
theorem exAll : Cls.eemmQED ∈ all := by simp [all]

theorem ex_mass (mem : Nat → XR) (i : Nat) (hi : i < 4) : ((Cls.eemmQED.construct mem junkK exPar).2.w.part i).kin.m = .fin 3 := by
  have : i = 0 ∨ i = 1 ∨ i = 2 ∨ i = 3 := by omega
  rcases this with rfl | rfl | rfl | rfl
  · exact part_mass exAll (e := .loc .r 1) rfl mem junkK exPar
  · exact part_mass exAll (e := .loc .r 1) rfl mem junkK exPar
  · exact part_mass exAll (e := .loc .r 2) rfl mem junkK exPar
  · exact part_mass exAll (e := .loc .r 2) rfl mem junkK exPar

/-- momenta of mass 3 are accepted, also after a failed attempt and a call of `amp2()` -/
theorem ex_accepted (mem : Nat → XR) (x : MCall XR XC) : (Cls.eemmQED.runSetMomenta junkK (fun _ => pM.toX)
    (runProcOps Cls.eemmQED [.setMomenta junkK fun _ => pX.toX, .call x] (Cls.eemmQED.construct mem junkK exPar).2)).1 = .ok () := by
  refine ((C52_reuse Cls.eemmQED exAll (by decide) mem mem junkK junkK exPar _).2 _ junkK junkK).2.1 fun i hi => ?_
  simp only [parAfter]
  rw [ex_mass mem i hi]
  exact ctorPM_onShell _ pM_onShell

/-- C54: the masses of this object test different from 0; calls of `amp2()` and of `amp` with spins are regular -/
example (mem : Nat → XR) : MassesNonzero Cls.eemmQED (runProcOps Cls.eemmQED [] (Cls.eemmQED.construct mem junkK exPar).2) := by
  simp only [runProcOps, MassesNonzero]
  intro i hi _
  rw [ex_mass mem i hi]
  simp [Scalar.ne]
example : Regular Cls.eemmQED .r 1 [] := .inl ⟨rfl, by decide, rfl⟩
example : Regular Cls.eemmQED .c 0 [1, -1, 1, 1] := by
  refine .inr ⟨rfl, Cls.eemmQED.m_amp, by simp [Proc.amps, Cls.eemmQED, Proc.isSquare], rfl, fun n hn _ => ?_⟩
  have : n = 0 ∨ n = 1 ∨ n = 2 ∨ n = 3 := by
    have h : ∀ n ∈ Cls.eemmQED.m_amp.body.spinVars, n = 0 ∨ n = 1 ∨ n = 2 ∨ n = 3 := by decide
    exact h n hn
  rcases this with rfl | rfl | rfl | rfl <;> simp [IsSpin]

/-- C55: every class named exists -/
example : (all.filter fun P => staleMasses.contains P.name).length = 12 ∧ (all.filter fun P => ignoreMassW.contains P.name).length = 6 := by decide +kernel
end examples

end Spinas.Props
