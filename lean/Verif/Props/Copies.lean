import Verif.SM.Copy
import Verif.Props.Exchange

/-! C78: copies of a process object. -/

namespace Spinas.Props
open SM Spec

section
variable {R C : Type} [Scalar R] [HasPow R] [Cplx R C]

/-! ### one call of `set_momenta`, with the particles -/

theorem known_eq {S : Sym} {par : Nat → R} {o o' : Obj R C} (h : Inv S par o) (h' : Inv S par o') (n : Nat) (hn : S.known.getD n false = true) : o.r n = o'.r n := by
  have hs : (S.gr n).isSome = true := by
    have e : (S.r.map Option.isSome).getD n false = (S.r.getD n none).isSome := by
      by_cases h : n < S.r.length
      · simp [List.getD, h]
      · simp [List.getD, show S.r.length ≤ n by omega]
    rw [Sym.gr, ← e]; exact hn
  obtain ⟨e, he⟩ := Option.isSome_iff_exists.mp hs
  exact (h.r n e he).trans (h'.r n e he).symm

theorem mass_eq {P : Proc} {strict : Bool} {S : Sym} {ks : List (Ty × Nat × List AI)} (hc : P.check strict S ks = true) {par : Nat → R} {o o' : Obj R C} (h : Inv S par o) (h' : Inv S par o')
    (i : Nat) (hi : i < 4) : (o.w.part i).kin.m = (o'.w.part i).kin.m := by
  unfold Proc.check at hc
  simp only [Bool.and_eq_true] at hc
  obtain ⟨e, he⟩ := Option.isSome_iff_exists.mp (List.all_eq_true.mp hc.1.2 i (List.mem_range.mpr hi))
  exact (h.mass i e he).trans (h'.mass i e he).symm

theorem runSetup_append (junk : Kin R C) (par : Nat → R) (q : Nat → V4 R) (ys : List SInstr) : ∀ (xs : List SInstr) {o o' : Obj R C}, runSetup junk par q xs o = (.ok (), o') →
    runSetup junk par q (xs ++ ys) o = runSetup junk par q ys o'
  | [], _, _, h => by cases h; rfl
  | i :: xs, o, o', h => by
    have h0 : (i.exec junk par q >>= fun _ => runSetup junk par q xs) o = (.ok (), o') := h
    show (i.exec junk par q >>= fun _ => runSetup junk par q (xs ++ ys)) o = _
    cases h1 : i.exec junk par q o with
    | mk x b =>
      cases x with
      | ok u =>
        rw [Prog.bind_ok h1] at h0 ⊢
        exact runSetup_append junk par q ys xs h0
      | throw e => rw [show (i.exec junk par q >>= fun _ => runSetup junk par q xs) o = (.throw e, b) from Prog.bind_throw h1] at h0; cases h0
      | crash => rw [show (i.exec junk par q >>= fun _ => runSetup junk par q xs) o = (.crash, b) from Prog.bind_crash h1] at h0; cases h0

/-- The momenta are set; what remains is `P.rest`. -/
theorem after_momenta {P : Proc} {strict : Bool} {S : Sym} {ks : List (Ty × Nat × List AI)} (hc : P.check strict S ks = true) {par : Nat → R} {o : Obj R C} (h : Inv S par o) (k0 junk : Kin R C)
    (q : Nat → V4 R) (m : Nat → R) (hm : ∀ i, i < 4 → (o.w.part i).kin.m = m i) (hq : ∀ i, i < 4 → accepts C k0 (m i) (q i) = true) :
    ∃ o1, Inv S par o1 ∧ PartsOk (· < 4) (kins k0 m q) o1.w ∧ P.runSetMomenta junk q o = runSetup junk (fun _ => int 0) q P.rest o1 ∧
      runSetup junk (fun _ => int 0) q ((List.range' 0 4).map fun i => SInstr.setMom i i) o = (.ok (), o1) := by
  have hpre : isPrefix P.setMomenta = true := by
    unfold Proc.check at hc
    simp only [Bool.and_eq_true] at hc
    exact hc.1.1
  obtain ⟨o1, i1, _, _, _, _, z1⟩ := momenta_sound k0 junk (fun _ => int 0) q (fun i => (o.w.part i).kin.m) [] 4 0 o h (fun _ => rfl) (fun i hi => absurd hi (by omega))
  simp only [Nat.zero_add, Nat.zero_le, true_and, forall_const] at z1
  rcases z1 with ⟨⟨i, hi, hacc⟩, _⟩ | ⟨_, f1, z1⟩
  · have := hq i hi
    rw [← hm i hi, hacc] at this; cases this
  · rw [List.append_nil] at z1
    have z : runSetup junk (fun _ => int 0) q ((List.range' 0 4).map fun i => SInstr.setMom i i) o = (.ok (), o1) := z1
    refine ⟨o1, i1, fun i hi => ?_, ?_, z⟩
    · have := f1 i hi
      simp only [kins] at this ⊢
      rw [← hm i hi]; exact this
    · unfold Proc.runSetMomenta
      rw [Proc.setMomenta_eq hpre]
      exact runSetup_append junk _ q P.rest _ z

/-- Two objects given momenta with the same denominators. -/
theorem momenta_twin {P : Proc} {strict : Bool} {S : Sym} {ks : List (Ty × Nat × List AI)} (hc : P.check strict S ks = true) {par : Nat → R} {o o' : Obj R C} (h : Inv S par o) (h' : Inv S par o')
    (k0 junk junk' : Kin R C) (q : Nat → V4 R) (m : Nat → R) (hm : ∀ i, i < 4 → (o.w.part i).kin.m = m i) (hq : ∀ i, i < 4 → accepts C k0 (m i) (q i) = true) :
    ∃ r c u p p', restCheck S P.rest S.known [] [] = some (r, c, u) ∧ P.runSetMomenta junk q o = (.ok (), p) ∧ P.runSetMomenta junk' q o' = (.ok (), p') ∧
      Twin S par (kins k0 m q) (kins k0 m q) r c u p p' := by
  obtain ⟨o1, i1, f1, e1, _⟩ := after_momenta hc h k0 junk q m hm hq
  obtain ⟨o2, i2, f2, e2, _⟩ := after_momenta hc h' k0 junk' q m (fun i hi => (mass_eq hc h' h i hi).trans (hm i hi)) hq
  have ht : Twin S par (kins k0 m q) (kins k0 m q) S.known [] [] o1 o2 := ⟨i1, i2, f1, f2, known_eq i1 i2, fun n hn => by simp at hn, fun a ha => by simp at ha⟩
  cases hrest : restCheck S P.rest S.known [] [] with
  | none =>
    unfold Proc.check at hc
    simp only [hrest, Bool.and_false] at hc
    cases hc
  | some x =>
    obtain ⟨r, c, u⟩ := x
    obtain ⟨p, p', z1, z2, z3⟩ := rest_sound junk junk' (fun _ => int 0) q q (fun _ _ => rfl) P.rest hrest ht
    exact ⟨r, c, u, p, p', rfl, e1.trans z1, e2.trans z2, z3⟩

theorem accepted {P : Proc} {strict : Bool} {S : Sym} {ks : List (Ty × Nat × List AI)} (hc : P.check strict S ks = true) {par : Nat → R} {o : Obj R C} (h : Inv S par o) {k0 j : Kin R C}
    {q : Nat → V4 R} (hq : (P.runSetMomenta j q o).1 = .ok ()) (i : Nat) (hi : i < 4) : accepts C k0 (o.w.part i).kin.m (q i) = true := by
  rcases (setMomenta_sound hc h h j j k0 q (fun i => (o.w.part i).kin.m) (fun _ _ => rfl)).2 with ⟨_, e, _⟩ | ⟨hacc, _⟩
  · rw [hq] at e; cases e
  · exact hacc i hi

/-! ### an object and a copy -/

/-- The state of a pair: the original agrees with `op`, what the copy uses agrees with `H`. -/
structure Both (S : Sym) (par : Nat → R) (κ : Nat → Kin R C) (r c u : List Bool) (x : Copied R C) (op H : Obj R C) : Prop where
  orig : Agree S par κ r c u x.orig op
  copy : Agree S par κ r c u x.view H

theorem Both.call {S : Sym} {par : Nat → R} {κ : Nat → Kin R C} {r c u : List Bool} {x : Copied R C} {op H : Obj R C} (h : Both S par κ r c u x op H) (P : Proc) (b : Bool) (l : Loc R C)
    (t : Ty) (k : Nat) (args : List Int) : Both S par κ r c u (Copied.call P b l t k args x).2 op H := by
  cases b with
  | true =>
    have hx := method_ext P l t k args x.orig
    have hi := method_inv h.orig.inv P l t k args
    refine ⟨⟨hi, h.orig.inv', h.orig.r, h.orig.c, fun a ha => ?_⟩, ⟨⟨h.copy.inv.r, h.copy.inv.pm, h.copy.inv.pw, hi.mass, h.copy.inv.sp⟩, h.copy.inv', h.copy.r, h.copy.c, fun a ha => ?_⟩⟩
    · obtain ⟨d, h1, h2, h3⟩ := h.orig.u a ha
      exact ⟨d, h1, method_synced h2 P _ _ _ _, h3⟩
    · obtain ⟨d, h1, h2, h3⟩ := h.copy.u a ha
      exact ⟨d, h1, h2.of_ext (fun i _ => hx i) rfl, h3⟩
  | false =>
    have hx := method_ext P l t k args x.view
    have hi := method_inv h.copy.inv P l t k args
    refine ⟨⟨⟨h.orig.inv.r, h.orig.inv.pm, h.orig.inv.pw, hi.mass, h.orig.inv.sp⟩, h.orig.inv', h.orig.r, h.orig.c, fun a ha => ?_⟩, ⟨hi, h.copy.inv', h.copy.r, h.copy.c, fun a ha => ?_⟩⟩
    · obtain ⟨d, h1, h2, h3⟩ := h.orig.u a ha
      exact ⟨d, h1, h2.of_ext (fun i _ => hx i) rfl, h3⟩
    · obtain ⟨d, h1, h2, h3⟩ := h.copy.u a ha
      exact ⟨d, h1, method_synced h2 P _ _ _ _, h3⟩

theorem Both.calls {S : Sym} {par : Nat → R} {κ : Nat → Kin R C} {r c u : List Bool} {op H : Obj R C} (P : Proc) : ∀ (ys : List (Bool × MCall R C)) {x : Copied R C}, Both S par κ r c u x op H →
    Both S par κ r c u (Copied.calls P ys x) op H
  | [], _, h => h
  | y :: ys, _, h => Both.calls P ys (h.call P y.1 y.2.junk y.2.t y.2.k y.2.args)

/-- `a0` is given `p`, then the copy `b` is given `q`; `o` is any object with the same masses. -/
theorem copy_core {P : Proc} {S : Sym} (hc : P.checkAll S = true) {par : Nat → R} {a0 b o : Obj R C} (ha : Inv S par a0) (hb : Inv S par b) (ho : Inv S par o) {p q : Nat → V4 R} {j j1 j2 : Kin R C}
    (hp : (P.runSetMomenta j p o).1 = .ok ()) (hq : (P.runSetMomenta j q o).1 = .ok ()) (xs : List (MCall R C)) {x : Copied R C} (hx : x = ⟨runCalls P xs (P.runSetMomenta j1 p a0).2, b⟩) :
    (Copied.setMomenta P j2 q x).1 = .ok () ∧ ∀ (ys : List (Bool × MCall R C)) (t : Ty) (k : Nat) (args : List Int), Regular P t k args → ∀ l l' : Loc R C,
      (Copied.call P true l t k args (Copied.calls P ys (Copied.setMomenta P j2 q x).2)).1 = (P.method l' t k args (P.runSetMomenta j p o).2).1 ∧
      (Copied.call P false l t k args (Copied.calls P ys (Copied.setMomenta P j2 q x).2)).1 = (P.method l' t k args { (P.runSetMomenta j q o).2 with w := (P.runSetMomenta j p o).2.w }).1 := by
  obtain ⟨h1, _, _⟩ := checkAll_parts hc
  let m : Nat → R := fun i => (o.w.part i).kin.m
  have accp : ∀ i, i < 4 → accepts C j (m i) (p i) = true := accepted h1 ho hp
  have accq : ∀ i, i < 4 → accepts C j (m i) (q i) = true := accepted h1 ho hq
  -- the original
  obtain ⟨r, c, u, a1, op, hr, ea, ep, ta⟩ := momenta_twin h1 ha ho j j1 j p m (fun i hi => mass_eq h1 ha ho i hi) accp
  have ea2 : (P.runSetMomenta j1 p a0).2 = a1 := by rw [ea]
  have ep2 : (P.runSetMomenta j p o).2 = op := by rw [ep]
  rw [ea2] at hx
  rw [ep2]
  have aa : Agree S par (kins j m p) r c u (runCalls P xs a1) op := Agree.calls P xs ⟨ta.inv, ta.inv', ta.r, ta.c, ta.u⟩
  have pa : PartsOk (· < 4) (kins j m p) (runCalls P xs a1).w := ta.parts.ext (runCalls_ext P xs a1)
  -- the copy, compared with `o` given `q`
  obtain ⟨b1, ib, _, _, eb⟩ := after_momenta h1 hb j j2 q m (fun i hi => mass_eq h1 hb ho i hi) accq
  obtain ⟨o1, io, fo, eo, _⟩ := after_momenta h1 ho j j q m (fun _ _ => rfl) accq
  let y : Copied R C := ⟨runCalls P xs a1, b1⟩
  have iv : Inv S par y.view := ⟨ib.r, ib.pm, ib.pw, aa.inv.mass, ib.sp⟩
  have ht : Twin S par (kins j m p) (kins j m q) S.known [] [] y.view o1 := ⟨iv, io, pa, fo, known_eq iv io, fun n hn => by simp at hn, fun a ha => by simp at ha⟩
  obtain ⟨V, oq, z1, z2, z3⟩ := rest_sound j2 j (fun _ => int 0) q q (fun _ _ => rfl) P.rest hr ht
  have eq2 : (P.runSetMomenta j q o).2 = oq := by rw [eo, z2]
  have hpre : isPrefix P.setMomenta = true := by
    have := h1
    unfold Proc.check at this
    simp only [Bool.and_eq_true] at this
    exact this.1.1
  have run : Copied.setMomenta P j2 q x = (.ok (), y.putView V) := by
    unfold Copied.setMomenta
    rw [Proc.setMomenta_eq hpre, hx, Copied.run_own j2 _ q P.rest _ _ b eb]
    exact Copied.run_view j2 _ q P.rest hr z1
  rw [eq2, run]
  refine ⟨rfl, fun ys t k args hreg l l' => ?_⟩
  -- particles of the original after `update`
  have both : Both S par (kins j m p) r c u (y.putView V) op { oq with w := op.w } := by
    refine ⟨⟨⟨aa.inv.r, aa.inv.pm, aa.inv.pw, z3.inv.mass, aa.inv.sp⟩, aa.inv', aa.r, aa.c, fun a ha => ?_⟩,
      ⟨z3.inv, ⟨z3.inv'.r, z3.inv'.pm, z3.inv'.pw, aa.inv'.mass, aa.inv'.sp⟩, z3.r, z3.c, fun a ha => ?_⟩⟩
    · obtain ⟨d, d1, d2, d3⟩ := aa.u a ha
      exact ⟨d, d1, ⟨z3.parts.mono fun i hi => okDef_uses (aa.inv.sp a d d1).2 hi, d2.desc, d2.lm, d2.rm, d2.lu, d2.ru, d2.mat, d2.prod⟩, d3⟩
    · obtain ⟨d, d1, d2, _⟩ := z3.u a ha
      obtain ⟨d', e1, _, e3⟩ := aa.u a ha
      rw [d1] at e1
      cases e1
      exact ⟨d, d1, d2, e3⟩
  have hall := both.calls P ys
  obtain ⟨zs, hk, hargs⟩ := regular_sig hreg
  exact ⟨(agree_method hall.orig (check_method h1 hr (List.mem_append.mpr hk)) (by simp) hargs l l').1, (agree_method hall.copy (check_method h1 hr (List.mem_append.mpr hk)) (by simp) hargs l l').1⟩

set_option maxRecDepth 100000 in
theorem user_fresh : Cls.userEemm.checkFresh = true := by decide +kernel
set_option maxRecDepth 100000 in
theorem user_masses : Cls.userEemm.checkMasses = true := by decide +kernel

/-- every class of the repository: `SM/` and `user-dir/` -/
abbrev everyClass : List Proc := Cls.userEemm :: all

/-- An object with any history satisfies an invariant of a checked kind. -/
theorem history_inv {P : Proc} (hP : P ∈ everyClass) (mem : Nat → R) (junk : Kin R C) (par : Nat → R) (ops : List (ProcOp R C)) :
    ∃ (S : Sym) (par' : Nat → R), P.checkAll S = true ∧ Inv S par' (runProcOps P ops (P.construct mem junk par).2) := by
  have hf : P.checkFresh = true := by
    rcases List.mem_cons.mp hP with rfl | h
    · exact user_fresh
    · exact List.all_eq_true.mp all_fresh P h
  have hm : P.checkMasses = true := by
    rcases List.mem_cons.mp hP with rfl | h
    · exact user_masses
    · exact List.all_eq_true.mp all_masses P h
  unfold Proc.checkFresh at hf
  unfold Proc.checkMasses at hm
  cases hS : P.sym with
  | none => rw [hS] at hf; cases hf
  | some S =>
    rw [hS] at hf hm
    cases hS1 : P.symM S with
    | none => simp only [hS1] at hm; cases hm
    | some S1 =>
      simp only [hS1, Bool.and_eq_true] at hm
      have h := ops_inv_last (checkAll_parts hf).1 (checkAll_parts hm.1).1 hS1 hm.2 par ops (m := none) (construct_inv hS mem junk par).2
      revert h
      cases lastMasses ops none with
      | none => exact fun h => ⟨S, par, hf, h⟩
      | some args => exact fun h => ⟨S1, _, hm.1, h⟩

theorem ops_inv {P : Proc} {S : Sym} (hc : P.checkAll S = true) {par : Nat → R} : ∀ (ops : List (ProcOp R C)), (∀ junk args, .setMasses junk args ∉ ops) → ∀ {o : Obj R C}, Inv S par o →
    Inv S par (runProcOps P ops o)
  | [], _, _, h => h
  | op :: ops, hn, _, h => ops_inv hc ops (fun junk args hm => hn junk args (List.mem_cons_of_mem _ hm)) (op_inv (checkAll_parts hc).1 h op fun junk args e => hn junk args (e ▸ List.mem_cons_self ..))

/-! ### C78 -/

/-- An object with any history is given momenta `p` and then copied.  The copy is given momenta `q`: from then on the original returns what it returned before, the copy what an object with the denominators
of `q` and the spinor products of `p` returns. -/
theorem C78_copy {P : Proc} (hP : P ∈ everyClass) (mem : Nat → R) (junk : Kin R C) (par : Nat → R) (ops : List (ProcOp R C)) {o : Obj R C} (ho : o = runProcOps P ops (P.construct mem junk par).2)
    {p q : Nat → V4 R} {j : Kin R C} (hp : (P.runSetMomenta j p o).1 = .ok ()) (hq : (P.runSetMomenta j q o).1 = .ok ()) (xs : List (MCall R C)) (j2 : Kin R C) {x : Copied R C}
    (hx : x = .of (runCalls P xs (P.runSetMomenta j p o).2)) :
    (Copied.setMomenta P j2 q x).1 = .ok () ∧ ∀ (ys : List (Bool × MCall R C)) (t : Ty) (k : Nat) (args : List Int), Regular P t k args → ∀ l l' : Loc R C,
      (Copied.call P true l t k args (Copied.calls P ys (Copied.setMomenta P j2 q x).2)).1 = (P.method l' t k args (P.runSetMomenta j p o).2).1 ∧
      (Copied.call P false l t k args (Copied.calls P ys (Copied.setMomenta P j2 q x).2)).1 = (P.method l' t k args { (P.runSetMomenta j q o).2 with w := (P.runSetMomenta j p o).2.w }).1 := by
  obtain ⟨S, par', hc, hi⟩ := history_inv hP mem junk par ops
  rw [← ho] at hi
  refine copy_core hc hi (runCalls_inv P xs ?_) hi hp hq xs hx
  exact op_inv (checkAll_parts hc).1 hi (.setMomenta j p) (by simp)

/-- The same if the copy is made first and the original is then used, with `p` as its last momenta. -/
theorem C78_copy_before {P : Proc} (hP : P ∈ everyClass) (mem : Nat → R) (junk : Kin R C) (par : Nat → R) (ops ops' : List (ProcOp R C)) (hops : ∀ junk args, .setMasses junk args ∉ ops')
    {o : Obj R C} (ho : o = runProcOps P ops (P.construct mem junk par).2) {p q : Nat → V4 R} {j : Kin R C} (hp : (P.runSetMomenta j p o).1 = .ok ()) (hq : (P.runSetMomenta j q o).1 = .ok ())
    (xs : List (MCall R C)) (j1 j2 : Kin R C) {x : Copied R C} (hx : x = ⟨runCalls P xs (P.runSetMomenta j1 p (runProcOps P ops' (Copied.of o).orig)).2, (Copied.of o).copy⟩) :
    (Copied.setMomenta P j2 q x).1 = .ok () ∧ ∀ (ys : List (Bool × MCall R C)) (t : Ty) (k : Nat) (args : List Int), Regular P t k args → ∀ l l' : Loc R C,
      (Copied.call P true l t k args (Copied.calls P ys (Copied.setMomenta P j2 q x).2)).1 = (P.method l' t k args (P.runSetMomenta j p o).2).1 ∧
      (Copied.call P false l t k args (Copied.calls P ys (Copied.setMomenta P j2 q x).2)).1 = (P.method l' t k args { (P.runSetMomenta j q o).2 with w := (P.runSetMomenta j p o).2.w }).1 := by
  obtain ⟨S, par', hc, hi⟩ := history_inv hP mem junk par ops
  rw [← ho] at hi
  exact copy_core hc (ops_inv hc ops' hops hi) hi hi hp hq xs hx

/-! ### the same denominators -/

/-- The members after set-up code do not depend on the particles. -/
theorem members_eq {junk junk' : Kin R C} {par : Nat → R} {q q' : Nat → V4 R} : ∀ (is : List SInstr), (∀ t n k v, .den t n k v ∈ is → ∀ pr : Propag R, (Propag.denominator pr (v.eval q) : C) = Propag.denominator pr (v.eval q')) →
    ∀ {o o' : Obj R C}, o.r = o'.r → o.c = o'.c → o.pr = o'.pr → (runSetup junk par q is o).1 = .ok () → (runSetup junk' par q' is o').1 = .ok () →
    (runSetup junk par q is o).2.r = (runSetup junk' par q' is o').2.r ∧ (runSetup junk par q is o).2.c = (runSetup junk' par q' is o').2.c ∧ (runSetup junk par q is o).2.pr = (runSetup junk' par q' is o').2.pr
  | [], _, _, _, h1, h2, h3, _, _ => ⟨h1, h2, h3⟩
  | i :: is, hd, o, o', h1, h2, h3, h4, h5 => by
    have e : ∀ (jk : Kin R C) (qq : Nat → V4 R) (oo : Obj R C), runSetup jk par qq (i :: is) oo = (i.exec jk par qq >>= fun _ => runSetup jk par qq is) oo := fun _ _ _ => rfl
    rw [e] at h4 h5
    rw [e, e]
    have ok : ∀ {jk : Kin R C} {qq : Nat → V4 R} {oo : Obj R C}, ((i.exec jk par qq >>= fun _ => runSetup jk par qq is) oo).1 = .ok () → i.exec jk par qq oo = (.ok (), (i.exec jk par qq oo).2) := by
      intro jk qq oo h
      cases h6 : i.exec jk par qq oo with
      | mk y v =>
        cases y with
        | ok z => rfl
        | throw e => rw [Prog.bind_throw h6] at h; cases h
        | crash => rw [Prog.bind_crash h6] at h; cases h
    have k1 := ok h4
    have k2 := ok h5
    rw [Prog.bind_ok k1] at h4 ⊢
    rw [Prog.bind_ok k2] at h5 ⊢
    have step : (i.exec junk par q o).2.r = (i.exec junk' par q' o').2.r ∧ (i.exec junk par q o).2.c = (i.exec junk' par q' o').2.c ∧ (i.exec junk par q o).2.pr = (i.exec junk' par q' o').2.pr := by
      cases i with
      | set t n e =>
        cases t <;> simp only [SInstr.exec, Obj.setMem] <;> rw [h1, h2, h3] <;> exact ⟨rfl, rfl, rfl⟩
      | part i e => exact ⟨h1, h2, h3⟩
      | setMass i e => exact ⟨h1, h2, h3⟩
      | setMom i k => exact ⟨h1, h2, h3⟩
      | prop k m w => simp only [SInstr.exec]; rw [h1, h2, h3]; exact ⟨rfl, rfl, rfl⟩
      | propMass k e => simp only [SInstr.exec]; rw [h1, h2, h3]; exact ⟨rfl, rfl, rfl⟩
      | sprod a d => exact ⟨h1, h2, h3⟩
      | update a => exact ⟨h1, h2, h3⟩
      | den t n k v =>
        have := hd t n k v (List.mem_cons_self ..)
        cases t <;> simp only [SInstr.exec, Obj.setDen, Obj.setMem] <;> rw [h1, h2, h3, this] <;> exact ⟨rfl, rfl, rfl⟩
    exact members_eq is (fun t n k v hm => hd t n k v (List.mem_cons_of_mem _ hm)) step.1 step.2.1 step.2.2 h4 h5

/-- If the momenta `q` have the denominators of `p`, the copy ignores them: it returns what the original returns. -/
theorem C78_same {P : Proc} (hP : P ∈ everyClass) (mem : Nat → R) (junk : Kin R C) (par : Nat → R) (ops : List (ProcOp R C)) {o : Obj R C} (ho : o = runProcOps P ops (P.construct mem junk par).2)
    {p q : Nat → V4 R} {j : Kin R C} (hp : (P.runSetMomenta j p o).1 = .ok ()) (hq : (P.runSetMomenta j q o).1 = .ok ())
    (hd : ∀ t n k v, .den t n k v ∈ P.setMomenta → ∀ pr : Propag R, (Propag.denominator pr (v.eval q) : C) = Propag.denominator pr (v.eval p)) (xs : List (MCall R C)) (j2 : Kin R C) {x : Copied R C}
    (hx : x = .of (runCalls P xs (P.runSetMomenta j p o).2)) (ys : List (Bool × MCall R C)) (t : Ty) (k : Nat) (args : List Int) (hr : Regular P t k args) (l l' : Loc R C) :
    (Copied.call P false l t k args (Copied.calls P ys (Copied.setMomenta P j2 q x).2)).1 = (P.method l' t k args (P.runSetMomenta j p o).2).1 := by
  rw [((C78_copy hP mem junk par ops ho hp hq xs j2 hx).2 ys t k args hr l l').2]
  obtain ⟨h1, h2, h3⟩ := members_eq (junk := j) (junk' := j) (par := fun _ => int 0) P.setMomenta hd (o := o) (o' := o) rfl rfl rfl hq hp
  have : ({ (P.runSetMomenta j q o).2 with w := (P.runSetMomenta j p o).2.w } : Obj R C) = (P.runSetMomenta j p o).2 := by
    show (⟨(P.runSetMomenta j q o).2.r, (P.runSetMomenta j q o).2.c, (P.runSetMomenta j q o).2.pr, (P.runSetMomenta j p o).2.w⟩ : Obj R C) = _
    rw [show (P.runSetMomenta j q o).2.r = (P.runSetMomenta j p o).2.r from h1, show (P.runSetMomenta j q o).2.c = (P.runSetMomenta j p o).2.c from h2,
      show (P.runSetMomenta j q o).2.pr = (P.runSetMomenta j p o).2.pr from h3]
  rw [this]
end

/-! ### the example for users -/

noncomputable section
open XR

variable [FPEnv]

/-- A copy of the example for users: whatever momenta of the same total momentum it is given, it returns the value for the momenta of the original. -/
theorem C78_wrong (mem : Nat → XR) (junk : Kin XR XC) (par : Nat → XR) {e me mm : ℝ} (h0 : par 0 = fin e) (h1 : par 1 = fin me) (h2 : par 2 = fin mm) (hme : 0 < me) (hmm : 0 < mm)
    {p q : Nat → V4 ℝ} (hs : ∀ i : Fin 4, OnShell (p i) (![me, me, mm, mm] i)) (hb : Balanced p) (hs' : ∀ i : Fin 4, OnShell (q i) (![me, me, mm, mm] i)) (hb' : Balanced q)
    (ht : mandelstamS q = mandelstamS p) (j : Kin XR XC) (l : Loc XR XC) {x : Copied XR XC}
    (hx : x = .of (Cls.userEemm.runSetMomenta j (fun i => (p i).toX) (Cls.userEemm.construct mem junk par).2).2) :
    (Copied.setMomenta Cls.userEemm j (fun i => (q i).toX) x).1 = .ok () ∧
    (Copied.call Cls.userEemm false l .r Cls.userEemm.amp2 [] (Copied.setMomenta Cls.userEemm j (fun i => (q i).toX) x).2).1 =
      .ok (fin (e ^ 4 * throughVector me mm (mandelstamS p) (mandelstamT p) (mandelstamU p))) := by
  have u1 := C77_user mem junk par [] h0 h1 h2 hme hmm hs hb j [] l
  have u2 := C77_user mem junk par [] h0 h1 h2 hme hmm hs' hb' j [] l
  refine ⟨(C78_copy (P := Cls.userEemm) (List.mem_cons_self ..) mem junk par [] rfl u1.1 u2.1 [] j hx).1, ?_⟩
  rw [← u1.2]
  refine C78_same (P := Cls.userEemm) (List.mem_cons_self ..) mem junk par [] rfl u1.1 u2.1 ?_ [] j hx [] .r Cls.userEemm.amp2 [] (.inl ⟨rfl, rfl, rfl⟩) l l
  intro t n k v hv pr
  have : v = .add 0 1 := by
    simp only [Cls.userEemm, Cls.userEemm.setMomenta, List.mem_cons, List.not_mem_nil, or_false, reduceCtorEq, false_or] at hv
    injection hv
  subst this
  have key : ∀ r : Nat → V4 ℝ, (Propag.denominator pr ((VExp.add 0 1).eval fun i => (r i).toX) : XC) = Cplx.cart (fin (mandelstamS r) - pr.m * pr.m) (-pr.m * pr.w) := by
    intro r
    simp only [Propag.denominator, VExp.eval, V4.toX, fin_add, fin_mul, fin_sub, mandelstamS, msq]
    congr 3
    ring
  rw [key, key, ht]

/-- 2 instead of 1394 / 625 -/
example (mem : Nat → XR) (junk : Kin XR XC) (l : Loc XR XC) :
    let par : Nat → XR := fun n => if n = 0 then fin 1 else if n = 1 then fin 3 else fin 4
    let q : Nat → V4 ℝ := fun i => if i = 0 then ⟨5, 0, 0, 4⟩ else if i = 1 then ⟨5, 0, 0, -4⟩ else if i = 2 then ⟨5, 0, 0, 3⟩ else ⟨5, 0, 0, -3⟩
    let o := (Cls.userEemm.construct mem junk par).2
    (Copied.call Cls.userEemm false l .r Cls.userEemm.amp2 [] (Copied.setMomenta Cls.userEemm junk (fun i => (q i).toX) (.of (Cls.userEemm.runSetMomenta junk (fun i => (exMuons i).toX) o).2)).2).1 = .ok (fin 2) ∧
    (Cls.userEemm.method l .r Cls.userEemm.amp2 [] (Cls.userEemm.runSetMomenta junk (fun i => (q i).toX) o).2).1 = .ok (fin (1394 / 625)) := by
  intro par q o
  have hs : ∀ i : Fin 4, OnShell (exMuons i) (![3, 3, 4, 4] i) := by intro i; fin_cases i <;> constructor <;> norm_num [exMuons]
  have hb : Balanced exMuons := by constructor <;> norm_num [exMuons]
  have hs' : ∀ i : Fin 4, OnShell (q i) (![3, 3, 4, 4] i) := by intro i; fin_cases i <;> constructor <;> norm_num [q]
  have hb' : Balanced q := by constructor <;> norm_num [q]
  have h1 := (C78_wrong mem junk par (e := 1) (me := 3) (mm := 4) rfl rfl rfl (by norm_num) (by norm_num) hs hb hs' hb' (by norm_num [mandelstamS, msq, exMuons, q]) junk l rfl).2
  have h2 := (C77_user mem junk par [] (e := 1) (me := 3) (mm := 4) rfl rfl rfl (by norm_num) (by norm_num) hs' hb' junk [] l).2
  have e1 : (1 : ℝ) ^ 4 * throughVector 3 4 (mandelstamS exMuons) (mandelstamT exMuons) (mandelstamU exMuons) = 2 := by
    norm_num [throughVector, mandelstamS, mandelstamT, mandelstamU, msq, exMuons]
  have e2 : (1 : ℝ) ^ 4 * throughVector 3 4 (mandelstamS q) (mandelstamT q) (mandelstamU q) = 1394 / 625 := by
    norm_num [throughVector, mandelstamS, mandelstamT, mandelstamU, msq, q]
  rw [e1] at h1
  rw [e2] at h2
  exact ⟨h1, h2⟩
end
end Spinas.Props
