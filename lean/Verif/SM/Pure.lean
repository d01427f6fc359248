import Verif.SM.Calls

/-! Amplitude methods after `set_momenta`, without state: every spinor product is replaced by the value of its chain. -/

namespace Spinas.SM
open Spec

variable {R C : Type} [Scalar R] [HasPow R] [Cplx R C]

/-- The value of the product number `a` for the spins `args` of its massive ends. -/
def chainTab (sp : Nat → Option SPDef) (κ : Nat → Kin R C) (a : Nat) (args : List Int) : C := match sp a, args with
  | some d, [] => chain κ d 1 1
  | some d, [j] => chain κ d j j
  | some d, [j, k] => chain κ d j k
  | _, _ => czero

/-- calls without state -/
def pureV (V : Nat → List Int → C) (a : Nat) (args : List Int) : Prog Unit C := pure (V a args)

/-- A method of an object with up-to-date products returns what it returns when the products are replaced by the chains. -/
theorem method_pure {S : Sym} {par : Nat → R} {κ : Nat → Kin R C} {r c u : List Bool} {o : Obj R C} (h : Agree S par κ r c u o o)
    {P : Proc} {t : Ty} {k : Nat} {xs : List AI}
    (hc : absInvoke (fun n => r.getD n false) (fun n => c.getD n false) (okCalls true S u) false t P.methods k xs = true)
    (hs : MassTest S κ) {args : List Int} (ha : ArgsOk xs args) (junk junk' : Loc R C) {mr : Nat → R} {mc : Nat → C}
    (hr : ∀ n, r.getD n false = true → o.r n = mr n) (hcm : ∀ n, c.getD n false = true → o.c n = mc n) :
    ∃ x, (P.method junk t k args o).1 = .ok x ∧
      invoke mr mc (pureV (chainTab S.gsp κ)) junk' t P.methods k args () = (.ok x, ()) := by
  let Rel : World R C → Unit → Prop := fun w _ => ∀ a, u.getD a false = true → ∃ d, S.gsp a = some d ∧ Sym.okDef d = true ∧ Synced a d κ w
  have hv : ∀ a args, okCalls true S u a args.length = true → (∀ j ∈ args, IsSpin j) →
      RelProg Rel false Eq (Proc.vcall (R := R) (C := C) a args) (pureV (chainTab S.gsp κ) a args) := by
    intro a args hok hspin
    simp only [okCalls, Bool.and_eq_true] at hok
    obtain ⟨hua, hok⟩ := hok
    have key : ∀ cc : VCall, cc.Valid → Proc.vcall (R := R) (C := C) a args = cc.run a →
        (∀ d, S.gsp a = some d → Sym.okDef d = true → args.length = arity S d → outcome κ d cc = .ok (chainTab S.gsp κ a args)) →
        RelProg Rel false Eq (Proc.vcall (R := R) (C := C) a args) (pureV (chainTab S.gsp κ) a args) := by
      intro cc hval hrun hout w w' hw
      obtain ⟨d, hd, hokd, s1⟩ := hw a hua
      obtain ⟨w1, e1, _, _, _⟩ := v_spec s1 cc hval
      rw [hrun]
      constructor
      · intro b hb
        obtain ⟨d', hd', hokd', t1⟩ := hw b hb
        exact ⟨d', hd', hokd', synced_v t1 a cc⟩
      · rw [e1]
        dsimp only
        rw [hd] at hok
        rw [hout d hd hokd (by simpa using hok)]
        rfl
    have mass : ∀ d, Sym.okDef d = true → massive (κ d.left) = massiveExp (S.gm d.left) ∧ massive (κ d.right) = massiveExp (S.gm d.right) :=
      fun d hd => ⟨hs _ (okDef_uses hd (.inl rfl)), hs _ (okDef_uses hd (.inr (.inl rfl)))⟩
    rcases args with _ | ⟨j, _ | ⟨k, _ | ⟨l, ls⟩⟩⟩
    · refine key .v0 trivial rfl fun d hsp hd hl => ?_
      obtain ⟨m1, m2⟩ := mass d hd
      unfold arity at hl
      rw [← m1, ← m2] at hl
      simp only [outcome, chainTab, hsp]
      cases h1 : massive (κ d.left) <;> cases h2 : massive (κ d.right) <;> simp [h1, h2] at hl ⊢
    · refine key (.v1 j) (hspin j (by simp)) rfl fun d hsp hd hl => ?_
      obtain ⟨m1, m2⟩ := mass d hd
      unfold arity at hl
      rw [← m1, ← m2] at hl
      simp only [outcome, chainTab, hsp]
      cases h1 : massive (κ d.left) <;> cases h2 : massive (κ d.right) <;> simp [h1, h2] at hl ⊢
    · refine key (.v2 j k) ⟨hspin j (by simp), hspin k (by simp)⟩ rfl fun d hsp hd hl => ?_
      obtain ⟨m1, m2⟩ := mass d hd
      unfold arity at hl
      rw [← m1, ← m2] at hl
      simp only [outcome, chainTab, hsp]
      cases h1 : massive (κ d.left) <;> cases h2 : massive (κ d.right) <;> simp [h1, h2] at hl ⊢
    · exfalso
      split at hok
      · simp [arity] at hok; split_ifs at hok <;> simp at hok
      · cases hok
  have main := invoke_sound (Rel := Rel) hr hcm hv junk junk' t P.methods k xs args hc ha o.w ()
    (fun a ha => let ⟨d, h1, h2, _⟩ := h.u a ha; ⟨d, h1, (h.inv.sp a d h1).2, h2⟩)
  have e1 : (P.method junk t k args o).1 = (invoke o.r o.c Proc.vcall junk t P.methods k args o.w).1 := rfl
  rw [e1]
  have hm := main.2
  revert hm
  rcases invoke o.r o.c Proc.vcall junk t P.methods k args o.w with ⟨x | e | _, w⟩ <;>
    rcases invoke mr mc (pureV (chainTab S.gsp κ)) junk' t P.methods k args () with ⟨y | e' | _, ⟨⟩⟩ <;> intro hm
  all_goals first | exact hm.elim | skip
  · exact ⟨x, rfl, by rw [show x = y from hm]⟩
  · simp at hm

/-- `set_momenta` on two objects with the same parameters, with different momenta that give the same propagator denominators. -/
theorem setMomenta_two {P : Proc} {strict : Bool} {S : Sym} {ks : List (Ty × Nat × List AI)} (hc : P.check strict S ks = true) {par : Nat → R}
    {o o' : Obj R C} (h : Inv S par o) (h' : Inv S par o') (junk junk' k0 : Kin R C) (q q' : Nat → V4 R) (m : Nat → R)
    (hm : ∀ i, i < 4 → (o.w.part i).kin.m = m i)
    (hden : ∀ (v : VExp) (p : Propag R), (Propag.denominator p (v.eval q) : C) = Propag.denominator p (v.eval q'))
    (hq : ∀ i, i < 4 → accepts C k0 (m i) (q i) = true) (hq' : ∀ i, i < 4 → accepts C k0 (m i) (q' i) = true) :
    (P.runSetMomenta junk q o).1 = .ok () ∧ (P.runSetMomenta junk' q' o').1 = .ok () ∧
    ∃ r c u, restCheck S P.rest S.known [] [] = some (r, c, u) ∧
      Agree S par (kins k0 m q) r c u (P.runSetMomenta junk q o).2 (P.runSetMomenta junk q o).2 ∧
      Agree S par (kins k0 m q') r c u (P.runSetMomenta junk' q' o').2 (P.runSetMomenta junk' q' o').2 ∧
      (∀ n, r.getD n false = true → (P.runSetMomenta junk q o).2.r n = (P.runSetMomenta junk' q' o').2.r n) ∧
      (∀ n, c.getD n false = true → (P.runSetMomenta junk q o).2.c n = (P.runSetMomenta junk' q' o').2.c n) := by
  unfold Proc.check at hc
  simp only [Bool.and_eq_true] at hc
  obtain ⟨⟨hpre, hmass⟩, hc⟩ := hc
  have hm' : ∀ i, i < 4 → (o'.w.part i).kin.m = m i := by
    intro i hi
    have := List.all_eq_true.mp hmass i (List.mem_range.mpr hi)
    obtain ⟨e, he⟩ := Option.isSome_iff_exists.mp this
    rw [← hm i hi]
    exact (h'.mass i e he).trans (h.mass i e he).symm
  have hsm : P.setMomenta = ((List.range' 0 4).map fun i => SInstr.setMom i i) ++ P.rest := by
    unfold Proc.rest
    revert hpre
    unfold isPrefix
    split
    · rename_i l heq; intro _; rw [heq]; rfl
    · intro hpre; cases hpre
  obtain ⟨o1, i1, m1, r1, c1, p1, z1⟩ := momenta_sound k0 junk (fun _ => int 0) q (fun i => (o.w.part i).kin.m) P.rest 4 0 o h (fun _ => rfl) (fun i hi => absurd hi (by omega))
  obtain ⟨o2, i2, m2, r2, c2, p2, z2⟩ := momenta_sound k0 junk' (fun _ => int 0) q' (fun i => (o'.w.part i).kin.m) P.rest 4 0 o' h' (fun _ => rfl) (fun i hi => absurd hi (by omega))
  rw [← hsm] at z1 z2
  simp only [Nat.zero_add, Nat.zero_le, true_and, forall_const] at z1 z2
  rcases z1 with ⟨⟨i, hi, hacc⟩, z1⟩ | ⟨hacc, f1, z1⟩
  · rw [hm i hi, hq i hi] at hacc; cases hacc
  rcases z2 with ⟨⟨i, hi, hacc⟩, z2⟩ | ⟨hacc2, f2, z2⟩
  · rw [hm' i hi, hq' i hi] at hacc; cases hacc
  cases hrest : restCheck S P.rest S.known [] [] with
  | none => rw [hrest] at hc; cases hc
  | some x =>
    obtain ⟨r, c, u⟩ := x
    have ht : Twin S par (kins k0 m q) (kins k0 m q') S.known [] [] o1 o2 := by
      refine ⟨i1, i2, fun i hi => ?_, fun i hi => ?_, fun n hn => ?_, fun n hn => ?_, fun a ha => ?_⟩
      · have := f1 i hi
        simp only [kins] at this ⊢
        rw [← hm i hi]; exact this
      · have := f2 i hi
        simp only [kins] at this ⊢
        rw [← hm' i hi]; exact this
      · have hs : (S.gr n).isSome = true := by
          have e : (S.r.map Option.isSome).getD n false = (S.r.getD n none).isSome := by
            by_cases h : n < S.r.length
            · simp [List.getD, h]
            · simp [List.getD, show S.r.length ≤ n by omega]
          rw [Sym.gr, ← e]; exact hn
        obtain ⟨e, he⟩ := Option.isSome_iff_exists.mp hs
        exact (i1.r n e he).trans (i2.r n e he).symm
      · simp at hn
      · simp at ha
    obtain ⟨p, p', e1, e2, ht'⟩ := rest_sound junk junk' (fun _ => int 0) q q' hden P.rest hrest ht
    unfold Proc.runSetMomenta
    rw [z1, z2, e1, e2]
    refine ⟨rfl, rfl, r, c, u, rfl, ⟨ht'.inv, ht'.inv, fun _ _ => rfl, fun _ _ => rfl, fun a ha => ?_⟩,
      ⟨ht'.inv', ht'.inv', fun _ _ => rfl, fun _ _ => rfl, fun a ha => ?_⟩, ht'.r, ht'.c⟩
    · obtain ⟨d, h1, h2, _⟩ := ht'.u a ha; exact ⟨d, h1, h2, h2⟩
    · obtain ⟨d, h1, _, h2⟩ := ht'.u a ha; exact ⟨d, h1, h2, h2⟩

end Spinas.SM
