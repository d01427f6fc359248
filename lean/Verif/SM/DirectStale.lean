import Verif.SM.DirectQED
import Verif.SM.DirectKeep
import Verif.SM.Closed

/-! `amp2()` after a call of the overload `amp2(mom1, mom2, mom3, mom4)`, without `set_momenta` in between: the products computed then have the new spinors, the denominators those members hold. -/

namespace Spinas.SM.Direct
open Spec Props XR Matrix

section
variable {R C : Type} [Scalar R] [HasPow R] [Cplx R C]

/-- no value of the product at address `a` is stored -/
def Empty (a : Nat) (w : World R C) : Prop := ∀ j k, (w.sp a).prod j k = none

omit [HasPow R] in
/-- `update()` forgets the values of the product -/
theorem update_clears {a : Nat} {w : World R C} (h : (SProd.update a w).1 = .ok ()) : Empty a (SProd.update a w).2 := by
  revert h
  unfold SProd.update
  dsimp only
  cases (w.sp a).desc with
  | none => intro h; cases h
  | some d =>
    intro h j k
    revert h
    simp only [Prog.bind, onPart, Particle.getMass]
    split_ifs
    · intro h; cases h
    · intro h; cases h
    · generalize hw : World.setSp _ a _ = w2
      have h2 : (w2.sp a).prod = fun _ _ => none := by rw [← hw]; simp [World.setSp]
      have h3 := (frame_midProd (R := R) (C := C) (a + 1) d.leftAngle d.mids w2).2 a (by omega)
      rcases hm : SProd.midProd d.leftAngle d.mids w2 with ⟨r, w3⟩
      rw [hm] at h3
      cases r with
      | throw e => intro h; cases h
      | crash => intro h; cases h
      | ok m =>
        cases m with
        | none => intro _; show ((w3.sp a).prod j k) = none; rw [show w3.sp a = w2.sp a from h3, h2]
        | some m => intro _; simp [World.setSp]

theorem setup_cons (junk : Kin R C) (par : Nat → R) (q : Nat → V4 R) {i : SInstr} {is : List SInstr} {o : Obj R C} (h : (runSetup junk par q (i :: is) o).1 = .ok ()) :
    (i.exec junk par q o).1 = .ok () ∧ runSetup junk par q (i :: is) o = runSetup junk par q is (i.exec junk par q o).2 := by
  rw [runSetup, Prog.bind_run] at h ⊢
  revert h
  rcases i.exec junk par q o with ⟨a, o1⟩
  cases a with
  | ok u => exact fun _ => ⟨rfl, rfl⟩
  | throw e => intro h; cases h
  | crash => intro h; cases h

/-- after the statements of `set_momenta` that follow those for the momenta, no value of an updated product is stored -/
theorem rest_clears {S : Sym} (junk : Kin R C) (par : Nat → R) (q : Nat → V4 R) (is : List SInstr) : ∀ {r c u r' c' u' : List Bool} {o : Obj R C}, restCheck S is r c u = some (r', c', u') →
    (runSetup junk par q is o).1 = .ok () → (∀ a, u.getD a false = true → Empty a o.w) → ∀ a, u'.getD a false = true → Empty a (runSetup junk par q is o).2.w := by
  induction is with
  | nil => intro r c u r' c' u' o hc _ h; cases hc; exact h
  | cons i is ih =>
    intro r c u r' c' u' o hc hr h
    obtain ⟨h1, h2⟩ := setup_cons junk par q hr
    rw [h2] at hr ⊢
    have same : (∀ b, Empty b o.w → Empty b (i.exec junk par q o).2.w) → ∀ {r1 c1 : List Bool}, restCheck S is r1 c1 u = some (r', c', u') →
        ∀ a, u'.getD a false = true → Empty a (runSetup junk par q is (i.exec junk par q o).2).2.w := fun hw r1 c1 hc1 => ih hc1 hr fun a ha => hw a (h a ha)
    cases i with
    | set t n e => cases t <;> simp only [restCheck] at hc <;> split_ifs at hc <;> exact same (fun _ hb => hb) hc
    | den t n k v => cases t <;> simp only [restCheck] at hc <;> split_ifs at hc <;> exact same (fun _ hb => hb) hc
    | part i e => cases hc
    | setMass i e => cases hc
    | setMom i k => cases hc
    | prop k m w => cases hc
    | propMass k e => cases hc
    | sprod a d => cases hc
    | update b =>
      simp only [restCheck] at hc
      split_ifs at hc
      refine ih hc hr fun a ha => ?_
      show Empty a (SProd.update b o.w).2
      rw [getD_upd] at ha
      by_cases hab : a = b
      · subst hab; exact update_clears h1
      · rw [if_neg hab] at ha
        intro j k
        rw [(frame_update b o.w).2 a hab]
        exact h a ha j k

/-- after `set_momenta` no value of a product is stored -/
theorem setMomenta_clears {P : Proc} {S : Sym} {r c u : List Bool} (hp : isPrefix P.setMomenta = true) (hr : restCheck S P.rest S.known [] [] = some (r, c, u)) {junk : Kin R C} {q : Nat → V4 R} {o : Obj R C}
    (h : (P.runSetMomenta junk q o).1 = .ok ()) (a : Nat) (ha : u.getD a false = true) : Empty a (P.runSetMomenta junk q o).2.w := by
  have hsm : P.setMomenta = .setMom 0 0 :: .setMom 1 1 :: .setMom 2 2 :: .setMom 3 3 :: P.rest := by
    unfold Proc.rest
    revert hp
    unfold isPrefix
    split
    · rename_i l heq; intro _; rw [heq]; rfl
    · intro hp; cases hp
  unfold Proc.runSetMomenta at h ⊢
  rw [hsm] at h ⊢
  obtain ⟨-, e⟩ := setup_cons _ _ _ h; rw [e] at h ⊢
  obtain ⟨-, e⟩ := setup_cons _ _ _ h; rw [e] at h ⊢
  obtain ⟨-, e⟩ := setup_cons _ _ _ h; rw [e] at h ⊢
  obtain ⟨-, e⟩ := setup_cons _ _ _ h; rw [e] at h ⊢
  exact rest_clears _ _ _ P.rest hr h (fun a ha => by simp at ha) a ha

end

section
variable [FPEnv]

/-- What squared amplitudes return when the particles have been given other momenta `p'` since `set_momenta`, and the products contain no momenta inside. -/
theorem stale_meaning {P : Proc} {S : Sym} (hc : P.checkAll S = true) (hT : P.tame = true) (hmid : ∀ a d, S.gsp a = some d → d.mids = []) {k : Nat} (hk : P.isSquare k = true) {par : Nat → XR} {o o' : Obj XR XC}
    (h : SM.Inv S par o) (h' : SM.Inv S par o') {m : Nat → ℝ} (hm : ∀ i, i < 4 → (o.w.part i).kin.m = fin (m i)) (hnz : MassesNonzero P o) {q : Nat → V4 XR} {p' : Nat → V4 ℝ}
    (hsh : ∀ i, i < 4 → OnShell (p' i) (m i)) (j : Kin XR XC) (hq : (P.runSetMomenta j q o).1 = .ok ()) (hsp : o'.w.sp = (P.runSetMomenta j q o).2.w.sp) (hw : PartsOk (· < 4) (kin4 p' m) o'.w)
    (l : Loc XR XC) {N : Env} (hN : Lifted P.reads P.divides N o'.r o'.c) (hv : N.v = braTab S.gsp p' m) :
    (P.method l .r k [] o').1 = .ok (fin (meaning N .r P.methods k [])) := by
  obtain ⟨_, h2, h3⟩ := checkAll_parts hc
  rcases (setMomenta_sound h2 h h j j j q (fun i => fin (m i)) hm).2 with ⟨_, e, _⟩ | ⟨_, _, _, r, c, u, hr, ha⟩
  · rw [hq] at e; cases e
  have hpre : isPrefix P.setMomenta = true := by
    unfold Proc.check at h2
    simp only [Bool.and_eq_true] at h2
    exact h2.1.1
  have hcm := check_method h2 hr (List.mem_append_left _ (regular_square hk))
  have hkin : ∀ i, i < 4 → kins j (fun i => fin (m i)) (fun i => (p' i).toX) i = kin4 p' m i := fun i hi => settle_fin _ _ _ rfl rfl (hsh i hi).mag_le
  have hag : Agree S par (kins j (fun i => fin (m i)) fun i => (p' i).toX) r c u o' o' := by
    refine ⟨h', h', fun _ _ => rfl, fun _ _ => rfl, fun a hua => ?_⟩
    obtain ⟨d, hd, s, _⟩ := ha.u a hua
    have hok := (h.sp a d hd).2
    have t : Synced a d (kins j (fun i => fin (m i)) fun i => (p' i).toX) o'.w := by
      refine ⟨fun i hi => ?_, ?_, ?_, ?_, ?_, ?_, fun M hM => ?_, fun jL jR x hx => ?_⟩
      · have h4 := okDef_uses hok hi
        rw [hkin i h4]
        exact hw i h4
      · rw [hsp]; exact s.desc
      · rw [hsp]; exact s.lm
      · rw [hsp]; exact s.rm
      · exact s.lu
      · exact s.ru
      · rw [hmid a d hd] at hM; cases hM
      · rw [hsp, setMomenta_clears hpre hr hq a hua jL jR] at hx; cases hx
    exact ⟨d, hd, t, t⟩
  obtain ⟨x, e1, e2⟩ := method_pure hag hcm (massTest h3 h hm hnz j _) List.Forall₂.nil l zeroLoc.up (mr := o'.r) (mc := o'.c) (fun _ _ => rfl) (fun _ _ => rfl)
  rw [e1]
  have := tame_invoke (σ := Unit) hN (v := pureV (chainTab S.gsp (kins j (fun i => fin (m i)) fun i => (p' i).toX)))
    (fun a args => Post.pure (by rw [chainTab_braTab (fun a d had => (h.sp a d had).2) j (fun i hi => (hsh i hi).mag_le), hv])) .r P.methods hT k [] () x (by rw [e2])
  rw [this]
  rfl

end
end Spinas.SM.Direct
