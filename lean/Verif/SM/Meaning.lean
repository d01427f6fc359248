import Verif.SM.Real
import Verif.SM.Frame
import Verif.SM.Positive

/-! Squared amplitudes after `set_momenta` as real numbers: what `amp2` and its relatives return is their `meaning`. -/

namespace Spinas.SM
open Spec Props XR Matrix

theorem all_tame : all.all Proc.tame = true := by decide +kernel

section
variable [FPEnv]

/-- the value of the product number `a` -/
noncomputable def braTab (sp : Nat → Option SPDef) (p : Nat → V4 ℝ) (m : Nat → ℝ) (a : Nat) (args : List Int) : ℂ := match sp a, args with
  | some d, [] => zchain p m d 1 1
  | some d, [j] => zchain p m d j j
  | some d, [j, k] => zchain p m d j k
  | _, _ => 0

theorem chainTab_braTab {S : Sym} (hS : ∀ a d, S.gsp a = some d → Sym.okDef d = true) (k0 : Kin XR XC) {m : Nat → ℝ} {p : Nat → V4 ℝ}
    (hsh : ∀ i, i < 4 → (p i).mag ≤ (p i).t) (a : Nat) (args : List Int) :
    chainTab S.gsp (kins k0 (fun i => fin (m i)) fun i => (p i).toX) a args = ofC (braTab S.gsp p m a args) := by
  unfold chainTab braTab
  cases hd : S.gsp a with
  | none => simp
  | some d =>
    have hok := hS a d hd
    simp only [Sym.okDef, Bool.and_eq_true, decide_eq_true_eq, List.all_eq_true] at hok
    obtain ⟨⟨⟨_, hl⟩, hr⟩, hmid⟩ := hok
    have ch : ∀ j k, chain (kins k0 (fun i => fin (m i)) fun i => (p i).toX) d j k = ofC (zchain p m d j k) := fun j k =>
      chain_fin (kins_kinOf k0 (hsh _ hl)) (kins_kinOf k0 (hsh _ hr)) (fun i hi => by rw [kins_kinOf k0 (hsh _ (hmid i hi))]; exact kinOf_mats _ _) j k
    rcases args with _ | ⟨j, _ | ⟨k, _ | ⟨n, ns⟩⟩⟩ <;> simp [ch]

/-- masses that are zero in the description and in the object -/
theorem massTest {P : Proc} {S : Sym} (h3 : P.massCheck S = true) {par : Nat → XR} {o : Obj XR XC} (h : Inv S par o) {m : Nat → ℝ}
    (hm : ∀ i, i < 4 → (o.w.part i).kin.m = fin (m i)) (hnz : MassesNonzero P o) (k0 : Kin XR XC) (q : Nat → V4 XR) :
    MassTest S (kins k0 (fun i => fin (m i)) q : Nat → Kin XR XC) := by
  intro i hi
  have : massiveExp (S.gm i) = decide (m i ≠ 0) := by
    have hck := List.all_eq_true.mp h3 i (List.mem_range.mpr hi)
    simp only [beq_iff_eq] at hck
    cases hml : P.massless i with
    | false =>
      have := hnz i hi hml
      rw [hm i hi] at this
      rw [hck, hml]
      simpa [Scalar.ne] using this
    | true =>
      rw [hck, hml]
      have hz : S.gm i = some (.lit 0) := by
        rw [hml] at hck
        revert hck
        unfold massiveExp
        split
        · rename_i heq; exact fun _ => heq
        · intro hck; cases hck
      have : (o.w.part i).kin.m = Exp.val0 (C := XC) par (.lit 0) := h.mass i _ hz
      rw [hm i hi] at this
      simp only [Exp.val0, Exp.val, s_int, fin_inj] at this
      simp [this]
  rw [this]
  show Scalar.ne (fin (m i)) (int 0) = _
  simp [Scalar.ne]

/-- What a squared amplitude returns. -/
theorem square_meaning {P : Proc} {S : Sym} (hc : P.checkAll S = true) (hT : P.tame = true) {k : Nat} (hk : P.isSquare k = true) {par : Nat → XR} {o : Obj XR XC}
    (h : Inv S par o) {m : Nat → ℝ} (hm : ∀ i, i < 4 → (o.w.part i).kin.m = fin (m i)) (hnz : MassesNonzero P o) {p : Nat → V4 ℝ}
    (hsh : ∀ i, i < 4 → (p i).mag ≤ (p i).t) (j : Kin XR XC) (hq : (P.runSetMomenta j (fun i => (p i).toX) o).1 = .ok ()) (xs : List (MCall XR XC)) (l : Loc XR XC)
    {N : Env} (hN : Lifted P.reads P.divides N (P.runSetMomenta j (fun i => (p i).toX) o).2.r (P.runSetMomenta j (fun i => (p i).toX) o).2.c)
    (hv : N.v = braTab S.gsp p m) :
    (P.method l .r k [] (runCalls P xs (P.runSetMomenta j (fun i => (p i).toX) o).2)).1 = .ok (fin (meaning N .r P.methods k [])) := by
  obtain ⟨_, h2, h3⟩ := checkAll_parts hc
  rcases (setMomenta_sound h2 h h j j j (fun i => (p i).toX) (fun i => fin (m i)) hm).2 with ⟨_, e, _⟩ | ⟨_, _, _, r, c, u, hr, ha⟩
  · rw [hq] at e; cases e
  have hcm := check_method h2 hr (List.mem_append_left _ (regular_square hk))
  have ha1 := (ha.calls P xs).symm.calls P xs
  obtain ⟨x, e1, e2⟩ := method_pure ha1 hcm (massTest h3 h hm hnz j _) List.Forall₂.nil l zeroLoc.up
    (mr := (P.runSetMomenta j (fun i => (p i).toX) o).2.r) (mc := (P.runSetMomenta j (fun i => (p i).toX) o).2.c)
    (fun n _ => by rw [(calls_members P xs _).1]) (fun n _ => by rw [(calls_members P xs _).2])
  rw [e1]
  have := tame_invoke (σ := Unit) hN (v := pureV (chainTab S.gsp (kins j (fun i => fin (m i)) fun i => (p i).toX)))
    (fun a args => Post.pure (by rw [chainTab_braTab (fun a d had => (h.sp a d had).2) j hsh, hv])) .r P.methods hT k [] () x (by rw [e2])
  rw [this]
  rfl

/-! ### members after `set_momenta` -/

/-- the last assignment of a denominator to the complex member `n` -/
def lastDenC (n : Nat) : List SInstr → Option (Nat × VExp) → Option (Nat × VExp)
  | [], d => d
  | .den .c n' k v :: is, d => lastDenC n is (if n = n' then some (k, v) else d)
  | .set .c n' _ :: is, d => lastDenC n is (if n = n' then none else d)
  | .den .r _ _ _ :: is, d => lastDenC n is d
  | .set .r _ _ :: is, d => lastDenC n is d
  | .part _ _ :: is, d => lastDenC n is d
  | .setMass _ _ :: is, d => lastDenC n is d
  | .setMom _ _ :: is, d => lastDenC n is d
  | .prop _ _ _ :: is, d => lastDenC n is d
  | .propMass _ _ :: is, d => lastDenC n is d
  | .sprod _ _ :: is, d => lastDenC n is d
  | .update _ :: is, d => lastDenC n is d

end

section
variable {R C : Type} [Scalar R] [HasPow R] [Cplx R C]

theorem denC_sound (junk : Kin R C) (par : Nat → R) (q : Nat → V4 R) (n : Nat) : ∀ (is : List SInstr) (d : Option (Nat × VExp)) (o : Obj R C), is.all SInstr.noProp = true →
    (∀ k v, d = some (k, v) → o.c n = (Propag.denominator (o.pr k) (v.eval q) : C)) → (runSetup junk par q is o).1 = .ok () →
    ∀ k v, lastDenC n is d = some (k, v) → (runSetup junk par q is o).2.c n = (Propag.denominator (o.pr k) (v.eval q) : C)
  | [], d, o, _, hd, _, k, v, h => hd k v h
  | i :: is, d, o, hn, hd, hr, k, v, h => by
    rw [List.all_cons, Bool.and_eq_true] at hn
    have step : ∀ (i : SInstr) (d' : Option (Nat × VExp)), (runSetup junk par q (i :: is) o).1 = .ok () →
        (i.exec junk par q o).2.pr = o.pr → (∀ k v, d' = some (k, v) → (i.exec junk par q o).2.c n = (Propag.denominator (o.pr k) (v.eval q) : C)) →
        lastDenC n is d' = some (k, v) → (runSetup junk par q (i :: is) o).2.c n = (Propag.denominator (o.pr k) (v.eval q) : C) := by
      intro i d' hr hp hd' h
      rw [runSetup, Prog.bind_run] at hr ⊢
      cases e : i.exec junk par q o with
      | mk a o' =>
        rw [e] at hr hp hd'
        cases a with
        | ok u =>
          simp only at hr hp hd' ⊢
          rw [← hp] at hd' ⊢
          exact denC_sound junk par q n is d' o' hn.2 hd' hr k v h
        | throw x => cases hr
        | crash => cases hr
    cases i with
    | set t m e =>
      cases t with
      | c =>
        refine step _ _ hr rfl ?_ h
        intro k v hkv
        split_ifs at hkv with hm
        simp only [SInstr.exec, Obj.setMem, if_neg hm]
        exact hd k v hkv
      | r => exact step _ d hr rfl hd h
    | part i e => exact step _ d hr rfl hd h
    | setMass i e => exact step _ d hr rfl hd h
    | setMom i k => exact step _ d hr rfl hd h
    | prop k m w => cases hn.1
    | propMass k e => cases hn.1
    | sprod a d' => exact step _ d hr rfl hd h
    | update a => exact step _ d hr rfl hd h
    | den t m k' v' =>
      cases t with
      | c =>
        refine step _ _ hr rfl ?_ h
        intro k v hkv
        simp only [SInstr.exec, Obj.setDen, Obj.setMem]
        split_ifs at hkv ⊢ with hm
        · cases hkv; rfl
        · exact hd k v hkv
      | r => exact step _ d hr rfl hd h

end
end Spinas.SM
