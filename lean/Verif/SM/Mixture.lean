import Verif.SM.DirectStale
import Verif.SM.Numbers
import Verif.SM.Bosons.ZHiggs
import Verif.Props.Stale
import Verif.Props.Rejected

/-! What squared amplitudes return after `set_momenta` has thrown at the last particle, in classes whose products do not contain it. -/

namespace Spinas.SM
open Spec Props XR Matrix

/-- no product of the class has the last particle at an end -/
def lastUnused (P : Proc) : Bool := match P.sym with
  | some S => S.sp.all fun d => match d with
    | some d => decide (d.left < 3) && decide (d.right < 3)
    | none => true
  | none => true

theorem lastUnused_sound {P : Proc} (h : lastUnused P = true) {S : Sym} (hS : P.sym = some S) (a : Nat) (d : SPDef) (hd : S.gsp a = some d) : d.left < 3 ∧ d.right < 3 := by
  unfold lastUnused at h
  rw [hS] at h
  have hm : some d ∈ S.sp := by
    unfold Sym.gsp at hd
    by_cases ha : a < S.sp.length
    · simp only [List.getD, List.getElem?_eq_getElem ha, Option.getD_some] at hd
      rw [← hd]; exact List.getElem_mem ha
    · simp [List.getD, show S.sp.length ≤ a by omega] at hd
  simpa using List.all_eq_true.mp h _ hm

section
variable [FPEnv] {B D E : List Nat} {ρ : Nat → ℝ}

/-- The members keep their values for the momenta `p`, the products get those for `p'`. -/
theorem mixture {P : Proc} (hP : P ∈ all) (hst : P.name ∉ staleMasses) (hmid : Stale.noMids P = true) (huse : lastUnused P = true) (hn : P.numericOnce B D E = true) (hB : ∀ n ∈ E, n ∈ B) (hD : ∀ n ∈ D, ρ n ≠ 0) (hE : ∀ n ∈ E, ρ n ^ 2 < 1)
    (mem : Nat → XR) (junk : Kin XR XC) (par : Nat → XR) (ops : List (ProcOp XR XC)) (hpar : ∀ n ∈ B, parAfter P.massPar ops par n = fin (ρ n)) {o : Obj XR XC} (ho : o = runProcOps P ops (P.construct mem junk par).2)
    {p p' : Nat → V4 ℝ} (hs : ∀ i, i < 4 → OnShell (p i) (P.massNum ρ i)) (hs' : ∀ i, i < 4 → OnShell (p' i) (P.massNum ρ i)) (hm : ∀ i, i < 4 → P.massless i = false → P.massNum ρ i ≠ 0)
    (hr : ∀ n, (Ty.r, n) ∈ P.divides → (P.env ρ p).r n ≠ 0) (hc : ∀ n, (Ty.c, n) ∈ P.divides → (P.env ρ p).c n ≠ 0)
    (j j' : Kin XR XC) {q : Nat → V4 XR} (hq : ∀ i, i < 3 → q i = (p' i).toX) (hrej : (P.runSetMomenta j' q (P.runSetMomenta j (fun i => (p i).toX) o).2).1 ≠ .ok ()) (l : Loc XR XC) (k : Nat) (hk : P.isSquare k = true) :
    (P.method l .r k [] (P.runSetMomenta j' q (P.runSetMomenta j (fun i => (p i).toX) o).2).2).1 = .ok (fin (meaning { P.env ρ p with v := (P.env ρ p').v } .r P.methods k [])) := by
  obtain ⟨S, hS, hck⟩ := fresh_check hP
  obtain ⟨c1, c2, c3⟩ := checkAll_parts hck
  have bnd : ∀ {α : Type} (g : Sym → Option α), (P.sym.bind g) = g S := by intro α g; rw [hS]; rfl
  have hi : SM.Inv S (parAfter P.massPar ops par) o := by
    have hr : SM.checkReset P P.massPar S = true := by
      have := List.all_eq_true.mp all_reset P hP
      simp only [Bool.or_eq_true, List.contains_iff_mem] at this
      have := this.resolve_left hst
      simpa only [Proc.checkReset, hS] using this
    rw [ho]
    exact ops_inv_reset c1 hr ops (construct_inv hS mem junk par).2
  simp only [Proc.numericOnce, Bool.and_eq_true] at hn
  obtain ⟨⟨hnp, hrd⟩, hms⟩ := hn
  rw [List.all_eq_true] at hrd hms
  have hmass : ∀ {o : Obj XR XC}, SM.Inv S (parAfter P.massPar ops par) o → ∀ i, i < 4 → (o.w.part i).kin.m = fin (P.massNum ρ i) := by
    intro o hi i hlt
    have := hms i (by have : i = 0 ∨ i = 1 ∨ i = 2 ∨ i = 3 := by omega
                      rcases this with rfl | rfl | rfl | rfl <;> simp)
    split at this
    · rename_i e he
      rw [Proc.massNum, he]
      rw [bnd] at he
      exact (hi.mass i e he).trans (finc_val hB hD hE hpar e this)
    · cases this
  have hnz : MassesNonzero P o := by
    intro i hlt hml
    rw [hmass hi i hlt]
    simpa [Scalar.ne] using hm i hlt hml
  have hacc := (accepted_of hP (o' := o) ⟨mem, mem, junk, junk, par, ops, ops, ho, ho, rfl⟩ (hmass hi) hs).1 j
  obtain ⟨r, c, u, hrc, ha⟩ : ∃ r c u, restCheck S P.rest S.known [] [] = some (r, c, u) ∧ Agree S (parAfter P.massPar ops par) (kins j (fun i => fin (P.massNum ρ i)) fun i => (p i).toX) r c u (P.runSetMomenta j (fun i => (p i).toX) o).2 (P.runSetMomenta j (fun i => (p i).toX) o).2 := by
    rcases (setMomenta_sound c2 hi hi j j j (fun i => (p i).toX) (fun i => fin (P.massNum ρ i)) (hmass hi)).2 with ⟨_, e, _⟩ | ⟨_, _, _, h⟩
    · rw [hacc] at e; cases e
    · exact h
  have hpre : isPrefix P.setMomenta = true := by
    unfold Proc.check at c2
    simp only [Bool.and_eq_true] at c2
    exact c2.1.1
  have hclear := fun a hua => Direct.setMomenta_clears hpre hrc hacc a hua
  generalize ho1 : (P.runSetMomenta j (fun i => (p i).toX) o).2 = o1 at *
  have hi1 := ha.inv
  obtain ⟨_, n, hn4, st⟩ := stopped_of_inv c1 hi1 j' q hrej
  have hi2 : SM.Inv S (parAfter P.massPar ops par) (P.runSetMomenta j' q o1).2 := op_inv c1 hi1 (.setMomenta j' q) (by simp)
  generalize (P.runSetMomenta j' q o1).2 = o2 at *
  have ok : ∀ i, i < 3 → (Particle.setMomentum (q i) (o1.w.part i)).1 = .ok () ∧ Fresh (Particle.setMomentum (q i) (o1.w.part i)).2 ∧ (Particle.setMomentum (q i) (o1.w.part i)).2.kin = settle j (p' i).toX (fin (P.massNum ρ i)) := by
    intro i h3
    rw [hq i h3]
    exact setMom_ok (C := XC) ((accepts_iff j j _ _).2 (ctorPM_onShell j (hs' i (by omega)))) (hmass hi1 i (by omega))
  have hn3 : n = 3 := by
    by_contra hne
    have := (ok n (by omega)).1
    rw [st.rejected] at this
    cases this
  subst hn3
  have hcm := check_method c2 hrc (List.mem_append_left _ (regular_square hk))
  have hag : Agree S (parAfter P.massPar ops par) (kins j (fun i => fin (P.massNum ρ i)) fun i => (p' i).toX) r c u o2 o2 := by
    refine ⟨hi2, hi2, fun _ _ => rfl, fun _ _ => rfl, fun a hua => ?_⟩
    obtain ⟨d, hd, s, _⟩ := ha.u a hua
    have hnm := Stale.noMids_sound hmid hS a d hd
    obtain ⟨hl, hr⟩ := lastUnused_sound huse hS a d hd
    have t : Synced a d (kins j (fun i => fin (P.massNum ρ i)) fun i => (p' i).toX) o2.w := by
      refine ⟨fun i hi => ?_, ?_, ?_, ?_, ?_, ?_, fun M hM => ?_, fun jL jR x hx => ?_⟩
      · have h3 : i < 3 := by
          rcases hi with rfl | rfl | hi
          · exact hl
          · exact hr
          · rw [hnm] at hi; simp at hi
        rw [st.before i h3]
        exact (ok i h3).2
      · rw [st.sp]; exact s.desc
      · rw [st.sp]; exact s.lm
      · rw [st.sp]; exact s.rm
      · exact s.lu
      · exact s.ru
      · rw [hnm] at hM; cases hM
      · rw [st.sp, hclear a hua jL jR] at hx; cases hx
    exact ⟨d, hd, t, t⟩
  have hlift : Lifted P.reads P.divides { P.env ρ p with v := (P.env ρ p').v } o2.r o2.c := by
    have den : ∀ d, P.denFin B D E d = true → ∃ k v em ew M W, d = some (k, v) ∧ S.gpm k = some em ∧ em.val0 (C := XC) (parAfter P.massPar ops par) = fin M ∧ S.gpw k = some ew ∧ ew.val0 (C := XC) (parAfter P.massPar ops par) = fin W ∧
        P.denNum ρ p d = poleDist M W (v.sum p) := by
      intro d hd
      unfold Proc.denFin at hd
      unfold Proc.denNum
      split at hd
      · rename_i k v
        split at hd
        · rename_i m w em ew
          rw [Bool.and_eq_true] at hd
          refine ⟨k, v, m, w, _, _, rfl, (bnd _).symm.trans em, finc_val hB hD hE hpar m hd.1, (bnd _).symm.trans ew, finc_val hB hD hE hpar w hd.2, ?_⟩
          simp only [em, ew]
        · cases hd
      · cases hd
    refine ⟨fun n hn => ?_, fun n hn => ?_, hr, hc⟩
    · rw [st.r]
      have := hrd _ hn
      simp only at this
      split at this
      · rename_i e he
        simp only [Proc.env, he]
        rw [bnd] at he
        exact (hi1.r n e he).trans (finc_val hB hD hE hpar e this)
      · rename_i he
        obtain ⟨k, v, em, ew, M, W, hl, hem, hM, hew, hW, hx⟩ := den _ this
        simp only [Proc.env, he, hx]
        have := den_sound j (fun _ => int 0) (fun i => (p i).toX) n P.setMomenta none o hnp (by simp) hacc _ _ hl
        have hd := denominator_fin ((hi.pm k em hem).trans hM) ((hi.pw k ew hew).trans hW) (v.sum p)
        rw [← VExp.eval_sum] at hd
        rw [← ho1]
        unfold Proc.runSetMomenta
        rw [this, hd]
        rfl
    · rw [st.c]
      have := hrd _ hn
      simp only at this
      obtain ⟨k, v, em, ew, M, W, hl, hem, hM, hew, hW, hx⟩ := den _ this
      simp only [Proc.env, hx]
      have := denC_sound j (fun _ => int 0) (fun i => (p i).toX) n P.setMomenta none o hnp (by simp) hacc _ _ hl
      have hd := denominator_fin ((hi.pm k em hem).trans hM) ((hi.pw k ew hew).trans hW) (v.sum p)
      rw [← VExp.eval_sum] at hd
      rw [← ho1]
      unfold Proc.runSetMomenta
      rw [this, hd]
  obtain ⟨x, e1, e2⟩ := method_pure hag hcm (massTest c3 hi (hmass hi) hnz j _) List.Forall₂.nil l zeroLoc.up (mr := o2.r) (mc := o2.c) (fun _ _ => rfl) (fun _ _ => rfl)
  rw [e1]
  have hv : (P.env ρ p').v = braTab S.gsp p' (P.massNum ρ) := by
    show braTab (fun a => P.sym.bind fun S => S.gsp a) p' (P.massNum ρ) = _
    congr 1
    funext a
    exact bnd _
  have := tame_invoke (σ := Unit) hlift (v := pureV (chainTab S.gsp (kins j (fun i => fin (P.massNum ρ i)) fun i => (p' i).toX)))
    (fun a args => Post.pure (by rw [chainTab_braTab (fun a d had => (hi.sp a d had).2) j (fun i hi => (hs' i hi).mag_le), hv])) .r P.methods (List.all_eq_true.mp all_tame P hP) k [] () x (by rw [e2])
  rw [this]
  rfl

end
end Spinas.SM
