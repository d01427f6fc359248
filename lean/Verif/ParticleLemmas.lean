import Verif.Particle
import Verif.Spec.History
import Mathlib.Tactic.SplitIfs

/-! Auxiliary facts about the particle model: what accessors may change, and the cache invariant. -/

namespace Spinas

variable {R C : Type} [Scalar R] [Cplx R C]

/-- `Q` is `P` with possibly more cache entries filled, each with the value its accessor would have computed on `P`. -/
structure Ext (P Q : Particle R C) : Prop where
  kin : Q.kin = P.kin
  up : Q.upMat = P.upMat ∨ (P.upMat = none ∧ Q.upMat = some P.kin.umatVal)
  lo : Q.loMat = P.loMat ∨ (P.loMat = none ∧ Q.loMat = some P.kin.lmatVal)
  hel : ∀ b, Q.hel b = P.hel b ∨
    (P.hel b = none ∧ Scalar.ne P.kin.m (int 0) = false ∧ Q.hel b = some (P.kin.helVal b))
  spn : ∀ b u q, Q.spn b u q = P.spn b u q ∨
    (P.spn b u q = none ∧ Scalar.eq P.kin.m (int 0) = false ∧ Q.spn b u q = some (P.kin.spnVal b u q))

namespace Ext

theorem refl (P : Particle R C) : Ext P P := ⟨rfl, .inl rfl, .inl rfl, fun _ => .inl rfl, fun _ _ _ => .inl rfl⟩

theorem trans {P Q S : Particle R C} (h : Ext P Q) (g : Ext Q S) : Ext P S := by
  refine ⟨g.kin.trans h.kin, ?_, ?_, ?_, ?_⟩
  · rcases g.up with e | ⟨e1, e2⟩ <;> rcases h.up with e' | ⟨e1', e2'⟩
    · exact .inl (e.trans e')
    · exact .inr ⟨e1', e.trans e2'⟩
    · exact .inr ⟨e' ▸ e1, by rw [e2, h.kin]⟩
    · rw [e2'] at e1; cases e1
  · rcases g.lo with e | ⟨e1, e2⟩ <;> rcases h.lo with e' | ⟨e1', e2'⟩
    · exact .inl (e.trans e')
    · exact .inr ⟨e1', e.trans e2'⟩
    · exact .inr ⟨e' ▸ e1, by rw [e2, h.kin]⟩
    · rw [e2'] at e1; cases e1
  · intro b
    rcases g.hel b with e | ⟨e1, em, e2⟩ <;> rcases h.hel b with e' | ⟨e1', em', e2'⟩
    · exact .inl (e.trans e')
    · exact .inr ⟨e1', em', e.trans e2'⟩
    · exact .inr ⟨e' ▸ e1, h.kin ▸ em, by rw [e2, h.kin]⟩
    · rw [e2'] at e1; cases e1
  · intro b u q
    rcases g.spn b u q with e | ⟨e1, em, e2⟩ <;> rcases h.spn b u q with e' | ⟨e1', em', e2'⟩
    · exact .inl (e.trans e')
    · exact .inr ⟨e1', em', e.trans e2'⟩
    · exact .inr ⟨e' ▸ e1, h.kin ▸ em, by rw [e2, h.kin]⟩
    · rw [e2'] at e1; cases e1

/-- Changing only ghost members is an extension. -/
theorem ghost (P : Particle R C) (x : Bool) : Ext P { P with ub := x } :=
  ⟨rfl, .inl rfl, .inl rfl, fun _ => .inl rfl, fun _ _ _ => .inl rfl⟩

end Ext

theorem ext_umat (P : Particle R C) : Ext P (Particle.umat P).2 := by
  unfold Particle.umat
  split
  · exact .refl _
  · exact ⟨rfl, .inr ⟨by assumption, rfl⟩, .inl rfl, fun _ => .inl rfl, fun _ _ _ => .inl rfl⟩

theorem ext_lmat (P : Particle R C) : Ext P (Particle.lmat P).2 := by
  unfold Particle.lmat
  split
  · exact .refl _
  · exact ⟨rfl, .inl rfl, .inr ⟨by assumption, rfl⟩, fun _ => .inl rfl, fun _ _ _ => .inl rfl⟩

theorem ext_helicity (b : Br) (P : Particle R C) : Ext P (Particle.helicity b P).2 := by
  unfold Particle.helicity
  split
  · exact .refl _
  · rename_i hn
    dsimp only
    split
    · exact .ghost _ _
    · rename_i hm
      refine ⟨rfl, .inl rfl, .inl rfl, fun b' => ?_, fun _ _ _ => .inl rfl⟩
      by_cases hb : b' = b
      · subst hb; exact .inr ⟨hn, by simpa using hm, by simp⟩
      · exact .inl (by simp [hb])

theorem ext_spinor (b : Br) (j : Int) (u : Bool) (P : Particle R C) : Ext P (Particle.spinor b j u P).2 := by
  unfold Particle.spinor
  split
  · exact .refl _
  · dsimp only
    split
    · exact .refl _
    · rename_i hn
      split
      · exact .ghost _ _
      · rename_i hm
        refine ⟨rfl, .inl rfl, .inl rfl, fun _ => .inl rfl, fun b' u' q' => ?_⟩
        by_cases hb : b' = b ∧ u' = u ∧ q' = decide (j ≠ -1)
        · obtain ⟨rfl, rfl, rfl⟩ := hb; exact .inr ⟨hn, by simpa using hm, by simp⟩
        · exact .inl (by simp only [hb, if_false])

theorem ext_bind {α β : Type} {x : Prog (Particle R C) α} {f : α → Prog (Particle R C) β}
    (hx : ∀ P, Ext P (x P).2) (hf : ∀ a P, Ext P (f a P).2) (P : Particle R C) : Ext P ((x >>= f) P).2 := by
  rw [Prog.bind_run]
  have h := hx P
  generalize x P = r at h ⊢
  obtain ⟨r, P'⟩ := r
  cases r
  · exact h.trans (hf _ _)
  · exact h
  · exact h

theorem ext_spinorMatrix (b : Br) (u : Bool) (P : Particle R C) : Ext P (Particle.spinorMatrix b u P).2 :=
  ext_bind (ext_spinor b _ u) (fun _ => ext_bind (ext_spinor b _ u) fun _ => Ext.refl) P

theorem map_snd {σ α β : Type} (f : α → β) (x : Prog σ α) (s : σ) : (x.map f s).2 = (x s).2 := by
  unfold Prog.map; split <;> simp_all

/-- Apply a function to the value of an outcome. -/
def Res.map {α β : Type} (f : α → β) : Res α → Res β
  | .ok a => .ok (f a)
  | .throw e => .throw e
  | .crash => .crash

theorem map_fst {σ α β : Type} (f : α → β) (x : Prog σ α) (s : σ) : (x.map f s).1 = (x s).1.map f := by
  unfold Prog.map Res.map; split <;> simp_all

/-- An accessor only fills caches. -/
theorem ext_acc (a : PAcc) (P : Particle R C) : Ext P (a.run P).2 := by
  cases a <;> simp only [PAcc.run, map_snd]
  · exact .ghost _ _
  · unfold Particle.getMomentum
    dsimp only
    split_ifs <;> exact .ghost _ _
  · exact .ghost _ _
  · exact ext_umat P
  · exact ext_lmat P
  · exact ext_helicity _ P
  · exact ext_spinor _ _ _ P
  · exact ext_spinorMatrix _ _ P
  · exact .ghost _ _
  · exact .ghost _ _

theorem Ext.umat_fst {P Q : Particle R C} (h : Ext P Q) : (Particle.umat Q).1 = (Particle.umat P).1 := by
  unfold Particle.umat
  rcases h.up with e | ⟨e1, e2⟩
  · rw [e, h.kin]; split <;> rfl
  · rw [e1, e2]

theorem Ext.lmat_fst {P Q : Particle R C} (h : Ext P Q) : (Particle.lmat Q).1 = (Particle.lmat P).1 := by
  unfold Particle.lmat
  rcases h.lo with e | ⟨e1, e2⟩
  · rw [e, h.kin]; split <;> rfl
  · rw [e1, e2]

theorem Ext.helicity_fst {P Q : Particle R C} (h : Ext P Q) (b : Br) :
    (Particle.helicity b Q).1 = (Particle.helicity b P).1 := by
  unfold Particle.helicity
  rcases h.hel b with e | ⟨e1, em, e2⟩
  · rw [e, h.kin]; cases P.hel b
    · dsimp only; split <;> rfl
    · rfl
  · rw [e1, e2]; simp [em]

theorem Ext.spinor_fst {P Q : Particle R C} (h : Ext P Q) (b : Br) (j : Int) (u : Bool) :
    (Particle.spinor b j u Q).1 = (Particle.spinor b j u P).1 := by
  unfold Particle.spinor
  split
  · rfl
  · rcases h.spn b u (decide (j ≠ -1)) with e | ⟨e1, em, e2⟩
    · dsimp only; rw [e, h.kin]; cases P.spn b u (decide (j ≠ -1))
      · dsimp only; split <;> rfl
      · rfl
    · dsimp only; rw [e1, e2]; simp [em]

theorem Ext.bind_fst {α β : Type} {x : Prog (Particle R C) α} {f : α → Prog (Particle R C) β}
    (hx : ∀ P, Ext P (x P).2) (hx' : ∀ {P Q}, Ext P Q → (x Q).1 = (x P).1)
    (hf : ∀ a {P Q}, Ext P Q → (f a Q).1 = (f a P).1)
    (hmono : ∀ {P Q}, Ext P Q → Ext (x P).2 (x Q).2)
    {P Q : Particle R C} (h : Ext P Q) : ((x >>= f) Q).1 = ((x >>= f) P).1 := by
  rw [Prog.bind_run, Prog.bind_run]
  have h1 := hx' h
  have h2 := hmono h
  generalize x P = rp at h1 h2
  generalize x Q = rq at h1 h2
  obtain ⟨rp, P'⟩ := rp
  obtain ⟨rq, Q'⟩ := rq
  dsimp only at h1 h2 ⊢
  subst h1
  cases rq
  · exact hf _ h2
  · rfl
  · rfl

/-- Accessors are monotone for cache filling. -/
theorem Ext.spinor_mono {P Q : Particle R C} (h : Ext P Q) (b : Br) (j : Int) (u : Bool) :
    Ext (Particle.spinor b j u P).2 (Particle.spinor b j u Q).2 := by
  unfold Particle.spinor
  split
  · exact h
  · dsimp only
    have hk := h.kin
    cases hP : P.spn b u (decide (j ≠ -1)) with
    | some v =>
      have hQ : Q.spn b u (decide (j ≠ -1)) = some v := by
        rcases h.spn b u (decide (j ≠ -1)) with e | ⟨e1, _⟩
        · rw [e, hP]
        · rw [e1] at hP; cases hP
      rw [hQ]; exact h
    | none =>
      cases hQ : Q.spn b u (decide (j ≠ -1)) with
      | some v =>
        rcases h.spn b u (decide (j ≠ -1)) with e | ⟨_, em, e2⟩
        · rw [e, hP] at hQ; cases hQ
        · rw [e2] at hQ; cases hQ
          dsimp only
          rw [if_neg (by simp [em])]
          refine ⟨hk, h.up, h.lo, h.hel, fun b' u' q' => ?_⟩
          by_cases hb : b' = b ∧ u' = u ∧ q' = decide (j ≠ -1)
          · obtain ⟨rfl, rfl, rfl⟩ := hb; left; dsimp only; rw [e2, if_pos ⟨rfl, rfl, rfl⟩]
          · dsimp only; rw [if_neg hb]; exact h.spn b' u' q'
      | none =>
        dsimp only
        rw [hk]
        split
        · exact ⟨rfl, h.up, h.lo, h.hel, h.spn⟩
        · refine ⟨rfl, h.up, h.lo, h.hel, fun b' u' q' => ?_⟩
          by_cases hb : b' = b ∧ u' = u ∧ q' = decide (j ≠ -1)
          · left; dsimp only; rw [if_pos hb, if_pos hb]
          · dsimp only; rw [if_neg hb, if_neg hb]; exact h.spn b' u' q'

theorem Ext.spinorMatrix_fst {P Q : Particle R C} (h : Ext P Q) (b : Br) (u : Bool) :
    (Particle.spinorMatrix b u Q).1 = (Particle.spinorMatrix b u P).1 := by
  refine Ext.bind_fst (ext_spinor b _ u) (fun h => h.spinor_fst b _ u) (fun _ {P Q} h => ?_) (fun h => h.spinor_mono b _ u) h
  exact Ext.bind_fst (ext_spinor b _ u) (fun h => h.spinor_fst b _ u) (fun _ {_ _} _ => rfl) (fun h => h.spinor_mono b _ u) h

/-- Filling caches never changes the outcome of an accessor. -/
theorem Ext.acc_fst {P Q : Particle R C} (h : Ext P Q) (a : PAcc) : (a.run Q).1 = (a.run P).1 := by
  have hk := h.kin
  cases a <;> simp only [PAcc.run, map_fst]
  · simp only [Particle.getMass, hk]
  · unfold Particle.getMomentum
    dsimp only
    rw [hk]
    split_ifs <;> rfl
  · simp only [Particle.testAngles, hk]
  · rw [h.umat_fst]
  · rw [h.lmat_fst]
  · rw [h.helicity_fst]
  · rw [h.spinor_fst]
  · rw [h.spinorMatrix_fst]
  · simp only [Particle.lorentz, hk]
  · simp only [Particle.spinGen, hk]

/-- Running accessor calls only fills caches. -/
theorem ext_runAccs (accs : List PAcc) (P : Particle R C) : Ext P (runOps (accs.map .acc) P).2 := by
  induction accs generalizing P with
  | nil => exact .refl _
  | cons a as ih => exact (ext_acc a P).trans (ih _)

/-- The cache invariant: every filled entry equals the formula on the current kinematic members. -/
structure Coh (P : Particle R C) : Prop where
  up : ∀ v, P.upMat = some v → v = P.kin.umatVal
  lo : ∀ v, P.loMat = some v → v = P.kin.lmatVal
  hel : ∀ b v, P.hel b = some v → v = P.kin.helVal b
  spn : ∀ b u q v, P.spn b u q = some v → v = P.kin.spnVal b u q

theorem coh_noCaches (k : Kin R C) (a b c d e : Bool) : Coh (Particle.noCaches k a b c d e) :=
  ⟨fun _ h => (by cases h), fun _ h => (by cases h), fun _ _ h => (by cases h), fun _ _ _ _ h => (by cases h)⟩

theorem Coh.ext {P Q : Particle R C} (hP : Coh P) (h : Ext P Q) : Coh Q := by
  refine ⟨fun v hv => ?_, fun v hv => ?_, fun b v hv => ?_, fun b u q v hv => ?_⟩
  · rw [h.kin]
    rcases h.up with e | ⟨_, e2⟩
    · exact hP.up v (e ▸ hv)
    · rw [e2] at hv; cases hv; rfl
  · rw [h.kin]
    rcases h.lo with e | ⟨_, e2⟩
    · exact hP.lo v (e ▸ hv)
    · rw [e2] at hv; cases hv; rfl
  · rw [h.kin]
    rcases h.hel b with e | ⟨_, _, e2⟩
    · exact hP.hel b v (e ▸ hv)
    · rw [e2] at hv; cases hv; rfl
  · rw [h.kin]
    rcases h.spn b u q with e | ⟨_, _, e2⟩
    · exact hP.spn b u q v (e ▸ hv)
    · rw [e2] at hv; cases hv; rfl

theorem Coh.setMass {P : Particle R C} (hP : Coh P) (m : R) : Coh (Particle.setMass m P).2 :=
  ⟨hP.up, hP.lo, hP.hel, hP.spn⟩

end Spinas
