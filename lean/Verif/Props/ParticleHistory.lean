import Verif.Exact.Particle

/-! Properties C01, C02, C04, C05, C06: histories of calls on a particle, for any arithmetic. -/

namespace Spinas.Props
open Spinas Spec

section generic
variable {R C : Type} [Scalar R] [Cplx R C]

/-! ### auxiliary -/

theorem settle_congr {k k' : Kin R C} (hp : k.p = k'.p) (hm : k.m = k'.m) :
    k.withMags.withAngles = k'.withMags.withAngles := by
  cases k; cases k'; dsimp only at hp hm; subst hp; subst hm; rfl

omit [Cplx R C] in
theorem mags_congr {k k' : Kin R C} (hp : k.p = k'.p) (hm : k.m = k'.m) :
    k.withMags.offShell = k'.withMags.offShell := by
  cases k; cases k'; dsimp only at hp hm; subst hp; subst hm; rfl

theorem update_ok_iff (P : Particle R C) : (Particle.update P).1 = .ok () ↔ P.kin.withMags.offShell = false := by
  unfold Particle.update; dsimp only; split <;> simp_all

theorem update_ok_kin {P : Particle R C} (h : (Particle.update P).1 = .ok ()) :
    (Particle.update P).2.kin = P.kin.withMags.withAngles ∧ Coh (Particle.update P).2 ∧
    (∀ b, (Particle.update P).2.hel b = none) ∧ (∀ b u q, (Particle.update P).2.spn b u q = none) ∧
    (Particle.update P).2.upMat = none ∧ (Particle.update P).2.loMat = none := by
  rw [update_ok_iff] at h
  unfold Particle.update
  dsimp only
  rw [if_neg (by simp [h])]
  exact ⟨rfl, coh_noCaches _ _ _ _ _ _, fun _ => rfl, fun _ _ _ => rfl, rfl, rfl⟩

/-- Two particles that were just updated from the same momentum and mass are observationally equal. -/
theorem sync_eq {P Q : Particle R C} (hp : P.kin.p = Q.kin.p) (hm : P.kin.m = Q.kin.m)
    (h : (Particle.update P).1 = .ok ()) :
    (Particle.update Q).1 = .ok () ∧ Ext (Particle.update P).2 (Particle.update Q).2 := by
  have h' : (Particle.update Q).1 = .ok () := by
    rw [update_ok_iff] at h ⊢; rw [← mags_congr hp hm]; exact h
  refine ⟨h', ?_⟩
  obtain ⟨k1, _, a1, b1, c1, d1⟩ := update_ok_kin h
  obtain ⟨k2, _, a2, b2, c2, d2⟩ := update_ok_kin h'
  exact ⟨by rw [k1, k2, settle_congr hp hm], .inl (by rw [c1, c2]), .inl (by rw [d1, d2]),
    fun b => .inl (by rw [a1, a2]), fun b u q => .inl (by rw [b1, b2])⟩

theorem update_mom_mass (P : Particle R C) : (Particle.update P).2.kin.m = P.kin.m ∧ (Particle.update P).2.kin.p = P.kin.p := by
  unfold Particle.update; dsimp only; split <;> exact ⟨rfl, rfl⟩

theorem run_mass (op : POp R) (P : Particle R C) : (op.run P).2.kin.m = massAfter P.kin.m [op] := by
  cases op with
  | setMass m => rfl
  | setMomentum p => simp only [POp.run, map_snd, massAfter]; exact (update_mom_mass _).1
  | update => simp only [POp.run, map_snd, massAfter]; exact (update_mom_mass _).1
  | acc a => simp only [POp.run, massAfter]; rw [(ext_acc a P).kin]

theorem run_mom (op : POp R) (P : Particle R C) : (op.run P).2.kin.p = momAfter P.kin.p [op] := by
  cases op with
  | setMass m => rfl
  | setMomentum p => simp only [POp.run, map_snd, momAfter]; exact (update_mom_mass _).2
  | update => simp only [POp.run, map_snd, momAfter]; exact (update_mom_mass _).2
  | acc a => simp only [POp.run, momAfter]; rw [(ext_acc a P).kin]

omit [Scalar R] in
theorem massAfter_cons (m : R) (op : POp R) (ops : List (POp R)) :
    massAfter m (op :: ops) = massAfter (massAfter m [op]) ops := by cases op <;> rfl
omit [Scalar R] in
theorem momAfter_cons (p : V4 R) (op : POp R) (ops : List (POp R)) :
    momAfter p (op :: ops) = momAfter (momAfter p [op]) ops := by cases op <;> rfl

/-- The mass and momentum a client can read back are the ones passed last. -/
theorem runOps_mass_mom (ops : List (POp R)) (P : Particle R C) :
    (runOps ops P).2.kin.m = massAfter P.kin.m ops ∧ (runOps ops P).2.kin.p = momAfter P.kin.p ops := by
  induction ops generalizing P with
  | nil => exact ⟨rfl, rfl⟩
  | cons op ops ih =>
    have := ih (op.run P).2
    rw [massAfter_cons, momAfter_cons, ← run_mass op P, ← run_mom op P]
    exact this

theorem runOps_append (xs ys : List (POp R)) (P : Particle R C) :
    (runOps (xs ++ ys) P).2 = (runOps ys (runOps xs P).2).2 := by
  induction xs generalizing P with
  | nil => rfl
  | cons x xs ih => exact ih _

/-! ### C01 -/

/-- **C01.** Run any calls `pre` on any particle `P0`, then a call `sync` that recomputes the kinematics
(`set_momentum` or `update`) and succeeds, then any accessor calls `accs`.
Then a particle constructed afresh from the momentum and mass last set is constructed without exception, and every
accessor `a` has the same outcome (value or exception) on the used particle as on the fresh one. -/
theorem C01_particle_history (junk : Kin R C) (P0 : Particle R C) (pre : List (POp R)) (sync : POp R) (hs : IsSync sync)
    (accs : List PAcc) (a : PAcc)
    (hok : (sync.run (runOps pre P0).2).1 = .ok .unit) :
    let used := (runOps (pre ++ sync :: accs.map .acc) P0).2
    let hist := pre ++ [sync]
    let fresh := Particle.ctorPM junk (momAfter P0.kin.p hist) (massAfter P0.kin.m hist)
    fresh.1 = .ok () ∧ (a.run used).1 = (a.run fresh.2).1 := by
  intro used hist fresh
  have key : ∀ (P : Particle R C), P.kin.p = momAfter P0.kin.p hist → P.kin.m = massAfter P0.kin.m hist →
      (Particle.update P).1 = .ok () →
      fresh.1 = .ok () ∧ (a.run (runOps (accs.map .acc) (Particle.update P).2).2).1 = (a.run fresh.2).1 := by
    intro P hp hm hok
    obtain ⟨h1, h2⟩ := sync_eq (Q := Particle.noCaches { Particle.rawKin junk with
      m := massAfter P0.kin.m hist, p := momAfter P0.kin.p hist } true true false false false) hp hm hok
    refine ⟨h1, ?_⟩
    rw [(ext_runAccs accs _).acc_fst a]
    exact (h2.acc_fst a).symm
  have e : used = (runOps (accs.map .acc) (sync.run (runOps pre P0).2).2).2 := by
    show (runOps (pre ++ sync :: accs.map .acc) P0).2 = _
    rw [runOps_append]; rfl
  rw [e]
  obtain ⟨hm0, hp0⟩ := runOps_mass_mom pre P0
  have hm : massAfter P0.kin.m hist = massAfter (runOps pre P0).2.kin.m [sync] := by
    rw [← (runOps_mass_mom hist P0).1, ← run_mass, ← (runOps_append pre [sync] P0 ▸ rfl :
      (runOps [sync] (runOps pre P0).2).2 = (runOps hist P0).2)]; rfl
  have hp : momAfter P0.kin.p hist = momAfter (runOps pre P0).2.kin.p [sync] := by
    rw [← (runOps_mass_mom hist P0).2, ← run_mom, ← (runOps_append pre [sync] P0 ▸ rfl :
      (runOps [sync] (runOps pre P0).2).2 = (runOps hist P0).2)]; rfl
  cases sync with
  | setMass m => exact hs.elim
  | acc a => exact hs.elim
  | setMomentum p =>
    simp only [POp.run, map_snd, map_fst] at hok ⊢
    refine key _ ?_ ?_ ?_
    · rw [hp]; rfl
    · rw [hm]; rfl
    · unfold Particle.setMomentum at hok
      generalize Particle.update (R := R) (C := C) _ = r at hok ⊢
      obtain ⟨r, _⟩ := r; cases r <;> simp_all [Res.map]
  | update =>
    simp only [POp.run, map_snd, map_fst] at hok ⊢
    refine key _ ?_ ?_ ?_
    · rw [hp]; rfl
    · rw [hm]; rfl
    · generalize Particle.update (R := R) (C := C) _ = r at hok ⊢
      obtain ⟨r, _⟩ := r; cases r <;> simp_all [Res.map]

/-! ### C02 -/

/-- **C02.** In any state, running any accessor calls first does not change the outcome of any accessor. -/
theorem C02_accessors_independent (P : Particle R C) (accs : List PAcc) (a : PAcc) :
    (a.run (runOps (accs.map .acc) P).2).1 = (a.run P).1 := (ext_runAccs accs P).acc_fst a

/-- Outcomes of a program of accessor calls: each call behaves as if it were the first one. -/
theorem C02_accessor_program (P : Particle R C) (accs : List PAcc) :
    (runOps (accs.map .acc) P).1 = accs.map fun a => (a.run P).1 := by
  induction accs generalizing P with
  | nil => rfl
  | cons a as ih =>
    show (a.run P).1 :: (runOps (as.map .acc) (a.run P).2).1 = _
    rw [ih]
    simp only [List.map_cons]
    congr 1
    exact List.map_congr_left fun b _ => (ext_acc a P).acc_fst b

/-! ### C51 -/

/-- **C51.** After any history the getters report what the client passed last, accepted or not: `get_momentum(0..3)` are the
four components in order, `get_mass()` is the mass; any other index reads outside the array. -/
theorem C51_getters (P0 : Particle R C) (ops : List (POp R)) (mu : Int) :
    let P := (runOps ops P0).2
    let q := momAfter P0.kin.p ops
    (Particle.getMass P).1 = .ok (massAfter P0.kin.m ops) ∧
    (Particle.getMomentum 0 P).1 = .ok q.t ∧ (Particle.getMomentum 1 P).1 = .ok q.x ∧
    (Particle.getMomentum 2 P).1 = .ok q.y ∧ (Particle.getMomentum 3 P).1 = .ok q.z ∧
    ((Particle.getMomentum mu P).1 = .crash ↔ mu < 0 ∨ 3 < mu) := by
  intro P q
  obtain ⟨hm, hp⟩ := runOps_mass_mom ops P0
  refine ⟨congrArg _ hm, congrArg (fun v : V4 R => Res.ok v.t) hp, congrArg (fun v : V4 R => Res.ok v.x) hp, congrArg (fun v : V4 R => Res.ok v.y) hp, congrArg (fun v : V4 R => Res.ok v.z) hp, ?_⟩
  unfold Particle.getMomentum
  split_ifs <;> simp <;> omega

/-! ### C04 -/

/-- **C04.** A rejected `set_momentum` keeps the mass, already stores the rejected momentum, and keeps every cached
matrix and spinor; so every call whose result was cached before still returns the value of the previous momentum. -/
theorem C04_rejected_momentum (P : Particle R C) (mom : V4 R) (e : Exc)
    (h : (Particle.setMomentum mom P).1 = .throw e) :
    let P' := (Particle.setMomentum mom P).2
    e = .massShell ∧ P'.kin.m = P.kin.m ∧ P'.kin.p = mom ∧
    P'.upMat = P.upMat ∧ P'.loMat = P.loMat ∧ P'.hel = P.hel ∧ P'.spn = P.spn ∧
    (∀ v, P.upMat = some v → (Particle.umat P').1 = .ok v) ∧
    (∀ v, P.loMat = some v → (Particle.lmat P').1 = .ok v) ∧
    (∀ b v, P.hel b = some v → (Particle.helicity b P').1 = .ok v) ∧
    (∀ b u v, P.spn b u true = some v → (Particle.spinor b 1 u P').1 = .ok v) ∧
    (∀ b u v, P.spn b u false = some v → (Particle.spinor b (-1) u P').1 = .ok v) := by
  intro P'
  have hP' : P' = (Particle.setMomentum mom P).2 := rfl
  unfold Particle.setMomentum Particle.update at h hP'
  dsimp only at h hP'
  split at h
  · rename_i hc
    rw [if_pos hc] at hP'
    have hu : P'.upMat = P.upMat := by rw [hP']
    have hl : P'.loMat = P.loMat := by rw [hP']
    have hh : P'.hel = P.hel := by rw [hP']
    have hsp : P'.spn = P.spn := by rw [hP']
    refine ⟨by cases h; rfl, by rw [hP']; rfl, by rw [hP']; rfl, hu, hl, hh, hsp, ?_, ?_, ?_, ?_, ?_⟩
    · intro v hv; simp [Particle.umat, hu, hv]
    · intro v hv; simp [Particle.lmat, hl, hv]
    · intro b v hv; simp [Particle.helicity, hh, hv]
    · intro b u v hv; simp [Particle.spinor, hsp, hv]
    · intro b u v hv; simp [Particle.spinor, hsp, hv]
  · cases h

/-! ### C05 -/

/-- The outcome of an accessor on a particle just constructed (successfully) from momentum and mass. -/
theorem C05_guards_fresh (junk : Kin R C) (mom : V4 R) (mass : R)
    (hok : (Particle.ctorPM junk mom mass).1 = .ok ()) (b : Br) (j : Int) (u : Bool) :
    let P := (Particle.ctorPM junk mom mass).2
    ((∃ v, (Particle.helicity b P).1 = .ok v) ↔ Scalar.ne mass (int 0) = false) ∧
    ((Particle.helicity b P).1 = .throw .helicityOfMassive ↔ Scalar.ne mass (int 0) = true) ∧
    ((∃ v, (Particle.spinor b j u P).1 = .ok v) ↔ (j = 1 ∨ j = -1) ∧ Scalar.eq mass (int 0) = false) ∧
    ((Particle.spinor b j u P).1 = .throw .badSpin ↔ ¬(j = 1 ∨ j = -1)) ∧
    ((Particle.spinor b j u P).1 = .throw .spinOfMassless ↔ (j = 1 ∨ j = -1) ∧ Scalar.eq mass (int 0) = true) := by
  intro P
  obtain ⟨k, _, a, b', _, _⟩ := update_ok_kin hok
  have hh : P.hel b = none := a b
  have hsp : ∀ q, P.spn b u q = none := b' b u
  have hm : P.kin.m = mass := (update_mom_mass _).1
  refine ⟨?_, ?_, ?_, ?_, ?_⟩
  · simp only [Particle.helicity, hh, hm]; split <;> simp_all
  · simp only [Particle.helicity, hh, hm]; split <;> simp_all
  · simp only [Particle.spinor, hsp, hm]
    by_cases h1 : j = 1 <;> by_cases h2 : j = -1 <;> simp [h1, h2]
    all_goals split <;> simp_all
  · simp only [Particle.spinor, hsp, hm]
    by_cases h1 : j = 1 <;> by_cases h2 : j = -1 <;> simp [h1, h2]
    all_goals split <;> simp_all
  · simp only [Particle.spinor, hsp, hm]
    by_cases h1 : j = 1 <;> by_cases h2 : j = -1 <;> simp [h1, h2]
    all_goals split <;> simp_all

/-- **C05.** A spin argument other than +1 and -1 throws in every state and changes nothing. -/
theorem C05_bad_spin (P : Particle R C) (b : Br) (j : Int) (u : Bool) (h1 : j ≠ 1) (h2 : j ≠ -1) :
    Particle.spinor b j u P = (.throw .badSpin, P) := by
  unfold Particle.spinor; rw [if_pos ⟨h1, h2⟩]

/-! ### C06 -/

/-- The members that determine spinors and matrices are unaffected by accessors and `set_mass`. -/
theorem accMass_kin (ops : List (POp R)) (h : ∀ op ∈ ops, IsAccOrMass op) (P : Particle R C) (hc : Coh P) :
    Coh (runOps ops P).2 ∧ (runOps ops P).2.kin = { P.kin with m := massAfter P.kin.m ops } := by
  induction ops generalizing P with
  | nil => exact ⟨hc, rfl⟩
  | cons op ops ih =>
    have hop := h op (List.mem_cons_self)
    have hrest : ∀ o ∈ ops, IsAccOrMass o := fun o ho => h o (List.mem_cons_of_mem _ ho)
    cases op with
    | setMass m =>
      have := ih hrest (Particle.setMass m P).2 (hc.setMass m)
      exact this
    | acc a =>
      have := ih hrest (a.run P).2 (hc.ext (ext_acc a P))
      rw [(ext_acc a P).kin] at this
      exact this
    | setMomentum p => exact hop.elim
    | update => exact hop.elim

theorem Coh.acc_values {P F : Particle R C} (hP : Coh P) (hF : Coh F) (hk : P.kin = F.kin) (a : PAcc) (v w : PVal R C)
    (h1 : (a.run P).1 = .ok v) (h2 : (a.run F).1 = .ok w) : v = w := by
  have hu : ∀ (P : Particle R C), Coh P → (Particle.umat P).1 = .ok P.kin.umatVal := by
    intro P h; unfold Particle.umat; split
    · rename_i v hv; rw [h.up v hv]
    · rfl
  have hl : ∀ (P : Particle R C), Coh P → (Particle.lmat P).1 = .ok P.kin.lmatVal := by
    intro P h; unfold Particle.lmat; split
    · rename_i v hv; rw [h.lo v hv]
    · rfl
  have hh : ∀ (P : Particle R C) b v, Coh P → (Particle.helicity b P).1 = .ok v → v = P.kin.helVal b := by
    intro P b v h hv; unfold Particle.helicity at hv; split at hv
    · rename_i v' hv'; cases hv; exact h.hel _ _ hv'
    · dsimp only at hv; split at hv
      · cases hv
      · cases hv; rfl
  have hs : ∀ (P : Particle R C) b j u v, Coh P → (Particle.spinor b j u P).1 = .ok v →
      v = P.kin.spnVal b u (decide (j ≠ -1)) := by
    intro P b j u v h hv; unfold Particle.spinor at hv; split at hv
    · cases hv
    · dsimp only at hv; split at hv
      · rename_i v' hv'; cases hv; exact h.spn _ _ _ _ hv'
      · split at hv
        · cases hv
        · cases hv; rfl
  have hsm : ∀ (P : Particle R C) b u v, Coh P → (Particle.spinorMatrix b u P).1 = .ok v →
      v = ⟨(P.kin.spnVal b u false).v0, (P.kin.spnVal b u true).v0, (P.kin.spnVal b u false).v1, (P.kin.spnVal b u true).v1⟩ := by
    intro P b u v h hv
    unfold Particle.spinorMatrix at hv
    rw [Prog.bind_run] at hv
    have e1 := ext_spinor b (-1) u P
    have g1 := hs P b (-1) u
    generalize Particle.spinor b (-1) u P = r1 at hv e1 g1
    obtain ⟨r1, P1⟩ := r1
    cases r1 with
    | throw e => cases hv
    | crash => cases hv
    | ok v1 =>
      dsimp only at hv e1
      have g1 := g1 v1 h rfl
      rw [Prog.bind_run] at hv
      have g2 := hs P1 b 1 u
      generalize Particle.spinor b 1 u P1 = r2 at hv g2
      obtain ⟨r2, P2⟩ := r2
      cases r2 with
      | throw e => cases hv
      | crash => cases hv
      | ok v2 =>
        have g2 := g2 v2 (h.ext e1) rfl
        rw [e1.kin] at g2
        cases hv
        subst g1; subst g2; rfl
  cases a <;> simp only [PAcc.run, map_fst] at h1 h2
  · simp only [Particle.getMass, Res.map] at h1 h2; cases h1; cases h2; rw [hk]
  · rename_i mu
    unfold Particle.getMomentum at h1 h2
    rw [hk] at h1
    dsimp only at h1 h2
    split_ifs at h1 h2 <;> simp only [Res.map] at h1 h2 <;> first | (cases h1; cases h2; rfl) | cases h1
  · simp only [Particle.testAngles, Res.map] at h1 h2; cases h1; cases h2; rw [hk]
  · rw [hu P hP] at h1; rw [hu F hF] at h2; simp only [Res.map] at h1 h2; cases h1; cases h2; rw [hk]
  · rw [hl P hP] at h1; rw [hl F hF] at h2; simp only [Res.map] at h1 h2; cases h1; cases h2; rw [hk]
  · rename_i b
    have g1 := hh P b; have g2 := hh F b
    generalize (Particle.helicity b P).1 = r1 at h1 g1
    generalize (Particle.helicity b F).1 = r2 at h2 g2
    cases r1 <;> cases r2 <;> simp only [Res.map] at h1 h2 <;> cases h1 <;> cases h2
    rw [g1 _ hP rfl, g2 _ hF rfl, hk]
  · rename_i b j u
    have g1 := hs P b j u; have g2 := hs F b j u
    generalize (Particle.spinor b j u P).1 = r1 at h1 g1
    generalize (Particle.spinor b j u F).1 = r2 at h2 g2
    cases r1 <;> cases r2 <;> simp only [Res.map] at h1 h2 <;> cases h1 <;> cases h2
    rw [g1 _ hP rfl, g2 _ hF rfl, hk]
  · rename_i b u
    have g1 := hsm P b u; have g2 := hsm F b u
    generalize (Particle.spinorMatrix b u P).1 = r1 at h1 g1
    generalize (Particle.spinorMatrix b u F).1 = r2 at h2 g2
    cases r1 <;> cases r2 <;> simp only [Res.map] at h1 h2 <;> cases h1 <;> cases h2
    rw [g1 _ hP rfl, g2 _ hF rfl, hk]
  · simp only [Particle.lorentz, Res.map] at h1 h2; cases h1; cases h2; rw [hk]
  · simp only [Particle.spinGen, Res.map] at h1 h2; cases h1; cases h2; rw [hk]

/-- **C06.** After a successful `set_momentum` and then any accessor and `set_mass` calls: if a fresh particle with the
same momentum and the mass set last can be constructed, then for every accessor that returns a value on both, the
values agree. -/
theorem C06_set_mass_values (junk : Kin R C) (P : Particle R C) (mom : V4 R) (ops : List (POp R))
    (hops : ∀ op ∈ ops, IsAccOrMass op) (hok : (Particle.setMomentum mom P).1 = .ok ()) (a : PAcc) (v w : PVal R C) :
    let used := (runOps ops (Particle.setMomentum mom P).2).2
    let fresh := Particle.ctorPM junk mom (massAfter P.kin.m ops)
    fresh.1 = .ok () → (a.run used).1 = .ok v → (a.run fresh.2).1 = .ok w → v = w := by
  intro used fresh hf h1 h2
  obtain ⟨k1, c1, _⟩ := update_ok_kin hok
  obtain ⟨k2, c2, _⟩ := update_ok_kin hf
  obtain ⟨hc, hk⟩ := accMass_kin ops hops _ c1
  refine Coh.acc_values hc c2 ?_ a v w h1 h2
  rw [hk]
  have e1 : (Particle.update { P with kin := { P.kin with p := mom }, pInit := true }).2.kin.m = P.kin.m :=
    (update_mom_mass _).1
  rw [e1, k1, k2]
  rfl

end generic

/-! ### Witnesses in the exact instance -/

section witnesses
attribute [local instance] doubleEnv

/-- a massless momentum along x -/
def pX : V4 ℝ := ⟨1, 1, 0, 0⟩
theorem pX_onShell : OnShell pX 0 := ⟨by norm_num [pX], by norm_num [pX]⟩
/-- a momentum of mass 3 -/
def pM : V4 ℝ := ⟨5, 0, 4, 0⟩
theorem pM_onShell : OnShell pM 3 := ⟨by norm_num [pM], by norm_num [pM]⟩

theorem shellTol_double_lt : shellTol < 1 := by
  unfold shellTol; show (1 : ℝ) / 2 ^ 52 * 1000000000 < 1; norm_num

/-- an arbitrary content for uninitialised members -/
noncomputable def junkK : Kin XR XC :=
  ⟨someReal, ⟨.nan, someReal, .nan, someReal⟩, .nan, someReal, .nan, someReal, ofC 1, ofC 2, ofC 3, ofC 4, ofC 5⟩

/-- Non-vacuity of C01: a history with a mass change, accessor calls (one throws), and a successful `set_momentum`. -/
example : ((POp.setMomentum pM.toX).run
    (runOps [.acc (.helicity .rangle), .setMass (.fin 3), .acc (.umat)] (Particle.ctorPM junkK pX.toX (.fin 0)).2).2).1
      = .ok .unit := by
  have h := (update_fin (P := { (runOps [.acc (.helicity .rangle), .setMass (.fin 3), .acc (.umat)]
    (Particle.ctorPM junkK pX.toX (.fin 0)).2).2 with
      kin := { (runOps [.acc (.helicity .rangle), .setMass (.fin 3), .acc (.umat)]
        (Particle.ctorPM junkK pX.toX (.fin 0)).2).2.kin with p := pM.toX }, pInit := true }) pM 3 rfl
      (by rw [(runOps_mass_mom _ _).1]; rfl)).2 pM_onShell.accept
  simp only [POp.run, map_fst, Particle.setMomentum, h, Res.map]

/-- **C04, the natural guarantee fails.** There is a particle and a rejected momentum after which `get_momentum`
reports the rejected momentum although the spinors are those of the old one: no strong exception guarantee. -/
theorem C04_no_strong_guarantee :
    ∃ (P : Particle XR XC) (mom : V4 XR), (Particle.setMomentum mom P).1 = .throw .massShell ∧
      ((PAcc.momentum 0).run (Particle.setMomentum mom P).2).1 ≠ ((PAcc.momentum 0).run P).1 ∧
      ((PAcc.helicity .rangle).run (Particle.setMomentum mom P).2).1 = ((PAcc.helicity .rangle).run P).1 ∧
      (∃ v, ((PAcc.helicity .rangle).run P).1 = .ok v) := by
  obtain ⟨F, hF⟩ : ∃ F, F = Particle.ctorPM junkK pX.toX (.fin 0) := ⟨_, rfl⟩
  have hok : F.1 = .ok () := hF ▸ ctorPM_onShell junkK pX_onShell
  obtain ⟨k, _, hh, _⟩ := update_ok_kin (hF ▸ hok : (Particle.ctorPM junkK pX.toX (.fin 0)).1 = .ok ())
  obtain ⟨P, hP⟩ : ∃ P, P = (Particle.helicity .rangle F.2).2 := ⟨_, rfl⟩
  have hkin : P.kin = F.2.kin := hP ▸ (ext_helicity _ _).kin
  have hm : F.2.kin.m = .fin 0 := by rw [hF]; exact (update_mom_mass _).1
  have hp : F.2.kin.p = pX.toX := by rw [hF]; exact (update_mom_mass _).2
  have hcache : P.hel .rangle = some (F.2.kin.helVal .rangle) := by
    rw [hP]; simp only [Particle.helicity]
    have : F.2.hel .rangle = none := by rw [hF]; exact hh _
    rw [this]; simp [hm]
  have hrej : (Particle.setMomentum (V4.toX ⟨5, 1, 0, 0⟩) P).1 = .throw .massShell := by
    refine (update_fin (P := { P with kin := { P.kin with p := V4.toX ⟨5, 1, 0, 0⟩ }, pInit := true })
      ⟨5, 1, 0, 0⟩ 0 rfl (by show P.kin.m = _; rw [hkin, hm])).1 ?_
    refine lt_trans shellTol_double_lt ?_
    norm_num [Spec.msq]
  obtain ⟨_, _, hp', _, _, hh', _, _, _, hret, _⟩ := C04_rejected_momentum P _ _ hrej
  refine ⟨P, V4.toX ⟨5, 1, 0, 0⟩, hrej, ?_, ?_, ?_⟩
  · simp only [PAcc.run, map_fst, Particle.getMomentum]
    rw [hp', hkin, hp]
    simp [Res.map, V4.toX, pX]
  · simp only [PAcc.run, map_fst]
    rw [hret _ _ hcache]
    simp [Particle.helicity, hcache]
  · exact ⟨_, by simp only [PAcc.run, map_fst, Particle.helicity, hcache]; rfl⟩

/-- **C06, the natural guarantee fails.** After `set_mass(0)`, a spin spinor that was cached is still returned,
although without the earlier accessor call the particle, now massless, throws. -/
theorem C06_set_mass_stale (junk : Kin XR XC) :
    ∃ (P : Particle XR XC), (Particle.setMomentum pM.toX P).1 = .ok () ∧
      ∃ ops : List (POp XR), (∀ op ∈ ops, IsAccOrMass op) ∧
        ∃ v, ((PAcc.spinor .rangle 1 true).run (runOps ops (Particle.setMomentum pM.toX P).2).2).1 = .ok v ∧
          ((PAcc.spinor .rangle 1 true).run
            (runOps (ops.filter fun o => match o with | .setMass _ => true | _ => false)
              (Particle.setMomentum pM.toX P).2).2).1 = .throw .spinOfMassless := by
  refine ⟨Particle.ctorM junk (.fin 3), ?_, [.acc (.spinor .rangle 1 true), .setMass (.fin 0)], ?_, ?_⟩
  · exact (update_fin (P := { Particle.ctorM junk (.fin 3) with
      kin := { (Particle.ctorM junk (.fin 3)).kin with p := pM.toX }, pInit := true }) pM 3 rfl rfl).2 pM_onShell.accept
  · intro op hop; simp at hop; rcases hop with rfl | rfl <;> trivial
  · have hok : (Particle.setMomentum pM.toX (Particle.ctorM junk (.fin 3))).1 = .ok () :=
      (update_fin (P := { Particle.ctorM junk (.fin 3) with
        kin := { (Particle.ctorM junk (.fin 3)).kin with p := pM.toX }, pInit := true }) pM 3 rfl rfl).2 pM_onShell.accept
    obtain ⟨_, _, _, hs, _⟩ := update_ok_kin hok
    have hm : (Particle.setMomentum pM.toX (Particle.ctorM junk (.fin 3))).2.kin.m = .fin 3 := (update_mom_mass _).1
    have hs' : ∀ b u q, (Particle.setMomentum pM.toX (Particle.ctorM junk (.fin 3))).2.spn b u q = none := hs
    generalize (Particle.setMomentum pM.toX (Particle.ctorM junk (.fin 3))).2 = Q at hm hs'
    refine ⟨.vec (Q.kin.spnVal .rangle true true), ?_, ?_⟩
    · simp [runOps, POp.run, PAcc.run, Prog.map, Particle.spinor, Particle.setMass, hs', hm]
    · simp [runOps, POp.run, PAcc.run, Prog.map, Particle.spinor, Particle.setMass, hs', hm]

/-- Non-vacuity of C05 and of C06. -/
example : (Particle.ctorPM junkK pM.toX (.fin 3)).1 = .ok () := ctorPM_onShell _ pM_onShell

end witnesses

end Spinas.Props
