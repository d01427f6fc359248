import Verif.SM.BosonRow

/-! Classes whose `set_momenta` computes further complex members from denominators (AWud, udAW). -/

namespace Spinas.SM
open Spec Props XR Matrix

/-- Rational in the complex members `K`, dividing by these only. -/
def Exp.rational (K : List Nat) : {t : Ty} → Exp t → Bool
  | _, .lit _ => true
  | _, .mem .c n => K.contains n
  | _, .add a b => a.rational K && b.rational K
  | _, .sub a b => a.rational K && b.rational K
  | _, .mul a b => a.rational K && b.rational K
  | _, .neg a => a.rational K
  | _, .ofR a => a.rational K
  | .r, .div a b => a.rational K && (match b with | .lit n => n != 0 | _ => false)
  | .c, .div a b => a.rational K && (match b with | .mem .c n => K.contains n | _ => false)
  | _, _ => false

section
variable {R C : Type} [Scalar R] [HasPow R] [Cplx R C]

theorem rational_congr {K : List Nat} {mr mr' : Nat → R} {mc mc' : Nat → C} {par : Nat → R} (h : ∀ n ∈ K, mc n = mc' n) :
    ∀ {t : Ty} (e : Exp t), e.rational K = true → e.val mr mc par = e.val mr' mc' par
  | _, .lit _, _ => rfl
  | _, .mem .c n, hn => h n (by simpa [Exp.rational] using hn)
  | _, .add a b, hn => by
    simp only [Exp.rational, Bool.and_eq_true] at hn
    simp only [Exp.val, rational_congr (mr := mr) (mr' := mr') (par := par) h a hn.1, rational_congr (mr := mr) (mr' := mr') (par := par) h b hn.2]
  | _, .sub a b, hn => by
    simp only [Exp.rational, Bool.and_eq_true] at hn
    simp only [Exp.val, rational_congr (mr := mr) (mr' := mr') (par := par) h a hn.1, rational_congr (mr := mr) (mr' := mr') (par := par) h b hn.2]
  | _, .mul a b, hn => by
    simp only [Exp.rational, Bool.and_eq_true] at hn
    simp only [Exp.val, rational_congr (mr := mr) (mr' := mr') (par := par) h a hn.1, rational_congr (mr := mr) (mr' := mr') (par := par) h b hn.2]
  | _, .neg a, hn => by simp only [Exp.val, rational_congr (mr := mr) (mr' := mr') (par := par) h a hn]
  | _, .ofR a, hn => by simp only [Exp.val, rational_congr (mr := mr) (mr' := mr') (par := par) h a hn]
  | .r, .div a b, hn => by
    simp only [Exp.rational, Bool.and_eq_true] at hn
    have hb := hn.2
    split at hb
    · simp only [Exp.val, rational_congr (mr := mr) (mr' := mr') (par := par) h a hn.1]
    · cases hb
  | .c, .div a b, hn => by
    simp only [Exp.rational, Bool.and_eq_true] at hn
    have hb := hn.2
    split at hb
    · rename_i n
      simp only [Exp.val, rational_congr (mr := mr) (mr' := mr') (par := par) h a hn.1, h n (by simpa using hb)]
    · cases hb

/-- the last assignment of such an expression to the complex member `n` -/
def lastSet (K : List Nat) (n : Nat) : List SInstr → Option (Exp .c) → Option (Exp .c)
  | [], d => d
  | .set .c n' e :: is, d => lastSet K n is (if n = n' then (if e.rational K && !K.contains n then some e else none) else if K.contains n' then none else d)
  | .den .c n' _ _ :: is, d => lastSet K n is (if n = n' ∨ K.contains n' then none else d)
  | .den .r _ _ _ :: is, d => lastSet K n is d
  | .set .r _ _ :: is, d => lastSet K n is d
  | .part _ _ :: is, d => lastSet K n is d
  | .setMass _ _ :: is, d => lastSet K n is d
  | .setMom _ _ :: is, d => lastSet K n is d
  | .prop _ _ _ :: is, d => lastSet K n is d
  | .propMass _ _ :: is, d => lastSet K n is d
  | .sprod _ _ :: is, d => lastSet K n is d
  | .update _ :: is, d => lastSet K n is d

theorem lastSet_sound (junk : Kin R C) (par : Nat → R) (q : Nat → V4 R) (K : List Nat) (n : Nat) : ∀ (is : List SInstr) (d : Option (Exp .c)) (o : Obj R C),
    (∀ e, d = some e → e.rational K = true ∧ o.c n = e.val o.r o.c par) → (runSetup junk par q is o).1 = .ok () →
    ∀ e, lastSet K n is d = some e → e.rational K = true ∧ (runSetup junk par q is o).2.c n = e.val (runSetup junk par q is o).2.r (runSetup junk par q is o).2.c par
  | [], d, o, hd, _, e, h => hd e h
  | i :: is, d, o, hd, hr, e, h => by
    have step : ∀ (i : SInstr) (d' : Option (Exp .c)), (runSetup junk par q (i :: is) o).1 = .ok () →
        (∀ e, d' = some e → e.rational K = true ∧ (i.exec junk par q o).2.c n = e.val (i.exec junk par q o).2.r (i.exec junk par q o).2.c par) →
        lastSet K n is d' = some e → e.rational K = true ∧ (runSetup junk par q (i :: is) o).2.c n = e.val (runSetup junk par q (i :: is) o).2.r (runSetup junk par q (i :: is) o).2.c par := by
      intro i d' hr hd' h
      rw [runSetup, Prog.bind_run] at hr ⊢
      cases e' : i.exec junk par q o with
      | mk a o' =>
        rw [e'] at hr hd'
        cases a with
        | ok u => exact lastSet_sound junk par q K n is d' o' hd' hr e h
        | throw x => cases hr
        | crash => cases hr
    have keep : ∀ {n' : Nat} {x : C}, n ≠ n' → n' ∉ K → ∀ e, d = some e → e.rational K = true ∧
        (o.setMem .c n' x).c n = e.val (o.setMem .c n' x).r (o.setMem .c n' x).c par := by
      intro n' x h1 h2 e he
      obtain ⟨h3, h4⟩ := hd e he
      refine ⟨h3, ?_⟩
      rw [show (o.setMem .c n' x).c n = o.c n from if_neg h1, h4]
      exact rational_congr (fun m hm => (if_neg (fun e : m = n' => h2 (e ▸ hm))).symm) e h3
    cases i with
    | set t m x =>
      cases t with
      | c =>
        refine step _ _ hr ?_ h
        intro e he
        split_ifs at he with h1 h2 h3
        · cases he
          rw [Bool.and_eq_true] at h2
          refine ⟨h2.1, ?_⟩
          have hK : n ∉ K := by simpa using h2.2
          subst h1
          simp only [SInstr.exec]
          rw [show (o.setMem .c n (x.val o.r o.c par)).c n = x.val o.r o.c par from if_pos rfl]
          exact rational_congr (fun m hm => (if_neg (fun e : m = n => hK (e ▸ hm))).symm) x h2.1
        · exact keep h1 (by simpa using h3) e he
      | r =>
        refine step _ d hr ?_ h
        intro e he
        obtain ⟨h3, h4⟩ := hd e he
        exact ⟨h3, h4.trans (rational_congr (fun _ _ => rfl) e h3)⟩
    | part i e => exact step _ d hr hd h
    | setMass i e => exact step _ d hr hd h
    | setMom i k => exact step _ d hr hd h
    | prop k m w => exact step _ d hr hd h
    | propMass k e => exact step _ d hr hd h
    | sprod a d' => exact step _ d hr hd h
    | update a => exact step _ d hr hd h
    | den t m k' v' =>
      cases t with
      | c =>
        refine step _ _ hr ?_ h
        intro e he
        split_ifs at he with h1
        rw [not_or] at h1
        exact keep h1.1 (by simpa using h1.2) e he
      | r =>
        refine step _ d hr ?_ h
        intro e he
        obtain ⟨h3, h4⟩ := hd e he
        exact ⟨h3, h4.trans (rational_congr (fun _ _ => rfl) e h3)⟩
end

section
variable [FPEnv]

theorem rational_mean {K : List Nat} {N : Env} {mr : Nat → XR} {mc : Nat → XC} {par : Nat → XR} (h : ∀ n ∈ K, mc n = ofC (N.c n)) (h0 : ∀ n ∈ K, N.c n ≠ 0) (f : Nat → List Int → ℂ) (l : Loc ℝ ℂ) :
    ∀ {t : Ty} (e : Exp t), e.rational K = true → e.val mr mc par = up t (e.mean N f l)
  | _, .lit n, _ => by simp [Exp.val, Exp.mean, up]
  | _, .mem .c n, hn => h n (by simpa [Exp.rational] using hn)
  | t, .add a b, hn => by
    simp only [Exp.rational, Bool.and_eq_true] at hn
    simp only [Exp.val, rational_mean (mr := mr) (par := par) h h0 f l a hn.1, rational_mean (mr := mr) (par := par) h h0 f l b hn.2]
    cases t <;> simp [tadd, madd, up, Exp.mean]
  | t, .sub a b, hn => by
    simp only [Exp.rational, Bool.and_eq_true] at hn
    simp only [Exp.val, rational_mean (mr := mr) (par := par) h h0 f l a hn.1, rational_mean (mr := mr) (par := par) h h0 f l b hn.2]
    cases t <;> simp [tsub, msub, up, Exp.mean]
  | t, .mul a b, hn => by
    simp only [Exp.rational, Bool.and_eq_true] at hn
    simp only [Exp.val, rational_mean (mr := mr) (par := par) h h0 f l a hn.1, rational_mean (mr := mr) (par := par) h h0 f l b hn.2]
    cases t <;> simp [tmul, mmul, up, Exp.mean]
  | t, .neg a, hn => by
    simp only [Exp.val, rational_mean (mr := mr) (par := par) h h0 f l a hn]
    cases t <;> simp [tneg, mneg, up, Exp.mean]
  | _, .ofR a, hn => by
    simp only [Exp.val, rational_mean (mr := mr) (par := par) h h0 f l a hn]
    simp [up, Exp.mean]
  | .r, .div a b, hn => by
    simp only [Exp.rational, Bool.and_eq_true] at hn
    have hb := hn.2
    split at hb
    · rename_i n
      have : ((n : Nat) : ℝ) ≠ 0 := by simpa using hb
      simp only [Exp.val, rational_mean (mr := mr) (par := par) h h0 f l a hn.1, s_int]
      exact fin_div this
    · cases hb
  | .c, .div a b, hn => by
    simp only [Exp.rational, Bool.and_eq_true] at hn
    have hb := hn.2
    split at hb
    · rename_i n
      have hn' : n ∈ K := by simpa using hb
      simp only [Exp.val, rational_mean (mr := mr) (par := par) h h0 f l a hn.1, h n hn']
      exact ofC_div _ (h0 n hn')
    · cases hb

/-- what the methods see -/
noncomputable def Proc.envSet (P : Proc) (K : List Nat) (ρ : Nat → ℝ) (p : Nat → V4 ℝ) : Env where
  r := (P.env ρ p).r
  c n := match lastSet K n P.setMomenta none with
    | some e => e.mean (P.env ρ p) (fun _ _ => 0) ⟨fun _ => 0, fun _ => 0, fun _ => 0⟩
    | none => (P.env ρ p).c n
  v := (P.env ρ p).v

/-- as `Proc.numericOnce` -/
def Proc.numericSet (P : Proc) (K B D E : List Nat) : Bool :=
  P.setMomenta.all SInstr.noProp &&
  (P.reads.all fun x => match x.1 with
    | .r => (match P.sym.bind fun S => S.gr x.2 with
      | some e => e.finc B D E
      | none => P.denFin B D E (lastDen x.2 P.setMomenta none))
    | .c => (lastSet K x.2 P.setMomenta none).isSome || P.denFin B D E (lastDenC x.2 P.setMomenta none)) &&
  ([0, 1, 2, 3].all fun i => match P.sym.bind fun S => S.gm i with
    | some e => e.finc B D E
    | none => false) &&
  K.all fun k => P.denFin B D E (lastDenC k P.setMomenta none)

variable {K B D E : List Nat} {ρ : Nat → ℝ}

theorem numericSet_result {P : Proc} (hP : P ∈ all) (ops : List (ProcOp XR XC)) (hst : P.name ∉ staleMasses ∨ Unset ops) (hn : P.numericSet K B D E = true) (hB : ∀ n ∈ E, n ∈ B) (hD : ∀ n ∈ D, ρ n ≠ 0) (hE : ∀ n ∈ E, ρ n ^ 2 < 1) (mem : Nat → XR) (junk : Kin XR XC) (par : Nat → XR)
    (hpar : ∀ n ∈ B, parAfter P.massPar ops par n = fin (ρ n)) {o : Obj XR XC} (ho : o = runProcOps P ops (P.construct mem junk par).2)
    {p : Nat → V4 ℝ} (hs : ∀ i, i < 4 → OnShell (p i) (P.massNum ρ i)) (hm : ∀ i, i < 4 → P.massless i = false → P.massNum ρ i ≠ 0)
    (hr : ∀ n, (Ty.r, n) ∈ P.divides → (P.envSet K ρ p).r n ≠ 0) (hd : ∀ n, (Ty.c, n) ∈ P.divides → (P.envSet K ρ p).c n ≠ 0) (hK : ∀ n ∈ K, (P.env ρ p).c n ≠ 0)
    (j : Kin XR XC) (xs : List (MCall XR XC)) (l : Loc XR XC) (k : Nat) (hk : P.isSquare k = true) :
    (P.runSetMomenta j (fun i => (p i).toX) o).1 = .ok () ∧
    (P.method l .r k [] (runCalls P xs (P.runSetMomenta j (fun i => (p i).toX) o).2)).1 = .ok (fin (meaning (P.envSet K ρ p) .r P.methods k [])) := by
  simp only [Proc.numericSet, Bool.and_eq_true] at hn
  obtain ⟨⟨⟨hnp, hrd⟩, hms⟩, hkd⟩ := hn
  rw [List.all_eq_true] at hrd hms hkd
  obtain ⟨S, hS, hc⟩ := fresh_check hP
  have hi : SM.Inv S (parAfter P.massPar ops par) (runProcOps P ops (P.construct mem junk par).2) := by
    rcases hst with hst | hst
    · have hr : SM.checkReset P P.massPar S = true := by
        have := List.all_eq_true.mp all_reset P hP
        simp only [Bool.or_eq_true, List.contains_iff_mem] at this
        have := this.resolve_left hst
        simpa only [Proc.checkReset, hS] using this
      exact ops_inv_reset (checkAll_parts hc).1 hr ops (construct_inv hS mem junk par).2
    · exact ops_inv_unset (checkAll_parts hc).1 ops hst (construct_inv hS mem junk par).2
  rw [← ho] at hi
  have bnd : ∀ {α : Type} (g : Sym → Option α), (P.sym.bind g) = g S := by intro α g; rw [hS]; rfl
  have hm' : ∀ i, i < 4 → (o.w.part i).kin.m = fin (P.massNum ρ i) := by
    intro i hlt
    have := hms i (by have : i = 0 ∨ i = 1 ∨ i = 2 ∨ i = 3 := by omega
                      rcases this with rfl | rfl | rfl | rfl <;> simp)
    split at this
    · rename_i e he
      rw [Proc.massNum, he]
      rw [bnd] at he
      exact (hi.mass i e he).trans (finc_val hB hD hE hpar e this)
    · cases this
  have hn : MassesNonzero P o := by
    intro i hlt hml
    rw [hm' i hlt]
    simpa [Scalar.ne] using hm i hlt hml
  have hacc := (accepted_of hP (o' := o) ⟨mem, mem, junk, junk, par, ops, ops, ho, ho, rfl⟩ hm' hs).1 j
  have hinv : SM.Inv S (parAfter P.massPar ops par) (P.runSetMomenta j (fun i => (p i).toX) o).2 := by
    rcases (setMomenta_sound (checkAll_parts hc).2.1 hi hi j j j (fun i => (p i).toX) (fun i => fin (P.massNum ρ i)) hm').2 with ⟨_, e, _⟩ | ⟨_, _, _, r, c, u, _, ha⟩
    · rw [hacc] at e; cases e
    · exact ha.inv
  -- denominators
  have pd : ∀ k em ew, (P.sym.bind fun S => S.gpm k) = some em → (P.sym.bind fun S => S.gpw k) = some ew → em.finc B D E = true → ew.finc B D E = true → ∀ v : VExp,
      (Propag.denominator (o.pr k) (v.eval fun i => (p i).toX) : XC) = ofC (poleDist (em.num ρ) (ew.num ρ) (v.sum p)) := by
    intro k em ew h1 h2 f1 f2 v
    rw [bnd] at h1 h2
    have hd := denominator_fin ((hi.pm k em h1).trans (finc_val hB hD hE hpar em f1)) ((hi.pw k ew h2).trans (finc_val hB hD hE hpar ew f2)) (v.sum p)
    rwa [← VExp.eval_sum] at hd
  have den : ∀ n, P.denFin B D E (lastDenC n P.setMomenta none) = true → (P.runSetMomenta j (fun i => (p i).toX) o).2.c n = ofC ((P.env ρ p).c n) := by
    intro n hd
    show _ = ofC (P.denNum ρ p (lastDenC n P.setMomenta none))
    unfold Proc.denFin at hd
    unfold Proc.denNum
    split at hd
    · rename_i k v hl
      split at hd
      · rename_i m w em ew
        rw [Bool.and_eq_true] at hd
        have := denC_sound j (fun _ => int 0) (fun i => (p i).toX) n P.setMomenta none o hnp (by simp) hacc _ _ hl
        unfold Proc.runSetMomenta
        rw [this, pd k m w em ew hd.1 hd.2 v]
      · cases hd
    · cases hd
  refine ⟨hacc, square_meaning hc (List.all_eq_true.mp all_tame P hP) hk hi hm' hn (fun i hi => (hs i hi).mag_le) j hacc xs l ⟨fun n hn => ?_, fun n hn => ?_, hr, hd⟩ ?_⟩
  · have := hrd _ hn
    simp only at this
    show _ = fin ((P.env ρ p).r n)
    split at this
    · rename_i e he
      simp only [Proc.env, he]
      rw [bnd] at he
      exact (hinv.r n e he).trans (finc_val hB hD hE hpar e this)
    · rename_i he
      simp only [Proc.env, he]
      unfold Proc.denFin at this
      unfold Proc.denNum
      split at this
      · rename_i k v hl
        split at this
        · rename_i m w em ew
          rw [Bool.and_eq_true] at this
          have e := den_sound j (fun _ => int 0) (fun i => (p i).toX) n P.setMomenta none o hnp (by simp) hacc _ _ hl
          unfold Proc.runSetMomenta
          rw [e, pd k m w em ew this.1 this.2 v]
          rfl
        · cases this
      · cases this
  · have := hrd _ hn
    simp only at this
    show _ = ofC ((P.envSet K ρ p).c n)
    simp only [Proc.envSet]
    cases hl : lastSet K n P.setMomenta none with
    | none =>
      rw [hl] at this
      exact den n (by simpa using this)
    | some e =>
      obtain ⟨h1, h2⟩ := lastSet_sound j (fun _ => int 0) (fun i => (p i).toX) K n P.setMomenta none o (by simp) hacc e hl
      refine h2.trans ?_
      exact rational_mean (N := P.env ρ p) (fun n hn => den n (hkd n hn)) hK _ _ e h1
  · show (P.env ρ p).v = _
    show braTab _ p _ = _
    congr 1
    funext a
    exact bnd _

namespace BRow
variable {R : BRow}

theorem agreesSet_of {D E : List Nat} (K : List Nat) (hP : R.proc ∈ all) (hn : R.proc.numericSet K R.used D E = true) (hE : E.all (fun n => decide (n ∈ R.used)) = true) (hk : R.proc.isSquare R.proc.amp2 = true)
    (hD : ∀ c : Constants, c.Physical → c.Heavy → (∀ n ∈ D, R.rho c n ≠ 0) ∧ ∀ n ∈ E, R.rho c n ^ 2 < 1)
    (hm : ∀ c : Constants, c.Physical → ∀ i : Fin 4, R.proc.massNum (R.rho c) i = R.react.mass c i)
    (hz : ∀ i : Fin 4, heavy (R.react.leg i) || R.proc.massless i = true)
    (hv : ∀ (c : Constants) (p : Nat → V4 ℝ) (u : Fin 4 → Fin 3 → Spinor) (ε : Fin 4 → Fin 3 → Vec), c.Physical → c.Heavy → (∀ q ∈ R.absent, c.get q = 0) → (∀ i, 0 ≤ R.react.mass c i) →
      (∀ i : Fin 4, OnShell (p i) (R.react.mass c i)) → Balanced p → R.react.Regular c p → (∀ i, R.react.Complete c p i (u i) (ε i)) →
      (∀ n ∈ K, (R.proc.env (R.rho c) p).c n ≠ 0) ∧
      (∀ n, (Ty.r, n) ∈ R.proc.divides → (R.proc.envSet K (R.rho c) p).r n ≠ 0) ∧ (∀ n, (Ty.c, n) ∈ R.proc.divides → (R.proc.envSet K (R.rho c) p).c n ≠ 0) ∧
      meaning (R.proc.envSet K (R.rho c) p) .r R.proc.methods R.proc.amp2 [] = R.react.squared c p u ε) : R.Agrees := by
  refine ⟨⟨hP, hk⟩, masses_of hP (by simp only [Proc.numericSet, Bool.and_eq_true] at hn; exact hn.1.2) hE hD hm hz, ?_⟩
  intro mem junk par ops c p u ε o j xs l hst hpar hc hh hw ho hs hb hr hu
  obtain ⟨h0, h1, h2, h3⟩ := hv c p u ε hc hh hw (leg_nonneg hc hh R.react) hs hb hr hu
  have i4 : ∀ i, i < 4 → R.proc.massNum (R.rho c) i = R.react.mass c (Fin.ofNat 4 i) := by
    intro i hi
    have := hm c hc (Fin.ofNat 4 i)
    simpa [Nat.mod_eq_of_lt hi] using this
  have := numericSet_result (K := K) (D := D) (E := E) (ρ := R.rho c) hP ops (Decidable.or_iff_not_imp_left.2 fun h => hst (by simpa using h)) hn (fun n hn => by simpa using List.all_eq_true.1 hE n hn)
    (hD c hc hh).1 (hD c hc hh).2 mem junk par (fun n hn => ?_) ho (p := p) (fun i hi => ?_) (fun i hi hl => ?_) h1 h2 h0 j xs l R.proc.amp2 hk
  · rw [h3] at this
    exact this
  · simp only [used, List.mem_filter] at hn
    obtain ⟨_, hn⟩ := hn
    split at hn
    · rename_i q hq
      rw [hpar n q hq, rho, hq]
    · cases hn
  · rw [i4 i hi]
    have := hs (Fin.ofNat 4 i)
    simpa [Nat.mod_eq_of_lt hi] using this
  · rw [i4 i hi]
    refine (leg_pos hc hh ?_).ne'
    have := hz (Fin.ofNat 4 i)
    simpa [Nat.mod_eq_of_lt hi, hl] using this

end BRow
end
end Spinas.SM
