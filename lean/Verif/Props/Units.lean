import Verif.SM.ScalingSound
import Verif.Props.Finite

/-! C66: units.  Squared amplitudes do not depend on the unit of mass and are of fourth order in the couplings (exact arithmetic). -/

namespace Spinas.Spec
open SM XR

/-- A parameter after masses, widths and momenta were multiplied by `a` and the couplings by `b`.  The vacuum expectation value is a mass divided by a coupling. -/
noncomputable def rescale (a b : ℝ) : Kind → ℝ → ℝ
  | .coupling, x => b * x
  | .mass, x => a * x
  | .width, x => a * x
  | .sine, x => x
  | .vev, x => a / b * x

/-- The same set-up of an object in other units: constructor arguments and those of the last call of `set_masses` (if any). -/
structure OtherUnits (P : Proc) (a b : ℝ) (par par' : Nat → XR) (args args' : Option (Nat → XR)) : Prop where
  par : ∀ n κ, (Kind.ofClass P.name)[n]? = some κ → ∃ x : ℝ, par n = fin x ∧ par' n = fin (rescale a b κ x)
  masses : match args, args' with
    | none, none => True
    | some f, some g => ∀ j, j < P.massPar.length → ∃ x : ℝ, f j = fin x ∧ g j = fin (a * x)
    | _, _ => False

end Spinas.Spec

namespace Spinas.Props
open SM Spec XR

noncomputable section
variable [FPEnv]

theorem kind_sc (U : Units) (κ : Kind) (x : ℝ) : U.XSc κ.tag (fin x) (fin (rescale U.a U.b κ x)) := by
  refine .inr ⟨x, _, rfl, rfl, ?_⟩
  have ha : (U.a : ℂ) ≠ 0 := Complex.ofReal_ne_zero.2 U.pos.ne'
  have hb : (U.b : ℂ) ≠ 0 := Complex.ofReal_ne_zero.2 U.ne
  cases κ <;> simp [Kind.tag, Units.Sc, Units.fac, rescale]
  exact .inl (div_eq_mul_inv _ _)

/-- Objects with a common description whose parameters are related by a change of units. -/
theorem units_of {P : Proc} (hP : P ∈ all) (U : Units) {S : Sym} {K : Nat → Option Tag} (hck : P.checkAll S = true) (hu : P.unitCheck S K = true) {par par' : Nat → XR}
    (hpar : ∀ n T, K n = some T → U.XSc T (par n) (par' n)) {o o' : Obj XR XC} (hi : Inv S par o) (hi' : Inv S par' o')
    {m : Nat → ℝ} (hm : ∀ i, i < 4 → (o.w.part i).kin.m = fin (m i)) (hn : MassesNonzero P o)
    {p : Nat → V4 ℝ} (hs : ∀ i, i < 4 → OnShell (p i) (m i)) (hc : ConstsOk P o) (hp : OffPole P.setMomenta o.pr p)
    (hacc : ∀ {q : Nat → V4 ℝ} {m : Nat → ℝ} {x : Obj XR XC}, x = o ∨ x = o' → (∀ i, i < 4 → (x.w.part i).kin.m = fin (m i)) → (∀ i, i < 4 → OnShell (q i) (m i)) → Accepted P x q) :
    Accepted P o p ∧ Accepted P o' (fun i => V4.scale U.a (p i)) ∧
    ∀ (j j' : Kin XR XC) (xs xs' : List (MCall XR XC)) (l l' : Loc XR XC) (k : Nat), P.isSquare k = true →
      ∃ x, (P.method l .r k [] (runCalls P xs (P.runSetMomenta j (fun i => (p i).toX) o).2)).1 = .ok (fin x) ∧
        (P.method l' .r k [] (runCalls P xs' (P.runSetMomenta j' (fun i => (V4.scale U.a (p i)).toX) o').2)).1 = .ok (fin (U.b ^ 4 * x)) := by
  have fa : U.fac (1, 0) = U.a := by simp [Units.fac]
  have key := hu
  simp only [Proc.unitCheck, Bool.and_eq_true] at key
  obtain ⟨hmass, key⟩ := key
  split at key
  case h_2 => cases key
  rename_i M hM
  rw [Bool.and_eq_true, List.all_eq_true, List.all_eq_true] at key
  obtain ⟨hconst, hsq⟩ := key
  -- masses
  have hm' : ∀ i, i < 4 → (o'.w.part i).kin.m = fin (U.a * m i) := by
    intro i hlt
    obtain ⟨e, he, hx⟩ := isMass_sc hpar (List.all_eq_true.mp hmass i (List.mem_range.mpr hlt))
    rw [← hi.mass i e he, ← hi'.mass i e he] at hx
    simp only [hm i hlt] at hx
    rw [← fa]
    exact hx.fin
  have hn' : MassesNonzero P o' := by
    intro i hlt hml
    have := hn i hlt hml
    rw [hm i hlt] at this
    rw [hm' i hlt]
    simpa [Scalar.ne, U.pos.ne'] using this
  have hs' : ∀ i, i < 4 → OnShell (V4.scale U.a (p i)) (U.a * m i) := fun i hlt =>
    ⟨mul_nonneg U.pos.le (hs i hlt).energy, by have := (hs i hlt).shell; simp only [V4.scale]; linear_combination U.a ^ 2 * this⟩
  have ha : Accepted P o p := hacc (.inl rfl) hm hs
  have ha' : Accepted P o' (fun i => V4.scale U.a (p i)) := hacc (.inr rfl) hm' hs'
  -- constants
  have hmem : MemSc U (constTags S K) o o' := by
    intro t n T hT
    cases t
    · obtain ⟨e, he, hx⟩ := ctag_sc hpar hT
      rw [← hi.r n e he, ← hi'.r n e he] at hx
      exact hx.num
    · cases hT
  have hcon : ∀ n, (Ty.r, n) ∈ P.consts → ∃ T x, o.r n = fin x ∧ U.XSc T (o.r n) (o'.r n) := by
    intro n hn
    have := hconst _ hn
    simp only [Option.isSome_iff_exists] at this
    obtain ⟨T, hT⟩ := this
    obtain ⟨x, hx⟩ := hc.r n hn
    obtain ⟨e, he, h⟩ := ctag_sc hpar hT
    rw [← hi.r n e he, ← hi'.r n e he] at h
    exact ⟨T, x, hx, h⟩
  have hc' : ConstsOk P o' := by
    refine ⟨fun n hn => ?_, fun n hn => ?_, fun n hn => ?_, fun n hn => ?_⟩
    · obtain ⟨T, x, e, h⟩ := hcon n hn
      rcases h with ⟨h, _⟩ | ⟨_, y, _, h, _⟩
      · rw [e] at h; cases h
      · exact ⟨y, h⟩
    · have := hconst _ hn; cases this
    · obtain ⟨T, x, e, h⟩ := hcon n (List.mem_filter.1 hn).1
      have h0 := hc.dr n hn
      rcases h with ⟨h, _⟩ | ⟨x', y, e1, e2, h⟩
      · rw [e] at h; cases h
      · have hz := h.zero_iff
        rw [Complex.ofReal_eq_zero, Complex.ofReal_eq_zero] at hz
        rw [e2]
        intro h
        rw [fin_inj] at h
        exact h0 (by rw [e1, hz.2 h])
    · have := hconst _ (List.mem_filter.1 hn).1; cases this
  -- propagators
  have hpm : ∀ k, isMass K (S.gpm k) = true → U.XSc (some (1, 0)) (o.pr k).m (o'.pr k).m := fun k hk => by
    obtain ⟨e, he, hx⟩ := isMass_sc hpar hk
    rw [← hi.pm k e he, ← hi'.pm k e he] at hx
    exact hx
  have hpw : ∀ k, isMass K (S.gpw k) = true → U.XSc (some (1, 0)) (o.pr k).w (o'.pr k).w := fun k hk => by
    obtain ⟨e, he, hx⟩ := isMass_sc hpar hk
    rw [← hi.pw k e he, ← hi'.pw k e he] at hx
    exact hx
  have hden : ∀ (is : List SInstr) (F D : Mems) (M M' : Ty → Nat → Option Tag), setTags S K is F D M = some M' → ∀ t n k v, SInstr.den t n k v ∈ is →
      isMass K (S.gpm k) = true ∧ isMass K (S.gpw k) = true := by
    intro is
    induction is with
    | nil => intro F D M M' _ t n k v h; cases h
    | cons i is ih =>
      intro F D M M' h t n k v hm
      rcases List.mem_cons.1 hm with rfl | hm2
      · simp only [setTags] at h
        split_ifs at h with hk
        rwa [Bool.and_eq_true] at hk
      · cases i <;> simp only [setTags] at h
        case set => split_ifs at h; exact ih _ _ _ _ h t n k v hm2
        case den => split_ifs at h; exact ih _ _ _ _ h t n k v hm2
        case prop => cases h
        case propMass => cases h
        all_goals exact ih _ _ _ _ h t n k v hm2
  have hp' : OffPole P.setMomenta o'.pr (fun i => V4.scale U.a (p i)) := by
    intro t n k v hmem
    obtain ⟨h1, h2⟩ := hden _ _ _ _ _ hM t n k v hmem
    obtain ⟨mm, w, em, ew, hz⟩ := hp t n k v hmem
    have a1 := hpm k h1
    have a2 := hpw k h2
    rw [em] at a1
    rw [ew] at a2
    have a1 := a1.fin
    have a2 := a2.fin
    rw [fa] at a1 a2
    refine ⟨_, _, a1, a2, ?_⟩
    have h0 : (U.a : ℂ) ^ 2 ≠ 0 := pow_ne_zero _ (Complex.ofReal_ne_zero.2 U.pos.ne')
    cases t
    · simp only at hz ⊢
      rw [poleDist_sc, ← Complex.ofReal_pow, Complex.re_ofReal_mul]
      exact mul_ne_zero (pow_ne_zero _ U.pos.ne') hz
    · simp only at hz ⊢
      rw [poleDist_sc]
      exact mul_ne_zero h0 hz
  refine ⟨ha, ha', fun j j' xs xs' l l' k hk => ?_⟩
  -- the members read
  have ht := List.all_eq_true.mp all_tameSetup P hP
  unfold Proc.tameSetup at ht
  split at ht
  case h_2 => cases ht
  rename_i F D hFD
  simp only [Bool.and_eq_true, List.all_eq_true, List.contains_iff_mem] at ht
  have hf := setTame_sound j (par := fun _ => int 0) (ρ := fun _ => 0) (fun n => by simp) p P.setMomenta _ _ F D o hFD hc hp (ha j)
  have hf' := setTame_sound j' (par := fun _ => int 0) (ρ := fun _ => 0) (fun n => by simp) (fun i => V4.scale U.a (p i)) P.setMomenta _ _ F D o' hFD hc' hp' (ha' j')
  have s1 := square_meaning hck (List.all_eq_true.mp all_tame P hP) hk hi hm hn (fun i hi => (hs i hi).mag_le) j (ha j) xs l
    (N := envOf (P.runSetMomenta j (fun i => (p i).toX) o).2.r (P.runSetMomenta j (fun i => (p i).toX) o).2.c (braTab S.gsp p m))
    ((hf.of_sub ht.1.1 ht.1.2).lifted ht.2 _) rfl
  have s2 := square_meaning hck (List.all_eq_true.mp all_tame P hP) hk hi' hm' hn' (fun i hi => (hs' i hi).mag_le) j' (ha' j') xs' l'
    (N := envOf (P.runSetMomenta j' (fun i => (V4.scale U.a (p i)).toX) o').2.r (P.runSetMomenta j' (fun i => (V4.scale U.a (p i)).toX) o').2.c
      (braTab S.gsp (fun i => V4.scale U.a (p i)) fun i => U.a * m i))
    ((hf'.of_sub ht.1.1 ht.1.2).lifted ht.2 _) rfl
  refine ⟨_, s1, s2.trans ?_⟩
  -- their degrees
  have hsc := setTags_sound j j' (fun _ => int 0) (ρ := fun _ => 0) (fun n => by simp) p o.pr o'.pr hpm hpw P.setMomenta _ _ _ M o o' hM hc hc'
    (fun x hx => (List.mem_filter.1 hx).1) rfl rfl hp hp' hmem (ha j) (ha' j')
  have := hsq _ (regular_square hk)
  simp only at this
  split at this
  case h_2 => cases this
  rename_i T hT
  have := (meaning_sc (hsc.env (fun a T args h => braTab_sc U S p m a T args h)) .r P.methods k T [] hT).weaken this
  have f4 : U.fac (0, 4) = U.b ^ 4 := by simp only [Units.fac, zpow_zero, one_mul]; exact zpow_natCast U.b 4
  simp only [Units.Sc, f4, emb] at this
  refine congrArg (fun z => Res.ok (fin z)) ?_
  exact_mod_cast this

/-- Other units of mass (factor `a`) and of the couplings (factor `b`, of either sign): what the object `o` gives at the momenta `p` is multiplied by `b ^ 4`. -/
theorem C66_units (P : Proc) (hP : P ∈ all) {a b : ℝ} (ha : 0 < a) (hb : b ≠ 0) (mem mem' : Nat → XR) (junk junk' : Kin XR XC) (par par' : Nat → XR) (ops ops' : List (ProcOp XR XC))
    (h : OtherUnits P a b par par' (lastMasses ops none) (lastMasses ops' none)) {o o' : Obj XR XC}
    (ho : o = runProcOps P ops (P.construct mem junk par).2) (ho' : o' = runProcOps P ops' (P.construct mem' junk' par').2)
    {m : Nat → ℝ} (hm : ∀ i, i < 4 → (o.w.part i).kin.m = fin (m i)) (hn : MassesNonzero P o)
    {p : Nat → V4 ℝ} (hs : ∀ i, i < 4 → OnShell (p i) (m i)) (hc : ConstsOk P o) (hp : OffPole P.setMomenta o.pr p) :
    Accepted P o p ∧ Accepted P o' (fun i => V4.scale a (p i)) ∧
    ∀ (j j' : Kin XR XC) (xs xs' : List (MCall XR XC)) (l l' : Loc XR XC) (k : Nat), P.isSquare k = true →
      ∃ x, (P.method l .r k [] (runCalls P xs (P.runSetMomenta j (fun i => (p i).toX) o).2)).1 = .ok (fin x) ∧
        (P.method l' .r k [] (runCalls P xs' (P.runSetMomenta j' (fun i => (V4.scale a (p i)).toX) o').2)).1 = .ok (fin (b ^ 4 * x)) := by
  let U : Units := ⟨a, b, ha, hb⟩
  have hacc : ∀ {q : Nat → V4 ℝ} {m : Nat → ℝ} {x : Obj XR XC}, x = o ∨ x = o' → (∀ i, i < 4 → (x.w.part i).kin.m = fin (m i)) → (∀ i, i < 4 → OnShell (q i) (m i)) → Accepted P x q := by
    intro q m x hx h1 h2
    rcases hx with rfl | rfl
    · exact (accepted_of hP (o' := x) ⟨mem, mem, junk, junk, par, ops, ops, ho, ho, rfl⟩ h1 h2).1
    · exact (accepted_of hP (o' := x) ⟨mem', mem', junk', junk', par', ops', ops', ho', ho', rfl⟩ h1 h2).1
  obtain ⟨S0, hS0, hc0⟩ := fresh_check hP
  obtain ⟨S, S1, hS, hS1, hc1, hag⟩ := masses_check hP
  have : S0 = S := by rw [hS0] at hS; cases hS; rfl
  subst this
  have hu := List.all_eq_true.mp all_units P hP
  simp only [Proc.units, hS, hS1, Bool.and_eq_true] at hu
  have kp : ∀ n T, P.parTags n = some T → U.XSc T (par n) (par' n) := by
    intro n T hT
    simp only [Proc.parTags, Option.map_eq_some_iff] at hT
    obtain ⟨κ, hκ, rfl⟩ := hT
    obtain ⟨x, e, e'⟩ := h.par n κ hκ
    rw [e, e']
    exact kind_sc U κ x
  have h1 := ops_inv_last (checkAll_parts hc0).1 (checkAll_parts hc1).1 hS1 hag par ops (m := none) (construct_inv hS mem junk par).2
  have h1' := ops_inv_last (checkAll_parts hc0).1 (checkAll_parts hc1).1 hS1 hag par' ops' (m := none) (construct_inv hS mem' junk' par').2
  rw [← ho] at h1
  rw [← ho'] at h1'
  have hmm := h.masses
  cases e : lastMasses ops none <;> cases e' : lastMasses ops' none <;> rw [e] at h1 hmm <;> rw [e'] at h1' hmm
  · exact units_of hP U hc0 hu.1 kp h1 h1' hm hn hs hc hp hacc
  · exact hmm.elim
  · exact hmm.elim
  · rename_i f g
    refine units_of hP U hc1 hu.2 (fun n T hT => ?_) h1 h1' hm hn hs hc hp hacc
    unfold Proc.mixTags at hT
    unfold mix
    by_cases h3 : n % 3 = 0
    · rw [if_pos h3] at hT ⊢
      rw [if_pos h3]
      exact kp _ T hT
    · rw [if_neg h3] at hT ⊢
      rw [if_neg h3]
      split_ifs at hT with h4
      cases hT
      rw [if_pos h4.1, if_pos h4.1]
      obtain ⟨x, e1, e2⟩ := hmm (n / 3) h4.2
      rw [e1, e2]
      exact kind_sc U .mass x

/-- Every parameter has a kind. -/
theorem C66_kinds : ∀ P ∈ all, (Kind.ofClass P.name).length = P.nPar := by
  have h : all.all (fun P => (Kind.ofClass P.name).length == P.nPar) = true := by decide +kernel
  intro P hP
  simpa using List.all_eq_true.mp h P hP

end

/-! ### the hypotheses can be met -/

section examples
attribute [local instance] doubleEnv

/-- The example of C63 with masses and momenta twice as large and three times minus the coupling: `amp2` is 81 times as large. -/
example (mem mem' : Nat → XR) (l l' : Loc XR XC) :
    ∃ x, (Cls.dggd.method l .r 1 [] (Cls.dggd.runSetMomenta junkK (fun i => (exHit i).toX) (Cls.dggd.construct mem junkK exGlu).2).2).1 = .ok (.fin x) ∧
      (Cls.dggd.method l' .r 1 [] (Cls.dggd.runSetMomenta junkK (fun i => (V4.scale 2 (exHit i)).toX) (Cls.dggd.construct mem' junkK fun n => if n = 0 then fin (-3) else fin 6).2).2).1 = .ok (.fin (81 * x)) := by
  have hP : Cls.dggd ∈ all := by simp [all]
  have h := C66_units Cls.dggd hP (a := 2) (b := -3) (by norm_num) (by norm_num) mem mem' junkK junkK exGlu (fun n => if n = 0 then fin (-3) else fin 6) [] [] ⟨fun n κ hn => ?_, trivial⟩
    (o := (Cls.dggd.construct mem junkK exGlu).2) (o' := (Cls.dggd.construct mem' junkK fun n => if n = 0 then fin (-3) else fin 6).2) (by rw [runProcOps]) (by rw [runProcOps])
    (exGlu_mass mem) (exGlu_nonzero mem) exHit_onShell (exGlu_consts mem) (exGlu_offPole mem)
  · obtain ⟨x, h1, h2⟩ := h.2.2 junkK junkK [] [] l l' 1 rfl
    refine ⟨x, h1, h2.trans ?_⟩
    norm_num
  · have hk : Kind.ofClass Cls.dggd.name = [.coupling, .mass] := by decide +kernel
    rw [hk] at hn
    match n, hn with
    | 0, hn => cases hn; exact ⟨1, by simp [exGlu], by norm_num [rescale]⟩
    | 1, hn => cases hn; exact ⟨3, by simp [exGlu], by norm_num [rescale]⟩

end examples
end Spinas.Props
