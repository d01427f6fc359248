import Verif.SM.Direct
import Verif.SM.Numbers

/-! What the overloads `amp2(mom1, mom2, mom3, mom4)` compute: facts common to the four classes. -/

namespace Spinas.SM.Direct
open Spec Props XR Matrix

section
variable {R C : Type} [Scalar R] [Cplx R C] {κ : Nat → Kin R C} {α β : Type}

/-- The program returns `x` whenever the four particles are up to date, and does nothing but fill their caches. -/
def Reads (κ : Nat → Kin R C) (f : Prog (World R C) α) (x : α) : Prop := ∀ w, PartsOk (· < 4) κ w → ∃ w', f w = (.ok x, w') ∧ WExt w w'

theorem Reads.pure (x : α) : Reads κ (Pure.pure x : Prog (World R C) α) x := fun w _ => ⟨w, rfl, .refl w⟩
theorem Reads.bind {f : Prog (World R C) α} {x : α} {g : α → Prog (World R C) β} {y : β} (hf : Reads κ f x) (hg : Reads κ (g x) y) : Reads κ (f >>= g) y := by
  intro w hw
  obtain ⟨w1, e1, x1⟩ := hf w hw
  obtain ⟨w2, e2, x2⟩ := hg w1 (hw.ext x1.1)
  exact ⟨w2, by rw [Prog.bind_ok e1, e2], x1.trans x2⟩

theorem Reads.onPart {i : Nat} (hi : i < 4) {f : Prog (Particle R C) α} {x : α} (hx : ∀ P, Ext P (f P).2) (h : ∀ P, Fresh P → P.kin = κ i → (f P).1 = .ok x) :
    Reads κ (onPart i f) x := by
  intro w hw
  refine ⟨(Spinas.onPart i f w).2, ?_, wext_onPart i hx w⟩
  exact Prod.ext (h _ (hw i hi).1 (hw i hi).2) rfl

end

section
variable [FPEnv]

/-- The factor at an end fits the mass: with a spin for massive particles, without for massless ones. -/
def End.Fits (m : Nat → ℝ) (E : End) : Prop := E.i < 4 ∧ match E.j with
  | some j => IsSpin j ∧ m E.i ≠ 0
  | none => m E.i = 0

noncomputable def End.val (p : Nat → V4 ℝ) (m : Nat → ℝ) (E : End) : V2 := zend (p E.i) (m E.i) E.b true (E.j.getD 1)

noncomputable def midsVal (p : Nat → V4 ℝ) : List (Bool × Nat) → V2 → V2
  | [], v => v
  | (l, i) :: ms, v => midsVal p ms (v ᵥ* (if l then slashLower (p i) else slashUpper (p i)))

noncomputable def timesVal (p : Nat → V4 ℝ) (m : Nat → ℝ) (a : End) (ms : List (Bool × Nat)) (b : End) : ℂ := midsVal p ms (a.val p m) ⬝ᵥ b.val p m

theorem endVec_kinOf (q : V4 ℝ) (M : ℝ) (b : Br) (u : Bool) (j : Int) : endVec (kinOf q M) b u j = XV (zend q M b u j) := by
  unfold endVec zend massive
  have : (Scalar.ne (kinOf q M).m (int 0) : Bool) = !decide (M = 0) := by simp [Scalar.ne, kinOf]
  rw [this]
  by_cases hM : M = 0 <;> simp [hM, hel_fin, spn_fin]

variable {p : Nat → V4 ℝ} {m : Nat → ℝ}

/-- kinematic members of the four particles -/
noncomputable abbrev kin4 (p : Nat → V4 ℝ) (m : Nat → ℝ) (i : Nat) : Kin XR XC := kinOf (p i) (m i)

theorem End.reads {E : End} (h : E.Fits m) : Reads (kin4 p m) (E.run (R := XR) (C := XC)) (XV (E.val p m)) := by
  obtain ⟨i, b, j⟩ := E
  obtain ⟨hi, h⟩ := h
  rw [End.val, ← endVec_kinOf]
  cases j with
  | none =>
    refine Reads.onPart hi (ext_helicity b) fun P hf hk => end_massless hf hk ?_ b true 1
    have h : m i = 0 := h
    simp [massive, kin4, kinOf, h, Scalar.ne]
  | some j =>
    refine Reads.onPart hi (ext_spinor b j true) fun P hf hk => end_massive hf hk ?_ b true h.1
    have h : m i ≠ 0 := h.2
    simp [massive, kin4, kinOf, h, Scalar.ne]

theorem mids_reads (ms : List (Bool × Nat)) : (∀ x ∈ ms, x.2 < 4) → ∀ v : V2, Reads (kin4 p m) (mids (R := XR) ms (XV v)) (XV (midsVal p ms v)) := by
  induction ms with
  | nil => intro _ v; exact Reads.pure _
  | cons x ms ih =>
    obtain ⟨l, i⟩ := x
    intro h v
    have hs : Reads (kin4 p m) (SProd.slashed l i : Prog (World XR XC) _) (XM (if l then slashLower (p i) else slashUpper (p i))) := by
      intro w hw
      obtain ⟨w', e, x⟩ := slashed_ok hw (h _ List.mem_cons_self) l
      refine ⟨w', ?_, x⟩
      rw [e]
      obtain ⟨h1, h2⟩ := kinOf_mats (p i) (m i)
      unfold slashVal
      cases l <;> simp [kin4, h1, h2]
    refine hs.bind ?_
    rw [XV_mulM]
    exact ih (fun x hx => h x (List.mem_cons_of_mem _ hx)) _

theorem times_reads {a b : End} {ms : List (Bool × Nat)} (ha : a.Fits m) (hb : b.Fits m) (hm : ∀ x ∈ ms, x.2 < 4) :
    Reads (kin4 p m) (times (R := XR) (C := XC) a ms b) (ofC (timesVal p m a ms b)) := by
  refine (End.reads ha).bind ((mids_reads ms hm _).bind ((End.reads hb).bind ?_))
  rw [XV_dot]
  exact Reads.pure _

/-- contents of the local arrays after the assignments `l`, each of which assigns the value of `f` -/
noncomputable def after (l : List (Put XR XC)) (f : Nat → Bool → Bool → ℂ) (t : Tab XC) : Tab XC := fun n i j =>
  if l.any (fun x => x.n == n && x.i == i && x.j == j) then ofC (f n i j) else t n i j

theorem puts_reads {κ : Nat → Kin XR XC} {f : Nat → Bool → Bool → ℂ} (l : List (Put XR XC)) : (∀ x ∈ l, Reads κ x.e (ofC (f x.n x.i x.j))) → ∀ t, Reads κ (puts l t) (after l f t) := by
  induction l with
  | nil => intro _ t; exact Reads.pure _
  | cons x l ih =>
    intro h t
    refine (h x List.mem_cons_self).bind ?_
    have e : after (x :: l) f t = after l f (t.set x.n x.i x.j (ofC (f x.n x.i x.j))) := by
      funext n i j
      unfold after Tab.set
      by_cases hl : (l.any fun x => x.n == n && x.i == i && x.j == j) = true
      · simp only [List.any_cons, hl, Bool.or_true, if_true]
      · simp only [Bool.not_eq_true] at hl
        simp only [List.any_cons, hl, Bool.or_false, Bool.and_eq_true, beq_iff_eq, Bool.false_eq_true, if_false]
        by_cases hx : (x.n = n ∧ x.i = i) ∧ x.j = j
        · obtain ⟨⟨rfl, rfl⟩, rfl⟩ := hx; simp
        · rw [if_neg hx, if_neg fun hy => hx ⟨⟨hy.1.symm, hy.2.1.symm⟩, hy.2.2.symm⟩]
    rw [e]
    exact ih (fun y hy => h y (List.mem_cons_of_mem _ hy)) _

/-! ### objects -/

/-- The members of the object have the values that the constructor and `set_masses` give them for the parameters `par`. -/
def Known (P : Proc) (par : Nat → XR) (o : Obj XR XC) : Prop := ∃ S, P.sym = some S ∧ SM.Inv S par o

theorem Known.history {P : Proc} (hP : P ∈ all) (hst : P.name ∉ staleMasses) (ops : List (ProcOp XR XC)) (mem : Nat → XR) (junk : Kin XR XC) (par : Nat → XR) :
    Known P (parAfter P.massPar ops par) (runProcOps P ops (P.construct mem junk par).2) := by
  obtain ⟨S, hS, hc⟩ := fresh_check hP
  have hr : SM.checkReset P P.massPar S = true := by
    have := List.all_eq_true.mp all_reset P hP
    simp only [Bool.or_eq_true, List.contains_iff_mem] at this
    have := this.resolve_left hst
    simpa only [Proc.checkReset, hS] using this
  exact ⟨S, hS, ops_inv_reset (checkAll_parts hc).1 hr ops (construct_inv hS mem junk par).2⟩

variable {P : Proc} {par : Nat → XR} {o : Obj XR XC}

theorem Known.r (h : Known P par o) {n : Nat} {e : Exp .r} (he : (P.sym.bind fun S => S.gr n) = some e) : o.r n = e.val0 (C := XC) par := by
  obtain ⟨S, hS, hi⟩ := h
  rw [hS] at he
  exact hi.r n e he
theorem Known.pm (h : Known P par o) {n : Nat} {e : Exp .r} (he : (P.sym.bind fun S => S.gpm n) = some e) : (o.pr n).m = e.val0 (C := XC) par := by
  obtain ⟨S, hS, hi⟩ := h
  rw [hS] at he
  exact hi.pm n e he
theorem Known.pw (h : Known P par o) {n : Nat} {e : Exp .r} (he : (P.sym.bind fun S => S.gpw n) = some e) : (o.pr n).w = e.val0 (C := XC) par := by
  obtain ⟨S, hS, hi⟩ := h
  rw [hS] at he
  exact hi.pw n e he
theorem Known.mass (h : Known P par o) {n : Nat} {e : Exp .r} (he : (P.sym.bind fun S => S.gm n) = some e) : (o.w.part n).kin.m = e.val0 (C := XC) par := by
  obtain ⟨S, hS, hi⟩ := h
  rw [hS] at he
  exact hi.mass n e he

theorem setMomentum_step {w : World XR XC} {k : Nat} (hw : PartsOk (· < k) (kin4 p m) w) (hm : (w.part k).kin.m = fin (m k)) (hs : OnShell (p k) (m k)) :
    ∃ w', onPart k (Particle.setMomentum (p k).toX) w = (.ok (), w') ∧ PartsOk (· < k + 1) (kin4 p m) w' ∧ (∀ i, (w'.part i).kin.m = (w.part i).kin.m) ∧ w'.sp = w.sp := by
  let k0 : Kin XR XC := kin4 p m k
  obtain ⟨h1, h2, h3⟩ := setMom_ok (C := XC) (k0 := k0) ((accepts_iff k0 k0 _ _).2 (ctorPM_onShell k0 hs)) hm
  refine ⟨(onPart k (Particle.setMomentum (p k).toX) w).2, Prod.ext h1 rfl, fun i hi => ?_, fun i => ?_, rfl⟩
  · rw [onPart_part]
    split_ifs with he
    · subst he
      exact ⟨h2, h3.trans (settle_fin _ _ _ rfl rfl hs.mag_le)⟩
    · exact hw i (by show i < k; have : i < k + 1 := hi; omega)
  · rw [onPart_part]
    split_ifs with he
    · subst he; exact setMom_mass _ _
    · rfl

/-- the four calls of `set_momentum` -/
theorem setMomenta_ok (hm : ∀ i, i < 4 → (o.w.part i).kin.m = fin (m i)) (hs : ∀ i, i < 4 → OnShell (p i) (m i)) :
    ∃ w, onWorld (setMomenta fun i => (p i).toX) o = (.ok (), { o with w := w }) ∧ PartsOk (· < 4) (kin4 p m) w ∧ (∀ i, (w.part i).kin.m = (o.w.part i).kin.m) ∧ w.sp = o.w.sp := by
  obtain ⟨w1, e1, f1, g1, k1⟩ := setMomentum_step (p := p) (m := m) (w := o.w) (k := 0) (fun i hi => absurd hi (Nat.not_lt_zero i)) (hm 0 (by omega)) (hs 0 (by omega))
  obtain ⟨w2, e2, f2, g2, k2⟩ := setMomentum_step f1 ((g1 1).trans (hm 1 (by omega))) (hs 1 (by omega))
  obtain ⟨w3, e3, f3, g3, k3⟩ := setMomentum_step f2 ((g2 2).trans ((g1 2).trans (hm 2 (by omega)))) (hs 2 (by omega))
  obtain ⟨w4, e4, f4, g4, k4⟩ := setMomentum_step f3 ((g3 3).trans ((g2 3).trans ((g1 3).trans (hm 3 (by omega))))) (hs 3 (by omega))
  refine ⟨w4, ?_, f4, fun i => (g4 i).trans ((g3 i).trans ((g2 i).trans (g1 i))), k4.trans (k3.trans (k2.trans k1))⟩
  have : setMomenta (fun i => (p i).toX) o.w = (.ok (), w4) := by
    unfold setMomenta
    rw [Prog.bind_ok e1, Prog.bind_ok e2, Prog.bind_ok e3, e4]
  unfold onWorld
  rw [this]

theorem onWorld_reads {α : Type} {f : Prog (World XR XC) α} {x : α} (h : Reads (kin4 p m) f x) (ho : PartsOk (· < 4) (kin4 p m) o.w) :
    ∃ w, onWorld f o = (.ok x, { o with w := w }) ∧ PartsOk (· < 4) (kin4 p m) w ∧ WExt o.w w := by
  obtain ⟨w, e, x⟩ := h o.w ho
  refine ⟨w, ?_, ho.ext x.1, x⟩
  unfold onWorld
  rw [e]

theorem abs2_fin (z : ℂ) : (abs2 (ofC z) : XR) = fin (‖z‖ ^ 2) := by
  unfold abs2
  rw [c_abs, pow_fin]

omit [FPEnv] in
theorem poleDist_real (m : ℝ) (q : V4 ℝ) : poleDist m 0 q = ((msq q - m ^ 2 : ℝ) : ℂ) := by
  apply Complex.ext
  · exact (Complex.ofReal_re _).symm
  · rw [Complex.ofReal_im]; show -(m * 0) = 0; simp

theorem get_bind {σ α : Type} (f : σ → Prog σ α) (s : σ) : (Prog.get >>= f) s = f s s := rfl
theorem modify_bind {σ α : Type} (g : σ → σ) (f : Unit → Prog σ α) (s : σ) : (Prog.modify g >>= f) s = f () (g s) := rfl

/-- `2*i-1` -/
def sj (i : Bool) : Int := if i then 1 else -1

theorem isSpin_sj (i : Bool) : IsSpin (sj i) := by cases i <;> simp [sj, IsSpin]

theorem fits_spin {i : Nat} (hi : i < 4) (h : m i ≠ 0) (b : Br) (j : Bool) : (⟨i, b, sp j⟩ : End).Fits m := ⟨hi, isSpin_sj j, h⟩
theorem fits_none {i : Nat} (hi : i < 4) (h : m i = 0) (b : Br) : (⟨i, b, none⟩ : End).Fits m := ⟨hi, h⟩

/-- The value is that of the sproduct with the same factors. -/
theorem zchain_times {d : SPDef} {jL jR : Int} {a b : End} {ms : List (Bool × Nat)} (ha : a.i = d.left ∧ a.b = kindL d.leftAngle ∧ d.leftUpper = true ∧ (a.j = some jL ∨ m d.left = 0))
    (hb : b.i = d.right ∧ b.b = kindR d.leftAngle d.mids.length ∧ d.rightUpper = true ∧ (b.j = some jR ∨ m d.right = 0)) (hms : ∀ v, midsVal p ms v = v ᵥ* slashProd p d.leftAngle d.mids) :
    zchain p m d jL jR = timesVal p m a ms b := by
  obtain ⟨a1, a2, a3, a4⟩ := ha
  obtain ⟨b1, b2, b3, b4⟩ := hb
  unfold zchain timesVal End.val
  rw [hms, a1, a2, a3, b1, b2, b3]
  have e : ∀ (q : V4 ℝ) (M : ℝ) (br : Br) (j : Option Int) (k : Int), (j = some k ∨ M = 0) → zend q M br true k = zend q M br true (j.getD 1) := by
    intro q M br j k h
    rcases h with rfl | rfl
    · rfl
    · simp [zend]
  rw [e _ _ _ a.j jL a4, e _ _ _ b.j jR b4]

theorem mids_nil (l : Bool) (v : V2) : midsVal p [] v = v ᵥ* slashProd p l [] := by simp [midsVal, slashProd]
theorem mids_one (l : Bool) (i : Nat) (v : V2) : midsVal p [(l, i)] v = v ᵥ* slashProd p l [i] := by simp [midsVal, slashProd]
theorem mids_two (l : Bool) (i k : Nat) (v : V2) : midsVal p [(l, i), (!l, k)] v = v ᵥ* slashProd p l [i, k] := by cases l <;> simp [midsVal, slashProd]

theorem angle_reads {i k : Nat} (hi : i < 4) (hk : k < 4) (h : m i ≠ 0) (h' : m k ≠ 0) (a b : Bool) :
    Reads (kin4 p m) (angle (R := XR) (C := XC) i k a b) (ofC (zchain p m ⟨true, i, true, [], k, true⟩ (sj a) (sj b))) := by
  rw [zchain_times (jL := sj a) (jR := sj b) (a := ⟨i, .langle, sp a⟩) (b := ⟨k, .rangle, sp b⟩) (ms := []) ⟨rfl, rfl, rfl, .inl rfl⟩ ⟨rfl, rfl, rfl, .inl rfl⟩ (mids_nil _)]
  exact times_reads (fits_spin hi h _ a) (fits_spin hk h' _ b) (by simp)
theorem square_reads {i k : Nat} (hi : i < 4) (hk : k < 4) (h : m i ≠ 0) (h' : m k ≠ 0) (a b : Bool) :
    Reads (kin4 p m) (square (R := XR) (C := XC) i k a b) (ofC (zchain p m ⟨false, i, true, [], k, true⟩ (sj a) (sj b))) := by
  rw [zchain_times (jL := sj a) (jR := sj b) (a := ⟨i, .lsquare, sp a⟩) (b := ⟨k, .rsquare, sp b⟩) (ms := []) ⟨rfl, rfl, rfl, .inl rfl⟩ ⟨rfl, rfl, rfl, .inl rfl⟩ (mids_nil _)]
  exact times_reads (fits_spin hi h _ a) (fits_spin hk h' _ b) (by simp)

theorem chain_reads {d : SPDef} {jL jR : Int} {a b : End} {ms : List (Bool × Nat)} (fa : a.Fits m) (fb : b.Fits m) (hm : ∀ x ∈ ms, x.2 < 4)
    (ha : a.i = d.left ∧ a.b = kindL d.leftAngle ∧ d.leftUpper = true ∧ (a.j = some jL ∨ m d.left = 0))
    (hb : b.i = d.right ∧ b.b = kindR d.leftAngle d.mids.length ∧ d.rightUpper = true ∧ (b.j = some jR ∨ m d.right = 0)) (hms : ∀ v, midsVal p ms v = v ᵥ* slashProd p d.leftAngle d.mids) :
    Reads (kin4 p m) (times (R := XR) (C := XC) a ms b) (ofC (zchain p m d jL jR)) := by
  rw [zchain_times ha hb hms]
  exact times_reads fa fb hm

end
end Spinas.SM.Direct
