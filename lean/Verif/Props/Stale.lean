import Verif.SM.DirectStale
import Verif.Props.Direct
import Verif.Props.Exchange

/-! C85: `amp2()` after `amp2(mom1, mom2, mom3, mom4)` (exact arithmetic). -/

namespace Spinas.Props
open SM Spec XR Matrix

section
variable [FPEnv]

namespace Stale
variable {ρ : Nat → ℝ} {p : Nat → V4 ℝ} {par : Nat → XR} {o : Obj XR XC}

theorem four {Q : Nat → Prop} (h0 : Q 0) (h1 : Q 1) (h2 : Q 2) (h3 : Q 3) : ∀ i, i < 4 → Q i := by
  intro i hi
  have : i = 0 ∨ i = 1 ∨ i = 2 ∨ i = 3 := by omega
  rcases this with rfl | rfl | rfl | rfl <;> assumption

/-- no product of the class has a momentum inside -/
def noMids (P : Proc) : Bool := match P.sym with
  | some S => S.sp.all fun d => match d with
    | some d => d.mids.isEmpty
    | none => true
  | none => true

theorem noMids_sound {P : Proc} (h : noMids P = true) {S : SM.Sym} (hS : P.sym = some S) (a : Nat) (d : SPDef) (hd : S.gsp a = some d) : d.mids = [] := by
  unfold noMids at h
  rw [hS] at h
  have hm : some d ∈ S.sp := by
    unfold SM.Sym.gsp at hd
    by_cases ha : a < S.sp.length
    · simp only [List.getD, List.getElem?_eq_getElem ha, Option.getD_some] at hd
      rw [← hd]; exact List.getElem_mem ha
    · simp [List.getD, show S.sp.length ≤ a by omega] at hd
  simpa using List.all_eq_true.mp h _ hm

theorem massless_den {g : Propag XR} (hm : g.m = fin 0) (hw : g.w = fin 0) (p : Nat → V4 ℝ) (v : VExp) : (Propag.denominator g (v.eval fun i => (p i).toX) : XC) = ofC ((msq (v.sum p) : ℝ) : ℂ) := by
  rw [VExp.eval_sum, denominator_fin hm hw]
  congr 1
  apply Complex.ext <;> simp [poleDist]

/-- what the overload of eemmQED leaves behind -/
theorem eemmQED_state (hm : ∀ i, i < 4 → (o.w.part i).kin.m = fin (Cls.eemmQED.massNum ρ i)) (hz : ∀ i, i < 4 → Cls.eemmQED.massNum ρ i ≠ 0) (hs : ∀ i, i < 4 → OnShell (p i) (Cls.eemmQED.massNum ρ i)) :
    ∃ w, (Direct.eemmQED.amp2 (C := XC) (fun i => (p i).toX) o).2 = { o with w := w } ∧ PartsOk (· < 4) (Direct.kin4 p (Cls.eemmQED.massNum ρ)) w ∧ w.sp = o.w.sp := by
  obtain ⟨w, e1, f1, -, s1⟩ := Direct.setMomenta_ok hm hs
  obtain ⟨w', e2, f2, x2⟩ := Direct.onWorld_reads (o := { o with w := w }) (Direct.puts_reads Direct.eemmQED.products (Direct.eemmQED.products_reads hz) fun _ _ _ => czero) f1
  refine ⟨w', ?_, f2, x2.2.trans s1⟩
  unfold Direct.eemmQED.amp2
  rw [Prog.bind_ok e1, Direct.get_bind]
  dsimp only
  rw [Prog.bind_ok e2]
  rfl

/-- what the overload of eeeeQED leaves behind -/
theorem eeeeQED_state (hm : ∀ i, i < 4 → (o.w.part i).kin.m = fin (Cls.eeeeQED.massNum ρ i)) (hz : ∀ i, i < 4 → Cls.eeeeQED.massNum ρ i ≠ 0) (hs : ∀ i, i < 4 → OnShell (p i) (Cls.eeeeQED.massNum ρ i)) :
    ∃ w, (Direct.eeeeQED.amp2 (C := XC) (fun i => (p i).toX) o).2 = { ((({ o with w := w } : Obj XR XC).setDen 0 0 ((VExp.add 0 1).eval fun i => (p i).toX) .c).setDen 1 0 ((VExp.sub 0 2).eval fun i => (p i).toX) .c) with w := w } ∧
      PartsOk (· < 4) (Direct.kin4 p (Cls.eeeeQED.massNum ρ)) w ∧ w.sp = o.w.sp := by
  obtain ⟨w, e1, f1, -, s1⟩ := Direct.setMomenta_ok hm hs
  obtain ⟨w', e2, f2, x2⟩ := Direct.onWorld_reads (o := ((({ o with w := w } : Obj XR XC).setDen 0 0 ((VExp.add 0 1).eval fun i => (p i).toX) .c).setDen 1 0 ((VExp.sub 0 2).eval fun i => (p i).toX) .c))
    (Direct.puts_reads Direct.eeeeQED.products (Direct.eeeeQED.products_reads hz) fun _ _ _ => czero) f1
  refine ⟨w', ?_, f2, x2.2.trans s1⟩
  unfold Direct.eeeeQED.amp2
  rw [Prog.bind_ok e1, Direct.modify_bind, Direct.modify_bind, Prog.bind_ok e2, Direct.get_bind]
  rfl

/-- the denominator is a common factor of the amplitudes of eemmQED -/
theorem eemmQED_factor (N : Env) (c : Nat → ℂ) {s s' : ℝ} (hs : s ≠ 0) (hs' : s' ≠ 0) (h : N.c 0 = (s' : ℂ)) (hc : c 0 = (s : ℂ)) :
    meaning { N with c := c } .r Cls.eemmQED.methods Cls.eemmQED.amp2 [] = meaning N .r Cls.eemmQED.methods Cls.eemmQED.amp2 [] * (s' / s) ^ 2 := by
  have hamp : ∀ a b d e, ‖Rows.eemmQED.amp { N with c := c } a b d e‖ ^ 2 = ‖Rows.eemmQED.amp N a b d e‖ ^ 2 * (s' / s) ^ 2 := by
    intro a b d e
    unfold Rows.eemmQED.amp
    dsimp only
    rw [h, hc, norm_div, norm_div, Complex.norm_real, Complex.norm_real, div_pow, div_pow, Real.norm_eq_abs, Real.norm_eq_abs, sq_abs, sq_abs]
    field_simp
  rw [Rows.eemmQED.value, Rows.eemmQED.value]
  simp only [hamp, sumJ]
  ring

end Stale

/-- `set_momenta(p)`, then `amp2(p')`, which returns `x` as it should; then `amp2()` returns `y`. -/
def ThenReturns (P : Proc) (direct : (Nat → V4 XR) → Prog (Obj XR XC) XR) (o : Obj XR XC) (p p' : Nat → V4 ℝ) (x y : ℝ) : Prop :=
  ∀ (j : Kin XR XC) (l : Loc XR XC), (P.runSetMomenta j (fun i => (p i).toX) o).1 = .ok () ∧ (direct (fun i => (p' i).toX) (P.runSetMomenta j (fun i => (p i).toX) o).2).1 = .ok (fin x) ∧
    (P.method l .r P.amp2 [] (direct (fun i => (p' i).toX) (P.runSetMomenta j (fun i => (p i).toX) o).2).2).1 = .ok (fin y)

/-- In eemmQED `amp2()` then mixes the new spinors with the old denominator: its value belongs to neither set of momenta. -/
theorem C85_eemmQED (mem : Nat → XR) (junk : Kin XR XC) (par : Nat → XR) (ops : List (Direct.Call XR XC)) {e me mm : ℝ} (h0 : parAfter Cls.eemmQED.massPar (Direct.others ops) par 0 = fin e) (h1 : parAfter Cls.eemmQED.massPar (Direct.others ops) par 1 = fin me)
    (h2 : parAfter Cls.eemmQED.massPar (Direct.others ops) par 2 = fin mm) (he : me ≠ 0) (hmm : mm ≠ 0) {p p' : Nat → V4 ℝ} (hp : ∀ i : Fin 4, OnShell (p i) (![me, me, mm, mm] i)) (hp' : ∀ i : Fin 4, OnShell (p' i) (![me, me, mm, mm] i))
    (hS : mandelstamS p ≠ 0) (hS' : mandelstamS p' ≠ 0) {o : Obj XR XC} (ho : o = Direct.run Cls.eemmQED Direct.eemmQED.amp2 ops (Cls.eemmQED.construct mem junk par).2) :
    ∃ x, BothReturn Cls.eemmQED Direct.eemmQED.amp2 o p' x ∧ ThenReturns Cls.eemmQED Direct.eemmQED.amp2 o p p' x (x * (mandelstamS p' / mandelstamS p) ^ 2) := by
  let ρ : Nat → ℝ := fun n => if n = 0 then e else if n = 1 then me else mm
  have hpar : ∀ n ∈ [0, 1, 2], parAfter Cls.eemmQED.massPar (Direct.others ops) par n = fin (ρ n) := by simpa [ρ] using ⟨h0, h1, h2⟩
  have hs : ∀ {q : Nat → V4 ℝ}, (∀ i : Fin 4, OnShell (q i) (![me, me, mm, mm] i)) → ∀ i, i < 4 → OnShell (q i) (Cls.eemmQED.massNum ρ i) := fun h => Stale.four (h 0) (h 1) (h 2) (h 3)
  have hz : ∀ i, i < 4 → Cls.eemmQED.massNum ρ i ≠ 0 := Stale.four he he hmm hmm
  have hx : (Cls.eemmQED, Direct.eemmQED.amp2) ∈ Direct.overloads (R := XR) (C := XC) := by simp [Direct.overloads]
  obtain ⟨y, _, hy⟩ := C84_eemmQED mem junk par ops h0 h1 h2 he hmm (hp 0) (hp 1) (hp 2) (hp 3) hS
  obtain ⟨x, hxr⟩ := C84_eemmQED mem junk par ops h0 h1 h2 he hmm (hp' 0) (hp' 1) (hp' 2) (hp' 3) hS'
  rw [← ho] at hy hxr
  have hk : Direct.Known Cls.eemmQED (parAfter Cls.eemmQED.massPar (Direct.others ops) par) o := ho ▸ known_run hx mem junk par ops
  have hval : x = meaning (Cls.eemmQED.env ρ p') .r Cls.eemmQED.methods Cls.eemmQED.amp2 [] := by
    have := hxr.1.symm.trans (Direct.eemmQED.result hk hpar hz (hs hp') hS')
    simpa using this
  refine ⟨x, hxr, fun j l => ⟨(hy j [] l).1, ?_⟩⟩
  have hacc := (hy j [] l).1
  obtain ⟨S, hS0, hc⟩ := fresh_check (P := Cls.eemmQED) (by simp [all])
  have hk0 := hk
  obtain ⟨S', hS1, hi⟩ := hk
  obtain rfl : S' = S := by rw [hS0] at hS1; cases hS1; rfl
  have bnd : ∀ {α : Type} (g : Sym → Option α), (Cls.eemmQED.sym.bind g) = g S' := by intro α g; rw [hS0]; rfl
  have hmass : ∀ {o : Obj XR XC}, SM.Inv S' (parAfter Cls.eemmQED.massPar (Direct.others ops) par) o → ∀ i, i < 4 → (o.w.part i).kin.m = fin (Cls.eemmQED.massNum ρ i) := by
    intro o hi
    have hk : Direct.Known Cls.eemmQED _ o := ⟨S', hS0, hi⟩
    exact Stale.four ((hk.mass (e := .loc .r 1) (by rfl)).trans h1) ((hk.mass (e := .loc .r 1) (by rfl)).trans h1) ((hk.mass (e := .loc .r 2) (by rfl)).trans h2) ((hk.mass (e := .loc .r 2) (by rfl)).trans h2)
  have hinv : SM.Inv S' (parAfter Cls.eemmQED.massPar (Direct.others ops) par) (Cls.eemmQED.runSetMomenta j (fun i => (p i).toX) o).2 := by
    rcases (setMomenta_sound (checkAll_parts hc).2.1 hi hi j j j (fun i => (p i).toX) _ (hmass hi)).2 with ⟨_, e, _⟩ | ⟨_, _, _, r, c, u, _, ha⟩
    · rw [hacc] at e; cases e
    · exact ha.inv
  have hk1 : Direct.Known Cls.eemmQED _ _ := ⟨S', hS0, hinv⟩
  refine ⟨(Direct.eemmQED.result hk1 hpar hz (hs hp') hS').trans (by rw [hval]), ?_⟩
  obtain ⟨w, ew, fw, sw⟩ := Stale.eemmQED_state (hmass hinv) hz (hs hp')
  have hc0 : (Cls.eemmQED.runSetMomenta j (fun i => (p i).toX) o).2.c 0 = ofC ((mandelstamS p : ℝ) : ℂ) := by
    have := denC_sound j (fun _ => int 0) (fun i => (p i).toX) 0 Cls.eemmQED.setMomenta none o (by decide +kernel) (by simp) hacc 0 (.add 0 1) (by rfl)
    exact this.trans (Stale.massless_den ((hk0.pm (e := .lit 0) (by rfl)).trans (by simp [Exp.val0, Exp.val])) ((hk0.pw (e := .lit 0) (by rfl)).trans (by simp [Exp.val0, Exp.val])) p (.add 0 1))
  rw [hval, ← Stale.eemmQED_factor (Cls.eemmQED.env ρ p') (fun _ => ((mandelstamS p : ℝ) : ℂ)) hS hS' ?_ rfl]
  · have hkeep := Direct.keeps_overload (S := S') (par := parAfter Cls.eemmQED.massPar (Direct.others ops) par) hx (fun i => (p' i).toX) _ hinv
    refine Direct.stale_meaning hc (by decide +kernel) (fun a d had => ?_) (by decide +kernel) hi hkeep (m := Cls.eemmQED.massNum ρ) (hmass hi) (fun i hlt _ => ?_) (hs hp') j hacc (by rw [ew]; exact sw) (by rw [ew]; exact fw) l ⟨fun n hn => ?_, fun n hn => ?_, fun n hn => ?_, fun n hn => ?_⟩ ?_
    · exact Stale.noMids_sound (P := Cls.eemmQED) (by decide +kernel) hS0 a d had
    · rw [hmass hi i hlt]
      simpa [Scalar.ne] using hz i hlt
    · have hd : Cls.eemmQED.reads = [(Ty.r, 0), (Ty.c, 0)] := by decide +kernel
      simp [hd] at hn
      subst hn
      rw [ew]
      exact (hk1.r (e := .loc .r 0) (by rfl)).trans h0
    · have hd : Cls.eemmQED.reads = [(Ty.r, 0), (Ty.c, 0)] := by decide +kernel
      simp [hd] at hn
      subst hn
      rw [ew]
      exact hc0
    · have hd : Cls.eemmQED.divides = [(Ty.c, 0)] := by decide +kernel
      simp [hd] at hn
    · simpa using hS
    · show braTab (fun a => Cls.eemmQED.sym.bind fun S => S.gsp a) p' (Cls.eemmQED.massNum ρ) = _
      congr 1
      funext a
      exact bnd _
  · show poleDist ((0 : Nat) : ℝ) ((0 : Nat) : ℝ) ((VExp.add 0 1).sum p') = _
    rw [Nat.cast_zero, Direct.poleDist_real]
    norm_num
    rfl

/-- In eeeeQED the overload assigns the denominators too, so `amp2()` then returns the value for the new momenta. -/
theorem C85_eeeeQED (mem : Nat → XR) (junk : Kin XR XC) (par : Nat → XR) (ops : List (Direct.Call XR XC)) {e me : ℝ} (h0 : parAfter Cls.eeeeQED.massPar (Direct.others ops) par 0 = fin e) (h1 : parAfter Cls.eeeeQED.massPar (Direct.others ops) par 1 = fin me)
    (he : me ≠ 0) {p p' : Nat → V4 ℝ} (hp : ∀ i, i < 4 → OnShell (p i) me) (hp' : ∀ i, i < 4 → OnShell (p' i) me)
    (hS : mandelstamS p ≠ 0) (hT : mandelstamT p ≠ 0) (hS' : mandelstamS p' ≠ 0) (hT' : mandelstamT p' ≠ 0) {o : Obj XR XC} (ho : o = Direct.run Cls.eeeeQED Direct.eeeeQED.amp2 ops (Cls.eeeeQED.construct mem junk par).2) :
    ∃ x, BothReturn Cls.eeeeQED Direct.eeeeQED.amp2 o p' x ∧ ThenReturns Cls.eeeeQED Direct.eeeeQED.amp2 o p p' x x := by
  let ρ : Nat → ℝ := fun n => if n = 0 then e else me
  have hpar : ∀ n ∈ [0, 1], parAfter Cls.eeeeQED.massPar (Direct.others ops) par n = fin (ρ n) := by simpa [ρ] using ⟨h0, h1⟩
  have hs : ∀ {q : Nat → V4 ℝ}, (∀ i, i < 4 → OnShell (q i) me) → ∀ i, i < 4 → OnShell (q i) (Cls.eeeeQED.massNum ρ i) := fun h => Stale.four (h 0 (by omega)) (h 1 (by omega)) (h 2 (by omega)) (h 3 (by omega))
  have hz : ∀ i, i < 4 → Cls.eeeeQED.massNum ρ i ≠ 0 := Stale.four he he he he
  have hx : (Cls.eeeeQED, Direct.eeeeQED.amp2) ∈ Direct.overloads (R := XR) (C := XC) := by simp [Direct.overloads]
  obtain ⟨y, _, hy⟩ := C84_eeeeQED mem junk par ops h0 h1 he hp hS hT
  obtain ⟨x, hxr⟩ := C84_eeeeQED mem junk par ops h0 h1 he hp' hS' hT'
  rw [← ho] at hy hxr
  have hk : Direct.Known Cls.eeeeQED (parAfter Cls.eeeeQED.massPar (Direct.others ops) par) o := ho ▸ known_run hx mem junk par ops
  have hval : x = meaning (Cls.eeeeQED.env ρ p') .r Cls.eeeeQED.methods Cls.eeeeQED.amp2 [] := by
    have := hxr.1.symm.trans (Direct.eeeeQED.result hk hpar hz (hs hp') hS' hT')
    simpa using this
  refine ⟨x, hxr, fun j l => ⟨(hy j [] l).1, ?_⟩⟩
  have hacc := (hy j [] l).1
  obtain ⟨S, hS0, hc⟩ := fresh_check (P := Cls.eeeeQED) (by simp [all])
  have hk0 := hk
  obtain ⟨S', hS1, hi⟩ := hk
  obtain rfl : S' = S := by rw [hS0] at hS1; cases hS1; rfl
  have bnd : ∀ {α : Type} (g : Sym → Option α), (Cls.eeeeQED.sym.bind g) = g S' := by intro α g; rw [hS0]; rfl
  have hmass : ∀ {o : Obj XR XC}, SM.Inv S' (parAfter Cls.eeeeQED.massPar (Direct.others ops) par) o → ∀ i, i < 4 → (o.w.part i).kin.m = fin (Cls.eeeeQED.massNum ρ i) := by
    intro o hi
    have hk : Direct.Known Cls.eeeeQED _ o := ⟨S', hS0, hi⟩
    exact Stale.four ((hk.mass (e := .loc .r 1) (by rfl)).trans h1) ((hk.mass (e := .loc .r 1) (by rfl)).trans h1) ((hk.mass (e := .loc .r 1) (by rfl)).trans h1) ((hk.mass (e := .loc .r 1) (by rfl)).trans h1)
  have hinv : SM.Inv S' (parAfter Cls.eeeeQED.massPar (Direct.others ops) par) (Cls.eeeeQED.runSetMomenta j (fun i => (p i).toX) o).2 := by
    rcases (setMomenta_sound (checkAll_parts hc).2.1 hi hi j j j (fun i => (p i).toX) _ (hmass hi)).2 with ⟨_, e, _⟩ | ⟨_, _, _, r, c, u, _, ha⟩
    · rw [hacc] at e; cases e
    · exact ha.inv
  have hk1 : Direct.Known Cls.eeeeQED _ _ := ⟨S', hS0, hinv⟩
  refine ⟨(Direct.eeeeQED.result hk1 hpar hz (hs hp') hS' hT').trans (by rw [hval]), ?_⟩
  obtain ⟨w, ew, fw, sw⟩ := Stale.eeeeQED_state (hmass hinv) hz (hs hp')
  have hd : Cls.eeeeQED.divides.all (fun x => decide (x = (Ty.c, 0) ∨ x = (Ty.c, 1))) = true := by decide +kernel
  have hr : Cls.eeeeQED.reads = [(Ty.r, 0), (Ty.c, 0), (Ty.c, 1)] := by decide +kernel
  have g0 : (Cls.eeeeQED.env ρ p').c 0 = ((mandelstamS p' : ℝ) : ℂ) := by
    show poleDist ((0 : Nat) : ℝ) ((0 : Nat) : ℝ) ((VExp.add 0 1).sum p') = _
    rw [Nat.cast_zero, Direct.poleDist_real]
    norm_num
    rfl
  have g1 : (Cls.eeeeQED.env ρ p').c 1 = ((mandelstamT p' : ℝ) : ℂ) := by
    show poleDist ((0 : Nat) : ℝ) ((0 : Nat) : ℝ) ((VExp.sub 0 2).sum p') = _
    rw [Nat.cast_zero, Direct.poleDist_real]
    norm_num
    rfl
  have den := fun v => Stale.massless_den ((hk1.pm (n := 0) (e := .lit 0) (by rfl)).trans (by simp [Exp.val0, Exp.val])) ((hk1.pw (n := 0) (e := .lit 0) (by rfl)).trans (by simp [Exp.val0, Exp.val])) p' v
  have hkeep := Direct.keeps_overload (S := S') (par := parAfter Cls.eeeeQED.massPar (Direct.others ops) par) hx (fun i => (p' i).toX) _ hinv
  rw [hval]
  refine Direct.stale_meaning hc (by decide +kernel) (fun a d had => ?_) (by decide +kernel) hi hkeep (m := Cls.eeeeQED.massNum ρ) (hmass hi) (fun i hlt _ => ?_) (hs hp') j hacc (by rw [ew]; exact sw) (by rw [ew]; exact fw) l ⟨fun n hn => ?_, fun n hn => ?_, fun n hn => ?_, fun n hn => ?_⟩ ?_
  · exact Stale.noMids_sound (P := Cls.eeeeQED) (by decide +kernel) hS0 a d had
  · rw [hmass hi i hlt]
    simpa [Scalar.ne] using hz i hlt
  · simp [hr] at hn
    subst hn
    rw [ew]
    exact (hk1.r (e := .loc .r 0) (by rfl)).trans h0
  · simp [hr] at hn
    rw [ew]
    rcases hn with rfl | rfl
    · rw [g0]; exact den (.add 0 1)
    · rw [g1]; exact den (.sub 0 2)
  · simpa using List.all_eq_true.mp hd _ hn
  · have := List.all_eq_true.mp hd _ hn
    simp at this
    rcases this with rfl | rfl
    · rw [g0]; exact_mod_cast hS'
    · rw [g1]; exact_mod_cast hT'
  · show braTab (fun a => Cls.eeeeQED.sym.bind fun S => S.gsp a) p' (Cls.eeeeQED.massNum ρ) = _
    congr 1
    funext a
    exact bnd _

/-- Two particles of mass 12 with the energy `E` and the momenta `±k` along the z axis become two along the x axis. -/
def turning (E k : ℝ) (i : Nat) : V4 ℝ := match i with
  | 0 => ⟨E, 0, 0, k⟩
  | 1 => ⟨E, 0, 0, -k⟩
  | 2 => ⟨E, k, 0, 0⟩
  | _ => ⟨E, -k, 0, 0⟩

/-- The mixed value is wrong for both sets of momenta, with charge `e` and masses 12. -/
theorem C85_neither (mem : Nat → XR) (junk : Kin XR XC) {e : ℝ} (he : e ≠ 0) {o : Obj XR XC} (ho : o = (Cls.eemmQED.construct mem junk fun n => if n = 0 then fin e else fin 12).2) :
    ∃ x y z, BothReturn Cls.eemmQED Direct.eemmQED.amp2 o (turning 13 5) x ∧ BothReturn Cls.eemmQED Direct.eemmQED.amp2 o (turning 15 9) y ∧
      ThenReturns Cls.eemmQED Direct.eemmQED.amp2 o (turning 13 5) (turning 15 9) y z ∧ z ≠ x ∧ z ≠ y := by
  have shell : ∀ {E k : ℝ}, 0 ≤ E → E ^ 2 = k ^ 2 + 144 → ∀ i : Fin 4, OnShell (turning E k i) (![12, 12, 12, 12] i) := by
    intro E k h0 h i
    fin_cases i <;> refine ⟨?_, ?_⟩ <;> simp [turning] <;> first | exact h0 | nlinarith
  have bal : ∀ E k : ℝ, Spec.Balanced (turning E k) := fun E k => ⟨by simp [turning], by simp [turning], by simp [turning], by simp [turning]⟩
  have s1 := shell (E := 13) (k := 5) (by norm_num) (by norm_num)
  have s2 := shell (E := 15) (k := 9) (by norm_num) (by norm_num)
  have m1 : mandelstamS (turning 13 5) = 676 := by norm_num [mandelstamS, turning, msq]
  have m2 : mandelstamS (turning 15 9) = 900 := by norm_num [mandelstamS, turning, msq]
  have n1 : mandelstamS (turning 13 5) ≠ 0 := by rw [m1]; norm_num
  have n2 : mandelstamS (turning 15 9) ≠ 0 := by rw [m2]; norm_num
  have value : ∀ {E k x : ℝ}, (∀ i : Fin 4, OnShell (turning E k i) (![12, 12, 12, 12] i)) → BothReturn Cls.eemmQED Direct.eemmQED.amp2 o (turning E k) x →
      x = e ^ 4 * throughVector 12 12 (mandelstamS (turning E k)) (mandelstamT (turning E k)) (mandelstamU (turning E k)) := by
    intro E k x hs hx
    have a := (C77_user mem junk (fun n => if n = 0 then fin e else fin 12) [] (e := e) (me := 12) (mm := 12) rfl rfl rfl (by norm_num) (by norm_num) hs (bal E k) junk [] zeroLoc.up).2
    have b := (hx.2 junk [] zeroLoc.up).2
    rw [ho] at b
    have := b.symm.trans a
    simpa using this
  have run0 : o = Direct.run Cls.eemmQED Direct.eemmQED.amp2 [] (Cls.eemmQED.construct mem junk fun n => if n = 0 then fin e else fin 12).2 := ho
  obtain ⟨x, hx⟩ := C84_eemmQED mem junk (fun n => if n = 0 then fin e else fin 12) [] (e := e) (me := 12) (mm := 12) rfl rfl rfl (by norm_num) (by norm_num) (s1 0) (s1 1) (s1 2) (s1 3) n1
  obtain ⟨y, hy, hz⟩ := C85_eemmQED mem junk (fun n => if n = 0 then fin e else fin 12) [] (e := e) (me := 12) (mm := 12) rfl rfl rfl (by norm_num) (by norm_num) s1 s2 n1 n2 run0
  rw [← run0] at hx
  have vx := value s1 hx
  have vy := value s2 hy
  refine ⟨x, y, _, hx, hy, hz, ?_, ?_⟩
  all_goals
    rw [m1, m2] at *
    have t1 : mandelstamT (turning 13 5) = -50 := by norm_num [mandelstamT, turning, msq]
    have u1 : mandelstamU (turning 13 5) = -50 := by norm_num [mandelstamU, turning, msq]
    have t2 : mandelstamT (turning 15 9) = -162 := by norm_num [mandelstamT, turning, msq]
    have u2 : mandelstamU (turning 15 9) = -162 := by norm_num [mandelstamU, turning, msq]
    rw [t1, u1] at vx
    rw [t2, u2] at vy
    have h4 : e ^ 4 ≠ 0 := pow_ne_zero 4 he
    rw [vy]
    try rw [vx]
    intro h
    rw [mul_assoc] at h
    have := mul_left_cancel₀ h4 h
    norm_num [throughVector] at this

/-- the hypotheses of `C85_eeeeQED` are met -/
example (mem : Nat → XR) (junk : Kin XR XC) : ∃ x, BothReturn Cls.eeeeQED Direct.eeeeQED.amp2 (Cls.eeeeQED.construct mem junk fun n => if n = 0 then fin (1 / 3) else fin 12).2 (turning 15 9) x ∧
    ThenReturns Cls.eeeeQED Direct.eeeeQED.amp2 (Cls.eeeeQED.construct mem junk fun n => if n = 0 then fin (1 / 3) else fin 12).2 (turning 13 5) (turning 15 9) x x := by
  have shell : ∀ {E k : ℝ}, 0 ≤ E → E ^ 2 = k ^ 2 + 144 → ∀ i, i < 4 → OnShell (turning E k i) 12 := by
    intro E k h0 h
    refine Stale.four ?_ ?_ ?_ ?_ <;> refine ⟨?_, ?_⟩ <;> simp [turning] <;> first | exact h0 | nlinarith
  exact C85_eeeeQED mem junk _ [] rfl rfl (by norm_num) (shell (by norm_num) (by norm_num)) (shell (by norm_num) (by norm_num)) (by norm_num [mandelstamS, turning, msq]) (by norm_num [mandelstamT, turning, msq])
    (by norm_num [mandelstamS, turning, msq]) (by norm_num [mandelstamT, turning, msq]) rfl

end
end Spinas.Props
