import Verif.SM.OneBosonClasses
import Verif.SM.Proc.User
import Verif.Props.Feynman
import Verif.Props.Antiparticles

/-! C77: the formulas of textbooks for four fermions and one boson exchanged, and the example for users (exact arithmetic). -/

namespace Spinas.Props
open SM Spec XR Matrix

/-! ### the example in user-dir -/

section
variable {R C : Type} [Scalar R] [HasPow R] [Cplx R C]

/-- In any arithmetic the class of user-dir/eemm.cpp does the same as `eemmQED`. -/
theorem C77_user_object (mem : Nat → R) (junk : Kin R C) (par : Nat → R) : Cls.userEemm.construct mem junk par = Cls.eemmQED.construct mem junk par := rfl

theorem C77_user_ops : ∀ (ops : List (ProcOp R C)) (o : Obj R C), runProcOps Cls.userEemm ops o = runProcOps Cls.eemmQED ops o
  | [], _ => rfl
  | .setMasses _ _ :: ops, _ => C77_user_ops ops _
  | .setMomenta _ _ :: ops, _ => C77_user_ops ops _
  | .call _ :: ops, _ => C77_user_ops ops _

theorem C77_user_calls (l : Loc R C) (t : Ty) (k : Nat) (args : List Int) (junk : Kin R C) (q : Nat → V4 R) (o : Obj R C) :
    Cls.userEemm.method l t k args o = Cls.eemmQED.method l t k args o ∧ Cls.userEemm.runSetMomenta junk q o = Cls.eemmQED.runSetMomenta junk q o := ⟨rfl, rfl⟩

theorem user_runCalls : ∀ (xs : List (MCall R C)) (o : Obj R C), runCalls Cls.userEemm xs o = runCalls Cls.eemmQED xs o
  | [], _ => rfl
  | _ :: xs, _ => user_runCalls xs _

theorem parAfter_untouched {ms : List Nat} {n : Nat} (h : n ∉ ms) : ∀ (ops : List (ProcOp R C)) (par : Nat → R), parAfter ms ops par n = par n
  | [], _ => rfl
  | .setMasses _ args :: ops, par => by
    rw [parAfter, parAfter_untouched h ops]
    simp [withMasses, List.idxOf?_eq_none_iff.mpr h]
  | .setMomenta _ _ :: ops, par => parAfter_untouched h ops par
  | .call _ :: ops, par => parAfter_untouched h ops par
end

/-! ### formulas -/

noncomputable section

/-- A class, a condition on the constants, and the formula for its squared amplitude. -/
structure Exchanged where
  row : Row
  ok : Constants → Prop
  formula : Constants → (Nat → V4 ℝ) → ℝ

/-- Classes for which textbooks have a formula. Three colours on a line with a gluon (average 2 / 9, interference -1 / 3) or a Z, and half of it for two quarks alike that leave. -/
def exchangeForms : List Exchanged :=
  [-- photons
    ⟨Rows.eemmQED, fun _ => True, fun c p => c.e ^ 4 * throughVector (c.mass .e) (c.mass .mu) (mandelstamS p) (mandelstamT p) (mandelstamU p)⟩,
    ⟨Rows.eeeeQED, fun _ => True, fun c p => c.e ^ 4 * bhabha 1 (c.mass .e) (mandelstamS p) (mandelstamT p) (mandelstamU p)⟩,
    -- gluons, if the quarks have no electric charge: different quarks
    ⟨Rows.ddss, fun c => c.e = 0, fun c p => 2 / 9 * c.gs ^ 4 * throughVector (c.mass .d) (c.mass .s) (mandelstamS p) (mandelstamT p) (mandelstamU p)⟩,
    ⟨Rows.uucc, fun c => c.e = 0, fun c p => 2 / 9 * c.gs ^ 4 * throughVector (c.mass .u) (c.mass .c) (mandelstamS p) (mandelstamT p) (mandelstamU p)⟩,
    ⟨Rows.uuss, fun c => c.e = 0, fun c p => 2 / 9 * c.gs ^ 4 * throughVector (c.mass .u) (c.mass .s) (mandelstamS p) (mandelstamT p) (mandelstamU p)⟩,
    ⟨Rows.uudd, fun c => c.e = 0, fun c p => 2 / 9 * c.gs ^ 4 * throughVector (c.mass .u) (c.mass .d) (mandelstamS p) (mandelstamT p) (mandelstamU p)⟩,
    ⟨Rows.dsds, fun c => c.e = 0, fun c p => 2 / 9 * c.gs ^ 4 * throughVector (c.mass .d) (c.mass .s) (mandelstamT p) (mandelstamS p) (mandelstamU p)⟩,
    ⟨Rows.ucuc, fun c => c.e = 0, fun c p => 2 / 9 * c.gs ^ 4 * throughVector (c.mass .u) (c.mass .c) (mandelstamT p) (mandelstamS p) (mandelstamU p)⟩,
    ⟨Rows.usus, fun c => c.e = 0, fun c p => 2 / 9 * c.gs ^ 4 * throughVector (c.mass .u) (c.mass .s) (mandelstamT p) (mandelstamS p) (mandelstamU p)⟩,
    ⟨Rows.udud, fun c => c.e = 0, fun c p => 2 / 9 * c.gs ^ 4 * throughVector (c.mass .u) (c.mass .d) (mandelstamT p) (mandelstamS p) (mandelstamU p)⟩,
    -- and the same quark
    ⟨Rows.dddd, fun c => c.e = 0, fun c p => 2 / 9 * c.gs ^ 4 * bhabha (-1 / 3) (c.mass .d) (mandelstamS p) (mandelstamT p) (mandelstamU p)⟩,
    ⟨Rows.uuuu, fun c => c.e = 0, fun c p => 2 / 9 * c.gs ^ 4 * bhabha (-1 / 3) (c.mass .u) (mandelstamS p) (mandelstamT p) (mandelstamU p)⟩,
    ⟨Rows.dddd2, fun c => c.e = 0, fun c p => 1 / 9 * c.gs ^ 4 * moller (-1 / 3) (c.mass .d) (mandelstamS p) (mandelstamT p) (mandelstamU p)⟩,
    ⟨Rows.uuuu2, fun c => c.e = 0, fun c p => 1 / 9 * c.gs ^ 4 * moller (-1 / 3) (c.mass .u) (mandelstamS p) (mandelstamT p) (mandelstamU p)⟩,
    -- the Z and neutrinos
    ⟨Rows.eenmnm, fun _ => True, fun c p => zSquared c (mandelstamS p) / 4 * neutrinoScattering (c.gL .e) (c.gR .e) (c.mass .e) (mandelstamU p) (mandelstamS p) (mandelstamT p)⟩,
    ⟨Rows.enmenm, fun _ => True, fun c p => zSquared c (mandelstamT p) / 2 * neutrinoScattering (c.gL .e) (c.gR .e) (c.mass .e) (mandelstamS p) (mandelstamT p) (mandelstamU p)⟩,
    ⟨Rows.nenenmnm, fun _ => True, fun c p => zSquared c (mandelstamS p) * neutrinoScattering (c.gL .ne) (c.gR .ne) (c.mass .ne) (mandelstamU p) (mandelstamS p) (mandelstamT p)⟩,
    ⟨Rows.nenmnenm, fun _ => True, fun c p => zSquared c (mandelstamT p) * neutrinoScattering (c.gL .ne) (c.gR .ne) (c.mass .ne) (mandelstamS p) (mandelstamT p) (mandelstamU p)⟩,
    ⟨Rows.ddnn, fun _ => True, fun c p => zSquared c (mandelstamS p) / 12 * neutrinoScattering (c.gL .d) (c.gR .d) (c.mass .d) (mandelstamU p) (mandelstamS p) (mandelstamT p)⟩,
    ⟨Rows.uunn, fun _ => True, fun c p => zSquared c (mandelstamS p) / 12 * neutrinoScattering (c.gL .u) (c.gR .u) (c.mass .u) (mandelstamU p) (mandelstamS p) (mandelstamT p)⟩,
    ⟨Rows.dnnd, fun _ => True, fun c p => zSquared c (mandelstamU p) / 2 * neutrinoScattering (c.gL .d) (c.gR .d) (c.mass .d) (mandelstamS p) (mandelstamU p) (mandelstamT p)⟩,
    ⟨Rows.unnu, fun _ => True, fun c p => zSquared c (mandelstamU p) / 2 * neutrinoScattering (c.gL .u) (c.gR .u) (c.mass .u) (mandelstamS p) (mandelstamU p) (mandelstamT p)⟩]

variable [FPEnv]

theorem exchange_formulas : ∀ x ∈ exchangeForms, x.row.Formula x.ok x.formula := by
  unfold exchangeForms
  simp only [List.forall_mem_cons, List.not_mem_nil, false_implies, implies_true, and_true]
  refine ⟨?_, ?_, ?_, ?_, ?_, ?_, ?_, ?_, ?_, ?_, ?_, ?_, ?_, ?_, ?_, ?_, ?_, ?_, ?_, ?_, ?_, ?_⟩
  · have h := Row.photon_pair (R := Rows.eemmQED) (f := .e) (g := .mu) (by decide) (by decide) (by decide) (by decide) (by decide) rfl (by decide) (by decide) (by decide)
    intro c p u h1 h2 h3 h4 h5 h6 h7
    rw [h c p u h1 h2 h3 h4 h5 h6 h7, Flavour.charge_e, Flavour.charge_mu]
    ring
  · have h := Row.photon_bhabha (R := Rows.eeeeQED) (f := .e) (by decide) (by decide) (by decide) (by decide) (by decide) rfl (by decide)
    intro c p u h1 h2 h3 h4 h5 h6 h7
    rw [h c p u h1 h2 h3 h4 h5 h6 h7, Flavour.charge_e]
    ring
  · exact Row.gluon_pair (R := Rows.ddss) (by decide) (by decide) (by decide) (by decide) (by decide) rfl (by decide) (by decide) (by decide)
  · exact Row.gluon_pair (R := Rows.uucc) (by decide) (by decide) (by decide) (by decide) (by decide) rfl (by decide) (by decide) (by decide)
  · exact Row.gluon_pair (R := Rows.uuss) (by decide) (by decide) (by decide) (by decide) (by decide) rfl (by decide) (by decide) (by decide)
  · exact Row.gluon_pair (R := Rows.uudd) (by decide) (by decide) (by decide) (by decide) (by decide) rfl (by decide) (by decide) (by decide)
  · exact Row.gluon_scatter (R := Rows.dsds) (by decide) (by decide) (by decide) (by decide) (by decide) rfl (by decide) (by decide) (by decide)
  · exact Row.gluon_scatter (R := Rows.ucuc) (by decide) (by decide) (by decide) (by decide) (by decide) rfl (by decide) (by decide) (by decide)
  · exact Row.gluon_scatter (R := Rows.usus) (by decide) (by decide) (by decide) (by decide) (by decide) rfl (by decide) (by decide) (by decide)
  · exact Row.gluon_scatter (R := Rows.udud) (by decide) (by decide) (by decide) (by decide) (by decide) rfl (by decide) (by decide) (by decide)
  · exact Row.gluon_bhabha (R := Rows.dddd) (by decide) (by decide) (by decide) (by decide) (by decide) rfl (by decide)
  · exact Row.gluon_bhabha (R := Rows.uuuu) (by decide) (by decide) (by decide) (by decide) (by decide) rfl (by decide)
  · exact Row.gluon_moller (R := Rows.dddd2) (by decide) (by decide) (by decide) (by decide) (by decide) rfl (by decide)
  · exact Row.gluon_moller (R := Rows.uuuu2) (by decide) (by decide) (by decide) (by decide) (by decide) rfl (by decide)
  · have h := Row.lepton_pair (R := Rows.eenmnm) (by decide) (by decide) (by decide) (f := .e) (g := .nmu) (by decide) rfl (by decide) rfl (by decide) (by decide) (by decide) (by decide) (by simp [Rows.eenmnm])
    have e : ((Rows.eenmnm.scat.states : ℝ) * Rows.eenmnm.scat.symmetry) = 4 := by
      have : Rows.eenmnm.scat.states * Rows.eenmnm.scat.symmetry = 4 := by decide
      exact_mod_cast this
    intro c p u h1 h2 h3 h4 h5 h6 h7
    rw [h c p u h1 h2 h3 h4 h5 h6 h7, e]
    ring
  · have h := Row.lepton_scatter (R := Rows.enmenm) (by decide) (by decide) (by decide) (f := .e) (g := .nmu) (by decide) rfl (by decide) rfl (by decide) (by decide) (by decide) (by decide) (by simp [Rows.enmenm])
    have e : ((Rows.enmenm.scat.states : ℝ) * Rows.enmenm.scat.symmetry) = 2 := by
      have : Rows.enmenm.scat.states * Rows.enmenm.scat.symmetry = 2 := by decide
      exact_mod_cast this
    intro c p u h1 h2 h3 h4 h5 h6 h7
    rw [h c p u h1 h2 h3 h4 h5 h6 h7, e]
    ring
  · have h := Row.lepton_pair (R := Rows.nenenmnm) (by decide) (by decide) (by decide) (f := .ne) (g := .nmu) (by decide) rfl (by decide) rfl (by decide) (by decide) (by decide) (by decide) (by simp [Rows.nenenmnm])
    have e : ((Rows.nenenmnm.scat.states : ℝ) * Rows.nenenmnm.scat.symmetry) = 1 := by
      have : Rows.nenenmnm.scat.states * Rows.nenenmnm.scat.symmetry = 1 := by decide
      exact_mod_cast this
    intro c p u h1 h2 h3 h4 h5 h6 h7
    rw [h c p u h1 h2 h3 h4 h5 h6 h7, e]
    ring
  · have h := Row.lepton_scatter (R := Rows.nenmnenm) (by decide) (by decide) (by decide) (f := .ne) (g := .nmu) (by decide) rfl (by decide) rfl (by decide) (by decide) (by decide) (by decide) (by simp [Rows.nenmnenm])
    have e : ((Rows.nenmnenm.scat.states : ℝ) * Rows.nenmnenm.scat.symmetry) = 1 := by
      have : Rows.nenmnenm.scat.states * Rows.nenmnenm.scat.symmetry = 1 := by decide
      exact_mod_cast this
    intro c p u h1 h2 h3 h4 h5 h6 h7
    rw [h c p u h1 h2 h3 h4 h5 h6 h7, e]
    ring
  · have h := Row.quark_pair (R := Rows.ddnn) (by decide) (by decide) (by decide) (f := .d) (g := .ne) (by decide) rfl (by decide) rfl (by decide) (by decide) (by decide) (by decide) (by simp [Rows.ddnn])
    have e : ((Rows.ddnn.scat.states : ℝ) * Rows.ddnn.scat.symmetry) = 36 := by
      have : Rows.ddnn.scat.states * Rows.ddnn.scat.symmetry = 36 := by decide
      exact_mod_cast this
    intro c p u h1 h2 h3 h4 h5 h6 h7
    rw [h c p u h1 h2 h3 h4 h5 h6 h7, e]
    ring
  · have h := Row.quark_pair (R := Rows.uunn) (by decide) (by decide) (by decide) (f := .u) (g := .ne) (by decide) rfl (by decide) rfl (by decide) (by decide) (by decide) (by decide) (by simp [Rows.uunn])
    have e : ((Rows.uunn.scat.states : ℝ) * Rows.uunn.scat.symmetry) = 36 := by
      have : Rows.uunn.scat.states * Rows.uunn.scat.symmetry = 36 := by decide
      exact_mod_cast this
    intro c p u h1 h2 h3 h4 h5 h6 h7
    rw [h c p u h1 h2 h3 h4 h5 h6 h7, e]
    ring
  · have h := Row.quark_cross (R := Rows.dnnd) (by decide) (by decide) (by decide) (f := .d) (g := .ne) (by decide) rfl (by decide) rfl (by decide) (by decide) (by decide) (by decide) (by simp [Rows.dnnd])
    have e : ((Rows.dnnd.scat.states : ℝ) * Rows.dnnd.scat.symmetry) = 6 := by
      have : Rows.dnnd.scat.states * Rows.dnnd.scat.symmetry = 6 := by decide
      exact_mod_cast this
    intro c p u h1 h2 h3 h4 h5 h6 h7
    rw [h c p u h1 h2 h3 h4 h5 h6 h7, e]
    ring
  · have h := Row.quark_cross (R := Rows.unnu) (by decide) (by decide) (by decide) (f := .u) (g := .ne) (by decide) rfl (by decide) rfl (by decide) (by decide) (by decide) (by decide) (by simp [Rows.unnu])
    have e : ((Rows.unnu.scat.states : ℝ) * Rows.unnu.scat.symmetry) = 6 := by
      have : Rows.unnu.scat.states * Rows.unnu.scat.symmetry = 6 := by decide
      exact_mod_cast this
    intro c p u h1 h2 h3 h4 h5 h6 h7
    rw [h c p u h1 h2 h3 h4 h5 h6 h7, e]
    ring

omit [FPEnv] in
theorem exchange_rows : ∀ x ∈ exchangeForms, x.row ∈ fourFermion := by
  unfold exchangeForms
  simp only [List.forall_mem_cons, List.not_mem_nil, false_implies, implies_true, and_true]
  simp [fourFermion]

/-- Any object of one of the classes, however used before, returns the formula of the textbooks. -/
theorem C77_textbook {x : Exchanged} (hx : x ∈ exchangeForms) (mem : Nat → XR) (junk : Kin XR XC) (par : Nat → XR) (ops : List (ProcOp XR XC)) {c : Constants}
    (hpar : ∀ n q, x.row.pars[n]? = some (some q) → parAfter x.row.proc.massPar ops par n = fin (c.get q)) (hc : c.Physical) (hk : x.ok c) (hz : none ∈ x.row.pars → c.WZ = 0)
    {o : Obj XR XC} (ho : o = runProcOps x.row.proc ops (x.row.proc.construct mem junk par).2) {p : Nat → V4 ℝ} (hs : ∀ i : Fin 4, OnShell (p i) (c.mass (x.row.scat.leg i).flavour)) (hb : Balanced p)
    (hr : x.row.scat.Regular c p) (j : Kin XR XC) (xs : List (MCall XR XC)) (l : Loc XR XC) :
    (x.row.proc.runSetMomenta j (fun i => (p i).toX) o).1 = .ok () ∧
    (x.row.proc.method l .r x.row.proc.amp2 [] (runCalls x.row.proc xs (x.row.proc.runSetMomenta j (fun i => (p i).toX) o).2)).1 = .ok (fin (x.formula c p)) := by
  obtain ⟨u, hu⟩ := C65_spinors x.row.scat hs (Row.nonneg hc)
  rw [← exchange_formulas x hx c p u hc hk hz hs hb hr hu]
  exact C65_feynman (exchange_rows x hx) mem junk par ops hpar hc hz ho hs hb hr hu j xs l

/-- The Feynman rules give the same formula. -/
theorem C77_rules {x : Exchanged} (hx : x ∈ exchangeForms) {c : Constants} (hc : c.Physical) (hk : x.ok c) (hz : none ∈ x.row.pars → c.WZ = 0) {p : Nat → V4 ℝ}
    (hs : ∀ i : Fin 4, OnShell (p i) (c.mass (x.row.scat.leg i).flavour)) (hb : Balanced p) (hr : x.row.scat.Regular c p) {u : Fin 4 → Fin 2 → Spinor} (hu : ∀ i, x.row.scat.Complete c p i (u i)) :
    x.row.scat.squared c p u = x.formula c p := exchange_formulas x hx c p u hc hk hz hs hb hr hu

/-- The example for users: pairs of muons from electrons, with the formula of the textbooks. -/
theorem C77_user (mem : Nat → XR) (junk : Kin XR XC) (par : Nat → XR) (ops : List (ProcOp XR XC)) {e me mm : ℝ} (h0 : par 0 = fin e)
    (h1 : parAfter [1, 2] ops par 1 = fin me) (h2 : parAfter [1, 2] ops par 2 = fin mm) (hme : 0 < me) (hmm : 0 < mm)
    {p : Nat → V4 ℝ} (hs : ∀ i : Fin 4, OnShell (p i) (![me, me, mm, mm] i)) (hb : Balanced p) (j : Kin XR XC) (xs : List (MCall XR XC)) (l : Loc XR XC) :
    (Cls.userEemm.runSetMomenta j (fun i => (p i).toX) (runProcOps Cls.userEemm ops (Cls.userEemm.construct mem junk par).2)).1 = .ok () ∧
    (Cls.userEemm.method l .r Cls.userEemm.amp2 [] (runCalls Cls.userEemm xs (Cls.userEemm.runSetMomenta j (fun i => (p i).toX) (runProcOps Cls.userEemm ops (Cls.userEemm.construct mem junk par).2)).2)).1 =
      .ok (fin (e ^ 4 * throughVector me mm (mandelstamS p) (mandelstamT p) (mandelstamU p))) := by
  let c : Constants := ⟨e, 1, 3 / 5, 4, 0, 0, 1, 0, fun f => if f.kind = .neutrino then 0 else if f = .mu then mm else me⟩
  have hc : c.Physical := ⟨by norm_num [c], by norm_num [c], by norm_num [c], fun g => by simp [c], fun f hf => by
    show 0 < if f.kind = .neutrino then (0 : ℝ) else if f = .mu then mm else me
    rw [if_neg hf]
    split
    · exact hmm
    · exact hme⟩
  have hs' : ∀ i : Fin 4, OnShell (p i) (c.mass (Rows.eemmQED.scat.leg i).flavour) := by
    intro i
    have : c.mass (Rows.eemmQED.scat.leg i).flavour = ![me, me, mm, mm] i := by fin_cases i <;> rfl
    rw [this]
    exact hs i
  have sp := mandelstamS_pos hs hb ⟨0, hme.ne'⟩
  have tp := (Scattering.transfer_pair (S := Rows.eemmQED.scat) (p := p) (by decide) hb).1
  have n1 : ¬ Rows.eemmQED.scat.charged 1 0 2 3 := by decide
  have n2 : ¬ Rows.eemmQED.scat.neutral 1 3 2 0 := by decide
  have hr : Rows.eemmQED.scat.Regular c p :=
    ⟨⟨fun _ => ⟨fun _ => by rw [tp]; exact sp.ne', fun h => absurd h (by decide)⟩, fun h => absurd h.1 (by decide)⟩, ⟨fun h => absurd h n2, fun h => absurd h.1 (by decide)⟩⟩
  rw [C77_user_object, C77_user_ops, user_runCalls, (C77_user_calls l .r 0 [] j (fun i => (p i).toX) _).2, (C77_user_calls l .r Cls.userEemm.amp2 [] j (fun i => (p i).toX) _).1]
  have h := C77_textbook (x := ⟨Rows.eemmQED, fun _ => True, fun c p => c.e ^ 4 * throughVector (c.mass .e) (c.mass .mu) (mandelstamS p) (mandelstamT p) (mandelstamU p)⟩) (List.mem_cons_self ..) mem junk par ops (c := c) (by
    intro n q h
    match n with
    | 0 => cases h; exact (parAfter_untouched (by decide) _ _).trans h0
    | 1 => cases h; exact h1
    | 2 => cases h; exact h2
    | 3 => cases h
    | n + 4 => cases h) hc trivial (fun h => absurd h (by simp [Rows.eemmQED])) rfl hs' hb hr j xs l
  exact h

/-! ### massless fermions -/

omit [FPEnv] in
/-- The formulas for fermions without mass: as in the tables for the scattering of partons, with the sum over colours. -/
theorem C77_massless (s t u : ℝ) (h : s + t + u = 0) (hs : s ≠ 0) (ht : t ≠ 0) (hu : u ≠ 0) :
    throughVector 0 0 s t u = 2 * (t ^ 2 + u ^ 2) / s ^ 2 ∧
    bhabha 1 0 s t u = 2 * ((t ^ 2 + u ^ 2) / s ^ 2 + 2 * u ^ 2 / (s * t) + (s ^ 2 + u ^ 2) / t ^ 2) ∧
    2 / 9 * bhabha (-1 / 3) 0 s t u = 4 / 9 * ((s ^ 2 + u ^ 2) / t ^ 2 + (t ^ 2 + u ^ 2) / s ^ 2) - 8 / 27 * (u ^ 2 / (s * t)) ∧
    2 / 9 * moller (-1 / 3) 0 s t u = 4 / 9 * ((s ^ 2 + u ^ 2) / t ^ 2 + (s ^ 2 + t ^ 2) / u ^ 2) - 8 / 27 * (s ^ 2 / (u * t)) := by
  refine ⟨?_, ?_, ?_, ?_⟩ <;> simp only [throughVector, bhabha, moller] <;> field_simp <;> ring

/-! ### examples -/

section examples
/-- an electron and a positron of mass 3 into muons of mass 4 -/
def exMuons (i : Nat) : V4 ℝ := if i = 0 then ⟨5, 0, 0, 4⟩ else if i = 1 then ⟨5, 0, 0, -4⟩ else if i = 2 then ⟨5, 3, 0, 0⟩ else ⟨5, -3, 0, 0⟩

/-- the class for users, charge 2: the result is 32 -/
example (mem : Nat → XR) (junk : Kin XR XC) (l : Loc XR XC) :
    (Cls.userEemm.method l .r Cls.userEemm.amp2 [] (Cls.userEemm.runSetMomenta junk (fun i => (exMuons i).toX)
      (Cls.userEemm.construct mem junk fun n => if n = 0 then fin 2 else if n = 1 then fin 3 else fin 4).2).2).1 = .ok (fin 32) := by
  have hs : ∀ i : Fin 4, OnShell (exMuons i) (![3, 3, 4, 4] i) := by intro i; fin_cases i <;> constructor <;> norm_num [exMuons]
  have hb : Balanced exMuons := by constructor <;> norm_num [exMuons]
  have h := (C77_user mem junk (fun n => if n = 0 then fin 2 else if n = 1 then fin 3 else fin 4) [] rfl rfl rfl (by norm_num) (by norm_num) hs hb junk [] l).2
  have e : (2 : ℝ) ^ 4 * throughVector 3 4 (mandelstamS exMuons) (mandelstamT exMuons) (mandelstamU exMuons) = 32 := by
    norm_num [throughVector, mandelstamS, mandelstamT, mandelstamU, msq, exMuons]
  rw [e] at h
  exact h

/-- Quarks alike without electric charge and `g_s` = 2. -/
def exNeutral : Constants := ⟨0, 2, 3 / 5, 4, 1 / 10, 0, 3, 1 / 10, fun f => if f.kind = .neutrino then 0 else 3⟩

example (mem : Nat → XR) (junk : Kin XR XC) (l : Loc XR XC) :
    (Cls.dddd2.method l .r Cls.dddd2.amp2 [] (Cls.dddd2.runSetMomenta junk (fun i => (exFermions i).toX)
      (Cls.dddd2.construct mem junk fun n => if n = 0 then fin 0 else if n = 1 then fin 2 else if n = 2 ∨ n = 3 then fin 3 else if n = 4 then fin (1 / 10) else if n = 5 then fin 4 else fin (3 / 5)).2).2).1 =
    .ok (fin (16 / 9 * moller (-1 / 3) 3 100 (-32) (-32))) := by
  have hc : exNeutral.Physical := ⟨by norm_num [exNeutral], by norm_num [exNeutral], by norm_num [exNeutral], fun g => by simp [exNeutral], fun f hf => by simp [exNeutral, hf]⟩
  have hb : Balanced exFermions := by constructor <;> norm_num [exFermions]
  have hs : ∀ i : Fin 4, OnShell (exFermions i) (exNeutral.mass (Rows.dddd2.scat.leg i).flavour) := by
    intro i
    have : exNeutral.mass (Rows.dddd2.scat.leg i).flavour = 3 := by fin_cases i <;> rfl
    rw [this]
    fin_cases i <;> constructor <;> norm_num [exFermions]
  have ms := Rows.dddd2.scat.msq_scattering (p := exFermions) (by decide) hb
  have q1 : msq (Rows.dddd2.scat.transfer exFermions 2 0) = -32 := by rw [ms.1]; norm_num [SM.VExp.sum, msq, exFermions]
  have q2 : msq (Rows.dddd2.scat.transfer exFermions 2 1) = -32 := by rw [ms.2]; norm_num [SM.VExp.sum, msq, exFermions]
  have bw : ∀ {m w : ℝ} {q : V4 ℝ}, msq q = -32 → breitWigner m w q ≠ 0 := by
    intro m w q hq h
    have := congrArg Complex.re h
    simp only [breitWigner, hq, Complex.zero_re] at this
    nlinarith [sq_nonneg m]
  have c1 : ¬ Rows.dddd2.scat.charged 2 0 3 1 := by decide
  have c2 : ¬ Rows.dddd2.scat.charged 2 1 3 0 := by decide
  have hr : Rows.dddd2.scat.Regular exNeutral exFermions :=
    ⟨⟨fun _ => ⟨fun _ => by rw [q1]; norm_num, fun _ => ⟨bw q1, fun _ => bw q1⟩⟩, fun h => absurd h.2 c1⟩,
      ⟨fun _ => ⟨fun _ => by rw [q2]; norm_num, fun _ => ⟨bw q2, fun _ => bw q2⟩⟩, fun h => absurd h.2 c2⟩⟩
  have h := (C77_textbook (x := ⟨Rows.dddd2, fun c => c.e = 0, fun c p => 1 / 9 * c.gs ^ 4 * moller (-1 / 3) (c.mass .d) (mandelstamS p) (mandelstamT p) (mandelstamU p)⟩) (by simp [exchangeForms])
    mem junk (fun n => if n = 0 then fin 0 else if n = 1 then fin 2 else if n = 2 ∨ n = 3 then fin 3 else if n = 4 then fin (1 / 10) else if n = 5 then fin 4 else fin (3 / 5)) [] (c := exNeutral) (by
      intro n q h
      match n with
      | 0 => cases h; rfl
      | 1 => cases h; rfl
      | 2 => cases h; rfl
      | 3 => cases h; rfl
      | 4 => cases h; rfl
      | 5 => cases h; rfl
      | 6 => cases h; rfl
      | 7 => cases h
      | n + 8 => cases h) hc rfl (fun _ => rfl) rfl hs hb hr junk [] l).2
  have e : 1 / 9 * exNeutral.gs ^ 4 * moller (-1 / 3) (exNeutral.mass .d) (mandelstamS exFermions) (mandelstamT exFermions) (mandelstamU exFermions) = 16 / 9 * moller (-1 / 3) 3 100 (-32) (-32) := by
    have e1 : mandelstamS exFermions = 100 := by norm_num [mandelstamS, msq, exFermions]
    have e2 : mandelstamT exFermions = -32 := by norm_num [mandelstamT, msq, exFermions]
    have e3 : mandelstamU exFermions = -32 := by norm_num [mandelstamU, msq, exFermions]
    have e4 : exNeutral.mass .d = 3 := rfl
    have e5 : exNeutral.gs = 2 := rfl
    rw [e1, e2, e3, e4, e5]
    norm_num
  dsimp only at h
  rw [e] at h
  exact h

/-- an electron of mass 3 and a positron into neutrinos, masses 4 and 5 of the W and the Z -/
def exNeutrinos (i : Nat) : V4 ℝ := if i = 0 then ⟨5, 0, 0, 4⟩ else if i = 1 then ⟨5, 0, 0, -4⟩ else if i = 2 then ⟨5, 5, 0, 0⟩ else ⟨5, -5, 0, 0⟩

example (mem : Nat → XR) (junk : Kin XR XC) (l : Loc XR XC) :
    (Cls.eenmnm.method l .r Cls.eenmnm.amp2 [] (Cls.eenmnm.runSetMomenta junk (fun i => (exNeutrinos i).toX)
      (Cls.eenmnm.construct mem junk fun n => if n = 0 then fin 1 else if n = 1 then fin 3 else if n = 2 then fin 4 else fin (3 / 5)).2).2).1 =
    .ok (fin ((625 / 144) ^ 2 / 75 ^ 2 / 4 * neutrinoScattering (-7 / 50) (9 / 25) 3 (-41) 100 (-41))) := by
  have hc : exConst.Physical := ⟨by norm_num [exConst], by norm_num [exConst], by norm_num [exConst], fun g => by simp [exConst], fun f hf => by simp [exConst, hf]⟩
  have hb : Balanced exNeutrinos := by constructor <;> norm_num [exNeutrinos]
  have hs : ∀ i : Fin 4, OnShell (exNeutrinos i) (exConst.mass (Rows.eenmnm.scat.leg i).flavour) := by
    intro i
    have : exConst.mass (Rows.eenmnm.scat.leg i).flavour = ![3, 3, 0, 0] i := by fin_cases i <;> rfl
    rw [this]
    fin_cases i <;> constructor <;> norm_num [exNeutrinos]
  have cw : exConst.CW = 4 / 5 := by
    show √(1 - 3 / 5 * (3 / 5)) = 4 / 5
    rw [show (1 - 3 / 5 * (3 / 5) : ℝ) = (4 / 5) ^ 2 by norm_num]
    exact Real.sqrt_sq (by norm_num)
  have mz : exConst.MZ = 5 := by show exConst.MW / exConst.CW = 5; rw [cw]; norm_num [exConst]
  have e1 : mandelstamS exNeutrinos = 100 := by norm_num [mandelstamS, msq, exNeutrinos]
  have q1 : msq (Rows.eenmnm.scat.transfer exNeutrinos 1 0) = 100 := by rw [(Scattering.transfer_pair (S := Rows.eenmnm.scat) (by decide) hb).1, e1]
  have n1 : ¬ Rows.eenmnm.scat.charged 1 0 2 3 := by decide
  have n2 : ¬ Rows.eenmnm.scat.neutral 1 3 2 0 := by decide
  have n3 : ¬ Rows.eenmnm.scat.charged 1 3 2 0 := by decide
  have hr : Rows.eenmnm.scat.Regular exConst exNeutrinos :=
    ⟨⟨fun _ => ⟨fun _ => by rw [q1]; norm_num, fun _ => ⟨fun h => by
        have := congrArg Complex.re h
        rw [mz] at this
        norm_num [breitWigner, q1] at this, fun h => absurd (show exConst.mass .e * exConst.mass .nmu = 0 by rw [show exConst.mass .nmu = 0 from rfl, mul_zero]) h⟩⟩, fun h => absurd h.2 n1⟩,
      ⟨fun h => absurd h n2, fun h => absurd h.2 n3⟩⟩
  have h := (C77_textbook (x := ⟨Rows.eenmnm, fun _ => True, fun c p => zSquared c (mandelstamS p) / 4 *
      neutrinoScattering (c.gL .e) (c.gR .e) (c.mass .e) (mandelstamU p) (mandelstamS p) (mandelstamT p)⟩) (by simp [exchangeForms])
    mem junk (fun n => if n = 0 then fin 1 else if n = 1 then fin 3 else if n = 2 then fin 4 else fin (3 / 5)) [] (c := exConst) (by
      intro n q h
      match n with
      | 0 => cases h; rfl
      | 1 => cases h; rfl
      | 2 => cases h; rfl
      | 3 => cases h; rfl
      | 4 => cases h
      | n + 5 => cases h) hc trivial (fun _ => rfl) rfl hs hb hr junk [] l).2
  have e : zSquared exConst (mandelstamS exNeutrinos) / 4 * neutrinoScattering (exConst.gL .e) (exConst.gR .e) (exConst.mass .e) (mandelstamU exNeutrinos) (mandelstamS exNeutrinos) (mandelstamT exNeutrinos) =
      (625 / 144) ^ 2 / 75 ^ 2 / 4 * neutrinoScattering (-7 / 50) (9 / 25) 3 (-41) 100 (-41) := by
    have e2 : mandelstamT exNeutrinos = -41 := by norm_num [mandelstamT, msq, exNeutrinos]
    have e3 : mandelstamU exNeutrinos = -41 := by norm_num [mandelstamU, msq, exNeutrinos]
    have e4 : exConst.mass .e = 3 := rfl
    have e5 : exConst.SW = 3 / 5 := rfl
    have e6 : exConst.e = 1 := rfl
    have i1 : (Flavour.e).isospin = -1 / 2 := by norm_num [Flavour.e, Flavour.isospin]
    simp only [zSquared, Constants.gL, Constants.gR, e1, e2, e3, e4, e5, e6, cw, mz, Flavour.charge_e, i1]
    norm_num
  dsimp only at h
  rw [e] at h
  exact h
end examples

end
end Spinas.Props
