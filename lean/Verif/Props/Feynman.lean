import Verif.SM.Fermions.Leptons
import Verif.SM.Fermions.Neutrinos
import Verif.SM.Fermions.Mixed
import Verif.SM.Fermions.Quarks
import Verif.SM.Fermions.QuarksW
import Verif.SM.Fermions.QuarksSame
import Verif.Props.Gluons

/-! C65: two fermions into two fermions according to the Feynman rules of the Standard Model (exact arithmetic). -/

namespace Spinas.Props
open SM Spec Spec.Scattering XR Matrix

noncomputable section

variable [FPEnv]

theorem fourFermion_agrees : ∀ R ∈ fourFermion, R.Agrees := by
  unfold fourFermion
  simp only [List.forall_mem_cons, List.not_mem_nil, false_implies, implies_true, and_true]
  exact ⟨Rows.eemm.agrees, Rows.emem.agrees, Rows.ddee.agrees, Rows.uuee.agrees, Rows.deed.agrees, Rows.ueeu.agrees, Rows.eeee.agrees, Rows.eeee2.agrees, Rows.eemmQED.agrees, Rows.eeeeQED.agrees, Rows.eenmnm.agrees, Rows.enmenm.agrees, Rows.eenene.agrees, Rows.enenee.agrees, Rows.ddnn.agrees, Rows.uunn.agrees, Rows.dnnd.agrees, Rows.unnu.agrees, Rows.nenenene.agrees, Rows.nenenene2.agrees, Rows.nenenmnm.agrees, Rows.nenmnenm.agrees, Rows.menn.agrees, Rows.mnen.agrees, Rows.udnl.agrees, Rows.ulnd.agrees, Rows.udtb.agrees, Rows.ubdt.agrees, Rows.ddss.agrees, Rows.uucc.agrees, Rows.uuss.agrees, Rows.dsds.agrees, Rows.ucuc.agrees, Rows.usus.agrees, Rows.uudd.agrees, Rows.udud.agrees, Rows.dddd.agrees, Rows.uuuu.agrees, Rows.dddd2.agrees, Rows.uuuu2.agrees⟩

/-- C65. `R` is one of the 40 classes with its process; `c` the constants, given to the constructor or to `set_masses` (`R.pars` says which constant is which parameter); `p` the momenta and `u` any spinors
with the right completeness relation. -/
theorem C65_feynman {R : Row} (hR : R ∈ fourFermion) (mem : Nat → XR) (junk : Kin XR XC) (par : Nat → XR) (ops : List (ProcOp XR XC)) {c : Constants}
    (hpar : ∀ n q, R.pars[n]? = some (some q) → parAfter R.proc.massPar ops par n = fin (c.get q)) (hc : c.Physical) (hz : none ∈ R.pars → c.WZ = 0)
    {o : Obj XR XC} (ho : o = runProcOps R.proc ops (R.proc.construct mem junk par).2) {p : Nat → V4 ℝ} (hs : ∀ i : Fin 4, OnShell (p i) (c.mass (R.scat.leg i).flavour)) (hb : Balanced p)
    (hr : R.scat.Regular c p) {u : Fin 4 → Fin 2 → Spinor} (hu : ∀ i, R.scat.Complete c p i (u i)) (j : Kin XR XC) (xs : List (MCall XR XC)) (l : Loc XR XC) :
    (R.proc.runSetMomenta j (fun i => (p i).toX) o).1 = .ok () ∧
    (R.proc.method l .r R.proc.amp2 [] (runCalls R.proc xs (R.proc.runSetMomenta j (fun i => (p i).toX) o).2)).1 = .ok (fin (R.scat.squared c p u)) :=
  fourFermion_agrees R hR mem junk par ops c p u o j xs l hpar hc hz ho hs hb hr hu

/-- The squared amplitude of the Feynman rules does not depend on the choice of spinors ... -/
theorem C65_basis (S : Scattering) (c : Constants) (p : Nat → V4 ℝ) {u u' : Fin 4 → Fin 2 → Spinor} (hu : ∀ i, S.Complete c p i (u i)) (hu' : ∀ i, S.Complete c p i (u' i)) :
    S.squared c p u = S.squared c p u' := S.squared_basis c p hu hu'

/-- ... and there are such spinors. -/
theorem C65_spinors (S : Scattering) {c : Constants} {p : Nat → V4 ℝ} (hp : ∀ i : Fin 4, OnShell (p i) (c.mass (S.leg i).flavour)) (hm : ∀ f, 0 ≤ c.mass f) :
    ∃ u : Fin 4 → Fin 2 → Spinor, ∀ i, S.Complete c p i (u i) := ⟨_, fun i => S.spinors_complete hp hm true i⟩

/-! ### the width of the Z -/

namespace Feynman
abbrev nunu : Scattering := Rows.nenenmnm.scat

/-- all but the denominator -/
def nunuSum (c : Constants) (p : Nat → V4 ℝ) (u : Fin 4 → Fin 2 → Spinor) : ℝ :=
  ∑ s : Fin 4 → Fin 2, ‖((c.e ^ 2 / (c.SW ^ 2 * c.CW ^ 2) : ℝ) : ℂ) * (contract (current (c.gL .ne) (c.gR .ne) (u 1 (s 1)) (u 0 (s 0))) (current (c.gL .nmu) (c.gR .nmu) (u 2 (s 2)) (u 3 (s 3))) -
    contract (four (nunu.transfer p 1 0)) (current (c.gL .ne) (c.gR .ne) (u 1 (s 1)) (u 0 (s 0))) *
    contract (four (nunu.transfer p 1 0)) (current (c.gL .nmu) (c.gR .nmu) (u 2 (s 2)) (u 3 (s 3))) / (c.MZ ^ 2 : ℝ))‖ ^ 2

theorem nunu_squared {c : Constants} (hc : c.Physical) (p : Nat → V4 ℝ) (u : Fin 4 → Fin 2 → Spinor) :
    nunu.squared c p u = nunuSum c p u / ‖breitWigner c.MZ c.WZ (nunu.transfer p 1 0)‖ ^ 2 := by
  have he : nunu.ends = [1, 2] := by decide
  have ht : nunu.starts = [0, 3] := by decide
  have ss : nunu.states = 1 := by decide
  have sy : nunu.symmetry = 1 := by decide
  have m1 : c.mass .ne = 0 := hc.neutrino _
  unfold squared nunuSum
  rw [ss, sy, Nat.cast_one, mul_one, div_one, Finset.sum_div]
  refine Finset.sum_congr rfl fun s _ => ?_
  have hk : (fun n => (nunu.leg n).flavour.colours) = fun _ => {0} := by decide
  rw [hk, Fintype.piFinset_singleton, Finset.sum_singleton, nunu.amplitude_two he ht, ← div_pow, ← norm_div]
  have n1 : nunu.neutral 1 0 2 3 := by decide
  have n2 : ¬ nunu.charged 1 0 2 3 := by decide
  have n3 : ¬ nunu.neutral 1 3 2 0 := by decide
  have n4 : ¬ nunu.charged 1 3 2 0 := by decide
  have n5 : nunu.theory = .standard := rfl
  have e1 : (nunu.leg 1).flavour = .ne := rfl
  have e2 : (nunu.leg 2).flavour = .nmu := rfl
  have q1 : Flavour.quark .ne = false := rfl
  congr 2
  simp only [connected, electroweak, strong, n1, n2, n3, n4, n5, e1, e2, q1, if_true, and_false, false_and, if_false, Flavour.charge_ne, m1, delta, exchangeMassive, and_true, true_and, Bool.false_eq_true]
  simp
  ring

/-- a width lowers the squared amplitude -/
theorem nunu_width {c : Constants} (hc : c.Physical) (p : Nat → V4 ℝ) (u : Fin 4 → Fin 2 → Spinor) (h0 : breitWigner c.MZ 0 (nunu.transfer p 1 0) ≠ 0) (hw : c.WZ ≠ 0)
    (h : nunu.squared { c with WZ := 0 } p u ≠ 0) : nunu.squared c p u < nunu.squared { c with WZ := 0 } p u := by
  have hc' : ({ c with WZ := 0 } : Constants).Physical := ⟨hc.MW, hc.SW, hc.SW_lt, hc.neutrino, hc.massive⟩
  have e1 := nunu_squared hc p u
  have e2 := nunu_squared hc' p u
  have e3 : nunuSum { c with WZ := 0 } p u = nunuSum c p u := rfl
  have e4 : ({ c with WZ := 0 } : Constants).MZ = c.MZ := rfl
  rw [e3, e4] at e2
  simp only at e2
  have p0 : 0 ≤ nunuSum c p u := Finset.sum_nonneg fun _ _ => by positivity
  have p1 : nunuSum c p u ≠ 0 := by rintro hh; rw [e2, hh, zero_div] at h; exact h rfl
  rw [e1, e2]
  have hMZ := hc.MZ
  refine div_lt_div_of_pos_left (lt_of_le_of_ne p0 p1.symm) (by positivity) ?_
  rw [← Complex.normSq_eq_norm_sq, ← Complex.normSq_eq_norm_sq, Complex.normSq_apply, Complex.normSq_apply]
  simp only [breitWigner]
  have : 0 < (c.MZ * c.WZ) * (c.MZ * c.WZ) := mul_self_pos.2 (mul_ne_zero hMZ hw)
  linarith

/-- `-2 gL gL ⟨03⟩[12]` does not vanish -/
theorem nunu_pos {c : Constants} (hc : c.Physical) (he : c.e ≠ 0) {p : Nat → V4 ℝ} {u : Fin 4 → Fin 2 → Spinor} (hs : ∀ i, i < 4 → OnShell (p i) 0) (hb : Balanced p) (hu : mandelstamU p ≠ 0)
    (hr : nunu.Regular c p) (hc' : ∀ i, nunu.Complete c p i (u i)) : nunu.squared c p u ≠ 0 := by
  have h0 : ∀ f, 0 ≤ c.mass f := by
    intro f
    by_cases hf : f.kind = .neutrino
    · have := hc.neutrino f.gen
      rw [← hf] at this
      exact this.ge
    · exact (hc.massive f hf).le
  have hM : ∀ i, nunu.legMass c i = 0 := by intro i; fin_cases i <;> exact hc.neutrino _
  have he' : nunu.ends = [1, 2] := by decide
  have ht : nunu.starts = [0, 3] := by decide
  obtain ⟨o1, -⟩ := regular_two he' ht hr
  have hf := nunu.flows_annihilation (by decide) hb
  rw [nunu.squared_leptons he' ht (fun i => by rw [hM]; exact hs i i.2) h0 hf hc' (by decide)]
  have ss : nunu.states = 1 := by decide
  have sy : nunu.symmetry = 1 := by decide
  rw [ss, sy, Nat.cast_one, mul_one, div_one]
  refine (Finset.sum_pos' (fun _ _ => by positivity) ⟨![0, 1, 1, 0], Finset.mem_univ _, ?_⟩).ne'
  have g0 : nunu.sgn 0 = 1 := if_neg Bool.false_ne_true
  have g1 : nunu.sgn 1 = -1 := if_pos rfl
  have g2 : nunu.sgn 2 = 1 := if_neg Bool.false_ne_true
  have g3 : nunu.sgn 3 = -1 := if_pos rfl
  have m1 : c.mass .ne = 0 := hc.neutrino _
  rw [ewC_none (S := nunu) (i := 1) (j := 3) (k := 2) (l := 0) (by decide) (by decide), sub_zero,
    ewC_neutral (S := nunu) (i := 1) (j := 0) (k := 2) (l := 3) (f := .ne) (g := .nmu) (by decide) (by decide) rfl rfl rfl g1 g0 g2 g3 rfl rfl rfl]
  have a0 : ‖ab (nunu.angs c p ![0, 1, 1, 0] 0) (nunu.angs c p ![0, 1, 1, 0] 3)‖ ^ 2 = 2 * dot (p 0) (p 3) := by
    rw [← normSq_massless (p := p) (m := fun _ => 0) (hs 0 (by norm_num)) (hs 3 (by norm_num)) rfl rfl true]
    congr 2
    exact (bra_angle (hM 0).symm (hM 3).symm (.inr ⟨hM 0, rfl⟩) (.inr ⟨hM 3, rfl⟩)).symm
  have a1 : ‖sb (nunu.sqrs c p ![0, 1, 1, 0] 1) (nunu.sqrs c p ![0, 1, 1, 0] 2)‖ ^ 2 = 2 * dot (p 1) (p 2) := by
    rw [← normSq_massless (p := p) (m := fun _ => 0) (hs 1 (by norm_num)) (hs 2 (by norm_num)) rfl rfl false]
    congr 2
    exact (bra_square (hM 1).symm (hM 2).symm (.inr ⟨hM 1, rfl⟩) (.inr ⟨hM 2, rfl⟩)).symm
  obtain ⟨-, -, -, -, d03, d12, -⟩ := massless_dots hs hb
  have b0 : ab (nunu.angs c p ![0, 1, 1, 0] 0) (nunu.angs c p ![0, 1, 1, 0] 3) ≠ 0 := by
    intro h; rw [h, d03] at a0; exact hu (by simpa using a0)
  have b1 : sb (nunu.sqrs c p ![0, 1, 1, 0] 1) (nunu.sqrs c p ![0, 1, 1, 0] 2) ≠ 0 := by
    intro h; rw [h, d12] at a1; exact hu (by simpa using a1)
  have hz := o1.z (by decide) rfl
  simp only [jj, ln, Constants.gL, Constants.gR, Flavour.charge_ne, Flavour.isospin_ne, Flavour.charge_nmu, Flavour.isospin_nmu, m1]
  simp
  have := norm_pos_iff.2 b0
  have := norm_pos_iff.2 b1
  have := norm_pos_iff.2 hz
  have := hc.SW
  have := hc.CW
  positivity

end Feynman

/-- The width of the Z given to the constructor has no effect where `R.pars` has `none`, so C65 needs it to be 0: here the result is not the squared amplitude. -/
theorem C65_z_width (mem : Nat → XR) (junk j : Kin XR XC) (l : Loc XR XC) : ∃ (c : Constants) (p : Nat → V4 ℝ) (par : Nat → XR),
    c.Physical ∧ c.WZ = 1 ∧ par 0 = fin c.e ∧ par 1 = fin c.MW ∧ par 2 = fin c.SW ∧ par 3 = fin c.WZ ∧ (∀ i : Fin 4, OnShell (p i) (c.mass (Rows.nenenmnm.scat.leg i).flavour)) ∧ Balanced p ∧
    Rows.nenenmnm.scat.Regular c p ∧ ∀ u : Fin 4 → Fin 2 → Spinor, (∀ i, Rows.nenenmnm.scat.Complete c p i (u i)) →
      ∃ x, (Cls.nenenmnm.method l .r Cls.nenenmnm.amp2 [] (Cls.nenenmnm.runSetMomenta j (fun i => (p i).toX) (Cls.nenenmnm.construct mem junk par).2).2).1 = .ok (fin x) ∧
        Rows.nenenmnm.scat.squared c p u < x := by
  let c : Constants := ⟨1, 0, 3 / 5, 4, 0, 1, 0, 0, fun f => if f.kind = .neutrino then 0 else 1⟩
  have hc : c.Physical := ⟨by norm_num [c], by norm_num [c], by norm_num [c], fun g => by simp [c], fun f hf => by simp [c, hf]⟩
  have hc' : ({ c with WZ := 0 } : Constants).Physical := ⟨hc.MW, hc.SW, hc.SW_lt, hc.neutrino, hc.massive⟩
  have cw : c.CW = 4 / 5 := by
    show √(1 - 3 / 5 * (3 / 5)) = 4 / 5
    rw [show (1 - 3 / 5 * (3 / 5) : ℝ) = (4 / 5) ^ 2 by norm_num]
    exact Real.sqrt_sq (by norm_num)
  have mz : c.MZ = 5 := by show c.MW / c.CW = 5; rw [cw]; norm_num [c]
  have hq : msq (Feynman.nunu.transfer exGluons 1 0) = 100 := by
    have ms := (Feynman.nunu.msq_annihilation (p := exGluons) (by decide) exGluons_balanced).1
    rw [ms]; norm_num [SM.VExp.sum, msq, exGluons]
  have hr : ∀ w, breitWigner c.MZ w (Feynman.nunu.transfer exGluons 1 0) ≠ 0 := by
    intro w h
    have := congrArg Complex.re h
    simp only [breitWigner, hq, mz, Complex.zero_re] at this
    norm_num at this
  have hreg : ∀ w, Feynman.nunu.Regular { c with WZ := w } exGluons := by
    intro w
    have n2 : ¬ Feynman.nunu.charged 1 0 2 3 := by decide
    have n3 : ¬ Feynman.nunu.neutral 1 3 2 0 := by decide
    have n4 : ¬ Feynman.nunu.charged 1 3 2 0 := by decide
    refine ⟨⟨fun _ => ⟨fun h => absurd ?_ h, fun _ => ⟨hr w, fun h => absurd ?_ h⟩⟩, fun h => absurd h.2 n2⟩, ⟨fun h => absurd h n3, fun h => absurd h.2 n4⟩⟩
    · show (0 : ℝ) * _ = 0
      rw [zero_mul]
    · show c.mass .ne * _ = 0
      rw [show c.mass .ne = 0 from hc.neutrino _, zero_mul]
  have hs : ∀ i : Fin 4, OnShell (exGluons i) (c.mass (Rows.nenenmnm.scat.leg i).flavour) := by
    intro i
    have : c.mass (Rows.nenenmnm.scat.leg i).flavour = 0 := by fin_cases i <;> exact hc.neutrino _
    rw [this]; exact exGluons_onShell i i.2
  refine ⟨c, exGluons, fun n => if n = 0 then fin 1 else if n = 1 then fin 4 else if n = 2 then fin (3 / 5) else fin 1, hc, rfl, rfl, rfl, rfl, rfl, hs, exGluons_balanced, hreg 1, fun u hu => ?_⟩
  refine ⟨Feynman.nunu.squared { c with WZ := 0 } exGluons u, ?_, ?_⟩
  · refine (C65_feynman (R := Rows.nenenmnm) (by simp [fourFermion]) mem junk _ [] (c := { c with WZ := 0 }) ?_ hc' (fun _ => rfl) (by rw [runProcOps]; rfl) hs exGluons_balanced (hreg 0) hu j [] l).2
    intro n q h
    match n with
    | 0 => cases h; rfl
    | 1 => cases h; rfl
    | 2 => cases h; rfl
    | 3 => cases h
    | n + 4 => cases h
  · refine Feynman.nunu_width hc exGluons u (hr 0) one_ne_zero ?_
    refine Feynman.nunu_pos hc' one_ne_zero exGluons_onShell exGluons_balanced ?_ (hreg 0) hu
    norm_num [mandelstamU, msq, exGluons]

/-! ### the hypotheses can be met -/

section examples

/-- electrons, muons, quarks of mass 3; energies 5 -/
def exFermions (i : Nat) : V4 ℝ := if i = 0 then ⟨5, 0, 0, 4⟩ else if i = 1 then ⟨5, 0, 0, -4⟩ else if i = 2 then ⟨5, 4, 0, 0⟩ else ⟨5, -4, 0, 0⟩
def exConst : Constants := ⟨1, 2, 3 / 5, 4, 1 / 10, 0, 3, 1 / 10, fun f => if f.kind = .neutrino then 0 else 3⟩

/-- two down quarks into two down quarks: all bosons but the W, both ways to connect the lines -/
example (mem : Nat → XR) (junk : Kin XR XC) (l : Loc XR XC) : ∃ u : Fin 4 → Fin 2 → Spinor,
    (Cls.dddd2.method l .r Cls.dddd2.amp2 [] (Cls.dddd2.runSetMomenta junk (fun i => (exFermions i).toX)
      (Cls.dddd2.construct mem junk fun n => if n = 0 then fin 1 else if n = 1 then fin 2 else if n = 2 ∨ n = 3 then fin 3 else if n = 4 then fin (1 / 10) else if n = 5 then fin 4 else fin (3 / 5)).2).2).1 =
    .ok (fin (Rows.dddd2.scat.squared exConst exFermions u)) := by
  have hc : exConst.Physical := ⟨by norm_num [exConst], by norm_num [exConst], by norm_num [exConst], fun g => by simp [exConst], fun f hf => by simp [exConst, hf]⟩
  have hb : Balanced exFermions := by constructor <;> norm_num [exFermions]
  have hs : ∀ i : Fin 4, OnShell (exFermions i) (exConst.mass (Rows.dddd2.scat.leg i).flavour) := by
    intro i
    have : exConst.mass (Rows.dddd2.scat.leg i).flavour = 3 := by fin_cases i <;> rfl
    rw [this]
    fin_cases i <;> constructor <;> norm_num [exFermions]
  have hm : ∀ f, 0 ≤ exConst.mass f := by intro f; simp only [exConst]; split <;> norm_num
  have cw : exConst.CW = 4 / 5 := by
    show √(1 - 3 / 5 * (3 / 5)) = 4 / 5
    rw [show (1 - 3 / 5 * (3 / 5) : ℝ) = (4 / 5) ^ 2 by norm_num]
    exact Real.sqrt_sq (by norm_num)
  have mz : exConst.MZ = 5 := by show exConst.MW / exConst.CW = 5; rw [cw]; norm_num [exConst]
  have ms := Rows.dddd2.scat.msq_scattering (p := exFermions) (by decide) hb
  have q1 : msq (Rows.dddd2.scat.transfer exFermions 2 0) = -32 := by rw [ms.1]; norm_num [SM.VExp.sum, msq, exFermions]
  have q2 : msq (Rows.dddd2.scat.transfer exFermions 2 1) = -32 := by rw [ms.2]; norm_num [SM.VExp.sum, msq, exFermions]
  have bw : ∀ {m w : ℝ} {q : V4 ℝ}, msq q = -32 → breitWigner m w q ≠ 0 := by
    intro m w q hq h
    have := congrArg Complex.re h
    simp only [breitWigner, hq, Complex.zero_re] at this
    nlinarith [sq_nonneg m]
  have c1 : ¬ Rows.dddd2.scat.charged 2 0 3 1 := by decide
  have c2 : ¬ Rows.dddd2.scat.charged 2 1 3 0 := by decide
  have hr : Rows.dddd2.scat.Regular exConst exFermions :=
    ⟨⟨fun _ => ⟨fun _ => by rw [q1]; norm_num, fun _ => ⟨bw q1, fun _ => bw q1⟩⟩, fun h => absurd h.2 c1⟩,
      ⟨fun _ => ⟨fun _ => by rw [q2]; norm_num, fun _ => ⟨bw q2, fun _ => bw q2⟩⟩, fun h => absurd h.2 c2⟩⟩
  obtain ⟨u, hu⟩ := C65_spinors Rows.dddd2.scat hs hm
  refine ⟨u, (C65_feynman (R := Rows.dddd2) (by simp [fourFermion]) mem junk _ [] (c := exConst) ?_ hc (fun _ => rfl) (by rw [runProcOps]; rfl) hs hb hr hu junk [] l).2⟩
  intro n q h
  match n with
  | 0 => cases h; rfl
  | 1 => cases h; rfl
  | 2 => cases h; rfl
  | 3 => cases h; rfl
  | 4 => cases h; rfl
  | 5 => cases h; rfl
  | 6 => cases h; rfl
  | 7 => cases h
  | n + 8 => cases h

end examples

end
end Spinas.Props
