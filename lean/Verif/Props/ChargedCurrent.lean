import Verif.SM.OneW
import Verif.Props.Exchange

/-! C83: the formula for four fermions that exchange a W (exact arithmetic). -/

namespace Spinas.Props
open SM Spec Spec.Scattering XR Matrix

noncomputable section

/-- The classes with a W only. The averages: two spins and three colours for quarks, two spins for charged leptons, one for neutrinos; three colours on each line of quarks. -/
def wForms : List Exchanged :=
  [⟨Rows.udtb, fun _ => True, fun c p => wSquared c (mandelstamS p) / 4 * chargedCurrents (c.mass .u) (c.mass .d) (c.mass .b) (c.mass .t) c.MW (mandelstamU p) (mandelstamS p) (mandelstamT p)⟩,
    ⟨Rows.ubdt, fun _ => True, fun c p => wSquared c (mandelstamT p) / 4 * chargedCurrents (c.mass .u) (c.mass .d) (c.mass .b) (c.mass .t) c.MW (mandelstamS p) (mandelstamT p) (mandelstamU p)⟩,
    ⟨Rows.udnl, fun _ => True, fun c p => wSquared c (mandelstamS p) / 12 * chargedCurrents (c.mass .u) (c.mass .d) (c.mass .tau) 0 c.MW (mandelstamU p) (mandelstamS p) (mandelstamT p)⟩,
    ⟨Rows.ulnd, fun _ => True, fun c p => wSquared c (mandelstamU p) / 4 * chargedCurrents (c.mass .u) (c.mass .d) (c.mass .tau) 0 c.MW (mandelstamS p) (mandelstamU p) (mandelstamT p)⟩,
    ⟨Rows.menn, fun _ => True, fun c p => wSquared c (mandelstamU p) / 4 * chargedCurrents (c.mass .e) 0 0 (c.mass .mu) c.MW (mandelstamT p) (mandelstamU p) (mandelstamS p)⟩,
    ⟨Rows.mnen, fun _ => True, fun c p => wSquared c (mandelstamU p) / 2 * chargedCurrents (c.mass .mu) 0 0 (c.mass .e) c.MW (mandelstamS p) (mandelstamU p) (mandelstamT p)⟩]

variable [FPEnv]

theorem w_formulas : ∀ x ∈ wForms, x.row.Formula x.ok x.formula := by
  unfold wForms
  simp only [List.forall_mem_cons, List.not_mem_nil, false_implies, implies_true, and_true]
  refine ⟨?_, ?_, ?_, ?_, ?_, ?_⟩ <;> intro c p u hc _ _ hp hb _ hu <;> have hm := Row.nonneg hc
  · have ha : ∀ i, (Rows.udtb.scat.leg i).anti = ![false, true, false, true] i := by decide
    have n1 : ¬ Rows.udtb.scat.neutral 1 0 2 3 := by decide
    have n2 : ¬ Rows.udtb.scat.neutral 1 3 2 0 := by decide
    have n3 : ¬ Rows.udtb.scat.charged 1 3 2 0 := by decide
    have e := w_pair hp hm hb rfl (m₀ := c.mass .u) (m₁ := c.mass .d) (m₂ := c.mass .t) (m₃ := c.mass .b) (fun i => by fin_cases i <;> rfl) ha n1 (by decide)
    rw [squared_quarks _ (by decide) (by decide) hp hm (flows_annihilation _ ha hb) hu (by decide) colours_annihilation (by decide)]
    simp only [ewC_none n2 n3, strongC_none n1, strongC_none n2, norm_zero, star_zero, mul_zero, zero_mul, Complex.zero_re]
    have h : (Rows.udtb.scat.states : ℝ) * Rows.udtb.scat.symmetry = 36 := by
      have : Rows.udtb.scat.states * Rows.udtb.scat.symmetry = 36 := by decide
      exact_mod_cast this
    simp only [ne_eq, OfNat.ofNat_ne_zero, not_false_eq_true, zero_pow, mul_zero, add_zero, sub_zero]
    rw [← Finset.mul_sum, e, h]
    ring
  · have ha : ∀ i, (Rows.ubdt.scat.leg i).anti = false := by decide
    have n1 : ¬ Rows.ubdt.scat.neutral 2 0 3 1 := by decide
    have n2 : ¬ Rows.ubdt.scat.neutral 2 1 3 0 := by decide
    have n3 : ¬ Rows.ubdt.scat.charged 2 1 3 0 := by decide
    have e := w_scatter hp hm hb rfl (m₀ := c.mass .u) (m₁ := c.mass .b) (m₂ := c.mass .d) (m₃ := c.mass .t) (fun i => by fin_cases i <;> rfl) ha n1 (by decide)
    rw [squared_quarks _ (by decide) (by decide) hp hm (flows_scattering _ ha hb) hu (by decide) colours_scattering (by decide)]
    simp only [ewC_none n2 n3, strongC_none n1, strongC_none n2, norm_zero, star_zero, mul_zero, zero_mul, Complex.zero_re]
    have h : (Rows.ubdt.scat.states : ℝ) * Rows.ubdt.scat.symmetry = 36 := by
      have : Rows.ubdt.scat.states * Rows.ubdt.scat.symmetry = 36 := by decide
      exact_mod_cast this
    simp only [ne_eq, OfNat.ofNat_ne_zero, not_false_eq_true, zero_pow, mul_zero, add_zero, sub_zero]
    rw [← Finset.mul_sum, e, h]
    ring
  · have ha : ∀ i, (Rows.udnl.scat.leg i).anti = ![false, true, false, true] i := by decide
    have n1 : ¬ Rows.udnl.scat.neutral 1 0 2 3 := by decide
    have e := w_pair hp hm hb rfl (m₀ := c.mass .u) (m₁ := c.mass .d) (m₂ := 0) (m₃ := c.mass .tau) (fun i => by
      fin_cases i
      · rfl
      · rfl
      · exact hc.neutrino _
      · rfl) ha n1 (by decide)
    rw [mixed_annihilation hp hm hu (by decide) (by decide) (flows_annihilation _ ha hb) (by decide) (by decide) (by decide)]
    have h : (Rows.udnl.scat.states : ℝ) * Rows.udnl.scat.symmetry = 36 := by
      have : Rows.udnl.scat.states * Rows.udnl.scat.symmetry = 36 := by decide
      exact_mod_cast this
    rw [← Finset.mul_sum, e, h]
    ring
  · have ha : ∀ i, (Rows.ulnd.scat.leg i).anti = false := by decide
    have n1 : ¬ Rows.ulnd.scat.neutral 2 1 3 0 := by decide
    have e := w_cross hp hm hb rfl (m₀ := c.mass .u) (m₁ := c.mass .tau) (m₂ := 0) (m₃ := c.mass .d) (fun i => by
      fin_cases i
      · rfl
      · rfl
      · exact hc.neutrino _
      · rfl) ha n1 (by decide)
    rw [mixed_scattering hp hm hu (by decide) (by decide) (flows_scattering _ ha hb) (by decide) (by decide) (by decide)]
    have h : (Rows.ulnd.scat.states : ℝ) * Rows.ulnd.scat.symmetry = 12 := by
      have : Rows.ulnd.scat.states * Rows.ulnd.scat.symmetry = 12 := by decide
      exact_mod_cast this
    rw [← Finset.mul_sum, e, h]
    ring
  · have ha : ∀ i, (Rows.menn.scat.leg i).anti = ![true, false, false, true] i := by decide
    have n1 : ¬ Rows.menn.scat.neutral 0 3 2 1 := by decide
    have n2 : ¬ Rows.menn.scat.neutral 0 1 2 3 := by decide
    have n3 : ¬ Rows.menn.scat.charged 0 1 2 3 := by decide
    have e := w_exchange hp hm hb rfl (m₀ := c.mass .mu) (m₁ := c.mass .e) (m₂ := 0) (m₃ := 0) (fun i => by
      fin_cases i
      · rfl
      · rfl
      · exact hc.neutrino _
      · exact hc.neutrino _) ha n1 (by decide)
    rw [squared_leptons _ (by decide) (by decide) hp hm (flows_exchange _ ha hb) hu (by decide)]
    simp only [ewC_none n2 n3, zero_sub, norm_neg]
    have h : (Rows.menn.scat.states : ℝ) * Rows.menn.scat.symmetry = 4 := by
      have : Rows.menn.scat.states * Rows.menn.scat.symmetry = 4 := by decide
      exact_mod_cast this
    rw [e, h]
    ring
  · have ha : ∀ i, (Rows.mnen.scat.leg i).anti = false := by decide
    have n1 : ¬ Rows.mnen.scat.neutral 2 1 3 0 := by decide
    have n2 : ¬ Rows.mnen.scat.neutral 2 0 3 1 := by decide
    have n3 : ¬ Rows.mnen.scat.charged 2 0 3 1 := by decide
    have e := w_cross hp hm hb rfl (m₀ := c.mass .mu) (m₁ := 0) (m₂ := c.mass .e) (m₃ := 0) (fun i => by
      fin_cases i
      · rfl
      · exact hc.neutrino _
      · rfl
      · exact hc.neutrino _) ha n1 (by decide)
    rw [squared_leptons _ (by decide) (by decide) hp hm (flows_scattering _ ha hb) hu (by decide)]
    simp only [ewC_none n2 n3, zero_sub, norm_neg]
    have h : (Rows.mnen.scat.states : ℝ) * Rows.mnen.scat.symmetry = 2 := by
      have : Rows.mnen.scat.states * Rows.mnen.scat.symmetry = 2 := by decide
      exact_mod_cast this
    rw [e, h]
    ring

omit [FPEnv] in
theorem w_rows : ∀ x ∈ wForms, x.row ∈ fourFermion := by
  unfold wForms
  simp only [List.forall_mem_cons, List.not_mem_nil, false_implies, implies_true, and_true]
  simp [fourFermion]

omit [FPEnv] in
/-- The table has the classes where a W is all that is exchanged: neither a neutral boson nor a gluon. -/
theorem C83_classes : ∀ R ∈ fourFermion, R ∈ wForms.map Exchanged.row ↔
    R.scat.theory = .standard ∧ ∀ i ∈ R.scat.ends, ∀ j ∈ R.scat.starts, (R.scat.leg i).flavour ≠ (R.scat.leg j).flavour := by
  have h : wForms.map Exchanged.row = [Rows.udtb, Rows.ubdt, Rows.udnl, Rows.ulnd, Rows.menn, Rows.mnen] := rfl
  rw [h]
  intro R hR
  constructor
  · simp only [List.mem_cons, List.not_mem_nil, or_false]
    rintro (rfl | rfl | rfl | rfl | rfl | rfl) <;> decide
  · revert R
    unfold fourFermion
    simp only [List.forall_mem_cons, List.not_mem_nil, false_implies, implies_true, and_true]
    repeat' apply And.intro
    all_goals first | exact fun h => absurd h (by decide) | exact fun _ => by simp

/-- Any object of one of the classes, however used before, returns the formula. -/
theorem C83_textbook {x : Exchanged} (hx : x ∈ wForms) (mem : Nat → XR) (junk : Kin XR XC) (par : Nat → XR) (ops : List (ProcOp XR XC)) {c : Constants}
    (hpar : ∀ n q, x.row.pars[n]? = some (some q) → parAfter x.row.proc.massPar ops par n = fin (c.get q)) (hc : c.Physical)
    {o : Obj XR XC} (ho : o = runProcOps x.row.proc ops (x.row.proc.construct mem junk par).2) {p : Nat → V4 ℝ} (hs : ∀ i : Fin 4, OnShell (p i) (c.mass (x.row.scat.leg i).flavour)) (hb : Balanced p)
    (hr : x.row.scat.Regular c p) (j : Kin XR XC) (xs : List (MCall XR XC)) (l : Loc XR XC) :
    (x.row.proc.runSetMomenta j (fun i => (p i).toX) o).1 = .ok () ∧
    (x.row.proc.method l .r x.row.proc.amp2 [] (runCalls x.row.proc xs (x.row.proc.runSetMomenta j (fun i => (p i).toX) o).2)).1 = .ok (fin (x.formula c p)) := by
  obtain ⟨u, hu⟩ := C65_spinors x.row.scat hs (Row.nonneg hc)
  have hk : x.ok c ∧ (none ∈ x.row.pars → c.WZ = 0) := by
    revert hx; clear * -
    unfold wForms
    simp only [List.mem_cons, List.not_mem_nil, or_false]
    rintro (rfl | rfl | rfl | rfl | rfl | rfl) <;> exact ⟨trivial, fun h => absurd h (by simp [Rows.udtb, Rows.ubdt, Rows.udnl, Rows.ulnd, Rows.menn, Rows.mnen])⟩
  rw [← w_formulas x hx c p u hc hk.1 hk.2 hs hb hr hu]
  exact C65_feynman (w_rows x hx) mem junk par ops hpar hc hk.2 ho hs hb hr hu j xs l

/-- The Feynman rules give the same formula. -/
theorem C83_rules {x : Exchanged} (hx : x ∈ wForms) {c : Constants} (hc : c.Physical) (hk : x.ok c) (hz : none ∈ x.row.pars → c.WZ = 0) {p : Nat → V4 ℝ}
    (hs : ∀ i : Fin 4, OnShell (p i) (c.mass (x.row.scat.leg i).flavour)) (hb : Balanced p) (hr : x.row.scat.Regular c p) {u : Fin 4 → Fin 2 → Spinor} (hu : ∀ i, x.row.scat.Complete c p i (u i)) :
    x.row.scat.squared c p u = x.formula c p := w_formulas x hx c p u hc hk hz hs hb hr hu

/-! ### limits -/

/-- Without masses the formula is that of the four-fermion theory. -/
theorem C83_massless (M s t u : ℝ) : chargedCurrents 0 0 0 0 M s t u = 4 * s ^ 2 := by
  unfold chargedCurrents alongTransfer
  ring

/-- Two neutrinos, one on each line, as in `menn` and `mnen`. -/
theorem C83_neutrinos (m m' M s t u : ℝ) :
    chargedCurrents m 0 0 m' M s t u = 4 * (s - m ^ 2) * (s - m' ^ 2) + 4 / M ^ 2 * (m ^ 2 * m' ^ 2 * u) + m ^ 2 * (m ^ 2 - t) * (m' ^ 2 * (m' ^ 2 - t)) / M ^ 4 := by
  unfold chargedCurrents alongTransfer
  ring

/-- The lines can be exchanged, and each reaction has the formula of its reverse. -/
theorem C83_symmetric (a b c d M s t u : ℝ) : chargedCurrents a b c d M s t u = chargedCurrents c d a b M s t u ∧ chargedCurrents a b c d M s t u = chargedCurrents b a d c M s t u := by
  unfold chargedCurrents alongTransfer
  constructor <;> ring

/-! ### example -/

/-- A quark and an antiquark of masses 3 into another pair through the W. -/
example (mem : Nat → XR) (junk : Kin XR XC) (l : Loc XR XC) :
    (Cls.udtb.method l .r Cls.udtb.amp2 [] (Cls.udtb.runSetMomenta junk (fun i => (exFermions i).toX)
      (Cls.udtb.construct mem junk fun n => if n = 0 then fin 1 else if n = 5 then fin 4 else if n = 6 then fin (1 / 10) else if n = 7 then fin (3 / 5) else fin 3).2).2).1 =
    .ok (fin ((25 / 18) ^ 2 / (84 ^ 2 + (2 / 5) ^ 2) / 4 * (74425 / 4))) := by
  have hc : exConst.Physical := ⟨by norm_num [exConst], by norm_num [exConst], by norm_num [exConst], fun g => by simp [exConst], fun f hf => by simp [exConst, hf]⟩
  have hb : Balanced exFermions := by constructor <;> norm_num [exFermions]
  have hs : ∀ i : Fin 4, OnShell (exFermions i) (exConst.mass (Rows.udtb.scat.leg i).flavour) := by
    intro i
    have : exConst.mass (Rows.udtb.scat.leg i).flavour = 3 := by fin_cases i <;> rfl
    rw [this]
    fin_cases i <;> constructor <;> norm_num [exFermions]
  have e1 : mandelstamS exFermions = 100 := by norm_num [mandelstamS, msq, exFermions]
  have e2 : mandelstamT exFermions = -32 := by norm_num [mandelstamT, msq, exFermions]
  have e3 : mandelstamU exFermions = -32 := by norm_num [mandelstamU, msq, exFermions]
  have q1 : msq (Rows.udtb.scat.transfer exFermions 1 0) = 100 := by rw [(Scattering.transfer_pair (S := Rows.udtb.scat) (by decide) hb).1, e1]
  have n1 : ¬ Rows.udtb.scat.neutral 1 0 2 3 := by decide
  have n2 : ¬ Rows.udtb.scat.neutral 1 3 2 0 := by decide
  have n3 : ¬ Rows.udtb.scat.charged 1 3 2 0 := by decide
  have hr : Rows.udtb.scat.Regular exConst exFermions :=
    ⟨⟨fun h => absurd h n1, fun _ h => by
        have := congrArg Complex.re h
        norm_num [breitWigner, q1, exConst] at this⟩, ⟨fun h => absurd h n2, fun h => absurd h.2 n3⟩⟩
  have h := (C83_textbook (x := ⟨Rows.udtb, fun _ => True, fun c p => wSquared c (mandelstamS p) / 4 * chargedCurrents (c.mass .u) (c.mass .d) (c.mass .b) (c.mass .t) c.MW (mandelstamU p) (mandelstamS p) (mandelstamT p)⟩) (by simp [wForms])
    mem junk (fun n => if n = 0 then fin 1 else if n = 5 then fin 4 else if n = 6 then fin (1 / 10) else if n = 7 then fin (3 / 5) else fin 3) [] (c := exConst) (by
      intro n q h
      match n with
      | 0 => cases h; rfl
      | 1 => cases h; rfl
      | 2 => cases h; rfl
      | 3 => cases h; rfl
      | 4 => cases h; rfl
      | 5 => cases h; rfl
      | 6 => cases h; rfl
      | 7 => cases h; rfl
      | n + 8 => cases h) hc rfl hs hb hr junk [] l).2
  have m : ∀ f : Flavour, f.kind ≠ .neutrino → exConst.mass f = 3 := fun f hf => by simp [exConst, hf]
  have e : wSquared exConst (mandelstamS exFermions) / 4 * chargedCurrents (exConst.mass .u) (exConst.mass .d) (exConst.mass .b) (exConst.mass .t) exConst.MW (mandelstamU exFermions) (mandelstamS exFermions) (mandelstamT exFermions) =
      (25 / 18) ^ 2 / (84 ^ 2 + (2 / 5) ^ 2) / 4 * (74425 / 4) := by
    rw [e1, e2, e3, m .u (by decide), m .d (by decide), m .b (by decide), m .t (by decide)]
    norm_num [wSquared, chargedCurrents, alongTransfer, exConst]
  dsimp only at h
  rw [e] at h
  exact h

end
end Spinas.Props
