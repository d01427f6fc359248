import Verif.SM.FourGluons
import Verif.SM.BosonRows
import Verif.SM.GluonRows
import Verif.SM.Electron
import Verif.Props.FeynmanLight

/-! C75: two gluons into two gluons according to the Feynman rules (exact arithmetic). -/

namespace Spinas.Props
open SM Spec Spec.Reaction XR Matrix

noncomputable section

/-- The structure constants in the specification are those of the colour group: `[T a, T b] = i Σ f a b d T d` with `T a` half the Gell-Mann matrices. -/
theorem C75_structure (a b : Fin 8) : ((1 / 2 : ℂ) • gellMann a) * ((1 / 2 : ℂ) • gellMann b) - ((1 / 2 : ℂ) • gellMann b) * ((1 / 2 : ℂ) • gellMann a) =
    Complex.I • ∑ d, structureConstant a b d • ((1 / 2 : ℂ) • gellMann d) := by
  show com (gen a) (gen b) = Complex.I • ∑ d, structureConstant a b d • gen d
  ext i j
  have h := sum_gen_trace (com (gen a) (gen b)) (Matrix.single j i 1)
  have e : ∀ M : Matrix (Fin 3) (Fin 3) ℂ, (M * Matrix.single j i 1).trace = M i j := fun M => by simp [Matrix.trace_mul_single]
  rw [com_trace] at h
  simp only [e] at h
  simp only [Matrix.smul_apply, Matrix.sum_apply, smul_eq_mul, structureConstant_eq, Matrix.trace_mul_comm (com (gen a) (gen b)) (gen _), Finset.mul_sum]
  have k : ∀ x, Complex.I * (-2 * Complex.I * (gen x * com (gen a) (gen b)).trace * gen x i j) = 2 * ((gen x * com (gen a) (gen b)).trace * gen x i j) := fun x => by
    linear_combination (-2 * ((gen x * com (gen a) (gen b)).trace * gen x i j)) * Complex.I_sq
  rw [Finset.sum_congr rfl fun x _ => k x, ← Finset.mul_sum, h]
  ring

variable [FPEnv]

/-- C75. The class `gggg` returns the squared amplitude of the Feynman rules for two gluons into two gluons, with the vertices of three and of four gluons: for any object of the class, whatever was
done to it before, any coupling, any momenta of massless particles off the poles and any polarisation vectors that describe the states. -/
theorem C75_feynman (mem : Nat → XR) (junk : Kin XR XC) (par : Nat → XR) (ops : List (ProcOp XR XC)) {c : Constants} (hpar : parAfter Cls.gggg.massPar ops par 0 = fin c.gs) (hc : c.Physical) (hh : c.Heavy)
    {o : Obj XR XC} (ho : o = runProcOps Cls.gggg ops (Cls.gggg.construct mem junk par).2) {p : Nat → V4 ℝ} (hs : ∀ i : Fin 4, OnShell (p i) 0) (hb : Balanced p)
    (hr : Rows.gggg.react.Regular c p) {u : Fin 4 → Fin 3 → Spinor} {ε : Fin 4 → Fin 3 → Vec} (hu : ∀ i, Rows.gggg.react.Complete c p i (u i) (ε i)) (j : Kin XR XC) (xs : List (MCall XR XC)) (l : Loc XR XC) :
    (Cls.gggg.runSetMomenta j (fun i => (p i).toX) o).1 = .ok () ∧
    (Cls.gggg.method l .r Cls.gggg.amp2 [] (runCalls Cls.gggg xs (Cls.gggg.runSetMomenta j (fun i => (p i).toX) o).2)).1 = .ok (fin (Rows.gggg.react.squared c p u ε)) :=
  Rows.gggg.agrees.2.2 mem junk par ops c p u ε o j xs l (fun h => absurd h (by decide)) (fun n q h => by
    match n with
    | 0 => cases h; exact hpar
    | n + 1 => cases h) hc hh (by simp [Rows.gggg]) ho (fun i => by have := hs i; fin_cases i <;> exact this) hb hr hu

/-- the methods for given helicities -/
def gluonMethods : List (String × Nat × (Fin 4 → Option Bool)) :=
  [("amp2_gplus_gplus", 3, ![some true, some true, none, none]), ("amp2_gplus_gminus", 4, ![some true, some false, none, none]), ("amp2_gminus_gplus", 5, ![some false, some true, none, none]),
    ("amp2_gminus_gminus", 6, ![some false, some false, none, none])]

omit [FPEnv] in
theorem C75_names : Cls.gggg.others = ("amp2_Feynman", 1) :: gluonMethods.map fun x => (x.1, x.2.1) := by decide +kernel

/-- The same for gluons of given helicities. -/
theorem C75_polarised {name : String} {k : Nat} {H : Fin 4 → Option Bool} (hH : (name, k, H) ∈ gluonMethods) (mem : Nat → XR) (junk : Kin XR XC) (par : Nat → XR) (ops : List (ProcOp XR XC)) {c : Constants}
    (hpar : parAfter Cls.gggg.massPar ops par 0 = fin c.gs) (hc : c.Physical) (hh : c.Heavy)
    {o : Obj XR XC} (ho : o = runProcOps Cls.gggg ops (Cls.gggg.construct mem junk par).2) {p : Nat → V4 ℝ} (hs : ∀ i : Fin 4, OnShell (p i) 0) (hb : Balanced p)
    (hr : Rows.gggg.react.Regular c p) {u : Fin 4 → Fin 3 → Spinor} {ε : Fin 4 → Fin 3 → Vec} (hu : ∀ i, Rows.gggg.react.Prepared c p i (H i) (u i) (ε i)) (j : Kin XR XC) (xs : List (MCall XR XC)) (l : Loc XR XC) :
    (Cls.gggg.runSetMomenta j (fun i => (p i).toX) o).1 = .ok () ∧
    (Cls.gggg.method l .r k [] (runCalls Cls.gggg xs (Cls.gggg.runSetMomenta j (fun i => (p i).toX) o).2)).1 = .ok (fin (Rows.gggg.react.prepared c p H u ε)) := by
  have all : ∀ x ∈ gluonMethods, Rows.gggg.Polarises x.2.1 x.2.2 := by
    unfold gluonMethods
    simp only [List.forall_mem_cons, List.not_mem_nil, false_implies, implies_true, and_true]
    exact ⟨Rows.gggg.amp2_gplus_gplus_polarises, Rows.gggg.amp2_gplus_gminus_polarises, Rows.gggg.amp2_gminus_gplus_polarises, Rows.gggg.amp2_gminus_gminus_polarises⟩
  exact all _ hH mem junk par ops c p u ε o j xs l (fun h => absurd h (by decide)) (fun n q h => by
    match n with
    | 0 => cases h; exact hpar
    | n + 1 => cases h) hc hh (by simp [Rows.gggg]) ho (fun i => by have := hs i; fin_cases i <;> exact this) hb hr hu

omit [FPEnv] in
theorem gluons_regular {c : Constants} {p : Nat → V4 ℝ} (h : mandelstamS p ≠ 0 ∧ mandelstamT p ≠ 0 ∧ mandelstamU p ≠ 0) : Rows.gggg.react.Regular c p := by
  obtain ⟨eS, eT, eU⟩ := Rows.gggg.stu (p := p)
  obtain ⟨hS, hT, hU⟩ := h
  have d : ∀ {x : Boson}, Reaction.meets .gluon .gluon x = true → x = .gluon := by intro x; cases x <;> decide
  refine ⟨?_, ?_, ?_⟩
  all_goals
    intro x _ h2
    have : x = .gluon := d h2
    subst this
    rw [denominator_gluon]
  · show ((msq (plus (Rows.gggg.k p 0) (Rows.gggg.k p 1)) : ℝ) : ℂ) ≠ 0
    rw [eS]; exact_mod_cast hS
  · show ((msq (plus (Rows.gggg.k p 0) (Rows.gggg.k p 2)) : ℝ) : ℂ) ≠ 0
    rw [eT]; exact_mod_cast hT
  · show ((msq (plus (Rows.gggg.k p 0) (Rows.gggg.k p 3)) : ℝ) : ℂ) ≠ 0
    rw [eU]; exact_mod_cast hU

/-- The Feynman rules give the textbook formula (C64). -/
theorem C75_textbook {c : Constants} (hc : c.Physical) (hh : c.Heavy) {p : Nat → V4 ℝ} (hs : ∀ i, i < 4 → OnShell (p i) 0) (hb : Balanced p) (h0 : mandelstamS p ≠ 0) (ht : mandelstamT p ≠ 0) (hu : mandelstamU p ≠ 0)
    {u : Fin 4 → Fin 3 → Spinor} {ε : Fin 4 → Fin 3 → Vec} (he : ∀ i, Rows.gggg.react.Complete c p i (u i) (ε i)) :
    Rows.gggg.react.squared c p u ε = gluonGluon c.gs (mandelstamS p) (mandelstamT p) (mandelstamU p) := by
  have a := (C75_feynman (fun _ => fin 0) junkK (fun _ => fin c.gs) [] (c := c) rfl hc hh (o := _) rfl (p := p) (fun i => hs i i.isLt) hb (gluons_regular ⟨h0, ht, hu⟩) he junkK [] ⟨fun _ => 0, fun _ => fin 0, fun _ => ofC 0⟩).2
  have b := (C64_gluons (fun _ => fin 0) junkK (fun _ => fin c.gs) (g := c.gs) rfl [] (o := _) rfl hs hb h0 ht hu junkK [] ⟨fun _ => 0, fun _ => fin 0, fun _ => ofC 0⟩).2.1
  have e := a.symm.trans b
  simpa using e

omit [FPEnv] in
/-- With C65, C67, C68, C69, C70 (for `WdWd`), C71 and C72 this covers all classes but `eeAZ` (C73). -/
theorem C75_complete : ∀ P ∈ SM.all, P.name = "eeAZ" ∨ P.name = "WdWd" ∨ (∃ R ∈ fourFermion, R.proc.name = P.name) ∨
    ∃ R ∈ withBosons ++ withLight ++ [Rows.eeAh, Rows.eAeh, Rows.nnWW, Rows.nWWn] ++ withGluons ++ withPhotons ++ [Rows.gggg], R.proc.name = P.name := by
  decide +kernel

/-! ### the hypotheses can be met -/

/-- gluons of energy 5 with coupling 2 -/
example (mem : Nat → XR) (junk : Kin XR XC) (l : Loc XR XC) : ∃ (u : Fin 4 → Fin 3 → Spinor) (ε : Fin 4 → Fin 3 → Vec), (∀ n, Rows.gggg.react.Complete exMass exGluons n (u n) (ε n)) ∧
    (Cls.gggg.method l .r Cls.gggg.amp2 [] (Cls.gggg.runSetMomenta junk (fun i => (exGluons i).toX) (Cls.gggg.construct mem junk fun _ => fin 2).2).2).1 = .ok (fin (Rows.gggg.react.squared exMass exGluons u ε)) ∧
    Rows.gggg.react.squared exMass exGluons u ε = 753571 / 225 := by
  have hS : mandelstamS exGluons = 100 := by norm_num [mandelstamS, msq, exGluons]
  have hT : mandelstamT exGluons = -10 := by norm_num [mandelstamT, msq, exGluons]
  have hU : mandelstamU exGluons = -90 := by norm_num [mandelstamU, msq, exGluons]
  have n0 : mandelstamS exGluons ≠ 0 ∧ mandelstamT exGluons ≠ 0 ∧ mandelstamU exGluons ≠ 0 := by rw [hS, hT, hU]; norm_num
  have hs : ∀ i : Fin 4, OnShell (exGluons i) 0 := fun i => exGluons_onShell i i.isLt
  obtain ⟨u, ε, hu⟩ := C68_states Rows.gggg.react exMass_physical exMass_heavy (p := exGluons) (fun i => by have := hs i; fin_cases i <;> exact this) (fun n _ => by fin_cases n <;> norm_num [exGluons])
  refine ⟨u, ε, hu, (C75_feynman mem junk (fun _ => fin 2) [] (c := exMass) rfl exMass_physical exMass_heavy (o := _) rfl hs exGluons_balanced (gluons_regular n0) hu junk [] l).2, ?_⟩
  rw [C75_textbook exMass_physical exMass_heavy exGluons_onShell exGluons_balanced n0.1 n0.2.1 n0.2.2 hu, hS, hT, hU]
  norm_num [gluonGluon, exMass]

end
end Spinas.Props
