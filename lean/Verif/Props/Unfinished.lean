import Verif.Props.FeynmanLight

/-! C73: the class `eeAZ` is unfinished: its squared amplitude is zero whatever the momenta, that of the Feynman rules is not. -/

namespace Spinas.Props
open SM Spec Spec.Reaction XR Matrix

section
variable {R C : Type} [Scalar R] [HasPow R] [Cplx R C]

/-- `n` times `amp2 += std::pow(std::abs(M),2)` with `M = 0` -/
def idle (R C : Type) [Scalar R] [HasPow R] [Cplx R C] : Nat → R
  | 0 => int 0
  | n + 1 => idle R C n + HasPow.pow (Cplx.abs (ofReal (int 0 : R) : C) : R) 2

set_option maxRecDepth 20000 in
/-- C73. In any arithmetic and any state of the object, `amp2()` adds 36 squares of zero ... -/
theorem C73_idle (l : Loc R C) (o : Obj R C) : Cls.eeAZ.method l .r Cls.eeAZ.amp2 [] o = (.ok (idle R C 36 / int 4), o) := rfl

end

noncomputable section
variable [FPEnv]

theorem idle_zero (n : Nat) : idle XR XC n = fin 0 := by
  induction n with
  | zero => simp [idle]
  | succ n ih =>
    have : (Cplx.abs (ofReal (int 0 : XR) : XC) : XR) = fin 0 := by
      rw [show (ofReal (int 0 : XR) : XC) = ofC 0 by simp [ofC]]; simp
    rw [idle, ih, this]; simp

/-- ... which is zero in exact arithmetic, whatever the parameters, the momenta and the calls before ... -/
theorem C73_zero (l : Loc XR XC) (o : Obj XR XC) : Cls.eeAZ.method l .r Cls.eeAZ.amp2 [] o = (.ok (fin 0), o) := by
  rw [C73_idle, idle_zero, s_int, fin_div (by norm_num)]; norm_num

/-! ### the Feynman rules -/

def eeAZ : Reaction := ⟨![.fermion ⟨.lepton, 0⟩ false, .fermion ⟨.lepton, 0⟩ true, .boson .photon, .boson .z]⟩

/-- an electron and a positron of mass 5 and energy 13 make a photon and a Z boson of mass 5 -/
def exAZ (i : Nat) : V4 ℝ := if i = 0 then ⟨13, 0, 0, 12⟩ else if i = 1 then ⟨13, 0, 0, -12⟩ else if i = 2 then ⟨651 / 52, 651 / 52, 0, 0⟩ else ⟨701 / 52, -651 / 52, 0, 0⟩

omit [FPEnv] in
theorem exMass_CW : exMass.CW = 4 / 5 := by
  show √(1 - 3 / 5 * (3 / 5)) = 4 / 5
  rw [show (1 - 3 / 5 * (3 / 5) : ℝ) = (4 / 5) ^ 2 by norm_num]
  exact Real.sqrt_sq (by norm_num)
omit [FPEnv] in
theorem exMass_MZ : exMass.MZ = 5 := by show exMass.MW / exMass.CW = 5; rw [exMass_CW]; norm_num [exMass]

omit [FPEnv] in
theorem exAZ_shell (i : Fin 4) : OnShell (exAZ i) (eeAZ.mass exMass i) := by
  have : eeAZ.mass exMass i = (![5, 5, 0, 5] : Fin 4 → ℝ) i := by fin_cases i; exacts [rfl, rfl, rfl, exMass_MZ]
  rw [this]
  fin_cases i <;> constructor <;> norm_num [exAZ]

omit [FPEnv] in
theorem exAZ_regular : eeAZ.Regular exMass exAZ := by
  refine ⟨?_, ?_, ?_⟩
  · intro x h _
    cases h
    show msq (plus (exAZ 0) (backward (exAZ 2))) - (5 : ℝ) ^ 2 ≠ 0
    norm_num [msq, plus, exAZ, backward]
  · intro x h _
    cases h
    show msq (plus (exAZ 0) (backward (exAZ 3))) - (5 : ℝ) ^ 2 ≠ 0
    norm_num [msq, plus, exAZ, backward]
  · intro x h1 h2 h
    cases x <;> cases h1

set_option linter.unnecessarySeqFocus false

/-- spinors and linear polarisations -/
def exU : Fin 4 → Fin 3 → Spinor := ![![![1, 0, 5, 0], ![0, 5, 0, 1], 0], ![![5, 0, -1, 0], ![0, 1, 0, -5], 0], 0, 0]
def exE : Fin 4 → Fin 3 → Vec := ![0, 0, ![![0, 0, 1, 0], ![0, 0, 0, 1], 0], ![![0, 0, 1, 0], ![0, 0, 0, 1], ![-651 / 260, 701 / 260, 0, 0]]]

omit [FPEnv] in
theorem four_cases {P : Fin 4 → Prop} (h0 : P 0) (h1 : P 1) (h2 : P 2) (h3 : P 3) (i : Fin 4) : P i := by
  fin_cases i; exacts [h0, h1, h2, h3]

omit [FPEnv] in
theorem slashV_matrix (ε : Vec) : slashV ε = !![0, 0, ε 0 - ε 3, -ε 1 + ε 2 * Complex.I; 0, 0, -ε 1 - ε 2 * Complex.I, ε 0 + ε 3; ε 0 + ε 3, ε 1 - ε 2 * Complex.I, 0, 0; ε 1 + ε 2 * Complex.I, ε 0 - ε 3, 0, 0] := by
  simp only [slashV, Fin.sum_univ_four, gamma, metric]
  ext i j
  revert i j
  refine four_cases (four_cases ?_ ?_ ?_ ?_) (four_cases ?_ ?_ ?_ ?_) (four_cases ?_ ?_ ?_ ?_) (four_cases ?_ ?_ ?_ ?_) <;> simp <;> ring

omit [FPEnv] in
theorem slashV_act (ε : Vec) (a b c d : ℂ) : slashV ε *ᵥ ![a, b, c, d] =
    ![(ε 0 - ε 3) * c + (-ε 1 + ε 2 * Complex.I) * d, (-ε 1 - ε 2 * Complex.I) * c + (ε 0 + ε 3) * d, (ε 0 + ε 3) * a + (ε 1 - ε 2 * Complex.I) * b, (ε 1 + ε 2 * Complex.I) * a + (ε 0 - ε 3) * b] := by
  rw [slashV_matrix]
  funext i
  revert i
  refine four_cases ?_ ?_ ?_ ?_ <;> simp [Matrix.mulVec, dotProduct, Fin.sum_univ_four]

omit [FPEnv] in
theorem chiral_act (x y a b c d : ℂ) : chiral x y *ᵥ ![a, b, c, d] = ![x * a, x * b, y * c, y * d] := by
  funext i
  revert i
  refine four_cases ?_ ?_ ?_ ?_ <;> simp [chiral, Matrix.mulVec_diagonal]

omit [FPEnv] in
theorem bar_vector (u : Spinor) : bar u = ![star (u 2), star (u 3), star (u 0), star (u 1)] := by
  funext i
  revert i
  refine four_cases ?_ ?_ ?_ ?_ <;> simp [bar, gamma, Matrix.vecMul, dotProduct, Fin.sum_univ_four]

omit [FPEnv] in
theorem exAZ_complete (n : Fin 4) : eeAZ.Complete exMass exAZ n (exU n) (exE n) := by
  revert n
  refine four_cases ?_ ?_ ?_ ?_
  · show ∑ s ∈ ({0, 1} : Finset (Fin 3)), vecMulVec (exU 0 s) (bar (exU 0 s)) = slashV (four (exAZ 0)) + ((5 : ℝ) : ℂ) • 1
    rw [slashV_matrix]
    ext i j
    revert i j
    refine four_cases (four_cases ?_ ?_ ?_ ?_) (four_cases ?_ ?_ ?_ ?_) (four_cases ?_ ?_ ?_ ?_) (four_cases ?_ ?_ ?_ ?_) <;>
      simp [exU, exAZ, bar_vector, four, map_ofNat] <;> norm_num
  · show ∑ s ∈ ({0, 1} : Finset (Fin 3)), vecMulVec (exU 1 s) (bar (exU 1 s)) = slashV (four (exAZ 1)) + (-((5 : ℝ) : ℂ)) • 1
    rw [slashV_matrix]
    ext i j
    revert i j
    refine four_cases (four_cases ?_ ?_ ?_ ?_) (four_cases ?_ ?_ ?_ ?_) (four_cases ?_ ?_ ?_ ?_) (four_cases ?_ ?_ ?_ ?_) <;>
      simp [exU, exAZ, bar_vector, four, map_ofNat] <;> norm_num
  · refine ⟨⟨1, -1, 0, 0⟩, by norm_num [msq], by norm_num [dot, exAZ], ?_⟩
    rw [show Boson.photon.spins = {0, 1} from rfl]
    refine four_cases (four_cases ?_ ?_ ?_ ?_) (four_cases ?_ ?_ ?_ ?_) (four_cases ?_ ?_ ?_ ?_) (four_cases ?_ ?_ ?_ ?_) <;>
      simp [exE, exAZ, metric, four, dot] <;> norm_num
  · show ∀ μ ν, ∑ t, exE 3 t μ * star (exE 3 t ν) = -(if μ = ν then metric μ else 0) + four (exAZ 3) μ * four (exAZ 3) ν / (exMass.MZ ^ 2 : ℝ)
    rw [exMass_MZ]
    refine four_cases (four_cases ?_ ?_ ?_ ?_) (four_cases ?_ ?_ ?_ ?_) (four_cases ?_ ?_ ?_ ?_) (four_cases ?_ ?_ ?_ ?_) <;>
      simp [exE, exAZ, metric, four, Fin.sum_univ_three, map_ofNat] <;> norm_num

omit [FPEnv] in
theorem eeAZ_colour (γ : Fin 4 → Fin 8) (n : Fin 4) : eeAZ.colour γ n = 1 := by
  revert n
  refine four_cases ?_ ?_ ?_ ?_ <;> exact if_neg (by decide)

omit [FPEnv] in
theorem eeAZ_annihilation (c : Constants) (f g : Flavour) (w w' : Spinor) (k k' : V4 ℝ) (ε ε' : Vec) : annihilation c f g w w' ⟨.photon, k, ε⟩ ⟨.z, k', ε'⟩ = 0 := by
  simp [annihilation, carriers, toHiggs, toVector, higgs2, gauge3, propagate, contract, vertex, absorb, slashV]

omit [FPEnv] in
theorem eeAZ_lines (c : Constants) (p : Nat → V4 ℝ) (κ : Fin 4 → Fin 3) (hκ : κ 0 = κ 1) (γ : Fin 4 → Fin 8) (w : Fin 4 → Spinor) (ε : Fin 4 → Vec) : eeAZ.amplitude c p κ γ w ε =
    compton c ⟨.lepton, 0⟩ ⟨.lepton, 0⟩ (p 0) (w 0) (w 1) ⟨.photon, backward (p 2), star (ε 2)⟩ ⟨.z, backward (p 3), star (ε 3)⟩ +
    compton c ⟨.lepton, 0⟩ ⟨.lepton, 0⟩ (p 0) (w 0) (w 1) ⟨.z, backward (p 3), star (ε 3)⟩ ⟨.photon, backward (p 2), star (ε 2)⟩ := by
  have e1 : eeAZ.ends = [1] := by decide
  have e2 : eeAZ.starts = [0] := by decide
  have e3 : eeAZ.bosons = [2, 3] := by decide
  have h4 : eeAZ.line p ε 2 = ⟨.photon, backward (p 2), star (ε 2)⟩ := rfl
  have h5 : eeAZ.line p ε 3 = ⟨.z, backward (p 3), star (ε 3)⟩ := rfl
  have h6 : eeAZ.flavour 0 = ⟨.lepton, 0⟩ := rfl
  have h7 : eeAZ.flavour 1 = ⟨.lepton, 0⟩ := rfl
  have h8 : eeAZ.along p 0 = p 0 := rfl
  unfold Reaction.amplitude
  rw [e1, e2, e3]
  unfold oneLine
  simp only [eeAZ_colour, h4, h5, h6, h7, h8, eeAZ_annihilation, hκ, mul_one, Matrix.one_apply_eq, one_mul, mul_zero, add_zero, sub_self, Matrix.zero_apply, zero_mul]

omit [FPEnv] in
/-- one of the amplitudes -/
theorem exAZ_amplitude (κ : Fin 4 → Fin 3) (hκ : κ 0 = κ 1) (γ : Fin 4 → Fin 8) : eeAZ.amplitude exMass exAZ κ γ (fun n => exU n 0) (fun n => exE n (![0, 0, 0, 1] n)) ≠ 0 := by
  rw [eeAZ_lines exMass exAZ κ hκ γ, compton_some (x := ⟨.lepton, 0⟩) _ _ _ _ _ _ _ _ rfl rfl, compton_some (x := ⟨.lepton, 0⟩) _ _ _ _ _ _ _ _ rfl rfl]
  have h2 : star (exE 2 (![0, 0, 0, 1] 2)) = ![0, 0, 1, 0] := by ext i; revert i; refine four_cases ?_ ?_ ?_ ?_ <;> simp [exE]
  have h3 : star (exE 3 (![0, 0, 0, 1] 3)) = ![0, 0, 0, 1] := by ext i; revert i; refine four_cases ?_ ?_ ?_ ?_ <;> simp [exE]
  have m : exMass.mass ⟨.lepton, 0⟩ = 5 := rfl
  have n2 : msq (plus (exAZ 0) (backward (exAZ 2))) - 5 ^ 2 = -651 / 2 := by norm_num [msq, plus, exAZ, backward]
  have n3 : msq (plus (exAZ 0) (backward (exAZ 3))) - 5 ^ 2 = -651 / 2 := by norm_num [msq, plus, exAZ, backward]
  have gl : exMass.gL ⟨.lepton, 0⟩ = -7 / 50 := by norm_num [Constants.gL, Flavour.isospin, Flavour.charge, exMass]
  have gr : exMass.gR ⟨.lepton, 0⟩ = 9 / 25 := by norm_num [Constants.gR, Flavour.charge, exMass]
  have ch : exMass.e * Flavour.charge ⟨.lepton, 0⟩ = -1 := by norm_num [Flavour.charge, exMass]
  have q : ∀ n : Nat, slash (plus (exAZ 0) (backward (exAZ n))) = slashV (four (plus (exAZ 0) (backward (exAZ n)))) := fun _ => rfl
  have u0 : exU 0 0 = ![1, 0, 5, 0] := rfl
  have b1 : bar (exU 1 0) = ![-1, 0, 5, 0] := by rw [bar_vector]; simp [exU]
  have f2 : four (plus (exAZ 0) (backward (exAZ 2))) = ![25 / 52, -651 / 52, 0, 12] := by simp [four, plus, exAZ, backward]; norm_num
  have f3 : four (plus (exAZ 0) (backward (exAZ 3))) = ![-25 / 52, 651 / 52, 0, 12] := by simp [four, plus, exAZ, backward]; norm_num
  simp only [h2, h3, m, n2, n3, absorb, gl, gr, ch, exMass_CW, q, f2, f3, u0, b1, ← Matrix.mulVec_mulVec, Matrix.smul_mulVec, Matrix.add_mulVec, Matrix.one_mulVec, slashV_act, chiral_act,
    Matrix.smul_cons, Matrix.smul_empty, Matrix.cons_add_cons, Matrix.empty_add_empty]
  intro h
  simp [dotProduct, Fin.sum_univ_four, exMass] at h
  have : (55 / 312 : ℂ) * Complex.I = 0 := by linear_combination h
  simp at this

/-- ... but not according to the Feynman rules: an electron and a positron do make a photon and a Z boson. -/
theorem C73_rules {u : Fin 4 → Fin 3 → Spinor} {ε : Fin 4 → Fin 3 → Vec} (hu : ∀ n, eeAZ.Complete exMass exAZ n (u n) (ε n)) : 0 < eeAZ.squared exMass exAZ u ε := by
  have hb : Balanced exAZ := by constructor <;> norm_num [exAZ]
  have hg : eeAZ.Gauge exMass exAZ := gauge_line (i := 1) (j := 0) (a := 2) (b := 3) (by decide) (by decide) (by decide) exMass_heavy (by decide) (fun n => onShell_msq (exAZ_shell n)) hb exAZ_regular
    (fun n m _ h => absurd h (by revert n; decide)) (fun _ => ⟨rfl, rfl⟩) (fun h => absurd h (by decide))
  rw [eeAZ.squared_basis (fun n => onShell_msq (exAZ_shell n)) (fun _ b _ hb _ => (BRow.boson_pos exMass_physical exMass_heavy hb).ne') hg hu exAZ_complete]
  refine div_pos (Finset.sum_pos' (fun _ _ => Finset.sum_nonneg fun _ _ => Finset.sum_nonneg fun _ _ => by positivity) ⟨![0, 0, 0, 1], ?_, ?_⟩) ?_
  · rw [Fintype.mem_piFinset]; decide
  · refine Finset.sum_pos' (fun _ _ => Finset.sum_nonneg fun _ _ => by positivity) ⟨fun _ => 0, ?_, ?_⟩
    · rw [Fintype.mem_piFinset]; decide
    · refine Finset.sum_pos' (fun _ _ => by positivity) ⟨fun _ => 0, ?_, ?_⟩
      · rw [Fintype.mem_piFinset]; decide
      · have h := exAZ_amplitude (fun _ => 0) rfl (fun _ => 0)
        have e : (fun n => exU n (![0, 0, 0, 1] n)) = fun n => exU n 0 := by
          funext n
          revert n
          refine four_cases rfl rfl rfl ?_
          simp [exU]
        rw [e]
        exact pow_pos (norm_pos_iff.2 h) 2
  · rw [show eeAZ.states 0 = 2 by decide, show eeAZ.states 1 = 2 by decide, show eeAZ.symmetry = 1 by decide]
    norm_num

/-- The hypotheses are met by `exU` and `exE`: at these momenta the class returns 0 and the rules do not. -/
theorem C73_unfinished (l : Loc XR XC) (o : Obj XR XC) : ∃ (u : Fin 4 → Fin 3 → Spinor) (ε : Fin 4 → Fin 3 → Vec), (∀ n, eeAZ.Complete exMass exAZ n (u n) (ε n)) ∧
    (Cls.eeAZ.method l .r Cls.eeAZ.amp2 [] o).1 = .ok (fin 0) ∧ 0 < eeAZ.squared exMass exAZ u ε :=
  ⟨exU, exE, exAZ_complete, by rw [C73_zero], C73_rules exAZ_complete⟩

end
end Spinas.Props
