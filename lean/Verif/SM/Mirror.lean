import Verif.SM.HelicityMean
import Verif.SM.FourBosons

/-! Complex conjugation of an amplitude without chiral couplings and widths reverses the helicities and keeps the momenta (reflection together with reversal of time). -/

namespace Spinas
open Spec Matrix

namespace Mirror

/-! ### spinors -/

/-- `gamma^0 gamma^1 gamma^3`, which turns the complex conjugates of the Dirac matrices into the Dirac matrices -/
def matB : M4 := !![0, 0, 0, 1; 0, 0, -1, 0; 0, 1, 0, 0; -1, 0, 0, 0]

/-- the spinor of the reflected state -/
noncomputable def tw (w : Spinor) : Spinor := matB *ᵥ star w

theorem bar_apply (v : Spinor) : bar v = ![star (v 2), star (v 3), star (v 0), star (v 1)] := by
  ext i; fin_cases i <;> simp [bar, gamma, Matrix.vecMul, dotProduct, Fin.sum_univ_four]
theorem tw_apply (v : Spinor) : tw v = ![star (v 3), -star (v 2), star (v 1), -star (v 0)] := by
  ext i; fin_cases i <;> simp [tw, matB, Matrix.mulVec, dotProduct, Fin.sum_univ_four]

/-- `M'` is the reflection of `M`. -/
def Reflects (M M' : M4) : Prop := M' * matB = matB * M.map star

theorem gamma_conj (μ : Fin 4) : Reflects (gamma μ) (gamma μ) := by
  unfold Reflects
  fin_cases μ <;> ext i j <;> fin_cases i <;> fin_cases j <;> simp [gamma, matB, Matrix.mul_apply, Fin.sum_univ_four]

theorem metric_conj (μ : Fin 4) : (starRingEnd ℂ) (metric μ) = metric μ := by fin_cases μ <;> simp [metric]
theorem four_conj (k : V4 ℝ) (μ : Fin 4) : (starRingEnd ℂ) (four k μ) = four k μ := by fin_cases μ <;> simp [four]

namespace Reflects
variable {M M' N N' : M4}
theorem add (h : Reflects M M') (h' : Reflects N N') : Reflects (M + N) (M' + N') := by
  unfold Reflects at *
  have : (M + N).map star = M.map star + N.map star := by ext i j; simp
  rw [this, add_mul, mul_add, h, h']
theorem mul (h : Reflects M M') (h' : Reflects N N') : Reflects (M * N) (M' * N') := by
  unfold Reflects at *
  have : (M * N).map star = M.map star * N.map star := by ext i j; simp [Matrix.mul_apply]
  rw [this, ← mul_assoc, ← h, mul_assoc, h', mul_assoc]
theorem smul (h : Reflects M M') (z : ℂ) : Reflects (z • M) (star z • M') := by
  unfold Reflects at *
  have : (z • M).map star = star z • M.map star := by ext i j; simp
  rw [this, Matrix.smul_mul, Matrix.mul_smul, h]
theorem real (h : Reflects M M') (z : ℝ) : Reflects ((z : ℂ) • M) ((z : ℂ) • M') := by simpa using h.smul (z : ℂ)
theorem zero : Reflects 0 0 := by
  unfold Reflects
  have : (0 : M4).map star = 0 := by ext i j; simp
  rw [this, zero_mul, mul_zero]
theorem one : Reflects 1 1 := by
  unfold Reflects
  have : (1 : M4).map star = 1 := by ext i j; by_cases h : i = j <;> simp [Matrix.one_apply, h]
  rw [this, one_mul, mul_one]
theorem sum {f f' : Fin 4 → M4} (h : ∀ μ, Reflects (f μ) (f' μ)) : Reflects (∑ μ, f μ) (∑ μ, f' μ) := by
  rw [Fin.sum_univ_four, Fin.sum_univ_four]
  exact (((h 0).add (h 1)).add (h 2)).add (h 3)

theorem slashV (ε : Vec) : Reflects (slashV ε) (Spec.slashV (star ε)) := sum fun μ => by
  have := (gamma_conj μ).smul (metric μ * ε μ)
  simpa [metric_conj, mul_comm] using this
theorem slash (k : V4 ℝ) : Reflects (slash k) (Spec.slash k) := sum fun μ => by
  have := (gamma_conj μ).smul (metric μ * four k μ)
  simpa [metric_conj, four_conj, mul_comm] using this

theorem sandwich (h : Reflects M M') (w w' : Spinor) : bar (tw w') ⬝ᵥ (M' *ᵥ tw w) = star (bar w' ⬝ᵥ (M *ᵥ w)) := by
  have hb : ∀ x : Spinor, bar (tw w') ⬝ᵥ (matB *ᵥ x) = star (bar w') ⬝ᵥ x := by
    intro x
    rw [bar_apply, bar_apply, tw_apply]
    simp [matB, dotProduct, Matrix.mulVec, Fin.sum_univ_four]
    ring
  have e : M' *ᵥ tw w = matB *ᵥ (M.map star *ᵥ star w) := by rw [tw, mulVec_mulVec, h, mulVec_mulVec]
  rw [e, hb]
  simp [dotProduct, Matrix.mulVec, map_sum]

end Reflects

/-- completeness -/
theorem outer (M : M4) (h : Reflects M M) (s : Finset (Fin 3)) (u : Fin 3 → Spinor) (hu : ∑ t ∈ s, vecMulVec (u t) (bar (u t)) = M) : ∑ t ∈ s, vecMulVec (tw (u t)) (bar (tw (u t))) = M := by
  have hB : matB * matB = -1 := by ext i j; fin_cases i <;> fin_cases j <;> simp [matB, Matrix.mul_apply, Fin.sum_univ_four]
  have e : ∀ v : Spinor, vecMulVec (tw v) (bar (tw v)) = matB * (vecMulVec v (bar v)).map star * -matB := by
    intro v
    have e1 : bar (tw v) = star (bar v) ᵥ* -matB := by
      rw [bar_apply, bar_apply, tw_apply]
      ext i; fin_cases i <;> simp [matB, Matrix.vecMul, dotProduct, Fin.sum_univ_four]
    have e2 : (vecMulVec v (bar v)).map star = vecMulVec (star v) (star (bar v)) := by ext i j; simp [vecMulVec_apply]
    rw [e1, e2, tw, Matrix.mul_vecMulVec, Matrix.vecMulVec_mul]
  have e2 : (∑ t ∈ s, vecMulVec (u t) (bar (u t))).map star = ∑ t ∈ s, (vecMulVec (u t) (bar (u t))).map star := by ext i j; simp [Matrix.sum_apply]
  simp only [e]
  rw [← Finset.sum_mul, ← Finset.mul_sum, ← e2, hu, ← h, mul_assoc, mul_neg, hB, neg_neg, mul_one]

/-! ### bosons -/

/-- bosons with the same coupling to left-handed and right-handed fermions -/
def plain : Boson → Bool
  | .photon | .gluon | .higgs => true
  | _ => false

theorem absorb_mirror (c : Constants) (f : Flavour) (ε : Vec) {b : Boson} (hb : plain b = true) : Reflects (absorb c f ε b) (absorb c f (star ε) b) := by
  cases b <;> first | cases hb | skip
  · exact Reflects.one.real _
  · exact (Reflects.slashV ε).real _
  · exact (Reflects.slashV ε).real _

theorem propagator_mirror (c : Constants) (x : Flavour) (k : V4 ℝ) : Reflects (slash k + (c.mass x : ℂ) • 1) (slash k + (c.mass x : ℂ) • 1) := (Reflects.slash k).add (Reflects.one.real _)

theorem compton_mirror (c : Constants) (f g : Flavour) (l : V4 ℝ) (w w' : Spinor) {a b : Line} (ha : plain a.boson = true) (hb : plain b.boson = true) :
    compton c f g l (tw w) (tw w') a.bar b.bar = star (compton c f g l w w' a b) := by
  unfold compton
  cases Spec.after a.boson f with
  | none => simp
  | some x =>
    dsimp only
    split_ifs
    · rw [star_div₀, ← (((absorb_mirror c x b.ε hb).mul (propagator_mirror c x _)).mul (absorb_mirror c f a.ε ha)).sandwich]
      congr 1
      exact (Complex.conj_ofReal _).symm
    · simp

theorem vertex_mirror (c : Constants) (f g : Flavour) (w w' : Spinor) (ε : Vec) {x : Boson} (hx : plain x = true) : vertex c f g (tw w) (tw w') (star ε) x = star (vertex c f g w w' ε x) := by
  unfold vertex
  split_ifs
  · exact (absorb_mirror c f ε hx).sandwich w w'
  · simp

theorem carry_eq {c : Constants} {x : Boson} (hx : c.bosonWidth x = 0) (q : V4 ℝ) (J : Vec) : carry c x q J = propagate c x q J := by
  unfold carry propagate denominator pole
  rw [hx]
  congr 2
  simp [breitWigner, Complex.ext_iff]

theorem gluonFusion_mirror (c : Constants) (f g : Flavour) (w w' : Spinor) (a b : Line) : gluonFusion c f g (tw w) (tw w') a.bar b.bar = star (gluonFusion c f g w w' a b) := by
  unfold gluonFusion
  simp only [Line.bar]
  split_ifs
  · rw [← vertex_mirror _ _ _ _ _ _ rfl, yangMills_star, ← carry_eq (x := .gluon) rfl _ ((c.gs : ℂ) • yangMills a.k a.ε b.k b.ε), ← propagate_star]
    simp [star_smul]
  · simp

/-- A photon or gluon and a photon, gluon or Higgs boson do not become a single boson other than a gluon. -/
theorem annihilation_zero (c : Constants) (f g : Flavour) (w w' : Spinor) {a b : Line} (ha : plain a.boson = true) (hb : plain b.boson = true) (h : ¬(a.boson = .higgs ∧ b.boson = .higgs)) :
    annihilation c f g w w' a b = 0 := by
  have hH : toHiggs c a b = 0 := by
    unfold toHiggs
    rw [if_neg h]
    cases e1 : a.boson <;> cases e2 : b.boson <;> simp_all [higgs2, plain]
  have hV : ∀ x, toVector c a b x = 0 := by
    intro x
    unfold toVector
    cases e1 : a.boson <;> cases e2 : b.boson <;> simp_all [higgs2, gauge3, plain]
  have hP : ∀ x q, propagate c x q 0 = 0 := fun x q => by simp [propagate, contract_zero]
  have hA : ∀ x ∈ carriers, absorb c f 0 x = 0 := by
    intro x hx
    fin_cases hx <;> simp [absorb, slashV]
  unfold annihilation
  simp only [hH, hV, hP, zero_mul, zero_add]
  refine List.sum_eq_zero fun y hy => ?_
  rw [List.mem_map] at hy
  obtain ⟨x, hx, rfl⟩ := hy
  unfold vertex
  rw [hA x hx]
  simp

/-- `mediated` with conjugate polarisation vectors, for a photon -/
theorem between_eq {c : Constants} (hW : c.WW = 0) {a : Line} (ha : a.boson = .photon) (b d e : Line) : between c a b d e = mediated c a b d e := by
  have hH : toHiggs c a b = 0 := by unfold toHiggs; simp [ha, higgs2]
  have hV : ∀ x : Boson, x = .photon ∨ x = .z → toVector c a b x = 0 := by
    intro x hx
    unfold toVector
    rcases hx with rfl | rfl <;> cases e2 : b.boson <;> simp [ha, higgs2, gauge3, Boson.anti]
  have hP : ∀ x q, propagate c x q 0 = 0 := fun x q => by simp [propagate, contract_zero]
  have hC : ∀ x q, carry c x q 0 = 0 := fun x q => by simp [carry, contract_zero]
  unfold between mediated
  simp only [carriers, List.map_cons, List.map_nil, List.sum_cons, List.sum_nil, hH, hV _ (Or.inl rfl), hV _ (Or.inr rfl), hP, hC, contract_zero_left, zero_div, zero_mul, zero_add, add_zero,
    carry_eq (show c.bosonWidth .wPlus = 0 from hW), carry_eq (show c.bosonWidth .wMinus = 0 from hW), Boson.anti]

theorem fourBosons_mirror {c : Constants} (hW : c.WW = 0) {a : Line} (ha : a.boson = .photon) (b d e : Line) : fourBosons c a.bar b.bar d.bar e.bar = star (fourBosons c a b d e) := by
  have := fourBosons_star c a b d e
  rw [between_eq hW ha, between_eq hW ha, between_eq hW ha] at this
  rw [← star_star (fourBosons c a.bar b.bar d.bar e.bar), this]
  rfl

/-! ### colours -/

/-- the signs of the Gell-Mann matrices under complex conjugation -/
def sign (a : Fin 8) : ℝ := ![1, -1, 1, 1, -1, 1, -1, 1] a

theorem gellMann_conj (a : Fin 8) : (gellMann a).map star = (sign a : ℂ) • gellMann a := by
  fin_cases a <;> ext i j <;> fin_cases i <;> fin_cases j <;> simp [gellMann, sign, map_ofNat]

theorem sign_norm (a : Fin 8) : |sign a| = 1 := by fin_cases a <;> simp [sign]

end Mirror

namespace Spec.Reaction
open Mirror
variable (S : Reaction) {c : Constants} {p : Nat → V4 ℝ}

theorem line_mirror (ε : Fin 4 → Vec) (n : Fin 4) : S.line p (fun n => star (ε n)) n = (S.line p ε n).bar := by
  unfold line
  split_ifs <;> rfl

/-- sign of a colour matrix under complex conjugation -/
def signOf (γ : Fin 4 → Fin 8) (n : Fin 4) : ℝ := if S.boson n = .gluon then sign (γ n) else 1

theorem signOf_norm (γ : Fin 4 → Fin 8) (n : Fin 4) : |S.signOf γ n| = 1 := by
  unfold signOf
  split_ifs
  · exact sign_norm _
  · simp

theorem colour_mirror (γ : Fin 4 → Fin 8) (n : Fin 4) : (S.colour γ n).map star = (S.signOf γ n : ℂ) • S.colour γ n := by
  unfold colour signOf
  split_ifs
  · have : ((1 / 2 : ℂ) • gellMann (γ n)).map star = (1 / 2 : ℂ) • (gellMann (γ n)).map star := by ext i j; simp [map_ofNat]
    rw [this, gellMann_conj, smul_comm]
  · ext i j; by_cases h : i = j <;> simp [Matrix.one_apply, h]

theorem colours_mirror (γ : Fin 4 → Fin 8) (a b : Fin 4) (i j : Fin 3) : star ((S.colour γ a * S.colour γ b) i j) = ((S.signOf γ a * S.signOf γ b : ℝ) : ℂ) * (S.colour γ a * S.colour γ b) i j := by
  have h : ∀ n i j, star (S.colour γ n i j) = (S.signOf γ n : ℂ) * S.colour γ n i j := fun n i j => by
    have := congrFun (congrFun (S.colour_mirror γ n) i) j
    simpa using this
  rw [Matrix.mul_apply, star_sum, Finset.mul_sum]
  refine Finset.sum_congr rfl fun k _ => ?_
  rw [star_mul', h, h]
  push_cast
  ring

/-- no chiral couplings and no exchange of a boson of nonzero width -/
structure Plain (c : Constants) : Prop where
  line : ∀ i j a b, S.ends = [i] → S.starts = [j] → S.bosons = [a, b] → plain (S.boson a) = true ∧ plain (S.boson b) = true ∧ ¬(S.boson a = .higgs ∧ S.boson b = .higgs)
  four : ∀ a b d e, S.bosons = [a, b, d, e] → S.boson a = .photon ∧ arrives a = true ∧ c.WW = 0

theorem plain_anti {b : Boson} (h : plain b = true) : b.anti = b := by cases b <;> first | rfl | cases h

variable {S}
theorem amplitude_mirror (h : S.Plain c) (κ : Fin 4 → Fin 3) (γ : Fin 4 → Fin 8) (w : Fin 4 → Spinor) (ε : Fin 4 → Vec) :
    ‖S.amplitude c p κ γ (fun n => tw (w n)) (fun n => star (ε n))‖ = ‖S.amplitude c p κ γ w ε‖ := by
  unfold amplitude
  split
  · rename_i i j a b e1 e2 e3
    obtain ⟨ha, hb, hab⟩ := h.line i j a b e1 e2 e3
    have hB : ∀ n, plain (S.boson n) = true → (S.line p ε n).boson = S.boson n := by
      intro n hn
      unfold line
      split_ifs
      · rfl
      · exact plain_anti hn
    have hpa : plain (S.line p ε a).boson = true := by rw [hB a ha]; exact ha
    have hpb : plain (S.line p ε b).boson = true := by rw [hB b hb]; exact hb
    have hn : ¬((S.line p ε a).boson = .higgs ∧ (S.line p ε b).boson = .higgs) := by rw [hB a ha, hB b hb]; exact hab
    have e : S.oneLine c p κ γ (fun n => tw (w n)) (fun n => star (ε n)) i j a b = ((S.signOf γ a * S.signOf γ b : ℝ) : ℂ) * star (S.oneLine c p κ γ w ε i j a b) := by
      have hs : ((S.signOf γ a * S.signOf γ b : ℝ) : ℂ) * ((S.signOf γ a * S.signOf γ b : ℝ) : ℂ) = 1 := by
        have h1 := S.signOf_norm γ a
        have h2 := S.signOf_norm γ b
        rw [← Complex.ofReal_mul, ← sq, ← sq_abs, abs_mul, h1, h2]
        norm_num
      have c1 := S.colours_mirror γ a b (κ i) (κ j)
      have c2 := S.colours_mirror γ b a (κ i) (κ j)
      rw [mul_comm (S.signOf γ b)] at c2
      unfold oneLine
      dsimp only
      rw [S.line_mirror, S.line_mirror, annihilation_zero _ _ _ _ _ hpa hpb hn, annihilation_zero _ _ _ _ _ (a := (S.line p ε a).bar) (b := (S.line p ε b).bar) hpa hpb hn,
        compton_mirror _ _ _ _ _ _ hpa hpb, compton_mirror _ _ _ _ _ _ hpb hpa, gluonFusion_mirror]
      simp only [star_add, star_mul', Matrix.sub_apply, star_sub, c1, c2, mul_zero, star_zero, add_zero]
      generalize ((S.signOf γ a * S.signOf γ b : ℝ) : ℂ) = s at hs
      linear_combination (-((S.colour γ b * S.colour γ a) (κ i) (κ j) * star (compton c (S.flavour j) (S.flavour i) (S.along p j) (w j) (w i) (S.line p ε a) (S.line p ε b)))
        - (S.colour γ a * S.colour γ b) (κ i) (κ j) * star (compton c (S.flavour j) (S.flavour i) (S.along p j) (w j) (w i) (S.line p ε b) (S.line p ε a))
        - ((S.colour γ b * S.colour γ a) (κ i) (κ j) - (S.colour γ a * S.colour γ b) (κ i) (κ j)) * star (gluonFusion c (S.flavour j) (S.flavour i) (w j) (w i) (S.line p ε a) (S.line p ε b))) * hs
    rw [e, norm_mul, norm_star, Complex.norm_real, Real.norm_eq_abs, abs_mul, S.signOf_norm, S.signOf_norm]
    norm_num
  · rename_i n₀ n₁ n₂ n₃ e1 e2 e3
    obtain ⟨h0, h1, hW⟩ := h.four _ _ _ _ e3
    have hl : (S.line p ε n₀).boson = .photon := by simp [line, h1, h0]
    have hG : ∀ a b d e : Line, a.boson = .photon → fourGluons c (γ n₀) (γ n₁) (γ n₂) (γ n₃) a b d e = 0 := fun a b d e h => by simp [fourGluons, h]
    rw [S.line_mirror, S.line_mirror, S.line_mirror, S.line_mirror, fourBosons_mirror hW hl, hG _ _ _ _ hl, hG (S.line p ε n₀).bar _ _ _ hl, add_zero, add_zero, norm_star]
  · rfl

/-- the opposite helicities -/
def opposite (H : Fin 4 → Option Bool) (n : Fin 4) : Option Bool := (H n).map not

theorem circular_mirror {k : V4 ℝ} {r : Bool} {ε : Vec} (h : Circular k r ε) : Circular k (!r) (star ε) := by
  have hI : ∀ r : Bool, star (if r then -Complex.I else Complex.I) = if !r then -Complex.I else Complex.I := by intro r; cases r <;> simp
  have e1 := congrArg star h.x
  have e2 := congrArg star h.y
  have e3 := congrArg star h.z
  rw [star_mul', hI] at e1 e2 e3
  refine ⟨h.energy, ?_, ?_, ?_, ?_⟩
  · have := congrArg star h.norm
    rw [star_contract_star] at this
    simpa using this
  · simpa [mul_comm] using e1
  · simpa [mul_comm] using e2
  · simpa [mul_comm] using e3

theorem complete_mirror {n : Fin 4} {u : Fin 3 → Spinor} {ε : Fin 3 → Vec} (h : S.Complete c p n u ε) : S.Complete c p n (fun t => tw (u t)) (fun t => star (ε t)) := by
  unfold Complete at *
  cases hl : S.leg n with
  | fermion f a =>
    rw [hl] at h
    refine outer _ ?_ _ _ h
    refine (Reflects.slash _).add ?_
    cases a
    · exact Reflects.one.real _
    · simpa using Reflects.one.real (-c.mass f)
  | boson b =>
    rw [hl] at h
    simpa using polarised_star h true

theorem prepared_reflected {n : Fin 4} {r : Option Bool} {u : Fin 3 → Spinor} {ε : Fin 3 → Vec} (h : S.Prepared c p n r u ε) : S.Prepared c p n (r.map not) (fun t => tw (u t)) (fun t => star (ε t)) := by
  cases r with
  | none => exact complete_mirror h
  | some r => exact circular_mirror h

/-- The squared amplitudes for opposite helicities are the same. -/
theorem prepared_mirror (h : S.Plain c) (H : Fin 4 → Option Bool) (u : Fin 4 → Fin 3 → Spinor) (ε : Fin 4 → Fin 3 → Vec) :
    S.prepared c p (opposite H) (fun n t => tw (u n t)) (fun n t => star (ε n t)) = S.prepared c p H u ε := by
  have e : ∀ n, (opposite H n).isSome = (H n).isSome := fun n => by simp [opposite]
  have e1 : S.someSpins (opposite H) = S.someSpins H := funext fun n => by simp [someSpins, e]
  have e2 : S.someStates (opposite H) = S.someStates H := funext fun n => by simp [someStates, e]
  unfold prepared
  rw [e1, e2]
  simp only [amplitude_mirror h]

end Spec.Reaction
end Spinas
