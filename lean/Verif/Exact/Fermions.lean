import Verif.Exact.Dirac

/-! Sums over the spins and colours of four fermions. -/

namespace Spinas
open Spec Matrix

/-! ### independence of the choice of spinors -/

/-- linear in `f u` -/
def Along (f : Spinor → Spinor) (ψ : Spinor → ℂ) : Prop := ∃ c : Spinor, ∀ u, ψ u = c ⬝ᵥ f u

namespace Along
variable {f : Spinor → Spinor} {ψ φ : Spinor → ℂ}
theorem zero : Along f (fun _ => 0) := ⟨0, fun u => by simp⟩
theorem add (h : Along f ψ) (h' : Along f φ) : Along f (fun u => ψ u + φ u) := by
  obtain ⟨c, hc⟩ := h; obtain ⟨d, hd⟩ := h'
  exact ⟨c + d, fun u => by simp only [hc, hd, add_dotProduct]⟩
theorem mul_right (h : Along f ψ) (a : ℂ) : Along f (fun u => ψ u * a) := by
  obtain ⟨c, hc⟩ := h
  exact ⟨a • c, fun u => by simp only [hc, smul_dotProduct, smul_eq_mul, mul_comm]⟩
theorem mul_left (h : Along f ψ) (a : ℂ) : Along f (fun u => a * ψ u) := by
  obtain ⟨c, hc⟩ := h
  exact ⟨a • c, fun u => by simp only [hc, smul_dotProduct, smul_eq_mul]⟩
theorem sub (h : Along f ψ) (h' : Along f φ) : Along f (fun u => ψ u - φ u) := by
  have := h.add (h'.mul_left (-1))
  simpa [sub_eq_add_neg] using this
theorem div (h : Along f ψ) (a : ℂ) : Along f (fun u => ψ u / a) := by
  simpa [div_eq_mul_inv] using h.mul_right a⁻¹
theorem sum {ι : Type} (s : Finset ι) {ψ : ι → Spinor → ℂ} (h : ∀ i, Along f (ψ i)) : Along f (fun u => ∑ i ∈ s, ψ i u) := by
  choose c hc using h
  exact ⟨∑ i ∈ s, c i, fun u => by simp only [hc, sum_dotProduct]⟩

theorem ite {P : Prop} [Decidable P] (h : Along f ψ) (h' : Along f φ) : Along f (fun u => if P then ψ u else φ u) := by
  by_cases hP : P <;> simpa [hP]

theorem bar_left (v : Spinor) : Along star (fun u => bar u ⬝ᵥ v) := ⟨gamma 0 *ᵥ v, fun u => by simp only [bar]; rw [← Matrix.dotProduct_mulVec, dotProduct_comm]⟩
theorem bar_right (u : Spinor) : Along id (fun v => bar u ⬝ᵥ v) := ⟨bar u, fun _ => rfl⟩
theorem current_left (gL gR : ℂ) (b : Spinor) (μ : Fin 4) : Along star (fun u => current gL gR u b μ) := bar_left _
theorem current_right (gL gR : ℂ) (a : Spinor) (μ : Fin 4) : Along id (fun u => current gL gR a u μ) := by
  refine ⟨bar a ᵥ* (gamma μ * chiral gL gR), fun u => ?_⟩
  simp only [current]
  rw [Matrix.dotProduct_mulVec]; rfl

theorem contract_left {j : Spinor → Fin 4 → ℂ} (k : Fin 4 → ℂ) (h : ∀ μ, Along f (fun u => j u μ)) : Along f (fun u => contract (j u) k) :=
  sum _ fun μ => ((h μ).mul_left _).mul_right _
theorem contract_right {j : Spinor → Fin 4 → ℂ} (k : Fin 4 → ℂ) (h : ∀ μ, Along f (fun u => j u μ)) : Along f (fun u => contract k (j u)) :=
  sum _ fun μ => (h μ).mul_left _

theorem massless₁ (b c d : Spinor) (q : V4 ℝ) : Along star (fun u => exchangeMassless u b c d q) := (contract_left _ fun μ => current_left _ _ _ _).div _
theorem massless₂ (a c d : Spinor) (q : V4 ℝ) : Along id (fun u => exchangeMassless a u c d q) := (contract_left _ fun μ => current_right _ _ _ _).div _
theorem massless₃ (a b d : Spinor) (q : V4 ℝ) : Along star (fun u => exchangeMassless a b u d q) := (contract_right _ fun μ => current_left _ _ _ _).div _
theorem massless₄ (a b c : Spinor) (q : V4 ℝ) : Along id (fun u => exchangeMassless a b c u q) := (contract_right _ fun μ => current_right _ _ _ _).div _
theorem massive₁ (m w gL gR hL hR : ℝ) (b c d : Spinor) (q : V4 ℝ) : Along star (fun u => exchangeMassive m w gL gR hL hR u b c d q) :=
  ((contract_left _ fun μ => current_left _ _ _ _).sub (((contract_right _ fun μ => current_left _ _ _ _).mul_right _).div _)).div _
theorem massive₂ (m w gL gR hL hR : ℝ) (a c d : Spinor) (q : V4 ℝ) : Along id (fun u => exchangeMassive m w gL gR hL hR a u c d q) :=
  ((contract_left _ fun μ => current_right _ _ _ _).sub (((contract_right _ fun μ => current_right _ _ _ _).mul_right _).div _)).div _
theorem massive₃ (m w gL gR hL hR : ℝ) (a b d : Spinor) (q : V4 ℝ) : Along star (fun u => exchangeMassive m w gL gR hL hR a b u d q) :=
  ((contract_right _ fun μ => current_left _ _ _ _).sub (((contract_right _ fun μ => current_left _ _ _ _).mul_left _).div _)).div _
theorem massive₄ (m w gL gR hL hR : ℝ) (a b c : Spinor) (q : V4 ℝ) : Along id (fun u => exchangeMassive m w gL gR hL hR a b c u q) :=
  ((contract_right _ fun μ => current_right _ _ _ _).sub (((contract_right _ fun μ => current_right _ _ _ _).mul_left _).div _)).div _
theorem scalar₁ (m w : ℝ) (b c d : Spinor) (q : V4 ℝ) : Along star (fun u => exchangeScalar m w u b c d q) := ((bar_left _).mul_right _).div _
theorem scalar₂ (m w : ℝ) (a c d : Spinor) (q : V4 ℝ) : Along id (fun u => exchangeScalar m w a u c d q) := ((bar_right _).mul_right _).div _
theorem scalar₃ (m w : ℝ) (a b d : Spinor) (q : V4 ℝ) : Along star (fun u => exchangeScalar m w a b u d q) := ((bar_left _).mul_left _).div _
theorem scalar₄ (m w : ℝ) (a b c : Spinor) (q : V4 ℝ) : Along id (fun u => exchangeScalar m w a b c u q) := ((bar_right _).mul_left _).div _

/-- Sums of squares depend only on the sums of products of the components. -/
theorem swap_id (h : Along id ψ) {u v : Fin 2 → Spinor} (g : ∑ s, vecMulVec (u s) (star (u s)) = ∑ s, vecMulVec (v s) (star (v s))) : ∑ s, ‖ψ (u s)‖ ^ 2 = ∑ s, ‖ψ (v s)‖ ^ 2 := by
  obtain ⟨c, hc⟩ := h
  have key : ∀ w : Fin 2 → Spinor, ((∑ s, ‖ψ (w s)‖ ^ 2 : ℝ) : ℂ) = c ⬝ᵥ ((∑ s, vecMulVec (w s) (star (w s))) *ᵥ star c) := by
    intro w
    push_cast
    rw [Matrix.sum_mulVec, dotProduct_sum]
    refine Finset.sum_congr rfl fun s _ => ?_
    rw [← Complex.mul_conj', hc, vecMulVec_mulVec, ← Complex.star_def, ← Matrix.star_dotProduct_star]
    simp [dotProduct_smul, mul_comm]
  exact_mod_cast (key u).trans (g ▸ (key v).symm)

theorem swap_star (h : Along star ψ) {u v : Fin 2 → Spinor} (g : ∑ s, vecMulVec (u s) (star (u s)) = ∑ s, vecMulVec (v s) (star (v s))) : ∑ s, ‖ψ (u s)‖ ^ 2 = ∑ s, ‖ψ (v s)‖ ^ 2 := by
  obtain ⟨c, hc⟩ := h
  have h' : Along id (fun u => star (ψ u)) := ⟨star c, fun u => by simp only [hc]; rw [← Matrix.star_dotProduct_star, star_star, dotProduct_comm]; rfl⟩
  simpa using h'.swap_id g

end Along

/-- four nested sums -/
def quad (α : Type) : (Fin 4 → α) ≃ α × α × α × α where
  toFun f := (f 0, f 1, f 2, f 3)
  invFun t := ![t.1, t.2.1, t.2.2.1, t.2.2.2]
  left_inv f := by ext i; fin_cases i <;> rfl
  right_inv _ := rfl

theorem sum_quad {α M : Type} [Fintype α] [DecidableEq α] [AddCommMonoid M] (F : (Fin 4 → α) → M) : ∑ s, F s = ∑ a, ∑ b, ∑ c, ∑ d, F ![a, b, c, d] := by
  rw [← (quad α).symm.sum_comp F, Fintype.sum_prod_type]
  refine Finset.sum_congr rfl fun a _ => ?_
  rw [Fintype.sum_prod_type]
  refine Finset.sum_congr rfl fun b _ => ?_
  rw [Fintype.sum_prod_type]
  rfl

theorem swap_four {F : (Fin 4 → Spinor) → ℝ} {u v : Fin 4 → Fin 2 → Spinor}
    (h : ∀ i w, ∑ s, F (Function.update w i (u i s)) = ∑ s, F (Function.update w i (v i s))) :
    ∑ s : Fin 4 → Fin 2, F (fun i => u i (s i)) = ∑ s : Fin 4 → Fin 2, F (fun i => v i (s i)) := by
  have e : ∀ x : Fin 4 → Fin 2 → Spinor, ∑ s : Fin 4 → Fin 2, F (fun i => x i (s i)) = ∑ a, ∑ b, ∑ c, ∑ d, F ![x 0 a, x 1 b, x 2 c, x 3 d] := by
    intro x
    rw [sum_quad]
    refine Finset.sum_congr rfl fun a _ => Finset.sum_congr rfl fun b _ => Finset.sum_congr rfl fun c _ => Finset.sum_congr rfl fun d _ => ?_
    congr 1
    ext i; fin_cases i <;> rfl
  have u0 : ∀ a b c d a' : Spinor, Function.update ![a, b, c, d] 0 a' = ![a', b, c, d] := by intros; ext i; fin_cases i <;> rfl
  have u1 : ∀ a b c d a' : Spinor, Function.update ![a, b, c, d] 1 a' = ![a, a', c, d] := by intros; ext i; fin_cases i <;> rfl
  have u2 : ∀ a b c d a' : Spinor, Function.update ![a, b, c, d] 2 a' = ![a, b, a', d] := by intros; ext i; fin_cases i <;> rfl
  have u3 : ∀ a b c d a' : Spinor, Function.update ![a, b, c, d] 3 a' = ![a, b, c, a'] := by intros; ext i; fin_cases i <;> rfl
  have h0 := fun b c d => h 0 ![0, b, c, d]
  have h1 := fun a c d => h 1 ![a, 0, c, d]
  have h2 := fun a b d => h 2 ![a, b, 0, d]
  have h3 := fun a b c => h 3 ![a, b, c, 0]
  simp only [u0, u1, u2, u3, Fin.sum_univ_two] at h0 h1 h2 h3
  rw [e, e]
  simp only [Fin.sum_univ_two]
  linear_combination (h3 (u 0 0) (u 1 0) (u 2 0) + h3 (u 0 0) (u 1 0) (u 2 1) + h3 (u 0 0) (u 1 1) (u 2 0) + h3 (u 0 0) (u 1 1) (u 2 1) +
      h3 (u 0 1) (u 1 0) (u 2 0) + h3 (u 0 1) (u 1 0) (u 2 1) + h3 (u 0 1) (u 1 1) (u 2 0) + h3 (u 0 1) (u 1 1) (u 2 1)) +
    (h2 (u 0 0) (u 1 0) (v 3 0) + h2 (u 0 0) (u 1 0) (v 3 1) + h2 (u 0 0) (u 1 1) (v 3 0) + h2 (u 0 0) (u 1 1) (v 3 1) +
      h2 (u 0 1) (u 1 0) (v 3 0) + h2 (u 0 1) (u 1 0) (v 3 1) + h2 (u 0 1) (u 1 1) (v 3 0) + h2 (u 0 1) (u 1 1) (v 3 1)) +
    (h1 (u 0 0) (v 2 0) (v 3 0) + h1 (u 0 0) (v 2 0) (v 3 1) + h1 (u 0 0) (v 2 1) (v 3 0) + h1 (u 0 0) (v 2 1) (v 3 1) +
      h1 (u 0 1) (v 2 0) (v 3 0) + h1 (u 0 1) (v 2 0) (v 3 1) + h1 (u 0 1) (v 2 1) (v 3 0) + h1 (u 0 1) (v 2 1) (v 3 1)) +
    (h0 (v 1 0) (v 2 0) (v 3 0) + h0 (v 1 0) (v 2 0) (v 3 1) + h0 (v 1 0) (v 2 1) (v 3 0) + h0 (v 1 0) (v 2 1) (v 3 1) +
      h0 (v 1 1) (v 2 0) (v 3 0) + h0 (v 1 1) (v 2 0) (v 3 1) + h0 (v 1 1) (v 2 1) (v 3 0) + h0 (v 1 1) (v 2 1) (v 3 1))

namespace Spec.Scattering
variable (S : Scattering) (c : Constants) (p : Nat → V4 ℝ)

/-- the exchanges as a function of the spinors -/
noncomputable def exchanges (κ : Fin 4 → Fin 3) (i j k l : Fin 4) (w x y z : Spinor) : ℂ :=
  delta (κ i) (κ j) * delta (κ k) (κ l) * ((if S.neutral i j k l then
    (c.e ^ 2 * (S.leg i).flavour.charge * (S.leg k).flavour.charge : ℝ) * exchangeMassless w x y z (S.transfer p i j) +
    (if S.theory = .standard then
      (c.e ^ 2 / (c.SW ^ 2 * c.CW ^ 2) : ℝ) * exchangeMassive c.MZ c.WZ (c.gL (S.leg i).flavour) (c.gR (S.leg i).flavour) (c.gL (S.leg k).flavour) (c.gR (S.leg k).flavour) w x y z (S.transfer p i j) -
      (c.e ^ 2 * c.mass (S.leg i).flavour * c.mass (S.leg k).flavour / (4 * c.MW ^ 2 * c.SW ^ 2) : ℝ) * exchangeScalar c.MH c.WH w x y z (S.transfer p i j)
    else 0)
  else 0) +
  (if S.theory = .standard ∧ S.charged i j k l then
    (c.e ^ 2 / (2 * c.SW ^ 2) : ℝ) * exchangeMassive c.MW c.WW 1 0 1 0 w x y z (S.transfer p i j)
  else 0)) + gluonColour (κ i) (κ j) (κ k) (κ l) *
  (if S.theory = .standard ∧ S.neutral i j k l ∧ (S.leg i).flavour.quark ∧ (S.leg k).flavour.quark then
    (c.gs ^ 2 : ℝ) * exchangeMassless w x y z (S.transfer p i j)
  else 0)

theorem connected_eq (κ : Fin 4 → Fin 3) (w : Fin 4 → Spinor) (i j k l : Fin 4) : S.connected c p κ w i j k l = S.exchanges c p κ i j k l (w i) (w j) (w k) (w l) := rfl

theorem exchanges_along (κ : Fin 4 → Fin 3) (i j k l : Fin 4) (w x y z : Spinor) :
    Along star (fun u => S.exchanges c p κ i j k l u x y z) ∧ Along id (fun u => S.exchanges c p κ i j k l w u y z) ∧
    Along star (fun u => S.exchanges c p κ i j k l w x u z) ∧ Along id (fun u => S.exchanges c p κ i j k l w x y u) := by
  refine ⟨?_, ?_, ?_, ?_⟩ <;> unfold exchanges
  · exact .add (.mul_left (.add (.ite (.add (.mul_left (.massless₁ ..) _) (.ite (.sub (.mul_left (.massive₁ ..) _) (.mul_left (.scalar₁ ..) _)) .zero)) .zero) (.ite (.mul_left (.massive₁ ..) _) .zero)) _)
      (.mul_left (.ite (.mul_left (.massless₁ ..) _) .zero) _)
  · exact .add (.mul_left (.add (.ite (.add (.mul_left (.massless₂ ..) _) (.ite (.sub (.mul_left (.massive₂ ..) _) (.mul_left (.scalar₂ ..) _)) .zero)) .zero) (.ite (.mul_left (.massive₂ ..) _) .zero)) _)
      (.mul_left (.ite (.mul_left (.massless₂ ..) _) .zero) _)
  · exact .add (.mul_left (.add (.ite (.add (.mul_left (.massless₃ ..) _) (.ite (.sub (.mul_left (.massive₃ ..) _) (.mul_left (.scalar₃ ..) _)) .zero)) .zero) (.ite (.mul_left (.massive₃ ..) _) .zero)) _)
      (.mul_left (.ite (.mul_left (.massless₃ ..) _) .zero) _)
  · exact .add (.mul_left (.add (.ite (.add (.mul_left (.massless₄ ..) _) (.ite (.sub (.mul_left (.massive₄ ..) _) (.mul_left (.scalar₄ ..) _)) .zero)) .zero) (.ite (.mul_left (.massive₄ ..) _) .zero)) _)
      (.mul_left (.ite (.mul_left (.massless₄ ..) _) .zero) _)

theorem connected_along (κ : Fin 4 → Fin 3) (w : Fin 4 → Spinor) {i j k l : Fin 4} (hd : [i, j, k, l].Nodup) :
    Along star (fun u => S.connected c p κ (Function.update w i u) i j k l) ∧ Along id (fun u => S.connected c p κ (Function.update w j u) i j k l) ∧
    Along star (fun u => S.connected c p κ (Function.update w k u) i j k l) ∧ Along id (fun u => S.connected c p κ (Function.update w l u) i j k l) := by
  simp only [List.nodup_cons, List.mem_cons, List.not_mem_nil, or_false, not_or, not_false_eq_true, List.nodup_nil, and_true] at hd
  obtain ⟨⟨h1, h2, h3⟩, ⟨h4, h5⟩, h6⟩ := hd
  have e := S.exchanges_along c p κ i j k l (w i) (w j) (w k) (w l)
  simp only [connected_eq, Function.update_self, Function.update_of_ne, ne_eq, h1, h2, h3, h4, h5, h6, Ne.symm h1, Ne.symm h2, Ne.symm h3, Ne.symm h4, Ne.symm h5, Ne.symm h6, not_false_eq_true]
  exact e

theorem ends_starts (i : Fin 4) : i ∈ S.ends ∨ i ∈ S.starts := by
  have : i ∈ [0, 1, 2, 3] := by fin_cases i <;> simp
  simp only [ends, starts, List.mem_filter, this, true_and]
  cases outgoing i <;> cases (S.leg i).anti <;> simp

theorem ends_starts_nodup : (S.ends ++ S.starts).Nodup := by
  have h : ([0, 1, 2, 3] : List (Fin 4)).Nodup := by decide
  refine List.nodup_append.2 ⟨h.filter _, h.filter _, fun a ha b hb hab => ?_⟩
  subst hab
  simp only [ends, starts, List.mem_filter] at ha hb
  have := ha.2
  have := hb.2
  revert ha hb
  cases outgoing a <;> cases (S.leg a).anti <;> simp

/-- The amplitude is linear in the spinors where lines start and antilinear where they end. -/
theorem amplitude_along (κ : Fin 4 → Fin 3) (w : Fin 4 → Spinor) (i : Fin 4) :
    Along id (fun u => S.amplitude c p κ (Function.update w i u)) ∨ Along star (fun u => S.amplitude c p κ (Function.update w i u)) := by
  have hm := S.ends_starts i
  have hn := S.ends_starts_nodup
  simp only [amplitude]
  split
  · rename_i a b d e h1 h2
    rw [h1, h2] at hm hn
    have n1 : [a, d, b, e].Nodup := by simp at hn ⊢; tauto
    have n2 : [a, e, b, d].Nodup := by simp at hn ⊢; tauto
    have x := S.connected_along c p κ w n1
    have y := S.connected_along c p κ w n2
    simp only [List.mem_cons, List.not_mem_nil, or_false] at hm
    rcases hm with (rfl | rfl) | (rfl | rfl)
    · exact .inr (x.1.sub y.1)
    · exact .inr (x.2.2.1.sub y.2.2.1)
    · exact .inl (x.2.1.sub y.2.2.2)
    · exact .inl (x.2.2.2.sub y.2.1)
  · exact .inl .zero

/-- The squared amplitude does not depend on the choice of the spinors. -/
theorem squared_basis {u v : Fin 4 → Fin 2 → Spinor} (h : ∀ i, S.Complete c p i (u i)) (h' : ∀ i, S.Complete c p i (v i)) : S.squared c p u = S.squared c p v := by
  unfold squared
  rw [Finset.sum_comm]
  refine congrArg (· / _) (Eq.trans ?_ Finset.sum_comm)
  refine Finset.sum_congr rfl fun κ _ => ?_
  generalize hF : (fun w => ‖S.amplitude c p κ w‖ ^ 2) = F
  have hF' : ∀ w, ‖S.amplitude c p κ w‖ ^ 2 = F w := fun w => congrFun hF w
  simp only [hF']
  refine swap_four fun i w => ?_
  simp only [← hF']
  have g := gram_of_complete ((h i).trans (h' i).symm)
  rcases S.amplitude_along c p κ w i with e | e
  · exact e.swap_id g
  · exact e.swap_star g

end Spec.Scattering

/-! ### colours -/

/-- completeness of the Gell-Mann matrices -/
theorem gluonColour_eq (i j k l : Fin 3) : gluonColour i j k l = 1 / 2 * (delta i l * delta k j) - 1 / 6 * (delta i j * delta k l) := by
  have h3 : ((√3 : ℝ) : ℂ) * (√3 : ℝ) = 3 := by
    rw [← Complex.ofReal_mul, Real.mul_self_sqrt (by norm_num)]; norm_num
  have hn : ((√3 : ℝ) : ℂ) ≠ 0 := by
    intro h; rw [h] at h3; norm_num at h3
  have hI : Complex.I * Complex.I = -1 := Complex.I_mul_I
  have hv : (((√3 : ℝ) : ℂ)⁻¹) ^ 2 = 1 / 3 := by
    rw [inv_pow, pow_two, h3]; norm_num
  unfold gluonColour
  simp only [Fin.sum_univ_eight]
  fin_cases i <;> fin_cases j <;> fin_cases k <;> fin_cases l <;> simp [gellMann, delta, div_eq_mul_inv] <;> first | done | linear_combination hv | (ring_nf; simp only [hv, Complex.I_sq]; norm_num; done)

/-- sums over the colours of four particles -/
theorem sum_colours {M : Type} [AddCommMonoid M] (t : Fin 4 → Finset (Fin 3)) (F : (Fin 4 → Fin 3) → M) :
    ∑ κ ∈ Fintype.piFinset t, F κ = ∑ a ∈ t 0, ∑ b ∈ t 1, ∑ c ∈ t 2, ∑ d ∈ t 3, F ![a, b, c, d] := by
  have e : Fintype.piFinset t = Finset.univ.filter fun κ => κ 0 ∈ t 0 ∧ κ 1 ∈ t 1 ∧ κ 2 ∈ t 2 ∧ κ 3 ∈ t 3 := by
    ext κ
    simp [Fintype.mem_piFinset, Fin.forall_fin_succ]
  rw [e, Finset.sum_filter, sum_quad]
  have f : ∀ a b c d : Fin 3, (![a, b, c, d] : Fin 4 → Fin 3) 0 = a ∧ (![a, b, c, d] : Fin 4 → Fin 3) 1 = b ∧ (![a, b, c, d] : Fin 4 → Fin 3) 2 = c ∧ (![a, b, c, d] : Fin 4 → Fin 3) 3 = d :=
    fun _ _ _ _ => ⟨rfl, rfl, rfl, rfl⟩
  have g : ∀ (s : Finset (Fin 3)) (G : Fin 3 → M), ∑ a ∈ s, G a = ∑ a, if a ∈ s then G a else 0 := by
    intro s G
    rw [Finset.sum_ite_mem, Finset.univ_inter]
  rw [g (t 0)]
  refine Finset.sum_congr rfl fun a _ => ?_
  by_cases h0 : a ∈ t 0
  · rw [if_pos h0, g (t 1)]
    refine Finset.sum_congr rfl fun b _ => ?_
    by_cases h1 : b ∈ t 1
    · rw [if_pos h1, g (t 2)]
      refine Finset.sum_congr rfl fun c _ => ?_
      by_cases h2 : c ∈ t 2
      · rw [if_pos h2, g (t 3)]
        refine Finset.sum_congr rfl fun d _ => ?_
        simp [f, h0, h1, h2]
      · simp [f, h2]
    · simp [f, h1]
  · simp [f, h0]

/-- Colour sum for two lines of quarks; `a`, `b` are the amplitudes of the two ways to connect the lines, `g`, `h` those with gluons, without colour factors. -/
theorem colour_sum (a b g h : ℂ) : ∑ i, ∑ j, ∑ k, ∑ l,
    ‖delta i j * delta k l * a + gluonColour i j k l * g - (delta i l * delta k j * b + gluonColour i l k j * h)‖ ^ 2 =
    9 * ‖a‖ ^ 2 + 2 * ‖g‖ ^ 2 + 9 * ‖b‖ ^ 2 + 2 * ‖h‖ ^ 2 - 6 * (a * star b).re + 4 / 3 * (g * star h).re - 8 * (g * star b).re - 8 * (h * star a).re := by
  have e : ∀ i j k l : Fin 3, delta i j * delta k l * a + gluonColour i j k l * g - (delta i l * delta k j * b + gluonColour i l k j * h) =
      delta i j * delta k l * (a - g / 6 - h / 2) + delta i l * delta k j * (-b + g / 2 + h / 6) := by
    intro i j k l
    rw [gluonColour_eq, gluonColour_eq]
    ring
  simp only [e]
  have n : ∀ x y : ℂ, ∑ i, ∑ j, ∑ k, ∑ l, ‖delta i j * delta k l * x + delta i l * delta k j * y‖ ^ 2 = 6 * ‖x‖ ^ 2 + 6 * ‖y‖ ^ 2 + 3 * ‖x + y‖ ^ 2 := by
    intro x y
    simp only [Fin.sum_univ_three]
    simp [delta]
    ring
  rw [n]
  simp only [← Complex.normSq_eq_norm_sq, Complex.normSq_apply]
  simp
  ring

end Spinas
