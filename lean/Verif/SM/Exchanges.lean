import Verif.SM.FourFermion
import Mathlib.Algebra.BigOperators.Field

/-! Exchanges between two fermion lines, case by case, and sums over spins as the code does them. -/

namespace Spinas
open Spec Props Matrix

theorem sumJ_two (T : Int → Int → ℝ) : sumJ (fun x a => sumJ (fun x b => x + T a b) x) 0 = ∑ a : Fin 2, ∑ b : Fin 2, T (spinOf a) (spinOf b) := by
  simp only [sumJ, Fin.sum_univ_two, show spinOf 0 = -1 from rfl, show spinOf 1 = 1 from rfl]; ring
theorem sumJ_three (T : Int → Int → Int → ℝ) : sumJ (fun x a => sumJ (fun x b => sumJ (fun x c => x + T a b c) x) x) 0 =
    ∑ a : Fin 2, ∑ b : Fin 2, ∑ c : Fin 2, T (spinOf a) (spinOf b) (spinOf c) := by
  simp only [sumJ, Fin.sum_univ_two, show spinOf 0 = -1 from rfl, show spinOf 1 = 1 from rfl]; ring
theorem sumJ_four (T : Int → Int → Int → Int → ℝ) : sumJ (fun x a => sumJ (fun x b => sumJ (fun x c => sumJ (fun x d => x + T a b c d) x) x) x) 0 =
    ∑ s : Fin 4 → Fin 2, T (spinOf (s 0)) (spinOf (s 1)) (spinOf (s 2)) (spinOf (s 3)) := by
  rw [sum_quad]
  simp only [sumJ, Fin.sum_univ_two, show spinOf 0 = -1 from rfl, show spinOf 1 = 1 from rfl, Matrix.cons_val]; ring

/-! ### colours in the order of the lines -/

theorem colours_annihilation (F : (Fin 4 → Fin 3) → ℝ) :
    ∑ κ, F κ = ∑ a, ∑ b, ∑ d, ∑ e, F (Function.update (Function.update (Function.update (Function.update 0 1 a) 0 b) 2 d) 3 e) := by
  have h : ∀ a b d e, Function.update (Function.update (Function.update (Function.update (0 : Fin 4 → Fin 3) 1 a) 0 b) 2 d) 3 e = ![b, a, d, e] := by
    intros; ext i; fin_cases i <;> rfl
  simp only [h]
  rw [sum_quad, Finset.sum_comm]
theorem colours_scattering (F : (Fin 4 → Fin 3) → ℝ) :
    ∑ κ, F κ = ∑ a, ∑ b, ∑ d, ∑ e, F (Function.update (Function.update (Function.update (Function.update 0 2 a) 0 b) 3 d) 1 e) := by
  have h : ∀ a b d e, Function.update (Function.update (Function.update (Function.update (0 : Fin 4 → Fin 3) 2 a) 0 b) 3 d) 1 e = ![b, e, a, d] := by
    intros; ext i; fin_cases i <;> rfl
  simp only [h]
  rw [sum_quad]
  have s1 : ∑ b, ∑ e, ∑ a, ∑ d, F ![b, e, a, d] = ∑ b, ∑ a, ∑ e, ∑ d, F ![b, e, a, d] := Finset.sum_congr rfl fun _ _ => Finset.sum_comm
  have s2 : ∑ b, ∑ a, ∑ e, ∑ d, F ![b, e, a, d] = ∑ a, ∑ b, ∑ e, ∑ d, F ![b, e, a, d] := Finset.sum_comm
  have s3 : ∑ a, ∑ b, ∑ e, ∑ d, F ![b, e, a, d] = ∑ a, ∑ b, ∑ d, ∑ e, F ![b, e, a, d] := Finset.sum_congr rfl fun _ _ => Finset.sum_congr rfl fun _ _ => Finset.sum_comm
  rw [s1, s2, s3]

namespace Spec.Scattering
variable {S : Scattering} {c : Constants} {p : Nat → V4 ℝ} {A Q : Fin 4 → V2} {i j k l : Fin 4}

theorem ewC_neutral (hn : S.neutral i j k l) (hc : ¬ S.charged i j k l) (ht : S.theory = .standard) {f g : Flavour} (hf : (S.leg i).flavour = f) (hg : (S.leg k).flavour = g)
    {e₁ e₂ e₃ e₄ : ℝ} (h₁ : S.sgn i = e₁) (h₂ : S.sgn j = e₂) (h₃ : S.sgn k = e₃) (h₄ : S.sgn l = e₄) {q : ℝ} (hq : msq (S.transfer p i j) = q) {z h : ℂ} (hz : pole c.MZ c.WZ (S.transfer p i j) = z)
    (hh : pole c.MH c.WH (S.transfer p i j) = h) :
    S.ewC c p A Q i j k l = (c.e ^ 2 * f.charge * g.charge : ℝ) * (jj e₁ e₂ e₃ e₄ (A i) (Q i) (A j) (Q j) (A k) (Q k) (A l) (Q l) 1 1 1 1 / (q : ℂ)) +
      ((c.e ^ 2 / (c.SW ^ 2 * c.CW ^ 2) : ℝ) * ((jj e₁ e₂ e₃ e₄ (A i) (Q i) (A j) (Q j) (A k) (Q k) (A l) (Q l) (c.gL f) (c.gR f) (c.gL g) (c.gR g) +
        ln e₁ e₂ (A i) (Q i) (A j) (Q j) (c.mass f * c.gR f - c.mass f * c.gL f) (c.mass f * c.gL f - c.mass f * c.gR f) *
        ln e₃ e₄ (A k) (Q k) (A l) (Q l) (c.mass g * c.gR g - c.mass g * c.gL g) (c.mass g * c.gL g - c.mass g * c.gR g) / (c.MZ ^ 2 : ℝ)) / z) -
      (c.e ^ 2 * c.mass f * c.mass g / (4 * c.MW ^ 2 * c.SW ^ 2) : ℝ) * (ln e₁ e₂ (A i) (Q i) (A j) (Q j) 1 1 * ln e₃ e₄ (A k) (Q k) (A l) (Q l) 1 1 / h)) := by
  subst hf hg h₁ h₂ h₃ h₄ hq hz hh
  simp only [ewC, if_pos hn, if_pos ht, hc, and_false, if_false, add_zero]

theorem ewC_photon (hn : S.neutral i j k l) (ht : S.theory = .qed) {f g : Flavour} (hf : (S.leg i).flavour = f) (hg : (S.leg k).flavour = g)
    {e₁ e₂ e₃ e₄ : ℝ} (h₁ : S.sgn i = e₁) (h₂ : S.sgn j = e₂) (h₃ : S.sgn k = e₃) (h₄ : S.sgn l = e₄) {q : ℝ} (hq : msq (S.transfer p i j) = q) :
    S.ewC c p A Q i j k l = (c.e ^ 2 * f.charge * g.charge : ℝ) * (jj e₁ e₂ e₃ e₄ (A i) (Q i) (A j) (Q j) (A k) (Q k) (A l) (Q l) 1 1 1 1 / (q : ℂ)) := by
  subst hf hg h₁ h₂ h₃ h₄ hq
  simp [ewC, if_pos hn, ht]

theorem ewC_charged (hn : ¬ S.neutral i j k l) (hc : S.charged i j k l) (ht : S.theory = .standard)
    {e₁ e₂ e₃ e₄ : ℝ} (h₁ : S.sgn i = e₁) (h₂ : S.sgn j = e₂) (h₃ : S.sgn k = e₃) (h₄ : S.sgn l = e₄)
    {m₁ m₂ m₃ m₄ : ℝ} (n₁ : S.legMass c i = m₁) (n₂ : S.legMass c j = m₂) (n₃ : S.legMass c k = m₃) (n₄ : S.legMass c l = m₄) {z : ℂ} (hz : pole c.MW c.WW (S.transfer p i j) = z) :
    S.ewC c p A Q i j k l = (c.e ^ 2 / (2 * c.SW ^ 2) : ℝ) * ((jj e₁ e₂ e₃ e₄ (A i) (Q i) (A j) (Q j) (A k) (Q k) (A l) (Q l) 1 0 1 0 +
      ln e₁ e₂ (A i) (Q i) (A j) (Q j) (-m₁) m₂ * ln e₃ e₄ (A k) (Q k) (A l) (Q l) (-m₃) m₄ / (c.MW ^ 2 : ℝ)) / z) := by
  subst h₁ h₂ h₃ h₄ n₁ n₂ n₃ n₄ hz
  simp only [ewC, if_neg hn, ht, hc, and_self, if_true, zero_add]

theorem ewC_none (hn : ¬ S.neutral i j k l) (hc : ¬ S.charged i j k l) : S.ewC c p A Q i j k l = 0 := by simp [ewC, hn, hc]
theorem ewC_qed_none (hn : ¬ S.neutral i j k l) (ht : S.theory = .qed) : S.ewC c p A Q i j k l = 0 := by simp [ewC, hn, ht]
theorem strongC_none (hn : ¬ S.neutral i j k l) : S.strongC c p A Q i j k l = 0 := by simp [strongC, hn]
theorem strongC_quarks (hn : S.neutral i j k l) (ht : S.theory = .standard) (hi : (S.leg i).flavour.quark = true) (hk : (S.leg k).flavour.quark = true)
    {e₁ e₂ e₃ e₄ : ℝ} (h₁ : S.sgn i = e₁) (h₂ : S.sgn j = e₂) (h₃ : S.sgn k = e₃) (h₄ : S.sgn l = e₄) {q : ℝ} (hq : msq (S.transfer p i j) = q) :
    S.strongC c p A Q i j k l = (c.gs ^ 2 : ℝ) * (jj e₁ e₂ e₃ e₄ (A i) (Q i) (A j) (Q j) (A k) (Q k) (A l) (Q l) 1 1 1 1 / (q : ℂ)) := by
  subst h₁ h₂ h₃ h₄ hq
  simp [strongC, hn, ht, hi, hk]

/-- A neutrino has one helicity only. -/
theorem ewC_neutrino (n : Fin 4) (hk : (S.leg n).flavour.kind = .neutrino) (hm : c.mass (S.leg n).flavour = 0) (h : ((n = i ∨ n = k) ∧ Q n = 0) ∨ ((n = j ∨ n = l) ∧ A n = 0)) :
    S.ewC c p A Q i j k l = 0 := by
  have g0 : ∀ f : Flavour, f.kind = .neutrino → f.charge = 0 ∧ c.gR f = 0 := by
    intro f hf
    have : f.charge = 0 := by unfold Flavour.charge; rw [hf]
    exact ⟨this, by simp [Constants.gR, this]⟩
  obtain ⟨ch, gr⟩ := g0 _ hk
  have sz := sb_zero
  have az := ab_zero
  rcases h with ⟨rfl | rfl, h⟩ | ⟨rfl | rfl, h⟩
  · simp [ewC, jj, ln, ch, gr, hm, h, fun x => (sz x).2]
  · simp [ewC, jj, ln, ch, gr, hm, h, fun x => (sz x).1, fun x => (sz x).2]
  · by_cases hn : S.neutral i n k l
    · simp [ewC, hn, hn.1, jj, ln, ch, gr, hm, h, fun x => (az x).1, fun x => (az x).2]
    · simp [ewC, hn, jj, ln, hm, h, fun x => (az x).1, fun x => (az x).2]
  · by_cases hn : S.neutral i j k n
    · simp [ewC, hn, hn.2, jj, ln, ch, gr, hm, h, fun x => (az x).1]
    · simp [ewC, hn, jj, ln, hm, h, fun x => (az x).1]

/-! ### a line of quarks and one of leptons -/

section
variable [FPEnv] (hp : ∀ i : Fin 4, OnShell (p i) (S.legMass c i)) (hm : ∀ f, 0 ≤ c.mass f) {u : Fin 4 → Fin 2 → Spinor} (hu : ∀ n, S.Complete c p n (u n))
include hp hm hu

theorem mixed_annihilation (he : S.ends = [1, 2]) (hs : S.starts = [0, 3]) (hf : S.Flows p 1 0 2 3) (hq : ∀ n, (S.leg n).flavour.quark = decide (n = 0 ∨ n = 1))
    (h0 : ¬ S.neutral 1 3 2 0) (h0' : ¬ S.charged 1 3 2 0) :
    S.squared c p u = (∑ s : Fin 4 → Fin 2, 3 * ‖S.ewC c p (S.angs c p s) (S.sqrs c p s) 1 0 2 3‖ ^ 2) / (S.states * S.symmetry) := by
  rw [S.squared_mixed_annihilation he hs hp hm hu true hq h0 h0']
  congr 1
  refine Finset.sum_congr rfl fun s _ => ?_
  rw [(S.connected_conj he hs hp hm hf s).1, norm_star]

theorem mixed_scattering (he : S.ends = [2, 3]) (hs : S.starts = [0, 1]) (hf : S.Flows p 2 0 3 1) (hq : ∀ n, (S.leg n).flavour.quark = decide (n = 0 ∨ n = 3))
    (h0 : ¬ S.neutral 2 0 3 1) (h0' : ¬ S.charged 2 0 3 1) :
    S.squared c p u = (∑ s : Fin 4 → Fin 2, 3 * ‖S.ewC c p (S.angs c p s) (S.sqrs c p s) 2 1 3 0‖ ^ 2) / (S.states * S.symmetry) := by
  rw [S.squared_mixed_scattering he hs hp hm hu true hq h0 h0']
  congr 1
  refine Finset.sum_congr rfl fun s _ => ?_
  rw [(S.connected_conj he hs hp hm hf s).2.1, norm_star]

end

/-! ### one exchange of a W, without conjugation -/

/-- closed form of the exchange of a W -/
noncomputable def ewD (S : Scattering) (c : Constants) (p : Nat → V4 ℝ) (A Q : Fin 4 → V2) (i j k l : Fin 4) : ℂ :=
  (c.e ^ 2 / (2 * c.SW ^ 2) : ℝ) * ((-2 * (S.sgn j * S.sgn l * (ab (A i) (A k) * sb (Q j) (Q l))) +
    lw (S.sgn i) (S.sgn j) (A i) (Q i) (A j) (Q j) (S.legMass c i) (S.legMass c j) * lw (S.sgn k) (S.sgn l) (A k) (Q k) (A l) (Q l) (S.legMass c k) (S.legMass c l) / (c.MW ^ 2 : ℝ)) /
    pole c.MW c.WW (S.transfer p i j))

theorem ewD_charged {e₁ e₂ e₃ e₄ : ℝ} (h₁ : S.sgn i = e₁) (h₂ : S.sgn j = e₂) (h₃ : S.sgn k = e₃) (h₄ : S.sgn l = e₄)
    {m₁ m₂ m₃ m₄ : ℝ} (n₁ : S.legMass c i = m₁) (n₂ : S.legMass c j = m₂) (n₃ : S.legMass c k = m₃) (n₄ : S.legMass c l = m₄) :
    S.ewD c p A Q i j k l = (c.e ^ 2 / (2 * c.SW ^ 2) : ℝ) * ((-2 * (e₂ * e₄ * (ab (A i) (A k) * sb (Q j) (Q l))) +
      lw e₁ e₂ (A i) (Q i) (A j) (Q j) m₁ m₂ * lw e₃ e₄ (A k) (Q k) (A l) (Q l) m₃ m₄ / (c.MW ^ 2 : ℝ)) / pole c.MW c.WW (S.transfer p i j)) := by
  subst h₁ h₂ h₃ h₄ n₁ n₂ n₃ n₄; rfl

theorem ewD_neutrino (n : Fin 4) (hm : c.mass (S.leg n).flavour = 0) (h : ((n = i ∨ n = k) ∧ A n = 0) ∨ ((n = j ∨ n = l) ∧ Q n = 0)) : S.ewD c p A Q i j k l = 0 := by
  have hm' : S.legMass c n = 0 := hm
  have sz := sb_zero
  have az := ab_zero
  rcases h with ⟨rfl | rfl, h⟩ | ⟨rfl | rfl, h⟩ <;> simp [ewD, lw, hm', h, fun x => (az x).1, fun x => (az x).2, fun x => (sz x).1, fun x => (sz x).2]

section
variable [FPEnv] (hp : ∀ i : Fin 4, OnShell (p i) (S.legMass c i)) (hm : ∀ f, 0 ≤ c.mass f)
include hp hm

theorem norm_direct (hi : i ∈ S.ends) (hk : k ∈ S.ends) (hj : j ∈ S.starts) (hl : l ∈ S.starts) (ht : S.transfer p i j = S.transfer p l k) (hn : ¬ S.neutral i j k l) (hc : S.charged i j k l)
    (hS : S.theory = .standard) (s : Fin 4 → Fin 2) :
    ‖S.electroweak c p (fun n => S.spinors c p false n (s n)) i j k l‖ = ‖S.ewD c p (S.angs c p s) (S.sqrs c p s) i j k l‖ := by
  have e := S.ew_direct (w := fun n => S.spinors c p false n (s n)) (A := S.angs c p s) (Q := S.sqrs c p s) (S.spinors_end hi (s i)) (S.spinors_start hj (s j)) (S.spinors_end hk (s k))
    (S.spinors_start hl (s l)) (fun n => S.spinors_dirac hp hm false n (s n)) ht hn ⟨hS, hc⟩
  rw [e, ewD, norm_mul, norm_mul, norm_div, norm_div, pole, norm_star]

variable {u : Fin 4 → Fin 2 → Spinor} (hu : ∀ n, S.Complete c p n (u n))
include hu

/-- two lines of leptons that exchange a W between the ends of different lines only -/
theorem leptons_direct (he : S.ends = [i, k]) (hs : S.starts = [j, l]) (ht : S.transfer p i l = S.transfer p j k) (hq : ∀ n, (S.leg n).flavour.quark = false)
    (h1 : ¬ S.neutral i j k l) (h1' : ¬ S.charged i j k l) (hn : ¬ S.neutral i l k j) (hc : S.charged i l k j) (hS : S.theory = .standard) :
    S.squared c p u = (∑ s : Fin 4 → Fin 2, ‖S.ewD c p (S.angs c p s) (S.sqrs c p s) i l k j‖ ^ 2) / (S.states * S.symmetry) := by
  rw [S.squared_leptons_any he hs hp hm hu false hq]
  congr 1
  refine Finset.sum_congr rfl fun s _ => ?_
  have h2 : S.electroweak c p (fun n => S.spinors c p false n (s n)) i j k l = 0 := by unfold electroweak; simp [h1, h1']
  rw [h2, zero_sub, norm_neg, norm_direct hp hm (by simp [he]) (by simp [he]) (by simp [hs]) (by simp [hs]) ht hn hc hS]

theorem annihilation_direct (he : S.ends = [1, 2]) (hs : S.starts = [0, 3]) (ht : S.transfer p 1 0 = S.transfer p 3 2) (hq : ∀ n, (S.leg n).flavour.quark = decide (n = 0 ∨ n = 1))
    (h0 : ¬ S.neutral 1 3 2 0) (h0' : ¬ S.charged 1 3 2 0) (hn : ¬ S.neutral 1 0 2 3) (hc : S.charged 1 0 2 3) (hS : S.theory = .standard) :
    S.squared c p u = (∑ s : Fin 4 → Fin 2, 3 * ‖S.ewD c p (S.angs c p s) (S.sqrs c p s) 1 0 2 3‖ ^ 2) / (S.states * S.symmetry) := by
  rw [S.squared_mixed_annihilation he hs hp hm hu false hq h0 h0']
  congr 1
  refine Finset.sum_congr rfl fun s _ => ?_
  rw [norm_direct hp hm (by simp [he]) (by simp [he]) (by simp [hs]) (by simp [hs]) ht hn hc hS]

theorem scattering_direct (he : S.ends = [2, 3]) (hs : S.starts = [0, 1]) (ht : S.transfer p 2 1 = S.transfer p 0 3) (hq : ∀ n, (S.leg n).flavour.quark = decide (n = 0 ∨ n = 3))
    (h0 : ¬ S.neutral 2 0 3 1) (h0' : ¬ S.charged 2 0 3 1) (hn : ¬ S.neutral 2 1 3 0) (hc : S.charged 2 1 3 0) (hS : S.theory = .standard) :
    S.squared c p u = (∑ s : Fin 4 → Fin 2, 3 * ‖S.ewD c p (S.angs c p s) (S.sqrs c p s) 2 1 3 0‖ ^ 2) / (S.states * S.symmetry) := by
  rw [S.squared_mixed_scattering he hs hp hm hu false hq h0 h0']
  congr 1
  refine Finset.sum_congr rfl fun s _ => ?_
  rw [norm_direct hp hm (by simp [he]) (by simp [he]) (by simp [hs]) (by simp [hs]) ht hn hc hS]

end

/-! ### poles -/

theorem regular_two (he : S.ends = [i, k]) (hs : S.starts = [j, l]) (h : S.Regular c p) : S.OffPole c p i j k l ∧ S.OffPole c p i l k j := by
  unfold Regular at h
  rw [he, hs] at h
  exact h

namespace OffPole
variable (h : S.OffPole c p i j k l)
include h
theorem photon (hn : S.neutral i j k l) (hq : (S.leg i).flavour.charge * (S.leg k).flavour.charge ≠ 0) : (msq (S.transfer p i j) : ℂ) ≠ 0 := by exact_mod_cast (h.1 hn).1 hq
theorem z (hn : S.neutral i j k l) (ht : S.theory = .standard) : pole c.MZ c.WZ (S.transfer p i j) ≠ 0 := pole_ne ((h.1 hn).2 ht).1
theorem higgs (hn : S.neutral i j k l) (ht : S.theory = .standard) (hf : 0 < c.mass (S.leg i).flavour) (hg : 0 < c.mass (S.leg k).flavour) : pole c.MH c.WH (S.transfer p i j) ≠ 0 :=
  pole_ne (((h.1 hn).2 ht).2 (mul_pos hf hg).ne')
theorem w (hc : S.charged i j k l) (ht : S.theory = .standard) : pole c.MW c.WW (S.transfer p i j) ≠ 0 := pole_ne (h.2 ⟨ht, hc⟩)
end OffPole

end Spec.Scattering

theorem Spec.Constants.root (c : Constants) : √(((1 : Nat) : ℝ) - c.SW * c.SW) = c.CW := by rw [Nat.cast_one]; rfl
theorem Spec.Constants.mz (c : Constants) : c.MW / c.CW = c.MZ := rfl
theorem Spec.Constants.Physical.CW {c : Constants} (h : c.Physical) : c.CW ≠ 0 := by
  have := h.SW_lt
  exact (Real.sqrt_pos.2 (by nlinarith)).ne'
theorem Spec.Constants.Physical.MZ {c : Constants} (h : c.Physical) : c.MZ ≠ 0 := div_ne_zero h.MW h.CW

/-- All products of two spinors in one order of the legs, and as variables. -/
macro "abstract_brackets" S:term:max c:term:max p:term:max s:term:max : tactic => `(tactic| (
    try simp only [ab_swap (Scattering.angs $S $c $p $s 0) (Scattering.angs $S $c $p $s 1), ab_swap (Scattering.angs $S $c $p $s 0) (Scattering.angs $S $c $p $s 2), ab_swap (Scattering.angs $S $c $p $s 0) (Scattering.angs $S $c $p $s 3), ab_swap (Scattering.angs $S $c $p $s 1) (Scattering.angs $S $c $p $s 2), ab_swap (Scattering.angs $S $c $p $s 1) (Scattering.angs $S $c $p $s 3), ab_swap (Scattering.angs $S $c $p $s 2) (Scattering.angs $S $c $p $s 3), sb_swap (Scattering.sqrs $S $c $p $s 0) (Scattering.sqrs $S $c $p $s 1), sb_swap (Scattering.sqrs $S $c $p $s 0) (Scattering.sqrs $S $c $p $s 2), sb_swap (Scattering.sqrs $S $c $p $s 0) (Scattering.sqrs $S $c $p $s 3), sb_swap (Scattering.sqrs $S $c $p $s 1) (Scattering.sqrs $S $c $p $s 2), sb_swap (Scattering.sqrs $S $c $p $s 1) (Scattering.sqrs $S $c $p $s 3), sb_swap (Scattering.sqrs $S $c $p $s 2) (Scattering.sqrs $S $c $p $s 3)]
    generalize ab (Scattering.angs $S $c $p $s 0) (Scattering.angs $S $c $p $s 1) = xab01
    generalize ab (Scattering.angs $S $c $p $s 0) (Scattering.angs $S $c $p $s 2) = xab02
    generalize ab (Scattering.angs $S $c $p $s 0) (Scattering.angs $S $c $p $s 3) = xab03
    generalize ab (Scattering.angs $S $c $p $s 1) (Scattering.angs $S $c $p $s 2) = xab12
    generalize ab (Scattering.angs $S $c $p $s 1) (Scattering.angs $S $c $p $s 3) = xab13
    generalize ab (Scattering.angs $S $c $p $s 2) (Scattering.angs $S $c $p $s 3) = xab23
    generalize sb (Scattering.sqrs $S $c $p $s 0) (Scattering.sqrs $S $c $p $s 1) = xsb01
    generalize sb (Scattering.sqrs $S $c $p $s 0) (Scattering.sqrs $S $c $p $s 2) = xsb02
    generalize sb (Scattering.sqrs $S $c $p $s 0) (Scattering.sqrs $S $c $p $s 3) = xsb03
    generalize sb (Scattering.sqrs $S $c $p $s 1) (Scattering.sqrs $S $c $p $s 2) = xsb12
    generalize sb (Scattering.sqrs $S $c $p $s 1) (Scattering.sqrs $S $c $p $s 3) = xsb13
    generalize sb (Scattering.sqrs $S $c $p $s 2) (Scattering.sqrs $S $c $p $s 3) = xsb23))

/-- The last step: both sides are sums of squares of the same numbers. -/
macro "finish_spins" : tactic => `(tactic| (
    try simp only [sub_zero, zero_sub, add_zero, zero_add, neg_add_eq_sub, norm_sub_rev, norm_neg, norm_zero, starRingEnd_apply, star_neg, star_zero, mul_neg, neg_mul, neg_neg, mul_zero, zero_mul, Complex.neg_re, Complex.zero_re]
    try simp only [← starRingEnd_apply, Complex.mul_re, Complex.conj_re, Complex.conj_im]
    push_cast
    ring))

end Spinas
