import Verif.SM.OneBoson
import Verif.SM.Fermions.Leptons

/-! The classes for four fermions where one boson is exchanged: closed formulas. -/

namespace Spinas
open Spec Props Matrix

namespace Spec.Scattering
variable [FPEnv] {S : Scattering} {c : Constants} {p : Nat → V4 ℝ}

theorem order_pair : Order 1 0 2 3 := fun F => (spins_order F).1
theorem order_scatter : Order 2 0 3 1 := fun F => (spins_order F).2.1
theorem order_cross : Order 2 1 3 0 := fun F => (spins_order F).2.2

theorem transfer_pair (h : ∀ i, (S.leg i).anti = ![false, true, false, true] i) (hb : Balanced p) : msq (S.transfer p 1 0) = mandelstamS p ∧ msq (S.transfer p 1 3) = mandelstamT p := by
  obtain ⟨h1, h2⟩ := S.msq_annihilation h hb
  exact ⟨h1, h2⟩
theorem transfer_scatter (h : ∀ i, (S.leg i).anti = false) (hb : Balanced p) : msq (S.transfer p 2 0) = mandelstamT p ∧ msq (S.transfer p 2 1) = mandelstamU p := by
  obtain ⟨h1, h2⟩ := S.msq_scattering h hb
  exact ⟨h1, h2⟩

section
variable (hp : ∀ i : Fin 4, OnShell (p i) (S.legMass c i)) (hm : ∀ f, 0 ≤ c.mass f) (hb : Balanced p) {m M : ℝ}
include hp hm hb

/-- a pair becomes another one -/
theorem pair_sum (ha : ∀ i, (S.leg i).anti = ![false, true, false, true] i) (hl : ∀ i, S.legMass c i = ![m, m, M, M] i) :
    ∑ s, ‖S.exch c p s 1 0 2 3 1 1 1 1‖ ^ 2 = 4 * (2 * ((mandelstamT p - m ^ 2 - M ^ 2) ^ 2 + (mandelstamU p - m ^ 2 - M ^ 2) ^ 2 + 2 * (m ^ 2 + M ^ 2) * mandelstamS p)) := by
  have a0 := ha 0; have a1 := ha 1; have a2 := ha 2; have a3 := ha 3
  have l0 := hl 0; have l1 := hl 1; have l2 := hl 2; have l3 := hl 3
  simp only [Matrix.cons_val] at a0 a1 a2 a3 l0 l1 l2 l3
  have d1 := mandel_s hp; have d2 := mandel_s' hp hb; have d3 := mandel_t hp; have d4 := mandel_t' hp hb; have d5 := mandel_u hp; have d6 := mandel_u' hp hb
  have e := exch_norm hp hm order_pair 1 1 1 1
  simp only [Fin.val_zero, Fin.val_one, Fin.val_two, show ((3 : Fin 4) : Nat) = 3 from rfl] at e
  rw [e]
  simp only [dot_comm (p 1) (p 0), dot_comm (p 2) (p 0), dot_comm (p 3) (p 0), dot_comm (p 3) (p 1), dot_comm (p 2) (p 1), dot_comm (p 3) (p 2), d1, d2, d3, d4, d5, d6, l0, l1, l2, l3]
  simp only [sgn, a0, a1, a2, a3, if_true, if_false, Bool.false_eq_true]
  ring

/-- two particles scatter -/
theorem scatter_sum (ha : ∀ i, (S.leg i).anti = false) (hl : ∀ i, S.legMass c i = ![m, M, m, M] i) :
    ∑ s, ‖S.exch c p s 2 0 3 1 1 1 1 1‖ ^ 2 = 4 * (2 * ((mandelstamS p - m ^ 2 - M ^ 2) ^ 2 + (mandelstamU p - m ^ 2 - M ^ 2) ^ 2 + 2 * (m ^ 2 + M ^ 2) * mandelstamT p)) := by
  have a0 := ha 0; have a1 := ha 1; have a2 := ha 2; have a3 := ha 3
  have l0 := hl 0; have l1 := hl 1; have l2 := hl 2; have l3 := hl 3
  simp only [Matrix.cons_val] at a0 a1 a2 a3 l0 l1 l2 l3
  have d1 := mandel_s hp; have d2 := mandel_s' hp hb; have d3 := mandel_t hp; have d4 := mandel_t' hp hb; have d5 := mandel_u hp; have d6 := mandel_u' hp hb
  have e := exch_norm hp hm order_scatter 1 1 1 1
  simp only [Fin.val_zero, Fin.val_one, Fin.val_two, show ((3 : Fin 4) : Nat) = 3 from rfl] at e
  rw [e]
  simp only [dot_comm (p 1) (p 0), dot_comm (p 2) (p 0), dot_comm (p 3) (p 0), dot_comm (p 3) (p 1), dot_comm (p 2) (p 1), dot_comm (p 3) (p 2), d1, d2, d3, d4, d5, d6, l0, l1, l2, l3]
  simp only [sgn, a0, a1, a2, a3, if_true, if_false, Bool.false_eq_true]
  ring

/-- particle and antiparticle of one kind -/
theorem bhabha_sum (ha : ∀ i, (S.leg i).anti = ![false, true, false, true] i) (hl : ∀ i, S.legMass c i = ![m, m, m, m] i) (a b : ℝ) :
    ∑ s, ‖a * S.exch c p s 1 0 2 3 1 1 1 1 + b * S.exch c p s 1 3 2 0 1 1 1 1‖ ^ 2 = a ^ 2 * (4 * (2 * ((mandelstamT p - m ^ 2 - m ^ 2) ^ 2 + (mandelstamU p - m ^ 2 - m ^ 2) ^ 2 + 2 * (m ^ 2 + m ^ 2) * mandelstamS p))) + b ^ 2 * (4 * (2 * ((mandelstamS p - m ^ 2 - m ^ 2) ^ 2 + (mandelstamU p - m ^ 2 - m ^ 2) ^ 2 + 2 * (m ^ 2 + m ^ 2) * mandelstamT p))) - a * b * (16 * (mandelstamU p - 2 * m ^ 2) * (mandelstamU p - 6 * m ^ 2)) := by
  have a0 := ha 0; have a1 := ha 1; have a2 := ha 2; have a3 := ha 3
  have l0 := hl 0; have l1 := hl 1; have l2 := hl 2; have l3 := hl 3
  simp only [Matrix.cons_val] at a0 a1 a2 a3 l0 l1 l2 l3
  have d1 := mandel_s hp; have d2 := mandel_s' hp hb; have d3 := mandel_t hp; have d4 := mandel_t' hp hb; have d5 := mandel_u hp; have d6 := mandel_u' hp hb
  have e := exch_norm_two hp hm order_pair a b
  simp only [Fin.val_zero, Fin.val_one, Fin.val_two, show ((3 : Fin 4) : Nat) = 3 from rfl] at e
  rw [e]
  simp only [dot_comm (p 1) (p 0), dot_comm (p 2) (p 0), dot_comm (p 3) (p 0), dot_comm (p 3) (p 1), dot_comm (p 2) (p 1), dot_comm (p 3) (p 2), d1, d2, d3, d4, d5, d6, l0, l1, l2, l3]
  simp only [sgn, a0, a1, a2, a3, if_true, if_false, Bool.false_eq_true]
  have k := mandel_sum hp hb
  rw [l0, l1, l2, l3] at k
  rw [k]
  ring

/-- two particles of one kind -/
theorem moller_sum (ha : ∀ i, (S.leg i).anti = false) (hl : ∀ i, S.legMass c i = ![m, m, m, m] i) (a b : ℝ) :
    ∑ s, ‖a * S.exch c p s 2 0 3 1 1 1 1 1 + b * S.exch c p s 2 1 3 0 1 1 1 1‖ ^ 2 = a ^ 2 * (4 * (2 * ((mandelstamS p - m ^ 2 - m ^ 2) ^ 2 + (mandelstamU p - m ^ 2 - m ^ 2) ^ 2 + 2 * (m ^ 2 + m ^ 2) * mandelstamT p))) + b ^ 2 * (4 * (2 * ((mandelstamS p - m ^ 2 - m ^ 2) ^ 2 + (mandelstamT p - m ^ 2 - m ^ 2) ^ 2 + 2 * (m ^ 2 + m ^ 2) * mandelstamU p))) - a * b * (16 * (mandelstamS p - 2 * m ^ 2) * (mandelstamS p - 6 * m ^ 2)) := by
  have a0 := ha 0; have a1 := ha 1; have a2 := ha 2; have a3 := ha 3
  have l0 := hl 0; have l1 := hl 1; have l2 := hl 2; have l3 := hl 3
  simp only [Matrix.cons_val] at a0 a1 a2 a3 l0 l1 l2 l3
  have d1 := mandel_s hp; have d2 := mandel_s' hp hb; have d3 := mandel_t hp; have d4 := mandel_t' hp hb; have d5 := mandel_u hp; have d6 := mandel_u' hp hb
  have e := exch_norm_two hp hm order_scatter a b
  simp only [Fin.val_zero, Fin.val_one, Fin.val_two, show ((3 : Fin 4) : Nat) = 3 from rfl] at e
  rw [e]
  simp only [dot_comm (p 1) (p 0), dot_comm (p 2) (p 0), dot_comm (p 3) (p 0), dot_comm (p 3) (p 1), dot_comm (p 2) (p 1), dot_comm (p 3) (p 2), d1, d2, d3, d4, d5, d6, l0, l1, l2, l3]
  simp only [sgn, a0, a1, a2, a3, if_true, if_false, Bool.false_eq_true]
  have k := mandel_sum hp hb
  rw [l0, l1, l2, l3] at k
  rw [k]
  ring

/-- a pair becomes neutrinos -/
theorem pair_neutrinos (ha : ∀ i, (S.leg i).anti = ![false, true, false, true] i) (hl : ∀ i, S.legMass c i = ![m, m, 0, 0] i) (gL gR : ℝ) :
    ∑ s, ‖S.exch c p s 1 0 2 3 gL gR (1 / 2) 0‖ ^ 2 = neutrinoScattering gL gR m (mandelstamU p) (mandelstamS p) (mandelstamT p) := by
  have a0 := ha 0; have a1 := ha 1; have a2 := ha 2; have a3 := ha 3
  have l0 := hl 0; have l1 := hl 1; have l2 := hl 2; have l3 := hl 3
  simp only [Matrix.cons_val] at a0 a1 a2 a3 l0 l1 l2 l3
  have d1 := mandel_s hp; have d2 := mandel_s' hp hb; have d3 := mandel_t hp; have d4 := mandel_t' hp hb; have d5 := mandel_u hp; have d6 := mandel_u' hp hb
  have e := exch_norm hp hm order_pair gL gR (1 / 2) 0
  simp only [Fin.val_zero, Fin.val_one, Fin.val_two, show ((3 : Fin 4) : Nat) = 3 from rfl] at e
  rw [e]
  simp only [dot_comm (p 1) (p 0), dot_comm (p 2) (p 0), dot_comm (p 3) (p 0), dot_comm (p 3) (p 1), dot_comm (p 2) (p 1), dot_comm (p 3) (p 2), d1, d2, d3, d4, d5, d6, l0, l1, l2, l3]
  simp only [sgn, a0, a1, a2, a3, if_true, if_false, Bool.false_eq_true]
  unfold neutrinoScattering
  ring

/-- a neutrino is scattered -/
theorem scatter_neutrino (ha : ∀ i, (S.leg i).anti = false) (hl : ∀ i, S.legMass c i = ![m, 0, m, 0] i) (gL gR : ℝ) :
    ∑ s, ‖S.exch c p s 2 0 3 1 gL gR (1 / 2) 0‖ ^ 2 = neutrinoScattering gL gR m (mandelstamS p) (mandelstamT p) (mandelstamU p) := by
  have a0 := ha 0; have a1 := ha 1; have a2 := ha 2; have a3 := ha 3
  have l0 := hl 0; have l1 := hl 1; have l2 := hl 2; have l3 := hl 3
  simp only [Matrix.cons_val] at a0 a1 a2 a3 l0 l1 l2 l3
  have d1 := mandel_s hp; have d2 := mandel_s' hp hb; have d3 := mandel_t hp; have d4 := mandel_t' hp hb; have d5 := mandel_u hp; have d6 := mandel_u' hp hb
  have e := exch_norm hp hm order_scatter gL gR (1 / 2) 0
  simp only [Fin.val_zero, Fin.val_one, Fin.val_two, show ((3 : Fin 4) : Nat) = 3 from rfl] at e
  rw [e]
  simp only [dot_comm (p 1) (p 0), dot_comm (p 2) (p 0), dot_comm (p 3) (p 0), dot_comm (p 3) (p 1), dot_comm (p 2) (p 1), dot_comm (p 3) (p 2), d1, d2, d3, d4, d5, d6, l0, l1, l2, l3]
  simp only [sgn, a0, a1, a2, a3, if_true, if_false, Bool.false_eq_true]
  unfold neutrinoScattering
  ring

/-- the same for the other order of the particles that leave -/
theorem cross_neutrino (ha : ∀ i, (S.leg i).anti = false) (hl : ∀ i, S.legMass c i = ![m, 0, 0, m] i) (gL gR : ℝ) :
    ∑ s, ‖S.exch c p s 2 1 3 0 (1 / 2) 0 gL gR‖ ^ 2 = neutrinoScattering gL gR m (mandelstamS p) (mandelstamU p) (mandelstamT p) := by
  have a0 := ha 0; have a1 := ha 1; have a2 := ha 2; have a3 := ha 3
  have l0 := hl 0; have l1 := hl 1; have l2 := hl 2; have l3 := hl 3
  simp only [Matrix.cons_val] at a0 a1 a2 a3 l0 l1 l2 l3
  have d1 := mandel_s hp; have d2 := mandel_s' hp hb; have d3 := mandel_t hp; have d4 := mandel_t' hp hb; have d5 := mandel_u hp; have d6 := mandel_u' hp hb
  have e := exch_norm hp hm order_cross (1 / 2) 0 gL gR
  simp only [Fin.val_zero, Fin.val_one, Fin.val_two, show ((3 : Fin 4) : Nat) = 3 from rfl] at e
  rw [e]
  simp only [dot_comm (p 1) (p 0), dot_comm (p 2) (p 0), dot_comm (p 3) (p 0), dot_comm (p 3) (p 1), dot_comm (p 2) (p 1), dot_comm (p 3) (p 2), d1, d2, d3, d4, d5, d6, l0, l1, l2, l3]
  simp only [sgn, a0, a1, a2, a3, if_true, if_false, Bool.false_eq_true]
  unfold neutrinoScattering
  ring
end

/-! ### without electric charges: gluons -/

theorem ewC_uncharged (h : c.e = 0) (A Q : Fin 4 → V2) (i j k l : Fin 4) : S.ewC c p A Q i j k l = 0 := by simp [ewC, h]

section
variable {i j k l : Fin 4} (he : S.ends = [i, k]) (hs : S.starts = [j, l]) (hp : ∀ i : Fin 4, OnShell (p i) (S.legMass c i)) (hm : ∀ f, 0 ≤ c.mass f) (hf : S.Flows p i j k l)
  (hq : ∀ n, (S.leg n).flavour.quark = true) (hn : ∀ F : (Fin 4 → Fin 3) → ℝ, ∑ κ, F κ = ∑ a, ∑ b, ∑ d, ∑ e, F (Function.update (Function.update (Function.update (Function.update 0 i a) j b) k d) l e))
  (hd : [i, j, k, l].Nodup) (h0 : c.e = 0) (ht : S.theory = .standard) {u : Fin 4 → Fin 2 → Spinor} (hu : ∀ n, S.Complete c p n (u n)) {q : ℝ} (hq' : msq (S.transfer p i j) = q)
include he hs hp hm hf hq hn hd h0 ht hu hq'

theorem strong_one (h1 : S.neutral i j k l) (h2 : ¬ S.neutral i l k j) :
    S.squared c p u = 2 * c.gs ^ 4 * ((∑ s, ‖S.exch c p s i j k l 1 1 1 1‖ ^ 2) / q ^ 2) / (S.states * S.symmetry) := by
  rw [S.squared_quarks he hs hp hm hf hu hq hn hd]
  congr 1
  simp only [ewC_uncharged h0, strongC_none h2, strongC_quarks h1 ht (hq i) (hq k) rfl rfl rfl rfl hq']
  rw [Finset.sum_div, Finset.mul_sum]
  refine Finset.sum_congr rfl fun s _ => ?_
  unfold exch
  simp only [norm_mul, norm_div, Complex.norm_real, Real.norm_eq_abs, mul_pow, div_pow, sq_abs, norm_zero, star_zero, mul_zero, Complex.zero_re]
  ring

theorem strong_two (h1 : S.neutral i j k l) (h2 : S.neutral i l k j) {r : ℝ} (hr : msq (S.transfer p i l) = r) :
    S.squared c p u = c.gs ^ 4 * (4 / 3 * (∑ s, ‖(1 / q : ℝ) * S.exch c p s i j k l 1 1 1 1 + (0 : ℝ) * S.exch c p s i l k j 1 1 1 1‖ ^ 2) +
      4 / 3 * (∑ s, ‖(0 : ℝ) * S.exch c p s i j k l 1 1 1 1 + (1 / r : ℝ) * S.exch c p s i l k j 1 1 1 1‖ ^ 2) +
      2 / 3 * ∑ s, ‖(1 / q : ℝ) * S.exch c p s i j k l 1 1 1 1 + (1 / r : ℝ) * S.exch c p s i l k j 1 1 1 1‖ ^ 2) / (S.states * S.symmetry) := by
  rw [S.squared_quarks he hs hp hm hf hu hq hn hd]
  congr 1
  simp only [ewC_uncharged h0, strongC_quarks h1 ht (hq i) (hq k) rfl rfl rfl rfl hq', strongC_quarks h2 ht (hq i) (hq k) rfl rfl rfl rfl hr]
  rw [Finset.mul_sum, Finset.mul_sum, Finset.mul_sum, ← Finset.sum_add_distrib, ← Finset.sum_add_distrib, Finset.mul_sum]
  refine Finset.sum_congr rfl fun s _ => ?_
  change _ = c.gs ^ 4 * (4 / 3 * ‖(1 / q : ℝ) * S.exch c p s i j k l 1 1 1 1 + (0 : ℝ) * S.exch c p s i l k j 1 1 1 1‖ ^ 2 + 4 / 3 * ‖(0 : ℝ) * S.exch c p s i j k l 1 1 1 1 + (1 / r : ℝ) * S.exch c p s i l k j 1 1 1 1‖ ^ 2 +
    2 / 3 * ‖(1 / q : ℝ) * S.exch c p s i j k l 1 1 1 1 + (1 / r : ℝ) * S.exch c p s i l k j 1 1 1 1‖ ^ 2)
  unfold exch
  generalize jj (S.sgn i) (S.sgn j) (S.sgn k) (S.sgn l) _ _ _ _ _ _ _ _ 1 1 1 1 = x
  generalize jj (S.sgn i) (S.sgn l) (S.sgn k) (S.sgn j) _ _ _ _ _ _ _ _ 1 1 1 1 = y
  simp only [← Complex.normSq_eq_norm_sq, Complex.normSq_apply]
  simp only [Complex.add_re, Complex.add_im, Complex.re_ofReal_mul, Complex.im_ofReal_mul, Complex.mul_re, Complex.mul_im, Complex.star_def, Complex.conj_re, Complex.conj_im, Complex.div_ofReal_re, Complex.div_ofReal_im,
    Complex.zero_re, Complex.zero_im, map_zero, Complex.ofReal_re, Complex.ofReal_im]
  ring
end
end Spec.Scattering
end Spinas
